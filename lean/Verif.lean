import Verif.Conform.Basic
import Verif.Conform.Bool1
import Verif.Conform.Bool2
import Verif.Conform.Cancel
import Verif.Conform.Class
import Verif.Conform.Elem1
import Verif.Conform.Elem2
import Verif.Conform.ExBool
import Verif.Conform.ExCancel
import Verif.Conform.ExClass
import Verif.Conform.ExElem
import Verif.Conform.ExMulRevPair
import Verif.Conform.ExNum
import Verif.Conform.ExRecBool
import Verif.Conform.ExRecOverlap
import Verif.Conform.ExRev
import Verif.Conform.ExSetOp
import Verif.Conform.ExValidation
import Verif.Conform.Integ
import Verif.Conform.Io
import Verif.Conform.Misc
import Verif.Conform.MpfrVar
import Verif.Conform.MulRevPair
import Verif.Conform.Num
import Verif.Conform.RecBool
import Verif.Conform.RecOverlap
import Verif.Conform.Rev
import Verif.Conform.SetOp
import Verif.Conform.Util
import Verif.Conform.Validation
import Verif.Lemmas.Arith
import Verif.Lemmas.Atan2
import Verif.Lemmas.Atan2b
import Verif.Lemmas.AutoDiff
import Verif.Lemmas.AutoTame
import Verif.Lemmas.Calls
import Verif.Lemmas.Conv
import Verif.Lemmas.Dec
import Verif.Lemmas.Div
import Verif.Lemmas.Ends
import Verif.Lemmas.Ex
import Verif.Lemmas.FP
import Verif.Lemmas.Fma
import Verif.Lemmas.Glb
import Verif.Lemmas.Interval
import Verif.Lemmas.Mono
import Verif.Lemmas.Mpfr
import Verif.Lemmas.MpfrFinish
import Verif.Lemmas.MpfrVar
import Verif.Lemmas.MulRev
import Verif.Lemmas.Near
import Verif.Lemmas.Nearest
import Verif.Lemmas.NewtonSys
import Verif.Lemmas.Num
import Verif.Lemmas.Occurs
import Verif.Lemmas.Ops
import Verif.Lemmas.OutCase
import Verif.Lemmas.OutStream
import Verif.Lemmas.Pow
import Verif.Lemmas.Reduction
import Verif.Lemmas.Regex
import Verif.Lemmas.Rel
import Verif.Lemmas.Rev
import Verif.Lemmas.RevBox
import Verif.Lemmas.RevCut
import Verif.Lemmas.RevIter
import Verif.Lemmas.RevKeep
import Verif.Lemmas.RevLost
import Verif.Lemmas.RevMono
import Verif.Lemmas.RevNear
import Verif.Lemmas.RevNear2
import Verif.Lemmas.RevPow
import Verif.Lemmas.RevRoot
import Verif.Lemmas.RevTrig
import Verif.Lemmas.RevTrig2
import Verif.Lemmas.RevTrig3
import Verif.Lemmas.RevTrig4
import Verif.Lemmas.RevTrig5
import Verif.Lemmas.RevTrig6
import Verif.Lemmas.RevTrig7
import Verif.Lemmas.Round
import Verif.Lemmas.Search
import Verif.Lemmas.SetOp
import Verif.Lemmas.StreamX
import Verif.Lemmas.StreamX2
import Verif.Lemmas.Tame
import Verif.Lemmas.Tan
import Verif.Lemmas.TanSafe
import Verif.Lemmas.Taylor
import Verif.Lemmas.TextBody
import Verif.Lemmas.TextKept
import Verif.Lemmas.TextLit
import Verif.Lemmas.TextNum
import Verif.Lemmas.TextRead
import Verif.Lemmas.TextStream
import Verif.Lemmas.TextUniq
import Verif.Lemmas.Trig
import Verif.Lemmas.TwoSum
import Verif.Lemmas.Unary
import Verif.Lemmas.Unz
import Verif.Lemmas.UnzDec
import Verif.Lemmas.Write
import Verif.Lemmas.WriteLen
import Verif.Lemmas.WriteNum
import Verif.Lemmas.WriteUnc
import Verif.Lemmas.WriteWide
import Verif.Model.Atan2
import Verif.Model.AutoDiff
import Verif.Model.Bool
import Verif.Model.Calls
import Verif.Model.Cancel
import Verif.Model.Dec
import Verif.Model.Elem
import Verif.Model.ExBits
import Verif.Model.Exception
import Verif.Model.Expr
import Verif.Model.FEnv
import Verif.Model.FP
import Verif.Model.Gauss
import Verif.Model.History
import Verif.Model.Interval
import Verif.Model.MeanValue
import Verif.Model.Memory
import Verif.Model.Minimise
import Verif.Model.MinimiseMono
import Verif.Model.Mixed
import Verif.Model.Monotone
import Verif.Model.Mpfr
import Verif.Model.MpfrVar
import Verif.Model.MulRev
import Verif.Model.NewtonSys
import Verif.Model.Num
import Verif.Model.Ode
import Verif.Model.OutStream
import Verif.Model.Pow
import Verif.Model.Program
import Verif.Model.Propagate
import Verif.Model.Public
import Verif.Model.Quad
import Verif.Model.Reduction
import Verif.Model.Regex
import Verif.Model.Rev
import Verif.Model.RevIter
import Verif.Model.RevTrig
import Verif.Model.Round
import Verif.Model.RoundInt
import Verif.Model.Search
import Verif.Model.Solver
import Verif.Model.Stream
import Verif.Model.StreamX
import Verif.Model.Text
import Verif.Model.Threads
import Verif.Model.Trig
import Verif.Model.Unary
import Verif.Model.Units
import Verif.Model.Verify
import Verif.Model.Write
import Verif.Model.WriteUnc
import Verif.Props.C01
import Verif.Props.C02
import Verif.Props.C03
import Verif.Props.C04
import Verif.Props.C05
import Verif.Props.C06
import Verif.Props.C07
import Verif.Props.C08
import Verif.Props.C09
import Verif.Props.C10
import Verif.Props.C10b
import Verif.Props.C11
import Verif.Props.C11b
import Verif.Props.C11c
import Verif.Props.C12
import Verif.Props.C13
import Verif.Props.C14
import Verif.Props.C15
import Verif.Props.C16
import Verif.Props.C17
import Verif.Props.C18
import Verif.Props.C19
import Verif.Props.C20
import Verif.Props.C20b
import Verif.Props.C20c
import Verif.Props.C20d
import Verif.Props.C21
import Verif.Props.C22
import Verif.Props.C23
import Verif.Props.C24
import Verif.Props.C25
import Verif.Props.C25b
import Verif.Props.C26
import Verif.Props.C27
import Verif.Props.C28
import Verif.Props.C28b
import Verif.Props.C29
import Verif.Props.C29Bad
import Verif.Props.C30
import Verif.Props.C31
import Verif.Props.C31Ends
import Verif.Props.C31Huge
import Verif.Props.C31Lost
import Verif.Props.C32
import Verif.Props.C33
import Verif.Props.C33b
import Verif.Props.C34
import Verif.Props.C35
import Verif.Props.C35b
import Verif.Props.C36
import Verif.Props.C36Ex
import Verif.Props.C37
import Verif.Props.C37b
import Verif.Props.C38
import Verif.Props.C38Exact
import Verif.Props.C38b
import Verif.Props.C39
import Verif.Props.C40
import Verif.Props.C40Near
import Verif.Props.C40NearDec
import Verif.Props.C40Width
import Verif.Props.C40b
import Verif.Props.C41
import Verif.Props.C42
import Verif.Props.C43
import Verif.Props.C44
import Verif.Props.C44b
import Verif.Props.C45
import Verif.Props.C46
import Verif.Props.C47
import Verif.Props.C47Hello
import Verif.Props.C47Wide
import Verif.Props.C47b
import Verif.Props.C48
import Verif.Props.C49
import Verif.Props.C50
import Verif.Props.C51
import Verif.Props.C52
import Verif.Props.C53
import Verif.Props.C54
import Verif.Props.C55
import Verif.Props.C56
import Verif.Props.C57
import Verif.Props.C58
import Verif.Props.C59
import Verif.Props.C60
import Verif.Props.C61
import Verif.Props.C62
import Verif.Props.C62b
import Verif.Props.C63
import Verif.Props.C63b
import Verif.Props.C64
import Verif.Props.C64b
import Verif.Props.C64c
import Verif.Props.C65
import Verif.Props.C66
import Verif.Props.C66Init
import Verif.Props.C67
import Verif.Props.C68
import Verif.Props.C69
import Verif.Props.C69b
import Verif.Props.C70
import Verif.Props.C71
import Verif.Props.C71b
import Verif.Props.C72
import Verif.Props.C73
import Verif.Props.C73Near
import Verif.Props.C74
import Verif.Props.C75
import Verif.Props.C75b
import Verif.Props.C75c
import Verif.Props.C76
import Verif.Props.C76b
import Verif.Props.C77
import Verif.Props.C77b
import Verif.Props.C78
import Verif.Props.C78b
import Verif.Props.C79
import Verif.Spec
import Verif.SpecDec
import Verif.SpecEx
import Verif.SpecExpr
import Verif.SpecNum
import Verif.SpecRev
import Verif.SpecSmooth
import Verif.SpecTame
import Verif.SpecText
