import Verif.Model.Mixed
import Verif.Model.Exception
import Verif.Model.Cancel
import Verif.Model.MulRev
import Verif.Model.Rev
import Verif.Model.RevTrig

/-!
# Everything a program can call to obtain an interval

One table of the constructors, conversions and operations of the library which return intervals, in all their
overloads (bare and decorated, one type and mixed types), and the programs that call them one after the other.
The functions are those of the other files of the model; this file adds nothing to their meaning.
-/

namespace P1788

/-- An interval object of a program: a bare or a decorated interval with number type `T`.
The classes `interval.hpp:57-263`, `decorated_interval.hpp:59-414`. -/
inductive Obj where
  | bare (T : NumTy) (x : Itv)
  | dec (T : NumTy) (x : DItv)

/-- The reverse functions with two interval arguments. `base_interval.hpp:771-911`. -/
inductive RevOp where
  | sqr | abs | cosh | sin | cos | tan
  deriving DecidableEq

/-- Their bare versions. See `Rev.lean`, `RevTrig.lean` for the lines. -/
noncomputable def RevOp.fn (φ : Fmt) : RevOp → Itv → Itv → Itv
  | .sqr => Itv.sqrRev φ | .abs => Itv.absRev | .cosh => Itv.coshRev φ
  | .sin => Itv.sinRev φ | .cos => Itv.cosRev φ | .tan => Itv.tanRev φ

/-- The calls.  `T` is the type of the result, `T1`, `T2`, `T3` those of the arguments of mixed-type overloads
(suffix `M`); the suffix `D` stands for decorated intervals.
The declarations are `base_interval.hpp:161-929`, `interval.hpp:86-245`, `decorated_interval.hpp:88-395`. -/
inductive Call where
  -- constants, `_class_impl.hpp:38-92`
  | empty (T : NumTy) | entire (T : NumTy) | emptyD (T : NumTy) | entireD (T : NumTy) | naiD (T : NumTy)
  -- constructors and conversions, `_class_impl.hpp:104-514`
  | nums (T : NumTy) (l u : FP) | numsM (T T1 T2 : NumTy) (l u : FP)
  | numsD (T : NumTy) (l u : FP) | numsMD (T T1 T2 : NumTy) (l u : FP)
  | numsDec (T : NumTy) (l u : FP) (d : UInt8) | numsDecM (T T1 T2 : NumTy) (l u : FP) (d : UInt8)
  | newDec (T : NumTy) (x : Itv) | newDecM (T T1 : NumTy) (x : Itv)
  | setDec (T : NumTy) (x : Itv) (d : UInt8) | setDecM (T T1 : NumTy) (x : Itv) (d : UInt8)
  | copy (T : NumTy) (x : Itv) | copyD (T : NumTy) (x : DItv)
  | convert (T T1 : NumTy) (x : Itv) | convertD (T T1 : NumTy) (x : DItv)
  | part (T : NumTy) (x : DItv) | partM (T T1 : NumTy) (x : DItv)
  -- elementary functions, `_elem_func_impl.hpp`
  | un (T : NumTy) (op : Op1) (x : Itv) | unM (T T1 : NumTy) (op : Op1) (x : Itv)
  | unD (T : NumTy) (op : Op1) (x : DItv) | unMD (T T1 : NumTy) (op : Op1) (x : DItv)
  | bin (T : NumTy) (op : Op2) (x y : Itv) | binM (T T1 T2 : NumTy) (op : Op2) (x y : Itv)
  | binD (T : NumTy) (op : Op2) (x y : DItv) | binMD (T T1 T2 : NumTy) (op : Op2) (x y : DItv)
  | fma (T : NumTy) (x y z : Itv) | fmaM (T T1 T2 T3 : NumTy) (x y z : Itv)
  | fmaD (T : NumTy) (x y z : DItv) | fmaMD (T T1 T2 T3 : NumTy) (x y z : DItv)
  -- set operations, `_set_op_impl.hpp`
  | inter (T : NumTy) (x y : Itv) | interM (T T1 T2 : NumTy) (x y : Itv)
  | interD (T : NumTy) (x y : DItv) | interMD (T T1 T2 : NumTy) (x y : DItv)
  | hull (T : NumTy) (x y : Itv) | hullM (T T1 T2 : NumTy) (x y : Itv)
  | hullD (T : NumTy) (x y : DItv) | hullMD (T T1 T2 : NumTy) (x y : DItv)
  -- cancellative addition and subtraction, `_cancel_func_impl.hpp`
  | cancelPlus (T : NumTy) (x y : Itv) | cancelPlusM (T T1 T2 : NumTy) (x y : Itv)
  | cancelPlusD (T : NumTy) (x y : DItv) | cancelPlusMD (T T1 T2 : NumTy) (x y : DItv)
  | cancelMinus (T : NumTy) (x y : Itv) | cancelMinusM (T T1 T2 : NumTy) (x y : Itv)
  | cancelMinusD (T : NumTy) (x y : DItv) | cancelMinusMD (T T1 T2 : NumTy) (x y : DItv)
  -- reverse functions, `_rev_func_impl.hpp`
  | rev (T : NumTy) (op : RevOp) (c x : Itv) | revM (T T1 T2 : NumTy) (op : RevOp) (c x : Itv)
  | revD (T : NumTy) (op : RevOp) (c x : DItv) | revMD (T T1 T2 : NumTy) (op : RevOp) (c x : DItv)
  | rev1 (T : NumTy) (op : RevOp) (c : Itv) | rev1M (T T1 : NumTy) (op : RevOp) (c : Itv)
  | rev1D (T : NumTy) (op : RevOp) (c : DItv) | rev1MD (T T1 : NumTy) (op : RevOp) (c : DItv)
  | pownRev (T : NumTy) (c x : Itv) (p : ℤ) | pownRevM (T T1 T2 : NumTy) (c x : Itv) (p : ℤ)
  | pownRevD (T : NumTy) (c x : DItv) (p : ℤ) | pownRevMD (T T1 T2 : NumTy) (c x : DItv) (p : ℤ)
  | pownRev1 (T : NumTy) (c : Itv) (p : ℤ) | pownRev1M (T T1 : NumTy) (c : Itv) (p : ℤ)
  | pownRev1D (T : NumTy) (c : DItv) (p : ℤ) | pownRev1MD (T T1 : NumTy) (c : DItv) (p : ℤ)
  | mulRev (T : NumTy) (b c x : Itv) | mulRevM (T T1 T2 T3 : NumTy) (b c x : Itv)
  | mulRevD (T : NumTy) (b c x : DItv) | mulRevMD (T T1 T2 T3 : NumTy) (b c x : DItv)
  | mulRev2 (T : NumTy) (b c : Itv) | mulRev2M (T T1 T2 : NumTy) (b c : Itv)
  | mulRev2D (T : NumTy) (b c : DItv) | mulRev2MD (T T1 T2 : NumTy) (b c : DItv)
  -- `_mul_rev_to_pair_func_impl.hpp`; the result has two components
  | mulRevPair (T : NumTy) (b c : Itv) | mulRevPairM (T T1 T2 : NumTy) (b c : Itv)
  | mulRevPairD (T : NumTy) (b c : DItv) | mulRevPairMD (T T1 T2 : NumTy) (b c : DItv)

namespace Call

/-- The interval arguments of a call. -/
def args : Call → List Obj
  | empty _ | entire _ | emptyD _ | entireD _ | naiD _ => []
  | nums _ _ _ | numsM _ _ _ _ _ | numsD _ _ _ | numsMD _ _ _ _ _ | numsDec _ _ _ _ | numsDecM _ _ _ _ _ _ => []
  | newDec T x | setDec T x _ | copy T x => [.bare T x]
  | newDecM _ T1 x | setDecM _ T1 x _ | convert _ T1 x => [.bare T1 x]
  | copyD T x | part T x => [.dec T x]
  | convertD _ T1 x | partM _ T1 x => [.dec T1 x]
  | un T _ x => [.bare T x] | unM _ T1 _ x => [.bare T1 x]
  | unD T _ x => [.dec T x] | unMD _ T1 _ x => [.dec T1 x]
  | bin T _ x y => [.bare T x, .bare T y] | binM _ T1 T2 _ x y => [.bare T1 x, .bare T2 y]
  | binD T _ x y => [.dec T x, .dec T y] | binMD _ T1 T2 _ x y => [.dec T1 x, .dec T2 y]
  | fma T x y z => [.bare T x, .bare T y, .bare T z] | fmaM _ T1 T2 T3 x y z => [.bare T1 x, .bare T2 y, .bare T3 z]
  | fmaD T x y z => [.dec T x, .dec T y, .dec T z] | fmaMD _ T1 T2 T3 x y z => [.dec T1 x, .dec T2 y, .dec T3 z]
  | inter T x y | hull T x y | cancelPlus T x y | cancelMinus T x y => [.bare T x, .bare T y]
  | interM _ T1 T2 x y | hullM _ T1 T2 x y | cancelPlusM _ T1 T2 x y | cancelMinusM _ T1 T2 x y =>
    [.bare T1 x, .bare T2 y]
  | interD T x y | hullD T x y | cancelPlusD T x y | cancelMinusD T x y => [.dec T x, .dec T y]
  | interMD _ T1 T2 x y | hullMD _ T1 T2 x y | cancelPlusMD _ T1 T2 x y | cancelMinusMD _ T1 T2 x y =>
    [.dec T1 x, .dec T2 y]
  | rev T _ c x => [.bare T c, .bare T x] | revM _ T1 T2 _ c x => [.bare T1 c, .bare T2 x]
  | revD T _ c x => [.dec T c, .dec T x] | revMD _ T1 T2 _ c x => [.dec T1 c, .dec T2 x]
  | rev1 T _ c => [.bare T c] | rev1M _ T1 _ c => [.bare T1 c]
  | rev1D T _ c => [.dec T c] | rev1MD _ T1 _ c => [.dec T1 c]
  | pownRev T c x _ => [.bare T c, .bare T x] | pownRevM _ T1 T2 c x _ => [.bare T1 c, .bare T2 x]
  | pownRevD T c x _ => [.dec T c, .dec T x] | pownRevMD _ T1 T2 c x _ => [.dec T1 c, .dec T2 x]
  | pownRev1 T c _ => [.bare T c] | pownRev1M _ T1 c _ => [.bare T1 c]
  | pownRev1D T c _ => [.dec T c] | pownRev1MD _ T1 c _ => [.dec T1 c]
  | mulRev T b c x => [.bare T b, .bare T c, .bare T x]
  | mulRevM _ T1 T2 T3 b c x => [.bare T1 b, .bare T2 c, .bare T3 x]
  | mulRevD T b c x => [.dec T b, .dec T c, .dec T x]
  | mulRevMD _ T1 T2 T3 b c x => [.dec T1 b, .dec T2 c, .dec T3 x]
  | mulRev2 T b c => [.bare T b, .bare T c] | mulRev2M _ T1 T2 b c => [.bare T1 b, .bare T2 c]
  | mulRev2D T b c => [.dec T b, .dec T c] | mulRev2MD _ T1 T2 b c => [.dec T1 b, .dec T2 c]
  | mulRevPair T b c => [.bare T b, .bare T c] | mulRevPairM _ T1 T2 b c => [.bare T1 b, .bare T2 c]
  | mulRevPairD T b c => [.dec T b, .dec T c] | mulRevPairMD _ T1 T2 b c => [.dec T1 b, .dec T2 c]

/-- The values a computation that may signal can return (in some exception state). -/
def retB (T : NumTy) (m : M Itv) : Set Obj := {o | ∃ s r, (m s).1 = .ret r ∧ o = .bare T r}

/-- The same for decorated values. -/
def retD (T : NumTy) (m : M DItv) : Set Obj := {o | ∃ s r, (m s).1 = .ret r ∧ o = .dec T r}

/-- The value of a computation that may be undefined. -/
def optB (T : NumTy) (m : Option Itv) : Set Obj := {o | ∃ r, m = some r ∧ o = .bare T r}

/-- The same for decorated values. -/
def optD (T : NumTy) (m : Option DItv) : Set Obj := {o | ∃ r, m = some r ∧ o = .dec T r}

/-- The intervals a call may return: two for `mul_rev_to_pair`; none if the call is undefined. -/
noncomputable def yields : Call → Set Obj
  | empty T => {.bare T Itv.empty} | entire T => {.bare T Itv.entire}
  | emptyD T => {.dec T DItv.empty} | entireD T => {.dec T DItv.entire} | naiD T => {.dec T DItv.nai}
  | nums T l u => retB T (numsToInterval l u)
  | numsM T _ _ l u => retB T (T.fmt.numsToIntervalMixed l u)
  | numsD T l u => retD T (numsToDecorated l u)
  | numsMD T _ _ l u => retD T (T.fmt.numsToDecoratedMixed l u)
  | numsDec T l u d => retD T (numsDecToDecorated l u d)
  | numsDecM T _ _ l u d => retD T (T.fmt.numsDecToDecoratedMixed l u d)
  | newDec T x => retD T (P1788.newDecM x) | newDecM T _ x => retD T (T.fmt.newDecMixed x)
  | setDec T x d => retD T (P1788.setDec x d) | setDecM T _ x d => retD T (T.fmt.setDecMixed x d)
  | copy T x => retB T (copyM x) | copyD T x => retD T (copyDM x)
  | convert T _ x => retB T (T.fmt.convertType x) | convertD T _ x => retD T (T.fmt.convertTypeD x)
  | part T x => retB T (intervalPart x) | partM T _ x => retB T (T.fmt.intervalPartMixed x)
  | un T op x => {.bare T (op.bare T.fmt x)} | unM T T1 op x => {.bare T (op.mixed T T1 x)}
  | unD T op x => {.dec T (op.decd T.fmt x)} | unMD T T1 op x => {.dec T (op.mixedD T T1 x)}
  | bin T op x y => {.bare T (op.bare T.fmt x y)} | binM T T1 T2 op x y => {.bare T (op.mixed T T1 T2 x y)}
  | binD T op x y => {.dec T (op.decd T.fmt x y)} | binMD T T1 T2 op x y => {.dec T (op.mixedD T T1 T2 x y)}
  | fma T x y z => {.bare T (T.fmt.fmaI x y z)} | fmaM T T1 T2 T3 x y z => {.bare T (fmaMixed T T1 T2 T3 x y z)}
  | fmaD T x y z => {.dec T (T.fmt.fmaD x y z)} | fmaMD T T1 T2 T3 x y z => {.dec T (fmaMixedD T T1 T2 T3 x y z)}
  | inter T x y => {.bare T (x.inter y)} | interM T T1 T2 x y => {.bare T (Itv.interMixed T T1 T2 x y)}
  | interD T x y => {.dec T (x.inter y)} | interMD T T1 T2 x y => {.dec T (DItv.interMixed T T1 T2 x y)}
  | hull T x y => {.bare T (x.hull y)} | hullM T T1 T2 x y => {.bare T (Itv.hullMixed T T1 T2 x y)}
  | hullD T x y => {.dec T (x.hull y)} | hullMD T T1 T2 x y => {.dec T (DItv.hullMixed T T1 T2 x y)}
  | cancelPlus T x y => {.bare T (x.cancelPlus T.fmt y)}
  | cancelPlusM T T1 T2 x y => {.bare T (Itv.cancelPlusMixed T T1 T2 x y)}
  | cancelPlusD T x y => {.dec T (x.cancelPlus T.fmt y)}
  | cancelPlusMD T T1 T2 x y => {.dec T (DItv.cancelPlusMixed T T1 T2 x y)}
  | cancelMinus T x y => {.bare T (x.cancelMinus T.fmt y)}
  | cancelMinusM T T1 T2 x y => {.bare T (Itv.cancelMinusMixed T T1 T2 x y)}
  | cancelMinusD T x y => {.dec T (x.cancelMinus T.fmt y)}
  | cancelMinusMD T T1 T2 x y => {.dec T (DItv.cancelMinusMixed T T1 T2 x y)}
  | rev T op c x => {.bare T (op.fn T.fmt c x)}
  | revM T T1 T2 op c x => {.bare T (Itv.revMixed (fun φ => op.fn φ) T T1 T2 c x)}
  | revD T op c x => {.dec T (DItv.rev (op.fn T.fmt) c x)}
  | revMD T T1 T2 op c x => {.dec T (DItv.revMixed (fun φ => op.fn φ) T T1 T2 c x)}
  | rev1 T op c => {.bare T (Itv.rev1 (op.fn T.fmt) c)}
  | rev1M T T1 op c => {.bare T (Itv.rev1 (Itv.revMixed (fun φ => op.fn φ) T T1 T) c)}
  | rev1D T op c => {.dec T (DItv.rev1 (DItv.rev (op.fn T.fmt)) c)}
  | rev1MD T T1 op c => {.dec T (DItv.rev1 (DItv.revMixed (fun φ => op.fn φ) T T1 T) c)}
  | pownRev T c x p => optB T (c.pownRev T.fmt x p)
  | pownRevM T T1 T2 c x p => optB T (Itv.pownRevMixed T T1 T2 c x p)
  | pownRevD T c x p => optD T (c.pownRev T.fmt x p)
  | pownRevMD T T1 T2 c x p => optD T (DItv.pownRevMixed T T1 T2 c x p)
  | pownRev1 T c p => optB T (c.pownRev1 T.fmt p)
  | pownRev1M T T1 c p => optB T (Itv.pownRevMixed T T1 T c Itv.entire p)
  | pownRev1D T c p => optD T (c.pownRev1 T.fmt p)
  | pownRev1MD T T1 c p => optD T (DItv.pownRevMixed T T1 T c DItv.entire p)
  | mulRev T b c x => {.bare T (b.mulRev T.fmt c x)}
  | mulRevM T T1 T2 T3 b c x => {.bare T (Itv.mulRevMixed T T1 T2 T3 b c x)}
  | mulRevD T b c x => {.dec T (b.mulRev T.fmt c x)}
  | mulRevMD T T1 T2 T3 b c x => {.dec T (DItv.mulRevMixed T T1 T2 T3 b c x)}
  | mulRev2 T b c => {.bare T (b.mulRev2 T.fmt c)}
  | mulRev2M T T1 T2 b c => {.bare T (Itv.mulRev2Mixed T T1 T2 b c)}
  | mulRev2D T b c => {.dec T (b.mulRev2 T.fmt c)}
  | mulRev2MD T T1 T2 b c => {.dec T (DItv.mulRev2Mixed T T1 T2 b c)}
  | mulRevPair T b c => {.bare T (b.mulRevToPair T.fmt c).1, .bare T (b.mulRevToPair T.fmt c).2}
  | mulRevPairM T T1 T2 b c =>
    {.bare T (Itv.mulRevToPairMixed T T1 T2 b c).1, .bare T (Itv.mulRevToPairMixed T T1 T2 b c).2}
  | mulRevPairD T b c => {.dec T (b.mulRevToPair T.fmt c).1, .dec T (b.mulRevToPair T.fmt c).2}
  | mulRevPairMD T T1 T2 b c =>
    {.dec T (DItv.mulRevToPairMixed T T1 T2 b c).1, .dec T (DItv.mulRevToPairMixed T T1 T2 b c).2}

/-- The number arguments are values of their types (the exponent of a power is an `int`). -/
def WellTyped : Call → Prop
  | nums T l u | numsD T l u | numsDec T l u _ => l.In T.fmt ∧ u.In T.fmt
  | numsM _ T1 T2 l u | numsMD _ T1 T2 l u | numsDecM _ T1 T2 l u _ => l.In T1.fmt ∧ u.In T2.fmt
  | pownRev _ _ _ p | pownRevM _ _ _ _ _ p | pownRevD _ _ _ p | pownRevMD _ _ _ _ _ p | pownRev1 _ _ p
  | pownRev1M _ _ _ p | pownRev1D _ _ p | pownRev1MD _ _ _ p => -2 ^ 31 ≤ p ∧ p < 2 ^ 31
  | _ => True

end Call

/-- The finite histories of a program: `History P l` says that the interval objects in `l` have been obtained one
after the other (the last one first), each by a call that satisfies `P` with arguments obtained before. -/
inductive History (P : Call → Prop) : List Obj → Prop
  | start : History P []
  | call {l : List Obj} (h : History P l) (c : Call) (ht : c.WellTyped) (hP : P c) (ha : ∀ a ∈ c.args, a ∈ l)
      {r : Obj} (hr : r ∈ c.yields) : History P (r :: l)

end P1788
