import Verif.Model.Num
import Verif.Model.Exception
import Verif.Model.MulRev
import Verif.Model.Elem

/-!
# The search programs among the examples

`examples/e15_bisection.cpp` and `examples/e16_newton.cpp`: programs written with the library which look for all zeros of a function in an
interval.  They are recursive; a run is followed for `n` nested calls, and `Stop.deeper` is the outcome if that does not suffice.
-/

namespace P1788

/-- Why a run has no result: the calls are nested more deeply than followed, or the constructor of an interval has signalled
`undefined_operation`. -/
inductive Stop where
  | deeper | signalled
  deriving DecidableEq

/-- The constructor `I<T>(lower, upper)`, `infsup/interval.hpp:105-108`, `_class_impl.hpp:104-120`; a signalled exception is an outcome. -/
def mkI (l u : FP) : Except Stop Itv := if boundsOk l u then .ok ⟨l, u⟩ else .error .signalled

/-- `ia_bisect`, `examples/e15_bisection.cpp:49-71`: the intervals that are written to the output
iterator, a `std::back_inserter` (it is passed by value, so an iterator with a position of its own would lose results). -/
def bisect (φ : Fmt) (f : Itv → Itv) (eps : FP) : ℕ → Itv → Except Stop (List Itv)
  | 0, _ => .error .deeper
  | n + 1, x =>
    let y := f x
    if y.isMember (.fin 0) then
      if y.wid φ < eps then .ok [x]
      else
        match mkI x.inf (x.mid φ) with
        | .error s => .error s
        | .ok l =>
          match bisect φ f eps n l with
          | .error s => .error s
          | .ok a =>
            match mkI (x.mid φ) x.sup with
            | .error s => .error s
            | .ok r =>
              match bisect φ f eps n r with
              | .error s => .error s
              | .ok b => .ok (a ++ b)
    else .ok []

/-- What `ia_newton` does with one of its two subintervals, `examples/e16_newton.cpp:76-95`. -/
def newtonPart (φ : Fmt) (eps : FP) (rec : Itv → Except Stop (List Itv)) (v : Itv) : Except Stop (List Itv) :=
  if v.isEmpty then .ok []
  else if v.wid φ < eps then .ok [v]
  else rec v

/-- The two subintervals, `examples/e16_newton.cpp:61-74`. -/
def newtonStep (φ : Fmt) (f df : Itv → Itv) (x : Itv) : Except Stop (Itv × Itv) :=
  let m := x.mid φ
  match mkI m m with
  | .error s => .error s
  | .ok c =>
    let z := (df x).mulRevToPair φ (f c)
    let v1 := x.inter (φ.subI c z.1)
    let v2 := x.inter (φ.subI c z.2)
    if v1.equal x then
      match mkI x.inf m with
      | .error s => .error s
      | .ok v1 =>
        match mkI m x.sup with
        | .error s => .error s
        | .ok v2 => .ok (v1, v2)
    else .ok (v1, v2)

/-- `ia_newton`, `examples/e16_newton.cpp:50-96`. -/
def newton (φ : Fmt) (f df : Itv → Itv) (eps : FP) : ℕ → Itv → Except Stop (List Itv)
  | 0, _ => .error .deeper
  | n + 1, x =>
    if !(f x).isMember (.fin 0) then .ok []
    else
      match newtonStep φ f df x with
      | .error s => .error s
      | .ok (v1, v2) =>
        match newtonPart φ eps (newton φ f df eps n) v1 with
        | .error s => .error s
        | .ok a =>
          match newtonPart φ eps (newton φ f df eps n) v2 with
          | .error s => .error s
          | .ok b => .ok (a ++ b)

/-- `f` of both programs, `x * x - I<T>(2.0, 2.0)`, `examples/e15_bisection.cpp:74-78`, `examples/e16_newton.cpp:99-103`. -/
def exF (φ : Fmt) (x : Itv) : Itv := φ.subI (φ.mulI x x) ⟨.fin 2, .fin 2⟩

/-- `df`, `I<T>(2.0, 2.0) * x`, `examples/e16_newton.cpp:106-110`. -/
def exDF (φ : Fmt) (x : Itv) : Itv := φ.mulI ⟨.fin 2, .fin 2⟩ x

end P1788
