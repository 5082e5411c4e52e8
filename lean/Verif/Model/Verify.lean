import Verif.Model.Expr
import Verif.Model.Bool

/-!
# Tests for zeros and fixed points

What decorations are made for: a program evaluates a formula over a box, one variable of which is
the unknown and the others parameters, and concludes from the
result and its decoration that a zero or a fixed point exists, is unique or does not exist.  The programs are not part of
the repository; the calls they make are those of `Model/Expr.lean`, `Model/Bool.lean` and `Model/Interval.lean`
(`base_interval_elem_func_impl.hpp`, `base_interval_bool_func_impl.hpp`, `base_interval_rec_bool_func_impl.hpp`).
-/

namespace P1788
variable (φ : Fmt) {ι : Type} [DecidableEq ι]

/-- The box without decorations, the unknown `i` replaced by the interval `v`. -/
def boxAt (X : ι → DItv) (i : ι) (v : Itv) : ι → Itv := Function.update (fun j => (X j).itv) i v

/-- `is_common_interval(x)`, decoration of `e(X)` at least `dac`, `subset(e(X), x)`, where `x` is the unknown. -/
noncomputable def fixedPointTest (e : Expr ι) (X : ι → DItv) (i : ι) : Bool :=
  let r := e.evalD φ X
  DItv.pred Itv.isCommon (X i) && decide (.dac ≤ r.dec) && DItv.rel Itv.subset r (X i)

/-- `a` and `b` are members of the unknown's interval, the decoration of `e(X)` is at least `dac`, `e` is certainly
negative with the unknown `[a,a]` and certainly positive with `[b,b]`, or the other way round. -/
noncomputable def signChangeTest (e : Expr ι) (X : ι → DItv) (i : ι) (a b : FP) : Bool :=
  let r := e.evalD φ X
  let ea := e.eval φ (boxAt X i ⟨a, a⟩)
  let eb := e.eval φ (boxAt X i ⟨b, b⟩)
  let z : Itv := ⟨.fin 0, .fin 0⟩
  DItv.isMember a (X i) && DItv.isMember b (X i) && decide (.dac ≤ r.dec) &&
    ((ea.strictlyPrecedes z && z.strictlyPrecedes eb) || (eb.strictlyPrecedes z && z.strictlyPrecedes ea))

/-- `e(X)` does not contain 0. -/
noncomputable def noZeroTest (e : Expr ι) (X : ι → Itv) : Bool := !(e.eval φ X).isMember (.fin 0)

/-- `e` is defined on the box and `e'(X)` does not contain 0. -/
noncomputable def injectiveTest (e e' : Expr ι) (X : ι → DItv) : Bool :=
  let r := e.evalD φ X
  let r' := e'.evalD φ X
  decide (.defd ≤ r.dec) && decide (.defd ≤ r'.dec) && !r'.isMember (.fin 0)

/-- The Newton operator `m - e(m) / e'(x)` at a number `m`. -/
noncomputable def newtonOp (e e' : Expr ι) (X : ι → DItv) (i : ι) (m : FP) : Itv :=
  let p : Itv := ⟨m, m⟩
  φ.subI p (φ.divI (e.eval φ (boxAt X i p)) (e'.eval φ fun j => (X j).itv))

/-- The unknown's interval is common and has member `m`, the box passes `injectiveTest`, and the Newton operator lies in
the interval. -/
noncomputable def newtonTest (e e' : Expr ι) (X : ι → DItv) (i : ι) (m : FP) : Bool :=
  DItv.pred Itv.isCommon (X i) && DItv.isMember m (X i) && injectiveTest φ e e' X &&
    (newtonOp φ e e' X i m).subset (X i).itv

end P1788
