import Verif.Model.Verify
import Verif.Model.Exception

/-!
# Integration by evaluating a formula on pieces of an interval

A program that adds up `e(X_k) * ([b,b] - [a,a])` over the pieces `X_k = [a,b]` of an interval and checks that each piece is
bounded and each decoration at least `dac`.  The program is not part of the repository; the calls it makes are those of
`Model/Expr.lean`, `Model/Elem.lean` and `Model/Exception.lean` (the constructors `infsup/interval.hpp:105-108`,
`infsup/decorated_interval.hpp:110-113`, the operators `base_interval_elem_func_impl.hpp:162-263`).
-/

namespace P1788
variable (φ : Fmt) {ι : Type} [DecidableEq ι]

/-- The grid points are `a` and the elements of the list; the result is the sum and whether all checks succeeded. -/
noncomputable def quadrature (e : Expr ι) (X : ι → DItv) (i : ι) : FP → List FP → M (Itv × Bool)
  | _, [] => return (⟨.fin 0, .fin 0⟩, true)
  | a, b :: l => do
    let p ← numsToDecorated a b
    let pa ← numsToInterval a a
    let pb ← numsToInterval b b
    let r := e.evalD φ (Function.update X i p)
    let rest ← quadrature e X i b l
    return (φ.addI (φ.mulI r.itv (φ.subI pb pa)) rest.1, DItv.pred Itv.isCommon p && decide (.dac ≤ r.dec) && rest.2)

end P1788
