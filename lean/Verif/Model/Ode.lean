import Verif.Model.Expr
import Verif.Model.Bool
import Verif.Model.Exception

/-!
# Solutions of differential equations, step by step

A program that encloses the solutions of `u' = f(u)`: for each step it is given a box `X` and a step size `h`, evaluates the formulas of
the right-hand side on `X` with decorated intervals, and checks that `X0 + [0,h] * f(X)` lies in the interior of `X`.  Then
`X0 + [h,h] * f(X)` is the box from which the next step starts.  The program is not part of the repository; the calls it makes are
those of `Model/Expr.lean`, `Model/Elem.lean`, `Model/Bool.lean` and `Model/Exception.lean` (the constructor `infsup/interval.hpp:105-108`,
the operators `base_interval_elem_func_impl.hpp:162-263`, `interior` of `base_interval_bool_func_impl.hpp`, `is_common_interval` of
`base_interval_rec_bool_func_impl.hpp`).
-/

namespace P1788
variable (φ : Fmt) {ι : Type} [Fintype ι]

/-- One step: the box at its end, and whether the checks succeeded. -/
noncomputable def odeStep (f : ι → Expr ι) (X : ι → DItv) (h : FP) (X0 : ι → Itv) : M ((ι → Itv) × Bool) := do
  let H ← numsToInterval (.fin 0) h
  let hh ← numsToInterval h h
  let s := fun i => (f i).evalD φ X
  let checks := fun i => decide (.defd ≤ (s i).dec) && (φ.addI (X0 i) (φ.mulI H (s i).itv)).interior (X i).itv
  return (fun i => φ.addI (X0 i) (φ.mulI hh (s i).itv), H.isCommon && decide (∀ i, checks i = true))

/-- All steps: the box at the end of the last one, and whether all checks succeeded. -/
noncomputable def odeRun (f : ι → Expr ι) : List ((ι → DItv) × FP) → (ι → Itv) → M ((ι → Itv) × Bool)
  | [], X0 => return (X0, true)
  | (X, h) :: l, X0 => do
    let r ← odeStep φ f X h X0
    let r' ← odeRun f l r.1
    return (r'.1, r.2 && r'.2)

end P1788
