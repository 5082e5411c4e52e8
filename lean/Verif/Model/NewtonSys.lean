import Verif.Model.Expr
import Verif.Model.Gauss

/-!
# Newton's method for systems of equations

The interval Newton operator for `n` equations in `n` unknowns with parameters: the formulas of the equations are evaluated at a point, the
formulas of the Jacobian matrix on the box, and the linear system is solved by Gaussian elimination.  The program is not part of the
repository; the calls it makes are those of `Model/Expr.lean`, `Model/Gauss.lean` and `Model/Bool.lean`
(`base_interval_elem_func_impl.hpp`, `base_interval_rec_bool_func_impl.hpp`, `base_interval_bool_func_impl.hpp`).
-/

namespace P1788
variable (φ : Fmt) {n : ℕ} {κ : Type} (piv : ∀ n, (Fin (n + 1) → Itv) → Fin (n + 1))

/-- The box whose unknowns are replaced by the numbers `m`. -/
def pointBox (B : Fin n ⊕ κ → DItv) (m : Fin n → FP) : Fin n ⊕ κ → Itv :=
  Sum.elim (fun i => ⟨m i, m i⟩) fun k => (B (.inr k)).itv

/-- The Newton operator `m - d` where `d` encloses the solutions of `J d = e(m)`.  `none` if a formula is not known to be defined on the
box (decoration less than `def`), `m` is not a point of the box, or the elimination fails. -/
noncomputable def newtonSys (e : Fin n → Expr (Fin n ⊕ κ)) (J : Fin n → Fin n → Expr (Fin n ⊕ κ)) (B : Fin n ⊕ κ → DItv)
    (m : Fin n → FP) : Option (Fin n → Itv) :=
  if (∀ i, .defd ≤ ((e i).evalD φ B).dec) ∧ (∀ i j, .defd ≤ ((J i j).evalD φ B).dec) ∧ ∀ i, DItv.isMember (m i) (B (.inl i)) = true then
    (gauss φ piv n (fun i j => ((J i j).evalD φ B).itv) fun i => (e i).eval φ (pointBox B m)).map
      fun d i => φ.subI ⟨m i, m i⟩ (d i)
  else none

/-- The test for a unique zero: the box is bounded, and the point and the result of the Newton operator lie in its interior. -/
def newtonSysTest (B : Fin n ⊕ κ → DItv) (m : Fin n → FP) (N : Fin n → Itv) : Bool :=
  decide (∀ i, DItv.pred Itv.isCommon (B (.inl i)) = true ∧ (Itv.mk (m i) (m i)).interior (B (.inl i)).itv = true ∧
    (N i).interior (B (.inl i)).itv = true)

end P1788
