import Verif.Model.NewtonSys
import Verif.Model.Num

/-!
# The mean value form

A program that encloses the range of a formula on a box better than its evaluation does: `e(m) + g(X) * (X - m)`, where `m` is the midpoint
of the box and `g` are formulas of the partial derivatives, intersected with the evaluation.  The program is not part of the repository; the
calls it makes are those of `Model/Expr.lean`, `Model/Num.lean` (`mid`, `base_interval_num_func_impl.hpp`), `Model/Elem.lean` (the operators,
`base_interval_elem_func_impl.hpp:162-263`) and `Model/Interval.lean` (`intersection`, `base_interval_set_op_impl.hpp`).
-/

namespace P1788
variable (φ : Fmt) {n : ℕ} {κ : Type}

/-- The enclosure.  `none` if a formula is not known to be defined on the box (decoration less than `def`). -/
noncomputable def meanValue (e : Expr (Fin n ⊕ κ)) (g : Fin n → Expr (Fin n ⊕ κ)) (B : Fin n ⊕ κ → DItv) : Option Itv :=
  let m := fun i => (B (.inl i)).itv.mid φ
  if .defd ≤ (e.evalD φ B).dec ∧ ∀ j, .defd ≤ ((g j).evalD φ B).dec then
    some (((List.finRange n).foldl
      (fun s j => φ.addI s (φ.mulI ((g j).evalD φ B).itv (φ.subI (B (.inl j)).itv ⟨m j, m j⟩))) (e.eval φ (pointBox B m))).inter
      (e.evalD φ B).itv)
  else none

end P1788
