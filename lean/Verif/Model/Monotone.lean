import Verif.Model.NewtonSys
import Verif.Model.Num

/-!
# The monotonicity test

A program that looks at the signs of the partial derivatives of a formula on a box.  Where a derivative is known not to be negative the
values are smallest at the lower end of that side and largest at its upper end, and the side can be replaced by its end.  It is used to
enclose the range of the formula with little excess (`monoRange`) and to make a box in which the minimum is looked for smaller
(`minBox`).  The program is not part of the repository; the calls it makes are those of `Model/Expr.lean`, `Model/Num.lean` (`inf`, `sup`,
`infsup/base_interval_num_func_impl.hpp`) and `Model/Interval.lean` (`intersection`, `convex_hull`, `infsup/base_interval_set_op_impl.hpp`).
-/

namespace P1788
variable (φ : Fmt) {n : ℕ} {κ : Type}

/-- `std::isinf(a) ? x : I(a, a)` for an end `a` of `x`. -/
def Itv.face (x : Itv) (a : FP) : Itv := if a.isInf then x else ⟨a, a⟩

/-- The part of the side `x` where the values are smallest if the derivative is in `g`. -/
def Itv.lowSide (x g : Itv) : Itv :=
  if .fin 0 ≤ g.inf then x.face x.inf else if g.sup ≤ .fin 0 then x.face x.sup else x

/-- The part of the side `x` where the values are largest if the derivative is in `g`. -/
def Itv.highSide (x g : Itv) : Itv :=
  if .fin 0 ≤ g.inf then x.face x.sup else if g.sup ≤ .fin 0 then x.face x.inf else x

/-- The part of the side `x` outside of which no value is smallest if the derivative is in `g`. -/
def Itv.minSide (x g : Itv) : Itv :=
  if .fin 0 < g.inf then x.face x.inf else if g.sup < .fin 0 then x.face x.sup else x

/-- The box with other sides for the unknowns. -/
noncomputable def sidesBox (B : Fin n ⊕ κ → DItv) (s : Itv → Itv → Itv) (g : Fin n → Expr (Fin n ⊕ κ)) : Fin n ⊕ κ → Itv
  | .inl j => s (B (.inl j)).itv ((g j).evalD φ B).itv
  | .inr k => (B (.inr k)).itv

/-- The enclosure of the range.  `none` if a formula is not known to be defined on the box (decoration less than `def`). -/
noncomputable def monoRange (e : Expr (Fin n ⊕ κ)) (g : Fin n → Expr (Fin n ⊕ κ)) (B : Fin n ⊕ κ → DItv) : Option Itv :=
  if .defd ≤ (e.evalD φ B).dec ∧ ∀ j, .defd ≤ ((g j).evalD φ B).dec then
    some (((e.eval φ (sidesBox φ B Itv.lowSide g)).hull (e.eval φ (sidesBox φ B Itv.highSide g))).inter (e.evalD φ B).itv)
  else none

/-- The box for the search of a minimum.  `none` if a formula is not known to be defined on the box. -/
noncomputable def minBox (e : Expr (Fin n ⊕ κ)) (g : Fin n → Expr (Fin n ⊕ κ)) (B : Fin n ⊕ κ → DItv) : Option (Fin n ⊕ κ → Itv) :=
  if .defd ≤ (e.evalD φ B).dec ∧ ∀ j, .defd ≤ ((g j).evalD φ B).dec then some (sidesBox φ B Itv.minSide g) else none

end P1788
