import Verif.Lemmas.SetOp

/-! # C25: intersection and convex hull -/

namespace P1788
variable {φ : Fmt} {x y : Itv}

/-- `intersection(x,y)` denotes exactly the set intersection. -/
theorem C25_intersection (hx : x.Ok φ) (hy : y.Ok φ) :
    (x.inter y).Ok φ ∧ (x.inter y).set = x.set ∩ y.set := Itv.inter_ok_set hx hy

/-- `convex_hull(x,y)` is the smallest interval that contains both. -/
theorem C25_convex_hull (hx : x.Ok φ) (hy : y.Ok φ) : Tightest φ (x.hull y) (x.set ∪ y.set) :=
  Itv.hull_tight hx hy

/-- The decorated versions return the bare result, decorated `trv`, unless an operand is NaI. -/
theorem C25_decorated (a b : DItv) (ha : a.isValid = true) (hb : b.isValid = true) (na : a.isNai = false)
    (nb : b.isNai = false) :
    a.inter b = ⟨a.itv.inter b.itv, .trv⟩ ∧ a.hull b = ⟨a.itv.hull b.itv, .trv⟩ := by
  simp [DItv.inter, DItv.hull, ha, hb, na, nb]

/-- Non-vacuity. -/
example : (Itv.mk (.fin (-1)) .pinf).Ok binary64 ∧ (Itv.mk (.fin (-7)) (.fin (1/2))).Ok binary64 ∧
    (Itv.mk (.fin (-1)) .pinf).inter ⟨.fin (-7), .fin (1/2)⟩ = ⟨.fin (-1), .fin (1/2)⟩ ∧
    (Itv.mk (.fin (-1)) .pinf).hull ⟨.fin (-7), .fin (1/2)⟩ = ⟨.fin (-7), .pinf⟩ :=
  ⟨Itv.ok_of_okb (by decide +kernel), Itv.ok_of_okb (by decide +kernel), by decide +kernel, by decide +kernel⟩

end P1788
