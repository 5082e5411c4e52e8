import Verif.Lemmas.SetOp

/-! # C26: lattice laws -/

namespace P1788
variable {φ : Fmt} {x y z : Itv}

/-- `equal` is an equivalence and `subset` a partial order with respect to it. -/
theorem C26_partial_order (hx : x.Ok φ) (hy : y.Ok φ) (hz : z.Ok φ) :
    x.equal x = true ∧ (x.equal y = true → y.equal x = true) ∧
    (x.equal y = true → y.equal z = true → x.equal z = true) ∧
    x.subset x = true ∧ (x.subset y = true → y.subset z = true → x.subset z = true) ∧
    (x.subset y = true ∧ y.subset x = true ↔ x.equal y = true) := by
  rw [C22_equal hx hx, C22_equal hx hy, C22_equal hy hx, C22_equal hy hz, C22_equal hx hz, C22_subset hx hx,
    C22_subset hx hy, C22_subset hy hz, C22_subset hx hz, C22_subset hy hx]
  exact ⟨rfl, Eq.symm, Eq.trans, subset_rfl, Set.Subset.trans, Set.Subset.antisymm_iff.symm⟩

/-- Commutativity. -/
theorem C26_comm (hx : x.Ok φ) (hy : y.Ok φ) :
    (x.inter y).equal (y.inter x) = true ∧ (x.hull y).equal (y.hull x) = true := by
  have h1 := Itv.inter_ok_set hx hy
  have h2 := Itv.inter_ok_set hy hx
  have h3 := Itv.hull_tight hx hy
  have h4 := Itv.hull_tight hy hx
  rw [C22_equal h1.1 h2.1, C22_equal h3.1 h4.1, h1.2, h2.2]
  exact ⟨Set.inter_comm _ _, h3.set_unique (h4.of_eq (Set.union_comm _ _))⟩

/-- Hull of a hull. -/
theorem hull_hull_left (hx : x.Ok φ) (hy : y.Ok φ) (hz : z.Ok φ) :
    Tightest φ ((x.hull y).hull z) (x.set ∪ y.set ∪ z.set) := by
  have h1 := Itv.hull_tight hx hy
  have h2 := Itv.hull_tight h1.1 hz
  refine ⟨h2.1, (Set.union_subset_union_left _ h1.2.1).trans h2.2.1, fun Y hY hS => h2.2.2 Y hY ?_⟩
  rw [Set.union_subset_iff] at hS ⊢
  exact ⟨h1.2.2 Y hY hS.1, hS.2⟩

theorem hull_hull_right (hx : x.Ok φ) (hy : y.Ok φ) (hz : z.Ok φ) :
    Tightest φ (x.hull (y.hull z)) (x.set ∪ y.set ∪ z.set) := by
  have h1 := Itv.hull_tight hy hz
  have h2 := Itv.hull_tight hx h1.1
  rw [Set.union_assoc]
  refine ⟨h2.1, (Set.union_subset_union_right _ h1.2.1).trans h2.2.1, fun Y hY hS => h2.2.2 Y hY ?_⟩
  rw [Set.union_subset_iff] at hS ⊢
  exact ⟨hS.1, h1.2.2 Y hY hS.2⟩

/-- Associativity. -/
theorem C26_assoc (hx : x.Ok φ) (hy : y.Ok φ) (hz : z.Ok φ) :
    ((x.inter y).inter z).equal (x.inter (y.inter z)) = true ∧
    ((x.hull y).hull z).equal (x.hull (y.hull z)) = true := by
  have h1 := Itv.inter_ok_set hx hy
  have h2 := Itv.inter_ok_set h1.1 hz
  have h3 := Itv.inter_ok_set hy hz
  have h4 := Itv.inter_ok_set hx h3.1
  have h5 := hull_hull_left hx hy hz
  have h6 := hull_hull_right hx hy hz
  rw [C22_equal h2.1 h4.1, C22_equal h5.1 h6.1, h2.2, h1.2, h4.2, h3.2]
  exact ⟨Set.inter_assoc _ _ _, h5.set_unique h6⟩

/-- Idempotence and absorption. -/
theorem C26_absorb (hx : x.Ok φ) (hy : y.Ok φ) :
    (x.inter x).equal x = true ∧ (x.hull x).equal x = true ∧
    (x.inter (x.hull y)).equal x = true ∧ (x.hull (x.inter y)).equal x = true := by
  have h1 := Itv.inter_ok_set hx hx
  have h2 := Itv.hull_tight hx hx
  have h3 := Itv.hull_tight hx hy
  have h4 := Itv.inter_ok_set hx h3.1
  have h5 := Itv.inter_ok_set hx hy
  have h6 := Itv.hull_tight hx h5.1
  rw [C22_equal h1.1 hx, C22_equal h2.1 hx, C22_equal h4.1 hx, C22_equal h6.1 hx, h1.2, h4.2]
  refine ⟨Set.inter_self _, ?_, ?_, ?_⟩
  · exact h2.set_unique ((Tightest.of_ok hx).of_eq (Set.union_self _).symm)
  · exact Set.inter_eq_left.mpr (Set.subset_union_left.trans h3.2.1)
  · refine h6.set_unique ((Tightest.of_ok hx).of_eq ?_)
    rw [h5.2, Set.union_eq_left.mpr Set.inter_subset_left]

/-- Compatibility of the relations with the operations: `disjoint` iff the intersection is empty, `subset` iff the
intersection is the first / the hull is the second operand, and the operations bound both operands. -/
theorem C26_order (hx : x.Ok φ) (hy : y.Ok φ) :
    (x.disjoint y = true ↔ (x.inter y).isEmpty = true) ∧
    (x.subset y = true ↔ (x.inter y).equal x = true) ∧
    (x.subset y = true ↔ (x.hull y).equal y = true) ∧
    (x.inter y).subset x = true ∧ (x.inter y).subset y = true ∧
    x.subset (x.hull y) = true ∧ y.subset (x.hull y) = true := by
  have h5 := Itv.inter_ok_set hx hy
  have h3 := Itv.hull_tight hx hy
  rw [C22_disjoint hx hy, C22_is_empty h5.1, C22_subset hx hy, C22_equal h5.1 hx, C22_equal h3.1 hy,
    C22_subset h5.1 hx, C22_subset h5.1 hy, C22_subset hx h3.1, C22_subset hy h3.1, h5.2]
  refine ⟨Iff.rfl, Set.inter_eq_left.symm, ?_, Set.inter_subset_left, Set.inter_subset_right,
    Set.subset_union_left.trans h3.2.1, Set.subset_union_right.trans h3.2.1⟩
  constructor
  · intro h
    exact h3.set_unique ((Tightest.of_ok hy).of_eq (Set.union_eq_right.mpr h).symm)
  · intro h
    rw [← h]; exact Set.subset_union_left.trans h3.2.1

/-- Monotonicity: intersection and hull respect `subset`, and the hull is the least upper bound, the intersection
the greatest lower bound. -/
theorem C26_lattice (hx : x.Ok φ) (hy : y.Ok φ) (hz : z.Ok φ) :
    (x.subset z = true ∧ y.subset z = true ↔ (x.hull y).subset z = true) ∧
    (z.subset x = true ∧ z.subset y = true ↔ z.subset (x.inter y) = true) := by
  have h5 := Itv.inter_ok_set hx hy
  have h3 := Itv.hull_tight hx hy
  rw [C22_subset hx hz, C22_subset hy hz, C22_subset h3.1 hz, C22_subset hz hx, C22_subset hz hy,
    C22_subset hz h5.1, h5.2]
  refine ⟨⟨fun h => h3.2.2 z hz (Set.union_subset h.1 h.2), fun h => ?_⟩, Set.subset_inter_iff.symm⟩
  exact Set.union_subset_iff.mp (h3.2.1.trans h)

/-- Non-vacuity: three overlapping intervals. -/
example : (Itv.mk (.fin (-1)) .pinf).Ok binary64 ∧ (Itv.mk (.fin (-7)) (.fin (1/2))).Ok binary64 ∧
    (Itv.mk .nzero (.fin 3)).Ok binary64 ∧
    ((Itv.mk (.fin (-1)) .pinf).inter ((Itv.mk (.fin (-7)) (.fin (1/2))).inter (Itv.mk .nzero (.fin 3)))) =
      ⟨.nzero, .fin (1/2)⟩ :=
  ⟨Itv.ok_of_okb (by decide +kernel), Itv.ok_of_okb (by decide +kernel), Itv.ok_of_okb (by decide +kernel),
    by decide +kernel⟩

end P1788
