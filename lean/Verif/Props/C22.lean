import Verif.Lemmas.Rel
import Verif.Lemmas.Div

/-! # C22: comparison relations decide the relations between the sets of reals

All theorems allow the two intervals to have different number formats `φ`, `ψ` (mixed-type comparison). -/

namespace P1788
variable {φ ψ : Fmt} {x y : Itv}

theorem C22_is_empty (hx : x.Ok φ) : x.isEmpty = true ↔ x.set = ∅ := by
  rw [hx.isEmpty_iff, hx.set_eq_empty_iff]

theorem C22_is_entire (hx : x.Ok φ) : x.isEntire = true ↔ x.set = Set.univ := by
  rcases hx.cases with rfl | hx
  · simp [Itv.isEntire, Itv.empty, FP.feq, FP.leb]
    exact Set.empty_ne_univ
  · rw [NE.isEntire_iff hx]
    constructor
    · exact NE.set_univ hx
    · intro h
      have h1 := (hx.subset_iff (Itv.entire_NE φ)).mp (by simp)
      have h2 := ((Itv.entire_NE φ).subset_iff hx).mp (by rw [h]; simp)
      simpa [Itv.entire] using h2

/-- `equal` is equality of sets. -/
theorem C22_equal (hx : x.Ok φ) (hy : y.Ok ψ) : x.equal y = true ↔ x.set = y.set := hx.eq_iff hy

/-- `subset` is set inclusion. -/
theorem C22_subset (hx : x.Ok φ) (hy : y.Ok ψ) : x.subset y = true ↔ x.set ⊆ y.set := by
  rcases hx.cases with rfl | hx
  · simp [Itv.subset, hy.isValid]
  rcases hy.cases with rfl | hy
  · simp only [Itv.subset, hx.isValid, hx.isEmpty]
    simp [Itv.empty, FP.leb, hx.nonempty.ne_empty]
  · simp only [Itv.subset, hx.isValid, hx.isEmpty, hy.isValid]
    simp [leb_iff hy.lo_ne hx.lo_ne, leb_iff hx.hi_ne hy.hi_ne, hx.subset_iff hy]

/-- `less`: every member of `x` has a member of `y` above it, every member of `y` a member of `x` below it. -/
theorem C22_less (hx : x.Ok φ) (hy : y.Ok ψ) : x.less y = true ↔
    (∀ a ∈ x.set, ∃ b ∈ y.set, a ≤ b) ∧ (∀ b ∈ y.set, ∃ a ∈ x.set, a ≤ b) := by
  rcases hx.cases with rfl | hx <;> rcases hy.cases with rfl | hy
  · simp [Itv.less]
  · simp only [Itv.less, hy.isValid, hy.isEmpty]
    simp [Itv.empty, FP.leb]
    exact hy.nonempty
  · have : ∀ a : FP, a.leb .nan = false := by intro a; cases a <;> rfl
    simp only [Itv.less, hx.isValid, hx.isEmpty]
    simp [Itv.empty, this]
    exact hx.nonempty
  · simp only [Itv.less, hx.isValid, hx.isEmpty, hy.isValid]
    simp only [hy.ex_le, hx.ex_ge, hx.all_le, hy.all_ge]
    simp [leb_iff hx.lo_ne hy.lo_ne, leb_iff hx.hi_ne hy.hi_ne, and_comm]

/-- `precedes`: every member of `x` is `≤` every member of `y`. -/
theorem C22_precedes (hx : x.Ok φ) (hy : y.Ok ψ) : x.precedes y = true ↔
    ∀ a ∈ x.set, ∀ b ∈ y.set, a ≤ b := by
  rcases hx.cases with rfl | hx
  · simp [Itv.precedes, hy.isValid]
  rcases hy.cases with rfl | hy
  · simp [Itv.precedes, hx.isValid]
  · have : (∀ a ∈ x.set, ∀ b ∈ y.set, a ≤ b) ↔ ∀ a ∈ x.set, ∀ b ∈ y.set, (a:EReal) ≤ (b:EReal) := by
      simp only [EReal.coe_le_coe_iff]
    rw [this]
    simp only [Itv.precedes, hx.isValid, hx.isEmpty, hy.isValid, hy.isEmpty, hy.all_ge, hx.all_le]
    simp [leb_iff hx.hi_ne hy.lo_ne]

/-- `interior`: every member of `x` lies strictly between two members of `y`. -/
theorem C22_interior (hx : x.Ok φ) (hy : y.Ok ψ) : x.interior y = true ↔
    ∀ a ∈ x.set, (∃ b ∈ y.set, b < a) ∧ (∃ b ∈ y.set, a < b) := by
  rcases hx.cases with rfl | hx
  · simp [Itv.interior, hy.isValid]
  rcases hy.cases with rfl | hy
  · simp only [Itv.interior, hx.isValid, hx.isEmpty]
    simp [Itv.empty, FP.ltb, FP.feq, FP.leb]
    exact hx.nonempty
  · have : (∀ a ∈ x.set, (∃ b ∈ y.set, b < a) ∧ (∃ b ∈ y.set, a < b)) ↔
        (∀ a ∈ x.set, ∃ b ∈ y.set, b < a) ∧ (∀ a ∈ x.set, ∃ b ∈ y.set, a < b) :=
      ⟨fun h => ⟨fun a ha => (h a ha).1, fun a ha => (h a ha).2⟩, fun h a ha => ⟨h.1 a ha, h.2 a ha⟩⟩
    rw [this]
    simp only [Itv.interior, hx.isValid, hx.isEmpty, hy.isValid, hy.ex_lt, hy.ex_gt, hx.all_lt, hx.all_gt]
    simp [ltb_iff hy.lo_ne hx.lo_ne, ltb_iff hx.hi_ne hy.hi_ne, Itv.feq_pinf, Itv.feq_ninf,
      FP.toE_eq_top, FP.toE_eq_bot, and_comm]

/-- `strictly_less`: strict version of `less`. -/
theorem C22_strictly_less (hx : x.Ok φ) (hy : y.Ok ψ) : x.strictlyLess y = true ↔
    (∀ a ∈ x.set, ∃ b ∈ y.set, a < b) ∧ (∀ b ∈ y.set, ∃ a ∈ x.set, a < b) := by
  rcases hx.cases with rfl | hx <;> rcases hy.cases with rfl | hy
  · simp [Itv.strictlyLess]
  · simp only [Itv.strictlyLess, hy.isValid, hy.isEmpty]
    simp [Itv.empty, FP.ltb, FP.feq, FP.leb]
    exact hy.nonempty
  · have : ∀ a : FP, a.ltb .nan = false := by intro a; cases a <;> rfl
    simp only [Itv.strictlyLess, hx.isValid, hx.isEmpty]
    simp [Itv.empty, this, FP.feq, FP.leb]
    exact hx.nonempty
  · simp only [Itv.strictlyLess, hx.isValid, hx.isEmpty, hy.isValid]
    simp only [hy.ex_lt, hx.ex_gt, hx.all_lt, hy.all_gt]
    simp [ltb_iff hx.lo_ne hy.lo_ne, ltb_iff hx.hi_ne hy.hi_ne, Itv.feq_pinf, Itv.feq_ninf,
      FP.toE_eq_top, FP.toE_eq_bot, and_comm]

/-- `strictly_precedes`: every member of `x` is `<` every member of `y`. -/
theorem C22_strictly_precedes (hx : x.Ok φ) (hy : y.Ok ψ) : x.strictlyPrecedes y = true ↔
    ∀ a ∈ x.set, ∀ b ∈ y.set, a < b := by
  rcases hx.cases with rfl | hx
  · simp [Itv.strictlyPrecedes, hy.isValid]
  rcases hy.cases with rfl | hy
  · simp [Itv.strictlyPrecedes, hx.isValid]
  · have e : (∀ a ∈ x.set, ∀ b ∈ y.set, a < b) ↔ ∀ a ∈ x.set, ∀ b ∈ y.set, (a:EReal) < (b:EReal) := by
      simp only [EReal.coe_lt_coe_iff]
    have e2 : ∀ a : ℝ, ((a:EReal) < y.lo.toE ∨ (y.lo.toE = ⊥ ∧ (a:EReal) = ⊥)) ↔ (a:EReal) < y.lo.toE := by
      intro a; simp
    rw [e]
    simp only [Itv.strictlyPrecedes, hx.isValid, hx.isEmpty, hy.isValid, hy.isEmpty, hy.all_gt, e2, hx.all_lt]
    simp [ltb_iff hx.hi_ne hy.lo_ne, hy.lo_top]

/-- `disjoint`: no common member. -/
theorem C22_disjoint (hx : x.Ok φ) (hy : y.Ok ψ) : x.disjoint y = true ↔ x.set ∩ y.set = ∅ := by
  rcases hx.cases with rfl | hx
  · simp [Itv.disjoint, hy.isValid]
  rcases hy.cases with rfl | hy
  · simp [Itv.disjoint, hx.isValid]
  · simp only [Itv.disjoint, hx.isValid, hx.isEmpty, hy.isValid, hy.isEmpty]
    simp only [Bool.not_true, Bool.or_self, Bool.false_eq_true, if_false, Bool.false_or,
      Bool.or_eq_true, ltb_iff hx.hi_ne hy.lo_ne, ltb_iff hy.hi_ne hx.lo_ne, Set.eq_empty_iff_forall_notMem]
    constructor
    · rintro (h | h) r ⟨hr1, hr2⟩
      · exact absurd ((hy.mem.mp hr2).1.trans (hx.mem.mp hr1).2) (not_le.mpr h)
      · exact absurd ((hx.mem.mp hr1).1.trans (hy.mem.mp hr2).2) (not_le.mpr h)
    · intro h
      by_contra hc
      push Not at hc
      have h1 : max x.lo.toE y.lo.toE ≤ min x.hi.toE y.hi.toE :=
        max_le (le_min hx.le hc.2) (le_min hc.1 hy.le)
      obtain ⟨r, h2, h3⟩ := Itv.exists_real_between h1 (by
        rcases max_choice x.lo.toE y.lo.toE with g | g <;> rw [g]
        · exact hx.lo_top
        · exact hy.lo_top) (by
        rcases min_choice x.hi.toE y.hi.toE with g | g <;> rw [g]
        · exact hx.hi_bot
        · exact hy.hi_bot)
      rw [max_le_iff] at h2
      rw [le_min_iff] at h3
      exact h r ⟨hx.mem.mpr ⟨h2.1, h3.1⟩, hy.mem.mpr ⟨h2.2, h3.2⟩⟩

/-- The mirrored relations. -/
theorem C22_mirrored (hx : x.Ok φ) (hy : y.Ok ψ) :
    (x.superset y = true ↔ y.set ⊆ x.set) ∧
    (x.greater y = true ↔ (∀ b ∈ y.set, ∃ a ∈ x.set, b ≤ a) ∧ (∀ a ∈ x.set, ∃ b ∈ y.set, b ≤ a)) ∧
    (x.succeeds y = true ↔ ∀ b ∈ y.set, ∀ a ∈ x.set, b ≤ a) ∧
    (x.containsInterior y = true ↔ ∀ b ∈ y.set, (∃ a ∈ x.set, a < b) ∧ (∃ a ∈ x.set, b < a)) ∧
    (x.strictlyGreater y = true ↔ (∀ b ∈ y.set, ∃ a ∈ x.set, b < a) ∧ (∀ a ∈ x.set, ∃ b ∈ y.set, b < a)) ∧
    (x.strictlySucceeds y = true ↔ ∀ b ∈ y.set, ∀ a ∈ x.set, b < a) :=
  ⟨C22_subset hy hx, C22_less hy hx, C22_precedes hy hx, C22_interior hy hx, C22_strictly_less hy hx,
    C22_strictly_precedes hy hx⟩

/-- Invalid bare operands compare `false` in every relation. -/
theorem C22_invalid (h : x.isValid = false ∨ y.isValid = false) :
    x.equal y = false ∧ x.subset y = false ∧ x.less y = false ∧ x.precedes y = false ∧ x.interior y = false ∧
    x.strictlyLess y = false ∧ x.strictlyPrecedes y = false ∧ x.disjoint y = false := by
  rcases h with h | h <;>
    simp [Itv.equal, Itv.subset, Itv.less, Itv.precedes, Itv.interior, Itv.strictlyLess, Itv.strictlyPrecedes,
      Itv.disjoint, h]

/-- Decorated comparisons: with a NaI operand (or an invalid one) every relation is `false`; otherwise the
relation between the interval parts is decided. -/
theorem C22_decorated (r : Itv → Itv → Bool) (a b : DItv) :
    (a.isNai = true ∨ b.isNai = true ∨ a.isValid = false ∨ b.isValid = false → DItv.rel r a b = false) ∧
    (a.isValid = true → b.isValid = true → a.isNai = false → b.isNai = false →
      DItv.rel r a b = r a.itv b.itv) := by
  constructor
  · rintro (h | h | h | h) <;> simp [DItv.rel, h]
  · intro h1 h2 h3 h4; simp [DItv.rel, h1, h2, h3, h4]

/-- Non-vacuity: unbounded and mixed-format operands. -/
example : (Itv.mk (.fin (1/2)) .pinf).Ok binary64 ∧ (Itv.mk (.fin (-1)) .pinf).Ok binary32 ∧
    (Itv.mk (.fin (1/2)) .pinf).interior ⟨.fin (-1), .pinf⟩ = true ∧
    (Itv.mk (.fin (1/2)) .pinf).equal ⟨.fin (-1), .pinf⟩ = false :=
  ⟨Itv.ok_of_okb (by decide +kernel), Itv.ok_of_okb (by decide +kernel), by decide +kernel, by decide +kernel⟩

end P1788
