import Verif.Lemmas.Rel
import Verif.Lemmas.Div
import Mathlib.Order.Bounds.Basic

/-! # C24: is_common_interval, is_singleton and is_member -/

namespace P1788
variable {φ : Fmt} {x : Itv}

theorem NE.common_iff (hx : x.NE φ) : x.isCommon = true ↔ x.lo.toE ≠ ⊥ ∧ x.hi.toE ≠ ⊤ := by
  simp only [Itv.isCommon, hx.isValid, hx.isEmpty]
  simp [ltb_iff (a := .ninf) (by simp) hx.lo_ne, ltb_iff hx.hi_ne (b := .pinf) (by simp), bot_lt_iff_ne_bot,
    lt_top_iff_ne_top]

/-- `is_common_interval`: the set is non-empty and bounded. -/
theorem C24_is_common_interval (hx : x.Ok φ) :
    x.isCommon = true ↔ x.set.Nonempty ∧ BddBelow x.set ∧ BddAbove x.set := by
  rcases hx.cases with rfl | hx
  · simp [Itv.isCommon]
  · rw [NE.common_iff hx]
    constructor
    · rintro ⟨h1, h2⟩
      refine ⟨hx.nonempty, ?_, ?_⟩
      · lift x.lo.toE to ℝ using ⟨hx.lo_top, h1⟩ with l hl
        exact ⟨l, fun a ha => by have := (hx.mem.mp ha).1; rw [← hl] at this; exact_mod_cast this⟩
      · lift x.hi.toE to ℝ using ⟨h2, hx.hi_bot⟩ with l hl
        exact ⟨l, fun a ha => by have := (hx.mem.mp ha).2; rw [← hl] at this; exact_mod_cast this⟩
    · rintro ⟨_, ⟨l, hl⟩, ⟨u, hu⟩⟩
      constructor
      · intro h
        obtain ⟨b, hb, hbl⟩ := (hx.ex_gt (r := l)).mpr (by rw [h]; exact EReal.bot_lt_coe l)
        exact absurd (hl hb) (not_le.mpr hbl)
      · intro h
        obtain ⟨b, hb, hbl⟩ := (hx.ex_lt (r := u)).mpr (by rw [h]; exact EReal.coe_lt_top u)
        exact absurd (hu hb) (not_le.mpr hbl)

/-- `is_singleton`: the set has exactly one member. -/
theorem C24_is_singleton (hx : x.Ok φ) : x.isSingleton = true ↔ ∃ r, x.set = {r} := by
  rcases hx.cases with rfl | hx
  · simp [Itv.isSingleton, Itv.empty, FP.feq, FP.leb]
  · simp only [Itv.isSingleton, hx.isValid, Bool.true_and, FP.feq_iff hx.lo_ne hx.hi_ne]
    constructor
    · intro h
      obtain ⟨r, hr⟩ := hx.nonempty
      refine ⟨r, ?_⟩
      have h1 := hx.mem.mp hr
      ext s; rw [hx.mem, Set.mem_singleton_iff]
      constructor
      · rintro ⟨g1, g2⟩
        have a1 : (s:EReal) ≤ r := g2.trans (h ▸ h1.1)
        have a2 : (r:EReal) ≤ s := h1.2.trans (h ▸ g1)
        exact le_antisymm (by exact_mod_cast a1) (by exact_mod_cast a2)
      · rintro rfl; exact h1
    · rintro ⟨r, h⟩
      by_contra hc
      have hlt := lt_of_le_of_ne hx.le hc
      obtain ⟨s, h1, h2⟩ := EReal.lt_iff_exists_real_btwn.mp hlt
      obtain ⟨t, h3, h4⟩ := EReal.lt_iff_exists_real_btwn.mp h2
      have m1 : s ∈ x.set := hx.mem.mpr ⟨h1.le, h2.le⟩
      have m2 : t ∈ x.set := hx.mem.mpr ⟨(h1.trans h3).le, h4.le⟩
      rw [h] at m1 m2
      rw [Set.mem_singleton_iff] at m1 m2
      rw [m1, m2] at h3; exact lt_irrefl _ h3

/-- The real value of a floating-point datum of any type, if it has one. -/
def FP.HasValue (m : FP) (r : ℝ) : Prop := (m = .nzero ∧ r = 0) ∨ ∃ q : ℚ, m = .fin q ∧ r = q

/-- `is_member(m,x)`: `m` is a real number (not NaN, not an infinity) that belongs to `x`.  `m` may be of any
floating-point type. -/
theorem C24_is_member (hx : x.Ok φ) (m : FP) :
    x.isMember m = true ↔ ∃ r, m.HasValue r ∧ r ∈ x.set := by
  unfold Itv.isMember
  simp only [hx.isValid, Bool.not_true, Bool.false_eq_true, if_false]
  rcases hx.cases with rfl | hx
  · simp [Itv.empty, FP.leb]
  · cases m with
    | nan => 
      have : x.lo.leb .nan = false := by cases x.lo <;> rfl
      simp [this, FP.HasValue]
    | ninf => simp [FP.isInf, FP.HasValue]
    | pinf => simp [FP.isInf, FP.HasValue]
    | nzero =>
      simp [FP.isInf, FP.HasValue, hx.mem, leb_iff hx.lo_ne (b := .nzero) (by simp),
        leb_iff (a := .nzero) (by simp) hx.hi_ne]
    | fin q =>
      simp [FP.isInf, FP.HasValue, hx.mem, leb_iff hx.lo_ne (b := .fin q) (by simp),
        leb_iff (a := .fin q) (by simp) hx.hi_ne]

/-- Decorated versions: `false` on NaI and invalid operands, otherwise the interval part decides. -/
theorem C24_decorated (p : Itv → Bool) (m : FP) (a : DItv) :
    (a.isNai = true ∨ a.isValid = false → DItv.pred p a = false ∧ a.isMember m = false) ∧
    (a.isValid = true → a.isNai = false → DItv.pred p a = p a.itv ∧ a.isMember m = a.itv.isMember m) := by
  constructor
  · rintro (h | h) <;> simp [DItv.pred, DItv.isMember, h]
  · intro h1 h2; simp [DItv.pred, DItv.isMember, h1, h2]

/-- Non-vacuity. -/
example : (Itv.mk (.fin (-1)) .pinf).Ok binary64 ∧ (Itv.mk (.fin (-1)) .pinf).isMember .nzero = true ∧
    (Itv.mk (.fin (-1)) .pinf).isMember .pinf = false ∧ (Itv.mk (.fin (-1)) .pinf).isCommon = false :=
  ⟨Itv.ok_of_okb (by decide +kernel), by decide +kernel, by decide +kernel, by decide +kernel⟩

end P1788
