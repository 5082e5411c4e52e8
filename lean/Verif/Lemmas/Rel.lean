import Verif.Lemmas.Mono
import Verif.Model.Bool

/-! Helper lemmas: bounds of an interval against quantifiers over its members. -/

namespace P1788
open FP

namespace Itv.NE
variable {φ : Fmt} {x : Itv} (hx : x.NE φ)
include hx

theorem ex_le {r : ℝ} : (∃ b ∈ x.set, r ≤ b) ↔ (r:EReal) ≤ x.hi.toE := by
  constructor
  · rintro ⟨b, hb, h⟩
    exact (EReal.coe_le_coe_iff.mpr h).trans (hx.mem.mp hb).2
  · intro h
    have hm : max x.lo.toE r ≤ x.hi.toE := max_le hx.le h
    obtain ⟨b, h1, h2⟩ := Itv.exists_real_between hm (by
      rcases max_choice x.lo.toE (r:EReal) with g | g <;> rw [g]
      · exact hx.lo_top
      · exact EReal.coe_ne_top r) hx.hi_bot
    exact ⟨b, hx.mem.mpr ⟨(le_max_left _ _).trans h1, h2⟩, by exact_mod_cast (le_max_right _ _).trans h1⟩

theorem ex_ge {r : ℝ} : (∃ b ∈ x.set, b ≤ r) ↔ x.lo.toE ≤ (r:EReal) := by
  constructor
  · rintro ⟨b, hb, h⟩
    exact (hx.mem.mp hb).1.trans (EReal.coe_le_coe_iff.mpr h)
  · intro h
    have hm : x.lo.toE ≤ min x.hi.toE r := le_min hx.le h
    obtain ⟨b, h1, h2⟩ := Itv.exists_real_between hm hx.lo_top (by
      rcases min_choice x.hi.toE (r:EReal) with g | g <;> rw [g]
      · exact hx.hi_bot
      · exact EReal.coe_ne_bot r)
    exact ⟨b, hx.mem.mpr ⟨h1, h2.trans (min_le_left _ _)⟩, by exact_mod_cast h2.trans (min_le_right _ _)⟩

theorem ex_lt {r : ℝ} : (∃ b ∈ x.set, r < b) ↔ (r:EReal) < x.hi.toE := by
  constructor
  · rintro ⟨b, hb, h⟩
    exact lt_of_lt_of_le (EReal.coe_lt_coe_iff.mpr h) (hx.mem.mp hb).2
  · intro h
    obtain ⟨s, h1, h2⟩ := EReal.lt_iff_exists_real_btwn.mp h
    obtain ⟨b, hb, hsb⟩ := hx.ex_le.mpr h2.le
    exact ⟨b, hb, lt_of_lt_of_le (by exact_mod_cast h1) hsb⟩

theorem ex_gt {r : ℝ} : (∃ b ∈ x.set, b < r) ↔ x.lo.toE < (r:EReal) := by
  constructor
  · rintro ⟨b, hb, h⟩
    exact lt_of_le_of_lt (hx.mem.mp hb).1 (EReal.coe_lt_coe_iff.mpr h)
  · intro h
    obtain ⟨s, h1, h2⟩ := EReal.lt_iff_exists_real_btwn.mp h
    obtain ⟨b, hb, hsb⟩ := hx.ex_ge.mpr h1.le
    exact ⟨b, hb, lt_of_le_of_lt hsb (by exact_mod_cast h2)⟩

theorem all_le {e : EReal} : (∀ a ∈ x.set, (a:EReal) ≤ e) ↔ x.hi.toE ≤ e := by
  constructor
  · intro h
    by_contra hc
    obtain ⟨s, h1, h2⟩ := EReal.lt_iff_exists_real_btwn.mp (not_le.mp hc)
    obtain ⟨b, hb, hsb⟩ := hx.ex_le.mpr h2.le
    exact absurd (h b hb) (not_le.mpr (lt_of_lt_of_le h1 (by exact_mod_cast hsb)))
  · intro h a ha; exact (hx.mem.mp ha).2.trans h

theorem all_ge {e : EReal} : (∀ a ∈ x.set, e ≤ (a:EReal)) ↔ e ≤ x.lo.toE := by
  constructor
  · intro h
    by_contra hc
    obtain ⟨s, h1, h2⟩ := EReal.lt_iff_exists_real_btwn.mp (not_le.mp hc)
    obtain ⟨b, hb, hsb⟩ := hx.ex_ge.mpr h1.le
    exact absurd (h b hb) (not_le.mpr (lt_of_le_of_lt (by exact_mod_cast hsb) h2))
  · intro h a ha; exact h.trans (hx.mem.mp ha).1


theorem all_lt {e : EReal} :
    (∀ a ∈ x.set, (a:EReal) < e) ↔ x.hi.toE < e ∨ (x.hi.toE = ⊤ ∧ e = ⊤) := by
  constructor
  · intro h
    have hle := hx.all_le.mp (fun a ha => (h a ha).le)
    rcases hle.lt_or_eq with h1 | h1
    · exact Or.inl h1
    · right
      induction hh : x.hi.toE with
      | bot => exact absurd hh hx.hi_bot
      | top => exact ⟨rfl, by rw [← h1, hh]⟩
      | coe r => exact absurd (h r (hx.hi_mem hh)) (by rw [← h1, hh]; exact lt_irrefl _)
  · rintro (h | ⟨_, rfl⟩) a ha
    · exact lt_of_le_of_lt (hx.mem.mp ha).2 h
    · exact EReal.coe_lt_top a

theorem all_gt {e : EReal} :
    (∀ a ∈ x.set, e < (a:EReal)) ↔ e < x.lo.toE ∨ (x.lo.toE = ⊥ ∧ e = ⊥) := by
  constructor
  · intro h
    have hle := hx.all_ge.mp (fun a ha => (h a ha).le)
    rcases hle.lt_or_eq with h1 | h1
    · exact Or.inl h1
    · right
      induction hh : x.lo.toE with
      | top => exact absurd hh hx.lo_top
      | bot => exact ⟨rfl, by rw [h1, hh]⟩
      | coe r => exact absurd (h r (hx.lo_mem hh)) (by rw [h1, hh]; exact lt_irrefl _)
  · rintro (h | ⟨_, rfl⟩) a ha
    · exact lt_of_lt_of_le h (hx.mem.mp ha).1
    · exact EReal.bot_lt_coe a

end Itv.NE

variable {φ ψ : Fmt} {x y : Itv}

theorem leb_iff {a b : FP} (ha : a ≠ .nan) (hb : b ≠ .nan) : a.leb b = true ↔ a.toE ≤ b.toE := FP.le_iff ha hb
theorem ltb_iff {a b : FP} (ha : a ≠ .nan) (hb : b ≠ .nan) : a.ltb b = true ↔ a.toE < b.toE := FP.lt_iff ha hb

theorem Itv.Ok.eq_iff (hx : x.Ok φ) (hy : y.Ok ψ) : x.equal y = true ↔ x.set = y.set := by
  rcases hx.cases with rfl | hx <;> rcases hy.cases with rfl | hy
  · simp [Itv.equal]
  · simp only [Itv.equal, hy.isValid, hy.isEmpty]
    simp [Itv.empty, FP.feq, FP.leb, hy.nonempty.ne_empty.symm]
  · simp only [Itv.equal, hx.isValid, hx.isEmpty]
    have : ∀ a : FP, a.feq .nan = false := by intro a; cases a <;> rfl
    simp [Itv.empty, this, hx.nonempty.ne_empty]
  · simp only [Itv.equal, hx.isValid, hx.isEmpty, hy.isValid]
    simp only [Bool.not_true, Bool.or_self, Bool.false_eq_true, if_false, Bool.false_and, Bool.false_or,
      Bool.and_eq_true, FP.feq_iff hx.lo_ne hy.lo_ne, FP.feq_iff hx.hi_ne hy.hi_ne]
    rw [Set.Subset.antisymm_iff, hx.subset_iff hy, hy.subset_iff hx]
    constructor
    · rintro ⟨h1, h2⟩; exact ⟨⟨h1.ge, h2.le⟩, h1.le, h2.ge⟩
    · rintro ⟨⟨h1, h2⟩, h3, h4⟩; exact ⟨le_antisymm h3 h1, le_antisymm h2 h4⟩

end P1788
