import Mathlib.Analysis.SpecialFunctions.Trigonometric.Bounds
import Mathlib.Algebra.Order.ToIntervalMod

/-! Helper lemmas: maxima of the sine over a segment, located from the signs of the cosine at its ends. -/

namespace P1788.Trig
open Real

/-- The segment contains a maximum point of the sine. -/
def HasMax (a b : ℝ) : Prop := ∃ n : ℤ, a ≤ π / 2 + n * (2 * π) ∧ π / 2 + n * (2 * π) ≤ b
/-- `t` is within `ρ` of a maximum point. -/
def Nr (ρ t : ℝ) : Prop := ∃ n : ℤ, |t - (π / 2 + n * (2 * π))| ≤ ρ

theorem norm_exists (a : ℝ) : ∃ n : ℤ, -(π / 2) ≤ a - n * (2 * π) ∧ a - n * (2 * π) < 3 * π / 2 := by
  have h2 : 0 < 2 * π := by linarith [pi_pos]
  refine ⟨⌊(a + π / 2) / (2 * π)⌋, ?_, ?_⟩
  · have := Int.floor_le ((a + π / 2) / (2 * π))
    rw [le_div_iff₀ h2] at this; linarith
  · have := Int.lt_floor_add_one ((a + π / 2) / (2 * π))
    rw [div_lt_iff₀ h2] at this; linarith

theorem hasMax_shift {a b : ℝ} (n : ℤ) : HasMax (a - n * (2 * π)) (b - n * (2 * π)) ↔ HasMax a b := by
  constructor
  · rintro ⟨k, h1, h2⟩
    refine ⟨k + n, ?_, ?_⟩ <;> push_cast <;> linarith
  · rintro ⟨k, h1, h2⟩
    refine ⟨k - n, ?_, ?_⟩ <;> push_cast <;> linarith

theorem nr_shift {ρ t : ℝ} (n : ℤ) : Nr ρ (t - n * (2 * π)) ↔ Nr ρ t := by
  constructor
  · rintro ⟨k, h⟩
    refine ⟨k + n, ?_⟩
    push_cast
    rwa [show t - (π / 2 + (k + n) * (2 * π)) = t - n * (2 * π) - (π / 2 + k * (2 * π)) by ring]
  · rintro ⟨k, h⟩
    refine ⟨k - n, ?_⟩
    push_cast
    rwa [show t - n * (2 * π) - (π / 2 + (k - n) * (2 * π)) = t - (π / 2 + k * (2 * π)) by ring]

theorem nr_zero {ρ t : ℝ} (h : |t - π / 2| ≤ ρ) : Nr ρ t := ⟨0, by simpa using h⟩
theorem nr_one {ρ t : ℝ} (h : |t - 5 * π / 2| ≤ ρ) : Nr ρ t := ⟨1, by
  rwa [show t - (π / 2 + ((1:ℤ):ℝ) * (2 * π)) = t - 5 * π / 2 by push_cast; ring]⟩
theorem hasMax_zero {a b : ℝ} (h1 : a ≤ π / 2) (h2 : π / 2 ≤ b) : HasMax a b := ⟨0, by simpa using h1, by simpa using h2⟩
theorem hasMax_one {a b : ℝ} (h1 : a ≤ 5 * π / 2) (h2 : 5 * π / 2 ≤ b) : HasMax a b :=
  ⟨1, by push_cast; linarith, by push_cast; linarith⟩

/-- On a normalised segment there is no maximum unless it contains `π/2` or reaches `5π/2`. -/
theorem not_hasMax {a b : ℝ} (ha : -(π / 2) ≤ a) (h1 : π / 2 < a ∨ b < π / 2) (h2 : b < 5 * π / 2) : ¬ HasMax a b := by
  rintro ⟨n, g1, g2⟩
  have hp := pi_pos
  have : (n:ℝ) < 1 := by
    by_contra hc
    nlinarith [not_lt.mp hc]
  have hn : n ≤ 0 := by
    have : n < 1 := by exact_mod_cast this
    omega
  have hn0 : -1 < (n:ℝ) := by
    by_contra hc
    nlinarith [not_lt.mp hc]
  have hn0 : n = 0 := by
    have : -1 < n := by exact_mod_cast hn0
    omega
  subst hn0
  simp at g1 g2
  rcases h1 with h1 | h1 <;> linarith

theorem cos_nonneg_per {t : ℝ} (h1 : 3 * π / 2 ≤ t) (h2 : t ≤ 5 * π / 2) : 0 ≤ cos t := by
  have : cos t = cos (t - 2 * π) := (cos_sub_two_pi t).symm
  rw [this]
  exact cos_nonneg_of_neg_pi_div_two_le_of_le (by linarith) (by linarith)
theorem cos_nonpos_per {t : ℝ} (h1 : 5 * π / 2 ≤ t) (h2 : t ≤ 7 * π / 2) : cos t ≤ 0 := by
  have : cos t = cos (t - 2 * π) := (cos_sub_two_pi t).symm
  rw [this]
  exact cos_nonpos_of_pi_div_two_le_of_le (by linarith) (by linarith)

theorem of_cos_pos {a : ℝ} (ha : -(π / 2) ≤ a) (ha' : a < 3 * π / 2) (h : 0 < cos a) : a < π / 2 := by
  by_contra hc
  exact absurd (cos_nonpos_of_pi_div_two_le_of_le (not_lt.mp hc) (by linarith)) (not_le.mpr h)
theorem of_cos_neg {a : ℝ} (ha : -(π / 2) ≤ a) (h : cos a < 0) : π / 2 < a := by
  by_contra hc
  exact absurd (cos_nonneg_of_neg_pi_div_two_le_of_le ha (not_lt.mp hc)) (not_le.mpr h)

theorem sin_ge_half {t : ℝ} (h0 : 0 ≤ t) (h1 : t ≤ π / 2) : t / 2 ≤ sin t := by
  refine le_trans ?_ (mul_le_sin h0 h1)
  have : 1 / 2 ≤ 2 / π := by
    rw [div_le_div_iff₀ (by norm_num) pi_pos]; linarith [pi_le_four]
  nlinarith

theorem near_crit {a η : ℝ} (ha : -(π / 2) ≤ a) (ha' : a < 3 * π / 2) (h : |cos a| < η) :
    |a - π / 2| ≤ 2 * η ∨ (a ≤ -(π / 2) + 2 * η ∧ a ≤ 0) ∨ (3 * π / 2 - 2 * η ≤ a ∧ π ≤ a) := by
  obtain ⟨h1, h2⟩ := abs_lt.mp h
  have hp := pi_pos
  rcases le_or_gt a 0 with g | g
  · refine Or.inr (Or.inl ⟨?_, g⟩)
    have := sin_ge_half (t := a + π / 2) (by linarith) (by linarith)
    rw [sin_add_pi_div_two] at this; linarith
  rcases le_or_gt a (π / 2) with g' | g'
  · left
    have := sin_ge_half (t := π / 2 - a) (by linarith) (by linarith)
    rw [sin_pi_div_two_sub] at this
    rw [abs_of_nonpos (by linarith)]; linarith
  rcases lt_or_ge a π with g'' | g''
  · left
    have := sin_ge_half (t := a - π / 2) (by linarith) (by linarith)
    rw [sin_sub_pi_div_two] at this
    rw [abs_of_nonneg (by linarith)]; linarith
  · refine Or.inr (Or.inr ⟨?_, g''⟩)
    have := sin_ge_half (t := 3 * π / 2 - a) (by linarith) (by linarith)
    rw [show 3 * π / 2 - a = π / 2 - (a - π) by ring, sin_pi_div_two_sub, cos_sub_pi] at this
    linarith

/-- Situations in which the code returns the upper bound `1`. -/
def One (δ η a b : ℝ) : Prop :=
  (0 < cos a ∧ π - δ < b - a) ∨ (cos a < 0 ∧ cos b < 0 ∧ π - δ < b - a) ∨ (|cos a| < η ∧ π - δ < b - a) ∨
  (0 < cos a ∧ cos b < 0) ∨ (cos a < 0 ∧ 2 * (π - δ) < b - a)

/-- Situations in which the code computes the upper bound from the values at the end points. -/
def Ends (δ η a b : ℝ) : Prop :=
  (0 < cos a ∧ 0 < cos b ∧ b - a ≤ π - δ) ∨ (cos a < 0 ∧ b - a ≤ π - δ) ∨ (|cos a| < η ∧ b - a ≤ π - δ) ∨
  (cos a < 0 ∧ 0 < cos b ∧ b - a ≤ 2 * (π - δ))

variable {δ η ρ a b : ℝ}

theorem one_core (hδ : 0 < δ) (h1 : 2 * δ ≤ ρ) (h2 : δ + 2 * η ≤ ρ) (hη : 0 < η) (hab : a ≤ b) (ha : -(π / 2) ≤ a)
    (ha' : a < 3 * π / 2) (h : One δ η a b) : HasMax a b ∨ Nr ρ a ∨ Nr ρ b := by
  have hp := pi_pos
  rcases h with ⟨g1, g2⟩ | ⟨g1, g2, g3⟩ | ⟨g1, g2⟩ | ⟨g1, g2⟩ | ⟨g1, g2⟩
  · have := of_cos_pos ha ha' g1
    rcases le_or_gt (π / 2) b with k | k
    · exact Or.inl (hasMax_zero this.le k)
    · exact Or.inr (Or.inr (nr_zero (by rw [abs_of_neg (by linarith)]; linarith)))
  · have := of_cos_neg ha g1
    rcases le_or_gt (5 * π / 2) b with k | k
    · exact Or.inl (hasMax_one (by linarith) k)
    · have hb : b < 3 * π / 2 := by
        by_contra hc
        exact absurd (cos_nonneg_per (not_lt.mp hc) k.le) (not_le.mpr g2)
      exact Or.inr (Or.inl (nr_zero (by rw [abs_of_pos (by linarith)]; linarith)))
  · rcases near_crit ha ha' g1 with k | ⟨k, k'⟩ | ⟨k, k'⟩
    · exact Or.inr (Or.inl (nr_zero (k.trans (by linarith))))
    · rcases le_or_gt (π / 2) b with k2 | k2
      · exact Or.inl (hasMax_zero (by linarith) k2)
      · exact Or.inr (Or.inr (nr_zero (by rw [abs_of_neg (by linarith)]; linarith)))
    · rcases le_or_gt (5 * π / 2) b with k2 | k2
      · exact Or.inl (hasMax_one (by linarith) k2)
      · exact Or.inr (Or.inr (nr_one (by rw [abs_of_neg (by linarith)]; linarith)))
  · have := of_cos_pos ha ha' g1
    rcases le_or_gt (π / 2) b with k | k
    · exact Or.inl (hasMax_zero this.le k)
    · exact absurd (cos_nonneg_of_neg_pi_div_two_le_of_le (by linarith) k.le) (not_le.mpr g2)
  · have := of_cos_neg ha g1
    rcases le_or_gt (5 * π / 2) b with k | k
    · exact Or.inl (hasMax_one (by linarith) k)
    · exact Or.inr (Or.inr (nr_one (by rw [abs_of_neg (by linarith)]; linarith)))

theorem ends_core (hδ : 0 < δ) (h2 : δ + 2 * η ≤ ρ) (hη : 0 < η) (ha : -(π / 2) ≤ a)
    (ha' : a < 3 * π / 2) (h : Ends δ η a b) : ¬ HasMax a b ∨ Nr ρ a ∨ Nr ρ b := by
  have hp := pi_pos
  rcases h with ⟨g1, g2, g3⟩ | ⟨g1, g2⟩ | ⟨g1, g2⟩ | ⟨g1, g2, g3⟩
  · have := of_cos_pos ha ha' g1
    left
    refine not_hasMax ha (Or.inr ?_) (by linarith)
    by_contra hc
    exact absurd (cos_nonpos_of_pi_div_two_le_of_le (not_lt.mp hc) (by linarith)) (not_le.mpr g2)
  · have := of_cos_neg ha g1
    exact Or.inl (not_hasMax ha (Or.inl this) (by linarith))
  · rcases near_crit ha ha' g1 with k | ⟨k, k'⟩ | ⟨k, k'⟩
    · exact Or.inr (Or.inl (nr_zero (k.trans (by linarith))))
    · rcases lt_or_ge b (π / 2) with k2 | k2
      · exact Or.inl (not_hasMax ha (Or.inr k2) (by linarith))
      · exact Or.inr (Or.inr (nr_zero (by rw [abs_of_nonneg (by linarith)]; linarith)))
    · exact Or.inl (not_hasMax ha (Or.inl (by linarith)) (by linarith))
  · have := of_cos_neg ha g1
    left
    refine not_hasMax ha (Or.inl this) ?_
    by_contra hc
    exact absurd (cos_nonpos_per (not_lt.mp hc) (by linarith)) (not_le.mpr g2)

theorem one_main (hδ : 0 < δ) (h1 : 2 * δ ≤ ρ) (h2 : δ + 2 * η ≤ ρ) (hη : 0 < η) (hab : a ≤ b)
    (h : One δ η a b) : HasMax a b ∨ Nr ρ a ∨ Nr ρ b := by
  obtain ⟨n, ha, ha'⟩ := norm_exists a
  rw [← hasMax_shift n, ← nr_shift (t := a) n, ← nr_shift (t := b) n]
  refine one_core hδ h1 h2 hη (by linarith) ha ha' ?_
  unfold One
  rw [cos_sub_int_mul_two_pi, cos_sub_int_mul_two_pi, show b - n * (2 * π) - (a - n * (2 * π)) = b - a by ring]
  exact h

theorem ends_main (hδ : 0 < δ) (h2 : δ + 2 * η ≤ ρ) (hη : 0 < η)
    (h : Ends δ η a b) : ¬ HasMax a b ∨ Nr ρ a ∨ Nr ρ b := by
  obtain ⟨n, ha, ha'⟩ := norm_exists a
  rw [← hasMax_shift n, ← nr_shift (t := a) n, ← nr_shift (t := b) n]
  refine ends_core hδ h2 hη ha ha' ?_
  unfold Ends
  rw [cos_sub_int_mul_two_pi, cos_sub_int_mul_two_pi, show b - n * (2 * π) - (a - n * (2 * π)) = b - a by ring]
  exact h

theorem hasMax_refl (a b : ℝ) : HasMax (π - b) (π - a) ↔ HasMax a b := by
  constructor <;> rintro ⟨n, h1, h2⟩ <;> refine ⟨-n, ?_, ?_⟩ <;> push_cast <;> linarith
theorem nr_refl {ρ t : ℝ} : Nr ρ (π - t) ↔ Nr ρ t := by
  constructor
  · rintro ⟨n, h⟩
    refine ⟨-n, ?_⟩
    rw [← abs_neg]
    convert h using 2
    push_cast; ring
  · rintro ⟨n, h⟩
    refine ⟨-n, ?_⟩
    rw [← abs_neg]
    convert h using 2
    push_cast; ring

/-- The derivative vanishes (up to `η`) at the right end. -/
theorem one_right (hδ : 0 < δ) (h1 : 2 * δ ≤ ρ) (h2 : δ + 2 * η ≤ ρ) (hη : 0 < η) (hab : a ≤ b)
    (h : |cos b| < η) (hw : π - δ < b - a) : HasMax a b ∨ Nr ρ a ∨ Nr ρ b := by
  have := one_main (a := π - b) (b := π - a) hδ h1 h2 hη (by linarith)
    (Or.inr (Or.inr (Or.inl ⟨by rwa [cos_pi_sub, abs_neg], by linarith⟩)))
  rw [hasMax_refl, nr_refl, nr_refl] at this
  tauto
theorem ends_right (hδ : 0 < δ) (h2 : δ + 2 * η ≤ ρ) (hη : 0 < η)
    (h : |cos b| < η) (hw : b - a ≤ π - δ) : ¬ HasMax a b ∨ Nr ρ a ∨ Nr ρ b := by
  have := ends_main (a := π - b) (b := π - a) hδ h2 hη
    (Or.inr (Or.inr (Or.inl ⟨by rwa [cos_pi_sub, abs_neg], by linarith⟩)))
  rw [hasMax_refl, nr_refl, nr_refl] at this
  tauto

/-- Without a maximum point inside, the sine is bounded by its end values. -/
theorem sin_le_ends (h : ¬ HasMax a b) {t : ℝ} (h1 : a ≤ t) (h2 : t ≤ b) : sin t ≤ max (sin a) (sin b) := by
  obtain ⟨n, ha, ha'⟩ := norm_exists a
  rw [← hasMax_shift n] at h
  have e : ∀ u : ℝ, sin u = sin (u - n * (2 * π)) := fun u => (sin_sub_int_mul_two_pi u n).symm
  rw [e t, e a, e b]
  have h1 : a - n * (2 * π) ≤ t - n * (2 * π) := by linarith
  have h2 : t - n * (2 * π) ≤ b - n * (2 * π) := by linarith
  generalize a - n * (2 * π) = a at *
  generalize b - n * (2 * π) = b at *
  generalize t - n * (2 * π) = t at *
  have hp := pi_pos
  rcases le_or_gt a (π / 2) with k | k
  · have kb : b < π / 2 := by
      by_contra hc
      exact h (hasMax_zero k (not_lt.mp hc))
    exact le_max_of_le_right (strictMonoOn_sin.monotoneOn ⟨by linarith, by linarith⟩ ⟨by linarith, by linarith⟩ h2)
  · have kb : b < 5 * π / 2 := by
      by_contra hc
      exact h (hasMax_one (by linarith) (not_lt.mp hc))
    rcases le_or_gt t (3 * π / 2) with kt | kt
    · refine le_max_of_le_left ?_
      have := strictMonoOn_sin.monotoneOn (a := π - t) (b := π - a) ⟨by linarith, by linarith⟩ ⟨by linarith, by linarith⟩ (by linarith)
      rwa [sin_pi_sub, sin_pi_sub] at this
    · refine le_max_of_le_right ?_
      have := strictMonoOn_sin.monotoneOn (a := t - 2 * π) (b := b - 2 * π) ⟨by linarith, by linarith⟩ ⟨by linarith, by linarith⟩ (by linarith)
      rwa [sin_sub_two_pi, sin_sub_two_pi] at this

theorem sin_max_pt (n : ℤ) : sin (π / 2 + n * (2 * π)) = 1 := by
  rw [sin_add_int_mul_two_pi, sin_pi_div_two]

theorem sin_of_nr {ρ t : ℝ} (h : Nr ρ t) : 1 - ρ ^ 2 / 2 ≤ sin t := by
  obtain ⟨n, h⟩ := h
  have e : sin t = cos (t - (π / 2 + n * (2 * π))) := by
    rw [show t - (π / 2 + n * (2 * π)) = (t - π / 2) - n * (2 * π) by ring, cos_sub_int_mul_two_pi, cos_sub_pi_div_two]
  rw [e]
  refine le_trans ?_ (one_sub_sq_div_two_le_cos)
  have := sq_le_sq' (a := t - (π / 2 + n * (2 * π))) (b := ρ) (by linarith [(abs_le.mp h).1]) (abs_le.mp h).2
  linarith

end P1788.Trig
