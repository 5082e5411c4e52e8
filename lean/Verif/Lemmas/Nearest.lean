import Verif.Lemmas.Near
import Verif.Model.Num

/-!
# Rounding to nearest; rounding without subnormalisation
-/

namespace P1788
open Fmt

theorem roundInt_N_nearest (y : ℝ) (k : ℤ) : |(roundInt .N y : ℝ) - y| ≤ |(k : ℝ) - y| := by
  have h1 := Int.floor_le y
  have h2 := Int.lt_floor_add_one y
  set f := ⌊y⌋ with hf
  have hk : (k : ℝ) ≤ f ∨ (f : ℝ) + 1 ≤ k := by
    rcases le_or_gt k f with h | h
    · left; exact_mod_cast h
    · right; exact_mod_cast h
  have key : |(roundInt .N y : ℝ) - y| ≤ min (y - f) (f + 1 - y) := by
    simp only [roundInt, ← hf]
    split_ifs with c1 c2 c3
    · rw [abs_le]; constructor <;> rcases min_cases (y - (f:ℝ)) (f + 1 - y) with ⟨h, _⟩ | ⟨h, _⟩ <;> rw [h] <;> linarith
    · push_cast
      rw [abs_le]; constructor <;> rcases min_cases (y - (f:ℝ)) (f + 1 - y) with ⟨h, _⟩ | ⟨h, _⟩ <;> rw [h] <;> linarith
    · rw [abs_le]; constructor <;> rcases min_cases (y - (f:ℝ)) (f + 1 - y) with ⟨h, _⟩ | ⟨h, _⟩ <;> rw [h] <;> linarith
    · push_cast
      rw [abs_le]; constructor <;> rcases min_cases (y - (f:ℝ)) (f + 1 - y) with ⟨h, _⟩ | ⟨h, _⟩ <;> rw [h] <;> linarith
  refine key.trans ?_
  rcases hk with h | h
  · refine (min_le_left _ _).trans ?_
    rw [abs_sub_comm]; exact le_trans (by linarith) (le_abs_self _)
  · refine (min_le_right _ _).trans ?_
    exact le_trans (by linarith) (le_abs_self _)

namespace Fmt
variable (φ : Fmt)

theorem roundQ_U_ge (x : ℝ) : x ≤ (φ.roundQ .U x : ℝ) := by
  rw [roundQ_U_eq]
  have := φ.roundQ_D_le (-x)
  push_cast; linarith

theorem roundQ_U_le {f : ℚ} (hf : φ.Rep f) {x : ℝ} (h : x ≤ (f:ℝ)) : φ.roundQ .U x ≤ f := by
  rw [roundQ_U_eq]
  have := φ.le_roundQ_D (f := -f) hf.neg (x := -x) (by push_cast; linarith)
  linarith

theorem roundQ_between (m : Rnd) (x : ℝ) : φ.roundQ .D x ≤ φ.roundQ m x ∧ φ.roundQ m x ≤ φ.roundQ .U x := by
  have hb := roundInt_bounds m (x / (2:ℝ) ^ φ.expo x)
  have h2 := two_zpow_pos (φ.expo x)
  have e1 : φ.roundQ .D x = (⌊x / (2:ℝ) ^ φ.expo x⌋ : ℤ) * (2:ℚ) ^ φ.expo x := rfl
  have e2 : φ.roundQ .U x = (⌈x / (2:ℝ) ^ φ.expo x⌉ : ℤ) * (2:ℚ) ^ φ.expo x := rfl
  have e3 : φ.roundQ m x = (roundInt m (x / (2:ℝ) ^ φ.expo x) : ℤ) * (2:ℚ) ^ φ.expo x := rfl
  rw [e1, e2, e3]
  constructor
  · exact mul_le_mul_of_nonneg_right (by exact_mod_cast hb.1) h2.le
  · exact mul_le_mul_of_nonneg_right (by exact_mod_cast hb.2) h2.le

theorem roundQ_N_nearest (x : ℝ) {f : ℚ} (hf : φ.Rep f) : |(φ.roundQ .N x : ℝ) - x| ≤ |(f:ℝ) - x| := by
  have h2 := two_zpow_posR (φ.expo x)
  have key : ∀ k : ℤ, |(φ.roundQ .N x : ℝ) - x| ≤ |(k : ℝ) * 2 ^ φ.expo x - x| := by
    intro k
    have e3 : (φ.roundQ .N x : ℝ) = (roundInt .N (x / (2:ℝ) ^ φ.expo x) : ℤ) * (2:ℝ) ^ φ.expo x := by
      simp [Fmt.roundQ]
    have hx : x = x / (2:ℝ) ^ φ.expo x * 2 ^ φ.expo x := by field_simp
    have := roundInt_N_nearest (x / (2:ℝ) ^ φ.expo x) k
    rw [e3]
    calc |(roundInt .N (x / (2:ℝ) ^ φ.expo x) : ℝ) * 2 ^ φ.expo x - x|
        = |(roundInt .N (x / (2:ℝ) ^ φ.expo x) : ℝ) - x / (2:ℝ) ^ φ.expo x| * 2 ^ φ.expo x := by
          rw [← abs_of_pos h2, ← abs_mul, abs_of_pos h2, sub_mul, ← hx]
      _ ≤ |(k:ℝ) - x / (2:ℝ) ^ φ.expo x| * 2 ^ φ.expo x := mul_le_mul_of_nonneg_right this h2.le
      _ = |(k : ℝ) * 2 ^ φ.expo x - x| := by
          rw [← abs_of_pos h2, ← abs_mul, abs_of_pos h2, sub_mul, ← hx]
  rcases le_total (f:ℝ) x with h | h
  · obtain ⟨k, h3, h4⟩ := φ.exists_mult_between hf h
    refine (key k).trans ?_
    have h3' : (f:ℝ) ≤ k * 2 ^ φ.expo x := by
      have := (Rat.cast_le (K := ℝ)).mpr h3; push_cast at this; exact this
    rw [abs_sub_comm, abs_sub_comm (f:ℝ), abs_of_nonneg (by linarith), abs_of_nonneg (by linarith)]
    linarith
  · obtain ⟨k, h3, h4⟩ := φ.exists_mult_between hf.neg (x := -x) (by push_cast; linarith)
    rw [expo_neg] at h3 h4
    refine (key (-k)).trans ?_
    have h3' : -(f:ℝ) ≤ k * 2 ^ φ.expo x := by
      have := (Rat.cast_le (K := ℝ)).mpr h3; push_cast at this; exact this
    push_cast
    rw [abs_of_nonneg (by linarith), abs_of_nonneg (by linarith)]
    linarith

theorem roundQ_le_maxFin {m : Rnd} {x : ℝ} (h : |x| ≤ (φ.maxFin : ℝ)) : |φ.roundQ m x| ≤ φ.maxFin := by
  rw [abs_le] at h ⊢
  have hb := φ.roundQ_between m x
  constructor
  · refine le_trans ?_ hb.1
    exact φ.le_roundQ_D φ.rep_maxFin.neg (by push_cast; exact h.1)
  · exact hb.2.trans (φ.roundQ_U_le φ.rep_maxFin h.2)

/-- No overflow for arguments within the range of the format. -/
theorem round_toE {m : Rnd} {x : ℝ} (h : |x| ≤ (φ.maxFin : ℝ)) : (φ.round m x).toE = ((φ.roundQ m x : ℝ) : EReal) := by
  have hq := φ.roundQ_le_maxFin (m := m) h
  rw [abs_le] at hq
  simp only [Fmt.round]
  rw [if_neg (by linarith), if_neg (by linarith)]
  split_ifs with h0
  · rw [FP.toE_mkZero, h0]; simp
  · rfl

theorem rep_mult {q : ℚ} (h : φ.Rep q) : ∃ k : ℤ, q = k * 2 ^ φ.qmin := by
  obtain ⟨m, e, rfl, -, he, -⟩ := h
  refine ⟨m * 2 ^ (e - φ.qmin).toNat, ?_⟩
  have : ((2:ℚ) ^ (e - φ.qmin).toNat) = 2 ^ (e - φ.qmin) := by
    rw [← zpow_natCast, Int.toNat_of_nonneg (by omega)]
  push_cast
  rw [this, mul_assoc, ← zpow_add₀ (by norm_num)]
  congr 2; ring

/-- A multiple of the least positive number is rounded the same with or without subnormalisation. -/
theorem roundNS_eq (m : Rnd) {x : ℚ} (h : ∃ k : ℤ, x = k * 2 ^ φ.qmin) : φ.roundNS m x = φ.round m x := by
  have hv : ((roundInt m (x / (2:ℚ) ^ φ.expoNS x) : ℤ) : ℚ) * (2:ℚ) ^ φ.expoNS x = φ.roundQ m x := by
    by_cases hc : φ.qmin ≤ φ.expoNS x
    · have : φ.expo x = φ.expoNS x := by
        unfold Fmt.expo; exact max_eq_left hc
      unfold Fmt.roundQ; rw [this]
    · have he : φ.expo x = φ.qmin := by
        unfold Fmt.expo; exact max_eq_right (by unfold Fmt.expoNS at hc; omega)
      have aux : ∀ e : ℤ, e ≤ φ.qmin → ((roundInt m (x / (2:ℚ) ^ e) : ℤ) : ℚ) * (2:ℚ) ^ e = x := by
        intro e hee
        obtain ⟨k, rfl⟩ := h
        have h2 := two_zpow_pos e
        have e1 : (k : ℚ) * 2 ^ φ.qmin / 2 ^ e = ((k * 2 ^ (φ.qmin - e).toNat : ℤ) : ℚ) := by
          have : ((2:ℚ) ^ (φ.qmin - e).toNat) = 2 ^ (φ.qmin - e) := by
            rw [← zpow_natCast, Int.toNat_of_nonneg (by omega)]
          push_cast
          rw [this, zpow_sub₀ (by norm_num)]; ring
        have e2 : roundInt m (((k * 2 ^ (φ.qmin - e).toNat : ℤ) : ℚ)) = k * 2 ^ (φ.qmin - e).toNat := by
          rw [← roundInt_cast]
          have := roundInt_int m (k * 2 ^ (φ.qmin - e).toNat)
          push_cast at this ⊢
          exact this
        rw [e1, e2, ← e1]
        field_simp
      unfold Fmt.roundQ
      rw [he, aux _ (by omega), aux _ le_rfl]
  simp only [Fmt.roundNS, Fmt.round]
  rw [hv]
  cases m <;> rfl

theorem neg_q (a : FP) : a.neg.q = - a.q := by
  cases a <;> simp [FP.neg, FP.q]
  split_ifs with h <;> simp [FP.q, h]

theorem q_mult {a : FP} (h : a.In φ) : ∃ k : ℤ, a.q = k * 2 ^ φ.qmin := by
  cases a with
  | fin q => exact φ.rep_mult h
  | _ => exact ⟨0, by simp [FP.q]⟩

theorem subNS_eq (m : Rnd) {a b : FP} (ha : a.In φ) (hb : b.In φ) : φ.subNS m a b = φ.sub m a b := by
  have hm : ∃ k : ℤ, a.q + b.neg.q = k * 2 ^ φ.qmin := by
    obtain ⟨k, hk⟩ := φ.q_mult ha
    obtain ⟨l, hl⟩ := φ.q_mult hb
    refine ⟨k - l, ?_⟩
    rw [neg_q, hk, hl]; push_cast; ring
  have := φ.roundNS_eq m hm
  unfold Fmt.subNS Fmt.sub Fmt.add
  cases a <;> cases hbn : b.neg <;> simp only [hbn] at this ⊢ <;> split_ifs <;> first | rfl | exact this

end Fmt

end P1788
