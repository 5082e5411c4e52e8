import Verif.Model.Reduction
import Verif.Lemmas.Num

/-! Lemmas on rounding to nearest near the overflow threshold, and on sums. -/

namespace P1788

theorem roundInt_N_neg (y : ℝ) : roundInt .N (-y) = - roundInt .N y := by
  have hf := Int.floor_le y
  have hl := Int.lt_floor_add_one y
  set f := ⌊y⌋ with hfd
  rcases eq_or_lt_of_le hf with h | h
  · rw [← h]
    have e : -((f:ℤ):ℝ) = ((-f:ℤ):ℝ) := by push_cast; ring
    rw [e, roundInt_int, roundInt_int]
  have e : ⌊-y⌋ = -f - 1 := by
    rw [Int.floor_eq_iff]; push_cast; constructor <;> linarith
  simp only [roundInt, e, ← hfd]
  push_cast
  split_ifs <;> first | omega | (exfalso; linarith)

namespace Fmt
variable (φ : Fmt)

theorem expo_neg' (x : ℝ) : φ.expo (-x) = φ.expo x := by simp [expo]

theorem roundQ_N_neg (x : ℝ) : φ.roundQ .N (-x) = - φ.roundQ .N x := by
  unfold roundQ
  rw [expo_neg', neg_div, roundInt_N_neg]; push_cast; ring

/-- The least number that rounds to infinity. -/
noncomputable def huge : ℝ := 2 ^ φ.emax - 2 ^ (φ.emax - φ.p - 1)

theorem maxFin_eqR : (φ.maxFin : ℝ) = 2 ^ φ.emax - 2 ^ (φ.emax - φ.p) := by
  unfold maxFin
  push_cast
  rw [sub_mul, one_mul, ← zpow_natCast, ← zpow_add₀ (by norm_num)]
  congr 2; ring

theorem huge_eq : φ.huge = φ.maxFin + 2 ^ (φ.emax - φ.p - 1) := by
  rw [maxFin_eqR, huge]
  have : (2:ℝ) ^ (φ.emax - φ.p) = 2 * 2 ^ (φ.emax - φ.p - 1) := by
    rw [← zpow_one_add₀ (by norm_num)]; congr 1; ring
  rw [this]; ring

/-- The unit in the last place of numbers next to the overflow threshold. -/
theorem expo_top {x : ℝ} (h1 : (φ.maxFin : ℝ) ≤ x) (h2 : x < 2 ^ φ.emax) : φ.expo x = φ.emax - φ.p := by
  have hp := φ.p_pos
  have hx : 0 < x := lt_of_lt_of_le (by exact_mod_cast φ.maxFin_pos) h1
  have : Int.log 2 x = φ.emax - 1 := by
    apply le_antisymm
    · have := (Int.lt_zpow_iff_log_lt (b := 2) (by norm_num) hx (x := φ.emax)).mp (by exact_mod_cast h2)
      omega
    · rw [← Int.zpow_le_iff_le_log (by norm_num) hx]
      refine le_trans ?_ h1
      rw [maxFin_eqR]
      have e1 : (2:ℝ) ^ φ.emax = 2 * 2 ^ (φ.emax - 1) := by
        rw [← zpow_one_add₀ (by norm_num)]; congr 1; ring
      have e2 : (2:ℝ) ^ (φ.emax - φ.p) ≤ 2 ^ (φ.emax - 1) := zpow_le_zpow_right₀ (by norm_num) (by omega)
      push_cast; linarith
  unfold expo
  rw [abs_of_pos hx, this]
  have := φ.range
  omega

theorem roundQ_N_top {x : ℝ} (h1 : (φ.maxFin : ℝ) ≤ x) (h2 : x < φ.huge) : φ.roundQ .N x = φ.maxFin := by
  have hu := two_zpow_posR (φ.emax - φ.p)
  have hh : φ.huge < 2 ^ φ.emax := by
    have := two_zpow_posR (φ.emax - φ.p - 1); unfold huge; linarith
  have ee := φ.expo_top h1 (h2.trans hh)
  unfold roundQ
  rw [ee]
  have em : (φ.maxFin : ℝ) = (2 ^ φ.p - 1) * 2 ^ (φ.emax - φ.p) := by simp [maxFin]
  have eh : φ.huge = (2 ^ φ.p - 1 / 2) * 2 ^ (φ.emax - φ.p) := by
    rw [huge_eq, em]
    have : (2:ℝ) ^ (φ.emax - φ.p) = 2 * 2 ^ (φ.emax - φ.p - 1) := by
      rw [← zpow_one_add₀ (by norm_num)]; congr 1; ring
    rw [this]; ring
  set y := x / (2:ℝ) ^ (φ.emax - φ.p) with hy
  have y1 : (2:ℝ) ^ φ.p - 1 ≤ y := by rw [hy, le_div_iff₀ hu, ← em]; exact h1
  have y2 : y < 2 ^ φ.p - 1 / 2 := by rw [hy, div_lt_iff₀ hu, ← eh]; exact h2
  have fl : ⌊y⌋ = 2 ^ φ.p - 1 := by rw [Int.floor_eq_iff]; push_cast; constructor <;> linarith
  have : roundInt .N y = 2 ^ φ.p - 1 := by
    simp only [roundInt, fl]
    rw [if_pos (by push_cast; linarith)]
  rw [this]; simp [maxFin]

theorem roundQ_N_huge {x : ℝ} (h : φ.huge ≤ x) : φ.maxFin < φ.roundQ .N x := by
  have hu := two_zpow_posR (φ.emax - φ.p)
  have hm : (φ.maxFin : ℝ) ≤ φ.huge := by
    have := two_zpow_posR (φ.emax - φ.p - 1); rw [huge_eq]; linarith
  have hx : 0 < x := lt_of_lt_of_le (by exact_mod_cast φ.maxFin_pos) (hm.trans h)
  have hlt : φ.maxFin < 2 ^ φ.emax := by
    have := φ.maxFin_eqR
    have e : (φ.maxFin : ℝ) < ((2 ^ φ.emax : ℚ) : ℝ) := by push_cast; linarith
    exact_mod_cast e
  refine lt_of_lt_of_le hlt ?_
  rcases lt_or_ge x (2 ^ φ.emax) with h2 | h2
  · have ee := φ.expo_top (hm.trans h) h2
    unfold roundQ
    rw [ee]
    have em : (φ.maxFin : ℝ) = (2 ^ φ.p - 1) * 2 ^ (φ.emax - φ.p) := by simp [maxFin]
    have eh : φ.huge = (2 ^ φ.p - 1 / 2) * 2 ^ (φ.emax - φ.p) := by
      rw [huge_eq, em]
      have : (2:ℝ) ^ (φ.emax - φ.p) = 2 * 2 ^ (φ.emax - φ.p - 1) := by
        rw [← zpow_one_add₀ (by norm_num)]; congr 1; ring
      rw [this]; ring
    have et : (2:ℝ) ^ φ.emax = 2 ^ φ.p * 2 ^ (φ.emax - φ.p) := by
      rw [← zpow_natCast, ← zpow_add₀ (by norm_num)]; congr 1; ring
    set y := x / (2:ℝ) ^ (φ.emax - φ.p) with hy
    have y1 : (2:ℝ) ^ φ.p - 1 / 2 ≤ y := by rw [hy, le_div_iff₀ hu, ← eh]; exact h
    have y2 : y < 2 ^ φ.p := by rw [hy, div_lt_iff₀ hu, ← et]; exact h2
    have fl : ⌊y⌋ = 2 ^ φ.p - 1 := by rw [Int.floor_eq_iff]; push_cast; constructor <;> linarith
    have odd : (2 ^ φ.p - 1 : ℤ) % 2 ≠ 0 := by
      have hp := φ.p_pos
      obtain ⟨k, hk⟩ : ∃ k, φ.p = k + 1 := ⟨φ.p - 1, by omega⟩
      rw [hk, pow_succ]; omega
    have : roundInt .N y = 2 ^ φ.p := by
      simp only [roundInt, fl]
      rw [if_neg (by push_cast; linarith)]
      split_ifs <;> first | ring | exact absurd ‹_› odd
    rw [this]
    have et' : (2:ℚ) ^ φ.emax = 2 ^ φ.p * 2 ^ (φ.emax - φ.p) := by
      rw [← zpow_natCast, ← zpow_add₀ (by norm_num)]; congr 1; ring
    rw [et']; push_cast; exact le_refl _
  · have hlog : φ.emax ≤ Int.log 2 x := by
      rw [← Int.zpow_le_iff_le_log (by norm_num) hx]; exact_mod_cast h2
    have hp := φ.p_pos
    have hr := φ.range
    have ee : φ.expo x = Int.log 2 x - φ.p + 1 := by
      unfold expo; rw [abs_of_pos hx]; omega
    unfold roundQ
    set e := φ.expo x with he
    have hue := two_zpow_posR e
    have y1 : (2:ℝ) ^ (φ.p - 1) ≤ x / 2 ^ e := by
      rw [le_div_iff₀ hue, ee]
      refine le_trans (le_of_eq ?_) (Int.zpow_log_le_self (b := 2) (by norm_num) hx)
      push_cast
      rw [← zpow_natCast, ← zpow_add₀ (by norm_num)]
      congr 1; omega
    have fl : (2:ℤ) ^ (φ.p - 1) ≤ roundInt .N (x / 2 ^ e) := by
      refine le_trans ?_ (roundInt_bounds .N _).1
      rw [Int.le_floor]; push_cast; exact y1
    have fl' : (2:ℚ) ^ (φ.p - 1) ≤ (roundInt .N (x / 2 ^ e) : ℤ) := by exact_mod_cast fl
    refine le_trans ?_ (mul_le_mul_of_nonneg_right fl' (two_zpow_pos e).le)
    rw [← zpow_natCast, ← zpow_add₀ (by norm_num)]
    exact zpow_le_zpow_right₀ (by norm_num) (by omega)

end Fmt

end P1788
