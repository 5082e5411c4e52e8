import Verif.Props.C10

/-! # Rounding near a pole of the tangent -/

namespace P1788
open Real

variable {φ : Fmt}

/-- The relative spacing `2^(1-p)` of the format. -/
noncomputable def eps (φ : Fmt) : ℝ := 2 ^ (1 - (φ.p:ℤ))

theorem eps_pos (φ : Fmt) : 0 < eps φ := two_zpow_posR _

theorem eps_le (φ : Fmt) : eps φ ≤ 1 / 128 := by
  have := φ.p_pos
  have : eps φ ≤ 2 ^ (-7:ℤ) := zpow_le_zpow_right₀ (by norm_num) (by omega)
  refine this.trans (by norm_num)

theorem expo_le_eps {v : ℝ} (hv : 0 < v) : (2:ℝ) ^ φ.expo v ≤ eps φ * v + 2 ^ φ.qmin := by
  have hq := two_zpow_posR φ.qmin
  have he := eps_pos φ
  unfold Fmt.expo
  rcases max_cases (Int.log 2 |v| - φ.p + 1) φ.qmin with ⟨h, h'⟩ | ⟨h, h'⟩
  · rw [h]
    rw [show Int.log 2 |v| - φ.p + 1 = (1 - (φ.p:ℤ)) + Int.log 2 |v| by ring, zpow_add₀ (by norm_num)]
    have := Int.zpow_log_le_self (b := 2) (by norm_num) (abs_pos.mpr hv.ne')
    rw [abs_of_pos hv] at this ⊢
    push_cast at this
    have := mul_le_mul_of_nonneg_left this he.le
    unfold eps at this ⊢
    linarith
  · rw [h]
    have := mul_nonneg he.le hv.le
    linarith

/-- A representable number just below `v`. -/
theorem near_below {v : ℝ} (hv : 0 < v) (hm : v ≤ φ.maxFin) :
    ∃ f : ℚ, φ.Rep f ∧ (f:ℝ) ≤ v ∧ v - (eps φ * v + 2 ^ φ.qmin) ≤ f := by
  have h1 := φ.roundQ_D_le v
  have h0 : 0 ≤ φ.roundQ .D v := φ.le_roundQ_D φ.rep_zero (by simpa using hv.le)
  have hr : φ.Rep (φ.roundQ .D v) := φ.rep_roundQ (by
    rw [abs_of_nonneg h0]; exact_mod_cast h1.trans hm)
  refine ⟨_, hr, h1, ?_⟩
  have h2 := expo_le_eps (φ := φ) hv
  have h3 : v < φ.roundQ .D v + 2 ^ φ.expo v := by
    unfold Fmt.roundQ
    simp only [roundInt]
    push_cast
    have := Int.lt_floor_add_one (v / 2 ^ φ.expo v)
    rw [div_lt_iff₀ (two_zpow_posR _)] at this
    linarith [add_mul ((⌊v / 2 ^ φ.expo v⌋:ℤ):ℝ) 1 (2 ^ φ.expo v)]
  linarith

/-- A representable number just above `v`. -/
theorem near_above {v : ℝ} (hv : 0 < v) (hm : v + (eps φ * v + 2 ^ φ.qmin) ≤ φ.maxFin) :
    ∃ f : ℚ, φ.Rep f ∧ v ≤ (f:ℝ) ∧ f ≤ v + (eps φ * v + 2 ^ φ.qmin) := by
  have h2 := expo_le_eps (φ := φ) hv
  have h1 : v ≤ φ.roundQ .U v := by
    rw [φ.roundQ_U_eq]
    have := φ.roundQ_D_le (-v)
    push_cast; linarith
  have h3 : φ.roundQ .U v < v + 2 ^ φ.expo v := by
    unfold Fmt.roundQ
    simp only [roundInt]
    push_cast
    have := Int.ceil_lt_add_one (v / 2 ^ φ.expo v)
    have := mul_lt_mul_of_pos_right this (two_zpow_posR (φ.expo v))
    rw [add_mul, div_mul_cancel₀ _ (two_zpow_posR _).ne'] at this
    linarith
  have h0 : 0 ≤ φ.roundQ .U v := by
    have : (0:ℝ) ≤ φ.roundQ .U v := hv.le.trans h1
    exact_mod_cast this
  refine ⟨_, φ.rep_roundQ ?_, h1, by linarith⟩
  rw [abs_of_nonneg h0]
  have : (φ.roundQ .U v : ℝ) ≤ φ.maxFin := by linarith
  exact_mod_cast this

/-- Twice the smallest positive number is far below the relative spacing. -/
theorem qmin_small (φ : Fmt) : 2 * (2:ℝ) ^ φ.qmin < eps φ / 16 := by
  have hp := φ.p_pos
  have hq := φ.qmin_le
  have e1 : (2:ℝ) ^ (-3 - (φ.p:ℤ)) = eps φ / 16 := by
    unfold eps
    rw [show -3 - (φ.p:ℤ) = (1 - (φ.p:ℤ)) - 4 by ring, zpow_sub₀ (by norm_num) _ 4]; norm_num
  rw [← e1, ← zpow_one_add₀ (by norm_num)]
  exact zpow_lt_zpow_right₀ (by norm_num) (by omega)

theorem sin_gap (φ : Fmt) {d : ℝ} (h : 9 / 8 * eps φ ≤ d) (h2 : d ≤ π / 2) : 17 / 16 * eps φ ≤ sin d := by
  have he := eps_pos φ
  have he' := eps_le φ
  have h1 : sin (9 / 8 * eps φ) ≤ sin d := sin_le_sin_of_le_of_le_pi_div_two (by linarith [pi_pos]) h2 h
  have h3 := sin_gt_sub_cube (x := 9 / 8 * eps φ) (by positivity)
  refine le_trans ?_ (h3.le.trans h1)
  have : eps φ ^ 3 ≤ eps φ * (1 / 128) ^ 2 := by
    rw [show eps φ ^ 3 = eps φ * eps φ ^ 2 by ring]
    exact mul_le_mul_of_nonneg_left (pow_le_pow_left₀ he.le he' 2) he.le
  nlinarith

theorem two_pow_eps (φ : Fmt) : (2:ℝ) ^ φ.p * eps φ = 2 := by
  unfold eps
  rw [zpow_sub₀ (by norm_num), zpow_natCast]; field_simp

theorem maxFin_ge (φ : Fmt) : 2 * ((2:ℝ) ^ φ.p - 1) ≤ (φ.maxFin : ℝ) := by
  unfold Fmt.maxFin
  push_cast
  have h1 : (2:ℝ) ^ (1:ℤ) ≤ 2 ^ (φ.emax - φ.p) := zpow_le_zpow_right₀ (by norm_num) (by have := φ.emax_ge; omega)
  have h2 : (1:ℝ) ≤ 2 ^ φ.p := one_le_pow₀ (by norm_num)
  rw [zpow_one] at h1
  nlinarith

theorem tan_gap_pos {α β : ℝ} (hβ : 0 ≤ β) (hα : α < π / 2) (hd : 9 / 8 * eps φ ≤ α - β) :
    φ.ruE (tan β) < φ.rdE (tan α) := by
  have he := eps_pos φ
  have he' := eps_le φ
  have hq := two_zpow_posR φ.qmin
  have hqs := qmin_small φ
  have hαβ : β < α := by linarith
  have ca : 0 < cos α := cos_pos_of_mem_Ioo ⟨by linarith [pi_pos], hα⟩
  have cb : 0 < cos β := cos_pos_of_mem_Ioo ⟨by linarith [pi_pos], by linarith⟩
  set K := sin (α - β) with hK
  have hK1 : 17 / 16 * eps φ ≤ K := sin_gap φ hd (by linarith)
  have e1 : tan α - tan β = K / (cos α * cos β) := by
    rw [hK, sin_sub, tan_eq_sin_div_cos, tan_eq_sin_div_cos]; field_simp
  have e2 : tan α + tan β = sin (α + β) / (cos α * cos β) := by
    rw [sin_add, tan_eq_sin_div_cos, tan_eq_sin_div_cos]; field_simp
  have hP : 1 ≤ 1 / (cos α * cos β) := by
    rw [le_div_iff₀ (by positivity)]
    have := cos_le_one α
    have := cos_le_one β
    nlinarith
  set P := 1 / (cos α * cos β) with hPdef
  have e1' : tan α - tan β = K * P := by rw [e1, hPdef]; ring
  have e2' : tan α + tan β ≤ P := by
    rw [e2, hPdef]
    exact div_le_div_of_nonneg_right (sin_le_one _) (by positivity)
  have hτ0 : 0 ≤ tan β := tan_nonneg_of_nonneg_of_le_pi_div_two hβ (by linarith)
  have main : tan β + (eps φ * tan β + 2 ^ φ.qmin) < tan α - (eps φ * tan α + 2 ^ φ.qmin) := by
    have : 17 / 16 * eps φ * P ≤ K * P := mul_le_mul_of_nonneg_right hK1 (by linarith)
    have : eps φ * (tan α + tan β) ≤ eps φ * P := mul_le_mul_of_nonneg_left e2' he.le
    nlinarith
  have hτ1 : tan β * eps φ ≤ 1 := by
    have h1 : 17 / 16 * eps φ ≤ cos β := by
      rw [← sin_pi_div_two_sub]; exact sin_gap φ (by linarith) (by linarith)
    have h2 : tan β * cos β ≤ 1 := by
      rw [tan_mul_cos cb.ne']; exact sin_le_one _
    nlinarith
  set M : ℝ := (φ.maxFin : ℝ) with hM
  have hMg := maxFin_ge φ
  have hpe := two_pow_eps φ
  have hp8 : (2:ℝ) ^ 8 ≤ 2 ^ φ.p := pow_le_pow_right₀ (by norm_num) φ.p_pos
  have hτ2 : 2 * tan β ≤ 2 ^ φ.p := by
    have : eps φ * (2 * tan β) ≤ eps φ * 2 ^ φ.p := by rw [mul_comm (eps φ) (2 ^ φ.p), hpe]; linarith
    exact le_of_mul_le_mul_left this he
  have hlow : tan β + (eps φ * tan β + 2 ^ φ.qmin) < M * (127 / 128) - 1 := by
    have : 2 * (2:ℝ) ^ φ.qmin < 1 := by linarith
    nlinarith
  -- the number above `tan β`
  obtain ⟨f, hf, hf1, hf2⟩ : ∃ f : ℚ, φ.Rep f ∧ tan β ≤ (f:ℝ) ∧ f ≤ tan β + (eps φ * tan β + 2 ^ φ.qmin) := by
    rcases hτ0.eq_or_lt with h | h
    · refine ⟨0, φ.rep_zero, by rw [← h]; simp, ?_⟩
      rw [← h]; push_cast; linarith
    · exact near_above h (by nlinarith)
  obtain ⟨g, hg, hg1, hg2⟩ : ∃ g : ℚ, φ.Rep g ∧ (g:ℝ) ≤ tan α ∧ (f:ℝ) < g := by
    rcases le_or_gt (tan α) M with h | h
    · obtain ⟨g, hg, hg1, hg2⟩ := near_below (φ := φ) (v := tan α) (by nlinarith) h
      exact ⟨g, hg, hg1, by linarith⟩
    · obtain ⟨g, hg, hg1, hg2⟩ := near_below (φ := φ) (v := M) (by nlinarith) le_rfl
      refine ⟨g, hg, by linarith, ?_⟩
      have : eps φ * M ≤ 1 / 128 * M := mul_le_mul_of_nonneg_right he' (by nlinarith)
      have : 2 * (2:ℝ) ^ φ.qmin < 1 := by linarith
      linarith
  have r1 : φ.ruE (tan β) ≤ (f:ℝ) := by
    have := (φ.ruE_le_iff (f := .fin f) hf (tan β) (by simp)).mpr (by rw [FP.toE_fin]; exact_mod_cast hf1)
    simpa using this
  have r2 : ((g:ℝ):EReal) ≤ φ.rdE (tan α) := by
    have := (φ.le_rdE_iff (f := .fin g) hg (tan α) (by simp)).mpr (by rw [FP.toE_fin]; exact_mod_cast hg1)
    simpa using this
  exact lt_of_le_of_lt r1 (lt_of_lt_of_le (by exact_mod_cast hg2) r2)

theorem tan_gap {α β : ℝ} (hβ : -(π / 2) < β) (hα : α < π / 2) (hd : 9 / 8 * eps φ ≤ α - β) :
    φ.ruE (tan β) < φ.rdE (tan α) := by
  have he := eps_pos φ
  have hq := two_zpow_posR φ.qmin
  have hqs := qmin_small φ
  rcases le_or_gt 0 β with h | h
  · exact tan_gap_pos h hα hd
  rcases le_or_gt α 0 with h' | h'
  · have := tan_gap_pos (φ := φ) (α := -β) (β := -α) (by linarith) (by linarith) (by linarith)
    rw [tan_neg, tan_neg, EReal.coe_neg, EReal.coe_neg, φ.ruE_neg, φ.rdE_neg, EReal.neg_lt_neg_iff] at this
    exact this
  · have tb : tan β < 0 := tan_neg_of_neg_of_pi_div_two_lt h hβ
    have ta : 0 < tan α := tan_pos_of_pos_of_lt_pi_div_two h' hα
    have r1 : φ.ruE (tan β) ≤ 0 := by
      rw [← φ.ruE_zero]; exact φ.ruE_mono (by exact_mod_cast tb.le)
    have r2 : 0 ≤ φ.rdE (tan α) := by
      rw [← φ.rdE_zero]; exact φ.rdE_mono (by exact_mod_cast ta.le)
    by_cases hb : -tan β < 2 ^ φ.qmin
    · by_cases ha : tan α < 2 ^ φ.qmin
      · exfalso
        have h1 := lt_tan h' hα
        have h2 := lt_tan (x := -β) (by linarith) (by linarith)
        rw [tan_neg] at h2
        linarith
      · refine lt_of_le_of_lt r1 ?_
        have := (φ.le_rdE_iff (f := .fin (2 ^ φ.qmin)) (rep_qmin φ) (tan α) (by simp)).mpr (by
          rw [FP.toE_fin]; push_cast; exact_mod_cast not_lt.mp ha)
        refine lt_of_lt_of_le ?_ this
        rw [FP.toE_fin]; push_cast; exact_mod_cast hq
    · refine lt_of_lt_of_le ?_ r2
      have := (φ.ruE_le_iff (f := .fin (-2 ^ φ.qmin)) (rep_qmin φ).neg (tan β) (by simp)).mpr (by
        rw [FP.toE_fin]; push_cast; exact_mod_cast (by linarith))
      refine lt_of_le_of_lt this ?_
      rw [FP.toE_fin]; push_cast; exact_mod_cast (by linarith)

end P1788
