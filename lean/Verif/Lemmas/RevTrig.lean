import Verif.Model.RevTrig
import Verif.Lemmas.Nearest
import Verif.Lemmas.Conv
import Verif.Lemmas.SetOp
import Mathlib.Analysis.Real.Pi.Bounds

/-! # Arithmetic behind `sin_rev`, `cos_rev`, `tan_rev` -/

namespace P1788
namespace Fmt
variable (φ : Fmt)

theorem roundNS_ne_nan (m : Rnd) (x : ℝ) : φ.roundNS m x ≠ .nan := by
  simp only [Fmt.roundNS]
  split_ifs
  · cases m <;> simp
  · cases m <;> simp
  · cases decide (x < 0) <;> simp [FP.mkZero]
  · simp

theorem vNS_D_le (x : ℝ) :
    (((roundInt .D (x / (2:ℝ) ^ φ.expoNS x) : ℤ) * (2:ℚ) ^ φ.expoNS x : ℚ) : ℝ) ≤ x := by
  have h2 := two_zpow_posR (φ.expoNS x)
  push_cast
  have := Int.floor_le (x / (2:ℝ) ^ φ.expoNS x)
  simp only [roundInt]
  calc _ ≤ x / (2:ℝ) ^ φ.expoNS x * (2:ℝ) ^ φ.expoNS x := mul_le_mul_of_nonneg_right this h2.le
    _ = x := by field_simp

theorem vNS_U_ge (x : ℝ) :
    x ≤ (((roundInt .U (x / (2:ℝ) ^ φ.expoNS x) : ℤ) * (2:ℚ) ^ φ.expoNS x : ℚ) : ℝ) := by
  have h2 := two_zpow_posR (φ.expoNS x)
  push_cast
  have := Int.le_ceil (x / (2:ℝ) ^ φ.expoNS x)
  simp only [roundInt]
  calc x = x / (2:ℝ) ^ φ.expoNS x * (2:ℝ) ^ φ.expoNS x := by field_simp
    _ ≤ _ := mul_le_mul_of_nonneg_right this h2.le

theorem roundNS_D_le (x : ℝ) : (φ.roundNS .D x).toE ≤ (x : EReal) := by
  have h := φ.vNS_D_le x
  simp only [Fmt.roundNS]
  generalize ((roundInt .D (x / (2:ℝ) ^ φ.expoNS x) : ℤ) * (2:ℚ) ^ φ.expoNS x : ℚ) = v at h ⊢
  split_ifs with h1 h2 h3
  · have := (Rat.cast_lt (K := ℝ)).mpr h1
    simp only [FP.toE]
    exact EReal.coe_le_coe_iff.mpr (by linarith)
  · simp
  · rw [FP.toE_mkZero]; rw [h3] at h; exact_mod_cast h
  · simp only [FP.toE]; exact EReal.coe_le_coe_iff.mpr h

theorem roundNS_U_ge (x : ℝ) : (x : EReal) ≤ (φ.roundNS .U x).toE := by
  have h := φ.vNS_U_ge x
  simp only [Fmt.roundNS]
  generalize ((roundInt .U (x / (2:ℝ) ^ φ.expoNS x) : ℤ) * (2:ℚ) ^ φ.expoNS x : ℚ) = v at h ⊢
  split_ifs with h1 h2 h3
  · simp
  · have := (Rat.cast_lt (K := ℝ)).mpr h2
    push_cast at this
    simp only [FP.toE]
    exact EReal.coe_le_coe_iff.mpr (by push_cast; linarith)
  · rw [FP.toE_mkZero]; rw [h3] at h; exact_mod_cast h
  · simp only [FP.toE]; exact EReal.coe_le_coe_iff.mpr h

/-- From here on rounding with or without subnormalisation is the same. -/
noncomputable def thr : ℝ := 2 ^ (φ.qmin + φ.p - 1)

theorem thr_pos : 0 < φ.thr := two_zpow_posR _

theorem thr_le : φ.thr ≤ 2 ^ (-(φ.p : ℤ)) := by
  unfold thr
  exact zpow_le_zpow_right₀ (by norm_num) (by have := φ.qmin_le; omega)

theorem thr_le_quarter : φ.thr ≤ 1 / 4 := by
  refine φ.thr_le.trans ?_
  calc (2:ℝ) ^ (-(φ.p : ℤ)) ≤ 2 ^ (-2 : ℤ) := zpow_le_zpow_right₀ (by norm_num) (by have := φ.p_pos; omega)
    _ = 1 / 4 := by norm_num

theorem rep_thr : φ.Rep (2 ^ (φ.qmin + φ.p - 1)) := by
  refine ⟨2 ^ (φ.p - 1), φ.qmin, ?_, ?_, le_rfl, φ.range⟩
  · have := φ.p_pos
    push_cast
    rw [← zpow_natCast, ← zpow_add₀ (by norm_num)]
    congr 1; push_cast [Nat.cast_sub (show 1 ≤ φ.p by omega)]; ring
  · have := φ.p_pos
    rw [abs_of_pos (by positivity)]
    exact pow_lt_pow_right₀ (by norm_num) (by omega)

theorem roundNS_big (m : Rnd) {x : ℝ} (h : φ.thr ≤ |x|) : φ.roundNS m x = φ.round m x := by
  have h0 : 0 < |x| := φ.thr_pos.trans_le h
  have h1 : φ.qmin + φ.p - 1 ≤ Int.log 2 |x| := by
    rw [← Int.zpow_le_iff_le_log (by norm_num) h0]; exact_mod_cast h
  have : φ.expo x = φ.expoNS x := by
    unfold Fmt.expo Fmt.expoNS; exact max_eq_left (by omega)
  simp only [Fmt.roundNS, Fmt.round, Fmt.roundQ, this]
  cases m <;> rfl

theorem four_le_maxFin : (2:ℚ) ^ φ.p ≤ φ.maxFin := by
  unfold Fmt.maxFin
  have h1 := φ.emax_ge
  have h2 := φ.p_pos
  have h3 : (2:ℚ) ^ (1:ℤ) ≤ 2 ^ (φ.emax - φ.p) := zpow_le_zpow_right₀ (by norm_num) (by omega)
  have h4 : (2:ℚ) ≤ 2 ^ φ.p := by
    calc (2:ℚ) = 2 ^ 1 := by norm_num
      _ ≤ _ := pow_le_pow_right₀ (by norm_num) (by omega)
  rw [zpow_one] at h3
  nlinarith

theorem abs_le_maxFin {x : ℝ} (h : |x| ≤ 4) : |x| ≤ (φ.maxFin : ℝ) := by
  have h1 : (256 : ℚ) ≤ 2 ^ φ.p := by
    calc (256:ℚ) = 2 ^ 8 := by norm_num
      _ ≤ _ := pow_le_pow_right₀ (by norm_num) φ.p_pos
  have h2 := (Rat.cast_le (K := ℝ)).mpr (h1.trans φ.four_le_maxFin)
  push_cast at h2
  linarith

theorem round_q {m : Rnd} {x : ℝ} (h : |x| ≤ 4) : (φ.round m x).q = φ.roundQ m x := by
  have hq := φ.roundQ_le_maxFin (m := m) (φ.abs_le_maxFin h)
  rw [abs_le] at hq
  simp only [Fmt.round]
  rw [if_neg (by linarith), if_neg (by linarith)]
  split_ifs with h0
  · rw [h0]; cases decide (x < 0) <;> rfl
  · rfl

theorem underflow_round (m m' : Rnd) (x : ℝ) : φ.underflow m (φ.round m' x) = φ.round m' x := by
  have h := φ.round_in m' x
  cases hr : φ.round m' x with
  | fin v =>
    rw [hr] at h
    obtain ⟨k, hk⟩ := φ.rep_mult h
    have h2 := two_zpow_pos φ.qmin
    simp only [Fmt.underflow]
    rw [if_neg, if_neg]
    · rintro ⟨h3, h4⟩
      rw [hk] at h3 h4
      have h5 : (-1:ℚ) < k := by nlinarith
      have h6 : (k:ℚ) < 0 := by nlinarith
      have : (-1:ℤ) < k := by exact_mod_cast h5
      have : k < (0:ℤ) := by exact_mod_cast h6
      omega
    · rintro ⟨h3, h4⟩
      rw [hk] at h3 h4
      have h5 : (0:ℚ) < k := by nlinarith
      have h6 : (k:ℚ) < 1 := by nlinarith
      have : (0:ℤ) < k := by exact_mod_cast h5
      have : k < (1:ℤ) := by exact_mod_cast h6
      omega
  | nan => rfl
  | ninf => rfl
  | pinf => rfl
  | nzero => rfl

theorem rndMP_big (m : Rnd) {x : ℝ} (h : φ.thr ≤ |x|) : φ.rndMP m x = φ.round m x := by
  unfold Fmt.rndMP; rw [φ.roundNS_big m h, underflow_round]

theorem rndMP_zero (m : Rnd) : φ.rndMP m 0 = .fin 0 := by
  have hm : ¬ φ.maxFin < 0 := not_lt.mpr φ.maxFin_pos.le
  have hm' : ¬ (0:ℚ) < -φ.maxFin := not_lt.mpr (by linarith [φ.maxFin_pos])
  have : φ.roundNS m (0:ℝ) = .fin 0 := by
    have e : roundInt m (0:ℝ) = 0 := by cases m <;> simp [roundInt]
    simp only [Fmt.roundNS, zero_div, e, Int.cast_zero, zero_mul, if_neg hm, if_neg hm']
    simp [FP.mkZero]
  unfold Fmt.rndMP; rw [this]; simp [Fmt.underflow]

theorem expoNS_le {x : ℝ} (h : 0 < |x|) : (2:ℝ) ^ φ.expoNS x ≤ |x| := by
  have h1 : (2:ℝ) ^ (Int.log 2 |x|) ≤ |x| := by
    have := Int.zpow_log_le_self (b := 2) (by norm_num) h; exact_mod_cast this
  refine le_trans (zpow_le_zpow_right₀ (by norm_num) ?_) h1
  unfold Fmt.expoNS; have := φ.p_pos; omega

theorem two_qmin_le : (2:ℚ) ^ φ.qmin ≤ 1 / 4 := by
  calc (2:ℚ) ^ φ.qmin ≤ 2 ^ (-2 : ℤ) :=
        zpow_le_zpow_right₀ (by norm_num) (by have := φ.p_pos; have := φ.qmin_le; omega)
    _ = 1 / 4 := by norm_num

theorem mkZero_q (s : Bool) : (FP.mkZero s).q = 0 := by cases s <;> rfl

theorem rndMP_tiny_D {x : ℝ} (h : |x| < φ.thr) :
    ((φ.rndMP .D x).q : ℝ) ≤ x ∧ (0 ≤ x → 0 ≤ (φ.rndMP .D x).q) ∧ -1 ≤ (φ.rndMP .D x).q := by
  by_cases h0 : x = 0
  · subst h0; rw [rndMP_zero]; simp [FP.q]
  have hx : 0 < |x| := abs_pos.mpr h0
  have hq := φ.thr_le_quarter
  have h2 := two_zpow_posR (φ.expoNS x)
  have hv := φ.vNS_D_le x
  have hu := φ.expoNS_le hx
  have hlow : x - 1 / 4 ≤ (((roundInt .D (x / (2:ℝ) ^ φ.expoNS x) : ℤ) * (2:ℚ) ^ φ.expoNS x : ℚ) : ℝ) := by
    push_cast
    have := Int.lt_floor_add_one (x / (2:ℝ) ^ φ.expoNS x)
    simp only [roundInt]
    have h3 : x < (⌊x / (2:ℝ) ^ φ.expoNS x⌋ + 1) * (2:ℝ) ^ φ.expoNS x := by
      calc x = x / (2:ℝ) ^ φ.expoNS x * (2:ℝ) ^ φ.expoNS x := by field_simp
        _ < _ := mul_lt_mul_of_pos_right this h2
    linarith
  have hnn : 0 ≤ x → (0:ℚ) ≤ (roundInt .D (x / (2:ℝ) ^ φ.expoNS x) : ℤ) * (2:ℚ) ^ φ.expoNS x := by
    intro h3
    have : 0 ≤ ⌊x / (2:ℝ) ^ φ.expoNS x⌋ := Int.floor_nonneg.mpr (by positivity)
    simp only [roundInt]
    exact mul_nonneg (by exact_mod_cast this) (two_zpow_pos _).le
  have hM : (1:ℚ) ≤ φ.maxFin := by
    have := φ.abs_le_maxFin (x := 1) (by norm_num)
    rw [abs_one] at this; exact_mod_cast this
  have hab := abs_lt.mp (h.trans_le hq)
  unfold Fmt.rndMP
  simp only [Fmt.roundNS]
  generalize ((roundInt .D (x / (2:ℝ) ^ φ.expoNS x) : ℤ) * (2:ℚ) ^ φ.expoNS x : ℚ) = v at *
  have v1 : -1 ≤ v := by
    have : ((-1:ℚ):ℝ) ≤ v := by push_cast; linarith
    exact_mod_cast this
  have v2 : v ≤ 1 := by
    have : (v:ℝ) ≤ (1:ℚ) := by push_cast; linarith
    exact_mod_cast this
  rw [if_neg (by linarith), if_neg (by linarith)]
  have hqm := φ.two_qmin_le
  have hqp := two_zpow_pos φ.qmin
  split_ifs with h3
  · subst h3
    have : (φ.underflow .D (FP.mkZero (decide (x < 0)))).q = 0 := by
      cases decide (x < 0) <;> simp [FP.mkZero, Fmt.underflow, FP.q]
    rw [this]
    exact ⟨by simpa using hv, fun _ => le_rfl, by norm_num⟩
  · simp only [Fmt.underflow]
    split_ifs with h4 h5 h6
    · simp at h5
    · simp only [FP.q]
      have : (0:ℝ) < v := by exact_mod_cast h4.1
      exact ⟨by push_cast; linarith, fun _ => le_rfl, by norm_num⟩
    · simp only [FP.q]
      have : (((-2 ^ φ.qmin : ℚ)):ℝ) < v := by exact_mod_cast h6.1
      exact ⟨by linarith, fun h => absurd (hnn h) (by linarith [h6.2]), by linarith⟩
    · simp only [FP.q]; exact ⟨hv, hnn, v1⟩

theorem rndMP_neg (x : ℝ) : (φ.rndMP .U x).q = - (φ.rndMP .D (-x)).q := by
  have e1 : φ.expoNS (-x) = φ.expoNS x := by simp [Fmt.expoNS]
  have e2 : ((roundInt .U (x / (2:ℝ) ^ φ.expoNS x) : ℤ) * (2:ℚ) ^ φ.expoNS x : ℚ)
      = - ((roundInt .D (-x / (2:ℝ) ^ φ.expoNS (-x)) : ℤ) * (2:ℚ) ^ φ.expoNS (-x) : ℚ) := by
    rw [e1]; simp only [roundInt, neg_div, Int.floor_neg]; push_cast; ring
  unfold Fmt.rndMP
  simp only [Fmt.roundNS]
  rw [e2]
  generalize ((roundInt .D (-x / (2:ℝ) ^ φ.expoNS (-x)) : ℤ) * (2:ℚ) ^ φ.expoNS (-x) : ℚ) = v
  have hM := φ.maxFin_pos
  have hqm := φ.two_qmin_le
  have hqp := two_zpow_pos φ.qmin
  have hfin : 2 ^ φ.qmin ≤ φ.maxFin := by
    have := φ.abs_le_maxFin (x := 1) (by norm_num)
    rw [abs_one] at this
    have : (1:ℚ) ≤ φ.maxFin := by exact_mod_cast this
    linarith
  by_cases c1 : φ.maxFin < -v
  · rw [if_pos c1, if_neg (by linarith), if_pos (by linarith)]; simp [Fmt.underflow, FP.q]
  rw [if_neg c1]
  by_cases c2 : -v < -φ.maxFin
  · rw [if_pos c2, if_pos (by linarith)]
    simp only [Fmt.underflow]
    rw [if_neg (by intro h; linarith [h.1]), if_neg (by intro h; linarith [h.1]),
      if_neg (by intro h; linarith [h.2]), if_neg (by intro h; linarith [h.2])]
    simp [FP.q]
  rw [if_neg c2, if_neg (show ¬ φ.maxFin < v by linarith), if_neg (show ¬ v < -φ.maxFin by linarith)]
  by_cases c3 : v = 0
  · subst c3
    rw [if_pos (by norm_num), if_pos rfl]
    cases decide (x < 0) <;> cases decide (-x < 0) <;> simp [FP.mkZero, Fmt.underflow, FP.q]
  · rw [if_neg (by simpa using c3), if_neg c3]
    simp only [Fmt.underflow]
    by_cases c4 : 0 < v ∧ v < 2 ^ φ.qmin
    · rw [if_neg (by intro h; linarith [h.1, c4.1]), if_pos (by constructor <;> linarith [c4.1, c4.2]), if_pos c4]
      simp [FP.q]
    rw [if_neg c4]
    by_cases c5 : -2 ^ φ.qmin < v ∧ v < 0
    · rw [if_pos (by constructor <;> linarith [c5.1, c5.2]), if_pos c5]
      simp [FP.q]
    rw [if_neg c5, if_neg (by intro h; exact c5 ⟨by linarith [h.2], by linarith [h.1]⟩),
      if_neg (by intro h; exact c4 ⟨by linarith [h.2], by linarith [h.1]⟩)]
    simp [FP.q]

theorem rndMP_D_le {x : ℝ} (h : |x| ≤ 4) : ((φ.rndMP .D x).q : ℝ) ≤ x := by
  rcases lt_or_ge |x| φ.thr with h1 | h1
  · exact (φ.rndMP_tiny_D h1).1
  · rw [φ.rndMP_big _ h1, φ.round_q h]; exact φ.roundQ_D_le x

theorem le_rndMP_D {x : ℝ} {b : ℚ} (h : |x| ≤ 4) (hb : φ.Rep b) (hbx : (b:ℝ) ≤ x) (h1 : b ≤ -1 ∨ b = 0 ∨ φ.thr ≤ (b:ℝ)) :
    b ≤ (φ.rndMP .D x).q := by
  rcases lt_or_ge |x| φ.thr with h2 | h2
  · have := φ.rndMP_tiny_D h2
    rcases h1 with h1 | h1 | h1
    · linarith [this.2.2]
    · subst h1; exact this.2.1 (by simpa using hbx)
    · exfalso; have := (abs_lt.mp h2).2; linarith
  · rw [φ.rndMP_big _ h2, φ.round_q h]; exact φ.le_roundQ_D hb hbx

theorem le_rndMP_U {x : ℝ} (h : |x| ≤ 4) : x ≤ ((φ.rndMP .U x).q : ℝ) := by
  have := φ.rndMP_D_le (x := -x) (by rwa [abs_neg])
  rw [rndMP_neg]; push_cast; linarith

theorem rndMP_U_le {x : ℝ} {b : ℚ} (h : |x| ≤ 4) (hb : φ.Rep b) (hbx : x ≤ (b:ℝ)) (h1 : 1 ≤ b ∨ b = 0 ∨ (b:ℝ) ≤ -φ.thr) :
    (φ.rndMP .U x).q ≤ b := by
  have := φ.le_rndMP_D (x := -x) (b := -b) (by rwa [abs_neg]) hb.neg (by push_cast; linarith)
    (by rcases h1 with h1 | h1 | h1
        · left; linarith
        · right; left; linarith
        · right; right; push_cast; linarith)
  rw [rndMP_neg]; linarith

end Fmt
end P1788
