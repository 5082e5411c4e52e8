import Verif.Lemmas.FP
import Mathlib.Algebra.Order.Archimedean.Real.Basic
import Mathlib.Tactic.Ring
import Mathlib.Tactic.Positivity
import Mathlib.Tactic.NormNum
import Mathlib.Tactic.FieldSimp

/-! Helper lemmas: the concrete rounding functions are correct (directed) roundings. -/

namespace P1788

open FP

theorem two_zpow_pos (e : ℤ) : (0:ℚ) < 2 ^ e := zpow_pos (by norm_num) e
theorem two_zpow_posR (e : ℤ) : (0:ℝ) < 2 ^ e := zpow_pos (by norm_num) e

namespace Fmt
variable (φ : Fmt)

theorem maxFin_pos : 0 < φ.maxFin := by
  unfold maxFin
  have h : (2:ℚ) ≤ 2 ^ φ.p := by
    calc (2:ℚ) = 2 ^ 1 := by norm_num
      _ ≤ 2 ^ φ.p := pow_le_pow_right₀ (by norm_num) (by have := φ.p_pos; omega)
  have := two_zpow_pos (φ.emax - φ.p)
  apply mul_pos _ this
  linarith

theorem Rep.abs_le {φ : Fmt} {q : ℚ} (h : φ.Rep q) : |q| ≤ φ.maxFin := by
  obtain ⟨m, e, rfl, hm, he, he'⟩ := h
  rw [abs_mul, abs_of_pos (two_zpow_pos e)]
  unfold maxFin
  have h1 : (|m| : ℤ) ≤ 2 ^ φ.p - 1 := by omega
  have h2 : (|(m:ℚ)|) ≤ 2 ^ φ.p - 1 := by
    have : ((|m| : ℤ) : ℚ) ≤ ((2 ^ φ.p - 1 : ℤ) : ℚ) := by exact_mod_cast h1
    simpa using this
  have h3 : (2:ℚ) ^ e ≤ 2 ^ (φ.emax - φ.p) := zpow_le_zpow_right₀ (by norm_num) (by omega)
  have h4 : (0:ℚ) ≤ |(m:ℚ)| := abs_nonneg _
  have := two_zpow_pos e
  exact mul_le_mul h2 h3 this.le (h4.trans h2)

theorem Rep.neg {φ : Fmt} {q : ℚ} (h : φ.Rep q) : φ.Rep (-q) := by
  obtain ⟨m, e, rfl, hm, he, he'⟩ := h
  exact ⟨-m, e, by push_cast; ring, by rwa [abs_neg], he, he'⟩

@[simp] theorem rep_neg_iff {q : ℚ} : φ.Rep (-q) ↔ φ.Rep q :=
  ⟨fun h => by simpa using h.neg, Rep.neg⟩

theorem rep_zero : φ.Rep 0 :=
  ⟨0, φ.qmin, by simp, by simp, le_rfl, φ.range⟩

theorem rep_maxFin : φ.Rep φ.maxFin := by
  refine ⟨2 ^ φ.p - 1, φ.emax - φ.p, by unfold maxFin; push_cast; ring, ?_, by have := φ.range; omega, by omega⟩
  have : (1:ℤ) ≤ 2 ^ φ.p := one_le_pow₀ (by norm_num)
  rw [abs_of_nonneg (by omega)]; omega

theorem Rep.abs {φ : Fmt} {q : ℚ} (h : φ.Rep q) : φ.Rep |q| := by
  rcases abs_choice q with h' | h' <;> rw [h'] <;> simpa using h

/-- A product of a small integer and a power of two that does not overflow is a format number. -/
theorem rep_of_le {m e : ℤ} (hm : |m| ≤ 2 ^ φ.p) (he : φ.qmin ≤ e)
    (hmax : |(m : ℚ) * 2 ^ e| ≤ φ.maxFin) : φ.Rep (m * 2 ^ e) := by
  by_cases hm0 : m = 0
  · simpa [hm0] using φ.rep_zero
  have p2 := φ.p_pos
  have hpow : ∀ k : ℤ, 0 ≤ k → ((2:ℚ) ^ k) = (((2:ℤ) ^ k.toNat : ℤ) : ℚ) := by
    intro k hk
    push_cast
    rw [← zpow_natCast, Int.toNat_of_nonneg hk]
  by_cases hbig : φ.emax - φ.p ≤ e
  · -- shift the significand
    refine ⟨m * 2 ^ (e - (φ.emax - φ.p)).toNat, φ.emax - φ.p, ?_, ?_, by have := φ.range; omega, by omega⟩
    · have := hpow (e - (φ.emax - φ.p)) (by omega)
      rw [Int.cast_mul, ← this, mul_assoc, ← zpow_add₀ (by norm_num)]
      congr 2; omega
    · have h2 : |(m:ℚ) * 2 ^ (e - (φ.emax - φ.p))| ≤ 2 ^ φ.p - 1 := by
        have : (m:ℚ) * 2 ^ e = (m * 2 ^ (e - (φ.emax - φ.p))) * 2 ^ (φ.emax - φ.p) := by
          rw [mul_assoc, ← zpow_add₀ (by norm_num)]
          congr 2; omega
        rw [this, abs_mul, abs_of_pos (two_zpow_pos _)] at hmax
        unfold maxFin at hmax
        exact le_of_mul_le_mul_right hmax (two_zpow_pos _)
      rw [hpow _ (by omega)] at h2
      have h3 : |m * 2 ^ (e - (φ.emax - φ.p)).toNat| ≤ 2 ^ φ.p - 1 := by exact_mod_cast h2
      omega
  · push Not at hbig
    by_cases hlt : |m| < 2 ^ φ.p
    · exact ⟨m, e, rfl, hlt, he, by omega⟩
    · have heq : |m| = 2 ^ φ.p := by omega
      have h2p : (2:ℤ) ^ φ.p = 2 * 2 ^ (φ.p - 1) := by
        rw [← pow_succ']; congr 1; omega
      have hdvd : (2:ℤ) ∣ m := by
        rw [← dvd_abs, heq, h2p]; exact dvd_mul_right _ _
      obtain ⟨k, rfl⟩ := hdvd
      refine ⟨k, e + 1, ?_, ?_, by omega, by omega⟩
      · rw [zpow_add_one₀ (by norm_num)]; push_cast; ring
      · have h1 : |2 * k| = 2 * |k| := by rw [abs_mul]; norm_num
        have : (0:ℤ) < 2 ^ (φ.p - 1) := by positivity
        omega

theorem roundInt_bounds (m : Rnd) (y : ℝ) : ⌊y⌋ ≤ roundInt m y ∧ roundInt m y ≤ ⌈y⌉ := by
  have hfc : ⌊y⌋ ≤ ⌈y⌉ := Int.floor_le_ceil y
  cases m with
  | D => exact ⟨le_rfl, hfc⟩
  | U => exact ⟨hfc, le_rfl⟩
  | N =>
    unfold roundInt
    have hc : y - ⌊y⌋ ≠ 0 → ⌊y⌋ + 1 ≤ ⌈y⌉ := by
      intro h
      have : (⌊y⌋ : ℝ) < y := lt_of_le_of_ne (Int.floor_le y) (fun h' => h (by linarith))
      exact Int.lt_ceil.mpr this
    simp only
    split_ifs with h1 h2 h3
    · exact ⟨le_rfl, hfc⟩
    · exact ⟨by omega, hc (by linarith)⟩
    · exact ⟨le_rfl, hfc⟩
    · refine ⟨by omega, hc ?_⟩
      push Not at h1; linarith

theorem abs_lt_expo (x : ℝ) : |x| < 2 ^ φ.p * 2 ^ φ.expo x := by
  have h := Int.lt_zpow_succ_log_self (b := 2) (by norm_num) |x|
  have h1 : Int.log 2 |x| + 1 ≤ φ.p + φ.expo x := by unfold expo; omega
  calc |x| < (2:ℝ) ^ (Int.log 2 |x| + 1) := by exact_mod_cast h
    _ ≤ 2 ^ ((φ.p : ℤ) + φ.expo x) := zpow_le_zpow_right₀ (by norm_num) h1
    _ = 2 ^ φ.p * 2 ^ φ.expo x := by rw [zpow_add₀ (by norm_num), zpow_natCast]

theorem roundInt_abs_le (m : Rnd) (x : ℝ) : |roundInt m (x / 2 ^ φ.expo x)| ≤ 2 ^ φ.p := by
  have hu := two_zpow_posR (φ.expo x)
  have h := φ.abs_lt_expo x
  have h' : |x / 2 ^ φ.expo x| < 2 ^ φ.p := by
    rw [abs_div, abs_of_pos hu, div_lt_iff₀ hu]; exact h
  obtain ⟨h1, h2⟩ := abs_lt.mp h'
  obtain ⟨b1, b2⟩ := roundInt_bounds m (x / 2 ^ φ.expo x)
  rw [abs_le]
  constructor
  · refine le_trans ?_ b1
    rw [Int.le_floor]; push_cast; exact h1.le
  · refine b2.trans ?_
    rw [Int.ceil_le]; push_cast; exact h2.le

theorem qmin_le_expo (x : ℝ) : φ.qmin ≤ φ.expo x := le_max_right _ _

theorem rep_roundQ {m : Rnd} {x : ℝ} (h : |φ.roundQ m x| ≤ φ.maxFin) : φ.Rep (φ.roundQ m x) :=
  φ.rep_of_le (φ.roundInt_abs_le m x) (φ.qmin_le_expo x) h

/-- Every format number at least as large as the binade of `x` is a multiple of `ulp x`. -/
theorem exists_mult {f : ℚ} (hf : φ.Rep f) {x : ℝ}
    (h : φ.expo x = φ.qmin ∨ (2:ℝ) ^ (Int.log 2 |x|) ≤ |(f:ℝ)|) :
    ∃ k : ℤ, f = k * 2 ^ φ.expo x := by
  obtain ⟨m, e, rfl, hm, he, he'⟩ := hf
  have key : φ.expo x ≤ e := by
    rcases h with h | h
    · omega
    · have hm' : (|(m:ℝ)|) < 2 ^ φ.p := by exact_mod_cast hm
      have : (2:ℝ) ^ (Int.log 2 |x|) < 2 ^ ((φ.p:ℤ) + e) := by
        calc (2:ℝ) ^ (Int.log 2 |x|) ≤ |((m * 2 ^ e : ℚ) : ℝ)| := h
          _ = |(m:ℝ)| * 2 ^ e := by
            push_cast; rw [abs_mul, abs_of_pos (two_zpow_posR e)]
          _ < 2 ^ φ.p * 2 ^ e := by
            exact mul_lt_mul_of_pos_right hm' (two_zpow_posR e)
          _ = 2 ^ ((φ.p:ℤ) + e) := by rw [zpow_add₀ (by norm_num), zpow_natCast]
      have := (zpow_lt_zpow_iff_right₀ (by norm_num : (1:ℝ) < 2)).mp this
      unfold expo; omega
  refine ⟨m * 2 ^ (e - φ.expo x).toNat, ?_⟩
  push_cast
  rw [← zpow_natCast, Int.toNat_of_nonneg (by omega), mul_assoc, ← zpow_add₀ (by norm_num)]
  congr 2; omega

/-- Between a format number `f ≤ x` and `x` there is a multiple of `ulp x`. -/
theorem exists_mult_between {f : ℚ} (hf : φ.Rep f) {x : ℝ} (h : (f:ℝ) ≤ x) :
    ∃ k : ℤ, f ≤ k * 2 ^ φ.expo x ∧ (k:ℝ) * 2 ^ φ.expo x ≤ x := by
  by_cases h1 : φ.expo x = φ.qmin ∨ (2:ℝ) ^ (Int.log 2 |x|) ≤ |(f:ℝ)|
  · obtain ⟨k, hk⟩ := φ.exists_mult hf h1
    refine ⟨k, hk.le, ?_⟩
    have : (f:ℝ) = (k:ℝ) * 2 ^ φ.expo x := by rw [hk]; push_cast; rfl
    rw [← this]; exact h
  push Not at h1
  obtain ⟨h1, h2⟩ := h1
  rcases eq_or_ne x 0 with rfl | hx
  · refine ⟨0, ?_, by simp⟩
    have : f ≤ 0 := by exact_mod_cast h
    simpa using this
  have h3 : (2:ℝ) ^ (Int.log 2 |x|) ≤ |x| := by
    exact_mod_cast Int.zpow_log_le_self (b := 2) (by norm_num) (abs_pos.mpr hx)
  have hxpos : 0 < x := by
    rcases lt_or_gt_of_ne hx with hx' | hx'
    · exfalso
      have : |x| ≤ |(f:ℝ)| := by
        rw [abs_of_neg hx', abs_of_neg (lt_of_le_of_lt h hx')]; linarith
      linarith
    · exact hx'
  have he : φ.expo x = Int.log 2 |x| - φ.p + 1 := by unfold expo at h1 ⊢; omega
  have hp := φ.p_pos
  have h4 : ∀ (K : Type) [Field K] [CharZero K], (((2 ^ (φ.p - 1) : ℤ) : K)) * 2 ^ φ.expo x = 2 ^ (Int.log 2 |x|) := by
    intro K _ _
    push_cast
    rw [← zpow_natCast, ← zpow_add₀ (by norm_num), he]
    congr 1; omega
  refine ⟨2 ^ (φ.p - 1), ?_, ?_⟩
  · rw [h4 ℚ]
    have : (f:ℝ) ≤ (((2:ℚ) ^ (Int.log 2 |x|) : ℚ) : ℝ) := by
      push_cast; exact (le_abs_self _).trans h2.le
    exact_mod_cast this
  · rw [h4 ℝ]; rwa [abs_of_pos hxpos] at h3 ⊢

theorem roundQ_D_le (x : ℝ) : (φ.roundQ .D x : ℝ) ≤ x := by
  unfold roundQ roundInt
  have hu := two_zpow_posR (φ.expo x)
  push_cast
  rw [← le_div_iff₀ hu]
  exact Int.floor_le _

theorem le_roundQ_D {f : ℚ} (hf : φ.Rep f) {x : ℝ} (h : (f:ℝ) ≤ x) : f ≤ φ.roundQ .D x := by
  obtain ⟨k, h1, h2⟩ := φ.exists_mult_between hf h
  refine h1.trans ?_
  unfold roundQ roundInt
  have hu := two_zpow_posR (φ.expo x)
  refine mul_le_mul_of_nonneg_right ?_ (two_zpow_pos _).le
  have : k ≤ ⌊x / 2 ^ φ.expo x⌋ := by
    rw [Int.le_floor, le_div_iff₀ hu]; exact h2
  exact_mod_cast this

theorem expo_neg (x : ℝ) : φ.expo (-x) = φ.expo x := by unfold expo; rw [abs_neg]

theorem roundQ_U_eq (x : ℝ) : φ.roundQ .U x = - φ.roundQ .D (-x) := by
  unfold roundQ roundInt
  simp only [expo_neg, neg_div, Int.floor_neg, Int.cast_neg]
  ring

theorem round_U_eq (x : ℝ) (hx : x ≠ 0) : φ.round .U x = (φ.round .D (-x)).neg := by
  unfold round
  simp only [roundQ_U_eq]
  have hm := φ.maxFin_pos
  generalize hv : φ.roundQ .D (-x) = v
  rcases lt_trichotomy v 0 with h | h | h
  · by_cases h1 : v < -φ.maxFin
    · have h3 : ¬ φ.maxFin < v := by linarith
      have h4 : φ.maxFin < -v := by linarith
      simp [h1, h3, h4, FP.neg]
    · have h3 : ¬ φ.maxFin < v := by linarith
      have h4 : ¬ φ.maxFin < -v := by linarith
      have h5 : ¬ -v < -φ.maxFin := by linarith
      simp [h1, h3, h4, h.ne, FP.neg]
  · subst h
    have h3 : ¬ φ.maxFin < 0 := by linarith
    have h4 : ¬ 0 < -φ.maxFin := by linarith
    rcases lt_or_gt_of_ne hx with hx' | hx'
    · have : ¬ 0 < x := by linarith
      simp [h3, hx', FP.mkZero, FP.neg, this]
    · have : ¬ x < 0 := by linarith
      simp [h3, hx', FP.mkZero, FP.neg, this]
  · by_cases h1 : φ.maxFin < v
    · have h3 : ¬ φ.maxFin < -v := by linarith
      have h4 : -v < -φ.maxFin := by linarith
      simp [h1, h3, FP.neg, hm.ne']
    · have h3 : ¬ φ.maxFin < -v := by linarith
      have h4 : ¬ -v < -φ.maxFin := by linarith
      have h5 : ¬ v < -φ.maxFin := by linarith
      simp [h1, h3, h5, h.ne', FP.neg]

theorem round_ne_nan (m : Rnd) (x : ℝ) : φ.round m x ≠ .nan := by
  unfold round
  simp only
  split_ifs
  · cases m <;> simp
  · cases m <;> simp
  · exact FP.mkZero_ne_nan _
  · simp

theorem mkZero_in (s : Bool) : (FP.mkZero s).In φ := by
  cases s <;> simp [FP.mkZero, FP.In, rep_zero]

theorem round_in (m : Rnd) (x : ℝ) : (φ.round m x).In φ := by
  unfold round
  simp only
  split_ifs with h1 h2 h3
  · cases m <;> simp [FP.In, rep_maxFin]
  · cases m <;> simp [FP.In, rep_maxFin]
  · exact φ.mkZero_in _
  · exact φ.rep_roundQ (abs_le.mpr ⟨by linarith, by linarith⟩)

@[simp] theorem round_zero (m : Rnd) : φ.round m (0:ℝ) = .fin 0 := by
  have : φ.roundQ m (0:ℝ) = 0 := by
    unfold roundQ roundInt; cases m <;> simp
  unfold round
  have h := φ.maxFin_pos
  have h3 : ¬ φ.maxFin < 0 := by linarith
  simp [this, h3, FP.mkZero]

end Fmt

theorem FP.neg_in {φ : Fmt} {a : FP} (h : a.In φ) : a.neg.In φ := by
  cases a with
  | fin q =>
    by_cases hq : q = 0
    · simp [FP.neg, hq, FP.In]
    · simpa [FP.neg, hq, FP.In] using h
  | nzero => simp [FP.neg, FP.In, Fmt.rep_zero]
  | _ => simp [FP.neg, FP.In]

theorem FP.abs_in {φ : Fmt} {a : FP} (h : a.In φ) : a.abs.In φ := by
  cases a with
  | fin q => exact Fmt.Rep.abs h
  | nzero => simp [FP.abs, FP.In, Fmt.rep_zero]
  | _ => simp [FP.abs, FP.In]

namespace Fmt
variable (φ : Fmt)

/-- Directed rounding towards `-∞` on extended reals. -/
noncomputable def rdE (x : EReal) : EReal :=
  if x = ⊥ then ⊥ else if x = ⊤ then ⊤ else (φ.round .D x.toReal).toE

/-- Directed rounding towards `+∞` on extended reals. -/
noncomputable def ruE (x : EReal) : EReal :=
  if x = ⊥ then ⊥ else if x = ⊤ then ⊤ else (φ.round .U x.toReal).toE

@[simp] theorem rdE_bot : φ.rdE ⊥ = ⊥ := by simp [rdE]
@[simp] theorem rdE_top : φ.rdE ⊤ = ⊤ := by simp [rdE]
@[simp] theorem ruE_bot : φ.ruE ⊥ = ⊥ := by simp [ruE]
@[simp] theorem ruE_top : φ.ruE ⊤ = ⊤ := by simp [ruE]
theorem rdE_coe (x : ℝ) : φ.rdE (x : EReal) = (φ.round .D x).toE := by simp [rdE]
theorem ruE_coe (x : ℝ) : φ.ruE (x : EReal) = (φ.round .U x).toE := by simp [ruE]

theorem ruE_neg (x : EReal) : φ.ruE (-x) = - φ.rdE x := by
  induction x with
  | bot => simp
  | top => simp
  | coe x =>
    rw [← EReal.coe_neg, rdE_coe, ruE_coe]
    rcases eq_or_ne x 0 with rfl | h
    · simp
    · rw [φ.round_U_eq (-x) (by simpa using h)]; simp

theorem rdE_neg (x : EReal) : φ.rdE (-x) = - φ.ruE x := by
  have := φ.ruE_neg (-x)
  rw [neg_neg] at this; rw [this, neg_neg]

theorem rdE_le (x : EReal) : φ.rdE x ≤ x := by
  induction x with
  | bot => simp
  | top => simp
  | coe x =>
    rw [rdE_coe]
    have hx := φ.roundQ_D_le x
    unfold round
    simp only
    split_ifs with h1 h2 h3
    · simp only [FP.toE_fin, EReal.coe_le_coe_iff]
      have : (φ.maxFin:ℝ) < (φ.roundQ .D x:ℝ) := by exact_mod_cast h1
      linarith
    · simp
    · rw [h3] at hx
      rw [FP.toE_mkZero]; exact_mod_cast hx
    · simpa using hx

/-- Galois connection for downward rounding: a format number is below `RD x` iff it is below `x`. -/
theorem le_rdE_iff {f : FP} (hf : f.In φ) (x : EReal) (hn : f ≠ .nan) :
    f.toE ≤ φ.rdE x ↔ f.toE ≤ x := by
  refine ⟨fun h => h.trans (φ.rdE_le x), fun h => ?_⟩
  induction x with
  | bot => simpa using h
  | top => simp
  | coe x =>
    rw [rdE_coe]
    have key : ∀ q : ℚ, φ.Rep q → (q:ℝ) ≤ x → ((q:ℝ):EReal) ≤ (φ.round .D x).toE := by
      intro q hq hqx
      have h1 := φ.le_roundQ_D hq hqx
      have h2 := abs_le.mp hq.abs_le
      unfold round
      simp only
      split_ifs with h3 h4 h5
      · simp only [FP.toE_fin, EReal.coe_le_coe_iff]; exact_mod_cast h2.2
      · exfalso; linarith
      · rw [FP.toE_mkZero, ← EReal.coe_zero, EReal.coe_le_coe_iff]; rw [h5] at h1; exact_mod_cast h1
      · simp only [FP.toE_fin, EReal.coe_le_coe_iff]; exact_mod_cast h1
    cases f with
    | nan => exact absurd rfl hn
    | ninf => simp
    | pinf => simp at h
    | nzero =>
      have := key 0 φ.rep_zero (by simpa using h)
      simpa using this
    | fin q => exact key q hf (by simpa using h)

theorem le_ruE (x : EReal) : x ≤ φ.ruE x := by
  have := φ.rdE_le (-x)
  rw [rdE_neg] at this
  exact EReal.neg_le_neg_iff.mp this

/-- Galois connection for upward rounding. -/
theorem ruE_le_iff {f : FP} (hf : f.In φ) (x : EReal) (hn : f ≠ .nan) :
    φ.ruE x ≤ f.toE ↔ x ≤ f.toE := by
  have := φ.le_rdE_iff (FP.neg_in hf) (-x) (by simpa using hn)
  rw [rdE_neg, FP.toE_neg, EReal.neg_le_neg_iff, EReal.neg_le_neg_iff] at this
  exact this

theorem rdE_of_in {f : FP} (hf : f.In φ) (hn : f ≠ .nan) : φ.rdE f.toE = f.toE :=
  le_antisymm (φ.rdE_le _) ((φ.le_rdE_iff hf _ hn).mpr le_rfl)

theorem ruE_of_in {f : FP} (hf : f.In φ) (hn : f ≠ .nan) : φ.ruE f.toE = f.toE :=
  le_antisymm ((φ.ruE_le_iff hf _ hn).mpr le_rfl) (φ.le_ruE _)

/-- The result of `rdE` is itself (the value of) a format number. -/
theorem exists_rdE (x : EReal) : ∃ f : FP, f.In φ ∧ f ≠ .nan ∧ f.toE = φ.rdE x := by
  induction x with
  | bot => exact ⟨.ninf, trivial, by simp, by simp⟩
  | top => exact ⟨.pinf, trivial, by simp, by simp⟩
  | coe x => exact ⟨_, φ.round_in .D x, φ.round_ne_nan _ _, (φ.rdE_coe x).symm⟩

theorem rdE_mono {x y : EReal} (h : x ≤ y) : φ.rdE x ≤ φ.rdE y := by
  obtain ⟨f, hf, hn, he⟩ := φ.exists_rdE x
  rw [← he, φ.le_rdE_iff hf _ hn, he]
  exact (φ.rdE_le x).trans h

theorem ruE_mono {x y : EReal} (h : x ≤ y) : φ.ruE x ≤ φ.ruE y := by
  have := φ.rdE_mono (EReal.neg_le_neg_iff.mpr h)
  rw [rdE_neg, rdE_neg] at this
  exact EReal.neg_le_neg_iff.mp this

@[simp] theorem rdE_zero : φ.rdE 0 = 0 := by
  have := φ.rdE_coe 0; simpa using this
@[simp] theorem ruE_zero : φ.ruE 0 = 0 := by
  have := φ.ruE_coe 0; simpa using this

theorem rdE_ne_top {x : EReal} (h : x ≠ ⊤) : φ.rdE x ≠ ⊤ := by
  intro h'; exact h (top_le_iff.mp (h' ▸ φ.rdE_le x))
theorem ruE_ne_bot {x : EReal} (h : x ≠ ⊥) : φ.ruE x ≠ ⊥ := by
  intro h'; exact h (le_bot_iff.mp (h' ▸ φ.le_ruE x))

/-! Rounding of rational numbers is rounding of the corresponding reals. -/

theorem log_cast (q : ℚ) : Int.log 2 ((q:ℝ)) = Int.log 2 q := by
  unfold Int.log
  have h1 : (1:ℝ) ≤ (q:ℝ) ↔ 1 ≤ q := by norm_cast
  have h2 : (q:ℝ)⁻¹ = ((q⁻¹ : ℚ) : ℝ) := by push_cast; rfl
  have h3 : ∀ r : ℚ, ⌊(r:ℝ)⌋₊ = ⌊r⌋₊ := fun r => by
    rw [← Int.floor_toNat, ← Int.floor_toNat, Rat.floor_cast]
  have h4 : ∀ r : ℚ, ⌈(r:ℝ)⌉₊ = ⌈r⌉₊ := fun r => by
    rw [← Int.ceil_toNat, ← Int.ceil_toNat, Rat.ceil_cast]
  rw [h2, h3, h4]
  simp only [h1]

theorem expo_cast (q : ℚ) : φ.expo (q:ℝ) = φ.expo q := by
  unfold expo
  rw [← log_cast]; push_cast; rfl

theorem roundInt_cast (m : Rnd) (q : ℚ) : roundInt m (q:ℝ) = roundInt m q := by
  unfold roundInt
  cases m with
  | D => simp
  | U => simp
  | N =>
    have h1 : ((q:ℝ) - (⌊q⌋:ℝ)) < 1/2 ↔ q - ⌊q⌋ < 1/2 := by
      have : ((q:ℝ) - (⌊q⌋:ℝ)) = ((q - ⌊q⌋ : ℚ) : ℝ) := by push_cast; rfl
      rw [this, show (1/2:ℝ) = ((1/2:ℚ):ℝ) by push_cast; rfl]; norm_cast
    have h2 : 1/2 < ((q:ℝ) - (⌊q⌋:ℝ)) ↔ 1/2 < q - ⌊q⌋ := by
      have : ((q:ℝ) - (⌊q⌋:ℝ)) = ((q - ⌊q⌋ : ℚ) : ℝ) := by push_cast; rfl
      rw [this, show (1/2:ℝ) = ((1/2:ℚ):ℝ) by push_cast; rfl]; norm_cast
    simp only [Rat.floor_cast, h1, h2]

theorem roundQ_cast (m : Rnd) (q : ℚ) : φ.roundQ m (q:ℝ) = φ.roundQ m q := by
  unfold roundQ
  rw [expo_cast, ← roundInt_cast]
  push_cast; rfl

theorem round_cast (m : Rnd) (q : ℚ) : φ.round m (q:ℝ) = φ.round m q := by
  unfold round
  rw [roundQ_cast]
  simp only [Rat.cast_lt_zero]

end Fmt

end P1788
