import Verif.Lemmas.Nearest
import Verif.Lemmas.Mpfr
import Verif.Model.Cancel

/-!
# The error-free transformation `two_sum`

Everything is first shown for rational numbers with an exponent range unbounded above (`Fmt.RepU`), then
transferred to floating-point data under a no-overflow condition.
-/

namespace P1788

namespace Fmt
variable (φ : Fmt)

/-- A number of the format, exponent range unbounded above. -/
def RepU (q : ℚ) : Prop := ∃ m e : ℤ, q = m * 2 ^ e ∧ |m| ≤ 2 ^ φ.p ∧ φ.qmin ≤ e

/-- The format with exponent range extended to `E`. -/
def wide (E : ℤ) : Fmt :=
  { φ with
    emax := max φ.emax E
    range := φ.range.trans (le_max_left _ _)
    emax_ge := lt_of_lt_of_le φ.emax_ge (le_max_left _ _) }

theorem two_p_ge : (256:ℚ) ≤ 2 ^ φ.p := by
  have := pow_le_pow_right₀ (by norm_num : (1:ℚ) ≤ 2) φ.p_pos
  linarith

variable {φ}

theorem RepU.wide {q : ℚ} (h : φ.RepU q) : ∃ E, (φ.wide E).Rep q := by
  obtain ⟨m, e, rfl, hm, he⟩ := h
  refine ⟨e + φ.p + 1, (φ.wide (e + φ.p + 1)).rep_of_le hm he ?_⟩
  have hp := φ.two_p_ge
  have hm' : |(m:ℚ)| ≤ 2 ^ φ.p := by exact_mod_cast hm
  rw [abs_mul, abs_of_pos (two_zpow_pos e)]
  have h1 : (2:ℚ) ^ (e + 1) ≤ 2 ^ (max φ.emax (e + φ.p + 1) - φ.p) := by
    apply zpow_le_zpow_right₀ (by norm_num)
    have := le_max_right φ.emax (e + φ.p + 1)
    omega
  have h2 := two_zpow_pos e
  calc |(m:ℚ)| * 2 ^ e ≤ 2 ^ φ.p * 2 ^ e := mul_le_mul_of_nonneg_right hm' h2.le
    _ ≤ (2 ^ φ.p - 1) * 2 ^ (e + 1) := by
        rw [zpow_add_one₀ (by norm_num)]; nlinarith
    _ ≤ _ := mul_le_mul_of_nonneg_left h1 (by linarith)

theorem Rep.repU {q : ℚ} (h : φ.Rep q) : φ.RepU q := by
  obtain ⟨m, e, h1, h2, h3, -⟩ := h
  exact ⟨m, e, h1, h2.le, h3⟩

theorem RepU.neg {q : ℚ} (h : φ.RepU q) : φ.RepU (-q) := by
  obtain ⟨m, e, rfl, hm, he⟩ := h
  exact ⟨-m, e, by push_cast; ring, by rwa [abs_neg], he⟩

theorem repU_zero : φ.RepU 0 := φ.rep_zero.repU

/-- A number of the format that is not too large is a number of the bounded format. -/
theorem RepU.rep {q : ℚ} (h : φ.RepU q) (hq : |q| ≤ φ.maxFin) : φ.Rep q := by
  obtain ⟨m, e, rfl, hm, he⟩ := h
  exact φ.rep_of_le hm he hq

theorem repU_of_grid {q : ℚ} {e : ℤ} (he : φ.qmin ≤ e) (hk : ∃ k : ℤ, q = k * 2 ^ e)
    (hq : |q| ≤ 2 ^ φ.p * 2 ^ e) : φ.RepU q := by
  obtain ⟨k, rfl⟩ := hk
  refine ⟨k, e, rfl, ?_, he⟩
  rw [abs_mul, abs_of_pos (two_zpow_pos e)] at hq
  have := le_of_mul_le_mul_right hq (two_zpow_pos e)
  exact_mod_cast this

variable (φ)

/-- Round to nearest, exponent range unbounded above. -/
abbrev rn (x : ℚ) : ℚ := φ.roundQ .N x

theorem abs_lt_expoQ (x : ℚ) : |x| < 2 ^ φ.p * 2 ^ φ.expo x := by
  have := φ.abs_lt_expo (x:ℝ)
  rw [φ.expo_cast] at this
  have h : ((|x| : ℚ) : ℝ) < ((2 ^ φ.p * 2 ^ φ.expo x : ℚ) : ℝ) := by push_cast; exact this
  exact Rat.cast_lt.mp h

theorem qmin_le_expoQ (x : ℚ) : φ.qmin ≤ φ.expo x := le_max_right _ _

theorem rn_nearest (x : ℚ) {f : ℚ} (hf : φ.RepU f) : |φ.rn x - x| ≤ |f - x| := by
  obtain ⟨E, hE⟩ := hf.wide
  have := (φ.wide E).roundQ_N_nearest (x:ℝ) hE
  rw [(φ.wide E).roundQ_cast] at this
  have e : (φ.wide E).roundQ .N x = φ.rn x := rfl
  rw [e] at this
  exact_mod_cast this

theorem rn_of_repU {x : ℚ} (hx : φ.RepU x) : φ.rn x = x := by
  have := φ.rn_nearest x hx
  rw [sub_self, abs_zero, abs_nonpos_iff] at this
  linarith

theorem rn_repU (x : ℚ) : φ.RepU (φ.rn x) := by
  refine ⟨_, φ.expo x, rfl, ?_, φ.qmin_le_expoQ x⟩
  have := φ.roundInt_abs_le .N (x:ℝ)
  rw [φ.expo_cast] at this
  have e : ((x:ℝ) / 2 ^ φ.expo x) = ((x / 2 ^ φ.expo x : ℚ) : ℝ) := by push_cast; rfl
  rw [e, roundInt_cast] at this
  exact this

theorem rn_mult_expo (x : ℚ) : ∃ k : ℤ, φ.rn x = k * 2 ^ φ.expo x := ⟨_, rfl⟩

theorem rn_half (x : ℚ) : |φ.rn x - x| ≤ 2 ^ φ.expo x / 2 := by
  have h0 := two_zpow_pos (φ.expo x)
  set y := x / 2 ^ φ.expo x with hy
  have hx : x = y * 2 ^ φ.expo x := by rw [hy]; field_simp
  have h1 : |((roundInt .N y : ℤ) : ℚ) - y| ≤ 1 / 2 := by
    have f1 := Int.floor_le y
    have f2 := Int.lt_floor_add_one y
    simp only [roundInt]
    split_ifs with a b c <;> rw [abs_le] <;> push_cast <;> constructor <;> linarith
  have : φ.rn x - x = (((roundInt .N y : ℤ) : ℚ) - y) * 2 ^ φ.expo x := by
    rw [sub_mul, ← hx]; rfl
  rw [this, abs_mul, abs_of_pos h0]
  nlinarith

theorem rn_zero : φ.rn 0 = 0 := φ.rn_of_repU repU_zero

theorem mult_le {q : ℚ} {e f : ℤ} (h : f ≤ e) (hq : ∃ k : ℤ, q = k * 2 ^ e) : ∃ k : ℤ, q = k * 2 ^ f := by
  obtain ⟨k, rfl⟩ := hq
  refine ⟨k * 2 ^ (e - f).toNat, ?_⟩
  have : ((2:ℚ) ^ (e - f).toNat) = 2 ^ (e - f) := by
    rw [← zpow_natCast, Int.toNat_of_nonneg (by omega)]
  push_cast
  rw [this, mul_assoc, ← zpow_add₀ (by norm_num)]
  congr 2; ring

theorem mult_add {a b : ℚ} {e : ℤ} (ha : ∃ k : ℤ, a = k * 2 ^ e) (hb : ∃ k : ℤ, b = k * 2 ^ e) :
    ∃ k : ℤ, a + b = k * 2 ^ e := by
  obtain ⟨k, rfl⟩ := ha
  obtain ⟨l, rfl⟩ := hb
  exact ⟨k + l, by push_cast; ring⟩

theorem mult_sub {a b : ℚ} {e : ℤ} (ha : ∃ k : ℤ, a = k * 2 ^ e) (hb : ∃ k : ℤ, b = k * 2 ^ e) :
    ∃ k : ℤ, a - b = k * 2 ^ e := by
  obtain ⟨k, rfl⟩ := ha
  obtain ⟨l, rfl⟩ := hb
  exact ⟨k - l, by push_cast; ring⟩

/-- A multiple of `2^e` with exponent `≤ e` is a number of the format. -/
theorem repU_of_expo_le {x : ℚ} {e : ℤ} (he : φ.qmin ≤ e) (hx : ∃ k : ℤ, x = k * 2 ^ e) (h : φ.expo x ≤ e) :
    φ.RepU x := by
  refine repU_of_grid he hx ((φ.abs_lt_expoQ x).le.trans ?_)
  have := zpow_le_zpow_right₀ (by norm_num : (1:ℚ) ≤ 2) h
  have h2 := φ.two_p_ge
  nlinarith

/-- Rounding keeps grids. -/
theorem rn_mult {x : ℚ} {e : ℤ} (he : φ.qmin ≤ e) (hx : ∃ k : ℤ, x = k * 2 ^ e) : ∃ k : ℤ, φ.rn x = k * 2 ^ e := by
  by_cases h : e ≤ φ.expo x
  · exact mult_le h (φ.rn_mult_expo x)
  · rw [φ.rn_of_repU (φ.repU_of_expo_le he hx (by omega))]; exact hx

theorem expo_monoQ {x y : ℚ} (hx : x ≠ 0) (h : |x| ≤ |y|) : φ.expo x ≤ φ.expo y := by
  unfold Fmt.expo
  have := Int.log_mono_right (b := 2) (abs_pos.mpr hx) h
  omega

theorem mult_expo {q : ℚ} (h : φ.RepU q) : ∃ k : ℤ, q = k * 2 ^ φ.expo q := by
  have := φ.rn_mult_expo q
  rwa [φ.rn_of_repU h] at this

/-- Either the exponent is least or the number is normal. -/
theorem le_abs_of_expo {x : ℚ} (hx : x ≠ 0) : φ.expo x = φ.qmin ∨ (2:ℚ) ^ (φ.p - 1 + φ.expo x) ≤ |x| := by
  by_cases h : φ.expo x = φ.qmin
  · exact Or.inl h
  · right
    have h1 : φ.expo x = Int.log 2 |x| - φ.p + 1 := by unfold Fmt.expo at h ⊢; omega
    have := Int.zpow_log_le_self (b := 2) (by norm_num) (abs_pos.mpr hx)
    have e : (φ.p:ℤ) - 1 + φ.expo x = Int.log 2 |x| := by omega
    rw [e]
    exact this

theorem rn_mono {x y : ℚ} (h : x ≤ y) : φ.rn x ≤ φ.rn y := by
  by_contra hc
  push Not at hc
  have h1 := φ.rn_nearest x (φ.rn_repU y)
  have h2 := φ.rn_nearest y (φ.rn_repU x)
  have : x = y := by
    rcases abs_cases (φ.rn x - x) with ⟨a, _⟩ | ⟨a, _⟩ <;> rcases abs_cases (φ.rn y - x) with ⟨b, _⟩ | ⟨b, _⟩ <;>
    rcases abs_cases (φ.rn y - y) with ⟨c, _⟩ | ⟨c, _⟩ <;> rcases abs_cases (φ.rn x - y) with ⟨d, _⟩ | ⟨d, _⟩ <;>
    linarith
  rw [this] at hc
  exact lt_irrefl _ hc

theorem rn_le {x f : ℚ} (hf : φ.RepU f) (h : x ≤ f) : φ.rn x ≤ f := by
  have := φ.rn_mono h; rwa [φ.rn_of_repU hf] at this

theorem le_rn {x f : ℚ} (hf : φ.RepU f) (h : f ≤ x) : f ≤ φ.rn x := by
  have := φ.rn_mono h; rwa [φ.rn_of_repU hf] at this

theorem rn_abs_le {x f : ℚ} (hf : φ.RepU f) (h : |x| ≤ f) : |φ.rn x| ≤ f := by
  rw [abs_le] at h ⊢
  exact ⟨φ.le_rn hf.neg h.1, φ.rn_le hf h.2⟩

theorem rn_neg_ge {x f : ℚ} (hf : φ.RepU f) (h : f ≤ |x|) : f ≤ |φ.rn x| := by
  rcases abs_cases x with ⟨a, _⟩ | ⟨a, _⟩ <;> rw [a] at h
  · exact (φ.le_rn hf h).trans (le_abs_self _)
  · exact (le_neg_of_le_neg (φ.rn_le hf.neg (by linarith))).trans (neg_le_abs _)

variable {φ}

theorem RepU.double {q : ℚ} (h : φ.RepU q) : φ.RepU (2 * q) := by
  obtain ⟨m, e, rfl, hm, he⟩ := h
  exact ⟨m, e + 1, by rw [zpow_add_one₀ (by norm_num)]; ring, hm, by omega⟩

/-- The rounding error of a sum is a number of the format. -/
theorem err_rep' {a b : ℚ} (ha : φ.RepU a) (hb : φ.RepU b) (h : |b| ≤ |a|) :
    φ.RepU (a + b - φ.rn (a + b)) ∧ |a + b - φ.rn (a + b)| ≤ |b| := by
  have h2 : |a + b - φ.rn (a + b)| ≤ |b| := by
    have := φ.rn_nearest (a + b) ha
    rw [abs_sub_comm] at this
    refine this.trans ?_
    rw [← abs_neg]; simp
  refine ⟨?_, h2⟩
  by_cases hb0 : b = 0
  · rw [hb0, add_zero, φ.rn_of_repU ha, sub_self]; exact repU_zero
  have hs : ∃ k : ℤ, a + b = k * 2 ^ φ.expo b :=
    mult_add (mult_le (φ.expo_monoQ hb0 h) (φ.mult_expo ha)) (φ.mult_expo hb)
  refine repU_of_grid (φ.qmin_le_expoQ b) (mult_sub hs (φ.rn_mult (φ.qmin_le_expoQ b) hs)) ?_
  exact h2.trans (φ.abs_lt_expoQ b).le

theorem err_rep {a b : ℚ} (ha : φ.RepU a) (hb : φ.RepU b) :
    φ.RepU (a + b - φ.rn (a + b)) ∧ |a + b - φ.rn (a + b)| ≤ |a| ∧ |a + b - φ.rn (a + b)| ≤ |b| := by
  rcases le_total |b| |a| with h | h
  · have := err_rep' ha hb h
    exact ⟨this.1, this.2.trans h, this.2⟩
  · have := err_rep' hb ha h
    rw [add_comm b a] at this
    exact ⟨this.1, this.2, this.2.trans h⟩

theorem expo_le_of {x : ℚ} {e : ℤ} (hx : x ≠ 0) (he : φ.qmin ≤ e) (h : |x| < 2 ^ φ.p * 2 ^ e) : φ.expo x ≤ e := by
  rcases φ.le_abs_of_expo hx with h1 | h1
  · omega
  · by_contra hc
    push Not at hc
    have : (2:ℚ) ^ (φ.p + e) ≤ 2 ^ (φ.p - 1 + φ.expo x) := zpow_le_zpow_right₀ (by norm_num) (by omega)
    rw [zpow_add₀ (by norm_num), zpow_natCast] at this
    linarith

theorem fast2sum {P Q : ℚ} (hP : φ.RepU P) (hQ : φ.RepU Q) (h : |Q| ≤ |P|) :
    φ.RepU (φ.rn (P + Q) - P) ∧ |φ.rn (P + Q) - P| ≤ |P| := by
  constructor
  · by_cases hex : φ.rn (P + Q) = P + Q
    · rw [hex, add_sub_cancel_left]; exact hQ
    have hQ0 : Q ≠ 0 := by
      rintro rfl; apply hex; rw [add_zero, φ.rn_of_repU hP]
    have hS0 : P + Q ≠ 0 := by
      intro h0; apply hex; rw [h0, φ.rn_zero]
    have hq := φ.qmin_le_expoQ Q
    have he := φ.expo_monoQ hQ0 h
    have mS : ∃ k : ℤ, P + Q = k * 2 ^ φ.expo Q := mult_add (mult_le he (φ.mult_expo hP)) (φ.mult_expo hQ)
    have hes : φ.expo Q + 1 ≤ φ.expo (P + Q) := by
      by_contra hc
      exact hex (φ.rn_of_repU (φ.repU_of_expo_le hq mS (by omega)))
    have lQ := φ.abs_lt_expoQ Q
    have b1 : |φ.rn (P + Q) - P| ≤ |φ.rn (P + Q) - (P + Q)| + |Q| := by
      have := abs_add_le (φ.rn (P + Q) - (P + Q)) Q
      rwa [show φ.rn (P + Q) - (P + Q) + Q = φ.rn (P + Q) - P by ring] at this
    by_cases hc : φ.expo Q + 1 ≤ φ.expo P
    · refine repU_of_grid (e := φ.expo Q + 1) (by omega)
        (mult_sub (mult_le hes (φ.rn_mult_expo _)) (mult_le hc (φ.mult_expo hP))) ?_
      have b2 := φ.rn_nearest (P + Q) hP
      have b3 : |P - (P + Q)| = |Q| := by rw [← abs_neg]; simp
      rw [zpow_add_one₀ (by norm_num)]
      linarith
    · have hPe : φ.expo P = φ.expo Q := by omega
      refine repU_of_grid hq (mult_sub (φ.rn_mult hq mS) (mult_le he (φ.mult_expo hP))) ?_
      have lP := φ.abs_lt_expoQ P
      rw [hPe] at lP
      have lS : |P + Q| < 2 ^ φ.p * 2 ^ (φ.expo Q + 1) := by
        rw [zpow_add_one₀ (by norm_num)]
        have := abs_add_le P Q
        linarith
      have l2 := expo_le_of hS0 (by omega) lS
      have l3 := φ.rn_half (P + Q)
      have l4 := zpow_le_zpow_right₀ (by norm_num : (1:ℚ) ≤ 2) l2
      rw [zpow_add_one₀ (by norm_num)] at l4
      obtain ⟨k, hk⟩ := φ.mult_expo hQ
      have l5 : |Q| ≤ (2 ^ φ.p - 1) * 2 ^ φ.expo Q := by
        have h2 := two_zpow_pos (φ.expo Q)
        have : |Q| = |(k:ℚ)| * 2 ^ φ.expo Q := by
          conv_lhs => rw [hk]
          rw [abs_mul, abs_of_pos h2]
        rw [this] at lQ ⊢
        have h3 := lt_of_mul_lt_mul_right lQ h2.le
        have h4 : |k| + 1 ≤ 2 ^ φ.p := by
          have : |k| < 2 ^ φ.p := by exact_mod_cast h3
          omega
        have h5 : |(k:ℚ)| + 1 ≤ 2 ^ φ.p := by exact_mod_cast h4
        apply mul_le_mul_of_nonneg_right _ h2.le
        linarith
      linarith
  · rcases le_total 0 P with h0 | h0
    · rw [abs_of_nonneg h0, abs_le] at h
      have h1 := φ.le_rn (x := P + Q) repU_zero (by linarith)
      have h2 := φ.rn_le (x := P + Q) hP.double (by linarith)
      rw [abs_of_nonneg h0, abs_le]; constructor <;> linarith
    · rw [abs_of_nonpos h0, abs_le] at h
      have h1 := φ.rn_le (x := P + Q) repU_zero (by linarith)
      have h2 := φ.le_rn (x := P + Q) hP.double (by linarith)
      rw [abs_of_nonpos h0, abs_le]; constructor <;> linarith

/-- `|b| < |a|`, `|fl(a+b)| < |b|`: the sum is exact. -/
theorem sum_exact {a b : ℚ} (ha : φ.RepU a) (hb : φ.RepU b) (h : |b| ≤ |a|) (hs : |φ.rn (a + b)| < |b|) :
    φ.rn (a + b) = a + b := by
  by_contra hex
  have hb0 : b ≠ 0 := by
    rintro rfl; apply hex; rw [add_zero, φ.rn_of_repU ha]
  have hS0 : a + b ≠ 0 := by
    intro h0; apply hex; rw [h0, φ.rn_zero]
  have hq := φ.qmin_le_expoQ b
  have mS : ∃ k : ℤ, a + b = k * 2 ^ φ.expo b :=
    mult_add (mult_le (φ.expo_monoQ hb0 h) (φ.mult_expo ha)) (φ.mult_expo hb)
  have hes : φ.expo b + 1 ≤ φ.expo (a + b) := by
    by_contra hc
    exact hex (φ.rn_of_repU (φ.repU_of_expo_le hq mS (by omega)))
  have lb := φ.abs_lt_expoQ b
  rcases φ.le_abs_of_expo hS0 with h1 | h1
  · omega
  · have hp := φ.p_pos
    have hr : φ.RepU (2 ^ (φ.p - 1 + φ.expo (a + b)) : ℚ) :=
      ⟨1, φ.p - 1 + φ.expo (a + b), by simp, by simpa using one_le_pow₀ (by norm_num), by omega⟩
    have h2 := φ.rn_neg_ge hr h1
    have h3 : (2:ℚ) ^ (φ.p + φ.expo b) ≤ 2 ^ (φ.p - 1 + φ.expo (a + b)) :=
      zpow_le_zpow_right₀ (by norm_num) (by omega)
    rw [zpow_add₀ (by norm_num), zpow_natCast] at h3
    linarith

/-- Unit in the last place of the top binade. -/
theorem maxFin_eq : φ.maxFin = (2 ^ φ.p - 1) * 2 ^ (φ.emax - φ.p) := rfl

theorem abs_le_of_lt_maxFin {a : ℚ} (ha : φ.RepU a) (h : |a| < φ.maxFin) :
    |a| + 2 ^ (φ.emax - φ.p) / 2 ≤ φ.maxFin := by
  have hu := two_zpow_pos (φ.emax - φ.p)
  have hp := φ.two_p_ge
  rw [maxFin_eq] at h ⊢
  by_cases hc : φ.emax - φ.p ≤ φ.expo a
  · obtain ⟨k, hk⟩ := mult_le hc (φ.mult_expo ha)
    rw [hk, abs_mul, abs_of_pos hu] at h ⊢
    have h3 := lt_of_mul_lt_mul_right h hu.le
    have h4 : |k| < 2 ^ φ.p - 1 := by exact_mod_cast h3
    have h5 : |k| + 1 ≤ 2 ^ φ.p - 1 := by omega
    have h6 : |(k:ℚ)| + 1 ≤ 2 ^ φ.p - 1 := by exact_mod_cast h5
    nlinarith
  · have h1 := φ.abs_lt_expoQ a
    have h2 : (2:ℚ) ^ (φ.expo a + 1) ≤ 2 ^ (φ.emax - φ.p) := zpow_le_zpow_right₀ (by norm_num) (by omega)
    rw [zpow_add_one₀ (by norm_num)] at h2
    nlinarith

theorem err_le_of_le_maxFin {x : ℚ} (h : |φ.rn x| ≤ φ.maxFin) :
    |φ.rn x - x| ≤ 2 ^ (φ.emax - φ.p) / 2 := by
  have hu := two_zpow_pos (φ.emax - φ.p)
  by_cases hx : x = 0
  · rw [hx, φ.rn_zero, sub_zero, abs_zero]; positivity
  have hr := φ.range
  have hlt : |x| < 2 ^ φ.p * 2 ^ (φ.emax - φ.p) := by
    by_contra hc
    push Not at hc
    have hR : φ.RepU ((2:ℚ) ^ φ.p * 2 ^ (φ.emax - φ.p)) :=
      ⟨2 ^ φ.p, φ.emax - φ.p, by push_cast; rfl, by rw [abs_of_nonneg (by positivity)], by omega⟩
    have := φ.rn_neg_ge hR hc
    rw [maxFin_eq] at h
    linarith
  have h1 := expo_le_of hx (by omega) hlt
  have h2 := zpow_le_zpow_right₀ (by norm_num : (1:ℚ) ≤ 2) h1
  have h3 := φ.rn_half x
  linarith

/-- The operations of `two_sum` in exact rational arithmetic followed by rounding to nearest. -/
structure TwoSumQ (φ : Fmt) (a b : ℚ) (M : ℚ) : Prop where
  qv : |φ.rn (φ.rn (a + b) - b)| ≤ M
  pv : |φ.rn (φ.rn (a + b) - φ.rn (φ.rn (a + b) - b))| ≤ M
  qr : |φ.rn (a - φ.rn (φ.rn (a + b) - b))| ≤ M
  pr : |φ.rn (b - φ.rn (φ.rn (a + b) - φ.rn (φ.rn (a + b) - b)))| ≤ M
  er : |φ.rn (φ.rn (a - φ.rn (φ.rn (a + b) - b)) +
    φ.rn (b - φ.rn (φ.rn (a + b) - φ.rn (φ.rn (a + b) - b))))| ≤ M
  eq : φ.rn (φ.rn (a - φ.rn (φ.rn (a + b) - b)) +
    φ.rn (b - φ.rn (φ.rn (a + b) - φ.rn (φ.rn (a + b) - b)))) = a + b - φ.rn (a + b)

theorem twoSumQ {a b : ℚ} (ha : φ.RepU a) (hb : φ.RepU b) (la : |a| ≤ φ.maxFin) (lb : |b| ≤ φ.maxFin)
    (ls : |φ.rn (a + b)| ≤ φ.maxFin) (lq : |φ.rn (φ.rn (a + b) - b)| ≤ φ.maxFin) : TwoSumQ φ a b φ.maxFin := by
  have hM : 0 ≤ φ.maxFin := (abs_nonneg _).trans lb
  obtain ⟨er1, er2, er3⟩ := err_rep ha hb
  have ers := φ.rn_of_repU er1
  have rs := φ.rn_repU (a + b)
  rcases le_or_gt |a| |b| with h | h
  · obtain ⟨f1, f2⟩ := fast2sum hb ha h
    rw [add_comm b a] at f1 f2
    have e1 : φ.rn (φ.rn (a + b) - b) = φ.rn (a + b) - b := φ.rn_of_repU f1
    have e2 : φ.rn (φ.rn (a + b) - φ.rn (φ.rn (a + b) - b)) = b := by
      rw [e1, sub_sub_cancel, φ.rn_of_repU hb]
    have e3 : φ.rn (a - φ.rn (φ.rn (a + b) - b)) = a + b - φ.rn (a + b) := by
      rw [e1, show a - (φ.rn (a + b) - b) = a + b - φ.rn (a + b) by ring, ers]
    have e4 : φ.rn (b - φ.rn (φ.rn (a + b) - φ.rn (φ.rn (a + b) - b))) = 0 := by
      rw [e2, sub_self, φ.rn_zero]
    refine ⟨?_, ?_, ?_, ?_, ?_, ?_⟩
    · rw [e1]; exact f2.trans lb
    · rw [e2]; exact lb
    · rw [e3]; exact er3.trans lb
    · rw [e4, abs_zero]; exact hM
    · rw [e3, e4, add_zero, ers]; exact er3.trans lb
    · rw [e3, e4, add_zero, ers]
  · rcases lt_or_ge |φ.rn (a + b)| |b| with hs | hs
    · have hx := sum_exact ha hb h.le hs
      have e1 : φ.rn (φ.rn (a + b) - b) = a := by rw [hx, add_sub_cancel_right, φ.rn_of_repU ha]
      have e2 : φ.rn (φ.rn (a + b) - φ.rn (φ.rn (a + b) - b)) = b := by
        rw [e1, hx, add_sub_cancel_left, φ.rn_of_repU hb]
      have e3 : φ.rn (a - φ.rn (φ.rn (a + b) - b)) = 0 := by rw [e1, sub_self, φ.rn_zero]
      have e4 : φ.rn (b - φ.rn (φ.rn (a + b) - φ.rn (φ.rn (a + b) - b))) = 0 := by
        rw [e2, sub_self, φ.rn_zero]
      refine ⟨?_, ?_, ?_, ?_, ?_, ?_⟩
      · rw [e1]; exact la
      · rw [e2]; exact lb
      · rw [e3, abs_zero]; exact hM
      · rw [e4, abs_zero]; exact hM
      · rw [e3, e4, add_zero, φ.rn_zero, abs_zero]; exact hM
      · rw [e3, e4, add_zero, φ.rn_zero, hx, sub_self]
    · obtain ⟨f1, f2⟩ := fast2sum rs hb.neg (by rwa [abs_neg])
      obtain ⟨g1, g2, g3⟩ := err_rep rs hb.neg
      rw [← sub_eq_add_neg] at f1 f2 g1 g2 g3
      rw [abs_neg] at g3
      set s := φ.rn (a + b) with hsdef
      set qv := φ.rn (s - b) with hqv
      have e2 : φ.rn (s - qv) = s - qv := by
        have := φ.rn_of_repU f1.neg
        rwa [neg_sub] at this
      have e4 : φ.rn (b - φ.rn (s - qv)) = -(s - b - qv) := by
        rw [e2, show b - (s - qv) = -(s - b - qv) by ring]
        exact φ.rn_of_repU g1.neg
      have hsb : |s - b| ≤ |a| + |s - (a + b)| := by
        have := abs_add_le a (s - (a + b))
        rwa [show a + (s - (a + b)) = s - b by ring] at this
      -- `a - qv` is exact
      have ha0 : a ≠ 0 := by
        rintro rfl; rw [abs_zero] at h; exact absurd h (not_lt.mpr (abs_nonneg _))
      have hea := φ.qmin_le_expoQ a
      have lta := φ.abs_lt_expoQ a
      have hu := two_zpow_pos (φ.expo a)
      have hp := φ.two_p_ge
      have err1' : |s - (a + b)| ≤ 2 ^ φ.expo a := by
        by_cases h0 : a + b = 0
        · rw [h0, sub_zero, hsdef, h0, φ.rn_zero, abs_zero]; exact hu.le
        have l1 : |a + b| < 2 ^ φ.p * 2 ^ (φ.expo a + 1) := by
          rw [zpow_add_one₀ (by norm_num)]
          have := abs_add_le a b
          linarith
        have l2 := zpow_le_zpow_right₀ (by norm_num : (1:ℚ) ≤ 2) (expo_le_of h0 (by omega) l1)
        rw [zpow_add_one₀ (by norm_num)] at l2
        have l3 := φ.rn_half (a + b)
        rw [← hsdef] at l3
        linarith
      have err2' : |qv - (s - b)| ≤ 2 ^ φ.expo a := by
        by_cases h0 : s - b = 0
        · rw [h0, sub_zero, hqv, h0, φ.rn_zero, abs_zero]; exact hu.le
        have l1 : |s - b| < 2 ^ φ.p * 2 ^ (φ.expo a + 1) := by
          rw [zpow_add_one₀ (by norm_num)]
          nlinarith
        have l2 := zpow_le_zpow_right₀ (by norm_num : (1:ℚ) ≤ 2) (expo_le_of h0 (by omega) l1)
        rw [zpow_add_one₀ (by norm_num)] at l2
        have l3 := φ.rn_half (s - b)
        rw [← hqv] at l3
        linarith
      have hq2 : |a - qv| ≤ 2 * 2 ^ φ.expo a := by
        have := abs_add_le (s - (a + b)) (qv - (s - b))
        rw [show s - (a + b) + (qv - (s - b)) = -(a - qv) by ring, abs_neg] at this
        linarith
      have hgr : φ.RepU (a - qv) := by
        rcases φ.le_abs_of_expo ha0 with hmin | hnorm
        · have mb : ∀ {x : ℚ}, φ.RepU x → ∃ k : ℤ, x = k * 2 ^ φ.qmin := fun hx =>
            mult_le (φ.qmin_le_expoQ _) (φ.mult_expo hx)
          refine repU_of_grid le_rfl (mult_sub (mb ha) (mb (φ.rn_repU _))) ?_
          rw [hmin] at hq2
          have := two_zpow_pos φ.qmin
          nlinarith
        · by_cases hmin : φ.expo a = φ.qmin
          · have mb : ∀ {x : ℚ}, φ.RepU x → ∃ k : ℤ, x = k * 2 ^ φ.qmin := fun hx =>
              mult_le (φ.qmin_le_expoQ _) (φ.mult_expo hx)
            refine repU_of_grid le_rfl (mult_sub (mb ha) (mb (φ.rn_repU _))) ?_
            rw [hmin] at hq2
            have := two_zpow_pos φ.qmin
            nlinarith
          have hsbl : |a| - |s - (a + b)| ≤ |s - b| := by
            have := abs_sub_abs_le_abs_sub a (-(s - (a + b)))
            rw [abs_neg, show a - -(s - (a + b)) = s - b by ring] at this
            exact this
          have pe : (2:ℚ) ^ (φ.p - 1 + φ.expo a) = 2 ^ φ.p / 2 * 2 ^ φ.expo a := by
            rw [zpow_add₀ (by norm_num), zpow_sub_one₀ (by norm_num), zpow_natCast]; ring
          rw [pe] at hnorm
          have hex : φ.expo a - 1 ≤ φ.expo (s - b) := by
            by_contra hc
            have l := φ.abs_lt_expoQ (s - b)
            have l2 : (2:ℚ) ^ (φ.expo (s - b) + 2) ≤ 2 ^ φ.expo a := zpow_le_zpow_right₀ (by norm_num) (by omega)
            rw [zpow_add₀ (by norm_num)] at l2
            norm_num at l2
            nlinarith
          have m1 : ∃ k : ℤ, qv = k * 2 ^ (φ.expo a - 1) := mult_le hex (φ.rn_mult_expo _)
          have m2 : ∃ k : ℤ, a = k * 2 ^ (φ.expo a - 1) := mult_le (by omega) (φ.mult_expo ha)
          refine repU_of_grid (by omega) (mult_sub m2 m1) ?_
          rw [zpow_sub_one₀ (by norm_num)]
          nlinarith
      have e3 : φ.rn (a - qv) = a - qv := φ.rn_of_repU hgr
      have e5 : φ.rn (φ.rn (a - qv) + φ.rn (b - φ.rn (s - qv))) = a + b - s := by
        rw [e3, e4, show a - qv + -(s - b - qv) = a + b - s by ring, ers]
      refine ⟨lq, ?_, ?_, ?_, ?_, e5⟩
      · rw [e2, abs_sub_comm]; exact f2.trans ls
      · rw [e3]
        refine hq2.trans ?_
        have : φ.expo a ≤ φ.emax - φ.p := by
          refine expo_le_of ha0 (by have := φ.range; omega) (la.trans_lt ?_)
          rw [maxFin_eq]
          have := two_zpow_pos (φ.emax - φ.p)
          linarith
        have h3 := zpow_le_zpow_right₀ (by norm_num : (1:ℚ) ≤ 2) this
        rw [maxFin_eq]
        have := two_zpow_pos (φ.emax - φ.p)
        nlinarith
      · rw [e4, abs_neg]; exact g3.trans lb
      · rw [e5]; exact er3.trans lb

/-- Rounding stays in range below half a unit above the largest finite number. -/
theorem rn_le_maxFin_iff {x : ℚ} (hx : 0 ≤ x) : φ.rn x ≤ φ.maxFin ↔ x < φ.maxFin + 2 ^ (φ.emax - φ.p) / 2 := by
  have hu := two_zpow_pos (φ.emax - φ.p)
  have hp := φ.two_p_ge
  have hr := φ.range
  have hR : φ.RepU ((2:ℚ) ^ φ.p * 2 ^ (φ.emax - φ.p)) :=
    ⟨2 ^ φ.p, φ.emax - φ.p, by push_cast; rfl, by rw [abs_of_nonneg (by positivity)], by omega⟩
  constructor
  · intro h
    by_contra hc
    push Not at hc
    have hm := φ.rn_mono hc
    have e : φ.rn (φ.maxFin + 2 ^ (φ.emax - φ.p) / 2) = 2 ^ φ.p * 2 ^ (φ.emax - φ.p) := by
      have ex : φ.expo (φ.maxFin + 2 ^ (φ.emax - φ.p) / 2) = φ.emax - φ.p := by
        have h0 : (0:ℚ) < φ.maxFin + 2 ^ (φ.emax - φ.p) / 2 := by rw [maxFin_eq]; nlinarith
        refine le_antisymm (expo_le_of h0.ne' (by omega) ?_) ?_
        · rw [abs_of_pos h0, maxFin_eq]; nlinarith
        · by_contra hc
          have l := φ.abs_lt_expoQ (φ.maxFin + 2 ^ (φ.emax - φ.p) / 2)
          rw [abs_of_pos h0, maxFin_eq] at l
          have l2 : (2:ℚ) ^ (φ.expo (φ.maxFin + 2 ^ (φ.emax - φ.p) / 2) + 1) ≤ 2 ^ (φ.emax - φ.p) :=
            zpow_le_zpow_right₀ (by norm_num) (by omega)
          rw [zpow_add_one₀ (by norm_num), maxFin_eq] at l2
          nlinarith
      have hy : (φ.maxFin + 2 ^ (φ.emax - φ.p) / 2) / 2 ^ (φ.emax - φ.p) = ((2 ^ φ.p - 1 : ℤ) : ℚ) + 1 / 2 := by
        rw [maxFin_eq]; field_simp; push_cast; ring
      have hfl : ⌊((2 ^ φ.p - 1 : ℤ) : ℚ) + 1 / 2⌋ = 2 ^ φ.p - 1 := by
        rw [Int.floor_eq_iff]; constructor <;> push_cast <;> linarith
      have hodd : ((2:ℤ) ^ φ.p - 1) % 2 ≠ 0 := by
        have : (2:ℤ) ∣ 2 ^ φ.p := dvd_pow_self 2 (by have := φ.p_pos; omega)
        omega
      unfold Fmt.rn Fmt.roundQ
      rw [ex, hy]
      have : roundInt .N (((2 ^ φ.p - 1 : ℤ) : ℚ) + 1 / 2) = 2 ^ φ.p := by
        simp only [roundInt, hfl]
        rw [if_neg (by push_cast; linarith), if_neg (by push_cast; linarith), if_neg hodd]
        ring
      rw [this]; push_cast; rfl
    rw [e] at hm
    rw [maxFin_eq] at h
    linarith
  · intro h
    by_contra hc
    push Not at hc
    have h1 := φ.rn_nearest x φ.rep_maxFin.repU
    have h2 : (2:ℚ) ^ φ.p * 2 ^ (φ.emax - φ.p) ≤ φ.rn x := by
      by_contra hlt
      push Not at hlt
      have hpos : 0 < φ.rn x := φ.maxFin_pos.trans hc
      have hrp := φ.rn_repU x
      have hle : φ.expo (φ.rn x) ≤ φ.emax - φ.p := expo_le_of hpos.ne' (by omega) (by rwa [abs_of_pos hpos])
      have hge : φ.emax - φ.p ≤ φ.expo (φ.rn x) := by
        by_contra hc'
        have l := φ.abs_lt_expoQ (φ.rn x)
        rw [abs_of_pos hpos] at l
        have l2 : (2:ℚ) ^ (φ.expo (φ.rn x) + 1) ≤ 2 ^ (φ.emax - φ.p) := zpow_le_zpow_right₀ (by norm_num) (by omega)
        rw [zpow_add_one₀ (by norm_num)] at l2
        rw [maxFin_eq] at hc
        nlinarith
      obtain ⟨k, hk⟩ := φ.mult_expo hrp
      rw [le_antisymm hle hge] at hk
      rw [hk] at hlt hc
      rw [maxFin_eq] at hc
      have k1 := lt_of_mul_lt_mul_right hlt hu.le
      have k2 := lt_of_mul_lt_mul_right hc hu.le
      have k1' : k < 2 ^ φ.p := by exact_mod_cast k1
      have k2' : 2 ^ φ.p - 1 < k := by exact_mod_cast k2
      omega
    rw [abs_of_nonneg (by rw [maxFin_eq] at h; linarith)] at h1
    rw [maxFin_eq] at h h1
    rcases abs_cases ((2 ^ φ.p - 1) * 2 ^ (φ.emax - φ.p) - x) with ⟨e, -⟩ | ⟨e, -⟩ <;> rw [e] at h1 <;> linarith

theorem roundInt_N_neg (y : ℚ) : roundInt .N (-y) = -roundInt .N y := by
  have h1 := Int.floor_le y
  have h2 := Int.lt_floor_add_one y
  simp only [roundInt]
  by_cases h : y = ⌊y⌋
  · have e : ⌊-y⌋ = -⌊y⌋ := by
      rw [Int.floor_eq_iff]; push_cast; constructor <;> linarith
    rw [e, if_pos (by push_cast; linarith), if_pos (by linarith)]
  · have h1 := lt_of_le_of_ne h1 (Ne.symm h)
    have e : ⌊-y⌋ = -⌊y⌋ - 1 := by
      rw [Int.floor_eq_iff]; push_cast; constructor <;> linarith
    rw [e]
    push_cast
    split_ifs <;> first | omega | (exfalso; linarith) | (exfalso; omega)

theorem rn_neg (x : ℚ) : φ.rn (-x) = -φ.rn x := by
  have e : φ.expo (-x) = φ.expo x := by unfold Fmt.expo; rw [abs_neg]
  unfold Fmt.rn Fmt.roundQ
  rw [e, neg_div, roundInt_N_neg]
  push_cast
  ring

/-- The first difference in `two_sum` overflows. -/
def Over (φ : Fmt) (a b : ℚ) : Prop := φ.maxFin < |φ.rn (φ.rn (a + b) - b)|

/-- This happens exactly if the first summand is of largest magnitude and the sum is rounded away from zero by exactly half a
unit of the top binade. -/
theorem over_iff {a b : ℚ} (la : |a| ≤ φ.maxFin) (ls : |φ.rn (a + b)| ≤ φ.maxFin) :
    φ.Over a b ↔ (a = φ.maxFin ∧ φ.rn (a + b) - (a + b) = 2 ^ (φ.emax - φ.p) / 2) ∨
      (a = -φ.maxFin ∧ (a + b) - φ.rn (a + b) = 2 ^ (φ.emax - φ.p) / 2) := by
  have he := err_le_of_le_maxFin ls
  have hm := φ.maxFin_pos
  have hu := two_zpow_pos (φ.emax - φ.p)
  rw [abs_le] at he la
  have key : ∀ x : ℚ, φ.maxFin < |φ.rn x| ↔ φ.maxFin + 2 ^ (φ.emax - φ.p) / 2 ≤ |x| := by
    intro x
    rcases le_total 0 x with h | h
    · rw [abs_of_nonneg h, abs_of_nonneg (φ.le_rn repU_zero h), ← not_le, rn_le_maxFin_iff h, not_lt]
    · have h' : 0 ≤ -x := by linarith
      rw [abs_of_nonpos h, ← abs_neg, ← rn_neg, abs_of_nonneg (φ.le_rn repU_zero h'), ← not_le, rn_le_maxFin_iff h',
        not_lt]
  unfold Over
  rw [key]
  set s := φ.rn (a + b)
  constructor
  · intro h
    rcases abs_cases (s - b) with ⟨e, -⟩ | ⟨e, -⟩ <;> rw [e] at h
    · left; constructor <;> linarith
    · right; constructor <;> linarith
  · rintro (⟨h1, h2⟩ | ⟨h1, h2⟩)
    · refine le_trans ?_ (le_abs_self _); linarith
    · refine le_trans ?_ (neg_le_abs _); linarith

theorem roundInt_N_half {k : ℤ} : roundInt .N ((k:ℚ) - 1 / 2) = k ↔ Even k := by
  have hf : ⌊(k:ℚ) - 1 / 2⌋ = k - 1 := by
    rw [Int.floor_eq_iff]; push_cast; constructor <;> linarith
  simp only [roundInt, hf]
  rw [if_neg (by push_cast; linarith), if_neg (by push_cast; linarith), Int.even_iff]
  split_ifs <;> omega

theorem roundInt_N_half' {k : ℤ} (h : Even k) : roundInt .N ((k:ℚ) + 1 / 2) = k := by
  have hf : ⌊(k:ℚ) + 1 / 2⌋ = k := by
    rw [Int.floor_eq_iff]; constructor <;> linarith
  simp only [roundInt, hf]
  rw [if_neg (by linarith), if_neg (by linarith), if_pos (Int.even_iff.mp h)]

/-- The unit of the numbers of the top binade. -/
theorem expo_topBinade {w : ℚ} (h1 : (2:ℚ) ^ (φ.p - 1) * 2 ^ (φ.emax - φ.p) ≤ w) (h2 : w < 2 ^ φ.p * 2 ^ (φ.emax - φ.p)) :
    φ.expo w = φ.emax - φ.p := by
  have hr := φ.range
  have hu := two_zpow_pos (φ.emax - φ.p)
  have hp := φ.p_pos
  have h0 : 0 < w := lt_of_lt_of_le (by positivity) h1
  refine le_antisymm (expo_le_of h0.ne' (by omega) (by rwa [abs_of_pos h0])) ?_
  by_contra hc
  have l := φ.abs_lt_expoQ w
  rw [abs_of_pos h0] at l
  have l2 : (2:ℚ) ^ (φ.expo w + 1) ≤ 2 ^ (φ.emax - φ.p) := zpow_le_zpow_right₀ (by norm_num) (by omega)
  rw [zpow_add_one₀ (by norm_num)] at l2
  have e : (2:ℚ) ^ φ.p = 2 ^ (φ.p - 1) * 2 := by
    rw [← pow_succ]; congr 1; omega
  rw [e] at l
  have : (0:ℚ) < 2 ^ (φ.p - 1) := by positivity
  nlinarith

/-- The widths for which a sum rounded up by half a unit of the top binade hides a difference. -/
theorem tie_iff {w v : ℚ} (hw : 0 ≤ w) :
    (φ.rn w - w = 2 ^ (φ.emax - φ.p) / 2 ∧ |φ.rn w| ≤ φ.maxFin ∧ w < v ∧ φ.rn w = φ.rn v) ↔
      (∃ k : ℤ, Even k ∧ 2 ^ (φ.p - 1) < k ∧ k < 2 ^ φ.p ∧ w = (k - 1 / 2) * 2 ^ (φ.emax - φ.p)) ∧ w < v ∧
        v ≤ w + 2 ^ (φ.emax - φ.p) := by
  have hr := φ.range
  have hu := two_zpow_pos (φ.emax - φ.p)
  have hp := φ.p_pos
  have ep : (2:ℚ) ^ φ.p = 2 ^ (φ.p - 1) * 2 := by
    rw [← pow_succ]; congr 1; omega
  constructor
  · rintro ⟨h1, h2, h3, h4⟩
    have hw0 : w ≠ 0 := by
      rintro rfl; rw [φ.rn_zero] at h1; linarith
    have hw1 : 0 < w := lt_of_le_of_ne hw (Ne.symm hw0)
    have hE := φ.rn_half w
    rw [h1, abs_of_pos (by positivity)] at hE
    have e1 : φ.emax - φ.p ≤ φ.expo w :=
      (zpow_le_zpow_iff_right₀ (by norm_num : (1:ℚ) < 2)).mp (by linarith)
    have hlt : w < 2 ^ φ.p * 2 ^ (φ.emax - φ.p) := by
      have := (abs_le.mp h2).2
      rw [maxFin_eq] at this
      linarith
    have e2 : φ.expo w ≤ φ.emax - φ.p := expo_le_of hw0 (by omega) (by rwa [abs_of_pos hw1])
    have e3 := le_antisymm e2 e1
    have hk : φ.rn w = (roundInt .N (w / 2 ^ φ.expo w) : ℤ) * 2 ^ φ.expo w := rfl
    rw [e3] at hk
    generalize hK : roundInt .N (w / 2 ^ (φ.emax - φ.p)) = k at hk
    have hwk : w = (k - 1 / 2) * 2 ^ (φ.emax - φ.p) := by rw [hk] at h1; linarith
    have hdiv : w / 2 ^ (φ.emax - φ.p) = (k:ℚ) - 1 / 2 := by rw [hwk]; field_simp
    rw [hdiv, roundInt_N_half] at hK
    refine ⟨⟨k, hK, ?_, ?_, hwk⟩, h3, ?_⟩
    · rcases φ.le_abs_of_expo hw0 with h | h
      · exfalso; have := φ.qmin_le; have := φ.emax_ge; omega
      · rw [e3, abs_of_pos hw1, hwk, zpow_add₀ (by norm_num), zpow_sub_one₀ (by norm_num), zpow_natCast, ep] at h
        have h5 : (2:ℚ) ^ (φ.p - 1) ≤ k - 1 / 2 := by
          refine le_of_mul_le_mul_right ?_ hu
          refine le_trans (le_of_eq ?_) h
          ring
        have h6 : (2:ℚ) ^ (φ.p - 1) < k := by linarith
        exact_mod_cast h6
    · have := (abs_le.mp h2).2
      rw [maxFin_eq, hk] at this
      have h5 := le_of_mul_le_mul_right this hu
      have h6 : k ≤ 2 ^ φ.p - 1 := by exact_mod_cast h5
      omega
    · have := err_le_of_le_maxFin (x := v) (by rwa [← h4])
      rw [abs_le, ← h4] at this
      linarith
  · rintro ⟨⟨k, hk, k1, k2, hwk⟩, h3, h4⟩
    have k1' : (2:ℚ) ^ (φ.p - 1) + 1 ≤ k := by exact_mod_cast k1
    have k2' : (k:ℚ) + 1 ≤ 2 ^ φ.p := by exact_mod_cast k2
    have e1 : φ.rn w = k * 2 ^ (φ.emax - φ.p) := by
      have ex : φ.expo w = φ.emax - φ.p := expo_topBinade (by rw [hwk]; nlinarith) (by rw [hwk]; nlinarith)
      have : φ.rn w = (roundInt .N (w / 2 ^ φ.expo w) : ℤ) * 2 ^ φ.expo w := rfl
      rw [this, ex]
      have hdiv : w / 2 ^ (φ.emax - φ.p) = (k:ℚ) - 1 / 2 := by rw [hwk]; field_simp
      rw [hdiv, roundInt_N_half.mpr hk]
    have e2 : φ.rn (w + 2 ^ (φ.emax - φ.p)) = k * 2 ^ (φ.emax - φ.p) := by
      have ex : φ.expo (w + 2 ^ (φ.emax - φ.p)) = φ.emax - φ.p :=
        expo_topBinade (by rw [hwk]; nlinarith) (by rw [hwk]; nlinarith)
      have : φ.rn (w + 2 ^ (φ.emax - φ.p)) =
        (roundInt .N ((w + 2 ^ (φ.emax - φ.p)) / 2 ^ φ.expo (w + 2 ^ (φ.emax - φ.p))) : ℤ) *
          2 ^ φ.expo (w + 2 ^ (φ.emax - φ.p)) := rfl
      rw [this, ex]
      have hdiv : (w + 2 ^ (φ.emax - φ.p)) / 2 ^ (φ.emax - φ.p) = (k:ℚ) + 1 / 2 := by rw [hwk]; field_simp; ring
      rw [hdiv, roundInt_N_half' hk]
    have m1 := φ.rn_mono h3.le
    have m2 := φ.rn_mono h4
    rw [e1] at m1
    rw [e2] at m2
    refine ⟨by rw [e1, hwk]; ring, ?_, h3, by rw [e1]; exact le_antisymm m1 m2⟩
    have : (0:ℚ) < 2 ^ (φ.p - 1) := by positivity
    rw [e1, abs_of_nonneg (by nlinarith), maxFin_eq]
    nlinarith

end Fmt

/-- `a` is a finite datum with value `q`. -/
def Val (a : FP) (q : ℚ) : Prop := a ≠ .nan ∧ a.toE = ((q:ℝ) : EReal)

section
variable {φ : Fmt} {a b : FP} {p q : ℚ}

theorem round_val_fin (h : |φ.rn q| ≤ φ.maxFin) : (φ.round .N q).toE = ((φ.rn q : ℝ) : EReal) := by
  rw [abs_le] at h
  simp only [Fmt.round]
  rw [if_neg (by linarith), if_neg (by linarith)]
  split_ifs with h0
  · rw [FP.toE_mkZero, Fmt.rn, h0]; simp
  · rfl

theorem round_val_top (h : φ.maxFin < φ.rn q) : (φ.round .N q).toE = ⊤ := by
  simp only [Fmt.round]
  rw [if_pos h]; rfl

theorem round_val_bot (h : φ.rn q < -φ.maxFin) : (φ.round .N q).toE = ⊥ := by
  have := φ.maxFin_pos
  simp only [Fmt.round]
  rw [if_neg (by unfold Fmt.rn at h; linarith), if_pos h]; rfl

theorem add_valR (ha : Val a p) (hb : Val b q) :
    φ.add .N a b ≠ .nan ∧ (φ.add .N a b).toE = (φ.round .N (p + q)).toE := by
  obtain ⟨h1, h2⟩ := φ.add_spec (m := .N) ha.1 hb.1 (by rw [ha.2]; simp) (by rw [ha.2]; simp)
  refine ⟨h1, ?_⟩
  rw [h2, ha.2, hb.2, ← φ.rndE_rat]
  push_cast
  rfl

theorem sub_valR (ha : Val a p) (hb : Val b q) :
    φ.sub .N a b ≠ .nan ∧ (φ.sub .N a b).toE = (φ.round .N (p - q)).toE := by
  obtain ⟨h1, h2⟩ := φ.sub_spec (m := .N) ha.1 hb.1 (by rw [ha.2]; simp) (by rw [ha.2]; simp)
  refine ⟨h1, ?_⟩
  rw [h2, ha.2, hb.2, ← φ.rndE_rat]
  push_cast
  rfl

theorem add_val (ha : Val a p) (hb : Val b q) (h : |φ.rn (p + q)| ≤ φ.maxFin) :
    Val (φ.add .N a b) (φ.rn (p + q)) :=
  ⟨(add_valR ha hb).1, (add_valR ha hb).2.trans (round_val_fin h)⟩

theorem sub_val (ha : Val a p) (hb : Val b q) (h : |φ.rn (p - q)| ≤ φ.maxFin) :
    Val (φ.sub .N a b) (φ.rn (p - q)) :=
  ⟨(sub_valR ha hb).1, (sub_valR ha hb).2.trans (round_val_fin h)⟩

/-- `two_sum` is an error-free transformation, unless its first difference overflows. -/
theorem twoSum_exact (ha : Val a p) (hb : Val b q) (rp : φ.RepU p) (rq : φ.RepU q) (lp : |p| ≤ φ.maxFin)
    (lq : |q| ≤ φ.maxFin) (ls : |φ.rn (p + q)| ≤ φ.maxFin) (ho : ¬ φ.Over p q) :
    Val (φ.twoSum a b).1 (φ.rn (p + q)) ∧ Val (φ.twoSum a b).2 (p + q - φ.rn (p + q)) := by
  have h := Fmt.twoSumQ rp rq lp lq ls (not_lt.mp ho)
  have s := add_val ha hb ls
  have qv := sub_val s hb h.qv
  have pv := sub_val s qv h.pv
  have qr := sub_val ha qv h.qr
  have pr := sub_val hb pv h.pr
  have e := add_val qr pr h.er
  rw [h.eq] at e
  exact ⟨s, e⟩

/-- If it overflows, the error component of `two_sum` is not a number. -/
theorem twoSum_over (ha : Val a p) (hb : Val b q) (ls : |φ.rn (p + q)| ≤ φ.maxFin) (ho : φ.Over p q) :
    (φ.twoSum a b).2 = .nan := by
  have s := add_val ha hb ls
  obtain ⟨n, v⟩ := sub_valR (φ := φ) s hb
  have fin : ∀ {c : FP} {r : ℚ}, Val c r → c ≠ .nan ∧ c ≠ .pinf ∧ c ≠ .ninf := by
    rintro c r ⟨h1, h2⟩
    refine ⟨h1, ?_, ?_⟩ <;> rintro rfl <;> simp [FP.toE] at h2
  have fa := fin ha
  have fb := fin hb
  have fs := fin s
  unfold Fmt.twoSum
  simp only
  unfold Fmt.Over at ho
  rcases lt_abs.mp ho with h | h
  · rw [round_val_top h] at v
    have e : φ.sub .N (φ.add .N a b) b = .pinf := by
      cases hc : φ.sub .N (φ.add .N a b) b <;> rw [hc] at v n <;> simp_all [FP.toE]
    rw [e]
    generalize φ.add .N a b = c at *
    rcases a with _ | _ | _ | _ | _ <;> rcases b with _ | _ | _ | _ | _ <;> rcases c with _ | _ | _ | _ | _ <;>
      simp_all [Fmt.sub, Fmt.add, FP.neg]
  · rw [round_val_bot (by linarith)] at v
    have e : φ.sub .N (φ.add .N a b) b = .ninf := by
      cases hc : φ.sub .N (φ.add .N a b) b <;> rw [hc] at v n <;> simp_all [FP.toE]
    rw [e]
    generalize φ.add .N a b = c at *
    rcases a with _ | _ | _ | _ | _ <;> rcases b with _ | _ | _ | _ | _ <;> rcases c with _ | _ | _ | _ | _ <;>
      simp_all [Fmt.sub, Fmt.add, FP.neg]

/-- The sum component of `two_sum`. -/
theorem twoSum_fst (ha : Val a p) (hb : Val b q) :
    (φ.twoSum a b).1 ≠ .nan ∧ (φ.twoSum a b).1.toE = (φ.round .N (p + q)).toE := add_valR ha hb

theorem pairLt_iff {x y : FP × FP} (hx : x.1 ≠ .nan) (hy : y.1 ≠ .nan) :
    pairLt x y = true ↔ x.1.toE < y.1.toE ∨ (x.1.toE = y.1.toE ∧ x.2 < y.2) := by
  unfold pairLt
  rw [Bool.or_eq_true, Bool.and_eq_true, ← FP.lt_def, ← FP.lt_def, FP.lt_iff hx hy, FP.feq_iff hx hy]

/-- The lexicographic comparison of two `two_sum` results compares the exact sums, unless the rounded sums agree and one of
the first differences overflowed: then it finds the sums equal. -/
theorem pairLt_twoSum {a₁ b₁ a₂ b₂ : FP} {p₁ q₁ p₂ q₂ : ℚ} (ha₁ : Val a₁ p₁) (hb₁ : Val b₁ q₁) (ha₂ : Val a₂ p₂)
    (hb₂ : Val b₂ q₂) (rp₁ : φ.RepU p₁) (rq₁ : φ.RepU q₁) (rp₂ : φ.RepU p₂) (rq₂ : φ.RepU q₂)
    (lp₁ : |p₁| ≤ φ.maxFin) (lq₁ : |q₁| ≤ φ.maxFin) (lp₂ : |p₂| ≤ φ.maxFin) (lq₂ : |q₂| ≤ φ.maxFin)
    (lo : -(2 * φ.maxFin) ≤ (p₁ + q₁) + (p₂ + q₂)) (hi : (p₁ + q₁) + (p₂ + q₂) ≤ 2 * φ.maxFin) :
    pairLt (φ.twoSum a₁ b₁) (φ.twoSum a₂ b₂) = true ↔ p₁ + q₁ < p₂ + q₂ ∧
      ¬ (φ.rn (p₁ + q₁) = φ.rn (p₂ + q₂) ∧ |φ.rn (p₁ + q₁)| ≤ φ.maxFin ∧ (φ.Over p₁ q₁ ∨ φ.Over p₂ q₂)) := by
  obtain ⟨n1, s1⟩ := twoSum_fst (φ := φ) ha₁ hb₁
  obtain ⟨n2, s2⟩ := twoSum_fst (φ := φ) ha₂ hb₂
  rw [pairLt_iff n1 n2, s1, s2]
  have hM := φ.maxFin_pos
  have up : ∀ q : ℚ, φ.maxFin < φ.rn q → φ.maxFin < q := fun q h => by
    by_contra hc; exact absurd (φ.rn_le φ.rep_maxFin.repU (not_lt.mp hc)) (not_le.mpr h)
  have dn : ∀ q : ℚ, φ.rn q < -φ.maxFin → q < -φ.maxFin := fun q h => by
    by_contra hc; exact absurd (φ.le_rn φ.rep_maxFin.repU.neg (not_lt.mp hc)) (not_le.mpr h)
  have mono : p₂ + q₂ ≤ p₁ + q₁ → φ.rn (p₂ + q₂) ≤ φ.rn (p₁ + q₁) := fun h => φ.rn_mono h
  have mono' : p₁ + q₁ ≤ p₂ + q₂ → φ.rn (p₁ + q₁) ≤ φ.rn (p₂ + q₂) := fun h => φ.rn_mono h
  have tri : ∀ v : ℚ, φ.maxFin < v ∨ v < -φ.maxFin ∨ |v| ≤ φ.maxFin := fun v => by
    by_contra hc
    push Not at hc
    obtain ⟨h1, h2, h3⟩ := hc
    exact absurd (abs_le.mpr ⟨h2, h1⟩) (not_le.mpr h3)
  have ne : ∀ {r s : ℚ} {P : Prop}, r ≠ s → ¬ (r = s ∧ P) := fun h h' => h h'.1
  rcases tri (φ.rn (p₁ + q₁)) with t1 | t1 | t1 <;> rcases tri (φ.rn (p₂ + q₂)) with t2 | t2 | t2
  · have := up _ t1; have := up _ t2; linarith
  · rw [round_val_top t1, round_val_bot t2, and_iff_left (ne (by intro h; linarith))]
    constructor
    · intro h; simp at h
    · intro h; have := mono' h.le; linarith
  · rw [round_val_top t1, round_val_fin t2, and_iff_left (ne (by intro h; rw [abs_le] at t2; linarith))]
    rw [abs_le] at t2
    constructor
    · intro h; simp at h
    · intro h; have := mono' h.le; linarith
  · rw [round_val_bot t1, round_val_top t2, and_iff_left (ne (by intro h; linarith))]
    constructor
    · intro _; by_contra hc; have := mono (not_lt.mp hc); linarith
    · intro _; left; simp
  · have := dn _ t1; have := dn _ t2; linarith
  · rw [round_val_bot t1, round_val_fin t2, and_iff_left (ne (by intro h; rw [abs_le] at t2; linarith))]
    rw [abs_le] at t2
    constructor
    · intro _; by_contra hc; have := mono (not_lt.mp hc); linarith
    · intro _; left; exact EReal.bot_lt_coe _
  · rw [round_val_fin t1, round_val_top t2, and_iff_left (ne (by intro h; rw [abs_le] at t1; linarith))]
    rw [abs_le] at t1
    constructor
    · intro _; by_contra hc; have := mono (not_lt.mp hc); linarith
    · intro _; left; exact EReal.coe_lt_top _
  · rw [round_val_fin t1, round_val_bot t2, and_iff_left (ne (by intro h; rw [abs_le] at t1; linarith))]
    rw [abs_le] at t1
    constructor
    · intro h; simp at h
    · intro h; have := mono' h.le; linarith
  · rw [round_val_fin t1, round_val_fin t2, EReal.coe_lt_coe_iff, EReal.coe_eq_coe_iff, Rat.cast_lt, Rat.cast_inj]
    by_cases ho : φ.Over p₁ q₁ ∨ φ.Over p₂ q₂
    · have hn : ¬ (φ.twoSum a₁ b₁).2 < (φ.twoSum a₂ b₂).2 := by
        rw [FP.lt_def]
        rcases ho with h | h
        · rw [twoSum_over ha₁ hb₁ t1 h]; simp [FP.ltb]
        · rw [twoSum_over ha₂ hb₂ t2 h]; cases (φ.twoSum a₁ b₁).2 <;> simp [FP.ltb]
      simp only [hn, and_false, or_false, ho, and_true, t1]
      constructor
      · intro h
        refine ⟨?_, h.ne⟩
        by_contra hc; have := mono (not_lt.mp hc); linarith
      · rintro ⟨h, h'⟩
        exact lt_of_le_of_ne (mono' h.le) h'
    · have e1 := (twoSum_exact ha₁ hb₁ rp₁ rq₁ lp₁ lq₁ t1 fun h => ho (.inl h)).2
      have e2 := (twoSum_exact ha₂ hb₂ rp₂ rq₂ lp₂ lq₂ t2 fun h => ho (.inr h)).2
      rw [FP.lt_iff e1.1 e2.1, e1.2, e2.2, EReal.coe_lt_coe_iff, Rat.cast_lt, and_iff_left (fun h => ho h.2.2)]
      constructor
      · rintro (h | ⟨h, h'⟩)
        · by_contra hc; have := mono (not_lt.mp hc); linarith
        · linarith
      · intro h
        rcases (mono' h.le).lt_or_eq with h' | h'
        · exact Or.inl h'
        · exact Or.inr ⟨h', by linarith⟩

end
end P1788
