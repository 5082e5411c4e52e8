import Verif.Model.MpfrVar
import Mathlib.Tactic.Linarith
import Mathlib.Tactic.Ring
import Mathlib.Tactic.NormNum
import Mathlib.Tactic.FieldSimp
import Mathlib.Tactic.Positivity

/-! # Lemmas for C43: double rounding with a ternary value -/

namespace P1788

section
variable {K : Type*} [Field K] [LinearOrder K] [IsStrictOrderedRing K] [FloorRing K]

theorem le_roundInt' (m : Rnd) {y : K} {k : ℤ} (h : (k : K) ≤ y) : k ≤ roundInt m y := by
  have h1 : k ≤ ⌊y⌋ := Int.le_floor.mpr h
  have h2 : ⌊y⌋ ≤ roundInt m y := by
    cases m
    · exact le_refl _
    · exact Int.floor_le_ceil y
    · unfold roundInt
      simp only
      split_ifs <;> omega
  omega

theorem roundInt_le' (m : Rnd) {y : K} {k : ℤ} (h : y ≤ (k : K)) : roundInt m y ≤ k := by
  have h1 : ⌈y⌉ ≤ k := Int.ceil_le.mpr h
  have h2 : roundInt m y ≤ ⌈y⌉ := by
    cases m
    · exact Int.floor_le_ceil y
    · exact le_refl _
    · have h3 : (⌊y⌋ : K) ≤ y := Int.floor_le y
      have h4 : y ≤ (⌈y⌉ : K) := Int.le_ceil y
      have h5 : ⌊y⌋ ≤ ⌈y⌉ := Int.floor_le_ceil y
      by_cases h6 : y - ⌊y⌋ < 1 / 2
      · unfold roundInt; simp only [h6, if_true]; exact h5
      · have h7 : ⌊y⌋ < ⌈y⌉ := by
          have : (⌊y⌋ : K) < ⌈y⌉ := by
            have h8 : (0:K) < 1 / 2 := by norm_num
            push Not at h6
            linarith
          exact_mod_cast this
        unfold roundInt
        simp only
        split_ifs <;> omega
  omega

/-- The nearest integer, if it is unique. -/
theorem roundInt_N_eq {w : K} {n : ℤ} (h1 : (n : K) - 1 / 2 < w) (h2 : w < (n : K) + 1 / 2) : roundInt .N w = n := by
  by_cases h : (n : K) ≤ w
  · have hf : ⌊w⌋ = n := Int.floor_eq_iff.mpr ⟨h, by linarith⟩
    unfold roundInt
    simp only [hf]
    rw [if_pos (by linarith)]
  · push Not at h
    have hf : ⌊w⌋ = n - 1 := Int.floor_eq_iff.mpr ⟨by push_cast; linarith, by push_cast; linarith⟩
    unfold roundInt
    simp only [hf]
    push_cast
    rw [if_neg (by push Not; linarith), if_pos (by linarith)]
    omega

theorem roundInt_N_near' (y : K) : |y - (roundInt .N y : K)| ≤ 1 / 2 := by
  have h3 : (⌊y⌋ : K) ≤ y := Int.floor_le y
  have h4 : y < (⌊y⌋ : K) + 1 := Int.lt_floor_add_one y
  unfold roundInt
  simp only
  split_ifs with h5 h6 h7
  · rw [abs_le]; constructor <;> linarith
  · rw [abs_le]; push_cast; constructor <;> linarith
  · rw [abs_le]; push Not at h5 h6; constructor <;> linarith
  · rw [abs_le]; push_cast; push Not at h5 h6; constructor <;> linarith

/-- The ternary value, seen from the exact value. -/
theorem ternary_int (n : ℤ) (y : K) (c : ℚ) (hc : 0 < c) :
    ternary ((n : ℚ) * c) (y * (c : K)) = if (n : K) < y then -1 else if y < (n : K) then 1 else 0 := by
  have hc' : (0 : K) < (c : K) := by exact_mod_cast hc
  unfold ternary
  push_cast
  simp only [mul_lt_mul_iff_left₀ hc']

/-- Rounding twice, the second time with the ternary value of the first, is rounding once. -/
theorem subRound_double (m : Rnd) (y : K) (c : ℕ) (hc : 1 ≤ c) :
    subRound m ((roundInt m y : ℚ) / ((2 * c : ℕ) : ℚ)) (if (roundInt m y : K) < y then -1 else if y < (roundInt m y : K) then 1 else 0)
      = roundInt m (y / ((2 * c : ℕ) : K)) := by
  have hdK : (0 : K) < ((2 * c : ℕ) : K) := by exact_mod_cast (by omega : 0 < 2 * c)
  have hdQ : (0 : ℚ) < ((2 * c : ℕ) : ℚ) := by exact_mod_cast (by omega : 0 < 2 * c)
  cases m with
  | D =>
    rw [subRound, if_neg (by simp)]
    show ⌊_⌋ = ⌊_⌋
    refine eq_of_forall_le_iff fun k => ?_
    rw [Int.le_floor, Int.le_floor, le_div_iff₀ hdK, le_div_iff₀ hdQ]
    show (k : ℚ) * _ ≤ ((⌊y⌋ : ℤ) : ℚ) ↔ _
    constructor
    · intro h
      have h1 : k * ((2 * c : ℕ) : ℤ) ≤ ⌊y⌋ := by exact_mod_cast h
      have := Int.le_floor.mp h1
      push_cast at this ⊢
      exact this
    · intro h
      have h1 : k * ((2 * c : ℕ) : ℤ) ≤ ⌊y⌋ := by
        apply Int.le_floor.mpr
        push_cast at h ⊢
        exact h
      exact_mod_cast h1
  | U =>
    rw [subRound, if_neg (by simp)]
    show ⌈_⌉ = ⌈_⌉
    refine eq_of_forall_ge_iff fun k => ?_
    rw [Int.ceil_le, Int.ceil_le, div_le_iff₀ hdK, div_le_iff₀ hdQ]
    show ((⌈y⌉ : ℤ) : ℚ) ≤ (k : ℚ) * _ ↔ _
    constructor
    · intro h
      have h1 : ⌈y⌉ ≤ k * ((2 * c : ℕ) : ℤ) := by exact_mod_cast h
      have := Int.ceil_le.mp h1
      push_cast at this ⊢
      exact this
    · intro h
      have h1 : ⌈y⌉ ≤ k * ((2 * c : ℕ) : ℤ) := by
        apply Int.ceil_le.mpr
        push_cast at h ⊢
        exact h
      exact_mod_cast h1
  | N =>
    have hnear := abs_le.mp (roundInt_N_near' y)
    set n := roundInt .N y with hn
    have hcK : (1 : K) ≤ (c : K) := by exact_mod_cast hc
    have hcQ : (1 : ℚ) ≤ (c : ℚ) := by exact_mod_cast hc
    by_cases ht : (n : ℚ) / ((2 * c : ℕ) : ℚ) - ⌊(n : ℚ) / ((2 * c : ℕ) : ℚ)⌋ = 1 / 2
    · set f := ⌊(n : ℚ) / ((2 * c : ℕ) : ℚ)⌋ with hf
      have hnf : n = f * (2 * c) + c := by
        have : (n : ℚ) = f * (2 * c) + c := by
          have h1 : (n : ℚ) / ((2 * c : ℕ) : ℚ) = f + 1 / 2 := by linarith
          rw [div_eq_iff (ne_of_gt hdQ)] at h1
          rw [h1]
          push_cast
          ring
        exact_mod_cast this
      have hnK : (n : K) = (f : K) * (2 * c) + c := by rw [hnf]; push_cast; ring
      by_cases h1 : (n : K) < y
      · rw [if_pos h1, subRound, if_pos ⟨rfl, ht, by decide⟩, if_neg (by decide), ← hf]
        symm
        apply roundInt_N_eq
        · rw [lt_div_iff₀ hdK]; push_cast; nlinarith
        · rw [div_lt_iff₀ hdK]; push_cast; nlinarith
      · rw [if_neg h1]
        by_cases h2 : y < (n : K)
        · rw [if_pos h2, subRound, if_pos ⟨rfl, ht, by decide⟩, if_pos (by decide), ← hf]
          symm
          apply roundInt_N_eq
          · rw [lt_div_iff₀ hdK]; push_cast; nlinarith
          · rw [div_lt_iff₀ hdK]; push_cast; nlinarith
        · rw [if_neg h2, subRound, if_neg (by simp)]
          have hy : y = ((n : ℚ) : K) := by
            push Not at h1 h2
            push_cast
            exact le_antisymm h1 h2
          have hfK : ⌊y / ((2 * c : ℕ) : K)⌋ = f := by
            rw [Int.floor_eq_iff, le_div_iff₀ hdK, div_lt_iff₀ hdK]
            rw [hy]
            push_cast
            rw [hnK]
            constructor <;> linarith
          have hK2 : y / ((2 * c : ℕ) : K) - (f : K) = 1 / 2 := by
            rw [hy]
            push_cast
            rw [hnK]
            have : (c : K) ≠ 0 := by linarith
            field_simp
            ring
          unfold roundInt
          simp only [hfK, hK2, ← hf, ht]
          simp
    · rw [subRound, if_neg (by rintro ⟨-, h, -⟩; exact ht h)]
      set z := (n : ℚ) / ((2 * c : ℕ) : ℚ) with hz
      have hzn : (n : ℚ) = z * (2 * c) := by
        rw [hz]; push_cast
        have : (c : ℚ) ≠ 0 := by linarith
        field_simp
      set r := roundInt .N z with hr
      have hlt : |z - r| < 1 / 2 := by
        refine lt_of_le_of_ne (roundInt_N_near' z) fun h => ?_
        have h3 : ((⌊z⌋ : ℤ) : ℚ) ≤ z := Int.floor_le z
        have h4 : z < ((⌊z⌋ : ℤ) : ℚ) + 1 := Int.lt_floor_add_one z
        rcases (abs_eq (by norm_num : (0:ℚ) ≤ 1 / 2)).mp h with h5 | h5
        · have : ⌊z⌋ = r := Int.floor_eq_iff.mpr ⟨by linarith, by linarith⟩
          rw [this] at ht
          exact ht h5
        · have : ⌊z⌋ = r - 1 := Int.floor_eq_iff.mpr ⟨by push_cast; linarith, by push_cast; linarith⟩
          rw [this] at ht
          exact ht (by push_cast; linarith)
      rw [abs_lt] at hlt
      have hi1 : n < r * (2 * c) + c := by
        have : (n : ℚ) < r * (2 * c) + c := by rw [hzn]; nlinarith
        exact_mod_cast this
      have hi2 : r * (2 * c) - c < n := by
        have : (r : ℚ) * (2 * c) - c < n := by rw [hzn]; nlinarith
        exact_mod_cast this
      have hj1 : (n : K) + 1 ≤ (r : K) * (2 * c) + c := by exact_mod_cast (by omega : n + 1 ≤ r * (2 * c) + c)
      have hj2 : (r : K) * (2 * c) - c + 1 ≤ (n : K) := by exact_mod_cast (by omega : r * (2 * c) - c + 1 ≤ n)
      symm
      apply roundInt_N_eq
      · rw [lt_div_iff₀ hdK]; push_cast; linarith
      · rw [div_lt_iff₀ hdK]; push_cast; linarith

theorem mpfrUnb_eq (P : ℕ) (m : Rnd) (x : K) :
    mpfrUnb P m x = (roundInt m (x / (2 : K) ^ (Int.log 2 |x| - P + 1)) : ℤ) * (2 : ℚ) ^ (Int.log 2 |x| - P + 1) := rfl

/-- The mantissa of the rounded value. -/
theorem mant_bounds {P : ℕ} (hP : 1 ≤ P) (m : Rnd) {x : K} (hx : x ≠ 0) :
    (0 < x → 2 ^ (P - 1) ≤ roundInt m (x / (2 : K) ^ (Int.log 2 |x| - P + 1)) ∧ roundInt m (x / (2 : K) ^ (Int.log 2 |x| - P + 1)) ≤ 2 ^ P) ∧
    (x < 0 → -2 ^ P ≤ roundInt m (x / (2 : K) ^ (Int.log 2 |x| - P + 1)) ∧ roundInt m (x / (2 : K) ^ (Int.log 2 |x| - P + 1)) ≤ -2 ^ (P - 1)) := by
  have hax : 0 < |x| := abs_pos.mpr hx
  have h1 : (2 : K) ^ Int.log 2 |x| ≤ |x| := by exact_mod_cast Int.zpow_log_le_self (b := 2) (by norm_num) hax
  have h2 : |x| < (2 : K) ^ (Int.log 2 |x| + 1) := by exact_mod_cast Int.lt_zpow_succ_log_self (b := 2) (by norm_num) |x|
  set L := Int.log 2 |x|
  have h2p : (0 : K) < (2 : K) ^ (L - P + 1) := zpow_pos (by norm_num) _
  have e1 : (2 : K) ^ (P - 1) * (2 : K) ^ (L - P + 1) = (2 : K) ^ L := by
    rw [← zpow_natCast, ← zpow_add₀ (by norm_num)]
    congr 1
    push_cast [hP]
    ring
  have e2 : (2 : K) ^ P * (2 : K) ^ (L - P + 1) = (2 : K) ^ (L + 1) := by
    rw [← zpow_natCast, ← zpow_add₀ (by norm_num)]
    congr 1
    ring
  constructor
  · intro h
    rw [abs_of_pos h] at h1 h2
    constructor
    · apply le_roundInt'
      rw [le_div_iff₀ h2p]
      push_cast
      rw [e1]; exact h1
    · apply roundInt_le'
      rw [div_le_iff₀ h2p]
      push_cast
      rw [e2]; exact h2.le
  · intro h
    rw [abs_of_neg h] at h1 h2
    constructor
    · apply le_roundInt'
      rw [le_div_iff₀ h2p]
      push_cast
      rw [neg_mul, e2]; linarith
    · apply roundInt_le'
      rw [div_le_iff₀ h2p]
      push_cast
      rw [neg_mul, e1]; linarith

/-- The rounded value lies between the same powers of two as the exact one, and has its sign. -/
theorem unb_bounds {P : ℕ} (hP : 1 ≤ P) (m : Rnd) {x : K} (hx : x ≠ 0) :
    (0 < mpfrUnb P m x ↔ 0 < x) ∧ mpfrUnb P m x ≠ 0 ∧ (2 : ℚ) ^ Int.log 2 |x| ≤ |mpfrUnb P m x| ∧ |mpfrUnb P m x| ≤ (2 : ℚ) ^ (Int.log 2 |x| + 1) := by
  have hb := mant_bounds hP m hx
  rw [mpfrUnb_eq]
  set L := Int.log 2 |x|
  set n := roundInt m (x / (2 : K) ^ (L - P + 1))
  have hq : (0 : ℚ) < (2 : ℚ) ^ (L - P + 1) := zpow_pos (by norm_num) _
  have e1 : (2 : ℚ) ^ (P - 1) * (2 : ℚ) ^ (L - P + 1) = (2 : ℚ) ^ L := by
    rw [← zpow_natCast, ← zpow_add₀ (by norm_num)]
    congr 1
    push_cast [hP]
    ring
  have e2 : (2 : ℚ) ^ P * (2 : ℚ) ^ (L - P + 1) = (2 : ℚ) ^ (L + 1) := by
    rw [← zpow_natCast, ← zpow_add₀ (by norm_num)]
    congr 1
    ring
  have hpos : (0 : ℚ) < 2 ^ (P - 1) := by positivity
  rcases lt_or_gt_of_ne hx with h | h
  · obtain ⟨h1, h2⟩ := hb.2 h
    have h1' : -(2 : ℚ) ^ P ≤ n := by exact_mod_cast h1
    have h2' : (n : ℚ) ≤ -(2 : ℚ) ^ (P - 1) := by exact_mod_cast h2
    have hn : (n : ℚ) < 0 := by linarith
    have hv : (n : ℚ) * (2 : ℚ) ^ (L - P + 1) < 0 := mul_neg_of_neg_of_pos hn hq
    refine ⟨⟨fun h' => absurd h' (not_lt.mpr hv.le), fun h' => absurd h' (not_lt.mpr h.le)⟩, ne_of_lt hv, ?_, ?_⟩
    · rw [abs_of_neg hv, ← e1, ← neg_mul]
      exact mul_le_mul_of_nonneg_right (by linarith) hq.le
    · rw [abs_of_neg hv, ← e2, ← neg_mul]
      exact mul_le_mul_of_nonneg_right (by linarith) hq.le
  · obtain ⟨h1, h2⟩ := hb.1 h
    have h1' : (2 : ℚ) ^ (P - 1) ≤ n := by exact_mod_cast h1
    have h2' : (n : ℚ) ≤ (2 : ℚ) ^ P := by exact_mod_cast h2
    have hn : (0 : ℚ) < n := by linarith
    have hv : 0 < (n : ℚ) * (2 : ℚ) ^ (L - P + 1) := mul_pos hn hq
    refine ⟨⟨fun _ => h, fun _ => hv⟩, ne_of_gt hv, ?_, ?_⟩
    · rw [abs_of_pos hv, ← e1]
      exact mul_le_mul_of_nonneg_right h1' hq.le
    · rw [abs_of_pos hv, ← e2]
      exact mul_le_mul_of_nonneg_right h2' hq.le

theorem maxFin_eq (φ : Fmt) : φ.maxFin = 2 ^ φ.emax - 2 ^ (φ.emax - φ.p) := by
  unfold Fmt.maxFin
  rw [sub_mul, one_mul, ← zpow_natCast, ← zpow_add₀ (by norm_num)]
  congr 2
  ring

theorem pow_le_maxFin (φ : Fmt) {k : ℤ} (hk : k ≤ φ.emax - 1) : (2 : ℚ) ^ k ≤ φ.maxFin := by
  rw [maxFin_eq]
  have h1 : (2 : ℚ) ^ k ≤ 2 ^ (φ.emax - 1) := zpow_le_zpow_right₀ (by norm_num) hk
  have h2 : (2 : ℚ) ^ (φ.emax - φ.p) ≤ 2 ^ (φ.emax - 1) := zpow_le_zpow_right₀ (by norm_num) (by have := φ.p_pos; omega)
  have h3 : (2 : ℚ) ^ φ.emax = 2 ^ (φ.emax - 1) + 2 ^ (φ.emax - 1) := by
    rw [← two_mul, ← zpow_one_add₀ (by norm_num)]
    congr 1
    ring
  linarith

/-- A value of precision `p` exceeds the largest number of the format if it reaches the power of two above it. -/
theorem maxFin_lt_iff (φ : Fmt) (m : Rnd) {x : K} (hx : x ≠ 0) :
    φ.maxFin < |mpfrUnb φ.p m x| ↔ (2 : ℚ) ^ φ.emax ≤ |mpfrUnb φ.p m x| := by
  have hP : 1 ≤ φ.p := by have := φ.p_pos; omega
  obtain ⟨-, -, h1, h2⟩ := unb_bounds hP m hx
  have hb := mant_bounds hP m hx
  constructor
  · intro h
    by_contra hlt
    push Not at hlt
    have hL : Int.log 2 |x| < φ.emax := by
      by_contra hc
      push Not at hc
      exact absurd (lt_of_le_of_lt ((zpow_le_zpow_right₀ (by norm_num) hc).trans h1) hlt) (lt_irrefl _)
    rw [mpfrUnb_eq] at h hlt h2
    set L := Int.log 2 |x|
    set n := roundInt m (x / (2 : K) ^ (L - φ.p + 1))
    have hq : (0 : ℚ) < (2 : ℚ) ^ (L - φ.p + 1) := zpow_pos (by norm_num) _
    have hn : |n| ≤ 2 ^ φ.p := by
      rcases lt_or_gt_of_ne hx with hx' | hx'
      · have := hb.2 hx'
        have hpp : (0 : ℤ) < 2 ^ (φ.p - 1) := by positivity
        rw [abs_le]; constructor <;> omega
      · have := hb.1 hx'
        have hpp : (0 : ℤ) < 2 ^ (φ.p - 1) := by positivity
        rw [abs_le]; constructor <;> omega
    rw [abs_mul, abs_of_pos hq] at h hlt h2
    rcases hn.lt_or_eq with h3 | h3
    · have h4 : ((|n| : ℤ) : ℚ) ≤ 2 ^ φ.p - 1 := by exact_mod_cast (by omega : |n| ≤ 2 ^ φ.p - 1)
      rw [Int.cast_abs] at h4
      have h5 : (2 : ℚ) ^ (L - φ.p + 1) ≤ 2 ^ (φ.emax - φ.p) := zpow_le_zpow_right₀ (by norm_num) (by omega)
      have h6 : (0 : ℚ) ≤ 2 ^ φ.p - 1 := le_trans (abs_nonneg _) h4
      have : |(n : ℚ)| * (2 : ℚ) ^ (L - φ.p + 1) ≤ φ.maxFin := by
        unfold Fmt.maxFin
        exact mul_le_mul h4 h5 hq.le h6
      linarith
    · have h4 : |(n : ℚ)| = 2 ^ φ.p := by rw [← Int.cast_abs, h3]; norm_num
      have e2 : (2 : ℚ) ^ φ.p * (2 : ℚ) ^ (L - φ.p + 1) = (2 : ℚ) ^ (L + 1) := by
        rw [← zpow_natCast, ← zpow_add₀ (by norm_num)]
        congr 1
        ring
      rw [h4, e2] at h hlt
      have h7 : L + 1 < φ.emax := (zpow_lt_zpow_iff_right₀ (by norm_num)).mp hlt
      have := pow_le_maxFin φ (k := L + 1) (by omega)
      linarith
  · intro h
    refine lt_of_lt_of_le ?_ h
    rw [maxFin_eq]
    have : (0 : ℚ) < 2 ^ (φ.emax - φ.p) := zpow_pos (by norm_num) _
    linarith

end

/-! ## `mpfr_check_range` and `mpfr_subnormalize` -/

theorem check_mid {r : Range} {P : ℕ} {m : Rnd} {v : ℚ} {t : ℤ} (h1 : 2 ^ (r.emin - 1) ≤ |v|) (h2 : |v| < 2 ^ r.emax) :
    r.check P m (.fin v, t) = (.fin v, t) := by
  unfold Range.check
  simp only
  rw [if_neg (not_lt.mpr h1), if_neg (not_le.mpr h2)]
  split_ifs <;> rfl

theorem check_over {r : Range} {P : ℕ} {m : Rnd} {v : ℚ} {t : ℤ} (h1 : 2 ^ (r.emin - 1) ≤ |v|) (h2 : 2 ^ r.emax ≤ |v|) :
    r.check P m (.fin v, t) =
      if v < 0 then (if m = .U then (.fin (-((2 ^ P - 1) * 2 ^ (r.emax - P))), 1) else (.ninf, -1))
      else (if m = .D then (.fin ((2 ^ P - 1) * 2 ^ (r.emax - P)), -1) else (.pinf, 1)) := by
  have hv : v ≠ 0 := by
    rintro rfl
    rw [abs_zero] at h2
    exact absurd h2 (not_le.mpr (zpow_pos (by norm_num) _))
  unfold Range.check
  simp only
  rw [if_neg hv, if_neg (not_lt.mpr h1), if_pos h2]

theorem subn_big {r : Range} {P : ℕ} {m : Rnd} {v : ℚ} {t : ℤ} (h : 2 ^ (r.emin + P - 2) ≤ |v|) :
    r.subnormalize P m (.fin v, t) = (.fin v, t) := by
  unfold Range.subnormalize
  simp only
  rw [if_pos (Or.inr h)]

theorem subn_small {r : Range} {P : ℕ} {m : Rnd} {v : ℚ} {t : ℤ} (hv : v ≠ 0) (h : |v| < 2 ^ (r.emin + P - 2)) :
    (r.subnormalize P m (.fin v, t)).1 = .fin (subRound m (v / 2 ^ (r.emin - 1)) t * 2 ^ (r.emin - 1)) := by
  unfold Range.subnormalize
  simp only
  rw [if_neg (by rintro (h' | h'); exacts [hv h', absurd h' (not_le.mpr h)])]

theorem subRound_int (m : Rnd) (k t : ℤ) : subRound m (k : ℚ) t = k := by
  unfold subRound
  rw [if_neg (by rintro ⟨-, h, -⟩; rw [Int.floor_intCast, sub_self] at h; norm_num at h)]
  exact le_antisymm (roundInt_le' m (le_refl _)) (le_roundInt' m (le_refl _))

theorem subRound_ne_zero (m : Rnd) {z : ℚ} (t : ℤ) (hz : 1 ≤ |z|) : subRound m z t ≠ 0 := by
  unfold subRound
  rcases le_abs'.mp hz with h | h
  · split_ifs with h1 h2
    · have : ⌊z⌋ ≤ -1 := by
        have : ((⌊z⌋ : ℤ) : ℚ) ≤ ((-1 : ℤ) : ℚ) := (Int.floor_le z).trans (by push_cast; exact h)
        exact_mod_cast this
      omega
    · have : ⌊z⌋ < -1 := by
        have : ((⌊z⌋ : ℤ) : ℚ) < ((-1 : ℤ) : ℚ) := by push_cast; linarith [h1.2.1]
        exact_mod_cast this
      omega
    · have := roundInt_le' m (y := z) (k := -1) (by push_cast; exact h)
      omega
  · have h3 : 1 ≤ ⌊z⌋ := Int.le_floor.mpr (by push_cast; exact h)
    split_ifs
    · omega
    · omega
    · have := le_roundInt' m (y := z) (k := 1) (by push_cast; exact h)
      omega

end P1788
