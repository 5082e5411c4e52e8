import Verif.Lemmas.MpfrVar
import Verif.Lemmas.Near
import Verif.Lemmas.Nearest

/-! # Lemmas for C43: the wrapper rounds once -/

namespace P1788

section
variable {K : Type*} [Field K] [LinearOrder K] [IsStrictOrderedRing K] [FloorRing K]

/-- The range and precision set by `setup()`. -/
theorem var_emin (φ : Fmt) : φ.var.range.emin = φ.qmin + 1 := by show (φ.qmin + φ.p) - φ.p + 1 = _; ring
theorem var_emax (φ : Fmt) : φ.var.range.emax = φ.emax := rfl

/-- In the normal range, rounding to `p` bits is rounding to the format. -/
theorem finish_normal (φ : Fmt) (m : Rnd) {x : K} (hx : x ≠ 0) (h : φ.qmin ≤ Int.log 2 |x| - φ.p + 1) :
    (φ.var.range.subnormalize φ.p m (φ.var.range.check φ.p m (.fin (mpfrUnb φ.p m x), ternary (mpfrUnb φ.p m x) x))).1 = φ.round m x := by
  have hP : 1 ≤ φ.p := by have := φ.p_pos; omega
  have hrange := φ.range
  obtain ⟨hs, hne, h1, -⟩ := unb_bounds hP m hx
  have hmax := maxFin_lt_iff φ m hx
  have hv : φ.roundQ m x = mpfrUnb φ.p m x := by
    have : φ.expo x = Int.log 2 |x| - φ.p + 1 := max_eq_left h
    unfold Fmt.roundQ
    rw [this]
    rfl
  set v := mpfrUnb φ.p m x with hvdef
  have hlow : (2 : ℚ) ^ (φ.qmin + φ.p - 1) ≤ |v| := (zpow_le_zpow_right₀ (by norm_num) (by omega)).trans h1
  have hlow1 : (2 : ℚ) ^ (φ.var.range.emin - 1) ≤ |v| := by
    rw [var_emin]
    exact (zpow_le_zpow_right₀ (by norm_num) (by omega)).trans hlow
  have hsub : (2 : ℚ) ^ (φ.var.range.emin + φ.p - 2) ≤ |v| := by
    rw [var_emin]
    exact (zpow_le_zpow_right₀ (by norm_num) (by omega)).trans hlow
  have hmp := φ.maxFin_pos
  have hsubmax : (2 : ℚ) ^ (φ.var.range.emin + φ.p - 2) ≤ φ.maxFin := pow_le_maxFin φ (by rw [var_emin]; omega)
  unfold Fmt.round
  simp only [hv]
  by_cases hov : (2 : ℚ) ^ φ.emax ≤ |v|
  · have hgt := hmax.mpr hov
    rw [check_over hlow1 (by rw [var_emax]; exact hov)]
    by_cases hneg : v < 0
    · rw [abs_of_neg hneg] at hgt
      rw [if_pos hneg, if_neg (show ¬ φ.maxFin < v by linarith), if_pos (show v < -φ.maxFin by linarith)]
      cases m
      · rfl
      · rw [if_pos rfl, subn_big]
        · rfl
        · rw [abs_neg, abs_of_pos (show (0 : ℚ) < (2 ^ φ.p - 1) * 2 ^ (φ.var.range.emax - φ.p) from hmp)]
          exact hsubmax
      · rfl
    · rw [abs_of_nonneg (not_lt.mp hneg)] at hgt
      rw [if_neg hneg, if_pos hgt]
      cases m
      · rw [if_pos rfl, subn_big]
        · rfl
        · rw [abs_of_pos (show (0 : ℚ) < (2 ^ φ.p - 1) * 2 ^ (φ.var.range.emax - φ.p) from hmp)]
          exact hsubmax
      · rfl
      · rfl
  · have hle : |v| ≤ φ.maxFin := by
      by_contra hc
      exact hov (hmax.mp (not_le.mp hc))
    rw [abs_le] at hle
    rw [check_mid hlow1 (by rw [var_emax]; exact not_le.mp hov), subn_big hsub, if_neg (not_lt.mpr hle.2), if_neg (not_lt.mpr hle.1), if_neg hne]

/-- In the subnormal range, `mpfr_subnormalize` undoes the double rounding. -/
theorem subRound_sub (φ : Fmt) (m : Rnd) {x : K} (h : Int.log 2 |x| - φ.p + 1 < φ.qmin) :
    subRound m (mpfrUnb φ.p m x / 2 ^ φ.qmin) (ternary (mpfrUnb φ.p m x) x) = roundInt m (x / (2 : K) ^ φ.qmin) := by
  obtain ⟨s, hs⟩ : ∃ s : ℕ, φ.qmin = Int.log 2 |x| - φ.p + 1 + (s + 1 : ℕ) := ⟨(φ.qmin - (Int.log 2 |x| - φ.p + 1) - 1).toNat, by push_cast; omega⟩
  rw [mpfrUnb_eq, hs]
  set e := Int.log 2 |x| - φ.p + 1
  have hq : (0 : ℚ) < (2 : ℚ) ^ e := zpow_pos (by norm_num) _
  have hk : (0 : K) < (2 : K) ^ e := zpow_pos (by norm_num) _
  have hx : x = (x / (2 : K) ^ e) * (((2 : ℚ) ^ e : ℚ) : K) := by
    push_cast
    rw [div_mul_cancel₀ _ (ne_of_gt hk)]
  have ht : ternary ((roundInt m (x / (2 : K) ^ e) : ℚ) * (2 : ℚ) ^ e) x =
      (if (roundInt m (x / (2 : K) ^ e) : K) < x / (2 : K) ^ e then -1 else if x / (2 : K) ^ e < (roundInt m (x / (2 : K) ^ e) : K) then 1 else 0) := by
    conv_lhs => rw [hx]
    rw [ternary_int _ _ _ hq]
    push_cast
    rw [div_mul_cancel₀ _ (ne_of_gt hk)]
  rw [ht]
  clear_value e
  have hd := subRound_double m (x / (2 : K) ^ e) (2 ^ s) Nat.one_le_two_pow
  have e1 : ((roundInt m (x / (2 : K) ^ e) : ℚ) * (2 : ℚ) ^ e) / (2 : ℚ) ^ (e + (s + 1 : ℕ)) = (roundInt m (x / (2 : K) ^ e) : ℚ) / ((2 * 2 ^ s : ℕ) : ℚ) := by
    rw [zpow_add₀ (by norm_num), zpow_natCast]
    push_cast
    field_simp
    ring
  have e2 : x / (2 : K) ^ (e + (s + 1 : ℕ)) = x / (2 : K) ^ e / ((2 * 2 ^ s : ℕ) : K) := by
    rw [zpow_add₀ (by norm_num), zpow_natCast]
    push_cast
    field_simp
    ring
  rw [e1, e2]
  exact hd

/-- The values between −1 and 1, except 0, that round to 0. -/
def toZero (m : Rnd) (w : K) : Prop :=
  match m with
  | .D => 0 < w
  | .U => w < 0
  | .N => |w| ≤ 1 / 2

open Classical in
theorem roundInt_ne_zero_lt (m : Rnd) {w : K} (h0 : w ≠ 0) (h1 : |w| < 1) :
    roundInt m w = if toZero m w then 0 else if w < 0 then -1 else 1 := by
  rw [abs_lt] at h1
  rcases lt_or_gt_of_ne h0 with h | h
  · have hf : ⌊w⌋ = -1 := Int.floor_eq_iff.mpr ⟨by push_cast; exact h1.1.le, by push_cast; linarith⟩
    have hc : ⌈w⌉ = 0 := Int.ceil_eq_iff.mpr ⟨by push_cast; linarith, by push_cast; linarith⟩
    cases m
    · simp only [roundInt, hf, toZero, if_neg (not_lt.mpr h.le), if_pos h]
    · simp only [roundInt, hc, toZero, if_pos h]
    · simp only [toZero, abs_of_neg h, if_pos h]
      by_cases h5 : -w ≤ 1 / 2
      · rw [if_pos h5]
        simp only [roundInt, hf]
        push_cast
        split_ifs with h2 h3 h4
        · linarith
        · norm_num
        · norm_num
      · rw [if_neg h5]
        exact roundInt_N_eq (by push_cast; linarith) (by push_cast; push Not at h5; linarith)
  · have hf : ⌊w⌋ = 0 := Int.floor_eq_iff.mpr ⟨by push_cast; exact h.le, by push_cast; linarith⟩
    have hc : ⌈w⌉ = 1 := Int.ceil_eq_iff.mpr ⟨by push_cast; linarith, by push_cast; linarith⟩
    cases m
    · rw [if_pos (show toZero .D w from h)]; exact hf
    · simp only [roundInt, hc, toZero, if_neg (not_lt.mpr h.le)]
    · simp only [toZero, abs_of_pos h, if_neg (not_lt.mpr h.le)]
      by_cases h5 : w ≤ 1 / 2
      · rw [if_pos h5]
        simp only [roundInt, hf]
        push_cast
        split_ifs with h2 h3 h4
        · rfl
        · linarith
        · rfl
      · rw [if_neg h5]
        exact roundInt_N_eq (by push_cast; push Not at h5; linarith) (by push_cast; linarith)

/-- Which non-zero values round to zero to nearest, decided after the first rounding. -/
theorem half_iff {P : ℕ} (hP : 1 ≤ P) {x : K} (hx : x ≠ 0) (k : ℤ) :
    (|mpfrUnb P .N x| < 2 ^ k ∨ |mpfrUnb P .N x| = 2 ^ k ∧
      (if mpfrUnb P .N x < 0 then ternary (mpfrUnb P .N x) x ≤ 0 else 0 ≤ ternary (mpfrUnb P .N x) x)) ↔ |x| ≤ (2 : K) ^ k := by
  obtain ⟨hs, hne, h1, h2⟩ := unb_bounds hP .N hx
  have hax : 0 < |x| := abs_pos.mpr hx
  have hl1 : (2 : K) ^ Int.log 2 |x| ≤ |x| := by exact_mod_cast Int.zpow_log_le_self (b := 2) (by norm_num) hax
  have hl2 : |x| < (2 : K) ^ (Int.log 2 |x| + 1) := by exact_mod_cast Int.lt_zpow_succ_log_self (b := 2) (by norm_num) |x|
  set v := mpfrUnb P .N x
  set L := Int.log 2 |x|
  have htern : |v| = 2 ^ k → ((if v < 0 then ternary v x ≤ 0 else 0 ≤ ternary v x) ↔ |x| ≤ (2 : K) ^ k) := by
    intro hv
    have hvK : ((|v| : ℚ) : K) = (2 : K) ^ k := by rw [hv]; push_cast; rfl
    by_cases hneg : v < 0
    · have hxneg : x < 0 := by
        rcases lt_or_gt_of_ne hx with h | h
        · exact h
        · exact absurd (hs.mpr h) (not_lt.mpr hneg.le)
      rw [abs_of_neg hneg] at hvK
      rw [if_pos hneg, abs_of_neg hxneg, ← hvK]
      push_cast
      unfold ternary
      split_ifs with h3 h4
      · simp; linarith
      · simp; linarith
      · simp; linarith
    · have hvpos : 0 < v := lt_of_le_of_ne (not_lt.mp hneg) (Ne.symm hne)
      have hxpos := hs.mp hvpos
      rw [abs_of_pos hvpos] at hvK
      rw [if_neg hneg, abs_of_pos hxpos, ← hvK]
      unfold ternary
      split_ifs with h3 h4
      · simp; linarith
      · simp; linarith
      · simp; linarith
  constructor
  · rintro (h | ⟨h, h'⟩)
    · have hL : L < k := (zpow_lt_zpow_iff_right₀ (by norm_num : (1:ℚ) < 2)).mp (lt_of_le_of_lt h1 h)
      exact hl2.le.trans (zpow_le_zpow_right₀ (by norm_num) (by omega))
    · exact (htern h).mp h'
  · intro h
    rcases lt_trichotomy |v| (2 ^ k) with h3 | h3 | h3
    · exact Or.inl h3
    · exact Or.inr ⟨h3, (htern h3).mpr h⟩
    · exfalso
      have hL : k ≤ L := by
        have : k < L + 1 := (zpow_lt_zpow_iff_right₀ (by norm_num : (1:ℚ) < 2)).mp (lt_of_lt_of_le h3 h2)
        omega
      have hxk : |x| = (2 : K) ^ k := le_antisymm h ((zpow_le_zpow_right₀ (by norm_num) hL).trans hl1)
      have hLk : L = k := by
        apply le_antisymm _ hL
        have : (2 : K) ^ L ≤ (2 : K) ^ k := hl1.trans h
        exact (zpow_le_zpow_iff_right₀ (by norm_num : (1:K) < 2)).mp this
      -- a power of two is rounded to itself
      have hvx : |v| = 2 ^ k := by
        have hP' : (2 : K) ^ k / (2 : K) ^ (k - P + 1) = ((2 ^ (P - 1) : ℤ) : K) := by
          rw [← zpow_sub₀ (by norm_num)]
          push_cast
          rw [← zpow_natCast]
          congr 1
          push_cast [hP]
          ring
        have e1 : (2 : ℚ) ^ (P - 1) * (2 : ℚ) ^ (k - P + 1) = (2 : ℚ) ^ k := by
          rw [← zpow_natCast, ← zpow_add₀ (by norm_num)]
          congr 1
          push_cast [hP]
          ring
        show |mpfrUnb P .N x| = _
        rw [mpfrUnb_eq]
        change |((roundInt .N (x / (2 : K) ^ (L - P + 1)) : ℤ) : ℚ) * (2 : ℚ) ^ (L - P + 1)| = _
        rw [hLk, abs_mul, abs_of_pos (zpow_pos (by norm_num : (0:ℚ) < 2) (k - P + 1))]
        rcases abs_eq_abs.mp (hxk.trans (abs_of_pos (zpow_pos (by norm_num : (0:K) < 2) k)).symm) with h5 | h5
        · rw [h5, hP', le_antisymm (roundInt_le' _ (le_refl _)) (le_roundInt' _ (le_refl _))]
          push_cast
          rw [abs_of_pos (by positivity), e1]
        · have : x / (2 : K) ^ (k - P + 1) = ((-2 ^ (P - 1) : ℤ) : K) := by
            rw [h5, neg_div, hP']; push_cast; ring
          rw [this, le_antisymm (roundInt_le' _ (le_refl _)) (le_roundInt' _ (le_refl _))]
          push_cast
          rw [abs_neg, abs_of_pos (by positivity), e1]
      exact absurd hvx (ne_of_gt h3)

open Classical in
theorem finish_sub (φ : Fmt) (m : Rnd) {x : K} (hx : x ≠ 0) (h : Int.log 2 |x| - φ.p + 1 < φ.qmin) :
    (φ.var.range.subnormalize φ.p m (φ.var.range.check φ.p m (.fin (mpfrUnb φ.p m x), ternary (mpfrUnb φ.p m x) x))).1 = φ.round m x := by
  have hp8 := φ.p_pos
  have hP : 1 ≤ φ.p := by omega
  have hrange := φ.range
  have hhalf := half_iff hP hx
  obtain ⟨hs, hne, h1, h2⟩ := unb_bounds hP m hx
  have hsr := subRound_sub φ m h
  have hax : 0 < |x| := abs_pos.mpr hx
  have hl2 : |x| < (2 : K) ^ (Int.log 2 |x| + 1) := by exact_mod_cast Int.lt_zpow_succ_log_self (b := 2) (by norm_num) |x|
  have hv : φ.roundQ m x = (roundInt m (x / (2 : K) ^ φ.qmin) : ℤ) * (2 : ℚ) ^ φ.qmin := by
    have : φ.expo x = φ.qmin := max_eq_right h.le
    unfold Fmt.roundQ
    rw [this]
  have hkq : (0 : K) < (2 : K) ^ φ.qmin := zpow_pos (by norm_num) _
  have hqq : (0 : ℚ) < (2 : ℚ) ^ φ.qmin := zpow_pos (by norm_num) _
  -- no overflow
  have hle : |φ.roundQ m x| ≤ φ.maxFin := by
    refine le_trans ?_ (pow_le_maxFin φ (k := φ.qmin + φ.p - 1) (by omega))
    have hxb : |x| ≤ ((2 ^ (φ.p - 1) : ℤ) : K) * (2 : K) ^ φ.qmin := by
      refine hl2.le.trans ?_
      push_cast
      rw [← zpow_natCast, ← zpow_add₀ (by norm_num)]
      exact zpow_le_zpow_right₀ (by norm_num) (by push_cast [hP]; omega)
    rw [abs_le] at hxb
    have hn : |roundInt m (x / (2 : K) ^ φ.qmin)| ≤ 2 ^ (φ.p - 1) := by
      rw [abs_le]
      constructor
      · apply le_roundInt'
        rw [le_div_iff₀ hkq]
        push_cast at hxb ⊢
        linarith [hxb.1]
      · apply roundInt_le'
        rw [div_le_iff₀ hkq]
        exact hxb.2
    rw [hv, abs_mul, abs_of_pos hqq]
    have e1 : (2 : ℚ) ^ (φ.qmin + φ.p - 1) = ((2 ^ (φ.p - 1) : ℤ) : ℚ) * (2 : ℚ) ^ φ.qmin := by
      push_cast
      rw [← zpow_natCast, ← zpow_add₀ (by norm_num)]
      congr 1
      push_cast [hP]
      ring
    rw [e1, ← Int.cast_abs]
    exact mul_le_mul_of_nonneg_right (by exact_mod_cast hn) hqq.le
  have hle' := abs_le.mp hle
  have hround : φ.round m x = if φ.roundQ m x = 0 then FP.mkZero (decide (x < 0)) else .fin (φ.roundQ m x) := by
    unfold Fmt.round
    simp only
    rw [if_neg (not_lt.mpr hle'.2), if_neg (not_lt.mpr hle'.1)]
  rw [hround]
  have hemin : φ.var.range.emin - 1 = φ.qmin := by rw [var_emin]; ring
  have hvlt : |mpfrUnb φ.p m x| < 2 ^ φ.emax :=
    lt_of_le_of_lt h2 ((zpow_lt_zpow_iff_right₀ (by norm_num : (1:ℚ) < 2)).mpr (by omega))
  have hnegiff : mpfrUnb φ.p m x < 0 ↔ x < 0 := by
    constructor
    · intro h'
      rcases lt_or_gt_of_ne hx with h'' | h''
      · exact h''
      · exact absurd (hs.mpr h'') (not_lt.mpr h'.le)
    · intro h'
      rcases lt_or_gt_of_ne hne with h'' | h''
      · exact h''
      · exact absurd (hs.mp h'') (not_lt.mpr h'.le)
  have hne' : mpfrUnb φ.p m x ≠ 0 := hne
  by_cases hu : |mpfrUnb φ.p m x| < 2 ^ φ.qmin
  · -- underflow
    have hL : Int.log 2 |x| < φ.qmin := (zpow_lt_zpow_iff_right₀ (by norm_num : (1:ℚ) < 2)).mp (lt_of_le_of_lt h1 hu)
    have hw1 : |x / (2 : K) ^ φ.qmin| < 1 := by
      rw [abs_div, abs_of_pos hkq, div_lt_one hkq]
      exact hl2.trans_le (zpow_le_zpow_right₀ (by norm_num) (by omega))
    have hw0 : x / (2 : K) ^ φ.qmin ≠ 0 := div_ne_zero hx (ne_of_gt hkq)
    have hri := roundInt_ne_zero_lt m hw0 hw1
    have hwneg : x / (2 : K) ^ φ.qmin < 0 ↔ x < 0 := by rw [div_lt_iff₀ hkq, zero_mul]
    have hwpos : 0 < x / (2 : K) ^ φ.qmin ↔ 0 < x := by rw [lt_div_iff₀ hkq, zero_mul]
    have hz : φ.var.range.flush m (mpfrUnb φ.p m x) (ternary (mpfrUnb φ.p m x) x) = true
        ↔ roundInt m (x / (2 : K) ^ φ.qmin) = 0 := by
      have h10 : ∀ c : Prop, ∀ [Decidable c], ((if c then (0:ℤ) else if x / (2 : K) ^ φ.qmin < 0 then -1 else 1) = 0 ↔ c) := by
        intro c _
        split_ifs <;> simp_all
      rw [hri, h10]
      cases m with
      | D => simp only [Range.flush, decide_eq_true_eq, toZero]; rw [hs, hwpos]
      | U => simp only [Range.flush, decide_eq_true_eq, toZero]; rw [hnegiff, hwneg]
      | N =>
        simp only [Range.flush, decide_eq_true_eq, toZero]
        rw [hhalf, abs_div, abs_of_pos hkq, div_le_iff₀ hkq]
        have : (2 : K) ^ (φ.var.range.emin - 2) = 1 / 2 * (2 : K) ^ φ.qmin := by
          rw [show φ.var.range.emin - 2 = -1 + φ.qmin by rw [var_emin]; ring, zpow_add₀ (by norm_num)]
          norm_num
        rw [this]
    unfold Range.check
    simp only
    rw [if_neg hne, if_pos (by rw [hemin]; exact hu)]
    by_cases hz0 : roundInt m (x / (2 : K) ^ φ.qmin) = 0
    · rw [if_pos (hz.mpr hz0)]
      rw [if_pos (show φ.roundQ m x = 0 by rw [hv, hz0]; simp)]
      have hd : decide (mpfrUnb φ.p m x < 0) = decide (x < 0) := decide_eq_decide.mpr hnegiff
      rw [hd]
      unfold Range.subnormalize
      cases decide (x < 0) <;> simp [FP.mkZero]
    · rw [if_neg (fun h' => hz0 (hz.mp h'))]
      have hvne : φ.roundQ m x ≠ 0 := by
        rw [hv]
        exact mul_ne_zero (by exact_mod_cast hz0) (ne_of_gt hqq)
      rw [if_neg hvne]
      have hsmall : (2 : ℚ) ^ φ.qmin < 2 ^ (φ.var.range.emin + φ.p - 2) := by
        rw [var_emin]
        exact (zpow_lt_zpow_iff_right₀ (by norm_num : (1:ℚ) < 2)).mpr (by omega)
      have hval : roundInt m (x / (2 : K) ^ φ.qmin) = if x < 0 then -1 else 1 := by
        rw [hri] at hz0 ⊢
        by_cases hx' : x < 0
        · rw [if_pos hx']
          rw [if_pos (hwneg.mpr hx')] at hz0 ⊢
          split_ifs at hz0 ⊢ <;> simp_all
        · rw [if_neg hx']
          rw [if_neg (fun h' => hx' (hwneg.mp h'))] at hz0 ⊢
          split_ifs at hz0 ⊢ <;> simp_all
      by_cases hneg : mpfrUnb φ.p m x < 0
      · rw [if_pos hneg, hemin, subn_small (by exact neg_ne_zero.mpr (ne_of_gt hqq)) (by rw [abs_neg, abs_of_pos hqq]; exact hsmall), hemin, hv, hval,
          if_pos (hnegiff.mp hneg)]
        rw [show (-(2:ℚ) ^ φ.qmin) / 2 ^ φ.qmin = ((-1 : ℤ) : ℚ) by rw [neg_div, div_self (ne_of_gt hqq)]; norm_num, subRound_int]
      · rw [if_neg hneg, hemin, subn_small (ne_of_gt hqq) (by rw [abs_of_pos hqq]; exact hsmall), hemin, hv, hval,
          if_neg (fun h' => hneg (hnegiff.mpr h'))]
        rw [show ((2:ℚ) ^ φ.qmin) / 2 ^ φ.qmin = ((1 : ℤ) : ℚ) by rw [div_self (ne_of_gt hqq)]; norm_num, subRound_int]
  · -- no underflow
    rw [not_lt] at hu
    rw [check_mid (by rw [hemin]; exact hu) (by rw [var_emax]; exact hvlt)]
    have hz1 : 1 ≤ |mpfrUnb φ.p m x / 2 ^ φ.qmin| := by
      rw [abs_div, abs_of_pos hqq, le_div_iff₀ hqq, one_mul]
      exact hu
    have hnz := subRound_ne_zero m (ternary (mpfrUnb φ.p m x) x) hz1
    rw [hsr] at hnz
    have hvne : φ.roundQ m x ≠ 0 := by
      rw [hv]
      exact mul_ne_zero (by exact_mod_cast hnz) (ne_of_gt hqq)
    rw [if_neg hvne]
    by_cases hb : (2 : ℚ) ^ (φ.var.range.emin + φ.p - 2) ≤ |mpfrUnb φ.p m x|
    · rw [subn_big hb]
      -- the value is a power of two, the least normal number
      have hpow : |mpfrUnb φ.p m x| = 2 ^ (φ.qmin + φ.p - 1) := by
        rw [var_emin, show φ.qmin + 1 + φ.p - 2 = φ.qmin + φ.p - 1 by ring] at hb
        exact le_antisymm (h2.trans (zpow_le_zpow_right₀ (by norm_num) (by omega))) hb
      have e1 : (2 : ℚ) ^ (φ.qmin + φ.p - 1) = ((2 ^ (φ.p - 1) : ℤ) : ℚ) * (2 : ℚ) ^ φ.qmin := by
        push_cast
        rw [← zpow_natCast, ← zpow_add₀ (by norm_num)]
        congr 1
        push_cast [hP]
        ring
      obtain ⟨k, hk⟩ : ∃ k : ℤ, mpfrUnb φ.p m x = (k : ℚ) * 2 ^ φ.qmin := by
        rcases (abs_eq (zpow_nonneg (by norm_num) _)).mp hpow with h' | h'
        · exact ⟨_, h'.trans e1⟩
        · exact ⟨-2 ^ (φ.p - 1), by rw [h', e1]; push_cast; ring⟩
      rw [hv, ← hsr]
      congr 1
      have : mpfrUnb φ.p m x / 2 ^ φ.qmin = (k : ℚ) := by rw [hk, mul_div_assoc, div_self (ne_of_gt hqq), mul_one]
      rw [this, subRound_int, hk]
    · rw [subn_small hne (not_le.mp hb), hemin, hsr, hv]

/-- The composition of an operation of MPFR and `subnormalize` rounds the exact value once. -/
theorem finish (φ : Fmt) (m : Rnd) {x : K} (hx : x ≠ 0) :
    (φ.var.range.subnormalize φ.p m (φ.var.range.check φ.p m (.fin (mpfrUnb φ.p m x), ternary (mpfrUnb φ.p m x) x))).1 = φ.round m x := by
  rcases le_or_gt φ.qmin (Int.log 2 |x| - φ.p + 1) with h | h
  · exact finish_normal φ m hx h
  · exact finish_sub φ m hx h

end

theorem get_of_in (φ : Fmt) (m : Rnd) {y : FP} (h : y.In φ) : φ.get m y = y := by
  cases y with
  | fin q =>
    have hr : φ.roundQ m q = q := by rw [← φ.roundQ_cast, φ.roundQ_rep h]
    have hb := abs_le.mp (Fmt.Rep.abs_le h)
    show φ.round m q = _
    unfold Fmt.round
    simp only [hr]
    rw [if_neg (not_lt.mpr hb.2), if_neg (not_lt.mpr hb.1)]
    split_ifs with h0
    · rw [h0]; rfl
    · rfl
  | _ => rfl

/-! ## The midpoint -/

/-- A number that fits the precision is not changed. -/
theorem unb_exact {P : ℕ} (hP : 1 ≤ P) (m : Rnd) {x : ℚ} {n e : ℤ} (hx : x = n * 2 ^ e) (hn : |n| < 2 ^ P) (h0 : x ≠ 0) : mpfrUnb P m x = x := by
  have hax : 0 < |x| := abs_pos.mpr h0
  have he : (0 : ℚ) < 2 ^ e := zpow_pos (by norm_num) _
  have h1 : (2 : ℚ) ^ Int.log 2 |x| ≤ |x| := by exact_mod_cast Int.zpow_log_le_self (b := 2) (by norm_num) hax
  have h2 : |x| < 2 ^ ((P : ℤ) + e) := by
    rw [hx, abs_mul, abs_of_pos he, zpow_add₀ (by norm_num), zpow_natCast]
    refine mul_lt_mul_of_pos_right ?_ he
    rw [← Int.cast_abs]
    exact_mod_cast hn
  have hL : Int.log 2 |x| < P + e := (zpow_lt_zpow_iff_right₀ (by norm_num : (1:ℚ) < 2)).mp (lt_of_le_of_lt h1 h2)
  obtain ⟨s, hs⟩ : ∃ s : ℕ, e = Int.log 2 |x| - P + 1 + (s : ℤ) := ⟨(e - (Int.log 2 |x| - P + 1)).toNat, by omega⟩
  rw [mpfrUnb_eq]
  set c := Int.log 2 |x| - P + 1
  have hc : (0 : ℚ) < 2 ^ c := zpow_pos (by norm_num) _
  have hd : x / 2 ^ c = ((n * 2 ^ s : ℤ) : ℚ) := by
    rw [hx, hs, zpow_add₀ (by norm_num), zpow_natCast]
    push_cast
    field_simp
  rw [hd, le_antisymm (roundInt_le' m (le_refl _)) (le_roundInt' m (le_refl _)), ← hd, div_mul_cancel₀ _ (ne_of_gt hc)]

theorem pow_le_of_mult {s : ℚ} {k e : ℤ} (h : s = k * 2 ^ e) (h0 : s ≠ 0) : (2 : ℚ) ^ e ≤ |s| := by
  have he : (0 : ℚ) < 2 ^ e := zpow_pos (by norm_num) _
  have hk : k ≠ 0 := by rintro rfl; simp at h; exact h0 h
  have : (1 : ℚ) ≤ |(k : ℚ)| := by rw [← Int.cast_abs]; exact_mod_cast Int.one_le_abs hk
  rw [h, abs_mul, abs_of_pos he]
  nlinarith

theorem ext_emin (φ : Fmt) : φ.extVar.range.emin = φ.qmin := by
  show φ.var.range.emin - 1 = _
  rw [var_emin]; ring

/-- Halving is exact in the extended range. -/
theorem half_exact (φ : Fmt) {a : ℚ} (h : φ.Rep a) : φ.extVar.range.half φ.p a = .fin (a / 2) := by
  have hP : 1 ≤ φ.p := by have := φ.p_pos; omega
  unfold Range.half
  by_cases h0 : a = 0
  · rw [if_pos h0, h0]; simp
  · rw [if_neg h0]
    have h20 : a / 2 ≠ 0 := div_ne_zero h0 (by norm_num)
    have hb := Fmt.Rep.abs_le h
    obtain ⟨k, hk⟩ := φ.rep_mult h
    obtain ⟨n, e, hn, hn2, -, -⟩ := h
    have hu : mpfrUnb φ.p .N (a / 2) = a / 2 := by
      refine unb_exact hP .N (n := n) (e := e - 1) ?_ hn2 h20
      rw [hn, zpow_sub_one₀ (by norm_num)]
      ring
    unfold Range.op
    rw [hu, check_mid]
    · rw [ext_emin]
      refine pow_le_of_mult (k := k) ?_ h20
      rw [hk, zpow_sub_one₀ (by norm_num)]
      ring
    · have h1 : |a / 2| ≤ |a| := by
        rw [abs_div, abs_of_pos (by norm_num : (0:ℚ) < 2)]
        linarith [abs_nonneg a]
      have h2 : φ.maxFin < 2 ^ φ.emax := by
        rw [maxFin_eq]
        have : (0 : ℚ) < 2 ^ (φ.emax - φ.p) := zpow_pos (by norm_num) _
        linarith
      exact lt_of_le_of_lt (h1.trans hb) h2

theorem Fmt.maxFin_lt_pow' (φ : Fmt) : φ.maxFin < 2 ^ φ.emax := by
  rw [maxFin_eq]
  have : (0 : ℚ) < 2 ^ (φ.emax - φ.p) := zpow_pos (by norm_num) _
  linarith

/-- The sum of the halves, brought into the range of the result type. -/
theorem mid_core (φ ψ : Fmt) {s : ℚ} (h0 : s ≠ 0) {k : ℤ} (hk : s = k * 2 ^ (ψ.qmin - 1)) (hs : |s| ≤ ψ.maxFin)
    (hT : φ.emax ≤ ψ.emax ∨ ψ.p ≤ φ.p) :
    φ.var.range.check φ.p .N (ψ.extVar.range.op φ.p .N s) =
      φ.var.range.check φ.p .N (.fin (mpfrUnb φ.p .N s), ternary (mpfrUnb φ.p .N s) s) := by
  have hP : 1 ≤ φ.p := by have := φ.p_pos; omega
  obtain ⟨hsg, hne, h1, h2⟩ := unb_bounds hP .N h0
  have hax : 0 < |s| := abs_pos.mpr h0
  have hL : ψ.qmin - 1 ≤ Int.log 2 |s| := by
    have h3 := pow_le_of_mult hk h0
    have h4 : |s| < (2 : ℚ) ^ (Int.log 2 |s| + 1) := by exact_mod_cast Int.lt_zpow_succ_log_self (b := 2) (by norm_num) |s|
    have := (zpow_lt_zpow_iff_right₀ (by norm_num : (1:ℚ) < 2)).mp (lt_of_le_of_lt h3 h4)
    omega
  have hlow : (2 : ℚ) ^ (ψ.extVar.range.emin - 1) ≤ |mpfrUnb φ.p .N s| := by
    rw [ext_emin]
    exact (zpow_le_zpow_right₀ (by norm_num) hL).trans h1
  unfold Range.op
  by_cases hov : (2 : ℚ) ^ ψ.emax ≤ |mpfrUnb φ.p .N s|
  · have hemax : φ.emax ≤ ψ.emax := by
      rcases hT with h | h
      · exact h
      · exfalso
        -- the largest number of the operand type fits the precision, so the sum cannot be rounded beyond it
        have hL2 : Int.log 2 |s| < ψ.emax := by
          have h3 : (2 : ℚ) ^ Int.log 2 |s| ≤ |s| := by exact_mod_cast Int.zpow_log_le_self (b := 2) (by norm_num) hax
          exact (zpow_lt_zpow_iff_right₀ (by norm_num : (1:ℚ) < 2)).mp (lt_of_le_of_lt (h3.trans hs) ψ.maxFin_lt_pow')
        have hmm : |mpfrUnb φ.p .N s| ≤ ψ.maxFin := by
          obtain ⟨d, hd⟩ : ∃ d : ℕ, ψ.emax - ψ.p = Int.log 2 |s| - φ.p + 1 + (d : ℤ) :=
            ⟨(ψ.emax - ψ.p - (Int.log 2 |s| - φ.p + 1)).toNat, by omega⟩
          rw [mpfrUnb_eq]
          set c := Int.log 2 |s| - φ.p + 1
          have hc : (0 : ℚ) < 2 ^ c := zpow_pos (by norm_num) _
          have hM : ψ.maxFin = (((2 ^ ψ.p - 1) * 2 ^ d : ℤ) : ℚ) * 2 ^ c := by
            unfold Fmt.maxFin
            rw [hd, zpow_add₀ (by norm_num), zpow_natCast]
            push_cast
            ring
          rw [hM] at hs ⊢
          have hs' := abs_le.mp hs
          rw [abs_mul, abs_of_pos hc, ← Int.cast_abs]
          refine mul_le_mul_of_nonneg_right ?_ hc.le
          have : |roundInt .N (s / 2 ^ c)| ≤ (2 ^ ψ.p - 1) * 2 ^ d := by
            rw [abs_le]
            constructor
            · apply le_roundInt'
              rw [le_div_iff₀ hc, Int.cast_neg]
              linarith [hs'.1]
            · apply roundInt_le'
              rw [div_le_iff₀ hc]
              exact hs'.2
          exact_mod_cast this
        exact absurd (lt_of_le_of_lt (hov.trans hmm) ψ.maxFin_lt_pow') (lt_irrefl _)
    have hov' : (2 : ℚ) ^ φ.var.range.emax ≤ |mpfrUnb φ.p .N s| := (zpow_le_zpow_right₀ (by norm_num) hemax).trans hov
    have hlow' : (2 : ℚ) ^ (φ.var.range.emin - 1) ≤ |mpfrUnb φ.p .N s| := by
      refine le_trans (zpow_le_zpow_right₀ (by norm_num) ?_) hov'
      rw [var_emin, var_emax]
      have := φ.range
      have := φ.p_pos
      omega
    rw [check_over hlow (show (2 : ℚ) ^ ψ.extVar.range.emax ≤ _ from hov), check_over hlow' hov']
    split_ifs <;> first | rfl | contradiction
  · rw [check_mid (t := ternary (mpfrUnb φ.p .N s) s) hlow (show _ < (2 : ℚ) ^ ψ.extVar.range.emax from not_le.mp hov)]

/-- Without `mpfr_subnormalize`, a midpoint is correctly rounded all the same: in the subnormal range the sum of the halves is exact. -/
theorem mid_nosub (φ : Fmt) {s : ℚ} (h0 : s ≠ 0) {k : ℤ} (hk : s = k * 2 ^ (φ.qmin - 1)) :
    φ.get .N (φ.var.range.check φ.p .N (.fin (mpfrUnb φ.p .N s), ternary (mpfrUnb φ.p .N s) s)).1 = φ.round .N s := by
  have hp8 := φ.p_pos
  have hP : 1 ≤ φ.p := by omega
  have hin : (φ.round .N s).In φ := by rw [← φ.round_cast]; exact φ.round_in .N _
  have hfin := finish φ .N h0
  obtain ⟨hsg, hne, h1, h2⟩ := unb_bounds hP .N h0
  by_cases hbig : (2 : ℚ) ^ (φ.qmin + φ.p - 1) ≤ |mpfrUnb φ.p .N s|
  · have key : φ.var.range.subnormalize φ.p .N (φ.var.range.check φ.p .N (.fin (mpfrUnb φ.p .N s), ternary (mpfrUnb φ.p .N s) s)) =
        φ.var.range.check φ.p .N (.fin (mpfrUnb φ.p .N s), ternary (mpfrUnb φ.p .N s) s) := by
      have hlow' : (2 : ℚ) ^ (φ.var.range.emin - 1) ≤ |mpfrUnb φ.p .N s| :=
        (zpow_le_zpow_right₀ (by norm_num) (by rw [var_emin]; omega)).trans hbig
      by_cases hov : (2 : ℚ) ^ φ.var.range.emax ≤ |mpfrUnb φ.p .N s|
      · rw [check_over hlow' hov]
        split_ifs <;> first | rfl | contradiction
      · rw [check_mid hlow' (not_le.mp hov), subn_big]
        rw [var_emin, show φ.qmin + 1 + φ.p - 2 = φ.qmin + φ.p - 1 by ring]
        exact hbig
    rw [key] at hfin
    rw [hfin]
    exact get_of_in φ .N hin
  · rw [not_le] at hbig
    have hL : Int.log 2 |s| < φ.qmin + φ.p - 1 := (zpow_lt_zpow_iff_right₀ (by norm_num : (1:ℚ) < 2)).mp (lt_of_le_of_lt h1 hbig)
    have h4 : |s| < (2 : ℚ) ^ (Int.log 2 |s| + 1) := by exact_mod_cast Int.lt_zpow_succ_log_self (b := 2) (by norm_num) |s|
    have hsb : |s| < (2 : ℚ) ^ ((φ.p : ℤ) + (φ.qmin - 1)) := lt_of_lt_of_le h4 (zpow_le_zpow_right₀ (by norm_num) (by omega))
    have hkb : |k| < 2 ^ φ.p := by
      rw [hk, abs_mul, abs_of_pos (zpow_pos (by norm_num : (0:ℚ) < 2) _), zpow_add₀ (by norm_num), zpow_natCast] at hsb
      have := lt_of_mul_lt_mul_right hsb (zpow_nonneg (by norm_num) _)
      rw [← Int.cast_abs] at this
      exact_mod_cast this
    have hu := unb_exact hP .N hk hkb h0
    have ht : ternary s s = 0 := by
      unfold ternary
      simp
    rw [hu, ht] at hfin ⊢
    have hov : |s| < (2 : ℚ) ^ φ.var.range.emax := by
      rw [hu] at hbig
      refine lt_of_lt_of_le hbig (zpow_le_zpow_right₀ (by norm_num) ?_)
      rw [var_emax]
      have := φ.range
      omega
    by_cases hlow : (2 : ℚ) ^ (φ.var.range.emin - 1) ≤ |s|
    · rw [check_mid hlow hov]
      rfl
    · rw [not_le] at hlow
      have hk1 : |s| = 2 ^ (φ.qmin - 1) := by
        have hpos : (0 : ℚ) < 2 ^ (φ.qmin - 1) := zpow_pos (by norm_num) _
        have hk2 : |k| < 2 := by
          rw [var_emin, show φ.qmin + 1 - 1 = 1 + (φ.qmin - 1) by ring, zpow_add₀ (by norm_num), zpow_one, hk, abs_mul, abs_of_pos hpos] at hlow
          have := lt_of_mul_lt_mul_right hlow hpos.le
          rw [← Int.cast_abs] at this
          exact_mod_cast this
        have hk3 : k ≠ 0 := by rintro rfl; simp at hk; exact h0 hk
        have hk4 : |k| = 1 := by have := Int.one_le_abs hk3; omega
        rw [hk, abs_mul, abs_of_pos hpos, ← Int.cast_abs, hk4]
        simp
      have hfl : φ.var.range.flush .N s 0 = true := by
        simp only [Range.flush, decide_eq_true_eq]
        right
        refine ⟨by rw [hk1, var_emin]; congr 1; ring, ?_⟩
        split_ifs <;> exact le_refl _
      have hc : φ.var.range.check φ.p .N (.fin s, 0) = (FP.mkZero (decide (s < 0)), if s < 0 then 1 else -1) := by
        unfold Range.check
        simp only
        rw [if_neg h0, if_pos hlow, if_pos hfl]
      rw [hc] at hfin ⊢
      rw [← hfin]
      by_cases hneg : s < 0
      · simp [hneg, FP.mkZero, Range.subnormalize, Fmt.get]
      · simp only [hneg, FP.mkZero, Range.subnormalize, decide_false]
        exact get_of_in φ .N φ.rep_zero

end P1788
