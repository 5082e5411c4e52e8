import Verif.Lemmas.RevTrig6
import Verif.Lemmas.RevTrig7
import Verif.Lemmas.Tan

/-! # Every point of a branch box of `sin_rev`, `cos_rev`, `tan_rev` is near a point of the branch -/

namespace P1788
open Real

variable {φ : Fmt} {x : Itv}

theorem rep_below {w : ℝ} (h : |w| ≤ φ.maxFin) : ∃ f : ℚ, φ.Rep f ∧ (f:ℝ) ≤ w ∧ w - (eps φ * |w| + 2 ^ φ.qmin) ≤ f := by
  have hq := two_zpow_posR φ.qmin
  rcases lt_trichotomy w 0 with h0 | h0 | h0
  · rw [abs_of_neg h0] at h ⊢
    have h1 := φ.roundQ_D_le w
    have h2 : -φ.maxFin ≤ φ.roundQ .D w := φ.le_roundQ_D φ.rep_maxFin.neg (by push_cast; linarith)
    have h3 := expo_le_eps (φ := φ) (v := -w) (by linarith)
    rw [φ.expo_neg] at h3
    have h4 : w < φ.roundQ .D w + 2 ^ φ.expo w := by
      unfold Fmt.roundQ
      simp only [roundInt]
      push_cast
      have := Int.lt_floor_add_one (w / 2 ^ φ.expo w)
      rw [div_lt_iff₀ (two_zpow_posR _)] at this
      linarith [add_mul ((⌊w / 2 ^ φ.expo w⌋:ℤ):ℝ) 1 (2 ^ φ.expo w)]
    have h5 : (φ.roundQ .D w : ℝ) < 0 := h1.trans_lt h0
    have h6 : φ.roundQ .D w < 0 := by exact_mod_cast h5
    exact ⟨_, φ.rep_roundQ (by rw [abs_of_neg h6]; linarith), h1, by linarith⟩
  · subst h0
    exact ⟨0, φ.rep_zero, by simp, by simpa using hq.le⟩
  · rw [abs_of_pos h0] at h ⊢
    exact near_below h0 h

/-- `u`, the unit of all error bounds: `eps = 2 u`. -/
noncomputable def uu (φ : Fmt) : ℝ := 2 ^ (-(φ.p:ℤ))

theorem unit_facts (φ : Fmt) : 0 < uu φ ∧ uu φ ≤ 1 / 256 ∧ uu φ * 2 ^ φ.p = 1 ∧ eps φ = 2 * uu φ ∧ φ.thr ≤ uu φ / 2 ∧
    (2:ℝ) ^ φ.qmin ≤ φ.thr := by
  unfold uu
  have hp := φ.p_pos
  have hq := φ.qmin_le
  refine ⟨two_zpow_posR _, ?_, ?_, ?_, ?_, ?_⟩
  · calc (2:ℝ) ^ (-(φ.p:ℤ)) ≤ 2 ^ (-8:ℤ) := zpow_le_zpow_right₀ (by norm_num) (by omega)
      _ = _ := by norm_num
  · rw [zpow_neg, zpow_natCast]; exact inv_mul_cancel₀ (by positivity)
  · unfold eps; rw [sub_eq_add_neg, zpow_add₀ (by norm_num)]; norm_num
  · have : (2:ℝ) ^ (-(φ.p:ℤ)) / 2 = 2 ^ (-(φ.p:ℤ) - 1) := by rw [zpow_sub₀ (by norm_num)]; norm_num
    rw [this]
    exact zpow_le_zpow_right₀ (by norm_num) (by omega)
  · exact zpow_le_zpow_right₀ (by norm_num) (by omega)

theorem thr_lt_big (φ : Fmt) : (φ.thr : ℝ) ≤ φ.maxFin := by
  have := φ.abs_le_maxFin (x := 1) (by norm_num)
  rw [abs_one] at this
  exact φ.thr_le_quarter.trans (by linarith)

/-- `f` is a lower bound for a number whose exact value is `w`, as sharp as the format permits. -/
structure Sharp (φ : Fmt) (w : ℝ) (f : EReal) : Prop where
  big : ∀ B : ℚ, φ.Rep B → (B:ℝ) ≤ w → w = 0 ∨ φ.thr ≤ |w| → ((B:ℝ):EReal) ≤ f
  tiny : |w| < φ.thr → ((-(2 * φ.thr) : ℝ) : EReal) ≤ f

theorem Sharp.near {w s : ℝ} {f : EReal} (h : Sharp φ w f) (hf : f ≤ (s:EReal)) (hs : |s| < 2 ^ φ.p) {u : ℝ} (hu : eps φ = 2 * u) (hu1 : u ≤ 1 / 256)
    (ht : φ.thr ≤ u / 2) (hq : (2:ℝ) ^ φ.qmin ≤ φ.thr) :
    w ≤ s + 202 / 100 * u * (|s| + 1) := by
  have hu0 : 0 < u := by have := eps_pos φ; linarith
  have hth := φ.thr_pos
  have hM : ((2:ℝ) ^ φ.p) ≤ φ.maxFin := by exact_mod_cast φ.four_le_maxFin
  by_contra hc
  push Not at hc
  have hsa := abs_nonneg s
  have hpos : 0 ≤ 202 / 100 * u * (|s| + 1) := by positivity
  by_cases hbig : (φ.maxFin : ℝ) < w
  · have h1 := h.big φ.maxFin φ.rep_maxFin hbig.le (Or.inr ((thr_lt_big φ).trans (hbig.le.trans (le_abs_self w))))
    have h2 := EReal.coe_le_coe_iff.mp (h1.trans hf)
    have := le_abs_self s
    linarith
  push Not at hbig
  have hw : |w| ≤ φ.maxFin := by
    rw [abs_le]; refine ⟨?_, hbig⟩
    have := neg_abs_le s
    linarith
  have hwa : |w| ≤ |s| + (w - s) := by
    have : |w| ≤ |s| + |w - s| := by
      calc |w| = |s + (w - s)| := by ring_nf
        _ ≤ _ := abs_add_le _ _
    rwa [abs_of_nonneg (by linarith : 0 ≤ w - s)] at this
  rcases lt_or_ge (|w|) φ.thr with hty | hty
  · have h2 := EReal.coe_le_coe_iff.mp ((h.tiny hty).trans hf)
    have := le_abs_self w
    have : 202 / 100 * u ≤ 202 / 100 * u * (|s| + 1) := by nlinarith
    linarith
  · obtain ⟨B, hB, hB1, hB2⟩ := rep_below hw
    have h2 := EReal.coe_le_coe_iff.mp ((h.big B hB hB1 (Or.inr hty)).trans hf)
    rw [hu] at hB2
    have h3 : w - s ≤ 2 * u * |w| + u / 2 := by linarith
    have h4 : 2 * u * |w| ≤ 2 * u * (|s| + (w - s)) := by
      apply mul_le_mul_of_nonneg_left hwa; linarith
    nlinarith

/-- Rounding of a tiny number without `mpfr_subnormalize`. -/
theorem roundNS_tiny (m : Rnd) {w : ℝ} (h : |w| < φ.thr) (h0 : w ≠ 0) :
    ∃ v : ℝ, (φ.roundNS m w).toE = (v : EReal) ∧ |v| ≤ 2 * φ.thr ∧ |v - w| ≤ φ.thr := by
  have h2 := two_zpow_posR (φ.expoNS w)
  have hu := φ.expoNS_le (abs_pos.mpr h0)
  have hb := Fmt.roundInt_bounds m (w / (2:ℝ) ^ φ.expoNS w)
  have b1 : (⌊w / (2:ℝ) ^ φ.expoNS w⌋ : ℝ) ≤ (roundInt m (w / (2:ℝ) ^ φ.expoNS w) : ℤ) := by exact_mod_cast hb.1
  have b2 : ((roundInt m (w / (2:ℝ) ^ φ.expoNS w) : ℤ) : ℝ) ≤ (⌈w / (2:ℝ) ^ φ.expoNS w⌉ : ℝ) := by exact_mod_cast hb.2
  have c1 := Int.lt_floor_add_one (w / (2:ℝ) ^ φ.expoNS w)
  have c2 := Int.ceil_lt_add_one (w / (2:ℝ) ^ φ.expoNS w)
  have e0 : w = w / (2:ℝ) ^ φ.expoNS w * (2:ℝ) ^ φ.expoNS w := by field_simp
  have hv : |(((roundInt m (w / (2:ℝ) ^ φ.expoNS w) : ℤ) * (2:ℚ) ^ φ.expoNS w : ℚ) : ℝ) - w| ≤ φ.thr := by
    push_cast
    have : |((roundInt m (w / (2:ℝ) ^ φ.expoNS w) : ℤ) : ℝ) - w / (2:ℝ) ^ φ.expoNS w| ≤ 1 :=
      abs_le.mpr ⟨by linarith, by linarith⟩
    calc _ = |((roundInt m (w / (2:ℝ) ^ φ.expoNS w) : ℤ) : ℝ) - w / (2:ℝ) ^ φ.expoNS w| * (2:ℝ) ^ φ.expoNS w := by
          rw [← abs_of_pos h2, ← abs_mul, abs_of_pos h2, sub_mul, div_mul_cancel₀ _ h2.ne']
      _ ≤ 1 * (2:ℝ) ^ φ.expoNS w := mul_le_mul_of_nonneg_right this h2.le
      _ ≤ _ := by linarith
  have hM : (1:ℝ) ≤ φ.maxFin := by
    have := φ.abs_le_maxFin (x := 1) (by norm_num)
    rwa [abs_one] at this
  have hq := φ.thr_le_quarter
  unfold Fmt.roundNS
  simp only
  generalize ((roundInt m (w / (2:ℝ) ^ φ.expoNS w) : ℤ) * (2:ℚ) ^ φ.expoNS w : ℚ) = v at *
  have hv2 : |(v:ℝ)| ≤ 2 * φ.thr := by
    have : |(v:ℝ)| ≤ |(v:ℝ) - w| + |w| := by
      calc |(v:ℝ)| = |(v - w) + w| := by ring_nf
        _ ≤ _ := abs_add_le _ _
    linarith
  have hv3 := abs_le.mp hv2
  have m1 : ¬ φ.maxFin < v := by
    intro hc
    have : (φ.maxFin:ℝ) < v := by exact_mod_cast hc
    linarith
  have m2 : ¬ v < -φ.maxFin := by
    intro hc
    have : (v:ℝ) < (-φ.maxFin : ℚ) := by exact_mod_cast hc
    push_cast at this
    linarith
  rw [if_neg m1, if_neg m2]
  split_ifs with h3
  · subst h3; exact ⟨0, by simp, by simpa using hv2, by simpa using hv⟩
  · exact ⟨v, by simp, hv2, hv⟩

/-- `mpfr_asin`, .. rounded downwards: at most the spacing of the numbers below the exact value. -/
theorem rndMP_D_near {w u : ℝ} (h : |w| ≤ 4) (hu : eps φ = 2 * u) (ht : φ.thr ≤ u / 2) (hq : (2:ℝ) ^ φ.qmin ≤ φ.thr) :
    w - (2 * u * |w| + u) ≤ ((φ.rndMP .D w).q : ℝ) := by
  have hth := φ.thr_pos
  have hu0 : 0 < u := by linarith
  have hwa := abs_nonneg w
  rcases lt_or_ge |w| φ.thr with h1 | h1
  · by_cases h0 : w = 0
    · subst h0; rw [Fmt.rndMP_zero]; simp [FP.q]; linarith
    obtain ⟨v, hv, hv1, hv2⟩ := roundNS_tiny (φ := φ) .D h1 h0
    have hv3 := abs_le.mp hv2
    have hle : 0 ≤ 2 * u * |w| := by positivity
    unfold Fmt.rndMP
    generalize φ.roundNS .D w = f at *
    cases f with
    | nan => simp [Fmt.underflow, FP.q]; linarith [abs_lt.mp h1]
    | ninf => simp at hv
    | pinf => simp at hv
    | nzero => simp [Fmt.underflow, FP.q]; linarith [abs_lt.mp h1]
    | fin q =>
      have e : (q:ℝ) = v := by simpa using hv
      have hqp := two_zpow_posR φ.qmin
      simp only [Fmt.underflow]
      split_ifs with h4 h5 h6
      · simp at h5
      · simp only [FP.q]
        push_cast
        linarith [abs_lt.mp h1]
      · simp only [FP.q]
        have : (q:ℝ) < 0 := by exact_mod_cast h6.2
        push_cast
        linarith
      · simp only [FP.q]
        linarith
  · rw [φ.rndMP_big _ h1, φ.round_q h]
    obtain ⟨f, hf, hf1, hf2⟩ := rep_below (φ.abs_le_maxFin h)
    have : (f:ℝ) ≤ φ.roundQ .D w := by exact_mod_cast φ.le_roundQ_D hf hf1
    rw [hu] at hf2
    linarith

theorem rndMP_U_near {w u : ℝ} (h : |w| ≤ 4) (hu : eps φ = 2 * u) (ht : φ.thr ≤ u / 2) (hq : (2:ℝ) ^ φ.qmin ≤ φ.thr) :
    ((φ.rndMP .U w).q : ℝ) ≤ w + (2 * u * |w| + u) := by
  have := rndMP_D_near (φ := φ) (w := -w) (by rwa [abs_neg]) hu ht hq
  rw [abs_neg] at this
  rw [Fmt.rndMP_neg]
  push_cast
  linarith

/-- The multiplier of pi is exact, unless it is large. -/
theorem mult_q {k : ℤ} (h : ((|k| : ℤ) : ℚ) ≤ φ.maxFin) : (φ.round .N (k:ℚ)).q = k ∨ (2:ℝ) ^ φ.p ≤ |((φ.round .N (k:ℚ)).q : ℝ)| := by
  rcases le_or_gt |k| (2 ^ φ.p) with h1 | h1
  · exact Or.inl (φ.round_intCast h1)
  right
  have hk : |((k:ℚ):ℝ)| ≤ φ.maxFin := by
    rw [Int.cast_abs] at h
    have : ((|(k:ℚ)| : ℚ) : ℝ) ≤ φ.maxFin := by exact_mod_cast h
    push_cast at this ⊢
    exact this
  have hm := φ.roundQ_le_maxFin (m := .N) hk
  have e : (φ.round .N (k:ℚ)).q = φ.roundQ .N ((k:ℚ):ℝ) := by
    rw [Fmt.roundQ_cast] at hm ⊢
    rw [abs_le] at hm
    simp only [Fmt.round]
    rw [if_neg (by linarith), if_neg (by linarith)]
    split_ifs with h0
    · rw [h0]; cases decide ((k:ℚ) < 0) <;> rfl
    · rfl
  rw [e]
  have hD : φ.roundQ .D ((k:ℚ):ℝ) ≤ φ.roundQ .N ((k:ℚ):ℝ) := by
    unfold Fmt.roundQ
    have := (Fmt.roundInt_bounds .N (((k:ℚ):ℝ) / 2 ^ φ.expo ((k:ℚ):ℝ))).1
    exact mul_le_mul_of_nonneg_right (by simp only [roundInt] at *; exact_mod_cast this) (two_zpow_pos _).le
  have hU : φ.roundQ .N ((k:ℚ):ℝ) ≤ φ.roundQ .U ((k:ℚ):ℝ) := by
    unfold Fmt.roundQ
    have := (Fmt.roundInt_bounds .N (((k:ℚ):ℝ) / 2 ^ φ.expo ((k:ℚ):ℝ))).2
    exact mul_le_mul_of_nonneg_right (by simp only [roundInt] at *; exact_mod_cast this) (two_zpow_pos _).le
  have hr : φ.Rep ((2 ^ φ.p : ℤ) : ℚ) := φ.rep_intCast (by rw [abs_of_pos (by positivity)])
  rcases lt_abs.mp h1 with h2 | h2
  · have h3 : ((2 ^ φ.p : ℤ) : ℚ) ≤ φ.roundQ .D ((k:ℚ):ℝ) := φ.le_roundQ_D hr (by push_cast; exact_mod_cast h2.le)
    have h4 : (((2 ^ φ.p : ℤ) : ℚ) : ℝ) ≤ φ.roundQ .N ((k:ℚ):ℝ) := by exact_mod_cast h3.trans hD
    push_cast at h4
    exact (by simpa using h4 : (2:ℝ) ^ φ.p ≤ _).trans (le_abs_self _)
  · have h3 : ((2 ^ φ.p : ℤ) : ℚ) ≤ φ.roundQ .D (-((k:ℚ):ℝ)) := φ.le_roundQ_D hr (by push_cast; exact_mod_cast h2.le)
    rw [φ.roundQ_U_eq] at hU
    have h4 : (((2 ^ φ.p : ℤ) : ℚ) : ℝ) ≤ (-φ.roundQ .N ((k:ℚ):ℝ) : ℚ) := by exact_mod_cast (h3.trans (by linarith) : _ ≤ -φ.roundQ .N ((k:ℚ):ℝ))
    push_cast at h4
    exact (by simpa using h4 : (2:ℝ) ^ φ.p ≤ _).trans (neg_le_abs _)

theorem rep_two_thr (φ : Fmt) : φ.Rep (2 ^ (φ.qmin + φ.p)) ∧ ((2 ^ (φ.qmin + φ.p) : ℚ) : ℝ) = 2 * φ.thr := by
  have hp := φ.p_pos
  have hq := φ.qmin_le
  have he := φ.emax_ge
  refine ⟨rep_pow (by omega) (by omega), ?_⟩
  unfold Fmt.thr
  push_cast
  rw [← zpow_one_add₀ (by norm_num)]
  congr 1; ring

section
variable {k : ℤ} {a b cl cu : FP}

theorem fma_tiny (m : Rnd) {a b c : FP} (h : |((a.q * b.q + c.q : ℚ) : ℝ)| < φ.thr) :
    ((-(2 * φ.thr) : ℝ) : EReal) ≤ (φ.fmaNS m a b c).toE ∧ (φ.fmaNS m a b c).toE ≤ ((2 * φ.thr : ℝ) : EReal) := by
  have hth := φ.thr_pos
  by_cases h0 : a.q * b.q + c.q = 0
  · rw [(φ.fmaNS_zero (m := m) h0).1]
    exact ⟨by exact_mod_cast (by linarith : -(2 * φ.thr) ≤ 0), by exact_mod_cast (by linarith : 0 ≤ 2 * φ.thr)⟩
  · obtain ⟨v, e, h1, -⟩ := roundNS_tiny (φ := φ) m h (by exact_mod_cast h0)
    unfold Fmt.fmaNS
    rw [if_neg h0, e]
    have := abs_le.mp h1
    exact ⟨EReal.coe_le_coe_iff.mpr this.1, EReal.coe_le_coe_iff.mpr this.2⟩

theorem shift_lo_sharp : Sharp φ (((φ.round .N (k:ℚ)).q * a.q + cl.q : ℚ) : ℝ) (φ.shiftBox k a b cl cu).lo.toE := by
  obtain ⟨r2, e2⟩ := rep_two_thr φ
  refine ⟨fun B hB h hb => le_shift_lo hB (by exact_mod_cast h) (hb.imp (fun h => by exact_mod_cast h) id), fun h => ?_⟩
  have := le_conv_D r2.neg (φ.fmaNS_ne_nan .D (φ.round .N (k:ℚ)) a cl) (by push_cast at e2 ⊢; rw [e2]; exact (fma_tiny .D h).1)
  push_cast at e2 this ⊢; rw [e2] at this; exact this

theorem shift_hi_sharp : Sharp φ (-(((φ.round .N (k:ℚ)).q * b.q + cu.q : ℚ) : ℝ)) (-(φ.shiftBox k a b cl cu).hi.toE) := by
  obtain ⟨r2, e2⟩ := rep_two_thr φ
  refine ⟨fun B hB h hb => ?_, fun h => ?_⟩
  · have := shift_hi_le (φ := φ) (k := k) (a := a) (b := b) (cl := cl) (cu := cu) hB.neg
      (by have : (((φ.round .N (k:ℚ)).q * b.q + cu.q : ℚ) : ℝ) ≤ ((-B : ℚ) : ℝ) := by push_cast at h ⊢; linarith
          exact_mod_cast this)
      (hb.imp (fun h => by have := neg_eq_zero.mp h; exact_mod_cast this) (fun h => by rwa [abs_neg] at h))
    rw [EReal.le_neg]; push_cast at this; exact this
  · rw [abs_neg] at h
    have := conv_U_le r2 (φ.fmaNS_ne_nan .U (φ.round .N (k:ℚ)) b cu) (by push_cast at e2 ⊢; rw [e2]; exact (fma_tiny .U h).2)
    rw [EReal.le_neg]
    push_cast at e2 this ⊢; rw [e2] at this; rw [neg_neg]; exact this

theorem mirror_lo_sharp : Sharp φ (-(((φ.round .N (k:ℚ)).q * a.q + cu.q : ℚ) : ℝ)) (φ.mirrorBox k a b cl cu).lo.toE := by
  obtain ⟨r2, e2⟩ := rep_two_thr φ
  refine ⟨fun B hB h hb => ?_, fun h => ?_⟩
  · exact le_mirror_lo hB
      (by have : (((φ.round .N (k:ℚ)).q * a.q + cu.q : ℚ) : ℝ) ≤ ((-B : ℚ) : ℝ) := by push_cast at h ⊢; linarith
          exact_mod_cast this)
      (hb.imp (fun h => by have := neg_eq_zero.mp h; exact_mod_cast this) (fun h => by rwa [abs_neg] at h))
  · rw [abs_neg] at h
    have h2 := conv_spec φ .D (φ.fmaNS_ne_nan .U (φ.round .N (k:ℚ)) a cu)
    show _ ≤ (φ.conv .D _).neg.toE
    rw [FP.toE_neg, h2.2.1, Fmt.rndE_D, EReal.le_neg]
    refine (φ.rdE_le _).trans ?_
    have := (fma_tiny (φ := φ) .U h).2
    push_cast at this ⊢; rw [neg_neg]; exact this

theorem mirror_hi_sharp : Sharp φ (((φ.round .N (k:ℚ)).q * b.q + cl.q : ℚ) : ℝ) (-(φ.mirrorBox k a b cl cu).hi.toE) := by
  refine ⟨fun B hB h hb => ?_, fun h => ?_⟩
  · have := mirror_hi_le (φ := φ) (k := k) (a := a) (b := b) (cl := cl) (cu := cu) hB.neg
      (by rw [neg_neg]; exact_mod_cast h) (hb.imp (fun h => by exact_mod_cast h) id)
    rw [EReal.le_neg]; push_cast at this; exact this
  · have h2 := conv_spec φ .U (φ.fmaNS_ne_nan .D (φ.round .N (k:ℚ)) b cl)
    show _ ≤ -(φ.conv .U _).neg.toE
    rw [FP.toE_neg, neg_neg, h2.2.1, Fmt.rndE_U]
    exact ((fma_tiny (φ := φ) .D h).1).trans (φ.le_ruE _)
end

/-- The points of the real branch that belong to a point of a box. -/
theorem core {u J a b dl du α β s : ℝ} {L H : EReal} (u0 : 0 < u) (hu : eps φ = 2 * u) (hu1 : u ≤ 1 / 256) (hup : u * 2 ^ φ.p = 1)
    (ht : φ.thr ≤ u / 2) (hq : (2:ℝ) ^ φ.qmin ≤ φ.thr)
    (ha : 3 ≤ a) (hb : 3 ≤ b) (ha' : |a - π| ≤ 4 * u) (hb' : |b - π| ≤ 4 * u)
    (hα : |α| ≤ π) (hβ : |β| ≤ π) (hdl : α - (2 * u * |α| + u) ≤ dl) (hdu : du ≤ β + (2 * u * |β| + u))
    (hL : Sharp φ (J * a + dl) L) (hH : Sharp φ (-(J * b + du)) (-H)) (h1 : L ≤ (s:EReal)) (h2 : (s:EReal) ≤ H)
    (hs : |s| < 4 / 5 * 2 ^ φ.p) :
    |J| < 2 ^ φ.p ∧ J * π + α < s + 4 * u * (|s| + 5) ∧ s - 4 * u * (|s| + 5) < J * π + β := by
  have hpi := pi_lt_d2
  have hsa := abs_nonneg s
  have hp : (256:ℝ) ≤ 2 ^ φ.p := by
    have : u * 2 ^ φ.p ≤ 1 / 256 * 2 ^ φ.p := mul_le_mul_of_nonneg_right hu1 (by positivity)
    linarith
  have hsp : |s| < 2 ^ φ.p := by linarith
  have n1 := hL.near h1 hsp hu hu1 ht hq
  have n2 := hH.near (s := -s) (by rw [EReal.coe_neg]; exact EReal.neg_le_neg_iff.mpr h2) (by rwa [abs_neg]) hu hu1 ht hq
  rw [abs_neg] at n2
  have hus : u * |s| < 4 / 5 := by
    calc u * |s| < u * (4 / 5 * 2 ^ φ.p) := mul_lt_mul_of_pos_left hs u0
      _ = 4 / 5 * (u * 2 ^ φ.p) := by ring
      _ = _ := by rw [hup]; ring
  have hua : u * |α| ≤ u * (315 / 100) := mul_le_mul_of_nonneg_left (by linarith) u0.le
  have hub : u * |β| ≤ u * (315 / 100) := mul_le_mul_of_nonneg_left (by linarith) u0.le
  have hus0 : 0 ≤ u * |s| := by positivity
  have e1 : 202 / 100 * u * (|s| + 1) = 202 / 100 * (u * |s|) + 202 / 100 * u := by ring
  have e2 : 4 * u * (|s| + 5) = 4 * (u * |s|) + 20 * u := by ring
  rw [e1] at n1 n2
  rw [e2]
  have α0 := abs_le.mp hα
  have β0 := abs_le.mp hβ
  have s0 := abs_le.mp (le_refl |s|)
  have hJ : 3 * |J| ≤ |s| + 564 / 100 := by
    rcases le_total 0 J with h | h
    · rw [abs_of_nonneg h]
      have : 3 * J ≤ J * a := by nlinarith
      linarith
    · rw [abs_of_nonpos h]
      have : 3 * -J ≤ -J * b := by nlinarith
      linarith
  have hJu := mul_le_mul_of_nonneg_left hJ u0.le
  have d1 : |J * (a - π)| ≤ |J| * (4 * u) := by
    rw [abs_mul]; exact mul_le_mul_of_nonneg_left ha' (abs_nonneg J)
  have d2 : |J * (b - π)| ≤ |J| * (4 * u) := by
    rw [abs_mul]; exact mul_le_mul_of_nonneg_left hb' (abs_nonneg J)
  have d1' := abs_le.mp d1
  have d2' := abs_le.mp d2
  have j1 : J * (a - π) = J * a - J * π := by ring
  have j2 : J * (b - π) = J * b - J * π := by ring
  have j3 : |J| * (4 * u) = 4 * (u * |J|) := by ring
  have j4 : u * (3 * |J|) = 3 * (u * |J|) := by ring
  have j5 : u * (|s| + 564 / 100) = u * |s| + 564 / 100 * u := by ring
  rw [j1, j3] at d1'
  rw [j2, j3] at d2'
  rw [j4, j5] at hJu
  clear d1 d2 j1 j2 j3 j4 j5 e1 e2 hL hH h1 h2
  refine ⟨by linarith, ?_, ?_⟩
  · linarith [d1'.1]
  · linarith [d2'.2]

/-- Some point of an interval is as near as its ends permit. -/
theorem pick {V : Set ℝ} (hV : V.OrdConnected) {s η : ℝ} (hη : 0 ≤ η) (h1 : ∃ v ∈ V, v ≤ s + η) (h2 : ∃ v ∈ V, s - η ≤ v) :
    ∃ v ∈ V, |v - s| ≤ η := by
  obtain ⟨v1, m1, l1⟩ := h1
  obtain ⟨v2, m2, l2⟩ := h2
  by_cases c1 : s - η ≤ v1
  · exact ⟨v1, m1, abs_le.mpr ⟨by linarith, by linarith⟩⟩
  by_cases c2 : v2 ≤ s + η
  · exact ⟨v2, m2, abs_le.mpr ⟨by linarith, by linarith⟩⟩
  push Not at c1 c2
  exact ⟨s, hV.out m1 m2 ⟨by linarith, by linarith⟩, by simpa using hη⟩

theorem per_near (t s : ℝ) : ∃ m : ℤ, |t + m * (2 * π) - s| ≤ π := by
  have hpi := pi_pos
  refine ⟨round ((s - t) / (2 * π)), ?_⟩
  have h := abs_sub_round ((s - t) / (2 * π))
  have e : t + (round ((s - t) / (2 * π)) : ℝ) * (2 * π) - s = -(((s - t) / (2 * π) - round ((s - t) / (2 * π))) * (2 * π)) := by
    field_simp; ring
  rw [e, abs_neg, abs_mul, abs_of_pos (by positivity : 0 < 2 * π)]
  nlinarith

end P1788
