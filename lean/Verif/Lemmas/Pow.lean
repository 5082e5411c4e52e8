import Verif.Lemmas.Unary
import Mathlib.Algebra.Order.Ring.Pow
import Mathlib.Algebra.Order.Field.Power
import Mathlib.Algebra.Ring.Parity
import Mathlib.Algebra.Group.Int.Even
import Mathlib.Topology.Algebra.Order.Field

/-! Helper lemmas: integer powers. -/

namespace P1788
open FP Filter Topology

theorem Box.union {S T : Set ℝ} {a b c d : EReal} (h : Box S a b) (h' : Box T c d) :
    Box (S ∪ T) (min a c) (max b d) := by
  refine ⟨h.ne.inl, ?_, ?_⟩
  · rw [eimg, Set.image_union]; exact h.glb.union h'.glb
  · rw [eimg, Set.image_union]; exact h.lub.union h'.lub

theorem tendsto_zpow_top {n : ℤ} (hn : 0 < n) : Tendsto (fun r : ℝ => r ^ n) atTop atTop := by
  lift n to ℕ using hn.le
  simp only [zpow_natCast]
  exact tendsto_pow_atTop (by omega)

theorem zpow_neg_even {n : ℤ} (h : n % 2 = 0) (r : ℝ) : (-r) ^ n = r ^ n :=
  Even.neg_zpow (Int.even_iff.mpr h) r
theorem zpow_neg_odd {n : ℤ} (h : n % 2 ≠ 0) (r : ℝ) : (-r) ^ n = -(r ^ n) :=
  Odd.neg_zpow (Int.odd_iff.mpr (by omega)) r
theorem zpow_abs_even {n : ℤ} (h : n % 2 = 0) (r : ℝ) : |r| ^ n = r ^ n := by
  rcases abs_choice r with h' | h' <;> rw [h']
  exact zpow_neg_even h r

theorem tendsto_zpow_bot_even {n : ℤ} (hn : 0 < n) (h : n % 2 = 0) :
    Tendsto (fun r : ℝ => r ^ n) atBot atTop := by
  have := (tendsto_zpow_top hn).comp tendsto_neg_atBot_atTop
  refine this.congr fun r => ?_
  simp [zpow_neg_even h]
theorem tendsto_zpow_bot_odd {n : ℤ} (hn : 0 < n) (h : n % 2 ≠ 0) :
    Tendsto (fun r : ℝ => r ^ n) atBot atBot := by
  have := tendsto_neg_atTop_atBot.comp ((tendsto_zpow_top hn).comp tendsto_neg_atBot_atTop)
  refine this.congr fun r => ?_
  simp [zpow_neg_odd h]
theorem tendsto_zpow_top_neg {n : ℤ} (hn : n < 0) : Tendsto (fun r : ℝ => r ^ n) atTop (𝓝 0) :=
  tendsto_zpow_atTop_zero hn
theorem tendsto_zpow_bot_neg {n : ℤ} (hn : n < 0) : Tendsto (fun r : ℝ => r ^ n) atBot (𝓝 0) := by
  have h0 := (tendsto_zpow_top_neg hn).comp tendsto_neg_atBot_atTop
  by_cases h : n % 2 = 0
  · exact h0.congr fun r => by simp [zpow_neg_even h]
  · have := h0.neg
    rw [neg_zero] at this
    exact this.congr fun r => by simp [zpow_neg_odd h]

theorem powSi_ulim (φ : Fmt) (m : Rnd) {n : ℤ} (hn : n ≠ 0) {a : FP} (ha : a ≠ .nan)
    (h0 : a.toE = 0 → 0 < n) : ULim φ m (fun r => r ^ n) a (φ.powSi m a n) := by
  unfold Fmt.powSi
  rw [if_neg hn]
  have hneg : ¬ 0 < n → n < 0 := by omega
  cases a with
  | nan => exact absurd rfl ha
  | ninf =>
    simp only [FP.signbit, FP.isInf, if_true, Bool.true_and]
    split_ifs with h
    · by_cases hp : n % 2 = 0
      · simp only [hp]; exact ULim.ninf_pinf (tendsto_zpow_bot_even h hp)
      · simp only [ne_eq, hp, not_false_eq_true, decide_true]; exact ULim.ninf_ninf (tendsto_zpow_bot_odd h hp)
    · exact ULim.mk_ninf_real (tendsto_zpow_bot_neg (hneg h)) (by simp) (FP.mkZero_ne_nan _) (φ.mkZero_in _)
  | pinf =>
    simp only [FP.signbit, FP.isInf, if_true, Bool.false_and]
    split_ifs with h
    · exact ULim.pinf_pinf (tendsto_zpow_top h)
    · exact ULim.mk_pinf_real (tendsto_zpow_top_neg (hneg h)) (by simp) (FP.mkZero_ne_nan _) (φ.mkZero_in _)
  | nzero =>
    have hp := h0 rfl
    simp only [FP.isInf, FP.isZero, if_true, Bool.false_eq_true, if_false, hp]
    refine ⟨⟨(0:EReal), ?_, by simp⟩, FP.mkZero_ne_nan _, φ.mkZero_in _⟩
    have := LimAt.coe (fun r : ℝ => r ^ n) 0
    simpa [zero_zpow n hn] using this
  | fin q =>
    simp only [FP.isInf, FP.isZero, Bool.false_eq_true, if_false, decide_eq_true_eq]
    by_cases hq : q = 0
    · have hp := h0 (by simp [hq])
      simp only [hq, if_true, hp]
      refine ⟨⟨(0:EReal), ?_, by simp⟩, FP.mkZero_ne_nan _, φ.mkZero_in _⟩
      have := LimAt.coe (fun r : ℝ => r ^ n) 0
      simpa [zero_zpow n hn] using this
    · simp only [hq, if_false]
      have := ULim.fin φ m (fun r : ℝ => r ^ n) q
      rw [show ((q:ℝ)) ^ n = ((q ^ n : ℚ) : ℝ) by push_cast; rfl, Fmt.round_cast] at this
      exact this

theorem powSi_zero_neg (φ : Fmt) (m : Rnd) {n : ℤ} (hn : n < 0) {a : FP} (ha : a ≠ .nan)
    (h0 : a.toE = 0) (hs : n % 2 = 0) : φ.powSi m a n = .pinf := by
  unfold Fmt.powSi
  rw [if_neg hn.ne]
  have h : ¬ 0 < n := by omega
  cases a with
  | nan => exact absurd rfl ha
  | ninf => simp at h0
  | pinf => simp at h0
  | nzero => simp [FP.isInf, FP.isZero, h, hs, FP.mkInf]
  | fin q =>
    have : q = 0 := by simpa using h0
    simp [FP.isInf, FP.isZero, h, hs, FP.mkInf, this]

theorem zpow_mono_nonneg {n : ℤ} (hn : 0 < n) {a b : ℝ} (ha : 0 ≤ a) (hab : a ≤ b) : a ^ n ≤ b ^ n := by
  lift n to ℕ using hn.le
  simp only [zpow_natCast]
  exact pow_le_pow_left₀ ha hab n

theorem zpow_anti_pos {n : ℤ} (hn : n < 0) {a b : ℝ} (ha : 0 < a) (hab : a ≤ b) : b ^ n ≤ a ^ n := by
  obtain ⟨k, hk⟩ : ∃ k : ℤ, n = -k ∧ 0 < k := ⟨-n, by omega, by omega⟩
  rw [hk.1, zpow_neg, zpow_neg]
  exact inv_anti₀ (zpow_pos ha k) (zpow_mono_nonneg hk.2 ha.le hab)

/-- Negative powers of a positive segment that reaches zero. -/
theorem powBox_pos0 {n : ℤ} (hn : n < 0) {d L : EReal} (hd : 0 < d) (hL : LimAt (fun r => r ^ n) d L) :
    Box ((fun r : ℝ => r ^ n) '' {r | r ∈ Seg 0 d ∧ r ≠ 0}) L ⊤ := by
  have e : {r : ℝ | r ∈ Seg 0 d ∧ r ≠ 0} = {b | b ∈ Seg 0 d ∧ 0 < b} := by
    ext b; constructor
    · rintro ⟨hb, hb0⟩
      refine ⟨hb, lt_of_le_of_ne ?_ hb0.symm⟩
      have := hb.1; exact_mod_cast this
    · rintro ⟨hb, hb0⟩; exact ⟨hb, hb0.ne'⟩
  rw [e]
  have hs : SegNE 0 d := ⟨hd.le, by simp, (bot_lt_zero'.trans hd).ne'⟩
  have hpos : ∀ᶠ y in filtE d, (0:ℝ) < y := by
    clear hL
    induction d with
    | bot => exact absurd hd (by simp)
    | top => rw [filtE_top]; exact eventually_gt_atTop 0
    | coe d => rw [filtE_coe]; exact eventually_pure.mpr (by exact_mod_cast hd)
  have hright : ∀ {x : ℝ}, 0 < x → ∀ᶠ y in 𝓝[>] (0:ℝ), y ≤ x := fun {x} hx =>
    (eventually_le_nhds hx).filter_mono nhdsWithin_le_nhds
  refine box_of_lims (filtE d) (𝓝[>] 0) ?_ (fun x hx => ?_) hL ?_ (fun x hx => ?_) ?_
  · filter_upwards [hs.ev_hi, hpos] with y h1 h2 using ⟨h1, h2⟩
  · filter_upwards [hpos, ev_hi_ge hx.1.2] with y h1 h2
    exact zpow_anti_pos hn hx.2 h2
  · obtain ⟨x, hx⟩ := ((hs.ev_hi).and hpos).exists
    filter_upwards [self_mem_nhdsWithin, hright hx.2] with y h1 h2
    have h1' : (0:ℝ) < y := h1
    exact ⟨⟨by exact_mod_cast h1'.le, (EReal.coe_le_coe_iff.mpr h2).trans hx.1.2⟩, h1⟩
  · filter_upwards [self_mem_nhdsWithin, hright hx.2] with y h1 h2
    exact zpow_anti_pos hn h1 h2
  · obtain ⟨k, hk, hk'⟩ : ∃ k : ℤ, n = -k ∧ 0 < k := ⟨-n, by omega, by omega⟩
    have h1 : Tendsto (fun r : ℝ => r⁻¹ ^ k) (𝓝[>] 0) atTop :=
      (tendsto_zpow_top hk').comp tendsto_inv_nhdsGT_zero
    refine tendsto_coe_atTop.comp (h1.congr fun r => ?_)
    rw [hk, zpow_neg, inv_zpow]

/-- Odd negative powers of a negative segment that reaches zero. -/
theorem powBox_neg0 {n : ℤ} (hn : n < 0) (ho : n % 2 ≠ 0) {c L : EReal} (hc : c < 0)
    (hL : LimAt (fun r => r ^ n) c L) :
    Box ((fun r : ℝ => r ^ n) '' {r | r ∈ Seg c 0 ∧ r ≠ 0}) ⊥ L := by
  have hL' : LimAt (fun r => r ^ n) (-c) (-L) := by
    unfold LimAt at hL ⊢
    have h1 : Tendsto (fun r : ℝ => -r) (filtE (-c)) (filtE c) := by
      clear hL
      induction c with
      | bot => simpa using tendsto_neg_atTop_atBot
      | top => simp at hc
      | coe c =>
        rw [← EReal.coe_neg, filtE_coe, filtE_coe]
        simp
    have h2 := (hL.comp h1)
    have h3 := ((continuous_neg (G := EReal)).tendsto L).comp h2
    refine h3.congr fun r => ?_
    simp [zpow_neg_odd ho]
  have h := (powBox_pos0 hn (d := -c) (by rwa [EReal.lt_neg_comm, neg_zero]) hL').neg
  rw [EReal.neg_top, neg_neg] at h
  refine h.of_eq ?_
  ext z; constructor
  · rintro ⟨_, ⟨r, ⟨hr, hr0⟩, rfl⟩, rfl⟩
    refine ⟨-r, ⟨⟨?_, ?_⟩, by simpa using hr0⟩, by simp [zpow_neg_odd ho]⟩
    · rw [EReal.coe_neg, EReal.le_neg]; exact hr.2
    · rw [EReal.coe_neg, EReal.neg_le, neg_zero]; exact hr.1
  · rintro ⟨r, ⟨hr, hr0⟩, rfl⟩
    refine ⟨_, ⟨-r, ⟨⟨?_, ?_⟩, by simpa using hr0⟩, rfl⟩, by simp [zpow_neg_odd ho]⟩
    · rw [EReal.coe_neg, EReal.le_neg, neg_zero]; exact hr.2
    · rw [EReal.coe_neg, EReal.neg_le_neg_iff]; exact hr.1

/-- Squaring as computed by `mpfr_sqr`. -/
theorem sqr_ulim (φ : Fmt) (m : Rnd) {a : FP} (ha : a ≠ .nan) :
    ULim φ m (fun r => r ^ 2) a (φ.mul m a a) := by
  obtain ⟨h1, h2⟩ := mul_spec' φ m ha ha (by
    by_cases h : a.toE = 0
    · right; rw [h]; simp
    · left; exact ⟨h, h⟩)
  refine ⟨⟨_, ?_, h2⟩, h1, φ.mul_in _ _ _⟩
  cases a with
  | nan => exact absurd rfl ha
  | ninf => simpa using limAt_bot_top (tendsto_pow_atTop (α := ℝ) (n := 2) (by norm_num) |>.comp
      tendsto_neg_atBot_atTop |>.congr fun r => by simp)
  | pinf => simpa using limAt_top_top (tendsto_pow_atTop (α := ℝ) (n := 2) (by norm_num))
  | nzero => have := LimAt.coe (fun r : ℝ => r ^ 2) 0; norm_num at this; simpa using this
  | fin q =>
    rw [FP.toE_fin, ← EReal.coe_mul, ← sq]; exact LimAt.coe (fun r : ℝ => r ^ 2) q

end P1788
