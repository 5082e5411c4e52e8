import Verif.Lemmas.Pow

/-! # C04: pos, neg, abs, sqr and sqrt -/

namespace P1788

/-- `pos(x)` denotes the same set as `x`. -/
theorem C04_pos (φ : Fmt) {x : Itv} (hx : x.Ok φ) : Tightest φ (Fmt.posI x) x.set := by
  unfold Fmt.posI
  rw [hx.isValid]; exact Tightest.of_ok hx

/-- `neg(x)` is exact: the tightest interval around `{-a | a ∈ x}`, and equal to it. -/
theorem C04_neg (φ : Fmt) {x : Itv} (hx : x.Ok φ) :
    Tightest φ (Fmt.negI x) {z | ∃ a ∈ x.set, z = -a} ∧ (Fmt.negI x).set = {z | ∃ a ∈ x.set, z = -a} := by
  rcases hx.cases with rfl | hx
  · exact ⟨tightest_empty' (by simp [Fmt.negI]) (by simp), by simp [Fmt.negI]⟩
  have e : Fmt.negI x = ⟨x.hi.neg, x.lo.neg⟩ := by simp [Fmt.negI, hx.isValid, hx.isEmpty]
  rw [e]
  have hN : (Itv.mk x.hi.neg x.lo.neg).NE φ := ⟨by simpa using hx.hi_ne, by simpa using hx.lo_ne,
    by simpa using hx.le, by simpa using hx.hi_bot, by simpa using hx.lo_top, FP.neg_in hx.hi_in,
    FP.neg_in hx.lo_in⟩
  have hs : (Itv.mk x.hi.neg x.lo.neg).set = {z | ∃ a ∈ x.set, z = -a} := by
    ext z
    rw [hN.mem]
    simp only [FP.toE_neg]
    constructor
    · rintro ⟨h1, h2⟩
      refine ⟨-z, hx.mem.mpr ⟨?_, ?_⟩, by simp⟩
      · rw [EReal.coe_neg]; exact EReal.le_neg_of_le_neg h2
      · rw [EReal.coe_neg]; exact EReal.neg_le.mp h1
    · rintro ⟨a, ha, rfl⟩
      rw [EReal.coe_neg, EReal.neg_le_neg_iff, EReal.neg_le_neg_iff]
      exact (hx.mem.mp ha).symm
  exact ⟨(Tightest.of_ok hN.ok).of_eq hs, hs⟩

/-- `abs(x)` is exact. -/
theorem C04_abs (φ : Fmt) {x : Itv} (hx : x.Ok φ) :
    Tightest φ (Fmt.absI x) ((fun a => |a|) '' x.set) ∧ (Fmt.absI x).set = (fun a => |a|) '' x.set := by
  rcases hx.cases with rfl | hx
  · exact ⟨tightest_empty' (by simp [Fmt.absI]) (by simp), by simp [Fmt.absI]⟩
  have h := absI_absOf hx
  exact ⟨(Tightest.of_ok h.ne.ok).of_eq h.set, h.set⟩

/-- `sqr(x)` is the tightest interval around `{a² | a ∈ x}`. -/
theorem C04_sqr (φ : Fmt) {x : Itv} (hx : x.Ok φ) :
    Tightest φ (φ.sqrI x) ((fun a => a ^ 2) '' x.set) := by
  rcases hx.cases with rfl | hx
  · exact tightest_empty' (by simp [Fmt.sqrI]) (by simp)
  unfold Fmt.sqrI
  simp only [hx.isValid, hx.isEmpty, Bool.not_true, Bool.or_self, Bool.false_eq_true,
    if_false, NE.lt0_iff hx.lo_ne, NE.gt0_iff hx.hi_ne]
  have key : ∀ {a : Itv}, AbsOf φ x a → (fun a : ℝ => a ^ 2) '' a.set = (fun a => a ^ 2) '' x.set ∧
      MonotoneOn (fun a : ℝ => a ^ 2) a.set := by
    intro a h
    constructor
    · rw [h.set, Set.image_image]; simp
    · intro r hr s hs hrs
      have h0 : (0:ℝ) ≤ r := by
        have := h.nonneg.trans (h.ne.mem.mp hr).1; exact_mod_cast this
      exact pow_le_pow_left₀ h0 hrs 2
  by_cases h : x.lo.toE < 0 ∧ 0 < x.hi.toE
  · rw [if_pos h]
    have hA := evenBounds_mixed hx h.1 h.2
    obtain ⟨k1, k2⟩ := key hA
    rw [← k1]
    refine tight_mono hA.ne k2 ?_ (sqr_ulim φ .U hA.ne.hi_ne)
    have := sqr_ulim φ .D (a := .fin 0) (by simp)
    simpa [Fmt.mul, FP.isInf, FP.isZero, FP.mkZero, FP.signbit] using this
  · rw [if_neg h]
    have hA := evenBounds hx h
    obtain ⟨k1, k2⟩ := key hA
    rw [← k1]
    exact tight_mono hA.ne k2 (sqr_ulim φ .D hA.ne.lo_ne) (sqr_ulim φ .U hA.ne.hi_ne)

theorem sqrt_ulim (φ : Fmt) (m : Rnd) {a : FP} (ha : a ≠ .nan) (h0 : 0 ≤ a.toE) :
    ULim φ m Real.sqrt a (φ.sqrt m a) := by
  have key := ULim.un (φ := φ) (m := m) (f := Real.sqrt) (vn := .nan) (vp := .pinf) ha
    (fun h => by rw [h] at h0; simp at h0) (fun _ => ULim.pinf_pinf Real.tendsto_sqrt_atTop)
  cases a with
  | fin q =>
    have hq : ¬ q < 0 := by
      have : (0:ℝ) ≤ q := by simpa using h0
      have : 0 ≤ q := by exact_mod_cast this
      exact not_lt.mpr this
    simpa [Fmt.sqrt, hq] using key
  | _ => exact key

/-- `sqrt(x)` is the tightest interval around the square roots of the non-negative elements of `x`. -/
theorem C04_sqrt (φ : Fmt) {x : Itv} (hx : x.Ok φ) :
    Tightest φ (φ.sqrtI x) (Real.sqrt '' {a ∈ x.set | 0 ≤ a}) := by
  rcases hx.cases with rfl | hx
  · exact tightest_empty' (by simp [Fmt.sqrtI]) (by simp)
  unfold Fmt.sqrtI
  simp only [hx.isValid, hx.isEmpty, Bool.not_true, Bool.or_self, Bool.false_eq_true,
    if_false, NE.lt0_iff hx.lo_ne, NE.lt0_iff hx.hi_ne]
  have hmono : ∀ S : Set ℝ, MonotoneOn Real.sqrt S := fun S a _ b _ h => Real.sqrt_le_sqrt h
  split_ifs with h1 h2
  · refine tightest_empty' rfl ?_
    rw [Set.image_eq_empty, Set.eq_empty_iff_forall_notMem]
    rintro a ⟨ha, ha0⟩
    have := lt_of_le_of_lt (hx.mem.mp ha).2 h1
    have : a < 0 := by exact_mod_cast this
    linarith
  · push Not at h1
    have hN : (Itv.mk (.fin 0) x.hi).NE φ := ⟨by simp, hx.hi_ne, by simpa using h1, by simp, hx.hi_bot,
      φ.rep_zero, hx.hi_in⟩
    have hs : (Itv.mk (.fin 0) x.hi).set = {a ∈ x.set | 0 ≤ a} := by
      ext r
      rw [hN.mem]
      constructor
      · rintro ⟨g1, g2⟩
        have g1' : (0:ℝ) ≤ r := by simpa using g1
        exact ⟨hx.mem.mpr ⟨h2.le.trans (by exact_mod_cast g1'), g2⟩, g1'⟩
      · rintro ⟨g1, g2⟩
        exact ⟨by simpa using g2, (hx.mem.mp g1).2⟩
    rw [← hs]
    refine tight_mono hN (hmono _) ?_ (sqrt_ulim φ .U hx.hi_ne h1)
    have := sqrt_ulim φ .D (a := .nzero) (by simp) (by simp)
    obtain ⟨⟨L, hL, hL'⟩, _, _⟩ := this
    refine ⟨⟨L, by simpa using hL, ?_⟩, by simp, φ.rep_zero⟩
    rw [← hL']; simp [Fmt.sqrt, Fmt.un]
  · push Not at h1 h2
    have hs : {a ∈ x.set | 0 ≤ a} = x.set := by
      ext r; constructor
      · exact fun h => h.1
      · intro h
        have := h2.trans (hx.mem.mp h).1
        exact ⟨h, by exact_mod_cast this⟩
    rw [hs]
    exact tight_mono hx (hmono _) (sqrt_ulim φ .D hx.lo_ne h2) (sqrt_ulim φ .U hx.hi_ne h1)

/-- Non-vacuity: a mixed interval satisfies the hypotheses and `sqr` is non-trivial on it. -/
example : (Itv.mk (.fin (-3)) (.fin 2)).Ok binary64 ∧
    binary64.sqrI ⟨.fin (-3), .fin 2⟩ = ⟨.fin 0, .fin 9⟩ ∧ (Real.sqrt '' {a ∈ (Itv.mk (.fin (-3)) (.fin 2)).set | 0 ≤ a}).Nonempty :=
  ⟨Itv.ok_of_okb (by decide +kernel), by decide +kernel,
   ⟨_, 1, ⟨⟨by norm_num [FP.BelowR], by norm_num [FP.AboveR]⟩, by norm_num⟩, rfl⟩⟩

end P1788
