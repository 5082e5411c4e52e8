import Verif.Lemmas.Div
import Verif.Model.Unary

/-! Helper lemmas: tightness of monotone unary functions. -/

namespace P1788
open FP Filter Topology

/-- `r` is the rounded limit of `f` at the bound `a`. -/
structure ULim (φ : Fmt) (m : Rnd) (f : ℝ → ℝ) (a r : FP) : Prop where
  ex : ∃ L, LimAt f a.toE L ∧ r.toE = φ.rndE m L
  ne : r ≠ .nan
  inφ : r.In φ

theorem tight_mono {φ : Fmt} {x : Itv} {f : ℝ → ℝ} {l u : FP} (hx : x.NE φ) (hf : MonotoneOn f x.set)
    (h1 : ULim φ .D f x.lo l) (h2 : ULim φ .U f x.hi u) : Tightest φ ⟨l, u⟩ (f '' x.set) := by
  obtain ⟨L, hL, hl⟩ := h1.ex
  obtain ⟨U, hU, hu⟩ := h2.ex
  rw [hx.set_eq] at hf ⊢
  exact tightest_of_box (box_mono hx.seg hf hL hU) h1.ne h2.ne h1.inφ h2.inφ hl hu

theorem tight_anti {φ : Fmt} {x : Itv} {f : ℝ → ℝ} {l u : FP} (hx : x.NE φ) (hf : AntitoneOn f x.set)
    (h1 : ULim φ .D f x.hi l) (h2 : ULim φ .U f x.lo u) : Tightest φ ⟨l, u⟩ (f '' x.set) := by
  obtain ⟨L, hL, hl⟩ := h1.ex
  obtain ⟨U, hU, hu⟩ := h2.ex
  rw [hx.set_eq] at hf ⊢
  exact tightest_of_box (box_anti hx.seg hf hL hU) h1.ne h2.ne h1.inφ h2.inφ hl hu

theorem rndE_self {φ : Fmt} {m : Rnd} {a : FP} (h : a.In φ) (hn : a ≠ .nan) (hm : m ≠ .N) :
    φ.rndE m a.toE = a.toE := by
  cases m with
  | D => exact φ.rdE_of_in h hn
  | U => exact φ.ruE_of_in h hn
  | N => exact absurd rfl hm

/-- Round-to-value at a finite bound. -/
theorem ULim.fin (φ : Fmt) (m : Rnd) (f : ℝ → ℝ) (q : ℚ) : ULim φ m f (.fin q) (φ.round m (f q)) :=
  ⟨⟨(f q : EReal), by rw [FP.toE_fin]; exact LimAt.coe f q, by rw [Fmt.rndE_coe]⟩, φ.round_ne_nan _ _,
    φ.round_in _ _⟩

theorem ULim.un {φ : Fmt} {m : Rnd} {f : ℝ → ℝ} {vn vp a : FP} (ha : a ≠ .nan)
    (hn : a = .ninf → ULim φ m f .ninf vn) (hp : a = .pinf → ULim φ m f .pinf vp) :
    ULim φ m f a (φ.un m f vn vp a) := by
  cases a with
  | nan => exact absurd rfl ha
  | ninf => exact hn rfl
  | pinf => exact hp rfl
  | nzero =>
    unfold Fmt.un
    split_ifs with h
    · refine ⟨⟨(f 0 : EReal), ?_, ?_⟩, by simp, trivial⟩
      · have := LimAt.coe f 0; simpa using this
      · rw [h]; simp
    · refine ⟨⟨(f 0 : EReal), ?_, by rw [Fmt.rndE_coe]⟩, φ.round_ne_nan _ _, φ.round_in _ _⟩
      have := LimAt.coe f 0; simpa using this
  | fin q => exact ULim.fin φ m f q

/-- Convenience constructors for the infinite bounds. -/
theorem ULim.mk_ninf_real {φ : Fmt} {m : Rnd} {f : ℝ → ℝ} {L : ℝ} {v : FP} (h : Tendsto f atBot (𝓝 L))
    (hv : v.toE = φ.rndE m (L:EReal)) (hn : v ≠ .nan) (hi : v.In φ) : ULim φ m f .ninf v :=
  ⟨⟨L, limAt_bot h, hv⟩, hn, hi⟩
theorem ULim.mk_pinf_real {φ : Fmt} {m : Rnd} {f : ℝ → ℝ} {L : ℝ} {v : FP} (h : Tendsto f atTop (𝓝 L))
    (hv : v.toE = φ.rndE m (L:EReal)) (hn : v ≠ .nan) (hi : v.In φ) : ULim φ m f .pinf v :=
  ⟨⟨L, limAt_top h, hv⟩, hn, hi⟩
theorem ULim.pinf_pinf {φ : Fmt} {m : Rnd} {f : ℝ → ℝ} (h : Tendsto f atTop atTop) : ULim φ m f .pinf .pinf :=
  ⟨⟨⊤, limAt_top_top h, by simp⟩, by simp, trivial⟩
theorem ULim.pinf_ninf {φ : Fmt} {m : Rnd} {f : ℝ → ℝ} (h : Tendsto f atTop atBot) : ULim φ m f .pinf .ninf :=
  ⟨⟨⊥, limAt_top_bot h, by simp⟩, by simp, trivial⟩
theorem ULim.ninf_pinf {φ : Fmt} {m : Rnd} {f : ℝ → ℝ} (h : Tendsto f atBot atTop) : ULim φ m f .ninf .pinf :=
  ⟨⟨⊤, limAt_bot_top h, by simp⟩, by simp, trivial⟩
theorem ULim.ninf_ninf {φ : Fmt} {m : Rnd} {f : ℝ → ℝ} (h : Tendsto f atBot atBot) : ULim φ m f .ninf .ninf :=
  ⟨⟨⊥, limAt_bot_bot h, by simp⟩, by simp, trivial⟩

/-- The interval of absolute values. -/
structure AbsOf (φ : Fmt) (x a : Itv) : Prop where
  ne : a.NE φ
  set : a.set = (fun r => |r|) '' x.set
  nonneg : 0 ≤ a.lo.toE

theorem coe_abs_le {r : ℝ} {e : EReal} : ((|r| : ℝ):EReal) ≤ e ↔ (r:EReal) ≤ e ∧ -(r:EReal) ≤ e := by
  rw [← EReal.coe_neg]
  constructor
  · intro h
    exact ⟨(EReal.coe_le_coe_iff.mpr (le_abs_self r)).trans h, (EReal.coe_le_coe_iff.mpr (neg_le_abs r)).trans h⟩
  · rintro ⟨h1, h2⟩
    rcases abs_choice r with h | h <;> rw [h] <;> assumption

/-- Recognising the interval of absolute values, nonnegative case. -/
theorem absOf_pos {φ : Fmt} {x a : Itv} (hx : x.NE φ) (h0 : 0 ≤ x.lo.toE) (hl : a.lo ≠ .nan) (hh : a.hi ≠ .nan)
    (il : a.lo.In φ) (ih : a.hi.In φ) (h1 : a.lo.toE = x.lo.toE) (h2 : a.hi.toE = x.hi.toE) : AbsOf φ x a := by
  have hN : a.NE φ := ⟨hl, hh, by rw [h1, h2]; exact hx.le, by rw [h1]; exact hx.lo_top,
    by rw [h2]; exact hx.hi_bot, il, ih⟩
  refine ⟨hN, ?_, by rwa [h1]⟩
  have key : ∀ r ∈ x.set, 0 ≤ r := fun r hr => by
    have := h0.trans (hx.mem.mp hr).1; exact_mod_cast this
  have e : a.set = x.set := by rw [hN.set_eq, hx.set_eq, h1, h2]
  rw [e]
  ext r; constructor
  · intro hr; exact ⟨r, hr, abs_of_nonneg (key r hr)⟩
  · rintro ⟨s, hs, rfl⟩
    simpa [abs_of_nonneg (key s hs)] using hs

theorem absOf_neg {φ : Fmt} {x a : Itv} (hx : x.NE φ) (h0 : x.hi.toE ≤ 0) (hl : a.lo ≠ .nan) (hh : a.hi ≠ .nan)
    (il : a.lo.In φ) (ih : a.hi.In φ) (h1 : a.lo.toE = -x.hi.toE) (h2 : a.hi.toE = -x.lo.toE) : AbsOf φ x a := by
  have hN : a.NE φ := ⟨hl, hh, by rw [h1, h2]; exact EReal.neg_le_neg_iff.mpr hx.le,
    by rw [h1]; simpa using hx.hi_bot, by rw [h2]; simpa using hx.lo_top, il, ih⟩
  refine ⟨hN, ?_, by rw [h1, EReal.le_neg, neg_zero]; exact h0⟩
  have key : ∀ r ∈ x.set, r ≤ 0 := fun r hr => by
    have := (hx.mem.mp hr).2.trans h0; exact_mod_cast this
  ext r
  rw [hN.mem, h1, h2]
  constructor
  · rintro ⟨g1, g2⟩
    have hm : -r ∈ x.set := by
      rw [hx.mem, EReal.coe_neg]
      exact ⟨EReal.le_neg_of_le_neg g2, EReal.neg_le.mp g1⟩
    exact ⟨-r, hm, by simp only [abs_neg]; exact abs_of_nonneg (by have := key _ hm; linarith)⟩
  · rintro ⟨s, hs, rfl⟩
    have hs' := hx.mem.mp hs
    simp only [abs_of_nonpos (key s hs), EReal.coe_neg, EReal.neg_le_neg_iff]
    exact ⟨hs'.2, hs'.1⟩

theorem absOf_mixed {φ : Fmt} {x a : Itv} (hx : x.NE φ) (h0 : x.lo.toE ≤ 0) (h0' : 0 ≤ x.hi.toE)
    (hl : a.lo ≠ .nan) (hh : a.hi ≠ .nan)
    (il : a.lo.In φ) (ih : a.hi.In φ) (h1 : a.lo.toE = 0) (h2 : a.hi.toE = max (-x.lo.toE) x.hi.toE) :
    AbsOf φ x a := by
  have hN : a.NE φ := ⟨hl, hh, by rw [h1, h2]; exact h0'.trans (le_max_right _ _),
    by rw [h1]; simp, by rw [h2]; exact ne_bot_of_le_ne_bot hx.hi_bot (le_max_right _ _), il, ih⟩
  refine ⟨hN, ?_, h1.ge⟩
  ext r
  rw [hN.mem, h1, h2]
  constructor
  · rintro ⟨g1, g2⟩
    have g1' : (0:ℝ) ≤ r := by exact_mod_cast g1
    rcases le_max_iff.mp g2 with h | h
    · refine ⟨-r, ?_, by simp only [abs_neg]; exact abs_of_nonneg g1'⟩
      rw [hx.mem, EReal.coe_neg]
      refine ⟨EReal.le_neg_of_le_neg h, le_trans ?_ h0'⟩
      rw [← EReal.coe_neg]; exact_mod_cast neg_nonpos.mpr g1'
    · refine ⟨r, ?_, abs_of_nonneg g1'⟩
      rw [hx.mem]; exact ⟨h0.trans g1, h⟩
  · rintro ⟨s, hs, rfl⟩
    have hs' := hx.mem.mp hs
    refine ⟨by exact_mod_cast abs_nonneg s, coe_abs_le.mpr ⟨hs'.2.trans (le_max_right _ _), ?_⟩⟩
    exact (EReal.neg_le_neg_iff.mpr hs'.1).trans (le_max_left _ _)

theorem max_neg_of_nonneg {e : EReal} (h : 0 ≤ e) : max e (-e) = e :=
  max_eq_left (by
    have : -e ≤ 0 := by rwa [EReal.neg_le, neg_zero]
    exact this.trans h)
theorem max_neg_of_nonpos {e : EReal} (h : e ≤ 0) : max e (-e) = -e :=
  max_eq_right (by
    have : 0 ≤ -e := by rwa [EReal.le_neg, neg_zero]
    exact h.trans this)

/-- `abs` computes the interval of absolute values exactly. -/
theorem absI_absOf {φ : Fmt} {x : Itv} (hx : x.NE φ) : AbsOf φ x (Fmt.absI x) := by
  unfold Fmt.absI
  simp only [hx.isValid, hx.isEmpty, Bool.not_true, Bool.or_self, Bool.false_eq_true,
    if_false, NE.ge0_iff hx.lo_ne, NE.le0_iff hx.hi_ne]
  have := FP.abs_in hx.hi_in
  have := FP.abs_in hx.lo_in
  split_ifs with h1 h2
  · exact absOf_pos hx h1 hx.lo_ne hx.hi_ne hx.lo_in hx.hi_in rfl rfl
  · refine absOf_neg hx h2 (by simpa using hx.hi_ne) (by simpa using hx.lo_ne) (FP.abs_in hx.hi_in)
      (FP.abs_in hx.lo_in) ?_ ?_
    · rw [FP.toE_abs, max_neg_of_nonpos h2]
    · rw [FP.toE_abs, max_neg_of_nonpos (hx.le.trans h2)]
  · push Not at h1 h2
    have n1 : x.lo.abs ≠ .nan := by simpa using hx.lo_ne
    refine absOf_mixed hx h1.le h2.le (by simp) (FP.stdMax_ne_nan n1 hx.hi_ne)
      φ.rep_zero ?_ (by simp) ?_
    · unfold FP.stdMax; split_ifs
      · exact hx.hi_in
      · exact FP.abs_in hx.lo_in
    · rw [FP.toE_stdMax n1 hx.hi_ne, FP.toE_abs, max_neg_of_nonpos h1.le]

/-- The bounds chosen by `sqr` and by even powers are those of the interval of absolute values. -/
theorem evenBounds_mixed {φ : Fmt} {x : Itv} (hx : x.NE φ) (h1 : x.lo.toE < 0) (h2 : 0 < x.hi.toE) :
    AbsOf φ x ⟨.fin 0, if x.hi < x.lo.abs then x.lo.abs else x.hi⟩ := by
  have n1 : x.lo.abs ≠ .nan := by simpa using hx.lo_ne
  refine absOf_mixed hx h1.le h2.le (by simp) ?_ φ.rep_zero ?_ (by simp) ?_
  · show (if x.hi < x.lo.abs then x.lo.abs else x.hi) ≠ _
    split_ifs
    · exact n1
    · exact hx.hi_ne
  · show (if x.hi < x.lo.abs then x.lo.abs else x.hi).In φ
    split_ifs
    · exact FP.abs_in hx.lo_in
    · exact hx.hi_in
  · show (if x.hi < x.lo.abs then x.lo.abs else x.hi).toE = _
    split_ifs with h <;> rw [FP.lt_iff hx.hi_ne n1, FP.toE_abs, max_neg_of_nonpos h1.le] at h
    · rw [max_eq_left h.le, FP.toE_abs, max_neg_of_nonpos h1.le]
    · rw [max_eq_right (not_lt.mp h)]

theorem evenBounds {φ : Fmt} {x : Itv} (hx : x.NE φ) (h : ¬(x.lo.toE < 0 ∧ 0 < x.hi.toE)) :
    AbsOf φ x ⟨if x.lo.abs < x.hi.abs then x.lo.abs else x.hi.abs,
      if x.hi.abs < x.lo.abs then x.lo.abs else x.hi.abs⟩ := by
  have n1 : x.lo.abs ≠ .nan := by simpa using hx.lo_ne
  have n2 : x.hi.abs ≠ .nan := by simpa using hx.hi_ne
  have a1 : (if x.lo.abs < x.hi.abs then x.lo.abs else x.hi.abs) ≠ .nan := by split_ifs <;> assumption
  have a2 : (if x.hi.abs < x.lo.abs then x.lo.abs else x.hi.abs) ≠ .nan := by split_ifs <;> assumption
  have b1 : (if x.lo.abs < x.hi.abs then x.lo.abs else x.hi.abs).In φ := by
    split_ifs
    · exact FP.abs_in hx.lo_in
    · exact FP.abs_in hx.hi_in
  have b2 : (if x.hi.abs < x.lo.abs then x.lo.abs else x.hi.abs).In φ := by
    split_ifs
    · exact FP.abs_in hx.lo_in
    · exact FP.abs_in hx.hi_in
  have c1 : (if x.lo.abs < x.hi.abs then x.lo.abs else x.hi.abs).toE = min x.lo.abs.toE x.hi.abs.toE := by
    split_ifs with h <;> rw [FP.lt_iff n1 n2] at h
    · rw [min_eq_left h.le]
    · rw [min_eq_right (not_lt.mp h)]
  have c2 : (if x.hi.abs < x.lo.abs then x.lo.abs else x.hi.abs).toE = max x.lo.abs.toE x.hi.abs.toE := by
    split_ifs with h <;> rw [FP.lt_iff n2 n1] at h
    · rw [max_eq_left h.le]
    · rw [max_eq_right (not_lt.mp h)]
  by_cases h1 : x.lo.toE < 0
  · have h2 : x.hi.toE ≤ 0 := by
      by_contra hc; exact h ⟨h1, not_le.mp hc⟩
    refine absOf_neg hx h2 a1 a2 b1 b2 ?_ ?_
    · rw [c1, FP.toE_abs, FP.toE_abs, max_neg_of_nonpos h1.le, max_neg_of_nonpos h2]
      exact min_eq_right (EReal.neg_le_neg_iff.mpr hx.le)
    · rw [c2, FP.toE_abs, FP.toE_abs, max_neg_of_nonpos h1.le, max_neg_of_nonpos h2]
      exact max_eq_left (EReal.neg_le_neg_iff.mpr hx.le)
  · have h2 := not_lt.mp h1
    refine absOf_pos hx h2 a1 a2 b1 b2 ?_ ?_
    · rw [c1, FP.toE_abs, FP.toE_abs, max_neg_of_nonneg h2, max_neg_of_nonneg (h2.trans hx.le)]
      exact min_eq_left hx.le
    · rw [c2, FP.toE_abs, FP.toE_abs, max_neg_of_nonneg h2, max_neg_of_nonneg (h2.trans hx.le)]
      exact max_eq_right hx.le

end P1788
