import Verif.Props.C07
import Verif.Props.C09
import Mathlib.Analysis.SpecialFunctions.Trigonometric.DerivHyp

/-! # C13: hyperbolic functions and their inverses -/

namespace P1788
open Filter Topology
variable {φ : Fmt} {x : Itv}

theorem tendsto_sinh_atTop : Tendsto Real.sinh atTop atTop :=
  Real.sinh_strictMono.monotone.tendsto_atTop_atTop (fun b => ⟨_, (Real.sinh_arsinh b).ge⟩)
theorem tendsto_sinh_atBot : Tendsto Real.sinh atBot atBot :=
  Real.sinh_strictMono.monotone.tendsto_atBot_atBot (fun b => ⟨_, (Real.sinh_arsinh b).le⟩)
theorem tendsto_cosh_atTop : Tendsto Real.cosh atTop atTop :=
  tendsto_atTop_mono (fun t => (Real.sinh_lt_cosh t).le) tendsto_sinh_atTop
theorem tendsto_cosh_atBot : Tendsto Real.cosh atBot atTop := by
  have : Tendsto (fun t : ℝ => Real.cosh (-t)) atBot atTop := tendsto_cosh_atTop.comp tendsto_neg_atBot_atTop
  simpa using this
theorem tendsto_arsinh_atTop : Tendsto Real.arsinh atTop atTop :=
  Real.arsinh_strictMono.monotone.tendsto_atTop_atTop (fun b => ⟨_, (Real.arsinh_sinh b).ge⟩)
theorem tendsto_arsinh_atBot : Tendsto Real.arsinh atBot atBot :=
  Real.arsinh_strictMono.monotone.tendsto_atBot_atBot (fun b => ⟨_, (Real.arsinh_sinh b).le⟩)

theorem tanh_formula (t : ℝ) : Real.tanh t = 1 - 2 / (Real.exp (2 * t) + 1) := by
  have h := Real.exp_pos t
  have h2 : Real.exp (2 * t) = Real.exp t * Real.exp t := by rw [← Real.exp_add]; ring_nf
  rw [Real.tanh_eq, h2, Real.exp_neg]
  field_simp
  ring

theorem tanh_mono : Monotone Real.tanh := by
  intro a b h
  rw [tanh_formula, tanh_formula]
  have := Real.exp_pos (2 * a)
  have h' : Real.exp (2 * a) ≤ Real.exp (2 * b) := Real.exp_monotone (by linarith)
  gcongr

theorem tendsto_tanh_atTop : Tendsto Real.tanh atTop (𝓝 1) := by
  have e : Real.tanh = fun t => 1 - 2 / (Real.exp (2 * t) + 1) := funext tanh_formula
  rw [e]
  have h1 : Tendsto (fun t : ℝ => Real.exp (2 * t) + 1) atTop atTop :=
    tendsto_atTop_add_const_right _ _ (Real.tendsto_exp_atTop.comp (tendsto_id.const_mul_atTop (by norm_num)))
  simpa using (tendsto_const_nhds (x := (1:ℝ))).sub (Tendsto.div_atTop (tendsto_const_nhds (x := (2:ℝ))) h1)

theorem tendsto_tanh_atBot : Tendsto Real.tanh atBot (𝓝 (-1)) := by
  have : Tendsto (fun t : ℝ => - Real.tanh (-t)) atBot (𝓝 (-1)) :=
    (tendsto_tanh_atTop.comp tendsto_neg_atBot_atTop).neg
  simpa using this

theorem rep_neg_one (φ : Fmt) : φ.Rep (-1) := (rep_one φ).neg

/-- `sinh(x)` is the tightest enclosure of the hyperbolic sines of the members of `x`. -/
theorem C13_sinh (hx : x.Ok φ) : Tightest φ (φ.sinhI x) (Real.sinh '' x.set) := by
  rcases hx.cases with rfl | hx
  · exact tightest_empty' (by simp [Fmt.sinhI]) (by simp)
  simp only [Fmt.sinhI, hx.isValid, hx.isEmpty, Bool.not_true, Bool.or_self, Bool.false_eq_true, if_false]
  exact tight_mono hx (Real.sinh_strictMono.monotone.monotoneOn _)
    (ULim.un hx.lo_ne (fun _ => ULim.ninf_ninf tendsto_sinh_atBot) (fun _ => ULim.pinf_pinf tendsto_sinh_atTop))
    (ULim.un hx.hi_ne (fun _ => ULim.ninf_ninf tendsto_sinh_atBot) (fun _ => ULim.pinf_pinf tendsto_sinh_atTop))

/-- `asinh(x)`. -/
theorem C13_asinh (hx : x.Ok φ) : Tightest φ (φ.asinhI x) (Real.arsinh '' x.set) := by
  rcases hx.cases with rfl | hx
  · exact tightest_empty' (by simp [Fmt.asinhI]) (by simp)
  simp only [Fmt.asinhI, hx.isValid, hx.isEmpty, Bool.not_true, Bool.or_self, Bool.false_eq_true, if_false]
  exact tight_mono hx (Real.arsinh_strictMono.monotone.monotoneOn _)
    (ULim.un hx.lo_ne (fun _ => ULim.ninf_ninf tendsto_arsinh_atBot) (fun _ => ULim.pinf_pinf tendsto_arsinh_atTop))
    (ULim.un hx.hi_ne (fun _ => ULim.ninf_ninf tendsto_arsinh_atBot) (fun _ => ULim.pinf_pinf tendsto_arsinh_atTop))

/-- `tanh(x)`. -/
theorem C13_tanh (hx : x.Ok φ) : Tightest φ (φ.tanhI x) (Real.tanh '' x.set) := by
  rcases hx.cases with rfl | hx
  · exact tightest_empty' (by simp [Fmt.tanhI]) (by simp)
  simp only [Fmt.tanhI, hx.isValid, hx.isEmpty, Bool.not_true, Bool.or_self, Bool.false_eq_true, if_false]
  have hn : ∀ m, m ≠ Rnd.N → ULim φ m Real.tanh .ninf (.fin (-1)) := fun m hm =>
    ULim.mk_ninf_real tendsto_tanh_atBot (by
      have := rndE_self (φ := φ) (m := m) (a := .fin (-1)) (rep_neg_one φ) (by simp) hm
      simpa using this.symm) (by simp) (rep_neg_one φ)
  have hp : ∀ m, m ≠ Rnd.N → ULim φ m Real.tanh .pinf (.fin 1) := fun m hm =>
    ULim.mk_pinf_real tendsto_tanh_atTop (by
      have := rndE_self (φ := φ) (m := m) (a := .fin 1) (rep_one φ) (by simp) hm
      simpa using this.symm) (by simp) (rep_one φ)
  exact tight_mono hx (tanh_mono.monotoneOn _)
    (ULim.un hx.lo_ne (fun _ => hn _ (by simp)) (fun _ => hp _ (by simp)))
    (ULim.un hx.hi_ne (fun _ => hn _ (by simp)) (fun _ => hp _ (by simp)))

theorem cosh_absOf {a : Itv} (h : AbsOf φ x a) : Real.cosh '' x.set = Real.cosh '' a.set := by
  rw [h.set, Set.image_image]; simp

theorem cosh_un (m : Rnd) {a : FP} (ha : a ≠ .nan) : ULim φ m Real.cosh a (φ.un m Real.cosh .pinf .pinf a) :=
  ULim.un ha (fun _ => ULim.ninf_pinf tendsto_cosh_atBot) (fun _ => ULim.pinf_pinf tendsto_cosh_atTop)

theorem absOf_minmax {a : Itv} (hx : x.NE φ) (h : ¬(x.lo.toE < 0 ∧ 0 < x.hi.toE))
    (a1 : a.lo ≠ .nan) (a2 : a.hi ≠ .nan) (b1 : a.lo.In φ) (b2 : a.hi.In φ)
    (c1 : a.lo.toE = min x.lo.abs.toE x.hi.abs.toE) (c2 : a.hi.toE = max x.lo.abs.toE x.hi.abs.toE) :
    AbsOf φ x a := by
  by_cases h1 : x.lo.toE < 0
  · have h2 : x.hi.toE ≤ 0 := by
      by_contra hc; exact h ⟨h1, not_le.mp hc⟩
    refine absOf_neg hx h2 a1 a2 b1 b2 ?_ ?_
    · rw [c1, FP.toE_abs, FP.toE_abs, max_neg_of_nonpos h1.le, max_neg_of_nonpos h2]
      exact min_eq_right (EReal.neg_le_neg_iff.mpr hx.le)
    · rw [c2, FP.toE_abs, FP.toE_abs, max_neg_of_nonpos h1.le, max_neg_of_nonpos h2]
      exact max_eq_left (EReal.neg_le_neg_iff.mpr hx.le)
  · have h2 := not_lt.mp h1
    refine absOf_pos hx h2 a1 a2 b1 b2 ?_ ?_
    · rw [c1, FP.toE_abs, FP.toE_abs, max_neg_of_nonneg h2, max_neg_of_nonneg (h2.trans hx.le)]
      exact min_eq_left hx.le
    · rw [c2, FP.toE_abs, FP.toE_abs, max_neg_of_nonneg h2, max_neg_of_nonneg (h2.trans hx.le)]
      exact max_eq_right hx.le

theorem tight_cosh_absOf {a : Itv} (h : AbsOf φ x a) {l u : FP} (h1 : ULim φ .D Real.cosh a.lo l)
    (h2 : ULim φ .U Real.cosh a.hi u) : Tightest φ ⟨l, u⟩ (Real.cosh '' x.set) := by
  rw [cosh_absOf h]
  refine tight_mono h.ne (Real.cosh_strictMonoOn.monotoneOn.mono (fun r hr => ?_)) h1 h2
  have := h.nonneg.trans (h.ne.mem.mp hr).1
  show (0:ℝ) ≤ r
  exact_mod_cast this

/-- `cosh(x)`. -/
theorem C13_cosh (hx : x.Ok φ) : Tightest φ (φ.coshI x) (Real.cosh '' x.set) := by
  rcases hx.cases with rfl | hx
  · exact tightest_empty' (by simp [Fmt.coshI]) (by simp)
  simp only [Fmt.coshI, hx.isValid, hx.isEmpty, Bool.not_true, Bool.or_self, Bool.false_eq_true, if_false,
    NE.lt0_iff hx.lo_ne, NE.gt0_iff hx.hi_ne]
  have nl : x.lo.abs ≠ .nan := by simpa using hx.lo_ne
  have nh : x.hi.abs ≠ .nan := by simpa using hx.hi_ne
  have nn : x.lo.neg ≠ .nan := by simpa using hx.lo_ne
  split_ifs with h
  · have hA : AbsOf φ x ⟨.fin 0, x.lo.neg.stdMax x.hi⟩ :=
      absOf_mixed hx h.1.le h.2.le (by simp) (FP.stdMax_ne_nan nn hx.hi_ne) φ.rep_zero
        (FP.stdMax_in (FP.neg_in hx.lo_in) hx.hi_in) (by simp)
        (by show (x.lo.neg.stdMax x.hi).toE = _
            rw [FP.toE_stdMax nn hx.hi_ne, FP.toE_neg])
    refine tight_cosh_absOf hA ?_ (cosh_un _ hA.ne.hi_ne)
    refine ⟨⟨(Real.cosh 0 : EReal), ?_, ?_⟩, by simp, rep_one φ⟩
    · have := LimAt.coe Real.cosh 0; simpa using this
    · have := rndE_self (φ := φ) (m := .D) (a := .fin 1) (rep_one φ) (by simp) (by simp)
      simpa using this.symm
  · have hA : AbsOf φ x ⟨x.lo.abs.stdMin x.hi.abs, x.lo.abs.stdMax x.hi.abs⟩ :=
      absOf_minmax hx h (FP.stdMin_ne_nan nl nh) (FP.stdMax_ne_nan nl nh)
        (FP.stdMin_in (FP.abs_in hx.lo_in) (FP.abs_in hx.hi_in))
        (FP.stdMax_in (FP.abs_in hx.lo_in) (FP.abs_in hx.hi_in))
        (FP.toE_stdMin nl nh) (FP.toE_stdMax nl nh)
    exact tight_cosh_absOf hA (cosh_un _ hA.ne.lo_ne) (cosh_un _ hA.ne.hi_ne)

theorem tendsto_arcosh_atTop : Tendsto Real.arcosh atTop atTop := by
  rw [tendsto_atTop]
  intro b
  filter_upwards [eventually_ge_atTop (Real.cosh (max b 0))] with t ht
  have h0 := Real.one_le_cosh (max b 0)
  calc b ≤ max b 0 := le_max_left _ _
    _ = Real.arcosh (Real.cosh (max b 0)) := (Real.arcosh_cosh (le_max_right _ _)).symm
    _ ≤ Real.arcosh t := Real.strictMonoOn_arcosh.monotoneOn (lt_of_lt_of_le one_pos h0)
        (lt_of_lt_of_le one_pos (h0.trans ht)) ht

theorem toE_one : (FP.fin 1).toE = 1 := by simp
theorem toE_neg_one : (FP.fin (-1)).toE = -1 := by simp
theorem ereal_neg_one : (-1 : EReal) = ((-1:ℝ) : EReal) := by simp

theorem FP.eq_fin_of_toE {a : FP} {q : ℚ} (hq : q ≠ 0) (ha : a ≠ .nan) (h : a.toE = ((q:ℝ):EReal)) : a = .fin q := by
  cases a with
  | nan => exact absurd rfl ha
  | ninf => exact absurd h (EReal.bot_ne_coe _)
  | pinf => exact absurd h (EReal.top_ne_coe _)
  | nzero =>
    have : (0:ℝ) = q := by
      have h : ((0:ℝ):EReal) = ((q:ℝ):EReal) := h
      exact_mod_cast h
    exact absurd (by exact_mod_cast this.symm) hq
  | fin r =>
    have : (r:ℝ) = q := by
      rw [FP.toE_fin] at h; exact_mod_cast h
    have : r = q := by exact_mod_cast this
    rw [this]

theorem acosh_ulim (m : Rnd) {a : FP} (ha : a ≠ .nan) (h1 : 1 ≤ a.toE) :
    ULim φ m Real.arcosh a (φ.acosh m a) := by
  cases a with
  | nan => exact absurd rfl ha
  | ninf => exact absurd (le_bot_iff.mp h1) (EReal.coe_ne_bot 1)
  | pinf => exact ULim.pinf_pinf tendsto_arcosh_atTop
  | nzero => exact absurd (show (1:ℝ) ≤ 0 by exact_mod_cast (show ((1:ℝ):EReal) ≤ ((0:ℝ):EReal) from h1)) (by norm_num)
  | fin q =>
    have hq : (1:ℝ) ≤ q := by
      rw [FP.toE_fin] at h1; exact_mod_cast h1
    have hq : 1 ≤ q := by exact_mod_cast hq
    simp only [Fmt.acosh, not_lt.mpr hq, if_false]
    exact ULim.fin φ m _ q

/-- `acosh(x)` encloses the values at the members that are at least one. -/
theorem C13_acosh (hx : x.Ok φ) : Tightest φ (φ.acoshI x) (Real.arcosh '' {a ∈ x.set | 1 ≤ a}) := by
  rcases hx.cases with rfl | hx
  · exact tightest_empty' (by simp [Fmt.acoshI]) (by simp)
  simp only [Fmt.acoshI, hx.isValid, hx.isEmpty, Bool.not_true, Bool.or_self, Bool.false_or,
    FP.lt_iff hx.lo_ne (show FP.fin 1 ≠ .nan by simp), ltb_iff hx.hi_ne (show FP.fin 1 ≠ .nan by simp), toE_one]
  by_cases h1 : x.hi.toE < 1
  · rw [if_pos h1]
    refine tightest_empty' rfl ?_
    rw [Set.image_eq_empty, Set.eq_empty_iff_forall_notMem]
    rintro a ⟨ha, ha0⟩
    have := lt_of_le_of_lt (hx.mem.mp ha).2 h1
    have : a < 1 := by exact_mod_cast this
    linarith
  rw [if_neg h1]
  have h1 := not_lt.mp h1
  have hm : MonotoneOn Real.arcosh {a | 1 ≤ a} :=
    Real.strictMonoOn_arcosh.monotoneOn.mono (fun a (ha : 1 ≤ a) => Set.mem_Ioi.mpr (one_pos.trans_le ha))
  by_cases h2 : x.lo.toE < 1
  · rw [if_pos h2]
    have hN : (Itv.mk (.fin 1) x.hi).NE φ :=
      ⟨by simp, hx.hi_ne, by simpa using h1, EReal.coe_ne_top _, hx.hi_bot, rep_one φ, hx.hi_in⟩
    have e : {a ∈ x.set | 1 ≤ a} = (Itv.mk (.fin 1) x.hi).set := by
      ext r; rw [hN.mem]; simp only [Set.mem_ofPred_eq, hx.mem, toE_one]
      constructor
      · rintro ⟨g, g'⟩; exact ⟨by exact_mod_cast g', g.2⟩
      · rintro ⟨g, g'⟩; exact ⟨⟨h2.le.trans g, g'⟩, by exact_mod_cast g⟩
    rw [e]
    refine tight_mono hN (hm.mono ?_) (acosh_ulim _ (by simp) (by simp)) (acosh_ulim _ hx.hi_ne h1)
    rw [← e]; exact fun r hr => hr.2
  · rw [if_neg h2]
    have h2 := not_lt.mp h2
    have e : {a ∈ x.set | 1 ≤ a} = x.set := by
      ext r; constructor
      · exact fun h => h.1
      · intro h
        have := h2.trans (hx.mem.mp h).1
        exact ⟨h, by exact_mod_cast this⟩
    rw [e]
    refine tight_mono hx (hm.mono ?_) (acosh_ulim _ hx.lo_ne h2) (acosh_ulim _ hx.hi_ne h1)
    rw [← e]; exact fun r hr => hr.2

theorem tendsto_artanh_right : Tendsto Real.artanh (𝓝[<] 1) atTop := by
  rw [tendsto_atTop]
  intro b
  have h1 := Real.tanh_lt_one b
  have h2 := Real.neg_one_lt_tanh b
  have : ∀ᶠ y in 𝓝[<] (1:ℝ), Real.tanh b ≤ y := (eventually_ge_nhds h1).filter_mono nhdsWithin_le_nhds
  filter_upwards [this, self_mem_nhdsWithin] with y g1 g2
  rw [← Real.artanh_tanh b]
  exact Real.strictMonoOn_artanh.monotoneOn ⟨h2, h1⟩ ⟨h2.trans_le g1, g2⟩ g1

theorem tendsto_artanh_left : Tendsto Real.artanh (𝓝[>] (-1)) atBot := by
  rw [tendsto_atBot]
  intro b
  have h1 := Real.tanh_lt_one b
  have h2 := Real.neg_one_lt_tanh b
  have : ∀ᶠ y in 𝓝[>] (-1:ℝ), y ≤ Real.tanh b := (eventually_le_nhds h2).filter_mono nhdsWithin_le_nhds
  filter_upwards [this, self_mem_nhdsWithin] with y g1 g2
  rw [← Real.artanh_tanh b]
  exact Real.strictMonoOn_artanh.monotoneOn ⟨g2, g1.trans_lt h1⟩ ⟨h2, h1⟩ g1

theorem atanh_ulim (m : Rnd) {a : FP} (ha : a ≠ .nan) (h1 : -1 < a.toE) (h2 : a.toE < 1) :
    ULim φ m Real.artanh a (φ.atanh m a) := by
  cases a with
  | nan => exact absurd rfl ha
  | ninf => simp at h1
  | pinf => simp at h2
  | nzero =>
    refine ⟨⟨(Real.artanh 0 : EReal), ?_, ?_⟩, by simp [Fmt.atanh], trivial⟩
    · have := LimAt.coe Real.artanh 0; simpa using this
    · simp [Fmt.atanh]
  | fin q =>
    have hq : (-1:ℝ) < q := by
      have : ((-1:ℝ):EReal) < ((q:ℝ):EReal) := by simpa using h1
      exact_mod_cast this
    have hq' : (q:ℝ) < 1 := by
      rw [FP.toE_fin] at h2; exact_mod_cast h2
    have hq : -1 < q := by exact_mod_cast hq
    have hq' : q < 1 := by exact_mod_cast hq'
    have : ¬ (q < -1 ∨ 1 < q) := by push Not; exact ⟨hq.le, hq'.le⟩
    simp only [Fmt.atanh, this, if_false, hq.ne', hq'.ne]
    exact ULim.fin φ m _ q

/-- `atanh(x)` encloses the values at the members inside `(-1,1)`. -/
theorem C13_atanh (hx : x.Ok φ) :
    Tightest φ (φ.atanhI x) (Real.artanh '' {a ∈ x.set | -1 < a ∧ a < 1}) := by
  rcases hx.cases with rfl | hx
  · exact tightest_empty' (by simp [Fmt.atanhI]) (by simp)
  have n1 : FP.fin 1 ≠ .nan := by simp
  have n2 : FP.fin (-1) ≠ .nan := by simp
  simp only [Fmt.atanhI, hx.isValid, hx.isEmpty, Bool.not_true, Bool.or_self, Bool.false_or, Bool.or_eq_true,
    FP.lt_iff hx.lo_ne n2, FP.lt_iff n1 hx.hi_ne, leb_iff hx.hi_ne n2, leb_iff n1 hx.lo_ne, toE_one, toE_neg_one]
  by_cases h1 : x.hi.toE ≤ -1 ∨ 1 ≤ x.lo.toE
  · rw [if_pos h1]
    refine tightest_empty' rfl ?_
    rw [Set.image_eq_empty, Set.eq_empty_iff_forall_notMem]
    rintro a ⟨ha, ha0, ha1⟩
    rcases h1 with h1 | h1
    · have := (hx.mem.mp ha).2.trans h1
      rw [ereal_neg_one] at this
      have : a ≤ -1 := by exact_mod_cast this
      linarith
    · have := h1.trans (hx.mem.mp ha).1
      have : 1 ≤ a := by exact_mod_cast this
      linarith
  rw [if_neg h1]
  push Not at h1
  obtain ⟨hu, hl⟩ := h1
  set D := {a ∈ x.set | -1 < a ∧ a < 1} with hD
  have hm : MonotoneOn Real.artanh D := Real.strictMonoOn_artanh.monotoneOn.mono (fun r hr => hr.2)
  -- a member in the middle
  have memD : ∀ r : ℝ, r ∈ D ↔ (x.lo.toE ≤ r ∧ (r:EReal) ≤ x.hi.toE) ∧ -1 < r ∧ r < 1 := fun r => by
    rw [hD]; simp only [Set.mem_ofPred_eq, hx.mem]
  have lower : ∃ (F : Filter ℝ) (L : EReal), EndL D F ∧ Tendsto (fun t => (Real.artanh t : EReal)) F (𝓝 L) ∧
      ∀ a, a = φ.atanh .D (if x.lo.toE < -1 then .fin (-1) else x.lo) → a.toE = φ.rdE L ∧ a ≠ .nan ∧ a.In φ := by
    by_cases h : x.lo.toE ≤ -1
    · obtain ⟨c, hc0, hc⟩ := EReal.lt_iff_exists_real_btwn.mp (lt_min hu (show (-1:EReal) < 1 by
        rw [ereal_neg_one]; exact_mod_cast (by norm_num : (-1:ℝ) < 1)))
      rw [ereal_neg_one] at hc0
      have hc0 : -1 < c := by exact_mod_cast hc0
      have hc1 : c < 1 := by exact_mod_cast (lt_min_iff.mp hc).2
      refine ⟨𝓝[>] (-1), ⊥, EndL.open (c := c) (fun y hy => hy.2.1) hc0 (fun y h1 h2 => ?_),
        tendsto_coe_atBot.comp tendsto_artanh_left, ?_⟩
      · refine (memD y).mpr ⟨⟨h.trans ?_, le_trans (by exact_mod_cast h2) (lt_min_iff.mp hc).1.le⟩, h1, h2.trans_lt hc1⟩
        rw [ereal_neg_one]; exact_mod_cast h1.le
      · rintro a rfl
        have : φ.atanh .D (if x.lo.toE < -1 then .fin (-1) else x.lo) = .ninf := by
          split_ifs with g
          · simp [Fmt.atanh, show ¬ (1:ℚ) < -1 by norm_num]
          · have g : x.lo.toE = ((-1:ℝ):EReal) := by
              rw [← ereal_neg_one]; exact le_antisymm h (not_lt.mp g)
            rw [FP.eq_fin_of_toE (q := -1) (by norm_num) hx.lo_ne (by simpa using g)]
            simp [Fmt.atanh, show ¬ (1:ℚ) < -1 by norm_num]
        rw [this]; simp [FP.In]
    · have h := not_le.mp h
      have hU := atanh_ulim (φ := φ) .D hx.lo_ne h hl
      obtain ⟨L, hL, hr⟩ := hU.ex
      refine ⟨filtE x.lo.toE, L, ?_, hL, ?_⟩
      · refine ⟨inferInstance, ?_, fun y hy => hx.seg.endL.le y (by rw [← hx.set_eq]; exact hy.1)⟩
        obtain ⟨l, hle⟩ : ∃ l : ℝ, x.lo.toE = l := by
          induction he : x.lo.toE with
          | bot => rw [he] at h; simp at h
          | top => exact absurd he hx.lo_top
          | coe l => exact ⟨l, rfl⟩
        rw [hle, filtE_coe, eventually_pure]
        rw [hle] at h hl
        refine (memD l).mpr ⟨⟨by rw [hle], by rw [← hle]; exact hx.le⟩, ?_, by exact_mod_cast hl⟩
        rw [ereal_neg_one] at h; exact_mod_cast h
      · rintro a rfl
        rw [if_neg (not_lt.mpr h.le)]
        exact ⟨hr, hU.ne, hU.inφ⟩
  have upper : ∃ (F : Filter ℝ) (L : EReal), EndU D F ∧ Tendsto (fun t => (Real.artanh t : EReal)) F (𝓝 L) ∧
      ∀ a, a = φ.atanh .U (if 1 < x.hi.toE then .fin 1 else x.hi) → a.toE = φ.ruE L ∧ a ≠ .nan ∧ a.In φ := by
    by_cases h : 1 ≤ x.hi.toE
    · obtain ⟨c, hc, hc1⟩ := EReal.lt_iff_exists_real_btwn.mp (max_lt hl (show (-1:EReal) < 1 by
        rw [ereal_neg_one]; exact_mod_cast (by norm_num : (-1:ℝ) < 1)))
      have hc1 : c < 1 := by exact_mod_cast hc1
      have hc0 := (max_lt_iff.mp hc).2
      rw [ereal_neg_one] at hc0
      have hc0 : -1 < c := by exact_mod_cast hc0
      refine ⟨𝓝[<] 1, ⊤, EndU.open (c := c) (fun y hy => hy.2.2) hc1 (fun y h1 h2 => ?_),
        tendsto_coe_atTop.comp tendsto_artanh_right, ?_⟩
      · refine (memD y).mpr ⟨⟨(max_lt_iff.mp hc).1.le.trans (by exact_mod_cast h1), le_trans ?_ h⟩,
          hc0.trans_le h1, h2⟩
        exact_mod_cast h2.le
      · rintro a rfl
        have : φ.atanh .U (if 1 < x.hi.toE then .fin 1 else x.hi) = .pinf := by
          split_ifs with g
          · simp [Fmt.atanh, show ¬ (1:ℚ) < -1 by norm_num, show ¬ (1:ℚ) = -1 by norm_num]
          · have g : x.hi.toE = ((1:ℝ):EReal) := by
              have := le_antisymm (not_lt.mp g) h
              simpa using this
            rw [FP.eq_fin_of_toE (q := 1) (by norm_num) hx.hi_ne (by simpa using g)]
            simp [Fmt.atanh, show ¬ (1:ℚ) < -1 by norm_num, show ¬ (1:ℚ) = -1 by norm_num]
        rw [this]; simp [FP.In]
    · have h := not_le.mp h
      have hU := atanh_ulim (φ := φ) .U hx.hi_ne hu h
      obtain ⟨L, hL, hr⟩ := hU.ex
      refine ⟨filtE x.hi.toE, L, ?_, hL, ?_⟩
      · refine ⟨inferInstance, ?_, fun y hy => hx.seg.endU.ge y (by rw [← hx.set_eq]; exact hy.1)⟩
        obtain ⟨l, hle⟩ : ∃ l : ℝ, x.hi.toE = l := by
          induction he : x.hi.toE with
          | bot => exact absurd he hx.hi_bot
          | top => rw [he] at h; simp at h
          | coe l => exact ⟨l, rfl⟩
        rw [hle, filtE_coe, eventually_pure]
        rw [hle] at h hu
        refine (memD l).mpr ⟨⟨by rw [← hle]; exact hx.le, by rw [hle]⟩, ?_, by exact_mod_cast h⟩
        rw [ereal_neg_one] at hu; exact_mod_cast hu
      · rintro a rfl
        rw [if_neg (not_lt.mpr h.le)]
        exact ⟨hr, hU.ne, hU.inφ⟩
  obtain ⟨F, L, hF, hFL, hl'⟩ := lower
  obtain ⟨G, U, hG, hGU, hu'⟩ := upper
  obtain ⟨a1, a2, a3⟩ := hl' _ rfl
  obtain ⟨b1, b2, b3⟩ := hu' _ rfl
  exact tightest_of_box (box_mono' hF hG hm hFL hGU) a2 b2 a3 b3 a1 b1

/-- Non-vacuity: partly outside the domain on one side. -/
example : (Itv.mk (.fin (1/2)) .pinf).Ok binary64 ∧
    (Real.artanh '' {a ∈ (Itv.mk (.fin (1/2)) .pinf).set | -1 < a ∧ a < 1}).Nonempty :=
  ⟨Itv.ok_of_okb (by decide +kernel),
   ⟨_, 3/4, ⟨⟨by norm_num [FP.BelowR], by norm_num [FP.AboveR]⟩, by norm_num⟩, rfl⟩⟩

end P1788
