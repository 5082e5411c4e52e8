import Verif.Model.Pow
import Verif.Lemmas.Atan2b
import Verif.Props.C13

/-! # C08: the general power function -/

namespace P1788
open Filter Topology
variable {φ : Fmt} {x y : Itv}

/-- `a^b` as a function on pairs. -/
noncomputable def pw (p : ℝ × ℝ) : ℝ := p.1 ^ p.2

/-- Pairs in the domain of the power function: positive base, or zero base and positive exponent. -/
def powPairs (x y : Itv) : Set (ℝ × ℝ) :=
  {p | p.1 ∈ x.set ∧ p.2 ∈ y.set ∧ (0 < p.1 ∨ (p.1 = 0 ∧ 0 < p.2))}

theorem toE_lt_one {q : ℚ} : FP.fin q < .fin 1 ↔ (q:ℝ) < 1 := by
  rw [FP.lt_iff (by simp) (by simp), toE_one, FP.toE_fin]
  exact_mod_cast Iff.rfl

theorem isZero_fin_iff {q : ℚ} : (FP.fin q).isZero = true ↔ q = 0 := by
  rw [Fmt.isZero_iff (by simp), FP.toE_fin]; simp

/-- Corner values with a positive base are limits of the power function. -/
theorem pow_ulim (φ : Fmt) (m : Rnd) (hm : m ≠ .N) {a b : FP} (ha : a ≠ .nan) (hb : b ≠ .nan) (h0 : 0 < a.toE) :
    ULim2 φ m pw a b (φ.pow m a b) := by
  have one : ((1:ℝ):EReal) = φ.rndE m ((1:ℝ):EReal) := by
    have := rndE_self (φ := φ) (m := m) (a := .fin 1) (rep_one φ) (by simp) hm
    simpa using this.symm
  have rone : (FP.fin 1).toE = φ.rndE m ((1:ℝ):EReal) := by rw [← one, toE_one]; rfl
  have na : a.isNaN = false := Itv.isNaN_eq_false.mpr ha
  have nb : b.isNaN = false := Itv.isNaN_eq_false.mpr hb
  have a0 : a ≠ .fin 0 := by rintro rfl; simp at h0
  unfold Fmt.pow
  by_cases hz : b.toE = 0
  · rw [if_pos ((Fmt.isZero_iff hb).mpr hz)]
    refine ⟨⟨((1:ℝ):EReal), ?_, rone⟩, by simp, rep_one φ⟩
    rw [hz, show (0:EReal) = ((0:ℝ):EReal) from rfl, filtE_coe, Filter.prod_pure, tendsto_map'_iff]
    refine tendsto_const_nhds.congr (fun t => ?_)
    simp [pw]
  rw [if_neg (by rw [Fmt.isZero_iff hb]; exact hz)]
  by_cases h1 : a = .fin 1
  · rw [if_pos h1]
    refine ⟨⟨((1:ℝ):EReal), ?_, rone⟩, by simp, rep_one φ⟩
    rw [h1, toE_one, show (1:EReal) = ((1:ℝ):EReal) from rfl, filtE_coe, Filter.pure_prod, tendsto_map'_iff]
    refine tendsto_const_nhds.congr (fun t => ?_)
    simp [pw]
  rw [if_neg h1, na, nb, if_neg (by simp), if_neg a0, signbit_of_pos h0, if_neg (by simp)]
  by_cases h2 : a = .pinf
  · rw [if_pos h2]
    subst h2
    rcases lt_or_gt_of_ne hz with g | g
    · rw [signbit_of_neg g, if_pos rfl]
      refine ⟨⟨((0:ℝ):EReal), ?_, by simp⟩, by simp, φ.rep_zero⟩
      refine (continuous_coe_real_ereal.tendsto _).comp ?_
      rcases toE_cases hb with rfl | rfl | ⟨eb, -⟩
      · rw [FP.toE_pinf, FP.toE_ninf, filtE_top, filtE_bot]
        have hinv : Tendsto (fun p : ℝ × ℝ => p.1⁻¹) (atTop ×ˢ atBot) (𝓝 0) :=
          tendsto_inv_atTop_zero.comp tendsto_fst
        refine tendsto_of_tendsto_of_tendsto_of_le_of_le' tendsto_const_nhds hinv ?_ ?_
        · filter_upwards [(eventually_ge_atTop (1:ℝ)).prod_mk (eventually_le_atBot (-1:ℝ))] with p hp
          exact Real.rpow_nonneg (by linarith [hp.1]) _
        · filter_upwards [(eventually_ge_atTop (1:ℝ)).prod_mk (eventually_le_atBot (-1:ℝ))] with p hp
          rw [← Real.rpow_neg_one]
          exact Real.rpow_le_rpow_of_exponent_le hp.1 hp.2
      · simp at g
      · rw [FP.toE_pinf, eb, filtE_top, filtE_coe, Filter.prod_pure, tendsto_map'_iff]
        have g' : (b.q:ℝ) < 0 := by rw [eb] at g; exact_mod_cast g
        have := tendsto_rpow_neg_atTop (y := -(b.q:ℝ)) (by linarith)
        rw [neg_neg] at this
        exact this
    · rw [signbit_of_pos g, if_neg (by simp)]
      refine ⟨⟨⊤, ?_, by simp⟩, by simp, trivial⟩
      refine tendsto_coe_atTop.comp ?_
      rcases toE_cases hb with rfl | rfl | ⟨eb, -⟩
      · simp at g
      · rw [FP.toE_pinf, filtE_top]
        refine tendsto_atTop_mono' _ ?_ (tendsto_fst : Tendsto Prod.fst (atTop ×ˢ atTop : Filter (ℝ × ℝ)) atTop)
        filter_upwards [(eventually_ge_atTop (1:ℝ)).prod_mk (eventually_ge_atTop (1:ℝ))] with p hp
        calc p.1 = p.1 ^ (1:ℝ) := (Real.rpow_one _).symm
          _ ≤ p.1 ^ p.2 := Real.rpow_le_rpow_of_exponent_le hp.1 hp.2
      · rw [FP.toE_pinf, eb, filtE_top, filtE_coe, Filter.prod_pure, tendsto_map'_iff]
        have g' : 0 < (b.q:ℝ) := by rw [eb] at g; exact_mod_cast g
        exact tendsto_rpow_atTop g'
  rw [if_neg h2]
  obtain ⟨q, rfl⟩ : ∃ q, a = .fin q := by
    cases a with
    | nan => exact absurd rfl ha
    | ninf => simp at h0
    | pinf => exact absurd rfl h2
    | nzero => simp at h0
    | fin q => exact ⟨q, rfl⟩
  have hq0 : (0:ℝ) < q := by rw [FP.toE_fin] at h0; exact_mod_cast h0
  have hq1 : (q:ℝ) ≠ 1 := fun h => h1 (by rw [show q = 1 by exact_mod_cast h])
  by_cases hq : FP.fin q < .fin 1
  · have hq' := toE_lt_one.mp hq
    by_cases h3 : b = .pinf
    · subst h3
      rw [if_pos rfl, if_pos hq]
      refine ⟨⟨((0:ℝ):EReal), ?_, by simp⟩, by simp, φ.rep_zero⟩
      refine (continuous_coe_real_ereal.tendsto _).comp ?_
      rw [FP.toE_pinf, FP.toE_fin, filtE_top, filtE_coe, Filter.pure_prod, tendsto_map'_iff]
      exact tendsto_rpow_atTop_of_base_lt_one _ (show (-1:ℝ) < q by linarith) hq'
    rw [if_neg h3]
    by_cases h4 : b = .ninf
    · subst h4
      rw [if_pos rfl, if_pos hq]
      refine ⟨⟨⊤, ?_, by simp⟩, by simp, trivial⟩
      refine tendsto_coe_atTop.comp ?_
      rw [FP.toE_ninf, FP.toE_fin, filtE_bot, filtE_coe, Filter.pure_prod, tendsto_map'_iff]
      exact tendsto_rpow_atBot_of_base_lt_one _ hq0 hq'
    rw [if_neg h4]
    rcases toE_cases hb with rfl | rfl | ⟨eb, -⟩
    · exact absurd rfl h4
    · exact absurd rfl h3
    refine ⟨⟨((((q:ℝ) ^ (b.q:ℝ) : ℝ)):EReal), ?_, by rw [Fmt.rndE_coe]; rfl⟩, φ.round_ne_nan _ _, φ.round_in _ _⟩
    rw [eb, FP.toE_fin, filtE_coe, filtE_coe, Filter.pure_prod, Filter.map_pure]
    exact tendsto_pure_nhds _ _
  · have hq' : 1 < (q:ℝ) := lt_of_le_of_ne (not_lt.mp (fun h => hq (toE_lt_one.mpr h))) (Ne.symm hq1)
    by_cases h3 : b = .pinf
    · subst h3
      rw [if_pos rfl, if_neg hq]
      refine ⟨⟨⊤, ?_, by simp⟩, by simp, trivial⟩
      refine tendsto_coe_atTop.comp ?_
      rw [FP.toE_pinf, FP.toE_fin, filtE_top, filtE_coe, Filter.pure_prod, tendsto_map'_iff]
      exact tendsto_rpow_atTop_of_base_gt_one _ hq'
    rw [if_neg h3]
    by_cases h4 : b = .ninf
    · subst h4
      rw [if_pos rfl, if_neg hq]
      refine ⟨⟨((0:ℝ):EReal), ?_, by simp⟩, by simp, φ.rep_zero⟩
      refine (continuous_coe_real_ereal.tendsto _).comp ?_
      rw [FP.toE_ninf, FP.toE_fin, filtE_bot, filtE_coe, Filter.pure_prod, tendsto_map'_iff]
      exact tendsto_rpow_atBot_of_base_gt_one _ hq'
    rw [if_neg h4]
    rcases toE_cases hb with rfl | rfl | ⟨eb, -⟩
    · exact absurd rfl h4
    · exact absurd rfl h3
    refine ⟨⟨((((q:ℝ) ^ (b.q:ℝ) : ℝ)):EReal), ?_, by rw [Fmt.rndE_coe]; rfl⟩, φ.round_ne_nan _ _, φ.round_in _ _⟩
    rw [eb, FP.toE_fin, filtE_coe, filtE_coe, Filter.pure_prod, Filter.map_pure]
    exact tendsto_pure_nhds _ _

/-! Monotonicity of the power function. -/
theorem pw_mono_a {a a' b : ℝ} (ha : 0 ≤ a) (h : a ≤ a') (hb : 0 ≤ b) : a ^ b ≤ a' ^ b := Real.rpow_le_rpow ha h hb
theorem pw_anti_a {a a' b : ℝ} (ha : 0 < a) (h : a ≤ a') (hb : b ≤ 0) : a' ^ b ≤ a ^ b :=
  Real.rpow_le_rpow_of_nonpos ha h hb
theorem pw_mono_b {a b b' : ℝ} (ha : 1 ≤ a) (h : b ≤ b') : a ^ b ≤ a ^ b' :=
  Real.rpow_le_rpow_of_exponent_le ha h
theorem pw_anti_b {a b b' : ℝ} (ha : 0 < a) (ha1 : a ≤ 1) (h : b ≤ b') : a ^ b' ≤ a ^ b :=
  Real.rpow_le_rpow_of_exponent_ge ha ha1 h

theorem ev_le_one {a : EReal} (h : a ≤ 1) : ∀ᶠ t in filtE a, t ≤ 1 := by
  induction a with
  | bot => rw [filtE_bot]; exact eventually_le_atBot 1
  | coe r => rw [filtE_coe, eventually_pure]; exact_mod_cast h
  | top => exact absurd (top_le_iff.mp h) (EReal.coe_ne_top 1)
theorem ev_ge_one {a : EReal} (h : 1 ≤ a) : ∀ᶠ t in filtE a, 1 ≤ t := by
  induction a with
  | bot => exact absurd (le_bot_iff.mp h) (EReal.coe_ne_bot 1)
  | coe r => rw [filtE_coe, eventually_pure]; exact_mod_cast h
  | top => rw [filtE_top]; exact eventually_ge_atTop 1

theorem Itv.NE.le_one (h : x.NE φ) (h0 : x.hi.toE ≤ 1) {r : ℝ} (hr : r ∈ x.set) : r ≤ 1 := by
  have := (h.mem.mp hr).2.trans h0; exact_mod_cast this
theorem Itv.NE.ge_one (h : x.NE φ) (h0 : 1 ≤ x.lo.toE) {r : ℝ} (hr : r ∈ x.set) : 1 ≤ r := by
  have := h0.trans (h.mem.mp hr).1; exact_mod_cast this

/-- The infimum over a union of two domains. -/
theorem Low.union {α : Type*} {f : α → ℝ} {D E : Set α} {l l' : FP} (h1 : Low φ f D l) (h2 : Low φ f E l') :
    Low φ f (D ∪ E) (l.mpfrMin l') := by
  obtain ⟨L, hL, hl⟩ := h1.ex
  obtain ⟨L', hL', hl'⟩ := h2.ex
  refine ⟨h1.ne.mono Set.subset_union_left, ⟨min L L', ?_, ?_⟩, mpfrMin_ne_nan h1.nn h2.nn, mpfrMin_in h1.inφ h2.inφ⟩
  · rw [Set.image_union, eimg, Set.image_union]; exact hL.union hL'
  · rw [toE_mpfrMin h1.nn h2.nn, hl, hl', (show Monotone φ.rdE from fun _ _ h => φ.rdE_mono h).map_min]

theorem Upp.union {α : Type*} {f : α → ℝ} {D E : Set α} {l l' : FP} (h1 : Upp φ f D l) (h2 : Upp φ f E l') :
    Upp φ f (D ∪ E) (l.mpfrMax l') := by
  obtain ⟨L, hL, hl⟩ := h1.ex
  obtain ⟨L', hL', hl'⟩ := h2.ex
  refine ⟨⟨max L L', ?_, ?_⟩, mpfrMax_ne_nan h1.nn h2.nn, mpfrMax_in h1.inφ h2.inφ⟩
  · rw [Set.image_union, eimg, Set.image_union]; exact hL.union hL'
  · rw [toE_mpfrMax h1.nn h2.nn, hl, hl', (show Monotone φ.ruE from fun _ _ h => φ.ruE_mono h).map_max]

section
variable (hx : x.NE φ) (hy : y.NE φ)
include hx hy

theorem pw_lu_pos (h0 : 0 < x.lo.toE) (h2 : (x.lo.toE ≤ 1 ∧ 0 ≤ y.lo.toE) ∨ (0 < y.hi.toE ∧ x.hi.toE ≤ 1)) :
    Low φ pw (powPairs x y) (φ.pow .D x.lo y.hi) := by
  refine Low.corner (pow_ulim φ .D (by simp) hx.lo_ne hy.hi_ne h0) ?_ ?_
  · filter_upwards [(hx.ev_lo.and (ev_pos h0)).prod_mk hy.ev_hi] with p hp
    exact ⟨hp.1.1, hp.2, Or.inl hp.1.2⟩
  · rintro ⟨a, b⟩ ⟨ha, hb, -⟩
    rcases h2 with ⟨h1, h2⟩ | ⟨h2, h3⟩
    · filter_upwards [((hx.ev_lo_le ha).and ((ev_pos h0).and (ev_le_one h1))).prod_mk (hy.ev_hi_ge hb)] with p hp
      obtain ⟨⟨g1, g2, g3⟩, g4⟩ := hp
      exact (pw_anti_b g2 g3 g4).trans (pw_mono_a g2.le g1 (hy.nonneg h2 hb))
    · filter_upwards [((hx.ev_lo_le ha).and (ev_pos h0)).prod_mk ((hy.ev_hi_ge hb).and (ev_pos h2))] with p hp
      obtain ⟨⟨g1, g2⟩, g4, g5⟩ := hp
      exact (pw_mono_a g2.le g1 g5.le).trans (pw_anti_b (g2.trans_le g1) (hx.le_one h3 ha) g4)

theorem pw_lu_zero (h0 : x.lo.toE = 0) (h1 : 0 < x.hi.toE) (h2 : 0 ≤ y.lo.toE ∨ 0 < y.hi.toE) :
    Low φ pw (powPairs x y) (φ.pow .D (.fin 0) y.hi) := by
  have hx0 : (0:ℝ) ∈ x.set := hx.mem.mpr ⟨by rw [h0]; simp, by simpa using h1.le⟩
  have hn : ∀ p ∈ powPairs x y, 0 ≤ pw p := fun p hp => Real.rpow_nonneg (hx.nonneg h0.ge hp.1) _
  by_cases hz : y.hi.toE = 0
  · have h2 : 0 ≤ y.lo.toE := by
      rcases h2 with h2 | h2
      · exact h2
      · rw [hz] at h2; exact absurd h2 (lt_irrefl _)
    have he : φ.pow .D (.fin 0) y.hi = .fin 1 := by
      unfold Fmt.pow; rw [if_pos ((Fmt.isZero_iff hy.hi_ne).mpr hz)]
    have hb0 : ∀ b ∈ y.set, b = 0 := fun b hb => le_antisymm (hy.nonpos hz.le hb) (hy.nonneg h2 hb)
    obtain ⟨b, hb⟩ := hy.nonempty
    obtain ⟨c, hc0, hc⟩ := EReal.lt_iff_exists_real_btwn.mp h1
    have hc0' : 0 < c := by exact_mod_cast hc0
    have hcx : c ∈ x.set := hx.mem.mpr ⟨by rw [h0]; exact hc0.le, hc.le⟩
    rw [he]
    refine Low.attained (q := (c, b)) ⟨hcx, hb, Or.inl hc0'⟩ ?_ ?_ (by simp) (rep_one φ)
    · rintro ⟨a', b'⟩ hp
      simp [pw, hb0 b hb, hb0 b' hp.2.1]
    · have := φ.rdE_of_in (f := .fin 1) (rep_one φ) (by simp)
      simp [pw, hb0 b hb]
      simpa using this.symm
  · have hz' : 0 < y.hi.toE := by
      rcases h2 with h2 | h2
      · exact lt_of_le_of_ne (h2.trans hy.le) (Ne.symm hz)
      · exact h2
    have he : φ.pow .D (.fin 0) y.hi = .fin 0 := by
      unfold Fmt.pow
      rw [if_neg (by rw [Fmt.isZero_iff hy.hi_ne]; exact hz), if_neg (by simp),
        Itv.isNaN_eq_false.mpr hy.hi_ne, if_neg (by simp [FP.isNaN]), if_pos rfl, signbit_of_pos hz', if_neg (by simp)]
    obtain ⟨b, hb, hb0⟩ := (hy.ex_lt (r := 0)).mpr (by simpa using hz')
    rw [he]
    refine Low.attained (q := (0, b)) ⟨hx0, hb, Or.inr ⟨rfl, hb0⟩⟩ ?_ ?_ (by simp) φ.rep_zero
    · intro p hp
      rw [show pw (0, b) = 0 from Real.zero_rpow hb0.ne']
      exact hn p hp
    · rw [show pw (0, b) = 0 from Real.zero_rpow hb0.ne']; simp

theorem pw_ll_pos (h0 : 0 < x.lo.toE) (h2 : (x.lo.toE ≤ 1 ∧ y.hi.toE ≤ 0) ∨ (y.lo.toE < 0 ∧ x.hi.toE ≤ 1)) :
    Upp φ pw (powPairs x y) (φ.pow .U x.lo y.lo) := by
  refine Upp.corner (pow_ulim φ .U (by simp) hx.lo_ne hy.lo_ne h0) ?_ ?_
  · filter_upwards [(hx.ev_lo.and (ev_pos h0)).prod_mk hy.ev_lo] with p hp
    exact ⟨hp.1.1, hp.2, Or.inl hp.1.2⟩
  · rintro ⟨a, b⟩ ⟨ha, hb, -⟩
    rcases h2 with ⟨h1, h2⟩ | ⟨h2, h3⟩
    · filter_upwards [((hx.ev_lo_le ha).and ((ev_pos h0).and (ev_le_one h1))).prod_mk (hy.ev_lo_le hb)] with p hp
      obtain ⟨⟨g1, g2, g3⟩, g4⟩ := hp
      exact (pw_anti_a g2 g1 (hy.nonpos h2 hb)).trans (pw_anti_b g2 g3 g4)
    · filter_upwards [((hx.ev_lo_le ha).and (ev_pos h0)).prod_mk ((hy.ev_lo_le hb).and (ev_neg h2))] with p hp
      obtain ⟨⟨g1, g2⟩, g4, g5⟩ := hp
      exact (pw_anti_b (g2.trans_le g1) (hx.le_one h3 ha) g4).trans (pw_anti_a g2 g1 g5.le)

theorem pw_ll_zero (h0 : x.lo.toE = 0) (h1 : 0 < x.hi.toE) (h2 : y.lo.toE < 0) :
    Upp φ pw (powPairs x y) (φ.pow .U (.fin 0) y.lo) := by
  have he : φ.pow .U (.fin 0) y.lo = .pinf := by
    unfold Fmt.pow
    rw [if_neg (by rw [Fmt.isZero_iff hy.lo_ne]; exact h2.ne), if_neg (by simp),
      Itv.isNaN_eq_false.mpr hy.lo_ne, if_neg (by simp [FP.isNaN]), if_pos rfl, signbit_of_neg h2, if_pos rfl]
  obtain ⟨b, hb, hb0⟩ := (hy.ex_gt (r := 0)).mpr (by simpa using h2)
  obtain ⟨c, hc0, hc⟩ := EReal.lt_iff_exists_real_btwn.mp h1
  have hc0' : 0 < c := by exact_mod_cast hc0
  rw [he]
  have ht : Tendsto (fun t : ℝ => t ^ b) (𝓝[>] 0) atTop := tendsto_rpow_neg_nhdsGT_zero hb0
  refine ⟨⟨⊤, lub_of_filter' (F := (𝓝[>] (0:ℝ)) ×ˢ pure b) ?_ ?_ ?_, by simp⟩, by simp, trivial⟩
  · rw [Filter.prod_pure, eventually_map]
    filter_upwards [Ioc_mem_nhdsGT hc0'] with t ht
    refine ⟨hx.mem.mpr ⟨?_, ?_⟩, hb, Or.inl ht.1⟩
    · rw [h0]; exact_mod_cast ht.1.le
    · exact le_trans (by exact_mod_cast ht.2) hc.le
  · rintro q hq
    rw [Filter.prod_pure, eventually_map]
    exact ht.eventually_ge_atTop (pw q)
  · rw [Filter.prod_pure, tendsto_map'_iff]
    exact tendsto_coe_atTop.comp ht

/-- Points of the domain have nonnegative base. -/
theorem pw_uu (h0 : 0 ≤ x.lo.toE) (h1 : 1 ≤ x.hi.toE) (h2 : 0 ≤ y.lo.toE ∨ (1 ≤ x.lo.toE ∧ 0 < y.hi.toE)) :
    Upp φ pw (powPairs x y) (φ.pow .U x.hi y.hi) := by
  have hp0 : 0 < x.hi.toE := lt_of_lt_of_le zero_lt_one h1
  refine Upp.corner (pow_ulim φ .U (by simp) hx.hi_ne hy.hi_ne hp0) ?_ ?_
  · filter_upwards [(hx.ev_hi.and (ev_pos hp0)).prod_mk hy.ev_hi] with p hp
    exact ⟨hp.1.1, hp.2, Or.inl hp.1.2⟩
  · rintro ⟨a, b⟩ ⟨ha, hb, -⟩
    rcases h2 with h2 | ⟨h2, h3⟩
    · filter_upwards [((hx.ev_hi_ge ha).and (ev_ge_one h1)).prod_mk (hy.ev_hi_ge hb)] with p hp
      obtain ⟨⟨g1, g3⟩, g4⟩ := hp
      exact (pw_mono_a (hx.nonneg h0 ha) g1 (hy.nonneg h2 hb)).trans (pw_mono_b g3 g4)
    · filter_upwards [(hx.ev_hi_ge ha).prod_mk ((hy.ev_hi_ge hb).and (ev_pos h3))] with p hp
      obtain ⟨g1, g4, g5⟩ := hp
      exact (pw_mono_b (hx.ge_one h2 ha) g4).trans (pw_mono_a (hx.nonneg h0 ha) g1 g5.le)

theorem pw_ul_upp (h0 : 0 ≤ x.lo.toE) (hp0 : 0 < x.hi.toE) (h1 : x.hi.toE ≤ 1) (h2 : 0 ≤ y.lo.toE) :
    Upp φ pw (powPairs x y) (φ.pow .U x.hi y.lo) := by
  refine Upp.corner (pow_ulim φ .U (by simp) hx.hi_ne hy.lo_ne hp0) ?_ ?_
  · filter_upwards [(hx.ev_hi.and (ev_pos hp0)).prod_mk hy.ev_lo] with p hp
    exact ⟨hp.1.1, hp.2, Or.inl hp.1.2⟩
  · rintro ⟨a, b⟩ ⟨ha, hb, -⟩
    filter_upwards [((hx.ev_hi_ge ha).and ((ev_pos hp0).and (ev_le_one h1))).prod_mk (hy.ev_lo_le hb)] with p hp
    obtain ⟨⟨g1, g2, g3⟩, g4⟩ := hp
    exact (pw_mono_a (hx.nonneg h0 ha) g1 (hy.nonneg h2 hb)).trans (pw_anti_b g2 g3 g4)

theorem pw_ll_low (h0 : 1 ≤ x.lo.toE) (h2 : 0 ≤ y.lo.toE) :
    Low φ pw (powPairs x y) (φ.pow .D x.lo y.lo) := by
  have hp0 : 0 < x.lo.toE := lt_of_lt_of_le zero_lt_one h0
  refine Low.corner (pow_ulim φ .D (by simp) hx.lo_ne hy.lo_ne hp0) ?_ ?_
  · filter_upwards [(hx.ev_lo.and (ev_pos hp0)).prod_mk hy.ev_lo] with p hp
    exact ⟨hp.1.1, hp.2, Or.inl hp.1.2⟩
  · rintro ⟨a, b⟩ ⟨ha, hb, -⟩
    filter_upwards [((hx.ev_lo_le ha).and ((ev_pos hp0).and (ev_ge_one h0))).prod_mk (hy.ev_lo_le hb)] with p hp
    obtain ⟨⟨g1, g2, g3⟩, g4⟩ := hp
    exact (pw_mono_b g3 g4).trans (pw_mono_a g2.le g1 (hy.nonneg h2 hb))

theorem pw_uu_low (hp0 : 0 < x.hi.toE) (h1 : x.hi.toE ≤ 1) (h2 : y.hi.toE ≤ 0) :
    Low φ pw (powPairs x y) (φ.pow .D x.hi y.hi) := by
  refine Low.corner (pow_ulim φ .D (by simp) hx.hi_ne hy.hi_ne hp0) ?_ ?_
  · filter_upwards [(hx.ev_hi.and (ev_pos hp0)).prod_mk hy.ev_hi] with p hp
    exact ⟨hp.1.1, hp.2, Or.inl hp.1.2⟩
  · rintro ⟨a, b⟩ ⟨ha, hb, hd⟩
    have hb0 := hy.nonpos h2 hb
    have ha0 : 0 < a := hd.elim id (fun h => absurd h.2 (not_lt.mpr hb0))
    filter_upwards [((hx.ev_hi_ge ha).and ((ev_pos hp0).and (ev_le_one h1))).prod_mk (hy.ev_hi_ge hb)] with p hp
    obtain ⟨⟨g1, g2, g3⟩, g4⟩ := hp
    exact (pw_anti_b g2 g3 g4).trans (pw_anti_a ha0 g1 hb0)

theorem pw_ul_low (h1 : 1 ≤ x.hi.toE) (h2 : y.hi.toE ≤ 0 ∨ (1 ≤ x.lo.toE ∧ y.lo.toE < 0)) :
    Low φ pw (powPairs x y) (φ.pow .D x.hi y.lo) := by
  have hp0 : 0 < x.hi.toE := lt_of_lt_of_le zero_lt_one h1
  refine Low.corner (pow_ulim φ .D (by simp) hx.hi_ne hy.lo_ne hp0) ?_ ?_
  · filter_upwards [(hx.ev_hi.and (ev_pos hp0)).prod_mk hy.ev_lo] with p hp
    exact ⟨hp.1.1, hp.2, Or.inl hp.1.2⟩
  · rintro ⟨a, b⟩ ⟨ha, hb, hd⟩
    rcases h2 with h2 | ⟨h2, h3⟩
    · have hb0 := hy.nonpos h2 hb
      have ha0 : 0 < a := hd.elim id (fun h => absurd h.2 (not_lt.mpr hb0))
      filter_upwards [((hx.ev_hi_ge ha).and (ev_ge_one h1)).prod_mk (hy.ev_lo_le hb)] with p hp
      obtain ⟨⟨g1, g3⟩, g4⟩ := hp
      exact (pw_mono_b g3 g4).trans (pw_anti_a ha0 g1 hb0)
    · have ha1 := hx.ge_one h2 ha
      filter_upwards [(hx.ev_hi_ge ha).prod_mk ((hy.ev_lo_le hb).and (ev_neg h3))] with p hp
      obtain ⟨g1, g4, g5⟩ := hp
      exact (pw_anti_a (by linarith) g1 g5.le).trans (pw_mono_b ha1 g4)

theorem pw_lu_upp (h0 : 1 ≤ x.lo.toE) (h2 : y.hi.toE ≤ 0) :
    Upp φ pw (powPairs x y) (φ.pow .U x.lo y.hi) := by
  have hp0 : 0 < x.lo.toE := lt_of_lt_of_le zero_lt_one h0
  refine Upp.corner (pow_ulim φ .U (by simp) hx.lo_ne hy.hi_ne hp0) ?_ ?_
  · filter_upwards [(hx.ev_lo.and (ev_pos hp0)).prod_mk hy.ev_hi] with p hp
    exact ⟨hp.1.1, hp.2, Or.inl hp.1.2⟩
  · rintro ⟨a, b⟩ ⟨ha, hb, -⟩
    filter_upwards [((hx.ev_lo_le ha).and ((ev_pos hp0).and (ev_ge_one h0))).prod_mk (hy.ev_hi_ge hb)] with p hp
    obtain ⟨⟨g1, g2, g3⟩, g4⟩ := hp
    exact (pw_anti_a g2 g1 (hy.nonpos h2 hb)).trans (pw_mono_b g3 g4)

/-- The lower base as the code passes it on: `-0` is replaced by `+0`. -/
theorem xl_cases (h0 : 0 ≤ x.lo.toE) :
    (x.lo.toE = 0 ∧ (if x.lo.feq .nzero then FP.fin 0 else x.lo) = .fin 0) ∨
    (0 < x.lo.toE ∧ (if x.lo.feq .nzero then FP.fin 0 else x.lo) = x.lo) := by
  rcases h0.eq_or_lt with h | h
  · refine Or.inl ⟨h.symm, if_pos ?_⟩
    rw [FP.feq_iff hx.lo_ne (by simp), ← h]; simp
  · refine Or.inr ⟨h, if_neg ?_⟩
    rw [FP.feq_iff hx.lo_ne (by simp)]; simpa using h.ne'

theorem pw_lu (h0 : 0 ≤ x.lo.toE) (h1 : 0 < x.hi.toE)
    (h2 : (x.lo.toE ≤ 1 ∧ 0 ≤ y.lo.toE) ∨ (0 < y.hi.toE ∧ x.hi.toE ≤ 1)) :
    Low φ pw (powPairs x y) (φ.pow .D (if x.lo.feq .nzero then FP.fin 0 else x.lo) y.hi) := by
  rcases xl_cases hx hy h0 with ⟨h, e⟩ | ⟨h, e⟩ <;> rw [e]
  · exact pw_lu_zero hx hy h h1 (h2.imp (·.2) (·.1))
  · exact pw_lu_pos hx hy h h2

theorem pw_ll (h0 : 0 ≤ x.lo.toE) (h1 : 0 < x.hi.toE) (h3 : y.lo.toE < 0)
    (h2 : (x.lo.toE ≤ 1 ∧ y.hi.toE ≤ 0) ∨ (y.lo.toE < 0 ∧ x.hi.toE ≤ 1)) :
    Upp φ pw (powPairs x y) (φ.pow .U (if x.lo.feq .nzero then FP.fin 0 else x.lo) y.lo) := by
  rcases xl_cases hx hy h0 with ⟨h, e⟩ | ⟨h, e⟩ <;> rw [e]
  · exact pw_ll_zero hx hy h h1 h3
  · exact pw_ll_pos hx hy h h2

end

/-- The pairs with nonnegative, and with nonpositive, exponent. -/
theorem powPairs_split (hy : y.NE φ) (h1 : y.lo.toE < 0) (h2 : 0 < y.hi.toE) :
    (Itv.mk (.fin 0) y.hi).NE φ ∧ (Itv.mk y.lo (.fin 0)).NE φ ∧
    powPairs x y = powPairs x ⟨.fin 0, y.hi⟩ ∪ powPairs x ⟨y.lo, .fin 0⟩ := by
  have n1 : (Itv.mk (.fin 0) y.hi).NE φ :=
    ⟨by simp, hy.hi_ne, by simpa using h2.le, by simp, hy.hi_bot, φ.rep_zero, hy.hi_in⟩
  have n2 : (Itv.mk y.lo (.fin 0)).NE φ :=
    ⟨hy.lo_ne, by simp, by simpa using h1.le, hy.lo_top, by simp, hy.lo_in, φ.rep_zero⟩
  refine ⟨n1, n2, ?_⟩
  ext ⟨a, b⟩
  simp only [powPairs, Set.mem_union, Set.mem_ofPred_eq, hy.mem, n1.mem, n2.mem]
  constructor
  · rintro ⟨ha, hb, hd⟩
    rcases le_total 0 b with h | h
    · exact Or.inl ⟨ha, ⟨by simpa using h, hb.2⟩, hd⟩
    · exact Or.inr ⟨ha, ⟨hb.1, by simpa using h⟩, hd⟩
  · rintro (⟨ha, hb, hd⟩ | ⟨ha, hb, hd⟩)
    · exact ⟨ha, ⟨h1.le.trans (by simpa using hb.1), hb.2⟩, hd⟩
    · exact ⟨ha, ⟨hb.1, le_trans (by simpa using hb.2) h2.le⟩, hd⟩

/-- **C08** `pow(x, y)` is the tightest interval enclosing all `a^b` with `a > 0`, or `a = 0` and `b > 0`. -/
theorem C08_pow (hx : x.Ok φ) (hy : y.Ok φ) : Tightest φ (φ.powI x y)
    (range2 (fun a b => a ^ b) {p | 0 < p.1 ∨ (p.1 = 0 ∧ 0 < p.2)} x.set y.set) := by
  have hr : range2 (fun a b => a ^ b) {p | 0 < p.1 ∨ (p.1 = 0 ∧ 0 < p.2)} x.set y.set = pw '' powPairs x y := by
    ext r; constructor
    · rintro ⟨a, ha, b, hb, hd, rfl⟩; exact ⟨(a, b), ⟨ha, hb, hd⟩, rfl⟩
    · rintro ⟨⟨a, b⟩, ⟨ha, hb, hd⟩, rfl⟩; exact ⟨a, ha, b, hb, hd, rfl⟩
  rw [hr]
  rcases hy.cases with rfl | hy
  · exact tightest_empty' (by simp [Fmt.powI]) (by simp [powPairs])
  unfold Fmt.powI
  have hI := Itv.inter_ok_set hx (nonnegItv_NE φ).ok
  have hD : powPairs x y = powPairs (x.inter ⟨.fin 0, .pinf⟩) y := by
    ext ⟨a, b⟩
    simp only [powPairs, Set.mem_ofPred_eq, hI.2, Set.mem_inter_iff, (nonnegItv_NE φ).mem]
    constructor
    · rintro ⟨ha, hb, hd⟩
      exact ⟨⟨ha, by simpa using (hd.elim le_of_lt (fun h => h.1.ge)), by simp⟩, hb, hd⟩
    · rintro ⟨⟨ha, -⟩, hb, hd⟩; exact ⟨ha, hb, hd⟩
  have hnn : ∀ a ∈ (x.inter ⟨.fin 0, .pinf⟩).set, 0 ≤ a := fun a ha => by
    rw [hI.2] at ha
    simpa using ((nonnegItv_NE φ).mem.mp ha.2).1
  rw [hD]
  simp only [hx.isValid, hy.isValid, hy.isEmpty, Bool.not_true, Bool.or_false, Bool.false_eq_true, if_false]
  generalize x.inter ⟨.fin 0, .pinf⟩ = z at *
  rcases hI.1.cases with rfl | hz
  · rw [if_pos (by simp)]
    exact tightest_empty' rfl (by simp [powPairs])
  rw [hz.isEmpty, if_neg (by simp)]
  have h0 : 0 ≤ z.lo.toE := by
    by_contra hc
    obtain ⟨r, hr, hr0⟩ := (hz.ex_gt (r := 0)).mpr (by simpa using hc)
    exact absurd (hnn r hr) (not_le.mpr hr0)
  by_cases hz0 : z.hi.feq (.fin 0)
  · rw [if_pos hz0]
    rw [FP.feq_iff hz.hi_ne (by simp)] at hz0
    have hz0 : z.hi.toE = 0 := by simpa using hz0
    have e0 : ∀ a ∈ z.set, a = 0 := fun a ha => le_antisymm (hz.nonpos hz0.le ha) (hnn a ha)
    by_cases hy0 : y.hi ≤ .fin 0
    · rw [if_pos hy0]
      rw [NE.le0_iff hy.hi_ne] at hy0
      refine tightest_empty' rfl ?_
      rw [Set.image_eq_empty, Set.eq_empty_iff_forall_notMem]
      rintro ⟨a, b⟩ ⟨ha, hb, hd⟩
      have h1 := e0 a ha
      have h2 := hy.nonpos hy0 hb
      simp only at hd
      rcases hd with hd | hd <;> linarith [hd]
    · rw [if_neg hy0]
      rw [NE.le0_iff hy.hi_ne, not_le] at hy0
      obtain ⟨b, hb, hb0⟩ := (hy.ex_lt (r := 0)).mpr (by simpa using hy0)
      obtain ⟨a, ha⟩ := hz.nonempty
      have ha0 := e0 a ha; subst ha0
      have hq : ((0:ℝ), b) ∈ powPairs z y := ⟨ha, hb, Or.inr ⟨rfl, hb0⟩⟩
      have hv : ∀ p ∈ powPairs z y, pw p = 0 := fun p hp => by
        have h1 := e0 p.1 hp.1
        have h2 : 0 < p.2 := hp.2.2.elim (fun h => absurd h (by rw [h1]; exact lt_irrefl _)) (·.2)
        simp [pw, h1, Real.zero_rpow h2.ne']
      refine tight_low_upp (Low.attained hq (fun p hp => by rw [hv _ hq, hv _ hp]) ?_ (by simp) φ.rep_zero)
        (Upp.attained hq (fun p hp => by rw [hv _ hq, hv _ hp]) ?_ (by simp) φ.rep_zero)
      · rw [hv _ hq]; simp
      · rw [hv _ hq]; simp
  rw [if_neg hz0]
  rw [FP.feq_iff hz.hi_ne (by simp)] at hz0
  have hz1 : 0 < z.hi.toE := lt_of_le_of_ne (h0.trans hz.le) (fun h => hz0 (by rw [← h]; simp))
  have c1 : (z.hi ≤ .fin 1) ↔ z.hi.toE ≤ 1 := by rw [FP.le_iff hz.hi_ne (by simp), toE_one]
  have c2 : (.fin 1 ≤ z.lo) ↔ 1 ≤ z.lo.toE := by rw [FP.le_iff (by simp) hz.lo_ne, toE_one]
  simp only [NE.ge0_iff hy.lo_ne, NE.le0_iff hy.hi_ne, c1, c2]
  by_cases k1 : 0 ≤ y.lo.toE
  · rw [if_pos k1]
    by_cases k2 : z.hi.toE ≤ 1
    · rw [if_pos k2]
      exact tight_low_upp (pw_lu hz hy h0 hz1 (Or.inl ⟨hz.le.trans k2, k1⟩)) (pw_ul_upp hz hy h0 hz1 k2 k1)
    rw [if_neg k2]
    by_cases k3 : 1 ≤ z.lo.toE
    · rw [if_pos k3]
      rcases xl_cases hz hy h0 with ⟨h, e⟩ | ⟨h, e⟩
      · rw [h] at k3; exact absurd k3 (not_le.mpr zero_lt_one)
      rw [e]
      exact tight_low_upp (pw_ll_low hz hy k3 k1) (pw_uu hz hy h0 (k3.trans hz.le) (Or.inl k1))
    · rw [if_neg k3]
      exact tight_low_upp (pw_lu hz hy h0 hz1 (Or.inl ⟨(not_le.mp k3).le, k1⟩))
        (pw_uu hz hy h0 (not_le.mp k2).le (Or.inl k1))
  rw [if_neg k1]
  have k1 := not_le.mp k1
  by_cases k4 : y.hi.toE ≤ 0
  · rw [if_pos k4]
    by_cases k2 : z.hi.toE ≤ 1
    · rw [if_pos k2]
      exact tight_low_upp (pw_uu_low hz hy hz1 k2 k4) (pw_ll hz hy h0 hz1 k1 (Or.inr ⟨k1, k2⟩))
    rw [if_neg k2]
    by_cases k3 : 1 ≤ z.lo.toE
    · rw [if_pos k3]
      rcases xl_cases hz hy h0 with ⟨h, e⟩ | ⟨h, e⟩
      · rw [h] at k3; exact absurd k3 (not_le.mpr zero_lt_one)
      rw [e]
      exact tight_low_upp (pw_ul_low hz hy (k3.trans hz.le) (Or.inl k4)) (pw_lu_upp hz hy k3 k4)
    · rw [if_neg k3]
      exact tight_low_upp (pw_ul_low hz hy (not_le.mp k2).le (Or.inl k4))
        (pw_ll hz hy h0 hz1 k1 (Or.inl ⟨(not_le.mp k3).le, k4⟩))
  rw [if_neg k4]
  have k4 := not_le.mp k4
  by_cases k2 : z.hi.toE ≤ 1
  · rw [if_pos k2]
    exact tight_low_upp (pw_lu hz hy h0 hz1 (Or.inr ⟨k4, k2⟩)) (pw_ll hz hy h0 hz1 k1 (Or.inr ⟨k1, k2⟩))
  rw [if_neg k2]
  have k2 := (not_le.mp k2).le
  by_cases k3 : 1 ≤ z.lo.toE
  · rw [if_pos k3]
    exact tight_low_upp (pw_ul_low hz hy k2 (Or.inr ⟨k3, k1⟩)) (pw_uu hz hy h0 k2 (Or.inr ⟨k3, k4⟩))
  rw [if_neg k3]
  have k3 := (not_le.mp k3).le
  obtain ⟨n1, n2, hs⟩ := powPairs_split (x := z) hy k1 k4
  rw [hs]
  refine tight_low_upp ?_ ?_
  · rw [Set.union_comm]
    exact Low.union (pw_ul_low hz n2 k2 (Or.inl (by simp)))
      (pw_lu hz n1 h0 hz1 (Or.inl ⟨k3, by simp⟩))
  · exact Upp.union (pw_uu hz n1 h0 k2 (Or.inl (by simp)))
      (pw_ll hz n2 h0 hz1 k1 (Or.inl ⟨k3, by simp⟩))

/-- Non-vacuity: a base interval reaching below zero, exponents of both signs. -/
example : (Itv.mk (.fin (-1)) (.fin 2)).Ok binary64 ∧ (Itv.mk (.fin (-3)) .pinf).Ok binary64 ∧
    (range2 (fun a b => a ^ b) {p | 0 < p.1 ∨ (p.1 = 0 ∧ 0 < p.2)}
      (Itv.mk (.fin (-1)) (.fin 2)).set (Itv.mk (.fin (-3)) .pinf).set).Nonempty :=
  ⟨Itv.ok_of_okb (by decide +kernel), Itv.ok_of_okb (by decide +kernel),
   ⟨_, 1, ⟨by norm_num [FP.BelowR], by norm_num [FP.AboveR]⟩, 1,
     ⟨by norm_num [FP.BelowR], by norm_num [FP.AboveR]⟩, Or.inl one_pos, rfl⟩⟩

end P1788
