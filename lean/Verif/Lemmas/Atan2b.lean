import Verif.Lemmas.Atan2

/-! Helper lemmas: extreme points of the polar angle over a rectangle. -/

namespace P1788
open FP Filter Topology
variable {φ : Fmt} {y x : Itv}

/-- Pairs taken from two intervals, without the origin. -/
def pairs0 (y x : Itv) : Set (ℝ × ℝ) := {p | p.1 ∈ y.set ∧ p.2 ∈ x.set ∧ ¬(p.1 = 0 ∧ p.2 = 0)}

theorem Itv.NE.nonneg (h : x.NE φ) (h0 : 0 ≤ x.lo.toE) {r : ℝ} (hr : r ∈ x.set) : 0 ≤ r := by
  have := h0.trans (h.mem.mp hr).1; exact_mod_cast this
theorem Itv.NE.pos (h : x.NE φ) (h0 : 0 < x.lo.toE) {r : ℝ} (hr : r ∈ x.set) : 0 < r := by
  have := h0.trans_le (h.mem.mp hr).1; exact_mod_cast this
theorem Itv.NE.nonpos (h : x.NE φ) (h0 : x.hi.toE ≤ 0) {r : ℝ} (hr : r ∈ x.set) : r ≤ 0 := by
  have := (h.mem.mp hr).2.trans h0; exact_mod_cast this
theorem Itv.NE.negv (h : x.NE φ) (h0 : x.hi.toE < 0) {r : ℝ} (hr : r ∈ x.set) : r < 0 := by
  have := (h.mem.mp hr).2.trans_lt h0; exact_mod_cast this

theorem lo_fin_of_nonneg (h : x.NE φ) (h0 : 0 ≤ x.lo.toE) : ¬(x.lo = .ninf ∨ x.lo = .pinf) := by
  rintro (h1 | h1)
  · rw [h1] at h0; simp at h0
  · exact h.lo_top (by rw [h1]; rfl)
theorem hi_fin_of_nonpos (h : x.NE φ) (h0 : x.hi.toE ≤ 0) : ¬(x.hi = .ninf ∨ x.hi = .pinf) := by
  rintro (h1 | h1)
  · exact h.hi_bot (by rw [h1]; rfl)
  · rw [h1] at h0; simp at h0

theorem fin_of_toE {a b : FP} (h : a.toE = b.toE) (hb : ¬(b = .ninf ∨ b = .pinf)) : a ≠ .ninf ∧ a ≠ .pinf := by
  constructor
  · rintro rfl; exact hb (Or.inl (FP.toE_eq_bot.mp h.symm))
  · rintro rfl; exact hb (Or.inr (FP.toE_eq_top.mp h.symm))

variable (hy : y.NE φ) (hx : x.NE φ)
include hy hx

theorem at2_low1 (h0 : 0 ≤ y.lo.toE) (h1 : 0 < x.hi.toE) : Low φ thp (pairs0 y x) (φ.atan2 .D y.lo x.hi) := by
  refine Low.corner (atan2_ulim φ .D hy.lo_ne hx.hi_ne (fun _ => h1)
    (fun h => absurd h (lo_fin_of_nonneg hy h0))) ?_ ?_
  · filter_upwards [(hy.ev_lo).prod_mk (hx.ev_hi.and (ev_pos h1))] with p hp
    exact ⟨hp.1, hp.2.1, fun hc => by have := hp.2.2; linarith [hc.2]⟩
  · rintro ⟨b, a⟩ ⟨hb, ha, hn⟩
    filter_upwards [(hy.ev_lo.and (hy.ev_lo_le hb)).prod_mk ((hx.ev_hi_ge ha).and (ev_pos h1))] with p hp
    obtain ⟨⟨h2, h3⟩, h4, h5⟩ := hp
    exact (th_mono_y h5.le h3 (fun hc => by linarith [hc.2]) (fun hc => by linarith [hc.2])).trans
      (th_anti_x (hy.nonneg h0 hb) h4 hn)

theorem at2_low2 {c : FP} (hc : c.toE = x.hi.toE) (hcn : c ≠ .nan) (h0 : 0 ≤ y.lo.toE) (h1 : 0 < y.hi.toE)
    (h2 : x.hi.toE ≤ 0) : Low φ thp (pairs0 y x) (φ.atan2 .D y.hi c) := by
  refine Low.corner (atan2_ulim φ .D hy.hi_ne hcn (fun h => absurd h h1.ne')
    (fun _ => fin_of_toE hc (hi_fin_of_nonpos hx h2))) ?_ ?_
  · rw [hc]
    filter_upwards [(hy.ev_hi.and (ev_pos h1)).prod_mk hx.ev_hi] with p hp
    exact ⟨hp.1.1, hp.2, fun hc => by have := hp.1.2; linarith [hc.1]⟩
  · rintro ⟨b, a⟩ ⟨hb, ha, hn⟩
    rw [hc]
    filter_upwards [((hy.ev_hi_ge hb).and (ev_pos h1)).prod_mk (hx.ev_hi_ge ha)] with p hp
    obtain ⟨⟨h3, h4⟩, h5⟩ := hp
    exact (th_anti_x h4.le h5 (fun hc => by linarith [hc.1])).trans
      (th_anti_y (hx.nonpos h2 ha) (hy.nonneg h0 hb) h3 hn)

theorem at2_upp1 (h0 : 0 < y.hi.toE) (h1 : 0 ≤ x.lo.toE) : Upp φ thp (pairs0 y x) (φ.atan2 .U y.hi x.lo) := by
  refine Upp.corner (atan2_ulim φ .U hy.hi_ne hx.lo_ne (fun h => absurd h h0.ne')
    (fun _ => by have := lo_fin_of_nonneg hx h1; push Not at this; exact this)) ?_ ?_
  · filter_upwards [(hy.ev_hi.and (ev_pos h0)).prod_mk hx.ev_lo] with p hp
    exact ⟨hp.1.1, hp.2, fun hc => by have := hp.1.2; linarith [hc.1]⟩
  · rintro ⟨b, a⟩ ⟨hb, ha, hn⟩
    filter_upwards [((hy.ev_hi_ge hb).and (ev_pos h0)).prod_mk (hx.ev_lo.and (hx.ev_lo_le ha))] with p hp
    obtain ⟨⟨h3, h4⟩, h5, h6⟩ := hp
    exact (th_mono_y (hx.nonneg h1 ha) h3 hn (fun hc => by linarith [hc.1])).trans
      (th_anti_x h4.le h6 (fun hc => by linarith [hc.1]))

theorem at2_upp2 (h0 : 0 < y.lo.toE) (h1 : x.lo.toE < 0) : Upp φ thp (pairs0 y x) (φ.atan2 .U y.lo x.lo) := by
  refine Upp.corner (atan2_ulim φ .U hy.lo_ne hx.lo_ne (fun h => absurd h h0.ne')
    (fun h => absurd h (lo_fin_of_nonneg hy h0.le))) ?_ ?_
  · filter_upwards [(hy.ev_lo.and (ev_pos h0)).prod_mk hx.ev_lo] with p hp
    exact ⟨hp.1.1, hp.2, fun hc => by have := hp.1.2; linarith [hc.1]⟩
  · rintro ⟨b, a⟩ ⟨hb, ha, hn⟩
    filter_upwards [((hy.ev_lo_le hb).and (ev_pos h0)).prod_mk ((ev_neg h1).and (hx.ev_lo_le ha))] with p hp
    obtain ⟨⟨h3, h4⟩, h5, h6⟩ := hp
    have hb0 := hy.pos h0 hb
    exact (th_anti_x hb0.le h6 (fun hc => by linarith [hc.2])).trans
      (th_anti_y h5.le h4.le h3 (fun hc => by linarith [hc.1]))

omit hy in
theorem at2_upp_pi (h0 : (0:ℝ) ∈ y.set) (h1 : x.lo.toE < 0) : Upp φ thp (pairs0 y x) (φ.constPi .U) := by
  obtain ⟨r, hr, hr0⟩ := (hx.ev_lo.and (ev_neg h1)).exists
  refine Upp.attained (q := (0, r)) ⟨h0, hr, fun hc => by linarith [hc.2]⟩ (fun p _ => ?_) ?_
    (φ.round_ne_nan _ _) (φ.round_in _ _)
  · show th p.1 p.2 ≤ th 0 r
    rw [th_zero_neg hr0]; exact th_le_pi _ _
  · show (φ.round .U Real.pi).toE = φ.ruE (th 0 r : EReal)
    rw [th_zero_neg hr0, Fmt.ruE_coe]

theorem at2_low3 (h0 : y.lo.toE < 0) (h1 : 0 ≤ x.lo.toE) : Low φ thp (pairs0 y x) (φ.atan2 .D y.lo x.lo) := by
  refine Low.corner (atan2_ulim φ .D hy.lo_ne hx.lo_ne (fun h => absurd h h0.ne)
    (fun _ => by have := lo_fin_of_nonneg hx h1; push Not at this; exact this)) ?_ ?_
  · filter_upwards [(hy.ev_lo.and (ev_neg h0)).prod_mk hx.ev_lo] with p hp
    exact ⟨hp.1.1, hp.2, fun hc => by have := hp.1.2; linarith [hc.1]⟩
  · rintro ⟨b, a⟩ ⟨hb, ha, hn⟩
    filter_upwards [((hy.ev_lo_le hb).and (ev_neg h0)).prod_mk (hx.ev_lo.and (hx.ev_lo_le ha))] with p hp
    obtain ⟨⟨h3, h4⟩, h5, h6⟩ := hp
    exact (th_mono_x h4.le h6 (fun hc => by linarith)).trans
      (th_mono_y (hx.nonneg h1 ha) h3 (fun hc => by linarith [hc.1]) hn)

theorem at2_upp4 (h0 : y.hi.toE ≤ 0) (h1 : 0 < x.hi.toE) (h2 : y.hi.toE < 0 ∨ 0 ≤ x.lo.toE) :
    Upp φ thp (pairs0 y x) (φ.atan2 .U y.hi x.hi) := by
  refine Upp.corner (atan2_ulim φ .U hy.hi_ne hx.hi_ne (fun _ => h1)
    (fun h => absurd h (hi_fin_of_nonpos hy h0))) ?_ ?_
  · filter_upwards [(hy.ev_hi).prod_mk (hx.ev_hi.and (ev_pos h1))] with p hp
    exact ⟨hp.1, hp.2.1, fun hc => by have := hp.2.2; linarith [hc.2]⟩
  · rintro ⟨b, a⟩ ⟨hb, ha, hn⟩
    filter_upwards [(hy.ev_hi.and (hy.ev_hi_ge hb)).prod_mk ((hx.ev_hi_ge ha).and (ev_pos h1))] with p hp
    obtain ⟨⟨h3, h4⟩, h5, h6⟩ := hp
    refine (th_mono_x (hy.nonpos h0 hb) h5 (fun hc => ?_)).trans
      (th_mono_y h6.le h4 (fun hc => by linarith [hc.2]) (fun hc => by linarith [hc.2]))
    rcases h2 with h2 | h2
    · have := hy.negv h2 hb; linarith
    · exact lt_of_le_of_ne (hx.nonneg h2 ha) (fun e => hn ⟨hc, e.symm⟩)

theorem at2_low4 (h0 : y.hi.toE < 0) (h1 : x.lo.toE < 0) : Low φ thp (pairs0 y x) (φ.atan2 .D y.hi x.lo) := by
  refine Low.corner (atan2_ulim φ .D hy.hi_ne hx.lo_ne (fun h => absurd h h0.ne)
    (fun h => absurd h (hi_fin_of_nonpos hy h0.le))) ?_ ?_
  · filter_upwards [(hy.ev_hi.and (ev_neg h0)).prod_mk hx.ev_lo] with p hp
    exact ⟨hp.1.1, hp.2, fun hc => by have := hp.1.2; linarith [hc.1]⟩
  · rintro ⟨b, a⟩ ⟨hb, ha, hn⟩
    filter_upwards [((hy.ev_hi_ge hb).and (ev_neg h0)).prod_mk ((ev_neg h1).and (hx.ev_lo_le ha))] with p hp
    obtain ⟨⟨h3, h4⟩, h5, h6⟩ := hp
    have hb0 := hy.negv h0 hb
    exact (th_anti_y' h5.le h4 h3).trans (th_mono_x hb0.le h6 (fun hc => by linarith))

theorem at2_upp5 {c : FP} (hc : c.toE = x.hi.toE) (hcn : c ≠ .nan) (h0 : y.lo.toE < 0) (h1 : x.hi.toE ≤ 0)
    (h2 : ∀ p ∈ pairs0 y x, p.1 < 0) : Upp φ thp (pairs0 y x) (φ.atan2 .U y.lo c) := by
  refine Upp.corner (atan2_ulim φ .U hy.lo_ne hcn (fun h => absurd h h0.ne)
    (fun _ => fin_of_toE hc (hi_fin_of_nonpos hx h1))) ?_ ?_
  · rw [hc]
    filter_upwards [(hy.ev_lo.and (ev_neg h0)).prod_mk hx.ev_hi] with p hp
    exact ⟨hp.1.1, hp.2, fun hc => by have := hp.1.2; linarith [hc.1]⟩
  · rintro ⟨b, a⟩ hq
    have hb0 := h2 _ hq
    obtain ⟨hb, ha, hn⟩ := hq
    rw [hc]
    filter_upwards [((hy.ev_lo_le hb).and (ev_neg h0)).prod_mk (hx.ev_hi_ge ha)] with p hp
    obtain ⟨⟨h3, h4⟩, h5⟩ := hp
    exact (th_anti_y' (hx.nonpos h1 ha) hb0 h3).trans (th_mono_x h4.le h5 (fun hc => by linarith))

theorem at2_low_pi (h0 : y.lo.toE < 0) (h0' : 0 ≤ y.hi.toE) (h1 : x.lo.toE < 0) :
    Low φ thp (pairs0 y x) (φ.constPi .U).neg := by
  obtain ⟨r, hr, hr0⟩ := (hx.ev_lo.and (ev_neg h1)).exists
  obtain ⟨s, hs, hs0⟩ := (hy.ev_lo.and (ev_neg h0)).exists
  have hmem : ∀ t : ℝ, s ≤ t → t < 0 → (t, r) ∈ pairs0 y x := fun t h h' => by
    refine ⟨hy.mem.mpr ⟨(hy.mem.mp hs).1.trans (by exact_mod_cast h), le_trans ?_ h0'⟩, hr, fun hc => ?_⟩
    · exact_mod_cast h'.le
    · have := hc.2; linarith
  have hlim : Tendsto (fun t => th t r) (𝓝[<] 0) (𝓝 (-Real.pi)) := by
    have e : ∀ᶠ t in 𝓝[<] (0:ℝ), - (Real.pi / 2 - Real.arctan (r / (-t))) = th t r := by
      filter_upwards [self_mem_nhdsWithin] with t ht
      have ht : t < 0 := ht
      rw [← th_of_pos (show 0 < -t by linarith), th_neg (fun e => by linarith), neg_neg]
    refine Tendsto.congr' e ?_
    have h2 : Tendsto (fun t : ℝ => r / (-t)) (𝓝[<] 0) atBot := by
      have h3 : Tendsto (fun t : ℝ => (-t)⁻¹) (𝓝[<] 0) atTop := by
        have : Tendsto (fun t : ℝ => -t) (𝓝[<] 0) (𝓝[>] 0) := by
          have := tendsto_neg_nhdsLT (a := (0:ℝ)); simpa using this
        exact tendsto_inv_nhdsGT_zero.comp this
      exact h3.const_mul_atTop_of_neg hr0
    have h4 := (tendsto_nhds_of_tendsto_nhdsWithin Real.tendsto_arctan_atBot).comp h2
    have h5 := ((tendsto_const_nhds (x := Real.pi / 2)).sub h4).neg
    rw [show -(Real.pi / 2 - -(Real.pi / 2)) = -Real.pi by ring] at h5
    exact h5
  refine ⟨⟨_, hmem s le_rfl hs0⟩, ⟨((-Real.pi:ℝ):EReal), ?_, ?_⟩, ?_, ?_⟩
  · refine glb_of_filter' (map (fun t => (t, r)) (𝓝[<] 0)) ?_ ?_ ?_
    · rw [eventually_map]
      have : ∀ᶠ t in 𝓝[<] (0:ℝ), s ≤ t := (eventually_ge_nhds hs0).filter_mono nhdsWithin_le_nhds
      filter_upwards [this, self_mem_nhdsWithin] with t h h'
      exact hmem t h h'
    · intro q _
      rw [eventually_map]
      exact (hlim.eventually (eventually_le_nhds (neg_pi_lt_th q.1 q.2)))
    · rw [tendsto_map'_iff]
      exact (continuous_coe_real_ereal.tendsto _).comp hlim
  · rw [FP.toE_neg, EReal.coe_neg, Fmt.rdE_neg, Fmt.ruE_coe]; rfl
  · rw [Ne, FP.neg_eq_nan]; exact φ.round_ne_nan _ _
  · exact FP.neg_in (φ.round_in _ _)

end P1788
