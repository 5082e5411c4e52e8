import Verif.Props.C20
import Verif.Props.C14
import Verif.Props.C11
import Verif.Lemmas.Near
import Mathlib.Topology.Instances.Int
import Mathlib.Topology.Order.IntermediateValue
import Mathlib.Analysis.SpecialFunctions.Complex.Arg

/-! # C20: decorations of the step functions, of `atan2` and of `tan` -/

namespace P1788
open Bornology Filter Topology
variable {φ : Fmt} {x y z : DItv}

theorem Itv.isPreconnected (x : Itv) : IsPreconnected x.set := by
  refine Set.OrdConnected.isPreconnected ⟨fun a ha b hb c hc => ?_⟩
  rw [Itv.mem_set] at *
  refine ⟨⟨ha.1.1, ha.1.2.trans ?_⟩, ⟨ha.2.1, le_trans ?_ hb.2.2⟩⟩
  · exact_mod_cast hc.1
  · exact_mod_cast hc.2

theorem const_of_continuousOn {G : ℝ → ℤ} {X : Set ℝ} (hX : IsPreconnected X) (hne : X.Nonempty)
    (hc : ContinuousOn (fun r => (G r : ℝ)) X) : ∃ n : ℤ, ∀ t ∈ X, G t = n := by
  have hc' : ContinuousOn G X := by
    rw [Int.isClosedEmbedding_coe_real.isInducing.continuousOn_iff]; exact hc
  obtain ⟨t0, h0⟩ := hne
  exact ⟨G t0, fun t ht => hX.constant hc' ht h0⟩

theorem Itv.NE.isSingleton_iff {b : Itv} (h : b.NE φ) : b.isSingleton = true ↔ b.lo.toE = b.hi.toE := by
  unfold Itv.isSingleton
  rw [h.isValid, Bool.true_and, FP.feq_iff h.lo_ne h.hi_ne]

/-- Decorations of step functions: `J` is the set of discontinuities, `tie` the test of the code. -/
theorem localOk_step {G : ℝ → ℤ} {J : Set ℝ} {b : Itv} {tie : Bool} {v : Itv} (hv : v.Ok φ)
    (hT : Tightest φ b ((fun r => (G r : ℝ)) '' v.set))
    (hs : v.NE φ → (∃ n : ℤ, ∀ t ∈ v.set, G t = n) → b.lo.toE = b.hi.toE)
    (hcont : ∀ t, t ∉ J → ∀ᶠ s in 𝓝 t, G s = G t)
    (hjump : ∀ t ∈ J, ¬ ∀ᶠ s in 𝓝 t, G s = G t)
    (htie : v.NE φ → ∀ n : ℤ, (∀ t ∈ v.set, G t = n) → b.lo.toE = ((n:ℝ):EReal) → b.hi.toE = ((n:ℝ):EReal) →
      (tie = true ↔ ∃ t ∈ v.set, t ∈ J)) :
    LocalOk (fun r => (G r : ℝ)) Set.univ v.set b.set
      (if b.isEmpty then .trv else if !b.isSingleton then .defd else if tie then .dac else .com) := by
  have he := tight_empty_iff hT
  rw [Set.image_eq_empty] at he
  rcases hv.cases with rfl | hN
  · rw [Itv.set_empty] at he ⊢
    rw [he.mpr rfl, if_pos rfl]
    refine ⟨trivial, fun d hd => ?_⟩
    cases d
    · decide
    · decide
    · exact absurd hd.1 Set.not_nonempty_empty
    · exact absurd hd.1 Set.not_nonempty_empty
    · exact absurd hd.1 Set.not_nonempty_empty
  have hne := hN.nonempty
  have e2 : b.isEmpty = false := by rw [Bool.eq_false_iff, Ne, he]; exact hne.ne_empty
  have hB : b.NE φ := by
    rcases hT.1.cases with rfl | h
    · exact absurd e2 (by decide)
    · exact h
  have contIff : ∀ t, ContinuousAt (fun r => (G r : ℝ)) t → ∀ᶠ s in 𝓝 t, G s = G t := by
    intro t ht
    have : ContinuousAt G t := by
      rw [Int.isClosedEmbedding_coe_real.isInducing.continuousAt_iff]; exact ht
    exact this.eventually (show ∀ᶠ n in 𝓝 (G t), n = G t by rw [nhds_discrete]; exact eventually_pure.mpr rfl)
  rw [e2]
  simp only [Bool.false_eq_true, if_false]
  by_cases hsing : b.lo.toE = b.hi.toE
  · rw [hB.isSingleton_iff.mpr hsing]
    simp only [Bool.not_true, Bool.false_eq_true, if_false]
    obtain ⟨r, hr⟩ : ∃ r : ℝ, b.lo.toE = r :=
      ⟨_, (EReal.coe_toReal hB.lo_top (by rw [hsing]; exact hB.hi_bot)).symm⟩
    obtain ⟨t0, h0⟩ := hne
    have hG : ∀ t ∈ v.set, (G t : ℝ) = r := by
      intro t ht
      have := hB.mem.mp (hT.2.1 ⟨t, ht, rfl⟩)
      rw [← hsing, hr] at this
      exact le_antisymm (by exact_mod_cast this.2) (by exact_mod_cast this.1)
    have hn : ∀ t ∈ v.set, G t = G t0 := fun t ht => by
      have := (hG t ht).trans (hG t0 h0).symm; exact_mod_cast this
    have hrn : r = (G t0 : ℝ) := (hG t0 h0).symm
    have ht := htie hN (G t0) hn (by rw [hr, hrn]) (by rw [← hsing, hr, hrn])
    have hbd : IsBounded b.set := by
      rw [hB.bounded_iff, Ne, ← FP.toE_eq_bot, Ne, ← FP.toE_eq_top, ← hsing, hr]
      exact ⟨EReal.coe_ne_bot _, EReal.coe_ne_top _⟩
    split_ifs with h
    · obtain ⟨s, hs1, hs2⟩ := ht.mp h
      refine ⟨⟨⟨t0, h0⟩, Set.subset_univ _, ?_⟩, fun d hd => ?_⟩
      · refine (continuousOn_const (c := (G t0 : ℝ))).congr fun t ht => by rw [hn t ht]
      · cases d
        · decide
        · decide
        · decide
        · decide
        · exact absurd (contIff s (continuousWithinAt_univ _ _ |>.mp (hd.2.2.1 s hs1))) (hjump s hs2)
    · refine ⟨⟨⟨t0, h0⟩, Set.subset_univ _, fun t ht' => ?_, hbd⟩, fun d _ => Dec.le_com d⟩
      have hJ : t ∉ J := fun hj => h (ht.mpr ⟨t, ht', hj⟩)
      refine ContinuousAt.continuousWithinAt ?_
      refine (continuousAt_const (y := (G t : ℝ))).congr ?_
      filter_upwards [hcont t hJ] with s hs'
      rw [hs']
  · rw [Bool.eq_false_iff.mpr (fun h => hsing (hB.isSingleton_iff.mp h))]
    simp only [Bool.not_false, if_true]
    refine ⟨⟨hne, Set.subset_univ _⟩, fun d hd => ?_⟩
    have key : ContinuousOn (fun r => (G r : ℝ)) v.set → False := fun hc =>
      hsing (hs hN (const_of_continuousOn v.isPreconnected hne hc))
    cases d
    · decide
    · decide
    · decide
    · exact (key hd.2.2).elim
    · exact (key fun t ht => (hd.2.2.1 t ht).mono (Set.subset_univ _)).elim

theorem rint_toE {G : ℝ → ℤ} {g : ℚ → ℤ} (hG : IntRnd G) (hg : ∀ q : ℚ, G q = g q) {a : FP} (ha : a ≠ .nan) {r : ℝ}
    (hr : a.toE = (r:EReal)) : (a.rint g).toE = ((G r : ℝ):EReal) := by
  have h := hG.ulim (φ := binary64) hg (m := .D) (by simp) (a := a) ha
  cases a with
  | nan => exact absurd rfl ha
  | ninf => simp at hr
  | pinf => simp at hr
  | nzero =>
    have : r = 0 := by rw [FP.toE_nzero] at hr; exact_mod_cast hr.symm
    subst this
    have h0 : G 0 = 0 := by simpa using hG.fix 0
    rw [h0]; simp [FP.rint]
  | fin q =>
    have : r = q := by rw [FP.toE_fin] at hr; exact_mod_cast hr.symm
    subst this
    simp only [FP.rint]
    split_ifs with h'
    · rw [hg, h']; simp
    · rw [hg]; simp

/-- The constancy criterion of the integer rounding functions. -/
theorem rint_const {G : ℝ → ℤ} {g : ℚ → ℤ} (hG : IntRnd G) (hg : ∀ q : ℚ, G q = g q) {v : Itv} (hN : v.NE φ) {n : ℤ}
    (hn : ∀ t ∈ v.set, G t = n) :
    ∃ a c : ℝ, v.lo.toE = a ∧ v.hi.toE = c ∧ (Fmt.rintI g v).lo.toE = ((n:ℝ):EReal) ∧
      (Fmt.rintI g v).hi.toE = ((n:ℝ):EReal) := by
  have h1 : v.lo ≠ .ninf := by
    intro e
    obtain ⟨b, hb, hlt⟩ := hN.ex_gt (r := ((n - 1 : ℤ) : ℝ)) |>.mpr (by rw [e]; exact EReal.bot_lt_coe _)
    have := hG.mono hlt.le
    rw [hG.fix, hn b hb] at this
    omega
  have h2 : v.hi ≠ .pinf := by
    intro e
    obtain ⟨b, hb, hlt⟩ := hN.ex_lt (r := ((n + 1 : ℤ) : ℝ)) |>.mpr (by rw [e]; exact EReal.coe_lt_top _)
    have := hG.mono hlt.le
    rw [hG.fix, hn b hb] at this
    omega
  obtain ⟨a, c, ha, hc⟩ := fin_bounds hN (by push Not; exact ⟨h1, h2⟩)
  have e : Fmt.rintI g v = ⟨v.lo.rint g, v.hi.rint g⟩ := by simp [Fmt.rintI, hN.isValid, hN.isEmpty]
  refine ⟨a, c, ha, hc, ?_, ?_⟩
  · rw [e]; show (v.lo.rint g).toE = _
    rw [rint_toE hG hg hN.lo_ne ha, hn a (hN.lo_mem ha)]
  · rw [e]; show (v.hi.rint g).toE = _
    rw [rint_toE hG hg hN.hi_ne hc, hn c (hN.hi_mem hc)]

theorem localOk_rint {G : ℝ → ℤ} {g : ℚ → ℤ} {J : Set ℝ} {tie : Bool} {v : Itv} (hG : IntRnd G)
    (hg : ∀ q : ℚ, G q = g q) (hv : v.Ok φ)
    (hcont : ∀ t, t ∉ J → ∀ᶠ s in 𝓝 t, G s = G t)
    (hjump : ∀ t ∈ J, ¬ ∀ᶠ s in 𝓝 t, G s = G t)
    (htie : v.NE φ → ∀ (n : ℤ) (a c : ℝ), v.lo.toE = a → v.hi.toE = c → a ∈ v.set → c ∈ v.set →
      (∀ t ∈ v.set, a ≤ t ∧ t ≤ c) → (∀ t ∈ v.set, G t = n) → (Fmt.rintI g v).lo.toE = ((n:ℝ):EReal) →
      (Fmt.rintI g v).hi.toE = ((n:ℝ):EReal) → (Fmt.rintI g v).lo ≠ .nan → (Fmt.rintI g v).hi ≠ .nan →
      (tie = true ↔ ∃ t ∈ v.set, t ∈ J)) :
    LocalOk (fun r => (G r : ℝ)) Set.univ v.set (Fmt.rintI g v).set
      (if (Fmt.rintI g v).isEmpty then .trv else if !(Fmt.rintI g v).isSingleton then .defd
        else if tie then .dac else .com) := by
  have hT := hG.tight hg hv
  refine localOk_step hv hT (fun hN ⟨n, hn⟩ => ?_) hcont hjump (fun hN n hn h1 h2 => ?_)
  · obtain ⟨a, c, -, -, h1, h2⟩ := rint_const hG hg hN hn
    rw [h1, h2]
  · obtain ⟨a, c, ha, hc, -, -⟩ := rint_const hG hg hN hn
    have hB : (Fmt.rintI g v).NE φ := by
      rcases hT.1.cases with h | h
      · have := hN.nonempty
        have h3 := hT.2.1 ⟨_, this.some_mem, rfl⟩
        rw [h] at h3; simp at h3
      · exact h
    refine htie hN n a c ha hc (hN.lo_mem ha) (hN.hi_mem hc) (fun t ht => ?_) hn h1 h2 hB.lo_ne hB.hi_ne
    have := hN.mem.mp ht
    rw [ha, hc] at this
    exact ⟨by exact_mod_cast this.1, by exact_mod_cast this.2⟩

/-! ## ceil, floor, trunc -/

theorem ev_ceil {t : ℝ} (h : t ∉ Set.range ((↑) : ℤ → ℝ)) :
    ∀ᶠ s in 𝓝 t, ⌊s⌋ = ⌊t⌋ ∧ ⌈s⌉ = ⌊t⌋ + 1 := by
  have h1 : (⌊t⌋:ℝ) < t := lt_of_le_of_ne (Int.floor_le t) (fun e => h ⟨_, e⟩)
  have h2 := Int.lt_floor_add_one t
  filter_upwards [Ioo_mem_nhds h1 h2] with s hs
  refine ⟨Int.floor_eq_iff.mpr ⟨hs.1.le, hs.2⟩, Int.ceil_eq_iff.mpr ⟨?_, ?_⟩⟩
  · push_cast; linarith [hs.1]
  · push_cast; exact hs.2.le

theorem ev_side {P : ℝ → Prop} {t : ℝ} (h : ∀ᶠ s in 𝓝 t, P s) {δ : ℝ} (hδ : 0 < δ) :
    (∃ s, t < s ∧ s < t + δ ∧ P s) ∧ (∃ s, t - δ < s ∧ s < t ∧ P s) := by
  obtain ⟨ε, hε, hb⟩ := Metric.eventually_nhds_iff.mp h
  have hm : 0 < min δ ε := lt_min hδ hε
  refine ⟨⟨t + min δ ε / 2, by linarith, by linarith [min_le_left δ ε], hb ?_⟩,
    ⟨t - min δ ε / 2, by linarith [min_le_left δ ε], by linarith, hb ?_⟩⟩
  · rw [Real.dist_eq, abs_of_pos (by linarith)]; linarith [min_le_right δ ε]
  · rw [Real.dist_eq, abs_of_neg (by linarith)]; linarith [min_le_right δ ε]

/-- `ceil`. -/
theorem C20_ceil (hx : x.Ok φ) (hn : x.dec ≠ .ill) :
    (Fmt.ceilD x).itv = Fmt.ceilI x.itv ∧
    DecRight (fun r => (⌈r⌉ : ℝ)) Set.univ x.set x.dec (Fmt.ceilD x) := by
  refine dec_un hx hn (localOk_rint (J := Set.range ((↑) : ℤ → ℝ)) ⟨Int.ceil_mono, Int.ceil_intCast⟩
    (fun q => Rat.ceil_cast q) hx.1 ?_ ?_ ?_)
  · intro t ht
    have h := ev_ceil ht
    filter_upwards [h] with s hs
    rw [hs.2, h.self_of_nhds.2]
  · rintro _ ⟨k, rfl⟩ h
    obtain ⟨s, h1, -, h2⟩ := (ev_side h one_pos).1
    rw [Int.ceil_intCast] at h2
    have := Int.le_ceil s
    rw [h2] at this
    linarith
  · intro hN n a c ha hc ham hcm hac hG hl hu hln hun
    show x.itv.hi.feq (Fmt.rintI (fun q => ⌈q⌉) x.itv).hi = true ↔ _
    rw [FP.feq_iff hN.hi_ne hun, hu, hc, EReal.coe_eq_coe_iff]
    constructor
    · intro e; exact ⟨c, hcm, n, e.symm⟩
    · rintro ⟨_, ht, k, rfl⟩
      have h1 := hG _ ht
      rw [Int.ceil_intCast] at h1
      have h2 := hG _ hcm
      have h3 := Int.le_ceil c
      rw [h2] at h3
      have h4 := (hac _ ht).2
      rw [h1] at h4
      exact le_antisymm h3 h4

/-- `floor`. -/
theorem C20_floor (hx : x.Ok φ) (hn : x.dec ≠ .ill) :
    (Fmt.floorD x).itv = Fmt.floorI x.itv ∧
    DecRight (fun r => (⌊r⌋ : ℝ)) Set.univ x.set x.dec (Fmt.floorD x) := by
  refine dec_un hx hn (localOk_rint (J := Set.range ((↑) : ℤ → ℝ)) ⟨Int.floor_mono, Int.floor_intCast⟩
    (fun q => Rat.floor_cast q) hx.1 ?_ ?_ ?_)
  · intro t ht
    filter_upwards [ev_ceil ht] with s hs
    exact hs.1
  · rintro _ ⟨k, rfl⟩ h
    obtain ⟨s, -, h1, h2⟩ := (ev_side h one_pos).2
    rw [Int.floor_intCast] at h2
    have := Int.floor_le s
    rw [h2] at this
    linarith
  · intro hN n a c ha hc ham hcm hac hG hl hu hln hun
    show x.itv.lo.feq (Fmt.rintI (fun q => ⌊q⌋) x.itv).lo = true ↔ _
    rw [FP.feq_iff hN.lo_ne hln, hl, ha, EReal.coe_eq_coe_iff]
    constructor
    · intro e; exact ⟨a, ham, n, e.symm⟩
    · rintro ⟨_, ht, k, rfl⟩
      have h1 := hG _ ht
      rw [Int.floor_intCast] at h1
      have h2 := hG _ ham
      have h3 := Int.floor_le a
      rw [h2] at h3
      have h4 := (hac _ ht).1
      rw [h1] at h4
      exact le_antisymm h4 h3

theorem isTrunc_pos {r : ℝ} {n : ℤ} (h : IsTrunc r n) (hr : 0 ≤ r) : (n:ℝ) ≤ r ∧ r < n + 1 := by
  obtain ⟨h1, h2, h3⟩ := h
  rw [abs_of_nonneg hr] at h1 h2
  rcases hr.eq_or_lt with h0 | h0
  · rw [← h0] at h1 ⊢
    have : (n:ℝ) = 0 := abs_nonpos_iff.mp h1
    rw [this]; norm_num
  · have : (0:ℝ) ≤ n := by by_contra hc; nlinarith [not_le.mp hc]
    rw [abs_of_nonneg this] at h1 h2
    exact ⟨h1, h2⟩

theorem isTrunc_neg {r : ℝ} {n : ℤ} (h : IsTrunc r n) (hr : r ≤ 0) : r ≤ n ∧ (n:ℝ) - 1 < r := by
  have := isTrunc_pos (r := -r) (n := -n) ⟨by simpa using h.1, by simpa using h.2.1, by simpa using h.2.2⟩ (by linarith)
  push_cast at this
  exact ⟨by linarith [this.1], by linarith [this.2]⟩

/-- `trunc`. -/
theorem C20_trunc (G : ℝ → ℤ) (hG : ∀ r, IsTrunc r (G r)) (hx : x.Ok φ) (hn : x.dec ≠ .ill) :
    (Fmt.truncD x).itv = Fmt.truncI x.itv ∧
    DecRight (fun r => (G r : ℝ)) Set.univ x.set x.dec (Fmt.truncD x) := by
  have hI : IntRnd G := intRnd_of_spec hG isTrunc_mono (fun n => ⟨le_rfl, by linarith, mul_self_nonneg _⟩)
  have huniq : ∀ r n, IsTrunc r n → G r = n := fun r n h =>
    le_antisymm (isTrunc_mono _ _ _ _ le_rfl (hG r) h) (isTrunc_mono _ _ _ _ le_rfl h (hG r))
  refine dec_un hx hn (localOk_rint (J := {t | ∃ k : ℤ, k ≠ 0 ∧ (k:ℝ) = t}) hI
    (fun q => huniq _ _ (isTrunc_truncQ q)) hx.1 ?_ ?_ ?_)
  · intro t ht
    rcases lt_trichotomy t 0 with h | h | h
    · have hr : t ∉ Set.range ((↑) : ℤ → ℝ) := by
        rintro ⟨k, rfl⟩; exact ht ⟨k, by rintro rfl; simp at h, rfl⟩
      have key : ∀ s, s < 0 → G s = ⌈s⌉ := fun s hs => by
        obtain ⟨h1, h2⟩ := isTrunc_neg (hG s) hs.le
        exact (Int.ceil_eq_iff.mpr ⟨h2, h1⟩).symm
      have h2 := ev_ceil hr
      filter_upwards [h2, gt_mem_nhds h] with s hs hs0
      rw [key s hs0, key t h, hs.2, h2.self_of_nhds.2]
    · subst h
      have h0 : G 0 = 0 := by simpa using hI.fix 0
      filter_upwards [Ioo_mem_nhds (show (-1:ℝ) < 0 by norm_num) (show (0:ℝ) < 1 by norm_num)] with s hs
      rw [h0]
      refine huniq _ _ ⟨by simp, ?_, by simp⟩
      rw [abs_lt]; simp; exact ⟨hs.1, hs.2⟩
    · have hr : t ∉ Set.range ((↑) : ℤ → ℝ) := by
        rintro ⟨k, rfl⟩; exact ht ⟨k, by rintro rfl; simp at h, rfl⟩
      have key : ∀ s, 0 < s → G s = ⌊s⌋ := fun s hs => by
        obtain ⟨h1, h2⟩ := isTrunc_pos (hG s) hs.le
        exact (Int.floor_eq_iff.mpr ⟨h1, h2⟩).symm
      filter_upwards [ev_ceil hr, lt_mem_nhds h] with s hs hs0
      rw [key s hs0, key t h, hs.1]
  · rintro _ ⟨k, hk, rfl⟩ h
    rcases lt_or_gt_of_ne hk with h0 | h0
    · obtain ⟨s, h1, h3, h2⟩ := (ev_side h one_pos).1
      rw [hI.fix] at h2
      have h0' : (k:ℝ) ≤ -1 := by exact_mod_cast (by omega : k ≤ -1)
      have := (isTrunc_neg (hG s) (by linarith)).1
      rw [h2] at this
      linarith
    · obtain ⟨s, h1, h3, h2⟩ := (ev_side h one_pos).2
      rw [hI.fix] at h2
      have h0' : (1:ℝ) ≤ k := by exact_mod_cast (by omega : 1 ≤ k)
      have := (isTrunc_pos (hG s) (by linarith)).1
      rw [h2] at this
      linarith
  · intro hN n a c ha hc ham hcm hac hGn hl hu hln hun
    rw [Bool.or_eq_true, Bool.and_eq_true, Bool.and_eq_true, Bool.not_eq_true', Bool.not_eq_true',
      Bool.eq_false_iff, Bool.eq_false_iff, Ne, Ne, NE.eq0_iff hN.lo_ne, NE.eq0_iff hN.hi_ne]
    rw [FP.feq_iff hN.lo_ne (show (Fmt.truncI x.itv).lo ≠ .nan from hln),
      FP.feq_iff hN.hi_ne (show (Fmt.truncI x.itv).hi ≠ .nan from hun), show (Fmt.truncI x.itv).lo.toE = _ from hl,
      show (Fmt.truncI x.itv).hi.toE = _ from hu, ha, hc, EReal.coe_eq_coe_iff, EReal.coe_eq_coe_iff,
      EReal.coe_eq_zero, EReal.coe_eq_zero]
    constructor
    · rintro (⟨h0, e⟩ | ⟨h0, e⟩)
      · exact ⟨a, ham, n, by rintro rfl; exact h0 (by simpa using e), e.symm⟩
      · exact ⟨c, hcm, n, by rintro rfl; exact h0 (by simpa using e), e.symm⟩
    · rintro ⟨_, ht, k, hk, rfl⟩
      have h1 := hGn _ ht
      rw [hI.fix] at h1
      rw [h1] at ht hk
      rcases lt_or_gt_of_ne hk with h0 | h0
      · right
        have h0' : (n:ℝ) ≤ -1 := by exact_mod_cast (by omega : n ≤ -1)
        have hc1 := (hac _ ht).2
        have : c = n := by
          have hg := hG c
          rw [hGn c hcm] at hg
          rcases le_total c 0 with h | h
          · exact le_antisymm (isTrunc_neg hg h).1 hc1
          · exfalso; nlinarith [(isTrunc_pos hg h).2, hg.2.2]
        exact ⟨by rw [this]; linarith, this⟩
      · left
        have h0' : (1:ℝ) ≤ n := by exact_mod_cast (by omega : 1 ≤ n)
        have hc1 := (hac _ ht).1
        have : a = n := by
          have hg := hG a
          rw [hGn a ham] at hg
          rcases le_total 0 a with h | h
          · exact le_antisymm hc1 (isTrunc_pos hg h).1
          · exfalso; nlinarith [(isTrunc_neg hg h).2, hg.2.2]
        exact ⟨by rw [this]; linarith, this⟩

/-! ## Rounding to nearest integers -/

theorem rep_frac {q : ℚ} (h : φ.Rep q) (h0 : 0 ≤ q) : φ.Rep (q - ⌊q⌋) := by
  obtain ⟨m, e, hq, hm, he, hx⟩ := h
  rcases le_or_gt 0 e with h | h
  · obtain ⟨k, rfl⟩ := Int.eq_ofNat_of_zero_le h
    have : q = ((m * 2 ^ k : ℤ) : ℚ) := by rw [hq]; push_cast; rfl
    rw [this, Int.floor_intCast, sub_self]; exact φ.rep_zero
  · obtain ⟨k, hk⟩ := Int.eq_ofNat_of_zero_le (show 0 ≤ -e by omega)
    have h2 := two_zpow_pos e
    have h3 : (2:ℚ) ^ k * 2 ^ e = 1 := by
      rw [← zpow_natCast, ← zpow_add₀ (by norm_num)]
      have : (k:ℤ) + e = 0 := by omega
      rw [this, zpow_zero]
    have hf : q - ⌊q⌋ = ((m - ⌊q⌋ * 2 ^ k : ℤ) : ℚ) * 2 ^ e := by
      push_cast; rw [sub_mul, mul_assoc, h3, ← hq]; ring
    refine ⟨m - ⌊q⌋ * 2 ^ k, e, hf, lt_of_le_of_lt ?_ hm, he, hx⟩
    have a1 : 0 ≤ q - ⌊q⌋ := sub_nonneg.mpr (Int.floor_le q)
    have a2 : q - ⌊q⌋ ≤ q := by
      have : (0:ℚ) ≤ ⌊q⌋ := by exact_mod_cast Int.floor_nonneg.mpr h0
      linarith
    rw [hf] at a1 a2
    replace a2 := a2.trans hq.le
    have b1 : (0:ℚ) ≤ ((m - ⌊q⌋ * 2 ^ k : ℤ) : ℚ) := nonneg_of_mul_nonneg_left a1 h2
    have b2 : ((m - ⌊q⌋ * 2 ^ k : ℤ) : ℚ) ≤ (m:ℚ) := le_of_mul_le_mul_right a2 h2
    have b1' : 0 ≤ m - ⌊q⌋ * 2 ^ k := by exact_mod_cast b1
    have b2' : m - ⌊q⌋ * 2 ^ k ≤ m := by exact_mod_cast b2
    rw [abs_of_nonneg b1']
    exact b2'.trans (le_abs_self m)

theorem exists_trunc : ∃ G : ℝ → ℤ, (∀ r, IsTrunc r (G r)) ∧ ∀ r, 0 ≤ r → G r = ⌊r⌋ := by
  refine ⟨fun r => if r < 0 then ⌈r⌉ else ⌊r⌋, fun r => ?_, fun r hr => if_neg (not_lt.mpr hr)⟩
  simp only [IsTrunc]
  split_ifs with h
  · have h1 : ((⌈r⌉:ℤ):ℝ) ≤ 0 := by exact_mod_cast Int.ceil_le.mpr (by simpa using h.le)
    rw [abs_of_neg h, abs_of_nonpos h1]
    exact ⟨by linarith [Int.le_ceil r], by linarith [Int.ceil_lt_add_one r], by nlinarith⟩
  · have h' := not_lt.mp h
    have h1 : (0:ℝ) ≤ (⌊r⌋:ℤ) := by exact_mod_cast Int.floor_nonneg.mpr h'
    rw [abs_of_nonneg h', abs_of_nonneg h1]
    exact ⟨by linarith [Int.floor_le r], by linarith [Int.lt_floor_add_one r], by positivity⟩

theorem isTie_iff {a : FP} (hi : a.In φ) {r : ℝ} (hr : a.toE = (r:EReal)) (hn : a ≠ .nan) :
    φ.isTie a = true ↔ ∃ k : ℤ, r = k + 1 / 2 := by
  obtain ⟨G, hG, hGf⟩ := exists_trunc
  have hI : IntRnd G := intRnd_of_spec hG isTrunc_mono (fun n => ⟨le_rfl, by linarith, mul_self_nonneg _⟩)
  have hg : ∀ q : ℚ, G q = truncQ q := fun q => le_antisymm (isTrunc_mono _ _ _ _ le_rfl (hG q) (isTrunc_truncQ q))
      (isTrunc_mono _ _ _ _ le_rfl (isTrunc_truncQ q) (hG q))
  have hA : a.abs ≠ .nan := fun e => hn (FP.abs_eq_nan.mp e)
  have hAE : a.abs.toE = ((|r| : ℝ):EReal) := by
    rw [FP.toE_abs, hr, ← EReal.coe_neg]; exact (EReal.coe_strictMono.monotone.map_max).symm
  have hB := rint_toE hI hg hA hAE
  rw [hGf _ (abs_nonneg r)] at hB
  have hBn : a.abs.rint truncQ ≠ .nan := by
    intro e
    cases h : a.abs <;> rw [h] at e <;> simp [FP.rint] at e
    · exact hA h
    · split_ifs at e <;> simp [FP.mkZero] at e
      split_ifs at e
  obtain ⟨q, hq, hqr⟩ : ∃ q : ℚ, φ.Rep q ∧ |r| = q := by
    have hin := FP.abs_in hi
    cases h : a.abs with
    | nan => exact absurd h hA
    | ninf => rw [h] at hAE; simp at hAE
    | pinf => rw [h] at hAE; simp at hAE
    | nzero => rw [h, FP.toE_nzero] at hAE; exact ⟨0, φ.rep_zero, by rw [Rat.cast_zero]; exact_mod_cast hAE.symm⟩
    | fin q => rw [h] at hAE hin; exact ⟨q, hin, by rw [FP.toE_fin] at hAE; exact_mod_cast hAE.symm⟩
  have hq0 : 0 ≤ q := by have := abs_nonneg r; rw [hqr] at this; exact_mod_cast this
  have hfrac := rep_frac hq hq0
  have hfl : ⌊|r|⌋ = ⌊q⌋ := by rw [hqr]; exact Rat.floor_cast q
  obtain ⟨h1, h2⟩ := φ.sub_spec (m := .N) hA hBn (by rw [hAE]; simp) (by rw [hAE]; simp)
  unfold Fmt.isTie
  rw [FP.feq_iff h1 (by simp), h2, hAE, hB, hfl, hqr, ← EReal.coe_sub,
    show (q:ℝ) - ((⌊q⌋:ℤ):ℝ) = ((q - ⌊q⌋ : ℚ):ℝ) by push_cast; rfl, Fmt.rndE_coe, φ.round_rep_toE hfrac, FP.toE_fin,
    EReal.coe_eq_coe_iff]
  push_cast
  rw [← hqr, ← hfl]
  constructor
  · intro h
    rcases abs_cases r with ⟨e, -⟩ | ⟨e, -⟩
    · exact ⟨⌊|r|⌋, by linarith⟩
    · exact ⟨-⌊|r|⌋ - 1, by push_cast; linarith⟩
  · rintro ⟨k, hk⟩
    rcases abs_cases r with ⟨e, -⟩ | ⟨e, -⟩
    · have : ⌊|r|⌋ = k := by rw [e, hk, Int.floor_eq_iff]; constructor <;> linarith
      rw [this, e, hk]; ring
    · have : ⌊|r|⌋ = -k - 1 := by rw [e, hk, Int.floor_eq_iff]; push_cast; constructor <;> linarith
      rw [this, e, hk]; push_cast; ring

theorem localOk_near {G : ℝ → ℤ} {g : ℚ → ℤ} (hI : IntRnd G) (hG : ∀ r, |r - G r| ≤ 1 / 2) (hg : ∀ q : ℚ, G q = g q)
    {v : Itv} (hv : v.Ok φ) : LocalOk (fun r => (G r : ℝ)) Set.univ v.set (Fmt.rintI g v).set
      (if (Fmt.rintI g v).isEmpty then .trv else if !(Fmt.rintI g v).isSingleton then .defd
        else if φ.isTie v.lo || φ.isTie v.hi then .dac else .com) := by
  have huniq : ∀ (r : ℝ) (n : ℤ), |r - n| < 1 / 2 → G r = n := by
    intro r n h
    have h1 := hG r
    rw [abs_le] at h1
    rw [abs_lt] at h
    have h2 : ((G r : ℤ) : ℝ) < n + 1 := by linarith
    have h3 : (n : ℝ) < (G r : ℝ) + 1 := by linarith
    have h2' : G r < n + 1 := by exact_mod_cast h2
    have h3' : n < G r + 1 := by exact_mod_cast h3
    omega
  refine localOk_rint (J := {t | ∃ k : ℤ, t = k + 1 / 2}) hI hg hv ?_ ?_ ?_
  · intro t ht
    have h1 := hG t
    have h2 : |t - G t| < 1 / 2 := by
      refine lt_of_le_of_ne h1 fun e => ?_
      rcases abs_eq (by norm_num : (0:ℝ) ≤ 1 / 2) |>.mp e with h | h
      · exact ht ⟨G t, by linarith⟩
      · exact ht ⟨G t - 1, by push_cast; linarith⟩
    rw [abs_lt] at h2
    filter_upwards [Ioo_mem_nhds (show (G t : ℝ) - 1 / 2 < t by linarith) (show t < (G t : ℝ) + 1 / 2 by linarith)] with s hs
    exact huniq s _ (by rw [abs_lt]; exact ⟨by linarith [hs.1], by linarith [hs.2]⟩)
  · rintro _ ⟨k, rfl⟩ h
    obtain ⟨s, h1, h2, h3⟩ := (ev_side h one_pos).1
    obtain ⟨s', h1', h2', h3'⟩ := (ev_side h one_pos).2
    rw [huniq s (k + 1) (by rw [abs_lt]; push_cast; constructor <;> linarith)] at h3
    rw [huniq s' k (by rw [abs_lt]; constructor <;> linarith)] at h3'
    omega
  · intro hN n a c ha hc ham hcm hac hGn hl hu hln hun
    rw [Bool.or_eq_true, isTie_iff hN.lo_in ha hN.lo_ne, isTie_iff hN.hi_in hc hN.hi_ne]
    constructor
    · rintro (h | h)
      · exact ⟨a, ham, h⟩
      · exact ⟨c, hcm, h⟩
    · rintro ⟨_, ht, k, rfl⟩
      have h1 := hG ((k:ℝ) + 1 / 2)
      rw [hGn _ ht, abs_le] at h1
      have ha' := hG a
      have hc' := hG c
      rw [hGn _ ham, abs_le] at ha'
      rw [hGn _ hcm, abs_le] at hc'
      have h2 := hac _ ht
      have h3 : (k:ℝ) < n + 1 := by linarith [h1.2]
      have h4 : (n:ℝ) - 2 < k := by linarith [h1.1]
      have h3' : k < n + 1 := by exact_mod_cast h3
      have h4' : n - 2 < k := by exact_mod_cast h4
      rcases (by omega : k = n ∨ k = n - 1) with rfl | rfl
      · right; exact ⟨k, le_antisymm (by linarith [hc'.2]) h2.2⟩
      · left; exact ⟨n - 1, le_antisymm h2.1 (by push_cast; linarith [ha'.1])⟩

/-- `round_ties_to_even`. -/
theorem C20_round_ties_to_even (G : ℝ → ℤ) (hG : ∀ r, IsRoundEven r (G r)) (hx : x.Ok φ) (hn : x.dec ≠ .ill) :
    (φ.roundEvenD x).itv = Fmt.roundEvenI x.itv ∧
    DecRight (fun r => (G r : ℝ)) Set.univ x.set x.dec (φ.roundEvenD x) :=
  dec_un hx hn (localOk_near (intRnd_of_spec hG isRoundEven_mono (fun n => ⟨by simp, fun h => by norm_num at h⟩))
    (fun r => (hG r).1) (fun q => le_antisymm (isRoundEven_mono _ _ _ _ le_rfl (hG q) (isRoundEven_roundInt q))
      (isRoundEven_mono _ _ _ _ le_rfl (isRoundEven_roundInt q) (hG q))) hx.1)

/-- `round_ties_to_away`. -/
theorem C20_round_ties_to_away (G : ℝ → ℤ) (hG : ∀ r, IsRoundAway r (G r)) (hx : x.Ok φ) (hn : x.dec ≠ .ill) :
    (φ.roundAwayD x).itv = Fmt.roundAwayI x.itv ∧
    DecRight (fun r => (G r : ℝ)) Set.univ x.set x.dec (φ.roundAwayD x) :=
  dec_un hx hn (localOk_near (intRnd_of_spec hG isRoundAway_mono (fun n => ⟨by simp, fun h => by norm_num at h⟩))
    (fun r => (hG r).1) (fun q => le_antisymm (isRoundAway_mono _ _ _ _ le_rfl (hG q) (isRoundAway_awayQ q))
      (isRoundAway_mono _ _ _ _ le_rfl (isRoundAway_awayQ q) (hG q))) hx.1)

/-! ## sign -/

/-- `sign`. -/
theorem C20_sign (hx : x.Ok φ) (hn : x.dec ≠ .ill) :
    (Fmt.signD x).itv = Fmt.signI x.itv ∧ DecRight Real.sign Set.univ x.set x.dec (Fmt.signD x) := by
  obtain ⟨G, hG⟩ : ∃ G : ℝ → ℤ, ∀ r, Real.sign r = (G r : ℝ) := by
    refine ⟨fun r => if r < 0 then -1 else if r = 0 then 0 else 1, fun r => ?_⟩
    rcases lt_trichotomy r 0 with h | h | h
    · rw [Real.sign_of_neg h]; simp [h]
    · rw [h, Real.sign_zero]; simp
    · rw [Real.sign_of_pos h]; simp [h.not_gt, h.ne']
  have hf : Real.sign = fun r => (G r : ℝ) := funext hG
  have g1 : ∀ r, r < 0 → G r = -1 := fun r h => by have := hG r; rw [Real.sign_of_neg h] at this; exact_mod_cast this.symm
  have g2 : ∀ r, 0 < r → G r = 1 := fun r h => by have := hG r; rw [Real.sign_of_pos h] at this; exact_mod_cast this.symm
  have g0 : G 0 = 0 := by have := hG 0; rw [Real.sign_zero] at this; exact_mod_cast this.symm
  have hT := C14_sign hx.1
  rw [hf] at hT ⊢
  refine dec_un hx hn (localOk_step (J := {0}) hx.1 hT ?_ ?_ ?_ ?_)
  · rintro hN ⟨n, hcn⟩
    have e : Fmt.signI x.itv = ⟨x.itv.lo.signF, x.itv.hi.signF⟩ := by
      simp [Fmt.signI, hN.isValid, hN.isEmpty]
    rw [e]
    show x.itv.lo.signF.toE = x.itv.hi.signF.toE
    have key : ∀ a : FP, a ≠ .nan → ∀ s : ℝ, (a.toE < 0 ↔ s < 0) → (a.toE = 0 ↔ s = 0) → a.signF.toE = ((G s : ℝ):EReal) := by
      intro a ha s h1 h2
      unfold FP.signF
      simp only [NE.lt0_iff ha, NE.eq0_iff ha, h1, h2]
      rcases lt_trichotomy s 0 with h | h | h
      · rw [if_pos h, g1 s h]; simp [FP.toE]
      · rw [if_neg h.not_lt, if_pos h, h, g0]; simp [FP.toE]
      · rw [if_neg h.not_gt, if_neg h.ne', g2 s h]; simp [FP.toE]
    have hlo : ∃ s ∈ x.itv.set, (x.itv.lo.toE < 0 ↔ s < 0) ∧ (x.itv.lo.toE = 0 ↔ s = 0) := by
      rcases lt_or_ge x.itv.lo.toE 0 with h | h
      · obtain ⟨s, hs, h0⟩ := hN.ex_gt (r := 0) |>.mpr (by simpa using h)
        exact ⟨s, hs, by simp [h, h0], by simp [h.ne, h0.ne]⟩
      · obtain ⟨r, hr⟩ : ∃ r : ℝ, x.itv.lo.toE = r :=
          ⟨_, (EReal.coe_toReal hN.lo_top (by intro e; rw [e] at h; simp at h)).symm⟩
        exact ⟨r, hN.lo_mem hr, by rw [hr]; exact_mod_cast Iff.rfl, by rw [hr]; exact_mod_cast Iff.rfl⟩
    have hhi : ∃ s ∈ x.itv.set, (x.itv.hi.toE < 0 ↔ s < 0) ∧ (x.itv.hi.toE = 0 ↔ s = 0) := by
      rcases lt_or_ge 0 x.itv.hi.toE with h | h
      · obtain ⟨s, hs, h0⟩ := hN.ex_lt (r := 0) |>.mpr (by simpa using h)
        exact ⟨s, hs, by simp [h.not_gt, h0.not_gt], by simp [h.ne', h0.ne']⟩
      · obtain ⟨r, hr⟩ : ∃ r : ℝ, x.itv.hi.toE = r :=
          ⟨_, (EReal.coe_toReal (by intro e; rw [e] at h; simp at h) hN.hi_bot).symm⟩
        exact ⟨r, hN.hi_mem hr, by rw [hr]; exact_mod_cast Iff.rfl, by rw [hr]; exact_mod_cast Iff.rfl⟩
    obtain ⟨s, hs, k1, k2⟩ := hlo
    obtain ⟨s', hs', k1', k2'⟩ := hhi
    rw [key _ hN.lo_ne s k1 k2, key _ hN.hi_ne s' k1' k2', hcn s hs, hcn s' hs']
  · intro t ht
    rcases lt_or_gt_of_ne (show t ≠ 0 from ht) with h | h
    · filter_upwards [gt_mem_nhds h] with s hs
      rw [g1 s hs, g1 t h]
    · filter_upwards [lt_mem_nhds h] with s hs
      rw [g2 s hs, g2 t h]
  · rintro _ rfl h
    obtain ⟨s, h1, -, h2⟩ := (ev_side h one_pos).1
    rw [g2 s h1, g0] at h2
    omega
  · intro hN n hcn _ _
    rw [hx.isMember hn]; simp

/-! ## atan2 -/

/-- The angle of a point as a function of (ordinate, abscissa). -/
noncomputable def ang (p : ℝ × ℝ) : ℝ := Complex.arg ⟨p.2, p.1⟩

theorem cont_mkC : Continuous (fun p : ℝ × ℝ => (⟨p.2, p.1⟩ : ℂ)) := by
  have : (fun p : ℝ × ℝ => (⟨p.2, p.1⟩ : ℂ)) = fun p => (p.2 : ℂ) + p.1 * Complex.I := by
    ext p; exact Complex.mk_eq_add_mul_I _ _
  rw [this]; fun_prop

theorem ang_continuousAt {p : ℝ × ℝ} (h : 0 < p.2 ∨ p.1 ≠ 0) : ContinuousAt ang p :=
  ContinuousAt.comp (g := Complex.arg) (f := fun p : ℝ × ℝ => (⟨p.2, p.1⟩ : ℂ))
    (Complex.continuousAt_arg (Complex.mem_slitPlane_iff.mpr h)) cont_mkC.continuousAt

/-- The angle is not continuous across the negative half axis from below. -/
theorem ang_jump {S : Set (ℝ × ℝ)} {a : ℝ} (ha : a < 0) {c : ℝ} (hc : c < 0) (h0 : ∀ s, c ≤ s → s < 0 → (s, a) ∈ S)
    (hcont : ContinuousWithinAt ang S (0, a)) : False := by
  have hπ := Real.pi_pos
  have e0 : ang (0, a) = Real.pi := by
    unfold ang
    exact Complex.arg_eq_pi_iff.mpr ⟨ha, rfl⟩
  have t0 : Tendsto (fun s : ℝ => (s, a)) (𝓝[<] 0) (𝓝[S] (0, a)) := by
    rw [tendsto_nhdsWithin_iff]
    refine ⟨?_, ?_⟩
    · exact ((continuous_id.prodMk continuous_const).tendsto (0:ℝ)).mono_left nhdsWithin_le_nhds
    · filter_upwards [Ioo_mem_nhdsLT hc] with s hs
      exact h0 s hs.1.le hs.2
  have t1 : Tendsto (fun s : ℝ => ang (s, a)) (𝓝[<] 0) (𝓝 Real.pi) := by
    have := hcont.tendsto.comp t0
    rwa [e0] at this
  have t2 : Tendsto (fun s : ℝ => ang (s, a)) (𝓝[<] 0) (𝓝 (-Real.pi)) := by
    have h := Complex.tendsto_arg_nhdsWithin_im_neg_of_re_neg_of_im_zero (z := ⟨a, 0⟩) ha rfl
    refine h.comp ?_
    rw [tendsto_nhdsWithin_iff]
    refine ⟨?_, ?_⟩
    · have : Continuous fun s : ℝ => (⟨a, s⟩ : ℂ) := cont_mkC.comp (continuous_id.prodMk continuous_const)
      exact (this.tendsto (0:ℝ)).mono_left nhdsWithin_le_nhds
    · filter_upwards [self_mem_nhdsWithin] with s hs
      exact hs
  have := tendsto_nhds_unique t1 t2
  linarith

theorem ang_cont_upper {S : Set (ℝ × ℝ)} (h1 : ∀ p ∈ S, 0 ≤ p.1) (h2 : ∀ p ∈ S, p ≠ (0, 0)) : ContinuousOn ang S := by
  intro p hp
  by_cases h : 0 < p.2 ∨ p.1 ≠ 0
  · exact (ang_continuousAt h).continuousWithinAt
  · push Not at h
    have h3 : p.2 < 0 := lt_of_le_of_ne h.1 fun e => h2 p hp (Prod.ext h.2 e)
    refine ContinuousWithinAt.comp (g := Complex.arg) (f := fun p : ℝ × ℝ => (⟨p.2, p.1⟩ : ℂ))
      (t := {z : ℂ | 0 ≤ z.im}) (Complex.continuousWithinAt_arg_of_re_neg_of_im_zero h3 h.2)
      cont_mkC.continuousWithinAt fun q hq => h1 q hq

/-- `atan2(y, x)`: undefined at the origin, discontinuous across the negative half axis. -/
theorem C20_atan2 (hy : y.Ok φ) (hx : x.Ok φ) (hm : y.dec ≠ .ill) (hn : x.dec ≠ .ill) :
    (φ.atan2D y x).itv = φ.atan2I y.itv x.itv ∧
    DecRight (fun p : ℝ × ℝ => Complex.arg ⟨p.2, p.1⟩) {p | p ≠ (0, 0)} (y.set ×ˢ x.set) (y.dec.min x.dec)
      (φ.atan2D y x) := by
  have hT := C12_atan2 hy.1 hx.1
  have hTe := tight_empty_iff hT
  refine dec_bin hy hx hm hn ?_
  set b := φ.atan2I y.itv x.itv with hb
  show LocalOk ang _ _ _ _
  have htrv : ¬ ((y.set ×ˢ x.set).Nonempty ∧ y.set ×ˢ x.set ⊆ {p | p ≠ (0, 0)}) →
      LocalOk ang {p | p ≠ (0, 0)} (y.set ×ˢ x.set) b.set .trv := by
    refine fun h => ⟨trivial, fun d hd => ?_⟩
    cases d
    · decide
    · decide
    · exact absurd hd h
    · exact absurd ⟨hd.1, hd.2.1⟩ h
    · exact absurd ⟨hd.1, hd.2.1⟩ h
  rcases hy.1.cases with ey | hNy
  · have : b.isEmpty = true := by rw [hTe, ey]; simp [angles, range2]
    rw [this, Bool.or_true, if_pos rfl]
    refine htrv fun h => ?_
    obtain ⟨p, hp, -⟩ := h.1
    rw [show y.set = ∅ by show y.itv.set = ∅; rw [ey]; simp] at hp
    exact hp
  rcases hx.1.cases with ex | hNx
  · have : b.isEmpty = true := by rw [hTe, ex]; simp [angles, range2]
    rw [this, Bool.or_true, if_pos rfl]
    refine htrv fun h => ?_
    obtain ⟨p, -, hp⟩ := h.1
    rw [show x.set = ∅ by show x.itv.set = ∅; rw [ex]; simp] at hp
    exact hp
  have m1 : y.isMember (.fin 0) = true ↔ (0:ℝ) ∈ y.itv.set := by
    have := hy.isMember hm 0; simpa using this
  have m2 : x.isMember (.fin 0) = true ↔ (0:ℝ) ∈ x.itv.set := by
    have := hx.isMember hn 0; simpa using this
  by_cases g0 : (0:ℝ) ∈ y.itv.set ∧ (0:ℝ) ∈ x.itv.set
  · rw [m1.mpr g0.1, m2.mpr g0.2]
    simp only [Bool.and_self, Bool.true_or, if_true]
    refine htrv fun h => ?_
    exact h.2 (show ((0:ℝ), (0:ℝ)) ∈ y.set ×ˢ x.set from g0) rfl
  have hsub : ∀ p ∈ y.set ×ˢ x.set, p ≠ (0, 0) := by
    rintro ⟨c, a⟩ ⟨hc, ha⟩ e
    rw [Prod.ext_iff] at e
    obtain ⟨e1, e2⟩ := e
    simp only at e1 e2
    exact g0 ⟨e1 ▸ hc, e2 ▸ ha⟩
  have hne : (y.set ×ˢ x.set).Nonempty := hNy.nonempty.prod hNx.nonempty
  have hS : (angles y.itv.set x.itv.set).Nonempty := by
    obtain ⟨⟨c, a⟩, hp⟩ := hne
    exact ⟨_, c, hp.1, a, hp.2, hsub _ hp, rfl⟩
  have hcommon : b.isCommon = true := by
    refine Tightest.common hT hS ?_
    rintro _ ⟨c, -, a, -, -, rfl⟩
    have := Complex.neg_pi_lt_arg ⟨a, c⟩
    have := Complex.arg_le_pi ⟨a, c⟩
    have := Real.pi_lt_four
    constructor <;> linarith
  have hemp : b.isEmpty = false := by
    rw [Bool.eq_false_iff, Ne, hTe]; exact hS.ne_empty
  have hB : b.NE φ := by
    rcases hT.1.cases with h | h
    · rw [h] at hemp; exact absurd hemp (by decide)
    · exact h
  have e0 : (y.isMember (.fin 0) && x.isMember (.fin 0)) = false := by
    rw [Bool.eq_false_iff, Ne, Bool.and_eq_true, m1, m2]; exact g0
  rw [e0, hemp, hcommon]
  simp only [Bool.or_self, Bool.false_eq_true, if_false, Bool.not_true, Bool.or_false, Bool.and_eq_true]
  show LocalOk ang _ _ _ (if (y.itv.lo < .fin 0 ∧ .fin 0 ≤ y.itv.hi) ∧ x.itv.lo < .fin 0 then _ else
    if y.itv.lo.feq (.fin 0) = true ∧ x.itv.lo < .fin 0 then _ else _)
  simp only [NE.lt0_iff hNy.lo_ne, NE.ge0_iff hNy.hi_ne, NE.lt0_iff hNx.lo_ne, NE.eq0_iff hNy.lo_ne]
  by_cases g1 : (y.itv.lo.toE < 0 ∧ 0 ≤ y.itv.hi.toE) ∧ x.itv.lo.toE < 0
  · rw [if_pos g1]
    obtain ⟨a, ha, ha0⟩ := hNx.ex_gt (r := 0) |>.mpr (by simpa using g1.2)
    obtain ⟨c, hc, hc0⟩ := hNy.ex_gt (r := 0) |>.mpr (by simpa using g1.1.1)
    have hc' := hNy.mem.mp hc
    have hin : ∀ s, c ≤ s → s ≤ 0 → (s, a) ∈ y.set ×ˢ x.set := by
      intro s h1 h2
      refine ⟨hNy.mem.mpr ⟨hc'.1.trans (by exact_mod_cast h1), le_trans ?_ g1.1.2⟩, ha⟩
      exact_mod_cast h2
    have hj := fun h => ang_jump (S := y.set ×ˢ x.set) ha0 hc0 (fun s h1 h2 => hin s h1 h2.le) h
    refine ⟨⟨hne, hsub⟩, fun d hd => ?_⟩
    cases d
    · decide
    · decide
    · decide
    · exact (hj (hd.2.2 _ (hin 0 hc0.le le_rfl))).elim
    · exact (hj ((hd.2.2.1 _ (hin 0 hc0.le le_rfl)).mono hd.2.1)).elim
  rw [if_neg g1]
  by_cases g2 : y.itv.lo.toE = 0 ∧ x.itv.lo.toE < 0
  · rw [if_pos g2]
    refine ⟨⟨hne, hsub, ang_cont_upper (fun p hp => ?_) hsub⟩, fun d hd => ?_⟩
    · have := (hNy.mem.mp hp.1).1
      rw [g2.1] at this; exact_mod_cast this
    · cases d
      · decide
      · decide
      · decide
      · decide
      · obtain ⟨a, ha, ha0⟩ := hNx.ex_gt (r := 0) |>.mpr (by simpa using g2.2)
        refine (ang_jump (S := {p | p ≠ (0, 0)}) ha0 (c := -1) (by norm_num) (fun s _ h2 e => ?_)
          (hd.2.2.1 (0, a) ⟨hNy.zero_lo g2.1, ha⟩)).elim
        rw [Prod.ext_iff] at e
        exact h2.ne e.1
  · rw [if_neg g2]
    refine ⟨⟨hne, hsub, fun p hp => (ang_continuousAt ?_).continuousWithinAt, hB.isCommon_iff.mp hcommon⟩,
      fun d _ => Dec.le_com d⟩
    by_contra h
    push Not at h
    have h1 := hNy.mem.mp hp.1
    have h2 := hNx.mem.mp hp.2
    rw [h.2] at h1
    have h3 : p.2 < 0 := lt_of_le_of_ne h.1 fun e => hsub p hp (Prod.ext h.2 e)
    have h4 : x.itv.lo.toE < 0 := lt_of_le_of_lt h2.1 (by exact_mod_cast h3)
    rcases (show y.itv.lo.toE ≤ 0 by simpa using h1.1).lt_or_eq with h5 | h5
    · exact g1 ⟨⟨h5, by simpa using h1.2⟩, h4⟩
    · exact g2 ⟨h5, h4⟩

/-! ## tan -/

theorem tanD_eq (hx : x.Ok φ) (hn : x.dec ≠ .ill) :
    (φ.tanD x).itv = φ.tanI x.itv ∧
    (φ.tanD x).dec = if x.itv.isEmpty || (φ.constPi .D).ltb (φ.sub .U x.itv.hi x.itv.lo)
        || (φ.tanF .U x.itv.hi).ltb (φ.tanF .D x.itv.lo) then .trv
      else x.dec.min (Itv.comDac (φ.tanI x.itv)) := by
  unfold Fmt.tanD Fmt.tanI DItv.pred
  rw [hx.isValid, hx.isNai_false hn, hx.1.isValid]
  rcases h1 : x.itv.isEmpty with _ | _
  · simp only [Bool.not_true, Bool.or_self, Bool.false_eq_true, if_false, Bool.false_or]
    rcases h2 : (φ.constPi .D).ltb (φ.sub .U x.itv.hi x.itv.lo) with _ | _
    · have h2' : ¬ φ.constPi .D < φ.sub .U x.itv.hi x.itv.lo := by rw [FP.lt_def, h2]; simp
      rw [if_neg h2', if_neg h2']
      rcases h3 : (φ.tanF .U x.itv.hi).ltb (φ.tanF .D x.itv.lo) with _ | _
      · have h3' : ¬ φ.tanF .U x.itv.hi < φ.tanF .D x.itv.lo := by rw [FP.lt_def, h3]; simp
        rw [if_neg h3', if_neg h3']; simp
      · have h3' : φ.tanF .U x.itv.hi < φ.tanF .D x.itv.lo := by rw [FP.lt_def, h3]
        rw [if_pos h3', if_pos h3']; simp
    · have h2' : φ.constPi .D < φ.sub .U x.itv.hi x.itv.lo := by rw [FP.lt_def, h2]
      rw [if_pos h2', if_pos h2']; simp
  · simp [DItv.empty]

theorem tan_branch (hx : x.itv.NE φ) {a b : ℝ} (ha : x.itv.lo.toE = (a:EReal)) (hb : x.itv.hi.toE = (b:EReal)) :
    ((φ.constPi .D).ltb (φ.sub .U x.itv.hi x.itv.lo) = true ↔ φ.rdE (Real.pi:ℝ) < ((b - a : ℝ):EReal)) ∧
    ((φ.tanF .U x.itv.hi).ltb (φ.tanF .D x.itv.lo) = true ↔ φ.ruE (Real.tan b) < φ.rdE (Real.tan a)) := by
  have hw := φ.sub_spec (m := .U) hx.hi_ne hx.lo_ne (fun h => hx.hi_bot h.1) (fun h => hx.lo_top h.2)
  have gn : φ.constPi .D ≠ .nan := φ.round_ne_nan _ _
  have gp : (φ.constPi .D).toE = φ.rdE (Real.pi:ℝ) := (φ.rdE_coe _).symm
  obtain ⟨l1, l1n, l1i⟩ := un_spec φ .D (by simp) Real.tan .nan .nan ha hx.lo_ne
  obtain ⟨u1, u1n, u1i⟩ := un_spec φ .U (by simp) Real.tan .nan .nan hb hx.hi_ne
  constructor
  · rw [ltb_iff gn hw.1, hw.2, Fmt.rndE_U, ← not_le, φ.ruE_le_iff (f := φ.constPi .D) (φ.round_in .D Real.pi) _ gn, gp,
      ha, hb, not_le]
    exact_mod_cast Iff.rfl
  · unfold Fmt.tanF
    rw [ltb_iff u1n l1n, u1, l1]; rfl

theorem tan_branch_inf (hx : x.itv.NE φ) (h : x.itv.lo = .ninf ∨ x.itv.hi = .pinf) :
    (φ.constPi .D).ltb (φ.sub .U x.itv.hi x.itv.lo) = true := by
  have hw := φ.sub_spec (m := .U) hx.hi_ne hx.lo_ne (fun h => hx.hi_bot h.1) (fun h => hx.lo_top h.2)
  have hwt : x.itv.hi.toE - x.itv.lo.toE = ⊤ := by
    rcases h with h | h
    · rw [h, FP.toE_ninf, EReal.sub_bot hx.hi_bot]
    · rw [h, FP.toE_pinf]; exact EReal.top_sub hx.lo_top
  have gn : φ.constPi .D ≠ .nan := φ.round_ne_nan _ _
  rw [ltb_iff gn hw.1, hw.2, hwt]
  obtain ⟨ϖ, h, -⟩ := pi_gap φ
  rw [h]; simp

theorem trv_means {f : ℝ → ℝ} {dom X : Set ℝ} {R : Set ℝ} {d : Dec} (h : d = .trv) : DecMeans f dom X R d := by
  rw [h]; trivial

/-- `tan` (full statement: `DecRight` for every operand, as for the other functions; false for `double`, see
`C20_tan_binary64_false`, and not strongest in the formats where an interval between `RD(π)` and `π` wide avoids the
poles).  Outside the bad intervals of C11 the decoration's claim is true. -/
theorem C20_tan_partial (hx : x.Ok φ) (hn : x.dec ≠ .ill) (hc : ¬ TanBad φ x.itv) :
    (φ.tanD x).itv = φ.tanI x.itv ∧ (φ.tanD x).dec ≠ .ill ∧ (φ.tanD x).dec ≤ x.dec ∧
    DecMeans Real.tan {t | Real.cos t ≠ 0} x.set (φ.tanD x).set (φ.tanD x).dec := by
  obtain ⟨e1, e2⟩ := tanD_eq hx hn
  refine ⟨e1, ?_⟩
  have htrv : (φ.tanD x).dec = .trv → (φ.tanD x).dec ≠ .ill ∧ (φ.tanD x).dec ≤ x.dec ∧
      DecMeans Real.tan {t | Real.cos t ≠ 0} x.set (φ.tanD x).set (φ.tanD x).dec := by
    intro h
    refine ⟨by rw [h]; decide, ?_, trv_means h⟩
    rw [h]; revert hn; cases x.dec <;> decide
  rcases hx.1.cases with e | hN
  · refine htrv ?_
    rw [e2, e]; simp
  by_cases hinf : x.itv.lo = .ninf ∨ x.itv.hi = .pinf
  · refine htrv ?_
    rw [e2, tan_branch_inf hN hinf]; simp
  obtain ⟨a, b, ha, hb⟩ := fin_bounds hN hinf
  obtain ⟨b1, b2⟩ := tan_branch hN ha hb
  rcases hw : (φ.constPi .D).ltb (φ.sub .U x.itv.hi x.itv.lo) with _ | _
  swap
  · exact htrv (by rw [e2, hw]; simp)
  rcases hl : (φ.tanF .U x.itv.hi).ltb (φ.tanF .D x.itv.lo) with _ | _
  swap
  · exact htrv (by rw [e2, hl]; simp)
  have hw' : ¬ φ.rdE (Real.pi:ℝ) < ((b - a : ℝ):EReal) := by rw [← b1, hw]; simp
  have hl' : ¬ φ.ruE (Real.tan b) < φ.rdE (Real.tan a) := by rw [← b2, hl]; simp
  have hp : ¬ x.itv.HasPole := fun hp => hc ⟨hp, a, b, ha, hb, not_lt.mp hw', not_lt.mp hl'⟩
  rw [hw, hl, hN.isEmpty] at e2
  simp only [Bool.or_self, Bool.false_eq_true, if_false] at e2
  have hT := tight_no_pole hN ha hb (not_lt.mp hw') hp
  have hS : tanRange x.itv = Real.tan '' (x.itv.set ∩ {t | Real.cos t ≠ 0}) := by
    ext z; constructor
    · rintro ⟨t, ht, h0, rfl⟩; exact ⟨t, ⟨ht, h0⟩, rfl⟩
    · rintro ⟨t, ⟨ht, h0⟩, rfl⟩; exact ⟨t, ht, h0, rfl⟩
  have hL := localOk_std (f := Real.tan) (dom := {t | Real.cos t ≠ 0}) (X := x.itv.set) (bad := false) (hT.of_eq hS)
    (fun _ => by
      simp only [Bool.false_eq_true, false_iff, not_not]
      exact fun t ht h0 => hp ⟨t, ht, h0⟩)
    (fun t ht => (Real.continuousAt_tan.mpr ht).continuousWithinAt)
  have hne : (φ.tanI x.itv).isEmpty = false := by
    rw [Bool.eq_false_iff, Ne, tight_empty_iff hT, ← Ne, ← Set.nonempty_iff_ne_empty, hS]
    obtain ⟨t, ht⟩ := hN.nonempty
    exact ⟨_, t, ⟨ht, fun h0 => hp ⟨t, ht, h0⟩⟩, rfl⟩
  rw [hne] at hL
  simp only [Bool.or_self, Bool.false_eq_true, if_false] at hL
  have hR := hL.right hn hx.com_bounded
  have hE : φ.tanD x = ⟨φ.tanI x.itv, x.dec.min (φ.tanI x.itv).comDac⟩ := by
    rw [← e2, ← e1]
  rw [hE]
  exact ⟨hR.not_ill, hR.le, hR.true_claim⟩

/-- `tan` for `float`: the claim of the decoration is always true. -/
theorem C20_tan_binary32 (hx : x.Ok binary32) (hn : x.dec ≠ .ill) :
    (binary32.tanD x).itv = binary32.tanI x.itv ∧ (binary32.tanD x).dec ≠ .ill ∧ (binary32.tanD x).dec ≤ x.dec ∧
    DecMeans Real.tan {t | Real.cos t ≠ 0} x.set (binary32.tanD x).set (binary32.tanD x).dec := by
  have := Real.pi_gt_d20
  have := Real.pi_lt_d20
  refine C20_tan_partial hx hn (fun h => no_critical (k := 13176794) ?_ ?_ ?_ (h.critical hx.1)) <;>
    simp only [binary32] <;> norm_num at * <;> linarith

/-- `tan` for x87 `long double`: the claim of the decoration is always true. -/
theorem C20_tan_x87ext (hx : x.Ok x87ext) (hn : x.dec ≠ .ill) :
    (x87ext.tanD x).itv = x87ext.tanI x.itv ∧ (x87ext.tanD x).dec ≠ .ill ∧ (x87ext.tanD x).dec ≤ x.dec ∧
    DecMeans Real.tan {t | Real.cos t ≠ 0} x.set (x87ext.tanD x).set (x87ext.tanD x).dec := by
  have := Real.pi_gt_d20
  have := Real.pi_lt_d20
  refine C20_tan_partial hx hn (fun h => no_critical (k := 14488038916154245684) ?_ ?_ ?_ (h.critical hx.1)) <;>
    simp only [x87ext] <;> norm_num at * <;> linarith

/-- **C20 is false for `tan` on `double`**: an interval decorated `com` that contains a pole gives a result whose
decoration claims that the tangent is defined on all of it. -/
theorem C20_tan_binary64_false : ∃ x : DItv, x.Ok binary64 ∧ x.dec = .com ∧ x.itv.HasPole ∧
    .dac ≤ (binary64.tanD x).dec ∧
    ¬ DecMeans Real.tan {t | Real.cos t ≠ 0} x.set (binary64.tanD x).set (binary64.tanD x).dec := by
  obtain ⟨b, hN, ha, hb, hbv, ht1, hw, hr⟩ := tan_witness_branch
  have hx : (DItv.mk tanWitness .com).Ok binary64 :=
    ⟨tanWitness_ok, by simp [tanWitness], by simp, by simp [tanWitness]⟩
  obtain ⟨e1, e2⟩ := tanD_eq hx (by simp)
  obtain ⟨b1, b2⟩ := tan_branch (x := DItv.mk tanWitness .com) hN ha hb
  have c1 := Bool.eq_false_iff.mpr (fun h => absurd (b1.mp h) (not_lt.mpr hw))
  have c2 := Bool.eq_false_iff.mpr (fun h => absurd (b2.mp h) (not_lt.mpr hr))
  rw [c1, c2, show (DItv.mk tanWitness .com).itv.isEmpty = false from hN.isEmpty] at e2
  simp only [Bool.or_self, Bool.false_eq_true, if_false] at e2
  have hd : Dec.dac ≤ (binary64.tanD (DItv.mk tanWitness .com)).dec := by
    rw [e2]; unfold Itv.comDac; split_ifs <;> decide
  refine ⟨DItv.mk tanWitness .com, hx, rfl, tanWitness_pole, hd, fun h => ?_⟩
  obtain ⟨t, ht, h0⟩ := tanWitness_pole
  have hsub : (DItv.mk tanWitness .com).set ⊆ {t | Real.cos t ≠ 0} := by
    revert h hd
    generalize (binary64.tanD (DItv.mk tanWitness .com)).dec = d
    intro hd h
    cases d
    · exact absurd hd (by decide)
    · exact absurd hd (by decide)
    · exact absurd hd (by decide)
    · exact h.2.1
    · exact h.2.1
  exact hsub ht h0

/-- Non-vacuity: a step over an integer, a touching point, and a rectangle touching the cut from above. -/
example : (DItv.mk ⟨.fin (1/2), .fin (3/2)⟩ .com).Ok binary64 ∧ (DItv.mk ⟨.fin 0, .fin 1⟩ .com).Ok binary64 ∧
    (DItv.mk ⟨.fin (-2), .fin (-1)⟩ .dac).Ok binary64 := by
  refine ⟨⟨Itv.ok_of_okb (by decide +kernel), ?_⟩, ⟨Itv.ok_of_okb (by decide +kernel), ?_⟩,
    ⟨Itv.ok_of_okb (by decide +kernel), ?_⟩⟩ <;> simp

end P1788
