import Verif.Model.Ode
import Verif.Props.C62b
import Mathlib.Analysis.ODE.Gronwall
import Mathlib.Analysis.ODE.ExistUnique
import Mathlib.Topology.Algebra.MetricSpace.Lipschitz

/-!
# C71: differential equations

A program that evaluates the right-hand side of a system of differential equations on boxes and checks inclusions encloses every
solution.
-/

namespace P1788
open Set
variable {φ : Fmt} {ι : Type} [Fintype ι] {f : ι → Expr ι} {X : ι → DItv} {X0 : ι → Itv} {h : FP}

/-- `u` solves `u' = f(u)` on `[a, b]`: it is continuous, and at each time at which a component of the right-hand side is defined it is
the derivative of that component (at `a` and `b` the one-sided one). -/
def IsOdeSol (f : ι → Expr ι) (u : ℝ → ι → ℝ) (a b : ℝ) : Prop :=
  ∀ i, ContinuousOn (fun t => u t i) (Icc a b) ∧
    ∀ t ∈ Icc a b, u t ∈ (f i).dom → HasDerivWithinAt (fun s => u s i) ((f i).val (u t)) (Icc a b) t

/-- The total time of the steps. -/
noncomputable def odeTime : List ((ι → DItv) × FP) → ℝ
  | [] => 0
  | (_, h) :: l => (h.q : ℝ) + odeTime l

/-- What the program promises if its checks succeed: no step size is negative, and every solution that starts in `X0` is, during each
step, in the box of the step and where the right-hand side is defined, and it arrives in the result. -/
def EnclosesOde (f : ι → Expr ι) (X0 : ι → Itv) (l : List ((ι → DItv) × FP)) (R : ι → Itv) : Prop :=
  (∀ p ∈ l, 0 ≤ (p.2.q : ℝ)) ∧ ∀ a u, IsOdeSol f u a (a + odeTime l) → (∀ i, u a i ∈ (X0 i).set) →
    (∀ l1 X h l2, l = l1 ++ (X, h) :: l2 → ∀ t ∈ Icc (a + odeTime l1) (a + odeTime l1 + (h.q : ℝ)), ∀ i,
      u t i ∈ (X i).set ∧ u t ∈ (f i).dom) ∧
    ∀ i, u (a + odeTime l) i ∈ (R i).set

/-- The full statement. -/
def C71_full (φ : Fmt) : Prop :=
  ∀ (ι : Type) [Fintype ι] (f : ι → Expr ι) (l : List ((ι → DItv) × FP)) (X0 R : ι → Itv) (s : ExSt),
    (∀ p ∈ l, (∀ i, (p.1 i).Ok φ) ∧ p.2.In φ) → (∀ i, (X0 i).Ok φ) → (odeRun φ f l X0 s).1 = .ret (R, true) →
    (∀ i, (R i).Ok φ) ∧ EnclosesOde f X0 l R

theorem nums_ret71 {a b : FP} {s s1 : ExSt} {p : Itv} (h : numsToInterval a b s = (.ret p, s1)) :
    (ValidBounds a b ∧ p = ⟨a, b⟩) ∨ p = Itv.empty := by
  unfold numsToInterval at h
  by_cases hv : ValidBounds a b
  · rw [if_pos (boundsOk_iff.mpr hv)] at h
    left
    exact ⟨hv, (pure_ret62 (congrArg Prod.fst h)).symm⟩
  · rw [if_neg (fun h' => hv (boundsOk_iff.mp h'))] at h
    obtain ⟨x, s2, -, h2⟩ := bind_ret62 (congrArg Prod.fst h)
    right
    exact (pure_ret62 h2).symm

/-- The interval of the times of a step. -/
theorem time71 (hi : h.In φ) {s s1 : ExSt} {H : Itv} (h1 : numsToInterval (.fin 0) h s = (.ret H, s1))
    (hc : H.isCommon = true) : H.Ok φ ∧ 0 ≤ (h.q : ℝ) ∧ H.set = Icc 0 (h.q : ℝ) ∧ h.HasValue (h.q : ℝ) := by
  rcases nums_ret71 h1 with ⟨hv, rfl⟩ | rfl
  · have hN := hv.NE (φ := φ) φ.rep_zero hi
    obtain ⟨c1, c2⟩ := (NE.common_iff hN).mp hc
    obtain ⟨v, hv, hv'⟩ := value62 hN.hi_ne hN.hi_bot c2
    have hq : v = (h.q : ℝ) := by
      rcases hv with ⟨h, rfl⟩ | ⟨q, h, rfl⟩
      · simp only at h; rw [h]; simp [FP.q]
      · simp only at h; rw [h]; simp [FP.q]
    subst hq
    have hle := hN.le
    rw [hv', FP.toE_fin] at hle
    refine ⟨hN.ok, by exact_mod_cast hle, ?_, hv⟩
    ext r
    rw [hN.mem, hv', FP.toE_fin]
    simp only [Rat.cast_zero, EReal.coe_le_coe_iff, mem_Icc]
  · exact absurd hc (by decide)

/-- The same with the derivative required only in the box. -/
def SolIn (f : ι → Expr ι) (X : ι → DItv) (u : ℝ → ι → ℝ) (a b : ℝ) : Prop :=
  ∀ i, ContinuousOn (fun t => u t i) (Icc a b) ∧
    ∀ t ∈ Icc a b, (∀ j, u t j ∈ (X j).set) → HasDerivWithinAt (fun s => u s i) ((f i).val (u t)) (Icc a b) t

/-- One step. -/
theorem step71 (ht : ∀ i, (f i).TanSafe φ fun j => (X j).itv) (hX : ∀ i, (X i).Ok φ) (hi : h.In φ) (h0 : ∀ i, (X0 i).Ok φ)
    {s : ExSt} {R : ι → Itv} (hr : (odeStep φ f X h X0 s).1 = .ret (R, true)) :
    0 ≤ (h.q : ℝ) ∧ (∀ i, (R i).Ok φ) ∧ (∀ w, (∀ i, w i ∈ (X i).set) → ∀ i, w ∈ (f i).dom) ∧
      ∀ a u, SolIn f X u a (a + (h.q : ℝ)) → (∀ i, u a i ∈ (X0 i).set) →
      (∀ t ∈ Icc a (a + (h.q : ℝ)), ∀ i, u t i ∈ (X i).set ∧ u t ∈ (f i).dom) ∧ ∀ i, u (a + (h.q : ℝ)) i ∈ (R i).set := by
  unfold odeStep at hr
  obtain ⟨H, s1, h1, hr⟩ := bind_ret62 hr
  obtain ⟨hh, s2, h2, hr⟩ := bind_ret62 hr
  have h5 := pure_ret62 hr
  simp only [Prod.mk.injEq, Bool.and_eq_true, decide_eq_true_eq] at h5
  obtain ⟨rfl, hk, hch⟩ := h5
  obtain ⟨hH, hq, hHs, hv⟩ := time71 hi h1 hk
  rw [nums_point62 hv] at h2
  obtain rfl : Itv.mk h h = hh := by simpa using congrArg Prod.fst h2
  obtain ⟨p1, p2⟩ := point62 hi hv
  generalize (h.q : ℝ) = d at *
  have hF := fun i => C19_ftdia_safe_partial (f i) X hX (ht i)
  have hdom : ∀ (w : ι → ℝ), (∀ i, w i ∈ (X i).set) → ∀ i, w ∈ (f i).dom ∧ (f i).val w ∈ ((f i).evalD φ X).itv.set := by
    intro w hw i
    obtain ⟨-, -, k1, k2, -, -⟩ := hF i
    have hd := (k2 (hch i).1).2 w hw
    refine ⟨hd, k1 w ?_ hw hd⟩
    intro e
    have := (hch i).1
    rw [e] at this
    exact absurd this (by decide)
  have hm := fun i => C02_mul φ hH (hF i).1.1
  have hA := fun i => C01_add φ (h0 i) (hm i).1
  have hm' := fun i => C02_mul φ p1 (hF i).1.1
  have hA' := fun i => C01_add φ (h0 i) (hm' i).1
  refine ⟨hq, fun i => (hA' i).1, fun w hw i => (hdom w hw i).1, fun a u hu hua => ?_⟩
  have hne : ∀ i, ∃ σ, σ ∈ ((f i).evalD φ X).itv.set :=
    fun i => (hF i).1.nonempty_of (hch i).1
  -- a solution that has stayed in the box up to a time has moved by a multiple of a slope
  have slope : ∀ t ∈ Icc a (a + d), (∀ s, a ≤ s → s < t → ∀ i, u s i ∈ (X i).set) → ∀ i,
      ∃ σ ∈ ((f i).evalD φ X).itv.set, u t i = u a i + (t - a) * σ := by
    intro t ht hs i
    rcases ht.1.eq_or_lt with rfl | hlt
    · obtain ⟨σ, hσ⟩ := hne i
      exact ⟨σ, hσ, by ring⟩
    · obtain ⟨c, hc, e⟩ := exists_hasDerivAt_eq_slope (fun s => u s i) (fun s => (f i).val (u s)) hlt
        ((hu i).1.mono (Icc_subset_Icc le_rfl ht.2)) (fun x hx =>
          ((hu i).2 x ⟨hx.1.le, hx.2.le.trans ht.2⟩ (hs x hx.1.le hx.2)).hasDerivAt
            (Icc_mem_nhds hx.1 (hx.2.trans_le ht.2)))
      refine ⟨_, (hdom _ (hs c hc.1.le hc.2) i).2, ?_⟩
      rw [e]
      have : t - a ≠ 0 := by linarith
      field_simp
      ring
  have tube : ∀ t ∈ Icc a (a + d), (∀ s, a ≤ s → s < t → ∀ i, u s i ∈ (X i).set) → ∀ i,
      (∃ b ∈ (X i).set, b < u t i) ∧ ∃ b ∈ (X i).set, u t i < b := by
    intro t ht hs i
    obtain ⟨σ, hσ, e⟩ := slope t ht hs i
    refine (C22_interior (hA i).1 (hX i).1).mp (hch i).2 _ ((hA i).2.1 ⟨_, hua i, _, (hm i).2.1 ⟨t - a, ?_, σ, hσ, rfl⟩, e⟩)
    rw [hHs]
    constructor <;> linarith [ht.1, ht.2]
  have all : ∀ t ∈ Icc a (a + d), ∀ i, u t i ∈ (X i).set := by
    by_contra hcon
    push Not at hcon
    have hB : (Set.Nonempty {t | t ∈ Icc a (a + d) ∧ ∃ i, u t i ∉ (X i).set}) := by
      obtain ⟨t, k1, k2⟩ := hcon
      exact ⟨t, k1, k2⟩
    have hbd : BddBelow {t | t ∈ Icc a (a + d) ∧ ∃ i, u t i ∉ (X i).set} := ⟨a, fun t ht => ht.1.1⟩
    generalize hS : {t | t ∈ Icc a (a + d) ∧ ∃ i, u t i ∉ (X i).set} = S at hB hbd
    have hm1 : sInf S ∈ Icc a (a + d) := by
      obtain ⟨t, ht⟩ := hB
      have ht' := ht
      rw [← hS] at ht'
      refine ⟨le_csInf ⟨t, ht⟩ fun r hr => ?_, (csInf_le hbd ht).trans ht'.1.2⟩
      rw [← hS] at hr
      exact hr.1.1
    have hbef : ∀ s, a ≤ s → s < sInf S → ∀ i, u s i ∈ (X i).set := by
      intro s h1 h2 i
      by_contra hn
      refine absurd (csInf_le hbd (a := s) ?_) (not_le.mpr h2)
      rw [← hS]
      exact ⟨⟨h1, h2.le.trans hm1.2⟩, i, hn⟩
    have hev : ∀ᶠ t in nhdsWithin (sInf S) (Icc a (a + d)), ∀ i, u t i ∈ (X i).set := by
      rw [Filter.eventually_all]
      intro i
      obtain ⟨⟨b, hb, hb'⟩, c, hc, hc'⟩ := tube _ hm1 hbef i
      have := (hu i).1 _ hm1
      filter_upwards [this (Ioo_mem_nhds hb' hc')] with t ht
      exact (set_ordConnected (X i).itv).out hb hc ⟨ht.1.le, ht.2.le⟩
    obtain ⟨ε, hε, hball⟩ := Metric.mem_nhdsWithin_iff.mp hev
    obtain ⟨t, ht, hlt⟩ := exists_lt_of_csInf_lt hB (show sInf S < sInf S + ε by linarith)
    have hge := csInf_le hbd ht
    rw [← hS] at ht
    obtain ⟨k1, i, k2⟩ := ht
    refine k2 (hball ⟨?_, k1⟩ i)
    rw [Metric.mem_ball, Real.dist_eq, abs_lt]
    constructor <;> linarith
  refine ⟨fun t ht i => ⟨all t ht i, (hdom _ (all t ht) i).1⟩, fun i => ?_⟩
  have hend : a + d ∈ Icc a (a + d) := ⟨by linarith, le_rfl⟩
  obtain ⟨σ, hσ, e⟩ := slope _ hend (fun s h1 h2 => all s ⟨h1, h2.le⟩) i
  refine (hA' i).2.1 ⟨_, hua i, _, (hm' i).2.1 ⟨d, ?_, σ, hσ, rfl⟩, ?_⟩
  · rw [p2]
    exact rfl
  · rw [e]
    ring

/-! ### Existence -/

theorem pi71 {K : NNReal} {s : Set (ι → ℝ)} {F : (ι → ℝ) → ι → ℝ} (h : ∀ i, LipschitzOnWith K (fun w => F w i) s) :
    LipschitzOnWith K F s := by
  intro x hx y hy
  rw [edist_pi_le_iff]
  intro i
  exact h i hx hy

theorem global71 {G : (ι → ℝ) → ι → ℝ} {K M : NNReal} (hG : LipschitzWith K G) (hM : ∀ w, ‖G w‖ ≤ M) (v : ι → ℝ) {a d : ℝ}
    (hd : 0 ≤ d) : ∃ u : ℝ → ι → ℝ, u a = v ∧ ∀ t ∈ Icc a (a + d), HasDerivWithinAt u (G (u t)) (Icc a (a + d)) t := by
  have hp : IsPicardLindelof (fun _ => G) (⟨a, le_rfl, by linarith⟩ : Icc a (a + d)) v (M * d.toNNReal) 0 M K := by
    refine ⟨fun _ _ => hG.lipschitzOnWith, fun _ _ => continuousOn_const, fun _ _ w _ => hM w, ?_⟩
    have : max (a + d - a) (a - a) = d := by rw [max_eq_left] <;> linarith
    simp only [this]
    simp only [NNReal.coe_mul, Real.coe_toNNReal d hd, NNReal.coe_zero, sub_zero, le_refl]
  exact hp.exists_eq_forall_mem_Icc_hasDerivWithinAt₀

/-- A Lipschitz right-hand side on a bounded set can be continued to the whole space, bounded and Lipschitz. -/
theorem extend71 {K : NNReal} {s : Set (ι → ℝ)} {F : (ι → ℝ) → ι → ℝ} (hb : Bornology.IsBounded s)
    (h : ∀ i, LipschitzOnWith K (fun w => F w i) s) :
    ∃ (G : (ι → ℝ) → ι → ℝ) (M : NNReal), LipschitzWith K G ∧ (∀ w, ‖G w‖ ≤ M) ∧ ∀ w ∈ s, G w = F w := by
  rcases s.eq_empty_or_nonempty with rfl | ⟨v, hv⟩
  · exact ⟨fun _ => 0, 0, LipschitzWith.const' _, by simp, by simp⟩
  obtain ⟨D, hD⟩ := hb.subset_closedBall v
  obtain ⟨g, hg, he⟩ := (pi71 h).extend_pi
  have hbd : ∀ w ∈ s, ∀ i, |F w i| ≤ ‖F v‖ + K * |D| := by
    intro w hw i
    have h1 : dist w v ≤ |D| := (Metric.mem_closedBall.mp (hD hw)).trans (le_abs_self D)
    have h2 := (h i).dist_le_mul w hw v hv
    rw [Real.dist_eq] at h2
    have h3 := norm_le_pi_norm (F v) i
    rw [Real.norm_eq_abs] at h3
    have h4 : (K : ℝ) * dist w v ≤ K * |D| := mul_le_mul_of_nonneg_left h1 K.2
    have h5 := abs_sub_abs_le_abs_sub (F w i) (F v i)
    linarith
  have h0 : 0 ≤ ‖F v‖ + K * |D| := by positivity
  generalize ‖F v‖ + K * |D| = M at hbd h0
  refine ⟨fun w i => max (-M) (min M (g w i)), M.toNNReal, ?_, fun w => ?_, fun w hw => ?_⟩
  · rw [← lipschitzOnWith_univ]
    refine pi71 fun i => ?_
    rw [lipschitzOnWith_univ]
    refine LipschitzWith.const_max (LipschitzWith.const_min ?_ _) _
    exact LipschitzWith.of_dist_le_mul fun x y => (dist_le_pi_dist _ _ i).trans (hg.dist_le_mul x y)
  · rw [Real.coe_toNNReal M h0, pi_norm_le_iff_of_nonneg h0]
    intro i
    rw [Real.norm_eq_abs, abs_le]
    exact ⟨le_max_left _ _, max_le (by linarith) (min_le_left _ _)⟩
  · funext i
    have := hbd w hw i
    rw [abs_le] at this
    simp only [← he hw]
    rw [min_eq_right this.2, max_eq_right this.1]

/-- One step: the solution exists and is unique. -/
theorem exist71 (ht : ∀ i, (f i).TanSafe φ fun j => (X j).itv) (hX : ∀ i, (X i).Ok φ) (hi : h.In φ) (h0 : ∀ i, (X0 i).Ok φ)
    (hb : ∀ i, Bornology.IsBounded (X i).set) {K : NNReal}
    (hL : ∀ i, LipschitzOnWith K (f i).val {v | ∀ j, v j ∈ (X j).set})
    {s : ExSt} {R : ι → Itv} (hr : (odeStep φ f X h X0 s).1 = .ret (R, true)) (a : ℝ) (v : ι → ℝ) (hv : ∀ i, v i ∈ (X0 i).set) :
    ∃ u, u a = v ∧ IsOdeSol f u a (a + (h.q : ℝ)) ∧
      ∀ u', u' a = v → IsOdeSol f u' a (a + (h.q : ℝ)) → EqOn u' u (Icc a (a + (h.q : ℝ))) := by
  obtain ⟨hq, -, hdm, hs⟩ := step71 ht hX hi h0 hr
  generalize (h.q : ℝ) = d at *
  have hbox : Bornology.IsBounded {v : ι → ℝ | ∀ j, v j ∈ (X j).set} := by
    have := Bornology.IsBounded.pi (S := fun i => (X i).set) hb
    refine this.subset fun w hw i _ => hw i
  obtain ⟨G, M, hG, hM, hE⟩ := extend71 (F := fun v i => (f i).val v) hbox hL
  obtain ⟨u, rfl, hu⟩ := global71 hG hM v (a := a) hq
  have hu1 : SolIn f X u a (a + d) := by
    intro i
    refine ⟨fun t ht => ((hasDerivWithinAt_pi.mp (hu t ht)) i).continuousWithinAt, fun t ht hin => ?_⟩
    have := (hasDerivWithinAt_pi.mp (hu t ht)) i
    rwa [hE _ hin] at this
  have hin := (hs a u hu1 hv).1
  refine ⟨u, rfl, fun i => ⟨(hu1 i).1, fun t ht _ => (hu1 i).2 t ht fun j => (hin t ht j).1⟩, fun u' h1 h2 => ?_⟩
  have hu2 : SolIn f X u' a (a + d) := fun i => ⟨(h2 i).1, fun t ht k => (h2 i).2 t ht (hdm _ k i)⟩
  have hin' := (hs a u' hu2 (by rw [h1]; exact hv)).1
  have key : ∀ w : ℝ → ι → ℝ, SolIn f X w a (a + d) → (∀ t ∈ Icc a (a + d), ∀ i, w t i ∈ (X i).set ∧ w t ∈ (f i).dom) →
      ContinuousOn w (Icc a (a + d)) ∧ ∀ t ∈ Ico a (a + d), HasDerivWithinAt w (fun i => (f i).val (w t)) (Ici t) t := by
    intro w k1 k2
    refine ⟨continuousOn_pi.mpr fun i => (k1 i).1, fun t ht => ?_⟩
    rw [hasDerivWithinAt_pi]
    intro i
    exact ((k1 i).2 t ⟨ht.1, ht.2.le⟩ fun j => (k2 t ⟨ht.1, ht.2.le⟩ j).1).mono_of_mem_nhdsWithin
      (Icc_mem_nhdsGE_of_mem ht)
  obtain ⟨c1, c2⟩ := key u hu1 hin
  obtain ⟨c3, c4⟩ := key u' hu2 hin'
  exact ODE_solution_unique_of_mem_Icc_right (v := fun _ w i => (f i).val w) (s := fun _ => {v | ∀ j, v j ∈ (X j).set})
    (fun _ _ => pi71 hL) c3 c4 (fun t ht j => (hin' t ⟨ht.1, ht.2.le⟩ j).1) c1 c2 (fun t ht j => (hin t ⟨ht.1, ht.2.le⟩ j).1) h1

/-! ### All steps -/

theorem IsOdeSol.mono {u : ℝ → ι → ℝ} {a b c d : ℝ} (h : IsOdeSol f u a b) (h1 : a ≤ c) (h2 : d ≤ b) : IsOdeSol f u c d :=
  fun i => ⟨(h i).1.mono (Icc_subset_Icc h1 h2), fun t ht hd =>
    ((h i).2 t (Icc_subset_Icc h1 h2 ht) hd).mono (Icc_subset_Icc h1 h2)⟩

theorem time_nonneg71 {l : List ((ι → DItv) × FP)} (h : ∀ p ∈ l, 0 ≤ (p.2.q : ℝ)) : 0 ≤ odeTime l := by
  induction l with
  | nil => exact le_rfl
  | cons p l ih => exact add_nonneg (h p (by simp)) (ih fun p hp => h p (by simp [hp]))

theorem run_cons71 {l : List ((ι → DItv) × FP)} {s : ExSt} {R : ι → Itv}
    (hr : (odeRun φ f ((X, h) :: l) X0 s).1 = .ret (R, true)) :
    ∃ R1 s1, (odeStep φ f X h X0 s).1 = .ret (R1, true) ∧ (odeRun φ f l R1 s1).1 = .ret (R, true) := by
  unfold odeRun at hr
  obtain ⟨⟨R1, b1⟩, s1, h1, hr⟩ := bind_ret62 hr
  obtain ⟨⟨R2, b2⟩, s2, h2, hr⟩ := bind_ret62 hr
  have := pure_ret62 hr
  simp only [Prod.mk.injEq, Bool.and_eq_true] at this
  obtain ⟨rfl, rfl, rfl⟩ := this
  exact ⟨R1, s1, congrArg Prod.fst h1, congrArg Prod.fst h2⟩

theorem run_nil71 {s : ExSt} {R : ι → Itv} (h : (odeRun φ f [] X0 s).1 = .ret (R, true)) : X0 = R := by
  unfold odeRun at h
  have := pure_ret62 h
  simpa using this

/-- **Solutions are enclosed** (full statement `C71_full`: without `ht`; false for `double` and the tangent, `C71_false`).  Nothing is
assumed about the formulas, the boxes and the step sizes: the checks of the program suffice.  `ht`: in the evaluations on the boxes the
tangent meets no bad interval (C11). -/
theorem C71_enclosure_safe_partial {l : List ((ι → DItv) × FP)} {s : ExSt} {R : ι → Itv}
    (ht : ∀ p ∈ l, ∀ i, (f i).TanSafe φ fun j => (p.1 j).itv) (hl : ∀ p ∈ l, (∀ i, (p.1 i).Ok φ) ∧ p.2.In φ)
    (h0 : ∀ i, (X0 i).Ok φ) (hr : (odeRun φ f l X0 s).1 = .ret (R, true)) : (∀ i, (R i).Ok φ) ∧ EnclosesOde f X0 l R := by
  induction l generalizing X0 s R with
  | nil =>
    obtain rfl := run_nil71 hr
    refine ⟨h0, by simp, fun a u _ hu => ⟨fun _ _ _ _ h => absurd h (by simp), ?_⟩⟩
    simpa [odeTime] using hu
  | cons p l ih =>
    obtain ⟨X, h⟩ := p
    obtain ⟨R1, s1, h1, h2⟩ := run_cons71 hr
    have hp := hl (X, h) (by simp)
    obtain ⟨k1, k2, hdm, k3⟩ := step71 (ht (X, h) (by simp)) hp.1 hp.2 h0 h1
    obtain ⟨m1, m2, m3⟩ := ih (fun p h => ht p (by simp [h])) (fun p h => hl p (by simp [h])) k2 h2
    refine ⟨m1, ?_, fun a u hu hua => ?_⟩
    · intro p hp
      rcases List.mem_cons.mp hp with rfl | hp
      · exact k1
      · exact m2 p hp
    have m2 := time_nonneg71 m2
    simp only [odeTime] at hu ⊢
    have hu1 : SolIn f X u a (a + (h.q : ℝ)) := fun i => by
      have := hu.mono (c := a) (d := a + (h.q : ℝ)) le_rfl (by linarith) i
      exact ⟨this.1, fun t ht k => this.2 t ht (hdm _ k i)⟩
    obtain ⟨n1, n2⟩ := k3 a u hu1 hua
    obtain ⟨o1, o2⟩ := m3 (a + (h.q : ℝ)) u (hu.mono (by linarith) (by linarith)) n2
    rw [← add_assoc]
    refine ⟨fun l1 X' h' l2 e t htt => ?_, o2⟩
    cases l1 with
    | nil =>
      simp only [List.nil_append, List.cons.injEq, Prod.mk.injEq] at e
      obtain ⟨⟨rfl, rfl⟩, rfl⟩ := e
      simp only [odeTime, add_zero] at htt
      exact n1 t htt
    | cons p l1 =>
      simp only [List.cons_append, List.cons.injEq] at e
      obtain ⟨rfl, rfl⟩ := e
      simp only [odeTime, ← add_assoc] at htt
      exact o1 l1 X' h' l2 rfl t htt

/-- In particular in a format without bad intervals for the tangent, and for all formulas that do not use the tangent. -/
theorem C71_enclosure_partial {l : List ((ι → DItv) × FP)} {s : ExSt} {R : ι → Itv} (ht : NoCritical φ ∨ ∀ i, (f i).TanFree)
    (hl : ∀ p ∈ l, (∀ i, (p.1 i).Ok φ) ∧ p.2.In φ) (h0 : ∀ i, (X0 i).Ok φ) (hr : (odeRun φ f l X0 s).1 = .ret (R, true)) :
    (∀ i, (R i).Ok φ) ∧ EnclosesOde f X0 l R :=
  C71_enclosure_safe_partial (fun p hp i => (f i).tanSafe (ht.imp_right fun h => h i) fun j => ((hl p hp).1 j).1) hl h0 hr

/-- The full statement for `float`. -/
theorem C71_binary32 : C71_full binary32 := fun _ _ _ _ _ _ _ hl h0 hr =>
  C71_enclosure_partial (Or.inl noCritical_binary32) hl h0 hr

/-- The full statement for `long double`. -/
theorem C71_x87ext : C71_full x87ext := fun _ _ _ _ _ _ _ hl h0 hr =>
  C71_enclosure_partial (Or.inl noCritical_x87ext) hl h0 hr

/-! ### The solution exists and is unique -/

theorem glue71 {u1 u2 : ℝ → ι → ℝ} {a m b : ℝ} (ham : a ≤ m) (hmb : m ≤ b) (h1 : IsOdeSol f u1 a m) (h2 : IsOdeSol f u2 m b)
    (he : u2 m = u1 m) : ∃ u, IsOdeSol f u a b ∧ EqOn u u1 (Icc a m) ∧ EqOn u u2 (Icc m b) := by
  refine ⟨fun t => if t ≤ m then u1 t else u2 t, ?_⟩
  have e1 : EqOn (fun t => if t ≤ m then u1 t else u2 t) u1 (Icc a m) := fun t ht => if_pos ht.2
  have e2 : EqOn (fun t => if t ≤ m then u1 t else u2 t) u2 (Icc m b) := by
    intro t ht
    rcases ht.1.eq_or_lt with rfl | h
    · simp only [le_refl, if_true]; exact he.symm
    · exact if_neg (not_le.mpr h)
  refine ⟨?_, e1, e2⟩
  generalize (fun t => if t ≤ m then u1 t else u2 t) = u at e1 e2
  have hU := Icc_union_Icc_eq_Icc ham hmb
  intro i
  have c1 : ContinuousOn (fun t => u t i) (Icc a m) := (h1 i).1.congr fun t ht => by simp only [e1 ht]
  have c2 : ContinuousOn (fun t => u t i) (Icc m b) := (h2 i).1.congr fun t ht => by simp only [e2 ht]
  refine ⟨?_, fun t ht hd => ?_⟩
  · rw [← hU]
    exact c1.union_of_isClosed c2 isClosed_Icc isClosed_Icc
  · have d1 : t ∈ Icc a m → HasDerivWithinAt (fun s => u s i) ((f i).val (u t)) (Icc a m) t := fun k => by
      rw [e1 k] at hd ⊢
      exact ((h1 i).2 t k hd).congr (fun s hs => by simp only [e1 hs]) (by simp only [e1 k])
    have d2 : t ∈ Icc m b → HasDerivWithinAt (fun s => u s i) ((f i).val (u t)) (Icc m b) t := fun k => by
      rw [e2 k] at hd ⊢
      exact ((h2 i).2 t k hd).congr (fun s hs => by simp only [e2 hs]) (by simp only [e2 k])
    rw [← hU]
    rcases lt_trichotomy t m with k | rfl | k
    · refine (d1 ⟨ht.1, k.le⟩).union (hasDerivWithinAt_iff_hasFDerivWithinAt.mpr (.of_notMem_closure ?_))
      rw [isClosed_Icc.closure_eq]
      exact fun h => absurd h.1 (not_le.mpr k)
    · exact (d1 ⟨ham, le_rfl⟩).union (d2 ⟨le_rfl, hmb⟩)
    · refine HasDerivWithinAt.union (hasDerivWithinAt_iff_hasFDerivWithinAt.mpr (.of_notMem_closure ?_)) (d2 ⟨k.le, ht.2⟩)
      rw [isClosed_Icc.closure_eq]
      exact fun h => absurd h.2 (not_le.mpr k)

/-- What exists: for each starting point in `X0` and each starting time, one and only one solution over the time of all steps. -/
def SolvesOde (f : ι → Expr ι) (X0 : ι → Itv) (l : List ((ι → DItv) × FP)) : Prop :=
  ∀ a v, (∀ i, v i ∈ (X0 i).set) → ∃ u, u a = v ∧ IsOdeSol f u a (a + odeTime l) ∧
    ∀ u', u' a = v → IsOdeSol f u' a (a + odeTime l) → EqOn u' u (Icc a (a + odeTime l))

theorem solves71 {l : List ((ι → DItv) × FP)} {s : ExSt} {R : ι → Itv}
    (ht : ∀ p ∈ l, ∀ i, (f i).TanSafe φ fun j => (p.1 j).itv) (hl : ∀ p ∈ l, (∀ i, (p.1 i).Ok φ) ∧ p.2.In φ)
    (h0 : ∀ i, (X0 i).Ok φ) (hb : ∀ p ∈ l, ∀ i, Bornology.IsBounded (p.1 i).set)
    (hL : ∀ p ∈ l, ∃ K, ∀ i, LipschitzOnWith K (f i).val {v | ∀ j, v j ∈ (p.1 j).set})
    (hr : (odeRun φ f l X0 s).1 = .ret (R, true)) : SolvesOde f X0 l := by
  induction l generalizing X0 s R with
  | nil =>
    intro a v hv
    simp only [odeTime, add_zero, Icc_self]
    refine ⟨fun _ => v, rfl, fun i => ⟨continuousOn_const, fun t ht _ => ?_⟩, fun u' h _ t ht => ?_⟩
    · rw [Icc_self] at ht ⊢
      obtain rfl : t = a := ht
      exact hasDerivWithinAt_iff_hasFDerivWithinAt.mpr (HasFDerivWithinAt.of_subsingleton subsingleton_singleton)
    · obtain rfl : t = a := ht
      exact h
  | cons p l ih =>
    obtain ⟨X, h⟩ := p
    obtain ⟨R1, s1, h1, h2⟩ := run_cons71 hr
    have hp := hl (X, h) (by simp)
    obtain ⟨K, hK⟩ := hL (X, h) (by simp)
    have hT := time_nonneg71 (C71_enclosure_safe_partial (fun p h => ht p (by simp [h])) (fun p h => hl p (by simp [h]))
      (step71 (ht (X, h) (by simp)) hp.1 hp.2 h0 h1).2.1 h2).2.1
    obtain ⟨k1, k2, hdm, k3⟩ := step71 (ht (X, h) (by simp)) hp.1 hp.2 h0 h1
    have ih := ih (fun p h => ht p (by simp [h])) (fun p h => hl p (by simp [h])) k2 (fun p h => hb p (by simp [h]))
      (fun p h => hL p (by simp [h])) h2
    intro a v hv
    obtain ⟨u1, a1, a2, a3⟩ := exist71 (ht (X, h) (by simp)) hp.1 hp.2 h0 (hb (X, h) (by simp)) hK h1 a v hv
    have hin : ∀ u : ℝ → ι → ℝ, u a = v → IsOdeSol f u a (a + (h.q : ℝ)) → ∀ i, u (a + (h.q : ℝ)) i ∈ (R1 i).set :=
      fun u e hu => (k3 a u (fun i => ⟨(hu i).1, fun t ht k => (hu i).2 t ht (hdm _ k i)⟩) (by rw [e]; exact hv)).2
    obtain ⟨u2, b1, b2, b3⟩ := ih (a + (h.q : ℝ)) (u1 (a + (h.q : ℝ))) (hin u1 a1 a2)
    obtain ⟨u, g1, g2, g3⟩ := glue71 (by linarith) (by linarith) a2 b2 b1
    simp only [odeTime, ← add_assoc]
    refine ⟨u, by rw [g2 ⟨le_rfl, by linarith⟩, a1], g1, fun u' e hu t ht => ?_⟩
    have hu1 := hu.mono (c := a) (d := a + (h.q : ℝ)) le_rfl (by linarith)
    have q1 := a3 u' e hu1
    rcases le_total t (a + (h.q : ℝ)) with k | k
    · rw [q1 ⟨ht.1, k⟩, g2 ⟨ht.1, k⟩]
    · rw [b3 u' (q1 ⟨by linarith, le_rfl⟩) (hu.mono (by linarith) le_rfl) ⟨k, ht.2⟩, g3 ⟨k, ht.2⟩]

theorem closed71 (x : Itv) : IsClosed x.set := by
  unfold Itv.set
  refine IsClosed.inter (s₁ := {r | x.lo.BelowR r}) (s₂ := {r | x.hi.AboveR r}) ?_ ?_
  · cases x.lo <;> simp only [FP.BelowR]
    all_goals first | exact isClosed_const | exact isClosed_le continuous_const continuous_id
  · cases x.hi <;> simp only [FP.AboveR]
    all_goals first | exact isClosed_const | exact isClosed_le continuous_id continuous_const

/-- A formula all of whose operations are tame in a bounded box is Lipschitz there. -/
theorem lip71 {X : ι → DItv} (hb : ∀ i, Bornology.IsBounded (X i).set) (ht : ∀ i v, (∀ j, v j ∈ (X j).set) → (f i).TameAt v) :
    ∃ K, ∀ i, LipschitzOnWith K (f i).val {v | ∀ j, v j ∈ (X j).set} := by
  have hc : IsCompact {v : ι → ℝ | ∀ j, v j ∈ (X j).set} := by
    have : {v : ι → ℝ | ∀ j, v j ∈ (X j).set} = Set.pi univ fun j => (X j).set := by ext v; simp
    rw [this]
    exact isCompact_univ_pi fun j => Metric.isCompact_of_isClosed_isBounded (closed71 _) (hb j)
  have : ∀ i, ∃ K, LipschitzOnWith K (f i).val {v | ∀ j, v j ∈ (X j).set} := by
    intro i
    refine LocallyLipschitzOn.exists_lipschitzOnWith_of_compact hc fun v hv => ?_
    obtain ⟨K, r, M, hK, hr, hn⟩ := narrow (f i) (ht i v hv)
    refine ⟨K.toNNReal, Metric.closedBall v r, mem_nhdsWithin_of_mem_nhds (Metric.closedBall_mem_nhds v hr), ?_⟩
    refine LipschitzOnWith.of_dist_le_mul fun x hx y hy => ?_
    rw [Real.coe_toNNReal K hK, Real.dist_eq]
    have key : ∀ z ∈ Metric.closedBall v r, ∀ j, |z j - v j| ≤ r := fun z hz j => by
      rw [← Real.dist_eq]; exact (dist_le_pi_dist z v j).trans hz
    exact hn.1 x y _ (key x hx) (key y hy) (fun j => by rw [← Real.dist_eq]; exact dist_le_pi_dist x y j) dist_nonneg
  choose K hK using this
  exact ⟨∑ i, K i, fun i => (hK i).weaken (Finset.single_le_sum (fun _ _ => zero_le) (Finset.mem_univ i))⟩

/-- **The solution exists and is unique** (full statement: without `ht`), if the boxes are bounded and all operations of the formulas
are tame at the points of the boxes. -/
theorem C71_solution_safe_partial {l : List ((ι → DItv) × FP)} {s : ExSt} {R : ι → Itv}
    (ht : ∀ p ∈ l, ∀ i, (f i).TanSafe φ fun j => (p.1 j).itv) (hl : ∀ p ∈ l, (∀ i, (p.1 i).Ok φ) ∧ p.2.In φ)
    (h0 : ∀ i, (X0 i).Ok φ) (hb : ∀ p ∈ l, ∀ i, Bornology.IsBounded (p.1 i).set)
    (hm : ∀ p ∈ l, ∀ i v, (∀ j, v j ∈ (p.1 j).set) → (f i).TameAt v)
    (hr : (odeRun φ f l X0 s).1 = .ret (R, true)) : SolvesOde f X0 l :=
  solves71 ht hl h0 hb (fun p hp => lip71 (hb p hp) (hm p hp)) hr

/-! ### `double` and the tangent -/

theorem nums71 {a b : FP} (h : boundsOk a b = true) : Returns (numsToInterval a b) ⟨a, b⟩ := by
  unfold numsToInterval
  rw [if_pos h]
  exact Returns.pure _

theorem ode_step71 (h1 : boundsOk (.fin 0) h = true) (h2 : boundsOk h h = true) :
    Returns (odeStep φ f X h X0) (fun i => φ.addI (X0 i) (φ.mulI ⟨h, h⟩ ((f i).evalD φ X).itv),
      (Itv.mk (.fin 0) h).isCommon && decide (∀ i, (decide (.defd ≤ ((f i).evalD φ X).dec) &&
        (φ.addI (X0 i) (φ.mulI ⟨.fin 0, h⟩ ((f i).evalD φ X).itv)).interior (X i).itv) = true)) := by
  unfold odeStep
  exact (nums71 h1).bind ((nums71 h2).bind (Returns.pure _))

theorem ode_cons71 {l : List ((ι → DItv) × FP)} {R : ι → Itv} (h1 : boundsOk (.fin 0) h = true) (h2 : boundsOk h h = true)
    (hc : (Itv.mk (.fin 0) h).isCommon = true) (hd : ∀ i, .defd ≤ ((f i).evalD φ X).dec)
    (hi : ∀ i, (φ.addI (X0 i) (φ.mulI ⟨.fin 0, h⟩ ((f i).evalD φ X).itv)).interior (X i).itv = true)
    (hl : Returns (odeRun φ f l fun i => φ.addI (X0 i) (φ.mulI ⟨h, h⟩ ((f i).evalD φ X).itv)) (R, true)) :
    Returns (odeRun φ f ((X, h) :: l) X0) (R, true) := by
  unfold odeRun
  refine (ode_step71 h1 h2).bind (hl.bind ?_)
  have : decide (∀ i, (decide (.defd ≤ ((f i).evalD φ X).dec) &&
        (φ.addI (X0 i) (φ.mulI ⟨.fin 0, h⟩ ((f i).evalD φ X).itv)).interior (X i).itv) = true) = true :=
    decide_eq_true fun i => by rw [decide_eq_true (hd i), hi i]; rfl
  simp only [this, hc]
  exact Returns.pure _

/-- **The checks succeed** if the results are decorated `def` or better and the step is short enough: the slopes are at most `M i` in
absolute value, `h * M i` is at most a number `E i` of the type, and numbers `c i` and `d i` of the type in the interior of the box leave
room for the starting points and `E i`. -/
theorem C71_accepts {h : ℚ} (hh : φ.Rep h) (hh0 : 0 ≤ h) (hX : ∀ i, (X i).Ok φ) (h0 : ∀ i, (X0 i).Ok φ) {M : ι → ℝ} {E c d : ι → ℚ}
    (hd : ∀ i, .defd ≤ ((f i).evalD φ X).dec) (hM : ∀ i, ∀ z ∈ ((f i).evalD φ X).set, |z| ≤ M i)
    (hE : ∀ i, φ.Rep (E i) ∧ (h : ℝ) * M i ≤ E i) (hc : ∀ i, φ.Rep (c i) ∧ ∃ b ∈ (X i).set, b < c i)
    (hd' : ∀ i, φ.Rep (d i) ∧ ∃ b ∈ (X i).set, (d i : ℝ) < b)
    (hx : ∀ i, ∀ z ∈ (X0 i).set, (c i : ℝ) ≤ z - E i ∧ z + E i ≤ d i) (s : ExSt) :
    ∃ R, (odeRun φ f [(X, .fin h)] X0 s).1 = .ret (R, true) := by
  have hq : (0:ℝ) ≤ h := by exact_mod_cast hh0
  have k1 : ValidBounds (.fin 0) (.fin h) := ⟨0, by simp [Itv.set, FP.BelowR, FP.AboveR, hq]⟩
  have k2 : ValidBounds (.fin h) (.fin h) := ⟨h, by simp [Itv.set, FP.BelowR, FP.AboveR]⟩
  have hN := k1.NE (φ := φ) φ.rep_zero hh
  have hN2 := k2.NE (φ := φ) hh hh
  have hR := fun i => evalD_ok62 (f i) hX
  refine ⟨_, congrArg Prod.fst (ode_cons71 (boundsOk_iff.mpr k1) (boundsOk_iff.mpr k2) ((NE.common_iff hN).mpr ⟨by simp, by simp⟩)
    hd (fun i => ?_) (by unfold odeRun; exact Returns.pure _) s)⟩
  have m1 := C02_mul φ hN.ok (hR i).1
  have m2 := C01_add φ (h0 i) m1.1
  rw [C22_interior m2.1 (hX i).1]
  have hb : ∀ w ∈ (φ.mulI ⟨.fin 0, .fin h⟩ ((f i).evalD φ X).itv).set, -(E i : ℝ) ≤ w ∧ w ≤ E i := by
    have hm : ∀ z ∈ {z | ∃ a ∈ (Itv.mk (.fin 0) (.fin h)).set, ∃ b ∈ ((f i).evalD φ X).itv.set, z = a * b}, |z| ≤ E i := by
      rintro z ⟨a, ha, b, hb, rfl⟩
      have h1 : 0 ≤ a ∧ a ≤ h := by simpa [Itv.set, FP.BelowR, FP.AboveR] using ha
      have h2 := hM i b hb
      rw [abs_mul, abs_of_nonneg h1.1]
      calc a * |b| ≤ h * M i := mul_le_mul h1.2 h2 (abs_nonneg b) hq
        _ ≤ E i := (hE i).2
    intro w hw
    have g1 := m1.ge (q := -E i) (φ.rep_neg_iff.mpr (hE i).1) (fun z hz => by push_cast; exact (abs_le.mp (hm z hz)).1) w hw
    have g2 := m1.le (hE i).1 (fun z hz => (abs_le.mp (hm z hz)).2) w hw
    push_cast at g1
    exact ⟨g1, g2⟩
  intro z hz
  have g1 := m2.ge (hc i).1 (by
    rintro z ⟨a, ha, b, hb', rfl⟩
    have := (hx i a ha).1
    have := (hb b hb').1
    linarith) z hz
  have g2 := m2.le (hd' i).1 (by
    rintro z ⟨a, ha, b, hb', rfl⟩
    have := (hx i a ha).2
    have := (hb b hb').2
    linarith) z hz
  obtain ⟨-, b1, b2, b3⟩ := hc i
  obtain ⟨-, c1, c2, c3⟩ := hd' i
  exact ⟨⟨b1, b2, by linarith⟩, c1, c2, by linarith⟩

/-- The hypotheses hold for a step of length `1/8` for `u' = u` with starting points in `[1,2]` and the box `[0,4]`. -/
example (s : ExSt) : ∃ R, (odeRun binary64 (fun _ : Unit => .var ()) [(fun _ => ⟨⟨.fin 0, .fin 4⟩, .com⟩, .fin (1 / 8))]
    (fun _ => ⟨.fin 1, .fin 2⟩) s).1 = .ret (R, true) := by
  have hb : (Itv.mk (.fin 0) (.fin 4)).Ok binary64 := Itv.ok_of_okb (by decide +kernel)
  have rep : ∀ (m : ℤ) (e : ℤ), |m| < 100 → -10 ≤ e → e ≤ 10 → binary64.Rep ((m : ℚ) * 2 ^ e) := by
    intro m e h1 h2 h3
    refine ⟨m, e, rfl, h1.trans (by decide), ?_, ?_⟩ <;> simp only [binary64] <;> omega
  have r1 : binary64.Rep (1 / 8) := by have := rep 1 (-3) (by decide) (by decide) (by decide); norm_num at this; exact this
  have r2 : binary64.Rep (1 / 2) := by have := rep 1 (-1) (by decide) (by decide) (by decide); norm_num at this; exact this
  have r3 : binary64.Rep (5 / 2) := by have := rep 5 (-1) (by decide) (by decide) (by decide); norm_num at this; exact this
  refine C71_accepts (M := fun _ => 4) (E := fun _ => 1 / 2) (c := fun _ => 1 / 2) (d := fun _ => 5 / 2) r1 (by norm_num)
    (fun _ => ⟨hb, by simp, by simp, by simp⟩) (fun _ => Itv.ok_of_okb (by decide +kernel)) (fun _ => by simp only [Expr.evalD]; decide)
    ?_ (fun _ => ⟨r2, by norm_num⟩) (fun _ => ⟨r2, 0, ?_, by norm_num⟩) (fun _ => ⟨r3, 4, ?_, by norm_num⟩) ?_ s
  · intro _ z hz
    have : 0 ≤ z ∧ z ≤ 4 := by simpa [Expr.evalD, Itv.set, FP.BelowR, FP.AboveR] using hz
    rw [abs_of_nonneg this.1]
    exact this.2
  · simp [Itv.set, FP.BelowR, FP.AboveR]
  · simp [Itv.set, FP.BelowR, FP.AboveR]
  · intro _ z hz
    have : 1 ≤ z ∧ z ≤ 2 := by simpa [Itv.set, FP.BelowR, FP.AboveR] using hz
    push_cast
    constructor <;> linarith

/-- **The full statement is false for `double`**: the constant `π` solves `u' = tan u`, but the program, given a box that contains a
pole, loses it. -/
theorem C71_false : ¬ C71_full binary64 := by
  intro hf
  obtain ⟨b, hx, ha, hb, hbv, ht1, hw, hr⟩ := tan_witness_branch
  obtain ⟨-, -, h3, n1, i1, e1, n2, i2, e2⟩ := tanI_fin hx ha hb
  have hT := h3 hw hr
  have hxd : (DItv.mk tanWitness .com).Ok binary64 :=
    ⟨tanWitness_ok, by simp [tanWitness], by simp, by simp [tanWitness]⟩
  obtain ⟨d1, d2⟩ := tanD_eq hxd (by simp)
  obtain ⟨b1, b2⟩ := tan_branch (x := DItv.mk tanWitness .com) hx ha hb
  have c1 := Bool.eq_false_iff.mpr (fun h => absurd (b1.mp h) (not_lt.mpr hw))
  have c2 := Bool.eq_false_iff.mpr (fun h => absurd (b2.mp h) (not_lt.mpr hr))
  rw [c1, c2, show (DItv.mk tanWitness .com).itv.isEmpty = false from hx.isEmpty] at d2
  simp only [Bool.or_self, Bool.false_eq_true, if_false] at d2
  have hd : Dec.defd ≤ (binary64.tanD (DItv.mk tanWitness .com)).dec := by
    rw [d2]; unfold Itv.comDac; split_ifs <;> decide
  have hok : (binary64.tanI tanWitness).Ok binary64 := Op1.bare_ok .tan tanWitness_ok
  -- the computed values of the tangent
  have hS : ∀ z ∈ (binary64.tanI tanWitness).set, 1 ≤ z ∧ z ≤ 2 := by
    intro z hz
    rw [hT] at hz
    obtain ⟨⟨-, z1⟩, -, z2⟩ := Itv.mem_set.mp hz
    have l1 := (binary64.le_rdE_iff (f := .fin 1) (rep_one _) (Real.tan (7 / 8)) (by simp)).mpr (by
      rw [toE_one]; exact_mod_cast ht1.le)
    have l2 : Real.tan b ≤ 2 := by
      obtain ⟨b', ha', hb', hbv', h1', -⟩ := tan_witness_bounds
      have hlt : Real.tan b < Real.tan (7 / 8) := by
        have p1 := Real.pi_gt_d20
        have p2 := Real.pi_lt_d20
        rw [show Real.tan b = Real.tan (b - Real.pi) from (Real.tan_periodic.sub_eq b).symm]
        exact Real.tan_lt_tan_of_lt_of_lt_pi_div_two (by rw [hbv]; norm_num at p2 ⊢; linarith) (by linarith)
          (by rw [hbv]; norm_num at p1 ⊢; linarith)
      refine (hlt.trans h1').le.trans (by norm_num)
    have l3 := (binary64.ruE_le_iff (f := .fin 2) (show binary64.Rep 2 by exact_mod_cast binary64.rep_small (k := 2) (by decide))
      (Real.tan b) (by simp)).mpr (by rw [FP.toE_fin]; exact_mod_cast l2)
    rw [show (Itv.mk (binary64.tanF .D tanWitness.lo) (binary64.tanF .U tanWitness.hi)).lo = binary64.tanF .D tanWitness.lo from rfl,
      e1] at z1
    rw [show (Itv.mk (binary64.tanF .D tanWitness.lo) (binary64.tanF .U tanWitness.hi)).hi = binary64.tanF .U tanWitness.hi from rfl,
      e2] at z2
    have z1 := l1.trans z1
    have z2 := z2.trans l3
    rw [toE_one] at z1
    rw [FP.toE_fin] at z2
    exact ⟨by exact_mod_cast z1, by exact_mod_cast z2⟩
  have hX0 : (Itv.mk (.fin (25 / 8)) (.fin (51 / 16))).Ok binary64 := Itv.ok_of_okb (by decide +kernel)
  have m0 : ∀ z, z ∈ (Itv.mk (.fin (25 / 8)) (.fin (51 / 16))).set ↔ 25 / 8 ≤ z ∧ z ≤ 51 / 16 := by
    intro z
    simp [Itv.set, FP.BelowR, FP.AboveR]
  have hH : (Itv.mk (.fin 0) (.fin (1 / 4))).Ok binary64 := Itv.ok_of_okb (by decide +kernel)
  have mH : ∀ z, z ∈ (Itv.mk (.fin 0) (.fin (1 / 4))).set ↔ 0 ≤ z ∧ z ≤ 1 / 4 := by
    intro z
    simp [Itv.set, FP.BelowR, FP.AboveR]
  have hh : (Itv.mk (.fin (1 / 4)) (.fin (1 / 4))).Ok binary64 := Itv.ok_of_okb (by decide +kernel)
  have mh : ∀ z, z ∈ (Itv.mk (.fin (1 / 4)) (.fin (1 / 4))).set ↔ 1 / 4 ≤ z ∧ z ≤ 1 / 4 := by
    intro z
    simp [Itv.set, FP.BelowR, FP.AboveR]
  have hmem : ∀ t : ℝ, 7 / 8 ≤ t → t ≤ 4 → t ∈ tanWitness.set := fun t h1 h2 =>
    hx.mem.mpr ⟨by rw [ha]; exact_mod_cast h1, by rw [hb, hbv]; exact_mod_cast h2.trans (by norm_num)⟩
  have rep : ∀ (m : ℤ) (e : ℤ), |m| < 100 → -10 ≤ e → e ≤ 10 → binary64.Rep ((m : ℚ) * 2 ^ e) := by
    intro m e h1 h2 h3
    refine ⟨m, e, rfl, h1.trans (by decide), ?_, ?_⟩
    · simp only [binary64]; omega
    · simp only [binary64]; omega
  have r0 : binary64.Rep 0 := binary64.rep_zero
  have r1 : binary64.Rep (1 / 2) := by have := rep 1 (-1) (by decide) (by decide) (by decide); norm_num at this; exact this
  have r2 : binary64.Rep (25 / 8) := by have := rep 25 (-3) (by decide) (by decide) (by decide); norm_num at this; exact this
  have r3 : binary64.Rep (59 / 16) := by have := rep 59 (-4) (by decide) (by decide) (by decide); norm_num at this; exact this
  have r4 : binary64.Rep (1 / 4) := by have := rep 1 (-2) (by decide) (by decide) (by decide); norm_num at this; exact this
  have r5 : binary64.Rep (27 / 8) := by have := rep 27 (-3) (by decide) (by decide) (by decide); norm_num at this; exact this
  have t1 := C02_mul binary64 hH hok
  have t2 := C01_add binary64 hX0 t1.1
  have t3 := C02_mul binary64 hh hok
  have t4 := C01_add binary64 hX0 t3.1
  -- the check succeeds
  have hin : (binary64.addI ⟨.fin (25 / 8), .fin (51 / 16)⟩ (binary64.mulI ⟨.fin 0, .fin (1 / 4)⟩ (binary64.tanI tanWitness))).interior
      tanWitness = true := by
    rw [C22_interior t2.1 tanWitness_ok]
    intro z hz
    have p1 : ∀ w ∈ (binary64.mulI ⟨.fin 0, .fin (1 / 4)⟩ (binary64.tanI tanWitness)).set, 0 ≤ w ∧ w ≤ 1 / 2 := by
      intro w hw
      have k1 := t1.ge r0 (by
        rintro w ⟨a, ha, c, hc, rfl⟩
        have := (mH a).mp ha
        have := hS c hc
        push_cast
        nlinarith) w hw
      have k2 := t1.le r1 (by
        rintro w ⟨a, ha, c, hc, rfl⟩
        have := (mH a).mp ha
        have := hS c hc
        push_cast
        nlinarith) w hw
      push_cast at k1 k2
      exact ⟨k1, k2⟩
    have k1 := t2.ge r2 (by
      rintro w ⟨a, ha, c, hc, rfl⟩
      have := (m0 a).mp ha
      have := p1 c hc
      push_cast
      linarith) z hz
    have k2 := t2.le r3 (by
      rintro w ⟨a, ha, c, hc, rfl⟩
      have := (m0 a).mp ha
      have := p1 c hc
      push_cast
      linarith) z hz
    push_cast at k1 k2
    exact ⟨⟨1, hmem 1 (by norm_num) (by norm_num), by linarith⟩, 4, hmem 4 (by norm_num) (by norm_num), by linarith⟩
  -- the result does not contain the solution
  have hout : ∀ z ∈ (binary64.addI ⟨.fin (25 / 8), .fin (51 / 16)⟩ (binary64.mulI ⟨.fin (1 / 4), .fin (1 / 4)⟩ (binary64.tanI tanWitness))).set,
      27 / 8 ≤ z := by
    intro z hz
    have p1 : ∀ w ∈ (binary64.mulI ⟨.fin (1 / 4), .fin (1 / 4)⟩ (binary64.tanI tanWitness)).set, 1 / 4 ≤ w := by
      intro w hw
      have k1 := t3.ge r4 (by
        rintro w ⟨a, ha, c, hc, rfl⟩
        have := (mh a).mp ha
        have := hS c hc
        push_cast
        nlinarith) w hw
      push_cast at k1
      exact k1
    have k1 := t4.ge r5 (by
      rintro w ⟨a, ha, c, hc, rfl⟩
      have := (m0 a).mp ha
      have := p1 c hc
      push_cast
      linarith) z hz
    push_cast at k1
    exact k1
  have hrun : Returns (odeRun binary64 (fun _ : Unit => .un .tan (.var ())) [(fun _ => DItv.mk tanWitness .com, .fin (1 / 4))]
      (fun _ => ⟨.fin (25 / 8), .fin (51 / 16)⟩)) (fun _ => binary64.addI ⟨.fin (25 / 8), .fin (51 / 16)⟩
        (binary64.mulI ⟨.fin (1 / 4), .fin (1 / 4)⟩ (binary64.tanI tanWitness)), true) := by
    have hev : ∀ X : Unit → DItv, (Expr.un .tan (.var ())).evalD binary64 X = binary64.tanD (X ()) := fun _ => rfl
    refine ode_cons71 (by decide +kernel) (by decide +kernel) (by decide +kernel) (fun _ => hd) (fun _ => ?_) ?_
    · rw [hev, d1]
      exact hin
    · unfold odeRun
      simp only [hev, d1]
      exact Returns.pure _
  obtain ⟨-, -, hk⟩ := hf Unit _ _ _ _ ⟨Bits.none, Bits.none⟩ (by
    intro p hp
    obtain rfl : p = _ := List.mem_singleton.mp hp
    exact ⟨fun _ => hxd, r4⟩) (fun _ => hX0) (congrArg Prod.fst (hrun _))
  have p1 := Real.pi_gt_d20
  have p2 := Real.pi_lt_d20
  obtain ⟨-, hk⟩ := hk 0 (fun _ _ => Real.pi) (fun i => ⟨continuousOn_const, fun t _ _ => by
    simp only [Expr.val, Op1.fn, Real.tan_pi]
    exact hasDerivWithinAt_const _ _ _⟩) (fun _ => (m0 _).mpr (by norm_num at p1 p2 ⊢; constructor <;> linarith))
  have := hout _ (hk ())
  norm_num at p2
  linarith

/-! ### An instance -/

/-- The harmonic oscillator `u' = v`, `v' = -u`. -/
def osc71 : Bool → Expr Bool
  | false => .var true
  | true => .un .neg (.var false)

def oscBox71 (a b c d : ℚ) : Bool → DItv
  | false => ⟨⟨.fin a, .fin b⟩, .com⟩
  | true => ⟨⟨.fin c, .fin d⟩, .com⟩

/-- Two steps of length `1/8` from `u = 1`, `v = 0`. -/
def oscSteps71 : List ((Bool → DItv) × FP) :=
  [(oscBox71 (7 / 8) (9 / 8) (-1 / 4) (1 / 8), .fin (1 / 8)), (oscBox71 (3 / 4) (5 / 4) (-1 / 2) (1 / 8), .fin (1 / 8))]

def oscStart71 : Bool → Itv
  | false => ⟨.fin 1, .fin 1⟩
  | true => ⟨.fin 0, .fin 0⟩

/-- The checks succeed; `cos(1/4)` lies in `[29/32, 33/32]` and `-sin(1/4)` in `[-19/64, -13/64]`. -/
theorem osc_run71 : ∃ R, Returns (odeRun binary64 osc71 oscSteps71 oscStart71) (R, true) ∧
    R false = ⟨.fin (29 / 32), .fin (33 / 32)⟩ ∧ R true = ⟨.fin (-19 / 64), .fin (-13 / 64)⟩ := by
  refine ⟨_, ode_cons71 (by decide +kernel) (by decide +kernel) (by decide +kernel) ?_ ?_
    (ode_cons71 (by decide +kernel) (by decide +kernel) (by decide +kernel) ?_ ?_ (by unfold odeRun; exact Returns.pure _)), ?_, ?_⟩
  · rintro (_ | _) <;> simp only [osc71, Expr.evalD, Op1.decd] <;> decide +kernel
  · rintro (_ | _) <;> simp only [osc71, Expr.evalD, Op1.decd] <;> decide +kernel
  · rintro (_ | _) <;> simp only [osc71, Expr.evalD, Op1.decd] <;> decide +kernel
  · rintro (_ | _) <;> simp only [osc71, Expr.evalD, Op1.decd] <;> decide +kernel
  · simp only [osc71, Expr.evalD, Op1.decd]; decide +kernel
  · simp only [osc71, Expr.evalD, Op1.decd]; decide +kernel

theorem osc_ok71 : ∀ p ∈ oscSteps71, (∀ i, (p.1 i).Ok binary64) ∧ p.2.In binary64 := by
  intro p hp
  simp only [oscSteps71, List.mem_cons, List.not_mem_nil, or_false] at hp
  rcases hp with rfl | rfl
  · refine ⟨?_, FP.in_of_inb (by decide +kernel)⟩
    rintro (_ | _) <;> exact ⟨Itv.ok_of_okb (by decide +kernel), by simp [oscBox71], by simp [oscBox71], by simp [oscBox71]⟩
  · refine ⟨?_, FP.in_of_inb (by decide +kernel)⟩
    rintro (_ | _) <;> exact ⟨Itv.ok_of_okb (by decide +kernel), by simp [oscBox71], by simp [oscBox71], by simp [oscBox71]⟩

/-- The hypotheses of the theorems hold for it: the solution exists, is unique and is enclosed. -/
example : ∃ R, EnclosesOde osc71 oscStart71 oscSteps71 R ∧ SolvesOde osc71 oscStart71 oscSteps71 ∧
    R false = ⟨.fin (29 / 32), .fin (33 / 32)⟩ ∧ R true = ⟨.fin (-19 / 64), .fin (-13 / 64)⟩ := by
  obtain ⟨R, hR, e1, e2⟩ := osc_run71
  have hs : ∀ i, (oscStart71 i).Ok binary64 := by rintro (_ | _) <;> exact Itv.ok_of_okb (by decide +kernel)
  have htf : ∀ i, (osc71 i).TanFree := by rintro (_ | _) <;> simp [osc71, Expr.TanFree]
  refine ⟨R, (C71_enclosure_partial (φ := binary64) (Or.inr htf) osc_ok71 hs (s := ⟨Bits.none, Bits.none⟩)
    (congrArg Prod.fst (hR _))).2, C71_solution_safe_partial (φ := binary64) (s := ⟨Bits.none, Bits.none⟩)
    (fun p hp i => (osc71 i).tanSafe (Or.inr (htf i)) fun j => ((osc_ok71 p hp).1 j).1) osc_ok71 hs ?_ ?_ (congrArg Prod.fst (hR _)), e1, e2⟩
  · intro p hp i
    refine ((osc_ok71 p hp).1 i).com_bounded ?_
    simp only [oscSteps71, List.mem_cons, List.not_mem_nil, or_false] at hp
    rcases hp with rfl | rfl <;> rcases i <;> rfl
  · rintro p hp (_ | _) v - <;> simp [osc71, Expr.TameAt, Op1.tame]

end P1788
