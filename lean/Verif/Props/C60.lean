import Verif.Model.Verify
import Verif.Props.C18
import Verif.Props.C19
import Verif.Props.C35
import Verif.Props.C22
import Verif.Props.C24
import Verif.Props.C03
import Verif.Props.C01
import Mathlib.Analysis.Calculus.MeanValue
import Mathlib.Analysis.Calculus.Deriv.Pow
import Mathlib.Topology.Order.IntermediateValue

/-!
# C60: existence and uniqueness tests

What a program may conclude from the result of evaluating a formula over an interval and its decoration.  The full
statements are those without the hypothesis `ht`; for `double` and formulas with a tangent they rest on C11, which is
false there.  `ht` says that the tangent meets no bad interval (C11) in the evaluations on boxes inside of `X`; it holds for `float`
and `long double`, for formulas without the tangent (`Expr.tanSafeIn`), and if the tangent is only applied to intervals of a width
of at most 3 (`Expr.TanNarrow.safeIn`).
-/

namespace P1788
open Set
variable {φ : Fmt} {ι : Type} [DecidableEq ι] {e e' : Expr ι} {X : ι → DItv} {i : ι} {a b m : FP} {c : ι → ℝ}

/-- The formula as a function of the unknown `i`, the parameters being those of `c`. -/
noncomputable def Expr.fnAt (e : Expr ι) (c : ι → ℝ) (i : ι) (t : ℝ) : ℝ := e.val (Function.update c i t)

/-- The points where it is defined. -/
def Expr.domAt (e : Expr ι) (c : ι → ℝ) (i : ι) : Set ℝ := {t | Function.update c i t ∈ e.dom}

/-- The parameters lie in the box. -/
def InBox (X : ι → DItv) (i : ι) (c : ι → ℝ) : Prop := ∀ j, j ≠ i → c j ∈ (X j).set

theorem InBox.update (hc : InBox X i c) {t : ℝ} (ht : t ∈ (X i).set) (j : ι) : Function.update c i t j ∈ (X j).set := by
  by_cases h : j = i
  · subst h; rw [Function.update_self]; exact ht
  · rw [Function.update_of_ne h]; exact hc j h

theorem InBox.update_at (hc : InBox X i c) {v : Itv} {t : ℝ} (ht : t ∈ v.set) (j : ι) :
    Function.update c i t j ∈ (boxAt X i v j).set := by
  unfold boxAt
  by_cases h : j = i
  · subst h; rw [Function.update_self, Function.update_self]; exact ht
  · rw [Function.update_of_ne h, Function.update_of_ne h]; exact hc j h

theorem boxAt_ok (hX : ∀ j, (X j).Ok φ) {v : Itv} (hv : v.Ok φ) (j : ι) : (boxAt X i v j).Ok φ := by
  unfold boxAt
  by_cases h : j = i
  · subst h; rw [Function.update_self]; exact hv
  · rw [Function.update_of_ne h]; exact (hX j).1

theorem boxAt_sub {v : Itv} (hv : v.set ⊆ (X i).set) (j : ι) : (boxAt X i v j).set ⊆ (X j).itv.set := by
  unfold boxAt
  by_cases h : j = i
  · subst h; rw [Function.update_self]; exact hv
  · rw [Function.update_of_ne h]

theorem pred_imp {p : Itv → Bool} {x : DItv} (h : DItv.pred p x = true) : p x.itv = true := by
  unfold DItv.pred at h
  split_ifs at h
  exact h

theorem rel_imp60 {r : Itv → Itv → Bool} {x y : DItv} (h : DItv.rel r x y = true) : r x.itv y.itv = true := by
  unfold DItv.rel at h
  split_ifs at h
  exact h

theorem isMember_imp {m : FP} {x : DItv} (h : DItv.isMember m x = true) : x.itv.isMember m = true := by
  unfold DItv.isMember at h
  split_ifs at h
  exact h

/-- A number as an interval. -/
theorem point_ok60 {φ : Fmt} {m : FP} {x : Itv} (hx : x.Ok φ) (hi : m.In φ) (h : x.isMember m = true) :
    ∃ r : ℝ, m.HasValue r ∧ r ∈ x.set ∧ (Itv.mk m m).Ok φ ∧ (Itv.mk m m).set = {r} := by
  obtain ⟨r, h1, h2⟩ := (C24_is_member hx m).mp h
  have hE : m ≠ .nan ∧ m.toE = (r:EReal) := by
    rcases h1 with ⟨rfl, rfl⟩ | ⟨q, rfl, rfl⟩ <;> exact ⟨by simp, by simp⟩
  have hN : (Itv.mk m m).NE φ := ⟨hE.1, hE.1, le_rfl, by rw [hE.2]; simp, by rw [hE.2]; simp, hi, hi⟩
  refine ⟨r, h1, h2, hN.ok, ?_⟩
  ext s
  rw [hN.mem, hE.2]
  simp only [EReal.coe_le_coe_iff, Set.mem_singleton_iff]
  exact ⟨fun h => le_antisymm h.2 h.1, fun h => h ▸ ⟨le_rfl, le_rfl⟩⟩

/-- The points of a common interval. -/
theorem common_Icc {x : Itv} (hx : x.Ok φ) (h : x.isCommon = true) : ∃ a b : ℝ, a ≤ b ∧ x.set = Icc a b := by
  rcases hx.cases with rfl | hN
  · simp [Itv.isCommon] at h
  · obtain ⟨h1, h2⟩ := (NE.common_iff hN).mp h
    have hmem := fun r => hN.mem (r := r)
    have hle := hN.le
    lift x.lo.toE to ℝ using ⟨hN.lo_top, h1⟩ with l hl
    lift x.hi.toE to ℝ using ⟨h2, hN.hi_bot⟩ with u hu
    refine ⟨l, u, by exact_mod_cast hle, ?_⟩
    ext r
    rw [hmem r]
    simp only [EReal.coe_le_coe_iff, mem_Icc]

/-- Every interval is an interval. -/
theorem set_ordConnected (x : Itv) : x.set.OrdConnected := by
  refine ⟨fun a ha b hb c hc => ?_⟩
  rw [Itv.mem_set] at *
  refine ⟨⟨ha.1.1, ha.1.2.trans ?_⟩, ⟨hb.2.1, le_trans ?_ hb.2.2⟩⟩
  · exact_mod_cast hc.1
  · exact_mod_cast hc.2

theorem defd_of_dac {d : Dec} : .dac ≤ d → .defd ≤ d := by cases d <;> decide

theorem dec_facts (ht : e.TanSafe φ fun j => (X j).itv) (hX : ∀ j, (X j).Ok φ) (hd : .defd ≤ (e.evalD φ X).dec)
    (hc : InBox X i c) :
    (X i).set ⊆ e.domAt c i ∧ (∀ t ∈ (X i).set, e.fnAt c i t ∈ (e.evalD φ X).set) ∧
      (.dac ≤ (e.evalD φ X).dec → ContinuousOn (e.fnAt c i) (X i).set) := by
  obtain ⟨-, -, h1, h2, h3, -⟩ := C19_ftdia_safe_partial e X hX ht
  have hdom : ∀ t ∈ (X i).set, Function.update c i t ∈ e.dom := fun t ht => (h2 hd).2 _ (hc.update ht)
  refine ⟨hdom, fun t ht => h1 _ ?_ (hc.update ht) (hdom t ht), fun hk => ?_⟩
  · intro k; rw [k] at hd; exact absurd hd (by decide)
  · have hu : Continuous fun t : ℝ => Function.update c i t := continuous_const.update i continuous_id
    exact (h3 hk).comp hu.continuousOn fun t ht => hc.update ht

/-- **Existence of a fixed point**, for all values of the parameters. -/
theorem C60_fixed_point_partial (ht : e.TanSafeIn φ fun j => (X j).itv) (hX : ∀ j, (X j).Ok φ)
    (h : fixedPointTest φ e X i = true) :
    ∀ c, InBox X i c → ∃ t ∈ (X i).set, t ∈ e.domAt c i ∧ e.fnAt c i t = t := by
  intro c hc
  simp only [fixedPointTest, Bool.and_eq_true, decide_eq_true_eq] at h
  obtain ⟨⟨hk, hd⟩, hs⟩ := h
  obtain ⟨h1, h2, h3⟩ := dec_facts (ht.self fun j => (hX j).1) hX (defd_of_dac hd) hc
  have hr := (C19_ftdia_safe_partial e X hX (ht.self fun j => (hX j).1)).1
  obtain ⟨a, b, hab, he⟩ := common_Icc (hX i).1 (pred_imp hk)
  have hsub := (C22_subset hr.1 (hX i).1).mp (rel_imp60 hs)
  have hm : MapsTo (e.fnAt c i) (Icc a b) (Icc a b) := by
    intro t ht
    rw [← he] at ht ⊢
    exact hsub (h2 t ht)
  have hcont : ContinuousOn (e.fnAt c i) (Icc a b) := by rw [← he]; exact h3 hd
  obtain ⟨t, t1, t2⟩ := exists_mem_Icc_isFixedPt_of_mapsTo hcont hab hm
  have : t ∈ (X i).set := by show t ∈ (X i).itv.set; rw [he]; exact t1
  exact ⟨t, this, h1 this, t2⟩

theorem rep_point60 (φ : Fmt) : (Itv.mk (.fin 0) (.fin 0)).Ok φ ∧ (Itv.mk (.fin 0) (.fin 0)).set = {(0:ℝ)} := by
  have h1 : (Itv.mk (.fin 0) (.fin 0)).NE φ := ⟨by simp, by simp, le_rfl, by simp, by simp, φ.rep_zero, φ.rep_zero⟩
  refine ⟨h1.ok, ?_⟩
  ext r
  rw [h1.mem]
  simp only [FP.toE_fin, Rat.cast_zero, mem_singleton_iff]
  constructor
  · rintro ⟨a, b⟩; exact le_antisymm (by exact_mod_cast b) (by exact_mod_cast a)
  · rintro rfl; exact ⟨le_rfl, le_rfl⟩

theorem certain_neg {r : Itv} (hr : r.Ok φ) (h : r.strictlyPrecedes ⟨.fin 0, .fin 0⟩ = true) {t : ℝ} (ht : t ∈ r.set) :
    t < 0 := by
  have hz := rep_point60 φ
  exact (C22_strictly_precedes hr hz.1).mp h t ht 0 (by rw [hz.2]; rfl)

theorem certain_pos {r : Itv} (hr : r.Ok φ) (h : Itv.strictlyPrecedes ⟨.fin 0, .fin 0⟩ r = true) {t : ℝ}
    (ht : t ∈ r.set) : 0 < t := by
  have hz := rep_point60 φ
  exact (C22_strictly_precedes hz.1 hr).mp h 0 (by rw [hz.2]; rfl) t ht

/-- **Existence of a zero** by a change of sign. -/
theorem C60_sign_change_partial (ht : e.TanSafeIn φ fun j => (X j).itv) (hX : ∀ j, (X j).Ok φ) (ha : a.In φ) (hb : b.In φ)
    (h : signChangeTest φ e X i a b = true) :
    ∀ c, InBox X i c → ∃ t ∈ (X i).set, t ∈ e.domAt c i ∧ e.fnAt c i t = 0 := by
  intro c hc
  simp only [signChangeTest, Bool.and_eq_true, decide_eq_true_eq, Bool.or_eq_true] at h
  obtain ⟨⟨⟨hma, hmb⟩, hd⟩, hs⟩ := h
  obtain ⟨h1, h2, h3⟩ := dec_facts (ht.self fun j => (hX j).1) hX (defd_of_dac hd) hc
  have hcont := h3 hd
  obtain ⟨ra, -, ra1, ra2, ra3⟩ := point_ok60 (hX i).1 ha (isMember_imp hma)
  obtain ⟨rb, -, rb1, rb2, rb3⟩ := point_ok60 (hX i).1 hb (isMember_imp hmb)
  obtain ⟨a1, a2⟩ := C18_ftia_safe_partial e (boxAt X i ⟨a, a⟩) (boxAt_ok hX ra2)
    (ht _ (boxAt_ok hX ra2) (boxAt_sub (by rw [ra3]; simpa using ra1)))
  obtain ⟨b1, b2⟩ := C18_ftia_safe_partial e (boxAt X i ⟨b, b⟩) (boxAt_ok hX rb2)
    (ht _ (boxAt_ok hX rb2) (boxAt_sub (by rw [rb3]; simpa using rb1)))
  have va : e.fnAt c i ra ∈ (e.eval φ (boxAt X i ⟨a, a⟩)).set := a2 _ (hc.update_at (by rw [ra3]; rfl)) (h1 ra1)
  have vb : e.fnAt c i rb ∈ (e.eval φ (boxAt X i ⟨b, b⟩)).set := b2 _ (hc.update_at (by rw [rb3]; rfl)) (h1 rb1)
  have hpre : IsPreconnected (X i).set := (set_ordConnected (X i).itv).isPreconnected
  have key : (0:ℝ) ∈ e.fnAt c i '' (X i).set := by
    rcases hs with ⟨s1, s2⟩ | ⟨s1, s2⟩
    · exact hpre.intermediate_value ra1 rb1 hcont ⟨(certain_neg a1 s1 va).le, (certain_pos b1 s2 vb).le⟩
    · exact hpre.intermediate_value rb1 ra1 hcont ⟨(certain_neg b1 s1 vb).le, (certain_pos a1 s2 va).le⟩
  obtain ⟨t, t1, t2⟩ := key
  exact ⟨t, t1, h1 t1, t2⟩

omit [DecidableEq ι] in
/-- **No zero.** -/
theorem C60_no_zero_partial {X : ι → Itv} (ht : e.TanSafeIn φ X) (hX : ∀ j, (X j).Ok φ)
    (h : noZeroTest φ e X = true) : ∀ t, (∀ j, t j ∈ (X j).set) → t ∈ e.dom → e.val t ≠ 0 := by
  intro t hm hd h0
  obtain ⟨h1, h2⟩ := C18_ftia_safe_partial e X hX (ht.self hX)
  have hv := h2 t hm hd
  simp only [noZeroTest, Bool.not_eq_true'] at h
  have := (C24_is_member h1 (.fin 0)).mpr ⟨0, by simp [FP.HasValue], by rw [← h0]; exact hv⟩
  rw [this] at h
  exact absurd h (by simp)

/-- The full statement of the last theorem is **false** of `double`: the test claims that the tangent has no zero in an
interval around `π`. -/
theorem C60_no_zero_false : ∃ (e : Expr Unit) (X : Unit → Itv), (∀ j, (X j).Ok binary64) ∧
    noZeroTest binary64 e X = true ∧ ∃ t, (∀ j, t j ∈ (X j).set) ∧ t ∈ e.dom ∧ e.val t = 0 := by
  obtain ⟨b, hx, ha, hb, hbv, ht1, hw, hr⟩ := tan_witness_branch
  obtain ⟨-, -, h3, n1, i1, e1, n2, i2, e2⟩ := tanI_fin hx ha hb
  have hT := h3 hw hr
  have hok : (binary64.tanI tanWitness).Ok binary64 := Op1.bare_ok .tan tanWitness_ok
  refine ⟨.un .tan (.var ()), fun _ => tanWitness, fun _ => tanWitness_ok, ?_, fun _ => Real.pi, fun _ => ?_, ?_, ?_⟩
  · simp only [noZeroTest, Bool.not_eq_true', Expr.eval, Op1.bare]
    rw [← Bool.not_eq_true, C24_is_member hok]
    rintro ⟨r, hv, hm⟩
    rcases hv with ⟨h, -⟩ | ⟨q, h, rfl⟩
    · exact absurd h (by simp)
    obtain rfl : q = 0 := by simpa using h.symm
    rw [hT] at hm
    have := (Itv.mem_set.mp hm).1.2
    rw [show (Itv.mk (binary64.tanF .D tanWitness.lo) (binary64.tanF .U tanWitness.hi)).lo = binary64.tanF .D tanWitness.lo from rfl, e1] at this
    have h1le := (binary64.le_rdE_iff (f := .fin 1) (rep_one _) (Real.tan (7 / 8)) (by simp)).mpr (by
      rw [toE_one]; exact_mod_cast ht1.le)
    have := h1le.trans this
    rw [toE_one, Rat.cast_zero] at this
    exact absurd (by exact_mod_cast this : (1:ℝ) ≤ 0) (by norm_num)
  · refine hx.mem.mpr ⟨?_, ?_⟩
    · rw [ha]; exact_mod_cast (by linarith [Real.pi_gt_three])
    · have p2 := Real.pi_lt_d20
      rw [hb, hbv]; exact_mod_cast (by norm_num at p2 ⊢; linarith)
  · simp [Expr.dom, Op1.dom, Expr.val]
  · simp [Expr.val, Op1.fn]

/-- The derivative of `e` with respect to the unknown is given by the formula `e'`. -/
def IsDeriv (e e' : Expr ι) (X : ι → DItv) (i : ι) (c : ι → ℝ) : Prop :=
  ∀ t ∈ (X i).set, HasDerivAt (e.fnAt c i) (e'.fnAt c i t) t

omit [DecidableEq ι] in
theorem injTest_dec (h : injectiveTest φ e e' X = true) : .defd ≤ (e'.evalD φ X).dec := by
  simp only [injectiveTest, Bool.and_eq_true, decide_eq_true_eq] at h
  exact h.1.2

omit [DecidableEq ι] in
theorem injTest_zero (ht : e.TanSafeIn φ fun j => (X j).itv)
    (ht' : e'.TanSafeIn φ fun j => (X j).itv) (hX : ∀ j, (X j).Ok φ)
    (h : injectiveTest φ e e' X = true) : (0:ℝ) ∉ (e'.evalD φ X).set := by
  have hd' := injTest_dec h
  simp only [injectiveTest, Bool.and_eq_true, decide_eq_true_eq, Bool.not_eq_true'] at h
  have hz := h.2
  intro h0
  have hr := (C19_ftdia_safe_partial e' X hX (ht'.self fun j => (hX j).1)).1
  have hm' := (C24_is_member hr.1 (.fin 0)).mpr ⟨0, by simp [FP.HasValue], h0⟩
  have hn : (e'.evalD φ X).isNai = false := hr.isNai_false (by intro k; rw [k] at hd'; exact absurd hd' (by decide))
  unfold DItv.isMember at hz
  rw [hr.isValid, hn, if_neg (by simp), hm'] at hz
  exact absurd hz (by simp)

theorem injective_facts (ht : e.TanSafeIn φ fun j => (X j).itv)
    (ht' : e'.TanSafeIn φ fun j => (X j).itv) (hX : ∀ j, (X j).Ok φ)
    (h : injectiveTest φ e e' X = true) (hc : InBox X i c) :
    (X i).set ⊆ e.domAt c i ∧ ∀ t ∈ (X i).set, e'.fnAt c i t ∈ (e'.evalD φ X).set ∧ e'.fnAt c i t ≠ 0 := by
  have hz := injTest_zero ht ht' hX h
  simp only [injectiveTest, Bool.and_eq_true, decide_eq_true_eq, Bool.not_eq_true'] at h
  obtain ⟨⟨hd, hd'⟩, -⟩ := h
  obtain ⟨h1, -, -⟩ := dec_facts (ht.self fun j => (hX j).1) hX hd hc
  obtain ⟨-, h2, -⟩ := dec_facts (ht'.self fun j => (hX j).1) hX hd' hc
  exact ⟨h1, fun t hm => ⟨h2 t hm, fun h0 => hz (h0 ▸ h2 t hm)⟩⟩

theorem injOn60 (ht : e.TanSafeIn φ fun j => (X j).itv)
    (ht' : e'.TanSafeIn φ fun j => (X j).itv) (hX : ∀ j, (X j).Ok φ)
    (h : injectiveTest φ e e' X = true) (hc : InBox X i c) (hd : IsDeriv e e' X i c) :
    InjOn (e.fnAt c i) (X i).set := by
  have hf := (injective_facts ht ht' hX h hc).2
  have main : ∀ s ∈ (X i).set, ∀ t ∈ (X i).set, s < t → e.fnAt c i s ≠ e.fnAt c i t := by
    intro s hs t ht' hst heq
    have hsub : Icc s t ⊆ (X i).set := (set_ordConnected (X i).itv).out hs ht'
    obtain ⟨w, hw, h0⟩ := exists_hasDerivAt_eq_zero hst
      (fun u hu => (hd u (hsub hu)).continuousAt.continuousWithinAt) heq
      (fun u hu => hd u (hsub (Ioo_subset_Icc_self hu)))
    exact (hf w (hsub (Ioo_subset_Icc_self hw))).2 h0
  intro s hs t ht' heq
  rcases lt_trichotomy s t with h | h | h
  · exact absurd heq (main s hs t ht' h)
  · exact h
  · exact absurd heq.symm (main t ht' s hs h)

/-- **Uniqueness**: every value is taken at most once, in particular there is at most one zero. -/
theorem C60_unique_partial (ht : e.TanSafeIn φ fun j => (X j).itv)
    (ht' : e'.TanSafeIn φ fun j => (X j).itv) (hX : ∀ j, (X j).Ok φ)
    (h : injectiveTest φ e e' X = true) :
    ∀ c, InBox X i c → IsDeriv e e' X i c → (X i).set ⊆ e.domAt c i ∧ InjOn (e.fnAt c i) (X i).set :=
  fun _ hc hd => ⟨(injective_facts ht ht' hX h hc).1, injOn60 ht ht' hX h hc hd⟩

/-- The values the Newton operator must contain. -/
theorem newton_mem (ht : e.TanSafeIn φ fun j => (X j).itv)
    (ht' : e'.TanSafeIn φ fun j => (X j).itv) (hX : ∀ j, (X j).Ok φ) (hc : InBox X i c)
    (hd' : .defd ≤ (e'.evalD φ X).dec) {r : ℝ} (hr : (Itv.mk m m).set = {r})
    (hok : (Itv.mk m m).Ok φ) (hre : r ∈ e.domAt c i) {s : ℝ} (hs : s ∈ (X i).set) (h0 : e'.fnAt c i s ≠ 0)
    (hsub : (Itv.mk m m).set ⊆ (X i).set) :
    r - e.fnAt c i r / e'.fnAt c i s ∈ (newtonOp φ e e' X i m).set := by
  obtain ⟨a1, a2⟩ := C18_ftia_safe_partial e (boxAt X i ⟨m, m⟩) (boxAt_ok hX hok) (ht _ (boxAt_ok hX hok) (boxAt_sub hsub))
  obtain ⟨b1, b2⟩ := C18_ftia_safe_partial e' (fun j => (X j).itv) (fun j => (hX j).1) (ht'.self fun j => (hX j).1)
  have hdom' : s ∈ e'.domAt c i := (dec_facts (ht'.self fun j => (hX j).1) hX hd' hc).1 hs
  have v1 : e.fnAt c i r ∈ (e.eval φ (boxAt X i ⟨m, m⟩)).set := a2 _ (hc.update_at (by rw [hr]; rfl)) hre
  have v2 : e'.fnAt c i s ∈ (e'.eval φ fun j => (X j).itv).set := b2 _ (hc.update hs) hdom'
  have hq := C03_div φ a1 b1
  have v3 : e.fnAt c i r / e'.fnAt c i s ∈
      (φ.divI (e.eval φ (boxAt X i ⟨m, m⟩)) (e'.eval φ fun j => (X j).itv)).set :=
    hq.2.1 ⟨_, v1, _, v2, h0, rfl⟩
  exact (C01_sub φ hok hq.1).2.1 ⟨r, by rw [hr]; rfl, _, v3, rfl⟩

/-- A difference quotient of `e` is a value of `e'`. -/
theorem slope60 (hd : IsDeriv e e' X i c) {r t : ℝ} (hr : r ∈ (X i).set) (ht : t ∈ (X i).set) :
    ∃ s ∈ (X i).set, e.fnAt c i t - e.fnAt c i r = e'.fnAt c i s * (t - r) := by
  have main : ∀ {u v : ℝ}, u ∈ (X i).set → v ∈ (X i).set → u < v →
      ∃ s ∈ (X i).set, e.fnAt c i v - e.fnAt c i u = e'.fnAt c i s * (v - u) := by
    intro u v hu hv huv
    have hsub : Icc u v ⊆ (X i).set := (set_ordConnected (X i).itv).out hu hv
    obtain ⟨w, hw, h⟩ := exists_hasDerivAt_eq_slope (e.fnAt c i) (e'.fnAt c i) huv
      (fun w hw => (hd w (hsub hw)).continuousAt.continuousWithinAt) (fun w hw => hd w (hsub (Ioo_subset_Icc_self hw)))
    refine ⟨w, hsub (Ioo_subset_Icc_self hw), ?_⟩
    rw [h, div_mul_cancel₀]
    linarith
  rcases lt_trichotomy r t with h | h | h
  · exact main hr ht h
  · subst h; exact ⟨r, hr, by simp⟩
  · obtain ⟨s, s1, s2⟩ := main ht hr h
    exact ⟨s, s1, by linarith⟩

/-- **The Newton operator contains every zero in the interval**; in particular there is none if it is disjoint from the
interval. -/
theorem C60_newton_covers_partial (ht : e.TanSafeIn φ fun j => (X j).itv)
    (ht' : e'.TanSafeIn φ fun j => (X j).itv) (hX : ∀ j, (X j).Ok φ)
    (hi : m.In φ) (hm : (X i).itv.isMember m = true) (h : injectiveTest φ e e' X = true) :
    ∀ c, InBox X i c → IsDeriv e e' X i c →
      ∀ t ∈ (X i).set, e.fnAt c i t = 0 → t ∈ (newtonOp φ e e' X i m).set := by
  intro c hc hd t hts h0
  obtain ⟨h1, h2⟩ := injective_facts ht ht' hX h hc
  obtain ⟨r, -, r1, r2, r3⟩ := point_ok60 (hX i).1 hi hm
  obtain ⟨s, s1, s2⟩ := slope60 hd r1 hts
  have hs0 := (h2 s s1).2
  have := newton_mem ht ht' hX hc (injTest_dec h) r3 r2 (h1 r1) s1 hs0 (by rw [r3]; simpa using r1)
  have e1 : r - e.fnAt c i r / e'.fnAt c i s = t := by
    rw [h0] at s2
    field_simp
    linarith
  rwa [e1] at this

/-- A function that has no zero on an interval keeps its sign there. -/
theorem sign_const {f : ℝ → ℝ} {S : Set ℝ} (hS : S.OrdConnected) (hc : ContinuousOn f S) (h0 : ∀ t ∈ S, f t ≠ 0) :
    (∀ t ∈ S, 0 < f t) ∨ ∀ t ∈ S, f t < 0 := by
  by_contra hn
  push Not at hn
  obtain ⟨⟨u, hu, hu'⟩, v, hv, hv'⟩ := hn
  obtain ⟨w, hw, hw'⟩ := hS.isPreconnected.intermediate_value hu hv hc ⟨hu', hv'⟩
  exact h0 w hw hw'

/-- The derivative keeps its sign: it lies in an interval without 0. -/
theorem sign_of_interval {R : Itv} {S : Set ℝ} {g : ℝ → ℝ} (hm : ∀ t ∈ S, g t ∈ R.set) (h0 : (0:ℝ) ∉ R.set) :
    (∀ t ∈ S, 0 < g t) ∨ ∀ t ∈ S, g t < 0 := by
  by_contra hn
  push Not at hn
  obtain ⟨⟨u, hu, hu'⟩, v, hv, hv'⟩ := hn
  exact h0 ((set_ordConnected R).out (hm u hu) (hm v hv) ⟨hu', hv'⟩)

/-- **Existence and uniqueness of a zero** by the interval Newton test. -/
theorem C60_newton_partial (ht : e.TanSafeIn φ fun j => (X j).itv)
    (ht' : e'.TanSafeIn φ fun j => (X j).itv) (hX : ∀ j, (X j).Ok φ)
    (hi : m.In φ) (h : newtonTest φ e e' X i m = true) :
    ∀ c, InBox X i c → IsDeriv e e' X i c → ∃! t, t ∈ (X i).set ∧ e.fnAt c i t = 0 := by
  intro c hc hd
  simp only [newtonTest, Bool.and_eq_true] at h
  obtain ⟨⟨⟨hk, hm⟩, hj⟩, hs⟩ := h
  have hm' := isMember_imp hm
  obtain ⟨h1, h2⟩ := injective_facts ht ht' hX hj hc
  obtain ⟨r, -, r1, r2, r3⟩ := point_ok60 (hX i).1 hi hm'
  obtain ⟨a, b, hab, he⟩ := common_Icc (hX i).1 (pred_imp hk)
  have he' : (X i).set = Icc a b := he
  have hcont : ContinuousOn (e.fnAt c i) (X i).set := fun t ht => (hd t ht).continuousAt.continuousWithinAt
  have ha : a ∈ (X i).set := by rw [he']; exact ⟨le_rfl, hab⟩
  have hb : b ∈ (X i).set := by rw [he']; exact ⟨hab, le_rfl⟩
  have hNok : (newtonOp φ e e' X i m).Ok φ := by
    have a1 := e.eval_ok18 (boxAt_ok (i := i) hX r2)
    have b1 := e'.eval_ok18 fun j => (hX j).1
    exact (C01_sub φ r2 (C03_div φ a1 b1).1).1
  have hsub : (newtonOp φ e e' X i m).set ⊆ Icc a b := by
    rw [← he]; exact (C22_subset hNok (hX i).1).mp hs
  have hin : ∀ s ∈ (X i).set,
      a ≤ r - e.fnAt c i r / e'.fnAt c i s ∧ r - e.fnAt c i r / e'.fnAt c i s ≤ b := fun s hs =>
    hsub (newton_mem ht ht' hX hc (injTest_dec hj) r3 r2 (h1 r1) hs (h2 s hs).2 (by rw [r3]; simpa using r1))
  obtain ⟨sa, sa1, sa2⟩ := slope60 hd r1 ha
  obtain ⟨sb, sb1, sb2⟩ := slope60 hd r1 hb
  obtain ⟨ia, -⟩ := hin sa sa1
  obtain ⟨-, ib⟩ := hin sb sb1
  have ex : ∃ t ∈ (X i).set, e.fnAt c i t = 0 := by
    by_contra hn
    push Not at hn
    have na := (h2 sa sa1).2
    have nb := (h2 sb sb1).2
    -- the Newton points from the slopes to the two ends
    have ea : r - e.fnAt c i r / e'.fnAt c i sa = a - e.fnAt c i a / e'.fnAt c i sa := by field_simp; linarith
    have eb : r - e.fnAt c i r / e'.fnAt c i sb = b - e.fnAt c i b / e'.fnAt c i sb := by field_simp; linarith
    rw [ea] at ia
    rw [eb] at ib
    have ia' : e.fnAt c i a / e'.fnAt c i sa ≤ 0 := by linarith
    have ib' : 0 ≤ e.fnAt c i b / e'.fnAt c i sb := by linarith
    rcases sign_const (set_ordConnected (X i).itv) hcont hn with hp | hp <;>
      rcases sign_of_interval (S := (X i).set) (fun t ht => (h2 t ht).1) (injTest_zero ht ht' hX hj) with hq | hq
    · exact absurd ia' (not_le.mpr (div_pos (hp a ha) (hq sa sa1)))
    · exact absurd ib' (not_le.mpr (div_neg_of_pos_of_neg (hp b hb) (hq sb sb1)))
    · exact absurd ib' (not_le.mpr (div_neg_of_neg_of_pos (hp b hb) (hq sb sb1)))
    · exact absurd ia' (not_le.mpr (div_pos_of_neg_of_neg (hp a ha) (hq sa sa1)))
  obtain ⟨t, t1, t2⟩ := ex
  exact ⟨t, ⟨t1, t2⟩, fun u hu => injOn60 ht ht' hX hj hc hd hu.1 t1 (by rw [hu.2, t2])⟩

/-- The hypothesis `ht` is met for `double` by a formula with a tangent, `tan x - x`, on `[4, 5]`, where there are a zero and a
pole of the tangent. -/
example : (Expr.bin .sub (.un .tan (.var ())) (.var ())).TanSafeIn binary64
    (fun _ : Unit => (DItv.mk ⟨.fin 4, .fin 5⟩ .com).itv) := by
  refine Expr.TanNarrow.safeIn ⟨⟨trivial, fun _ s hs t ht => ?_⟩, trivial⟩ fun _ => Itv.ok_of_okb (by decide +kernel)
  simp only [Expr.eval, Itv.set, FP.BelowR, FP.AboveR, Set.mem_ofPred_eq] at hs ht
  obtain ⟨a1, a2⟩ := hs
  obtain ⟨b1, b2⟩ := ht
  push_cast at a1 a2 b1 b2
  exact abs_le.mpr ⟨by linarith, by linarith⟩

/-! ## An instance: the square root of every number in `[2, 2 + 1/8]` -/

/-- `x² - p` and its derivative `x + x`, on `x = [1, 2]`, `p = [2, 2 + 1/8]`. -/
def sqEx : Expr Bool := .bin .sub (.un .sqr (.var true)) (.var false)
/-- `x + x`. -/
def sqEx' : Expr Bool := .bin .add (.var true) (.var true)
/-- `x = [1, 2]`, `p = [2, 2 + 1/8]`. -/
def sqBox : Bool → DItv := fun b => if b then ⟨⟨.fin 1, .fin 2⟩, .com⟩ else ⟨⟨.fin 2, .fin (17 / 8)⟩, .com⟩

theorem sqBox_ok : ∀ j, (sqBox j).Ok binary64 := by
  intro j
  cases j <;> exact ⟨Itv.ok_of_okb (by decide +kernel), by simp [sqBox], by simp [sqBox], by simp [sqBox]⟩

theorem sq_newton : newtonTest binary64 sqEx sqEx' sqBox true (.fin (3 / 2)) = true := by
  simp only [newtonTest, newtonOp, injectiveTest, sqEx, sqEx', Expr.eval, Expr.evalD, Op1.bare, Op2.bare, Op1.decd, Op2.decd]
  decide +kernel

/-- The hypotheses of the other theorems are met: the change of sign on the same box, no zero when `x = [3, 4]`, and
`2/x` maps `[1, 2]` into itself. -/
example : signChangeTest binary64 sqEx sqBox true (.fin 1) (.fin 2) = true ∧
    injectiveTest binary64 sqEx sqEx' sqBox = true ∧
    noZeroTest binary64 sqEx (boxAt sqBox true ⟨.fin 3, .fin 4⟩) = true ∧
    fixedPointTest binary64 (.bin .div (.var false) (.var true) : Expr Bool)
      (fun b => if b then ⟨⟨.fin 1, .fin 2⟩, .com⟩ else ⟨⟨.fin 2, .fin 2⟩, .com⟩) true = true := by
  simp only [signChangeTest, noZeroTest, fixedPointTest, injectiveTest, sqEx, sqEx', Expr.eval, Expr.evalD, Op1.bare, Op2.bare,
    Op1.decd, Op2.decd]
  decide +kernel

/-- The hypotheses of `C60_newton_partial` are met: every `p` in the interval has exactly one root there. -/
example (p : ℝ) (h1 : 2 ≤ p) (h2 : p ≤ 17 / 8) : ∃! t : ℝ, t ∈ (sqBox true).set ∧ t ^ 2 - p = 0 := by
  have := C60_newton_partial (i := true) (Expr.tanSafeIn _ (.inr (by simp [sqEx, Expr.TanFree])) _)
    (Expr.tanSafeIn _ (.inr (by simp [sqEx', Expr.TanFree])) _) sqBox_ok
    (FP.in_of_inb (by decide +kernel)) sq_newton (fun _ => p) ?_ ?_
  · simpa [Expr.fnAt, sqEx, Expr.val, Op1.fn, Op2.fn] using this
  · intro j hj
    cases j
    · refine ⟨?_, ?_⟩ <;> norm_num [FP.BelowR, FP.AboveR, sqBox] <;> assumption
    · exact absurd rfl hj
  · intro t _
    have hd : HasDerivAt (fun t : ℝ => t ^ 2 - p) (t + t) t := by
      have := (hasDerivAt_pow 2 t).sub_const p
      rwa [show (((2:ℕ):ℝ) * t ^ (2 - 1)) = t + t by push_cast; ring] at this
    have e1 : sqEx.fnAt (fun _ => p) true = fun t => t ^ 2 - p := by
      funext t; simp [Expr.fnAt, sqEx, Expr.val, Op1.fn, Op2.fn]
    have e2 : sqEx'.fnAt (fun _ => p) true t = t + t := by
      simp [Expr.fnAt, sqEx', Expr.val, Op2.fn]
    rw [e1, e2]
    exact hd

end P1788
