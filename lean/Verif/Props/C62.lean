import Verif.Model.Quad
import Verif.Props.C60
import Verif.Props.C16
import Verif.Props.C17
import Verif.Props.C20b
import Mathlib.MeasureTheory.Integral.IntervalIntegral.MeanValue

/-!
# C62: integrals

A program that evaluates a formula on the pieces of an interval and adds up the results obtains an interval that contains
the integral, if the decorations say that the formula is continuous on each piece.
-/

namespace P1788
open Set MeasureTheory
variable {φ : Fmt} {ι : Type} [DecidableEq ι] {e : Expr ι} {X : ι → DItv} {i : ι} {a b : FP} {l : List FP}

/-- What the program promises if its checks succeed: the grid points are numbers in ascending order, the formula is defined and
integrable between the first and the last one for all values of the parameters, and the integral lies in the result. -/
def EnclosesIntegral (e : Expr ι) (X : ι → DItv) (i : ι) (a b : FP) (r : Itv) : Prop :=
  ∃ s t : ℝ, a.HasValue s ∧ b.HasValue t ∧ s ≤ t ∧ ∀ c, InBox X i c →
    Icc s t ⊆ e.domAt c i ∧ IntervalIntegrable (e.fnAt c i) volume s t ∧ ∫ u in s..t, e.fnAt c i u ∈ r.set

/-- The full statement. -/
def C62_full (φ : Fmt) : Prop :=
  ∀ (ι : Type) [DecidableEq ι] (e : Expr ι) (X : ι → DItv) (i : ι) (a : FP) (l : List FP) (hl : l ≠ []) (s : ExSt) (r : Itv),
    (∀ j, j ≠ i → (X j).Ok φ) → a.In φ → (∀ b ∈ l, b.In φ) → (quadrature φ e X i a l s).1 = .ret (r, true) →
    EnclosesIntegral e X i a (l.getLast hl) r

theorem bind_ret62 {α β : Type} {m : M α} {f : α → M β} {s : ExSt} {b : β} (h : ((m >>= f) s).1 = .ret b) :
    ∃ a s1, m s = (.ret a, s1) ∧ (f a s1).1 = .ret b := by
  change ((M.bind m f) s).1 = .ret b at h
  unfold M.bind at h
  rcases hm : m s with ⟨o, s1⟩
  rw [hm] at h
  cases o with
  | ret a => exact ⟨a, s1, rfl, h⟩
  | thrown x => exact absurd h (by simp)

theorem pure_ret62 {α : Type} {a b : α} {s : ExSt} (h : ((pure a : M α) s).1 = .ret b) : a = b := by
  change Outcome.ret a = .ret b at h
  simpa using h

/-- A finite number of the format. -/
theorem value62 {f : FP} (h1 : f ≠ .nan) (h2 : f.toE ≠ ⊥) (h3 : f.toE ≠ ⊤) : ∃ u : ℝ, f.HasValue u ∧ f.toE = (u:EReal) := by
  cases f with
  | nan => exact absurd rfl h1
  | ninf => exact absurd rfl h2
  | pinf => exact absurd rfl h3
  | nzero => exact ⟨0, Or.inl ⟨rfl, rfl⟩, by simp⟩
  | fin q => exact ⟨q, Or.inr ⟨q, rfl, rfl⟩, by simp⟩

/-- The interval of a number. -/
theorem point62 {f : FP} {u : ℝ} (hi : f.In φ) (h : f.HasValue u) : (Itv.mk f f).Ok φ ∧ (Itv.mk f f).set = {u} := by
  have hE : f ≠ .nan ∧ f.toE = (u:EReal) := by
    rcases h with ⟨rfl, rfl⟩ | ⟨q, rfl, rfl⟩ <;> exact ⟨by simp, by simp⟩
  have hN : (Itv.mk f f).NE φ := ⟨hE.1, hE.1, le_rfl, by rw [hE.2]; simp, by rw [hE.2]; simp, hi, hi⟩
  refine ⟨hN.ok, ?_⟩
  ext s
  rw [hN.mem, hE.2]
  simp only [EReal.coe_le_coe_iff, Set.mem_singleton_iff]
  exact ⟨fun h => le_antisymm h.2 h.1, fun h => h ▸ ⟨le_rfl, le_rfl⟩⟩

theorem nums_point62 {f : FP} {u : ℝ} (h : f.HasValue u) (s : ExSt) : numsToInterval f f s = (.ret ⟨f, f⟩, s) := by
  have : boundsOk f f = true := by
    refine boundsOk_iff.mpr ⟨u, ?_, ?_⟩ <;> rcases h with ⟨rfl, rfl⟩ | ⟨q, rfl, rfl⟩ <;> simp [FP.BelowR, FP.AboveR]
  unfold numsToInterval
  rw [if_pos this]
  rfl

/-- The interval of a piece. -/
theorem piece62 (ha : a.In φ) (hb : b.In φ) {s s1 : ExSt} {p : DItv} (h : numsToDecorated a b s = (.ret p, s1))
    (hc : DItv.pred Itv.isCommon p = true) :
    ∃ u v : ℝ, a.HasValue u ∧ b.HasValue v ∧ u ≤ v ∧ p.Ok φ ∧ p.set = Icc u v ∧ p.dec = .com ∧ p.itv = ⟨a, b⟩ := by
  unfold numsToDecorated at h
  by_cases hv : ValidBounds a b
  · rw [if_pos (boundsOk_iff.mpr hv)] at h
    have hN := hv.NE ha hb
    obtain ⟨y, h1, h2, h3, h4⟩ := C17_new_dec hN.ok
    have h' : newDecM ⟨a, b⟩ s = (.ret p, s1) := h
    rw [h1 s] at h'
    obtain rfl : y = p := by simpa using congrArg Prod.fst h'
    have hcm := pred_imp hc
    rw [h3] at hcm
    obtain ⟨c1, c2⟩ := (NE.common_iff hN).mp hcm
    have hmem := fun r => hN.mem (r := r)
    obtain ⟨u, hu, hu'⟩ := value62 hN.lo_ne c1 hN.lo_top
    obtain ⟨v, hv, hv'⟩ := value62 hN.hi_ne hN.hi_bot c2
    have hle := hN.le
    rw [hu', hv'] at hle
    have hle' : u ≤ v := by exact_mod_cast hle
    have hset : y.set = Icc u v := by
      ext r
      rw [DItv.set, h3, hmem r, hu', hv']
      simp only [EReal.coe_le_coe_iff, mem_Icc]
    refine ⟨u, v, hu, hv, hle', h2, hset, h4.2.1 ?_ ?_, h3⟩
    · rw [hset]; exact nonempty_Icc.mpr hle'
    · rw [hset]; exact Metric.isBounded_Icc u v
  · rw [if_neg (fun h' => hv (boundsOk_iff.mp h'))] at h
    obtain ⟨x, s2, h1, h2⟩ := bind_ret62 (congrArg Prod.fst h)
    have : DItv.nai = p := pure_ret62 h2
    subst this
    exact absurd hc (by decide)

/-- The mean value theorem in the form used here. -/
theorem mean62 {f : ℝ → ℝ} {u v : ℝ} (huv : u ≤ v) (hf : ContinuousOn f (Icc u v)) :
    ∃ c ∈ Icc u v, ∫ t in u..v, f t = f c * (v - u) := by
  have hf' : ContinuousOn f (uIcc u v) := by rwa [uIcc_of_le huv]
  obtain ⟨c, hc, h⟩ := exists_eq_const_mul_intervalIntegral_of_nonneg (μ := volume) (g := fun _ => (1:ℝ)) hf'
    intervalIntegrable_const (fun _ _ => zero_le_one)
  rw [uIcc_of_le huv] at hc
  exact ⟨c, hc, by simpa using h⟩

/-- **Integrals are enclosed** (full statement `C62_full`: without `ht`; false for `double` and the tangent, `C62_false`).
Nothing is assumed about the order of the grid points or the continuity of the formula: the checks of the program suffice.  `ht`:
in the evaluations on the pieces the tangent meets no bad interval (C11). -/
theorem C62_integral_safe_partial (ht : ∀ x y, [x, y] <:+: a :: l → (Itv.mk x y).Ok φ → e.TanSafe φ (boxAt X i ⟨x, y⟩)) (hX : ∀ j, j ≠ i → (X j).Ok φ) (hl : l ≠ []) (ha : a.In φ)
    (hli : ∀ b ∈ l, b.In φ) {s : ExSt} {r : Itv} (h : (quadrature φ e X i a l s).1 = .ret (r, true)) :
    r.Ok φ ∧ EnclosesIntegral e X i a (l.getLast hl) r := by
  induction l generalizing a s r with
  | nil => exact absurd rfl hl
  | cons b l ih =>
    unfold quadrature at h
    obtain ⟨p, s1, h1, h⟩ := bind_ret62 h
    obtain ⟨pa, s2, h2, h⟩ := bind_ret62 h
    obtain ⟨pb, s3, h3, h⟩ := bind_ret62 h
    obtain ⟨⟨q, ok⟩, s4, h4, h⟩ := bind_ret62 h
    have h5 : (φ.addI (φ.mulI (e.evalD φ (Function.update X i p)).itv (φ.subI pb pa)) q,
        DItv.pred Itv.isCommon p && decide (.dac ≤ (e.evalD φ (Function.update X i p)).dec) && ok) = (r, true) := pure_ret62 h
    simp only [Prod.mk.injEq, Bool.and_eq_true, decide_eq_true_eq] at h5
    obtain ⟨rfl, ⟨hk, hd⟩, rfl⟩ := h5
    have hb := hli b (by simp)
    obtain ⟨u, v, hu, hv, huv, hpo, hps, -, hpi⟩ := piece62 ha hb h1 hk
    rw [nums_point62 hu] at h2
    rw [nums_point62 hv] at h3
    obtain rfl : Itv.mk a a = pa := by simpa using congrArg Prod.fst h2
    obtain rfl : Itv.mk b b = pb := by simpa using congrArg Prod.fst h3
    obtain ⟨a1, a2⟩ := point62 ha hu
    obtain ⟨b1, b2⟩ := point62 hb hv
    have hX' : ∀ j, (Function.update X i p j).Ok φ := by
      intro j
      by_cases hj : j = i
      · subst hj; rw [Function.update_self]; exact hpo
      · rw [Function.update_of_ne hj]; exact hX j hj
    have hts : e.TanSafe φ fun j => (Function.update X i p j).itv := by
      have := ht a b (List.IsPrefix.isInfix ⟨l, rfl⟩) (hpi ▸ hpo.1)
      convert this using 1
      funext j
      unfold boxAt
      by_cases hj : j = i
      · subst hj; simp [hpi]
      · simp [Function.update_of_ne hj]
    have hR := (C19_ftdia_safe_partial e _ hX' hts).1
    have hw := C01_sub φ b1 a1
    have hm := C02_mul φ hR.1 hw.1
    -- the piece
    have key : ∀ c, InBox X i c → Icc u v ⊆ e.domAt c i ∧ ContinuousOn (e.fnAt c i) (Icc u v) ∧
        ∫ t in u..v, e.fnAt c i t ∈ (φ.mulI (e.evalD φ (Function.update X i p)).itv (φ.subI ⟨b, b⟩ ⟨a, a⟩)).set := by
      intro c hc
      have hc' : InBox (Function.update X i p) i c := fun j hj => by rw [Function.update_of_ne hj]; exact hc j hj
      obtain ⟨f1, f2, f3⟩ := dec_facts (i := i) hts hX' (defd_of_dac hd) hc'
      have f3 := f3 hd
      rw [Function.update_self, hps] at f1 f2 f3
      refine ⟨f1, f3, ?_⟩
      obtain ⟨m, hm', hI⟩ := mean62 huv f3
      rw [hI]
      exact hm.2.1 ⟨_, f2 m hm', v - u, hw.2.1 ⟨v, by rw [b2]; rfl, u, by rw [a2]; rfl, rfl⟩, rfl⟩
    cases l with
    | nil =>
      have hq : q = ⟨.fin 0, .fin 0⟩ := by
        have : (⟨.fin 0, .fin 0⟩, true) = (q, true) := by
          unfold quadrature at h4
          exact pure_ret62 (congrArg Prod.fst h4)
        simpa using this.symm
      subst hq
      obtain ⟨z1, z2⟩ := rep_point60 φ
      have hA := C01_add φ hm.1 z1
      refine ⟨hA.1, u, v, hu, hv, huv, fun c hc => ?_⟩
      obtain ⟨k1, k2, k3⟩ := key c hc
      refine ⟨k1, k2.intervalIntegrable_of_Icc huv, hA.2.1 ⟨_, k3, 0, by rw [z2]; rfl, by ring⟩⟩
    | cons b' l =>
      obtain ⟨i1, u', w, hu', hw', huw, i2⟩ := ih (fun x y hxy => ht x y (List.infix_cons hxy)) (by simp) hb (fun x hx => hli x (by simp [hx])) (by rw [h4])
      obtain rfl : u' = v := by
        rcases hu' with ⟨rfl, rfl⟩ | ⟨x, rfl, rfl⟩ <;> rcases hv with ⟨h, rfl⟩ | ⟨y, h, rfl⟩ <;> simp_all
      have hA := C01_add φ hm.1 i1
      refine ⟨hA.1, u, w, hu, by simpa using hw', huv.trans huw, fun c hc => ?_⟩
      obtain ⟨k1, k2, k3⟩ := key c hc
      obtain ⟨j1, j2, j3⟩ := i2 c hc
      have k2' := k2.intervalIntegrable_of_Icc (μ := volume) huv
      refine ⟨fun t ht => ?_, k2'.trans j2, hA.2.1 ⟨_, k3, _, j3, ?_⟩⟩
      · rcases le_total t u' with h | h
        · exact k1 ⟨ht.1, h⟩
        · exact j1 ⟨h, ht.2⟩
      · rw [intervalIntegral.integral_add_adjacent_intervals k2' j2]

/-- For types without bad intervals for the tangent and for formulas without the tangent. -/
theorem C62_integral_partial (ht : NoCritical φ ∨ e.TanFree) (hX : ∀ j, j ≠ i → (X j).Ok φ) (hl : l ≠ []) (ha : a.In φ)
    (hli : ∀ b ∈ l, b.In φ) {s : ExSt} {r : Itv} (h : (quadrature φ e X i a l s).1 = .ret (r, true)) :
    r.Ok φ ∧ EnclosesIntegral e X i a (l.getLast hl) r := by
  refine C62_integral_safe_partial (fun x y _ hxy => e.tanSafe ht fun j => ?_) hX hl ha hli h
  unfold boxAt
  by_cases hj : j = i
  · subst hj; rwa [Function.update_self]
  · rw [Function.update_of_ne hj]; exact (hX j hj).1

/-- For `float` and `long double` without restriction. -/
theorem C62_binary32 : C62_full binary32 := fun _ _ _ _ _ _ _ hl _ _ hX ha hli h =>
  (C62_integral_partial (Or.inl noCritical_binary32) hX hl ha hli h).2

theorem C62_x87ext : C62_full x87ext := fun _ _ _ _ _ _ _ hl _ _ hX ha hli h =>
  (C62_integral_partial (Or.inl noCritical_x87ext) hX hl ha hli h).2

/-- **The full statement is false for `double`**: the program accepts an interval with a pole of the tangent. -/
theorem C62_false : ¬ C62_full binary64 := by
  intro hf
  obtain ⟨x, hx, hd, ⟨t, ht, ht0⟩, hdac, -⟩ := C20_tan_binary64_false
  have hN : x.itv.NE binary64 := by
    rcases hx.1.cases with h | h
    · rw [h] at ht; simp at ht
    · exact h
  obtain ⟨c1, c2⟩ := hx.2.2.2 hd
  obtain ⟨u, hu, hu'⟩ := value62 hN.lo_ne (fun h => c1 (FP.toE_eq_bot.mp h)) hN.lo_top
  obtain ⟨v, hv, hv'⟩ := value62 hN.hi_ne hN.hi_bot (fun h => c2 (FP.toE_eq_top.mp h))
  have hV : ValidBounds x.itv.lo x.itv.hi := ⟨t, ht⟩
  have hcom : x.itv.newDec.dec = .com := by
    refine (newDec_fresh hx.1).2.1 ?_ ?_ <;> rw [DItv.set, newDec_itv]
    · exact ⟨t, ht⟩
    · exact hN.bounded_iff.mpr ⟨c1, c2⟩
  have hnd : x.itv.newDec = x := by
    have h1 := newDec_itv x.itv
    rcases hy : x.itv.newDec with ⟨y, d⟩
    rw [hy] at hcom h1
    obtain ⟨xi, xd⟩ := x
    simp only at hcom h1 hd
    rw [hcom, h1, hd]
  have hp : Returns (numsToDecorated x.itv.lo x.itv.hi) x := by
    unfold numsToDecorated
    rw [if_pos (boundsOk_iff.mpr hV)]
    have := newDecM_ret (x := x.itv) hx.1.proper
    rw [hnd] at this
    exact this
  have hcm : DItv.pred Itv.isCommon x = true := by
    have h1 : x.isValid = true := hx.isValid
    have h2 : x.isNai = false := hx.isNai_false (by rw [hd]; decide)
    unfold DItv.pred
    rw [h1, h2]
    simpa using hN.isCommon_iff.mpr (hN.bounded_iff.mpr ⟨c1, c2⟩)
  have hq : (quadrature binary64 (.un .tan (.var ())) (fun _ : Unit => x) () x.itv.lo [x.itv.hi] ⟨Bits.none, Bits.none⟩).1 =
      .ret (binary64.addI (binary64.mulI (binary64.tanD x).itv (binary64.subI ⟨x.itv.hi, x.itv.hi⟩ ⟨x.itv.lo, x.itv.lo⟩))
        ⟨.fin 0, .fin 0⟩, true) := by
    unfold quadrature
    refine congrArg Prod.fst (hp.bind (Returns.bind (nums_point62 hu) (Returns.bind (nums_point62 hv) (Returns.bind
      (a := (⟨.fin 0, .fin 0⟩, true)) (by unfold quadrature; exact Returns.pure _) ?_))) _)
    have e1 : (Function.update (fun _ : Unit => x) () x) = fun _ => x := by funext j; simp
    have e2 : (Expr.un .tan (.var ())).evalD binary64 (fun _ : Unit => x) = binary64.tanD x := rfl
    rw [e1, e2, hcm, decide_eq_true hdac]
    exact Returns.pure _
  obtain ⟨s, w, hs, hw, -, k⟩ := hf Unit _ _ () _ _ (by simp) _ _ (fun j hj => absurd rfl hj) hN.lo_in
    (by simpa using hN.hi_in) hq
  have hts : t ∈ Icc s w := by
    have hs' : x.itv.lo.toE = (s:EReal) := by rcases hs with ⟨h, rfl⟩ | ⟨q, h, rfl⟩ <;> rw [h] <;> simp
    have hw' : x.itv.hi.toE = (w:EReal) := by
      rw [List.getLast_singleton] at hw
      rcases hw with ⟨h, rfl⟩ | ⟨q, h, rfl⟩ <;> rw [h] <;> simp
    have := hN.mem.mp ht
    rw [hs', hw'] at this
    exact ⟨by exact_mod_cast this.1, by exact_mod_cast this.2⟩
  have := (k (fun _ => 0) (fun j hj => absurd rfl hj)).1 hts
  simp only [Expr.domAt, mem_ofPred_eq] at this
  have h2 := this.2
  simp [Op1.dom, Expr.val] at h2
  exact h2 ht0

/-! ## An instance -/

theorem quad_step62 {φ : Fmt} {e : Expr Unit} {X : Unit → DItv} {a b : ℚ} {l : List FP} {q : Itv} {ok : Bool}
    (h1 : boundsOk (.fin a) (.fin b) = true) (h2 : (Itv.mk (.fin a) (.fin b)).isValid = true)
    (h : Returns (quadrature φ e X () (.fin b) l) (q, ok)) :
    Returns (quadrature φ e X () (.fin a) (.fin b :: l))
      (φ.addI (φ.mulI (e.evalD φ (fun _ => Itv.newDec ⟨.fin a, .fin b⟩)).itv (φ.subI ⟨.fin b, .fin b⟩ ⟨.fin a, .fin a⟩)) q,
        DItv.pred Itv.isCommon (Itv.newDec ⟨.fin a, .fin b⟩) &&
          decide (.dac ≤ (e.evalD φ (fun _ => Itv.newDec ⟨.fin a, .fin b⟩)).dec) && ok) := by
  have hp : Returns (numsToDecorated (.fin a) (.fin b)) (Itv.newDec ⟨.fin a, .fin b⟩) := by
    unfold numsToDecorated
    rw [if_pos h1]
    exact newDecM_ret (Itv.proper_iff.mp h2)
  have e1 : (Function.update X () (Itv.newDec ⟨.fin a, .fin b⟩)) = fun _ => Itv.newDec ⟨.fin a, .fin b⟩ := by funext j; simp
  unfold quadrature
  refine hp.bind (Returns.bind (nums_point62 (Or.inr ⟨a, rfl, rfl⟩)) (Returns.bind (nums_point62 (Or.inr ⟨b, rfl, rfl⟩))
    (Returns.bind h ?_)))
  rw [e1]
  exact Returns.pure _

/-- `x²` on the grid `0, 1/2, 1, 2`: the checks succeed and the integral `8/3` lies in the result `[9/8, 37/8]`. -/
theorem quad_run62 : Returns (quadrature binary64 (.un .sqr (.var ())) (fun _ : Unit => DItv.nai) () (.fin 0)
    [.fin (1 / 2), .fin 1, .fin 2]) (⟨.fin (9 / 8), .fin (37 / 8)⟩, true) := by
  have h := quad_step62 (φ := binary64) (e := .un .sqr (.var ())) (X := fun _ => DItv.nai) (a := 0) (b := 1 / 2)
    (by decide +kernel) (by decide +kernel)
    (quad_step62 (a := 1 / 2) (b := 1) (by decide +kernel) (by decide +kernel)
      (quad_step62 (a := 1) (b := 2) (l := []) (q := ⟨.fin 0, .fin 0⟩) (ok := true) (by decide +kernel) (by decide +kernel)
        (by unfold quadrature; exact Returns.pure _)))
  convert h using 1
  simp only [Expr.evalD, Op1.decd]
  decide +kernel

/-- The hypotheses of `C62_integral_partial` hold for it. -/
example : EnclosesIntegral (.un .sqr (.var ())) (fun _ : Unit => DItv.nai) () (.fin 0) (.fin 2) ⟨.fin (9 / 8), .fin (37 / 8)⟩ :=
  (C62_integral_partial (φ := binary64) (l := [.fin (1 / 2), .fin 1, .fin 2]) (Or.inr (by simp [Expr.TanFree])) (fun j hj => absurd rfl hj)
    (by simp) (FP.in_of_inb (by decide +kernel))
    (by
      intro b hb
      simp only [List.mem_cons, List.not_mem_nil, or_false] at hb
      rcases hb with rfl | rfl | rfl <;> exact FP.in_of_inb (by decide +kernel))
    (s := ⟨Bits.none, Bits.none⟩) (congrArg Prod.fst (quad_run62 _))).2

end P1788
