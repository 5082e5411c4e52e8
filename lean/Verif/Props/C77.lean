import Verif.Lemmas.AutoTame
import Verif.Lemmas.Occurs
import Verif.Props.C76b
import Verif.Props.C50

/-!
# C77: automatic differentiation

The formulas of the partial derivatives that the program makes of a formula, evaluated with the library on a box, enclose the partial
derivatives at all points of the box, and the programs that need derivatives (mean value form, Newton operator) can be used with them.
-/

namespace P1788
open Set
variable {φ : Fmt} {n : ℕ} {e : Expr (Fin n ⊕ ℚ)} {B : Fin n ⊕ ℚ → DItv}

/-- The constants of a formula have their values. -/
abbrev ratR (q : ℚ) : ℝ := q

/-- The full statement: if the formulas of the derivatives are known to be defined on the box, the formula has a derivative at each point of
the box, and its partial derivatives are in the intervals. -/
def C77_full (φ : Fmt) : Prop :=
  ∀ (n : ℕ) (e : Expr (Fin n ⊕ ℚ)) (B : Fin n ⊕ ℚ → DItv), (∀ i, (B i).Ok φ) → ParamsIn B ratR →
    (∀ j, .defd ≤ ((e.pd j).evalD φ B).dec) → ∀ u ∈ unknowns B, ∃ D : Fin n → ℝ,
      HasFDerivAt (fun w : Fin n → ℝ => e.val (Sum.elim w ratR)) (∑ j, D j • ContinuousLinearMap.proj j : (Fin n → ℝ) →L[ℝ] ℝ) u ∧
      ∀ j, D j ∈ ((e.pd j).evalD φ B).itv.set

theorem IsGradient.auto : IsGradient e (fun j => e.pd j) B ratR :=
  fun u _ h => (e.pd_right u h).hasFDerivWithinAt

theorem IsJacobian.auto {e : Fin n → Expr (Fin n ⊕ ℚ)} : IsJacobian e (fun i j => (e i).pd j) B ratR :=
  fun u _ i h => ((e i).pd_right u h).hasFDerivWithinAt

/-- **The derivatives are enclosed** in all evaluations in which the tangent meets no bad interval (C11). -/
theorem C77_derivatives_safe_partial (ht : e.TanSafe φ fun j => (B j).itv) (hB : ∀ i, (B i).Ok φ) (hc : ParamsIn B ratR)
    (h : ∀ j, .defd ≤ ((e.pd j).evalD φ B).dec) {u : Fin n → ℝ} (hu : u ∈ unknowns B) : ∃ D : Fin n → ℝ,
      HasFDerivAt (fun w : Fin n → ℝ => e.val (Sum.elim w ratR)) (∑ j, D j • ContinuousLinearMap.proj j : (Fin n → ℝ) →L[ℝ] ℝ) u ∧
      ∀ j, D j ∈ ((e.pd j).evalD φ B).itv.set := by
  have f := fun j => C19_ftdia_safe_partial (e.pd j) B hB (e.tanSafe_pd j ht)
  have hd : ∀ j, Sum.elim u ratR ∈ (e.pd j).dom := fun j => ((f j).2.2.2.1 (h j)).2 _ (elim_mem74 hu hc)
  exact ⟨fun j => (e.pd j).val (Sum.elim u ratR), e.pd_right u hd,
    fun j => (f j).2.2.1 _ (not_ill74 (h j)) (elim_mem74 hu hc) (hd j)⟩

/-- For formulas without the tangent, and for types without bad intervals. -/
theorem C77_derivatives_partial (ht : NoCritical φ ∨ e.TanFree) (hB : ∀ i, (B i).Ok φ) (hc : ParamsIn B ratR)
    (h : ∀ j, .defd ≤ ((e.pd j).evalD φ B).dec) {u : Fin n → ℝ} (hu : u ∈ unknowns B) : ∃ D : Fin n → ℝ,
      HasFDerivAt (fun w : Fin n → ℝ => e.val (Sum.elim w ratR)) (∑ j, D j • ContinuousLinearMap.proj j : (Fin n → ℝ) →L[ℝ] ℝ) u ∧
      ∀ j, D j ∈ ((e.pd j).evalD φ B).itv.set :=
  C77_derivatives_safe_partial (e.tanSafe ht fun i => (hB i).1) hB hc h hu

/-- The full statement for `float`. -/
theorem C77_binary32 : C77_full binary32 := fun _ _ _ hB hc h _ hu => C77_derivatives_partial (Or.inl noCritical_binary32) hB hc h hu

/-- The full statement for `long double`. -/
theorem C77_x87ext : C77_full x87ext := fun _ _ _ hB hc h _ hu => C77_derivatives_partial (Or.inl noCritical_x87ext) hB hc h hu

/-- **The mean value form with these derivatives** encloses the range, with no assumption about derivatives. -/
theorem C77_mean_value_partial {R : Itv} (ht : NoCritical φ ∨ e.TanFree) (hB : ∀ i, (B i).Ok φ) (hc : ParamsIn B ratR)
    (h : meanValue φ e (fun j => e.pd j) B = some R) {u : Fin n → ℝ} (hu : u ∈ unknowns B) :
    Sum.elim u ratR ∈ e.dom ∧ e.val (Sum.elim u ratR) ∈ R.set :=
  (C76_mean_value_partial (ht.imp_right fun h => ⟨h, fun j => e.tanFree_pd j h⟩) hB h).2 _ hc IsGradient.auto u hu

/-- The same in all evaluations in which the tangent meets no bad interval. -/
theorem C77_mean_value_safe_partial {R : Itv} (ht : e.TanSafeIn φ fun j => (B j).itv) (hB : ∀ i, (B i).Ok φ) (hc : ParamsIn B ratR)
    (h : meanValue φ e (fun j => e.pd j) B = some R) {u : Fin n → ℝ} (hu : u ∈ unknowns B) :
    Sum.elim u ratR ∈ e.dom ∧ e.val (Sum.elim u ratR) ∈ R.set :=
  (C76_mean_value_safe_partial ht (fun j => e.tanSafe_pd j (ht.self fun i => (hB i).1)) hB h).2 _ hc IsGradient.auto u hu

/-- **The Newton operator with these derivatives**, with no assumption about derivatives. -/
theorem C77_newton_partial {piv : ∀ n, (Fin (n + 1) → Itv) → Fin (n + 1)} {e : Fin n → Expr (Fin n ⊕ ℚ)} {m : Fin n → FP} {N : Fin n → Itv}
    (ht : NoCritical φ ∨ ∀ i, (e i).TanFree) (hB : ∀ i, (B i).Ok φ) (hc : ParamsIn B ratR) (hm : ∀ i, (m i).In φ)
    (h : newtonSys φ piv e (fun i j => (e i).pd j) B m = some N) : NewtonSysRight e B m N ratR :=
  (C74_newton_partial (ht.imp_right fun h i => ⟨h i, fun j => (e i).tanFree_pd j (h i)⟩) hB hm h).2 _ hc IsJacobian.auto

/-- The same in all evaluations in which the tangent meets no bad interval. -/
theorem C77_newton_safe_partial {piv : ∀ n, (Fin (n + 1) → Itv) → Fin (n + 1)} {e : Fin n → Expr (Fin n ⊕ ℚ)} {m : Fin n → FP}
    {N : Fin n → Itv} (ht : ∀ i, (e i).TanSafeIn φ fun j => (B j).itv) (hB : ∀ i, (B i).Ok φ) (hc : ParamsIn B ratR) (hm : ∀ i, (m i).In φ)
    (h : newtonSys φ piv e (fun i j => (e i).pd j) B m = some N) : NewtonSysRight e B m N ratR :=
  (C74_newton_safe_partial ht (fun i j => (e i).tanSafe_pd j ((ht i).self fun k => (hB k).1)) hB hm h).2 _ hc IsJacobian.auto

/-- The constant occurs in the formula or in the formulas of its derivatives. -/
def UsesConst (e : Expr (Fin n ⊕ ℚ)) (q : ℚ) : Prop := .inr q ∈ e.vars ∨ ∃ j, .inr q ∈ (e.pd j).vars

/-- **Quadratic convergence**: near a point at which every operation of the formula has a derivative, the mean value form with these
derivatives gives a result on every small box, which exceeds the range by at most a multiple of the square of the width, of the width of the
constants and of the rounding unit. -/
theorem C77_quadratic {t : Fin n → ℝ} (he : e.SmoothAt (Sum.elim t ratR)) :
    ∃ K r M : ℝ, 0 < r ∧ ∀ φ : Fmt, φ.relUnit ≤ r → M ≤ φ.maxFin → ∀ B : Fin n ⊕ ℚ → DItv, (∀ i, (B i).Ok φ) →
      (∀ i, (B (.inl i)).dec = .com) → (∀ q, UsesConst e q → (B (.inr q)).dec = .com) →
      ∀ δ τ : ℝ, 0 ≤ δ → δ ≤ r → 0 ≤ τ → τ ≤ r → (∀ i, ∀ a ∈ (B (.inl i)).set, |a - t i| ≤ r) →
      (∀ i, ∀ a ∈ (B (.inl i)).set, ∀ a' ∈ (B (.inl i)).set, |a - a'| ≤ δ) → (∀ q, UsesConst e q → ∀ a ∈ (B (.inr q)).set, |a - q| ≤ τ) →
      ∃ R, meanValue φ e (fun j => e.pd j) B = some R ∧ ∀ v ∈ R.set,
        (∃ u ∈ unknowns B, e.val (Sum.elim u ratR) - K * (δ ^ 2 + τ + φ.relUnit) ≤ v) ∧
        ∃ u ∈ unknowns B, v ≤ e.val (Sum.elim u ratR) + K * (δ ^ 2 + τ + φ.relUnit) := by
  classical
  let c : ℚ → ℝ := fun q => if UsesConst e q then q else 0
  have ve : ∀ w : Fin n → ℝ, e.val (Sum.elim w c) = e.val (Sum.elim w ratR) := fun w => Expr.val_congr (by
    rintro (i | q) hi
    · rfl
    · exact if_pos (.inl hi))
  have vg : ∀ j, ∀ w : Fin n → ℝ, (e.pd j).val (Sum.elim w c) = (e.pd j).val (Sum.elim w ratR) := fun j w => Expr.val_congr (by
    rintro (i | q) hi
    · rfl
    · exact if_pos (.inr ⟨j, hi⟩))
  have hte : e.TameAt (Sum.elim t c) := Expr.tameAt_congr (by
    rintro (i | q) hi
    · rfl
    · exact (if_pos (.inl hi)).symm) he.tame
  have htg : ∀ j, (e.pd j).TameAt (Sum.elim t ratR) := fun j => he.pd (fun q => rfl) j
  have htg' : ∀ j, (e.pd j).TameAt (Sum.elim t c) := fun j => Expr.tameAt_congr (by
    rintro (i | q) hi
    · rfl
    · exact (if_pos (.inr ⟨j, hi⟩)).symm) (htg j)
  obtain ⟨K, r, M, hr, hQ⟩ := C76_quadratic hte htg'
  have hnear : ∀ᶠ u in nhds t, ∀ j, Sum.elim u ratR ∈ (e.pd j).dom := Filter.eventually_all.mpr fun j => (dom_near77 (htg j)).1
  obtain ⟨s, hs, hball⟩ := Metric.nhds_basis_closedBall.mem_iff.mp hnear
  refine ⟨K, min r s, M, lt_min hr hs, fun φ hφ hM B hB hc1 hc2 δ τ hδ hδr hτ hτr h1 h2 h3 => ?_⟩
  have hz : (DItv.mk ⟨.fin 0, .fin 0⟩ .com).Ok φ := ⟨(rep_point φ.rep_zero).1, by simp, by simp, by simp⟩
  let B' : Fin n ⊕ ℚ → DItv := fun i => match i with
    | .inl i => B (.inl i)
    | .inr q => if UsesConst e q then B (.inr q) else ⟨⟨.fin 0, .fin 0⟩, .com⟩
  have eB : meanValue φ e (fun j => e.pd j) B = meanValue φ e (fun j => e.pd j) B' :=
    meanValue_congr (fun i => rfl) fun q hq => (if_pos hq).symm
  have hU : unknowns B' = unknowns B := rfl
  obtain ⟨R, hR, hv⟩ := hQ φ (hφ.trans (min_le_left _ _)) hM B' (by
      rintro (i | q)
      · exact hB _
      · show (if UsesConst e q then B (.inr q) else _).Ok φ
        split_ifs
        · exact hB _
        · exact hz) (by
      rintro (i | q)
      · exact hc1 i
      · show (if UsesConst e q then B (.inr q) else _).dec = .com
        split_ifs with hq
        · exact hc2 q hq
        · rfl) δ τ hδ (hδr.trans (min_le_left _ _)) hτ (hτr.trans (min_le_left _ _)) (fun i a ha => (h1 i a ha).trans (min_le_left _ _)) h2 (by
      intro q a ha
      change a ∈ (if UsesConst e q then B (.inr q) else (⟨⟨.fin 0, .fin 0⟩, .com⟩ : DItv)).set at ha
      show |a - if UsesConst e q then (q:ℝ) else 0| ≤ τ
      split_ifs at ha ⊢ with hq
      · exact h3 q hq a ha
      · simp only [DItv.set, Itv.set, FP.BelowR, FP.AboveR, Set.mem_ofPred_eq] at ha
        push_cast at ha
        rw [le_antisymm ha.2 ha.1]
        simpa using hτ) (by
      intro u hu
      simp only [ve, vg]
      refine (e.pd_right u (hball ?_)).hasFDerivWithinAt
      rw [Metric.mem_closedBall, dist_pi_le_iff hs.le]
      exact fun i => (h1 i _ (hu i)).trans (min_le_right _ _))
  rw [eB]
  refine ⟨R, hR, fun v hv' => ?_⟩
  have := hv v hv'
  simp only [ve, hU] at this
  exact this

/-! ### Example -/

/-- `x - x²`. -/
def parab77 : Expr (Fin 1 ⊕ ℚ) := .bin .sub (.var (.inl 0)) (.un .sqr (.var (.inl 0)))

/-- `x` in `[3/8, 5/8]`. -/
def parabBox77 : Fin 1 ⊕ ℚ → DItv
  | .inl _ => ⟨⟨.fin (3 / 8), .fin (5 / 8)⟩, .com⟩
  | .inr q => if q = 1 then ⟨⟨.fin 1, .fin 1⟩, .com⟩ else if q = 2 then ⟨⟨.fin 2, .fin 2⟩, .com⟩ else ⟨⟨.ninf, .pinf⟩, .dac⟩

theorem parabBox_ok77 : (∀ i, (parabBox77 i).Ok binary64) ∧ ParamsIn parabBox77 ratR := by
  constructor
  · rintro (i | q)
    · exact ⟨Itv.ok_of_okb (show Itv.okb binary64 ⟨_, _⟩ = true by decide +kernel), by simp [parabBox77], by simp [parabBox77], by simp [parabBox77]⟩
    · show (ite _ _ _ : DItv).Ok binary64
      split_ifs
      · exact ⟨Itv.ok_of_okb (show Itv.okb binary64 ⟨_, _⟩ = true by decide +kernel), by simp, by simp, by simp⟩
      · exact ⟨Itv.ok_of_okb (show Itv.okb binary64 ⟨_, _⟩ = true by decide +kernel), by simp, by simp, by simp⟩
      · exact ⟨Itv.ok_of_okb (show Itv.okb binary64 ⟨_, _⟩ = true by decide +kernel), by simp, by simp, by simp⟩
  · intro q
    show (q:ℝ) ∈ (ite _ _ _ : DItv).set
    split_ifs with h1 h2
    · subst h1; simp [DItv.set, Itv.set, FP.BelowR, FP.AboveR]
    · subst h2; simp [DItv.set, Itv.set, FP.BelowR, FP.AboveR]
    · simp [DItv.set, Itv.set, FP.BelowR, FP.AboveR]

/-- The derivative of `x - x²` on `[3/8, 5/8]`, made and evaluated by the program, is `[-1/4, 1/4]` with decoration `com`. -/
theorem parab_deriv77 (j : Fin 1) : (parab77.pd j).evalD binary64 parabBox77 = ⟨⟨.fin (-1 / 4), .fin (1 / 4)⟩, .com⟩ := by
  obtain rfl : j = 0 := Fin.fin_one_eq_zero j
  show binary64.subD (parabBox77 (.inr 1)) (binary64.mulD (binary64.mulD (parabBox77 (.inr 2)) (parabBox77 (.inl 0))) (parabBox77 (.inr 1))) = _
  decide +kernel

/-- The hypotheses of `C77_derivatives_partial` hold for it. -/
example (u : Fin 1 → ℝ) (hu : u ∈ unknowns parabBox77) : ∃ D : Fin 1 → ℝ,
    HasFDerivAt (fun w : Fin 1 → ℝ => parab77.val (Sum.elim w ratR)) (∑ j, D j • ContinuousLinearMap.proj j : (Fin 1 → ℝ) →L[ℝ] ℝ) u ∧
    ∀ j, D j ∈ Icc (-1 / 4 : ℝ) (1 / 4) := by
  have h := C77_derivatives_partial (φ := binary64) (e := parab77) (Or.inr ⟨trivial, by decide, trivial⟩) parabBox_ok77.1 parabBox_ok77.2
    (fun j => by rw [parab_deriv77]; decide) hu
  simpa [parab_deriv77, Itv.set, FP.BelowR, FP.AboveR] using h

/-- The hypothesis of `C77_quadratic` holds for `|x| / x` away from 0. -/
example (t : Fin 1 → ℝ) (h : t 0 ≠ 0) : (Expr.bin .div (.un .abs (.var (.inl 0))) (.var (.inl 0)) : Expr (Fin 1 ⊕ ℚ)).SmoothAt (Sum.elim t ratR) := by
  simp [Expr.SmoothAt, Op1.smooth, Op2.smooth, Op2.tame, Expr.val, h]

/-- `x² = 2`. -/
def rootEq77 : Fin 1 → Expr (Fin 1 ⊕ ℚ) := fun _ => .bin .sub (.un .sqr (.var (.inl 0))) (.cst 2)

/-- `x` in `[1, 2]`. -/
def rootBox77 : Fin 1 ⊕ ℚ → DItv
  | .inl _ => ⟨⟨.fin 1, .fin 2⟩, .com⟩
  | .inr q => if q = 0 then ⟨⟨.fin 0, .fin 0⟩, .com⟩ else if q = 1 then ⟨⟨.fin 1, .fin 1⟩, .com⟩ else
      if q = 2 then ⟨⟨.fin 2, .fin 2⟩, .com⟩ else ⟨⟨.ninf, .pinf⟩, .dac⟩

theorem rootBox77_ok : ∀ i, (rootBox77 i).Ok binary64 := by
    rintro (i | q)
    · exact ⟨Itv.ok_of_okb (show Itv.okb binary64 ⟨_, _⟩ = true by decide +kernel), by simp [rootBox77], by simp [rootBox77], by simp [rootBox77]⟩
    · show (ite _ _ _ : DItv).Ok binary64
      split_ifs <;> exact ⟨Itv.ok_of_okb (show Itv.okb binary64 ⟨_, _⟩ = true by decide +kernel), by simp, by simp, by simp⟩

theorem rootBox77_par : ParamsIn rootBox77 ratR := by
    intro q
    show (q:ℝ) ∈ (ite _ _ _ : DItv).set
    split_ifs with h1 h2 h3
    · subst h1; simp [DItv.set, Itv.set, FP.BelowR, FP.AboveR]
    · subst h2; simp [DItv.set, Itv.set, FP.BelowR, FP.AboveR]
    · subst h3; simp [DItv.set, Itv.set, FP.BelowR, FP.AboveR]
    · simp [DItv.set, Itv.set, FP.BelowR, FP.AboveR]

theorem rootNewton77 : ∃ N, newtonSys binary64 (fun _ _ => 0) rootEq77 (fun i j => (rootEq77 i).pd j) rootBox77 (fun _ => .fin (3 / 2)) = some N ∧
      newtonSysTest rootBox77 (fun _ => .fin (3 / 2)) N = true := by
  have ed : ∀ i, (rootEq77 i).evalD binary64 rootBox77 = binary64.subD (binary64.sqrD (rootBox77 (.inl 0))) (rootBox77 (.inr 2)) := fun _ => rfl
  have ej : ∀ i j, ((rootEq77 i).pd j).evalD binary64 rootBox77 = binary64.subD (binary64.mulD (binary64.mulD (rootBox77 (.inr 2))
      (rootBox77 (.inl 0))) (rootBox77 (.inr 1))) (rootBox77 (.inr 0)) := fun i j => by
    obtain rfl : j = 0 := Fin.fin_one_eq_zero j
    rfl
  have ee : ∀ i, (rootEq77 i).eval binary64 (pointBox rootBox77 fun _ => .fin (3 / 2)) =
      binary64.subI (binary64.sqrI ⟨.fin (3 / 2), .fin (3 / 2)⟩) (rootBox77 (.inr 2)).itv := fun _ => rfl
  have : ((gauss binary64 (fun _ _ => 0) 1 (fun i j => (((rootEq77 i).pd j).evalD binary64 rootBox77).itv)
      fun i => (rootEq77 i).eval binary64 (pointBox rootBox77 fun _ => .fin (3 / 2))).map
    fun d => newtonSysTest rootBox77 (fun _ => .fin (3 / 2)) fun i => binary64.subI ⟨.fin (3 / 2), .fin (3 / 2)⟩ (d i)) = some true := by
    simp only [ej, ee]
    decide +kernel
  obtain ⟨d, h1, h2⟩ := Option.map_eq_some_iff.mp this
  refine ⟨_, ?_, h2⟩
  unfold newtonSys
  rw [if_pos, h1]
  · rfl
  · refine ⟨fun i => ?_, fun i j => ?_, fun i => ?_⟩
    · rw [ed]; decide +kernel
    · rw [ej]; decide +kernel
    · revert i; decide +kernel

/-- The hypotheses of `C77_newton_partial` hold for it, and the test is successful: `x² = 2` has one and only one solution in `[1, 2]`. -/
example : ∃! u : Fin 1 → ℝ, u 0 ∈ Icc (1:ℝ) 2 ∧ u 0 ^ 2 = 2 := by
  have ok := rootBox77_ok
  have par := rootBox77_par
  obtain ⟨N, hN, hT⟩ := rootNewton77
  have h := (C77_newton_partial (e := rootEq77) (Or.inr fun i => ⟨⟨by decide, trivial⟩, trivial⟩) ok par (fun _ => FP.in_of_inb (by decide +kernel)) hN).2.2 hT
  have hU : ∀ u, u ∈ unknowns rootBox77 ↔ u 0 ∈ Icc (1:ℝ) 2 := by
    intro u
    refine Fin.forall_fin_one.trans ?_
    simp [rootBox77, DItv.set, Itv.set, FP.BelowR, FP.AboveR]
  have hS : ∀ u, Solves rootEq77 ratR u ↔ u 0 ^ 2 = 2 := by
    intro u
    simp [Solves, rootEq77, Expr.cst, Expr.val, Op1.fn, Op2.fn, sub_eq_zero]
  simpa only [hU, hS] using h

/-! ### False of `double` with the tangent -/

/-- An interval around `π`. -/
def tanBox77 : Fin 1 ⊕ ℚ → DItv
  | .inl _ => ⟨tanWitness, .com⟩
  | .inr q => if q = 1 then ⟨⟨.fin 1, .fin 1⟩, .com⟩ else ⟨⟨.ninf, .pinf⟩, .dac⟩

/-- The full statement is **false** of `double`, as a consequence of C11: the interval for the derivative of the tangent on an interval
with `π` contains no number below 2, but the derivative at `π` is 1. -/
theorem C77_false : ¬ C77_full binary64 := by
  intro hf
  obtain ⟨d1, hd, hS⟩ := tan_facts74
  have ok : ∀ i, (tanBox77 i).Ok binary64 := by
    rintro (i | q)
    · exact ⟨tanWitness_ok, by simp [tanBox77, tanWitness], by simp [tanBox77], by simp [tanBox77, tanWitness]⟩
    · show (ite _ _ _ : DItv).Ok binary64
      split_ifs
      · exact ⟨Itv.ok_of_okb (show Itv.okb binary64 ⟨_, _⟩ = true by decide +kernel), by simp, by simp, by simp⟩
      · exact ⟨Itv.ok_of_okb (show Itv.okb binary64 ⟨_, _⟩ = true by decide +kernel), by simp, by simp, by simp⟩
  have par : ParamsIn tanBox77 ratR := by
    intro q
    show (q:ℝ) ∈ (ite _ _ _ : DItv).set
    split_ifs with h1
    · subst h1; simp [DItv.set, Itv.set, FP.BelowR, FP.AboveR]
    · simp [DItv.set, Itv.set, FP.BelowR, FP.AboveR]
  have o1 : (DItv.mk ⟨.fin 1, .fin 1⟩ .com).Ok binary64 := ok (.inr 1)
  have m1 : ∀ z ∈ (Itv.mk (.fin 1) (.fin 1)).set, z = 1 := fun z hz => by
    simp only [Itv.set, FP.BelowR, FP.AboveR, Set.mem_ofPred_eq] at hz
    push_cast at hz
    exact le_antisymm hz.2 hz.1
  have ot := Op1.decd_ok .tan (ok (.inl 0))
  simp only [Op1.decd] at ot
  obtain ⟨s1, s2⟩ := C20_sqr ot (not_ill74 hd)
  have os := Op1.decd_ok .sqr ot
  simp only [Op1.decd] at os
  have ds := un74 s2 ot hd
  obtain ⟨j1, j2⟩ := C20_add o1 os (by decide) (not_ill74 ds)
  have dj := bin74 j2 o1 os (by decide) ds
  have oj := Op2.decd_ok .add o1 os
  simp only [Op2.decd] at oj
  obtain ⟨l1, l2⟩ := C20_mul oj o1 (not_ill74 dj) (by decide)
  have dl := bin74 l2 oj o1 dj (by decide)
  have r1 : binary64.Rep 1 := ⟨1, 0, by norm_num, by decide, by decide, by decide⟩
  have r2 : binary64.Rep 2 := ⟨2, 0, by norm_num, by decide, by decide, by decide⟩
  have w1 : ∀ z ∈ (binary64.sqrD (binary64.tanD (tanBox77 (.inl 0)))).itv.set, ((1:ℚ):ℝ) ≤ z := by
    rw [s1]
    refine (C04_sqr binary64 ot.1).ge r1 ?_
    rintro _ ⟨a, ha, rfl⟩
    have := hS a (by rw [← d1]; exact ha)
    push_cast
    nlinarith
  have w2 : ∀ z ∈ (binary64.addD ⟨⟨.fin 1, .fin 1⟩, .com⟩ (binary64.sqrD (binary64.tanD (tanBox77 (.inl 0))))).itv.set, ((2:ℚ):ℝ) ≤ z := by
    rw [j1]
    refine (C01_add binary64 o1.1 os.1).ge r2 ?_
    rintro _ ⟨a, ha, b, hb, rfl⟩
    have := w1 b hb
    rw [m1 a ha]
    push_cast at this ⊢
    linarith
  have w3 : ∀ z ∈ (binary64.mulD (binary64.addD ⟨⟨.fin 1, .fin 1⟩, .com⟩ (binary64.sqrD (binary64.tanD (tanBox77 (.inl 0)))))
      ⟨⟨.fin 1, .fin 1⟩, .com⟩).itv.set, ((2:ℚ):ℝ) ≤ z := by
    rw [l1]
    refine (C02_mul binary64 oj.1 o1.1).ge r2 ?_
    rintro _ ⟨a, ha, b, hb, rfl⟩
    have := w2 a ha
    rw [m1 b hb]
    push_cast at this ⊢
    linarith
  have hpi : Real.pi ∈ tanWitness.set := by
    have h1 := Real.pi_gt_three
    have h2 := Real.pi_le_four
    obtain ⟨b, hx, ha, hb, hbv, -⟩ := tan_witness_branch
    exact hx.mem.mpr ⟨by rw [ha]; exact_mod_cast (by linarith), by rw [hb, hbv]; exact_mod_cast h2.trans (by norm_num)⟩
  obtain ⟨D, hD, hm⟩ := hf 1 (.un .tan (.var (.inl 0))) tanBox77 ok par
    (fun j => by obtain rfl : j = 0 := Fin.fin_one_eq_zero j; exact dl) (fun _ => Real.pi) (fun _ => hpi)
  have h2 := w3 _ (hm 0)
  have hdt : HasDerivAt (fun s : ℝ => Real.tan s) (D 0) Real.pi := by
    have hl : HasDerivAt (fun s : ℝ => fun _ : Fin 1 => s) (fun _ => (1:ℝ)) Real.pi := hasDerivAt_pi.mpr fun _ => hasDerivAt_id _
    have := HasFDerivAt.comp_hasDerivAt (l := fun w : Fin 1 → ℝ => (Expr.un .tan (.var (.inl 0)) : Expr (Fin 1 ⊕ ℚ)).val (Sum.elim w ratR))
      (f := fun s : ℝ => fun _ : Fin 1 => s) Real.pi hD hl
    refine HasDerivAt.congr_deriv (f' := _) this ?_
    simp
  have h3 := hdt.unique (Real.hasDerivAt_tan (by simp))
  rw [h3] at h2
  norm_num at h2

end P1788
