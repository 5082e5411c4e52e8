import Verif.Props.C78

/-!
# C78: sharpness with automatic differentiation, an example, and the failure with the tangent
-/

namespace P1788
open Set
variable {φ : Fmt} {n : ℕ}

theorem monoRange_congr {κ : Type} {e : Expr (Fin n ⊕ κ)} {g : Fin n → Expr (Fin n ⊕ κ)} {B B' : Fin n ⊕ κ → DItv}
    (h : ∀ i, B (.inl i) = B' (.inl i)) (h' : ∀ k, (.inr k ∈ e.vars ∨ ∃ j, .inr k ∈ (g j).vars) → B (.inr k) = B' (.inr k)) :
    monoRange φ e g B = monoRange φ e g B' := by
  have e1 : e.evalD φ B = e.evalD φ B' := Expr.evalD_congr (by
    rintro (i | k) hi
    · exact h i
    · exact h' k (.inl hi))
  have e2 : ∀ j, (g j).evalD φ B = (g j).evalD φ B' := fun j => Expr.evalD_congr (by
    rintro (i | k) hi
    · exact h i
    · exact h' k (.inr ⟨j, hi⟩))
  have e3 : ∀ s, e.eval φ (sidesBox φ B s g) = e.eval φ (sidesBox φ B' s g) := fun s => Expr.eval_congr (by
    rintro (i | k) hi
    · simp only [sidesBox, h, e2]
    · simp only [sidesBox, h' k (.inl hi)])
  unfold monoRange
  simp only [e1, e2, e3]

/-- **Only rounding errors are left** near a point at which every operation has a derivative and no partial derivative is 0. -/
theorem C78_sharp_auto {e : Expr (Fin n ⊕ ℚ)} {t : Fin n → ℝ} (he : e.SmoothAt (Sum.elim t ratR))
    {D : Fin n → ℝ} (hD : HasFDerivAt (fun w : Fin n → ℝ => e.val (Sum.elim w ratR)) (∑ j, D j • ContinuousLinearMap.proj j : (Fin n → ℝ) →L[ℝ] ℝ) t)
    (h0 : ∀ j, D j ≠ 0) :
    ∃ K r M : ℝ, 0 < r ∧ ∀ φ : Fmt, φ.relUnit ≤ r → M ≤ φ.maxFin → ∀ B : Fin n ⊕ ℚ → DItv, (∀ i, (B i).Ok φ) →
      (∀ i, (B (.inl i)).dec = .com) → (∀ q, UsesConst e q → (B (.inr q)).dec = .com) → ∀ τ : ℝ, 0 ≤ τ → τ ≤ r →
      (∀ i, ∀ a ∈ (B (.inl i)).set, |a - t i| ≤ r) → (∀ q, UsesConst e q → ∀ a ∈ (B (.inr q)).set, |a - q| ≤ τ) →
      ∃ R, monoRange φ e (fun j => e.pd j) B = some R ∧ ∀ v ∈ R.set,
        (∃ u ∈ unknowns B, e.val (Sum.elim u ratR) - K * (τ + φ.relUnit) ≤ v) ∧
        ∃ u ∈ unknowns B, v ≤ e.val (Sum.elim u ratR) + K * (τ + φ.relUnit) := by
  classical
  let c : ℚ → ℝ := fun q => if UsesConst e q then q else 0
  have ve : ∀ w : Fin n → ℝ, e.val (Sum.elim w c) = e.val (Sum.elim w ratR) := fun w => Expr.val_congr (by
    rintro (i | q) hi
    · rfl
    · exact if_pos (.inl hi))
  have vg : ∀ j, ∀ w : Fin n → ℝ, (e.pd j).val (Sum.elim w c) = (e.pd j).val (Sum.elim w ratR) := fun j w => Expr.val_congr (by
    rintro (i | q) hi
    · rfl
    · exact if_pos (.inr ⟨j, hi⟩))
  have hte : e.TameAt (Sum.elim t c) := Expr.tameAt_congr (by
    rintro (i | q) hi
    · rfl
    · exact (if_pos (.inl hi)).symm) he.tame
  have htg : ∀ j, (e.pd j).TameAt (Sum.elim t ratR) := fun j => he.pd (fun q => rfl) j
  have htg' : ∀ j, (e.pd j).TameAt (Sum.elim t c) := fun j => Expr.tameAt_congr (by
    rintro (i | q) hi
    · rfl
    · exact (if_pos (.inr ⟨j, hi⟩)).symm) (htg j)
  have hv0 : ∀ j, (e.pd j).val (Sum.elim t c) ≠ 0 := fun j => by
    have h := congrArg (fun L : (Fin n → ℝ) →L[ℝ] ℝ => L (Pi.single j 1))
      ((e.pd_right t fun j => (dom_near77 (htg j)).1.self_of_nhds).unique hD)
    simp [Pi.single_apply] at h
    rw [vg, h]
    exact h0 j
  obtain ⟨K, r, M, hr, hQ⟩ := C78_sharp hte htg' hv0
  refine ⟨K, r, M, hr, fun φ hφ hM B hB hc1 hc2 τ hτ hτr h1 h3 => ?_⟩
  have hz : (DItv.mk ⟨.fin 0, .fin 0⟩ .com).Ok φ := ⟨(rep_point φ.rep_zero).1, by simp, by simp, by simp⟩
  let B' : Fin n ⊕ ℚ → DItv := fun i => match i with
    | .inl i => B (.inl i)
    | .inr q => if UsesConst e q then B (.inr q) else ⟨⟨.fin 0, .fin 0⟩, .com⟩
  have eB : monoRange φ e (fun j => e.pd j) B = monoRange φ e (fun j => e.pd j) B' :=
    monoRange_congr (fun i => rfl) fun q hq => (if_pos hq).symm
  have hU : unknowns B' = unknowns B := rfl
  obtain ⟨R, hR, hv⟩ := hQ φ hφ hM B' (by
      rintro (i | q)
      · exact hB _
      · show (if UsesConst e q then B (.inr q) else _).Ok φ
        split_ifs
        · exact hB _
        · exact hz) (by
      rintro (i | q)
      · exact hc1 i
      · show (if UsesConst e q then B (.inr q) else _).dec = .com
        split_ifs with hq
        · exact hc2 q hq
        · rfl) τ hτ hτr h1 (by
      intro q a ha
      change a ∈ (if UsesConst e q then B (.inr q) else (⟨⟨.fin 0, .fin 0⟩, .com⟩ : DItv)).set at ha
      show |a - if UsesConst e q then (q:ℝ) else 0| ≤ τ
      split_ifs at ha ⊢ with hq
      · exact h3 q hq a ha
      · simp only [DItv.set, Itv.set, FP.BelowR, FP.AboveR, Set.mem_ofPred_eq] at ha
        push_cast at ha
        rw [le_antisymm ha.2 ha.1]
        simpa using hτ)
  rw [eB]
  refine ⟨R, hR, fun v hv' => ?_⟩
  have := hv v hv'
  simp only [ve, hU] at this
  exact this

/-! ### Example -/

/-- `x` in `[1, 2]`. -/
def parabBox78 : Fin 1 ⊕ ℚ → DItv
  | .inl _ => ⟨⟨.fin 1, .fin 2⟩, .com⟩
  | .inr q => parabBox77 (.inr q)

theorem parabBox_ok78 : (∀ i, (parabBox78 i).Ok binary64) ∧ ParamsIn parabBox78 ratR := by
  constructor
  · rintro (i | q)
    · exact ⟨Itv.ok_of_okb (show Itv.okb binary64 ⟨_, _⟩ = true by decide +kernel), by simp [parabBox78], by simp [parabBox78], by simp [parabBox78]⟩
    · exact parabBox_ok77.1 (.inr q)
  · exact parabBox_ok77.2

theorem parab_deriv78 (j : Fin 1) : (parab77.pd j).evalD binary64 parabBox78 = ⟨⟨.fin (-3), .fin (-1)⟩, .com⟩ := by
  obtain rfl : j = 0 := Fin.fin_one_eq_zero j
  show binary64.subD (parabBox78 (.inr 1)) (binary64.mulD (binary64.mulD (parabBox78 (.inr 2)) (parabBox78 (.inl 0))) (parabBox78 (.inr 1))) = _
  decide +kernel

/-- The evaluation of `x - x²` on `[1, 2]` is `[-3, 1]`. -/
theorem parab_eval78 : parab77.evalD binary64 parabBox78 = ⟨⟨.fin (-3), .fin 1⟩, .com⟩ := by
  show binary64.subD (parabBox78 (.inl 0)) (binary64.sqrD (parabBox78 (.inl 0))) = _
  decide +kernel

/-- The result of the monotonicity test is `[-2, 0]`. -/
theorem parab_mono78 : monoRange binary64 parab77 (fun j => parab77.pd j) parabBox78 = some ⟨.fin (-2), .fin 0⟩ := by
  unfold monoRange
  rw [if_pos ⟨by rw [parab_eval78]; decide, fun j => by rw [parab_deriv78]; decide⟩, parab_eval78]
  have e1 : parab77.eval binary64 (sidesBox binary64 parabBox78 Itv.lowSide fun j => parab77.pd j) = ⟨.fin (-2), .fin (-2)⟩ := by
    show binary64.subI (Itv.lowSide _ ((parab77.pd 0).evalD binary64 parabBox78).itv)
      (binary64.sqrI (Itv.lowSide _ ((parab77.pd 0).evalD binary64 parabBox78).itv)) = _
    rw [parab_deriv78]
    decide +kernel
  have e2 : ∃ z, parab77.eval binary64 (sidesBox binary64 parabBox78 Itv.highSide fun j => parab77.pd j) = z ∧
      ((Itv.mk (.fin (-2)) (.fin (-2))).hull z).inter ⟨.fin (-3), .fin 1⟩ = ⟨.fin (-2), .fin 0⟩ := by
    refine ⟨_, rfl, ?_⟩
    show ((Itv.mk (.fin (-2)) (.fin (-2))).hull (binary64.subI (Itv.highSide _ ((parab77.pd 0).evalD binary64 parabBox78).itv)
      (binary64.sqrI (Itv.highSide _ ((parab77.pd 0).evalD binary64 parabBox78).itv)))).inter ⟨.fin (-3), .fin 1⟩ = _
    rw [parab_deriv78]
    decide +kernel
  obtain ⟨z, e2, e3⟩ := e2
  rw [e1, e2, e3]

theorem parab_min78 : minBox binary64 parab77 (fun j => parab77.pd j) parabBox78 =
    some (sidesBox binary64 parabBox78 Itv.minSide fun j => parab77.pd j) ∧
    sidesBox binary64 parabBox78 Itv.minSide (fun j => parab77.pd j) (.inl 0) = ⟨.fin 2, .fin 2⟩ := by
  constructor
  · unfold minBox
    rw [if_pos ⟨by rw [parab_eval78]; decide, fun j => by rw [parab_deriv78]; decide⟩]
  · show Itv.minSide _ ((parab77.pd 0).evalD binary64 parabBox78).itv = _
    rw [parab_deriv78]
    decide +kernel

/-- The hypotheses of `C78_auto_partial` hold for it: `x - x²` is between -2 and 0 on `[1, 2]`, and smallest at 2 only. -/
example : (∀ x ∈ Icc (1:ℝ) 2, x - x ^ 2 ∈ Icc (-2:ℝ) 0) ∧
    ∀ x ∈ Icc (1:ℝ) 2, (∀ y ∈ Icc (1:ℝ) 2, x - x ^ 2 ≤ y - y ^ 2) → x = 2 := by
  obtain ⟨h1, h2⟩ := C78_auto_partial (φ := binary64) (e := parab77) (Or.inr ⟨trivial, by decide, trivial⟩) parabBox_ok78.1 parabBox_ok78.2
  have hU : ∀ u, u ∈ unknowns parabBox78 ↔ u 0 ∈ Icc (1:ℝ) 2 := by
    intro u
    refine Fin.forall_fin_one.trans ?_
    simp [parabBox78, DItv.set, Itv.set, FP.BelowR, FP.AboveR]
  constructor
  · intro x hx
    have := ((h1 _ parab_mono78).2 (fun _ => x) ((hU _).mpr hx)).2
    simpa [parab77, Expr.val, Op1.fn, Op2.fn, Itv.set, FP.BelowR, FP.AboveR] using this
  · intro x hx hm
    have := (h2 _ parab_min78.1).2 (fun _ => x) ((hU _).mpr hx) (fun v hv => by
      simpa [parab77, Expr.val, Op1.fn, Op2.fn] using hm (v 0) ((hU v).mp hv)) (.inl 0)
    rw [parab_min78.2] at this
    simp only [Itv.set, FP.BelowR, FP.AboveR, Set.mem_ofPred_eq, Sum.elim_inl] at this
    push_cast at this
    exact le_antisymm this.2 this.1

/-- The hypotheses of `C78_sharp_auto` hold for it. -/
example : parab77.SmoothAt (Sum.elim (fun _ => 1) ratR) ∧ HasFDerivAt (fun w : Fin 1 → ℝ => parab77.val (Sum.elim w ratR))
    (∑ j, (fun _ => (-1:ℝ)) j • ContinuousLinearMap.proj j : (Fin 1 → ℝ) →L[ℝ] ℝ) (fun _ => 1) := by
  have hs : parab77.SmoothAt (Sum.elim (fun _ => 1) ratR) := by
    simp [parab77, Expr.SmoothAt, Op1.smooth, Op1.tame, Op2.smooth, Op2.tame]
  refine ⟨hs, (parab77.pd_right _ fun j => (dom_near77 (hs.pd (fun q => rfl) j)).1.self_of_nhds).congr_fderiv ?_⟩
  ext v
  simp [parab77, Expr.pd, Op1.dv, Op2.dv, Expr.val, Op2.fn, Expr.cst]
  try ring

/-! ### False of `double` with the tangent -/

/-- The full statement is **false** of `double`, as a consequence of C11. -/
theorem C78_false : ¬ C78_full binary64 := by
  intro hf
  obtain ⟨d1, hd, hS⟩ := tan_facts74
  have ok : ∀ i, (tanBox76 i).Ok binary64 := by
    rintro (_ | _)
    · exact ⟨tanWitness_ok, by simp [tanBox76, tanWitness], by simp [tanBox76], by simp [tanBox76, tanWitness]⟩
    · exact ⟨Itv.ok_of_okb (show Itv.okb binary64 ⟨_, _⟩ = true by decide +kernel), by simp [tanBox76], by simp [tanBox76], by simp [tanBox76]⟩
  have ot := Op1.decd_ok .tan (ok (.inl 0))
  simp only [Op1.decd] at ot
  obtain ⟨s1, s2⟩ := C20_sqr ot (not_ill74 hd)
  have os := Op1.decd_ok .sqr ot
  simp only [Op1.decd] at os
  have ds := un74 s2 ot hd
  obtain ⟨j1, j2⟩ := C20_add (ok (.inr ())) os (by decide) (not_ill74 ds)
  have dj := bin74 j2 (ok (.inr ())) os (by decide) ds
  have hR : monoRange binary64 tanEx76 tanGrad76 tanBox76 = some (((tanEx76.eval binary64 (sidesBox binary64 tanBox76 Itv.lowSide tanGrad76)).hull
      (tanEx76.eval binary64 (sidesBox binary64 tanBox76 Itv.highSide tanGrad76))).inter (tanEx76.evalD binary64 tanBox76).itv) := by
    unfold monoRange
    rw [if_pos ⟨hd, fun _ => dj⟩]
  have hpi : Real.pi ∈ tanWitness.set := by
    have h1 := Real.pi_gt_three
    have h2 := Real.pi_le_four
    obtain ⟨b, hx, ha, hb, hbv, -⟩ := tan_witness_branch
    exact hx.mem.mpr ⟨by rw [ha]; exact_mod_cast (by linarith), by rw [hb, hbv]; exact_mod_cast h2.trans (by norm_num)⟩
  have hgrad : IsGradient tanEx76 tanGrad76 tanBox76 fun _ => 1 := by
    intro u _ hdm
    refine HasFDerivAt.hasFDerivWithinAt ?_
    have hc : Real.cos (u 0) ≠ 0 := by
      have := hdm 0
      simpa [tanGrad76, Expr.dom, Expr.val, Op1.dom, Op2.dom] using this
    have p0 := (ContinuousLinearMap.proj (R := ℝ) (φ := fun _ : Fin 1 => ℝ) 0).hasFDerivAt (x := u)
    refine ((Real.hasDerivAt_tan hc).comp_hasFDerivAt u p0).congr_fderiv ?_
    ext w
    have hv : 1 + Real.tan (u 0) ^ 2 = 1 / Real.cos (u 0) ^ 2 := by
      rw [← Real.inv_one_add_tan_sq hc, one_div, inv_inv]
    simp [tanGrad76, Expr.val, Op1.fn, Op2.fn, hv]
  have hm := (((hf 1 Unit tanEx76 tanGrad76 tanBox76 ok (fun _ => 1)
    (fun k => by simp [tanBox76, DItv.set, Itv.set, FP.BelowR, FP.AboveR]) hgrad).1 _ hR).2 (fun _ => Real.pi) (fun _ => hpi)).2
  have og := fun j => (evalD_ok62 (φ := binary64) (tanGrad76 j) ok).1
  have ol : ∀ j, (sidesBox binary64 tanBox76 Itv.lowSide tanGrad76 j).Ok binary64 := by
    rintro (j | k); exacts [(lowSide78 (ok _).1 (og j)).1, (ok _).1]
  have oh : ∀ j, (sidesBox binary64 tanBox76 Itv.highSide tanGrad76 j).Ok binary64 := by
    rintro (j | k); exacts [(highSide78 (ok _).1 (og j)).1, (ok _).1]
  rw [(C25_intersection (C25_convex_hull (Expr.eval_ok18 _ ol) (Expr.eval_ok18 _ oh)).1
    (show (tanEx76.evalD binary64 tanBox76).itv.Ok binary64 from ot.1)).2] at hm
  have h1 := hm.2
  have := hS _ (by rw [← d1]; exact h1)
  simp [tanEx76, Expr.val, Op1.fn] at this
  linarith

end P1788
