import Verif.Props.C76

/-!
# C76: an example, and the tangent in `double`
-/

namespace P1788
open Set

/-- `x - x²`. -/
def parab76 : Expr (Fin 1 ⊕ Unit) := .bin .sub (.var (.inl 0)) (.un .sqr (.var (.inl 0)))

/-- Its derivative `1 - (x + x)`; the parameter is 1. -/
def parabGrad76 : Fin 1 → Expr (Fin 1 ⊕ Unit) := fun _ => .bin .sub (.var (.inr ())) (.bin .add (.var (.inl 0)) (.var (.inl 0)))

/-- `x` in `[3/8, 5/8]`. -/
def parabBox76 : Fin 1 ⊕ Unit → DItv
  | .inl _ => ⟨⟨.fin (3 / 8), .fin (5 / 8)⟩, .com⟩
  | .inr _ => ⟨⟨.fin 1, .fin 1⟩, .com⟩

theorem parab_deriv76 (u : Fin 1 → ℝ) : HasFDerivAt (fun w : Fin 1 → ℝ => parab76.val (Sum.elim w fun _ => 1))
    (∑ j, (parabGrad76 j).val (Sum.elim u fun _ => 1) • ContinuousLinearMap.proj j : (Fin 1 → ℝ) →L[ℝ] ℝ) u := by
  have p0 := (ContinuousLinearMap.proj (R := ℝ) (φ := fun _ : Fin 1 => ℝ) 0).hasFDerivAt (x := u)
  refine (p0.sub (p0.pow 2)).congr_fderiv ?_
  ext w
  simp [parabGrad76, Expr.val, Op2.fn]
  ring

/-- The mean value form of `x - x²` on `[3/8, 5/8]` in `double` is `[7/32, 9/32]`, its evaluation is `[-1/64, 31/64]`. -/
theorem parab_value76 : meanValue binary64 parab76 parabGrad76 parabBox76 = some ⟨.fin (7 / 32), .fin (9 / 32)⟩ ∧
    (parab76.evalD binary64 parabBox76).itv = ⟨.fin (-1 / 64), .fin (31 / 64)⟩ := by
  have e1 : parab76.evalD binary64 parabBox76 = binary64.subD (parabBox76 (.inl 0)) (binary64.sqrD (parabBox76 (.inl 0))) := rfl
  have e2 : ∀ j, (parabGrad76 j).evalD binary64 parabBox76 =
      binary64.subD (parabBox76 (.inr ())) (binary64.addD (parabBox76 (.inl 0)) (parabBox76 (.inl 0))) := fun _ => rfl
  have e3 : parab76.eval binary64 (pointBox parabBox76 fun i => (parabBox76 (.inl i)).itv.mid binary64) =
      binary64.subI ⟨(parabBox76 (.inl 0)).itv.mid binary64, (parabBox76 (.inl 0)).itv.mid binary64⟩
        (binary64.sqrI ⟨(parabBox76 (.inl 0)).itv.mid binary64, (parabBox76 (.inl 0)).itv.mid binary64⟩) := rfl
  constructor
  · unfold meanValue
    simp only [e1, e2, e3]
    rw [if_pos (by decide +kernel)]
    decide +kernel
  · rw [e1]
    decide +kernel

/-- The hypotheses of `C76_mean_value_partial` hold for it: `x - x²` lies in `[7/32, 9/32]` for `x` in `[3/8, 5/8]`. -/
example : ∀ x ∈ Icc (3 / 8 : ℝ) (5 / 8), x - x ^ 2 ∈ Icc (7 / 32 : ℝ) (9 / 32) := by
  intro x hx
  have ok : ∀ i, (parabBox76 i).Ok binary64 := by
    rintro (_ | _) <;> exact ⟨Itv.ok_of_okb (show Itv.okb binary64 ⟨_, _⟩ = true by decide +kernel), by simp [parabBox76], by simp [parabBox76], by simp [parabBox76]⟩
  have := (C76_mean_value_partial (Or.inr ⟨by simp [parab76, Expr.TanFree], fun j => by simp [parabGrad76, Expr.TanFree]⟩) ok parab_value76.1).2
    (fun _ => 1) (fun k => by simp [parabBox76, DItv.set, Itv.set, FP.BelowR, FP.AboveR])
    (fun u _ _ => (parab_deriv76 u).hasFDerivWithinAt) (fun _ => x)
    (fun i => by simpa [parabBox76, DItv.set, Itv.set, FP.BelowR, FP.AboveR] using hx)
  simpa [parab76, Expr.val, Op1.fn, Op2.fn, Itv.set, FP.BelowR, FP.AboveR] using this.2

/-- The hypotheses of `C76_quadratic` hold for it at every point: both formulas are tame. -/
example (x : ℝ) : parab76.TameAt (Sum.elim (fun _ => x) fun _ => 1) ∧ ∀ j, (parabGrad76 j).TameAt (Sum.elim (fun _ => x) fun _ => 1) := by
  simp [parab76, parabGrad76, Expr.TameAt, Op1.tame, Op2.tame]

/-! ### False of `double` with the tangent -/

/-- `tan x` and its derivative `1 + tan² x`. -/
def tanEx76 : Expr (Fin 1 ⊕ Unit) := .un .tan (.var (.inl 0))
def tanGrad76 : Fin 1 → Expr (Fin 1 ⊕ Unit) := fun _ => .bin .add (.var (.inr ())) (.un .sqr (.un .tan (.var (.inl 0))))

/-- An interval around `π`, and 1. -/
def tanBox76 : Fin 1 ⊕ Unit → DItv
  | .inl _ => ⟨tanWitness, .com⟩
  | .inr _ => ⟨⟨.fin 1, .fin 1⟩, .com⟩

/-- The full statement is **false** of `double`, as a consequence of C11: the mean value form of the tangent on an interval with `π` does not
contain `tan π`, because the evaluation does not. -/
theorem C76_false : ¬ C76_full binary64 := by
  intro hf
  obtain ⟨d1, hd, hS⟩ := tan_facts74
  have ok : ∀ i, (tanBox76 i).Ok binary64 := by
    rintro (_ | _)
    · exact ⟨tanWitness_ok, by simp [tanBox76, tanWitness], by simp [tanBox76], by simp [tanBox76, tanWitness]⟩
    · exact ⟨Itv.ok_of_okb (show Itv.okb binary64 ⟨_, _⟩ = true by decide +kernel), by simp [tanBox76], by simp [tanBox76], by simp [tanBox76]⟩
  have ot := Op1.decd_ok .tan (ok (.inl 0))
  simp only [Op1.decd] at ot
  obtain ⟨s1, s2⟩ := C20_sqr ot (not_ill74 hd)
  have os := Op1.decd_ok .sqr ot
  simp only [Op1.decd] at os
  have ds := un74 s2 ot hd
  obtain ⟨j1, j2⟩ := C20_add (ok (.inr ())) os (by decide) (not_ill74 ds)
  have dj := bin74 j2 (ok (.inr ())) os (by decide) ds
  obtain ⟨R, hR⟩ : ∃ R, meanValue binary64 tanEx76 tanGrad76 tanBox76 = some R := by
    unfold meanValue
    simp only
    rw [if_pos ⟨hd, fun _ => dj⟩]
    exact ⟨_, rfl⟩
  obtain ⟨oR, hall⟩ := hf 1 Unit tanEx76 tanGrad76 tanBox76 R ok hR
  have hpi : Real.pi ∈ tanWitness.set := by
    have h1 := Real.pi_gt_three
    have h2 := Real.pi_le_four
    obtain ⟨b, hx, ha, hb, hbv, -⟩ := tan_witness_branch
    exact hx.mem.mpr ⟨by rw [ha]; exact_mod_cast (by linarith), by rw [hb, hbv]; exact_mod_cast h2.trans (by norm_num)⟩
  have hgrad : IsGradient tanEx76 tanGrad76 tanBox76 fun _ => 1 := by
    intro u _ hdm
    refine HasFDerivAt.hasFDerivWithinAt ?_
    have hc : Real.cos (u 0) ≠ 0 := by
      have := hdm 0
      simpa [tanGrad76, Expr.dom, Expr.val, Op1.dom, Op2.dom] using this
    have p0 := (ContinuousLinearMap.proj (R := ℝ) (φ := fun _ : Fin 1 => ℝ) 0).hasFDerivAt (x := u)
    refine ((Real.hasDerivAt_tan hc).comp_hasFDerivAt u p0).congr_fderiv ?_
    ext w
    have hv : 1 + Real.tan (u 0) ^ 2 = 1 / Real.cos (u 0) ^ 2 := by
      rw [← Real.inv_one_add_tan_sq hc, one_div, inv_inv]
    simp [tanGrad76, Expr.val, Op1.fn, Op2.fn, hv]
  have hm := (hall (fun _ => 1) (fun k => by simp [tanBox76, DItv.set, Itv.set, FP.BelowR, FP.AboveR]) hgrad (fun _ => Real.pi) (fun _ => hpi)).2
  obtain ⟨-, -, rfl⟩ := meanValue_some hR
  rw [(C25_intersection ?_ (show (tanEx76.evalD binary64 tanBox76).itv.Ok binary64 from ot.1)).2] at hm
  · have : (tanEx76.evalD binary64 tanBox76).itv = binary64.tanI tanWitness := d1
    have h1 := hm.2
    have := hS _ (by rw [← d1]; exact h1)
    simp [tanEx76, Expr.val, Op1.fn] at this
    linarith
  · exact (fold76 (fun j => (C02_mul binary64 (evalD_ok62 _ ok).1 (C01_sub binary64 (ok _).1 (mid_point76 (ok (.inl j)).1).1).1).1) _
      (Expr.eval_ok18 _ (pointBox76 ok).1)).1

end P1788
