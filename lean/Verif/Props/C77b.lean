import Verif.Props.C77
import Verif.Props.C75c

/-!
# C77: branch and prune with automatic differentiation
-/

namespace P1788
open Set
variable {φ : Fmt} {n : ℕ} {piv : ∀ n, (Fin (n + 1) → Itv) → Fin (n + 1)} {e : Fin n → Expr (Fin n ⊕ ℚ)}

/-- **Branch and prune with these derivatives** (C75), with no assumption about derivatives. -/
theorem C77_solver_partial {X : Fin n ⊕ ℚ → Itv} {S : SolveState n ℚ} (ht : NoCritical φ ∨ ∀ i, (e i).TanFree) (hX : ∀ j, (X j).Ok φ)
    (hc : ∀ q : ℚ, (q:ℝ) ∈ (X (.inr q)).set) (h : SolveRun φ piv e (fun i j => (e i).pd j) ⟨[X], [], []⟩ S) : SolveSound e X S ratR :=
  (C75_solver_partial (ht.imp_right fun h i => ⟨h i, fun j => (e i).tanFree_pd j (h i)⟩) hX h).2 _ ⟨hc, IsJacobian.auto⟩

/-- The same if in the evaluations of the system on parts of `X` the tangent meets no bad interval. -/
theorem C77_solver_safe_partial {X : Fin n ⊕ ℚ → Itv} {S : SolveState n ℚ} (ht : ∀ i, (e i).TanSafeIn φ X) (hX : ∀ j, (X j).Ok φ)
    (hc : ∀ q : ℚ, (q:ℝ) ∈ (X (.inr q)).set) (h : SolveRun φ piv e (fun i j => (e i).pd j) ⟨[X], [], []⟩ S) : SolveSound e X S ratR :=
  (C75_solver_safe_partial ht (fun i j Y hY hs => (e i).tanSafe_pd j (ht i Y hY hs)) hX h).2 _ ⟨hc, IsJacobian.auto⟩

theorem newtonSys_congr {κ : Type} {e : Fin n → Expr (Fin n ⊕ κ)} {J : Fin n → Fin n → Expr (Fin n ⊕ κ)} {B B' : Fin n ⊕ κ → DItv} {m : Fin n → FP}
    (h : ∀ i, B (.inl i) = B' (.inl i)) (h' : ∀ k, ((∃ i, .inr k ∈ (e i).vars) ∨ ∃ i j, .inr k ∈ (J i j).vars) → B (.inr k) = B' (.inr k)) :
    newtonSys φ piv e J B m = newtonSys φ piv e J B' m := by
  have e1 : ∀ i, (e i).evalD φ B = (e i).evalD φ B' := fun i => Expr.evalD_congr (by
    rintro (l | k) hi
    · exact h l
    · exact h' k (.inl ⟨i, hi⟩))
  have e2 : ∀ i j, (J i j).evalD φ B = (J i j).evalD φ B' := fun i j => Expr.evalD_congr (by
    rintro (l | k) hi
    · exact h l
    · exact h' k (.inr ⟨i, j, hi⟩))
  have e3 : ∀ i, (e i).eval φ (pointBox B m) = (e i).eval φ (pointBox B' m) := fun i => Expr.eval_congr (by
    rintro (l | k) hi
    · rfl
    · simp only [pointBox, Sum.elim_inr, h' k (.inl ⟨i, hi⟩)])
  unfold newtonSys
  simp only [e1, e2, e3, h]

/-- **Regular solutions are found**: at a solution at which every operation has a derivative and the derivative of the system is injective,
the Newton test with these derivatives succeeds on every small box that contains the solution away from its boundary, for all precise enough
types. -/
theorem C77_accepts {t : Fin n → ℝ} (he : ∀ i, (e i).SmoothAt (Sum.elim t ratR)) (h0 : ∀ i, (e i).val (Sum.elim t ratR) = 0)
    {D : (Fin n → ℝ) →L[ℝ] (Fin n → ℝ)} (hD : HasFDerivAt (fun (w : Fin n → ℝ) i => (e i).val (Sum.elim w ratR)) D t)
    (hinj : Function.Injective D) :
    ∃ K r M : ℝ, 1 ≤ K ∧ 0 < r ∧ ∀ φ : Fmt, φ.relUnit ≤ r → M ≤ φ.maxFin → ∀ (X : Fin n ⊕ ℚ → Itv) (m : Fin n → ℚ) (δ : ℝ), 0 ≤ δ → δ ≤ r →
      (∀ j, (X j).Ok φ) → (∀ i, ∀ s ∈ (X (.inl i)).set, |s - t i| ≤ r) →
      (∀ q, (∃ i, UsesConst (e i) q) → (X (.inr q)).set.Nonempty ∧ ∀ s ∈ (X (.inr q)).set, |s - q| ≤ δ) →
      (∀ i, φ.Rep (m i) ∧ |m i - t i| ≤ δ) →
      (∀ i, Icc (t i - K * (δ + φ.relUnit)) (t i + K * (δ + φ.relUnit)) ⊆ (X (.inl i)).set) →
      ∃ N, newtonSys φ largestPivot e (fun i j => (e i).pd j) (fun j => (X j).newDec) (fun i => .fin (m i)) = some N ∧
        newtonSysTest (fun j => (X j).newDec) (fun i => .fin (m i)) N = true ∧ ∀ i, ∀ v ∈ (N i).set, |v - t i| ≤ K * (δ + φ.relUnit) := by
  classical
  let U : ℚ → Prop := fun q => ∃ i, UsesConst (e i) q
  let c : ℚ → ℝ := fun q => if U q then q else 0
  have ce : ∀ i, ∀ k ∈ (e i).vars, Sum.elim t ratR k = Sum.elim t c k := by
    rintro i (l | q) hi
    · rfl
    · exact (if_pos ⟨i, .inl hi⟩).symm
  have cg : ∀ i j, ∀ k ∈ ((e i).pd j).vars, Sum.elim t ratR k = Sum.elim t c k := by
    rintro i j (l | q) hi
    · rfl
    · exact (if_pos ⟨i, .inr ⟨j, hi⟩⟩).symm
  have htg : ∀ i j, ((e i).pd j).TameAt (Sum.elim t ratR) := fun i j => (he i).pd (fun q => rfl) j
  have hdet : (Matrix.of fun i j => ((e i).pd j).val (Sum.elim t c)).det ≠ 0 := by
    have hd : ∀ i, HasFDerivAt (fun w : Fin n → ℝ => (e i).val (Sum.elim w ratR))
        (∑ j, ((e i).pd j).val (Sum.elim t ratR) • ContinuousLinearMap.proj j : (Fin n → ℝ) →L[ℝ] ℝ) t := fun i =>
      (e i).pd_right t fun j => (dom_near77 (htg i j)).1.self_of_nhds
    have hD' := hD.unique (hasFDerivAt_pi.mpr hd)
    have : Function.Injective (Matrix.of fun i j => ((e i).pd j).val (Sum.elim t c)).mulVec := by
      have e1 : (Matrix.of fun i j => ((e i).pd j).val (Sum.elim t c)).mulVec = D := by
        funext w i
        rw [hD']
        simp [Matrix.mulVec, dotProduct, Expr.val_congr (cg i _)]
      rw [e1]; exact hinj
    exact ((Matrix.isUnit_iff_isUnit_det _).mp (Matrix.mulVec_injective_iff_isUnit.mp this)).ne_zero
  obtain ⟨K, r, M, hK, hr, hA⟩ := C75_accepts e (fun i j => (e i).pd j) (t := Sum.elim t c) (fun i => Expr.tameAt_congr (ce i) (he i).tame)
    (fun i j => Expr.tameAt_congr (cg i j) (htg i j)) (fun i => by rw [← Expr.val_congr (ce i)]; exact h0 i) hdet
  refine ⟨K, r, M, hK, hr, fun φ hφ hM X m δ hδ hδr hX h1 h2 h3 h4 => ?_⟩
  let X' : Fin n ⊕ ℚ → Itv := fun i => match i with
    | .inl i => X (.inl i)
    | .inr q => if U q then X (.inr q) else ⟨.fin 0, .fin 0⟩
  have z := rep_point (φ := φ) φ.rep_zero
  have eX : ∀ m : Fin n → FP, newtonSys φ largestPivot e (fun i j => (e i).pd j) (fun j => (X j).newDec) m =
      newtonSys φ largestPivot e (fun i j => (e i).pd j) (fun j => (X' j).newDec) m := fun m =>
    newtonSys_congr (fun i => rfl) fun q hq => by
      have hU : U q := by
        rcases hq with ⟨i, hi⟩ | ⟨i, j, hi⟩
        · exact ⟨i, .inl hi⟩
        · exact ⟨i, .inr ⟨j, hi⟩⟩
      show (X (.inr q)).newDec = (if U q then X (.inr q) else ⟨.fin 0, .fin 0⟩ : Itv).newDec
      rw [if_pos hU]
  have hq : ∀ q, (X' (.inr q)).Ok φ ∧ (X' (.inr q)).set.Nonempty ∧ ∀ s ∈ (X' (.inr q)).set, |s - c q| ≤ δ := by
    intro q
    show (if U q then X (.inr q) else ⟨.fin 0, .fin 0⟩ : Itv).Ok φ ∧ (if U q then X (.inr q) else ⟨.fin 0, .fin 0⟩ : Itv).set.Nonempty ∧
      ∀ s ∈ (if U q then X (.inr q) else ⟨.fin 0, .fin 0⟩ : Itv).set, |s - if U q then (q:ℝ) else 0| ≤ δ
    split_ifs with hq
    · exact ⟨hX _, h2 q hq⟩
    · refine ⟨z.1, by rw [z.2]; simp, fun s hs => ?_⟩
      rw [z.2, mem_singleton_iff] at hs
      rw [hs]; simpa using hδ
  obtain ⟨N, hN, hT, hv⟩ := hA φ hφ hM X' m δ hδ hδr (by
      rintro (i | q)
      · exact hX _
      · exact (hq q).1) (by
      rintro (i | q)
      · exact ⟨t i, h4 i ⟨by have := relUnit_pos (φ := φ); nlinarith, by have := relUnit_pos (φ := φ); nlinarith⟩⟩
      · exact (hq q).2.1) (by
      rintro (i | q)
      · exact h1 i
      · exact fun s hs => ((hq q).2.2 s hs).trans hδr) (fun q => (hq q).2.2) h3 h4
  rw [eX]
  exact ⟨N, hN, hT, hv⟩

/-- The hypotheses of `C77_accepts` hold for `x² = 2` at `√2`. -/
example : (∀ i, (rootEq77 i).SmoothAt (Sum.elim (fun _ => √2) ratR)) ∧ (∀ i, (rootEq77 i).val (Sum.elim (fun _ => √2) ratR) = 0) ∧
    ∃ D : (Fin 1 → ℝ) →L[ℝ] (Fin 1 → ℝ), HasFDerivAt (fun (w : Fin 1 → ℝ) i => (rootEq77 i).val (Sum.elim w ratR)) D (fun _ => √2) ∧
      Function.Injective D := by
  have hs : ∀ i, (rootEq77 i).SmoothAt (Sum.elim (fun _ => √2) ratR) := fun i => by
    simp [rootEq77, Expr.cst, Expr.SmoothAt, Op1.smooth, Op1.tame, Op2.smooth, Op2.tame]
  refine ⟨hs, fun i => by simp [rootEq77, Expr.cst, Expr.val, Op1.fn, Op2.fn], _,
    hasFDerivAt_pi.mpr fun i => (rootEq77 i).pd_right _ fun j => (dom_near77 ((hs i).pd (fun q => rfl) j)).1.self_of_nhds, ?_⟩
  intro v w h
  have := congrFun h 0
  simp [rootEq77, Expr.cst, Expr.pd, Op1.dv, Op2.dv, Expr.val, Op2.fn] at this
  funext i
  obtain rfl : i = 0 := Fin.fin_one_eq_zero i
  exact this

/-- The hypotheses of `C77_solver_partial` hold, and its conclusion is not empty, for the search that proves `x² = 2` to have one solution in
`[1, 2]` in one step. -/
example : SolveSound rootEq77 (fun j => (rootBox77 j).itv) ⟨[], [fun j => (rootBox77 j).itv], []⟩ ratR := by
  have hB : (fun j => (rootBox77 j).itv.newDec) = rootBox77 := by
    funext j
    rcases j with i | q
    · rfl
    · simp only [rootBox77]
      split_ifs <;> rfl
  obtain ⟨N, hN, hT⟩ := rootNewton77
  refine C77_solver_partial (piv := fun _ _ => 0) (Or.inr fun i => ⟨⟨by decide, trivial⟩, trivial⟩) (fun j => (rootBox77_ok j).1) rootBox77_par
    (.single (.accept (l₁ := []) (l₂ := []) (N := N) (m := fun _ => .fin (3 / 2)) (fun _ => FP.in_of_inb (by decide +kernel)) ?_ ?_)) <;> rw [hB]
  · exact hN
  · exact hT

end P1788
