import Verif.Props.C35
import Verif.Lemmas.Conv
import Verif.Model.Num

/-! # C51: computing in a wider type never gives a wider interval

`φ.Sub ψ`: every number of the type `φ` is a number of the type `ψ` (`float`, `double`, `long double` in this order). -/

namespace P1788
variable {φ ψ : Fmt} {ι : Type}

theorem tight_sub {R R' : Itv} {S S' : Set ℝ} (hs : φ.Sub ψ) (h : Tightest ψ R S) (h' : Tightest φ R' S') (hS : S ⊆ S') :
    R.set ⊆ R'.set := h.2.2 R' (hs.ok h'.1) (hS.trans h'.2.1)

theorem rdE_sub (hs : φ.Sub ψ) (r : EReal) : φ.rdE r ≤ ψ.rdE r := by
  obtain ⟨f, h1, h2, h3⟩ := φ.exists_rdE r
  rw [← h3]
  exact (ψ.le_rdE_iff (hs.in h1) r h2).mpr (h3 ▸ φ.rdE_le r)

/-- The tangent: only the interval of the narrower type must not be bad. -/
theorem tan_sub (hs : φ.Sub ψ) {x x' : Itv} (hc : ¬ TanBad φ x') (hx : x.Ok ψ) (hx' : x'.Ok φ) (h : x.set ⊆ x'.set) :
    (ψ.tanI x).set ⊆ (φ.tanI x').set := by
  rcases hx.cases with rfl | hN
  · have : ψ.tanI Itv.empty = Itv.empty := by simp [Fmt.tanI]
    rw [this, Itv.set_empty]; exact Set.empty_subset _
  rcases hx'.cases with rfl | hN'
  · rw [Itv.set_empty] at h
    obtain ⟨t, ht⟩ := hN.nonempty
    exact (h ht).elim
  obtain ⟨c1, c2, c3⟩ := C11_tan_partial hx' hc
  by_cases hp : x'.HasPole
  · rw [c3 hp, Itv.set_entire]; exact Set.subset_univ _
  by_cases hinf : x'.lo = .ninf ∨ x'.hi = .pinf
  · rw [tanI_inf hN' hinf, Itv.set_entire]; exact Set.subset_univ _
  obtain ⟨a', b', ha', hb'⟩ := fin_bounds hN' hinf
  obtain ⟨h1, -⟩ := tanI_fin hN' ha' hb'
  rcases lt_or_ge (φ.rdE (Real.pi:ℝ)) ((b' - a' : ℝ):EReal) with hw | hw
  · rw [h1 hw, Itv.set_entire]; exact Set.subset_univ _
  have hsub := (hN.subset_iff (hs.ok hx' |>.cases.resolve_left (by rintro rfl; simpa using hN'.nonempty))).mp h
  have hinf2 : ¬ (x.lo = .ninf ∨ x.hi = .pinf) := by
    rintro (e | e) <;> rw [e] at hsub
    · rw [ha'] at hsub; simp at hsub
    · rw [hb'] at hsub; simp at hsub
  obtain ⟨a, b, ha, hb⟩ := fin_bounds hN hinf2
  rw [ha, hb, ha', hb'] at hsub
  have g1 : a' ≤ a := by exact_mod_cast hsub.1
  have g2 : b ≤ b' := by exact_mod_cast hsub.2
  have hT := tight_no_pole hN ha hb
    ((le_trans (by exact_mod_cast (by linarith : b - a ≤ b' - a')) hw).trans (rdE_sub hs _))
    (fun ⟨t, ht, ht'⟩ => hp ⟨t, h ht, ht'⟩)
  refine hT.2.2 _ (hs.ok c1) (fun z hz => c2 ?_)
  obtain ⟨t, ht, h0, rfl⟩ := hz
  exact ⟨t, h ht, h0, rfl⟩

/-- **C51**, unary functions (full statement: without `hc`; false for `double` and the tangent,
`C51_tan_false`).  `hc` only concerns the tangent. -/
theorem C51_unary_safe_partial (op : Op1) (hs : φ.Sub ψ) {x x' : Itv} (hc : op = .tan → ¬ TanBad φ x')
    (hx : x.Ok ψ) (hx' : x'.Ok φ) (h : x.set ⊆ x'.set) : (op.bare ψ x).set ⊆ (op.bare φ x').set := by
  by_cases ht : op = .tan
  · subst ht; exact tan_sub hs (hc rfl) hx hx' h
  · exact tight_sub hs (Op1.tight ht hx) (Op1.tight ht hx') (Set.image_mono (Set.inter_subset_inter_left _ h))

/-- If the narrower type has no bad intervals for the tangent. -/
theorem C51_unary_partial (op : Op1) (hs : φ.Sub ψ) (hc : op = .tan → NoCritical φ) {x x' : Itv} (hx : x.Ok ψ)
    (hx' : x'.Ok φ) (h : x.set ⊆ x'.set) : (op.bare ψ x).set ⊆ (op.bare φ x').set :=
  C51_unary_safe_partial op hs (fun k => hc k x' hx') hx hx' h

/-- Binary functions: all of them. -/
theorem C51_binary (op : Op2) (hs : φ.Sub ψ) {x x' y y' : Itv} (hx : x.Ok ψ) (hx' : x'.Ok φ) (hy : y.Ok ψ)
    (hy' : y'.Ok φ) (h : x.set ⊆ x'.set) (k : y.set ⊆ y'.set) : (op.bare ψ x y).set ⊆ (op.bare φ x' y').set :=
  tight_sub hs (op.tight hx hy) (op.tight hx' hy')
    (Set.image_mono (Set.inter_subset_inter_left _ (Set.prod_mono h k)))

/-- `fma`. -/
theorem C51_fma (hs : φ.Sub ψ) {x x' y y' z z' : Itv} (hx : x.Ok ψ) (hx' : x'.Ok φ) (hy : y.Ok ψ) (hy' : y'.Ok φ)
    (hz : z.Ok ψ) (hz' : z'.Ok φ) (h : x.set ⊆ x'.set) (k : y.set ⊆ y'.set) (l : z.set ⊆ z'.set) :
    (ψ.fmaI x y z).set ⊆ (φ.fmaI x' y' z').set := by
  refine tight_sub hs (C06_fma ψ hx hy hz) (C06_fma φ hx' hy' hz') ?_
  rintro w ⟨a, ha, b, hb, c, hc, rfl⟩
  exact ⟨a, h ha, b, k hb, c, l hc, rfl⟩

/-- **C51**, whole expressions (full statement: without `ht`; false, `C51_tan_false`): evaluated in the wider type on the
same intervals or on parts of them, if the tangent meets no bad interval (C11) in the narrower type, the result is contained in the result of the narrower type. -/
theorem C51_expr_safe_partial (e : Expr ι) (hs : φ.Sub ψ) (X X' : ι → Itv) (ht : e.TanSafe φ X')
    (hX : ∀ i, (X i).Ok ψ) (hX' : ∀ i, (X' i).Ok φ) (h : ∀ i, (X i).set ⊆ (X' i).set) :
    (e.eval ψ X).set ⊆ (e.eval φ X').set := by
  induction e with
  | var i => exact h i
  | un op e ih => exact C51_unary_safe_partial op hs ht.2 (e.eval_ok18 hX) (e.eval_ok18 hX') (ih ht.1)
  | bin op e₁ e₂ ih₁ ih₂ =>
    exact C51_binary op hs (e₁.eval_ok18 hX) (e₁.eval_ok18 hX') (e₂.eval_ok18 hX) (e₂.eval_ok18 hX') (ih₁ ht.1) (ih₂ ht.2)
  | fma e₁ e₂ e₃ ih₁ ih₂ ih₃ =>
    exact C51_fma hs (e₁.eval_ok18 hX) (e₁.eval_ok18 hX') (e₂.eval_ok18 hX) (e₂.eval_ok18 hX') (e₃.eval_ok18 hX)
      (e₃.eval_ok18 hX') (ih₁ ht.1) (ih₂ ht.2.1) (ih₃ ht.2.2)

/-- If the narrower type has no bad intervals for the tangent, and for expressions without the tangent. -/
theorem C51_expr_partial (e : Expr ι) (hs : φ.Sub ψ) (ht : NoCritical φ ∨ e.TanFree) (X X' : ι → Itv)
    (hX : ∀ i, (X i).Ok ψ) (hX' : ∀ i, (X' i).Ok φ) (h : ∀ i, (X i).set ⊆ (X' i).set) :
    (e.eval ψ X).set ⊆ (e.eval φ X').set :=
  C51_expr_safe_partial e hs X X' (e.tanSafe ht hX') hX hX' h

/-- All expressions, `float` against `double`. -/
theorem C51_float_double (e : Expr ι) (X : ι → Itv) (hX : ∀ i, (X i).Ok binary32) :
    (e.eval binary64 X).set ⊆ (e.eval binary32 X).set :=
  C51_expr_partial e sub_32_64 (Or.inl noCritical_binary32) X X (fun i => sub_32_64.ok (hX i)) hX fun _ => subset_rfl

/-- All expressions, `float` against x87 `long double`. -/
theorem C51_float_long_double (e : Expr ι) (X : ι → Itv) (hX : ∀ i, (X i).Ok binary32) :
    (e.eval x87ext X).set ⊆ (e.eval binary32 X).set :=
  C51_expr_partial e (sub_32_64.trans sub_64_x87) (Or.inl noCritical_binary32) X X
    (fun i => (sub_32_64.trans sub_64_x87).ok (hX i)) hX fun _ => subset_rfl

/-- `double` against x87 `long double`: expressions without the tangent, and with it if in the evaluation with `double` the
tangent meets no bad interval (C11). -/
theorem C51_double_long_double_partial (e : Expr ι) (X : ι → Itv) (ht : e.TanSafe binary64 X) (hX : ∀ i, (X i).Ok binary64) :
    (e.eval x87ext X).set ⊆ (e.eval binary64 X).set :=
  C51_expr_safe_partial e sub_64_x87 X X ht (fun i => sub_64_x87.ok (hX i)) hX fun _ => subset_rfl

/-- The hypothesis is met by expressions without the tangent and by the tangent of `[1, 3]`. -/
example : (∀ (e : Expr ι) (X : ι → Itv), e.TanFree → (∀ i, (X i).Ok binary64) → e.TanSafe binary64 X) ∧
    (Expr.un .tan (.var ())).TanSafe binary64 (fun _ : Unit => ⟨.fin 1, .fin 3⟩) := by
  refine ⟨fun e X h hX => e.tanSafe (.inr h) hX, Expr.TanNarrow.safe ⟨trivial, fun _ s hs t ht => ?_⟩
    fun _ => Itv.ok_of_okb (by decide +kernel)⟩
  simp only [Expr.eval, Itv.set, FP.BelowR, FP.AboveR, Set.mem_ofPred_eq] at hs ht
  obtain ⟨a1, a2⟩ := hs
  obtain ⟨b1, b2⟩ := ht
  push_cast at a1 a2 b1 b2
  exact abs_le.mpr ⟨by linarith, by linarith⟩

/-- **C51 is false for the tangent, `double` against `long double`**: `long double` has the right result, the real line,
`double` a bounded one. -/
theorem C51_tan_false : ∃ x : Itv, x.Ok binary64 ∧ ¬(x87ext.tanI x).set ⊆ (binary64.tanI x).set := by
  obtain ⟨x, hx, hp, hn⟩ := C11_tan_binary64_false
  refine ⟨x, hx, fun h => hn ?_⟩
  exact (C11_tan_x87ext (sub_64_x87.ok hx)).2.1.trans h

/-- Non-vacuity: `1 / x` on `[3, 3]`; both results are proper intervals, and the one for `double` is strictly narrower. -/
example : (Itv.mk (.fin 3) (.fin 3)).Ok binary32 ∧
    (binary64.recipI ⟨.fin 3, .fin 3⟩).wid binary64 < (binary32.recipI ⟨.fin 3, .fin 3⟩).wid binary64 :=
  ⟨Itv.ok_of_okb (by decide +kernel), by decide +kernel⟩

end P1788
