import Verif.Props.C64b
import Verif.Model.MeanValue

/-!
# Only the variables that occur matter
-/

namespace P1788
open Set Filter Topology
variable {ι κ : Type} {φ : Fmt}

theorem Expr.val_congr {e : Expr ι} {t t' : ι → ℝ} (h : ∀ i ∈ e.vars, t i = t' i) : e.val t = e.val t' := by
  induction e with
  | var i => exact h i rfl
  | un op e ih => exact congrArg op.fn (ih h)
  | bin op e₁ e₂ ih₁ ih₂ =>
    have h1 := ih₁ fun i hi => h i (.inl hi)
    have h2 := ih₂ fun i hi => h i (.inr hi)
    simp only [Expr.val, h1, h2]
  | fma e₁ e₂ e₃ ih₁ ih₂ ih₃ =>
    have h1 := ih₁ fun i hi => h i (.inl (.inl hi))
    have h2 := ih₂ fun i hi => h i (.inl (.inr hi))
    have h3 := ih₃ fun i hi => h i (.inr hi)
    simp only [Expr.val, h1, h2, h3]

theorem Expr.tameAt_congr {e : Expr ι} {t t' : ι → ℝ} (h : ∀ i ∈ e.vars, t i = t' i) (ht : e.TameAt t) : e.TameAt t' := by
  induction e with
  | var i => trivial
  | un op e ih => exact ⟨ih h ht.1, by rw [← Expr.val_congr (e := e) h]; exact ht.2⟩
  | bin op e₁ e₂ ih₁ ih₂ =>
    have h1 := fun i hi => h i (.inl hi)
    have h2 := fun i hi => h i (.inr hi)
    exact ⟨ih₁ h1 ht.1, ih₂ h2 ht.2.1, by rw [← Expr.val_congr h1, ← Expr.val_congr h2]; exact ht.2.2⟩
  | fma e₁ e₂ e₃ ih₁ ih₂ ih₃ =>
    exact ⟨ih₁ (fun i hi => h i (.inl (.inl hi))) ht.1, ih₂ (fun i hi => h i (.inl (.inr hi))) ht.2.1, ih₃ (fun i hi => h i (.inr hi)) ht.2.2⟩

theorem Expr.evalD_congr {e : Expr ι} {X X' : ι → DItv} (h : ∀ i ∈ e.vars, X i = X' i) : e.evalD φ X = e.evalD φ X' := by
  induction e with
  | var i => exact h i rfl
  | un op e ih => exact congrArg (op.decd φ) (ih h)
  | bin op e₁ e₂ ih₁ ih₂ =>
    have h1 := ih₁ fun i hi => h i (.inl hi)
    have h2 := ih₂ fun i hi => h i (.inr hi)
    simp only [Expr.evalD, h1, h2]
  | fma e₁ e₂ e₃ ih₁ ih₂ ih₃ =>
    have h1 := ih₁ fun i hi => h i (.inl (.inl hi))
    have h2 := ih₂ fun i hi => h i (.inl (.inr hi))
    have h3 := ih₃ fun i hi => h i (.inr hi)
    simp only [Expr.evalD, h1, h2, h3]

theorem Expr.eval_congr {e : Expr ι} {X X' : ι → Itv} (h : ∀ i ∈ e.vars, X i = X' i) : e.eval φ X = e.eval φ X' := by
  induction e with
  | var i => exact h i rfl
  | un op e ih => exact congrArg (op.bare φ) (ih h)
  | bin op e₁ e₂ ih₁ ih₂ =>
    have h1 := ih₁ fun i hi => h i (.inl hi)
    have h2 := ih₂ fun i hi => h i (.inr hi)
    simp only [Expr.eval, h1, h2]
  | fma e₁ e₂ e₃ ih₁ ih₂ ih₃ =>
    have h1 := ih₁ fun i hi => h i (.inl (.inl hi))
    have h2 := ih₂ fun i hi => h i (.inl (.inr hi))
    have h3 := ih₃ fun i hi => h i (.inr hi)
    simp only [Expr.eval, h1, h2, h3]

theorem meanValue_congr {n : ℕ} {e : Expr (Fin n ⊕ κ)} {g : Fin n → Expr (Fin n ⊕ κ)} {B B' : Fin n ⊕ κ → DItv} (h : ∀ i, B (.inl i) = B' (.inl i))
    (h' : ∀ k, (.inr k ∈ e.vars ∨ ∃ j, .inr k ∈ (g j).vars) → B (.inr k) = B' (.inr k)) : meanValue φ e g B = meanValue φ e g B' := by
  have e1 : e.evalD φ B = e.evalD φ B' := Expr.evalD_congr (by
    rintro (i | k) hi
    · exact h i
    · exact h' k (.inl hi))
  have e2 : ∀ j, (g j).evalD φ B = (g j).evalD φ B' := fun j => Expr.evalD_congr (by
    rintro (i | k) hi
    · exact h i
    · exact h' k (.inr ⟨j, hi⟩))
  have e3 : e.eval φ (pointBox B fun i => (B (.inl i)).itv.mid φ) = e.eval φ (pointBox B' fun i => (B' (.inl i)).itv.mid φ) := Expr.eval_congr (by
    rintro (i | k) hi
    · simp only [pointBox, h, Sum.elim_inl]
    · simp only [pointBox, Sum.elim_inr, h' k (.inl hi)])
  unfold meanValue
  simp only [e1, e2]
  rw [e3]
  simp only [h]

/-- Near a point at which an expression is tame, it is defined and continuous. -/
theorem dom_near77 {e : Expr (ι ⊕ κ)} {t : ι → ℝ} {c : κ → ℝ} (h : e.TameAt (Sum.elim t c)) :
    (∀ᶠ u in 𝓝 t, Sum.elim u c ∈ e.dom) ∧ ContinuousAt (fun u : ι → ℝ => e.val (Sum.elim u c)) t := by
  induction e with
  | var i =>
    rcases i with i | k
    · exact ⟨.of_forall fun _ => trivial, continuousAt_apply i t⟩
    · exact ⟨.of_forall fun _ => trivial, continuousAt_const⟩
  | un op e ih =>
    obtain ⟨h1, h2⟩ := ih h.1
    obtain ⟨L, r, hL, hr, hl⟩ := op.lip h.2
    have hc : ContinuousAt op.fn (e.val (Sum.elim t c)) := lip1_cont hl (by simpa using hr)
    exact ⟨h1.and (h2.eventually (Op1.dom_near h.2)), ContinuousAt.comp (f := fun u : ι → ℝ => e.val (Sum.elim u c)) hc h2⟩
  | bin op a b ia ib =>
    obtain ⟨h1, h2⟩ := ia h.1
    obtain ⟨h3, h4⟩ := ib h.2.1
    obtain ⟨L, r, hL, hr, hl⟩ := op.lip h.2.2
    have hc : ContinuousAt op.fn (a.val (Sum.elim t c), b.val (Sum.elim t c)) := lip2_cont hl (by simpa using hr) (by simpa using hr)
    exact ⟨h1.and (h3.and ((h2.prodMk h4).eventually (Op2.dom_near h.2.2))),
      ContinuousAt.comp (f := fun u : ι → ℝ => (a.val (Sum.elim u c), b.val (Sum.elim u c))) hc (h2.prodMk h4)⟩
  | fma a b d ia ib id =>
    obtain ⟨h1, h2⟩ := ia h.1
    obtain ⟨h3, h4⟩ := ib h.2.1
    obtain ⟨h5, h6⟩ := id h.2.2
    exact ⟨h1.and (h3.and h5), (h2.mul h4).add h6⟩

end P1788
