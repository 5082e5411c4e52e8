import Verif.Lemmas.TanSafe

/-! # C18: the fundamental theorem of interval arithmetic -/

namespace P1788
variable {φ : Fmt} {ι : Type}

/-- **C18** (full statement: the same without the hypothesis `ht`; it is false for `double` and the tangent, see
`C18_ftia_binary64_false`).  Evaluating an expression of any shape on proper intervals gives a proper interval that
contains the value of the expression at every point of the box at which the expression is defined, provided that during the
evaluation the tangent is not applied to a bad interval (C11). -/
theorem C18_ftia_safe_partial (e : Expr ι) (X : ι → Itv) (hX : ∀ i, (X i).Ok φ) (ht : e.TanSafe φ X) :
    (e.eval φ X).Ok φ ∧
      ∀ t : ι → ℝ, (∀ i, t i ∈ (X i).set) → t ∈ e.dom → e.val t ∈ (e.eval φ X).set := by
  induction e with
  | var i => exact ⟨hX i, fun t h _ => h i⟩
  | un op e ih =>
    obtain ⟨h1, h2⟩ := ih ht.1
    refine ⟨op.bare_ok h1, fun t h hd => ?_⟩
    exact Op1.encl_safe ht.2 h1 (h2 t h hd.1) hd.2
  | bin op e₁ e₂ ih₁ ih₂ =>
    obtain ⟨h1, h2⟩ := ih₁ ht.1
    obtain ⟨k1, k2⟩ := ih₂ ht.2
    refine ⟨(op.tight h1 k1).1, fun t h hd => ?_⟩
    exact op.encl h1 k1 (h2 t h hd.1) (k2 t h hd.2.1) hd.2.2
  | fma e₁ e₂ e₃ ih₁ ih₂ ih₃ =>
    obtain ⟨h1, h2⟩ := ih₁ ht.1
    obtain ⟨k1, k2⟩ := ih₂ ht.2.1
    obtain ⟨l1, l2⟩ := ih₃ ht.2.2
    obtain ⟨o1, o2, -⟩ := C06_fma φ h1 k1 l1
    exact ⟨o1, fun t h hd => o2 ⟨_, h2 t h hd.1, _, k2 t h hd.2.1, _, l2 t h hd.2.2, rfl⟩⟩

/-- In particular in a format without bad intervals for the tangent, and for every expression that does not use the tangent. -/
theorem C18_ftia_partial (e : Expr ι) (ht : NoCritical φ ∨ e.TanFree) (X : ι → Itv) (hX : ∀ i, (X i).Ok φ) :
    (e.eval φ X).Ok φ ∧
      ∀ t : ι → ℝ, (∀ i, t i ∈ (X i).set) → t ∈ e.dom → e.val t ∈ (e.eval φ X).set :=
  C18_ftia_safe_partial e X hX (e.tanSafe ht hX)

/-- For `float`, every expression. -/
theorem C18_ftia_binary32 (e : Expr ι) (X : ι → Itv) (hX : ∀ i, (X i).Ok binary32) :
    (e.eval binary32 X).Ok binary32 ∧
      ∀ t : ι → ℝ, (∀ i, t i ∈ (X i).set) → t ∈ e.dom → e.val t ∈ (e.eval binary32 X).set :=
  C18_ftia_partial e (Or.inl noCritical_binary32) X hX

/-- For x87 `long double`, every expression. -/
theorem C18_ftia_x87ext (e : Expr ι) (X : ι → Itv) (hX : ∀ i, (X i).Ok x87ext) :
    (e.eval x87ext X).Ok x87ext ∧
      ∀ t : ι → ℝ, (∀ i, t i ∈ (X i).set) → t ∈ e.dom → e.val t ∈ (e.eval x87ext X).set :=
  C18_ftia_partial e (Or.inl noCritical_x87ext) X hX

/-- For `double`, every expression without the tangent. -/
theorem C18_ftia_binary64_partial (e : Expr ι) (ht : e.TanFree) (X : ι → Itv) (hX : ∀ i, (X i).Ok binary64) :
    (e.eval binary64 X).Ok binary64 ∧
      ∀ t : ι → ℝ, (∀ i, t i ∈ (X i).set) → t ∈ e.dom → e.val t ∈ (e.eval binary64 X).set :=
  C18_ftia_partial e (Or.inr ht) X hX

/-- **C18 is false for `double` and the tangent.** -/
theorem C18_ftia_binary64_false : ∃ (e : Expr Unit) (X : Unit → Itv), (∀ i, (X i).Ok binary64) ∧
    ∃ t : Unit → ℝ, (∀ i, t i ∈ (X i).set) ∧ t ∈ e.dom ∧ e.val t ∉ (e.eval binary64 X).set := by
  obtain ⟨x, hx, -, hn⟩ := C11_tan_binary64_false
  rw [Set.not_subset] at hn
  obtain ⟨_, ⟨t, ht, hd, rfl⟩, hn⟩ := hn
  exact ⟨.un .tan (.var ()), fun _ => x, fun _ => hx, fun _ => t, fun _ => ht, ⟨trivial, hd⟩, hn⟩

/-- Non-vacuity: `sqrt(x) / (y - 1)` on `[-1, 4] × [0, 3]` is defined at `(4, 3)`, although not on the whole box. -/
example : ∃ (e : Expr Bool) (X : Bool → Itv), e.TanFree ∧ (∀ i, (X i).Ok binary64) ∧
    ∃ t : Bool → ℝ, (∀ i, t i ∈ (X i).set) ∧ t ∈ e.dom := by
  refine ⟨.bin .div (.un .sqrt (.var true)) (.bin .sub (.var false) (.un .exp (.var true))),
    fun b => if b then ⟨.fin (-1), .fin 4⟩ else ⟨.fin 0, .fin 3⟩, by simp [Expr.TanFree], ?_,
    fun b => if b then 0 else 3, ?_, ?_⟩
  · intro i
    cases i
    · exact Itv.ok_of_okb (by decide +kernel)
    · exact Itv.ok_of_okb (by decide +kernel)
  · intro i
    cases i <;> refine ⟨?_, ?_⟩ <;> norm_num [FP.BelowR, FP.AboveR]
  · simp [Expr.dom, Expr.val, Op1.dom, Op2.dom, Op1.fn, Op2.fn]; norm_num

/-- Non-vacuity of `C18_ftia_safe_partial` for `double` and the tangent: `tan(x)` on `[0, 2]`, which contains a pole. -/
example : ∃ X : Unit → Itv, (∀ i, (X i).Ok binary64) ∧ (X ()).HasPole ∧
    (Expr.un .tan (.var ())).TanSafe binary64 X := by
  have ho : (⟨.fin 0, .fin 2⟩ : Itv).Ok binary64 := Itv.ok_of_okb (by decide +kernel)
  refine ⟨fun _ => ⟨.fin 0, .fin 2⟩, fun _ => ho, ⟨Real.pi / 2, ?_, Real.cos_pi_div_two⟩, trivial, fun _ => ?_⟩
  · have := Real.pi_gt_three; have := Real.pi_le_four
    refine ⟨?_, ?_⟩ <;> simp only [FP.BelowR, FP.AboveR] <;> push_cast <;> linarith
  · refine not_bad_of_width (Or.inl ?_) ho
    rintro s ⟨h1, h2⟩ s' ⟨h3, h4⟩
    change ((0:ℚ):ℝ) ≤ s at h1
    change s ≤ ((2:ℚ):ℝ) at h2
    change ((0:ℚ):ℝ) ≤ s' at h3
    change s' ≤ ((2:ℚ):ℝ) at h4
    push_cast at h1 h2 h3 h4
    exact abs_le.mpr ⟨by linarith, by linarith⟩

end P1788
