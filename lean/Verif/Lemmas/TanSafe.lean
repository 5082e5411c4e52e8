import Verif.Lemmas.Ops

/-! # Evaluations in which the tangent meets no bad interval -/

namespace P1788
variable {φ : Fmt} {ι : Type}

/-- In the evaluation of the expression on the box `X` the tangent is never applied to a bad interval: one whose pole the
tests of the code miss (C11). -/
def Expr.TanSafe (φ : Fmt) (X : ι → Itv) : Expr ι → Prop
  | .var _ => True
  | .un op e => e.TanSafe φ X ∧ (op = .tan → ¬ TanBad φ (e.eval φ X))
  | .bin _ e₁ e₂ => e₁.TanSafe φ X ∧ e₂.TanSafe φ X
  | .fma e₁ e₂ e₃ => e₁.TanSafe φ X ∧ e₂.TanSafe φ X ∧ e₃.TanSafe φ X

theorem Expr.eval_ok18 (e : Expr ι) {X : ι → Itv} (hX : ∀ i, (X i).Ok φ) : (e.eval φ X).Ok φ := by
  induction e with
  | var i => exact hX i
  | un op e ih => exact op.bare_ok ih
  | bin op e₁ e₂ ih₁ ih₂ => exact (op.tight ih₁ ih₂).1
  | fma e₁ e₂ e₃ ih₁ ih₂ ih₃ => exact (C06_fma φ ih₁ ih₂ ih₃).1

/-- Without bad intervals or without the tangent every evaluation is of this kind. -/
theorem Expr.tanSafe (e : Expr ι) (ht : NoCritical φ ∨ e.TanFree) {X : ι → Itv} (hX : ∀ i, (X i).Ok φ) : e.TanSafe φ X := by
  induction e with
  | var i => trivial
  | un op e ih =>
    exact ⟨ih (ht.imp_right And.right), fun h => ht.elim (fun h' => h' _ (e.eval_ok18 hX)) fun h' => absurd h h'.1⟩
  | bin op e₁ e₂ ih₁ ih₂ => exact ⟨ih₁ (ht.imp_right And.left), ih₂ (ht.imp_right And.right)⟩
  | fma e₁ e₂ e₃ ih₁ ih₂ ih₃ =>
    exact ⟨ih₁ (ht.imp_right And.left), ih₂ (ht.imp_right fun h => h.2.1), ih₃ (ht.imp_right fun h => h.2.2)⟩

/-- The same for every box inside of `X`. -/
def Expr.TanSafeIn (φ : Fmt) (X : ι → Itv) (e : Expr ι) : Prop :=
  ∀ Y : ι → Itv, (∀ i, (Y i).Ok φ) → (∀ i, (Y i).set ⊆ (X i).set) → e.TanSafe φ Y

theorem Expr.tanSafeIn (e : Expr ι) (ht : NoCritical φ ∨ e.TanFree) (X : ι → Itv) : e.TanSafeIn φ X :=
  fun _ hY _ => e.tanSafe ht hY

theorem Expr.TanSafeIn.mono {e : Expr ι} {X Y : ι → Itv} (h : e.TanSafeIn φ X) (hs : ∀ i, (Y i).set ⊆ (X i).set) :
    e.TanSafeIn φ Y := fun Z hZ hs' => h Z hZ fun i => (hs' i).trans (hs i)

theorem Expr.TanSafeIn.self {e : Expr ι} {X : ι → Itv} (h : e.TanSafeIn φ X) (hX : ∀ i, (X i).Ok φ) : e.TanSafe φ X :=
  h X hX fun _ => subset_rfl

/-- In the evaluation on `X` the tangent is only applied to intervals of a width of at most 3. -/
def Expr.TanNarrow (φ : Fmt) (X : ι → Itv) : Expr ι → Prop
  | .var _ => True
  | .un op e => e.TanNarrow φ X ∧ (op = .tan → ∀ s ∈ (e.eval φ X).set, ∀ t ∈ (e.eval φ X).set, |s - t| ≤ 3)
  | .bin _ e₁ e₂ => e₁.TanNarrow φ X ∧ e₂.TanNarrow φ X
  | .fma e₁ e₂ e₃ => e₁.TanNarrow φ X ∧ e₂.TanNarrow φ X ∧ e₃.TanNarrow φ X

theorem Op1.encl_safe {op : Op1} {x : Itv} (hs : op = .tan → ¬ TanBad φ x) (hx : x.Ok φ) {t : ℝ}
    (h : t ∈ x.set) (hd : t ∈ op.dom) : op.fn t ∈ (op.bare φ x).set := by
  by_cases ht : op = .tan
  · subst ht; exact (C11_tan_partial hx (hs rfl)).2.1 ⟨t, h, hd, rfl⟩
  · exact (Op1.tight ht hx).2.1 ⟨t, ⟨h, hd⟩, rfl⟩

theorem Op1.decTrue_safe {op : Op1} {x : DItv} (hs : op = .tan → ¬ TanBad φ x.itv) (hx : x.Ok φ)
    (hn : x.dec ≠ .ill) : DecTrue op.fn op.dom x.set x.dec (op.decd φ x) := by
  by_cases ht : op = .tan
  · subst ht
    obtain ⟨-, h1, h2, h3⟩ := C20_tan_partial hx hn (hs rfl)
    exact ⟨h1, h2, h3⟩
  · exact (Op1.right ht hx hn).2.toTrue

/-- An interval with a width of at most 3, or of at least 4, is not critical. -/
theorem not_critical_of_width {x : Itv}
    (h : (∀ s ∈ x.set, ∀ s' ∈ x.set, |s - s'| ≤ 3) ∨ (∃ s ∈ x.set, ∃ s' ∈ x.set, 4 ≤ |s - s'|)) (hx : x.Ok φ)
    : ¬ CriticalWidth φ x := by
  rintro ⟨a, b, ha, hb, h1, h2⟩
  have h4 : (2:ℝ) ^ (1 - (φ.p:ℤ)) ≤ 2 ^ (-7:ℤ) := zpow_le_zpow_right₀ (by norm_num) (by have := φ.p_pos; omega)
  norm_num at h4
  have := Real.pi_gt_d2
  rcases hx.cases with rfl | hN
  · have ha : (0:ℝ) = a := by exact_mod_cast (show (0:EReal) = a from ha)
    have hb : (0:ℝ) = b := by exact_mod_cast (show (0:EReal) = b from hb)
    linarith
  have hab : a ≤ b := by have := hN.le; rw [ha, hb] at this; exact_mod_cast this
  rcases h with h | ⟨s, hs, s', hs', h⟩
  · have h3 := h b (hN.mem.mpr ⟨by rw [ha]; exact_mod_cast hab, by rw [hb]⟩) a (hN.mem.mpr ⟨by rw [ha], by rw [hb]; exact_mod_cast hab⟩)
    have := le_abs_self (b - a)
    linarith
  · have h5 : b - a ≤ Real.pi := by exact_mod_cast h2.trans (φ.rdE_le _)
    have m := hN.mem.mp hs; have m' := hN.mem.mp hs'
    rw [ha, hb] at m m'
    have m1 : a ≤ s := by exact_mod_cast m.1
    have m2 : s ≤ b := by exact_mod_cast m.2
    have m3 : a ≤ s' := by exact_mod_cast m'.1
    have m4 : s' ≤ b := by exact_mod_cast m'.2
    have := Real.pi_lt_d2
    have : |s - s'| ≤ b - a := abs_le.mpr ⟨by linarith, by linarith⟩
    linarith

/-- Nor is it bad. -/
theorem not_bad_of_width {x : Itv}
    (h : (∀ s ∈ x.set, ∀ s' ∈ x.set, |s - s'| ≤ 3) ∨ (∃ s ∈ x.set, ∃ s' ∈ x.set, 4 ≤ |s - s'|)) (hx : x.Ok φ) : ¬ TanBad φ x :=
  fun hb => not_critical_of_width h hx (hb.critical hx)

end P1788
