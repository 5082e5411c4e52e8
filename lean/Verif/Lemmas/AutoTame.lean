import Verif.SpecSmooth
import Verif.Lemmas.AutoDiff
import Verif.Lemmas.TanSafe

/-!
# The formulas of derivatives: tangents in them, and where they are tame
-/

namespace P1788
open Set
variable {ι : Type} {t : ι ⊕ ℚ → ℝ} {φ : Fmt}

theorem Expr.tanFree_pd [DecidableEq ι] (e : Expr (ι ⊕ ℚ)) (j : ι) (h : e.TanFree) : (e.pd j).TanFree := by
  induction e with
  | var i => rcases i with i | q <;> trivial
  | un op a ih =>
    obtain ⟨h1, h2⟩ := h
    have h3 := ih h2
    cases op <;> first
      | exact absurd rfl h1
      | (simp only [Expr.pd, Op1.dv, Expr.cst]; simp [Expr.TanFree, h2, h3])
      | (simp only [Expr.pd, Op1.dv, Expr.cst]; split_ifs <;> simp [Expr.TanFree, h2, h3])
  | bin op a b ia ib =>
    obtain ⟨h1, h2⟩ := h
    have h3 := ia h1
    have h4 := ib h2
    cases op <;> simp [Expr.pd, Op2.dv, Expr.cst, Expr.TanFree, h1, h2, h3, h4]
  | fma a b c ia ib ic =>
    obtain ⟨h1, h2, h3⟩ := h
    simp [Expr.pd, Expr.TanFree, h1, h2, ia h1, ib h2, ic h3]

theorem Expr.tanSafe_pd [DecidableEq ι] (e : Expr (ι ⊕ ℚ)) (j : ι) {X : ι ⊕ ℚ → Itv} (h : e.TanSafe φ X) : (e.pd j).TanSafe φ X := by
  induction e with
  | var i => rcases i with i | q <;> trivial
  | un op a ih =>
    obtain ⟨h2, h1⟩ := h
    have h3 := ih h2
    cases op <;> first
      | (simp only [Expr.pd, Op1.dv, Expr.cst]; simp [Expr.TanSafe, h2, h3]; done)
      | (simp only [Expr.pd, Op1.dv, Expr.cst]; split_ifs <;> simp [Expr.TanSafe, h2, h3]; done)
      | (have h4 := h1 rfl; simp [Expr.pd, Op1.dv, Expr.cst, Expr.TanSafe, h2, h3, h4])
  | bin op a b ia ib =>
    obtain ⟨h1, h2⟩ := h
    have h3 := ia h1
    have h4 := ib h2
    cases op <;> simp [Expr.pd, Op2.dv, Expr.cst, Expr.TanSafe, h1, h2, h3, h4]
  | fma a b c ia ib ic =>
    obtain ⟨h1, h2, h3⟩ := h
    simp [Expr.pd, Expr.TanSafe, h1, h2, ia h1, ib h2, ic h3]

theorem Op1.smooth_tame (op : Op1) : op.smooth ⊆ op.tame := by
  cases op <;> first | exact subset_rfl | exact subset_univ _

theorem Op2.smooth_tame (op : Op2) : op.smooth ⊆ op.tame := by
  cases op <;> first | exact subset_rfl | exact subset_univ _

theorem Expr.SmoothAt.tame {ι : Type} {t : ι → ℝ} {e : Expr ι} (h : e.SmoothAt t) : e.TameAt t := by
  induction e with
  | var i => trivial
  | un op a ih => exact ⟨ih h.1, op.smooth_tame h.2⟩
  | bin op a b ia ib => exact ⟨ia h.1, ib h.2.1, op.smooth_tame h.2.2⟩
  | fma a b c ia ib ic => exact ⟨ia h.1, ib h.2.1, ic h.2.2⟩

/-- Where the operations have derivatives, the formulas of the derivatives are tame. -/
theorem Expr.SmoothAt.pd [DecidableEq ι] (ht : ∀ q : ℚ, t (.inr q) = q) {e : Expr (ι ⊕ ℚ)} (h : e.SmoothAt t) (j : ι) : (e.pd j).TameAt t := by
  induction e with
  | var i => rcases i with i | q <;> trivial
  | un op a ih =>
    obtain ⟨h1, h2⟩ := h
    have h3 := ih h1
    have h4 := h1.tame
    have hl2 : Real.log 2 ≠ 0 := (Real.log_pos (by norm_num)).ne'
    have hl10 : Real.log 10 ≠ 0 := (Real.log_pos (by norm_num)).ne'
    have hs : -1 < a.val t ∧ a.val t < 1 → 0 < 1 - a.val t ^ 2 := fun h => by nlinarith [h.1, h.2]
    have hc := (Real.cosh_pos (a.val t)).ne'
    have hq : (0:ℝ) < 1 + a.val t ^ 2 := by positivity
    cases op <;> simp only [Op1.smooth, Op1.tame, mem_ofPred_eq, mem_univ] at h2 <;>
      simp only [Expr.pd, Op1.dv, Expr.cst, Expr.TameAt, Op1.tame, Op2.tame, Expr.val, Op1.fn, Op2.fn, ht, mem_ofPred_eq, mem_univ, and_true, true_and,
        h3, h4]
    case recip => exact pow_ne_zero 2 h2
    case sqrt => exact ⟨h2, mul_ne_zero (by norm_num) (Real.sqrt_pos.mpr h2).ne'⟩
    case abs => exact abs_ne_zero.mpr h2
    case pown p =>
      split_ifs with hp
      · simp [Expr.TameAt, h3, Op2.tame]
      · simp only [Expr.TameAt, Op1.tame, Op2.tame, mem_ofPred_eq, mem_univ, and_true, true_and, h3, h4]
        exact fun h => h2 (by omega)
    case exp2 => norm_num
    case exp10 => norm_num
    case log => exact h2.ne'
    case log2 => exact ⟨by norm_num, mul_ne_zero h2.ne' (by push_cast; exact hl2)⟩
    case log10 => exact ⟨by norm_num, mul_ne_zero h2.ne' (by push_cast; exact hl10)⟩
    case tan => exact h2
    case asin => push_cast; exact ⟨hs h2, (Real.sqrt_pos.mpr (hs h2)).ne'⟩
    case acos => push_cast; exact ⟨hs h2, (Real.sqrt_pos.mpr (hs h2)).ne'⟩
    case atan => push_cast; exact hq.ne'
    case tanh => exact pow_ne_zero 2 hc
    case asinh => push_cast; exact ⟨hq, (Real.sqrt_pos.mpr hq).ne'⟩
    case acosh =>
      push_cast
      have h5 : 0 < a.val t - 1 := by linarith
      have h6 : 0 < a.val t + 1 := by linarith
      exact ⟨⟨h5, h6⟩, mul_ne_zero (Real.sqrt_pos.mpr h5).ne' (Real.sqrt_pos.mpr h6).ne'⟩
    case atanh => push_cast; exact ⟨hs h2, pow_ne_zero 2 (Real.sqrt_pos.mpr (hs h2)).ne'⟩
    case sign => exact h2
    case ceil => exact ⟨⟨h2, h2⟩, by rw [ceil_of_not_int h2]; push_cast; norm_num⟩
    case floor => exact ⟨⟨h2, h2⟩, by rw [ceil_of_not_int h2]; push_cast; norm_num⟩
    case trunc => exact ⟨⟨h2, h2⟩, by rw [ceil_of_not_int h2]; push_cast; norm_num⟩
    case roundEven => push_cast; exact ⟨⟨h2, h2⟩, by rw [ceil_of_not_int h2]; push_cast; norm_num⟩
    case roundAway => push_cast; exact ⟨⟨h2, h2⟩, by rw [ceil_of_not_int h2]; push_cast; norm_num⟩
  | bin op a b ia ib =>
    obtain ⟨h1, h2, h⟩ := h
    have k1 := ia h1
    have k2 := ib h2
    have k3 := h1.tame
    have k4 := h2.tame
    cases op <;> simp only [Op2.smooth, Op2.tame, mem_ofPred_eq, mem_univ] at h <;>
      simp only [Expr.pd, Op2.dv, Expr.cst, Expr.TameAt, Op1.tame, Op2.tame, Expr.val, Op1.fn, Op2.fn, ht, mem_ofPred_eq, mem_univ, and_true, true_and,
        k1, k2, k3, k4]
    case div => exact pow_ne_zero 2 h
    case pow => exact ⟨h, h, h.ne'⟩
    case atan2 =>
      have hp : 0 < a.val t ^ 2 + b.val t ^ 2 := by
        rcases h with h | h
        · have := sq_pos_of_pos (abs_pos.mpr h); rw [sq_abs] at this; positivity
        · positivity
      refine ⟨hp.ne', hp, ?_⟩
      rcases h with h | h
      · have : |b.val t| < √(a.val t ^ 2 + b.val t ^ 2) := by
          rw [← Real.sqrt_sq_eq_abs]
          exact Real.sqrt_lt_sqrt (sq_nonneg _) (by have := sq_pos_of_pos (abs_pos.mpr h); rw [sq_abs] at this; linarith)
        linarith [neg_abs_le (b.val t)]
      · linarith [Real.sqrt_nonneg (a.val t ^ 2 + b.val t ^ 2)]
    case min => exact ⟨abs_ne_zero.mpr (sub_ne_zero.mpr h), by norm_num⟩
    case max => exact ⟨abs_ne_zero.mpr (sub_ne_zero.mpr h), by norm_num⟩
  | fma a b c ia ib ic =>
    obtain ⟨h1, h2, h3⟩ := h
    simp [Expr.pd, Expr.TameAt, Op2.tame, ia h1, ib h2, ic h3, h1.tame, h2.tame]

end P1788
