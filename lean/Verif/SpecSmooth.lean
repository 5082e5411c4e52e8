import Verif.SpecTame

/-!
# Specification vocabulary: formulas without kinks at a point
-/

namespace P1788

/-- The arguments at which a unary operation is tame and has a derivative. -/
def Op1.smooth : Op1 → Set ℝ
  | .abs => {a | a ≠ 0}
  | op => op.tame

/-- The arguments at which a binary operation is tame and has a derivative. -/
def Op2.smooth : Op2 → Set (ℝ × ℝ)
  | .min | .max => {p | p.1 ≠ p.2}
  | op => op.tame

/-- Every operation of the expression is applied at an argument at which it is tame and has a derivative. -/
def Expr.SmoothAt {ι : Type} (t : ι → ℝ) : Expr ι → Prop
  | .var _ => True
  | .un op e => e.SmoothAt t ∧ e.val t ∈ op.smooth
  | .bin op e₁ e₂ => e₁.SmoothAt t ∧ e₂.SmoothAt t ∧ (e₁.val t, e₂.val t) ∈ op.smooth
  | .fma e₁ e₂ e₃ => e₁.SmoothAt t ∧ e₂.SmoothAt t ∧ e₃.SmoothAt t

end P1788
