import Verif.SpecExpr

/-!
# Specification vocabulary for C64: where an expression is tame

The arguments at which an operation is defined and changes at a bounded rate in a neighbourhood, i.e. its domain without
its boundary, without the jumps of the step functions and without the branch cut of `atan2`.
-/

namespace P1788

/-- The arguments at which a unary operation is tame. -/
def Op1.tame : Op1 → Set ℝ
  | .recip => {a | a ≠ 0} | .sqrt => {a | 0 < a} | .pown p => {a | p < 0 → a ≠ 0}
  | .log | .log2 | .log10 => {a | 0 < a}
  | .tan => {a | Real.cos a ≠ 0}
  | .asin | .acos | .atanh => {a | -1 < a ∧ a < 1}
  | .acosh => {a | 1 < a}
  | .sign => {a | a ≠ 0}
  | .ceil | .floor | .trunc => {a | ∀ n : ℤ, a ≠ n}
  | .roundEven | .roundAway => {a | ∀ n : ℤ, a + 1 / 2 ≠ n}
  | _ => Set.univ

/-- The arguments at which a binary operation is tame; `atan2(y, x)` jumps at `y = 0`, `x ≤ 0`. -/
def Op2.tame : Op2 → Set (ℝ × ℝ)
  | .div => {p | p.2 ≠ 0} | .pow => {p | 0 < p.1} | .atan2 => {p | p.1 ≠ 0 ∨ 0 < p.2}
  | _ => Set.univ

/-- Every operation of the expression is applied at a tame argument. -/
def Expr.TameAt {ι : Type} (t : ι → ℝ) : Expr ι → Prop
  | .var _ => True
  | .un op e => e.TameAt t ∧ e.val t ∈ op.tame
  | .bin op e₁ e₂ => e₁.TameAt t ∧ e₂.TameAt t ∧ (e₁.val t, e₂.val t) ∈ op.tame
  | .fma e₁ e₂ e₃ => e₁.TameAt t ∧ e₂.TameAt t ∧ e₃.TameAt t

end P1788
