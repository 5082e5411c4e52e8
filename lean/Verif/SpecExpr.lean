import Verif.SpecDec
import Verif.Model.Expr
import Mathlib.Analysis.SpecialFunctions.Pow.Real
import Mathlib.Analysis.SpecialFunctions.Log.Base
import Mathlib.Analysis.SpecialFunctions.Trigonometric.Inverse
import Mathlib.Analysis.SpecialFunctions.Trigonometric.Arctan
import Mathlib.Analysis.SpecialFunctions.Arsinh
import Mathlib.Analysis.SpecialFunctions.Arcosh
import Mathlib.Analysis.SpecialFunctions.Artanh
import Mathlib.Analysis.SpecialFunctions.Complex.Arg
import Mathlib.Data.Real.Sign

/-!
# Specification vocabulary for expressions

The real (partial) function denoted by each operation and by an expression tree.
-/

namespace P1788

/-- Rounding to an integer towards zero. -/
noncomputable def truncR (r : ℝ) : ℤ := if 0 ≤ r then ⌊r⌋ else ⌈r⌉

/-- Rounding to the nearest integer, ties to even. -/
noncomputable def roundEvenR (r : ℝ) : ℤ :=
  if r - ⌊r⌋ < 1 / 2 then ⌊r⌋ else if 1 / 2 < r - ⌊r⌋ then ⌊r⌋ + 1 else if Even ⌊r⌋ then ⌊r⌋ else ⌊r⌋ + 1

/-- Rounding to the nearest integer, ties away from zero. -/
noncomputable def roundAwayR (r : ℝ) : ℤ := if 0 ≤ r then ⌊r + 1 / 2⌋ else ⌈r - 1 / 2⌉

/-- The real function of a unary operation. -/
noncomputable def Op1.fn : Op1 → ℝ → ℝ
  | .pos => fun a => a | .neg => fun a => -a | .recip => fun a => 1 / a | .sqr => fun a => a ^ 2
  | .sqrt => Real.sqrt | .abs => fun a => |a| | .pown p => fun a => a ^ p
  | .exp => Real.exp | .exp2 => fun a => (2:ℝ) ^ a | .exp10 => fun a => (10:ℝ) ^ a
  | .log => Real.log | .log2 => Real.logb 2 | .log10 => Real.logb 10
  | .sin => Real.sin | .cos => Real.cos | .tan => Real.tan
  | .asin => Real.arcsin | .acos => Real.arccos | .atan => Real.arctan
  | .sinh => Real.sinh | .cosh => Real.cosh | .tanh => Real.tanh
  | .asinh => Real.arsinh | .acosh => Real.arcosh | .atanh => Real.artanh
  | .sign => Real.sign | .ceil => fun r => (⌈r⌉ : ℝ) | .floor => fun r => (⌊r⌋ : ℝ)
  | .trunc => fun r => (truncR r : ℝ) | .roundEven => fun r => (roundEvenR r : ℝ)
  | .roundAway => fun r => (roundAwayR r : ℝ)

/-- Its natural domain. -/
def Op1.dom : Op1 → Set ℝ
  | .recip => {a | a ≠ 0} | .sqrt => {a | 0 ≤ a} | .pown p => {a | p < 0 → a ≠ 0}
  | .log | .log2 | .log10 => {a | 0 < a}
  | .tan => {a | Real.cos a ≠ 0}
  | .asin | .acos => {a | -1 ≤ a ∧ a ≤ 1}
  | .acosh => {a | 1 ≤ a} | .atanh => {a | -1 < a ∧ a < 1}
  | _ => Set.univ

/-- The real function of a binary operation; `atan2(y, x)` is the argument of `x + iy`. -/
noncomputable def Op2.fn : Op2 → ℝ × ℝ → ℝ
  | .add => fun p => p.1 + p.2 | .sub => fun p => p.1 - p.2 | .mul => fun p => p.1 * p.2
  | .div => fun p => p.1 / p.2 | .pow => fun p => p.1 ^ p.2 | .atan2 => fun p => Complex.arg ⟨p.2, p.1⟩
  | .min => fun p => p.1 ⊓ p.2 | .max => fun p => p.1 ⊔ p.2

/-- Its natural domain. -/
def Op2.dom : Op2 → Set (ℝ × ℝ)
  | .div => {p | p.2 ≠ 0} | .pow => {p | 0 < p.1 ∨ (p.1 = 0 ∧ 0 < p.2)} | .atan2 => {p | p ≠ (0, 0)}
  | _ => Set.univ

namespace Expr
variable {ι : Type}

/-- The value of the expression at a point. -/
noncomputable def val : Expr ι → (ι → ℝ) → ℝ
  | var i => fun t => t i
  | un op e => fun t => op.fn (e.val t)
  | bin op e₁ e₂ => fun t => op.fn (e₁.val t, e₂.val t)
  | fma e₁ e₂ e₃ => fun t => e₁.val t * e₂.val t + e₃.val t

/-- The points at which the expression is defined: every operation is applied inside its domain. -/
noncomputable def dom : Expr ι → Set (ι → ℝ)
  | var _ => Set.univ
  | un op e => {t | t ∈ e.dom ∧ e.val t ∈ op.dom}
  | bin op e₁ e₂ => {t | t ∈ e₁.dom ∧ t ∈ e₂.dom ∧ (e₁.val t, e₂.val t) ∈ op.dom}
  | fma e₁ e₂ e₃ => {t | t ∈ e₁.dom ∧ t ∈ e₂.dom ∧ t ∈ e₃.dom}

/-- The variables occurring in the expression. -/
def vars : Expr ι → Set ι
  | var i => {i}
  | un _ e => e.vars
  | bin _ e₁ e₂ => e₁.vars ∪ e₂.vars
  | fma e₁ e₂ e₃ => e₁.vars ∪ e₂.vars ∪ e₃.vars

/-- The expression does not use the tangent. -/
def TanFree : Expr ι → Prop
  | var _ => True
  | un op e => op ≠ .tan ∧ e.TanFree
  | bin _ e₁ e₂ => e₁.TanFree ∧ e₂.TanFree
  | fma e₁ e₂ e₃ => e₁.TanFree ∧ e₂.TanFree ∧ e₃.TanFree

end Expr

/-- The points of a box of intervals. -/
def boxSet {ι : Type} (X : ι → Set ℝ) : Set (ι → ℝ) := {t | ∀ i, t i ∈ X i}

end P1788
