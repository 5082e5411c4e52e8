import Verif.Spec
import Verif.Lemmas.FP

/-!
# Specification vocabulary for numeric functions

`FP.toE` (file `Lemmas/FP`) is the extended real number a floating-point datum denotes.
-/

namespace P1788

/-- `a` is the exact supremum of `S` in the extended reals (`-∞` for the empty set). -/
def IsSup (a : FP) (S : Set ℝ) : Prop := a ≠ .nan ∧ IsLUB ((fun r : ℝ => (r : EReal)) '' S) a.toE

/-- `a` is the exact infimum of `S` in the extended reals (`+∞` for the empty set). -/
def IsInf (a : FP) (S : Set ℝ) : Prop := a ≠ .nan ∧ IsGLB ((fun r : ℝ => (r : EReal)) '' S) a.toE

/-- `a` is the least number of the format (infinities included) that is an upper bound of `S`. -/
def LeastUpper (φ : Fmt) (a : FP) (S : Set ℝ) : Prop :=
  a.In φ ∧ (∀ r ∈ S, a.AboveR r) ∧ ∀ b : FP, b.In φ → b ≠ .nan → (∀ r ∈ S, b.AboveR r) → a ≤ b

/-- `a` is the greatest number of the format (infinities included) that is a lower bound of `S`. -/
def GreatestLower (φ : Fmt) (a : FP) (S : Set ℝ) : Prop :=
  a.In φ ∧ (∀ r ∈ S, a.BelowR r) ∧ ∀ b : FP, b.In φ → b ≠ .nan → (∀ r ∈ S, b.BelowR r) → b ≤ a

/-- `q` is the number of the format nearest to `c`; between two equally near ones it is the one that is an even
multiple of their distance. -/
def RoundsTo (φ : Fmt) (q : ℚ) (c : ℝ) : Prop :=
  φ.Rep q ∧ ∀ f : ℚ, φ.Rep f → |(q : ℝ) - c| ≤ |(f : ℝ) - c| ∧
    (|(f : ℝ) - c| = |(q : ℝ) - c| → f ≠ q → ∃ k : ℤ, q = 2 * k * |q - f|)

end P1788
