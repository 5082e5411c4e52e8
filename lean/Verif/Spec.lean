import Verif.Model.Interval
import Mathlib.Data.Real.Basic
import Mathlib.Data.Set.Lattice

/-!
# Specification vocabulary

The meaning of an interval as a set of real numbers, validity, and tightness, stated without any of the
model's operations.
-/

namespace P1788

/-- The lower bound `a` admits the real `r` (`a ≤ r`; a NaN bound admits nothing). -/
def FP.BelowR : FP → ℝ → Prop
  | .nan, _ => False
  | .ninf, _ => True
  | .pinf, _ => False
  | .nzero, r => 0 ≤ r
  | .fin q, r => (q : ℝ) ≤ r

/-- The upper bound `a` admits the real `r` (`r ≤ a`; a NaN bound admits nothing). -/
def FP.AboveR : FP → ℝ → Prop
  | .nan, _ => False
  | .ninf, _ => False
  | .pinf, _ => True
  | .nzero, r => r ≤ 0
  | .fin q, r => r ≤ (q : ℝ)

/-- The set of reals denoted by a bare interval. -/
def Itv.set (x : Itv) : Set ℝ := {r | x.lo.BelowR r ∧ x.hi.AboveR r}

/-- The set of reals denoted by the interval part of a decorated interval. -/
abbrev DItv.set (x : DItv) : Set ℝ := x.itv.set

/-- `x` is a proper interval object of the format: either the representation of the empty set, or two format
numbers `lo ≤ hi` that are not NaN, with `lo < +∞` and `hi > -∞`. -/
def Itv.Ok (φ : Fmt) (x : Itv) : Prop :=
  x = ⟨.nan, .nan⟩ ∨ (x.lo ≤ x.hi ∧ x.lo ≠ .pinf ∧ x.hi ≠ .ninf ∧ x.lo.In φ ∧ x.hi.In φ)

/-- `R` is the tightest interval of format `φ` around the set `S`: it is a proper interval, contains `S`, and is
contained in every proper interval of the format that contains `S`. -/
def Tightest (φ : Fmt) (R : Itv) (S : Set ℝ) : Prop :=
  R.Ok φ ∧ S ⊆ R.set ∧ ∀ Y : Itv, Y.Ok φ → S ⊆ Y.set → R.set ⊆ Y.set

/-- Range of a unary real (partial) function with domain `dom` over a set. -/
def range1 (f : ℝ → ℝ) (dom : Set ℝ) (X : Set ℝ) : Set ℝ :=
  {z | ∃ a ∈ X, a ∈ dom ∧ z = f a}

/-- Range of a binary real (partial) function with domain `dom` over two sets. -/
def range2 (f : ℝ → ℝ → ℝ) (dom : Set (ℝ × ℝ)) (X Y : Set ℝ) : Set ℝ :=
  {z | ∃ a ∈ X, ∃ b ∈ Y, (a, b) ∈ dom ∧ z = f a b}

end P1788
