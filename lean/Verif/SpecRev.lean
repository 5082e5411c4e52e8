import Verif.Spec

/-!
# Specification of cancellative and reverse operations
-/

namespace P1788

/-- `R` is the tightest interval `z` of the format with `X ⊆ Y + z`. -/
def CancelsTo (φ : Fmt) (R : Itv) (X Y : Set ℝ) : Prop :=
  R.Ok φ ∧ (∀ a ∈ X, ∃ b ∈ Y, ∃ c ∈ R.set, a = b + c) ∧
  ∀ Z : Itv, Z.Ok φ → (∀ a ∈ X, ∃ b ∈ Y, ∃ c ∈ Z.set, a = b + c) → R.set ⊆ Z.set

/-- The pairs `x = [a, b]`, `y = [c, d]` for which `cancel_minus` does not notice that `x` is narrower than `y`: the upper bound
of `x` is the largest finite number, `y` does not lie above the lower bound of `x`, the width of `x` is half way between an odd and the next even
multiple of the unit `u` of the largest numbers, and `y` is wider than `x` by at most `u`. -/
def CancelBad (φ : Fmt) (a b c d : ℝ) : Prop :=
  b = φ.maxFin ∧ d ≤ a ∧ (∃ k : ℤ, Even k ∧ 2 ^ (φ.p - 1) < k ∧ k < 2 ^ φ.p ∧ b - a = (k - 1 / 2) * 2 ^ (φ.emax - φ.p)) ∧
    b - a < d - c ∧ d - c ≤ b - a + 2 ^ (φ.emax - φ.p)

/-- The same for intervals. -/
def Itv.CancelBad (φ : Fmt) (x y : Itv) : Prop :=
  ∃ a b c d : ℝ, a ≤ b ∧ c ≤ d ∧ x.set = Set.Icc a b ∧ y.set = Set.Icc c d ∧ P1788.CancelBad φ a b c d

/-- Two different numbers of the format lie between `s` and `t`. -/
def TwoBetween (φ : Fmt) (s t : ℝ) : Prop := ∃ f g : ℚ, φ.Rep f ∧ φ.Rep g ∧ f < g ∧ s ≤ f ∧ (g:ℝ) ≤ t

/-- The pairs for which `cancel_minus`, computing in the format `ψ` and returning an interval of the format `φ`, returns an invalid
object: the pair is bad, and two numbers of the result type lie between `sup x - sup y` and `inf x - inf y`. -/
def Itv.CancelInvalid (ψ φ : Fmt) (x y : Itv) : Prop :=
  ∃ a b c d : ℝ, a ≤ b ∧ c ≤ d ∧ x.set = Set.Icc a b ∧ y.set = Set.Icc c d ∧ P1788.CancelBad ψ a b c d ∧
    TwoBetween φ (b - d) (a - c)

/-- The solution set of reverse multiplication: all `t` with `b * t ∈ C` for some `b ∈ B`. -/
def MulSol (B C : Set ℝ) : Set ℝ := {t | ∃ b ∈ B, b * t ∈ C}

/-- `B` has negative and positive members and `C` does not contain zero: the case of two separate components. -/
def Splits (B C : Set ℝ) : Prop := (∃ b ∈ B, b < 0) ∧ (∃ b ∈ B, 0 < b) ∧ (0:ℝ) ∉ C

/-- The members of `x` that `f` maps into `c`. -/
def RevSol (f : ℝ → ℝ) (C X : Set ℝ) : Set ℝ := {t ∈ X | f t ∈ C}

/-- The same for a function that is defined on `dom` only. -/
def RevSolOn (f : ℝ → ℝ) (dom C X : Set ℝ) : Set ℝ := {t ∈ X | t ∈ dom ∧ f t ∈ C}

/-- Every finite bound of `x` is of magnitude at most `2^p` (`p` the precision of the format) and at most `2^64`. -/
def Itv.SmallBounds (φ : Fmt) (x : Itv) : Prop :=
  ∀ q : ℚ, x.lo = .fin q ∨ x.hi = .fin q → |q| ≤ 2 ^ φ.p ∧ |q| ≤ 2 ^ 64

/-- Every finite bound of `x` is of magnitude at most `2^64`. -/
def Itv.Bounds64 (x : Itv) : Prop := ∀ q : ℚ, x.lo = .fin q ∨ x.hi = .fin q → |q| ≤ 2 ^ 64

/-- `R` is a valid interval inside `X` that contains every solution in `X` and is contained in every interval of the
format that contains the whole solution set `S`. -/
def CutTo (φ : Fmt) (R : Itv) (S X : Set ℝ) : Prop :=
  R.Ok φ ∧ S ∩ X ⊆ R.set ∧ R.set ⊆ X ∧ ∀ Y : Itv, Y.Ok φ → S ⊆ Y.set → R.set ⊆ Y.set

/-- All reals at which the integer power `t ^ p` is defined and lies in `C`. -/
def PowSol (p : ℤ) (C : Set ℝ) : Set ℝ := {t | (t ≠ 0 ∨ 0 ≤ p) ∧ t ^ p ∈ C}

end P1788
