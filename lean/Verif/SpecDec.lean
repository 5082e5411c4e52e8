import Verif.Spec
import Mathlib.Topology.MetricSpace.Bounded
import Mathlib.Topology.ContinuousOn

/-!
# Specification vocabulary for decorations

The meaning of the decorations of IEEE 1788 (set-based flavor), for a real function `f` with natural domain `dom` on a
box `X`, stated without any of the model's operations.
-/

namespace P1788

/-- `x` is a proper decorated interval object: a proper interval, decorated `ill` or `trv` if it is empty, not `ill`
if it is non-empty, and `com` only if it is bounded. -/
def DItv.Ok (φ : Fmt) (x : DItv) : Prop :=
  x.itv.Ok φ ∧
  (x.itv = ⟨.nan, .nan⟩ → x.dec = .ill ∨ x.dec = .trv) ∧
  (x.itv ≠ ⟨.nan, .nan⟩ → x.dec ≠ .ill) ∧
  (x.dec = .com → x.itv.lo ≠ .ninf ∧ x.itv.hi ≠ .pinf)

/-- A decorated interval that is NaI ("not an interval"). -/
def DItv.IsNaI (x : DItv) : Prop := x.itv = ⟨.nan, .nan⟩ ∧ x.dec = .ill

section
variable {α : Type*} [TopologicalSpace α] [Bornology α]

/-- What the decoration `d` of a result with value set `R` claims about `f` with domain `dom` on the box `X`:
* `ill`: `f` is nowhere defined;
* `trv`: nothing;
* `def`: `X` is non-empty and `f` is defined on all of `X`;
* `dac`: in addition the restriction of `f` to `X` is continuous;
* `com`: in addition `X` is bounded, `f` is continuous at every point of `X` and the result is bounded. -/
def DecMeans (f : α → ℝ) (dom X : Set α) (R : Set ℝ) : Dec → Prop
  | .ill => dom = ∅
  | .trv => True
  | .defd => X.Nonempty ∧ X ⊆ dom
  | .dac => X.Nonempty ∧ X ⊆ dom ∧ ContinuousOn f X
  | .com => X.Nonempty ∧ X ⊆ dom ∧ (∀ t ∈ X, ContinuousWithinAt f dom t) ∧ Bornology.IsBounded X ∧
      Bornology.IsBounded R

/-- The decoration of `r` is exactly right for `f` on `X`, given that the operands' decorations have the minimum
`dx`: it is not `ill`, does not exceed `dx`, what it claims is true, and no stronger decoration up to `dx` has a
true claim. -/
structure DecRight (f : α → ℝ) (dom X : Set α) (dx : Dec) (r : DItv) : Prop where
  not_ill : r.dec ≠ .ill
  le : r.dec ≤ dx
  true_claim : DecMeans f dom X r.set r.dec
  strongest : ∀ d, d ≤ dx → DecMeans f dom X r.set d → d ≤ r.dec
end

end P1788
