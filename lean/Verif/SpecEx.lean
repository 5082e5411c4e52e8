import Verif.Spec
import Verif.Model.Exception

/-!
# Specification vocabulary for calls that may signal an exceptional condition
-/

namespace P1788

/-- The call ends normally with the value `a` and changes neither the flags nor the mask, whatever they are. -/
def Returns {α : Type} (m : M α) (a : α) : Prop := ∀ s : ExSt, m s = (.ret a, s)

/-- The call signals the condition `e`: whatever the state, afterwards the flag of `e` is set, every other flag and
the mask are as before; if the mask enables `e` the call throws the exception of `e`, otherwise it ends normally with
the value `a`. -/
def Raises {α : Type} (m : M α) (e : Ex) (a : α) : Prop := ∀ s : ExSt,
  (m s).2.flags e = true ∧ (∀ e', e' ≠ e → (m s).2.flags e' = s.flags e') ∧ (m s).2.cwd = s.cwd ∧
  (s.cwd e = true → (m s).1 = .thrown e) ∧ (s.cwd e = false → (m s).1 = .ret a)

/-- `l` and `u` are the bounds of a non-empty interval: some real number is at least `l` and at most `u` (a NaN is
neither below nor above any real number). -/
def ValidBounds (l u : FP) : Prop := ∃ r : ℝ, l.BelowR r ∧ u.AboveR r

/-- `x` is an interval object: the empty one, or one with valid bounds (of whatever format). -/
def Itv.Proper (x : Itv) : Prop := x = ⟨.nan, .nan⟩ ∨ ValidBounds x.lo x.hi

end P1788
