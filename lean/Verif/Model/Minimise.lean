import Verif.Model.Search
import Verif.Model.Expr
import Verif.Model.Dec

/-!
# Global minimisation by branch and bound

A program that looks for the global minimum of a formula over a box.  It keeps a list of boxes and an upper bound of the
minimum, and in any order (the strategy is left open) throws boxes away, bisects them as `examples/e15_bisection.cpp:58-66`
does, or improves the bound by evaluating the formula at a point.  The program is not part of the repository; the calls it makes
are those of `Model/Expr.lean`, `Model/Num.lean`, `Model/Bool.lean` and `Model/Search.lean` (`inf`, `sup`, `mid`:
`infsup/base_interval_num_func_impl.hpp`; `is_empty`, `is_member`: `infsup/base_interval_rec_bool_func_impl.hpp`; the operators:
`infsup/base_interval_elem_func_impl.hpp`).
-/

namespace P1788
variable {ι : Type} [DecidableEq ι]

/-- The boxes still to be examined and the upper bound. -/
structure MinState (ι : Type) where
  boxes : List (ι → Itv)
  ub : FP

/-- One step of the search. -/
inductive MinStep (φ : Fmt) (e : Expr ι) : MinState ι → MinState ι → Prop
  /-- A box with an empty side is thrown away. -/
  | dropEmpty {l₁ l₂ X u i} (h : (X i).isEmpty = true) : MinStep φ e ⟨l₁ ++ X :: l₂, u⟩ ⟨l₁ ++ l₂, u⟩
  /-- A box with `ub < inf(e(X))` is thrown away. -/
  | drop {l₁ l₂ X u} (h : u < (e.eval φ X).inf) : MinStep φ e ⟨l₁ ++ X :: l₂, u⟩ ⟨l₁ ++ l₂, u⟩
  /-- A side is bisected: `I(inf(x), mid(x))` and `I(mid(x), sup(x))`. -/
  | split {l₁ l₂ X u i a b} (ha : mkI (X i).inf ((X i).mid φ) = .ok a) (hb : mkI ((X i).mid φ) (X i).sup = .ok b) :
    MinStep φ e ⟨l₁ ++ X :: l₂, u⟩ ⟨l₁ ++ Function.update X i a :: Function.update X i b :: l₂, u⟩
  /-- The formula is evaluated at numbers `p` of the box, as decorated point intervals; if the decoration is at least `def` and
  the upper bound of the result is smaller than `ub`, it becomes the new bound. -/
  | probe {l u X} {p : ι → FP} (hX : X ∈ l) (hi : ∀ i, (p i).In φ) (hp : ∀ i, (X i).isMember (p i) = true)
    (hd : .defd ≤ (e.evalD φ fun i => Itv.newDec ⟨p i, p i⟩).dec)
    (h : (e.evalD φ fun i => Itv.newDec ⟨p i, p i⟩).itv.sup < u) :
    MinStep φ e ⟨l, u⟩ ⟨l, (e.evalD φ fun i => Itv.newDec ⟨p i, p i⟩).itv.sup⟩

/-- Any number of steps in any order. -/
def MinRun (φ : Fmt) (e : Expr ι) : MinState ι → MinState ι → Prop := Relation.ReflTransGen (MinStep φ e)

end P1788
