import Verif.Model.Propagate
import Verif.Model.Bool

/-!
# Programs that branch on comparisons of intervals

What the comparison functions are made for: a program computes with one interval per variable, and where the program it
was made from asks `a < b` for real numbers it asks `strictly_precedes(a, b)` ("certainly yes") and `precedes(b, a)`
("certainly no").  If neither answer is certain, a conditional runs both branches and joins the results with
`convex_hull`, and a loop gives up.  The program itself is not part of the repository; the calls it makes are those of
`Model/Expr.lean` and `Model/Bool.lean` (`base_interval_bool_func_impl.hpp:222-275, 390-443`,
`base_interval_set_op_impl.hpp`).
-/

namespace P1788

/-- Conditions over variables `ι`. Not part of the library: a program that calls it. -/
inductive Test (ι : Type) where
  | lt (a b : Expr ι)
  | le (a b : Expr ι)
  | not (c : Test ι)
  | and (c d : Test ι)

/-- Programs over variables `ι`. Not part of the library: a program that calls it. -/
inductive Prog (ι : Type) where
  | skip
  | set (x : ι) (e : Expr ι)
  | seq (p q : Prog ι)
  | cond (c : Test ι) (p q : Prog ι)
  | loop (c : Test ι) (p : Prog ι)

/-- The answer to `a < b`, if it is certain: `strictly_precedes(a, b)`, else `precedes(b, a)`.
See `Model/Bool.lean` for the lines. -/
def certainLt (r s : Itv → Itv → Bool) (a b : Itv) : Option Bool :=
  if r a b then some true else if s b a then some false else none

/-- The same for decorated intervals. See `Model/Bool.lean` for the lines. -/
def certainLtD (r s : Itv → Itv → Bool) (a b : DItv) : Option Bool :=
  if DItv.rel r a b then some true else if DItv.rel s b a then some false else none

/-- Conjunction of answers that may be open. Not part of the library: a program that calls it. -/
def and3 : Option Bool → Option Bool → Option Bool
  | some false, _ => some false
  | _, some false => some false
  | some true, some true => some true
  | _, _ => none

variable {ι : Type}

/-- A condition on intervals: the answer, if it is certain. -/
noncomputable def Test.eval (φ : Fmt) (X : ι → Itv) : Test ι → Option Bool
  | .lt a b => certainLt Itv.strictlyPrecedes Itv.precedes (a.eval φ X) (b.eval φ X)
  | .le a b => certainLt Itv.precedes Itv.strictlyPrecedes (a.eval φ X) (b.eval φ X)
  | .not c => (c.eval φ X).map (!·)
  | .and c d => and3 (c.eval φ X) (d.eval φ X)

/-- A condition on decorated intervals; it gives up unless the values compared are decorated `def` or better. -/
noncomputable def Test.evalD (φ : Fmt) (X : ι → DItv) : Test ι → Option Bool
  | .lt a b => if .defd ≤ (a.evalD φ X).dec ∧ .defd ≤ (b.evalD φ X).dec then
      certainLtD Itv.strictlyPrecedes Itv.precedes (a.evalD φ X) (b.evalD φ X) else none
  | .le a b => if .defd ≤ (a.evalD φ X).dec ∧ .defd ≤ (b.evalD φ X).dec then
      certainLtD Itv.precedes Itv.strictlyPrecedes (a.evalD φ X) (b.evalD φ X) else none
  | .not c => (c.evalD φ X).map (!·)
  | .and c d => (c.evalD φ X).bind fun a => (d.evalD φ X).map fun b => a && b

variable [DecidableEq ι]

/-- `Run φ p X X'`: the program, started with the intervals `X`, ends with the intervals `X'`. -/
inductive Run (φ : Fmt) : Prog ι → (ι → Itv) → (ι → Itv) → Prop
  | skip {X} : Run φ .skip X X
  | set {X x e} : Run φ (.set x e) X (assign X x (e.eval φ X))
  | seq {X Y Z p q} : Run φ p X Y → Run φ q Y Z → Run φ (.seq p q) X Z
  | yes {X Y c p q} : c.eval φ X = some true → Run φ p X Y → Run φ (.cond c p q) X Y
  | no {X Y c p q} : c.eval φ X = some false → Run φ q X Y → Run φ (.cond c p q) X Y
  /-- The answer is open: both branches, joined with `convex_hull` (`_set_op_impl.hpp:124-139`). -/
  | both {X Y Z c p q} : c.eval φ X = none → Run φ p X Y → Run φ q X Z →
      Run φ (.cond c p q) X (fun i => (Y i).hull (Z i))
  | again {X Y Z c p} : c.eval φ X = some true → Run φ p X Y → Run φ (.loop c p) Y Z → Run φ (.loop c p) X Z
  | done {X c p} : c.eval φ X = some false → Run φ (.loop c p) X X

/-- The assignment `x = v` of decorated intervals. -/
def assignD (X : ι → DItv) (x : ι) (v : DItv) : ι → DItv := fun i => if i = x then v else X i

/-- The same with decorated intervals; the program gives up when a value is not decorated `def` or better, and when an
answer is open. -/
inductive RunD (φ : Fmt) : Prog ι → (ι → DItv) → (ι → DItv) → Prop
  | skip {X} : RunD φ .skip X X
  | set {X x e} : .defd ≤ (e.evalD φ X).dec → RunD φ (.set x e) X (assignD X x (e.evalD φ X))
  | seq {X Y Z p q} : RunD φ p X Y → RunD φ q Y Z → RunD φ (.seq p q) X Z
  | yes {X Y c p q} : c.evalD φ X = some true → RunD φ p X Y → RunD φ (.cond c p q) X Y
  | no {X Y c p q} : c.evalD φ X = some false → RunD φ q X Y → RunD φ (.cond c p q) X Y
  | again {X Y Z c p} : c.evalD φ X = some true → RunD φ p X Y → RunD φ (.loop c p) Y Z → RunD φ (.loop c p) X Z
  | done {X c p} : c.evalD φ X = some false → RunD φ (.loop c p) X X

end P1788
