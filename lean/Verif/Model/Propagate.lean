import Verif.Model.Expr
import Verif.Model.Calls

/-!
# Constraint propagation with the library

What the reverse functions are made for: a program keeps one interval per unknown and narrows them in turn, each time
by one call of a reverse function (`infsup/base_interval_rev_func_impl.hpp`; calls as in
`examples/e11_rev_functions.cpp:55-75`) or by `intersection(x, e)` with an expression `e` over the other unknowns
(`infsup/base_interval_set_op_impl.hpp`, `infsup/base_interval_elem_func_impl.hpp`).  The program itself is not part of
the repository; the calls it makes are those of `Model/Rev.lean`, `Model/RevTrig.lean`, `Model/MulRev.lean`,
`Model/Bool.lean` and `Model/Expr.lean`.
-/

namespace P1788

/-- One narrowing step. -/
inductive Step (ι : Type) where
  /-- `x = intersection(x, e)` -/
  | meet (x : ι) (e : Expr ι)
  /-- `x = sqr_rev(c, x)` and likewise `abs_rev`, `cosh_rev`, `sin_rev`, `cos_rev`, `tan_rev` -/
  | rev (op : RevOp) (c x : ι)
  /-- `x = pown_rev(c, x, p)` -/
  | pownRev (p : ℤ) (c x : ι)
  /-- `x = mul_rev(b, c, x)` -/
  | mulRev (b c x : ι)

variable {ι : Type} [DecidableEq ι]

/-- The assignment `x = v`. -/
def assign (X : ι → Itv) (x : ι) (v : Itv) : ι → Itv := fun i => if i = x then v else X i

/-- The effect of a step on the intervals; `none` is the undefined behaviour of `pown_rev` (`_rev_func_impl.hpp:252-388`,
`-p` overflows). -/
noncomputable def Step.run (φ : Fmt) (X : ι → Itv) : Step ι → Option (ι → Itv)
  | .meet x e => some (assign X x ((X x).inter (e.eval φ X)))
  | .rev op c x => some (assign X x (op.fn φ (X c) (X x)))
  | .pownRev p c x => ((X c).pownRev φ (X x) p).map (assign X x)
  | .mulRev b c x => some (assign X x ((X b).mulRev φ (X c) (X x)))

/-- The effect of a sequence of steps. -/
noncomputable def runSteps (φ : Fmt) (X : ι → Itv) : List (Step ι) → Option (ι → Itv)
  | [] => some X
  | s :: l => (s.run φ X).bind (runSteps φ · l)

end P1788
