import Verif.Model.Expr
import Mathlib.Data.Rat.Cast.Defs

/-!
# Derivatives of formulas

A program that transforms a formula into formulas of its partial derivatives, as programs for automatic differentiation do, so that evaluating
these formulas over a box with the library encloses the derivatives (in practice value and derivative are evaluated together, sharing their
common parts; the same calls are made).  The program is not part of the repository; the operations in the formulas are those of
`Model/Expr.lean`, which models `base_interval_elem_func_impl.hpp`.  Constants are the variables `.inr q`, to be given an interval with `q`.
Where a function has no derivative, the formula is undefined: `0 / a` for the derivative of `sign`, `0 / (ceil a - floor a)` for that of the
roundings, `a / |a|` for that of `|a|`.
-/

namespace P1788
variable {ι : Type}

/-- The constant `q` in a formula. -/
def Expr.cst (q : ℚ) : Expr (ι ⊕ ℚ) := .var (.inr q)

/-- The derivative of `op a`, where `d` is the derivative of `a`. -/
def Op1.dv (a d : Expr (ι ⊕ ℚ)) : Op1 → Expr (ι ⊕ ℚ)
  | .pos => d
  | .neg => .un .neg d
  | .recip => .un .neg (.bin .div d (.un .sqr a))
  | .sqr => .bin .mul (.bin .mul (.cst 2) a) d
  | .sqrt => .bin .div d (.bin .mul (.cst 2) (.un .sqrt a))
  | .abs => .bin .mul (.bin .div a (.un .abs a)) d
  | .pown p => if p = 0 then .bin .mul (.cst 0) d else .bin .mul (.bin .mul (.cst p) (.un (.pown (p - 1)) a)) d
  | .exp => .bin .mul (.un .exp a) d
  | .exp2 => .bin .mul (.bin .mul (.un .exp2 a) (.un .log (.cst 2))) d
  | .exp10 => .bin .mul (.bin .mul (.un .exp10 a) (.un .log (.cst 10))) d
  | .log => .bin .div d a
  | .log2 => .bin .div d (.bin .mul a (.un .log (.cst 2)))
  | .log10 => .bin .div d (.bin .mul a (.un .log (.cst 10)))
  | .sin => .bin .mul (.un .cos a) d
  | .cos => .un .neg (.bin .mul (.un .sin a) d)
  | .tan => .bin .mul (.bin .add (.cst 1) (.un .sqr (.un .tan a))) d
  | .asin => .bin .div d (.un .sqrt (.bin .sub (.cst 1) (.un .sqr a)))
  | .acos => .un .neg (.bin .div d (.un .sqrt (.bin .sub (.cst 1) (.un .sqr a))))
  | .atan => .bin .div d (.bin .add (.cst 1) (.un .sqr a))
  | .sinh => .bin .mul (.un .cosh a) d
  | .cosh => .bin .mul (.un .sinh a) d
  | .tanh => .bin .div d (.un .sqr (.un .cosh a))
  | .asinh => .bin .div d (.un .sqrt (.bin .add (.cst 1) (.un .sqr a)))
  | .acosh => .bin .div d (.bin .mul (.un .sqrt (.bin .sub a (.cst 1))) (.un .sqrt (.bin .add a (.cst 1))))
  | .atanh => .bin .div d (.un .sqr (.un .sqrt (.bin .sub (.cst 1) (.un .sqr a))))
  | .sign => .bin .mul (.bin .div (.cst 0) a) d
  | .ceil | .floor | .trunc => .bin .mul (.bin .div (.cst 0) (.bin .sub (.un .ceil a) (.un .floor a))) d
  | .roundEven | .roundAway => .bin .mul (.bin .div (.cst 0)
      (.bin .sub (.un .ceil (.bin .add a (.cst (1 / 2)))) (.un .floor (.bin .add a (.cst (1 / 2)))))) d

/-- The derivative of `op a b`, where `d` and `f` are the derivatives of `a` and `b`. -/
def Op2.dv (a b d f : Expr (ι ⊕ ℚ)) : Op2 → Expr (ι ⊕ ℚ)
  | .add => .bin .add d f
  | .sub => .bin .sub d f
  | .mul => .bin .add (.bin .mul d b) (.bin .mul a f)
  | .div => .bin .div (.bin .sub (.bin .mul d b) (.bin .mul a f)) (.un .sqr b)
  | .pow => .bin .mul (.bin .pow a b) (.bin .add (.bin .mul f (.un .log a)) (.bin .div (.bin .mul b d) a))
  | .atan2 => .bin .add (.bin .div (.bin .sub (.bin .mul d b) (.bin .mul a f)) (.bin .add (.un .sqr a) (.un .sqr b)))
      (.bin .mul (.cst 0) (.un .log (.bin .add b (.un .sqrt (.bin .add (.un .sqr a) (.un .sqr b))))))
  | .min => .bin .div (.bin .sub (.bin .add d f) (.bin .mul (.bin .div (.bin .sub a b) (.un .abs (.bin .sub a b))) (.bin .sub d f))) (.cst 2)
  | .max => .bin .div (.bin .add (.bin .add d f) (.bin .mul (.bin .div (.bin .sub a b) (.un .abs (.bin .sub a b))) (.bin .sub d f))) (.cst 2)

/-- The partial derivative of a formula by the unknown `j`. -/
def Expr.pd [DecidableEq ι] (j : ι) : Expr (ι ⊕ ℚ) → Expr (ι ⊕ ℚ)
  | .var (.inl i) => .cst (if i = j then 1 else 0)
  | .var (.inr _) => .cst 0
  | .un op a => op.dv a (a.pd j)
  | .bin op a b => op.dv a b (a.pd j) (b.pd j)
  | .fma a b c => .bin .add (.bin .add (.bin .mul (a.pd j) b) (.bin .mul a (b.pd j))) (c.pd j)

end P1788
