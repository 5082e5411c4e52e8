import Mathlib.Data.Rat.Defs
import Mathlib.Algebra.Order.Ring.Rat

/-!
# Floating-point values and C++ comparisons

Values of the C++ types `float`, `double`, `long double` used as bound types `T` of
`mpfr_bin_ieee754_flavor<T>`.  A finite value carries its exact rational value.

Simplification: NaN payloads and signs of NaN are not modelled.
-/

namespace P1788

/-- A floating-point datum: NaN, the infinities, `-0.0` (`nzero`) and finite values.
`fin 0` is `+0.0`; `fin q` with `q ≠ 0` is the finite non-zero number `q`.
The type parameter `T` of `mpfr_bin_ieee754_flavor.hpp:70-82`. -/
inductive FP where
  | nan
  | ninf
  | pinf
  | nzero
  | fin (q : ℚ)
  deriving DecidableEq

namespace FP

/-- `+0.0` -/
abbrev zero : FP := .fin 0

/-- `std::isnan`. E.g. `_validation_func_impl.hpp:46`. -/
def isNaN : FP → Bool
  | nan => true
  | _ => false

/-- `std::isinf`. E.g. `_class_impl.hpp:243`. -/
def isInf : FP → Bool
  | ninf => true
  | pinf => true
  | _ => false

/-- `std::signbit` (NaN: `false`). -/
def signbit : FP → Bool
  | ninf => true
  | nzero => true
  | fin q => decide (q < 0)
  | _ => false

/-- A zero with the given sign bit. -/
def mkZero (s : Bool) : FP := if s then nzero else fin 0

/-- An infinity with the given sign bit. -/
def mkInf (s : Bool) : FP := if s then ninf else pinf

/-- Unary minus. E.g. `_cancel_func_impl.hpp:121`. -/
def neg : FP → FP
  | nan => nan
  | ninf => pinf
  | pinf => ninf
  | nzero => fin 0
  | fin q => if q = 0 then nzero else fin (-q)

/-- IEEE 754 `<` as used by the C++ comparison `a < b` (false if an operand is NaN, `-0.0 = +0.0`).
E.g. `_bool_func_impl.hpp:518`. -/
def ltb : FP → FP → Bool
  | nan, _ => false
  | _, nan => false
  | _, ninf => false
  | ninf, _ => true
  | pinf, _ => false
  | _, pinf => true
  | nzero, nzero => false
  | nzero, fin b => decide (0 < b)
  | fin a, nzero => decide (a < 0)
  | fin a, fin b => decide (a < b)

/-- IEEE 754 `<=` as used by the C++ comparison `a <= b`. E.g. `_validation_func_impl.hpp:47`. -/
def leb : FP → FP → Bool
  | nan, _ => false
  | _, nan => false
  | ninf, _ => true
  | _, pinf => true
  | _, ninf => false
  | pinf, _ => false
  | nzero, nzero => true
  | nzero, fin b => decide (0 ≤ b)
  | fin a, nzero => decide (a ≤ 0)
  | fin a, fin b => decide (a ≤ b)

/-- IEEE 754 `==` as used by the C++ comparison `a == b`. E.g. `_elem_func_impl.hpp:370`. -/
def feq (a b : FP) : Bool := a.leb b && b.leb a

instance : LT FP := ⟨fun a b => a.ltb b = true⟩
instance : LE FP := ⟨fun a b => a.leb b = true⟩
instance (a b : FP) : Decidable (a < b) := inferInstanceAs (Decidable (a.ltb b = true))
instance (a b : FP) : Decidable (a ≤ b) := inferInstanceAs (Decidable (a.leb b = true))

/-- `std::min(a,b)`: returns `b` if `b < a`, else `a`. E.g. `_set_op_impl.hpp:55`. -/
def stdMin (a b : FP) : FP := if b < a then b else a

/-- `std::max(a,b)`: returns `b` if `a < b`, else `a`. E.g. `_set_op_impl.hpp:55`. -/
def stdMax (a b : FP) : FP := if a < b then b else a

/-- `std::abs`. E.g. `_num_func_impl.hpp:518-519`. -/
def abs : FP → FP
  | ninf => pinf
  | nzero => fin 0
  | fin q => fin |q|
  | a => a

end FP

end P1788
