import Verif.Model.Round

/-!
# MPFR arithmetic on floating-point data (contract of the external library)

Each function is the composition "MPFR operation with the given rounding mode, then
`mpfr_subnormalize` with the same mode, then `get<T>`", as the flavor always uses it
(`p1788/util/mpfr_var_impl.hpp:119-125, 184-224, 366-372`).  The special-value rules are those of the MPFR
manual (they coincide with IEEE 754): `inf - inf`, `0 * inf`, `0/0`, `inf/inf` are NaN; `x/0` is an
infinity; an exact zero sum of operands with different signs is `+0`, or `-0` for `MPFR_RNDD`.
-/

namespace P1788

namespace FP

/-- Finite value of a datum (0 if it has none). -/
def q : FP → ℚ
  | fin q => q
  | _ => 0

/-- Zero test, C++ `a == 0.0`. E.g. `_util_func_impl.hpp:50-54`. -/
def isZero : FP → Bool
  | nzero => true
  | fin q => decide (q = 0)
  | _ => false

end FP

open FP

namespace Fmt
variable (φ : Fmt) (m : Rnd)

/-- `mpfr_add`. E.g. `_elem_func_impl.hpp:171-172`. -/
def add (a b : FP) : FP :=
  match a, b with
  | .nan, _ => .nan
  | _, .nan => .nan
  | .ninf, .pinf => .nan
  | .pinf, .ninf => .nan
  | .ninf, _ => .ninf
  | _, .ninf => .ninf
  | .pinf, _ => .pinf
  | _, .pinf => .pinf
  | a, b =>
    if a.q + b.q = 0 then
      (if a.signbit == b.signbit then FP.mkZero a.signbit else FP.mkZero (decide (m = .D)))
    else φ.round m (a.q + b.q)

/-- `mpfr_sub`. E.g. `_elem_func_impl.hpp:277-278`. -/
def sub (a b : FP) : FP := φ.add m a b.neg

/-- `mpfr_mul`. E.g. `_elem_func_impl.hpp:398-399`. -/
def mul (a b : FP) : FP :=
  match a, b with
  | .nan, _ => .nan
  | _, .nan => .nan
  | a, b =>
    if (a.isInf && b.isZero) || (a.isZero && b.isInf) then .nan
    else if a.isInf || b.isInf then FP.mkInf (a.signbit != b.signbit)
    else if a.isZero || b.isZero then FP.mkZero (a.signbit != b.signbit)
    else φ.round m (a.q * b.q)

/-- `mpfr_div`. E.g. `_elem_func_impl.hpp:618-619`. -/
def div (a b : FP) : FP :=
  match a, b with
  | .nan, _ => .nan
  | _, .nan => .nan
  | a, b =>
    if (a.isInf && b.isInf) || (a.isZero && b.isZero) then .nan
    else if a.isInf || b.isZero then FP.mkInf (a.signbit != b.signbit)
    else if a.isZero || b.isInf then FP.mkZero (a.signbit != b.signbit)
    else φ.round m (a.q / b.q)

/-- `mpfr_fma`: `a*b+c` with a single rounding. E.g. `_elem_func_impl.hpp:1121-1122`. -/
def fma (a b c : FP) : FP :=
  match a, b, c with
  | .nan, _, _ => .nan
  | _, .nan, _ => .nan
  | _, _, .nan => .nan
  | a, b, c =>
    if (a.isInf && b.isZero) || (a.isZero && b.isInf) then .nan
    else if a.isInf || b.isInf then φ.add m (FP.mkInf (a.signbit != b.signbit)) c
    else if c.isInf then c
    else if a.q * b.q + c.q = 0 then
      (if a.q * b.q = 0 ∧ (a.signbit != b.signbit) = c.signbit then FP.mkZero c.signbit
       else FP.mkZero (decide (m = .D)))
    else φ.round m (a.q * b.q + c.q)

end Fmt

end P1788

namespace P1788

/-- `mpfr_min`: a NaN operand is ignored, for zeros of different signs the result is `-0`.
`_elem_func_impl.hpp:492, 1239, 1633`. -/
def FP.mpfrMin (a b : FP) : FP :=
  if a.isNaN then b else if b.isNaN then a
  else if a.isZero && b.isZero then FP.mkZero (a.signbit || b.signbit)
  else if a ≤ b then a else b

/-- `mpfr_max`: a NaN operand is ignored, for zeros of different signs the result is `+0`.
`_elem_func_impl.hpp:496, 1243, 1634`. -/
def FP.mpfrMax (a b : FP) : FP :=
  if a.isNaN then b else if b.isNaN then a
  else if a.isZero && b.isZero then FP.mkZero (a.signbit && b.signbit)
  else if a ≤ b then b else a

/-- `mpfr_pow_si`: integer power; `pow(±0, n<0)` is an infinity, `pow(x,0) = 1`.
`_elem_func_impl.hpp:1364, 1372`, `_rev_func_impl.hpp:346, 382`. -/
def Fmt.powSi (φ : Fmt) (m : Rnd) (a : FP) (n : ℤ) : FP :=
  if n = 0 then .fin 1 else
  match a with
  | .nan => .nan
  | a =>
    let s := a.signbit && decide (n % 2 ≠ 0)
    if a.isInf then (if 0 < n then FP.mkInf s else FP.mkZero s)
    else if a.isZero then (if 0 < n then FP.mkZero s else FP.mkInf s)
    else φ.round m (a.q ^ n)

end P1788
