import Verif.Model.FP
import Mathlib.Data.Int.Log
import Mathlib.Algebra.Order.Floor.Ring
import Mathlib.Data.Rat.Floor

/-!
# Number formats and rounding

`Fmt` models the template instance
`mpfr_var<digits, min_exponent - digits + 1, max_exponent, true>`
(`p1788/flavor/infsup/setbased/mpfr_bin_ieee754_flavor.hpp:85-91`): MPFR numbers of precision
`p = digits` whose exponent range is that of the C++ type `T`, with `mpfr_subnormalize` applied
after each operation (`p1788/util/mpfr_var_impl.hpp:106-124`, `366-372`).

MPFR normalises significands to `[1/2,1)`, hence the least positive number is
`0.1b * 2^(min_exponent - digits + 1) = 2^(min_exponent - digits) = 2^qmin`.
-/

namespace P1788

/-- A binary floating-point format with subnormal numbers.  The side conditions hold for every IEEE 754 binary
interchange format from `binary16` on and for the x87 format, hence for every C++ type with `is_iec559`.
The parameters of `mpfr_var`, chosen in `mpfr_bin_ieee754_flavor.hpp:70-82`. -/
structure Fmt where
  /-- `std::numeric_limits<T>::digits` -/
  p : ℕ
  /-- exponent of the least positive number, `min_exponent - digits` -/
  qmin : ℤ
  /-- `std::numeric_limits<T>::max_exponent`; all finite numbers are `< 2^emax` -/
  emax : ℤ
  p_pos : 8 ≤ p
  range : qmin + p ≤ emax
  qmin_le : qmin ≤ -2 * p
  emax_ge : (p : ℤ) < emax

/-- `float` -/
def binary32 : Fmt := ⟨24, -149, 128, by decide, by decide, by decide, by decide⟩
/-- `double` -/
def binary64 : Fmt := ⟨53, -1074, 1024, by decide, by decide, by decide, by decide⟩
/-- x87 extended precision, `long double` on the library's target platform -/
def x87ext : Fmt := ⟨64, -16445, 16384, by decide, by decide, by decide, by decide⟩

/-- The directed rounding modes used by the library: `MPFR_RNDD`, `MPFR_RNDU`, `MPFR_RNDN`.
E.g. `_elem_func_impl.hpp:171-172`. -/
inductive Rnd where
  | D | U | N
  deriving DecidableEq

section
variable {K : Type*} [Field K] [LinearOrder K] [IsStrictOrderedRing K] [FloorRing K]

/-- Round to an integer: down, up, or to nearest with ties to even. -/
def roundInt (m : Rnd) (y : K) : ℤ :=
  match m with
  | .D => ⌊y⌋
  | .U => ⌈y⌉
  | .N => if y - ⌊y⌋ < 1 / 2 then ⌊y⌋
          else if 1 / 2 < y - ⌊y⌋ then ⌊y⌋ + 1
          else if ⌊y⌋ % 2 = 0 then ⌊y⌋ else ⌊y⌋ + 1

/-- Exponent of the unit in the last place used when rounding `x`. -/
def Fmt.expo (φ : Fmt) (x : K) : ℤ := max (Int.log 2 |x| - φ.p + 1) φ.qmin

/-- Largest finite number of the format, `(1 - 2^-p) * 2^emax`. -/
def Fmt.maxFin (φ : Fmt) : ℚ := (2 ^ φ.p - 1) * 2 ^ (φ.emax - φ.p)

/-- The multiple of the unit in the last place that `x` rounds to (exponent range unbounded above). -/
def Fmt.roundQ (φ : Fmt) (m : Rnd) (x : K) : ℚ :=
  (roundInt m (x / (2 : K) ^ φ.expo x) : ℤ) * (2 : ℚ) ^ φ.expo x

/-- Correct rounding of the exact value `x` into the format (MPFR's contract, including overflow and
gradual underflow).  An underflowing non-zero `x` keeps its sign; an exact `0` becomes `+0` here, the
sign of exact zero results is fixed by the individual operations. -/
def Fmt.round (φ : Fmt) (m : Rnd) (x : K) : FP :=
  let v := φ.roundQ m x
  if φ.maxFin < v then (match m with | .D => .fin φ.maxFin | _ => .pinf)
  else if v < -φ.maxFin then (match m with | .U => .fin (-φ.maxFin) | _ => .ninf)
  else if v = 0 then FP.mkZero (decide (x < 0))
  else .fin v

end

/-- `q` is a finite number of the format. -/
def Fmt.Rep (φ : Fmt) (q : ℚ) : Prop :=
  ∃ m e : ℤ, q = m * 2 ^ e ∧ |m| < 2 ^ φ.p ∧ φ.qmin ≤ e ∧ e + φ.p ≤ φ.emax

/-- A floating-point datum belongs to the format. -/
def FP.In (φ : Fmt) : FP → Prop
  | .fin q => φ.Rep q
  | _ => True

end P1788
