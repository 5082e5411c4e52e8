import Verif.Model.Num

/-!
# The wrapper `mpfr_var` in terms of MPFR's own operations

`Verif/Model/Round.lean` takes the composition "MPFR operation, `mpfr_subnormalize`, `get<T>`" to be one correct rounding.  Here the parts are
modelled, as documented in the manual of MPFR: results are rounded to the precision of the variable as if the exponent were
unbounded, then brought into the exponent range that is currently set (a global state of MPFR, set by `setup()`), then
`mpfr_subnormalize` rounds once more, taking into account the ternary value.
-/

namespace P1788

/-- The exponent range in force (`mpfr_set_emin`, `mpfr_set_emax`): a global state. `mpfr_var_impl.hpp:120-125`. -/
structure Range where
  emin : ℤ
  emax : ℤ
  deriving DecidableEq

/-- `mpfr_var<PREC, EMIN, EMAX, SUBNORMALIZE>` (`mpfr_var.hpp:46-61`) -/
structure VarTy where
  prec : ℕ
  range : Range
  subn : Bool

/-- `mpfr_bin_ieee754_flavor<T>::mpfr_var` with `digits = p`, `min_exponent = qmin + p`, `max_exponent = emax`
(`mpfr_bin_ieee754_flavor.hpp:85-91`). -/
def Fmt.var (φ : Fmt) : VarTy := ⟨φ.p, ⟨(φ.qmin + φ.p) - φ.p + 1, φ.emax⟩, true⟩

/-- `mid`'s `ext_mpfr_var` (`_num_func_impl.hpp:187-190, 236-239`). -/
def Fmt.extVar (φ : Fmt) : VarTy := ⟨φ.var.prec, ⟨φ.var.range.emin - 1, φ.var.range.emax⟩, false⟩

/-- `setup()`, `mpfr_var_impl.hpp:121-126` -/
def VarTy.setup (V : VarTy) (_ : Range) : Range := V.range

section
variable {K : Type*} [Field K] [LinearOrder K] [IsStrictOrderedRing K] [FloorRing K]

/-- The exact value `x ≠ 0` rounded to `P` bits, with unbounded exponent. -/
def mpfrUnb (P : ℕ) (m : Rnd) (x : K) : ℚ :=
  (roundInt m (x / (2 : K) ^ (Int.log 2 |x| - P + 1)) : ℤ) * (2 : ℚ) ^ (Int.log 2 |x| - P + 1)

/-- The ternary value: the sign of the difference between the rounded and the exact value. -/
def ternary (v : ℚ) (x : K) : ℤ := if (v : K) < x then -1 else if x < (v : K) then 1 else 0

/-- Whether a result below the range is replaced by zero, rather than by the least positive number: to nearest, the exact value lies
in the lower half, which for a result that is exactly the half follows from the ternary value. -/
def Range.flush (r : Range) (m : Rnd) (v : ℚ) (t : ℤ) : Bool :=
  match m with
  | .D => decide (0 < v)
  | .U => decide (v < 0)
  | .N => decide (|v| < 2 ^ (r.emin - 2) ∨ |v| = 2 ^ (r.emin - 2) ∧ (if v < 0 then t ≤ 0 else 0 ≤ t))

/-- `mpfr_check_range`: the result `v` of an operation with ternary value `t` is brought into the exponent range.
Called explicitly at `_num_func_impl.hpp:207, 260`. -/
def Range.check (r : Range) (P : ℕ) (m : Rnd) (y : FP × ℤ) : FP × ℤ :=
  match y with
  | (.fin v, t) =>
    if v = 0 then y
    else if |v| < 2 ^ (r.emin - 1) then
      if r.flush m v t then (FP.mkZero (decide (v < 0)), if v < 0 then 1 else -1)
      else if v < 0 then (.fin (-2 ^ (r.emin - 1)), -1) else (.fin (2 ^ (r.emin - 1)), 1)
    else if 2 ^ r.emax ≤ |v| then
      if v < 0 then (if m = .U then (.fin (-((2 ^ P - 1) * 2 ^ (r.emax - P))), 1) else (.ninf, -1))
      else (if m = .D then (.fin ((2 ^ P - 1) * 2 ^ (r.emax - P)), -1) else (.pinf, 1))
    else y
  | _ => y

/-- An operation of MPFR with the exact result `x ≠ 0`: the rounded value and the ternary value. -/
def Range.op (r : Range) (P : ℕ) (m : Rnd) (x : K) : FP × ℤ :=
  r.check P m (.fin (mpfrUnb P m x), ternary (mpfrUnb P m x) x)

end

/-- Rounding to an integer `z`, which itself was obtained with ternary value `t`, to an integer without double rounding: only if
`z` lies halfway between integers does it matter on which side of it the exact value lies. -/
def subRound (m : Rnd) (z : ℚ) (t : ℤ) : ℤ :=
  if m = .N ∧ z - ⌊z⌋ = 1 / 2 ∧ t ≠ 0 then (if 0 < t then ⌊z⌋ else ⌊z⌋ + 1) else roundInt m z

/-- `mpfr_subnormalize` for a variable of precision `P`. `mpfr_var_impl.hpp:107-116`. -/
def Range.subnormalize (r : Range) (P : ℕ) (m : Rnd) (y : FP × ℤ) : FP × ℤ :=
  match y with
  | (.fin v, t) =>
    if v = 0 ∨ 2 ^ (r.emin + P - 2) ≤ |v| then y
    else
      let w : ℚ := subRound m (v / 2 ^ (r.emin - 1)) t * 2 ^ (r.emin - 1)
      (.fin w, if w = v then t else if v < w then 1 else -1)
  | _ => y

/-- `mpfr_var::subnormalize`, `mpfr_var_impl.hpp:94-116, 366-372` -/
def VarTy.subnormalize (V : VarTy) (r : Range) (m : Rnd) (y : FP × ℤ) : FP × ℤ :=
  if V.subn then r.subnormalize V.prec m y else y

/-- `get<T>`: `mpfr_get_flt`, `mpfr_get_d`, `mpfr_get_ld` round to the type, whatever the exponent range of MPFR is
(`mpfr_var_impl.hpp:43-70, 218-224`). -/
def Fmt.get (φ : Fmt) (m : Rnd) (y : FP) : FP :=
  match y with
  | .fin v => φ.round m v
  | y => y

section
variable {K : Type*} [Field K] [LinearOrder K] [IsStrictOrderedRing K] [FloorRing K]

/-- What the library does everywhere for an operation with the exact result `x ≠ 0`: `mpfr_var::setup()`, then
`z.subnormalize(mpfr_op(z(), ..., m), m)`, then `z.get<T>(m)`.  The argument is the global state that earlier calls have left.
E.g. `add`, `_elem_func_impl.hpp:160-172`. -/
def Fmt.viaMpfr (φ : Fmt) (m : Rnd) (x : K) (r : Range) : FP × Range :=
  let r := φ.var.setup r
  let y := r.op φ.var.prec m x
  let y := φ.var.subnormalize r m y
  (φ.get m y.1, r)

end

/-- `mpfr_div_si(x, x, 2, MPFR_RNDN)` for finite `a` in a variable of precision `P`.
`_num_func_impl.hpp:200-201, 249-250`. -/
def Range.half (r : Range) (P : ℕ) (a : ℚ) : FP := if a = 0 then .fin 0 else (r.op P .N (a / 2)).1

/-- `mpfr_add(z, x, y, MPFR_RNDN)` for finite summands; an exact zero has the ternary value 0.
`_num_func_impl.hpp:203, 256`. -/
def Range.addN (r : Range) (P : ℕ) (s : ℚ) : FP × ℤ := if s = 0 then (.fin 0, 0) else r.op P .N s

/-- `mid` of two finite bounds of type `T_` (format `ψ`) in the type `T` (format `φ`), as coded: halves with an extended exponent
range, their sum in a variable of type `V`, then the range of `T`.  (`_num_func_impl.hpp:186-209` with `V = ext_mpfr_var`, so that
`xl.subnormalize` does nothing, and `_num_func_impl.hpp:235-262` with `V = mpfr_var`). -/
def Fmt.midMpfr (φ ψ : Fmt) (V : VarTy) (a b : ℚ) (r : Range) : FP × Range :=
  let r := ψ.extVar.setup r
  let y := r.addN V.prec ((r.half ψ.extVar.prec a).q + (r.half ψ.extVar.prec b).q)
  let r := φ.var.setup r
  let y := V.subnormalize r .N (r.check V.prec .N y)
  ((φ.get .N y.1).posZero, r)

end P1788
