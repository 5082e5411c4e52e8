import Verif.Model.Mpfr

/-!
# Reductions: `sum`, `sum_abs`, `sum_sqr`, `dot` (`p1788/reduction/reduction.hpp`)

`mpfr_sum` is modelled by its contract (MPFR 4): the exact sum of the array, correctly rounded, with the ternary value
that `mpfr_subnormalize` needs.  The addition table for NaN and infinities is that of `mpfr_sum`.  For memory see
`Verif/Model/Memory.lean`.
-/

namespace P1788

/-- `rnd_mode`, `reduction.hpp:42-49`. -/
inductive RMode where
  | downward | upward | toNearest | toZero
  deriving DecidableEq

/-- Correct rounding in one of the four modes (`get_mpfr_rnd_mode`, `reduction.hpp:51-68`, only renames them);
`MPFR_RNDZ` rounds negative numbers up and others down. -/
def Fmt.roundR (φ : Fmt) : RMode → ℚ → FP
  | .downward, s => φ.round .D s
  | .upward, s => φ.round .U s
  | .toNearest, s => φ.round .N s
  | .toZero, s => if s < 0 then φ.round .U s else φ.round .D s

/-- `mpfr_sum` followed by `subnormalize`, `reduction.hpp:106-109, 130-133`.  (The sign of a zero result is immaterial,
see `finishSum`.) -/
def Fmt.mpfrSum (φ : Fmt) (m : RMode) (l : List FP) : FP :=
  if l.any (fun a => decide (a = .nan)) then .nan
  else if l.any (fun a => decide (a = .pinf)) then
    (if l.any (fun a => decide (a = .ninf)) then .nan else .pinf)
  else if l.any (fun a => decide (a = .ninf)) then .ninf
  else φ.roundR m (l.map FP.q).sum

/-- `if (result_ == 0.0) result_ = rnd == rnd_mode::downward ? -0.0 : 0.0`, `reduction.hpp:111-112, 135-136`. -/
def finishSum (m : RMode) (r : FP) : FP :=
  if r.isZero then (if m = .downward then .nzero else .fin 0) else r

/-- `sum`, `reduction.hpp:165-203`.  The elements are copied exactly. -/
def Fmt.sum (φ : Fmt) (m : RMode) (l : List FP) : FP := finishSum m (φ.mpfrSum m l)

/-- `sum_abs`, `reduction.hpp:206-245`. -/
def Fmt.sumAbs (φ : Fmt) (m : RMode) (l : List FP) : FP := finishSum m (φ.mpfrSum m (l.map FP.abs))

/-- `mpfr_mul`/`mpfr_sqr` into a variable of twice the precision with `MPFR_RNDN`, `reduction.hpp:271, 315`.  The exponent
range in force is the one set by `reduction_sum_op` (`setup()`, `reduction.hpp:94, 118`), that is the one of the format:
products of `2^emax` and more overflow, products below the least positive number underflow, to nearest.  All others are
exact. -/
def Fmt.mul2 (φ : Fmt) (a b : FP) : FP :=
  match a, b with
  | .nan, _ | _, .nan => .nan
  | .pinf, b => if b.isZero then .nan else FP.mkInf b.signbit
  | .ninf, b => if b.isZero then .nan else FP.mkInf !b.signbit
  | a, .pinf => if a.isZero then .nan else FP.mkInf a.signbit
  | a, .ninf => if a.isZero then .nan else FP.mkInf !a.signbit
  | a, b =>
    let v := a.q * b.q
    let s := a.signbit != b.signbit
    if 2 ^ φ.emax ≤ |v| then FP.mkInf s
    else if |v| ≤ 2 ^ (φ.qmin - 1) then FP.mkZero s
    else if |v| < 2 ^ φ.qmin then .fin (if s then -2 ^ φ.qmin else 2 ^ φ.qmin)
    else .fin v

/-- `sum_sqr`, `reduction.hpp:248-287`. -/
def Fmt.sumSqr (φ : Fmt) (m : RMode) (l : List FP) : FP := finishSum m (φ.mpfrSum m (l.map fun a => φ.mul2 a a))

/-- `dot`, `reduction.hpp:290-331`.  `none`: the second range is shorter than the first and is read past its end, which
is undefined behaviour; the overload for initializer lists does not check the lengths either. -/
def Fmt.dot (φ : Fmt) (m : RMode) (a b : List FP) : Option FP :=
  if b.length < a.length then none
  else some (finishSum m (φ.mpfrSum m (List.zipWith φ.mul2 a b)))

end P1788
