import Verif.Model.Mixed

/-!
# Numeric functions of intervals

`p1788/flavor/infsup/setbased/mpfr_bin_ieee754_flavor_num_func_impl.hpp`.
In the mixed-type versions `T` is the result type and `T1` the bound type of the operand.
-/

namespace P1788

section
variable {K : Type*} [Field K] [LinearOrder K] [IsStrictOrderedRing K] [FloorRing K]

/-- Exponent of the unit in the last place if `mpfr_subnormalize` is not called: precision `p` for all numbers.
Needed for `mid_rad`, `_num_func_impl.hpp:373-480`. -/
def Fmt.expoNS (φ : Fmt) (x : K) : ℤ := Int.log 2 |x| - φ.p + 1

/-- Rounding to precision `p` without subsequent `mpfr_subnormalize`.
Needed for `mid_rad`, `_num_func_impl.hpp:373-480`. -/
def Fmt.roundNS (φ : Fmt) (m : Rnd) (x : K) : FP :=
  let v : ℚ := (roundInt m (x / (2 : K) ^ φ.expoNS x) : ℤ) * (2 : ℚ) ^ φ.expoNS x
  if φ.maxFin < v then (match m with | .D => .fin φ.maxFin | _ => .pinf)
  else if v < -φ.maxFin then (match m with | .U => .fin (-φ.maxFin) | _ => .ninf)
  else if v = 0 then FP.mkZero (decide (x < 0))
  else .fin v

end

/-- `mpfr_sub` without `mpfr_subnormalize` (used by `mid_rad`).  The operands are multiples of the least positive
number, so a non-zero difference does not underflow. `_num_func_impl.hpp:373-480`. -/
def Fmt.subNS (φ : Fmt) (m : Rnd) (a b : FP) : FP :=
  match a, b.neg with
  | .nan, _ => .nan
  | _, .nan => .nan
  | .ninf, .pinf => .nan
  | .pinf, .ninf => .nan
  | .ninf, _ => .ninf
  | _, .ninf => .ninf
  | .pinf, _ => .pinf
  | _, .pinf => .pinf
  | a, b =>
    if a.q + b.q = 0 then
      (if a.signbit == b.signbit then FP.mkZero a.signbit else FP.mkZero (decide (m = .D)))
    else φ.roundNS m (a.q + b.q)

/-- `res == -0.0 ? +0.0 : res`. `_num_func_impl.hpp:210, 263, 363, 405`. -/
def FP.posZero (a : FP) : FP := if a.isZero then .fin 0 else a

namespace Itv

/-- `inf` ( bare interval ), `_num_func_impl.hpp:42-55`. -/
def inf (x : Itv) : FP :=
  if !x.isValid then .nan
  else if x.isEmpty then .pinf
  else if x.lo.isZero then .nzero
  else x.lo

/-- `sup` ( bare interval ), `_num_func_impl.hpp:105-118`. -/
def sup (x : Itv) : FP :=
  if !x.isValid then .nan
  else if x.isEmpty then .ninf
  else if x.hi.isZero then .fin 0
  else x.hi

/-- The midpoint of two bounds: the exact midpoint rounded once.  The code halves both bounds in `ext_mpfr_var` (one more exponent
below), adds with `MPFR_RNDN`, calls `mpfr_check_range`, a `subnormalize` that does nothing for `ext_mpfr_var`, and converts with
`MPFR_RNDN`; these steps are `Fmt.midMpfr` in `Model/MpfrVar.lean`, and `C43_mid` proves that they round once
(`_num_func_impl.hpp:187-208`). -/
def midBounds (φ : Fmt) (a b : FP) : FP := (φ.round .N ((a.q + b.q) / 2)).posZero

/-- `mid` ( bare interval ), `_num_func_impl.hpp:171-210`. -/
def mid (φ : Fmt) (x : Itv) : FP :=
  if !x.isValid || x.isEmpty then .nan
  else if x.isEntire then .fin 0
  else if x.lo.feq .ninf then .fin (-φ.maxFin)
  else if x.hi.feq .pinf then .fin φ.maxFin
  else midBounds φ x.lo x.hi

/-- `mid_rad` ( bare interval ), `_num_func_impl.hpp:339-370`; `mpfr_cmp` with NaN cannot occur for valid operands. -/
def midRad (φ : Fmt) (x : Itv) : FP × FP :=
  if !x.isValid || x.isEmpty then (.nan, .nan)
  else
    let m := x.mid φ
    let xl := φ.subNS .U m x.lo
    let xu := φ.subNS .U x.hi m
    (m, (if xu < xl then xl else xu).posZero)

/-- `rad` ( bare interval ), `_num_func_impl.hpp:294-299`. -/
def rad (φ : Fmt) (x : Itv) : FP := (x.midRad φ).2

/-- `wid` ( bare interval ), `_num_func_impl.hpp:442-459`. -/
def wid (φ : Fmt) (x : Itv) : FP :=
  if !x.isValid || x.isEmpty then .nan
  else (φ.sub .U x.hi x.lo).posZero

/-- `mag` ( bare interval ), `_num_func_impl.hpp:511-522`. -/
def mag (x : Itv) : FP :=
  if !x.isValid || x.isEmpty then .nan
  else if x.hi.abs < x.lo.abs then x.lo.abs else x.hi.abs

/-- `mig` ( bare interval ), `_num_func_impl.hpp:577-592`. -/
def mig (x : Itv) : FP :=
  if !x.isValid || x.isEmpty then .nan
  else if x.lo < .fin 0 ∧ .fin 0 < x.hi then .fin 0
  else if x.lo.abs < x.hi.abs then x.lo.abs else x.hi.abs

/-- `inf` mixed type, `_num_func_impl.hpp:58-79`. -/
def infMixed (T T1 : NumTy) (x : Itv) : FP :=
  if !x.isValid then .nan else T.fmt.convertRndd ((T.maxPrec [T1]).fmt.convertHull x).inf

/-- `sup` mixed type, `_num_func_impl.hpp:121-142`. -/
def supMixed (T T1 : NumTy) (x : Itv) : FP :=
  if !x.isValid then .nan else T.fmt.convertRndu ((T.maxPrec [T1]).fmt.convertHull x).sup

/-- `mid` mixed type, `_num_func_impl.hpp:213-264`: the sum is rounded to the precision of `T`, then brought into the
exponent range of `T` (an overflow gives an infinity, `mpfr_check_range` with `MPFR_RNDN`). -/
def midMixed (T : NumTy) (x : Itv) : FP :=
  if !x.isValid || x.isEmpty then .nan
  else if x.isEntire then .fin 0
  else if x.lo.feq .ninf then .fin (-T.fmt.maxFin)
  else if x.hi.feq .pinf then .fin T.fmt.maxFin
  else midBounds T.fmt x.lo x.hi

/-- `mid_rad` mixed type, `_num_func_impl.hpp:373-411`. -/
def midRadMixed (T T1 : NumTy) (x : Itv) : FP × FP :=
  if !x.isValid || x.isEmpty then (.nan, .nan)
  else
    let m := x.midMixed T
    let TMax := (T.maxPrec [T1]).fmt
    let xl := TMax.subNS .U m x.lo
    let xu := TMax.subNS .U x.hi m
    (m, (T.fmt.conv .U (if xu < xl then xl else xu)).posZero)

/-- `rad` mixed type, `_num_func_impl.hpp:302-309`. -/
def radMixed (T T1 : NumTy) (x : Itv) : FP := (x.midRadMixed T T1).2

/-- `wid` mixed type, `_num_func_impl.hpp:462-483`. -/
def widMixed (T T1 : NumTy) (x : Itv) : FP :=
  if !x.isValid then .nan
  else T.fmt.convertRndu (((T.maxPrec [T1]).fmt.convertHull x).wid (T.maxPrec [T1]).fmt)

/-- `mag` mixed type, `_num_func_impl.hpp:526-547`. -/
def magMixed (T T1 : NumTy) (x : Itv) : FP :=
  if !x.isValid then .nan else T.fmt.convertRndu ((T.maxPrec [T1]).fmt.convertHull x).mag

/-- `mig` mixed type, `_num_func_impl.hpp:595-619`. -/
def migMixed (T T1 : NumTy) (x : Itv) : FP :=
  if !x.isValid then .nan
  else (T.fmt.convertRndd ((T.maxPrec [T1]).fmt.convertHull x).mig).posZero

end Itv

/-- The decorated versions all have the form `!is_valid(x) || is_nai(x) ? NaN : f(x.first)`
(`_num_func_impl.hpp:82-102, 145-165, 267-287, 312-333, 414-436, 486-505, 550-570, 622-642`). -/
def DItv.num (f : Itv → FP) (x : DItv) : FP := if !x.isValid || x.isNai then .nan else f x.itv

/-- `mid_rad` ( decorated interval ), `_num_func_impl.hpp:414-436`. -/
def DItv.num2 (f : Itv → FP × FP) (x : DItv) : FP × FP := if !x.isValid || x.isNai then (.nan, .nan) else f x.itv

end P1788
