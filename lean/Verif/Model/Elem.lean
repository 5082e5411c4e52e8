import Verif.Model.Interval

/-!
# Algebraic elementary functions on bare intervals

File: `p1788/flavor/infsup/setbased/mpfr_bin_ieee754_flavor_elem_func_impl.hpp`.
`mpfr_var xl(x.first, MPFR_RNDD)` followed by `get` is the identity for bounds of the same type `T`, therefore
the model passes the bounds directly to the MPFR operation.
-/

namespace P1788

open FP

namespace Fmt
variable (φ : Fmt)

/-- C++ `x.first == 0.0 && x.second == 0.0`. `_elem_func_impl.hpp:370, 373, 590, 593`. -/
def isZeroItv (x : Itv) : Bool := x.lo.feq (.fin 0) && x.hi.feq (.fin 0)

/-- `pos`, `_elem_func_impl.hpp:45-52`. -/
def posI (x : Itv) : Itv := if !x.isValid then Itv.empty else x

/-- `neg`, `_elem_func_impl.hpp:98-106`. -/
def negI (x : Itv) : Itv :=
  if !x.isValid || x.isEmpty then Itv.empty else ⟨x.hi.neg, x.lo.neg⟩

/-- `add`, `_elem_func_impl.hpp:153-176`. -/
def addI (x y : Itv) : Itv :=
  if !x.isValid || !y.isValid || x.isEmpty || y.isEmpty then Itv.empty
  else ⟨φ.add .D x.lo y.lo, φ.add .U x.hi y.hi⟩

/-- `sub`, `_elem_func_impl.hpp:257-281`. -/
def subI (x y : Itv) : Itv :=
  if !x.isValid || !y.isValid || x.isEmpty || y.isEmpty then Itv.empty
  else ⟨φ.sub .D x.lo y.hi, φ.sub .U x.hi y.lo⟩

/-- `mul`, `_elem_func_impl.hpp:361-501`. -/
def mulI (x y : Itv) : Itv :=
  if !x.isValid || !y.isValid || x.isEmpty || y.isEmpty then Itv.empty
  else if isZeroItv x then x
  else if isZeroItv y then y
  else if x.isEntire then x
  else if y.isEntire then y
  else if y.hi ≤ .fin 0 then
    if x.hi ≤ .fin 0 then ⟨φ.mul .D x.hi y.hi, φ.mul .U x.lo y.lo⟩
    else if .fin 0 ≤ x.lo then ⟨φ.mul .D x.hi y.lo, φ.mul .U x.lo y.hi⟩
    else ⟨φ.mul .D x.hi y.lo, φ.mul .U x.lo y.lo⟩
  else if .fin 0 ≤ y.lo then
    if x.hi ≤ .fin 0 then ⟨φ.mul .D x.lo y.hi, φ.mul .U x.hi y.lo⟩
    else if .fin 0 ≤ x.lo then ⟨φ.mul .D x.lo y.lo, φ.mul .U x.hi y.hi⟩
    else ⟨φ.mul .D x.lo y.hi, φ.mul .U x.hi y.hi⟩
  else
    if x.hi ≤ .fin 0 then ⟨φ.mul .D x.lo y.hi, φ.mul .U x.lo y.lo⟩
    else if .fin 0 ≤ x.lo then ⟨φ.mul .D x.hi y.lo, φ.mul .U x.hi y.hi⟩
    else ⟨(φ.mul .D x.lo y.hi).mpfrMin (φ.mul .D x.hi y.lo),
          (φ.mul .U x.lo y.lo).mpfrMax (φ.mul .U x.hi y.hi)⟩

/-- `div`, `_elem_func_impl.hpp:581-720`.  The final `else` branches without assignment in the C++ code would return
`(NaN,NaN)` (uninitialised `mpfr_var`s hold NaN); they are modelled as such. -/
def divI (x y : Itv) : Itv :=
  if !x.isValid || !y.isValid || x.isEmpty || y.isEmpty then Itv.empty
  else if isZeroItv y then Itv.empty
  else if isZeroItv x then x
  else if (y.lo < .fin 0 ∧ .fin 0 < y.hi)
      ∨ (x.lo < .fin 0 ∧ .fin 0 < x.hi ∧ (y.lo.feq (.fin 0) = true ∨ y.hi.feq (.fin 0) = true)) then Itv.entire
  else if x.hi ≤ .fin 0 then
    if y.hi < .fin 0 then ⟨φ.div .D x.hi y.lo, φ.div .U x.lo y.hi⟩
    else if .fin 0 < y.lo then ⟨φ.div .D x.lo y.lo, φ.div .U x.hi y.hi⟩
    else if y.hi.feq (.fin 0) then ⟨φ.div .D x.hi y.lo, .pinf⟩
    else if y.lo.feq (.fin 0) then ⟨.ninf, φ.div .U x.hi y.hi⟩
    else ⟨.nan, .nan⟩
  else if .fin 0 ≤ x.lo then
    if y.hi < .fin 0 then ⟨φ.div .D x.hi y.hi, φ.div .U x.lo y.lo⟩
    else if .fin 0 < y.lo then ⟨φ.div .D x.lo y.hi, φ.div .U x.hi y.lo⟩
    else if y.hi.feq (.fin 0) then ⟨.ninf, φ.div .U x.lo y.lo⟩
    else if y.lo.feq (.fin 0) then ⟨φ.div .D x.lo y.hi, .pinf⟩
    else ⟨.nan, .nan⟩
  else
    if y.hi < .fin 0 then ⟨φ.div .D x.hi y.hi, φ.div .U x.lo y.hi⟩
    else if .fin 0 < y.lo then ⟨φ.div .D x.lo y.lo, φ.div .U x.hi y.lo⟩
    else ⟨.nan, .nan⟩

/-- `recip`, `_elem_func_impl.hpp:799-808`. -/
def recipI (x : Itv) : Itv :=
  if !x.isValid then Itv.empty else φ.divI ⟨.fin 1, .fin 1⟩ x

/-- `sqr`, `_elem_func_impl.hpp:881-907`; `mpfr_sqr(a)` is modelled as `mpfr_mul(a,a)`. -/
def sqrI (x : Itv) : Itv :=
  if !x.isValid || x.isEmpty then Itv.empty
  else if x.lo < .fin 0 ∧ .fin 0 < x.hi then
    let u := if x.hi < x.lo.abs then x.lo.abs else x.hi
    ⟨.fin 0, φ.mul .U u u⟩
  else
    let l := if x.lo.abs < x.hi.abs then x.lo.abs else x.hi.abs
    let u := if x.hi.abs < x.lo.abs then x.lo.abs else x.hi.abs
    ⟨φ.mul .D l l, φ.mul .U u u⟩

/-- `fma`, `_elem_func_impl.hpp:1080-1243`. -/
def fmaI (x y z : Itv) : Itv :=
  if !x.isValid || !y.isValid || !z.isValid || x.isEmpty || y.isEmpty || z.isEmpty then Itv.empty
  else if isZeroItv x then z
  else if isZeroItv y then z
  else if x.isEntire then x
  else if y.isEntire then y
  else if y.hi ≤ .fin 0 then
    if x.hi ≤ .fin 0 then ⟨φ.fma .D x.hi y.hi z.lo, φ.fma .U x.lo y.lo z.hi⟩
    else if .fin 0 ≤ x.lo then ⟨φ.fma .D x.hi y.lo z.lo, φ.fma .U x.lo y.hi z.hi⟩
    else ⟨φ.fma .D x.hi y.lo z.lo, φ.fma .U x.lo y.lo z.hi⟩
  else if .fin 0 ≤ y.lo then
    if x.hi ≤ .fin 0 then ⟨φ.fma .D x.lo y.hi z.lo, φ.fma .U x.hi y.lo z.hi⟩
    else if .fin 0 ≤ x.lo then ⟨φ.fma .D x.lo y.lo z.lo, φ.fma .U x.hi y.hi z.hi⟩
    else ⟨φ.fma .D x.lo y.hi z.lo, φ.fma .U x.hi y.hi z.hi⟩
  else
    if x.hi ≤ .fin 0 then ⟨φ.fma .D x.lo y.hi z.lo, φ.fma .U x.lo y.lo z.hi⟩
    else if .fin 0 ≤ x.lo then ⟨φ.fma .D x.hi y.lo z.lo, φ.fma .U x.hi y.hi z.hi⟩
    else ⟨(φ.fma .D x.lo y.hi z.lo).mpfrMin (φ.fma .D x.hi y.lo z.lo),
          (φ.fma .U x.lo y.lo z.hi).mpfrMax (φ.fma .U x.hi y.hi z.hi)⟩

/-- `pown`, `_elem_func_impl.hpp:1345-1443`.  `p` is any integer (the C++ parameter is an `int`); `p % 2 == 0` is parity in
both languages. -/
def pownI (x : Itv) (p : ℤ) : Itv :=
  if !x.isValid || x.isEmpty then Itv.empty
  else if 0 < p then
    if p % 2 = 0 then
      if x.lo < .fin 0 ∧ .fin 0 < x.hi then
        let u := if x.hi < x.lo.abs then x.lo.abs else x.hi
        ⟨.fin 0, φ.powSi .U u p⟩
      else
        let l := if x.lo.abs < x.hi.abs then x.lo.abs else x.hi.abs
        let u := if x.hi.abs < x.lo.abs then x.lo.abs else x.hi.abs
        ⟨φ.powSi .D l p, φ.powSi .U u p⟩
    else ⟨φ.powSi .D x.lo p, φ.powSi .U x.hi p⟩
  else if p < 0 then
    if isZeroItv x then Itv.empty
    else if p % 2 = 0 then
      if x.lo < .fin 0 ∧ .fin 0 < x.hi then
        let l := if x.hi < x.lo.abs then x.lo.abs else x.hi
        ⟨φ.powSi .D l p, .pinf⟩
      else
        let l := if x.hi.abs < x.lo.abs then x.lo.abs else x.hi.abs
        let u := if x.lo.abs < x.hi.abs then x.lo.abs else x.hi.abs
        ⟨φ.powSi .D l p, φ.powSi .U u p⟩
    else if x.lo < .fin 0 ∧ .fin 0 < x.hi then Itv.entire
    else if x.lo.feq (.fin 0) then ⟨φ.powSi .D x.hi p, .pinf⟩
    else if x.hi.feq (.fin 0) then ⟨.ninf, φ.powSi .U x.lo p⟩
    else ⟨φ.powSi .D x.hi p, φ.powSi .U x.lo p⟩
  else ⟨.fin 1, .fin 1⟩

/-- `abs`, `_elem_func_impl.hpp:4259-4273`. -/
def absI (x : Itv) : Itv :=
  if !x.isValid || x.isEmpty then Itv.empty
  else if .fin 0 ≤ x.lo then x
  else if x.hi ≤ .fin 0 then ⟨x.hi.abs, x.lo.abs⟩
  else ⟨.fin 0, FP.stdMax x.lo.abs x.hi⟩

/-- `min`, `_elem_func_impl.hpp:4346-4356`. -/
def minI (x y : Itv) : Itv :=
  if !x.isValid || !y.isValid || x.isEmpty || y.isEmpty then Itv.empty
  else ⟨FP.stdMin x.lo y.lo, FP.stdMin x.hi y.hi⟩

/-- `max`, `_elem_func_impl.hpp:4437-4447`. -/
def maxI (x y : Itv) : Itv :=
  if !x.isValid || !y.isValid || x.isEmpty || y.isEmpty then Itv.empty
  else ⟨FP.stdMax x.lo y.lo, FP.stdMax x.hi y.hi⟩

end Fmt

end P1788
