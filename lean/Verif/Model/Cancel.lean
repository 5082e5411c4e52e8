import Verif.Model.Num

/-!
# Cancellative addition and subtraction

`p1788/flavor/infsup/setbased/mpfr_bin_ieee754_flavor_cancel_func_impl.hpp` and `p1788/util/mpfr_util.hpp`.
-/

namespace P1788

/-- `two_sum`, `p1788/util/mpfr_util.hpp:36-69`. -/
def Fmt.twoSum (φ : Fmt) (a b : FP) : FP × FP :=
  let s := φ.add .N a b
  let aDelta := φ.sub .N s b
  let bDelta := φ.sub .N s aDelta
  let aDelta := φ.sub .N a aDelta
  let bDelta := φ.sub .N b bDelta
  let aDelta := φ.add .N aDelta bDelta
  (s, aDelta)

/-- `x.first < y.first || (x.first == y.first && x.second < y.second)`. `_cancel_func_impl.hpp:123, 132`. -/
def pairLt (x y : FP × FP) : Bool := x.1.ltb y.1 || (x.1.feq y.1 && x.2.ltb y.2)

/-- `cancel_minus` ( bare interval ), `_cancel_func_impl.hpp:84-149`.  (The code tests `is_valid(x)` twice and never
`is_valid(y)`.)  The differences are not subnormalised. -/
def Itv.cancelMinus (φ : Fmt) (x y : Itv) : Itv :=
  if !x.isValid || !x.isValid then Itv.empty
  else if x.lo.feq .ninf || x.hi.feq .pinf || y.lo.feq .ninf || y.hi.feq .pinf then Itv.entire
  else
    let os := x.overlap y
    if os = .firstEmpty ∨ os = .bothEmpty then x
    else if os = .secondEmpty then Itv.entire
    else if os = .starts ∨ os = .containedBy ∨ os = .finishes then Itv.entire
    else if (os = .before ∨ os = .meets ∨ os = .metBy ∨ os = .after) ∧
        pairLt (φ.twoSum x.hi x.lo.neg) (φ.twoSum y.hi y.lo.neg) = true then Itv.entire
    else if (os = .overlaps ∨ os = .overlappedBy) ∧
        pairLt (φ.twoSum y.lo x.lo.neg) (φ.twoSum y.hi x.hi.neg) = true then Itv.entire
    else ⟨φ.subNS .D x.lo y.lo, φ.subNS .U x.hi y.hi⟩

/-- `cancel_plus` ( bare interval ), `_cancel_func_impl.hpp:41-47`. -/
def Itv.cancelPlus (φ : Fmt) (x y : Itv) : Itv := x.cancelMinus φ (Fmt.negI y)

/-- `cancel_minus` ( bare interval ) mixed type, `_cancel_func_impl.hpp:152-175`. -/
def Itv.cancelMinusMixed (T T1 T2 : NumTy) (x y : Itv) : Itv :=
  if !x.isValid || !y.isValid then Itv.empty
  else
    let TMax := (T.maxPrec [T1, T2]).fmt
    T.fmt.convertHull ((TMax.convertHull x).cancelMinus TMax (TMax.convertHull y))

/-- `cancel_plus` ( bare interval ) mixed type, `_cancel_func_impl.hpp:49-60`: `neg(y)` is the mixed-type `neg` with
result type `T`. -/
noncomputable def Itv.cancelPlusMixed (T T1 T2 : NumTy) (x y : Itv) : Itv :=
  Itv.cancelMinusMixed T T1 T x (Op1.neg.mixed T T2 y)

/-- `cancel_minus` ( decorated interval ), `_cancel_func_impl.hpp:178-191`. -/
def DItv.cancelMinus (φ : Fmt) (x y : DItv) : DItv :=
  if !x.isValid || !y.isValid || x.isNai || y.isNai then DItv.nai
  else ⟨x.itv.cancelMinus φ y.itv, .trv⟩

/-- `cancel_plus` ( decorated interval ), `_cancel_func_impl.hpp:62-68`. -/
noncomputable def DItv.cancelPlus (φ : Fmt) (x y : DItv) : DItv := x.cancelMinus φ (Op1.neg.decd φ y)

/-- `cancel_minus` ( decorated interval ) mixed type, `_cancel_func_impl.hpp:194-217`. -/
def DItv.cancelMinusMixed (T T1 T2 : NumTy) (x y : DItv) : DItv :=
  if !x.isValid || !y.isValid || x.isNai || y.isNai then DItv.nai
  else
    let TMax := (T.maxPrec [T1, T2]).fmt
    T.fmt.convertHullD ((TMax.convertHullD x).cancelMinus TMax (TMax.convertHullD y))

/-- `cancel_plus` ( decorated interval ) mixed type, `_cancel_func_impl.hpp:70-80`. -/
noncomputable def DItv.cancelPlusMixed (T T1 T2 : NumTy) (x y : DItv) : DItv :=
  DItv.cancelMinusMixed T T1 T x (Op1.neg.mixedD T T2 y)

end P1788
