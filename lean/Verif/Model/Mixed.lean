import Verif.Model.Expr
import Verif.Model.Bool

/-!
# Mixed-type operations

`p1788/util/mixed_type_traits.hpp` and the mixed-type overloads of `_elem_func_impl.hpp` and `_set_op_impl.hpp`.

Every overload has the same three steps: check the operands, convert them to the most precise of the types involved,
compute there, convert the result to the result type.
-/

namespace P1788

/-- The supported number types. `mixed_type_traits.hpp:101-131`. -/
inductive NumTy where
  | float | double | longDouble
  deriving DecidableEq

namespace NumTy

/-- The format of a number type (`long double`: x87 extended). `mpfr_bin_ieee754_flavor.hpp:70-82`. -/
def fmt : NumTy → Fmt
  | float => binary32 | double => binary64 | longDouble => x87ext

/-- `type_precision_order`, `mixed_type_traits.hpp:101-131`. -/
def order : NumTy → ℕ
  | float => 0 | double => 1 | longDouble => 2

/-- One step of `max_precision_type`, `mixed_type_traits.hpp:77-83`. -/
def max2 (a b : NumTy) : NumTy := if a.order > b.order then a else b

/-- `max_precision_type<First, Tail...>`, `mixed_type_traits.hpp:67-94`. -/
def maxPrec : NumTy → List NumTy → NumTy
  | a, [] => a
  | a, b :: l => maxPrec (a.max2 b) l

end NumTy

/-- The mixed-type overload of a bare unary function, result type `T`, operand type `T1`
(`_elem_func_impl.hpp`, the overload "( bare interval ) mixed type" of each function; all but the first two differ in
the name only, which was checked by a script on the text:
`pos` 56-67 and `neg` 110-121, which convert only the result,
`recip` 811-831, `sqr` 909-929, `sqrt` 1009-1029, `pown` 1451-1473, `exp` 1740-1760, `exp2` 1828-1848, `exp10`
1916-1936, `log` 2013-2033, `log2` 2110-2130, `log10` 2206-2226, `sin` 2366-2386, `cos` 2525-2545, `tan` 2627-2647,
`asin` 2740-2760, `acos` 2835-2855, `atan` 2925-2945, `sinh` 3224-3244, `cosh` 3322-3342, `tanh` 3411-3431, `asinh`
3499-3519, `acosh` 3588-3608, `atanh` 3677-3697, `sign` 3759-3779, `ceil` 3842-3862, `floor` 3924-3944, `trunc`
4006-4026, `round_ties_to_even` 4104-4124, `round_ties_to_away` 4187-4207, `abs` 4276-4296). -/
noncomputable def Op1.mixed (T T1 : NumTy) (op : Op1) (x : Itv) : Itv :=
  if !x.isValid then Itv.empty
  else match op with
    | .pos => T.fmt.convertHull x
    | .neg => T.fmt.convertHull (Op1.neg.bare T1.fmt x)
    | op =>
      let TMax := (T.maxPrec [T1]).fmt
      T.fmt.convertHull (op.bare TMax (TMax.convertHull x))

/-- The mixed-type overload of a decorated unary function (`_elem_func_impl.hpp`, the overload
"( decorated interval ) mixed type" of each function: `pos` 81-92 and `neg` 135-146, which convert only the result,
`recip` 855-875, `sqr` 953-973, `sqrt` 1053-1073, `pown` 1498-1520, `exp` 1784-1804, `exp2` 1872-1892, `exp10`
1960-1980, `log` 2057-2077, `log2` 2154-2174, `log10` 2250-2270, `sin` 2410-2430, `cos` 2569-2589, `tan` 2690-2710,
`asin` 2784-2804, `acos` 2879-2899, `atan` 2968-2988, `sinh` 3268-3288, `cosh` 3366-3386, `tanh` 3454-3474, `asinh`
3543-3563, `acosh` 3632-3652, `atanh` 3721-3741, `sign` 3804-3824, `ceil` 3887-3907, `floor` 3969-3989, `trunc`
4052-4072, `round_ties_to_even` 4150-4170, `round_ties_to_away` 4233-4253, `abs` 4320-4340). -/
noncomputable def Op1.mixedD (T T1 : NumTy) (op : Op1) (x : DItv) : DItv :=
  if !x.isValid || x.isNai then DItv.nai
  else match op with
    | .pos => T.fmt.convertHullD x
    | .neg => T.fmt.convertHullD (Op1.neg.decd T1.fmt x)
    | op =>
      let TMax := (T.maxPrec [T1]).fmt
      T.fmt.convertHullD (op.decd TMax (TMax.convertHullD x))

/-- The mixed-type overload of a bare binary function (`_elem_func_impl.hpp`, the overload
"( bare interval ) mixed type" of each function:
`add` 179-202, `sub` 284-307, `mul` 504-527, `div` 722-745, `pow` 1643-1666, `atan2` 3125-3148, `min` 4358-4381,
`max` 4449-4472). -/
noncomputable def Op2.mixed (T T1 T2 : NumTy) (op : Op2) (x y : Itv) : Itv :=
  if !x.isValid || !y.isValid then Itv.empty
  else
    let TMax := (T.maxPrec [T1, T2]).fmt
    T.fmt.convertHull (op.bare TMax (TMax.convertHull x) (TMax.convertHull y))

/-- The mixed-type overload of a decorated binary function (`_elem_func_impl.hpp`, the overload
"( decorated interval ) mixed type" of each function:
`add` 227-251, `sub` 332-356, `mul` 552-576, `div` 770-794, `pow` 1691-1715, `atan2` 3174-3198, `min` 4406-4430,
`max` 4497-4521). -/
noncomputable def Op2.mixedD (T T1 T2 : NumTy) (op : Op2) (x y : DItv) : DItv :=
  if !x.isValid || !y.isValid || x.isNai || y.isNai then DItv.nai
  else
    let TMax := (T.maxPrec [T1, T2]).fmt
    T.fmt.convertHullD (op.decd TMax (TMax.convertHullD x) (TMax.convertHullD y))

/-- `fma` ( bare interval ) mixed type, `_elem_func_impl.hpp:1254-1278`. -/
def fmaMixed (T T1 T2 T3 : NumTy) (x y z : Itv) : Itv :=
  if !x.isValid || !y.isValid || !z.isValid then Itv.empty
  else
    let TMax := (T.maxPrec [T1, T2, T3]).fmt
    T.fmt.convertHull (TMax.fmaI (TMax.convertHull x) (TMax.convertHull y) (TMax.convertHull z))

/-- `fma` ( decorated interval ) mixed type, `_elem_func_impl.hpp:1309-1336`. -/
def fmaMixedD (T T1 T2 T3 : NumTy) (x y z : DItv) : DItv :=
  if !x.isValid || !y.isValid || !z.isValid || x.isNai || y.isNai || z.isNai then DItv.nai
  else
    let TMax := (T.maxPrec [T1, T2, T3]).fmt
    T.fmt.convertHullD (TMax.fmaD (TMax.convertHullD x) (TMax.convertHullD y) (TMax.convertHullD z))

/-- `intersection` ( bare interval ) mixed type, `_set_op_impl.hpp:62-81`. -/
def Itv.interMixed (T T1 T2 : NumTy) (x y : Itv) : Itv :=
  if !x.isValid || !y.isValid then Itv.empty
  else
    let TMax := (T.maxPrec [T1, T2]).fmt
    T.fmt.convertHull ((TMax.convertHull x).inter (TMax.convertHull y))

/-- `convex_hull` ( bare interval ) mixed type, `_set_op_impl.hpp:145-164`. -/
def Itv.hullMixed (T T1 T2 : NumTy) (x y : Itv) : Itv :=
  if !x.isValid || !y.isValid then Itv.empty
  else
    let TMax := (T.maxPrec [T1, T2]).fmt
    T.fmt.convertHull ((TMax.convertHull x).hull (TMax.convertHull y))

/-- `intersection` ( decorated interval ) mixed type, `_set_op_impl.hpp:100-120`. -/
def DItv.interMixed (T T1 T2 : NumTy) (x y : DItv) : DItv :=
  if !x.isValid || !y.isValid || x.isNai || y.isNai then DItv.nai
  else
    let TMax := (T.maxPrec [T1, T2]).fmt
    T.fmt.convertHullD ((TMax.convertHullD x).inter (TMax.convertHullD y))

/-- `convex_hull` ( decorated interval ) mixed type, `_set_op_impl.hpp:183-203`. -/
def DItv.hullMixed (T T1 T2 : NumTy) (x y : DItv) : DItv :=
  if !x.isValid || !y.isValid || x.isNai || y.isNai then DItv.nai
  else
    let TMax := (T.maxPrec [T1, T2]).fmt
    T.fmt.convertHullD ((TMax.convertHullD x).hull (TMax.convertHullD y))

end P1788
