import Verif.Model.Interval

/-!
# Boolean functions, overlap, intersection and convex hull

Files `mpfr_bin_ieee754_flavor_bool_func_impl.hpp`, `_rec_bool_func_impl.hpp`, `_rec_overlap_impl.hpp`,
`_set_op_impl.hpp` and the wrappers in `p1788/infsup/base_interval_bool_func_impl.hpp`.

The homogeneous versions of the comparisons call the mixed-type ones after the same validity checks, and C++
comparisons between floating-point types are exact, so one definition covers intervals of equal and of different
bound types.
-/

namespace P1788
namespace Itv

/-- `equal`, `_bool_func_impl.hpp:107-143`. -/
def equal (x y : Itv) : Bool :=
  if !x.isValid || !y.isValid then false
  else (x.isEmpty && y.isEmpty) || (x.lo.feq y.lo && x.hi.feq y.hi)

/-- `subset`, `_bool_func_impl.hpp:167-203`. -/
def subset (x y : Itv) : Bool :=
  if !x.isValid || !y.isValid then false
  else x.isEmpty || (y.lo.leb x.lo && x.hi.leb y.hi)

/-- `less`, `_bool_func_impl.hpp:227-263`. -/
def less (x y : Itv) : Bool :=
  if !x.isValid || !y.isValid then false
  else (x.isEmpty && y.isEmpty) || (x.lo.leb y.lo && x.hi.leb y.hi)

/-- `precedes`, `_bool_func_impl.hpp:288-324`. -/
def precedes (x y : Itv) : Bool :=
  if !x.isValid || !y.isValid then false
  else x.isEmpty || y.isEmpty || x.hi.leb y.lo

/-- `interior`, `_bool_func_impl.hpp:348-390`. -/
def interior (x y : Itv) : Bool :=
  if !x.isValid || !y.isValid then false
  else x.isEmpty ||
    ((y.lo.ltb x.lo || (y.lo.feq .ninf && x.lo.feq .ninf)) &&
     (x.hi.ltb y.hi || (x.hi.feq .pinf && y.hi.feq .pinf)))

/-- `strictly_less`, `_bool_func_impl.hpp:414-457`. -/
def strictlyLess (x y : Itv) : Bool :=
  if !x.isValid || !y.isValid then false
  else (x.isEmpty && y.isEmpty) ||
    ((x.lo.ltb y.lo || (x.lo.feq .ninf && y.lo.feq .ninf)) &&
     (x.hi.ltb y.hi || (x.hi.feq .pinf && y.hi.feq .pinf)))

/-- `strictly_precedes`, `_bool_func_impl.hpp:481-517`. -/
def strictlyPrecedes (x y : Itv) : Bool :=
  if !x.isValid || !y.isValid then false
  else x.isEmpty || y.isEmpty || x.hi.ltb y.lo

/-- `disjoint`, `_bool_func_impl.hpp:541-577`. -/
def disjoint (x y : Itv) : Bool :=
  if !x.isValid || !y.isValid then false
  else x.isEmpty || y.isEmpty || x.hi.ltb y.lo || y.hi.ltb x.lo

/-- `superset`, `base_interval_bool_func_impl.hpp:144-163`: the class layer calls `subset` with the operands exchanged. -/
def superset (x y : Itv) : Bool := subset y x
/-- `greater`. Likewise, `base_interval_bool_func_impl.hpp:200-219`. -/
def greater (x y : Itv) : Bool := less y x
/-- `succeeds`. Likewise, `base_interval_bool_func_impl.hpp:256-275`. -/
def succeeds (x y : Itv) : Bool := precedes y x
/-- `contains_interior`. Likewise, `base_interval_bool_func_impl.hpp:312-331`. -/
def containsInterior (x y : Itv) : Bool := interior y x
/-- `strictly_greater`. Likewise, `base_interval_bool_func_impl.hpp:368-387`. -/
def strictlyGreater (x y : Itv) : Bool := strictlyLess y x
/-- `strictly_succeeds`. Likewise, `base_interval_bool_func_impl.hpp:424-443`. -/
def strictlySucceeds (x y : Itv) : Bool := strictlyPrecedes y x

/-- `is_member`, `_rec_bool_func_impl.hpp:89-96, 110-121`. -/
def isMember (m : FP) (x : Itv) : Bool :=
  if !x.isValid then false
  else x.lo.leb m && m.leb x.hi && !m.isInf

/-- `intersection`, `_set_op_impl.hpp:43-56`. -/
def inter (x y : Itv) : Itv :=
  if !x.isValid || !y.isValid then empty
  else if x.disjoint y then empty
  else ⟨x.lo.stdMax y.lo, x.hi.stdMin y.hi⟩

/-- `convex_hull`, `_set_op_impl.hpp:124-139`. -/
def hull (x y : Itv) : Itv :=
  if !x.isValid || !y.isValid then empty
  else if x.isEmpty then y
  else if y.isEmpty then x
  else ⟨x.lo.stdMin y.lo, x.hi.stdMax y.hi⟩

end Itv

/-- `p1788::overlapping::overlapping_state`, `p1788/overlapping/overlapping.hpp:45-64`. -/
inductive Overlap where
  | bothEmpty | firstEmpty | secondEmpty | before | meets | overlaps | starts | containedBy | finishes
  | equal | finishedBy | contains | startedBy | overlappedBy | metBy | after | undefined
  deriving DecidableEq

/-- `overlap`, `_rec_overlap_impl.hpp:42-148`. -/
def Itv.overlap (x y : Itv) : Overlap :=
  if !x.isValid || !y.isValid then .undefined
  else if x.isEmpty then (if y.isEmpty then .bothEmpty else .firstEmpty)
  else if y.isEmpty then .secondEmpty
  else if y.lo ≤ x.hi then
    if x.hi ≤ y.hi then
      if x.lo.feq y.lo then (if x.hi < y.hi then .starts else .equal)
      else if x.hi.feq y.hi then (if x.lo < y.lo then .finishedBy else .finishes)
      else if y.lo < x.hi then (if x.lo < y.lo then .overlaps else .containedBy)
      else .meets
    else if x.lo ≤ y.hi then
      if x.lo ≤ y.lo then (if x.lo < y.lo then .contains else .startedBy)
      else if x.lo < y.hi then .overlappedBy
      else .metBy
    else .after
  else .before

namespace DItv

/-- Decorated comparisons: `false` if an operand is invalid or NaI, else the bare relation on the interval parts
(`_bool_func_impl.hpp:119-130`, mixed type 148-162, and the overloads of the other relations: `subset` 179-222, `less`
239-283, `precedes` 300-343, `interior` 360-409, `strictly_less` 427-476, `strictly_precedes` 493-536, `disjoint` 553-596). -/
def rel (r : Itv → Itv → Bool) (x y : DItv) : Bool :=
  if !x.isValid || !y.isValid || x.isNai || y.isNai then false else r x.itv y.itv

/-- Decorated unary predicates, `_bool_func_impl.hpp:55-63, 81-89`, `_rec_bool_func_impl.hpp:56-63, 77-86`. -/
def pred (r : Itv → Bool) (x : DItv) : Bool :=
  if !x.isValid || x.isNai then false else r x.itv

/-- `is_member(m, decorated)`, `_rec_bool_func_impl.hpp:100-107, 124-134`. -/
def isMember (m : FP) (x : DItv) : Bool :=
  if !x.isValid || x.isNai then false else Itv.isMember m x.itv

/-- `overlap(decorated, decorated)`, `_rec_overlap_impl.hpp:151-176`. -/
def overlap (x y : DItv) : Overlap :=
  if !x.isValid || !y.isValid || x.isNai || y.isNai then .undefined else x.itv.overlap y.itv

/-- `intersection(decorated)`, `_set_op_impl.hpp:86-95`. -/
def inter (x y : DItv) : DItv :=
  if !x.isValid || !y.isValid || x.isNai || y.isNai then nai else ⟨x.itv.inter y.itv, .trv⟩

/-- `convex_hull(decorated)`, `_set_op_impl.hpp:169-178`. -/
def hull (x y : DItv) : DItv :=
  if !x.isValid || !y.isValid || x.isNai || y.isNai then nai else ⟨x.itv.hull y.itv, .trv⟩

end DItv
end P1788
