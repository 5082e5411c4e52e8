import Verif.Model.Exception
import Verif.Model.Cancel

/-!
# The classes `interval` and `decorated_interval`

`p1788/infsup/interval.hpp`, `p1788/infsup/decorated_interval.hpp`, `p1788/infsup/base_interval*.hpp`.

The classes hold one member, the representation `rep_`, and pass it to the flavor; nearly every member function is one
call of the flavor function of the same name, and is modelled by that function.  Here is what the classes add: default
construction, copy construction, assignment, conversions, `==` and `!=`, and handing a result over by value.
-/

namespace P1788

/-- `interval()`, `interval.hpp:86-90`. -/
def Itv.default : Itv := Itv.empty

/-- `decorated_interval()`, `decorated_interval.hpp:88-92`. -/
def DItv.default : DItv := DItv.empty

/-- `interval(interval const&)`, `interval.hpp:157-160`: `Flavor<T>::copy`. -/
def Itv.copyCtor (x : Itv) : M Itv := copyM x

/-- `decorated_interval(decorated_interval const&)`, `decorated_interval.hpp:200-203`: `Flavor<T>::copy`. -/
def DItv.copyCtor (x : DItv) : M DItv := copyDM x

/-- `x = y` for objects: neither class declares an assignment operator, so the member `rep_` is assigned
(`base_interval.hpp:94`), without a check. -/
def Itv.assign (_old new : Itv) : M Itv := pure new

/-- `x = y` for decorated objects, as `Itv.assign`. -/
def DItv.assign (_old new : DItv) : M DItv := pure new

/-- `interval(decorated_interval const&)`, `interval.hpp:188-191`; not `explicit`. -/
def DItv.toBare (x : DItv) : M Itv := intervalPart x

/-- `decorated_interval(interval const&)`, `decorated_interval.hpp:233-236`; not `explicit`. -/
def Itv.toDec (x : Itv) : M DItv := newDecM x

/-- `operator==`, `base_interval_bool_func_impl.hpp:97-101`. -/
def Itv.eqOp (x y : Itv) : Bool := x.equal y

/-- `operator!=`, `base_interval_bool_func_impl.hpp:104-108`: not `equal`. -/
def Itv.neOp (x y : Itv) : Bool := !x.equal y

/-- `operator==` on decorated intervals, `base_interval_bool_func_impl.hpp:97-101`. -/
def DItv.eqOp (x y : DItv) : Bool := x.rel Itv.equal y

/-- `operator!=` on decorated intervals, `base_interval_bool_func_impl.hpp:104-108`. -/
def DItv.neOp (x y : DItv) : Bool := !x.rel Itv.equal y

/-- A result `x` handed over by value: `concrete_interval` returns an object (`base_interval.hpp:85-89`), the member
function returns it, the free function or operator returns it again, the caller copies it into a variable.  Each of
these steps is a copy construction which the compiler may leave out (C++11 12.8/31; the project is built with
`-std=c++11`); `n` is the number of copy constructions that are not left out. -/
def Itv.handed (x : Itv) : ℕ → M Itv
  | 0 => pure x
  | n + 1 => do (← x.handed n).copyCtor

/-- A decorated result handed over by value, as `Itv.handed`. -/
def DItv.handed (x : DItv) : ℕ → M DItv
  | 0 => pure x
  | n + 1 => do (← x.handed n).copyCtor

end P1788
