import Verif.Model.Mpfr

/-!
# Interval representations, constants, validity, conversion

Prefix of all cited files: `p1788/flavor/infsup/setbased/mpfr_bin_ieee754_flavor`.
Exceptions signalled by the functions are modelled separately in `Verif/Model/Exception.lean`; the functions
here are the returned values.
-/

namespace P1788

/-- Bare representation `std::pair<T,T>` (`.hpp:94-110`): lower and upper bound. -/
structure Itv where
  lo : FP
  hi : FP
  deriving DecidableEq

/-- Decorations, `p1788/decoration/decoration.hpp:43-63`, ordered `ill=0 < trv=4 < def=8 < dac=12 < com=16`. -/
inductive Dec where
  | ill | trv | defd | dac | com
  deriving DecidableEq

/-- Underlying value of the enum. `decoration.hpp:43-63`. -/
def Dec.val : Dec → ℕ
  | .ill => 0
  | .trv => 4
  | .defd => 8
  | .dac => 12
  | .com => 16

instance : LE Dec := ⟨fun a b => a.val ≤ b.val⟩
instance : LT Dec := ⟨fun a b => a.val < b.val⟩
instance (a b : Dec) : Decidable (a ≤ b) := inferInstanceAs (Decidable (a.val ≤ b.val))
instance (a b : Dec) : Decidable (a < b) := inferInstanceAs (Decidable (a.val < b.val))

/-- `std::min` on decorations. E.g. `_class_impl.hpp:242`. -/
def Dec.min (a b : Dec) : Dec := if b < a then b else a

/-- Decorated representation `std::pair<representation, decoration>` (`.hpp:112-130`). -/
structure DItv where
  itv : Itv
  dec : Dec
  deriving DecidableEq

namespace Itv

/-- `empty()`, `_class_impl.hpp:48-54`. -/
def empty : Itv := ⟨.nan, .nan⟩

/-- `entire()`, `_class_impl.hpp:66-72`. -/
def entire : Itv := ⟨.ninf, .pinf⟩

/-- `is_valid(representation)`, `_validation_func_impl.hpp:43-56` (returned value). -/
def isValid (x : Itv) : Bool :=
  (x.lo.isNaN && x.hi.isNaN)
    || (x.lo.leb x.hi && !(x.lo.feq .pinf) && !(x.hi.feq .ninf))

/-- `is_empty(representation)`, `_bool_func_impl.hpp:43-52`: valid and both bounds NaN. -/
def isEmpty (x : Itv) : Bool := x.isValid && x.lo.isNaN && x.hi.isNaN

/-- `is_entire(representation)`, `_bool_func_impl.hpp:68-78`. -/
def isEntire (x : Itv) : Bool := x.isValid && x.lo.feq .ninf && x.hi.feq .pinf

/-- `is_common_interval(representation)`, `_rec_bool_func_impl.hpp:43-52`. -/
def isCommon (x : Itv) : Bool :=
  x.isValid && (!x.isEmpty && FP.ninf.ltb x.lo && x.hi.ltb .pinf)

/-- `is_singleton(representation)`, `_rec_bool_func_impl.hpp:66-73`. -/
def isSingleton (x : Itv) : Bool := x.isValid && x.lo.feq x.hi

end Itv

namespace DItv

/-- `empty_dec()`, `_class_impl.hpp:57-63`. -/
def empty : DItv := ⟨Itv.empty, .trv⟩

/-- `entire_dec()`, `_class_impl.hpp:75-81`. -/
def entire : DItv := ⟨Itv.entire, .dac⟩

/-- `nai()`, `_class_impl.hpp:86-92`. -/
def nai : DItv := ⟨Itv.empty, .ill⟩

/-- `is_valid(representation_dec)`, `_validation_func_impl.hpp:59-81` (returned value). -/
def isValid (x : DItv) : Bool :=
  (x.itv.lo.isNaN && x.itv.hi.isNaN && (x.dec == .ill || x.dec == .trv))
    || (x.dec != .ill
        && (x.itv.lo.leb x.itv.hi && !(x.itv.lo.feq .pinf) && !(x.itv.hi.feq .ninf)
            && (x.dec != .com || (!(x.itv.lo.feq .ninf) && !(x.itv.hi.feq .pinf)))))

/-- `is_nai(representation_dec)`, `_bool_func_impl.hpp:94-102`. -/
def isNai (x : DItv) : Bool :=
  x.isValid && x.itv.lo.isNaN && x.itv.hi.isNaN && x.dec == .ill

end DItv

namespace Fmt
variable (φ : Fmt)

/-- Storing a value of another (IEEE binary) type into an `mpfr_var` of type `T` and reading it back:
`mpfr_var(x, rnd)` then `get<T>(rnd)`.  Zeros keep their sign, specials are preserved. `mpfr_var_impl.hpp:155-226`. -/
def conv (m : Rnd) : FP → FP
  | .fin q => if q = 0 then .fin 0 else φ.round m q
  | a => a

/-- `convert_rndd`, `_util_func_impl.hpp:42-55`: ±0 maps to -0. -/
def convertRndd (a : FP) : FP :=
  let r := φ.conv .D a
  if r.isZero then .nzero else r

/-- `convert_rndn`, `_util_func_impl.hpp:58-71`: ±0 maps to +0. -/
def convertRndn (a : FP) : FP :=
  let r := φ.conv .N a
  if r.isZero then .fin 0 else r

/-- `convert_rndu`, `_util_func_impl.hpp:74-87`: ±0 maps to +0. -/
def convertRndu (a : FP) : FP :=
  let r := φ.conv .U a
  if r.isZero then .fin 0 else r

/-- `convert_hull(representation_type<T_>)`, `_util_func_impl.hpp:91-99`. -/
def convertHull (x : Itv) : Itv := ⟨φ.convertRndd x.lo, φ.convertRndu x.hi⟩

/-- `convert_hull(representation_dec_type<T_>)`, `_util_func_impl.hpp:102-123`. -/
def convertHullD (x : DItv) : DItv :=
  if x.isNai then DItv.nai
  else
    let bare : Itv := ⟨φ.convertRndd x.itv.lo, φ.convertRndu x.itv.hi⟩
    if x.dec = .com && (bare.lo.feq .ninf || bare.hi.feq .pinf) then ⟨bare, .dac⟩
    else ⟨bare, x.dec⟩

end Fmt

end P1788
