import Verif.Model.Bool
import Verif.Model.Elem
import Verif.Model.Unary
import Verif.Model.Atan2
import Verif.Model.Pow
import Verif.Model.RoundInt
import Verif.Model.Trig

/-!
# Elementary functions on decorated intervals

All of `p1788/flavor/infsup/setbased/mpfr_bin_ieee754_flavor_elem_func_impl.hpp`, the overloads commented
`( decorated interval )` (not `mixed type`).  Each checks its operands (`invalid or NaI → nai()`), computes the bare
result and takes the minimum of the operand decorations and a decoration chosen by a conditional expression; only
that expression differs between functions.
-/

namespace P1788

/-- The common frame of the unary functions: `if (!is_valid(x) || is_nai(x)) return nai();` then
`representation_dec(bare, std::min(x.second, loc))`. E.g. `sqrt`, `_elem_func_impl.hpp:1032-1050`. -/
def DItv.un (x : DItv) (bare : Itv) (loc : Dec) : DItv :=
  if !x.isValid || x.isNai then DItv.nai else ⟨bare, x.dec.min loc⟩

/-- The common frame of the binary functions. E.g. `add`, `_elem_func_impl.hpp:205-224`. -/
def DItv.bin (x y : DItv) (bare : Itv) (loc : Dec) : DItv :=
  if !x.isValid || !y.isValid || x.isNai || y.isNai then DItv.nai else ⟨bare, (x.dec.min y.dec).min loc⟩

/-- The tail `is_common_interval(bare) ? com : dac` of most of the conditional expressions.
E.g. `_elem_func_impl.hpp:1046-1048`. -/
def Itv.comDac (bare : Itv) : Dec := if bare.isCommon then .com else .dac

namespace Fmt
variable (φ : Fmt)

/-- `pos`, `_elem_func_impl.hpp:69-78`. -/
def posD (x : DItv) : DItv := if !x.isValid || x.isNai then DItv.nai else x

/-- `neg`, `_elem_func_impl.hpp:123-132`. -/
def negD (x : DItv) : DItv := if !x.isValid || x.isNai then DItv.nai else ⟨negI x.itv, x.dec⟩

/-- `add`, `_elem_func_impl.hpp:205-224`. -/
def addD (x y : DItv) : DItv :=
  let b := φ.addI x.itv y.itv
  x.bin y b (if b.isCommon then .com else if b.isEmpty then .trv else .dac)

/-- `sub`, `_elem_func_impl.hpp:310-329`. -/
def subD (x y : DItv) : DItv :=
  let b := φ.subI x.itv y.itv
  x.bin y b (if b.isCommon then .com else if b.isEmpty then .trv else .dac)

/-- `mul`, `_elem_func_impl.hpp:530-549`. -/
def mulD (x y : DItv) : DItv :=
  let b := φ.mulI x.itv y.itv
  x.bin y b (if b.isCommon then .com else if b.isEmpty then .trv else .dac)

/-- `div`, `_elem_func_impl.hpp:748-767`. -/
def divD (x y : DItv) : DItv :=
  let b := φ.divI x.itv y.itv
  x.bin y b (if y.isMember (.fin 0) || b.isEmpty then .trv else b.comDac)

/-- `recip`, `_elem_func_impl.hpp:834-852`. -/
def recipD (x : DItv) : DItv :=
  let b := φ.recipI x.itv
  x.un b (if x.isMember (.fin 0) || b.isEmpty then .trv else b.comDac)

/-- `sqr`, `_elem_func_impl.hpp:932-950`. -/
def sqrD (x : DItv) : DItv :=
  let b := φ.sqrI x.itv
  x.un b (if b.isEmpty then .trv else b.comDac)

/-- `sqrt`, `_elem_func_impl.hpp:1032-1050`. -/
noncomputable def sqrtD (x : DItv) : DItv :=
  let b := φ.sqrtI x.itv
  x.un b (if x.itv.lo.ltb (.fin 0) || b.isEmpty then .trv else b.comDac)

/-- `fma`, `_elem_func_impl.hpp:1282-1303`. -/
def fmaD (x y z : DItv) : DItv :=
  if !x.isValid || !y.isValid || !z.isValid || x.isNai || y.isNai || z.isNai then DItv.nai
  else
    let b := φ.fmaI x.itv y.itv z.itv
    ⟨b, ((x.dec.min y.dec).min z.dec).min (if b.isEmpty then .trv else b.comDac)⟩

/-- `pown`, `_elem_func_impl.hpp:1476-1495`. -/
def pownD (x : DItv) (p : ℤ) : DItv :=
  let b := φ.pownI x.itv p
  x.un b (if (p < 0 && x.isMember (.fin 0)) || b.isEmpty then .trv else b.comDac)

/-- `pow`, `_elem_func_impl.hpp:1669-1688`. -/
noncomputable def powD (x y : DItv) : DItv :=
  let b := φ.powI x.itv y.itv
  x.bin y b (if x.itv.lo.ltb (.fin 0) || (x.isMember (.fin 0) && y.itv.lo.leb (.fin 0)) || b.isEmpty then .trv
    else b.comDac)

/-- `exp`, `_elem_func_impl.hpp:1763-1781`. -/
noncomputable def expD (x : DItv) : DItv :=
  let b := φ.expI x.itv
  x.un b (if b.isEmpty then .trv else b.comDac)

/-- `exp2`, `_elem_func_impl.hpp:1851-1869`. -/
noncomputable def exp2D (x : DItv) : DItv :=
  let b := φ.exp2I x.itv
  x.un b (if b.isEmpty then .trv else b.comDac)

/-- `exp10`, `_elem_func_impl.hpp:1939-1957`. -/
noncomputable def exp10D (x : DItv) : DItv :=
  let b := φ.exp10I x.itv
  x.un b (if b.isEmpty then .trv else b.comDac)

/-- `log`, `_elem_func_impl.hpp:2036-2054`. -/
noncomputable def logD (x : DItv) : DItv :=
  let b := φ.logI x.itv
  x.un b (if x.itv.lo.leb (.fin 0) || b.isEmpty then .trv else b.comDac)

/-- `log2`, `_elem_func_impl.hpp:2133-2151`. -/
noncomputable def log2D (x : DItv) : DItv :=
  let b := φ.log2I x.itv
  x.un b (if x.itv.lo.leb (.fin 0) || b.isEmpty then .trv else b.comDac)

/-- `log10`, `_elem_func_impl.hpp:2229-2247`. -/
noncomputable def log10D (x : DItv) : DItv :=
  let b := φ.log10I x.itv
  x.un b (if x.itv.lo.leb (.fin 0) || b.isEmpty then .trv else b.comDac)

/-- `sin`, `_elem_func_impl.hpp:2389-2407`. -/
noncomputable def sinD (x : DItv) : DItv :=
  let b := φ.sinI x.itv
  x.un b (if b.isEmpty then .trv else b.comDac)

/-- `cos`, `_elem_func_impl.hpp:2548-2566`. -/
noncomputable def cosD (x : DItv) : DItv :=
  let b := φ.cosI x.itv
  x.un b (if b.isEmpty then .trv else b.comDac)

/-- `tan`, `_elem_func_impl.hpp:2650-2687`: this overload repeats the computation of the bare one. -/
noncomputable def tanD (x : DItv) : DItv :=
  if !x.isValid || x.isNai then DItv.nai
  else if x.pred Itv.isEmpty then DItv.empty
  else
    let w := φ.sub .U x.itv.hi x.itv.lo
    if φ.constPi .D < w then ⟨Itv.entire, .trv⟩
    else
      let l := φ.tanF .D x.itv.lo
      let u := φ.tanF .U x.itv.hi
      if u < l then ⟨Itv.entire, .trv⟩
      else ⟨⟨l, u⟩, x.dec.min (Itv.comDac ⟨l, u⟩)⟩

/-- `asin`, `_elem_func_impl.hpp:2763-2781`. -/
noncomputable def asinD (x : DItv) : DItv :=
  let b := φ.asinI x.itv
  x.un b (if x.itv.lo.ltb (.fin (-1)) || FP.ltb (.fin 1) x.itv.hi || b.isEmpty then .trv else .com)

/-- `acos`, `_elem_func_impl.hpp:2858-2876`. -/
noncomputable def acosD (x : DItv) : DItv :=
  let b := φ.acosI x.itv
  x.un b (if x.itv.lo.ltb (.fin (-1)) || FP.ltb (.fin 1) x.itv.hi || b.isEmpty then .trv else .com)

/-- `atan`, `_elem_func_impl.hpp:2948-2965`. -/
noncomputable def atanD (x : DItv) : DItv :=
  let b := φ.atanI x.itv
  x.un b (if b.isEmpty then .trv else .com)

/-- `atan2`, `_elem_func_impl.hpp:3151-3171`. -/
noncomputable def atan2D (y x : DItv) : DItv :=
  let b := φ.atan2I y.itv x.itv
  y.bin x b
    (if (y.isMember (.fin 0) && x.isMember (.fin 0)) || b.isEmpty then .trv
     else if y.itv.lo.ltb (.fin 0) && FP.leb (.fin 0) y.itv.hi && x.itv.lo.ltb (.fin 0) then .defd
     else if (y.itv.lo.feq (.fin 0) && x.itv.lo.ltb (.fin 0)) || !b.isCommon then .dac
     else .com)

/-- `sinh`, `_elem_func_impl.hpp:3247-3265`. -/
noncomputable def sinhD (x : DItv) : DItv :=
  let b := φ.sinhI x.itv
  x.un b (if b.isEmpty then .trv else b.comDac)

/-- `cosh`, `_elem_func_impl.hpp:3345-3363`. -/
noncomputable def coshD (x : DItv) : DItv :=
  let b := φ.coshI x.itv
  x.un b (if b.isEmpty then .trv else b.comDac)

/-- `tanh`, `_elem_func_impl.hpp:3434-3451`. -/
noncomputable def tanhD (x : DItv) : DItv :=
  let b := φ.tanhI x.itv
  x.un b (if b.isEmpty then .trv else .com)

/-- `asinh`, `_elem_func_impl.hpp:3522-3540`. -/
noncomputable def asinhD (x : DItv) : DItv :=
  let b := φ.asinhI x.itv
  x.un b (if b.isEmpty then .trv else b.comDac)

/-- `acosh`, `_elem_func_impl.hpp:3611-3629`. -/
noncomputable def acoshD (x : DItv) : DItv :=
  let b := φ.acoshI x.itv
  x.un b (if x.itv.lo.ltb (.fin 1) || b.isEmpty then .trv else b.comDac)

/-- `atanh`, `_elem_func_impl.hpp:3700-3718`. -/
noncomputable def atanhD (x : DItv) : DItv :=
  let b := φ.atanhI x.itv
  x.un b (if x.itv.lo.leb (.fin (-1)) || FP.leb (.fin 1) x.itv.hi || b.isEmpty then .trv else b.comDac)

/-- `sign`, `_elem_func_impl.hpp:3782-3801`. -/
def signD (x : DItv) : DItv :=
  let b := signI x.itv
  x.un b (if b.isEmpty then .trv else if !b.isSingleton then .defd
    else if x.isMember (.fin 0) then .dac else .com)

/-- `ceil`, `_elem_func_impl.hpp:3865-3884`. -/
def ceilD (x : DItv) : DItv :=
  let b := ceilI x.itv
  x.un b (if b.isEmpty then .trv else if !b.isSingleton then .defd
    else if x.itv.hi.feq b.hi then .dac else .com)

/-- `floor`, `_elem_func_impl.hpp:3947-3966`. -/
def floorD (x : DItv) : DItv :=
  let b := floorI x.itv
  x.un b (if b.isEmpty then .trv else if !b.isSingleton then .defd
    else if x.itv.lo.feq b.lo then .dac else .com)

/-- `trunc`, `_elem_func_impl.hpp:4029-4049`. -/
def truncD (x : DItv) : DItv :=
  let b := truncI x.itv
  x.un b (if b.isEmpty then .trv else if !b.isSingleton then .defd
    else if (!(x.itv.lo.feq (.fin 0)) && x.itv.lo.feq b.lo) || (!(x.itv.hi.feq (.fin 0)) && x.itv.hi.feq b.hi)
    then .dac else .com)

/-- The test `std::abs(a) - std::trunc(std::abs(a)) == 0.5` of `_elem_func_impl.hpp:4142-4143, 4225-4226`; the
subtraction is the C++ one of type `T`, rounding to nearest. -/
def isTie (a : FP) : Bool := (φ.sub .N a.abs (a.abs.rint truncQ)).feq (.fin (1 / 2))

/-- `round_ties_to_even`, `_elem_func_impl.hpp:4127-4147`. -/
def roundEvenD (x : DItv) : DItv :=
  let b := roundEvenI x.itv
  x.un b (if b.isEmpty then .trv else if !b.isSingleton then .defd
    else if φ.isTie x.itv.lo || φ.isTie x.itv.hi then .dac else .com)

/-- `round_ties_to_away`, `_elem_func_impl.hpp:4210-4230`. -/
def roundAwayD (x : DItv) : DItv :=
  let b := roundAwayI x.itv
  x.un b (if b.isEmpty then .trv else if !b.isSingleton then .defd
    else if φ.isTie x.itv.lo || φ.isTie x.itv.hi then .dac else .com)

/-- `abs`, `_elem_func_impl.hpp:4299-4317`. -/
def absD (x : DItv) : DItv :=
  let b := absI x.itv
  x.un b (if b.isEmpty then .trv else b.comDac)

/-- `min`, `_elem_func_impl.hpp:4384-4403`. -/
def minD (x y : DItv) : DItv :=
  let b := minI x.itv y.itv
  x.bin y b (if b.isEmpty then .trv else b.comDac)

/-- `max`, `_elem_func_impl.hpp:4475-4494`. -/
def maxD (x y : DItv) : DItv :=
  let b := maxI x.itv y.itv
  x.bin y b (if b.isEmpty then .trv else b.comDac)

end Fmt
end P1788
