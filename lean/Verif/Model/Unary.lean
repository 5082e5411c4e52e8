import Verif.Model.Elem
import Verif.Model.Bool
import Mathlib.Analysis.Real.Sqrt
import Mathlib.Data.Rat.Cast.Order
import Mathlib.Analysis.SpecialFunctions.Log.Base
import Mathlib.Analysis.SpecialFunctions.Pow.Real
import Mathlib.Analysis.SpecialFunctions.Trigonometric.Inverse
import Mathlib.Analysis.SpecialFunctions.Trigonometric.Arctan
import Mathlib.Analysis.SpecialFunctions.Arsinh
import Mathlib.Analysis.SpecialFunctions.Arcosh
import Mathlib.Analysis.SpecialFunctions.Artanh

/-!
# Real-valued MPFR functions

Contract of the correctly rounding MPFR functions (`mpfr_exp`, `mpfr_sin`, ...): the exact real value rounded
once into the format.  `vn`, `vp` are the values at the infinities and a zero argument with a zero result keeps
its sign; these are the special cases listed in the MPFR manual.
-/

namespace P1788

/-- A correctly rounding MPFR function computing the real function `f`.
E.g. `mpfr_exp`, `_elem_func_impl.hpp:1733-1734`. -/
noncomputable def Fmt.un (φ : Fmt) (m : Rnd) (f : ℝ → ℝ) (vn vp : FP) : FP → FP
  | .nan => .nan
  | .ninf => vn
  | .pinf => vp
  | .nzero => if f 0 = 0 then .nzero else φ.round m (f 0)
  | .fin q => φ.round m (f q)

/-- `mpfr_sqrt`: NaN for negative arguments, `sqrt(-0) = -0`. `_elem_func_impl.hpp:1002-1003`. -/
noncomputable def Fmt.sqrt (φ : Fmt) (m : Rnd) : FP → FP
  | .fin q => if q < 0 then .nan else φ.un m Real.sqrt .nan .pinf (.fin q)
  | a => φ.un m Real.sqrt .nan .pinf a

/-- `mpfr_log`, `mpfr_log2`, `mpfr_log10` for the logarithm function `f`: `-inf` at zeros, NaN below.
`_elem_func_impl.hpp:2006-2007`. -/
noncomputable def Fmt.logf (φ : Fmt) (m : Rnd) (f : ℝ → ℝ) : FP → FP
  | .nan => .nan
  | .ninf => .nan
  | .pinf => .pinf
  | .nzero => .ninf
  | .fin q => if q < 0 then .nan else if q = 0 then .ninf else φ.round m (f q)

/-- `mpfr_asin`, `mpfr_acos` for the function `f`: NaN outside `[-1,1]`. `_elem_func_impl.hpp:2733-2734`. -/
noncomputable def Fmt.arcf (φ : Fmt) (m : Rnd) (f : ℝ → ℝ) : FP → FP
  | .fin q => if q < -1 ∨ 1 < q then .nan else φ.un m f .nan .nan (.fin q)
  | a => φ.un m f .nan .nan a

/-- `mpfr_acosh`: NaN below 1. `_elem_func_impl.hpp:3581-3582`. -/
noncomputable def Fmt.acosh (φ : Fmt) (m : Rnd) : FP → FP
  | .nan => .nan
  | .ninf => .nan
  | .pinf => .pinf
  | .nzero => .nan
  | .fin q => if q < 1 then .nan else φ.round m (Real.arcosh q)

/-- `mpfr_atanh`: infinite at `±1`, NaN outside `[-1,1]`. `_elem_func_impl.hpp:3670-3671`. -/
noncomputable def Fmt.atanh (φ : Fmt) (m : Rnd) : FP → FP
  | .nan => .nan
  | .ninf => .nan
  | .pinf => .nan
  | .nzero => .nzero
  | .fin q => if q < -1 ∨ 1 < q then .nan else if q = -1 then .ninf else if q = 1 then .pinf
      else φ.round m (Real.artanh q)

namespace Fmt
variable (φ : Fmt)

/-- `sqrt`, `_elem_func_impl.hpp:980-1004`. -/
noncomputable def sqrtI (x : Itv) : Itv :=
  if !x.isValid || x.isEmpty then Itv.empty
  else if x.hi < .fin 0 then Itv.empty
  else if x.lo < .fin 0 then ⟨.fin 0, φ.sqrt .U x.hi⟩
  else ⟨φ.sqrt .D x.lo, φ.sqrt .U x.hi⟩

/-- `exp`, `_elem_func_impl.hpp:1722-1738`; `exp(-inf) = +0`. -/
noncomputable def expI (x : Itv) : Itv :=
  if !x.isValid || x.isEmpty then Itv.empty
  else ⟨φ.un .D Real.exp (.fin 0) .pinf x.lo, φ.un .U Real.exp (.fin 0) .pinf x.hi⟩

/-- `exp2`, `_elem_func_impl.hpp:1810-1826`. -/
noncomputable def exp2I (x : Itv) : Itv :=
  if !x.isValid || x.isEmpty then Itv.empty
  else ⟨φ.un .D (fun t => (2:ℝ) ^ t) (.fin 0) .pinf x.lo, φ.un .U (fun t => (2:ℝ) ^ t) (.fin 0) .pinf x.hi⟩

/-- `exp10`, `_elem_func_impl.hpp:1898-1914`. -/
noncomputable def exp10I (x : Itv) : Itv :=
  if !x.isValid || x.isEmpty then Itv.empty
  else ⟨φ.un .D (fun t => (10:ℝ) ^ t) (.fin 0) .pinf x.lo, φ.un .U (fun t => (10:ℝ) ^ t) (.fin 0) .pinf x.hi⟩

/-- Common body of `log`, `log2`, `log10`, `_elem_func_impl.hpp:1987-2010, 2084-2107, 2180-2203`; `f` is the
logarithm computed by the respective MPFR function. -/
noncomputable def logI' (f : ℝ → ℝ) (x : Itv) : Itv :=
  if !x.isValid then Itv.empty
  else
    let xx := x.inter ⟨.fin 0, .pinf⟩
    if xx.isEmpty then xx
    else if x.hi ≤ .fin 0 then Itv.empty
    else ⟨φ.logf .D f (if x.lo ≤ .fin 0 then .fin 0 else x.lo), φ.logf .U f x.hi⟩

/-- `log`, `_elem_func_impl.hpp:1987-2010`. -/
noncomputable def logI (x : Itv) : Itv := φ.logI' Real.log x
/-- `log2`, `_elem_func_impl.hpp:2084-2107`. -/
noncomputable def log2I (x : Itv) : Itv := φ.logI' (Real.logb 2) x
/-- `log10`, `_elem_func_impl.hpp:2180-2203`. -/
noncomputable def log10I (x : Itv) : Itv := φ.logI' (Real.logb 10) x

/-- `asin`, `_elem_func_impl.hpp:2716-2736`. -/
noncomputable def asinI (x : Itv) : Itv :=
  if !x.isValid then Itv.empty
  else
    let xx := x.inter ⟨.fin (-1), .fin 1⟩
    if xx.isEmpty then xx
    else ⟨φ.arcf .D Real.arcsin xx.lo, φ.arcf .U Real.arcsin xx.hi⟩

/-- `acos`, `_elem_func_impl.hpp:2810-2830`. -/
noncomputable def acosI (x : Itv) : Itv :=
  if !x.isValid then Itv.empty
  else
    let xx := x.inter ⟨.fin (-1), .fin 1⟩
    if xx.isEmpty then xx
    else ⟨φ.arcf .D Real.arccos xx.hi, φ.arcf .U Real.arccos xx.lo⟩

/-- `atan`, `_elem_func_impl.hpp:2905-2921`; `mpfr_atan(±inf)` is `±π/2` rounded. -/
noncomputable def atanI (x : Itv) : Itv :=
  if !x.isValid || x.isEmpty then Itv.empty
  else ⟨φ.un .D Real.arctan (φ.round .D (-(Real.pi / 2))) (φ.round .D (Real.pi / 2)) x.lo,
        φ.un .U Real.arctan (φ.round .U (-(Real.pi / 2))) (φ.round .U (Real.pi / 2)) x.hi⟩

/-- `sinh`, `_elem_func_impl.hpp:3204-3220`. -/
noncomputable def sinhI (x : Itv) : Itv :=
  if !x.isValid || x.isEmpty then Itv.empty
  else ⟨φ.un .D Real.sinh .ninf .pinf x.lo, φ.un .U Real.sinh .ninf .pinf x.hi⟩

/-- `cosh`, `_elem_func_impl.hpp:3294-3320`.  In the mixed-sign branch the source omits the `subnormalize` call;
it has no effect because the value is at least 1. -/
noncomputable def coshI (x : Itv) : Itv :=
  if !x.isValid || x.isEmpty then Itv.empty
  else if x.lo < .fin 0 ∧ .fin 0 < x.hi then
    ⟨.fin 1, φ.un .U Real.cosh .pinf .pinf (x.lo.neg.stdMax x.hi)⟩
  else
    ⟨φ.un .D Real.cosh .pinf .pinf (x.lo.abs.stdMin x.hi.abs),
     φ.un .U Real.cosh .pinf .pinf (x.lo.abs.stdMax x.hi.abs)⟩

/-- `tanh`, `_elem_func_impl.hpp:3392-3408`. -/
noncomputable def tanhI (x : Itv) : Itv :=
  if !x.isValid || x.isEmpty then Itv.empty
  else ⟨φ.un .D Real.tanh (.fin (-1)) (.fin 1) x.lo, φ.un .U Real.tanh (.fin (-1)) (.fin 1) x.hi⟩

/-- `asinh`, `_elem_func_impl.hpp:3480-3496`. -/
noncomputable def asinhI (x : Itv) : Itv :=
  if !x.isValid || x.isEmpty then Itv.empty
  else ⟨φ.un .D Real.arsinh .ninf .pinf x.lo, φ.un .U Real.arsinh .ninf .pinf x.hi⟩

/-- `acosh`, `_elem_func_impl.hpp:3569-3586`. -/
noncomputable def acoshI (x : Itv) : Itv :=
  if !x.isValid || x.isEmpty || x.hi.ltb (.fin 1) then Itv.empty
  else ⟨φ.acosh .D (if x.lo < .fin 1 then .fin 1 else x.lo), φ.acosh .U x.hi⟩

/-- `atanh`, `_elem_func_impl.hpp:3658-3675`. -/
noncomputable def atanhI (x : Itv) : Itv :=
  if !x.isValid || x.isEmpty || x.hi.leb (.fin (-1)) || FP.leb (.fin 1) x.lo then Itv.empty
  else ⟨φ.atanh .D (if x.lo < .fin (-1) then .fin (-1) else x.lo),
        φ.atanh .U (if .fin 1 < x.hi then .fin 1 else x.hi)⟩

end Fmt
end P1788
