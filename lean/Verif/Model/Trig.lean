import Verif.Model.Atan2

/-! # `sin`, `cos`, `tan` -/

namespace P1788

/-- `mpfr_sgn`: 0 for zeros and (with the erange flag raised) for NaN. -/
def FP.sgn (a : FP) : ℤ := if .fin 0 < a then 1 else if a < .fin 0 then -1 else 0

namespace Fmt
variable (φ : Fmt)

/-- `mpfr_sin`; NaN at the infinities. `_elem_func_impl.hpp:2334-2343`. -/
noncomputable def sinF (m : Rnd) (a : FP) : FP := φ.un m Real.sin .nan .nan a
/-- `mpfr_cos`; NaN at the infinities. `_elem_func_impl.hpp:2303, 2307, 2493-2494`. -/
noncomputable def cosF (m : Rnd) (a : FP) : FP := φ.un m Real.cos .nan .nan a

/-- The case distinction shared by `sin` (`_elem_func_impl.hpp:2307-2361`) and `cos` (`2466-2520`): `F` is the
MPFR function, `dl`, `du` are the signs of its derivative at the bounds (`df_lower`, `df_upper`).
The width `w` is rounded up without subnormalisation in the source; the difference of two numbers of the format is
a multiple of the least positive number, so subnormalisation would not change it. -/
noncomputable def trigCore (F : Rnd → FP → FP) (x : Itv) (dl du : ℤ) : Itv :=
  let pi := φ.constPi .D
  let w := φ.sub .U x.hi x.lo
  let full : Itv := ⟨.fin (-1), .fin 1⟩
  let lo := (F .D x.lo).stdMin (F .D x.hi)
  let hi := (F .U x.lo).stdMax (F .U x.hi)
  if dl ≠ du then
    if dl = 0 then (if pi < w then full else ⟨lo, hi⟩)
    else if du = 0 then (if pi < w then full else ⟨lo, hi⟩)
    else if φ.mul .D pi (.fin 2) < w then full
    else if 0 < dl then ⟨lo, .fin 1⟩
    else ⟨.fin (-1), hi⟩
  else if pi < w then full
  else ⟨lo, hi⟩

/-- `sin(x)`, `_elem_func_impl.hpp:2276-2363`. -/
noncomputable def sinI (x : Itv) : Itv :=
  if !x.isValid || x.isEmpty then Itv.empty
  else φ.trigCore φ.sinF x (φ.cosF .D x.lo).sgn (φ.cosF .U x.hi).sgn

/-- `cos(x)`, `_elem_func_impl.hpp:2436-2522`. -/
noncomputable def cosI (x : Itv) : Itv :=
  if !x.isValid || x.isEmpty then Itv.empty
  else φ.trigCore φ.cosF x (φ.sinF .D x.lo).neg.sgn (φ.sinF .U x.hi).neg.sgn

/-- `mpfr_tan`; NaN at the infinities.  (No number of a binary format is a pole: odd multiples of `π/2` are irrational.).
`_elem_func_impl.hpp:2616-2617, 2675-2676`. -/
noncomputable def tanF (m : Rnd) (a : FP) : FP := φ.un m Real.tan .nan .nan a

/-- `tan(x)`, `_elem_func_impl.hpp:2595-2623`. -/
noncomputable def tanI (x : Itv) : Itv :=
  if !x.isValid || x.isEmpty then Itv.empty
  else
    let w := φ.sub .U x.hi x.lo
    if φ.constPi .D < w then Itv.entire
    else
      let l := φ.tanF .D x.lo
      let u := φ.tanF .U x.hi
      if u < l then Itv.entire else ⟨l, u⟩

end Fmt
end P1788
