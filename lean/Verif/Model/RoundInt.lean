import Verif.Model.Unary

/-! # Sign and integer rounding functions -/

namespace P1788

/-- C++ functions rounding a floating-point number to an integral value (`std::ceil` etc.): infinities, NaN and
zeros are returned unchanged, a zero result keeps the sign of the argument (C11 F.10.6).  `g` is the rounding of
rational numbers.  The result is always a number of the type, see `C14_floor` and the theorems beside it.
`_elem_func_impl.hpp:3838, 3920, 4002, 4183`. -/
def FP.rint (g : ℚ → ℤ) : FP → FP
  | .fin q => if g q = 0 then FP.mkZero (decide (q < 0)) else .fin (g q)
  | a => a

/-- `std::trunc` on rationals. `_elem_func_impl.hpp:4002`. -/
def truncQ (q : ℚ) : ℤ := if q < 0 then ⌈q⌉ else ⌊q⌋

/-- `std::round` on rationals: nearest integer, ties away from zero. `_elem_func_impl.hpp:4183`. -/
def awayQ (q : ℚ) : ℤ := if q < 0 then ⌈q - 1 / 2⌉ else ⌊q + 1 / 2⌋

/-- The expression `(x < 0.0) ? -1.0 : ((x == 0.0) ? 0.0 : 1.0)` in `sign`, `_elem_func_impl.hpp:3755-3756`. -/
def FP.signF (a : FP) : FP := if a < .fin 0 then .fin (-1) else if a.feq (.fin 0) then .fin 0 else .fin 1

namespace Fmt

/-- `sign(x)`, `_elem_func_impl.hpp:3747-3757`. -/
def signI (x : Itv) : Itv := if !x.isValid || x.isEmpty then Itv.empty else ⟨x.lo.signF, x.hi.signF⟩

/-- Common shape of the integer rounding functions: the bare function rounds both bounds.
`_elem_func_impl.hpp:3831-3838, 3913-3920`. -/
def rintI (g : ℚ → ℤ) (x : Itv) : Itv :=
  if !x.isValid || x.isEmpty then Itv.empty else ⟨x.lo.rint g, x.hi.rint g⟩

/-- `ceil(x)`, `_elem_func_impl.hpp:3831-3838`. -/
def ceilI (x : Itv) : Itv := rintI (fun q => ⌈q⌉) x
/-- `floor(x)`, `_elem_func_impl.hpp:3913-3920`. -/
def floorI (x : Itv) : Itv := rintI (fun q => ⌊q⌋) x
/-- `trunc(x)`, `_elem_func_impl.hpp:3995-4002`. -/
def truncI (x : Itv) : Itv := rintI truncQ x
/-- `round_ties_to_even(x)`, `_elem_func_impl.hpp:4078-4101`; `std::nearbyint` under `FE_TONEAREST`
(the rounding mode of the caller is restored on exit). -/
def roundEvenI (x : Itv) : Itv := rintI (roundInt .N) x
/-- `round_ties_to_away(x)`, `_elem_func_impl.hpp:4176-4183`. -/
def roundAwayI (x : Itv) : Itv := rintI awayQ x

end Fmt
end P1788
