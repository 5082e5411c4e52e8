import Verif.Model.Unary
import Mathlib.Analysis.SpecialFunctions.Complex.Arg

/-! # `atan2` -/

namespace P1788

/-- Rounded angle `t`, with the sign flipped when `neg`: the exact value `-t` rounded in mode `m`.
The results of `mpfr_atan2` in `_elem_func_impl.hpp:3018-3111`. -/
noncomputable def Fmt.angle (φ : Fmt) (m : Rnd) (neg : Bool) (t : ℝ) : FP :=
  φ.round m (if neg then -t else t)

/-- `mpfr_atan2(y, x)` with the special cases of the MPFR manual (those of IEEE 754 / C99 Annex F):
for finite operands off the axis the argument of the complex number `x + i y`, correctly rounded.
Called at `_elem_func_impl.hpp:3018-3111`. -/
noncomputable def Fmt.atan2 (φ : Fmt) (m : Rnd) (y x : FP) : FP :=
  if y.isNaN || x.isNaN then .nan
  else if y.isZero then
    if x.signbit then φ.angle m y.signbit Real.pi else FP.mkZero y.signbit
  else if y.isInf then
    if x = .ninf then φ.angle m y.signbit (3 * Real.pi / 4)
    else if x = .pinf then φ.angle m y.signbit (Real.pi / 4)
    else φ.angle m y.signbit (Real.pi / 2)
  else if x = .ninf then φ.angle m y.signbit Real.pi
  else if x = .pinf then FP.mkZero y.signbit
  else φ.round m (Complex.arg ⟨(x.q : ℝ), (y.q : ℝ)⟩)

namespace Fmt
variable (φ : Fmt)

/-- `mpfr_const_pi`.
Called at `_elem_func_impl.hpp:2294, 2452, 2608, 3031-3098`, `_rev_func_impl.hpp:701-702, 948-949`. -/
noncomputable def constPi (m : Rnd) : FP := φ.round m Real.pi

/-- `atan2(y, x)`, `_elem_func_impl.hpp:2995-3122`. -/
noncomputable def atan2I (y x : Itv) : Itv :=
  if !y.isValid || !x.isValid || y.isEmpty || x.isEmpty ||
      (y.lo.feq (.fin 0) && y.hi.feq (.fin 0) && x.lo.feq (.fin 0) && x.hi.feq (.fin 0)) then Itv.empty
  else if .fin 0 ≤ y.lo ∧ .fin 0 < y.hi then
    if x.lo.feq (.fin 0) && x.hi.feq (.fin 0) then ⟨φ.atan2 .D y.hi x.lo, φ.atan2 .U y.hi x.lo⟩
    else if .fin 0 ≤ x.lo then ⟨φ.atan2 .D y.lo x.hi, φ.atan2 .U y.hi x.lo⟩
    else if x.hi ≤ .fin 0 then
      ⟨φ.atan2 .D y.hi x.hi, if y.lo.feq (.fin 0) then φ.constPi .U else φ.atan2 .U y.lo x.lo⟩
    else if y.lo.feq (.fin 0) then ⟨.fin 0, φ.constPi .U⟩
    else ⟨φ.atan2 .D y.lo x.hi, φ.atan2 .U y.lo x.lo⟩
  else if y.lo < .fin 0 ∧ y.hi ≤ .fin 0 then
    if x.lo.feq (.fin 0) && x.hi.feq (.fin 0) then ⟨φ.atan2 .D y.lo x.lo, φ.atan2 .U y.lo x.lo⟩
    else if .fin 0 ≤ x.lo then ⟨φ.atan2 .D y.lo x.lo, φ.atan2 .U y.hi x.hi⟩
    else if x.hi ≤ .fin 0 then
      if y.hi.feq (.fin 0) then ⟨(φ.constPi .U).neg, φ.constPi .U⟩
      else ⟨φ.atan2 .D y.hi x.lo, φ.atan2 .U y.lo x.hi⟩
    else if y.hi.feq (.fin 0) then ⟨(φ.constPi .U).neg, φ.constPi .U⟩
    else ⟨φ.atan2 .D y.hi x.lo, φ.atan2 .U y.hi x.hi⟩
  else if y.lo.feq (.fin 0) && y.hi.feq (.fin 0) then
    if .fin 0 ≤ x.lo then ⟨.fin 0, .fin 0⟩
    else if x.hi ≤ .fin 0 then ⟨φ.constPi .D, φ.constPi .U⟩
    else ⟨.fin 0, φ.constPi .U⟩
  else
    if .fin 0 ≤ x.lo then ⟨φ.atan2 .D y.lo x.lo, φ.atan2 .U y.hi x.lo⟩
    else ⟨(φ.constPi .U).neg, φ.constPi .U⟩

end Fmt
end P1788
