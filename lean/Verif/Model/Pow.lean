import Verif.Model.Unary

/-! # General power function -/

namespace P1788

/-- `mpfr_pow(a, b)` for `a` NaN, `+0`, positive or `+inf`, with the special cases of the MPFR manual.
Negative bases and `-0` never reach this function in the library (`_elem_func_impl.hpp:1553` turns `-0` into
`+0`); they yield NaN here. -/
noncomputable def Fmt.pow (φ : Fmt) (m : Rnd) (a b : FP) : FP :=
  if b.isZero then .fin 1
  else if a = .fin 1 then .fin 1
  else if a.isNaN || b.isNaN then .nan
  else if a = .fin 0 then (if b.signbit then .pinf else .fin 0)
  else if a.signbit then .nan
  else if a = .pinf then (if b.signbit then .fin 0 else .pinf)
  else if b = .pinf then (if a < .fin 1 then .fin 0 else .pinf)
  else if b = .ninf then (if a < .fin 1 then .pinf else .fin 0)
  else φ.round m ((a.q : ℝ) ^ (b.q : ℝ))

namespace Fmt
variable (φ : Fmt)

/-- `pow(x, y)`, `_elem_func_impl.hpp:1526-1637`. -/
noncomputable def powI (x y : Itv) : Itv :=
  if !x.isValid || !y.isValid || y.isEmpty then Itv.empty
  else
    let xx := x.inter ⟨.fin 0, .pinf⟩
    if xx.isEmpty then xx
    else if xx.hi.feq (.fin 0) then
      if y.hi ≤ .fin 0 then Itv.empty else ⟨.fin 0, .fin 0⟩
    else
      let xl := if xx.lo.feq .nzero then .fin 0 else xx.lo
      let xu := xx.hi
      if .fin 0 ≤ y.lo then
        if xx.hi ≤ .fin 1 then ⟨φ.pow .D xl y.hi, φ.pow .U xu y.lo⟩
        else if .fin 1 ≤ xx.lo then ⟨φ.pow .D xl y.lo, φ.pow .U xu y.hi⟩
        else ⟨φ.pow .D xl y.hi, φ.pow .U xu y.hi⟩
      else if y.hi ≤ .fin 0 then
        if xx.hi ≤ .fin 1 then ⟨φ.pow .D xu y.hi, φ.pow .U xl y.lo⟩
        else if .fin 1 ≤ xx.lo then ⟨φ.pow .D xu y.lo, φ.pow .U xl y.hi⟩
        else ⟨φ.pow .D xu y.lo, φ.pow .U xl y.lo⟩
      else
        if xx.hi ≤ .fin 1 then ⟨φ.pow .D xl y.hi, φ.pow .U xl y.lo⟩
        else if .fin 1 ≤ xx.lo then ⟨φ.pow .D xu y.lo, φ.pow .U xu y.hi⟩
        else ⟨(φ.pow .D xu y.lo).mpfrMin (φ.pow .D xl y.hi), (φ.pow .U xu y.hi).mpfrMax (φ.pow .U xl y.lo)⟩

end Fmt
end P1788
