import Verif.Model.Expr

/-!
# The floating-point rounding mode of the calling thread

Results that go through MPFR do not depend on the rounding mode of the processor: each MPFR call gets its rounding mode
as an argument.  Two places of the library use operations of C++ that do depend on it: `std::nearbyint` in
`round_ties_to_even`, and the subtraction in the tests for ties of the decorated integer rounding functions.  Here these
two are modelled with the rounding mode as a state; the functions are those of `RoundInt.lean` and `Dec.lean`, where the
mode is fixed to "to nearest".  Comparisons, negation, `std::abs`, `std::trunc`, `std::ceil`, `std::floor` and
`std::round` do not depend on the mode (C11 F.10).
-/

namespace P1788

/-- The rounding modes of `<cfenv>`: `FE_TONEAREST`, `FE_UPWARD`, `FE_DOWNWARD`, `FE_TOWARDZERO`.
Included in `mpfr_bin_ieee754_flavor.hpp:31`. -/
inductive FEMode where
  | toNearest | upward | downward | towardZero
  deriving DecidableEq

/-- A computation that reads and changes the rounding mode. Models the environment of
`_elem_func_impl.hpp:4084-4100`. -/
def FE (α : Type) : Type := FEMode → α × FEMode

instance : Monad FE where
  pure a := fun m => (a, m)
  bind c f := fun m => f (c m).1 (c m).2

/-- `std::fegetround()`, `_elem_func_impl.hpp:4089`. -/
def feGetRound : FE FEMode := fun m => (m, m)

/-- `std::fesetround(rnd)`, `_elem_func_impl.hpp:4091, 4096`. -/
def feSetRound (m : FEMode) : FE Unit := fun _ => ((), m)

/-- How `std::nearbyint` rounds in a mode (C11 7.12.9.3). `_elem_func_impl.hpp:4100`. -/
def FEMode.toInt : FEMode → ℚ → ℤ
  | .toNearest => roundInt .N
  | .upward => fun q => ⌈q⌉
  | .downward => fun q => ⌊q⌋
  | .towardZero => truncQ

/-- `std::nearbyint(a)`, `_elem_func_impl.hpp:4100`. -/
def nearbyint (a : FP) : FE FP := fun m => (a.rint m.toInt, m)

/-- The binary `-` of C++ on numbers of type `T`, rounding in the current mode; toward zero is downward for positive
and upward for negative (and zero) results. `_elem_func_impl.hpp:4142-4143, 4225-4226`. -/
def Fmt.fsub (φ : Fmt) (a b : FP) : FE FP := fun m =>
  (match m with
    | .toNearest => φ.sub .N a b
    | .upward => φ.sub .U a b
    | .downward => φ.sub .D a b
    | .towardZero => if b.q < a.q then φ.sub .D a b else φ.sub .U a b, m)

namespace Fmt
variable (φ : Fmt)

/-- `round_ties_to_even` ( bare interval ), `_elem_func_impl.hpp:4078-4101`.  The local object `rnd` saves the mode and
sets `FE_TONEAREST`; its destructor, which runs after the operands of `return` have been evaluated, restores the mode. -/
def roundEvenFE (x : Itv) : FE Itv := do
  if !x.isValid || x.isEmpty then return Itv.empty
  let rnd ← feGetRound
  feSetRound .toNearest
  let l ← nearbyint x.lo
  let u ← nearbyint x.hi
  feSetRound rnd
  return ⟨l, u⟩

/-- The test `std::abs(a) - std::trunc(std::abs(a)) == 0.5` of `_elem_func_impl.hpp:4142-4143, 4225-4226`. -/
def isTieFE (a : FP) : FE Bool := do
  let d ← φ.fsub a.abs (a.abs.rint truncQ)
  return d.feq (.fin (1 / 2))

/-- The two tests joined by `||`: the second is evaluated only if the first fails. `_elem_func_impl.hpp:4142-4143`. -/
def isTieEitherFE (a b : FP) : FE Bool := do
  if ← φ.isTieFE a then return true
  φ.isTieFE b

/-- `round_ties_to_even` ( decorated interval ), `_elem_func_impl.hpp:4127-4147`. -/
def roundEvenDFE (x : DItv) : FE DItv := do
  if !x.isValid || x.isNai then return DItv.nai
  let bare ← roundEvenFE x.itv
  if bare.isEmpty then return ⟨bare, x.dec.min .trv⟩
  if !bare.isSingleton then return ⟨bare, x.dec.min .defd⟩
  if ← φ.isTieEitherFE x.itv.lo x.itv.hi then return ⟨bare, x.dec.min .dac⟩
  return ⟨bare, x.dec.min .com⟩

/-- `round_ties_to_away` ( decorated interval ), `_elem_func_impl.hpp:4210-4230`; the bare function, using
`std::round`, does not depend on the mode. -/
def roundAwayDFE (x : DItv) : FE DItv := do
  if !x.isValid || x.isNai then return DItv.nai
  let bare := roundAwayI x.itv
  if bare.isEmpty then return ⟨bare, x.dec.min .trv⟩
  if !bare.isSingleton then return ⟨bare, x.dec.min .defd⟩
  if ← φ.isTieEitherFE x.itv.lo x.itv.hi then return ⟨bare, x.dec.min .dac⟩
  return ⟨bare, x.dec.min .com⟩

end Fmt

/-- The bare unary functions with the rounding mode. See `Op1.bare` for the lines. -/
noncomputable def Op1.bareFE (φ : Fmt) : Op1 → Itv → FE Itv
  | .roundEven => Fmt.roundEvenFE
  | op => fun x => pure (op.bare φ x)

/-- The decorated unary functions with the rounding mode. See `Op1.decd` for the lines. -/
noncomputable def Op1.decdFE (φ : Fmt) : Op1 → DItv → FE DItv
  | .roundEven => φ.roundEvenDFE
  | .roundAway => φ.roundAwayDFE
  | op => fun x => pure (op.decd φ x)

namespace Expr
variable {ι : Type}

/-- Evaluation on bare intervals by a thread with a rounding mode; a formula is evaluated from left to right.  Not part
of the library: a program that calls it. -/
noncomputable def evalFE (φ : Fmt) (X : ι → Itv) : Expr ι → FE Itv
  | var i => pure (X i)
  | un op e => do op.bareFE φ (← e.evalFE φ X)
  | bin op e₁ e₂ => do
    let a ← e₁.evalFE φ X
    let b ← e₂.evalFE φ X
    return op.bare φ a b
  | fma e₁ e₂ e₃ => do
    let a ← e₁.evalFE φ X
    let b ← e₂.evalFE φ X
    let c ← e₃.evalFE φ X
    return φ.fmaI a b c

/-- Evaluation on decorated intervals by a thread with a rounding mode.  Not part of the library: a program that calls
it. -/
noncomputable def evalDFE (φ : Fmt) (X : ι → DItv) : Expr ι → FE DItv
  | var i => pure (X i)
  | un op e => do op.decdFE φ (← e.evalDFE φ X)
  | bin op e₁ e₂ => do
    let a ← e₁.evalDFE φ X
    let b ← e₂.evalDFE φ X
    return op.decd φ a b
  | fma e₁ e₂ e₃ => do
    let a ← e₁.evalDFE φ X
    let b ← e₂.evalDFE φ X
    let c ← e₃.evalDFE φ X
    return φ.fmaD a b c

end Expr

/-- A step of a thread: it changes its rounding mode, or evaluates a formula.  Not part of the library: a program that
calls it. -/
inductive FEStep (ι : Type) where
  | setMode (m : FEMode)
  | bare (X : ι → Itv) (e : Expr ι)
  | decd (X : ι → DItv) (e : Expr ι)

/-- What a step reports. -/
inductive FEOut where
  | none | bare (x : Itv) | decd (x : DItv)

/-- A step of a thread. Not part of the library: a program that calls it. -/
noncomputable def FEStep.run {ι : Type} (φ : Fmt) : FEStep ι → FE FEOut
  | .setMode m => do feSetRound m; return .none
  | .bare X e => do return .bare (← e.evalFE φ X)
  | .decd X e => do return .decd (← e.evalDFE φ X)

/-- The steps of a thread, with what they report. Not part of the library: a program that calls it. -/
noncomputable def runFE {ι : Type} (φ : Fmt) : List (FEStep ι) → FE (List FEOut)
  | [] => return []
  | s :: l => do
    let o ← s.run φ
    let os ← runFE φ l
    return o :: os

end P1788
