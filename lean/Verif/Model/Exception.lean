import Verif.Model.Interval
import Verif.Model.Bool

/-!
# Exception state and constructors

`p1788/exception/exception.hpp` and `p1788/flavor/infsup/setbased/mpfr_bin_ieee754_flavor_class_impl.hpp`.

The exception state (sticky flags) and the control word (which conditions throw) are an explicit state; a C++
exception is an explicit outcome.  The state is one per program, as in the code (a plain `static`; the documentation
says thread local).
-/

namespace P1788

/-- The conditions, `exception.hpp:44-51` (bits 1, 2, 4, 8). -/
inductive Ex where
  | undefinedOperation | possiblyUndefinedOperation | intervalPartOfNai | invalidOperand
  deriving DecidableEq

/-- A bit pattern of `exception_bits`, as the set of its bits. `exception.hpp:44-94`. -/
abbrev Bits := Ex → Bool

/-- `none_bit`. `exception.hpp:46`. -/
def Bits.none : Bits := fun _ => false

/-- The two static variables `exception_state_` and `exception_cwd_`, `exception.hpp:100-106, 183-189`. -/
structure ExSt where
  flags : Bits
  cwd : Bits

/-- How a call ends: normally with a value, or by throwing. The exception classes are `exception.hpp:129-176`. -/
inductive Outcome (α : Type) where
  | ret (a : α)
  | thrown (e : Ex)

/-- A computation that may signal. -/
def M (α : Type) : Type := ExSt → Outcome α × ExSt

namespace M
/-- Return. -/
def pure {α : Type} (a : α) : M α := fun s => (.ret a, s)

/-- Sequencing; an exception propagates. -/
def bind {α β : Type} (m : M α) (f : α → M β) : M β := fun s =>
  match m s with
  | (.ret a, s') => f a s'
  | (.thrown e, s') => (.thrown e, s')

instance : Monad M where
  pure := M.pure
  bind := M.bind
end M

/-- `state() |= bit; if (cwd() & bit) throw ...; return state();`, `exception.hpp:237-294` (the four
`signal_...` functions; the returned state is never zero, and is only used negated). -/
def signal (e : Ex) : M Unit := fun s =>
  let s' : ExSt := { s with flags := fun e' => if e' = e then true else s.flags e' }
  if s.cwd e then (.thrown e, s') else (.ret (), s')

/-- `clear()`, `exception.hpp:195-198`. -/
def clearFlags : M Unit := fun s => (.ret (), { s with flags := Bits.none })

/-- `set_throw_exception_cwd(new_state)`, `exception.hpp:114-117`. -/
def setCwd (b : Bits) : M Unit := fun s => (.ret (), { s with cwd := b })

/-- `undefined_operation()` and the other queries, `exception.hpp:203-232`. -/
def query (e : Ex) : M Bool := fun s => (.ret (s.flags e), s)

/-- `is_valid(representation)`, `_validation_func_impl.hpp:43-56`. -/
def Itv.isValidM (x : Itv) : M Bool := do
  if x.isValid then return true
  signal .invalidOperand
  return false

/-- `is_valid(representation_dec)`, `_validation_func_impl.hpp:59-81`. -/
def DItv.isValidM (x : DItv) : M Bool := do
  if x.isValid then return true
  signal .invalidOperand
  return false

/-- The enumerators of `decoration` by their underlying value; `none` for a value that is not an enumerator.
`decoration.hpp:43-63`. -/
def Dec.ofRaw (n : UInt8) : Option Dec :=
  if n = 0 then some .ill else if n = 4 then some .trv else if n = 8 then some .defd
  else if n = 12 then some .dac else if n = 16 then some .com else none

/-- `p1788::decoration::is_valid(dec)`, `decoration.hpp:67-82`. -/
def decIsValidM (d : UInt8) : M Bool := do
  if (Dec.ofRaw d).isSome then return true
  signal .invalidOperand
  return false

/-- The test `lower <= upper && lower != +inf && upper != -inf` of the constructors.
`_class_impl.hpp:107-109, 126-128, 146-148, 169-171`. -/
def boundsOk (l u : FP) : Bool := l.leb u && !(l.feq .pinf) && !(u.feq .ninf)

/-- `new_dec` on the values, without the validity check, `_class_impl.hpp:415-436, 438-465`. -/
def Itv.newDec (x : Itv) : DItv :=
  if x.isEmpty then ⟨x, .trv⟩
  else if x.lo.feq .ninf || x.hi.feq .pinf then ⟨x, .dac⟩
  else ⟨x, .com⟩

/-- `new_dec(representation)`, `_class_impl.hpp:418-438`. -/
def newDecM (x : Itv) : M DItv := do
  if !(← x.isValidM) then return DItv.nai
  return x.newDec

/-- `nums_to_interval(T, T)`, `_class_impl.hpp:104-120`. -/
def numsToInterval (l u : FP) : M Itv := do
  if boundsOk l u then return ⟨l, u⟩
  signal .undefinedOperation
  return Itv.empty

/-- `nums_to_decorated_interval(T, T)`, `_class_impl.hpp:123-139`. -/
def numsToDecorated (l u : FP) : M DItv := do
  if boundsOk l u then return (← newDecM ⟨l, u⟩)
  signal .undefinedOperation
  return DItv.nai

/-- The test of `_class_impl.hpp:195-203, 228-236`. -/
def boundsDecOk (l u : FP) (d : Dec) : Bool :=
  d != .ill && (l.leb u && !(l.feq .pinf) && !(u.feq .ninf) && (d != .com || (!(l.feq .ninf) && !(u.feq .pinf))))

/-- `nums_dec_to_decorated_interval(T, T, decoration)`, `_class_impl.hpp:189-215`. -/
def numsDecToDecorated (l u : FP) (d : UInt8) : M DItv := do
  if (← decIsValidM d) then
    match Dec.ofRaw d with
    | some d =>
      if boundsDecOk l u d then return ⟨⟨l, u⟩, d⟩
      signal .undefinedOperation
    | none => pure ()
  return DItv.nai

namespace Fmt
variable (φ : Fmt)

/-- `nums_to_interval(L_, U_)` (mixed type), `_class_impl.hpp:142-162`. -/
def numsToIntervalMixed (l u : FP) : M Itv := do
  if boundsOk l u then return ⟨φ.convertRndd l, φ.convertRndu u⟩
  signal .undefinedOperation
  return Itv.empty

/-- `nums_to_decorated_interval(L_, U_)` (mixed type), `_class_impl.hpp:165-185`. -/
def numsToDecoratedMixed (l u : FP) : M DItv := do
  if boundsOk l u then return (← newDecM ⟨φ.convertRndd l, φ.convertRndu u⟩)
  signal .undefinedOperation
  return DItv.nai

/-- `nums_dec_to_decorated_interval(L_, U_, decoration)` (mixed type), `_class_impl.hpp:218-254`. -/
def numsDecToDecoratedMixed (l u : FP) (d : UInt8) : M DItv := do
  if (← decIsValidM d) then
    match Dec.ofRaw d with
    | some d =>
      if boundsDecOk l u d then
        let tmp : Itv := ⟨φ.convertRndd l, φ.convertRndu u⟩
        return ⟨tmp, d.min (if tmp.lo.isInf || tmp.hi.isInf then .dac else .com)⟩
      signal .undefinedOperation
    | none => pure ()
  return DItv.nai

/-- `convert_type(representation_type<T_>)`, `_class_impl.hpp:344-356`. -/
def convertType (x : Itv) : M Itv := do
  if !(← x.isValidM) then return Itv.empty
  return φ.convertHull x

/-- `convert_type(representation_dec_type<T_>)`, `_class_impl.hpp:359-373`. -/
def convertTypeD (x : DItv) : M DItv := do
  if !(← x.isValidM) then return DItv.nai
  return φ.convertHullD x

/-- `interval_part(representation_dec_type<T_>)` (mixed type), `_class_impl.hpp:396-413`. -/
def intervalPartMixed (x : DItv) : M Itv := do
  if !(← x.isValidM) then return Itv.empty
  if x.isNai then
    signal .intervalPartOfNai
    return Itv.empty
  return φ.convertHull x.itv

/-- `new_dec(representation_type<T_>)` (mixed type), `_class_impl.hpp:441-465`. -/
def newDecMixed (x : Itv) : M DItv := do
  if !(← x.isValidM) then return DItv.nai
  return (φ.convertHull x).newDec

end Fmt

/-- `copy(representation)`, `_class_impl.hpp:313-323`. -/
def copyM (x : Itv) : M Itv := do
  if !(← x.isValidM) then return Itv.empty
  return x

/-- `copy(representation_dec)`, `_class_impl.hpp:326-336`. -/
def copyDM (x : DItv) : M DItv := do
  if !(← x.isValidM) then return DItv.nai
  return x

/-- `interval_part(representation_dec)`, `_class_impl.hpp:377-393`. -/
def intervalPart (x : DItv) : M Itv := do
  if !(← x.isValidM) then return Itv.empty
  if x.isNai then
    signal .intervalPartOfNai
    return Itv.empty
  return x.itv

/-- `set_dec(representation, decoration)`, `_class_impl.hpp:468-489`. -/
def setDec (x : Itv) (d : UInt8) : M DItv := do
  if !(← decIsValidM d) then return DItv.nai
  if !(← x.isValidM) then return DItv.nai
  match Dec.ofRaw d with
  | some .ill => return DItv.nai
  | some d =>
    if x.isEmpty then return DItv.empty
    if d = .com && (x.lo.feq .ninf || x.hi.feq .pinf) then return ⟨x, .dac⟩
    return ⟨x, d⟩
  | none => return DItv.nai

/-- `set_dec(representation_type<T_>, decoration)` (mixed type), `_class_impl.hpp:492-500`. -/
def Fmt.setDecMixed (φ : Fmt) (x : Itv) (d : UInt8) : M DItv := do
  return φ.convertHullD (← setDec x d)

/-- `decoration_part`, `_class_impl.hpp:504-514`. -/
def decorationPart (x : DItv) : M Dec := do
  if !(← x.isValidM) then return .ill
  return x.dec

end P1788
