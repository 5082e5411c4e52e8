import Verif.Model.Exception
import Mathlib.Data.Int.Bitwise

/-!
# The bit patterns `exception_bits` as integers

In `Exception.lean` the exception flags and the control word are sets of conditions.  Here they are what the code has:
values of the unscoped enumeration `exception_bits`, combined with the operators of `exception.hpp:54-93`.  The values of
the enumeration are 0 to 15 (the smallest bit-field that holds the enumerators); converting another integer to it is
unspecified in C++11 (5.2.9/10) and undefined from C++17 on: the outcome `none`.
-/

namespace P1788

/-- The enumerators. `exception.hpp:44-51`. -/
def Ex.bit : Ex → ℤ
  | .undefinedOperation => 1
  | .possiblyUndefinedOperation => 2
  | .intervalPartOfNai => 4
  | .invalidOperand => 8

/-- The conversion `exception_bits(i)` of an `int`. `exception.hpp:57, 63, 69, 75`. -/
def toExBits (i : ℤ) : Option ℤ := if 0 ≤ i ∧ i < 16 then some i else none

/-- `operator&`, `exception.hpp:55-58` (and `operator&=`, 79-82, which assigns the result). -/
def exAnd (x y : ℤ) : Option ℤ := toExBits (Int.land x y)

/-- `operator|`, `exception.hpp:61-64` (and `operator|=`, 85-88). -/
def exOr (x y : ℤ) : Option ℤ := toExBits (Int.lor x y)

/-- `operator^`, `exception.hpp:67-70` (and `operator^=`, 91-94). -/
def exXor (x y : ℤ) : Option ℤ := toExBits (Int.xor x y)

/-- `operator~`, `exception.hpp:73-76`. -/
def exNot (x : ℤ) : Option ℤ := toExBits (Int.lnot x)

/-- The two static variables, `exception.hpp:100-106, 183-189`. -/
structure ExStI where
  flags : ℤ
  cwd : ℤ

/-- What a program does with the exception state through the functions of `exception.hpp:114-294`. -/
inductive ExCall where
  /-- One of the four `signal_...` functions. -/
  | signal (e : Ex)
  | clear
  /-- `set_throw_exception_cwd`. -/
  | setCwd (b : ℤ)
  /-- `get_throw_exception_cwd`. -/
  | getCwd
  /-- One of the four queries. -/
  | query (e : Ex)

/-- What a call reports: an exception, a truth value, a bit pattern. -/
inductive ExRes where
  | thrown (e : Ex) | bool (b : Bool) | bits (b : ℤ)
  deriving DecidableEq

/-- The calls on the integers.  `signal`: `state() |= bit; if (cwd() & bit) throw ...; return state();`
(`exception.hpp:237-294`); `clear`: `state() = none_bit` (195-198); the queries: `return state() & bit;`, converted to
`bool` (203-232); control word 114-125. -/
def ExCall.runI (s : ExStI) : ExCall → Option (ExRes × ExStI)
  | .signal e => do
    let f ← exOr s.flags e.bit
    let s' : ExStI := { s with flags := f }
    let t ← exAnd s'.cwd e.bit
    if t ≠ 0 then return (.thrown e, s')
    return (.bits f, s')
  | .clear => some (.bits 0, { s with flags := 0 })
  | .setCwd b => some (.bits b, { s with cwd := b })
  | .getCwd => some (.bits s.cwd, s)
  | .query e => do
    let t ← exAnd s.flags e.bit
    return (.bool (decide (t ≠ 0)), s)

/-- The state at the start of the program, `exception.hpp:103, 186`. -/
def ExStI.init : ExStI := ⟨0, 0⟩

/-- A sequence of calls, with what they report. Not part of the library: a program that calls it. -/
def ExCall.runAllI (s : ExStI) : List ExCall → Option (List ExRes × ExStI)
  | [] => some ([], s)
  | c :: l => do
    let (r, s') ← c.runI s
    let (rs, s'') ← ExCall.runAllI s' l
    return (r :: rs, s'')

end P1788
