import Verif.Model.Calls
import Verif.Model.History
import Verif.Model.OutStream
import Verif.Model.Public

/-!
# Conformance of the model with the project's test suite

The other files of this directory are generated from `/repo/test`: each assertion whose operations are computable in the
model is evaluated by the kernel.  This is evidence that the code was read correctly, nothing more.

Translation: a decimal or hexadecimal literal is the number it denotes, rounded as the compiler or `std::stod` does;
`BOOST_CHECK_EQUAL` is the C++ comparison of pairs, in which `-0 == 0` and NaN differs from NaN.
-/

namespace P1788.Conform

/-- The number `m * 2 ^ e`. -/
def f (m e : Int) : FP := .fin (if 0 ≤ e then ((m * 2 ^ e.toNat : Int) : ℚ) else mkRat m (2 ^ (-e).toNat))

/-- `==` of `std::pair<T, T>`. -/
def eqB (x y : Itv) : Bool := x.lo.feq y.lo && x.hi.feq y.hi

/-- `==` of a pair and a decoration. -/
def eqD (x y : DItv) : Bool := eqB x.itv y.itv && decide (x.dec = y.dec)

/-- `==` of pairs of intervals. -/
def eqPB (x y : Itv × Itv) : Bool := eqB x.1 y.1 && eqB x.2 y.2

/-- `==` of pairs of decorated intervals. -/
def eqPD (x y : DItv × DItv) : Bool := eqD x.1 y.1 && eqD x.2 y.2

/-- `==` of pairs of numbers. -/
def eqNN (x y : FP × FP) : Bool := x.1.feq y.1 && x.2.feq y.2

/-- The underlying value of a decoration. -/
def raw (d : Dec) : UInt8 := match d with | .ill => 0 | .trv => 4 | .defd => 8 | .dac => 12 | .com => 16

/-- `std::signbit`. -/
def sgn : FP → Bool
  | .nzero | .ninf => true
  | .fin q => decide (q < 0)
  | _ => false

instance : Inhabited Itv := ⟨⟨.pinf, .ninf⟩⟩
instance : Inhabited DItv := ⟨⟨⟨.pinf, .ninf⟩, .ill⟩⟩
instance : Inhabited Dec := ⟨.ill⟩

/-- The value returned if no exception is enabled. -/
def ret {α} [Inhabited α] (m : M α) : α :=
  match (m ⟨fun _ => false, fun _ => false⟩).1 with
  | .ret a => a
  | _ => default

/-- The value returned, for calls that may also fail in the standard library. -/
def retS {α} [Inhabited α] (m : Std (M α)) : α :=
  match m with
  | .ok a => ret a
  | _ => default

/-- Run the commands, compare the text appended, go on with an empty text. The allocator is assumed to provide 1000 bytes more
than requested (with none the output of a number is undefined behaviour, `C47_false`). -/
def checkOut (s : Sink) : List (List OutCmd × String) → List Bool
  | [] => []
  | (cs, t) :: l =>
    match Sink.run binary64 1000 { s with text := [] } cs with
    | .ok s' => decide (s'.text = t.toList) :: checkOut s' l
    | _ => [false]

/-- Read a decorated interval: the variable, which was `x0` before, and the state of the stream. -/
def checkIn (t : String) (x0 : DItv) (p : DItv → Bool → Bool) : Bool :=
  match Fmt.readItv binary64 { rest := t.toList } with
  | .ok (o, s) => p (o.getD x0) s.ok
  | _ => false

/-- Read a bare interval. -/
def checkInB (t : String) (x0 : Itv) (p : Itv → Bool → Bool) : Bool :=
  match Fmt.readBare binary64 { rest := t.toList } with
  | .ok (o, s) => p ((ret o).getD x0) s.ok
  | _ => false

/-- A step of a test case: a call that must end normally, a call that must throw, a check of the flags. -/
inductive Ev where
  | call (m : M Unit)
  | throws (line : ℕ) (m : M Unit) (e : Ex)
  | state (line : ℕ) (l : List Ex)

/-- The pattern with these bits. -/
def bitsOf (l : List Ex) : Bits := fun e => decide (e ∈ l)

/-- Construction from a literal, result forgotten. -/
def runS {α} (m : Std (M α)) : M Unit :=
  match m with
  | .ok a => a.forget
  | _ => return ()

/-- The lines of the steps that fail (line 0: a call that must end normally threw). -/
def failed : List Ev → ExSt → List ℕ
  | [], _ => []
  | .call m :: l, s =>
    match m s with
    | (.ret _, s') => failed l s'
    | (.thrown _, s') => 0 :: failed l s'
  | .throws n m e :: l, s =>
    match m s with
    | (.ret _, s') => n :: failed l s'
    | (.thrown e', s') => if e = e' then failed l s' else n :: failed l s'
  | .state n b :: l, s =>
    (if [Ex.undefinedOperation, .possiblyUndefinedOperation, .intervalPartOfNai, .invalidOperand].all
      (fun e => s.flags e == bitsOf b e) then [] else [n]) ++ failed l s

end P1788.Conform
