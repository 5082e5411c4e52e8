import Verif.Model.Exception

/-!
# Histories of library calls and the exception state

What a program can do to the exception state: call constructors and operations, change the control word, clear the
flags.  The results of the calls are forgotten here; operands are arbitrary, also invalid ones (a program can only
obtain these through the flavor functions directly).
-/

namespace P1788

/-- Validity checks of a list of operands, from left to right with the short circuit of `||`
(`if (!is_valid(x) || !is_valid(y) || ...) return ...`). -/
def checkAll : List Itv → M Bool
  | [] => return true
  | x :: l => do
    if !(← x.isValidM) then return false
    checkAll l

/-- The same for decorated operands. E.g. `_elem_func_impl.hpp:211`. -/
def checkAllD : List DItv → M Bool
  | [] => return true
  | x :: l => do
    if !(← x.isValidM) then return false
    checkAllD l

/-- The calls. The functions are `exception.hpp:114-294` and those of `_class_impl.hpp:104-500`. -/
inductive Cmd where
  | setMask (b : Bits)
  | clear
  | nums (l u : FP) | numsMixed (φ : Fmt) (l u : FP)
  | numsD (l u : FP) | numsMixedD (φ : Fmt) (l u : FP)
  | numsDec (l u : FP) (d : UInt8) | numsDecMixed (φ : Fmt) (l u : FP) (d : UInt8)
  | newDec (x : Itv) | newDecMixed (φ : Fmt) (x : Itv)
  | setDec (x : Itv) (d : UInt8) | setDecMixed (φ : Fmt) (x : Itv) (d : UInt8)
  | copy (x : Itv) | copyD (x : DItv) | convert (φ : Fmt) (x : Itv) | convertD (φ : Fmt) (x : DItv)
  | intervalPart (x : DItv) | intervalPartMixed (φ : Fmt) (x : DItv) | decorationPart (x : DItv)
  /-- Any function on bare intervals (elementary, set, Boolean, numeric or reverse function, bare or mixed type): it
  begins with the checks of its operands and signals nothing else (the functions it calls only see valid operands). -/
  | op (xs : List Itv)
  /-- Any function on decorated intervals. -/
  | opD (xs : List DItv)

/-- Forget the result. -/
def M.forget {α : Type} (m : M α) : M Unit := do
  let _ ← m
  return ()

/-- What a call does to the exception state. See `Exception.lean` for the lines. -/
def Cmd.run : Cmd → M Unit
  | .setMask b => P1788.setCwd b
  | .clear => clearFlags
  | .nums l u => (numsToInterval l u).forget
  | .numsMixed φ l u => (φ.numsToIntervalMixed l u).forget
  | .numsD l u => (numsToDecorated l u).forget
  | .numsMixedD φ l u => (φ.numsToDecoratedMixed l u).forget
  | .numsDec l u d => (numsDecToDecorated l u d).forget
  | .numsDecMixed φ l u d => (φ.numsDecToDecoratedMixed l u d).forget
  | .newDec x => (newDecM x).forget
  | .newDecMixed φ x => (φ.newDecMixed x).forget
  | .setDec x d => (P1788.setDec x d).forget
  | .setDecMixed φ x d => (φ.setDecMixed x d).forget
  | .copy x => (copyM x).forget
  | .copyD x => (copyDM x).forget
  | .convert φ x => (φ.convertType x).forget
  | .convertD φ x => (φ.convertTypeD x).forget
  | .intervalPart x => (P1788.intervalPart x).forget
  | .intervalPartMixed φ x => (φ.intervalPartMixed x).forget
  | .decorationPart x => (P1788.decorationPart x).forget
  | .op xs => (checkAll xs).forget
  | .opD xs => (checkAllD xs).forget

/-- The initial state: both static variables are `none_bit`, `exception.hpp:103, 186`. -/
def ExSt.init : ExSt := ⟨Bits.none, Bits.none⟩

/-- Running a history: a thrown exception ends the call that threw it; the program catches it and goes on.  The
result is the list of what each call threw (`none`: ended normally) and the final state. -/
def runAll : List Cmd → ExSt → List (Option Ex) × ExSt
  | [], s => ([], s)
  | c :: l, s =>
    let r := c.run s
    let o := match r.1 with | .ret _ => none | .thrown e => some e
    let r' := runAll l r.2
    (o :: r'.1, r'.2)

end P1788
