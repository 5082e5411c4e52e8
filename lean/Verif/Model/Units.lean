import Verif.Model.OutStream

/-!
# Several translation units, and other users of the `iword` table

`io_manip.hpp` defines the indices of the settings as `int const ... = std::ios_base::xalloc();` at namespace scope in a header.  Such
variables have internal linkage: every translation unit that includes the header has its own eleven variables, and each of them
calls `xalloc` when that unit is initialised.  The manipulators and insertion operators are templates; which unit's variables a
call uses depends on where it is compiled (inlined) or on which instantiation the linker keeps.  Here each call names the unit whose
variables it uses.  Simplification: all functions called during one insertion use the variables of one unit.
-/

namespace P1788

/-- A call of `std::ios_base::xalloc` during the start of the program: for a variable of unit `t`
(`io_manip.hpp:38, 80, 108, 173, 238, 268, 297, 350, 392, 437, 484`), or by somebody else. -/
inductive XCall where
  | unit (t : ℕ) (k : Slot)
  | other
  deriving DecidableEq

/-- The index variable `k` of unit `t` after the calls `cs` of `xalloc` (each variable is initialised at most once), whose first result
is `b`: successive calls yield successive numbers.  A variable not yet initialised has the value 0 (zero initialisation).
`io_manip.hpp:38, 80, 108, 173, 238, 268, 297, 350, 392, 437, 484`. -/
def slotIndex (b : ℕ) (cs : List XCall) (t : ℕ) (k : Slot) : ℕ :=
  if XCall.unit t k ∈ cs then b + cs.idxOf (XCall.unit t k) else 0

/-- All slots, in the order of `io_manip.hpp:38, 80, 108, 173, 238, 268, 297, 350, 392, 437, 484`. -/
def Slot.all : List Slot := [.text, .strWidth, .form, .numRep, .width, .prec, .special, .punct, .ucExp, .dec, .overlap]

/-- An output stream with the whole `iword` table. -/
structure WStream where
  text : List Char := []
  table : ℕ → ℤ := fun _ => 0
  base : Base := .dec
  width : ℕ := 0
  fill : Char := ' '
  left : Bool := false

namespace WStream

/-- The stream as a function sees it that uses the index variables `ix`: `os.iword(..._manip_id)`, e.g. `_io_impl.hpp:57-69, 337-383`. -/
def view (s : WStream) (ix : Slot → ℕ) : Sink :=
  { text := s.text, iw := fun k => s.table (ix k), base := s.base, width := s.width, fill := s.fill, left := s.left }

/-- The stream after a function that used the index variables `ix` left `r`: entries it changed are written, e.g. `io_manip.hpp:59, 70`. -/
def store (s : WStream) (ix : Slot → ℕ) (r : Sink) : WStream :=
  { text := r.text, base := r.base, width := r.width, fill := r.fill, left := r.left
    table := fun j => match Slot.all.find? (fun k => ix k = j ∧ r.iw k ≠ s.table j) with
      | some k => r.iw k
      | none => s.table j }

end WStream

/-- What is done with the stream: a command of the library or of the standard library, executed by code that uses the variables of unit
`t`, or `os.iword(j) = v` by somebody else. -/
inductive WCmd where
  | unit (t : ℕ) (c : OutCmd)
  | other (j : ℕ) (v : ℤ)

/-- One command; `ix t` are the index variables of unit `t`. `io_manip.hpp:38-526`. -/
def WStream.exec (φ : Fmt) (slack : ℕ) (ix : ℕ → Slot → ℕ) (s : WStream) : WCmd → Std WStream
  | .unit t c => do
    let r ← (s.view (ix t)).exec φ slack c
    .ok (s.store (ix t) r)
  | .other j v => .ok { s with table := fun i => if i = j then v else s.table i }

/-- A sequence of commands. -/
def WStream.run (φ : Fmt) (slack : ℕ) (ix : ℕ → Slot → ℕ) : WStream → List WCmd → Std WStream
  | s, [] => .ok s
  | s, c :: cs => do
    let s' ← s.exec φ slack ix c
    s'.run φ slack ix cs

end P1788
