import Verif.Model.WriteUnc
import Verif.Model.Bool

/-!
# Output streams: the manipulators of `io_manip.hpp`, output of overlap states, sequences of insertions

The settings are kept in the `iword` table of the stream.  Its entries are 0 in a new stream (`std::ios_base::iword`).
-/

namespace P1788

/-! ## Overlap states -/

/-- The values of `overlapping_state`, `overlapping.hpp:45-64`. -/
def Overlap.code : Overlap → ℕ
  | .undefined => 0
  | .bothEmpty => 2 ^ 0
  | .firstEmpty => 2 ^ 1
  | .secondEmpty => 2 ^ 2
  | .before => 2 ^ 3
  | .meets => 2 ^ 4
  | .overlaps => 2 ^ 5
  | .starts => 2 ^ 6
  | .containedBy => 2 ^ 7
  | .finishes => 2 ^ 8
  | .equal => 2 ^ 9
  | .finishedBy => 2 ^ 10
  | .contains => 2 ^ 11
  | .startedBy => 2 ^ 12
  | .overlappedBy => 2 ^ 13
  | .metBy => 2 ^ 14
  | .after => 2 ^ 15

/-- The names of the states, `overlapping.hpp:89-228`. -/
def Overlap.word (up : Bool) : Overlap → List Char
  | .bothEmpty => (if up then "BOTH_EMPTY" else "both_empty").toList
  | .firstEmpty => (if up then "FIRST_EMPTY" else "first_empty").toList
  | .secondEmpty => (if up then "SECOND_EMPTY" else "second_empty").toList
  | .before => (if up then "BEFORE" else "before").toList
  | .meets => (if up then "MEETS" else "meets").toList
  | .overlaps => (if up then "OVERLAPS" else "overlaps").toList
  | .starts => (if up then "STARTS" else "starts").toList
  | .containedBy => (if up then "CONTAINED_BY" else "contained_by").toList
  | .finishes => (if up then "FINISHES" else "finishes").toList
  | .equal => (if up then "EQUAL" else "equal").toList
  | .finishedBy => (if up then "FINISHED_BY" else "finished_by").toList
  | .contains => (if up then "CONTAINS" else "contains").toList
  | .startedBy => (if up then "STARTED_BY" else "started_by").toList
  | .overlappedBy => (if up then "OVERLAPPED_BY" else "overlapped_by").toList
  | .metBy => (if up then "MET_BY" else "met_by").toList
  | .after => (if up then "AFTER" else "after").toList
  | .undefined => (if up then "UNDEFINED" else "undefined").toList

/-- `operator<<(ostream, overlapping_state)`, `overlapping.hpp:79-232`. -/
def Overlap.write (o : OStr) (numeric : Bool) (s : Overlap) : OStr :=
  if numeric then o.put (Nat.toDigits o.base.toNat s.code) else o.put (s.word o.upper)

/-! ## Streams -/

/-- The entries of the `iword` table that the library allocates, `io_manip.hpp:38, 80, 108, 173, 238, 268, 297, 350, 392, 437, 484`.
`xalloc` yields a new index in every call. -/
inductive Slot where
  | text | strWidth | form | numRep | width | prec | special | punct | ucExp | dec | overlap
  deriving DecidableEq

/-- An output stream: the text, the `iword` table and the settings of the standard library that matter. -/
structure Sink where
  text : List Char := []
  iw : Slot → ℤ := fun _ => 0
  base : Base := .dec
  width : ℕ := 0
  fill : Char := ' '
  left : Bool := false

namespace Sink

/-- `os.iword(i) = v`. E.g. `io_manip.hpp:100-480`. -/
def set (s : Sink) (i : Slot) (v : ℤ) : Sink := { s with iw := fun j => if j = i then v else s.iw j }

/-- What the table says for decorations and about upper and lower case, `decoration.hpp:103-161`. -/
def ostr (s : Sink) : OStr :=
  { text := s.text, numeric := decide (s.iw .dec = 1), upper := decide (s.iw .text = 1), base := s.base, width := s.width, fill := s.fill,
    left := s.left }

/-- What the table says for intervals, `_io_impl.hpp:57-69, 337-383`. -/
def manip (s : Sink) : Manip :=
  { strWidth := s.iw .strWidth
    form := if s.iw .form = 1 then .uncertain else if s.iw .form = 2 then .up else if s.iw .form = 3 then .down else .infSup
    numRep := if s.iw .numRep = 1 then .dec else if s.iw .numRep = 2 then .sci else if s.iw .numRep = 3 then .hex else .decSci
    width := (s.iw .width).toNat
    prec := (s.iw .prec).toNat
    special := if s.iw .special = 1 then .bounds else if s.iw .special = 2 then .noBounds else .text
    punct := decide (s.iw .punct ≠ 1)
    ucExp := decide (s.iw .ucExp = 1) }

/-- The stream after the text and the width have been changed by an insertion. -/
def after (s : Sink) (o : OStr) : Sink := { s with text := o.text, width := o.width }

end Sink

/-- What a program does with a stream: the manipulators of the library, those of the standard library, insertions.
`io_manip.hpp:100-526`. -/
inductive OutCmd where
  /-- `lower_case`, `upper_case`, `io_manip.hpp:56-72` -/
  | case (up : Bool)
  /-- `string_width(n)`, `io_manip.hpp:89-101` -/
  | stringWidth (n : UInt32)
  /-- `inf_sup_form`, `uncertain_form`, `uncertain_up_form`, `uncertain_down_form`, `io_manip.hpp:118-169` -/
  | form (f : Form)
  /-- `decimal_scientific`, `decimal`, `scientific`, `hex`, `io_manip.hpp:183-234` -/
  | numRep (r : NumRep)
  /-- `width(n)`, `io_manip.hpp:249-261` -/
  | width (n : UInt32)
  /-- `precision(n)`, `io_manip.hpp:279-291` -/
  | prec (n : UInt32)
  /-- `special_text`, `special_bounds`, `special_no_bounds`, `io_manip.hpp:306-346` -/
  | special (r : SpecialRep)
  /-- `punctuation`, `no_punctuation`, `io_manip.hpp:358-387` -/
  | punct (b : Bool)
  /-- `uncertain_exponent`, `no_uncertain_exponent`, `io_manip.hpp:400-429` -/
  | ucExp (b : Bool)
  /-- `dec_alpha`, `dec_numeric`, `io_manip.hpp:446-476` -/
  | dec (numeric : Bool)
  /-- `overlapping_alpha`, `overlapping_numeric`, `io_manip.hpp:493-523` -/
  | overlap (numeric : Bool)
  /-- `std::dec`, `std::oct`, `std::hex` -/
  | base (b : Base)
  /-- `std::setw(n)` -/
  | setw (n : ℕ)
  /-- `std::setfill(c)` -/
  | fill (c : Char)
  /-- `std::left`, `std::right` -/
  | left (b : Bool)
  /-- `os << x` for an interval -/
  | putItv (x : Itv)
  /-- `os << x` for a decorated interval -/
  | putDItv (x : DItv)
  /-- `os << d` for a decoration -/
  | putDec (d : UInt8)
  /-- `os << s` for an overlap state -/
  | putOverlap (s : Overlap)
  /-- `os << w` for a string -/
  | putText (w : List Char)

/-- The flag of a form, `representation_flags`, `io_manip.hpp:110-116`. -/
def Form.flag : Form → ℤ
  | .infSup => 0
  | .uncertain => 1
  | .up => 2
  | .down => 3

/-- `number_representation_flags`, `io_manip.hpp:175-181` -/
def NumRep.flag : NumRep → ℤ
  | .decSci => 0
  | .dec => 1
  | .sci => 2
  | .hex => 3

/-- `interval_special_representation_flags`, `io_manip.hpp:299-304` -/
def SpecialRep.flag : SpecialRep → ℤ
  | .text => 0
  | .bounds => 1
  | .noBounds => 2

/-- `operator<<` for a decorated interval sets the string width to a smaller value for the bare interval and then back again, to
the old value converted to `int`: `string_width_helper`, `_io_impl.hpp:460-478`. -/
def Sink.putDItv (φ : Fmt) (slack : ℕ) (s : Sink) (x : DItv) : Std Sink := do
  let o ← φ.writeDItv slack s.manip s.ostr x
  let s' := s.after o
  if x.isValid && !x.isNai && !x.itv.isEmpty then .ok (s'.set .strWidth (toInt (s.iw .strWidth))) else .ok s'

/-- One command.  `slack` is explained at `Fmt.getStr`. `io_manip.hpp:100-526`. -/
def Sink.exec (φ : Fmt) (slack : ℕ) (s : Sink) : OutCmd → Std Sink
  | .case up => .ok (s.set .text (if up then 1 else 0))
  | .stringWidth n => .ok (s.set .strWidth n.toNat)
  | .form f => .ok (s.set .form f.flag)
  | .numRep r => .ok (s.set .numRep r.flag)
  | .width n => .ok (s.set .width n.toNat)
  | .prec n => .ok (s.set .prec n.toNat)
  | .special r => .ok (s.set .special r.flag)
  | .punct b => .ok (s.set .punct (if b then 0 else 1))
  | .ucExp b => .ok (s.set .ucExp (if b then 1 else 0))
  | .dec b => .ok (s.set .dec (if b then 1 else 0))
  | .overlap b => .ok (s.set .overlap (if b then 1 else 0))
  | .base b => .ok { s with base := b }
  | .setw n => .ok { s with width := n }
  | .fill c => .ok { s with fill := c }
  | .left b => .ok { s with left := b }
  | .putItv x => do
    let o ← φ.writeItv slack s.manip s.ostr x
    .ok (s.after o)
  | .putDItv x => s.putDItv φ slack x
  | .putDec d => .ok (s.after (Dec.write s.ostr d))
  | .putOverlap v => .ok (s.after (v.write s.ostr (decide (s.iw .overlap = 1))))
  | .putText w => .ok (s.after (s.ostr.put w))

/-- A sequence of commands. -/
def Sink.run (φ : Fmt) (slack : ℕ) : Sink → List OutCmd → Std Sink
  | s, [] => .ok s
  | s, c :: cs => do
    let s' ← s.exec φ slack c
    s'.run φ slack cs

end P1788
