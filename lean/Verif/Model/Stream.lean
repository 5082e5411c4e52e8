import Verif.Model.Exception

/-!
# Streams; decorations as text

`std::basic_istream` / `std::basic_ostream` over `char` in the "C" locale, as far as the library uses them.  An input stream is
the sequence of characters still to be read with the three state bits.  `std::ios_base::iword` entries and format flags
that matter are fields.  Input streams with exceptions enabled are in `Verif/Model/StreamX.lean`.  Not modelled: `std::showbase`, base
detection (`std::setbase(0)`), exceptions enabled on output streams, other locales, failing devices.
-/

namespace P1788

/-- `basefield` -/
inductive Base where
  | dec | oct | hex
  deriving DecidableEq

def Base.toNat : Base → ℕ
  | .dec => 10 | .oct => 8 | .hex => 16

/-- An input stream. -/
structure IStr where
  rest : List Char
  eof : Bool := false
  fail : Bool := false
  bad : Bool := false
  skipws : Bool := true
  base : Base := .dec
  deriving DecidableEq

namespace IStr

/-- `good()` -/
def good (s : IStr) : Bool := !s.eof && !s.fail && !s.bad
/-- `explicit operator bool` -/
def ok (s : IStr) : Bool := !s.fail && !s.bad
/-- `setstate(failbit)`. `decoration.hpp:255`, `_io_impl.hpp:1406`. -/
def setFail (s : IStr) : IStr := { s with fail := true }

/-- `peek()`: on a stream that is not good it sets the failbit (the sentry fails); at the end it sets the eofbit.
E.g. `io.hpp:42`. -/
def peek (s : IStr) : Option Char × IStr :=
  if !s.good then (none, s.setFail)
  else match s.rest with
    | [] => (none, { s with eof := true })
    | c :: _ => (some c, s)

/-- `get()`, used only after a `peek` that found a character. E.g. `io.hpp:43`. -/
def get (s : IStr) : IStr :=
  if !s.good then s.setFail
  else match s.rest with
    | [] => { s with eof := true, fail := true }
    | _ :: r => { s with rest := r }

/-- `read(buf, n)` -/
def read (s : IStr) (n : ℕ) : List Char × IStr :=
  if !s.good then ([], s.setFail)
  else if n ≤ s.rest.length then (s.rest.take n, { s with rest := s.rest.drop n })
  else (s.rest, { s with rest := [], eof := true, fail := true })

end IStr

/-- `std::isspace`. E.g. `io.hpp:42`. -/
def isSpace (c : Char) : Bool := c = ' ' || c = '\t' || c = '\n' || c = '\x0b' || c = '\x0c' || c = '\r'
/-- `std::isdigit`. E.g. `decoration.hpp:188`. -/
def isDigit (c : Char) : Bool := '0' ≤ c && c ≤ '9'

/-- The value of a digit character, `none` if it is not a digit of the base. -/
def digitVal (b : Base) (c : Char) : Option ℕ :=
  let v := if '0' ≤ c ∧ c ≤ '9' then some (c.toNat - '0'.toNat)
    else if 'a' ≤ c ∧ c ≤ 'f' then some (c.toNat - 'a'.toNat + 10)
    else if 'A' ≤ c ∧ c ≤ 'F' then some (c.toNat - 'A'.toNat + 10) else none
  v.bind fun n => if n < b.toNat then some n else none

/-- `c` is a digit of the base. -/
def isDigitOf (b : Base) (c : Char) : Bool := (digitVal b c).isSome

/-- The number a string of digits denotes. -/
def digitsVal (b : Base) (l : List Char) : ℕ := l.foldl (fun n c => b.toNat * n + (digitVal b c).getD 0) 0

/-- `is >> n` for an `unsigned int`, called only if the next character is a digit: the longest sequence of digits of the
base (in base 16 after an optional `0x`); it fails if there is none or the number does not fit.
`decoration.hpp:188-195`. -/
def IStr.readUInt (s : IStr) : ℕ × IStr :=
  if !s.good then (0, s.setFail)
  else
    let r := match s.base, s.rest with
      | .hex, '0' :: 'x' :: r => r
      | .hex, '0' :: 'X' :: r => r
      | _, r => r
    let ds := r.takeWhile (isDigitOf s.base)
    let t := r.dropWhile (isDigitOf s.base)
    let n := digitsVal s.base ds
    let s' := { s with rest := t, eof := t.isEmpty }
    if ds.isEmpty then (0, s'.setFail)
    else if 2 ^ 32 ≤ n then (2 ^ 32 - 1, s'.setFail)
    else (n, s')

/-- `remove_ws`, `util/io.hpp:38-45`.  The list is the characters left; it makes the recursion structural. -/
def removeWsLoop : List Char → IStr → IStr
  | [], s => if s.ok then s.peek.2 else s
  | _ :: l, s =>
    if s.ok then
      match s.peek with
      | (some c, s') => if isSpace c then removeWsLoop l s'.get else s'
      | (none, s') => s'
    else s

/-- `remove_ws`, `util/io.hpp:38-45`. -/
def removeWs (s : IStr) : IStr := removeWsLoop s.rest s

/-- `std::tolower` on ASCII characters, other characters are left alone: `ascii_to_lower`, `util/io.hpp:48-57`. -/
def asciiToLower (l : List Char) : List Char := l.map fun c => if 'A' ≤ c ∧ c ≤ 'Z' then Char.ofNat (c.toNat + 32) else c

/-- `operator>>(istream, decoration&)`, `decoration.hpp:174-257`: the new value of the argument and the stream. -/
def Dec.read (s : IStr) (d : Dec) : Dec × IStr :=
  let s := if s.skipws then removeWs s else s
  if s.ok then
    let (c, s) := s.peek
    if c.any isDigit then
      let (n, s) := s.readUInt
      if s.ok then
        if n = 0x00 then (.ill, s)
        else if n = 0x04 then (.trv, s)
        else if n = 0x08 then (.defd, s)
        else if n = 0x0C then (.dac, s)
        else if n = 0x10 then (.com, s)
        else (d, s.setFail)
      else (d, s.setFail)
    else
      let (w, s) := s.read 3
      if s.ok then
        let w := asciiToLower w
        if w = ['i', 'l', 'l'] then (.ill, s)
        else if w = ['t', 'r', 'v'] then (.trv, s)
        else if w = ['d', 'e', 'f'] then (.defd, s)
        else if w = ['d', 'a', 'c'] then (.dac, s)
        else if w = ['c', 'o', 'm'] then (.com, s)
        else (d, s.setFail)
      else (d, s.setFail)
  else (d, s.setFail)

/-- An output stream: the characters written, and the settings: `dec_manip_id` and `text_representation_manip_id`
(`io_manip.hpp:38-70, 437-471`), `basefield`, `width()`, `fill()` and whether `adjustfield` is `left`. -/
structure OStr where
  text : List Char := []
  numeric : Bool := false
  upper : Bool := false
  base : Base := .dec
  width : ℕ := 0
  fill : Char := ' '
  left : Bool := false

/-- Formatted output of a string: padded to the width, which is then reset. -/
def OStr.put (o : OStr) (w : List Char) : OStr :=
  let pad := List.replicate (o.width - w.length) o.fill
  { o with text := o.text ++ (if o.left then w ++ pad else pad ++ w), width := 0 }

/-- `operator<<(ostream, decoration)`, `decoration.hpp:103-161`, for an arbitrary value of the underlying type. -/
def Dec.write (o : OStr) (d : UInt8) : OStr :=
  if o.numeric then o.put (Nat.toDigits o.base.toNat d.toNat)
  else if d = 0x00 then o.put (if o.upper then ['I', 'L', 'L'] else ['i', 'l', 'l'])
  else if d = 0x04 then o.put (if o.upper then ['T', 'R', 'V'] else ['t', 'r', 'v'])
  else if d = 0x08 then o.put (if o.upper then ['D', 'E', 'F'] else ['d', 'e', 'f'])
  else if d = 0x0C then o.put (if o.upper then ['D', 'A', 'C'] else ['d', 'a', 'c'])
  else if d = 0x10 then o.put (if o.upper then ['C', 'O', 'M'] else ['c', 'o', 'm'])
  else o

end P1788
