import Verif.Model.Text

/-!
# Streams with exceptions enabled

`std::basic_ios::exceptions(mask)`: an operation that sets a state bit throws `std::ios_base::failure` if afterwards a bit of the mask is
set.  Reading of decorations and intervals from such a stream, with the `try` blocks of `_io_impl.hpp:1064-1074, 1132-1169, 1351-1361`.
`Verif/Model/Stream.lean` and `Verif/Model/Text.lean` model the same functions for streams with an empty mask.

Simplified: the member functions of `std::basic_istream` throw where they call `setstate`, as in the standard; devices do not fail.
-/

namespace P1788

/-- `exceptions()`: the bits that throw. -/
structure Mask where
  eof : Bool := false
  fail : Bool := false
  bad : Bool := false
  deriving DecidableEq

/-- `rdstate() & exceptions()` is not zero. -/
def Mask.hits (m : Mask) (s : IStr) : Bool := (m.eof && s.eof) || (m.fail && s.fail) || (m.bad && s.bad)

/-- How an operation on a stream ends: whether it throws `std::ios_base::failure`, its value (as far as there is one), the stream. -/
structure XR (α : Type) where
  threw : Bool
  val : α
  str : IStr
  deriving DecidableEq

namespace XR
variable {α β : Type}

/-- Normal end. -/
def ret (a : α) (s : IStr) : XR α := ⟨false, a, s⟩

/-- `setstate`, after which the stream is `s`. -/
def set (m : Mask) (a : α) (s : IStr) : XR α := ⟨m.hits s, a, s⟩

/-- What follows is skipped if an exception is thrown; `b` is the value then. -/
def bind (x : XR α) (b : β) (f : α → IStr → XR β) : XR β := if x.threw then ⟨true, b, x.str⟩ else f x.val x.str

end XR

namespace IStr
variable (m : Mask)

/-- `peek()`. E.g. `io.hpp:42`. -/
def peekX (s : IStr) : XR (Option Char) :=
  if !s.good then .set m none s.setFail
  else match s.rest with
    | [] => .set m none { s with eof := true }
    | c :: _ => .ret (some c) s

/-- `get()`. E.g. `io.hpp:43`. -/
def getX (s : IStr) : XR Unit :=
  if !s.good then .set m () s.setFail
  else match s.rest with
    | [] => .set m () { s with eof := true, fail := true }
    | _ :: r => .ret () { s with rest := r }

/-- `read(buf, n)`. `decoration.hpp:217`. -/
def readX (s : IStr) (n : ℕ) : XR (List Char) :=
  if !s.good then .set m [] s.setFail
  else if n ≤ s.rest.length then .ret (s.rest.take n) { s with rest := s.rest.drop n }
  else .set m s.rest { s with rest := [], eof := true, fail := true }

/-- `is >> n` for an `unsigned int`.  The value is assigned before the exception is thrown.  `decoration.hpp:190`. -/
def readUIntX (s : IStr) : XR ℕ :=
  let r := s.readUInt
  if r.2.eof || r.2.fail then .set m r.1 r.2 else .ret r.1 r.2

end IStr

variable (m : Mask)

/-- `remove_ws`, `util/io.hpp:38-45`. -/
def removeWsLoopX : List Char → IStr → XR Unit
  | [], s => if s.ok then (s.peekX m).bind () fun _ s => .ret () s else .ret () s
  | _ :: l, s =>
    if s.ok then
      (s.peekX m).bind () fun c s =>
        match c with
        | some c => if isSpace c then (s.getX m).bind () fun _ s => removeWsLoopX l s else .ret () s
        | none => .ret () s
    else .ret () s

/-- `if (is.flags() & std::ios_base::skipws) remove_ws(is);`, `decoration.hpp:179-182`, `_io_impl.hpp:540-543`. -/
def skipWsX (s : IStr) : XR Unit := if s.skipws then removeWsLoopX m s.rest s else .ret () s

/-- `operator>>(istream, decoration&)`, `decoration.hpp:174-257`: the value of the argument afterwards. -/
def Dec.readX (s : IStr) (d : Dec) : XR Dec :=
  (skipWsX m s).bind d fun _ s =>
  if s.ok then
    (s.peekX m).bind d fun c s =>
    if c.any isDigit then
      (s.readUIntX m).bind d fun n s =>
      if s.ok then
        if n = 0x00 then .ret .ill s
        else if n = 0x04 then .ret .trv s
        else if n = 0x08 then .ret .defd s
        else if n = 0x0C then .ret .dac s
        else if n = 0x10 then .ret .com s
        else .set m d s.setFail
      else .set m d s.setFail
    else
      (s.readX m 3).bind d fun w s =>
      if s.ok then
        let w := asciiToLower w
        if w = ['i', 'l', 'l'] then .ret .ill s
        else if w = ['t', 'r', 'v'] then .ret .trv s
        else if w = ['d', 'e', 'f'] then .ret .defd s
        else if w = ['d', 'a', 'c'] then .ret .dac s
        else if w = ['c', 'o', 'm'] then .ret .com s
        else .set m d s.setFail
      else .set m d s.setFail
  else .set m d s.setFail

/-- `try { read_decoration = is && is.peek() == '_'; } catch (std::ios_base::failure& e) { if (!is.eof()) throw; }`,
`_io_impl.hpp:1064-1074, 1351-1361`. -/
def peekUnderscoreX (s : IStr) : XR Bool :=
  if s.ok then
    let r := s.peekX m
    if r.threw then ⟨!r.str.eof, false, r.str⟩ else .ret (decide (r.val = some '_')) r.str
  else .ret false s

/-- The decoration after a valid interval, `_io_impl.hpp:1063-1109, 1350-1396`: the value assigned to the argument, if any.
`is.clear(goodbit)` does not throw. -/
def finishDecX (bare : Itv) (dec : Dec) (s : IStr) : XR (Option DItv) :=
  (peekUnderscoreX m s).bind none fun us s =>
  if !us then
    .ret (some (if dec = .ill then DItv.nai else bare.newDec))
      (if s.eof then { s with eof := false, fail := false, bad := false } else s)
  else if s.ok && dec ≠ .ill then
    (s.getX m).bind none fun _ s =>
    (Dec.readX m s .ill).bind none fun d s =>
    if s.ok && d ≤ dec && d ≠ .ill then
      .ret (some (bare.setDecV (if bare.lo.isInf || bare.hi.isInf then d.min .dac else d))) s
    else .set m none s.setFail
  else .set m none s.setFail

/-- The loop `_io_impl.hpp:565-572`: everything up to `]`; the value is what has been read so far.  At the end of the text, `peek` sets the
eofbit and `get` the failbit. -/
def readBracketX : List Char → IStr → XR (List Char)
  | [], s => (s.peekX m).bind [] fun _ s => (s.getX m).bind [] fun _ s => .ret [] s
  | _ :: l, s =>
    (s.peekX m).bind [] fun c s =>
    match c with
    | some c =>
      (s.getX m).bind [] fun _ s =>
      if c = ']' then .ret [c] s
      else
        let r := readBracketX l s
        ⟨r.threw, c :: r.val, r.str⟩
    | none => (s.getX m).bind [] fun _ s => .ret [] s

/-- `if (is && is.peek() is one of cs) input += is.get();`, inside the `try` block. `_io_impl.hpp:1135-1158`. -/
def IStr.acceptX (cs : List (Char → Bool)) (s : IStr) : XR (List Char) :=
  if s.ok then go cs s else .ret [] s
where
  go : List (Char → Bool) → IStr → XR (List Char)
    | [], s => .ret [] s
    | p :: cs, s =>
      (s.peekX m).bind [] fun c s =>
      match c with
      | some c => if p c then (s.getX m).bind [] fun _ s => .ret [c] s else go cs s
      | none => go cs s

/-- `while (is && std::isdigit(is.peek())) input += is.get();`, inside the `try` block: the value is what has been read so far.
`_io_impl.hpp:1141-1142, 1159-1160`. -/
def readDigitsX : List Char → IStr → XR (List Char)
  | [], s => if s.ok then (s.peekX m).bind [] fun _ s => .ret [] s else .ret [] s
  | _ :: l, s =>
    if s.ok then
      (s.peekX m).bind [] fun c s =>
      match c with
      | some c =>
        if isDigit c then
          (s.getX m).bind [] fun _ s =>
          let r := readDigitsX l s
          ⟨r.threw, c :: r.val, r.str⟩
        else .ret [] s
      | none => .ret [] s
    else .ret [] s

/-- The loop "read number", outside of the `try` block. `_io_impl.hpp:1123-1130`. -/
def readNumberX : List Char → IStr → XR (List Char)
  | [], s => (s.peekX m).bind [] fun _ s => .ret [] s
  | _ :: l, s =>
    (s.peekX m).bind [] fun c s =>
    match c with
    | some c =>
      if s.ok && (isDigit c || c = '.' || c = '?' || c = '+' || c = '-') then
        (s.getX m).bind [] fun _ s =>
        if c = '?' then .ret [c] s
        else
          let r := readNumberX l s
          ⟨r.threw, c :: r.val, r.str⟩
      else .ret [] s
    | none => .ret [] s

/-- The next step of the `try` block: what it reads is appended to `a`, even if it throws. -/
def XR.add (x : XR (List Char)) (f : List Char → IStr → XR (List Char)) : XR (List Char) :=
  if x.threw then x else
    let r := f x.val x.str
    ⟨r.threw, x.val ++ r.val, r.str⟩

/-- The `try` block `_io_impl.hpp:1132-1162`: radius, direction and exponent; the value is what has been appended to `input`. -/
def tryBlockX (s : IStr) : XR (List Char) :=
  ((s.acceptX m [fun c => c = '?']).add fun b s => if b = [] then readDigitsX m s.rest s else .ret [] s).add fun _ s =>
  (s.acceptX m [fun c => c = 'd', fun c => c = 'D', fun c => c = 'u', fun c => c = 'U']).add fun _ s =>
  (s.acceptX m [fun c => c = 'e', fun c => c = 'E']).add fun e s =>
  if e = [] then .ret [] s
  else
    (if s.good then s.acceptX m [fun c => c = '-', fun c => c = '+'] else .ret [] s).add fun _ s =>
    if s.good then readDigitsX m s.rest s else .ret [] s

/-- Reading an uncertain literal, `_io_impl.hpp:1119-1169`: the string for the regular expression.  An exception in the `try` block is
passed on only if the end of the text has not been reached. -/
def readUncertainX (s : IStr) : XR (List Char) :=
  (readNumberX m s.rest s).bind [] fun a s =>
  let r := tryBlockX m s
  ⟨r.threw && !r.str.eof, a ++ r.val, r.str⟩

namespace Fmt
variable (φ : Fmt)

/-- `operator_text_to_interval(is, representation_dec&)`, `_io_impl.hpp:504-1409`: the value assigned to the argument (`none`:
it is left alone).  Simplified: the characters `+`, `-`, `.` and digits of line 1114 are looked for with one `peek`, as in `Fmt.readItv`; if the
first of the four sets the eofbit, the others set the failbit, which is set at line 1406 anyway. -/
def readItvX (s : IStr) : Std (XR (Option DItv)) :=
  let r := skipWsX m s
  if r.threw then .ok ⟨true, none, r.str⟩ else
  let s := r.str
  if s.ok then
    let r := s.peekX m
    if r.threw then .ok ⟨true, none, r.str⟩ else
    let c := r.val
    let s := r.str
    if c = some '[' then
      let r := readBracketX m s.rest s
      if r.threw then .ok ⟨true, none, r.str⟩ else
      let s := r.str
      if s.ok then
        match Rx.infSup.matchAll r.val with
        | some g => do
          let (bare, dec) ← φ.args g
          if textOk bare then return finishDecX m bare dec s
          return .set m none s.setFail
        | none => .ok (.set m none s.setFail)
      else .ok (.set m none s.setFail)
    else
      let r := if s.ok then s.peekX m else .ret none s
      if r.threw then .ok ⟨true, none, r.str⟩ else
      let s := r.str
      if r.val.any (fun c => c = '+' || c = '-' || c = '.' || isDigit c) then
        let r := readUncertainX m s
        if r.threw then .ok ⟨true, none, r.str⟩ else
        let s := r.str
        if s.ok || s.eof then
          match Rx.uncertain.matchAll r.val with
          | some g => do
            match ← φ.uncertainArg g with
            | some (bare, dec) =>
              if boundsOk bare.lo bare.hi then return finishDecX m bare dec s
              return .set m none s.setFail
            | none => return .set m none s.setFail
          | none => .ok (.set m none s.setFail)
        else .ok (.set m none s.setFail)
      else .ok (.set m none s.setFail)
  else .ok (.set m none s.setFail)

/-- `operator_text_to_interval(is, representation&)`, `_io_impl.hpp:488-502`. -/
def readBareX (s : IStr) : Std (XR (M (Option Itv))) := do
  let r ← φ.readItvX m s
  if r.threw then return ⟨true, (do return none), r.str⟩
  if r.str.ok then
    match r.val with
    | some x => return .ret (do return some (← intervalPart x)) r.str
    | none => .ub
  else return .ret (do return none) r.str

end Fmt
end P1788
