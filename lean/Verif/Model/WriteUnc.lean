import Verif.Model.Write

/-!
# Writing intervals in uncertain form, and decorated intervals: `mpfr_bin_ieee754_flavor_io_impl.hpp:54-332, 407-485`

`Std.outOfRange` stands for both exceptions of `std::stoi`, `std::stoll` and `std::string`: `std::out_of_range` and
`std::invalid_argument`.  Not modelled: precisions of `2^31` and more.
-/

namespace P1788

/-- Without the sign at the beginning. -/
def dropSign (l : List Char) : List Char := if l.head? = some '-' ∨ l.head? = some '+' then l.tail else l

/-- `std::stoi` and `std::stoll`: an optional sign and the longest sequence of digits that follows. -/
def stoNum (lo hi : ℤ) (l : List Char) : Std ℤ :=
  let d := (dropSign l).takeWhile isDigit
  let v : ℤ := if l.head? = some '-' then -(digitsVal .dec d : ℤ) else digitsVal .dec d
  if d = [] then .outOfRange
  else if lo ≤ v ∧ v ≤ hi then .ok v
  else .outOfRange

/-- `std::stoi`. `_io_impl.hpp:189, 194, 218, 265`. -/
def stoInt (l : List Char) : Std ℤ := stoNum (-2 ^ 31) (2 ^ 31 - 1) l

/-- `std::stoll`. `_io_impl.hpp:202, 225, 239, 241`. -/
def stoLong (l : List Char) : Std ℤ := stoNum (-2 ^ 63) (2 ^ 63 - 1) l

/-- Signed arithmetic with `n` bits: overflow is undefined behaviour. -/
def inBits (n : ℕ) (z : ℤ) : Std ℤ := if -2 ^ (n - 1) ≤ z ∧ z < 2 ^ (n - 1) then .ok z else .ub

/-- Not the beginning of an exponent. -/
def notE (c : Char) : Bool := c ≠ 'e' ∧ c ≠ 'E'

/-- The part before the exponent. -/
def mantPart (l : List Char) : List Char := l.takeWhile notE

/-- The exponent, with its letter; empty if there is none (then `p_l`, `p_u`, `p_m` are -1). -/
def expPart (l : List Char) : List Char := l.dropWhile notE

/-- The value of the exponent, 0 if there is none. -/
def expVal (l : List Char) : Std ℤ := if expPart l = [] then .ok 0 else stoInt ((expPart l).drop 1)

/-- `t.erase(t.size() - prec - 1, 1)` -/
def removeSep (prec : ℕ) (t : List Char) : Std (List Char) :=
  if prec + 1 ≤ t.length then .ok (t.eraseIdx (t.length - prec - 1)) else .outOfRange

/-- Digits are removed from or appended to `t` because its exponent is less or greater by `e`; the second
component is the correction of the ulps, `_io_impl.hpp:199-207, 222-230, 278-302`. -/
def shiftDigits (flag : Bool) (t : List Char) (e : ℤ) : Std (List Char × ℤ) :=
  if e < 0 then
    if (t.length : ℤ) + e < 0 then .outOfRange
    else do
      let v ← stoLong (t.drop (t.length + e).toNat)
      .ok (t.take (t.length + e).toNat, if v ≠ 0 ∧ flag then 1 else 0)
  else .ok (t ++ List.replicate e.toNat '0', 0)

/-- `std::to_string` -/
def intText (z : ℤ) : List Char := (if z < 0 then ['-'] else []) ++ natText 10 false 1 z.natAbs

/-- The precision in uncertain form, `_io_impl.hpp:63-69`. -/
def Manip.ucPrec (k : Manip) : ℕ := if k.prec = 0 then 6 else k.prec

/-- The number representation in uncertain form. -/
def Manip.ucRep (k : Manip) : NumRep := if k.ucExp then .sci else .dec

/-- `get_str` as called for the uncertain form. -/
def Fmt.ucStr (φ : Fmt) (slack : ℕ) (k : Manip) (up : Bool) (m : Rnd) (x : FP) : Std (List Char) :=
  φ.getStr slack m k.ucRep 0 k.ucPrec up x

/-- The text of a half-bounded interval and of the entire set: `w` is inserted before the exponent. -/
def insertMark (t w : List Char) : List Char := mantPart t ++ w ++ expPart t

/-- Symmetric form, `_io_impl.hpp:163-243`: the digits, the ulps and the exponent.  The exponent of the midpoint is
read from a part of the text that is as long as the digits (line 189: the size of `tmp_m` instead of that of `exp_str`). -/
def Fmt.ucSym (φ : Fmt) (slack : ℕ) (k : Manip) (up : Bool) (x : Itv) (l u : List Char) :
    Std (List Char × ℤ × List Char) := do
  let t ← φ.ucStr slack k up .N (x.mid φ)
  let m ← removeSep k.ucPrec (mantPart t)
  let em ← (if expPart t = [] then .ok 0 else stoInt (((expPart t).drop 1).take (m.length - 1)) : Std ℤ)
  let el ← (if expPart l = [] then .ok em else expVal l : Std ℤ)
  let dl ← inBits 32 (el - em)
  let l' ← removeSep k.ucPrec (mantPart l)
  let (l', ul) ← shiftDigits (x.lo.ltb (.fin 0)) l' dl
  let eu ← (if expPart u = [] then .ok em else expVal u : Std ℤ)
  let du ← inBits 32 (eu - em)
  let u' ← removeSep k.ucPrec (mantPart u)
  let (u', uu) ← shiftDigits (FP.ltb (.fin 0) x.hi) u' du
  let m' ← stoLong m
  let l' ← stoLong l'
  let l' ← inBits 64 (-l')
  let a ← inBits 64 (l' + m')
  let a ← inBits 64 (a + ul)
  let m'' ← inBits 64 (-m')
  let u' ← stoLong u'
  let b ← inBits 64 (m'' + u')
  let b ← inBits 64 (b + uu)
  .ok (mantPart t, max a b, expPart t)

/-- Downward and upward form, `_io_impl.hpp:244-306`. -/
def ucDir (k : Manip) (down : Bool) (x : Itv) (l u : List Char) : Std (List Char × ℤ × List Char) := do
  let el ← expVal l
  let eu ← expVal u
  let e ← inBits 32 (el - eu)
  let l' ← removeSep k.ucPrec (mantPart l)
  let u' ← removeSep k.ucPrec (mantPart u)
  let (l', ul) ← (if down then shiftDigits (x.lo.ltb (.fin 0)) l' e else .ok (l', 0) : Std (List Char × ℤ))
  let (u', uu) ← (if down then .ok (u', 0) else shiftDigits (FP.ltb (.fin 0) x.hi) u' (-e) : Std (List Char × ℤ))
  let l' ← stoLong l'
  let l' ← inBits 64 (-l')
  let u' ← stoLong u'
  let s ← inBits 64 (l' + u')
  let s ← inBits 64 (ul + uu + s)
  .ok (if down then (mantPart u, s, expPart u) else (mantPart l, s, expPart l))

/-- The text in uncertain form, `_io_impl.hpp:54-332`; `x` is not empty. -/
def Fmt.ucText (φ : Fmt) (slack : ℕ) (k : Manip) (up : Bool) (x : Itv) : Std (List Char) :=
  let d := if up then ['D'] else ['d']
  let u := if up then ['U'] else ['u']
  if x.isEntire then do
    let t ← φ.ucStr slack k up .N (x.mid φ)
    .ok (insertMark t ['?', '?'])
  else if x.lo.isInf then do
    let t ← φ.ucStr slack k up .U x.hi
    .ok (insertMark t (['?', '?'] ++ d))
  else if x.hi.isInf then do
    let t ← φ.ucStr slack k up .D x.lo
    .ok (insertMark t (['?', '?'] ++ u))
  else do
    let tl ← φ.ucStr slack k up .D x.lo
    let tu ← φ.ucStr slack k up .U x.hi
    let r ← (match k.form with
      | .up => ucDir k false x tl tu
      | .down => ucDir k true x tl tu
      | _ => φ.ucSym slack k up x tl tu : Std (List Char × ℤ × List Char))
    let f := match k.form with
      | .up => u
      | .down => d
      | _ => []
    .ok (r.1 ++ '?' :: (intText r.2.1 ++ f ++ r.2.2))

/-- `operator<<` ( bare interval ), `base_interval_io_impl.hpp:36-42`, `_io_impl.hpp:43-404`. -/
def Fmt.writeItv (φ : Fmt) (slack : ℕ) (k : Manip) (o : OStr) (x : Itv) : Std OStr :=
  if !x.isValid then .ok o
  else if k.form ≠ .infSup ∧ !x.isEmpty then do
    let t ← φ.ucText slack k o.upper x
    .ok (o.put (blanks (toInt (k.strWidth - t.length)) ++ t))
  else φ.writeInfSup slack k o x

/-- The values of the decorations, `decoration.hpp:56-63`. -/
def Dec.raw : Dec → UInt8
  | .ill => 0x00
  | .trv => 0x04
  | .defd => 0x08
  | .dac => 0x0C
  | .com => 0x10

/-- The text of the decoration with its separator: written onto a stream with the same format, `_io_impl.hpp:454-457`. -/
def Manip.decText (k : Manip) (o : OStr) (d : Dec) : List Char :=
  (Dec.write ({ o with text := [] }.put (if k.punct then ['_'] else [' '])) d.raw).text

/-- `operator<<` ( decorated interval ), `base_interval_io_impl.hpp:36-42`, `_io_impl.hpp:407-485`.  The width left for the bare interval is
a difference of two values of type `int` (`string_width_helper`, line 470): it overflows for a string width a little below `2^31` modulo
`2^32`. -/
def Fmt.writeDItv (φ : Fmt) (slack : ℕ) (k : Manip) (o : OStr) (x : DItv) : Std OStr :=
  if !x.isValid then .ok o
  else if x.isNai then .ok ((k.naiParts o.upper).write k.strWidth o)
  else if x.itv.isEmpty then φ.writeItv slack k o x.itv
  else
    let t := k.decText o x.dec
    do
      let w ← inBits 32 (toInt k.strWidth - toInt t.length)
      let o' ← φ.writeItv slack { k with strWidth := w } o x.itv
      .ok (o'.put t)

end P1788
