import Verif.Model.Stream
import Verif.Model.Num
import Verif.Model.Text

/-!
# Writing intervals: `mpfr_bin_ieee754_flavor_io_impl.hpp:43-485`, `mpfr_var::get_str`

`mpfr_sprintf` is modelled by its documentation: the conversions `f`, `e`, `g` and `a` of the ISO C standard, correctly rounded in
the given direction; the exponent of the conversion `a` is a multiple of 4.  `long` and `size_t` have 64 bits.
-/

namespace P1788

/-! ## Numbers as text -/

/-- The digit `d`. -/
def digitChar (up : Bool) (d : ℕ) : Char :=
  (if up then ['0', '1', '2', '3', '4', '5', '6', '7', '8', '9', 'A', 'B', 'C', 'D', 'E', 'F']
    else ['0', '1', '2', '3', '4', '5', '6', '7', '8', '9', 'a', 'b', 'c', 'd', 'e', 'f']).getD d '0'

/-- The last `k` digits of `n` in base `b`. -/
def lastDigits (b : ℕ) (up : Bool) : ℕ → ℕ → List Char
  | 0, _ => []
  | k + 1, n => lastDigits b up k (n / b) ++ [digitChar up (n % b)]

/-- `n` with at least `k` digits. `mpfr_sprintf`, `mpfr_var_impl.hpp:348`. -/
def natText (b : ℕ) (up : Bool) (k n : ℕ) : List Char := lastDigits b up (max k (Nat.log b n + 1)) n

/-- The rounding of the absolute value. `mpfr_sprintf`, `mpfr_var_impl.hpp:348`. -/
def Rnd.mag (m : Rnd) (neg : Bool) : Rnd :=
  if neg then (match m with | .D => .U | .U => .D | .N => .N) else m

/-- `mpfr_get_str`: `n` significant digits of `q ≥ 0` in base `b`: the integer of the digits, and the exponent of the first
digit. Inside `mpfr_sprintf`, `mpfr_var_impl.hpp:348`. -/
def sigDigits (b n : ℕ) (m : Rnd) (q : ℚ) : ℕ × ℤ :=
  if q = 0 then (0, 0)
  else
    let X := Int.log b q
    let M := (roundInt m (q / (b : ℚ) ^ (X - n + 1))).toNat
    if M = b ^ n then (b ^ (n - 1), X + 1) else (M, X)

/-- Digits before and after the point; `strip`: zeros at the end of the fraction are removed.  The point is written only if digits
follow it. `mpfr_sprintf`, `mpfr_var_impl.hpp:348`. -/
def pointText (strip : Bool) (ip fp : List Char) : List Char :=
  let fp := if strip then (fp.reverse.dropWhile (fun c => c = '0')).reverse else fp
  ip ++ (if fp = [] then [] else '.' :: fp)

/-- The conversion `f` with `k` digits after the point. `mpfr_sprintf`, `mpfr_var_impl.hpp:348`. -/
def fixedText (strip : Bool) (k : ℕ) (m : Rnd) (q : ℚ) : List Char :=
  let ds := natText 10 false (k + 1) (roundInt m (q * 10 ^ k)).toNat
  pointText strip (ds.take (ds.length - k)) (ds.drop (ds.length - k))

/-- An exponent with at least `k` digits. `mpfr_sprintf`, `mpfr_var_impl.hpp:348`. -/
def expText (c : Char) (k : ℕ) (e : ℤ) : List Char := c :: (if e < 0 then '-' else '+') :: natText 10 false k e.natAbs

/-- The conversion `e` with `k` digits after the point. `mpfr_sprintf`, `mpfr_var_impl.hpp:348`. -/
def sciText (strip up : Bool) (k : ℕ) (m : Rnd) (q : ℚ) : List Char :=
  let r := sigDigits 10 (k + 1) m q
  let ds := lastDigits 10 false (k + 1) r.1
  pointText strip (ds.take 1) (ds.drop 1) ++ expText (if up then 'E' else 'e') 2 r.2

/-- The conversion `g` with precision `t`, not zero. `mpfr_sprintf`, `mpfr_var_impl.hpp:348`. -/
def genText (up : Bool) (t : ℕ) (m : Rnd) (q : ℚ) : List Char :=
  let X := (sigDigits 10 t m q).2
  if X < t ∧ -4 ≤ X then fixedText true (t - 1 - X).toNat m q else sciText true up (t - 1) m q

/-- The conversion `a` with `k` digits after the point. `mpfr_sprintf`, `mpfr_var_impl.hpp:348`. -/
def hexText (strip up : Bool) (k : ℕ) (m : Rnd) (q : ℚ) : List Char :=
  let r := sigDigits 16 (k + 1) m q
  let ds := lastDigits 16 up (k + 1) r.1
  '0' :: (if up then 'X' else 'x') :: (pointText strip (ds.take 1) (ds.drop 1) ++ expText (if up then 'P' else 'p') 1 (4 * r.2))

/-- `number_representation_flags`, `io_manip.hpp:175-181`. -/
inductive NumRep where
  | decSci | dec | sci | hex
  deriving DecidableEq

/-- `std::string` of blanks; none if the number is negative. -/
def blanks (n : ℤ) : List Char := List.replicate n.toNat ' '

/-- The absolute value as text, `q ≥ 0`; precision 0 means the default: 6, or for hexadecimal numbers as many digits as
an exact representation needs. -/
def Fmt.magText (φ : Fmt) (r : NumRep) (up : Bool) (prec : ℕ) (m : Rnd) (q : ℚ) : List Char :=
  let p := if prec = 0 then 6 else prec
  match r with
  | .dec => fixedText false p m q
  | .sci => sciText false up p m q
  | .decSci => genText up p m q
  | .hex => if prec = 0 then hexText true up ((φ.p - 1 + 3) / 4) m q else hexText false up prec m q

/-- `mpfr_sprintf` without width: format strings of `mpfr_var_impl.hpp:235-244, 262-264, 281-283, 304-306`. -/
def Fmt.numText (φ : Fmt) (r : NumRep) (up : Bool) (prec : ℕ) (m : Rnd) : FP → List Char
  | .nan => if up then ['N', 'A', 'N'] else ['n', 'a', 'n']
  | .ninf => if up then ['-', 'I', 'N', 'F'] else ['-', 'i', 'n', 'f']
  | .pinf => if up then ['I', 'N', 'F'] else ['i', 'n', 'f']
  | .nzero => '-' :: φ.magText r up prec (m.mag true) 0
  | .fin q => if q < 0 then '-' :: φ.magText r up prec (m.mag true) (-q) else φ.magText r up prec m q

/-- `req_string_width`, `mpfr_var_impl.hpp:237-329`.  The sum of the terms is only the condition of the conditional
expression, `1 + … + precision > 0 ? precision : …`, which is true; hence only the precision is left.  For hexadecimal numbers
the number of decimal digits of a third of the greatest exponent is computed with logarithms rounded upward; the
definition is its least possible value, which is exact for `float`, `double` and the x87 format. -/
def Fmt.reqWidth (φ : Fmt) (r : NumRep) (width prec : ℕ) : ℕ :=
  let n := match r with
    | .hex => 5 + ((φ.p + 3) / 4) + 1 + 2 + (Nat.log 10 ((max (-(φ.qmin + 1)) φ.emax + 1).toNat / 3) + 1)
    | _ => prec
  if width > n then width else n

/-- `mpfr_var::get_str`, `mpfr_var_impl.hpp:226-350`: the behaviour is undefined if the text does not fit into the buffer, or is longer
than `INT_MAX` (the buffer is then not written).  `slack` is the number of further bytes that the allocator happens to provide: 0
is what the language guarantees. -/
def Fmt.getStr (φ : Fmt) (slack : ℕ) (m : Rnd) (r : NumRep) (width prec : ℕ) (up : Bool) (x : FP) : Std (List Char) :=
  let t := φ.numText r up prec m x
  let t := blanks (width - t.length) ++ t
  if φ.reqWidth r width prec + slack < t.length ∨ 2 ^ 31 ≤ t.length then .ub else .ok t

/-! ## Intervals -/

/-- `interval_special_representation_flags`, `io_manip.hpp:299-304` -/
inductive SpecialRep where
  | text | bounds | noBounds
  deriving DecidableEq

/-- `representation_flags`, `io_manip.hpp:110-116` -/
inductive Form where
  | infSup | uncertain | up | down
  deriving DecidableEq

/-- The `iword` entries for intervals; `width` and `precision` are of type `unsigned int`, `io_manip.hpp:80-429`. -/
structure Manip where
  strWidth : ℤ := 0
  form : Form := .infSup
  numRep : NumRep := .decSci
  width : ℕ := 0
  prec : ℕ := 0
  special : SpecialRep := .text
  punct : Bool := true
  ucExp : Bool := false

/-- Conversion to `int`. -/
def toInt (z : ℤ) : ℤ := Int.bmod z (2 ^ 32)

/-- The five parts of the text in inf-sup form, `_io_impl.hpp:337-341`. -/
structure Parts where
  p1 : List Char
  p2 : List Char
  p3 : List Char
  p4 : List Char
  p5 : List Char

/-- The names of special intervals, `_io_impl.hpp:355-365`. -/
def Manip.specialText (k : Manip) (up : Bool) (x : Itv) : List Char :=
  if k.special = .noBounds ∧ k.punct then (if x.isEmpty then [' '] else [','])
  else if up then (if x.isEmpty then ['E', 'M', 'P', 'T', 'Y'] else ['E', 'N', 'T', 'I', 'R', 'E'])
  else (if x.isEmpty then ['e', 'm', 'p', 't', 'y'] else ['e', 'n', 't', 'i', 'r', 'e'])

/-- `_io_impl.hpp:337-390`. -/
def Fmt.parts (φ : Fmt) (slack : ℕ) (k : Manip) (up : Bool) (x : Itv) : Std Parts :=
  let p1 := if k.punct then ['['] else []
  let p3 := if k.punct then [','] else [' ']
  let p5 := if k.punct then [']'] else []
  if (x.isEmpty || x.isEntire) && k.special ≠ .bounds then
    let p3 := k.specialText up x
    let n := p3.length
    let w2 := toInt (k.width - ((n - 1) / 2 : ℕ))
    let w4 := toInt (k.width - (n - 1 - (n - 1) / 2 : ℕ))
    .ok ⟨p1, blanks w2, p3, blanks w4, p5⟩
  else do
    let p2 ← φ.getStr slack .D k.numRep k.width k.prec up x.inf
    let p4 ← φ.getStr slack .U k.numRep k.width k.prec up x.sup
    .ok ⟨p1, p2, p3, p4, p5⟩

/-- `_io_impl.hpp:393-403`. -/
def Parts.write (p : Parts) (strWidth : ℤ) (o : OStr) : OStr :=
  let w := max 0 (toInt (strWidth - p.p1.length - p.p2.length - p.p3.length - p.p4.length - p.p5.length))
  (((((((o.put p.p1).put (blanks (w / 2))).put p.p2).put p.p3).put (blanks (w - w / 2))).put p.p4).put p.p5)

/-- `operator_interval_to_text(os, representation)`, `_io_impl.hpp:334-404`, inf-sup form. -/
def Fmt.writeInfSup (φ : Fmt) (slack : ℕ) (k : Manip) (o : OStr) (x : Itv) : Std OStr := do
  let p ← φ.parts slack k o.upper x
  .ok (p.write k.strWidth o)

/-- NaI, `_io_impl.hpp:418-443`. -/
def Manip.naiParts (k : Manip) (up : Bool) : Parts :=
  let n := 3
  let w2 := toInt (k.width - ((n - 1) / 2 : ℕ))
  let w3 := toInt (k.width - (n - 1 - (n - 1) / 2 : ℕ))
  ⟨(if k.punct then ['['] else []) ++ blanks w2, [], if up then ['N', 'A', 'I'] else ['n', 'a', 'i'], [],
    blanks w3 ++ (if k.punct then [']'] else [])⟩

end P1788
