import Verif.Model.Stream
import Verif.Model.Regex

/-!
# Reading intervals from text

`operator_text_to_interval`, `p1788/flavor/infsup/setbased/mpfr_bin_ieee754_flavor_io_impl.hpp:488-1409`, and the
constructors from strings, `mpfr_bin_ieee754_flavor_class_impl.hpp:257-309`.

GMP integers and rationals are `ℤ` and `ℚ`.  Outcomes besides normal return: `std::stoi` throws `std::out_of_range`; signed
overflow of the `int` exponents is undefined behaviour.  Not modelled: strings of `2^29` or more characters (the `int` variable
`p` holds positions in the string), exhaustion of memory by huge powers or by the recursion of `std::regex`.  For streams with
exceptions enabled see `Verif/Model/StreamX.lean`.
-/

namespace P1788

/-- How a call ends: normally, by an exception of the standard library, or in undefined behaviour. -/
inductive Std (α : Type) where
  | ok (a : α)
  | outOfRange
  | ub

namespace Std
def bind {α β : Type} (m : Std α) (f : α → Std β) : Std β :=
  match m with
  | ok a => f a
  | outOfRange => outOfRange
  | ub => ub

instance : Monad Std where
  pure := Std.ok
  bind := Std.bind
end Std

/-! ## Regular expressions -/

namespace Rx

/-- `[+-]` -/
def isSign (c : Char) : Bool := c = '+' || c = '-'
/-- `[0-9a-f]`, ignoring the case -/
def isHexDigit (c : Char) : Bool := isDigitOf .hex c

/-- `(?:(?:d*\.d+)|(?:d+[\.])|(?:d+))` for a class `d` of digits. -/
def mantissa (d : Char → Bool) : Rx :=
  alt (seq (star d) (seq (lit '.') (plus d))) (alt (seq (plus d) (lit '.')) (plus d))

/-- `([+-]?[0-9]+)` without the group -/
def integer : Rx := seq (opt (chr isSign)) (plus isDigit)

/-- `(?:([+-]?(?:(?:[0-9]*\.[0-9]+)|(?:[0-9]+[\.])|(?:[0-9]+)))(?:e([+-]?[0-9]+))?)`, groups `n` and `n + 1`. -/
def float (n : ℕ) : Rx :=
  seq (grp n (seq (opt (chr isSign)) (mantissa isDigit))) (opt (seq (ci 'e') (grp (n + 1) integer)))

/-- `(?:([+-]?0x(?:(?:[0-9a-f]*\.[0-9a-f]+)|(?:[0-9a-f]+[\.])|(?:[0-9a-f]+)))(?:p([+-]?[0-9]+)))` -/
def hex (n : ℕ) : Rx :=
  seq (grp n (seq (opt (chr isSign)) (seq (lit '0') (seq (ci 'x') (mantissa isHexDigit)))))
    (seq (ci 'p') (grp (n + 1) integer))

/-- `(?:([+-]?[0-9]+)\s*/\s*([0]*[1-9][0-9]*))` -/
def rational (n : ℕ) : Rx :=
  seq (grp n integer) (seq (star isSpace) (seq (lit '/') (seq (star isSpace)
    (grp (n + 1) (seq (star fun c => c = '0') (seq (chr fun c => isDigit c && c ≠ '0') (star isDigit)))))))

/-- The argument of a text with one argument, `_io_impl.hpp:611-617`. -/
def arg : Rx :=
  alt eps (alt (float 2) (alt (hex 4) (alt (rational 6)
    (alt (grp 8 (str "empty".toList)) (alt (grp 9 (str "entire".toList)) (grp 10 (str "nai".toList)))))))

/-- The lower bound, `_io_impl.hpp:619-624`. -/
def lower : Rx :=
  alt eps (alt (float 12) (alt (hex 14) (alt (rational 16)
    (seq (lit '-') (grp 18 (alt (str "inf".toList) (str "infinity".toList)))))))

/-- The upper bound, `_io_impl.hpp:624-629`. -/
def upper : Rx :=
  alt eps (alt (float 21) (alt (hex 23) (alt (rational 25)
    (seq (opt (lit '+')) (grp 27 (alt (str "inf".toList) (str "infinity".toList)))))))

/-- `inf_sup_regex`, `_io_impl.hpp:610-631`. -/
def infSup : Rx :=
  alt
    (seq (lit '[') (seq (star isSpace) (seq (opt (grp 1 arg)) (seq (star isSpace) (lit ']')))))
    (seq (lit '[') (seq (star isSpace) (seq (opt (grp 11 lower)) (seq (star isSpace) (seq (grp 19 (lit ','))
      (seq (star isSpace) (seq (opt (grp 20 upper)) (seq (star isSpace) (lit ']')))))))))

/-- `uncertain_regex`, `_io_impl.hpp:1181-1188`. -/
def uncertain : Rx :=
  seq (grp 1 (seq (opt (chr isSign)) (mantissa isDigit))) (seq (lit '?')
    (seq (opt (alt (grp 2 (lit '?')) (grp 3 (plus isDigit))))
      (seq (opt (alt (grp 4 (ci 'u')) (grp 5 (ci 'd'))))
        (opt (seq (ci 'e') (grp 6 integer))))))

end Rx

/-! ## Numbers -/

/-- `INT_MAX`. The limits of `p`, `_io_impl.hpp:640-1180`. -/
def intMax : ℤ := 2147483647
/-- `INT_MIN`. The limits of `p`, `_io_impl.hpp:640-1180`. -/
def intMin' : ℤ := -2147483648

/-- `std::stoi` on a string of the form `[+-]?[0-9]+`. -/
def stoi (l : List Char) : Std ℤ :=
  let v : ℤ := match l with
    | '-' :: r => -(digitsVal .dec r : ℤ)
    | '+' :: r => digitsVal .dec r
    | r => digitsVal .dec r
  if intMin' ≤ v ∧ v ≤ intMax then .ok v else .outOfRange

/-- `p += e; ... std::abs(p)`: overflow is undefined behaviour. -/
def addInt (p e : ℤ) : Std ℤ := if intMin' < p + e ∧ p + e ≤ intMax then .ok (p + e) else .ub

/-- `if (e.length() > 0) p += std::stoi(e); ... std::abs(p)`. -/
def addExp (p : ℤ) (e : List Char) : Std ℤ := if 0 < e.length then do addInt p (← stoi e) else addInt p 0

/-- An unsigned number in GMP's syntax. -/
def gmpNat (b : Base) (l : List Char) : Option ℕ :=
  if l ≠ [] ∧ l.all (isDigitOf b) = true then some (digitsVal b l) else none

/-- `mpz_set_str(.., l, 10)`: an optional minus sign and digits; a plus sign is an error. `_io_impl.hpp:686, 845`. -/
def mpzSetStr (l : List Char) : Option ℤ :=
  match l with
  | '-' :: r => (gmpNat .dec r).map fun n => -(n : ℤ)
  | r => (gmpNat .dec r).map fun n => (n : ℤ)

/-- `mpz_set_str(.., l, 0)` on a string that begins with an optional sign and `0x` or `0X`.
`_io_impl.hpp:746, 894`. -/
def mpzSetStrX (l : List Char) : Option ℤ :=
  let nat (r : List Char) : Option ℕ := match r with
    | '0' :: 'x' :: r => gmpNat .hex r
    | '0' :: 'X' :: r => gmpNat .hex r
    | _ => none
  match l with
  | '-' :: r => (nat r).map fun n => -(n : ℤ)
  | r => (nat r).map fun n => (n : ℤ)

/-- "compute precision and remove point", `_io_impl.hpp:672-682`: the string without the point and minus the number of
digits after it. -/
def removePoint (l : List Char) : List Char × ℤ :=
  match l.findIdx? (fun c => c = '.') with
  | some i => (l.eraseIdx i, -((l.eraseIdx i).length - i : ℤ))
  | none => (l, 0)

/-- A decimal number with optional exponent, `_io_impl.hpp:667-724`, the same at `827-873`, `939-985`; `none`: the number is
not accepted by GMP. -/
def litFloat (n e : List Char) : Std (Option ℚ) :=
  match mpzSetStr (removePoint n).1 with
  | none => .ok none
  | some k => do
    let p ← addExp (removePoint n).2 e
    return some (k * 10 ^ p)

/-- A hexadecimal number, `_io_impl.hpp:725-782`, the same at `874-919`, `986-1031`. -/
def litHex (n e : List Char) : Std (Option ℚ) :=
  match mpzSetStrX (removePoint n).1 with
  | none => .ok none
  | some k => do
    let p := (removePoint n).2 * 4
    let p ← addInt p (← stoi e)
    return some (k * 2 ^ p)

/-- `mpq_set_str(.., n + "/" + d, 10)`, `_io_impl.hpp:783-805, 920-928, 1032-1040`. -/
def litRat (n d : List Char) : Option ℚ :=
  match mpzSetStr n, mpzSetStr d with
  | some a, some b => some (a / b)
  | _, _ => none

/-! ## Intervals -/

/-- The number in the groups `n` to `n + 5`, if there is one. -/
def litNum (m : Caps) (n : ℕ) : Std (Option ℚ) :=
  if 0 < (m.get n).length then litFloat (m.get n) (m.get (n + 1))
  else if 0 < (m.get (n + 2)).length then litHex (m.get (n + 2)) (m.get (n + 3))
  else if 0 < (m.get (n + 4)).length then .ok (litRat (m.get (n + 4)) (m.get (n + 5)))
  else .ok none

namespace Fmt
variable (φ : Fmt)

/-- The bounds with which `bare` is initialised, `_io_impl.hpp:638-641`: no interval. -/
def noItv : Itv := ⟨.fin 1, .fin (-1)⟩

/-- Text with one argument, `_io_impl.hpp:648-806`: the interval and its decoration. -/
def oneArg (m : Caps) : Std (Itv × Dec) :=
  if 0 < (m.get 8).length ∨ (m.get 1).length = 0 then .ok (.empty, .trv)
  else if 0 < (m.get 9).length then .ok (.entire, .dac)
  else if 0 < (m.get 10).length then .ok (.empty, .ill)
  else do
    match ← litNum m 2 with
    | some q =>
      let l := φ.round .D q
      let u := φ.round .U q
      return (if l ≤ u then ⟨l, u⟩ else noItv, .com)
    | none => return (noItv, .com)

/-- Text with two arguments, `_io_impl.hpp:808-1054`. -/
def twoArgs (m : Caps) : Std (Itv × Dec) := do
  let infL := decide (0 < (m.get 18).length ∨ (m.get 11).length = 0)
  let infU := decide (0 < (m.get 27).length ∨ (m.get 20).length = 0)
  let ql ← if infL then .ok none else litNum m 12
  let qu ← if infU then .ok none else litNum m 21
  let l := if infL then FP.ninf else match ql with | some q => φ.round .D q | none => .pinf
  let u := if infU then FP.pinf else match qu with | some q => φ.round .U q | none => .ninf
  let dec := if infL || infU then Dec.dac else .com
  return (if l ≤ u ∧ (infL = true ∨ infU = true ∨ ql.getD 0 ≤ qu.getD 0) then ⟨l, u⟩ else noItv, dec)

/-- `if (match[19].length() == 0) .. else ..`, `_io_impl.hpp:649, 808`. -/
def args (m : Caps) : Std (Itv × Dec) := if (m.get 19).length = 0 then φ.oneArg m else φ.twoArgs m

/-- Text with an uncertain number, `_io_impl.hpp:1193-1342`; `none`: the number is not accepted by GMP. -/
def uncertainArg (m : Caps) : Std (Option (Itv × Dec)) :=
  let mp := removePoint (m.get 1)
  let im := mpzSetStr mp.1
  let iu := if 0 < (m.get 3).length then mpzSetStr (m.get 3) else some 5
  let p := if 0 < (m.get 3).length then mp.2 else mp.2 - 1
  match im, iu with
  | some k, some r => do
    let k := if 0 < (m.get 3).length then k else k * 10
    let p ← addExp p (m.get 6)
    let e : ℚ := 10 ^ p
    if 0 < (m.get 2).length then
      if 0 < (m.get 4).length then return some (⟨φ.round .D (k * e), .pinf⟩, .dac)
      else if 0 < (m.get 5).length then return some (⟨.ninf, φ.round .U (k * e)⟩, .dac)
      else return some (⟨.ninf, .pinf⟩, .dac)
    else
      if 0 < (m.get 4).length then return some (⟨φ.round .D (k * e), φ.round .U ((k + r : ℤ) * e)⟩, .com)
      else if 0 < (m.get 5).length then return some (⟨φ.round .D ((k - r : ℤ) * e), φ.round .U (k * e)⟩, .com)
      else return some (⟨φ.round .D ((k - r : ℤ) * e), φ.round .U ((k + r : ℤ) * e)⟩, .com)
  | _, _ => return none

end Fmt

/-- `set_dec(bare, d)` for a valid interval and decoration (`setDec_eq`). -/
def Itv.setDecV (x : Itv) (d : Dec) : DItv :=
  if d = .ill then DItv.nai
  else if x.isEmpty then DItv.empty
  else if d = .com && (x.lo.feq .ninf || x.hi.feq .pinf) then ⟨x, .dac⟩
  else ⟨x, d⟩

/-- The decoration after a valid interval, `_io_impl.hpp:1063-1109, 1350-1396`: the value assigned to the argument, if any,
and the stream. -/
def finishDec (bare : Itv) (dec : Dec) (s : IStr) : Option DItv × IStr :=
  let (us, s) := if s.ok then (decide (s.peek.1 = some '_'), s.peek.2) else (false, s)
  if !us then
    (some (if dec = .ill then DItv.nai else bare.newDec),
      if s.eof then { s with eof := false, fail := false, bad := false } else s)
  else if s.ok && dec ≠ .ill then
    -- the variable `d` is not initialised; its value is used only if reading succeeds
    let (d, s) := Dec.read s.get .ill
    if s.ok && d ≤ dec && d ≠ .ill then
      (some (bare.setDecV (if bare.lo.isInf || bare.hi.isInf then d.min .dac else d)), s)
    else (none, s.setFail)
  else (none, s.setFail)

/-- The loop `_io_impl.hpp:565-572`: everything up to `]`.  The list makes the recursion structural. -/
def readBracket : List Char → IStr → List Char × IStr
  | [], s => ([], s.peek.2.get)
  | _ :: l, s =>
    match s.peek with
    | (some c, s') =>
      if c = ']' then ([c], s'.get)
      else
        let r := readBracket l s'.get
        (c :: r.1, r.2)
    | (none, s') => ([], s'.get)

/-- `if (is && is.peek() is one of cs) input += is.get();`. E.g. `_io_impl.hpp:556-570`. -/
def IStr.accept (cs : List (Char → Bool)) (s : IStr) : List Char × IStr :=
  if s.ok then
    let rec go : List (Char → Bool) → IStr → List Char × IStr
      | [], s => ([], s)
      | p :: cs, s =>
        match s.peek with
        | (some c, s') => if p c then ([c], s'.get) else go cs s'
        | (none, s') => go cs s'
    go cs s
  else ([], s)

/-- `while (is && std::isdigit(is.peek())) input += is.get();`. E.g. `_io_impl.hpp:1117-1124`. -/
def readDigits : List Char → IStr → List Char × IStr
  | [], s => if s.ok then ([], s.peek.2) else ([], s)
  | _ :: l, s =>
    if s.ok then
      match s.peek with
      | (some c, s') =>
        if isDigit c then
          let r := readDigits l s'.get
          (c :: r.1, r.2)
        else ([], s')
      | (none, s') => ([], s')
    else ([], s)

/-- The loop "read number", `_io_impl.hpp:1123-1130`. -/
def readNumber : List Char → IStr → List Char × IStr
  | [], s => ([], s.peek.2)
  | _ :: l, s =>
    match s.peek with
    | (some c, s') =>
      if s'.ok && (isDigit c || c = '.' || c = '?' || c = '+' || c = '-') then
        if c = '?' then ([c], s'.get)
        else
          let r := readNumber l s'.get
          (c :: r.1, r.2)
      else ([], s')
    | (none, s') => ([], s')

/-- Reading an uncertain literal, `_io_impl.hpp:1119-1169`: the string for the regular expression. -/
def readUncertain (s : IStr) : List Char × IStr :=
  let (a, s) := readNumber s.rest s
  let (b, s) := s.accept [fun c => c = '?']
  let (b, s) := if b = [] then readDigits s.rest s else (b, s)
  let (d, s) := s.accept [fun c => c = 'd', fun c => c = 'D', fun c => c = 'u', fun c => c = 'U']
  let (e, s) := s.accept [fun c => c = 'e', fun c => c = 'E']
  if e = [] then (a ++ b ++ d, s)
  else
    let (g, s) := if s.good then s.accept [fun c => c = '-', fun c => c = '+'] else ([], s)
    let (x, s) := if s.good then readDigits s.rest s else ([], s)
    (a ++ b ++ d ++ e ++ g ++ x, s)

/-- `char c; while (s.get(c)) if (!std::isspace(c)) ..`, `_class_impl.hpp:273-279, 300-306`: whether a character other than white
space is left.  `std::isspace` of a character outside of ASCII is undefined: `char` is signed. -/
def garbage (l : List Char) : Std Bool :=
  match l.dropWhile isSpace with
  | [] => .ok false
  | c :: _ => if c.toNat < 128 then .ok true else .ub

namespace Fmt
variable (φ : Fmt)

/-- The test `_io_impl.hpp:1056-1060`. -/
def textOk (x : Itv) : Bool := (x.lo.isNaN && x.hi.isNaN) || boundsOk x.lo x.hi

/-- `operator_text_to_interval(is, representation_dec&)`, `_io_impl.hpp:504-1409`: the value assigned to the argument (`none`:
it is left alone) and the stream. -/
def readItv (s : IStr) : Std (Option DItv × IStr) :=
  let s := if s.skipws then removeWs s else s
  if s.ok then
    let (c, s) := s.peek
    if c = some '[' then
      let (input, s) := readBracket s.rest s
      if s.ok then
        match Rx.infSup.matchAll input with
        | some m => do
          let (bare, dec) ← φ.args m
          if textOk bare then return finishDec bare dec s
          return (none, s.setFail)
        | none => .ok (none, s.setFail)
      else .ok (none, s.setFail)
    else
      let (b, s) := if s.ok then (s.peek.1.any (fun c => c = '+' || c = '-' || c = '.' || isDigit c), s.peek.2) else (false, s)
      if b then
        let (input, s) := readUncertain s
        if s.ok || s.eof then
          match Rx.uncertain.matchAll input with
          | some m => do
            match ← φ.uncertainArg m with
            | some (bare, dec) =>
              if boundsOk bare.lo bare.hi then return finishDec bare dec s
              return (none, s.setFail)
            | none => return (none, s.setFail)
          | none => .ok (none, s.setFail)
        else .ok (none, s.setFail)
      else .ok (none, s.setFail)
  else .ok (none, s.setFail)

/-- `text_to_decorated_interval`, `_class_impl.hpp:285-309`. -/
def textToDecorated (l : List Char) : Std (M DItv) := do
  let (x, s) ← φ.readItv { rest := l }
  if !s.ok then return (do signal .undefinedOperation; return DItv.nai)
  if ← garbage s.rest then return (do signal .undefinedOperation; return DItv.nai)
  match x with
  | some x => return (do return x)
  | none => .ub

/-- `operator_text_to_interval(is, representation&)`, `_io_impl.hpp:488-502`. -/
def readBare (s : IStr) : Std (M (Option Itv) × IStr) := do
  let (x, s) ← φ.readItv s
  if s.ok then
    match x with
    | some x => return (do return some (← intervalPart x), s)
    | none => .ub
  else return (do return none, s)

/-- `text_to_interval`, `_class_impl.hpp:258-282`.  Simplified: if `interval_part` throws for the text of NaI, the characters after it are
not looked at; the definition looks at them nevertheless. -/
def textToInterval (l : List Char) : Std (M Itv) := do
  let (x, s) ← φ.readBare { rest := l }
  let g ← if s.ok then garbage s.rest else .ok false
  return (do
    match ← x with
    | none => do signal .undefinedOperation; return Itv.empty
    | some x =>
      if g then do signal .undefinedOperation; return Itv.empty
      return x)

end Fmt
end P1788
