import Verif.Spec
import Mathlib.Data.Nat.Digits.Defs

/-!
# Specification of interval literals

The texts that denote intervals (IEEE 1788-2015, clauses 9.7 and 13.4, with the abbreviations the library documents), and
what they denote.  Nothing of the model of the parser is used.
-/

namespace P1788

/-- The number a digit stands for, in either case. -/
def digitNum (c : Char) : Option ℕ := ['0', '1', '2', '3', '4', '5', '6', '7', '8', '9', 'a', 'b', 'c', 'd', 'e', 'f'].idxOf? c.toLower

/-- All characters are digits of the base `b`. -/
def IsDigits (b : ℕ) (w : List Char) : Prop := ∀ c ∈ w, ∃ k < b, digitNum c = some k

/-- The number that a text of digits stands for. -/
def numVal (b : ℕ) (w : List Char) : ℕ := Nat.ofDigits b (w.reverse.map fun c => (digitNum c).getD 0)

/-- White space. -/
def IsWs (w : List Char) : Prop := ∀ c ∈ w, c ∈ [' ', '\t', '\n', '\x0b', '\x0c', '\r']

/-- An optional sign. -/
def SignText (w : List Char) (s : ℤ) : Prop := (w = [] ∨ w = ['+']) ∧ s = 1 ∨ w = ['-'] ∧ s = -1

/-- An integer. -/
def IntText (w : List Char) (e : ℤ) : Prop :=
  ∃ s sg ds, w = s ++ ds ∧ SignText s sg ∧ ds ≠ [] ∧ IsDigits 10 ds ∧ e = sg * numVal 10 ds

/-- Digits with an optional point: all digits together are the number `v`, and `k` of them come after the point. -/
def MantText (b : ℕ) (w : List Char) (v k : ℕ) : Prop :=
  ∃ ip fp, (w = ip ∧ fp = [] ∨ w = ip ++ '.' :: fp) ∧ ip ++ fp ≠ [] ∧ IsDigits b (ip ++ fp) ∧ v = numVal b (ip ++ fp) ∧
    k = fp.length

/-- An optional exponent. -/
def ExpText (w : List Char) (e : ℤ) : Prop := w = [] ∧ e = 0 ∨ ∃ c y, c.toLower = 'e' ∧ w = c :: y ∧ IntText y e

/-- What matters for the limitations of the library: whether the number has a plus sign, its exponent, and the
power of 10 or 2 with which the integer of all its digits is multiplied. -/
structure NumInfo where
  plus : Bool
  exp : ℤ
  scale : ℤ

/-- The text `w` denotes the number `q`. -/
inductive NumText : List Char → ℚ → NumInfo → Prop
  /-- decimal, with optional exponent: `-1.25e3` -/
  | dec {s m x : List Char} {sg : ℤ} {v k : ℕ} {e : ℤ} (hs : SignText s sg) (hm : MantText 10 m v k) (hx : ExpText x e) :
    NumText (s ++ m ++ x) (sg * v * 10 ^ (e - k)) ⟨decide (s = ['+']), e, e - k⟩
  /-- hexadecimal, the exponent is that of 2: `0x1.8p-3` -/
  | hex {s m y : List Char} {c d : Char} {sg : ℤ} {v k : ℕ} {e : ℤ} (hs : SignText s sg) (hc : c.toLower = 'x')
      (hm : MantText 16 m v k) (hd : d.toLower = 'p') (hy : IntText y e) :
    NumText (s ++ '0' :: c :: m ++ d :: y) (sg * v * 2 ^ (e - 4 * k)) ⟨decide (s = ['+']), e, e - 4 * k⟩
  /-- a fraction: `2/3` -/
  | rat {s n w1 w2 d : List Char} {sg : ℤ} (hs : SignText s sg) (hn : n ≠ []) (hn' : IsDigits 10 n) (h1 : IsWs w1)
      (h2 : IsWs w2) (hd : IsDigits 10 d) (hd' : numVal 10 d ≠ 0) :
    NumText (s ++ n ++ w1 ++ '/' :: (w2 ++ d)) (sg * numVal 10 n / numVal 10 d) ⟨decide (s = ['+']), 0, 0⟩

/-- What a literal denotes: Not-an-Interval, the empty set, or the real numbers between two bounds, of which any may be
missing. -/
inductive Denot where
  | nai
  | empty
  | bounds (l u : Option ℚ)

/-- The set of real numbers. -/
def Denot.set : Denot → Set ℝ
  | .nai => ∅
  | .empty => ∅
  | .bounds l u => {r | (∀ q, l = some q → (q : ℝ) ≤ r) ∧ ∀ q, u = some q → r ≤ (q : ℝ)}

/-- The strongest decoration: `com` for bounded sets, `dac` for unbounded ones, `trv` for the empty set. -/
def Denot.dec : Denot → Dec
  | .nai => .ill
  | .empty => .trv
  | .bounds (some _) (some _) => .com
  | .bounds _ _ => .dac

/-- A bound: a number, or missing (with the name `inf`, infinite: `sgn` is the sign before it). -/
inductive BoundText (sgn : List (List Char)) : List Char → Option ℚ → List NumInfo → Prop
  | none : BoundText sgn [] none []
  | inf {s w : List Char} (hs : s ∈ sgn) (hw : w.map Char.toLower = "inf".toList ∨ w.map Char.toLower = "infinity".toList) :
    BoundText sgn (s ++ w) none []
  | num {w : List Char} {q : ℚ} {N : NumInfo} (h : NumText w q N) : BoundText sgn w (some q) [N]

/-- The directions of an uncertain number: both, upward, downward. -/
inductive DirText : List Char → Bool → Bool → Prop
  | both : DirText [] true true
  | up {c : Char} (h : c.toLower = 'u') : DirText [c] false true
  | down {c : Char} (h : c.toLower = 'd') : DirText [c] true false

/-- The radius of an uncertain number, in units of the last place of the number: a half if it is missing, infinite for
`?`.  The last argument: whether it is given by digits. -/
inductive RadText : List Char → Option ℚ → Bool → Prop
  | half : RadText [] (some (1 / 2)) false
  | inf : RadText ['?'] none false
  | num {w : List Char} (h : w ≠ []) (hw : IsDigits 10 w) : RadText w (some (numVal 10 w)) true

/-- A literal without decoration. -/
inductive BodyText : List Char → Denot → List NumInfo → Prop
  | empty {w1 w2 : List Char} (h1 : IsWs w1) (h2 : IsWs w2) : BodyText ('[' :: (w1 ++ w2 ++ [']'])) .empty []
  | emptyName {w1 w w2 : List Char} (h1 : IsWs w1) (hw : w.map Char.toLower = "empty".toList) (h2 : IsWs w2) :
    BodyText ('[' :: (w1 ++ w ++ w2 ++ [']'])) .empty []
  | entire {w1 w w2 : List Char} (h1 : IsWs w1) (hw : w.map Char.toLower = "entire".toList) (h2 : IsWs w2) :
    BodyText ('[' :: (w1 ++ w ++ w2 ++ [']'])) (.bounds none none) []
  | nai {w1 w w2 : List Char} (h1 : IsWs w1) (hw : w.map Char.toLower = "nai".toList) (h2 : IsWs w2) :
    BodyText ('[' :: (w1 ++ w ++ w2 ++ [']'])) .nai []
  | point {w1 w w2 : List Char} {q : ℚ} {N : NumInfo} (h1 : IsWs w1) (hw : NumText w q N) (h2 : IsWs w2) :
    BodyText ('[' :: (w1 ++ w ++ w2 ++ [']'])) (.bounds (some q) (some q)) [N]
  /-- `[l,u]` -/
  | pair {w1 a w2 w3 b w4 : List Char} {l u : Option ℚ} {N N' : List NumInfo} (h1 : IsWs w1) (ha : BoundText [['-']] a l N)
      (h2 : IsWs w2) (h3 : IsWs w3) (hb : BoundText [[], ['+']] b u N') (h4 : IsWs w4) :
    BodyText ('[' :: (w1 ++ a ++ w2 ++ ',' :: (w3 ++ b ++ w4 ++ [']']))) (.bounds l u) (N ++ N')
  /-- `m?rde`: the number `m`, plus and minus (or only plus, or minus) `r` units in its last place. -/
  | uncertain {s m r d x : List Char} {sg : ℤ} {v k : ℕ} {e : ℤ} {ρ : Option ℚ} {rd lo hi : Bool} (hs : SignText s sg)
      (hm : MantText 10 m v k) (hr : RadText r ρ rd) (hd : DirText d lo hi) (hx : ExpText x e) :
    BodyText (s ++ m ++ '?' :: (r ++ d ++ x))
      (.bounds (if lo then ρ.map (fun ρ => (sg * v - ρ) * 10 ^ (e - k)) else some (sg * v * 10 ^ (e - k)))
        (if hi then ρ.map (fun ρ => (sg * v + ρ) * 10 ^ (e - k)) else some (sg * v * 10 ^ (e - k))))
      [⟨decide (s = ['+']), e, if rd then e - k else e - k - 1⟩]

/-- A decoration: its name or its number. -/
def DecText (w : List Char) (d : Dec) : Prop :=
  (w.map Char.toLower, d) ∈ [("ill".toList, Dec.ill), ("trv".toList, .trv), ("def".toList, .defd), ("dac".toList, .dac),
    ("com".toList, .com)] ∨
  w ≠ [] ∧ IsDigits 10 w ∧ (numVal 10 w, d) ∈ [(0, Dec.ill), (4, .trv), (8, .defd), (12, .dac), (16, .com)]

/-- The lower bound is not greater than the upper bound. -/
def Denot.Consistent : Denot → Prop
  | .bounds (some p) (some q) => p ≤ q
  | _ => True

/-- A literal, possibly with a decoration and surrounded by white space.  Bounds must be consistent, and a decoration must
not promise more than the denoted set allows. -/
inductive Literal : List Char → Denot → Dec → List NumInfo → Prop
  | plain {w0 b w1 : List Char} {D : Denot} {N : List NumInfo} (h0 : IsWs w0) (hb : BodyText b D N) (hc : D.Consistent)
      (h1 : IsWs w1) :
    Literal (w0 ++ b ++ w1) D D.dec N
  | decorated {w0 b w1 t w2 : List Char} {D : Denot} {N : List NumInfo} {d : Dec} (h0 : IsWs w0) (hb : BodyText b D N)
      (hc : D.Consistent) (h1 : IsWs w1) (ht : DecText t d) (h2 : IsWs w2) (hD : D ≠ .nai) (hd : d ≤ D.dec) (hd' : d ≠ .ill) :
    Literal (w0 ++ b ++ '_' :: (w1 ++ t ++ w2)) D d N

/-- The exponents fit into `int`. -/
def NumInfo.InRange (N : NumInfo) : Prop :=
  (-2147483648 ≤ N.exp ∧ N.exp ≤ 2147483647) ∧ (-2147483648 < N.scale ∧ N.scale ≤ 2147483647)

/-- The numbers are of the kind the library can read: no plus sign, exponents that fit into `int`. -/
def NumInfo.Supported (N : NumInfo) : Prop := N.plus = false ∧ N.InRange

end P1788
