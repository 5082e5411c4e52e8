import Mathlib.Data.List.Basic

/-!
# Regular expressions with captures

The part of `std::regex` (ECMAScript grammar) that the library uses: character classes, repetition of a class, sequence,
alternative, option, capture group.  A match is searched by backtracking: the alternatives in the order in which they are
written, the longest repetition first, an option taken first if possible.
-/

namespace P1788

/-- Regular expressions. -/
inductive Rx where
  /-- a character of a class -/
  | chr (p : Char → Bool)
  /-- `p*` for a character class -/
  | star (p : Char → Bool)
  | seq (a b : Rx)
  | alt (a b : Rx)
  /-- `a?` -/
  | opt (a : Rx)
  /-- the `n`-th capture group -/
  | grp (n : ℕ) (a : Rx)
  /-- the empty string -/
  | eps

/-- What the capture groups matched. -/
abbrev Caps := List (ℕ × List Char)

/-- `match[n].str()`: empty if the group did not take part in the match. -/
def Caps.get (c : Caps) (n : ℕ) : List Char := (c.lookup n).getD []

namespace Rx

/-- The possibilities for `p*`, the longest first: what is matched and what is left. -/
def starRun (p : Char → Bool) : List Char → List (List Char × List Char)
  | [] => [([], [])]
  | c :: l => if p c then (starRun p l).map (fun r => (c :: r.1, r.2)) ++ [([], c :: l)] else [([], c :: l)]

/-- All ways to match a beginning of the text, in the order in which backtracking tries them: what is matched, what is
left, and the captures. -/
def run : Rx → List Char → List (List Char × List Char × Caps)
  | chr p, l => match l with
    | [] => []
    | c :: l => if p c then [([c], l, [])] else []
  | star p, l => (starRun p l).map fun r => (r.1, r.2, [])
  | seq a b, l => (run a l).flatMap fun r => (run b r.2.1).map fun r' => (r.1 ++ r'.1, r'.2.1, r.2.2 ++ r'.2.2)
  | alt a b, l => run a l ++ run b l
  | opt a, l => run a l ++ [([], l, [])]
  | grp n a, l => (run a l).map fun r => (r.1, r.2.1, (n, r.1) :: r.2.2)
  | eps, l => [([], l, [])]

/-- `std::regex_match`: the captures of the first way to match the whole text. `_io_impl.hpp:635, 1191`. -/
def matchAll (a : Rx) (l : List Char) : Option Caps :=
  ((run a l).find? fun r => r.2.1.isEmpty).map fun r => r.2.2

/-- `p+` -/
def plus (p : Char → Bool) : Rx := seq (chr p) (star p)

/-- The character `c`, which is not a letter. -/
def lit (c : Char) : Rx := chr fun d => d = c

/-- The letter `c`, ignoring the case (`std::regex_constants::icase`); `c` is in lower case. -/
def ci (c : Char) : Rx := chr fun d => d.toLower = c

/-- A string, ignoring the case. -/
def str : List Char → Rx
  | [] => eps
  | c :: l => seq (ci c) (str l)

end Rx
end P1788
