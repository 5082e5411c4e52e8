import Verif.Model.Elem
import Verif.Model.Bool
import Verif.Model.Num
import Mathlib.Data.Fin.Tuple.Basic

/-!
# Systems of linear equations

Interval Gaussian elimination: the textbook algorithm for systems of linear equations, with the interval operators of the library in
place of real ones.  The program is not part of the repository; the calls it makes are those of `Model/Elem.lean` (`operator-`,
`operator*`, `operator/`, `base_interval_elem_func_impl.hpp:162-263`) and `Model/Bool.lean` (`is_member`,
`base_interval_rec_bool_func_impl.hpp:89-121`), and `Model/Num.lean` (`mig`, `base_interval_num_func_impl.hpp`).
-/

namespace P1788
variable (φ : Fmt)

/-- `b - a₁*x₁ - a₂*x₂ - …`, from left to right. -/
def subProducts {n : ℕ} (b : Itv) (a x : Fin n → Itv) : Itv :=
  (List.finRange n).foldl (fun s j => φ.subI s (φ.mulI (a j) (x j))) b

/-- Interval Gaussian elimination for `A x = b`; `none` if a pivot contains zero.  `piv` is the pivot strategy: it is shown the first
column and names a row.  The first variable is eliminated from all other rows, the rest is solved likewise, and the first variable is
computed from the pivot row. -/
def gauss (piv : ∀ n, (Fin (n + 1) → Itv) → Fin (n + 1)) :
    (n : ℕ) → (Fin n → Fin n → Itv) → (Fin n → Itv) → Option (Fin n → Itv)
  | 0, _, _ => some Fin.elim0
  | n + 1, A, b =>
    let p := piv n fun i => A i 0
    if (A p 0).isMember (.fin 0) then none
    else
      let f := fun i : Fin n => φ.divI (A (p.succAbove i) 0) (A p 0)
      let A' := fun i j : Fin n => φ.subI (A (p.succAbove i) j.succ) (φ.mulI (f i) (A p j.succ))
      let b' := fun i : Fin n => φ.subI (b (p.succAbove i)) (φ.mulI (f i) (b p))
      (gauss piv n A' b').map fun x => Fin.cons (φ.divI (subProducts φ (b p) (fun j => A p j.succ) x) (A p 0)) x

/-- A pivot strategy: the first row whose coefficient has the largest mignitude (`mig`), found by comparing with `<` from top to bottom. -/
def largestPivot (n : ℕ) (c : Fin (n + 1) → Itv) : Fin (n + 1) :=
  (List.finRange (n + 1)).foldl (fun i j => if (c i).mig < (c j).mig then j else i) 0

end P1788
