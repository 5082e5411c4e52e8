import Verif.Model.NewtonSys
import Verif.Model.Search
import Verif.Model.Dec

/-!
# Solving systems of equations by branch and prune

A program that looks for all solutions of `n` equations in `n` unknowns with parameters in a box.  It keeps three lists of boxes: those
still to be examined, those in which it has proved one and only one solution, and those it has given up.  In any order (the strategy
is left open) it throws boxes away, bisects them as `examples/e15_bisection.cpp:58-66` does, narrows them with Newton's method
(`Model/NewtonSys.lean`), or puts them into one of the other lists.  The program is not part of the repository; the calls it makes are those
of `Model/Expr.lean`, `Model/Num.lean`, `Model/Bool.lean`, `Model/Search.lean` and `Model/NewtonSys.lean` (`is_empty`, `is_member`:
`infsup/base_interval_rec_bool_func_impl.hpp`; `inf`, `sup`, `mid`: `infsup/base_interval_num_func_impl.hpp`; `intersection`:
`infsup/base_interval_set_op_impl.hpp`).
-/

namespace P1788
variable {n : ℕ} {κ : Type}

/-- The three lists of boxes. -/
structure SolveState (n : ℕ) (κ : Type) where
  todo : List (Fin n ⊕ κ → Itv)
  sure : List (Fin n ⊕ κ → Itv)
  doubt : List (Fin n ⊕ κ → Itv)

/-- The box with other intervals for the unknowns. -/
def withUnknowns (X : Fin n ⊕ κ → Itv) (v : Fin n → Itv) : Fin n ⊕ κ → Itv := Sum.elim v fun k => X (.inr k)

/-- One step of the search. -/
inductive SolveStep (φ : Fmt) (piv : ∀ n, (Fin (n + 1) → Itv) → Fin (n + 1)) (e : Fin n → Expr (Fin n ⊕ κ))
    (J : Fin n → Fin n → Expr (Fin n ⊕ κ)) : SolveState n κ → SolveState n κ → Prop
  /-- A box with an empty side is thrown away. -/
  | dropEmpty {l₁ l₂ s d X i} (h : (X (.inl i)).isEmpty = true) : SolveStep φ piv e J ⟨l₁ ++ X :: l₂, s, d⟩ ⟨l₁ ++ l₂, s, d⟩
  /-- A box is thrown away if 0 is not a member of the interval of one of the formulas. -/
  | drop {l₁ l₂ s d X} (i : Fin n) (h : ((e i).eval φ X).isMember (.fin 0) = false) :
    SolveStep φ piv e J ⟨l₁ ++ X :: l₂, s, d⟩ ⟨l₁ ++ l₂, s, d⟩
  /-- A side is bisected: `I(inf(x), mid(x))` and `I(mid(x), sup(x))`. -/
  | split {l₁ l₂ s d X i a b} (ha : mkI (X (.inl i)).inf ((X (.inl i)).mid φ) = .ok a)
    (hb : mkI ((X (.inl i)).mid φ) (X (.inl i)).sup = .ok b) :
    SolveStep φ piv e J ⟨l₁ ++ X :: l₂, s, d⟩
      ⟨l₁ ++ withUnknowns X (Function.update (fun j => X (.inl j)) i a) ::
        withUnknowns X (Function.update (fun j => X (.inl j)) i b) :: l₂, s, d⟩
  /-- The unknowns are intersected with the result of the Newton operator. -/
  | narrow {l₁ l₂ s d X N} {m : Fin n → FP} (hm : ∀ i, (m i).In φ) (h : newtonSys φ piv e J (fun j => (X j).newDec) m = some N) :
    SolveStep φ piv e J ⟨l₁ ++ X :: l₂, s, d⟩ ⟨l₁ ++ withUnknowns X (fun i => (X (.inl i)).inter (N i)) :: l₂, s, d⟩
  /-- The test for a unique solution is successful. -/
  | accept {l₁ l₂ s d X N} {m : Fin n → FP} (hm : ∀ i, (m i).In φ) (h : newtonSys φ piv e J (fun j => (X j).newDec) m = some N)
    (ht : newtonSysTest (fun j => (X j).newDec) m N = true) :
    SolveStep φ piv e J ⟨l₁ ++ X :: l₂, s, d⟩ ⟨l₁ ++ l₂, X :: s, d⟩
  /-- A box is given up. -/
  | giveUp {l₁ l₂ s d X} : SolveStep φ piv e J ⟨l₁ ++ X :: l₂, s, d⟩ ⟨l₁ ++ l₂, s, X :: d⟩

/-- Any number of steps in any order. -/
def SolveRun (φ : Fmt) (piv : ∀ n, (Fin (n + 1) → Itv) → Fin (n + 1)) (e : Fin n → Expr (Fin n ⊕ κ))
    (J : Fin n → Fin n → Expr (Fin n ⊕ κ)) : SolveState n κ → SolveState n κ → Prop := Relation.ReflTransGen (SolveStep φ piv e J)

end P1788
