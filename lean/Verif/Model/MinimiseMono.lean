import Verif.Model.Monotone
import Verif.Model.Minimise
import Verif.Model.Solver

/-!
# Global minimisation by branch and bound with derivatives

The search of `Model/Minimise.lean` for a formula with unknowns and parameters, with the monotonicity test (`Model/Monotone.lean`) as an
additional step: a box is replaced by the part of it outside of which no value is smallest.  The program is not part of the repository;
the calls it makes are those of `Model/Monotone.lean` and `Model/Minimise.lean`.
-/

namespace P1788
variable {n : ℕ} {κ : Type}

/-- The numbers `p` for the unknowns, as decorated point intervals, and the parameters of the box. -/
def probeBox (X : Fin n ⊕ κ → Itv) (p : Fin n → FP) : Fin n ⊕ κ → DItv :=
  fun j => (Sum.elim (fun i => ⟨p i, p i⟩) (fun k => X (.inr k)) j : Itv).newDec

/-- One step of the search. -/
inductive MonoStep (φ : Fmt) (e : Expr (Fin n ⊕ κ)) (g : Fin n → Expr (Fin n ⊕ κ)) : MinState (Fin n ⊕ κ) → MinState (Fin n ⊕ κ) → Prop
  /-- A box with an empty side is thrown away. -/
  | dropEmpty {l₁ l₂ X u i} (h : (X (.inl i)).isEmpty = true) : MonoStep φ e g ⟨l₁ ++ X :: l₂, u⟩ ⟨l₁ ++ l₂, u⟩
  /-- A box with `ub < inf(e(X))` is thrown away. -/
  | drop {l₁ l₂ X u} (h : u < (e.eval φ X).inf) : MonoStep φ e g ⟨l₁ ++ X :: l₂, u⟩ ⟨l₁ ++ l₂, u⟩
  /-- A side is bisected: `I(inf(x), mid(x))` and `I(mid(x), sup(x))`. -/
  | split {l₁ l₂ X u i a b} (ha : mkI (X (.inl i)).inf ((X (.inl i)).mid φ) = .ok a)
    (hb : mkI ((X (.inl i)).mid φ) (X (.inl i)).sup = .ok b) :
    MonoStep φ e g ⟨l₁ ++ X :: l₂, u⟩
      ⟨l₁ ++ withUnknowns X (Function.update (fun j => X (.inl j)) i a) ::
        withUnknowns X (Function.update (fun j => X (.inl j)) i b) :: l₂, u⟩
  /-- The formula is evaluated at numbers `p` of the box; if the decoration is at least `def` and the upper bound of the result is smaller
  than `ub`, it becomes the new bound. -/
  | probe {l u X} {p : Fin n → FP} (hX : X ∈ l) (hi : ∀ i, (p i).In φ) (hp : ∀ i, (X (.inl i)).isMember (p i) = true)
    (hd : .defd ≤ (e.evalD φ (probeBox X p)).dec) (h : (e.evalD φ (probeBox X p)).itv.sup < u) :
    MonoStep φ e g ⟨l, u⟩ ⟨l, (e.evalD φ (probeBox X p)).itv.sup⟩
  /-- The monotonicity test makes a box smaller. -/
  | shrink {l₁ l₂ X u Y} (h : minBox φ e g (fun j => (X j).newDec) = some Y) : MonoStep φ e g ⟨l₁ ++ X :: l₂, u⟩ ⟨l₁ ++ Y :: l₂, u⟩

/-- Any number of steps in any order. -/
def MonoRun (φ : Fmt) (e : Expr (Fin n ⊕ κ)) (g : Fin n → Expr (Fin n ⊕ κ)) : MinState (Fin n ⊕ κ) → MinState (Fin n ⊕ κ) → Prop :=
  Relation.ReflTransGen (MonoStep φ e g)

end P1788
