import Verif.Props.C38
import Verif.Lemmas.Ex
import Verif.Model.WriteUnc

/-!
# C38, continued: the reader decorates as `set_dec` does

The reader ends by `set_dec(bare, dec)`.  The model of the reader uses the value `Itv.setDecV`, because no signal can occur there;
it is the value that the library's `set_dec` returns.
-/

namespace P1788

theorem setDec_eq {x : Itv} (h : x.Proper) (d : Dec) : Returns (setDec x d.raw) (x.setDecV d) := by
  unfold setDec Itv.setDecV
  have hd : Dec.ofRaw d.raw = some d := by cases d <;> decide
  refine (decIsValidM_ret hd).bind ?_
  rw [if_neg (by simp)]
  refine (Itv.isValidM_ret h).bind ?_
  rw [if_neg (by simp), hd]
  cases d <;> simp only [reduceCtorEq, if_false, if_true, decide_true, decide_false, Bool.true_and, Bool.false_and,
    Bool.false_eq_true] <;> (try split_ifs) <;> exact Returns.pure _

open Classical in
/-- `set_dec` on an interval and a decoration: never `com` on an unbounded interval, `trv` on the empty one, NaI for `ill`,
and otherwise what was asked for; no signal. -/
theorem C38_set_dec {φ : Fmt} {x : Itv} (hx : x.Ok φ) (d : Dec) :
    ∃ y : DItv, Returns (setDec x d.raw) y ∧ y.Ok φ ∧ (d = .ill ↔ y.IsNaI) ∧
      (d ≠ .ill → y.set = x.set ∧
        y.dec = if x.set = ∅ then .trv else if d = .com ∧ ¬ Bornology.IsBounded x.set then .dac else d) := by
  have hp : x.Proper := Itv.proper_iff.mp hx.isValid
  refine ⟨_, setDec_eq hp d, ?_⟩
  have nai : DItv.nai.Ok φ := ⟨Or.inl rfl, fun _ => Or.inl rfl, fun h => absurd rfl h, fun h => by simp [DItv.nai] at h⟩
  by_cases hd : d = .ill
  · subst hd
    exact ⟨nai, iff_of_true rfl ⟨rfl, rfl⟩, fun h => absurd rfl h⟩
  have emp : DItv.empty.Ok φ := ⟨Or.inl rfl, fun _ => Or.inr rfl, fun h => absurd rfl h, fun h => by simp [DItv.empty] at h⟩
  unfold Itv.setDecV
  rw [if_neg hd]
  rcases hx.cases with rfl | nx
  · rw [if_pos (by simp)]
    refine ⟨emp, iff_of_false hd (fun h => by simp [DItv.IsNaI, DItv.empty] at h), fun _ => ⟨rfl, ?_⟩⟩
    rw [if_pos (by simp)]; rfl
  rw [nx.isEmpty]
  have hne : x.set ≠ ∅ := nx.nonempty.ne_empty
  have hb := nx.bounded_iff
  simp only [Bool.false_eq_true, if_false, Itv.feq_ninf, Itv.feq_pinf, hne, hb, Bool.and_eq_true, decide_eq_true_eq, Bool.or_eq_true]
  by_cases hc : d = .com ∧ (x.lo = .ninf ∨ x.hi = .pinf)
  · rw [if_pos hc, if_pos ⟨hc.1, by tauto⟩]
    exact ⟨⟨hx, fun h => absurd h nx.ne_empty, fun _ => by simp, fun h => by simp at h⟩,
      iff_of_false hd (fun h => by simp [DItv.IsNaI] at h), fun _ => ⟨rfl, rfl⟩⟩
  · rw [if_neg hc, if_neg (by tauto)]
    exact ⟨⟨hx, fun h => absurd h nx.ne_empty, fun _ => hd, fun h => ⟨fun h' => hc ⟨h, .inl h'⟩, fun h' => hc ⟨h, .inr h'⟩⟩⟩,
      iff_of_false hd (fun h => hd h.2), fun _ => ⟨rfl, rfl⟩⟩

/-- `[1, +∞]` asked to be `com` becomes `dac`. -/
example : Returns (setDec ⟨.fin 1, .pinf⟩ Dec.com.raw) ⟨⟨.fin 1, .pinf⟩, .dac⟩ :=
  setDec_eq (Itv.proper_iff.mp (by decide +kernel)) .com

end P1788
