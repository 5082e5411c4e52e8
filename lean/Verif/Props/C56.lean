import Verif.Model.Public
import Verif.Props.C17
import Verif.Props.C22
import Verif.Props.C29
import Verif.Props.C34

/-!
# C56 Objects behave as values

Default construction, copies, assignment, conversions between bare and decorated intervals, `==` and `!=`.
-/

namespace P1788
open Bornology
variable {φ ψ : Fmt}

/-- Default constructed objects are empty; the decorated one is decorated `trv` (and is not NaI). -/
theorem C56_default (φ : Fmt) :
    Itv.default.Ok φ ∧ Itv.default.set = ∅ ∧ DItv.default.Ok φ ∧ DItv.default.set = ∅ ∧ DItv.default.dec = .trv ∧
    ¬ DItv.default.IsNaI := by
  have h : Itv.empty.Ok φ := Or.inl rfl
  refine ⟨h, Itv.set_empty, ⟨h, fun _ => .inr rfl, fun h' => absurd rfl h', fun hc => ?_⟩, Itv.set_empty, rfl, fun hn => ?_⟩
  · exact absurd hc (by decide)
  · exact absurd hn.2 (by decide)

/-- Bare intervals, perhaps of different number types: `==` is equality of the sets and `!=` is its negation. -/
theorem C56_operators {x y : Itv} (hx : x.Ok φ) (hy : y.Ok ψ) :
    (x.eqOp y = true ↔ x.set = y.set) ∧ (x.neOp y = true ↔ x.set ≠ y.set) := by
  have h := C22_equal hx hy
  refine ⟨h, ?_⟩
  rw [Itv.neOp, Bool.not_eq_true', ← Bool.not_eq_true, h]

/-- Decorated intervals: `==` is equality of the sets (the decorations are not compared) if neither operand is NaI;
NaI is equal to nothing, not even to NaI; `!=` is the negation of `==`. -/
theorem C56_operators_decorated {x y : DItv} (hx : x.Ok φ) (hy : y.Ok ψ) :
    (x.eqOp y = true ↔ ¬ x.IsNaI ∧ ¬ y.IsNaI ∧ x.set = y.set) ∧
    (x.neOp y = true ↔ x.IsNaI ∨ y.IsNaI ∨ x.set ≠ y.set) := by
  have key : x.eqOp y = true ↔ ¬ x.IsNaI ∧ ¬ y.IsNaI ∧ x.set = y.set := by
    rw [DItv.isNaI_iff hx, DItv.isNaI_iff hy, DItv.eqOp]
    by_cases h1 : x.dec = .ill
    · rw [(C22_decorated _ x y).1 (.inl (hx.isNai_iff.mpr h1))]; simp [h1]
    · by_cases h2 : y.dec = .ill
      · rw [(C22_decorated _ x y).1 (.inr (.inl (hy.isNai_iff.mpr h2)))]; simp [h2]
      · rw [(C22_decorated _ x y).2 hx.isValid hy.isValid (hx.isNai_false h1) (hy.isNai_false h2), C22_equal hx.1 hy.1]
        simp only [h1, h2, not_false_iff, true_and]
  refine ⟨key, ?_⟩
  have : x.neOp y = true ↔ ¬ x.eqOp y = true := by simp [DItv.neOp, DItv.eqOp]
  rw [this, key]
  tauto

/-- Copies of valid objects: however many copy constructions the compiler leaves in place when a result is handed over,
the object that arrives is the one that was computed and nothing is signalled.  Assignment hands the new object over.

The full statement, "whatever call computed the object", is false: `C56_handed_false`.  Missing are objects that are
not valid; only the cancellative operations at the edge of the range produce them (`C15`). -/
theorem C56_handed_partial {x : Itv} (hx : x.Ok φ) {y : DItv} (hy : y.Ok φ) (n : ℕ) :
    Returns (x.handed n) x ∧ Returns (y.handed n) y ∧ (∀ old, Returns (Itv.assign old x) x) ∧
    (∀ old, Returns (DItv.assign old y) y) := by
  obtain ⟨c1, c2⟩ := C34_copy hx hy
  refine ⟨?_, ?_, fun _ => Returns.pure _, fun _ => Returns.pure _⟩
  · induction n with
    | zero => exact Returns.pure _
    | succ n ih => exact ih.bind c1
  · induction n with
    | zero => exact Returns.pure _
    | succ n ih => exact ih.bind c2

/-- An object that is not valid does not survive: with one copy construction or more, what arrives is the empty
interval, and an invalid operand is signalled. -/
theorem C56_copy_invalid {x : Itv} (hx : ¬ x.Proper) (n : ℕ) :
    Raises (x.handed (n + 1)) .invalidOperand ⟨.nan, .nan⟩ := by
  induction n with
  | zero =>
    refine Returns.bind_raises (Returns.pure x) ?_
    unfold Itv.copyCtor copyM
    exact (Itv.isValidM_raise hx).bind (Returns.pure _)
  | succ n ih =>
    refine Raises.bind ih ?_
    exact (C34_copy (φ := binary64) (x := Itv.empty) (Or.inl rfl) (y := DItv.empty)
      ⟨Or.inl rfl, fun _ => .inr rfl, fun h => absurd rfl h, fun h => absurd h (by decide)⟩).1

/-- What `cancel_minus` delivers depends on the compiler: two proper intervals of `float` whose difference, handed over
without a copy, is an object with its lower bound above its upper bound and no signal, and handed over with a copy is
the empty interval, with a signal. -/
theorem C56_handed_false : ∃ x y r : Itv, x.Ok binary32 ∧ y.Ok binary32 ∧ x.set.Nonempty ∧ y.set.Nonempty ∧
    x.cancelMinus binary32 y = r ∧ Returns (r.handed 0) r ∧ r ≠ ⟨.nan, .nan⟩ ∧
    ∀ n, Raises (r.handed (n + 1)) .invalidOperand ⟨.nan, .nan⟩ := by
  obtain ⟨hx, hy, hxn, hyn, hv, -⟩ := C29_false_invalid
  refine ⟨_, _, _, hx, hy, hxn, hyn, rfl, Returns.pure _, ?_, C56_copy_invalid ?_⟩
  · intro h; rw [h] at hv; revert hv; decide
  · rw [← Itv.proper_iff, hv]; decide

/-- Bare to decorated and back is the identity, without a signal. -/
theorem C56_bare_dec_bare {x : Itv} (hx : x.Ok φ) : Returns (do (← x.toDec).toBare) x := by
  obtain ⟨y, h1, hy, h2, hf⟩ := C17_new_dec hx
  refine Returns.bind h1 ?_
  have hn : y.dec ≠ .ill := by
    by_cases hb : IsBounded y.set
    · rcases y.set.eq_empty_or_nonempty with he | hne
      · rw [hf.1 he]; decide
      · rw [hf.2.1 hne hb]; decide
    · rw [hf.2.2 hb]; decide
  unfold DItv.toBare intervalPart
  refine (DItv.isValidM_ret hy.isValid).bind ?_
  simp only [Bool.not_true, Bool.false_eq_true, if_false, hy.isNai_false hn]
  rw [← h2]
  exact Returns.pure _

/-- Decorated to bare and back keeps the interval but not the decoration: it is made as if the interval were new, so it
is at least as strong as it was. -/
theorem C56_dec_bare_dec {x : DItv} (hx : x.Ok φ) (hn : ¬ x.IsNaI) :
    ∃ y, Returns (do (← x.toBare).toDec) y ∧ y.Ok φ ∧ y.itv = x.itv ∧ Fresh y ∧ x.dec ≤ y.dec := by
  rw [DItv.isNaI_iff hx] at hn
  obtain ⟨y, h1, hy, h2, hf⟩ := C17_new_dec hx.1
  refine ⟨y, Returns.bind ?_ h1, hy, h2, hf, ?_⟩
  · unfold DItv.toBare intervalPart
    refine (DItv.isValidM_ret hx.isValid).bind ?_
    simp only [Bool.not_true, Bool.false_eq_true, if_false, hx.isNai_false hn]
    exact Returns.pure _
  · obtain ⟨o1, o2, o3, o4⟩ := hx
    have hs : y.set = x.set := by unfold DItv.set; rw [h2]
    rcases o1.cases with he | hN
    · rw [hf.1 (by rw [hs, DItv.set, he, Itv.set_empty])]
      rcases o2 he with h | h
      · exact absurd h hn
      · rw [h]; decide
    · by_cases hb : IsBounded y.set
      · rw [hf.2.1 (by rw [hs]; exact hN.nonempty) hb]
        cases x.dec <;> decide
      · rw [hf.2.2 hb]
        have : x.dec ≠ .com := fun h => hb (by rw [hs]; exact hN.bounded_iff.mpr (o4 h))
        revert this
        cases x.dec <;> decide

/-- The decoration can be lost on the way: `[1, 2]` decorated `trv` comes back decorated `com`, silently. -/
theorem C56_dec_bare_dec_stronger :
    (DItv.mk ⟨.fin 1, .fin 2⟩ .trv).Ok binary64 ∧
    Returns (do (← (DItv.mk ⟨.fin 1, .fin 2⟩ .trv).toBare).toDec) ⟨⟨.fin 1, .fin 2⟩, .com⟩ :=
  ⟨⟨Itv.ok_of_okb (by decide +kernel), by simp, by simp, by simp⟩, fun _ => rfl⟩

/-- NaI to bare and back: the interval part of NaI is signalled, and if that does not throw the object that comes back
is the empty interval, which is not NaI. -/
theorem C56_nai_bare_dec {x : DItv} (hn : x.IsNaI) :
    ∃ y, Raises (do (← x.toBare).toDec) .intervalPartOfNai y ∧ y.set = ∅ ∧ y.dec = .trv ∧ ¬ y.IsNaI := by
  obtain ⟨⟨e, he, rfl⟩, -⟩ := C34_interval_part_nai binary64 hn
  obtain ⟨y, h1, hy, h2, hf⟩ := C17_new_dec (φ := binary64) (x := Itv.empty) (Or.inl rfl)
  have hs : y.set = ∅ := by rw [DItv.set, h2, Itv.set_empty]
  refine ⟨y, Raises.bind he h1, hs, hf.1 hs, fun h => ?_⟩
  rw [DItv.isNaI_iff hy, hf.1 hs] at h
  exact absurd h (by decide)

/-- Non-vacuity: a decorated unbounded interval in `long double`, `==` across number types, an object compared with
itself, and NaI. -/
example : (DItv.mk ⟨.fin (1/2), .pinf⟩ .defd).Ok x87ext ∧ ¬ (DItv.mk ⟨.fin (1/2), .pinf⟩ .defd).IsNaI ∧
    (DItv.mk ⟨.fin (1/2), .pinf⟩ .defd).eqOp ⟨⟨.fin (1/2), .pinf⟩, .trv⟩ = true ∧
    (DItv.mk ⟨.fin (1/2), .pinf⟩ .defd).neOp ⟨⟨.fin (1/2), .pinf⟩, .trv⟩ = false ∧
    DItv.nai.eqOp DItv.nai = false ∧ DItv.nai.neOp DItv.nai = true :=
  ⟨⟨Itv.ok_of_okb (by decide +kernel), by simp, by simp, by simp⟩, fun h => absurd h.2 (by decide),
    by decide +kernel, by decide +kernel, by decide +kernel, by decide +kernel⟩

end P1788
