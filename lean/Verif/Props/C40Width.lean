import Verif.Props.C40b
import Verif.Lemmas.WriteWide

/-! # C40: with a number width that is large enough nothing is written outside of the buffer

The buffer of `get_str` is too small for the numbers (`C40_false_buffer`), but it is never smaller than the number width that the
program has set.  If this width has room for every number of the format (`needWidth`, for example 14 characters for `double` in
scientific notation with the default precision) then writing in inf-sup form always ends normally. -/

namespace P1788

open Bornology

variable {φ : Fmt}

/-- Exactly when writing a bare interval in inf-sup form ends normally: nothing but names are written, or the texts of both bounds
fit into the buffers. -/
theorem C40_written_iff {k : Manip} {o : OStr} {x : Itv} (hx : x.NE φ) (hf : k.form = .infSup)
    (hs : ¬ (x.set = Set.univ ∧ k.special ≠ .bounds)) : (∃ o', φ.writeItv 0 k o x = .ok o') ↔
      ∀ t ∈ [φ.numText k.numRep o.upper k.prec .D x.inf, φ.numText k.numRep o.upper k.prec .U x.sup],
        max k.width t.length ≤ φ.reqWidth k.numRep k.width k.prec ∧ max k.width t.length < 2 ^ 31 := by
  have hub : ∀ {m : Rnd} {v : FP}, φ.getStr 0 m k.numRep k.width k.prec o.upper v ≠ .ub →
      max k.width (φ.numText k.numRep o.upper k.prec m v).length ≤ φ.reqWidth k.numRep k.width k.prec ∧
        max k.width (φ.numText k.numRep o.upper k.prec m v).length < 2 ^ 31 := by
    intro m v h
    rcases getStr_cases (φ := φ) (slack := 0) (m := m) (r := k.numRep) (width := k.width) (prec := k.prec) (up := o.upper) (x := v) with h1 | h1
    · exact absurd h1.1 h
    · have := h1.2; push Not at this; omega
  constructor
  · rintro ⟨o', h⟩
    have h1 : ¬ (φ.getStr 0 .D k.numRep k.width k.prec o.upper x.inf = .ub ∨ φ.getStr 0 .U k.numRep k.width k.prec o.upper x.sup = .ub) :=
      fun h' => by rw [infSup_ub hx hf hs h'] at h; cases h
    push Not at h1
    simp only [List.forall_mem_cons, List.not_mem_nil, false_imp_iff, implies_true, and_true]
    exact ⟨hub h1.1, hub h1.2⟩
  · intro h
    simp only [List.forall_mem_cons, List.not_mem_nil, false_imp_iff, implies_true, and_true] at h
    have hok : ∀ {m : Rnd} {v : FP}, max k.width (φ.numText k.numRep o.upper k.prec m v).length ≤ φ.reqWidth k.numRep k.width k.prec ∧
        max k.width (φ.numText k.numRep o.upper k.prec m v).length < 2 ^ 31 → ∃ t, φ.getStr 0 m k.numRep k.width k.prec o.upper v = .ok t := by
      intro m v h
      rcases getStr_cases (φ := φ) (slack := 0) (m := m) (r := k.numRep) (width := k.width) (prec := k.prec) (up := o.upper) (x := v) with h1 | h1
      · omega
      · exact h1.1
    obtain ⟨t1, h1⟩ := hok h.1
    obtain ⟨t2, h2⟩ := hok h.2
    unfold Fmt.writeItv
    rw [hx.isValid]
    simp only [Bool.not_true, Bool.false_eq_true, if_false]
    rw [if_neg (by simp [hf])]
    unfold Fmt.writeInfSup Fmt.parts
    simp only
    by_cases hs' : ((x.isEmpty || x.isEntire) && decide (k.special ≠ .bounds)) = true
    · rw [if_pos hs']; exact ⟨_, rfl⟩
    · rw [if_neg hs', h1, h2]; exact ⟨_, rfl⟩

/-- **A large enough number width makes writing safe**: every proper interval is written normally. -/
theorem C40_wide {k : Manip} {o : OStr} {x : Itv} (hx : x.Ok φ) (hf : k.form = .infSup ∨ x.set = ∅)
    (hw : φ.needWidth k.numRep k.prec ≤ k.width) (hw' : k.width < 2 ^ 31) : ∃ o', φ.writeItv 0 k o x = .ok o' := by
  unfold Fmt.writeItv
  rw [Itv.Ok.isValid hx]
  simp only [Bool.not_true, Bool.false_eq_true, if_false]
  rw [if_neg (by
    rintro ⟨h1, h2⟩
    rcases hf with hf | h
    · exact h1 hf
    · rw [(set_empty_iff_nan hx).mp h] at h2; exact absurd h2 (by decide))]
  unfold Fmt.writeInfSup Fmt.parts
  simp only
  by_cases hs : ((x.isEmpty || x.isEntire) && decide (k.special ≠ .bounds)) = true
  · rw [if_pos hs]; exact ⟨_, rfl⟩
  · rw [if_neg hs]
    have hin : x.inf.In φ ∧ x.sup.In φ := by
      rcases hx.cases with rfl | hne
      · exact ⟨trivial, trivial⟩
      · exact ⟨(inf_facts hne).1, (sup_facts hne).1⟩
    obtain ⟨t2, h2⟩ := getStr_wide (slack := 0) (m := .D) (up := o.upper) hin.1 hw hw'
    obtain ⟨t4, h4⟩ := getStr_wide (slack := 0) (m := .U) (up := o.upper) hin.2 hw hw'
    rw [h2, h4]
    exact ⟨_, rfl⟩

/-- Hence with such a width every interval is written, as a literal that contains it and is accurate to the precision, and reading
the text gives an interval that contains it. -/
theorem C40_wide_round_trip {k : Manip} {o : OStr} {x : Itv} (hx : x.Ok φ) (hf : k.form = .infSup ∨ x.set = ∅) (hp : k.punct = true)
    (ho : o.Plain) (he : ¬ (x.set = ∅ ∧ k.special = .bounds)) (hB : φ.B k.prec < 2 ^ 31)
    (hw : φ.needWidth k.numRep k.prec ≤ k.width) (hw' : k.width < 2 ^ 31) :
    ∃ o' t D N m y, φ.writeItv 0 k o x = .ok o' ∧ o'.text = o.text ++ t ∧ Literal t D D.dec N ∧ x.set ⊆ D.set ∧
      Accurate k.numRep k.prec x D ∧ φ.textToInterval t = .ok m ∧ Returns m y ∧ y.Ok φ ∧ x.set ⊆ y.set := by
  obtain ⟨o', h⟩ := C40_wide (o := o) hx hf hw hw'
  obtain ⟨t, D, N, e, hl, -, hs, -, ha, -⟩ := C40_contains_partial hx hf hp ho he h
  obtain ⟨t', m, y, e', h1, h2, h3, h4, -⟩ := C40_round_trip_partial hx hf hp ho he hB h
  have : t = t' := by rw [e] at e'; exact List.append_cancel_left e'
  subst this
  exact ⟨o', t, D, N, m, y, h, e, hl, hs, ha, h1, h2, h3, h4⟩

/-- The widths that are enough with the default precision: scientific, decimal and mixed notation. -/
example : binary64.needWidth .sci 0 = 14 ∧ binary64.needWidth .dec 0 = 317 ∧ binary64.needWidth .decSci 0 = 13 ∧
    binary32.needWidth .sci 0 = 13 ∧ x87ext.needWidth .sci 0 = 15 := by
  decide +kernel

/-- One character less is not enough. -/
example : (binary64.writeItv 0 { numRep := .sci, width := 13 } {} ⟨.fin (-1 / 2 ^ 1000), .fin 1⟩).written = none ∧
    (binary64.writeItv 0 { numRep := .sci, width := 14 } {} ⟨.fin (-1 / 2 ^ 1000), .fin 1⟩).written = some "[-9.332637e-302,  1.000000e+00]".toList := by
  decide +kernel

end P1788
