import Verif.Props.C40Near
import Verif.Props.C38Exact

/-! # C40: with enough digits the round trip of a decorated interval moves every bound by at most one number, and keeps the decoration -/

namespace P1788

variable {φ : Fmt} {slack : ℕ}

/-- A decorated interval that is written with enough digits and read again: the result contains the interval, lies in every
interval of the format that has the interval in its interior, and has the same decoration as soon as one of those is bounded. -/
theorem C40_decorated_neighbours {k : Manip} {o o' : OStr} {x : DItv} (hx : x.Ok φ) (hf : k.form = .infSup ∨ x.itv.set = ∅)
    (hp : k.punct = true) (hw : o.width ≤ 1) (hnum : o.numeric = true → o.base = .dec)
    (he : ¬ (x.itv.set = ∅ ∧ ¬ x.IsNaI ∧ k.special = .bounds)) (hd : φ.Digits k.numRep k.prec) (hB : φ.B k.prec < 2 ^ 31)
    (h : φ.writeDItv slack k o x = .ok o') :
    ∃ t m y, o'.text = o.text ++ t ∧ φ.textToDecorated t = .ok m ∧ Returns m y ∧ y.Ok φ ∧ (y.IsNaI ↔ x.IsNaI) ∧
      x.itv.set ⊆ y.itv.set ∧
      ∀ z : Itv, z.Ok φ → x.itv.set ⊆ interior z.set → y.itv.set ⊆ z.set ∧ (Bornology.IsBounded z.set → y.dec = x.dec) := by
  obtain ⟨t, m, y, e, hm, hy, h1, h2, h3, h4⟩ := C40_decorated_round_trip_partial hx hf hp hw hnum he hB h
  obtain ⟨t', D, N, e', hl, hD, hs, hD', ha, hN⟩ := C40_decorated_partial hx hf hp hw hnum he h
  have : t = t' := by rw [e] at e'; exact List.append_cancel_left e'
  subst this
  obtain ⟨m', y', hm', hy', hr⟩ := C38_literal_partial (φ := φ) hl (fun n hn => supported_of_small hB (hN n hn))
  have : m = m' := by rw [hm] at hm'; exact Std.ok.inj hm'
  subst this
  have : y = y' := Returns.unique hy hy'
  subst this
  refine ⟨t, m, y, e, hm, hy, h1, h2, h3, fun z hz hz' => ?_⟩
  have key : y.itv.set ⊆ z.set := by
    by_cases hn : x.IsNaI
    · rw [(set_empty_iff_nan h1.1).mpr (h2.mpr hn).1]; exact Set.empty_subset _
    · exact (hr.2.2 (fun e => hn (hD.mp e))).1.2.2 z hz (denot_sub hd hx.1 (hD' hn) (ha hn) hz hz')
  refine ⟨key, fun hb => ?_⟩
  rcases h4 with h4 | ⟨-, -, h5⟩
  · exact h4
  · exact absurd (Bornology.IsBounded.subset hb key) h5

/-- The hypotheses on a concrete case, and what happens: `[0.1, 0.1]_dac` (`double`) with 17 digits. -/
example :
    let q : ℚ := 3602879701896397 / 2 ^ 55
    (binary64.writeDItv 0 { numRep := .sci, prec := 16, width := 24 } {} ⟨⟨.fin q, .fin q⟩, .dac⟩).written =
      some "[  1.0000000000000000e-01,  1.0000000000000001e-01]_dac".toList ∧
    (binary64.readItv { rest := "[  1.0000000000000000e-01,  1.0000000000000001e-01]_dac".toList }).item =
      some ⟨⟨.fin (q - 1 / 2 ^ 56), .fin (q + 1 / 2 ^ 56)⟩, .dac⟩ ∧ binary64.B 16 < 2 ^ 31 := by
  decide +kernel

end P1788
