import Verif.Props.C20c
import Verif.Props.C11c

/-!
# C20, exactly: when the decoration of the tangent is wrong
-/

namespace P1788
open Real
variable {φ : Fmt} {x : DItv}

/-- **The decoration of `tan` for `double` is exactly right** unless the interval is bad in the sense of C11 and its decoration claims
anything; then the result's decoration claims that the tangent is defined at a pole. -/
theorem C20_tan_exact_binary64 (hx : x.Ok binary64) (hn : x.dec ≠ .ill) :
    DecRight Real.tan {t | Real.cos t ≠ 0} x.set x.dec (binary64.tanD x) ↔ ¬ (TanBad binary64 x.itv ∧ .defd ≤ x.dec) := by
  obtain ⟨e1, e2⟩ := tanD_eq hx hn
  constructor
  · rintro h ⟨⟨hp, a, b, ha, hb, hw, hr⟩, hd⟩
    have hN : x.itv.NE binary64 := by
      rcases hx.1.cases with e | hN
      · obtain ⟨t, ht, -⟩ := hp; rw [e] at ht; simp at ht
      · exact hN
    obtain ⟨b1, b2⟩ := tan_branch hN ha hb
    have c1 := Bool.eq_false_iff.mpr (fun h => absurd (b1.mp h) (not_lt.mpr hw))
    have c2 := Bool.eq_false_iff.mpr (fun h => absurd (b2.mp h) (not_lt.mpr hr))
    rw [c1, c2, hN.isEmpty] at e2
    simp only [Bool.or_self, Bool.false_eq_true, if_false] at e2
    have hd' : Dec.defd ≤ (binary64.tanD x).dec := by
      rw [e2]; unfold Itv.comDac
      revert hd
      split_ifs <;> cases x.dec <;> decide
    have hsub : x.set ⊆ {t | Real.cos t ≠ 0} := by
      have := h.true_claim
      revert this hd'
      generalize (binary64.tanD x).dec = d
      intro hd this
      cases d
      · exact absurd hd (by decide)
      · exact absurd hd (by decide)
      · exact this.2
      · exact this.2.1
      · exact this.2.1
    obtain ⟨t, ht, h0⟩ := hp
    exact hsub ht h0
  · intro h
    by_cases hp : x.itv.HasPole
    · have hsub : ¬ x.set ⊆ {t | Real.cos t ≠ 0} := fun hs => by
        obtain ⟨t, ht, h0⟩ := hp
        exact hs ht h0
      have hN : x.itv.NE binary64 := by
        rcases hx.1.cases with e | hN
        · obtain ⟨t, ht, -⟩ := hp; rw [e] at ht; simp at ht
        · exact hN
      have ht : (binary64.tanD x).dec = .trv := by
        by_cases hd : Dec.defd ≤ x.dec
        · rw [e2]
          by_cases hinf : x.itv.lo = .ninf ∨ x.itv.hi = .pinf
          · rw [tan_branch_inf hN hinf]; simp
          obtain ⟨a, b, ha, hb⟩ := fin_bounds hN hinf
          obtain ⟨b1, b2⟩ := tan_branch hN ha hb
          by_cases hw : binary64.rdE (π:ℝ) < ((b - a : ℝ):EReal)
          · rw [b1.mpr hw]; simp
          · rw [b2.mpr (not_le.mp fun hr => h ⟨⟨hp, a, b, ha, hb, not_lt.mp hw, hr⟩, hd⟩)]; simp
        · have ht : x.dec = .trv := by
            revert hn hd; cases x.dec <;> decide
          rw [e2, ht]
          split_ifs
          · rfl
          · unfold Itv.comDac; split_ifs <;> rfl
      refine ⟨by rw [ht]; decide, ?_, trv_means ht, fun d hd hm => ?_⟩
      · rw [ht]; revert hn; cases x.dec <;> decide
      · rw [ht]
        cases d with
        | ill => decide
        | trv => decide
        | defd => exact absurd hm.2 hsub
        | dac => exact absurd hm.2.1 hsub
        | com => exact absurd hm.2.1 hsub
    · exact (C20_tan_right_binary64_partial hx hn fun h => absurd h.1 hp).2

/-- Non-vacuity: both sides occur. -/
example : (∃ x : DItv, x.Ok binary64 ∧ x.dec ≠ .ill ∧ TanBad binary64 x.itv ∧ .defd ≤ x.dec) ∧
    ∃ x : DItv, x.Ok binary64 ∧ x.dec ≠ .ill ∧ ¬ (TanBad binary64 x.itv ∧ .defd ≤ x.dec) := by
  constructor
  · obtain ⟨x, hx, hd, hp, -, hm⟩ := C20_tan_binary64_false
    refine ⟨x, hx, by rw [hd]; decide, ?_, by rw [hd]; decide⟩
    by_contra hb
    exact hm ((C20_tan_exact_binary64 hx (by rw [hd]; decide)).mpr fun h => hb h.1).true_claim
  · refine ⟨⟨Itv.entire, .dac⟩, ⟨Itv.ok_entire _, by simp [Itv.entire], by simp, by simp⟩, by simp, ?_⟩
    rintro ⟨⟨-, a, b, h, -⟩, -⟩
    simp [Itv.entire] at h

end P1788
