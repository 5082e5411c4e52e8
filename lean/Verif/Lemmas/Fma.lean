import Verif.Lemmas.Div

/-! Helper lemmas for the fused multiply-add. -/

namespace P1788
open FP

namespace Fmt
variable (φ : Fmt) (m : Rnd)

theorem fma_in {a b c : FP} (hc : c.In φ) : (φ.fma m a b c).In φ := by
  unfold fma
  split <;> try (exact trivial)
  split_ifs
  · exact trivial
  · exact φ.add_in m _ _
  · exact hc
  · exact φ.mkZero_in _
  · exact φ.mkZero_in _
  · exact φ.round_rat_in m _

theorem fma_spec {a b c : FP} (ha : a ≠ .nan) (hb : b ≠ .nan) (hc : c ≠ .nan) (h : NoNan a.toE b.toE)
    (h1 : ¬(a.toE * b.toE = ⊥ ∧ c.toE = ⊤)) (h2 : ¬(a.toE * b.toE = ⊤ ∧ c.toE = ⊥)) :
    φ.fma m a b c ≠ .nan ∧ (φ.fma m a b c).toE = φ.rndE m (a.toE * b.toE + c.toE) := by
  have hnn : ¬((a.isInf && b.isZero) || (a.isZero && b.isInf)) = true := by
    simp only [Bool.or_eq_true, Bool.and_eq_true, isZero_iff ha, isZero_iff hb, isInf_iff]
    unfold NoNan at h
    tauto
  have hm : φ.fma m a b c = if a.isInf || b.isInf then φ.add m (FP.mkInf (a.signbit != b.signbit)) c
    else if c.isInf then c
    else if a.q * b.q + c.q = 0 then
      (if a.q * b.q = 0 ∧ (a.signbit != b.signbit) = c.signbit then FP.mkZero c.signbit
       else FP.mkZero (decide (m = .D)))
    else φ.round m (a.q * b.q + c.q) := by
    unfold fma
    cases a <;> cases b <;> cases c <;>
      first | (exact absurd rfl ha) | (exact absurd rfl hb) | (exact absurd rfl hc) | (simp only [if_neg hnn])
  have hfin : ∀ c : FP, c ≠ .nan → c.isInf = false → c.toE = ((c.q:ℝ):EReal) := by
    intro c hc hi
    cases c <;> simp_all [FP.isInf, FP.q]
  rw [hm]
  by_cases hi : (a.isInf || b.isInf) = true
  · rw [if_pos hi]
    -- the product is the infinity computed by `mul`
    obtain ⟨p1, p2⟩ := mul_spec' φ m ha hb h
    have hp : φ.mul m a b = FP.mkInf (a.signbit != b.signbit) := by
      unfold mul
      cases a <;> cases b <;>
        first | (exact absurd rfl ha) | (exact absurd rfl hb) | (simp only [if_neg hnn, if_pos hi])
    have hpe : (FP.mkInf (a.signbit != b.signbit)).toE = a.toE * b.toE := by
      have h3 : φ.rndE m (a.toE * b.toE) = (FP.mkInf (a.signbit != b.signbit)).toE := by rw [← hp, p2]
      have hinf : a.toE * b.toE = ⊤ ∨ a.toE * b.toE = ⊥ := by
        rw [Bool.or_eq_true, isInf_iff, isInf_iff] at hi
        unfold NoNan at h
        have h' : a.toE ≠ 0 ∧ b.toE ≠ 0 := by tauto
        rcases lt_or_gt_of_ne h'.1 with ga | ga <;> rcases lt_or_gt_of_ne h'.2 with gb | gb <;>
          rcases hi with (hi | hi) | (hi | hi) <;> rw [hi] at * <;>
          simp_all [EReal.top_mul_of_pos, EReal.top_mul_of_neg, EReal.bot_mul_of_pos, EReal.bot_mul_of_neg,
            EReal.mul_top_of_pos, EReal.mul_top_of_neg, EReal.mul_bot_of_pos, EReal.mul_bot_of_neg]
      rcases hinf with g | g <;> rw [g] at h3 ⊢ <;> simpa using h3.symm
    have := φ.add_spec m (a := FP.mkInf (a.signbit != b.signbit)) (b := c) (FP.mkInf_ne_nan _) hc
      (by rw [hpe]; exact h1) (by rw [hpe]; exact h2)
    rw [hpe] at this
    exact this
  · rw [if_neg hi]
    simp only [Bool.or_eq_true, not_or, Bool.not_eq_true] at hi
    have e1 := hfin a ha hi.1
    have e2 := hfin b hb hi.2
    by_cases hci : c.isInf = true
    · rw [if_pos hci]
      refine ⟨hc, ?_⟩
      rw [e1, e2, ← EReal.coe_mul]
      rcases isInf_iff.mp hci with g | g
      · rw [g, EReal.coe_add_top, rndE_top]
      · rw [g, EReal.add_bot, rndE_bot]
    · rw [if_neg hci]
      have e3 := hfin c hc (by simpa using hci)
      have e : a.toE * b.toE + c.toE = (((a.q * b.q + c.q : ℚ):ℝ):EReal) := by
        rw [e1, e2, e3, ← EReal.coe_mul, ← EReal.coe_add]; push_cast; rfl
      rw [e]
      split_ifs with g1 g2
      · exact ⟨FP.mkZero_ne_nan _, by rw [g1]; simp⟩
      · exact ⟨FP.mkZero_ne_nan _, by rw [g1]; simp⟩
      · exact ⟨φ.round_rat_ne_nan m _, by rw [rndE_rat]⟩

end Fmt
end P1788
