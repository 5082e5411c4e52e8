import Verif.Lemmas.Interval
import Verif.Model.Mpfr
import Mathlib.Data.EReal.Inv

/-! Helper lemmas: MPFR operations compute the rounded extended-real operation. -/

namespace P1788
open FP

namespace Fmt
variable (φ : Fmt) (m : Rnd)

/-- Rounding on extended reals. -/
noncomputable def rndE (x : EReal) : EReal :=
  if x = ⊥ then ⊥ else if x = ⊤ then ⊤ else (φ.round m x.toReal).toE

theorem rndE_D : φ.rndE .D = φ.rdE := rfl
theorem rndE_U : φ.rndE .U = φ.ruE := rfl
@[simp] theorem rndE_bot : φ.rndE m ⊥ = ⊥ := by simp [rndE]
@[simp] theorem rndE_top : φ.rndE m ⊤ = ⊤ := by simp [rndE]
theorem rndE_coe (x : ℝ) : φ.rndE m (x : EReal) = (φ.round m x).toE := by simp [rndE]
@[simp] theorem rndE_zero : φ.rndE m 0 = 0 := by
  have := φ.rndE_coe m 0; simpa using this
theorem rndE_rat (x : ℚ) : φ.rndE m ((x:ℝ) : EReal) = (φ.round m x).toE := by
  rw [rndE_coe, round_cast]

theorem round_rat_ne_nan (x : ℚ) : φ.round m x ≠ .nan := by
  rw [← round_cast]; exact φ.round_ne_nan m _
theorem round_rat_in (x : ℚ) : (φ.round m x).In φ := by
  rw [← round_cast]; exact φ.round_in m _
theorem mkInf_in (s : Bool) : (FP.mkInf s).In φ := by cases s <;> simp [FP.mkInf, FP.In]

theorem add_in (a b : FP) : (φ.add m a b).In φ := by
  unfold add
  split <;> try (exact trivial)
  split_ifs
  · exact φ.mkZero_in _
  · exact φ.mkZero_in _
  · exact φ.round_rat_in m _

theorem add_fin_aux (a b : FP) (h : ((a.q:ℝ):EReal) = a.toE) (h' : ((b.q:ℝ):EReal) = b.toE) :
    let r := if a.q + b.q = 0 then
      (if a.signbit == b.signbit then FP.mkZero a.signbit else FP.mkZero (decide (m = .D)))
      else φ.round m (a.q + b.q)
    r ≠ .nan ∧ r.toE = φ.rndE m (a.toE + b.toE) := by
  have hs : a.toE + b.toE = (((a.q + b.q : ℚ) : ℝ) : EReal) := by
    rw [← h, ← h', ← EReal.coe_add]; push_cast; rfl
  simp only
  split_ifs with h1 h2
  · exact ⟨FP.mkZero_ne_nan _, by rw [hs, h1]; simp⟩
  · exact ⟨FP.mkZero_ne_nan _, by rw [hs, h1]; simp⟩
  · exact ⟨φ.round_rat_ne_nan m _, by rw [hs, rndE_rat]⟩

theorem add_spec {a b : FP} (ha : a ≠ .nan) (hb : b ≠ .nan)
    (h1 : ¬(a.toE = ⊥ ∧ b.toE = ⊤)) (h2 : ¬(a.toE = ⊤ ∧ b.toE = ⊥)) :
    φ.add m a b ≠ .nan ∧ (φ.add m a b).toE = φ.rndE m (a.toE + b.toE) := by
  have haux := φ.add_fin_aux m a b
  cases a <;> cases b <;>
    first
    | (exact absurd rfl ha)
    | (exact absurd rfl hb)
    | (exfalso; simp at h1; done)
    | (exfalso; simp at h2; done)
    | (simp [add]; done)
    | (exact haux (by simp [FP.q]) (by simp [FP.q]))

theorem sub_in (a b : FP) : (φ.sub m a b).In φ := φ.add_in m _ _

theorem sub_spec {a b : FP} (ha : a ≠ .nan) (hb : b ≠ .nan)
    (h1 : ¬(a.toE = ⊥ ∧ b.toE = ⊥)) (h2 : ¬(a.toE = ⊤ ∧ b.toE = ⊤)) :
    φ.sub m a b ≠ .nan ∧ (φ.sub m a b).toE = φ.rndE m (a.toE - b.toE) := by
  have := φ.add_spec m (a := a) (b := b.neg) ha (by simpa using hb)
    (by simpa using h1) (by simpa using h2)
  simpa [sub, sub_eq_add_neg] using this

theorem mul_in (a b : FP) : (φ.mul m a b).In φ := by
  unfold mul
  split <;> try (exact trivial)
  split_ifs
  · exact trivial
  · exact φ.mkInf_in _
  · exact φ.mkZero_in _
  · exact φ.round_rat_in m _

theorem isZero_iff {a : FP} (ha : a ≠ .nan) : a.isZero = true ↔ a.toE = 0 := by
  cases a <;> simp_all [FP.isZero]
theorem isInf_iff {a : FP} : a.isInf = true ↔ a.toE = ⊤ ∨ a.toE = ⊥ := by
  cases a <;> simp [FP.isInf, FP.toE]

theorem mul_spec {a b : FP} (ha : a ≠ .nan) (hb : b ≠ .nan)
    (h1 : a.toE = 0 → b.toE ≠ ⊤ ∧ b.toE ≠ ⊥) (h2 : b.toE = 0 → a.toE ≠ ⊤ ∧ a.toE ≠ ⊥) :
    φ.mul m a b ≠ .nan ∧ (φ.mul m a b).toE = φ.rndE m (a.toE * b.toE) := by
  have hc : ¬((a.isInf && b.isZero) || (a.isZero && b.isInf)) = true := by
    simp only [Bool.or_eq_true, Bool.and_eq_true, isZero_iff ha, isZero_iff hb, isInf_iff]
    tauto
  have hm : φ.mul m a b = if a.isInf || b.isInf then FP.mkInf (a.signbit != b.signbit)
    else if a.isZero || b.isZero then FP.mkZero (a.signbit != b.signbit)
    else φ.round m (a.q * b.q) := by
    unfold mul
    cases a <;> cases b <;> first | (exact absurd rfl ha) | (exact absurd rfl hb) | (simp only [if_neg hc])
  rw [hm]
  split_ifs with h3 h4
  · refine ⟨FP.mkInf_ne_nan _, ?_⟩
    have key : ∀ q : ℚ, q ≠ 0 → (⊤ : EReal) * ((q:ℝ):EReal) = (if q < 0 then ⊥ else ⊤) ∧
        (⊥ : EReal) * ((q:ℝ):EReal) = (if q < 0 then ⊤ else ⊥) := by
      intro q hq
      rcases lt_or_gt_of_ne hq with h | h
      · have h' : (q:ℝ) < 0 := by exact_mod_cast h
        simp [h, EReal.top_mul_coe_of_neg h', EReal.bot_mul_coe_of_neg h']
      · have h' : (0:ℝ) < q := by exact_mod_cast h
        simp [h.le, EReal.top_mul_coe_of_pos h', EReal.bot_mul_coe_of_pos h']
    cases a <;> cases b <;>
      first
      | (exact absurd rfl ha)
      | (exact absurd rfl hb)
      | (simp [FP.isInf] at h3; done)
      | (simp at h1; done)
      | (simp at h2; done)
      | (simp [FP.mkInf, FP.signbit]; done)
      | (rename_i q
         have hq : q ≠ 0 := by rintro rfl; simp at h2
         obtain ⟨k1, k2⟩ := key q hq
         simp only [FP.toE_fin, FP.toE_pinf, FP.toE_ninf, k1, k2]
         by_cases h : q < 0 <;> simp [FP.mkInf, FP.signbit, h])
      | (rename_i q
         have hq : q ≠ 0 := by rintro rfl; simp at h1
         obtain ⟨k1, k2⟩ := key q hq
         simp only [FP.toE_fin, FP.toE_pinf, FP.toE_ninf, mul_comm _ (⊤:EReal), mul_comm _ (⊥:EReal), k1, k2]
         by_cases h : q < 0 <;> simp [FP.mkInf, FP.signbit, h])
  · refine ⟨FP.mkZero_ne_nan _, ?_⟩
    rw [Bool.or_eq_true, isZero_iff ha, isZero_iff hb] at h4
    rw [FP.toE_mkZero]
    rcases h4 with h | h <;> simp [h]
  · refine ⟨φ.round_rat_ne_nan m _, ?_⟩
    have hfin : ∀ c : FP, c ≠ .nan → c.isInf = false → c.toE = ((c.q:ℝ):EReal) := by
      intro c hc hi
      cases c <;> simp_all [FP.isInf, FP.q]
    simp only [Bool.or_eq_true, not_or, Bool.not_eq_true] at h3
    rw [hfin a ha h3.1, hfin b hb h3.2, ← EReal.coe_mul, ← rndE_rat]
    push_cast; rfl

theorem div_in (a b : FP) : (φ.div m a b).In φ := by
  unfold div
  split <;> try (exact trivial)
  split_ifs
  · exact trivial
  · exact φ.mkInf_in _
  · exact φ.mkZero_in _
  · exact φ.round_rat_in m _

theorem div_spec {a b : FP} (ha : a ≠ .nan) (hb : b ≠ .nan) (hb0 : b.toE ≠ 0)
    (h1 : (a.toE = ⊤ ∨ a.toE = ⊥) → b.toE ≠ ⊤ ∧ b.toE ≠ ⊥) :
    φ.div m a b ≠ .nan ∧ (φ.div m a b).toE = φ.rndE m (a.toE / b.toE) := by
  have hbz : b.isZero = false := by rw [← Bool.not_eq_true, isZero_iff hb]; exact hb0
  have hc : ¬((a.isInf && b.isInf) || (a.isZero && b.isZero)) = true := by
    simp only [Bool.or_eq_true, Bool.and_eq_true, hbz, isInf_iff]
    simp; tauto
  have hm : φ.div m a b = if a.isInf || b.isZero then FP.mkInf (a.signbit != b.signbit)
    else if a.isZero || b.isInf then FP.mkZero (a.signbit != b.signbit)
    else φ.round m (a.q / b.q) := by
    unfold div
    cases a <;> cases b <;> first | (exact absurd rfl ha) | (exact absurd rfl hb) | (simp only [if_neg hc])
  have hfin : ∀ c : FP, c ≠ .nan → c.isInf = false → c.toE = ((c.q:ℝ):EReal) := by
    intro c hc hi
    cases c <;> simp_all [FP.isInf, FP.q]
  rw [hm, hbz]
  simp only [Bool.or_false]
  split_ifs with h3 h4
  · refine ⟨FP.mkInf_ne_nan _, ?_⟩
    have hbf := h1 (isInf_iff.mp h3)
    have hbi : b.isInf = false := by rw [← Bool.not_eq_true, isInf_iff]; tauto
    have hbq := hfin b hb hbi
    rw [hbq, EReal.div_eq_inv_mul, ← EReal.coe_inv]
    have hq0 : b.q ≠ 0 := by
      intro h; rw [hbq, h] at hb0; simp at hb0
    have hsb : b.signbit = decide (b.q < 0) := by
      clear hfin hm hc h1 hbq
      cases b with
      | fin q => rfl
      | nan => exact absurd rfl hb
      | _ => simp [FP.q] at hq0
    rcases lt_or_gt_of_ne hq0 with h | h
    · have h' : ((b.q:ℝ))⁻¹ < 0 := by rw [inv_lt_zero]; exact_mod_cast h
      cases a <;> simp [FP.isInf] at h3
      · rw [hsb]; simp [FP.mkInf, show FP.signbit .ninf = true from rfl, h, EReal.coe_mul_bot_of_neg h']
      · rw [hsb]; simp [FP.mkInf, show FP.signbit .pinf = false from rfl, h, EReal.coe_mul_top_of_neg h']
    · have h' : 0 < ((b.q:ℝ))⁻¹ := by rw [inv_pos]; exact_mod_cast h
      have h'' : ¬ b.q < 0 := by linarith
      cases a <;> simp [FP.isInf] at h3
      · rw [hsb]; simp [FP.mkInf, show FP.signbit .ninf = true from rfl, h'', EReal.coe_mul_bot_of_pos h']
      · rw [hsb]; simp [FP.mkInf, show FP.signbit .pinf = false from rfl, h'', EReal.coe_mul_top_of_pos h']
  · refine ⟨FP.mkZero_ne_nan _, ?_⟩
    rw [Bool.or_eq_true, isZero_iff ha, isInf_iff] at h4
    rw [FP.toE_mkZero]
    rcases h4 with h | h | h
    · simp [h]
    · simp [h]
    · simp [h]
  · refine ⟨φ.round_rat_ne_nan m _, ?_⟩
    simp only [Bool.or_eq_true, not_or, Bool.not_eq_true] at h4
    simp only [Bool.not_eq_true] at h3
    rw [hfin a ha h3, hfin b hb h4.2, ← EReal.coe_div, ← rndE_rat]
    push_cast; rfl

end Fmt
end P1788
