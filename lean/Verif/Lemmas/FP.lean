import Verif.Model.Round
import Mathlib.Data.EReal.Operations
import Mathlib.Tactic.Linarith

/-! Helper lemmas: floating-point data as extended reals. -/

namespace P1788

namespace FP

/-- Value of a datum as an extended real (NaN: junk value 0, always guarded by `a ≠ nan`). -/
noncomputable def toE : FP → EReal
  | nan => 0
  | ninf => ⊥
  | pinf => ⊤
  | nzero => 0
  | fin q => ((q : ℝ) : EReal)

@[simp] theorem toE_ninf : toE ninf = ⊥ := rfl
@[simp] theorem toE_pinf : toE pinf = ⊤ := rfl
@[simp] theorem toE_nzero : toE nzero = 0 := rfl
@[simp] theorem toE_fin (q : ℚ) : toE (fin q) = ((q : ℝ) : EReal) := rfl

theorem lt_def (a b : FP) : a < b ↔ a.ltb b = true := Iff.rfl
theorem le_def (a b : FP) : a ≤ b ↔ a.leb b = true := Iff.rfl

@[simp] theorem not_lt_nan (a : FP) : ¬ a < nan := by cases a <;> simp [lt_def, ltb]
@[simp] theorem not_nan_lt (a : FP) : ¬ nan < a := by cases a <;> simp [lt_def, ltb]
@[simp] theorem not_le_nan (a : FP) : ¬ a ≤ nan := by cases a <;> simp [le_def, leb]
@[simp] theorem not_nan_le (a : FP) : ¬ nan ≤ a := by cases a <;> simp [le_def, leb]

theorem lt_iff {a b : FP} (ha : a ≠ nan) (hb : b ≠ nan) : a < b ↔ a.toE < b.toE := by
  cases a <;> cases b <;> simp_all [lt_def, ltb]

theorem le_iff {a b : FP} (ha : a ≠ nan) (hb : b ≠ nan) : a ≤ b ↔ a.toE ≤ b.toE := by
  cases a <;> cases b <;> simp_all [le_def, leb]

theorem lt_iff' {a b : FP} : a < b ↔ a ≠ nan ∧ b ≠ nan ∧ a.toE < b.toE := by
  by_cases ha : a = nan
  · simp [ha]
  by_cases hb : b = nan
  · simp [hb]
  simp [ha, hb, lt_iff]

theorem le_iff' {a b : FP} : a ≤ b ↔ a ≠ nan ∧ b ≠ nan ∧ a.toE ≤ b.toE := by
  by_cases ha : a = nan
  · simp [ha]
  by_cases hb : b = nan
  · simp [hb]
  simp [ha, hb, le_iff]

theorem feq_iff' {a b : FP} : a.feq b = true ↔ a ≠ nan ∧ b ≠ nan ∧ a.toE = b.toE := by
  unfold feq
  rw [Bool.and_eq_true, ← le_def, ← le_def, le_iff', le_iff', le_antisymm_iff]
  tauto

theorem feq_iff {a b : FP} (ha : a ≠ nan) (hb : b ≠ nan) : a.feq b = true ↔ a.toE = b.toE := by
  simp [feq_iff', ha, hb]

@[simp] theorem neg_eq_nan {a : FP} : a.neg = nan ↔ a = nan := by
  cases a <;> simp [neg]
  split <;> simp

@[simp] theorem toE_neg (a : FP) : a.neg.toE = - a.toE := by
  cases a with
  | fin q =>
    by_cases h : q = 0
    · simp [neg, h]
    · simp [neg, h]
  | _ => simp [neg, toE]

@[simp] theorem toE_abs (a : FP) : a.abs.toE = max a.toE (-a.toE) := by
  cases a with
  | fin q =>
    rcases le_total 0 q with h | h
    · have h' : (0:ℝ) ≤ q := by exact_mod_cast h
      have : -((q:ℝ):EReal) ≤ ((q:ℝ):EReal) := by
        rw [← EReal.coe_neg, EReal.coe_le_coe_iff]; linarith
      simp [abs, abs_of_nonneg h, max_eq_left this]
    · have h' : (q:ℝ) ≤ 0 := by exact_mod_cast h
      have : ((q:ℝ):EReal) ≤ -((q:ℝ):EReal) := by
        rw [← EReal.coe_neg, EReal.coe_le_coe_iff]; linarith
      simp [abs, abs_of_nonpos h, max_eq_right this]
  | _ => simp [abs, toE]

@[simp] theorem abs_eq_nan {a : FP} : a.abs = nan ↔ a = nan := by
  cases a <;> simp [abs]

theorem mkZero_ne_nan (s : Bool) : mkZero s ≠ nan := by cases s <;> simp [mkZero]
theorem mkInf_ne_nan (s : Bool) : mkInf s ≠ nan := by cases s <;> simp [mkInf]
@[simp] theorem toE_mkZero (s : Bool) : (mkZero s).toE = 0 := by cases s <;> simp [mkZero]
theorem toE_mkInf (s : Bool) : (mkInf s).toE = if s then ⊥ else ⊤ := by cases s <;> simp [mkInf]

theorem stdMin_ne_nan {a b : FP} (ha : a ≠ nan) (hb : b ≠ nan) : stdMin a b ≠ nan := by
  unfold stdMin; split <;> assumption
theorem stdMax_ne_nan {a b : FP} (ha : a ≠ nan) (hb : b ≠ nan) : stdMax a b ≠ nan := by
  unfold stdMax; split <;> assumption

theorem toE_stdMin {a b : FP} (ha : a ≠ nan) (hb : b ≠ nan) :
    (stdMin a b).toE = min a.toE b.toE := by
  unfold stdMin
  split
  · rename_i h; rw [lt_iff hb ha] at h; exact (min_eq_right h.le).symm
  · rename_i h; rw [lt_iff hb ha, not_lt] at h; exact (min_eq_left h).symm

theorem toE_stdMax {a b : FP} (ha : a ≠ nan) (hb : b ≠ nan) :
    (stdMax a b).toE = max a.toE b.toE := by
  unfold stdMax
  split
  · rename_i h; rw [lt_iff ha hb] at h; exact (max_eq_right h.le).symm
  · rename_i h; rw [lt_iff ha hb, not_lt] at h; exact (max_eq_left h).symm

end FP

end P1788
