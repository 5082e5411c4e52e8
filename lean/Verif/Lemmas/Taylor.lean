import Mathlib.Analysis.SpecialFunctions.Trigonometric.Basic
import Mathlib.Analysis.Complex.Exponential
import Mathlib.Analysis.Complex.Trigonometric

/-! # Taylor bounds for sine and cosine -/

namespace P1788
open Real Finset

/-- Taylor polynomial of the cosine. -/
noncomputable def cosT (n : ℕ) (x : ℝ) : ℝ := ∑ k ∈ range n, (-1) ^ k * x ^ (2 * k) / (2 * k).factorial
/-- Taylor polynomial of the sine. -/
noncomputable def sinT (n : ℕ) (x : ℝ) : ℝ := ∑ k ∈ range n, (-1) ^ k * x ^ (2 * k + 1) / (2 * k + 1).factorial

theorem exp_sum_split (n : ℕ) (x : ℝ) :
    ∑ m ∈ range (2 * n), ((x:ℂ) * Complex.I) ^ m / (m.factorial : ℂ) = (cosT n x : ℂ) + (sinT n x : ℂ) * Complex.I := by
  induction n with
  | zero => simp [cosT, sinT]
  | succ n ih =>
    rw [show 2 * (n + 1) = 2 * n + 1 + 1 by ring, sum_range_succ, sum_range_succ, ih]
    unfold cosT sinT
    rw [sum_range_succ, sum_range_succ]
    push_cast
    have e : ((x:ℂ) * Complex.I) ^ (2 * n) = (-1) ^ n * (x:ℂ) ^ (2 * n) := by
      rw [mul_pow, pow_mul Complex.I, Complex.I_sq]; ring
    rw [pow_succ, e]
    ring

theorem taylor_bound (n : ℕ) (hn : 0 < n) {x : ℝ} (hx : |x| ≤ 1) :
    |cos x - cosT n x| ≤ |x| ^ (2 * n) * (((2 * n).succ : ℝ) * ((2 * n).factorial * (2 * n : ℕ) : ℝ)⁻¹) ∧
    |sin x - sinT n x| ≤ |x| ^ (2 * n) * (((2 * n).succ : ℝ) * ((2 * n).factorial * (2 * n : ℕ) : ℝ)⁻¹) := by
  have h := Complex.exp_bound (x := (x:ℂ) * Complex.I) (by simpa using hx) (n := 2 * n) (by omega)
  rw [exp_sum_split, Complex.exp_mul_I] at h
  have hn : ‖(x:ℂ) * Complex.I‖ = |x| := by simp
  rw [hn] at h
  have e : Complex.cos x + Complex.sin x * Complex.I - ((cosT n x : ℂ) + (sinT n x : ℂ) * Complex.I) =
      ((cos x - cosT n x : ℝ) : ℂ) + ((sin x - sinT n x : ℝ) : ℂ) * Complex.I := by
    push_cast; ring
  rw [e] at h
  have r : ∀ u v : ℝ, |u| ≤ ‖(u:ℂ) + (v:ℂ) * Complex.I‖ ∧ |v| ≤ ‖(u:ℂ) + (v:ℂ) * Complex.I‖ := fun u v =>
    ⟨by simpa using Complex.abs_re_le_norm ((u:ℂ) + (v:ℂ) * Complex.I),
     by simpa using Complex.abs_im_le_norm ((u:ℂ) + (v:ℂ) * Complex.I)⟩
  exact ⟨(r _ _).1.trans h, (r _ _).2.trans h⟩

end P1788
