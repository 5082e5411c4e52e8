import Verif.Lemmas.Mpfr

/-! Helper lemmas: rounding to nearest. -/

namespace P1788

theorem roundInt_int (m : Rnd) (k : ℤ) : roundInt m ((k:ℤ):ℝ) = k := by
  cases m <;> simp [roundInt]

namespace Fmt
variable (φ : Fmt)

theorem roundQ_rep {m : Rnd} {q : ℚ} (h : φ.Rep q) : φ.roundQ m (q:ℝ) = q := by
  rcases eq_or_ne q 0 with rfl | hq
  · simp [roundQ, roundInt_int m 0, show roundInt m (0:ℝ) = 0 by simpa using roundInt_int m 0]
  obtain ⟨k, hk⟩ := φ.exists_mult h (x := (q:ℝ)) (Or.inr (Int.zpow_log_le_self (by norm_num) (by
    rw [abs_pos]; exact_mod_cast hq)))
  unfold roundQ
  have h2 := two_zpow_posR (φ.expo (q:ℝ))
  have : (q:ℝ) / 2 ^ φ.expo (q:ℝ) = (k:ℝ) := by
    rw [div_eq_iff h2.ne']
    revert hk
    generalize φ.expo (q:ℝ) = e
    rintro rfl
    push_cast; ring
  rw [this, roundInt_int, ← hk]

theorem round_rep_toE {m : Rnd} {q : ℚ} (h : φ.Rep q) : (φ.round m (q:ℝ)).toE = ((q:ℝ):EReal) := by
  unfold round
  rw [φ.roundQ_rep h]
  have := abs_le.mp h.abs_le
  rw [if_neg (not_lt.mpr this.2), if_neg (not_lt.mpr this.1)]
  split_ifs with h0
  · rw [FP.toE_mkZero, h0]; simp
  · rfl

theorem rndE_in {m : Rnd} {a : FP} (h : a.In φ) (hn : a ≠ .nan) : φ.rndE m a.toE = a.toE := by
  cases a with
  | nan => exact absurd rfl hn
  | ninf => simp [rndE_bot]
  | pinf => simp [rndE_top]
  | nzero => simp [rndE_zero]
  | fin q => rw [FP.toE_fin, rndE_coe, φ.round_rep_toE h]

end Fmt
end P1788
