import Verif.Lemmas.RevNear2
import Verif.Lemmas.RevTrig4
import Verif.Lemmas.Reduction
import Mathlib.Analysis.Real.Pi.Irrational

/-! # The ends of wide-ranging `x` are kept by `sin_rev`, `cos_rev`, `tan_rev`

Beyond `2^(p+1)` the boxes computed for a branch are wider than the distance of the numbers: the box contains the end
of `x` itself. -/

namespace P1788
open Real

variable {φ : Fmt} {x : Itv}

/-- Numbers of the format of magnitude at least `2^e` are multiples of `2^(e+1-p)`. -/
theorem rep_mult {R : ℚ} {e : ℤ} (h : φ.Rep R) (hR : (2:ℚ) ^ e ≤ |R|) : ∃ m : ℤ, R = m * 2 ^ (e + 1 - φ.p) := by
  obtain ⟨m, e0, rfl, hm, hq, -⟩ := h
  have h2 : (2:ℚ) ^ e < 2 ^ ((φ.p:ℤ) + e0) := by
    rw [abs_mul, abs_of_pos (zpow_pos (by norm_num) e0 : (0:ℚ) < 2 ^ e0)] at hR
    have : ((|m| : ℤ) : ℚ) < 2 ^ φ.p := by exact_mod_cast hm
    rw [Int.cast_abs] at this
    calc (2:ℚ) ^ e ≤ |(m:ℚ)| * 2 ^ e0 := hR
      _ < 2 ^ φ.p * 2 ^ e0 := mul_lt_mul_of_pos_right this (zpow_pos (by norm_num) _)
      _ = _ := by rw [zpow_add₀ (by norm_num), zpow_natCast]
  have h3 : e < (φ.p:ℤ) + e0 := (zpow_lt_zpow_iff_right₀ (by norm_num)).mp h2
  obtain ⟨i, hi⟩ := Int.eq_ofNat_of_zero_le (show 0 ≤ e0 - (e + 1 - φ.p) by omega)
  refine ⟨m * 2 ^ i, ?_⟩
  push_cast
  rw [mul_assoc, ← zpow_natCast, ← zpow_add₀ (by norm_num)]
  congr 2; omega

theorem mult_gap {a b g : ℚ} (hg : 0 < g) (ha : ∃ m : ℤ, a = m * g) (hb : ∃ m : ℤ, b = m * g) (h : a < b) : a + g ≤ b := by
  obtain ⟨m, rfl⟩ := ha
  obtain ⟨k, rfl⟩ := hb
  have h1 : (m:ℚ) < k := lt_of_mul_lt_mul_right h hg.le
  have h2 : (m:ℚ) + 1 ≤ k := by exact_mod_cast h1
  nlinarith

theorem rep_gap_pos {a R : ℚ} {e : ℤ} (ha : φ.Rep a) (hR : φ.Rep R) (h1 : (2:ℚ) ^ e < a) :
    (R < a → R ≤ a - 2 ^ (e + 1 - φ.p)) ∧ (a < R → a + 2 ^ (e + 1 - φ.p) ≤ R) := by
  have hg : (0:ℚ) < 2 ^ (e + 1 - φ.p) := zpow_pos (by norm_num) _
  have h0 : (0:ℚ) < 2 ^ e := zpow_pos (by norm_num) _
  have ma := rep_mult ha (e := e) (by rw [abs_of_pos (by linarith)]; exact h1.le)
  constructor
  · intro h
    rcases le_or_gt ((2:ℚ) ^ e) R with h2 | h2
    · have := mult_gap hg (rep_mult hR (by rw [abs_of_pos (by linarith)]; exact h2)) ma h
      linarith
    · have mp : ∃ m : ℤ, (2:ℚ) ^ e = m * 2 ^ (e + 1 - φ.p) := by
        obtain ⟨i, hi⟩ := Int.eq_ofNat_of_zero_le (show 0 ≤ (φ.p:ℤ) - 1 by have := φ.p_pos; omega)
        refine ⟨2 ^ i, ?_⟩
        push_cast
        rw [← zpow_natCast, ← zpow_add₀ (by norm_num)]
        congr 1; omega
      have := mult_gap hg mp ma h1
      linarith
  · intro h
    exact mult_gap hg ma (rep_mult hR (by rw [abs_of_pos (by linarith)]; linarith)) h

/-- The distance of neighbours of `a`. -/
theorem rep_gap {a R : ℚ} {e : ℤ} (ha : φ.Rep a) (hR : φ.Rep R) (h1 : (2:ℚ) ^ e < |a|) :
    (R < a → R ≤ a - 2 ^ (e + 1 - φ.p)) ∧ (a < R → a + 2 ^ (e + 1 - φ.p) ≤ R) := by
  rcases le_or_gt 0 a with h | h
  · exact rep_gap_pos ha hR (by rwa [abs_of_nonneg h] at h1)
  · obtain ⟨g1, g2⟩ := rep_gap_pos ha.neg hR.neg (by rwa [abs_of_neg h] at h1)
    exact ⟨fun h => by have := g2 (by linarith); linarith, fun h => by have := g1 (by linarith); linarith⟩

theorem pi_apart (φ : Fmt) : (2:ℚ) ^ (2 - (φ.p:ℤ)) ≤ (φ.constPi .U).q - (φ.constPi .D).q := by
  have h3 := φ.three_le_pid
  have rep : ∀ m, φ.Rep (φ.constPi m).q := fun m => by
    rw [φ.pi_q]
    refine φ.rep_roundQ (φ.roundQ_le_maxFin ?_)
    have h : (256:ℝ) ≤ φ.maxFin := by exact_mod_cast maxFin_256 φ
    rw [abs_of_pos pi_pos]; linarith [pi_lt_four]
  have hne : (φ.constPi .D).q < (φ.constPi .U).q := by
    refine lt_of_le_of_ne φ.pid_le_piu fun h => irrational_pi ⟨(φ.constPi .D).q, le_antisymm φ.pid_le ?_⟩
    rw [h]; exact φ.le_piu
  have := (rep_gap (e := 1) (rep .D) (rep .U) (by rw [abs_of_pos (by linarith)]; norm_num; linarith)).2 hne
  norm_num at this
  linarith

/-- The number of periods as it is stored. -/
noncomputable def rk (φ : Fmt) (m : ℤ) : ℚ := (φ.round .N (m:ℚ)).q

theorem rk_eq {m : ℤ} (h : ((|m| : ℤ) : ℚ) ≤ φ.maxFin) : rk φ m = φ.roundQ .N ((m:ℚ):ℝ) := by
  have hk : |((m:ℚ):ℝ)| ≤ φ.maxFin := by
    rw [Int.cast_abs] at h
    have : ((|(m:ℚ)| : ℚ) : ℝ) ≤ φ.maxFin := by exact_mod_cast h
    push_cast at this ⊢
    exact this
  have hm := φ.roundQ_le_maxFin (m := .N) hk
  rw [Fmt.roundQ_cast] at hm ⊢
  rw [abs_le] at hm
  simp only [rk, Fmt.round]
  rw [if_neg (by linarith), if_neg (by linarith)]
  split_ifs with h0
  · rw [h0]; cases decide ((m:ℚ) < 0) <;> rfl
  · rfl

theorem rk_neg {m : ℤ} (h : ((|m| : ℤ) : ℚ) ≤ φ.maxFin) : rk φ (-m) = -rk φ m := by
  rw [rk_eq h, rk_eq (by rwa [abs_neg])]
  push_cast
  exact φ.roundQ_N_neg _

theorem rk_near {m : ℤ} {e : ℤ} (he : (φ.p:ℤ) ≤ e) (hm : (|m| : ℝ) ≤ 2 ^ e) (hM : (2:ℚ) ^ e ≤ φ.maxFin) :
    |(rk φ m : ℝ) - m| ≤ 2 ^ (e + 1 - φ.p) / 4 := by
  have hmM : ((|m| : ℤ) : ℚ) ≤ φ.maxFin := by
    have : ((|m| : ℤ) : ℚ) ≤ 2 ^ e := by
      have h : (((|m| : ℤ) : ℚ) : ℝ) ≤ (((2:ℚ) ^ e : ℚ) : ℝ) := by push_cast; exact hm
      exact_mod_cast h
    exact this.trans hM
  rw [rk_eq hmM]
  have hg : (0:ℝ) < 2 ^ (e - φ.p) := zpow_pos (by norm_num) _
  have e1 : (2:ℝ) ^ e = 2 ^ φ.p * 2 ^ (e - φ.p) := by
    rw [← zpow_natCast, ← zpow_add₀ (by norm_num)]; congr 1; omega
  have hr := abs_sub_round ((m:ℝ) / 2 ^ (e - φ.p))
  set j := round ((m:ℝ) / 2 ^ (e - φ.p)) with hj
  have hjm : |(j:ℝ) * 2 ^ (e - φ.p) - m| ≤ 2 ^ (e - φ.p) / 2 := by
    have : (j:ℝ) * 2 ^ (e - φ.p) - m = -(((m:ℝ) / 2 ^ (e - φ.p) - j) * 2 ^ (e - φ.p)) := by
      field_simp; ring
    rw [this, abs_neg, abs_mul, abs_of_pos hg]
    nlinarith
  have hj2 : |j| ≤ 2 ^ φ.p := by
    have h1 : |(m:ℝ) / 2 ^ (e - φ.p)| ≤ 2 ^ φ.p := by
      rw [abs_div, abs_of_pos hg, div_le_iff₀ hg, ← e1]; exact hm
    obtain ⟨a1, a2⟩ := abs_le.mp h1
    obtain ⟨b1, b2⟩ := abs_le.mp hr
    rw [abs_le]
    constructor
    · have : -((2:ℝ) ^ φ.p) - 1 < j := by linarith
      have : (-(2 ^ φ.p) - 1 : ℤ) < j := by exact_mod_cast this
      omega
    · have : (j:ℝ) < 2 ^ φ.p + 1 := by linarith
      have : j < (2 ^ φ.p + 1 : ℤ) := by exact_mod_cast this
      omega
  have hrep : φ.Rep ((j:ℚ) * 2 ^ (e - φ.p)) := by
    refine φ.rep_of_le hj2 (by have := φ.qmin_le; have := φ.p_pos; omega) ?_
    rw [abs_mul, abs_of_pos (zpow_pos (by norm_num) _ : (0:ℚ) < 2 ^ (e - φ.p))]
    have : |(j:ℚ)| ≤ 2 ^ φ.p := by exact_mod_cast hj2
    have e2 : (2:ℚ) ^ e = 2 ^ φ.p * 2 ^ (e - φ.p) := by
      rw [← zpow_natCast, ← zpow_add₀ (by norm_num)]; congr 1; omega
    calc |(j:ℚ)| * 2 ^ (e - φ.p) ≤ 2 ^ φ.p * 2 ^ (e - φ.p) := mul_le_mul_of_nonneg_right this (zpow_pos (by norm_num) _).le
      _ ≤ _ := by rw [← e2]; exact hM
  have := φ.roundQ_N_nearest ((m:ℚ):ℝ) hrep
  push_cast at this ⊢
  refine this.trans (hjm.trans (le_of_eq ?_))
  rw [show e + 1 - (φ.p:ℤ) = (e - φ.p) + 1 by ring, zpow_add₀ (by norm_num), zpow_one]; ring

theorem rk_even {m : ℤ} (h2 : Even m) (hm : |m| ≤ 2 ^ (φ.p + 1)) (hM : (2:ℚ) ^ (φ.p + 1) ≤ φ.maxFin) : rk φ m = m := by
  have hmq : ((|m| : ℤ) : ℚ) ≤ 2 ^ (φ.p + 1) := by exact_mod_cast hm
  rw [rk_eq (hmq.trans hM)]
  obtain ⟨j, rfl⟩ := h2
  have hrep : φ.Rep ((j + j : ℤ) : ℚ) := by
    have := φ.rep_of_le (m := j) (e := 1) (by
      rw [pow_succ, show j + j = j * 2 by ring, abs_mul] at hm
      norm_num at hm; linarith) (by have := φ.qmin_le; have := φ.p_pos; omega) (by
      have e : (j:ℚ) * 2 ^ (1:ℤ) = ((j + j : ℤ) : ℚ) := by push_cast; ring
      rw [e]; push_cast at hmq ⊢; linarith)
    have e : (j:ℚ) * 2 ^ (1:ℤ) = ((j + j : ℤ) : ℚ) := by push_cast; ring
    rwa [e] at this
  exact φ.roundQ_rep hrep

/-- The bounds of a moved box, for any number of periods. -/
theorem shift_enc' {k : ℤ} {a b cl cu : FP} :
    φ.Enc (φ.shiftBox k a b cl cu) (rk φ k * a.q + cl.q) (rk φ k * b.q + cu.q) := by
  obtain ⟨n1, v1, i1⟩ := conv_spec φ .D (φ.fmaNS_ne_nan .D (φ.round .N (k:ℚ)) a cl)
  obtain ⟨n2, v2, i2⟩ := conv_spec φ .U (φ.fmaNS_ne_nan .U (φ.round .N (k:ℚ)) b cu)
  have b1 := φ.fmaNS_D_le (φ.round .N (k:ℚ)) a cl
  have b2 := φ.fmaNS_U_ge (φ.round .N (k:ℚ)) b cu
  push_cast at b1 b2
  refine ⟨n1, n2, i1, i2, ?_, ?_⟩
  · show (φ.conv .D _).toE ≤ _
    rw [v1, Fmt.rndE_D]; exact (φ.rdE_le _).trans (by exact_mod_cast b1)
  · show _ ≤ (φ.conv .U _).toE
    rw [v2, Fmt.rndE_U]; exact le_trans (by exact_mod_cast b2) (φ.le_ruE _)

theorem mirror_enc' {k : ℤ} {a b cl cu : FP}
    (h1 : 1 ≤ |rk φ k * a.q + cu.q|) (h2 : 1 ≤ |rk φ k * b.q + cl.q|) :
    φ.Enc (φ.mirrorBox k a b cl cu) (-(rk φ k * a.q + cu.q)) (-(rk φ k * b.q + cl.q)) := by
  obtain ⟨n1, v1, i1⟩ := conv_spec φ .D (φ.fmaNS_ne_nan .U (φ.round .N (k:ℚ)) a cu)
  obtain ⟨n2, v2, i2⟩ := conv_spec φ .U (φ.fmaNS_ne_nan .D (φ.round .N (k:ℚ)) b cl)
  have t := φ.thr_le_quarter
  have x1 := φ.fmaNS_exact .U (a := φ.round .N (k:ℚ)) (b := a) (c := cu) (Or.inr (by
    have : ((1:ℚ):ℝ) ≤ ((|rk φ k * a.q + cu.q| : ℚ) : ℝ) := by exact_mod_cast h1
    unfold rk at this; push_cast at this ⊢; linarith))
  have x2 := φ.fmaNS_exact .D (a := φ.round .N (k:ℚ)) (b := b) (c := cl) (Or.inr (by
    have : ((1:ℚ):ℝ) ≤ ((|rk φ k * b.q + cl.q| : ℚ) : ℝ) := by exact_mod_cast h2
    unfold rk at this; push_cast at this ⊢; linarith))
  have b1 := φ.fmaNS_U_ge (φ.round .N (k:ℚ)) a cu
  have b2 := φ.fmaNS_D_le (φ.round .N (k:ℚ)) b cl
  push_cast at b1 b2
  refine ⟨by simpa [Fmt.mirrorBox] using n1, by simpa [Fmt.mirrorBox] using n2, FP.neg_in i1, FP.neg_in i2, ?_, ?_⟩
  · show (φ.conv .D _).neg.toE ≤ _
    rw [FP.toE_neg, v1, Fmt.rndE_D, φ.rdE_of_in x1.2 (φ.fmaNS_ne_nan _ _ _ _)]
    have := EReal.neg_le_neg_iff.mpr b1
    unfold rk
    exact_mod_cast this
  · show _ ≤ (φ.conv .U _).neg.toE
    rw [FP.toE_neg, v2, Fmt.rndE_U, φ.ruE_of_in x2.2 (φ.fmaNS_ne_nan _ _ _ _)]
    have := EReal.neg_le_neg_iff.mpr b2
    unfold rk
    exact_mod_cast this

theorem piu_le' (φ : Fmt) : (φ.constPi .U).q ≤ 101 / 32 := by
  rw [φ.pi_q]
  refine φ.roundQ_U_le (f := 101 / 32) ?_ (by push_cast; linarith [Real.pi_lt_d2])
  have := φ.rep_dyadic (j := 101) (i := 5) (by norm_num) (by norm_num)
  norm_num at this; exact this

/-- What is known of the boxes far away: the box of the branch `k` is `[m P + c1, m P' + c2]` with a stored multiplier
`m` that is `k` or the even one of `k` and `k + 1`; the box misses the multiples of pi by at most `w`. -/
def Keeps (φ : Fmt) (d : ℤ) (w : ℚ) (box : ℤ → FP → FP → Itv) : Prop :=
  ∀ (k : ℤ) (A B : FP), (φ.constPi .D).q ≤ A.q → A.q ≤ (φ.constPi .U).q → (φ.constPi .D).q ≤ B.q → B.q ≤ (φ.constPi .U).q →
    (∀ m, m = k ∨ m = k + 1 → ((|m| : ℤ) : ℚ) ≤ φ.maxFin ∧ 3 ≤ |rk φ m|) →
    ∃ (m : ℤ) (c1 c2 : ℚ), (m = k ∨ m = k + 1) ∧ (d = 1 → Even m) ∧ c1 ≤ c2 ∧
      φ.Enc (box k A B) ((rk φ m * A.q + c1 : ℚ) : ℝ) ((rk φ m * B.q + c2 : ℚ) : ℝ) ∧
      ∀ P : ℚ, (φ.constPi .D).q ≤ P → P ≤ (φ.constPi .U).q → -w ≤ (m - k) * P + c2 ∧ (m - k) * P + c1 ≤ d * P + w

theorem pow_p (φ : Fmt) : (2:ℝ) ^ (2 - (φ.p:ℤ)) ≤ 1 / 64 ∧ (0:ℝ) < 2 ^ (2 - (φ.p:ℤ)) := by
  refine ⟨?_, zpow_pos (by norm_num) _⟩
  calc (2:ℝ) ^ (2 - (φ.p:ℤ)) ≤ 2 ^ (-6:ℤ) := zpow_le_zpow_right₀ (by norm_num) (by have := φ.p_pos; omega)
    _ = 1 / 64 := by norm_num

/-- The numbers of periods near a large bound. -/
theorem keep_k {a P : ℝ} {e k : ℤ} (he : (φ.p:ℤ) + 1 ≤ e) (h1 : (2:ℝ) ^ e < |a|) (h2 : |a| ≤ 2 ^ (e + 1))
    (hM : (2:ℚ) ^ e ≤ φ.maxFin) (hP : 3 ≤ P) (hP' : P ≤ 101 / 32) (hk : |a| - 2 * P ≤ |(k:ℝ)| * P) (hk' : |(k:ℝ)| * P ≤ |a| + 2 * P) :
    (∀ m, m = k ∨ m = k + 1 → ((|m| : ℤ) : ℚ) ≤ φ.maxFin ∧ 3 ≤ |rk φ m| ∧ |(rk φ m : ℝ) - m| ≤ 2 ^ (e + 1 - φ.p) / 4 ∧
      (Even m → e = φ.p + 1 → rk φ m = m)) ∧
    (63 / 100 : ℝ) * 2 ^ (e + 1 - φ.p) - 1 / 25 ≤ |(k:ℝ)| * 2 ^ (2 - (φ.p:ℤ)) ∧
    (4:ℝ) ≤ 2 ^ (e + 1 - φ.p) ∧ (e ≠ φ.p + 1 → (8:ℝ) ≤ 2 ^ (e + 1 - φ.p)) ∧ 4 ≤ |(k:ℝ)| ∧
    (2:ℝ) ^ (e + 1 - φ.p) ≤ |(k:ℝ)| := by
  have h512 : (512:ℝ) ≤ 2 ^ e := by
    calc (512:ℝ) = 2 ^ (9:ℤ) := by norm_num
      _ ≤ _ := zpow_le_zpow_right₀ (by norm_num) (by have := φ.p_pos; omega)
  have e1 : (2:ℝ) ^ (e + 1) = 2 * 2 ^ e := by rw [zpow_add₀ (by norm_num)]; norm_num; ring
  have e2 : (2:ℝ) ^ (e + 1 - φ.p) = 2 ^ e * 2 ^ (2 - (φ.p:ℤ)) / 2 := by
    rw [show e + 1 - (φ.p:ℤ) = e + (2 - (φ.p:ℤ)) + (-1) by ring, zpow_add₀ (by norm_num), zpow_add₀ (by norm_num) e]
    norm_num; ring
  obtain ⟨p1, p2⟩ := pow_p φ
  have lk : |(k:ℝ)| ≥ 2 ^ e * (32 / 101) - 2 := by nlinarith [abs_nonneg (k:ℝ)]
  have uk : |(k:ℝ)| ≤ 2 ^ e * (2 / 3) + 2 := by nlinarith [abs_nonneg (k:ℝ)]
  have u4 : (4:ℝ) ≤ 2 ^ (e + 1 - φ.p) := by
    calc (4:ℝ) = 2 ^ (2:ℤ) := by norm_num
      _ ≤ _ := zpow_le_zpow_right₀ (by norm_num) (by omega)
  refine ⟨fun m hm => ?_, by rw [e2]; nlinarith, u4, fun h => ?_, by linarith, by rw [e2]; nlinarith⟩
  · have hmk : |(k:ℝ)| - 1 ≤ |(m:ℝ)| ∧ |(m:ℝ)| ≤ |(k:ℝ)| + 1 := by
      rcases hm with rfl | rfl
      · constructor <;> linarith
      · push_cast
        have a1 := abs_add_le (k:ℝ) 1
        have a2 := abs_add_le ((k:ℝ) + 1) (-1)
        rw [add_neg_cancel_right, abs_neg, abs_one] at a2
        rw [abs_one] at a1
        constructor <;> linarith
    have hme : (|m| : ℝ) ≤ 2 ^ e := by linarith [hmk.2]
    have hr := rk_near (m := m) (by omega) hme hM
    have hmM : ((|m| : ℤ) : ℚ) ≤ 2 ^ e := by
      have h : (((|m| : ℤ) : ℚ) : ℝ) ≤ (((2:ℚ) ^ e : ℚ) : ℝ) := by push_cast; exact hme
      exact_mod_cast h
    refine ⟨hmM.trans hM, ?_, hr, fun hev hee => ?_⟩
    · have a3 := abs_sub_abs_le_abs_sub (m:ℝ) (rk φ m : ℝ)
      rw [abs_sub_comm] at a3
      have : (3:ℝ) ≤ |(rk φ m : ℝ)| := by rw [e2] at hr; nlinarith [hmk.1]
      exact_mod_cast this
    · have e3 : (2:ℚ) ^ e = 2 ^ (φ.p + 1) := by rw [hee, ← zpow_natCast]; push_cast; rfl
      refine rk_even hev ?_ (e3 ▸ hM)
      rw [e3] at hmM
      exact_mod_cast hmM
  · calc (8:ℝ) = 2 ^ (3:ℤ) := by norm_num
      _ ≤ _ := zpow_le_zpow_right₀ (by norm_num) (by omega)

theorem FP.fin_or {v : FP} (h : v.In φ) (hn : v ≠ .nan) :
    v.toE = ⊥ ∨ v.toE = ⊤ ∨ (v.toE = ((v.q:ℝ):EReal) ∧ φ.Rep v.q) := by
  cases v with
  | nan => exact absurd rfl hn
  | ninf => left; rfl
  | pinf => right; left; rfl
  | nzero => right; right; exact ⟨by simp [FP.toE, FP.q], φ.rep_zero⟩
  | fin q => right; right; exact ⟨rfl, h⟩

theorem snap_le {v : FP} {a : ℚ} {y : ℝ} {e : ℤ} (h : v.In φ) (hn : v ≠ .nan) (ha : φ.Rep a) (h1 : (2:ℚ) ^ e < |a|)
    (hv : v.toE ≤ (y:EReal)) (hy : y < a + 2 ^ (e + 1 - φ.p)) : v.toE ≤ ((a:ℝ):EReal) := by
  rcases FP.fin_or h hn with h | h | ⟨h, hr⟩
  · rw [h]; exact bot_le
  · rw [h] at hv; exact absurd (top_le_iff.mp hv) (EReal.coe_ne_top _)
  · rw [h] at hv ⊢
    have hv' : (v.q:ℝ) ≤ y := by exact_mod_cast hv
    by_contra hc
    push Not at hc
    have hc' : (a:ℝ) < v.q := by exact_mod_cast hc
    have := (rep_gap ha hr h1).2 (by exact_mod_cast hc')
    have : ((a + 2 ^ (e + 1 - φ.p) : ℚ) : ℝ) ≤ v.q := by exact_mod_cast this
    push_cast at this
    linarith

theorem le_snap {v : FP} {a : ℚ} {y : ℝ} {e : ℤ} (h : v.In φ) (hn : v ≠ .nan) (ha : φ.Rep a) (h1 : (2:ℚ) ^ e < |a|)
    (hv : (y:EReal) ≤ v.toE) (hy : a - 2 ^ (e + 1 - φ.p) < y) : ((a:ℝ):EReal) ≤ v.toE := by
  rcases FP.fin_or h hn with h | h | ⟨h, hr⟩
  · rw [h] at hv; exact absurd (le_bot_iff.mp hv) (EReal.coe_ne_bot _)
  · rw [h]; exact le_top
  · rw [h] at hv ⊢
    have hv' : y ≤ (v.q:ℝ) := by exact_mod_cast hv
    by_contra hc
    push Not at hc
    have hc' : (v.q:ℝ) < a := by exact_mod_cast hc
    have := (rep_gap ha hr h1).1 (by exact_mod_cast hc')
    have : (v.q:ℝ) ≤ ((a - 2 ^ (e + 1 - φ.p) : ℚ) : ℝ) := by exact_mod_cast this
    push_cast at this
    linarith

/-- The box of a branch near the large bound `a`: a proper interval, its far bound beyond `a`, and its near bound at `a`
if it belongs to the second branch. -/
theorem far_box {box : ℤ → FP → FP → Itv} {d : ℤ} {w : ℚ} (K : Keeps φ d w box) (hd : d = 0 ∨ d = 1) {a : ℚ} {e k : ℤ} {A B : FP}
    (hw : w = 0 ∨ d = 0 ∧ 0 ≤ w ∧ w ≤ 8 / 5 ∧ (φ.p:ℤ) + 2 ≤ e)
    (ha : φ.Rep a) (he : (φ.p:ℤ) + 1 ≤ e) (h1 : (2:ℚ) ^ e < |a|) (h2 : |a| ≤ 2 ^ (e + 1))
    (hs : (0 ≤ k ∧ A = φ.constPi .D ∧ B = φ.constPi .U) ∨ (k ≤ 0 ∧ A = φ.constPi .U ∧ B = φ.constPi .D)) :
    (|a| - 2 * B.q ≤ |(k:ℚ)| * B.q → |(k:ℚ)| * B.q ≤ |a| + 2 * B.q → k * B.q ≤ a + B.q → (box k A B).NE φ ∧
      (box k A B).lo.toE ≤ ((a:ℝ):EReal) ∧ (a ≤ k * B.q → ((a:ℝ):EReal) ≤ (box k A B).hi.toE)) ∧
    (|a| - 2 * A.q ≤ |(k:ℚ)| * A.q → |(k:ℚ)| * A.q ≤ |a| + 2 * A.q → a - (1 + d) * A.q ≤ k * A.q → (box k A B).NE φ ∧
      ((a:ℝ):EReal) ≤ (box k A B).hi.toE ∧ ((k + d) * A.q ≤ a → (box k A B).lo.toE ≤ ((a:ℝ):EReal))) := by
  have hp1 := φ.three_le_pid
  have hp2 := piu_le' φ
  have hp3 := φ.pid_le_piu
  have hap := pi_apart φ
  have hAB : (φ.constPi .D).q ≤ A.q ∧ A.q ≤ (φ.constPi .U).q ∧ (φ.constPi .D).q ≤ B.q ∧ B.q ≤ (φ.constPi .U).q := by
    rcases hs with ⟨-, rfl, rfl⟩ | ⟨-, rfl, rfl⟩ <;> exact ⟨by linarith, by linarith, by linarith, by linarith⟩
  obtain ⟨d1, d2, d3, d4⟩ := hAB
  have hM : (2:ℚ) ^ e ≤ φ.maxFin := h1.le.trans (Fmt.Rep.abs_le ha)
  have h1' : (2:ℝ) ^ e < |(a:ℝ)| := by have := (Rat.cast_lt (K := ℝ)).mpr h1; push_cast at this; exact this
  have h2' : |(a:ℝ)| ≤ 2 ^ (e + 1) := by have := (Rat.cast_le (K := ℝ)).mpr h2; push_cast at this; exact this
  -- the drift
  have hdr : |(k:ℝ)| * 2 ^ (2 - (φ.p:ℤ)) ≤ k * ((B.q:ℝ) - A.q) := by
    have hap' : (2:ℝ) ^ (2 - (φ.p:ℤ)) ≤ (φ.constPi .U).q - (φ.constPi .D).q := by
      have := (Rat.cast_le (K := ℝ)).mpr hap; push_cast at this; exact this
    rcases hs with ⟨h, rfl, rfl⟩ | ⟨h, rfl, rfl⟩
    · have : (0:ℝ) ≤ k := by exact_mod_cast h
      rw [abs_of_nonneg this]; exact mul_le_mul_of_nonneg_left hap' this
    · have : (k:ℝ) ≤ 0 := by exact_mod_cast h
      rw [abs_of_nonpos this]; nlinarith
  have common : ∀ P : ℚ, (φ.constPi .D).q ≤ P → P ≤ (φ.constPi .U).q → |a| - 2 * P ≤ |(k:ℚ)| * P → |(k:ℚ)| * P ≤ |a| + 2 * P →
      ∃ (u r c1 c2 : ℝ) (m : ℤ), u = 2 ^ (e + 1 - φ.p) ∧ (box k A B).NE φ ∧ |r| ≤ u / 4 ∧ 4 ≤ u ∧ (d = 1 → r = 0 ∨ 8 ≤ u) ∧
        63 / 100 * u - 1 / 25 ≤ k * ((B.q:ℝ) - A.q) ∧
        φ.Enc (box k A B) ((m + r) * A.q + c1) ((m + r) * B.q + c2) ∧ -w ≤ (m - k) * (A.q:ℝ) + c2 ∧ -w ≤ (m - k) * (B.q:ℝ) + c2 ∧
        (m - k) * (A.q:ℝ) + c1 ≤ d * A.q + w ∧ (m - k) * (B.q:ℝ) + c1 ≤ d * B.q + w := by
    intro P g1 g2 g3 g4
    have g1' : (3:ℝ) ≤ P := by exact_mod_cast hp1.trans g1
    have g2' : (P:ℝ) ≤ 101 / 32 := by
      have : (P:ℝ) ≤ ((101 / 32 : ℚ) : ℝ) := by exact_mod_cast g2.trans hp2
      push_cast at this; exact this
    obtain ⟨q1, q2, q3, q4, q5, q6⟩ := keep_k (k := k) he h1' h2' hM g1' g2' (by exact_mod_cast g3) (by exact_mod_cast g4)
    obtain ⟨m, c1, c2, m1, m2, m3, m4, m5⟩ := K k A B d1 d2 d3 d4 (fun m hm => ⟨(q1 m hm).1, (q1 m hm).2.1⟩)
    obtain ⟨-, r0, r1, r2⟩ := q1 m m1
    have key : (rk φ m : ℝ) * A.q ≤ rk φ m * B.q := by
      have hu := (abs_le.mp r1)
      have hAB' : (2:ℝ) ^ (2 - (φ.p:ℤ)) ≤ (φ.constPi .U).q - (φ.constPi .D).q := by
        have := (Rat.cast_le (K := ℝ)).mpr hap; push_cast at this; exact this
      have := (pow_p φ).2
      rcases hs with ⟨h, rfl, rfl⟩ | ⟨h, rfl, rfl⟩
      · have h0 : (0:ℝ) ≤ k := by exact_mod_cast h
        rw [abs_of_nonneg h0] at q5 q6
        have : (k:ℝ) ≤ m := by rcases m1 with rfl | rfl <;> push_cast <;> linarith
        refine mul_le_mul_of_nonneg_left (by linarith) ?_
        linarith
      · have h0 : (k:ℝ) ≤ 0 := by exact_mod_cast h
        rw [abs_of_nonpos h0] at q5 q6
        have : (m:ℝ) ≤ k + 1 := by rcases m1 with rfl | rfl <;> push_cast <;> linarith
        refine mul_le_mul_of_nonpos_left (by linarith) ?_
        linarith
    refine ⟨_, rk φ m - m, c1, c2, m, rfl, m4.ne ?_, r1, q3, fun h => ?_, by linarith, ?_, ?_, ?_, ?_, ?_⟩
    · push_cast
      have : (c1:ℝ) ≤ c2 := by exact_mod_cast m3
      linarith
    · by_cases hee : e = φ.p + 1
      · left; rw [r2 (m2 h) hee]; push_cast; ring
      · right; exact q4 hee
    · have := m4; push_cast at this; simpa using this
    · exact_mod_cast (m5 A.q d1 d2).1
    · exact_mod_cast (m5 B.q d3 d4).1
    · exact_mod_cast (m5 A.q d1 d2).2
    · exact_mod_cast (m5 B.q d3 d4).2
  have A3 : (3:ℝ) ≤ A.q := by exact_mod_cast hp1.trans d1
  have B3 : (3:ℝ) ≤ B.q := by exact_mod_cast hp1.trans d3
  have A4 : (A.q:ℝ) ≤ 101 / 32 := by
    have : (A.q:ℝ) ≤ ((101 / 32 : ℚ) : ℝ) := by exact_mod_cast d2.trans hp2
    push_cast at this; exact this
  have B4 : (B.q:ℝ) ≤ 101 / 32 := by
    have : (B.q:ℝ) ≤ ((101 / 32 : ℚ) : ℝ) := by exact_mod_cast d4.trans hp2
    push_cast at this; exact this
  have num : ∀ {u r Q : ℝ}, |r| ≤ u / 4 → 4 ≤ u → 3 ≤ Q → Q ≤ 101 / 32 → |r * Q| ≤ 101 / 128 * u := by
    intro u r Q h1 h2 h3 h4
    rw [abs_mul, abs_of_pos (by linarith : 0 < Q)]
    nlinarith [abs_nonneg r]
  have num2 : ∀ {u r Q Q' : ℝ}, |r| ≤ u / 4 → 4 ≤ u → 3 ≤ Q → Q ≤ 101 / 32 → Q' ≤ 101 / 32 → 3 ≤ Q' → (d = 1 → r = 0 ∨ 8 ≤ u) →
      (w:ℝ) = 0 ∨ (d:ℝ) = 0 ∧ (w:ℝ) ≤ 8 / 5 ∧ 8 ≤ u →
      Q' + d * Q' + |r * Q| - (63 / 100 * u - 1 / 25) + w < u ∧ |r * Q| + w < u := by
    intro u r Q Q' h1 h2 h3 h4 h5 h6 h7 h8
    have := num h1 h2 h3 h4
    rcases h8 with h8 | ⟨h8, h9, h10⟩
    rotate_left
    · rw [h8]; constructor <;> linarith
    rw [h8]
    refine ⟨?_, by linarith⟩
    rcases hd with rfl | rfl
    · push_cast; linarith
    · push_cast
      rcases h7 rfl with h | h
      · rw [h] at this ⊢; simp; linarith
      · linarith
  have hdd : (0:ℝ) ≤ d := by rcases hd with rfl | rfl <;> norm_num
  have hw' : (w:ℝ) = 0 ∨ (d:ℝ) = 0 ∧ (w:ℝ) ≤ 8 / 5 ∧ (8:ℝ) ≤ 2 ^ (e + 1 - φ.p) := by
    rcases hw with rfl | ⟨rfl, -, hw, hwe⟩
    · left; norm_num
    · right
      refine ⟨by norm_num, ?_, ?_⟩
      · have := (Rat.cast_le (K := ℝ)).mpr hw; push_cast at this; exact this
      · calc (8:ℝ) = 2 ^ (3:ℤ) := by norm_num
          _ ≤ _ := zpow_le_zpow_right₀ (by norm_num) (by omega)
  constructor
  · intro g3 g4 g5
    obtain ⟨u, r, c1, c2, m, hu, nb, v1, v2, v3, v4, v5, v6, v7, v8, v9⟩ := common B.q d3 d4 g3 g4
    have g5' : (k:ℝ) * B.q ≤ a + B.q := by exact_mod_cast g5
    rw [← hu] at hw'
    have n1 := (num2 (Q := B.q) (Q' := 101 / 32) v1 v2 B3 B4 (by norm_num) (by norm_num) v3 hw').2
    have n2 := (num2 (Q := A.q) (Q' := 101 / 32) v1 v2 A3 A4 (by norm_num) (by norm_num) v3 hw').1
    refine ⟨nb, snap_le v5.lo_in v5.lo_ne ha h1 v5.lo_le ?_, fun g6 => le_snap v5.hi_in v5.hi_ne ha h1 v5.le_hi ?_⟩
    · rw [← hu]
      have := le_abs_self (r * A.q)
      nlinarith
    · have g6' : (a:ℝ) ≤ k * B.q := by exact_mod_cast g6
      rw [← hu]
      have := neg_abs_le (r * B.q)
      nlinarith
  · intro g3 g4 g5
    obtain ⟨u, r, c1, c2, m, hu, nb, v1, v2, v3, v4, v5, v6, v7, v8, v9⟩ := common A.q d1 d2 g3 g4
    have g5' : (a:ℝ) - (1 + d) * A.q ≤ k * A.q := by exact_mod_cast g5
    rw [← hu] at hw'
    have n1 := (num2 (Q := A.q) (Q' := 101 / 32) v1 v2 A3 A4 (by norm_num) (by norm_num) v3 hw').2
    have n2 := (num2 (Q := B.q) (Q' := 101 / 32) v1 v2 B3 B4 (by norm_num) (by norm_num) v3 hw').1
    refine ⟨nb, le_snap v5.hi_in v5.hi_ne ha h1 v5.le_hi ?_, fun g6 => snap_le v5.lo_in v5.lo_ne ha h1 v5.lo_le ?_⟩
    · rw [← hu]
      have := neg_abs_le (r * B.q)
      nlinarith
    · have g6' : ((k:ℝ) + d) * A.q ≤ a := by exact_mod_cast g6
      rw [← hu]
      have := le_abs_self (r * A.q)
      nlinarith

theorem firstOf_left {X Y : Itv} {a : ℝ} (hx : x.NE φ) (hl : x.lo.toE = (a:EReal)) (nX : X.NE φ) (nY : Y.NE φ)
    (h1 : X.lo.toE ≤ (a:EReal)) (h2 : Y.lo.toE ≤ (a:EReal)) (h3 : (a:EReal) ≤ Y.hi.toE) : a ∈ (X.firstOf Y x).set := by
  have hax : a ∈ x.set := hx.mem.mpr ⟨hl.le, by rw [← hl]; exact hx.le⟩
  obtain ⟨i1, j1⟩ := Itv.inter_ok_set nX.ok hx.ok
  obtain ⟨i2, j2⟩ := Itv.inter_ok_set nY.ok hx.ok
  unfold Itv.firstOf
  by_cases he : (X.inter x).isEmpty = true
  · rw [if_pos he, j2]; exact ⟨nY.mem.mpr ⟨h2, h3⟩, hax⟩
  · rw [if_neg he, j1]
    have he' : (X.set ∩ x.set).Nonempty := by
      rw [← j1, Set.nonempty_iff_ne_empty]
      exact fun h => he (i1.isEmpty_iff.mpr (i1.set_eq_empty_iff.mp h))
    obtain ⟨t, t1, t2⟩ := he'
    refine ⟨nX.mem.mpr ⟨h1, le_trans ?_ (nX.mem.mp t1).2⟩, hax⟩
    rw [← hl]; exact (hx.mem.mp t2).1

theorem firstOf_right {X Y : Itv} {a : ℝ} (hx : x.NE φ) (hl : x.hi.toE = (a:EReal)) (nX : X.NE φ) (nY : Y.NE φ)
    (h1 : (a:EReal) ≤ X.hi.toE) (h2 : (a:EReal) ≤ Y.hi.toE) (h3 : Y.lo.toE ≤ (a:EReal)) : a ∈ (X.firstOf Y x).set := by
  have hax : a ∈ x.set := hx.mem.mpr ⟨by rw [← hl]; exact hx.le, hl.ge⟩
  obtain ⟨i1, j1⟩ := Itv.inter_ok_set nX.ok hx.ok
  obtain ⟨i2, j2⟩ := Itv.inter_ok_set nY.ok hx.ok
  unfold Itv.firstOf
  by_cases he : (X.inter x).isEmpty = true
  · rw [if_pos he, j2]; exact ⟨nY.mem.mpr ⟨h3, h2⟩, hax⟩
  · rw [if_neg he, j1]
    have he' : (X.set ∩ x.set).Nonempty := by
      rw [← j1, Set.nonempty_iff_ne_empty]
      exact fun h => he (i1.isEmpty_iff.mpr (i1.set_eq_empty_iff.mp h))
    obtain ⟨t, t1, t2⟩ := he'
    refine ⟨nX.mem.mpr ⟨le_trans (nX.mem.mp t1).1 ?_, h1⟩, hax⟩
    rw [← hl]; exact (hx.mem.mp t2).2

theorem rep_lo (hx : x.NE φ) (h : x.lo.feq .ninf ≠ true) : φ.Rep x.lo.q := by
  have hl := lo_fin hx h
  rcases FP.fin_or hx.lo_in hx.lo_ne with h | h | h
  · rw [h] at hl; exact absurd hl (by simp)
  · rw [h] at hl; exact absurd hl (by simp)
  · exact h.2

theorem rep_hi (hx : x.NE φ) (h : x.hi.feq .pinf ≠ true) : φ.Rep x.hi.q := by
  have hl := hi_fin hx h
  rcases FP.fin_or hx.hi_in hx.hi_ne with h | h | h
  · rw [h] at hl; exact absurd hl (by simp)
  · rw [h] at hl; exact absurd hl (by simp)
  · exact h.2

theorem binade {a : ℚ} {i : ℕ} (h : (2:ℚ) ^ (φ.p + i) < |a|) : ∃ e : ℤ, (φ.p:ℤ) + i ≤ e ∧ (2:ℚ) ^ e < |a| ∧ |a| ≤ 2 ^ (e + 1) := by
  obtain ⟨e, e1, e2⟩ := exists_mem_Ioc_zpow (lt_trans (by positivity) h : 0 < |a|) (by norm_num : (1:ℚ) < 2)
  refine ⟨e, ?_, e1, e2⟩
  have h3 : (2:ℚ) ^ ((φ.p + i : ℕ) : ℤ) < 2 ^ (e + 1) := by rw [zpow_natCast]; linarith
  have := (zpow_lt_zpow_iff_right₀ (by norm_num : (1:ℚ) < 2)).mp h3
  push_cast at this; omega

variable {box : ℤ → FP → FP → Itv} {d : ℤ} {w : ℚ} {S : Set ℝ}

/-- How far away the bound `a` has to be. -/
def FarBy (φ : Fmt) (d : ℤ) (w a : ℚ) : Prop :=
  w = 0 ∧ (2:ℚ) ^ (φ.p + 1) < |a| ∨ d = 0 ∧ 0 ≤ w ∧ w ≤ 8 / 5 ∧ (2:ℚ) ^ (φ.p + 2) < |a|

theorem FarBy.binade {a : ℚ} (h : FarBy φ d w a) : ∃ e : ℤ, (φ.p:ℤ) + 1 ≤ e ∧ (2:ℚ) ^ e < |a| ∧ |a| ≤ 2 ^ (e + 1) ∧
    (w = 0 ∨ d = 0 ∧ 0 ≤ w ∧ w ≤ 8 / 5 ∧ (φ.p:ℤ) + 2 ≤ e) := by
  rcases h with ⟨h1, h2⟩ | ⟨h1, h2, h3, h4⟩
  · obtain ⟨e, e1, e2, e3⟩ := P1788.binade (i := 1) h2
    exact ⟨e, by push_cast at e1; exact e1, e2, e3, Or.inl h1⟩
  · obtain ⟨e, e1, e2, e3⟩ := P1788.binade (i := 2) h4
    push_cast at e1
    exact ⟨e, by omega, e2, e3, Or.inr ⟨h1, h2, h3, e1⟩⟩

theorem FarBy.big {a : ℚ} (h : FarBy φ d w a) : (512:ℚ) < |a| := by
  obtain ⟨e, e1, e2, -, -⟩ := h.binade
  refine lt_of_le_of_lt ?_ e2
  calc (512:ℚ) = 2 ^ (9:ℤ) := by norm_num
    _ ≤ _ := zpow_le_zpow_right₀ (by norm_num) (by have := φ.p_pos; omega)

/-- The lower bound of `x` belongs to the left box. -/
theorem left_keep (K : Keeps φ d w box) (hd : d = 0 ∨ d = 1) (hx : x.NE φ) (h0 : x.lo.feq .ninf ≠ true)
    (q1 : FarBy φ d w x.lo.q) (q2 : |x.lo.q| ≤ 2 ^ 64) : (x.lo.q : ℝ) ∈ (φ.leftBox box x).set := by
  have hl := lo_fin hx h0
  have ha := rep_lo hx h0
  obtain ⟨e, he, h1, h2, hw⟩ := q1.binade
  unfold Fmt.leftBox
  rw [if_neg h0]
  by_cases hs : x.lo < .fin 0
  · rw [if_pos hs]
    have hneg : x.lo.q < 0 := by
      have := (NE.lt0_iff hx.lo_ne).mp hs; rw [hl] at this; exact_mod_cast this
    have h3 := φ.three_le_pid
    obtain ⟨f1, f2⟩ := floorQuo_spec h3 q2
    show _ ∈ (Itv.firstOf (box (floorQuo x.lo.q (φ.constPi .D).q) _ _) (box (floorQuo x.lo.q (φ.constPi .D).q + 1) _ _) x).set
    generalize floorQuo x.lo.q (φ.constPi .D).q = n at *
    have hn : n + 1 ≤ 0 := by
      have : (n:ℚ) < 0 := by nlinarith
      have : n < 0 := by exact_mod_cast this
      omega
    have hnq : (n:ℚ) + 1 ≤ 0 := by exact_mod_cast hn
    obtain ⟨a1, a2, -⟩ := (far_box K hd (k := n) hw ha he h1 h2 (Or.inr ⟨by omega, rfl, rfl⟩)).1
      (by rw [abs_of_neg hneg, abs_of_nonpos (by linarith)]; linarith)
      (by rw [abs_of_neg hneg, abs_of_nonpos (by linarith)]; linarith) (by linarith)
    obtain ⟨b1, b2, b3⟩ := (far_box K hd (k := n + 1) hw ha he h1 h2 (Or.inr ⟨by omega, rfl, rfl⟩)).1
      (by push_cast; rw [abs_of_neg hneg, abs_of_nonpos hnq]; linarith)
      (by push_cast; rw [abs_of_neg hneg, abs_of_nonpos hnq]; linarith) (by push_cast; linarith)
    exact firstOf_left hx hl a1 b1 a2 b2 (b3 (by push_cast; exact f2.le))
  · rw [if_neg hs]
    have hpos : 0 ≤ x.lo.q := by
      by_contra hc
      exact hs ((NE.lt0_iff hx.lo_ne).mpr (by rw [hl]; exact_mod_cast not_le.mp hc))
    have h3 := φ.three_le_piu
    obtain ⟨f1, f2⟩ := floorQuo_spec h3 q2
    show _ ∈ (Itv.firstOf (box (floorQuo x.lo.q (φ.constPi .U).q) _ _) (box (floorQuo x.lo.q (φ.constPi .U).q + 1) _ _) x).set
    generalize floorQuo x.lo.q (φ.constPi .U).q = n at *
    have hn : 0 ≤ n := by
      have : (-1:ℚ) < n := by nlinarith
      have : -1 < n := by exact_mod_cast this
      omega
    have hnq : (0:ℚ) ≤ n := by exact_mod_cast hn
    obtain ⟨a1, a2, -⟩ := (far_box K hd (k := n) hw ha he h1 h2 (Or.inl ⟨by omega, rfl, rfl⟩)).1
      (by rw [abs_of_nonneg hpos, abs_of_nonneg hnq]; linarith)
      (by rw [abs_of_nonneg hpos, abs_of_nonneg hnq]; linarith) (by linarith)
    obtain ⟨b1, b2, b3⟩ := (far_box K hd (k := n + 1) hw ha he h1 h2 (Or.inl ⟨by omega, rfl, rfl⟩)).1
      (by push_cast; rw [abs_of_nonneg hpos, abs_of_nonneg (by linarith)]; linarith)
      (by push_cast; rw [abs_of_nonneg hpos, abs_of_nonneg (by linarith)]; linarith) (by push_cast; linarith)
    exact firstOf_left hx hl a1 b1 a2 b2 (b3 (by push_cast; exact f2.le))

/-- The upper bound of `x` belongs to the right box. -/
theorem right_keep {quo : ℚ → ℚ → ℤ} (K : Keeps φ d w box) (hd : d = 0 ∨ d = 1) (hx : x.NE φ) (h0 : x.hi.feq .pinf ≠ true)
    (hquo : ∀ y : ℚ, 3 ≤ y → |x.hi.q| ≤ 2 ^ 64 →
      ((quo x.hi.q y : ℚ) + d - 1) * y ≤ x.hi.q ∧ x.hi.q ≤ ((quo x.hi.q y : ℚ) + d) * y ∧
      (d = 1 → x.hi.q < ((quo x.hi.q y : ℚ) + d) * y) ∧ (d = 0 → ((quo x.hi.q y : ℚ) + d - 1) * y < x.hi.q))
    (q1 : FarBy φ d w x.hi.q) (q2 : |x.hi.q| ≤ 2 ^ 64) : (x.hi.q : ℝ) ∈ (φ.rightBox quo box x).set := by
  have hl := hi_fin hx h0
  have ha := rep_hi hx h0
  obtain ⟨e, he, h1, h2, hw⟩ := q1.binade
  have hb := q1.big
  have hdq : (0:ℚ) ≤ d ∧ (d:ℚ) ≤ 1 := by rcases hd with rfl | rfl <;> norm_num
  unfold Fmt.rightBox
  rw [if_neg h0]
  by_cases hs : .fin 0 < x.hi
  · rw [if_pos hs]
    have hpos : 0 < x.hi.q := by
      have := (NE.gt0_iff hx.hi_ne).mp hs; rw [hl] at this; exact_mod_cast this
    have h3 := φ.three_le_pid
    have h4 : (φ.constPi .D).q ≤ 101 / 32 := φ.pid_le_piu.trans (piu_le' φ)
    obtain ⟨f1, f2, -, -⟩ := hquo _ h3 q2
    show _ ∈ (Itv.firstOf (box (quo x.hi.q (φ.constPi .D).q) _ _) (box (quo x.hi.q (φ.constPi .D).q - 1) _ _) x).set
    generalize quo x.hi.q (φ.constPi .D).q = n at *
    rw [abs_of_pos hpos] at hb
    have hnq : (2:ℚ) ≤ n := by
      by_contra hc; push Not at hc; nlinarith
    have hn : 2 ≤ n := by exact_mod_cast hnq
    have dP := mul_le_mul_of_nonneg_right hdq.2 (by linarith : 0 ≤ (φ.constPi .D).q)
    have dP0 := mul_nonneg hdq.1 (by linarith : 0 ≤ (φ.constPi .D).q)
    obtain ⟨a1, a2, -⟩ := (far_box K hd (k := n) hw ha he h1 h2 (Or.inl ⟨by omega, rfl, rfl⟩)).2
      (by rw [abs_of_pos hpos, abs_of_nonneg (by linarith)]; linarith)
      (by rw [abs_of_pos hpos, abs_of_nonneg (by linarith)]; linarith) (by linarith)
    obtain ⟨b1, b2, b3⟩ := (far_box K hd (k := n - 1) hw ha he h1 h2 (Or.inl ⟨by omega, rfl, rfl⟩)).2
      (by push_cast; rw [abs_of_pos hpos, abs_of_nonneg (by linarith)]; linarith)
      (by push_cast; rw [abs_of_pos hpos, abs_of_nonneg (by linarith)]; linarith) (by push_cast; linarith)
    exact firstOf_right hx hl a1 b1 a2 b2 (b3 (by push_cast; linarith))
  · rw [if_neg hs]
    have hneg : x.hi.q ≤ 0 := by
      by_contra hc
      exact hs ((NE.gt0_iff hx.hi_ne).mpr (by rw [hl]; exact_mod_cast not_le.mp hc))
    have h3 := φ.three_le_piu
    have h4 := piu_le' φ
    obtain ⟨f1, f2, -, -⟩ := hquo _ h3 q2
    show _ ∈ (Itv.firstOf (box (quo x.hi.q (φ.constPi .U).q) _ _) (box (quo x.hi.q (φ.constPi .U).q - 1) _ _) x).set
    generalize quo x.hi.q (φ.constPi .U).q = n at *
    rw [abs_of_nonpos hneg] at hb
    have hnq : (n:ℚ) ≤ 0 := by
      by_contra hc; push Not at hc; nlinarith
    have hn : n ≤ 0 := by exact_mod_cast hnq
    have dP := mul_le_mul_of_nonneg_right hdq.2 (by linarith : 0 ≤ (φ.constPi .U).q)
    have dP0 := mul_nonneg hdq.1 (by linarith : 0 ≤ (φ.constPi .U).q)
    obtain ⟨a1, a2, -⟩ := (far_box K hd (k := n) hw ha he h1 h2 (Or.inr ⟨by omega, rfl, rfl⟩)).2
      (by rw [abs_of_nonpos hneg, abs_of_nonpos (by linarith)]; linarith)
      (by rw [abs_of_nonpos hneg, abs_of_nonpos (by linarith)]; linarith) (by linarith)
    obtain ⟨b1, b2, b3⟩ := (far_box K hd (k := n - 1) hw ha he h1 h2 (Or.inr ⟨by omega, rfl, rfl⟩)).2
      (by push_cast; rw [abs_of_nonpos hneg, abs_of_nonpos (by linarith)]; linarith)
      (by push_cast; rw [abs_of_nonpos hneg, abs_of_nonpos (by linarith)]; linarith) (by push_cast; linarith)
    exact firstOf_right hx hl a1 b1 a2 b2 (b3 (by push_cast; linarith))

/-! ## The boxes of the three functions -/

theorem rk_far {m : ℤ} {A c : ℚ} (hm : 3 ≤ |rk φ m|) (hA : 3 ≤ A) (hc : |c| ≤ 4) : 1 ≤ |rk φ m * A + c| := by
  have := abs_sub_abs_le_abs_sub (rk φ m * A) (-c)
  rw [sub_neg_eq_add, abs_neg, abs_mul, abs_of_pos (by linarith : 0 < A)] at this
  nlinarith

theorem tan_keeps {cl cu : FP} (hl : cl.q ≤ 0) (hu : 0 ≤ cu.q) : Keeps φ 0 0 (φ.tanBox cl cu) := by
  intro k A B _ _ _ _ _
  refine ⟨k, cl.q, cu.q, Or.inl rfl, by norm_num, by linarith, by push_cast; exact shift_enc', fun P _ _ => ?_⟩
  push_cast
  constructor <;> linarith

theorem sin_keeps {cl cu : FP} (hl : cl.q ≤ 0) (hu : 0 ≤ cu.q) (hl2 : -2 ≤ cl.q) (hu2 : cu.q ≤ 2) :
    Keeps φ 0 0 (φ.sinBox cl cu) := by
  intro k A B a1 a2 b1 b2 hm
  have h3 := φ.three_le_pid
  obtain ⟨m1, m2⟩ := hm k (Or.inl rfl)
  have hk := rk_neg m1
  have m2' : 3 ≤ |rk φ (-k)| := by rw [hk, abs_neg]; exact m2
  unfold Fmt.sinBox
  by_cases he : k % 2 = 0
  · rw [if_pos he]
    refine ⟨k, cl.q, cu.q, Or.inl rfl, by norm_num, by linarith, by push_cast; exact shift_enc', fun P _ _ => ?_⟩
    push_cast
    constructor <;> linarith
  · rw [if_neg he]
    have := mirror_enc' (k := -k) (a := A) (b := B) (cl := cl) (cu := cu)
      (rk_far m2' (by linarith) (by rw [abs_le]; constructor <;> linarith))
      (rk_far m2' (by linarith) (by rw [abs_le]; constructor <;> linarith))
    rw [hk] at this
    refine ⟨k, -cu.q, -cl.q, Or.inl rfl, by norm_num, by linarith, ?_, fun P _ _ => ?_⟩
    · convert this using 1 <;> push_cast <;> ring
    · push_cast
      constructor <;> linarith

theorem cos_keeps {cl cu : FP} (hl : 0 ≤ cl.q) (hlu : cl.q ≤ cu.q) (hcl : cl.q ≤ (φ.constPi .D).q) (hu : cu.q ≤ 4) :
    Keeps φ 1 0 (φ.cosBox cl cu) := by
  intro k A B a1 a2 b1 b2 hm
  have h3 := φ.three_le_pid
  obtain ⟨m1, m2⟩ := hm (k + 1) (Or.inr rfl)
  have hk := rk_neg m1
  have m2' : 3 ≤ |rk φ (-(k + 1))| := by rw [hk, abs_neg]; exact m2
  unfold Fmt.cosBox
  by_cases he : k % 2 = 0
  · rw [if_pos he]
    refine ⟨k, cl.q, cu.q, Or.inl rfl, fun _ => Int.even_iff.mpr he, hlu, by push_cast; exact shift_enc', fun P _ _ => ?_⟩
    push_cast
    constructor <;> linarith
  · rw [if_neg he, show -k - 1 = -(k + 1) by ring]
    have := mirror_enc' (k := -(k + 1)) (a := A) (b := B) (cl := cl) (cu := cu)
      (rk_far m2' (by linarith) (by rw [abs_le]; constructor <;> linarith))
      (rk_far m2' (by linarith) (by rw [abs_le]; constructor <;> linarith [φ.pid_le_piu, piu_le' φ]))
    rw [hk] at this
    refine ⟨k + 1, -cu.q, -cl.q, Or.inr rfl, fun _ => by rw [Int.even_iff]; omega, by linarith, ?_, fun P _ _ => ?_⟩
    · convert this using 1 <;> push_cast <;> ring
    · push_cast
      constructor <;> linarith

/-- Far away nothing is lost on the left, since the bound of `x` is kept. -/
theorem left_far (K : Keeps φ d w box) (hb : BoxIn φ box) (hd : d = 0 ∨ d = 1) (hx : x.NE φ) (h0 : x.lo.feq .ninf ≠ true)
    (q1 : FarBy φ d w x.lo.q) (q2 : |x.lo.q| ≤ 2 ^ 64) (hS : ∀ s ∈ S, s ∈ x.set) :
    LeftOf φ (φ.leftBox box x) x S := by
  obtain ⟨a1, a2⟩ := leftBox_any hb hx
  refine ⟨a1, a2, fun s hs => ⟨_, left_keep K hd hx h0 q1 q2, ?_⟩⟩
  have := (hx.mem.mp (hS s hs)).1
  rw [lo_fin hx h0] at this
  exact_mod_cast this

theorem right_far {quo : ℚ → ℚ → ℤ} (K : Keeps φ d w box) (hb : BoxIn φ box) (hd : d = 0 ∨ d = 1) (hx : x.NE φ)
    (h0 : x.hi.feq .pinf ≠ true)
    (hquo : ∀ y : ℚ, 3 ≤ y → |x.hi.q| ≤ 2 ^ 64 →
      ((quo x.hi.q y : ℚ) + d - 1) * y ≤ x.hi.q ∧ x.hi.q ≤ ((quo x.hi.q y : ℚ) + d) * y ∧
      (d = 1 → x.hi.q < ((quo x.hi.q y : ℚ) + d) * y) ∧ (d = 0 → ((quo x.hi.q y : ℚ) + d - 1) * y < x.hi.q))
    (q1 : FarBy φ d w x.hi.q) (q2 : |x.hi.q| ≤ 2 ^ 64) (hS : ∀ s ∈ S, s ∈ x.set) :
    RightOf φ (φ.rightBox quo box x) x S := by
  obtain ⟨a1, a2⟩ := rightBox_any (quo := quo) hb hx
  refine ⟨a1, a2, fun s hs => ⟨_, right_keep K hd hx h0 hquo q1 q2, ?_⟩⟩
  have := (hx.mem.mp (hS s hs)).2
  rw [hi_fin hx h0] at this
  exact_mod_cast this

variable {B : ℤ → Set ℝ}

theorem b64_lo (h : x.Bounds64) : |x.lo.q| ≤ 2 ^ 64 := by
  cases hl : x.lo with
  | fin q => exact h q (Or.inl hl)
  | _ => simp [FP.q]

theorem b64_hi (h : x.Bounds64) : |x.hi.q| ≤ 2 ^ 64 := by
  cases hl : x.hi with
  | fin q => exact h q (Or.inr hl)
  | _ => simp [FP.q]

theorem Itv.SmallBounds.b64 (h : x.SmallBounds φ) : x.Bounds64 := fun q hq => (h q hq).2

/-- The left box, whatever the magnitude of the lower bound up to `2^64`. -/
theorem left_cover' (F : Family φ d box B) (K : Keeps φ d 0 box) (hb : BoxIn φ box) (hd : d = 0 ∨ d = 1) (hx : x.NE φ)
    (hq : x.Bounds64) (hS : ∀ s ∈ S, s ∈ x.set) (hloc : ∀ s ∈ S, ∀ n : ℤ, n * π ≤ s → ∃ k, n ≤ k ∧ s ∈ B k) :
    LeftOf φ (φ.leftBox box x) x S := by
  rcases le_or_gt |x.lo.q| (2 ^ (φ.p + 1)) with h | h
  · exact left_cover F (by omega) hx (fun _ => ⟨h, b64_lo hq⟩) hS hloc
  · refine left_far K hb hd hx (fun h0 => ?_) (Or.inl ⟨rfl, h⟩) (b64_lo hq) hS
    rw [Itv.feq_ninf, decide_eq_true_eq] at h0
    rw [h0] at h
    exact absurd h (by simp [FP.q])

theorem right_cover' {quo : ℚ → ℚ → ℤ} (F : Family φ d box B) (K : Keeps φ d 0 box) (hb : BoxIn φ box) (hd : d = 0 ∨ d = 1)
    (hx : x.NE φ) (hq : x.Bounds64)
    (hquo : ∀ y : ℚ, 3 ≤ y → |x.hi.q| ≤ 2 ^ 64 →
      ((quo x.hi.q y : ℚ) + d - 1) * y ≤ x.hi.q ∧ x.hi.q ≤ ((quo x.hi.q y : ℚ) + d) * y ∧
      (d = 1 → x.hi.q < ((quo x.hi.q y : ℚ) + d) * y) ∧ (d = 0 → ((quo x.hi.q y : ℚ) + d - 1) * y < x.hi.q))
    (hS : ∀ s ∈ S, s ∈ x.set) (hloc : ∀ s ∈ S, ∀ n : ℤ, s ≤ (n + d) * π → ∃ k, k ≤ n ∧ s ∈ B k) :
    RightOf φ (φ.rightBox quo box x) x S := by
  rcases le_or_gt |x.hi.q| (2 ^ (φ.p + 1)) with h | h
  · exact right_cover F (by omega) (by omega) hx (fun _ => ⟨h, b64_hi hq⟩) hquo hS hloc
  · refine right_far K hb hd hx (fun h0 => ?_) hquo (Or.inl ⟨rfl, h⟩) (b64_hi hq) hS
    rw [Itv.feq_pinf, decide_eq_true_eq] at h0
    rw [h0] at h
    exact absurd h (by simp [FP.q])

theorem tan_keeps' {cl cu : FP} (hlu : cl.q ≤ cu.q) (hl : cl.q ≤ 8 / 5) (hu : -(8 / 5) ≤ cu.q) :
    Keeps φ 0 (8 / 5) (φ.tanBox cl cu) := by
  intro k A B _ _ _ _ _
  refine ⟨k, cl.q, cu.q, Or.inl rfl, by norm_num, hlu, by push_cast; exact shift_enc', fun P _ _ => ?_⟩
  push_cast
  constructor <;> linarith

theorem sin_keeps' {cl cu : FP} (hlu : cl.q ≤ cu.q) (hl : |cl.q| ≤ 8 / 5) (hu : |cu.q| ≤ 8 / 5) :
    Keeps φ 0 (8 / 5) (φ.sinBox cl cu) := by
  intro k A B a1 a2 b1 b2 hm
  have h3 := φ.three_le_pid
  obtain ⟨m1, m2⟩ := hm k (Or.inl rfl)
  have hk := rk_neg m1
  have m2' : 3 ≤ |rk φ (-k)| := by rw [hk, abs_neg]; exact m2
  obtain ⟨l1, l2⟩ := abs_le.mp hl
  obtain ⟨u1, u2⟩ := abs_le.mp hu
  unfold Fmt.sinBox
  by_cases he : k % 2 = 0
  · rw [if_pos he]
    refine ⟨k, cl.q, cu.q, Or.inl rfl, by norm_num, hlu, by push_cast; exact shift_enc', fun P _ _ => ?_⟩
    push_cast
    constructor <;> linarith
  · rw [if_neg he]
    have := mirror_enc' (k := -k) (a := A) (b := B) (cl := cl) (cu := cu)
      (rk_far m2' (by linarith) (by linarith)) (rk_far m2' (by linarith) (by linarith))
    rw [hk] at this
    refine ⟨k, -cu.q, -cl.q, Or.inl rfl, by norm_num, by linarith, ?_, fun P _ _ => ?_⟩
    · convert this using 1 <;> push_cast <;> ring
    · push_cast
      constructor <;> linarith

theorem left_near' (F : Boxes φ box B) (K : Keeps φ 0 (8 / 5) box) (hb : BoxIn φ box) (hx : x.NE φ) (hq : x.Bounds64)
    (hS : ∀ s ∈ S, s ∈ x.set ∧ ∃ k : ℤ, s ∈ B k ∧ |s - k * π| ≤ π / 2)
    (hend : ∀ a : ℝ, x.lo.toE = (a:EReal) → (2:ℝ) ^ (φ.p + 2) < |a| ∨ |a| ≤ 2 ^ φ.p ∧
      ((∃ s ∈ S, ∃ k : ℤ, s ∈ B k ∧ |a - k * π| ≤ π / 2) ∨ ∃ k : ℤ, |a| * 2 ^ (2 - (φ.p:ℤ)) ≤ a - k * π ∧ a - k * π ≤ π / 2)) :
    LeftOf φ (φ.leftBox box x) x S := by
  by_cases h0 : x.lo.feq .ninf = true
  · exact left_inf hx h0
  have hl := lo_fin hx h0
  rcases hend _ hl with h | ⟨h, h'⟩
  · exact left_far K hb (Or.inl rfl) hx h0 (Or.inr ⟨rfl, by norm_num, le_rfl, by exact_mod_cast h⟩) (b64_lo hq) (fun s hs => (hS s hs).1)
  · refine left_near F hx (fun _ => ⟨by exact_mod_cast h, b64_lo hq⟩) hS (fun a ha => ?_)
    rw [hl] at ha
    rwa [← EReal.coe_eq_coe_iff.mp ha]

theorem right_near' (F : Boxes φ box B) (K : Keeps φ 0 (8 / 5) box) (hb : BoxIn φ box) (hx : x.NE φ) (hq : x.Bounds64)
    (hS : ∀ s ∈ S, s ∈ x.set ∧ ∃ k : ℤ, s ∈ B k ∧ |s - k * π| ≤ π / 2)
    (hend : ∀ a : ℝ, x.hi.toE = (a:EReal) → (2:ℝ) ^ (φ.p + 2) < |a| ∨ |a| ≤ 2 ^ φ.p ∧
      ((∃ s ∈ S, ∃ k : ℤ, s ∈ B k ∧ |a - k * π| ≤ π / 2) ∨ ∃ k : ℤ, |a| * 2 ^ (2 - (φ.p:ℤ)) ≤ k * π - a ∧ k * π - a ≤ π / 2)) :
    RightOf φ (φ.rightBox ceilQuo box x) x S := by
  by_cases h0 : x.hi.feq .pinf = true
  · exact right_inf hx h0
  have hl := hi_fin hx h0
  rcases hend _ hl with h | ⟨h, h'⟩
  · exact right_far K hb (Or.inl rfl) hx h0 (ceil_quo _) (Or.inr ⟨rfl, by norm_num, le_rfl, by exact_mod_cast h⟩) (b64_hi hq)
      (fun s hs => (hS s hs).1)
  · refine right_near F hx (fun _ => ⟨by exact_mod_cast h, b64_hi hq⟩) hS (fun a ha => ?_)
    rw [hl] at ha
    rwa [← EReal.coe_eq_coe_iff.mp ha]

end P1788
