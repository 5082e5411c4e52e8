import Verif.Lemmas.RevTrig

/-! # Quotients by pi, moved boxes, and the covering argument of `sin_rev`, `cos_rev`, `tan_rev` -/

namespace P1788

theorem roundInt_N_half (y : ℚ) : |(roundInt .N y : ℚ) - y| ≤ 1 / 2 := by
  have h1 := Int.floor_le y
  have h2 := Int.lt_floor_add_one y
  simp only [roundInt]
  split_ifs with a b c
  · rw [abs_le]; constructor <;> linarith
  · push_cast; rw [abs_le]; constructor <;> linarith
  · rw [abs_le]; constructor <;> linarith
  · push_cast; rw [abs_le]; constructor <;> linarith

theorem quoLow_of_lt {q : ℤ} (h : |q| < 2 ^ 63) : quoLow q = q := by
  unfold quoLow
  rw [Nat.mod_eq_of_lt (by zify; simpa using h)]
  exact Int.sign_mul_natAbs q

/-- `|quoLow q| < 2^63` whatever the quotient. -/
theorem quoLow_abs (q : ℤ) : |quoLow q| < 2 ^ 63 := by
  unfold quoLow
  have h1 : ((q.natAbs % 2 ^ 63 : ℕ) : ℤ) < 2 ^ 63 := by exact_mod_cast Nat.mod_lt _ (by norm_num)
  have h2 : (0:ℤ) ≤ ((q.natAbs % 2 ^ 63 : ℕ) : ℤ) := Int.natCast_nonneg _
  rw [abs_mul, abs_of_nonneg h2]
  have : |q.sign| ≤ 1 := by
    rcases lt_trichotomy q 0 with h | h | h
    · rw [Int.sign_eq_neg_one_of_neg h]; norm_num
    · subst h; simp
    · rw [Int.sign_eq_one_of_pos h]; norm_num
  nlinarith [abs_nonneg q.sign]

theorem quoLow_nonneg {q : ℤ} (h : 0 ≤ q) : 0 ≤ quoLow q := by
  unfold quoLow
  exact mul_nonneg (by rcases h.eq_or_lt with h | h
                       · subst h; simp
                       · rw [Int.sign_eq_one_of_pos h]; norm_num) (Int.natCast_nonneg _)

variable {x y : ℚ}

theorem quo_small (hy : 3 ≤ y) (hx : |x| ≤ 2 ^ 64) : |roundInt .N (x / y)| < 2 ^ 63 := by
  have h := roundInt_N_half (x / y)
  have h1 : |x / y| ≤ 2 ^ 64 / 3 := by
    rw [abs_div, abs_of_pos (by linarith : 0 < y)]
    exact div_le_div₀ (by norm_num) hx (by norm_num) hy
  have h2 : |(roundInt .N (x / y) : ℚ)| ≤ 2 ^ 64 / 3 + 1 / 2 := by
    have := abs_sub_abs_le_abs_sub (roundInt .N (x / y) : ℚ) (x / y)
    linarith
  have h3 : |(roundInt .N (x / y) : ℚ)| < 2 ^ 63 := by norm_num at h2 ⊢; linarith
  exact_mod_cast h3

theorem floorQuo_spec (hy : 3 ≤ y) (hx : |x| ≤ 2 ^ 64) :
    (floorQuo x y : ℚ) * y ≤ x ∧ x < (floorQuo x y + 1) * y := by
  have h := abs_le.mp (roundInt_N_half (x / y))
  have hy0 : 0 < y := by linarith
  have h1 : x / y * y = x := by field_simp
  simp only [floorQuo, quoLow_of_lt (quo_small hy hx)]
  generalize roundInt .N (x / y) = q at *
  split_ifs with c
  · push_cast
    constructor <;> nlinarith
  · constructor <;> nlinarith

theorem ceilQuo_spec (hy : 3 ≤ y) (hx : |x| ≤ 2 ^ 64) :
    ((ceilQuo x y : ℚ) - 1) * y < x ∧ x ≤ ceilQuo x y * y := by
  have h := abs_le.mp (roundInt_N_half (x / y))
  have hy0 : 0 < y := by linarith
  have h1 : x / y * y = x := by field_simp
  simp only [ceilQuo, quoLow_of_lt (quo_small hy hx)]
  generalize roundInt .N (x / y) = q at *
  split_ifs with c
  · push_cast
    constructor <;> nlinarith
  · constructor <;> nlinarith

namespace Fmt
variable (φ : Fmt)

/-- Integers up to `2^p` are numbers of the format. -/
theorem rep_intCast {k : ℤ} (h : |k| ≤ 2 ^ φ.p) : φ.Rep k := by
  have h1 := φ.four_le_maxFin
  have := φ.rep_of_le (m := k) (e := 0) h (by have := φ.p_pos; have := φ.qmin_le; omega)
    (by rw [zpow_zero, mul_one]
        have : (|k| : ℤ) ≤ (2:ℤ) ^ φ.p := h
        have : ((|k| : ℤ) : ℚ) ≤ 2 ^ φ.p := by exact_mod_cast this
        push_cast at this
        linarith)
  simpa using this

theorem rep_small {k : ℤ} (h : |k| ≤ 256) : φ.Rep k :=
  φ.rep_intCast (h.trans (by
    calc (256:ℤ) = 2 ^ 8 := by norm_num
      _ ≤ _ := pow_le_pow_right₀ (by norm_num) φ.p_pos))

/-- `j / 2^i` with small `j`, `i`. -/
theorem rep_dyadic {j : ℤ} {i : ℕ} (h : |j| ≤ 256) (hi : i ≤ 8) : φ.Rep ((j:ℚ) / 2 ^ i) := by
  have h1 := φ.four_le_maxFin
  have h8 : (256:ℤ) ≤ 2 ^ φ.p := by
    calc (256:ℤ) = 2 ^ 8 := by norm_num
      _ ≤ _ := pow_le_pow_right₀ (by norm_num) φ.p_pos
  have e : (j:ℚ) / 2 ^ i = j * 2 ^ (-(i:ℤ)) := by rw [zpow_neg, zpow_natCast]; rfl
  rw [e]
  refine φ.rep_of_le (h.trans h8) (by have := φ.p_pos; have := φ.qmin_le; omega) ?_
  rw [← e, abs_div, abs_of_pos (by positivity : (0:ℚ) < 2 ^ i)]
  have h3 : (|(j:ℚ)|) ≤ 256 := by exact_mod_cast h
  have h4 : ((256:ℤ):ℚ) ≤ 2 ^ φ.p := by exact_mod_cast h8
  have h5 : (1:ℚ) ≤ 2 ^ i := one_le_pow₀ (by norm_num)
  calc |(j:ℚ)| / 2 ^ i ≤ |(j:ℚ)| := div_le_self (abs_nonneg _) h5
    _ ≤ _ := by push_cast at h4; linarith

theorem round_intCast {k : ℤ} (h : |k| ≤ 2 ^ φ.p) : (φ.round .N (k:ℚ)).q = k := by
  have hr := φ.rep_intCast h
  have h1 : φ.roundQ .N (k:ℚ) = k := by
    have := φ.roundQ_rep (m := .N) hr
    rw [roundQ_cast] at this; exact this
  have h2 := abs_le.mp hr.abs_le
  simp only [Fmt.round, h1]
  rw [if_neg (by linarith), if_neg (by linarith)]
  split_ifs with h0
  · rw [h0]; cases decide ((k:ℚ) < 0) <;> rfl
  · rfl

/-- The bounds of pi. -/
theorem pi_q (m : Rnd) : (φ.constPi m).q = φ.roundQ m Real.pi := by
  unfold Fmt.constPi
  exact φ.round_q (by rw [abs_of_pos Real.pi_pos]; linarith [Real.pi_lt_four])

theorem pid_le : ((φ.constPi .D).q : ℝ) ≤ Real.pi := by rw [pi_q]; exact φ.roundQ_D_le _

theorem le_piu : Real.pi ≤ ((φ.constPi .U).q : ℝ) := by rw [pi_q]; exact φ.roundQ_U_ge _

theorem three_le_pid : 3 ≤ (φ.constPi .D).q := by
  rw [pi_q]
  exact φ.le_roundQ_D (by simpa using φ.rep_small (k := 3) (by norm_num)) (by push_cast; exact Real.pi_gt_three.le)

theorem piu_le : (φ.constPi .U).q ≤ 13 / 4 := by
  rw [pi_q]
  refine φ.roundQ_U_le (f := 13 / 4) ?_ (by push_cast; linarith [Real.pi_lt_d2])
  have := φ.rep_dyadic (j := 13) (i := 2) (by norm_num) (by norm_num)
  norm_num at this; exact this

theorem pid_le_piu : (φ.constPi .D).q ≤ (φ.constPi .U).q := by
  have := φ.pid_le.trans φ.le_piu
  exact_mod_cast this

theorem three_le_piu : 3 ≤ (φ.constPi .U).q := φ.three_le_pid.trans φ.pid_le_piu

/-! ## `mpfr_fma` -/

theorem fmaNS_ne_nan (m : Rnd) (a b c : FP) : φ.fmaNS m a b c ≠ .nan := by
  unfold Fmt.fmaNS
  split_ifs
  · cases c.signbit <;> simp [FP.mkZero]
  · cases decide (m = .D) <;> simp [FP.mkZero]
  · exact φ.roundNS_ne_nan m _

theorem fmaNS_zero {m : Rnd} {a b c : FP} (h : a.q * b.q + c.q = 0) : (φ.fmaNS m a b c).toE = 0 ∧ (φ.fmaNS m a b c).In φ := by
  unfold Fmt.fmaNS
  rw [if_pos h]
  split_ifs
  · exact ⟨FP.toE_mkZero _, φ.mkZero_in _⟩
  · exact ⟨FP.toE_mkZero _, φ.mkZero_in _⟩

theorem fmaNS_D_le (a b c : FP) : (φ.fmaNS .D a b c).toE ≤ (((a.q * b.q + c.q : ℚ) : ℝ) : EReal) := by
  by_cases h : a.q * b.q + c.q = 0
  · rw [(φ.fmaNS_zero h).1, h]; simp
  · unfold Fmt.fmaNS; rw [if_neg h]; exact φ.roundNS_D_le _

theorem fmaNS_U_ge (a b c : FP) : (((a.q * b.q + c.q : ℚ) : ℝ) : EReal) ≤ (φ.fmaNS .U a b c).toE := by
  by_cases h : a.q * b.q + c.q = 0
  · rw [(φ.fmaNS_zero h).1, h]; simp
  · unfold Fmt.fmaNS; rw [if_neg h]; exact φ.roundNS_U_ge _

/-- Away from the subnormal range, `mpfr_fma` rounds into the format. -/
theorem fmaNS_exact (m : Rnd) {a b c : FP}
    (h : a.q * b.q + c.q = 0 ∨ φ.thr ≤ |((a.q * b.q + c.q : ℚ) : ℝ)|) :
    (φ.fmaNS m a b c).toE = φ.rndE m (((a.q * b.q + c.q : ℚ) : ℝ) : EReal) ∧ (φ.fmaNS m a b c).In φ := by
  by_cases h0 : a.q * b.q + c.q = 0
  · refine ⟨?_, (φ.fmaNS_zero h0).2⟩
    rw [(φ.fmaNS_zero h0).1, h0, rndE_coe]; push_cast; rw [φ.round_zero]; simp [FP.toE]
  · have h1 := h.resolve_left h0
    unfold Fmt.fmaNS
    rw [if_neg h0, φ.roundNS_big m h1, rndE_coe]
    exact ⟨rfl, φ.round_in _ _⟩

/-! ## Moved boxes -/

/-- `X` has bounds of the format and contains `[l, u]` (if `l ≤ u`). -/
structure Enc (X : Itv) (l u : ℝ) : Prop where
  lo_ne : X.lo ≠ .nan
  hi_ne : X.hi ≠ .nan
  lo_in : X.lo.In φ
  hi_in : X.hi.In φ
  lo_le : X.lo.toE ≤ (l : EReal)
  le_hi : (u : EReal) ≤ X.hi.toE

variable {φ}

theorem Enc.ne {X : Itv} {l u : ℝ} (h : φ.Enc X l u) (hlu : l ≤ u) : X.NE φ where
  lo_ne := h.lo_ne
  hi_ne := h.hi_ne
  le := h.lo_le.trans ((EReal.coe_le_coe_iff.mpr hlu).trans h.le_hi)
  lo_top := fun e => by have := h.lo_le; rw [e] at this; exact absurd this (by simp)
  hi_bot := fun e => by have := h.le_hi; rw [e] at this; exact absurd this (by simp)
  lo_in := h.lo_in
  hi_in := h.hi_in

theorem shift_enc {k : ℤ} {a b cl cu : FP} (hk : |k| ≤ 2 ^ φ.p) :
    φ.Enc (φ.shiftBox k a b cl cu) (k * a.q + cl.q) (k * b.q + cu.q) := by
  have e := φ.round_intCast hk
  obtain ⟨n1, v1, i1⟩ := conv_spec φ .D (φ.fmaNS_ne_nan .D (φ.round .N (k:ℚ)) a cl)
  obtain ⟨n2, v2, i2⟩ := conv_spec φ .U (φ.fmaNS_ne_nan .U (φ.round .N (k:ℚ)) b cu)
  have b1 := φ.fmaNS_D_le (φ.round .N (k:ℚ)) a cl
  have b2 := φ.fmaNS_U_ge (φ.round .N (k:ℚ)) b cu
  rw [e] at b1 b2
  push_cast at b1 b2
  refine ⟨n1, n2, i1, i2, ?_, ?_⟩
  · show (φ.conv .D _).toE ≤ _
    rw [v1, rndE_D]; exact (φ.rdE_le _).trans (by exact_mod_cast b1)
  · show _ ≤ (φ.conv .U _).toE
    rw [v2, rndE_U]; exact le_trans (by exact_mod_cast b2) (φ.le_ruE _)

theorem mirror_enc {k : ℤ} {a b cl cu : FP} (hk : |k| ≤ 2 ^ φ.p)
    (h1 : k * a.q + cu.q = 0 ∨ φ.thr ≤ |((k * a.q + cu.q : ℚ) : ℝ)|)
    (h2 : k * b.q + cl.q = 0 ∨ φ.thr ≤ |((k * b.q + cl.q : ℚ) : ℝ)|) :
    φ.Enc (φ.mirrorBox k a b cl cu) (-(k * a.q + cu.q)) (-(k * b.q + cl.q)) := by
  have e := φ.round_intCast hk
  obtain ⟨n1, v1, i1⟩ := conv_spec φ .D (φ.fmaNS_ne_nan .U (φ.round .N (k:ℚ)) a cu)
  obtain ⟨n2, v2, i2⟩ := conv_spec φ .U (φ.fmaNS_ne_nan .D (φ.round .N (k:ℚ)) b cl)
  have x1 := φ.fmaNS_exact .U (a := φ.round .N (k:ℚ)) (b := a) (c := cu) (by rw [e]; exact h1)
  have x2 := φ.fmaNS_exact .D (a := φ.round .N (k:ℚ)) (b := b) (c := cl) (by rw [e]; exact h2)
  have b1 := φ.fmaNS_U_ge (φ.round .N (k:ℚ)) a cu
  have b2 := φ.fmaNS_D_le (φ.round .N (k:ℚ)) b cl
  rw [e] at b1 b2
  push_cast at b1 b2
  refine ⟨by simpa [Fmt.mirrorBox] using n1, by simpa [Fmt.mirrorBox] using n2, FP.neg_in i1, FP.neg_in i2, ?_, ?_⟩
  · show (φ.conv .D _).neg.toE ≤ _
    rw [FP.toE_neg, v1, rndE_D, φ.rdE_of_in x1.2 (φ.fmaNS_ne_nan _ _ _ _)]
    have := EReal.neg_le_neg_iff.mpr b1
    exact_mod_cast this
  · show _ ≤ (φ.conv .U _).neg.toE
    rw [FP.toE_neg, v2, rndE_U, φ.ruE_of_in x2.2 (φ.fmaNS_ne_nan _ _ _ _)]
    have := EReal.neg_le_neg_iff.mpr b2
    exact_mod_cast this

end Fmt
end P1788
