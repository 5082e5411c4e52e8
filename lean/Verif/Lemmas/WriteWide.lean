import Verif.Lemmas.WriteLen
import Verif.Lemmas.MpfrVar

/-! # The length of printed numbers -/

namespace P1788

variable {φ : Fmt}

/-- A number width that has room for every number of the format: sign, digits, point and exponent. -/
def Fmt.needWidth (φ : Fmt) (r : NumRep) (prec : ℕ) : ℕ :=
  let P := if prec = 0 then 6 else prec
  match r with
  | .dec => 1 + (Nat.log 10 (2 ^ φ.emax.toNat) + 1) + 1 + P
  | .sci => 1 + 1 + 1 + P + 2 + max 2 (Nat.log 10 (Nat.log 10 (2 ^ φ.E) + 1) + 1)
  | .decSci => 1 + 1 + P + 2 + max 2 (Nat.log 10 (Nat.log 10 (2 ^ φ.E) + 1) + 1)
  | .hex => 1 + 2 + 1 + 1 + (if prec = 0 then (φ.p - 1 + 3) / 4 else prec) + 2 + (Nat.log 10 (4 * (Nat.log 16 (2 ^ φ.E) + 1)) + 1)

theorem log_sharp {b : ℕ} (hb : 1 < b) {q : ℚ} (hq : 0 < q) {E : ℕ} (h1 : (2 : ℚ) ^ (-(E : ℤ)) ≤ q) (h2 : q ≤ 2 ^ (E : ℤ)) :
    -((Nat.log b (2 ^ E) + 1 : ℕ) : ℤ) ≤ Int.log b q ∧ Int.log b q ≤ (Nat.log b (2 ^ E) : ℕ) := by
  have hb0 : (0 : ℚ) < b := by exact_mod_cast (zero_lt_one.trans hb)
  constructor
  · rw [← Int.zpow_le_iff_le_log hb hq]
    refine le_trans ?_ h1
    rw [zpow_neg, zpow_neg, zpow_natCast, zpow_natCast]
    refine inv_anti₀ (pow_pos two_pos _) ?_
    exact_mod_cast (Nat.lt_pow_succ_log_self hb (2 ^ E)).le
  · by_contra h
    push Not at h
    have h3 : (b : ℚ) ^ (((Nat.log b (2 ^ E) + 1 : ℕ)) : ℤ) ≤ q := (Int.zpow_le_iff_le_log hb hq).mpr (by push_cast; omega)
    have h4 : ((2 ^ E : ℕ) : ℚ) < ((b ^ (Nat.log b (2 ^ E) + 1) : ℕ) : ℚ) := by exact_mod_cast Nat.lt_pow_succ_log_self hb (2 ^ E)
    rw [zpow_natCast] at h3 h2
    push_cast at h4
    linarith

theorem sigDigits_sharp {b n : ℕ} (hb : 1 < b) {m : Rnd} {q : ℚ} (hq : 0 ≤ q) {E : ℕ} (hE : Within E q) :
    (sigDigits b n m q).2.natAbs ≤ Nat.log b (2 ^ E) + 1 := by
  unfold sigDigits
  by_cases h0 : q = 0
  · rw [if_pos h0]; simp
  rw [if_neg h0]
  have hq' : 0 < q := lt_of_le_of_ne hq (Ne.symm h0)
  obtain ⟨h1, h2⟩ := log_sharp hb hq' (hE.resolve_left h0).1 (hE.resolve_left h0).2
  simp only
  split_ifs <;> simp only <;> omega

theorem roundInt_toNat_le {m : Rnd} {q : ℚ} {N : ℕ} (h : q ≤ N) : (roundInt m q).toNat ≤ N := by
  rw [Int.toNat_le]
  exact roundInt_le' m (by exact_mod_cast h)

theorem length_fixedText_le {strip : Bool} {k N : ℕ} {m : Rnd} {q : ℚ} (h : q * 10 ^ k ≤ N) :
    (fixedText strip k m q).length ≤ max (k + 1) (Nat.log 10 N + 1) + 1 := by
  unfold fixedText
  simp only
  have h3 : (roundInt m (q * 10 ^ k)).toNat ≤ N := roundInt_toNat_le h
  have h4 : (natText 10 false (k + 1) (roundInt m (q * 10 ^ k)).toNat).length ≤ max (k + 1) (Nat.log 10 N + 1) := by
    rw [length_natText]
    have := Nat.log_mono_right (b := 10) h3
    omega
  generalize natText 10 false (k + 1) (roundInt m (q * 10 ^ k)).toNat = ds at h4 ⊢
  refine length_pointText_le.trans ?_
  rw [List.length_take, List.length_drop]
  omega

theorem length_sciText_le {strip up : Bool} {k : ℕ} {m : Rnd} {q : ℚ} (hq : 0 ≤ q) {E : ℕ} (hE : Within E q) :
    (sciText strip up k m q).length ≤ k + 4 + max 2 (Nat.log 10 (Nat.log 10 (2 ^ E) + 1) + 1) := by
  unfold sciText
  simp only [List.length_append, length_expText]
  have hl : (lastDigits 10 false (k + 1) (sigDigits 10 (k + 1) m q).1).length = k + 1 := length_lastDigits
  have he := Nat.log_mono_right (b := 10) (sigDigits_sharp (b := 10) (n := k + 1) (m := m) (by norm_num) hq hE)
  generalize lastDigits 10 false (k + 1) (sigDigits 10 (k + 1) m q).1 = ds at hl ⊢
  have := length_pointText_le (strip := strip) (ip := ds.take 1) (fp := ds.drop 1)
  rw [List.length_take, List.length_drop] at this
  omega

theorem length_genText_le {up : Bool} {t : ℕ} (ht : 0 < t) {m : Rnd} {q : ℚ} (hq : 0 ≤ q) {E : ℕ} (hE : Within E q) :
    (genText up t m q).length ≤ t + 3 + max 2 (Nat.log 10 (Nat.log 10 (2 ^ E) + 1) + 1) := by
  unfold genText
  simp only
  split_ifs with h
  · set X := (sigDigits 10 t m q).2 with hX
    have hlt : q * 10 ^ (t - 1 - X).toNat < ((10 ^ t : ℕ) : ℚ) := by
      rcases eq_or_lt_of_le hq with h0 | h0
      · rw [← h0, zero_mul]; exact_mod_cast (by positivity)
      have hlog : Int.log 10 q ≤ X := by
        rw [hX]; unfold sigDigits
        rw [if_neg h0.ne']
        simp only
        split_ifs <;> simp
      have h5 : q < (10:ℚ) ^ (X + 1) := by
        have := (Int.lt_zpow_succ_log_self (b := 10) (by norm_num) q)
        refine lt_of_lt_of_le (by exact_mod_cast this) (zpow_le_zpow_right₀ (by norm_num) (by omega))
      have e : ((10:ℚ) ^ (t - 1 - X).toNat) = (10:ℚ) ^ ((t:ℤ) - 1 - X) := by
        rw [← zpow_natCast, Int.toNat_of_nonneg (by omega)]
      rw [e]
      calc q * (10:ℚ) ^ ((t:ℤ) - 1 - X) < (10:ℚ) ^ (X + 1) * (10:ℚ) ^ ((t:ℤ) - 1 - X) := by
            exact mul_lt_mul_of_pos_right h5 (zpow_pos (by norm_num) _)
        _ = ((10 ^ t : ℕ) : ℚ) := by
            rw [← zpow_add₀ (by norm_num)]
            push_cast
            rw [← zpow_natCast]
            congr 1
            ring
    have := length_fixedText_le (strip := true) (m := m) hlt.le
    rw [Nat.log_pow (by norm_num)] at this
    omega
  · have := length_sciText_le (strip := true) (up := up) (k := t - 1) (m := m) hq hE
    omega

theorem log_mul_pow {b n : ℕ} (hb : 1 < b) (hn : n ≠ 0) : ∀ {k : ℕ}, Nat.log b (n * b ^ k) = Nat.log b n + k
  | 0 => by simp
  | k + 1 => by
    rw [pow_succ, ← mul_assoc, Nat.log_mul_base hb (by positivity), log_mul_pow hb hn]
    ring

theorem rep_le_pow {q : ℚ} (h : φ.Rep q) : q ≤ (2 ^ φ.emax.toNat : ℕ) := by
  refine ((le_abs_self q).trans h.abs_le).trans ?_
  unfold Fmt.maxFin
  have h1 : ((2:ℚ) ^ φ.p - 1) * 2 ^ (φ.emax - φ.p) ≤ 2 ^ φ.p * 2 ^ (φ.emax - φ.p) :=
    mul_le_mul_of_nonneg_right (by linarith) (zpow_nonneg (by norm_num) _)
  refine h1.trans ?_
  rw [← zpow_natCast (2:ℚ) φ.p, ← zpow_add₀ (by norm_num)]
  push_cast
  rw [← zpow_natCast]
  refine zpow_le_zpow_right₀ (by norm_num) ?_
  have := Int.self_le_toNat φ.emax
  omega

theorem magText_width {r : NumRep} {up : Bool} {prec : ℕ} {m : Rnd} {q : ℚ} (hr : φ.Rep q) (hq : 0 ≤ q) :
    (φ.magText r up prec m q).length + 1 ≤ φ.needWidth r prec := by
  have hE := φ.rep_within hr hq
  unfold Fmt.magText Fmt.needWidth
  set P := if prec = 0 then 6 else prec with hP
  have hP0 : 0 < P := by rw [hP]; split_ifs <;> omega
  cases r with
  | dec =>
    simp only
    have h1 : q * 10 ^ P ≤ ((2 ^ φ.emax.toNat * 10 ^ P : ℕ) : ℚ) := by
      push_cast
      exact mul_le_mul_of_nonneg_right (by exact_mod_cast rep_le_pow hr) (by positivity)
    have := length_fixedText_le (strip := false) (m := m) h1
    have h2 : Nat.log 10 (2 ^ φ.emax.toNat * 10 ^ P) = Nat.log 10 (2 ^ φ.emax.toNat) + P :=
      log_mul_pow (by norm_num) (by positivity)
    omega
  | sci =>
    simp only
    have := length_sciText_le (strip := false) (up := up) (k := P) (m := m) hq hE
    omega
  | decSci =>
    simp only
    have := length_genText_le (up := up) hP0 (m := m) hq hE
    omega
  | hex =>
    simp only
    have key : ∀ (strip : Bool) (k : ℕ), (hexText strip up k m q).length ≤ 6 + k + (Nat.log 10 (4 * (Nat.log 16 (2 ^ φ.E) + 1)) + 1) := by
      intro strip k
      refine length_hexText.trans ?_
      have h1 := sigDigits_sharp (b := 16) (n := k + 1) (m := m) (by norm_num) hq hE
      have h2 : (4 * (sigDigits 16 (k + 1) m q).2).natAbs ≤ 4 * (Nat.log 16 (2 ^ φ.E) + 1) := by
        rw [Int.natAbs_mul]; simpa using h1
      have := Nat.log_mono_right (b := 10) h2
      omega
    split_ifs
    · have := key true ((φ.p - 1 + 3) / 4); omega
    · have := key false prec; omega

theorem numText_width {r : NumRep} {up : Bool} {prec : ℕ} {m : Rnd} {x : FP} (hx : x.In φ) :
    (φ.numText r up prec m x).length ≤ φ.needWidth r prec := by
  have h4 : 4 ≤ φ.needWidth r prec := by
    unfold Fmt.needWidth
    cases r <;> simp only <;> split_ifs <;> omega
  cases x with
  | nan => refine le_trans ?_ h4; cases up <;> simp [Fmt.numText]
  | ninf => refine le_trans ?_ h4; cases up <;> simp [Fmt.numText]
  | pinf => refine le_trans ?_ h4; cases up <;> simp [Fmt.numText]
  | nzero => exact magText_width φ.rep_zero le_rfl
  | fin q =>
    change (if q < 0 then _ else _ : List Char).length ≤ _
    by_cases h : q < 0
    · rw [if_pos h]; exact magText_width hx.neg (by linarith)
    · rw [if_neg h]; exact (Nat.le_succ _).trans (magText_width hx (not_lt.mp h))

/-- A number width that is large enough makes the buffer large enough. -/
theorem getStr_wide {slack : ℕ} {m : Rnd} {r : NumRep} {width prec : ℕ} {up : Bool} {x : FP} (hx : x.In φ) (h : φ.needWidth r prec ≤ width)
    (hw : width < 2 ^ 31) : ∃ t, φ.getStr slack m r width prec up x = .ok t := by
  rcases getStr_cases (φ := φ) (slack := slack) (m := m) (r := r) (width := width) (prec := prec) (up := up) (x := x) with h1 | h1
  · exfalso
    have h2 := numText_width (r := r) (up := up) (prec := prec) (m := m) hx
    have h3 : width ≤ φ.reqWidth r width prec := by
      unfold Fmt.reqWidth
      simp only
      split_ifs <;> omega
    rcases h1.2 with h | h <;> omega
  · exact h1.1

end P1788
