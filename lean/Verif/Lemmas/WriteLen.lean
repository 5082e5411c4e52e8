import Verif.Lemmas.Write

/-! Helper lemmas: the length of printed numbers. -/

namespace P1788
variable {φ : Fmt}

theorem length_pointText_le {strip : Bool} {ip fp : List Char} : (pointText strip ip fp).length ≤ ip.length + 1 + fp.length := by
  have h : ((fp.reverse.dropWhile (fun c => c = '0')).reverse).length ≤ fp.length := by
    rw [List.length_reverse]
    have := (List.dropWhile_sublist (l := fp.reverse) (fun c => decide (c = '0'))).length_le
    rwa [List.length_reverse] at this
  unfold pointText
  cases strip with
  | false =>
    simp only [Bool.false_eq_true, if_false]
    split_ifs
    · simp; omega
    · simp; omega
  | true =>
    simp only [if_true]
    split_ifs
    · simp; omega
    · rw [List.length_append, List.length_cons]; omega

theorem length_pointText {ip fp : List Char} (h : fp ≠ []) : (pointText false ip fp).length = ip.length + 1 + fp.length := by
  unfold pointText
  simp [h]
  omega

theorem length_fixedText {k : ℕ} (hk : 0 < k) {m : Rnd} {q : ℚ} : k + 2 ≤ (fixedText false k m q).length := by
  unfold fixedText
  simp only
  have hl : k + 1 ≤ (natText 10 false (k + 1) (roundInt m (q * 10 ^ k)).toNat).length := by rw [length_natText]; exact le_max_left _ _
  generalize natText 10 false (k + 1) (roundInt m (q * 10 ^ k)).toNat = ds at hl ⊢
  rw [length_pointText (List.ne_nil_of_length_pos (by rw [List.length_drop]; omega)), List.length_take, List.length_drop]
  omega

theorem length_sciText {up : Bool} {k : ℕ} (hk : 0 < k) {m : Rnd} {q : ℚ} : k + 2 ≤ (sciText false up k m q).length := by
  unfold sciText
  simp only
  have hl : (lastDigits 10 false (k + 1) (sigDigits 10 (k + 1) m q).1).length = k + 1 := length_lastDigits
  generalize lastDigits 10 false (k + 1) (sigDigits 10 (k + 1) m q).1 = ds at hl ⊢
  rw [List.length_append, length_pointText (List.ne_nil_of_length_pos (by rw [List.length_drop]; omega)), List.length_take, List.length_drop]
  omega

theorem magText_ne {r : NumRep} {up : Bool} {prec : ℕ} {m : Rnd} {q : ℚ} : φ.magText r up prec m q ≠ [] := by
  have hpt : ∀ {strip : Bool} {ip fp : List Char}, ip ≠ [] → pointText strip ip fp ≠ [] := by
    intro strip ip fp h
    unfold pointText
    simp [h]
  have hfix : ∀ {strip : Bool} {k : ℕ}, fixedText strip k m q ≠ [] := by
    intro strip k
    refine hpt (List.ne_nil_of_length_pos ?_)
    rw [List.length_take, length_natText]; omega
  have hsci : ∀ {strip : Bool} {k : ℕ}, sciText strip up k m q ≠ [] := by
    intro strip k
    unfold sciText expText
    simp
  unfold Fmt.magText
  cases r with
  | dec => exact hfix
  | sci => exact hsci
  | decSci =>
    simp only
    generalize (if prec = 0 then 6 else prec) = p
    unfold genText
    simp only
    split_ifs
    · exact hfix
    · exact hsci
  | hex =>
    simp only
    unfold hexText
    split_ifs <;> simp

theorem numText_pos {r : NumRep} {up : Bool} {prec : ℕ} {m : Rnd} {x : FP} : 0 < (φ.numText r up prec m x).length := by
  cases x with
  | nan => cases up <;> exact Nat.succ_pos _
  | ninf => cases up <;> exact Nat.succ_pos _
  | pinf => cases up <;> exact Nat.succ_pos _
  | nzero => exact Nat.succ_pos _
  | fin q =>
    change 0 < (if q < 0 then _ else _ : List Char).length
    split_ifs
    · exact Nat.succ_pos _
    · exact List.length_pos_of_ne_nil magText_ne

/-- Fixed and scientific notation: the digits after the point, the point and a digit before it. -/
theorem numText_len {r : NumRep} (hr : r = .dec ∨ r = .sci) {up : Bool} {prec : ℕ} {m : Rnd} {x : FP} (h1 : x ≠ .nan) (h2 : x ≠ .ninf) (h3 : x ≠ .pinf) :
    (if prec = 0 then 6 else prec) + 2 ≤ (φ.numText r up prec m x).length := by
  have hp : 0 < (if prec = 0 then 6 else prec) := by split_ifs <;> omega
  have hm : ∀ {m : Rnd} {q : ℚ}, (if prec = 0 then 6 else prec) + 2 ≤ (φ.magText r up prec m q).length := by
    intro m q
    unfold Fmt.magText
    simp only
    rcases hr with rfl | rfl
    · exact length_fixedText hp
    · exact length_sciText hp
  generalize (if prec = 0 then 6 else prec) = p at hm
  cases x with
  | nan => exact absurd rfl h1
  | ninf => exact absurd rfl h2
  | pinf => exact absurd rfl h3
  | nzero => exact Nat.le_succ_of_le hm
  | fin q =>
    change _ ≤ (if q < 0 then _ else _ : List Char).length
    split_ifs
    · exact Nat.le_succ_of_le hm
    · exact hm

theorem getStr_cases {slack : ℕ} {m : Rnd} {r : NumRep} {width prec : ℕ} {up : Bool} {x : FP} :
    (φ.getStr slack m r width prec up x = .ub ∧
      (φ.reqWidth r width prec + slack < max width (φ.numText r up prec m x).length ∨ 2 ^ 31 ≤ max width (φ.numText r up prec m x).length)) ∨
    (∃ t, φ.getStr slack m r width prec up x = .ok t) ∧
      ¬ (φ.reqWidth r width prec + slack < max width (φ.numText r up prec m x).length ∨ 2 ^ 31 ≤ max width (φ.numText r up prec m x).length) := by
  have hl : (blanks (width - (φ.numText r up prec m x).length) ++ φ.numText r up prec m x).length = max width (φ.numText r up prec m x).length := by
    unfold blanks
    rw [List.length_append, List.length_replicate]
    omega
  unfold Fmt.getStr
  simp only
  rw [hl]
  split_ifs with h
  · exact Or.inl ⟨rfl, h⟩
  · exact Or.inr ⟨⟨_, rfl⟩, h⟩

theorem getStr_ub {slack : ℕ} {m : Rnd} {r : NumRep} {width prec : ℕ} {up : Bool} {x : FP}
    (h : φ.reqWidth r width prec + slack < max width (φ.numText r up prec m x).length) : φ.getStr slack m r width prec up x = .ub := by
  rcases getStr_cases (φ := φ) (slack := slack) (m := m) (r := r) (width := width) (prec := prec) (up := up) (x := x) with h1 | h1
  · exact h1.1
  · exact absurd (Or.inl h) h1.2

/-! ### Hexadecimal numbers -/

theorem sigDigits_hex {q : ℚ} (h : φ.Rep q) (h0 : 0 < q) {m : Rnd} : (sigDigits 16 ((φ.p - 1 + 3) / 4 + 1) m q).2 = Int.log 16 q := by
  obtain ⟨z, hz⟩ := rep_hex h h0
  set k := (φ.p - 1 + 3) / 4 with hk
  set X := Int.log 16 q with hX
  have hs : (0 : ℚ) < 16 ^ (X - k) := zpow_pos (by norm_num) _
  have he : X - ((k + 1 : ℕ) : ℤ) + 1 = X - k := by push_cast; ring
  unfold sigDigits
  rw [if_neg h0.ne']
  simp only
  push_cast
  rw [← hX, show X - ((k : ℤ) + 1) + 1 = X - k by ring]
  have e : q / (16 : ℚ) ^ (X - (k : ℤ)) = (z : ℤ) := by
    rw [div_eq_iff hs.ne']; exact hz
  rw [e, roundInt_of_int, if_neg]
  intro hc
  have h1 := Int.lt_zpow_succ_log_self (b := 16) (by norm_num) q
  have h2 : (z : ℚ) = 16 ^ (k + 1) := by
    have : z = ((z.toNat : ℕ) : ℤ) := (Int.toNat_of_nonneg (by
      by_contra hh
      have : z.toNat = 0 := by omega
      rw [this] at hc
      exact absurd hc (by positivity))).symm
    rw [this, hc]; push_cast; rfl
  push_cast at h1
  rw [← hX] at h1
  rw [hz, h2, ← zpow_natCast, ← zpow_add₀ (by norm_num)] at h1
  refine absurd h1 (not_lt.mpr (zpow_le_zpow_right₀ (by norm_num) ?_))
  push_cast
  omega

theorem log_hex {q : ℚ} (h : φ.Rep q) (h0 : 0 < q) : (4 * Int.log 16 q).natAbs ≤ (max (-(φ.qmin + 1)) φ.emax).toNat + 4 := by
  have e16 : ∀ z : ℤ, (16 : ℚ) ^ z = 2 ^ (4 * z) := by
    intro z
    rw [zpow_mul]; norm_num
  have h1 := log_le (b := 16) (by norm_num) h0
  have h2 := Int.lt_zpow_succ_log_self (b := 16) (by norm_num) q
  push_cast at h1 h2
  rw [e16] at h1 h2
  set X := Int.log 16 q
  obtain ⟨k, hk⟩ := φ.rep_mult h
  have hq : (2 : ℚ) ^ φ.qmin ≤ q := by
    have hp : (0 : ℚ) < 2 ^ φ.qmin := zpow_pos two_pos _
    have hk0 : 1 ≤ k := by
      by_contra hc
      push Not at hc
      have : (k : ℚ) ≤ 0 := by exact_mod_cast (by omega : k ≤ 0)
      have := mul_nonpos_of_nonpos_of_nonneg this hp.le
      rw [← hk] at this
      linarith
    have : (1 : ℚ) ≤ k := by exact_mod_cast hk0
    rw [hk]
    nlinarith
  have hq' : q < 2 ^ φ.emax := by
    have h2 := h.abs_le
    rw [abs_of_pos h0] at h2
    refine lt_of_le_of_lt h2 ?_
    unfold Fmt.maxFin
    have e : (2 : ℚ) ^ φ.emax = 2 ^ φ.p * 2 ^ (φ.emax - φ.p) := by
      rw [← zpow_natCast, ← zpow_add₀ two_ne_zero]; congr 1; ring
    rw [e]
    have : (0 : ℚ) < 2 ^ (φ.emax - φ.p) := zpow_pos two_pos _
    nlinarith
  have a1 : 4 * X < φ.emax := (zpow_lt_zpow_iff_right₀ (by norm_num : (1 : ℚ) < 2)).mp (lt_of_le_of_lt h1 hq')
  have a2 : φ.qmin < 4 * (X + 1) := (zpow_lt_zpow_iff_right₀ (by norm_num : (1 : ℚ) < 2)).mp (lt_of_le_of_lt hq h2)
  omega

theorem length_expText {c : Char} {k : ℕ} {e : ℤ} : (expText c k e).length = 2 + max k (Nat.log 10 e.natAbs + 1) := by
  unfold expText
  simp only [List.length_cons, length_natText]
  omega

theorem length_hexText {strip up : Bool} {k : ℕ} {m : Rnd} {q : ℚ} :
    (hexText strip up k m q).length ≤ 6 + k + (Nat.log 10 (4 * (sigDigits 16 (k + 1) m q).2).natAbs + 1) := by
  unfold hexText
  simp only [List.length_cons, List.length_append, length_expText]
  have hl : (lastDigits 16 up (k + 1) (sigDigits 16 (k + 1) m q).1).length = k + 1 := length_lastDigits
  generalize lastDigits 16 up (k + 1) (sigDigits 16 (k + 1) m q).1 = ds at hl ⊢
  have := length_pointText_le (strip := strip) (ip := ds.take 1) (fp := ds.drop 1)
  rw [List.length_take, List.length_drop] at this
  omega

theorem numText_hex {up : Bool} {m : Rnd} {x : FP} (hx : x.In φ) {width : ℕ} : (φ.numText .hex up 0 m x).length ≤ φ.reqWidth .hex width 0 := by
  set n := 5 + ((φ.p + 3) / 4) + 1 + 2 + (Nat.log 10 ((max (-(φ.qmin + 1)) φ.emax + 1).toNat / 3) + 1) with hn
  have hreq : n ≤ φ.reqWidth .hex width 0 := by
    unfold Fmt.reqWidth
    simp only
    split_ifs <;> omega
  refine le_trans ?_ hreq
  have hmag : ∀ {m : Rnd} {q : ℚ}, φ.Rep q → 0 ≤ q → (φ.magText .hex up 0 m q).length + 1 ≤ n := by
    intro m q hr h0
    unfold Fmt.magText
    simp only [if_true]
    refine le_trans (Nat.add_le_add_right length_hexText 1) ?_
    have hem := φ.emax_ge
    rcases eq_or_lt_of_le h0 with h0 | h0
    · subst h0
      have : (sigDigits 16 ((φ.p - 1 + 3) / 4 + 1) m 0).2 = 0 := by simp [sigDigits]
      rw [this]
      simp only [mul_zero, Int.natAbs_zero, Nat.log_zero_right]
      omega
    · rw [sigDigits_hex hr h0]
      have h1 := log_hex hr h0
      set M := (max (-(φ.qmin + 1)) φ.emax) with hM
      set f := (M + 1).toNat / 3 with hf
      have h2 : Nat.log 10 (4 * Int.log 16 q).natAbs ≤ Nat.log 10 f + 1 := by
        by_cases hf0 : f = 0
        · have : (4 * Int.log 16 q).natAbs < 10 := by omega
          rw [Nat.log_of_lt this]; omega
        · have h3 : (4 * Int.log 16 q).natAbs ≤ f * 10 := by omega
          refine (Nat.log_mono_right h3).trans ?_
          rw [Nat.log_mul_base (by norm_num) hf0]
      omega
  have h4 : 4 ≤ n := by omega
  cases x with
  | nan => refine le_trans ?_ h4; cases up <;> simp [Fmt.numText]
  | ninf => refine le_trans ?_ h4; cases up <;> simp [Fmt.numText]
  | pinf => refine le_trans ?_ h4; cases up <;> simp [Fmt.numText]
  | nzero => exact hmag φ.rep_zero le_rfl
  | fin q =>
    change (if q < 0 then _ else _ : List Char).length ≤ n
    by_cases h : q < 0
    · rw [if_pos h]; exact hmag hx.neg (by linarith)
    · rw [if_neg h]; exact (Nat.le_succ _).trans (hmag hx (not_lt.mp h))

theorem getStr_hex {slack : ℕ} {m : Rnd} {width : ℕ} {up : Bool} {x : FP} (hx : x.In φ) (hw : width < 2 ^ 31) (hn : φ.reqWidth .hex 0 0 < 2 ^ 31) :
    ∃ t, φ.getStr slack m .hex width 0 up x = .ok t := by
  rcases getStr_cases (φ := φ) (slack := slack) (m := m) (r := .hex) (width := width) (prec := 0) (up := up) (x := x) with h | h
  · exfalso
    have h1 := numText_hex (up := up) (m := m) hx (width := width)
    have h2 := numText_hex (up := up) (m := m) hx (width := 0)
    have h3 : width ≤ φ.reqWidth .hex width 0 := by
      unfold Fmt.reqWidth
      simp only
      split_ifs <;> omega
    rcases h.2 with h | h <;> omega
  · exact h.1

end P1788
