import Verif.Lemmas.WriteNum
import Verif.Lemmas.Nearest
import Verif.Lemmas.Num

/-! Helper lemmas: bounds and intervals as text. -/

namespace P1788
variable {φ : Fmt}

/-- A bound for the exponents of the format. -/
def Fmt.E (φ : Fmt) : ℕ := (max (-φ.qmin) φ.emax).toNat

theorem Fmt.rep_within {q : ℚ} (h : φ.Rep q) (h0 : 0 ≤ q) : Within φ.E q := by
  rcases eq_or_lt_of_le h0 with h1 | h1
  · exact Or.inl h1.symm
  right
  have hE : (φ.E : ℤ) = max (-φ.qmin) φ.emax := Int.toNat_of_nonneg (le_trans (by have := φ.emax_ge; omega) (le_max_right _ _))
  constructor
  · obtain ⟨k, hk⟩ := φ.rep_mult h
    have hp : (0 : ℚ) < 2 ^ φ.qmin := zpow_pos two_pos _
    have hk0 : 1 ≤ k := by
      by_contra hc
      push Not at hc
      have : (k : ℚ) ≤ 0 := by exact_mod_cast (by omega : k ≤ 0)
      have := mul_nonpos_of_nonpos_of_nonneg this hp.le
      rw [← hk] at this
      linarith
    calc (2 : ℚ) ^ (-(φ.E : ℤ)) ≤ 2 ^ φ.qmin := zpow_le_zpow_right₀ (by norm_num) (by rw [hE]; omega)
      _ ≤ k * 2 ^ φ.qmin := by
        have : (1 : ℚ) ≤ k := by exact_mod_cast hk0
        nlinarith
      _ = q := hk.symm
  · have h2 := h.abs_le
    rw [abs_of_pos h1] at h2
    refine h2.trans ?_
    have h3 : φ.maxFin ≤ 2 ^ φ.emax := by
      unfold Fmt.maxFin
      have e : (2 : ℚ) ^ φ.emax = 2 ^ φ.p * 2 ^ (φ.emax - φ.p) := by
        rw [← zpow_natCast, ← zpow_add₀ two_ne_zero]; congr 1; ring
      rw [e]
      have : (0 : ℚ) < 2 ^ (φ.emax - φ.p) := zpow_pos two_pos _
      nlinarith
    refine h3.trans (zpow_le_zpow_right₀ (by norm_num) (by rw [hE]; omega))

/-- The exponents of a printed number are at most that large. -/
def Fmt.B (φ : Fmt) (prec : ℕ) : ℕ := 4 * (prec + φ.p + φ.E + 10)

/-- What is known about a printed number. -/
def NumInfo.Small (B : ℕ) (N : NumInfo) : Prop := N.plus = false ∧ |N.exp| ≤ B ∧ |N.scale| ≤ B

theorem Dir.neg {τ : ℚ} {m : Rnd} {v q : ℚ} (h : Dir τ (m.mag true) v (-q)) : Dir τ m (-v) q := by
  obtain ⟨h1, h2, h3⟩ := h
  refine ⟨?_, ?_, by rw [← abs_neg]; convert h3 using 2; ring⟩
  · rintro rfl
    have := h2 rfl
    linarith
  · rintro rfl
    have := h1 rfl
    linarith

theorem DecMag.num {B : ℕ} {τ : ℚ} {m : Rnd} {q : ℚ} {t : List Char} (h : DecMag B τ m q t) : ∃ v N, NumText t v N ∧ Dir τ m v q ∧ N.Small B := by
  obtain ⟨mt, x, v, k, e, rfl, hm, hx, hd, b1, b2⟩ := h
  have := NumText.dec (s := []) (sg := 1) (Or.inl ⟨Or.inl rfl, rfl⟩) hm hx
  refine ⟨_, _, by simpa using this, ?_, by simp, b1, b2⟩
  simpa using hd

theorem DecMag.num_neg {B : ℕ} {τ : ℚ} {m : Rnd} {q : ℚ} {t : List Char} (h : DecMag B τ (m.mag true) (-q) t) :
    ∃ v N, NumText ('-' :: t) v N ∧ Dir τ m v q ∧ N.Small B := by
  obtain ⟨mt, x, v, k, e, rfl, hm, hx, hd, b1, b2⟩ := h
  have := NumText.dec (s := ['-']) (sg := -1) (Or.inr ⟨rfl, rfl⟩) hm hx
  refine ⟨_, _, by simpa using this, ?_, by simp, b1, b2⟩
  simpa using hd.neg

theorem HexMag.num {B : ℕ} {τ : ℚ} {m : Rnd} {q : ℚ} {t : List Char} (h : HexMag B τ m q t) : ∃ v N, NumText t v N ∧ Dir τ m v q ∧ N.Small B := by
  obtain ⟨mt, v, k, e, c, d, y, rfl, hc, hd', hm, hy, hd, b1, b2⟩ := h
  have := NumText.hex (s := []) (sg := 1) (Or.inl ⟨Or.inl rfl, rfl⟩) hc hm hd' hy
  refine ⟨_, _, by simpa using this, ?_, by simp, b1, b2⟩
  simpa using hd

theorem HexMag.num_neg {B : ℕ} {τ : ℚ} {m : Rnd} {q : ℚ} {t : List Char} (h : HexMag B τ (m.mag true) (-q) t) :
    ∃ v N, NumText ('-' :: t) v N ∧ Dir τ m v q ∧ N.Small B := by
  obtain ⟨mt, v, k, e, c, d, y, rfl, hc, hd', hm, hy, hd, b1, b2⟩ := h
  have := NumText.hex (s := ['-']) (sg := -1) (Or.inr ⟨rfl, rfl⟩) hc hm hd' hy
  refine ⟨_, _, by simpa using this, ?_, by simp, b1, b2⟩
  simpa using hd.neg

/-- How much a printed number may differ from the number `q`. -/
def NumRep.tol (r : NumRep) (prec : ℕ) (q : ℚ) : ℚ :=
  let p := if prec = 0 then 6 else prec
  match r with
  | .dec => 10 ^ (-(p : ℤ))
  | .sci => |q| * 10 ^ (-(p : ℤ))
  | .decSci => |q| * 10 ^ (1 - (p : ℤ))
  | .hex => if prec = 0 then 0 else |q| * 16 ^ (-(prec : ℤ))

theorem tol_neg {r : NumRep} {prec : ℕ} {q : ℚ} : r.tol prec (-q) = r.tol prec q := by
  unfold NumRep.tol
  rw [abs_neg]

/-- So many hexadecimal digits represent a number exactly. -/
theorem rep_hex {q : ℚ} (h : φ.Rep q) (h0 : 0 < q) : ∃ z : ℤ, q = z * (16 : ℚ) ^ (Int.log 16 q - ((φ.p - 1 + 3) / 4 : ℕ)) := by
  obtain ⟨m, e, rfl, hm, -, -⟩ := h
  set k := (φ.p - 1 + 3) / 4 with hk
  have h2 := log_le (b := 16) (by norm_num) h0
  set X := Int.log 16 ((m : ℚ) * 2 ^ e)
  have e16 : ∀ z : ℤ, (16 : ℚ) ^ z = 2 ^ (4 * z) := by
    intro z
    rw [zpow_mul]; norm_num
  have hX : 4 * X < φ.p + e := by
    by_contra hc
    push Not at hc
    have h3 : (2 : ℚ) ^ ((φ.p : ℤ) + e) ≤ 2 ^ (4 * X) := zpow_le_zpow_right₀ (by norm_num) hc
    push_cast at h2
    rw [e16] at h2
    have h4 : (m : ℚ) < 2 ^ φ.p := by exact_mod_cast lt_of_le_of_lt (le_abs_self m) hm
    have h5 : (0 : ℚ) < 2 ^ e := zpow_pos two_pos _
    rw [zpow_add₀ two_ne_zero, zpow_natCast] at h3
    nlinarith
  refine ⟨m * 2 ^ (e - 4 * (X - k)).toNat, ?_⟩
  have hn : 0 ≤ e - 4 * (X - k) := by omega
  rw [e16]
  push_cast
  rw [mul_assoc, ← zpow_natCast (2 : ℚ), Int.toNat_of_nonneg hn, ← zpow_add₀ two_ne_zero]
  congr 2
  ring

theorem magText_val {r : NumRep} {up : Bool} {prec : ℕ} {m : Rnd} {q : ℚ} (hq : 0 ≤ q) (hr : φ.Rep q) :
    DecMag (φ.B prec) (r.tol prec q) m q (φ.magText r up prec m q) ∨ HexMag (φ.B prec) (r.tol prec q) m q (φ.magText r up prec m q) := by
  have hE := Fmt.rep_within hr hq
  have h1 : (if prec = 0 then 6 else prec) ≤ prec + 6 := by split_ifs <;> omega
  have h2 : 0 < (if prec = 0 then 6 else prec) := by split_ifs <;> omega
  unfold Fmt.magText Fmt.B NumRep.tol
  simp only
  rw [abs_of_nonneg hq]
  cases r with
  | dec => exact Or.inl (fixedText_val hq (fixed_dir (Or.inl le_rfl)) (by omega))
  | sci => exact Or.inl (sciText_val hq le_rfl hE (by omega))
  | decSci => exact Or.inl (genText_val h2 hq le_rfl hE (by omega))
  | hex =>
    simp only
    by_cases h0 : prec = 0
    · rw [if_pos h0, if_pos h0]
      exact Or.inr (hexText_val hq le_rfl (fun h => Or.inr (rep_hex hr (lt_of_le_of_ne hq (Ne.symm h)))) hE (by omega))
    · rw [if_neg h0, if_neg h0]
      exact Or.inr (hexText_val hq (mul_nonneg hq (zpow_pos (by norm_num) _).le) (fun _ => Or.inl le_rfl) hE (by omega))

/-- A printed finite number. -/
theorem numText_fin {r : NumRep} {up : Bool} {prec : ℕ} {m : Rnd} {q : ℚ} (hq : φ.Rep q) :
    ∃ v N, NumText (φ.numText r up prec m (.fin q)) v N ∧ Dir (r.tol prec q) m v q ∧ N.Small (φ.B prec) := by
  change ∃ v N, NumText (if q < 0 then _ else _) v N ∧ _
  by_cases h : q < 0
  · rw [if_pos h, ← tol_neg]
    rcases magText_val (φ := φ) (r := r) (up := up) (prec := prec) (m := m.mag true) (q := -q) (by linarith) hq.neg with h | h
    · exact h.num_neg
    · exact h.num_neg
  · rw [if_neg h]
    push Not at h
    rcases magText_val (φ := φ) (r := r) (up := up) (prec := prec) (m := m) h hq with h | h
    · exact h.num
    · exact h.num

theorem numText_nzero {r : NumRep} {up : Bool} {prec : ℕ} {m : Rnd} :
    ∃ v N, NumText (φ.numText r up prec m .nzero) v N ∧ Dir (r.tol prec 0) m v 0 ∧ N.Small (φ.B prec) := by
  change ∃ v N, NumText ('-' :: φ.magText r up prec (m.mag true) 0) v N ∧ _
  rcases magText_val (φ := φ) (r := r) (up := up) (prec := prec) (m := m.mag true) (q := -0) (by simp) (by rw [neg_zero]; exact φ.rep_zero) with h | h
  · simpa using h.num_neg
  · simpa using h.num_neg

/-- A printed lower bound. -/
theorem lower_text {r : NumRep} {up : Bool} {prec : ℕ} {x : FP} (hx : x.In φ) (h1 : x ≠ .nan) (h2 : x ≠ .pinf) :
    ∃ l N, BoundText [['-']] (φ.numText r up prec .D x) l N ∧ (∀ s : ℝ, x.BelowR s → ∀ q, l = some q → (q : ℝ) ≤ s) ∧ (∀ n ∈ N, n.Small (φ.B prec)) ∧
      (l = none ↔ x = .ninf) ∧ ∀ v, l = some v → x.q - v ≤ r.tol prec x.q := by
  cases x with
  | nan => exact absurd rfl h1
  | pinf => exact absurd rfl h2
  | ninf =>
    refine ⟨none, [], ?_, by simp, by simp, by simp, by simp⟩
    have := BoundText.inf (sgn := [['-']]) (s := ['-']) (w := if up then ['I', 'N', 'F'] else ['i', 'n', 'f']) (by simp) (Or.inl (by cases up <;> decide))
    cases up <;> exact this
  | nzero =>
    obtain ⟨v, N, h3, h4, h5⟩ := numText_nzero (φ := φ) (r := r) (up := up) (prec := prec) (m := .D)
    refine ⟨some v, [N], .num h3, fun s hs q hq => ?_, by simpa using h5, by simp, fun v hv => ?_⟩
    swap
    · simp only [Option.some.injEq] at hv
      subst hv
      have := abs_le.mp h4.2.2
      simp only [FP.q]
      linarith [this.1, this.2]
    simp only [Option.some.injEq] at hq
    subst hq
    have := (Rat.cast_le (K := ℝ)).mpr (h4.1 rfl)
    simp only [FP.BelowR] at hs
    push_cast at this
    exact this.trans hs
  | fin q =>
    obtain ⟨v, N, h3, h4, h5⟩ := numText_fin (φ := φ) (r := r) (up := up) (prec := prec) (m := .D) hx
    refine ⟨some v, [N], .num h3, fun s hs q hq => ?_, by simpa using h5, by simp, fun v hv => ?_⟩
    swap
    · simp only [Option.some.injEq] at hv
      subst hv
      have := abs_le.mp h4.2.2
      simp only [FP.q]
      linarith [this.1, this.2]
    simp only [Option.some.injEq] at hq
    subst hq
    exact ((Rat.cast_le (K := ℝ)).mpr (h4.1 rfl)).trans hs

/-- A printed upper bound. -/
theorem upper_text {r : NumRep} {up : Bool} {prec : ℕ} {x : FP} (hx : x.In φ) (h1 : x ≠ .nan) (h2 : x ≠ .ninf) :
    ∃ l N, BoundText [[], ['+']] (φ.numText r up prec .U x) l N ∧ (∀ s : ℝ, x.AboveR s → ∀ q, l = some q → s ≤ (q : ℝ)) ∧ (∀ n ∈ N, n.Small (φ.B prec)) ∧
      (l = none ↔ x = .pinf) ∧ ∀ v, l = some v → v - x.q ≤ r.tol prec x.q := by
  cases x with
  | nan => exact absurd rfl h1
  | ninf => exact absurd rfl h2
  | pinf =>
    refine ⟨none, [], ?_, by simp, by simp, by simp, by simp⟩
    have := BoundText.inf (sgn := [[], ['+']]) (s := []) (w := if up then ['I', 'N', 'F'] else ['i', 'n', 'f']) (by simp) (Or.inl (by cases up <;> decide))
    cases up <;> exact this
  | nzero =>
    obtain ⟨v, N, h3, h4, h5⟩ := numText_nzero (φ := φ) (r := r) (up := up) (prec := prec) (m := .U)
    refine ⟨some v, [N], .num h3, fun s hs q hq => ?_, by simpa using h5, by simp, fun v hv => ?_⟩
    swap
    · simp only [Option.some.injEq] at hv
      subst hv
      have := abs_le.mp h4.2.2
      simp only [FP.q]
      linarith [this.1, this.2]
    simp only [Option.some.injEq] at hq
    subst hq
    have := (Rat.cast_le (K := ℝ)).mpr (h4.2.1 rfl)
    simp only [FP.AboveR] at hs
    push_cast at this
    exact hs.trans this
  | fin q =>
    obtain ⟨v, N, h3, h4, h5⟩ := numText_fin (φ := φ) (r := r) (up := up) (prec := prec) (m := .U) hx
    refine ⟨some v, [N], .num h3, fun s hs q hq => ?_, by simpa using h5, by simp, fun v hv => ?_⟩
    swap
    · simp only [Option.some.injEq] at hv
      subst hv
      have := abs_le.mp h4.2.2
      simp only [FP.q]
      linarith [this.1, this.2]
    simp only [Option.some.injEq] at hq
    subst hq
    exact le_trans hs ((Rat.cast_le (K := ℝ)).mpr (h4.2.1 rfl))

/-! ### Streams -/

theorem blanks_ws {n : ℤ} : IsWs (blanks n) := by
  intro c hc
  have := List.eq_of_mem_replicate hc
  subst this; simp

theorem IsWs.append {u v : List Char} (h : IsWs u) (h' : IsWs v) : IsWs (u ++ v) := by
  intro c hc
  rcases List.mem_append.mp hc with h1 | h1
  exacts [h c h1, h' c h1]

theorem put_zero {o : OStr} {w : List Char} (h : o.width = 0) : (o.put w).text = o.text ++ w ∧ (o.put w).width = 0 := by
  unfold OStr.put
  simp [h]

/-- No padding with characters other than white space. -/
def OStr.Plain (o : OStr) : Prop := o.width ≤ 1 ∨ IsWs [o.fill]

theorem put_first {o : OStr} (h : o.Plain) {w : List Char} (hw : w ≠ []) :
    ∃ a b, IsWs a ∧ IsWs b ∧ (o.put w).text = o.text ++ (a ++ w ++ b) ∧ (o.put w).width = 0 := by
  have hp : IsWs (List.replicate (o.width - w.length) o.fill) := by
    rcases h with h | h
    · have : o.width - w.length = 0 := by
        have := List.length_pos_of_ne_nil hw
        omega
      rw [this]; exact isWs_nil
    · intro c hc
      have := List.eq_of_mem_replicate hc
      subst this
      exact h _ (by simp)
  unfold OStr.put
  cases o.left with
  | true => exact ⟨[], _, isWs_nil, hp, by simp, rfl⟩
  | false => exact ⟨_, [], hp, isWs_nil, by simp, rfl⟩

/-- The text of the five parts. -/
theorem parts_text {p : Parts} {o : OStr} {n : ℤ} (h : o.Plain) (h1 : p.p1 ≠ []) :
    ∃ u v w, IsWs u ∧ IsWs v ∧ IsWs w ∧ (p.write n o).text = o.text ++ (u ++ p.p1 ++ v ++ p.p2 ++ p.p3 ++ w ++ p.p4 ++ p.p5) ∧ (p.write n o).width = 0 := by
  obtain ⟨a, b, ha, hb, e, e'⟩ := put_first h h1
  unfold Parts.write
  simp only
  generalize max 0 (toInt (n - p.p1.length - p.p2.length - p.p3.length - p.p4.length - p.p5.length)) = z
  obtain ⟨f1, g1⟩ := put_zero (w := blanks (z / 2)) e'
  obtain ⟨f2, g2⟩ := put_zero (w := p.p2) g1
  obtain ⟨f3, g3⟩ := put_zero (w := p.p3) g2
  obtain ⟨f4, g4⟩ := put_zero (w := blanks (z - z / 2)) g3
  obtain ⟨f5, g5⟩ := put_zero (w := p.p4) g4
  obtain ⟨f6, g6⟩ := put_zero (w := p.p5) g5
  refine ⟨a, b ++ blanks (z / 2), blanks (z - z / 2), ha, hb.append blanks_ws, blanks_ws, ?_, g6⟩
  rw [f6, f5, f4, f3, f2, f1, e]
  simp

theorem getStr_ok {slack : ℕ} {m : Rnd} {r : NumRep} {width prec : ℕ} {up : Bool} {x : FP} {t : List Char}
    (h : φ.getStr slack m r width prec up x = .ok t) : ∃ n : ℤ, t = blanks n ++ φ.numText r up prec m x := by
  unfold Fmt.getStr at h
  simp only at h
  split_ifs at h
  exact ⟨_, (Std.ok.inj h).symm⟩

end P1788
