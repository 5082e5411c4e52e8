import Verif.Model.Write
import Verif.SpecText
import Verif.Lemmas.TextLit
import Verif.Lemmas.Round

/-! Helper lemmas: numbers as text. -/

namespace P1788

theorem digitNum_digitChar (up : Bool) {d : ℕ} (h : d < 16) : digitNum (digitChar up d) = some d := by
  revert up
  interval_cases d <;> decide

theorem numVal_append {b : ℕ} (u v : List Char) : numVal b (u ++ v) = numVal b u * b ^ v.length + numVal b v := by
  unfold numVal
  rw [List.reverse_append, List.map_append, Nat.ofDigits_append]
  simp [mul_comm, add_comm]

theorem numVal_single {b : ℕ} (c : Char) : numVal b [c] = (digitNum c).getD 0 := by simp [numVal]

theorem numVal_nil {b : ℕ} : numVal b [] = 0 := by simp [numVal]

theorem IsDigits.append {b : ℕ} {u v : List Char} (h : IsDigits b u) (h' : IsDigits b v) : IsDigits b (u ++ v) := by
  intro c hc
  rcases List.mem_append.mp hc with h1 | h1
  exacts [h c h1, h' c h1]

theorem length_lastDigits {b : ℕ} {up : Bool} : ∀ {k n : ℕ}, (lastDigits b up k n).length = k
  | 0, _ => rfl
  | k + 1, n => by simp [lastDigits, length_lastDigits (k := k)]

theorem lastDigits_val {b : ℕ} {up : Bool} (hb : 0 < b) (hb' : b ≤ 16) : ∀ {k n : ℕ}, n < b ^ k →
    IsDigits b (lastDigits b up k n) ∧ numVal b (lastDigits b up k n) = n
  | 0, n, h => by
    have : n = 0 := by simpa using h
    subst this
    exact ⟨fun c hc => absurd hc List.not_mem_nil, numVal_nil⟩
  | k + 1, n, h => by
    have hq : n / b < b ^ k := by
      rw [Nat.div_lt_iff_lt_mul hb]
      rwa [pow_succ] at h
    have hr : n % b < b := Nat.mod_lt _ hb
    obtain ⟨h1, h2⟩ := lastDigits_val (up := up) hb hb' hq
    have hd := digitNum_digitChar up (lt_of_lt_of_le hr hb')
    refine ⟨h1.append fun c hc => ?_, ?_⟩
    · simp only [List.mem_singleton] at hc
      subst hc
      exact ⟨_, hr, hd⟩
    · rw [lastDigits, numVal_append, h2, numVal_single, hd]
      simp only [List.length_singleton, pow_one, Option.getD_some]
      rw [mul_comm]; exact Nat.div_add_mod n b

theorem natText_val {b : ℕ} {up : Bool} (hb : 1 < b) (hb' : b ≤ 16) {k n : ℕ} : IsDigits b (natText b up k n) ∧ numVal b (natText b up k n) = n :=
  lastDigits_val (by omega) hb' (lt_of_lt_of_le (Nat.lt_pow_succ_log_self hb n) (Nat.pow_le_pow_right (by omega) (le_max_right _ _)))

theorem length_natText {b : ℕ} {up : Bool} {k n : ℕ} : (natText b up k n).length = max k (Nat.log b n + 1) := length_lastDigits

theorem length_natText_pos {b : ℕ} {up : Bool} {k n : ℕ} : 0 < (natText b up k n).length := by
  rw [length_natText]; omega

/-! ### The point -/

theorem zeros_of_strip (l : List Char) : ∃ z, l = (l.reverse.dropWhile (fun c => c = '0')).reverse ++ List.replicate z '0' := by
  have h := List.takeWhile_append_dropWhile (p := fun c => decide (c = '0')) (l := l.reverse)
  have hz : l.reverse.takeWhile (fun c => decide (c = '0')) = List.replicate (l.reverse.takeWhile (fun c => decide (c = '0'))).length '0' :=
    List.eq_replicate_of_mem fun c hc => by simpa using List.all_eq_true.mp List.all_takeWhile c hc
  refine ⟨(l.reverse.takeWhile (fun c => decide (c = '0'))).length, ?_⟩
  have h2 := congrArg List.reverse h
  rw [List.reverse_append, List.reverse_reverse, hz, List.reverse_replicate] at h2
  simpa using h2.symm

theorem numVal_zeros {b z : ℕ} : numVal b (List.replicate z '0') = 0 := by
  induction z with
  | zero => exact numVal_nil
  | succ z ih =>
    rw [List.replicate_succ', numVal_append, ih, numVal_single]
    simp [show digitNum '0' = some 0 from by decide]

theorem pointText_val {b : ℕ} (hb : 0 < b) {strip : Bool} {ip fp : List Char} (hi : ip ≠ []) (hd : IsDigits b (ip ++ fp)) :
    ∃ v k, MantText b (pointText strip ip fp) v k ∧ k ≤ fp.length ∧
      (v : ℚ) * (b : ℚ) ^ (-(k : ℤ)) = numVal b (ip ++ fp) * (b : ℚ) ^ (-(fp.length : ℤ)) := by
  have hb0 : (b : ℚ) ≠ 0 := by exact_mod_cast hb.ne'
  have key : ∀ fp' : List Char, (∃ z, fp = fp' ++ List.replicate z '0') →
      MantText b (ip ++ (if fp' = [] then [] else '.' :: fp')) (numVal b (ip ++ fp')) fp'.length ∧ fp'.length ≤ fp.length ∧
      (numVal b (ip ++ fp') : ℚ) * (b : ℚ) ^ (-(fp'.length : ℤ)) = numVal b (ip ++ fp) * (b : ℚ) ^ (-(fp.length : ℤ)) := by
    rintro fp' ⟨z, rfl⟩
    refine ⟨⟨ip, fp', ?_, by simp [hi], ?_, rfl, rfl⟩, by simp, ?_⟩
    · by_cases h : fp' = []
      · left; simp [h]
      · right; simp [h]
    · intro c hc
      refine hd c ?_
      rcases List.mem_append.mp hc with h | h
      · exact List.mem_append_left _ h
      · exact List.mem_append_right _ (List.mem_append_left _ h)
    · rw [← List.append_assoc, numVal_append (ip ++ fp'), numVal_zeros, List.length_append, List.length_replicate]
      push_cast
      rw [add_zero, neg_add, zpow_add₀ hb0, zpow_neg (b : ℚ) (z : ℤ), zpow_natCast]
      field_simp
  unfold pointText
  cases strip with
  | false => exact ⟨_, _, key fp ⟨0, by simp⟩⟩
  | true => exact ⟨_, _, key _ (zeros_of_strip fp)⟩

/-! ### Rounding of the digits -/

theorem roundInt_nonneg {m : Rnd} {q : ℚ} (h : 0 ≤ q) : 0 ≤ roundInt m q := by
  have h1 : 0 ≤ ⌊q⌋ := Int.floor_nonneg.mpr h
  cases m with
  | D => exact h1
  | U => exact Int.ceil_nonneg h
  | N =>
    unfold roundInt
    simp only
    split_ifs <;> omega

/-- The rounded value lies on the right side, at a distance of at most `τ`. -/
def Dir (τ : ℚ) (m : Rnd) (v q : ℚ) : Prop := (m = .D → v ≤ q) ∧ (m = .U → q ≤ v) ∧ |v - q| ≤ τ

theorem roundInt_err {m : Rnd} {y : ℚ} : |(roundInt m y : ℚ) - y| ≤ 1 := by
  have h1 := Int.floor_le y
  have h2 := Int.lt_floor_add_one y
  have h3 := Int.le_ceil y
  have h4 := Int.ceil_lt_add_one y
  rw [abs_le]
  cases m with
  | D => unfold roundInt; constructor <;> linarith
  | U => unfold roundInt; constructor <;> linarith
  | N =>
    unfold roundInt
    simp only
    split_ifs <;> push_cast <;> constructor <;> linarith

theorem roundInt_of_int {m : Rnd} {z : ℤ} : roundInt m (z : ℚ) = z := by
  cases m <;> simp [roundInt]

theorem roundInt_dir {τ : ℚ} {m : Rnd} {q s : ℚ} (hs : 0 < s) (hτ : s ≤ τ ∨ 0 ≤ τ ∧ ∃ z : ℤ, q = z * s) :
    Dir τ m (roundInt m (q / s) * s) q := by
  refine ⟨?_, ?_, ?_⟩
  · rintro rfl
    have := Int.floor_le (q / s)
    exact (le_div_iff₀ hs).mp this
  · rintro rfl
    have := Int.le_ceil (q / s)
    exact (div_le_iff₀ hs).mp this
  · rcases hτ with h | ⟨h, z, hz⟩
    · have e : (roundInt m (q / s) : ℚ) * s - q = (roundInt m (q / s) - q / s) * s := by
        rw [sub_mul, div_mul_cancel₀ _ hs.ne']
      rw [e, abs_mul, abs_of_pos hs]
      have := roundInt_err (m := m) (y := q / s)
      nlinarith
    · have e : q / s = z := by rw [hz, mul_div_assoc, div_self hs.ne', mul_one]
      rw [e, roundInt_of_int, hz, sub_self, abs_zero]
      exact h

theorem toNat_cast {z : ℤ} (h : 0 ≤ z) : ((z.toNat : ℕ) : ℚ) = z := by
  have := Int.toNat_of_nonneg h
  exact_mod_cast this

/-- The digits of `mpfr_get_str`. -/
theorem sigDigits_val {b n : ℕ} (hb : 1 < b) (hn : 0 < n) {m : Rnd} {q τ : ℚ} (hq : 0 ≤ q) (hτ0 : 0 ≤ τ)
    (hτ : q ≠ 0 → (b : ℚ) ^ (Int.log b q - n + 1) ≤ τ ∨ ∃ z : ℤ, q = z * (b : ℚ) ^ (Int.log b q - n + 1)) :
    (sigDigits b n m q).1 < b ^ n ∧ Dir τ m ((sigDigits b n m q).1 * (b : ℚ) ^ ((sigDigits b n m q).2 - n + 1)) q := by
  have hb0 : (0 : ℚ) < b := by exact_mod_cast (by omega : 0 < b)
  unfold sigDigits
  by_cases h0 : q = 0
  · rw [if_pos h0]
    subst h0
    exact ⟨Nat.pow_pos (by omega), by simpa [Dir] using hτ0⟩
  rw [if_neg h0]
  simp only
  have hq' : 0 < q := lt_of_le_of_ne hq (Ne.symm h0)
  set X := Int.log b q
  have hs : (0 : ℚ) < (b : ℚ) ^ (X - n + 1) := zpow_pos hb0 _
  have hy : 0 ≤ q / (b : ℚ) ^ (X - n + 1) := div_nonneg hq hs.le
  have hM := roundInt_nonneg (m := m) hy
  have hlt : q / (b : ℚ) ^ (X - n + 1) < (b : ℚ) ^ n := by
    rw [div_lt_iff₀ hs, ← zpow_natCast, ← zpow_add₀ hb0.ne']
    have := Int.lt_zpow_succ_log_self hb q
    convert this using 2
    ring
  have hle : roundInt m (q / (b : ℚ) ^ (X - n + 1)) ≤ (b ^ n : ℕ) := by
    have h1 : ⌊q / (b : ℚ) ^ (X - n + 1)⌋ < (b ^ n : ℕ) := by
      rw [Int.floor_lt]; push_cast; exact hlt
    cases m with
    | D => exact h1.le
    | U => unfold roundInt; rw [Int.ceil_le]; push_cast; exact hlt.le
    | N =>
      unfold roundInt
      simp only
      split_ifs <;> omega
  have hdir := roundInt_dir (τ := τ) (m := m) (q := q) hs ((hτ h0).imp_right fun h => ⟨hτ0, h⟩)
  by_cases he : (roundInt m (q / (b : ℚ) ^ (X - n + 1))).toNat = b ^ n
  · rw [if_pos he]
    refine ⟨Nat.pow_lt_pow_right hb (by omega), ?_⟩
    have e : ((b ^ (n - 1) : ℕ) : ℚ) * (b : ℚ) ^ (X + 1 - n + 1) = roundInt m (q / (b : ℚ) ^ (X - n + 1)) * (b : ℚ) ^ (X - n + 1) := by
      rw [← toNat_cast hM, he]
      obtain ⟨k, rfl⟩ : ∃ k, n = k + 1 := ⟨n - 1, by omega⟩
      push_cast
      rw [show X + 1 - ((k : ℤ) + 1) + 1 = (X - ((k : ℤ) + 1) + 1) + 1 by ring, zpow_add_one₀ hb0.ne', pow_succ]
      ring
    simp only
    rw [e]; exact hdir
  · rw [if_neg he]
    refine ⟨?_, ?_⟩
    · simp only
      have : (roundInt m (q / (b : ℚ) ^ (X - n + 1))).toNat ≤ b ^ n := by
        rw [Int.toNat_le]; exact hle
      omega
    · simp only
      rw [toNat_cast hM]
      exact hdir

theorem log_bound {b : ℕ} (hb : 1 < b) {q : ℚ} (hq : 0 < q) {E : ℕ} (h1 : (2 : ℚ) ^ (-(E : ℤ)) ≤ q) (h2 : q ≤ 2 ^ (E : ℤ)) :
    -(E : ℤ) ≤ Int.log b q ∧ Int.log b q ≤ E := by
  have hb1 : (2 : ℚ) ≤ b := by exact_mod_cast hb
  constructor
  · rw [← Int.zpow_le_iff_le_log hb hq]
    refine le_trans ?_ h1
    rw [zpow_neg, zpow_neg, zpow_natCast, zpow_natCast]
    exact inv_anti₀ (pow_pos two_pos _) (pow_le_pow_left₀ two_pos.le hb1 _)
  · by_contra h
    push Not at h
    have h3 : (b : ℚ) ^ ((E : ℤ) + 1) ≤ q := (Int.zpow_le_iff_le_log hb hq).mpr (by omega)
    have h4 : (2 : ℚ) ^ ((E : ℤ) + 1) ≤ (b : ℚ) ^ ((E : ℤ) + 1) := by
      have e : ((E : ℤ) + 1) = ((E + 1 : ℕ) : ℤ) := by push_cast; rfl
      rw [e, zpow_natCast, zpow_natCast]
      exact pow_le_pow_left₀ two_pos.le hb1 _
    have h5 : (2 : ℚ) ^ (E : ℤ) < 2 ^ ((E : ℤ) + 1) := zpow_lt_zpow_right₀ (by norm_num) (by omega)
    linarith

/-- `q` is zero or between `2^-E` and `2^E`. -/
def Within (E : ℕ) (q : ℚ) : Prop := q = 0 ∨ ((2 : ℚ) ^ (-(E : ℤ)) ≤ q ∧ q ≤ 2 ^ (E : ℤ))

theorem sigDigits_exp {b n : ℕ} (hb : 1 < b) {m : Rnd} {q : ℚ} (hq : 0 ≤ q) {E : ℕ} (hE : Within E q) :
    -(E : ℤ) ≤ (sigDigits b n m q).2 ∧ (sigDigits b n m q).2 ≤ E + 1 := by
  unfold sigDigits
  by_cases h0 : q = 0
  · rw [if_pos h0]; simp only; omega
  rw [if_neg h0]
  have hq' : 0 < q := lt_of_le_of_ne hq (Ne.symm h0)
  obtain ⟨h1, h2⟩ := log_bound hb hq' (hE.resolve_left h0).1 (hE.resolve_left h0).2
  simp only
  split_ifs
  · constructor <;> simp only <;> omega
  · constructor <;> simp only <;> omega

/-! ### The conversions -/

theorem expText_val {c : Char} {k : ℕ} {e : ℤ} : ∃ y, expText c k e = c :: y ∧ IntText y e := by
  obtain ⟨h1, h2⟩ := natText_val (b := 10) (up := false) (k := k) (n := e.natAbs) (by norm_num) (by norm_num)
  have h0 : natText 10 false k e.natAbs ≠ [] := List.ne_nil_of_length_pos length_natText_pos
  refine ⟨_, rfl, ?_⟩
  generalize natText 10 false k e.natAbs = w at h0 h1 h2 ⊢
  by_cases h : e < 0
  · rw [if_pos h]
    exact ⟨['-'], -1, _, rfl, Or.inr ⟨rfl, rfl⟩, h0, h1, by rw [h2]; omega⟩
  · rw [if_neg h]
    exact ⟨['+'], 1, _, rfl, Or.inl ⟨Or.inr rfl, rfl⟩, h0, h1, by rw [h2]; omega⟩

/-- A decimal number without sign, rounded from `q`. -/
def DecMag (B : ℕ) (τ : ℚ) (m : Rnd) (q : ℚ) (t : List Char) : Prop :=
  ∃ mt x v k e, t = mt ++ x ∧ MantText 10 mt v k ∧ ExpText x e ∧ Dir τ m (v * (10 : ℚ) ^ (e - (k : ℤ))) q ∧ |e| ≤ B ∧ |e - k| ≤ B

/-- A hexadecimal number without sign, rounded from `q`. -/
def HexMag (B : ℕ) (τ : ℚ) (m : Rnd) (q : ℚ) (t : List Char) : Prop :=
  ∃ mt v k e c d y, t = '0' :: c :: (mt ++ d :: y) ∧ c.toLower = 'x' ∧ d.toLower = 'p' ∧ MantText 16 mt v k ∧ IntText y e ∧
    Dir τ m (v * (2 : ℚ) ^ (e - 4 * (k : ℤ))) q ∧ |e| ≤ B ∧ |e - 4 * k| ≤ B

theorem fixedText_val {strip : Bool} {k : ℕ} {m : Rnd} {q τ : ℚ} (hq : 0 ≤ q)
    (hτ : Dir τ m (roundInt m (q * 10 ^ k) * (10 : ℚ) ^ (-(k : ℤ))) q) {B : ℕ} (hB : k ≤ B) : DecMag B τ m q (fixedText strip k m q) := by
  unfold fixedText
  simp only
  set M := (roundInt m (q * 10 ^ k)).toNat with hM
  set ds := natText 10 false (k + 1) M with hds
  obtain ⟨h1, h2⟩ := natText_val (b := 10) (up := false) (k := k + 1) (n := M) (by norm_num) (by norm_num)
  have hl : k + 1 ≤ ds.length := by rw [hds, length_natText]; exact le_max_left _ _
  have hip : ds.take (ds.length - k) ≠ [] := by
    intro h
    have := congrArg List.length h
    simp at this; omega
  have hfp : (ds.drop (ds.length - k)).length = k := by simp; omega
  obtain ⟨v, j, h3, h4, h5⟩ := pointText_val (b := 10) (by norm_num) (strip := strip) hip (by rw [List.take_append_drop]; exact h1)
  refine ⟨_, [], v, j, 0, by simp, h3, Or.inl ⟨rfl, rfl⟩, ?_, by simp, ?_⟩
  · rw [List.take_append_drop, h2, hfp] at h5
    push_cast at h5
    rw [zero_sub, h5, hM, toNat_cast (roundInt_nonneg (by positivity))]
    exact hτ
  · rw [hfp] at h4
    rw [zero_sub, abs_neg, abs_of_nonneg (by positivity)]
    exact_mod_cast h4.trans hB

theorem fixed_dir {k : ℕ} {m : Rnd} {q τ : ℚ} (hτ : (10 : ℚ) ^ (-(k : ℤ)) ≤ τ ∨ 0 ≤ τ ∧ ∃ z : ℤ, q = z * (10 : ℚ) ^ (-(k : ℤ))) :
    Dir τ m (roundInt m (q * 10 ^ k) * (10 : ℚ) ^ (-(k : ℤ))) q := by
  have := roundInt_dir (m := m) (q := q) (s := (10 : ℚ) ^ (-(k : ℤ))) (zpow_pos (by norm_num) _) hτ
  rwa [show q / (10 : ℚ) ^ (-(k : ℤ)) = q * 10 ^ k by rw [zpow_neg, zpow_natCast, div_inv_eq_mul]] at this

theorem log_le {b : ℕ} (hb : 1 < b) {q : ℚ} (hq : 0 < q) : (b : ℚ) ^ Int.log b q ≤ q := Int.zpow_log_le_self hb hq

theorem sciText_val {strip up : Bool} {k : ℕ} {m : Rnd} {q τ : ℚ} (hq : 0 ≤ q) (hτ : q * (10 : ℚ) ^ (-(k : ℤ)) ≤ τ) {B E : ℕ} (hE : Within E q) (hB : k + E + 1 ≤ B) :
    DecMag B τ m q (sciText strip up k m q) := by
  unfold sciText
  simp only
  obtain ⟨h1, h2⟩ := sigDigits_val (b := 10) (n := k + 1) (by norm_num) (by omega) (m := m) (τ := τ) hq
    (le_trans (mul_nonneg hq (zpow_pos (by norm_num) _).le) hτ) (fun h0 => Or.inl (by
      have h := log_le (b := 10) (by norm_num) (lt_of_le_of_ne hq (Ne.symm h0))
      have hp : (0 : ℚ) < (10 : ℚ) ^ (-(k : ℤ)) := zpow_pos (by norm_num) _
      refine le_trans ?_ hτ
      push_cast at h ⊢
      rw [show Int.log 10 q - ((k : ℤ) + 1) + 1 = Int.log 10 q + -(k : ℤ) by ring, zpow_add₀ (by norm_num)]
      exact mul_le_mul_of_nonneg_right h hp.le))
  obtain ⟨b1, b2⟩ := sigDigits_exp (b := 10) (n := k + 1) (by norm_num) (m := m) hq hE
  generalize sigDigits 10 (k + 1) m q = r at h1 h2 b1 b2 ⊢
  obtain ⟨h3, h4⟩ := lastDigits_val (b := 10) (up := false) (by norm_num) (by norm_num) h1
  have hl : (lastDigits 10 false (k + 1) r.1).length = k + 1 := length_lastDigits
  generalize lastDigits 10 false (k + 1) r.1 = ds at h3 h4 hl ⊢
  have hip : ds.take 1 ≠ [] := List.ne_nil_of_length_pos (by rw [List.length_take]; omega)
  have hfp : (ds.drop 1).length = k := by simp; omega
  obtain ⟨v, j, h5, h6, h7⟩ := pointText_val (b := 10) (by norm_num) (strip := strip) hip (by rw [List.take_append_drop]; exact h3)
  obtain ⟨y, hy, hy'⟩ := expText_val (c := if up then 'E' else 'e') (k := 2) (e := r.2)
  rw [hfp] at h6
  refine ⟨_, _, v, j, r.2, rfl, h5, Or.inr ⟨_, y, ?_, hy, hy'⟩, ?_, ?_, ?_⟩
  · cases up <;> decide
  · rw [List.take_append_drop, h4, hfp] at h7
    push_cast at h7 h2
    rw [sub_eq_add_neg, add_comm, zpow_add₀ (by norm_num), ← mul_assoc, h7, mul_assoc, ← zpow_add₀ (by norm_num)]
    rwa [show -(k : ℤ) + r.2 = r.2 - (↑k + 1) + 1 by ring]
  · rw [abs_le]; constructor <;> omega
  · rw [abs_le]; constructor <;> omega

/-- Rounding that carries into a new digit. -/
theorem roundInt_carry {m : Rnd} {y : ℚ} {T : ℤ} (h1 : y < 10 * T) (h2 : roundInt m y = 10 * T) : roundInt m (y / 10) = T := by
  have f1 : ⌊y⌋ < 10 * T := by rw [Int.floor_lt]; push_cast; exact h1
  have f2 := Int.floor_le y
  have f3 := Int.lt_floor_add_one y
  have hT : y / 10 < T := by linarith
  cases m with
  | D => unfold roundInt at h2; simp only at h2; omega
  | U =>
    unfold roundInt at h2 ⊢
    simp only at h2 ⊢
    rw [Int.ceil_eq_iff] at h2 ⊢
    push_cast at h2
    constructor <;> linarith [h2.1]
  | N =>
    have hf : ⌊y⌋ = 10 * T - 1 := by
      unfold roundInt at h2
      simp only at h2
      split_ifs at h2 <;> omega
    have hy : (1 : ℚ) / 2 ≤ y - ⌊y⌋ := by
      unfold roundInt at h2
      simp only at h2
      split_ifs at h2 with a b c
      · omega
      · exact b.le
      · omega
      · exact not_lt.mp a
    rw [hf] at hy f3
    push_cast at hy f3
    have hf' : ⌊y / 10⌋ = T - 1 := by
      rw [Int.floor_eq_iff]
      push_cast
      constructor <;> linarith
    unfold roundInt
    simp only
    rw [hf', if_neg (by push_cast; linarith), if_pos (by push_cast; linarith)]
    ring

theorem gen_dir {t : ℕ} (ht : 0 < t) {m : Rnd} {q τ : ℚ} (hq : 0 ≤ q) (hτ : q * (10 : ℚ) ^ (1 - (t : ℤ)) ≤ τ) (hX : (sigDigits 10 t m q).2 < t) :
    Dir τ m (roundInt m (q * 10 ^ ((t : ℤ) - 1 - (sigDigits 10 t m q).2).toNat) * (10 : ℚ) ^ (-((((t : ℤ) - 1 - (sigDigits 10 t m q).2).toNat : ℕ) : ℤ))) q := by
  have hτ0 : 0 ≤ τ := le_trans (mul_nonneg hq (zpow_pos (by norm_num) _).le) hτ
  by_cases h0 : q = 0
  · subst h0
    exact fixed_dir (Or.inr ⟨hτ0, 0, by simp⟩)
  have hq' : 0 < q := lt_of_le_of_ne hq (Ne.symm h0)
  have hlog := log_le (b := 10) (by norm_num) hq'
  have hτ' : (10 : ℚ) ^ (Int.log 10 q + 1 - t) ≤ τ := by
    refine le_trans ?_ hτ
    rw [show Int.log 10 q + 1 - (t : ℤ) = Int.log 10 q + (1 - t) by ring, zpow_add₀ (by norm_num)]
    exact mul_le_mul_of_nonneg_right (by push_cast at hlog; exact hlog) (zpow_pos (by norm_num) _).le
  set k := ((t : ℤ) - 1 - (sigDigits 10 t m q).2).toNat with hk
  have hk' : (k : ℤ) = t - 1 - (sigDigits 10 t m q).2 := Int.toNat_of_nonneg (by omega)
  have hs : (0 : ℚ) < (10 : ℚ) ^ (Int.log 10 q - t + 1) := zpow_pos (by norm_num) _
  have hdiv : 0 ≤ q / (10 : ℚ) ^ (Int.log 10 q - t + 1) := div_nonneg hq hs.le
  have hdef : sigDigits 10 t m q = if (roundInt m (q / (10 : ℚ) ^ (Int.log 10 q - t + 1))).toNat = 10 ^ t then (10 ^ (t - 1), Int.log 10 q + 1)
      else ((roundInt m (q / (10 : ℚ) ^ (Int.log 10 q - t + 1))).toNat, Int.log 10 q) := by
    unfold sigDigits
    rw [if_neg h0]
    push_cast
    rfl
  by_cases he : (roundInt m (q / (10 : ℚ) ^ (Int.log 10 q - t + 1))).toNat = 10 ^ t
  · rw [if_pos he] at hdef
    rw [hdef] at hk'
    simp only at hk'
    obtain ⟨n, rfl⟩ : ∃ n, t = n + 1 := ⟨t - 1, by omega⟩
    have hR : roundInt m (q / (10 : ℚ) ^ (Int.log 10 q - (n + 1 : ℕ) + 1)) = 10 * 10 ^ n := by
      have := Int.toNat_of_nonneg (roundInt_nonneg (m := m) hdiv)
      rw [← this, he]; push_cast; ring
    have hlt : q / (10 : ℚ) ^ (Int.log 10 q - (n + 1 : ℕ) + 1) < 10 * ((10 ^ n : ℤ) : ℚ) := by
      rw [div_lt_iff₀ hs]
      have h := Int.lt_zpow_succ_log_self (b := 10) (by norm_num) q
      refine lt_of_lt_of_eq h ?_
      push_cast
      rw [← pow_succ', ← zpow_natCast (10 : ℚ) (n + 1), ← zpow_add₀ (by norm_num)]
      congr 1
      push_cast
      ring
    have hc := roundInt_carry hlt hR
    have hdir := roundInt_dir (τ := τ) (m := m) (q := q) hs (Or.inl (le_trans (le_of_eq (by congr 1; ring)) hτ'))
    rw [hR] at hdir
    have e1 : q * (10 : ℚ) ^ k = q / (10 : ℚ) ^ (Int.log 10 q - (n + 1 : ℕ) + 1) / 10 := by
      rw [← zpow_natCast, hk', div_div, ← zpow_add_one₀ (by norm_num), div_eq_mul_inv, ← zpow_neg]
      congr 2
      push_cast
      ring
    rw [e1, hc]
    have e2 : ((10 ^ n : ℤ) : ℚ) * (10 : ℚ) ^ (-(k : ℤ)) = ((10 * 10 ^ n : ℤ) : ℚ) * (10 : ℚ) ^ (Int.log 10 q - (n + 1 : ℕ) + 1) := by
      rw [hk']
      push_cast
      rw [show -((n : ℤ) + 1 - 1 - (Int.log 10 q + 1)) = (Int.log 10 q - (n + 1) + 1) + 1 by ring, zpow_add_one₀ (by norm_num)]
      ring
    rw [e2]
    exact hdir
  · rw [if_neg he] at hdef
    rw [hdef] at hk'
    simp only at hk'
    refine fixed_dir (Or.inl ?_)
    rw [hk', show -((t : ℤ) - 1 - Int.log 10 q) = Int.log 10 q + 1 - t by ring]
    exact hτ'

theorem genText_val {up : Bool} {t : ℕ} (ht : 0 < t) {m : Rnd} {q τ : ℚ} (hq : 0 ≤ q) (hτ : q * (10 : ℚ) ^ (1 - (t : ℤ)) ≤ τ) {B E : ℕ} (hE : Within E q)
    (hB : t + E + 4 ≤ B) : DecMag B τ m q (genText up t m q) := by
  unfold genText
  simp only
  split_ifs with h
  · exact fixedText_val hq (gen_dir ht hq hτ h.1) (by omega)
  · refine sciText_val hq ?_ hE (by omega)
    rwa [show -((t - 1 : ℕ) : ℤ) = 1 - t by omega]

theorem hexText_val {strip up : Bool} {k : ℕ} {m : Rnd} {q τ : ℚ} (hq : 0 ≤ q) (hτ0 : 0 ≤ τ)
    (hτ : q ≠ 0 → q * (16 : ℚ) ^ (-(k : ℤ)) ≤ τ ∨ ∃ z : ℤ, q = z * (16 : ℚ) ^ (Int.log 16 q - k)) {B E : ℕ} (hE : Within E q) (hB : 4 * (k + E + 1) ≤ B) :
    HexMag B τ m q (hexText strip up k m q) := by
  unfold hexText
  simp only
  obtain ⟨h1, h2⟩ := sigDigits_val (b := 16) (n := k + 1) (by norm_num) (by omega) (m := m) (τ := τ) hq hτ0 (fun h0 => by
    have h := log_le (b := 16) (by norm_num) (lt_of_le_of_ne hq (Ne.symm h0))
    have hp : (0 : ℚ) < (16 : ℚ) ^ (-(k : ℤ)) := zpow_pos (by norm_num) _
    push_cast at h ⊢
    rw [show Int.log 16 q - ((k : ℤ) + 1) + 1 = Int.log 16 q - k by ring]
    refine (hτ h0).imp_left fun h' => le_trans ?_ h'
    rw [sub_eq_add_neg, zpow_add₀ (by norm_num)]
    exact mul_le_mul_of_nonneg_right h hp.le)
  obtain ⟨b1, b2⟩ := sigDigits_exp (b := 16) (n := k + 1) (by norm_num) (m := m) hq hE
  generalize sigDigits 16 (k + 1) m q = r at h1 h2 b1 b2 ⊢
  obtain ⟨h3, h4⟩ := lastDigits_val (b := 16) (up := up) (by norm_num) (by norm_num) h1
  have hl : (lastDigits 16 up (k + 1) r.1).length = k + 1 := length_lastDigits
  generalize lastDigits 16 up (k + 1) r.1 = ds at h3 h4 hl ⊢
  have hip : ds.take 1 ≠ [] := List.ne_nil_of_length_pos (by rw [List.length_take]; omega)
  have hfp : (ds.drop 1).length = k := by simp; omega
  obtain ⟨v, j, h5, h6, h7⟩ := pointText_val (b := 16) (by norm_num) (strip := strip) hip (by rw [List.take_append_drop]; exact h3)
  obtain ⟨y, hy, hy'⟩ := expText_val (c := if up then 'P' else 'p') (k := 1) (e := 4 * r.2)
  rw [hfp] at h6
  refine ⟨_, v, j, 4 * r.2, _, _, y, by rw [hy], ?_, ?_, h5, hy', ?_, ?_, ?_⟩
  · cases up <;> decide
  · cases up <;> decide
  · rw [List.take_append_drop, h4, hfp] at h7
    push_cast at h7 h2
    have e16 : ∀ z : ℤ, (16 : ℚ) ^ z = 2 ^ (4 * z) := by
      intro z
      rw [zpow_mul]; norm_num
    rw [e16, e16] at h7
    rw [e16] at h2
    rw [show 4 * r.2 - 4 * (j : ℤ) = 4 * (-(j : ℤ)) + 4 * r.2 by ring, zpow_add₀ (by norm_num), ← mul_assoc, h7, mul_assoc, ← zpow_add₀ (by norm_num)]
    rwa [show 4 * -(k : ℤ) + 4 * r.2 = 4 * (r.2 - (↑k + 1) + 1) by ring]
  · rw [abs_le]; constructor <;> omega
  · rw [abs_le]; constructor <;> omega

end P1788
