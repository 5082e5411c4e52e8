import Verif.Model.WriteUnc
import Verif.Lemmas.WriteLen

/-! Helper lemmas: the uncertain form. -/

namespace P1788
variable {φ : Fmt}

/-- A minus sign. -/
def sgT (neg : Bool) : List Char := if neg then ['-'] else []

/-- The integer with sign and digits. -/
def sval (neg : Bool) (ds : List Char) : ℤ := if neg then -(numVal 10 ds : ℤ) else numVal 10 ds

/-- The exponent `e` as text. -/
def UcExp (ex : List Char) (e : ℤ) : Prop :=
  ex = [] ∧ e = 0 ∨ ∃ c w, ex = c :: (if e < 0 then '-' else '+') :: w ∧ (c = 'e' ∨ c = 'E') ∧ w ≠ [] ∧ IsDigits 10 w ∧ numVal 10 w = e.natAbs

/-- A printed number: sign, digits before the point, `prec` digits after it, exponent. -/
structure UcNum (prec : ℕ) (t : List Char) (neg : Bool) (ip fp : List Char) (e : ℤ) (ex : List Char) : Prop where
  text : t = sgT neg ++ ip ++ '.' :: fp ++ ex
  ip_ne : ip ≠ []
  len : fp.length = prec
  dig : IsDigits 10 (ip ++ fp)
  exp : UcExp ex e

/-! ### What is printed -/

theorem expText_uc {c : Char} (hc : c = 'e' ∨ c = 'E') {e : ℤ} : UcExp (expText c 2 e) e := by
  obtain ⟨h1, h2⟩ := natText_val (b := 10) (up := false) (k := 2) (n := e.natAbs) (by norm_num) (by norm_num)
  exact Or.inr ⟨c, _, rfl, hc, List.ne_nil_of_length_pos length_natText_pos, h1, h2⟩

/-- The first of the digits of `mpfr_get_str` is not zero, and zero has the exponent zero. -/
theorem sigDigits_low {b n : ℕ} (hb : 1 < b) {m : Rnd} {q : ℚ} (hq : 0 ≤ q) :
    ((sigDigits b (n + 1) m q).1 ≠ 0 → b ^ n ≤ (sigDigits b (n + 1) m q).1) ∧ ((sigDigits b (n + 1) m q).1 = 0 → (sigDigits b (n + 1) m q).2 = 0) := by
  have hb0 : (0 : ℚ) < b := by exact_mod_cast (by omega : 0 < b)
  unfold sigDigits
  by_cases h0 : q = 0
  · rw [if_pos h0]; simp
  rw [if_neg h0]
  have hq' : 0 < q := lt_of_le_of_ne hq (Ne.symm h0)
  have h1 : ((b ^ n : ℕ) : ℚ) ≤ q / (b : ℚ) ^ (Int.log b q - (n + 1 : ℕ) + 1) := by
    rw [le_div_iff₀ (zpow_pos hb0 _)]
    push_cast
    rw [← zpow_natCast, ← zpow_add₀ hb0.ne', show (n : ℤ) + (Int.log b q - (n + 1) + 1) = Int.log b q by ring]
    exact log_le hb hq'
  have h2 : ((b ^ n : ℕ) : ℤ) ≤ roundInt m (q / (b : ℚ) ^ (Int.log b q - (n + 1 : ℕ) + 1)) := by
    have h3 : ((b ^ n : ℕ) : ℤ) ≤ ⌊q / (b : ℚ) ^ (Int.log b q - (n + 1 : ℕ) + 1)⌋ := Int.le_floor.mpr (by exact_mod_cast h1)
    refine h3.trans ?_
    cases m with
    | D => exact le_rfl
    | U => exact Int.floor_le_ceil _
    | N => unfold roundInt; simp only; split_ifs <;> omega
  have hpos : 0 < b ^ n := Nat.pow_pos (by omega)
  simp only
  split_ifs with h4
  · simp only [Nat.add_sub_cancel]
    exact ⟨fun _ => le_rfl, fun h => by omega⟩
  · exact ⟨fun _ => by omega, fun h => by omega⟩

theorem magText_uc {r : NumRep} (hr : r = .dec ∨ r = .sci) {up : Bool} {prec : ℕ} (hp : 0 < prec) {m : Rnd} {q : ℚ} (hq : 0 ≤ q) (hrep : φ.Rep q) :
    ∃ ip fp e ex, UcNum prec (φ.magText r up prec m q) false ip fp e ex ∧ Dir (r.tol prec q) m (numVal 10 (ip ++ fp) * (10 : ℚ) ^ (e - (prec : ℤ))) q ∧
      |e| ≤ (φ.E + 1 : ℕ) ∧ (r = .dec → ex = []) ∧ ex.length ≤ Nat.log 10 (φ.E + 1) + 4 ∧ (r = .sci → ip.length = 1 ∧ ex ≠ []) ∧ (q = 0 → numVal 10 (ip ++ fp) = 0) ∧
      (r = .dec → e = 0) ∧ (r = .sci → (numVal 10 (ip ++ fp) ≠ 0 → 10 ^ prec ≤ numVal 10 (ip ++ fp)) ∧ (numVal 10 (ip ++ fp) = 0 → e = 0)) ∧
      (r = .sci → ex.length = 2 + max 2 (Nat.log 10 e.natAbs + 1) ∧ (e = 0 ∨ q ≠ 0 ∧ (e = Int.log 10 q ∨ e = Int.log 10 q + 1))) := by
  have hE := Fmt.rep_within hrep hq
  unfold Fmt.magText NumRep.tol
  simp only
  rw [abs_of_nonneg hq, if_neg (by omega)]
  rcases hr with rfl | rfl
  · simp only
    unfold fixedText
    simp only
    obtain ⟨h1, h2⟩ := natText_val (b := 10) (up := false) (k := prec + 1) (n := (roundInt m (q * 10 ^ prec)).toNat) (by norm_num) (by norm_num)
    have hl : prec + 1 ≤ (natText 10 false (prec + 1) (roundInt m (q * 10 ^ prec)).toNat).length := by rw [length_natText]; exact le_max_left _ _
    generalize natText 10 false (prec + 1) (roundInt m (q * 10 ^ prec)).toNat = ds at h1 h2 hl ⊢
    have hfp : (ds.drop (ds.length - prec)).length = prec := by rw [List.length_drop]; omega
    have hfp0 : ds.drop (ds.length - prec) ≠ [] := List.ne_nil_of_length_pos (by omega)
    refine ⟨ds.take (ds.length - prec), ds.drop (ds.length - prec), 0, [], ⟨?_, ?_, hfp, by rw [List.take_append_drop]; exact h1, Or.inl ⟨rfl, rfl⟩⟩, ?_, ?_, fun _ => rfl,
      by simp, by simp, ?_, fun _ => rfl, by simp, by simp⟩
    · simp [pointText, hfp0, sgT]
    · exact List.ne_nil_of_length_pos (by rw [List.length_take]; omega)
    · rw [List.take_append_drop, h2, zero_sub, toNat_cast (roundInt_nonneg (by positivity))]
      exact fixed_dir (Or.inl le_rfl)
    · rw [abs_zero]; positivity
    · rintro rfl
      rw [List.take_append_drop, h2, zero_mul]
      have h := roundInt_of_int (m := m) (z := 0)
      rw [Int.cast_zero] at h
      rw [h]
      rfl
  · simp only
    unfold sciText
    simp only
    obtain ⟨h1, h2⟩ := sigDigits_val (b := 10) (n := prec + 1) (by norm_num) (by omega) (m := m) (τ := q * 10 ^ (-(prec : ℤ))) hq
      (mul_nonneg hq (zpow_pos (by norm_num) _).le) (fun h0 => Or.inl (by
        have h := log_le (b := 10) (by norm_num) (lt_of_le_of_ne hq (Ne.symm h0))
        have hp : (0 : ℚ) < (10 : ℚ) ^ (-(prec : ℤ)) := zpow_pos (by norm_num) _
        push_cast at h ⊢
        rw [show Int.log 10 q - ((prec : ℤ) + 1) + 1 = Int.log 10 q + -(prec : ℤ) by ring, zpow_add₀ (by norm_num)]
        exact mul_le_mul_of_nonneg_right h hp.le))
    obtain ⟨b1, b2⟩ := sigDigits_exp (b := 10) (n := prec + 1) (by norm_num) (m := m) hq hE
    have h0 : q = 0 → (sigDigits 10 (prec + 1) m q).1 = 0 := fun h => by rw [sigDigits, if_pos h]
    have h6 : (sigDigits 10 (prec + 1) m q).2 = 0 ∨ q ≠ 0 ∧ ((sigDigits 10 (prec + 1) m q).2 = Int.log 10 q ∨ (sigDigits 10 (prec + 1) m q).2 = Int.log 10 q + 1) := by
      unfold sigDigits
      by_cases h : q = 0
      · rw [if_pos h]; exact Or.inl rfl
      · rw [if_neg h]
        simp only
        split_ifs
        · exact Or.inr ⟨h, Or.inr rfl⟩
        · exact Or.inr ⟨h, Or.inl rfl⟩
    have h5 := sigDigits_low (b := 10) (n := prec) (by norm_num) (m := m) hq
    generalize sigDigits 10 (prec + 1) m q = r at h0 h1 h2 h5 h6 b1 b2 ⊢
    obtain ⟨h3, h4⟩ := lastDigits_val (b := 10) (up := false) (by norm_num) (by norm_num) h1
    have hl : (lastDigits 10 false (prec + 1) r.1).length = prec + 1 := length_lastDigits
    generalize lastDigits 10 false (prec + 1) r.1 = ds at h3 h4 hl ⊢
    have hfp : (ds.drop 1).length = prec := by rw [List.length_drop]; omega
    have hfp0 : ds.drop 1 ≠ [] := List.ne_nil_of_length_pos (by omega)
    refine ⟨ds.take 1, ds.drop 1, r.2, _, ⟨?_, ?_, hfp, by rw [List.take_append_drop]; exact h3, expText_uc (c := if up then 'E' else 'e') (by cases up <;> simp)⟩, ?_, ?_, by simp, ?_, ?_, ?_, by simp, fun _ => ?_, fun _ => ⟨length_expText, h6⟩⟩
    · simp [pointText, hfp0, sgT, -List.drop_one]
    · exact List.ne_nil_of_length_pos (by rw [List.length_take]; omega)
    · rw [List.take_append_drop, h4]
      push_cast at h2
      rwa [show r.2 - (prec : ℤ) = r.2 - (↑prec + 1) + 1 by ring]
    · rw [abs_le]; push_cast; constructor <;> omega
    · rw [length_expText]
      have : Nat.log 10 r.2.natAbs ≤ Nat.log 10 (φ.E + 1) := Nat.log_mono_right (by omega)
      omega
    · intro _
      refine ⟨by rw [List.length_take]; omega, by simp [expText]⟩
    · rw [List.take_append_drop, h4]
      exact h0
    · rw [List.take_append_drop, h4]
      exact h5

/-- One unit in the last place of the number `v`, written with `prec` digits after the point, is not greater than this. -/
def NumRep.unit (r : NumRep) (prec : ℕ) (v : ℚ) : ℚ := (if r = .sci ∧ v ≠ 0 then |v| else 1) * 10 ^ (-(prec : ℤ))

theorem numUnit_neg {r : NumRep} {prec : ℕ} {v : ℚ} : r.unit prec (-v) = r.unit prec v := by
  simp [NumRep.unit]

theorem unit_of {r : NumRep} (hr : r = .dec ∨ r = .sci) {prec n : ℕ} {e : ℤ} (h1 : r = .dec → e = 0)
    (h2 : r = .sci → (n ≠ 0 → 10 ^ prec ≤ n) ∧ (n = 0 → e = 0)) : (10 : ℚ) ^ (e - (prec : ℤ)) ≤ r.unit prec (n * (10 : ℚ) ^ (e - (prec : ℤ))) := by
  unfold NumRep.unit
  have hp : (0 : ℚ) < (10 : ℚ) ^ (e - (prec : ℤ)) := zpow_pos (by norm_num) _
  rcases hr with rfl | rfl
  · rw [h1 rfl, if_neg (by simp), zero_sub, one_mul]
  · obtain ⟨a, b⟩ := h2 rfl
    by_cases h0 : n = 0
    · rw [h0, b h0, if_neg (by simp), zero_sub, one_mul]
    · rw [if_pos ⟨rfl, mul_ne_zero (by exact_mod_cast h0) hp.ne'⟩, abs_of_nonneg (by positivity)]
      have h3 : ((10 : ℚ) ^ prec) ≤ n := by exact_mod_cast a h0
      have h4 : (0 : ℚ) < (10 : ℚ) ^ (-(prec : ℤ)) := zpow_pos (by norm_num) _
      have h5 : (10 : ℚ) ^ prec * (10 : ℚ) ^ (-(prec : ℤ)) = 1 := by rw [← zpow_natCast, ← zpow_add₀ (by norm_num)]; simp
      have h6 : 1 ≤ (n : ℚ) * (10 : ℚ) ^ (-(prec : ℤ)) := by rw [← h5]; exact mul_le_mul_of_nonneg_right h3 h4.le
      nlinarith

/-- The value of a finite number. -/
theorem numText_uc {r : NumRep} (hr : r = .dec ∨ r = .sci) {up : Bool} {prec : ℕ} (hp : 0 < prec) {m : Rnd} {v : FP} (hv : v.In φ) (h1 : v ≠ .nan)
    (h2 : v ≠ .ninf) (h3 : v ≠ .pinf) :
    ∃ neg ip fp e ex, UcNum prec (φ.numText r up prec m v) neg ip fp e ex ∧ (m = .D → (sval neg (ip ++ fp) : ℚ) * (10 : ℚ) ^ (e - (prec : ℤ)) ≤ v.q) ∧
      (m = .U → v.q ≤ (sval neg (ip ++ fp) : ℚ) * (10 : ℚ) ^ (e - (prec : ℤ))) ∧ (neg = true → numVal 10 (ip ++ fp) ≠ 0 → v.ltb (.fin 0) = true) ∧
      (neg = false → numVal 10 (ip ++ fp) ≠ 0 → FP.ltb (.fin 0) v = true) ∧
      |e| ≤ (φ.E + 1 : ℕ) ∧ (r = .dec → ex = []) ∧ ex.length ≤ Nat.log 10 (φ.E + 1) + 4 ∧ (r = .sci → ip.length = 1 ∧ ex ≠ []) ∧
      |(sval neg (ip ++ fp) : ℚ) * (10 : ℚ) ^ (e - (prec : ℤ)) - v.q| ≤ r.tol prec v.q ∧
      (10 : ℚ) ^ (e - (prec : ℤ)) ≤ r.unit prec (sval neg (ip ++ fp) * (10 : ℚ) ^ (e - (prec : ℤ))) ∧
      (v.ltb (.fin 0) = true → neg = true) ∧ (FP.ltb (.fin 0) v = true → neg = false) ∧
      (r = .sci → ex.length = 2 + max 2 (Nat.log 10 e.natAbs + 1) ∧ (e = 0 ∨ v.q ≠ 0 ∧ (e = Int.log 10 |v.q| ∨ e = Int.log 10 |v.q| + 1))) := by
  have hsneg : ∀ {ip fp : List Char} {e : ℤ}, (sval true (ip ++ fp) : ℚ) * (10 : ℚ) ^ (e - (prec : ℤ)) = -(numVal 10 (ip ++ fp) * (10 : ℚ) ^ (e - (prec : ℤ))) := by
    intro ip fp e; simp [sval]
  have hspos : ∀ {ip fp : List Char} {e : ℤ}, (sval false (ip ++ fp) : ℚ) * (10 : ℚ) ^ (e - (prec : ℤ)) = numVal 10 (ip ++ fp) * (10 : ℚ) ^ (e - (prec : ℤ)) := by
    intro ip fp e; simp [sval]
  have hneg : ∀ {t ip fp ex e}, UcNum prec t false ip fp e ex → UcNum prec ('-' :: t) true ip fp e ex := by
    rintro t ip fp ex e ⟨h1, h2, h3, h4, h5⟩
    exact ⟨by rw [h1]; simp [sgT], h2, h3, h4, h5⟩
  have hpow : ∀ z : ℤ, (0 : ℚ) < (10 : ℚ) ^ z := fun z => zpow_pos (by norm_num) _
  cases v with
  | nan => exact absurd rfl h1
  | ninf => exact absurd rfl h2
  | pinf => exact absurd rfl h3
  | nzero =>
    obtain ⟨ip, fp, e, ex, a1, a2, a3, a4, a5, a6, a7, a8, a9, a10⟩ := magText_uc (φ := φ) hr (up := up) hp (m := m.mag true) le_rfl φ.rep_zero
    refine ⟨true, ip, fp, e, ex, hneg a1, ?_, ?_, ?_, by simp, a3, a4, a5, a6, ?_, by rw [hsneg, numUnit_neg]; exact unit_of hr a8 a9, fun _ => rfl, by simp [FP.ltb], by simpa [FP.q] using a10⟩
    · rintro rfl
      have := a2.2.1 rfl
      simp only [sval, if_true, FP.q]
      push_cast
      linarith
    · rintro rfl
      have := a2.1 rfl
      simp only [sval, if_true, FP.q]
      push_cast
      linarith
    · intro _ h
      exact absurd (a7 rfl) h
    · have := a2.2.2
      rw [hsneg]
      simpa [FP.q] using this
  | fin q =>
    by_cases hq : q < 0
    · obtain ⟨ip, fp, e, ex, a1, a2, a3, a4, a5, a6, a7, a8, a9, a10⟩ := magText_uc (φ := φ) hr (up := up) hp (m := m.mag true) (q := -q) (by linarith) hv.neg
      refine ⟨true, ip, fp, e, ex, ?_, ?_, ?_, ?_, by simp, a3, a4, a5, a6, ?_, by rw [hsneg, numUnit_neg]; exact unit_of hr a8 a9, fun _ => rfl, ?_,
        by simpa [FP.q, abs_of_neg hq] using a10⟩
      · have := hneg a1
        simp only [Fmt.numText, if_pos hq]
        exact this
      · rintro rfl
        have := a2.2.1 rfl
        simp only [sval, if_true, FP.q]
        push_cast
        linarith
      · rintro rfl
        have := a2.1 rfl
        simp only [sval, if_true, FP.q]
        push_cast
        linarith
      · intro _ _
        simpa [FP.ltb] using hq
      · have := a2.2.2
        rw [hsneg, ← tol_neg, ← abs_neg]
        rwa [show -(-(numVal 10 (ip ++ fp) * (10 : ℚ) ^ (e - (prec : ℤ))) - (FP.fin q).q) = numVal 10 (ip ++ fp) * (10 : ℚ) ^ (e - (prec : ℤ)) - -q by simp only [FP.q]; ring]
      · intro h
        exact absurd (by simpa [FP.ltb] using h) (not_lt.mpr hq.le)
    · have hq' := not_lt.mp hq
      obtain ⟨ip, fp, e, ex, a1, a2, a3, a4, a5, a6, a7, a8, a9, a10⟩ := magText_uc (φ := φ) hr (up := up) hp (m := m) hq' hv
      refine ⟨false, ip, fp, e, ex, ?_, ?_, ?_, by simp, ?_, a3, a4, a5, a6, ?_, by rw [hspos]; exact unit_of hr a8 a9, ?_, fun _ => rfl,
        by simpa [FP.q, abs_of_nonneg hq'] using a10⟩
      · simp only [Fmt.numText, if_neg hq]
        exact a1
      · rintro rfl
        have := a2.1 rfl
        simpa [sval, FP.q] using this
      · rintro rfl
        have := a2.2.1 rfl
        simpa [sval, FP.q] using this
      · intro _ h
        have : q ≠ 0 := fun h0 => h (a7 h0)
        simpa [FP.ltb] using lt_of_le_of_ne hq' (Ne.symm this)
      · rw [hspos]
        exact a2.2.2
      · intro h
        exact absurd (by simpa [FP.ltb] using h) hq

/-! ### Taking the text apart -/

theorem sgT_notE {neg : Bool} : ∀ c ∈ sgT neg, notE c = true := by cases neg <;> decide

theorem digit_notE {w : List Char} (h : IsDigits 10 w) : ∀ c ∈ w, notE c = true := by
  intro c hc
  have h := (isDigits_ten.mp h) c hc
  rw [notE]
  simp only [ne_eq, Bool.decide_and, decide_not, Bool.and_eq_true, Bool.not_eq_eq_eq_not, Bool.not_true, decide_eq_false_iff_not]
  constructor <;> (rintro rfl; revert h; decide)

theorem UcNum.mant_notE {prec : ℕ} {t ip fp ex : List Char} {neg : Bool} {e : ℤ} (h : UcNum prec t neg ip fp e ex) :
    ∀ c ∈ sgT neg ++ ip ++ '.' :: fp, notE c = true := by
  intro c hc
  simp only [List.mem_append, List.mem_cons] at hc
  have hd := digit_notE h.dig
  rcases hc with (hc | hc) | rfl | hc
  · exact sgT_notE c hc
  · exact hd c (List.mem_append_left _ hc)
  · decide
  · exact hd c (List.mem_append_right _ hc)

theorem UcExp.head {ex : List Char} {e : ℤ} (h : UcExp ex e) : ex = [] ∨ ∃ c r, ex = c :: r ∧ notE c = false := by
  rcases h with ⟨h, _⟩ | ⟨c, w, h, hc, _⟩
  · exact Or.inl h
  · refine Or.inr ⟨c, _, h, ?_⟩
    rcases hc with rfl | rfl <;> decide

theorem UcNum.mant {prec : ℕ} {t ip fp ex : List Char} {neg : Bool} {e : ℤ} (h : UcNum prec t neg ip fp e ex) :
    mantPart t = sgT neg ++ ip ++ '.' :: fp := by
  rw [mantPart, h.text, List.takeWhile_append_of_pos h.mant_notE]
  rcases h.exp.head with h | ⟨c, r, h, hc⟩
  · rw [h]; simp
  · rw [h, List.takeWhile_cons, hc]; simp

theorem UcNum.expp {prec : ℕ} {t ip fp ex : List Char} {neg : Bool} {e : ℤ} (h : UcNum prec t neg ip fp e ex) : expPart t = ex := by
  rw [expPart, h.text, List.dropWhile_append_of_pos h.mant_notE]
  rcases h.exp.head with h | ⟨c, r, h, hc⟩
  · rw [h]; simp
  · rw [h, List.dropWhile_cons, hc]; simp

theorem UcNum.sep {prec : ℕ} {t ip fp ex : List Char} {neg : Bool} {e : ℤ} (h : UcNum prec t neg ip fp e ex) :
    removeSep prec (mantPart t) = .ok (sgT neg ++ (ip ++ fp)) := by
  rw [h.mant, removeSep, if_pos (by simp only [List.length_append, List.length_cons, h.len]; omega)]
  have h2 : (sgT neg ++ ip ++ '.' :: fp).length - prec - 1 = (sgT neg ++ ip).length := by
    simp only [List.length_append, List.length_cons, h.len]; omega
  rw [h2, List.eraseIdx_append_of_length_le le_rfl, Nat.sub_self, List.eraseIdx_cons_zero, List.append_assoc]

/-! ### Integers -/

theorem takeWhile_digits {w : List Char} (h : IsDigits 10 w) : w.takeWhile isDigit = w := by
  induction w with
  | nil => rfl
  | cons c w ih =>
    rw [List.takeWhile_cons, if_pos (isDigits_ten.mp h c (List.mem_cons_self ..)), ih fun c hc => h c (List.mem_cons_of_mem _ hc)]

theorem stoNum_core {lo hi v : ℤ} {l ds : List Char} {m : Bool} (hd : IsDigits 10 ds) (h1 : dropSign l = ds) (h2 : l.head? = some '-' ↔ m = true)
    (h : stoNum lo hi l = .ok v) : ds ≠ [] ∧ v = sval m ds := by
  unfold stoNum at h
  rw [h1] at h
  simp only [takeWhile_digits hd] at h
  by_cases h0 : ds = []
  · rw [if_pos h0] at h
    exact Std.noConfusion rfl (heq_of_eq h)
  · rw [if_neg h0, digitsVal_eq (b := .dec) hd] at h
    have h3 : (if l.head? = some '-' then -(numVal Base.dec.toNat ds : ℤ) else (numVal Base.dec.toNat ds : ℤ)) = sval m ds := by
      rw [sval]
      by_cases hm : m = true
      · rw [if_pos (h2.mpr hm), if_pos hm]; rfl
      · rw [if_neg (fun h => hm (h2.mp h)), if_neg hm]; rfl
    rw [h3] at h
    by_cases hr : lo ≤ sval m ds ∧ sval m ds ≤ hi
    · rw [if_pos hr] at h
      exact ⟨h0, (Std.ok.inj h).symm⟩
    · rw [if_neg hr] at h
      exact Std.noConfusion rfl (heq_of_eq h)

theorem stoNum_uns {lo hi v : ℤ} {ds : List Char} (hd : IsDigits 10 ds) (h : stoNum lo hi ds = .ok v) : ds ≠ [] ∧ v = numVal 10 ds := by
  have hh : ∀ c, ds.head? = some c → isDigit c = true := fun c hc => isDigits_ten.mp hd c (List.mem_of_mem_head? hc)
  have h1 : ds.head? ≠ some '-' := fun h => by have := hh _ h; revert this; decide
  have h2 : ds.head? ≠ some '+' := fun h => by have := hh _ h; revert this; decide
  exact stoNum_core (m := false) hd (by rw [dropSign, if_neg (by tauto)]) (by simp [h1]) h

theorem stoNum_sign {lo hi v : ℤ} {ds : List Char} {m : Bool} (hd : IsDigits 10 ds) (h : stoNum lo hi ((if m then '-' else '+') :: ds) = .ok v) :
    ds ≠ [] ∧ v = sval m ds :=
  stoNum_core (m := m) hd (by cases m <;> simp [dropSign]) (by cases m <;> simp) h

theorem stoNum_sg {lo hi v : ℤ} {ds : List Char} {neg : Bool} (hd : IsDigits 10 ds) (h : stoNum lo hi (sgT neg ++ ds) = .ok v) :
    ds ≠ [] ∧ v = sval neg ds := by
  cases neg
  · exact stoNum_uns hd h
  · exact stoNum_sign (m := true) hd h

theorem UcExp.val {ex : List Char} {e v : ℤ} (h : UcExp ex e) (h0 : ex ≠ []) (hv : stoInt (ex.drop 1) = .ok v) : v = e := by
  rcases h with ⟨h, _⟩ | ⟨c, w, rfl, _, _, hw, hn⟩
  · exact absurd h h0
  · rw [List.drop_one, List.tail_cons, stoInt] at hv
    by_cases he : e < 0
    · rw [if_pos he] at hv
      obtain ⟨_, h⟩ := stoNum_sign (m := true) hw hv
      rw [h, sval, if_pos rfl, hn]; omega
    · rw [if_neg he] at hv
      obtain ⟨_, h⟩ := stoNum_sign (m := false) hw hv
      rw [h, sval, if_neg (by simp), hn]; omega

theorem UcNum.expVal {prec : ℕ} {t ip fp ex : List Char} {neg : Bool} {e v : ℤ} (h : UcNum prec t neg ip fp e ex) (hv : expVal t = .ok v) : v = e := by
  rw [P1788.expVal, h.expp] at hv
  by_cases h0 : ex = []
  · rw [if_pos h0] at hv
    rcases h.exp with ⟨_, he⟩ | ⟨c, w, h1, _⟩
    · rw [he, Std.ok.inj hv]
    · rw [h1] at h0; cases h0
  · rw [if_neg h0] at hv
    exact h.exp.val h0 hv

theorem inBits_ok {n : ℕ} {z v : ℤ} (h : inBits n z = .ok v) : v = z := by
  unfold inBits at h
  split_ifs at h
  exact (Std.ok.inj h).symm

theorem Std.bind_ok {α β : Type} {m : Std α} {f : α → Std β} {b : β} (h : (m >>= f) = .ok b) : ∃ a, m = .ok a ∧ f a = .ok b := by
  cases m with
  | ok a => exact ⟨a, rfl, h⟩
  | outOfRange => exact Std.noConfusion rfl (heq_of_eq h)
  | ub => exact Std.noConfusion rfl (heq_of_eq h)

/-! ### Shifting digits -/

theorem numVal_pad {ds : List Char} {n : ℕ} : numVal 10 (ds ++ List.replicate n '0') = numVal 10 ds * 10 ^ n := by
  rw [numVal_append, numVal_zeros, List.length_replicate, add_zero]

theorem numVal_lt {ds : List Char} (h : IsDigits 10 ds) : numVal 10 ds < 10 ^ ds.length := by
  induction ds using List.reverseRecOn with
  | nil => simp [numVal_nil]
  | append_singleton w c ih =>
    obtain ⟨k, hk, hc⟩ := h c (by simp)
    have := ih fun c hc => h c (List.mem_append_left _ hc)
    rw [numVal_append, numVal_single, hc, List.length_append, List.length_singleton, pow_one, pow_succ, Option.getD_some]
    omega

theorem sval_shift {A R n : ℕ} {w c : ℤ} {flag : Bool} (hlt : R < 10 ^ n) (hw : w = R) (hc : (if w ≠ 0 ∧ flag = true then 1 else 0) = c) :
    0 ≤ c ∧ (c ≤ 1 ∧ (flag = false → c = 0) ∧ (A * 10 ^ n + R : ℕ) * ((10 : ℚ) ^ n)⁻¹ ≤ A + 1) ∧ (A : ℚ) ≤ (A * 10 ^ n + R : ℕ) * ((10 : ℚ) ^ n)⁻¹ ∧ ((A * 10 ^ n + R ≠ 0 → flag = true) → (A * 10 ^ n + R : ℕ) * ((10 : ℚ) ^ n)⁻¹ ≤ A + c) := by
  have hp : (0 : ℚ) < 10 ^ n := by positivity
  refine ⟨by rw [← hc]; split_ifs <;> norm_num, ⟨by rw [← hc]; split_ifs <;> norm_num, fun h => by rw [← hc, h]; simp, ?_⟩, ?_, ?_⟩
  · rw [← div_eq_mul_inv, div_le_iff₀ hp]
    have : (R : ℚ) < 10 ^ n := by exact_mod_cast hlt
    push_cast
    nlinarith
  · rw [← div_eq_mul_inv, le_div_iff₀ hp]
    push_cast
    linarith [(Nat.cast_nonneg R : (0 : ℚ) ≤ R)]
  · intro h
    rw [← div_eq_mul_inv, div_le_iff₀ hp]
    push_cast
    by_cases h0 : R = 0
    · have : (0 : ℚ) ≤ c := by
        have : 0 ≤ c := by rw [← hc]; split_ifs <;> norm_num
        exact_mod_cast this
      rw [h0]
      push_cast
      nlinarith
    · rw [if_pos ⟨by rw [hw]; exact_mod_cast h0, h (by omega)⟩] at hc
      rw [← hc]
      have : (R : ℚ) < 10 ^ n := by exact_mod_cast hlt
      push_cast
      nlinarith

theorem shiftDigits_val {flag neg : Bool} {ds t' : List Char} {k c v : ℤ} (hd : IsDigits 10 ds) (h : shiftDigits flag (sgT neg ++ ds) k = .ok (t', c))
    (hv : stoLong t' = .ok v) : 0 ≤ c ∧
      ((neg = true → numVal 10 ds ≠ 0 → flag = true) → ((v - c : ℤ) : ℚ) ≤ sval neg ds * (10 : ℚ) ^ k) ∧
      ((neg = false → numVal 10 ds ≠ 0 → flag = true) → sval neg ds * (10 : ℚ) ^ k ≤ ((v + c : ℤ) : ℚ)) ∧
      ((flag = true → neg = true) → sval neg ds * (10 : ℚ) ^ k - 1 ≤ ((v - c : ℤ) : ℚ)) ∧
      ((flag = true → neg = false) → ((v + c : ℤ) : ℚ) ≤ sval neg ds * (10 : ℚ) ^ k + 1) := by
  unfold shiftDigits at h
  by_cases hk : k < 0
  · rw [if_pos hk] at h
    by_cases hl : ((sgT neg ++ ds).length : ℤ) + k < 0
    · rw [if_pos hl] at h
      exact Std.noConfusion rfl (heq_of_eq h)
    rw [if_neg hl] at h
    obtain ⟨w, hw, h⟩ := Std.bind_ok h
    have h := Std.ok.inj h
    obtain ⟨h1, h2⟩ := Prod.mk.inj h
    generalize hj : (((sgT neg ++ ds).length : ℤ) + k).toNat = pos at h1 hw
    have hpos : (sgT neg).length ≤ pos := by
      by_contra hc
      have hp0 : pos = 0 := by cases neg <;> simp [sgT] at hc; omega
      rw [hp0, List.take_zero] at h1
      rw [← h1] at hv
      exact absurd rfl (stoNum_uns (ds := []) (by intro c hc; cases hc) hv).1
    obtain ⟨j, rfl⟩ := Nat.exists_eq_add_of_le hpos
    rw [List.take_length_add_append] at h1
    rw [List.drop_length_add_append] at hw
    have hlen : (ds.drop j).length = (-k).toNat := by
      rw [List.length_drop]
      rw [List.length_append] at hj hl
      push_cast at hj hl
      omega
    have hsplit : numVal 10 ds = numVal 10 (ds.take j) * 10 ^ (-k).toNat + numVal 10 (ds.drop j) := by
      rw [← hlen, ← numVal_append, List.take_append_drop]
    have hdt : IsDigits 10 (ds.take j) := fun c hc => hd c (List.mem_of_mem_take hc)
    have hdd : IsDigits 10 (ds.drop j) := fun c hc => hd c (List.mem_of_mem_drop hc)
    obtain ⟨_, hw⟩ := stoNum_uns hdd hw
    rw [← h1] at hv
    obtain ⟨_, hv⟩ := stoNum_sg hdt hv
    have hlt := numVal_lt hdd
    rw [hlen] at hlt
    have hkk : k = -((-k).toNat : ℤ) := by omega
    rw [hkk, zpow_neg, zpow_natCast]
    obtain ⟨k1, ⟨k4, k5, k6⟩, k2, k3⟩ := sval_shift (A := numVal 10 (ds.take j)) hlt hw h2
    rw [← hsplit] at k2 k3 k6
    have k4 : (c : ℚ) ≤ 1 := by exact_mod_cast k4
    have k0 : (0 : ℚ) ≤ c := by exact_mod_cast k1
    refine ⟨k1, ?_, ?_, ?_, ?_⟩
    rotate_left 2
    · intro hf
      rw [hv]
      cases neg
      · have hc : c = 0 := k5 (Bool.eq_false_iff.mpr fun h => Bool.false_ne_true (hf h))
        subst hc
        simp only [sval]
        push_cast
        linarith
      · simp only [sval]
        push_cast
        linarith
    · intro hf
      rw [hv]
      cases neg
      · simp only [sval]
        push_cast
        linarith
      · have hc : c = 0 := k5 (Bool.eq_false_iff.mpr fun h => Bool.false_ne_true (hf h).symm)
        subst hc
        simp only [sval]
        push_cast
        linarith
    · intro hf
      rw [hv]
      cases neg
      · have : (0 : ℚ) ≤ c := by exact_mod_cast k1
        simp only [sval]
        push_cast
        linarith
      · have := k3 (hf rfl)
        simp only [sval]
        push_cast
        linarith
    · intro hf
      rw [hv]
      cases neg
      · have := k3 (hf rfl)
        simp only [sval]
        push_cast
        linarith
      · have : (0 : ℚ) ≤ c := by exact_mod_cast k1
        simp only [sval]
        push_cast
        linarith
  · rw [if_neg hk] at h
    obtain ⟨h1, h2⟩ := Prod.mk.inj (Std.ok.inj h)
    rw [← h1, List.append_assoc] at hv
    have hd' : IsDigits 10 (ds ++ List.replicate k.toNat '0') := by
      intro c hc
      rcases List.mem_append.mp hc with hc | hc
      · exact hd c hc
      · rw [(List.mem_replicate.mp hc).2]; exact ⟨0, by norm_num, by decide⟩
    obtain ⟨_, hv⟩ := stoNum_sg hd' hv
    have he : (v : ℚ) = sval neg ds * (10 : ℚ) ^ k := by
      rw [hv, show k = (k.toNat : ℤ) by omega, zpow_natCast, sval, sval, Int.toNat_natCast, numVal_pad]
      cases neg <;> simp
    subst h2
    rw [sub_zero, add_zero, he]
    exact ⟨le_rfl, fun _ => le_rfl, fun _ => le_rfl, fun _ => by linarith, fun _ => by linarith⟩

end P1788
