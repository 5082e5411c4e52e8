import Verif.Lemmas.TextNum
import Mathlib.Algebra.Order.Field.Basic
import Mathlib.Tactic.FieldSimp
import Mathlib.Tactic.Ring

/-! # The numbers computed from the captured texts -/

namespace P1788

/-! ## Captures -/

namespace Rx

/-- The capture groups in an expression. -/
def groups : Rx → List ℕ
  | chr _ => []
  | star _ => []
  | seq a b => groups a ++ groups b
  | alt a b => groups a ++ groups b
  | opt a => groups a
  | grp n a => n :: groups a
  | eps => []

theorem Matches.keys {a : Rx} {w : List Char} {k : Caps} (h : Matches a w k) : ∀ e ∈ k, e.1 ∈ groups a := by
  induction a generalizing w k with
  | chr p => obtain ⟨c, -, -, rfl⟩ := h; simp
  | star p => obtain ⟨-, rfl⟩ := h; simp
  | seq a b iha ihb =>
    obtain ⟨w1, w2, k1, k2, -, rfl, m1, m2⟩ := h
    intro e he
    rcases List.mem_append.mp he with he | he
    · exact List.mem_append_left _ (iha m1 e he)
    · exact List.mem_append_right _ (ihb m2 e he)
  | alt a b iha ihb =>
    intro e he
    rcases h with h | h
    · exact List.mem_append_left _ (iha h e he)
    · exact List.mem_append_right _ (ihb h e he)
  | opt a iha =>
    intro e he
    rcases h with h | ⟨-, rfl⟩
    · exact iha h e he
    · simp at he
  | grp n a iha =>
    obtain ⟨k', rfl, h⟩ := h
    intro e he
    rcases List.mem_cons.mp he with rfl | he
    · exact List.mem_cons_self
    · exact List.mem_cons_of_mem _ (iha h e he)
  | eps => obtain ⟨-, rfl⟩ := h; simp

end Rx

theorem Caps.get_none {k : Caps} {n : ℕ} (h : ∀ e ∈ k, e.1 ≠ n) : k.get n = [] := by
  unfold Caps.get
  have : k.lookup n = none := by
    rw [List.lookup_eq_none_iff]
    intro e he; simpa using fun h' => h e he h'.symm
  rw [this]; rfl

theorem Caps.get_append_right {k k' : Caps} {n : ℕ} (h : ∀ e ∈ k, e.1 ≠ n) : Caps.get (k ++ k') n = Caps.get k' n := by
  unfold Caps.get
  have : k.lookup n = none := by
    rw [List.lookup_eq_none_iff]
    intro e he; simpa using fun h' => h e he h'.symm
  rw [List.lookup_append, this, Option.none_or]

theorem Caps.get_append_left {k k' : Caps} {n : ℕ} (h : ∀ e ∈ k', e.1 ≠ n) : Caps.get (k ++ k') n = Caps.get k n := by
  unfold Caps.get
  have : k'.lookup n = none := by
    rw [List.lookup_eq_none_iff]
    intro e he; simpa using fun h' => h e he h'.symm
  rw [List.lookup_append, this, Option.or_none]

theorem Caps.get_cons_self {k : Caps} {n : ℕ} {w : List Char} : Caps.get ((n, w) :: k) n = w := by
  simp [Caps.get]

theorem Caps.get_cons_ne {k : Caps} {n m : ℕ} {w : List Char} (h : m ≠ n) : Caps.get ((n, w) :: k) m = Caps.get k m := by
  unfold Caps.get
  have : (m == n) = false := by simpa using h
  rw [List.lookup_cons, this]

theorem Caps.get_snd {n : ℕ} {a b : List Char} : Caps.get [(n, a), (n + 1, b)] (n + 1) = b := by
  rw [Caps.get_cons_ne (by omega), Caps.get_cons_self]

theorem Caps.get_snd' {n : ℕ} {a : List Char} : Caps.get [(n, a)] (n + 1) = [] := by
  rw [Caps.get_cons_ne (by omega)]; rfl

theorem Rx.Matches.get_none {a : Rx} {w : List Char} {k : Caps} (h : Rx.Matches a w k) {n : ℕ} (hn : n ∉ a.groups) :
    k.get n = [] := Caps.get_none fun e he hh => hn (hh ▸ h.keys e he)

/-! ## Numbers -/

theorem SignText.cases {w : List Char} {s : ℤ} (h : SignText w s) :
    (w = [] ∧ s = 1) ∨ (w = ['+'] ∧ s = 1) ∨ (w = ['-'] ∧ s = -1) := by
  rcases h with ⟨rfl | rfl, rfl⟩ | ⟨rfl, rfl⟩ <;> simp

theorem digit_not_sign {c : Char} {b : Base} (h : isDigitOf b c = true) : c ≠ '+' ∧ c ≠ '-' ∧ c ≠ '.' := by
  refine ⟨?_, ?_, ?_⟩ <;> rintro rfl <;> cases b <;> revert h <;> decide

/-- The outcome of reading an exponent. -/
theorem stoi_eq {w : List Char} {e : ℤ} (h : IntText w e) : stoi w = if intMin' ≤ e ∧ e ≤ intMax then .ok e else .outOfRange := by
  obtain ⟨s, sg, ds, rfl, hs, h1, h2, rfl⟩ := h
  have hv : digitsVal .dec ds = numVal 10 ds := digitsVal_eq (b := .dec) h2
  rcases hs.cases with ⟨rfl, rfl⟩ | ⟨rfl, rfl⟩ | ⟨rfl, rfl⟩
  · have : stoi ([] ++ ds) = if intMin' ≤ (digitsVal .dec ds : ℤ) ∧ (digitsVal .dec ds : ℤ) ≤ intMax then .ok (digitsVal .dec ds : ℤ) else .outOfRange := by
      cases ds with
      | nil => exact absurd rfl h1
      | cons c ds =>
        have hc := digit_not_sign ((isDigits_iff (b := .dec)).mp h2 c List.mem_cons_self)
        unfold stoi
        split
        · rename_i heq; simp only [List.nil_append, List.cons.injEq] at heq; exact absurd heq.1 hc.2.1
        · rename_i heq; simp only [List.nil_append, List.cons.injEq] at heq; exact absurd heq.1 hc.1
        · rfl
    rw [this, hv, one_mul]
  · show (if intMin' ≤ (digitsVal .dec ds : ℤ) ∧ (digitsVal .dec ds : ℤ) ≤ intMax then Std.ok (digitsVal .dec ds : ℤ) else .outOfRange) = _
    rw [hv, one_mul]
  · show (if intMin' ≤ -(digitsVal .dec ds : ℤ) ∧ -(digitsVal .dec ds : ℤ) ≤ intMax then Std.ok (-(digitsVal .dec ds : ℤ)) else .outOfRange) = _
    rw [hv, neg_one_mul]

theorem gmpNat_eq {b : Base} {w : List Char} (h : w ≠ []) (hd : IsDigits b.toNat w) : gmpNat b w = some (numVal b.toNat w) := by
  unfold gmpNat
  rw [if_pos ⟨h, List.all_eq_true.mpr (isDigits_iff.mp hd)⟩, digitsVal_eq hd]

theorem gmpNat_plus {b : Base} {w : List Char} : gmpNat b ('+' :: w) = none := by
  unfold gmpNat
  rw [if_neg]
  rintro ⟨-, h⟩
  simp only [List.all_cons, Bool.and_eq_true] at h
  exact (digit_not_sign h.1).1 rfl

/-- GMP reads a decimal integer without plus sign. -/
theorem mpzSetStr_eq {s ds : List Char} {sg : ℤ} (hs : SignText s sg) (h : ds ≠ []) (hd : IsDigits 10 ds) :
    mpzSetStr (s ++ ds) = if s = ['+'] then none else some (sg * numVal 10 ds) := by
  have hg : gmpNat .dec ds = some (numVal 10 ds) := gmpNat_eq (b := .dec) h hd
  rcases hs.cases with ⟨rfl, rfl⟩ | ⟨rfl, rfl⟩ | ⟨rfl, rfl⟩
  · cases ds with
    | nil => exact absurd rfl h
    | cons c ds =>
      have hc := digit_not_sign ((isDigits_iff (b := .dec)).mp hd c List.mem_cons_self)
      have : mpzSetStr ([] ++ c :: ds) = (gmpNat .dec (c :: ds)).map fun n => (n : ℤ) := by
        unfold mpzSetStr
        split
        · rename_i heq; simp only [List.nil_append, List.cons.injEq] at heq; exact absurd heq.1 hc.2.1
        · rfl
      rw [this, hg]; simp
  · show (gmpNat .dec ('+' :: ds)).map (fun n => (n : ℤ)) = _
    rw [gmpNat_plus]; simp
  · show (gmpNat .dec ds).map (fun n => -(n : ℤ)) = _
    rw [hg]; simp

theorem mpzSetStrX_eq {s ds : List Char} {c : Char} {sg : ℤ} (hs : SignText s sg) (hc : c.toLower = 'x') (h : ds ≠ [])
    (hd : IsDigits 16 ds) :
    mpzSetStrX (s ++ '0' :: c :: ds) = if s = ['+'] then none else some (sg * numVal 16 ds) := by
  have hg : gmpNat .hex ds = some (numVal 16 ds) := gmpNat_eq (b := .hex) h hd
  rcases lower_cases hc (by decide) (by decide) with rfl | rfl <;>
    rcases hs.cases with ⟨rfl, rfl⟩ | ⟨rfl, rfl⟩ | ⟨rfl, rfl⟩
  · show (gmpNat .hex ds).map (fun n => (n : ℤ)) = _
    rw [hg]; simp
  · rfl
  · show (gmpNat .hex ds).map (fun n => -(n : ℤ)) = _
    rw [hg]; simp
  · show (gmpNat .hex ds).map (fun n => (n : ℤ)) = _
    rw [hg]; simp
  · rfl
  · show (gmpNat .hex ds).map (fun n => -(n : ℤ)) = _
    rw [hg]; simp

theorem removePoint_no {w : List Char} (h : '.' ∉ w) : removePoint w = (w, 0) := by
  unfold removePoint
  have : w.findIdx? (fun c => c = '.') = none := by
    rw [List.findIdx?_eq_none_iff]
    intro c hc
    have : c ≠ '.' := fun h' => h (h' ▸ hc)
    simpa using this
  rw [this]

theorem removePoint_point {a b : List Char} (h : '.' ∉ a) : removePoint (a ++ '.' :: b) = (a ++ b, -(b.length : ℤ)) := by
  unfold removePoint
  have : (a ++ '.' :: b).findIdx? (fun c => c = '.') = some a.length := by
    rw [List.findIdx?_append]
    have : a.findIdx? (fun c => c = '.') = none := by
      rw [List.findIdx?_eq_none_iff]
      intro c hc
      have : c ≠ '.' := fun h' => h (h' ▸ hc)
      simpa using this
    rw [this]; simp [List.findIdx?_cons]
  rw [this]
  have he : (a ++ '.' :: b).eraseIdx a.length = a ++ b := by
    rw [List.eraseIdx_append_of_length_le (Nat.le_refl _)]; simp
  simp [he]

theorem MantText.removePoint {b : Base} {a w : List Char} {v k : ℕ} (h : MantText b.toNat w v k) (ha : '.' ∉ a) :
    ∃ ds, removePoint (a ++ w) = (a ++ ds, -(k : ℤ)) ∧ ds ≠ [] ∧ IsDigits b.toNat ds ∧ v = numVal b.toNat ds := by
  obtain ⟨ip, fp, (⟨rfl, rfl⟩ | rfl), h1, h2, rfl, rfl⟩ := h
  · refine ⟨w, ?_, by simpa using h1, by simpa using h2, by simp⟩
    rw [removePoint_no]
    · simp
    · intro hm
      rcases List.mem_append.mp hm with hm | hm
      · exact ha hm
      · exact (digit_not_sign (isDigits_iff.mp h2 _ (by simpa using hm))).2.2 rfl
  · refine ⟨ip ++ fp, ?_, h1, h2, rfl⟩
    rw [← List.append_assoc, removePoint_point, List.append_assoc]
    intro hm
    rcases List.mem_append.mp hm with hm | hm
    · exact ha hm
    · exact (digit_not_sign (isDigits_iff.mp h2 _ (List.mem_append_left _ hm))).2.2 rfl

/-- The outcome of reading a number. -/
def numOut (q : ℚ) (N : NumInfo) : Std (Option ℚ) :=
  if N.plus then .ok none
  else if intMin' ≤ N.exp ∧ N.exp ≤ intMax then
    if intMin' < N.scale ∧ N.scale ≤ intMax then .ok (some q) else .ub
  else .outOfRange

theorem sign_no_point {s : List Char} {sg : ℤ} (h : SignText s sg) : '.' ∉ s := by
  rcases h.cases with ⟨rfl, -⟩ | ⟨rfl, -⟩ | ⟨rfl, -⟩ <;> simp

theorem IntText.ne_nil {w : List Char} {e : ℤ} (h : IntText w e) : w ≠ [] := by
  obtain ⟨s, sg, ds, rfl, -, h1, -, -⟩ := h
  simp [h1]

theorem addExp_eq {y : List Char} {e p : ℤ} (hy : y = [] ∧ e = 0 ∨ IntText y e) :
    addExp p y = if intMin' ≤ e ∧ e ≤ intMax then (if intMin' < p + e ∧ p + e ≤ intMax then .ok (p + e) else .ub) else .outOfRange := by
  unfold addExp
  rcases hy with ⟨rfl, rfl⟩ | hy
  · rw [if_neg (by simp), if_pos (by decide)]; rfl
  · rw [if_pos (List.length_pos_iff.mpr hy.ne_nil), stoi_eq hy]
    by_cases h : intMin' ≤ e ∧ e ≤ intMax
    · rw [if_pos h, if_pos h]; rfl
    · rw [if_neg h, if_neg h]; rfl

theorem litFloat_eq {s m : List Char} {sg : ℤ} {v k : ℕ} {e : ℤ} {y : List Char} (hs : SignText s sg) (hm : MantText 10 m v k)
    (hy : y = [] ∧ e = 0 ∨ IntText y e) :
    litFloat (s ++ m) y = numOut (sg * v * 10 ^ (e - k)) ⟨decide (s = ['+']), e, e - k⟩ := by
  obtain ⟨ds, h1, h2, h3, rfl⟩ := hm.removePoint (b := .dec) (sign_no_point hs)
  unfold litFloat numOut
  rw [h1]
  simp only [mpzSetStr_eq hs h2 h3, decide_eq_true_eq]
  by_cases hp : s = ['+']
  · simp [hp]
  · simp only [hp, if_false, addExp_eq hy, neg_add_eq_sub]
    split_ifs <;> simp [bind, Std.bind, pure, Base.toNat]

theorem litHex_eq {s m y : List Char} {c : Char} {sg : ℤ} {v k : ℕ} {e : ℤ} (hs : SignText s sg) (hc : c.toLower = 'x')
    (hm : MantText 16 m v k) (hy : IntText y e) :
    litHex (s ++ '0' :: c :: m) y = numOut (sg * v * 2 ^ (e - 4 * k)) ⟨decide (s = ['+']), e, e - 4 * k⟩ := by
  have hp0 : '.' ∉ s ++ ['0', c] := by
    intro h
    rcases List.mem_append.mp h with h | h
    · exact sign_no_point hs h
    · simp only [List.mem_cons, List.not_mem_nil, or_false] at h
      rcases h with h | rfl
      · exact absurd h (by decide)
      · exact absurd hc (by decide)
  obtain ⟨ds, h1, h2, h3, rfl⟩ := hm.removePoint (b := .hex) hp0
  have e1 : s ++ '0' :: c :: m = s ++ ['0', c] ++ m := by simp
  have e2 : s ++ ['0', c] ++ ds = s ++ '0' :: c :: ds := by simp
  unfold litHex numOut
  rw [e1, h1, e2]
  simp only [mpzSetStrX_eq hs hc h2 h3, decide_eq_true_eq]
  by_cases hp : s = ['+']
  · simp [hp]
  · simp only [hp, if_false, stoi_eq hy]
    by_cases hr : intMin' ≤ e ∧ e ≤ intMax
    · have e3 : -(k:ℤ) * 4 + e = e - 4 * k := by ring
      simp only [hr, and_self, if_true, addInt, bind, Std.bind, pure, e3]
      split_ifs <;> simp [Base.toNat]
    · simp only [hr, if_false, bind, Std.bind]

theorem litRat_eq {s n d : List Char} {sg : ℤ} (hs : SignText s sg) (hn : n ≠ []) (hn' : IsDigits 10 n) (hd : IsDigits 10 d)
    (hd' : numVal 10 d ≠ 0) :
    .ok (litRat (s ++ n) d) = numOut (sg * numVal 10 n / numVal 10 d) ⟨decide (s = ['+']), 0, 0⟩ := by
  have hd0 : d ≠ [] := by rintro rfl; exact hd' (by simp [numVal])
  have e2 : mpzSetStr d = some (numVal 10 d : ℤ) := by
    have := mpzSetStr_eq (s := []) (sg := 1) (by simp [SignText]) hd0 hd
    simpa using this
  unfold litRat numOut
  simp only [mpzSetStr_eq hs hn hn', e2, decide_eq_true_eq]
  have r0 : intMin' ≤ 0 ∧ (0:ℤ) ≤ intMax := by decide
  have r1 : intMin' < 0 ∧ (0:ℤ) ≤ intMax := by decide
  by_cases hp : s = ['+']
  · simp [hp]
  · simp [hp, r0, r1]

/-! ## Captures of the numbers -/

theorem isHexDigit_eq (c : Char) : Rx.isHexDigit c = isDigitOf .hex c := rfl

namespace Rx

theorem matches_float {n : ℕ} {w : List Char} {k : Caps} (h : Matches (float n) w k) :
    ∃ s m x y sg v j e, w = s ++ m ++ x ∧ SignText s sg ∧ MantText 10 m v j ∧ ExpText x e ∧ k.get n = s ++ m ∧
      k.get (n + 1) = y ∧ (y = [] ∧ e = 0 ∨ IntText y e) := by
  obtain ⟨w1, w2, k1, k2, rfl, rfl, ⟨k', rfl, h1⟩, h2⟩ := h
  obtain ⟨s, m, ks, km, rfl, rfl, hs, hm⟩ := h1
  obtain ⟨⟨sg, hS⟩, rfl⟩ := matches_sign.mp hs
  obtain ⟨⟨v, j, hM⟩, rfl⟩ := (matches_mantissa isDigit_eq).mp hm
  rcases h2 with ⟨w3, y, k3, k4, rfl, rfl, he, k5, rfl, hy⟩ | ⟨rfl, rfl⟩
  · obtain ⟨c, hc, rfl, rfl⟩ := matches_ci.mp he
    obtain ⟨⟨e, hY⟩, rfl⟩ := matches_integer.mp hy
    exact ⟨s, m, c :: y, y, sg, v, j, e, rfl, hS, hM, Or.inr ⟨c, y, hc, rfl, hY⟩, Caps.get_cons_self, Caps.get_snd, Or.inr hY⟩
  · exact ⟨s, m, [], [], sg, v, j, 0, rfl, hS, hM, Or.inl ⟨rfl, rfl⟩, Caps.get_cons_self, Caps.get_snd', Or.inl ⟨rfl, rfl⟩⟩

theorem float_matches {n : ℕ} {s m x : List Char} {sg : ℤ} {v j : ℕ} {e : ℤ} (hs : SignText s sg) (hm : MantText 10 m v j)
    (hx : ExpText x e) : ∃ k, Matches (float n) (s ++ m ++ x) k := by
  have h1 : Matches (grp n (seq (opt (chr isSign)) (mantissa isDigit))) (s ++ m) [(n, s ++ m)] :=
    ⟨[], rfl, s, m, [], [], rfl, rfl, matches_sign.mpr ⟨⟨sg, hs⟩, rfl⟩, (matches_mantissa isDigit_eq).mpr ⟨⟨v, j, hm⟩, rfl⟩⟩
  rcases hx with ⟨rfl, rfl⟩ | ⟨c, y, hc, rfl, hy⟩
  · exact ⟨_, s ++ m, [], _, [], rfl, rfl, h1, Or.inr ⟨rfl, rfl⟩⟩
  · exact ⟨_, s ++ m, c :: y, _, _, rfl, rfl, h1, Or.inl ⟨[c], y, [], _, rfl, rfl, matches_ci.mpr ⟨c, hc, rfl, rfl⟩, [], rfl,
      matches_integer.mpr ⟨⟨e, hy⟩, rfl⟩⟩⟩

theorem matches_hex {n : ℕ} {w : List Char} {k : Caps} (h : Matches (hex n) w k) :
    ∃ s c m d y sg v j e, w = s ++ '0' :: c :: m ++ d :: y ∧ SignText s sg ∧ c.toLower = 'x' ∧ MantText 16 m v j ∧ d.toLower = 'p' ∧
      IntText y e ∧ k.get n = s ++ '0' :: c :: m ∧ k.get (n + 1) = y := by
  obtain ⟨w1, w2, k1, k2, rfl, rfl, ⟨k', rfl, h1⟩, h2⟩ := h
  obtain ⟨s, m, ks, km, rfl, rfl, hs, w3, w4, k3, k4, rfl, rfl, h0, w5, m, k5, k6, rfl, rfl, hx, hm⟩ := h1
  obtain ⟨⟨sg, hS⟩, rfl⟩ := matches_sign.mp hs
  obtain ⟨rfl, rfl⟩ := matches_lit.mp h0
  obtain ⟨c, hc, rfl, rfl⟩ := matches_ci.mp hx
  obtain ⟨⟨v, j, hM⟩, rfl⟩ := (matches_mantissa isHexDigit_eq).mp hm
  obtain ⟨w3, y, k3, k4, rfl, rfl, he, k5, rfl, hy⟩ := h2
  obtain ⟨d, hd, rfl, rfl⟩ := matches_ci.mp he
  obtain ⟨⟨e, hY⟩, rfl⟩ := matches_integer.mp hy
  exact ⟨s, c, m, d, y, sg, v, j, e, rfl, hS, hc, hM, hd, hY, Caps.get_cons_self, Caps.get_snd⟩

theorem hex_matches {n : ℕ} {s m y : List Char} {c d : Char} {sg : ℤ} {v j : ℕ} {e : ℤ} (hs : SignText s sg)
    (hc : c.toLower = 'x') (hm : MantText 16 m v j) (hd : d.toLower = 'p') (hy : IntText y e) :
    ∃ k, Matches (hex n) (s ++ '0' :: c :: m ++ d :: y) k :=
  ⟨_, s ++ '0' :: c :: m, d :: y, _, _, rfl, rfl,
    ⟨_, rfl, s, '0' :: c :: m, [], _, rfl, rfl, matches_sign.mpr ⟨⟨sg, hs⟩, rfl⟩, ['0'], c :: m, [], _, rfl, rfl,
      matches_lit.mpr ⟨rfl, rfl⟩, [c], m, [], [], rfl, rfl, matches_ci.mpr ⟨c, hc, rfl, rfl⟩,
      (matches_mantissa isHexDigit_eq).mpr ⟨⟨v, j, hm⟩, rfl⟩⟩,
    [d], y, [], _, rfl, rfl, matches_ci.mpr ⟨d, hd, rfl, rfl⟩, [], rfl, matches_integer.mpr ⟨⟨e, hy⟩, rfl⟩⟩

/-- A text of digits is the number zero iff all digits are zero. -/
theorem numVal_eq_zero {w : List Char} (h : IsDigits 10 w) : numVal 10 w = 0 ↔ ∀ c ∈ w, c = '0' := by
  have key : ∀ c : Char, isDigit c = true → ((digitVal .dec c).getD 0 = 0 ↔ c = '0') := by
    intro c hc
    simp only [isDigit, Bool.and_eq_true, decide_eq_true_eq] at hc
    have h1 : 48 ≤ c.toNat := hc.1
    have h2 : c.toNat ≤ 57 := hc.2
    have hc : c = Char.ofNat c.toNat := (Char.ofNat_toNat c).symm
    generalize c.toNat = n at *
    subst hc
    interval_cases n <;> decide
  rw [show (10:ℕ) = Base.dec.toNat from rfl] at h ⊢
  rw [← digitsVal_eq h]
  have h' := isDigits_ten.mp h
  clear h
  unfold digitsVal
  induction w using List.reverseRecOn with
  | nil => simp
  | append_singleton w c ih =>
    have ih := ih fun d hd => h' d (List.mem_append_left _ hd)
    have hc := key c (h' c (by simp))
    rw [List.foldl_append]
    simp only [List.foldl_cons, List.foldl_nil, Nat.add_eq_zero_iff, Nat.mul_eq_zero, ih, hc, List.mem_append, List.mem_singleton]
    constructor
    · rintro ⟨h0 | h0, rfl⟩ d (hd | rfl)
      · exact absurd h0 (by decide)
      · rfl
      · exact h0 d hd
      · rfl
    · intro h
      exact ⟨Or.inr fun d hd => h d (Or.inl hd), h c (Or.inr rfl)⟩

theorem matches_denom {w : List Char} {k : Caps} :
    Matches (seq (star fun c => c = '0') (seq (chr fun c => isDigit c && c ≠ '0') (star isDigit))) w k ↔
      (IsDigits 10 w ∧ numVal 10 w ≠ 0) ∧ k = [] := by
  constructor
  · rintro ⟨w1, w2, k1, k2, rfl, rfl, ⟨h1, rfl⟩, w3, w4, k3, k4, rfl, rfl, ⟨c, rfl, hc, rfl⟩, h2, rfl⟩
    simp only [Bool.and_eq_true, decide_eq_true_eq] at hc h1
    have hd : IsDigits 10 (w1 ++ ([c] ++ w4)) := by
      rw [isDigits_ten]
      intro d hd
      simp only [List.mem_append, List.mem_singleton] at hd
      rcases hd with hd | rfl | hd
      · rw [h1 d hd]; decide
      · exact hc.1
      · exact h2 d hd
    refine ⟨⟨hd, ?_⟩, rfl⟩
    rw [ne_eq, numVal_eq_zero hd]
    intro h
    exact hc.2 (h c (by simp))
  · rintro ⟨⟨h1, h2⟩, rfl⟩
    rw [ne_eq, numVal_eq_zero h1] at h2
    rw [isDigits_ten] at h1
    have hsp := List.takeWhile_append_dropWhile (p := fun c => decide (c = '0')) (l := w)
    have hh := List.head?_dropWhile_not (fun c => decide (c = '0')) w
    have ht : ∀ c ∈ w.takeWhile (fun c => decide (c = '0')), decide (c = '0') = true :=
      fun c h => List.all_eq_true.mp List.all_takeWhile c h
    generalize w.takeWhile (fun c => decide (c = '0')) = a at *
    generalize w.dropWhile (fun c => decide (c = '0')) = b at *
    subst hsp
    cases b with
    | nil => exact absurd (fun c hc => by simpa using ht c (by simpa using hc)) h2
    | cons c b =>
      simp only [List.head?_cons] at hh
      refine ⟨a, c :: b, [], [], rfl, rfl, ⟨ht, rfl⟩, [c], b, [], [], rfl, rfl, ⟨c, rfl, ?_, rfl⟩, ?_, rfl⟩
      · have := h1 c (by simp)
        simp only [Bool.not_eq_true', decide_eq_false_iff_not] at hh
        simp [this, hh]
      · intro d hd
        exact h1 d (by simp [hd])

theorem matches_rational {n : ℕ} {w : List Char} {k : Caps} (h : Matches (rational n) w k) :
    ∃ s a w1 w2 d sg, w = s ++ a ++ w1 ++ '/' :: (w2 ++ d) ∧ SignText s sg ∧ a ≠ [] ∧ IsDigits 10 a ∧ IsWs w1 ∧ IsWs w2 ∧ IsDigits 10 d ∧
      numVal 10 d ≠ 0 ∧ k.get n = s ++ a ∧ k.get (n + 1) = d := by
  obtain ⟨wi, w', k1, k2, rfl, rfl, ⟨k', rfl, hi⟩, w1, w'', k3, k4, rfl, rfl, ⟨h1, rfl⟩, wl, w3, k5, k6, rfl, rfl, hl, w2, d, k7, k8,
    rfl, rfl, ⟨h2, rfl⟩, k9, rfl, hd⟩ := h
  obtain ⟨⟨e, s, sg, a, rfl, hs, ha, ha', rfl⟩, rfl⟩ := matches_integer.mp hi
  obtain ⟨rfl, rfl⟩ := matches_lit.mp hl
  obtain ⟨⟨hD, hD'⟩, rfl⟩ := matches_denom.mp hd
  exact ⟨s, a, w1, w2, d, sg, by simp, hs, ha, ha', isWs_iff.mpr h1, isWs_iff.mpr h2, hD, hD', Caps.get_cons_self, Caps.get_snd⟩

theorem rational_matches {n : ℕ} {s a w1 w2 d : List Char} {sg : ℤ} (hs : SignText s sg) (ha : a ≠ []) (ha' : IsDigits 10 a)
    (h1 : IsWs w1) (h2 : IsWs w2) (hd : IsDigits 10 d) (hd' : numVal 10 d ≠ 0) :
    ∃ k, Matches (rational n) (s ++ a ++ w1 ++ '/' :: (w2 ++ d)) k :=
  ⟨_, s ++ a, w1 ++ '/' :: (w2 ++ d), _, _, by simp, rfl, ⟨[], rfl, matches_integer.mpr ⟨⟨_, s, sg, a, rfl, hs, ha, ha', rfl⟩, rfl⟩⟩,
    w1, '/' :: (w2 ++ d), [], _, rfl, rfl, ⟨isWs_iff.mp h1, rfl⟩, ['/'], w2 ++ d, [], _, rfl, rfl, matches_lit.mpr ⟨rfl, rfl⟩,
    w2, d, [], _, rfl, rfl, ⟨isWs_iff.mp h2, rfl⟩, [], rfl, matches_denom.mpr ⟨⟨hd, hd'⟩, rfl⟩⟩

/-- The three forms of numbers. -/
theorem num_matches {n : ℕ} {w : List Char} {q : ℚ} {N : NumInfo} (h : NumText w q N) :
    (∃ k, Matches (float n) w k) ∨ (∃ k, Matches (hex (n + 2)) w k) ∨ ∃ k, Matches (rational (n + 4)) w k := by
  cases h with
  | dec hs hm hx => exact Or.inl (float_matches hs hm hx)
  | hex hs hc hm hd hy => exact Or.inr (Or.inl (hex_matches hs hc hm hd hy))
  | rat hs hn hn' h1 h2 hd hd' => exact Or.inr (Or.inr (rational_matches hs hn hn' h1 h2 hd hd'))

end Rx

theorem MantText.ne_nil {b : ℕ} {w : List Char} {v k : ℕ} (h : MantText b w v k) : w ≠ [] := by
  obtain ⟨ip, fp, (⟨rfl, rfl⟩ | rfl), h1, -⟩ := h
  · simpa using h1
  · simp

/-- The number is computed from the captures, if they are those of one of the three forms. -/
theorem litNum_eq {n : ℕ} {w : List Char} {k m : Caps}
    (h : Rx.Matches (Rx.float n) w k ∨ Rx.Matches (Rx.hex (n + 2)) w k ∨ Rx.Matches (Rx.rational (n + 4)) w k)
    (hm : ∀ i, n ≤ i → i < n + 6 → m.get i = k.get i) :
    ∃ q N, NumText w q N ∧ litNum m n = numOut q N := by
  unfold litNum
  rw [hm n (by omega) (by omega), hm (n + 1) (by omega) (by omega), hm (n + 2) (by omega) (by omega),
    hm (n + 3) (by omega) (by omega), hm (n + 4) (by omega) (by omega), hm (n + 5) (by omega) (by omega)]
  rcases h with h | h | h
  · obtain ⟨s, a, x, y, sg, v, j, e, rfl, hs, ha, hx, e1, e2, hy⟩ := Rx.matches_float h
    refine ⟨_, _, .dec hs ha hx, ?_⟩
    rw [e1, e2, if_pos (List.length_pos_iff.mpr (by simp [ha.ne_nil]))]
    exact litFloat_eq hs ha hy
  · have h0 : k.get n = [] := h.get_none (by simp [Rx.hex, Rx.mantissa, Rx.integer, Rx.plus, Rx.lit, Rx.ci, Rx.groups]; omega)
    obtain ⟨s, c, a, d, y, sg, v, j, e, rfl, hs, hc, ha, hd, hy, e1, e2⟩ := Rx.matches_hex h
    refine ⟨_, _, .hex hs hc ha hd hy, ?_⟩
    rw [h0, e1, e2, if_neg (by simp), if_pos (List.length_pos_iff.mpr (by simp))]
    exact litHex_eq hs hc ha hy
  · have h0 : k.get n = [] := h.get_none (by simp [Rx.rational, Rx.integer, Rx.plus, Rx.lit, Rx.groups]; omega)
    have h2 : k.get (n + 2) = [] := h.get_none (by simp [Rx.rational, Rx.integer, Rx.plus, Rx.lit, Rx.groups])
    obtain ⟨s, a, w1, w2, d, sg, rfl, hs, ha, ha', h1, h2', hd, hd', e1, e2⟩ := Rx.matches_rational h
    refine ⟨_, _, .rat hs ha ha' h1 h2' hd hd', ?_⟩
    rw [h0, h2, e1, e2, if_neg (by simp), if_neg (by simp), if_pos (List.length_pos_iff.mpr (by simp [ha]))]
    exact litRat_eq hs ha ha' hd hd'

end P1788
