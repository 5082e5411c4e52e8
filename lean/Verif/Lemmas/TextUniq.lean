import Verif.Lemmas.TextBody

/-! # A text denotes at most one thing -/

namespace P1788

theorem span_unique {α : Type*} (p : α → Prop) {a b a' b' : List α} (h : a ++ b = a' ++ b') (ha : ∀ c ∈ a, p c)
    (ha' : ∀ c ∈ a', p c) (hb : ∀ c, b.head? = some c → ¬ p c) (hb' : ∀ c, b'.head? = some c → ¬ p c) : a = a' ∧ b = b' := by
  induction a generalizing a' with
  | nil =>
    cases a' with
    | nil => exact ⟨rfl, h⟩
    | cons c a' =>
      simp only [List.nil_append, List.cons_append] at h
      exact absurd (ha' c List.mem_cons_self) (hb c (by rw [h]; rfl))
  | cons c a ih =>
    cases a' with
    | nil =>
      simp only [List.nil_append, List.cons_append] at h
      exact absurd (ha c List.mem_cons_self) (hb' c (by rw [← h]; rfl))
    | cons c' a' =>
      simp only [List.cons_append, List.cons.injEq] at h
      obtain ⟨h1, h2⟩ := ih h.2 (fun d hd => ha d (List.mem_cons_of_mem _ hd)) (fun d hd => ha' d (List.mem_cons_of_mem _ hd))
      exact ⟨by rw [h.1, h1], h2⟩

/-! ## Characters -/

/-- The characters that occur in numbers. -/
def numChar (c : Char) : Bool :=
  Rx.isSign c || isDigitOf .hex c || c = '.' || c = 'x' || c = 'X' || c = 'p' || c = 'P' || isSpace c || c = '/'

theorem hex_of_dec {c : Char} (h : isDigit c = true) : isDigitOf .hex c = true := by
  rw [isDigit_eq, isDigitOf_iff] at h
  rw [isDigitOf_iff]
  obtain ⟨k, h1, h2⟩ := h
  exact ⟨k, lt_trans h1 (by decide), h2⟩

theorem SignText.char {s : List Char} {sg : ℤ} (h : SignText s sg) : ∀ c ∈ s, Rx.isSign c = true := by
  rcases h.cases with ⟨rfl, -⟩ | ⟨rfl, -⟩ | ⟨rfl, -⟩ <;> simp [Rx.isSign]

theorem IntText.char {w : List Char} {e : ℤ} (h : IntText w e) : ∀ c ∈ w, Rx.isSign c = true ∨ isDigit c = true := by
  obtain ⟨s, sg, ds, rfl, hs, -, hd, -⟩ := h
  intro c hc
  rcases List.mem_append.mp hc with hc | hc
  · exact Or.inl (hs.char c hc)
  · exact Or.inr (isDigits_ten.mp hd c hc)

theorem MantText.char {b : Base} {w : List Char} {v k : ℕ} (h : MantText b.toNat w v k) : ∀ c ∈ w, isDigitOf b c = true ∨ c = '.' := by
  obtain ⟨ip, fp, (⟨rfl, rfl⟩ | rfl), -, h2, -⟩ := h
  · intro c hc
    exact Or.inl (isDigits_iff.mp h2 c (by simpa using hc))
  · intro c hc
    simp only [List.mem_append, List.mem_cons] at hc
    rcases hc with hc | rfl | hc
    · exact Or.inl (isDigits_iff.mp h2 c (by simp [hc]))
    · exact Or.inr rfl
    · exact Or.inl (isDigits_iff.mp h2 c (by simp [hc]))

theorem MantText.char10 {w : List Char} {v k : ℕ} (h : MantText 10 w v k) : ∀ c ∈ w, isDigit c = true ∨ c = '.' := by
  have := MantText.char (b := .dec) h
  simpa only [isDigit_eq] using this

theorem ExpText.char {w : List Char} {e : ℤ} (h : ExpText w e) :
    ∀ c ∈ w, Rx.isSign c = true ∨ isDigit c = true ∨ c = 'e' ∨ c = 'E' := by
  rcases h with ⟨rfl, -⟩ | ⟨d, y, hd, rfl, hy⟩
  · simp
  · intro c hc
    rcases List.mem_cons.mp hc with rfl | hc
    · rcases lower_cases hd (by decide) (by decide) with h | h
      · exact Or.inr (Or.inr (Or.inl h))
      · exact Or.inr (Or.inr (Or.inr h))
    · rcases hy.char c hc with h | h
      · exact Or.inl h
      · exact Or.inr (Or.inl h)

theorem digit_cases {c : Char} (h : isDigit c = true) :
    c = '0' ∨ c = '1' ∨ c = '2' ∨ c = '3' ∨ c = '4' ∨ c = '5' ∨ c = '6' ∨ c = '7' ∨ c = '8' ∨ c = '9' := by
  simp only [isDigit, Bool.and_eq_true, decide_eq_true_eq] at h
  have h1 : 48 ≤ c.toNat := h.1
  have h2 : c.toNat ≤ 57 := h.2
  have hc : c = Char.ofNat c.toNat := (Char.ofNat_toNat c).symm
  generalize c.toNat = n at *
  subst hc
  interval_cases n <;> simp

theorem NumText.char {w : List Char} {q : ℚ} {N : NumInfo} (h : NumText w q N) : ∀ c ∈ w, numChar c = true := by
  have sg : ∀ {c}, Rx.isSign c = true → numChar c = true := fun h => by simp [numChar, h]
  have dg : ∀ {c}, isDigit c = true → numChar c = true := fun h => by simp [numChar, hex_of_dec h]
  cases h with
  | dec hs hm hx =>
    intro c hc
    simp only [List.mem_append] at hc
    rcases hc with (hc | hc) | hc
    · exact sg (hs.char c hc)
    · rcases hm.char10 c hc with h | rfl
      · exact dg h
      · decide
    · rcases hx.char c hc with h | h | rfl | rfl
      · exact sg h
      · exact dg h
      · decide
      · decide
  | hex hs hcx hm hd hy =>
    intro c hc
    simp only [List.mem_append, List.mem_cons] at hc
    rcases hc with (hc | rfl | rfl | hc) | rfl | hc
    · exact sg (hs.char c hc)
    · decide
    · rcases lower_cases hcx (by decide) (by decide) with rfl | rfl <;> decide
    · rcases MantText.char (b := .hex) hm c hc with h | rfl
      · simp [numChar, h]
      · decide
    · rcases lower_cases hd (by decide) (by decide) with rfl | rfl <;> decide
    · rcases hy.char c hc with h | h
      · exact sg h
      · exact dg h
  | rat hs hn hn' h1 h2 hd hd' =>
    intro c hc
    simp only [List.mem_append, List.mem_cons] at hc
    rcases hc with ((hc | hc) | hc) | rfl | hc | hc
    · exact sg (hs.char c hc)
    · exact dg (isDigits_ten.mp hn' c hc)
    · simp [numChar, isWs_iff.mp h1 c hc]
    · decide
    · simp [numChar, isWs_iff.mp h2 c hc]
    · exact dg (isDigits_ten.mp hd c hc)

/-! ## Numbers -/

theorem SignText.unique {s : List Char} {a b : ℤ} (h : SignText s a) (h' : SignText s b) : a = b := by
  rcases h.cases with ⟨rfl, rfl⟩ | ⟨rfl, rfl⟩ | ⟨rfl, rfl⟩ <;> rcases h'.cases with ⟨h, rfl⟩ | ⟨h, rfl⟩ | ⟨h, rfl⟩ <;>
    first | rfl | exact absurd h (by simp)

theorem sign_unique {s s' r r' : List Char} {a b : ℤ} (h : s ++ r = s' ++ r') (hs : SignText s a) (hs' : SignText s' b)
    (hr : ∀ c, r.head? = some c → Rx.isSign c = false) (hr' : ∀ c, r'.head? = some c → Rx.isSign c = false) :
    s = s' ∧ a = b ∧ r = r' := by
  obtain ⟨rfl, rfl⟩ := span_unique (fun c => Rx.isSign c = true) h hs.char hs'.char (fun c hc => by simp [hr c hc]) (fun c hc => by simp [hr' c hc])
  exact ⟨rfl, hs.unique hs', rfl⟩

theorem sign_not_digit {b : Base} {c : Char} (h : isDigitOf b c = true) : Rx.isSign c = false := by
  have := digit_not_sign h
  simp [Rx.isSign, this.1, this.2.1]

theorem head_append_of_ne {α : Type*} {a b : List α} (h : a ≠ []) : (a ++ b).head? = a.head? := by
  cases a with
  | nil => exact absurd rfl h
  | cons c a => rfl

theorem mem_of_head? {α : Type*} {a : List α} {c : α} (h : a.head? = some c) : c ∈ a := by
  cases a with
  | nil => simp at h
  | cons d a => simp at h; simp [h]

theorem IntText.unique {w : List Char} {e e' : ℤ} (h : IntText w e) (h' : IntText w e') : e = e' := by
  obtain ⟨s, sg, ds, rfl, hs, h1, h2, rfl⟩ := h
  obtain ⟨s', sg', ds', hw, hs', h1', h2', rfl⟩ := h'
  obtain ⟨rfl, rfl, rfl⟩ := sign_unique hw hs hs'
    (fun c hc => sign_not_digit ((isDigits_iff (b := .dec)).mp h2 c (mem_of_head? hc)))
    (fun c hc => sign_not_digit ((isDigits_iff (b := .dec)).mp h2' c (mem_of_head? hc)))
  rfl

theorem MantText.unique {b : Base} {w : List Char} {v k v' k' : ℕ} (h : MantText b.toNat w v k) (h' : MantText b.toNat w v' k') :
    v = v' ∧ k = k' := by
  have np : ∀ {l : List Char}, IsDigits b.toNat l → '.' ∉ l := fun hl hm => (digit_not_sign (isDigits_iff.mp hl _ hm)).2.2 rfl
  obtain ⟨ip, fp, hw, -, h2, rfl, rfl⟩ := h
  obtain ⟨ip', fp', hw', -, h2', rfl, rfl⟩ := h'
  have n1 := np h2
  have n2 := np h2'
  rcases hw with ⟨rfl, rfl⟩ | rfl <;> rcases hw' with ⟨rfl, rfl⟩ | hw'
  · simp
  · subst hw'; simp at n1
  · simp at n2
  · obtain ⟨rfl, he⟩ := span_unique (fun c => c ≠ '.') hw' (fun c hc => by rintro rfl; exact n1 (by simp [hc]))
      (fun c hc => by rintro rfl; exact n2 (by simp [hc])) (fun c hc => by simp at hc; simp [← hc]) (fun c hc => by simp at hc; simp [← hc])
    simp only [List.cons.injEq, true_and] at he
    rw [he]; simp

theorem ExpText.head {x : List Char} {e : ℤ} (h : ExpText x e) : ∀ c, x.head? = some c → c = 'e' ∨ c = 'E' := by
  rcases h with ⟨rfl, -⟩ | ⟨d, y, hd, rfl, -⟩
  · simp
  · intro c hc
    simp only [List.head?_cons, Option.some.injEq] at hc
    subst hc
    exact lower_cases hd (by decide) (by decide)

theorem ExpText.unique {x : List Char} {e e' : ℤ} (h : ExpText x e) (h' : ExpText x e') : e = e' := by
  rcases h with ⟨rfl, rfl⟩ | ⟨d, y, -, rfl, hy⟩ <;> rcases h' with ⟨h, rfl⟩ | ⟨d', y', -, h, hy'⟩
  · rfl
  · simp at h
  · simp at h
  · simp only [List.cons.injEq] at h
    rw [← h.2] at hy'
    exact hy.unique hy'

theorem MantText.head {b : Base} {m : List Char} {v k : ℕ} (h : MantText b.toNat m v k) (r : List Char) :
    ∀ c, (m ++ r).head? = some c → Rx.isSign c = false := by
  intro c hc
  rw [head_append_of_ne h.ne_nil] at hc
  rcases h.char c (mem_of_head? hc) with h | rfl
  · exact sign_not_digit h
  · decide

theorem mant_unique {b : Base} {m m' r r' : List Char} {v k v' k' : ℕ} (h : m ++ r = m' ++ r') (hm : MantText b.toNat m v k)
    (hm' : MantText b.toNat m' v' k') (hr : ∀ c, r.head? = some c → isDigitOf b c = false ∧ c ≠ '.')
    (hr' : ∀ c, r'.head? = some c → isDigitOf b c = false ∧ c ≠ '.') : m = m' ∧ v = v' ∧ k = k' ∧ r = r' := by
  obtain ⟨rfl, rfl⟩ := span_unique (fun c => isDigitOf b c = true ∨ c = '.') h hm.char hm'.char
    (fun c hc => by have := hr c hc; simp [this]) (fun c hc => by have := hr' c hc; simp [this])
  obtain ⟨rfl, rfl⟩ := hm.unique hm'
  exact ⟨rfl, rfl, rfl, rfl⟩

theorem NumText.unique {w : List Char} {q q' : ℚ} {N N' : NumInfo} (h : NumText w q N) (h' : NumText w q' N') : q = q' ∧ N = N' := by
  -- the three forms are distinguished by the characters `x` and `/`
  have dec_x : ∀ {s m x : List Char} {sg : ℤ} {v k : ℕ} {e : ℤ}, SignText s sg → MantText 10 m v k → ExpText x e →
      ∀ c ∈ s ++ m ++ x, c ≠ '/' ∧ c.toLower ≠ 'x' := by
    intro s m x sg v k e hs hm hx c hc
    have key : Rx.isSign c = true ∨ isDigit c = true ∨ c = '.' ∨ c = 'e' ∨ c = 'E' := by
      simp only [List.mem_append] at hc
      rcases hc with (hc | hc) | hc
      · exact Or.inl (hs.char c hc)
      · rcases hm.char10 c hc with h | h <;> tauto
      · rcases hx.char c hc with h | h | h | h <;> tauto
    rcases key with h | h | rfl | rfl | rfl
    · rcases isSign_iff.mp h with rfl | rfl <;> decide
    · rcases digit_cases h with rfl | rfl | rfl | rfl | rfl | rfl | rfl | rfl | rfl | rfl <;> decide
    · decide
    · decide
    · decide
  have hex_x : ∀ {s m y : List Char} {c d : Char} {sg : ℤ} {v k : ℕ} {e : ℤ}, SignText s sg → c.toLower = 'x' → MantText 16 m v k →
      d.toLower = 'p' → IntText y e → ∀ c' ∈ s ++ '0' :: c :: m ++ d :: y, c' ≠ '/' := by
    rintro s m y c d sg v k e hs hc hm hd hy c' hc' rfl
    simp only [List.mem_append, List.mem_cons] at hc'
    rcases hc' with (hc' | hc' | rfl | hc') | rfl | hc'
    · exact absurd (hs.char _ hc') (by decide)
    · exact absurd hc' (by decide)
    · exact absurd hc (by decide)
    · rcases MantText.char (b := .hex) hm _ hc' with h | h
      · exact absurd h (by decide)
      · exact absurd h (by decide)
    · exact absurd hd (by decide)
    · rcases hy.char _ hc' with h | h
      · exact absurd h (by decide)
      · exact absurd h (by decide)
  generalize hw : w = w' at h'
  cases h with
  | dec hs hm hx =>
    cases h' with
    | dec hs' hm' hx' =>
      rw [List.append_assoc, List.append_assoc] at hw
      obtain ⟨rfl, rfl, hw⟩ := sign_unique hw hs hs' (hm.head (b := .dec) _) (hm'.head (b := .dec) _)
      have he : ∀ {x : List Char} {e : ℤ}, ExpText x e → ∀ c, x.head? = some c → isDigitOf .dec c = false ∧ c ≠ '.' := by
        intro x e hx c hc
        rcases hx.head c hc with rfl | rfl <;> decide
      obtain ⟨rfl, rfl, rfl, rfl⟩ := mant_unique (b := .dec) hw hm hm' (he hx) (he hx')
      obtain rfl := hx.unique hx'
      exact ⟨rfl, rfl⟩
    | hex hs' hc' hm' hd' hy' =>
      rename_i c' _ _ _ _ _
      exact absurd hc' (dec_x hs hm hx c' (by rw [hw]; simp)).2
    | rat hs' hn hn' h1 h2 hd hd' => exact absurd rfl (dec_x hs hm hx '/' (by rw [hw]; simp)).1
  | hex hs hc hm hd hy =>
    cases h' with
    | dec hs' hm' hx' =>
      rename_i c _ _ _ _ _ _ _ _ _ _ _ _
      exact absurd hc (dec_x hs' hm' hx' c (by rw [← hw]; simp)).2
    | hex hs' hc' hm' hd' hy' =>
      rw [List.append_assoc, List.append_assoc] at hw
      obtain ⟨rfl, rfl, hw⟩ := sign_unique hw hs hs' (fun c hc => by simp at hc; subst hc; decide) (fun c hc => by simp at hc; subst hc; decide)
      simp only [List.cons_append, List.cons.injEq, true_and] at hw
      have he : ∀ {d : Char} {x : List Char}, d.toLower = 'p' → ∀ c, (d :: x).head? = some c → isDigitOf .hex c = false ∧ c ≠ '.' := by
        intro d x hd c hc
        simp only [List.head?_cons, Option.some.injEq] at hc
        subst hc
        rcases lower_cases hd (by decide) (by decide) with rfl | rfl <;> decide
      obtain ⟨rfl, rfl, rfl, hw⟩ := mant_unique (b := .hex) hw.2 hm hm' (he hd) (he hd')
      simp only [List.cons.injEq] at hw
      obtain ⟨-, rfl⟩ := hw
      obtain rfl := hy.unique hy'
      exact ⟨rfl, rfl⟩
    | rat hs' hn hn' h1 h2 hd'' hd' => exact absurd rfl (hex_x hs hc hm hd hy '/' (by rw [hw]; simp))
  | rat hs hn hn' h1 h2 hd hd' =>
    cases h' with
    | dec hs' hm' hx' => exact absurd rfl (dec_x hs' hm' hx' '/' (by rw [← hw]; simp)).1
    | hex hs' hc' hm' hd' hy' => exact absurd rfl (hex_x hs' hc' hm' hd' hy' '/' (by rw [← hw]; simp))
    | rat hs' hm hm' h1' h2' hd'' hd''' =>
      have hdig : ∀ {n r : List Char}, n ≠ [] → IsDigits 10 n → ∀ c, (n ++ r).head? = some c → Rx.isSign c = false := by
        intro n r h1 h2 c hc
        rw [head_append_of_ne h1] at hc
        exact sign_not_digit ((isDigits_iff (b := .dec)).mp h2 c (mem_of_head? hc))
      simp only [List.append_assoc] at hw
      obtain ⟨rfl, rfl, hw⟩ := sign_unique hw hs hs' (hdig hn hn') (hdig hm hm')
      have hsp : ∀ {w1 r : List Char}, IsWs w1 → ∀ c, (w1 ++ '/' :: r).head? = some c → isSpace c = true ∨ c = '/' := by
        intro w1 r h c hc
        cases w1 with
        | nil => simp at hc; exact Or.inr hc.symm
        | cons d w1 => simp at hc; subst hc; exact Or.inl (isWs_iff.mp h d (by simp))
      have hnd : ∀ {c : Char}, isSpace c = true ∨ c = '/' → ¬ isDigit c = true := by
        rintro c (h | rfl) hd
        · rcases digit_cases hd with rfl | rfl | rfl | rfl | rfl | rfl | rfl | rfl | rfl | rfl <;> exact absurd h (by decide)
        · exact absurd hd (by decide)
      obtain ⟨rfl, hw2⟩ := span_unique (fun c => isDigit c = true) hw (isDigits_ten.mp hn') (isDigits_ten.mp hm')
        (fun c hc => hnd (hsp h1 c hc)) (fun c hc => hnd (hsp h1' c hc))
      obtain ⟨-, hw3⟩ := span_unique (fun c => isSpace c = true) hw2 (isWs_iff.mp h1) (isWs_iff.mp h1')
        (fun c hc => by simp at hc; subst hc; decide) (fun c hc => by simp at hc; subst hc; decide)
      simp only [List.cons.injEq, true_and] at hw3
      have hds : ∀ {d : List Char}, IsDigits 10 d → ∀ c, d.head? = some c → ¬ isSpace c = true := by
        intro d hd c hc hs
        exact hnd (Or.inl hs) (isDigits_ten.mp hd c (mem_of_head? hc))
      obtain ⟨-, rfl⟩ := span_unique (fun c => isSpace c = true) hw3 (isWs_iff.mp h2) (isWs_iff.mp h2') (hds hd) (hds hd'')
      exact ⟨rfl, rfl⟩

/-! ## White space around arguments -/

/-- The text without white space at its ends. -/
def trim (w : List Char) : List Char := ((w.dropWhile isSpace).reverse.dropWhile isSpace).reverse

/-- The text neither starts nor ends with white space. -/
def Core (w : List Char) : Prop := (∀ c, w.head? = some c → isSpace c = false) ∧ ∀ c, w.getLast? = some c → isSpace c = false

theorem Core.of_all {w : List Char} (h : ∀ c ∈ w, isSpace c = false) : Core w :=
  ⟨fun c hc => h c (mem_of_head? hc), fun c hc => h c (List.mem_of_getLast? hc)⟩

theorem dropWhile_all {p : Char → Bool} {w r : List Char} (h : ∀ c ∈ w, p c = true) : (w ++ r).dropWhile p = r.dropWhile p := by
  induction w with
  | nil => rfl
  | cons c w ih =>
    rw [List.cons_append, List.dropWhile_cons, if_pos (h c List.mem_cons_self), ih fun d hd => h d (List.mem_cons_of_mem _ hd)]

theorem dropWhile_head {p : Char → Bool} {w : List Char} (h : ∀ c, w.head? = some c → p c = false) : w.dropWhile p = w := by
  cases w with
  | nil => rfl
  | cons c w => rw [List.dropWhile_cons, if_neg (by simp [h c rfl])]

theorem trim_eq {w1 w w2 : List Char} (h1 : IsWs w1) (h : Core w) (h2 : IsWs w2) : trim (w1 ++ w ++ w2) = w := by
  rw [isWs_iff] at h1 h2
  unfold trim
  rw [List.append_assoc, dropWhile_all h1]
  by_cases hw : w = []
  · subst hw
    have : ([] ++ w2).dropWhile isSpace = [] := by
      have := dropWhile_all (r := []) h2
      simpa using this
    rw [this]; rfl
  · rw [dropWhile_head (w := w ++ w2) (by rw [head_append_of_ne hw]; exact h.1), List.reverse_append,
      dropWhile_all (fun c hc => h2 c (by simpa using hc)), dropWhile_head, List.reverse_reverse]
    intro c hc
    exact h.2 c (by simpa using hc)

theorem lower_letter {w l : List Char} (h : w.map Char.toLower = l) (hl : ∀ d ∈ l, 'a' ≤ d) : ∀ c ∈ w, isSpace c = false ∧ c ≠ ',' := by
  intro c hc
  have := hl c.toLower (by rw [← h]; exact List.mem_map_of_mem hc)
  constructor
  · rw [Bool.eq_false_iff]
    intro hs
    simp only [isSpace, Bool.or_eq_true, decide_eq_true_eq] at hs
    rcases hs with ((((rfl | rfl) | rfl) | rfl) | rfl) | rfl <;> exact absurd this (by decide)
  · rintro rfl; exact absurd this (by decide)

theorem NumText.ne_nil {w : List Char} {q : ℚ} {N : NumInfo} (h : NumText w q N) : w ≠ [] := by
  cases h with
  | dec hs hm hx => simp [hm.ne_nil]
  | hex => simp
  | rat => simp

theorem digit_not_space {c : Char} (h : isDigit c = true) : isSpace c = false := by
  rcases digit_cases h with rfl | rfl | rfl | rfl | rfl | rfl | rfl | rfl | rfl | rfl <;> decide

theorem hex_not_space {c : Char} (h : isDigitOf .hex c = true) : isSpace c = false := by
  rw [Bool.eq_false_iff]
  intro hs
  simp only [isSpace, Bool.or_eq_true, decide_eq_true_eq] at hs
  rcases hs with ((((rfl | rfl) | rfl) | rfl) | rfl) | rfl <;> exact absurd h (by decide)

theorem sign_not_space {c : Char} (h : Rx.isSign c = true) : isSpace c = false := by
  rcases isSign_iff.mp h with rfl | rfl <;> decide

theorem NumText.core {w : List Char} {q : ℚ} {N : NumInfo} (h : NumText w q N) : Core w := by
  cases h with
  | dec hs hm hx =>
    apply Core.of_all
    intro c hc
    simp only [List.mem_append] at hc
    rcases hc with (hc | hc) | hc
    · exact sign_not_space (hs.char c hc)
    · rcases hm.char10 c hc with h | rfl
      · exact digit_not_space h
      · decide
    · rcases hx.char c hc with h | h | rfl | rfl
      · exact sign_not_space h
      · exact digit_not_space h
      · decide
      · decide
  | hex hs hcx hm hd hy =>
    apply Core.of_all
    intro c hc
    simp only [List.mem_append, List.mem_cons] at hc
    rcases hc with (hc | rfl | rfl | hc) | rfl | hc
    · exact sign_not_space (hs.char c hc)
    · decide
    · rcases lower_cases hcx (by decide) (by decide) with rfl | rfl <;> decide
    · rcases MantText.char (b := .hex) hm c hc with h | rfl
      · exact hex_not_space h
      · decide
    · rcases lower_cases hd (by decide) (by decide) with rfl | rfl <;> decide
    · rcases hy.char c hc with h | h
      · exact sign_not_space h
      · exact digit_not_space h
  | rat hs hn hn' h1 h2 hd hd' =>
    rename_i s n w1 w2 d sg
    constructor
    · intro c hc
      rw [List.append_assoc, head_append_of_ne (by simp [hn])] at hc
      rcases List.mem_append.mp (mem_of_head? hc) with hc | hc
      · exact sign_not_space (hs.char c hc)
      · exact digit_not_space (isDigits_ten.mp hn' c hc)
    · intro c hc
      have hd0 : d ≠ [] := by rintro rfl; exact hd' (by simp [numVal])
      have e : s ++ n ++ w1 ++ '/' :: (w2 ++ d) = (s ++ n ++ w1 ++ '/' :: w2) ++ d := by simp
      rw [e, List.getLast?_append_of_ne_nil _ hd0] at hc
      exact digit_not_space (isDigits_ten.mp hd c (List.mem_of_getLast? hc))

/-- Names are not numbers. -/
theorem NumText.not_name {w : List Char} {q : ℚ} {N : NumInfo} (h : NumText w q N) : ∀ c ∈ w, c.toLower ≠ 'y' ∧ c.toLower ≠ 'n' ∧ c ≠ ',' := by
  intro c hc
  have := h.char c hc
  refine ⟨fun hy => ?_, fun hn => ?_, fun h => ?_⟩
  · rcases lower_cases hy (by decide) (by decide) with rfl | rfl <;> exact absurd this (by decide)
  · rcases lower_cases hn (by decide) (by decide) with rfl | rfl <;> exact absurd this (by decide)
  · subst h; exact absurd this (by decide)

theorem name_mem {w l : List Char} {d : Char} (h : w.map Char.toLower = l) (hd : d ∈ l) : ∃ c ∈ w, c.toLower = d := by
  rw [← h] at hd
  exact List.mem_map.mp hd

/-! ## Bounds -/

theorem inf_n {w : List Char} (h : w.map Char.toLower = "inf".toList ∨ w.map Char.toLower = "infinity".toList) :
    ∃ c ∈ w, c.toLower = 'n' := by
  rcases h with h | h
  · exact name_mem h (by decide)
  · exact name_mem h (by decide)

theorem BoundText.unique {sgn : List (List Char)} {w : List Char} {l l' : Option ℚ} {N N' : List NumInfo} (h : BoundText sgn w l N)
    (h' : BoundText sgn w l' N') : l = l' ∧ N = N' := by
  generalize hw : w = w' at h'
  cases h with
  | none =>
    cases h' with
    | none => exact ⟨rfl, rfl⟩
    | inf hs h => exact ⟨rfl, rfl⟩
    | num h => exact absurd hw.symm h.ne_nil
  | inf hs hi =>
    cases h' with
    | none => exact ⟨rfl, rfl⟩
    | inf hs h => exact ⟨rfl, rfl⟩
    | num h =>
      obtain ⟨c, hc, hn⟩ := inf_n hi
      exact absurd hn (h.not_name c (by rw [← hw]; simp [hc])).2.1
  | num h =>
    cases h' with
    | none => exact absurd hw h.ne_nil
    | inf hs hi =>
      obtain ⟨c, hc, hn⟩ := inf_n hi
      exact absurd hn (h.not_name c (by rw [hw]; simp [hc])).2.1
    | num h' =>
      subst hw
      obtain ⟨rfl, rfl⟩ := h.unique h'
      exact ⟨rfl, rfl⟩

theorem BoundText.core {sgn : List (List Char)} (hsg : ∀ s ∈ sgn, ∀ c ∈ s, Rx.isSign c = true) {w : List Char} {l : Option ℚ} {N : List NumInfo}
    (h : BoundText sgn w l N) : Core w ∧ ',' ∉ w := by
  cases h with
  | none => exact ⟨Core.of_all (by simp), by simp⟩
  | inf hs hi =>
    rename_i s w
    have hl : ∀ c ∈ w, isSpace c = false ∧ c ≠ ',' := by
      rcases hi with h | h
      · exact lower_letter h (by decide)
      · exact lower_letter h (by decide)
    constructor
    · apply Core.of_all
      intro c hc
      rcases List.mem_append.mp hc with hc | hc
      · exact sign_not_space (hsg s hs c hc)
      · exact (hl c hc).1
    · intro hc
      rcases List.mem_append.mp hc with hc | hc
      · exact absurd (hsg s hs _ hc) (by decide)
      · exact (hl _ hc).2 rfl
  | num h => exact ⟨h.core, fun hc => (h.not_name _ hc).2.2 rfl⟩

/-! ## Literals -/

/-- The argument of a literal with one argument. -/
def One (w : List Char) (D : Denot) (N : List NumInfo) : Prop :=
  (w = [] ∧ D = .empty ∧ N = []) ∨ (w.map Char.toLower = "empty".toList ∧ D = .empty ∧ N = []) ∨
  (w.map Char.toLower = "entire".toList ∧ D = .bounds none none ∧ N = []) ∨ (w.map Char.toLower = "nai".toList ∧ D = .nai ∧ N = []) ∨
  ∃ q n, NumText w q n ∧ D = .bounds (some q) (some q) ∧ N = [n]

theorem One.core {w : List Char} {D : Denot} {N : List NumInfo} (h : One w D N) : Core w ∧ ',' ∉ w := by
  have nm : ∀ {l : List Char}, w.map Char.toLower = l → (∀ d ∈ l, 'a' ≤ d) → Core w ∧ ',' ∉ w := fun h hl =>
    ⟨Core.of_all fun c hc => (lower_letter h hl c hc).1, fun hc => (lower_letter h hl _ hc).2 rfl⟩
  rcases h with ⟨rfl, -⟩ | ⟨h, -⟩ | ⟨h, -⟩ | ⟨h, -⟩ | ⟨q, n, h, -⟩
  · exact ⟨Core.of_all (by simp), by simp⟩
  · exact nm h (by decide)
  · exact nm h (by decide)
  · exact nm h (by decide)
  · exact ⟨h.core, fun hc => (h.not_name _ hc).2.2 rfl⟩

theorem One.unique {w : List Char} {D D' : Denot} {N N' : List NumInfo} (h : One w D N) (h' : One w D' N') : D = D' ∧ N = N' := by
  have key : ∀ {D D' : Denot} {N N' : List NumInfo}, One w D N → (∃ q n, NumText w q n ∧ D' = .bounds (some q) (some q) ∧ N' = [n]) →
      D = D' ∧ N = N' := by
    rintro D D' N N' h ⟨q, n, hq, rfl, rfl⟩
    have ny := hq.not_name
    rcases h with ⟨rfl, -⟩ | ⟨h, -⟩ | ⟨h, -⟩ | ⟨h, -⟩ | ⟨q', n', h, rfl, rfl⟩
    · exact absurd rfl hq.ne_nil
    · obtain ⟨c, hc, hd⟩ := name_mem h (d := 'y') (by decide)
      exact absurd hd (ny c hc).1
    · obtain ⟨c, hc, hd⟩ := name_mem h (d := 'n') (by decide)
      exact absurd hd (ny c hc).2.1
    · obtain ⟨c, hc, hd⟩ := name_mem h (d := 'n') (by decide)
      exact absurd hd (ny c hc).2.1
    · obtain ⟨rfl, rfl⟩ := h.unique hq
      exact ⟨rfl, rfl⟩
  by_cases hq : ∃ q n, NumText w q n
  · obtain ⟨q, n, hq⟩ := hq
    obtain ⟨h1, h2⟩ := key h ⟨q, n, hq, rfl, rfl⟩
    obtain ⟨h3, h4⟩ := key h' ⟨q, n, hq, rfl, rfl⟩
    exact ⟨h1.trans h3.symm, h2.trans h4.symm⟩
  · have lst : ∀ {D : Denot} {N : List NumInfo}, One w D N → N = [] ∧ (w.map Char.toLower, D) ∈ [([], Denot.empty), ("empty".toList, .empty),
        ("entire".toList, .bounds none none), ("nai".toList, .nai)] := by
      intro D N h
      rcases h with ⟨rfl, rfl, rfl⟩ | ⟨h, rfl, rfl⟩ | ⟨h, rfl, rfl⟩ | ⟨h, rfl, rfl⟩ | ⟨q', n', h, -⟩
      · simp
      · rw [h]; simp
      · rw [h]; simp
      · rw [h]; simp
      · exact absurd ⟨q', n', h⟩ hq
    obtain ⟨rfl, m1⟩ := lst h
    obtain ⟨rfl, m2⟩ := lst h'
    refine ⟨?_, rfl⟩
    generalize w.map Char.toLower = v at m1 m2
    simp only [List.mem_cons, List.not_mem_nil, or_false, Prod.mk.injEq] at m1 m2
    rcases m1 with ⟨rfl, rfl⟩ | ⟨rfl, rfl⟩ | ⟨rfl, rfl⟩ | ⟨rfl, rfl⟩ <;> rcases m2 with ⟨h, rfl⟩ | ⟨h, rfl⟩ | ⟨h, rfl⟩ | ⟨h, rfl⟩ <;>
      first | rfl | exact absurd h (by decide)

/-- The three shapes of literals. -/
theorem BodyText.shape {t : List Char} {D : Denot} {N : List NumInfo} (h : BodyText t D N) :
    (∃ w1 w w2, t = '[' :: (w1 ++ w ++ w2 ++ [']']) ∧ IsWs w1 ∧ IsWs w2 ∧ One w D N) ∨
    (∃ w1 a w2 w3 b w4 l u M M', t = '[' :: (w1 ++ a ++ w2 ++ ',' :: (w3 ++ b ++ w4 ++ [']'])) ∧ IsWs w1 ∧ IsWs w2 ∧ IsWs w3 ∧ IsWs w4 ∧
      BoundText [['-']] a l M ∧ BoundText [[], ['+']] b u M' ∧ D = .bounds l u ∧ N = M ++ M') ∨
    (∃ s m r d x sg v k e ρ rd lo hi, t = s ++ m ++ '?' :: (r ++ d ++ x) ∧ SignText s sg ∧ MantText 10 m v k ∧ RadText r ρ rd ∧
      DirText d lo hi ∧ ExpText x e ∧
      D = .bounds (if lo then ρ.map (fun ρ => (sg * v - ρ) * 10 ^ (e - k : ℤ)) else some (sg * v * 10 ^ (e - k : ℤ)))
        (if hi then ρ.map (fun ρ => (sg * v + ρ) * 10 ^ (e - k : ℤ)) else some (sg * v * 10 ^ (e - k : ℤ))) ∧
      N = [⟨decide (s = ['+']), e, if rd then e - k else e - k - 1⟩]) := by
  cases h with
  | empty h1 h2 => exact Or.inl ⟨_, [], _, by simp, h1, h2, Or.inl ⟨rfl, rfl, rfl⟩⟩
  | emptyName h1 h h2 => exact Or.inl ⟨_, _, _, rfl, h1, h2, Or.inr (Or.inl ⟨h, rfl, rfl⟩)⟩
  | entire h1 h h2 => exact Or.inl ⟨_, _, _, rfl, h1, h2, Or.inr (Or.inr (Or.inl ⟨h, rfl, rfl⟩))⟩
  | nai h1 h h2 => exact Or.inl ⟨_, _, _, rfl, h1, h2, Or.inr (Or.inr (Or.inr (Or.inl ⟨h, rfl, rfl⟩)))⟩
  | point h1 h h2 => exact Or.inl ⟨_, _, _, rfl, h1, h2, Or.inr (Or.inr (Or.inr (Or.inr ⟨_, _, h, rfl, rfl⟩)))⟩
  | pair h1 ha h2 h3 hb h4 => exact Or.inr (Or.inl ⟨_, _, _, _, _, _, _, _, _, _, rfl, h1, h2, h3, h4, ha, hb, rfl, rfl⟩)
  | uncertain hs hm hr hd hx => exact Or.inr (Or.inr ⟨_, _, _, _, _, _, _, _, _, _, _, _, _, rfl, hs, hm, hr, hd, hx, rfl, rfl⟩)

theorem ws_no_comma {w : List Char} (h : IsWs w) : ',' ∉ w := fun hc => absurd (isWs_iff.mp h _ hc) (by decide)

theorem sign_lo : ∀ s ∈ [['-']], ∀ c ∈ s, Rx.isSign c = true := by decide
theorem sign_hi : ∀ s ∈ [[], ['+']], ∀ c ∈ s, Rx.isSign c = true := by decide

/-- An uncertain number does not begin with a bracket. -/
theorem uncertain_head {s m r : List Char} {sg : ℤ} {v k : ℕ} (hs : SignText s sg) (hm : MantText 10 m v k) :
    (s ++ m ++ r).head? ≠ some '[' := by
  intro h
  rw [head_append_of_ne (by simp [hm.ne_nil])] at h
  rcases List.mem_append.mp (mem_of_head? h) with h | h
  · exact absurd (hs.char _ h) (by decide)
  · rcases hm.char10 _ h with h | h <;> exact absurd h (by decide)

theorem DirText.head {d x : List Char} {lo hi : Bool} {e : ℤ} (hd : DirText d lo hi) (hx : ExpText x e) :
    ∀ c, (d ++ x).head? = some c → isDigit c = false ∧ c ≠ '?' := by
  intro c hc
  cases hd with
  | both => rcases hx.head c (by simpa using hc) with rfl | rfl <;> decide
  | up h =>
    simp at hc; subst hc
    rcases lower_cases h (by decide) (by decide) with rfl | rfl <;> decide
  | down h =>
    simp at hc; subst hc
    rcases lower_cases h (by decide) (by decide) with rfl | rfl <;> decide

theorem DirText.unique {d d' x x' : List Char} {lo hi lo' hi' : Bool} {e e' : ℤ} (h : d ++ x = d' ++ x') (hd : DirText d lo hi) (hx : ExpText x e)
    (hd' : DirText d' lo' hi') (hx' : ExpText x' e') : lo = lo' ∧ hi = hi' ∧ e = e' := by
  have he : ∀ {c : Char} {x y : List Char} {e : ℤ}, ExpText x e → x = c :: y → c.toLower = 'u' ∨ c.toLower = 'd' → False := by
    rintro c x y e hx rfl hc
    rcases hx.head c rfl with rfl | rfl <;> exact absurd hc (by decide)
  cases hd with
  | both =>
    cases hd' with
    | both => exact ⟨rfl, rfl, hx.unique (by simp at h; rw [h]; exact hx')⟩
    | up h' => exact (he hx (by simpa using h) (Or.inl h')).elim
    | down h' => exact (he hx (by simpa using h) (Or.inr h')).elim
  | up h1 =>
    cases hd' with
    | both => exact (he hx' (by simpa using h.symm) (Or.inl h1)).elim
    | up h' =>
      simp only [List.cons_append, List.nil_append, List.cons.injEq] at h
      exact ⟨rfl, rfl, hx.unique (by rw [h.2]; exact hx')⟩
    | down h' =>
      simp only [List.cons_append, List.nil_append, List.cons.injEq] at h
      rw [h.1, h'] at h1; exact absurd h1 (by decide)
  | down h1 =>
    cases hd' with
    | both => exact (he hx' (by simpa using h.symm) (Or.inr h1)).elim
    | up h' =>
      simp only [List.cons_append, List.nil_append, List.cons.injEq] at h
      rw [h.1, h'] at h1; exact absurd h1 (by decide)
    | down h' =>
      simp only [List.cons_append, List.nil_append, List.cons.injEq] at h
      exact ⟨rfl, rfl, hx.unique (by rw [h.2]; exact hx')⟩

theorem RadText.unique {r r' t t' : List Char} {ρ ρ' : Option ℚ} {rd rd' : Bool} (h : r ++ t = r' ++ t') (hr : RadText r ρ rd) (hr' : RadText r' ρ' rd')
    (ht : ∀ c, t.head? = some c → isDigit c = false ∧ c ≠ '?') (ht' : ∀ c, t'.head? = some c → isDigit c = false ∧ c ≠ '?') :
    ρ = ρ' ∧ rd = rd' ∧ t = t' := by
  cases hr with
  | half =>
    cases hr' with
    | half => exact ⟨rfl, rfl, by simpa using h⟩
    | inf => exact absurd rfl (ht '?' (by rw [List.nil_append] at h; rw [h]; rfl)).2
    | num h1 h2 =>
      exfalso
      rw [List.nil_append] at h
      cases r' with
      | nil => exact h1 rfl
      | cons c r' =>
        have := (ht c (by rw [h]; rfl)).1
        rw [isDigits_ten.mp h2 c (by simp)] at this; exact Bool.noConfusion this
  | inf =>
    cases hr' with
    | half => exact absurd rfl (ht' '?' (by rw [List.nil_append] at h; rw [← h]; rfl)).2
    | inf => exact ⟨rfl, rfl, by simpa using h⟩
    | num h1 h2 =>
      exfalso
      cases r' with
      | nil => exact h1 rfl
      | cons c r' =>
        simp only [List.cons_append, List.nil_append, List.cons.injEq] at h
        have := isDigits_ten.mp h2 c (by simp)
        rw [← h.1] at this; exact absurd this (by decide)
  | num h1 h2 =>
    cases hr' with
    | half =>
      exfalso
      rw [List.nil_append] at h
      cases r with
      | nil => exact h1 rfl
      | cons c r =>
        have := (ht' c (by rw [← h]; rfl)).1
        rw [isDigits_ten.mp h2 c (by simp)] at this; exact Bool.noConfusion this
    | inf =>
      exfalso
      cases r with
      | nil => exact h1 rfl
      | cons c r =>
        simp only [List.cons_append, List.nil_append, List.cons.injEq] at h
        have := isDigits_ten.mp h2 c (by simp)
        rw [h.1] at this; exact absurd this (by decide)
    | num h1' h2' =>
      obtain ⟨rfl, rfl⟩ := span_unique (fun c => isDigit c = true) h (isDigits_ten.mp h2) (isDigits_ten.mp h2')
        (fun c hc => by simp [(ht c hc).1]) (fun c hc => by simp [(ht' c hc).1])
      exact ⟨rfl, rfl, rfl⟩

/-- A literal has one meaning. -/
theorem BodyText.unique {t : List Char} {D D' : Denot} {N N' : List NumInfo} (h : BodyText t D N) (h' : BodyText t D' N') : D = D' ∧ N = N' := by
  have comma : ∀ {w1 w w2 : List Char} {D : Denot} {N : List NumInfo}, IsWs w1 → IsWs w2 → One w D N → ',' ∉ w1 ++ w ++ w2 := by
    intro w1 w w2 D N h1 h2 h hc
    simp only [List.mem_append] at hc
    rcases hc with (hc | hc) | hc
    · exact ws_no_comma h1 hc
    · exact h.core.2 hc
    · exact ws_no_comma h2 hc
  rcases h.shape with ⟨w1, w, w2, rfl, h1, h2, ho⟩ | ⟨w1, a, w2, w3, b, w4, l, u, M, M', rfl, h1, h2, h3, h4, ha, hb, rfl, rfl⟩ |
    ⟨s, m, r, d, x, sg, v, k, e, ρ, rd, lo, hi, rfl, hs, hm, hr, hd, hx, rfl, rfl⟩ <;>
  rcases h'.shape with ⟨w1', w', w2', ht, h1', h2', ho'⟩ | ⟨w1', a', w2', w3', b', w4', l', u', L, L', ht, h1', h2', h3', h4', ha', hb', rfl, rfl⟩ |
    ⟨s', m', r', d', x', sg', v', k', e', ρ', rd', lo', hi', ht, hs', hm', hr', hd', hx', rfl, rfl⟩
  · simp only [List.cons.injEq, true_and] at ht
    have ht := List.append_cancel_right ht
    have e := congrArg trim ht
    rw [trim_eq h1 ho.core.1 h2, trim_eq h1' ho'.core.1 h2'] at e
    subst e
    exact ho.unique ho'
  · exfalso
    simp only [List.cons.injEq, true_and] at ht
    have : ',' ∈ w1 ++ w ++ w2 ++ [']'] := by rw [ht]; simp
    rcases List.mem_append.mp this with hc | hc
    · exact comma h1 h2 ho hc
    · exact absurd hc (by decide)
  · exact absurd (by rw [← ht]; rfl) (uncertain_head (r := '?' :: (r' ++ d' ++ x')) hs' hm')
  · exfalso
    simp only [List.cons.injEq, true_and] at ht
    have : ',' ∈ w1' ++ w' ++ w2' ++ [']'] := by rw [← ht]; simp
    rcases List.mem_append.mp this with hc | hc
    · exact comma h1' h2' ho' hc
    · exact absurd hc (by decide)
  · simp only [List.cons.injEq, true_and] at ht
    have ca := ha.core sign_lo
    have cb := hb.core sign_hi
    have ca' := ha'.core sign_lo
    have cb' := hb'.core sign_hi
    have nc : ∀ {w1 a w2 : List Char}, IsWs w1 → ',' ∉ a → IsWs w2 → ∀ c ∈ w1 ++ a ++ w2, c ≠ ',' := by
      rintro w1 a w2 h1 ha h2 c hc rfl
      simp only [List.mem_append] at hc
      rcases hc with (hc | hc) | hc
      · exact ws_no_comma h1 hc
      · exact ha hc
      · exact ws_no_comma h2 hc
    obtain ⟨e1, e2⟩ := span_unique (fun c => c ≠ ',') ht (nc h1 ca.2 h2) (nc h1' ca'.2 h2') (fun c hc => by simp at hc; simp [← hc])
      (fun c hc => by simp at hc; simp [← hc])
    simp only [List.cons.injEq, true_and] at e2
    have e2 := List.append_cancel_right e2
    have e1 := congrArg trim e1
    have e2 := congrArg trim e2
    rw [trim_eq h1 ca.1 h2, trim_eq h1' ca'.1 h2'] at e1
    rw [trim_eq h3 cb.1 h4, trim_eq h3' cb'.1 h4'] at e2
    subst e1 e2
    obtain ⟨rfl, rfl⟩ := ha.unique ha'
    obtain ⟨rfl, rfl⟩ := hb.unique hb'
    exact ⟨rfl, rfl⟩
  · exact absurd (by rw [← ht]; rfl) (uncertain_head (r := '?' :: (r' ++ d' ++ x')) hs' hm')
  · exact absurd (by rw [ht]; rfl) (uncertain_head (r := '?' :: (r ++ d ++ x)) hs hm)
  · exact absurd (by rw [ht]; rfl) (uncertain_head (r := '?' :: (r ++ d ++ x)) hs hm)
  · have nq : ∀ {s m : List Char} {sg : ℤ} {v k : ℕ}, SignText s sg → MantText 10 m v k → ∀ c ∈ s ++ m, c ≠ '?' := by
      rintro s m sg v k hs hm c hc rfl
      rcases List.mem_append.mp hc with hc | hc
      · exact absurd (hs.char _ hc) (by decide)
      · rcases hm.char10 _ hc with h | h <;> exact absurd h (by decide)
    obtain ⟨e1, e2⟩ := span_unique (fun c => c ≠ '?') ht (nq hs hm) (nq hs' hm') (fun c hc => by simp at hc; simp [← hc])
      (fun c hc => by simp at hc; simp [← hc])
    obtain ⟨rfl, rfl, rfl⟩ := sign_unique e1 hs hs' (by have := hm.head (b := .dec) []; simpa using this) (by have := hm'.head (b := .dec) []; simpa using this)
    obtain ⟨rfl, rfl⟩ := MantText.unique (b := .dec) hm hm'
    simp only [List.cons.injEq, true_and, List.append_assoc] at e2
    obtain ⟨rfl, rfl, e3⟩ := RadText.unique e2 hr hr' (hd.head hx) (hd'.head hx')
    obtain ⟨rfl, rfl, rfl⟩ := DirText.unique e3 hd hx hd' hx'
    exact ⟨rfl, rfl⟩

end P1788
