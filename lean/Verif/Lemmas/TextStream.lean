import Verif.Lemmas.TextUniq
import Verif.Props.C39
import Verif.Props.C17

/-! # Reading literals from a stream -/

namespace P1788

/-- The stream `s` continues with the characters `r`: if there are any it is good, at the end it may be flagged.  The settings are
those of `s0`. -/
structure St (s0 : IStr) (r : List Char) (s : IStr) : Prop where
  rest : s.rest = r
  bad : s.bad = false
  skip : s.skipws = s0.skipws
  base : s.base = s0.base
  state : s.good = true ∨ r = [] ∧ s.eof = true

variable {s0 s : IStr} {r : List Char} {c : Char}

theorem St.good (h : St s0 (c :: r) s) : s.good = true := by
  rcases h.state with h | ⟨h, -⟩
  · exact h
  · simp at h

theorem good_ok (h : s.good = true) : s.ok = true := by
  simp only [IStr.good, Bool.and_eq_true] at h
  simp only [IStr.ok, Bool.and_eq_true]; exact ⟨h.1.2, h.2⟩

theorem St.peek (h : St s0 (c :: r) s) : s.peek = (some c, s) := by
  unfold IStr.peek
  rw [h.good, h.rest]; rfl

theorem St.get (h : St s0 (c :: r) s) : St s0 r s.get := by
  have hg := h.good
  have e : s.get = { s with rest := r } := by unfold IStr.get; rw [hg, h.rest]; rfl
  rw [e]
  exact ⟨rfl, h.bad, h.skip, h.base, Or.inl (by simpa [IStr.good] using hg)⟩

theorem St.peek_end (h : St s0 [] s) : s.peek.1 = none ∧ St s0 [] s.peek.2 ∧ s.peek.2.eof = true := by
  unfold IStr.peek
  by_cases hg : s.good = true
  · rw [hg, h.rest]
    exact ⟨rfl, ⟨rfl, h.bad, h.skip, h.base, Or.inr ⟨rfl, rfl⟩⟩, rfl⟩
  · rw [Bool.not_eq_true] at hg
    rw [hg]
    have he : s.eof = true := by
      rcases h.state with h' | ⟨-, h'⟩
      · rw [hg] at h'; exact Bool.noConfusion h'
      · exact h'
    exact ⟨rfl, ⟨h.rest, h.bad, h.skip, h.base, Or.inr ⟨rfl, he⟩⟩, he⟩

/-! ## Single characters and digits -/

/-- One character, if it is one of `cs`. -/
def acceptL (cs : List (Char → Bool)) : List Char → List Char × List Char
  | [] => ([], [])
  | c :: r => if cs.any (· c) then ([c], r) else ([], c :: r)

theorem acceptL_cons (cs : List (Char → Bool)) (c : Char) (r : List Char) :
    acceptL cs (c :: r) = if cs.any (· c) then ([c], r) else ([], c :: r) := rfl

theorem accept_go (cs : List (Char → Bool)) (h : St s0 r s) :
    (IStr.accept.go cs s).1 = (acceptL cs r).1 ∧ St s0 (acceptL cs r).2 (IStr.accept.go cs s).2 := by
  induction cs generalizing s with
  | nil =>
    cases r with
    | nil => exact ⟨rfl, h⟩
    | cons c r => exact ⟨rfl, h⟩
  | cons p cs ih =>
    cases r with
    | nil =>
      obtain ⟨h1, h2, h3⟩ := h.peek_end
      have : IStr.accept.go (p :: cs) s = IStr.accept.go cs s.peek.2 := by
        conv_lhs => unfold IStr.accept.go
        generalize s.peek = y at h1
        obtain ⟨a, b⟩ := y
        simp only at h1; subst h1; rfl
      rw [this]; exact ih h2
    | cons c r =>
      unfold IStr.accept.go
      rw [h.peek]
      by_cases hp : p c = true
      · simp only [hp, if_true, acceptL, List.any_cons, Bool.true_or]
        exact ⟨trivial, h.get⟩
      · simp only [Bool.not_eq_true] at hp
        simp only [hp, Bool.false_eq_true, if_false]
        have := ih h
        simpa only [acceptL, List.any_cons, hp, Bool.false_or] using this

theorem St.accept (cs : List (Char → Bool)) (h : St s0 r s) :
    (s.accept cs).1 = (acceptL cs r).1 ∧ St s0 (acceptL cs r).2 (s.accept cs).2 := by
  unfold IStr.accept
  by_cases ho : s.ok = true
  · rw [if_pos ho]; exact accept_go cs h
  · rw [if_neg ho]
    cases r with
    | nil => exact ⟨rfl, h⟩
    | cons c r => exact absurd (good_ok h.good) ho

theorem St.digits (h : St s0 r s) : (readDigits r s).1 = r.takeWhile isDigit ∧ St s0 (r.dropWhile isDigit) (readDigits r s).2 := by
  induction r generalizing s with
  | nil =>
    unfold readDigits
    split_ifs
    · exact ⟨rfl, h.peek_end.2.1⟩
    · exact ⟨rfl, h⟩
  | cons c r ih =>
    unfold readDigits
    rw [if_pos (good_ok h.good), h.peek]
    by_cases hc : isDigit c = true
    · simp only [hc, if_true, List.takeWhile_cons, List.dropWhile_cons]
      obtain ⟨h1, h2⟩ := ih h.get
      exact ⟨by rw [h1], h2⟩
    · simp only [hc, List.takeWhile_cons, List.dropWhile_cons]
      exact ⟨rfl, h⟩

/-- Characters of an uncertain number up to the question mark. -/
def numL : List Char → List Char × List Char
  | [] => ([], [])
  | c :: r =>
    if isDigit c || c = '.' || c = '?' || c = '+' || c = '-' then
      if c = '?' then ([c], r) else (c :: (numL r).1, (numL r).2)
    else ([], c :: r)

theorem St.number (h : St s0 r s) : (readNumber r s).1 = (numL r).1 ∧ St s0 (numL r).2 (readNumber r s).2 := by
  induction r generalizing s with
  | nil => exact ⟨rfl, h.peek_end.2.1⟩
  | cons c r ih =>
    unfold readNumber numL
    rw [h.peek]
    simp only [good_ok h.good, Bool.true_and]
    by_cases hc : (isDigit c || c = '.' || c = '?' || c = '+' || c = '-') = true
    · rw [if_pos hc, if_pos hc]
      by_cases hq : c = '?'
      · rw [if_pos hq, if_pos hq]; exact ⟨rfl, h.get⟩
      · rw [if_neg hq, if_neg hq]
        obtain ⟨h1, h2⟩ := ih h.get
        exact ⟨by rw [h1], h2⟩
    · rw [if_neg hc, if_neg hc]
      exact ⟨rfl, h⟩

/-- The uncertain literal at the beginning of a text, and what follows. -/
def uncL (r : List Char) : List Char × List Char :=
  let (a, r) := numL r
  let (b, r) := acceptL [fun c => c = '?'] r
  let (b, r) := if b = [] then (r.takeWhile isDigit, r.dropWhile isDigit) else (b, r)
  let (d, r) := acceptL [fun c => c = 'd', fun c => c = 'D', fun c => c = 'u', fun c => c = 'U'] r
  let (e, r) := acceptL [fun c => c = 'e', fun c => c = 'E'] r
  if e = [] then (a ++ b ++ d, r)
  else
    let (g, r) := acceptL [fun c => c = '-', fun c => c = '+'] r
    (a ++ b ++ d ++ e ++ g ++ r.takeWhile isDigit, r.dropWhile isDigit)

theorem St.uncertain (h : St s0 r s) : (readUncertain s).1 = (uncL r).1 ∧ St s0 (uncL r).2 (readUncertain s).2 := by
  unfold readUncertain uncL
  rw [h.rest]
  obtain ⟨a1, a2⟩ := h.number
  generalize readNumber r s = x1 at a1 a2
  generalize numL r = y1 at a1 a2
  obtain ⟨a, s1⟩ := x1
  obtain ⟨a', r1⟩ := y1
  simp only at a1 a2; subst a1
  simp only
  obtain ⟨b1, b2⟩ := a2.accept [fun c => c = '?']
  generalize s1.accept _ = x2 at b1 b2
  generalize acceptL _ r1 = y2 at b1 b2
  obtain ⟨b, s2⟩ := x2
  obtain ⟨b', r2⟩ := y2
  simp only at b1 b2; subst b1
  simp only
  have key : (if b = [] then readDigits s2.rest s2 else (b, s2)).1 = (if b = [] then (r2.takeWhile isDigit, r2.dropWhile isDigit) else (b, r2)).1 ∧
      St s0 (if b = [] then (r2.takeWhile isDigit, r2.dropWhile isDigit) else (b, r2)).2 (if b = [] then readDigits s2.rest s2 else (b, s2)).2 := by
    rw [b2.rest]
    by_cases hb : b = []
    · rw [if_pos hb, if_pos hb]; exact b2.digits
    · rw [if_neg hb, if_neg hb]; exact ⟨rfl, b2⟩
  generalize (if b = [] then readDigits s2.rest s2 else (b, s2)) = x3 at key
  generalize (if b = [] then (r2.takeWhile isDigit, r2.dropWhile isDigit) else (b, r2)) = y3 at key
  obtain ⟨b', s3⟩ := x3
  obtain ⟨b'', r3⟩ := y3
  obtain ⟨k1, k2⟩ := key
  simp only at k1 k2; subst k1
  simp only
  obtain ⟨d1, d2⟩ := k2.accept [fun c => c = 'd', fun c => c = 'D', fun c => c = 'u', fun c => c = 'U']
  generalize s3.accept _ = x4 at d1 d2
  generalize acceptL _ r3 = y4 at d1 d2
  obtain ⟨d, s4⟩ := x4
  obtain ⟨d', r4⟩ := y4
  simp only at d1 d2; subst d1
  simp only
  obtain ⟨e1, e2⟩ := d2.accept [fun c => c = 'e', fun c => c = 'E']
  generalize s4.accept _ = x5 at e1 e2
  generalize acceptL _ r4 = y5 at e1 e2
  obtain ⟨e, s5⟩ := x5
  obtain ⟨e', r5⟩ := y5
  simp only at e1 e2; subst e1
  simp only
  by_cases he : e = []
  · rw [if_pos he, if_pos he]; exact ⟨rfl, e2⟩
  rw [if_neg he, if_neg he]
  have key : (if s5.good = true then s5.accept [fun c => c = '-', fun c => c = '+'] else ([], s5)).1 = (acceptL [fun c => c = '-', fun c => c = '+'] r5).1 ∧
      St s0 (acceptL [fun c => c = '-', fun c => c = '+'] r5).2 (if s5.good = true then s5.accept [fun c => c = '-', fun c => c = '+'] else ([], s5)).2 := by
    by_cases hg : s5.good = true
    · rw [if_pos hg]; exact e2.accept _
    · rw [if_neg hg]
      cases r5 with
      | nil => exact ⟨rfl, e2⟩
      | cons c r5 => exact absurd e2.good hg
  generalize (if s5.good = true then s5.accept [fun c => c = '-', fun c => c = '+'] else ([], s5)) = x6 at key
  generalize acceptL _ r5 = y6 at key
  obtain ⟨g, s6⟩ := x6
  obtain ⟨g', r6⟩ := y6
  obtain ⟨g1, g2⟩ := key
  simp only at g1 g2; subst g1
  simp only
  have key : (if s6.good = true then readDigits s6.rest s6 else ([], s6)).1 = r6.takeWhile isDigit ∧
      St s0 (r6.dropWhile isDigit) (if s6.good = true then readDigits s6.rest s6 else ([], s6)).2 := by
    rw [g2.rest]
    by_cases hg : s6.good = true
    · rw [if_pos hg]; exact g2.digits
    · rw [if_neg hg]
      cases r6 with
      | nil => exact ⟨rfl, g2⟩
      | cons c r6 => exact absurd g2.good hg
  generalize (if s6.good = true then readDigits s6.rest s6 else ([], s6)) = x7 at key
  obtain ⟨x, s7⟩ := x7
  obtain ⟨g1, g2⟩ := key
  simp only at g1 g2; subst g1
  exact ⟨rfl, g2⟩

theorem acceptL_append (cs : List (Char → Bool)) (r : List Char) : (acceptL cs r).1 ++ (acceptL cs r).2 = r := by
  cases r with
  | nil => rfl
  | cons c r => rw [acceptL_cons]; split_ifs <;> rfl

theorem numL_append (r : List Char) : (numL r).1 ++ (numL r).2 = r := by
  induction r with
  | nil => rfl
  | cons c r ih => unfold numL; split_ifs <;> simp [ih]

/-- The literal and what follows make up the text. -/
theorem uncL_append (r : List Char) : (uncL r).1 ++ (uncL r).2 = r := by
  unfold uncL
  have h1 := numL_append r
  generalize numL r = y1 at h1
  obtain ⟨a, r1⟩ := y1
  simp only at h1 ⊢
  have h2 := acceptL_append [fun c => c = '?'] r1
  generalize acceptL _ r1 = y2 at h2
  obtain ⟨b, r2⟩ := y2
  simp only at h2 ⊢
  have h3 : (if b = [] then (r2.takeWhile isDigit, r2.dropWhile isDigit) else (b, r2)).1 ++
      (if b = [] then (r2.takeWhile isDigit, r2.dropWhile isDigit) else (b, r2)).2 = r1 := by
    split_ifs with hb
    · subst hb; rw [← h2]; exact List.takeWhile_append_dropWhile
    · exact h2
  generalize (if b = [] then (r2.takeWhile isDigit, r2.dropWhile isDigit) else (b, r2)) = y3 at h3
  obtain ⟨b', r3⟩ := y3
  simp only at h3 ⊢
  have h4 := acceptL_append [fun c => c = 'd', fun c => c = 'D', fun c => c = 'u', fun c => c = 'U'] r3
  generalize acceptL _ r3 = y4 at h4
  obtain ⟨d, r4⟩ := y4
  simp only at h4 ⊢
  have h5 := acceptL_append [fun c => c = 'e', fun c => c = 'E'] r4
  generalize acceptL _ r4 = y5 at h5
  obtain ⟨e, r5⟩ := y5
  simp only at h5 ⊢
  split_ifs with he
  · subst he
    rw [← h1, ← h3, ← h4, ← h5]; simp
  · have h6 := acceptL_append [fun c => c = '-', fun c => c = '+'] r5
    generalize acceptL _ r5 = y6 at h6
    obtain ⟨g, r6⟩ := y6
    simp only at h6 ⊢
    rw [← h1, ← h3, ← h4, ← h5, ← h6]
    simp only [List.append_assoc, List.takeWhile_append_dropWhile]

/-- What follows a literal: nothing, white space or the underscore before a decoration. -/
def TailStart (r : List Char) : Prop := ∀ c, r.head? = some c → c = '_' ∨ isSpace c = true

theorem acceptL_tail {cs : List (Char → Bool)} (h : ∀ c, r.head? = some c → cs.any (· c) = false) : acceptL cs r = ([], r) := by
  cases r with
  | nil => rfl
  | cons c r => rw [acceptL_cons, h c rfl]; rfl

theorem numL_body {a : List Char} (ha : ∀ c ∈ a, Rx.isSign c = true ∨ isDigit c = true ∨ c = '.') (r : List Char) :
    numL (a ++ '?' :: r) = (a ++ ['?'], r) := by
  induction a with
  | nil => rfl
  | cons c a ih =>
    have hc := ha c (by simp)
    have h1 : (isDigit c || c = '.' || c = '?' || c = '+' || c = '-') = true := by
      rcases hc with h | h | h
      · rcases isSign_iff.mp h with rfl | rfl <;> decide
      · simp [h]
      · simp [h]
    have h2 : c ≠ '?' := by
      rintro rfl
      rcases hc with h | h | h <;> exact absurd h (by decide)
    rw [List.cons_append]
    conv_lhs => unfold numL
    rw [if_pos h1, if_neg h2, ih fun d hd => ha d (List.mem_cons_of_mem _ hd)]; rfl

theorem digits_span {w t : List Char} (h1 : ∀ c ∈ w, isDigit c = true) (h2 : ∀ c, t.head? = some c → isDigit c = false) :
    (w ++ t).takeWhile isDigit = w ∧ (w ++ t).dropWhile isDigit = t := by
  have e : isDigit = isDigitOf .dec := by funext c; exact isDigit_eq c
  rw [e] at h1 h2 ⊢
  exact digits_unique h1 h2

theorem space_facts {c : Char} (h : c = '_' ∨ isSpace c = true) : isDigit c = false ∧ c ≠ '?' ∧ c ≠ 'd' ∧ c ≠ 'D' ∧ c ≠ 'u' ∧ c ≠ 'U' ∧
    c ≠ 'e' ∧ c ≠ 'E' ∧ c ≠ '-' ∧ c ≠ '+' := by
  rcases h with rfl | h
  · decide
  · simp only [isSpace, Bool.or_eq_true, decide_eq_true_eq] at h
    rcases h with ((((rfl | rfl) | rfl) | rfl) | rfl) | rfl <;> decide

theorem uncL_body {s m r d x t : List Char} {sg : ℤ} {v k : ℕ} {e : ℤ} {ρ : Option ℚ} {rd lo hi : Bool} (hs : SignText s sg)
    (hm : MantText 10 m v k) (hr : RadText r ρ rd) (hd : DirText d lo hi) (hx : ExpText x e) (ht : TailStart t) :
    uncL (s ++ m ++ '?' :: (r ++ d ++ x) ++ t) = (s ++ m ++ '?' :: (r ++ d ++ x), t) := by
  have tf := fun c hc => space_facts (ht c hc)
  -- the exponent
  have hX : ∀ p : List Char, (match acceptL [fun c => c = 'e', fun c => c = 'E'] (x ++ t) with
      | (e, r) => if e = [] then (p, r)
        else match acceptL [fun c => c = '-', fun c => c = '+'] r with
          | (g, r) => (p ++ e ++ g ++ r.takeWhile isDigit, r.dropWhile isDigit)) = (p ++ x, t) := by
    intro p
    rcases hx with ⟨rfl, -⟩ | ⟨c, y, hc, rfl, s', sg', ds, rfl, hs', -, hd', -⟩
    · rw [List.nil_append, acceptL_tail (by intro c hc; simp [tf c hc])]; simp
    · have hc' : ([fun c => decide (c = 'e'), fun c => decide (c = 'E')] : List (Char → Bool)).any (· c) = true := by
        rcases lower_cases hc (by decide) (by decide) with rfl | rfl <;> decide
      simp only [List.cons_append, acceptL_cons, hc', if_true, List.cons_ne_nil, if_false]
      have dg := isDigits_ten.mp hd'
      obtain ⟨q1, q2⟩ := digits_span (t := t) dg fun c hc => (tf c hc).1
      have hg : acceptL [fun c => decide (c = '-'), fun c => decide (c = '+')] (s' ++ ds ++ t) = (s', ds ++ t) := by
        rcases hs'.cases with ⟨rfl, -⟩ | ⟨rfl, -⟩ | ⟨rfl, -⟩
        · rw [List.nil_append]
          apply acceptL_tail
          intro c hc
          have : isDigit c = true ∨ t.head? = some c := by
            cases ds with
            | nil => exact Or.inr hc
            | cons c' ds =>
              simp at hc; subst hc; exact Or.inl (dg _ (by simp))
          rcases this with h | h
          · have : c ≠ '-' ∧ c ≠ '+' := by constructor <;> (rintro rfl; exact absurd h (by decide))
            simp [this]
          · simp [tf c h]
        · rfl
        · rfl
      rw [hg]
      simp only [q1, q2]
      simp
  have hD : ∀ p : List Char, (match acceptL [fun c => c = 'd', fun c => c = 'D', fun c => c = 'u', fun c => c = 'U'] (d ++ x ++ t) with
      | (d, r) => match acceptL [fun c => c = 'e', fun c => c = 'E'] r with
        | (e, r) => if e = [] then (p ++ d, r)
        else match acceptL [fun c => c = '-', fun c => c = '+'] r with
          | (g, r) => (p ++ d ++ e ++ g ++ r.takeWhile isDigit, r.dropWhile isDigit)) = (p ++ d ++ x, t) := by
    intro p
    have : acceptL [fun c => c = 'd', fun c => c = 'D', fun c => c = 'u', fun c => c = 'U'] (d ++ x ++ t) = (d, x ++ t) := by
      cases hd with
      | both =>
        apply acceptL_tail
        intro c hc
        have : c = 'e' ∨ c = 'E' ∨ t.head? = some c := by
          rw [List.nil_append] at hc
          by_cases hx0 : x = []
          · subst hx0; exact Or.inr (Or.inr hc)
          · rw [head_append_of_ne hx0] at hc
            rcases hx.head c hc with h | h
            · exact Or.inl h
            · exact Or.inr (Or.inl h)
        rcases this with rfl | rfl | h
        · decide
        · decide
        · simp [tf c h]
      | up h => rcases lower_cases h (by decide) (by decide) with rfl | rfl <;> rfl
      | down h => rcases lower_cases h (by decide) (by decide) with rfl | rfl <;> rfl
    rw [this]
    exact hX _
  have hhead : ∀ c, (d ++ x ++ t).head? = some c → isDigit c = false ∧ c ≠ '?' := by
    intro c hc
    by_cases h0 : d ++ x = []
    · rw [h0] at hc; exact ⟨(tf c hc).1, (tf c hc).2.1⟩
    · rw [head_append_of_ne h0] at hc; exact hd.head hx c hc
  unfold uncL
  have e1 : s ++ m ++ '?' :: (r ++ d ++ x) ++ t = (s ++ m) ++ '?' :: (r ++ (d ++ x ++ t)) := by simp
  rw [e1, numL_body (fun c hc => by
    rcases List.mem_append.mp hc with h | h
    · exact Or.inl (hs.char c h)
    · exact Or.inr (hm.char10 c h))]
  simp only
  cases hr with
  | half =>
    have : acceptL [fun c => decide (c = '?')] (d ++ x ++ t) = ([], d ++ x ++ t) :=
      acceptL_tail (by intro c hc; simp [hhead c hc])
    rw [List.nil_append, this]
    simp only [if_true]
    obtain ⟨q1, q2⟩ := digits_span (w := []) (t := d ++ x ++ t) (by simp) (fun c hc => (hhead c hc).1)
    rw [List.nil_append] at q1 q2
    rw [q1, q2]
    refine (hD _).trans ?_
    simp
  | inf =>
    have : acceptL [fun c => decide (c = '?')] (['?'] ++ (d ++ x ++ t)) = (['?'], d ++ x ++ t) := rfl
    rw [this]
    simp only [List.cons_ne_nil, if_false]
    refine (hD _).trans ?_
    simp
  | num h1 h2 =>
    have dg := isDigits_ten.mp h2
    have : acceptL [fun c => decide (c = '?')] (r ++ (d ++ x ++ t)) = ([], r ++ (d ++ x ++ t)) := by
      apply acceptL_tail
      intro c hc
      rw [head_append_of_ne h1] at hc
      have := dg c (mem_of_head? hc)
      have : c ≠ '?' := by rintro rfl; exact absurd this (by decide)
      simp [this]
    rw [this]
    simp only [if_true]
    obtain ⟨q1, q2⟩ := digits_span dg (fun c hc => (hhead c hc).1)
    rw [q1, q2]
    refine (hD _).trans ?_
    simp

/-! ## Brackets -/

theorem St.bracket {p : List Char} (hp : ']' ∉ p) (h : St s0 (p ++ ']' :: r) s) :
    (readBracket (p ++ ']' :: r) s).1 = p ++ [']'] ∧ St s0 r (readBracket (p ++ ']' :: r) s).2 ∧
    (readBracket (p ++ ']' :: r) s).2.good = true := by
  induction p generalizing s with
  | nil =>
    have hp := h.peek
    have hg := h.get
    simp only [List.nil_append] at *
    unfold readBracket
    rw [hp]
    simp only [if_true]
    refine ⟨trivial, hg, ?_⟩
    have hs := h.good
    unfold IStr.get; rw [hs, h.rest]
    simpa [IStr.good] using hs
  | cons c p ih =>
    simp only [List.mem_cons, not_or] at hp
    have hk := h.peek
    simp only [List.cons_append] at *
    unfold readBracket
    rw [hk]
    have hc : c ≠ ']' := fun h => hp.1 h.symm
    simp only [hc, if_false]
    obtain ⟨h1, h2, h3⟩ := ih hp.2 h.get
    exact ⟨by rw [h1], h2, h3⟩

theorem St.bracket_none (hp : ']' ∉ r) (h : St s0 r s) : (readBracket r s).2.ok = false := by
  induction r generalizing s with
  | nil =>
    unfold readBracket
    obtain ⟨-, h2, h3⟩ := h.peek_end
    have : s.peek.2.good = false := by simp [IStr.good, h3]
    unfold IStr.get
    rw [this]
    simp [IStr.ok, IStr.setFail]
  | cons c r ih =>
    simp only [List.mem_cons, not_or] at hp
    unfold readBracket
    rw [h.peek]
    have hc : c ≠ ']' := fun h => hp.1 h.symm
    simp only [hc, if_false]
    exact ih hp.2 h.get

theorem lower_bracket {w l : List Char} (h : w.map Char.toLower = l) (hl : ∀ d ∈ l, 'a' ≤ d) : ']' ∉ w := by
  intro hc
  have := hl (Char.toLower ']') (by rw [← h]; exact List.mem_map_of_mem hc)
  exact absurd this (by decide)

theorem NumText.bracket {w : List Char} {q : ℚ} {N : NumInfo} (h : NumText w q N) : ']' ∉ w := fun hc => absurd (h.char _ hc) (by decide)

theorem ws_no_bracket {w : List Char} (h : IsWs w) : ']' ∉ w := fun hc => absurd (isWs_iff.mp h _ hc) (by decide)

theorem One.bracket {w : List Char} {D : Denot} {N : List NumInfo} (h : One w D N) : ']' ∉ w := by
  rcases h with ⟨rfl, -⟩ | ⟨h, -⟩ | ⟨h, -⟩ | ⟨h, -⟩ | ⟨q, n, h, -⟩
  · simp
  · exact lower_bracket h (by decide)
  · exact lower_bracket h (by decide)
  · exact lower_bracket h (by decide)
  · exact h.bracket

theorem BoundText.bracket {sgn : List (List Char)} (hsg : ∀ s ∈ sgn, ∀ c ∈ s, Rx.isSign c = true) {w : List Char} {l : Option ℚ} {N : List NumInfo}
    (h : BoundText sgn w l N) : ']' ∉ w := by
  cases h with
  | none => simp
  | inf hs hi =>
    intro hc
    rcases List.mem_append.mp hc with hc | hc
    · exact absurd (hsg _ hs _ hc) (by decide)
    · rcases hi with h | h
      · exact lower_bracket h (by decide) hc
      · exact lower_bracket h (by decide) hc
  | num h => exact h.bracket

/-- A literal with brackets ends at the first closing bracket. -/
theorem BodyText.bracket {b : List Char} {D : Denot} {N : List NumInfo} (h : BodyText b D N) (hb : b.head? = some '[') :
    ∃ p, b = '[' :: (p ++ [']']) ∧ ']' ∉ p := by
  rcases h.shape with ⟨w1, w, w2, rfl, h1, h2, ho⟩ | ⟨w1, a, w2, w3, b, w4, l, u, M, M', rfl, h1, h2, h3, h4, ha, hb, rfl, rfl⟩ |
    ⟨s, m, r, d, x, sg, v, k, e, ρ, rd, lo, hi, rfl, hs, hm, -⟩
  · refine ⟨_, rfl, ?_⟩
    simp only [List.mem_append, not_or]
    exact ⟨⟨ws_no_bracket h1, ho.bracket⟩, ws_no_bracket h2⟩
  · refine ⟨w1 ++ a ++ w2 ++ ',' :: (w3 ++ b ++ w4), by simp, ?_⟩
    simp only [List.mem_append, List.mem_cons, not_or]
    exact ⟨⟨⟨ws_no_bracket h1, ha.bracket sign_lo⟩, ws_no_bracket h2⟩, by decide, ⟨ws_no_bracket h3, hb.bracket sign_hi⟩, ws_no_bracket h4⟩
  · exact absurd hb (uncertain_head hs hm)

end P1788
