import Verif.Lemmas.OutStream

/-! # Upper and lower case letters in what is written -/

namespace P1788

/-- No letters of the other case: no lower case letters if `up`, else no upper case letters. -/
def CaseOk (up : Bool) (l : List Char) : Prop := ∀ c ∈ l, (if up then c.isLower else c.isUpper) = false

variable {up : Bool} {u v : List Char} {φ : Fmt} {slack : ℕ}

theorem CaseOk.append (h : CaseOk up u) (h' : CaseOk up v) : CaseOk up (u ++ v) := by
  intro c hc
  rcases List.mem_append.mp hc with hc | hc
  · exact h c hc
  · exact h' c hc

theorem CaseOk.of_mem (h : CaseOk up u) (hs : ∀ c ∈ v, c ∈ u) : CaseOk up v := fun c hc => h c (hs c hc)

theorem CaseOk.nil : CaseOk up [] := by intro c hc; simp at hc

theorem CaseOk.cons {c : Char} (h : (if up then c.isLower else c.isUpper) = false) (h' : CaseOk up v) : CaseOk up (c :: v) := by
  intro d hd
  rcases List.mem_cons.mp hd with rfl | hd
  · exact h
  · exact h' d hd

theorem CaseOk.blanks {n : ℤ} : CaseOk up (blanks n) := by
  intro c hc
  rw [P1788.blanks, List.mem_replicate] at hc
  rw [hc.2]
  cases up <;> decide

theorem CaseOk.replicate {n : ℕ} {c : Char} (h : (if up then c.isLower else c.isUpper) = false) : CaseOk up (List.replicate n c) := by
  intro d hd
  rw [(List.mem_replicate.mp hd).2]; exact h

theorem digitChar_case (d : ℕ) : (if up then (digitChar up d).isLower else (digitChar up d).isUpper) = false := by
  by_cases hd : d < 16
  · interval_cases d <;> cases up <;> decide
  · have : digitChar up d = '0' := by
      unfold digitChar
      rw [List.getD_eq_getElem?_getD, List.getElem?_eq_none]
      · rfl
      · cases up <;> simpa using hd
    rw [this]; cases up <;> decide

theorem digitChar_small {up' : Bool} {d : ℕ} (hd : d < 10) :
    (if up then (digitChar up' d).isLower else (digitChar up' d).isUpper) = false := by
  interval_cases d <;> cases up <;> cases up' <;> decide

theorem CaseOk.lastDigits {b : ℕ} : ∀ {k n : ℕ}, CaseOk up (lastDigits b up k n)
  | 0, _ => .nil
  | k + 1, _ => (CaseOk.lastDigits (k := k)).append (.cons (digitChar_case _) .nil)

theorem CaseOk.lastDigits10 {up' : Bool} : ∀ {k n : ℕ}, CaseOk up (P1788.lastDigits 10 up' k n)
  | 0, _ => .nil
  | k + 1, _ => (CaseOk.lastDigits10 (k := k)).append (.cons (digitChar_small (Nat.mod_lt _ (by decide))) .nil)

theorem CaseOk.natText10 {up' : Bool} {k n : ℕ} : CaseOk up (natText 10 up' k n) := CaseOk.lastDigits10

theorem CaseOk.pointText {strip : Bool} (h : CaseOk up u) (h' : CaseOk up v) : CaseOk up (pointText strip u v) := by
  unfold P1788.pointText
  refine h.append ?_
  have : CaseOk up (if strip then (v.reverse.dropWhile (fun c => c = '0')).reverse else v) := by
    split
    · refine h'.of_mem fun c hc => ?_
      have := (List.dropWhile_sublist _).subset (List.mem_reverse.mp hc)
      exact List.mem_reverse.mp this
    · exact h'
  revert this
  generalize (if strip then (v.reverse.dropWhile (fun c => c = '0')).reverse else v) = w
  intro hw
  split
  · exact .nil
  · exact .cons (by cases up <;> decide) hw

theorem CaseOk.take (h : CaseOk up u) (n : ℕ) : CaseOk up (u.take n) := h.of_mem fun _ => List.mem_of_mem_take
theorem CaseOk.drop (h : CaseOk up u) (n : ℕ) : CaseOk up (u.drop n) := h.of_mem fun _ => List.mem_of_mem_drop

theorem CaseOk.expText {c : Char} {k : ℕ} {e : ℤ} (h : (if up then c.isLower else c.isUpper) = false) : CaseOk up (expText c k e) := by
  unfold P1788.expText
  refine .cons h (.cons ?_ CaseOk.natText10)
  by_cases he : e < 0
  · rw [if_pos he]; cases up <;> decide
  · rw [if_neg he]; cases up <;> decide

theorem CaseOk.fixedText {strip : Bool} {k : ℕ} {m : Rnd} {q : ℚ} : CaseOk up (fixedText strip k m q) :=
  CaseOk.pointText (CaseOk.natText10.take _) (CaseOk.natText10.drop _)

theorem CaseOk.sciText {strip : Bool} {k : ℕ} {m : Rnd} {q : ℚ} : CaseOk up (sciText strip up k m q) :=
  (CaseOk.pointText (CaseOk.lastDigits10.take _) (CaseOk.lastDigits10.drop _)).append (CaseOk.expText (by cases up <;> decide))

theorem CaseOk.genText {t : ℕ} {m : Rnd} {q : ℚ} : CaseOk up (genText up t m q) := by
  unfold P1788.genText
  dsimp only
  split
  · exact CaseOk.fixedText
  · exact CaseOk.sciText

theorem CaseOk.hexText {strip : Bool} {k : ℕ} {m : Rnd} {q : ℚ} : CaseOk up (hexText strip up k m q) :=
  .cons (by cases up <;> decide) (.cons (by cases up <;> decide)
    ((CaseOk.pointText (CaseOk.lastDigits.take _) (CaseOk.lastDigits.drop _)).append (CaseOk.expText (by cases up <;> decide))))

theorem CaseOk.magText {r : NumRep} {prec : ℕ} {m : Rnd} {q : ℚ} : CaseOk up (φ.magText r up prec m q) := by
  unfold Fmt.magText
  cases r with
  | dec => exact CaseOk.fixedText
  | sci => exact CaseOk.sciText
  | decSci => exact CaseOk.genText
  | hex =>
    dsimp only
    split
    · exact CaseOk.hexText
    · exact CaseOk.hexText

/-- Checking a list of characters. -/
theorem CaseOk.of_all (h : u.all (fun c => !(if up then c.isLower else c.isUpper)) = true) : CaseOk up u := by
  intro c hc
  simpa using List.all_eq_true.mp h c hc

theorem CaseOk.numText {r : NumRep} {prec : ℕ} {m : Rnd} {x : FP} : CaseOk up (φ.numText r up prec m x) := by
  have hm : (if up then ('-' : Char).isLower else ('-' : Char).isUpper) = false := by cases up <;> decide
  cases x with
  | nan =>
    change CaseOk up (if up then ['N', 'A', 'N'] else ['n', 'a', 'n'])
    exact .of_all (by cases up <;> decide)
  | ninf =>
    change CaseOk up (if up then ['-', 'I', 'N', 'F'] else ['-', 'i', 'n', 'f'])
    exact .of_all (by cases up <;> decide)
  | pinf =>
    change CaseOk up (if up then ['I', 'N', 'F'] else ['i', 'n', 'f'])
    exact .of_all (by cases up <;> decide)
  | nzero => exact .cons hm CaseOk.magText
  | fin q =>
    change CaseOk up (if q < 0 then '-' :: φ.magText r up prec (m.mag true) (-q) else φ.magText r up prec m q)
    split
    · exact .cons hm CaseOk.magText
    · exact CaseOk.magText

theorem CaseOk.getStr {m : Rnd} {r : NumRep} {width prec : ℕ} {x : FP} {t : List Char} (h : φ.getStr slack m r width prec up x = .ok t) :
    CaseOk up t := by
  obtain ⟨n, rfl⟩ := getStr_ok h
  exact CaseOk.blanks.append CaseOk.numText

theorem CaseOk.specialText {k : Manip} {x : Itv} : CaseOk up (k.specialText up x) := by
  unfold Manip.specialText
  refine .of_all ?_
  repeat' split
  all_goals (cases up <;> first | decide | simp_all)

/-- All parts are of the right case. -/
def Parts.Case (up : Bool) (p : Parts) : Prop := CaseOk up p.p1 ∧ CaseOk up p.p2 ∧ CaseOk up p.p3 ∧ CaseOk up p.p4 ∧ CaseOk up p.p5

theorem CaseOk.parts {k : Manip} {x : Itv} {p : Parts} (h : φ.parts slack k up x = .ok p) : p.Case up := by
  unfold Fmt.parts at h
  dsimp only at h
  have h1 : CaseOk up (if k.punct = true then ['['] else []) := by refine .of_all ?_; split <;> cases up <;> decide
  have h3 : CaseOk up (if k.punct = true then [','] else [' ']) := by refine .of_all ?_; split <;> cases up <;> decide
  have h5 : CaseOk up (if k.punct = true then [']'] else []) := by refine .of_all ?_; split <;> cases up <;> decide
  split at h
  · cases Std.ok.inj h
    exact ⟨h1, CaseOk.blanks, CaseOk.specialText, CaseOk.blanks, h5⟩
  · obtain ⟨p2, h2, h⟩ := Std.bind_ok h
    obtain ⟨p4, h4, h⟩ := Std.bind_ok h
    cases Std.ok.inj h
    exact ⟨h1, CaseOk.getStr h2, h3, CaseOk.getStr h4, h5⟩

theorem CaseOk.naiParts {k : Manip} : (k.naiParts up).Case up := by
  have h3 : CaseOk up (if up then ['N', 'A', 'I'] else ['n', 'a', 'i']) := .of_all (by cases up <;> decide)
  refine ⟨?_, .nil, h3, .nil, ?_⟩
  · refine CaseOk.append (.of_all ?_) CaseOk.blanks
    split <;> cases up <;> decide
  · refine CaseOk.append CaseOk.blanks (.of_all ?_)
    split <;> cases up <;> decide

theorem CaseOk.intText {z : ℤ} : CaseOk up (intText z) := by
  unfold P1788.intText
  refine CaseOk.append (.of_all ?_) CaseOk.natText10
  split <;> cases up <;> decide

theorem CaseOk.mantPart (h : CaseOk up u) : CaseOk up (mantPart u) :=
  h.of_mem fun _ hc => (List.takeWhile_sublist notE).subset hc
theorem CaseOk.expPart (h : CaseOk up u) : CaseOk up (expPart u) :=
  h.of_mem fun _ hc => (List.dropWhile_sublist notE).subset hc

theorem CaseOk.insertMark (h : CaseOk up u) (h' : CaseOk up v) : CaseOk up (insertMark u v) :=
  (h.mantPart.append h').append h.expPart

theorem ucSym_case {k : Manip} {x : Itv} {l u : List Char} {r : List Char × ℤ × List Char} (h : φ.ucSym slack k up x l u = .ok r) :
    CaseOk up r.1 ∧ CaseOk up r.2.2 := by
  unfold Fmt.ucSym at h
  obtain ⟨t, h1, h⟩ := Std.bind_ok h
  have ht := CaseOk.getStr h1
  obtain ⟨_, -, h⟩ := Std.bind_ok h
  obtain ⟨_, -, h⟩ := Std.bind_ok h
  obtain ⟨_, -, h⟩ := Std.bind_ok h
  obtain ⟨_, -, h⟩ := Std.bind_ok h
  obtain ⟨_, -, h⟩ := Std.bind_ok h
  obtain ⟨⟨_, _⟩, -, h⟩ := Std.bind_ok h
  dsimp only at h
  obtain ⟨_, -, h⟩ := Std.bind_ok h
  obtain ⟨_, -, h⟩ := Std.bind_ok h
  obtain ⟨_, -, h⟩ := Std.bind_ok h
  obtain ⟨⟨_, _⟩, -, h⟩ := Std.bind_ok h
  dsimp only at h
  obtain ⟨_, -, h⟩ := Std.bind_ok h
  obtain ⟨_, -, h⟩ := Std.bind_ok h
  obtain ⟨_, -, h⟩ := Std.bind_ok h
  obtain ⟨_, -, h⟩ := Std.bind_ok h
  obtain ⟨_, -, h⟩ := Std.bind_ok h
  obtain ⟨_, -, h⟩ := Std.bind_ok h
  obtain ⟨_, -, h⟩ := Std.bind_ok h
  obtain ⟨_, -, h⟩ := Std.bind_ok h
  obtain ⟨_, -, h⟩ := Std.bind_ok h
  cases Std.ok.inj h
  exact ⟨ht.mantPart, ht.expPart⟩

theorem ucDir_case {k : Manip} {down : Bool} {x : Itv} {l u : List Char} (hl : CaseOk up l) (hu : CaseOk up u)
    {r : List Char × ℤ × List Char} (h : ucDir k down x l u = .ok r) : CaseOk up r.1 ∧ CaseOk up r.2.2 := by
  unfold ucDir at h
  obtain ⟨_, -, h⟩ := Std.bind_ok h
  obtain ⟨_, -, h⟩ := Std.bind_ok h
  obtain ⟨_, -, h⟩ := Std.bind_ok h
  obtain ⟨_, -, h⟩ := Std.bind_ok h
  obtain ⟨_, -, h⟩ := Std.bind_ok h
  obtain ⟨⟨_, _⟩, -, h⟩ := Std.bind_ok h
  dsimp only at h
  obtain ⟨⟨_, _⟩, -, h⟩ := Std.bind_ok h
  dsimp only at h
  obtain ⟨_, -, h⟩ := Std.bind_ok h
  obtain ⟨_, -, h⟩ := Std.bind_ok h
  obtain ⟨_, -, h⟩ := Std.bind_ok h
  obtain ⟨_, -, h⟩ := Std.bind_ok h
  obtain ⟨_, -, h⟩ := Std.bind_ok h
  have := Std.ok.inj h
  subst this
  split
  · exact ⟨hu.mantPart, hu.expPart⟩
  · exact ⟨hl.mantPart, hl.expPart⟩

theorem ucText_case {k : Manip} {x : Itv} {t : List Char} (h : φ.ucText slack k up x = .ok t) : CaseOk up t := by
  unfold Fmt.ucText at h
  dsimp only at h
  split at h
  · obtain ⟨s, h1, h⟩ := Std.bind_ok h
    cases Std.ok.inj h
    exact (CaseOk.getStr h1).insertMark (.of_all (by cases up <;> decide))
  split at h
  · obtain ⟨s, h1, h⟩ := Std.bind_ok h
    cases Std.ok.inj h
    exact (CaseOk.getStr h1).insertMark (.of_all (by cases up <;> decide))
  split at h
  · obtain ⟨s, h1, h⟩ := Std.bind_ok h
    cases Std.ok.inj h
    exact (CaseOk.getStr h1).insertMark (.of_all (by cases up <;> decide))
  obtain ⟨tl, hl, h⟩ := Std.bind_ok h
  obtain ⟨tu, hu, h⟩ := Std.bind_ok h
  obtain ⟨r, hr, h⟩ := Std.bind_ok h
  have h12 : CaseOk up r.1 ∧ CaseOk up r.2.2 := by
    cases hf : k.form <;> rw [hf] at hr
    · exact ucSym_case hr
    · exact ucSym_case hr
    · exact ucDir_case (CaseOk.getStr hl) (CaseOk.getStr hu) hr
    · exact ucDir_case (CaseOk.getStr hl) (CaseOk.getStr hu) hr
  have := Std.ok.inj h
  subst this
  refine h12.1.append (.cons (by cases up <;> decide) ((CaseOk.intText.append ?_).append h12.2))
  cases k.form <;> exact .of_all (by cases up <;> decide)

/-! ## Streams -/

/-- The fill character is of the right case. -/
def OStr.FillOk (o : OStr) : Prop := (if o.upper then o.fill.isLower else o.fill.isUpper) = false

/-- `o'` is `o` with more text, all of the right case. -/
structure OStr.More (o o' : OStr) : Prop where
  text : ∃ t, o'.text = o.text ++ t ∧ CaseOk o.upper t
  upper : o'.upper = o.upper
  fill : o'.fill = o.fill

theorem OStr.More.refl {o : OStr} : OStr.More o o := ⟨⟨[], by simp, .nil⟩, rfl, rfl⟩

theorem OStr.More.trans {o o' o'' : OStr} (h : OStr.More o o') (h' : OStr.More o' o'') : OStr.More o o'' := by
  obtain ⟨⟨t, h1, h2⟩, h3, h4⟩ := h
  obtain ⟨⟨t', h1', h2'⟩, h3', h4'⟩ := h'
  rw [h3] at h2'
  exact ⟨⟨t ++ t', by rw [h1', h1, List.append_assoc], h2.append h2'⟩, h3'.trans h3, h4'.trans h4⟩

theorem OStr.More.fillOk {o o' : OStr} (h : OStr.More o o') (hf : o.FillOk) : o'.FillOk := by
  unfold OStr.FillOk at *
  rw [h.upper, h.fill]; exact hf

theorem OStr.More.put {o : OStr} (hf : o.FillOk) {w : List Char} (hw : CaseOk o.upper w) : OStr.More o (o.put w) := by
  refine ⟨⟨_, rfl, ?_⟩, rfl, rfl⟩
  have hp : CaseOk o.upper (List.replicate (o.width - w.length) o.fill) := CaseOk.replicate hf
  split
  · exact hw.append hp
  · exact hp.append hw

theorem OStr.More.puts {o o' : OStr} (h : OStr.More o o') (hf : o.FillOk) {w : List Char} (hw : CaseOk o.upper w) : OStr.More o (o'.put w) :=
  h.trans (OStr.More.put (h.fillOk hf) (by rw [h.upper]; exact hw))

theorem Parts.write_case {o : OStr} (hf : o.FillOk) {p : Parts} (hp : p.Case o.upper) (n : ℤ) : OStr.More o (p.write n o) := by
  obtain ⟨h1, h2, h3, h4, h5⟩ := hp
  unfold Parts.write
  exact ((((((OStr.More.put hf h1).puts hf CaseOk.blanks).puts hf h2).puts hf h3).puts hf CaseOk.blanks).puts hf h4).puts hf h5

theorem writeItv_case {k : Manip} {o o' : OStr} {x : Itv} (hf : o.FillOk) (h : φ.writeItv slack k o x = .ok o') : OStr.More o o' := by
  unfold Fmt.writeItv at h
  split at h
  · cases Std.ok.inj h; exact .refl
  · split at h
    · obtain ⟨t, h1, h⟩ := Std.bind_ok h
      cases Std.ok.inj h
      exact OStr.More.put hf (CaseOk.blanks.append (ucText_case h1))
    · obtain ⟨p, h1, h⟩ := Std.bind_ok h
      cases Std.ok.inj h
      exact Parts.write_case hf (CaseOk.parts h1) _

/-- Digits in a base have no upper case letters; up to base 10 they have no letters. -/
theorem toDigits_case {b : Base} (hb : up = true → b ≠ .hex) {n : ℕ} (hn : n ∈ [0, 4, 8, 12, 16] ∨ n ∈ (List.range 16).map (2 ^ ·)) :
    CaseOk up (Nat.toDigits b.toNat n) := by
  rcases hn with hn | hn
  · simp only [List.mem_cons, List.not_mem_nil, or_false] at hn
    rcases hn with rfl | rfl | rfl | rfl | rfl <;> cases b <;> cases up <;>
      first | exact absurd rfl (hb rfl) | exact .of_all (by decide +kernel)
  · rw [List.mem_map] at hn
    obtain ⟨i, hi, rfl⟩ := hn
    rw [List.mem_range] at hi
    interval_cases i <;> cases b <;> cases up <;>
      first | exact absurd rfl (hb rfl) | exact .of_all (by decide +kernel)

theorem decWrite_case {o : OStr} {r : UInt8} {d : Dec} (hr : Dec.raw d = r) (hf : o.FillOk) (hb : o.numeric = true → o.upper = true → o.base ≠ .hex) :
    OStr.More o (Dec.write o r) := by
  subst hr
  unfold Dec.write
  have key : ∀ w w' : List Char, CaseOk true w → CaseOk false w' → OStr.More o (o.put (if o.upper then w else w')) := by
    intro w w' h h'
    refine OStr.More.put hf ?_
    cases o.upper
    · exact h'
    · exact h
  split
  · next hn =>
    refine OStr.More.put hf (toDigits_case (hb hn) (Or.inl ?_))
    cases d <;> decide
  · cases d
    · exact key ['I', 'L', 'L'] ['i', 'l', 'l'] (.of_all (by decide)) (.of_all (by decide))
    · exact key ['T', 'R', 'V'] ['t', 'r', 'v'] (.of_all (by decide)) (.of_all (by decide))
    · exact key ['D', 'E', 'F'] ['d', 'e', 'f'] (.of_all (by decide)) (.of_all (by decide))
    · exact key ['D', 'A', 'C'] ['d', 'a', 'c'] (.of_all (by decide)) (.of_all (by decide))
    · exact key ['C', 'O', 'M'] ['c', 'o', 'm'] (.of_all (by decide)) (.of_all (by decide))

theorem overlapWrite_case {o : OStr} {n : Bool} {v : Overlap} (hf : o.FillOk) (hb : n = true → o.upper = true → o.base ≠ .hex) :
    OStr.More o (v.write o n) := by
  unfold Overlap.write
  split
  · next hn =>
    refine OStr.More.put hf (toDigits_case (hb hn) ?_)
    cases v <;> decide
  · refine OStr.More.put hf ?_
    cases o.upper <;> cases v <;> exact .of_all (by decide)

theorem writeDItv_case {k : Manip} {o o' : OStr} {x : DItv} (hf : o.FillOk) (hb : o.numeric = true → o.upper = true → o.base ≠ .hex)
    (h : φ.writeDItv slack k o x = .ok o') : OStr.More o o' := by
  unfold Fmt.writeDItv at h
  split at h
  · cases Std.ok.inj h; exact .refl
  split at h
  · cases Std.ok.inj h; exact Parts.write_case hf CaseOk.naiParts _
  split at h
  · exact writeItv_case hf h
  · obtain ⟨w, -, h⟩ := Std.bind_ok h
    obtain ⟨o1, h1, h⟩ := Std.bind_ok h
    cases Std.ok.inj h
    refine (writeItv_case hf h1).puts hf ?_
    unfold Manip.decText
    have hf0 : ({ o with text := [] } : OStr).FillOk := hf
    have m1 : OStr.More { o with text := [] } (({ o with text := [] } : OStr).put (if k.punct then ['_'] else [' '])) :=
      OStr.More.put hf0 (.of_all (by split <;> cases o.upper <;> decide))
    have m2 := decWrite_case (d := x.dec) rfl (m1.fillOk hf0) (show o.numeric = true → o.upper = true → o.base ≠ .hex from hb)
    obtain ⟨t, ht, hc⟩ := (m1.trans m2).text
    rw [ht]
    exact hc

end P1788
