import Verif.Model.Stream
import Mathlib.Data.Char
import Mathlib.Tactic.Linarith
import Mathlib.Tactic.IntervalCases

/-! # C39: decorations as text -/

namespace P1788

/-- The number that stands for a decoration (IEEE 1788 interchange representation). -/
def Dec.code : Dec → ℕ
  | .ill => 0 | .trv => 4 | .defd => 8 | .dac => 12 | .com => 16

/-- The name of a decoration. -/
def Dec.name : Dec → List Char
  | .ill => ['i', 'l', 'l'] | .trv => ['t', 'r', 'v'] | .defd => ['d', 'e', 'f'] | .dac => ['d', 'a', 'c']
  | .com => ['c', 'o', 'm']

/-- The text without the prefix `0x` that is allowed in base 16. -/
def dropPrefix : Base → List Char → List Char
  | .hex, '0' :: 'x' :: l => l
  | .hex, '0' :: 'X' :: l => l
  | _, l => l

/-- The text `l` starts with a decoration, `d`, and continues with `t`: the decoration is its name in any mixture of
upper and lower case, or its number (all digits of the base up to the next character that is none; leading zeros are
allowed), of which the first character is a decimal digit. -/
def StartsWith (b : Base) (l : List Char) (d : Dec) (t : List Char) : Prop :=
  (∃ w, l = w ++ t ∧ w.map Char.toLower = d.name) ∨
  (∃ w, l.head?.any isDigit = true ∧ dropPrefix b l = w ++ t ∧ w ≠ [] ∧ (∀ c ∈ w, isDigitOf b c = true) ∧ (∀ c, t.head? = some c → isDigitOf b c = false) ∧
    digitsVal b w = d.code)

/-- The text to be read: white space is skipped if the stream says so. -/
def IStr.content (s : IStr) : List Char := if s.skipws then s.rest.dropWhile isSpace else s.rest

theorem IStr.ext' {s t : IStr} (h1 : s.rest = t.rest) (h2 : s.eof = t.eof) (h3 : s.fail = t.fail) (h4 : s.bad = t.bad)
    (h5 : s.skipws = t.skipws) (h6 : s.base = t.base) : s = t := by
  cases s; cases t; simp_all

theorem removeWs_good {s : IStr} (h : s.good = true) :
    removeWs s = { s with rest := s.rest.dropWhile isSpace, eof := (s.rest.dropWhile isSpace).isEmpty } := by
  unfold removeWs
  obtain ⟨rest, eof, fail, bad, sk, b⟩ := s
  simp only [IStr.good, Bool.and_eq_true, Bool.not_eq_true'] at h
  obtain ⟨⟨rfl, rfl⟩, rfl⟩ := h
  induction rest with
  | nil => simp [removeWsLoop, IStr.ok, IStr.peek, IStr.good]
  | cons c l ih =>
    by_cases hc : isSpace c = true
    · simp only [removeWsLoop, IStr.ok, IStr.peek, IStr.good, IStr.get, hc, Bool.not_false, Bool.and_self, if_true,
        Bool.not_true, Bool.false_eq_true, if_false, List.dropWhile_cons]
      simpa using ih
    · simp [removeWsLoop, IStr.ok, IStr.peek, IStr.good, hc, List.dropWhile_cons]

theorem lower_char (c : Char) : (if 'A' ≤ c ∧ c ≤ 'Z' then Char.ofNat (c.toNat + 32) else c) = c.toLower := by
  by_cases h : 'A' ≤ c ∧ c ≤ 'Z'
  · have h1 : 65 ≤ c.toNat := h.1
    have h2 : c.toNat ≤ 90 := h.2
    rw [if_pos h]
    have hc : c = Char.ofNat c.toNat := (Char.ofNat_toNat c).symm
    generalize c.toNat = n at *
    subst hc
    interval_cases n <;> rfl
  · rw [if_neg h]
    unfold Char.toLower
    split
    · exact absurd ‹_› h
    · rfl

theorem lower_eq (l : List Char) : asciiToLower l = l.map Char.toLower :=
  List.map_congr_left fun c _ => lower_char c

/-- A digit is not changed by lower-casing. -/
theorem lower_digit {c : Char} (h : isDigit c = true) : c.toLower = c := by
  rw [← lower_char, if_neg]
  simp only [isDigit, Bool.and_eq_true, decide_eq_true_eq] at h
  intro h'
  exact absurd (h'.1.trans h.2) (by decide)

theorem name_not_digit (d : Dec) : ∀ c ∈ d.name, isDigit c = false := by cases d <;> decide

theorem name_length (d : Dec) : d.name.length = 3 := by cases d <;> rfl

theorem digits_unique {b : Base} {w t : List Char} (h1 : ∀ c ∈ w, isDigitOf b c = true)
    (h2 : ∀ c, t.head? = some c → isDigitOf b c = false) :
    (w ++ t).takeWhile (isDigitOf b) = w ∧ (w ++ t).dropWhile (isDigitOf b) = t := by
  induction w with
  | nil =>
    cases t with
    | nil => simp
    | cons c t => simp [List.takeWhile_cons, List.dropWhile_cons, h2 c rfl]
  | cons c w ih =>
    obtain ⟨i1, i2⟩ := ih (fun c h => h1 c (List.mem_cons_of_mem _ h))
    simp [List.takeWhile_cons, List.dropWhile_cons, h1 c List.mem_cons_self, i1, i2]

/-- A text that starts with a digit starts with a decoration iff all its digits make the number of one. -/
theorem startsWith_digit {b : Base} {c : Char} {l t : List Char} {d : Dec} (hc : isDigit c = true) :
    StartsWith b (c :: l) d t ↔ (dropPrefix b (c :: l)).takeWhile (isDigitOf b) ≠ [] ∧
      t = (dropPrefix b (c :: l)).dropWhile (isDigitOf b) ∧
      digitsVal b ((dropPrefix b (c :: l)).takeWhile (isDigitOf b)) = d.code := by
  constructor
  · rintro (⟨w, h1, h2⟩ | ⟨w, -, h1, h2, h3, h4, h5⟩)
    · exfalso
      cases w with
      | nil => have := name_length d; rw [← h2] at this; simp at this
      | cons e w =>
        simp only [List.cons_append, List.cons.injEq] at h1
        have := name_not_digit d c (by rw [← h2, List.map_cons, ← h1.1, lower_digit hc]; exact List.mem_cons_self)
        rw [hc] at this; exact Bool.noConfusion this
    · obtain ⟨i1, i2⟩ := digits_unique h3 h4
      rw [h1, i1, i2]; exact ⟨h2, rfl, h5⟩
  · rintro ⟨h1, rfl, h2⟩
    refine Or.inr ⟨_, by simpa using hc, (List.takeWhile_append_dropWhile).symm, h1,
      fun c h => List.all_eq_true.mp List.all_takeWhile c h, fun e he => ?_, h2⟩
    have := List.head?_dropWhile_not (isDigitOf b) (dropPrefix b (c :: l))
    rw [he] at this; simpa using this

/-- A text that does not start with a digit starts with a decoration iff its first three letters are its name. -/
theorem startsWith_alpha {b : Base} {c : Char} {l t : List Char} {d : Dec} (hc : isDigit c = false) :
    StartsWith b (c :: l) d t ↔ 3 ≤ (c :: l).length ∧ t = (c :: l).drop 3 ∧
      ((c :: l).take 3).map Char.toLower = d.name := by
  constructor
  · rintro (⟨w, h1, h2⟩ | ⟨w, h, -⟩)
    · have hl : w.length = 3 := by rw [← name_length d, ← h2, List.length_map]
      rw [h1, ← hl, List.drop_left, List.take_left, h2]
      simp
    · simp [hc] at h
  · rintro ⟨-, rfl, h2⟩
    exact Or.inl ⟨_, (List.take_append_drop 3 _).symm, h2⟩

/-- Reading from a good stream: if the text starts with a decoration, exactly this decoration is
read and the rest of the text is left in the stream; otherwise the failbit is set and the argument is left alone. -/
theorem C39_read {s : IStr} (hs : s.good = true) (d0 : Dec) :
    (∀ d t, StartsWith s.base s.content d t →
      (Dec.read s d0).1 = d ∧ (Dec.read s d0).2.rest = t ∧ (Dec.read s d0).2.ok = true) ∧
    ((∀ d t, ¬ StartsWith s.base s.content d t) → (Dec.read s d0).1 = d0 ∧ (Dec.read s d0).2.fail = true) := by
  obtain ⟨e, he, hread⟩ : ∃ s' : IStr, s' = { s with rest := s.content, eof := s.skipws && s.content.isEmpty } ∧
      (if s.skipws then removeWs s else s) = s' := by
    refine ⟨_, rfl, ?_⟩
    by_cases h : s.skipws = true
    · rw [if_pos h, removeWs_good hs]; simp [IStr.content, h]
    · simp only [Bool.not_eq_true] at h
      have : s.eof = false := by
        simp only [IStr.good, Bool.and_eq_true, Bool.not_eq_true'] at hs; exact hs.1.1
      rw [h]; cases s; simp_all [IStr.content]
  have hf : s.fail = false ∧ s.bad = false ∧ s.eof = false := by
    simp only [IStr.good, Bool.and_eq_true, Bool.not_eq_true'] at hs; exact ⟨hs.1.2, hs.2, hs.1.1⟩
  generalize s.content = l at *
  cases l with
  | nil =>
    refine ⟨?_, fun _ => ?_⟩
    · rintro d t (⟨w, h1, h2⟩ | ⟨w, h1, -⟩)
      · have := name_length d; rw [← h2] at this
        simp only [List.nil_eq, List.append_eq_nil_iff] at h1
        rw [h1.1] at this; simp at this
      · simp at h1
    · unfold Dec.read
      rw [hread, he]
      cases hk : s.skipws <;>
        simp [IStr.ok, IStr.peek, IStr.good, IStr.read, IStr.setFail, hf, hk]
  | cons c l =>
    have eo : e.ok = true := by rw [he]; simp [IStr.ok, hf]
    have eg : e.good = true := by rw [he]; simp [IStr.good, hf]
    have ep : e.peek = (some c, e) := by
      unfold IStr.peek; rw [eg, he]; simp
    have er : e.rest = c :: l := by rw [he]
    have eb : e.base = s.base := by rw [he]
    have ef : e.fail = false ∧ e.bad = false := by rw [he]; exact ⟨hf.1, hf.2.1⟩
    unfold Dec.read
    rw [hread]
    simp only [eo, if_true, ep, Option.any_some]
    by_cases hc : isDigit c = true
    · simp only [hc, if_true]
      have hread : e.readUInt = (let ds := (dropPrefix s.base (c :: l)).takeWhile (isDigitOf s.base)
          let t := (dropPrefix s.base (c :: l)).dropWhile (isDigitOf s.base)
          let n := digitsVal s.base ds
          let s' := { e with rest := t, eof := t.isEmpty }
          if ds.isEmpty then (0, s'.setFail)
          else if 2 ^ 32 ≤ n then (2 ^ 32 - 1, s'.setFail)
          else (n, s')) := by
        unfold IStr.readUInt
        rw [eg, er, eb]
        cases hbb : s.base <;> rfl
      rw [hread]
      simp only [startsWith_digit hc]
      generalize (dropPrefix s.base (c :: l)).takeWhile (isDigitOf s.base) = ds
      generalize (dropPrefix s.base (c :: l)).dropWhile (isDigitOf s.base) = t
      generalize hn : digitsVal s.base ds = n
      by_cases hds : ds = []
      · subst hds
        simp [IStr.setFail, IStr.ok]
      · have hds' : ds.isEmpty = false := by simp [hds]
        simp only [hds', Bool.false_eq_true, if_false]
        by_cases hbig : 2 ^ 32 ≤ n
        · simp only [hbig, if_true]
          refine ⟨?_, fun _ => by simp [IStr.setFail, IStr.ok]⟩
          rintro d t' ⟨-, -, h⟩
          have : d.code ≤ 16 := by cases d <;> decide
          omega
        · have ok' : ({ e with rest := t, eof := t.isEmpty } : IStr).ok = true := by simp [IStr.ok, ef]
          simp only [hbig, if_false, ok', if_true]
          constructor
          · rintro d t' ⟨-, rfl, rfl⟩
            cases d <;> simp [Dec.code, ok']
          · intro h
            have hh : ∀ d : Dec, n ≠ d.code := fun d hd => h d t ⟨hds, rfl, hd⟩
            have h0 := hh .ill; have h4 := hh .trv; have h8 := hh .defd; have h12 := hh .dac; have h16 := hh .com
            simp only [Dec.code] at h0 h4 h8 h12 h16
            simp [h0, h4, h8, h12, h16, IStr.setFail]
    · simp only [Bool.not_eq_true] at hc
      simp only [hc, Bool.false_eq_true, if_false, startsWith_alpha hc]
      by_cases h3 : 3 ≤ (c :: l).length
      · have hread : e.read 3 = ((c :: l).take 3, { e with rest := (c :: l).drop 3 }) := by
          unfold IStr.read
          rw [eg, er, if_pos h3]; rfl
        have ok' : ({ e with rest := (c :: l).drop 3 } : IStr).ok = true := by simp [IStr.ok, ef]
        rw [hread]
        simp only [ok', if_true, lower_eq]
        generalize ((c :: l).take 3).map Char.toLower = w
        generalize (c :: l).drop 3 = t3 at *
        constructor
        · rintro d t' ⟨-, rfl, rfl⟩
          cases d <;> simp [Dec.name, ok']
        · intro h
          have hh : ∀ d : Dec, w ≠ d.name := fun d hd => h d _ ⟨h3, rfl, hd⟩
          have h0 := hh .ill; have h4 := hh .trv; have h8 := hh .defd; have h12 := hh .dac; have h16 := hh .com
          simp only [Dec.name] at h0 h4 h8 h12 h16
          simp [h0, h4, h8, h12, h16, IStr.setFail]
      · have hread : e.read 3 = (c :: l, { e with rest := [], eof := true, fail := true }) := by
          unfold IStr.read
          rw [eg, er, if_neg h3]; rfl
        rw [hread]
        refine ⟨fun d t h => absurd h.1 h3, fun _ => ?_⟩
        simp [IStr.ok, IStr.setFail]

/-- Reading from a stream that is not good fails and leaves the argument alone. -/
theorem C39_read_bad {s : IStr} (hs : s.good = false) (d0 : Dec) :
    (Dec.read s d0).1 = d0 ∧ (Dec.read s d0).2.fail = true ∧ (Dec.read s d0).2.rest = s.rest := by
  obtain ⟨rest, eof, fail, bad, sk, b⟩ := s
  revert hs
  cases eof <;> cases fail <;> cases bad <;> cases sk <;> cases rest <;>
    simp [IStr.good, Dec.read, removeWs, removeWsLoop, IStr.ok, IStr.peek, IStr.read, IStr.setFail]

/-- What is written for a decoration. -/
def Dec.text (o : OStr) (d : Dec) : List Char :=
  if o.numeric then Nat.toDigits o.base.toNat d.code else if o.upper then d.name.map Char.toUpper else d.name

theorem write_eq {o : OStr} {r : UInt8} {d : Dec} (hr : Dec.ofRaw r = some d) : Dec.write o r = o.put (d.text o) := by
  unfold Dec.ofRaw at hr
  unfold Dec.write
  split_ifs at hr with h0 h4 h8 h12 h16 <;> (obtain rfl := Option.some.inj hr; subst_vars; unfold Dec.text) <;>
    cases o.numeric <;> cases o.upper <;> rfl

theorem text_startsWith {o : OStr} (d : Dec) {t : List Char}
    (hd : o.numeric = true → o.base = .hex → d ≠ .dac)
    (h : o.numeric = true → ∀ c, t.head? = some c → isDigitOf o.base c = false ∧ (o.base = .hex → c ≠ 'x' ∧ c ≠ 'X')) :
    StartsWith o.base (d.text o ++ t) d t := by
  unfold Dec.text
  cases hn : o.numeric with
  | false =>
    left
    refine ⟨_, rfl, ?_⟩
    cases o.upper <;> cases d <;> rfl
  | true =>
    right
    refine ⟨Nat.toDigits o.base.toNat d.code, ?_, ?_, ?_, ?_, fun c hc => (h hn c hc).1, ?_⟩
    · cases hb : o.base <;> cases d <;> first | rfl | exact absurd rfl (hd hn hb)
    · cases hb : o.base <;> cases d <;> first
        | rfl
        | (cases t with
            | nil => rfl
            | cons c t =>
              obtain ⟨-, hx⟩ := h hn c rfl
              obtain ⟨h1, h2⟩ := hx hb
              show dropPrefix .hex (_ :: c :: t) = _ :: c :: t
              unfold dropPrefix
              split <;> simp_all)
    · cases o.base <;> cases d <;> decide
    · cases o.base <;> cases d <;> decide
    · cases o.base <;> cases d <;> decide

/-- A decoration that is written to a stream and read back, by a stream with the same base, is the same decoration; what
follows it is left in the stream (up to padding).  In numeric form the text that follows must not continue the number,
and in base 16 the number of `dac`, `c`, is excluded: see `C39_false_hex`. -/
theorem C39_round_trip_partial {o : OStr} {r : UInt8} {d : Dec} (hr : Dec.ofRaw r = some d)
    (hd : o.numeric = true → o.base = .hex → d ≠ .dac) {t : List Char}
    (ht : o.numeric = true → ∀ c, t.head? = some c → isDigitOf o.base c = false ∧ (o.base = .hex → c ≠ 'x' ∧ c ≠ 'X')) :
    ∃ w, (Dec.write o r).text = o.text ++ w ∧
      ∀ (s : IStr) (d0 : Dec), s.good = true → s.base = o.base → s.rest = w ++ t →
        (o.width = 0 ∨ isSpace o.fill = true ∧ s.skipws = true) →
        (Dec.read s d0).1 = d ∧ (Dec.read s d0).2.ok = true ∧
        ∃ pad, (∀ c ∈ pad, isSpace c = true) ∧ (Dec.read s d0).2.rest = pad ++ t := by
  rw [write_eq hr]
  have hne : ∃ c l, d.text o = c :: l ∧ isSpace c = false := by
    unfold Dec.text
    cases o.numeric <;> cases o.upper <;> cases o.base <;> cases d <;> exact ⟨_, _, rfl, by decide⟩
  have hdrop : ∀ t, (d.text o ++ t).dropWhile isSpace = d.text o ++ t := by
    intro t
    obtain ⟨c, l, h, hc⟩ := hne
    rw [h, List.cons_append, List.dropWhile_cons, hc]; simp
  refine ⟨_, rfl, fun s d0 hs hb hrest hpad => ?_⟩
  generalize hP : List.replicate (o.width - (d.text o).length) o.fill = pad at hrest
  have hpads : pad = [] ∨ (∀ c ∈ pad, isSpace c = true) ∧ s.skipws = true := by
    rcases hpad with h | ⟨h1, h2⟩
    · left; rw [← hP, h]; simp
    · right; refine ⟨fun c hc => ?_, h2⟩
      rw [← hP] at hc; rw [List.eq_of_mem_replicate hc]; exact h1
  have hpads' : ∀ c ∈ pad, isSpace c = true := by
    rcases hpads with rfl | h
    · simp
    · exact h.1
  obtain ⟨pad', hp1, hc⟩ : ∃ pad', (pad' = [] ∨ (pad' = pad ∧ (pad = [] ∨ s.skipws = true))) ∧
      s.content = d.text o ++ (pad' ++ t) := by
    unfold IStr.content
    by_cases hl : o.left = true
    · rw [if_pos hl, List.append_assoc] at hrest
      refine ⟨pad, Or.inr ⟨rfl, hpads.imp_right And.right⟩, ?_⟩
      rw [hrest, hdrop, ite_self]
    · rw [if_neg hl, List.append_assoc] at hrest
      refine ⟨[], Or.inl rfl, ?_⟩
      rw [hrest]
      rcases hpads with rfl | ⟨h1, h2⟩
      · rw [List.nil_append, hdrop, ite_self]; rfl
      · rw [if_pos h2, List.dropWhile_append_of_pos h1, hdrop]; rfl
  have hsp : ∀ c ∈ pad', isSpace c = true := by
    rcases hp1 with rfl | ⟨rfl, -⟩
    · simp
    · exact hpads'
  have hst : StartsWith s.base s.content d (pad' ++ t) := by
    rw [hc, hb]
    refine text_startsWith d hd fun hn c hcc => ?_
    cases hp : pad' with
    | nil => rw [hp] at hcc; exact ht hn c hcc
    | cons e l =>
      rw [hp] at hcc
      simp only [List.cons_append, List.head?_cons, Option.some.injEq] at hcc
      subst hcc
      have := hsp e (by rw [hp]; exact List.mem_cons_self)
      simp only [isSpace, Bool.or_eq_true, decide_eq_true_eq] at this
      rcases this with ((((rfl | rfl) | rfl) | rfl) | rfl) | rfl <;> cases o.base <;> decide
  obtain ⟨h1, h2, h3⟩ := (C39_read hs d0).1 d _ hst
  exact ⟨h1, h3, pad', hsp, h2⟩

/-- With `std::hex`, `dac` is written as `c`, which is not read back. -/
theorem C39_false_hex (d0 : Dec) (s : IStr) (hs : s.good = true) (hr : s.rest = ['c']) :
    (Dec.write { numeric := true, base := .hex } 12).text = ['c'] ∧
    (Dec.read s d0).1 = d0 ∧ (Dec.read s d0).2.fail = true := by
  refine ⟨by decide +kernel, (C39_read hs d0).2 ?_⟩
  have hc : s.content = ['c'] := by
    unfold IStr.content; rw [hr]; cases s.skipws <;> decide
  intro d t h
  rw [hc, startsWith_alpha (by decide)] at h
  simp at h

/-- The comment in the code says that the argument is set to `ill` if nothing could be read; it is not. -/
theorem C39_failure_keeps :
    (Dec.read ⟨['x', 'y', 'z'], false, false, false, true, .dec⟩ .com).1 = .com ∧
    (Dec.read ⟨['x', 'y', 'z'], false, false, false, true, .dec⟩ .com).2.fail = true := by decide +kernel

/-- A decoration that is no decoration: nothing is written. -/
theorem C39_write_invalid {o : OStr} {r : UInt8} (hr : Dec.ofRaw r = none) (hn : o.numeric = false) :
    Dec.write o r = o := by
  unfold Dec.ofRaw at hr
  unfold Dec.write
  split_ifs at hr with h0 h4 h8 h12 h16
  rw [hn]
  simp [h0, h4, h8, h12, h16]

/-! ### The hypotheses are met -/

example : StartsWith .dec "dAc,".toList .dac [','] := Or.inl ⟨['d', 'A', 'c'], rfl, by decide⟩
example : StartsWith .oct "020 x".toList .com " x".toList :=
  Or.inr ⟨['0', '2', '0'], by decide, rfl, by simp, by decide, by decide, by decide⟩
example : Dec.read { rest := "  dAc,".toList } .ill = (.dac, { rest := [','] }) := by decide +kernel
example : Dec.read { rest := "12]".toList } .ill = (.dac, { rest := [']'] }) := by decide +kernel
example : (Dec.read { rest := "13]".toList } .ill).2.fail = true := by decide +kernel
example : (Dec.write { width := 5, left := true, upper := true } 16).text = "COM  ".toList := by decide +kernel

end P1788
