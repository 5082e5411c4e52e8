import Verif.Lemmas.WriteUnc

/-! # Reading keeps the settings of the stream and sets the eofbit only at the end of the text -/

namespace P1788

/-- The settings are those of `s0`, and the eofbit is set only if no text is left. -/
structure Kept (s0 s : IStr) : Prop where
  skip : s.skipws = s0.skipws
  base : s.base = s0.base
  eof : s.eof = true → s.rest = []

variable {s0 s : IStr}

theorem Kept.setFail (h : Kept s0 s) : Kept s0 s.setFail := ⟨h.skip, h.base, h.eof⟩

theorem Kept.peek (h : Kept s0 s) : Kept s0 s.peek.2 := by
  unfold IStr.peek
  by_cases hg : (!s.good) = true
  · rw [if_pos hg]; exact h.setFail
  · rw [if_neg hg]
    cases hr : s.rest with
    | nil => exact ⟨h.skip, h.base, fun _ => rfl⟩
    | cons c l => exact h

theorem not_eof_of_good (h : s.good = true) : s.eof = false := by
  unfold IStr.good at h
  revert h
  cases s.eof <;> simp

theorem Kept.get (h : Kept s0 s) : Kept s0 s.get := by
  unfold IStr.get
  by_cases hg : (!s.good) = true
  · rw [if_pos hg]; exact h.setFail
  · rw [if_neg hg]
    have hne := not_eof_of_good (s := s) (by simpa using hg)
    cases hr : s.rest with
    | nil => exact ⟨h.skip, h.base, fun _ => rfl⟩
    | cons c l => exact ⟨h.skip, h.base, fun he => by simp [hne] at he⟩

theorem Kept.read (h : Kept s0 s) (n : ℕ) : Kept s0 (s.read n).2 := by
  unfold IStr.read
  by_cases hg : (!s.good) = true
  · rw [if_pos hg]; exact h.setFail
  · rw [if_neg hg]
    have hne := not_eof_of_good (s := s) (by simpa using hg)
    by_cases hn : n ≤ s.rest.length
    · rw [if_pos hn]; exact ⟨h.skip, h.base, fun he => by simp [hne] at he⟩
    · rw [if_neg hn]; exact ⟨h.skip, h.base, fun _ => rfl⟩

theorem Kept.readUInt (h : Kept s0 s) : Kept s0 s.readUInt.2 := by
  unfold IStr.readUInt
  by_cases hg : (!s.good) = true
  · rw [if_pos hg]; exact h.setFail
  · rw [if_neg hg]
    have key : ∀ t : List Char, Kept s0 { s with rest := t, eof := t.isEmpty } :=
      fun t => ⟨h.skip, h.base, fun he => by simpa using he⟩
    have fin : ∀ r : List Char, Kept s0 (if (r.takeWhile (isDigitOf s.base)).isEmpty = true then
        (0, ({ s with rest := r.dropWhile (isDigitOf s.base), eof := (r.dropWhile (isDigitOf s.base)).isEmpty } : IStr).setFail)
      else if 2 ^ 32 ≤ digitsVal s.base (r.takeWhile (isDigitOf s.base)) then
        (2 ^ 32 - 1, ({ s with rest := r.dropWhile (isDigitOf s.base), eof := (r.dropWhile (isDigitOf s.base)).isEmpty } : IStr).setFail)
      else (digitsVal s.base (r.takeWhile (isDigitOf s.base)),
        ({ s with rest := r.dropWhile (isDigitOf s.base), eof := (r.dropWhile (isDigitOf s.base)).isEmpty } : IStr))).2 := by
      intro r
      split
      · exact (key _).setFail
      · split
        · exact (key _).setFail
        · exact key _
    exact fin _

theorem Kept.removeWsLoop (l : List Char) : ∀ {s : IStr}, Kept s0 s → Kept s0 (removeWsLoop l s) := by
  induction l with
  | nil =>
    intro s h
    unfold P1788.removeWsLoop
    by_cases ho : s.ok = true
    · rw [if_pos ho]; exact h.peek
    · rw [if_neg ho]; exact h
  | cons a l ih =>
    intro s h
    unfold P1788.removeWsLoop
    by_cases ho : s.ok = true
    · rw [if_pos ho]
      have hp := h.peek
      revert hp
      rcases s.peek with ⟨c, s'⟩
      intro hp
      cases c with
      | none => exact hp
      | some c =>
        dsimp only
        split
        · exact ih hp.get
        · exact hp
    · rw [if_neg ho]; exact h

theorem Kept.removeWs (h : Kept s0 s) : Kept s0 (removeWs s) := h.removeWsLoop _

theorem Kept.skipWs (h : Kept s0 s) : Kept s0 (if s.skipws then P1788.removeWs s else s) := by
  by_cases hs : s.skipws = true
  · rw [if_pos hs]; exact h.removeWs
  · rw [if_neg hs]; exact h

theorem Kept.readDec (h : Kept s0 s) (d : Dec) : Kept s0 (Dec.read s d).2 := by
  unfold Dec.read
  have h1 := h.skipWs
  revert h1
  generalize (if s.skipws then P1788.removeWs s else s) = s1
  intro h1
  dsimp only
  by_cases ho : s1.ok = true
  · rw [if_pos ho]
    have h2 := h1.peek
    revert h2
    rcases s1.peek with ⟨c, s2⟩
    intro h2
    dsimp only at h2 ⊢
    by_cases hc : c.any isDigit = true
    · rw [if_pos hc]
      have h3 := h2.readUInt
      revert h3
      rcases s2.readUInt with ⟨n, s3⟩
      intro h3
      dsimp only at h3 ⊢
      repeat' split
      all_goals first | exact h3 | exact h3.setFail
    · rw [if_neg hc]
      have h3 := h2.read 3
      revert h3
      rcases s2.read 3 with ⟨n, s3⟩
      intro h3
      dsimp only at h3 ⊢
      repeat' split
      all_goals first | exact h3 | exact h3.setFail
  · rw [if_neg ho]; exact h1.setFail

theorem Kept.finishDec (bare : Itv) (dec : Dec) (h : Kept s0 s) : Kept s0 (finishDec bare dec s).2 := by
  unfold P1788.finishDec
  have h1 : Kept s0 (if s.ok then (decide (s.peek.1 = some '_'), s.peek.2) else (false, s)).2 := by
    by_cases ho : s.ok = true
    · rw [if_pos ho]; exact h.peek
    · rw [if_neg ho]; exact h
  revert h1
  rcases (if s.ok then (decide (s.peek.1 = some '_'), s.peek.2) else (false, s)) with ⟨us, s1⟩
  intro h1
  dsimp only at h1 ⊢
  split
  · by_cases he : s1.eof = true
    · rw [if_pos he]; exact ⟨h1.skip, h1.base, fun he => by simp at he⟩
    · rw [if_neg he]; exact h1
  · split
    · have h2 := h1.get.readDec .ill
      revert h2
      rcases Dec.read s1.get .ill with ⟨d, s2⟩
      intro h2
      dsimp only at h2 ⊢
      split
      · exact h2
      · exact h2.setFail
    · exact h1.setFail

theorem Kept.readBracket (l : List Char) : ∀ {s : IStr}, Kept s0 s → Kept s0 (readBracket l s).2 := by
  induction l with
  | nil => intro s h; exact h.peek.get
  | cons a l ih =>
    intro s h
    unfold P1788.readBracket
    have hp := h.peek
    revert hp
    rcases s.peek with ⟨c, s'⟩
    intro hp
    cases c with
    | none => exact hp.get
    | some c =>
      dsimp only
      split
      · exact hp.get
      · exact ih hp.get

theorem Kept.acceptGo (cs : List (Char → Bool)) : ∀ {s : IStr}, Kept s0 s → Kept s0 (IStr.accept.go cs s).2 := by
  induction cs with
  | nil => intro s h; exact h
  | cons p cs ih =>
    intro s h
    unfold IStr.accept.go
    have hp := h.peek
    revert hp
    rcases s.peek with ⟨c, s'⟩
    intro hp
    cases c with
    | none => exact ih hp
    | some c =>
      dsimp only
      split
      · exact hp.get
      · exact ih hp

theorem Kept.accept (cs : List (Char → Bool)) (h : Kept s0 s) : Kept s0 (s.accept cs).2 := by
  unfold IStr.accept
  by_cases ho : s.ok = true
  · rw [if_pos ho]; exact h.acceptGo cs
  · rw [if_neg ho]; exact h

theorem Kept.readDigits (l : List Char) : ∀ {s : IStr}, Kept s0 s → Kept s0 (readDigits l s).2 := by
  induction l with
  | nil =>
    intro s h
    unfold P1788.readDigits
    by_cases ho : s.ok = true
    · rw [if_pos ho]; exact h.peek
    · rw [if_neg ho]; exact h
  | cons a l ih =>
    intro s h
    unfold P1788.readDigits
    by_cases ho : s.ok = true
    · rw [if_pos ho]
      have hp := h.peek
      revert hp
      rcases s.peek with ⟨c, s'⟩
      intro hp
      cases c with
      | none => exact hp
      | some c =>
        dsimp only
        split
        · exact ih hp.get
        · exact hp
    · rw [if_neg ho]; exact h

theorem Kept.readNumber (l : List Char) : ∀ {s : IStr}, Kept s0 s → Kept s0 (readNumber l s).2 := by
  induction l with
  | nil => intro s h; exact h.peek
  | cons a l ih =>
    intro s h
    unfold P1788.readNumber
    have hp := h.peek
    revert hp
    rcases s.peek with ⟨c, s'⟩
    intro hp
    cases c with
    | none => exact hp
    | some c =>
      dsimp only
      split
      · split
        · exact hp.get
        · exact ih hp.get
      · exact hp

theorem Kept.readUncertain (h : Kept s0 s) : Kept s0 (readUncertain s).2 := by
  unfold P1788.readUncertain
  have h1 := h.readNumber s.rest
  revert h1
  rcases P1788.readNumber s.rest s with ⟨a, s1⟩
  intro h1
  dsimp only at h1 ⊢
  have h2 := h1.accept [fun c => c = '?']
  revert h2
  rcases s1.accept [fun c => c = '?'] with ⟨b, s2⟩
  intro h2
  dsimp only at h2 ⊢
  have h3 : Kept s0 (if b = [] then P1788.readDigits s2.rest s2 else (b, s2)).2 := by
    split
    · exact h2.readDigits _
    · exact h2
  revert h3
  rcases (if b = [] then P1788.readDigits s2.rest s2 else (b, s2)) with ⟨b', s3⟩
  intro h3
  dsimp only at h3 ⊢
  have h4 := h3.accept [fun c => c = 'd', fun c => c = 'D', fun c => c = 'u', fun c => c = 'U']
  revert h4
  rcases s3.accept [fun c => c = 'd', fun c => c = 'D', fun c => c = 'u', fun c => c = 'U'] with ⟨d, s4⟩
  intro h4
  dsimp only at h4 ⊢
  have h5 := h4.accept [fun c => c = 'e', fun c => c = 'E']
  revert h5
  rcases s4.accept [fun c => c = 'e', fun c => c = 'E'] with ⟨e, s5⟩
  intro h5
  dsimp only at h5 ⊢
  split
  · exact h5
  · have h6 : Kept s0 (if s5.good then s5.accept [fun c => c = '-', fun c => c = '+'] else ([], s5)).2 := by
      split
      · exact h5.accept _
      · exact h5
    revert h6
    rcases (if s5.good then s5.accept [fun c => c = '-', fun c => c = '+'] else ([], s5)) with ⟨g, s6⟩
    intro h6
    dsimp only at h6 ⊢
    split
    · exact h6.readDigits _
    · exact h6

/-- Reading an interval keeps the settings and sets the eofbit only at the end. -/
theorem Kept.readItv {φ : Fmt} (h : Kept s0 s) {x : Option DItv} {s' : IStr} (hr : φ.readItv s = .ok (x, s')) : Kept s0 s' := by
  unfold Fmt.readItv at hr
  have h1 := h.skipWs
  revert h1 hr
  generalize (if s.skipws then P1788.removeWs s else s) = s1
  intro hr h1
  dsimp only at hr
  by_cases ho : s1.ok = true
  · rw [if_pos ho] at hr
    have h2 := h1.peek
    revert h2 hr
    rcases s1.peek with ⟨c, s2⟩
    intro hr h2
    dsimp only at h2 hr
    by_cases hc : c = some '['
    · rw [if_pos hc] at hr
      have h3 := h2.readBracket s2.rest
      revert h3 hr
      rcases P1788.readBracket s2.rest s2 with ⟨inp, s3⟩
      intro hr h3
      dsimp only at h3 hr
      by_cases ho3 : s3.ok = true
      · rw [if_pos ho3] at hr
        cases hm : Rx.infSup.matchAll inp with
        | none => rw [hm] at hr; cases hr; exact h3.setFail
        | some m =>
          rw [hm] at hr
          obtain ⟨⟨bare, dec⟩, -, hb⟩ := Std.bind_ok hr
          dsimp only at hb
          split at hb
          · have := Std.ok.inj hb
            have h4 := h3.finishDec bare dec
            rw [this] at h4
            exact h4
          · cases hb; exact h3.setFail
      · rw [if_neg ho3] at hr; cases hr; exact h3.setFail
    · rw [if_neg hc] at hr
      have h3 : Kept s0 (if s2.ok then (s2.peek.1.any (fun c => c = '+' || c = '-' || c = '.' || isDigit c), s2.peek.2) else (false, s2)).2 := by
        split
        · exact h2.peek
        · exact h2
      revert h3 hr
      rcases (if s2.ok then (s2.peek.1.any (fun c => c = '+' || c = '-' || c = '.' || isDigit c), s2.peek.2) else (false, s2)) with ⟨b, s3⟩
      intro hr h3
      dsimp only at h3 hr
      by_cases hb : b = true
      · rw [if_pos hb] at hr
        have h4 := h3.readUncertain
        revert h4 hr
        rcases P1788.readUncertain s3 with ⟨inp, s4⟩
        intro hr h4
        dsimp only at h4 hr
        by_cases ho4 : (s4.ok || s4.eof) = true
        · rw [if_pos ho4] at hr
          cases hm : Rx.uncertain.matchAll inp with
          | none => rw [hm] at hr; cases hr; exact h4.setFail
          | some m =>
            rw [hm] at hr
            obtain ⟨a, -, ha⟩ := Std.bind_ok hr
            cases a with
            | none => cases ha; exact h4.setFail
            | some p =>
              obtain ⟨bare, dec⟩ := p
              dsimp only at ha
              split at ha
              · have := Std.ok.inj ha
                have h5 := h4.finishDec bare dec
                rw [this] at h5
                exact h5
              · cases ha; exact h4.setFail
        · rw [if_neg ho4] at hr; cases hr; exact h4.setFail
      · rw [if_neg hb] at hr; cases hr; exact h3.setFail
  · rw [if_neg ho] at hr; cases hr; exact h1.setFail

end P1788
