import Verif.Lemmas.TextStream

/-! # Reading a literal: what the parser does in terms of the grammar -/

namespace P1788

variable {s0 s : IStr} {r : List Char} {φ : Fmt}

/-! ## The decoration -/

theorem finish_plain (bare : Itv) (dec : Dec) (h : St s0 r s) (hr : r.head? ≠ some '_') :
    ∃ s', finishDec bare dec s = (some (if dec = .ill then DItv.nai else bare.newDec), s') ∧ s'.ok = true ∧ s'.rest = r := by
  have key : ∃ s1, (if s.ok = true then (decide (s.peek.1 = some '_'), s.peek.2) else (false, s)) = (false, s1) ∧ s1.rest = r ∧
      (s1.eof = true ∨ s1.ok = true) := by
    cases r with
    | nil =>
      obtain ⟨h1, h2, h3⟩ := h.peek_end
      by_cases ho : s.ok = true
      · rw [if_pos ho, h1]
        exact ⟨_, rfl, h2.rest, Or.inl h3⟩
      · rw [if_neg ho]
        refine ⟨_, rfl, h.rest, Or.inl ?_⟩
        rcases h.state with hg | ⟨-, he⟩
        · exact absurd (good_ok hg) ho
        · exact he
    | cons c r =>
      have ho := good_ok h.good
      rw [if_pos ho, h.peek]
      have hc : c ≠ '_' := by rintro rfl; exact hr rfl
      exact ⟨s, by simp [hc], h.rest, Or.inr ho⟩
  obtain ⟨s1, e1, hr1, hs1⟩ := key
  unfold finishDec
  rw [e1]
  simp only [Bool.not_false, if_true]
  refine ⟨_, rfl, ?_⟩
  by_cases he : s1.eof = true
  · rw [if_pos he]; exact ⟨rfl, hr1⟩
  · rw [if_neg he]
    rcases hs1 with h | h
    · exact absurd h he
    · exact ⟨h, hr1⟩

theorem finish_dec (bare : Itv) (dec : Dec) (h : St s0 ('_' :: r) s) :
    (∀ d t, StartsWith s0.base ({ s0 with rest := r } : IStr).content d t → dec ≠ .ill → d ≤ dec → d ≠ .ill →
      ∃ s', finishDec bare dec s = (some (bare.setDecV (if bare.lo.isInf || bare.hi.isInf then d.min .dac else d)), s') ∧
        s'.ok = true ∧ s'.rest = t) ∧
    ((finishDec bare dec s).2.ok = true → ∃ d t, StartsWith s0.base ({ s0 with rest := r } : IStr).content d t ∧ dec ≠ .ill ∧
      d ≤ dec ∧ d ≠ .ill) := by
  have ho := good_ok h.good
  have hg := h.get
  have hgood : s.get.good = true := by
    have := h.good
    unfold IStr.get; rw [this, h.rest]; simpa [IStr.good] using this
  have hc : s.get.content = ({ s0 with rest := r } : IStr).content := by
    unfold IStr.content
    rw [hg.rest, hg.skip]
  obtain ⟨R1, R2⟩ := C39_read hgood .ill
  rw [hc, hg.base] at R1 R2
  unfold finishDec
  rw [if_pos ho, h.peek]
  simp only [decide_true, Bool.not_true, Bool.false_eq_true, if_false, ho, Bool.true_and]
  by_cases hd : dec = .ill
  · subst hd
    simp [IStr.ok, IStr.setFail]
  · simp only [ne_eq, hd, not_false_eq_true, decide_true, if_true]
    constructor
    · intro d t hst _ hle hne
      obtain ⟨r1, r2, r3⟩ := R1 d t hst
      have hcond : ((Dec.read s.get .ill).2.ok && decide ((Dec.read s.get .ill).1 ≤ dec) && decide ((Dec.read s.get .ill).1 ≠ .ill)) = true := by
        rw [r1, r3]; simp [hle, hne]
      have hcond' : ((Dec.read s.get .ill).2.ok && decide ((Dec.read s.get .ill).1 ≤ dec) && decide (¬ (Dec.read s.get .ill).1 = .ill)) = true := hcond
      rw [if_pos hcond', r1]
      exact ⟨_, rfl, r3, r2⟩
    · intro hk
      by_cases hcond : ((Dec.read s.get .ill).2.ok && decide ((Dec.read s.get .ill).1 ≤ dec) && decide (¬ (Dec.read s.get .ill).1 = .ill)) = true
      · simp only [Bool.and_eq_true, decide_eq_true_eq] at hcond
        by_cases hex : ∃ d t, StartsWith s0.base ({ s0 with rest := r } : IStr).content d t
        · obtain ⟨d, t, hst⟩ := hex
          obtain ⟨r1, -, -⟩ := R1 d t hst
          rw [r1] at hcond
          exact ⟨d, t, hst, trivial, hcond.1.2, hcond.2⟩
        · push Not at hex
          obtain ⟨-, r2⟩ := R2 hex
          exfalso
          have := hcond.1.1
          simp [IStr.ok, r2] at this
      · rw [if_neg hcond] at hk
        simp [IStr.ok, IStr.setFail] at hk

theorem finish_dec_fail {bare : Itv} {dec : Dec} (h : St s0 ('_' :: r) s) (hf : (finishDec bare dec s).2.ok = false) :
    (finishDec bare dec s).1 = none := by
  have ho := good_ok h.good
  unfold finishDec at hf ⊢
  rw [if_pos ho, h.peek] at hf ⊢
  simp only [decide_true, Bool.not_true, Bool.false_eq_true, if_false, ho, Bool.true_and] at hf ⊢
  split_ifs at hf ⊢ with h1 h2
  all_goals first
    | rfl
    | (simp only [Bool.and_eq_true] at h2; rw [h2.1.1] at hf; exact Bool.noConfusion hf)

/-! ## The literal -/

theorem St.start (h : s.good = true) : St s s.content (if s.skipws then removeWs s else s) ∧ (if s.skipws then removeWs s else s).ok = true := by
  have hf : s.fail = false ∧ s.bad = false ∧ s.eof = false := by
    simp only [IStr.good, Bool.and_eq_true, Bool.not_eq_true'] at h; exact ⟨h.1.2, h.2, h.1.1⟩
  unfold IStr.content
  by_cases hk : s.skipws = true
  · rw [if_pos hk, removeWs_good h, if_pos hk]
    refine ⟨⟨rfl, hf.2.1, rfl, rfl, ?_⟩, by simp [IStr.ok, hf]⟩
    cases hr : s.rest.dropWhile isSpace with
    | nil => exact Or.inr ⟨rfl, rfl⟩
    | cons c l => exact Or.inl (by simp [IStr.good, hf])
  · rw [if_neg hk, if_neg hk]
    exact ⟨⟨rfl, hf.2.1, rfl, rfl, Or.inl h⟩, good_ok h⟩

/-- After a bracket. -/
def afterBracket (φ : Fmt) (input : List Char) (s : IStr) : Std (Option DItv × IStr) :=
  match Rx.infSup.matchAll input with
  | some m => do
    let (bare, dec) ← φ.args m
    if Fmt.textOk bare then return finishDec bare dec s
    return (none, s.setFail)
  | none => .ok (none, s.setFail)

/-- After an uncertain number. -/
def afterUncertain (φ : Fmt) (input : List Char) (s : IStr) : Std (Option DItv × IStr) :=
  match Rx.uncertain.matchAll input with
  | some m => do
    match ← φ.uncertainArg m with
    | some (bare, dec) =>
      if boundsOk bare.lo bare.hi then return finishDec bare dec s
      return (none, s.setFail)
    | none => return (none, s.setFail)
  | none => .ok (none, s.setFail)

theorem readItv_bracket (hs : s.good = true) {p : List Char} (hp : ']' ∉ p) (hc : s.content = '[' :: (p ++ ']' :: r)) :
    ∃ s2, St s r s2 ∧ φ.readItv s = afterBracket φ ('[' :: (p ++ [']'])) s2 := by
  obtain ⟨h1, h2⟩ := St.start hs
  rw [hc] at h1
  unfold Fmt.readItv
  generalize (if s.skipws = true then removeWs s else s) = s1 at h1 h2
  simp only [h2, if_true, h1.peek, h1.rest]
  have h1' : St s (('[' :: p) ++ ']' :: r) s1 := h1
  obtain ⟨b1, b2, b3⟩ := h1'.bracket (by simp [hp])
  simp only [List.cons_append] at b1 b2 b3
  rw [b1, if_pos (good_ok b3)]
  exact ⟨_, b2, rfl⟩

theorem readItv_open (hs : s.good = true) (hp : ']' ∉ s.content) (hc : s.content.head? = some '[') :
    ∃ s2, φ.readItv s = .ok (none, s2) ∧ s2.ok = false := by
  obtain ⟨h1, h2⟩ := St.start hs
  generalize s.content = l at *
  cases l with
  | nil => simp at hc
  | cons c l =>
    simp only [List.head?_cons, Option.some.injEq] at hc; subst hc
    unfold Fmt.readItv
    generalize (if s.skipws = true then removeWs s else s) = s1 at h1 h2
    simp only [h2, if_true, h1.peek, h1.rest]
    rw [if_neg (by rw [h1.bracket_none hp]; simp)]
    exact ⟨_, rfl, by simp [IStr.ok, IStr.setFail]⟩

theorem readItv_other (hs : s.good = true) (hc : ∀ c, s.content.head? = some c → c ≠ '[' ∧
    (c = '+' || c = '-' || c = '.' || isDigit c) = false) : ∃ s2, φ.readItv s = .ok (none, s2) ∧ s2.ok = false := by
  obtain ⟨h1, h2⟩ := St.start hs
  unfold Fmt.readItv
  generalize (if s.skipws = true then removeWs s else s) = s1 at h1 h2
  generalize s.content = l at *
  cases l with
  | nil =>
    obtain ⟨k1, k2, k3⟩ := h1.peek_end
    obtain ⟨l1, l2, l3⟩ := k2.peek_end
    simp only [h2, if_true, k1, l1, Option.any_none]
    rw [if_neg (by simp), if_neg (by split <;> simp)]
    exact ⟨_, rfl, by simp [IStr.ok, IStr.setFail]⟩
  | cons c l =>
    obtain ⟨c1, c2⟩ := hc c rfl
    simp only [h2, if_true, h1.peek, Option.some.injEq, c1, if_false, Option.any_some, c2, Bool.false_eq_true]
    exact ⟨_, rfl, by simp [IStr.ok, IStr.setFail]⟩

theorem readItv_unc (hs : s.good = true) {c : Char} (hh : s.content.head? = some c) (hc : c ≠ '[')
    (hc' : (c = '+' || c = '-' || c = '.' || isDigit c) = true) :
    ∃ s2, St s (uncL s.content).2 s2 ∧ φ.readItv s = afterUncertain φ (uncL s.content).1 s2 := by
  obtain ⟨h1, h2⟩ := St.start hs
  unfold Fmt.readItv
  generalize (if s.skipws = true then removeWs s else s) = s1 at h1 h2
  generalize s.content = l at *
  cases l with
  | nil => simp at hh
  | cons c' l =>
    simp only [List.head?_cons, Option.some.injEq] at hh; subst hh
    simp only [h2, if_true, h1.peek, Option.some.injEq, hc, if_false, Option.any_some, hc']
    obtain ⟨u1, u2⟩ := h1.uncertain
    rw [u1, if_pos]
    · exact ⟨_, u2, rfl⟩
    · rcases u2.state with h | h
      · simp [good_ok h]
      · simp [h.2]

/-- A consistent literal with numbers the library can read. -/
theorem readItv_pos (hs : s.good = true) {b : List Char} {D : Denot} {N : List NumInfo} (hc : s.content = b ++ r) (hb : BodyText b D N)
    (hD : D.Consistent) (hN : ∀ n ∈ N, n.Supported) (hr : TailStart r) :
    ∃ bare s2, φ.readItv s = .ok (finishDec bare D.dec s2) ∧ St s r s2 ∧ Tightest φ bare D.set := by
  by_cases hh : b.head? = some '['
  · obtain ⟨p, rfl, hp⟩ := hb.bracket hh
    have hc' : s.content = '[' :: (p ++ ']' :: r) := by rw [hc]; simp
    obtain ⟨s2, h2, e⟩ := readItv_bracket (φ := φ) hs hp hc'
    rw [e]
    obtain ⟨k, hk⟩ := Rx.infSup_of_body hb hh
    obtain ⟨D', N', hb', -, ev⟩ := Rx.infSup_spec φ hk
    obtain ⟨rfl, rfl⟩ := hb.unique hb'
    obtain ⟨x, ex, ok, ht⟩ := ev.1 ⟨hD, hN⟩
    refine ⟨x, s2, ?_, h2, ht⟩
    unfold afterBracket
    rw [hk]
    simp only [ex]
    change (if Fmt.textOk x = true then _ else _) = _
    rw [if_pos ok]; rfl
  · rcases hb.shape with ⟨w1, w, w2, rfl, -⟩ | ⟨w1, a, w2, w3, b, w4, l, u, M, M', rfl, -⟩ |
      ⟨sg, m, q, d, x, sg, v, k, e, ρ, rd, lo, hi, rfl, hsg, hm, hq, hd, hx, -⟩
    · exact absurd rfl hh
    · exact absurd rfl hh
    have hU := uncL_body (t := r) hsg hm hq hd hx hr
    rename_i s'
    obtain ⟨c, hcc⟩ : ∃ c, (s' ++ m).head? = some c := by
      cases hsm : s' ++ m with
      | nil => exact absurd (List.append_eq_nil_iff.mp hsm).2 hm.ne_nil
      | cons c l => exact ⟨c, rfl⟩
    have hne : s' ++ m ≠ [] := by intro h; rw [h] at hcc; simp at hcc
    have hcm : Rx.isSign c = true ∨ isDigit c = true ∨ c = '.' := by
      rcases List.mem_append.mp (mem_of_head? hcc) with h | h
      · exact Or.inl (hsg.char c h)
      · exact Or.inr (hm.char10 c h)
    have hhead : s.content.head? = some c := by
      rw [hc, List.append_assoc, head_append_of_ne hne, hcc]
    obtain ⟨s2, h2, e2⟩ := readItv_unc (φ := φ) hs hhead
      (by rintro rfl; rcases hcm with h | h | h <;> exact absurd h (by decide))
      (by
        rcases hcm with h | h | h
        · rcases isSign_iff.mp h with rfl | rfl <;> decide
        · simp [h]
        · simp [h])
    rw [hc, hU] at h2 e2
    rw [e2]
    obtain ⟨k, hk⟩ := Rx.uncertain_of_body hb hh
    obtain ⟨D', N', hb', ev⟩ := Rx.uncertain_spec φ hk
    obtain ⟨rfl, rfl⟩ := hb.unique hb'
    obtain ⟨x, ex, ok, ht⟩ := ev.1 ⟨hD, hN⟩
    refine ⟨x, s2, ?_, h2, ht⟩
    unfold afterUncertain
    simp only [hk, ex]
    change (if boundsOk x.lo x.hi = true then _ else _) = _
    rw [if_pos ok]; rfl

/-- If reading ends normally, it fails and yields nothing, or the text starts with such a literal. -/
theorem readItv_cases (hs : s.good = true) {x : Option DItv} {s' : IStr} (h : φ.readItv s = .ok (x, s')) :
    (x = none ∧ s'.ok = false) ∨ ∃ b r D N bare s2, s.content = b ++ r ∧ BodyText b D N ∧ D.Consistent ∧ (∀ n ∈ N, n.Supported) ∧ St s r s2 ∧ Tightest φ bare D.set ∧
      (x, s') = finishDec bare D.dec s2 := by
  have absf : ∀ {t : IStr}, (Std.ok (none, t.setFail) : Std (Option DItv × IStr)) = .ok (x, s') → (x = none ∧ s'.ok = false) := by
    intro t e
    simp only [Std.ok.injEq, Prod.mk.injEq] at e
    rw [← e.2, ← e.1]; simp [IStr.ok, IStr.setFail]
  have absn : ∀ {s2 : IStr}, φ.readItv s = .ok (none, s2) → s2.ok = false → (x = none ∧ s'.ok = false) := by
    intro s2 e1 e2
    rw [h] at e1
    simp only [Std.ok.injEq, Prod.mk.injEq] at e1
    rw [e1.1, e1.2]; exact ⟨rfl, e2⟩
  by_cases hh : s.content.head? = some '['
  · by_cases hp : ']' ∈ s.content
    · obtain ⟨p, r, hpr, hp'⟩ : ∃ p r, s.content = '[' :: (p ++ ']' :: r) ∧ ']' ∉ p := by
        generalize s.content = l at *
        cases l with
        | nil => simp at hh
        | cons c l =>
          simp only [List.head?_cons, Option.some.injEq] at hh; subst hh
          have hp2 : ']' ∈ l := by
            rcases List.mem_cons.mp hp with h | h
            · exact absurd h (by decide)
            · exact h
          obtain ⟨p, r, e, hn⟩ := List.eq_append_cons_of_mem hp2
          exact ⟨p, r, by rw [e], hn⟩
      obtain ⟨s2, h2, e⟩ := readItv_bracket (φ := φ) hs hp' hpr
      rw [e] at h
      unfold afterBracket at h
      cases hk : Rx.infSup.matchAll ('[' :: (p ++ [']'])) with
      | none => rw [hk] at h; exact Or.inl (absf h)
      | some k =>
        simp only [hk] at h
        obtain ⟨D, N, hb, -, ev⟩ := Rx.infSup_spec φ hk
        generalize φ.args k = ev0 at ev h
        cases ev0 with
        | outOfRange => exact Std.noConfusion rfl (heq_of_eq h)
        | ub => exact Std.noConfusion rfl (heq_of_eq h)
        | ok y =>
          obtain ⟨bare, dec⟩ := y
          change (if Fmt.textOk bare = true then Std.ok (finishDec bare dec s2) else Std.ok (none, s2.setFail)) = _ at h
          by_cases hDN : D.Consistent ∧ ∀ n ∈ N, n.Supported
          · obtain ⟨x', ex, ok, ht⟩ := ev.1 hDN
            simp only [Std.ok.injEq, Prod.mk.injEq] at ex
            obtain ⟨rfl, rfl⟩ := ex
            rw [if_pos ok] at h
            refine Or.inr ⟨_, r, D, N, bare, s2, ?_, hb, hDN.1, hDN.2, h2, ht, ?_⟩
            · rw [hpr]; simp
            · simp only [Std.ok.injEq] at h; exact h.symm
          · rw [if_neg (by rw [ev.2.1 hDN bare dec rfl]; simp)] at h
            exact Or.inl (absf h)
    · obtain ⟨s2, e1, e2⟩ := readItv_open (φ := φ) hs hp hh
      exact Or.inl (absn e1 e2)
  · by_cases hu : ∃ c, s.content.head? = some c ∧ (c = '+' || c = '-' || c = '.' || isDigit c) = true
    · obtain ⟨c, hc, hc'⟩ := hu
      obtain ⟨s2, h2, e⟩ := readItv_unc (φ := φ) hs hc (by rintro rfl; exact hh hc) hc'
      rw [e] at h
      unfold afterUncertain at h
      cases hk : Rx.uncertain.matchAll (uncL s.content).1 with
      | none => rw [hk] at h; exact Or.inl (absf h)
      | some k =>
        simp only [hk] at h
        obtain ⟨D, N, hb, ev⟩ := Rx.uncertain_spec φ hk
        generalize φ.uncertainArg k = ev0 at ev h
        cases ev0 with
        | outOfRange => exact Std.noConfusion rfl (heq_of_eq h)
        | ub => exact Std.noConfusion rfl (heq_of_eq h)
        | ok y =>
          cases y with
          | none =>
            change (Std.ok (none, s2.setFail) : Std _) = _ at h
            exact Or.inl (absf h)
          | some y =>
            obtain ⟨bare, dec⟩ := y
            change (if boundsOk bare.lo bare.hi = true then Std.ok (finishDec bare dec s2) else Std.ok (none, s2.setFail)) = _ at h
            by_cases hDN : D.Consistent ∧ ∀ n ∈ N, n.Supported
            · obtain ⟨x', ex, ok, ht⟩ := ev.1 hDN
              simp only [Std.ok.injEq, Option.some.injEq, Prod.mk.injEq] at ex
              obtain ⟨rfl, rfl⟩ := ex
              rw [if_pos ok] at h
              refine Or.inr ⟨_, _, D, N, bare, s2, (uncL_append _).symm, hb, hDN.1, hDN.2, h2, ht, ?_⟩
              simp only [Std.ok.injEq] at h; exact h.symm
            · exact absurd rfl (ev.2.1 hDN _)
    · push Not at hu
      obtain ⟨s2, e1, e2⟩ := readItv_other (φ := φ) hs fun c hc => ⟨by rintro rfl; exact hh hc, by simpa using hu c hc⟩
      exact Or.inl (absn e1 e2)

/-- Reading ends normally unless the text starts with a literal with an exponent out of range. -/
theorem readItv_total (hs : s.good = true) (h : ∀ y, φ.readItv s ≠ .ok y) :
    ∃ b r D N, s.content = b ++ r ∧ BodyText b D N ∧ ∃ n ∈ N, ¬ n.InRange := by
  by_cases hh : s.content.head? = some '['
  · by_cases hp : ']' ∈ s.content
    · obtain ⟨p, r, hpr, hp'⟩ : ∃ p r, s.content = '[' :: (p ++ ']' :: r) ∧ ']' ∉ p := by
        generalize s.content = l at *
        cases l with
        | nil => simp at hh
        | cons c l =>
          simp only [List.head?_cons, Option.some.injEq] at hh; subst hh
          have hp2 : ']' ∈ l := by
            rcases List.mem_cons.mp hp with h | h
            · exact absurd h (by decide)
            · exact h
          obtain ⟨p, r, e, hn⟩ := List.eq_append_cons_of_mem hp2
          exact ⟨p, r, by rw [e], hn⟩
      obtain ⟨s2, h2, e⟩ := readItv_bracket (φ := φ) hs hp' hpr
      rw [e] at h
      unfold afterBracket at h
      cases hk : Rx.infSup.matchAll ('[' :: (p ++ [']'])) with
      | none => simp only [hk] at h; exact absurd rfl (h _)
      | some k =>
        simp only [hk] at h
        obtain ⟨D, N, hb, -, ev⟩ := Rx.infSup_spec φ hk
        refine ⟨_, r, D, N, by rw [hpr]; simp, hb, ?_⟩
        by_contra hn
        push Not at hn
        obtain ⟨⟨bare, dec⟩, hy⟩ := ev.2.2 hn
        rw [hy] at h
        by_cases hb : Fmt.textOk bare = true
        · exact h (finishDec bare dec s2) (by change (if Fmt.textOk bare = true then _ else _) = _; rw [if_pos hb]; rfl)
        · exact h (none, s2.setFail) (by change (if Fmt.textOk bare = true then _ else _) = _; rw [if_neg hb]; rfl)
    · obtain ⟨s2, e1, e2⟩ := readItv_open (φ := φ) hs hp hh
      exact absurd e1 (h _)
  · by_cases hu : ∃ c, s.content.head? = some c ∧ (c = '+' || c = '-' || c = '.' || isDigit c) = true
    · obtain ⟨c, hc, hc'⟩ := hu
      obtain ⟨s2, h2, e⟩ := readItv_unc (φ := φ) hs hc (by rintro rfl; exact hh hc) hc'
      rw [e] at h
      unfold afterUncertain at h
      cases hk : Rx.uncertain.matchAll (uncL s.content).1 with
      | none => simp only [hk] at h; exact absurd rfl (h _)
      | some k =>
        simp only [hk] at h
        obtain ⟨D, N, hb, ev⟩ := Rx.uncertain_spec φ hk
        refine ⟨_, _, D, N, (uncL_append _).symm, hb, ?_⟩
        by_contra hn
        push Not at hn
        obtain ⟨y, hy⟩ := ev.2.2 hn
        rw [hy] at h
        cases y with
        | none => exact h (none, s2.setFail) rfl
        | some y =>
          obtain ⟨bare, dec⟩ := y
          by_cases hb : boundsOk bare.lo bare.hi = true
          · exact h (finishDec bare dec s2) (by change (if boundsOk bare.lo bare.hi = true then _ else _) = _; rw [if_pos hb]; rfl)
          · exact h (none, s2.setFail) (by change (if boundsOk bare.lo bare.hi = true then _ else _) = _; rw [if_neg hb]; rfl)
    · push Not at hu
      obtain ⟨s2, e1, e2⟩ := readItv_other (φ := φ) hs fun c hc => ⟨by rintro rfl; exact hh hc, by simpa using hu c hc⟩
      exact absurd e1 (h _)

end P1788
