import Verif.Lemmas.TextRead
import Verif.Props.C34

/-!
# C38 Reading interval literals is safe

The grammar and the meaning of literals are in `Verif/SpecText.lean`; uniqueness of the meaning is `C38_unique`.
-/

namespace P1788
open Bornology
variable {φ : Fmt}

/-- What a literal that denotes `D` with the decoration `d` must yield: a proper decorated interval, NaI for NaI, otherwise the tightest interval around
the denoted set with that decoration, except that `com` becomes `dac` if the interval is unbounded (because a bound
overflows). -/
def LiteralResult (φ : Fmt) (x : DItv) (D : Denot) (d : Dec) : Prop :=
  x.Ok φ ∧ (D = .nai → x.IsNaI) ∧
  (D ≠ .nai → Tightest φ x.itv D.set ∧ (d = .com ∧ ¬ IsBounded x.set → x.dec = .dac) ∧ (¬(d = .com ∧ ¬ IsBounded x.set) → x.dec = d))

/-! ### Decorations -/

/-- The decoration of a literal: the strongest one if nothing is given. -/
def DecTail (D : Denot) (t : List Char) (d : Dec) : Prop :=
  t = [] ∧ d = D.dec ∨ ∃ w1 u, t = '_' :: (w1 ++ u) ∧ IsWs w1 ∧ DecText u d ∧ D ≠ .nai ∧ d ≤ D.dec ∧ d ≠ .ill

theorem decName_iff {w : List Char} {d : Dec} :
    (w.map Char.toLower, d) ∈ [("ill".toList, Dec.ill), ("trv".toList, .trv), ("def".toList, .defd), ("dac".toList, .dac), ("com".toList, .com)] ↔
      w.map Char.toLower = d.name := by
  generalize w.map Char.toLower = v
  cases d <;> simp [Dec.name]

theorem decCode_iff {n : ℕ} {d : Dec} : (n, d) ∈ [(0, Dec.ill), (4, .trv), (8, .defd), (12, .dac), (16, .com)] ↔ n = d.code := by
  cases d <;> simp [Dec.code]

theorem startsWith_of_decText {u r : List Char} {d : Dec} (h : DecText u d) (hr : ∀ c, r.head? = some c → isSpace c = true) :
    StartsWith .dec (u ++ r) d r := by
  rcases h with h | ⟨h1, h2, h3⟩
  · exact Or.inl ⟨u, rfl, decName_iff.mp h⟩
  · refine Or.inr ⟨u, ?_, rfl, h1, isDigits_iff (b := .dec) |>.mp h2, fun c hc => ?_, ?_⟩
    · cases u with
      | nil => exact absurd rfl h1
      | cons c u => simpa using isDigits_ten.mp h2 c (by simp)
    · rw [← isDigit_eq]; exact (space_facts (Or.inr (hr c hc))).1
    · rw [digitsVal_eq (b := .dec) h2]; exact decCode_iff.mp h3

theorem decText_of_startsWith {l r : List Char} {d : Dec} (h : StartsWith .dec l d r) : ∃ u, l = u ++ r ∧ DecText u d := by
  rcases h with ⟨w, h1, h2⟩ | ⟨w, -, h1, h2, h3, -, h5⟩
  · exact ⟨w, h1, Or.inl (decName_iff.mpr h2)⟩
  · exact ⟨w, h1, Or.inr ⟨h2, isDigits_iff (b := .dec) |>.mpr h3, decCode_iff.mpr (by rw [← h5, digitsVal_eq (b := .dec) (isDigits_iff.mpr h3)]; rfl)⟩⟩

theorem decText_head {u : List Char} {d : Dec} (h : DecText u d) : ∃ c v, u = c :: v ∧ isSpace c = false := by
  have hc : Core u ∧ u ≠ [] := by
    rcases h with h | ⟨h1, h2, -⟩
    · rw [decName_iff] at h
      refine ⟨Core.of_all fun c hc => (lower_letter h (by cases d <;> decide) c hc).1, ?_⟩
      rintro rfl; cases d <;> simp [Dec.name] at h
    · exact ⟨Core.of_all fun c hc => digit_not_space (isDigits_ten.mp h2 c hc), h1⟩
  cases u with
  | nil => exact absurd rfl hc.2
  | cons c v => exact ⟨c, v, rfl, hc.1.1 c rfl⟩

/-! ### The result -/

theorem dec_ne_ill {D : Denot} (h : D ≠ .nai) : D.dec ≠ .ill := by
  cases D with
  | nai => exact absurd rfl h
  | empty => simp [Denot.dec]
  | bounds l u => rw [Denot.dec_bounds]; split_ifs <;> simp

/-- A denoted set with a missing bound is unbounded, and so is every interval around it. -/
theorem unbounded_of_dac {l u : Option ℚ} (h : (Denot.bounds l u).dec = .dac) {S : Set ℝ} (hS : (Denot.bounds l u).set ⊆ S) : ¬ IsBounded S := by
  intro hb
  obtain ⟨r, hr⟩ := hb.subset_closedBall 0
  rw [Real.closedBall_eq_Icc] at hr
  rw [Denot.dec_bounds] at h
  cases l with
  | none =>
    cases u with
    | none =>
      have := hr (hS (show |r| + 1 ∈ _ from ⟨by simp, by simp⟩))
      have h1 := le_abs_self r
      have h2 := this.2
      linarith
    | some q =>
      have := hr (hS (show min (q:ℝ) (-|r| - 1) ∈ _ from ⟨by simp, by simp⟩))
      have h1 := le_abs_self r
      have h2 := this.1
      have h3 := min_le_right (q:ℝ) (-|r| - 1)
      linarith
  | some q =>
    cases u with
    | none =>
      have := hr (hS (show max (q:ℝ) (|r| + 1) ∈ _ from ⟨by simp, by simp⟩))
      have h1 := le_abs_self r
      have h2 := this.2
      have h3 := le_max_right (q:ℝ) (|r| + 1)
      linarith
    | some p => simp at h

theorem bounds_nonempty {l u : Option ℚ} (h : (Denot.bounds l u).Consistent) : (Denot.bounds l u).set.Nonempty := by
  cases l with
  | none =>
    cases u with
    | none => exact ⟨0, by simp, by simp⟩
    | some q => exact ⟨q, by simp, by simp⟩
  | some q =>
    cases u with
    | none => exact ⟨q, by simp, by simp⟩
    | some p => exact ⟨q, by simp, by simpa using (Rat.cast_le (K := ℝ)).mpr h⟩

theorem bare_cases {bare : Itv} {D : Denot} (hD : D ≠ .nai) (hc : D.Consistent) (hT : Tightest φ bare D.set) :
    (D.dec = .trv ∧ bare = Itv.empty) ∨ (bare.NE φ ∧ (D.dec = .com ∨ D.dec = .dac ∧ ¬ IsBounded bare.set)) := by
  cases D with
  | nai => exact absurd rfl hD
  | empty =>
    left
    refine ⟨rfl, ?_⟩
    have := (tight_empty_iff hT).mpr rfl
    rcases hT.1.cases with h | h
    · exact h
    · rw [h.isEmpty] at this; exact Bool.noConfusion this
  | bounds l u =>
    right
    refine ⟨hT.ne (bounds_nonempty hc), ?_⟩
    by_cases hd : (Denot.bounds l u).dec = .dac
    · exact Or.inr ⟨hd, unbounded_of_dac hd hT.2.1⟩
    · left
      rw [Denot.dec_bounds] at hd ⊢
      split_ifs at hd ⊢
      · exact absurd rfl hd
      · rfl

theorem nai_ok : DItv.nai.Ok φ := ⟨Or.inl rfl, fun _ => Or.inl rfl, fun h => absurd rfl h, fun h => by simp [DItv.nai] at h⟩

theorem result_plain {bare : Itv} {D : Denot} (hc : D.Consistent) (hT : Tightest φ bare D.set) :
    LiteralResult φ (if D.dec = .ill then DItv.nai else bare.newDec) D D.dec := by
  by_cases hD : D = .nai
  · subst hD
    have e : (if Denot.nai.dec = .ill then DItv.nai else bare.newDec) = DItv.nai := rfl
    rw [e]
    exact ⟨nai_ok, fun _ => ⟨rfl, rfl⟩, fun h => absurd rfl h⟩
  · refine ⟨?_, fun h => absurd h hD, fun _ => ?_⟩
    · rw [if_neg (dec_ne_ill hD)]
      exact fresh_ok (by rw [newDec_itv]; exact hT.1) (newDec_fresh hT.1)
    rw [if_neg (dec_ne_ill hD)]
    have hf := newDec_fresh hT.1
    have hi := newDec_itv bare
    unfold Fresh at hf
    rw [DItv.set, hi] at hf
    rw [DItv.set, hi]
    refine ⟨hT, ?_⟩
    rcases bare_cases hD hc hT with ⟨h1, h2⟩ | ⟨h1, h2⟩
    · have h3 := hf.1 (by rw [h2, Itv.set_empty])
      rw [h1, h3]; simp
    · rcases h2 with h2 | ⟨h2, h3⟩
      · rw [h2]
        refine ⟨fun h => hf.2.2 h.2, fun h => hf.2.1 h1.nonempty ?_⟩
        by_contra hb; exact h ⟨rfl, hb⟩
      · rw [h2, hf.2.2 h3]; simp

theorem isInf_iff {bare : Itv} (h : bare.NE φ) : (bare.lo.isInf || bare.hi.isInf) = true ↔ ¬ IsBounded bare.set := by
  rw [h.bounded_iff]
  have h3 := h.lo_top
  have h4 := h.hi_bot
  rw [Ne, FP.toE_eq_top] at h3
  rw [Ne, FP.toE_eq_bot] at h4
  obtain ⟨l, u⟩ := bare
  cases l <;> cases u <;> simp_all [FP.isInf]

theorem result_dec {bare : Itv} {D : Denot} {d : Dec} (hD : D ≠ .nai) (hc : D.Consistent) (hT : Tightest φ bare D.set) (hd : d ≤ D.dec)
    (hd' : d ≠ .ill) : LiteralResult φ (bare.setDecV (if bare.lo.isInf || bare.hi.isInf then d.min .dac else d)) D d := by
  suffices (bare.setDecV (if bare.lo.isInf || bare.hi.isInf then d.min .dac else d)).Ok φ ∧ _ from
    ⟨this.1, fun h => absurd h hD, fun _ => this.2⟩
  rcases bare_cases hD hc hT with ⟨h1, rfl⟩ | ⟨h1, h2⟩
  · have : d = .trv := by
      rw [h1] at hd
      cases d <;> first | rfl | exact absurd rfl hd' | exact absurd hd (by decide)
    subst this
    have e : Itv.empty.setDecV (if Itv.empty.lo.isInf || Itv.empty.hi.isInf then Dec.trv.min .dac else .trv) = ⟨Itv.empty, .trv⟩ := by decide
    rw [e]
    exact ⟨⟨Or.inl rfl, fun _ => Or.inr rfl, fun h => absurd rfl h, fun h => by simp at h⟩, hT, by simp, by simp⟩
  · have hi := isInf_iff h1
    unfold Itv.setDecV
    by_cases hb : IsBounded bare.set
    · have hi' : ¬ ((bare.lo.isInf || bare.hi.isInf) = true) := fun h => hi.mp h hb
      have hb' := h1.bounded_iff.mp hb
      rw [if_neg hi', if_neg hd', h1.isEmpty]
      simp only [Bool.false_eq_true, if_false, Itv.feq_ninf, Itv.feq_pinf, hb'.1, hb'.2, decide_false, Bool.or_self, Bool.and_false]
      exact ⟨⟨hT.1, fun h => absurd h h1.ne_empty, fun _ => hd', fun _ => hb'⟩, hT, fun h => absurd hb h.2, fun _ => trivial⟩
    · have hi' : (bare.lo.isInf || bare.hi.isInf) = true := hi.mpr hb
      rw [if_pos hi', if_neg (Dec.min_ne_ill hd' (by simp)), h1.isEmpty]
      have hm : d.min .dac ≠ .com := by cases d <;> decide
      simp only [Bool.false_eq_true, if_false, hm, decide_false, Bool.false_and]
      refine ⟨⟨hT.1, fun h => absurd h h1.ne_empty, fun _ => Dec.min_ne_ill hd' (by simp), fun h => absurd h hm⟩, hT, ?_, fun h => ?_⟩
      · rintro ⟨rfl, -⟩; rfl
      · have : d ≠ .com := fun hc => h ⟨hc, hb⟩
        change d.min .dac = d
        cases d <;> first | rfl | exact absurd rfl this

/-! ### Streams -/

/-- Reading from a good stream (numbers in base 10): the text starts with a literal with a decoration, followed by nothing or by
white space. -/
theorem C38_stream_partial {s : IStr} (hs : s.good = true) (hb10 : s.base = .dec) {b t r : List Char} {D : Denot} {d : Dec}
    {N : List NumInfo} (hc : s.content = b ++ t ++ r) (hb : BodyText b D N) (hD : D.Consistent) (ht : DecTail D t d)
    (hsk : s.skipws = false → ∀ c ∈ t, isSpace c = false) (hr : ∀ c, r.head? = some c → isSpace c = true) (hN : ∀ n ∈ N, n.Supported) :
    ∃ x s', φ.readItv s = .ok (some x, s') ∧ s'.ok = true ∧ s'.rest = r ∧ LiteralResult φ x D d := by
  have hts : TailStart (t ++ r) := by
    intro c hcc
    rcases ht with ⟨rfl, -⟩ | ⟨w1, u, rfl, -⟩
    · exact Or.inr (hr c hcc)
    · simp at hcc; exact Or.inl hcc.symm
  obtain ⟨bare, s2, e, h2, hT⟩ := readItv_pos (φ := φ) hs (hc.trans (List.append_assoc ..)) hb hD hN hts
  rw [e]
  rcases ht with ⟨rfl, rfl⟩ | ⟨w1, u, rfl, hw, hu, hn, hle, hne⟩
  · obtain ⟨s', e1, e2, e3⟩ := finish_plain bare D.dec h2 (by
      intro h; have := hr _ h; exact absurd this (by decide))
    exact ⟨_, s', by rw [e1], e2, e3, result_plain hD hT⟩
  · obtain ⟨f1, -⟩ := finish_dec bare D.dec (r := w1 ++ u ++ r) h2
    have hct : ({ s with rest := w1 ++ u ++ r } : IStr).content = u ++ r := by
      unfold IStr.content
      obtain ⟨c, v, rfl, hcv⟩ := decText_head hu
      by_cases hk : s.skipws = true
      · rw [if_pos hk]
        simp only
        rw [List.append_assoc, dropWhile_all (isWs_iff.mp hw)]
        simp [List.dropWhile_cons, hcv]
      · rw [if_neg hk]
        simp only [Bool.not_eq_true] at hk
        have := hsk hk
        have : w1 = [] := by
          cases w1 with
          | nil => rfl
          | cons c' w1 =>
            have h1 := this c' (by simp)
            rw [isWs_iff.mp hw c' (by simp)] at h1; exact Bool.noConfusion h1
        subst this; rfl
    obtain ⟨s', e1, e2, e3⟩ := f1 d r (by rw [hct, hb10]; exact startsWith_of_decText hu hr) (dec_ne_ill hn) hle hne
    exact ⟨_, s', by rw [e1], e2, e3, result_dec hn hD hT hle hne⟩

/-- Reading from any good stream with numbers in base 10, if it ends normally: either the stream fails and the
argument is left alone, or exactly a literal has been read from the stream, and the argument is what the literal denotes. -/
theorem C38_stream_safe {s : IStr} (hs : s.good = true) (hb10 : s.base = .dec) {x : Option DItv} {s' : IStr} (h : φ.readItv s = .ok (x, s')) :
    (x = none ∧ s'.ok = false) ∨
    ∃ b t D d N y, x = some y ∧ s'.ok = true ∧ s.content = b ++ t ++ s'.rest ∧ BodyText b D N ∧ D.Consistent ∧ DecTail D t d ∧
      (∀ n ∈ N, n.Supported) ∧ LiteralResult φ y D d := by
  rcases readItv_cases hs h with h | ⟨b, r, D, N, bare, s2, hc, hb, hD, hN, h2, hT, e⟩
  · exact Or.inl h
  by_cases hr : r.head? = some '_'
  · obtain ⟨r', rfl⟩ : ∃ r', r = '_' :: r' := by
      cases r with
      | nil => simp at hr
      | cons c r => simp at hr; exact ⟨r, by rw [hr]⟩
    obtain ⟨f1, f2⟩ := finish_dec bare D.dec h2
    have f3 := finish_dec_fail (bare := bare) (dec := D.dec) h2
    rw [← e] at f2 f3
    by_cases ho : s'.ok = true
    swap
    · exact Or.inl ⟨f3 (by simpa using ho), by simpa using ho⟩
    obtain ⟨d, t, g1, g2, g3, g4⟩ := f2 ho
    obtain ⟨s3, e1, e2, e3⟩ := f1 d t g1 g2 g3 g4
    rw [← e] at e1
    simp only [Prod.mk.injEq] at e1
    obtain ⟨rfl, rfl⟩ := e1
    rw [hb10] at g1
    obtain ⟨u, hu, hdt⟩ := decText_of_startsWith g1
    have hn : D ≠ .nai := by rintro rfl; exact g2 rfl
    obtain ⟨w1, hw, hr'⟩ : ∃ w1, IsWs w1 ∧ r' = w1 ++ (u ++ t) := by
      rw [← hu]
      unfold IStr.content
      by_cases hk : s.skipws = true
      · refine ⟨r'.takeWhile isSpace, isWs_iff.mpr fun c hc => List.all_eq_true.mp List.all_takeWhile c hc, ?_⟩
        rw [if_pos hk]; exact List.takeWhile_append_dropWhile.symm
      · rw [if_neg hk]; exact ⟨[], isWs_iff.mpr (by simp), rfl⟩
    refine Or.inr ⟨b, '_' :: (w1 ++ u), D, d, N, _, rfl, ho, ?_, hb, hD, Or.inr ⟨w1, u, rfl, hw, hdt, hn, g3, g4⟩, hN, result_dec hn hD hT g3 g4⟩
    rw [hc, hr', e3]; simp
  · obtain ⟨s3, e1, e2, e3⟩ := finish_plain bare D.dec h2 hr
    rw [← e] at e1
    simp only [Prod.mk.injEq] at e1
    obtain ⟨rfl, rfl⟩ := e1
    exact Or.inr ⟨b, [], D, D.dec, N, _, rfl, e2, by rw [hc, e3]; simp, hb, hD, Or.inl ⟨rfl, rfl⟩, hN, result_plain hD hT⟩

/-! ### Strings -/

theorem body_head {b : List Char} {D : Denot} {N : List NumInfo} (h : BodyText b D N) : ∃ c v, b = c :: v ∧ isSpace c = false := by
  rcases h.shape with ⟨w1, w, w2, rfl, -⟩ | ⟨w1, a, w2, w3, b, w4, l, u, M, M', rfl, -⟩ |
    ⟨s, m, r, d, x, sg, v, k, e, ρ, rd, lo, hi, rfl, hs, hm, -⟩
  · exact ⟨_, _, rfl, by decide⟩
  · exact ⟨_, _, rfl, by decide⟩
  · cases hsm : s ++ m with
    | nil => exact absurd (List.append_eq_nil_iff.mp hsm).2 hm.ne_nil
    | cons c v' =>
      refine ⟨c, _, rfl, ?_⟩
      have : c ∈ s ++ m := by rw [hsm]; simp
      rcases List.mem_append.mp this with h | h
      · exact sign_not_space (hs.char c h)
      · rcases hm.char10 c h with h | rfl
        · exact digit_not_space h
        · decide

theorem literal_iff {l : List Char} {D : Denot} {d : Dec} {N : List NumInfo} :
    Literal l D d N ↔ ∃ w0 b t w2, l = w0 ++ (b ++ t ++ w2) ∧ IsWs w0 ∧ BodyText b D N ∧ D.Consistent ∧ DecTail D t d ∧ IsWs w2 := by
  constructor
  · intro h
    cases h with
    | plain h0 hb hc h1 => exact ⟨_, _, [], _, by simp, h0, hb, hc, Or.inl ⟨rfl, rfl⟩, h1⟩
    | decorated h0 hb hc h1 ht h2 hD hd hd' =>
      exact ⟨_, _, '_' :: (_ ++ _), _, by simp, h0, hb, hc, Or.inr ⟨_, _, rfl, h1, ht, hD, hd, hd'⟩, h2⟩
  · rintro ⟨w0, b, t, w2, rfl, h0, hb, hc, ⟨rfl, rfl⟩ | ⟨w1, u, rfl, h1, ht, hD, hd, hd'⟩, h2⟩
    · have := Literal.plain h0 hb hc h2
      simpa using this
    · have := Literal.decorated h0 hb hc h1 ht h2 hD hd hd'
      simpa using this

theorem content_eq {w0 b r : List Char} {D : Denot} {N : List NumInfo} (h0 : IsWs w0) (hb : BodyText b D N) :
    ({ rest := w0 ++ (b ++ r) } : IStr).content = b ++ r := by
  obtain ⟨c, v, rfl, hc⟩ := body_head hb
  change (w0 ++ (c :: v ++ r)).dropWhile isSpace = _
  rw [dropWhile_all (isWs_iff.mp h0)]
  simp [List.dropWhile_cons, hc]

theorem content_split (l : List Char) : ∃ w0, IsWs w0 ∧ l = w0 ++ ({ rest := l } : IStr).content :=
  ⟨l.takeWhile isSpace, isWs_iff.mpr fun c hc => List.all_eq_true.mp List.all_takeWhile c hc, List.takeWhile_append_dropWhile.symm⟩

theorem any_not_space {w : List Char} : w.any (fun c => !isSpace c) = false ↔ IsWs w := by
  rw [isWs_iff, List.any_eq_false]
  simp

theorem ws_head {w : List Char} (h : IsWs w) : ∀ c, w.head? = some c → isSpace c = true := fun c hc => isWs_iff.mp h c (mem_of_head? hc)

/-- A literal has one meaning. -/
theorem C38_unique {l : List Char} {D D' : Denot} {d d' : Dec} {N N' : List NumInfo} (h : Literal l D d N) (h' : Literal l D' d' N') :
    D = D' ∧ d = d' ∧ N = N' := by
  obtain ⟨w0, b, t, w2, rfl, h0, hb, hc, ht, h2⟩ := literal_iff.mp h
  obtain ⟨w0', b', t', w2', e, h0', hb', hc', ht', h2'⟩ := literal_iff.mp h'
  have e1 := content_eq (r := t ++ w2) h0 hb
  have e2 := content_eq (r := t' ++ w2') h0' hb'
  simp only [List.append_assoc] at e e1 e2
  rw [e, e2] at e1
  have start : ∀ {D : Denot} {t : List Char} {d : Dec} {w : List Char}, DecTail D t d → IsWs w → TailStart (t ++ w) := by
    intro D t d w ht hw c hcc
    rcases ht with ⟨rfl, -⟩ | ⟨w1, u, rfl, -⟩
    · exact Or.inr (ws_head hw c hcc)
    · simp at hcc; exact Or.inl hcc.symm
  have key : ∀ {b r : List Char} {D : Denot} {N : List NumInfo}, BodyText b D N → TailStart r → b.head? ≠ some '[' → uncL (b ++ r) = (b, r) := by
    intro b r D N hb hr hh
    rcases hb.shape with ⟨w1, w, w2, rfl, -⟩ | ⟨w1, a, w2, w3, b, w4, l, u, M, M', rfl, -⟩ |
      ⟨sg, m, q, d, x, sg, v, k, e, ρ, rd, lo, hi, rfl, hsg, hm, hq, hd, hx, -⟩
    · exact absurd rfl hh
    · exact absurd rfl hh
    · exact uncL_body hsg hm hq hd hx hr
  obtain ⟨eb, et⟩ : b' = b ∧ t' ++ w2' = t ++ w2 := by
    obtain ⟨c, v, hcv, -⟩ := body_head hb
    obtain ⟨c', v', hcv', -⟩ := body_head hb'
    have hcc : c' = c := by
      rw [hcv, hcv'] at e1
      simp only [List.cons_append, List.cons.injEq] at e1; exact e1.1
    by_cases hh : c = '['
    · obtain ⟨p, rfl, hp⟩ := hb.bracket (by rw [hcv, hh]; rfl)
      obtain ⟨p', rfl, hp'⟩ := hb'.bracket (by rw [hcv', hcc, hh]; rfl)
      simp only [List.cons_append, List.cons.injEq, true_and, List.append_assoc, List.nil_append] at e1
      obtain ⟨rfl, e3⟩ := span_unique (fun c => c ≠ ']') e1 (fun c hc => by rintro rfl; exact hp' hc) (fun c hc => by rintro rfl; exact hp hc)
        (fun c hc => by simp at hc; simp [← hc]) (fun c hc => by simp at hc; simp [← hc])
      simp only [List.cons.injEq, true_and] at e3
      exact ⟨rfl, e3⟩
    · have k1 := key hb (start ht h2) (by rw [hcv]; simpa using hh)
      have k2 := key hb' (start ht' h2') (by rw [hcv', hcc]; simpa using hh)
      rw [← e1, k2] at k1
      simpa using k1
  subst eb
  obtain ⟨rfl, rfl⟩ := hb.unique hb'
  refine ⟨rfl, ?_, rfl⟩
  have us : ∀ {w v : List Char}, IsWs w → '_' :: v ≠ w := by
    rintro w v hw rfl
    exact absurd (ws_head hw '_' rfl) (by decide)
  rcases ht with ⟨rfl, rfl⟩ | ⟨w1, u, rfl, h1, hu, -⟩ <;> rcases ht' with ⟨rfl, rfl⟩ | ⟨w1', u', rfl, h1', hu', -⟩
  · rfl
  · exact absurd (by simpa using et) (us h2 (v := w1' ++ u' ++ w2'))
  · exact absurd (by simpa using et.symm) (us h2' (v := w1 ++ u ++ w2))
  · simp only [List.cons_append, List.cons.injEq, true_and] at et
    have cu : ∀ {u : List Char} {d : Dec}, DecText u d → Core u := by
      intro u d h
      rcases h with h | ⟨h1, h2, -⟩
      · rw [decName_iff] at h
        exact Core.of_all fun c hc => (lower_letter h (by cases d <;> decide) c hc).1
      · exact Core.of_all fun c hc => digit_not_space (isDigits_ten.mp h2 c hc)
    have e3 := congrArg trim et
    rw [trim_eq h1 (cu hu) h2, trim_eq h1' (cu hu') h2'] at e3
    subst e3
    have nd : ∀ {u : List Char} {d : Dec}, u.map Char.toLower = d.name → u ≠ [] → IsDigits 10 u → False := by
      intro u d h h0 hd
      cases u with
      | nil => exact h0 rfl
      | cons c u =>
        have hc := isDigits_ten.mp hd c (by simp)
        have := name_not_digit d c (by rw [← h, List.map_cons, lower_digit hc]; simp)
        rw [hc] at this; exact Bool.noConfusion this
    rcases hu with h | ⟨a1, a2, a3⟩ <;> rcases hu' with h' | ⟨b1, b2, b3⟩
    · rw [decName_iff] at h h'
      rw [h] at h'
      cases d <;> cases d' <;> first | rfl | exact absurd h' (by decide)
    · exact (nd (decName_iff.mp h) b1 b2).elim
    · exact (nd (decName_iff.mp h') a1 a2).elim
    · rw [decCode_iff] at a3 b3
      rw [a3] at b3
      cases d <;> cases d' <;> first | rfl | exact absurd b3 (by decide)

theorem drop_nil {p : Char → Bool} {w : List Char} : w.dropWhile p = [] ↔ ∀ c ∈ w, p c = true := by
  induction w with
  | nil => simp
  | cons a w ih =>
    rw [List.dropWhile_cons]
    cases h : p a <;> simp [h, ih]

theorem garbage_ws {w : List Char} (h : IsWs w) : garbage w = .ok false := by
  unfold garbage
  rw [drop_nil.mpr (isWs_iff.mp h)]

theorem garbage_not_ws {w : List Char} (h : ¬ IsWs w) : ∃ w1 c r, w = w1 ++ c :: r ∧ IsWs w1 ∧ isSpace c = false ∧
    garbage w = if c.toNat < 128 then .ok true else .ub := by
  obtain ⟨w1, h1, e1⟩ := content_split w
  rcases hd : w.dropWhile isSpace with _ | ⟨c, r⟩
  · exact absurd (isWs_iff.mpr (drop_nil.mp hd)) h
  · have hc : isSpace c = false := by
      have := List.head_dropWhile_not (p := isSpace) (l := w) (by rw [hd]; simp)
      simp only [hd, List.head_cons] at this
      exact this
    refine ⟨w1, c, r, ?_, h1, hc, ?_⟩
    · rw [← hd]; exact e1
    · unfold garbage; rw [hd]

theorem garbage_ascii {w : List Char} (h : ∀ c ∈ w, c.toNat < 128) : ∃ g, garbage w = .ok g := by
  by_cases hw : IsWs w
  · exact ⟨_, garbage_ws hw⟩
  · obtain ⟨w1, c, r, rfl, -, -, e⟩ := garbage_not_ws hw
    exact ⟨true, by rw [e, if_pos (h c (by simp))]⟩

theorem ascii_rest {l b t r : List Char} (h : ∀ c ∈ l, c.toNat < 128) (hc : ({ rest := l } : IStr).content = b ++ t ++ r) :
    ∀ c ∈ r, c.toNat < 128 := by
  obtain ⟨w0, -, e0⟩ := content_split l
  rw [hc] at e0
  exact fun c hm => h c (by rw [e0]; simp [hm])

/-- A literal whose numbers the library can read (`NumInfo.Supported`: no plus sign, which the grammar allows, and exponents that fit
into `int`): the decorated interval it denotes, nothing is signalled. -/
theorem C38_literal_partial {l : List Char} {D : Denot} {d : Dec} {N : List NumInfo} (h : Literal l D d N) (hN : ∀ n ∈ N, n.Supported) :
    ∃ m x, φ.textToDecorated l = .ok m ∧ Returns m x ∧ LiteralResult φ x D d := by
  obtain ⟨w0, b, t, w2, rfl, h0, hb, hc, ht, h2⟩ := literal_iff.mp h
  have e : ({ rest := w0 ++ (b ++ t ++ w2) } : IStr).content = b ++ t ++ w2 := by
    rw [List.append_assoc b t w2]; exact content_eq h0 hb
  obtain ⟨x, s', e1, e2, e3, hr⟩ := C38_stream_partial (φ := φ) (s := { rest := w0 ++ (b ++ t ++ w2) }) rfl rfl e hb hc ht (by simp) (ws_head h2) hN
  refine ⟨_, x, ?_, Returns.pure x, hr⟩
  unfold Fmt.textToDecorated
  rw [e1]
  change (if (!s'.ok) = true then _ else _) = _
  rw [if_neg (by simp [e2]), e3, garbage_ws h2]
  rfl

/-- Any string, if the call ends normally: either it is a literal and the result is the decorated interval it denotes, or an
undefined operation is signalled and the result is NaI. -/
theorem C38_safe {l : List Char} {m : M DItv} (h : φ.textToDecorated l = .ok m) :
    (∃ D d N x, Literal l D d N ∧ (∀ n ∈ N, n.Supported) ∧ Returns m x ∧ LiteralResult φ x D d) ∨
    ∃ y, Raises m .undefinedOperation y ∧ y.IsNaI := by
  have hno : ∀ {m' : M DItv}, m' = (do signal .undefinedOperation; return DItv.nai) → m' = m →
      ∃ y, Raises m .undefinedOperation y ∧ y.IsNaI := by
    rintro m' rfl rfl
    exact ⟨DItv.nai, raises_signal_then _ _, rfl, rfl⟩
  unfold Fmt.textToDecorated at h
  cases hr : φ.readItv { rest := l } with
  | outOfRange => rw [hr] at h; exact Std.noConfusion rfl (heq_of_eq h)
  | ub => rw [hr] at h; exact Std.noConfusion rfl (heq_of_eq h)
  | ok y =>
    obtain ⟨x, s'⟩ := y
    rw [hr] at h
    change (if (!s'.ok) = true then _ else _) = _ at h
    rcases C38_stream_safe (s := { rest := l }) rfl rfl hr with ⟨rfl, ho⟩ | ⟨b, t, D, d, N, y, rfl, ho, hc, hb, hD, ht, hN, hR⟩
    · rw [if_pos (by simp [ho])] at h
      exact Or.inr (hno rfl (Std.ok.inj h))
    · rw [if_neg (by simp [ho])] at h
      by_cases hw : IsWs s'.rest
      · rw [garbage_ws hw] at h
        obtain ⟨w0, h0, e0⟩ := content_split l
        refine Or.inl ⟨D, d, N, y, literal_iff.mpr ⟨w0, b, t, _, by rw [← hc]; exact e0, h0, hb, hD, ht, hw⟩, hN, ?_, hR⟩
        rw [← Std.ok.inj h]; exact Returns.pure y
      · obtain ⟨w1, c, r, -, -, -, e⟩ := garbage_not_ws hw
        rw [e] at h
        split_ifs at h
        · exact Or.inr (hno rfl (Std.ok.inj h))
        · exact Std.noConfusion rfl (heq_of_eq h)

/-- Malformed or inconsistent text, or a literal the library cannot read: if the call ends normally, an undefined operation is
signalled and the result is NaI. -/
theorem C38_malformed {l : List Char} (h : ∀ D d N, Literal l D d N → ∃ n ∈ N, ¬ n.Supported) {m : M DItv} (hm : φ.textToDecorated l = .ok m) :
    ∃ y, Raises m .undefinedOperation y ∧ y.IsNaI := by
  rcases C38_safe hm with ⟨D, d, N, x, hl, hN, -⟩ | h'
  · obtain ⟨n, h1, h2⟩ := h D d N hl
    exact absurd (hN n h1) h2
  · exact h'

theorem text_total {l : List Char} {α : Type} {f : Option DItv × IStr → Std α} (hf : ∀ x s', φ.readItv { rest := l } = .ok (x, s') → ∃ m, f (x, s') = .ok m)
    (h : ∀ w0 b r D N, l = w0 ++ b ++ r → IsWs w0 → BodyText b D N → ∀ n ∈ N, n.InRange) : ∃ m, (φ.readItv { rest := l } >>= f) = .ok m := by
  cases hr : φ.readItv { rest := l } with
  | ok y =>
    obtain ⟨x, s'⟩ := y
    exact hf x s' hr
  | outOfRange =>
    exfalso
    obtain ⟨b, r, D, N, hc, hb, n, hn, hn'⟩ := readItv_total (φ := φ) (s := { rest := l }) rfl (by rw [hr]; simp)
    obtain ⟨w0, h0, e0⟩ := content_split l
    exact hn' (h w0 b r D N (by rw [List.append_assoc, ← hc]; exact e0) h0 hb n hn)
  | ub =>
    exfalso
    obtain ⟨b, r, D, N, hc, hb, n, hn, hn'⟩ := readItv_total (φ := φ) (s := { rest := l }) rfl (by rw [hr]; simp)
    obtain ⟨w0, h0, e0⟩ := content_split l
    exact hn' (h w0 b r D N (by rw [List.append_assoc, ← hc]; exact e0) h0 hb n hn)

/-- The call ends normally unless the string starts with a literal one of whose exponents does not fit into `int`, or has
characters outside of ASCII. -/
theorem C38_total {l : List Char} (h : ∀ w0 b r D N, l = w0 ++ b ++ r → IsWs w0 → BodyText b D N → ∀ n ∈ N, n.InRange)
    (ha : ∀ c ∈ l, c.toNat < 128) :
    ∃ m, φ.textToDecorated l = .ok m := by
  unfold Fmt.textToDecorated
  refine text_total (fun x s' hr => ?_) h
  change ∃ m, (if (!s'.ok) = true then _ else _) = _
  by_cases ho : s'.ok = true
  · rw [if_neg (by simp [ho])]
    rcases C38_stream_safe (s := { rest := l }) rfl rfl hr with ⟨-, ho'⟩ | ⟨b, t, D, d, N, y, rfl, -, hc, -⟩
    · rw [ho] at ho'; exact Bool.noConfusion ho'
    · obtain ⟨g, hg⟩ := garbage_ascii (ascii_rest ha hc)
      rw [hg]
      cases g <;> exact ⟨_, rfl⟩
  · rw [if_pos (by simpa using ho)]; exact ⟨_, rfl⟩

/-! ### Bare intervals -/

/-- The call is refused with the condition `e`: whatever the state, it throws an enabled condition, or it ends normally with the
value `a`, and the flag of `e` is set. -/
def Refused {α : Type} (m : M α) (e : Ex) (a : α) : Prop := ∀ s : ExSt,
  (∃ e', s.cwd e' = true ∧ (m s).1 = .thrown e' ∧ (m s).2.flags e' = true) ∨
  ((m s).1 = .ret a ∧ (m s).2.flags e = true ∧ s.cwd e = false)

theorem Raises.refused {α : Type} {m : M α} {e : Ex} {a : α} (h : Raises m e a) : Refused m e a := by
  intro s
  obtain ⟨h1, -, -, h4, h5⟩ := h s
  cases hc : s.cwd e with
  | true => exact Or.inl ⟨e, hc, h4 hc, h1⟩
  | false => exact Or.inr ⟨h5 hc, h1, rfl⟩

theorem Returns.bind_refused {α β : Type} {m : M α} {a : α} {f : α → M β} {b : β} {e : Ex} (h : Returns m a) (h' : Refused (f a) e b) :
    Refused (m >>= f) e b := by
  intro s
  have : (m >>= f) s = f a s := by
    change M.bind m f s = _
    unfold M.bind
    rw [h s]
  rw [this]; exact h' s

theorem Raises.bind_refused {α β : Type} {m : M α} {a : α} {f : α → M β} {b : β} {e e' : Ex} (h : Raises m e' a)
    (h' : Refused (f a) e b) : Refused (m >>= f) e b := by
  intro s
  obtain ⟨h1, -, h3, h4, h5⟩ := h s
  have key : (m >>= f) s = M.bind m f s := rfl
  cases hc : s.cwd e' with
  | true =>
    have h6 := h4 hc
    have : (m >>= f) s = (.thrown e', (m s).2) := by
      rw [key]; unfold M.bind
      rcases hm : m s with ⟨o, s'⟩
      rw [hm] at h6
      simp only at h6
      rw [h6]
    rw [this]
    exact Or.inl ⟨e', hc, rfl, h1⟩
  | false =>
    have h6 := h5 hc
    have : (m >>= f) s = f a (m s).2 := by
      rw [key]; unfold M.bind
      rcases hm : m s with ⟨o, s'⟩
      rw [hm] at h6
      simp only at h6
      rw [h6]
    rw [this]
    have := h' (m s).2
    rw [h3] at this
    exact this

/-- The part of `text_to_interval` after reading. -/
def bareTail (x : M (Option Itv)) (g : Bool) : M Itv := do
  match ← x with
  | none => do signal .undefinedOperation; return Itv.empty
  | some x =>
    if g then do signal .undefinedOperation; return Itv.empty
    return x

theorem text_bare_of (l : List Char) {x : Option DItv} {s' : IStr} (hr : φ.readItv { rest := l } = .ok (x, s')) :
    (s'.ok = false → φ.textToInterval l = .ok (do signal .undefinedOperation; return Itv.empty)) ∧
    (s'.ok = true → ∀ y, x = some y → φ.textToInterval l = (do
      let g ← garbage s'.rest
      return bareTail (do return some (← intervalPart y)) g)) := by
  constructor
  · intro ho
    unfold Fmt.textToInterval Fmt.readBare
    rw [hr]
    simp only [bind, Std.bind, pure, ho, Bool.false_eq_true, if_false]
    rfl
  · rintro ho y rfl
    unfold Fmt.textToInterval Fmt.readBare
    rw [hr]
    simp only [bind, Std.bind, pure, ho, if_true]
    rfl

theorem literal_not_nai {x : DItv} {D : Denot} {t : List Char} {d : Dec} (hD : D ≠ .nai) (ht : DecTail D t d) (h : LiteralResult φ x D d) : ¬ x.IsNaI := by
  have hd : d ≠ .ill := by
    rcases ht with ⟨-, rfl⟩ | ⟨_, _, _, _, _, _, _, h⟩
    · exact dec_ne_ill hD
    · exact h
  obtain ⟨-, -, h2⟩ := h
  obtain ⟨-, h3, h4⟩ := h2 hD
  rintro ⟨-, hi⟩
  by_cases hc : d = .com ∧ ¬ IsBounded x.set
  · rw [h3 hc] at hi; exact absurd hi (by decide)
  · rw [h4 hc] at hi; exact hd hi

/-- The interval part, then the check that only white space is left. -/
theorem bare_result {x : DItv} {D : Denot} {t : List Char} {d : Dec} (ht : DecTail D t d) (h : LiteralResult φ x D d) :
    (      (D ≠ .nai → ∃ y, Returns (bareTail (do return some (← intervalPart x)) false) y ∧ Tightest φ y D.set) ∧
      (D = .nai → ∃ y, Raises (bareTail (do return some (← intervalPart x)) false) .intervalPartOfNai y ∧ y = ⟨.nan, .nan⟩)) ∧
    Refused (bareTail (do return some (← intervalPart x)) true) .undefinedOperation ⟨.nan, .nan⟩ := by
  have e1 : D ≠ .nai → Returns (intervalPart x) x.itv := by
    intro hD
    have hn := literal_not_nai hD ht h
    rw [DItv.isNaI_iff h.1] at hn
    unfold intervalPart
    refine (DItv.isValidM_ret h.1.isValid).bind ?_
    simp only [Bool.not_true, Bool.false_eq_true, if_false, h.1.isNai_false hn]
    exact Returns.pure _
  have e2 : D = .nai → Raises (intervalPart x) .intervalPartOfNai ⟨.nan, .nan⟩ := by
    intro hD
    obtain ⟨y, hy, rfl⟩ := (C34_interval_part_nai φ (h.2.1 hD)).1
    exact hy
  have e1' : D ≠ .nai → Returns (do return some (← intervalPart x)) (some x.itv) := fun hD => by
    refine (e1 hD).bind ?_; exact Returns.pure _
  have e2' : D = .nai → Raises (do return some (← intervalPart x)) .intervalPartOfNai (some (⟨.nan, .nan⟩ : Itv)) := fun hD => by
    refine (e2 hD).bind ?_; exact Returns.pure _
  let k : Bool → Option Itv → M Itv := fun g x => match x with
    | none => do signal .undefinedOperation; return Itv.empty
    | some x => do
      if g then do signal .undefinedOperation; return Itv.empty
      return x
  have ek : ∀ y : Itv, Returns (k false (some y)) y := fun y => Returns.pure y
  have ef : ∀ y : Itv, Raises (k true (some y)) .undefinedOperation ⟨.nan, .nan⟩ := fun y => raises_signal_then _ _
  refine ⟨⟨fun hD => ⟨x.itv, ?_, (h.2.2 hD).1⟩, fun hD => ⟨⟨.nan, .nan⟩, ?_, rfl⟩⟩, ?_⟩
  · exact (e1' hD).bind (f := k false) (ek x.itv)
  · exact (e2' hD).bind (f := k false) (ek _)
  · by_cases hD : D = .nai
    · exact (e2' hD).bind_refused (f := k true) (ef _).refused
    · exact ((e1' hD).bind_raises (f := k true) (ef _)).refused

/-- A bare interval from a literal the library can read is the tightest one around the denoted set; for NaI the condition
interval part of NaI is signalled and the interval is empty. -/
theorem C38_bare_partial {l : List Char} {D : Denot} {d : Dec} {N : List NumInfo} (h : Literal l D d N) (hN : ∀ n ∈ N, n.Supported) :
    ∃ m, φ.textToInterval l = .ok m ∧
      (D ≠ .nai → ∃ x, Returns m x ∧ Tightest φ x D.set) ∧
      (D = .nai → ∃ x, Raises m .intervalPartOfNai x ∧ x = ⟨.nan, .nan⟩) := by
  obtain ⟨w0, b, t, w2, rfl, h0, hb, hc, ht, h2⟩ := literal_iff.mp h
  have e : ({ rest := w0 ++ (b ++ t ++ w2) } : IStr).content = b ++ t ++ w2 := by
    rw [List.append_assoc b t w2]; exact content_eq h0 hb
  obtain ⟨x, s', e1, e2, e3, hr⟩ := C38_stream_partial (φ := φ) (s := { rest := w0 ++ (b ++ t ++ w2) }) rfl rfl e hb hc ht (by simp) (ws_head h2) hN
  refine ⟨_, ?_, (bare_result ht hr).1⟩
  rw [(text_bare_of _ e1).2 e2 x rfl, e3, garbage_ws h2]
  rfl

/-- Any string, if the call ends normally: either it is a literal and the result is the interval it denotes, or it is refused
as an undefined operation with the empty interval. -/
theorem C38_bare_safe {l : List Char} {m : M Itv} (h : φ.textToInterval l = .ok m) :
    (∃ D d N, Literal l D d N ∧ (∀ n ∈ N, n.Supported) ∧
      (D ≠ .nai → ∃ x, Returns m x ∧ Tightest φ x D.set) ∧
      (D = .nai → ∃ x, Raises m .intervalPartOfNai x ∧ x = ⟨.nan, .nan⟩)) ∨
    Refused m .undefinedOperation ⟨.nan, .nan⟩ := by
  cases hr : φ.readItv { rest := l } with
  | outOfRange => unfold Fmt.textToInterval Fmt.readBare at h; rw [hr] at h; exact Std.noConfusion rfl (heq_of_eq h)
  | ub => unfold Fmt.textToInterval Fmt.readBare at h; rw [hr] at h; exact Std.noConfusion rfl (heq_of_eq h)
  | ok y =>
    obtain ⟨x, s'⟩ := y
    obtain ⟨k1, k2⟩ := text_bare_of l hr
    rcases C38_stream_safe (s := { rest := l }) rfl rfl hr with ⟨rfl, ho⟩ | ⟨b, t, D, d, N, y, rfl, ho, hc, hb, hD, ht, hN, hR⟩
    · rw [k1 ho] at h
      obtain rfl := Std.ok.inj h
      exact Or.inr (raises_signal_then _ _).refused
    · rw [k2 ho y rfl] at h
      by_cases hw : IsWs s'.rest
      · rw [garbage_ws hw] at h
        obtain rfl := Std.ok.inj h
        obtain ⟨w0, h0, e0⟩ := content_split l
        exact Or.inl ⟨D, d, N, literal_iff.mpr ⟨w0, b, t, _, by rw [← hc]; exact e0, h0, hb, hD, ht, hw⟩, hN, (bare_result ht hR).1⟩
      · obtain ⟨w1, c, r, -, -, -, e⟩ := garbage_not_ws hw
        rw [e] at h
        split_ifs at h
        · obtain rfl := Std.ok.inj h
          exact Or.inr (bare_result ht hR).2
        · exact Std.noConfusion rfl (heq_of_eq h)

/-- Malformed or inconsistent text, or a literal the library cannot read. -/
theorem C38_bare_malformed {l : List Char} (h : ∀ D d N, Literal l D d N → ∃ n ∈ N, ¬ n.Supported) {m : M Itv} (hm : φ.textToInterval l = .ok m) :
    Refused m .undefinedOperation ⟨.nan, .nan⟩ := by
  rcases C38_bare_safe hm with ⟨D, d, N, hl, hN, -⟩ | h'
  · obtain ⟨n, h1, h2⟩ := h D d N hl
    exact absurd (hN n h1) h2
  · exact h'

theorem C38_bare_total {l : List Char} (h : ∀ w0 b r D N, l = w0 ++ b ++ r → IsWs w0 → BodyText b D N → ∀ n ∈ N, n.InRange)
    (ha : ∀ c ∈ l, c.toNat < 128) :
    ∃ m, φ.textToInterval l = .ok m := by
  obtain ⟨⟨x, s'⟩, hr⟩ : ∃ y, φ.readItv { rest := l } = .ok y := by
    have := text_total (φ := φ) (l := l) (f := fun p => Std.ok p) (fun x s' _ => ⟨_, rfl⟩) h
    obtain ⟨m, hm⟩ := this
    cases hr : φ.readItv { rest := l } with
    | ok y => exact ⟨y, rfl⟩
    | outOfRange => rw [hr] at hm; exact Std.noConfusion rfl (heq_of_eq hm)
    | ub => rw [hr] at hm; exact Std.noConfusion rfl (heq_of_eq hm)
  obtain ⟨k1, k2⟩ := text_bare_of l hr
  rcases C38_stream_safe (s := { rest := l }) rfl rfl hr with ⟨rfl, ho⟩ | ⟨b, t, D, d, N, y, rfl, ho, hc, hb, hD, ht, hN, hR⟩
  · exact ⟨_, k1 ho⟩
  · obtain ⟨g, hg⟩ := garbage_ascii (ascii_rest ha hc)
    exact ⟨_, by rw [k2 ho y rfl, hg]; rfl⟩

/-! ### The property is not true of all literals -/

theorem digits_of {w : List Char} (h : w.all isDigit = true) : IsDigits 10 w := isDigits_ten.mpr (List.all_eq_true.mp h)

/-- Digits alone. -/
theorem num_of {w : List Char} (h0 : w ≠ []) (h : w.all isDigit = true) : NumText w (numVal 10 w) ⟨false, 0, 0⟩ := by
  have := NumText.dec (s := []) (m := w) (x := []) (sg := 1) (v := numVal 10 w) (k := 0) (e := 0) (Or.inl ⟨Or.inl rfl, rfl⟩)
    ⟨w, [], Or.inl ⟨rfl, rfl⟩, by simpa using h0, by simpa using digits_of h, by simp, rfl⟩ (Or.inl ⟨rfl, rfl⟩)
  simpa using this

/-- The call ends normally. -/
def Std.isOk {α : Type} : Std α → Bool
  | .ok _ => true
  | _ => false

/-- `std::out_of_range` is thrown. -/
def Std.isOutOfRange {α : Type} : Std α → Bool
  | .outOfRange => true
  | _ => false

/-- The interval read. -/
def Std.item : Std (Option DItv × IStr) → Option DItv
  | .ok (x, _) => x
  | _ => none

theorem literal_plus : Literal "[+1,2]".toList (.bounds (some 1) (some 2)) .com [⟨true, 0, 0⟩, ⟨false, 0, 0⟩] := by
  have h1 : NumText ['+', '1'] 1 ⟨true, 0, 0⟩ := by
    have := NumText.dec (s := ['+']) (m := ['1']) (x := []) (sg := 1) (v := 1) (k := 0) (e := 0) (Or.inl ⟨Or.inr rfl, rfl⟩)
      ⟨['1'], [], Or.inl ⟨rfl, rfl⟩, by simp, digits_of (by decide), by decide, rfl⟩ (Or.inl ⟨rfl, rfl⟩)
    simpa using this
  have h2 : NumText ['2'] 2 ⟨false, 0, 0⟩ := num_of (by simp) (by decide)
  have ws : IsWs [] := by simp [IsWs]
  exact Literal.plain (w0 := []) (w1 := []) ws
    (BodyText.pair (w1 := []) (w2 := []) (w3 := []) (w4 := []) ws (.num h1) ws ws (.num h2) ws) (by norm_num [Denot.Consistent]) ws

/-- A number may have a plus sign, but the library refuses it. -/
theorem C38_false_plus : (∃ N, Literal "[+1,2]".toList (.bounds (some 1) (some 2)) .com N) ∧
    ∃ m y, binary64.textToDecorated "[+1,2]".toList = .ok m ∧ Raises m .undefinedOperation y ∧ y.IsNaI := by
  refine ⟨⟨_, literal_plus⟩, ?_⟩
  obtain ⟨m, hm⟩ : ∃ m, binary64.textToDecorated "[+1,2]".toList = .ok m := by
    have h : (binary64.textToDecorated "[+1,2]".toList).isOk = true := by decide +kernel
    generalize binary64.textToDecorated "[+1,2]".toList = r at h
    cases r with
    | ok m => exact ⟨m, rfl⟩
    | outOfRange => exact Bool.noConfusion h
    | ub => exact Bool.noConfusion h
  obtain ⟨y, h1, h2⟩ := C38_malformed (φ := binary64) (l := "[+1,2]".toList) (fun D d N h => by
    obtain ⟨-, -, rfl⟩ := C38_unique h literal_plus
    exact ⟨⟨true, 0, 0⟩, by simp, fun h => by simp [NumInfo.Supported] at h⟩) hm
  exact ⟨m, y, hm, h1, h2⟩

/-- An exponent that does not fit into `int`: an exception of the C++ library leaves the call. -/
theorem C38_false_throws : (∃ N q, Literal "[1e-99999999999]".toList (.bounds (some q) (some q)) .com N) ∧
    binary64.textToDecorated "[1e-99999999999]".toList = .outOfRange := by
  constructor
  · have h1 := NumText.dec (s := []) (m := ['1']) (x := "e-99999999999".toList) (sg := 1) (v := 1) (k := 0) (e := -99999999999) (Or.inl ⟨Or.inl rfl, rfl⟩)
      ⟨['1'], [], Or.inl ⟨rfl, rfl⟩, by simp, digits_of (by decide), by decide, rfl⟩
      (Or.inr ⟨'e', "-99999999999".toList, by decide, rfl, ['-'], -1, "99999999999".toList, rfl, Or.inr ⟨rfl, rfl⟩, by decide, digits_of (by decide),
        by decide +kernel⟩)
    have ws : IsWs [] := by simp [IsWs]
    exact ⟨_, _, Literal.plain (w0 := []) (w1 := []) ws (BodyText.point (w1 := []) (w2 := []) ws h1 ws) (le_refl _) ws⟩
  · have h : (binary64.textToDecorated "[1e-99999999999]".toList).isOutOfRange = true := by decide +kernel
    generalize binary64.textToDecorated "[1e-99999999999]".toList = r at h ⊢
    cases r with
    | outOfRange => rfl
    | ok m => exact Bool.noConfusion h
    | ub => exact Bool.noConfusion h

/-- A character outside of ASCII after a literal: the behaviour is undefined. -/
theorem C38_false_char {l : List Char} {D : Denot} {d : Dec} {N : List NumInfo} (h : Literal l D d N) (hN : ∀ n ∈ N, n.Supported) {c : Char}
    (hc : 128 ≤ c.toNat) (r : List Char) : φ.textToDecorated (l ++ ' ' :: c :: r) = .ub ∧ φ.textToInterval (l ++ ' ' :: c :: r) = .ub := by
  obtain ⟨w0, b, t, w2, rfl, h0, hb, hcs, ht, h2⟩ := literal_iff.mp h
  have e0 : w0 ++ (b ++ t ++ w2) ++ ' ' :: c :: r = w0 ++ (b ++ t ++ (w2 ++ ' ' :: c :: r)) := by simp
  rw [e0]
  have e : ({ rest := w0 ++ (b ++ t ++ (w2 ++ ' ' :: c :: r)) } : IStr).content = b ++ t ++ (w2 ++ ' ' :: c :: r) := by
    rw [List.append_assoc b t]; exact content_eq h0 hb
  have hws : IsWs (w2 ++ [' ']) := isWs_iff.mpr fun c' hc' => by
    rcases List.mem_append.mp hc' with h' | h'
    · exact isWs_iff.mp h2 c' h'
    · rw [List.mem_singleton.mp h']; rfl
  have hhead : ∀ c', (w2 ++ ' ' :: c :: r).head? = some c' → isSpace c' = true := by
    intro c' hc'
    refine isWs_iff.mp hws c' ?_
    cases w2 with
    | nil => simp at hc'; simp [← hc']
    | cons a w => simp at hc'; simp [hc']
  have hns : isSpace c = false := by
    simp only [isSpace, Bool.or_eq_false_iff, decide_eq_false_iff_not]
    refine ⟨⟨⟨⟨⟨?_, ?_⟩, ?_⟩, ?_⟩, ?_⟩, ?_⟩ <;> (rintro rfl; exact absurd hc (by decide))
  have hg : garbage (w2 ++ ' ' :: c :: r) = .ub := by
    have : (w2 ++ ' ' :: c :: r).dropWhile isSpace = c :: r := by
      rw [show w2 ++ ' ' :: c :: r = (w2 ++ [' ']) ++ c :: r by simp,
        List.dropWhile_append_of_pos (isWs_iff.mp hws), List.dropWhile_cons, hns]
      simp
    unfold garbage
    rw [this]
    exact if_neg (by omega)
  obtain ⟨x, s', e1, e2, e3, hr⟩ := C38_stream_partial (φ := φ) (s := { rest := w0 ++ (b ++ t ++ (w2 ++ ' ' :: c :: r)) }) rfl rfl e hb hcs ht
    (by simp) hhead hN
  constructor
  · unfold Fmt.textToDecorated
    rw [e1]
    change (if (!s'.ok) = true then _ else _) = _
    rw [if_neg (by simp [e2]), e3, hg]
    rfl
  · rw [(text_bare_of _ e1).2 e2 x rfl, e3, hg]
    rfl

/-! ### Literals that meet the hypotheses -/

example : binary64.textToDecorated "[12,34] é".toList = .ub := by
  have h1 : NumText ['1', '2'] 12 ⟨false, 0, 0⟩ := num_of (by simp) (by decide)
  have h2 : NumText ['3', '4'] 34 ⟨false, 0, 0⟩ := num_of (by simp) (by decide)
  have ws : IsWs [] := by simp [IsWs]
  have hl : Literal "[12,34]".toList (.bounds (some 12) (some 34)) .com [⟨false, 0, 0⟩, ⟨false, 0, 0⟩] :=
    Literal.plain (w0 := []) (w1 := []) ws
      (BodyText.pair (w1 := []) (w2 := []) (w3 := []) (w4 := []) ws (.num h1) ws ws (.num h2) ws) (by norm_num [Denot.Consistent]) ws
  exact (C38_false_char hl (by simp [NumInfo.Supported, NumInfo.InRange]) (c := 'é') (by decide) []).1

example : Literal " [12,34]_trv".toList (.bounds (some 12) (some 34)) .trv [⟨false, 0, 0⟩, ⟨false, 0, 0⟩] ∧
    (∀ n ∈ [(⟨false, 0, 0⟩ : NumInfo), ⟨false, 0, 0⟩], n.Supported) := by
  have h1 : NumText ['1', '2'] 12 ⟨false, 0, 0⟩ := num_of (by simp) (by decide)
  have h2 : NumText ['3', '4'] 34 ⟨false, 0, 0⟩ := num_of (by simp) (by decide)
  have ws : IsWs [] := by simp [IsWs]
  refine ⟨Literal.decorated (w0 := [' ']) (w1 := []) (t := "trv".toList) (w2 := []) (by simp [IsWs])
    (BodyText.pair (w1 := []) (w2 := []) (w3 := []) (w4 := []) ws (.num h1) ws ws (.num h2) ws) (by norm_num [Denot.Consistent]) ws
    (Or.inl (by decide)) ws (by simp) (by decide) (by decide), ?_⟩
  intro n hn
  simp only [List.mem_cons, List.not_mem_nil, or_false] at hn
  rcases hn with rfl | rfl <;> norm_num [NumInfo.Supported, NumInfo.InRange]

/-- What the model reads from some literals. -/
example : (binary64.readItv { rest := "[-1.5, 0x1.8p1]_trv".toList }).item = some ⟨⟨.fin (-3 / 2), .fin 3⟩, .trv⟩ ∧
    (binary64.readItv { rest := "3.5?2ue1 ".toList }).item = some ⟨⟨.fin 35, .fin 37⟩, .com⟩ ∧
    (binary64.readItv { rest := "[ nAi ]".toList }).item = some DItv.nai ∧
    (binary64.readItv { rest := "[,1/2]_com".toList }).item = none ∧
    (binary64.readItv { rest := "[2,1]".toList }).item = none := by decide +kernel

end P1788
