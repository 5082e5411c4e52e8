import Verif.Props.C40b
import Verif.Props.C46
import Verif.Lemmas.TextKept

/-!
# C47: a sequence of intervals written to a stream is read back one after another

A program writes decorated intervals, each followed by a separator of white space, and reads them with `>>` from a stream with the
text.
-/

namespace P1788
open Bornology
variable {φ : Fmt} {slack : ℕ}

/-! ### Specification -/

/-- `for (x : xs) os << x << sep;` -/
def writeAll (sep : List Char) (xs : List DItv) : List OutCmd := xs.flatMap fun x => [.putDItv x, .putText sep]

/-- `for (i = 0; i < n; ++i) is >> x[i];` for decorated intervals: the values assigned, and the stream. -/
def readAll (φ : Fmt) : ℕ → IStr → Std (List (Option DItv) × IStr)
  | 0, s => .ok ([], s)
  | n + 1, s => do
    let (x, s) ← φ.readItv s
    let (xs, s) ← readAll φ n s
    .ok (x :: xs, s)

/-- The interval read for `x`: it contains `x`, is NaI for NaI, and has the same decoration, except that `com` becomes `dac` if the interval read is
unbounded. -/
def ReadFor (φ : Fmt) (x : DItv) (y : Option DItv) : Prop :=
  ∃ z, y = some z ∧ z.Ok φ ∧ (z.IsNaI ↔ x.IsNaI) ∧ x.itv.set ⊆ z.itv.set ∧ (z.dec = x.dec ∨ x.dec = .com ∧ z.dec = .dac ∧ ¬ IsBounded z.set)

/-- The interval read for `x` is the same set with the same decoration. -/
def ReadSame (φ : Fmt) (x : DItv) (y : Option DItv) : Prop :=
  ∃ z, y = some z ∧ z.Ok φ ∧ (z.IsNaI ↔ x.IsNaI) ∧ z.itv.set = x.itv.set ∧ z.dec = x.dec

/-! ### Reading one literal of several -/

/-- After a literal, if white space follows, the stream is good again and stands before the white space. -/
theorem read_one {s : IStr} (hs : s.good = true) (hb : s.base = .dec) (hk : s.skipws = true) {l r : List Char} {c : Char} {D : Denot} {d : Dec}
    {N : List NumInfo} (hl : Literal l D d N) (hN : ∀ n ∈ N, n.Supported) (hc : isSpace c = true) {w : List Char} (hw : IsWs w)
    (hr : s.rest = w ++ (l ++ c :: r)) :
    ∃ x s' w', φ.readItv s = .ok (some x, s') ∧ s'.good = true ∧ s'.base = .dec ∧ s'.skipws = true ∧ IsWs w' ∧ s'.rest = w' ++ c :: r ∧
      LiteralResult φ x D d := by
  obtain ⟨w0, b, t, w2, rfl, h0, hB, hD, ht, h2⟩ := literal_iff.mp hl
  obtain ⟨cb, v, hcb, hv⟩ := body_head hB
  have hcont : s.content = b ++ t ++ (w2 ++ c :: r) := by
    unfold IStr.content
    rw [if_pos hk, hr]
    have : w ++ (w0 ++ (b ++ t ++ w2) ++ c :: r) = (w ++ w0) ++ (b ++ (t ++ (w2 ++ c :: r))) := by simp
    rw [this, dropWhile_all (isWs_iff.mp (hw.append h0)), hcb]
    simp [List.dropWhile_cons, hv]
  have hhead : ∀ c', (w2 ++ c :: r).head? = some c' → isSpace c' = true := by
    intro c' hc'
    cases w2 with
    | nil => simp at hc'; rw [← hc']; exact hc
    | cons a w2 => simp at hc'; rw [← hc']; exact isWs_iff.mp h2 a (by simp)
  obtain ⟨x, s', e, hok, hrest, hres⟩ := C38_stream_partial (φ := φ) hs hb hcont hB hD ht (fun h => by rw [hk] at h; cases h) hhead hN
  have hkept : Kept s s' := Kept.readItv ⟨rfl, rfl, fun h => by rw [not_eof_of_good hs] at h; cases h⟩ e
  refine ⟨x, s', w2, e, ?_, hkept.base.trans hb, hkept.skip.trans hk, h2, hrest, hres⟩
  have he : s'.eof = false := by
    cases h : s'.eof with
    | false => rfl
    | true =>
      have := hkept.eof h
      rw [hrest] at this
      simp at this
  unfold IStr.good
  unfold IStr.ok at hok
  rw [he]
  simpa using hok

theorem readFor_of {x z : DItv} {D : Denot} (hx : x.Ok φ) (hD : D = .nai ↔ x.IsNaI) (hs : x.itv.set ⊆ D.set) (hr : LiteralResult φ z D x.dec) :
    ReadFor φ x (some z) := by
  refine ⟨z, rfl, hr.1, ?_, ?_, ?_⟩
  · by_cases hn : x.IsNaI
    · simp [hn, hr.2.1 (hD.mpr hn)]
    · simp only [hn, iff_false]
      obtain ⟨-, h1, h2⟩ := hr.2.2 (fun e => hn (hD.mp e))
      intro hy
      by_cases hc : x.dec = .com ∧ ¬ IsBounded z.set
      · have := h1 hc
        rw [hy.2] at this
        cases this
      · have := h2 hc
        rw [hy.2] at this
        have hnan : x.itv = ⟨.nan, .nan⟩ := by
          by_contra hh
          exact hx.2.2.1 hh this.symm
        exact hn ⟨hnan, this.symm⟩
  · by_cases hn : x.IsNaI
    · rw [(set_empty_iff_nan hx.1).mpr hn.1]; exact Set.empty_subset _
    · exact hs.trans (hr.2.2 (fun e => hn (hD.mp e))).1.2.1
  · by_cases hn : x.IsNaI
    · left; rw [(hr.2.1 (hD.mpr hn)).2, hn.2]
    · obtain ⟨-, h1, h2⟩ := hr.2.2 (fun e => hn (hD.mp e))
      by_cases hc : x.dec = .com ∧ ¬ IsBounded z.set
      · exact Or.inr ⟨hc.1, h1 hc, hc.2⟩
      · exact Or.inl (h2 hc)

theorem readSame_of {x z : DItv} {D : Denot} (hx : x.Ok φ) (hD : D = .nai ↔ x.IsNaI) (hs : ¬ x.IsNaI → D.set = x.itv.set)
    (hr : LiteralResult φ z D x.dec) : ReadSame φ x (some z) := by
  have hsub : x.itv.set ⊆ D.set := by
    by_cases hn : x.IsNaI
    · rw [(set_empty_iff_nan hx.1).mpr hn.1]; exact Set.empty_subset _
    · exact (hs hn).symm.subset
  obtain ⟨z', e, h1, h2, h3, h4⟩ := readFor_of hx hD hsub hr
  cases Option.some.inj e
  have heq : z.itv.set = x.itv.set := by
    by_cases hn : x.IsNaI
    · rw [(set_empty_iff_nan hx.1).mpr hn.1, (set_empty_iff_nan h1.1).mpr (h2.mpr hn).1]
    · have ht := (hr.2.2 (fun e => hn (hD.mp e))).1
      rw [hs hn] at ht
      exact Set.Subset.antisymm (ht.2.2 x.itv hx.1 (Set.Subset.refl _)) ht.2.1
  refine ⟨z, rfl, h1, h2, heq, ?_⟩
  rcases h4 with h4 | ⟨hc, -, hb⟩
  · exact h4
  · exfalso
    apply hb
    have hb' : IsBounded x.itv.set := by
      obtain ⟨l1, l2⟩ := hx.2.2.2 hc
      rcases hx.1.cases with h | hne
      · rw [h, Itv.set_empty]; exact isBounded_empty
      · exact hne.bounded_iff.mpr ⟨l1, l2⟩
    change IsBounded z.itv.set
    rw [heq]; exact hb'

/-! ### Writing -/

/-- Settings with which intervals are written as literals. -/
structure Sink.Writes (s : Sink) (xs : List DItv) : Prop where
  form : s.manip.form = .infSup ∨ ∀ x ∈ xs, x.itv.set = ∅
  punct : s.manip.punct = true
  width : s.width ≤ 1
  numeric : s.ostr.numeric = true → s.base = .dec
  special : s.manip.special = .bounds → ∀ x ∈ xs, x.itv.set = ∅ → x.IsNaI

/-- What is written for one interval and the separator, and the stream afterwards. -/
theorem write_one {s s' : Sink} {x : DItv} {xs : List DItv} {sep : List Char} (hw : s.Writes (x :: xs)) (hx : x.Ok φ)
    (h : s.run φ slack [.putDItv x, .putText sep] = .ok s') :
    s'.Writes xs ∧ s'.manip.numRep = s.manip.numRep ∧ s'.manip.prec = s.manip.prec ∧ s'.manip.width = s.manip.width ∧
    ∃ t D N, s'.text = s.text ++ t ++ sep ∧ Literal t D x.dec N ∧ (D = .nai ↔ x.IsNaI) ∧ x.itv.set ⊆ D.set ∧
      (¬ x.IsNaI → (x.itv.set = ∅ ↔ D = .empty)) ∧ (¬ x.IsNaI → Accurate s.manip.numRep s.manip.prec x.itv D) ∧
      ∀ n ∈ N, n.Small (φ.B s.manip.prec) := by
  obtain ⟨s1, h1, h2⟩ := Std.bind_ok h
  have hw1 := C46_width (c := .putDItv x) trivial (by intro y h; cases h) (by intro y h; cases h; exact DItv.Ok.isValid hx) h1
  obtain ⟨s2, h2, h3⟩ := Std.bind_ok h2
  cases Std.ok.inj h3
  cases Std.ok.inj h2
  obtain ⟨o, e1, e2⟩ := Std.bind_ok h1
  have hwr : ∃ t D N, o.text = s.text ++ t ∧ Literal t D x.dec N ∧ (D = .nai ↔ x.IsNaI) ∧ x.itv.set ⊆ D.set ∧
      (¬ x.IsNaI → (x.itv.set = ∅ ↔ D = .empty)) ∧ (¬ x.IsNaI → Accurate s.manip.numRep s.manip.prec x.itv D) ∧
      ∀ n ∈ N, n.Small (φ.B s.manip.prec) :=
    C40_decorated_partial hx (hw.form.imp id fun h => h x (by simp)) hw.punct hw.width hw.numeric
      (fun h => h.2.1 (hw.special h.2.2 x (by simp) h.1)) e1
  have hs1 : s1.text = o.text ∧ s1.manip.form = s.manip.form ∧ s1.manip.punct = s.manip.punct ∧ s1.ostr.numeric = s.ostr.numeric ∧
      s1.base = s.base ∧ s1.manip.special = s.manip.special ∧ s1.manip.numRep = s.manip.numRep ∧ s1.manip.prec = s.manip.prec ∧
      s1.manip.width = s.manip.width := by
    dsimp only at e2
    split at e2
    · cases Std.ok.inj e2
      exact ⟨rfl, rfl, rfl, rfl, rfl, rfl, rfl, rfl, rfl⟩
    · cases Std.ok.inj e2
      exact ⟨rfl, rfl, rfl, rfl, rfl, rfl, rfl, rfl, rfl⟩
  obtain ⟨f1, f2, f3, f4, f5, f6, f7, f8, f9⟩ := hs1
  refine ⟨⟨?_, f3.trans hw.punct, Nat.zero_le _, fun h => f5.trans (hw.numeric (f4.symm.trans h)),
    fun h y hy => hw.special (f6.symm.trans h) y (by simp [hy])⟩, f7, f8, f9, ?_⟩
  · rcases hw.form with h | h
    · exact Or.inl (f2.trans h)
    · exact Or.inr fun y hy => h y (by simp [hy])
  · obtain ⟨t, D, N, g, hrest⟩ := hwr
    refine ⟨t, D, N, ?_, hrest⟩
    have := (put_zero (o := s1.ostr) (w := sep) hw1).1
    change (s1.ostr.put sep).text = _
    rw [this]
    change s1.text ++ sep = _
    rw [f1, g]

/-! ### The property -/

theorem sequence {R : DItv → Option DItv → Prop} {sep : List Char} (h0 : sep ≠ []) (hsep : ∀ c ∈ sep, isSpace c = true) {xs : List DItv}
    (hx : ∀ x ∈ xs, x.Ok φ) {s s' : Sink} (hw : s.Writes xs) (hB : φ.B s.manip.prec < 2 ^ 31)
    (hR : ∀ x ∈ xs, ∀ D z, (D = .nai ↔ x.IsNaI) → x.itv.set ⊆ D.set → (¬ x.IsNaI → (x.itv.set = ∅ ↔ D = .empty)) →
      (¬ x.IsNaI → Accurate s.manip.numRep s.manip.prec x.itv D) → LiteralResult φ z D x.dec → R x (some z))
    (h : s.run φ slack (writeAll sep xs) = .ok s') :
    ∃ t, s'.text = s.text ++ t ∧ ∀ (i : IStr) (w r : List Char), i.good = true → i.base = .dec → i.skipws = true → IsWs w → i.rest = w ++ (t ++ r) →
      ∃ ys i', readAll φ xs.length i = .ok (ys, i') ∧ List.Forall₂ R xs ys ∧ i'.good = true ∧ ∃ w', IsWs w' ∧ i'.rest = w' ++ r := by
  induction xs generalizing s with
  | nil =>
    cases Std.ok.inj h
    refine ⟨[], by simp, fun i w r hi _ _ hw' hr => ⟨[], i, rfl, .nil, hi, w, hw', by simpa using hr⟩⟩
  | cons x xs ih =>
    have hsplit : writeAll sep (x :: xs) = [.putDItv x, .putText sep] ++ writeAll sep xs := rfl
    rw [hsplit, run_append] at h
    obtain ⟨s1, h1, h2⟩ := Std.bind_ok h
    obtain ⟨hw1, k1, k2, -, t, D, N, e, hl, hD, hs, hD', ha, hN⟩ := write_one hw (hx x (by simp)) h1
    obtain ⟨t', e', hread⟩ := ih (fun y hy => hx y (by simp [hy])) hw1 (by rw [k2]; exact hB)
      (fun y hy D z a1 a2 a3 a4 a5 => hR y (by simp [hy]) D z a1 a2 a3 (by rw [← k1, ← k2]; exact a4) a5) h2
    refine ⟨t ++ sep ++ t', by rw [e', e]; simp, fun i w r hi hb hk hw' hr => ?_⟩
    obtain ⟨c, sep', rfl⟩ := List.exists_cons_of_ne_nil h0
    have hr' : i.rest = w ++ (t ++ c :: (sep' ++ t' ++ r)) := by rw [hr]; simp
    obtain ⟨z, i1, w2, q1, q2, q3, q4, q5, q6, q7⟩ := read_one (φ := φ) hi hb hk hl (fun n hn => supported_of_small hB (hN n hn))
      (hsep c (by simp)) hw' hr'
    have hws : IsWs (w2 ++ c :: sep') := q5.append (isWs_iff.mpr fun a ha => hsep a ha)
    obtain ⟨ys, i', r1, r2, r3, r4⟩ := hread i1 (w2 ++ c :: sep') r q2 q3 q4 hws (by rw [q6]; simp)
    refine ⟨some z :: ys, i', ?_, .cons (hR x (by simp) D z hD hs hD' ha q7) r2, r3, r4⟩
    simp only [List.length_cons, readAll]
    rw [q1]
    change (do let (xs, s) ← readAll φ xs.length i1; Std.ok (some z :: xs, s)) = _
    rw [r1]
    rfl

theorem has_eq {s : Sink} {cs : List OutCmd} (h : Sink.run φ slack {} cs = .ok s) {k : Kind} {c : OutCmd} (hc : lastOf k cs = c) : s.Has c := by
  rw [← hc]; exact run_has h k

theorem writes_of {cs : List OutCmd} {s : Sink} {xs : List DItv} (h : Sink.run φ slack {} cs = .ok s) (hform : lastOf .form cs = .form .infSup)
    (hp : lastOf .punct cs = .punct true) (hw : s.width ≤ 1) (hn : lastOf .dec cs = .dec false ∨ lastOf .base cs = .base .dec)
    (hsp : lastOf .special cs = .special .bounds → ∀ x ∈ xs, x.itv.set = ∅ → x.IsNaI) : s.Writes xs := by
  have h1 : s.iw .form = 0 := has_eq h hform
  have h2 : s.iw .punct = 0 := has_eq h hp
  refine ⟨Or.inl ?_, ?_, hw, fun hnum => ?_, fun hb => ?_⟩
  · simp [Sink.manip, h1]
  · simp [Sink.manip, h2]
  · rcases hn with hn | hn
    · have h3 : s.iw .dec = 0 := has_eq h hn
      simp [Sink.ostr, h3] at hnum
    · exact has_eq h hn
  · refine hsp ?_
    have h3 := run_has h .special
    have h4 := lastOf_kind .special cs
    cases hl : lastOf .special cs <;> rw [hl] at h3 h4 <;> first | (simp [OutCmd.kind] at h4; done) | skip
    rename_i r
    have h5 : s.iw .special = r.flag := h3
    simp only [Sink.manip, h5] at hb
    cases r
    · simp [SpecialRep.flag] at hb
    · rfl
    · simp [SpecialRep.flag] at hb

theorem prec_of {cs : List OutCmd} {s : Sink} (h : Sink.run φ slack {} cs = .ok s) :
    ∃ n, lastOf .prec cs = .prec n ∧ s.manip.prec = n.toNat := by
  have h3 := run_has h .prec
  have h4 := lastOf_kind .prec cs
  cases hl : lastOf .prec cs <;> rw [hl] at h3 h4 <;> first | (simp [OutCmd.kind] at h4; done) | skip
  rename_i n
  refine ⟨n, rfl, ?_⟩
  have h5 : s.iw .prec = n.toNat := h3
  simp [Sink.manip, h5]

/-- A program sets what it likes, but for the inf-sup form with punctuation, and decorations not as octal or hexadecimal numbers, and writes a sequence of
decorated intervals, each followed by white space: reading the text yields intervals that contain those written, with
the same decorations, and the stream is still good.  Partial, because writing may be undefined behaviour (C40); excluded as in C40: other
forms, no punctuation, a field width of more than one, the empty set with its bounds, precisions near `2^31`. -/
theorem C47_sequence_partial {cs : List OutCmd} {s s' : Sink} (hcs : Sink.run φ slack {} cs = .ok s) {sep : List Char} (h0 : sep ≠ [])
    (hsep : ∀ c ∈ sep, isSpace c = true) {xs : List DItv} (hx : ∀ x ∈ xs, x.Ok φ) (hform : lastOf .form cs = .form .infSup)
    (hp : lastOf .punct cs = .punct true) (hw : s.width ≤ 1) (hn : lastOf .dec cs = .dec false ∨ lastOf .base cs = .base .dec)
    (hsp : lastOf .special cs = .special .bounds → ∀ x ∈ xs, x.itv.set = ∅ → x.IsNaI)
    (hB : ∀ n, lastOf .prec cs = .prec n → φ.B n.toNat < 2 ^ 31) (h : s.run φ slack (writeAll sep xs) = .ok s') :
    ∃ t, s'.text = s.text ++ t ∧ ∀ i : IStr, i.good = true → i.base = .dec → i.skipws = true → i.rest = t →
      ∃ ys i', readAll φ xs.length i = .ok (ys, i') ∧ List.Forall₂ (ReadFor φ) xs ys ∧ i'.good = true ∧ ∀ c ∈ i'.rest, isSpace c = true := by
  obtain ⟨n, hn1, hn2⟩ := prec_of hcs
  obtain ⟨t, e, hr⟩ := sequence (R := ReadFor φ) h0 hsep hx (writes_of hcs hform hp hw hn hsp) (by rw [hn2]; exact hB n hn1)
    (fun x hxm D z a1 a2 _ _ a5 => readFor_of (hx x hxm) a1 a2 a5) h
  refine ⟨t, e, fun i hi hb hk hrest => ?_⟩
  obtain ⟨ys, i', r1, r2, r3, w', hw', r4⟩ := hr i [] [] hi hb hk isWs_nil (by simpa using hrest)
  refine ⟨ys, i', r1, r2, r3, ?_⟩
  rw [r4, List.append_nil]
  exact isWs_iff.mp hw'

theorem decText_short {o : OStr} {d : Dec} : ('_' :: d.text o).length ≤ 8 := by
  unfold Dec.text
  cases o.numeric <;> cases o.upper <;> cases o.base <;> cases d <;> decide

theorem hex_total {k : Manip} {o : OStr} {x : DItv} (hx : x.Ok φ) (hf : k.form = .infSup) (hk : k.numRep = .hex)
    (hp : k.punct = true) (ho : o.width ≤ 1) (hsw : 0 ≤ toInt k.strWidth) (hk0 : k.prec = 0) (hw : k.width < 2 ^ 31) (hn : φ.reqWidth .hex 0 0 < 2 ^ 31) : ∃ o', φ.writeDItv 0 k o x = .ok o' := by
  unfold Fmt.writeDItv
  rw [DItv.Ok.isValid hx]
  simp only [Bool.not_true, Bool.false_eq_true, if_false]
  split
  · exact ⟨_, rfl⟩
  · split
    · exact C40_hex_no_overflow hx.1 (Or.inl hf) hk hk0 hw hn
    · rw [manip_decText hp ho]
      have hl := decText_short (o := o) (d := x.dec)
      generalize '_' :: x.dec.text o = t at hl ⊢
      have e1 : toInt t.length = t.length := by
        unfold toInt
        exact Int.bmod_eq_of_le (by omega) (by omega)
      have e2 : toInt k.strWidth < 2 ^ 31 := by
        unfold toInt
        have := Int.bmod_lt (x := k.strWidth) (m := 2 ^ 32) (by norm_num)
        omega
      obtain ⟨o1, h1⟩ := C40_hex_no_overflow (φ := φ) (k := { k with strWidth := toInt k.strWidth - t.length }) (o := o)
        hx.1 (Or.inl hf) hk hk0 hw hn
      have e3 : inBits 32 (toInt k.strWidth - toInt t.length) = .ok (toInt k.strWidth - t.length) := by
        rw [e1]
        unfold inBits
        rw [if_pos (by omega)]
      rw [e3]
      change ∃ o', (φ.writeItv 0 { k with strWidth := toInt k.strWidth - t.length } o x.itv >>= fun o : OStr => Std.ok (o.put t)) = .ok o'
      rw [h1]
      exact ⟨_, rfl⟩

/-- With hexadecimal numbers and no precision given, writing a sequence always ends normally, and reading yields the same
intervals with the same decorations. -/
theorem C47_exact {cs : List OutCmd} {s : Sink} (hcs : Sink.run φ 0 {} cs = .ok s) {sep : List Char} (h0 : sep ≠ [])
    (hsep : ∀ c ∈ sep, isSpace c = true) {xs : List DItv} (hx : ∀ x ∈ xs, x.Ok φ) (hform : lastOf .form cs = .form .infSup)
    (hp : lastOf .punct cs = .punct true) (hw : s.width ≤ 1) (hn : lastOf .dec cs = .dec false ∨ lastOf .base cs = .base .dec)
    (hsp : lastOf .special cs = .special .bounds → ∀ x ∈ xs, x.itv.set = ∅ → x.IsNaI)
    (hhex : lastOf .numRep cs = .numRep .hex) (hprec : lastOf .prec cs = .prec 0) (hwd : ∀ n, lastOf .width cs = .width n → n.toNat < 2 ^ 31)
    (hsw : ∀ n, lastOf .stringWidth cs = .stringWidth n → n.toNat < 2 ^ 31) (hB : φ.B 0 < 2 ^ 31) (hq : φ.reqWidth .hex 0 0 < 2 ^ 31) :
    ∃ s' t, s.run φ 0 (writeAll sep xs) = .ok s' ∧ s'.text = s.text ++ t ∧
      ∀ i : IStr, i.good = true → i.base = .dec → i.skipws = true → i.rest = t →
        ∃ ys i', readAll φ xs.length i = .ok (ys, i') ∧ List.Forall₂ (ReadSame φ) xs ys ∧ i'.good = true ∧ ∀ c ∈ i'.rest, isSpace c = true := by
  have hW := writes_of hcs hform hp hw hn hsp (xs := xs)
  have hk : s.manip.numRep = .hex := by
    have h1 : s.iw .numRep = 3 := has_eq hcs hhex
    simp [Sink.manip, h1]
  have hk0 : s.manip.prec = 0 := by
    have h1 : s.iw .prec = ((0 : UInt32).toNat : ℤ) := has_eq hcs hprec
    simp [Sink.manip, h1]
  have hkw : s.manip.width < 2 ^ 31 := by
    have h3 := run_has hcs .width
    have h4 := lastOf_kind .width cs
    cases hl : lastOf .width cs <;> rw [hl] at h3 h4 <;> first | (simp [OutCmd.kind] at h4; done) | skip
    rename_i n
    have h5 : s.iw .width = n.toNat := h3
    have := hwd n hl
    simp only [Sink.manip, h5, Int.toNat_natCast]
    exact this
  have hks : 0 ≤ toInt s.manip.strWidth := by
    have h3 := run_has hcs .stringWidth
    have h4 := lastOf_kind .stringWidth cs
    cases hl : lastOf .stringWidth cs <;> rw [hl] at h3 h4 <;> first | (simp [OutCmd.kind] at h4; done) | skip
    rename_i n
    have h5 : toInt (s.iw .strWidth) = toInt n.toNat := h3
    have := hsw n hl
    change 0 ≤ toInt (s.iw .strWidth)
    rw [h5, show toInt (n.toNat : ℤ) = n.toNat from Int.bmod_eq_of_le (by omega) (by omega)]
    omega
  have hf : s.manip.form = .infSup := by
    have h1 : s.iw .form = 0 := has_eq hcs hform
    simp [Sink.manip, h1]
  have total : ∀ (xs : List DItv) (s : Sink), (∀ x ∈ xs, x.Ok φ) → s.manip.form = .infSup → s.manip.numRep = .hex → s.manip.prec = 0 →
      s.manip.width < 2 ^ 31 → s.manip.punct = true → s.width ≤ 1 → 0 ≤ toInt s.manip.strWidth → ∃ s', s.run φ 0 (writeAll sep xs) = .ok s' := by
    intro xs
    induction xs with
    | nil => intro s _ _ _ _ _ _ _ _; exact ⟨s, rfl⟩
    | cons x xs ih =>
      intro s hx g1 g2 g3 g4 g5 g6 g7
      obtain ⟨o, ho⟩ := hex_total (o := s.ostr) (hx x (by simp)) g1 g2 g5 g6 g7 g3 g4 hq
      obtain ⟨s1, e1, e2⟩ : ∃ s1, s.exec φ 0 (.putDItv x) = .ok s1 ∧ (s1.manip.form = s.manip.form ∧ s1.manip.numRep = s.manip.numRep ∧
          s1.manip.prec = s.manip.prec ∧ s1.manip.width = s.manip.width ∧ s1.manip.punct = s.manip.punct ∧
          toInt s1.manip.strWidth = toInt s.manip.strWidth) := by
        change ∃ s1, s.putDItv φ 0 x = .ok s1 ∧ _
        unfold Sink.putDItv
        rw [ho]
        change ∃ s1, (if (x.isValid && !x.isNai && !x.itv.isEmpty) = true then Std.ok ((s.after o).set .strWidth (toInt (s.iw .strWidth)))
          else Std.ok (s.after o)) = .ok s1 ∧ _
        split
        · exact ⟨_, rfl, rfl, rfl, rfl, rfl, rfl, toInt_toInt _⟩
        · exact ⟨_, rfl, rfl, rfl, rfl, rfl, rfl, rfl⟩
      obtain ⟨s', hs'⟩ := ih (s1.after (s1.ostr.put sep)) (fun y hy => hx y (by simp [hy])) (e2.1.trans g1) (e2.2.1.trans g2)
        (e2.2.2.1.trans g3) (by
          have : (s1.after (s1.ostr.put sep)).manip.width = s.manip.width := e2.2.2.2.1
          rw [this]; exact g4) (e2.2.2.2.2.1.trans g5) (Nat.zero_le _) (by
          have : toInt (s1.after (s1.ostr.put sep)).manip.strWidth = toInt s.manip.strWidth := e2.2.2.2.2.2
          rw [this]; exact g7)
      refine ⟨s', ?_⟩
      change (do let s' ← s.exec φ 0 (.putDItv x); s'.run φ 0 (.putText sep :: writeAll sep xs)) = _
      rw [e1]
      exact hs'
  obtain ⟨s', hs'⟩ := total xs s hx hf hk hk0 hkw (by
    have h1 : s.iw .punct = 0 := has_eq hcs hp
    simp [Sink.manip, h1]) hw hks
  obtain ⟨t, e, hr⟩ := sequence (R := ReadSame φ) h0 hsep hx hW (by rw [hk0]; exact hB)
    (fun x hxm D z a1 a2 a3 a4 a5 => readSame_of (hx x hxm) a1 (fun hn' => hex_set_eq (hx x hxm).1 a2 (a3 hn') (by
      have := a4 hn'; rw [hk, hk0] at this; exact this)) a5) hs'
  refine ⟨s', t, hs', e, fun i hi hb hk' hrest => ?_⟩
  obtain ⟨ys, i', r1, r2, r3, w', hw', r4⟩ := hr i [] [] hi hb hk' isWs_nil (by simpa using hrest)
  refine ⟨ys, i', r1, r2, r3, ?_⟩
  rw [r4, List.append_nil]
  exact isWs_iff.mp hw'

/-- C47 is false of the code with default settings: writing already the sequence of one interval is undefined behaviour (see C40). -/
theorem C47_false : Sink.run binary64 0 {} (writeAll [' '] [⟨⟨.fin 1, .fin 2⟩, .com⟩]) = .ub := by
  have h : binary64.writeItv 0 { strWidth := toInt (0 - 4) } {} ⟨.fin 1, .fin 2⟩ = .ub :=
    C40_false_buffer (Itv.ok_of_okb (by decide +kernel)) ⟨1, by norm_num [Itv.set, FP.BelowR, FP.AboveR]⟩
      (fun h => by
        have : (3 : ℝ) ∈ (⟨.fin 1, .fin 2⟩ : Itv).set := by rw [h.1]; trivial
        norm_num [Itv.set, FP.BelowR, FP.AboveR] at this) rfl (by decide) rfl rfl
  have h2 : binary64.writeDItv 0 {} {} ⟨⟨.fin 1, .fin 2⟩, .com⟩ = .ub := by
    unfold Fmt.writeDItv
    rw [if_neg (by decide +kernel), if_neg (by decide +kernel), if_neg (by decide +kernel)]
    have e : (({} : Manip).decText {} .com).length = 4 := by decide +kernel
    simp only [e]
    change (binary64.writeItv 0 { strWidth := toInt (0 - 4) } {} ⟨.fin 1, .fin 2⟩ >>= _) = _
    rw [h]
    rfl
  have h3 : ({} : Sink).putDItv binary64 0 ⟨⟨.fin 1, .fin 2⟩, .com⟩ = .ub := by
    unfold Sink.putDItv
    change (binary64.writeDItv 0 {} {} ⟨⟨.fin 1, .fin 2⟩, .com⟩ >>= _) = _
    rw [h2]; rfl
  change (({} : Sink).putDItv binary64 0 ⟨⟨.fin 1, .fin 2⟩, .com⟩ >>= _) = _
  rw [h3]; rfl

/-- The condition on the string width in `C47_exact` is needed: with `string_width(2147483648)` the width that is left for the bare
interval is computed with an overflow of `int`, for every decorated interval that is not empty, in every form. -/
theorem C47_false_string_width {k : Manip} {o : OStr} {x : DItv} (hx : x.Ok φ) (h0 : x.itv.set.Nonempty) (hp : k.punct = true)
    (hw : o.width ≤ 1) (hs : k.strWidth = 2147483648) : φ.writeDItv slack k o x = .ub := by
  have hne : x.itv.NE φ := by
    rcases hx.1.cases with h | h
    · rw [h] at h0
      rw [Itv.set_empty] at h0; exact absurd h0 Set.not_nonempty_empty
    · exact h
  have h1 : ¬ x.isNai = true := by
    intro h1
    unfold DItv.isNai at h1
    simp only [hx.isValid, Bool.true_and] at h1
    exact hx.2.2.1 hne.ne_empty (by simpa using h1 : (_ ∧ _) ∧ x.dec = .ill).2
  unfold Fmt.writeDItv
  rw [hx.isValid]
  simp only [Bool.not_true, Bool.false_eq_true, if_false]
  rw [if_neg h1, if_neg (by rw [hne.isEmpty]; simp), manip_decText hp hw]
  have hl := decText_short (o := o) (d := x.dec)
  have h0 : 0 < ('_' :: x.dec.text o).length := by simp
  generalize '_' :: x.dec.text o = t at hl h0 ⊢
  have e1 : toInt t.length = t.length := by
    unfold toInt
    exact Int.bmod_eq_of_le (by omega) (by omega)
  have e2 : inBits 32 (toInt k.strWidth - toInt t.length) = .ub := by
    rw [e1, hs, show toInt 2147483648 = -2147483648 by decide]
    unfold inBits
    rw [if_neg (by omega)]
  rw [e2]
  rfl

/-- A program that does so. -/
example : (⟨⟨.fin 1, .fin 2⟩, .com⟩ : DItv).Ok binary64 ∧ (⟨.fin 1, .fin 2⟩ : Itv).set.Nonempty ∧
    ((({} : Sink).set .strWidth 2147483648).set .numRep 3).manip.strWidth = 2147483648 ∧
    Sink.run binary64 0 {} [.stringWidth 2147483648, .numRep .hex] = .ok ((({} : Sink).set .strWidth 2147483648).set .numRep 3) :=
  ⟨⟨Itv.ok_of_okb (by decide +kernel), by simp, by simp, by simp⟩, ⟨1, by norm_num [Itv.set, FP.BelowR, FP.AboveR]⟩, rfl, rfl⟩

/-- The formats of `double` and `float` meet the conditions on the format. -/
example : binary64.B 0 < 2 ^ 31 ∧ binary64.reqWidth .hex 0 0 < 2 ^ 31 ∧ binary32.B 0 < 2 ^ 31 ∧ binary32.reqWidth .hex 0 0 < 2 ^ 31 := by
  decide +kernel

/-- `C47_exact` is not void: three intervals, one of them NaI, and the text. -/
example : (∃ s, Sink.run binary64 0 {} ([.numRep .hex] ++ writeAll [' ', '\n'] [⟨⟨.fin (-1), .fin (1 / 8)⟩, .defd⟩, DItv.nai, ⟨⟨.fin 3, .pinf⟩, .dac⟩]) = .ok s ∧
    s.text = "[-0x1p+0,0x2p-4]_def \n[nai] \n[0x3p+0,inf]_dac \n".toList) ∧
    ∀ x ∈ [(⟨⟨.fin (-1), .fin (1 / 8)⟩, .defd⟩ : DItv), DItv.nai, ⟨⟨.fin 3, .pinf⟩, .dac⟩], x.Ok binary64 := by
  refine ⟨Std.of_output (by decide +kernel), ?_⟩
  intro x hx
  simp only [List.mem_cons, List.not_mem_nil, or_false] at hx
  rcases hx with rfl | rfl | rfl
  · exact ⟨Itv.ok_of_okb (by decide +kernel), by simp, by simp, by simp⟩
  · exact nai_ok
  · exact ⟨Itv.ok_of_okb (by decide +kernel), by simp, by simp, by simp⟩

end P1788
