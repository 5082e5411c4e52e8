import Verif.Props.C40
import Verif.Lemmas.WriteLen
import Verif.Lemmas.WriteUnc

/-!
# C40 Writing intervals is safe: decorated intervals, the size of the buffer
-/

namespace P1788
open Bornology
variable {φ : Fmt} {slack : ℕ}

/-! ### Decorated intervals -/

theorem decText_text {o : OStr} {d : Dec} (h : o.numeric = true → o.base = .dec) : DecText (d.text o) d := by
  unfold Dec.text
  cases hn : o.numeric with
  | true =>
    rw [h hn]
    simp only [if_true]
    right
    cases d <;> exact ⟨by decide, digits_of (by decide), by decide⟩
  | false =>
    left
    simp only [Bool.false_eq_true, if_false]
    cases o.upper <;> cases d <;> decide

theorem manip_decText {k : Manip} {o : OStr} {d : Dec} (hp : k.punct = true) (hw : o.width ≤ 1) : k.decText o d = '_' :: d.text o := by
  unfold Manip.decText
  rw [write_eq (d := d) (by cases d <;> decide), hp]
  unfold OStr.put
  simp only [if_true, List.length_singleton]
  rw [show o.width - 1 = 0 by omega]
  simp [Dec.text]

theorem nai_text {k : Manip} {o : OStr} (hp : k.punct = true) (ho : o.Plain) :
    ∃ t, ((k.naiParts o.upper).write k.strWidth o).text = o.text ++ t ∧ Literal t .nai .ill [] := by
  obtain ⟨u, v, w, hu, hv, hw, e, -⟩ := parts_text (p := k.naiParts o.upper) (n := k.strWidth) ho (by unfold Manip.naiParts; rw [hp]; simp)
  refine ⟨_, e, ?_⟩
  unfold Manip.naiParts
  rw [hp]
  simp only [if_true]
  generalize toInt (k.width - ((3 - 1) / 2 : ℕ)) = n1
  have := Literal.plain (w1 := []) hu (BodyText.nai (w1 := blanks n1 ++ v) (w := if o.upper then ['N', 'A', 'I'] else ['n', 'a', 'i']) (w2 := w ++ blanks n1)
    (blanks_ws.append hv) (by cases o.upper <;> decide) (hw.append blanks_ws)) trivial isWs_nil
  simpa [Denot.dec] using this

/-- What is written for a decorated interval, in inf-sup form, is a literal with its decoration that denotes a set containing the
interval.  Excluded, because they are not literals: output without punctuation, the empty set with special representation
"bounds", a field width of more than one (the decoration is padded, too), numbers other than decimal ones for
decorations. -/
theorem C40_decorated_partial {k : Manip} {o o' : OStr} {x : DItv} (hx : x.Ok φ) (hf : k.form = .infSup ∨ x.itv.set = ∅) (hp : k.punct = true)
    (hw : o.width ≤ 1) (hnum : o.numeric = true → o.base = .dec) (he : ¬ (x.itv.set = ∅ ∧ ¬ x.IsNaI ∧ k.special = .bounds))
    (h : φ.writeDItv slack k o x = .ok o') :
    ∃ t D N, o'.text = o.text ++ t ∧ Literal t D x.dec N ∧ (D = .nai ↔ x.IsNaI) ∧ x.itv.set ⊆ D.set ∧ (¬ x.IsNaI → (x.itv.set = ∅ ↔ D = .empty)) ∧
      (¬ x.IsNaI → Accurate k.numRep k.prec x.itv D) ∧ ∀ n ∈ N, n.Small (φ.B k.prec) := by
  have hem := set_empty_iff_nan hx.1
  have ho : o.Plain := Or.inl hw
  unfold Fmt.writeDItv at h
  rw [DItv.Ok.isValid hx] at h
  simp only [Bool.not_true, Bool.false_eq_true, if_false] at h
  by_cases hn : x.IsNaI
  · have h1 : x.isNai = true := by
      obtain ⟨a, b⟩ := hn
      obtain ⟨i, d⟩ := x
      simp only at a b
      subst a b
      decide
    rw [if_pos h1] at h
    replace h := (Std.ok.inj h).symm
    subst h
    obtain ⟨t, e, hl⟩ := nai_text (k := k) hp ho
    refine ⟨t, .nai, [], e, ?_, by simp [hn], ?_, fun h => absurd hn h, fun h => absurd hn h, by simp⟩
    · rw [hn.2]; exact hl
    · rw [hem.mpr hn.1]; exact Set.empty_subset _
  · have h1 : ¬ x.isNai = true := by
      intro h1
      apply hn
      unfold DItv.isNai at h1
      simp only [hx.isValid, Bool.true_and] at h1
      have h2 : x.dec = .ill := (by simpa using h1 : (_ ∧ _) ∧ x.dec = .ill).2
      refine ⟨?_, h2⟩
      by_contra hc
      exact hx.2.2.1 hc h2
    rw [if_neg h1] at h
    by_cases hemp : x.itv.set = ∅
    · have hx1 := hem.mp hemp
      have hdec : x.dec = .trv := (hx.2.1 hx1).resolve_left fun e => hn ⟨hx1, e⟩
      rw [if_pos (by rw [hx1]; decide)] at h
      obtain ⟨t, D, N, e, hl, hD1, hs, hD, ha, hN⟩ := C40_contains_partial hx.1 (Or.inr hemp) hp ho (fun h => he ⟨hemp, hn, h.2⟩) h
      have : D = .empty := hD.mp hemp
      subst this
      refine ⟨t, .empty, N, e, ?_, by simp [hn], hs, fun _ => hD, fun _ => ha, hN⟩
      rw [hdec]; exact hl
    · have hf' := hf.resolve_right hemp
      have hne : x.itv.NE φ := by
        rcases hx.1.cases with h | h
        · exact absurd (hem.mpr h) hemp
        · exact h
      rw [if_neg (by rw [hne.isEmpty]; simp)] at h
      simp only [manip_decText hp hw] at h
      obtain ⟨w, -, h⟩ := Std.bind_ok h
      generalize hk' : ({ k with strWidth := w } : Manip) = k' at h
      unfold Fmt.writeItv at h
      rw [hne.isValid] at h
      simp only [Bool.not_true, Bool.false_eq_true, if_false] at h
      rw [if_neg (by rw [← hk']; simp [hf'])] at h
      cases h2 : φ.writeInfSup slack k' o x.itv with
      | outOfRange => rw [h2] at h; exact Std.noConfusion rfl (heq_of_eq h)
      | ub => rw [h2] at h; exact Std.noConfusion rfl (heq_of_eq h)
      | ok o1 =>
        rw [h2] at h
        replace h := (Std.ok.inj h).symm
        subst h
        have hx1 : x.itv ≠ ⟨.nan, .nan⟩ := hne.ne_empty
        obtain ⟨u, b, D, N, hu, e, e', hB, hs, hD1, hc, hD, hd, ha, hN⟩ := infSup_text hx.1 (by rw [← hk']; exact hp) ho (fun h => hx1 h.1) h2
        obtain ⟨f1, -⟩ := put_zero (w := '_' :: x.dec.text o) e'
        refine ⟨u ++ b ++ '_' :: x.dec.text o, D, N, by rw [f1, e]; simp, ?_, by simp [hD1, hn], hs, fun _ => ?_, fun _ => ?_, ?_⟩
        · have := Literal.decorated (w1 := []) (w2 := []) hu hB hc isWs_nil (decText_text (d := x.dec) hnum) isWs_nil hD1 (hd _ hx1 hx.2.2.2) (hx.2.2.1 hx1)
          simpa using this
        · rw [hem, hD]
        · rw [← hk'] at ha; exact ha
        · rw [← hk'] at hN; exact hN

/-- A decorated interval that is written and read again is contained in the result, which has the same decoration unless a bound
overflows (then `com` becomes `dac`). -/
theorem C40_decorated_round_trip_partial {k : Manip} {o o' : OStr} {x : DItv} (hx : x.Ok φ) (hf : k.form = .infSup ∨ x.itv.set = ∅)
    (hp : k.punct = true) (hw : o.width ≤ 1) (hnum : o.numeric = true → o.base = .dec)
    (he : ¬ (x.itv.set = ∅ ∧ ¬ x.IsNaI ∧ k.special = .bounds)) (hB : φ.B k.prec < 2 ^ 31) (h : φ.writeDItv slack k o x = .ok o') :
    ∃ t m y, o'.text = o.text ++ t ∧ φ.textToDecorated t = .ok m ∧ Returns m y ∧ y.Ok φ ∧ (y.IsNaI ↔ x.IsNaI) ∧ x.itv.set ⊆ y.itv.set ∧
      (y.dec = x.dec ∨ x.dec = .com ∧ y.dec = .dac ∧ ¬ IsBounded y.set) := by
  obtain ⟨t, D, N, e, hl, hD, hs, hD', -, hN⟩ := C40_decorated_partial hx hf hp hw hnum he h
  obtain ⟨m, y, hm, hy, hr⟩ := C38_literal_partial (φ := φ) hl (fun n hn => supported_of_small hB (hN n hn))
  refine ⟨t, m, y, e, hm, hy, hr.1, ?_, ?_, ?_⟩
  · by_cases hn : x.IsNaI
    · simp [hn, hr.2.1 (hD.mpr hn)]
    · simp only [hn, iff_false]
      obtain ⟨-, h1, h2⟩ := hr.2.2 (fun e => hn (hD.mp e))
      intro hy
      by_cases hc : x.dec = .com ∧ ¬ IsBounded y.set
      · have := h1 hc
        rw [hy.2] at this
        cases this
      · have := h2 hc
        rw [hy.2] at this
        have hnan : x.itv = ⟨.nan, .nan⟩ := by
          by_contra hh
          exact hx.2.2.1 hh this.symm
        exact hn ⟨hnan, this.symm⟩
  · by_cases hn : x.IsNaI
    · rw [(set_empty_iff_nan hx.1).mpr hn.1]; exact Set.empty_subset _
    · exact hs.trans (hr.2.2 (fun e => hn (hD.mp e))).1.2.1
  · by_cases hn : x.IsNaI
    · left; rw [(hr.2.1 (hD.mpr hn)).2, hn.2]
    · obtain ⟨-, h1, h2⟩ := hr.2.2 (fun e => hn (hD.mp e))
      by_cases hc : x.dec = .com ∧ ¬ IsBounded y.set
      · exact Or.inr ⟨hc.1, h1 hc, hc.2⟩
      · exact Or.inl (h2 hc)

/-! ### The buffer -/

/-- Hexadecimal numbers without a given precision always fit into the buffer: writing a proper interval ends normally. -/
theorem C40_hex_no_overflow {k : Manip} {o : OStr} {x : Itv} (hx : x.Ok φ) (hf : k.form = .infSup ∨ x.set = ∅) (hk : k.numRep = .hex)
    (hk0 : k.prec = 0) (hw : k.width < 2 ^ 31) (hn : φ.reqWidth .hex 0 0 < 2 ^ 31) : ∃ o', φ.writeItv 0 k o x = .ok o' := by
  unfold Fmt.writeItv
  rw [Itv.Ok.isValid hx]
  simp only [Bool.not_true, Bool.false_eq_true, if_false]
  rw [if_neg (by
    rintro ⟨h1, h2⟩
    rcases hf with hf | h
    · exact h1 hf
    · rw [(set_empty_iff_nan hx).mp h] at h2; exact absurd h2 (by decide))]
  unfold Fmt.writeInfSup Fmt.parts
  simp only
  by_cases hs : ((x.isEmpty || x.isEntire) && decide (k.special ≠ .bounds)) = true
  · rw [if_pos hs]; exact ⟨_, rfl⟩
  · rw [if_neg hs, hk, hk0]
    have hin : x.inf.In φ ∧ x.sup.In φ := by
      rcases hx.cases with rfl | hne
      · exact ⟨trivial, trivial⟩
      · exact ⟨(inf_facts hne).1, (sup_facts hne).1⟩
    obtain ⟨t2, h2⟩ := getStr_hex (slack := 0) (m := .D) (width := k.width) (up := o.upper) hin.1 hw hn
    obtain ⟨t4, h4⟩ := getStr_hex (slack := 0) (m := .U) (width := k.width) (up := o.upper) hin.2 hw hn
    rw [h2, h4]
    exact ⟨_, rfl⟩

theorem infSup_ub {k : Manip} {o : OStr} {x : Itv} (hne : x.NE φ) (hf : k.form = .infSup) (hs : ¬ (x.set = Set.univ ∧ k.special ≠ .bounds))
    (h : φ.getStr slack .D k.numRep k.width k.prec o.upper x.inf = .ub ∨ φ.getStr slack .U k.numRep k.width k.prec o.upper x.sup = .ub) :
    φ.writeItv slack k o x = .ub := by
  unfold Fmt.writeItv
  rw [hne.isValid]
  simp only [Bool.not_true, Bool.false_eq_true, if_false]
  rw [if_neg (by simp [hf])]
  unfold Fmt.writeInfSup Fmt.parts
  simp only
  rw [if_neg (by
    rw [hne.isEmpty]
    simp only [Bool.false_or, Bool.and_eq_true, decide_eq_true_eq]
    rintro ⟨h1, h2⟩
    refine hs ⟨?_, h2⟩
    obtain ⟨a, b⟩ := (NE.isEntire_iff hne).mp h1
    ext r
    simp [Itv.set, FP.toE_eq_bot.mp a, FP.toE_eq_top.mp b, FP.BelowR, FP.AboveR])]
  rcases h with h | h
  · rw [h]; rfl
  · rw [h]
    rcases getStr_cases (φ := φ) (slack := slack) (m := .D) (r := k.numRep) (width := k.width) (prec := k.prec) (up := o.upper) (x := x.inf) with h1 | ⟨⟨t, h1⟩, -⟩
    · rw [h1.1]; rfl
    · rw [h1]; rfl

/-- C40 is false of the code: with default settings (and for all but hexadecimal number formats), writing any interval
whose bounds are written is undefined behaviour, because the buffer has room for the terminating null character
only. -/
theorem C40_false_buffer {k : Manip} {o : OStr} {x : Itv} (hx : x.Ok φ) (h0 : x.set.Nonempty) (hs : ¬ (x.set = Set.univ ∧ k.special ≠ .bounds))
    (hf : k.form = .infSup) (hk : k.numRep ≠ .hex) (hw : k.width = 0) (hp : k.prec = 0) : φ.writeItv 0 k o x = .ub := by
  have hne : x.NE φ := by
    rcases hx.cases with rfl | h
    · rw [Itv.set_empty] at h0; exact absurd h0 Set.not_nonempty_empty
    · exact h
  refine infSup_ub hne hf hs (Or.inl (getStr_ub ?_))
  have h1 := numText_pos (φ := φ) (r := k.numRep) (up := o.upper) (prec := k.prec) (m := .D) (x := x.inf)
  have h2 : φ.reqWidth k.numRep k.width k.prec = 0 := by
    rw [hw, hp]
    unfold Fmt.reqWidth
    cases hr : k.numRep with
    | hex => exact absurd hr hk
    | _ => rfl
  rw [h2]
  omega

/-- The same holds for fixed and scientific notation with any precision, unless the field width exceeds the precision by
more than one. -/
theorem C40_false_buffer_precision {k : Manip} {o : OStr} {x : Itv} (hx : x.Ok φ) (h0 : x.set.Nonempty) (hu : x.set ≠ Set.univ)
    (hf : k.form = .infSup) (hk : k.numRep = .dec ∨ k.numRep = .sci) (hw : k.width ≤ k.prec + 1) : φ.writeItv 0 k o x = .ub := by
  have hne : x.NE φ := by
    rcases hx.cases with rfl | h
    · rw [Itv.set_empty] at h0; exact absurd h0 Set.not_nonempty_empty
    · exact h
  obtain ⟨i1, i2, i3, i4, i5, i6⟩ := inf_facts hne
  obtain ⟨s1, s2, s3, s4, s5, s6⟩ := sup_facts hne
  have h2 : φ.reqWidth k.numRep k.width k.prec ≤ k.prec + 1 := by
    unfold Fmt.reqWidth
    rcases hk with hk | hk <;> rw [hk] <;> simp only <;> split_ifs <;> omega
  have h3 : k.prec + 2 ≤ (if k.prec = 0 then 6 else k.prec) + 2 := by split_ifs <;> omega
  refine infSup_ub hne hf (fun h => hu h.1) ?_
  by_cases hl : x.inf = .ninf
  · have hh : x.sup ≠ .pinf := by
      intro hh
      refine hu ?_
      ext r
      simp [Itv.set, i5.mp hl, s5.mp hh, FP.BelowR, FP.AboveR]
    right
    have h1 := numText_len (φ := φ) hk (up := o.upper) (prec := k.prec) (m := .U) s2 s3 hh
    exact getStr_ub (by omega)
  · left
    have h1 := numText_len (φ := φ) hk (up := o.upper) (prec := k.prec) (m := .D) i2 hl i3
    exact getStr_ub (by omega)

theorem ucStr_ub {k : Manip} {up : Bool} {m : Rnd} {v : FP} (h1 : v ≠ .nan) (h2 : v ≠ .ninf) (h3 : v ≠ .pinf) : φ.ucStr 0 k up m v = .ub := by
  unfold Fmt.ucStr
  have hr : k.ucRep = .dec ∨ k.ucRep = .sci := by unfold Manip.ucRep; split_ifs <;> simp
  have hp : 0 < k.ucPrec := by unfold Manip.ucPrec; split_ifs <;> omega
  have h := numText_len (φ := φ) hr (up := up) (prec := k.ucPrec) (m := m) h1 h2 h3
  rw [if_neg (by omega)] at h
  have h2 : φ.reqWidth k.ucRep 0 k.ucPrec = k.ucPrec := by
    unfold Fmt.reqWidth
    rcases hr with hk | hk <;> rw [hk] <;> simp
  exact getStr_ub (by omega)

/-- In uncertain form the text never fits into the buffer: writing any non-empty interval is undefined behaviour. -/
theorem C40_false_buffer_uncertain {k : Manip} {o : OStr} {x : Itv} (hx : x.Ok φ) (h0 : x.set.Nonempty) (hf : k.form ≠ .infSup) :
    φ.writeItv 0 k o x = .ub := by
  have hne : x.NE φ := by
    rcases hx.cases with rfl | h
    · rw [Itv.set_empty] at h0; exact absurd h0 Set.not_nonempty_empty
    · exact h
  unfold Fmt.writeItv
  rw [hne.isValid, hne.isEmpty]
  simp only [Bool.not_true, Bool.false_eq_true, if_false, Bool.not_false, and_true]
  rw [if_pos hf]
  have key : φ.ucText 0 k o.upper x = .ub := by
    unfold Fmt.ucText
    simp only
    by_cases h1 : x.isEntire = true
    · rw [if_pos h1]
      have : x.mid φ = .fin 0 := by
        unfold Itv.mid
        rw [hne.isValid, hne.isEmpty, h1]
        simp
      rw [this, ucStr_ub (by simp) (by simp) (by simp)]
      rfl
    rw [if_neg h1]
    have hfin : ∀ v : FP, v ≠ .nan → v.isInf = false → v ≠ .ninf ∧ v ≠ .pinf := by
      intro v _ h
      cases v <;> simp_all [FP.isInf]
    by_cases h2 : x.lo.isInf = true
    · rw [if_pos h2]
      have hlo : x.lo = .ninf := by
        have := fun e => hne.lo_top (FP.toE_eq_top.mpr e)
        cases hl : x.lo <;> simp_all [FP.isInf]
      have hhi : x.hi ≠ .pinf := by
        intro e
        exact h1 ((NE.isEntire_iff hne).mpr ⟨FP.toE_eq_bot.mpr hlo, FP.toE_eq_top.mpr e⟩)
      rw [ucStr_ub hne.hi_ne (fun e => hne.hi_bot (FP.toE_eq_bot.mpr e)) hhi]
      rfl
    rw [if_neg h2]
    have hlo := hfin x.lo hne.lo_ne (by simpa using h2)
    by_cases h3 : x.hi.isInf = true
    · rw [if_pos h3, ucStr_ub hne.lo_ne hlo.1 hlo.2]; rfl
    · rw [if_neg h3, ucStr_ub hne.lo_ne hlo.1 hlo.2]; rfl
  rw [key]
  rfl

/-! ### Texts that are not literals -/

/-- The text written, if writing ends normally. -/
def Std.written : Std OStr → Option (List Char)
  | .ok o => some o.text
  | _ => none

/-- Reading fails. -/
def Std.failed : Std (Option DItv × IStr) → Bool
  | .ok (_, s) => !s.ok
  | _ => false

theorem refused_of_failed {l : List Char} (h : (φ.readItv { rest := l }).failed = true) :
    (∃ m, φ.textToInterval l = .ok m ∧ Refused m .undefinedOperation ⟨.nan, .nan⟩) ∧
    ∃ m y, φ.textToDecorated l = .ok m ∧ Raises m .undefinedOperation y ∧ y.IsNaI := by
  cases hr : φ.readItv { rest := l } with
  | outOfRange => rw [hr] at h; exact Bool.noConfusion h
  | ub => rw [hr] at h; exact Bool.noConfusion h
  | ok y =>
    obtain ⟨x, s'⟩ := y
    rw [hr] at h
    have ho : s'.ok = false := by simpa [Std.failed] using h
    refine ⟨⟨_, (text_bare_of l hr).1 ho, (raises_signal_then _ _).refused⟩, (do signal .undefinedOperation; return DItv.nai), DItv.nai, ?_,
      raises_signal_then _ _, rfl, rfl⟩
    unfold Fmt.textToDecorated
    rw [hr]
    simp only [bind, Std.bind, ho, Bool.not_false, if_true]
    rfl

/-- The empty set in special representation "bounds" is written as a text that cannot be read. -/
theorem C40_false_empty_bounds :
    (binary64.writeItv 0 { special := .bounds, numRep := .hex } {} Itv.empty).written = some "[inf,-inf]".toList ∧
      ∃ m, binary64.textToInterval "[inf,-inf]".toList = .ok m ∧ Refused m .undefinedOperation ⟨.nan, .nan⟩ :=
  ⟨by decide +kernel, (refused_of_failed (by decide +kernel)).1⟩

/-- Characters other than white space are left. -/
def Std.trailing : Std (Option DItv × IStr) → Bool
  | .ok (_, s) => s.ok && (match garbage s.rest with | .ok g => g | _ => false)
  | _ => false

theorem refused_of_trailing {l : List Char} (h : (φ.readItv { rest := l }).trailing = true) :
    ∃ m y, φ.textToDecorated l = .ok m ∧ Raises m .undefinedOperation y ∧ y.IsNaI := by
  cases hr : φ.readItv { rest := l } with
  | outOfRange => rw [hr] at h; exact Bool.noConfusion h
  | ub => rw [hr] at h; exact Bool.noConfusion h
  | ok y =>
    obtain ⟨x, s'⟩ := y
    rw [hr] at h
    simp only [Std.trailing, Bool.and_eq_true] at h
    have hg : garbage s'.rest = .ok true := by
      cases hg : garbage s'.rest with
      | ok g => rw [hg] at h; exact congrArg _ h.2
      | outOfRange => rw [hg] at h; exact Bool.noConfusion h.2
      | ub => rw [hg] at h; exact Bool.noConfusion h.2
    refine ⟨(do signal .undefinedOperation; return DItv.nai), DItv.nai, ?_, raises_signal_then _ _, rfl, rfl⟩
    unfold Fmt.textToDecorated
    rw [hr]
    simp only [bind, Std.bind, h.1, Bool.not_true, Bool.false_eq_true, if_false, hg, if_true]
    rfl

/-- A field width is applied to the separator of the decoration, too: the text cannot be read. -/
theorem C40_false_setw :
    (binary64.writeDItv 0 { numRep := .hex } { width := 4 } ⟨⟨.fin 1, .fin 2⟩, .com⟩).written = some "   [0x1p+0,0x2p+0]   _com".toList ∧
      ∃ m y, binary64.textToDecorated "   [0x1p+0,0x2p+0]   _com".toList = .ok m ∧ Raises m .undefinedOperation y ∧ y.IsNaI :=
  ⟨by decide +kernel, refused_of_trailing (by decide +kernel)⟩

/-- Examples: writing hexadecimal numbers ends normally, with the text shown. -/
example : (binary64.writeItv 0 { numRep := .hex } {} ⟨.fin (-3 / 2), .pinf⟩).written = some "[-0x1.8p+0,inf]".toList ∧
    (binary64.writeItv 0 { numRep := .hex, width := 8, strWidth := 30 } { upper := true } ⟨.fin (1 / 1024), .fin 10⟩).written =
      some "[      0X4P-12,        0XAP+0]".toList := by
  decide +kernel

/-- The hypotheses of the theorems hold for a concrete case. -/
example : (⟨.fin (-3 / 2), .pinf⟩ : Itv).Ok binary64 ∧ ({} : OStr).Plain ∧ ({} : Manip).punct = true ∧ ({} : Manip).form = .infSup ∧
    binary64.B 17 < 2 ^ 31 ∧ binary64.reqWidth .hex 0 0 < 2 ^ 31 ∧ (⟨⟨.fin 1, .fin 2⟩, .com⟩ : DItv).Ok binary64 :=
  ⟨Itv.ok_of_okb (by decide +kernel), Or.inl (by decide), rfl, rfl, by decide, by decide, Itv.ok_of_okb (by decide +kernel), by simp, by simp, by simp⟩

/-- Examples: what is written if the allocator provides more memory than requested. -/
example : (binary64.writeItv 99 {} {} ⟨.fin (1 / 3), .fin (2000 / 3)⟩).written = some "[0.333333,666.667]".toList ∧
    (binary64.writeItv 99 { numRep := .sci, prec := 2 } {} ⟨.fin (-1 / 3), .fin (2000 / 3)⟩).written = some "[-3.34e-01,6.67e+02]".toList ∧
    (binary64.writeItv 99 { numRep := .dec, prec := 1 } {} ⟨.fin (-1 / 3), .fin (2000 / 3)⟩).written = some "[-0.4,666.7]".toList ∧
    (binary64.writeDItv 99 {} {} ⟨⟨.fin (-1000000), .fin 10000000⟩, .trv⟩).written = some "[-1e+06,1e+07]_trv".toList ∧
    (binary64.writeDItv 99 {} {} DItv.nai).written = some "[nai]".toList ∧
    (binary64.writeItv 99 { form := .uncertain } {} ⟨.fin 1, .fin 2⟩).written = some "1.500000?500000".toList := by
  decide +kernel

end P1788
