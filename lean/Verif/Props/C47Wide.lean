import Verif.Props.C47b
import Verif.Props.C40Width

/-! # C47: with a number width that is large enough, what is written is read back

For every number format and precision: the program sets a number width that has room for every number, and then writing never
leaves the buffer (`C40_wide`). -/

namespace P1788

variable {φ : Fmt}

theorem wide_total {k : Manip} {o : OStr} {x : DItv} (hx : x.Ok φ) (hf : k.form = .infSup) (hp : k.punct = true) (ho : o.width ≤ 1)
    (hsw : 0 ≤ toInt k.strWidth) (hw : φ.needWidth k.numRep k.prec ≤ k.width) (hw' : k.width < 2 ^ 31) : ∃ o', φ.writeDItv 0 k o x = .ok o' := by
  unfold Fmt.writeDItv
  rw [DItv.Ok.isValid hx]
  simp only [Bool.not_true, Bool.false_eq_true, if_false]
  split
  · exact ⟨_, rfl⟩
  · split
    · exact C40_wide hx.1 (Or.inl hf) hw hw'
    · rw [manip_decText hp ho]
      have hl := decText_short (o := o) (d := x.dec)
      generalize '_' :: x.dec.text o = t at hl ⊢
      have e1 : toInt t.length = t.length := by
        unfold toInt
        exact Int.bmod_eq_of_le (by omega) (by omega)
      have e2 : toInt k.strWidth < 2 ^ 31 := by
        unfold toInt
        have := Int.bmod_lt (x := k.strWidth) (m := 2 ^ 32) (by norm_num)
        omega
      obtain ⟨o1, h1⟩ := C40_wide (φ := φ) (k := { k with strWidth := toInt k.strWidth - t.length }) (o := o) hx.1 (Or.inl hf) hw hw'
      have e3 : inBits 32 (toInt k.strWidth - toInt t.length) = .ok (toInt k.strWidth - t.length) := by
        rw [e1]
        unfold inBits
        rw [if_pos (by omega)]
      rw [e3]
      change ∃ o', (φ.writeItv 0 { k with strWidth := toInt k.strWidth - t.length } o x.itv >>= fun o : OStr => Std.ok (o.put t)) = .ok o'
      rw [h1]
      exact ⟨_, rfl⟩

/-- **A large enough number width makes writing decorated intervals safe**, and what is written is read back. -/
theorem C47_wide {k : Manip} {o : OStr} {x : DItv} (hx : x.Ok φ) (hf : k.form = .infSup) (hp : k.punct = true) (ho : o.width ≤ 1)
    (hnum : o.numeric = true → o.base = .dec) (he : ¬ (x.itv.set = ∅ ∧ ¬ x.IsNaI ∧ k.special = .bounds)) (hB : φ.B k.prec < 2 ^ 31)
    (hsw : 0 ≤ toInt k.strWidth) (hw : φ.needWidth k.numRep k.prec ≤ k.width) (hw' : k.width < 2 ^ 31) :
    ∃ o' t m y, φ.writeDItv 0 k o x = .ok o' ∧ o'.text = o.text ++ t ∧ φ.textToDecorated t = .ok m ∧ Returns m y ∧ y.Ok φ ∧
      (y.IsNaI ↔ x.IsNaI) ∧ x.itv.set ⊆ y.itv.set ∧ (y.dec = x.dec ∨ x.dec = .com ∧ y.dec = .dac ∧ ¬ Bornology.IsBounded y.set) := by
  obtain ⟨o', h⟩ := wide_total (o := o) hx hf hp ho hsw hw hw'
  obtain ⟨t, m, y, h1⟩ := C40_decorated_round_trip_partial hx (Or.inl hf) hp ho hnum he hB h
  exact ⟨o', t, m, y, h, h1⟩

/-- Settings that choose one of the number formats `R` and one of the precisions `N` only, and number widths of at least `W`. -/
def OutCmd.KeepsWide (R : NumRep → Prop) (N : ℕ → Prop) (W : ℕ) : OutCmd → Prop
  | .numRep r => R r
  | .prec n => N n.toNat
  | .width n => W ≤ n.toNat ∧ n.toNat < 2 ^ 31
  | .stringWidth n => n.toNat < 2 ^ 31
  | _ => True

/-- The settings of the stream are of this kind. -/
structure Sink.Wide (R : NumRep → Prop) (N : ℕ → Prop) (W : ℕ) (s : Sink) : Prop where
  rep : R s.manip.numRep
  prec : N s.manip.prec
  width : W ≤ s.manip.width
  small : s.manip.width < 2 ^ 31
  str : 0 ≤ toInt s.manip.strWidth

theorem keepsWide {R : NumRep → Prop} {N : ℕ → Prop} {W slack : ℕ} {c : OutCmd} (hc : c.KeepsWide R N W) {s s' : Sink}
    (h : s.exec φ slack c = .ok s') (hs : s.Wide R N W) : s'.Wide R N W := by
  obtain ⟨h1, h2, h3, h4, h5⟩ := hs
  cases c with
  | numRep r =>
    have hc : R r := hc
    cases Std.ok.inj h
    refine ⟨?_, h2, h3, h4, h5⟩
    cases r <;> simpa [Sink.manip, Sink.set, NumRep.flag] using hc
  | prec n =>
    have hc : N n.toNat := hc
    cases Std.ok.inj h
    exact ⟨h1, by simpa [Sink.manip, Sink.set] using hc, h3, h4, h5⟩
  | width n =>
    have hc : W ≤ n.toNat ∧ n.toNat < 2 ^ 31 := hc
    cases Std.ok.inj h
    exact ⟨h1, h2, by simpa [Sink.manip, Sink.set] using hc.1, by simpa [Sink.manip, Sink.set] using hc.2, h5⟩
  | stringWidth n =>
    have hc : n.toNat < 2 ^ 31 := hc
    cases Std.ok.inj h
    refine ⟨h1, h2, h3, h4, ?_⟩
    change 0 ≤ toInt (n.toNat : ℤ)
    rw [show toInt (n.toNat : ℤ) = n.toNat from Int.bmod_eq_of_le (by omega) (by omega)]
    omega
  | putItv x =>
    obtain ⟨o, -, f2⟩ := Std.bind_ok h
    cases Std.ok.inj f2
    exact ⟨h1, h2, h3, h4, h5⟩
  | putDItv x =>
    obtain ⟨o, -, f2⟩ := Std.bind_ok h
    dsimp only at f2
    split at f2
    · cases Std.ok.inj f2
      exact ⟨h1, h2, h3, h4, by
        change 0 ≤ toInt (toInt (s.iw .strWidth))
        rw [toInt_toInt]
        exact h5⟩
    · cases Std.ok.inj f2; exact ⟨h1, h2, h3, h4, h5⟩
  | _ => cases Std.ok.inj h; exact ⟨h1, h2, h3, h4, h5⟩

theorem total_wide {R : NumRep → Prop} {N : ℕ → Prop} {W : ℕ} (hW : ∀ r n, R r → N n → φ.needWidth r n ≤ W) {ps : List WStep}
    (hp : ∀ p ∈ ps, p.Good φ) (hx : ∀ c, .set c ∈ ps → c.KeepsWide R N W) {s : Sink}
    (hs : s.Inv47 φ) (hh : s.Wide R N W) : ∃ s', s.run φ 0 (ps.flatMap WStep.cmds) = .ok s' := by
  induction ps generalizing s with
  | nil => exact ⟨s, rfl⟩
  | cons p ps ih =>
    have hneed : φ.needWidth s.manip.numRep s.manip.prec ≤ s.manip.width := (hW _ _ hh.rep hh.prec).trans hh.width
    have key : ∃ s1, s.run φ 0 p.cmds = .ok s1 ∧ s1.Inv47 φ ∧ s1.Wide R N W := by
      cases p with
      | set c =>
        have hc : c.Harmless φ := hp (.set c) (by simp)
        have : ∃ s1, s.exec φ 0 c = .ok s1 := by
          cases c <;> first | exact ⟨_, rfl⟩ | exact hc.elim
        obtain ⟨s1, h1⟩ := this
        refine ⟨s1, ?_, (inv47_set hs hc h1).1, keepsWide (hx c (by simp)) h1 hh⟩
        change (s.exec φ 0 c >>= fun s' => s'.run φ 0 []) = _
        rw [h1]
        rfl
      | put x sep =>
        obtain ⟨hx, -, -⟩ := hp (.put x sep) (by simp)
        have : ∃ s1, s.exec φ 0 x.put = .ok s1 := by
          cases x with
          | itv x =>
            obtain ⟨o, ho⟩ := C40_wide (o := s.ostr) (k := s.manip) (show x.Ok φ from hx) (.inl hs.form) hneed hh.small
            change ∃ s1, (φ.writeItv 0 s.manip s.ostr x >>= fun o => Std.ok (s.after o)) = .ok s1
            rw [ho]
            exact ⟨_, rfl⟩
          | ditv x =>
            obtain ⟨o, ho⟩ := wide_total (o := s.ostr) (k := s.manip) (show x.Ok φ from hx) hs.form hs.punct (hs.width.le.trans (Nat.zero_le _)) hh.str hneed hh.small
            change ∃ s1, s.putDItv φ 0 x = .ok s1
            unfold Sink.putDItv
            rw [ho]
            change ∃ s1, (if (x.isValid && !x.isNai && !x.itv.isEmpty) = true then Std.ok ((s.after o).set .strWidth (toInt (s.iw .strWidth)))
              else Std.ok (s.after o)) = .ok s1
            split
            · exact ⟨_, rfl⟩
            · exact ⟨_, rfl⟩
          | dec d => exact ⟨_, rfl⟩
        obtain ⟨s1, h1⟩ := this
        have hrun : s.run φ 0 [x.put, .putText sep] = .ok (s1.after (s1.ostr.put sep)) := by
          change (s.exec φ 0 x.put >>= fun s' => s'.run φ 0 [.putText sep]) = _
          rw [h1]
          rfl
        obtain ⟨v, -, -⟩ := write_obj hs hx hrun
        have h2 := keepsWide (c := x.put) (by cases x <;> trivial) h1 hh
        exact ⟨_, hrun, v, ⟨h2.rep, h2.prec, h2.width, h2.small, h2.str⟩⟩
    obtain ⟨s1, h1, h2, h3⟩ := key
    obtain ⟨s', h'⟩ := ih (fun q hq => hp q (by simp [hq])) (fun c hc => hx c (by simp [hc])) h2 h3
    refine ⟨s', ?_⟩
    rw [List.flatMap_cons, run_append, h1]
    exact h'

/-- **A program that first sets a number width with room for every number**, and then keeps to the number formats `R` and precisions
`N` for which this width is enough, always ends normally, and everything it wrote is read back. -/
theorem C47_program_wide (hB : φ.B 0 < 2 ^ 31) {R : NumRep → Prop} {N : ℕ → Prop} {W : UInt32} (hW : ∀ r n, R r → N n → φ.needWidth r n ≤ W.toNat)
    (hW' : W.toNat < 2 ^ 31) (hR : R .decSci) (hN : N 0) {ps : List WStep} (hp : ∀ p ∈ ps, p.Good φ) (hx : ∀ c, .set c ∈ ps → c.KeepsWide R N W.toNat) :
    ∃ s, Sink.run φ 0 {} (.width W :: ps.flatMap WStep.cmds) = .ok s ∧
      ∀ i : IStr, i.good = true → i.base = .dec → i.skipws = true → i.rest = s.text → ∀ (d0 : Dec) (e : ExSt),
        ∃ ys i', readObjs φ d0 ((textObjs ps).map TextObj.kind) i e = .ok (.ret ys, e, i') ∧ List.Forall₂ (ReadForObj φ) (textObjs ps) ys ∧
          i'.good = true ∧ ∀ c ∈ i'.rest, isSpace c = true := by
  have h0 : (({} : Sink).set .width W.toNat).Inv47 φ := (inv47_set (slack := 0) (inv47_start hB) (c := .width W) trivial rfl).1
  have hh : (({} : Sink).set .width W.toNat).Wide R N W.toNat :=
    ⟨hR, hN, by simp [Sink.manip, Sink.set], by simpa [Sink.manip, Sink.set] using hW', by change 0 ≤ toInt 0; decide⟩
  obtain ⟨s, hs⟩ := total_wide hW hp hx h0 hh
  refine ⟨s, hs, fun i hi hb hk hr d0 e => ?_⟩
  obtain ⟨t, e1, hread⟩ := program47 (slack := 0) hp h0 (R := ReadForObj φ) (.inl fun _ _ h => h) hs
  obtain ⟨ys, i', r1, r2, r3, r4⟩ := hread i [] hi hb hk isWs_nil (by rw [hr, e1]; rfl) d0 e
  exact ⟨ys, i', r1, r2, r3, isWs_iff.mp r4⟩

/-- Non-vacuity: `os << width(25)`, and then mixed or scientific notation of `double`s with at most 16 digits. -/
example : (∀ r n, r = .decSci ∨ r = .sci → n ≤ 16 → binary64.needWidth r n ≤ (25 : UInt32).toNat) ∧ OutCmd.KeepsWide (fun r => r = .decSci ∨ r = .sci) (· ≤ 16) 25 (.prec 12) := by
  refine ⟨?_, by change (12 : UInt32).toNat ≤ 16; decide⟩
  have e : Nat.log 10 (Nat.log 10 (2 ^ binary64.E) + 1) = 2 := by decide +kernel
  have e' : (25 : UInt32).toNat = 25 := rfl
  rintro r n (rfl | rfl) hn <;> unfold Fmt.needWidth <;> simp only [e, e'] <;> split_ifs <;> omega

end P1788
