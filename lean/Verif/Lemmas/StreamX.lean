import Verif.Model.StreamX

/-! Reading from a stream with exceptions enabled, compared with reading from the same stream without. -/

namespace P1788

variable {m : Mask} {s t u : IStr} {α β : Type}

/-- The state bits of `s` are set in `t`. -/
structure IStr.Le (s t : IStr) : Prop where
  eof : s.eof = true → t.eof = true
  fail : s.fail = true → t.fail = true
  bad : s.bad = true → t.bad = true

namespace IStr.Le

theorem refl (s : IStr) : s.Le s := ⟨id, id, id⟩
theorem trans (h : s.Le t) (h' : t.Le u) : s.Le u := ⟨h'.eof ∘ h.eof, h'.fail ∘ h.fail, h'.bad ∘ h.bad⟩
theorem setFail (s : IStr) : s.Le s.setFail := ⟨id, fun _ => rfl, id⟩

theorem hits (h : s.Le t) (hm : m.hits s = true) : m.hits t = true := by
  have h1 := h.eof
  have h2 := h.fail
  have h3 := h.bad
  simp only [Mask.hits, Bool.or_eq_true, Bool.and_eq_true] at hm ⊢
  tauto

end IStr.Le

theorem hits_good (h : s.good = true) : m.hits s = false := by
  simp only [IStr.good, Bool.and_eq_true, Bool.not_eq_true'] at h
  simp [Mask.hits, h.1.1, h.1.2, h.2]

/-- The outcome `x` with exceptions enabled belongs to the outcome `r` without, both from `s`. -/
structure Sim (m : Mask) (s : IStr) (x : XR α) (r : α × IStr) : Prop where
  le : s.Le r.2
  thrown : x.threw = true → m.hits x.str = true ∧ x.str.Le r.2
  same : x.threw = false → x.val = r.1 ∧ x.str = r.2 ∧ (m.hits x.str = true → m.hits s = true)

namespace Sim

theorem ret (a : α) (s : IStr) : Sim m s (.ret a s) (a, s) := ⟨.refl _, by simp [XR.ret], fun _ => ⟨rfl, rfl, id⟩⟩

theorem set {a : α} (h : s.Le t) : Sim m s (.set m a t) (a, t) :=
  ⟨h, fun e => ⟨e, .refl _⟩, fun e => ⟨rfl, rfl, fun e' => by simp_all [XR.set]⟩⟩

/-- Sequence. -/
theorem bind {x : XR α} {r : α × IStr} {b : β} {f : α → IStr → XR β} {y : β × IStr} (h : Sim m s x r) (h' : Sim m r.2 (f r.1 r.2) y) :
    Sim m s (x.bind b f) y := by
  refine ⟨h.le.trans h'.le, ?_, ?_⟩ <;> unfold XR.bind <;> cases hx : x.threw
  · obtain ⟨h1, h2, -⟩ := h.same hx
    rw [h1, h2]
    simpa using h'.thrown
  · simpa using ⟨(h.thrown hx).1, (h.thrown hx).2.trans h'.le⟩
  · obtain ⟨h1, h2, h3⟩ := h.same hx
    rw [h1, h2]
    simp only [Bool.false_eq_true, if_false]
    intro e
    obtain ⟨h4, h5, h6⟩ := h'.same e
    exact ⟨h4, h5, fun e => h3 (by rw [h2]; exact h6 e)⟩
  · simp

theorem map {x : XR α} {r : α × IStr} (f : α → β) (h : Sim m s x r) : Sim m s ⟨x.threw, f x.val, x.str⟩ (f r.1, r.2) :=
  ⟨h.le, h.thrown, fun e => ⟨by rw [(h.same e).1], (h.same e).2⟩⟩

end Sim

/-! ### The operations of streams -/

theorem good_cases (s : IStr) : s.good = true ∨ s.good = false := by cases s.good <;> simp

theorem sim_peek (m : Mask) (s : IStr) : Sim m s (s.peekX m) s.peek := by
  unfold IStr.peekX IStr.peek
  rcases good_cases s with h | h
  · simp only [h, Bool.not_true, Bool.false_eq_true, if_false]
    cases s.rest with
    | nil => exact .set ⟨fun _ => rfl, id, id⟩
    | cons c r => exact .ret _ _
  · simp only [h, Bool.not_false, if_true]
    exact .set (.setFail s)

theorem sim_get (m : Mask) (s : IStr) : Sim m s (s.getX m) ((), s.get) := by
  unfold IStr.getX IStr.get
  rcases good_cases s with h | h
  · simp only [h, Bool.not_true, Bool.false_eq_true, if_false]
    cases s.rest with
    | nil => exact .set ⟨fun _ => rfl, fun _ => rfl, id⟩
    | cons c r => exact ⟨⟨id, id, id⟩, by simp [XR.ret], fun _ => ⟨rfl, rfl, id⟩⟩
  · simp only [h, Bool.not_false, if_true]
    exact .set (.setFail s)

theorem sim_read (m : Mask) (s : IStr) (n : ℕ) : Sim m s (s.readX m n) (s.read n) := by
  unfold IStr.readX IStr.read
  rcases good_cases s with h | h
  · simp only [h, Bool.not_true, Bool.false_eq_true, if_false]
    split_ifs
    · exact ⟨⟨id, id, id⟩, by simp [XR.ret], fun _ => ⟨rfl, rfl, id⟩⟩
    · exact .set ⟨fun _ => rfl, fun _ => rfl, id⟩
  · simp only [h, Bool.not_false, if_true]
    exact .set (.setFail s)

theorem good_bits (h : s.good = true) : s.eof = false ∧ s.fail = false ∧ s.bad = false := by
  simp only [IStr.good, Bool.and_eq_true, Bool.not_eq_true'] at h
  tauto

theorem le_of_good (h : s.good = true) (t : IStr) : s.Le t := by
  obtain ⟨h1, h2, h3⟩ := good_bits h
  exact ⟨by simp [h1], by simp [h2], by simp [h3]⟩

theorem readUInt_bad (h : s.good = true) : s.readUInt.2.bad = false := by
  obtain ⟨-, -, h3⟩ := good_bits h
  unfold IStr.readUInt
  simp only [h, Bool.not_true, Bool.false_eq_true, if_false]
  split_ifs <;> simp [IStr.setFail, h3]

theorem sim_readUInt (m : Mask) (s : IStr) : Sim m s (s.readUIntX m) s.readUInt := by
  unfold IStr.readUIntX
  have hle : s.Le s.readUInt.2 := by
    rcases good_cases s with h | h
    · exact le_of_good h _
    · unfold IStr.readUInt
      simp only [h, Bool.not_false, if_true]
      exact .setFail s
  simp only
  split_ifs with hb
  · exact .set hle
  · refine ⟨hle, by simp [XR.ret], fun _ => ⟨rfl, rfl, fun h => ?_⟩⟩
    rcases good_cases s with hg | hg
    · simp only [Bool.or_eq_true, not_or, Bool.not_eq_true] at hb
      simp [XR.ret, Mask.hits, hb.1, hb.2, readUInt_bad hg] at h
    · unfold IStr.readUInt at hb
      simp [hg, IStr.setFail] at hb

/-- Read only when good: the result has no bit set. -/
theorem peek_some {c : Char} (h : s.peek.1 = some c) : s.good = true ∧ s.peek.2 = s := by
  unfold IStr.peek at h ⊢
  rcases good_cases s with hg | hg
  · simp only [hg, Bool.not_true, Bool.false_eq_true, if_false] at h ⊢
    cases hr : s.rest with
    | nil => rw [hr] at h; simp at h
    | cons c r => exact ⟨trivial, rfl⟩
  · simp [hg] at h

/-! ### White space and decorations -/

theorem sim_removeWs (m : Mask) (l : List Char) : ∀ s, Sim m s (removeWsLoopX m l s) ((), removeWsLoop l s) := by
  induction l with
  | nil =>
    intro s
    unfold removeWsLoopX removeWsLoop
    split_ifs
    · exact (sim_peek m s).bind (.ret _ _)
    · exact .ret _ _
  | cons a l ih =>
    intro s
    unfold removeWsLoopX removeWsLoop
    split_ifs
    · refine (sim_peek m s).bind ?_
      rcases hp : s.peek with ⟨_ | c, s'⟩
      · exact .ret _ _
      · simp only
        split_ifs
        · exact (sim_get m s').bind (ih _)
        · exact .ret _ _
    · exact .ret _ _

/-- Skipping white space without exceptions. -/
def skipWs (s : IStr) : IStr := if s.skipws then removeWs s else s

theorem sim_skipWs (m : Mask) (s : IStr) : Sim m s (skipWsX m s) ((), skipWs s) := by
  unfold skipWsX skipWs removeWs
  split_ifs
  · exact sim_removeWs m _ s
  · exact .ret _ _

theorem Sim.ite {c : Prop} [Decidable c] {x x' : XR α} {r r' : α × IStr} (h : Sim m s x r) (h' : Sim m s x' r') :
    Sim m s (if c then x else x') (if c then r else r') := by
  split_ifs
  · exact h
  · exact h'

theorem Sim.setFail (a : α) (s : IStr) : Sim m s (.set m a s.setFail) (a, s.setFail) := .set (.setFail s)

theorem sim_readDec (m : Mask) (s : IStr) (d : Dec) : Sim m s (Dec.readX m s d) (Dec.read s d) := by
  have h := sim_skipWs m s
  unfold Dec.readX Dec.read
  unfold skipWs at h
  generalize (if s.skipws = true then removeWs s else s) = t at h ⊢
  refine h.bind ?_
  clear h
  refine .ite ?_ (.setFail _ _)
  refine (sim_peek m t).bind ?_
  generalize t.peek = r
  refine .ite ?_ ?_
  · refine (sim_readUInt m r.2).bind ?_
    generalize r.2.readUInt = r
    exact .ite (.ite (.ret _ _) (.ite (.ret _ _) (.ite (.ret _ _) (.ite (.ret _ _) (.ite (.ret _ _) (.setFail _ _)))))) (.setFail _ _)
  · refine (sim_read m r.2 3).bind ?_
    generalize r.2.read 3 = r
    exact .ite (.ite (.ret _ _) (.ite (.ret _ _) (.ite (.ret _ _) (.ite (.ret _ _) (.ite (.ret _ _) (.setFail _ _)))))) (.setFail _ _)

/-- `x` has the value `d` if it throws. -/
def XR.Keeps (d : α) (x : XR α) : Prop := x.threw = true → x.val = d

theorem XR.Keeps.bind {x : XR α} {d : β} {f : α → IStr → XR β} (h : ∀ a s, (f a s).Keeps d) : (x.bind d f).Keeps d := by
  unfold XR.bind
  cases x.threw
  · exact h _ _
  · exact fun _ => rfl

theorem XR.Keeps.ite {c : Prop} [Decidable c] {d : α} {x x' : XR α} (h : x.Keeps d) (h' : x'.Keeps d) : (if c then x else x').Keeps d := by
  split_ifs
  · exact h
  · exact h'

theorem XR.Keeps.ret {d a : α} {s : IStr} : (XR.ret a s).Keeps d := by simp [XR.Keeps, XR.ret]
theorem XR.Keeps.set {d : α} {s : IStr} : (XR.set m d s).Keeps d := fun _ => rfl

/-- The argument is left alone if reading a decoration throws. -/
theorem readDec_keeps (m : Mask) (s : IStr) (d : Dec) : (Dec.readX m s d).Keeps d := by
  unfold Dec.readX
  refine .bind fun _ _ => .ite (.bind fun _ _ => .ite (.bind fun _ _ => ?_) (.bind fun _ _ => ?_)) .set
  · exact .ite (.ite .ret (.ite .ret (.ite .ret (.ite .ret (.ite .ret .set))))) .set
  · exact .ite (.ite .ret (.ite .ret (.ite .ret (.ite .ret (.ite .ret .set))))) .set

/-! ### Literals -/

theorem sim_bracket (m : Mask) (l : List Char) : ∀ s, Sim m s (readBracketX m l s) (readBracket l s) := by
  induction l with
  | nil =>
    intro s
    unfold readBracketX readBracket
    exact (sim_peek m s).bind ((sim_get m _).bind (.ret _ _))
  | cons a l ih =>
    intro s
    unfold readBracketX readBracket
    refine (sim_peek m s).bind ?_
    rcases hp : s.peek with ⟨_ | c, s'⟩
    · exact (sim_get m _).bind (.ret _ _)
    · simp only
      split_ifs with hc
      · refine (sim_get m _).bind ?_
        simp only [if_pos hc]
        exact .ret _ _
      · refine (sim_get m _).bind ?_
        simp only [if_neg hc]
        exact (ih _).map _

theorem sim_number (m : Mask) (l : List Char) : ∀ s, Sim m s (readNumberX m l s) (readNumber l s) := by
  induction l with
  | nil =>
    intro s
    unfold readNumberX readNumber
    exact (sim_peek m s).bind (.ret _ _)
  | cons a l ih =>
    intro s
    unfold readNumberX readNumber
    refine (sim_peek m s).bind ?_
    rcases hp : s.peek with ⟨_ | c, s'⟩
    · exact .ret _ _
    · simp only
      split_ifs with h1 hc
      · refine (sim_get m _).bind ?_
        simp only [if_pos hc]
        exact .ret _ _
      · refine (sim_get m _).bind ?_
        simp only [if_neg hc]
        exact (ih _).map _
      · exact .ret _ _

/-! ### The `try` block -/

/-- The stream with its state bits cleared: the text left and the settings. -/
def IStr.clr (s : IStr) : IStr := { s with eof := false, fail := false, bad := false }

/-- Good, or at the end. -/
def IStr.Live (s : IStr) : Prop := s.good = true ∨ s.eof = true

theorem live_of_ok (h : s.ok = true) : s.Live := by
  simp only [IStr.ok, Bool.and_eq_true, Bool.not_eq_true'] at h
  simp only [IStr.Live, IStr.good, h.1, h.2]
  cases s.eof <;> simp

/-- As `Sim`; exceptions are thrown only at the end of the text, when all has been read that is read without. -/
structure TSim (m : Mask) (s : IStr) (x : XR α) (r : α × IStr) : Prop extends Sim m s x r where
  all : x.threw = true → x.val = r.1 ∧ x.str.eof = true ∧ x.str.clr = r.2.clr

theorem TSim.ret (a : α) (s : IStr) : TSim m s (.ret a s) (a, s) := ⟨.ret a s, by simp [XR.ret]⟩

/-- Nothing more is read. -/
def Quiet (y : List Char × IStr) (s : IStr) : Prop := s.eof = true → y.1 = [] ∧ y.2.clr = s.clr

theorem TSim.bind {x : XR α} {r : α × IStr} {f : α → IStr → XR (List Char)} {y : List Char × IStr} (h : TSim m s x r)
    (h' : TSim m r.2 (f r.1 r.2) y) (q : Quiet y r.2) : TSim m s (x.bind [] f) y := by
  refine ⟨h.toSim.bind h'.toSim, ?_⟩
  unfold XR.bind
  cases hx : x.threw
  · obtain ⟨h1, h2, -⟩ := h.same hx
    rw [h1, h2]
    simpa using h'.all
  · obtain ⟨-, h2, h3⟩ := h.all hx
    obtain ⟨h4, h5⟩ := q ((h.thrown hx).2.eof h2)
    simp only [if_true]
    exact fun _ => ⟨h4.symm, h2, h3.trans h5.symm⟩

/-- Without exceptions: the next step, whose text is appended. -/
def addP (r : List Char × IStr) (g : List Char → IStr → List Char × IStr) : List Char × IStr := (r.1 ++ (g r.1 r.2).1, (g r.1 r.2).2)

theorem TSim.add {x : XR (List Char)} {r : List Char × IStr} {f : List Char → IStr → XR (List Char)} {g : List Char → IStr → List Char × IStr}
    (h : TSim m s x r) (h' : TSim m r.2 (f r.1 r.2) (g r.1 r.2)) (q : Quiet (g r.1 r.2) r.2) : TSim m s (x.add f) (addP r g) := by
  unfold XR.add addP
  cases hx : x.threw
  · obtain ⟨h1, h2, h3⟩ := h.same hx
    simp only [Bool.false_eq_true, if_false, h1, h2]
    refine ⟨⟨h.le.trans h'.le, h'.thrown, fun e => ⟨by rw [(h'.same e).1], (h'.same e).2.1, fun e' => h3 ?_⟩⟩, fun e => ⟨by rw [(h'.all e).1], (h'.all e).2⟩⟩
    rw [h2]; exact (h'.same e).2.2 e'
  · obtain ⟨h1, h2, h3⟩ := h.all hx
    obtain ⟨h4, h5⟩ := q ((h.thrown hx).2.eof h2)
    simp only [if_true]
    refine ⟨⟨h.le.trans h'.le, fun _ => ⟨(h.thrown hx).1, (h.thrown hx).2.trans h'.le⟩, fun e => by simp [hx] at e⟩, fun _ => ⟨?_, h2, h3.trans h5.symm⟩⟩
    rw [h4, List.append_nil]; exact h1

theorem Quiet.add {r : List Char × IStr} {g : List Char → IStr → List Char × IStr} (h : Quiet r s) (hle : s.Le r.2) (h' : Quiet (g r.1 r.2) r.2) :
    Quiet (addP r g) s := by
  intro e
  obtain ⟨h1, h2⟩ := h e
  obtain ⟨h3, h4⟩ := h' (hle.eof e)
  exact ⟨by change r.1 ++ (g r.1 r.2).1 = []; rw [h3, List.append_nil, h1], h4.trans h2⟩

theorem peek_eof (h : s.eof = true) : s.peek = (none, s.setFail) := by
  unfold IStr.peek
  simp [IStr.good, h]

theorem clr_setFail (s : IStr) : s.setFail.clr = s.clr := rfl

theorem tsim_peek (m : Mask) (hl : s.Live) : TSim m s (s.peekX m) s.peek := by
  refine ⟨sim_peek m s, ?_⟩
  unfold IStr.peekX IStr.peek
  rcases good_cases s with h | h
  · simp only [h, Bool.not_true, Bool.false_eq_true, if_false]
    cases s.rest with
    | nil => exact fun _ => ⟨rfl, rfl, rfl⟩
    | cons c r => simp [XR.ret]
  · simp only [h, Bool.not_false, if_true]
    exact fun _ => ⟨rfl, hl.resolve_left (by simp [h]), rfl⟩

theorem get_some {c : Char} (h : s.peek.1 = some c) : s.getX m = .ret () s.get ∧ s.get.good = true := by
  obtain ⟨hg, -⟩ := peek_some h
  unfold IStr.peek at h
  unfold IStr.getX IStr.get
  simp only [hg, Bool.not_true, Bool.false_eq_true, if_false] at h ⊢
  cases hr : s.rest with
  | nil => rw [hr] at h; simp at h
  | cons c r => exact ⟨rfl, by simpa [IStr.good] using hg⟩

theorem live_peek (h : s.Live) : s.peek.2.Live := by
  unfold IStr.peek
  rcases good_cases s with hg | hg
  · simp only [hg, Bool.not_true, Bool.false_eq_true, if_false]
    cases s.rest with
    | nil => exact Or.inr rfl
    | cons c r => exact Or.inl hg
  · simp only [hg, Bool.not_false, if_true]
    exact Or.inr (h.resolve_left (by simp [hg]))

theorem quiet_go (cs : List (Char → Bool)) : ∀ s, Quiet (IStr.accept.go cs s) s := by
  induction cs with
  | nil => exact fun s _ => ⟨rfl, rfl⟩
  | cons p cs ih =>
    intro s e
    unfold IStr.accept.go
    rw [peek_eof e]
    exact ih s.setFail e

theorem quiet_accept (cs : List (Char → Bool)) (s : IStr) : Quiet (s.accept cs) s := by
  unfold IStr.accept
  split_ifs
  · exact quiet_go cs s
  · exact fun _ => ⟨rfl, rfl⟩

theorem quiet_digits (l : List Char) (s : IStr) : Quiet (readDigits l s) s := by
  intro e
  cases l <;> unfold readDigits <;> split_ifs <;> first | exact ⟨rfl, rfl⟩ | (rw [peek_eof e]; exact ⟨rfl, rfl⟩)

theorem tsim_go (m : Mask) (cs : List (Char → Bool)) : ∀ s, s.Live → TSim m s (IStr.acceptX.go m cs s) (IStr.accept.go cs s) := by
  induction cs with
  | nil => exact fun s _ => .ret _ _
  | cons p cs ih =>
    intro s hl
    unfold IStr.acceptX.go IStr.accept.go
    have hp := tsim_peek m hl
    have hl' := live_peek hl
    rcases h : s.peek with ⟨_ | c, s'⟩
    · rw [h] at hp hl'
      exact hp.bind (ih s' hl') (quiet_go cs s')
    · have hs : s.peek.1 = some c := by rw [h]
      obtain ⟨hg, e⟩ := peek_some hs
      rw [h] at e
      subst e
      rw [h] at hp
      refine hp.bind ?_ ?_
      · simp only
        split_ifs
        · rw [(get_some hs).1]
          exact ⟨⟨le_of_good hg _, by simp [XR.ret, XR.bind], fun _ => ⟨rfl, rfl, fun e => by
            simp only [XR.ret, XR.bind, Bool.false_eq_true, if_false] at e
            rw [hits_good (get_some (m := m) hs).2] at e
            simp at e⟩⟩, by simp [XR.ret, XR.bind]⟩
        · exact ih s' (Or.inl hg)
      · exact fun e => absurd (e.symm.trans (good_bits hg).1) (by decide)

theorem tsim_accept (m : Mask) (cs : List (Char → Bool)) (s : IStr) : TSim m s (s.acceptX m cs) (s.accept cs) := by
  unfold IStr.acceptX IStr.accept
  split_ifs with h
  · exact tsim_go m cs s (live_of_ok h)
  · exact .ret _ _

theorem tsim_digits (m : Mask) (l : List Char) : ∀ s, TSim m s (readDigitsX m l s) (readDigits l s) := by
  induction l with
  | nil =>
    intro s
    unfold readDigitsX readDigits
    split_ifs with h
    · exact (tsim_peek m (live_of_ok h)).bind (.ret _ _) (fun _ => ⟨rfl, rfl⟩)
    · exact .ret _ _
  | cons a l ih =>
    intro s
    unfold readDigitsX readDigits
    split_ifs with h
    · have hp := tsim_peek m (live_of_ok h)
      rcases h : s.peek with ⟨_ | c, s'⟩
      · rw [h] at hp
        exact hp.bind (.ret _ _) (fun _ => ⟨rfl, rfl⟩)
      · have hs : s.peek.1 = some c := by rw [h]
        obtain ⟨hg, e⟩ := peek_some hs
        rw [h] at e
        subst e
        rw [h] at hp
        refine hp.bind ?_ ?_
        · simp only
          split_ifs
          · rw [(get_some hs).1]
            have := ih s'.get
            simp only [XR.bind, XR.ret, Bool.false_eq_true, if_false]
            exact ⟨⟨le_of_good hg _, this.thrown, fun e => ⟨by rw [(this.same e).1], (this.same e).2.1, fun e' => by
              have := (this.same e).2.2 e'
              rw [hits_good (get_some (m := m) hs).2] at this
              simp at this⟩⟩, fun e => ⟨by rw [(this.all e).1], (this.all e).2⟩⟩
          · exact .ret _ _
        · exact fun e => absurd (e.symm.trans (good_bits hg).1) (by decide)
    · exact .ret _ _

/-- What `readUncertain` does after the number. -/
def uncRest (s : IStr) : List Char × IStr :=
  addP (addP (s.accept [fun c => c = '?']) fun b s => if b = [] then readDigits s.rest s else ([], s)) fun _ s =>
  addP (s.accept [fun c => c = 'd', fun c => c = 'D', fun c => c = 'u', fun c => c = 'U']) fun _ s =>
  addP (s.accept [fun c => c = 'e', fun c => c = 'E']) fun e s =>
  if e = [] then ([], s)
  else
    addP (if s.good then s.accept [fun c => c = '-', fun c => c = '+'] else ([], s)) fun _ s =>
    if s.good then readDigits s.rest s else ([], s)

theorem readUncertain_eq (s : IStr) : readUncertain s =
    ((readNumber s.rest s).1 ++ (uncRest (readNumber s.rest s).2).1, (uncRest (readNumber s.rest s).2).2) := by
  unfold readUncertain uncRest addP
  generalize readNumber s.rest s = r
  obtain ⟨a, s⟩ := r
  simp only
  generalize s.accept _ = r
  obtain ⟨b, s⟩ := r
  simp only
  by_cases hb : b = []
  · subst hb
    simp only [if_true, List.nil_append]
    generalize readDigits _ s = r
    obtain ⟨b, s⟩ := r
    simp only
    generalize s.accept _ = r
    obtain ⟨d, s⟩ := r
    simp only
    generalize s.accept _ = r
    obtain ⟨e, s⟩ := r
    simp only
    split_ifs <;> simp_all
  · simp only [hb, if_false, List.append_nil]
    generalize s.accept _ = r
    obtain ⟨d, s⟩ := r
    simp only
    generalize s.accept _ = r
    obtain ⟨e, s⟩ := r
    simp only
    split_ifs <;> simp_all

theorem TSim.ite {c : Prop} [Decidable c] {x x' : XR α} {r r' : α × IStr} (h : TSim m s x r) (h' : TSim m s x' r') :
    TSim m s (if c then x else x') (if c then r else r') := by
  split_ifs
  · exact h
  · exact h'

theorem Quiet.ite {c : Prop} [Decidable c] {r r' : List Char × IStr} (h : Quiet r s) (h' : Quiet r' s) : Quiet (if c then r else r') s := by
  split_ifs
  · exact h
  · exact h'

theorem Quiet.nil (s : IStr) : Quiet ([], s) s := fun _ => ⟨rfl, rfl⟩

/-- Both facts about a step. -/
structure Step68 (m : Mask) (s : IStr) (x : XR (List Char)) (r : List Char × IStr) : Prop where
  sim : TSim m s x r
  quiet : Quiet r s

theorem Step68.add {x : XR (List Char)} {r : List Char × IStr} {f : List Char → IStr → XR (List Char)} {g : List Char → IStr → List Char × IStr}
    (h : Step68 m s x r) (h' : Step68 m r.2 (f r.1 r.2) (g r.1 r.2)) : Step68 m s (x.add f) (addP r g) :=
  ⟨h.sim.add h'.sim h'.quiet, h.quiet.add h.sim.le h'.quiet⟩

theorem Step68.ite {c : Prop} [Decidable c] {x x' : XR (List Char)} {r r' : List Char × IStr} (h : Step68 m s x r) (h' : Step68 m s x' r') :
    Step68 m s (if c then x else x') (if c then r else r') := ⟨h.sim.ite h'.sim, h.quiet.ite h'.quiet⟩

theorem Step68.nil (s : IStr) : Step68 m s (.ret [] s) ([], s) := ⟨.ret _ _, .nil _⟩
theorem Step68.accept (cs : List (Char → Bool)) (s : IStr) : Step68 m s (s.acceptX m cs) (s.accept cs) := ⟨tsim_accept m cs s, quiet_accept cs s⟩
theorem Step68.digits (s : IStr) : Step68 m s (readDigitsX m s.rest s) (readDigits s.rest s) := ⟨tsim_digits m _ s, quiet_digits _ s⟩

theorem step_tryBlock (m : Mask) (s : IStr) : Step68 m s (tryBlockX m s) (uncRest s) := by
  unfold tryBlockX uncRest
  refine ((Step68.accept _ s).add (.ite (.digits _) (.nil _))).add ((Step68.accept _ _).add ((Step68.accept _ _).add (.ite (.nil _) ?_)))
  exact (Step68.ite (.accept _ _) (.nil _)).add (.ite (.digits _) (.nil _))

/-! ### The end of a literal -/

/-- The outcome of a whole call with exceptions enabled, compared with the outcome without. -/
structure Final (m : Mask) (x : XR (Option α)) (r : Option α × IStr) : Prop where
  iff : x.threw = true ↔ m.hits r.2 = true
  same : x.threw = false → x.val = r.1 ∧ x.str = r.2
  thrown : x.threw = true → x.val = none ∧ m.hits x.str = true ∧ x.str.Le r.2

theorem Sim.final {x : XR (Option α)} {r : Option α × IStr} (h : Sim m s x r) (hs : m.hits s = false) (hk : x.Keeps none) : Final m x r := by
  refine ⟨⟨fun e => (h.thrown e).2.hits (h.thrown e).1, fun e => ?_⟩, fun e => ⟨(h.same e).1, (h.same e).2.1⟩, fun e => ⟨hk e, h.thrown e⟩⟩
  by_contra hx
  have hx : x.threw = false := by simpa using hx
  obtain ⟨-, h2, h3⟩ := h.same hx
  rw [← h2] at e
  rw [h3 e] at hs
  simp at hs

theorem Final.set (s : IStr) : Final m (.set m (none : Option α) s) (none, s) :=
  ⟨Iff.rfl, fun _ => ⟨rfl, rfl⟩, fun e => ⟨rfl, e, .refl _⟩⟩

/-- An exception that was thrown on the way. -/
theorem Final.early (ht : m.hits s = true) (h : s.Le t) : Final m ⟨true, (none : Option α), s⟩ (none, t) :=
  ⟨⟨fun _ => h.hits ht, fun _ => rfl⟩, by simp, fun _ => ⟨rfl, ht, h⟩⟩

theorem XR.ret_bind (a : α) (s : IStr) (b : β) (f : α → IStr → XR β) : (XR.ret a s).bind b f = f a s := rfl

theorem hits_clr (m : Mask) (s : IStr) : m.hits s.clr = false := by simp [Mask.hits, IStr.clr]

theorem finish_eof (bare : Itv) (dec : Dec) (h : s.eof = true) :
    finishDec bare dec s = (some (if dec = .ill then DItv.nai else bare.newDec), s.clr) ∧
    finishDecX m bare dec s = .ret (some (if dec = .ill then DItv.nai else bare.newDec)) s.clr := by
  constructor
  · unfold finishDec
    rw [peek_eof h]
    cases s.ok <;> simp [IStr.setFail, h, IStr.clr]
  · unfold finishDecX peekUnderscoreX IStr.peekX
    have hg : s.good = false := by simp [IStr.good, h]
    cases hk : s.ok
    · simp [XR.bind, XR.ret, h, IStr.clr]
    · cases hm : m.hits s.setFail <;> simp [XR.bind, XR.ret, XR.set, hg, hm, IStr.setFail, h, IStr.clr]

theorem final_finish (m : Mask) (bare : Itv) (dec : Dec) (h : (s.ok || s.eof) = true) : Final m (finishDecX m bare dec s) (finishDec bare dec s) := by
  cases he : s.eof with
  | true =>
    rw [(finish_eof (m := m) bare dec he).1, (finish_eof bare dec he).2]
    exact ⟨by simp [XR.ret, hits_clr], fun _ => ⟨rfl, rfl⟩, by simp [XR.ret]⟩
  | false =>
    have hk : s.ok = true := by simpa [he] using h
    have hg : s.good = true := by
      simp only [IStr.ok, Bool.and_eq_true, Bool.not_eq_true'] at hk
      simp [IStr.good, he, hk.1, hk.2]
    cases hr : s.rest with
    | nil =>
      have e1 : s.peek = (none, { s with eof := true }) := by simp [IStr.peek, hg, hr]
      have e2 : peekUnderscoreX m s = .ret false { s with eof := true } := by
        unfold peekUnderscoreX IStr.peekX
        simp only [hk, hg, hr, if_true, Bool.not_true, Bool.false_eq_true, if_false, XR.set]
        cases m.hits { s with eof := true } <;> simp [XR.ret]
      unfold finishDecX finishDec
      rw [e1, e2]
      simp only [hk, if_true, XR.bind, XR.ret, Bool.false_eq_true, if_false]
      exact ⟨by simp [Mask.hits], fun _ => ⟨rfl, rfl⟩, by simp⟩
    | cons c r =>
      have e1 : s.peek = (some c, s) := by simp [IStr.peek, hg, hr]
      have e2 : peekUnderscoreX m s = .ret (decide (c = '_')) s := by
        unfold peekUnderscoreX IStr.peekX
        simp [hk, hg, hr, XR.ret]
      unfold finishDecX finishDec
      rw [e1, e2]
      simp only [hk, if_true, XR.ret_bind, Bool.false_eq_true, if_false, he, Option.some.injEq]
      have hm := hits_good (m := m) hg
      by_cases hc : c = '_'
      · simp only [hc, decide_true, Bool.not_true, Bool.false_eq_true, if_false, Bool.true_and]
        refine Sim.final (s := s) (.ite ?_ (.setFail _ _)) hm (.ite ?_ .set)
        · refine (sim_get m s).bind ?_
          refine (sim_readDec m s.get .ill).bind ?_
          exact .ite (.ret _ _) (.setFail _ _)
        · exact .bind fun _ _ => .bind fun _ _ => .ite .ret .set
      · simp only [hc, decide_false, Bool.not_false, if_true]
        exact ⟨by simp [hm, XR.ret], fun _ => ⟨rfl, rfl⟩, by simp [XR.ret]⟩

/-! ### Whole calls -/

/-- The outcomes of a call, including the exceptions of `std::stoi` and undefined behaviour. -/
def OutSim (m : Mask) (X : Std (XR (Option α))) (R : Std (Option α × IStr)) : Prop :=
  match R with
  | .ok r => ∃ x, X = .ok x ∧ Final m x r
  | .outOfRange => X = .outOfRange
  | .ub => X = .ub

theorem OutSim.bind {β : Type} {A : Std β} {f : β → Std (XR (Option α))} {g : β → Std (Option α × IStr)} (h : ∀ b, OutSim m (f b) (g b)) :
    OutSim m (A.bind f) (A.bind g) := by
  cases A with
  | ok b => exact h b
  | outOfRange => exact rfl
  | ub => exact rfl

theorem OutSim.ok {x : XR (Option α)} {r : Option α × IStr} (h : Final m x r) : OutSim m (.ok x) (.ok r) := ⟨x, rfl, h⟩

theorem peekX_clean (m : Mask) (s : IStr) (h : (s.peekX m).threw = false) : m.hits (s.peekX m).str = false := by
  unfold IStr.peekX at h ⊢
  rcases good_cases s with hg | hg
  · simp only [hg, Bool.not_true, Bool.false_eq_true, if_false] at h ⊢
    cases hr : s.rest with
    | nil => rw [hr] at h; exact h
    | cons c r => exact hits_good hg
  · simp only [hg, Bool.not_false, if_true] at h ⊢
    exact h

theorem peek_not_good (h : s.peek.2.good = false) : s.peek.1 = none := by
  cases hp : s.peek.1 with
  | none => rfl
  | some c =>
    obtain ⟨h1, h2⟩ := peek_some hp
    rw [h2, h1] at h
    simp at h

theorem not_good_of_hits (h : m.hits s = true) : s.good = false := by
  by_contra hg
  rw [hits_good (by simpa using hg)] at h
  simp at h

theorem ok_of_good (h : s.good = true) : s.ok = true := by
  obtain ⟨-, h2, h3⟩ := good_bits h
  simp [IStr.ok, h2, h3]

theorem get_not_ok (h : s.good = false) : s.get.ok = false := by
  unfold IStr.get
  simp [h, IStr.setFail, IStr.ok]

theorem peek_get_none (h : s.peek.1 = none) : s.peek.2.get.ok = false := by
  apply get_not_ok
  unfold IStr.peek at h ⊢
  rcases good_cases s with hg | hg
  · simp only [hg, Bool.not_true, Bool.false_eq_true, if_false] at h ⊢
    cases hr : s.rest with
    | nil => simp [IStr.good]
    | cons c r => rw [hr] at h; simp at h
  · rw [if_pos (by simp [hg])]
    simp [IStr.setFail, IStr.good]

/-- If the closing bracket is missing, the stream has failed. -/
theorem bracket_fails (l : List Char) : ∀ s : IStr, l = s.rest → (readBracket l s).2.good = false → (readBracket l s).2.ok = false := by
  induction l with
  | nil =>
    intro s hl _
    unfold readBracket
    apply peek_get_none
    unfold IStr.peek
    rw [← hl]
    cases s.good <;> simp
  | cons a l ih =>
    intro s hl
    unfold readBracket
    rcases hp : s.peek with ⟨_ | c, s'⟩
    · intro _
      have := peek_get_none (s := s) (by rw [hp])
      rw [hp] at this
      exact this
    · have hs : s.peek.1 = some c := by rw [hp]
      obtain ⟨hg, e⟩ := peek_some hs
      rw [hp] at e
      have e : s' = s := e
      subst e
      have hgg := (get_some (m := {}) hs).2
      have hr : s'.get.rest = l := by simp [IStr.get, hg, ← hl]
      simp only
      split_ifs
      · intro h
        rw [hgg] at h
        simp at h
      · exact ih _ hr.symm

/-- If the number ends at the end of the text, no question mark was read. -/
theorem number_no_mark (l : List Char) : ∀ s : IStr, (readNumber l s).2.good = false → '?' ∉ (readNumber l s).1 := by
  induction l with
  | nil => intro s _; simp [readNumber]
  | cons a l ih =>
    intro s
    unfold readNumber
    rcases hp : s.peek with ⟨_ | c, s'⟩
    · simp
    · have hs : s.peek.1 = some c := by rw [hp]
      obtain ⟨hg, e⟩ := peek_some hs
      rw [hp] at e
      have e : s' = s := e
      subst e
      have hgg := (get_some (m := {}) hs).2
      simp only
      split_ifs with h1 h2
      · intro h
        rw [hgg] at h
        simp at h
      · intro h hm
        rcases List.mem_cons.mp hm with h3 | h3
        · exact h2 h3.symm
        · exact ih _ h h3
      · simp

end P1788
