import Verif.Model.History
import Verif.Lemmas.Ops
import Verif.Props.C16
import Verif.Props.C17

/-!
# C36 Exception flags and throwing
-/

namespace P1788

/-- `x` is a decorated interval object of whatever format. -/
def DItv.Proper (x : DItv) : Prop :=
  x.itv.Proper ∧ (x.itv = ⟨.nan, .nan⟩ → x.dec = .ill ∨ x.dec = .trv) ∧ (x.itv ≠ ⟨.nan, .nan⟩ → x.dec ≠ .ill) ∧
  (x.dec = .com → x.itv.lo ≠ .ninf ∧ x.itv.hi ≠ .pinf)

/-- Specification: the condition a call signals, stated in terms of its arguments only. -/
def Cmd.Signals : Cmd → Ex → Prop
  | .setMask _, _ | .clear, _ => False
  | .nums l u, e | .numsMixed _ l u, e | .numsD l u, e | .numsMixedD _ l u, e =>
      e = .undefinedOperation ∧ ¬ ValidBounds l u
  | .numsDec l u d, e | .numsDecMixed _ l u d, e =>
      (e = .invalidOperand ∧ Dec.ofRaw d = none) ∨
      (e = .undefinedOperation ∧ ∃ d', Dec.ofRaw d = some d' ∧ ¬ Consistent l u d')
  | .newDec x, e | .newDecMixed _ x, e | .copy x, e | .convert _ x, e => e = .invalidOperand ∧ ¬ x.Proper
  | .setDec x d, e | .setDecMixed _ x d, e => e = .invalidOperand ∧ (Dec.ofRaw d = none ∨ ¬ x.Proper)
  | .copyD x, e | .convertD _ x, e | .decorationPart x, e => e = .invalidOperand ∧ ¬ x.Proper
  | .intervalPart x, e | .intervalPartMixed _ x, e =>
      (e = .invalidOperand ∧ ¬ x.Proper) ∨ (e = .intervalPartOfNai ∧ x.IsNaI)
  | .op xs, e => e = .invalidOperand ∧ ∃ x ∈ xs, ¬ x.Proper
  | .opD xs, e => e = .invalidOperand ∧ ∃ x ∈ xs, ¬ x.Proper

theorem DItv.proper_iff {x : DItv} : x.isValid = true ↔ x.Proper := by
  obtain ⟨⟨l, u⟩, d⟩ := x
  have hv := boundsOk_iff (l := l) (u := u)
  have e : (DItv.mk ⟨l, u⟩ d).isValid = ((l.isNaN && u.isNaN && (d == .ill || d == .trv)) ||
      (d != .ill && (boundsOk l u && (d != .com || (!(l.feq .ninf) && !(u.feq .pinf)))))) := rfl
  rw [e]
  simp only [DItv.Proper, Itv.Proper, Bool.or_eq_true, Bool.and_eq_true, hv, Itv.isNaN_iff, beq_iff_eq, bne_iff_ne,
    Bool.not_eq_true', Itv.feq_ninf, Itv.feq_pinf, decide_eq_false_iff_not, Itv.mk.injEq, ne_eq]
  constructor
  · rintro (⟨⟨h1, h2⟩, h3⟩ | ⟨h1, h2, h3⟩)
    · refine ⟨.inl ⟨h1, h2⟩, fun _ => h3, fun h => absurd ⟨h1, h2⟩ h, fun h => ?_⟩
      rw [h] at h3; rcases h3 with h3 | h3 <;> cases h3
    · have hnan := (validBounds_iff.mp h2).1
      exact ⟨.inr h2, fun h => absurd h.1 hnan, fun _ => h1, fun h => h3.resolve_left (fun h' => h' h)⟩
  · rintro ⟨h1, h2, h3, h4⟩
    rcases h1 with h1 | h1
    · exact .inl ⟨h1, h2 h1⟩
    · have hnan := (validBounds_iff.mp h1).1
      refine .inr ⟨h3 (fun h => hnan h.1), h1, ?_⟩
      by_cases hc : d = .com
      · exact .inr (h4 hc)
      · exact .inl hc

theorem DItv.Ok.dproper {φ : Fmt} {x : DItv} (h : x.Ok φ) : x.Proper := DItv.proper_iff.mp h.isValid

/-- `m` behaves as a call that signals exactly the conditions `P`: at most one of them. -/
def Behaves {α : Type} (m : M α) (P : Ex → Prop) : Prop :=
  (∃ a, Returns m a ∧ ∀ e, ¬ P e) ∨ (∃ e a, Raises m e a ∧ ∀ e', P e' ↔ e' = e)

theorem Behaves.forget {α : Type} {m : M α} {P : Ex → Prop} (h : Behaves m P) : Behaves m.forget P := by
  rcases h with ⟨a, h, hP⟩ | ⟨e, a, h, hP⟩
  · exact .inl ⟨(), h.bind (Returns.pure ()), hP⟩
  · exact .inr ⟨e, (), h.bind (Returns.pure ()), hP⟩

theorem behaves_itv {x : Itv} {α : Type} {f : Bool → M α} (h1 : ∃ a, Returns (f true) a)
    (h2 : ∃ a, Returns (f false) a) : Behaves (x.isValidM >>= f) (fun e => e = .invalidOperand ∧ ¬ x.Proper) := by
  by_cases hx : x.Proper
  · obtain ⟨a, h⟩ := h1
    exact .inl ⟨a, (Itv.isValidM_ret hx).bind h, fun e he => he.2 hx⟩
  · obtain ⟨a, h⟩ := h2
    exact .inr ⟨_, a, (Itv.isValidM_raise hx).bind h, fun e' => and_iff_left hx⟩

theorem behaves_ditv {x : DItv} {α : Type} {f : Bool → M α} (h1 : ∃ a, Returns (f true) a)
    (h2 : ∃ a, Returns (f false) a) : Behaves (x.isValidM >>= f) (fun e => e = .invalidOperand ∧ ¬ x.Proper) := by
  by_cases hx : x.Proper
  · obtain ⟨a, h⟩ := h1
    exact .inl ⟨a, (DItv.isValidM_ret (DItv.proper_iff.mpr hx)).bind h, fun e he => he.2 hx⟩
  · obtain ⟨a, h⟩ := h2
    exact .inr ⟨_, a, (DItv.isValidM_raise (fun h => hx (DItv.proper_iff.mp h))).bind h, fun e' => and_iff_left hx⟩

theorem behaves_checkAll (xs : List Itv) :
    (∀ x ∈ xs, x.Proper) ∧ Returns (checkAll xs) true ∨ (∃ x ∈ xs, ¬ x.Proper) ∧ Raises (checkAll xs) .invalidOperand false := by
  induction xs with
  | nil => exact .inl ⟨by simp, Returns.pure _⟩
  | cons x l ih =>
    unfold checkAll
    by_cases hx : x.Proper
    · rcases ih with ⟨h1, h2⟩ | ⟨h1, h2⟩
      · exact .inl ⟨by simpa using ⟨hx, h1⟩, (Itv.isValidM_ret hx).bind (by simpa using h2)⟩
      · obtain ⟨y, hy, hy'⟩ := h1
        exact .inr ⟨⟨y, by simp [hy], hy'⟩, (Itv.isValidM_ret hx).bind_raises (by simpa using h2)⟩
    · exact .inr ⟨⟨x, by simp, hx⟩, (Itv.isValidM_raise hx).bind (Returns.pure _)⟩

theorem behaves_checkAllD (xs : List DItv) :
    (∀ x ∈ xs, x.Proper) ∧ Returns (checkAllD xs) true ∨ (∃ x ∈ xs, ¬ x.Proper) ∧ Raises (checkAllD xs) .invalidOperand false := by
  induction xs with
  | nil => exact .inl ⟨by simp, Returns.pure _⟩
  | cons x l ih =>
    unfold checkAllD
    by_cases hx : x.Proper
    · rcases ih with ⟨h1, h2⟩ | ⟨h1, h2⟩
      · exact .inl ⟨by simpa using ⟨hx, h1⟩, (DItv.isValidM_ret (DItv.proper_iff.mpr hx)).bind (by simpa using h2)⟩
      · obtain ⟨y, hy, hy'⟩ := h1
        exact .inr ⟨⟨y, by simp [hy], hy'⟩, (DItv.isValidM_ret (DItv.proper_iff.mpr hx)).bind_raises (by simpa using h2)⟩
    · exact .inr ⟨⟨x, by simp, hx⟩, (DItv.isValidM_raise (fun h => hx (DItv.proper_iff.mp h))).bind (Returns.pure _)⟩

theorem behaves_bounds {α : Type} {l u : FP} {m : M α} (h1 : ValidBounds l u → ∃ a, Returns m a)
    (h2 : ¬ ValidBounds l u → ∃ a, Raises m .undefinedOperation a) :
    Behaves m (fun e => e = .undefinedOperation ∧ ¬ ValidBounds l u) := by
  by_cases h : ValidBounds l u
  · obtain ⟨a, ha⟩ := h1 h
    exact .inl ⟨a, ha, fun e he => he.2 h⟩
  · obtain ⟨a, ha⟩ := h2 h
    exact .inr ⟨_, a, ha, fun e' => and_iff_left h⟩

theorem behaves_boundsDec {α : Type} {l u : FP} {d : UInt8} {m : M α}
    (h1 : ∀ d', Dec.ofRaw d = some d' → Consistent l u d' → ∃ a, Returns m a)
    (h2 : ∀ d', Dec.ofRaw d = some d' → ¬ Consistent l u d' → ∃ a, Raises m .undefinedOperation a)
    (h3 : Dec.ofRaw d = none → ∃ a, Raises m .invalidOperand a) :
    Behaves m (fun e => (e = .invalidOperand ∧ Dec.ofRaw d = none) ∨
      (e = .undefinedOperation ∧ ∃ d', Dec.ofRaw d = some d' ∧ ¬ Consistent l u d')) := by
  cases hd : Dec.ofRaw d with
  | none =>
    obtain ⟨a, ha⟩ := h3 hd
    exact .inr ⟨_, a, ha, fun e' => by simp⟩
  | some d' =>
    by_cases h : Consistent l u d'
    · obtain ⟨a, ha⟩ := h1 d' hd h
      exact .inl ⟨a, ha, fun e => by simp [h]⟩
    · obtain ⟨a, ha⟩ := h2 d' hd h
      exact .inr ⟨_, a, ha, fun e' => by simp [h]⟩

theorem behaves_setDec (x : Itv) (d : UInt8) :
    Behaves (setDec x d) (fun e => e = .invalidOperand ∧ (Dec.ofRaw d = none ∨ ¬ x.Proper)) := by
  cases hd : Dec.ofRaw d with
  | none =>
    obtain ⟨a, ha, -⟩ := C17_set_dec_bad (x := x) hd
    exact .inr ⟨_, a, ha, fun e' => by simp⟩
  | some d' =>
    unfold setDec
    by_cases hx : x.Proper
    · left
      have : ∀ (m : M DItv), (∃ a, Returns m a) → ∃ a, Returns (decIsValidM d >>= fun b =>
          if (!b) = true then pure DItv.nai else x.isValidM >>= fun b => if (!b) = true then pure DItv.nai else m) a := by
        rintro m ⟨a, h⟩
        exact ⟨a, (decIsValidM_ret hd).bind ((Itv.isValidM_ret hx).bind h)⟩
      obtain ⟨a, ha⟩ := this (match Dec.ofRaw d with
        | some .ill => return DItv.nai
        | some d =>
          if x.isEmpty then return DItv.empty else
          if d = .com && (x.lo.feq .ninf || x.hi.feq .pinf) then return ⟨x, .dac⟩ else
          return ⟨x, d⟩
        | none => return DItv.nai) (by
          rw [hd]
          cases d' with
          | ill => exact ⟨_, Returns.pure _⟩
          | _ =>
            simp only
            split_ifs <;> exact ⟨_, Returns.pure _⟩)
      exact ⟨a, ha, fun e he => by simp [hx] at he⟩
    · right
      refine ⟨.invalidOperand, DItv.nai, ?_, fun e' => by simp [hx]⟩
      refine (decIsValidM_ret hd).bind_raises ?_
      exact (Itv.isValidM_raise hx).bind (Returns.pure _)

theorem behaves_part {x : DItv} {α : Type} {f : M α} {g : α} (h1 : ∃ a, Returns f a) :
    Behaves (x.isValidM >>= fun b => if (!b) = true then pure g else if x.isNai = true then
      (signal .intervalPartOfNai >>= fun _ => pure g) else f)
      (fun e => (e = .invalidOperand ∧ ¬ x.Proper) ∨ (e = .intervalPartOfNai ∧ x.IsNaI)) := by
  by_cases hx : x.Proper
  · have hv := DItv.proper_iff.mpr hx
    have hnai : x.isNai = true ↔ x.IsNaI := by
      obtain ⟨⟨l, u⟩, d⟩ := x
      simp [DItv.isNai, hv, DItv.IsNaI, Itv.isNaN_iff]
    by_cases hn : x.IsNaI
    · right
      refine ⟨.intervalPartOfNai, g, (DItv.isValidM_ret hv).bind_raises ?_, fun e' => by simp [hx, hn]⟩
      rw [if_neg (by simp), if_pos (hnai.mpr hn)]
      exact raises_signal_then _ _
    · left
      obtain ⟨a, ha⟩ := h1
      refine ⟨a, (DItv.isValidM_ret hv).bind ?_, fun e => by simp [hx, hn]⟩
      rw [if_neg (by simp), if_neg (fun h => hn (hnai.mp h))]
      exact ha
  · right
    have hn : ¬ x.IsNaI := fun h => hx (by
      have := DItv.eq_nai h
      rw [this]
      exact (DItv.ok_nai (φ := binary64)).dproper)
    refine ⟨.invalidOperand, g, (DItv.isValidM_raise (fun h => hx (DItv.proper_iff.mp h))).bind (Returns.pure _),
      fun e' => by simp [hx, hn]⟩

/-- Every call that is not a change of the mask or a clear behaves as its specification says. -/
theorem behaves (c : Cmd) (h1 : ∀ b, c ≠ .setMask b) (h2 : c ≠ .clear) : Behaves c.run c.Signals := by
  cases c with
  | setMask b => exact absurd rfl (h1 b)
  | clear => exact absurd rfl h2
  | nums l u =>
    refine Behaves.forget (behaves_bounds (fun h => ?_) (fun h => ?_))
    · unfold numsToInterval; rw [if_pos (boundsOk_iff.mpr h)]; exact ⟨_, Returns.pure _⟩
    · obtain ⟨a, ha, -⟩ := C16_invalid h; exact ⟨a, ha⟩
  | numsMixed φ l u =>
    refine Behaves.forget (behaves_bounds (fun h => ?_) (fun h => ?_))
    · obtain ⟨a, ha, -⟩ := C16_mixed_valid φ h; exact ⟨a, ha⟩
    · obtain ⟨a, ha, -⟩ := C16_mixed_invalid φ h; exact ⟨a, ha⟩
  | numsD l u =>
    refine Behaves.forget (behaves_bounds (fun h => ?_) (fun h => ?_))
    · unfold numsToDecorated; rw [if_pos (boundsOk_iff.mpr h)]
      exact ⟨_, newDecM_ret (.inr h)⟩
    · obtain ⟨a, ha, -⟩ := C17_nums_invalid h; exact ⟨a, ha⟩
  | numsMixedD φ l u =>
    refine Behaves.forget (behaves_bounds (fun h => ?_) (fun h => ?_))
    · obtain ⟨a, ha, -⟩ := C17_nums_mixed φ h; exact ⟨a, ha⟩
    · obtain ⟨a, ha, -⟩ := C17_nums_mixed_invalid φ h; exact ⟨a, ha⟩
  | numsDec l u d =>
    refine Behaves.forget (behaves_boundsDec (fun d' hd h => ?_) (fun d' hd h => ?_) (fun hd => ?_))
    · refine ⟨⟨⟨l, u⟩, d'⟩, ?_⟩
      unfold numsDecToDecorated
      refine (decIsValidM_ret hd).bind ?_
      rw [if_pos rfl]
      simp only [hd]
      rw [if_pos (boundsDecOk_iff.mpr h)]
      exact Returns.pure _
    · obtain ⟨a, ha, -⟩ := C17_nums_dec_inconsistent hd h; exact ⟨a, ha⟩
    · obtain ⟨a, ha, -⟩ := C17_nums_dec_bad (l := l) (u := u) hd; exact ⟨a, ha⟩
  | numsDecMixed φ l u d =>
    refine Behaves.forget (behaves_boundsDec (fun d' hd h => ?_) (fun d' hd h => ?_) (fun hd => ?_))
    · obtain ⟨a, ha, -⟩ := C17_nums_dec_mixed φ hd h; exact ⟨a, ha⟩
    · obtain ⟨a, ha, -⟩ := C17_nums_dec_mixed_inconsistent φ hd h; exact ⟨a, ha⟩
    · obtain ⟨a, ha, -⟩ := C17_nums_dec_mixed_bad (l := l) (u := u) φ hd; exact ⟨a, ha⟩
  | newDec x => exact Behaves.forget (behaves_itv ⟨_, Returns.pure _⟩ ⟨_, Returns.pure _⟩)
  | newDecMixed φ x => exact Behaves.forget (behaves_itv ⟨_, Returns.pure _⟩ ⟨_, Returns.pure _⟩)
  | setDec x d => exact (behaves_setDec x d).forget
  | setDecMixed φ x d =>
    refine Behaves.forget ?_
    unfold Fmt.setDecMixed
    rcases behaves_setDec x d with ⟨a, h, hP⟩ | ⟨e, a, h, hP⟩
    · exact .inl ⟨_, h.bind (Returns.pure _), hP⟩
    · exact .inr ⟨e, _, h.bind (Returns.pure _), hP⟩
  | copy x => exact Behaves.forget (behaves_itv ⟨_, Returns.pure _⟩ ⟨_, Returns.pure _⟩)
  | copyD x => exact Behaves.forget (behaves_ditv ⟨_, Returns.pure _⟩ ⟨_, Returns.pure _⟩)
  | convert φ x => exact Behaves.forget (behaves_itv ⟨_, Returns.pure _⟩ ⟨_, Returns.pure _⟩)
  | convertD φ x => exact Behaves.forget (behaves_ditv ⟨_, Returns.pure _⟩ ⟨_, Returns.pure _⟩)
  | intervalPart x => exact Behaves.forget (behaves_part ⟨_, Returns.pure _⟩)
  | intervalPartMixed φ x => exact Behaves.forget (behaves_part ⟨_, Returns.pure _⟩)
  | decorationPart x => exact Behaves.forget (behaves_ditv ⟨_, Returns.pure _⟩ ⟨_, Returns.pure _⟩)
  | op xs =>
    refine Behaves.forget ?_
    rcases behaves_checkAll xs with ⟨h1, h2⟩ | ⟨h1, h2⟩
    · exact .inl ⟨_, h2, fun e he => by obtain ⟨x, hx, hx'⟩ := he.2; exact hx' (h1 x hx)⟩
    · exact .inr ⟨_, _, h2, fun e' => and_iff_left h1⟩
  | opD xs =>
    refine Behaves.forget ?_
    rcases behaves_checkAllD xs with ⟨h1, h2⟩ | ⟨h1, h2⟩
    · exact .inl ⟨_, h2, fun e he => by obtain ⟨x, hx, hx'⟩ := he.2; exact hx' (h1 x hx)⟩
    · exact .inr ⟨_, _, h2, fun e' => and_iff_left h1⟩

/-- One call, in any state.  A call other than a clear or a change of the mask: a flag is set afterwards iff it was set
before or the call signals it; the mask is unchanged; the call throws an exception `e` iff it signals `e` and `e` is
enabled. -/
theorem C36_call (c : Cmd) (h1 : ∀ b, c ≠ .setMask b) (h2 : c ≠ .clear) (s : ExSt) (e : Ex) :
    ((c.run s).2.flags e = true ↔ s.flags e = true ∨ c.Signals e) ∧ (c.run s).2.cwd = s.cwd ∧
    ((c.run s).1 = .thrown e ↔ c.Signals e ∧ s.cwd e = true) := by
  rcases behaves c h1 h2 with ⟨a, h, hP⟩ | ⟨e0, a, h, hP⟩
  · rw [h s]
    exact ⟨by simp [hP e], rfl, by simp [hP e]⟩
  · obtain ⟨g1, g2, g3, g4, g5⟩ := h s
    refine ⟨?_, g3, ?_⟩
    · by_cases he : e = e0
      · subst he; simp [g1, (hP e).mpr rfl]
      · rw [g2 e he]; simp [hP e, he]
    · cases hc : s.cwd e0 with
      | true =>
        rw [g4 hc]
        constructor
        · rintro h; injection h with h; subst h; exact ⟨(hP _).mpr rfl, hc⟩
        · rintro ⟨h, -⟩; rw [hP] at h; rw [h]
      | false =>
        rw [g5 hc]
        constructor
        · rintro h; cases h
        · rintro ⟨h, h'⟩; rw [hP] at h; rw [h, hc] at h'; cases h'

/-- Clearing resets all flags and keeps the mask; changing the mask keeps the flags; neither throws. -/
theorem C36_clear_mask (s : ExSt) (b : Bits) :
    Cmd.clear.run s = (.ret (), ⟨fun _ => false, s.cwd⟩) ∧ (Cmd.setMask b).run s = (.ret (), ⟨s.flags, b⟩) :=
  ⟨rfl, rfl⟩

/-- Flags are sticky until cleared, for every history: after any sequence of calls from the initial state, the flag of
`e` is set iff some call signalled `e` and no clear came after it. -/
theorem C36_sticky (l : List Cmd) (e : Ex) :
    (runAll l ExSt.init).2.flags e = true ↔ ∃ a c b, l = a ++ c :: b ∧ c.Signals e ∧ Cmd.clear ∉ b := by
  suffices H : ∀ (l : List Cmd) (s : ExSt), (runAll l s).2.flags e = true ↔
      (s.flags e = true ∧ Cmd.clear ∉ l) ∨ ∃ a c b, l = a ++ c :: b ∧ c.Signals e ∧ Cmd.clear ∉ b by
    rw [H]; simp [ExSt.init, Bits.none]
  intro l
  induction l with
  | nil => intro s; simp [runAll]
  | cons c l ih =>
    intro s
    rw [show (runAll (c :: l) s).2 = (runAll l (c.run s).2).2 from rfl, ih]
    have split : (∃ a c' b, c :: l = a ++ c' :: b ∧ c'.Signals e ∧ Cmd.clear ∉ b) ↔
        (c.Signals e ∧ Cmd.clear ∉ l) ∨ ∃ a c' b, l = a ++ c' :: b ∧ c'.Signals e ∧ Cmd.clear ∉ b := by
      constructor
      · rintro ⟨a, c', b, h, hs, hb⟩
        cases a with
        | nil => simp at h; obtain ⟨rfl, rfl⟩ := h; exact .inl ⟨hs, hb⟩
        | cons x a => simp at h; exact .inr ⟨a, c', b, h.2, hs, hb⟩
      · rintro (⟨hs, hb⟩ | ⟨a, c', b, rfl, hs, hb⟩)
        · exact ⟨[], c, l, rfl, hs, hb⟩
        · exact ⟨c :: a, c', b, rfl, hs, hb⟩
    rw [split]
    by_cases hcl : c = .clear
    · subst hcl
      rw [(C36_clear_mask s s.cwd).1]
      simp [Cmd.Signals]
    · have hcl' : Cmd.clear ∉ c :: l ↔ Cmd.clear ∉ l := by
        simp [List.mem_cons, Ne.symm hcl]
      rw [hcl']
      by_cases hm : ∃ b, c = .setMask b
      · obtain ⟨b, rfl⟩ := hm
        rw [(C36_clear_mask s b).2]
        simp [Cmd.Signals]
      · rw [(C36_call c (fun b hb => hm ⟨b, hb⟩) hcl s e).1]
        tauto


/-- Throwing, for every history: the call after the calls `l` throws the exception of `e` iff it signals `e` and `e`
is in the mask `b` in force, where `b` is the argument of the last change of the mask in `l`. -/
theorem C36_throw (l : List Cmd) (c : Cmd) (e : Ex) :
    (runAll (l ++ [c]) ExSt.init).1[l.length]? = some (some e) ↔
      c.Signals e ∧ ∃ a b r, l = a ++ Cmd.setMask b :: r ∧ (∀ b', Cmd.setMask b' ∉ r) ∧ b e = true := by
  have run_append : ∀ (l : List Cmd) (s : ExSt), (runAll (l ++ [c]) s).1[l.length]? = some (some e) ↔
      (c.run (runAll l s).2).1 = .thrown e := by
    intro l
    induction l with
    | nil =>
      intro s
      simp only [List.nil_append, runAll, List.length_nil]
      rcases hr : (c.run s).1 with a | e' <;> simp [hr]
    | cons d l ih =>
      intro s
      have := ih (d.run s).2
      simpa [runAll] using this
  have mask : ∀ (l : List Cmd) (s : ExSt), (runAll l s).2.cwd e = true ↔
      (s.cwd e = true ∧ ∀ b', Cmd.setMask b' ∉ l) ∨
      ∃ a b r, l = a ++ Cmd.setMask b :: r ∧ (∀ b', Cmd.setMask b' ∉ r) ∧ b e = true := by
    intro l
    induction l with
    | nil => intro s; simp [runAll]
    | cons d l ih =>
      intro s
      rw [show (runAll (d :: l) s).2 = (runAll l (d.run s).2).2 from rfl, ih]
      have split : (∃ a b r, d :: l = a ++ Cmd.setMask b :: r ∧ (∀ b', Cmd.setMask b' ∉ r) ∧ b e = true) ↔
          (∃ b, d = .setMask b ∧ b e = true ∧ ∀ b', Cmd.setMask b' ∉ l) ∨
          ∃ a b r, l = a ++ Cmd.setMask b :: r ∧ (∀ b', Cmd.setMask b' ∉ r) ∧ b e = true := by
        constructor
        · rintro ⟨a, b, r, h, hs, hb⟩
          cases a with
          | nil => simp at h; obtain ⟨rfl, rfl⟩ := h; exact .inl ⟨b, rfl, hb, hs⟩
          | cons x a => simp at h; exact .inr ⟨a, b, r, h.2, hs, hb⟩
        · rintro (⟨b, rfl, hb, hs⟩ | ⟨a, b, r, rfl, hs, hb⟩)
          · exact ⟨[], b, l, rfl, hs, hb⟩
          · exact ⟨d :: a, b, r, rfl, hs, hb⟩
      rw [split]
      by_cases hm : ∃ b, d = .setMask b
      · obtain ⟨b, rfl⟩ := hm
        rw [(C36_clear_mask s b).2]
        constructor
        · rintro (⟨h1, h2⟩ | h)
          · exact .inr (.inl ⟨b, rfl, h1, h2⟩)
          · exact .inr (.inr h)
        · rintro (⟨h1, h2⟩ | ⟨b', h1, h2, h3⟩ | h)
          · exact absurd (by simp) (h2 b)
          · injection h1 with h1; subst h1; exact .inl ⟨h2, h3⟩
          · exact .inr h
      · have hcw : (d.run s).2.cwd = s.cwd := by
          by_cases hcl : d = .clear
          · subst hcl; rw [(C36_clear_mask s s.cwd).1]
          · exact (C36_call d (fun b hb => hm ⟨b, hb⟩) hcl s e).2.1
        rw [hcw]
        have h1 : (∀ b', Cmd.setMask b' ∉ d :: l) ↔ ∀ b', Cmd.setMask b' ∉ l := by
          constructor
          · intro h b' hb; exact h b' (by simp [hb])
          · intro h b' hb
            rcases List.mem_cons.mp hb with rfl | hb
            · exact hm ⟨b', rfl⟩
            · exact h b' hb
        rw [h1]
        constructor
        · rintro (h | h)
          · exact .inl h
          · exact .inr (.inr h)
        · rintro (h | ⟨b, rfl, -⟩ | h)
          · exact .inl h
          · exact absurd ⟨b, rfl⟩ hm
          · exact .inr h
  rw [run_append]
  have hm := mask l ExSt.init
  by_cases hcl : c = .clear
  · subst hcl; rw [(C36_clear_mask _ (fun _ => false)).1]; simp [Cmd.Signals]
  · by_cases hmm : ∃ b, c = .setMask b
    · obtain ⟨b, rfl⟩ := hmm
      rw [(C36_clear_mask _ b).2]; simp [Cmd.Signals]
    · rw [(C36_call c (fun b hb => hmm ⟨b, hb⟩) hcl _ e).2.2, hm]
      simp [ExSt.init, Bits.none]

/-- Calls on valid operands signal nothing, except: a constructor from numbers that do not denote an interval
(undefined operation), and the interval part of NaI. -/
theorem C36_valid {φ : Fmt} (xs : List Itv) (hxs : ∀ x ∈ xs, x.Ok φ) (ds : List DItv) (hds : ∀ x ∈ ds, x.Ok φ)
    (e : Ex) :
    ¬ (Cmd.op xs).Signals e ∧ ¬ (Cmd.opD ds).Signals e ∧
    (∀ x ∈ xs, ¬ (Cmd.newDec x).Signals e ∧ ¬ (Cmd.copy x).Signals e ∧ ∀ ψ, ¬ (Cmd.convert ψ x).Signals e) ∧
    (∀ x ∈ ds, ¬ (Cmd.copyD x).Signals e ∧ ¬ (Cmd.decorationPart x).Signals e ∧ (∀ ψ, ¬ (Cmd.convertD ψ x).Signals e) ∧
      ((Cmd.intervalPart x).Signals e ↔ e = .intervalPartOfNai ∧ x.IsNaI)) := by
  refine ⟨?_, ?_, fun x hx => ?_, fun x hx => ?_⟩
  · rintro ⟨-, x, hx, h⟩; exact h (hxs x hx).proper
  · rintro ⟨-, x, hx, h⟩; exact h (hds x hx).dproper
  · have := (hxs x hx).proper
    simp [Cmd.Signals, this]
  · have := (hds x hx).dproper
    simp [Cmd.Signals, this]

/-- No call ever signals "possibly undefined operation". -/
theorem C36_never (c : Cmd) : ¬ c.Signals .possiblyUndefinedOperation := by
  cases c <;> simp [Cmd.Signals]

/-- The queries report the flags and change nothing: asked after any history, the query of `e` answers whether some call
signalled `e` and no clear came after it. -/
theorem C36_query (l : List Cmd) (e : Ex) :
    ∃ b, query e (runAll l ExSt.init).2 = (.ret b, (runAll l ExSt.init).2) ∧
      (b = true ↔ ∃ a c b, l = a ++ c :: b ∧ c.Signals e ∧ Cmd.clear ∉ b) :=
  ⟨_, rfl, C36_sticky l e⟩

-- A history: enable "undefined operation", build [2,1] (throws), clear, build [NaN,0] with the mask off.
example : (runAll [.setMask (fun e => e = .undefinedOperation), .nums (.fin 2) (.fin 1), .clear,
      .setMask (fun _ => false), .nums .nan (.fin 0)] ExSt.init).1 =
    [none, some .undefinedOperation, none, none, none] := by decide +kernel

end P1788
