import Verif.Lemmas.StreamX
import Verif.Lemmas.TextBody

/-! Reading an interval from a stream with exceptions enabled. -/

namespace P1788

variable {m : Mask} {s t u : IStr} {φ : Fmt}

theorem Final.out {x : XR (Option DItv)} {r : Option DItv × IStr} (h : Final m x r) : OutSim m (.ok x) (.ok r) := .ok h

theorem no_mark {w : List Char} (h : '?' ∉ w) : Rx.uncertain.matchAll w = none := by
  cases hm : Rx.uncertain.matchAll w with
  | none => rfl
  | some k =>
    obtain ⟨s, m, r, d, x, -, -, -, -, -, -, -, -, -, e, -⟩ := Rx.matches_uncertain (Rx.matches_of_matchAll hm)
    exact absurd (by rw [e]; simp) h

theorem not_good_le (h : s.Le t) (hm : m.hits s = true) : t.good = false := not_good_of_hits (h.hits hm)

/-- The part of `Fmt.readItvX` after an opening bracket has been seen. -/
def bracketPartX (m : Mask) (φ : Fmt) (s : IStr) : Std (XR (Option DItv)) :=
  let r := readBracketX m s.rest s
  if r.threw then .ok ⟨true, none, r.str⟩ else
  let s := r.str
  if s.ok then
    match Rx.infSup.matchAll r.val with
    | some g => do
      let (bare, dec) ← φ.args g
      if Fmt.textOk bare then return finishDecX m bare dec s
      return .set m none s.setFail
    | none => .ok (.set m none s.setFail)
  else .ok (.set m none s.setFail)

/-- The part of `Fmt.readItv` after an opening bracket has been seen. -/
def bracketPart (φ : Fmt) (s : IStr) : Std (Option DItv × IStr) :=
  let r := readBracket s.rest s
  if r.2.ok then
    match Rx.infSup.matchAll r.1 with
    | some g => do
      let (bare, dec) ← φ.args g
      if Fmt.textOk bare then return finishDec bare dec r.2
      return (none, r.2.setFail)
    | none => .ok (none, r.2.setFail)
  else .ok (none, r.2.setFail)

/-- The part of `Fmt.readItvX` for the uncertain form. -/
def uncPartX (m : Mask) (φ : Fmt) (s : IStr) : Std (XR (Option DItv)) :=
  let r := readUncertainX m s
  if r.threw then .ok ⟨true, none, r.str⟩ else
  let s := r.str
  if s.ok || s.eof then
    match Rx.uncertain.matchAll r.val with
    | some g => do
      match ← φ.uncertainArg g with
      | some (bare, dec) =>
        if boundsOk bare.lo bare.hi then return finishDecX m bare dec s
        return .set m none s.setFail
      | none => return .set m none s.setFail
    | none => .ok (.set m none s.setFail)
  else .ok (.set m none s.setFail)

/-- The part of `Fmt.readItv` for the uncertain form. -/
def uncPart (φ : Fmt) (s : IStr) : Std (Option DItv × IStr) :=
  let r := readUncertain s
  if r.2.ok || r.2.eof then
    match Rx.uncertain.matchAll r.1 with
    | some g => do
      match ← φ.uncertainArg g with
      | some (bare, dec) =>
        if boundsOk bare.lo bare.hi then return finishDec bare dec r.2
        return (none, r.2.setFail)
      | none => return (none, r.2.setFail)
    | none => .ok (none, r.2.setFail)
  else .ok (none, r.2.setFail)

theorem out_bracket (m : Mask) (φ : Fmt) (s : IStr) : OutSim m (bracketPartX m φ s) (bracketPart φ s) := by
  unfold bracketPartX bracketPart
  have h := sim_bracket m s.rest s
  simp only
  cases hx : (readBracketX m s.rest s).threw with
  | true =>
    obtain ⟨h1, h2⟩ := h.thrown hx
    rw [bracket_fails _ _ rfl (not_good_le h2 h1)]
    exact (Final.early h1 (h2.trans (.setFail _))).out
  | false =>
    obtain ⟨h1, h2, h3⟩ := h.same hx
    rw [h1, h2]
    simp only [Bool.false_eq_true, if_false]
    generalize readBracket s.rest s = r at *
    cases hk : r.2.ok with
    | false => exact (Final.set _).out
    | true =>
      simp only [if_true]
      cases Rx.infSup.matchAll r.1 with
      | none => exact (Final.set _).out
      | some g =>
        refine OutSim.bind fun b => ?_
        obtain ⟨bare, dec⟩ := b
        simp only
        split_ifs
        · exact (final_finish m bare dec (by simp [hk])).out
        · exact (Final.set _).out

theorem out_uncertain (m : Mask) (φ : Fmt) (s : IStr) : OutSim m (uncPartX m φ s) (uncPart φ s) := by
  unfold uncPartX uncPart
  have hn := sim_number m s.rest s
  rw [readUncertain_eq]
  unfold readUncertainX XR.bind
  cases hx : (readNumberX m s.rest s).threw with
  | true =>
    obtain ⟨h1, h2⟩ := hn.thrown hx
    have hg := not_good_le h2 h1
    have hm := number_no_mark _ _ hg
    have hT := step_tryBlock m (readNumber s.rest s).2
    simp only [if_true]
    have he : (readNumberX m s.rest s).str.Le (uncRest (readNumber s.rest s).2).2.setFail := (h2.trans hT.sim.le).trans (.setFail _)
    split_ifs with h3
    · cases hq : Rx.uncertain.matchAll ((readNumber s.rest s).1 ++ (uncRest (readNumber s.rest s).2).1) with
      | none => exact (Final.early h1 he).out
      | some g =>
        exfalso
        have heof : (readNumber s.rest s).2.eof = true ∨ (readNumber s.rest s).2.ok = false := by
          cases hk : (readNumber s.rest s).2.ok
          · exact Or.inr rfl
          · exact Or.inl ((live_of_ok hk).resolve_left (by simp [hg]))
        have hnil : (uncRest (readNumber s.rest s).2).1 = [] := by
          rcases heof with h | h
          · exact (hT.quiet h).1
          · have hng : (readNumber s.rest s).2.good = false := hg
            have hd : ∀ cs, (readNumber s.rest s).2.accept cs = ([], (readNumber s.rest s).2) := fun cs => by simp [IStr.accept, h]
            have hdig : ∀ l, readDigits l (readNumber s.rest s).2 = ([], (readNumber s.rest s).2) := fun l => by
              cases l <;> simp [readDigits, h]
            simp [uncRest, addP, hd, hdig]
        rw [hnil, List.append_nil, no_mark hm] at hq
        simp at hq
    · exact (Final.early h1 he).out
  | false =>
    obtain ⟨h1, h2, -⟩ := hn.same hx
    rw [h1, h2]
    simp only [Bool.false_eq_true, if_false]
    generalize readNumber s.rest s = a
    have hT := step_tryBlock m a.2
    cases ht : (tryBlockX m a.2).threw with
    | false =>
      obtain ⟨h3, h4, -⟩ := hT.sim.same ht
      rw [h3, h4]
      simp only [Bool.false_and, Bool.false_eq_true, if_false]
      generalize uncRest a.2 = b
      cases hk : (b.2.ok || b.2.eof) with
      | false => exact (Final.set _).out
      | true =>
        simp only [if_true]
        cases Rx.uncertain.matchAll (a.1 ++ b.1) with
        | none => exact (Final.set _).out
        | some g =>
          refine OutSim.bind fun c => ?_
          cases c with
          | none => exact (Final.set _).out
          | some c =>
            obtain ⟨bare, dec⟩ := c
            simp only
            split_ifs
            · exact (final_finish m bare dec hk).out
            · exact (Final.set _).out
    | true =>
      obtain ⟨h3, h4, h5⟩ := hT.sim.all ht
      obtain ⟨h6, h7⟩ := hT.sim.thrown ht
      have h8 := h7.eof h4
      have hset : Final m (.set m (none : Option DItv) (tryBlockX m a.2).str.setFail) (none, (uncRest a.2).2.setFail) := by
        have e1 := (IStr.Le.setFail (tryBlockX m a.2).str).hits h6
        have e2 : (tryBlockX m a.2).str.setFail.Le (uncRest a.2).2.setFail := ⟨h7.eof, fun _ => rfl, h7.bad⟩
        exact ⟨⟨fun _ => e2.hits e1, fun _ => e1⟩, fun e => by simp [XR.set, e1] at e, fun _ => ⟨rfl, e1, e2⟩⟩
      simp only [h4, Bool.not_true, Bool.and_false, Bool.false_eq_true, if_false, Bool.or_true, if_true, h8, h3]
      cases Rx.uncertain.matchAll (a.1 ++ (uncRest a.2).1) with
      | none => exact hset.out
      | some g =>
        refine OutSim.bind fun c => ?_
        cases c with
        | none => exact hset.out
        | some c =>
          obtain ⟨bare, dec⟩ := c
          simp only
          split_ifs
          · rw [(finish_eof (m := m) bare dec h8).1, (finish_eof bare dec h4).2, h5]
            exact Final.out ⟨by simp [XR.ret, hits_clr], fun _ => ⟨rfl, rfl⟩, by simp [XR.ret]⟩
          · exact hset.out

/-- The second look at the next character. -/
def signChar (c : Char) : Bool := c = '+' || c = '-' || c = '.' || isDigit c

theorem readItvX_eq (m : Mask) (φ : Fmt) (s : IStr) : φ.readItvX m s =
    (if (skipWsX m s).threw then .ok ⟨true, none, (skipWsX m s).str⟩ else
    if (skipWsX m s).str.ok then
      if ((skipWsX m s).str.peekX m).threw then .ok ⟨true, none, ((skipWsX m s).str.peekX m).str⟩ else
      if ((skipWsX m s).str.peekX m).val = some '[' then bracketPartX m φ ((skipWsX m s).str.peekX m).str
      else
        let v := ((skipWsX m s).str.peekX m).str
        let r := if v.ok then v.peekX m else .ret none v
        if r.threw then .ok ⟨true, none, r.str⟩ else
        if r.val.any signChar then uncPartX m φ r.str else .ok (.set m none r.str.setFail)
    else .ok (.set m none (skipWsX m s).str.setFail)) := rfl

theorem readItv_eq (φ : Fmt) (s : IStr) : φ.readItv s =
    (if (skipWs s).ok then
      if (skipWs s).peek.1 = some '[' then bracketPart φ (skipWs s).peek.2
      else
        let v := (skipWs s).peek.2
        let r := if v.ok then (v.peek.1.any signChar, v.peek.2) else (false, v)
        if r.1 then uncPart φ r.2 else .ok (none, r.2.setFail)
    else .ok (none, (skipWs s).setFail)) := by
  unfold Fmt.readItv skipWs
  generalize (if s.skipws = true then removeWs s else s) = t
  show (if t.ok = true then _ else _) = _
  cases t.ok with
  | false => rfl
  | true =>
    simp only [if_true]
    generalize t.peek = p
    obtain ⟨c, v⟩ := p
    simp only
    by_cases hc : c = some '['
    · rw [if_pos hc, if_pos hc]; rfl
    · rw [if_neg hc, if_neg hc]
      cases hv : v.ok with
      | false => rfl
      | true =>
        simp only [if_true]
        generalize v.peek = q
        obtain ⟨d, w⟩ := q
        rfl

theorem peek_none (h : s.good = false) : s.peek.1 = none := by
  simp [IStr.peek, h]

theorem peek_le (s : IStr) : s.Le s.peek.2 := (sim_peek {} s).le

/-- A stream from which no character is to be seen is left without a value. -/
theorem readItv_lost (φ : Fmt) (h : (skipWs s).peek.2.good = false) : ∃ t, (skipWs s).Le t ∧ ((skipWs s).ok = true → (skipWs s).peek.2.Le t) ∧
    φ.readItv s = .ok (none, t) := by
  rw [readItv_eq]
  cases hk : (skipWs s).ok with
  | false => exact ⟨_, .setFail _, by simp, rfl⟩
  | true =>
    have h1 := peek_not_good h
    have h2 := peek_none h
    simp only [if_true, h1, h2]
    rw [if_neg (by simp)]
    split_ifs with h3 h4 h4
    · exact absurd h4 (by simp)
    · exact ⟨_, (peek_le _).trans ((peek_le _).trans (.setFail _)), fun _ => (peek_le _).trans (.setFail _), rfl⟩
    · exact absurd h4 (by simp)
    · exact ⟨_, (peek_le _).trans (.setFail _), fun _ => .setFail _, rfl⟩

theorem peekX_threw (h : (s.peekX m).threw = true) : s.peek.2.good = false :=
  not_good_le ((sim_peek m s).thrown h).2 ((sim_peek m s).thrown h).1

/-- Reading an interval. -/
theorem readItv_out (m : Mask) (φ : Fmt) (s : IStr) : OutSim m (φ.readItvX m s) (φ.readItv s) := by
  rw [readItvX_eq]
  have h := sim_skipWs m s
  cases hx : (skipWsX m s).threw with
  | true =>
    obtain ⟨h1, h2⟩ := h.thrown hx
    have h3 : (skipWs s).peek.2.good = false := not_good_le (h2.trans (peek_le _)) h1
    obtain ⟨t, ht, -, e⟩ := readItv_lost φ h3
    rw [e]
    exact (Final.early h1 (h2.trans ht)).out
  | false =>
    obtain ⟨-, h2, -⟩ := h.same hx
    have h2 : (skipWsX m s).str = skipWs s := h2
    rw [h2]
    simp only [Bool.false_eq_true, if_false]
    have hp := sim_peek m (skipWs s)
    cases hk : (skipWs s).ok with
    | false =>
      rw [readItv_eq, hk]
      exact (Final.set _).out
    | true =>
      simp only [if_true]
      cases hy : ((skipWs s).peekX m).threw with
      | true =>
        obtain ⟨h1, h3⟩ := hp.thrown hy
        obtain ⟨t, -, ht, e⟩ := readItv_lost φ (peekX_threw hy)
        rw [e]
        exact (Final.early h1 (h3.trans (ht hk))).out
      | false =>
        obtain ⟨h4, h5, -⟩ := hp.same hy
        rw [readItv_eq, hk, h4, h5]
        simp only [if_true, Bool.false_eq_true, if_false]
        generalize (skipWs s).peek.2 = v
        by_cases hc : (skipWs s).peek.1 = some '['
        · rw [if_pos hc, if_pos hc]
          exact out_bracket m φ v
        · rw [if_neg hc, if_neg hc]
          cases hv : v.ok with
          | false => exact (Final.set _).out
          | true =>
            simp only [if_true]
            have hq := sim_peek m v
            cases hz : (v.peekX m).threw with
            | true =>
              obtain ⟨h1, h3⟩ := hq.thrown hz
              rw [peek_not_good (peekX_threw hz)]
              exact (Final.early h1 (h3.trans (.setFail _))).out
            | false =>
              obtain ⟨h6, h7, -⟩ := hq.same hz
              rw [h6, h7]
              simp only [Bool.false_eq_true, if_false]
              cases v.peek.1.any signChar with
              | true => exact out_uncertain m φ _
              | false => exact (Final.set _).out

end P1788
