import Verif.Lemmas.StreamX2
import Verif.Props.C38

/-!
# C68: streams that report by exceptions

With `is.exceptions(mask)`, reading behaves as without, except that `std::ios_base::failure` leaves the call exactly if otherwise a bit of
the mask would be set in the end.
-/

namespace P1788

variable {φ : Fmt} {m : Mask} {s t : IStr}

/-- What is promised for a call that, without exceptions, ends with the value `v` (`none`: the variable is left alone) and the stream `t`:
with exceptions it throws exactly if `t` has a bit of the mask; otherwise the value and the stream are `v` and `t`; if it throws,
the variable is left alone (`keep`), the stream shows the bit, and no bits that `t` does not have. -/
structure ByExceptions {α : Type} (m : Mask) (keep : α) (v : α) (t : IStr) (x : XR α) : Prop where
  throws : x.threw = true ↔ (m.eof = true ∧ t.eof = true) ∨ (m.fail = true ∧ t.fail = true) ∨ (m.bad = true ∧ t.bad = true)
  returns : x.threw = false → x.val = v ∧ x.str = t
  keeps : x.threw = true → x.val = keep
  shows : x.threw = true → (m.eof = true ∧ x.str.eof = true) ∨ (m.fail = true ∧ x.str.fail = true) ∨ (m.bad = true ∧ x.str.bad = true)
  bits : x.threw = true → (x.str.eof = true → t.eof = true) ∧ (x.str.fail = true → t.fail = true) ∧ (x.str.bad = true → t.bad = true)

theorem hits_iff (m : Mask) (s : IStr) : m.hits s = true ↔
    (m.eof = true ∧ s.eof = true) ∨ (m.fail = true ∧ s.fail = true) ∨ (m.bad = true ∧ s.bad = true) := by
  simp [Mask.hits, or_assoc]

theorem Final.byExceptions {α : Type} {x : XR (Option α)} {r : Option α × IStr} (h : Final m x r) : ByExceptions m none r.1 r.2 x :=
  ⟨by rw [h.iff, hits_iff], h.same, fun e => (h.thrown e).1, fun e => (hits_iff _ _).1 (h.thrown e).2.1,
    fun e => ⟨(h.thrown e).2.2.eof, (h.thrown e).2.2.fail, (h.thrown e).2.2.bad⟩⟩

/-- **C68**, decorated intervals: any mask, any stream in any state.  The other outcomes, `std::out_of_range` of a huge exponent and
undefined behaviour, are the same. -/
theorem C68_decorated (m : Mask) (φ : Fmt) (s : IStr) :
    (∀ v t, φ.readItv s = .ok (v, t) → ∃ x, φ.readItvX m s = .ok x ∧ ByExceptions m none v t x) ∧
    (φ.readItv s = .outOfRange → φ.readItvX m s = .outOfRange) ∧ (φ.readItv s = .ub → φ.readItvX m s = .ub) := by
  have h := readItv_out m φ s
  refine ⟨fun v t e => ?_, fun e => ?_, fun e => ?_⟩
  · rw [e] at h
    obtain ⟨x, e, hx⟩ := h
    exact ⟨x, e, hx.byExceptions⟩
  · rw [e] at h; exact h
  · rw [e] at h; exact h

/-! A call that leaves the stream usable has assigned a value. -/

theorem finish_some (bare : Itv) (dec : Dec) (s : IStr) (h : (finishDec bare dec s).2.ok = true) : (finishDec bare dec s).1 ≠ none := by
  unfold finishDec at h ⊢
  simp only at h ⊢
  split_ifs at h ⊢ <;> simp_all [IStr.ok, IStr.setFail]

def SomeIfOk (R : Std (Option DItv × IStr)) : Prop := ∀ v t, R = .ok (v, t) → t.ok = true → v ≠ none

theorem SomeIfOk.bind {β : Type} {A : Std β} {g : β → Std (Option DItv × IStr)} (h : ∀ b, SomeIfOk (g b)) : SomeIfOk (A.bind g) := by
  cases A with
  | ok b => exact h b
  | outOfRange => exact fun _ _ e => by cases e
  | ub => exact fun _ _ e => by cases e

theorem SomeIfOk.fail (s : IStr) : SomeIfOk (.ok (none, s.setFail)) := by
  rintro v t ⟨⟩ h; simp [IStr.ok, IStr.setFail] at h

theorem SomeIfOk.finish (bare : Itv) (dec : Dec) (s : IStr) : SomeIfOk (.ok (finishDec bare dec s)) := by
  intro v t e h
  have e := Std.ok.inj e
  have := finish_some bare dec s
  rw [e] at this
  exact this h

theorem readItv_someIfOk (φ : Fmt) (s : IStr) : SomeIfOk (φ.readItv s) := by
  rw [readItv_eq]
  simp only
  split_ifs
  · unfold bracketPart
    simp only
    split_ifs
    · cases Rx.infSup.matchAll _ with
      | none => exact .fail _
      | some g =>
        refine .bind fun b => ?_
        obtain ⟨bare, dec⟩ := b
        simp only
        split_ifs
        · exact .finish _ _ _
        · exact .fail _
    · exact .fail _
  all_goals first | exact .fail _ | skip
  all_goals
    unfold uncPart
    simp only
    split_ifs
    · cases Rx.uncertain.matchAll _ with
      | none => exact .fail _
      | some g =>
        refine .bind fun b => ?_
        cases b with
        | none => exact .fail _
        | some b =>
          obtain ⟨bare, dec⟩ := b
          simp only
          split_ifs
          · exact .finish _ _ _
          · exact .fail _
    · exact .fail _

/-- What `Fmt.readBare` does after `Fmt.readItv`. -/
def bareOf (r : Option DItv × IStr) : Std (M (Option Itv) × IStr) :=
  if r.2.ok then
    match r.1 with
    | some y => .ok ((do return some (← intervalPart y)), r.2)
    | none => .ub
  else .ok (pure none, r.2)

/-- What `Fmt.readBareX` does after `Fmt.readItvX`. -/
def bareOfX (x : XR (Option DItv)) : Std (XR (M (Option Itv))) :=
  if x.threw then .ok ⟨true, pure none, x.str⟩ else
  if x.str.ok then
    match x.val with
    | some y => .ok (.ret (do return some (← intervalPart y)) x.str)
    | none => .ub
  else .ok (.ret (pure none) x.str)

theorem readBare_of {r : Option DItv × IStr} (h : φ.readItv s = .ok r) : φ.readBare s = bareOf r := by
  unfold Fmt.readBare; rw [h]; rfl

theorem readBareX_of {x : XR (Option DItv)} (h : φ.readItvX m s = .ok x) : φ.readBareX m s = bareOfX x := by
  unfold Fmt.readBareX; rw [h]; rfl

theorem bareOf_cases {r : Option DItv × IStr} {x : XR (Option DItv)} (hx : Final m x r) (hr : SomeIfOk (.ok r)) :
    ∃ w, bareOf r = .ok (w, r.2) ∧ bareOfX x = .ok (if x.threw then ⟨true, pure none, x.str⟩ else .ret w r.2) := by
  obtain ⟨v, t⟩ := r
  have hX : ∀ w, bareOf (v, t) = .ok (w, t) → bareOfX x = .ok (if x.threw then ⟨true, pure none, x.str⟩ else .ret w t) := by
    intro w hw
    unfold bareOfX
    cases hw' : x.threw with
    | true => rfl
    | false =>
      obtain ⟨h1, h2⟩ := hx.same hw'
      rw [h1, h2]
      unfold bareOf at hw
      simp only [Bool.false_eq_true, if_false] at hw ⊢
      split_ifs at hw ⊢
      · cases v with
        | none => cases hw
        | some y => cases hw; rfl
      · cases hw; rfl
  cases hk : t.ok with
  | false => exact ⟨pure none, by simp [bareOf, hk], hX _ (by simp [bareOf, hk])⟩
  | true =>
    cases v with
    | none => exact absurd rfl (hr _ _ rfl hk)
    | some y =>
      have e : bareOf (some y, t) = .ok ((do return some (← intervalPart y)), t) := by simp only [bareOf, hk, if_true]
      exact ⟨_, e, hX _ e⟩

/-- **C68**, bare intervals; the value is a computation since `interval_part` signals. -/
theorem C68_bare (m : Mask) (φ : Fmt) (s : IStr) :
    (∀ v t, φ.readBare s = .ok (v, t) → ∃ x, φ.readBareX m s = .ok x ∧ ByExceptions m (pure none) v t x) ∧
    (φ.readBare s = .outOfRange → φ.readBareX m s = .outOfRange) ∧ (φ.readBare s = .ub → φ.readBareX m s = .ub) := by
  have h := readItv_out m φ s
  have hs := readItv_someIfOk φ s
  cases e : φ.readItv s with
  | outOfRange =>
    rw [e] at h
    have h : φ.readItvX m s = .outOfRange := h
    unfold Fmt.readBare Fmt.readBareX
    rw [h, e]
    exact ⟨fun _ _ e => (by cases e), fun _ => rfl, fun e => (by cases e)⟩
  | ub =>
    rw [e] at h
    have h : φ.readItvX m s = .ub := h
    unfold Fmt.readBare Fmt.readBareX
    rw [h, e]
    exact ⟨fun _ _ e => (by cases e), fun e => (by cases e), fun _ => rfl⟩
  | ok r =>
    rw [e] at h hs
    obtain ⟨x, ex, hx⟩ := h
    obtain ⟨w, e1, e2⟩ := bareOf_cases hx hs
    rw [readBare_of e, readBareX_of ex, e1, e2]
    have hb := hx.byExceptions
    refine ⟨fun v t ev => ⟨_, rfl, ?_⟩, fun e => (by cases e), fun e => (by cases e)⟩
    obtain ⟨rfl, rfl⟩ := Prod.mk.inj (Std.ok.inj ev)
    cases hw : x.threw with
    | true => exact ⟨⟨fun _ => hb.throws.1 hw, fun _ => rfl⟩, by simp, fun _ => rfl, fun _ => hb.shows hw, fun _ => hb.bits hw⟩
    | false =>
      refine ⟨⟨fun e => (by cases e), fun e => ?_⟩, fun _ => ⟨rfl, rfl⟩, fun e => (by cases e), fun e => (by cases e), fun e => (by cases e)⟩
      rw [hb.throws.2 e] at hw; cases hw

/-- A stream that has a bit of the mask already throws again. -/
theorem readDecX_hits (d : Dec) (hs : m.hits s = true) : (Dec.readX m s d).threw = true := by
  have hg := not_good_of_hits hs
  have hsf : m.hits s.setFail = true := (IStr.Le.setFail s).hits hs
  have hp : s.peekX m = ⟨true, none, s.setFail⟩ := by simp [IStr.peekX, hg, XR.set, hsf]
  have hsk : skipWsX m s = .ret () s ∨ (skipWsX m s).threw = true := by
    unfold skipWsX
    split_ifs
    · cases hr : s.rest with
      | nil =>
        unfold removeWsLoopX
        split_ifs
        · exact Or.inr (by rw [hp]; rfl)
        · exact Or.inl rfl
      | cons c l =>
        unfold removeWsLoopX
        split_ifs
        · exact Or.inr (by rw [hp]; rfl)
        · exact Or.inl rfl
    · exact Or.inl rfl
  unfold Dec.readX
  rcases hsk with h | h
  · rw [h, XR.ret_bind]
    split_ifs
    · rw [hp]; rfl
    · exact hsf
  · unfold XR.bind
    rw [h]; rfl

/-- **C68**, decorations: the variable holds `d` before. -/
theorem C68_decoration (m : Mask) (s : IStr) (d : Dec) : ByExceptions m d (Dec.read s d).1 (Dec.read s d).2 (Dec.readX m s d) := by
  have h := sim_readDec m s d
  refine ⟨⟨fun e => (hits_iff _ _).1 ((h.thrown e).2.hits (h.thrown e).1), fun e => ?_⟩, fun e => ⟨(h.same e).1, (h.same e).2.1⟩,
    fun e => readDec_keeps m s d e, fun e => (hits_iff _ _).1 (h.thrown e).1,
    fun e => ⟨(h.thrown e).2.eof, (h.thrown e).2.fail, (h.thrown e).2.bad⟩⟩
  by_contra hx
  have hx' : (Dec.readX m s d).threw = false := by simpa using hx
  have hs := (h.same hx').2.2 (by rw [(h.same hx').2.1]; exact (hits_iff _ _).2 e)
  exact hx (readDecX_hits d hs)

/-- **C68**: without exceptions enabled nothing is thrown, and reading is as in the other properties. -/
theorem C68_none (φ : Fmt) (s : IStr) {v : Option DItv} {t : IStr} (h : φ.readItv s = .ok (v, t)) : φ.readItvX {} s = .ok (.ret v t) := by
  obtain ⟨⟨b, w, u⟩, e, hx⟩ := (C68_decorated {} φ s).1 v t h
  have hb : b = false := by
    cases b with
    | false => rfl
    | true => simpa using hx.throws.1 rfl
  subst hb
  obtain ⟨rfl, rfl⟩ := hx.returns rfl
  exact e

/-- **C68**: whatever leaves the stream good without exceptions is read without exceptions being thrown, under any mask. -/
theorem C68_good (m : Mask) (φ : Fmt) (s : IStr) {v : Option DItv} {t : IStr} (h : φ.readItv s = .ok (v, t)) (ht : t.good = true) :
    φ.readItvX m s = .ok (.ret v t) := by
  obtain ⟨⟨b, w, u⟩, e, hx⟩ := (C68_decorated m φ s).1 v t h
  have hb : b = false := by
    cases b with
    | false => rfl
    | true => have := hx.throws.1 rfl; rw [← hits_iff, hits_good ht] at this; cases this
  subst hb
  obtain ⟨rfl, rfl⟩ := hx.returns rfl
  exact e

/-- The loop `for (k < n) { if (!(is >> x)) break; v.push_back(x); }`: the values and the stream. -/
def drain (φ : Fmt) : ℕ → IStr → Std (List (Option DItv) × IStr)
  | 0, s => .ok ([], s)
  | n + 1, s => (φ.readItv s).bind fun r => if r.2.ok then (drain φ n r.2).bind fun q => .ok (r.1 :: q.1, q.2) else .ok ([], r.2)

/-- The loop `try { for (k < n) { is >> x; v.push_back(x); } } catch (std::ios_base::failure&) {}`: the values and the stream. -/
def drainX (m : Mask) (φ : Fmt) : ℕ → IStr → Std (List (Option DItv) × IStr)
  | 0, s => .ok ([], s)
  | n + 1, s => (φ.readItvX m s).bind fun x =>
    if x.threw then .ok ([], x.str) else (drainX m φ n x.str).bind fun q => .ok (x.val :: q.1, q.2)

/-- **C68**: programs.  A loop that ends by an exception for the failbit or the badbit gets the values that the loop gets that tests the
stream after each reading. -/
theorem C68_loop (φ : Fmt) (n : ℕ) : ∀ s l t, drain φ n s = .ok (l, t) →
    ∃ t', drainX { fail := true, bad := true } φ n s = .ok (l, t') ∧ (t'.ok = true → t' = t) ∧ (t'.ok = t.ok) := by
  induction n with
  | zero => rintro s l t ⟨⟩; exact ⟨_, rfl, fun _ => rfl, rfl⟩
  | succ n ih =>
    intro s l t h
    unfold drain at h
    cases e : φ.readItv s with
    | outOfRange => rw [e] at h; cases h
    | ub => rw [e] at h; cases h
    | ok r =>
      obtain ⟨v, u⟩ := r
      obtain ⟨x, ex, hx⟩ := (C68_decorated { fail := true, bad := true } φ s).1 v u e
      have hth : x.threw = !u.ok := by
        have := hx.throws
        cases hb : x.threw <;> cases hu : u.ok <;> simp_all [IStr.ok]
      rw [e] at h
      unfold drainX
      rw [ex]
      change (if u.ok then _ else _) = _ at h
      change ∃ t', (if x.threw then _ else _) = _ ∧ _
      cases hu : u.ok with
      | false =>
        rw [hu] at h hth
        obtain ⟨rfl, rfl⟩ := Prod.mk.inj (Std.ok.inj h)
        have hth : x.threw = true := hth
        have := hx.shows hth
        have hk : x.str.ok = false := by
          rcases this with h | h | h
          · cases h.1
          · simp [IStr.ok, h.2]
          · simp [IStr.ok, h.2]
        rw [if_pos hth]
        exact ⟨x.str, rfl, fun h => (by rw [hk] at h; cases h), by rw [hk]; exact hu.symm⟩
      | true =>
        rw [hu] at h hth
        have hth : x.threw = false := hth
        rw [if_neg (by simp [hth])]
        obtain ⟨h1, h2⟩ := hx.returns hth
        rw [h1, h2]
        cases ed : drain φ n u with
        | outOfRange => rw [ed] at h; cases h
        | ub => rw [ed] at h; cases h
        | ok q =>
          rw [ed] at h
          obtain ⟨l', t0⟩ := q
          obtain ⟨rfl, rfl⟩ := Prod.mk.inj (Std.ok.inj h)
          obtain ⟨t', e', h3⟩ := ih _ _ _ ed
          rw [e']
          exact ⟨_, rfl, h3⟩

/-! Concrete cases. -/

/-- The outcome on a text: whether it throws, the value, `eof()`, `fail()`, and what is left. -/
def outX (m : Mask) (l : String) : Option (Bool × Option DItv × Bool × Bool × String) :=
  match Fmt.readItvX m binary64 { rest := l.toList } with
  | .ok x => some (x.threw, x.val, x.str.eof, x.str.fail, String.ofList x.str.rest)
  | _ => none

-- the tests of the project, `test_mpfr_bin_ieee754_flavor_io.cpp:1369-1375, 2399-2405`
example : outX { eof := true } "[  -1.0  , 1.0]_da" = some (true, none, true, true, "") := by decide +kernel
example : outX { eof := true } "0.0?22d_cm" = some (true, none, true, true, "") := by decide +kernel

-- the end of the text after an interval does not throw, nor within an uncertain form
example : outX { eof := true, fail := true, bad := true } " [1,2]" = some (false, some ⟨⟨.fin 1, .fin 2⟩, .com⟩, false, false, "") := by
  decide +kernel
example : outX { eof := true, fail := true, bad := true } "3?1" = some (false, some ⟨⟨.fin 2, .fin 4⟩, .com⟩, false, false, "") := by
  decide +kernel
example : outX { eof := true, fail := true, bad := true } "[1,2]_com" = some (false, some ⟨⟨.fin 1, .fin 2⟩, .com⟩, false, false, "") := by
  decide +kernel

-- a decoration in numeric form reads on to the end of the text; with the eofbit enabled it throws, and the variable is not assigned
example : outX {} "[1,2]_16" = some (false, some ⟨⟨.fin 1, .fin 2⟩, .com⟩, true, false, "") := by decide +kernel
example : outX { eof := true } "[1,2]_16" = some (true, none, true, false, "") := by decide +kernel

-- the bits at the time of the exception can be fewer than those without exceptions
example : outX { eof := true } "[1,2" = some (true, none, true, false, "") := by decide +kernel
example : outX { fail := true } "[1,2" = some (true, none, true, true, "") := by decide +kernel

end P1788
