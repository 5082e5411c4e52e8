import Verif.Model.ExBits
import Mathlib.Tactic.IntervalCases

/-!
# C58: exception bit patterns are sets of conditions

The full statement has a part for each operator the documentation names (`C58_full`).  The part for `~` is false
(`C58_false_not`: its result is never a value of the enumeration); the other parts are proved, and that `^` with all the
bits does what `~` is meant for.
-/

namespace P1788

/-- The value is one of the enumeration. -/
def InEnum (z : ℤ) : Prop := 0 ≤ z ∧ z < 16

/-- The bit of the condition is set in the binary notation of `z`. -/
def Has (z : ℤ) (e : Ex) : Prop := z / e.bit % 2 = 1

instance (z : ℤ) (e : Ex) : Decidable (Has z e) := by unfold Has; infer_instance

/-- The result `r` of an operation is the value of the enumeration with exactly the conditions `S`. -/
def IsSet (r : Option ℤ) (S : Ex → Prop) : Prop := ∃ z, r = some z ∧ InEnum z ∧ ∀ e, Has z e ↔ S e

/-- The full statement. -/
def C58_full : Prop := ∀ x y : ℤ, InEnum x → InEnum y →
  IsSet (exAnd x y) (fun e => Has x e ∧ Has y e) ∧ IsSet (exOr x y) (fun e => Has x e ∨ Has y e) ∧
    IsSet (exXor x y) (fun e => (Has x e ∧ ¬ Has y e) ∨ (¬ Has x e ∧ Has y e)) ∧ IsSet (exNot x) (fun e => ¬ Has x e)

/-- A property of all pairs of values of the enumeration. -/
theorem inEnum_cases {P : ℤ → ℤ → Prop} (h : ∀ i j : Fin 16, P i.val j.val) {x y : ℤ} (hx : InEnum x) (hy : InEnum y) :
    P x y := by
  obtain ⟨m, rfl⟩ := Int.eq_ofNat_of_zero_le hx.1
  obtain ⟨n, rfl⟩ := Int.eq_ofNat_of_zero_le hy.1
  exact h ⟨m, by exact_mod_cast hx.2⟩ ⟨n, by exact_mod_cast hy.2⟩

/-- A decidable form of `IsSet`. -/
def isSetB (r : Option ℤ) (S : Ex → Bool) : Bool :=
  match r with
  | none => false
  | some z => decide (0 ≤ z) && decide (z < 16) &&
    [Ex.undefinedOperation, .possiblyUndefinedOperation, .intervalPartOfNai, .invalidOperand].all
      (fun e => decide (Has z e) == S e)

theorem isSet_of_isSetB {r : Option ℤ} {S : Ex → Bool} (h : isSetB r S = true) : IsSet r (fun e => S e = true) := by
  cases r with
  | none => simp [isSetB] at h
  | some z =>
    simp only [isSetB, Bool.and_eq_true, decide_eq_true_eq, List.all_cons, List.all_nil, beq_iff_eq] at h
    obtain ⟨⟨h0, h1⟩, ha, hb, hc, hd, -⟩ := h
    refine ⟨z, rfl, ⟨h0, h1⟩, fun e => ?_⟩
    cases e
    · show _ ↔ S _ = true
      rw [← ha]; simp
    · show _ ↔ S _ = true
      rw [← hb]; simp
    · show _ ↔ S _ = true
      rw [← hc]; simp
    · show _ ↔ S _ = true
      rw [← hd]; simp

/-- `&`, `|`, `^` (and `&=`, `|=`, `^=`) on any two patterns: intersection, union, symmetric difference; the results are
values of the enumeration. -/
theorem C58_operators_partial {x y : ℤ} (hx : InEnum x) (hy : InEnum y) :
    IsSet (exAnd x y) (fun e => Has x e ∧ Has y e) ∧ IsSet (exOr x y) (fun e => Has x e ∨ Has y e) ∧
      IsSet (exXor x y) (fun e => (Has x e ∧ ¬ Has y e) ∨ (¬ Has x e ∧ Has y e)) := by
  refine ⟨?_, ?_, ?_⟩
  · have := isSet_of_isSetB (inEnum_cases
      (P := fun x y => isSetB (exAnd x y) (fun e => decide (Has x e ∧ Has y e)) = true) (by decide +kernel) hx hy)
    simpa using this
  · have := isSet_of_isSetB (inEnum_cases
      (P := fun x y => isSetB (exOr x y) (fun e => decide (Has x e ∨ Has y e)) = true) (by decide +kernel) hx hy)
    simpa using this
  · have := isSet_of_isSetB (inEnum_cases (P := fun x y => isSetB (exXor x y)
      (fun e => decide ((Has x e ∧ ¬ Has y e) ∨ (¬ Has x e ∧ Has y e))) = true) (by decide +kernel) hx hy)
    simpa using this

/-- A pattern is determined by its conditions. -/
theorem C58_ext {x y : ℤ} (hx : InEnum x) (hy : InEnum y) (h : ∀ e, Has x e ↔ Has y e) : x = y := by
  have := inEnum_cases (P := fun x y => (Has x .undefinedOperation ↔ Has y .undefinedOperation) →
    (Has x .possiblyUndefinedOperation ↔ Has y .possiblyUndefinedOperation) →
    (Has x .intervalPartOfNai ↔ Has y .intervalPartOfNai) → (Has x .invalidOperand ↔ Has y .invalidOperand) → x = y)
    (by decide +kernel) hx hy
  exact this (h _) (h _) (h _) (h _)

/-- The documented operator `~` never returns a value of the enumeration. -/
theorem C58_false_not {x : ℤ} (hx : InEnum x) : exNot x = none := by
  unfold exNot toExBits
  rw [if_neg]
  intro h
  have : Int.lnot x = -x - 1 := by cases x <;> simp [Int.lnot, Int.negSucc_eq] <;> ring
  rw [this] at h
  have := hx.1
  omega

/-- So the full statement is false. -/
theorem C58_false : ¬ C58_full := by
  intro h
  obtain ⟨-, -, -, z, hz, -⟩ := h 0 0 ⟨le_rfl, by norm_num⟩ ⟨le_rfl, by norm_num⟩
  rw [C58_false_not ⟨le_rfl, by norm_num⟩] at hz
  simp at hz

/-- All the bits. -/
def allBits : ℤ := 15

/-- What `~` is meant for can be had with `^`. -/
theorem C58_complement {x : ℤ} (hx : InEnum x) : IsSet (exXor x allBits) (fun e => ¬ Has x e) := by
  have ha : InEnum allBits := ⟨by decide, by decide⟩
  obtain ⟨z, h1, h2, h3⟩ := (C58_operators_partial hx ha).2.2
  refine ⟨z, h1, h2, fun e => ?_⟩
  rw [h3 e]
  have : Has allBits e := by cases e <;> decide
  simp [this]

/-! ## Histories -/

/-- The condition was signalled since the last `clear`; the latest call comes first. -/
def Raised (e : Ex) : List ExCall → Prop
  | [] => False
  | .signal e' :: l => e' = e ∨ Raised e l
  | .clear :: _ => False
  | _ :: l => Raised e l

/-- The control word set last. -/
def lastCwd : List ExCall → ℤ
  | [] => 0
  | .setCwd b :: _ => b
  | _ :: l => lastCwd l

/-- Every control word is a value of the enumeration. -/
def ExCall.Ok : ExCall → Prop
  | .setCwd b => InEnum b
  | _ => True

/-- What a call must report after the earlier calls `l` (latest first). -/
def Reports (l : List ExCall) : ExCall → ExRes → Prop
  | .signal e, r => (Has (lastCwd l) e ∧ r = .thrown e) ∨
      (¬ Has (lastCwd l) e ∧ ∃ z, r = .bits z ∧ InEnum z ∧ ∀ e', Has z e' ↔ e' = e ∨ Raised e' l)
  | .clear, r => r = .bits 0
  | .setCwd b, r => r = .bits b
  | .getCwd, r => r = .bits (lastCwd l)
  | .query e, r => ∃ b : Bool, r = .bool b ∧ (b = true ↔ Raised e l)

/-- Every call reports what it must. -/
def AllReport (l : List ExCall) : List ExCall → List ExRes → Prop
  | [], [] => True
  | c :: cs, r :: rs => Reports l c r ∧ AllReport (c :: l) cs rs
  | _, _ => False

/-- The integers stand for what happened. -/
def Stands (l : List ExCall) (s : ExStI) : Prop :=
  InEnum s.flags ∧ InEnum s.cwd ∧ s.cwd = lastCwd l ∧ ∀ e, Has s.flags e ↔ Raised e l

theorem has_bit (e e' : Ex) : Has e.bit e' ↔ e' = e := by cases e <;> cases e' <;> decide

theorem inEnum_bit (e : Ex) : InEnum e.bit := by cases e <;> exact ⟨by decide, by decide⟩

/-- `pattern & bit` is non-zero iff the bit is set. -/
theorem and_bit {z : ℤ} (hz : InEnum z) (e : Ex) : ∃ w, exAnd z e.bit = some w ∧ (w ≠ 0 ↔ Has z e) := by
  obtain ⟨w, h1, h2, h3⟩ := (C58_operators_partial hz (inEnum_bit e)).1
  refine ⟨w, h1, ?_⟩
  constructor
  · intro hw
    by_contra hn
    refine hw (C58_ext h2 ⟨le_rfl, by norm_num⟩ fun e' => ?_)
    rw [h3]
    simp only [has_bit]
    have h0 : ¬ Has 0 e' := by cases e' <;> decide
    constructor
    · rintro ⟨a, rfl⟩; exact absurd a hn
    · intro a; exact absurd a h0
  · rintro hh rfl
    have h0 : ¬ Has 0 e := by cases e <;> decide
    exact h0 ((h3 e).mpr ⟨hh, (has_bit e e).mpr rfl⟩)

theorem step58 {l : List ExCall} {s : ExStI} (hs : Stands l s) {c : ExCall} (hc : c.Ok) :
    ∃ r s', c.runI s = some (r, s') ∧ Reports l c r ∧ Stands (c :: l) s' := by
  obtain ⟨hf, hw, hl, hr⟩ := hs
  cases c with
  | signal e =>
    obtain ⟨f, f1, f2, f3⟩ := (C58_operators_partial hf (inEnum_bit e)).2.1
    obtain ⟨w, w1, w2⟩ := and_bit hw e
    have hfl : ∀ e', Has f e' ↔ e' = e ∨ Raised e' l := by
      intro e'
      rw [f3]
      simp only [has_bit, hr]
      exact or_comm
    have st : Stands (ExCall.signal e :: l) ⟨f, s.cwd⟩ := by
      refine ⟨f2, hw, hl, fun e' => ?_⟩
      rw [hfl]
      exact or_congr_left eq_comm
    by_cases h : w ≠ 0
    · refine ⟨.thrown e, ⟨f, s.cwd⟩, ?_, Or.inl ⟨hl ▸ w2.mp h, rfl⟩, st⟩
      simp [ExCall.runI, f1, w1, h]
    · refine ⟨.bits f, ⟨f, s.cwd⟩, ?_, Or.inr ⟨fun k => h (w2.mpr (hl ▸ k)), f, rfl, f2, hfl⟩, st⟩
      simp [ExCall.runI, f1, w1, not_not.mp h]
  | clear =>
    refine ⟨.bits 0, ⟨0, s.cwd⟩, rfl, rfl, ⟨le_rfl, by norm_num⟩, hw, hl, fun e => ?_⟩
    have h0 : ¬ Has 0 e := by cases e <;> decide
    exact ⟨fun k => absurd k h0, fun k => k.elim⟩
  | setCwd b => exact ⟨.bits b, ⟨s.flags, b⟩, rfl, rfl, hf, hc, rfl, hr⟩
  | getCwd => exact ⟨.bits s.cwd, s, rfl, by rw [hl]; rfl, hf, hw, hl, hr⟩
  | query e =>
    obtain ⟨w, w1, w2⟩ := and_bit hf e
    refine ⟨.bool (decide (w ≠ 0)), s, ?_, ⟨_, rfl, ?_⟩, hf, hw, hl, hr⟩
    · simp [ExCall.runI, w1]
    · rw [decide_eq_true_eq, w2, hr]

theorem hist58 (cs : List ExCall) (hc : ∀ c ∈ cs, c.Ok) {l : List ExCall} {s : ExStI} (hs : Stands l s) :
    ∃ rs s', ExCall.runAllI s cs = some (rs, s') ∧ AllReport l cs rs := by
  induction cs generalizing l s with
  | nil => exact ⟨[], s, rfl, trivial⟩
  | cons c cs ih =>
    obtain ⟨r, s', h1, h2, h3⟩ := step58 hs (hc c List.mem_cons_self)
    obtain ⟨rs, s'', h4, h5⟩ := ih (fun c h => hc c (List.mem_cons_of_mem _ h)) h3
    exact ⟨r :: rs, s'', by simp [ExCall.runAllI, h1, h4], h2, h5⟩

/-- Any sequence of calls from the start of the program, with any patterns as control words: no operator leaves the
enumeration; a `signal` throws iff its condition is in the control word set last, and returns the conditions signalled
since the last `clear`; a query is true iff its condition was signalled since the last `clear`; the control word read is
the one set last. -/
theorem C58_history (cs : List ExCall) (hc : ∀ c ∈ cs, c.Ok) :
    ∃ rs s', ExCall.runAllI ExStI.init cs = some (rs, s') ∧ AllReport [] cs rs := by
  refine hist58 cs hc ⟨⟨le_rfl, by decide⟩, ⟨le_rfl, by decide⟩, rfl, fun e => ?_⟩
  have h0 : ¬ Has 0 e := by cases e <;> decide
  exact ⟨fun k => absurd k h0, fun k => k.elim⟩

/-- A control word of two conditions made with `|`; the second signal throws, the first does not. -/
example : exOr Ex.undefinedOperation.bit Ex.invalidOperand.bit = some 9 ∧
    (ExCall.runAllI ExStI.init [.setCwd 9, .signal .intervalPartOfNai, .signal .invalidOperand,
      .query .invalidOperand, .query .undefinedOperation]).map Prod.fst =
      some [.bits 9, .bits 4, .thrown .invalidOperand, .bool true, .bool false] := by decide +kernel

/-! ## The sets of `Exception.lean` -/

/-- The set a pattern stands for. -/
def decode (z : ℤ) : Bits := fun e => decide (Has z e)

/-- The model with sets that the other properties use does the same as the integers. -/
theorem C58_refines {s : ExStI} (hf : InEnum s.flags) (hw : InEnum s.cwd) (e : Ex) :
    (∃ r s', (ExCall.signal e).runI s = some (r, s') ∧ InEnum s'.flags ∧ InEnum s'.cwd ∧
      (P1788.signal e ⟨decode s.flags, decode s.cwd⟩).2 = ⟨decode s'.flags, decode s'.cwd⟩ ∧
      ((P1788.signal e ⟨decode s.flags, decode s.cwd⟩).1 = .thrown e ↔ r = .thrown e)) ∧
    (∃ b, (ExCall.query e).runI s = some (.bool b, s) ∧
      P1788.query e ⟨decode s.flags, decode s.cwd⟩ = (.ret b, ⟨decode s.flags, decode s.cwd⟩)) := by
  constructor
  · obtain ⟨f, f1, f2, f3⟩ := (C58_operators_partial hf (inEnum_bit e)).2.1
    obtain ⟨w, w1, w2⟩ := and_bit hw e
    have hd : (fun e' => if e' = e then true else decode s.flags e') = decode f := by
      funext e'
      unfold decode
      have := f3 e'
      simp only [has_bit] at this
      by_cases h : e' = e
      · rw [if_pos h]; exact (decide_eq_true (this.mpr (Or.inr h))).symm
      · rw [if_neg h]
        simp only [h, or_false] at this
        simp [this]
    by_cases h : w ≠ 0
    · have hh := w2.mp h
      refine ⟨.thrown e, ⟨f, s.cwd⟩, by simp [ExCall.runI, f1, w1, h], f2, hw, ?_, ?_⟩
      · rw [← hd]; simp [P1788.signal, decode, hh]
      · simp [P1788.signal, decode, hh]
    · have hh : ¬ Has s.cwd e := fun k => h (w2.mpr k)
      refine ⟨.bits f, ⟨f, s.cwd⟩, by simp [ExCall.runI, f1, w1, not_not.mp h], f2, hw, ?_, ?_⟩
      · rw [← hd]; simp [P1788.signal, decode, hh]
      · simp [P1788.signal, decode, hh]
  · obtain ⟨w, w1, w2⟩ := and_bit hf e
    refine ⟨decide (w ≠ 0), by simp [ExCall.runI, w1], ?_⟩
    simp only [P1788.query, decode, w2]

end P1788
