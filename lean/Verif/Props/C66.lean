import Verif.Model.Units
import Verif.Lemmas.OutStream
import Verif.Props.C46

/-!
# C66: output settings and other users of a stream, in programs of several translation units
-/

namespace P1788

variable {φ : Fmt} {slack : ℕ}

/-! ### Specification -/

/-- All index variables of unit `t` are initialised. -/
def Initialised (cs : List XCall) (t : ℕ) : Prop := ∀ k, XCall.unit t k ∈ cs

/-- The entry `j` was given to somebody else. -/
def Foreign (b : ℕ) (cs : List XCall) (j : ℕ) : Prop := ∃ i, cs[i]? = some .other ∧ j = b + i

/-- A program whose units are initialised and in which others write to their own entries only. -/
def FairProgram (b : ℕ) (cs : List XCall) (P : List WCmd) : Prop :=
  (∀ t c, .unit t c ∈ P → Initialised cs t) ∧ ∀ j v, .other j v ∈ P → Foreign b cs j

/-- The commands to the library, whoever executes them. -/
def WCmd.cmd? : WCmd → Option OutCmd
  | .unit _ c => some c
  | .other _ _ => none

/-- What the user expects: the text is that of one stream with one set of settings, whatever the units and the others do. -/
def C66_full (φ : Fmt) : Prop := ∀ (slack b : ℕ) (cs : List XCall) (P : List WCmd), FairProgram b cs P →
  Std.Rel (fun (w : WStream) (s : Sink) => w.text = s.text) (WStream.run φ slack (slotIndex b cs) {} P)
    (Sink.run φ slack {} (P.filterMap WCmd.cmd?))

/-- What happens instead: every unit has its own settings; text and the settings of the standard library are common. -/
def Sink.common (s r : Sink) : Sink := { s with text := r.text, base := r.base, width := r.width, fill := r.fill, left := r.left }

/-- One command by a unit on streams that have common text but settings for each unit. -/
def unitsExec (φ : Fmt) (slack : ℕ) (σ : ℕ → Sink) (t : ℕ) (c : OutCmd) : Std (ℕ → Sink) := do
  let r ← (σ t).exec φ slack c
  .ok fun u => if u = t then r else (σ u).common r

/-- A sequence of commands; what others write does not matter. -/
def unitsRun (φ : Fmt) (slack : ℕ) : (ℕ → Sink) → List WCmd → Std (ℕ → Sink)
  | σ, [] => .ok σ
  | σ, .unit t c :: P => do
    let σ' ← unitsExec φ slack σ t c
    unitsRun φ slack σ' P
  | σ, .other _ _ :: P => unitsRun φ slack σ P

/-- The stream looks to every initialised unit like the stream of that unit, and the text is common. -/
def SameStream (b : ℕ) (cs : List XCall) (w : WStream) (σ : ℕ → Sink) : Prop :=
  (∀ t, Initialised cs t → w.view (slotIndex b cs t) = σ t) ∧ ∀ t, (σ t).text = w.text

/-! ### Indices -/

theorem slotIndex_get {b : ℕ} {cs : List XCall} {t : ℕ} {k : Slot} (h : XCall.unit t k ∈ cs) :
    ∃ i, cs[i]? = some (.unit t k) ∧ slotIndex b cs t k = b + i := by
  have hl := List.idxOf_lt_length_of_mem h
  exact ⟨cs.idxOf (.unit t k), by rw [List.getElem?_eq_getElem hl, List.getElem_idxOf], by unfold slotIndex; rw [if_pos h]⟩

/-- **Different settings, different units and other users have different entries**, once initialised. -/
theorem C66_indices {b : ℕ} {cs : List XCall} {t t' : ℕ} {k k' : Slot} (h : XCall.unit t k ∈ cs) (h' : XCall.unit t' k' ∈ cs) :
    (slotIndex b cs t k = slotIndex b cs t' k' → t = t' ∧ k = k') ∧ ¬ Foreign b cs (slotIndex b cs t k) := by
  obtain ⟨i, h1, h2⟩ := slotIndex_get (b := b) h
  obtain ⟨i', h1', h2'⟩ := slotIndex_get (b := b) h'
  constructor
  · intro he
    obtain rfl : i = i' := by omega
    rw [h1] at h1'
    simpa using h1'
  · rintro ⟨j, hj, he⟩
    obtain rfl : i = j := by omega
    rw [h1] at hj
    simp at hj

theorem Slot.mem_all (k : Slot) : k ∈ Slot.all := by cases k <;> decide

namespace WStream
variable {s : WStream} {ix : Slot → ℕ} {r : Sink}

theorem store_other {j : ℕ} (h : ∀ k, ix k ≠ j) : (s.store ix r).table j = s.table j := by
  have : Slot.all.find? (fun k => decide (ix k = j ∧ r.iw k ≠ s.table j)) = none := by simp [h]
  simp only [store, this]

theorem store_own (hi : ∀ k k', ix k = ix k' → k = k') (k : Slot) : (s.store ix r).table (ix k) = r.iw k := by
  simp only [store]
  split
  · rename_i k' h
    have := List.find?_some h
    simp only [decide_eq_true_eq] at this
    rw [hi _ _ this.1]
  · rename_i h
    rw [List.find?_eq_none] at h
    have := h k (Slot.mem_all k)
    simp only [decide_eq_true_eq, not_and, not_not] at this
    exact (this trivial).symm

theorem view_store (hi : ∀ k k', ix k = ix k' → k = k') : (s.store ix r).view ix = r := by
  have : (fun k => (s.store ix r).table (ix k)) = r.iw := funext (store_own hi)
  simp only [view, this]
  rfl

theorem view_store_other {iy : Slot → ℕ} (h : ∀ k l, ix k ≠ iy l) : (s.store ix r).view iy = (s.view iy).common r := by
  have : (fun k => (s.store ix r).table (iy k)) = fun k => s.table (iy k) := funext fun l => store_other fun k => h k l
  simp only [view, this]
  rfl

end WStream

/-! ### What holds -/

/-- **Every unit has its own settings**: the run on the stream is the run in which settings made by one unit are seen by that unit
only, while the text and the settings of the standard library are common. -/
theorem C66_units {b : ℕ} {cs : List XCall} {P : List WCmd} (hP : FairProgram b cs P) (w : WStream) (σ : ℕ → Sink)
    (hσ : SameStream b cs w σ) :
    Std.Rel (SameStream b cs)
      (WStream.run φ slack (slotIndex b cs) w P) (unitsRun φ slack σ P) := by
  induction P generalizing w σ with
  | nil => exact .ok hσ
  | cons p P ih =>
    have hP' : FairProgram b cs P := ⟨fun t c h => hP.1 t c (List.mem_cons_of_mem _ h), fun j v h => hP.2 j v (List.mem_cons_of_mem _ h)⟩
    cases p with
    | unit t c =>
      have ht := hP.1 t c List.mem_cons_self
      refine Std.Rel.bind (R := SameStream b cs) ?_
        fun w' σ' h => ih hP' w' σ' h
      refine Std.Rel.bind (R := fun a b => a = b) (f := fun r => .ok (w.store (slotIndex b cs t) r))
        (f' := fun r => .ok fun u => if u = t then r else (σ u).common r) (by rw [hσ.1 t ht]; exact Std.Rel.refl) ?_
      rintro r _ rfl
      refine .ok ⟨fun u hu => ?_, fun u => ?_⟩
      swap
      · by_cases h : u = t
        · simp only [if_pos h]; rfl
        · simp only [if_neg h]; rfl
      beta_reduce
      by_cases h : u = t
      · subst h
        rw [if_pos rfl]
        exact WStream.view_store fun k k' he => ((C66_indices (hu k) (hu k')).1 he).2
      · rw [if_neg h, ← hσ.1 u hu]
        exact WStream.view_store_other fun k l he => h ((C66_indices (ht k) (hu l)).1 he).1.symm
    | other j v =>
      refine ih hP' _ σ ⟨fun t ht => ?_, hσ.2⟩
      rw [← hσ.1 t ht]
      have hj := hP.2 j v List.mem_cons_self
      have : (fun k => if slotIndex b cs t k = j then v else w.table (slotIndex b cs t k)) = fun k => w.table (slotIndex b cs t k) :=
        funext fun k => if_neg fun he => (C66_indices (ht k) (ht k)).2 (he ▸ hj)
      simp only [WStream.view, this]

theorem unitsRun_single {t : ℕ} {P : List WCmd} (hP : ∀ u c, WCmd.unit u c ∈ P → u = t) (σ : ℕ → Sink) :
    Std.Rel (fun (σ : ℕ → Sink) (s : Sink) => σ t = s) (unitsRun φ slack σ P) (Sink.run φ slack (σ t) (P.filterMap WCmd.cmd?)) := by
  induction P generalizing σ with
  | nil => exact .ok rfl
  | cons p P ih =>
    have ih' := ih fun u c h => hP u c (List.mem_cons_of_mem _ h)
    cases p with
    | unit u c =>
      obtain rfl := hP u c List.mem_cons_self
      refine Std.Rel.bind (R := fun (σ : ℕ → Sink) (s : Sink) => σ u = s) ?_ fun σ' s h => h ▸ ih' σ'
      unfold unitsExec
      cases (σ u).exec φ slack c with
      | ok r => exact .ok (if_pos rfl)
      | outOfRange => exact .outOfRange
      | ub => exact .ub
    | other j v => exact ih' σ

theorem Std.Rel.comp {α β γ : Type} {R : α → β → Prop} {T : β → γ → Prop} {a : Std α} {b : Std β} {c : Std γ} (h : Std.Rel R a b)
    (h' : Std.Rel T b c) : Std.Rel (fun x z => ∃ y, R x y ∧ T y z) a c := by
  cases h <;> cases h'
  · exact .ok ⟨_, by assumption, by assumption⟩
  · exact .outOfRange
  · exact .ub

/-- **The full statement for programs of one unit** (full statement `C66_full`, false: `C66_false`): what others do with their entries of the
table does not matter. -/
theorem C66_single_partial {b : ℕ} {cs : List XCall} {P : List WCmd} (hP : FairProgram b cs P) {t : ℕ} (ht : Initialised cs t)
    (h1 : ∀ u c, WCmd.unit u c ∈ P → u = t) :
    Std.Rel (fun (w : WStream) (s : Sink) => w.text = s.text) (WStream.run φ slack (slotIndex b cs) {} P)
      (Sink.run φ slack {} (P.filterMap WCmd.cmd?)) := by
  have := (C66_units (φ := φ) (slack := slack) hP {} (fun _ => {}) ⟨fun _ _ => rfl, fun _ => rfl⟩).comp (unitsRun_single h1 _)
  generalize WStream.run φ slack (slotIndex b cs) {} P = m at this ⊢
  generalize Sink.run φ slack {} (P.filterMap WCmd.cmd?) = m' at this ⊢
  cases this with
  | ok h =>
    obtain ⟨σ, h2, h3⟩ := h
    refine .ok ?_
    rw [← h3, h2.2 t]
  | outOfRange => exact .outOfRange
  | ub => exact .ub

/-- **Other users of the table are not disturbed**: a command of the library leaves their entries alone. -/
theorem C66_others {b : ℕ} {cs : List XCall} {t : ℕ} (ht : Initialised cs t) {w w' : WStream} {c : OutCmd}
    (h : w.exec φ slack (slotIndex b cs) (.unit t c) = .ok w') {j : ℕ} (hj : Foreign b cs j) : w'.table j = w.table j := by
  obtain ⟨r, -, hr⟩ := Std.bind_ok h
  cases Std.ok.inj hr
  exact WStream.store_other fun k he => (C66_indices (ht k) (ht k)).2 (he ▸ hj)

/-- A manipulator of the library (no insertion, no setting of the standard library). -/
def OutCmd.IsManip (c : OutCmd) : Prop := ∃ k v, ∀ (φ : Fmt) (slack : ℕ) (s : Sink), s.exec φ slack c = .ok (s.set k v)

/-- The streams of all units agree in what is common. -/
def Coherent (σ : ℕ → Sink) : Prop := ∀ u t, (σ u).common (σ t) = σ u

theorem Coherent.step {σ : ℕ → Sink} {t : ℕ} {r : Sink} : Coherent fun u => if u = t then r else (σ u).common r := by
  intro u v
  by_cases h1 : u = t <;> by_cases h2 : v = t <;> simp only [h1, h2, if_true, if_false] <;> rfl

/-- The program without what unit `t` does. -/
def without (t : ℕ) (P : List WCmd) : List WCmd :=
  P.filter fun p => match p with
    | .unit u _ => decide (u ≠ t)
    | .other _ _ => true

theorem unitsRun_unseen {t : ℕ} {P : List WCmd} (hP : ∀ c, WCmd.unit t c ∈ P → c.IsManip) (σ σ' : ℕ → Sink)
    (hc : Coherent σ) (hc' : Coherent σ') (h : ∀ u, u ≠ t → σ u = σ' u) :
    Std.Rel (fun (σ σ' : ℕ → Sink) => Coherent σ ∧ ∀ u, u ≠ t → σ u = σ' u) (unitsRun φ slack σ P) (unitsRun φ slack σ' (without t P)) := by
  induction P generalizing σ σ' with
  | nil => exact .ok ⟨hc, h⟩
  | cons p P ih =>
    have ih' := ih fun c h => hP c (List.mem_cons_of_mem _ h)
    unfold without at ih' ⊢
    cases p with
    | other j v => exact ih' σ σ' hc hc' h
    | unit u c =>
      by_cases hu : u = t
      · subst hu
        obtain ⟨k, v, hk⟩ := hP c List.mem_cons_self
        rw [List.filter_cons_of_neg (by simp)]
        simp only [unitsRun, unitsExec, hk]
        refine ih' _ σ' Coherent.step hc' fun u' hu' => ?_
        rw [← h u' hu', if_neg hu']
        exact hc u' u
      · rw [List.filter_cons_of_pos (by simp [hu])]
        refine Std.Rel.bind (R := fun (σ σ' : ℕ → Sink) => Coherent σ ∧ Coherent σ' ∧ ∀ u, u ≠ t → σ u = σ' u) ?_
          fun a b hab => ih' a b hab.1 hab.2.1 hab.2.2
        unfold unitsExec
        rw [h u hu]
        cases (σ' u).exec φ slack c with
        | ok r => exact .ok ⟨Coherent.step, Coherent.step, fun u' hu' => by simp only [h u' hu']⟩
        | outOfRange => exact .outOfRange
        | ub => exact .ub

theorem Std.Rel.symm {α β : Type} {R : α → β → Prop} {a : Std α} {b : Std β} (h : Std.Rel R a b) : Std.Rel (fun y x => R x y) b a := by
  cases h
  · exact .ok (by assumption)
  · exact .outOfRange
  · exact .ub

theorem Std.Rel.mono {α β : Type} {R T : α → β → Prop} {a : Std α} {b : Std β} (h : Std.Rel R a b) (hT : ∀ x y, R x y → T x y) :
    Std.Rel T a b := by
  cases h
  · exact .ok (hT _ _ (by assumption))
  · exact .outOfRange
  · exact .ub

/-- **Settings of one unit are invisible to all others**: if unit `t` only uses manipulators of the library, leaving these out changes
neither the text nor the outcome. -/
theorem C66_unseen {b : ℕ} {cs : List XCall} {P : List WCmd} (hP : FairProgram b cs P) {t : ℕ}
    (hm : ∀ c, WCmd.unit t c ∈ P → c.IsManip) :
    Std.Rel (fun (w w' : WStream) => w.text = w'.text) (WStream.run φ slack (slotIndex b cs) {} P)
      (WStream.run φ slack (slotIndex b cs) {} (without t P)) := by
  have hP' : FairProgram b cs (without t P) :=
    ⟨fun u c h => hP.1 u c (List.mem_filter.mp h).1, fun j v h => hP.2 j v (List.mem_filter.mp h).1⟩
  have h1 := C66_units (φ := φ) (slack := slack) hP {} (fun _ => {}) ⟨fun _ _ => rfl, fun _ => rfl⟩
  have h2 := C66_units (φ := φ) (slack := slack) hP' {} (fun _ => {}) ⟨fun _ _ => rfl, fun _ => rfl⟩
  have h3 := unitsRun_unseen (φ := φ) (slack := slack) hm (fun _ => {}) (fun _ => {}) (fun _ _ => rfl) (fun _ _ => rfl) fun _ _ => rfl
  refine ((h1.comp h3).comp h2.symm).mono ?_
  rintro w w' ⟨σ', ⟨σ, hs, -, he⟩, hs'⟩
  rw [← hs.2 (t + 1), ← hs'.2 (t + 1), he _ (by omega)]

/-! ### What does not hold -/

/-- Two units, initialised one after the other. -/
def twoUnits : List XCall := Slot.all.map (.unit 0) ++ .other :: Slot.all.map (.unit 1)

theorem twoUnits_init {t : ℕ} (h : t < 2) : Initialised twoUnits t := by
  intro k
  interval_cases t <;> cases k <;> decide

/-- The text of an outcome. -/
def WStream.out : Std WStream → Option (List Char)
  | .ok w => some w.text
  | _ => none

/-- **The full statement is false**: unit 0 asks for upper case, unit 1 writes the decoration `com` in lower case. -/
theorem C66_false (φ : Fmt) : ¬ C66_full φ := by
  intro h
  have := h 0 0 twoUnits [.unit 0 (.case true), .unit 1 (.putDec 16)] ⟨fun t c hm => ?_, fun j v hm => by simp at hm⟩
  · have h1 : WStream.run φ 0 (slotIndex 0 twoUnits) {} [.unit 0 (.case true), .unit 1 (.putDec 16)] =
      WStream.run binary64 0 (slotIndex 0 twoUnits) {} [.unit 0 (.case true), .unit 1 (.putDec 16)] := rfl
    have h2 : Sink.run φ 0 {} [.case true, .putDec 16] = Sink.run binary64 0 {} [.case true, .putDec 16] := rfl
    have e1 : WStream.out (WStream.run binary64 0 (slotIndex 0 twoUnits) {} [.unit 0 (.case true), .unit 1 (.putDec 16)]) = some "com".toList := by
      decide +kernel
    have e2 : (match Sink.run binary64 0 {} [.case true, .putDec 16] with | .ok s => some s.text | _ => none) = some "COM".toList := by
      decide +kernel
    rw [h1] at this
    simp only [List.filterMap_cons, WCmd.cmd?, List.filterMap_nil] at this
    rw [h2] at this
    generalize WStream.run binary64 0 (slotIndex 0 twoUnits) {} [.unit 0 (.case true), .unit 1 (.putDec 16)] = m at this e1
    generalize Sink.run binary64 0 {} [.case true, .putDec 16] = m' at this e2
    cases this with
    | ok h =>
      simp only [WStream.out, Option.some.injEq] at e1 e2
      rw [e1, e2] at h
      exact absurd h (by decide)
    | outOfRange => simp [WStream.out] at e1
    | ub => simp [WStream.out] at e1
  · simp only [List.mem_cons, WCmd.unit.injEq, List.not_mem_nil, or_false] at hm
    rcases hm with ⟨rfl, -⟩ | ⟨rfl, -⟩ <;> exact twoUnits_init (by norm_num)

/-- **Before a unit is initialised all its settings are one**: a static object of another unit that asks for upper case in a constructor
gets numbers for decorations, and the entry 0 of the table is changed, which belongs to somebody else if `xalloc` begins with 0. -/
theorem C66_uninitialised : (∀ k, slotIndex 0 [.other] 7 k = 0) ∧ Foreign 0 [.other] 0 ∧
    WStream.out (WStream.run binary64 0 (slotIndex 0 [.other]) {} [.unit 7 (.case true), .unit 7 (.putDec 16)]) = some "16".toList ∧
    ∃ w, WStream.run binary64 0 (slotIndex 0 [.other]) {} [.unit 7 (.case true)] = .ok w ∧ w.table 0 = 1 := by
  refine ⟨fun k => by cases k <;> decide, ⟨0, rfl, rfl⟩, by decide +kernel, _, rfl, by decide +kernel⟩

/-- Non-vacuity of `C66_units`, `C66_single_partial` and `C66_unseen`. -/
example : FairProgram 0 twoUnits [.unit 1 (.numRep .hex), .other 11 5, .unit 1 (.putItv ⟨.fin 1, .fin 2⟩)] ∧
    WStream.out (WStream.run binary64 0 (slotIndex 0 twoUnits) {} [.unit 1 (.numRep .hex), .other 11 5, .unit 1 (.putItv ⟨.fin 1, .fin 2⟩)]) =
      some "[0x1p+0,0x2p+0]".toList := by
  refine ⟨⟨fun t c hm => ?_, fun j v hm => ?_⟩, by decide +kernel⟩
  · simp only [List.mem_cons, WCmd.unit.injEq, List.not_mem_nil, or_false, reduceCtorEq, false_or] at hm
    rcases hm with ⟨rfl, -⟩ | ⟨rfl, -⟩ <;> exact twoUnits_init (by norm_num)
  · simp only [List.mem_cons, WCmd.other.injEq, List.not_mem_nil, or_false, reduceCtorEq, false_or] at hm
    obtain ⟨rfl, -⟩ := hm
    exact ⟨11, rfl, rfl⟩

example : (OutCmd.case true).IsManip ∧ (OutCmd.prec 7).IsManip := ⟨⟨.text, 1, fun _ _ _ => rfl⟩, ⟨.prec, 7, fun _ _ _ => rfl⟩⟩

end P1788
