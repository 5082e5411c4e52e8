import Verif.Model.Memory

/-! # C48: memory

Full statement: every function of the library gives back all heap memory it takes, whether it returns or throws, and
releases nothing that it does not own.

True of all functions that use local variables only (`C48_functions`).  False of the reductions: they lose one block for
each element (`C48_false_leak`), so that a program with a bounded amount of memory cannot call them arbitrarily often
(`C48_false_exhaust`), and they lose more if an allocation fails (`C48_false_exception`).  Proved of the reductions: they
never release a block twice or one they do not own, and what they lose is exactly these blocks
(`C48_reduction_partial`). -/

namespace P1788

/-- What holds after the execution: `P` after a return, `E` after an exception.  No undefined behaviour. -/
def MemOut.Post {α : Type} (P : α → Heap → Prop) (E : Heap → Prop) : MemOut α → Prop
  | .ok a h => P a h
  | .exn h => E h
  | .abort => True
  | .ub => False

/-- The blocks `lost` have come on top of the blocks in use. -/
def Lost (lost : List (ℕ × Blk)) (h h' : Heap) : Prop := h'.live.Perm (lost ++ h.live)

/-- `p` gives back what it takes. -/
def Mem.Clean {α : Type} (p : Mem α) : Prop := ∀ full h, (p full h).Post (fun _ h' => Lost [] h h') (fun h' => Lost [] h h')

section lemmas
variable {α β : Type} {p : Mem α} {k : α → Mem β} {full : Heap → Bool} {h h' h'' : Heap} {P : α → Heap → Prop} {Q : β → Heap → Prop} {E : Heap → Prop}
  {l l' : List (ℕ × Blk)}

theorem MemOut.Post.mono {o : MemOut α} {P' : α → Heap → Prop} {E' : Heap → Prop} (ho : o.Post P E) (hp : ∀ a h, P a h → P' a h)
    (he : ∀ h, E h → E' h) : o.Post P' E' := by
  cases o <;> simp_all [MemOut.Post]

theorem post_bind (hp : (p full h).Post P E) (hk : ∀ a h', P a h' → (k a full h').Post Q E) :
    ((p >>= k) full h).Post Q E := by
  show (Mem.bind p k full h).Post Q E
  unfold Mem.bind
  cases e : p full h <;> simp_all [MemOut.Post]

theorem Lost.refl (h : Heap) : Lost [] h h := List.Perm.refl _

theorem Lost.trans (a : Lost l h h') (b : Lost l' h' h'') : Lost (l' ++ l) h h'' := by
  unfold Lost at *
  rw [List.append_assoc]
  exact b.trans (a.append_left l')

theorem Lost.perm (a : Lost l h h') (hl : l.Perm l') : Lost l' h h' := List.Perm.trans a (hl.append_right _)

theorem Lost.mem {b : ℕ × Blk} (a : Lost l h h') (hb : b ∈ l ∨ b ∈ h.live) : b ∈ h'.live := by
  rw [List.Perm.mem_iff a, List.mem_append]; exact hb

theorem Lost.del {b : ℕ × Blk} (a : Lost (b :: l) h h') : Lost l h (h'.del b) := by
  unfold Lost at *
  have := List.Perm.erase b a
  simpa [Heap.del] using this

theorem post_new (kd : Blk) : (Mem.new kd full h).Post (fun i h' => Lost [(i, kd)] h h') (fun h' => Lost [] h h') := by
  unfold Mem.new
  split_ifs
  · exact Lost.refl h
  · exact List.Perm.refl _

theorem post_init : (Mem.init full h).Post (fun i h' => Lost [(i, .limbs)] h h') E := by
  unfold Mem.init
  split_ifs
  · trivial
  · exact List.Perm.refl _

theorem post_free {h0 : Heap} {i : ℕ} {kd : Blk} (a : Lost ((i, kd) :: l) h0 h) :
    (Mem.free i kd full h).Post (fun _ h' => Lost l h0 h') E := by
  unfold Mem.free
  rw [if_pos (a.mem (Or.inl (by simp)))]
  exact a.del

theorem clean_scoped {get : Mem ℕ} {kd : Blk}
    (hg : ∀ full h, (get full h).Post (fun i h' => Lost [(i, kd)] h h') (fun h' => Lost [] h h')) (hb : p.Clean) :
    (Mem.scoped get kd p).Clean := by
  intro full h
  unfold Mem.scoped
  have h1 := hg full h
  cases e1 : get full h with
  | ok i h1' =>
    rw [e1] at h1
    have h2 := hb full h1'
    simp only
    cases e2 : p full h1' with
    | ok a h2' =>
      rw [e2] at h2
      exact post_bind (post_free (h1.trans h2)) fun _ h' hh => hh
    | exn h2' =>
      rw [e2] at h2
      exact post_bind (post_free (h1.trans h2)) fun _ h' hh => hh
    | abort => trivial
    | ub => rw [e2] at h2; exact h2
  | exn h' => rw [e1] at h1; exact h1
  | abort => trivial
  | ub => rw [e1] at h1; exact h1

theorem clean_pure (a : α) : Mem.Clean (Pure.pure a : Mem α) := fun _ h => Lost.refl h

theorem clean_bind (hp : p.Clean) (hk : ∀ a, (k a).Clean) : Mem.Clean (p >>= k) := by
  intro full h
  refine post_bind (hp full h) fun a h' hh => (hk a full h').mono (fun _ _ g => ?_) (fun _ g => ?_)
  · simpa using hh.trans g
  · simpa using hh.trans g

theorem clean_var (hb : p.Clean) : (Mem.withVar p).Clean := clean_scoped (fun _ _ => post_init) hb

theorem clean_temps (t : ℕ) : (Mem.temps t).Clean := by
  induction t with
  | zero => exact clean_pure ()
  | succ t ih => exact clean_var ih

end lemmas

/-- Every function that takes memory with local variables only gives it back, whatever its tests, loops and exceptions,
and whenever memory runs out. -/
theorem C48_functions {c : Code} {p : Mem Unit} (h : c.Runs p) : p.Clean := by
  induction h with
  | skip => exact clean_pure ()
  | throw => exact fun _ h => Lost.refl h
  | seq _ _ ha hb => exact clean_bind ha fun _ => hb
  | left _ ih => exact ih
  | right _ ih => exact ih
  | stop => exact clean_pure ()
  | step _ _ ha hb => exact clean_bind ha fun _ => hb
  | var _ ih => exact clean_var ih
  | buffer _ ih => exact clean_scoped (fun _ _ => post_new _) ih

/-- The `mpfr_t` of the elements. -/
def mpfrBlks (els : List (ℕ × ℕ)) : List (ℕ × Blk) := els.map fun e => (e.1, Blk.mpfr)
/-- The digits of the elements. -/
def limbBlks (els : List (ℕ × ℕ)) : List (ℕ × Blk) := els.map fun e => (e.2, Blk.limbs)

section lemmas
variable {full : Heap → Bool} {h h' : Heap} {l : List (ℕ × Blk)} {t n : ℕ}

theorem post_temps (t : ℕ) : ∀ (h : Heap) (E : Heap → Prop), (Mem.temps t full h).Post (fun _ h' => Lost [] h h') E := by
  induction t with
  | zero => exact fun h E => Lost.refl h
  | succ t ih =>
    intro h E
    unfold Mem.temps Mem.withVar Mem.scoped
    have h1 := post_init (full := full) (h := h) (E := fun _ => False)
    cases e1 : Mem.init full h with
    | ok i h1' =>
      rw [e1] at h1
      have h2 := ih h1' (fun _ => False)
      simp only
      cases e2 : Mem.temps t full h1' with
      | ok a h2' =>
        rw [e2] at h2
        exact post_bind (post_free (h1.trans h2)) fun _ h' hh => hh
      | exn h2' => rw [e2] at h2; exact h2.elim
      | abort => trivial
      | ub => rw [e2] at h2; exact h2
    | exn h' => rw [e1] at h1; exact h1.elim
    | abort => trivial
    | ub => rw [e1] at h1; exact h1

theorem post_element : (Mem.element t full h).Post (fun e h' => Lost [(e.2, .limbs), (e.1, .mpfr)] h h') (fun h' => Lost [] h h') := by
  refine post_bind (post_new _) fun s h1 e1 => ?_
  refine post_bind (P := fun i h' => Lost [(i, .limbs)] h1 h') post_init fun i h2 e2 => ?_
  refine post_bind (P := fun _ h' => Lost [] h2 h') (post_temps t h2 _) fun _ h3 e3 => ?_
  exact (e1.trans e2).trans e3

theorem blk_perm (e : ℕ × ℕ) (els : List (ℕ × ℕ)) :
    ((limbBlks els ++ mpfrBlks els) ++ [(e.2, Blk.limbs), (e.1, .mpfr)]).Perm (limbBlks (e :: els) ++ mpfrBlks (e :: els)) := by
  have : limbBlks (e :: els) ++ mpfrBlks (e :: els) = (e.2, Blk.limbs) :: (limbBlks els ++ ((e.1, Blk.mpfr) :: mpfrBlks els)) := rfl
  rw [this]
  refine List.perm_append_comm.trans ?_
  refine List.Perm.cons _ ?_
  show ((e.1, Blk.mpfr) :: (limbBlks els ++ mpfrBlks els)).Perm _
  exact List.perm_middle.symm

theorem post_elements : ∀ (n : ℕ) (h : Heap), (Mem.elements t n full h).Post
    (fun els h' => els.length = n ∧ Lost (limbBlks els ++ mpfrBlks els) h h')
    (fun h' => ∃ els, els.length < n ∧ Lost (limbBlks els ++ mpfrBlks els) h h') := by
  intro n
  induction n with
  | zero => exact fun h => ⟨rfl, Lost.refl h⟩
  | succ n ih =>
    intro h
    unfold Mem.elements
    refine post_bind (P := fun e h' => Lost [(e.2, .limbs), (e.1, .mpfr)] h h') ?_ fun e h1 e1 => ?_
    · exact post_element.mono (fun _ _ g => g) fun h' g => ⟨[], by simp, g⟩
    · refine post_bind (P := fun els h' => els.length = n ∧ Lost (limbBlks els ++ mpfrBlks els) h1 h') ?_ fun els h2 e2 => ?_
      · refine (ih h1).mono (fun _ _ g => g) ?_
        rintro h' ⟨els, hl, g⟩
        exact ⟨e :: els, by simpa using hl, (e1.trans g).perm (blk_perm e els)⟩
      · exact ⟨by simp [e2.1], (e1.trans e2.2).perm (blk_perm e els)⟩

theorem post_clearAll {h0 : Heap} {E : Heap → Prop} : ∀ (els : List (ℕ × ℕ)) (l : List (ℕ × Blk)) (h : Heap),
    (∀ e ∈ els, (e.1, Blk.mpfr) ∈ l) → Lost (limbBlks els ++ l) h0 h →
    (Mem.clearAll els full h).Post (fun _ h' => Lost l h0 h') E := by
  intro els
  induction els with
  | nil => exact fun l h _ g => g
  | cons e els ih =>
    intro l h hm g
    unfold Mem.clearAll
    have ht : (Mem.touch e.1 .mpfr full h).Post (fun _ h' => h' = h) E := by
      unfold Mem.touch
      rw [if_pos (g.mem (Or.inl (List.mem_append_right _ (hm e (by simp)))))]
      rfl
    refine post_bind ht fun _ h1 e1 => ?_
    subst e1
    refine post_bind (P := fun _ h' => Lost (limbBlks els ++ l) h0 h') (post_free g) fun _ h2 e2 => ?_
    exact ih l h2 (fun e' he => hm e' (by simp [he])) e2

end lemmas

/-- A reduction over `n` elements never releases a block that it does not own, and everything else that is in use stays in
use.  When it returns, exactly one block for each element has been lost; when it throws (only `std::bad_alloc`), nothing,
or the array and all elements allocated so far.
(Missing for the full statement: nothing should be lost.) -/
theorem C48_reduction_partial (t n : ℕ) (full : Heap → Bool) (h : Heap) : (Mem.reduction t n full h).Post
    (fun _ h' => ∃ els : List (ℕ × ℕ), els.length = n ∧ Lost (mpfrBlks els) h h')
    (fun h' => Lost [] h h' ∨ ∃ tab, ∃ els : List (ℕ × ℕ), els.length < n ∧
      Lost (limbBlks els ++ mpfrBlks els ++ [(tab, .ptrs)]) h h') := by
  unfold Mem.reduction
  refine post_bind (P := fun i h' => Lost [(i, .ptrs)] h h') ((post_new _).mono (fun _ _ g => g) fun h' g => Or.inl g)
    fun tab h1 e1 => ?_
  refine post_bind (P := fun els h' => els.length = n ∧ Lost (limbBlks els ++ mpfrBlks els ++ [(tab, .ptrs)]) h h') ?_
    fun els h2 e2 => ?_
  · refine (post_elements n h1).mono ?_ ?_
    · rintro els h' ⟨hl, g⟩; exact ⟨hl, e1.trans g⟩
    · rintro h' ⟨els, hl, g⟩; exact Or.inr ⟨tab, els, hl, e1.trans g⟩
  obtain ⟨hl, e2⟩ := e2
  refine post_bind (post_temps 1 h2 _) fun _ h3 e3 => ?_
  have e4 : Lost (limbBlks els ++ ((tab, .ptrs) :: mpfrBlks els)) h h3 := by
    refine (e2.trans e3).perm ?_
    rw [List.nil_append, List.append_assoc]
    exact List.Perm.append_left _ List.perm_append_comm
  refine post_bind (post_clearAll els _ h3 (fun e he => ?_) e4) fun _ h5 e5 => ?_
  · exact List.mem_cons_of_mem _ (List.mem_map.mpr ⟨e, he, rfl⟩)
  · exact (post_free e5).mono (fun _ _ g => ⟨els, hl, g⟩) (fun _ g => g)

/-- A reduction over the empty range loses nothing. -/
theorem C48_reduction_empty (t : ℕ) : (Mem.reduction t 0).Clean := by
  intro full h
  refine (C48_reduction_partial t 0 full h).mono ?_ ?_
  · rintro _ h' ⟨els, hl, g⟩
    rw [List.length_eq_zero_iff.mp hl] at g; exact g
  · rintro h' (g | ⟨_, _, hl, _⟩)
    · exact g
    · exact absurd hl (by simp)

/-! ## Refutation -/

/-- No exception and no termination, if `full` never holds. -/
def Mem.Goes {α : Type} (p : Mem α) : Prop := ∀ full h, (∀ h, full h = false) → p full h ≠ .abort ∧ ∀ h', p full h ≠ .exn h'

section lemmas
variable {α β : Type} {p : Mem α} {k : α → Mem β}

theorem goes_bind (hp : p.Goes) (hk : ∀ a, (k a).Goes) : Mem.Goes (p >>= k) := by
  intro full h hf
  show Mem.bind p k full h ≠ _ ∧ ∀ h', Mem.bind p k full h ≠ _
  unfold Mem.bind
  have := hp full h hf
  cases e : p full h with
  | ok a h' => exact hk a full h' hf
  | exn h' => exact absurd e (this.2 h')
  | abort => exact absurd e this.1
  | ub => simp

theorem goes_pure (a : α) : Mem.Goes (Pure.pure a : Mem α) := fun _ _ _ => ⟨nofun, nofun⟩

theorem goes_new (kd : Blk) : (Mem.new kd).Goes := fun full h hf => by simp [Mem.new, hf]
theorem goes_init : Mem.init.Goes := fun full h hf => by simp [Mem.init, hf]
theorem goes_free (i : ℕ) (kd : Blk) : (Mem.free i kd).Goes := fun full h hf => by unfold Mem.free; split_ifs <;> simp
theorem goes_touch (i : ℕ) (kd : Blk) : (Mem.touch i kd).Goes := fun full h hf => by unfold Mem.touch; split_ifs <;> simp

theorem goes_var (hp : p.Goes) : (Mem.withVar p).Goes := by
  intro full h hf
  unfold Mem.withVar Mem.scoped
  have h1 := goes_init full h hf
  cases e1 : Mem.init full h with
  | ok i h1' =>
    have h2 := hp full h1' hf
    simp only
    cases e2 : p full h1' with
    | ok a h2' => exact goes_bind (goes_free _ _) (fun _ => goes_pure a) full h2' hf
    | exn h2' => exact absurd e2 (h2.2 h2')
    | abort => exact absurd e2 h2.1
    | ub => simp
  | exn h' => exact absurd e1 (h1.2 h')
  | abort => exact absurd e1 h1.1
  | ub => simp

theorem goes_temps (t : ℕ) : (Mem.temps t).Goes := by
  induction t with
  | zero => exact goes_pure ()
  | succ t ih => exact goes_var ih

theorem goes_elements (t n : ℕ) : (Mem.elements t n).Goes := by
  induction n with
  | zero => exact goes_pure []
  | succ n ih =>
    unfold Mem.elements Mem.element
    exact goes_bind (goes_bind (goes_new _) fun _ => goes_bind goes_init fun _ => goes_bind (goes_temps t) fun _ => goes_pure _)
      fun _ => goes_bind ih fun _ => goes_pure _

theorem goes_clearAll (els : List (ℕ × ℕ)) : (Mem.clearAll els).Goes := by
  induction els with
  | nil => exact goes_pure ()
  | cons e els ih => exact goes_bind (goes_touch _ _) fun _ => goes_bind (goes_free _ _) fun _ => ih

theorem goes_reduction (t n : ℕ) : (Mem.reduction t n).Goes :=
  goes_bind (goes_new _) fun _ => goes_bind (goes_elements t n) fun _ => goes_bind (goes_temps 1) fun _ =>
    goes_bind (goes_clearAll _) fun _ => goes_free _ _

end lemmas

/-- The number of blocks in use. -/
def Heap.used (h : Heap) : ℕ := h.live.length

theorem Lost.used {l : List (ℕ × Blk)} {h h' : Heap} (a : Lost l h h') : h'.used = l.length + h.used := by
  have := a.length_eq
  simpa [Heap.used] using this

theorem used_of_ok {t n : ℕ} {full : Heap → Bool} {h h' : Heap} {u : Unit} (e : Mem.reduction t n full h = .ok u h') :
    h'.used = n + h.used := by
  have := C48_reduction_partial t n full h
  rw [e] at this
  obtain ⟨els, hl, g⟩ := this
  rw [g.used, mpfrBlks, List.length_map, hl]

/-- With enough memory, a reduction over `n` elements returns and has lost `n` blocks. -/
theorem C48_false_leak (t n : ℕ) (h : Heap) :
    ∃ h', Mem.reduction t n (fun _ => false) h = .ok () h' ∧ h'.used = n + h.used := by
  have h1 := C48_reduction_partial t n (fun _ => false) h
  have h2 := goes_reduction t n (fun _ => false) h (fun _ => rfl)
  cases e : Mem.reduction t n (fun _ => false) h with
  | ok a h' => exact ⟨h', rfl, used_of_ok e⟩
  | exn h' => exact absurd e (h2.2 h')
  | abort => exact absurd e h2.1
  | ub => rw [e] at h1; exact h1.elim

/-- So no reduction over a non-empty range gives back what it takes. -/
theorem C48_false (t n : ℕ) (hn : 1 ≤ n) : ¬ (Mem.reduction t n).Clean := by
  intro hc
  obtain ⟨h', e, hu⟩ := C48_false_leak t n ⟨[], 0⟩
  have := hc (fun _ => false) ⟨[], 0⟩
  rw [e] at this
  have := Lost.used this
  simp [Heap.used] at this hu
  rw [this] at hu
  simp at hu
  omega

theorem used_of_reductions {t : ℕ} {full : Heap → Bool} : ∀ (ns : List ℕ) (h h' : Heap),
    Mem.reductions t ns full h = .ok () h' → h'.used = ns.sum + h.used := by
  intro ns
  induction ns with
  | nil => intro h h' e; cases e; simp
  | cons n ns ih =>
    intro h h' e
    change Mem.bind (Mem.reduction t n) (fun _ => Mem.reductions t ns) full h = _ at e
    unfold Mem.bind at e
    cases e1 : Mem.reduction t n full h with
    | ok u h1 =>
      rw [e1] at e
      have a := ih h1 h' e
      have b := used_of_ok e1
      rw [List.sum_cons]; omega
    | _ => rw [e1] at e; simp at e

theorem exhaust (cap t last : ℕ) : ∀ (ns : List ℕ) (h h' : Heap), cap ≤ ns.sum + h.used →
    Mem.reductions t (ns ++ [last]) (fun h => decide (cap ≤ h.used)) h ≠ .ok () h' := by
  intro ns
  induction ns with
  | nil =>
    intro h h' hc e
    have hc : cap ≤ h.used := by simpa using hc
    simp [Mem.reductions, Mem.reduction, Bind.bind, Mem.bind, Mem.new, hc] at e
  | cons n ns ih =>
    intro h h' hc e
    change Mem.bind (Mem.reduction t n) (fun _ => Mem.reductions t (ns ++ [last])) _ h = _ at e
    unfold Mem.bind at e
    cases e1 : Mem.reduction t n (fun h => decide (cap ≤ h.used)) h with
    | ok u h1 =>
      rw [e1] at e
      have b := used_of_ok e1
      rw [List.sum_cons] at hc
      exact ih h1 h' (by omega) e
    | _ => rw [e1] at e; simp at e

/-- A program whose memory has room for `cap` blocks cannot add up numbers for ever: if the ranges `ns` have `cap`
elements or more in total, then the reductions over `ns` and one more do not all return.  (One call needs little memory,
see the example below.) -/
theorem C48_false_exhaust (cap t : ℕ) (ns : List ℕ) (last : ℕ) (hs : cap ≤ ns.sum) (h h' : Heap) :
    Mem.reductions t (ns ++ [last]) (fun h => decide (cap ≤ h.used)) h ≠ .ok () h' :=
  exhaust cap t last ns h h' (by omega)

/-- If memory runs out at the second element, the array and the first element with its digits are lost. -/
theorem C48_false_exception :
    ∃ (full : Heap → Bool) (h' : Heap), Mem.reduction 1 2 full ⟨[], 0⟩ = .exn h' ∧
      h'.live = [(2, .limbs), (1, .mpfr), (0, .ptrs)] :=
  ⟨fun h => decide (h.next = 4), _, rfl, rfl⟩

/-! ## Examples -/

/-- `add`: four local variables.  An exception in the middle of a conversion. -/
example : (Code.var (.var (.var (.var .skip)))).Runs (Mem.withVar (Mem.withVar (Mem.withVar (Mem.withVar (Pure.pure ()))))) :=
  .var (.var (.var (.var .skip)))
example : (Code.var (.seq (.cond .throw .skip) (.var .skip))).Runs
    (Mem.withVar ((Mem.throw : Mem Unit) >>= fun _ => Mem.withVar (Pure.pure ()))) :=
  .var (.seq (.left .throw) (.var .skip))

/-- With room for six blocks the first reductions over one element return, the fourth one does not. -/
example : (∃ h', Mem.reductions 1 [1, 1] (fun h => decide (6 ≤ h.used)) ⟨[], 0⟩ = .ok () h' ∧
      h'.live = [(6, .mpfr), (1, .mpfr)]) ∧
    Mem.reductions 1 [1, 1, 1, 1] (fun h => decide (6 ≤ h.used)) ⟨[], 0⟩ = .abort :=
  ⟨⟨_, rfl, rfl⟩, rfl⟩

end P1788
