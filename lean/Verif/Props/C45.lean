import Verif.Model.Threads
import Verif.Props.C43

/-!
# C45: threads do not disturb each other

What a thread computes depends only on its own calls, for every schedule, if MPFR's exponent range is thread local (MPFR built
thread-safe), or if all threads use one type; with a common range and different types it does not.  The exception flags and the control
word are documented as thread local, but are not: threads see, lose and are thrown exceptions of others.
-/

namespace P1788

section
variable {ι κ I L S : Type} [DecidableEq ι] [DecidableEq κ]

/-- A thread running alone. -/
def alone (exec : I → L → S → L × S) : List I → L → S → L × S
  | [], l, s => (l, s)
  | i :: is, l, s => alone exec is (exec i l s).1 (exec i l s).2

theorem alone_append (exec : I → L → S → L × S) (a b : List I) (l : L) (s : S) :
    alone exec (a ++ b) l s = alone exec b (alone exec a l s).1 (alone exec a l s).2 := by
  induction a generalizing l s with
  | nil => rfl
  | cons i a ih => exact ih _ _

/-- With cells of its own, a thread gets as far as it would alone with as many instructions. -/
theorem local_run (exec : I → L → S → L × S) (own : ι → κ) (ho : Function.Injective own) (sched : List ι) (c : Conf ι κ I L S) (t : ι) :
    ∃ a, c.prog t = a ++ (c.run exec own sched).prog t ∧
      alone exec a (c.loc t) (c.mem (own t)) = ((c.run exec own sched).loc t, (c.run exec own sched).mem (own t)) := by
  induction sched generalizing c with
  | nil => exact ⟨[], rfl, rfl⟩
  | cons u sched ih =>
    obtain ⟨a, h1, h2⟩ := ih (c.step exec own u)
    show ∃ a, c.prog t = a ++ ((c.step exec own u).run exec own sched).prog t ∧
      alone exec a (c.loc t) (c.mem (own t)) = (((c.step exec own u).run exec own sched).loc t, ((c.step exec own u).run exec own sched).mem (own t))
    by_cases hu : t = u
    · subst hu
      cases hp : c.prog t with
      | nil =>
        have e : c.step exec own t = c := by unfold Conf.step; rw [hp]
        rw [e] at h1 h2 ⊢
        exact ⟨a, hp ▸ h1, h2⟩
      | cons i is =>
        have e : c.step exec own t = ⟨Function.update c.prog t is, Function.update c.loc t (exec i (c.loc t) (c.mem (own t))).1,
            Function.update c.mem (own t) (exec i (c.loc t) (c.mem (own t))).2⟩ := by unfold Conf.step; rw [hp]
        refine ⟨i :: a, ?_, ?_⟩
        · rw [List.cons_append, ← h1, e]; simp
        · rw [← h2, e]; simp [alone]
    · have e : (c.step exec own u).prog t = c.prog t ∧ (c.step exec own u).loc t = c.loc t ∧
          (c.step exec own u).mem (own t) = c.mem (own t) := by
        unfold Conf.step
        cases c.prog u with
        | nil => simp
        | cons i is => simp [hu, ho.eq_iff]
      rw [e.1] at h1
      rw [e.2.1, e.2.2] at h2
      exact ⟨a, h1, h2⟩

end

/-- The correct results of a call, after the results `o`: each exact value rounded once. -/
noncomputable def MCall.spec (c : MCall ℝ) (o : List FP) : List FP :=
  c.ops.foldl (fun o p => o ++ [c.fmt.round p.1 (p.2 o)]) o

/-- The correct results of a sequence of calls. -/
noncomputable def specCalls (cs : List (MCall ℝ)) (o : List FP) : List FP := cs.foldl (fun o c => c.spec o) o

theorem exec_out (i : MInstr ℝ) (l : MLoc) (r : Range) : l.out <+: (i.exec l r).1.out := by
  cases i <;> simp [MInstr.exec]

theorem alone_out (is : List (MInstr ℝ)) (l : MLoc) (r : Range) : l.out <+: (alone MInstr.exec is l r).1.out := by
  induction is generalizing l r with
  | nil => simp [alone]
  | cons i is ih => exact (exec_out i l r).trans (ih _ _)

theorem alone_op (φ : Fmt) (m : Rnd) (x : List FP → ℝ) (l : MLoc) :
    alone MInstr.exec [.op φ m x, .sub φ m, .get φ m] l φ.var.range =
      (⟨(alone MInstr.exec [.op φ m x, .sub φ m, .get φ m] l φ.var.range).1.z, l.out ++ [φ.round m (x l.out)]⟩, φ.var.range) := by
  have h : φ.get m (φ.var.subnormalize φ.var.range m
      (if x l.out = 0 then (.fin 0, 0) else φ.var.range.op φ.var.prec m (x l.out))).1 = φ.round m (x l.out) := by
    split_ifs with h0
    · have hz : φ.get m (.fin 0) = .fin 0 := get_of_in φ m φ.rep_zero
      have hs : φ.var.subnormalize φ.var.range m (.fin 0, 0) = (.fin 0, 0) := by
        unfold VarTy.subnormalize Range.subnormalize
        split_ifs <;> simp
      rw [hs, h0]
      show φ.get m (.fin 0) = _
      rw [hz]
      have := φ.round_cast (m := m) (0 : ℚ)
      rw [Rat.cast_zero] at this
      rw [this]
      exact hz.symm
    · exact viaMpfr_eq φ m h0 φ.var.range
  simp only [alone, MInstr.exec, h]

theorem alone_ops (φ : Fmt) (ops : List (Rnd × (List FP → ℝ))) (l : MLoc) :
    (alone MInstr.exec (ops.flatMap fun p => [.op φ p.1 p.2, .sub φ p.1, .get φ p.1]) l φ.var.range).2 = φ.var.range ∧
    (alone MInstr.exec (ops.flatMap fun p => [.op φ p.1 p.2, .sub φ p.1, .get φ p.1]) l φ.var.range).1.out =
      ops.foldl (fun o p => o ++ [φ.round p.1 (p.2 o)]) l.out := by
  induction ops generalizing l with
  | nil => exact ⟨rfl, rfl⟩
  | cons p ops ih =>
    rw [List.flatMap_cons, alone_append, alone_op]
    exact ih _

theorem alone_calls (cs : List (MCall ℝ)) (l : MLoc) (r : Range) :
    (alone MInstr.exec (cs.flatMap MCall.code) l r).1.out = specCalls cs l.out := by
  induction cs generalizing l r with
  | nil => rfl
  | cons c cs ih =>
    rw [List.flatMap_cons, alone_append, ih]
    show specCalls cs (alone MInstr.exec (c.ops.flatMap fun p => [.op c.fmt p.1 p.2, .sub c.fmt p.1, .get c.fmt p.1]) l c.fmt.var.range).1.out = _
    rw [(alone_ops c.fmt c.ops l).2]
    rfl

section
variable {ι κ : Type} [DecidableEq ι] [DecidableEq κ]

/-- With a thread-local exponent range, in every execution, with any number of threads, any types, any schedule and any initial
ranges, each thread has at every moment the first of its own correct results, and all of them when it is finished. -/
theorem C45_results (own : ι → κ) (ho : Function.Injective own) (calls : ι → List (MCall ℝ)) (r : κ → Range) (sched : List ι) (t : ι) :
    (((startCalls calls r).run MInstr.exec own sched).loc t).out <+: specCalls (calls t) [] ∧
    (((startCalls calls r).run MInstr.exec own sched).prog t = [] →
      (((startCalls calls r).run MInstr.exec own sched).loc t).out = specCalls (calls t) []) := by
  obtain ⟨a, h1, h2⟩ := local_run MInstr.exec own ho sched (startCalls calls r) t
  have h := alone_calls (calls t) ⟨(.nan, 0), []⟩ (r (own t))
  change (calls t).flatMap MCall.code = _ at h1
  change alone MInstr.exec a ⟨(.nan, 0), []⟩ (r (own t)) = _ at h2
  rw [h1, alone_append, h2] at h
  rw [← h]
  refine ⟨alone_out _ _ _, fun e => ?_⟩
  rw [e]
  rfl

/-- The invariant of executions in which all threads use one type: what a thread has done, it could have done alone; and once it has
done something, its range is that of the type. -/
def SameInv (φ : Fmt) (calls : ι → List (MCall ℝ)) (own : ι → κ) (c : Conf ι κ (MInstr ℝ) MLoc Range) : Prop :=
  ∀ t, ∃ a, (calls t).flatMap MCall.code = a ++ c.prog t ∧
    (alone MInstr.exec a ⟨(.nan, 0), []⟩ φ.var.range) = (c.loc t, φ.var.range) ∧ (a ≠ [] → c.mem (own t) = φ.var.range)

theorem same_exec {φ : Fmt} {cs : List (MCall ℝ)} (h : ∀ c ∈ cs, c.fmt = φ) {i : MInstr ℝ} (hi : i ∈ cs.flatMap MCall.code) (l : MLoc) :
    (i.exec l φ.var.range).2 = φ.var.range := by
  rw [List.mem_flatMap] at hi
  obtain ⟨c, hc, hi⟩ := hi
  rw [MCall.code, List.mem_cons, List.mem_flatMap] at hi
  rcases hi with rfl | ⟨p, -, hi⟩
  · rw [h c hc]; rfl
  · simp only [List.mem_cons, List.not_mem_nil, or_false] at hi
    rcases hi with rfl | rfl | rfl <;> rfl

theorem same_first {φ : Fmt} {cs : List (MCall ℝ)} (h : ∀ c ∈ cs, c.fmt = φ) {i : MInstr ℝ} {is : List (MInstr ℝ)}
    (hi : cs.flatMap MCall.code = i :: is) : i = .setup φ := by
  cases cs with
  | nil => simp at hi
  | cons c cs =>
    rw [List.flatMap_cons, MCall.code, List.cons_append] at hi
    rw [← (List.cons.inj hi).1, h c (by simp)]

theorem same_step {φ : Fmt} {calls : ι → List (MCall ℝ)} (h : ∀ t, ∀ c ∈ calls t, c.fmt = φ) {own : ι → κ}
    {c : Conf ι κ (MInstr ℝ) MLoc Range} (hc : SameInv φ calls own c) (u : ι) : SameInv φ calls own (c.step MInstr.exec own u) := by
  cases hp : c.prog u with
  | nil =>
    have e : c.step MInstr.exec own u = c := by unfold Conf.step; rw [hp]
    rw [e]; exact hc
  | cons i is =>
    obtain ⟨a, h1, h2, h3⟩ := hc u
    rw [hp] at h1
    have hi : i ∈ (calls u).flatMap MCall.code := by rw [h1]; simp
    have hx : (i.exec (c.loc u) (c.mem (own u))).2 = φ.var.range ∧
        (i.exec (c.loc u) (c.mem (own u))).1 = (i.exec (c.loc u) φ.var.range).1 := by
      by_cases ha : a = []
      · subst ha
        rw [same_first (h u) h1]
        exact ⟨rfl, rfl⟩
      · rw [h3 ha]
        exact ⟨same_exec (h u) hi _, rfl⟩
    have e : c.step MInstr.exec own u = ⟨Function.update c.prog u is, Function.update c.loc u (i.exec (c.loc u) φ.var.range).1,
        Function.update c.mem (own u) φ.var.range⟩ := by
      unfold Conf.step; rw [hp]; simp only; rw [hx.1, hx.2]
    rw [e]
    intro t
    by_cases ht : t = u
    · subst ht
      refine ⟨a ++ [i], by simp [h1], ?_, fun _ => by simp⟩
      rw [alone_append, h2]
      show (_, (i.exec (c.loc t) φ.var.range).2) = _
      rw [same_exec (h t) hi]
      simp
    · obtain ⟨b, k1, k2, k3⟩ := hc t
      refine ⟨b, by simpa [ht] using k1, by simpa [ht] using k2, fun hb => ?_⟩
      by_cases ho : own t = own u
      · simp [ho]
      · simpa [ho] using k3 hb

/-- If all threads use the same type, the results are right for every schedule even if the exponent range is common to all threads.
(Full property: any types; false by `C45_false_common`.) -/
theorem C45_results_common_partial (φ : Fmt) (own : ι → κ) (calls : ι → List (MCall ℝ)) (h : ∀ t, ∀ c ∈ calls t, c.fmt = φ)
    (r : κ → Range) (sched : List ι) (t : ι) :
    (((startCalls calls r).run MInstr.exec own sched).loc t).out <+: specCalls (calls t) [] ∧
    (((startCalls calls r).run MInstr.exec own sched).prog t = [] →
      (((startCalls calls r).run MInstr.exec own sched).loc t).out = specCalls (calls t) []) := by
  have hinv : SameInv φ calls own ((startCalls calls r).run MInstr.exec own sched) := by
    have : ∀ c, SameInv φ calls own c → SameInv φ calls own (c.run MInstr.exec own sched) := by
      induction sched with
      | nil => exact fun c hc => hc
      | cons u sched ih => exact fun c hc => ih _ (same_step h hc u)
    exact this _ fun t => ⟨[], rfl, rfl, fun h => absurd rfl h⟩
  obtain ⟨a, h1, h2, -⟩ := hinv t
  have h := alone_calls (calls t) ⟨(.nan, 0), []⟩ φ.var.range
  rw [h1, alone_append, h2] at h
  rw [← h]
  refine ⟨alone_out _ _ _, fun e => ?_⟩
  rw [e]
  rfl

end

/-- With a common exponent range and different types, a result can be wrong: the thread computing with `double` is interrupted after
`setup()` by one computing with `float`, and its upper bound of 2^-200 becomes 2^-149, its lower bound of 2^200 the greatest
number below 2^128. -/
theorem C45_false_common : ∃ (calls : Bool → List (MCall ℚ)) (sched : List Bool),
    (((startCalls calls fun _ : Unit => ⟨0, 0⟩).run MInstr.exec (fun _ => ()) sched).loc true).out
      = [.fin (1 / 2 ^ 149), .fin ((2 ^ 53 - 1) * 2 ^ 75)] ∧
    (((startCalls calls fun _ : Unit => ⟨0, 0⟩).run MInstr.exec (fun _ => ()) sched).prog true) = [] ∧
    binary64.round .U ((1 : ℚ) / 2 ^ 200) = .fin (1 / 2 ^ 200) ∧ binary64.round .D ((2 : ℚ) ^ 200) = .fin (2 ^ 200) ∧
    calls true = [⟨binary64, [(.U, fun _ => 1 / 2 ^ 200), (.D, fun _ => 2 ^ 200)]⟩] := by
  refine ⟨fun t => if t then [⟨binary64, [(.U, fun _ => 1 / 2 ^ 200), (.D, fun _ => 2 ^ 200)]⟩] else [⟨binary32, [(.D, fun _ => 1)]⟩],
    [true, false, true, true, true, true, true, true], by decide +kernel, by rfl, by decide +kernel, by decide +kernel, rfl⟩

/-! ## Exceptions -/

/-- What a thread observes if the flags and the control word are its own: the flags are sticky, a signal throws if enabled. -/
def soloCmds : List ECmd → ExSt → List Obs
  | [], _ => []
  | .signal e :: cs, s =>
    (match (signal e s).1 with | .ret _ => .state (signal e s).2.flags | .thrown e => .thrown e) :: soloCmds cs (signal e s).2
  | .clear :: cs, s => .state Bits.none :: soloCmds cs { s with flags := Bits.none }
  | .setMask b :: cs, s => soloCmds cs { s with cwd := b }
  | .query e :: cs, s => .flag e (s.flags e) :: soloCmds cs s

theorem alone_cmds (cs : List ECmd) (g : Bits) (o : List Obs) (s : ExSt) :
    (alone EInstr.exec (cs.flatMap ECmd.code) ⟨g, false, o⟩ s).1.out = o ++ soloCmds cs s := by
  induction cs generalizing g o s with
  | nil => simp [alone, soloCmds]
  | cons c cs ih =>
    rw [List.flatMap_cons, alone_append]
    cases c with
    | signal e =>
      simp only [ECmd.code, alone, EInstr.exec, soloCmds, signal]
      by_cases hc : s.cwd e = true
      · simp only [hc, if_true]
        rw [ih]; simp
      · simp only [hc, if_false, Bool.false_eq_true]
        rw [ih]; simp
    | clear =>
      simp only [ECmd.code, alone, EInstr.exec, soloCmds]
      simp only [Bool.false_eq_true, if_false]
      rw [ih]; simp
    | setMask b =>
      simp only [ECmd.code, alone, EInstr.exec, soloCmds]
      rw [ih]
    | query e =>
      simp only [ECmd.code, alone, EInstr.exec, soloCmds]
      rw [ih]; simp

theorem eexec_out (i : EInstr) (l : ELoc) (s : ExSt) : l.out <+: (i.exec l s).1.out := by
  cases i <;> simp only [EInstr.exec] <;> try split_ifs
  all_goals simp

theorem ealone_out (is : List EInstr) (l : ELoc) (s : ExSt) : l.out <+: (alone EInstr.exec is l s).1.out := by
  induction is generalizing l s with
  | nil => simp [alone]
  | cons i is ih => exact (eexec_out i l s).trans (ih _ _)

section
variable {ι κ : Type} [DecidableEq ι] [DecidableEq κ]

/-- If only one thread uses the exception functions, it observes what it would observe alone, for every schedule.  (Full property: any
threads; false by `C45_false_seen`, `C45_false_lost`, `C45_false_thrown`.) -/
theorem C45_flags_partial (cmds : ι → List ECmd) (t : ι) (h : ∀ u, u ≠ t → cmds u = []) (own : ι → κ) (sched : List ι) :
    (((startCmds cmds).run EInstr.exec own sched).loc t).out <+: soloCmds (cmds t) ⟨Bits.none, Bits.none⟩ ∧
    (((startCmds cmds).run EInstr.exec own sched).prog t = [] →
      (((startCmds cmds).run EInstr.exec own sched).loc t).out = soloCmds (cmds t) ⟨Bits.none, Bits.none⟩) := by
  have key : ∀ (sched : List ι) (c : Conf ι κ EInstr ELoc ExSt), (∀ u, u ≠ t → c.prog u = []) →
      ∃ a, c.prog t = a ++ (c.run EInstr.exec own sched).prog t ∧
      alone EInstr.exec a (c.loc t) (c.mem (own t)) = ((c.run EInstr.exec own sched).loc t, (c.run EInstr.exec own sched).mem (own t)) := by
    intro sched
    induction sched with
    | nil => exact fun c _ => ⟨[], rfl, rfl⟩
    | cons u sched ih =>
      intro c hc
      have hr : ∀ d, d = c.step EInstr.exec own u → c.run EInstr.exec own (u :: sched) = d.run EInstr.exec own sched := by
        rintro d rfl; rfl
      cases hp : c.prog u with
      | nil =>
        have e : c.step EInstr.exec own u = c := by unfold Conf.step; rw [hp]
        rw [hr c e.symm]
        exact ih c hc
      | cons i is =>
        have hu : u = t := by
          by_contra hu
          rw [hc u hu] at hp
          cases hp
        subst hu
        have e : c.step EInstr.exec own u = ⟨Function.update c.prog u is, Function.update c.loc u (i.exec (c.loc u) (c.mem (own u))).1,
            Function.update c.mem (own u) (i.exec (c.loc u) (c.mem (own u))).2⟩ := by unfold Conf.step; rw [hp]
        rw [hr _ e.symm]
        obtain ⟨a, h1, h2⟩ := ih ⟨Function.update c.prog u is, Function.update c.loc u (i.exec (c.loc u) (c.mem (own u))).1,
            Function.update c.mem (own u) (i.exec (c.loc u) (c.mem (own u))).2⟩ (fun v hv => by simp [hv, hc v hv])
        refine ⟨i :: a, ?_, ?_⟩
        · rw [List.cons_append, ← h1, hp]; simp
        · rw [← h2]; simp [alone]
  obtain ⟨a, h1, h2⟩ := key sched (startCmds cmds) (fun u hu => by simp [startCmds, h u hu])
  have h := alone_cmds (cmds t) Bits.none [] ⟨Bits.none, Bits.none⟩
  rw [List.nil_append] at h
  change (cmds t).flatMap ECmd.code = _ at h1
  change alone EInstr.exec a ⟨Bits.none, false, []⟩ ⟨Bits.none, Bits.none⟩ = _ at h2
  rw [h1, alone_append, h2] at h
  rw [← h]
  refine ⟨ealone_out _ _ _, fun e => ?_⟩
  rw [e]
  rfl

/-- If the storage were thread local, as the documentation says, each thread would observe what it observes alone. -/
theorem C45_flags_if_local (own : ι → κ) (ho : Function.Injective own) (cmds : ι → List ECmd) (sched : List ι) (t : ι) :
    (((startCmds cmds).run EInstr.exec own sched).loc t).out <+: soloCmds (cmds t) ⟨Bits.none, Bits.none⟩ ∧
    (((startCmds cmds).run EInstr.exec own sched).prog t = [] →
      (((startCmds cmds).run EInstr.exec own sched).loc t).out = soloCmds (cmds t) ⟨Bits.none, Bits.none⟩) := by
  obtain ⟨a, h1, h2⟩ := local_run EInstr.exec own ho sched (startCmds cmds) t
  have h := alone_cmds (cmds t) Bits.none [] ⟨Bits.none, Bits.none⟩
  rw [List.nil_append] at h
  change (cmds t).flatMap ECmd.code = _ at h1
  change alone EInstr.exec a ⟨Bits.none, false, []⟩ ⟨Bits.none, Bits.none⟩ = _ at h2
  rw [h1, alone_append, h2] at h
  rw [← h]
  refine ⟨ealone_out _ _ _, fun e => ?_⟩
  rw [e]
  rfl

/-- An observation has a cause: a flag is seen only if some thread signals the condition; an exception is thrown only if some
thread signals the condition and some thread enables the exception. -/
def Caused (cmds : ι → List ECmd) : Obs → Prop
  | .state b => ∀ e, b e = true → ∃ t, ECmd.signal e ∈ cmds t
  | .flag e b => b = true → ∃ t, ECmd.signal e ∈ cmds t
  | .thrown e => (∃ t, ECmd.signal e ∈ cmds t) ∧ ∃ t b, ECmd.setMask b ∈ cmds t ∧ b e = true

/-- An instruction belongs to a command of some thread. -/
def CausedI (cmds : ι → List ECmd) : EInstr → Prop
  | .orStore e => ∃ t, ECmd.signal e ∈ cmds t
  | .check e => ∃ t, ECmd.signal e ∈ cmds t
  | .mask b => ∃ t, ECmd.setMask b ∈ cmds t
  | _ => True

/-- The invariant for `C45_flags_caused_partial`. -/
structure CauseInv (cmds : ι → List ECmd) (c : Conf ι κ EInstr ELoc ExSt) : Prop where
  flags : ∀ k e, (c.mem k).flags e = true → ∃ t, ECmd.signal e ∈ cmds t
  cwd : ∀ k e, (c.mem k).cwd e = true → ∃ t b, ECmd.setMask b ∈ cmds t ∧ b e = true
  reg : ∀ t e, (c.loc t).reg e = true → ∃ t, ECmd.signal e ∈ cmds t
  out : ∀ t, ∀ o ∈ (c.loc t).out, Caused cmds o
  prog : ∀ t, ∀ i ∈ c.prog t, CausedI cmds i

theorem cause_step {cmds : ι → List ECmd} {own : ι → κ} {c : Conf ι κ EInstr ELoc ExSt} (h : CauseInv cmds c) (u : ι) :
    CauseInv cmds (c.step EInstr.exec own u) := by
  cases hp : c.prog u with
  | nil =>
    have e : c.step EInstr.exec own u = c := by unfold Conf.step; rw [hp]
    rw [e]; exact h
  | cons i is =>
    have e : c.step EInstr.exec own u = ⟨Function.update c.prog u is, Function.update c.loc u (i.exec (c.loc u) (c.mem (own u))).1,
        Function.update c.mem (own u) (i.exec (c.loc u) (c.mem (own u))).2⟩ := by unfold Conf.step; rw [hp]
    rw [e]
    clear e
    have hi : CausedI cmds i := h.prog u i (by rw [hp]; simp)
    have hf := h.flags (own u)
    have hw := h.cwd (own u)
    have hg := h.reg u
    have ho := h.out u
    have hx : (∀ e, (i.exec (c.loc u) (c.mem (own u))).2.flags e = true → ∃ t, ECmd.signal e ∈ cmds t) ∧
        (∀ e, (i.exec (c.loc u) (c.mem (own u))).2.cwd e = true → ∃ t b, ECmd.setMask b ∈ cmds t ∧ b e = true) ∧
        (∀ e, (i.exec (c.loc u) (c.mem (own u))).1.reg e = true → ∃ t, ECmd.signal e ∈ cmds t) ∧
        (∀ o ∈ (i.exec (c.loc u) (c.mem (own u))).1.out, Caused cmds o) := by
      cases i with
      | load => exact ⟨hf, hw, hf, ho⟩
      | orStore e =>
        refine ⟨fun e' he => ?_, hw, hg, ho⟩
        change (if e' = e then true else (c.loc u).reg e') = true at he
        split_ifs at he with h'
        · rw [h']; exact hi
        · exact hg e' he
      | check e =>
        simp only [EInstr.exec]
        split_ifs with h'
        · refine ⟨hf, hw, hg, fun o hm => ?_⟩
          rcases List.mem_append.mp hm with hm | hm
          · exact ho o hm
          · rw [List.mem_singleton.mp hm]; exact ⟨hi, hw e h'⟩
        · exact ⟨hf, hw, hg, ho⟩
      | ret =>
        simp only [EInstr.exec]
        split_ifs with h'
        · exact ⟨hf, hw, hg, ho⟩
        · refine ⟨hf, hw, hg, fun o hm => ?_⟩
          rcases List.mem_append.mp hm with hm | hm
          · exact ho o hm
          · rw [List.mem_singleton.mp hm]; exact hf
      | store => exact ⟨fun e he => absurd he (by simp [EInstr.exec, Bits.none]), hw, hg, ho⟩
      | mask b =>
        obtain ⟨t, ht⟩ := hi
        exact ⟨hf, fun e he => ⟨t, b, ht, he⟩, hg, ho⟩
      | test e =>
        refine ⟨hf, hw, hg, fun o hm => ?_⟩
        rcases List.mem_append.mp hm with hm | hm
        · exact ho o hm
        · rw [List.mem_singleton.mp hm]; exact hf e
    constructor
    · intro k
      by_cases hk : k = own u
      · subst hk; simpa using hx.1
      · simpa [hk] using h.flags k
    · intro k
      by_cases hk : k = own u
      · subst hk; simpa using hx.2.1
      · simpa [hk] using h.cwd k
    · intro t
      by_cases ht : t = u
      · subst ht; simpa using hx.2.2.1
      · simpa [ht] using h.reg t
    · intro t
      by_cases ht : t = u
      · subst ht; simpa using hx.2.2.2
      · simpa [ht] using h.out t
    · intro t
      by_cases ht : t = u
      · subst ht
        intro i hi
        refine h.prog t i ?_
        rw [hp]
        simp only [Function.update_self] at hi
        exact List.mem_cons_of_mem _ hi
      · simpa [ht] using h.prog t

/-- What holds of the code as it is, for any number of threads and every schedule: nothing comes from nowhere.  (Full property: the cause
lies in the thread itself; false by `C45_false_seen`, `C45_false_thrown`.) -/
theorem C45_flags_caused_partial (cmds : ι → List ECmd) (own : ι → κ) (sched : List ι) (t : ι) :
    ∀ o ∈ (((startCmds cmds).run EInstr.exec own sched).loc t).out, Caused cmds o := by
  have key : ∀ c : Conf ι κ EInstr ELoc ExSt, CauseInv cmds c → CauseInv cmds (c.run EInstr.exec own sched) := by
    induction sched with
    | nil => exact fun c hc => hc
    | cons u sched ih => exact fun c hc => ih _ (cause_step hc u)
  refine (key _ ⟨?_, ?_, ?_, ?_, ?_⟩).out t
  · intro k e h; exact absurd h (by simp [startCmds, Bits.none])
  · intro k e h; exact absurd h (by simp [startCmds, Bits.none])
  · intro k e h; exact absurd h (by simp [startCmds, Bits.none])
  · intro t o h; simp [startCmds] at h
  · intro t i hi
    change i ∈ (cmds t).flatMap ECmd.code at hi
    obtain ⟨c, hc, hi⟩ := List.mem_flatMap.mp hi
    cases c <;> simp only [ECmd.code, List.mem_cons, List.not_mem_nil, or_false] at hi
    · rcases hi with rfl | rfl | rfl | rfl
      · trivial
      · exact ⟨t, hc⟩
      · exact ⟨t, hc⟩
      · trivial
    · rcases hi with rfl | rfl <;> trivial
    · rw [hi]; exact ⟨t, hc⟩
    · rw [hi]; trivial

end

/-- A thread that has signalled nothing sees the flag of another one, although no two calls overlap. -/
theorem C45_false_seen : ∃ (cmds : Bool → List ECmd) (sched : List Bool),
    cmds true = [.query .invalidOperand] ∧
    (((startCmds cmds).run EInstr.exec (fun _ => ()) sched).loc true).out = [.flag .invalidOperand true] ∧
    soloCmds (cmds true) ⟨Bits.none, Bits.none⟩ = [.flag .invalidOperand false] :=
  ⟨fun t => if t then [.query .invalidOperand] else [.signal .invalidOperand], [false, false, false, false, true], rfl, rfl, rfl⟩

/-- A flag is lost: a thread signals and then finds the flag not set, although no thread clears flags. -/
theorem C45_false_lost : ∃ (cmds : Bool → List ECmd) (sched : List Bool), (∀ t, ECmd.clear ∉ cmds t) ∧
    cmds true = [.signal .undefinedOperation, .query .undefinedOperation] ∧
    (((startCmds cmds).run EInstr.exec (fun _ => ()) sched).loc true).out.getLast? = some (.flag .undefinedOperation false) ∧
    (((startCmds cmds).run EInstr.exec (fun _ => ()) sched).prog true) = [] :=
  ⟨fun t => if t then [.signal .undefinedOperation, .query .undefinedOperation] else [.signal .invalidOperand],
    [false, true, true, true, true, false, true], by intro t; cases t <;> simp, rfl, rfl, rfl⟩

/-- A thread that has not enabled exceptions is thrown one, because another thread has enabled it. -/
theorem C45_false_thrown : ∃ (cmds : Bool → List ECmd) (sched : List Bool),
    cmds true = [.signal .invalidOperand] ∧
    (((startCmds cmds).run EInstr.exec (fun _ => ()) sched).loc true).out = [.thrown .invalidOperand] :=
  ⟨fun t => if t then [.signal .invalidOperand] else [.setMask fun _ => true], [false, true, true, true, true], rfl, rfl⟩

/-- Two threads with different types, interleaved: with ranges of their own both compute what they should. -/
example : (((startCalls (fun t : Bool => if t then [⟨binary64, [(.U, fun _ => 1 / 2 ^ 200)]⟩] else [⟨binary32, [(.D, fun _ => (1 / 3 : ℚ))]⟩])
      fun _ : Bool => ⟨0, 0⟩).run MInstr.exec id [true, false, true, false, true, false, false, true]).loc true).out = [.fin (1 / 2 ^ 200)] ∧
    Function.Injective (id : Bool → Bool) := ⟨by decide +kernel, Function.injective_id⟩

/-- Two threads with one type and a common range. -/
example : ∀ t : Bool, ∀ c ∈ (fun t : Bool => if t then [(⟨binary64, [(.U, fun o => (o.length : ℝ) + 1 / 3)]⟩ : MCall ℝ)] else
    [⟨binary64, [(.D, fun _ => 2)]⟩]) t, c.fmt = binary64 := by
  intro t; cases t <;> simp

/-- One thread that uses exceptions among others that do not. -/
example : ∀ u : Bool, u ≠ true → (fun t : Bool => if t then [ECmd.signal .invalidOperand, .query .invalidOperand] else []) u = [] := by
  intro u; cases u <;> simp

end P1788
