import Verif.Model.Propagate
import Verif.Props.C18
import Verif.Props.C30
import Verif.Props.C31
import Verif.Props.C31Ends
import Verif.Props.C32
import Verif.Lemmas.Search

/-! # C49: constraint propagation loses no solution, whatever the schedule, and comes to rest

The full statement is `C49_full` below: for every system of equations, every sequence of narrowing steps that follow from
it, and every start.  It is false (`C49_false`), because `sin_rev`, `cos_rev` and `tan_rev` lose solutions; proved is that
every run none of whose steps is one of the known bad cases is correct. -/

namespace P1788
open Real

variable {φ : Fmt} {ι : Type}

/-- The function of `RevOp`, as a forward operation (its real function and domain are in `SpecExpr`). -/
def RevOp.op1 : RevOp → Op1
  | .sqr => .sqr | .abs => .abs | .cosh => .cosh | .sin => .sin | .cos => .cos | .tan => .tan

/-- The equation between the unknowns that justifies a step. -/
def Step.Eqn (t : ι → ℝ) : Step ι → Prop
  | .meet x e => t ∈ e.dom ∧ t x = e.val t
  | .rev op c x => t x ∈ op.op1.dom ∧ t c = op.op1.fn (t x)
  | .pownRev p c x => (t x ≠ 0 ∨ 0 ≤ p) ∧ t c = t x ^ p
  | .mulRev b c x => t c = t b * t x

/-- The step is not one of the calls for which the library is known to lose solutions: the forward tangent of a bad
interval (C11; only `double` has such intervals), and `sin_rev`, `cos_rev`, `tan_rev` outside the cases of C31. -/
def Step.Safe (φ : Fmt) (X : ι → Itv) : Step ι → Prop
  | .meet _ e => e.TanSafe φ X
  | .rev .cos _ x => (X x).Bounds64
  | .rev .sin c x => (X x).Bounds64 ∧
      ((0:ℝ) ∈ (X c).set ∨ EndsClear φ (X x).set (RevSol sin (X c).set (X x).set))
  | .rev .tan c x => (X x).Bounds64 ∧
      ((0:ℝ) ∈ (X c).set ∨ EndsClear φ (X x).set (RevSolOn tan tanDom (X c).set (X x).set))
  | _ => True

variable [DecidableEq ι]

/-- Every step of the run is safe when it is executed. -/
def SafeRun (φ : Fmt) (X : ι → Itv) : List (Step ι) → Prop
  | [] => True
  | s :: l => s.Safe φ X ∧ ∀ X', s.run φ X = some X' → SafeRun φ X' l

/-- The full statement: a run that starts with valid intervals ends with valid intervals, each inside the one it started
with, and every common solution of the equations in the box at the start is in the box at the end. -/
def C49_full (φ : Fmt) (ι : Type) [DecidableEq ι] : Prop :=
  ∀ (l : List (Step ι)) (X X' : ι → Itv), (∀ i, (X i).Ok φ) → runSteps φ X l = some X' →
    (∀ i, (X' i).Ok φ ∧ (X' i).set ⊆ (X i).set) ∧
      ∀ t : ι → ℝ, (∀ i, t i ∈ (X i).set) → (∀ s ∈ l, s.Eqn t) → ∀ i, t i ∈ (X' i).set

/-- A step that replaces one interval by a valid part of it that keeps the solutions. -/
theorem assign_sound {X : ι → Itv} {x : ι} {v : Itv} {P : (ι → ℝ) → Prop} (hX : ∀ i, (X i).Ok φ) (hv : v.Ok φ)
    (hs : v.set ⊆ (X x).set) (hk : ∀ t : ι → ℝ, (∀ i, t i ∈ (X i).set) → P t → t x ∈ v.set) :
    (∀ i, (assign X x v i).Ok φ ∧ (assign X x v i).set ⊆ (X i).set) ∧
      ∀ t : ι → ℝ, (∀ i, t i ∈ (X i).set) → P t → ∀ i, t i ∈ (assign X x v i).set := by
  constructor
  · intro i
    unfold assign
    by_cases h : i = x
    · rw [if_pos h, h]; exact ⟨hv, hs⟩
    · rw [if_neg h]; exact ⟨hX i, subset_rfl⟩
  · intro t ht hp i
    unfold assign
    by_cases h : i = x
    · rw [if_pos h, h]; exact hk t ht hp
    · rw [if_neg h]; exact ht i

/-- Expressions of valid intervals are valid. -/
theorem Expr.eval_ok (e : Expr ι) {X : ι → Itv} (hX : ∀ i, (X i).Ok φ) : (e.eval φ X).Ok φ := by
  induction e with
  | var i => exact hX i
  | un op e ih => exact op.bare_ok ih
  | bin op e₁ e₂ ih₁ ih₂ => exact (op.tight ih₁ ih₂).1
  | fma e₁ e₂ e₃ ih₁ ih₂ ih₃ => exact (C06_fma φ ih₁ ih₂ ih₃).1

/-- `pown_rev`, if it is defined. -/
theorem pownRev_cut {c x R : Itv} {p : ℤ} (hc : c.Ok φ) (hx : x.Ok φ) (h : c.pownRev φ x p = some R) :
    CutTo φ R (PowSol p c.set) x.set := by
  unfold Itv.pownRev at h
  split_ifs at h
  rw [← Option.some.inj h]
  exact pownRevV_spec hc hx

/-- Any step: the intervals stay valid and shrink. -/
theorem step_valid (s : Step ι) {X X' : ι → Itv} (hX : ∀ i, (X i).Ok φ) (h : s.run φ X = some X') :
    ∀ i, (X' i).Ok φ ∧ (X' i).set ⊆ (X i).set := by
  have fin : ∀ (x : ι) (v : Itv), v.Ok φ → v.set ⊆ (X x).set → X' = assign X x v →
      ∀ i, (X' i).Ok φ ∧ (X' i).set ⊆ (X i).set := by
    rintro x v hv hs rfl
    exact (assign_sound (P := fun _ => False) hX hv hs (fun _ _ h => h.elim)).1
  cases s with
  | meet x e =>
    obtain ⟨i1, i2⟩ := Itv.inter_ok_set (hX x) (e.eval_ok hX)
    exact fin x _ i1 (by rw [i2]; exact Set.inter_subset_left) (Option.some.inj h).symm
  | rev op c x =>
    obtain ⟨⟨a1, a2⟩, ⟨b1, b2⟩, c1, c2⟩ := C31_valid (hX c) (hX x)
    cases op with
    | sqr =>
      exact fin x _ (C30_sqr_rev (hX c) (hX x)).1 ((C30_sqr_rev (hX c) (hX x)).2.2 _ (hX x) fun t ht => ht.1)
        (Option.some.inj h).symm
    | abs =>
      exact fin x _ (C30_abs_rev (hX c) (hX x)).1 ((C30_abs_rev (hX c) (hX x)).2.2 _ (hX x) fun t ht => ht.1)
        (Option.some.inj h).symm
    | cosh =>
      exact fin x _ (C30_cosh_rev (hX c) (hX x)).1 ((C30_cosh_rev (hX c) (hX x)).2.2 _ (hX x) fun t ht => ht.1)
        (Option.some.inj h).symm
    | sin => exact fin x _ a1 a2 (Option.some.inj h).symm
    | cos => exact fin x _ b1 b2 (Option.some.inj h).symm
    | tan => exact fin x _ c1 c2 (Option.some.inj h).symm
  | pownRev p c x =>
    obtain ⟨R, hR, h'⟩ := Option.map_eq_some_iff.mp h
    obtain ⟨k1, -, k3, -⟩ := pownRev_cut (hX c) (hX x) hR
    exact fin x R k1 k3 h'.symm
  | mulRev b c x =>
    obtain ⟨m1, -, m3, -⟩ := C32_mul_rev (hX b) (hX c) (hX x)
    exact fin x _ m1 m3 (Option.some.inj h).symm

/-- A safe step keeps the solutions of its equation. -/
theorem step_keeps (s : Step ι) {X X' : ι → Itv} (hX : ∀ i, (X i).Ok φ) (hs : s.Safe φ X) (h : s.run φ X = some X')
    {t : ι → ℝ} (ht : ∀ i, t i ∈ (X i).set) (he : s.Eqn t) : ∀ i, t i ∈ (X' i).set := by
  have fin : ∀ (x : ι) (v : Itv), t x ∈ v.set → X' = assign X x v → ∀ i, t i ∈ (X' i).set := by
    rintro x v hv rfl i
    unfold assign
    by_cases h : i = x
    · rw [if_pos h, h]; exact hv
    · rw [if_neg h]; exact ht i
  cases s with
  | meet x e =>
    obtain ⟨i1, i2⟩ := C18_ftia_safe_partial e X hX hs
    refine fin x _ ?_ (Option.some.inj h).symm
    rw [(Itv.inter_ok_set (hX x) i1).2]
    exact ⟨ht x, he.2 ▸ i2 t ht he.1⟩
  | rev op c x =>
    have hc : op.op1.fn (t x) ∈ (X c).set := he.2 ▸ ht c
    refine fin x _ ?_ (Option.some.inj h).symm
    cases op with
    | sqr => exact (C30_sqr_rev (hX c) (hX x)).2.1 ⟨ht x, hc⟩
    | abs => exact (C30_abs_rev (hX c) (hX x)).2.1 ⟨ht x, hc⟩
    | cosh => exact (C30_cosh_rev (hX c) (hX x)).2.1 ⟨ht x, hc⟩
    | cos => exact C31_cos_rev_partial (hX c) (hX x) hs ⟨ht x, hc⟩
    | sin =>
      rcases hs with ⟨h1, h2 | h2⟩
      · exact C31_sin_rev_partial (hX c) (hX x) h1 h2 ⟨ht x, hc⟩
      · exact C31_sin_rev_clear_partial (hX c) (hX x) h1 h2 ⟨ht x, hc⟩
    | tan =>
      rcases hs with ⟨h1, h2 | h2⟩
      · exact C31_tan_rev_partial (hX c) (hX x) h1 h2 ⟨ht x, he.1, hc⟩
      · exact C31_tan_rev_clear_partial (hX c) (hX x) h1 h2 ⟨ht x, he.1, hc⟩
  | pownRev p c x =>
    obtain ⟨R, hR, h'⟩ := Option.map_eq_some_iff.mp h
    exact fin x R ((pownRev_cut (hX c) (hX x) hR).2.1 ⟨⟨he.1, he.2 ▸ ht c⟩, ht x⟩) h'.symm
  | mulRev b c x =>
    obtain ⟨-, m2, -⟩ := C32_mul_rev (hX b) (hX c) (hX x)
    refine fin x _ (m2 ⟨⟨t b, ht b, ?_⟩, ht x⟩) (Option.some.inj h).symm
    rw [← show t c = t b * t x from he]
    exact ht c

/-- **C49**, the part without restriction: whatever steps are made, in whatever order, the intervals stay valid and never
grow. -/
theorem C49_shrinks (l : List (Step ι)) {X X' : ι → Itv} (hX : ∀ i, (X i).Ok φ) (h : runSteps φ X l = some X') :
    ∀ i, (X' i).Ok φ ∧ (X' i).set ⊆ (X i).set := by
  induction l generalizing X with
  | nil => cases Option.some.inj h; exact fun i => ⟨hX i, subset_rfl⟩
  | cons s l ih =>
    obtain ⟨X1, h1, h2⟩ := Option.bind_eq_some_iff.mp h
    have a := step_valid s hX h1
    have b := ih (fun i => (a i).1) h2
    exact fun i => ⟨(b i).1, (b i).2.trans (a i).2⟩

/-- **C49** (full statement: `C49_full`; false, see `C49_false`).  If every step is safe when it is made, the run loses no
solution: every assignment of reals in the box at the start that satisfies the equations is in the box at the end. -/
theorem C49_keeps_solutions_partial (l : List (Step ι)) {X X' : ι → Itv} (hX : ∀ i, (X i).Ok φ) (hs : SafeRun φ X l)
    (h : runSteps φ X l = some X') {t : ι → ℝ} (ht : ∀ i, t i ∈ (X i).set) (he : ∀ s ∈ l, s.Eqn t) :
    ∀ i, t i ∈ (X' i).set := by
  induction l generalizing X with
  | nil => cases Option.some.inj h; exact ht
  | cons s l ih =>
    obtain ⟨X1, h1, h2⟩ := Option.bind_eq_some_iff.mp h
    have a := step_valid s hX h1
    exact ih (fun i => (a i).1) (hs.2 X1 h1) h2 (step_keeps s hX hs.1 h1 ht (he s (by simp)))
      fun s' hs' => he s' (by simp [hs'])

/-- An empty interval at the end is a proof that the equations have no solution in the box at the start. -/
theorem C49_infeasible_partial (l : List (Step ι)) {X X' : ι → Itv} (hX : ∀ i, (X i).Ok φ) (hs : SafeRun φ X l)
    (h : runSteps φ X l = some X') {i : ι} (hi : (X' i).set = ∅) :
    ¬∃ t : ι → ℝ, (∀ i, t i ∈ (X i).set) ∧ ∀ s ∈ l, s.Eqn t := by
  rintro ⟨t, ht, he⟩
  have := C49_keeps_solutions_partial l hX hs h ht he i
  rw [hi] at this
  exact this

/-- The step makes no call of `sin_rev`, `cos_rev`, `tan_rev` or of `tan`. -/
def Step.Plain : Step ι → Prop
  | .meet _ e => e.TanFree
  | .rev op _ _ => op = .sqr ∨ op = .abs ∨ op = .cosh
  | _ => True

omit [DecidableEq ι] in
theorem Expr.TanFree.safe {e : Expr ι} (h : e.TanFree) (X : ι → Itv) : e.TanSafe φ X := by
  induction e with
  | var i => trivial
  | un op e ih => exact ⟨ih h.2, fun h' => absurd h' h.1⟩
  | bin op e₁ e₂ ih₁ ih₂ => exact ⟨ih₁ h.1, ih₂ h.2⟩
  | fma e₁ e₂ e₃ ih₁ ih₂ ih₃ => exact ⟨ih₁ h.1, ih₂ h.2.1, ih₃ h.2.2⟩

omit [DecidableEq ι] in
theorem Step.Plain.safe {s : Step ι} (h : s.Plain) (X : ι → Itv) : s.Safe φ X := by
  cases s with
  | meet x e => exact Expr.TanFree.safe h X
  | rev op c x => rcases h with rfl | rfl | rfl <;> trivial
  | pownRev => trivial
  | mulRev => trivial

theorem safeRun_plain {l : List (Step ι)} (h : ∀ s ∈ l, s.Plain) (X : ι → Itv) : SafeRun φ X l := by
  induction l generalizing X with
  | nil => trivial
  | cons s l ih => exact ⟨(h s (by simp)).safe X, fun X' _ => ih (fun s' hs' => h s' (by simp [hs'])) X'⟩

/-- For programs that do not call `sin_rev`, `cos_rev`, `tan_rev`, `tan`, there is no condition on the intervals. -/
theorem C49_plain (l : List (Step ι)) (hp : ∀ s ∈ l, s.Plain) {X X' : ι → Itv} (hX : ∀ i, (X i).Ok φ)
    (h : runSteps φ X l = some X') {t : ι → ℝ} (ht : ∀ i, t i ∈ (X i).set) (he : ∀ s ∈ l, s.Eqn t) :
    ∀ i, t i ∈ (X' i).set := C49_keeps_solutions_partial l hX (safeRun_plain hp X) h ht he

/-- The step makes no call of `sin_rev`, `cos_rev`, `tan_rev`. -/
def Step.Forward : Step ι → Prop
  | .rev op _ _ => op = .sqr ∨ op = .abs ∨ op = .cosh
  | _ => True

theorem safeRun_forward (hc : NoCritical φ) {l : List (Step ι)} (h : ∀ s ∈ l, s.Forward) {X : ι → Itv}
    (hX : ∀ i, (X i).Ok φ) : SafeRun φ X l := by
  induction l generalizing X with
  | nil => trivial
  | cons s l ih =>
    refine ⟨?_, fun X' h' => ih (fun s' hs' => h s' (by simp [hs'])) fun i => (step_valid s hX h' i).1⟩
    have h := h s (by simp)
    cases s with
    | meet x e => exact e.tanSafe (.inl hc) hX
    | rev op c x => rcases h with rfl | rfl | rfl <;> trivial
    | pownRev => trivial
    | mulRev => trivial

/-- For `float` and `long double` the forward tangent is no restriction either. -/
theorem C49_forward (hc : NoCritical φ) (l : List (Step ι)) (hp : ∀ s ∈ l, s.Forward) {X X' : ι → Itv}
    (hX : ∀ i, (X i).Ok φ) (h : runSteps φ X l = some X') {t : ι → ℝ} (ht : ∀ i, t i ∈ (X i).set)
    (he : ∀ s ∈ l, s.Eqn t) : ∀ i, t i ∈ (X' i).set :=
  C49_keeps_solutions_partial l hX (safeRun_forward hc hp hX) h ht he

/-- Non-vacuity: `float` has no bad intervals for the tangent, and `x = intersection(x, tan(y))` makes no reverse call. -/
example : NoCritical binary32 ∧ (Step.meet true (.un .tan (.var false))).Forward := ⟨noCritical_binary32, trivial⟩

/-- The run is defined unless it contains `pown_rev` with the exponent `INT_MIN`. -/
theorem C49_defined (l : List (Step ι)) (hp : ∀ p c x, Step.pownRev p c x ∈ l → p ≠ -2 ^ 31) (X : ι → Itv) :
    ∃ X', runSteps φ X l = some X' := by
  induction l generalizing X with
  | nil => exact ⟨X, rfl⟩
  | cons s l ih =>
    have : ∃ X1, s.run φ X = some X1 := by
      cases s with
      | meet x e => exact ⟨_, rfl⟩
      | rev op c x => exact ⟨_, rfl⟩
      | mulRev b c x => exact ⟨_, rfl⟩
      | pownRev p c x =>
        have h0 := hp p c x (by simp)
        refine ⟨assign X x ((X c).pownRevV φ (X x) p), ?_⟩
        show ((X c).pownRev φ (X x) p).map _ = _
        unfold Itv.pownRev
        rw [if_neg]
        · rfl
        · rintro ⟨h, -⟩; exact h0 (by rw [h]; norm_num [intMin])
    obtain ⟨X1, h1⟩ := this
    obtain ⟨X', h'⟩ := ih (fun p c x h => hp p c x (by simp [h])) X1
    exact ⟨X', by show (s.run φ X).bind _ = _; rw [h1]; exact h'⟩

/-- The intervals of the format, as sets, that are contained in a given one satisfy the descending chain condition. -/
theorem chain_stops {x : ℕ → Itv} (hx : ∀ n, (x n).Ok φ) (hs : ∀ n, (x (n + 1)).set ⊆ (x n).set) :
    ∃ N, ∀ n ≥ N, (x n).set = (x N).set := by
  have anti : ∀ m n, m ≤ n → (x n).set ⊆ (x m).set := by
    intro m n h
    induction n, h using Nat.le_induction with
    | base => exact subset_rfl
    | succ n _ ih => exact (hs n).trans ih
  by_cases he : ∃ N, (x N).set = ∅
  · obtain ⟨N, hN⟩ := he
    refine ⟨N, fun n hn => ?_⟩
    rw [hN]
    exact Set.subset_empty_iff.mp (hN ▸ anti N n hn)
  · push Not at he
    have ne : ∀ n, (x n).NE φ := by
      intro n
      rcases (hx n).cases with h | h
      · exact absurd (he n) (by rw [h]; simp)
      · exact h
    by_contra hc
    push Not at hc
    have : ∀ k : ℕ, ∃ n, (numsIn φ (x n)).ncard + k ≤ (numsIn φ (x 0)).ncard := by
      intro k
      induction k with
      | zero => exact ⟨0, le_rfl⟩
      | succ k ih =>
        obtain ⟨n, hn⟩ := ih
        obtain ⟨m, hm, hne⟩ := hc n
        have := numsIn_lt (ne m) (ne n) (anti n m hm) hne
        exact ⟨m, by omega⟩
    obtain ⟨n, hn⟩ := this ((numsIn φ (x 0)).ncard + 1)
    omega

/-- **C49**, termination: in every infinite run, whatever its schedule, the intervals change only finitely often. -/
theorem C49_comes_to_rest [Finite ι] (s : ℕ → Step ι) {X : ℕ → ι → Itv} (hX : ∀ i, (X 0 i).Ok φ)
    (hr : ∀ n, (s n).run φ (X n) = some (X (n + 1))) : ∃ N, ∀ n ≥ N, ∀ i, (X n i).set = (X N i).set := by
  have ok : ∀ n i, (X n i).Ok φ := by
    intro n
    induction n with
    | zero => exact hX
    | succ n ih => exact fun i => (step_valid (s n) ih (hr n) i).1
  have H : ∀ i, ∃ N, ∀ n ≥ N, (X n i).set = (X N i).set := fun i =>
    chain_stops (fun n => ok n i) fun n => (step_valid (s n) (ok n) (hr n) i).2
  choose N hN using H
  obtain ⟨M, hM⟩ := (Set.finite_range N).bddAbove
  refine ⟨M, fun n hn i => ?_⟩
  have hi : N i ≤ M := hM ⟨i, rfl⟩
  rw [hN i n (hi.trans hn), hN i M hi]

/-- **C49 is false as it stands**, for every format: one call of `sin_rev` loses a solution. -/
theorem C49_false (φ : Fmt) : ¬C49_full φ Bool := by
  intro h
  obtain ⟨c, x, hc, hx, -, t, ht, hn⟩ := C31_sin_rev_false φ
  refine hn ?_
  have := (h [.rev .sin false true] (fun b => if b then x else c)
    (assign (fun b => if b then x else c) true (c.sinRev φ x)) (by intro i; cases i <;> simpa) rfl).2
    (fun b => if b then t else sin t) (by intro i; cases i <;> simp [ht.1, ht.2])
    (by simp [Step.Eqn, RevOp.op1, Op1.dom, Op1.fn]) true
  simpa [assign] using this

/-- The intervals of the example: `x ∈ [0, 10]`, `y ∈ [0, 1]`, `z ∈ [3, 4]`, and `w` unbounded. -/
def exStore : Fin 4 → Itv := ![⟨.fin 0, .fin 10⟩, ⟨.fin 0, .fin 1⟩, ⟨.fin 3, .fin 4⟩, ⟨.ninf, .pinf⟩]

/-- The steps for `w + y = z`, `w = x²`: `w = intersection(w, z - y)`, then `x = sqr_rev(w, x)`. -/
def exSteps : List (Step (Fin 4)) := [.meet 3 (.bin .sub (.var 2) (.var 1)), .rev .sqr 3 0]

/-- Non-vacuity: the equations `w + y = z`, `w = x²` have the solution `x = 3/2`, `y = 3/4`, `z = 3`, `w = 9/4` in the
box, the run is defined, and it narrows `x` to a part of `[1, 10]`. -/
example : (∀ s ∈ exSteps, s.Plain) ∧ (∀ i, (exStore i).Ok binary64) ∧
    (∃ t : Fin 4 → ℝ, (∀ i, t i ∈ (exStore i).set) ∧ ∀ s ∈ exSteps, s.Eqn t) ∧
    ∃ X', runSteps binary64 exStore exSteps = some X' ∧ (X' 0).set ⊆ (Itv.mk (.fin 1) (.fin 10)).set := by
  have ok : ∀ i, (exStore i).Ok binary64 := by
    intro i
    fin_cases i <;> exact Itv.ok_of_okb (by decide +kernel)
  refine ⟨?_, ok, ⟨![3/2, 3/4, 3, 9/4], ?_, ?_⟩, _, rfl, ?_⟩
  · simp [exSteps, Step.Plain, Expr.TanFree]
  · intro i
    fin_cases i <;> refine ⟨?_, ?_⟩ <;> norm_num [exStore, FP.BelowR, FP.AboveR]
  · simp [exSteps, Step.Eqn, Expr.dom, Expr.val, Op2.dom, Op2.fn, RevOp.op1, Op1.dom, Op1.fn]
    norm_num
  · have e : ((exStore 3).inter (binary64.subI (exStore 2) (exStore 1))) = ⟨.fin 2, .fin 4⟩ := by decide +kernel
    show ((((exStore 3).inter (binary64.subI (exStore 2) (exStore 1))).sqrRev binary64 (exStore 0)).set ⊆ _)
    rw [e]
    refine (C30_sqr_rev (Itv.ok_of_okb (by decide +kernel)) (ok 0)).2.2 _ (Itv.ok_of_okb (by decide +kernel)) ?_
    rintro t ⟨⟨h1, h2⟩, h3, -⟩
    simp only [exStore, FP.BelowR, FP.AboveR, Matrix.cons_val_zero] at h1 h2 h3
    norm_num at h1 h2 h3
    refine ⟨?_, ?_⟩ <;> simp only [FP.BelowR, FP.AboveR] <;> norm_num <;> nlinarith

/-- Non-vacuity of `C49_keeps_solutions_partial` beyond plain steps: `cos_rev` of `[0, 1]` on `[-4, 4]`. -/
example : ∃ (l : List (Step Bool)) (X : Bool → Itv), (∀ i, (X i).Ok binary64) ∧ SafeRun binary64 X l ∧
    (∃ X', runSteps binary64 X l = some X') ∧ ∃ t : Bool → ℝ, (∀ i, t i ∈ (X i).set) ∧ ∀ s ∈ l, s.Eqn t := by
  refine ⟨[.rev .cos false true], fun b => if b then ⟨.fin (-4), .fin 4⟩ else ⟨.fin 0, .fin 1⟩, ?_,
    ⟨?_, fun _ _ => trivial⟩, ⟨_, rfl⟩, fun b => if b then 0 else 1, ?_, ?_⟩
  · intro i
    cases i
    · exact Itv.ok_of_okb (by decide +kernel)
    · exact Itv.ok_of_okb (by decide +kernel)
  · intro q h
    have h : q = -4 ∨ q = 4 := by
      rcases h with h | h
      · left; exact (FP.fin.inj h).symm
      · right; exact (FP.fin.inj h).symm
    rcases h with rfl | rfl <;> norm_num [binary64]
  · intro i
    cases i <;> refine ⟨?_, ?_⟩ <;> norm_num [FP.BelowR, FP.AboveR]
  · simp [Step.Eqn, RevOp.op1, Op1.dom, Op1.fn]

/-- Non-vacuity with the tangent for `double`: `y = intersection(y, tan(x))` with `x = [1, 3]`. -/
example : SafeRun binary64 (fun b : Bool => if b then ⟨.fin 1, .fin 3⟩ else ⟨.fin 0, .fin 1⟩) [.meet false (.un .tan (.var true))] := by
  have hok : (Itv.mk (.fin 1) (.fin 3)).Ok binary64 := Itv.ok_of_okb (by decide +kernel)
  refine ⟨⟨trivial, fun _ => not_bad_of_width (.inl fun s hs t ht => ?_) hok⟩, fun _ _ => trivial⟩
  simp only [Expr.eval, Itv.set, FP.BelowR, FP.AboveR, Set.mem_ofPred_eq, if_true] at hs ht
  obtain ⟨a1, a2⟩ := hs
  obtain ⟨b1, b2⟩ := ht
  push_cast at a1 a2 b1 b2
  exact abs_le.mpr ⟨by linarith, by linarith⟩

end P1788
