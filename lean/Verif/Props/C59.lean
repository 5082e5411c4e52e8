import Verif.Model.Program
import Verif.Props.C18
import Verif.Props.C19
import Verif.Props.C22
import Verif.Props.C25

/-!
# C59: programs with branches and loops

The real program: variables hold real numbers, conditions are about real numbers.  A run may stop at an operation
outside its domain.  The full statement (`C59_full`) is about every program; it is false of `double` because of the
tangent (`C59_false`).
-/

namespace P1788
variable {φ : Fmt} {ι : Type}

/-- The condition at a point. -/
def Test.Holds (t : ι → ℝ) : Test ι → Prop
  | .lt a b => a.val t < b.val t
  | .le a b => a.val t ≤ b.val t
  | .not c => ¬ c.Holds t
  | .and c d => c.Holds t ∧ d.Holds t

/-- Every expression of the condition is defined. -/
def Test.Def (t : ι → ℝ) : Test ι → Prop
  | .lt a b => t ∈ a.dom ∧ t ∈ b.dom
  | .le a b => t ∈ a.dom ∧ t ∈ b.dom
  | .not c => c.Def t
  | .and c d => c.Def t ∧ d.Def t

/-- The expressions of a condition. -/
def Test.exprs : Test ι → List (Expr ι)
  | .lt a b => [a, b]
  | .le a b => [a, b]
  | .not c => c.exprs
  | .and c d => c.exprs ++ d.exprs

/-- No tangent. -/
def Test.TanFree : Test ι → Prop
  | .lt a b => a.TanFree ∧ b.TanFree
  | .le a b => a.TanFree ∧ b.TanFree
  | .not c => c.TanFree
  | .and c d => c.TanFree ∧ d.TanFree

/-- No tangent. -/
def Prog.TanFree : Prog ι → Prop
  | .skip => True
  | .set _ e => e.TanFree
  | .seq p q => p.TanFree ∧ q.TanFree
  | .cond c p q => c.TanFree ∧ p.TanFree ∧ q.TanFree
  | .loop c p => c.TanFree ∧ p.TanFree

variable [DecidableEq ι]

/-- `Evaluates φ p X e Y`: the program for intervals, started with the intervals `X`, evaluates the expression `e` at some time, and
then the variables hold `Y`. -/
inductive Evaluates (φ : Fmt) : Prog ι → (ι → Itv) → Expr ι → (ι → Itv) → Prop
  | set {X x e} : Evaluates φ (.set x e) X e X
  | seq1 {X Y p q e} : Evaluates φ p X e Y → Evaluates φ (.seq p q) X e Y
  | seq2 {X X' Y p q e} : Run φ p X X' → Evaluates φ q X' e Y → Evaluates φ (.seq p q) X e Y
  | test {X c p q e} : e ∈ c.exprs → Evaluates φ (.cond c p q) X e X
  | yes {X Y c p q e} : c.eval φ X ≠ some false → Evaluates φ p X e Y → Evaluates φ (.cond c p q) X e Y
  | no {X Y c p q e} : c.eval φ X ≠ some true → Evaluates φ q X e Y → Evaluates φ (.cond c p q) X e Y
  | check {X c p e} : e ∈ c.exprs → Evaluates φ (.loop c p) X e X
  | body {X Y c p e} : c.eval φ X = some true → Evaluates φ p X e Y → Evaluates φ (.loop c p) X e Y
  | again {X X' Y c p e} : c.eval φ X = some true → Run φ p X X' → Evaluates φ (.loop c p) X' e Y → Evaluates φ (.loop c p) X e Y

/-- The same for decorated intervals. -/
inductive EvaluatesD (φ : Fmt) : Prog ι → (ι → DItv) → Expr ι → (ι → DItv) → Prop
  | set {X x e} : EvaluatesD φ (.set x e) X e X
  | seq1 {X Y p q e} : EvaluatesD φ p X e Y → EvaluatesD φ (.seq p q) X e Y
  | seq2 {X X' Y p q e} : RunD φ p X X' → EvaluatesD φ q X' e Y → EvaluatesD φ (.seq p q) X e Y
  | test {X c p q e} : e ∈ c.exprs → EvaluatesD φ (.cond c p q) X e X
  | yes {X Y c p q e} : c.evalD φ X = some true → EvaluatesD φ p X e Y → EvaluatesD φ (.cond c p q) X e Y
  | no {X Y c p q e} : c.evalD φ X = some false → EvaluatesD φ q X e Y → EvaluatesD φ (.cond c p q) X e Y
  | check {X c p e} : e ∈ c.exprs → EvaluatesD φ (.loop c p) X e X
  | body {X Y c p e} : c.evalD φ X = some true → EvaluatesD φ p X e Y → EvaluatesD φ (.loop c p) X e Y
  | again {X X' Y c p e} : c.evalD φ X = some true → RunD φ p X X' → EvaluatesD φ (.loop c p) X' e Y →
      EvaluatesD φ (.loop c p) X e Y

/-- `RealRun p t o`: the program for real numbers, started at `t`, ends with the values `o`, or (`none`) stops at an
operation outside its domain. -/
inductive RealRun : Prog ι → (ι → ℝ) → Option (ι → ℝ) → Prop
  | skip {t} : RealRun .skip t (some t)
  | set {t x e} : t ∈ e.dom → RealRun (.set x e) t (some (Function.update t x (e.val t)))
  | setStop {t x e} : t ∉ e.dom → RealRun (.set x e) t none
  | seq {t t' o p q} : RealRun p t (some t') → RealRun q t' o → RealRun (.seq p q) t o
  | seqStop {t p q} : RealRun p t none → RealRun (.seq p q) t none
  | yes {t o c p q} : c.Def t → c.Holds t → RealRun p t o → RealRun (.cond c p q) t o
  | no {t o c p q} : c.Def t → ¬ c.Holds t → RealRun q t o → RealRun (.cond c p q) t o
  | condStop {t c p q} : ¬ c.Def t → RealRun (.cond c p q) t none
  | again {t t' o c p} : c.Def t → c.Holds t → RealRun p t (some t') → RealRun (.loop c p) t' o → RealRun (.loop c p) t o
  | againStop {t c p} : c.Def t → c.Holds t → RealRun p t none → RealRun (.loop c p) t none
  | done {t c p} : c.Def t → ¬ c.Holds t → RealRun (.loop c p) t (some t)
  | loopStop {t c p} : ¬ c.Def t → RealRun (.loop c p) t none

/-- The real program does only one thing. -/
theorem C59_real_deterministic {p : Prog ι} {t : ι → ℝ} {o o' : Option (ι → ℝ)} (h : RealRun p t o) (h' : RealRun p t o') :
    o = o' := by
  induction h generalizing o' with
  | skip => cases h'; rfl
  | set hd => cases h' with
    | set _ => rfl
    | setStop h => exact absurd hd h
  | setStop hd => cases h' with
    | set h => exact absurd h hd
    | setStop _ => rfl
  | seq _ _ ih1 ih2 => cases h' with
    | seq a b => cases ih1 a; exact ih2 b
    | seqStop a => exact absurd (ih1 a) (by simp)
  | seqStop _ ih => cases h' with
    | seq a b => exact absurd (ih a) (by simp)
    | seqStop a => rfl
  | yes hd hh _ ih => cases h' with
    | yes _ _ a => exact ih a
    | no _ a _ => exact absurd hh a
    | condStop a => exact absurd hd a
  | no hd hh _ ih => cases h' with
    | yes _ a _ => exact absurd a hh
    | no _ _ a => exact ih a
    | condStop a => exact absurd hd a
  | condStop hd => cases h' with
    | yes a _ _ => exact absurd a hd
    | no a _ _ => exact absurd a hd
    | condStop _ => rfl
  | again hd hh _ _ ih1 ih2 => cases h' with
    | again _ _ a b => cases ih1 a; exact ih2 b
    | againStop _ _ a => exact absurd (ih1 a) (by simp)
    | done _ a => exact absurd hh a
    | loopStop a => exact absurd hd a
  | againStop hd hh _ ih => cases h' with
    | again _ _ a b => exact absurd (ih a) (by simp)
    | againStop _ _ a => rfl
    | done _ a => exact absurd hh a
    | loopStop a => exact absurd hd a
  | done hd hh => cases h' with
    | again _ a _ _ => exact absurd a hh
    | againStop _ a _ => exact absurd a hh
    | done _ _ => rfl
    | loopStop a => exact absurd hd a
  | loopStop hd => cases h' with
    | again a _ _ _ => exact absurd a hd
    | againStop a _ _ => exact absurd a hd
    | done a _ => exact absurd a hd
    | loopStop _ => rfl

/-- The full statement: if the program for intervals ends, then the program for real numbers, started at any point of the
box, ends too (or stops at an operation outside its domain), and the values at the end are in the intervals. -/
def C59_full (φ : Fmt) (ι : Type) [DecidableEq ι] : Prop :=
  ∀ (p : Prog ι) (X X' : ι → Itv), (∀ i, (X i).Ok φ) → Run φ p X X' →
    ∀ t : ι → ℝ, (∀ i, t i ∈ (X i).set) → RealRun p t none ∨ ∃ t', RealRun p t (some t') ∧ ∀ i, t' i ∈ (X' i).set

omit [DecidableEq ι] in
/-- A certain answer is right at every point. -/
theorem Test.eval_sound (c : Test ι) {X : ι → Itv} (ht : ∀ e ∈ c.exprs, e.TanSafe φ X) (hX : ∀ i, (X i).Ok φ) {b : Bool}
    (h : c.eval φ X = some b) {t : ι → ℝ} (hm : ∀ i, t i ∈ (X i).set) (hd : c.Def t) : c.Holds t ↔ b = true := by
  induction c generalizing b with
  | lt a e =>
    obtain ⟨a1, a2⟩ := C18_ftia_safe_partial a X hX (ht a (by simp [Test.exprs]))
    obtain ⟨e1, e2⟩ := C18_ftia_safe_partial e X hX (ht e (by simp [Test.exprs]))
    simp only [Test.eval, certainLt] at h
    simp only [Test.Holds]
    split_ifs at h with h1 h2
    · cases h
      simpa using (C22_strictly_precedes a1 e1).mp h1 _ (a2 t hm hd.1) _ (e2 t hm hd.2)
    · cases h
      simpa using (C22_precedes e1 a1).mp h2 _ (e2 t hm hd.2) _ (a2 t hm hd.1)
  | le a e =>
    obtain ⟨a1, a2⟩ := C18_ftia_safe_partial a X hX (ht a (by simp [Test.exprs]))
    obtain ⟨e1, e2⟩ := C18_ftia_safe_partial e X hX (ht e (by simp [Test.exprs]))
    simp only [Test.eval, certainLt] at h
    simp only [Test.Holds]
    split_ifs at h with h1 h2
    · cases h
      simpa using (C22_precedes a1 e1).mp h1 _ (a2 t hm hd.1) _ (e2 t hm hd.2)
    · cases h
      simpa using (C22_strictly_precedes e1 a1).mp h2 _ (e2 t hm hd.2) _ (a2 t hm hd.1)
  | not c ih =>
    simp only [Test.eval, Option.map_eq_some_iff] at h
    obtain ⟨b', h1, rfl⟩ := h
    have := ih ht h1 hd
    simp only [Test.Holds, this]
    cases b' <;> simp
  | and c d ih1 ih2 =>
    simp only [Test.eval] at h
    simp only [Test.Holds]
    have i1 := fun b hb => ih1 (b := b) (fun e he => ht e (List.mem_append_left _ he)) hb hd.1
    have i2 := fun b hb => ih2 (b := b) (fun e he => ht e (List.mem_append_right _ he)) hb hd.2
    cases hc : c.eval φ X with
    | none =>
      cases hdv : d.eval φ X with
      | none => rw [hc, hdv] at h; simp [and3] at h
      | some b2 => rw [hc, hdv] at h; rw [i2 _ hdv]; cases b2 <;> simp [and3] at h <;> simp [← h]
    | some b1 =>
      rw [i1 _ hc]
      cases hdv : d.eval φ X with
      | none => rw [hc, hdv] at h; cases b1 <;> simp [and3] at h <;> simp [← h]
      | some b2 => rw [hc, hdv] at h; rw [i2 _ hdv]; cases b1 <;> cases b2 <;> simp [and3] at h <;> simp [← h]

/-- The intervals at the end are valid. -/
theorem C59_valid {p : Prog ι} {X X' : ι → Itv} (hX : ∀ i, (X i).Ok φ) (h : Run φ p X X') : ∀ i, (X' i).Ok φ := by
  have evok : ∀ {X : ι → Itv}, (∀ i, (X i).Ok φ) → ∀ e : Expr ι, (e.eval φ X).Ok φ := by
    intro X hX e
    induction e with
    | var i => exact hX i
    | un op e ih => exact op.bare_ok ih
    | bin op e₁ e₂ ih₁ ih₂ => exact (op.tight ih₁ ih₂).1
    | fma e₁ e₂ e₃ ih₁ ih₂ ih₃ => exact (C06_fma φ ih₁ ih₂ ih₃).1
  induction h with
  | skip => exact hX
  | @set X x e =>
    intro i
    unfold assign
    split_ifs
    · exact evok hX e
    · exact hX i
  | seq _ _ ih1 ih2 => exact ih2 (ih1 hX)
  | yes _ _ ih => exact ih hX
  | no _ _ ih => exact ih hX
  | both _ _ _ ih1 ih2 => exact fun i => (C25_convex_hull (ih1 hX i) (ih2 hX i)).1
  | again _ _ _ ih1 ih2 => exact ih2 (ih1 hX)
  | done _ => exact hX

/-- **C59** (full statement: without the hypothesis `ht`: in the evaluations during the run the tangent meets no bad interval (C11)). -/
theorem C59_branching_safe_partial {p : Prog ι} {X X' : ι → Itv} (ht : ∀ e Y, Evaluates φ p X e Y → e.TanSafe φ Y) (hX : ∀ i, (X i).Ok φ)
    (h : Run φ p X X') {t : ι → ℝ} (hm : ∀ i, t i ∈ (X i).set) :
    RealRun p t none ∨ ∃ t', RealRun p t (some t') ∧ ∀ i, t' i ∈ (X' i).set := by
  induction h generalizing t with
  | skip => exact Or.inr ⟨t, .skip, hm⟩
  | @set X x e =>
    by_cases hd : t ∈ e.dom
    · refine Or.inr ⟨_, .set hd, fun i => ?_⟩
      unfold assign
      by_cases hi : i = x
      · rw [if_pos hi, hi, Function.update_self]
        exact (C18_ftia_safe_partial e X hX (ht e X .set)).2 t hm hd
      · rw [if_neg hi, Function.update_of_ne hi]; exact hm i
    · exact Or.inl (.setStop hd)
  | seq h1 _ ih1 ih2 =>
    rcases ih1 (fun e Y h => ht e Y (.seq1 h)) hX hm with h | ⟨t', a, b⟩
    · exact Or.inl (.seqStop h)
    rcases ih2 (fun e Y h => ht e Y (.seq2 h1 h)) (C59_valid hX h1) b with h | ⟨t'', a', b'⟩
    · exact Or.inl (.seq a h)
    · exact Or.inr ⟨t'', .seq a a', b'⟩
  | @yes X Y c p q hc _ ih =>
    by_cases hd : c.Def t
    · have hh : c.Holds t := (c.eval_sound (fun e h => ht e _ (.test h)) hX hc hm hd).mpr rfl
      rcases ih (fun e Y h => ht e Y (.yes (by simp [hc]) h)) hX hm with h | ⟨t', a, b⟩
      · exact Or.inl (.yes hd hh h)
      · exact Or.inr ⟨t', .yes hd hh a, b⟩
    · exact Or.inl (.condStop hd)
  | @no X Y c p q hc _ ih =>
    by_cases hd : c.Def t
    · have hh : ¬ c.Holds t := fun k => by simpa using (c.eval_sound (fun e h => ht e _ (.test h)) hX hc hm hd).mp k
      rcases ih (fun e Y h => ht e Y (.no (by simp [hc]) h)) hX hm with h | ⟨t', a, b⟩
      · exact Or.inl (.no hd hh h)
      · exact Or.inr ⟨t', .no hd hh a, b⟩
    · exact Or.inl (.condStop hd)
  | @both X Y Z c p q hc h1 h2 ih1 ih2 =>
    by_cases hd : c.Def t
    · have hull : ∀ i, (Y i).set ∪ (Z i).set ⊆ ((Y i).hull (Z i)).set := fun i =>
        (C25_convex_hull (C59_valid hX h1 i) (C59_valid hX h2 i)).2.1
      by_cases hh : c.Holds t
      · rcases ih1 (fun e Y h => ht e Y (.yes (by simp [hc]) h)) hX hm with h | ⟨t', a, b⟩
        · exact Or.inl (.yes hd hh h)
        · exact Or.inr ⟨t', .yes hd hh a, fun i => hull i (Or.inl (b i))⟩
      · rcases ih2 (fun e Y h => ht e Y (.no (by simp [hc]) h)) hX hm with h | ⟨t', a, b⟩
        · exact Or.inl (.no hd hh h)
        · exact Or.inr ⟨t', .no hd hh a, fun i => hull i (Or.inr (b i))⟩
    · exact Or.inl (.condStop hd)
  | @again X Y Z c p hc h1 _ ih1 ih2 =>
    by_cases hd : c.Def t
    · have hh : c.Holds t := (c.eval_sound (fun e h => ht e _ (.check h)) hX hc hm hd).mpr rfl
      rcases ih1 (fun e Y h => ht e Y (.body hc h)) hX hm with h | ⟨t', a, b⟩
      · exact Or.inl (.againStop hd hh h)
      rcases ih2 (fun e Y h => ht e Y (.again hc h1 h)) (C59_valid hX h1) b with h | ⟨t'', a', b'⟩
      · exact Or.inl (.again hd hh a h)
      · exact Or.inr ⟨t'', .again hd hh a a', b'⟩
    · exact Or.inl (.loopStop hd)
  | @done X c p hc =>
    by_cases hd : c.Def t
    · have hh : ¬ c.Holds t := fun k => by simpa using (c.eval_sound (fun e h => ht e _ (.check h)) hX hc hm hd).mp k
      exact Or.inr ⟨t, .done hd hh, hm⟩
    · exact Or.inl (.loopStop hd)

omit [DecidableEq ι] in
theorem Test.tanSafe (c : Test ι) (ht : NoCritical φ ∨ c.TanFree) {X : ι → Itv} (hX : ∀ i, (X i).Ok φ) :
    ∀ e ∈ c.exprs, e.TanSafe φ X := by
  induction c with
  | lt a b =>
    intro e he
    rcases (by simpa [Test.exprs] using he : e = a ∨ e = b) with rfl | rfl
    · exact e.tanSafe (ht.imp_right And.left) hX
    · exact e.tanSafe (ht.imp_right And.right) hX
  | le a b =>
    intro e he
    rcases (by simpa [Test.exprs] using he : e = a ∨ e = b) with rfl | rfl
    · exact e.tanSafe (ht.imp_right And.left) hX
    · exact e.tanSafe (ht.imp_right And.right) hX
  | not c ih => exact ih ht
  | and c d ih1 ih2 =>
    intro e he
    rcases List.mem_append.mp he with h | h
    · exact ih1 (ht.imp_right And.left) e h
    · exact ih2 (ht.imp_right And.right) e h

theorem Evaluates.safe {p : Prog ι} (ht : NoCritical φ ∨ p.TanFree) {X Y : ι → Itv} {e : Expr ι} (hX : ∀ i, (X i).Ok φ)
    (h : Evaluates φ p X e Y) : e.TanSafe φ Y := by
  induction h with
  | set => exact Expr.tanSafe _ ht hX
  | seq1 _ ih => exact ih (ht.imp_right And.left) hX
  | seq2 h1 _ ih => exact ih (ht.imp_right And.right) (C59_valid hX h1)
  | test he => exact Test.tanSafe _ (ht.imp_right And.left) hX _ he
  | yes _ _ ih => exact ih (ht.imp_right fun k => k.2.1) hX
  | no _ _ ih => exact ih (ht.imp_right fun k => k.2.2) hX
  | check he => exact Test.tanSafe _ (ht.imp_right And.left) hX _ he
  | body _ _ ih => exact ih (ht.imp_right And.right) hX
  | again _ h1 _ ih => exact ih ht (C59_valid hX h1)

/-- For types without bad intervals for the tangent and for programs without the tangent. -/
theorem C59_branching_partial {p : Prog ι} (ht : NoCritical φ ∨ p.TanFree) {X X' : ι → Itv} (hX : ∀ i, (X i).Ok φ)
    (h : Run φ p X X') {t : ι → ℝ} (hm : ∀ i, t i ∈ (X i).set) :
    RealRun p t none ∨ ∃ t', RealRun p t (some t') ∧ ∀ i, t' i ∈ (X' i).set :=
  C59_branching_safe_partial (fun _ _ k => k.safe ht hX) hX h hm

/-- `float`: every program. -/
theorem C59_binary32 : C59_full binary32 ι :=
  fun _ _ _ hX h _ hm => C59_branching_partial (Or.inl noCritical_binary32) hX h hm

/-- `long double`: every program. -/
theorem C59_x87ext : C59_full x87ext ι :=
  fun _ _ _ hX h _ hm => C59_branching_partial (Or.inl noCritical_x87ext) hX h hm

/-- `double`: not every program (one assignment of a tangent). -/
theorem C59_false : ¬ C59_full binary64 Unit := by
  intro hf
  obtain ⟨e, X, hX, t, hm, hd, hv⟩ := C18_ftia_binary64_false
  rcases hf (.set () e) X _ hX .set t hm with h | ⟨t', h, h'⟩
  · cases h with | setStop k => exact k hd
  · cases h with
    | set _ =>
      have := h' ()
      rw [assign, if_pos rfl, Function.update_self] at this
      exact hv this

/-! ## Decorated intervals: the real program never stops at an undefined operation -/

omit [DecidableEq ι] in
theorem evalD_valid59 {X : ι → DItv} (hX : ∀ i, (X i).Ok φ) (e : Expr ι) : (e.evalD φ X).Ok φ := by
  induction e with
  | var i => exact hX i
  | un op e ih => exact op.decd_ok ih
  | bin op e₁ e₂ ih₁ ih₂ => exact op.decd_ok ih₁ ih₂
  | fma e₁ e₂ e₃ ih₁ ih₂ ih₃ => exact fmaD_ok ih₁ ih₂ ih₃

omit [DecidableEq ι] in
theorem evalD_sound59 (e : Expr ι) {X : ι → DItv} (ht : e.TanSafe φ fun i => (X i).itv) (hX : ∀ i, (X i).Ok φ)
    (hd : .defd ≤ (e.evalD φ X).dec) {t : ι → ℝ} (hm : ∀ i, t i ∈ (X i).set) :
    t ∈ e.dom ∧ e.val t ∈ (e.evalD φ X).itv.set := by
  obtain ⟨-, -, h1, h2, -⟩ := C19_ftdia_safe_partial e X hX ht
  have := (h2 hd).2 t hm
  refine ⟨this, h1 t ?_ hm this⟩
  intro k
  rw [k] at hd
  exact absurd hd (by decide)

omit [DecidableEq ι] in
theorem rel_imp {r : Itv → Itv → Bool} {x y : DItv} (h : DItv.rel r x y = true) : r x.itv y.itv = true := by
  unfold DItv.rel at h
  split_ifs at h
  exact h

omit [DecidableEq ι] in
/-- A certain answer is right at every point, and the condition is defined there. -/
theorem Test.evalD_sound (c : Test ι) {X : ι → DItv} (ht : ∀ e ∈ c.exprs, e.TanSafe φ fun i => (X i).itv) (hX : ∀ i, (X i).Ok φ) {b : Bool}
    (h : c.evalD φ X = some b) {t : ι → ℝ} (hm : ∀ i, t i ∈ (X i).set) : c.Def t ∧ (c.Holds t ↔ b = true) := by
  induction c generalizing b with
  | lt a e =>
    simp only [Test.evalD, certainLtD] at h
    simp only [Test.Holds, Test.Def]
    split_ifs at h with hd h1 h2 <;>
    · obtain ⟨a1, a2⟩ := evalD_sound59 a (ht a (by simp [Test.exprs])) hX hd.1 hm
      obtain ⟨e1, e2⟩ := evalD_sound59 e (ht e (by simp [Test.exprs])) hX hd.2 hm
      have va := (evalD_valid59 hX a).1
      have ve := (evalD_valid59 hX e).1
      refine ⟨⟨a1, e1⟩, ?_⟩
      cases h
      first
      | simpa using (C22_strictly_precedes va ve).mp (rel_imp h1) _ a2 _ e2
      | simpa using (C22_precedes ve va).mp (rel_imp h2) _ e2 _ a2
  | le a e =>
    simp only [Test.evalD, certainLtD] at h
    simp only [Test.Holds, Test.Def]
    split_ifs at h with hd h1 h2 <;>
    · obtain ⟨a1, a2⟩ := evalD_sound59 a (ht a (by simp [Test.exprs])) hX hd.1 hm
      obtain ⟨e1, e2⟩ := evalD_sound59 e (ht e (by simp [Test.exprs])) hX hd.2 hm
      have va := (evalD_valid59 hX a).1
      have ve := (evalD_valid59 hX e).1
      refine ⟨⟨a1, e1⟩, ?_⟩
      cases h
      first
      | simpa using (C22_precedes va ve).mp (rel_imp h1) _ a2 _ e2
      | simpa using (C22_strictly_precedes ve va).mp (rel_imp h2) _ e2 _ a2
  | not c ih =>
    simp only [Test.evalD, Option.map_eq_some_iff] at h
    obtain ⟨b', h1, rfl⟩ := h
    obtain ⟨i1, i2⟩ := ih ht h1
    refine ⟨i1, ?_⟩
    simp only [Test.Holds, i2]
    cases b' <;> simp
  | and c d ih1 ih2 =>
    simp only [Test.evalD, Option.bind_eq_some_iff, Option.map_eq_some_iff] at h
    obtain ⟨b1, h1, b2, h2, rfl⟩ := h
    obtain ⟨c1, c2⟩ := ih1 (fun e he => ht e (List.mem_append_left _ he)) h1
    obtain ⟨d1, d2⟩ := ih2 (fun e he => ht e (List.mem_append_right _ he)) h2
    refine ⟨⟨c1, d1⟩, ?_⟩
    simp only [Test.Holds, c2, d2, Bool.and_eq_true]

/-- The decorated intervals at the end are valid. -/
theorem C59_valid_decorated {p : Prog ι} {X X' : ι → DItv} (hX : ∀ i, (X i).Ok φ) (h : RunD φ p X X') :
    ∀ i, (X' i).Ok φ := by
  induction h with
  | skip => exact hX
  | @set X x e _ =>
    intro i
    unfold assignD
    split_ifs
    · exact evalD_valid59 hX e
    · exact hX i
  | seq _ _ ih1 ih2 => exact ih2 (ih1 hX)
  | yes _ _ ih => exact ih hX
  | no _ _ ih => exact ih hX
  | again _ _ _ ih1 ih2 => exact ih2 (ih1 hX)
  | done _ => exact hX

/-- **C59**, decorated: if the program ends, then from every point of the box the program for real numbers ends, with all
its operations defined, in the intervals. -/
theorem C59_decorated_safe_partial {p : Prog ι} {X X' : ι → DItv}
    (ht : ∀ e Y, EvaluatesD φ p X e Y → e.TanSafe φ fun i => (Y i).itv) (hX : ∀ i, (X i).Ok φ)
    (h : RunD φ p X X') {t : ι → ℝ} (hm : ∀ i, t i ∈ (X i).set) :
    ∃ t', RealRun p t (some t') ∧ ∀ i, t' i ∈ (X' i).set := by
  induction h generalizing t with
  | skip => exact ⟨t, .skip, hm⟩
  | @set X x e hd =>
    obtain ⟨h1, h2⟩ := evalD_sound59 e (ht e X .set) hX hd hm
    refine ⟨_, .set h1, fun i => ?_⟩
    unfold assignD
    by_cases hi : i = x
    · rw [if_pos hi, hi, Function.update_self]; exact h2
    · rw [if_neg hi, Function.update_of_ne hi]; exact hm i
  | seq h1 _ ih1 ih2 =>
    obtain ⟨t', a, b⟩ := ih1 (fun e Y h => ht e Y (.seq1 h)) hX hm
    obtain ⟨t'', a', b'⟩ := ih2 (fun e Y h => ht e Y (.seq2 h1 h)) (C59_valid_decorated hX h1) b
    exact ⟨t'', .seq a a', b'⟩
  | @yes X Y c p q hc _ ih =>
    obtain ⟨k1, k2⟩ := c.evalD_sound (fun e h => ht e _ (.test h)) hX hc hm
    obtain ⟨t', a, b⟩ := ih (fun e Y h => ht e Y (.yes hc h)) hX hm
    exact ⟨t', .yes k1 (k2.mpr rfl) a, b⟩
  | @no X Y c p q hc _ ih =>
    obtain ⟨k1, k2⟩ := c.evalD_sound (fun e h => ht e _ (.test h)) hX hc hm
    obtain ⟨t', a, b⟩ := ih (fun e Y h => ht e Y (.no hc h)) hX hm
    exact ⟨t', .no k1 (fun k => by simpa using k2.mp k) a, b⟩
  | @again X Y Z c p hc h1 _ ih1 ih2 =>
    obtain ⟨k1, k2⟩ := c.evalD_sound (fun e h => ht e _ (.check h)) hX hc hm
    obtain ⟨t', a, b⟩ := ih1 (fun e Y h => ht e Y (.body hc h)) hX hm
    obtain ⟨t'', a', b'⟩ := ih2 (fun e Y h => ht e Y (.again hc h1 h)) (C59_valid_decorated hX h1) b
    exact ⟨t'', .again k1 (k2.mpr rfl) a a', b'⟩
  | @done X c p hc =>
    obtain ⟨k1, k2⟩ := c.evalD_sound (fun e h => ht e _ (.check h)) hX hc hm
    exact ⟨t, .done k1 (fun k => by simpa using k2.mp k), hm⟩

theorem EvaluatesD.safe {p : Prog ι} (ht : NoCritical φ ∨ p.TanFree) {X Y : ι → DItv} {e : Expr ι} (hX : ∀ i, (X i).Ok φ)
    (h : EvaluatesD φ p X e Y) : e.TanSafe φ fun i => (Y i).itv := by
  induction h with
  | set => exact Expr.tanSafe _ ht fun i => (hX i).1
  | seq1 _ ih => exact ih (ht.imp_right And.left) hX
  | seq2 h1 _ ih => exact ih (ht.imp_right And.right) (C59_valid_decorated hX h1)
  | test he => exact Test.tanSafe _ (ht.imp_right And.left) (fun i => (hX i).1) _ he
  | yes _ _ ih => exact ih (ht.imp_right fun k => k.2.1) hX
  | no _ _ ih => exact ih (ht.imp_right fun k => k.2.2) hX
  | check he => exact Test.tanSafe _ (ht.imp_right And.left) (fun i => (hX i).1) _ he
  | body _ _ ih => exact ih (ht.imp_right And.right) hX
  | again _ h1 _ ih => exact ih ht (C59_valid_decorated hX h1)

/-- For types without bad intervals for the tangent and for programs without the tangent. -/
theorem C59_decorated_partial {p : Prog ι} (ht : NoCritical φ ∨ p.TanFree) {X X' : ι → DItv} (hX : ∀ i, (X i).Ok φ)
    (h : RunD φ p X X') {t : ι → ℝ} (hm : ∀ i, t i ∈ (X i).set) :
    ∃ t', RealRun p t (some t') ∧ ∀ i, t' i ∈ (X' i).set :=
  C59_decorated_safe_partial (fun _ _ k => k.safe ht hX) hX h hm

/-! ## A program that meets the hypotheses: `while (x < y) x = x + y;` -/

/-- The loop. -/
def exProg : Prog Bool := .loop (.lt (.var false) (.var true)) (.set false (.bin .add (.var false) (.var true)))

/-- `x` between 1 and 2, `y` between 3 and 4. -/
def exBox (x : Itv) : Bool → Itv := fun i => if i then ⟨.fin 3, .fin 4⟩ else x

/-- It ends after one round with `x` between 4 and 6. -/
example : Run binary64 exProg (exBox ⟨.fin 1, .fin 2⟩) (exBox ⟨.fin 4, .fin 6⟩) ∧
    (∀ i, (exBox ⟨.fin 1, .fin 2⟩ i).Ok binary64) ∧ exProg.TanFree := by
  refine ⟨?_, fun i => ?_, ⟨trivial, trivial⟩, trivial, trivial⟩
  · refine .again (Y := exBox ⟨.fin 4, .fin 6⟩) ?_ ?_ ?_
    · decide +kernel
    · have : exBox ⟨.fin 4, .fin 6⟩ = assign (exBox ⟨.fin 1, .fin 2⟩) false
          (Expr.eval binary64 (exBox ⟨.fin 1, .fin 2⟩) (.bin .add (.var false) (.var true))) := by
        funext i
        cases i
        · exact (by decide +kernel : exBox ⟨.fin 4, .fin 6⟩ false = binary64.addI ⟨.fin 1, .fin 2⟩ ⟨.fin 3, .fin 4⟩)
        · rfl
      rw [this]
      exact .set
    · refine .done ?_
      decide +kernel
  · cases i <;> exact Itv.ok_of_okb (by decide +kernel)

/-- Non-vacuity of `C59_branching_safe_partial` for `double` with the tangent: `x = tan(x);` started with `[1, 3]`. -/
example : ∀ e Y, Evaluates binary64 (.set () (.un .tan (.var ()))) (fun _ : Unit => ⟨.fin 1, .fin 3⟩) e Y → e.TanSafe binary64 Y := by
  intro e Y h
  cases h
  have hok : (Itv.mk (.fin 1) (.fin 3)).Ok binary64 := Itv.ok_of_okb (by decide +kernel)
  refine ⟨trivial, fun _ => not_bad_of_width (.inl fun s hs t ht => ?_) hok⟩
  simp only [Expr.eval, Itv.set, FP.BelowR, FP.AboveR, Set.mem_ofPred_eq] at hs ht
  obtain ⟨a1, a2⟩ := hs
  obtain ⟨b1, b2⟩ := ht
  push_cast at a1 a2 b1 b2
  exact abs_le.mpr ⟨by linarith, by linarith⟩

end P1788
