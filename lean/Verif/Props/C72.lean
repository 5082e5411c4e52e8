import Verif.Props.C49
import Verif.Props.C35b

/-!
# C72: the order of the steps of constraint propagation does not matter

Programs of the kind of C49: one interval per unknown, narrowed by steps in any order until nothing changes.
-/

namespace P1788
variable {φ : Fmt} {ι : Type} [DecidableEq ι]

/-- No step of `P` changes the box: every one of them returns, and every interval stays the same set. -/
def AtRest (φ : Fmt) (P : Set (Step ι)) (X : ι → Itv) : Prop :=
  ∀ s ∈ P, ∃ X', s.run φ X = some X' ∧ ∀ i, (X' i).set = (X i).set

/-- The full statement: runs with steps of `P` from the same box that have come to rest have arrived at the same box, which is the
greatest box at rest inside the first one. -/
def C72_full (φ : Fmt) (ι : Type) [DecidableEq ι] : Prop :=
  ∀ (P : Set (Step ι)) (X : ι → Itv), (∀ i, (X i).Ok φ) →
    ∀ l : List (Step ι), (∀ s ∈ l, s ∈ P) → ∀ Y, runSteps φ X l = some Y → AtRest φ P Y →
      (∀ l' : List (Step ι), (∀ s ∈ l', s ∈ P) → ∀ Y', runSteps φ X l' = some Y' → AtRest φ P Y' → ∀ i, (Y' i).set = (Y i).set) ∧
      ∀ Z : ι → Itv, (∀ i, (Z i).Ok φ ∧ (Z i).set ⊆ (X i).set) → AtRest φ P Z → ∀ i, (Z i).set ⊆ (Y i).set

/-- A step that calls isotone functions only: no `sin_rev`, `cos_rev`, `tan_rev`, and the tangent only in a type without bad
intervals for it. -/
def Step.Orderly (φ : Fmt) (s : Step ι) : Prop := s.Plain ∨ NoCritical φ ∧ s.Forward

/-- Such a step is isotone. -/
theorem step_mono72 {s : Step ι} (hs : s.Orderly φ) {X Y X' Y' : ι → Itv} (hX : ∀ i, (X i).Ok φ) (hY : ∀ i, (Y i).Ok φ)
    (h : ∀ i, (Y i).set ⊆ (X i).set) (hx : s.run φ X = some X') (hy : s.run φ Y = some Y') : ∀ i, (Y' i).set ⊆ (X' i).set := by
  have fin : ∀ (x : ι) (v w : Itv), w.set ⊆ v.set → X' = assign X x v → Y' = assign Y x w → ∀ i, (Y' i).set ⊆ (X' i).set := by
    rintro x v w hvw rfl rfl i
    unfold assign
    by_cases h' : i = x
    · rw [if_pos h', if_pos h']; exact hvw
    · rw [if_neg h', if_neg h']; exact h i
  cases s with
  | meet x e =>
    have ht : NoCritical φ ∨ e.TanFree := by
      rcases hs with hs | hs
      · exact Or.inr hs
      · exact Or.inl hs.1
    have := C35_expr_partial e ht Y X hY hX h
    refine fin x _ _ ?_ (Option.some.inj hx).symm (Option.some.inj hy).symm
    exact (C35_setop (hY x) (hX x) (e.eval_ok hY) (e.eval_ok hX) (h x) this).1
  | rev op c x =>
    have hop : op = .sqr ∨ op = .abs ∨ op = .cosh := by
      rcases hs with hs | hs
      · exact hs
      · exact hs.2
    obtain ⟨k1, k2, k3⟩ := C35_sqr_abs_cosh_rev (hY c) (hX c) (hY x) (hX x) (h c) (h x)
    rcases hop with rfl | rfl | rfl
    · exact fin x _ _ k1 (Option.some.inj hx).symm (Option.some.inj hy).symm
    · exact fin x _ _ k2 (Option.some.inj hx).symm (Option.some.inj hy).symm
    · exact fin x _ _ k3 (Option.some.inj hx).symm (Option.some.inj hy).symm
  | pownRev p c x =>
    obtain ⟨R, hR, h'⟩ := Option.map_eq_some_iff.mp hx
    obtain ⟨R', hR', h''⟩ := Option.map_eq_some_iff.mp hy
    exact fin x _ _ (C35_pown_rev (hY c) (hX c) (hY x) (hX x) (h c) (h x) hR' hR) h'.symm h''.symm
  | mulRev b c x =>
    exact fin x _ _ (C35_mul_rev (hY b) (hX b) (hY c) (hX c) (hY x) (hX x) (h b) (h c) (h x)) (Option.some.inj hx).symm
      (Option.some.inj hy).symm

/-- As `AtRest`, for a box or one that is equal to it as a set. -/
def RestSet (φ : Fmt) (P : Set (Step ι)) (S : ι → Set ℝ) : Prop :=
  ∀ s ∈ P, ∃ X X', (∀ i, (X i).Ok φ ∧ (X i).set = S i) ∧ s.run φ X = some X' ∧ ∀ i, (X' i).set = S i

theorem AtRest.restSet {P : Set (Step ι)} {X : ι → Itv} (hX : ∀ i, (X i).Ok φ) (h : AtRest φ P X) :
    RestSet φ P fun i => (X i).set := fun s hs =>
  let ⟨X', h1, h2⟩ := h s hs
  ⟨X, X', fun i => ⟨hX i, rfl⟩, h1, h2⟩

/-- A box at rest is never left. -/
theorem rest_step72 {P : Set (Step ι)} (hP : ∀ s ∈ P, s.Orderly φ) {S : ι → Set ℝ} (hS : RestSet φ P S) {s : Step ι} (hs : s ∈ P)
    {X X' : ι → Itv} (hX : ∀ i, (X i).Ok φ) (h : ∀ i, S i ⊆ (X i).set) (hr : s.run φ X = some X') : ∀ i, S i ⊆ (X' i).set := by
  obtain ⟨Z, Z', h1, h2, h3⟩ := hS s hs
  intro i
  rw [← h3 i]
  exact step_mono72 (hP s hs) hX (fun i => (h1 i).1) (fun i => by rw [(h1 i).2]; exact h i) hr h2 i

theorem rest_run72 {P : Set (Step ι)} (hP : ∀ s ∈ P, s.Orderly φ) {S : ι → Set ℝ} (hS : RestSet φ P S) {l : List (Step ι)}
    (hl : ∀ s ∈ l, s ∈ P) {X X' : ι → Itv} (hX : ∀ i, (X i).Ok φ) (h : ∀ i, S i ⊆ (X i).set) (hr : runSteps φ X l = some X') :
    ∀ i, S i ⊆ (X' i).set := by
  induction l generalizing X with
  | nil => cases hr; exact h
  | cons s l ih =>
    obtain ⟨X1, h1, h2⟩ := Option.bind_eq_some_iff.mp hr
    exact ih (fun s' hs' => hl s' (by simp [hs'])) (fun i => (step_valid s hX h1 i).1)
      (rest_step72 hP hS (hl s (by simp)) hX h h1) h2

/-- **The result is the greatest box at rest** (full statement `C72_full`: for all steps; false of the code, `C72_false`). -/
theorem C72_greatest_partial {P : Set (Step ι)} (hP : ∀ s ∈ P, s.Orderly φ) {l : List (Step ι)} (hl : ∀ s ∈ l, s ∈ P)
    {X Y Z : ι → Itv} (hX : ∀ i, (X i).Ok φ) (hr : runSteps φ X l = some Y) (hZ : ∀ i, (Z i).Ok φ ∧ (Z i).set ⊆ (X i).set)
    (hz : AtRest φ P Z) : ∀ i, (Z i).set ⊆ (Y i).set :=
  rest_run72 hP (hz.restSet fun i => (hZ i).1) hl hX (fun i => (hZ i).2) hr

/-- **The order does not matter**: runs from the same box that have come to rest have arrived at the same box. -/
theorem C72_order_partial {P : Set (Step ι)} (hP : ∀ s ∈ P, s.Orderly φ) {l l' : List (Step ι)} (hl : ∀ s ∈ l, s ∈ P)
    (hl' : ∀ s ∈ l', s ∈ P) {X Y Y' : ι → Itv} (hX : ∀ i, (X i).Ok φ) (hr : runSteps φ X l = some Y)
    (hr' : runSteps φ X l' = some Y') (h : AtRest φ P Y) (h' : AtRest φ P Y') : ∀ i, (Y' i).set = (Y i).set := fun i =>
  Set.Subset.antisymm (C72_greatest_partial hP hl hX hr (C49_shrinks l' hX hr') h' i)
    (C72_greatest_partial hP hl' hX hr' (C49_shrinks l hX hr) h i)

/-- Each step of `P`, and no other, is executed again and again. -/
def Fair (P : Set (Step ι)) (s : ℕ → Step ι) : Prop := (∀ n, s n ∈ P) ∧ ∀ q ∈ P, ∀ N, ∃ n ≥ N, s n = q

theorem fair_rest72 {P : Set (Step ι)} {s : ℕ → Step ι} (hs : Fair P s) {X : ℕ → ι → Itv} (hX : ∀ n i, (X n i).Ok φ)
    (hr : ∀ n, (s n).run φ (X n) = some (X (n + 1))) {N : ℕ} (hN : ∀ n ≥ N, ∀ i, (X n i).set = (X N i).set) :
    RestSet φ P fun i => (X N i).set := by
  intro q hq
  obtain ⟨n, hn, rfl⟩ := hs.2 q hq N
  exact ⟨X n, X (n + 1), fun i => ⟨hX n i, hN n hn i⟩, hr n, hN (n + 1) (by omega)⟩

theorem run_ok72 {s : ℕ → Step ι} {X : ℕ → ι → Itv} (hX : ∀ i, (X 0 i).Ok φ)
    (hr : ∀ n, (s n).run φ (X n) = some (X (n + 1))) : ∀ n i, (X n i).Ok φ ∧ (X n i).set ⊆ (X 0 i).set := by
  intro n
  induction n with
  | zero => exact fun i => ⟨hX i, subset_rfl⟩
  | succ n ih =>
    intro i
    have := step_valid (s n) (fun i => (ih i).1) (hr n) i
    exact ⟨this.1, this.2.trans (ih i).2⟩

/-- **All fair schedules end in the same box**: two infinite runs from the same box, each executing every step of `P` again and again,
have the same intervals from some time on. -/
theorem C72_fair_partial [Finite ι] {P : Set (Step ι)} (hP : ∀ s ∈ P, s.Orderly φ) {s s' : ℕ → Step ι} (hs : Fair P s)
    (hs' : Fair P s') {X X' : ℕ → ι → Itv} (hX : ∀ i, (X 0 i).Ok φ) (h0 : X' 0 = X 0)
    (hr : ∀ n, (s n).run φ (X n) = some (X (n + 1))) (hr' : ∀ n, (s' n).run φ (X' n) = some (X' (n + 1))) :
    ∃ N, ∀ n ≥ N, ∀ m ≥ N, ∀ i, (X' m i).set = (X n i).set := by
  have hX' : ∀ i, (X' 0 i).Ok φ := by rw [h0]; exact hX
  obtain ⟨N, hN⟩ := C49_comes_to_rest s hX hr
  obtain ⟨N', hN'⟩ := C49_comes_to_rest s' hX' hr'
  have o := run_ok72 hX hr
  have o' := run_ok72 hX' hr'
  have r := fair_rest72 hs (fun n i => (o n i).1) hr hN
  have r' := fair_rest72 hs' (fun n i => (o' n i).1) hr' hN'
  have key : ∀ {s : ℕ → Step ι} {X : ℕ → ι → Itv} {S : ι → Set ℝ}, Fair P s → (∀ n i, (X n i).Ok φ) →
      (∀ n, (s n).run φ (X n) = some (X (n + 1))) → RestSet φ P S → (∀ i, S i ⊆ (X 0 i).set) → ∀ n i, S i ⊆ (X n i).set := by
    intro s X S hf ho hr hS h0 n
    induction n with
    | zero => exact h0
    | succ n ih => exact rest_step72 hP hS (hf.1 n) (ho n) ih (hr n)
  have a := key hs (fun n i => (o n i).1) hr r' (fun i => by rw [← h0]; exact (o' N' i).2)
  have b := key hs' (fun n i => (o' n i).1) hr' r (fun i => by rw [h0]; exact (o N i).2)
  refine ⟨max N N', fun n hn m hm i => ?_⟩
  rw [hN n (le_trans (le_max_left _ _) hn) i, hN' m (le_trans (le_max_right _ _) hm) i]
  exact Set.Subset.antisymm (a N i) (b N' i)

/-- The unknowns of the counterexample: `c = [1/2, 1]`, `x = [3, 14]`, `y = [7, 7]`. -/
def ex72 : Fin 3 → Itv := ![⟨.fin (1 / 2), .fin 1⟩, ⟨.fin 3, .fin 14⟩, ⟨.fin 7, .fin 7⟩]

/-- **The full statement is false** of every type: with `x = sin_rev(c, x)` and `x = intersection(x, y)` the order decides whether
the solution `7` is kept, as `sin_rev` is not isotone. -/
theorem C72_false (φ : Fmt) : ¬ C72_full φ (Fin 3) := by
  intro H
  obtain ⟨hc, hx, -, ht, hn⟩ := sin_rev_witness φ
  have r7 : φ.Rep 7 := by simpa using φ.rep_small (k := 7) (by norm_num)
  have n7 : Itv.NE φ ⟨.fin 7, .fin 7⟩ := ne_fin r7 r7 le_rfl
  have e7 : Itv.set ⟨.fin 7, .fin 7⟩ = {(7:ℝ)} := by rw [set_fin]; simp
  have ok : ∀ i, (ex72 i).Ok φ := by
    intro i
    fin_cases i
    · exact hc
    · exact hx
    · exact n7.ok
  let s1 : Step (Fin 3) := .rev .sin 0 1
  let s2 : Step (Fin 3) := .meet 1 (.var 2)
  let P : Set (Step (Fin 3)) := {s1, s2}
  have hs : ∀ s ∈ P, s = s1 ∨ s = s2 := fun s h => h
  -- `y` first
  let A : Itv := (ex72 1).inter (ex72 2)
  have hA : A = ⟨.fin 7, .fin 7⟩ := by decide +kernel
  have oA : A.Ok φ := by rw [hA]; exact n7.ok
  have eA : A.set = {7} := by rw [hA, e7]
  have hpi := Real.pi_lt_d4
  have hpi' := Real.pi_gt_d4
  -- `sin_rev` first
  obtain ⟨B, hBe⟩ : ∃ B : Itv, B = (ex72 0).sinRev φ (ex72 1) := ⟨_, rfl⟩
  have run1 : ∀ X : Fin 3 → Itv, s1.run φ X = some (assign X 1 ((X 0).sinRev φ (X 1))) := fun _ => rfl
  have run2 : ∀ X : Fin 3 → Itv, s2.run φ X = some (assign X 1 ((X 1).inter (X 2))) := fun _ => rfl
  have same : ∀ (X : Fin 3 → Itv) v, assign X 1 v 1 = v := fun _ _ => if_pos rfl
  have other : ∀ (X : Fin 3 → Itv) v {i}, i ≠ 1 → assign X 1 v i = X i := fun _ _ _ h => if_neg h
  have oB : B.Ok φ := by
    have := (step_valid s1 ok (run1 ex72) 1).1
    rwa [same, ← hBe] at this
  have hB : (7:ℝ) ∉ B.set := by rw [hBe]; exact hn
  obtain ⟨oC, eC⟩ : (B.inter (ex72 2)).Ok φ ∧ (B.inter (ex72 2)).set = ∅ := by
    obtain ⟨h1, h2⟩ := Itv.inter_ok_set oB (ok 2)
    refine ⟨h1, h2.trans ?_⟩
    show B.set ∩ (Itv.mk (.fin 7) (.fin 7)).set = ∅
    rw [e7, Set.inter_singleton_eq_empty]
    exact hB
  have keep : ∀ (Y : Fin 3 → Itv), (∀ i, (Y i).Ok φ) → Y 0 = ex72 0 → Y 2 = ex72 2 →
      Y 1 = ⟨.fin 7, .fin 7⟩ ∨ (Y 1).set = ∅ → AtRest φ P Y := by
    intro Y hY h0 h2 h1'
    have h1 : (Y 1).set = {7} ∨ (Y 1).set = ∅ := h1'.imp (fun h => by rw [h, e7]) id
    rintro s hs'
    rcases hs s hs' with rfl | rfl
    · refine ⟨_, run1 Y, fun i => ?_⟩
      have v := step_valid s1 hY (run1 Y) i
      by_cases hi : i = 1
      · subst hi
        rw [same] at v ⊢
        refine Set.Subset.antisymm v.2 ?_
        rcases h1' with h1' | h1
        · have h1 : (Y 1).set = {7} := by rw [h1', e7]
          rw [h1, Set.singleton_subset_iff]
          have hsm : (Y 1).SmallBounds φ := by
            intro q hq
            have : q = 7 := by
              rw [h1'] at hq
              rcases hq with h | h <;> (injection h with h; exact h.symm)
            subst this
            have hmod : (256:ℚ) ≤ 2 ^ φ.p := by
              calc (256:ℚ) = 2 ^ 8 := by norm_num
                _ ≤ _ := pow_le_pow_right₀ (by norm_num) φ.p_pos
            rw [abs_of_pos (by norm_num)]; exact ⟨by linarith, by norm_num⟩
          refine (C31_half_period_partial (hY 0) (hY 1) hsm 2 ?_).1 ⟨by rw [h1]; rfl, ?_⟩
          · rw [h1, Set.singleton_subset_iff]
            push_cast
            constructor <;> linarith
          · rw [h0]; exact ht.2
        · rw [h1]; exact Set.empty_subset _
      · rw [other _ _ hi]
    · refine ⟨_, run2 Y, fun i => ?_⟩
      by_cases hi : i = 1
      · subst hi
        rw [same, (Itv.inter_ok_set (hY 1) (hY 2)).2, h2]
        show (Y 1).set ∩ (Itv.mk (.fin 7) (.fin 7)).set = _
        rw [e7]
        rcases h1 with h1 | h1 <;> rw [h1] <;> simp
      · rw [other _ _ hi]
  have upd : ∀ {Y : Fin 3 → Itv} {v : Itv}, (∀ i, (Y i).Ok φ) → v.Ok φ → ∀ i, (assign Y 1 v i).Ok φ := by
    intro Y v hY hv i
    unfold assign
    split_ifs
    · exact hv
    · exact hY i
  have g1 : runSteps φ ex72 [s1, s2] = some (assign (assign ex72 1 B) 1 (B.inter (ex72 2))) := by
    simp only [runSteps, run1, run2, Option.bind_some, same, other _ _ (show (2 : Fin 3) ≠ 1 by decide), ← hBe]
  have g2 : runSteps φ ex72 [s2] = some (assign ex72 1 A) := rfl
  have := (H P ex72 ok [s1, s2] (by simp [P]) _ g1 (keep _ (upd (upd ok oB) oC) (by rw [other _ _ (by decide), other _ _ (by decide)])
    (by rw [other _ _ (by decide), other _ _ (by decide)]) (Or.inr (by rw [same]; exact eC)))).1 [s2]
    (by simp [P]) _ g2 (keep _ (upd ok oA) (other _ _ (by decide)) (other _ _ (by decide)) (Or.inl (by rw [same]; exact hA))) 1
  rw [same, same, eC, eA] at this
  exact (Set.singleton_ne_empty _) this

/-- Non-vacuity: `y = x + 1` with `x = [0, 10]`, `y = [2, 20]`, narrowed in both orders. -/
def ex72b : Fin 3 → Itv := ![⟨.fin 0, .fin 10⟩, ⟨.fin 2, .fin 20⟩, ⟨.fin 1, .fin 1⟩]

def ex72x : Step (Fin 3) := .meet 0 (.bin .sub (.var 1) (.var 2))
def ex72y : Step (Fin 3) := .meet 1 (.bin .add (.var 0) (.var 2))

example : (∀ s ∈ ({ex72x, ex72y} : Set (Step (Fin 3))), s.Orderly binary64) ∧ (∀ i, (ex72b i).Ok binary64) ∧
    (∃ Y, runSteps binary64 ex72b [ex72x, ex72y] = some Y ∧ AtRest binary64 {ex72x, ex72y} Y ∧ (Y 0).set = Set.Icc 1 10) ∧
    ∃ Y, runSteps binary64 ex72b [ex72y, ex72x] = some Y ∧ AtRest binary64 {ex72x, ex72y} Y := by
  have rx : ∀ X : Fin 3 → Itv, ex72x.run binary64 X = some (assign X 0 ((X 0).inter (binary64.subI (X 1) (X 2)))) := fun _ => rfl
  have ry : ∀ X : Fin 3 → Itv, ex72y.run binary64 X = some (assign X 1 ((X 1).inter (binary64.addI (X 0) (X 2)))) := fun _ => rfl
  have ax : ∀ a b c v : Itv, assign ![a, b, c] (0 : Fin 3) v = ![v, b, c] := fun a b c v => by
    funext i; fin_cases i <;> rfl
  have ay : ∀ a b c v : Itv, assign ![a, b, c] (1 : Fin 3) v = ![a, v, c] := fun a b c v => by
    funext i; fin_cases i <;> rfl
  have x1 : (Itv.mk (.fin 0) (.fin 10)).inter (binary64.subI ⟨.fin 2, .fin 20⟩ ⟨.fin 1, .fin 1⟩) = ⟨.fin 1, .fin 10⟩ := by decide +kernel
  have x2 : (Itv.mk (.fin 0) (.fin 10)).inter (binary64.subI ⟨.fin 2, .fin 11⟩ ⟨.fin 1, .fin 1⟩) = ⟨.fin 1, .fin 10⟩ := by decide +kernel
  have x3 : (Itv.mk (.fin 1) (.fin 10)).inter (binary64.subI ⟨.fin 2, .fin 11⟩ ⟨.fin 1, .fin 1⟩) = ⟨.fin 1, .fin 10⟩ := by decide +kernel
  have y1 : (Itv.mk (.fin 2) (.fin 20)).inter (binary64.addI ⟨.fin 1, .fin 10⟩ ⟨.fin 1, .fin 1⟩) = ⟨.fin 2, .fin 11⟩ := by decide +kernel
  have y2 : (Itv.mk (.fin 2) (.fin 20)).inter (binary64.addI ⟨.fin 0, .fin 10⟩ ⟨.fin 1, .fin 1⟩) = ⟨.fin 2, .fin 11⟩ := by decide +kernel
  have y3 : (Itv.mk (.fin 2) (.fin 11)).inter (binary64.addI ⟨.fin 1, .fin 10⟩ ⟨.fin 1, .fin 1⟩) = ⟨.fin 2, .fin 11⟩ := by decide +kernel
  have e1 : runSteps binary64 ex72b [ex72x, ex72y] = some ![⟨.fin 1, .fin 10⟩, ⟨.fin 2, .fin 11⟩, ⟨.fin 1, .fin 1⟩] := by
    simp [runSteps, rx, ry, ex72b, ax, ay, x1, y1]
  have e2 : runSteps binary64 ex72b [ex72y, ex72x] = some ![⟨.fin 1, .fin 10⟩, ⟨.fin 2, .fin 11⟩, ⟨.fin 1, .fin 1⟩] := by
    simp [runSteps, rx, ry, ex72b, ax, ay, x2, y2]
  have r : AtRest binary64 {ex72x, ex72y} ![⟨.fin 1, .fin 10⟩, ⟨.fin 2, .fin 11⟩, ⟨.fin 1, .fin 1⟩] := by
    rintro s (rfl | rfl)
    · exact ⟨_, rx _, fun i => by simp [ax, x3]⟩
    · exact ⟨_, ry _, fun i => by simp [ay, y3]⟩
  refine ⟨?_, ?_, ⟨_, e1, r, ?_⟩, _, e2, r⟩
  · rintro s (rfl | rfl) <;> exact Or.inl ⟨trivial, trivial⟩
  · intro i
    fin_cases i <;> exact Itv.ok_of_okb (by decide +kernel)
  · show (Itv.mk (.fin 1) (.fin 10)).set = _
    rw [set_fin]; norm_num

end P1788
