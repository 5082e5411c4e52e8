import Verif.Model.Solver
import Verif.Props.C74
import Verif.Props.C63

/-!
# C75: all solutions of a system of equations by branch and prune

Whatever the order of the steps: no solution is lost, and the boxes in the list `sure` contain one solution each.
-/

namespace P1788
open Set
variable {φ : Fmt} {n : ℕ} {κ : Type} {piv : ∀ n, (Fin (n + 1) → Itv) → Fin (n + 1)} {e : Fin n → Expr (Fin n ⊕ κ)}
  {J : Fin n → Fin n → Expr (Fin n ⊕ κ)} {X : Fin n ⊕ κ → Itv} {S S' : SolveState n κ} {c : κ → ℝ}

/-- The solutions in a box of the equations with parameters `c`: the points at which all formulas are defined and zero. -/
def Roots (e : Fin n → Expr (Fin n ⊕ κ)) (X : Fin n ⊕ κ → Itv) (c : κ → ℝ) : Set (Fin n → ℝ) :=
  {u | (∀ i, u i ∈ (X (.inl i)).set) ∧ ∀ i, Sum.elim u c ∈ (e i).dom ∧ (e i).val (Sum.elim u c) = 0}

/-- The parameters lie in the box, and the formulas `J` are the partial derivatives on the box of the formulas `e`. -/
structure Posed (e : Fin n → Expr (Fin n ⊕ κ)) (J : Fin n → Fin n → Expr (Fin n ⊕ κ)) (X : Fin n ⊕ κ → Itv) (c : κ → ℝ) : Prop where
  params : ∀ k, c k ∈ (X (.inr k)).set
  jac : IsJacobian e J (fun j => (X j).newDec) c

/-- All boxes of the state. -/
def SolveState.all (S : SolveState n κ) : List (Fin n ⊕ κ → Itv) := S.todo ++ S.sure ++ S.doubt

/-- What holds of a state of a search on the box `X`. -/
structure SolveSound (e : Fin n → Expr (Fin n ⊕ κ)) (X : Fin n ⊕ κ → Itv) (S : SolveState n κ) (c : κ → ℝ) : Prop where
  /-- the boxes are parts of `X` -/
  inside : ∀ Y ∈ S.all, ∀ j, (Y j).set ⊆ (X j).set
  /-- no solution is lost -/
  kept : ∀ u ∈ Roots e X c, ∃ Y ∈ S.all, ∀ i, u i ∈ (Y (.inl i)).set
  /-- one solution in every box of the list -/
  unique : ∀ Y ∈ S.sure, ∃! u, u ∈ Roots e Y c

/-- The full statement. -/
def C75_full (φ : Fmt) : Prop :=
  ∀ (n : ℕ) (κ : Type) (piv : ∀ n, (Fin (n + 1) → Itv) → Fin (n + 1)) (e : Fin n → Expr (Fin n ⊕ κ))
    (J : Fin n → Fin n → Expr (Fin n ⊕ κ)) (X : Fin n ⊕ κ → Itv) (S : SolveState n κ),
    (∀ j, (X j).Ok φ) → SolveRun φ piv e J ⟨[X], [], []⟩ S →
    (∀ Y ∈ S.all, ∀ j, (Y j).Ok φ) ∧ ∀ c, Posed e J X c → SolveSound e X S c

/-! ### The invariant -/

structure Inv75 (φ : Fmt) (e : Fin n → Expr (Fin n ⊕ κ)) (J : Fin n → Fin n → Expr (Fin n ⊕ κ)) (X : Fin n ⊕ κ → Itv)
    (S : SolveState n κ) : Prop where
  ok : ∀ Y ∈ S.all, ∀ j, (Y j).Ok φ
  inside : ∀ Y ∈ S.all, ∀ j, (Y j).set ⊆ (X j).set
  par : ∀ Y ∈ S.all, ∀ k, Y (.inr k) = X (.inr k)
  kept : ∀ c, Posed e J X c → ∀ u ∈ Roots e X c, ∃ Y ∈ S.all, ∀ i, u i ∈ (Y (.inl i)).set
  unique : ∀ c, Posed e J X c → ∀ Y ∈ S.sure, ∃! u, u ∈ Roots e Y c

theorem Posed.sub {Z : Fin n ⊕ κ → Itv} (h : Posed e J X c) (hs : ∀ j, (Z j).set ⊆ (X j).set) (hp : ∀ k, Z (.inr k) = X (.inr k)) :
    Posed e J Z c := by
  have hu : unknowns (fun j => (Z j).newDec) ⊆ unknowns (fun j => (X j).newDec) := by
    intro u hu i
    have := hu i
    simp only [DItv.set, newDec_itv] at this ⊢
    exact hs _ this
  exact ⟨fun k => by rw [hp]; exact h.params k, fun u hu' i hd => (h.jac u (hu hu') i hd).mono hu⟩

theorem Roots.of_sub {Z : Fin n ⊕ κ → Itv} {u : Fin n → ℝ} (h : u ∈ Roots e X c) (hz : ∀ i, u i ∈ (Z (.inl i)).set) : u ∈ Roots e Z c :=
  ⟨hz, h.2⟩

/-- A box is replaced by others. -/
theorem Inv75.replace {l₁ l₂ s d L Ls Ld : List (Fin n ⊕ κ → Itv)} {Z : Fin n ⊕ κ → Itv}
    (hI : Inv75 φ e J X ⟨l₁ ++ Z :: l₂, s, d⟩)
    (h1 : ∀ Y ∈ L ++ Ls ++ Ld, (∀ j, (Y j).Ok φ) ∧ (∀ j, (Y j).set ⊆ (Z j).set) ∧ ∀ k, Y (.inr k) = Z (.inr k))
    (h2 : ∀ c, Posed e J Z c → ∀ u ∈ Roots e Z c, ∃ Y ∈ L ++ Ls ++ Ld, ∀ i, u i ∈ (Y (.inl i)).set)
    (h3 : ∀ c, Posed e J Z c → ∀ Y ∈ Ls, ∃! u, u ∈ Roots e Y c) :
    Inv75 φ e J X ⟨l₁ ++ L ++ l₂, Ls ++ s, Ld ++ d⟩ := by
  have hZ : Z ∈ SolveState.all ⟨l₁ ++ Z :: l₂, s, d⟩ := by simp [SolveState.all]
  have hP : ∀ c, Posed e J X c → Posed e J Z c := fun c h => h.sub (hI.inside Z hZ) (hI.par Z hZ)
  have cs : ∀ Y, Y ∈ SolveState.all ⟨l₁ ++ L ++ l₂, Ls ++ s, Ld ++ d⟩ →
      Y ∈ L ++ Ls ++ Ld ∨ Y ∈ SolveState.all ⟨l₁ ++ Z :: l₂, s, d⟩ := by
    intro Y hY
    simp only [SolveState.all, List.mem_append, List.mem_cons] at hY ⊢
    tauto
  refine ⟨fun Y hY => ?_, fun Y hY => ?_, fun Y hY => ?_, fun c hc u hu => ?_, fun c hc Y hY => ?_⟩
  · rcases cs Y hY with h | h
    · exact (h1 Y h).1
    · exact hI.ok Y h
  · rcases cs Y hY with h | h
    · exact fun j => ((h1 Y h).2.1 j).trans (hI.inside Z hZ j)
    · exact hI.inside Y h
  · rcases cs Y hY with h | h
    · exact fun k => ((h1 Y h).2.2 k).trans (hI.par Z hZ k)
    · exact hI.par Y h
  · obtain ⟨Y, hY, hm⟩ := hI.kept c hc u hu
    by_cases hYZ : Y = Z
    · subst hYZ
      obtain ⟨W, hW, hm'⟩ := h2 c (hP c hc) u (Roots.of_sub hu hm)
      refine ⟨W, ?_, hm'⟩
      simp only [SolveState.all, List.mem_append] at hW ⊢
      tauto
    · refine ⟨Y, ?_, hm⟩
      simp only [SolveState.all, List.mem_append, List.mem_cons] at hY ⊢
      tauto
  · rcases List.mem_append.mp hY with h | h
    · exact h3 c (hP c hc) Y h
    · exact hI.unique c hc Y h

theorem newton75 {Z : Fin n ⊕ κ → Itv} {m : Fin n → FP} {N : Fin n → Itv} (ht : ∀ i, (e i).TanSafeIn φ Z)
    (ht' : ∀ i j, (J i j).TanSafeIn φ Z) (hZ : ∀ j, (Z j).Ok φ) (hm : ∀ i, (m i).In φ)
    (h : newtonSys φ piv e J (fun j => (Z j).newDec) m = some N) :
    (∀ i, (N i).Ok φ) ∧ ∀ c, Posed e J Z c → NewtonSysRight e (fun j => (Z j).newDec) m N c := by
  have hs : (fun j => ((Z j).newDec).itv) = Z := funext fun j => newDec_itv _
  have := C74_newton_safe_partial (e := e) (J := J) (B := fun j => (Z j).newDec) (by rw [hs]; exact ht)
    (by rw [hs]; exact fun i j => (ht' i j).self hZ) (fun j => newDec_ok63 (hZ j)) hm h
  exact ⟨this.1, fun c hc => this.2 c (fun k => by simp only [DItv.set, newDec_itv]; exact hc.params k) hc.jac⟩

theorem unknowns75 {Z : Fin n ⊕ κ → Itv} {u : Fin n → ℝ} : u ∈ unknowns (fun j => (Z j).newDec) ↔ ∀ i, u i ∈ (Z (.inl i)).set := by
  simp [unknowns, DItv.set, newDec_itv]

theorem Inv75.step (ht : ∀ i, (e i).TanSafeIn φ X) (ht' : ∀ i j, (J i j).TanSafeIn φ X) (hI : Inv75 φ e J X S)
    (h : SolveStep φ piv e J S S') : Inv75 φ e J X S' := by
  cases h with
  | @dropEmpty l₁ l₂ s d Z i h =>
    have hZ := hI.ok Z (by simp [SolveState.all])
    simpa using hI.replace (L := []) (Ls := []) (Ld := []) (by simp) (fun c _ u hu => by
      have := hu.1 i
      rw [(C22_is_empty (hZ _)).mp h] at this
      exact this.elim) (by simp)
  | @drop l₁ l₂ s d Z i h =>
    have hm : Z ∈ SolveState.all ⟨l₁ ++ Z :: l₂, s, d⟩ := by simp [SolveState.all]
    have hZ := hI.ok Z hm
    simpa using hI.replace (L := []) (Ls := []) (Ld := []) (by simp) (fun c hc u hu => by
      exfalso
      obtain ⟨k1, k2⟩ := C18_ftia_safe_partial (e i) Z hZ (((ht i).mono (hI.inside Z hm)).self hZ)
      have hv := k2 (Sum.elim u c) (by
        rintro (j | k)
        · exact hu.1 j
        · exact hc.params k) (hu.2 i).1
      rw [(hu.2 i).2] at hv
      have := (C24_is_member k1 (.fin 0)).mpr ⟨0, Or.inr ⟨0, rfl, by simp⟩, hv⟩
      rw [this] at h
      exact Bool.noConfusion h) (by simp)
  | @split l₁ l₂ s d Z i a b ha hb =>
    have hm : Z ∈ SolveState.all ⟨l₁ ++ Z :: l₂, s, d⟩ := by simp [SolveState.all]
    have hZ := hI.ok Z hm
    have hN : (Z (.inl i)).NE φ := by
      rcases (hZ (.inl i)).cases with h | h
      · rw [h] at ha
        have : mkI Itv.empty.inf (Itv.mid φ Itv.empty) = .error .signalled := rfl
        rw [this] at ha
        cases ha
      · exact h
    obtain ⟨q, -, -, -, ⟨a', ha', hane, has⟩, ⟨b', hb', hbne, hbs⟩, -⟩ := halves hN
    obtain rfl : a' = a := by simpa [ha'] using ha
    obtain rfl : b' = b := by simpa [hb'] using hb
    have upd : ∀ (v : Itv) (P : Fin n ⊕ κ → Itv → Prop), P (.inl i) v → (∀ j, P j (Z j)) →
        ∀ j, P j (withUnknowns Z (Function.update (fun j => Z (.inl j)) i v) j) := by
      intro v P h1 h2 j
      rcases j with j | k
      · by_cases hj : j = i
        · subst hj; simpa [withUnknowns] using h1
        · simpa [withUnknowns, Function.update_of_ne hj] using h2 (.inl j)
      · exact h2 (.inr k)
    have one : ∀ v : Itv, v.Ok φ → v.set ⊆ (Z (.inl i)).set → (∀ j, (withUnknowns Z (Function.update (fun j => Z (.inl j)) i v) j).Ok φ) ∧
        (∀ j, (withUnknowns Z (Function.update (fun j => Z (.inl j)) i v) j).set ⊆ (Z j).set) ∧
        ∀ k, withUnknowns Z (Function.update (fun j => Z (.inl j)) i v) (.inr k) = Z (.inr k) := fun v h1 h2 =>
      ⟨upd v (fun _ v => v.Ok φ) h1 hZ, upd v (fun j v => v.set ⊆ (Z j).set) h2 fun _ => subset_rfl, fun _ => rfl⟩
    simpa using hI.replace (L := [_, _]) (Ls := []) (Ld := []) (by
        intro Y hY
        rcases (by simpa using hY : Y = _ ∨ Y = _) with rfl | rfl
        · exact one a' hane.ok (by rw [has]; exact inter_subset_left)
        · exact one b' hbne.ok (by rw [hbs]; exact inter_subset_left)) (fun c _ u hu => by
      have upd' : ∀ v : Itv, u i ∈ v.set → ∀ j, u j ∈ (withUnknowns Z (Function.update (fun j => Z (.inl j)) i v) (.inl j)).set := by
        intro v h1 j
        by_cases hj : j = i
        · subst hj; simpa [withUnknowns] using h1
        · simpa [withUnknowns, Function.update_of_ne hj] using hu.1 j
      rcases le_total (u i) q with hq | hq
      · exact ⟨_, by simp, upd' a' (by rw [has]; exact ⟨hu.1 i, hq⟩)⟩
      · exact ⟨withUnknowns Z (Function.update (fun j => Z (.inl j)) i b'), by simp, upd' b' (by rw [hbs]; exact ⟨hu.1 i, hq⟩)⟩) (by simp)
  | @narrow l₁ l₂ s d Z N m hm' h =>
    have hm : Z ∈ SolveState.all ⟨l₁ ++ Z :: l₂, s, d⟩ := by simp [SolveState.all]
    have hZ := hI.ok Z hm
    obtain ⟨k1, k2⟩ := newton75 (fun i => (ht i).mono (hI.inside Z hm)) (fun i j => (ht' i j).mono (hI.inside Z hm)) hZ hm' h
    simpa using hI.replace (L := [withUnknowns Z fun i => (Z (.inl i)).inter (N i)]) (Ls := []) (Ld := []) (by
        intro Y hY
        obtain rfl : Y = _ := by simpa using hY
        refine ⟨?_, ?_, fun _ => rfl⟩
        · rintro (j | k)
          · exact (C25_intersection (hZ _) (k1 j)).1
          · exact hZ _
        · rintro (j | k)
          · show ((Z (.inl j)).inter (N j)).set ⊆ _
            rw [(C25_intersection (hZ _) (k1 j)).2]
            exact inter_subset_left
          · exact subset_rfl) (fun c hc u hu => by
      refine ⟨withUnknowns Z fun i => (Z (.inl i)).inter (N i), by simp, fun i => ?_⟩
      show u i ∈ ((Z (.inl i)).inter (N i)).set
      rw [(C25_intersection (hZ _) (k1 i)).2]
      exact ⟨hu.1 i, ((k2 c hc).2.1 u (unknowns75.mpr hu.1) fun i => (hu.2 i).2).1 i⟩) (by simp)
  | @accept l₁ l₂ s d Z N m hm' h hT =>
    have hm : Z ∈ SolveState.all ⟨l₁ ++ Z :: l₂, s, d⟩ := by simp [SolveState.all]
    have hZ := hI.ok Z hm
    obtain ⟨-, k2⟩ := newton75 (fun i => (ht i).mono (hI.inside Z hm)) (fun i j => (ht' i j).mono (hI.inside Z hm)) hZ hm' h
    simpa using hI.replace (L := []) (Ls := [Z]) (Ld := []) (by simpa using ⟨fun _ => hZ _, fun _ => hZ _⟩)
      (fun c _ u hu => ⟨Z, by simp, hu.1⟩) (fun c hc Y hY => by
        obtain rfl : Y = Z := by simpa using hY
        obtain ⟨u, ⟨h1, h2⟩, h3⟩ := (k2 c hc).2.2 hT
        exact ⟨u, ⟨unknowns75.mp h1, fun i => ⟨(k2 c hc).1 u h1 i, h2 i⟩⟩, fun v hv => h3 v ⟨unknowns75.mpr hv.1, fun i => (hv.2 i).2⟩⟩)
  | @giveUp l₁ l₂ s d Z =>
    have hm : Z ∈ SolveState.all ⟨l₁ ++ Z :: l₂, s, d⟩ := by simp [SolveState.all]
    have hZ := hI.ok Z hm
    simpa using hI.replace (L := []) (Ls := []) (Ld := [Z]) (by simpa using ⟨fun _ => hZ _, fun _ => hZ _⟩)
      (fun c _ u hu => ⟨Z, by simp, hu.1⟩) (by simp)

/-- **Branch and prune loses no solution, and finds exactly one in every box of the list `sure`** (full statement `C75_full`: without `ht`
and `ht'`; false for `double` and the tangent, `C75_false`), after any number of steps in any order.  `ht`, `ht'`: in the evaluations on
parts of `X` the tangent meets no bad interval (C11). -/
theorem C75_solver_safe_partial (ht : ∀ i, (e i).TanSafeIn φ X) (ht' : ∀ i j, (J i j).TanSafeIn φ X) (hX : ∀ j, (X j).Ok φ)
    (h : SolveRun φ piv e J ⟨[X], [], []⟩ S) :
    (∀ Y ∈ S.all, ∀ j, (Y j).Ok φ) ∧ ∀ c, Posed e J X c → SolveSound e X S c := by
  have hI : Inv75 φ e J X S := by
    induction h with
    | refl =>
      exact ⟨by simpa [SolveState.all] using ⟨fun _ => hX _, fun _ => hX _⟩, by simp [SolveState.all], by simp [SolveState.all],
        fun c _ u hu => ⟨X, by simp [SolveState.all], hu.1⟩, by simp⟩
    | tail _ h ih => exact ih.step ht ht' h
  exact ⟨hI.ok, fun c hc => ⟨hI.inside, hI.kept c hc, hI.unique c hc⟩⟩

theorem C75_solver_partial (ht : NoCritical φ ∨ ∀ i, (e i).TanFree ∧ ∀ j, (J i j).TanFree) (hX : ∀ j, (X j).Ok φ)
    (h : SolveRun φ piv e J ⟨[X], [], []⟩ S) :
    (∀ Y ∈ S.all, ∀ j, (Y j).Ok φ) ∧ ∀ c, Posed e J X c → SolveSound e X S c :=
  C75_solver_safe_partial (fun i => (e i).tanSafeIn (ht.imp_right fun h => (h i).1) _)
    (fun i j => (J i j).tanSafeIn (ht.imp_right fun h => (h i).2 j) _) hX h

theorem C75_binary32 : C75_full binary32 := fun _ _ _ _ _ _ _ hX h => C75_solver_partial (Or.inl noCritical_binary32) hX h

theorem C75_x87ext : C75_full x87ext := fun _ _ _ _ _ _ _ hX h => C75_solver_partial (Or.inl noCritical_x87ext) hX h

/-- If no box is left to be examined or given up, there are at most as many solutions as boxes in the list `sure`; and exactly as many if the
library's `disjoint` tells any two of them apart. -/
theorem C75_count (hS : SolveSound e X S c) (ok : ∀ Y ∈ S.all, ∀ j, (Y j).Ok φ) (h1 : S.todo = []) (h2 : S.doubt = []) :
    (Roots e X c).Finite ∧ (Roots e X c).ncard ≤ S.sure.length ∧
    (S.sure.Pairwise (fun Y Z => ∃ i : Fin n, (Y (.inl i)).disjoint (Z (.inl i)) = true) → (Roots e X c).ncard = S.sure.length) := by
  have hall : S.all = S.sure := by simp [SolveState.all, h1, h2]
  have hin := hS.inside
  have hk := hS.kept
  rw [hall] at hin hk ok
  choose f hf hf' using fun a : Fin S.sure.length => hS.unique _ (List.getElem_mem a.2)
  have hr : Roots e X c = f '' univ := by
    ext u
    constructor
    · intro hu
      obtain ⟨Y, hY, hm⟩ := hk u hu
      obtain ⟨a, ha, rfl⟩ := List.getElem_of_mem hY
      exact ⟨⟨a, ha⟩, trivial, (hf' ⟨a, ha⟩ u ⟨hm, hu.2⟩).symm⟩
    · rintro ⟨a, -, rfl⟩
      exact ⟨fun i => hin _ (List.getElem_mem a.2) _ ((hf a).1 i), (hf a).2⟩
  refine ⟨by rw [hr]; exact finite_univ.image _, ?_, fun hp => ?_⟩
  · rw [hr]
    refine (ncard_image_le finite_univ).trans ?_
    rw [ncard_univ, Nat.card_fin]
  · have hinj : Function.Injective f := by
      have key : ∀ a b : Fin S.sure.length, a < b → f a ≠ f b := by
        intro a b hab he
        obtain ⟨i, hi⟩ := List.pairwise_iff_getElem.mp hp a b a.2 b.2 hab
        have := (C22_disjoint (ok _ (List.getElem_mem a.2) _) (ok _ (List.getElem_mem b.2) _)).mp hi
        have h3 := (hf a).1 i
        have h4 := (hf b).1 i
        rw [← he] at h4
        exact eq_empty_iff_forall_notMem.mp this _ ⟨h3, h4⟩
      intro a b he
      rcases lt_trichotomy a b with h | h | h
      · exact absurd he (key a b h)
      · exact h
      · exact absurd he.symm (key b a h)
    rw [hr, ncard_image_of_injective _ hinj, ncard_univ, Nat.card_fin]

/-- If no box is left at all, there is no solution. -/
theorem C75_none (hS : SolveSound e X S c) (h : S.all = []) : Roots e X c = ∅ := by
  refine eq_empty_iff_forall_notMem.mpr fun u hu => ?_
  obtain ⟨Y, hY, -⟩ := hS.kept u hu
  rw [h] at hY
  exact absurd hY (by simp)

/-! ### False of `double` with the tangent -/

/-- The equation `tan x = 0`. -/
def tanEq75 : Fin 1 → Expr (Fin 1 ⊕ Empty) := fun _ => .un .tan (.var (.inl 0))

/-- The derivative `1 / cos² x`. -/
def tanJac75 : Fin 1 → Fin 1 → Expr (Fin 1 ⊕ Empty) := fun _ _ => .un .recip (.un .sqr (.un .cos (.var (.inl 0))))

/-- The box around `π` in which the tangent is said to have no zero (`C60_no_zero_false`) is thrown away. -/
theorem C75_false : ¬ C75_full binary64 := by
  intro hf
  obtain ⟨b, hx, ha, hb, hbv, ht1, hw, hr⟩ := tan_witness_branch
  obtain ⟨-, -, h3, n1, i1, e1, n2, i2, e2⟩ := tanI_fin hx ha hb
  have hT := h3 hw hr
  have hok : (binary64.tanI tanWitness).Ok binary64 := Op1.bare_ok .tan tanWitness_ok
  have hd : SolveStep binary64 (fun n _ => Fin.last n) tanEq75 tanJac75 ⟨[] ++ (fun _ => tanWitness) :: [], [], []⟩ ⟨[] ++ [], [], []⟩ := by
    refine .drop 0 ?_
    show Itv.isMember (.fin 0) (binary64.tanI tanWitness) = false
    rw [← Bool.not_eq_true, C24_is_member hok]
    rintro ⟨r, hv, hm⟩
    rcases hv with ⟨h, -⟩ | ⟨q, h, rfl⟩
    · exact absurd h (by simp)
    obtain rfl : q = 0 := by simpa using h.symm
    rw [hT] at hm
    have := (Itv.mem_set.mp hm).1.2
    rw [show (Itv.mk (binary64.tanF .D tanWitness.lo) (binary64.tanF .U tanWitness.hi)).lo = binary64.tanF .D tanWitness.lo from rfl, e1] at this
    have h1le := (binary64.le_rdE_iff (f := .fin 1) (rep_one _) (Real.tan (7 / 8)) (by simp)).mpr (by
      rw [toE_one]; exact_mod_cast ht1.le)
    have := h1le.trans this
    rw [toE_one, Rat.cast_zero] at this
    exact absurd (by exact_mod_cast this : (1:ℝ) ≤ 0) (by norm_num)
  obtain ⟨-, h⟩ := hf 1 Empty _ tanEq75 tanJac75 (fun _ => tanWitness) ⟨[], [], []⟩ (fun _ => tanWitness_ok) (.single hd)
  have hn := C75_none (h (fun k => k.elim) ⟨fun k => k.elim, fun u _ i hj => ?_⟩) rfl
  · refine eq_empty_iff_forall_notMem.mp hn (fun _ => Real.pi) ⟨fun _ => hx.mem.mpr ⟨?_, ?_⟩, fun _ => ⟨?_, ?_⟩⟩
    · rw [ha]; exact_mod_cast (by linarith [Real.pi_gt_three])
    · have p2 := Real.pi_lt_d20
      rw [hb, hbv]; exact_mod_cast (by norm_num at p2 ⊢; linarith)
    · simp [tanEq75, Expr.dom, Op1.dom, Expr.val]
    · simp [tanEq75, Expr.val, Op1.fn]
  · have hc : Real.cos (u 0) ≠ 0 := by
      have := hj 0
      simpa [tanJac75, Expr.dom, Op1.dom, Expr.val, Op1.fn] using this
    have p0 := (ContinuousLinearMap.proj (R := ℝ) (φ := fun _ : Fin 1 => ℝ) 0).hasFDerivAt (x := u)
    refine HasFDerivAt.hasFDerivWithinAt ?_
    have hq : HasDerivAt Real.tan (1 / Real.cos (u 0) ^ 2) ((ContinuousLinearMap.proj (R := ℝ) (φ := fun _ : Fin 1 => ℝ) 0) u) :=
      Real.hasDerivAt_tan hc
    have hq' : HasFDerivAt (fun w : Fin 1 → ℝ => Real.tan (w 0)) _ u := hq.comp_hasFDerivAt u p0
    refine hq'.congr_fderiv ?_
    ext v
    simp [tanJac75, Expr.val, Op1.fn]

/-! ### Two solutions -/

/-- `x² - c`. -/
def sqEq75 : Fin 1 → Expr (Fin 1 ⊕ Unit) := fun _ => .bin .sub (.un .sqr (.var (.inl 0))) (.var (.inr ()))

/-- Its derivative `x + x`. -/
def sqJac75 : Fin 1 → Fin 1 → Expr (Fin 1 ⊕ Unit) := fun _ _ => .bin .add (.var (.inl 0)) (.var (.inl 0))

/-- `x` in an interval, `c` in `[15/16, 17/16]`. -/
def sqBox75 (a b : ℚ) : Fin 1 ⊕ Unit → Itv
  | .inl _ => ⟨.fin a, .fin b⟩
  | .inr _ => ⟨.fin (15 / 16), .fin (17 / 16)⟩

theorem sqBox_with75 (a b a' b' : ℚ) (i : Fin 1) :
    withUnknowns (sqBox75 a b) (Function.update (fun j => sqBox75 a b (.inl j)) i ⟨.fin a', .fin b'⟩) = sqBox75 a' b' := by
  funext j
  rcases j with j | k
  · obtain rfl : j = i := Subsingleton.elim _ _
    simp [withUnknowns, sqBox75]
  · rfl

theorem sqNewton75 {a b m : ℚ}
    (h : ((gauss binary64 (fun n _ => Fin.last n) 1 (fun _ _ => (binary64.addD (Itv.newDec ⟨.fin a, .fin b⟩) (Itv.newDec ⟨.fin a, .fin b⟩)).itv)
        fun _ => binary64.subI (binary64.sqrI ⟨.fin m, .fin m⟩) ⟨.fin (15 / 16), .fin (17 / 16)⟩).map
      fun d => newtonSysTest (fun j => (sqBox75 a b j).newDec) (fun _ => .fin m) fun i => binary64.subI ⟨.fin m, .fin m⟩ (d i)) = some true)
    (h1 : .defd ≤ (binary64.subD (binary64.sqrD (Itv.newDec ⟨.fin a, .fin b⟩)) (Itv.newDec ⟨.fin (15 / 16), .fin (17 / 16)⟩)).dec)
    (h2 : .defd ≤ (binary64.addD (Itv.newDec ⟨.fin a, .fin b⟩) (Itv.newDec ⟨.fin a, .fin b⟩)).dec)
    (h3 : DItv.isMember (.fin m) (Itv.newDec ⟨.fin a, .fin b⟩) = true) :
    ∃ N, newtonSys binary64 (fun n _ => Fin.last n) sqEq75 sqJac75 (fun j => (sqBox75 a b j).newDec) (fun _ => .fin m) = some N ∧
      newtonSysTest (fun j => (sqBox75 a b j).newDec) (fun _ => .fin m) N = true := by
  obtain ⟨d, k1, k2⟩ := Option.map_eq_some_iff.mp h
  refine ⟨_, ?_, k2⟩
  unfold newtonSys
  rw [if_pos ⟨fun _ => h1, fun _ _ => h2, fun _ => h3⟩]
  rw [show (fun i j => ((sqJac75 i j).evalD binary64 fun j => (sqBox75 a b j).newDec).itv) =
    fun _ _ => (binary64.addD (Itv.newDec ⟨.fin a, .fin b⟩) (Itv.newDec ⟨.fin a, .fin b⟩)).itv from rfl]
  rw [show (fun i => (sqEq75 i).eval binary64 (pointBox (fun j => (sqBox75 a b j).newDec) fun _ => .fin m)) =
    fun _ => binary64.subI (binary64.sqrI ⟨.fin m, .fin m⟩) ⟨.fin (15 / 16), .fin (17 / 16)⟩ by
      funext i
      show binary64.subI _ (pointBox (fun j => (sqBox75 a b j).newDec) _ (.inr ())) = _
      simp only [pointBox, Sum.elim_inr, newDec_itv]
      rfl]
  rw [k1]
  rfl

/-- A run: two bisections, one box thrown away, two boxes with a solution. -/
theorem sqRun75 : SolveRun binary64 (fun n _ => Fin.last n) sqEq75 sqJac75 ⟨[sqBox75 (-3 / 2) 3], [], []⟩
    ⟨[], [sqBox75 (3 / 4) 3, sqBox75 (-3 / 2) (-3 / 8)], []⟩ := by
  have i1 : ∀ _ : Fin 1, (FP.fin (-1)).In binary64 := fun _ => FP.in_of_inb (by decide +kernel)
  have i2 : ∀ _ : Fin 1, (FP.fin 1).In binary64 := fun _ => FP.in_of_inb (by decide +kernel)
  have s1 := SolveStep.split (φ := binary64) (piv := fun n _ => Fin.last n) (e := sqEq75) (J := sqJac75) (l₁ := []) (l₂ := []) (s := []) (d := [])
    (X := sqBox75 (-3 / 2) 3) (i := 0) (a := ⟨.fin (-3 / 2), .fin (3 / 4)⟩) (b := ⟨.fin (3 / 4), .fin 3⟩)
    (by simp only [sqBox75]; decide +kernel) (by simp only [sqBox75]; decide +kernel)
  rw [sqBox_with75, sqBox_with75] at s1
  have s2 := SolveStep.split (φ := binary64) (piv := fun n _ => Fin.last n) (e := sqEq75) (J := sqJac75) (l₁ := []) (l₂ := [sqBox75 (3 / 4) 3]) (s := []) (d := [])
    (X := sqBox75 (-3 / 2) (3 / 4)) (i := 0) (a := ⟨.fin (-3 / 2), .fin (-3 / 8)⟩) (b := ⟨.fin (-3 / 8), .fin (3 / 4)⟩)
    (by simp only [sqBox75]; decide +kernel) (by simp only [sqBox75]; decide +kernel)
  rw [sqBox_with75, sqBox_with75] at s2
  have s3 := SolveStep.drop (φ := binary64) (piv := fun n _ => Fin.last n) (e := sqEq75) (J := sqJac75) (l₁ := [sqBox75 (-3 / 2) (-3 / 8)])
    (l₂ := [sqBox75 (3 / 4) 3]) (s := []) (d := []) (X := sqBox75 (-3 / 8) (3 / 4)) 0
    (show Itv.isMember (.fin 0) (binary64.subI (binary64.sqrI ⟨.fin (-3 / 8), .fin (3 / 4)⟩) ⟨.fin (15 / 16), .fin (17 / 16)⟩) = false by decide +kernel)
  obtain ⟨N, hN, hT⟩ := sqNewton75 (a := -3 / 2) (b := -3 / 8) (m := -1) (by decide +kernel) (by decide +kernel) (by decide +kernel) (by decide +kernel)
  have s4 := SolveStep.accept (l₁ := []) (l₂ := [sqBox75 (3 / 4) 3]) (s := []) (d := []) i1 hN hT
  obtain ⟨N', hN', hT'⟩ := sqNewton75 (a := 3 / 4) (b := 3) (m := 1) (by decide +kernel) (by decide +kernel) (by decide +kernel) (by decide +kernel)
  have s5 := SolveStep.accept (l₁ := []) (l₂ := []) (s := [sqBox75 (-3 / 2) (-3 / 8)]) (d := []) i2 hN' hT'
  exact ((((Relation.ReflTransGen.single s1).tail s2).tail s3).tail s4).tail s5

/-- For every `c` in the interval there are exactly two solutions in `[-3/2, 3]`. -/
example : ∀ c ∈ Icc (15 / 16 : ℝ) (17 / 16), {x : ℝ | x ∈ Icc (-3 / 2 : ℝ) 3 ∧ x ^ 2 = c}.ncard = 2 := by
  intro c hc
  have ok : ∀ j, (sqBox75 (-3 / 2) 3 j).Ok binary64 := by
    rintro (_ | _) <;> exact Itv.ok_of_okb (show Itv.okb binary64 ⟨_, _⟩ = true by decide +kernel)
  have hp : Posed sqEq75 sqJac75 (sqBox75 (-3 / 2) 3) fun _ => c := by
    refine ⟨fun _ => ⟨by show ((15 / 16 : ℚ) : ℝ) ≤ c; push_cast; exact hc.1, by show c ≤ ((17 / 16 : ℚ) : ℝ); push_cast; exact hc.2⟩, ?_⟩
    intro u _ i _
    refine HasFDerivAt.hasFDerivWithinAt ?_
    have p0 := (ContinuousLinearMap.proj (R := ℝ) (φ := fun _ : Fin 1 => ℝ) 0).hasFDerivAt (x := u)
    refine HasFDerivAt.congr_fderiv (f := fun w : Fin 1 → ℝ => w 0 ^ 2 - c) ((p0.pow 2).sub_const c) ?_
    ext v
    simp [sqJac75, Expr.val, Op2.fn]
    exact Or.inl (by ring)
  obtain ⟨k1, k2⟩ := C75_solver_partial (Or.inr (by simp [sqEq75, sqJac75, Expr.TanFree])) ok sqRun75
  have h := (C75_count (k2 _ hp) k1 rfl rfl).2.2 (by
    refine List.pairwise_cons.mpr ⟨fun Z hZ => ⟨0, ?_⟩, by simp⟩
    obtain rfl : Z = _ := by simpa using hZ
    simp only [sqBox75]
    decide +kernel)
  have hR : Roots sqEq75 (sqBox75 (-3 / 2) 3) (fun _ => c) = (fun (x : ℝ) (_ : Fin 1) => x) '' {x : ℝ | x ∈ Icc (-3 / 2 : ℝ) 3 ∧ x ^ 2 = c} := by
    ext u
    have hu : (fun _ : Fin 1 => u 0) = u := funext fun i => by rw [Subsingleton.elim i 0]
    simp only [Roots, sqEq75, sqBox75, Itv.set, FP.BelowR, FP.AboveR, Fin.forall_fin_one, mem_ofPred_eq, mem_image, Expr.val, Expr.dom, Op1.fn, Op2.fn,
      sub_eq_zero]
    constructor
    · rintro ⟨⟨h1, h2⟩, -, h3⟩
      push_cast at h1 h2
      exact ⟨u 0, ⟨⟨h1, h2⟩, h3⟩, hu⟩
    · rintro ⟨x, ⟨⟨h1, h2⟩, h3⟩, rfl⟩
      refine ⟨⟨by push_cast; exact h1, by push_cast; exact h2⟩, ?_, h3⟩
      simp [Op1.dom, Op2.dom]
  rw [hR, ncard_image_of_injective _ fun x y h => congrFun h 0] at h
  exact h

end P1788
