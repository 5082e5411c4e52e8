import Verif.Model.MinimiseMono
import Verif.Props.C78b

/-!
# C79: global minimisation with derivatives

Whatever the order of the steps: no global minimiser is lost, and the minimum lies between the bounds the program holds.
-/

namespace P1788
open Set
variable {φ : Fmt} {n : ℕ} {κ : Type} {e : Expr (Fin n ⊕ κ)} {g : Fin n → Expr (Fin n ⊕ κ)} {X : Fin n ⊕ κ → Itv} {c : κ → ℝ}

/-- `u` is a point of the box at which the formula with parameters `c` is defined. -/
def FeasibleAt (e : Expr (Fin n ⊕ κ)) (X : Fin n ⊕ κ → Itv) (c : κ → ℝ) (u : Fin n → ℝ) : Prop :=
  (∀ i, u i ∈ (X (.inl i)).set) ∧ Sum.elim u c ∈ e.dom

/-- `u` is a global minimiser of the formula with parameters `c` over the box. -/
def IsMinimiserAt (e : Expr (Fin n ⊕ κ)) (X : Fin n ⊕ κ → Itv) (c : κ → ℝ) (u : Fin n → ℝ) : Prop :=
  FeasibleAt e X c u ∧ ∀ v, FeasibleAt e X c v → e.val (Sum.elim u c) ≤ e.val (Sum.elim v c)

/-- `b` is no lower than some value of the formula with parameters `c` over the box, or `+∞`. -/
def KnownBoundAt (e : Expr (Fin n ⊕ κ)) (X : Fin n ⊕ κ → Itv) (c : κ → ℝ) (b : FP) : Prop :=
  b = .pinf ∨ b ≠ .nan ∧ ∃ u, FeasibleAt e X c u ∧ (e.val (Sum.elim u c) : EReal) ≤ b.toE

/-- What holds of a state of a search on the box `X`. -/
structure MonoSound (φ : Fmt) (e : Expr (Fin n ⊕ κ)) (X : Fin n ⊕ κ → Itv) (c : κ → ℝ) (S : MinState (Fin n ⊕ κ)) : Prop where
  /-- the boxes are parts of `X` -/
  inside : ∀ Y ∈ S.boxes, ∀ i, (Y i).set ⊆ (X i).set
  /-- the upper bound is a bound of the infimum -/
  upper : KnownBoundAt e X c S.ub
  /-- no minimiser is lost, and its value is between the bounds -/
  minimiser : ∀ u, IsMinimiserAt e X c u →
    (∃ Y ∈ S.boxes, (∀ i, u i ∈ (Y (.inl i)).set) ∧ (e.eval φ Y).inf.toE ≤ (e.val (Sum.elim u c) : EReal)) ∧
    (e.val (Sum.elim u c) : EReal) ≤ S.ub.toE
  /-- the smallest of `ub` and the lower bounds over the boxes is a lower bound over `X` -/
  lower : ∀ b : EReal, b ≤ S.ub.toE → (∀ Y ∈ S.boxes, b ≤ (e.eval φ Y).inf.toE) → ∀ u, FeasibleAt e X c u → b ≤ (e.val (Sum.elim u c) : EReal)

/-- The full statement. -/
def C79_full (φ : Fmt) : Prop :=
  ∀ (n : ℕ) (κ : Type) (e : Expr (Fin n ⊕ κ)) (g : Fin n → Expr (Fin n ⊕ κ)) (X : Fin n ⊕ κ → Itv) (b : FP) (S : MinState (Fin n ⊕ κ)),
    (∀ j, (X j).Ok φ) → MonoRun φ e g ⟨[X], b⟩ S → ∀ c, (∀ k, c k ∈ (X (.inr k)).set) → IsGradient e g (fun j => (X j).newDec) c →
    KnownBoundAt e X c b → MonoSound φ e X c S

/-- The invariant: every feasible point is in a box, or certainly no minimiser, or there is a point with a smaller value for which this holds. -/
structure Inv79 (φ : Fmt) (e : Expr (Fin n ⊕ κ)) (X : Fin n ⊕ κ → Itv) (c : κ → ℝ) (S : MinState (Fin n ⊕ κ)) : Prop where
  ok : ∀ Y ∈ S.boxes, ∀ i, (Y i).Ok φ
  inside : ∀ Y ∈ S.boxes, ∀ i, (Y i).set ⊆ (X i).set
  params : ∀ Y ∈ S.boxes, ∀ k, c k ∈ (Y (.inr k)).set
  upper : KnownBoundAt e X c S.ub
  kept : ∀ u, FeasibleAt e X c u → ∃ v, FeasibleAt e X c v ∧ (v = u ∨ e.val (Sum.elim v c) < e.val (Sum.elim u c)) ∧
    ((∃ Y ∈ S.boxes, ∀ i, v i ∈ (Y (.inl i)).set) ∨ S.ub.toE < (e.val (Sum.elim v c) : EReal))

theorem Inv79.replace {l₁ l₂ L : List (Fin n ⊕ κ → Itv)} {Z : Fin n ⊕ κ → Itv} {b : FP} (hI : Inv79 φ e X c ⟨l₁ ++ Z :: l₂, b⟩)
    (h1 : ∀ Y ∈ L, (∀ i, (Y i).Ok φ) ∧ (∀ i, (Y i).set ⊆ (Z i).set) ∧ ∀ k, c k ∈ (Y (.inr k)).set)
    (h2 : ∀ u, FeasibleAt e X c u → (∀ i, u i ∈ (Z (.inl i)).set) → ∃ v, FeasibleAt e X c v ∧
      (v = u ∨ e.val (Sum.elim v c) < e.val (Sum.elim u c)) ∧ ((∃ Y ∈ L, ∀ i, v i ∈ (Y (.inl i)).set) ∨ b.toE < (e.val (Sum.elim v c) : EReal))) :
    Inv79 φ e X c ⟨l₁ ++ (L ++ l₂), b⟩ := by
  have cs : ∀ Y, Y ∈ l₁ ++ (L ++ l₂) → Y ∈ L ∨ Y ∈ l₁ ++ Z :: l₂ := by
    intro Y hY; simp at hY ⊢; tauto
  have hZ : Z ∈ (MinState.mk (l₁ ++ Z :: l₂) b).boxes := by simp
  refine ⟨fun Y hY => ?_, fun Y hY => ?_, fun Y hY => ?_, hI.upper, fun u hu => ?_⟩
  · rcases cs Y hY with h | h
    exacts [(h1 Y h).1, hI.ok Y h]
  · rcases cs Y hY with h | h
    exacts [fun i => ((h1 Y h).2.1 i).trans (hI.inside Z hZ i), hI.inside Y h]
  · rcases cs Y hY with h | h
    exacts [(h1 Y h).2.2, hI.params Y h]
  · obtain ⟨v, hv, hvu, ⟨Y, hY, hm⟩ | h⟩ := hI.kept u hu
    · rcases (by simpa using hY : Y ∈ l₁ ∨ Y = Z ∨ Y ∈ l₂) with h | rfl | h
      · exact ⟨v, hv, hvu, Or.inl ⟨Y, by simp [h], hm⟩⟩
      · obtain ⟨w, hw, hwv, h⟩ := h2 v hv hm
        refine ⟨w, hw, ?_, h.imp_left fun ⟨Y, hY, k⟩ => ⟨Y, by simp [hY], k⟩⟩
        rcases hwv with rfl | hwv
        · exact hvu
        · rcases hvu with rfl | hvu
          exacts [Or.inr hwv, Or.inr (hwv.trans hvu)]
      · exact ⟨v, hv, hvu, Or.inl ⟨Y, by simp [h], hm⟩⟩
    · exact ⟨v, hv, hvu, Or.inr h⟩

/-- The monotonicity test: from a point outside of the smaller box one with a smaller value in it is reached. -/
theorem shrink79 {Z Y : Fin n ⊕ κ → Itv} (ht : e.TanSafe φ Z) (ht' : ∀ j, (g j).TanSafe φ Z) (hZ : ∀ j, (Z j).Ok φ)
    (hc : ∀ k, c k ∈ (Z (.inr k)).set) (hj : IsGradient e g (fun j => (Z j).newDec) c)
    (h : minBox φ e g (fun j => (Z j).newDec) = some Y) :
    ((∀ j, (Y j).Ok φ) ∧ (∀ j, (Y j).set ⊆ (Z j).set) ∧ ∀ k, c k ∈ (Y (.inr k)).set) ∧
    ∀ u : Fin n → ℝ, (∀ i, u i ∈ (Z (.inl i)).set) → ∃ v : Fin n → ℝ, (∀ i, v i ∈ (Y (.inl i)).set) ∧ Sum.elim v c ∈ e.dom ∧
      (v = u ∨ e.val (Sum.elim v c) < e.val (Sum.elim u c)) := by
  classical
  have hB : ∀ j, ((Z j).newDec).Ok φ := fun j => newDec_ok63 (hZ j)
  have hS : ∀ j, ((Z j).newDec).set = (Z j).set := fun j => by rw [DItv.set, newDec_itv]
  unfold minBox at h
  split_ifs at h with hk
  obtain ⟨k1, k2⟩ := hk
  obtain rfl := Option.some.inj h
  have hcB : ParamsIn (fun j => (Z j).newDec) c := fun k => by rw [hS]; exact hc k
  have hI : (fun j => ((Z j).newDec).itv) = Z := funext fun j => newDec_itv _
  have fe := C19_ftdia_safe_partial e _ hB (by rw [hI]; exact ht)
  have fg := fun j => C19_ftdia_safe_partial (g j) _ hB (by rw [hI]; exact ht' j)
  have lo := fun j => minSide78 (hB (.inl j)).1 (fg j).1.1
  have hgd : ∀ u ∈ unknowns fun j => (Z j).newDec, ∀ j, Sum.elim u c ∈ (g j).dom := fun u hu j => ((fg j).2.2.2.1 (k2 j)).2 _ (elim_mem74 hu hcB)
  have hgv : ∀ u ∈ unknowns fun j => (Z j).newDec, ∀ j, (g j).val (Sum.elim u c) ∈ ((g j).evalD φ fun j => (Z j).newDec).itv.set := fun u hu j =>
    (fg j).2.2.1 _ (not_ill74 (k2 j)) (elim_mem74 hu hcB) (hgd u hu j)
  refine ⟨⟨?_, ?_, ?_⟩, fun u hu => ?_⟩
  · rintro (j | k)
    exacts [(lo j).1, (hB _).1]
  · rintro (j | k)
    · exact (lo j).2.1.trans (hS _).subset
    · show ((Z (.inr k)).newDec).itv.set ⊆ _
      rw [newDec_itv]
  · intro k
    show _ ∈ ((Z (.inr k)).newDec).itv.set
    rw [newDec_itv]; exact hc k
  have huU : u ∈ unknowns fun j => (Z j).newDec := fun i => by rw [hS]; exact hu i
  have ex : ∀ j, ∃ r ∈ ((Z (.inl j)).newDec.itv.minSide ((g j).evalD φ fun j => (Z j).newDec).itv).set,
      r = u j ∨ ∀ d ∈ ((g j).evalD φ fun j => (Z j).newDec).itv.set, 0 < d * (u j - r) := fun j => by
    by_cases hm : u j ∈ ((Z (.inl j)).newDec.itv.minSide ((g j).evalD φ fun j => (Z j).newDec).itv).set
    · exact ⟨u j, hm, Or.inl rfl⟩
    · obtain ⟨r, hr, h⟩ := (lo j).2.2 (u j) (huU j) hm
      exact ⟨r, hr, Or.inr h⟩
  choose v hv hv' using ex
  have hvU : v ∈ unknowns fun j => (Z j).newDec := fun j => (lo j).2.1 (hv j)
  refine ⟨v, hv, (fe.2.2.2.1 k1).2 _ (elim_mem74 hvU hcB), ?_⟩
  by_cases hvu : v = u
  · exact Or.inl hvu
  right
  obtain ⟨w, hw, e1⟩ := mean76 (convex74 _) (fun u hu => hj u hu (hgd u hu)) hvU huU
  obtain ⟨j, hj'⟩ := Function.ne_iff.mp hvu
  have : 0 < ∑ j, (g j).val (Sum.elim w c) * (u j - v j) := by
    refine Finset.sum_pos' (fun i _ => ?_) ⟨j, Finset.mem_univ j, ((hv' j).resolve_left hj') _ (hgv w hw j)⟩
    rcases hv' i with h | h
    · rw [h]; simp
    · exact (h _ (hgv w hw i)).le
  linarith

theorem Inv79.step {S S' : MinState (Fin n ⊕ κ)} (ht : e.TanSafeIn φ X) (ht' : ∀ j, (g j).TanSafeIn φ X)
    (hj : IsGradient e g (fun j => (X j).newDec) c) (hI : Inv79 φ e X c S) (h : MonoStep φ e g S S') : Inv79 φ e X c S' := by
  cases h with
  | @dropEmpty l₁ l₂ Z u i h =>
    refine hI.replace (L := []) (by simp) fun u _ hm => ?_
    have := hm i
    rw [(C22_is_empty (hI.ok Z (by simp) _)).mp h] at this
    exact this.elim
  | @drop l₁ l₂ Z u h =>
    refine hI.replace (L := []) (by simp) fun u hu hm => ⟨u, hu, Or.inl rfl, Or.inr ?_⟩
    have hZ := hI.ok Z (by simp)
    obtain ⟨k1, k2⟩ := C18_ftia_safe_partial e Z hZ (ht Z hZ (hI.inside Z (by simp)))
    refine lt_of_lt_of_le (FP.lt_iff'.mp h).2.2 (inf_le63 k1 (k2 (Sum.elim u c) ?_ hu.2)).2
    rintro (i | k)
    exacts [hm i, hI.params Z (by simp) k]
  | @split l₁ l₂ Z u i a b ha hb =>
    have hZ := hI.ok Z (by simp)
    have hN : (Z (.inl i)).NE φ := by
      rcases (hZ (.inl i)).cases with h | h
      · rw [h] at ha
        have : mkI Itv.empty.inf (Itv.mid φ Itv.empty) = .error .signalled := rfl
        rw [this] at ha
        cases ha
      · exact h
    obtain ⟨q, -, -, -, ⟨a', ha', hane, has⟩, ⟨b', hb', hbne, hbs⟩, -⟩ := halves hN
    obtain rfl : a' = a := by simpa [ha'] using ha
    obtain rfl : b' = b := by simpa [hb'] using hb
    have upd : ∀ (v : Itv) (P : Fin n ⊕ κ → Itv → Prop), P (.inl i) v → (∀ j, P j (Z j)) →
        ∀ j, P j (withUnknowns Z (Function.update (fun j => Z (.inl j)) i v) j) := by
      intro v P h1 h2 j
      rcases j with j | k
      · by_cases hj : j = i
        · subst hj; simpa [withUnknowns] using h1
        · simpa [withUnknowns, Function.update_of_ne hj] using h2 (.inl j)
      · exact h2 (.inr k)
    have one : ∀ v : Itv, v.Ok φ → v.set ⊆ (Z (.inl i)).set → (∀ j, (withUnknowns Z (Function.update (fun j => Z (.inl j)) i v) j).Ok φ) ∧
        (∀ j, (withUnknowns Z (Function.update (fun j => Z (.inl j)) i v) j).set ⊆ (Z j).set) ∧
        ∀ k, c k ∈ (withUnknowns Z (Function.update (fun j => Z (.inl j)) i v) (.inr k)).set := fun v h1 h2 =>
      ⟨upd v (fun _ v => v.Ok φ) h1 hZ, upd v (fun j v => v.set ⊆ (Z j).set) h2 fun _ => subset_rfl, fun k => hI.params Z (by simp) k⟩
    refine hI.replace (L := [_, _]) (by
        intro Y hY
        rcases (by simpa using hY : Y = _ ∨ Y = _) with rfl | rfl
        · exact one a' hane.ok (by rw [has]; exact inter_subset_left)
        · exact one b' hbne.ok (by rw [hbs]; exact inter_subset_left)) fun u hu hm => ⟨u, hu, Or.inl rfl, Or.inl ?_⟩
    have upd' : ∀ v : Itv, u i ∈ v.set → ∀ j, u j ∈ (withUnknowns Z (Function.update (fun j => Z (.inl j)) i v) (.inl j)).set := by
      intro v h1 j
      by_cases hj : j = i
      · subst hj; simpa [withUnknowns] using h1
      · simpa [withUnknowns, Function.update_of_ne hj] using hm j
    rcases le_total (u i) q with hq | hq
    · exact ⟨_, by simp, upd' a' (by rw [has]; exact ⟨hm i, hq⟩)⟩
    · exact ⟨withUnknowns Z (Function.update (fun j => Z (.inl j)) i b'), by simp, upd' b' (by rw [hbs]; exact ⟨hm i, hq⟩)⟩
  | @probe l u Z p hX hi hp hd h =>
    have hP := fun i => point_ok60 (hI.ok Z hX (.inl i)) (hi i) (hp i)
    choose r hr hrm hok hset using hP
    have hok' : ∀ j, (probeBox Z p j).Ok φ := by
      rintro (i | k)
      exacts [newDec_ok63 (hok i), newDec_ok63 (hI.ok Z hX _)]
    have hset' : ∀ j, Sum.elim r c j ∈ (probeBox Z p j).set := by
      rintro (i | k)
      · show r i ∈ (Itv.newDec ⟨p i, p i⟩).set
        rw [DItv.set, newDec_itv, hset]; rfl
      · show c k ∈ ((Z (.inr k)).newDec).set
        rw [DItv.set, newDec_itv]; exact hI.params Z hX k
    have hsub : ∀ j, (probeBox Z p j).itv.set ⊆ (X j).set := by
      rintro (i | k)
      · show (Itv.newDec ⟨p i, p i⟩).itv.set ⊆ _
        rw [newDec_itv, hset]; exact Set.singleton_subset_iff.mpr (hI.inside Z hX _ (hrm i))
      · show ((Z (.inr k)).newDec).itv.set ⊆ _
        rw [newDec_itv]; exact hI.inside Z hX _
    obtain ⟨k1, -, k2, k3, -⟩ := C19_ftdia_safe_partial e _ hok' (ht _ (fun j => (hok' j).1) hsub)
    have hdom := (k3 hd).2 _ hset'
    have hm := k2 _ (not_ill74 hd) hset' hdom
    have hs := sup_ge63 k1.1 hm
    refine ⟨hI.ok, hI.inside, hI.params, Or.inr ⟨hs.1, r, ⟨fun i => hI.inside Z hX _ (hrm i), hdom⟩, hs.2⟩, fun t hf => ?_⟩
    obtain ⟨v, h1, h2, h3⟩ := hI.kept t hf
    exact ⟨v, h1, h2, h3.imp_right fun h' => lt_trans (FP.lt_iff'.mp h).2.2 h'⟩
  | @shrink l₁ l₂ Z u Y h =>
    have hZ : Z ∈ (MinState.mk (l₁ ++ Z :: l₂) u).boxes := by simp
    have hsub : unknowns (fun j => (Z j).newDec) ⊆ unknowns fun j => (X j).newDec := fun w hw i => by
      have := hw i
      rw [DItv.set, newDec_itv] at this ⊢
      exact hI.inside Z hZ _ this
    obtain ⟨h1, h2⟩ := shrink79 (ht Z (hI.ok Z hZ) (hI.inside Z hZ)) (fun j => ht' j Z (hI.ok Z hZ) (hI.inside Z hZ)) (hI.ok Z hZ) (hI.params Z hZ) (fun w hw k => (hj w (hsub hw) k).mono hsub) h
    refine hI.replace (L := [Y]) (by simpa using h1) fun w hw hm => ?_
    obtain ⟨v, hv, hd, hvw⟩ := h2 w hm
    exact ⟨v, ⟨fun i => hI.inside Z hZ _ (h1.2.1 _ (hv i)), hd⟩, hvw, Or.inl ⟨Y, by simp, hv⟩⟩

/-- **Branch and bound with derivatives loses no minimiser, and its bounds are bounds** (full statement `C79_full`: without `ht` and `ht'`;
false for `double` and the tangent, `C79_false`), after any number of steps in any order, from any valid initial bound.  `ht`, `ht'`: in the
evaluations on parts of `X` the tangent meets no bad interval (C11). -/
theorem C79_search_safe_partial (ht : e.TanSafeIn φ X) (ht' : ∀ j, (g j).TanSafeIn φ X) (hX : ∀ j, (X j).Ok φ) {b : FP} {S : MinState (Fin n ⊕ κ)}
    (h : MonoRun φ e g ⟨[X], b⟩ S) (hc : ∀ k, c k ∈ (X (.inr k)).set) (hj : IsGradient e g (fun j => (X j).newDec) c)
    (hb : KnownBoundAt e X c b) : MonoSound φ e X c S := by
  have hI : Inv79 φ e X c S := by
    induction h with
    | refl => exact ⟨by simpa using hX, by simp, by simpa using hc, hb, fun u hu => ⟨u, hu, Or.inl rfl, Or.inl ⟨X, by simp, hu.1⟩⟩⟩
    | tail _ h ih => exact ih.step ht ht' hj h
  have box : ∀ Y ∈ S.boxes, ∀ u, (∀ i, u i ∈ (Y (.inl i)).set) → Sum.elim u c ∈ e.dom → (e.eval φ Y).inf.toE ≤ (e.val (Sum.elim u c) : EReal) :=
    fun Y hY u hm hd => (inf_le63 (e.eval_ok18 (hI.ok Y hY))
      ((C18_ftia_safe_partial e Y (hI.ok Y hY) (ht Y (hI.ok Y hY) (hI.inside Y hY))).2 _ (by
        rintro (i | k)
        exacts [hm i, hI.params Y hY k]) hd)).2
  refine ⟨hI.inside, hI.upper, fun t hm => ?_, fun b h1 h2 t hf => ?_⟩
  · have hle : (e.val (Sum.elim t c) : EReal) ≤ S.ub.toE := by
      rcases hI.upper with h | ⟨-, t', hf, h⟩
      · rw [h]; exact le_top
      · exact le_trans (by exact_mod_cast hm.2 t' hf) h
    refine ⟨?_, hle⟩
    obtain ⟨v, hv, rfl | hlt, h⟩ := hI.kept t hm.1
    · rcases h with ⟨Y, hY, hk⟩ | h'
      · exact ⟨Y, hY, hk, box Y hY _ hk hm.1.2⟩
      · exact absurd h' (not_lt.mpr hle)
    · exact absurd (hm.2 v hv) (not_le.mpr hlt)
  · obtain ⟨v, hv, hvt, h⟩ := hI.kept t hf
    have hle : (e.val (Sum.elim v c) : EReal) ≤ e.val (Sum.elim t c) := by
      rcases hvt with rfl | h
      exacts [le_rfl, by exact_mod_cast h.le]
    refine le_trans ?_ hle
    rcases h with ⟨Y, hY, hk⟩ | h'
    · exact (h2 Y hY).trans (box Y hY _ hk hv.2)
    · exact h1.trans h'.le

/-- The same for formulas without the tangent, and for types without bad intervals. -/
theorem C79_search_partial (ht : NoCritical φ ∨ e.TanFree ∧ ∀ j, (g j).TanFree) (hX : ∀ j, (X j).Ok φ) {b : FP} {S : MinState (Fin n ⊕ κ)}
    (h : MonoRun φ e g ⟨[X], b⟩ S) (hc : ∀ k, c k ∈ (X (.inr k)).set) (hj : IsGradient e g (fun j => (X j).newDec) c)
    (hb : KnownBoundAt e X c b) : MonoSound φ e X c S :=
  C79_search_safe_partial (e.tanSafeIn (ht.imp_right And.left) X) (fun j => (g j).tanSafeIn (ht.imp_right fun h => h.2 j) X) hX h hc hj hb

/-- The full statement for `float`. -/
theorem C79_binary32 : C79_full binary32 := fun _ _ _ _ _ _ _ hX h _ hc hj hb => C79_search_partial (Or.inl noCritical_binary32) hX h hc hj hb

/-- The full statement for `long double`. -/
theorem C79_x87ext : C79_full x87ext := fun _ _ _ _ _ _ _ hX h _ hc hj hb => C79_search_partial (Or.inl noCritical_x87ext) hX h hc hj hb

/-- With the derivatives of C77 there is no assumption about derivatives; the tangent must meet no bad interval in the evaluations of the
formula itself. -/
theorem C79_auto_safe_partial {e : Expr (Fin n ⊕ ℚ)} {X : Fin n ⊕ ℚ → Itv} (ht : e.TanSafeIn φ X) (hX : ∀ j, (X j).Ok φ) {b : FP}
    {S : MinState (Fin n ⊕ ℚ)} (h : MonoRun φ e (fun j => e.pd j) ⟨[X], b⟩ S) (hc : ∀ q : ℚ, (q:ℝ) ∈ (X (.inr q)).set)
    (hb : KnownBoundAt e X ratR b) : MonoSound φ e X ratR S :=
  C79_search_safe_partial ht (fun j Y hY hs => e.tanSafe_pd j (ht Y hY hs)) hX h hc IsGradient.auto hb

/-- The same for formulas without the tangent, and for types without bad intervals. -/
theorem C79_auto_partial {e : Expr (Fin n ⊕ ℚ)} {X : Fin n ⊕ ℚ → Itv} (ht : NoCritical φ ∨ e.TanFree) (hX : ∀ j, (X j).Ok φ) {b : FP}
    {S : MinState (Fin n ⊕ ℚ)} (h : MonoRun φ e (fun j => e.pd j) ⟨[X], b⟩ S) (hc : ∀ q : ℚ, (q:ℝ) ∈ (X (.inr q)).set)
    (hb : KnownBoundAt e X ratR b) : MonoSound φ e X ratR S :=
  C79_search_partial (ht.imp_right fun h => ⟨h, fun j => e.tanFree_pd j h⟩) hX h hc IsGradient.auto hb

/-- If the formula is defined somewhere in the box, whether or not it has a minimum, the search never runs out of boxes. -/
theorem C79_never_empty {S : MinState (Fin n ⊕ κ)} (h : MonoSound φ e X c S) {u : Fin n → ℝ} (hu : FeasibleAt e X c u) : S.boxes ≠ [] := by
  intro h0
  have lo := h.lower S.ub.toE le_rfl (by simp [h0])
  have hm : ∃ w, IsMinimiserAt e X c w := by
    rcases h.upper with hb | ⟨-, w, hw, hb⟩
    · have := lo u hu
      rw [hb] at this
      exact absurd this (not_le.mpr (EReal.coe_lt_top _))
    · exact ⟨w, hw, fun v hv => by exact_mod_cast hb.trans (lo v hv)⟩
  obtain ⟨w, hw⟩ := hm
  obtain ⟨⟨Y, hY, -⟩, -⟩ := h.minimiser w hw
  simp [h0] at hY

/-! ### Example -/

/-- The box of the example after the monotonicity test: `x = 2`. -/
noncomputable def parabEnd79 : Fin 1 ⊕ ℚ → Itv := sidesBox binary64 parabBox78 Itv.minSide fun j => parab77.pd j

theorem parabEnd_inl79 (i : Fin 1) : parabEnd79 (.inl i) = ⟨.fin 2, .fin 2⟩ := by
  obtain rfl : i = 0 := Fin.fin_one_eq_zero i
  exact parab_min78.2

/-- A run for `x - x²` on `[1, 2]`: the monotonicity test reduces the box to 2, and the value there becomes the bound. -/
theorem run79 : MonoRun binary64 parab77 (fun j => parab77.pd j) ⟨[fun j => (parabBox78 j).itv], .pinf⟩ ⟨[parabEnd79], .fin (-2)⟩ := by
  have hB : (fun j => (parabBox78 j).itv.newDec) = parabBox78 := by
    funext j
    rcases j with i | q
    · rfl
    · simp only [parabBox78, parabBox77]
      split_ifs <;> rfl
  have s1 : MonoStep binary64 parab77 (fun j => parab77.pd j) ⟨[] ++ (fun j => (parabBox78 j).itv) :: [], .pinf⟩ ⟨[] ++ parabEnd79 :: [], .pinf⟩ :=
    .shrink (by rw [hB]; exact parab_min78.1)
  have e0 : parab77.evalD binary64 (probeBox parabEnd79 fun _ => .fin 2) = ⟨⟨.fin (-2), .fin (-2)⟩, .com⟩ := by
    show binary64.subD (Itv.newDec ⟨.fin 2, .fin 2⟩) (binary64.sqrD (Itv.newDec ⟨.fin 2, .fin 2⟩)) = _
    decide +kernel
  have s2 := MonoStep.probe (φ := binary64) (e := parab77) (g := fun j => parab77.pd j) (l := [parabEnd79]) (u := .pinf)
    (X := parabEnd79) (p := fun _ => .fin 2) (by simp) (fun _ => FP.in_of_inb (by decide +kernel))
    (fun i => by rw [parabEnd_inl79]; decide +kernel) (by rw [e0]; decide) (by rw [e0]; decide +kernel)
  rw [e0] at s2
  exact (Relation.ReflTransGen.single s1).tail s2

/-- The hypotheses of `C79_auto_partial` hold for it: the smallest value of `x - x²` on `[1, 2]` is -2. -/
example : IsLeast ((fun x : ℝ => x - x ^ 2) '' Icc 1 2) (-2) := by
  have h := C79_auto_partial (φ := binary64) (e := parab77) (Or.inr ⟨trivial, by decide, trivial⟩) (fun j => (parabBox_ok78.1 j).1) run79
    parabBox_ok78.2 (Or.inl rfl)
  refine ⟨⟨2, by norm_num, by norm_num⟩, ?_⟩
  rintro _ ⟨x, hx, rfl⟩
  have := h.lower ((-2:ℝ):EReal) (by simp [FP.toE]) (by
    intro Y hY
    obtain rfl : Y = parabEnd79 := by simpa using hY
    have : (parab77.eval binary64 parabEnd79).inf = .fin (-2) := by
      show (binary64.subI (parabEnd79 (.inl 0)) (binary64.sqrI (parabEnd79 (.inl 0)))).inf = _
      rw [parabEnd_inl79]
      decide +kernel
    rw [this]
    simp [FP.toE]) (fun _ => x) ⟨fun i => by simpa [parabBox78, Itv.set, FP.BelowR, FP.AboveR] using hx, by simp [parab77, Expr.dom, Op1.dom, Op2.dom]⟩
  simpa [parab77, Expr.val, Op1.fn, Op2.fn] using (by exact_mod_cast this : (-2:ℝ) ≤ parab77.val (Sum.elim (fun _ => x) ratR))

/-- The hypotheses of `C79_never_empty` hold for it. -/
example : MonoSound binary64 parab77 (fun j => (parabBox78 j).itv) ratR ⟨[parabEnd79], .fin (-2)⟩ ∧
    FeasibleAt parab77 (fun j => (parabBox78 j).itv) ratR fun _ => 1 :=
  ⟨C79_auto_partial (φ := binary64) (e := parab77) (Or.inr ⟨trivial, by decide, trivial⟩) (fun j => (parabBox_ok78.1 j).1) run79
    parabBox_ok78.2 (Or.inl rfl),
    fun i => by simp [parabBox78, Itv.set, FP.BelowR, FP.AboveR], by simp [parab77, Expr.dom, Op1.dom, Op2.dom]⟩

/-! ### False of `double` with the tangent -/

theorem tanGrad_right79 (B : Fin 1 ⊕ Unit → DItv) : IsGradient tanEx76 tanGrad76 B fun _ => 1 := by
  intro u _ hdm
  refine HasFDerivAt.hasFDerivWithinAt ?_
  have hc : Real.cos (u 0) ≠ 0 := by
    have := hdm 0
    simpa [tanGrad76, Expr.dom, Expr.val, Op1.dom, Op2.dom] using this
  have p0 := (ContinuousLinearMap.proj (R := ℝ) (φ := fun _ : Fin 1 => ℝ) 0).hasFDerivAt (x := u)
  refine ((Real.hasDerivAt_tan hc).comp_hasFDerivAt u p0).congr_fderiv ?_
  ext w
  have hv : 1 + Real.tan (u 0) ^ 2 = 1 / Real.cos (u 0) ^ 2 := by
    rw [← Real.inv_one_add_tan_sq hc, one_div, inv_inv]
  simp [tanGrad76, Expr.val, Op1.fn, Op2.fn, hv]

/-- `x = [0, 1]`, and 1. -/
def tanBox79 : Fin 1 ⊕ Unit → Itv := Sum.elim (fun _ => ⟨.fin 0, .fin 1⟩) fun _ => ⟨.fin 1, .fin 1⟩

/-- The hypotheses of `C79_search_safe_partial` are met for `double` by the tangent on `[0, 1]`: whatever the search does, the box that is left
contains 0, and the bound is not negative. -/
example {S : MinState (Fin 1 ⊕ Unit)} (h : MonoRun binary64 tanEx76 tanGrad76 ⟨[tanBox79], .pinf⟩ S) :
    (∃ Y ∈ S.boxes, (0:ℝ) ∈ (Y (.inl 0)).set) ∧ 0 ≤ S.ub.toE := by
  have ok : ∀ j, (tanBox79 j).Ok binary64 := by
    rintro (i | k)
    exacts [(Itv.ok_of_okb (by decide +kernel) : (Itv.mk (.fin 0) (.fin 1)).Ok binary64),
      (Itv.ok_of_okb (by decide +kernel) : (Itv.mk (.fin 1) (.fin 1)).Ok binary64)]
  have nar : ∀ s ∈ (Itv.mk (.fin 0) (.fin 1)).set, ∀ t ∈ (Itv.mk (.fin 0) (.fin 1)).set, |s - t| ≤ (3:ℝ) := fun s hs t ht => by
    simp only [Itv.set, FP.BelowR, FP.AboveR, Set.mem_ofPred_eq] at hs ht
    obtain ⟨a1, a2⟩ := hs
    obtain ⟨b1, b2⟩ := ht
    push_cast at a1 a2 b1 b2
    exact abs_le.mpr ⟨by linarith, by linarith⟩
  have hS := C79_search_safe_partial (φ := binary64) (e := tanEx76) (g := tanGrad76) (X := tanBox79) (c := fun _ => 1)
    (Expr.TanNarrow.safeIn ⟨trivial, fun _ => nar⟩ ok) (fun _ => Expr.TanNarrow.safeIn ⟨trivial, ⟨trivial, fun _ => nar⟩, by simp⟩ ok) ok h
    (fun _ => by simp [tanBox79, Itv.set, FP.BelowR, FP.AboveR]) (tanGrad_right79 _) (Or.inl rfl)
  have hm : IsMinimiserAt tanEx76 tanBox79 (fun _ : Unit => 1) fun _ => 0 := by
    refine ⟨⟨fun i => by simp [tanBox79, Itv.set, FP.BelowR, FP.AboveR], by simp [tanEx76, Expr.dom, Op1.dom, Expr.val]⟩, fun v hv => ?_⟩
    have h0 := hv.1 0
    simp only [tanBox79, Sum.elim_inl, Itv.set, FP.BelowR, FP.AboveR, Set.mem_ofPred_eq] at h0
    obtain ⟨a1, a2⟩ := h0
    push_cast at a1 a2
    have := Real.pi_gt_three
    simpa [tanEx76, Expr.val, Op1.fn] using Real.tan_nonneg_of_nonneg_of_le_pi_div_two a1 (by linarith)
  obtain ⟨⟨Y, hY, h1, -⟩, h2⟩ := hS.minimiser _ hm
  exact ⟨⟨Y, hY, h1 0⟩, by simpa [tanEx76, Expr.val, Op1.fn] using h2⟩

/-- The full statement is **false** of `double`, as a consequence of C11: with the bound 0 known from the point `π` the search throws away the
only box, although the tangent takes negative values in it. -/
theorem C79_false : ¬ C79_full binary64 := by
  intro hf
  obtain ⟨-, -, hS⟩ := tan_facts74
  have hok : (binary64.tanI tanWitness).Ok binary64 := Op1.bare_ok .tan tanWitness_ok
  have p1 := Real.pi_gt_d20
  have p2 := Real.pi_lt_d20
  have mem : ∀ t : ℝ, 7 / 8 ≤ t → t ≤ 4 → t ∈ tanWitness.set := fun t h1 h2 => by
    obtain ⟨b, hx, ha, hb, hbv, -⟩ := tan_witness_branch
    exact hx.mem.mpr ⟨by rw [ha]; exact_mod_cast h1, by rw [hb, hbv]; exact_mod_cast (by norm_num; linarith)⟩
  have hd : MonoStep binary64 tanEx76 tanGrad76 ⟨[] ++ (fun j => (tanBox76 j).itv) :: [], .fin 0⟩ ⟨[] ++ [], .fin 0⟩ := by
    refine .drop ?_
    show _ < (binary64.tanI tanWitness).inf
    have hI := (C27_inf_sup hok).1
    refine FP.lt_iff'.mpr ⟨by simp, hI.1, lt_of_lt_of_le (b := (1:EReal)) (by simp) (hI.2.2 ?_)⟩
    rintro _ ⟨s, hs, rfl⟩
    show (1:EReal) ≤ (s:EReal)
    exact_mod_cast hS s hs
  have hs := hf 1 Unit tanEx76 tanGrad76 (fun j => (tanBox76 j).itv) (.fin 0) ⟨[], .fin 0⟩ (by
      rintro (_ | _)
      · exact tanWitness_ok
      · exact Itv.ok_of_okb (show Itv.okb binary64 ⟨_, _⟩ = true by decide +kernel)) (.single hd) (fun _ => 1)
    (fun k => by simp [tanBox76, Itv.set, FP.BelowR, FP.AboveR]) (tanGrad_right79 _)
    (Or.inr ⟨by simp, fun _ => Real.pi, ⟨fun _ => mem _ (by linarith) (by linarith), by simp [tanEx76, Expr.dom, Op1.dom, Expr.val]⟩,
      by simp [tanEx76, Expr.val, Op1.fn]⟩)
  have := hs.lower 0 (by simp) (by simp) (fun _ => 3) ⟨fun _ => mem 3 (by norm_num) (by norm_num), ?_⟩
  · have h3 : Real.tan 3 < 0 := by
      rw [← Real.tan_sub_pi]
      exact Real.tan_neg_of_neg_of_pi_div_two_lt (by linarith) (by linarith)
    simp only [tanEx76, Expr.val, Op1.fn, Sum.elim_inl] at this
    exact absurd (by exact_mod_cast this) (not_le.mpr h3)
  · have h3 : Real.cos 3 < 0 := Real.cos_neg_of_pi_div_two_lt_of_lt (by linarith) (by linarith)
    simpa [tanEx76, Expr.dom, Op1.dom, Expr.val] using h3.ne

end P1788
