import Verif.Props.C75
import Verif.Props.C63b

/-!
# C75: what branch and prune can always achieve

By bisection and evaluation alone every box can be reduced to small boxes on which all formulas are nearly zero; if the equations have no
solution, this proves it.
-/

namespace P1788
open Set
variable {φ : Fmt} {n : ℕ} {κ : Type} {piv : ∀ n, (Fin (n + 1) → Itv) → Fin (n + 1)} {e : Fin n → Expr (Fin n ⊕ κ)}
  {J : Fin n → Fin n → Expr (Fin n ⊕ κ)}

/-- By bisection alone every box can be cut into boxes whose unknowns have no number inside. -/
theorem split_all75 (e : Fin n → Expr (Fin n ⊕ κ)) (J : Fin n → Fin n → Expr (Fin n ⊕ κ)) :
    ∀ (m : ℕ) (Y : Fin n ⊕ κ → Itv), (∀ j, (Y j).NE φ) → ∑ i : Fin n, (numsIn φ (Y (.inl i))).ncard ≤ m →
    ∃ L : List (Fin n ⊕ κ → Itv), (∀ l₁ l₂ s d, SolveRun φ piv e J ⟨l₁ ++ Y :: l₂, s, d⟩ ⟨l₁ ++ L ++ l₂, s, d⟩) ∧
      (∀ Z ∈ L, (∀ j, (Z j).NE φ) ∧ ∀ i : Fin n, Atomic φ (Z (.inl i))) ∧ (∀ Z ∈ L, ∀ j, (Z j).set ⊆ (Y j).set) ∧
      (∀ Z ∈ L, ∀ k, Z (.inr k) = Y (.inr k)) ∧
      ∀ t : Fin n → ℝ, (∀ i, t i ∈ (Y (.inl i)).set) → ∃ Z ∈ L, ∀ i, t i ∈ (Z (.inl i)).set := by
  intro m
  induction m using Nat.strong_induction_on with
  | _ m ih =>
    intro Y hY hn
    by_cases hA : ∀ i : Fin n, Atomic φ (Y (.inl i))
    · refine ⟨[Y], fun l₁ l₂ s d => by simp only [List.append_assoc, List.singleton_append]; exact .refl, fun Z hZ => ?_, fun Z hZ j => ?_,
        fun Z hZ k => ?_, fun t ht => ⟨Y, by simp, ht⟩⟩ <;> obtain rfl : Z = Y := by simpa using hZ
      · exact ⟨hY, hA⟩
      · exact subset_rfl
      · rfl
    · push Not at hA
      obtain ⟨i, hi⟩ := hA
      obtain ⟨q, -, hq, -, ⟨a, ha, hane, has⟩, ⟨b, hb, hbne, hbs⟩, -⟩ := halves (hY (.inl i))
      obtain ⟨⟨r, hr, hrq⟩, r', hr', hqr⟩ := mid_inside (hY (.inl i)) hi hq
      set U : Itv → Fin n ⊕ κ → Itv := fun v => withUnknowns Y (Function.update (fun j => Y (.inl j)) i v) with hU
      have upd : ∀ (v : Itv) (P : Fin n ⊕ κ → Itv → Prop), P (.inl i) v → (∀ j, P j (Y j)) → ∀ j, P j (U v j) := by
        intro v P h1 h2 j
        rcases j with j | k
        · by_cases hj : j = i
          · subst hj; simpa [hU, withUnknowns] using h1
          · simpa [hU, withUnknowns, Function.update_of_ne hj] using h2 (.inl j)
        · exact h2 (.inr k)
      have sub : ∀ v : Itv, v.NE φ → v.set ⊆ (Y (.inl i)).set → v.set ≠ (Y (.inl i)).set →
          (∀ j, (U v j).NE φ) ∧ ∑ j : Fin n, (numsIn φ (U v (.inl j))).ncard < m := fun v h1 h2 h3 => by
        refine ⟨upd v (fun _ v => v.NE φ) h1 hY, lt_of_lt_of_le (Finset.sum_lt_sum (fun j _ => ?_) ⟨i, Finset.mem_univ _, ?_⟩) hn⟩
        · by_cases hj : j = i
          · subst hj
            simp only [hU, withUnknowns, Sum.elim_inl, Function.update_self]
            exact (numsIn_lt h1 (hY _) h2 h3).le
          · simp only [hU, withUnknowns, Sum.elim_inl, Function.update_of_ne hj]
            exact le_rfl
        · simp only [hU, withUnknowns, Sum.elim_inl, Function.update_self]
          exact numsIn_lt h1 (hY _) h2 h3
      obtain ⟨a1, a2⟩ := sub a hane (by rw [has]; exact inter_subset_left) fun h => by
        rw [← h, has] at hr'; exact absurd hr'.2 (not_le.mpr hqr)
      obtain ⟨b1, b2⟩ := sub b hbne (by rw [hbs]; exact inter_subset_left) fun h => by
        rw [← h, hbs] at hr; exact absurd hr.2 (not_le.mpr hrq)
      obtain ⟨L, L1, L2, L3, L4, L5⟩ := ih _ a2 _ a1 le_rfl
      obtain ⟨R, R1, R2, R3, R4, R5⟩ := ih _ b2 _ b1 le_rfl
      refine ⟨L ++ R, fun l₁ l₂ s d => ?_, fun Z hZ => ?_, fun Z hZ j => ?_, fun Z hZ k => ?_, fun t ht => ?_⟩
      · have s1 : SolveRun φ piv e J ⟨l₁ ++ Y :: l₂, s, d⟩ _ := .single (.split (i := i) ha hb)
        have s2 := L1 l₁ (U b :: l₂) s d
        have s3 := R1 (l₁ ++ L) l₂ s d
        have s4 : SolveRun φ piv e J _ _ := s1.trans (s2.trans s3)
        simpa using s4
      · rcases List.mem_append.mp hZ with h | h
        · exact L2 Z h
        · exact R2 Z h
      · rcases List.mem_append.mp hZ with h | h
        · exact (L3 Z h j).trans (upd a (fun j v => v.set ⊆ (Y j).set) (by rw [has]; exact inter_subset_left) (fun _ => subset_rfl) j)
        · exact (R3 Z h j).trans (upd b (fun j v => v.set ⊆ (Y j).set) (by rw [hbs]; exact inter_subset_left) (fun _ => subset_rfl) j)
      · rcases List.mem_append.mp hZ with h | h
        · exact (L4 Z h k).trans rfl
        · exact (R4 Z h k).trans rfl
      · have upd' : ∀ v : Itv, t i ∈ v.set → ∀ j, t j ∈ (U v (.inl j)).set := by
          intro v h1 j
          by_cases hj : j = i
          · subst hj; simpa [hU, withUnknowns] using h1
          · simpa [hU, withUnknowns, Function.update_of_ne hj] using ht j
        rcases le_total (t i) q with hq | hq
        · obtain ⟨Z, h1, h2⟩ := L5 t (upd' a (by rw [has]; exact ⟨ht i, hq⟩))
          exact ⟨Z, List.mem_append_left _ h1, h2⟩
        · obtain ⟨Z, h1, h2⟩ := R5 t (upd' b (by rw [hbs]; exact ⟨ht i, hq⟩))
          exact ⟨Z, List.mem_append_right _ h1, h2⟩

/-- All boxes can be thrown away or given up. -/
theorem drop_all75 (e : Fin n → Expr (Fin n ⊕ κ)) (J : Fin n → Fin n → Expr (Fin n ⊕ κ)) (s : List (Fin n ⊕ κ → Itv)) :
    ∀ l d : List (Fin n ⊕ κ → Itv), ∃ d', SolveRun φ piv e J ⟨l, s, d⟩ ⟨[], s, d'⟩ ∧
      ∀ Y, Y ∈ d' ↔ Y ∈ d ∨ Y ∈ l ∧ ∀ i, ((e i).eval φ Y).isMember (.fin 0) = true := by
  intro l
  induction l with
  | nil => exact fun d => ⟨d, .refl, by simp⟩
  | cons Z l ih =>
    intro d
    by_cases hc : ∀ i, ((e i).eval φ Z).isMember (.fin 0) = true
    · obtain ⟨d', h1, h2⟩ := ih (Z :: d)
      refine ⟨d', (Relation.ReflTransGen.single (SolveStep.giveUp (l₁ := []))).trans h1, fun Y => ?_⟩
      rw [h2, List.mem_cons, List.mem_cons]
      constructor
      · rintro ((rfl | h) | h)
        · exact Or.inr ⟨Or.inl rfl, hc⟩
        · exact Or.inl h
        · exact Or.inr ⟨Or.inr h.1, h.2⟩
      · rintro (h | ⟨rfl | h, h'⟩)
        · exact Or.inl (Or.inr h)
        · exact Or.inl (Or.inl rfl)
        · exact Or.inr ⟨h, h'⟩
    · push Not at hc
      obtain ⟨i, hi⟩ := hc
      obtain ⟨d', h1, h2⟩ := ih d
      refine ⟨d', (Relation.ReflTransGen.single (SolveStep.drop (l₁ := []) i (by simpa using hi))).trans h1, fun Y => ?_⟩
      rw [h2, List.mem_cons]
      constructor
      · rintro (h | h)
        · exact Or.inl h
        · exact Or.inr ⟨Or.inr h.1, h.2⟩
      · rintro (h | ⟨rfl | h, h'⟩)
        · exact Or.inl h
        · exact absurd (h' i) hi
        · exact Or.inr ⟨h, h'⟩

theorem pos_below75 {ι : Type} [Fintype ι] {r : ι → ℝ} (hr : ∀ i, 0 < r i) : ∃ ρ : ℝ, 0 < ρ ∧ ∀ i, ρ ≤ r i := by
  have h0 : 0 ≤ ∑ i, 1 / r i := Finset.sum_nonneg fun i _ => (one_div_pos.mpr (hr i)).le
  refine ⟨1 / (1 + ∑ i, 1 / r i), by positivity, fun i => ?_⟩
  have h1 : 1 / r i ≤ ∑ i, 1 / r i := Finset.single_le_sum (f := fun i => 1 / r i) (fun i _ => (one_div_pos.mpr (hr i)).le) (Finset.mem_univ i)
  rw [div_le_iff₀ (by positivity)]
  have h2 : r i * (1 / r i) = 1 := mul_one_div_cancel (hr i).ne'
  nlinarith [hr i]

theorem abs_le_sum75 {ι : Type} [Fintype ι] (M : ι → ℝ) (i : ι) : M i ≤ ∑ i, |M i| :=
  (le_abs_self _).trans (Finset.single_le_sum (f := fun i => |M i|) (fun _ _ => abs_nonneg _) (Finset.mem_univ i))

/-- **The search can always be reduced to near solutions**: if the formulas are tame on a bounded box, then from every non-empty box in it
whose parameters have sides of at most `δ` some sequence of steps leads to a state in which nothing is left to be examined, no solution is
lost, and over all remaining boxes all formulas are at most `K · (δ + 2^(1-p))` in absolute value.  (Also for `double` and formulas with the
tangent: the boxes are bisected until they are small enough.) -/
theorem C75_reach [Finite κ] (e : Fin n → Expr (Fin n ⊕ κ)) {a b : Fin n ⊕ κ → ℝ}
    (h : ∀ t, (∀ j, a j ≤ t j ∧ t j ≤ b j) → ∀ i, (e i).TameAt t) :
    ∃ K r M : ℝ, 0 ≤ K ∧ 0 < r ∧ ∀ φ : Fmt, φ.relUnit ≤ r → M ≤ φ.maxFin → ∀ (piv : ∀ n, (Fin (n + 1) → Itv) → Fin (n + 1))
      (J : Fin n → Fin n → Expr (Fin n ⊕ κ)) (X : Fin n ⊕ κ → Itv) (δ : ℝ), 0 ≤ δ → δ ≤ r → (∀ j, (X j).Ok φ) → (∀ j, (X j).set.Nonempty) →
      (∀ j, ∀ s ∈ (X j).set, a j ≤ s ∧ s ≤ b j) → (∀ k, ∀ s ∈ (X (.inr k)).set, ∀ s' ∈ (X (.inr k)).set, |s - s'| ≤ δ) →
      ∃ S, SolveRun φ piv e J ⟨[X], [], []⟩ S ∧ S.todo = [] ∧ S.sure = [] ∧
        (∀ c : κ → ℝ, (∀ k, c k ∈ (X (.inr k)).set) → SolveSound e X S c) ∧
        ∀ Y ∈ S.doubt, (∀ j, (Y j).set.Nonempty) ∧
          ∀ t : Fin n ⊕ κ → ℝ, (∀ j, t j ∈ (Y j).set) → ∀ i, |(e i).val t| ≤ K * (δ + φ.relUnit) := by
  cases nonempty_fintype κ
  choose K r M hr N using fun i => C64_box (e i) fun t ht => h t ht i
  choose r₀ M₀ hr₀ N₀ using fun i => C64_tan_narrow (e i) fun t ht => h t ht i
  obtain ⟨ρ, hρ, hρr⟩ := pos_below75 hr
  obtain ⟨ρ₀, hρ₀, hρr₀⟩ := pos_below75 hr₀
  set B := ∑ j, (|a j| + |b j|) with hBd
  have hB : ∀ j, |a j| + |b j| ≤ B := fun j =>
    Finset.single_le_sum (f := fun j => |a j| + |b j|) (fun _ _ => by positivity) (Finset.mem_univ j)
  have hB0 : 0 ≤ B := Finset.sum_nonneg fun _ _ => by positivity
  set C := 2 * (B + 1) with hC
  have hC1 : 1 ≤ C := by rw [hC]; linarith
  have hK0 : 0 ≤ ∑ i, |K i| := Finset.sum_nonneg fun _ _ => abs_nonneg _
  refine ⟨(∑ i, |K i|) * (C + 1), min (min ρ ρ₀) (min ρ ρ₀ / C), max (max (∑ i, |M i|) (∑ i, |M₀ i|)) B, by positivity,
    lt_min (lt_min hρ hρ₀) (by positivity), fun φ hε hM piv J X δ hδ hδr hX hne hab hpar => ?_⟩
  have hε0 := relUnit_pos (φ := φ)
  have hCε : C * φ.relUnit ≤ min ρ ρ₀ := by
    have := hε.trans (min_le_right _ _)
    rw [le_div_iff₀ (by positivity)] at this
    linarith
  have hε1 := hε.trans (min_le_left _ _)
  have hδ1 := hδr.trans (min_le_left _ _)
  have hM1 : ∀ i, M i ≤ (φ.maxFin : ℝ) := fun i => (abs_le_sum75 M i).trans (((le_max_left _ _).trans (le_max_left _ _)).trans hM)
  have hM2 : ∀ i, M₀ i ≤ (φ.maxFin : ℝ) := fun i => (abs_le_sum75 M₀ i).trans (((le_max_right _ _).trans (le_max_left _ _)).trans hM)
  have hM3 : B ≤ (φ.maxFin : ℝ) := (le_max_right _ _).trans hM
  have hXN : ∀ j, (X j).NE φ := fun j => (hX j).cases.resolve_left fun h => by
    have := hne j; rw [h] at this; obtain ⟨s, hs⟩ := this; simp at hs
  obtain ⟨L, L1, L2, L3, L4, L5⟩ := split_all75 (piv := piv) e J _ X hXN le_rfl
  have run1 : SolveRun φ piv e J ⟨[X], [], []⟩ ⟨L, [], []⟩ := by simpa using L1 [] [] [] []
  obtain ⟨d, run2, hd⟩ := drop_all75 (φ := φ) (piv := piv) e J [] L []
  have hd' : ∀ Y, Y ∈ d ↔ Y ∈ L ∧ ∀ i, ((e i).eval φ Y).isMember (.fin 0) = true := by simpa using hd
  have inab : ∀ Y ∈ L, ∀ j, ∀ s ∈ (Y j).set, a j ≤ s ∧ s ≤ b j := fun Y hY j s hs => hab j s (L3 Y hY j hs)
  have hw1 : C * φ.relUnit ≤ δ + C * φ.relUnit := by linarith
  have thin : ∀ Y ∈ L, ∀ j, ∀ s ∈ (Y j).set, ∀ s' ∈ (Y j).set, |s - s'| ≤ max δ (C * φ.relUnit) := fun Y hY j => by
    rcases j with i | k
    · intro s hs s' hs'
      refine (atomic_narrow ((L2 Y hY).2 i) (B := B) (fun s hs => ?_) hM3 s hs s' hs').trans (le_max_right _ _)
      obtain ⟨h1, h2⟩ := inab Y hY _ s hs
      have := hB (.inl i)
      exact abs_le.mpr ⟨by linarith [neg_abs_le (a (.inl i)), abs_nonneg (b (.inl i))], by linarith [le_abs_self (b (.inl i)), abs_nonneg (a (.inl i))]⟩
    · rw [L4 Y hY k]
      exact fun s hs s' hs' => (hpar k s hs s' hs').trans (le_max_left _ _)
  have hmax : max δ (C * φ.relUnit) ≤ min ρ ρ₀ := max_le hδ1 hCε
  have hmax0 : 0 ≤ max δ (C * φ.relUnit) := hδ.trans (le_max_left _ _)
  have val : ∀ Y ∈ L, ∀ t : Fin n ⊕ κ → ℝ, (∀ j, t j ∈ (Y j).set) → ∀ i, t ∈ (e i).dom → (e i).val t ∈ ((e i).eval φ Y).set := fun Y hY t ht i hdom => by
    have hok := fun j => ((L2 Y hY).1 j).ok
    have := N₀ i φ (hε1.trans ((min_le_right _ _).trans (hρr₀ i))) (hM2 i) Y hok (fun j => ((L2 Y hY).1 j).nonempty) (inab Y hY)
      fun j s hs s' hs' => (thin Y hY j s hs s' hs').trans (hmax.trans ((min_le_right _ _).trans (hρr₀ i)))
    exact (C18_ftia_safe_partial (e i) Y hok ((Expr.TanNarrow.safeIn this hok).self hok)).2 t ht hdom
  refine ⟨⟨[], [], d⟩, run1.trans run2, rfl, rfl, fun c hc => ⟨fun Y hY j => ?_, fun u hu => ?_, by simp⟩,
    fun Y hY => ⟨fun j => ((L2 Y ((hd' Y).mp hY).1).1 j).nonempty, fun t ht i => ?_⟩⟩
  · exact L3 Y ((hd' Y).mp (by simpa [SolveState.all] using hY)).1 j
  · obtain ⟨Y, hY, hm⟩ := L5 u hu.1
    refine ⟨Y, ?_, hm⟩
    have : Y ∈ d := (hd' Y).mpr ⟨hY, fun i => by
      have hv := val Y hY (Sum.elim u c) (by
        rintro (j | k)
        · exact hm j
        · rw [L4 Y hY]; exact hc k) i (hu.2 i).1
      rw [(hu.2 i).2] at hv
      exact (C24_is_member ((e i).eval_ok18 fun j => ((L2 Y hY).1 j).ok) (.fin 0)).mpr ⟨0, Or.inr ⟨0, rfl, by simp⟩, hv⟩⟩
    simpa [SolveState.all] using this
  · obtain ⟨hYL, h0⟩ := (hd' Y).mp hY
    obtain ⟨z, hz, hzm⟩ := (C24_is_member ((e i).eval_ok18 fun j => ((L2 Y hYL).1 j).ok) (.fin 0)).mp (h0 i)
    obtain rfl : z = 0 := by
      rcases hz with ⟨h, -⟩ | ⟨q, h, rfl⟩
      · exact absurd h (by simp)
      · obtain rfl : q = 0 := by simpa using h.symm
        simp
    have := N i φ (hε1.trans ((min_le_left _ _).trans (hρr i))) (hM1 i) Y (fun j => ((L2 Y hYL).1 j).ok) (inab Y hYL) _ hmax0
      (hmax.trans ((min_le_left _ _).trans (hρr i))) (thin Y hYL) t ht 0 hzm
    rw [zero_sub, abs_neg] at this
    refine this.trans ?_
    have h1 : max δ (C * φ.relUnit) + φ.relUnit ≤ (C + 1) * (δ + φ.relUnit) := by
      have : max δ (C * φ.relUnit) ≤ C * (δ + φ.relUnit) := max_le (by nlinarith) (by nlinarith)
      nlinarith
    calc K i * (max δ (C * φ.relUnit) + φ.relUnit) ≤ (∑ i, |K i|) * (max δ (C * φ.relUnit) + φ.relUnit) :=
          mul_le_mul_of_nonneg_right (abs_le_sum75 K i) (by linarith)
      _ ≤ (∑ i, |K i|) * ((C + 1) * (δ + φ.relUnit)) := mul_le_mul_of_nonneg_left h1 hK0
      _ = _ := by ring

/-- **That there is no solution can always be proved**: if the formulas are tame on a bounded box and nowhere all zero, then in every
precise enough format and from every non-empty box in it with narrow parameters, some sequence of steps throws everything away. -/
theorem C75_refutes [Finite κ] (e : Fin n → Expr (Fin n ⊕ κ)) {a b : Fin n ⊕ κ → ℝ}
    (h : ∀ t, (∀ j, a j ≤ t j ∧ t j ≤ b j) → ∀ i, (e i).TameAt t)
    (h0 : ∀ t, (∀ j, a j ≤ t j ∧ t j ≤ b j) → ∃ i, (e i).val t ≠ 0) :
    ∃ r M : ℝ, 0 < r ∧ ∀ φ : Fmt, φ.relUnit ≤ r → M ≤ φ.maxFin → ∀ (piv : ∀ n, (Fin (n + 1) → Itv) → Fin (n + 1))
      (J : Fin n → Fin n → Expr (Fin n ⊕ κ)) (X : Fin n ⊕ κ → Itv), (∀ j, (X j).Ok φ) → (∀ j, (X j).set.Nonempty) →
      (∀ j, ∀ s ∈ (X j).set, a j ≤ s ∧ s ≤ b j) → (∀ k, ∀ s ∈ (X (.inr k)).set, ∀ s' ∈ (X (.inr k)).set, |s - s'| ≤ r) →
      SolveRun φ piv e J ⟨[X], [], []⟩ ⟨[], [], []⟩ := by
  obtain ⟨K, r, M, hK, hr, N⟩ := C75_reach e h
  -- the formulas stay away from zero
  obtain ⟨η, hη, hmin⟩ : ∃ η : ℝ, 0 < η ∧ ∀ t, (∀ j, a j ≤ t j ∧ t j ≤ b j) → η ≤ ∑ i, |(e i).val t| := by
    have hc : IsCompact {t : Fin n ⊕ κ → ℝ | ∀ j, a j ≤ t j ∧ t j ≤ b j} := by
      have := isCompact_univ_pi (fun j => isCompact_Icc (a := a j) (b := b j))
      convert this using 1; ext t; simp only [Set.mem_pi, Set.mem_univ, true_imp_iff, Set.mem_Icc, Set.mem_ofPred_eq]
    rcases eq_empty_or_nonempty {t : Fin n ⊕ κ → ℝ | ∀ j, a j ≤ t j ∧ t j ≤ b j} with he | hne
    · exact ⟨1, one_pos, fun t ht => absurd ht (eq_empty_iff_forall_notMem.mp he t)⟩
    · obtain ⟨t, ht, hm⟩ := hc.exists_isMinOn hne (f := fun t => ∑ i, |(e i).val t|) fun t ht =>
        (tendsto_finset_sum _ fun i _ => ((continuousAt_of_tame (h t ht i)).abs)).mono_left nhdsWithin_le_nhds
      refine ⟨_, ?_, fun t' ht' => hm ht'⟩
      obtain ⟨i, hi⟩ := h0 t ht
      exact lt_of_lt_of_le (abs_pos.mpr hi) (Finset.single_le_sum (f := fun i => |(e i).val t|) (fun _ _ => abs_nonneg _) (Finset.mem_univ i))
  refine ⟨min r (η / (2 * n * K + 1) / 2), M, lt_min hr (by positivity), fun φ hε hM piv J X hX hne hab hpar => ?_⟩
  have hr0 : 0 < min r (η / (2 * n * K + 1) / 2) := lt_min hr (by positivity)
  obtain ⟨⟨t', s, d⟩, h1, rfl, rfl, h4, h5⟩ := N φ (hε.trans (min_le_left _ _)) hM piv J X _ hr0.le (min_le_left _ _) hX hne hab hpar
  cases d with
  | nil => exact h1
  | cons Y d =>
    exfalso
    obtain ⟨k1, k2⟩ := h5 Y (by simp)
    choose t ht using k1
    choose c hc using fun k => hne (.inr k)
    have hin := (h4 c hc).inside Y (by simp [SolveState.all])
    have h6 := hmin t fun j => hab j _ (hin j (ht j))
    have h7 : ∑ i, |(e i).val t| ≤ ∑ _i : Fin n, K * (η / (2 * n * K + 1)) := Finset.sum_le_sum fun i _ => by
      refine (k2 t ht i).trans (mul_le_mul_of_nonneg_left ?_ hK)
      have := min_le_right r (η / (2 * n * K + 1) / 2)
      linarith
    rw [Finset.sum_const, Finset.card_univ, Fintype.card_fin, nsmul_eq_mul] at h7
    have h8 : (n : ℝ) * (K * (η / (2 * n * K + 1))) < η := by
      have h9 : (0:ℝ) ≤ n * K := by positivity
      rw [← mul_assoc, mul_div_assoc', div_lt_iff₀ (by positivity)]
      nlinarith
    linarith

/-- The hypotheses are met by `exp x = 0` on `[0, 1]`: tame and without solution. -/
example : ∃ r M : ℝ, 0 < r ∧ ∀ φ : Fmt, φ.relUnit ≤ r → M ≤ φ.maxFin → ∀ (piv : ∀ n, (Fin (n + 1) → Itv) → Fin (n + 1))
    (J : Fin 1 → Fin 1 → Expr (Fin 1 ⊕ Empty)) (X : Fin 1 ⊕ Empty → Itv), (∀ j, (X j).Ok φ) → (∀ j, (X j).set.Nonempty) →
    (∀ j, ∀ s ∈ (X j).set, (0:ℝ) ≤ s ∧ s ≤ 1) → SolveRun φ piv (fun _ => .un .exp (.var (.inl 0))) J ⟨[X], [], []⟩ ⟨[], [], []⟩ := by
  obtain ⟨r, M, hr, N⟩ := C75_refutes (fun _ : Fin 1 => .un .exp (.var (.inl 0) : Expr (Fin 1 ⊕ Empty))) (a := fun _ => 0) (b := fun _ => 1)
    (fun t _ _ => ⟨trivial, trivial⟩) (fun t _ => ⟨0, (Real.exp_pos _).ne'⟩)
  exact ⟨r, M, hr, fun φ h1 h2 piv J X h3 h4 h5 => N φ h1 h2 piv J X h3 h4 h5 (fun k => k.elim)⟩

end P1788
