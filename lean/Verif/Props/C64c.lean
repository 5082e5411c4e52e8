import Verif.Props.C64b
import Verif.Props.C24
import Verif.Props.C35

/-! # C64, consequences: what is true with room to spare is found out on fine enough boxes -/

namespace P1788
variable {ι : Type}

/-- From points to boxes: a property of formats and boxes that holds near every point of a bounded box holds for all
small parts of the box. -/
theorem uniform_of_local [Finite ι] {Q : Fmt → (ι → Itv) → Prop} {a b : ι → ℝ}
    (h : ∀ t : ι → ℝ, (∀ i, a i ≤ t i ∧ t i ≤ b i) → ∃ r M : ℝ, 0 < r ∧ ∀ φ : Fmt, φ.relUnit ≤ r → M ≤ φ.maxFin → ∀ X : ι → Itv,
      (∀ i, (X i).Ok φ) → (∀ i, ∀ s ∈ (X i).set, |s - t i| ≤ r) → Q φ X) :
    ∃ r M : ℝ, 0 < r ∧ ∀ φ : Fmt, φ.relUnit ≤ r → M ≤ φ.maxFin → ∀ X : ι → Itv, (∀ i, (X i).Ok φ) →
      (∀ i, (X i).set.Nonempty) → (∀ i, ∀ s ∈ (X i).set, a i ≤ s ∧ s ≤ b i) →
      (∀ i, ∀ s ∈ (X i).set, ∀ s' ∈ (X i).set, |s - s'| ≤ r) → Q φ X := by
  have hc : IsCompact {t : ι → ℝ | ∀ i, a i ≤ t i ∧ t i ≤ b i} := by
    have := isCompact_univ_pi (fun i => isCompact_Icc (a := a i) (b := b i))
    convert this using 1; ext t; simp only [Set.mem_pi, Set.mem_univ, true_imp_iff, Set.mem_Icc, Set.mem_ofPred_eq]
  have key := hc.induction_on (p := fun S => ∃ r M : ℝ, 0 < r ∧ ∀ φ : Fmt, φ.relUnit ≤ r → M ≤ φ.maxFin → ∀ X : ι → Itv,
      (∀ i, (X i).Ok φ) → ∀ s ∈ S, (∀ i, ∀ a ∈ (X i).set, |a - s i| ≤ r) → Q φ X)
      ⟨1, 0, one_pos, fun _ _ _ _ _ s hs => absurd hs (by simp)⟩ ?_ ?_ ?_
  · obtain ⟨r, M, hr, hN⟩ := key
    exact ⟨r, M, hr, fun φ hu hM X hX hne hab hw => hN φ hu hM X hX (fun i => (hne i).some) (fun i => hab i _ (hne i).some_mem)
      fun i a ha => hw i a ha _ (hne i).some_mem⟩
  · rintro A B hAB ⟨r, M, hr, h⟩
    exact ⟨r, M, hr, fun φ hu hM X hX s hs => h φ hu hM X hX s (hAB hs)⟩
  · rintro A B ⟨r, M, hr, h⟩ ⟨r', M', hr', h'⟩
    refine ⟨min r r', max M M', lt_min hr hr', fun φ hu hM X hX s hs hx => ?_⟩
    rcases hs with hs | hs
    · exact h φ (hu.trans (min_le_left _ _)) ((le_max_left _ _).trans hM) X hX s hs
        (fun i a ha => (hx i a ha).trans (min_le_left _ _))
    · exact h' φ (hu.trans (min_le_right _ _)) ((le_max_right _ _).trans hM) X hX s hs
        (fun i a ha => (hx i a ha).trans (min_le_right _ _))
  · intro t ht
    obtain ⟨r, M, hr, hN⟩ := h t ht
    refine ⟨{s | ∀ i, |s i - t i| ≤ r / 2}, mem_nhdsWithin_of_mem_nhds ?_, r / 2, M, by linarith,
      fun φ hu hM X hX s hs hx => hN φ (by linarith) hM X hX fun i a ha => near_two (hx i a ha) (hs i) (by linarith)⟩
    have : Fintype ι := Fintype.ofFinite ι
    filter_upwards [Metric.closedBall_mem_nhds t (half_pos hr)] with s hs i
    have := (dist_le_pi_dist s t i).trans hs
    rwa [Real.dist_eq] at this

/-- **C64**, the tangent: on all small enough parts of a bounded box on which the formula is tame the tangent is only applied to
intervals of a width of at most 3; the exceptions of C11 do not occur, in any precise enough format. -/
theorem C64_tan_narrow [Finite ι] (e : Expr ι) {a b : ι → ℝ} (h : ∀ t, (∀ i, a i ≤ t i ∧ t i ≤ b i) → e.TameAt t) :
    ∃ r M : ℝ, 0 < r ∧ ∀ φ : Fmt, φ.relUnit ≤ r → M ≤ φ.maxFin → ∀ X : ι → Itv, (∀ i, (X i).Ok φ) →
      (∀ i, (X i).set.Nonempty) → (∀ i, ∀ s ∈ (X i).set, a i ≤ s ∧ s ≤ b i) →
      (∀ i, ∀ s ∈ (X i).set, ∀ s' ∈ (X i).set, |s - s'| ≤ r) → e.TanNarrow φ X := by
  induction e with
  | var i => exact ⟨1, 0, one_pos, fun _ _ _ _ _ _ _ _ => trivial⟩
  | un op e ih =>
    obtain ⟨r, M, hr, hN⟩ := ih fun t ht => (h t ht).1
    obtain ⟨K, r', M', hr', hB⟩ := C64_box e fun t ht => (h t ht).1
    have h0 : 0 < 1 / (2 * (|K| + 1)) := by positivity
    refine ⟨min (min r r') (1 / (2 * (|K| + 1))), max M M', lt_min (lt_min hr hr') h0, fun φ hu hM X hX hne hab hw => ?_⟩
    simp only [le_min_iff] at hu hw
    refine ⟨hN φ hu.1.1 ((le_max_left _ _).trans hM) X hX hne hab fun i s hs s' hs' => (hw i s hs s' hs').1.1, fun _ v hv v' hv' => ?_⟩
    choose s hs using hne
    have key := hB φ hu.1.2 ((le_max_right _ _).trans hM) X hX hab (min r' (1 / (2 * (|K| + 1)))) (le_min hr'.le h0.le)
      (min_le_left _ _) (fun i s hs s' hs' => le_min (hw i s hs s' hs').1.2 (hw i s hs s' hs').2) s hs
    have hb : K * (min r' (1 / (2 * (|K| + 1))) + φ.relUnit) ≤ 1 := by
      have e1 : min r' (1 / (2 * (|K| + 1))) + φ.relUnit ≤ 1 / (|K| + 1) := by
        have : 1 / (|K| + 1) = 1 / (2 * (|K| + 1)) + 1 / (2 * (|K| + 1)) := by field_simp; norm_num
        rw [this]; exact add_le_add (min_le_right _ _) hu.2
      have e0 : 0 ≤ min r' (1 / (2 * (|K| + 1))) + φ.relUnit := by
        have := relUnit_pos (φ := φ); have := le_min hr'.le h0.le; linarith
      calc K * (min r' (1 / (2 * (|K| + 1))) + φ.relUnit) ≤ |K| * (1 / (|K| + 1)) :=
            mul_le_mul (le_abs_self K) e1 e0 (abs_nonneg K)
        _ ≤ 1 := by rw [mul_one_div, div_le_one (by positivity)]; linarith
    have k1 := abs_le.mp ((key v hv).trans hb)
    have k2 := abs_le.mp ((key v' hv').trans hb)
    exact abs_le.mpr ⟨by linarith, by linarith⟩
  | bin op e₁ e₂ ih₁ ih₂ =>
    obtain ⟨r, M, hr, hN⟩ := ih₁ fun t ht => (h t ht).1
    obtain ⟨r', M', hr', hN'⟩ := ih₂ fun t ht => (h t ht).2.1
    refine ⟨min r r', max M M', lt_min hr hr', fun φ hu hM X hX hne hab hw => ?_⟩
    simp only [le_min_iff] at hu hw
    simp only [max_le_iff] at hM
    exact ⟨hN φ hu.1 hM.1 X hX hne hab fun i s hs s' hs' => (hw i s hs s' hs').1,
      hN' φ hu.2 hM.2 X hX hne hab fun i s hs s' hs' => (hw i s hs s' hs').2⟩
  | fma e₁ e₂ e₃ ih₁ ih₂ ih₃ =>
    obtain ⟨r, M, hr, hN⟩ := ih₁ fun t ht => (h t ht).1
    obtain ⟨r', M', hr', hN'⟩ := ih₂ fun t ht => (h t ht).2.1
    obtain ⟨r₃, M₃, hr₃, hN₃⟩ := ih₃ fun t ht => (h t ht).2.2
    refine ⟨min (min r r') r₃, max (max M M') M₃, lt_min (lt_min hr hr') hr₃, fun φ hu hM X hX hne hab hw => ?_⟩
    simp only [le_min_iff] at hu hw
    simp only [max_le_iff] at hM
    exact ⟨hN φ hu.1.1 hM.1.1 X hX hne hab fun i s hs s' hs' => (hw i s hs s' hs').1.1,
      hN' φ hu.1.2 hM.1.2 X hX hne hab fun i s hs s' hs' => (hw i s hs s' hs').1.2,
      hN₃ φ hu.2 hM.2 X hX hne hab fun i s hs s' hs' => (hw i s hs s' hs').2⟩

/-- **C64**: if the real values of a formula on a bounded box lie in an open set, then so do its interval values on all small
enough parts of the box, in every format that is precise enough. -/
theorem C64_open [Finite ι] (e : Expr ι) {a b : ι → ℝ} (h : ∀ t, (∀ i, a i ≤ t i ∧ t i ≤ b i) → e.TameAt t) {U : Set ℝ}
    (hU : IsOpen U) (hv : ∀ t, (∀ i, a i ≤ t i ∧ t i ≤ b i) → e.val t ∈ U) :
    ∃ r M : ℝ, 0 < r ∧ ∀ φ : Fmt, φ.relUnit ≤ r → M ≤ φ.maxFin → ∀ X : ι → Itv, (∀ i, (X i).Ok φ) →
      (∀ i, (X i).set.Nonempty) → (∀ i, ∀ s ∈ (X i).set, a i ≤ s ∧ s ≤ b i) →
      (∀ i, ∀ s ∈ (X i).set, ∀ s' ∈ (X i).set, |s - s'| ≤ r) → (e.eval φ X).set ⊆ U := by
  refine uniform_of_local fun t ht => ?_
  obtain ⟨K, r, M, hK, hr, hN⟩ := narrow e (h t ht)
  obtain ⟨ε, hε, hb⟩ := Metric.nhds_basis_closedBall.mem_iff.mp (hU.mem_nhds (hv t ht))
  obtain ⟨r', h0, hrr, hKr⟩ := small_radius hK hr hε
  refine ⟨r' / 2, M, by linarith, fun φ hu hM X hX hx v hv => hb ?_⟩
  rw [Metric.mem_closedBall, Real.dist_eq]
  refine ((hN.2 φ hM X hX t (fun i => by simpa using hr.le) (r' / 2) (by linarith) (by linarith) hx).2 v hv).trans ?_
  have : K * (r' / 2 + φ.relUnit) ≤ K * r' := mul_le_mul_of_nonneg_left (by linarith) hK
  linarith

/-- **C64**: a bisection loses every part without zeros.  If a formula has no zero on a bounded box, `is_member(0, ·)` fails for
its interval values on all small enough parts of the box. -/
theorem C64_no_zero [Finite ι] (e : Expr ι) {a b : ι → ℝ} (h : ∀ t, (∀ i, a i ≤ t i ∧ t i ≤ b i) → e.TameAt t)
    (hv : ∀ t, (∀ i, a i ≤ t i ∧ t i ≤ b i) → e.val t ≠ 0) :
    ∃ r M : ℝ, 0 < r ∧ ∀ φ : Fmt, φ.relUnit ≤ r → M ≤ φ.maxFin → ∀ X : ι → Itv, (∀ i, (X i).Ok φ) →
      (∀ i, (X i).set.Nonempty) → (∀ i, ∀ s ∈ (X i).set, a i ≤ s ∧ s ≤ b i) →
      (∀ i, ∀ s ∈ (X i).set, ∀ s' ∈ (X i).set, |s - s'| ≤ r) → (e.eval φ X).isMember (.fin 0) = false := by
  obtain ⟨r, M, hr, hQ⟩ := C64_open e h (U := {0}ᶜ) isOpen_compl_singleton hv
  refine ⟨r, M, hr, fun φ hu hM X hX hne hab hw => ?_⟩
  rw [Bool.eq_false_iff]
  intro hm
  obtain ⟨v, hv, hs⟩ := (C24_is_member (e.eval_ok18 hX) _).mp hm
  have h0 : v = 0 := by simpa [FP.HasValue] using hv.symm
  exact hQ φ hu hM X hX hne hab hw hs h0

/-- **C64**: comparisons are decided.  If one formula is below another on a bounded box, `strictly_precedes` holds between their
interval values on all small enough parts of the box. -/
theorem C64_less [Finite ι] (e e' : Expr ι) {a b : ι → ℝ} (h : ∀ t, (∀ i, a i ≤ t i ∧ t i ≤ b i) → e.TameAt t)
    (h' : ∀ t, (∀ i, a i ≤ t i ∧ t i ≤ b i) → e'.TameAt t)
    (hv : ∀ t, (∀ i, a i ≤ t i ∧ t i ≤ b i) → e.val t < e'.val t) :
    ∃ r M : ℝ, 0 < r ∧ ∀ φ : Fmt, φ.relUnit ≤ r → M ≤ φ.maxFin → ∀ X : ι → Itv, (∀ i, (X i).Ok φ) →
      (∀ i, (X i).set.Nonempty) → (∀ i, ∀ s ∈ (X i).set, a i ≤ s ∧ s ≤ b i) →
      (∀ i, ∀ s ∈ (X i).set, ∀ s' ∈ (X i).set, |s - s'| ≤ r) → (e.eval φ X).strictlyPrecedes (e'.eval φ X) = true := by
  refine uniform_of_local fun t ht => ?_
  obtain ⟨K, r, M, hK, hr, hN⟩ := narrow e (h t ht)
  obtain ⟨K', r₁, M', hK', hr', hN'⟩ := narrow e' (h' t ht)
  have hd : 0 < e'.val t - e.val t := by have := hv t ht; linarith
  obtain ⟨r', h0, hrr, hKr⟩ := small_radius (K := K + K') (by positivity) (lt_min hr hr') hd
  rw [le_min_iff] at hrr
  refine ⟨r' / 2, max M M', by linarith, fun φ hu hM X hX hx => ?_⟩
  rw [max_le_iff] at hM
  obtain ⟨o1, b1⟩ := hN.2 φ hM.1 X hX t (fun i => by simpa using hr.le) (r' / 2) (by linarith) (by linarith) hx
  obtain ⟨o2, b2⟩ := hN'.2 φ hM.2 X hX t (fun i => by simpa using hr'.le) (r' / 2) (by linarith) (by linarith) hx
  refine (C22_strictly_precedes o1 o2).mpr fun s hs s' hs' => ?_
  have c1 := abs_le.mp (b1 s hs)
  have c2 := abs_le.mp (b2 s' hs')
  have e1 : K * (r' / 2 + φ.relUnit) ≤ K * r' := mul_le_mul_of_nonneg_left (by linarith) hK
  have e2 : K' * (r' / 2 + φ.relUnit) ≤ K' * r' := mul_le_mul_of_nonneg_left (by linarith) hK'
  nlinarith [c1.2, c2.1]

/-- Non-vacuity: `exp(x)` is tame and has no zero on `[0,1]`. -/
example : (∀ t : Unit → ℝ, (∀ i, (0:ℝ) ≤ t i ∧ t i ≤ 1) → (Expr.un .exp (.var ())).TameAt t) ∧
    ∀ t : Unit → ℝ, (∀ i, (0:ℝ) ≤ t i ∧ t i ≤ 1) → (Expr.un .exp (.var ())).val t ≠ 0 :=
  ⟨fun _ _ => ⟨trivial, trivial⟩, fun t _ => (Real.exp_pos _).ne'⟩

end P1788
