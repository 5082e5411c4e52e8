import Verif.Model.Gauss
import Verif.Props.C35b
import Verif.Lemmas.Search
import Mathlib.Data.Matrix.Mul
import Mathlib.LinearAlgebra.Matrix.NonsingularInverse

/-!
# C73: systems of linear equations

If interval Gaussian elimination ends with a result, every system with coefficients in the given intervals has one and only one
solution, and it lies in the computed box.
-/

namespace P1788
variable {φ : Fmt} {n : ℕ}

theorem mem_sub73 {x y : Itv} (hx : x.Ok φ) (hy : y.Ok φ) {s t : ℝ} (h : s ∈ x.set) (k : t ∈ y.set) : s - t ∈ (φ.subI x y).set :=
  (C01_sub φ hx hy).2.1 ⟨s, h, t, k, rfl⟩

theorem mem_mul73 {x y : Itv} (hx : x.Ok φ) (hy : y.Ok φ) {s t : ℝ} (h : s ∈ x.set) (k : t ∈ y.set) : s * t ∈ (φ.mulI x y).set :=
  (C02_mul φ hx hy).2.1 ⟨s, h, t, k, rfl⟩

theorem mem_div73 {x y : Itv} (hx : x.Ok φ) (hy : y.Ok φ) {s t : ℝ} (h : s ∈ x.set) (k : t ∈ y.set) (h0 : t ≠ 0) :
    s / t ∈ (φ.divI x y).set :=
  (C03_div φ hx hy).2.1 ⟨s, h, t, k, h0, rfl⟩

theorem ok_subProducts {b : Itv} {a x : Fin n → Itv} (hb : b.Ok φ) (ha : ∀ j, (a j).Ok φ) (hx : ∀ j, (x j).Ok φ) :
    (subProducts φ b a x).Ok φ := by
  unfold subProducts
  generalize List.finRange n = l
  induction l generalizing b with
  | nil => exact hb
  | cons j l ih => exact ih (C01_sub φ hb (C02_mul φ (ha j) (hx j)).1).1

theorem mem_subProducts {b : Itv} {a x : Fin n → Itv} (hb : b.Ok φ) (ha : ∀ j, (a j).Ok φ) (hx : ∀ j, (x j).Ok φ) {t : ℝ}
    {u v : Fin n → ℝ} (ht : t ∈ b.set) (hu : ∀ j, u j ∈ (a j).set) (hv : ∀ j, v j ∈ (x j).set) :
    t - ∑ j, u j * v j ∈ (subProducts φ b a x).set := by
  have key : ∀ (l : List (Fin n)) {b : Itv} {t : ℝ}, b.Ok φ → t ∈ b.set →
      t - (l.map fun j => u j * v j).sum ∈ (l.foldl (fun s j => φ.subI s (φ.mulI (a j) (x j))) b).set := by
    intro l
    induction l with
    | nil => intro b t _ h; simpa using h
    | cons j l ih =>
      intro b t hb ht
      have hm := (C02_mul φ (ha j) (hx j)).1
      have := ih (C01_sub φ hb hm).1 (mem_sub73 hb hm ht (mem_mul73 (ha j) (hx j) (hu j) (hv j)))
      rw [List.map_cons, List.sum_cons, ← sub_sub]
      exact this
  rw [Fin.sum_univ_def]
  exact key _ hb ht

/-- One step of the elimination for real numbers: with a pivot that is not zero, the system is equivalent to the equation of the
pivot row, solved for the first unknown, and the reduced system. -/
theorem reduce73 {p : Fin (n + 1)} {M : Fin (n + 1) → Fin (n + 1) → ℝ} {v : Fin (n + 1) → ℝ} (h0 : M p 0 ≠ 0) (x : Fin (n + 1) → ℝ) :
    (∀ i, ∑ j, M i j * x j = v i) ↔ x 0 = (v p - ∑ j : Fin n, M p j.succ * x j.succ) / M p 0 ∧
      ∀ i : Fin n, ∑ j : Fin n, (M (p.succAbove i) j.succ - M (p.succAbove i) 0 / M p 0 * M p j.succ) * x j.succ =
        v (p.succAbove i) - M (p.succAbove i) 0 / M p 0 * v p := by
  rw [Fin.forall_iff_succAbove p]
  simp only [Fin.sum_univ_succ]
  have e1 : (M p 0 * x 0 + ∑ j : Fin n, M p j.succ * x j.succ = v p) ↔ x 0 = (v p - ∑ j : Fin n, M p j.succ * x j.succ) / M p 0 := by
    rw [eq_div_iff h0]; constructor <;> intro h <;> linarith
  rw [e1]
  refine and_congr_right fun hx => forall_congr' fun i => ?_
  have e2 : ∑ j : Fin n, (M (p.succAbove i) j.succ - M (p.succAbove i) 0 / M p 0 * M p j.succ) * x j.succ =
      ∑ j : Fin n, M (p.succAbove i) j.succ * x j.succ - M (p.succAbove i) 0 / M p 0 * ∑ j : Fin n, M p j.succ * x j.succ := by
    rw [Finset.mul_sum, ← Finset.sum_sub_distrib]
    exact Finset.sum_congr rfl fun j _ => by ring
  rw [e2, hx]
  field_simp
  constructor <;> intro h <;> linarith

/-- What one call of `gauss` does for a system with at least one equation. -/
theorem gauss_succ {piv : ∀ n, (Fin (n + 1) → Itv) → Fin (n + 1)} {A : Fin (n + 1) → Fin (n + 1) → Itv} {b : Fin (n + 1) → Itv}
    {X : Fin (n + 1) → Itv} (h : gauss φ piv (n + 1) A b = some X) :
    ∃ (p : Fin (n + 1)) (X' : Fin n → Itv), p = piv n (fun i => A i 0) ∧ (A p 0).isMember (.fin 0) = false ∧
      gauss φ piv n
        (fun i j => φ.subI (A (p.succAbove i) j.succ) (φ.mulI (φ.divI (A (p.succAbove i) 0) (A p 0)) (A p j.succ)))
        (fun i => φ.subI (b (p.succAbove i)) (φ.mulI (φ.divI (A (p.succAbove i) 0) (A p 0)) (b p))) = some X' ∧
      X = Fin.cons (φ.divI (subProducts φ (b p) (fun j => A p j.succ) X') (A p 0)) X' := by
  unfold gauss at h
  simp only at h
  split_ifs at h with hm
  obtain ⟨X', h1, h2⟩ := Option.map_eq_some_iff.mp h
  exact ⟨_, X', rfl, by simpa using hm, h1, h2.symm⟩

theorem gauss_sound (piv : ∀ n, (Fin (n + 1) → Itv) → Fin (n + 1)) {A : Fin n → Fin n → Itv} {b X : Fin n → Itv}
    (hA : ∀ i j, (A i j).Ok φ) (hb : ∀ i, (b i).Ok φ) (h : gauss φ piv n A b = some X) :
    (∀ i, (X i).Ok φ) ∧ ∀ (M : Fin n → Fin n → ℝ) (v : Fin n → ℝ), (∀ i j, M i j ∈ (A i j).set) → (∀ i, v i ∈ (b i).set) →
      ∃ x : Fin n → ℝ, (∀ i, x i ∈ (X i).set) ∧ ∀ y : Fin n → ℝ, (∀ i, ∑ j, M i j * y j = v i) ↔ y = x := by
  induction n with
  | zero => exact ⟨fun i => i.elim0, fun M v _ _ => ⟨Fin.elim0, fun i => i.elim0, fun y =>
      ⟨fun _ => funext fun i => i.elim0, fun _ i => i.elim0⟩⟩⟩
  | succ n ih =>
    obtain ⟨p, X', -, hm, h1, rfl⟩ := gauss_succ h
    have of : ∀ i, (φ.divI (A i 0) (A p 0)).Ok φ := fun i => (C03_div φ (hA i 0) (hA p 0)).1
    obtain ⟨o, k⟩ := ih (fun i j => (C01_sub φ (hA _ _) (C02_mul φ (of _) (hA _ _)).1).1)
      (fun i => (C01_sub φ (hb _) (C02_mul φ (of _) (hb _)).1).1) h1
    have os := ok_subProducts (hb p) (fun j => hA p (Fin.succ j)) o
    refine ⟨fun i => Fin.cases (C03_div φ os (hA p 0)).1 o i, fun M v hM hv => ?_⟩
    have h0 : M p 0 ≠ 0 := by
      intro h0
      have := (isMember_zero (hA p 0)).mpr (h0 ▸ hM p 0)
      rw [hm] at this
      exact Bool.false_ne_true this
    have mf : ∀ i, M i 0 / M p 0 ∈ (φ.divI (A i 0) (A p 0)).set := fun i => mem_div73 (hA i 0) (hA p 0) (hM i 0) (hM p 0) h0
    obtain ⟨x, hx, hu⟩ := k
      (fun i j => M (p.succAbove i) j.succ - M (p.succAbove i) 0 / M p 0 * M p j.succ)
      (fun i => v (p.succAbove i) - M (p.succAbove i) 0 / M p 0 * v p)
      (fun i j => mem_sub73 (hA _ _) (C02_mul φ (of _) (hA _ _)).1 (hM _ _) (mem_mul73 (of _) (hA _ _) (mf _) (hM _ _)))
      (fun i => mem_sub73 (hb _) (C02_mul φ (of _) (hb _)).1 (hv _) (mem_mul73 (of _) (hb _) (mf _) (hv _)))
    refine ⟨Fin.cons ((v p - ∑ j : Fin n, M p j.succ * x j) / M p 0) x, fun i => ?_, fun y => ?_⟩
    · refine Fin.cases ?_ hx i
      exact mem_div73 os (hA p 0) (mem_subProducts (hb p) (fun j => hA p _) o (hv p) (fun j => hM p _) hx) (hM p 0) h0
    · rw [reduce73 h0, hu (fun j => y j.succ)]
      constructor
      · rintro ⟨h1, rfl⟩
        funext i
        exact Fin.cases h1 (fun _ => rfl) i
      · rintro rfl
        exact ⟨by simp, by funext j; simp⟩

/-- **C73**: if the elimination ends with a box, every system with coefficients and right-hand sides in the given intervals has an
invertible matrix and one solution, which lies in the box; whatever the pivot strategy. -/
theorem C73_solution (piv : ∀ n, (Fin (n + 1) → Itv) → Fin (n + 1)) {A : Fin n → Fin n → Itv} {b X : Fin n → Itv}
    (hA : ∀ i j, (A i j).Ok φ) (hb : ∀ i, (b i).Ok φ) (h : gauss φ piv n A b = some X) (M : Matrix (Fin n) (Fin n) ℝ)
    (v : Fin n → ℝ) (hM : ∀ i j, M i j ∈ (A i j).set) (hv : ∀ i, v i ∈ (b i).set) :
    M.det ≠ 0 ∧ ∃ x : Fin n → ℝ, (∀ i, x i ∈ (X i).set) ∧ M.mulVec x = v ∧ ∀ y, M.mulVec y = v → y = x := by
  obtain ⟨x, hx, hu⟩ := (gauss_sound piv hA hb h).2 M v hM hv
  have e : ∀ y : Fin n → ℝ, M.mulVec y = v ↔ y = x := fun y => by
    rw [← hu y]
    exact funext_iff
  refine ⟨fun hd => ?_, x, hx, (e x).mpr rfl, fun y => (e y).mp⟩
  obtain ⟨z, hz, h0⟩ := Matrix.exists_mulVec_eq_zero_iff.mpr hd
  have := (e (x + z)).mp (by rw [Matrix.mulVec_add, h0, add_zero]; exact (e x).mpr rfl)
  exact hz (by simpa using this)

/-- The result consists of valid intervals. -/
theorem C73_valid (piv : ∀ n, (Fin (n + 1) → Itv) → Fin (n + 1)) {A : Fin n → Fin n → Itv} {b X : Fin n → Itv}
    (hA : ∀ i j, (A i j).Ok φ) (hb : ∀ i, (b i).Ok φ) (h : gauss φ piv n A b = some X) : ∀ i, (X i).Ok φ :=
  (gauss_sound piv hA hb h).1

theorem mono_subProducts {b b' : Itv} {a a' x x' : Fin n → Itv} (hb : b.Ok φ) (ha : ∀ j, (a j).Ok φ) (hx : ∀ j, (x j).Ok φ)
    (hb' : b'.Ok φ) (ha' : ∀ j, (a' j).Ok φ) (hx' : ∀ j, (x' j).Ok φ) (h : b.set ⊆ b'.set) (k : ∀ j, (a j).set ⊆ (a' j).set)
    (l : ∀ j, (x j).set ⊆ (x' j).set) : (subProducts φ b a x).set ⊆ (subProducts φ b' a' x').set := by
  unfold subProducts
  generalize List.finRange n = L
  induction L generalizing b b' with
  | nil => exact h
  | cons j L ih =>
    have m := (C02_mul φ (ha j) (hx j)).1
    have m' := (C02_mul φ (ha' j) (hx' j)).1
    exact ih (C01_sub φ hb m).1 (C01_sub φ hb' m').1
      (C35_binary .sub hb hb' m m' h (C35_binary .mul (ha j) (ha' j) (hx j) (hx' j) (k j) (l j)))

/-- **Narrower data, narrower result**: with the same pivot rows, if the elimination succeeds it also succeeds for narrower
intervals, with a result inside. -/
theorem C73_isotone (q : ∀ n, Fin (n + 1)) {A A' : Fin n → Fin n → Itv} {b b' X' : Fin n → Itv} (hA : ∀ i j, (A i j).Ok φ)
    (hb : ∀ i, (b i).Ok φ) (hA' : ∀ i j, (A' i j).Ok φ) (hb' : ∀ i, (b' i).Ok φ) (h : ∀ i j, (A i j).set ⊆ (A' i j).set)
    (k : ∀ i, (b i).set ⊆ (b' i).set) (hr : gauss φ (fun n _ => q n) n A' b' = some X') :
    ∃ X, gauss φ (fun n _ => q n) n A b = some X ∧ ∀ i, (X i).set ⊆ (X' i).set := by
  induction n with
  | zero => exact ⟨_, rfl, fun i => i.elim0⟩
  | succ n ih =>
    obtain ⟨p, Y', hp, hm, h1, rfl⟩ := gauss_succ hr
    have of : ∀ i, (φ.divI (A i 0) (A p 0)).Ok φ := fun i => (C03_div φ (hA i 0) (hA p 0)).1
    have of' : ∀ i, (φ.divI (A' i 0) (A' p 0)).Ok φ := fun i => (C03_div φ (hA' i 0) (hA' p 0)).1
    have mf : ∀ i, (φ.divI (A i 0) (A p 0)).set ⊆ (φ.divI (A' i 0) (A' p 0)).set := fun i =>
      C35_binary .div (hA i 0) (hA' i 0) (hA p 0) (hA' p 0) (h i 0) (h p 0)
    have mm : ∀ i {x y : Itv}, x.Ok φ → y.Ok φ → x.set ⊆ y.set →
        (φ.mulI (φ.divI (A i 0) (A p 0)) x).set ⊆ (φ.mulI (φ.divI (A' i 0) (A' p 0)) y).set := fun i x y hx hy hs =>
      C35_binary .mul (of i) (of' i) hx hy (mf i) hs
    have oA : ∀ i j : Fin n, (φ.subI (A (p.succAbove i) j.succ) (φ.mulI (φ.divI (A (p.succAbove i) 0) (A p 0)) (A p j.succ))).Ok φ :=
      fun i j => (C01_sub φ (hA _ _) (C02_mul φ (of _) (hA _ _)).1).1
    have oA' : ∀ i j : Fin n, (φ.subI (A' (p.succAbove i) j.succ) (φ.mulI (φ.divI (A' (p.succAbove i) 0) (A' p 0)) (A' p j.succ))).Ok φ :=
      fun i j => (C01_sub φ (hA' _ _) (C02_mul φ (of' _) (hA' _ _)).1).1
    have ob : ∀ i : Fin n, (φ.subI (b (p.succAbove i)) (φ.mulI (φ.divI (A (p.succAbove i) 0) (A p 0)) (b p))).Ok φ :=
      fun i => (C01_sub φ (hb _) (C02_mul φ (of _) (hb _)).1).1
    have ob' : ∀ i : Fin n, (φ.subI (b' (p.succAbove i)) (φ.mulI (φ.divI (A' (p.succAbove i) 0) (A' p 0)) (b' p))).Ok φ :=
      fun i => (C01_sub φ (hb' _) (C02_mul φ (of' _) (hb' _)).1).1
    obtain ⟨Y, e, hY⟩ := ih oA ob oA' ob'
      (fun i j => C35_binary .sub (hA _ _) (hA' _ _) (C02_mul φ (of _) (hA _ _)).1 (C02_mul φ (of' _) (hA' _ _)).1 (h _ _)
        (mm _ (hA _ _) (hA' _ _) (h _ _)))
      (fun i => C35_binary .sub (hb _) (hb' _) (C02_mul φ (of _) (hb _)).1 (C02_mul φ (of' _) (hb' _)).1 (k _)
        (mm _ (hb _) (hb' _) (k _))) h1
    have hm' : (A p 0).isMember (.fin 0) = false := by
      rw [Bool.eq_false_iff] at hm ⊢
      exact fun hc => hm ((isMember_zero (hA' p 0)).mpr (h p 0 ((isMember_zero (hA p 0)).mp hc)))
    have oY := C73_valid _ oA ob e
    have oY' := C73_valid _ oA' ob' h1
    subst hp
    refine ⟨Fin.cons (φ.divI (subProducts φ (b (q n)) (fun j => A (q n) j.succ) Y) (A (q n) 0)) Y, ?_, fun i => ?_⟩
    · unfold gauss
      simp only
      rw [hm', if_neg (by simp), e]
      rfl
    · refine Fin.cases ?_ hY i
      exact C35_binary .div (ok_subProducts (hb _) (fun j => hA _ _) oY) (ok_subProducts (hb' _) (fun j => hA' _ _) oY')
        (hA _ _) (hA' _ _)
        (mono_subProducts (hb _) (fun j => hA _ _) oY (hb' _) (fun j => hA' _ _) oY' (k _) (fun j => h _ _) hY) (h _ _)

theorem tight_eq73 {R Y : Itv} {S : Set ℝ} (h : Tightest φ R S) (hY : Y.Ok φ) (e : S = Y.set) : R.set = Y.set :=
  Set.Subset.antisymm (h.2.2 Y hY e.le) (e ▸ h.2.1)

/-- **Triangular systems are always solved**: if the intervals below the diagonal are zero, those on it do not contain zero, and none
is empty, the elimination without row exchanges ends with a box. -/
theorem C73_triangular {A : Fin n → Fin n → Itv} {b : Fin n → Itv} (hA : ∀ i j, (A i j).Ok φ ∧ (A i j).set.Nonempty)
    (hl : ∀ i j, j < i → (A i j).set = {0}) (hd : ∀ i, (0:ℝ) ∉ (A i i).set) :
    ∃ X, gauss φ (fun _ _ => 0) n A b = some X := by
  have oz : (Itv.mk (.fin 0) (.fin 0)).Ok φ := (ne_fin φ.rep_zero φ.rep_zero le_rfl).ok
  have ez : (Itv.mk (.fin 0) (.fin 0)).set = {(0:ℝ)} := by rw [set_fin]; simp
  induction n with
  | zero => exact ⟨_, rfl⟩
  | succ n ih =>
    have hm : (A 0 0).isMember (.fin 0) = false :=
      Bool.eq_false_iff.mpr fun h => hd 0 ((isMember_zero (hA 0 0).1).mp h)
    have of : ∀ i : Fin n, (φ.divI (A i.succ 0) (A 0 0)).Ok φ := fun i => (C03_div φ (hA _ 0).1 (hA 0 0).1).1
    have ef : ∀ i : Fin n, (φ.divI (A i.succ 0) (A 0 0)).set = {0} := fun i => by
      rw [← ez]
      refine tight_eq73 (C03_div φ (hA _ 0).1 (hA 0 0).1) oz ?_
      rw [ez, hl i.succ 0 (Fin.succ_pos i)]
      ext z
      constructor
      · rintro ⟨a, rfl, c, -, -, rfl⟩; simp
      · rintro rfl
        obtain ⟨c, hc⟩ := (hA 0 0).2
        exact ⟨0, rfl, c, hc, fun h => hd 0 (h ▸ hc), by simp⟩
    have om : ∀ i j : Fin n, (φ.mulI (φ.divI (A i.succ 0) (A 0 0)) (A 0 j.succ)).Ok φ := fun i j => (C02_mul φ (of i) (hA _ _).1).1
    have em : ∀ i j : Fin n, (φ.mulI (φ.divI (A i.succ 0) (A 0 0)) (A 0 j.succ)).set = {0} := fun i j => by
      rw [← ez]
      refine tight_eq73 (C02_mul φ (of i) (hA _ _).1) oz ?_
      rw [ez, ef i]
      ext z
      constructor
      · rintro ⟨a, rfl, c, -, rfl⟩; simp
      · rintro rfl
        obtain ⟨c, hc⟩ := (hA 0 j.succ).2
        exact ⟨0, rfl, c, hc, by simp⟩
    have es : ∀ i j : Fin n, (φ.subI (A i.succ j.succ) (φ.mulI (φ.divI (A i.succ 0) (A 0 0)) (A 0 j.succ))).set =
        (A i.succ j.succ).set := fun i j => by
      refine tight_eq73 (C01_sub φ (hA _ _).1 (om i j)) (hA _ _).1 ?_
      rw [em i j]
      ext z
      constructor
      · rintro ⟨a, ha, c, rfl, rfl⟩; simpa using ha
      · intro h; exact ⟨z, h, 0, rfl, by simp⟩
    obtain ⟨X, h⟩ := ih (A := fun i j => φ.subI (A i.succ j.succ) (φ.mulI (φ.divI (A i.succ 0) (A 0 0)) (A 0 j.succ)))
      (b := fun i => φ.subI (b i.succ) (φ.mulI (φ.divI (A i.succ 0) (A 0 0)) (b 0)))
      (fun i j => ⟨(C01_sub φ (hA _ _).1 (om i j)).1, by rw [es]; exact (hA _ _).2⟩)
      (fun i j hij => by rw [es]; exact hl _ _ (Fin.succ_lt_succ_iff.mpr hij))
      (fun i => by rw [es]; exact hd _)
    refine ⟨Fin.cons (φ.divI (subProducts φ (b 0) (fun j => A 0 j.succ) X) (A 0 0)) X, ?_⟩
    unfold gauss
    simp only [Fin.zero_succAbove]
    rw [hm, if_neg (by simp), h]
    rfl

/-- Non-vacuity: a triangular system with an unbounded coefficient. -/
example : ∃ A : Fin 2 → Fin 2 → Itv, (∀ i j, (A i j).Ok binary64 ∧ (A i j).set.Nonempty) ∧ (∀ i j, j < i → (A i j).set = {0}) ∧
    ∀ i, (0:ℝ) ∉ (A i i).set := by
  refine ⟨![![⟨.fin 2, .fin 3⟩, ⟨.ninf, .pinf⟩], ![⟨.fin 0, .fin 0⟩, ⟨.fin 3, .fin 4⟩]], ?_, ?_, ?_⟩
  · intro i j
    fin_cases i <;> fin_cases j <;> refine ⟨Itv.ok_of_okb (by decide +kernel), ?_⟩
    · exact ⟨2, by simp [Itv.set, FP.BelowR, FP.AboveR]; norm_num⟩
    · exact ⟨2, by simp [Itv.set, FP.BelowR, FP.AboveR]⟩
    · exact ⟨0, by simp [Itv.set, FP.BelowR, FP.AboveR]⟩
    · exact ⟨3, by simp [Itv.set, FP.BelowR, FP.AboveR]; norm_num⟩
  · intro i j h
    fin_cases i <;> fin_cases j <;> first | exact absurd h (by decide) | skip
    show (Itv.mk (.fin 0) (.fin 0)).set = {(0:ℝ)}
    rw [set_fin]; simp
  · intro i
    fin_cases i <;> simp [Itv.set, FP.BelowR, FP.AboveR]

/-- Non-vacuity: `[2,3] x + y = [3,5]`, `x + [3,4] y = [4,6]`, solved. -/
example : ∃ X, gauss binary64 (fun _ _ => 0) 2 ![![⟨.fin 2, .fin 3⟩, ⟨.fin 1, .fin 1⟩], ![⟨.fin 1, .fin 1⟩, ⟨.fin 3, .fin 4⟩]]
    ![⟨.fin 3, .fin 5⟩, ⟨.fin 4, .fin 6⟩] = some X :=
  Option.isSome_iff_exists.mp (by decide +kernel)

end P1788
