import Verif.Props.C75b

/-!
# C73: systems near a regular one are solved

For every invertible matrix there is an order of the pivots such that, in all precise enough formats, the elimination ends with a box
for all interval matrices near it, and the box is as small as the right-hand sides.
-/

namespace P1788
variable {φ : Fmt} {n : ℕ}

/-- For real numbers: elimination with row `q k` as the pivot row of the system with `k + 1` equations never meets a zero pivot. -/
def Pivots (q : ∀ n, Fin (n + 1)) : (n : ℕ) → (Fin n → Fin n → ℝ) → Prop
  | 0, _ => True
  | n + 1, A => A (q n) 0 ≠ 0 ∧
    Pivots q n fun i j => A ((q n).succAbove i) j.succ - A ((q n).succAbove i) 0 / A (q n) 0 * A (q n) j.succ

theorem pivots_congr {q q' : ∀ n, Fin (n + 1)} {A : Fin n → Fin n → ℝ} (h : ∀ k < n, q k = q' k) (hp : Pivots q n A) : Pivots q' n A := by
  induction n with
  | zero => trivial
  | succ n ih =>
    obtain ⟨h1, h2⟩ := hp
    rw [h n (Nat.lt_succ_self n)] at h1 h2
    exact ⟨h1, ih (fun k hk => h k (by omega)) h2⟩

/-- For every invertible matrix there is an order of the pivots. -/
theorem exists_pivots {A : Matrix (Fin n) (Fin n) ℝ} (h : A.det ≠ 0) : ∃ q, Pivots q n A := by
  have inj : ∀ y : Fin n → ℝ, (∀ i, ∑ j, A i j * y j = 0) → y = 0 := fun y hy => by
    by_contra hne
    exact h (Matrix.exists_mulVec_eq_zero_iff.mp ⟨y, hne, funext hy⟩)
  clear h
  revert A
  induction n with
  | zero => exact fun _ => ⟨fun _ => 0, trivial⟩
  | succ n ih =>
    intro A inj
    obtain ⟨p, hp⟩ : ∃ p, A p 0 ≠ 0 := by
      by_contra hc
      push Not at hc
      have := congrFun (inj (Pi.single 0 1) fun i => by
        rw [Finset.sum_eq_single 0] <;> simp +contextual [hc]) 0
      simp at this
    obtain ⟨q, hq⟩ := ih (A := Matrix.of fun i j => A (p.succAbove i) j.succ - A (p.succAbove i) 0 / A p 0 * A p j.succ) fun y hy => by
      have := inj (Fin.cons ((0 - ∑ j : Fin n, A p j.succ * y j) / A p 0) y)
        ((reduce73 (v := fun _ => 0) hp _).mpr ⟨by simp, fun i => by simpa using hy i⟩)
      funext j
      have := congrFun this j.succ
      simpa using this
    refine ⟨Function.update q n p, ?_, ?_⟩
    · simpa using hp
    · simp only [Function.update_self]
      exact pivots_congr (fun k hk => (Function.update_of_ne hk.ne _ _).symm) hq

/-- A tightest enclosure of small numbers is small. -/
theorem Tightest.small {R : Itv} {S : Set ℝ} (h : Tightest φ R S) {d : ℝ} (hS : ∀ z ∈ S, |z| ≤ d) (hd : 0 ≤ d)
    (hm : d ≤ (φ.maxFin : ℝ)) (hε : φ.relUnit ≤ 1) : ∀ v ∈ R.set, |v| ≤ 2 * d + φ.relUnit := by
  intro v hv
  have := h.close (c := 0) (d := d) (B := d) (by simpa using hS) (by simp) hd hm v hv
  rw [sub_zero] at this
  nlinarith

theorem small_sub {x y : Itv} (hx : x.Ok φ) (hy : y.Ok φ) {P Q : ℝ} (hP : ∀ v ∈ x.set, |v| ≤ P) (hQ : ∀ v ∈ y.set, |v| ≤ Q)
    (hP0 : 0 ≤ P) (hQ0 : 0 ≤ Q) (hm : P + Q ≤ (φ.maxFin : ℝ)) (hε : φ.relUnit ≤ 1) :
    ∀ v ∈ (φ.subI x y).set, |v| ≤ 2 * (P + Q) + φ.relUnit :=
  (C01_sub φ hx hy).small (by rintro z ⟨a, ha, b, hb, rfl⟩; exact (abs_sub a b).trans (add_le_add (hP a ha) (hQ b hb))) (by linarith) hm hε

theorem small_mul {x y : Itv} (hx : x.Ok φ) (hy : y.Ok φ) {P Q : ℝ} (hP : ∀ v ∈ x.set, |v| ≤ P) (hQ : ∀ v ∈ y.set, |v| ≤ Q)
    (hP0 : 0 ≤ P) (hQ0 : 0 ≤ Q) (hm : P * Q ≤ (φ.maxFin : ℝ)) (hε : φ.relUnit ≤ 1) :
    ∀ v ∈ (φ.mulI x y).set, |v| ≤ 2 * (P * Q) + φ.relUnit :=
  (C02_mul φ hx hy).small (by
    rintro z ⟨a, ha, b, hb, rfl⟩
    rw [abs_mul]
    exact mul_le_mul (hP a ha) (hQ b hb) (abs_nonneg _) hP0) (mul_nonneg hP0 hQ0) hm hε

theorem small_div {x y : Itv} (hx : x.Ok φ) (hy : y.Ok φ) {P κ : ℝ} (hP : ∀ v ∈ x.set, |v| ≤ P) (hQ : ∀ v ∈ y.set, κ ≤ |v|)
    (hP0 : 0 ≤ P) (hκ : 0 < κ) (hm : P / κ ≤ (φ.maxFin : ℝ)) (hε : φ.relUnit ≤ 1) :
    ∀ v ∈ (φ.divI x y).set, |v| ≤ 2 * (P / κ) + φ.relUnit :=
  (C03_div φ hx hy).small (by
    rintro z ⟨a, ha, b, hb, -, rfl⟩
    rw [abs_div]
    exact div_le_div₀ hP0 (hP a ha) hκ (hQ b hb)) (by positivity) hm hε

theorem small_subProducts {b : Itv} {a x : Fin n → Itv} (hb : b.Ok φ) (ha : ∀ j, (a j).Ok φ) (hx : ∀ j, (x j).Ok φ) {P ξ σ : ℝ}
    (h1 : ∀ v ∈ b.set, |v| ≤ σ) (h2 : ∀ j, ∀ v ∈ (a j).set, |v| ≤ P) (h3 : ∀ j, ∀ v ∈ (x j).set, |v| ≤ ξ) (hσ : 0 ≤ σ) (hP : 0 ≤ P)
    (hξ : 0 ≤ ξ) (hε : φ.relUnit ≤ 1) (hm : (4 * P + 4) ^ n * (σ + ξ + φ.relUnit) ≤ (φ.maxFin : ℝ)) :
    ∀ v ∈ (subProducts φ b a x).set, |v| ≤ (4 * P + 4) ^ n * (σ + ξ + φ.relUnit) := by
  have e0 := relUnit_pos (φ := φ)
  have G1 : 1 ≤ 4 * P + 4 := by linarith
  have key : ∀ (l : List (Fin n)) {b : Itv} {σ : ℝ}, b.Ok φ → (∀ v ∈ b.set, |v| ≤ σ) → 0 ≤ σ →
      (4 * P + 4) ^ l.length * (σ + ξ + φ.relUnit) ≤ (φ.maxFin : ℝ) →
      ∀ v ∈ (l.foldl (fun s j => φ.subI s (φ.mulI (a j) (x j))) b).set, |v| ≤ (4 * P + 4) ^ l.length * (σ + ξ + φ.relUnit) := by
    intro l
    induction l with
    | nil => intro b σ _ h1 hσ hm v hv; have := h1 v hv; simp; linarith
    | cons j l ih =>
      intro b σ hb h1 hσ hm v hv
      have om := (C02_mul φ (ha j) (hx j)).1
      have Gl : 1 ≤ (4 * P + 4) ^ l.length := one_le_pow₀ G1
      have hτ : 0 ≤ σ + ξ + φ.relUnit := by linarith
      have hm' : (4 * P + 4) * (σ + ξ + φ.relUnit) ≤ (φ.maxFin : ℝ) := by
        refine le_trans ?_ hm
        rw [List.length_cons, pow_succ, mul_assoc]
        exact le_mul_of_one_le_left (by positivity) Gl
      have hPξ : 0 ≤ P * ξ := mul_nonneg hP hξ
      have hPσ : 0 ≤ P * σ := mul_nonneg hP hσ
      have hPε : 0 ≤ P * φ.relUnit := mul_nonneg hP e0.le
      have m1 := small_mul (ha j) (hx j) (h2 j) (h3 j) hP hξ (by nlinarith) hε
      have m2 := small_sub hb om h1 m1 hσ (by positivity) (by nlinarith) hε
      have le : 2 * (σ + (2 * (P * ξ) + φ.relUnit)) + φ.relUnit + ξ + φ.relUnit ≤ (4 * P + 4) * (σ + ξ + φ.relUnit) := by nlinarith
      have step : (4 * P + 4) ^ l.length * (2 * (σ + (2 * (P * ξ) + φ.relUnit)) + φ.relUnit + ξ + φ.relUnit) ≤
          (4 * P + 4) ^ (j :: l).length * (σ + ξ + φ.relUnit) := by
        rw [List.length_cons, pow_succ, mul_assoc]
        exact mul_le_mul_of_nonneg_left le (by positivity)
      exact (ih (C01_sub φ hb om).1 m2 (by positivity) (step.trans hm) v hv).trans step
  have := key (List.finRange n) hb h1 hσ (by simpa using hm)
  simpa [subProducts] using this

/-- What the elimination makes of one coefficient. -/
def schurExpr : Expr (Fin 4) := .bin .sub (.var 0) (.bin .mul (.bin .div (.var 1) (.var 2)) (.var 3))

/-- One step of the elimination: constants for the reduced system give constants for the whole one. -/
theorem regular_step {A₀ : Fin (n + 1) → Fin (n + 1) → ℝ} {p : Fin (n + 1)} (h0 : A₀ p 0 ≠ 0) {C' η' : ℝ} (M' : ℝ) (hC' : 0 ≤ C') (hη' : 0 < η') :
    ∃ C η M : ℝ, 0 ≤ C ∧ 0 < η ∧ ∀ φ : Fmt, φ.relUnit ≤ η → M ≤ φ.maxFin → ∀ (piv : ∀ n, (Fin (n + 1) → Itv) → Fin (n + 1))
      (A : Fin (n + 1) → Fin (n + 1) → Itv) (b : Fin (n + 1) → Itv),
      (∀ i j, (A i j).Ok φ) → (∀ i, (b i).Ok φ) → (∀ i j, ∀ a ∈ (A i j).set, |a - A₀ i j| ≤ η) →
      ∀ β, 0 ≤ β → β ≤ η → (∀ i, ∀ v ∈ (b i).set, |v| ≤ β) → piv n (fun i => A i 0) = p →
      ((∀ v ∈ (A p 0).set, v ≠ 0) → φ.relUnit ≤ η' → M' ≤ φ.maxFin →
        (∀ i j : Fin n, (φ.subI (A (p.succAbove i) j.succ) (φ.mulI (φ.divI (A (p.succAbove i) 0) (A p 0)) (A p j.succ))).Ok φ) →
        (∀ i : Fin n, (φ.subI (b (p.succAbove i)) (φ.mulI (φ.divI (A (p.succAbove i) 0) (A p 0)) (b p))).Ok φ) →
        (∀ i j : Fin n, ∀ v ∈ (φ.subI (A (p.succAbove i) j.succ) (φ.mulI (φ.divI (A (p.succAbove i) 0) (A p 0)) (A p j.succ))).set,
          |v - (A₀ (p.succAbove i) j.succ - A₀ (p.succAbove i) 0 / A₀ p 0 * A₀ p j.succ)| ≤ η') →
        ∀ β', 0 ≤ β' → β' ≤ η' →
        (∀ i : Fin n, ∀ v ∈ (φ.subI (b (p.succAbove i)) (φ.mulI (φ.divI (A (p.succAbove i) 0) (A p 0)) (b p))).set, |v| ≤ β') →
        ∃ X', gauss φ piv n (fun i j => φ.subI (A (p.succAbove i) j.succ) (φ.mulI (φ.divI (A (p.succAbove i) 0) (A p 0)) (A p j.succ)))
            (fun i => φ.subI (b (p.succAbove i)) (φ.mulI (φ.divI (A (p.succAbove i) 0) (A p 0)) (b p))) = some X' ∧
          ∀ i, ∀ v ∈ (X' i).set, |v| ≤ C' * (β' + φ.relUnit)) →
      ∃ X, gauss φ piv (n + 1) A b = some X ∧ ∀ i, ∀ v ∈ (X i).set, |v| ≤ C * (β + φ.relUnit) := by
  choose K r Mx hr NK using fun ij : Fin n × Fin n => C64_point schurExpr
    (t := ![A₀ (p.succAbove ij.1) ij.2.succ, A₀ (p.succAbove ij.1) 0, A₀ p 0, A₀ p ij.2.succ])
    ⟨trivial, ⟨⟨trivial, trivial, h0⟩, trivial, trivial⟩, trivial⟩
  obtain ⟨ρ, hρ, hρr⟩ := pos_below75 hr
  set κ := |A₀ p 0| / 2 with hκd
  have hκ : 0 < κ := by have := abs_pos.mpr h0; rw [hκd]; linarith
  set S := ∑ ij : Fin (n + 1) × Fin (n + 1), |A₀ ij.1 ij.2| with hSd
  have hS0 : 0 ≤ S := Finset.sum_nonneg fun _ _ => abs_nonneg _
  have hS : ∀ i j, |A₀ i j| ≤ S := fun i j =>
    Finset.single_le_sum (f := fun ij : Fin (n + 1) × Fin (n + 1) => |A₀ ij.1 ij.2|) (fun _ _ => abs_nonneg _) (Finset.mem_univ (i, j))
  set P := S + 1 with hPd
  have hP : 0 < P := by rw [hPd]; linarith
  set F := 2 * (P / κ) + 1 with hFd
  have hF : 0 < F := by rw [hFd]; positivity
  set G := (4 * P + 4) ^ n with hGd
  have hG : 0 < G := by rw [hGd]; positivity
  set T := 2 + C' * (η' + 1) with hTd
  have hT : 0 < T := by rw [hTd]; positivity
  have hK0 : 0 ≤ ∑ ij, |K ij| := Finset.sum_nonneg fun _ _ => abs_nonneg _
  have hM0 : 0 ≤ ∑ ij, |Mx ij| := Finset.sum_nonneg fun _ _ => abs_nonneg _
  set D := 1 + C' * (6 + 4 * F) with hDd
  have hD : 0 < D := by rw [hDd]; positivity
  refine ⟨C' * (6 + 4 * F) + (2 * (G * D / κ) + 1),
    min (min (min 1 κ) (min ρ η')) (min (η' / (2 * (∑ ij, |K ij| + 1))) (η' / (2 * (5 + 4 * F)))),
    |M'| + (∑ ij, |Mx ij|) + P / κ + (2 * F + 2) + G * T + G * T / κ, by positivity, by positivity,
    fun φ hε hM piv A b hA hb hn β hβ hβη hbβ hpiv IH => ?_⟩
  have e0 := relUnit_pos (φ := φ)
  simp only [le_min_iff] at hε hβη hn
  obtain ⟨⟨⟨ε1, -⟩, ερ, εη⟩, εK, εF⟩ := hε
  obtain ⟨⟨⟨β1, -⟩, -, -⟩, -, βF⟩ := hβη
  rw [le_div_iff₀ (by positivity)] at εK εF βF
  have pos1 : 0 ≤ P / κ := by positivity
  have pos2 : 0 ≤ G * T := by positivity
  have pos3 : 0 ≤ G * T / κ := by positivity
  have aM := abs_nonneg M'
  have lM := le_abs_self M'
  -- the coefficients
  have bA : ∀ i j, ∀ v ∈ (A i j).set, |v| ≤ P := fun i j v hv => by
    have h1 := (hn i j v hv).1.1.1
    have h2 := hS i j
    have h3 := abs_sub_abs_le_abs_sub v (A₀ i j)
    rw [hPd]; linarith
  have bp : ∀ v ∈ (A p 0).set, κ ≤ |v| := fun v hv => by
    have h1 := (hn p 0 v hv).1.1.2
    have h3 := abs_sub_abs_le_abs_sub (A₀ p 0) v
    rw [abs_sub_comm] at h3
    have : |A₀ p 0| = 2 * κ := by rw [hκd]; ring
    linarith
  have hm : (A p 0).isMember (.fin 0) = false := Bool.eq_false_iff.mpr fun h => by
    have := bp 0 ((isMember_zero (hA p 0)).mp h)
    rw [abs_zero] at this; linarith
  have of : ∀ i, (φ.divI (A i 0) (A p 0)).Ok φ := fun i => (C03_div φ (hA i 0) (hA p 0)).1
  have bf : ∀ i, ∀ v ∈ (φ.divI (A i 0) (A p 0)).set, |v| ≤ F := fun i v hv =>
    (small_div (hA i 0) (hA p 0) (bA i 0) bp hP.le hκ (by linarith) ε1 v hv).trans (by rw [hFd]; linarith)
  -- the reduced system
  have oA' : ∀ i j : Fin n, (φ.subI (A (p.succAbove i) j.succ) (φ.mulI (φ.divI (A (p.succAbove i) 0) (A p 0)) (A p j.succ))).Ok φ :=
    fun i j => (C01_sub φ (hA _ _) (C02_mul φ (of _) (hA _ _)).1).1
  have ob' : ∀ i : Fin n, (φ.subI (b (p.succAbove i)) (φ.mulI (φ.divI (A (p.succAbove i) 0) (A p 0)) (b p))).Ok φ :=
    fun i => (C01_sub φ (hb _) (C02_mul φ (of _) (hb _)).1).1
  set δ := min (min (min 1 κ) (min ρ η')) (min (η' / (2 * (∑ ij, |K ij| + 1))) (η' / (2 * (5 + 4 * F)))) with hδd
  have hδ0 : 0 < δ := by rw [hδd]; positivity
  have δρ : δ ≤ ρ := (min_le_left _ _).trans ((min_le_right _ _).trans (min_le_left _ _))
  have δK : δ * (2 * (∑ ij, |K ij| + 1)) ≤ η' := by
    rw [← le_div_iff₀ (by positivity)]; exact (min_le_right _ _).trans (min_le_left _ _)
  have nδ : ∀ i j, ∀ a ∈ (A i j).set, |a - A₀ i j| ≤ δ := fun i j a ha => by
    rw [hδd]; simp only [le_min_iff]; exact hn i j a ha
  have nA' : ∀ i j : Fin n, ∀ v ∈ (φ.subI (A (p.succAbove i) j.succ) (φ.mulI (φ.divI (A (p.succAbove i) 0) (A p 0)) (A p j.succ))).set,
      |v - (A₀ (p.succAbove i) j.succ - A₀ (p.succAbove i) 0 / A₀ p 0 * A₀ p j.succ)| ≤ η' := fun i j v hv => by
    have hMx : Mx (i, j) ≤ (φ.maxFin : ℝ) := (abs_le_sum75 Mx (i, j)).trans (by linarith)
    have := NK (i, j) φ (ερ.trans (hρr _)) hMx ![A (p.succAbove i) j.succ, A (p.succAbove i) 0, A p 0, A p j.succ]
      (fun k => by fin_cases k <;> exact hA _ _) δ hδ0.le (δρ.trans (hρr _))
      (fun k => by fin_cases k <;> exact nδ _ _) v hv
    refine this.trans ?_
    have hKK := mul_le_mul_of_nonneg_right (abs_le_sum75 K (i, j)) (add_pos hδ0 e0).le
    linarith
  have nb' : ∀ i : Fin n, ∀ v ∈ (φ.subI (b (p.succAbove i)) (φ.mulI (φ.divI (A (p.succAbove i) 0) (A p 0)) (b p))).set,
      |v| ≤ (5 + 4 * F) * (β + φ.relUnit) := fun i v hv => by
    have hFβ : F * β ≤ F := mul_le_of_le_one_right hF.le β1
    have hFβ0 : 0 ≤ F * β := by positivity
    have hFε0 : 0 ≤ F * φ.relUnit := by positivity
    have m1 := small_mul (of (p.succAbove i)) (hb p) (bf _) (hbβ p) hF.le hβ (by linarith) ε1
    have m2 := small_sub (hb (p.succAbove i)) (C02_mul φ (of _) (hb _)).1 (hbβ _) m1 hβ (by positivity) (by linarith) ε1 v hv
    linarith
  have hβ' : (5 + 4 * F) * (β + φ.relUnit) ≤ η' := by linarith
  obtain ⟨X', hX', bX'⟩ := IH (fun v hv h => by have := bp v hv; rw [h, abs_zero] at this; linarith) εη (by linarith) oA' ob' nA' _
    (by positivity) hβ' nb'
  have oX' := (gauss_sound _ oA' ob' hX').1
  set ξ := C' * ((5 + 4 * F) * (β + φ.relUnit) + φ.relUnit) with hξd
  have hξ : 0 ≤ ξ := by rw [hξd]; positivity
  have hτ : β + ξ + φ.relUnit ≤ T := by
    have : ξ ≤ C' * (η' + 1) := mul_le_mul_of_nonneg_left (by linarith) hC'
    rw [hTd]; linarith
  have hξ' : ξ ≤ C' * (6 + 4 * F) * (β + φ.relUnit) := by
    rw [hξd, mul_assoc]
    exact mul_le_mul_of_nonneg_left (by linarith) hC'
  have hτ' : β + ξ + φ.relUnit ≤ D * (β + φ.relUnit) := by rw [hDd]; linarith
  have hGτ : G * (β + ξ + φ.relUnit) ≤ G * T := mul_le_mul_of_nonneg_left hτ hG.le
  have bs := small_subProducts (hb p) (fun j => hA p (Fin.succ j)) oX' (hbβ p) (fun j => bA p _) bX' hβ hP.le hξ ε1
    (hGτ.trans (by linarith))
  have os := ok_subProducts (hb p) (fun j => hA p (Fin.succ j)) oX'
  have bd := small_div os (hA p 0) bs bp (by positivity) hκ ((div_le_div_of_nonneg_right hGτ hκ.le).trans (by linarith)) ε1
  refine ⟨Fin.cons (φ.divI (subProducts φ (b p) (fun j => A p j.succ) X') (A p 0)) X', ?_, fun i => ?_⟩
  · unfold gauss
    simp only
    rw [hpiv, hm, if_neg (by simp), hX']
    rfl
  · have s0 : 0 ≤ β + φ.relUnit := by linarith
    refine Fin.cases (fun v hv => (bd v hv).trans ?_) (fun j v hv => (bX' j v hv).trans (hξ'.trans ?_)) i
    · have h1 : G * (β + ξ + φ.relUnit) / κ ≤ G * D / κ * (β + φ.relUnit) := by
        rw [div_mul_eq_mul_div]
        exact div_le_div_of_nonneg_right (by rw [mul_assoc]; exact mul_le_mul_of_nonneg_left hτ' hG.le) hκ.le
      have h2 : 0 ≤ C' * (6 + 4 * F) * (β + φ.relUnit) := by positivity
      change 2 * (G * (β + ξ + φ.relUnit) / κ) + φ.relUnit ≤ _
      linarith
    · have h2 : 0 ≤ (2 * (G * D / κ) + 1) * (β + φ.relUnit) := by positivity
      linarith

/-- **Systems near a regular one are solved**: if the elimination of a real matrix meets no zero pivot, there are constants such that in
every precise enough format the elimination ends with a box for all interval matrices near the real one, and if the right-hand sides are at
most `β` in absolute value, the solutions are at most `C · (β + 2^(1-p))`. -/
theorem C73_regular {q : ∀ n, Fin (n + 1)} {A₀ : Fin n → Fin n → ℝ} (hp : Pivots q n A₀) :
    ∃ C η M : ℝ, 0 ≤ C ∧ 0 < η ∧ ∀ φ : Fmt, φ.relUnit ≤ η → M ≤ φ.maxFin → ∀ (A : Fin n → Fin n → Itv) (b : Fin n → Itv),
      (∀ i j, (A i j).Ok φ) → (∀ i, (b i).Ok φ) → (∀ i j, ∀ a ∈ (A i j).set, |a - A₀ i j| ≤ η) →
      ∀ β, 0 ≤ β → β ≤ η → (∀ i, ∀ v ∈ (b i).set, |v| ≤ β) →
        ∃ X, gauss φ (fun k _ => q k) n A b = some X ∧ ∀ i, ∀ v ∈ (X i).set, |v| ≤ C * (β + φ.relUnit) := by
  induction n with
  | zero => exact ⟨0, 1, 0, le_rfl, one_pos, fun φ _ _ A b _ _ _ β _ _ _ => ⟨Fin.elim0, rfl, fun i => i.elim0⟩⟩
  | succ n ih =>
    obtain ⟨h0, hp⟩ := hp
    obtain ⟨C', η', M', hC', hη', N⟩ := ih hp
    obtain ⟨C, η, M, hC, hη, S⟩ := regular_step h0 M' hC' hη'
    exact ⟨C, η, M, hC, hη, fun φ hε hM A b hA hb hn β hβ hβη hbβ => S φ hε hM _ A b hA hb hn β hβ hβη hbβ rfl
      fun _ ε' m' oA ob nA β' h1 h2 h3 => N φ ε' m' _ _ oA ob nA β' h1 h2 h3⟩

theorem largestPivot_le {c : Fin (n + 1) → Itv} (hc : ∀ i, (c i).mig ≠ .nan) (i : Fin (n + 1)) :
    (c i).mig.toE ≤ (c (largestPivot n c)).mig.toE := by
  have key : ∀ (l : List (Fin (n + 1))) (a : Fin (n + 1)),
      (c a).mig.toE ≤ (c (l.foldl (fun i j => if (c i).mig < (c j).mig then j else i) a)).mig.toE ∧
      ∀ i ∈ l, (c i).mig.toE ≤ (c (l.foldl (fun i j => if (c i).mig < (c j).mig then j else i) a)).mig.toE := by
    intro l
    induction l with
    | nil => simp
    | cons j l ih =>
      intro a
      rw [List.foldl_cons]
      obtain ⟨h1, h2⟩ := ih (if (c a).mig < (c j).mig then j else a)
      have h3 : (c a).mig.toE ≤ (c (if (c a).mig < (c j).mig then j else a)).mig.toE ∧
          (c j).mig.toE ≤ (c (if (c a).mig < (c j).mig then j else a)).mig.toE := by
        split_ifs with h
        · exact ⟨((FP.lt_iff (hc a) (hc j)).mp h).le, le_rfl⟩
        · rw [FP.lt_iff (hc a) (hc j), not_lt] at h
          exact ⟨le_rfl, h⟩
      refine ⟨h3.1.trans h1, fun i hi => ?_⟩
      rcases List.mem_cons.mp hi with rfl | hi
      · exact h3.2.trans h1
      · exact h2 i hi
  exact (key (List.finRange (n + 1)) 0).2 i (List.mem_finRange i)

/-- **Regular systems are solved with the pivots of largest mignitude**: if a real matrix is invertible, then in every precise enough
format the elimination that always takes the row whose coefficient has the largest `mig` ends with a box for all matrices of non-empty
intervals near it, and the box is as small as the right-hand sides. -/
theorem C73_largest {A₀ : Matrix (Fin n) (Fin n) ℝ} (hdet : A₀.det ≠ 0) :
    ∃ C η M : ℝ, 0 ≤ C ∧ 0 < η ∧ ∀ φ : Fmt, φ.relUnit ≤ η → M ≤ φ.maxFin → ∀ (A : Fin n → Fin n → Itv) (b : Fin n → Itv),
      (∀ i j, (A i j).Ok φ) → (∀ i j, (A i j).set.Nonempty) → (∀ i, (b i).Ok φ) → (∀ i j, ∀ a ∈ (A i j).set, |a - A₀ i j| ≤ η) →
      ∀ β, 0 ≤ β → β ≤ η → (∀ i, ∀ v ∈ (b i).set, |v| ≤ β) →
        ∃ X, gauss φ largestPivot n A b = some X ∧ ∀ i, ∀ v ∈ (X i).set, |v| ≤ C * (β + φ.relUnit) := by
  have inj : ∀ y : Fin n → ℝ, (∀ i, ∑ j, A₀ i j * y j = 0) → y = 0 := fun y hy => by
    by_contra hne
    exact hdet (Matrix.exists_mulVec_eq_zero_iff.mp ⟨y, hne, funext hy⟩)
  clear hdet
  induction n with
  | zero => exact ⟨0, 1, 0, le_rfl, one_pos, fun φ _ _ A b _ _ _ _ β _ _ _ => ⟨Fin.elim0, rfl, fun i => i.elim0⟩⟩
  | succ n ih =>
    -- constants for each possible pivot
    have each : ∀ p : {p : Fin (n + 1) // A₀ p 0 ≠ 0}, ∃ C η M : ℝ, 0 ≤ C ∧ 0 < η ∧ ∀ φ : Fmt, φ.relUnit ≤ η → M ≤ φ.maxFin →
        ∀ (A : Fin (n + 1) → Fin (n + 1) → Itv) (b : Fin (n + 1) → Itv),
        (∀ i j, (A i j).Ok φ) → (∀ i j, (A i j).set.Nonempty) → (∀ i, (b i).Ok φ) → (∀ i j, ∀ a ∈ (A i j).set, |a - A₀ i j| ≤ η) →
        ∀ β, 0 ≤ β → β ≤ η → (∀ i, ∀ v ∈ (b i).set, |v| ≤ β) → largestPivot n (fun i => A i 0) = p →
          ∃ X, gauss φ largestPivot (n + 1) A b = some X ∧ ∀ i, ∀ v ∈ (X i).set, |v| ≤ C * (β + φ.relUnit) := by
      rintro ⟨p, hp⟩
      obtain ⟨C', η', M', hC', hη', N⟩ :=
        ih (A₀ := Matrix.of fun i j => A₀ (p.succAbove i) j.succ - A₀ (p.succAbove i) 0 / A₀ p 0 * A₀ p j.succ) fun y hy => by
          have := inj (Fin.cons ((0 - ∑ j : Fin n, A₀ p j.succ * y j) / A₀ p 0) y)
            ((reduce73 (v := fun _ => 0) hp _).mpr ⟨by simp, fun i => by simpa using hy i⟩)
          funext j
          have := congrFun this j.succ
          simpa using this
      obtain ⟨C, η, M, hC, hη, S⟩ := regular_step hp M' hC' hη'
      refine ⟨C, η, M, hC, hη, fun φ hε hM A b hA hne hb hn β hβ hβη hbβ hpiv => S φ hε hM _ A b hA hb hn β hβ hβη hbβ hpiv
        fun hnz ε' m' oA ob nA β' h1 h2 h3 => N φ ε' m' _ _ oA (fun i j => ?_) ob nA β' h1 h2 h3⟩
      obtain ⟨v, hv⟩ := hne p 0
      obtain ⟨w, hw⟩ := hne (p.succAbove i) 0
      obtain ⟨x, hx⟩ := hne (p.succAbove i) j.succ
      obtain ⟨y, hy⟩ := hne p j.succ
      have t1 := C03_div φ (hA (p.succAbove i) 0) (hA p 0)
      have t2 := C02_mul φ t1.1 (hA p j.succ)
      have t3 := C01_sub φ (hA (p.succAbove i) j.succ) t2.1
      exact ⟨_, t3.2.1 ⟨x, hx, _, t2.2.1 ⟨_, t1.2.1 ⟨w, hw, v, hv, hnz v hv, rfl⟩, y, hy, rfl⟩, rfl⟩⟩
    choose C η M hC hη N using each
    obtain ⟨ρ, hρ, hρη⟩ := pos_below75 hη
    obtain ⟨p₀, hp₀⟩ : ∃ p, A₀ p 0 ≠ 0 := by
      by_contra hc
      push Not at hc
      have := congrFun (inj (Pi.single 0 1) fun i => by
        rw [Finset.sum_eq_single 0] <;> simp +contextual [hc]) 0
      simp at this
    have hp₀' := abs_pos.mpr hp₀
    refine ⟨∑ p, |C p|, min ρ (|A₀ p₀ 0| / 3), ∑ p, |M p|, Finset.sum_nonneg fun _ _ => abs_nonneg _, by positivity,
      fun φ hε hM A b hA hne hb hn β hβ hβη hbβ => ?_⟩
    have e0 := relUnit_pos (φ := φ)
    set p := largestPivot n fun i => A i 0 with hpd
    have hp : A₀ p 0 ≠ 0 := fun h => by
      have h1 := largestPivot_le (c := fun i => A i 0) (fun i => (C27_mag_mig (hA i 0) (hne i 0)).2.1.1) p₀
      simp only [← hpd] at h1
      obtain ⟨r, hr, er⟩ := (C27_attained (hA p 0) (hne p 0)).1
      obtain ⟨s, hs, es⟩ := (C27_attained (hA p₀ 0) (hne p₀ 0)).1
      rw [er, es, EReal.coe_le_coe_iff] at h1
      have h2 := (hn p 0 r hr).trans (min_le_right _ _)
      have h3 := (hn p₀ 0 s hs).trans (min_le_right _ _)
      rw [h, sub_zero] at h2
      have h4 := abs_sub_abs_le_abs_sub (A₀ p₀ 0) s
      rw [abs_sub_comm] at h4
      linarith
    obtain ⟨X, h1, h2⟩ := N ⟨p, hp⟩ φ (hε.trans ((min_le_left _ _).trans (hρη _))) ((abs_le_sum75 M _).trans hM) A b hA hne hb
      (fun i j a ha => (hn i j a ha).trans ((min_le_left _ _).trans (hρη _))) β hβ (hβη.trans ((min_le_left _ _).trans (hρη _))) hbβ rfl
    exact ⟨X, h1, fun i v hv => (h2 i v hv).trans (mul_le_mul_of_nonneg_right (abs_le_sum75 C _) (by linarith))⟩

/-- The hypothesis is met by every invertible matrix, for instance by one that needs an exchange of rows. -/
example : ∃ q, Pivots q 2 (!![0, 1; 1, 1] : Matrix (Fin 2) (Fin 2) ℝ) := exists_pivots (by simp [Matrix.det_fin_two])

end P1788
