import Verif.Props.C73Near

/-!
# C75: every regular solution can be proved

If the Jacobian matrix is invertible at a solution, the Newton test succeeds, in every precise enough format, on every small box in which
the solution is not within a few rounding units of the boundary.
-/

namespace P1788
open Set
variable {φ : Fmt} {n : ℕ} {κ : Type}

theorem newDec_com75 {x : Itv} (hx : x.Ok φ) (hne : x.set.Nonempty) {t r : ℝ} (h : ∀ s ∈ x.set, |s - t| ≤ r) : x.newDec = ⟨x, .com⟩ := by
  have hf := newDec_fresh hx
  have hb : Bornology.IsBounded x.newDec.set := by
    simp only [DItv.set, newDec_itv]
    exact (Metric.isBounded_closedBall (x := t) (r := r)).subset fun s hs => by simpa [Real.dist_eq] using h s hs
  have := hf.2.1 (by simpa only [DItv.set, newDec_itv] using hne) hb
  have e := newDec_itv x
  generalize x.newDec = y at this e
  obtain ⟨i, d⟩ := y
  simp only at this e
  rw [this, e]

/-- What `C73_regular` and `C73_largest` say of a pivot strategy. -/
def SolvesNear (piv : ∀ n, (Fin (n + 1) → Itv) → Fin (n + 1)) (A₀ : Fin n → Fin n → ℝ) : Prop :=
  ∃ C η M : ℝ, 0 ≤ C ∧ 0 < η ∧ ∀ φ : Fmt, φ.relUnit ≤ η → M ≤ φ.maxFin → ∀ (A : Fin n → Fin n → Itv) (b : Fin n → Itv),
    (∀ i j, (A i j).Ok φ) → (∀ i j, (A i j).set.Nonempty) → (∀ i, (b i).Ok φ) → (∀ i j, ∀ a ∈ (A i j).set, |a - A₀ i j| ≤ η) →
    ∀ β, 0 ≤ β → β ≤ η → (∀ i, ∀ v ∈ (b i).set, |v| ≤ β) →
      ∃ X, gauss φ piv n A b = some X ∧ ∀ i, ∀ v ∈ (X i).set, |v| ≤ C * (β + φ.relUnit)

theorem accepts75 {piv : ∀ n, (Fin (n + 1) → Itv) → Fin (n + 1)} (e : Fin n → Expr (Fin n ⊕ κ)) (J : Fin n → Fin n → Expr (Fin n ⊕ κ))
    {t : Fin n ⊕ κ → ℝ} (he : ∀ i, (e i).TameAt t) (hJ : ∀ i j, (J i j).TameAt t) (h0 : ∀ i, (e i).val t = 0)
    (hp : SolvesNear piv fun i j => (J i j).val t) :
    ∃ K r M : ℝ, 1 ≤ K ∧ 0 < r ∧ ∀ φ : Fmt, φ.relUnit ≤ r → M ≤ φ.maxFin → ∀ (X : Fin n ⊕ κ → Itv) (m : Fin n → ℚ) (δ : ℝ), 0 ≤ δ → δ ≤ r →
      (∀ j, (X j).Ok φ) → (∀ j, (X j).set.Nonempty) → (∀ j, ∀ s ∈ (X j).set, |s - t j| ≤ r) →
      (∀ k, ∀ s ∈ (X (.inr k)).set, |s - t (.inr k)| ≤ δ) → (∀ i, φ.Rep (m i) ∧ |m i - t (.inl i)| ≤ δ) →
      (∀ i, Icc (t (.inl i) - K * (δ + φ.relUnit)) (t (.inl i) + K * (δ + φ.relUnit)) ⊆ (X (.inl i)).set) →
      ∃ N, newtonSys φ piv e J (fun j => (X j).newDec) (fun i => .fin (m i)) = some N ∧
        newtonSysTest (fun j => (X j).newDec) (fun i => .fin (m i)) N = true ∧
        ∀ i, ∀ v ∈ (N i).set, |v - t (.inl i)| ≤ K * (δ + φ.relUnit) := by
  obtain ⟨C, η, M₁, hC, hη, NG⟩ := hp
  choose Ke re Me hre Ne using fun i => C64_point (e i) (he i)
  choose rc Mc hrc Nc using fun i => C64_com (e i) (he i)
  choose KJ rJ MJ hrJ NJ using fun ij : Fin n × Fin n => C64_point (J ij.1 ij.2) (hJ ij.1 ij.2)
  choose rd Md hrd Nd using fun ij : Fin n × Fin n => C64_com (J ij.1 ij.2) (hJ ij.1 ij.2)
  obtain ⟨ρ₁, p₁, l₁⟩ := pos_below75 hre
  obtain ⟨ρ₂, p₂, l₂⟩ := pos_below75 hrc
  obtain ⟨ρ₃, p₃, l₃⟩ := pos_below75 hrJ
  obtain ⟨ρ₄, p₄, l₄⟩ := pos_below75 hrd
  set E := ∑ i, |Ke i| with hE
  set L := ∑ ij, |KJ ij| with hL
  set T := ∑ i : Fin n, |t (.inl i)| with hT
  have hE0 : 0 ≤ E := Finset.sum_nonneg fun _ _ => abs_nonneg _
  have hL0 : 0 ≤ L := Finset.sum_nonneg fun _ _ => abs_nonneg _
  have hT0 : 0 ≤ T := Finset.sum_nonneg fun _ _ => abs_nonneg _
  have hTi : ∀ i : Fin n, |t (.inl i)| ≤ T := fun i =>
    Finset.single_le_sum (f := fun i : Fin n => |t (.inl i)|) (fun _ _ => abs_nonneg _) (Finset.mem_univ i)
  -- the distance of the result before the last rounding
  set H := 1 + C * (E + 1) with hH
  have hH1 : 1 ≤ H := by rw [hH]; have := mul_nonneg hC (by linarith : 0 ≤ E + 1); linarith
  set r := min (min (min ρ₁ ρ₂) (min ρ₃ ρ₄)) (min (min 1 η) (min (η / (2 * (E + 1))) (η / (2 * (L + 1))))) with hr
  have hr0 : 0 < r := by rw [hr]; positivity
  have r1 : r ≤ ρ₁ := (min_le_left _ _).trans ((min_le_left _ _).trans (min_le_left _ _))
  have r2 : r ≤ ρ₂ := (min_le_left _ _).trans ((min_le_left _ _).trans (min_le_right _ _))
  have r3 : r ≤ ρ₃ := (min_le_left _ _).trans ((min_le_right _ _).trans (min_le_left _ _))
  have r4 : r ≤ ρ₄ := (min_le_left _ _).trans ((min_le_right _ _).trans (min_le_right _ _))
  have r5 : r ≤ 1 := (min_le_right _ _).trans ((min_le_left _ _).trans (min_le_left _ _))
  have r6 : r ≤ η := (min_le_right _ _).trans ((min_le_left _ _).trans (min_le_right _ _))
  have r7 : r * (2 * (E + 1)) ≤ η := by
    rw [← le_div_iff₀ (by positivity)]; exact (min_le_right _ _).trans ((min_le_right _ _).trans (min_le_left _ _))
  have r8 : r * (2 * (L + 1)) ≤ η := by
    rw [← le_div_iff₀ (by positivity)]; exact (min_le_right _ _).trans ((min_le_right _ _).trans (min_le_right _ _))
  clear_value r
  refine ⟨H + (T + 2 * H + 1) + 1, r, |M₁| + (∑ i, |Me i|) + (∑ i, |Mc i|) + (∑ ij, |MJ ij|) + (∑ ij, |Md ij|) + (T + 2 * H), by linarith, hr0,
    fun φ hε hM X m δ hδ hδr hX hne hnear hpar hm hin => ?_⟩
  have e0 := relUnit_pos (φ := φ)
  have S1 : 0 ≤ ∑ i, |Me i| := Finset.sum_nonneg fun _ _ => abs_nonneg _
  have S2 : 0 ≤ ∑ i, |Mc i| := Finset.sum_nonneg fun _ _ => abs_nonneg _
  have S3 : 0 ≤ ∑ ij, |MJ ij| := Finset.sum_nonneg fun _ _ => abs_nonneg _
  have S4 : 0 ≤ ∑ ij, |Md ij| := Finset.sum_nonneg fun _ _ => abs_nonneg _
  have S5 := abs_nonneg M₁
  have S6 := le_abs_self M₁
  have hs0 : 0 < δ + φ.relUnit := by linarith
  have hs2 : δ + φ.relUnit ≤ 2 * r := by linarith
  -- the operands
  have hcom : ∀ j, (X j).newDec = ⟨X j, .com⟩ := fun j => newDec_com75 (hX j) (hne j) (hnear j)
  have hokD : ∀ j, (X j).newDec.Ok φ := fun j => newDec_ok63 (hX j)
  have hitv : (fun j => ((X j).newDec).itv) = X := funext fun j => newDec_itv _
  have hset : ∀ j, (X j).newDec.set = (X j).set := fun j => by simp only [DItv.set, newDec_itv]
  have hin' : ∀ i, ∀ z : ℝ, |z - t (.inl i)| ≤ (H + (T + 2 * H + 1) + 1) * (δ + φ.relUnit) → z ∈ (X (.inl i)).set := fun i z hz => by
    rw [abs_le] at hz
    exact hin i ⟨by linarith, by linarith⟩
  have hK1 : δ < (H + (T + 2 * H + 1) + 1) * (δ + φ.relUnit) := by
    have : 1 * (δ + φ.relUnit) ≤ (H + (T + 2 * H + 1) + 1) * (δ + φ.relUnit) := mul_le_mul_of_nonneg_right (by linarith) hs0.le
    linarith
  have okm : ∀ i, (Itv.mk (.fin (m i)) (.fin (m i))).Ok φ := fun i => (ne_fin (hm i).1 (hm i).1 le_rfl).ok
  have setm : ∀ i, (Itv.mk (.fin (m i)) (.fin (m i))).set = {(m i : ℝ)} := fun i => by rw [set_fin]; simp
  have hmX : ∀ i, (m i : ℝ) ∈ (X (.inl i)).set := fun i => hin' i _ ((hm i).2.trans hK1.le)
  -- decorations
  have dece : ∀ i, ((e i).evalD φ fun j => (X j).newDec).dec = .com := fun i =>
    (Nc i φ (hε.trans (r2.trans (l₂ i))) ((abs_le_sum75 Mc i).trans (by linarith)) _ hokD (fun j => by rw [hcom j])
      (fun j a ha => (hnear j a (by rwa [hset] at ha)).trans (r2.trans (l₂ i)))).2
  have decJ : ∀ i j, ((J i j).evalD φ fun j => (X j).newDec).itv = (J i j).eval φ X ∧ ((J i j).evalD φ fun j => (X j).newDec).dec = .com :=
    fun i j => by
      have := Nd (i, j) φ (hε.trans (r4.trans (l₄ _))) ((abs_le_sum75 Md (i, j)).trans (by linarith)) _ hokD (fun j => by rw [hcom j])
        (fun k a ha => (hnear k a (by rwa [hset] at ha)).trans (r4.trans (l₄ (i, j))))
      rw [hitv] at this
      exact this
  have hmem : ∀ i, DItv.isMember (.fin (m i)) (X (.inl i)).newDec = true := fun i => by
    unfold DItv.isMember
    rw [(hokD _).isValid, (hokD (.inl i)).isNai_false (by rw [hcom]; simp)]
    simp only [Bool.not_true, Bool.or_false, Bool.false_eq_true, if_false]
    rw [newDec_itv]
    exact (C24_is_member (hX _) _).mpr ⟨m i, Or.inr ⟨m i, rfl, rfl⟩, hmX i⟩
  -- the linear system
  have okP : ∀ j, (pointBox (fun j => (X j).newDec) (fun i => .fin (m i)) j).Ok φ := by
    rintro (i | k)
    · exact okm i
    · change ((X (.inr k)).newDec.itv).Ok φ; rw [newDec_itv]; exact hX _
  have nearP : ∀ j, ∀ a ∈ (pointBox (fun j => (X j).newDec) (fun i => .fin (m i)) j).set, |a - t j| ≤ δ := by
    rintro (i | k) a ha
    · change a ∈ (Itv.mk (.fin (m i)) (.fin (m i))).set at ha
      rw [setm] at ha
      obtain rfl : a = m i := ha
      exact (hm i).2
    · change a ∈ (X (.inr k)).newDec.set at ha
      rw [hset] at ha
      exact hpar k a ha
  have ob : ∀ i, ((e i).eval φ (pointBox (fun j => (X j).newDec) fun i => .fin (m i))).Ok φ := fun i => (e i).eval_ok18 okP
  have oA : ∀ i j, ((J i j).evalD φ fun j => (X j).newDec).itv.Ok φ := fun i j => by rw [(decJ i j).1]; exact (J i j).eval_ok18 hX
  have nA : ∀ i j, ((J i j).evalD φ fun j => (X j).newDec).itv.set.Nonempty := fun i j => by
    rcases (oA i j).cases with h | h
    · have := (evalD_ok62 (J i j) hokD).2.1 h
      rw [(decJ i j).2] at this
      simp at this
    · exact h.nonempty
  have bb : ∀ i, ∀ v ∈ ((e i).eval φ (pointBox (fun j => (X j).newDec) fun i => .fin (m i))).set, |v| ≤ E * (δ + φ.relUnit) := fun i v hv => by
    have := Ne i φ (hε.trans (r1.trans (l₁ i))) ((abs_le_sum75 Me i).trans (by linarith)) _ okP δ hδ (hδr.trans (r1.trans (l₁ i))) nearP v hv
    rw [h0 i, sub_zero] at this
    exact this.trans (mul_le_mul_of_nonneg_right (abs_le_sum75 Ke i) hs0.le)
  have bA : ∀ i j, ∀ a ∈ ((J i j).evalD φ fun j => (X j).newDec).itv.set, |a - (J i j).val t| ≤ η := fun i j a ha => by
    rw [(decJ i j).1] at ha
    have := NJ (i, j) φ (hε.trans (r3.trans (l₃ _))) ((abs_le_sum75 MJ (i, j)).trans (by linarith)) X hX r hr0.le (r3.trans (l₃ _)) hnear a ha
    have h1 := mul_le_mul_of_nonneg_right (abs_le_sum75 KJ (i, j)) (add_pos hr0 e0).le
    have h2 : L * (r + φ.relUnit) ≤ L * (2 * r) := mul_le_mul_of_nonneg_left (by linarith) hL0
    linarith
  have hβη : E * (δ + φ.relUnit) ≤ η := by
    have := mul_le_mul_of_nonneg_left hs2 hE0
    linarith
  obtain ⟨d, hd, bd⟩ := NG φ (hε.trans r6) (by linarith) _ _ oA nA ob bA _ (by positivity) hβη bb
  have od := (gauss_sound _ oA ob hd).1
  -- the result
  have bd' : ∀ i, ∀ v ∈ (d i).set, |v| ≤ C * (E + 1) * (δ + φ.relUnit) := fun i v hv => by
    refine (bd i v hv).trans ?_
    rw [mul_assoc]
    exact mul_le_mul_of_nonneg_left (by linarith) hC
  have bN : ∀ i, ∀ v ∈ (φ.subI ⟨.fin (m i), .fin (m i)⟩ (d i)).set, |v - t (.inl i)| ≤ (H + (T + 2 * H + 1)) * (δ + φ.relUnit) := fun i v hv => by
    have hHs : H * (δ + φ.relUnit) ≤ 2 * H := by
      have := mul_le_mul_of_nonneg_left (hs2.trans (by linarith : 2 * r ≤ 2)) (by linarith : 0 ≤ H)
      linarith
    have := (C01_sub φ (okm i) (od i)).close (c := t (.inl i)) (d := H * (δ + φ.relUnit)) (B := T + 2 * H) (by
      rintro z ⟨a, ha, y, hy, rfl⟩
      rw [setm] at ha
      obtain rfl : a = m i := ha
      have h1 := (hm i).2
      have h2 := bd' i y hy
      have h3 : |(m i : ℝ) - y - t (.inl i)| ≤ |(m i : ℝ) - t (.inl i)| + |y| := by
        rw [show (m i : ℝ) - y - t (.inl i) = ((m i : ℝ) - t (.inl i)) - y by ring]; exact abs_sub _ _
      rw [hH]; linarith) (by have := hTi i; linarith) (by positivity) (by linarith) v hv
    have h4 : (T + 2 * H + 1) * φ.relUnit ≤ (T + 2 * H + 1) * (δ + φ.relUnit) := mul_le_mul_of_nonneg_left (by linarith) (by linarith)
    linarith
  have oN : ∀ i, (φ.subI ⟨.fin (m i), .fin (m i)⟩ (d i)).Ok φ := fun i => (C01_sub φ (okm i) (od i)).1
  have hlt : (H + (T + 2 * H + 1)) * (δ + φ.relUnit) < (H + (T + 2 * H + 1) + 1) * (δ + φ.relUnit) :=
    mul_lt_mul_of_pos_right (by linarith) hs0
  have inside : ∀ i, ∀ v : ℝ, |v - t (.inl i)| < (H + (T + 2 * H + 1) + 1) * (δ + φ.relUnit) →
      (∃ b ∈ (X (.inl i)).set, b < v) ∧ ∃ b ∈ (X (.inl i)).set, v < b := fun i v hv => by
    have := abs_lt.mp hv
    have p0 : 0 ≤ (H + (T + 2 * H + 1) + 1) * (δ + φ.relUnit) := by linarith [abs_nonneg (v - t (.inl i))]
    exact ⟨⟨_, hin i ⟨le_rfl, by linarith⟩, by linarith⟩, _, hin i ⟨by linarith, le_rfl⟩, by linarith⟩
  refine ⟨fun i => φ.subI ⟨.fin (m i), .fin (m i)⟩ (d i), ?_, ?_, fun i v hv => (bN i v hv).trans hlt.le⟩
  · unfold newtonSys
    rw [if_pos ⟨fun i => by rw [dece i]; decide, fun i j => by rw [(decJ i j).2]; decide, hmem⟩, hd]
    rfl
  · simp only [newtonSysTest, decide_eq_true_eq]
    refine fun i => ⟨?_, ?_, ?_⟩
    · unfold DItv.pred
      rw [(hokD _).isValid, (hokD (.inl i)).isNai_false (by rw [hcom]; simp)]
      simp only [Bool.not_true, Bool.or_false, Bool.false_eq_true, if_false]
      rw [newDec_itv]
      refine (C24_is_common_interval (hX _)).mpr ⟨hne _, ⟨t (.inl i) - r, fun s hs => ?_⟩, ⟨t (.inl i) + r, fun s hs => ?_⟩⟩ <;>
        have := abs_le.mp (hnear _ s hs) <;> linarith
    · rw [newDec_itv]
      refine (C22_interior (okm i) (hX _)).mpr fun a ha => ?_
      rw [setm] at ha
      obtain rfl : a = m i := ha
      exact inside i _ (lt_of_le_of_lt (hm i).2 hK1)
    · rw [newDec_itv]
      exact (C22_interior (oN i) (hX _)).mpr fun a ha => inside i _ (lt_of_le_of_lt (bN i a ha) hlt)

/-- **Every regular solution can be proved**: let all formulas and those of the Jacobian matrix be tame at a solution `t`, and let the
matrix be invertible there.  In every precise enough format, with the pivots of largest mignitude, the Newton test succeeds at all numbers `m`
within `δ` of the solution, on all boxes near it with parameters within `δ` that reach at least `K · (δ + 2^(1-p))` to both sides of the
solution; and the result of the Newton operator is within that distance of it. -/
theorem C75_accepts (e : Fin n → Expr (Fin n ⊕ κ)) (J : Fin n → Fin n → Expr (Fin n ⊕ κ)) {t : Fin n ⊕ κ → ℝ}
    (he : ∀ i, (e i).TameAt t) (hJ : ∀ i j, (J i j).TameAt t) (h0 : ∀ i, (e i).val t = 0)
    (hdet : (Matrix.of fun i j => (J i j).val t).det ≠ 0) :
    ∃ K r M : ℝ, 1 ≤ K ∧ 0 < r ∧ ∀ φ : Fmt, φ.relUnit ≤ r → M ≤ φ.maxFin → ∀ (X : Fin n ⊕ κ → Itv) (m : Fin n → ℚ) (δ : ℝ), 0 ≤ δ → δ ≤ r →
      (∀ j, (X j).Ok φ) → (∀ j, (X j).set.Nonempty) → (∀ j, ∀ s ∈ (X j).set, |s - t j| ≤ r) →
      (∀ k, ∀ s ∈ (X (.inr k)).set, |s - t (.inr k)| ≤ δ) → (∀ i, φ.Rep (m i) ∧ |m i - t (.inl i)| ≤ δ) →
      (∀ i, Icc (t (.inl i) - K * (δ + φ.relUnit)) (t (.inl i) + K * (δ + φ.relUnit)) ⊆ (X (.inl i)).set) →
      ∃ N, newtonSys φ largestPivot e J (fun j => (X j).newDec) (fun i => .fin (m i)) = some N ∧
        newtonSysTest (fun j => (X j).newDec) (fun i => .fin (m i)) N = true ∧
        ∀ i, ∀ v ∈ (N i).set, |v - t (.inl i)| ≤ K * (δ + φ.relUnit) :=
  accepts75 e J he hJ h0 (C73_largest hdet)

/-- **Every regular solution is found**: if the matrix is invertible at the solution, then in every precise enough format, with the pivots
of largest mignitude, every small box that contains the solution away from its boundary, parameters up to some rounding errors, is proved to contain
exactly one solution, by one step of the program at the rounded solution. -/
theorem C75_finds (e : Fin n → Expr (Fin n ⊕ κ)) (J : Fin n → Fin n → Expr (Fin n ⊕ κ)) {t : Fin n ⊕ κ → ℝ}
    (he : ∀ i, (e i).TameAt t) (hJ : ∀ i j, (J i j).TameAt t) (h0 : ∀ i, (e i).val t = 0)
    (hdet : (Matrix.of fun i j => (J i j).val t).det ≠ 0) {A : ℝ} (hA : 0 ≤ A) :
    ∃ K r M : ℝ, 0 < r ∧ ∀ φ : Fmt, φ.relUnit ≤ r → M ≤ φ.maxFin → ∀ X : Fin n ⊕ κ → Itv,
      (∀ j, (X j).Ok φ) → (∀ j, (X j).set.Nonempty) → (∀ j, ∀ s ∈ (X j).set, |s - t j| ≤ r) →
      (∀ k, ∀ s ∈ (X (.inr k)).set, |s - t (.inr k)| ≤ A * φ.relUnit) →
      (∀ i, Icc (t (.inl i) - K * φ.relUnit) (t (.inl i) + K * φ.relUnit) ⊆ (X (.inl i)).set) →
      SolveRun φ largestPivot e J ⟨[X], [], []⟩ ⟨[], [X], []⟩ := by
  obtain ⟨K, r, M, hK, hr, N⟩ := C75_accepts e J he hJ h0 hdet
  set T := ∑ i : Fin n, |t (.inl i)| with hT
  have hT0 : 0 ≤ T := Finset.sum_nonneg fun _ _ => abs_nonneg _
  have hTi : ∀ i : Fin n, |t (.inl i)| ≤ T := fun i =>
    Finset.single_le_sum (f := fun i : Fin n => |t (.inl i)|) (fun _ _ => abs_nonneg _) (Finset.mem_univ i)
  refine ⟨K * (T + 2 + A), r / (T + 1 + A), |M| + T, by positivity, fun φ hε hM X hX hne hnear hpar hin => ?_⟩
  have e0 := relUnit_pos (φ := φ)
  have hle : r / (T + 1 + A) ≤ r := div_le_self hr.le (by linarith)
  have hδr : (T + 1 + A) * φ.relUnit ≤ r := by
    rw [le_div_iff₀ (by positivity)] at hε; linarith
  have hAe : A * φ.relUnit ≤ (T + 1 + A) * φ.relUnit := mul_le_mul_of_nonneg_right (by linarith) e0.le
  have hm : ∀ i, φ.Rep (φ.roundQ .D (t (.inl i))) ∧ |(φ.roundQ .D (t (.inl i)) : ℝ) - t (.inl i)| ≤ (T + 1 + A) * φ.relUnit := fun i => by
    refine ⟨φ.rep_roundQ (φ.roundQ_le_maxFin (by have := hTi i; have := abs_nonneg M; linarith)), ?_⟩
    have h1 := roundQ_D_gt (φ := φ) (t (.inl i))
    have h2 := φ.roundQ_D_le (t (.inl i))
    have h3 := unit_le_rel (φ := φ) (hTi i)
    have h4 : 0 ≤ A * φ.relUnit := by positivity
    rw [abs_le]
    constructor <;> linarith
  obtain ⟨Nb, h1, h2, -⟩ := N φ (hε.trans hle) (by have := le_abs_self M; linarith) X (fun i => φ.roundQ .D (t (.inl i)))
    ((T + 1 + A) * φ.relUnit) (by positivity) hδr hX hne (fun j s hs => (hnear j s hs).trans hle)
    (fun k s hs => (hpar k s hs).trans hAe) hm (fun i => by
      rw [show (T + 1 + A) * φ.relUnit + φ.relUnit = (T + 2 + A) * φ.relUnit by ring, ← mul_assoc]
      exact hin i)
  exact Relation.ReflTransGen.single (SolveStep.accept (l₁ := []) (l₂ := []) (s := []) (d := [])
    (m := fun i => .fin (φ.roundQ .D (t (.inl i)))) (fun i => (hm i).1) h1 h2)

theorem exists_fmt75 (k : ℕ) {r : ℝ} (hr : 0 < r) (M : ℝ) : ∃ φ : Fmt, k ≤ φ.p ∧ φ.relUnit ≤ r ∧ M ≤ φ.maxFin := by
  obtain ⟨a, ha⟩ := exists_pow_lt_of_lt_one hr (by norm_num : (1 / 2 : ℝ) < 1)
  obtain ⟨b, hb⟩ := exists_nat_ge M
  refine ⟨⟨k + a + b + 8, -2 * (k + a + b + 8 : ℕ), (k + a + b + 8 : ℕ) + 1, by omega, by omega, le_rfl, by omega⟩, by simp only; omega, ?_, ?_⟩
  · unfold Fmt.relUnit
    refine le_trans ?_ ha.le
    rw [one_div, inv_pow, ← zpow_natCast, ← zpow_neg]
    exact zpow_le_zpow_right₀ (by norm_num) (by push_cast; omega)
  · unfold Fmt.maxFin
    simp only
    rw [show (((k + a + b + 8 : ℕ) : ℤ) + 1 - ((k + a + b + 8 : ℕ) : ℤ)) = 1 by ring]
    have h1 : b < 2 ^ b := Nat.lt_two_pow_self
    have h2 : 2 ^ b ≤ 2 ^ (k + a + b + 8) := Nat.pow_le_pow_right (by norm_num) (by omega)
    have h3 : (b : ℝ) + 1 ≤ 2 ^ (k + a + b + 8) := by exact_mod_cast (by omega : b + 1 ≤ 2 ^ (k + a + b + 8))
    push_cast
    have : (0 : ℝ) ≤ b := Nat.cast_nonneg _
    linarith

/-- The hypotheses are met by `x² = c` at `x = c = 1`: in some format a box around 1 is proved to contain exactly one solution. -/
example : ∃ (φ : Fmt) (a b : ℚ), a < 1 ∧ 1 < b ∧
    SolveRun φ largestPivot sqEq75 sqJac75 ⟨[Sum.elim (fun _ => ⟨.fin a, .fin b⟩) fun _ => ⟨.fin 1, .fin 1⟩], [], []⟩
      ⟨[], [Sum.elim (fun _ => ⟨.fin a, .fin b⟩) fun _ => ⟨.fin 1, .fin 1⟩], []⟩ := by
  obtain ⟨K, r, M, hr, N⟩ := C75_finds sqEq75 sqJac75 (t := fun _ => 1) (by simp [sqEq75, Expr.TameAt, Op2.tame, Op1.tame])
    (by simp [sqJac75, Expr.TameAt, Op2.tame]) (by simp [sqEq75, Expr.val, Op1.fn, Op2.fn])
    (by simp [sqJac75, Expr.val, Op2.fn]) (A := 0) le_rfl
  obtain ⟨k, hk⟩ := exists_pow_lt_of_lt_one hr (by norm_num : (1 / 2 : ℝ) < 1)
  obtain ⟨φ, h1, h2, h3⟩ := exists_fmt75 (k + 2) (r := min r ((1 / 2) ^ k / (|K| + 1))) (by positivity) M
  have e0 := relUnit_pos (φ := φ)
  have hp : (0 : ℚ) < (1 / 2) ^ k := by positivity
  have hpr : (0 : ℝ) < (1 / 2) ^ k := by positivity
  have hKe : |K| * φ.relUnit ≤ (1 / 2) ^ k := by
    have := h2.trans (min_le_right _ _)
    rw [le_div_iff₀ (by positivity)] at this
    linarith
  have hq := φ.qmin_le
  have hp8 := φ.p_pos
  have he := φ.emax_ge
  have two : (2 : ℤ) ^ k * 4 ≤ 2 ^ φ.p := by rw [show (2 : ℤ) ^ k * 4 = 2 ^ (k + 2) by ring]; exact pow_le_pow_right₀ (by norm_num) h1
  have one2 : (1 : ℤ) ≤ 2 ^ k := one_le_pow₀ (by norm_num)
  have key : ∀ s : ℤ, |s| ≤ 1 → φ.Rep (1 + s * (1 / 2) ^ k) := fun s hs => by
    have := abs_le.mp hs
    refine ⟨2 ^ k + s, -(k : ℤ), ?_, by rw [abs_lt]; constructor <;> linarith, by omega, by omega⟩
    rw [zpow_neg, zpow_natCast, one_div, inv_pow]
    push_cast
    field_simp
  refine ⟨φ, 1 - (1 / 2) ^ k, 1 + (1 / 2) ^ k, by linarith, by linarith, N φ (h2.trans (min_le_left _ _)) h3 _ ?_ ?_ ?_ ?_ ?_⟩
  · rintro (j | j)
    · exact (ne_fin (by simpa [sub_eq_add_neg] using key (-1) (by simp)) (by simpa using key 1 (by simp)) (by linarith)).ok
    · exact (ne_fin (rep_one φ) (rep_one φ) le_rfl).ok
  · rintro (j | j) <;> refine ⟨1, ?_⟩ <;> simp only [Sum.elim_inl, Sum.elim_inr, set_fin, mem_Icc] <;> push_cast <;> constructor <;> linarith
  · rintro (j | j) s hs <;> simp only [Sum.elim_inl, Sum.elim_inr, set_fin, mem_Icc] at hs <;> push_cast at hs <;> rw [abs_le] <;>
      constructor <;> linarith
  · intro j s hs
    simp only [Sum.elim_inr, set_fin, mem_Icc] at hs
    push_cast at hs
    rw [abs_le]; constructor <;> linarith
  · intro i z hz
    simp only [Sum.elim_inl, set_fin, mem_Icc] at hz ⊢
    have := mul_le_mul_of_nonneg_right (le_abs_self K) e0.le
    push_cast
    constructor <;> linarith

/-- **Only boxes around solutions need remain**: if the formulas are tame on a bounded box, then for every `η > 0`, in every precise enough
format and from every non-empty box in it with narrow parameters, some sequence of steps examines everything, loses no solution, and leaves
only boxes all of whose points are closer than `η` to a common zero of the formulas. -/
theorem C75_surrounds [Finite κ] (e : Fin n → Expr (Fin n ⊕ κ)) {a b : Fin n ⊕ κ → ℝ}
    (h : ∀ t, (∀ j, a j ≤ t j ∧ t j ≤ b j) → ∀ i, (e i).TameAt t) {η : ℝ} (hη : 0 < η) :
    ∃ r M : ℝ, 0 < r ∧ ∀ φ : Fmt, φ.relUnit ≤ r → M ≤ φ.maxFin → ∀ (piv : ∀ n, (Fin (n + 1) → Itv) → Fin (n + 1))
      (J : Fin n → Fin n → Expr (Fin n ⊕ κ)) (X : Fin n ⊕ κ → Itv), (∀ j, (X j).Ok φ) → (∀ j, (X j).set.Nonempty) →
      (∀ j, ∀ s ∈ (X j).set, a j ≤ s ∧ s ≤ b j) → (∀ k, ∀ s ∈ (X (.inr k)).set, ∀ s' ∈ (X (.inr k)).set, |s - s'| ≤ r) →
      ∃ S, SolveRun φ piv e J ⟨[X], [], []⟩ S ∧ S.todo = [] ∧ S.sure = [] ∧
        (∀ c : κ → ℝ, (∀ k, c k ∈ (X (.inr k)).set) → SolveSound e X S c) ∧
        ∀ Y ∈ S.doubt, ∀ u : Fin n ⊕ κ → ℝ, (∀ j, u j ∈ (Y j).set) →
          ∃ t, (∀ j, a j ≤ t j ∧ t j ≤ b j) ∧ (∀ i, (e i).val t = 0) ∧ ∀ j, |u j - t j| < η := by
  obtain ⟨K, r, M, hK, hr, N⟩ := C75_reach e h
  -- away from the zeros the formulas stay away from zero
  obtain ⟨ζ, hζ, hmin⟩ : ∃ ζ : ℝ, 0 < ζ ∧ ∀ u, (∀ j, a j ≤ u j ∧ u j ≤ b j) → ∑ i, |(e i).val u| < ζ →
      ∃ t, (∀ j, a j ≤ t j ∧ t j ≤ b j) ∧ (∀ i, (e i).val t = 0) ∧ ∀ j, |u j - t j| < η := by
    set D := {u : Fin n ⊕ κ → ℝ | (∀ j, a j ≤ u j ∧ u j ≤ b j) ∧
      ∀ t, (∀ j, a j ≤ t j ∧ t j ≤ b j) → (∀ i, (e i).val t = 0) → ∃ j, η ≤ |u j - t j|} with hD
    have hc : IsCompact D := by
      have hb : IsCompact {t : Fin n ⊕ κ → ℝ | ∀ j, a j ≤ t j ∧ t j ≤ b j} := by
        have := isCompact_univ_pi (fun j => isCompact_Icc (a := a j) (b := b j))
        convert this using 1; ext t; simp only [Set.mem_pi, Set.mem_univ, true_imp_iff, Set.mem_Icc, Set.mem_ofPred_eq]
      have hcl : IsClosed {u : Fin n ⊕ κ → ℝ | ∀ t, (∀ j, a j ≤ t j ∧ t j ≤ b j) → (∀ i, (e i).val t = 0) → ∃ j, η ≤ |u j - t j|} := by
        simp only [Set.ofPred_forall, Set.ofPred_exists]
        refine isClosed_iInter fun t => isClosed_iInter fun _ => isClosed_iInter fun _ => isClosed_iUnion_of_finite fun j =>
          isClosed_le continuous_const (by fun_prop)
      exact hb.inter_right hcl
    rcases eq_empty_or_nonempty D with hemp | hne
    · refine ⟨1, one_pos, fun u hu _ => ?_⟩
      by_contra hcon
      push Not at hcon
      exact eq_empty_iff_forall_notMem.mp hemp u ⟨hu, hcon⟩
    · obtain ⟨t, ht, hm⟩ := hc.exists_isMinOn hne (f := fun t => ∑ i, |(e i).val t|) fun t ht =>
        (tendsto_finsetSum _ fun i _ => ((continuousAt_of_tame (h t ht.1 i)).abs)).mono_left nhdsWithin_le_nhds
      refine ⟨∑ i, |(e i).val t|, ?_, fun u hu hlt => ?_⟩
      · by_contra hcon
        have hz : ∀ i, (e i).val t = 0 := fun i => by
          have := Finset.single_le_sum (f := fun i => |(e i).val t|) (fun _ _ => abs_nonneg _) (Finset.mem_univ i)
          exact abs_eq_zero.mp (le_antisymm (by linarith [not_lt.mp hcon]) (abs_nonneg _))
        obtain ⟨j, hj⟩ := ht.2 t ht.1 hz
        simp at hj; linarith
      · by_contra hcon
        push Not at hcon
        exact absurd (hm (show u ∈ D from ⟨hu, hcon⟩)) (not_le.mpr hlt)
  refine ⟨min r (ζ / (2 * n * K + 1) / 2), M, lt_min hr (by positivity), fun φ hε hM piv J X hX hne hab hpar => ?_⟩
  have hr0 : 0 < min r (ζ / (2 * n * K + 1) / 2) := lt_min hr (by positivity)
  obtain ⟨S, h1, h2, h3, h4, h5⟩ := N φ (hε.trans (min_le_left _ _)) hM piv J X _ hr0.le (min_le_left _ _) hX hne hab hpar
  refine ⟨S, h1, h2, h3, h4, fun Y hY u hu => ?_⟩
  choose c hc using fun k => hne (.inr k)
  have hin := (h4 c hc).inside Y (by simp [SolveState.all, h2, h3, hY])
  refine hmin u (fun j => hab j _ (hin j (hu j))) ?_
  have h7 : ∑ i, |(e i).val u| ≤ ∑ _i : Fin n, K * (ζ / (2 * n * K + 1)) := Finset.sum_le_sum fun i _ => by
    refine ((h5 Y hY).2 u hu i).trans (mul_le_mul_of_nonneg_left ?_ hK)
    have := min_le_right r (ζ / (2 * n * K + 1) / 2)
    linarith
  rw [Finset.sum_const, Finset.card_univ, Fintype.card_fin, nsmul_eq_mul] at h7
  have h8 : (n : ℝ) * (K * (ζ / (2 * n * K + 1))) < ζ := by
    have h9 : (0:ℝ) ≤ n * K := by positivity
    rw [← mul_assoc, mul_div_assoc', div_lt_iff₀ (by positivity)]
    nlinarith
  linarith

/-- The hypotheses are met by `x² = c` for `x` in `[0, 2]` and `c` in `[1, 2]`. -/
example : ∀ t : Fin 1 ⊕ Unit → ℝ, (∀ j, (Sum.elim (fun _ => 0) (fun _ => 1) : Fin 1 ⊕ Unit → ℝ) j ≤ t j ∧ t j ≤ 2) →
    ∀ i, (sqEq75 i).TameAt t := by
  simp [sqEq75, Expr.TameAt, Op2.tame, Op1.tame]

end P1788
