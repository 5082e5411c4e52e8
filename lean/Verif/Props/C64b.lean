import Verif.Props.C64
import Verif.Props.C20c
import Verif.Props.C57

/-! # C64, decorations: near tame points a decorated evaluation ends with `com` -/

namespace P1788
variable {ι : Type} {φ : Fmt}

theorem Op1.dom_near {op : Op1} {a : ℝ} (h : a ∈ op.tame) : ∀ᶠ s in nhds a, s ∈ op.dom := by
  cases op <;> simp only [Op1.tame, Op1.dom, Set.mem_ofPred_eq, Set.mem_univ] at h ⊢ <;> try exact Filter.Eventually.of_forall (fun _ => trivial)
  case recip => exact eventually_ne_nhds h
  case sqrt => exact (eventually_gt_nhds h).mono fun _ h => le_of_lt h
  case pown p =>
    by_cases hp : p < 0
    · exact (eventually_ne_nhds (h hp)).mono fun _ h _ => h
    · exact Filter.Eventually.of_forall fun _ h => absurd h hp
  case log => exact eventually_gt_nhds h
  case log2 => exact eventually_gt_nhds h
  case log10 => exact eventually_gt_nhds h
  case tan => exact (Real.continuous_cos.tendsto a).eventually_ne h
  case asin => exact ((eventually_gt_nhds h.1).and (eventually_lt_nhds h.2)).mono fun _ h => ⟨h.1.le, h.2.le⟩
  case acos => exact ((eventually_gt_nhds h.1).and (eventually_lt_nhds h.2)).mono fun _ h => ⟨h.1.le, h.2.le⟩
  case acosh => exact (eventually_gt_nhds h).mono fun _ h => le_of_lt h
  case atanh => exact (eventually_gt_nhds h.1).and (eventually_lt_nhds h.2)

theorem Op2.dom_near {op : Op2} {p : ℝ × ℝ} (h : p ∈ op.tame) : ∀ᶠ s in nhds p, s ∈ op.dom := by
  cases op <;> simp only [Op2.tame, Op2.dom, Set.mem_ofPred_eq, Set.mem_univ] at h ⊢ <;> try exact Filter.Eventually.of_forall (fun _ => trivial)
  case div => exact (continuous_snd.tendsto p).eventually_ne h
  case pow => exact ((continuous_fst.tendsto p).eventually (eventually_gt_nhds h)).mono fun _ h => Or.inl h
  case atan2 =>
    refine eventually_ne_nhds ?_
    rintro rfl; simp at h

theorem lip1_cont {f : ℝ → ℝ} {a L ρ : ℝ} (h : ∀ s t, |s - a| ≤ ρ → |t - a| ≤ ρ → |f s - f t| ≤ L * |s - t|) {s : ℝ}
    (hs : |s - a| < ρ) : ContinuousAt f s := by
  refine continuousAt_of_locally_lipschitz (r := ρ - |s - a|) (by linarith) L fun y hy => ?_
  rw [Real.dist_eq] at hy ⊢
  rw [Real.dist_eq]
  exact h y s (by have := abs_sub_le y s a; linarith) hs.le

theorem lip2_cont {f : ℝ × ℝ → ℝ} {a b L ρ : ℝ} (h : ∀ s t s' t' d, |s - a| ≤ ρ → |t - a| ≤ ρ → |s' - b| ≤ ρ → |t' - b| ≤ ρ →
    |s - t| ≤ d → |s' - t'| ≤ d → |f (s, s') - f (t, t')| ≤ L * d) {s s' : ℝ}
    (hs : |s - a| < ρ) (hs' : |s' - b| < ρ) : ContinuousAt f (s, s') := by
  refine continuousAt_of_locally_lipschitz (r := min (ρ - |s - a|) (ρ - |s' - b|)) (lt_min (by linarith) (by linarith)) L
    fun y hy => ?_
  obtain ⟨y, y'⟩ := y
  have d1 : |y - s| ≤ dist (y, y') (s, s') := by rw [Prod.dist_eq, ← Real.dist_eq]; exact le_max_left _ _
  have d2 : |y' - s'| ≤ dist (y, y') (s, s') := by rw [Prod.dist_eq, ← Real.dist_eq]; exact le_max_right _ _
  have hy' := lt_min_iff.mp hy
  rw [Real.dist_eq]
  exact h y s y' s' _ (by have := abs_sub_le y s a; linarith) hs.le (by have := abs_sub_le y' s' b; linarith) hs'.le d1 d2

/-- Near `t` a decorated evaluation on `com` operands ends with `com`. -/
def Expr.ComNear (e : Expr ι) (t : ι → ℝ) : Prop :=
  ∃ r M : ℝ, 0 < r ∧ ∀ φ : Fmt, φ.relUnit ≤ r → M ≤ φ.maxFin → ∀ X : ι → DItv, (∀ i, (X i).Ok φ) →
    (∀ i, (X i).dec = .com) → (∀ i, ∀ a ∈ (X i).set, |a - t i| ≤ r) →
    (e.evalD φ X).itv = e.eval φ (fun i => (X i).itv) ∧ (e.evalD φ X).dec = .com

theorem DItv.Ok.com_nonempty {x : DItv} (hx : x.Ok φ) (h : x.dec = .com) : x.set.Nonempty := by
  rcases hx.1.cases with e | e
  · rcases hx.2.1 e with e | e <;> rw [h] at e <;> cases e
  · exact e.nonempty

theorem bounded_near {S : Set ℝ} {c k : ℝ} (h : ∀ v ∈ S, |v - c| ≤ k) : Bornology.IsBounded S :=
  (Metric.isBounded_closedBall (x := c) (r := k)).subset fun v hv => by
    rw [Metric.mem_closedBall, Real.dist_eq]; exact h v hv

theorem Dec.com_of_le {d : Dec} (h : .com ≤ d) : d = .com := by
  cases d <;> first | rfl | exact absurd h (by decide)

theorem un_right {op : Op1} {x : DItv} (hx : x.Ok φ) (hn : x.dec ≠ .ill) {c : ℝ}
    (h1 : op = .tan → ∀ s ∈ x.set, |s - c| ≤ 1) (h : op = .tan → ∀ s ∈ x.set, Real.cos s ≠ 0) :
    (op.decd φ x).itv = op.bare φ x.itv ∧ DecRight op.fn op.dom x.set x.dec (op.decd φ x) := by
  by_cases ht : op = .tan
  · subst ht
    exact tan_right_of hx hn (fun ⟨⟨s, hs, hc⟩, _⟩ => absurd hc (h rfl s hs)) fun hN _ => narrow_width hN (h1 rfl)
  · exact Op1.right ht hx hn

theorem ComNear.un {op : Op1} {e : Expr ι} {t : ι → ℝ} (h : e.ComNear t) (hs : e.TameAt t) (ht : e.val t ∈ op.tame) :
    (Expr.un op e).ComNear t := by
  obtain ⟨r, M, hr, h⟩ := h
  obtain ⟨K₁, r₁, M₁, k₁, p₁, n₁⟩ := narrow e hs
  obtain ⟨K₂, r₂, M₂, k₂, p₂, n₂⟩ := narrow (.un op e) ⟨hs, ht⟩
  obtain ⟨L, ρ₁, hL, hρ₁, hl⟩ := op.lip ht
  obtain ⟨ρ₂, hρ₂, hd⟩ := Metric.nhds_basis_closedBall.mem_iff.mp (op.dom_near ht)
  obtain ⟨ρ₃, hρ₃, hρ1, hc⟩ := no_pole_near ht
  obtain ⟨r', h0, hrr, hKr⟩ := small_radius (K := K₁ * 2) (by positivity) (lt_min hr (lt_min p₁ p₂)) (lt_min hρ₁ (lt_min hρ₂ hρ₃))
  have b1 := hrr.trans (min_le_left _ _)
  have b2 := hrr.trans ((min_le_right _ _).trans (min_le_left _ _))
  have b3 := hrr.trans ((min_le_right _ _).trans (min_le_right _ _))
  have hρ0 : 0 < min ρ₁ (min ρ₂ ρ₃) := lt_min hρ₁ (lt_min hρ₂ hρ₃)
  refine ⟨r' / 2, max M (max M₁ M₂), by linarith, fun φ hu hM X hX hX' hx => ?_⟩
  obtain ⟨i1, i2⟩ := h φ (by linarith) ((le_max_left _ _).trans hM) X hX hX' (fun i a ha => (hx i a ha).trans (by linarith))
  have ht1 : ∀ i, |t i - t i| ≤ r₁ := fun i => by simpa using p₁.le
  have ht2 : ∀ i, |t i - t i| ≤ r₂ := fun i => by simpa using p₂.le
  have m1 := ((le_max_left M₁ M₂).trans (le_max_right M _)).trans hM
  have m2 := ((le_max_right M₁ M₂).trans (le_max_right M _)).trans hM
  have q1 := (n₁.2 φ m1 _ (fun i => (hX i).1) t ht1 (r' / 2) (by linarith) (by linarith) hx).2
  have q2 := (n₂.2 φ m2 _ (fun i => (hX i).1) t ht2 (r' / 2) (by linarith) (by linarith) hx).2
  have ok := evalD_ok57 e hX
  have near : ∀ s ∈ (e.evalD φ X).set, |s - e.val t| ≤ min ρ₁ (min ρ₂ ρ₃) / 2 := by
    intro s hs
    rw [DItv.set, i1] at hs
    refine (q1 s hs).trans ((mul_le_mul_of_nonneg_left (by linarith : r' / 2 + φ.relUnit ≤ 2 * r') k₁).trans ?_)
    linarith
  have l1 : min ρ₁ (min ρ₂ ρ₃) ≤ ρ₁ := min_le_left _ _
  have l2 : min ρ₁ (min ρ₂ ρ₃) ≤ ρ₂ := (min_le_right _ _).trans (min_le_left _ _)
  have l3 : min ρ₁ (min ρ₂ ρ₃) ≤ ρ₃ := (min_le_right _ _).trans (min_le_right _ _)
  have near1 : ∀ s ∈ (e.evalD φ X).set, |s - e.val t| < ρ₁ := fun s hs => lt_of_le_of_lt (near s hs) (by linarith)
  have near2 : ∀ s ∈ (e.evalD φ X).set, |s - e.val t| ≤ ρ₂ := fun s hs => (near s hs).trans (by linarith)
  have near3 : ∀ s ∈ (e.evalD φ X).set, |s - e.val t| ≤ ρ₃ := fun s hs => (near s hs).trans (by linarith)
  obtain ⟨j1, j2⟩ := un_right (op := op) ok (by rw [i2]; decide) (c := e.val t)
    (fun _ s hs => (near3 s hs).trans hρ1) (fun ho s hs => hc s (near3 s hs) ho)
  have je : (Expr.evalD φ X (.un op e)).itv = Expr.eval φ (fun i => (X i).itv) (.un op e) := by
    rw [Expr.evalD, j1, i1, Expr.eval]
  refine ⟨je, Dec.com_of_le (j2.strongest .com (by rw [i2]; decide) ⟨ok.com_nonempty i2, ?_, ?_, ok.com_bounded i2, ?_⟩)⟩
  · exact fun s hs => hd (by rw [Metric.mem_closedBall, Real.dist_eq]; exact near2 s hs)
  · exact fun s hs => (lip1_cont hl (near1 s hs)).continuousWithinAt
  · refine bounded_near (c := (Expr.un op e).val t) fun v hv => q2 v ?_
    rw [← je]; exact hv

theorem ComNear.bin {op : Op2} {e₁ e₂ : Expr ι} {t : ι → ℝ} (h₁ : e₁.ComNear t) (h₂ : e₂.ComNear t) (hs₁ : e₁.TameAt t)
    (hs₂ : e₂.TameAt t) (ht : (e₁.val t, e₂.val t) ∈ op.tame) : (Expr.bin op e₁ e₂).ComNear t := by
  obtain ⟨r, M, hr, h⟩ := h₁
  obtain ⟨r', M', hr', h'⟩ := h₂
  obtain ⟨K₁, r₁, M₁, k₁, p₁, n₁⟩ := narrow e₁ hs₁
  obtain ⟨K₂, r₂, M₂, k₂, p₂, n₂⟩ := narrow e₂ hs₂
  obtain ⟨K₃, r₃, M₃, k₃, p₃, n₃⟩ := narrow (.bin op e₁ e₂) ⟨hs₁, hs₂, ht⟩
  obtain ⟨L, ρ₁, hL, hρ₁, hl⟩ := op.lip ht
  obtain ⟨ρ₂, hρ₂, hd⟩ := Metric.nhds_basis_closedBall.mem_iff.mp (op.dom_near ht)
  have hρ0 : 0 < min ρ₁ ρ₂ := lt_min hρ₁ hρ₂
  obtain ⟨r₀, h0, hrr, hKr⟩ := small_radius (K := (K₁ + K₂) * 2) (by positivity)
    (lt_min hr (lt_min hr' (lt_min p₁ (lt_min p₂ p₃)))) hρ0
  simp only [le_min_iff] at hrr
  obtain ⟨c1, c2, c3, c4, c5⟩ := hrr
  refine ⟨r₀ / 2, max M (max M' (max M₁ (max M₂ M₃))), by linarith, fun φ hu hM X hX hX' hx => ?_⟩
  simp only [max_le_iff] at hM
  obtain ⟨m1, m2, m3, m4, m5⟩ := hM
  obtain ⟨i1, i2⟩ := h φ (by linarith) m1 X hX hX' (fun i a ha => (hx i a ha).trans (by linarith))
  obtain ⟨i1', i2'⟩ := h' φ (by linarith) m2 X hX hX' (fun i a ha => (hx i a ha).trans (by linarith))
  have ht0 : ∀ {r : ℝ}, 0 < r → ∀ i, |t i - t i| ≤ r := fun hr i => by simpa using hr.le
  have q1 := (n₁.2 φ m3 _ (fun i => (hX i).1) t (ht0 p₁) (r₀ / 2) (by linarith) (by linarith) hx).2
  have q2 := (n₂.2 φ m4 _ (fun i => (hX i).1) t (ht0 p₂) (r₀ / 2) (by linarith) (by linarith) hx).2
  have q3 := (n₃.2 φ m5 _ (fun i => (hX i).1) t (ht0 p₃) (r₀ / 2) (by linarith) (by linarith) hx).2
  have ok₁ := evalD_ok57 e₁ hX
  have ok₂ := evalD_ok57 e₂ hX
  have near₁ : ∀ s ∈ (e₁.evalD φ X).set, |s - e₁.val t| ≤ min ρ₁ ρ₂ / 2 := by
    intro s hs
    rw [DItv.set, i1] at hs
    refine (q1 s hs).trans ((mul_le_mul_of_nonneg_left (by linarith : r₀ / 2 + φ.relUnit ≤ 2 * r₀) k₁).trans ?_)
    nlinarith
  have near₂ : ∀ s ∈ (e₂.evalD φ X).set, |s - e₂.val t| ≤ min ρ₁ ρ₂ / 2 := by
    intro s hs
    rw [DItv.set, i1'] at hs
    refine (q2 s hs).trans ((mul_le_mul_of_nonneg_left (by linarith : r₀ / 2 + φ.relUnit ≤ 2 * r₀) k₂).trans ?_)
    nlinarith
  have lt1 : min ρ₁ ρ₂ / 2 < ρ₁ := by have := min_le_left ρ₁ ρ₂; linarith
  have lt2 : min ρ₁ ρ₂ / 2 ≤ ρ₂ := by have := min_le_right ρ₁ ρ₂; linarith
  obtain ⟨j1, j2⟩ := op.right ok₁ ok₂ (by rw [i2]; decide) (by rw [i2']; decide)
  have je : (Expr.evalD φ X (.bin op e₁ e₂)).itv = Expr.eval φ (fun i => (X i).itv) (.bin op e₁ e₂) := by
    rw [Expr.evalD, j1, i1, i1', Expr.eval]
  refine ⟨je, Dec.com_of_le (j2.strongest .com (by rw [i2, i2']; decide)
    ⟨(ok₁.com_nonempty i2).prod (ok₂.com_nonempty i2'), ?_, ?_, (ok₁.com_bounded i2).prod (ok₂.com_bounded i2'), ?_⟩)⟩
  · rintro ⟨s, s'⟩ ⟨hs, hs'⟩
    refine hd ?_
    rw [Metric.mem_closedBall, Prod.dist_eq]
    refine max_le ?_ ?_ <;> rw [Real.dist_eq]
    · exact (near₁ s hs).trans lt2
    · exact (near₂ s' hs').trans lt2
  · rintro ⟨s, s'⟩ ⟨hs, hs'⟩
    exact (lip2_cont hl (lt_of_le_of_lt (near₁ s hs) lt1) (lt_of_le_of_lt (near₂ s' hs') lt1)).continuousWithinAt
  · refine bounded_near (c := (Expr.bin op e₁ e₂).val t) fun v hv => q3 v ?_
    rw [← je]; exact hv

theorem ComNear.fma {e₁ e₂ e₃ : Expr ι} {t : ι → ℝ} (h₁ : e₁.ComNear t) (h₂ : e₂.ComNear t) (h₃ : e₃.ComNear t)
    (hs₁ : e₁.TameAt t) (hs₂ : e₂.TameAt t) (hs₃ : e₃.TameAt t) : (Expr.fma e₁ e₂ e₃).ComNear t := by
  obtain ⟨r₁, M₁, p₁, h₁⟩ := h₁
  obtain ⟨r₂, M₂, p₂, h₂⟩ := h₂
  obtain ⟨r₃, M₃, p₃, h₃⟩ := h₃
  obtain ⟨K, r, M, hK, hr, hn⟩ := narrow (.fma e₁ e₂ e₃) ⟨hs₁, hs₂, hs₃⟩
  obtain ⟨r₀, h0, c1, c2, c3, c4⟩ : ∃ r₀, 0 < r₀ ∧ r₀ ≤ r ∧ r₀ ≤ r₁ ∧ r₀ ≤ r₂ ∧ r₀ ≤ r₃ :=
    ⟨min r (min r₁ (min r₂ r₃)), lt_min hr (lt_min p₁ (lt_min p₂ p₃)), by simp, by simp, by simp, by simp⟩
  refine ⟨r₀ / 2, max M (max M₁ (max M₂ M₃)), by linarith, fun φ hu hM X hX hX' hx => ?_⟩
  simp only [max_le_iff] at hM
  obtain ⟨m0, m1, m2, m3⟩ := hM
  obtain ⟨i1, d1⟩ := h₁ φ (by linarith) m1 X hX hX' (fun i a ha => (hx i a ha).trans (by linarith))
  obtain ⟨i2, d2⟩ := h₂ φ (by linarith) m2 X hX hX' (fun i a ha => (hx i a ha).trans (by linarith))
  obtain ⟨i3, d3⟩ := h₃ φ (by linarith) m3 X hX hX' (fun i a ha => (hx i a ha).trans (by linarith))
  have q := (hn.2 φ m0 _ (fun i => (hX i).1) t (fun i => by simpa using hr.le) (r₀ / 2) (by linarith) (by linarith) hx).2
  have ok₁ := evalD_ok57 e₁ hX
  have ok₂ := evalD_ok57 e₂ hX
  have ok₃ := evalD_ok57 e₃ hX
  obtain ⟨j1, j2⟩ := C20_fma ok₁ ok₂ ok₃ (by rw [d1]; decide) (by rw [d2]; decide) (by rw [d3]; decide)
  have je : (Expr.evalD φ X (.fma e₁ e₂ e₃)).itv = Expr.eval φ (fun i => (X i).itv) (.fma e₁ e₂ e₃) := by
    rw [Expr.evalD, j1, i1, i2, i3, Expr.eval]
  refine ⟨je, Dec.com_of_le (j2.strongest .com (by rw [d1, d2, d3]; decide)
    ⟨(ok₁.com_nonempty d1).prod ((ok₂.com_nonempty d2).prod (ok₃.com_nonempty d3)), Set.subset_univ _, fun s _ => ?_,
      (ok₁.com_bounded d1).prod ((ok₂.com_bounded d2).prod (ok₃.com_bounded d3)), ?_⟩)⟩
  · exact (by fun_prop : Continuous fun p : ℝ × ℝ × ℝ => p.1 * p.2.1 + p.2.2).continuousWithinAt
  · refine bounded_near (c := (Expr.fma e₁ e₂ e₃).val t) fun v hv => q v ?_
    rw [← je]; exact hv

theorem comNear (e : Expr ι) {t : ι → ℝ} (h : e.TameAt t) : e.ComNear t := by
  induction e with
  | var i => exact ⟨1, 0, one_pos, fun φ _ _ X _ hX' _ => ⟨rfl, hX' i⟩⟩
  | un op e ih => exact ComNear.un (ih h.1) h.1 h.2
  | bin op e₁ e₂ ih₁ ih₂ => exact ComNear.bin (ih₁ h.1) (ih₂ h.2.1) h.1 h.2.1 h.2.2
  | fma e₁ e₂ e₃ ih₁ ih₂ ih₃ => exact ComNear.fma (ih₁ h.1) (ih₂ h.2.1) (ih₃ h.2.2) h.1 h.2.1 h.2.2

/-- **C64**: near a point at which an expression is tame, a decorated evaluation on `com` operands ends with `com`, and its
interval part is that of the evaluation on bare intervals. -/
theorem C64_com (e : Expr ι) {t : ι → ℝ} (h : e.TameAt t) :
    ∃ r M : ℝ, 0 < r ∧ ∀ φ : Fmt, φ.relUnit ≤ r → M ≤ φ.maxFin →
      ∀ X : ι → DItv, (∀ i, (X i).Ok φ) → (∀ i, (X i).dec = .com) → (∀ i, ∀ a ∈ (X i).set, |a - t i| ≤ r) →
        (e.evalD φ X).itv = e.eval φ (fun i => (X i).itv) ∧ (e.evalD φ X).dec = .com := by
  obtain ⟨r, M, hr, h⟩ := comNear e h
  exact ⟨r, M, hr, h⟩

/-- **C64**, uniformly on a bounded box at every point of which the expression is tame: on every smaller box with sides of at
most `r` the decorated evaluation ends with `com`. -/
theorem C64_com_box [Finite ι] (e : Expr ι) {a b : ι → ℝ} (h : ∀ t, (∀ i, a i ≤ t i ∧ t i ≤ b i) → e.TameAt t) :
    ∃ r M : ℝ, 0 < r ∧ ∀ φ : Fmt, φ.relUnit ≤ r → M ≤ φ.maxFin →
      ∀ X : ι → DItv, (∀ i, (X i).Ok φ) → (∀ i, (X i).dec = .com) → (∀ i, ∀ s ∈ (X i).set, a i ≤ s ∧ s ≤ b i) →
        (∀ i, ∀ s ∈ (X i).set, ∀ s' ∈ (X i).set, |s - s'| ≤ r) →
        (e.evalD φ X).itv = e.eval φ (fun i => (X i).itv) ∧ (e.evalD φ X).dec = .com := by
  have hc : IsCompact {t : ι → ℝ | ∀ i, a i ≤ t i ∧ t i ≤ b i} := by
    have := isCompact_univ_pi (fun i => isCompact_Icc (a := a i) (b := b i))
    convert this using 1; ext t; simp only [Set.mem_pi, Set.mem_univ, true_imp_iff, Set.mem_Icc, Set.mem_ofPred_eq]
  have key : ∃ r M : ℝ, 0 < r ∧ ∀ φ : Fmt, φ.relUnit ≤ r → M ≤ φ.maxFin → ∀ X : ι → DItv,
      (∀ i, (X i).Ok φ) → (∀ i, (X i).dec = .com) → ∀ s ∈ {t : ι → ℝ | ∀ i, a i ≤ t i ∧ t i ≤ b i},
      (∀ i, ∀ a ∈ (X i).set, |a - s i| ≤ r) →
      (e.evalD φ X).itv = e.eval φ (fun i => (X i).itv) ∧ (e.evalD φ X).dec = .com := by
    refine hc.induction_on (p := fun S => ∃ r M : ℝ, 0 < r ∧ ∀ φ : Fmt, φ.relUnit ≤ r → M ≤ φ.maxFin →
      ∀ X : ι → DItv, (∀ i, (X i).Ok φ) → (∀ i, (X i).dec = .com) → ∀ s ∈ S, (∀ i, ∀ a ∈ (X i).set, |a - s i| ≤ r) →
      (e.evalD φ X).itv = e.eval φ (fun i => (X i).itv) ∧ (e.evalD φ X).dec = .com)
      ⟨1, 0, one_pos, fun _ _ _ _ _ _ s hs => absurd hs (by simp)⟩ ?_ ?_ ?_
    · rintro A B hAB ⟨r, M, hr, h⟩
      exact ⟨r, M, hr, fun φ hu hM X hX hX' s hs => h φ hu hM X hX hX' s (hAB hs)⟩
    · rintro A B ⟨r, M, hr, h⟩ ⟨r', M', hr', h'⟩
      refine ⟨min r r', max M M', lt_min hr hr', fun φ hu hM X hX hX' s hs hx => ?_⟩
      rcases hs with hs | hs
      · exact h φ (hu.trans (min_le_left _ _)) ((le_max_left _ _).trans hM) X hX hX' s hs
          (fun i a ha => (hx i a ha).trans (min_le_left _ _))
      · exact h' φ (hu.trans (min_le_right _ _)) ((le_max_right _ _).trans hM) X hX hX' s hs
          (fun i a ha => (hx i a ha).trans (min_le_right _ _))
    · intro t ht
      obtain ⟨r, M, hr, hN⟩ := comNear e (h t ht)
      refine ⟨{s | ∀ i, |s i - t i| ≤ r / 2}, mem_nhdsWithin_of_mem_nhds ?_, r / 2, M, by linarith,
        fun φ hu hM X hX hX' s hs hx => hN φ (by linarith) hM X hX hX' fun i a ha =>
          near_two (hx i a ha) (hs i) (by linarith)⟩
      have : Fintype ι := Fintype.ofFinite ι
      filter_upwards [Metric.closedBall_mem_nhds t (half_pos hr)] with s hs i
      have := (dist_le_pi_dist s t i).trans hs
      rwa [Real.dist_eq] at this
  obtain ⟨r, M, hr, hN⟩ := key
  refine ⟨r, M, hr, fun φ hu hM X hX hX' hab hw => ?_⟩
  have hne : ∀ i, (X i).set.Nonempty := fun i => (hX i).com_nonempty (hX' i)
  exact hN φ hu hM X hX hX' (fun i => (hne i).some) (fun i => hab i _ (hne i).some_mem)
    (fun i a ha => hw i a ha _ (hne i).some_mem)

end P1788
