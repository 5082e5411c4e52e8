import Verif.Lemmas.Tame
import Verif.Props.C54
import Verif.Lemmas.RevTrig2

/-! # C64: narrow arguments give narrow results

The fundamental theorem (C18) says that no value is lost; a function that always returned the entire line would satisfy it.
Here is the converse: near a point at which all operations of an expression are tame, the interval value of the
expression is within a constant times (width of the arguments + rounding unit) of the real value. -/

namespace P1788
variable {ι : Type} {φ : Fmt}

/-- The relative rounding unit `2^(1-p)` of a format. -/
noncomputable def Fmt.relUnit (φ : Fmt) : ℝ := 2 ^ (1 - (φ.p : ℤ))

theorem relUnit_pos : 0 < φ.relUnit := zpow_pos (by norm_num) _

theorem unit_le_rel {m B : ℝ} (h : |m| ≤ B) : φ.unit m ≤ (B + 1) * φ.relUnit := by
  have h0 := abs_nonneg m
  have he := relUnit_pos (φ := φ)
  unfold Fmt.unit
  refine max_le ?_ ?_
  · rw [mul_comm]; exact mul_le_mul_of_nonneg_right (by linarith) he.le
  · have : (2:ℝ) ^ φ.qmin ≤ φ.relUnit := zpow_le_zpow_right₀ (by norm_num) (by have := φ.qmin_le; omega)
    nlinarith

/-- A tightest enclosure stays close to what it encloses. -/
theorem Tightest.close {R : Itv} {S : Set ℝ} (h : Tightest φ R S) {c d B : ℝ} (hS : ∀ z ∈ S, |z - c| ≤ d)
    (hB : |c| + d ≤ B) (hd : 0 ≤ d) (hm : B ≤ (φ.maxFin : ℝ)) : ∀ v ∈ R.set, |v - c| ≤ d + (B + 1) * φ.relUnit := by
  intro v hv
  have b1 : |c - d| ≤ B := (abs_sub c d).trans (by rw [abs_of_nonneg hd]; exact hB)
  have b2 : |c + d| ≤ B := (abs_add_le c d).trans (by rw [abs_of_nonneg hd]; exact hB)
  have l1 := h.ge (φ.rep_roundQ (φ.roundQ_le_maxFin (m := .D) (b1.trans hm)))
    (fun z hz => (φ.roundQ_D_le _).trans (by have := (abs_le.mp (hS z hz)).1; linarith)) v hv
  have l2 := h.le (φ.rep_roundQ (φ.roundQ_le_maxFin (m := .U) (b2.trans hm)))
    (fun z hz => le_trans (by have := (abs_le.mp (hS z hz)).2; linarith) (φ.roundQ_U_ge (c + d))) v hv
  have u1 := roundQ_D_gt (φ := φ) (c - d)
  have u2 := roundQ_U_lt (φ := φ) (c + d)
  have e1 := unit_le_rel (φ := φ) b1
  have e2 := unit_le_rel (φ := φ) b2
  rw [abs_le]; constructor <;> linarith

/-- The statement proved by induction: near `t` the value of the expression is Lipschitz with constant `K`, and the interval
value is as close to the real value as `K` times the widths and the rounding unit. -/
def Expr.NarrowWith (e : Expr ι) (t : ι → ℝ) (K r M : ℝ) : Prop :=
  (∀ s s' : ι → ℝ, ∀ ρ, (∀ i, |s i - t i| ≤ r) → (∀ i, |s' i - t i| ≤ r) → (∀ i, |s i - s' i| ≤ ρ) → 0 ≤ ρ →
    |e.val s - e.val s'| ≤ K * ρ) ∧
  (∀ φ : Fmt, M ≤ φ.maxFin → ∀ X : ι → Itv, (∀ i, (X i).Ok φ) → ∀ s : ι → ℝ, (∀ i, |s i - t i| ≤ r) →
    ∀ δ, 0 ≤ δ → δ + φ.relUnit ≤ r → (∀ i, ∀ a ∈ (X i).set, |a - s i| ≤ δ) →
    (e.eval φ X).Ok φ ∧ ∀ v ∈ (e.eval φ X).set, |v - e.val s| ≤ K * (δ + φ.relUnit))

theorem Expr.NarrowWith.mono {e : Expr ι} {t : ι → ℝ} {K r M K' r' M' : ℝ} (h : e.NarrowWith t K r M) (hK : K ≤ K')
    (hr : r' ≤ r) (hM : M ≤ M') : e.NarrowWith t K' r' M' := by
  refine ⟨fun s s' ρ h1 h2 h3 h0 => (h.1 s s' ρ (fun i => (h1 i).trans hr) (fun i => (h2 i).trans hr) h3 h0).trans
    (mul_le_mul_of_nonneg_right hK h0), fun φ hm X hX s hs δ hd he hx => ?_⟩
  obtain ⟨o, b⟩ := h.2 φ (hM.trans hm) X hX s (fun i => (hs i).trans hr) δ hd (he.trans hr) hx
  exact ⟨o, fun v hv => (b v hv).trans (mul_le_mul_of_nonneg_right hK (by have := relUnit_pos (φ := φ); linarith))⟩

theorem small_radius {K r ρ : ℝ} (hK : 0 ≤ K) (hr : 0 < r) (hρ : 0 < ρ) : ∃ r', 0 < r' ∧ r' ≤ r ∧ K * r' ≤ ρ / 2 := by
  refine ⟨min r (ρ / (2 * (K + 1))), lt_min hr (div_pos hρ (by linarith)), min_le_left _ _, ?_⟩
  have h : min r (ρ / (2 * (K + 1))) * (2 * (K + 1)) ≤ ρ := by
    rw [← le_div_iff₀ (by linarith)]; exact min_le_right _ _
  have h0 : 0 ≤ min r (ρ / (2 * (K + 1))) := (lt_min hr (div_pos hρ (by linarith))).le
  nlinarith

theorem near_two {v x a k₁ k₂ ρ : ℝ} (h1 : |v - x| ≤ k₁) (h2 : |x - a| ≤ k₂) (h : k₁ + k₂ ≤ ρ) : |v - a| ≤ ρ := by
  have := abs_sub_le v x a; linarith

/-- The tangent has no pole near a tame point. -/
theorem no_pole_near {op : Op1} {a : ℝ} (h : a ∈ op.tame) :
    ∃ ρ : ℝ, 0 < ρ ∧ ρ ≤ 1 ∧ ∀ s, |s - a| ≤ ρ → op = .tan → Real.cos s ≠ 0 := by
  by_cases ht : op = .tan
  · subst ht
    obtain ⟨ρ, hρ, hb⟩ := Metric.nhds_basis_closedBall.mem_iff.mp
      ((Real.continuous_cos.tendsto a).eventually_ne (show Real.cos a ≠ 0 from h))
    exact ⟨min ρ 1, lt_min hρ one_pos, min_le_right _ _, fun s hs _ => hb (by simpa [Real.dist_eq] using hs.trans (min_le_left _ _))⟩
  · exact ⟨1, one_pos, le_rfl, fun _ _ h => absurd h ht⟩

/-- A narrow interval passes the width test of the tangent. -/
theorem narrow_width {x : Itv} (hx : x.NE φ) {c : ℝ} (h : ∀ s ∈ x.set, |s - c| ≤ 1) :
    ∃ a b : ℝ, x.lo.toE = (a:EReal) ∧ x.hi.toE = (b:EReal) ∧ ((b - a : ℝ):EReal) ≤ φ.rdE (Real.pi:ℝ) := by
  have hb : Bornology.IsBounded x.set := (Metric.isBounded_closedBall (x := c) (r := 1)).subset fun v hv => by
    rw [Metric.mem_closedBall, Real.dist_eq]; exact h v hv
  obtain ⟨e1, e2, r1, r2, hle⟩ := fin_of_bounded hx (hx.bounded_iff.mp hb)
  have hle : (x.lo.q:ℝ) ≤ x.hi.q := by exact_mod_cast hle
  refine ⟨_, _, e1, e2, ?_⟩
  have m1 := h x.lo.q (hx.mem.mpr ⟨by rw [e1], by rw [e2]; exact_mod_cast hle⟩)
  have m2 := h x.hi.q (hx.mem.mpr ⟨by rw [e1]; exact_mod_cast hle, by rw [e2]⟩)
  have h2 : ((2:ℝ):EReal) ≤ φ.rdE (Real.pi:ℝ) := by
    have := (φ.le_rdE_iff (f := .fin 2) (show φ.Rep 2 by exact_mod_cast φ.rep_small (k := 2) (by norm_num)) (Real.pi:ℝ) (by simp)).mpr
      (by simp only [FP.toE]; exact_mod_cast Real.two_le_pi)
    simpa [FP.toE] using this
  refine le_trans ?_ h2
  rw [EReal.coe_le_coe_iff]
  have := (abs_le.mp m1).1; have := (abs_le.mp m2).2
  linarith

theorem un_tight {op : Op1} {x : Itv} (hx : x.Ok φ) {c : ℝ} (h1 : op = .tan → ∀ s ∈ x.set, |s - c| ≤ 1)
    (h : op = .tan → ∀ s ∈ x.set, Real.cos s ≠ 0) : Tightest φ (op.bare φ x) (op.fn '' (x.set ∩ op.dom)) := by
  by_cases ht : op = .tan
  · subst ht
    rw [tan_set]
    have hp : ¬ x.HasPole := fun ⟨s, hs, hc⟩ => h rfl s hs hc
    rcases hx.cases with rfl | hN
    · refine tightest_empty' (by simp [Op1.bare, Fmt.tanI]) ?_
      ext z; constructor
      · rintro ⟨t, ht, -⟩; simp at ht
      · simp
    · exact C11_tan_tight_partial hx (fun h => absurd h.1 hp) (Or.inr (narrow_width hN (h1 rfl)))
  · exact op.tight ht hx

/-- Unary step, with explicit constants. -/
theorem NarrowWith.un_const {op : Op1} {e : Expr ι} {t : ι → ℝ} {K r M L ρ r' : ℝ} (h : e.NarrowWith t K r M) (hK : 0 ≤ K)
    (hr : 0 < r) (hL : 0 ≤ L) (hρ : 0 < ρ)
    (hl : ∀ s s', |s - e.val t| ≤ ρ → |s' - e.val t| ≤ ρ → |op.fn s - op.fn s'| ≤ L * |s - s'|)
    (hρ1 : op = .tan → ρ ≤ 1) (hc : ∀ s, |s - e.val t| ≤ ρ → op = .tan → Real.cos s ≠ 0) (h0 : 0 < r') (hrr : r' ≤ r) (hKr : K * r' ≤ ρ / 2) :
    (Expr.un op e).NarrowWith t (L * K + (|op.fn (e.val t)| + L * ρ + L * ρ) + 1) r' (max M (|op.fn (e.val t)| + L * ρ + L * ρ)) := by
  have base : ∀ s : ι → ℝ, (∀ i, |s i - t i| ≤ r') → |e.val s - e.val t| ≤ ρ / 2 := fun s hs =>
    (h.1 s t r' (fun i => (hs i).trans hrr) (fun i => by simpa using hr.le) hs h0.le).trans hKr
  have fval : ∀ s : ι → ℝ, (∀ i, |s i - t i| ≤ r') → |op.fn (e.val s)| ≤ |op.fn (e.val t)| + L * ρ := by
    intro s hs
    have h1 := hl (e.val s) (e.val t) ((base s hs).trans (by linarith)) (by simpa using hρ.le)
    have h2 : L * |e.val s - e.val t| ≤ L * ρ := mul_le_mul_of_nonneg_left ((base s hs).trans (by linarith)) hL
    have h3 := abs_sub_abs_le_abs_sub (op.fn (e.val s)) (op.fn (e.val t))
    linarith
  have hB0 : 0 ≤ |op.fn (e.val t)| + L * ρ + L * ρ := by positivity
  refine ⟨?_, ?_⟩
  · intro s s' ρ' h1 h2 h3 hρ'
    have hv := h.1 s s' ρ' (fun i => (h1 i).trans hrr) (fun i => (h2 i).trans hrr) h3 hρ'
    have hf := hl (e.val s) (e.val s') ((base s h1).trans (by linarith)) ((base s' h2).trans (by linarith))
    calc |op.fn (e.val s) - op.fn (e.val s')| ≤ L * (K * ρ') := hf.trans (mul_le_mul_of_nonneg_left hv hL)
      _ = (L * K) * ρ' := by ring
      _ ≤ _ := mul_le_mul_of_nonneg_right (by linarith) hρ'
  · intro φ hm X hX s hs δ hd he hx
    have hu := relUnit_pos (φ := φ)
    obtain ⟨o, b⟩ := h.2 φ ((le_max_left _ _).trans hm) X hX s (fun i => (hs i).trans hrr) δ hd (he.trans hrr) hx
    have hη : K * (δ + φ.relUnit) ≤ ρ / 2 := (mul_le_mul_of_nonneg_left he hK).trans hKr
    have nr : ∀ v ∈ (e.eval φ X).set, |v - e.val t| ≤ ρ := fun v hv => near_two (b v hv) (base s hs) (by linarith)
    have T := un_tight (op := op) o (c := e.val t) (fun ho v hv => (nr v hv).trans (hρ1 ho)) (fun ho v hv => hc v (nr v hv) ho)
    refine ⟨T.1, fun v hv => ?_⟩
    have := T.close (c := op.fn (e.val s)) (d := L * (K * (δ + φ.relUnit))) (B := |op.fn (e.val t)| + L * ρ + L * ρ) ?_ ?_
      (by positivity) ((le_max_right _ _).trans hm) v hv
    · refine this.trans ?_
      have h1 : (|op.fn (e.val t)| + L * ρ + L * ρ + 1) * φ.relUnit ≤ (|op.fn (e.val t)| + L * ρ + L * ρ + 1) * (δ + φ.relUnit) :=
        mul_le_mul_of_nonneg_left (by linarith) (by linarith)
      nlinarith
    · rintro _ ⟨a, ⟨ha, -⟩, rfl⟩
      exact (hl a (e.val s) (nr a ha) ((base s hs).trans (by linarith))).trans
        (mul_le_mul_of_nonneg_left (b a ha) hL)
    · have := fval s hs
      have h2 : L * (K * (δ + φ.relUnit)) ≤ L * ρ := mul_le_mul_of_nonneg_left (hη.trans (by linarith)) hL
      linarith

/-- Unary step. -/
theorem NarrowWith.un {op : Op1} {e : Expr ι} {t : ι → ℝ} {K r M : ℝ} (h : e.NarrowWith t K r M) (hK : 0 ≤ K) (hr : 0 < r)
    (ht : e.val t ∈ op.tame) : ∃ K' r' M', 0 ≤ K' ∧ 0 < r' ∧ (Expr.un op e).NarrowWith t K' r' M' := by
  obtain ⟨L, ρ₁, hL, hρ₁, hl⟩ := op.lip ht
  obtain ⟨ρ₂, hρ₂, hρ1, hc⟩ := no_pole_near ht
  obtain ⟨ρ, hρ, hl', hc'⟩ : ∃ ρ, 0 < ρ ∧ ρ ≤ ρ₁ ∧ ρ ≤ ρ₂ := ⟨min ρ₁ ρ₂, lt_min hρ₁ hρ₂, min_le_left _ _, min_le_right _ _⟩
  obtain ⟨r', h0, hrr, hKr⟩ := small_radius hK hr hρ
  exact ⟨_, r', _, by positivity, h0, NarrowWith.un_const h hK hr hL hρ (fun s s' a b => hl s s' (a.trans hl') (b.trans hl'))
    (fun _ => hc'.trans hρ1) (fun s a => hc s (a.trans hc')) h0 hrr hKr⟩

/-- Binary step. -/
theorem NarrowWith.bin {op : Op2} {e₁ e₂ : Expr ι} {t : ι → ℝ} {K r M : ℝ} (h₁ : e₁.NarrowWith t K r M)
    (h₂ : e₂.NarrowWith t K r M) (hK : 0 ≤ K) (hr : 0 < r) (ht : (e₁.val t, e₂.val t) ∈ op.tame) :
    ∃ K' r' M', 0 ≤ K' ∧ 0 < r' ∧ (Expr.bin op e₁ e₂).NarrowWith t K' r' M' := by
  obtain ⟨L, ρ, hL, hρ, hl⟩ := op.lip ht
  obtain ⟨r', h0, hrr, hKr⟩ := small_radius hK hr hρ
  have base₁ : ∀ s : ι → ℝ, (∀ i, |s i - t i| ≤ r') → |e₁.val s - e₁.val t| ≤ ρ / 2 := fun s hs =>
    (h₁.1 s t r' (fun i => (hs i).trans hrr) (fun i => by simpa using hr.le) hs h0.le).trans hKr
  have base₂ : ∀ s : ι → ℝ, (∀ i, |s i - t i| ≤ r') → |e₂.val s - e₂.val t| ≤ ρ / 2 := fun s hs =>
    (h₂.1 s t r' (fun i => (hs i).trans hrr) (fun i => by simpa using hr.le) hs h0.le).trans hKr
  have w₁ : ∀ s : ι → ℝ, (∀ i, |s i - t i| ≤ r') → |e₁.val s - e₁.val t| ≤ ρ := fun s hs => (base₁ s hs).trans (by linarith)
  have w₂ : ∀ s : ι → ℝ, (∀ i, |s i - t i| ≤ r') → |e₂.val s - e₂.val t| ≤ ρ := fun s hs => (base₂ s hs).trans (by linarith)
  have fval : ∀ s : ι → ℝ, (∀ i, |s i - t i| ≤ r') →
      |op.fn (e₁.val s, e₂.val s)| ≤ |op.fn (e₁.val t, e₂.val t)| + L * ρ := by
    intro s hs
    have h1 := hl (e₁.val s) (e₁.val t) (e₂.val s) (e₂.val t) ρ (w₁ s hs) (by simpa using hρ.le) (w₂ s hs)
      (by simpa using hρ.le) (w₁ s hs) (w₂ s hs)
    have h3 := abs_sub_abs_le_abs_sub (op.fn (e₁.val s, e₂.val s)) (op.fn (e₁.val t, e₂.val t))
    linarith
  generalize hB : |op.fn (e₁.val t, e₂.val t)| + L * ρ + L * ρ = B
  have hB0 : 0 ≤ B := by rw [← hB]; positivity
  refine ⟨L * K + B + 1, r', max M B, by positivity, h0, ?_, ?_⟩
  · intro s s' ρ' a1 a2 a3 hρ'
    have v1 := h₁.1 s s' ρ' (fun i => (a1 i).trans hrr) (fun i => (a2 i).trans hrr) a3 hρ'
    have v2 := h₂.1 s s' ρ' (fun i => (a1 i).trans hrr) (fun i => (a2 i).trans hrr) a3 hρ'
    calc |op.fn (e₁.val s, e₂.val s) - op.fn (e₁.val s', e₂.val s')| ≤ L * (K * ρ') :=
          hl _ _ _ _ _ (w₁ s a1) (w₁ s' a2) (w₂ s a1) (w₂ s' a2) v1 v2
      _ = (L * K) * ρ' := by ring
      _ ≤ _ := mul_le_mul_of_nonneg_right (by linarith) hρ'
  · intro φ hm X hX s hs δ hd he hx
    have hu := relUnit_pos (φ := φ)
    obtain ⟨o₁, b₁⟩ := h₁.2 φ ((le_max_left _ _).trans hm) X hX s (fun i => (hs i).trans hrr) δ hd (he.trans hrr) hx
    obtain ⟨o₂, b₂⟩ := h₂.2 φ ((le_max_left _ _).trans hm) X hX s (fun i => (hs i).trans hrr) δ hd (he.trans hrr) hx
    have hη : K * (δ + φ.relUnit) ≤ ρ / 2 := (mul_le_mul_of_nonneg_left he hK).trans hKr
    have T := op.tight o₁ o₂
    refine ⟨T.1, fun v hv => ?_⟩
    have := T.close (c := op.fn (e₁.val s, e₂.val s)) (d := L * (K * (δ + φ.relUnit))) (B := B) ?_ ?_
      (by positivity) ((le_max_right _ _).trans hm) v hv
    · refine this.trans ?_
      have h1 : (B + 1) * φ.relUnit ≤ (B + 1) * (δ + φ.relUnit) := mul_le_mul_of_nonneg_left (by linarith) (by linarith)
      nlinarith
    · rintro _ ⟨⟨a, b⟩, ⟨⟨ha, hb⟩, -⟩, rfl⟩
      exact hl _ _ _ _ _ (near_two (b₁ a ha) (base₁ s hs) (by linarith)) (w₁ s hs)
        (near_two (b₂ b hb) (base₂ s hs) (by linarith)) (w₂ s hs) (b₁ a ha) (b₂ b hb)
    · have := fval s hs
      have h2 : L * (K * (δ + φ.relUnit)) ≤ L * ρ := mul_le_mul_of_nonneg_left (hη.trans (by linarith)) hL
      linarith

theorem fma_lip {a b c x y z A B k : ℝ} (hA : |x| ≤ A) (hB : |b| ≤ B) (h1 : |a - x| ≤ k) (h2 : |b - y| ≤ k) (h3 : |c - z| ≤ k) :
    |a * b + c - (x * y + z)| ≤ (A + B + 1) * k := by
  have e : a * b + c - (x * y + z) = (a - x) * b + x * (b - y) + (c - z) := by ring
  rw [e]
  have k0 : 0 ≤ k := (abs_nonneg _).trans h1
  have t1 : |(a - x) * b| ≤ k * B := by rw [abs_mul]; exact mul_le_mul h1 hB (abs_nonneg _) k0
  have t2 : |x * (b - y)| ≤ A * k := by rw [abs_mul]; exact mul_le_mul hA h2 (abs_nonneg _) ((abs_nonneg _).trans hA)
  have := abs_add_three ((a - x) * b) (x * (b - y)) (c - z)
  nlinarith

/-- Step for `fma`. -/
theorem NarrowWith.fma {e₁ e₂ e₃ : Expr ι} {t : ι → ℝ} {K r M : ℝ} (h₁ : e₁.NarrowWith t K r M)
    (h₂ : e₂.NarrowWith t K r M) (h₃ : e₃.NarrowWith t K r M) (hK : 0 ≤ K) (hr : 0 < r) :
    ∃ K' r' M', 0 ≤ K' ∧ 0 < r' ∧ (Expr.fma e₁ e₂ e₃).NarrowWith t K' r' M' := by
  obtain ⟨r', h0, hrr, hKr⟩ := small_radius hK hr (zero_lt_two (α := ℝ))
  have base : ∀ e : Expr ι, e.NarrowWith t K r M → ∀ s : ι → ℝ, (∀ i, |s i - t i| ≤ r') → |e.val s| ≤ |e.val t| + 1 := by
    intro e h s hs
    have h1 := (h.1 s t r' (fun i => (hs i).trans hrr) (fun i => by simpa using hr.le) hs h0.le).trans hKr
    have h3 := abs_sub_abs_le_abs_sub (e.val s) (e.val t)
    linarith
  generalize hA : |e₁.val t| + 1 = A at *
  have wide : ∀ e : Expr ι, e.NarrowWith t K r M → ∀ s : ι → ℝ, (∀ i, |s i - t i| ≤ r') → ∀ b k, |b - e.val s| ≤ k → k ≤ 1 →
      |b| ≤ |e.val t| + 2 := by
    intro e h s hs b k h1 hk
    have h2 := base e h s hs
    have h3 := abs_sub_abs_le_abs_sub b (e.val s)
    linarith
  have A0 : 0 ≤ |e₁.val t| + 2 := by positivity
  have B0 : 0 ≤ |e₂.val t| + 2 := by positivity
  have C0 : 0 ≤ |e₃.val t| + 2 := by positivity
  have b1 := fun s hs => (base e₁ h₁ s hs).trans (by linarith : _ ≤ |e₁.val t| + 2)
  have b2 := fun s hs => (base e₂ h₂ s hs).trans (by linarith : _ ≤ |e₂.val t| + 2)
  have b3 := fun s hs => (base e₃ h₃ s hs).trans (by linarith : _ ≤ |e₃.val t| + 2)
  have w2 := wide e₂ h₂
  generalize |e₁.val t| + 2 = A at *
  generalize |e₂.val t| + 2 = B at *
  generalize |e₃.val t| + 2 = C at *
  have D0 : 0 ≤ A * B + C + (A + B + 1) := by positivity
  refine ⟨(A + B + 1) * K + (A * B + C + (A + B + 1)) + 1, r', max M (A * B + C + (A + B + 1)), by positivity, h0, ?_, ?_⟩
  · intro s s' ρ' a1 a2 a3 hρ'
    have v1 := h₁.1 s s' ρ' (fun i => (a1 i).trans hrr) (fun i => (a2 i).trans hrr) a3 hρ'
    have v2 := h₂.1 s s' ρ' (fun i => (a1 i).trans hrr) (fun i => (a2 i).trans hrr) a3 hρ'
    have v3 := h₃.1 s s' ρ' (fun i => (a1 i).trans hrr) (fun i => (a2 i).trans hrr) a3 hρ'
    calc |e₁.val s * e₂.val s + e₃.val s - (e₁.val s' * e₂.val s' + e₃.val s')| ≤ (A + B + 1) * (K * ρ') :=
          fma_lip (b1 s' a2) (b2 s a1) v1 v2 v3
      _ = ((A + B + 1) * K) * ρ' := by ring
      _ ≤ _ := mul_le_mul_of_nonneg_right (by linarith) hρ'
  · intro φ hm X hX s hs δ hd he hx
    have hu := relUnit_pos (φ := φ)
    obtain ⟨o₁, c₁⟩ := h₁.2 φ ((le_max_left _ _).trans hm) X hX s (fun i => (hs i).trans hrr) δ hd (he.trans hrr) hx
    obtain ⟨o₂, c₂⟩ := h₂.2 φ ((le_max_left _ _).trans hm) X hX s (fun i => (hs i).trans hrr) δ hd (he.trans hrr) hx
    obtain ⟨o₃, c₃⟩ := h₃.2 φ ((le_max_left _ _).trans hm) X hX s (fun i => (hs i).trans hrr) δ hd (he.trans hrr) hx
    have hη : K * (δ + φ.relUnit) ≤ 1 := ((mul_le_mul_of_nonneg_left he hK).trans hKr).trans (by norm_num)
    have T := C06_fma φ o₁ o₂ o₃
    refine ⟨T.1, fun v hv => ?_⟩
    have := T.close (c := e₁.val s * e₂.val s + e₃.val s) (d := (A + B + 1) * (K * (δ + φ.relUnit)))
      (B := A * B + C + (A + B + 1)) ?_ ?_ (by positivity) ((le_max_right _ _).trans hm) v hv
    · refine this.trans ?_
      have h1 : (A * B + C + (A + B + 1) + 1) * φ.relUnit ≤ (A * B + C + (A + B + 1) + 1) * (δ + φ.relUnit) :=
        mul_le_mul_of_nonneg_left (by linarith) (by linarith)
      nlinarith
    · rintro _ ⟨a, ha, b, hb, c, hc, rfl⟩
      exact fma_lip (b1 s hs) (w2 s hs b _ (c₂ b hb) hη) (c₁ a ha) (c₂ b hb) (c₃ c hc)
    · have t1 := abs_add_le (e₁.val s * e₂.val s) (e₃.val s)
      have t2 : |e₁.val s * e₂.val s| ≤ A * B := by
        rw [abs_mul]; exact mul_le_mul (b1 s hs) (b2 s hs) (abs_nonneg _) A0
      have t3 := b3 s hs
      have t4 : (A + B + 1) * (K * (δ + φ.relUnit)) ≤ (A + B + 1) * 1 := mul_le_mul_of_nonneg_left hη (by positivity)
      linarith

theorem narrow (e : Expr ι) {t : ι → ℝ} (h : e.TameAt t) : ∃ K r M, 0 ≤ K ∧ 0 < r ∧ e.NarrowWith t K r M := by
  induction e with
  | var i =>
    refine ⟨1, 1, 0, by norm_num, by norm_num, fun s s' ρ _ _ h3 _ => by rw [one_mul]; exact h3 i, ?_⟩
    intro φ _ X hX s _ δ hd he hx
    refine ⟨hX i, fun v hv => (hx i v hv).trans ?_⟩
    have := relUnit_pos (φ := φ); linarith
  | un op e ih =>
    obtain ⟨K, r, M, hK, hr, hN⟩ := ih h.1
    exact NarrowWith.un hN hK hr h.2
  | bin op e₁ e₂ ih₁ ih₂ =>
    obtain ⟨K₁, r₁, M₁, k₁, p₁, n₁⟩ := ih₁ h.1
    obtain ⟨K₂, r₂, M₂, k₂, p₂, n₂⟩ := ih₂ h.2.1
    exact NarrowWith.bin (n₁.mono (le_max_left K₁ K₂) (min_le_left r₁ r₂) (le_max_left M₁ M₂))
      (n₂.mono (le_max_right _ _) (min_le_right _ _) (le_max_right _ _)) (le_max_of_le_left k₁) (lt_min p₁ p₂) h.2.2
  | fma e₁ e₂ e₃ ih₁ ih₂ ih₃ =>
    obtain ⟨K₁, r₁, M₁, k₁, p₁, n₁⟩ := ih₁ h.1
    obtain ⟨K₂, r₂, M₂, k₂, p₂, n₂⟩ := ih₂ h.2.1
    obtain ⟨K₃, r₃, M₃, k₃, p₃, n₃⟩ := ih₃ h.2.2
    exact NarrowWith.fma
      (n₁.mono (le_max_left K₁ (max K₂ K₃)) (min_le_left r₁ (min r₂ r₃)) (le_max_left M₁ (max M₂ M₃)))
      (n₂.mono ((le_max_left _ _).trans (le_max_right _ _)) ((min_le_right _ _).trans (min_le_left _ _))
        ((le_max_left _ _).trans (le_max_right _ _)))
      (n₃.mono ((le_max_right _ _).trans (le_max_right _ _)) ((min_le_right _ _).trans (min_le_right _ _))
        ((le_max_right _ _).trans (le_max_right _ _)))
      (le_max_of_le_left k₁) (lt_min p₁ (lt_min p₂ p₃))

/-- **C64**: near a point `t` at which an expression is tame, the interval value of the expression on a box is as close to the
real value at `t` as the box is to `t`, up to a factor and the rounding unit.  The constants do not depend on the format. -/
theorem C64_point (e : Expr ι) {t : ι → ℝ} (h : e.TameAt t) :
    ∃ K r M : ℝ, 0 < r ∧ ∀ φ : Fmt, φ.relUnit ≤ r → M ≤ φ.maxFin →
      ∀ X : ι → Itv, (∀ i, (X i).Ok φ) → ∀ δ, 0 ≤ δ → δ ≤ r → (∀ i, ∀ a ∈ (X i).set, |a - t i| ≤ δ) →
        ∀ v ∈ (e.eval φ X).set, |v - e.val t| ≤ K * (δ + φ.relUnit) := by
  obtain ⟨K, r, M, hK, hr, hN⟩ := narrow e h
  refine ⟨K, r / 2, M, by linarith, fun φ hu hM X hX δ hd hdr hx => ?_⟩
  exact (hN.2 φ hM X hX t (fun i => by simpa using hr.le) δ hd (by linarith) hx).2

/-- Everything near a point of `S` is covered with the same constants. -/
def Expr.NarrowOn (e : Expr ι) (S : Set (ι → ℝ)) : Prop :=
  ∃ K r M : ℝ, 0 < r ∧ ∀ φ : Fmt, φ.relUnit ≤ r → M ≤ φ.maxFin → ∀ X : ι → Itv, (∀ i, (X i).Ok φ) →
    ∀ s ∈ S, ∀ δ, 0 ≤ δ → δ ≤ r → (∀ i, ∀ a ∈ (X i).set, |a - s i| ≤ δ) →
      ∀ v ∈ (e.eval φ X).set, |v - e.val s| ≤ K * (δ + φ.relUnit)

theorem NarrowOn.union {e : Expr ι} {S S' : Set (ι → ℝ)} (h : e.NarrowOn S) (h' : e.NarrowOn S') : e.NarrowOn (S ∪ S') := by
  obtain ⟨K, r, M, hr, h⟩ := h
  obtain ⟨K', r', M', hr', h'⟩ := h'
  refine ⟨max K K', min r r', max M M', lt_min hr hr', fun φ hu hM X hX s hs δ hd hdr hx v hv => ?_⟩
  have h0 : 0 ≤ δ + φ.relUnit := by have := relUnit_pos (φ := φ); linarith
  rcases hs with hs | hs
  · exact (h φ (hu.trans (min_le_left _ _)) ((le_max_left _ _).trans hM) X hX s hs δ hd (hdr.trans (min_le_left _ _)) hx v
      hv).trans (mul_le_mul_of_nonneg_right (le_max_left _ _) h0)
  · exact (h' φ (hu.trans (min_le_right _ _)) ((le_max_right _ _).trans hM) X hX s hs δ hd (hdr.trans (min_le_right _ _)) hx v
      hv).trans (mul_le_mul_of_nonneg_right (le_max_right _ _) h0)

theorem narrowOn [Finite ι] (e : Expr ι) {S : Set (ι → ℝ)} (hS : IsCompact S) (h : ∀ t ∈ S, e.TameAt t) : e.NarrowOn S := by
  refine hS.induction_on ⟨0, 1, 0, one_pos, fun _ _ _ _ _ s hs => absurd hs (by simp)⟩ ?_ (fun _ _ => NarrowOn.union) ?_
  · rintro A B hAB ⟨K, r, M, hr, h⟩
    exact ⟨K, r, M, hr, fun φ hu hM X hX s hs => h φ hu hM X hX s (hAB hs)⟩
  · intro t ht
    obtain ⟨K, r, M, hK, hr, hN⟩ := narrow e (h t ht)
    refine ⟨{s | ∀ i, |s i - t i| ≤ r}, mem_nhdsWithin_of_mem_nhds ?_, K, r / 2, M, by linarith,
      fun φ hu hM X hX s hs δ hd hdr hx => (hN.2 φ hM X hX s hs δ hd (by linarith) hx).2⟩
    have : Fintype ι := Fintype.ofFinite ι
    filter_upwards [Metric.closedBall_mem_nhds t hr] with s hs i
    have := (dist_le_pi_dist s t i).trans hs
    rwa [Real.dist_eq] at this

/-- **C64**, uniformly on a bounded box at every point of which the expression is tame: there are constants such that on every
smaller box with sides of at most `δ` the result is within `K` times (`δ` + rounding unit) of the real value at every point of
the smaller box.  In particular its width is at most twice that. -/
theorem C64_box [Finite ι] (e : Expr ι) {a b : ι → ℝ} (h : ∀ t, (∀ i, a i ≤ t i ∧ t i ≤ b i) → e.TameAt t) :
    ∃ K r M : ℝ, 0 < r ∧ ∀ φ : Fmt, φ.relUnit ≤ r → M ≤ φ.maxFin →
      ∀ X : ι → Itv, (∀ i, (X i).Ok φ) → (∀ i, ∀ s ∈ (X i).set, a i ≤ s ∧ s ≤ b i) →
        ∀ δ, 0 ≤ δ → δ ≤ r → (∀ i, ∀ s ∈ (X i).set, ∀ s' ∈ (X i).set, |s - s'| ≤ δ) →
          ∀ s : ι → ℝ, (∀ i, s i ∈ (X i).set) → ∀ v ∈ (e.eval φ X).set, |v - e.val s| ≤ K * (δ + φ.relUnit) := by
  have hc : IsCompact {t : ι → ℝ | ∀ i, a i ≤ t i ∧ t i ≤ b i} := by
    have := isCompact_univ_pi (fun i => isCompact_Icc (a := a i) (b := b i))
    convert this using 1; ext t; simp only [Set.mem_pi, Set.mem_univ, true_imp_iff, Set.mem_Icc, Set.mem_ofPred_eq]
  obtain ⟨K, r, M, hr, hN⟩ := narrowOn e hc h
  refine ⟨K, r, M, hr, fun φ hu hM X hX hab δ hd hdr hw s hs => ?_⟩
  exact hN φ hu hM X hX s (fun i => hab i _ (hs i)) δ hd hdr (fun i a ha => hw i a ha _ (hs i))

/-! ### Examples -/

/-- The constants of the square near 1: factor 14, radius 1/2, values up to 9. -/
theorem sqr_const : (Expr.un .sqr (.var ())).NarrowWith (fun _ => 1) 14 (1 / 2) 9 := by
  have h0 : (Expr.var ()).NarrowWith (fun _ => (1:ℝ)) 1 1 0 := by
    refine ⟨fun s s' ρ _ _ h3 _ => by rw [one_mul]; exact h3 (), ?_⟩
    intro φ _ X hX s _ δ hd he hx
    refine ⟨hX (), fun v hv => (hx () v hv).trans ?_⟩
    have := relUnit_pos (φ := φ); linarith
  have := NarrowWith.un_const (op := .sqr) (L := 4) (ρ := 1) (r' := 1 / 2) h0 (by norm_num) (by norm_num) (by norm_num) (by norm_num)
    (fun s s' h h' => by
      simp only [Expr.val, Op1.fn, abs_le] at h h' ⊢
      have e : s ^ 2 - s' ^ 2 = (s + s') * (s - s') := by ring
      rw [← abs_le, e, abs_mul]
      refine mul_le_mul_of_nonneg_right ?_ (abs_nonneg _)
      rw [abs_le]; constructor <;> linarith [h.1, h.2, h'.1, h'.2]) (fun h => by cases h) (fun _ _ h => by cases h) (by norm_num)
    (by norm_num) (by norm_num)
  refine this.mono ?_ le_rfl ?_ <;> simp [Expr.val, Op1.fn] <;> norm_num

/-- In `double`, `sqr` of an interval in `[1 - 2⁻²⁰, 1 + 2⁻²⁰]` is within `15·2⁻²⁰` of 1: the hypotheses are met by the formats
of the library. -/
example {x : Itv} (hx : x.Ok binary64) (h : ∀ a ∈ x.set, |a - 1| ≤ 2 ^ (-20 : ℤ)) :
    ∀ v ∈ (binary64.sqrI x).set, |v - 1| ≤ 15 * 2 ^ (-20 : ℤ) := by
  intro v hv
  have hm : (9:ℝ) ≤ binary64.maxFin := by
    have h := (binary64.rep_small (k := 9) (by norm_num)).abs_le
    push_cast at h
    rw [abs_of_pos (by norm_num)] at h
    exact_mod_cast h
  have := (sqr_const.2 binary64 hm (fun _ => x) (fun _ => hx) (fun _ => 1) (fun _ => by norm_num) (2 ^ (-20 : ℤ)) (by norm_num)
    (by norm_num [Fmt.relUnit, binary64]) (fun _ => h)).2 v hv
  simp only [Expr.val, Op1.fn, one_pow] at this
  refine this.trans ?_
  norm_num [Fmt.relUnit, binary64]

/-- A formula with `sqrt`, `log` and a division, tame at every point of `[1,2]`. -/
example : ∀ t : Unit → ℝ, (∀ i, (1:ℝ) ≤ t i ∧ t i ≤ 2) →
    (Expr.bin .div (.un .sqrt (.var ())) (.bin .add (.un .exp (.var ())) (.un .log (.var ())))).TameAt t := by
  intro t ht
  have h := ht ()
  refine ⟨⟨trivial, show (0:ℝ) < t () by linarith⟩, ⟨⟨trivial, trivial⟩, ⟨trivial, show (0:ℝ) < t () by linarith⟩, trivial⟩, ?_⟩
  show Real.exp (t ()) + Real.log (t ()) ≠ 0
  have := Real.exp_pos (t ()); have := Real.log_nonneg h.1
  linarith

end P1788
