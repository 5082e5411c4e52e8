import Verif.Model.AutoDiff
import Verif.Lemmas.Tame
import Mathlib.Analysis.SpecialFunctions.Trigonometric.ArctanDeriv
import Mathlib.Analysis.Calculus.Deriv.Abs

/-!
# The derivatives of the operations
-/

namespace P1788
open Set Filter Topology
variable {ι : Type} {t : ι ⊕ ℚ → ℝ}

theorem deriv_const77 {f : ℝ → ℝ} {a c : ℝ} (h : ∀ᶠ s in 𝓝 a, f s = c) : HasDerivAt f 0 a :=
  (hasDerivAt_const a c).congr_of_eventuallyEq h

/-- The difference of `ceil` and `floor` vanishes at the integers. -/
theorem not_int77 {s : ℝ} (h : (⌈s⌉ : ℝ) - ⌊s⌋ ≠ 0) : ∀ n : ℤ, s ≠ n := by
  rintro n rfl
  simp at h

theorem flat_ceil77 {a : ℝ} (h : ∀ n : ℤ, a ≠ n) : HasDerivAt Op1.ceil.fn 0 a :=
  deriv_const77 (c := ((⌊a⌋ + 1 : ℤ) : ℝ)) ((ev_floor h).mono fun s hs => by
    show ((⌈s⌉ : ℤ) : ℝ) = _
    rw [ceil_of_not_int hs.2, hs.1])

theorem flat_floor77 {a : ℝ} (h : ∀ n : ℤ, a ≠ n) : HasDerivAt Op1.floor.fn 0 a :=
  deriv_const77 (c := (⌊a⌋ : ℝ)) ((ev_floor h).mono fun s hs => by
    show ((⌊s⌋ : ℤ) : ℝ) = _
    rw [hs.1])

theorem flat_trunc77 {a : ℝ} (h : ∀ n : ℤ, a ≠ n) : HasDerivAt Op1.trunc.fn 0 a := by
  have h0 : a ≠ 0 := by simpa using h 0
  rcases lt_or_gt_of_ne h0 with h1 | h1
  · exact deriv_const77 (c := ((⌊a⌋ + 1 : ℤ) : ℝ)) (((ev_floor h).and (gt_mem_nhds h1)).mono fun s hs => by
      show ((truncR s : ℤ) : ℝ) = _
      unfold truncR
      rw [if_neg (not_le.mpr hs.2), ceil_of_not_int hs.1.2, hs.1.1])
  · exact deriv_const77 (c := (⌊a⌋ : ℝ)) (((ev_floor h).and (lt_mem_nhds h1)).mono fun s hs => by
      show ((truncR s : ℤ) : ℝ) = _
      unfold truncR
      rw [if_pos hs.2.le, hs.1.1])

theorem flat_even77 {a : ℝ} (h : ∀ n : ℤ, a + 1 / 2 ≠ n) : HasDerivAt Op1.roundEven.fn 0 a := by
  have ev : ∀ᶠ s : ℝ in 𝓝 a, ⌊s + 1 / 2⌋ = ⌊a + 1 / 2⌋ ∧ ∀ n : ℤ, s + 1 / 2 ≠ n :=
    ((continuous_id.add continuous_const).tendsto a).eventually (ev_floor h)
  exact deriv_const77 (c := (⌊a + 1 / 2⌋ : ℝ)) (ev.mono fun s hs => by
    show ((roundEvenR s : ℤ) : ℝ) = _
    rw [roundEven_eq hs.2]; exact_mod_cast hs.1)

theorem flat_away77 {a : ℝ} (h : ∀ n : ℤ, a + 1 / 2 ≠ n) : HasDerivAt Op1.roundAway.fn 0 a := by
  have ev : ∀ᶠ s : ℝ in 𝓝 a, ⌊s + 1 / 2⌋ = ⌊a + 1 / 2⌋ ∧ ∀ n : ℤ, s + 1 / 2 ≠ n :=
    ((continuous_id.add continuous_const).tendsto a).eventually (ev_floor h)
  exact deriv_const77 (c := (⌊a + 1 / 2⌋ : ℝ)) (ev.mono fun s hs => by
    show ((roundAwayR s : ℤ) : ℝ) = _
    rw [roundAway_eq hs.2]; exact_mod_cast hs.1)

theorem deriv_abs77 {x : ℝ} (h : x ≠ 0) : HasDerivAt (fun a : ℝ => |a|) (x / |x|) x := by
  rcases lt_or_gt_of_ne h with h1 | h1
  · have := hasDerivAt_abs_neg h1
    rw [abs_of_neg h1, div_neg, div_self h]
    exact this
  · have := hasDerivAt_abs_pos h1
    rw [abs_of_pos h1, div_self h]
    exact this

theorem deriv_artanh77 {x : ℝ} (h1 : -1 < x) (h2 : x < 1) : HasDerivAt Real.artanh (1 / (1 - x ^ 2)) x := by
  have h3 : 0 < 1 + x := by linarith
  have h4 : 0 < 1 - x := by linarith
  have e : ∀ᶠ s in 𝓝 x, Real.artanh s = 1 / 2 * (Real.log (1 + s) - Real.log (1 - s)) := by
    filter_upwards [Ioo_mem_nhds h1 h2] with s hs
    rw [Real.artanh_eq_half_log ⟨hs.1.le, hs.2.le⟩, Real.log_div (by linarith [hs.1]) (by linarith [hs.2])]
  have d1 : HasDerivAt (fun s : ℝ => Real.log (1 + s)) (1 / (1 + x)) x := ((hasDerivAt_id x).const_add 1).log h3.ne'
  have d2 : HasDerivAt (fun s : ℝ => Real.log (1 - s)) (-1 / (1 - x)) x := ((hasDerivAt_id x).const_sub 1).log h4.ne'
  refine HasDerivAt.congr_of_eventuallyEq ?_ e
  refine ((d1.sub d2).const_mul (1 / 2 : ℝ)).congr_deriv ?_
  have : (1 - x ^ 2) = (1 + x) * (1 - x) := by ring
  rw [this]
  field_simp
  ring

theorem deriv_tanh77 (x : ℝ) : HasDerivAt Real.tanh (1 / Real.cosh x ^ 2) x := by
  have e : Real.tanh = fun s => Real.sinh s / Real.cosh s := funext Real.tanh_eq_sinh_div_cosh
  rw [e]
  refine ((Real.hasDerivAt_sinh x).div (Real.hasDerivAt_cosh x) (Real.cosh_pos x).ne').congr_deriv ?_
  rw [← pow_two, ← pow_two, Real.cosh_sq_sub_sinh_sq x]

/-- **The formula of the derivative of a unary operation is right wherever it is defined.** -/
theorem Op1.dv_right (op : Op1) (ht : ∀ q : ℚ, t (.inr q) = q) (a d : Expr (ι ⊕ ℚ)) (h : t ∈ (op.dv a d).dom) :
    t ∈ d.dom ∧ ∃ k : ℝ, HasDerivAt op.fn k (a.val t) ∧ ∀ d' : Expr (ι ⊕ ℚ), (op.dv a d').val t = k * d'.val t := by
  have hs : ∀ x : ℝ, 0 ≤ 1 - x ^ 2 → √(1 - x ^ 2) ≠ 0 → -1 < x ∧ x < 1 := fun x h1 h2 => by
    have h3 : 0 < 1 - x ^ 2 := lt_of_le_of_ne h1 fun e => h2 (by rw [← e, Real.sqrt_zero])
    exact abs_lt.mp (by nlinarith [sq_abs x, abs_nonneg x])
  cases op <;> simp only [Op1.dv, Expr.dom, Expr.cst, Expr.val, Op1.dom, Op2.dom, Op1.fn, Op2.fn, ht, mem_ofPred_eq, mem_univ, and_true,
    true_and, ne_eq] at h ⊢
  case pos => exact ⟨h, 1, hasDerivAt_id _, fun d' => by ring⟩
  case neg => exact ⟨h, -1, (hasDerivAt_id _).neg, fun d' => by ring⟩
  case recip =>
    have h0 : a.val t ≠ 0 := fun e => h.2.2 (by rw [e]; norm_num)
    refine ⟨h.1, -(1 / a.val t ^ 2), ?_, fun d' => by ring⟩
    simpa [one_div] using hasDerivAt_inv h0
  case sqr => exact ⟨h.2, 2 * a.val t, by simpa using hasDerivAt_pow 2 (a.val t), fun d' => by push_cast; ring⟩
  case sqrt =>
    have h0 : a.val t ≠ 0 := fun e => h.2.2 (by rw [e]; simp)
    exact ⟨h.1, _, Real.hasDerivAt_sqrt h0, fun d' => by push_cast; ring⟩
  case abs =>
    have h0 : a.val t ≠ 0 := fun e => h.1.2.2 (by rw [e]; simp)
    exact ⟨h.2, _, deriv_abs77 h0, fun d' => rfl⟩
  case pown p =>
    by_cases hp : p = 0
    · subst hp
      simp only [if_pos, Expr.dom, Expr.val, Op1.dom, Op2.dom, Op2.fn, mem_ofPred_eq, mem_univ, and_true, true_and, ht] at h ⊢
      exact ⟨h, 0, by simpa using hasDerivAt_const (a.val t) (1:ℝ), fun d' => by push_cast; ring⟩
    · simp only [if_neg hp, Expr.dom, Expr.val, Op1.dom, Op2.dom, Op1.fn, Op2.fn, mem_ofPred_eq, mem_univ, and_true, true_and, ht] at h ⊢
      refine ⟨h.2, _, hasDerivAt_zpow p (a.val t) ?_, fun d' => by push_cast; ring⟩
      rcases le_or_gt 0 p with h1 | h1
      · exact .inr h1
      · exact .inl (h.1.2 (by omega))
  case exp => exact ⟨h.2, _, Real.hasDerivAt_exp _, fun d' => rfl⟩
  case exp2 =>
    exact ⟨h.2, _, (Real.hasStrictDerivAt_const_rpow (by norm_num) _).hasDerivAt, fun d' => by push_cast; rfl⟩
  case exp10 =>
    exact ⟨h.2, _, (Real.hasStrictDerivAt_const_rpow (by norm_num) _).hasDerivAt, fun d' => by push_cast; rfl⟩
  case log => exact ⟨h.1, _, Real.hasDerivAt_log h.2.2, fun d' => by ring⟩
  case log2 =>
    have h0 : a.val t ≠ 0 := fun e => h.2.2 (by rw [e]; simp)
    refine ⟨h.1, _, (Real.hasDerivAt_log h0).div_const (Real.log 2), fun d' => ?_⟩
    push_cast
    rw [div_eq_mul_inv, mul_inv, div_eq_mul_inv]; ring
  case log10 =>
    have h0 : a.val t ≠ 0 := fun e => h.2.2 (by rw [e]; simp)
    refine ⟨h.1, _, (Real.hasDerivAt_log h0).div_const (Real.log 10), fun d' => ?_⟩
    push_cast
    rw [div_eq_mul_inv, mul_inv, div_eq_mul_inv]; ring
  case sin => exact ⟨h.2, _, Real.hasDerivAt_sin _, fun d' => rfl⟩
  case cos => exact ⟨h.2, _, Real.hasDerivAt_cos _, fun d' => by ring⟩
  case tan =>
    have hc : Real.cos (a.val t) ≠ 0 := h.1.2
    refine ⟨h.2, _, Real.hasDerivAt_tan hc, fun d' => ?_⟩
    have hv : 1 + Real.tan (a.val t) ^ 2 = 1 / Real.cos (a.val t) ^ 2 := by
      rw [← Real.inv_one_add_tan_sq hc, one_div, inv_inv]
    push_cast
    rw [hv]
  case asin =>
    push_cast at h ⊢
    obtain ⟨h1, h2⟩ := hs _ h.2.1.2 h.2.2
    exact ⟨h.1, _, Real.hasDerivAt_arcsin h1.ne' h2.ne, fun d' => by ring⟩
  case acos =>
    push_cast at h ⊢
    obtain ⟨h1, h2⟩ := hs _ h.2.1.2 h.2.2
    exact ⟨h.1, _, Real.hasDerivAt_arccos h1.ne' h2.ne, fun d' => by ring⟩
  case atan => exact ⟨h.1, _, Real.hasDerivAt_arctan _, fun d' => by push_cast; ring⟩
  case sinh => exact ⟨h.2, _, Real.hasDerivAt_sinh _, fun d' => rfl⟩
  case cosh => exact ⟨h.2, _, Real.hasDerivAt_cosh _, fun d' => rfl⟩
  case tanh => exact ⟨h.1, _, deriv_tanh77 _, fun d' => by ring⟩
  case asinh => exact ⟨h.1, _, Real.hasDerivAt_arsinh _, fun d' => by push_cast; ring⟩
  case acosh =>
    push_cast at h ⊢
    obtain ⟨hd, ⟨⟨-, h1⟩, -, h2⟩, h3⟩ := h
    have h4 : 1 < a.val t := lt_of_le_of_ne (by linarith) fun e => h3 (by rw [← e]; simp)
    refine ⟨hd, _, Real.hasDerivAt_arcosh h4, fun d' => ?_⟩
    rw [← Real.sqrt_mul h1, show (a.val t - 1) * (a.val t + 1) = a.val t ^ 2 - 1 by ring]
    ring
  case atanh =>
    push_cast at h ⊢
    have h5 : √(1 - a.val t ^ 2) ≠ 0 := fun e => h.2.2 (by rw [e]; norm_num)
    obtain ⟨h1, h2⟩ := hs _ h.2.1.2 h5
    refine ⟨h.1, _, deriv_artanh77 h1 h2, fun d' => ?_⟩
    rw [Real.sq_sqrt h.2.1.2]
    ring
  case sign =>
    refine ⟨h.2, 0, ?_, fun d' => by push_cast; ring⟩
    rcases lt_or_gt_of_ne h.1.2 with h | h
    · exact deriv_const77 (c := -1) ((gt_mem_nhds h).mono fun s hs => Real.sign_of_neg hs)
    · exact deriv_const77 (c := 1) ((lt_mem_nhds h).mono fun s hs => Real.sign_of_pos hs)
  case ceil => exact ⟨h.2, 0, flat_ceil77 (not_int77 h.1.2), fun d' => by push_cast; ring⟩
  case floor => exact ⟨h.2, 0, flat_floor77 (not_int77 h.1.2), fun d' => by push_cast; ring⟩
  case trunc => exact ⟨h.2, 0, flat_trunc77 (not_int77 h.1.2), fun d' => by push_cast; ring⟩
  case roundEven =>
    push_cast at h ⊢
    exact ⟨h.2, 0, flat_even77 (not_int77 h.1.2), fun d' => by ring⟩
  case roundAway =>
    push_cast at h ⊢
    exact ⟨h.2, 0, flat_away77 (not_int77 h.1.2), fun d' => by ring⟩

/-- The derivative of a function of two numbers. -/
def Grad2 (f : ℝ × ℝ → ℝ) (k l : ℝ) (p : ℝ × ℝ) : Prop :=
  HasFDerivAt f (k • ContinuousLinearMap.fst ℝ ℝ ℝ + l • ContinuousLinearMap.snd ℝ ℝ ℝ) p

theorem deriv_abs_sub77 {p : ℝ × ℝ} (h : p.1 - p.2 ≠ 0) : Grad2 (fun q => |q.1 - q.2|) ((p.1 - p.2) / |p.1 - p.2|)
    (-((p.1 - p.2) / |p.1 - p.2|)) p := by
  have d : HasFDerivAt (fun q : ℝ × ℝ => q.1 - q.2) (ContinuousLinearMap.fst ℝ ℝ ℝ - ContinuousLinearMap.snd ℝ ℝ ℝ) p :=
    hasFDerivAt_fst.sub hasFDerivAt_snd
  refine ((deriv_abs77 h).comp_hasFDerivAt p d).congr_fderiv ?_
  ext <;> simp

theorem deriv_atan277 {p : ℝ × ℝ} (h : 0 < p.2 + √(p.1 ^ 2 + p.2 ^ 2)) :
    Grad2 Op2.atan2.fn (p.2 / (p.1 ^ 2 + p.2 ^ 2)) (-(p.1 / (p.1 ^ 2 + p.2 ^ 2))) p := by
  have e : Op2.atan2.fn = fun p : ℝ × ℝ => (Complex.log (Complex.equivRealProdCLM.symm (p.2, p.1))).im := by
    funext p
    rw [Complex.log_im]
    congr 1
  have hz : Complex.equivRealProdCLM.symm (p.2, p.1) ∈ Complex.slitPlane := by
    rw [Complex.mem_slitPlane_iff]
    by_contra hc
    push Not at hc
    simp only [Complex.equivRealProdCLM_symm_apply] at hc
    have h1 : p.1 = 0 := by simpa using hc.2
    have h2 : p.2 ≤ 0 := by simpa using hc.1
    rw [h1, show (0:ℝ) ^ 2 + p.2 ^ 2 = p.2 ^ 2 by ring, Real.sqrt_sq_eq_abs, abs_of_nonpos h2] at h
    linarith
  have d1 : HasFDerivAt (fun p : ℝ × ℝ => (p.2, p.1)) ((ContinuousLinearMap.snd ℝ ℝ ℝ).prod (ContinuousLinearMap.fst ℝ ℝ ℝ)) p :=
    hasFDerivAt_snd.prodMk hasFDerivAt_fst
  have d2 := (Complex.equivRealProdCLM.symm.hasFDerivAt (x := (p.2, p.1))).comp p d1
  have d3 := (Complex.hasStrictFDerivAt_log_real hz).hasFDerivAt.comp p d2
  have d4 := Complex.imCLM.hasFDerivAt.comp p d3
  rw [e]
  refine HasFDerivAt.congr_fderiv (f' := _) d4 ?_
  ext
  · simp [Complex.equivRealProdCLM_symm_apply, Complex.inv_re, Complex.inv_im, Complex.normSq_apply]
    ring
  · simp [Complex.equivRealProdCLM_symm_apply, Complex.inv_re, Complex.inv_im, Complex.normSq_apply]
    ring

/-- **The formula of the derivative of a binary operation is right wherever it is defined.** -/
theorem Op2.dv_right (op : Op2) (ht : ∀ q : ℚ, t (.inr q) = q) (a b d f : Expr (ι ⊕ ℚ)) (h : t ∈ (op.dv a b d f).dom) :
    t ∈ d.dom ∧ t ∈ f.dom ∧ ∃ k l : ℝ, Grad2 op.fn k l (a.val t, b.val t) ∧
      ∀ d' f' : Expr (ι ⊕ ℚ), (op.dv a b d' f').val t = k * d'.val t + l * f'.val t := by
  have p1 : HasFDerivAt (fun q : ℝ × ℝ => q.1) (ContinuousLinearMap.fst ℝ ℝ ℝ) (a.val t, b.val t) := hasFDerivAt_fst
  have p2 : HasFDerivAt (fun q : ℝ × ℝ => q.2) (ContinuousLinearMap.snd ℝ ℝ ℝ) (a.val t, b.val t) := hasFDerivAt_snd
  cases op <;> simp only [Op2.dv, Expr.dom, Expr.cst, Expr.val, Op1.dom, Op2.dom, Op1.fn, Op2.fn, ht, mem_ofPred_eq, mem_univ, and_true,
    true_and, ne_eq] at h ⊢
  case add => exact ⟨h.1, h.2, 1, 1, (p1.add p2).congr_fderiv (by ext <;> simp), fun d' f' => by ring⟩
  case sub => exact ⟨h.1, h.2, 1, -1, (p1.sub p2).congr_fderiv (by ext <;> simp), fun d' f' => by ring⟩
  case mul => exact ⟨h.1.1, h.2.2, b.val t, a.val t, (p1.mul p2).congr_fderiv (by ext <;> simp), fun d' f' => by ring⟩
  case div =>
    have h0 : b.val t ≠ 0 := fun e => h.2.2 (by rw [e]; norm_num)
    have d := p1.mul ((hasDerivAt_inv (show ((a.val t, b.val t) : ℝ × ℝ).2 ≠ 0 from h0)).comp_hasFDerivAt _ p2)
    refine ⟨h.1.1.1, h.1.2.2, 1 / b.val t, -(a.val t / b.val t ^ 2), HasFDerivAt.congr_fderiv (f' := _) d ?_, fun d' f' => by field_simp; ring⟩
    ext
    · simp
    · simp
      ring
  case pow =>
    obtain ⟨-, ⟨hf, -, h1⟩, ⟨-, hd⟩, -⟩ := h
    refine ⟨hd, hf, b.val t * a.val t ^ (b.val t - 1), a.val t ^ b.val t * Real.log (a.val t),
      (Real.hasStrictFDerivAt_rpow_of_pos (a.val t, b.val t) h1).hasFDerivAt, fun d' f' => ?_⟩
    rw [Real.rpow_sub_one h1.ne']
    field_simp
    ring
  case atan2 =>
    obtain ⟨⟨⟨⟨hd, -⟩, -, hf⟩, -, h0⟩, -, h1⟩ := h
    refine ⟨hd, hf, _, _, deriv_atan277 (p := (a.val t, b.val t)) h1, fun d' f' => ?_⟩
    push_cast
    ring
  case min =>
    obtain ⟨⟨⟨hd, hf⟩, ⟨-, h1⟩, -⟩, -⟩ := h
    have h0 : a.val t - b.val t ≠ 0 := fun e => h1.2 (by rw [e]; simp)
    have d := ((p1.add p2).sub (deriv_abs_sub77 (p := (a.val t, b.val t)) h0)).const_mul (2⁻¹ : ℝ)
    refine ⟨hd, hf, (1 - (a.val t - b.val t) / |a.val t - b.val t|) / 2, (1 + (a.val t - b.val t) / |a.val t - b.val t|) / 2, ?_,
      fun d' f' => by push_cast; ring⟩
    have e : (fun q : ℝ × ℝ => q.1 ⊓ q.2) = fun q => 2⁻¹ * (q.1 + q.2 - |q.1 - q.2|) := by
      funext q
      rcases le_total q.1 q.2 with hq | hq
      · rw [inf_eq_left.mpr hq, abs_of_nonpos (by linarith)]; ring
      · rw [inf_eq_right.mpr hq, abs_of_nonneg (by linarith)]; ring
    rw [e]
    refine HasFDerivAt.congr_fderiv (f' := _) d ?_
    ext <;> simp <;> ring
  case max =>
    obtain ⟨⟨⟨hd, hf⟩, ⟨-, h1⟩, -⟩, -⟩ := h
    have h0 : a.val t - b.val t ≠ 0 := fun e => h1.2 (by rw [e]; simp)
    have d := ((p1.add p2).add (deriv_abs_sub77 (p := (a.val t, b.val t)) h0)).const_mul (2⁻¹ : ℝ)
    refine ⟨hd, hf, (1 + (a.val t - b.val t) / |a.val t - b.val t|) / 2, (1 - (a.val t - b.val t) / |a.val t - b.val t|) / 2, ?_,
      fun d' f' => by push_cast; ring⟩
    have e : (fun q : ℝ × ℝ => q.1 ⊔ q.2) = fun q => 2⁻¹ * (q.1 + q.2 + |q.1 - q.2|) := by
      funext q
      rcases le_total q.1 q.2 with hq | hq
      · rw [sup_eq_right.mpr hq, abs_of_nonpos (by linarith)]; ring
      · rw [sup_eq_left.mpr hq, abs_of_nonneg (by linarith)]; ring
    rw [e]
    refine HasFDerivAt.congr_fderiv (f' := _) d ?_
    ext <;> simp <;> ring

/-- **The formulas of the partial derivatives give the derivative of the formula wherever they are defined.** -/
theorem Expr.pd_right {n : ℕ} (e : Expr (Fin n ⊕ ℚ)) (u : Fin n → ℝ) (h : ∀ j, Sum.elim u (fun q : ℚ => (q:ℝ)) ∈ (e.pd j).dom) :
    HasFDerivAt (fun w : Fin n → ℝ => e.val (Sum.elim w fun q => (q:ℝ)))
      (∑ j, (e.pd j).val (Sum.elim u fun q => (q:ℝ)) • ContinuousLinearMap.proj j : (Fin n → ℝ) →L[ℝ] ℝ) u := by
  have ht : ∀ q : ℚ, Sum.elim u (fun q : ℚ => (q:ℝ)) (.inr q) = q := fun q => rfl
  obtain hE | ⟨⟨j0⟩⟩ := isEmpty_or_nonempty (Fin n)
  · convert hasFDerivAt_of_subsingleton _ u
    simp
  induction e with
  | var i =>
    rcases i with i | q
    · refine ((ContinuousLinearMap.proj (R := ℝ) (φ := fun _ : Fin n => ℝ) i).hasFDerivAt (x := u)).congr_fderiv ?_
      ext w
      simp only [Expr.pd, Expr.cst, Expr.val, Sum.elim_inr]
      simp only [_root_.sum_apply, _root_.smul_apply, ContinuousLinearMap.proj_apply, smul_eq_mul]
      rw [Finset.sum_eq_single i (fun j _ hj => by rw [if_neg (fun e => hj e.symm)]; simp) (by simp)]
      simp
    · refine (hasFDerivAt_const (q:ℝ) u).congr_fderiv ?_
      simp [Expr.pd, Expr.cst, Expr.val]
  | un op a ih =>
    obtain ⟨-, k, hk, hv⟩ := op.dv_right ht a (a.pd j0) (h j0)
    have hd := ih fun j => (op.dv_right ht a (a.pd j) (h j)).1
    refine (hk.comp_hasFDerivAt u hd).congr_fderiv ?_
    ext w
    simp [Expr.pd, hv, Finset.mul_sum, mul_assoc]
  | bin op a b iha ihb =>
    obtain ⟨-, -, k, l, hk, hv⟩ := op.dv_right ht a b (a.pd j0) (b.pd j0) (h j0)
    have hd := iha fun j => (op.dv_right ht a b (a.pd j) (b.pd j) (h j)).1
    have hf := ihb fun j => (op.dv_right ht a b (a.pd j) (b.pd j) (h j)).2.1
    unfold Grad2 at hk
    have hg := HasFDerivAt.comp (g := op.fn)
      (f := fun w : Fin n → ℝ => (a.val (Sum.elim w fun q => (q:ℝ)), b.val (Sum.elim w fun q => (q:ℝ)))) u hk (hd.prodMk hf)
    refine HasFDerivAt.congr_fderiv (f' := _) hg ?_
    ext w
    simp [Expr.pd, hv, Finset.mul_sum, add_mul, Finset.sum_add_distrib, mul_assoc]
  | fma a b c iha ihb ihc =>
    have hd := iha fun j => (h j).1.1.1
    have hf := ihb fun j => (h j).1.2.1.2.1
    have hg := ihc fun j => (h j).2.1
    refine ((hd.mul hf).add hg).congr_fderiv ?_
    ext w
    simp only [Expr.pd, Expr.val, Op2.fn, _root_.sum_apply, _root_.smul_apply, _root_.add_apply, ContinuousLinearMap.proj_apply, smul_eq_mul,
      Finset.mul_sum, add_mul, Finset.sum_add_distrib]
    rw [add_comm (∑ j, _) (∑ j, a.val _ * _ * _)]
    refine congrArg₂ _ (congrArg₂ _ (Finset.sum_congr rfl fun j _ => ?_) (Finset.sum_congr rfl fun j _ => ?_)) rfl <;> ring

end P1788
