import Verif.SpecTame
import Mathlib.Analysis.Calculus.ContDiff.RCLike
import Mathlib.Analysis.SpecialFunctions.Pow.Deriv
import Mathlib.Analysis.SpecialFunctions.Trigonometric.InverseDeriv
import Mathlib.Analysis.SpecialFunctions.Trigonometric.ArctanDeriv
import Mathlib.Analysis.SpecialFunctions.Complex.LogDeriv
import Mathlib.Analysis.SpecialFunctions.Sqrt
import Mathlib.Analysis.Complex.RealDeriv

/-! # Tame operations are Lipschitz near the point -/

namespace P1788
open Real Topology

/-- Lipschitz near `a`. -/
def Lip1 (f : ℝ → ℝ) (a : ℝ) : Prop :=
  ∃ L r : ℝ, 0 ≤ L ∧ 0 < r ∧ ∀ s t, |s - a| ≤ r → |t - a| ≤ r → |f s - f t| ≤ L * |s - t|

/-- Lipschitz near `(a, b)`. -/
def Lip2 (f : ℝ × ℝ → ℝ) (a b : ℝ) : Prop :=
  ∃ L r : ℝ, 0 ≤ L ∧ 0 < r ∧ ∀ s t s' t' d, |s - a| ≤ r → |t - a| ≤ r → |s' - b| ≤ r → |t' - b| ≤ r →
    |s - t| ≤ d → |s' - t'| ≤ d → |f (s, s') - f (t, t')| ≤ L * d

theorem Lip1.of_contDiff {f : ℝ → ℝ} {a : ℝ} (h : ContDiffAt ℝ 1 f a) : Lip1 f a := by
  obtain ⟨K, U, hU, hL⟩ := h.exists_lipschitzOnWith
  obtain ⟨r, hr, hb⟩ := Metric.nhds_basis_closedBall.mem_iff.mp hU
  refine ⟨K, r, K.2, hr, fun s t hs ht => ?_⟩
  have := hL.dist_le_mul s (hb (by simpa [Real.dist_eq] using hs)) t (hb (by simpa [Real.dist_eq] using ht))
  simpa [Real.dist_eq] using this

theorem Lip2.of_contDiff {f : ℝ × ℝ → ℝ} {a b : ℝ} (h : ContDiffAt ℝ 1 f (a, b)) : Lip2 f a b := by
  obtain ⟨K, U, hU, hL⟩ := h.exists_lipschitzOnWith
  obtain ⟨r, hr, hb⟩ := Metric.nhds_basis_closedBall.mem_iff.mp hU
  refine ⟨K, r, K.2, hr, fun s t s' t' d h1 h2 h3 h4 h5 h6 => ?_⟩
  have := hL.dist_le_mul (s, s') (hb (by simp [Prod.dist_eq, Real.dist_eq, h1, h3])) (t, t')
    (hb (by simp [Prod.dist_eq, Real.dist_eq, h2, h4]))
  refine le_trans (by simpa [Real.dist_eq] using this) (mul_le_mul_of_nonneg_left ?_ K.2)
  exact max_le h5 h6

theorem Lip1.of_const {f : ℝ → ℝ} {a c : ℝ} (h : ∀ᶠ s in 𝓝 a, f s = c) : Lip1 f a := by
  obtain ⟨r, hr, hb⟩ := Metric.nhds_basis_closedBall.mem_iff.mp h
  refine ⟨0, r, le_rfl, hr, fun s t hs ht => ?_⟩
  have h1 : f s = c := hb (by simpa [Real.dist_eq] using hs)
  have h2 : f t = c := hb (by simpa [Real.dist_eq] using ht)
  rw [h1, h2]; simp

theorem Lip1.congr {f g : ℝ → ℝ} {a : ℝ} (h : Lip1 g a) (e : ∀ᶠ s in 𝓝 a, f s = g s) : Lip1 f a := by
  obtain ⟨L, r, hL, hr, hl⟩ := h
  obtain ⟨r', hr', hb⟩ := Metric.nhds_basis_closedBall.mem_iff.mp e
  refine ⟨L, min r r', hL, lt_min hr hr', fun s t hs ht => ?_⟩
  have h1 : f s = g s := hb (by simpa [Real.dist_eq] using hs.trans (min_le_right _ _))
  have h2 : f t = g t := hb (by simpa [Real.dist_eq] using ht.trans (min_le_right _ _))
  rw [h1, h2]
  exact hl s t (hs.trans (min_le_left _ _)) (ht.trans (min_le_left _ _))

theorem ev_floor {a : ℝ} (h : ∀ n : ℤ, a ≠ n) : ∀ᶠ s : ℝ in 𝓝 a, ⌊s⌋ = ⌊a⌋ ∧ ∀ n : ℤ, s ≠ n := by
  have h1 : (⌊a⌋ : ℝ) < a := lt_of_le_of_ne (Int.floor_le a) (fun e => h _ e.symm)
  filter_upwards [Ioo_mem_nhds h1 (Int.lt_floor_add_one a)] with s hs
  have e : ⌊s⌋ = ⌊a⌋ := Int.floor_eq_iff.mpr ⟨hs.1.le, hs.2⟩
  refine ⟨e, fun n hn => ?_⟩
  rw [hn, Int.floor_intCast] at e
  rw [hn, e] at hs
  exact lt_irrefl _ hs.1

theorem ceil_of_not_int {s : ℝ} (h : ∀ n : ℤ, s ≠ n) : ⌈s⌉ = ⌊s⌋ + 1 := by
  have h1 : (⌊s⌋ : ℝ) < s := lt_of_le_of_ne (Int.floor_le s) (fun e => h _ e.symm)
  rw [Int.ceil_eq_iff]
  push_cast
  exact ⟨by linarith, (Int.lt_floor_add_one s).le⟩

theorem roundEven_eq {s : ℝ} (h : ∀ n : ℤ, s + 1 / 2 ≠ n) : roundEvenR s = ⌊s + 1 / 2⌋ := by
  have f1 := Int.floor_le s
  have f2 := Int.lt_floor_add_one s
  unfold roundEvenR
  split_ifs with h1 h2 h3
  · symm; rw [Int.floor_eq_iff]; constructor <;> linarith
  · symm; rw [Int.floor_eq_iff]; push_cast; constructor <;> linarith
  · exact absurd (by push_cast; linarith) (h (⌊s⌋ + 1))
  · exact absurd (by push_cast; linarith) (h (⌊s⌋ + 1))

theorem roundAway_eq {s : ℝ} (h : ∀ n : ℤ, s + 1 / 2 ≠ n) : roundAwayR s = ⌊s + 1 / 2⌋ := by
  unfold roundAwayR
  split_ifs with h1
  · rfl
  · rw [ceil_of_not_int (s := s - 1 / 2) (fun n hn => h (n + 1) (by push_cast; linarith))]
    rw [← Int.floor_add_one]; congr 1; ring

theorem Op1.lip (op : Op1) {a : ℝ} (h : a ∈ op.tame) : Lip1 op.fn a := by
  cases op with
  | pos => exact .of_contDiff contDiffAt_id
  | neg => exact .of_contDiff contDiffAt_id.neg
  | recip => exact .of_contDiff (contDiffAt_const.div contDiffAt_id h)
  | sqr => exact .of_contDiff (contDiffAt_id.pow 2)
  | sqrt => exact .of_contDiff (contDiffAt_sqrt (ne_of_gt h))
  | abs => exact ⟨1, 1, by norm_num, by norm_num, fun s t _ _ => by rw [one_mul]; exact abs_abs_sub_abs_le_abs_sub s t⟩
  | pown p =>
    rcases le_or_gt 0 p with hp | hp
    · lift p to ℕ using hp
      simpa [Op1.fn] using Lip1.of_contDiff (f := fun a => a ^ p) (contDiffAt_id.pow p)
    · obtain ⟨n, rfl⟩ : ∃ n : ℕ, p = -(n:ℤ) := ⟨p.natAbs, by omega⟩
      have ha : a ≠ 0 := h hp
      simpa [Op1.fn] using Lip1.of_contDiff (f := fun a => (a ^ n)⁻¹) ((contDiffAt_id.pow n).inv (pow_ne_zero _ ha))
  | exp => exact .of_contDiff contDiff_exp.contDiffAt
  | exp2 =>
    refine (Lip1.of_contDiff (f := fun a => Real.exp (Real.log 2 * a)) (contDiff_exp.comp (contDiff_const.mul contDiff_id)).contDiffAt).congr ?_
    exact .of_forall fun s => rpow_def_of_pos (by norm_num) s
  | exp10 =>
    refine (Lip1.of_contDiff (f := fun a => Real.exp (Real.log 10 * a)) (contDiff_exp.comp (contDiff_const.mul contDiff_id)).contDiffAt).congr ?_
    exact .of_forall fun s => rpow_def_of_pos (by norm_num) s
  | log => exact .of_contDiff (contDiffAt_log.mpr (ne_of_gt h))
  | log2 => exact .of_contDiff ((contDiffAt_log.mpr (ne_of_gt h)).div_const _)
  | log10 => exact .of_contDiff ((contDiffAt_log.mpr (ne_of_gt h)).div_const _)
  | sin => exact .of_contDiff contDiff_sin.contDiffAt
  | cos => exact .of_contDiff contDiff_cos.contDiffAt
  | tan => exact .of_contDiff (contDiffAt_tan.mpr h)
  | asin => exact .of_contDiff (contDiffAt_arcsin (ne_of_gt h.1) (ne_of_lt h.2))
  | acos => exact .of_contDiff (contDiffAt_arccos (ne_of_gt h.1) (ne_of_lt h.2))
  | atan => exact .of_contDiff contDiff_arctan.contDiffAt
  | sinh => exact .of_contDiff contDiff_sinh.contDiffAt
  | cosh => exact .of_contDiff contDiff_cosh.contDiffAt
  | tanh =>
    refine (Lip1.of_contDiff (f := fun a => Real.sinh a / Real.cosh a)
      (contDiff_sinh.contDiffAt.div contDiff_cosh.contDiffAt (cosh_pos _).ne')).congr ?_
    exact .of_forall fun s => tanh_eq_sinh_div_cosh s
  | asinh => exact .of_contDiff contDiff_arsinh.contDiffAt
  | acosh => exact .of_contDiff (contDiffAt_arcosh h)
  | atanh =>
    obtain ⟨h1, h2⟩ := h
    have hp : 0 < (1 + a) / (1 - a) := div_pos (by linarith) (by linarith)
    refine .of_contDiff (f := fun a => Real.log (√((1 + a) / (1 - a)))) (ContDiffAt.log (ContDiffAt.sqrt ?_ hp.ne') (sqrt_pos.mpr hp).ne')
    exact (contDiffAt_const.add contDiffAt_id).div (contDiffAt_const.sub contDiffAt_id) (by linarith)
  | sign =>
    rcases lt_or_gt_of_ne h with h | h
    · exact .of_const (c := -1) ((gt_mem_nhds h).mono fun s hs => sign_of_neg hs)
    · exact .of_const (c := 1) ((lt_mem_nhds h).mono fun s hs => sign_of_pos hs)
  | ceil => exact .of_const (c := ((⌊a⌋ + 1 : ℤ) : ℝ)) ((ev_floor h).mono fun s hs => by
      show ((⌈s⌉ : ℤ) : ℝ) = _
      rw [ceil_of_not_int hs.2, hs.1])
  | floor => exact .of_const (c := (⌊a⌋ : ℝ)) ((ev_floor h).mono fun s hs => by
      show ((⌊s⌋ : ℤ) : ℝ) = _
      rw [hs.1])
  | trunc =>
    have h0 : a ≠ 0 := by simpa using h 0
    rcases lt_or_gt_of_ne h0 with h1 | h1
    · exact .of_const (c := ((⌊a⌋ + 1 : ℤ) : ℝ)) (((ev_floor h).and (gt_mem_nhds h1)).mono fun s hs => by
        show ((truncR s : ℤ) : ℝ) = _
        unfold truncR
        rw [if_neg (not_le.mpr hs.2), ceil_of_not_int hs.1.2, hs.1.1])
    · exact .of_const (c := (⌊a⌋ : ℝ)) (((ev_floor h).and (lt_mem_nhds h1)).mono fun s hs => by
        show ((truncR s : ℤ) : ℝ) = _
        unfold truncR
        rw [if_pos hs.2.le, hs.1.1])
  | roundEven =>
    have ev : ∀ᶠ s : ℝ in 𝓝 a, ⌊s + 1 / 2⌋ = ⌊a + 1 / 2⌋ ∧ ∀ n : ℤ, s + 1 / 2 ≠ n :=
      ((continuous_id.add continuous_const).tendsto a).eventually (ev_floor h)
    exact .of_const (c := (⌊a + 1 / 2⌋ : ℝ)) (ev.mono fun s hs => by
      show ((roundEvenR s : ℤ) : ℝ) = _
      rw [roundEven_eq hs.2]; exact_mod_cast hs.1)
  | roundAway =>
    have ev : ∀ᶠ s : ℝ in 𝓝 a, ⌊s + 1 / 2⌋ = ⌊a + 1 / 2⌋ ∧ ∀ n : ℤ, s + 1 / 2 ≠ n :=
      ((continuous_id.add continuous_const).tendsto a).eventually (ev_floor h)
    exact .of_const (c := (⌊a + 1 / 2⌋ : ℝ)) (ev.mono fun s hs => by
      show ((roundAwayR s : ℤ) : ℝ) = _
      rw [roundAway_eq hs.2]; exact_mod_cast hs.1)

theorem Op2.lip (op : Op2) {a b : ℝ} (h : (a, b) ∈ op.tame) : Lip2 op.fn a b := by
  cases op with
  | add => exact .of_contDiff (contDiffAt_fst.add contDiffAt_snd)
  | sub => exact .of_contDiff (contDiffAt_fst.sub contDiffAt_snd)
  | mul => exact .of_contDiff (contDiffAt_fst.mul contDiffAt_snd)
  | div => exact .of_contDiff (contDiffAt_fst.div contDiffAt_snd h)
  | pow => exact .of_contDiff (contDiffAt_rpow_of_ne (a, b) (ne_of_gt h))
  | atan2 =>
    have e : Op2.atan2.fn = fun p : ℝ × ℝ => (Complex.log (Complex.equivRealProdCLM.symm (p.2, p.1))).im := by
      funext p
      rw [Complex.log_im, Complex.equivRealProdCLM_symm_apply]
      show Complex.arg ⟨p.2, p.1⟩ = _
      congr 1
      exact Complex.mk_eq_add_mul_I _ _
    rw [e]
    refine .of_contDiff (Complex.imCLM.contDiff.contDiffAt.comp (a, b) (ContDiffAt.comp (a, b)
      ((Complex.contDiffAt_log ?_).restrict_scalars ℝ)
      (Complex.equivRealProdCLM.symm.contDiff.contDiffAt.comp (a, b) (contDiffAt_snd.prodMk contDiffAt_fst))))
    rw [Complex.mem_slitPlane_iff]
    simp only [Function.comp, Complex.equivRealProdCLM_symm_apply]
    simpa using h.symm
  | min => exact ⟨1, 1, by norm_num, by norm_num, fun s t s' t' d _ _ _ _ h5 h6 => by
      rw [one_mul]; exact (abs_min_sub_min_le_max s s' t t').trans (max_le h5 h6)⟩
  | max => exact ⟨1, 1, by norm_num, by norm_num, fun s t s' t' d _ _ _ _ h5 h6 => by
      rw [one_mul]; exact (abs_max_sub_max_le_max s s' t t').trans (max_le h5 h6)⟩

theorem Op1.tame_dom (op : Op1) : op.tame ⊆ op.dom := by
  intro a h
  cases op <;> simp only [Op1.tame, Op1.dom, Set.mem_ofPred_eq, Set.mem_univ] at h ⊢ <;> first | exact h | exact h.le | exact ⟨h.1.le, h.2.le⟩

theorem Op2.tame_dom (op : Op2) : op.tame ⊆ op.dom := by
  rintro ⟨a, b⟩ h
  cases op <;> simp only [Op2.tame, Op2.dom, Set.mem_ofPred_eq, Set.mem_univ] at h ⊢
  · exact h
  · exact Or.inl h
  · rintro ⟨⟩
    simp at h

theorem Expr.TameAt.dom {ι : Type} {t : ι → ℝ} : ∀ {e : Expr ι}, e.TameAt t → t ∈ e.dom
  | .var _, _ => trivial
  | .un op _, h => ⟨h.1.dom, op.tame_dom h.2⟩
  | .bin op _ _, h => ⟨h.1.dom, h.2.1.dom, op.tame_dom h.2.2⟩
  | .fma _ _ _, h => ⟨h.1.dom, h.2.1.dom, h.2.2.dom⟩

end P1788
