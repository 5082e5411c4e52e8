import Mathlib.Analysis.Calculus.Deriv.MeanValue
import Mathlib.Analysis.Calculus.LocalExtr.Basic
import Mathlib.Analysis.Calculus.FDeriv.Pi
import Mathlib.Analysis.Calculus.FDeriv.Pow
import Mathlib.Analysis.Calculus.FDeriv.Add
import Mathlib.Topology.Algebra.Module.FiniteDimension
import Mathlib.LinearAlgebra.Matrix.NonsingularInverse
import Mathlib.LinearAlgebra.Matrix.ToLin

/-!
# Zeros of functions of several variables whose derivatives are regular

Real analysis for C74, without intervals: a function on a box all of whose mixed Jacobian matrices are invertible is injective, and it has a
zero if the solutions of the linearised equations lie in the interior of the box.
-/

namespace P1788
open Set
variable {n : ℕ} {F : (Fin n → ℝ) → Fin n → ℝ} {D : (Fin n → ℝ) → Fin n → Fin n → ℝ} {B : Set (Fin n → ℝ)}

/-- The linear form with the given coefficients. -/
noncomputable def linForm (a : Fin n → ℝ) : (Fin n → ℝ) →L[ℝ] ℝ := ∑ j, a j • ContinuousLinearMap.proj j

theorem linForm_apply (a v : Fin n → ℝ) : linForm a v = ∑ j, a j * v j := by
  simp [linForm, _root_.sum_apply]

/-- `D` is the derivative of `F` on `B`. -/
def HasJac (F : (Fin n → ℝ) → Fin n → ℝ) (D : (Fin n → ℝ) → Fin n → Fin n → ℝ) (B : Set (Fin n → ℝ)) : Prop :=
  ∀ u ∈ B, ∀ i, HasFDerivWithinAt (fun w => F w i) (linForm (D u i)) B u

/-- The matrices whose entries are values of the entries of the Jacobian matrix, at points that may differ from row to row. -/
def MixedJac (D : (Fin n → ℝ) → Fin n → Fin n → ℝ) (B : Set (Fin n → ℝ)) (M : Fin n → Fin n → ℝ) : Prop :=
  ∀ i, ∃ w ∈ B, M i = D w i

theorem mean74 (hB : Convex ℝ B) (h : HasJac F D B) {u v : Fin n → ℝ} (hu : u ∈ B) (hv : v ∈ B) :
    ∃ M, MixedJac D B M ∧ ∀ i, F v i - F u i = ∑ j, M i j * (v j - u j) := by
  have key : ∀ i, ∃ w ∈ B, F v i - F u i = ∑ j, D w i j * (v j - u j) := by
    intro i
    have hseg : ∀ t ∈ Icc (0:ℝ) 1, u + t • (v - u) ∈ B := by
      intro t ht
      have := hB hu hv (sub_nonneg.mpr ht.2) ht.1 (by ring)
      convert this using 1
      module
    have hd : ∀ t ∈ Icc (0:ℝ) 1, HasDerivWithinAt (fun t : ℝ => F (u + t • (v - u)) i) (linForm (D (u + t • (v - u)) i) (v - u))
        (Icc 0 1) t := by
      intro t ht
      have h1 : HasDerivWithinAt (fun t : ℝ => u + t • (v - u)) (v - u) (Icc 0 1) t := by
        have := ((hasDerivAt_id t).smul_const (v - u)).const_add u
        simpa using this.hasDerivWithinAt
      exact (h _ (hseg t ht) i).comp_hasDerivWithinAt t h1 hseg
    obtain ⟨t, ht, e⟩ := exists_hasDerivAt_eq_slope (fun t : ℝ => F (u + t • (v - u)) i)
      (fun t => linForm (D (u + t • (v - u)) i) (v - u)) zero_lt_one (fun t ht => (hd t ht).continuousWithinAt)
      (fun t ht => (hd t (Ioo_subset_Icc_self ht)).hasDerivAt (Icc_mem_nhds ht.1 ht.2))
    refine ⟨_, hseg t (Ioo_subset_Icc_self ht), ?_⟩
    rw [linForm_apply] at e
    simp only [Pi.sub_apply, one_smul, zero_smul, add_zero, sub_zero, div_one, add_sub_cancel] at e
    exact e.symm
  choose w hw e using key
  exact ⟨fun i => D (w i) i, fun i => ⟨w i, hw i, rfl⟩, e⟩

theorem inj74 (hB : Convex ℝ B) (h : HasJac F D B) (hM : ∀ M, MixedJac D B M → Matrix.det (Matrix.of M) ≠ 0) : InjOn F B := by
  intro u hu v hv e
  obtain ⟨M, h1, h2⟩ := mean74 hB h hu hv
  have : Matrix.mulVec (Matrix.of M) (v - u) = 0 := by
    funext i
    have := h2 i
    rw [e, sub_self] at this
    exact this.symm
  have := Matrix.eq_zero_of_mulVec_eq_zero (hM M h1) this
  rw [sub_eq_zero] at this
  exact this.symm

theorem cont74 (h : HasJac F D B) : ContinuousOn F B :=
  continuousOn_pi.mpr fun i u hu => (h u hu i).continuousWithinAt

/-- The sum of the squares of the entries. -/
def sq74 (v : Fin n → ℝ) : ℝ := ∑ i, v i ^ 2

theorem sq74_eq_zero {v : Fin n → ℝ} (h : sq74 v = 0) : v = 0 := by
  funext i
  have := (Finset.sum_eq_zero_iff_of_nonneg (fun i _ => sq_nonneg (v i))).mp h i (Finset.mem_univ i)
  simpa using this

theorem sq74_nonneg (v : Fin n → ℝ) : 0 ≤ sq74 v := Finset.sum_nonneg fun i _ => sq_nonneg _

/-- Where the distance from a value is least, inside of the box, the value is taken. -/
theorem least74 (h : HasJac F D B) {x y : Fin n → ℝ} (hx : x ∈ interior B) (hdet : Matrix.det (Matrix.of (D x)) ≠ 0)
    (hmin : IsLocalMin (fun w => sq74 (F w - y)) x) : F x = y := by
  have hxB := interior_subset hx
  have hd : ∀ i, HasFDerivAt (fun w => F w i) (linForm (D x i)) x := fun i =>
    (h x hxB i).hasFDerivAt (mem_interior_iff_mem_nhds.mp hx)
  have hg : HasFDerivAt (fun w => sq74 (F w - y)) (∑ i, (2 * (F x i - y i)) • linForm (D x i)) x := by
    unfold sq74
    refine HasFDerivAt.fun_sum fun i _ => ?_
    have := ((hd i).sub_const (y i)).pow 2
    simpa [mul_comm] using this
  have h0 := hmin.hasFDerivAt_eq_zero hg
  -- a direction in which the values of `F` move towards `y`
  obtain ⟨v, hv⟩ : ∃ v, Matrix.mulVec (Matrix.of (D x)) v = F x - y :=
    ⟨(Matrix.of (D x))⁻¹.mulVec (F x - y), by
      rw [Matrix.mulVec_mulVec, Matrix.mul_nonsing_inv _ (isUnit_iff_ne_zero.mpr hdet), Matrix.one_mulVec]⟩
  have e := congrArg (fun L : (Fin n → ℝ) →L[ℝ] ℝ => L v) h0
  simp only [_root_.sum_apply, _root_.smul_apply, linForm_apply, smul_eq_mul,
    _root_.zero_apply] at e
  have e2 : ∀ i, ∑ j, D x i j * v j = F x i - y i := fun i => congrFun hv i
  simp only [e2] at e
  have : sq74 (F x - y) = 0 := by
    unfold sq74
    have : ∑ i, 2 * (F x i - y i) * (F x i - y i) = 2 * ∑ i, (F x - y) i ^ 2 := by
      rw [Finset.mul_sum]
      exact Finset.sum_congr rfl fun i _ => by simp only [Pi.sub_apply]; ring
    linarith
  exact sub_eq_zero.mp (sq74_eq_zero this)

/-- Near a value taken inside of the box, every value is taken. -/
theorem open74 (hB : Convex ℝ B) (h : HasJac F D B) (hM : ∀ M, MixedJac D B M → Matrix.det (Matrix.of M) ≠ 0) {x : Fin n → ℝ}
    (hx : x ∈ interior B) : ∃ ε > 0, ∀ y, sq74 (F x - y) < ε → ∃ u ∈ B, F u = y := by
  obtain ⟨r, hr, hb⟩ := Metric.nhds_basis_closedBall.mem_iff.mp (isOpen_interior.mem_nhds hx)
  have hinj := inj74 hB h hM
  have hbB : Metric.closedBall x r ⊆ B := hb.trans interior_subset
  have hF : ContinuousOn F (Metric.closedBall x r) := (cont74 h).mono hbB
  have hsq : ∀ y, ContinuousOn (fun w => sq74 (F w - y)) (Metric.closedBall x r) := by
    intro y
    unfold sq74
    refine continuousOn_finsetSum _ fun i _ => ?_
    exact ((continuousOn_pi.mp hF i).sub continuousOn_const).pow 2
  -- the distance from the centre's value is positive on the sphere
  have hs : ∃ δ > 0, ∀ w ∈ Metric.sphere x r, δ ≤ sq74 (F w - F x) := by
    rcases (Metric.sphere x r).eq_empty_or_nonempty with he | hne
    · exact ⟨1, one_pos, by simp [he]⟩
    · obtain ⟨w, hw, hmin⟩ := (isCompact_sphere x r).exists_isMinOn hne ((hsq (F x)).mono Metric.sphere_subset_closedBall)
      refine ⟨_, lt_of_le_of_ne (sq74_nonneg _) fun h0 => ?_, fun v hv => hmin hv⟩
      have := hinj (hbB (Metric.sphere_subset_closedBall hw)) (interior_subset hx) (sub_eq_zero.mp (sq74_eq_zero h0.symm))
      rw [this, mem_sphere_iff_norm, sub_self, norm_zero] at hw
      exact hr.ne hw
  obtain ⟨δ, hδ, hs⟩ := hs
  refine ⟨δ / 4, by linarith, fun y hy => ?_⟩
  obtain ⟨u, hu, hmin⟩ := (isCompact_closedBall x r).exists_isMinOn ⟨x, Metric.mem_closedBall_self hr.le⟩ (hsq y)
  have hux := hmin (Metric.mem_closedBall_self hr.le)
  simp only [mem_ofPred_eq] at hux
  have hball : u ∈ Metric.ball x r := by
    rcases lt_or_eq_of_le (Metric.mem_closedBall.mp hu) with k | k
    · exact k
    exfalso
    have h1 := hs u k
    have h2 : sq74 (F u - F x) ≤ 2 * sq74 (F u - y) + 2 * sq74 (F x - y) := by
      unfold sq74
      rw [Finset.mul_sum, Finset.mul_sum, ← Finset.sum_add_distrib]
      refine Finset.sum_le_sum fun i _ => ?_
      simp only [Pi.sub_apply]
      nlinarith [sq_nonneg ((F u i - y i) + (F x i - y i))]
    linarith
  refine ⟨u, hbB hu, least74 h (hb hu) (hM _ fun i => ⟨u, hbB hu, rfl⟩) ?_⟩
  filter_upwards [Metric.isOpen_ball.mem_nhds hball] with w hw
  exact hmin (Metric.ball_subset_closedBall hw)

/-- A zero exists if the solutions of all linearised equations lie in the interior of the box. -/
theorem exists74 (hB : Convex ℝ B) (hK : IsCompact B) (h : HasJac F D B)
    (hM : ∀ M, MixedJac D B M → Matrix.det (Matrix.of M) ≠ 0) {m : Fin n → ℝ} (hm : m ∈ interior B)
    (hN : ∀ M, MixedJac D B M → ∀ d, (∀ i, ∑ j, M i j * d j = F m i) → m - d ∈ interior B) : ∃ x ∈ B, F x = 0 := by
  have hmB := interior_subset hm
  -- the part of the way from `m` to a zero for which there is a solution
  let T : Set ℝ := {t | t ∈ Icc (0:ℝ) 1 ∧ ∃ x ∈ B, F x = (1 - t) • F m}
  have hT0 : (0:ℝ) ∈ T := ⟨⟨le_rfl, zero_le_one⟩, m, hmB, by simp⟩
  have hTc : IsClosed T := by
    refine isClosed_of_closure_subset fun t ht => ?_
    obtain ⟨s, hs, hlim⟩ := mem_closure_iff_seq_limit.mp ht
    choose x hx e using fun k => (hs k).2
    obtain ⟨x0, hx0, ψ, hψ, hl⟩ := hK.tendsto_subseq hx
    refine ⟨isClosed_Icc.mem_of_tendsto hlim (Filter.Eventually.of_forall fun k => (hs k).1), x0, hx0, ?_⟩
    have l1 : Filter.Tendsto (fun k => F (x (ψ k))) Filter.atTop (nhds (F x0)) :=
      (((cont74 h) x0 hx0).tendsto).comp (tendsto_nhdsWithin_iff.mpr ⟨hl, Filter.Eventually.of_forall fun k => hx _⟩)
    have l2 : Filter.Tendsto (fun k => (1 - s (ψ k)) • F m) Filter.atTop (nhds ((1 - t) • F m)) :=
      ((tendsto_const_nhds.sub (hlim.comp hψ.tendsto_atTop)).smul_const _)
    exact tendsto_nhds_unique (l1.congr fun k => e _) l2
  have hTb : BddAbove T := ⟨1, fun t ht => ht.1.2⟩
  have ht := hTc.csSup_mem ⟨0, hT0⟩ hTb
  set t := sSup T
  obtain ⟨ht1, x, hx, e⟩ := ht
  rcases eq_or_lt_of_le ht1.2 with k | k
  · exact ⟨x, hx, by rw [e, k]; simp⟩
  exfalso
  -- the solution lies in the interior
  have hxi : x ∈ interior B := by
    obtain ⟨M, h1, h2⟩ := mean74 hB h hmB hx
    obtain ⟨d, hd⟩ : ∃ d, Matrix.mulVec (Matrix.of M) d = F m :=
      ⟨(Matrix.of M)⁻¹.mulVec (F m), by
        rw [Matrix.mulVec_mulVec, Matrix.mul_nonsing_inv _ (isUnit_iff_ne_zero.mpr (hM M h1)), Matrix.one_mulVec]⟩
    have hdi := hN M h1 d fun i => congrFun hd i
    have hz : Matrix.mulVec (Matrix.of M) (x - m + t • d) = 0 := by
      rw [Matrix.mulVec_add, Matrix.mulVec_smul, hd]
      funext i
      have e1 : Matrix.mulVec (Matrix.of M) (x - m) i = F x i - F m i := (h2 i).symm
      rw [Pi.add_apply, e1, e]
      simp
      ring
    have := Matrix.eq_zero_of_mulVec_eq_zero (hM M h1) hz
    have hxe : x = (1 - t) • m + t • (m - d) := by
      have : x = m - t • d := by
        rw [← sub_eq_zero, ← this]; abel
      rw [this]; module
    rw [hxe]
    exact hB.interior hm hdi (by linarith) ht1.1 (by ring)
  obtain ⟨ε, hε, ho⟩ := open74 hB h hM hxi
  -- a little further
  obtain ⟨s, hs0, hs1, hs2⟩ : ∃ s > 0, t + s ≤ 1 ∧ s ^ 2 * sq74 (F m) < ε := by
    have hq := sq74_nonneg (F m)
    refine ⟨min (1 - t) (min 1 (ε / (2 * (sq74 (F m) + 1)))), by
      refine lt_min (by linarith) (lt_min one_pos (by positivity)), by
      linarith [min_le_left (1 - t) (min 1 (ε / (2 * (sq74 (F m) + 1))))], ?_⟩
    set s := min (1 - t) (min 1 (ε / (2 * (sq74 (F m) + 1)))) with hs
    have s0 : 0 ≤ s := le_min (by linarith) (le_min zero_le_one (by positivity))
    have s1 : s ≤ 1 := (min_le_right _ _).trans (min_le_left _ _)
    have s2 : s ≤ ε / (2 * (sq74 (F m) + 1)) := (min_le_right _ _).trans (min_le_right _ _)
    rw [le_div_iff₀ (by positivity)] at s2
    nlinarith [mul_nonneg s0 hq]
  obtain ⟨u, hu, eu⟩ := ho ((1 - (t + s)) • F m) (by
    have : F x - (1 - (t + s)) • F m = s • F m := by rw [e]; module
    rw [this]
    have e2 : sq74 (s • F m) = s ^ 2 * sq74 (F m) := by
      unfold sq74
      rw [Finset.mul_sum]
      exact Finset.sum_congr rfl fun i _ => by simp only [Pi.smul_apply, smul_eq_mul]; ring
    rw [e2]; exact hs2)
  have : t + s ≤ t := le_csSup hTb ⟨⟨by linarith [ht1.1], hs1⟩, u, hu, eu⟩
  linarith

end P1788
