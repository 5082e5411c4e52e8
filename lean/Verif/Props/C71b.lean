import Verif.Props.C71
import Verif.Props.C64b
import Mathlib.Analysis.Calculus.MeanValue

/-!
# C71: the enclosures are as narrow as wanted

Where the formulas of the right-hand side are tame along a solution there are steps whose checks succeed, and the box at the end is as
close to the solution as wanted if the type is precise enough.
-/

namespace P1788
open Set
variable {φ : Fmt} {ι : Type} [Fintype ι] {f : ι → Expr ι} {X0 : ι → Itv}

/-- `C64_com`, uniformly on a compact set. -/
theorem comOn71 (e : Expr ι) {S : Set (ι → ℝ)} (hS : IsCompact S) (h : ∀ t ∈ S, e.TameAt t) :
    ∃ r M : ℝ, 0 < r ∧ ∀ φ : Fmt, φ.relUnit ≤ r → M ≤ φ.maxFin → ∀ X : ι → DItv, (∀ i, (X i).Ok φ) → (∀ i, (X i).dec = .com) →
      ∀ s ∈ S, (∀ i, ∀ a ∈ (X i).set, |a - s i| ≤ r) →
      (e.evalD φ X).itv = e.eval φ (fun i => (X i).itv) ∧ (e.evalD φ X).dec = .com := by
  refine hS.induction_on (p := fun S => ∃ r M : ℝ, 0 < r ∧ ∀ φ : Fmt, φ.relUnit ≤ r → M ≤ φ.maxFin →
    ∀ X : ι → DItv, (∀ i, (X i).Ok φ) → (∀ i, (X i).dec = .com) → ∀ s ∈ S, (∀ i, ∀ a ∈ (X i).set, |a - s i| ≤ r) →
    (e.evalD φ X).itv = e.eval φ (fun i => (X i).itv) ∧ (e.evalD φ X).dec = .com)
    ⟨1, 0, one_pos, fun _ _ _ _ _ _ s hs => absurd hs (by simp)⟩ ?_ ?_ ?_
  · rintro A B hAB ⟨r, M, hr, h⟩
    exact ⟨r, M, hr, fun φ hu hM X hX hX' s hs => h φ hu hM X hX hX' s (hAB hs)⟩
  · rintro A B ⟨r, M, hr, h⟩ ⟨r', M', hr', h'⟩
    refine ⟨min r r', max M M', lt_min hr hr', fun φ hu hM X hX hX' s hs hx => ?_⟩
    rcases hs with hs | hs
    · exact h φ (hu.trans (min_le_left _ _)) ((le_max_left _ _).trans hM) X hX hX' s hs
        (fun i a ha => (hx i a ha).trans (min_le_left _ _))
    · exact h' φ (hu.trans (min_le_right _ _)) ((le_max_right _ _).trans hM) X hX hX' s hs
        (fun i a ha => (hx i a ha).trans (min_le_right _ _))
  · intro t ht
    obtain ⟨r, M, hr, hN⟩ := comNear e (h t ht)
    refine ⟨{s | ∀ i, |s i - t i| ≤ r / 2}, mem_nhdsWithin_of_mem_nhds ?_, r / 2, M, by linarith,
      fun φ hu hM X hX hX' s hs hx => hN φ (by linarith) hM X hX hX' fun i a ha =>
        near_two (hx i a ha) (hs i) (by linarith)⟩
    filter_upwards [Metric.closedBall_mem_nhds t (half_pos hr)] with s hs i
    have := (dist_le_pi_dist s t i).trans hs
    rwa [Real.dist_eq] at this

/-- The constants of `narrowOn` and `comOn71` for all components together. -/
theorem const71 {S : Set (ι → ℝ)} (hS : IsCompact S) (h : ∀ i, ∀ t ∈ S, (f i).TameAt t) :
    ∃ K r M : ℝ, 0 ≤ K ∧ 0 < r ∧ ∀ φ : Fmt, φ.relUnit ≤ r → M ≤ φ.maxFin → ∀ X : ι → DItv, (∀ i, (X i).Ok φ) →
      (∀ i, (X i).dec = .com) → ∀ s ∈ S, ∀ δ, 0 ≤ δ → δ ≤ r → (∀ i, ∀ a ∈ (X i).set, |a - s i| ≤ δ) → ∀ i,
        ((f i).evalD φ X).dec = .com ∧ ∀ v ∈ ((f i).evalD φ X).itv.set, |v - (f i).val s| ≤ K * (δ + φ.relUnit) := by
  choose K r M hr hN using fun i => narrowOn (f i) hS (h i)
  choose r' M' hr' hC using fun i => comOn71 (f i) hS (h i)
  have small : ∀ g : ι → ℝ, (∀ i, 0 < g i) → ∃ x > 0, ∀ i, x ≤ g i := fun g hg => by
    obtain hE | hE := isEmpty_or_nonempty ι
    · exact ⟨1, one_pos, fun i => hE.elim i⟩
    · obtain ⟨i, hi⟩ := Finite.exists_min g
      exact ⟨g i, hg i, hi⟩
  obtain ⟨x, hx, hxr⟩ := small r hr
  obtain ⟨x', hx', hxr'⟩ := small r' hr'
  have big : ∀ (g : ι → ℝ) i, g i ≤ ∑ i, |g i| := fun g i =>
    (le_abs_self _).trans (Finset.single_le_sum (f := fun i => |g i|) (fun j _ => abs_nonneg _) (Finset.mem_univ i))
  refine ⟨∑ i, |K i|, min x x', max (∑ i, |M i|) (∑ i, |M' i|), Finset.sum_nonneg fun _ _ => abs_nonneg _, lt_min hx hx',
    fun φ hu hM X hX hX' s hs δ hd hdr hxs i => ?_⟩
  obtain ⟨c1, c2⟩ := hC i φ (hu.trans ((min_le_right _ _).trans (hxr' i))) ((big M' i).trans ((le_max_right _ _).trans hM)) X hX hX' s hs
    (fun j a ha => (hxs j a ha).trans (hdr.trans ((min_le_right _ _).trans (hxr' i))))
  refine ⟨c2, fun v hv => ?_⟩
  rw [c1] at hv
  refine (hN i φ (hu.trans ((min_le_left _ _).trans (hxr i))) ((big M i).trans ((le_max_left _ _).trans hM)) _ (fun j => (hX j).1) s hs δ hd
    (hdr.trans ((min_le_left _ _).trans (hxr i))) hxs v hv).trans (mul_le_mul_of_nonneg_right (big K i) ?_)
  have := relUnit_pos (φ := φ)
  linarith

/-- A box of numbers of the type about a point. -/
theorem box71 {p B ρ : ℝ} (hp : |p| ≤ B) (hρ : 0 < ρ) (hρ1 : ρ ≤ 1) (hM : B + 1 ≤ φ.maxFin) (hε : (B + 2) * φ.relUnit ≤ ρ) :
    ∃ x : Itv, (DItv.mk x .com).Ok φ ∧ (∀ a ∈ x.set, |a - p| ≤ 2 * ρ) ∧ p - ρ ∈ x.set ∧ p + ρ ∈ x.set := by
  have hp' := abs_le.mp hp
  have b1 : |p - ρ| ≤ B + 1 := abs_le.mpr ⟨by linarith, by linarith⟩
  have b2 : |p + ρ| ≤ B + 1 := abs_le.mpr ⟨by linarith, by linarith⟩
  have r1 := φ.rep_roundQ (φ.roundQ_le_maxFin (m := .D) (b1.trans hM))
  have r2 := φ.rep_roundQ (φ.roundQ_le_maxFin (m := .U) (b2.trans hM))
  have l1 := φ.roundQ_D_le (p - ρ)
  have l2 := φ.roundQ_U_ge (p + ρ)
  have u1 := roundQ_D_gt (φ := φ) (p - ρ)
  have u2 := roundQ_U_lt (φ := φ) (p + ρ)
  have e1 := unit_le_rel (φ := φ) b1
  have e2 := unit_le_rel (φ := φ) b2
  have hs : ∀ a : ℝ, a ∈ (Itv.mk (.fin (φ.roundQ .D (p - ρ))) (.fin (φ.roundQ .U (p + ρ)))).set ↔
      (φ.roundQ .D (p - ρ) : ℝ) ≤ a ∧ a ≤ φ.roundQ .U (p + ρ) := fun a => by simp [Itv.set, FP.BelowR, FP.AboveR]
  have hv : ValidBounds (.fin (φ.roundQ .D (p - ρ))) (.fin (φ.roundQ .U (p + ρ))) := ⟨p, (hs p).mpr ⟨by linarith, by linarith⟩⟩
  have hN := hv.NE (φ := φ) r1 r2
  refine ⟨_, ⟨hN.ok, by simp, by simp, by simp⟩, fun a ha => ?_, (hs _).mpr ⟨l1, by linarith⟩, (hs _).mpr ⟨by linarith, l2⟩⟩
  obtain ⟨h1, h2⟩ := (hs a).mp ha
  rw [abs_le]
  constructor <;> linarith

/-- One step from near `p`. -/
theorem near_step71 {h : ℚ} (hh : φ.Rep h) (hh0 : 0 < h) (hh1 : h ≤ 1) {p q : ι → ℝ} {ρ B K : ℝ} (hρ : 0 < ρ) (hρ1 : ρ ≤ 1) (hB0 : 0 ≤ B)
    (hK : 0 ≤ K) (hM : 2 * B + 2 ≤ φ.maxFin) (hp : ∀ i, |p i| ≤ B) (hq : ∀ i, |q i| + 1 ≤ B) (hhB : (h : ℝ) * B ≤ ρ / 8)
    (hε : (3 * B + 4) * φ.relUnit ≤ ρ / 8) (hK1 : K * (2 * ρ + φ.relUnit) ≤ 1)
    (hF : ∀ X : ι → DItv, (∀ i, (X i).Ok φ) → (∀ i, (X i).dec = .com) → (∀ i, ∀ a ∈ (X i).set, |a - p i| ≤ 2 * ρ) → ∀ i,
        ((f i).evalD φ X).dec = .com ∧ ∀ v ∈ ((f i).evalD φ X).itv.set, |v - q i| ≤ K * (2 * ρ + φ.relUnit))
    (h0 : ∀ i, (X0 i).Ok φ) (hx : ∀ i, ∀ v ∈ (X0 i).set, |v - p i| ≤ ρ / 2) :
    ∃ (X : ι → DItv) (Y : ι → Itv), (∀ i, (X i).Ok φ) ∧ (∀ i, (Y i).Ok φ) ∧
      (∀ l R, Returns (odeRun φ f l Y) (R, true) → Returns (odeRun φ f ((X, .fin h) :: l) X0) (R, true)) ∧
      ∀ i, ∀ v ∈ (Y i).set, |v - (p i + h * q i)| ≤ ρ / 2 + h * (K * (2 * ρ + φ.relUnit)) + (3 * B + 4) * φ.relUnit := by
  have hu := relUnit_pos (φ := φ)
  have hqh : (0:ℝ) < h := by exact_mod_cast hh0
  have hqh1 : (h:ℝ) ≤ 1 := by exact_mod_cast hh1
  have hBu : 0 ≤ B * φ.relUnit := mul_nonneg hB0 hu.le
  choose X hX hXn hXl hXu using fun i => box71 (φ := φ) (hp i) hρ hρ1 (by linarith) (by linarith : (B + 2) * φ.relUnit ≤ ρ)
  have hF' := hF (fun i => ⟨X i, .com⟩) hX (fun _ => rfl) hXn
  have hR := fun i => evalD_ok62 (f i) hX
  have k1 : ValidBounds (.fin 0) (.fin h) := ⟨0, by simp [Itv.set, FP.BelowR, FP.AboveR, hqh.le]⟩
  have k2 : ValidBounds (.fin h) (.fin h) := ⟨h, by simp [Itv.set, FP.BelowR, FP.AboveR]⟩
  have hN := k1.NE (φ := φ) φ.rep_zero hh
  have hN2 := k2.NE (φ := φ) hh hh
  set D := K * (2 * ρ + φ.relUnit) with hD
  have hD0 : 0 ≤ D := mul_nonneg hK (by linarith)
  have hhD : (h:ℝ) * D ≤ 1 := (mul_le_mul hqh1 hK1 hD0 zero_le_one).trans (by norm_num)
  have hfB : ∀ i, ∀ v ∈ ((f i).evalD φ fun i => ⟨X i, .com⟩).itv.set, |v| ≤ B := fun i v hv => by
    have h1 := abs_le.mp ((hF' i).2 v hv)
    have h2 := hq i
    have h3 := abs_le.mp (show |q i| ≤ B - 1 by linarith)
    rw [abs_le]; constructor <;> linarith
  have hhB1 : (h:ℝ) * B ≤ B := by nlinarith
  have m1 := fun i => C02_mul φ hN.ok (hR i).1
  have a1 := fun i => C01_add φ (h0 i) (m1 i).1
  have m2 := fun i => C02_mul φ hN2.ok (hR i).1
  have a2 := fun i => C01_add φ (h0 i) (m2 i).1
  -- the products
  have p1 : ∀ i, ∀ v ∈ (φ.mulI ⟨.fin 0, .fin h⟩ ((f i).evalD φ fun i => ⟨X i, .com⟩).itv).set, |v - 0| ≤ h * B + (B + 1) * φ.relUnit := by
    intro i
    refine (m1 i).close ?_ ?_ (mul_nonneg hqh.le hB0) (by linarith)
    · rintro z ⟨a, ha, b, hb, rfl⟩
      have h1 : 0 ≤ a ∧ a ≤ h := by simpa [Itv.set, FP.BelowR, FP.AboveR] using ha
      rw [sub_zero, abs_mul, abs_of_nonneg h1.1]
      exact mul_le_mul h1.2 (hfB i b hb) (abs_nonneg b) hqh.le
    · rw [abs_zero]; linarith
  have p2 : ∀ i, ∀ v ∈ (φ.mulI ⟨.fin h, .fin h⟩ ((f i).evalD φ fun i => ⟨X i, .com⟩).itv).set,
      |v - h * q i| ≤ h * D + (B + 1) * φ.relUnit := by
    intro i
    refine (m2 i).close ?_ ?_ (mul_nonneg hqh.le hD0) (by linarith)
    · rintro z ⟨a, ha, b, hb, rfl⟩
      have h1 : (h:ℝ) ≤ a ∧ a ≤ h := by simpa [Itv.set, FP.BelowR, FP.AboveR] using ha
      obtain rfl : a = h := le_antisymm h1.2 h1.1
      rw [← mul_sub, abs_mul, abs_of_nonneg hqh.le]
      exact mul_le_mul_of_nonneg_left ((hF' i).2 b hb) hqh.le
    · rw [abs_mul, abs_of_nonneg hqh.le, ← mul_add]
      have := hq i
      nlinarith [abs_nonneg (q i)]
  refine ⟨fun i => ⟨X i, .com⟩, fun i => φ.addI (X0 i) (φ.mulI ⟨.fin h, .fin h⟩ ((f i).evalD φ fun i => ⟨X i, .com⟩).itv), hX,
    fun i => (a2 i).1, fun l R hl => ode_cons71 (boundsOk_iff.mpr k1) (boundsOk_iff.mpr k2)
      ((NE.common_iff hN).mpr ⟨by simp, by simp⟩) (fun i => by rw [(hF' i).1]; decide) (fun i => ?_) hl, fun i v hv => ?_⟩
  · rw [C22_interior (a1 i).1 (hX i).1]
    have cl := (a1 i).close (c := p i) (d := ρ / 2 + (h * B + (B + 1) * φ.relUnit)) (B := 2 * B + 2) ?_ ?_ ?_ hM
    · intro z hz
      have := abs_le.mp (cl z hz)
      exact ⟨⟨_, hXl i, by linarith⟩, _, hXu i, by linarith⟩
    · rintro z ⟨a, ha, b, hb, rfl⟩
      have h1 := abs_le.mp (hx i a ha)
      have h2 := abs_le.mp (p1 i b hb)
      rw [abs_le]; constructor <;> linarith
    · have := hp i
      linarith
    · have := mul_nonneg hqh.le hB0
      linarith
  · have cl := (a2 i).close (c := p i + h * q i) (d := ρ / 2 + (h * D + (B + 1) * φ.relUnit)) (B := 2 * B + 2) ?_ ?_ ?_ hM v hv
    · linarith
    · rintro z ⟨a, ha, b, hb, rfl⟩
      have h1 := abs_le.mp (hx i a ha)
      have h2 := abs_le.mp (p2 i b hb)
      rw [abs_le]; constructor <;> linarith
    · have h1 := abs_add_le (p i) (h * q i)
      rw [abs_mul, abs_of_nonneg hqh.le] at h1
      have h2 : (h:ℝ) * |q i| ≤ h * (B - 1) := mul_le_mul_of_nonneg_left (by linarith [hq i]) hqh.le
      have := hp i
      linarith
    · have := mul_nonneg hqh.le hD0
      linarith

/-- The slope at the start of a step gives the end of the step. -/
theorem slope71 {u : ℝ → ι → ℝ} {a b t h ρ : ℝ} (hu : IsOdeSol f u a b) (hd : ∀ t ∈ Icc a b, ∀ i, u t ∈ (f i).dom) (ht : a ≤ t) (hh : 0 ≤ h)
    (hb : t + h ≤ b) (hc : ∀ s ∈ Icc t (t + h), ∀ i, |(f i).val (u s) - (f i).val (u t)| ≤ ρ) (i : ι) :
    |u (t + h) i - (u t i + h * (f i).val (u t))| ≤ h * ρ := by
  have hs : Icc t (t + h) ⊆ Icc a b := Icc_subset_Icc ht hb
  have key := (convex_Icc t (t + h)).norm_image_sub_le_of_norm_hasDerivWithin_le (C := ρ)
    (f := fun s => u s i - s * (f i).val (u t)) (f' := fun s => (f i).val (u s) - (f i).val (u t)) (x := t) (y := t + h)
    (fun s hs' => (((hu i).2 s (hs hs') (hd s (hs hs') i)).mono hs).sub
      (by simpa using (hasDerivWithinAt_id s (Icc t (t + h))).mul_const ((f i).val (u t)))) (fun s hs' => hc s hs' i)
    ⟨le_rfl, by linarith⟩ ⟨by linarith, le_rfl⟩
  rw [Real.norm_eq_abs, Real.norm_eq_abs, show t + h - t = h by ring, abs_of_nonneg hh] at key
  have e : u (t + h) i - (u t i + h * (f i).val (u t)) = u (t + h) i - (t + h) * (f i).val (u t) - (u t i - t * (f i).val (u t)) := by ring
  rw [e, mul_comm h ρ]
  exact key

/-- All steps of one size. -/
theorem near_run71 {u : ℝ → ι → ℝ} {a b : ℝ} (hu : IsOdeSol f u a b) (hd : ∀ t ∈ Icc a b, ∀ i, u t ∈ (f i).dom) {h : ℚ} (hh : φ.Rep h)
    (hh0 : 0 < h) (hh1 : h ≤ 1) {ρ₀ B K C : ℝ} (hρ0 : 0 < ρ₀) (hC : C ≤ 1) (hB0 : 0 ≤ B) (hK : 0 ≤ K) (hM : 2 * B + 2 ≤ φ.maxFin)
    (hp : ∀ t ∈ Icc a b, ∀ i, |u t i| ≤ B) (hq : ∀ t ∈ Icc a b, ∀ i, |(f i).val (u t)| + 1 ≤ B) (hhB : (h : ℝ) * B ≤ ρ₀ / 8)
    (hε : (3 * B + 4) * φ.relUnit ≤ ρ₀ / 8) (hε' : (K + (3 * B + 4)) * φ.relUnit ≤ h * ρ₀) (hK1 : K * (2 * C + φ.relUnit) ≤ 1)
    (hF : ∀ t ∈ Icc a b, ∀ ρ, 0 < ρ → ρ ≤ C → ∀ X : ι → DItv, (∀ i, (X i).Ok φ) → (∀ i, (X i).dec = .com) →
        (∀ i, ∀ v ∈ (X i).set, |v - u t i| ≤ 2 * ρ) → ∀ i,
        ((f i).evalD φ X).dec = .com ∧ ∀ v ∈ ((f i).evalD φ X).itv.set, |v - (f i).val (u t)| ≤ K * (2 * ρ + φ.relUnit))
    (hc : ∀ t ∈ Icc a b, ∀ s ∈ Icc a b, |s - t| ≤ h → ∀ i, |(f i).val (u s) - (f i).val (u t)| ≤ ρ₀) :
    ∀ (n : ℕ) (t ρ : ℝ) (X0 : ι → Itv), a ≤ t → t + n * h ≤ b → ρ₀ ≤ ρ → ρ * (1 + (4 * K + 4) * h) ^ n ≤ C → (∀ i, (X0 i).Ok φ) →
      (∀ i, ∀ v ∈ (X0 i).set, |v - u t i| ≤ ρ / 2) → ∃ l : List ((ι → DItv) × FP), l.length = n ∧
        (∀ p ∈ l, (∀ i, (p.1 i).Ok φ) ∧ p.2 = .fin h) ∧ ∃ R, Returns (odeRun φ f l X0) (R, true) ∧
        ∀ i, ∀ v ∈ (R i).set, |v - u (t + n * h) i| ≤ C / 2 := by
  have hqh : (0:ℝ) < h := by exact_mod_cast hh0
  have hqh1 : (h:ℝ) ≤ 1 := by exact_mod_cast hh1
  have hur := relUnit_pos (φ := φ)
  have hc1 : 1 ≤ 1 + (4 * K + 4) * (h:ℝ) := by nlinarith [mul_nonneg hK hqh.le]
  intro n
  induction n with
  | zero =>
    intro t ρ X0 _ _ _ hρC h0 hx
    refine ⟨[], rfl, by simp, X0, by unfold odeRun; exact Returns.pure _, fun i v hv => ?_⟩
    have := hx i v hv
    simp only [pow_zero, mul_one] at hρC
    simp only [Nat.cast_zero, zero_mul, add_zero]
    linarith
  | succ n ih =>
    intro t ρ X0 hat hb hρ hρC h0 hx
    push_cast at hb
    have hρp : 0 < ρ := hρ0.trans_le hρ
    have hnh : 0 ≤ (n:ℝ) * h := mul_nonneg (Nat.cast_nonneg n) hqh.le
    have ht : t ∈ Icc a b := ⟨hat, by linarith⟩
    have hρ2 : ρ ≤ C := (le_mul_of_one_le_right hρp.le (one_le_pow₀ hc1)).trans hρC
    obtain ⟨X, Y, hX, hY, hrun, hYn⟩ := near_step71 (f := f) (X0 := X0) hh hh0 hh1 (p := u t) (q := fun i => (f i).val (u t)) (ρ := ρ)
      (B := B) (K := K) hρp (hρ2.trans hC) hB0 hK hM (hp t ht) (hq t ht) (by linarith) (by linarith)
      ((mul_le_mul_of_nonneg_left (by linarith) hK).trans hK1) (hF t ht ρ hρp hρ2) h0 hx
    have next : ∀ i, ∀ v ∈ (Y i).set, |v - u (t + h) i| ≤ ρ * (1 + (4 * K + 4) * h) / 2 := by
      intro i v hv
      have h1 := abs_le.mp (hYn i v hv)
      have h2 := abs_le.mp (slope71 hu hd hat hqh.le (by linarith : t + (h:ℝ) ≤ b) (fun s hs i => hc t ht s
        ⟨hat.trans hs.1, hs.2.trans (by linarith)⟩ (by rw [abs_of_nonneg (by linarith [hs.1])]; linarith [hs.2]) i) i)
      have h3 : (h:ℝ) * (K * (2 * ρ + φ.relUnit)) ≤ 2 * K * (ρ * h) + K * φ.relUnit := by
        have : (h:ℝ) * (K * φ.relUnit) ≤ 1 * (K * φ.relUnit) := mul_le_mul_of_nonneg_right hqh1 (mul_nonneg hK hur.le)
        linarith
      have h4 : (h:ℝ) * ρ₀ ≤ h * ρ := mul_le_mul_of_nonneg_left hρ hqh.le
      have h5 : ρ * (1 + (4 * K + 4) * h) / 2 = ρ / 2 + 2 * K * (ρ * h) + 2 * (h * ρ) := by ring
      rw [abs_le, h5]
      constructor <;> linarith
    obtain ⟨l, hl, hlo, R, hR, hRn⟩ := ih (t + h) (ρ * (1 + (4 * K + 4) * h)) Y (by linarith) (by linarith)
      (hρ.trans (le_mul_of_one_le_right hρp.le hc1)) (by rw [mul_assoc, ← pow_succ']; exact hρC) hY next
    refine ⟨(X, .fin h) :: l, by simp [hl], ?_, R, hrun l R hR, ?_⟩
    · intro p hp
      rcases List.mem_cons.mp hp with rfl | hp
      · exact ⟨hX, rfl⟩
      · exact hlo p hp
    · have : t + ((n + 1 : ℕ) : ℝ) * h = t + h + n * h := by push_cast; ring
      rwa [this]

/-- **The enclosures are as narrow as wanted**: let `u` solve the equations from time `a` on for a dyadic time, and let the formulas be
tame along `u`.  Then for every `η` there are a number of steps of one size that add up to that time and a tolerance `r` such that in every
type that is precise enough and from every starting box within `r` of `u a`, the program has boxes for these steps with which all checks
succeed, and every point of the box at the end is within `η` of the value of `u` at the end. -/
theorem C71_converges {u : ℝ → ι → ℝ} {a : ℝ} {j k : ℕ} (hu : IsOdeSol f u a (a + j / 2 ^ k))
    (ht : ∀ t ∈ Icc a (a + j / 2 ^ k), ∀ i, (f i).TameAt (u t)) {η : ℝ} (hη : 0 < η) :
    ∃ (m : ℕ) (r M : ℝ), 0 < r ∧ ∀ φ : Fmt, φ.relUnit ≤ r → M ≤ φ.maxFin → ∀ X0 : ι → Itv, (∀ i, (X0 i).Ok φ) →
      (∀ i, ∀ v ∈ (X0 i).set, |v - u a i| ≤ r) → ∃ l : List ((ι → DItv) × FP), l.length = j * 2 ^ m ∧
        (∀ p ∈ l, (∀ i, (p.1 i).Ok φ) ∧ p.2.In φ ∧ p.2 = .fin (1 / 2 ^ (k + m))) ∧ ∃ R, (∀ s, (odeRun φ f l X0 s).1 = .ret (R, true)) ∧
        ∀ i, ∀ v ∈ (R i).set, |v - u (a + j / 2 ^ k) i| ≤ η := by
  set b := a + (j:ℝ) / 2 ^ k with hb
  have hT : (0:ℝ) ≤ (j:ℝ) / 2 ^ k := by positivity
  have cu : ContinuousOn u (Icc a b) := continuousOn_pi.mpr fun i => (hu i).1
  have cg : ContinuousOn (fun t i => (f i).val (u t)) (Icc a b) := continuousOn_pi.mpr fun i t ht' =>
    (continuousAt_of_tame (ht t ht' i)).comp_continuousWithinAt (cu t ht')
  obtain ⟨K, r, M, hK, hr, hF⟩ := const71 (f := f) (isCompact_Icc.image_of_continuousOn cu)
    (by rintro i _ ⟨t, ht', rfl⟩; exact ht t ht' i)
  obtain ⟨B1, hB1⟩ := isCompact_Icc.exists_bound_of_continuousOn cu
  obtain ⟨B2, hB2⟩ := isCompact_Icc.exists_bound_of_continuousOn cg
  set B := |B1| + |B2| + 1 with hB
  have hB0 : 0 < B := by positivity
  have hp : ∀ t ∈ Icc a b, ∀ i, |u t i| ≤ B := fun t ht' i => by
    have h1 := (norm_le_pi_norm (u t) i).trans (hB1 t ht')
    rw [Real.norm_eq_abs] at h1
    linarith [le_abs_self B1, abs_nonneg B2]
  have hq : ∀ t ∈ Icc a b, ∀ i, |(f i).val (u t)| + 1 ≤ B := fun t ht' i => by
    have h1 := (norm_le_pi_norm (fun i => (f i).val (u t)) i).trans (hB2 t ht')
    rw [Real.norm_eq_abs] at h1
    linarith [le_abs_self B2, abs_nonneg B1]
  -- the radius at the end and at the start
  obtain ⟨C, hC0, hC1, hCr, hCη, hCK⟩ : ∃ C : ℝ, 0 < C ∧ C ≤ 1 ∧ 2 * C ≤ r ∧ C ≤ η ∧ K * (3 * C) ≤ 1 := by
    refine ⟨min (min 1 (r / 2)) (min η (1 / (3 * (K + 1)))), by positivity, (min_le_left _ _).trans (min_le_left _ _), ?_,
      (min_le_right _ _).trans (min_le_left _ _), ?_⟩
    · have : min (min 1 (r / 2)) (min η (1 / (3 * (K + 1)))) ≤ r / 2 := (min_le_left _ _).trans (min_le_right _ _)
      linarith
    · have h1 : min (min 1 (r / 2)) (min η (1 / (3 * (K + 1)))) ≤ 1 / (3 * (K + 1)) := (min_le_right _ _).trans (min_le_right _ _)
      calc _ ≤ K * (3 * (1 / (3 * (K + 1)))) := mul_le_mul_of_nonneg_left (by linarith) hK
        _ = K / (K + 1) := by field_simp
        _ ≤ 1 := by rw [div_le_one (by linarith)]; linarith
  set ρ₀ := C * Real.exp (-((4 * K + 4) * (j / 2 ^ k))) with hρ
  have hρ0 : 0 < ρ₀ := mul_pos hC0 (Real.exp_pos _)
  have hρC : ρ₀ ≤ C := mul_le_of_le_one_right hC0.le (Real.exp_le_one_iff.mpr (by
    have := mul_nonneg (by linarith : 0 ≤ 4 * K + 4) hT; linarith))
  -- the step size
  obtain ⟨δ, hδ, hcδ⟩ := Metric.uniformContinuousOn_iff.mp (isCompact_Icc.uniformContinuousOn_of_continuous cg) ρ₀ hρ0
  obtain ⟨m, hm⟩ := exists_pow_lt_of_lt_one (show 0 < min δ (ρ₀ / 8 / B) by positivity) (by norm_num : (1 / 2 : ℝ) < 1)
  have hhm : (1:ℝ) / 2 ^ (k + m) ≤ (1 / 2) ^ m := by
    rw [div_pow, one_pow]
    exact one_div_le_one_div_of_le (by positivity) (pow_le_pow_right₀ (by norm_num) (by omega))
  have hh0 : (0:ℝ) < 1 / 2 ^ (k + m) := by positivity
  have hcast : (((1 / 2 ^ (k + m) : ℚ)) : ℝ) = 1 / 2 ^ (k + m) := by push_cast; rfl
  set E := K + (3 * B + 4) with hE
  have hE0 : 0 < E := by linarith
  refine ⟨m, min (min r (ρ₀ / 2)) (min (min C (ρ₀ / 8 / E)) (min (1 / 2 ^ (k + m) * ρ₀ / E) (1 / 2 ^ (k + m)))),
    max M (2 * B + 2), by positivity, fun φ hε hM X0 h0 hx => ?_⟩
  have hur := relUnit_pos (φ := φ)
  have e1 : φ.relUnit ≤ r := hε.trans ((min_le_left _ _).trans (min_le_left _ _))
  have e2 : φ.relUnit ≤ C := hε.trans ((min_le_right _ _).trans ((min_le_left _ _).trans (min_le_left _ _)))
  have e3 : φ.relUnit ≤ ρ₀ / 8 / E := hε.trans ((min_le_right _ _).trans ((min_le_left _ _).trans (min_le_right _ _)))
  have e4 : φ.relUnit ≤ 1 / 2 ^ (k + m) * ρ₀ / E := hε.trans ((min_le_right _ _).trans ((min_le_right _ _).trans (min_le_left _ _)))
  have e5 : φ.relUnit ≤ 1 / 2 ^ (k + m) := hε.trans ((min_le_right _ _).trans ((min_le_right _ _).trans (min_le_right _ _)))
  rw [le_div_iff₀ hE0] at e3 e4
  have hrep : φ.Rep (1 / 2 ^ (k + m)) := by
    rw [Fmt.relUnit, one_div, ← zpow_natCast, ← zpow_neg, zpow_le_zpow_iff_right₀ (by norm_num : (1:ℝ) < 2)] at e5
    have := φ.qmin_le
    have := φ.emax_ge
    refine ⟨1, -((k + m : ℕ) : ℤ), by rw [zpow_neg, zpow_natCast]; simp, ?_, by omega, by omega⟩
    rw [abs_one]
    exact one_lt_pow₀ (by norm_num) (by have := φ.p_pos; omega)
  have hKε : (3 * B + 4) * φ.relUnit ≤ E * φ.relUnit := mul_le_mul_of_nonneg_right (by linarith) hur.le
  have grow : ρ₀ * (1 + (4 * K + 4) * ((1 / 2 ^ (k + m) : ℚ) : ℝ)) ^ (j * 2 ^ m) ≤ C := by
    have h1 : (1 + (4 * K + 4) * ((1 / 2 ^ (k + m) : ℚ) : ℝ)) ^ (j * 2 ^ m) ≤ Real.exp ((4 * K + 4) * (j / 2 ^ k)) := by
      have h2 : 1 + (4 * K + 4) * ((1 / 2 ^ (k + m) : ℚ) : ℝ) ≤ Real.exp ((4 * K + 4) * ((1 / 2 ^ (k + m) : ℚ) : ℝ)) := by
        rw [add_comm]; exact Real.add_one_le_exp _
      have h3 : 0 ≤ 1 + (4 * K + 4) * ((1 / 2 ^ (k + m) : ℚ) : ℝ) := by
        rw [hcast]; have := mul_nonneg (by linarith : 0 ≤ 4 * K + 4) hh0.le; linarith
      refine (pow_le_pow_left₀ h3 h2 _).trans (le_of_eq ?_)
      rw [← Real.exp_nat_mul, hcast]
      congr 1
      push_cast
      rw [pow_add]
      field_simp
    calc ρ₀ * _ ≤ ρ₀ * Real.exp ((4 * K + 4) * (j / 2 ^ k)) := mul_le_mul_of_nonneg_left h1 hρ0.le
      _ = C := by rw [hρ, mul_assoc, ← Real.exp_add]; simp
  obtain ⟨l, hl, hlo, R, hR, hRn⟩ := near_run71 (φ := φ) hu (fun t ht' i => (ht t ht' i).dom) hrep (by positivity)
    (by rw [div_le_one (by positivity)]; exact one_le_pow₀ (by norm_num)) (ρ₀ := ρ₀) (B := B) (K := K) (C := C) hρ0 hC1 hB0.le hK
    ((le_max_right _ _).trans hM) hp hq
    (by
      rw [hcast]
      have := (hhm.trans hm.le).trans (min_le_right _ _)
      rwa [le_div_iff₀ hB0] at this)
    (by linarith) (by rw [hcast]; linarith) ((mul_le_mul_of_nonneg_left (by linarith) hK).trans hCK)
    (fun t ht' ρ hρ' hρC' X hX hX' hXn => hF φ e1 ((le_max_left _ _).trans hM) X hX hX' (u t) (mem_image_of_mem u ht') (2 * ρ)
      (by linarith) (by linarith) hXn)
    (fun t ht' s hs hst i => by
      rw [hcast] at hst
      have h1 := hcδ s hs t ht' (by rw [Real.dist_eq]; exact (hst.trans hhm).trans_lt (hm.trans_le (min_le_left _ _)))
      have h2 := (dist_le_pi_dist _ _ i).trans h1.le
      rwa [Real.dist_eq] at h2)
    (j * 2 ^ m) a ρ₀ X0 le_rfl (by rw [hcast, hb]; push_cast; rw [pow_add]; field_simp; exact le_rfl) le_rfl grow h0
    (fun i v hv => (hx i v hv).trans ((min_le_left _ _).trans (min_le_right _ _)))
  refine ⟨l, hl, fun p hp' => ⟨(hlo p hp').1, ?_, (hlo p hp').2⟩, R, fun s => congrArg Prod.fst (hR s), fun i v hv => ?_⟩
  · rw [(hlo p hp').2]; exact hrep
  · have h1 := hRn i v hv
    have h2 : a + ((j * 2 ^ m : ℕ) : ℝ) * ((1 / 2 ^ (k + m) : ℚ) : ℝ) = b := by
      rw [hcast, hb]; push_cast; rw [pow_add]; field_simp
    rw [h2] at h1
    linarith

/-- The hypotheses hold for `u' = u` and the exponential function from `0` to `3/2`: the program computes `exp (3/2)` to every accuracy. -/
example {η : ℝ} (hη : 0 < η) : ∃ (m : ℕ) (r M : ℝ), 0 < r ∧ ∀ φ : Fmt, φ.relUnit ≤ r → M ≤ φ.maxFin →
    ∃ l : List ((Unit → DItv) × FP), l.length = 3 * 2 ^ m ∧
      ∃ R, (∀ s, (odeRun φ (fun _ => .var ()) l (fun _ => ⟨.fin 1, .fin 1⟩) s).1 = .ret (R, true)) ∧
        ∀ v ∈ (R ()).set, |v - Real.exp (3 / 2)| ≤ η := by
  obtain ⟨m, r, M, hr, h⟩ := C71_converges (f := fun _ : Unit => .var ()) (u := fun t _ => Real.exp t) (a := 0) (j := 3) (k := 1)
    (fun _ => ⟨Real.continuous_exp.continuousOn, fun t _ _ => by
      simpa [Expr.val] using (Real.hasDerivAt_exp t).hasDerivWithinAt⟩) (fun _ _ _ => trivial) hη
  refine ⟨m, r, M, hr, fun φ hu hM => ?_⟩
  have hv : ValidBounds (.fin 1) (.fin 1) := ⟨1, by simp [Itv.set, FP.BelowR, FP.AboveR]⟩
  have h1 : φ.Rep 1 := by simpa using φ.rep_dyadic (j := 1) (i := 0) (by norm_num) (by norm_num)
  obtain ⟨l, hl, -, R, hR, hn⟩ := h φ hu hM (fun _ => ⟨.fin 1, .fin 1⟩) (fun _ => (hv.NE (φ := φ) h1 h1).ok) (fun _ v hv => by
    have h1 : 1 ≤ v ∧ v ≤ 1 := by simpa [Itv.set, FP.BelowR, FP.AboveR] using hv
    rw [le_antisymm h1.2 h1.1, Real.exp_zero, sub_self, abs_zero]
    exact hr.le)
  refine ⟨l, hl, R, hR, fun v hv => ?_⟩
  have := hn () v hv
  norm_num at this
  exact this

end P1788
