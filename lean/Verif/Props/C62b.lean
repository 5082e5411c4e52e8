import Verif.Props.C62
import Verif.Props.C64c

/-!
# C62: the enclosure of an integral converges

On a fine grid, in a format of sufficient precision, the checks of the program succeed and the result is close to the integral.
-/

namespace P1788
open Set MeasureTheory
variable {φ : Fmt} {ι : Type}

/-- An ascending grid of numbers of the format with steps of at most `δ`, from `a` over the elements of the list to `z`. -/
def GridTo (φ : Fmt) (δ z : ℝ) : FP → List FP → Prop
  | a, [] => a.In φ ∧ a.HasValue z
  | a, b :: l => a.In φ ∧ (∃ u v, a.HasValue u ∧ b.HasValue v ∧ u ≤ v ∧ v - u ≤ δ) ∧ GridTo φ δ z b l

theorem hasValue_unique {f : FP} {u v : ℝ} (h : f.HasValue u) (h' : f.HasValue v) : u = v := by
  rcases h with ⟨rfl, rfl⟩ | ⟨q, rfl, rfl⟩ <;> rcases h' with ⟨h, rfl⟩ | ⟨y, h, rfl⟩ <;> simp_all

theorem GridTo.in {δ z : ℝ} {a : FP} {l : List FP} (h : GridTo φ δ z a l) : a.In φ := by
  cases l with
  | nil => exact h.1
  | cons b l => exact h.1

theorem GridTo.le {δ z u : ℝ} {a : FP} {l : List FP} (h : GridTo φ δ z a l) (hu : a.HasValue u) : u ≤ z := by
  induction l generalizing a u with
  | nil => exact (hasValue_unique hu h.2).le
  | cons b l ih =>
    obtain ⟨-, ⟨u', v, h1, h2, h3, -⟩, h5⟩ := h
    rw [hasValue_unique hu h1]
    exact h3.trans (ih h5 h2)

theorem GridTo.all_in {δ z : ℝ} {a : FP} {l : List FP} (h : GridTo φ δ z a l) : ∀ b ∈ l, b.In φ := by
  induction l generalizing a with
  | nil => simp
  | cons b l ih =>
    rintro c hc
    rcases List.mem_cons.mp hc with rfl | hc
    · exact h.2.2.in
    · exact ih h.2.2 c hc

theorem GridTo.last {δ z : ℝ} {a : FP} {l : List FP} (h : GridTo φ δ z a l) (hl : l ≠ []) : (l.getLast hl).HasValue z := by
  induction l generalizing a with
  | nil => exact absurd rfl hl
  | cons b l ih =>
    cases l with
    | nil => exact h.2.2.2
    | cons c l => rw [List.getLast_cons (by simp)]; exact ih h.2.2 (by simp)

/-- The pieces of a grid. -/
theorem GridTo.piece {δ z A : ℝ} {a : FP} {l : List FP} (h : GridTo φ δ z a l) {w : ℝ} (hw : a.HasValue w) (hA : A ≤ w) {x y : FP}
    (hxy : [x, y] <:+: a :: l) : ∃ u v, x.HasValue u ∧ y.HasValue v ∧ u ≤ v ∧ v - u ≤ δ ∧ A ≤ u ∧ v ≤ z := by
  induction l generalizing a w with
  | nil =>
    have := hxy.length_le
    simp at this
  | cons b l ih =>
    obtain ⟨-, ⟨u, v, h1, h2, h3, h4⟩, h5⟩ := h
    obtain rfl := hasValue_unique hw h1
    rcases List.infix_cons_iff.mp hxy with hp | hi
    · obtain ⟨t, ht⟩ := hp
      simp only [List.cons_append, List.nil_append, List.cons.injEq] at ht
      obtain ⟨rfl, rfl, -⟩ := ht
      exact ⟨w, v, h1, h2, h3, h4, hA, h5.le h2⟩
    · exact ih h5 h2 (hA.trans h3) hi

theorem continuousAt_of_tame [Finite ι] {e : Expr ι} {t : ι → ℝ} (h : e.TameAt t) : ContinuousAt e.val t := by
  have : Fintype ι := Fintype.ofFinite ι
  obtain ⟨K, r, M, hK, hr, hN, -⟩ := narrow e h
  rw [Metric.continuousAt_iff]
  intro ε hε
  refine ⟨min r (ε / (K + 1)), lt_min hr (div_pos hε (by linarith)), fun {s} hs => ?_⟩
  have hi : ∀ i, |s i - t i| ≤ dist s t := fun i => by
    have := dist_le_pi_dist s t i; rwa [Real.dist_eq] at this
  have h1 := hN s t (dist s t) (fun i => (hi i).trans (hs.le.trans (min_le_left _ _))) (fun i => by simpa using hr.le) hi dist_nonneg
  rw [Real.dist_eq]
  have h2 : dist s t * (K + 1) < ε := by
    rw [← lt_div_iff₀ (by linarith)]; exact hs.trans_le (min_le_right _ _)
  have := dist_nonneg (x := s) (y := t)
  nlinarith

/-- The values of a formula on a bounded box on which it is tame are bounded. -/
theorem bounded_of_tame [Finite ι] (e : Expr ι) {a b : ι → ℝ} (h : ∀ t, (∀ i, a i ≤ t i ∧ t i ≤ b i) → e.TameAt t) :
    ∃ F : ℝ, 0 ≤ F ∧ ∀ t, (∀ i, a i ≤ t i ∧ t i ≤ b i) → |e.val t| ≤ F := by
  have hc : IsCompact {t : ι → ℝ | ∀ i, a i ≤ t i ∧ t i ≤ b i} := by
    have := isCompact_univ_pi (fun i => isCompact_Icc (a := a i) (b := b i))
    convert this using 1; ext t; simp only [Set.mem_pi, Set.mem_univ, true_imp_iff, Set.mem_Icc, Set.mem_ofPred_eq]
  obtain ⟨F, hF⟩ := hc.exists_bound_of_continuousOn (f := e.val) fun t ht => (continuousAt_of_tame (h t ht)).continuousWithinAt
  exact ⟨max F 0, le_max_right _ _, fun t ht => (hF t ht).trans (le_max_left _ _)⟩

theorem evalD_ok62 (e : Expr ι) {X : ι → DItv} (hX : ∀ i, (X i).Ok φ) : (e.evalD φ X).Ok φ := by
  induction e with
  | var i => exact hX i
  | un op e ih => exact op.decd_ok ih
  | bin op e₁ e₂ ih₁ ih₂ => exact op.decd_ok ih₁ ih₂
  | fma e₁ e₂ e₃ ih₁ ih₂ ih₃ => exact fmaD_ok ih₁ ih₂ ih₃

/-- One piece: arithmetic of the error. -/
theorem piece_error {K F W ε δ w d r f : ℝ} (hK : 0 ≤ K) (hF : 0 ≤ F) (hw0 : 0 ≤ w) (hwW : w ≤ W) (hε : 0 ≤ ε) (hε1 : ε ≤ 1)
    (hδ : 0 ≤ δ) (hδ1 : δ ≤ 1) (hr : |r - f| ≤ K * (δ + ε)) (hf : |f| ≤ F) (hd : |d - w| ≤ (W + 1) * ε) :
    |r * d - f * w| ≤ K * (δ + ε) * w + (2 * K + F) * (W + 1) * ε := by
  have e : r * d - f * w = (r - f) * w + (r - f) * (d - w) + f * (d - w) := by ring
  rw [e]
  have h1 : |(r - f) * w| ≤ K * (δ + ε) * w := by
    rw [abs_mul, abs_of_nonneg hw0]; exact mul_le_mul_of_nonneg_right hr hw0
  have h2 : |(r - f) * (d - w)| ≤ (2 * K) * ((W + 1) * ε) := by
    rw [abs_mul]
    refine mul_le_mul (hr.trans ?_) hd (abs_nonneg _) (by linarith)
    nlinarith
  have h3 : |f * (d - w)| ≤ F * ((W + 1) * ε) := by
    rw [abs_mul]; exact mul_le_mul hf hd (abs_nonneg _) hF
  have := abs_add_le ((r - f) * w + (r - f) * (d - w)) (f * (d - w))
  have := abs_add_le ((r - f) * w) ((r - f) * (d - w))
  nlinarith

/-- The interval program on one piece. -/
theorem quad_cons [DecidableEq ι] {e : Expr ι} {X : ι → DItv} {i : ι} {a b : FP} {l : List FP} {u v : ℝ} {q : Itv} (ha : a.In φ)
    (hb : b.In φ) (hu : a.HasValue u) (hv : b.HasValue v) (huv : u ≤ v) (h : Returns (quadrature φ e X i b l) (q, true)) :
    ∃ p : DItv, p.Ok φ ∧ p.set = Icc u v ∧ p.dec = .com ∧ (.dac ≤ (e.evalD φ (Function.update X i p)).dec →
      Returns (quadrature φ e X i a (b :: l))
        (φ.addI (φ.mulI (e.evalD φ (Function.update X i p)).itv (φ.subI ⟨b, b⟩ ⟨a, a⟩)) q, true)) := by
  have hV : ValidBounds a b := ⟨u, by
    rcases hu with ⟨rfl, rfl⟩ | ⟨x, rfl, rfl⟩ <;> simp [FP.BelowR], by
    rcases hv with ⟨rfl, rfl⟩ | ⟨x, rfl, rfl⟩ <;> simpa [FP.AboveR] using huv⟩
  obtain ⟨p, h1, h2, h3, h4⟩ := C17_nums ha hb hV
  have hset : p.set = Icc u v := by
    rw [h3]
    ext r
    rcases hu with ⟨rfl, rfl⟩ | ⟨x, rfl, rfl⟩ <;> rcases hv with ⟨rfl, rfl⟩ | ⟨y, rfl, rfl⟩ <;> rfl
  have hcom : p.dec = .com := h4.2.1 (by rw [hset]; exact nonempty_Icc.mpr huv) (by rw [hset]; exact Metric.isBounded_Icc u v)
  refine ⟨p, h2, hset, hcom, fun hd => ?_⟩
  have hc : DItv.pred Itv.isCommon p = true := by
    have hn : p.isNai = false := h2.isNai_false (by rw [hcom]; decide)
    rw [((C24_decorated Itv.isCommon .nan p).2 h2.isValid hn).1, C24_is_common_interval h2.1]
    have : p.itv.set = Icc u v := hset
    rw [this]
    exact ⟨nonempty_Icc.mpr huv, bddBelow_Icc, bddAbove_Icc⟩
  unfold quadrature
  refine h1.bind (Returns.bind (nums_point62 hu) (Returns.bind (nums_point62 hv) (Returns.bind h ?_)))
  simp only [hc, decide_eq_true hd, Bool.and_self]
  exact Returns.pure _

/-- The induction over the grid. -/
theorem quad_conv [DecidableEq ι] {e : Expr ι} {X : ι → DItv} {i : ι} {A B K F W δ : ℝ} (hK : 0 ≤ K) (hF : 0 ≤ F) (hW : B - A = W)
    (hδ : 0 ≤ δ) (hδ1 : δ ≤ 1) (hε1 : φ.relUnit ≤ 1)
    (hR : ∀ p : DItv, p.Ok φ → p.dec = .com → p.set ⊆ Icc A B → (∀ s ∈ p.set, ∀ s' ∈ p.set, |s - s'| ≤ δ) →
      (e.evalD φ (Function.update X i p)).itv.Ok φ ∧ (e.evalD φ (Function.update X i p)).dec = .com ∧
      ∀ c, InBox X i c → ∀ m ∈ p.set, ∀ v ∈ (e.evalD φ (Function.update X i p)).set, |v - e.fnAt c i m| ≤ K * (δ + φ.relUnit))
    (hf : ∀ c, InBox X i c → ContinuousOn (e.fnAt c i) (Icc A B) ∧ ∀ t ∈ Icc A B, |e.fnAt c i t| ≤ F)
    {B1 C2 B3 C3 : ℝ} (hB1 : B1 = F * W + 2 * K * W + (2 * K + F) * (W + 1)) (hC2 : C2 = (2 * K + F) * (W + 1) + B1 + 1)
    (hB3 : B3 = F * W + 2 * K * W + 1) (hC3 : C3 = C2 + B3 + 1) (m0 : W ≤ φ.maxFin) (m1 : B1 ≤ φ.maxFin) (m3 : B3 ≤ φ.maxFin)
    {a : FP} {l : List FP} {u : ℝ} (hn : l.length * φ.relUnit * C3 ≤ 1) (hu : a.HasValue u) (hA : A ≤ u) (hl : GridTo φ δ B a l) :
    ∃ q : Itv, Returns (quadrature φ e X i a l) (q, true) ∧ q.Ok φ ∧ ∀ c, InBox X i c → ∀ x ∈ q.set,
      |x - ∫ t in u..B, e.fnAt c i t| ≤ K * (δ + φ.relUnit) * (B - u) + l.length * φ.relUnit * C3 := by
  have hε := (relUnit_pos (φ := φ)).le
  induction l generalizing a u with
  | nil =>
    obtain ⟨z1, z2⟩ := rep_point60 φ
    refine ⟨⟨.fin 0, .fin 0⟩, by unfold quadrature; exact Returns.pure _, z1, fun c _ x hx => ?_⟩
    rw [hasValue_unique hu hl.2]
    rw [z2] at hx
    obtain rfl : x = 0 := hx
    simp
  | cons b l ih =>
    obtain ⟨hai, ⟨u', v, hu', hv, huv, hs⟩, hl'⟩ := hl
    obtain rfl := hasValue_unique hu hu'
    have hvB := hl'.le hv
    have hW0 : 0 ≤ W := by linarith
    have hC0 : 0 ≤ C2 := by rw [hC2, hB1]; positivity
    have hB30 : 0 ≤ B3 := by rw [hB3]; positivity
    have hC30 : 0 ≤ C3 := by rw [hC3]; positivity
    have hlen : ((b :: l).length : ℝ) = l.length + 1 := by push_cast [List.length_cons]; ring
    rw [hlen] at hn
    have hn' : l.length * φ.relUnit * C3 ≤ 1 := by nlinarith [mul_nonneg hε hC30]
    obtain ⟨q, q1, q2, q3⟩ := ih hn' hv (hA.trans huv) hl'
    obtain ⟨p, p1, p2, p3, p4⟩ := quad_cons hai hl'.in hu hv huv q1
    have hsub : p.set ⊆ Icc A B := by rw [p2]; exact Icc_subset_Icc hA hvB
    obtain ⟨r1, r2, r3⟩ := hR p p1 p3 hsub (by
      rw [p2]; rintro s ⟨h1, h2⟩ s' ⟨h3, h4⟩; rw [abs_le]; constructor <;> linarith)
    obtain ⟨a1, a2⟩ := point62 hai hu
    obtain ⟨b1, b2⟩ := point62 hl'.in hv
    have T1 := C01_sub φ b1 a1
    have T2 := C02_mul φ r1 T1.1
    have T3 := C01_add φ T2.1 q2
    refine ⟨_, p4 (by rw [r2]; decide), T3.1, fun c hc => ?_⟩
    obtain ⟨f1, f2⟩ := hf c hc
    obtain ⟨m, hm, hI⟩ := mean62 huv (f1.mono (Icc_subset_Icc hA hvB))
    have i1 := (f1.mono (Icc_subset_Icc hA hvB)).intervalIntegrable_of_Icc (μ := volume) huv
    have i2 := (f1.mono (Icc_subset_Icc (hA.trans huv) le_rfl)).intervalIntegrable_of_Icc (μ := volume) hvB
    have hadd := intervalIntegral.integral_add_adjacent_intervals i1 i2
    have fm := f2 m ⟨hA.trans hm.1, hm.2.trans hvB⟩
    have w0 : 0 ≤ v - u := by linarith
    have wW : v - u ≤ W := by linarith
    have D : ∀ d ∈ (φ.subI ⟨b, b⟩ ⟨a, a⟩).set, |d - (v - u)| ≤ (W + 1) * φ.relUnit := by
      intro d hd
      have := T1.close (c := v - u) (d := 0) (B := W) ?_ (by rw [abs_of_nonneg w0]; linarith) le_rfl m0 d hd
      · linarith
      · rintro z ⟨x, hx, y, hy, rfl⟩
        rw [b2] at hx; rw [a2] at hy
        obtain rfl : x = v := hx
        obtain rfl : y = u := hy
        simp
    have hKδ : K * (δ + φ.relUnit) ≤ 2 * K := by nlinarith
    have hKδ0 : 0 ≤ K * (δ + φ.relUnit) := by positivity
    have G : (2 * K + F) * (W + 1) * φ.relUnit ≤ (2 * K + F) * (W + 1) := by
      refine mul_le_of_le_one_right (by positivity) hε1
    have P : ∀ y ∈ (φ.mulI (e.evalD φ (Function.update X i p)).itv (φ.subI ⟨b, b⟩ ⟨a, a⟩)).set,
        |y - ∫ t in u..v, e.fnAt c i t| ≤ K * (δ + φ.relUnit) * (v - u) + C2 * φ.relUnit := by
      intro y hy
      rw [hI]
      have := T2.close (c := e.fnAt c i m * (v - u)) (d := K * (δ + φ.relUnit) * (v - u) + (2 * K + F) * (W + 1) * φ.relUnit)
        (B := B1) ?_ ?_ (by positivity) m1 y hy
      · refine this.trans (le_of_eq ?_)
        rw [hC2]; ring
      · rintro z ⟨x, hx, d, hd, rfl⟩
        exact piece_error hK hF w0 wW hε hε1 hδ hδ1 (r3 c hc m (by rw [p2]; exact hm) x hx) fm (D d hd)
      · have h1 : |e.fnAt c i m * (v - u)| ≤ F * W := by
          rw [abs_mul, abs_of_nonneg w0]; exact mul_le_mul fm wW w0 hF
        have h2 : K * (δ + φ.relUnit) * (v - u) ≤ 2 * K * W := mul_le_mul hKδ wW w0 (by positivity)
        rw [hB1]; linarith
    intro x hx
    have hbound : |∫ t in u..B, e.fnAt c i t| ≤ F * W := by
      have hle : u ≤ B := huv.trans hvB
      have := intervalIntegral.norm_integral_le_of_norm_le_const (a := u) (b := B) (f := e.fnAt c i) (C := F) (fun t ht => by
        rw [uIoc_of_le hle] at ht
        exact f2 t ⟨hA.trans ht.1.le, ht.2⟩)
      rw [Real.norm_eq_abs, abs_of_nonneg (by linarith : 0 ≤ B - u)] at this
      exact this.trans (mul_le_mul_of_nonneg_left (by linarith) hF)
    have := T3.close (c := ∫ t in u..B, e.fnAt c i t)
      (d := K * (δ + φ.relUnit) * (B - u) + C2 * φ.relUnit + l.length * φ.relUnit * C3) (B := B3) ?_ ?_ ?_ m3 x hx
    · refine this.trans (le_of_eq ?_)
      rw [hlen, hC3]; ring
    · rintro z ⟨y, hy, y', hy', rfl⟩
      have e1 := P y hy
      have e2 := q3 c hc y' hy'
      rw [← hadd]
      have e3 := abs_add_le (y - ∫ t in u..v, e.fnAt c i t) (y' - ∫ t in v..B, e.fnAt c i t)
      have e4 : y + y' - ((∫ t in u..v, e.fnAt c i t) + ∫ t in v..B, e.fnAt c i t) =
        (y - ∫ t in u..v, e.fnAt c i t) + (y' - ∫ t in v..B, e.fnAt c i t) := by ring
      rw [e4]
      refine e3.trans ?_
      nlinarith
    · have h2 : K * (δ + φ.relUnit) * (B - u) ≤ 2 * K * W := mul_le_mul hKδ (by linarith) (by linarith) (by positivity)
      have h3 : C2 * φ.relUnit ≤ φ.relUnit * C3 := by
        rw [mul_comm]; exact mul_le_mul_of_nonneg_left (by rw [hC3]; linarith) hε
      rw [hB3]; nlinarith
    · have : 0 ≤ K * (δ + φ.relUnit) * (B - u) := mul_nonneg hKδ0 (by linarith)
      have : (0:ℝ) ≤ l.length * φ.relUnit * C3 := by positivity
      have : 0 ≤ C2 * φ.relUnit := by positivity
      linarith

/-- **The enclosure converges.**  Let the formula be tame on a bounded box.  There are constants, independent of the number format,
such that for all parameters decorated `com` of width at most `δ`, every ascending grid over the side `i` with steps of at most
`δ`, and every format with `n · 2^(1-p)` small and a large enough range: the checks of the program succeed, the result contains the
integral and every member of the result is within `K · (δ + n · 2^(1-p))` of the integral, where `n` is the number of pieces.  (Also for `double` and formulas with
`tan`.) -/
theorem C62_converges [Finite ι] [DecidableEq ι] (e : Expr ι) (i : ι) {a b : ι → ℝ}
    (h : ∀ t, (∀ j, a j ≤ t j ∧ t j ≤ b j) → e.TameAt t) :
    ∃ K r M : ℝ, 0 < r ∧ ∀ φ : Fmt, M ≤ φ.maxFin → ∀ (X : ι → DItv) (x : FP) (l : List FP) (δ : ℝ), 0 ≤ δ → δ ≤ r →
      (∀ j, j ≠ i → (X j).Ok φ ∧ (X j).dec = .com ∧ (∀ s ∈ (X j).set, a j ≤ s ∧ s ≤ b j) ∧
        ∀ s ∈ (X j).set, ∀ s' ∈ (X j).set, |s - s'| ≤ δ) →
      x.HasValue (a i) → GridTo φ δ (b i) x l → l ≠ [] → l.length * φ.relUnit ≤ r →
      ∃ q : Itv, Returns (quadrature φ e X i x l) (q, true) ∧ q.Ok φ ∧
        ∀ c : ι → ℝ, (∀ j, j ≠ i → c j ∈ (X j).set) → (∫ t in a i..b i, e.val (Function.update c i t)) ∈ q.set ∧ ∀ y ∈ q.set,
          |y - ∫ t in a i..b i, e.val (Function.update c i t)| ≤ K * (δ + l.length * φ.relUnit) := by
  obtain ⟨r₀, M₀, hr₀, N₀⟩ := C64_tan_narrow e h
  obtain ⟨K0, r1, M1, hr1, N1⟩ := C64_box e h
  obtain ⟨r2, M2, hr2, N2⟩ := C64_com_box e h
  obtain ⟨F, hF, hb⟩ := bounded_of_tame e h
  by_cases hab : b i < a i
  · refine ⟨0, 1, 0, one_pos, fun φ _ X x l δ _ _ _ hx hl _ _ => ?_⟩
    exact absurd (hl.le hx) (not_le.mpr hab)
  push Not at hab
  set K := max K0 0 with hKd
  have hK : 0 ≤ K := le_max_right _ _
  set W := b i - a i with hWd
  have hW : 0 ≤ W := by linarith
  set B1 := F * W + 2 * K * W + (2 * K + F) * (W + 1) with hB1
  set C2 := (2 * K + F) * (W + 1) + B1 + 1 with hC2
  set B3 := F * W + 2 * K * W + 1 with hB3
  set C3 := C2 + B3 + 1 with hC3
  have B10 : 0 ≤ B1 := by positivity
  have C20 : 0 ≤ C2 := by positivity
  have B30 : 0 ≤ B3 := by positivity
  have C30 : 0 < C3 := by positivity
  refine ⟨2 * K * W + C3, min r₀ (min (min r1 r2) (min 1 (1 / C3))), max M₀ (max (max M1 M2) (max W (max B1 B3))),
    lt_min hr₀ (lt_min (lt_min hr1 hr2) (lt_min one_pos (by positivity))), fun φ hM₀ X x l δ hδ hδr₀ hX hx hl hne hn₀ => ?_⟩
  have hM := (le_max_right _ _).trans hM₀
  have hδr := hδr₀.trans (min_le_right _ _)
  have hn := hn₀.trans (min_le_right _ _)
  have hε := relUnit_pos (φ := φ)
  have hlen : (1:ℝ) ≤ l.length := by
    exact_mod_cast List.length_pos_iff.mpr hne
  have hεn : φ.relUnit ≤ l.length * φ.relUnit := le_mul_of_one_le_left hε.le hlen
  have hεr := hεn.trans hn
  have ii : ∀ z : ℝ, z ≤ min (min r1 r2) (min 1 (1 / C3)) → z ≤ r1 ∧ z ≤ r2 ∧ z ≤ 1 ∧ z ≤ 1 / C3 := fun z hz =>
    ⟨hz.trans ((min_le_left _ _).trans (min_le_left _ _)), hz.trans ((min_le_left _ _).trans (min_le_right _ _)),
      hz.trans ((min_le_right _ _).trans (min_le_left _ _)), hz.trans ((min_le_right _ _).trans (min_le_right _ _))⟩
  obtain ⟨d1, d2, d3, -⟩ := ii δ hδr
  obtain ⟨e1, e2, e3, -⟩ := ii _ hεr
  obtain ⟨-, -, -, n4⟩ := ii _ hn
  have mm : M1 ≤ φ.maxFin ∧ M2 ≤ φ.maxFin ∧ W ≤ φ.maxFin ∧ B1 ≤ φ.maxFin ∧ B3 ≤ φ.maxFin := by
    simpa [max_le_iff, and_assoc] using hM
  obtain ⟨m1, m2, m3, m4, m5⟩ := mm
  have up : ∀ p : DItv, p.Ok φ → p.dec = .com → p.set ⊆ Icc (a i) (b i) → (∀ s ∈ p.set, ∀ s' ∈ p.set, |s - s'| ≤ δ) → ∀ j,
      (Function.update X i p j).Ok φ ∧ (Function.update X i p j).dec = .com ∧
      (∀ s ∈ (Function.update X i p j).set, a j ≤ s ∧ s ≤ b j) ∧
        ∀ s ∈ (Function.update X i p j).set, ∀ s' ∈ (Function.update X i p j).set, |s - s'| ≤ δ := by
    intro p h1 h2 h3 h4 j
    by_cases hj : j = i
    · subst hj; rw [Function.update_self]; exact ⟨h1, h2, fun s hs => h3 hs, h4⟩
    · rw [Function.update_of_ne hj]; exact hX j hj
  have inb : ∀ c, InBox X i c → ∀ t ∈ Icc (a i) (b i), ∀ j, a j ≤ Function.update c i t j ∧ Function.update c i t j ≤ b j := by
    intro c hc t ht j
    by_cases hj : j = i
    · subst hj; rw [Function.update_self]; exact ht
    · rw [Function.update_of_ne hj]; exact (hX j hj).2.2.1 _ (hc j hj)
  have main := quad_conv (φ := φ) (e := e) (X := X) (i := i) (A := a i) (B := b i) (K := K) (F := F) (W := W) (δ := δ)
    hK hF rfl hδ d3 e3 ?_ ?_ hB1 hC2 hB3 hC3 m3 m4 m5 ?_ hx le_rfl hl
  · obtain ⟨q, q1, q2, q3⟩ := main
    refine ⟨q, q1, q2, fun c hc => ⟨?_, fun y hy => (q3 c hc y hy).trans ?_⟩⟩
    · have hsafe : ∀ x' y', [x', y'] <:+: x :: l → (Itv.mk x' y').Ok φ → e.TanSafe φ (boxAt X i ⟨x', y'⟩) := by
        intro x' y' hxy hok
        obtain ⟨u, v, g1, g2, g3, g4, g5, g6⟩ := hl.piece hx le_rfl hxy
        have hN := hok.cases.resolve_left (by rintro k; cases k; rcases g1 with ⟨k, -⟩ | ⟨_, k, -⟩ <;> cases k)
        have v1 : x'.toE = (u:EReal) := by rcases g1 with ⟨rfl, rfl⟩ | ⟨k, rfl, rfl⟩ <;> simp
        have v2 : y'.toE = (v:EReal) := by rcases g2 with ⟨rfl, rfl⟩ | ⟨k, rfl, rfl⟩ <;> simp
        have hs : ∀ s, s ∈ (Itv.mk x' y').set ↔ u ≤ s ∧ s ≤ v := fun s => by
          rw [hN.mem, v1, v2, EReal.coe_le_coe_iff, EReal.coe_le_coe_iff]
        have hall : ∀ P : ι → Itv → Prop, P i ⟨x', y'⟩ → (∀ j, j ≠ i → P j (X j).itv) → ∀ j, P j (boxAt X i ⟨x', y'⟩ j) := by
          intro P p1 p2 j
          unfold boxAt
          by_cases hj : j = i
          · subst hj; rwa [Function.update_self]
          · rw [Function.update_of_ne hj]; exact p2 j hj
        have hok' := hall (fun _ v => v.Ok φ) hok fun j hj => (hX j hj).1.1
        refine Expr.TanNarrow.safe (N₀ φ (hεn.trans (hn₀.trans (min_le_left _ _))) ((le_max_left _ _).trans hM₀) _ hok' ?_ ?_ ?_) hok'
        · exact hall (fun _ v => v.set.Nonempty) ⟨u, (hs u).mpr ⟨le_rfl, g3⟩⟩ fun j hj => ⟨c j, hc j hj⟩
        · exact hall (fun j v => ∀ s ∈ v.set, a j ≤ s ∧ s ≤ b j)
            (fun s k => ⟨g5.trans ((hs s).mp k).1, ((hs s).mp k).2.trans g6⟩) fun j hj => (hX j hj).2.2.1
        · refine hall (fun j v => ∀ s ∈ v.set, ∀ s' ∈ v.set, |s - s'| ≤ r₀) (fun s k s' k' => ?_)
            fun j hj s k s' k' => ((hX j hj).2.2.2 s k s' k').trans (hδr₀.trans (min_le_left _ _))
          have := (hs s).mp k; have := (hs s').mp k'
          exact (abs_le.mpr ⟨by linarith, by linarith⟩ : |s - s'| ≤ δ).trans (hδr₀.trans (min_le_left _ _))
      obtain ⟨-, s0, t0, h1, h2, -, h3⟩ := C62_integral_safe_partial (s := ⟨Bits.none, Bits.none⟩) hsafe
        (fun j hj => (hX j hj).1) hne hl.in hl.all_in (by rw [q1])
      have h4 := (h3 c hc).2.2
      rw [hasValue_unique h1 hx, hasValue_unique h2 (hl.last hne)] at h4
      exact h4
    have h1 : K * (δ + φ.relUnit) * W ≤ K * W * (δ + l.length * φ.relUnit) := by
      have : K * W * (δ + φ.relUnit) ≤ K * W * (δ + l.length * φ.relUnit) :=
        mul_le_mul_of_nonneg_left (by linarith) (by positivity)
      linarith
    have h2 : l.length * φ.relUnit * C3 ≤ C3 * (δ + l.length * φ.relUnit) := by
      have := mul_nonneg C30.le hδ
      linarith
    have h3 : 0 ≤ K * W * (δ + l.length * φ.relUnit) := by positivity
    linarith
  · intro p h1 h2 h3 h4
    have hu := up p h1 h2 h3 h4
    obtain ⟨k1, k2⟩ := N2 φ e2 m2 (Function.update X i p) (fun j => (hu j).1) (fun j => (hu j).2.1) (fun j => (hu j).2.2.1)
      (fun j s hs s' hs' => ((hu j).2.2.2 s hs s' hs').trans d2)
    refine ⟨?_, k2, fun c hc m hm v hv => ?_⟩
    · exact (evalD_ok62 e fun j => (hu j).1).1
    · rw [DItv.set, k1] at hv
      have := N1 φ e1 m1 (fun j => (Function.update X i p j).itv) (fun j => (hu j).1.1) (fun j => (hu j).2.2.1) δ hδ d1
        (fun j => (hu j).2.2.2) (Function.update c i m) (fun j => ?_) v hv
      · refine this.trans (mul_le_mul_of_nonneg_right (le_max_left _ _) (by linarith))
      · by_cases hj : j = i
        · subst hj; rw [Function.update_self, Function.update_self]; exact hm
        · rw [Function.update_of_ne hj, Function.update_of_ne hj]; exact hc j hj
  · intro c hc
    refine ⟨fun t ht => ?_, fun t ht => hb _ (inb c hc t ht)⟩
    have hu : ContinuousAt (fun t : ℝ => Function.update c i t) t := (continuous_const.update i continuous_id).continuousAt
    exact (ContinuousAt.comp (f := fun t : ℝ => Function.update c i t) (g := e.val) (continuousAt_of_tame (h _ (inb c hc t ht))) hu).continuousWithinAt
  · rw [le_div_iff₀ C30] at n4
    exact n4

/-! ### Any accuracy can be reached -/

/-- The numbers `(α+1)/2^k, …, (α+n)/2^k`. -/
def dyadicGrid (k : ℕ) : ℤ → ℕ → List FP
  | _, 0 => []
  | α, n + 1 => .fin ((α + 1 : ℤ) / 2 ^ k) :: dyadicGrid k (α + 1) n

theorem dyadicGrid_length (k : ℕ) (α : ℤ) (n : ℕ) : (dyadicGrid k α n).length = n := by
  induction n generalizing α with
  | zero => rfl
  | succ n ih => rw [dyadicGrid, List.length_cons, ih]

theorem dyadicGrid_grid {k : ℕ} {α : ℤ} {n : ℕ} {N : ℕ} (hk : k ≤ φ.p) (hN : N < 2 ^ φ.p) (h1 : |α| ≤ N) (h2 : |α + n| ≤ N) :
    GridTo φ (1 / 2 ^ k) ((α + n : ℤ) / 2 ^ k) (.fin (α / 2 ^ k)) (dyadicGrid k α n) := by
  have rep : ∀ m : ℤ, |m| ≤ N → (FP.fin (m / 2 ^ k)).In φ := fun m hm =>
    ⟨m, -k, by rw [zpow_neg, zpow_natCast]; rfl, hm.trans_lt (by exact_mod_cast hN), by have := φ.qmin_le; omega,
      by have := φ.emax_ge; omega⟩
  induction n generalizing α with
  | zero => exact ⟨rep α h1, Or.inr ⟨_, rfl, by push_cast; simp⟩⟩
  | succ n ih =>
    have h3 : |α + 1| ≤ N := by
      rw [abs_le] at h1 h2 ⊢; push_cast at h2; constructor <;> omega
    have := ih h3 (by convert h2 using 2; push_cast; ring)
    refine ⟨rep α h1, ⟨α / 2 ^ k, (α + 1 : ℤ) / 2 ^ k, Or.inr ⟨_, rfl, by push_cast; rfl⟩, Or.inr ⟨_, rfl, by push_cast; rfl⟩, ?_, ?_⟩, ?_⟩
    · gcongr; simp
    · rw [← sub_div]; push_cast; simp
    · convert this using 2
      push_cast; ring

/-- **Integrals to any accuracy**: for every formula of one variable that is tame on `[α, β]` and every `η > 0` there is a number
of subdivisions such that in every format of sufficient precision and range the program delivers a result that contains the integral
and all of whose members are within `η` of the integral. -/
theorem C62_any_accuracy (e : Expr Unit) {α β : ℤ} (hαβ : α < β) (h : ∀ t : ℝ, α ≤ t → t ≤ β → e.TameAt fun _ => t) {η : ℝ} (hη : 0 < η) :
    ∃ (k p₀ : ℕ) (M : ℝ), ∀ φ : Fmt, p₀ ≤ φ.p → M ≤ φ.maxFin → ∀ X : Unit → DItv,
      ∃ q : Itv, Returns (quadrature φ e X () (.fin α) (dyadicGrid k (α * 2 ^ k) ((β - α).toNat * 2 ^ k))) (q, true) ∧
        (∫ t in (α:ℝ)..β, e.val fun _ => t) ∈ q.set ∧
        ∀ y ∈ q.set, |y - ∫ t in (α:ℝ)..β, e.val fun _ => t| ≤ η := by
  obtain ⟨K, r, M, hr, hN⟩ := C62_converges e () (a := fun _ => (α:ℝ)) (b := fun _ => (β:ℝ)) (fun t ht => by
    exact h (t ()) (ht ()).1 (ht ()).2)
  have hv : ∀ c : Unit → ℝ, (∫ t in (α:ℝ)..β, e.val (Function.update c () t)) = ∫ t in (α:ℝ)..β, e.val fun _ => t := by
    intro c; rfl
  set ρ := min r (η / (2 * (|K| + 1))) with hρd
  have hρ : 0 < ρ := lt_min hr (by positivity)
  obtain ⟨k, hk⟩ := exists_pow_lt_of_lt_one hρ (show (1 / 2 : ℝ) < 1 by norm_num)
  set n := (β - α).toNat * 2 ^ k with hnd
  obtain ⟨p₁, hp₁⟩ := exists_pow_lt_of_lt_one (show (0:ℝ) < ρ / (2 * n + 1) by positivity) (show (1 / 2 : ℝ) < 1 by norm_num)
  set N := (α.natAbs + β.natAbs) * 2 ^ k with hNd
  have hn1 : 1 ≤ n := Nat.one_le_iff_ne_zero.mpr (by
    rw [hnd]; exact Nat.mul_ne_zero (by omega) (by positivity))
  refine ⟨k, max (max k p₁) N, M, fun φ hp hM X => ?_⟩
  have k1 : k ≤ φ.p := (le_max_left _ _).trans ((le_max_left _ _).trans hp)
  have k2 : p₁ ≤ φ.p := (le_max_right _ _).trans ((le_max_left _ _).trans hp)
  have k3 : N < 2 ^ φ.p := lt_of_le_of_lt ((le_max_right _ _).trans hp) Nat.lt_two_pow_self
  have hend : α * 2 ^ k + (n : ℤ) = β * 2 ^ k := by
    rw [hnd]; push_cast
    rw [Int.toNat_of_nonneg (by omega)]; ring
  have hg := dyadicGrid_grid (φ := φ) (k := k) (α := α * 2 ^ k) (n := n) (N := N) k1 k3
    (by rw [abs_mul, abs_of_pos (show (0:ℤ) < 2 ^ k by positivity), hNd]; push_cast
        exact mul_le_mul_of_nonneg_right (le_add_of_nonneg_right (abs_nonneg _)) (by positivity))
    (by rw [hend, abs_mul, abs_of_pos (show (0:ℤ) < 2 ^ k by positivity), hNd]; push_cast
        exact mul_le_mul_of_nonneg_right (le_add_of_nonneg_left (abs_nonneg _)) (by positivity))
  have e1 : ((α * 2 ^ k : ℤ) : ℚ) / 2 ^ k = α := by push_cast; field_simp
  have e2 : (((α * 2 ^ k + n : ℤ)) : ℝ) / 2 ^ k = β := by rw [hend]; push_cast; field_simp
  rw [e1, e2] at hg
  have hlen := dyadicGrid_length k (α * 2 ^ k) n
  have hne : dyadicGrid k (α * 2 ^ k) n ≠ [] := fun h0 => by rw [h0] at hlen; simp at hlen; omega
  have hδ : (1:ℝ) / 2 ^ k ≤ ρ := by rw [one_div, ← inv_pow, ← one_div]; exact hk.le
  have hu : n * φ.relUnit ≤ ρ := by
    have h1 : φ.relUnit = 2 * (1 / 2) ^ φ.p := by
      unfold Fmt.relUnit
      rw [zpow_sub₀ (by norm_num), zpow_natCast, zpow_one]; rw [one_div, inv_pow]; rfl
    have h2 : ((1:ℝ) / 2) ^ φ.p ≤ ρ / (2 * n + 1) :=
      (pow_le_pow_of_le_one (by norm_num) (by norm_num) k2).trans hp₁.le
    rw [le_div_iff₀ (by positivity)] at h2
    have h3 : (0:ℝ) ≤ (1 / 2) ^ φ.p := by positivity
    rw [h1]; linarith
  obtain ⟨q, q1, q2, q3⟩ := hN φ hM X (.fin α) _ (1 / 2 ^ k) (by positivity) (hδ.trans (min_le_left _ _))
    (fun j hj => absurd (Subsingleton.elim j ()) hj) (Or.inr ⟨_, rfl, by push_cast; rfl⟩) hg hne (by rw [hlen]; exact hu.trans (min_le_left _ _))
  have q4 := q3 (fun _ => 0) fun j hj => absurd (Subsingleton.elim j ()) hj
  rw [hv] at q4
  refine ⟨q, q1, q4.1, fun y hy => ?_⟩
  · have := q4.2 y hy
    simp only [hlen] at this
    refine this.trans ?_
    have h1 : (1:ℝ) / 2 ^ k + n * φ.relUnit ≤ 2 * ρ := by linarith
    have h2 : ρ * (2 * (|K| + 1)) ≤ η := by
      rw [← le_div_iff₀ (by positivity)]; exact min_le_right _ _
    have h3 : K * (1 / 2 ^ k + n * φ.relUnit) ≤ |K| * (2 * ρ) :=
      mul_le_mul (le_abs_self K) h1 (by have := relUnit_pos (φ := φ); positivity) (abs_nonneg _)
    linarith

/-- Non-vacuity: `1 / (1 + x²)`-like formulas are tame everywhere, here `recip(exp(x) + sqr(x))` on `[-1, 2]`; a grid in `double`. -/
example : ∀ t : ℝ, ((-1:ℤ):ℝ) ≤ t → t ≤ ((2:ℤ):ℝ) →
    (Expr.un .recip (.bin .add (.un .exp (.var ())) (.un .sqr (.var ())))).TameAt fun _ => t := by
  intro t _ _
  refine ⟨⟨⟨trivial, trivial⟩, ⟨trivial, trivial⟩, trivial⟩, ?_⟩
  show Real.exp t + t ^ 2 ≠ 0
  have := Real.exp_pos t; positivity

example : GridTo binary64 (1 / 2 ^ 2) ((0 + 4 : ℤ) / 2 ^ 2) (.fin ((0:ℤ) / 2 ^ 2)) (dyadicGrid 2 0 4) ∧
    dyadicGrid 2 0 4 = [.fin (1 / 4), .fin (1 / 2), .fin (3 / 4), .fin 1] :=
  ⟨dyadicGrid_grid (N := 4) (by decide) (by norm_num [binary64]) (by norm_num) (by norm_num), by decide +kernel⟩

end P1788
