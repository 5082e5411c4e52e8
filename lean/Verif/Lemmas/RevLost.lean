import Verif.Lemmas.RevTrig7
import Verif.Lemmas.RevNear2

/-! # When `sin_rev` and `tan_rev` find nothing at an end of `x` -/

namespace P1788
open Real

variable {φ : Fmt} {x : Itv} {s M : ℝ} {box : ℤ → FP → FP → Itv} {B : ℤ → Set ℝ}

/-- Numbers beyond the range where the boxes are accurate. -/
def Far (φ : Fmt) : Set ℝ := {t | 4 / 5 * 2 ^ φ.p ≤ |t|}

/-- Each point of the `k`-th box is near a solution of the `k`-th branch. -/
def BoxLoc (φ : Fmt) (box : ℤ → FP → FP → Itv) (B : ℤ → Set ℝ) : Prop :=
  ∀ (k : ℤ) (a b : FP), ((|k| + 1 : ℤ) : ℚ) ≤ φ.maxFin → IsPi φ a → IsPi φ b →
    ∀ s : ℝ, (box k a b).lo.toE ≤ (s:EReal) → (s:EReal) ≤ (box k a b).hi.toE → NearS φ (B k ∪ Far φ) s

theorem near_far : ∀ s, 4 / 5 * 2 ^ φ.p ≤ |s| → ∀ T : Set ℝ, NearS φ (T ∪ Far φ) s := fun s hs T =>
  ⟨s, Or.inr hs, by
    have := (unit_facts φ).1
    simp only [sub_self, abs_zero]
    positivity⟩

theorem NearS.drop {T : Set ℝ} (h : NearS φ (T ∪ Far φ) s) (hs : |s| ≤ M) (hM : M ≤ 2 ^ φ.p / 2) :
    ∃ t ∈ T, |t - s| ≤ 4 * uu φ * (M + 5) := by
  obtain ⟨u0, hu1, hup, -⟩ := unit_facts φ
  obtain ⟨t, ht, hd⟩ := h
  have hd' : |t - s| ≤ 4 * uu φ * (M + 5) := hd.trans (mul_le_mul_of_nonneg_left (by linarith) (by linarith))
  refine ⟨t, ht.resolve_right fun hf => ?_, hd'⟩
  have hf' : 4 / 5 * 2 ^ φ.p ≤ |t| := hf
  have h1 : |t| ≤ |t - s| + |s| := by
    calc |t| = |(t - s) + s| := by ring_nf
      _ ≤ _ := abs_add_le _ _
  have hP : (256:ℝ) ≤ 2 ^ φ.p := by
    calc (256:ℝ) = 2 ^ 8 := by norm_num
      _ ≤ _ := pow_le_pow_right₀ (by norm_num) φ.p_pos
  have h2 : 4 * uu φ * (M + 5) ≤ 3 := by
    have : uu φ * M ≤ uu φ * (2 ^ φ.p / 2) := mul_le_mul_of_nonneg_left hM u0.le
    nlinarith
  linarith

/-- Bounds of the quotient. -/
theorem quo_range {P e : ℝ} {n : ℤ} (hn : |P - π| ≤ e) (hM : |(n:ℝ)| ≤ M + 5) : |n * P - n * π| ≤ e * (M + 5) := by
  have e0 : 0 ≤ e := (abs_nonneg _).trans hn
  rw [← mul_sub, abs_mul, mul_comm]
  exact mul_le_mul hn hM (abs_nonneg _) e0

theorem abs_le_of_mul {n : ℤ} {q : ℝ} (h1 : (n - 1) * π ≤ q) (h2 : q ≤ (n + 1) * π) (hq : |q| ≤ M) : |(n:ℝ)| ≤ M + 5 := by
  have hpi := pi_gt_three
  obtain ⟨a1, a2⟩ := abs_le.mp hq
  have : 0 ≤ M := (abs_nonneg _).trans hq
  rw [abs_le]
  constructor
  · by_contra hc; push Not at hc; nlinarith
  · by_contra hc; push Not at hc; nlinarith

theorem abs_le_of_mul' {n : ℤ} {P q : ℝ} (h3 : 3 ≤ P) (h1 : (n - 1) * P ≤ q) (h2 : q ≤ (n + 1) * P) (hq : |q| ≤ M) : |(n:ℝ)| ≤ M + 5 := by
  obtain ⟨a1, a2⟩ := abs_le.mp hq
  have : 0 ≤ M := (abs_nonneg _).trans hq
  rw [abs_le]
  constructor
  · by_contra hc; push Not at hc; nlinarith
  · by_contra hc; push Not at hc; nlinarith

/-- The numbers of `x` are at most `M` in absolute value. -/
theorem abs_le_of_mem (hx : x.NE φ) (hl : x.lo.toE = ((x.lo.q:ℝ):EReal)) (hh : x.hi.toE = ((x.hi.q:ℝ):EReal))
    (ha : |(x.lo.q:ℝ)| ≤ M) (hb : |(x.hi.q:ℝ)| ≤ M) (hs : s ∈ x.set) : |s| ≤ M ∧ (x.lo.q:ℝ) ≤ s ∧ s ≤ x.hi.q := by
  obtain ⟨h1, h2⟩ := hx.mem.mp hs
  rw [hl] at h1
  rw [hh] at h2
  have h1 := EReal.coe_le_coe_iff.mp h1
  have h2 := EReal.coe_le_coe_iff.mp h2
  exact ⟨abs_le.mpr ⟨by linarith [(abs_le.mp ha).1], by linarith [(abs_le.mp hb).2]⟩, h1, h2⟩

/-- The intersection of one box with `x` is near its branch. -/
theorem box_near (hb : BoxIn φ box) (hN : BoxLoc φ box B) (hx : x.NE φ) (hl : x.lo.toE = ((x.lo.q:ℝ):EReal))
    (hh : x.hi.toE = ((x.hi.q:ℝ):EReal)) (hA : |(x.lo.q:ℝ)| ≤ M) (hB : |(x.hi.q:ℝ)| ≤ M) (hM : M ≤ 2 ^ φ.p / 2) {k : ℤ} {a b : FP}
    (hk : ((|k| + 1 : ℤ) : ℚ) ≤ φ.maxFin) (ha : IsPi φ a) (hb' : IsPi φ b) :
    ∀ s ∈ ((box k a b).inter x).set, ((x.lo.q:ℝ) ≤ s ∧ s ≤ x.hi.q) ∧ ∃ t ∈ B k, |t - s| ≤ 4 * uu φ * (M + 5) := by
  intro s hs
  have hsx := (inter_any (hb k a b).1 (hb k a b).2 hx.ok).2 hs
  obtain ⟨h1, h2⟩ := abs_le_of_mem hx hl hh hA hB hsx
  exact ⟨h2, (inter_within (hb k a b) hx (Y := {s | NearS φ (B k ∪ Far φ) s}) (hN k a b hk ha hb') hs).drop h1 hM⟩

/-- Nothing is found at the lower end. -/
theorem left_lost (hb : BoxIn φ box) (hN : BoxLoc φ box B) (hx : x.NE φ) (hl : x.lo.toE = ((x.lo.q:ℝ):EReal))
    (hh : x.hi.toE = ((x.hi.q:ℝ):EReal)) (hA : |(x.lo.q:ℝ)| ≤ M) (hB : |(x.hi.q:ℝ)| ≤ M) (hM : M ≤ 2 ^ φ.p / 2) (hM2 : M ≤ 2 ^ 64)
    {k : ℤ} (h1 : k * π + 4 * uu φ * (M + 5) ≤ x.lo.q) (h2 : x.lo.q + 4 * uu φ * (M + 5) < (k + 1) * π)
    (hk : ∀ t ∈ B k, t + 4 * uu φ * (M + 5) < x.lo.q) (hk1 : ∀ t ∈ B (k + 1), t + 4 * uu φ * (M + 5) < x.lo.q) :
    (φ.leftBox box x).set = ∅ := by
  have u0 := (unit_facts φ).1
  have hM0 : 0 ≤ M := (abs_nonneg _).trans hA
  have hpos : 0 ≤ 4 * uu φ * (M + 5) := by positivity
  have pD := isPi (φ := φ) .D (Or.inl rfl)
  have pU := isPi (φ := φ) .U (Or.inr rfl)
  have hpi := pi_pos
  have hk0 : |(k:ℝ)| ≤ M + 5 := abs_le_of_mul (q := x.lo.q) (by nlinarith) (by linarith) hA
  have hk2 : |(((k + 1 : ℤ)):ℝ)| ≤ M + 5 := abs_le_of_mul (q := x.lo.q) (by push_cast; linarith) (by push_cast; nlinarith) hA
  have quo : ∀ {P : FP}, IsPi φ P → floorQuo x.lo.q P.q = k := by
    intro P hP
    have c1 := abs_le.mp (quo_range hP.near hk0)
    have c2 := abs_le.mp (quo_range hP.near hk2)
    push_cast at c2
    refine floorQuo_eq hP.three ?_ ?_ ?_
    · have : |(x.lo.q:ℝ)| ≤ 2 ^ 64 := hA.trans hM2
      exact_mod_cast this
    · have : (k:ℝ) * P.q ≤ x.lo.q := by linarith
      exact_mod_cast this
    · have : (x.lo.q:ℝ) < (k + 1) * P.q := by linarith
      exact_mod_cast this
  have h0 : ¬ x.lo.feq .ninf = true := by
    intro h
    rw [Itv.feq_ninf, decide_eq_true_eq] at h
    rw [h] at hl
    simp [FP.toE] at hl
  have hq := in_abs hx.lo_in
  have key : ∀ {P : FP}, IsPi φ P → ∀ {a b : FP}, IsPi φ a → IsPi φ b →
      ((box (floorQuo x.lo.q P.q) a b).firstOf (box (floorQuo x.lo.q P.q + 1) a b) x).set = ∅ := by
    intro P hP a b ha hb'
    obtain ⟨m1, m2, -⟩ := mult_small floor_small hP.three hq
    rw [quo hP] at m1 m2 ⊢
    refine Set.eq_empty_of_subset_empty (firstOf_sub (Y := ∅) ?_ ?_)
    · intro s hs
      obtain ⟨⟨g1, g2⟩, t, ht, hd⟩ := box_near hb hN hx hl hh hA hB hM m1 ha hb' s hs
      have := hk t ht
      have := (abs_le.mp hd).1
      linarith
    · intro s hs
      obtain ⟨⟨g1, g2⟩, t, ht, hd⟩ := box_near hb hN hx hl hh hA hB hM m2 ha hb' s hs
      have := hk1 t ht
      have := (abs_le.mp hd).1
      linarith
  unfold Fmt.leftBox
  rw [if_neg h0]
  split_ifs
  · exact key pD pU pD
  · exact key pU pD pU

/-- Nothing is found at the upper end. -/
theorem right_lost (hb : BoxIn φ box) (hN : BoxLoc φ box B) (hx : x.NE φ) (hl : x.lo.toE = ((x.lo.q:ℝ):EReal))
    (hh : x.hi.toE = ((x.hi.q:ℝ):EReal)) (hA : |(x.lo.q:ℝ)| ≤ M) (hB : |(x.hi.q:ℝ)| ≤ M) (hM : M ≤ 2 ^ φ.p / 2) (hM2 : M ≤ 2 ^ 64)
    {k : ℤ} (h1 : (k - 1) * π + 4 * uu φ * (M + 5) < x.hi.q) (h2 : x.hi.q + 4 * uu φ * (M + 5) ≤ k * π)
    (hk : ∀ t ∈ B k, x.hi.q + 4 * uu φ * (M + 5) < t) (hk1 : ∀ t ∈ B (k - 1), x.hi.q + 4 * uu φ * (M + 5) < t) :
    (φ.rightBox ceilQuo box x).set = ∅ := by
  have u0 := (unit_facts φ).1
  have hM0 : 0 ≤ M := (abs_nonneg _).trans hA
  have hpos : 0 ≤ 4 * uu φ * (M + 5) := by positivity
  have pD := isPi (φ := φ) .D (Or.inl rfl)
  have pU := isPi (φ := φ) .U (Or.inr rfl)
  have hpi := pi_pos
  have hk0 : |(k:ℝ)| ≤ M + 5 := abs_le_of_mul (q := x.hi.q) (by linarith) (by nlinarith) hB
  have hk2 : |(((k - 1 : ℤ)):ℝ)| ≤ M + 5 := abs_le_of_mul (q := x.hi.q) (by push_cast; nlinarith) (by push_cast; linarith) hB
  have quo : ∀ {P : FP}, IsPi φ P → ceilQuo x.hi.q P.q = k := by
    intro P hP
    have c1 := abs_le.mp (quo_range hP.near hk0)
    have c2 := abs_le.mp (quo_range hP.near hk2)
    push_cast at c2
    refine ceilQuo_eq hP.three ?_ ?_ ?_
    · have : |(x.hi.q:ℝ)| ≤ 2 ^ 64 := hB.trans hM2
      exact_mod_cast this
    · have : ((k:ℝ) - 1) * P.q < x.hi.q := by linarith
      exact_mod_cast this
    · have : (x.hi.q:ℝ) ≤ k * P.q := by linarith
      exact_mod_cast this
  have h0 : ¬ x.hi.feq .pinf = true := by
    intro h
    rw [Itv.feq_pinf, decide_eq_true_eq] at h
    rw [h] at hh
    simp [FP.toE] at hh
  have hq := in_abs hx.hi_in
  have key : ∀ {P : FP}, IsPi φ P → ∀ {a b : FP}, IsPi φ a → IsPi φ b →
      ((box (ceilQuo x.hi.q P.q) a b).firstOf (box (ceilQuo x.hi.q P.q - 1) a b) x).set = ∅ := by
    intro P hP a b ha hb'
    obtain ⟨m1, -, m2⟩ := mult_small ceil_small hP.three hq
    rw [quo hP] at m1 m2 ⊢
    refine Set.eq_empty_of_subset_empty (firstOf_sub (Y := ∅) ?_ ?_)
    · intro s hs
      obtain ⟨⟨g1, g2⟩, t, ht, hd⟩ := box_near hb hN hx hl hh hA hB hM m1 ha hb' s hs
      have := hk t ht
      have := (abs_le.mp hd).2
      linarith
    · intro s hs
      obtain ⟨⟨g1, g2⟩, t, ht, hd⟩ := box_near hb hN hx hl hh hA hB hM m2 ha hb' s hs
      have := hk1 t ht
      have := (abs_le.mp hd).2
      linarith
  unfold Fmt.rightBox
  rw [if_neg h0]
  split_ifs
  · exact key pD pD pU
  · exact key pU pU pD

/-- What is found at the upper end is near it. -/
theorem right_close (hb : BoxIn φ box) (hN : BoxLoc φ box B) (hloc : ∀ k, ∀ t ∈ B k, |t - k * π| ≤ π / 2) (hx : x.NE φ)
    (hl : x.lo.toE = ((x.lo.q:ℝ):EReal)) (hh : x.hi.toE = ((x.hi.q:ℝ):EReal)) (hA : |(x.lo.q:ℝ)| ≤ M) (hB : |(x.hi.q:ℝ)| ≤ M)
    (hM : M ≤ 2 ^ φ.p / 2) (hM2 : M ≤ 2 ^ 64) :
    ∀ s ∈ (φ.rightBox ceilQuo box x).set, x.hi.q - 3 / 2 * π - 8 * uu φ * (M + 5) ≤ s := by
  have pD := isPi (φ := φ) .D (Or.inl rfl)
  have pU := isPi (φ := φ) .U (Or.inr rfl)
  have hpi := pi_pos
  have h0 : ¬ x.hi.feq .pinf = true := by
    intro h
    rw [Itv.feq_pinf, decide_eq_true_eq] at h
    rw [h] at hh
    simp [FP.toE] at hh
  have hq := in_abs hx.hi_in
  have hq2 : |x.hi.q| ≤ 2 ^ 64 := by
    have : |(x.hi.q:ℝ)| ≤ 2 ^ 64 := hB.trans hM2
    exact_mod_cast this
  have key : ∀ {P : FP}, IsPi φ P → ∀ {a b : FP}, IsPi φ a → IsPi φ b →
      ((box (ceilQuo x.hi.q P.q) a b).firstOf (box (ceilQuo x.hi.q P.q - 1) a b) x).set ⊆
        {s | x.hi.q - 3 / 2 * π - 8 * uu φ * (M + 5) ≤ s} := by
    intro P hP a b ha hb'
    obtain ⟨m1, -, m2⟩ := mult_small ceil_small hP.three hq
    obtain ⟨f1, f2⟩ := ceilQuo_spec hP.three hq2
    have f1' : ((ceilQuo x.hi.q P.q : ℝ) - 1) * P.q < x.hi.q := by exact_mod_cast f1
    have f2' : (x.hi.q : ℝ) ≤ ceilQuo x.hi.q P.q * P.q := by exact_mod_cast f2
    have h3 : (3:ℝ) ≤ P.q := by exact_mod_cast hP.three
    have hn := abs_le_of_mul' h3 f1'.le (f2'.trans (by nlinarith)) hB
    have c1 := (abs_le.mp (quo_range hP.near hn)).2
    refine firstOf_sub ?_ ?_
    · intro s hs
      obtain ⟨⟨g1, g2⟩, t, ht, hd⟩ := box_near hb hN hx hl hh hA hB hM m1 ha hb' s hs
      have e1 := (abs_le.mp (hloc _ t ht)).1
      have e2 := (abs_le.mp hd).2
      show _ ≤ s
      linarith
    · intro s hs
      obtain ⟨⟨g1, g2⟩, t, ht, hd⟩ := box_near hb hN hx hl hh hA hB hM m2 ha hb' s hs
      have e1 := (abs_le.mp (hloc _ t ht)).1
      have e2 := (abs_le.mp hd).2
      push_cast at e1
      show _ ≤ s
      linarith
  unfold Fmt.rightBox
  rw [if_neg h0]
  split_ifs
  · exact key pD pD pU
  · exact key pU pU pD

/-- What is found at the lower end is near it. -/
theorem left_close (hb : BoxIn φ box) (hN : BoxLoc φ box B) (hloc : ∀ k, ∀ t ∈ B k, |t - k * π| ≤ π / 2) (hx : x.NE φ)
    (hl : x.lo.toE = ((x.lo.q:ℝ):EReal)) (hh : x.hi.toE = ((x.hi.q:ℝ):EReal)) (hA : |(x.lo.q:ℝ)| ≤ M) (hB : |(x.hi.q:ℝ)| ≤ M)
    (hM : M ≤ 2 ^ φ.p / 2) (hM2 : M ≤ 2 ^ 64) :
    ∀ s ∈ (φ.leftBox box x).set, s ≤ x.lo.q + 3 / 2 * π + 8 * uu φ * (M + 5) := by
  have pD := isPi (φ := φ) .D (Or.inl rfl)
  have pU := isPi (φ := φ) .U (Or.inr rfl)
  have hpi := pi_pos
  have h0 : ¬ x.lo.feq .ninf = true := by
    intro h
    rw [Itv.feq_ninf, decide_eq_true_eq] at h
    rw [h] at hl
    simp [FP.toE] at hl
  have hq := in_abs hx.lo_in
  have hq2 : |x.lo.q| ≤ 2 ^ 64 := by
    have : |(x.lo.q:ℝ)| ≤ 2 ^ 64 := hA.trans hM2
    exact_mod_cast this
  have key : ∀ {P : FP}, IsPi φ P → ∀ {a b : FP}, IsPi φ a → IsPi φ b →
      ((box (floorQuo x.lo.q P.q) a b).firstOf (box (floorQuo x.lo.q P.q + 1) a b) x).set ⊆
        {s | s ≤ x.lo.q + 3 / 2 * π + 8 * uu φ * (M + 5)} := by
    intro P hP a b ha hb'
    obtain ⟨m1, m2, -⟩ := mult_small floor_small hP.three hq
    obtain ⟨f1, f2⟩ := floorQuo_spec hP.three hq2
    have f1' : (floorQuo x.lo.q P.q : ℝ) * P.q ≤ x.lo.q := by exact_mod_cast f1
    have f2' : (x.lo.q : ℝ) < (floorQuo x.lo.q P.q + 1) * P.q := by exact_mod_cast f2
    have h3 : (3:ℝ) ≤ P.q := by exact_mod_cast hP.three
    have hn := abs_le_of_mul' h3 (le_trans (by nlinarith) f1') f2'.le hA
    have c1 := (abs_le.mp (quo_range hP.near hn)).1
    refine firstOf_sub ?_ ?_
    · intro s hs
      obtain ⟨⟨g1, g2⟩, t, ht, hd⟩ := box_near hb hN hx hl hh hA hB hM m1 ha hb' s hs
      have e1 := (abs_le.mp (hloc _ t ht)).2
      have e2 := (abs_le.mp hd).1
      show s ≤ _
      linarith
    · intro s hs
      obtain ⟨⟨g1, g2⟩, t, ht, hd⟩ := box_near hb hN hx hl hh hA hB hM m2 ha hb' s hs
      have e1 := (abs_le.mp (hloc _ t ht)).2
      have e2 := (abs_le.mp hd).1
      push_cast at e1
      show s ≤ _
      linarith
  unfold Fmt.leftBox
  rw [if_neg h0]
  split_ifs
  · exact key pD pU pD
  · exact key pU pD pU

theorem hull_lost_l {L R : Itv} (hL : L.Ok φ) (hR : R.Ok φ) (h : L.set = ∅) : L.hull R = R := by
  rcases hL.cases with rfl | nL
  · simp [Itv.hull, hR.isValid]
  · exact absurd h nL.nonempty.ne_empty

theorem hull_lost_r {L R : Itv} (hL : L.Ok φ) (hR : R.Ok φ) (h : R.set = ∅) : L.hull R = L := by
  rcases hR.cases with rfl | nR
  · rcases hL.cases with rfl | nL
    · simp [Itv.hull]
    · simp [Itv.hull, hL.isValid, nL.isEmpty]
  · exact absurd h nR.nonempty.ne_empty

end P1788
