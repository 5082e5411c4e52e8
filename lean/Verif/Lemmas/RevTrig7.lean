import Verif.Lemmas.RevTrig5

/-! # The covering argument of `sin_rev` and `tan_rev` for arguments whose ends are near to solutions -/

namespace P1788
open Real

variable {φ : Fmt} {x : Itv} {S : Set ℝ}

theorem entire_ne (φ : Fmt) : Itv.NE φ Itv.entire :=
  ⟨by simp [Itv.entire], by simp [Itv.entire], by simp [Itv.entire], by simp [Itv.entire], by simp [Itv.entire], trivial, trivial⟩

theorem left_ends {B : ℤ → Set ℝ} {n : ℤ} {X Y : Itv} (hx : x.NE φ) (hX : X.NE φ) (hY : Y.NE φ)
    (hB : ∀ k, (B k).Nonempty) (hord : ∀ j k, j < k → ∀ s ∈ B j, ∀ t ∈ B k, s ≤ t)
    (hBX : B n ⊆ X.set) (hBY : B (n + 1) ⊆ Y.set) (hS : ∀ s ∈ S, s ∈ x.set ∧ ∃ k, n ≤ k ∧ s ∈ B k)
    (h2 : (X.set ∩ x.set).Nonempty ∨ ∃ t ∈ Y.set, x.lo.toE ≤ (t : EReal)) : LeftOf φ (X.firstOf Y x) x S := by
  rcases h2 with h2 | h2
  · obtain ⟨i1, j1⟩ := Itv.inter_ok_set hX.ok hx.ok
    have he : (X.inter x).isEmpty ≠ true := fun h => by
      rw [i1.isEmpty_iff.mp h] at j1
      rw [← j1] at h2; simp at h2
    have e : X.firstOf Y x = X.firstOf Itv.entire x := by unfold Itv.firstOf; rw [if_neg he, if_neg he]
    rw [e]
    have hn := hx.lo_top
    refine left_abstract hx hX (entire_ne φ) hB hord hBX (by simp) hS ?_
    obtain ⟨r, hr⟩ := hx.nonempty
    exact ⟨r, by simp, (hx.mem.mp hr).1⟩
  · exact left_abstract hx hX hY hB hord hBX hBY hS h2

theorem right_ends {B : ℤ → Set ℝ} {n : ℤ} {X Y : Itv} (hx : x.NE φ) (hX : X.NE φ) (hY : Y.NE φ)
    (hB : ∀ k, (B k).Nonempty) (hord : ∀ j k, j < k → ∀ s ∈ B j, ∀ t ∈ B k, s ≤ t)
    (hBX : B n ⊆ X.set) (hBY : B (n - 1) ⊆ Y.set) (hS : ∀ s ∈ S, s ∈ x.set ∧ ∃ k, k ≤ n ∧ s ∈ B k)
    (h2 : (X.set ∩ x.set).Nonempty ∨ ∃ t ∈ Y.set, (t : EReal) ≤ x.hi.toE) : RightOf φ (X.firstOf Y x) x S := by
  rcases h2 with h2 | h2
  · obtain ⟨i1, j1⟩ := Itv.inter_ok_set hX.ok hx.ok
    have he : (X.inter x).isEmpty ≠ true := fun h => by
      rw [i1.isEmpty_iff.mp h] at j1
      rw [← j1] at h2; simp at h2
    have e : X.firstOf Y x = X.firstOf Itv.entire x := by unfold Itv.firstOf; rw [if_neg he, if_neg he]
    rw [e]
    refine right_abstract hx hX (entire_ne φ) hB hord hBX (by simp) hS ?_
    obtain ⟨r, hr⟩ := hx.nonempty
    exact ⟨r, by simp, (hx.mem.mp hr).2⟩
  · exact right_abstract hx hX hY hB hord hBX hBY hS h2

/-! ## The bounds of pi are within one unit in the last place -/

theorem pi_near (φ : Fmt) : ∃ e : ℝ, 0 < e ∧ e * 2 ^ φ.p = 4 ∧ π - e ≤ ((φ.constPi .D).q : ℝ) ∧
    ((φ.constPi .U).q : ℝ) ≤ π + e := by
  have hp8 := φ.p_pos
  have hpl := pi_gt_three
  have hpu := pi_lt_d2
  have hmax := φ.four_le_maxFin
  have hP : (256:ℚ) ≤ 2 ^ φ.p := by
    calc (256:ℚ) = 2 ^ 8 := by norm_num
      _ ≤ _ := pow_le_pow_right₀ (by norm_num) hp8
  have hz : (0:ℝ) < (2:ℝ) ^ (2 - (φ.p:ℤ)) := zpow_pos (by norm_num) _
  have hPR : (256:ℝ) ≤ 2 ^ φ.p := by exact_mod_cast hP
  have he : (2:ℝ) ^ (2 - (φ.p:ℤ)) * 2 ^ φ.p = 4 := by
    rw [← zpow_natCast, ← zpow_add₀ (by norm_num)]; norm_num
  have rep : ∀ m : ℤ, 0 ≤ m → (m:ℝ) * 2 ^ (2 - (φ.p:ℤ)) ≤ 4 → φ.Rep ((m:ℚ) * 2 ^ (2 - (φ.p:ℤ))) := by
    intro m hm h4
    have hmP : (m:ℝ) ≤ 2 ^ φ.p := by
      by_contra hc; push Not at hc
      have : (2:ℝ) ^ φ.p * 2 ^ (2 - (φ.p:ℤ)) < m * 2 ^ (2 - (φ.p:ℤ)) := mul_lt_mul_of_pos_right hc hz
      linarith
    refine φ.rep_of_le ?_ (by have := φ.qmin_le; omega) ?_
    · rw [abs_of_nonneg hm]; exact_mod_cast hmP
    · have h4' : (m:ℚ) * 2 ^ (2 - (φ.p:ℤ)) ≤ 4 := by
        have : (((m:ℚ) * 2 ^ (2 - (φ.p:ℤ)) : ℚ) : ℝ) ≤ ((4:ℚ):ℝ) := by push_cast; exact h4
        exact_mod_cast this
      rw [abs_of_nonneg (mul_nonneg (by exact_mod_cast hm) (zpow_pos (by norm_num) _).le)]
      linarith
  refine ⟨_, hz, he, ?_, ?_⟩
  · have h1 := Int.floor_le (π / 2 ^ (2 - (φ.p:ℤ)))
    have h2 := Int.lt_floor_add_one (π / 2 ^ (2 - (φ.p:ℤ)))
    have h0 : 0 ≤ ⌊π / (2:ℝ) ^ (2 - (φ.p:ℤ))⌋ := Int.floor_nonneg.mpr (div_nonneg pi_pos.le hz.le)
    set m := ⌊π / (2:ℝ) ^ (2 - (φ.p:ℤ))⌋
    rw [le_div_iff₀ hz] at h1
    rw [div_lt_iff₀ hz] at h2
    have := φ.le_roundQ_D (rep m h0 (by linarith)) (x := π) (by push_cast; exact h1)
    rw [φ.pi_q]
    have := (Rat.cast_le (K := ℝ)).mpr this
    push_cast at this
    linarith
  · have h1 := Int.le_ceil (π / 2 ^ (2 - (φ.p:ℤ)))
    have h2 := Int.ceil_lt_add_one (π / 2 ^ (2 - (φ.p:ℤ)))
    have h0 : 0 ≤ ⌈π / (2:ℝ) ^ (2 - (φ.p:ℤ))⌉ := Int.ceil_nonneg (div_nonneg pi_pos.le hz.le)
    set m := ⌈π / (2:ℝ) ^ (2 - (φ.p:ℤ))⌉
    rw [div_le_iff₀ hz] at h1
    have h3 : (m:ℝ) * 2 ^ (2 - (φ.p:ℤ)) < π + 2 ^ (2 - (φ.p:ℤ)) := by
      have : (m:ℝ) * 2 ^ (2 - (φ.p:ℤ)) < (π / 2 ^ (2 - (φ.p:ℤ)) + 1) * 2 ^ (2 - (φ.p:ℤ)) := mul_lt_mul_of_pos_right h2 hz
      rw [add_mul, div_mul_cancel₀ _ hz.ne', one_mul] at this
      exact this
    have hz4 : (2:ℝ) ^ (2 - (φ.p:ℤ)) ≤ 1 / 64 := by nlinarith
    have := φ.roundQ_U_le (rep m h0 (by linarith)) (x := π) (by push_cast; exact h1)
    rw [φ.pi_q]
    have := (Rat.cast_le (K := ℝ)).mpr this
    push_cast at this
    linarith

/-- What the argument needs to know about the branches and the boxes computed for them. -/
structure Boxes (φ : Fmt) (box : ℤ → FP → FP → Itv) (B : ℤ → Set ℝ) : Prop where
  ne : ∀ k, (B k).Nonempty
  ord : ∀ j k, j < k → ∀ s ∈ B j, ∀ t ∈ B k, s ≤ t
  loc : ∀ k, ∀ t ∈ B k, |t - k * π| ≤ π / 2
  pos : ∀ k, 0 ≤ k → |k| ≤ 2 ^ φ.p - 2 → (box k (φ.constPi .D) (φ.constPi .U)).NE φ ∧
    B k ⊆ (box k (φ.constPi .D) (φ.constPi .U)).set
  neg : ∀ k, k ≤ 0 → |k| ≤ 2 ^ φ.p - 2 → (box k (φ.constPi .U) (φ.constPi .D)).NE φ ∧
    B k ⊆ (box k (φ.constPi .U) (φ.constPi .D)).set

variable {box : ℤ → FP → FP → Itv} {B : ℤ → Set ℝ}

/-- The drift of a multiple of a bound of pi is less than a quarter period. -/
theorem drift {φ : Fmt} {e : ℝ} {n : ℤ} {q : ℝ} (he : 0 < e) (hep : e * 2 ^ φ.p = 4) (hq : |q| ≤ 2 ^ φ.p)
    (hn : 3 * (|(n:ℝ)| - 1) ≤ |q|) : |(n:ℝ)| * e < π / 2 := by
  have hP : (256:ℝ) ≤ 2 ^ φ.p := by
    calc (256:ℝ) = 2 ^ 8 := by norm_num
      _ ≤ _ := pow_le_pow_right₀ (by norm_num) φ.p_pos
  have h1 : |(n:ℝ)| ≤ 2 ^ φ.p / 3 + 1 := by linarith
  have h2 : e ≤ 1 / 64 := by nlinarith
  have := pi_gt_three
  nlinarith [abs_nonneg (n:ℝ)]

theorem left_inf {S : Set ℝ} (hx : x.NE φ) (h0 : x.lo.feq .ninf = true) :
    LeftOf φ (φ.leftBox box x) x S := by
  obtain ⟨a1, a2⟩ := leftBox_any (sinBox_in .nan .nan) hx
  have e : φ.leftBox box x = φ.leftBox (φ.sinBox .nan .nan) x := by
    unfold Fmt.leftBox; rw [if_pos h0, if_pos h0]
  refine ⟨e ▸ a1, e ▸ a2, fun s _ => ⟨min s (-φ.maxFin : ℚ), ?_, min_le_left _ _⟩⟩
  have nL : Itv.NE φ ⟨.ninf, .fin (-φ.maxFin)⟩ :=
    ⟨by simp, by simp, by simp, by simp, by simp, trivial, φ.rep_maxFin.neg⟩
  unfold Fmt.leftBox
  rw [if_pos h0, nL.mem]
  refine ⟨by simp, ?_⟩
  simp only [FP.toE]
  exact EReal.coe_le_coe_iff.mpr (min_le_right _ _)

theorem right_inf {quo : ℚ → ℚ → ℤ} {S : Set ℝ} (hx : x.NE φ) (h0 : x.hi.feq .pinf = true) :
    RightOf φ (φ.rightBox quo box x) x S := by
  obtain ⟨a1, a2⟩ := rightBox_any (quo := quo) (sinBox_in .nan .nan) hx
  have e : φ.rightBox quo box x = φ.rightBox quo (φ.sinBox .nan .nan) x := by
    unfold Fmt.rightBox; rw [if_pos h0, if_pos h0]
  refine ⟨e ▸ a1, e ▸ a2, fun s _ => ⟨max s (φ.maxFin : ℚ), ?_, le_max_left _ _⟩⟩
  have nL : Itv.NE φ ⟨.fin φ.maxFin, .pinf⟩ :=
    ⟨by simp, by simp, by simp, by simp, by simp, φ.rep_maxFin, trivial⟩
  unfold Fmt.rightBox
  rw [if_pos h0, nL.mem]
  refine ⟨?_, by simp⟩
  simp only [FP.toE]
  exact EReal.coe_le_coe_iff.mpr (le_max_right _ _)

/-- The half period of the left end is that of the floor of the quotient or the next one. -/
theorem near_left {a f : ℝ} {n k : ℤ} (h : |a - k * π| ≤ π / 2) (h1 : n * π ≤ a) (h2 : a < (n + 1) * π + f) (hf : f < π / 2) :
    k = n ∨ k = n + 1 := by
  have hp := pi_pos
  obtain ⟨b1, b2⟩ := abs_le.mp h
  have c1 : n < k + 1 := by
    have : (n:ℝ) < k + 1 := by by_contra hc; push Not at hc; nlinarith
    exact_mod_cast this
  have c2 : k < n + 2 := by
    have : (k:ℝ) < n + 2 := by by_contra hc; push Not at hc; nlinarith
    exact_mod_cast this
  omega

theorem near_right {a f : ℝ} {n k : ℤ} (h : |a - k * π| ≤ π / 2) (h1 : a ≤ n * π) (h2 : (n - 1) * π - f < a) (hf : f < π / 2) :
    k = n ∨ k = n - 1 := by
  have hp := pi_pos
  obtain ⟨b1, b2⟩ := abs_le.mp h
  have c1 : k < n + 1 := by
    have : (k:ℝ) < n + 1 := by by_contra hc; push Not at hc; nlinarith
    exact_mod_cast this
  have c2 : n < k + 2 := by
    have : (n:ℝ) < k + 2 := by by_contra hc; push Not at hc; nlinarith
    exact_mod_cast this
  omega

theorem ulp_eq {φ : Fmt} {e : ℝ} (h : e * 2 ^ φ.p = 4) : (2:ℝ) ^ (2 - (φ.p:ℤ)) = e := by
  have h0 : (0:ℝ) < 2 ^ φ.p := by positivity
  rw [zpow_sub₀ (by norm_num), zpow_natCast, div_eq_iff h0.ne', h]; norm_num

/-! An end that follows (precedes) a multiple of pi by at most a quarter period, but not too closely: the code starts with the
right half period, and the next (previous) one lies on the other side of the end. -/

theorem clear_left_neg {a e P t : ℝ} {k n : ℤ} (hP : 0 ≤ P) (he : 0 ≤ e) (h1 : |a| * e ≤ a - k * π) (h2 : a - k * π ≤ π / 2) (ha : a < 0)
    (hn : a < (n + 1) * P) (hp : P ≤ π) (hd : π - e ≤ P) (ht : |t - ((n + 1 : ℤ) : ℝ) * π| ≤ π / 2) : a ≤ t := by
  have hpi := pi_gt_three
  push_cast at ht
  obtain ⟨t1, -⟩ := abs_le.mp ht
  rw [abs_of_neg ha] at h1
  have hkn : k ≤ n := by
    by_contra hc
    have hc' : (n:ℝ) + 1 ≤ k := by exact_mod_cast (by omega : n + 1 ≤ k)
    have k0 : (k:ℝ) * π < 0 := by nlinarith
    have k1 : (k:ℝ) < 0 := by by_contra h; push Not at h; nlinarith
    have k2 : (k:ℝ) ≤ -1 := by
      have : k < 0 := by exact_mod_cast k1
      exact_mod_cast (by omega : k ≤ -1)
    have k3 : -(k:ℝ) ≤ -a := by nlinarith
    have e1 : ((n:ℝ) + 1) * P ≤ k * P := mul_le_mul_of_nonneg_right hc' hP
    have e2 : (k:ℝ) * P ≤ k * (π - e) := by nlinarith
    have e3 : -(k:ℝ) * e ≤ -a * e := mul_le_mul_of_nonneg_right k3 he
    nlinarith
  have : (k:ℝ) ≤ n := by exact_mod_cast hkn
  nlinarith

theorem clear_left_pos {a e P t : ℝ} {k n : ℤ} (hP : 0 ≤ P) (he : 0 ≤ e) (h1 : |a| * e ≤ a - k * π) (h2 : a - k * π ≤ π / 2) (ha : 0 ≤ a)
    (h0 : (0:ℝ) ≤ n) (hn : a < (n + 1) * P) (hp : π ≤ P) (hd : P ≤ π + e) (ht : |t - ((n + 1 : ℤ) : ℝ) * π| ≤ π / 2) : a ≤ t := by
  have hpi := pi_gt_three
  push_cast at ht
  obtain ⟨t1, -⟩ := abs_le.mp ht
  rw [abs_of_nonneg ha] at h1
  have hkn : k ≤ n := by
    by_contra hc
    have hc' : (n:ℝ) + 1 ≤ k := by exact_mod_cast (by omega : n + 1 ≤ k)
    have k2 : (0:ℝ) ≤ k := by linarith
    have k3 : (k:ℝ) ≤ a := by nlinarith [mul_nonneg ha he]
    have e1 : ((n:ℝ) + 1) * P ≤ k * P := mul_le_mul_of_nonneg_right hc' hP
    have e2 : (k:ℝ) * P ≤ k * (π + e) := by nlinarith
    have e3 : (k:ℝ) * e ≤ a * e := mul_le_mul_of_nonneg_right k3 he
    nlinarith
  have : (k:ℝ) ≤ n := by exact_mod_cast hkn
  nlinarith

theorem clear_right_pos {a e P t : ℝ} {k n : ℤ} (hP : 0 ≤ P) (he : 0 ≤ e) (h1 : |a| * e ≤ k * π - a) (h2 : k * π - a ≤ π / 2) (ha : 0 < a)
    (hn : (n - 1) * P < a) (hp : P ≤ π) (hd : π - e ≤ P) (ht : |t - ((n - 1 : ℤ) : ℝ) * π| ≤ π / 2) : t ≤ a := by
  have := clear_left_neg (a := -a) (e := e) (P := P) (t := -t) (k := -k) (n := -n) hP he (by rw [abs_neg]; push_cast; linarith)
    (by push_cast; linarith) (by linarith) (by push_cast; linarith) hp hd (by
      rw [← abs_neg]; refine le_of_eq_of_le (congrArg _ ?_) ht; push_cast; ring)
  linarith

theorem clear_right_neg {a e P t : ℝ} {k n : ℤ} (hP : 0 ≤ P) (he : 0 ≤ e) (h1 : |a| * e ≤ k * π - a) (h2 : k * π - a ≤ π / 2) (ha : a ≤ 0)
    (h0 : (n:ℝ) ≤ 0) (hn : (n - 1) * P < a) (hp : π ≤ P) (hd : P ≤ π + e) (ht : |t - ((n - 1 : ℤ) : ℝ) * π| ≤ π / 2) : t ≤ a := by
  have := clear_left_pos (a := -a) (e := e) (P := P) (t := -t) (k := -k) (n := -n) hP he (by rw [abs_neg]; push_cast; linarith)
    (by push_cast; linarith) (by linarith) (by push_cast; linarith) (by push_cast; linarith) hp hd (by
      rw [← abs_neg]; refine le_of_eq_of_le (congrArg _ ?_) ht; push_cast; ring)
  linarith

theorem left_near (F : Boxes φ box B) (hx : x.NE φ) (hq : x.lo.toE ≠ ⊥ → RevSmall φ x.lo.q)
    (hS : ∀ s ∈ S, s ∈ x.set ∧ ∃ k : ℤ, s ∈ B k ∧ |s - k * π| ≤ π / 2)
    (hend : ∀ a : ℝ, x.lo.toE = (a:EReal) → (∃ s ∈ S, ∃ k : ℤ, s ∈ B k ∧ |a - k * π| ≤ π / 2) ∨
      ∃ k : ℤ, |a| * 2 ^ (2 - (φ.p:ℤ)) ≤ a - k * π ∧ a - k * π ≤ π / 2) :
    LeftOf φ (φ.leftBox box x) x S := by
  by_cases h0 : x.lo.feq .ninf = true
  · exact left_inf hx h0
  have hl := lo_fin hx h0
  obtain ⟨q1, q2⟩ := hq (by rw [hl]; simp)
  obtain ⟨e, he, hep, hd, hu⟩ := pi_near φ
  have hend' := hend _ hl
  rw [ulp_eq hep] at hend'
  have q1' : |(x.lo.q : ℝ)| ≤ 2 ^ φ.p := by exact_mod_cast q1
  have hmem : ∀ s ∈ S, (x.lo.q : ℝ) ≤ s := fun s hs => by
    have := (hx.mem.mp (hS s hs).1).1; rw [hl] at this; exact_mod_cast this
  have hpp := pi_pos
  unfold Fmt.leftBox
  rw [if_neg h0]
  by_cases hs : x.lo < .fin 0
  · rw [if_pos hs]
    have hneg : x.lo.q < 0 := by
      have := (NE.lt0_iff hx.lo_ne).mp hs; rw [hl] at this; exact_mod_cast this
    obtain ⟨f1, f2⟩ := floorQuo_spec φ.three_le_pid q2
    have h3 := φ.three_le_pid
    have h4 := φ.pid_le
    have hb : |floorQuo x.lo.q (φ.constPi .D).q| + 1 ≤ 2 ^ φ.p - 2 :=
      quo_bound h3 (RevSmall.mid ⟨q1, q2⟩).1 (by nlinarith) f2.le
    generalize floorQuo x.lo.q (φ.constPi .D).q = n at *
    have hn : n + 1 ≤ 0 := by
      have : (n:ℚ) < 0 := by nlinarith
      have : n < 0 := by exact_mod_cast this
      omega
    obtain ⟨a1, a2⟩ := F.neg n (by omega) (by omega)
    obtain ⟨b1, b2⟩ := F.neg (n + 1) hn (by rw [abs_of_nonpos hn]; rw [abs_of_nonpos (by omega)] at hb; omega)
    have hn' : (n:ℝ) + 1 ≤ 0 := by exact_mod_cast hn
    have g1 : (n:ℝ) * (φ.constPi .D).q ≤ x.lo.q := by exact_mod_cast f1
    have g2 : (x.lo.q:ℝ) < (n + 1) * (φ.constPi .D).q := by exact_mod_cast f2
    have hneg' : (x.lo.q:ℝ) < 0 := by exact_mod_cast hneg
    have h3' : (3:ℝ) ≤ (φ.constPi .D).q := by exact_mod_cast h3
    have hge : n * π ≤ (x.lo.q:ℝ) := by nlinarith
    refine left_ends hx a1 b1 F.ne F.ord a2 b2 (fun s hs => ⟨(hS s hs).1, ?_⟩) ?_
    · obtain ⟨k, hk, hr⟩ := (hS s hs).2
      exact ⟨k, (round_loc hr).1 (hge.trans (hmem s hs)), hk⟩
    · rcases hend' with ⟨s0, hs0, k0, hk0, hnear⟩ | ⟨k, hk1, hk2⟩
      swap
      · refine Or.inr ?_
        obtain ⟨t, ht⟩ := F.ne (n + 1)
        refine ⟨t, b2 ht, ?_⟩
        rw [hl]
        refine EReal.coe_le_coe_iff.mpr (clear_left_neg (by linarith) he.le hk1 hk2 hneg' g2 h4 hd (F.loc _ t ht))
      have hdr := drift (φ := φ) (n := n + 1) he hep q1' (by
        push_cast
        rw [abs_of_nonpos hn', abs_of_neg hneg']; nlinarith)
      push_cast at hdr
      rw [abs_of_nonpos hn'] at hdr
      rcases near_left hnear hge (f := -(n + 1) * e) (by nlinarith) hdr with rfl | rfl
      · exact Or.inl ⟨s0, a2 hk0, (hS s0 hs0).1⟩
      · exact Or.inr ⟨s0, b2 hk0, by rw [hl]; exact_mod_cast hmem s0 hs0⟩
  · rw [if_neg hs]
    have hpos : 0 ≤ x.lo.q := by
      by_contra hc
      exact hs ((NE.lt0_iff hx.lo_ne).mpr (by rw [hl]; exact_mod_cast not_le.mp hc))
    obtain ⟨f1, f2⟩ := floorQuo_spec φ.three_le_piu q2
    have h3 := φ.three_le_piu
    have h4 := φ.le_piu
    have hb : |floorQuo x.lo.q (φ.constPi .U).q| + 1 ≤ 2 ^ φ.p - 2 :=
      quo_bound h3 (RevSmall.mid ⟨q1, q2⟩).1 (by nlinarith) f2.le
    generalize floorQuo x.lo.q (φ.constPi .U).q = n at *
    have hn : 0 ≤ n := by
      have : (-1:ℚ) < n := by nlinarith
      have : -1 < n := by exact_mod_cast this
      omega
    obtain ⟨a1, a2⟩ := F.pos n (by omega) (by omega)
    obtain ⟨b1, b2⟩ := F.pos (n + 1) (by omega)
      (by rw [abs_of_nonneg (by omega)]; rw [abs_of_nonneg (by omega)] at hb; omega)
    have hn' : (0:ℝ) ≤ n := by exact_mod_cast hn
    have g1 : (n:ℝ) * (φ.constPi .U).q ≤ x.lo.q := by exact_mod_cast f1
    have g2 : (x.lo.q:ℝ) < (n + 1) * (φ.constPi .U).q := by exact_mod_cast f2
    have hpos' : (0:ℝ) ≤ x.lo.q := by exact_mod_cast hpos
    have h3' : (3:ℝ) ≤ (φ.constPi .U).q := by exact_mod_cast h3
    have hge : n * π ≤ (x.lo.q:ℝ) := by nlinarith
    refine left_ends hx a1 b1 F.ne F.ord a2 b2 (fun s hs => ⟨(hS s hs).1, ?_⟩) ?_
    · obtain ⟨k, hk, hr⟩ := (hS s hs).2
      exact ⟨k, (round_loc hr).1 (hge.trans (hmem s hs)), hk⟩
    · rcases hend' with ⟨s0, hs0, k0, hk0, hnear⟩ | ⟨k, hk1, hk2⟩
      swap
      · refine Or.inr ?_
        obtain ⟨t, ht⟩ := F.ne (n + 1)
        refine ⟨t, b2 ht, ?_⟩
        rw [hl]
        refine EReal.coe_le_coe_iff.mpr (clear_left_pos (by linarith) he.le hk1 hk2 hpos' hn' g2 h4 hu (F.loc _ t ht))
      have hdr := drift (φ := φ) (n := n + 1) he hep q1' (by
        push_cast
        rw [abs_of_nonneg (by linarith), abs_of_nonneg hpos']; nlinarith)
      push_cast at hdr
      rw [abs_of_nonneg (by linarith)] at hdr
      rcases near_left hnear hge (f := (n + 1) * e) (by nlinarith) hdr with rfl | rfl
      · exact Or.inl ⟨s0, a2 hk0, (hS s0 hs0).1⟩
      · exact Or.inr ⟨s0, b2 hk0, by rw [hl]; exact_mod_cast hmem s0 hs0⟩

theorem right_near (F : Boxes φ box B) (hx : x.NE φ) (hq : x.hi.toE ≠ ⊤ → RevSmall φ x.hi.q)
    (hS : ∀ s ∈ S, s ∈ x.set ∧ ∃ k : ℤ, s ∈ B k ∧ |s - k * π| ≤ π / 2)
    (hend : ∀ a : ℝ, x.hi.toE = (a:EReal) → (∃ s ∈ S, ∃ k : ℤ, s ∈ B k ∧ |a - k * π| ≤ π / 2) ∨
      ∃ k : ℤ, |a| * 2 ^ (2 - (φ.p:ℤ)) ≤ k * π - a ∧ k * π - a ≤ π / 2) :
    RightOf φ (φ.rightBox ceilQuo box x) x S := by
  by_cases h0 : x.hi.feq .pinf = true
  · exact right_inf hx h0
  have hl := hi_fin hx h0
  obtain ⟨q1, q2⟩ := hq (by rw [hl]; simp)
  obtain ⟨e, he, hep, hd, hu⟩ := pi_near φ
  have hend' := hend _ hl
  rw [ulp_eq hep] at hend'
  have q1' : |(x.hi.q : ℝ)| ≤ 2 ^ φ.p := by exact_mod_cast q1
  have hmem : ∀ s ∈ S, s ≤ (x.hi.q : ℝ) := fun s hs => by
    have := (hx.mem.mp (hS s hs).1).2; rw [hl] at this; exact_mod_cast this
  have hpp := pi_pos
  unfold Fmt.rightBox
  rw [if_neg h0]
  by_cases hs : .fin 0 < x.hi
  · rw [if_pos hs]
    have hpos : 0 < x.hi.q := by
      have := (NE.gt0_iff hx.hi_ne).mp hs; rw [hl] at this; exact_mod_cast this
    obtain ⟨f1, f2⟩ := ceilQuo_spec φ.three_le_pid q2
    have h3 := φ.three_le_pid
    have h4 := φ.pid_le
    have hb : |ceilQuo x.hi.q (φ.constPi .D).q| + 1 ≤ 2 ^ φ.p - 2 :=
      quo_bound h3 (RevSmall.mid ⟨q1, q2⟩).1 f1.le (by nlinarith)
    generalize ceilQuo x.hi.q (φ.constPi .D).q = n at *
    have hn : 0 < n := by
      have : (0:ℚ) < n := by nlinarith
      exact_mod_cast this
    obtain ⟨a1, a2⟩ := F.pos n (by omega) (by omega)
    obtain ⟨b1, b2⟩ := F.pos (n - 1) (by omega) (by
      rw [abs_of_nonneg (by omega)]; rw [abs_of_nonneg (by omega)] at hb; omega)
    have hn' : (1:ℝ) ≤ n := by exact_mod_cast hn
    have g1 : ((n:ℝ) - 1) * (φ.constPi .D).q < x.hi.q := by exact_mod_cast f1
    have g2 : (x.hi.q:ℝ) ≤ n * (φ.constPi .D).q := by exact_mod_cast f2
    have hpos' : (0:ℝ) < x.hi.q := by exact_mod_cast hpos
    have h3' : (3:ℝ) ≤ (φ.constPi .D).q := by exact_mod_cast h3
    have hle : (x.hi.q:ℝ) ≤ n * π := by nlinarith
    refine right_ends hx a1 b1 F.ne F.ord a2 b2 (fun s hs => ⟨(hS s hs).1, ?_⟩) ?_
    · obtain ⟨k, hk, hr⟩ := (hS s hs).2
      exact ⟨k, (round_loc hr).2 (by push_cast; rw [add_zero]; exact (hmem s hs).trans hle), hk⟩
    · rcases hend' with ⟨s0, hs0, k0, hk0, hnear⟩ | ⟨k, hk1, hk2⟩
      swap
      · refine Or.inr ?_
        obtain ⟨t, ht⟩ := F.ne (n - 1)
        refine ⟨t, b2 ht, ?_⟩
        rw [hl]
        refine EReal.coe_le_coe_iff.mpr (clear_right_pos (by linarith) he.le hk1 hk2 hpos' g1 h4 hd (F.loc _ t ht))
      have hdr := drift (φ := φ) (n := n - 1) he hep q1' (by
        push_cast
        rw [abs_of_nonneg (by linarith), abs_of_pos hpos']; nlinarith)
      push_cast at hdr
      rw [abs_of_nonneg (by linarith)] at hdr
      rcases near_right hnear hle (f := (n - 1) * e) (by nlinarith) hdr with rfl | rfl
      · exact Or.inl ⟨s0, a2 hk0, (hS s0 hs0).1⟩
      · exact Or.inr ⟨s0, b2 hk0, by rw [hl]; exact_mod_cast hmem s0 hs0⟩
  · rw [if_neg hs]
    have hneg : x.hi.q ≤ 0 := by
      by_contra hc
      exact hs ((NE.gt0_iff hx.hi_ne).mpr (by rw [hl]; exact_mod_cast not_le.mp hc))
    obtain ⟨f1, f2⟩ := ceilQuo_spec φ.three_le_piu q2
    have h3 := φ.three_le_piu
    have h4 := φ.le_piu
    have hb : |ceilQuo x.hi.q (φ.constPi .U).q| + 1 ≤ 2 ^ φ.p - 2 :=
      quo_bound h3 (RevSmall.mid ⟨q1, q2⟩).1 f1.le (by nlinarith)
    generalize ceilQuo x.hi.q (φ.constPi .U).q = n at *
    have hn : n ≤ 0 := by
      have : (n:ℚ) < 1 := by nlinarith
      have : n < 1 := by exact_mod_cast this
      omega
    obtain ⟨a1, a2⟩ := F.neg n (by omega) (by omega)
    obtain ⟨b1, b2⟩ := F.neg (n - 1) (by omega) (by
      rw [abs_of_nonpos (by omega)]; rw [abs_of_nonpos (by omega)] at hb; omega)
    have hn' : (n:ℝ) ≤ 0 := by exact_mod_cast hn
    have g1 : ((n:ℝ) - 1) * (φ.constPi .U).q < x.hi.q := by exact_mod_cast f1
    have g2 : (x.hi.q:ℝ) ≤ n * (φ.constPi .U).q := by exact_mod_cast f2
    have hneg' : (x.hi.q:ℝ) ≤ 0 := by exact_mod_cast hneg
    have h3' : (3:ℝ) ≤ (φ.constPi .U).q := by exact_mod_cast h3
    have hle : (x.hi.q:ℝ) ≤ n * π := by nlinarith
    refine right_ends hx a1 b1 F.ne F.ord a2 b2 (fun s hs => ⟨(hS s hs).1, ?_⟩) ?_
    · obtain ⟨k, hk, hr⟩ := (hS s hs).2
      exact ⟨k, (round_loc hr).2 (by push_cast; rw [add_zero]; exact (hmem s hs).trans hle), hk⟩
    · rcases hend' with ⟨s0, hs0, k0, hk0, hnear⟩ | ⟨k, hk1, hk2⟩
      swap
      · refine Or.inr ?_
        obtain ⟨t, ht⟩ := F.ne (n - 1)
        refine ⟨t, b2 ht, ?_⟩
        rw [hl]
        refine EReal.coe_le_coe_iff.mpr (clear_right_neg (by linarith) he.le hk1 hk2 hneg' hn' g1 h4 hu (F.loc _ t ht))
      have hdr := drift (φ := φ) (n := n - 1) he hep q1' (by
        push_cast
        rw [abs_of_nonpos (by linarith), abs_of_nonpos hneg']; nlinarith)
      push_cast at hdr
      rw [abs_of_nonpos (by linarith)] at hdr
      rcases near_right hnear hle (f := -(n - 1) * e) (by nlinarith) hdr with rfl | rfl
      · exact Or.inl ⟨s0, a2 hk0, (hS s0 hs0).1⟩
      · exact Or.inr ⟨s0, b2 hk0, by rw [hl]; exact_mod_cast hmem s0 hs0⟩

/-! ## The boxes of `sin_rev` and `tan_rev` -/

theorem Fmt.Enc.sub {X : Itv} {l u : ℝ} (h : φ.Enc X l u) {s : Set ℝ} (hne : s.Nonempty)
    (hs : ∀ t ∈ s, l ≤ t ∧ t ≤ u) : X.NE φ ∧ s ⊆ X.set := by
  have hlu : l ≤ u := by obtain ⟨t, ht⟩ := hne; exact (hs t ht).1.trans (hs t ht).2
  have hn := h.ne hlu
  refine ⟨hn, fun t ht => hn.mem.mpr ⟨h.lo_le.trans ?_, le_trans ?_ h.le_hi⟩⟩
  · exact EReal.coe_le_coe_iff.mpr (hs t ht).1
  · exact EReal.coe_le_coe_iff.mpr (hs t ht).2

variable {U : Set ℝ} {cl cu : FP}

theorem tan_boxes (hU : U.Nonempty) (h1 : ∀ u ∈ U, -(π / 2) ≤ u ∧ u ≤ π / 2)
    (h2 : ∀ u ∈ U, (cl.q : ℝ) ≤ u ∧ u ≤ cu.q) : Boxes φ (φ.tanBox cl cu) (tanBranch U) where
  ne k := by obtain ⟨u, hu⟩ := hU; exact ⟨_, u, hu, rfl⟩
  ord := ord_of (l := -(π / 2)) (by
    rintro k t ⟨u, hu, rfl⟩
    obtain ⟨a, b⟩ := h1 u hu
    constructor <;> nlinarith [pi_pos])
  loc := by
    rintro k t ⟨u, hu, rfl⟩
    obtain ⟨a, b⟩ := h1 u hu
    rw [abs_le]; constructor <;> linarith
  pos k hk hkp := by
    have hk' : (0:ℝ) ≤ k := by exact_mod_cast hk
    refine (Fmt.shift_enc (k := k) (a := φ.constPi .D) (b := φ.constPi .U) (by omega)).sub ?_ ?_
    · obtain ⟨u, hu⟩ := hU; exact ⟨_, u, hu, rfl⟩
    · rintro t ⟨u, hu, rfl⟩
      have := φ.pid_le
      have := φ.le_piu
      obtain ⟨a, b⟩ := h2 u hu
      constructor <;> nlinarith
  neg k hk hkp := by
    have hk' : (k:ℝ) ≤ 0 := by exact_mod_cast hk
    refine (Fmt.shift_enc (k := k) (a := φ.constPi .U) (b := φ.constPi .D) (by omega)).sub ?_ ?_
    · obtain ⟨u, hu⟩ := hU; exact ⟨_, u, hu, rfl⟩
    · rintro t ⟨u, hu, rfl⟩
      have := φ.pid_le
      have := φ.le_piu
      obtain ⟨a, b⟩ := h2 u hu
      constructor <;> nlinarith

theorem sin_boxes (hU : U.Nonempty) (h1 : ∀ u ∈ U, -(π / 2) ≤ u ∧ u ≤ π / 2)
    (h2 : ∀ u ∈ U, (cl.q : ℝ) ≤ u ∧ u ≤ cu.q) (hl2 : |cl.q| ≤ 2) (hu2 : |cu.q| ≤ 2) :
    Boxes φ (φ.sinBox cl cu) (sinBranch U) := by
  have hne : ∀ k, (sinBranch U k).Nonempty := fun k => by obtain ⟨u, hu⟩ := hU; exact ⟨_, u, hu, rfl⟩
  have hpd := φ.pid_le
  have hpu := φ.le_piu
  constructor
  · exact hne
  · refine ord_of (l := -(π / 2)) ?_
    rintro k t ⟨u, hu, rfl⟩
    obtain ⟨a, b⟩ := h1 u hu
    split_ifs <;> constructor <;> nlinarith [pi_pos]
  · rintro k t ⟨u, hu, rfl⟩
    obtain ⟨a, b⟩ := h1 u hu
    rw [abs_le]
    split_ifs <;> constructor <;> linarith
  · intro k hk hkp
    have hk' : (0:ℝ) ≤ k := by exact_mod_cast hk
    unfold Fmt.sinBox
    by_cases he : k % 2 = 0
    · rw [if_pos he]
      refine (Fmt.shift_enc (k := k) (a := φ.constPi .D) (b := φ.constPi .U) (by omega)).sub (hne k) ?_
      rintro t ⟨u, hu, rfl⟩
      rw [if_pos he]
      obtain ⟨a, b⟩ := h2 u hu
      constructor <;> nlinarith
    · rw [if_neg he]
      have hj : 1 ≤ |-k| := by rw [abs_neg]; exact Int.one_le_abs (by rintro rfl; simp at he)
      have hjq : (1:ℚ) ≤ |((-k : ℤ):ℚ)| := by exact_mod_cast hj
      refine (Fmt.mirror_enc (k := -k) (a := φ.constPi .D) (b := φ.constPi .U) (by rw [abs_neg]; omega)
        (Or.inr (big_of (C := 2) hj φ.three_le_pid hu2 (by push_cast at hjq ⊢; linarith)))
        (Or.inr (big_of (C := 2) hj φ.three_le_piu hl2 (by push_cast at hjq ⊢; linarith)))).sub (hne k) ?_
      rintro t ⟨u, hu, rfl⟩
      rw [if_neg he]
      obtain ⟨a, b⟩ := h2 u hu
      push_cast
      constructor <;> nlinarith
  · intro k hk hkp
    have hk' : (k:ℝ) ≤ 0 := by exact_mod_cast hk
    unfold Fmt.sinBox
    by_cases he : k % 2 = 0
    · rw [if_pos he]
      refine (Fmt.shift_enc (k := k) (a := φ.constPi .U) (b := φ.constPi .D) (by omega)).sub (hne k) ?_
      rintro t ⟨u, hu, rfl⟩
      rw [if_pos he]
      obtain ⟨a, b⟩ := h2 u hu
      constructor <;> nlinarith
    · rw [if_neg he]
      have hj : 1 ≤ |-k| := by rw [abs_neg]; exact Int.one_le_abs (by rintro rfl; simp at he)
      have hjq : (1:ℚ) ≤ |((-k : ℤ):ℚ)| := by exact_mod_cast hj
      refine (Fmt.mirror_enc (k := -k) (a := φ.constPi .U) (b := φ.constPi .D) (by rw [abs_neg]; omega)
        (Or.inr (big_of (C := 2) hj φ.three_le_piu hu2 (by push_cast at hjq ⊢; linarith)))
        (Or.inr (big_of (C := 2) hj φ.three_le_pid hl2 (by push_cast at hjq ⊢; linarith)))).sub (hne k) ?_
      rintro t ⟨u, hu, rfl⟩
      rw [if_neg he]
      obtain ⟨a, b⟩ := h2 u hu
      push_cast
      constructor <;> nlinarith

/-! ## A solution lies in the branch of every half period that contains it -/

theorem sin_half {C : Set ℝ} {s : ℝ} {k : ℤ} (hs : sin s ∈ C) (hr : |s - k * π| ≤ π / 2) :
    s ∈ sinBranch (arcsin '' (C ∩ Set.Icc (-1) 1)) k := by
  obtain ⟨a, b⟩ := abs_le.mp hr
  rcases Int.emod_two_eq_zero_or_one k with h | h
  · refine ⟨s - k * π, ⟨sin s, ⟨hs, neg_one_le_sin s, sin_le_one s⟩, ?_⟩, by rw [if_pos h]; ring⟩
    have : sin s = sin (s - k * π) := by
      obtain ⟨j, hj⟩ := Int.even_iff.mpr h
      rw [hj]; push_cast
      rw [show s - ((j:ℝ) + j) * π = s - j * (2 * π) by ring, sin_sub_int_mul_two_pi]
    rw [this, arcsin_sin (by linarith) (by linarith)]
  · refine ⟨k * π - s, ⟨sin s, ⟨hs, neg_one_le_sin s, sin_le_one s⟩, ?_⟩, by rw [if_neg (by omega)]; ring⟩
    have : sin s = sin (k * π - s) := by
      obtain ⟨j, hj⟩ := Int.odd_iff.mpr h
      rw [hj]; push_cast
      rw [show (2 * (j:ℝ) + 1) * π - s = (π - s) + j * (2 * π) by ring, sin_add_int_mul_two_pi, sin_pi_sub]
    rw [this, arcsin_sin (by linarith) (by linarith)]

theorem tan_half {C : Set ℝ} {s : ℝ} {k : ℤ} (hc : cos s ≠ 0) (hs : tan s ∈ C) (hr : |s - k * π| ≤ π / 2) :
    s ∈ tanBranch (arctan '' C) k := by
  obtain ⟨a, b⟩ := abs_le.mp hr
  have hc' : cos (s - k * π) ≠ 0 := by
    rw [cos_sub_int_mul_pi]; exact mul_ne_zero (zpow_ne_zero _ (by norm_num)) hc
  refine ⟨s - k * π, ⟨tan s, hs, ?_⟩, by ring⟩
  rw [← tan_sub_int_mul_pi s k]
  refine arctan_tan (lt_of_le_of_ne a ?_) (lt_of_le_of_ne b ?_)
  · intro h; rw [← h, cos_neg, cos_pi_div_two] at hc'; exact hc' rfl
  · intro h; rw [h, cos_pi_div_two] at hc'; exact hc' rfl

end P1788
