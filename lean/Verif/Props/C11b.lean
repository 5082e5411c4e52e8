import Verif.Lemmas.Ops
import Verif.Lemmas.Near
import Verif.Props.C28

/-!
# C11, second part: the tangent is the tightest enclosure

In `float` and x87 `long double` without restriction; in `double` outside the bad intervals.
-/

namespace P1788
variable {φ : Fmt} {x : Itv}
open Real

/-- Numbers of size `2^j` or more are multiples of `2^(j+1-p)`. -/
theorem mult_of_ge {f : ℚ} (hf : φ.Rep f) {j : ℤ} (hj : 0 ≤ j) (h : (2:ℝ) ^ j ≤ |(f:ℝ)|) :
    ∃ m : ℤ, (f:ℝ) = m * 2 ^ (j + 1 - (φ.p:ℤ)) := by
  have hpos := two_zpow_posR j
  have hl : Int.log 2 |(2:ℝ) ^ j| = j := by
    rw [abs_of_pos hpos]
    exact_mod_cast Int.log_zpow (R := ℝ) (b := 2) (by norm_num) j
  have he : φ.expo ((2:ℝ) ^ j) = j + 1 - (φ.p:ℤ) := by
    unfold Fmt.expo
    rw [hl, max_eq_left (by have := φ.qmin_le; have := φ.p_pos; omega)]; ring
  obtain ⟨m, hm⟩ := φ.exists_mult hf (x := (2:ℝ) ^ j) (Or.inr (by rw [hl]; exact h))
  rw [he] at hm
  exact ⟨m, by rw [hm]; push_cast; rfl⟩

/-- What is needed of a format: its `RD(π)` is `2k·2^(1-p)`, and numbers close to the poles `π/2` and `3π/2` are not too close. -/
structure PoleGap (φ : Fmt) (k : ℤ) : Prop where
  lo : (k:ℝ) * 2 ^ (2 - (φ.p:ℤ)) ≤ π
  hi : π < (k + 1) * 2 ^ (2 - (φ.p:ℤ))
  gap : ∀ i j : ℤ, π / 2 < i * 2 ^ (1 - (φ.p:ℤ)) → (j:ℝ) * 2 ^ (3 - (φ.p:ℤ)) < 3 * π / 2 → 4 * j - i ≤ 2 * k

theorem width_between_poles {k : ℤ} (hk : PoleGap φ k) {a b : ℚ} (ha : φ.Rep a) (hb : φ.Rep b) {n : ℤ} (hn : 0 ≤ n)
    (h1 : -(π / 2) + n * π < a) (h2 : (a:ℝ) ≤ b) (h3 : (b:ℝ) < π / 2 + n * π) : (b:ℝ) - a ≤ k * 2 ^ (2 - (φ.p:ℤ)) := by
  obtain ⟨g1, g2, g3⟩ := hk
  set u : ℝ := 2 ^ (1 - (φ.p:ℤ)) with hu
  have hu0 : 0 < u := two_zpow_posR _
  have hu1 : u ≤ 1 / 128 := by
    have : u ≤ 2 ^ (-7 : ℤ) := zpow_le_zpow_right₀ (by norm_num) (by have := φ.p_pos; omega)
    norm_num at this; linarith
  have e2 : (2:ℝ) ^ (2 - (φ.p:ℤ)) = 2 * u := by
    rw [hu, show (2 - (φ.p:ℤ)) = 1 + (1 - (φ.p:ℤ)) by ring, zpow_add₀ (by norm_num)]; norm_num
  have e4 : (2:ℝ) ^ (3 - (φ.p:ℤ)) = 4 * u := by
    rw [hu, show (3 - (φ.p:ℤ)) = 2 + (1 - (φ.p:ℤ)) by ring, zpow_add₀ (by norm_num)]; norm_num
  rw [e2] at g1 g2 ⊢
  simp only [e4] at g3
  have p3 := pi_gt_three
  have p4 : π < 3.15 := pi_lt_d2
  have p5 : 3.14 < π := pi_gt_d2
  -- integer consequences of `m * (c * u) < π`-style bounds
  have lt_of : ∀ {m m' : ℤ}, (m:ℝ) * u < m' * u → m < m' := fun h => by
    exact_mod_cast lt_of_mul_lt_mul_right h hu0.le
  have m1 : ∀ {f : ℚ}, φ.Rep f → (1:ℝ) ≤ |(f:ℝ)| → ∃ m : ℤ, (f:ℝ) = m * u := by
    intro f hf h
    obtain ⟨m, hm⟩ := mult_of_ge hf (j := 0) le_rfl (by simpa using h)
    exact ⟨m, by rw [hm]; norm_num [hu]⟩
  have m2 : ∀ {f : ℚ}, φ.Rep f → (2:ℝ) ≤ |(f:ℝ)| → ∃ m : ℤ, (f:ℝ) = m * (2 * u) := by
    intro f hf h
    obtain ⟨m, hm⟩ := mult_of_ge hf (j := 1) (by norm_num) (by simpa using h)
    exact ⟨m, by rw [hm, ← e2]; norm_num⟩
  have m4 : ∀ {f : ℚ}, φ.Rep f → (4:ℝ) ≤ |(f:ℝ)| → ∃ m : ℤ, (f:ℝ) = m * (4 * u) := by
    intro f hf h
    obtain ⟨m, hm⟩ := mult_of_ge hf (j := 2) (by norm_num) (by norm_num; exact h)
    exact ⟨m, by rw [hm, ← e4]; norm_num⟩
  rcases (by omega : n = 0 ∨ n = 1 ∨ 2 ≤ n) with rfl | rfl | hn2
  · -- around zero: both ends are at most `RD(π)/2` in size
    have side : ∀ f : ℚ, φ.Rep f → (f:ℝ) < π / 2 → (f:ℝ) ≤ k * u := by
      intro f hf h
      by_cases h1 : 1 ≤ (f:ℝ)
      · obtain ⟨m, hm⟩ := m1 hf (h1.trans (le_abs_self _))
        have : m < k + 1 := lt_of (by push_cast; rw [← hm]; linarith)
        have : (m:ℝ) ≤ k := by exact_mod_cast (by omega : m ≤ k)
        rw [hm]; exact mul_le_mul_of_nonneg_right this hu0.le
      · have : (1:ℝ) ≤ k * u := by linarith
        linarith
    have s1 := side b hb (by push_cast at h3; linarith)
    have s2 := side (-a) ha.neg (by push_cast at h1 ⊢; linarith)
    push_cast at s2
    linarith
  · push_cast at h1 h3
    have a1 : 1 ≤ (a:ℝ) := by linarith
    by_cases h4 : 4 ≤ (b:ℝ)
    · obtain ⟨j, hj⟩ := m4 hb (h4.trans (le_abs_self _))
      by_cases h5 : 2 ≤ (a:ℝ)
      · obtain ⟨i, hi⟩ := m2 ha (h5.trans (le_abs_self _))
        have : 2 * j - i < k + 1 := by
          have : ((2 * j - i : ℤ):ℝ) * u < ((k + 1 : ℤ):ℝ) * u := by push_cast; linarith
          exact lt_of this
        have : ((2 * j - i : ℤ):ℝ) ≤ k := by exact_mod_cast (by omega : 2 * j - i ≤ k)
        have := mul_le_mul_of_nonneg_right this (by linarith : 0 ≤ 2 * u)
        push_cast at this
        linarith
      · obtain ⟨i, hi⟩ := m1 ha (a1.trans (le_abs_self _))
        have := g3 i j (by rw [← hi]; linarith) (by rw [← hj]; linarith)
        have : ((4 * j - i : ℤ):ℝ) ≤ ((2 * k : ℤ):ℝ) := by exact_mod_cast this
        have := mul_le_mul_of_nonneg_right this hu0.le
        push_cast at this
        linarith
    · linarith
  · have hn' : (2:ℝ) ≤ n := by exact_mod_cast hn2
    have : 4 ≤ (a:ℝ) := by nlinarith
    obtain ⟨i, hi⟩ := m4 ha (this.trans (le_abs_self _))
    obtain ⟨j, hj⟩ := m4 hb ((this.trans h2).trans (le_abs_self _))
    have : 2 * j - 2 * i < k + 1 := by
      have : ((2 * j - 2 * i : ℤ):ℝ) * u < ((k + 1 : ℤ):ℝ) * u := by push_cast; linarith
      exact lt_of this
    have : ((2 * j - 2 * i : ℤ):ℝ) ≤ k := by exact_mod_cast (by omega : 2 * j - 2 * i ≤ k)
    have := mul_le_mul_of_nonneg_right this (by linarith : 0 ≤ 2 * u)
    push_cast at this
    linarith

/-- An interval without a pole is bounded and not wider than `RD(π)`. -/
theorem width_of_no_pole {k : ℤ} (hk : PoleGap φ k) (hx : x.NE φ) (hp : ¬ x.HasPole) :
    ∃ a b : ℝ, x.lo.toE = (a:EReal) ∧ x.hi.toE = (b:EReal) ∧ ((b - a : ℝ):EReal) ≤ φ.rdE (π:ℝ) := by
  have key : ∀ {n : ℤ}, cos (π / 2 + n * π) = 0 := by
    intro n; rw [cos_eq_zero_iff]; exact ⟨n, by ring⟩
  by_cases hinf : x.lo = .ninf ∨ x.hi = .pinf
  · exfalso
    rcases hinf with h | h
    · obtain ⟨r, hr⟩ : ∃ r : ℝ, r ∈ x.set := hx.nonempty
      have hm := hx.mem.mp hr
      refine hp ⟨π / 2 + (⌊r / π - 1 / 2⌋ : ℤ) * π, hx.mem.mpr ⟨by rw [h]; exact bot_le, le_trans ?_ hm.2⟩, key⟩
      have := Int.floor_le (r / π - 1 / 2)
      have := mul_le_mul_of_nonneg_right this pi_pos.le
      rw [sub_mul, div_mul_cancel₀ _ pi_pos.ne'] at this
      exact_mod_cast (by linarith : π / 2 + (⌊r / π - 1 / 2⌋ : ℤ) * π ≤ r)
    · obtain ⟨r, hr⟩ : ∃ r : ℝ, r ∈ x.set := hx.nonempty
      have hm := hx.mem.mp hr
      refine hp ⟨π / 2 + (⌈r / π - 1 / 2⌉ : ℤ) * π, hx.mem.mpr ⟨hm.1.trans ?_, by rw [h]; exact le_top⟩, key⟩
      have := Int.le_ceil (r / π - 1 / 2)
      have := mul_le_mul_of_nonneg_right this pi_pos.le
      rw [sub_mul, div_mul_cancel₀ _ pi_pos.ne'] at this
      exact_mod_cast (by linarith : r ≤ π / 2 + (⌈r / π - 1 / 2⌉ : ℤ) * π)
  push Not at hinf
  obtain ⟨ea, eb, ra, rb, hab⟩ := fin_of_bounded hx hinf
  refine ⟨_, _, ea, eb, ?_⟩
  rw [rd_pi hk.lo hk.hi, EReal.coe_le_coe_iff]
  set a := x.lo.q
  set b := x.hi.q
  have hab : (a:ℝ) ≤ b := by exact_mod_cast hab
  have hmem : ∀ t : ℝ, (a:ℝ) ≤ t → t ≤ b → cos t ≠ 0 := by
    intro t h1 h2 h0
    exact hp ⟨t, hx.mem.mpr ⟨by rw [ea]; exact_mod_cast h1, by rw [eb]; exact_mod_cast h2⟩, h0⟩
  set n : ℤ := ⌊(a:ℝ) / π + 1 / 2⌋
  have n1 : -(π / 2) + n * π ≤ a := by
    have := mul_le_mul_of_nonneg_right (Int.floor_le ((a:ℝ) / π + 1 / 2)) pi_pos.le
    rw [add_mul, div_mul_cancel₀ _ pi_pos.ne'] at this
    linarith
  have n2 : (a:ℝ) < π / 2 + n * π := by
    have := mul_lt_mul_of_pos_right (Int.lt_floor_add_one ((a:ℝ) / π + 1 / 2)) pi_pos
    rw [add_mul, div_mul_cancel₀ _ pi_pos.ne'] at this
    linarith
  have n3 : (b:ℝ) < π / 2 + n * π := by
    by_contra h
    exact hmem _ n2.le (not_lt.mp h) key
  have n1' : -(π / 2) + n * π < a := by
    refine lt_of_le_of_ne n1 fun h => hmem a le_rfl hab ?_
    rw [← h, show -(π / 2) + n * π = π / 2 + ((n - 1 : ℤ):ℝ) * π by push_cast; ring]
    exact key
  rcases le_total 0 n with hn | hn
  · exact width_between_poles hk ra rb hn n1' hab n3
  · have := width_between_poles hk rb.neg ra.neg (n := -n) (by omega) (by push_cast; linarith) (by push_cast; linarith) (by push_cast; linarith)
    push_cast at this
    linarith

theorem tan_tightest {k : ℤ} (hk : PoleGap φ k) (hx : x.Ok φ) (hc : ¬ TanBad φ x) :
    Tightest φ (φ.tanI x) (tanRange x) := by
  by_cases hp : x.HasPole
  · exact C11_tan_tight_partial hx hc (Or.inl hp)
  rcases hx.cases with rfl | hN
  · refine tightest_empty' (by simp [Fmt.tanI]) ?_
    ext z; constructor
    · rintro ⟨t, ht, -⟩; simp at ht
    · simp
  · exact C11_tan_tight_partial hx hc (Or.inr (width_of_no_pole hk hN hp))

theorem gap_of {k i0 j0 : ℤ} (hi : ((i0 - 1 : ℤ):ℝ) * 2 ^ (1 - (φ.p:ℤ)) < π / 2) (hj : 3 * π / 2 < ((j0 + 1 : ℤ):ℝ) * 2 ^ (3 - (φ.p:ℤ)))
    (hk : 4 * j0 - i0 ≤ 2 * k) (i j : ℤ) (h1 : π / 2 < i * 2 ^ (1 - (φ.p:ℤ))) (h2 : (j:ℝ) * 2 ^ (3 - (φ.p:ℤ)) < 3 * π / 2) :
    4 * j - i ≤ 2 * k := by
  have a1 : i0 - 1 < i := by exact_mod_cast lt_of_mul_lt_mul_right (hi.trans h1) (two_zpow_posR _).le
  have a2 : j < j0 + 1 := by exact_mod_cast lt_of_mul_lt_mul_right (h2.trans hj) (two_zpow_posR _).le
  omega

theorem poleGap_binary32 : PoleGap binary32 13176794 := by
  have := pi_gt_d20
  have := pi_lt_d20
  refine ⟨?_, ?_, gap_of (i0 := 13176795) (j0 := 9882595) ?_ ?_ (by norm_num)⟩ <;>
    simp only [binary32] <;> norm_num at * <;> linarith

theorem poleGap_binary64 : PoleGap binary64 7074237752028440 := by
  have := pi_gt_d20
  have := pi_lt_d20
  refine ⟨?_, ?_, gap_of (i0 := 7074237752028441) (j0 := 5305678314021330) ?_ ?_ (by norm_num)⟩ <;>
    simp only [binary64] <;> norm_num at * <;> linarith

theorem poleGap_x87ext : PoleGap x87ext 14488038916154245684 := by
  have := pi_gt_d20
  have := pi_lt_d20
  refine ⟨?_, ?_, gap_of (i0 := 14488038916154245685) (j0 := 10866029187115684263) ?_ ?_ (by norm_num)⟩ <;>
    simp only [x87ext] <;> norm_num at * <;> linarith

/-- For `float` the tangent is the tightest enclosure, without restriction. -/
theorem C11_tan_tightest_binary32 (hx : x.Ok binary32) : Tightest binary32 (binary32.tanI x) (tanRange x) :=
  tan_tightest poleGap_binary32 hx (noCritical_binary32 x hx)

/-- For x87 `long double` the tangent is the tightest enclosure, without restriction. -/
theorem C11_tan_tightest_x87ext (hx : x.Ok x87ext) : Tightest x87ext (x87ext.tanI x) (tanRange x) :=
  tan_tightest poleGap_x87ext hx (noCritical_x87ext x hx)

/-- For `double` the tangent is the tightest enclosure unless `x` is bad (full statement: without `hc`; it is false, see `C11_tan_binary64_false`). -/
theorem C11_tan_tightest_binary64_partial (hx : x.Ok binary64) (hc : ¬ TanBad binary64 x) :
    Tightest binary64 (binary64.tanI x) (tanRange x) :=
  tan_tightest poleGap_binary64 hx hc

/-- Non-vacuity: `[1, 2]` in `float` contains the pole `π/2`; `[2, 4]` contains none. -/
example : (⟨.fin 1, .fin 2⟩ : Itv).Ok binary32 ∧ (⟨.fin 1, .fin 2⟩ : Itv).HasPole ∧
    (⟨.fin 2, .fin 4⟩ : Itv).Ok binary32 ∧ ¬ (⟨.fin 2, .fin 4⟩ : Itv).HasPole := by
  have h3 := pi_gt_three
  have h4 : π < 3.15 := pi_lt_d2
  refine ⟨Itv.ok_of_okb (by decide +kernel), ⟨π / 2, ⟨?_, ?_⟩, cos_pi_div_two⟩, Itv.ok_of_okb (by decide +kernel), ?_⟩
  · simp only [FP.BelowR]; push_cast; linarith
  · simp only [FP.AboveR]; push_cast; linarith
  · rintro ⟨t, ⟨h1, h2⟩, h0⟩
    simp only [FP.BelowR, FP.AboveR] at h1 h2
    push_cast at h1 h2
    exact absurd h0 (cos_neg_of_pi_div_two_lt_of_lt (by linarith) (by linarith)).ne

/-- In the format the tangent is the tightest enclosure on all intervals. -/
def TanTight (φ : Fmt) : Prop := ∀ x : Itv, x.Ok φ → Tightest φ (φ.tanI x) (tanRange x)

theorem tanTight_binary32 : TanTight binary32 := fun _ => C11_tan_tightest_binary32
theorem tanTight_x87ext : TanTight x87ext := fun _ => C11_tan_tightest_x87ext

/-- Every unary function is tightest in a format in which the tangent is. -/
theorem Op1.tight_all {op : Op1} (ht : op = .tan → TanTight φ) (hx : x.Ok φ) :
    Tightest φ (op.bare φ x) (op.fn '' (x.set ∩ op.dom)) := by
  by_cases h : op = .tan
  · subst h
    refine (ht rfl x hx).of_eq' ?_
    ext z; exact ⟨fun ⟨a, h, e⟩ => ⟨a, h.1, h.2, e.symm⟩, fun ⟨a, h, h', e⟩ => ⟨a, ⟨h, h'⟩, e.symm⟩⟩
  · exact Op1.tight h hx

/-- In `double` a tangent that is tightest on all intervals there is not. -/
theorem not_tanTight_binary64 : ¬ TanTight binary64 := by
  intro h
  obtain ⟨x, hx, -, hn⟩ := C11_tan_binary64_false
  exact hn (h x hx).2.1

end P1788
