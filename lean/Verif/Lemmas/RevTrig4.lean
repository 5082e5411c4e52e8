import Verif.Lemmas.RevTrig3

/-! # The branches of `sin_rev`, `cos_rev`, `tan_rev` -/

namespace P1788
open Real

variable {φ : Fmt} {U : Set ℝ} {cl cu : FP}

theorem Fmt.Enc.fam {X : Itv} {l u : ℝ} {a b : ℚ} (h : φ.Enc X l u) {s : Set ℝ} (hne : s.Nonempty)
    (hs : ∀ t ∈ s, l ≤ t ∧ t ≤ u) (hi : (b:ℝ) ≤ u) (lo : l ≤ (a:ℝ)) :
    X.NE φ ∧ s ⊆ X.set ∧ (((b:ℚ):ℝ):EReal) ≤ X.hi.toE ∧ X.lo.toE ≤ (((a:ℚ):ℝ):EReal) := by
  have hlu : l ≤ u := by obtain ⟨t, ht⟩ := hne; exact (hs t ht).1.trans (hs t ht).2
  have hn := h.ne hlu
  refine ⟨hn, fun t ht => hn.mem.mpr ⟨h.lo_le.trans ?_, le_trans ?_ h.le_hi⟩,
    le_trans (EReal.coe_le_coe_iff.mpr hi) h.le_hi, h.lo_le.trans (EReal.coe_le_coe_iff.mpr lo)⟩
  · exact EReal.coe_le_coe_iff.mpr (hs t ht).1
  · exact EReal.coe_le_coe_iff.mpr (hs t ht).2

theorem big_of {j : ℤ} {a c : ℚ} {C : ℚ} (hj : 1 ≤ |j|) (ha : 3 ≤ a) (hc : |c| ≤ C) (hC : C ≤ 3 * |j| - 1) :
    φ.thr ≤ |((j * a + c : ℚ) : ℝ)| := by
  have h1 : (1:ℚ) ≤ |(j * a + c : ℚ)| := by
    have h2 : |(j * a : ℚ)| - |(-c)| ≤ |(j * a : ℚ) - (-c)| := abs_sub_abs_le_abs_sub _ _
    rw [abs_neg, sub_neg_eq_add, abs_mul, abs_of_pos (by linarith : 0 < a)] at h2
    have h3 : (1:ℚ) ≤ |(j:ℚ)| := by exact_mod_cast hj
    push_cast at hC
    nlinarith
  have h2 : (1:ℝ) ≤ |((j * a + c : ℚ) : ℝ)| := by exact_mod_cast h1
  linarith [φ.thr_le_quarter]

/-- The `k`-th branch of the solutions of `sin t ∈ c`, where `U` is the principal branch. -/
def sinBranch (U : Set ℝ) (k : ℤ) : Set ℝ := {t | ∃ u ∈ U, t = if k % 2 = 0 then k * π + u else k * π - u}
/-- The `k`-th branch of the solutions of `cos t ∈ c`. -/
def cosBranch (U : Set ℝ) (k : ℤ) : Set ℝ := {t | ∃ u ∈ U, t = if k % 2 = 0 then k * π + u else (k + 1) * π - u}
/-- The `k`-th branch of the solutions of `tan t ∈ c`. -/
def tanBranch (U : Set ℝ) (k : ℤ) : Set ℝ := {t | ∃ u ∈ U, t = k * π + u}

theorem ord_of {B : ℤ → Set ℝ} {l : ℝ} (h : ∀ k, ∀ t ∈ B k, k * π + l ≤ t ∧ t ≤ (k + 1) * π + l) (j k : ℤ) (hjk : j < k) :
    ∀ s ∈ B j, ∀ t ∈ B k, s ≤ t := by
  intro s hs t ht
  have h1 := (h j s hs).2
  have h2 := (h k t ht).1
  have : ((j:ℝ) + 1) * π ≤ k * π :=
    mul_le_mul_of_nonneg_right (by exact_mod_cast hjk) pi_pos.le
  linarith

theorem tan_family (hU : U.Nonempty) (h1 : ∀ u ∈ U, -(π / 2) ≤ u ∧ u ≤ π / 2)
    (h2 : ∀ u ∈ U, (cl.q : ℝ) ≤ u ∧ u ≤ cu.q) (hl : cl.q ≤ 0) (hu : 0 ≤ cu.q) :
    Family φ 0 (φ.tanBox cl cu) (tanBranch U) where
  ne k := by obtain ⟨u, hu⟩ := hU; exact ⟨_, u, hu, rfl⟩
  ord := ord_of (l := -(π / 2)) (by
    rintro k t ⟨u, hu, rfl⟩
    obtain ⟨a, b⟩ := h1 u hu
    constructor <;> nlinarith [pi_pos])
  pos k hk hkp := by
    have hl' : (cl.q:ℝ) ≤ 0 := by exact_mod_cast hl
    have hu' : (0:ℝ) ≤ cu.q := by exact_mod_cast hu
    have hk' : (0:ℝ) ≤ k := by exact_mod_cast (by omega : 0 ≤ k)
    refine (Fmt.shift_enc (k := k) (a := φ.constPi .D) (b := φ.constPi .U) (by omega)).fam ?_ ?_ ?_ ?_
    · obtain ⟨u, hu⟩ := hU; exact ⟨_, u, hu, rfl⟩
    · rintro t ⟨u, hu, rfl⟩
      have := φ.pid_le
      have := φ.le_piu
      obtain ⟨a, b⟩ := h2 u hu
      constructor <;> nlinarith
    · push_cast; linarith
    · push_cast; linarith
  neg k hk hkp := by
    have hl' : (cl.q:ℝ) ≤ 0 := by exact_mod_cast hl
    have hu' : (0:ℝ) ≤ cu.q := by exact_mod_cast hu
    have hk' : (k:ℝ) ≤ 0 := by exact_mod_cast hk
    refine (Fmt.shift_enc (k := k) (a := φ.constPi .U) (b := φ.constPi .D) (by omega)).fam ?_ ?_ ?_ ?_
    · obtain ⟨u, hu⟩ := hU; exact ⟨_, u, hu, rfl⟩
    · rintro t ⟨u, hu, rfl⟩
      have := φ.pid_le
      have := φ.le_piu
      obtain ⟨a, b⟩ := h2 u hu
      constructor <;> nlinarith
    · push_cast; linarith
    · push_cast; linarith

theorem sin_family (hU : U.Nonempty) (h1 : ∀ u ∈ U, -(π / 2) ≤ u ∧ u ≤ π / 2)
    (h2 : ∀ u ∈ U, (cl.q : ℝ) ≤ u ∧ u ≤ cu.q) (hl : cl.q ≤ 0) (hu : 0 ≤ cu.q) (hl2 : -2 ≤ cl.q) (hu2 : cu.q ≤ 2) :
    Family φ 0 (φ.sinBox cl cu) (sinBranch U) := by
  have hl' : (cl.q:ℝ) ≤ 0 := by exact_mod_cast hl
  have hu' : (0:ℝ) ≤ cu.q := by exact_mod_cast hu
  have hne : ∀ k, (sinBranch U k).Nonempty := fun k => by obtain ⟨u, hu⟩ := hU; exact ⟨_, u, hu, rfl⟩
  have hpd := φ.pid_le
  have hpu := φ.le_piu
  constructor
  · exact hne
  · refine ord_of (l := -(π / 2)) ?_
    rintro k t ⟨u, hu, rfl⟩
    obtain ⟨a, b⟩ := h1 u hu
    split_ifs <;> constructor <;> nlinarith [pi_pos]
  · intro k hk hkp
    have hk' : (0:ℝ) ≤ k := by exact_mod_cast (by omega : 0 ≤ k)
    unfold Fmt.sinBox
    by_cases he : k % 2 = 0
    · rw [if_pos he]
      refine (Fmt.shift_enc (k := k) (a := φ.constPi .D) (b := φ.constPi .U) (by omega)).fam (hne k) ?_ ?_ ?_
      · rintro t ⟨u, hu, rfl⟩
        rw [if_pos he]
        obtain ⟨a, b⟩ := h2 u hu
        constructor <;> nlinarith
      · push_cast; linarith
      · push_cast; linarith
    · rw [if_neg he]
      have hj : 1 ≤ |-k| := by rw [abs_neg]; exact Int.one_le_abs (by rintro rfl; simp at he)
      have hjq : (1:ℚ) ≤ |((-k : ℤ):ℚ)| := by exact_mod_cast hj
      refine (Fmt.mirror_enc (k := -k) (a := φ.constPi .D) (b := φ.constPi .U) (by rw [abs_neg]; omega)
        (Or.inr (big_of (C := 2) hj φ.three_le_pid (abs_le.mpr ⟨by linarith, hu2⟩) (by push_cast at hjq ⊢; linarith)))
        (Or.inr (big_of (C := 2) hj φ.three_le_piu (abs_le.mpr ⟨hl2, by linarith⟩)
          (by push_cast at hjq ⊢; linarith)))).fam (hne k) ?_ ?_ ?_
      · rintro t ⟨u, hu, rfl⟩
        rw [if_neg he]
        obtain ⟨a, b⟩ := h2 u hu
        push_cast
        constructor <;> nlinarith
      · push_cast; linarith
      · push_cast; linarith
  · intro k hk hkp
    have hk' : (k:ℝ) ≤ 0 := by exact_mod_cast hk
    unfold Fmt.sinBox
    by_cases he : k % 2 = 0
    · rw [if_pos he]
      refine (Fmt.shift_enc (k := k) (a := φ.constPi .U) (b := φ.constPi .D) (by omega)).fam (hne k) ?_ ?_ ?_
      · rintro t ⟨u, hu, rfl⟩
        rw [if_pos he]
        obtain ⟨a, b⟩ := h2 u hu
        constructor <;> nlinarith
      · push_cast; linarith
      · push_cast; linarith
    · rw [if_neg he]
      have hj : 1 ≤ |-k| := by rw [abs_neg]; exact Int.one_le_abs (by rintro rfl; simp at he)
      have hjq : (1:ℚ) ≤ |((-k : ℤ):ℚ)| := by exact_mod_cast hj
      refine (Fmt.mirror_enc (k := -k) (a := φ.constPi .U) (b := φ.constPi .D) (by rw [abs_neg]; omega)
        (Or.inr (big_of (C := 2) hj φ.three_le_piu (abs_le.mpr ⟨by linarith, hu2⟩) (by push_cast at hjq ⊢; linarith)))
        (Or.inr (big_of (C := 2) hj φ.three_le_pid (abs_le.mpr ⟨hl2, by linarith⟩)
          (by push_cast at hjq ⊢; linarith)))).fam (hne k) ?_ ?_ ?_
      · rintro t ⟨u, hu, rfl⟩
        rw [if_neg he]
        obtain ⟨a, b⟩ := h2 u hu
        push_cast
        constructor <;> nlinarith
      · push_cast; linarith
      · push_cast; linarith

theorem cos_family (hU : U.Nonempty) (h1 : ∀ u ∈ U, 0 ≤ u ∧ u ≤ π)
    (h2 : ∀ u ∈ U, (cl.q : ℝ) ≤ u ∧ u ≤ cu.q) (hl : 0 ≤ cl.q) (hlp : cl.q ≤ (φ.constPi .D).q) (hu : 0 ≤ cu.q)
    (hu4 : cu.q ≤ 4) (bl : cl.q = 0 ∨ φ.thr ≤ ((cl.q : ℚ) : ℝ)) (bu : cu.q = 0 ∨ φ.thr ≤ ((cu.q : ℚ) : ℝ)) :
    Family φ 1 (φ.cosBox cl cu) (cosBranch U) := by
  have hl' : (0:ℝ) ≤ cl.q := by exact_mod_cast hl
  have hu' : (0:ℝ) ≤ cu.q := by exact_mod_cast hu
  have hlp' : (cl.q:ℝ) ≤ ((φ.constPi .D).q : ℚ) := by exact_mod_cast hlp
  have hpp : (((φ.constPi .D).q : ℚ) : ℝ) ≤ ((φ.constPi .U).q : ℚ) := by exact_mod_cast φ.pid_le_piu
  have hcl4 : cl.q ≤ 4 := by linarith [φ.pid_le_piu, φ.piu_le]
  have hne : ∀ k, (cosBranch U k).Nonempty := fun k => by obtain ⟨u, hu⟩ := hU; exact ⟨_, u, hu, rfl⟩
  have hpd := φ.pid_le
  have hpu := φ.le_piu
  have hbig : ∀ (k : ℤ) (a c : ℚ), k % 2 ≠ 0 → 3 ≤ a → 0 ≤ c → c ≤ 4 → (c = 0 ∨ φ.thr ≤ (c:ℝ)) →
      ((-k - 1 : ℤ) : ℚ) * a + c = 0 ∨ φ.thr ≤ |((((-k - 1 : ℤ) : ℚ) * a + c : ℚ) : ℝ)| := by
    intro k a c he ha hc0 hc4 hc
    by_cases hk : k = -1
    · subst hk
      norm_num
      rcases hc with h | h
      · exact Or.inl h
      · exact Or.inr (h.trans (le_abs_self _))
    · right
      have h3 : 2 ≤ |(-k - 1 : ℤ)| := by
        rcases abs_cases (-k - 1 : ℤ) with h | h <;> omega
      have h3q : (2:ℚ) ≤ |((-k - 1 : ℤ) : ℚ)| := by exact_mod_cast h3
      refine big_of (C := 4) (by omega) ha (abs_le.mpr ⟨by linarith, hc4⟩) (by push_cast at h3q ⊢; linarith)
  constructor
  · exact hne
  · refine ord_of (l := 0) ?_
    rintro k t ⟨u, hu, rfl⟩
    obtain ⟨a, b⟩ := h1 u hu
    split_ifs <;> constructor <;> nlinarith [pi_pos]
  · intro k hk hkp
    have hk1 : (0:ℝ) ≤ k + 1 := by exact_mod_cast (by omega : 0 ≤ k + 1)
    unfold Fmt.cosBox
    by_cases he : k % 2 = 0
    · rw [if_pos he]
      have hk' : (0:ℝ) ≤ k := by exact_mod_cast (by omega : 0 ≤ k)
      refine (Fmt.shift_enc (k := k) (a := φ.constPi .D) (b := φ.constPi .U) (by omega)).fam (hne k) ?_ ?_ ?_
      · rintro t ⟨u, hu, rfl⟩
        rw [if_pos he]
        obtain ⟨a, b⟩ := h2 u hu
        constructor <;> nlinarith
      · push_cast; linarith
      · push_cast; linarith
    · rw [if_neg he]
      refine (Fmt.mirror_enc (k := -k - 1) (a := φ.constPi .D) (b := φ.constPi .U)
        (by have := abs_sub (-k) 1; rw [abs_one, abs_neg] at this; omega)
        (hbig k _ _ he φ.three_le_pid hu hu4 bu)
        (hbig k _ _ he φ.three_le_piu hl hcl4 bl)).fam (hne k) ?_ ?_ ?_
      · rintro t ⟨u, hu, rfl⟩
        rw [if_neg he]
        obtain ⟨a, b⟩ := h2 u hu
        push_cast
        constructor <;> nlinarith
      · push_cast; linarith
      · push_cast; linarith
  · intro k hk hkp
    have hk' : (k:ℝ) ≤ 0 := by exact_mod_cast hk
    unfold Fmt.cosBox
    by_cases he : k % 2 = 0
    · rw [if_pos he]
      refine (Fmt.shift_enc (k := k) (a := φ.constPi .U) (b := φ.constPi .D) (by omega)).fam (hne k) ?_ ?_ ?_
      · rintro t ⟨u, hu, rfl⟩
        rw [if_pos he]
        obtain ⟨a, b⟩ := h2 u hu
        constructor <;> nlinarith
      · push_cast; linarith
      · push_cast; linarith
    · rw [if_neg he]
      have hk1 : (k:ℝ) + 1 ≤ 0 := by exact_mod_cast (by omega : k + 1 ≤ 0)
      refine (Fmt.mirror_enc (k := -k - 1) (a := φ.constPi .U) (b := φ.constPi .D)
        (by have := abs_sub (-k) 1; rw [abs_one, abs_neg] at this; omega)
        (hbig k _ _ he φ.three_le_piu hu hu4 bu)
        (hbig k _ _ he φ.three_le_pid hl hcl4 bl)).fam (hne k) ?_ ?_ ?_
      · rintro t ⟨u, hu, rfl⟩
        rw [if_neg he]
        obtain ⟨a, b⟩ := h2 u hu
        push_cast
        constructor <;> nlinarith
      · push_cast; linarith
      · push_cast; linarith

/-! ## Every solution lies in a branch -/

theorem sin_loc {C : Set ℝ} {s : ℝ} (hs : sin s ∈ C) :
    ∃ k : ℤ, s ∈ sinBranch (arcsin '' (C ∩ Set.Icc (-1) 1)) k ∧ |s - k * π| ≤ π / 2 := by
  have hp := pi_pos
  refine ⟨round (s / π), ?_⟩
  have hr := abs_sub_round (s / π)
  set k := round (s / π)
  have e : s / π * π = s := by field_simp
  have hr' : |s - k * π| ≤ π / 2 := by
    have : |s - k * π| = |s / π - k| * π := by
      rw [← abs_of_pos hp, ← abs_mul, abs_of_pos hp, sub_mul, e]
    rw [this]; nlinarith
  refine ⟨?_, hr'⟩
  obtain ⟨a, b⟩ := abs_le.mp hr'
  rcases Int.emod_two_eq_zero_or_one k with h | h
  · refine ⟨s - k * π, ⟨sin s, ⟨hs, neg_one_le_sin s, sin_le_one s⟩, ?_⟩, by rw [if_pos h]; ring⟩
    have : sin s = sin (s - k * π) := by
      obtain ⟨j, hj⟩ := Int.even_iff.mpr h
      rw [hj]; push_cast
      rw [show s - ((j:ℝ) + j) * π = s - j * (2 * π) by ring, sin_sub_int_mul_two_pi]
    rw [this, arcsin_sin (by linarith) (by linarith)]
  · refine ⟨k * π - s, ⟨sin s, ⟨hs, neg_one_le_sin s, sin_le_one s⟩, ?_⟩, by rw [if_neg (by omega)]; ring⟩
    have : sin s = sin (k * π - s) := by
      obtain ⟨j, hj⟩ := Int.odd_iff.mpr h
      rw [hj]; push_cast
      rw [show (2 * (j:ℝ) + 1) * π - s = (π - s) + j * (2 * π) by ring, sin_add_int_mul_two_pi, sin_pi_sub]
    rw [this, arcsin_sin (by linarith) (by linarith)]

theorem cos_loc {C : Set ℝ} {s : ℝ} (hs : cos s ∈ C) :
    s ∈ cosBranch (arccos '' (C ∩ Set.Icc (-1) 1)) ⌊s / π⌋ := by
  have hp := pi_pos
  have h1 := Int.floor_le (s / π)
  have h2 := Int.lt_floor_add_one (s / π)
  set k := ⌊s / π⌋
  have e : s / π * π = s := by field_simp
  have a : k * π ≤ s := by nlinarith
  have b : s ≤ (k + 1) * π := by nlinarith
  rcases Int.emod_two_eq_zero_or_one k with h | h
  · refine ⟨s - k * π, ⟨cos s, ⟨hs, neg_one_le_cos s, cos_le_one s⟩, ?_⟩, by rw [if_pos h]; ring⟩
    have : cos s = cos (s - k * π) := by
      obtain ⟨j, hj⟩ := Int.even_iff.mpr h
      rw [hj]; push_cast
      rw [show s - ((j:ℝ) + j) * π = s - j * (2 * π) by ring, cos_sub_int_mul_two_pi]
    rw [this, arccos_cos (by linarith) (by linarith)]
  · refine ⟨(k + 1) * π - s, ⟨cos s, ⟨hs, neg_one_le_cos s, cos_le_one s⟩, ?_⟩, by rw [if_neg (by omega)]; ring⟩
    have : cos s = cos ((k + 1) * π - s) := by
      obtain ⟨j, hj⟩ := Int.odd_iff.mpr h
      rw [hj]; push_cast
      rw [show (2 * (j:ℝ) + 1 + 1) * π - s = ((j + 1 : ℤ) : ℝ) * (2 * π) - s by push_cast; ring,
        cos_int_mul_two_pi_sub]
    rw [this, arccos_cos (by linarith) (by linarith)]

theorem tan_loc {C : Set ℝ} {s : ℝ} (hc : cos s ≠ 0) (hs : tan s ∈ C) :
    ∃ k : ℤ, s ∈ tanBranch (arctan '' C) k ∧ |s - k * π| ≤ π / 2 := by
  have hp := pi_pos
  refine ⟨round (s / π), ?_⟩
  have hr := abs_sub_round (s / π)
  set k := round (s / π)
  have e : s / π * π = s := by field_simp
  have hr' : |s - k * π| ≤ π / 2 := by
    have : |s - k * π| = |s / π - k| * π := by
      rw [← abs_of_pos hp, ← abs_mul, abs_of_pos hp, sub_mul, e]
    rw [this]; nlinarith
  refine ⟨?_, hr'⟩
  obtain ⟨a, b⟩ := abs_le.mp hr'
  have hc' : cos (s - k * π) ≠ 0 := by
    rw [cos_sub_int_mul_pi]; exact mul_ne_zero (zpow_ne_zero _ (by norm_num)) hc
  refine ⟨s - k * π, ⟨tan s, hs, ?_⟩, by ring⟩
  rw [← tan_sub_int_mul_pi s k]
  refine arctan_tan (lt_of_le_of_ne a ?_) (lt_of_le_of_ne b ?_)
  · intro h; rw [← h, cos_neg, cos_pi_div_two] at hc'; exact hc' rfl
  · intro h; rw [h, cos_pi_div_two] at hc'; exact hc' rfl

end P1788
