import Verif.Lemmas.RevTrig2
import Verif.Lemmas.MulRev
import Verif.Lemmas.Rel

/-! # The covering argument of `sin_rev`, `cos_rev`, `tan_rev` -/

namespace P1788
open Real

variable {φ : Fmt} {x : Itv} {S : Set ℝ}

/-- `L` is a part of `x` that reaches as far to the left as `S`. -/
def LeftOf (φ : Fmt) (L x : Itv) (S : Set ℝ) : Prop := L.Ok φ ∧ L.set ⊆ x.set ∧ ∀ s ∈ S, ∃ t ∈ L.set, t ≤ s

/-- `R` is a part of `x` that reaches as far to the right as `S`. -/
def RightOf (φ : Fmt) (R x : Itv) (S : Set ℝ) : Prop := R.Ok φ ∧ R.set ⊆ x.set ∧ ∀ s ∈ S, ∃ t ∈ R.set, s ≤ t

theorem hull_cover {L R : Itv} (hx : x.Ok φ) (hL : LeftOf φ L x S) (hR : RightOf φ R x S) :
    (L.hull R).Ok φ ∧ (L.hull R).set ⊆ x.set ∧ S ⊆ (L.hull R).set := by
  obtain ⟨h1, h2, h3⟩ := Itv.hull_tight hL.1 hR.1
  refine ⟨h1, h3 x hx (Set.union_subset hL.2.1 hR.2.1), fun s hs => ?_⟩
  obtain ⟨t, ht, hts⟩ := hL.2.2 s hs
  obtain ⟨u, hu, hus⟩ := hR.2.2 s hs
  exact (Itv.ordConnected _).out (h2 (Or.inl ht)) (h2 (Or.inr hu)) ⟨hts, hus⟩

theorem left_abstract {B : ℤ → Set ℝ} {n : ℤ} {X Y : Itv} (hx : x.NE φ) (hX : X.NE φ) (hY : Y.NE φ)
    (hB : ∀ k, (B k).Nonempty) (hord : ∀ j k, j < k → ∀ s ∈ B j, ∀ t ∈ B k, s ≤ t)
    (hBX : B n ⊆ X.set) (hBY : B (n + 1) ⊆ Y.set) (hS : ∀ s ∈ S, s ∈ x.set ∧ ∃ k, n ≤ k ∧ s ∈ B k)
    (h2 : ∃ t ∈ Y.set, x.lo.toE ≤ (t : EReal)) : LeftOf φ (X.firstOf Y x) x S := by
  obtain ⟨i1, j1⟩ := Itv.inter_ok_set hX.ok hx.ok
  obtain ⟨i2, j2⟩ := Itv.inter_ok_set hY.ok hx.ok
  have key : ∀ (Z : Itv) (k : ℤ) (s : ℝ), B k ⊆ Z.set → s ∈ x.set → (Z.set ∩ x.set).Nonempty →
      (∃ k', k < k' ∧ s ∈ B k') → ∃ t ∈ Z.set ∩ x.set, t ≤ s := by
    rintro Z k s hZ hs ⟨t, ht⟩ ⟨k', hk, hs'⟩
    rcases le_total t s with h | h
    · exact ⟨t, ht, h⟩
    · obtain ⟨b, hb⟩ := hB k
      exact ⟨s, ⟨(Itv.ordConnected _).out (hZ hb) ht.1 ⟨hord _ _ hk b hb s hs', h⟩, hs⟩, le_rfl⟩
  unfold Itv.firstOf
  by_cases he : (X.inter x).isEmpty = true
  · rw [if_pos he]
    have he' : X.set ∩ x.set = ∅ := by rw [← j1]; exact i1.set_eq_empty_iff.mpr (i1.isEmpty_iff.mp he)
    refine ⟨i2, by rw [j2]; exact Set.inter_subset_right, fun s hs => ?_⟩
    obtain ⟨hsx, k, hk, hsB⟩ := hS s hs
    rw [j2]
    have hkn : k ≠ n := by
      rintro rfl
      exact absurd (show s ∈ X.set ∩ x.set from ⟨hBX hsB, hsx⟩) (by rw [he']; simp)
    rcases eq_or_lt_of_le (show n + 1 ≤ k by omega) with h | h
    · subst h; exact ⟨s, ⟨hBY hsB, hsx⟩, le_rfl⟩
    · refine key Y (n + 1) s hBY hsx ?_ ⟨k, h, hsB⟩
      obtain ⟨t, ht, hl⟩ := h2
      obtain ⟨b, hb⟩ := hB (n + 1)
      have hbs := hord _ _ h b hb s hsB
      rcases le_total t s with h3 | h3
      · refine ⟨t, ht, hx.mem.mpr ⟨hl, ?_⟩⟩
        exact (EReal.coe_le_coe_iff.mpr h3).trans (hx.mem.mp hsx).2
      · exact ⟨s, (Itv.ordConnected _).out (hBY hb) ht ⟨hbs, h3⟩, hsx⟩
  · rw [if_neg he]
    have he' : (X.set ∩ x.set).Nonempty := by
      rw [← j1, Set.nonempty_iff_ne_empty]
      exact fun h => he (i1.isEmpty_iff.mpr (i1.set_eq_empty_iff.mp h))
    refine ⟨i1, by rw [j1]; exact Set.inter_subset_right, fun s hs => ?_⟩
    obtain ⟨hsx, k, hk, hsB⟩ := hS s hs
    rw [j1]
    rcases eq_or_lt_of_le hk with h | h
    · subst h; exact ⟨s, ⟨hBX hsB, hsx⟩, le_rfl⟩
    · exact key X n s hBX hsx he' ⟨k, h, hsB⟩

theorem right_abstract {B : ℤ → Set ℝ} {n : ℤ} {X Y : Itv} (hx : x.NE φ) (hX : X.NE φ) (hY : Y.NE φ)
    (hB : ∀ k, (B k).Nonempty) (hord : ∀ j k, j < k → ∀ s ∈ B j, ∀ t ∈ B k, s ≤ t)
    (hBX : B n ⊆ X.set) (hBY : B (n - 1) ⊆ Y.set) (hS : ∀ s ∈ S, s ∈ x.set ∧ ∃ k, k ≤ n ∧ s ∈ B k)
    (h2 : ∃ t ∈ Y.set, (t : EReal) ≤ x.hi.toE) : RightOf φ (X.firstOf Y x) x S := by
  obtain ⟨i1, j1⟩ := Itv.inter_ok_set hX.ok hx.ok
  obtain ⟨i2, j2⟩ := Itv.inter_ok_set hY.ok hx.ok
  have key : ∀ (Z : Itv) (k : ℤ) (s : ℝ), B k ⊆ Z.set → s ∈ x.set → (Z.set ∩ x.set).Nonempty →
      (∃ k', k' < k ∧ s ∈ B k') → ∃ t ∈ Z.set ∩ x.set, s ≤ t := by
    rintro Z k s hZ hs ⟨t, ht⟩ ⟨k', hk, hs'⟩
    rcases le_total s t with h | h
    · exact ⟨t, ht, h⟩
    · obtain ⟨b, hb⟩ := hB k
      exact ⟨s, ⟨(Itv.ordConnected _).out ht.1 (hZ hb) ⟨h, hord _ _ hk s hs' b hb⟩, hs⟩, le_rfl⟩
  unfold Itv.firstOf
  by_cases he : (X.inter x).isEmpty = true
  · rw [if_pos he]
    have he' : X.set ∩ x.set = ∅ := by rw [← j1]; exact i1.set_eq_empty_iff.mpr (i1.isEmpty_iff.mp he)
    refine ⟨i2, by rw [j2]; exact Set.inter_subset_right, fun s hs => ?_⟩
    obtain ⟨hsx, k, hk, hsB⟩ := hS s hs
    rw [j2]
    have hkn : k ≠ n := by
      rintro rfl
      exact absurd (show s ∈ X.set ∩ x.set from ⟨hBX hsB, hsx⟩) (by rw [he']; simp)
    rcases eq_or_lt_of_le (show k ≤ n - 1 by omega) with h | h
    · subst h; exact ⟨s, ⟨hBY hsB, hsx⟩, le_rfl⟩
    · refine key Y (n - 1) s hBY hsx ?_ ⟨k, h, hsB⟩
      obtain ⟨t, ht, hl⟩ := h2
      obtain ⟨b, hb⟩ := hB (n - 1)
      have hbs := hord _ _ h s hsB b hb
      rcases le_total s t with h3 | h3
      · refine ⟨t, ht, hx.mem.mpr ⟨?_, hl⟩⟩
        exact (hx.mem.mp hsx).1.trans (EReal.coe_le_coe_iff.mpr h3)
      · exact ⟨s, (Itv.ordConnected _).out ht (hBY hb) ⟨h3, hbs⟩, hsx⟩
  · rw [if_neg he]
    have he' : (X.set ∩ x.set).Nonempty := by
      rw [← j1, Set.nonempty_iff_ne_empty]
      exact fun h => he (i1.isEmpty_iff.mpr (i1.set_eq_empty_iff.mp h))
    refine ⟨i1, by rw [j1]; exact Set.inter_subset_right, fun s hs => ?_⟩
    obtain ⟨hsx, k, hk, hsB⟩ := hS s hs
    rw [j1]
    rcases eq_or_lt_of_le hk with h | h
    · subst h; exact ⟨s, ⟨hBX hsB, hsx⟩, le_rfl⟩
    · exact key X n s hBX hsx he' ⟨k, h, hsB⟩

/-- What the covering argument needs to know about the branches `B k` and the boxes computed for them. -/
structure Family (φ : Fmt) (d : ℤ) (box : ℤ → FP → FP → Itv) (B : ℤ → Set ℝ) : Prop where
  ne : ∀ k, (B k).Nonempty
  ord : ∀ j k, j < k → ∀ s ∈ B j, ∀ t ∈ B k, s ≤ t
  pos : ∀ k, -d ≤ k → |k| ≤ 2 ^ φ.p - 2 → (box k (φ.constPi .D) (φ.constPi .U)).NE φ ∧
    B k ⊆ (box k (φ.constPi .D) (φ.constPi .U)).set ∧
    (((k * (φ.constPi .U).q : ℚ) : ℝ) : EReal) ≤ (box k (φ.constPi .D) (φ.constPi .U)).hi.toE ∧
    (box k (φ.constPi .D) (φ.constPi .U)).lo.toE ≤ ((((k + d) * (φ.constPi .D).q : ℚ) : ℝ) : EReal)
  neg : ∀ k, k ≤ 0 → |k| ≤ 2 ^ φ.p - 2 → (box k (φ.constPi .U) (φ.constPi .D)).NE φ ∧
    B k ⊆ (box k (φ.constPi .U) (φ.constPi .D)).set ∧
    (((k * (φ.constPi .D).q : ℚ) : ℝ) : EReal) ≤ (box k (φ.constPi .U) (φ.constPi .D)).hi.toE ∧
    (box k (φ.constPi .U) (φ.constPi .D)).lo.toE ≤ ((((k + d) * (φ.constPi .U).q : ℚ) : ℝ) : EReal)

/-- The magnitude up to which the integer arithmetic of the reverse functions is exact. -/
def RevSmall (φ : Fmt) (q : ℚ) : Prop := |q| ≤ 2 ^ φ.p ∧ |q| ≤ 2 ^ 64

/-- The magnitude up to which the covering argument works. -/
def RevMid (φ : Fmt) (q : ℚ) : Prop := |q| ≤ 2 ^ (φ.p + 1) ∧ |q| ≤ 2 ^ 64

theorem RevSmall.mid {q : ℚ} (h : RevSmall φ q) : RevMid φ q :=
  ⟨h.1.trans (pow_le_pow_right₀ (by norm_num) (by omega)), h.2⟩

theorem quo_bound {y q : ℚ} {n : ℤ} (hy : 3 ≤ y) (h : |q| ≤ 2 ^ (φ.p + 1)) (h1 : (n - 1) * y ≤ q) (h2 : q ≤ (n + 1) * y) :
    |n| + 1 ≤ 2 ^ φ.p - 2 := by
  have hP : (256:ℚ) ≤ 2 ^ φ.p := by
    calc (256:ℚ) = 2 ^ 8 := by norm_num
      _ ≤ _ := pow_le_pow_right₀ (by norm_num) φ.p_pos
  rw [pow_succ] at h
  obtain ⟨h3, h4⟩ := abs_le.mp h
  have a1 : (n:ℚ) ≤ 2 ^ φ.p - 3 := by
    by_contra hc; push Not at hc; nlinarith
  have a2 : -(2 ^ φ.p - 3) ≤ (n:ℚ) := by
    by_contra hc; push Not at hc; nlinarith
  have b1 : n ≤ 2 ^ φ.p - 3 := by exact_mod_cast a1
  have b2 : -(2 ^ φ.p - 3) ≤ n := by exact_mod_cast a2
  have := abs_le.mpr ⟨b2, b1⟩
  omega

theorem lo_fin (hx : x.NE φ) (h : x.lo.feq .ninf ≠ true) : x.lo.toE = ((x.lo.q : ℝ) : EReal) := by
  have h1 := hx.lo_top
  have h2 := hx.lo_ne
  cases hl : x.lo <;> simp_all [FP.toE, FP.q, Itv.feq_ninf, Itv.feq_pinf]

theorem hi_fin (hx : x.NE φ) (h : x.hi.feq .pinf ≠ true) : x.hi.toE = ((x.hi.q : ℝ) : EReal) := by
  have h1 := hx.hi_bot
  have h2 := hx.hi_ne
  cases hl : x.hi <;> simp_all [FP.toE, FP.q, Itv.feq_ninf, Itv.feq_pinf]

variable {box : ℤ → FP → FP → Itv} {B : ℤ → Set ℝ} {d : ℤ}

theorem left_cover (F : Family φ d box B) (hd : 0 ≤ d) (hx : x.NE φ) (hq : x.lo.toE ≠ ⊥ → RevMid φ x.lo.q)
    (hS : ∀ s ∈ S, s ∈ x.set) (hloc : ∀ s ∈ S, ∀ n : ℤ, n * π ≤ s → ∃ k, n ≤ k ∧ s ∈ B k) :
    LeftOf φ (φ.leftBox box x) x S := by
  unfold Fmt.leftBox
  by_cases h0 : x.lo.feq .ninf = true
  · rw [if_pos h0]
    have hl : x.lo = .ninf := by simpa [Itv.feq_ninf] using h0
    have nL : Itv.NE φ ⟨.ninf, .fin (-φ.maxFin)⟩ :=
      ⟨by simp, by simp, by simp, by simp, by simp, trivial, φ.rep_maxFin.neg⟩
    refine ⟨nL.ok, fun t ht => ?_, fun s _ => ⟨min s (-φ.maxFin : ℚ), ?_, min_le_left _ _⟩⟩
    · rw [nL.mem] at ht
      rw [hx.mem, hl]
      refine ⟨by simp, ht.2.trans ?_⟩
      have h1 := hx.hi_in
      have h2 := hx.hi_bot
      have h3 := hx.hi_ne
      cases hh : x.hi with
      | nan => exact absurd hh h3
      | ninf => rw [hh] at h2; simp at h2
      | pinf => simp
      | nzero => simp only [FP.toE]; exact_mod_cast (by linarith [φ.maxFin_pos] : -φ.maxFin ≤ 0)
      | fin q =>
        rw [hh] at h1
        have := (abs_le.mp (Fmt.Rep.abs_le h1)).1
        simp only [FP.toE]; exact_mod_cast this
    · rw [nL.mem]
      refine ⟨by simp, ?_⟩
      simp only [FP.toE]
      exact EReal.coe_le_coe_iff.mpr (min_le_right _ _)
  · rw [if_neg h0]
    have hl := lo_fin hx h0
    obtain ⟨q1, q2⟩ := hq (by rw [hl]; simp)
    have hmem : ∀ s ∈ S, (x.lo.q : ℝ) ≤ s := fun s hs => by
      have := (hx.mem.mp (hS s hs)).1; rw [hl] at this; exact_mod_cast this
    by_cases hs : x.lo < .fin 0
    · rw [if_pos hs]
      have hneg : x.lo.q < 0 := by
        have := (NE.lt0_iff hx.lo_ne).mp hs; rw [hl] at this; exact_mod_cast this
      obtain ⟨f1, f2⟩ := floorQuo_spec φ.three_le_pid q2
      have h3 := φ.three_le_pid
      have h4 := φ.pid_le
      have hb : |floorQuo x.lo.q (φ.constPi .D).q| + 1 ≤ 2 ^ φ.p - 2 :=
        quo_bound h3 q1 (by nlinarith) f2.le
      generalize floorQuo x.lo.q (φ.constPi .D).q = n at *
      have hn : n + 1 ≤ 0 := by
        have : (n:ℚ) < 0 := by nlinarith
        have : n < 0 := by exact_mod_cast this
        omega
      obtain ⟨a1, a2, -, -⟩ := F.neg n (by omega) (by omega)
      obtain ⟨b1, b2, b3, -⟩ := F.neg (n + 1) hn (by rw [abs_of_nonpos hn]; rw [abs_of_nonpos (by omega)] at hb; omega)
      refine left_abstract hx a1 b1 F.ne F.ord a2 b2 (fun s hs => ⟨hS s hs, hloc s hs n ?_⟩) ?_
      · have hn' : (n:ℝ) ≤ 0 := by exact_mod_cast (by omega : n ≤ 0)
        have : ((n * (φ.constPi .D).q : ℚ) : ℝ) ≤ x.lo.q := by exact_mod_cast f1
        push_cast at this
        have := hmem s hs
        nlinarith
      · rw [hl]
        have := (b1.ex_le (r := (x.lo.q : ℝ))).mpr (le_trans ?_ b3)
        · obtain ⟨t, ht, h⟩ := this; exact ⟨t, ht, by exact_mod_cast h⟩
        · exact_mod_cast f2.le
    · rw [if_neg hs]
      have hpos : 0 ≤ x.lo.q := by
        by_contra hc
        exact hs ((NE.lt0_iff hx.lo_ne).mpr (by rw [hl]; exact_mod_cast not_le.mp hc))
      obtain ⟨f1, f2⟩ := floorQuo_spec φ.three_le_piu q2
      have h3 := φ.three_le_piu
      have h4 := φ.le_piu
      have hb : |floorQuo x.lo.q (φ.constPi .U).q| + 1 ≤ 2 ^ φ.p - 2 :=
        quo_bound h3 q1 (by nlinarith) f2.le
      generalize floorQuo x.lo.q (φ.constPi .U).q = n at *
      have hn : 0 ≤ n := by
        have : (-1:ℚ) < n := by nlinarith
        have : -1 < n := by exact_mod_cast this
        omega
      obtain ⟨a1, a2, -, -⟩ := F.pos n (by omega) (by omega)
      obtain ⟨b1, b2, b3, -⟩ := F.pos (n + 1) (by omega)
        (by rw [abs_of_nonneg (by omega)]; rw [abs_of_nonneg (by omega)] at hb; omega)
      refine left_abstract hx a1 b1 F.ne F.ord a2 b2 (fun s hs => ⟨hS s hs, hloc s hs n ?_⟩) ?_
      · have hn' : (0:ℝ) ≤ n := by exact_mod_cast hn
        have : ((n * (φ.constPi .U).q : ℚ) : ℝ) ≤ x.lo.q := by exact_mod_cast f1
        push_cast at this
        have := hmem s hs
        nlinarith
      · rw [hl]
        have := (b1.ex_le (r := (x.lo.q : ℝ))).mpr (le_trans ?_ b3)
        · obtain ⟨t, ht, h⟩ := this; exact ⟨t, ht, by exact_mod_cast h⟩
        · exact_mod_cast f2.le

theorem right_cover {quo : ℚ → ℚ → ℤ} (F : Family φ d box B) (hd : 0 ≤ d) (hd' : d ≤ 1) (hx : x.NE φ)
    (hq : x.hi.toE ≠ ⊤ → RevMid φ x.hi.q)
    (hquo : ∀ y : ℚ, 3 ≤ y → |x.hi.q| ≤ 2 ^ 64 →
      ((quo x.hi.q y : ℚ) + d - 1) * y ≤ x.hi.q ∧ x.hi.q ≤ ((quo x.hi.q y : ℚ) + d) * y ∧
      (d = 1 → x.hi.q < ((quo x.hi.q y : ℚ) + d) * y) ∧ (d = 0 → ((quo x.hi.q y : ℚ) + d - 1) * y < x.hi.q))
    (hS : ∀ s ∈ S, s ∈ x.set) (hloc : ∀ s ∈ S, ∀ n : ℤ, s ≤ (n + d) * π → ∃ k, k ≤ n ∧ s ∈ B k) :
    RightOf φ (φ.rightBox quo box x) x S := by
  unfold Fmt.rightBox
  by_cases h0 : x.hi.feq .pinf = true
  · rw [if_pos h0]
    have hl : x.hi = .pinf := by simpa [Itv.feq_pinf] using h0
    have nL : Itv.NE φ ⟨.fin φ.maxFin, .pinf⟩ :=
      ⟨by simp, by simp, by simp, by simp, by simp, φ.rep_maxFin, trivial⟩
    refine ⟨nL.ok, fun t ht => ?_, fun s _ => ⟨max s (φ.maxFin : ℚ), ?_, le_max_left _ _⟩⟩
    · rw [nL.mem] at ht
      rw [hx.mem, hl]
      refine ⟨le_trans ?_ ht.1, by simp⟩
      have h1 := hx.lo_in
      have h2 := hx.lo_top
      have h3 := hx.lo_ne
      cases hh : x.lo with
      | nan => exact absurd hh h3
      | pinf => rw [hh] at h2; simp at h2
      | ninf => simp
      | nzero => simp only [FP.toE]; exact_mod_cast φ.maxFin_pos.le
      | fin q =>
        rw [hh] at h1
        have := (abs_le.mp (Fmt.Rep.abs_le h1)).2
        simp only [FP.toE]; exact_mod_cast this
    · rw [nL.mem]
      refine ⟨?_, by simp⟩
      simp only [FP.toE]
      exact EReal.coe_le_coe_iff.mpr (le_max_right _ _)
  · rw [if_neg h0]
    have hl := hi_fin hx h0
    obtain ⟨q1, q2⟩ := hq (by rw [hl]; simp)
    have hdq : (0:ℚ) ≤ d := by exact_mod_cast hd
    have hdq' : (d:ℚ) ≤ 1 := by exact_mod_cast hd'
    have hmem : ∀ s ∈ S, s ≤ (x.hi.q : ℝ) := fun s hs => by
      have := (hx.mem.mp (hS s hs)).2; rw [hl] at this; exact_mod_cast this
    by_cases hs : .fin 0 < x.hi
    · rw [if_pos hs]
      have hpos : 0 < x.hi.q := by
        have := (NE.gt0_iff hx.hi_ne).mp hs; rw [hl] at this; exact_mod_cast this
      have h3 := φ.three_le_pid
      obtain ⟨f1, f2, -, -⟩ := hquo _ h3 q2
      have h4 := φ.pid_le
      have hb : |quo x.hi.q (φ.constPi .D).q| + 1 ≤ 2 ^ φ.p - 2 := by
        refine quo_bound h3 q1 ?_ ?_ <;> nlinarith
      generalize quo x.hi.q (φ.constPi .D).q = n at *
      have hn : 0 < n + d := by
        have : (0:ℚ) < n + d := by nlinarith
        exact_mod_cast this
      obtain ⟨a1, a2, -, -⟩ := F.pos n (by omega) (by omega)
      obtain ⟨b1, b2, -, b3⟩ := F.pos (n - 1) (by omega) (by
        have := abs_sub n 1; rw [abs_one] at this; omega)
      refine right_abstract hx a1 b1 F.ne F.ord a2 b2 (fun s hs => ⟨hS s hs, hloc s hs n ?_⟩) ?_
      · have hn' : (0:ℝ) < n + d := by exact_mod_cast hn
        have : (x.hi.q : ℝ) ≤ (((n + d) * (φ.constPi .D).q : ℚ) : ℝ) := by exact_mod_cast f2
        push_cast at this
        have := hmem s hs
        nlinarith
      · rw [hl]
        have := (b1.ex_ge (r := (x.hi.q : ℝ))).mpr (le_trans b3 ?_)
        · obtain ⟨t, ht, h⟩ := this; exact ⟨t, ht, by exact_mod_cast h⟩
        · have e : ((((n - 1 : ℤ) + d) * (φ.constPi .D).q : ℚ)) ≤ x.hi.q := by push_cast; linarith
          exact_mod_cast e
    · rw [if_neg hs]
      have hneg : x.hi.q ≤ 0 := by
        by_contra hc
        exact hs ((NE.gt0_iff hx.hi_ne).mpr (by rw [hl]; exact_mod_cast not_le.mp hc))
      have h3 := φ.three_le_piu
      obtain ⟨f1, f2, f3, f4⟩ := hquo _ h3 q2
      have h4 := φ.le_piu
      have hb : |quo x.hi.q (φ.constPi .U).q| + 1 ≤ 2 ^ φ.p - 2 := by
        refine quo_bound h3 q1 ?_ ?_ <;> nlinarith
      generalize quo x.hi.q (φ.constPi .U).q = n at *
      have hn : n ≤ 0 := by
        rcases (show d = 0 ∨ d = 1 by omega) with h | h
        · have := f4 h
          have : (n:ℚ) + d - 1 < 0 := by nlinarith
          have : n + d - 1 < 0 := by exact_mod_cast this
          omega
        · have : (n:ℚ) + d - 1 ≤ 0 := by nlinarith
          have : n + d - 1 ≤ 0 := by exact_mod_cast this
          omega
      obtain ⟨a1, a2, -, -⟩ := F.neg n (by omega) (by omega)
      obtain ⟨b1, b2, -, b3⟩ := F.neg (n - 1) (by omega) (by
        have := abs_sub n 1; rw [abs_one] at this; omega)
      refine right_abstract hx a1 b1 F.ne F.ord a2 b2 (fun s hs => ⟨hS s hs, hloc s hs n ?_⟩) ?_
      · have h5 := hmem s hs
        have h6 : (x.hi.q : ℝ) ≤ 0 := by exact_mod_cast hneg
        rcases le_total (0:ℝ) (n + d) with h | h
        · nlinarith [Real.pi_pos]
        · have : (x.hi.q : ℝ) ≤ (((n + d) * (φ.constPi .U).q : ℚ) : ℝ) := by exact_mod_cast f2
          push_cast at this
          nlinarith
      · rw [hl]
        have := (b1.ex_ge (r := (x.hi.q : ℝ))).mpr (le_trans b3 ?_)
        · obtain ⟨t, ht, h⟩ := this; exact ⟨t, ht, by exact_mod_cast h⟩
        · have e : ((((n - 1 : ℤ) + d) * (φ.constPi .U).q : ℚ)) ≤ x.hi.q := by push_cast; linarith
          exact_mod_cast e

end P1788
