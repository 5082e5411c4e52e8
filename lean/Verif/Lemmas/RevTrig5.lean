import Verif.Lemmas.RevTrig4
import Verif.SpecRev

/-! # Bounds of the principal branches; validity of the results -/

namespace P1788
open Real

variable {φ : Fmt} {c x : Itv}

theorem arcNS_q (m : Rnd) (f : ℝ → ℝ) (vn vp : ℝ) {a : FP} {r : ℝ} (h : a.toE = (r : EReal)) (hn : a ≠ .nan) :
    (φ.arcNS m f vn vp a).q = (φ.rndMP m (f r)).q := by
  cases a with
  | nan => exact absurd rfl hn
  | ninf => simp at h
  | pinf => simp at h
  | nzero =>
    have hr : r = 0 := by simp only [FP.toE] at h; exact_mod_cast h.symm
    subst hr
    simp only [Fmt.arcNS]
    split_ifs with h0
    · rw [h0, Fmt.rndMP_zero]; rfl
    · rfl
  | fin q =>
    have hr : (q:ℝ) = r := by simp only [FP.toE] at h; exact_mod_cast h
    simp only [Fmt.arcNS]; rw [hr]

/-- `[-1, 1]` -/
theorem ok_unit (φ : Fmt) : Itv.NE φ ⟨.fin (-1), .fin 1⟩ := by
  have h1 := φ.rep_small (k := 1) (by norm_num)
  have h2 := φ.rep_small (k := -1) (by norm_num)
  push_cast at h1 h2
  refine ⟨by simp, by simp, ?_, EReal.coe_ne_top _, EReal.coe_ne_bot _, h2, h1⟩
  simp only [FP.toE]; exact EReal.coe_le_coe_iff.mpr (by norm_num)

theorem set_unit : Itv.set ⟨.fin (-1), .fin 1⟩ = Set.Icc (-1) 1 := by
  ext t
  rw [(ok_unit binary64).mem]
  simp only [FP.toE]
  rw [EReal.coe_le_coe_iff, EReal.coe_le_coe_iff]; simp

/-- The bounds of `c ∩ [-1, 1]`. -/
theorem unit_bounds {cc : Itv} (h : cc.NE φ) (hs : cc.set ⊆ Set.Icc (-1) 1) :
    ∃ l u : ℚ, cc.lo.toE = ((l:ℝ):EReal) ∧ cc.hi.toE = ((u:ℝ):EReal) ∧ -1 ≤ l ∧ l ≤ u ∧ u ≤ 1 ∧ φ.Rep l ∧ φ.Rep u ∧
      ∀ t ∈ cc.set, (l:ℝ) ≤ t ∧ t ≤ u := by
  have h1 : cc.lo.feq .ninf ≠ true := by
    intro hf
    have hl : cc.lo = .ninf := by simpa [Itv.feq_ninf] using hf
    obtain ⟨t, ht, h2⟩ := (h.ex_ge (r := -2)).mpr (by rw [hl]; simp)
    linarith [(hs ht).1]
  have h2 : cc.hi.feq .pinf ≠ true := by
    intro hf
    have hl : cc.hi = .pinf := by simpa [Itv.feq_pinf] using hf
    obtain ⟨t, ht, h2⟩ := (h.ex_le (r := 2)).mpr (by rw [hl]; simp)
    linarith [(hs ht).2]
  have e1 := lo_fin h h1
  have e2 := hi_fin h h2
  have hle := h.le
  rw [e1, e2, EReal.coe_le_coe_iff] at hle
  have ml : ((cc.lo.q : ℚ):ℝ) ∈ cc.set := h.mem.mpr ⟨by rw [e1], by rw [e2, EReal.coe_le_coe_iff]; exact hle⟩
  have mu : ((cc.hi.q : ℚ):ℝ) ∈ cc.set := h.mem.mpr ⟨by rw [e1, EReal.coe_le_coe_iff]; exact hle, by rw [e2]⟩
  have rep : ∀ a : FP, a.In φ → φ.Rep a.q := by
    intro a ha
    cases a with
    | fin q => exact ha
    | _ => exact φ.rep_zero
  refine ⟨cc.lo.q, cc.hi.q, e1, e2, ?_, ?_, ?_, rep _ h.lo_in, rep _ h.hi_in, fun t ht => ?_⟩
  · have := (hs ml).1; exact_mod_cast this
  · exact_mod_cast hle
  · have := (hs mu).2; exact_mod_cast this
  · have := h.mem.mp ht
    rw [e1, e2, EReal.coe_le_coe_iff, EReal.coe_le_coe_iff] at this
    exact this

/-- A number of the format below one is at least an ulp below. -/
theorem rep_lt_one {q : ℚ} (h : φ.Rep q) (h1 : q < 1) : q ≤ 1 - 2 ^ (-(φ.p : ℤ)) := by
  obtain ⟨m, e, rfl, hm, -, -⟩ := h
  have hp := φ.p_pos
  have h2 := two_zpow_pos e
  have hP : (2:ℚ) ^ (-(φ.p:ℤ)) ≤ 1 / 2 := by
    calc (2:ℚ) ^ (-(φ.p:ℤ)) ≤ 2 ^ (-1 : ℤ) := zpow_le_zpow_right₀ (by norm_num) (by omega)
      _ = 1 / 2 := by norm_num
  have hmq : |(m:ℚ)| < 2 ^ φ.p := by exact_mod_cast hm
  have hmq' := (abs_lt.mp hmq).2
  rcases le_or_gt m 0 with hm0 | hm0
  · have : (m:ℚ) ≤ 0 := by exact_mod_cast hm0
    nlinarith
  have hm1 : (1:ℚ) ≤ m := by exact_mod_cast hm0
  rcases le_or_gt 0 e with he | he
  · have : (1:ℚ) ≤ 2 ^ e := one_le_zpow₀ (by norm_num) he
    nlinarith
  rcases le_or_gt (-e) φ.p with hj | hj
  · have e1 : (2:ℚ) ^ e * 2 ^ (-e).toNat = 1 := by
      rw [← zpow_natCast, Int.toNat_of_nonneg (by omega), ← zpow_add₀ (by norm_num)]; simp
    have h3 : (m:ℚ) < 2 ^ (-e).toNat := by
      have : (0:ℚ) < 2 ^ (-e).toNat := by positivity
      nlinarith
    have h4 : m + 1 ≤ 2 ^ (-e).toNat := by
      have : m < 2 ^ (-e).toNat := by exact_mod_cast h3
      omega
    have h5 : (m:ℚ) + 1 ≤ 2 ^ (-e).toNat := by exact_mod_cast h4
    have h6 : (2:ℚ) ^ (-(φ.p:ℤ)) ≤ 2 ^ e := zpow_le_zpow_right₀ (by norm_num) (by omega)
    nlinarith
  · have h3 : (2:ℚ) ^ φ.p * 2 ^ e ≤ 1 / 2 := by
      rw [← zpow_natCast, ← zpow_add₀ (by norm_num)]
      calc (2:ℚ) ^ ((φ.p:ℤ) + e) ≤ 2 ^ (-1 : ℤ) := zpow_le_zpow_right₀ (by norm_num) (by omega)
        _ = 1 / 2 := by norm_num
    nlinarith

theorem arccos_big {q : ℚ} (h : φ.Rep q) (h1 : q < 1) (hm : -1 ≤ q) : φ.thr ≤ arccos q := by
  refine φ.thr_le.trans ?_
  have h2 := rep_lt_one h h1
  have h2' : (q:ℝ) ≤ 1 - 2 ^ (-(φ.p : ℤ)) := by
    have := (Rat.cast_le (K := ℝ)).mpr h2; push_cast at this; exact this
  by_contra hc
  push Not at hc
  have hp := two_zpow_posR (-(φ.p : ℤ))
  have h0 := arccos_nonneg (q:ℝ)
  have hle : (2:ℝ) ^ (-(φ.p:ℤ)) ≤ 1 := by
    rw [zpow_neg]; exact inv_le_one_of_one_le₀ (one_le_zpow₀ (by norm_num) (by omega))
  have hcos := one_sub_sq_div_two_le_cos (x := arccos q)
  rw [cos_arccos (by exact_mod_cast hm) (by exact_mod_cast h1.le)] at hcos
  nlinarith

/-! ## Validity for all inputs -/

theorem inter_any {b : Itv} (h1 : b.lo.In φ) (h2 : b.hi.In φ) (hx : x.Ok φ) :
    (b.inter x).Ok φ ∧ (b.inter x).set ⊆ x.set := by
  by_cases hv : b.isValid = true
  · obtain ⟨i, j⟩ := Itv.inter_ok_set (Itv.ok_iff_isValid.mpr ⟨hv, h1, h2⟩) hx
    exact ⟨i, by rw [j]; exact Set.inter_subset_right⟩
  · have : b.inter x = Itv.empty := by simp [Itv.inter, hv]
    rw [this]; exact ⟨Itv.ok_empty φ, by simp⟩

theorem conv_in (m : Rnd) (a : FP) : (φ.conv m a).In φ := by
  by_cases h : a = .nan
  · subst h; trivial
  · exact (conv_spec φ m h).2.2

def BoxIn (φ : Fmt) (box : ℤ → FP → FP → Itv) : Prop := ∀ k a b, (box k a b).lo.In φ ∧ (box k a b).hi.In φ

theorem shift_in (k : ℤ) (a b cl cu : FP) : (φ.shiftBox k a b cl cu).lo.In φ ∧ (φ.shiftBox k a b cl cu).hi.In φ :=
  ⟨conv_in _ _, conv_in _ _⟩

theorem mirror_in (k : ℤ) (a b cl cu : FP) : (φ.mirrorBox k a b cl cu).lo.In φ ∧ (φ.mirrorBox k a b cl cu).hi.In φ :=
  ⟨FP.neg_in (conv_in _ _), FP.neg_in (conv_in _ _)⟩

theorem sinBox_in (cl cu : FP) : BoxIn φ (φ.sinBox cl cu) := by
  intro k a b; unfold Fmt.sinBox; split_ifs
  exacts [shift_in _ _ _ _ _, mirror_in _ _ _ _ _]

theorem cosBox_in (cl cu : FP) : BoxIn φ (φ.cosBox cl cu) := by
  intro k a b; unfold Fmt.cosBox; split_ifs
  exacts [shift_in _ _ _ _ _, mirror_in _ _ _ _ _]

theorem tanBox_in (cl cu : FP) : BoxIn φ (φ.tanBox cl cu) := fun k a b => shift_in _ _ _ _ _

theorem firstOf_any {b b' : Itv} (h1 : b.lo.In φ ∧ b.hi.In φ) (h2 : b'.lo.In φ ∧ b'.hi.In φ) (hx : x.Ok φ) :
    (b.firstOf b' x).Ok φ ∧ (b.firstOf b' x).set ⊆ x.set := by
  unfold Itv.firstOf; split_ifs
  exacts [inter_any h2.1 h2.2 hx, inter_any h1.1 h1.2 hx]

theorem emptyFam (φ : Fmt) : Family φ 0 (φ.tanBox (.fin 0) (.fin 0)) (tanBranch {0}) :=
  tan_family ⟨0, rfl⟩ (by rintro u rfl; constructor <;> linarith [pi_pos]) (by rintro u rfl; simp [FP.q])
    (by simp [FP.q]) (by simp [FP.q])

theorem leftBox_any {box : ℤ → FP → FP → Itv} (hb : BoxIn φ box) (hx : x.NE φ) :
    (φ.leftBox box x).Ok φ ∧ (φ.leftBox box x).set ⊆ x.set := by
  by_cases h0 : x.lo.feq .ninf = true
  · have := left_cover (S := ∅) (emptyFam φ) le_rfl hx
      (fun h => absurd (by rw [show x.lo = .ninf by simpa [Itv.feq_ninf] using h0]; rfl) h) (by simp) (by simp)
    have e : φ.leftBox box x = φ.leftBox (φ.tanBox (.fin 0) (.fin 0)) x := by
      unfold Fmt.leftBox; rw [if_pos h0, if_pos h0]
    rw [e]; exact ⟨this.1, this.2.1⟩
  · unfold Fmt.leftBox
    rw [if_neg h0]
    split_ifs
    exacts [firstOf_any (hb _ _ _) (hb _ _ _) hx.ok, firstOf_any (hb _ _ _) (hb _ _ _) hx.ok]

theorem rightBox_any {quo : ℚ → ℚ → ℤ} {box : ℤ → FP → FP → Itv} (hb : BoxIn φ box) (hx : x.NE φ) :
    (φ.rightBox quo box x).Ok φ ∧ (φ.rightBox quo box x).set ⊆ x.set := by
  by_cases h0 : x.hi.feq .pinf = true
  · have hf : ¬ x.hi.toE ≠ ⊤ := by rw [show x.hi = .pinf by simpa [Itv.feq_pinf] using h0]; simp
    have hq : x.hi.q = 0 := by rw [show x.hi = .pinf by simpa [Itv.feq_pinf] using h0]; rfl
    have := right_cover (S := ∅) (quo := ceilQuo) (emptyFam φ) le_rfl (by norm_num) hx (fun h => absurd h hf)
      (by intro y hy h
          obtain ⟨f1, f2⟩ := ceilQuo_spec hy h
          push_cast
          refine ⟨by linarith, by linarith, by norm_num, fun _ => by linarith⟩) (by simp) (by simp)
    have e : φ.rightBox quo box x = φ.rightBox ceilQuo (φ.tanBox (.fin 0) (.fin 0)) x := by
      unfold Fmt.rightBox; rw [if_pos h0, if_pos h0]
    rw [e]; exact ⟨this.1, this.2.1⟩
  · unfold Fmt.rightBox
    rw [if_neg h0]
    split_ifs
    exacts [firstOf_any (hb _ _ _) (hb _ _ _) hx.ok, firstOf_any (hb _ _ _) (hb _ _ _) hx.ok]

theorem hull_any {quo : ℚ → ℚ → ℤ} {box : ℤ → FP → FP → Itv} (hb : BoxIn φ box) (hx : x.NE φ) :
    ((φ.leftBox box x).hull (φ.rightBox quo box x)).Ok φ ∧
    ((φ.leftBox box x).hull (φ.rightBox quo box x)).set ⊆ x.set := by
  obtain ⟨a1, a2⟩ := leftBox_any hb hx
  obtain ⟨b1, b2⟩ := rightBox_any (quo := quo) hb hx
  obtain ⟨h1, -, h3⟩ := Itv.hull_tight a1 b1
  exact ⟨h1, h3 x hx.ok (Set.union_subset a2 b2)⟩

theorem small_lo (h : x.SmallBounds φ) : RevSmall φ x.lo.q := by
  cases hl : x.lo with
  | fin q => exact h q (Or.inl hl)
  | _ => exact ⟨by simp [FP.q], by simp [FP.q]⟩

theorem small_hi (h : x.SmallBounds φ) : RevSmall φ x.hi.q := by
  cases hl : x.hi with
  | fin q => exact h q (Or.inr hl)
  | _ => exact ⟨by simp [FP.q], by simp [FP.q]⟩

theorem ceil_quo (q : ℚ) : ∀ y : ℚ, 3 ≤ y → |q| ≤ 2 ^ 64 →
      ((ceilQuo q y : ℚ) + (0:ℤ) - 1) * y ≤ q ∧ q ≤ ((ceilQuo q y : ℚ) + (0:ℤ)) * y ∧
      ((0:ℤ) = 1 → q < ((ceilQuo q y : ℚ) + (0:ℤ)) * y) ∧ ((0:ℤ) = 0 → ((ceilQuo q y : ℚ) + (0:ℤ) - 1) * y < q) := by
  intro y hy h
  obtain ⟨f1, f2⟩ := ceilQuo_spec hy h
  push_cast
  refine ⟨by linarith, by linarith, by norm_num, fun _ => by linarith⟩

theorem floor_quo (q : ℚ) : ∀ y : ℚ, 3 ≤ y → |q| ≤ 2 ^ 64 →
      ((floorQuo q y : ℚ) + (1:ℤ) - 1) * y ≤ q ∧ q ≤ ((floorQuo q y : ℚ) + (1:ℤ)) * y ∧
      ((1:ℤ) = 1 → q < ((floorQuo q y : ℚ) + (1:ℤ)) * y) ∧ ((1:ℤ) = 0 → ((floorQuo q y : ℚ) + (1:ℤ) - 1) * y < q) := by
  intro y hy h
  obtain ⟨f1, f2⟩ := floorQuo_spec hy h
  push_cast
  refine ⟨by linarith, by linarith, fun _ => by linarith, by norm_num⟩

theorem round_loc {s : ℝ} {k n : ℤ} (h : |s - k * π| ≤ π / 2) :
    (n * π ≤ s → n ≤ k) ∧ (s ≤ (n + (0:ℤ)) * π → k ≤ n) := by
  have hp := pi_pos
  obtain ⟨h1, h2⟩ := abs_le.mp h
  constructor
  · intro h3
    by_contra hc
    have : (k:ℝ) + 1 ≤ n := by exact_mod_cast (by omega : k + 1 ≤ n)
    nlinarith
  · intro h3
    push_cast at h3
    by_contra hc
    have : (n:ℝ) + 1 ≤ k := by exact_mod_cast (by omega : n + 1 ≤ k)
    nlinarith

end P1788
