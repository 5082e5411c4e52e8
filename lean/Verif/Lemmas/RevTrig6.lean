import Verif.Lemmas.RevTrig5

/-! # Bounds of boxes from the other side (for the counterexamples) -/

namespace P1788
open Real

variable {φ : Fmt} {x : Itv}

theorem conv_U_le {v : FP} {B : ℚ} (hB : φ.Rep B) (hn : v ≠ .nan) (h : v.toE ≤ ((B:ℝ):EReal)) :
    (φ.conv .U v).toE ≤ ((B:ℝ):EReal) := by
  rw [(conv_spec φ .U hn).2.1, Fmt.rndE_U]
  exact (φ.ruE_le_iff (f := .fin B) hB _ (by simp)).mpr h

theorem le_conv_D {v : FP} {B : ℚ} (hB : φ.Rep B) (hn : v ≠ .nan) (h : ((B:ℝ):EReal) ≤ v.toE) :
    ((B:ℝ):EReal) ≤ (φ.conv .D v).toE := by
  rw [(conv_spec φ .D hn).2.1, Fmt.rndE_D]
  exact (φ.le_rdE_iff (f := .fin B) hB _ (by simp)).mpr h

theorem fma_U_le {a b c : FP} {B : ℚ} (hB : φ.Rep B) (h : a.q * b.q + c.q ≤ B)
    (hb : a.q * b.q + c.q = 0 ∨ φ.thr ≤ |((a.q * b.q + c.q : ℚ) : ℝ)|) : (φ.fmaNS .U a b c).toE ≤ ((B:ℝ):EReal) := by
  rw [(φ.fmaNS_exact .U hb).1, Fmt.rndE_U]
  exact (φ.ruE_le_iff (f := .fin B) hB _ (by simp)).mpr (EReal.coe_le_coe_iff.mpr (by exact_mod_cast h))

theorem le_fma_D {a b c : FP} {B : ℚ} (hB : φ.Rep B) (h : B ≤ a.q * b.q + c.q)
    (hb : a.q * b.q + c.q = 0 ∨ φ.thr ≤ |((a.q * b.q + c.q : ℚ) : ℝ)|) : ((B:ℝ):EReal) ≤ (φ.fmaNS .D a b c).toE := by
  rw [(φ.fmaNS_exact .D hb).1, Fmt.rndE_D]
  exact (φ.le_rdE_iff (f := .fin B) hB _ (by simp)).mpr (EReal.coe_le_coe_iff.mpr (by exact_mod_cast h))

section
variable {k : ℤ} {a b cl cu : FP} {B : ℚ}

theorem shift_hi_le (hB : φ.Rep B) (h : (φ.round .N (k:ℚ)).q * b.q + cu.q ≤ B)
    (hb : (φ.round .N (k:ℚ)).q * b.q + cu.q = 0 ∨ φ.thr ≤ |(((φ.round .N (k:ℚ)).q * b.q + cu.q : ℚ) : ℝ)|) :
    (φ.shiftBox k a b cl cu).hi.toE ≤ ((B:ℝ):EReal) :=
  conv_U_le hB (φ.fmaNS_ne_nan _ _ _ _) (fma_U_le hB h hb)

theorem le_shift_lo (hB : φ.Rep B) (h : B ≤ (φ.round .N (k:ℚ)).q * a.q + cl.q)
    (hb : (φ.round .N (k:ℚ)).q * a.q + cl.q = 0 ∨ φ.thr ≤ |(((φ.round .N (k:ℚ)).q * a.q + cl.q : ℚ) : ℝ)|) :
    ((B:ℝ):EReal) ≤ (φ.shiftBox k a b cl cu).lo.toE :=
  le_conv_D hB (φ.fmaNS_ne_nan _ _ _ _) (le_fma_D hB h hb)

theorem mirror_hi_le (hB : φ.Rep B) (h : -B ≤ (φ.round .N (k:ℚ)).q * b.q + cl.q)
    (hb : (φ.round .N (k:ℚ)).q * b.q + cl.q = 0 ∨ φ.thr ≤ |(((φ.round .N (k:ℚ)).q * b.q + cl.q : ℚ) : ℝ)|) :
    (φ.mirrorBox k a b cl cu).hi.toE ≤ ((B:ℝ):EReal) := by
  have h1 := le_fma_D hB.neg h hb
  have h2 := conv_spec φ .U (φ.fmaNS_ne_nan .D (φ.round .N (k:ℚ)) b cl)
  show (φ.conv .U _).neg.toE ≤ _
  rw [FP.toE_neg, h2.2.1, Fmt.rndE_U, EReal.neg_le]
  push_cast at h1
  exact h1.trans (φ.le_ruE _)

theorem le_mirror_lo (hB : φ.Rep B) (h : (φ.round .N (k:ℚ)).q * a.q + cu.q ≤ -B)
    (hb : (φ.round .N (k:ℚ)).q * a.q + cu.q = 0 ∨ φ.thr ≤ |(((φ.round .N (k:ℚ)).q * a.q + cu.q : ℚ) : ℝ)|) :
    ((B:ℝ):EReal) ≤ (φ.mirrorBox k a b cl cu).lo.toE := by
  have h1 := fma_U_le hB.neg h hb
  have h2 := conv_spec φ .D (φ.fmaNS_ne_nan .U (φ.round .N (k:ℚ)) a cu)
  show _ ≤ (φ.conv .D _).neg.toE
  rw [FP.toE_neg, h2.2.1, Fmt.rndE_D, EReal.le_neg]
  push_cast at h1
  exact (φ.rdE_le _).trans h1
end

theorem inter_below {b : Itv} (h1 : b.lo.In φ ∧ b.hi.In φ) (hx : x.NE φ) (hlt : b.hi.toE < x.lo.toE) (hn : b.hi ≠ .nan) :
    (b.inter x).set = ∅ := by
  by_cases hv : b.isValid = true
  · have ok := Itv.ok_iff_isValid.mpr ⟨hv, h1.1, h1.2⟩
    obtain ⟨i, j⟩ := Itv.inter_ok_set ok hx.ok
    rcases ok.cases with h | nb
    · rw [j, h]; simp
    · rw [j, Set.eq_empty_iff_forall_notMem]
      rintro t ⟨ht1, ht2⟩
      exact absurd ((hx.mem.mp ht2).1.trans (nb.mem.mp ht1).2) (not_le.mpr hlt)
  · have : b.inter x = Itv.empty := by simp [Itv.inter, hv]
    rw [this]; simp

theorem inter_sub {b : Itv} (h1 : b.lo.In φ ∧ b.hi.In φ) (hx : x.NE φ) {Y : Set ℝ}
    (h : ∀ t : ℝ, b.lo.toE ≤ (t:EReal) → (t:EReal) ≤ x.hi.toE → t ∈ Y) : (b.inter x).set ⊆ Y := by
  by_cases hv : b.isValid = true
  · have ok := Itv.ok_iff_isValid.mpr ⟨hv, h1.1, h1.2⟩
    obtain ⟨i, j⟩ := Itv.inter_ok_set ok hx.ok
    rcases ok.cases with h | nb
    · rw [j, h]; simp
    · rw [j]
      rintro t ⟨ht1, ht2⟩
      exact h t (nb.mem.mp ht1).1 (hx.mem.mp ht2).2
  · have : b.inter x = Itv.empty := by simp [Itv.inter, hv]
    rw [this]; simp

theorem firstOf_sub {b b' : Itv} {Y : Set ℝ} (h1 : (b.inter x).set ⊆ Y) (h2 : (b'.inter x).set ⊆ Y) :
    (b.firstOf b' x).set ⊆ Y := by
  unfold Itv.firstOf; split_ifs <;> assumption

theorem floorQuo_eq {q y : ℚ} {n : ℤ} (hy : 3 ≤ y) (hq : |q| ≤ 2 ^ 64) (h1 : n * y ≤ q) (h2 : q < (n + 1) * y) :
    floorQuo q y = n := by
  obtain ⟨f1, f2⟩ := floorQuo_spec hy hq
  have a1 : (floorQuo q y : ℚ) < n + 1 := by nlinarith
  have a2 : (n : ℚ) < floorQuo q y + 1 := by nlinarith
  have b1 : floorQuo q y < n + 1 := by exact_mod_cast a1
  have b2 : n < floorQuo q y + 1 := by exact_mod_cast a2
  omega

theorem ceilQuo_eq {q y : ℚ} {n : ℤ} (hy : 3 ≤ y) (hq : |q| ≤ 2 ^ 64) (h1 : (n - 1) * y < q) (h2 : q ≤ n * y) :
    ceilQuo q y = n := by
  obtain ⟨f1, f2⟩ := ceilQuo_spec hy hq
  have a1 : (ceilQuo q y : ℚ) - 1 < n := by nlinarith
  have a2 : (n : ℚ) - 1 < ceilQuo q y := by nlinarith
  have b1 : ceilQuo q y - 1 < n := by exact_mod_cast a1
  have b2 : n - 1 < ceilQuo q y := by exact_mod_cast a2
  omega

theorem ne_fin {a b : ℚ} (ha : φ.Rep a) (hb : φ.Rep b) (h : a ≤ b) : Itv.NE φ ⟨.fin a, .fin b⟩ :=
  ⟨by simp, by simp, by simp only [FP.toE]; exact EReal.coe_le_coe_iff.mpr (by exact_mod_cast h), EReal.coe_ne_top _,
    EReal.coe_ne_bot _, ha, hb⟩

theorem rep_pow {j : ℤ} (h1 : φ.qmin ≤ j + 1 - φ.p) (h2 : j + 1 ≤ φ.emax) : φ.Rep (2 ^ j) := by
  have hp := φ.p_pos
  refine ⟨2 ^ (φ.p - 1), j + 1 - φ.p, ?_, ?_, h1, by omega⟩
  · push_cast
    rw [← zpow_natCast, ← zpow_add₀ (by norm_num)]
    congr 1; push_cast [Nat.cast_sub (show 1 ≤ φ.p by omega)]; ring
  · rw [abs_of_pos (by positivity)]
    exact pow_lt_pow_right₀ (by norm_num) (by omega)

theorem mem_fin {a b : ℚ} {t : ℝ} : t ∈ Itv.set ⟨.fin a, .fin b⟩ ↔ (a:ℝ) ≤ t ∧ t ≤ b := Iff.rfl

end P1788
