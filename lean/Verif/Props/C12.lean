import Verif.Lemmas.Atan2b
import Verif.Props.C13

/-! # C12: inverse trigonometric functions -/

namespace P1788
open Filter Topology
variable {φ : Fmt} {x y : Itv}

theorem unitItv_NE (φ : Fmt) : (Itv.mk (.fin (-1)) (.fin 1)).NE φ :=
  ⟨by simp, by simp, by
    show (((-1:ℚ):ℝ):EReal) ≤ (((1:ℚ):ℝ):EReal)
    exact_mod_cast (by norm_num : (-1:ℝ) ≤ 1), EReal.coe_ne_top _, EReal.coe_ne_bot _, rep_neg_one φ, rep_one φ⟩

theorem unitItv_mem {r : ℝ} : r ∈ (Itv.mk (.fin (-1)) (.fin 1)).set ↔ -1 ≤ r ∧ r ≤ 1 := by
  show (((-1:ℚ):ℝ) ≤ r ∧ r ≤ ((1:ℚ):ℝ)) ↔ _
  norm_num

theorem arcf_ulim (f : ℝ → ℝ) (m : Rnd) {a : FP} (ha : a ≠ .nan) (h1 : -1 ≤ a.toE) (h2 : a.toE ≤ 1) :
    ULim φ m f a (φ.arcf m f a) := by
  cases a with
  | nan => exact absurd rfl ha
  | ninf => rw [ereal_neg_one] at h1; exact absurd (le_bot_iff.mp h1) (EReal.coe_ne_bot _)
  | pinf => exact absurd (top_le_iff.mp h2) (EReal.coe_ne_top 1)
  | nzero => exact ULim.un (vn := .nan) (vp := .nan) ha (by simp) (by simp)
  | fin q =>
    rw [FP.toE_fin] at h1 h2
    rw [ereal_neg_one] at h1
    have h1 : (-1:ℝ) ≤ q := by exact_mod_cast h1
    have h2 : (q:ℝ) ≤ 1 := by exact_mod_cast h2
    have h1 : -1 ≤ q := by exact_mod_cast h1
    have h2 : q ≤ 1 := by exact_mod_cast h2
    have : ¬ (q < -1 ∨ 1 < q) := by push Not; exact ⟨h1, h2⟩
    simp only [Fmt.arcf, this, if_false]
    exact ULim.fin φ m f q

/-- The part of `x` inside `[-1,1]`. -/
theorem inter_unit (hx : x.Ok φ) :
    (x.inter ⟨.fin (-1), .fin 1⟩ = Itv.empty ∧ {a ∈ x.set | -1 ≤ a ∧ a ≤ 1} = ∅) ∨
    ((x.inter ⟨.fin (-1), .fin 1⟩).NE φ ∧ (x.inter ⟨.fin (-1), .fin 1⟩).set = {a ∈ x.set | -1 ≤ a ∧ a ≤ 1} ∧
      -1 ≤ (x.inter ⟨.fin (-1), .fin 1⟩).lo.toE ∧ (x.inter ⟨.fin (-1), .fin 1⟩).lo.toE ≤ 1 ∧
      -1 ≤ (x.inter ⟨.fin (-1), .fin 1⟩).hi.toE ∧ (x.inter ⟨.fin (-1), .fin 1⟩).hi.toE ≤ 1) := by
  have hI := Itv.inter_ok_set hx (unitItv_NE φ).ok
  have e : (x.inter ⟨.fin (-1), .fin 1⟩).set = {a ∈ x.set | -1 ≤ a ∧ a ≤ 1} := by
    rw [hI.2]; ext r; simp only [Set.mem_inter_iff, unitItv_mem, Set.mem_ofPred_eq]
  rcases hI.1.cases with h | h
  · left; refine ⟨h, ?_⟩
    rw [← e, h]; simp
  · right
    have hsub := (Itv.NE.subset_iff h (unitItv_NE φ)).mp (by rw [hI.2]; exact Set.inter_subset_right)
    rw [toE_one, toE_neg_one] at hsub
    exact ⟨h, e, hsub.1, h.le.trans hsub.2, hsub.1.trans h.le, hsub.2⟩

/-- `asin(x)` encloses the arc sines of the members inside `[-1,1]`. -/
theorem C12_asin (hx : x.Ok φ) :
    Tightest φ (φ.asinI x) (Real.arcsin '' {a ∈ x.set | -1 ≤ a ∧ a ≤ 1}) := by
  simp only [Fmt.asinI, hx.isValid, Bool.not_true, Bool.false_eq_true, if_false]
  rcases inter_unit hx with ⟨h, h'⟩ | ⟨hN, e, a1, a2, a3, a4⟩
  · rw [h, h', if_pos (by simp)]; exact tightest_empty' rfl (by simp)
  · rw [hN.isEmpty, if_neg (by simp), ← e]
    exact tight_mono hN (Real.monotone_arcsin.monotoneOn _) (arcf_ulim _ _ hN.lo_ne a1 a2)
      (arcf_ulim _ _ hN.hi_ne a3 a4)

/-- `acos(x)`. -/
theorem C12_acos (hx : x.Ok φ) :
    Tightest φ (φ.acosI x) (Real.arccos '' {a ∈ x.set | -1 ≤ a ∧ a ≤ 1}) := by
  simp only [Fmt.acosI, hx.isValid, Bool.not_true, Bool.false_eq_true, if_false]
  rcases inter_unit hx with ⟨h, h'⟩ | ⟨hN, e, a1, a2, a3, a4⟩
  · rw [h, h', if_pos (by simp)]; exact tightest_empty' rfl (by simp)
  · rw [hN.isEmpty, if_neg (by simp), ← e]
    exact tight_anti hN (Real.antitone_arccos.antitoneOn _) (arcf_ulim _ _ hN.hi_ne a3 a4)
      (arcf_ulim _ _ hN.lo_ne a1 a2)

/-- `atan(x)`. -/
theorem C12_atan (hx : x.Ok φ) : Tightest φ (φ.atanI x) (Real.arctan '' x.set) := by
  rcases hx.cases with rfl | hx
  · exact tightest_empty' (by simp [Fmt.atanI]) (by simp)
  simp only [Fmt.atanI, hx.isValid, hx.isEmpty, Bool.not_true, Bool.or_self, Bool.false_eq_true, if_false]
  have hn : ∀ m, ULim φ m Real.arctan .ninf (φ.round m (-(Real.pi / 2))) := fun m =>
    ULim.mk_ninf_real (tendsto_nhds_of_tendsto_nhdsWithin Real.tendsto_arctan_atBot) (by rw [Fmt.rndE_coe])
      (φ.round_ne_nan _ _) (φ.round_in _ _)
  have hp : ∀ m, ULim φ m Real.arctan .pinf (φ.round m (Real.pi / 2)) := fun m =>
    ULim.mk_pinf_real (tendsto_nhds_of_tendsto_nhdsWithin Real.tendsto_arctan_atTop) (by rw [Fmt.rndE_coe])
      (φ.round_ne_nan _ _) (φ.round_in _ _)
  exact tight_mono hx (Real.arctan_strictMono.monotone.monotoneOn _)
    (ULim.un hx.lo_ne (fun _ => hn _) (fun _ => hp _)) (ULim.un hx.hi_ne (fun _ => hn _) (fun _ => hp _))

/-- Angles of the points of a rectangle, the origin excluded: `Complex.arg ⟨a, b⟩` is the angle in `(-π, π]` of the
point with abscissa `a` and ordinate `b`. -/
def angles (Y X : Set ℝ) : Set ℝ := range2 (fun b a => Complex.arg ⟨a, b⟩) {p | p ≠ (0, 0)} Y X

theorem angles_eq : angles y.set x.set = thp '' pairs0 y x := by
  ext z; constructor
  · rintro ⟨b, hb, a, ha, h, rfl⟩
    exact ⟨(b, a), ⟨hb, ha, fun hc => h (Prod.ext hc.1 hc.2)⟩, rfl⟩
  · rintro ⟨⟨b, a⟩, ⟨hb, ha, h⟩, rfl⟩
    exact ⟨b, hb, a, ha, fun hc => h ⟨(Prod.ext_iff.mp hc).1, (Prod.ext_iff.mp hc).2⟩, rfl⟩

/-- `atan2(y, x)` is the tightest enclosure of the angles of the points `(a, b)`, `b ∈ y`, `a ∈ x`, other than
the origin. -/
theorem C12_atan2 (hy : y.Ok φ) (hx : x.Ok φ) : Tightest φ (φ.atan2I y x) (angles y.set x.set) := by
  rcases hy.cases with rfl | hy
  · exact tightest_empty' (by simp [Fmt.atan2I]) (by simp [angles, range2])
  rcases hx.cases with rfl | hx
  · exact tightest_empty' (by simp [Fmt.atan2I]) (by simp [angles, range2])
  rw [angles_eq]
  simp only [Fmt.atan2I, hx.isValid, hx.isEmpty, hy.isValid, hy.isEmpty, Bool.not_true, Bool.or_self,
    Bool.and_eq_true, NE.eq0_iff hx.lo_ne, NE.eq0_iff hx.hi_ne, NE.eq0_iff hy.lo_ne, NE.eq0_iff hy.hi_ne,
    NE.le0_iff hx.hi_ne, NE.le0_iff hy.hi_ne, NE.ge0_iff hx.lo_ne, NE.ge0_iff hy.lo_ne, NE.gt0_iff hy.hi_ne,
    NE.lt0_iff hy.lo_ne, Bool.false_or]
  by_cases g0 : ((y.lo.toE = 0 ∧ y.hi.toE = 0) ∧ x.lo.toE = 0) ∧ x.hi.toE = 0
  · rw [if_pos g0]
    refine tightest_empty' rfl ?_
    rw [Set.image_eq_empty, Set.eq_empty_iff_forall_notMem]
    rintro ⟨b, a⟩ ⟨hb, ha, hn⟩
    refine hn ⟨le_antisymm (hy.nonpos g0.1.1.2.le hb) (hy.nonneg g0.1.1.1.ge hb),
      le_antisymm (hx.nonpos g0.2.le ha) (hx.nonneg g0.1.2.ge ha)⟩
  rw [if_neg g0]
  have piL : (φ.constPi .D).toE = φ.rdE (Real.pi : EReal) := by rw [Fmt.rdE_coe]; rfl
  by_cases g1 : 0 ≤ y.lo.toE ∧ 0 < y.hi.toE
  · rw [if_pos g1]
    by_cases g2 : x.lo.toE = 0 ∧ x.hi.toE = 0
    · rw [if_pos g2]
      exact tight_low_upp (at2_low2 hy hx (g2.1.trans g2.2.symm) hx.lo_ne g1.1 g1.2 g2.2.le)
        (at2_upp1 hy hx g1.2 g2.1.ge)
    rw [if_neg g2]
    by_cases g3 : 0 ≤ x.lo.toE
    · rw [if_pos g3]
      have : 0 < x.hi.toE := by
        rcases (g3.trans hx.le).eq_or_lt with h | h
        · exact absurd ⟨le_antisymm (hx.le.trans h.ge) g3, h.symm⟩ g2
        · exact h
      exact tight_low_upp (at2_low1 hy hx g1.1 this) (at2_upp1 hy hx g1.2 g3)
    rw [if_neg g3]
    have g3 := not_le.mp g3
    by_cases g4 : x.hi.toE ≤ 0
    · rw [if_pos g4]
      have hl := at2_low2 hy hx rfl hx.hi_ne g1.1 g1.2 g4
      by_cases g5 : y.lo.toE = 0
      · rw [if_pos g5]
        exact tight_low_upp hl (at2_upp_pi hx (hy.zero_lo g5) g3)
      · rw [if_neg g5]
        exact tight_low_upp hl (at2_upp2 hy hx (lt_of_le_of_ne g1.1 (Ne.symm g5)) g3)
    rw [if_neg g4]
    have g4 := not_le.mp g4
    by_cases g5 : y.lo.toE = 0
    · rw [if_pos g5]
      refine tight_low_upp ?_ (at2_upp_pi hx (hy.zero_lo g5) g3)
      obtain ⟨r, hr, hr0⟩ := (hx.ev_hi.and (ev_pos g4)).exists
      have e0 : thp (0, r) = 0 := th_zero_nonneg hr0.le
      refine Low.attained (q := (0, r)) ⟨hy.zero_lo g5, hr, fun hc => hr0.ne' hc.2⟩ (fun p hp => ?_) ?_ (by simp)
        φ.rep_zero
      · rw [e0]; exact th_nonneg (hy.nonneg g1.1 hp.1)
      · rw [e0]; simp
    · rw [if_neg g5]
      exact tight_low_upp (at2_low1 hy hx g1.1 g4) (at2_upp2 hy hx (lt_of_le_of_ne g1.1 (Ne.symm g5)) g3)
  rw [if_neg g1]
  by_cases g2 : y.lo.toE < 0 ∧ y.hi.toE ≤ 0
  · rw [if_pos g2]
    by_cases g3 : x.lo.toE = 0 ∧ x.hi.toE = 0
    · rw [if_pos g3]
      refine tight_low_upp (at2_low3 hy hx g2.1 g3.1.ge)
        (at2_upp5 hy hx (g3.1.trans g3.2.symm) hx.lo_ne g2.1 g3.2.le ?_)
      rintro ⟨b, a⟩ ⟨hb, ha, hn⟩
      exact lt_of_le_of_ne (hy.nonpos g2.2 hb)
        (fun e => hn ⟨e, le_antisymm (hx.nonpos g3.2.le ha) (hx.nonneg g3.1.ge ha)⟩)
    rw [if_neg g3]
    by_cases g4 : 0 ≤ x.lo.toE
    · rw [if_pos g4]
      have : 0 < x.hi.toE := by
        rcases (g4.trans hx.le).eq_or_lt with h | h
        · exact absurd ⟨le_antisymm (hx.le.trans h.ge) g4, h.symm⟩ g3
        · exact h
      exact tight_low_upp (at2_low3 hy hx g2.1 g4) (at2_upp4 hy hx g2.2 this (Or.inr g4))
    rw [if_neg g4]
    have g4 := not_le.mp g4
    by_cases g5 : x.hi.toE ≤ 0
    · rw [if_pos g5]
      by_cases g6 : y.hi.toE = 0
      · rw [if_pos g6]
        exact tight_low_upp (at2_low_pi hy hx g2.1 g6.ge g4) (at2_upp_pi hx (hy.zero_hi g6) g4)
      · have g6' := lt_of_le_of_ne g2.2 g6
        rw [if_neg g6]
        exact tight_low_upp (at2_low4 hy hx g6' g4)
          (at2_upp5 hy hx rfl hx.hi_ne g2.1 g5 (fun p hp => hy.negv g6' hp.1))
    · rw [if_neg g5]
      by_cases g6 : y.hi.toE = 0
      · rw [if_pos g6]
        exact tight_low_upp (at2_low_pi hy hx g2.1 g6.ge g4) (at2_upp_pi hx (hy.zero_hi g6) g4)
      · have g6' := lt_of_le_of_ne g2.2 g6
        rw [if_neg g6]
        exact tight_low_upp (at2_low4 hy hx g6' g4) (at2_upp4 hy hx g2.2 (not_le.mp g5) (Or.inl g6'))
  rw [if_neg g2]
  by_cases g3 : y.lo.toE = 0 ∧ y.hi.toE = 0
  · rw [if_pos g3]
    have hb0 : ∀ p ∈ pairs0 y x, p.1 = 0 := fun p hp =>
      le_antisymm (hy.nonpos g3.2.le hp.1) (hy.nonneg g3.1.ge hp.1)
    have low0 : 0 < x.hi.toE → Low φ thp (pairs0 y x) (.fin 0) := fun h => by
      obtain ⟨r, hr, hr0⟩ := (hx.ev_hi.and (ev_pos h)).exists
      have e0 : thp (0, r) = 0 := th_zero_nonneg hr0.le
      refine Low.attained (q := (0, r)) ⟨hy.zero_lo g3.1, hr, fun hc => hr0.ne' hc.2⟩ (fun p hp => ?_) ?_ (by simp)
        φ.rep_zero
      · rw [e0]; exact th_nonneg (hb0 p hp).ge
      · rw [e0]; simp
    by_cases g4 : 0 ≤ x.lo.toE
    · rw [if_pos g4]
      have hp : 0 < x.hi.toE := by
        rcases (g4.trans hx.le).eq_or_lt with h | h
        · exact absurd ⟨⟨g3, le_antisymm (hx.le.trans h.ge) g4⟩, h.symm⟩ g0
        · exact h
      refine tight_low_upp (low0 hp) ?_
      obtain ⟨r, hr, hr0⟩ := (hx.ev_hi.and (ev_pos hp)).exists
      have e0 : thp (0, r) = 0 := th_zero_nonneg hr0.le
      refine Upp.attained (q := (0, r)) ⟨hy.zero_lo g3.1, hr, fun hc => hr0.ne' hc.2⟩ (fun p hp => ?_) ?_ (by simp)
        φ.rep_zero
      · have e1 : thp p = 0 := by
          show th p.1 p.2 = 0
          rw [hb0 p hp]; exact th_zero_nonneg (hx.nonneg g4 hp.2.1)
        rw [e0, e1]
      · rw [e0]; simp
    rw [if_neg g4]
    have g4 := not_le.mp g4
    by_cases g5 : x.hi.toE ≤ 0
    · rw [if_pos g5]
      refine tight_low_upp ?_ (at2_upp_pi hx (hy.zero_lo g3.1) g4)
      obtain ⟨r, hr, hr0⟩ := (hx.ev_lo.and (ev_neg g4)).exists
      have e0 : thp (0, r) = Real.pi := th_zero_neg hr0
      refine Low.attained (q := (0, r)) ⟨hy.zero_lo g3.1, hr, fun hc => hr0.ne hc.2⟩ (fun p hp => ?_) ?_
        (φ.round_ne_nan _ _) (φ.round_in _ _)
      · have e1 : thp p = Real.pi := by
          show th p.1 p.2 = _
          rw [hb0 p hp]
          exact th_zero_neg (lt_of_le_of_ne (hx.nonpos g5 hp.2.1) (fun e => hp.2.2 ⟨hb0 p hp, e⟩))
        rw [e0, e1]
      · rw [e0]; exact piL
    · rw [if_neg g5]
      exact tight_low_upp (low0 (not_le.mp g5)) (at2_upp_pi hx (hy.zero_lo g3.1) g4)
  rw [if_neg g3]
  have hl : y.lo.toE < 0 := by
    by_contra hc
    have hc := not_lt.mp hc
    have : y.hi.toE ≤ 0 := by
      by_contra h; exact g1 ⟨hc, not_le.mp h⟩
    exact g3 ⟨le_antisymm (hy.le.trans this) hc, le_antisymm this (hc.trans hy.le)⟩
  have hu : 0 < y.hi.toE := by
    by_contra hc
    exact g2 ⟨hl, not_lt.mp hc⟩
  by_cases g4 : 0 ≤ x.lo.toE
  · rw [if_pos g4]
    exact tight_low_upp (at2_low3 hy hx hl g4) (at2_upp1 hy hx hu g4)
  · rw [if_neg g4]
    have g4 := not_le.mp g4
    exact tight_low_upp (at2_low_pi hy hx hl hu.le g4)
      (at2_upp_pi hx (hy.mem.mpr ⟨by exact_mod_cast hl.le, by exact_mod_cast hu.le⟩) g4)

/-- Non-vacuity: a rectangle meeting the branch cut from below. -/
example : (Itv.mk (.fin (-1)) (.fin 0)).Ok binary64 ∧ (Itv.mk .ninf (.fin 3)).Ok binary64 ∧
    Real.pi ∈ angles (Itv.mk (.fin (-1)) (.fin 0)).set (Itv.mk .ninf (.fin 3)).set :=
  ⟨Itv.ok_of_okb (by decide +kernel), Itv.ok_of_okb (by decide +kernel),
   ⟨0, ⟨by norm_num [FP.BelowR], by norm_num [FP.AboveR]⟩, -2, ⟨by norm_num [FP.BelowR], by norm_num [FP.AboveR]⟩,
    by simp, (Complex.arg_eq_pi_iff.mpr ⟨by norm_num, rfl⟩).symm⟩⟩

end P1788
