import Verif.Props.C33
import Verif.Props.C20c

/-!
# C33, second part: the mixed-type tangent

The tangent is computed in the widest type involved.  It is wrong only if that type is `double` and the interval is bad for it (C11).
Intervals with bounds of type `float` are never bad: no difference of two `float` numbers is that close to `π`.
-/

namespace P1788
open Real
variable {φ ψ : Fmt} {T T1 : NumTy}

/-- Whether an interval is bad for the tangent depends on its points only. -/
theorem TanBad.congr {x y : Itv} (hx : x.Ok ψ) (hy : y.Ok φ) (h : x.set = y.set) (hb : TanBad φ x) : TanBad φ y := by
  obtain ⟨⟨t, ht, hc⟩, a, b, ha, hb, hw⟩ := hb
  have hX : x.NE ψ := by
    rcases hx.cases with rfl | hN
    · simp at ht
    · exact hN
  have hY : y.NE φ := by
    rcases hy.cases with rfl | hN
    · rw [h] at ht; simp at ht
    · exact hN
  have hab : a ≤ b := by have := hX.le; rw [ha, hb] at this; exact_mod_cast this
  have hm : ∀ t, t ∈ y.set ↔ a ≤ t ∧ t ≤ b := fun t => by
    rw [← h, hX.mem, ha, hb]; exact_mod_cast Iff.rfl
  have ma := hY.mem.mp ((hm a).mpr ⟨le_rfl, hab⟩)
  have mb := hY.mem.mp ((hm b).mpr ⟨hab, le_rfl⟩)
  refine ⟨⟨t, h ▸ ht, hc⟩, a, b, le_antisymm ma.1 ?_, le_antisymm ?_ mb.2, hw⟩
  · by_contra hlt
    obtain ⟨s, hs, hsa⟩ := hY.ex_gt.mpr (not_le.mp hlt)
    exact absurd ((hm s).mp hs).1 (not_le.mpr hsa)
  · by_contra hlt
    obtain ⟨s, hs, hsa⟩ := hY.ex_lt.mpr (not_le.mp hlt)
    exact absurd ((hm s).mp hs).2 (not_le.mpr hsa)

/-- The `float` numbers that are not too small lie on a coarse grid. -/
theorem float_grid {q : ℚ} (h : binary32.Rep q) (n : ℤ) (hq : (2:ℚ) ^ (24 - n - 1) ≤ |q|) : ∃ m : ℤ, q = m * 2 ^ (-n) := by
  obtain ⟨m, e, rfl, hm, -, -⟩ := h
  have hm : |m| < 2 ^ 24 := hm
  rcases le_or_gt (-n) e with he | he
  · refine ⟨m * 2 ^ (e + n).toNat, ?_⟩
    push_cast
    rw [← zpow_natCast, Int.toNat_of_nonneg (by omega), mul_assoc, ← zpow_add₀ (by norm_num)]
    congr 2; ring
  · exfalso
    rw [abs_mul, abs_of_pos (zpow_pos (by norm_num : (0:ℚ) < 2) e)] at hq
    have h1 : (2:ℚ) ^ e ≤ 2 ^ (-n - 1) := zpow_le_zpow_right₀ (by norm_num) (by omega)
    have h2 : (|(m:ℚ)|) < 2 ^ 24 := by exact_mod_cast hm
    have h3 : (2:ℚ) ^ (24 - n - 1) = 2 ^ 24 * 2 ^ (-n - 1) := by
      rw [← zpow_natCast, ← zpow_add₀ (by norm_num)]; congr 1; push_cast; ring
    have h4 : (0:ℚ) < 2 ^ (-n - 1) := zpow_pos (by norm_num) _
    rw [h3] at hq
    have : |(m:ℚ)| * 2 ^ e ≤ |(m:ℚ)| * 2 ^ (-n - 1) := mul_le_mul_of_nonneg_left h1 (abs_nonneg _)
    nlinarith

/-- No difference of two `float` numbers lies in the critical zone of `double` just below `π`. -/
theorem float_gap {a b : ℚ} (ha : binary32.Rep a) (hb : binary32.Rep b) (h1 : π - 9 / 8 * 2 ^ (-52:ℤ) < (b:ℝ) - a)
    (h2 : (b:ℝ) - a ≤ π) : False := by
  have p1 := pi_gt_d20
  have p2 := pi_lt_d20
  norm_num at p1 p2 h1
  -- a number next to `π`, or next to `-π`, on the grid of `float`
  have near : ∀ q : ℚ, binary32.Rep q → π - 1 / 2 ^ 24 - 1 / 2 ^ 50 < (q:ℝ) → (q:ℝ) < π + 1 / 2 ^ 24 → False := by
    intro q hq k1 k2
    obtain ⟨m, rfl⟩ := float_grid hq 22 (by
      have : (2:ℝ) ≤ q := by norm_num at k1; linarith
      have : (2:ℚ) ≤ q := by exact_mod_cast this
      exact le_trans (by norm_num) (this.trans (le_abs_self q)))
    norm_num at k1 k2
    have e1 : (13176794:ℝ) < m := by linarith
    have e2 : (m:ℝ) < 13176795 := by linarith
    have e1 : (13176794:ℤ) < m := by exact_mod_cast e1
    have e2 : m < (13176795:ℤ) := by exact_mod_cast e2
    omega
  by_cases ka : |a| < 2 ^ (-24:ℤ)
  · have ka : |(a:ℝ)| < 1 / 2 ^ 24 := by have : ((|a| : ℚ) : ℝ) < ((2 ^ (-24:ℤ) : ℚ) : ℝ) := by exact_mod_cast ka
                                         push_cast at this; norm_num at this ⊢; exact this
    rw [abs_lt] at ka
    refine near b hb ?_ ?_ <;> norm_num at ka ⊢ <;> linarith [ka.1, ka.2]
  by_cases kb : |b| < 2 ^ (-24:ℤ)
  · have kb : |(b:ℝ)| < 1 / 2 ^ 24 := by have : ((|b| : ℚ) : ℝ) < ((2 ^ (-24:ℤ) : ℚ) : ℝ) := by exact_mod_cast kb
                                         push_cast at this; norm_num at this ⊢; exact this
    rw [abs_lt] at kb
    refine near (-a) (ha.neg) ?_ ?_ <;> push_cast <;> norm_num at kb ⊢ <;> linarith [kb.1, kb.2]
  obtain ⟨m, rfl⟩ := float_grid ha 47 (by norm_num at ka ⊢; exact ka)
  obtain ⟨n, rfl⟩ := float_grid hb 47 (by norm_num at kb ⊢; exact kb)
  push_cast at h1 h2
  norm_num at h1 h2
  have e1 : (442139859501777:ℝ) < (n:ℝ) - m := by linarith
  have e2 : (n:ℝ) - m < 442139859501778 := by linarith
  have e1 : (442139859501777:ℤ) < n - m := by exact_mod_cast e1
  have e2 : n - m < (442139859501778:ℤ) := by exact_mod_cast e2
  omega

/-- An interval of type `float` is not bad for the tangent of `double`. -/
theorem not_bad_float {x : Itv} (hx : x.Ok binary32) : ¬ TanBad binary64 x := by
  intro hbad
  obtain ⟨a, b, ha, hb, h1, h2⟩ := hbad.critical (sub_32_64.ok hx)
  have hN : x.NE binary32 := by
    rcases hx.cases with rfl | hN
    · obtain ⟨⟨t, ht, -⟩, -⟩ := hbad; simp at ht
    · exact hN
  have fin : ∀ (f : FP) (r : ℝ), f.In binary32 → f ≠ .nan → f.toE = (r:EReal) → ∃ q : ℚ, binary32.Rep q ∧ r = q := by
    intro f r hf hn h
    cases f with
    | nan => exact absurd rfl hn
    | ninf => simp at h
    | pinf => simp at h
    | nzero => exact ⟨0, binary32.rep_zero, by rw [FP.toE_nzero] at h; push_cast; exact_mod_cast h.symm⟩
    | fin q => exact ⟨q, hf, by rw [FP.toE_fin] at h; exact_mod_cast h.symm⟩
  obtain ⟨p, hp, rfl⟩ := fin _ _ hN.lo_in hN.lo_ne ha
  obtain ⟨q, hq, rfl⟩ := fin _ _ hN.hi_in hN.hi_ne hb
  exact float_gap hp hq h1 (by exact_mod_cast h2.trans (binary64.rdE_le _))

theorem NumTy.poleGap (T : NumTy) : ∃ k, PoleGap T.fmt k := by
  cases T with
  | float => exact ⟨_, poleGap_binary32⟩
  | double => exact ⟨_, poleGap_binary64⟩
  | longDouble => exact ⟨_, poleGap_x87ext⟩

/-- Unless the argument is of type `double` and the result of type `float` or `double`, no argument is bad. -/
theorem NumTy.not_bad {x : Itv} (hx : x.Ok T1.fmt) (h : T1 ≠ .double ∨ T = .longDouble) : ¬ TanBad (T.maxPrec [T1]).fmt x := by
  have hw : x.Ok (T.maxPrec [T1]).fmt := (NumTy.sub_max (by simp) : T1.fmt.Sub _).ok hx
  revert hw
  cases T <;> cases T1 <;> first
    | exact noCritical_binary32 x
    | exact noCritical_x87ext x
    | exact fun _ => not_bad_float hx
    | exact absurd h (by decide)

/-- The tangent of an interval of type `T1` with result type `T` is the tightest interval of type `T` around the exact range, if it is not bad for
the widest type involved (full statement: without `hc`; false if an interval of type `double` has a tangent of type `float` or `double`,
see `C33_tan_false`; true for all other types, see `C33_tan`). -/
theorem C33_tan_tight_partial {x : Itv} (hx : x.Ok T1.fmt) (hc : ¬ TanBad (T.maxPrec [T1]).fmt x) :
    Tightest T.fmt (Op1.tan.mixed T T1 x) (Op1.tan.fn '' (x.set ∩ Op1.tan.dom)) := by
  have hs1 : T1.fmt.Sub (T.maxPrec [T1]).fmt := NumTy.sub_max (by simp)
  have hs : T.fmt.Sub (T.maxPrec [T1]).fmt := NumTy.sub_max (by simp)
  obtain ⟨k, hk⟩ := NumTy.poleGap (T.maxPrec [T1])
  have ho := (convertHull_tight (φ := (T.maxPrec [T1]).fmt) hx).1
  have he := convert_exact hs1 hx
  have h := tight_convert hs (tan_tightest hk ho fun hb => hc (hb.congr ho (hs1.ok hx) he))
  unfold tanRange at h
  rw [he] at h
  unfold Op1.mixed
  rw [hx.isValid]
  refine Tightest.of_eq' (S := range1 tan {t | cos t ≠ 0} x.set) (by simpa [Op1.bare] using h) ?_
  ext z; exact ⟨fun ⟨a, h, e⟩ => ⟨a, h.1, h.2, e.symm⟩, fun ⟨a, h, h', e⟩ => ⟨a, ⟨h, h'⟩, e.symm⟩⟩

/-- The decorated tangent: the interval part is tightest and the decoration exactly right. -/
theorem C33_tan_dec_partial {x : DItv} (hx : x.Ok T1.fmt) (hn : ¬ x.IsNaI) (hc : ¬ TanBad (T.maxPrec [T1]).fmt x.itv) :
    (Op1.tan.mixedD T T1 x).Ok T.fmt ∧ Tightest T.fmt (Op1.tan.mixedD T T1 x).itv (Op1.tan.fn '' (x.set ∩ Op1.tan.dom)) ∧
    DecRight Op1.tan.fn Op1.tan.dom x.set x.dec (Op1.tan.mixedD T T1 x) := by
  rw [DItv.isNaI_iff hx] at hn
  have hs1 : T1.fmt.Sub (T.maxPrec [T1]).fmt := NumTy.sub_max (by simp)
  have hb := C33_tan_tight_partial hx.1 hc
  unfold Op1.mixed at hb
  unfold Op1.mixedD
  rw [hx.1.isValid] at hb
  rw [hx.isValid, hx.isNai_false hn]
  simp only [Bool.not_true, Bool.or_self, Bool.false_eq_true, if_false] at hb ⊢
  have hxw := convertHullD_ok (φ := (T.maxPrec [T1]).fmt) hx
  obtain ⟨w1, w2⟩ := convertHullD_wide hs1 hx hn
  have hnw : ((T.maxPrec [T1]).fmt.convertHullD x).dec ≠ .ill := by rw [w2]; exact hn
  obtain ⟨k, hk⟩ := NumTy.poleGap (T.maxPrec [T1])
  obtain ⟨r1, r2⟩ := tan_right hk hxw hnw fun hb => hc (hb.congr hxw.1 (hs1.ok hx.1) w1)
  have ho := Op1.decd_ok .tan hxw
  rw [w1, w2] at r2
  refine ⟨convertHullD_ok ho, ?_, right_convert ho r2⟩
  rw [convertHullD_itv ho r2.not_ill]
  show Tightest T.fmt (T.fmt.convertHull ((T.maxPrec [T1]).fmt.tanD ((T.maxPrec [T1]).fmt.convertHullD x)).itv) _
  rw [r1, convertHullD_itv hx hn]
  exact hb

/-- **The tangent with mixed types, without restriction** unless the argument is of type `double` and the result of type `float` or
`double`. -/
theorem C33_tan (h : T1 ≠ .double ∨ T = .longDouble) :
    (∀ x : Itv, x.Ok T1.fmt → Tightest T.fmt (Op1.tan.mixed T T1 x) (Op1.tan.fn '' (x.set ∩ Op1.tan.dom))) ∧
    ∀ x : DItv, x.Ok T1.fmt → ¬ x.IsNaI →
      (Op1.tan.mixedD T T1 x).Ok T.fmt ∧ Tightest T.fmt (Op1.tan.mixedD T T1 x).itv (Op1.tan.fn '' (x.set ∩ Op1.tan.dom)) ∧
      DecRight Op1.tan.fn Op1.tan.dom x.set x.dec (Op1.tan.mixedD T T1 x) :=
  ⟨fun _ hx => C33_tan_tight_partial hx (NumTy.not_bad hx h),
    fun _ hx hn => C33_tan_dec_partial hx hn (NumTy.not_bad hx.1 h)⟩

/-- Non-vacuity: a `double` argument with a `long double` result, and a `float` argument with a `double` result. -/
example : (DItv.mk ⟨.fin 2, .fin 4⟩ .com).Ok NumTy.double.fmt ∧ NumTy.longDouble.maxPrec [.double] = .longDouble ∧
    (DItv.mk ⟨.fin 1, .fin 4⟩ .com).Ok NumTy.float.fmt ∧ NumTy.double.maxPrec [.float] = .double :=
  ⟨⟨Itv.ok_of_okb (by decide +kernel), by simp, by simp, by simp⟩, by decide,
    ⟨Itv.ok_of_okb (by decide +kernel), by simp, by simp, by simp⟩, by decide⟩

end P1788
