import Verif.Lemmas.Ends
import Verif.Lemmas.SetOp
import Mathlib.Analysis.SpecialFunctions.Pow.Asymptotics

/-! # C09: exponentials and logarithms -/

namespace P1788
open Filter Topology
variable {φ : Fmt} {x : Itv}

/-- Exponential-like functions. -/
theorem tight_explike {f : ℝ → ℝ} (hx : x.NE φ) (hm : Monotone f) (h0 : Tendsto f atBot (𝓝 0))
    (h1 : Tendsto f atTop atTop) :
    Tightest φ ⟨φ.un .D f (.fin 0) .pinf x.lo, φ.un .U f (.fin 0) .pinf x.hi⟩ (f '' x.set) := by
  have hz : ∀ m, ULim φ m f .ninf (.fin 0) := fun m =>
    ULim.mk_ninf_real h0 (by simp) (by simp) φ.rep_zero
  exact tight_mono hx (hm.monotoneOn _) (ULim.un hx.lo_ne (fun _ => hz _) (fun _ => ULim.pinf_pinf h1))
    (ULim.un hx.hi_ne (fun _ => hz _) (fun _ => ULim.pinf_pinf h1))

/-- `exp(x)` is the tightest enclosure of `{e^a | a ∈ x}`. -/
theorem C09_exp (hx : x.Ok φ) : Tightest φ (φ.expI x) (Real.exp '' x.set) := by
  rcases hx.cases with rfl | hx
  · exact tightest_empty' (by simp [Fmt.expI]) (by simp)
  simp only [Fmt.expI, hx.isValid, hx.isEmpty, Bool.not_true, Bool.or_self, Bool.false_eq_true, if_false]
  exact tight_explike hx Real.exp_monotone Real.tendsto_exp_atBot Real.tendsto_exp_atTop

theorem rpow_base_tendsto {b : ℝ} (hb : 1 < b) : Monotone (fun t : ℝ => b ^ t) ∧
    Tendsto (fun t : ℝ => b ^ t) atBot (𝓝 0) ∧ Tendsto (fun t : ℝ => b ^ t) atTop atTop :=
  ⟨Real.monotone_rpow_of_base_ge_one hb.le, tendsto_rpow_atBot_of_base_gt_one b hb,
    tendsto_rpow_atTop_of_base_gt_one b hb⟩

/-- `exp2(x)` is the tightest enclosure of `{2^a | a ∈ x}`. -/
theorem C09_exp2 (hx : x.Ok φ) : Tightest φ (φ.exp2I x) ((fun a : ℝ => (2:ℝ) ^ a) '' x.set) := by
  rcases hx.cases with rfl | hx
  · exact tightest_empty' (by simp [Fmt.exp2I]) (by simp)
  simp only [Fmt.exp2I, hx.isValid, hx.isEmpty, Bool.not_true, Bool.or_self, Bool.false_eq_true, if_false]
  obtain ⟨h1, h2, h3⟩ := rpow_base_tendsto (b := 2) (by norm_num)
  exact tight_explike hx h1 h2 h3

/-- `exp10(x)` is the tightest enclosure of `{10^a | a ∈ x}`. -/
theorem C09_exp10 (hx : x.Ok φ) : Tightest φ (φ.exp10I x) ((fun a : ℝ => (10:ℝ) ^ a) '' x.set) := by
  rcases hx.cases with rfl | hx
  · exact tightest_empty' (by simp [Fmt.exp10I]) (by simp)
  simp only [Fmt.exp10I, hx.isValid, hx.isEmpty, Bool.not_true, Bool.or_self, Bool.false_eq_true, if_false]
  obtain ⟨h1, h2, h3⟩ := rpow_base_tendsto (b := 10) (by norm_num)
  exact tight_explike hx h1 h2 h3

theorem logf_ulim {f : ℝ → ℝ} (h1 : Tendsto f atTop atTop) (m : Rnd) {a : FP} (ha : a ≠ .nan) (h0 : 0 < a.toE) :
    ULim φ m f a (φ.logf m f a) := by
  cases a with
  | nan => exact absurd rfl ha
  | ninf => simp at h0
  | pinf => exact ULim.pinf_pinf h1
  | nzero => simp at h0
  | fin q =>
    have hq : (0:ℝ) < q := by simpa using h0
    have hq : 0 < q := by exact_mod_cast hq
    simp only [Fmt.logf, not_lt.mpr hq.le, hq.ne', if_false]
    exact ULim.fin φ m f q

theorem nonnegItv_NE (φ : Fmt) : (Itv.mk (.fin 0) .pinf).NE φ :=
  ⟨by simp, by simp, by simp, by simp, by simp, φ.rep_zero, trivial⟩

theorem tight_log {f : ℝ → ℝ} (hx : x.Ok φ) (hm : MonotoneOn f (Set.Ioi 0)) (h0 : Tendsto f (𝓝[>] 0) atBot)
    (h1 : Tendsto f atTop atTop) : Tightest φ (φ.logI' f x) (f '' {a ∈ x.set | 0 < a}) := by
  unfold Fmt.logI'
  have hI := Itv.inter_ok_set hx (nonnegItv_NE φ).ok
  simp only [hx.isValid, Bool.not_true, Bool.false_eq_true, if_false]
  split_ifs with g1 g2 g3
  · rw [hI.1.isEmpty_iff] at g1
    refine tightest_empty' g1 ?_
    rw [Set.image_eq_empty, Set.eq_empty_iff_forall_notMem]
    rintro a ⟨ha, ha0⟩
    have : a ∈ (x.inter ⟨.fin 0, .pinf⟩).set := by
      rw [hI.2]; exact ⟨ha, (nonnegItv_NE φ).mem.mpr ⟨by simpa using ha0.le, by simp⟩⟩
    rw [g1] at this; simp at this
  all_goals
    rcases hx.cases with rfl | hx
    · exact absurd (by simp [Itv.inter, Itv.disjoint, (nonnegItv_NE φ).isValid]) g1
  · rw [NE.le0_iff hx.hi_ne] at g2
    refine tightest_empty' rfl ?_
    rw [Set.image_eq_empty, Set.eq_empty_iff_forall_notMem]
    rintro a ⟨ha, ha0⟩
    have := (hx.mem.mp ha).2.trans g2
    have : a ≤ 0 := by exact_mod_cast this
    linarith
  · rw [NE.le0_iff hx.hi_ne, not_le] at g2
    rw [NE.le0_iff hx.lo_ne] at g3
    obtain ⟨⟨U, hU, hu⟩, n1, i1⟩ := logf_ulim (φ := φ) h1 .U hx.hi_ne g2
    have hs : SegNE 0 x.hi.toE := ⟨g2.le, by simp, hx.hi_bot⟩
    have hD : {a ∈ x.set | 0 < a} = {a ∈ Seg 0 x.hi.toE | 0 < a} := by
      ext r; rw [hx.set_eq]
      constructor
      · rintro ⟨h, h'⟩; exact ⟨⟨by exact_mod_cast h'.le, h.2⟩, h'⟩
      · rintro ⟨h, h'⟩; exact ⟨⟨g3.trans h.1, h.2⟩, h'⟩
    rw [hD]
    obtain ⟨c, hc0, hc⟩ := EReal.lt_iff_exists_real_btwn.mp g2
    have hB : Box (f '' {a ∈ Seg 0 x.hi.toE | 0 < a}) ⊥ U := by
      refine box_mono' (F := 𝓝[>] 0) (G := filtE x.hi.toE) ?_ ?_ ?_ (tendsto_coe_atBot.comp h0) hU
      · refine EndL.open (c := c) (fun y hy => hy.2) (by exact_mod_cast hc0) (fun y h h' => ⟨⟨?_, ?_⟩, h⟩)
        · exact_mod_cast h.le
        · exact le_trans (by exact_mod_cast h') hc.le
      · refine ⟨inferInstance, ?_, fun x hx => hs.endU.ge x hx.1⟩
        have hcs : c ∈ Seg 0 x.hi.toE := ⟨hc0.le, hc.le⟩
        filter_upwards [hs.endU.mem, hs.endU.ge c hcs] with y h1 h2
        exact ⟨h1, lt_of_lt_of_le (by exact_mod_cast hc0) h2⟩
      · exact hm.mono (fun y hy => hy.2)
    refine tightest_of_box hB ?_ n1 ?_ i1 ?_ hu <;> simp [Fmt.logf, FP.In]
  · rw [NE.le0_iff hx.hi_ne, not_le] at g2
    rw [NE.le0_iff hx.lo_ne, not_le] at g3
    have hD : {a ∈ x.set | 0 < a} = x.set := by
      ext r; constructor
      · exact fun h => h.1
      · intro h
        have := lt_of_lt_of_le g3 (hx.mem.mp h).1
        exact ⟨h, by exact_mod_cast this⟩
    have hD' : x.set ⊆ Set.Ioi 0 := by rw [← hD]; exact fun r h => h.2
    rw [hD]
    exact tight_mono hx (hm.mono hD') (logf_ulim h1 .D hx.lo_ne g3) (logf_ulim h1 .U hx.hi_ne g2)

/-- `log(x)` is the tightest enclosure of the logarithms of the positive members of `x`. -/
theorem C09_log (hx : x.Ok φ) : Tightest φ (φ.logI x) (Real.log '' {a ∈ x.set | 0 < a}) :=
  tight_log hx Real.strictMonoOn_log.monotoneOn Real.tendsto_log_nhdsGT_zero Real.tendsto_log_atTop

theorem tight_logb {b : ℝ} (hb : 1 < b) (hx : x.Ok φ) :
    Tightest φ (φ.logI' (Real.logb b) x) (Real.logb b '' {a ∈ x.set | 0 < a}) := by
  have hl : 0 < Real.log b := Real.log_pos hb
  have e : Real.logb b = fun t => Real.log t / Real.log b := rfl
  refine tight_log hx (Real.strictMonoOn_logb hb).monotoneOn ?_ (Real.tendsto_logb_atTop hb)
  rw [e]
  exact Real.tendsto_log_nhdsGT_zero.atBot_div_const hl

/-- `log2(x)`. -/
theorem C09_log2 (hx : x.Ok φ) : Tightest φ (φ.log2I x) (Real.logb 2 '' {a ∈ x.set | 0 < a}) :=
  tight_logb (by norm_num) hx

/-- `log10(x)`. -/
theorem C09_log10 (hx : x.Ok φ) : Tightest φ (φ.log10I x) (Real.logb 10 '' {a ∈ x.set | 0 < a}) :=
  tight_logb (by norm_num) hx

/-- Non-vacuity: an interval reaching below zero with positive members. -/
example : (Itv.mk (.fin (-3)) (.fin 2)).Ok binary64 ∧
    (Real.log '' {a ∈ (Itv.mk (.fin (-3)) (.fin 2)).set | 0 < a}).Nonempty :=
  ⟨Itv.ok_of_okb (by decide +kernel),
   ⟨_, 1, ⟨⟨by norm_num [FP.BelowR], by norm_num [FP.AboveR]⟩, by norm_num⟩, rfl⟩⟩

end P1788
