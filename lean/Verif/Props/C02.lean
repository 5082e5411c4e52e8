import Verif.Lemmas.Arith

/-! # C02: multiplication returns the tightest enclosure -/

namespace P1788

/-- `x * y` is the tightest interval around `{a * b | a ∈ x, b ∈ y}`, in every format, for all proper
intervals (unbounded ones and signed zero bounds included). -/
theorem C02_mul (φ : Fmt) {x y : Itv} (hx : x.Ok φ) (hy : y.Ok φ) :
    Tightest φ (φ.mulI x y) {z | ∃ a ∈ x.set, ∃ b ∈ y.set, z = a * b} := by
  rcases hx.cases with rfl | hx
  · exact tightest_empty' (by simp [Fmt.mulI]) (by simp)
  rcases hy.cases with rfl | hy
  · exact tightest_empty' (by simp [Fmt.mulI]) (by simp)
  unfold Fmt.mulI
  simp only [hx.isValid, hy.isValid, hx.isEmpty, hy.isEmpty, Bool.not_true, Bool.or_self, Bool.false_eq_true,
    if_false, NE.isZeroItv_iff hx, NE.isZeroItv_iff hy, NE.isEntire_iff hx, NE.isEntire_iff hy,
    NE.le0_iff hx.hi_ne, NE.le0_iff hy.hi_ne, NE.ge0_iff hx.lo_ne, NE.ge0_iff hy.lo_ne]
  split_ifs with zx zy ex ey c1 c2 c3 c4 c5 c6 c7 c8
  · refine (Tightest.of_ok hx.ok).of_eq ?_
    rw [NE.set_zero hx zx]; exact (prodSet_zero_left hy.nonempty).symm
  · refine (Tightest.of_ok hy.ok).of_eq ?_
    rw [NE.set_zero hy zy]; exact (prodSet_zero_right hx.nonempty).symm
  · refine (Tightest.of_ok hx.ok).of_eq ?_
    rw [NE.set_univ hx ex]; exact (prodSet_univ_left (NE.exists_ne_zero hy zy)).symm
  · refine (Tightest.of_ok hy.ok).of_eq ?_
    rw [NE.set_univ hy ey]; exact (prodSet_univ_right (NE.exists_ne_zero hx zx)).symm
  all_goals obtain ⟨l1, l2, l3, l4, l5, l6, l7, l8⟩ := mulLeaves hx hy zx zy
  · exact (l1 c1 c2).tight
  · exact (l2 c1 c3).tight
  · exact (l3 c1 c2 c3).tight
  · exact (l4 c4 c5).tight
  · exact (l5 c4 c6).tight
  · exact (l6 c4 c5 c6).tight
  · exact (l7 c1 c4 c7).tight
  · exact (l8 c1 c4 c8).tight
  · push Not at c1 c4 c7 c8
    have s1 : NoNan x.lo.toE y.hi.toE := Or.inl ⟨c8.ne, c1.ne'⟩
    have s2 : NoNan x.hi.toE y.lo.toE := Or.inl ⟨c7.ne', c4.ne⟩
    have s3 : NoNan x.lo.toE y.lo.toE := Or.inl ⟨c8.ne, c4.ne⟩
    have s4 : NoNan x.hi.toE y.hi.toE := Or.inl ⟨c7.ne', c1.ne'⟩
    obtain ⟨a1, b1⟩ := mul_spec' φ .D hx.lo_ne hy.hi_ne s1
    obtain ⟨a2, b2⟩ := mul_spec' φ .D hx.hi_ne hy.lo_ne s2
    obtain ⟨a3, b3⟩ := mul_spec' φ .U hx.lo_ne hy.lo_ne s3
    obtain ⟨a4, b4⟩ := mul_spec' φ .U hx.hi_ne hy.hi_ne s4
    refine tightest_of_box (box_mul_mm hx hy c8.le c7.le c4.le c1.le) (mpfrMin_ne_nan a1 a2)
      (mpfrMax_ne_nan a3 a4) (mpfrMin_in (φ.mul_in _ _ _) (φ.mul_in _ _ _))
      (mpfrMax_in (φ.mul_in _ _ _) (φ.mul_in _ _ _)) ?_ ?_
    · rw [toE_mpfrMin a1 a2, b1, b2, rdE_min]; rfl
    · rw [toE_mpfrMax a3 a4, b3, b4, ruE_max]; rfl

/-- The hypotheses hold for a mixed-sign unbounded interval and for one with a `-0` bound, and the model
computes the expected product. -/
example : (Itv.mk (.fin (-1)) .pinf).Ok binary64 ∧ (Itv.mk .nzero (.fin 3)).Ok binary64 ∧
    binary64.mulI ⟨.fin (-1), .pinf⟩ ⟨.nzero, .fin 3⟩ = ⟨.fin (-3), .pinf⟩ := by
  refine ⟨Or.inr ⟨rfl, by simp, by simp, ?_, trivial⟩, Or.inr ⟨rfl, by simp, by simp, trivial, ?_⟩, ?_⟩
  · exact ⟨-1, 0, by norm_num, by decide, by decide, by decide⟩
  · exact ⟨3, 0, by norm_num, by decide, by decide, by decide⟩
  · decide +kernel

end P1788
