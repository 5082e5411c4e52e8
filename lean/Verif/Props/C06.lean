import Verif.Lemmas.Fma

/-! # C06: fused multiply-add returns the tightest enclosure with a single rounding -/

namespace P1788

/-- `fma(x,y,z)` is the tightest interval around `{a * b + c | a ∈ x, b ∈ y, c ∈ z}`. -/
theorem C06_fma (φ : Fmt) {x y z : Itv} (hx : x.Ok φ) (hy : y.Ok φ) (hz : z.Ok φ) :
    Tightest φ (φ.fmaI x y z) {w | ∃ a ∈ x.set, ∃ b ∈ y.set, ∃ c ∈ z.set, w = a * b + c} := by
  rcases hx.cases with rfl | hx
  · exact tightest_empty' (by simp [Fmt.fmaI]) (by simp)
  rcases hy.cases with rfl | hy
  · exact tightest_empty' (by simp [Fmt.fmaI]) (by simp)
  rcases hz.cases with rfl | hz
  · exact tightest_empty' (by simp [Fmt.fmaI]) (by simp)
  have hset : {w | ∃ a ∈ x.set, ∃ b ∈ y.set, ∃ c ∈ z.set, w = a * b + c} =
      {w | ∃ p ∈ prodSet x.set y.set, ∃ c ∈ z.set, w = p + c} := by
    ext w; constructor
    · rintro ⟨a, ha, b, hb, c, hc, rfl⟩; exact ⟨_, ⟨a, ha, b, hb, rfl⟩, c, hc, rfl⟩
    · rintro ⟨_, ⟨a, ha, b, hb, rfl⟩, c, hc, rfl⟩; exact ⟨a, ha, b, hb, c, hc, rfl⟩
  rw [hset]
  unfold Fmt.fmaI
  simp only [hx.isValid, hy.isValid, hz.isValid, hx.isEmpty, hy.isEmpty, hz.isEmpty, Bool.not_true, Bool.or_self,
    Bool.false_eq_true, if_false, NE.isZeroItv_iff hx, NE.isZeroItv_iff hy, NE.isEntire_iff hx, NE.isEntire_iff hy,
    NE.le0_iff hx.hi_ne, NE.le0_iff hy.hi_ne, NE.ge0_iff hx.lo_ne, NE.ge0_iff hy.lo_ne]
  have leaf : ∀ {p q r s : FP}, MulLeaf φ x y p q r s →
      Tightest φ ⟨φ.fma .D p q z.lo, φ.fma .U r s z.hi⟩ {w | ∃ p ∈ prodSet x.set y.set, ∃ c ∈ z.set, w = p + c} := by
    intro p q r s h
    have hB := h.box
    obtain ⟨h1, h2⟩ := φ.fma_spec .D h.p_ne h.q_ne hz.lo_ne h.lo (fun g => hz.lo_top g.2) (fun g => hB.ne_top g.1)
    obtain ⟨h3, h4⟩ := φ.fma_spec .U h.r_ne h.s_ne hz.hi_ne h.hi (fun g => hB.ne_bot g.1) (fun g => hz.hi_bot g.2)
    exact tightest_of_box (hB.add hz.box) h1 h3 (φ.fma_in _ hz.lo_in) (φ.fma_in _ hz.hi_in) h2 h4
  have zero : ∀ {X Y : Set ℝ}, prodSet X Y = {0} → z.set = {w | ∃ p ∈ prodSet X Y, ∃ c ∈ z.set, w = p + c} := by
    intro X Y h
    rw [h]; ext w; constructor
    · intro hw; exact ⟨0, rfl, w, hw, by simp⟩
    · rintro ⟨_, rfl, c, hc, rfl⟩; simpa using hc
  have univ : ∀ {X Y : Set ℝ}, prodSet X Y = Set.univ →
      Set.univ = {w | ∃ p ∈ prodSet X Y, ∃ c ∈ z.set, w = p + c} := by
    intro X Y h
    obtain ⟨c, hc⟩ := hz.nonempty
    rw [h]; ext w; constructor
    · intro _; exact ⟨w - c, trivial, c, hc, by simp⟩
    · intro _; trivial
  split_ifs with zx zy ex ey c1 c2 c3 c4 c5 c6 c7 c8
  · refine (Tightest.of_ok hz.ok).of_eq (zero ?_)
    rw [NE.set_zero hx zx]; exact prodSet_zero_left hy.nonempty
  · refine (Tightest.of_ok hz.ok).of_eq (zero ?_)
    rw [NE.set_zero hy zy]; exact prodSet_zero_right hx.nonempty
  · refine (Tightest.of_ok hx.ok).of_eq ?_
    rw [NE.set_univ hx ex]; exact univ (prodSet_univ_left (NE.exists_ne_zero hy zy))
  · refine (Tightest.of_ok hy.ok).of_eq ?_
    rw [NE.set_univ hy ey]; exact univ (prodSet_univ_right (NE.exists_ne_zero hx zx))
  all_goals obtain ⟨l1, l2, l3, l4, l5, l6, l7, l8⟩ := mulLeaves hx hy zx zy
  · exact leaf (l1 c1 c2)
  · exact leaf (l2 c1 c3)
  · exact leaf (l3 c1 c2 c3)
  · exact leaf (l4 c4 c5)
  · exact leaf (l5 c4 c6)
  · exact leaf (l6 c4 c5 c6)
  · exact leaf (l7 c1 c4 c7)
  · exact leaf (l8 c1 c4 c8)
  · push Not at c1 c4 c7 c8
    have s1 : NoNan x.lo.toE y.hi.toE := Or.inl ⟨c8.ne, c1.ne'⟩
    have s2 : NoNan x.hi.toE y.lo.toE := Or.inl ⟨c7.ne', c4.ne⟩
    have s3 : NoNan x.lo.toE y.lo.toE := Or.inl ⟨c8.ne, c4.ne⟩
    have s4 : NoNan x.hi.toE y.hi.toE := Or.inl ⟨c7.ne', c1.ne'⟩
    have u1 : x.lo.toE * y.hi.toE ≠ ⊤ := ne_top_of_le_ne_top (by simp)
      (EReal.mul_nonpos_iff.mpr (Or.inr ⟨c8.le, c1.le⟩))
    have u2 : x.hi.toE * y.lo.toE ≠ ⊤ := ne_top_of_le_ne_top (by simp)
      (EReal.mul_nonpos_iff.mpr (Or.inl ⟨c7.le, c4.le⟩))
    have u3 : x.lo.toE * y.lo.toE ≠ ⊥ := ne_bot_of_le_ne_bot (by simp)
      (EReal.mul_nonneg_iff.mpr (Or.inr ⟨c8.le, c4.le⟩))
    have u4 : x.hi.toE * y.hi.toE ≠ ⊥ := ne_bot_of_le_ne_bot (by simp)
      (EReal.mul_nonneg_iff.mpr (Or.inl ⟨c7.le, c1.le⟩))
    obtain ⟨a1, b1⟩ := φ.fma_spec .D hx.lo_ne hy.hi_ne hz.lo_ne s1 (fun g => hz.lo_top g.2) (fun g => u1 g.1)
    obtain ⟨a2, b2⟩ := φ.fma_spec .D hx.hi_ne hy.lo_ne hz.lo_ne s2 (fun g => hz.lo_top g.2) (fun g => u2 g.1)
    obtain ⟨a3, b3⟩ := φ.fma_spec .U hx.lo_ne hy.lo_ne hz.hi_ne s3 (fun g => u3 g.1) (fun g => hz.hi_bot g.2)
    obtain ⟨a4, b4⟩ := φ.fma_spec .U hx.hi_ne hy.hi_ne hz.hi_ne s4 (fun g => u4 g.1) (fun g => hz.hi_bot g.2)
    refine tightest_of_box ((box_mul_mm hx hy c8.le c7.le c4.le c1.le).add hz.box) (mpfrMin_ne_nan a1 a2)
      (mpfrMax_ne_nan a3 a4) (mpfrMin_in (φ.fma_in _ hz.lo_in) (φ.fma_in _ hz.lo_in))
      (mpfrMax_in (φ.fma_in _ hz.hi_in) (φ.fma_in _ hz.hi_in)) ?_ ?_
    · have : min (x.lo.toE * y.hi.toE) (x.hi.toE * y.lo.toE) + z.lo.toE
          = min (x.lo.toE * y.hi.toE + z.lo.toE) (x.hi.toE * y.lo.toE + z.lo.toE) :=
        Monotone.map_min (f := fun t => t + z.lo.toE) (fun _ _ h => by simpa using add_le_add_left h z.lo.toE)
      rw [this, toE_mpfrMin a1 a2, b1, b2, rdE_min]; rfl
    · have : max (x.lo.toE * y.lo.toE) (x.hi.toE * y.hi.toE) + z.hi.toE
          = max (x.lo.toE * y.lo.toE + z.hi.toE) (x.hi.toE * y.hi.toE + z.hi.toE) :=
        Monotone.map_max (f := fun t => t + z.hi.toE) (fun _ _ h => by simpa using add_le_add_left h z.hi.toE)
      rw [this, toE_mpfrMax a3 a4, b3, b4, ruE_max]; rfl

/-- Non-vacuity: three proper intervals, one of them unbounded, and the value the model computes. -/
example : (Itv.mk (.fin (-1)) (.fin 2)).Ok binary64 ∧ (Itv.mk (.fin (-3)) (.fin 5)).Ok binary64 ∧
    (Itv.mk (.fin 1) .pinf).Ok binary64 ∧
    binary64.fmaI ⟨.fin (-1), .fin 2⟩ ⟨.fin (-3), .fin 5⟩ ⟨.fin 1, .pinf⟩ = ⟨.fin (-5), .pinf⟩ :=
  ⟨Itv.ok_of_okb (by decide +kernel), Itv.ok_of_okb (by decide +kernel), Itv.ok_of_okb (by decide +kernel),
    by decide +kernel⟩

end P1788
