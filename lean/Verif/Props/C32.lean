import Verif.Lemmas.MulRev
import Verif.Lemmas.Ops
import Verif.Lemmas.Conv
import Verif.Props.C33

/-! # C32: reverse multiplication and extended division

`MulSol B C = {t | ∃ b ∈ B, b * t ∈ C}`; it has two components (one negative, one positive) exactly when
`Splits B C`, otherwise one.
-/

namespace P1788
open FP
variable {φ : Fmt} {b c x : Itv}

/-- One component: `mul_rev_to_pair(b,c)` returns the tightest enclosure of the solution set and the empty set. -/
theorem C32_to_pair_one (hb : b.Ok φ) (hc : c.Ok φ) (h : ¬Splits b.set c.set) :
    Tightest φ (b.mulRevToPair φ c).1 (MulSol b.set c.set) ∧ (b.mulRevToPair φ c).2 = ⟨.nan, .nan⟩ := by
  rcases hb.cases with rfl | nb
  · refine ⟨tightest_empty' (by simp [Itv.mulRevToPair, Fmt.mulRevPairT]) (by ext t; simp [MulSol]), ?_⟩
    simp [Itv.mulRevToPair, Fmt.mulRevPairT]; rfl
  rcases hc.cases with rfl | nc
  · refine ⟨tightest_empty' (by simp [Itv.mulRevToPair, Fmt.mulRevPairT]) (by ext t; simp [MulSol]), ?_⟩
    simp [Itv.mulRevToPair, Fmt.mulRevPairT]; rfl
  obtain ⟨h1, h2, _⟩ := (mulRevPairT_spec nb nc).1 h
  refine ⟨h1.tight, ?_⟩
  exact h2

/-- Two components: the first interval is the tightest enclosure of the negative solutions, the second one of the
positive solutions; there are no others. -/
theorem C32_to_pair_two (hb : b.Ok φ) (hc : c.Ok φ) (h : Splits b.set c.set) :
    Tightest φ (b.mulRevToPair φ c).1 {t ∈ MulSol b.set c.set | t < 0} ∧
    Tightest φ (b.mulRevToPair φ c).2 {t ∈ MulSol b.set c.set | 0 < t} ∧ (0:ℝ) ∉ MulSol b.set c.set := by
  have hz : (0:ℝ) ∉ MulSol b.set c.set := by
    rintro ⟨s, _, hs⟩; rw [mul_zero] at hs; exact h.2.2 hs
  rcases hb.cases with rfl | nb
  · obtain ⟨⟨_, h, _⟩, _⟩ := h; simp at h
  rcases hc.cases with rfl | nc
  · have hS : MulSol b.set Itv.empty.set = ∅ := by ext t; simp [MulSol]
    refine ⟨tightest_empty' (by simp [Itv.mulRevToPair, Fmt.mulRevPairT]) (by rw [hS]; simp),
      tightest_empty' (by simp [Itv.mulRevToPair, Fmt.mulRevPairT]) (by rw [hS]; simp), hz⟩
  obtain ⟨h1, h2⟩ := (mulRevPairT_spec nb nc).2 h
  exact ⟨h1.tight, h2.tight, hz⟩

/-- The pieces of the two preceding theorems really are the connected components of the solution set: with one piece
the solution set is an interval, with two pieces the negative and the positive solutions each form an interval and
both exist. -/
theorem C32_components (b c : Itv) :
    (¬Splits b.set c.set → (MulSol b.set c.set).OrdConnected) ∧
    (Splits b.set c.set → {t ∈ MulSol b.set c.set | t < 0}.OrdConnected ∧
      {t ∈ MulSol b.set c.set | 0 < t}.OrdConnected ∧
      (c.set.Nonempty → {t ∈ MulSol b.set c.set | t < 0}.Nonempty ∧ {t ∈ MulSol b.set c.set | 0 < t}.Nonempty)) :=
  ⟨mulSol_ordConnected b.ordConnected c.ordConnected, mulSol_halves b.ordConnected c.ordConnected⟩

/-- `mul_rev(b,c,x)` contains every `t ∈ x` with `b * t ∈ c` for some member of `b`; it is a part of `x` and of every
interval containing all solutions. -/
theorem C32_mul_rev (hb : b.Ok φ) (hc : c.Ok φ) (hx : x.Ok φ) :
    (b.mulRev φ c x).Ok φ ∧ (MulSol b.set c.set ∩ x.set ⊆ (b.mulRev φ c x).set) ∧ (b.mulRev φ c x).set ⊆ x.set ∧
    ∀ Y : Itv, Y.Ok φ → MulSol b.set c.set ⊆ Y.set → (b.mulRev φ c x).set ⊆ Y.set := by
  obtain ⟨S, S', e, h, h'⟩ := mulRevPairT_leaves hb hc
  unfold Itv.mulRev
  simp only [hb.isValid, hc.isValid, hx.isValid, Bool.not_true, Bool.or_self, Bool.false_eq_true, if_false]
  rw [← e]
  exact drop2_spec h h' hx

/-- `mul_rev(b,c)` is the tightest enclosure of all solutions. -/
theorem C32_mul_rev_entire (hb : b.Ok φ) (hc : c.Ok φ) :
    Tightest φ (b.mulRev2 φ c) (MulSol b.set c.set) := by
  obtain ⟨h1, h2, _, h4⟩ := C32_mul_rev hb hc (Itv.ok_entire φ)
  refine ⟨h1, ?_, h4⟩
  rw [Itv.set_entire, Set.inter_univ] at h2
  exact h2

section
variable {T T1 T2 T3 : NumTy}

/-- Mixed types: `mul_rev` loses no solution and its result is a part of `x` rounded outwards. -/
theorem C32_mul_rev_mixed (hb : b.Ok T1.fmt) (hc : c.Ok T2.fmt) (hx : x.Ok T3.fmt) :
    (b.mulRevMixed T T1 T2 T3 c x).Ok T.fmt ∧ MulSol b.set c.set ∩ x.set ⊆ (b.mulRevMixed T T1 T2 T3 c x).set ∧
    (b.mulRevMixed T T1 T2 T3 c x).set ⊆ (T.fmt.convertHull x).set := by
  have hs1 : T1.fmt.Sub (T.maxPrec [T1, T2, T3]).fmt := NumTy.sub_max (by simp)
  have hs2 : T2.fmt.Sub (T.maxPrec [T1, T2, T3]).fmt := NumTy.sub_max (by simp)
  have hs3 : T3.fmt.Sub (T.maxPrec [T1, T2, T3]).fmt := NumTy.sub_max (by simp)
  unfold Itv.mulRevMixed
  simp only [hb.isValid, hc.isValid, hx.isValid, Bool.not_true, Bool.or_self, Bool.false_eq_true, if_false]
  generalize (T.maxPrec [T1, T2, T3]).fmt = ψ at *
  obtain ⟨h1, h2, h3, _⟩ := C32_mul_rev (convertHull_tight (φ := ψ) hb).1 (convertHull_tight (φ := ψ) hc).1
    (convertHull_tight (φ := ψ) hx).1
  rw [convert_exact hs1 hb, convert_exact hs2 hc, convert_exact hs3 hx] at h2
  rw [convert_exact hs3 hx] at h3
  have ht := convertHull_tight (φ := T.fmt) h1
  have htx := convertHull_tight (φ := T.fmt) hx
  exact ⟨ht.1, h2.trans ht.2.1, ht.2.2 _ htx.1 (h3.trans htx.2.1)⟩

/-- Mixed types: `mul_rev_to_pair` returns the tightest enclosures in the requested type. -/
theorem C32_to_pair_mixed (hb : b.Ok T1.fmt) (hc : c.Ok T2.fmt) :
    (¬Splits b.set c.set → Tightest T.fmt (b.mulRevToPairMixed T T1 T2 c).1 (MulSol b.set c.set) ∧
      (b.mulRevToPairMixed T T1 T2 c).2 = ⟨.nan, .nan⟩) ∧
    (Splits b.set c.set → Tightest T.fmt (b.mulRevToPairMixed T T1 T2 c).1 {t ∈ MulSol b.set c.set | t < 0} ∧
      Tightest T.fmt (b.mulRevToPairMixed T T1 T2 c).2 {t ∈ MulSol b.set c.set | 0 < t}) := by
  have hs1 : T1.fmt.Sub (T.maxPrec [T1, T2]).fmt := NumTy.sub_max (by simp)
  have hs2 : T2.fmt.Sub (T.maxPrec [T1, T2]).fmt := NumTy.sub_max (by simp)
  have hs : T.fmt.Sub (T.maxPrec [T1, T2]).fmt := NumTy.sub_max (by simp)
  unfold Itv.mulRevToPairMixed
  simp only
  generalize (T.maxPrec [T1, T2]).fmt = ψ at *
  have ob := (convertHull_tight (φ := ψ) hb).1
  have oc := (convertHull_tight (φ := ψ) hc).1
  have eb := convert_exact hs1 hb
  have ec := convert_exact hs2 hc
  have h1 := C32_to_pair_one ob oc
  have h2 := C32_to_pair_two ob oc
  rw [eb, ec] at h1 h2
  refine ⟨fun h => ?_, fun h => ?_⟩
  · obtain ⟨a1, a2⟩ := h1 h
    refine ⟨tight_convert hs a1, ?_⟩
    rw [a2]; exact convertHull_empty _
  · obtain ⟨a1, a2, _⟩ := h2 h
    exact ⟨tight_convert hs a1, tight_convert hs a2⟩

/-- Decorated `mul_rev`: NaI if an operand is NaI, otherwise the bare result decorated `trv`. -/
theorem C32_mul_rev_decorated {b c x : DItv} (hb : b.Ok φ) (hc : c.Ok φ) (hx : x.Ok φ) :
    (b.IsNaI ∨ c.IsNaI ∨ x.IsNaI → b.mulRev φ c x = DItv.nai) ∧
    (¬b.IsNaI → ¬c.IsNaI → ¬x.IsNaI → b.mulRev φ c x = ⟨b.itv.mulRev φ c.itv x.itv, .trv⟩) := by
  rw [DItv.isNaI_iff hb, DItv.isNaI_iff hc, DItv.isNaI_iff hx]
  constructor
  · rintro (h | h | h)
    · have := hb.isNai_iff.mpr h; simp [DItv.mulRev, this]
    · have := hc.isNai_iff.mpr h; simp [DItv.mulRev, this]
    · have := hx.isNai_iff.mpr h; simp [DItv.mulRev, this]
  · intro h1 h2 h3
    simp [DItv.mulRev, hb.isValid, hc.isValid, hx.isValid, hb.isNai_false h1, hc.isNai_false h2, hx.isNai_false h3]

/-- The same for mixed types. -/
theorem C32_mul_rev_mixed_decorated {b c x : DItv} (hb : b.Ok T1.fmt) (hc : c.Ok T2.fmt) (hx : x.Ok T3.fmt) :
    (b.IsNaI ∨ c.IsNaI ∨ x.IsNaI → b.mulRevMixed T T1 T2 T3 c x = DItv.nai) ∧
    (¬b.IsNaI → ¬c.IsNaI → ¬x.IsNaI →
      b.mulRevMixed T T1 T2 T3 c x = ⟨b.itv.mulRevMixed T T1 T2 T3 c.itv x.itv, .trv⟩) := by
  rw [DItv.isNaI_iff hb, DItv.isNaI_iff hc, DItv.isNaI_iff hx]
  constructor
  · rintro (h | h | h)
    · have := hb.isNai_iff.mpr h; simp [DItv.mulRevMixed, this]
    · have := hc.isNai_iff.mpr h; simp [DItv.mulRevMixed, this]
    · have := hx.isNai_iff.mpr h; simp [DItv.mulRevMixed, this]
  · intro h1 h2 h3
    simp [DItv.mulRevMixed, hb.isValid, hc.isValid, hx.isValid, hb.isNai_false h1, hc.isNai_false h2, hx.isNai_false h3]

/-- Decorated `mul_rev_to_pair`: NaI twice if an operand is NaI.  Otherwise the intervals are those of the bare
function, the second one is decorated `trv`, and the decoration of the first one is `trv` if `0 ∈ b` and the correct
decoration of the quotient `c / b` if `0 ∉ b`. -/
theorem C32_to_pair_decorated {b c : DItv} (hb : b.Ok φ) (hc : c.Ok φ) :
    (b.IsNaI ∨ c.IsNaI → b.mulRevToPair φ c = (DItv.nai, DItv.nai)) ∧
    (¬b.IsNaI → ¬c.IsNaI →
      (b.mulRevToPair φ c).1.itv = (b.itv.mulRevToPair φ c.itv).1 ∧
      (b.mulRevToPair φ c).2 = ⟨(b.itv.mulRevToPair φ c.itv).2, .trv⟩ ∧
      ((0:ℝ) ∈ b.set → (b.mulRevToPair φ c).1.dec = .trv) ∧
      ((0:ℝ) ∉ b.set → DecRight (fun p : ℝ × ℝ => p.1 / p.2) {p | p.2 ≠ 0} (c.set ×ˢ b.set) (b.dec.min c.dec)
        (b.mulRevToPair φ c).1)) := by
  rw [DItv.isNaI_iff hb, DItv.isNaI_iff hc]
  constructor
  · rintro (h | h)
    · have := hb.isNai_iff.mpr h; simp [DItv.mulRevToPair, this]
    · have := hc.isNai_iff.mpr h; simp [DItv.mulRevToPair, this]
  · intro h1 h2
    have hm := hb.isMember h1 0
    rw [Rat.cast_zero] at hm
    simp only [DItv.mulRevToPair, hb.isValid, hc.isValid, hb.isNai_false h1, hc.isNai_false h2, Bool.not_true,
      Bool.or_self, Bool.false_eq_true, if_false, true_and]
    refine ⟨fun h0 => ?_, fun h0 => ?_⟩
    · rw [hm.mpr h0]
      simp only [Bool.true_or, if_true]
      have := Dec.min_ne_ill h1 h2
      generalize b.dec.min c.dec = d at this
      cases d <;> first | rfl | exact absurd rfl this
    · have hns : ¬Splits b.itv.set c.itv.set := by
        rintro ⟨⟨p, hp, hp0⟩, ⟨q, hq, hq0⟩, _⟩
        exact h0 (b.itv.ordConnected.out hp hq ⟨hp0.le, hq0.le⟩)
      obtain ⟨ht, _⟩ := C32_to_pair_one hb.1 hc.1 hns
      rw [mulSol_eq_quot (Or.inl h0)] at ht
      have hl := localOk_std (φ := φ) (f := fun p : ℝ × ℝ => p.1 / p.2) (dom := {p | p.2 ≠ 0})
        (X := c.set ×ˢ b.set) (b := (b.itv.mulRevToPair φ c.itv).1) (bad := DItv.isMember (.fin 0) b)
        (ht.of_eq ?_) ?_ ?_
      · refine hl.right (Dec.min_ne_ill h1 h2) fun hcom => ?_
        obtain ⟨k1, k2⟩ := Dec.min_eq_com.mp hcom
        exact (hc.com_bounded k2).prod (hb.com_bounded k1)
      · ext t; constructor
        · rintro ⟨p, hp, q, hq, hq0, rfl⟩; exact ⟨(p, q), ⟨⟨hp, hq⟩, hq0⟩, rfl⟩
        · rintro ⟨⟨p, q⟩, ⟨⟨hp, hq⟩, hq0⟩, rfl⟩; exact ⟨p, hp, q, hq, hq0, rfl⟩
      · rintro ⟨⟨p, q⟩, hp, hq⟩
        rw [hm]
        refine ⟨fun h => absurd h h0, fun h => absurd ?_ h⟩
        rintro ⟨p, q⟩ ⟨_, hq⟩ rfl
        exact h0 hq
      · exact continuousOn_fst.div continuousOn_snd fun p hp => hp
end

/-- `mul_rev(b,c,x)` is not always the tightest enclosure of the solutions in `x`: a bound that is approached but not
attained is kept.  For `b = [1,+∞]`, `c = [1,1]`, `x = [-1,0]` there is no solution in `x`, yet the result is `[0,0]`. -/
theorem C32_mul_rev_not_tightest : ∃ b c x : Itv, b.Ok binary64 ∧ c.Ok binary64 ∧ x.Ok binary64 ∧
    MulSol b.set c.set ∩ x.set = ∅ ∧ b.mulRev binary64 c x = ⟨.fin 0, .fin 0⟩ := by
  refine ⟨⟨.fin 1, .pinf⟩, ⟨.fin 1, .fin 1⟩, ⟨.fin (-1), .fin 0⟩, Itv.ok_of_okb (by decide +kernel),
    Itv.ok_of_okb (by decide +kernel), Itv.ok_of_okb (by decide +kernel), ?_, by decide +kernel⟩
  ext t
  simp only [Set.mem_inter_iff, Set.mem_empty_iff_false, iff_false, not_and]
  rintro ⟨b, ⟨hb, -⟩, ⟨hc, -⟩⟩ ⟨-, ht⟩
  norm_num [FP.BelowR, FP.AboveR] at hb hc ht
  nlinarith

/-- The hypotheses hold and the results are non-trivial: two components for `b = [-2,4]`, `c = [1,8]`; in the second
case the candidate `[2,4]` meets `x = [1,3]` in `[2,3]`. -/
example : (Itv.mk (.fin (-2)) (.fin 4)).Ok binary64 ∧ (Itv.mk (.fin 1) (.fin 8)).Ok binary64 ∧
    (Itv.mk (.fin (-2)) (.fin 4)).mulRevToPair binary64 (Itv.mk (.fin 1) (.fin 8)) =
      (Itv.mk .ninf (.fin (-1/2)), Itv.mk (.fin (1/4)) .pinf) ∧
    (Itv.mk (.fin 1) (.fin 2)).mulRev binary64 (Itv.mk (.fin 4) (.fin 4)) (Itv.mk (.fin 1) (.fin 3)) =
      Itv.mk (.fin 2) (.fin 3) :=
  ⟨Itv.ok_of_okb (by decide +kernel), Itv.ok_of_okb (by decide +kernel), by decide +kernel, by decide +kernel⟩

end P1788
