import Verif.SpecDec
import Verif.Model.Dec
import Verif.Lemmas.SetOp
import Verif.Lemmas.Ends

/-! Helper lemmas: decorations. -/

namespace P1788
open Bornology
variable {φ : Fmt}

namespace Dec
theorem le_def {a b : Dec} : a ≤ b ↔ a.val ≤ b.val := Iff.rfl
theorem lt_def {a b : Dec} : a < b ↔ a.val < b.val := Iff.rfl
theorem min_le_left (a b : Dec) : a.min b ≤ a := by cases a <;> cases b <;> decide
theorem min_le_right (a b : Dec) : a.min b ≤ b := by cases a <;> cases b <;> decide
theorem le_min {a b c : Dec} (h1 : c ≤ a) (h2 : c ≤ b) : c ≤ a.min b := by
  revert h1 h2; cases a <;> cases b <;> cases c <;> decide
theorem le_trans {a b c : Dec} (h1 : a ≤ b) (h2 : b ≤ c) : a ≤ c := by
  revert h1 h2; cases a <;> cases b <;> cases c <;> decide
theorem le_refl (a : Dec) : a ≤ a := by cases a <;> decide
theorem le_antisymm {a b : Dec} (h1 : a ≤ b) (h2 : b ≤ a) : a = b := by
  revert h1 h2; cases a <;> cases b <;> decide
theorem min_ne_ill {a b : Dec} (h1 : a ≠ .ill) (h2 : b ≠ .ill) : a.min b ≠ .ill := by
  revert h1 h2; cases a <;> cases b <;> decide
theorem min_eq_com {a b : Dec} : a.min b = .com ↔ a = .com ∧ b = .com := by cases a <;> cases b <;> decide
theorem le_com (a : Dec) : a ≤ .com := by cases a <;> decide
theorem le_iff_ne_com {a : Dec} : a ≤ .dac ↔ a ≠ .com := by cases a <;> decide
end Dec

namespace Itv
theorem NE.bounded_iff {x : Itv} (h : x.NE φ) : IsBounded x.set ↔ x.lo ≠ .ninf ∧ x.hi ≠ .pinf := by
  rw [Ne, ← FP.toE_eq_bot, Ne, ← FP.toE_eq_top]
  constructor
  · intro hb
    obtain ⟨r, hr⟩ := hb.subset_closedBall 0
    rw [Real.closedBall_eq_Icc] at hr
    constructor
    · intro e
      obtain ⟨b, hb, hlt⟩ := h.ex_gt (r := 0 - r) |>.mpr (by rw [e]; exact EReal.bot_lt_coe _)
      linarith [(hr hb).1]
    · intro e
      obtain ⟨b, hb, hlt⟩ := h.ex_lt (r := 0 + r) |>.mpr (by rw [e]; exact EReal.coe_lt_top _)
      linarith [(hr hb).2]
  · rintro ⟨h1, h2⟩
    obtain ⟨a, ha⟩ : ∃ a : ℝ, x.lo.toE = a := ⟨_, (EReal.coe_toReal h.lo_top h1).symm⟩
    obtain ⟨b, hb⟩ : ∃ b : ℝ, x.hi.toE = b := ⟨_, (EReal.coe_toReal h2 h.hi_bot).symm⟩
    refine (Metric.isBounded_Icc a b).subset fun r hr => ?_
    rw [h.mem, ha, hb] at hr
    exact ⟨by exact_mod_cast hr.1, by exact_mod_cast hr.2⟩

theorem NE.isCommon_iff {x : Itv} (h : x.NE φ) : x.isCommon = true ↔ IsBounded x.set := by
  rw [h.bounded_iff]
  have h1 := h.lo_ne
  have h2 := h.hi_ne
  have h3 := h.lo_top
  have h4 := h.hi_bot
  rw [Ne, FP.toE_eq_top] at h3
  rw [Ne, FP.toE_eq_bot] at h4
  unfold isCommon
  rw [h.isValid, h.isEmpty]
  cases hl : x.lo <;> cases hh : x.hi <;> simp_all [FP.ltb]

theorem isCommon_empty : Itv.empty.isCommon = false := by decide
end Itv

/-! ## Decorated objects -/

namespace DItv
variable {x y : DItv}

theorem Ok.isValid (h : x.Ok φ) : x.isValid = true := by
  obtain ⟨h1, h2, h3, h4⟩ := h
  rcases h1.cases with he | hn
  · rcases h2 he with hd | hd
    all_goals
      unfold DItv.isValid; rw [he, hd]; decide
  · have h3' := h3 (fun e => hn.ne_empty e)
    have e1 := hn.lo_top
    have e2 := hn.hi_bot
    have e3 := (leb_iff hn.lo_ne hn.hi_ne).mpr hn.le
    rw [Ne, FP.toE_eq_top] at e1
    rw [Ne, FP.toE_eq_bot] at e2
    unfold DItv.isValid
    simp only [Itv.feq_pinf, Itv.feq_ninf, e3, e1, e2, Bool.or_eq_true, Bool.and_eq_true]
    right
    by_cases hc : x.dec = .com
    · simp [h4 hc, hc]
    · simp [h3', hc]

theorem Ok.isNai_iff (h : x.Ok φ) : x.isNai = true ↔ x.dec = .ill := by
  unfold isNai
  rw [h.isValid]
  constructor
  · intro hh; simp at hh; exact hh.2
  · intro hd
    obtain ⟨h1, h2, h3, h4⟩ := h
    have : x.itv = ⟨.nan, .nan⟩ := by by_contra hc; exact h3 hc hd
    rw [this, hd]; decide

theorem Ok.isNai_false (h : x.Ok φ) (hn : x.dec ≠ .ill) : x.isNai = false := by
  rw [Bool.eq_false_iff, Ne, h.isNai_iff]; exact hn

theorem isNaI_iff (h : x.Ok φ) : x.IsNaI ↔ x.dec = .ill :=
  ⟨fun hh => hh.2, fun hd => ⟨by by_contra hc; exact h.2.2.1 hc hd, hd⟩⟩

theorem Ok.un (h : x.Ok φ) (hn : x.dec ≠ .ill) (b : Itv) (l : Dec) : x.un b l = ⟨b, x.dec.min l⟩ := by
  unfold DItv.un; rw [h.isValid, h.isNai_false hn]; rfl
theorem Ok.bin (hx : x.Ok φ) (hy : y.Ok φ) (hn : x.dec ≠ .ill) (hm : y.dec ≠ .ill) (b : Itv) (l : Dec) :
    x.bin y b l = ⟨b, (x.dec.min y.dec).min l⟩ := by
  unfold DItv.bin; rw [hx.isValid, hx.isNai_false hn, hy.isValid, hy.isNai_false hm]; rfl

theorem Ok.isMember (h : x.Ok φ) (hn : x.dec ≠ .ill) (q : ℚ) :
    x.isMember (.fin q) = true ↔ (q:ℝ) ∈ x.set := by
  unfold DItv.isMember Itv.isMember
  rw [h.isValid, h.isNai_false hn, h.1.isValid]
  simp only [FP.isInf, Bool.not_true, Bool.or_self, Bool.false_eq_true, if_false, Bool.not_false, Bool.and_true,
    Bool.and_eq_true]
  show (x.itv.lo ≤ .fin q ∧ .fin q ≤ x.itv.hi) ↔ _
  rw [Itv.mem_set, FP.le_iff', FP.le_iff']
  simp

theorem Ok.com_bounded (h : x.Ok φ) (hc : x.dec = .com) : IsBounded x.set := by
  rcases h.1.cases with he | hn
  · show IsBounded x.itv.set
    rw [he]; simp
  · exact hn.bounded_iff.mpr (h.2.2.2 hc)

theorem Ok.nonempty_of (h : x.Ok φ) (hd : .defd ≤ x.dec) : x.set.Nonempty := by
  rcases h.1.cases with he | hn
  · rcases h.2.1 he with e | e <;> rw [e] at hd <;> exact absurd hd (by decide)
  · exact hn.nonempty

end DItv

/-! ## Local decorations -/

section
variable {α : Type*} [TopologicalSpace α] [Bornology α] {f : α → ℝ} {dom X : Set α} {R : Set ℝ}

/-- `DecMeans` without the requirement that the box is bounded. -/
def PreMeans (f : α → ℝ) (dom X : Set α) (R : Set ℝ) : Dec → Prop
  | .ill => False
  | .com => X.Nonempty ∧ X ⊆ dom ∧ (∀ t ∈ X, ContinuousWithinAt f dom t) ∧ IsBounded R
  | d => DecMeans f dom X R d

theorem PreMeans.mono {d e : Dec} (h : PreMeans f dom X R d) (he : e ≤ d) (hi : e ≠ .ill) : PreMeans f dom X R e := by
  have key : PreMeans f dom X R .com → PreMeans f dom X R .dac := fun h =>
    ⟨h.1, h.2.1, fun t ht => (h.2.2.1 t ht).mono h.2.1⟩
  have key2 : PreMeans f dom X R .dac → PreMeans f dom X R .defd := fun h => ⟨h.1, h.2.1⟩
  cases d <;> cases e <;>
    first
    | exact absurd rfl hi
    | exact absurd he (by decide)
    | exact h
    | exact trivial
    | exact key h
    | exact key2 h
    | exact key2 (key h)

/-- What a function's own decoration must satisfy. -/
structure LocalOk (f : α → ℝ) (dom X : Set α) (R : Set ℝ) (loc : Dec) : Prop where
  pre : PreMeans f dom X R loc
  best : ∀ d, DecMeans f dom X R d → d ≤ loc

theorem LocalOk.right {loc dx : Dec} {b : Itv} (h : LocalOk f dom X b.set loc) (hd : dx ≠ .ill)
    (hc : dx = .com → IsBounded X) : DecRight f dom X dx ⟨b, dx.min loc⟩ := by
  have hl : loc ≠ .ill := by rintro rfl; exact h.pre
  have hm : dx.min loc ≠ .ill := Dec.min_ne_ill hd hl
  refine ⟨hm, Dec.min_le_left _ _, ?_, fun d hd' hm' => Dec.le_min hd' (h.best d hm')⟩
  have hp := h.pre.mono (Dec.min_le_right dx loc) hm
  show DecMeans f dom X b.set (dx.min loc)
  by_cases hcom : dx.min loc = .com
  · rw [hcom] at hp ⊢
    exact ⟨hp.1, hp.2.1, hp.2.2.1, hc (Dec.min_eq_com.mp hcom).1, hp.2.2.2⟩
  · revert hp hm hcom
    generalize dx.min loc = d
    cases d <;> simp [PreMeans]

theorem tight_empty_iff {b : Itv} {S : Set ℝ} (h : Tightest φ b S) : b.isEmpty = true ↔ S = ∅ := by
  rw [h.1.isEmpty_iff]
  constructor
  · rintro rfl
    have := h.2.1
    rw [Itv.set_empty] at this
    exact Set.subset_empty_iff.mp this
  · rintro rfl
    have := h.2.2 Itv.empty (Itv.ok_empty φ) (Set.empty_subset _)
    rw [Itv.set_empty, Set.subset_empty_iff] at this
    exact h.1.set_eq_empty_iff.mp this

/-- The usual conditional expression. -/
theorem localOk_std {b : Itv} {bad : Bool} (hT : Tightest φ b (f '' (X ∩ dom)))
    (hbad : X.Nonempty → (bad = true ↔ ¬ X ⊆ dom)) (hc : ContinuousOn f dom) :
    LocalOk f dom X b.set (if bad || b.isEmpty then .trv else b.comDac) := by
  have he := tight_empty_iff hT
  rw [Set.image_eq_empty] at he
  have htrv : ¬ (X.Nonempty ∧ X ⊆ dom) → LocalOk f dom X b.set .trv := by
    refine fun h => ⟨trivial, fun d hd => ?_⟩
    cases d
    · decide
    · decide
    · exact absurd hd h
    · exact absurd ⟨hd.1, hd.2.1⟩ h
    · exact absurd ⟨hd.1, hd.2.1⟩ h
  by_cases hX : X.Nonempty ∧ X ⊆ dom
  · obtain ⟨h1, h2⟩ := hX
    have e1 : bad = false := by rw [Bool.eq_false_iff, Ne, hbad h1]; exact not_not.mpr h2
    have e2 : b.isEmpty = false := by
      rw [Bool.eq_false_iff, Ne, he, Set.inter_eq_left.mpr h2]; exact h1.ne_empty
    have hN : b.NE φ := by
      rcases hT.1.cases with rfl | h
      · exact absurd e2 (by decide)
      · exact h
    rw [e1, e2]
    simp only [Bool.or_self, Bool.false_eq_true, if_false, Itv.comDac]
    split_ifs with hcm
    · rw [hN.isCommon_iff] at hcm
      exact ⟨⟨h1, h2, fun t ht => hc t (h2 ht), hcm⟩, fun d _ => Dec.le_com d⟩
    · rw [hN.isCommon_iff] at hcm
      refine ⟨⟨h1, h2, hc.mono h2⟩, fun d hd => ?_⟩
      cases d
      · decide
      · decide
      · decide
      · decide
      · exact absurd hd.2.2.2.2 hcm
  · have hb : (bad || b.isEmpty) = true := by
      by_cases hX1 : X.Nonempty
      · have := (hbad hX1).mpr (fun h => hX ⟨hX1, h⟩)
        rw [this]; rfl
      · rw [Set.not_nonempty_iff_eq_empty] at hX1
        rw [(he.mpr (by rw [hX1, Set.empty_inter]))]; simp
    rw [hb]; exact htrv hX
end

end P1788
