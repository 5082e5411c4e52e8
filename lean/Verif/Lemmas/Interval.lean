import Verif.Lemmas.Round
import Verif.Spec
import Mathlib.Order.Bounds.Basic

/-! Helper lemmas: intervals as sets, validity, and the main tightness criterion. -/

namespace P1788
open FP

theorem FP.belowR_iff {a : FP} {r : ℝ} : a.BelowR r ↔ a ≠ .nan ∧ a.toE ≤ (r : EReal) := by
  cases a <;> simp [FP.BelowR, FP.toE]

theorem FP.aboveR_iff {a : FP} {r : ℝ} : a.AboveR r ↔ a ≠ .nan ∧ (r : EReal) ≤ a.toE := by
  cases a <;> simp [FP.AboveR, FP.toE]

namespace Itv

theorem mem_set {x : Itv} {r : ℝ} :
    r ∈ x.set ↔ (x.lo ≠ .nan ∧ x.lo.toE ≤ (r:EReal)) ∧ (x.hi ≠ .nan ∧ (r:EReal) ≤ x.hi.toE) := by
  unfold Itv.set
  rw [Set.mem_ofPred_eq, FP.belowR_iff, FP.aboveR_iff]

@[simp] theorem set_empty : Itv.empty.set = ∅ := by
  ext r; simp [Itv.empty, mem_set]

@[simp] theorem set_nan (b : FP) : (Itv.mk .nan b).set = ∅ := by
  ext r; simp [mem_set]

@[simp] theorem set_entire : Itv.entire.set = Set.univ := by
  ext r; simp [Itv.entire, mem_set]

/-- Non-empty proper intervals, in extended-real terms. -/
structure NE (φ : Fmt) (x : Itv) : Prop where
  lo_ne : x.lo ≠ .nan
  hi_ne : x.hi ≠ .nan
  le : x.lo.toE ≤ x.hi.toE
  lo_top : x.lo.toE ≠ ⊤
  hi_bot : x.hi.toE ≠ ⊥
  lo_in : x.lo.In φ
  hi_in : x.hi.In φ

theorem _root_.P1788.FP.toE_eq_top {a : FP} : a.toE = ⊤ ↔ a = .pinf := by
  cases a <;> simp [FP.toE]
theorem _root_.P1788.FP.toE_eq_bot {a : FP} : a.toE = ⊥ ↔ a = .ninf := by
  cases a <;> simp [FP.toE]

theorem ok_iff {φ : Fmt} {x : Itv} : x.Ok φ ↔ x = Itv.empty ∨ x.NE φ := by
  unfold Ok
  refine or_congr Iff.rfl ⟨fun h => ?_, fun h => ?_⟩
  · obtain ⟨h1, h2, h3, h4, h5⟩ := h
    rw [FP.le_iff'] at h1
    exact ⟨h1.1, h1.2.1, h1.2.2, by rwa [Ne, FP.toE_eq_top], by rwa [Ne, FP.toE_eq_bot], h4, h5⟩
  · refine ⟨(FP.le_iff h.lo_ne h.hi_ne).mpr h.le, ?_, ?_, h.lo_in, h.hi_in⟩
    · have := h.lo_top; rwa [Ne, FP.toE_eq_top] at this
    · have := h.hi_bot; rwa [Ne, FP.toE_eq_bot] at this

theorem Ok.cases {φ : Fmt} {x : Itv} (h : x.Ok φ) : x = Itv.empty ∨ x.NE φ := ok_iff.mp h
theorem NE.ok {φ : Fmt} {x : Itv} (h : x.NE φ) : x.Ok φ := ok_iff.mpr (Or.inr h)
theorem ok_empty (φ : Fmt) : Itv.empty.Ok φ := Or.inl rfl

theorem entire_NE (φ : Fmt) : Itv.entire.NE φ :=
  ⟨by simp [entire], by simp [entire], by simp [entire], by simp [entire], by simp [entire],
   by simp [entire, FP.In], by simp [entire, FP.In]⟩
theorem ok_entire (φ : Fmt) : Itv.entire.Ok φ := (entire_NE φ).ok

theorem isNaN_iff {a : FP} : a.isNaN = true ↔ a = .nan := by cases a <;> simp [FP.isNaN]
theorem isNaN_eq_false {a : FP} : a.isNaN = false ↔ a ≠ .nan := by cases a <;> simp [FP.isNaN]

theorem feq_pinf {a : FP} : a.feq .pinf = decide (a = .pinf) := by
  cases a <;> simp [FP.feq, FP.leb]
theorem feq_ninf {a : FP} : a.feq .ninf = decide (a = .ninf) := by
  cases a <;> simp [FP.feq, FP.leb]

theorem isValid_iff {x : Itv} : x.isValid = true ↔
    (x.lo = .nan ∧ x.hi = .nan) ∨ (x.lo ≤ x.hi ∧ x.lo ≠ .pinf ∧ x.hi ≠ .ninf) := by
  unfold isValid
  simp [isNaN_iff, feq_pinf, feq_ninf, FP.le_def, and_assoc]

theorem Ok.isValid {φ : Fmt} {x : Itv} (h : x.Ok φ) : x.isValid = true := by
  rw [isValid_iff]
  rcases h with rfl | h
  · exact Or.inl ⟨rfl, rfl⟩
  · exact Or.inr ⟨h.1, h.2.1, h.2.2.1⟩

theorem NE.isValid {φ : Fmt} {x : Itv} (h : x.NE φ) : x.isValid = true := h.ok.isValid

/-- The C++ validity test together with the bounds being format numbers is exactly `Ok`. -/
theorem ok_iff_isValid {φ : Fmt} {x : Itv} : x.Ok φ ↔ x.isValid = true ∧ x.lo.In φ ∧ x.hi.In φ := by
  constructor
  · intro h
    refine ⟨h.isValid, ?_⟩
    rcases h with rfl | h
    · exact ⟨trivial, trivial⟩
    · exact ⟨h.2.2.2.1, h.2.2.2.2⟩
  · rintro ⟨h, h1, h2⟩
    rw [isValid_iff] at h
    rcases h with ⟨h3, h4⟩ | ⟨h3, h4, h5⟩
    · left; cases x; simp_all
    · exact Or.inr ⟨h3, h4, h5, h1, h2⟩

theorem NE.isEmpty {φ : Fmt} {x : Itv} (h : x.NE φ) : x.isEmpty = false := by
  unfold Itv.isEmpty
  simp [isNaN_eq_false.mpr h.lo_ne]

@[simp] theorem isValid_empty : Itv.empty.isValid = true := rfl
@[simp] theorem isEmpty_empty : Itv.empty.isEmpty = true := rfl

theorem NE.ne_empty {φ : Fmt} {x : Itv} (h : x.NE φ) : x ≠ Itv.empty := by
  intro h'; have := h.isEmpty; rw [h'] at this; simp at this

theorem Ok.isEmpty_iff {φ : Fmt} {x : Itv} (h : x.Ok φ) : x.isEmpty = true ↔ x = Itv.empty := by
  rcases h.cases with rfl | h
  · simp
  · simp [h.isEmpty, h.ne_empty]

theorem NE.mem {φ : Fmt} {x : Itv} (h : x.NE φ) {r : ℝ} :
    r ∈ x.set ↔ x.lo.toE ≤ (r:EReal) ∧ (r:EReal) ≤ x.hi.toE := by
  rw [mem_set]; simp [h.lo_ne, h.hi_ne]

theorem exists_real_between {a b : EReal} (hab : a ≤ b) (ha : a ≠ ⊤) (hb : b ≠ ⊥) :
    ∃ r : ℝ, a ≤ r ∧ (r:EReal) ≤ b := by
  induction a with
  | bot =>
    induction b with
    | bot => exact absurd rfl hb
    | top => exact ⟨0, by simp, by simp⟩
    | coe b => exact ⟨b, by simp, le_rfl⟩
  | top => exact absurd rfl ha
  | coe a => exact ⟨a, le_rfl, hab⟩

theorem NE.nonempty {φ : Fmt} {x : Itv} (h : x.NE φ) : x.set.Nonempty := by
  obtain ⟨r, h1, h2⟩ := exists_real_between h.le h.lo_top h.hi_bot
  exact ⟨r, h.mem.mpr ⟨h1, h2⟩⟩

theorem Ok.set_eq_empty_iff {φ : Fmt} {x : Itv} (h : x.Ok φ) : x.set = ∅ ↔ x = Itv.empty := by
  rcases h.cases with rfl | h
  · simp
  · simp [h.ne_empty, h.nonempty.ne_empty]

/-- The set of a proper non-empty interval determines its bounds' values. -/
theorem NE.subset_iff {φ ψ : Fmt} {x y : Itv} (hx : x.NE φ) (hy : y.NE ψ) :
    x.set ⊆ y.set ↔ y.lo.toE ≤ x.lo.toE ∧ x.hi.toE ≤ y.hi.toE := by
  constructor
  · intro h
    obtain ⟨r0, h1, h2⟩ := exists_real_between hx.le hx.lo_top hx.hi_bot
    constructor
    · -- lower bounds
      by_contra hcon
      push Not at hcon
      obtain ⟨s, hs1, hs2⟩ : ∃ s : ℝ, x.lo.toE ≤ s ∧ (s:EReal) < y.lo.toE := by
        by_cases hb : x.lo.toE = ⊥
        · rw [hb] at hcon ⊢
          have := hy.lo_top
          lift y.lo.toE to ℝ using ⟨this, hcon.ne'⟩ with v hv
          exact ⟨v - 1, bot_le, by rw [EReal.coe_lt_coe_iff]; linarith⟩
        · lift x.lo.toE to ℝ using ⟨hx.lo_top, hb⟩ with v hv
          exact ⟨v, le_rfl, hcon⟩
      have hs : (min s r0) ∈ x.set := by
        rw [hx.mem]
        constructor
        · rcases min_choice s r0 with h | h <;> rw [h] <;> assumption
        · exact (EReal.coe_le_coe_iff.mpr (min_le_right s r0)).trans h2
      have := (hy.mem.mp (h hs)).1
      have h3 : ((min s r0 : ℝ):EReal) ≤ s := EReal.coe_le_coe_iff.mpr (min_le_left s r0)
      exact absurd (lt_of_le_of_lt (this.trans h3) hs2) (lt_irrefl _)
    · by_contra hcon
      push Not at hcon
      obtain ⟨s, hs1, hs2⟩ : ∃ s : ℝ, (s:EReal) ≤ x.hi.toE ∧ y.hi.toE < (s:EReal) := by
        by_cases hb : x.hi.toE = ⊤
        · rw [hb] at hcon ⊢
          have := hy.hi_bot
          lift y.hi.toE to ℝ using ⟨hcon.ne, this⟩ with v hv
          exact ⟨v + 1, le_top, by rw [EReal.coe_lt_coe_iff]; linarith⟩
        · lift x.hi.toE to ℝ using ⟨hb, hx.hi_bot⟩ with v hv
          exact ⟨v, le_rfl, hcon⟩
      have hs : (max s r0) ∈ x.set := by
        rw [hx.mem]
        constructor
        · exact h1.trans (EReal.coe_le_coe_iff.mpr (le_max_right s r0))
        · rcases max_choice s r0 with h | h <;> rw [h] <;> assumption
      have := (hy.mem.mp (h hs)).2
      have h3 : (s:EReal) ≤ ((max s r0 : ℝ):EReal) := EReal.coe_le_coe_iff.mpr (le_max_left s r0)
      exact absurd (lt_of_le_of_lt (h3.trans this) hs2) (lt_irrefl _)
  · rintro ⟨h1, h2⟩ r hr
    rw [hx.mem] at hr
    exact hy.mem.mpr ⟨h1.trans hr.1, hr.2.trans h2⟩

end Itv

/-- The image of a set of reals in the extended reals. -/
abbrev eimg (S : Set ℝ) : Set EReal := (fun r : ℝ => (r:EReal)) '' S

theorem tightest_empty (φ : Fmt) : Tightest φ Itv.empty ∅ :=
  ⟨Itv.ok_empty φ, by simp, fun Y _ _ => by simp⟩

/-- Main criterion: bounds that are the outward roundings of the exact infimum and supremum. -/
theorem tightest_of_glb_lub {φ : Fmt} {R : Itv} {S : Set ℝ} {l u : EReal}
    (hS : S.Nonempty) (hl : IsGLB (eimg S) l) (hu : IsLUB (eimg S) u)
    (hlo : R.lo.toE = φ.rdE l) (hhi : R.hi.toE = φ.ruE u)
    (hln : R.lo ≠ .nan) (hhn : R.hi ≠ .nan) (hli : R.lo.In φ) (hhi' : R.hi.In φ) :
    Tightest φ R S := by
  obtain ⟨s, hs⟩ := hS
  have hls : l ≤ (s:EReal) := hl.1 ⟨s, hs, rfl⟩
  have hus : (s:EReal) ≤ u := hu.1 ⟨s, hs, rfl⟩
  have hR : R.NE φ := by
    refine ⟨hln, hhn, ?_, ?_, ?_, hli, hhi'⟩
    · rw [hlo, hhi]; exact (φ.rdE_le l).trans ((hls.trans hus).trans (φ.le_ruE u))
    · rw [hlo]; exact φ.rdE_ne_top (ne_top_of_le_ne_top (EReal.coe_ne_top s) hls)
    · rw [hhi]; exact φ.ruE_ne_bot (ne_bot_of_le_ne_bot (EReal.coe_ne_bot s) hus)
  refine ⟨hR.ok, fun t ht => ?_, fun Y hY hSY => ?_⟩
  · rw [hR.mem, hlo, hhi]
    exact ⟨(φ.rdE_le l).trans (hl.1 ⟨t, ht, rfl⟩), (hu.1 ⟨t, ht, rfl⟩).trans (φ.le_ruE u)⟩
  · rcases hY.cases with rfl | hYN
    · have := hSY hs; simp at this
    · rw [hR.subset_iff hYN, hlo, hhi, φ.le_rdE_iff hYN.lo_in _ hYN.lo_ne, φ.ruE_le_iff hYN.hi_in _ hYN.hi_ne]
      constructor
      · apply hl.2
        rintro _ ⟨t, ht, rfl⟩
        exact (hYN.mem.mp (hSY ht)).1
      · apply hu.2
        rintro _ ⟨t, ht, rfl⟩
        exact (hYN.mem.mp (hSY ht)).2

end P1788
