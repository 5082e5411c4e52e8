import Verif.Lemmas.Glb
import Verif.Lemmas.SetOp
import Verif.Lemmas.Near
import Verif.Lemmas.Dec

/-! Helper lemmas: conversion between number formats. -/

namespace P1788
variable {φ ψ : Fmt}

theorem box_seg {l u : EReal} (h : l ≤ u) (hl : l ≠ ⊤) (hu : u ≠ ⊥) :
    Box {r : ℝ | l ≤ (r:EReal) ∧ (r:EReal) ≤ u} l u := by
  obtain ⟨r0, h1, h2⟩ := Itv.exists_real_between h hl hu
  refine Box.mk' ⟨r0, h1, h2⟩ (fun s hs => hs.1) (fun t ht => ?_) (fun s hs => hs.2) (fun t ht => ?_)
  · by_cases hb : l = ⊥
    · rw [hb]
      by_contra hcon
      rw [not_le] at hcon
      have htop : t ≠ ⊤ := ne_top_of_le_ne_top (EReal.coe_ne_top r0) (ht r0 ⟨h1, h2⟩)
      lift t to ℝ using ⟨htop, hcon.ne'⟩
      have h4 := ht (min r0 (t - 1)) ⟨by rw [hb]; exact bot_le,
        (EReal.coe_le_coe_iff.mpr (min_le_left _ _)).trans h2⟩
      rw [EReal.coe_le_coe_iff] at h4
      have := min_le_right r0 (t-1)
      linarith
    · lift l to ℝ using ⟨hl, hb⟩
      exact ht l ⟨le_rfl, h⟩
  · by_cases hb : u = ⊤
    · rw [hb]
      by_contra hcon
      rw [not_le] at hcon
      have hbot : t ≠ ⊥ := ne_bot_of_le_ne_bot (EReal.coe_ne_bot r0) (ht r0 ⟨h1, h2⟩)
      lift t to ℝ using ⟨hcon.ne, hbot⟩
      have h4 := ht (max r0 (t + 1)) ⟨h1.trans (EReal.coe_le_coe_iff.mpr (le_max_left _ _)), by rw [hb]; exact le_top⟩
      rw [EReal.coe_le_coe_iff] at h4
      have := le_max_right r0 (t+1)
      linarith
    · lift u to ℝ using ⟨hb, hu⟩
      exact ht u ⟨h, le_rfl⟩

theorem conv_spec (φ : Fmt) (m : Rnd) {a : FP} (ha : a ≠ .nan) :
    φ.conv m a ≠ .nan ∧ (φ.conv m a).toE = φ.rndE m a.toE ∧ (φ.conv m a).In φ := by
  cases a with
  | nan => exact absurd rfl ha
  | ninf => exact ⟨by simp [Fmt.conv], by simp [Fmt.conv], trivial⟩
  | pinf => exact ⟨by simp [Fmt.conv], by simp [Fmt.conv], trivial⟩
  | nzero => exact ⟨by simp [Fmt.conv], by simp [Fmt.conv], trivial⟩
  | fin q =>
    by_cases h : q = 0
    · subst h
      exact ⟨by simp [Fmt.conv], by simp [Fmt.conv], by simp only [Fmt.conv, if_true]; exact φ.rep_zero⟩
    · simp only [Fmt.conv, h, if_false]
      exact ⟨φ.round_rat_ne_nan _ _, (φ.rndE_rat _ _).symm, φ.round_rat_in _ _⟩

theorem convertRndd_spec (φ : Fmt) {a : FP} (ha : a ≠ .nan) :
    φ.convertRndd a ≠ .nan ∧ (φ.convertRndd a).toE = φ.rdE a.toE ∧ (φ.convertRndd a).In φ := by
  obtain ⟨h1, h2, h3⟩ := conv_spec φ .D ha
  unfold Fmt.convertRndd
  simp only
  split_ifs with h
  · rw [Fmt.isZero_iff h1, h2] at h
    exact ⟨by simp, by rw [← Fmt.rndE_D, h]; rfl, trivial⟩
  · exact ⟨h1, by rw [h2, Fmt.rndE_D], h3⟩

theorem convertRndu_spec (φ : Fmt) {a : FP} (ha : a ≠ .nan) :
    φ.convertRndu a ≠ .nan ∧ (φ.convertRndu a).toE = φ.ruE a.toE ∧ (φ.convertRndu a).In φ := by
  obtain ⟨h1, h2, h3⟩ := conv_spec φ .U ha
  unfold Fmt.convertRndu
  simp only
  split_ifs with h
  · rw [Fmt.isZero_iff h1, h2] at h
    exact ⟨by simp, by rw [← Fmt.rndE_U, h]; simp, φ.rep_zero⟩
  · exact ⟨h1, by rw [h2, Fmt.rndE_U], h3⟩

theorem convertRndn_spec (φ : Fmt) {a : FP} (ha : a ≠ .nan) :
    φ.convertRndn a ≠ .nan ∧ (φ.convertRndn a).toE = φ.rndE .N a.toE ∧ (φ.convertRndn a).In φ := by
  obtain ⟨h1, h2, h3⟩ := conv_spec φ .N ha
  unfold Fmt.convertRndn
  simp only
  split_ifs with h
  · rw [Fmt.isZero_iff h1, h2] at h
    exact ⟨by simp, by rw [h]; simp, φ.rep_zero⟩
  · exact ⟨h1, h2, h3⟩

@[simp] theorem convertRndd_nan (φ : Fmt) : φ.convertRndd .nan = .nan := by simp [Fmt.convertRndd, Fmt.conv, FP.isZero]
@[simp] theorem convertRndu_nan (φ : Fmt) : φ.convertRndu .nan = .nan := by simp [Fmt.convertRndu, Fmt.conv, FP.isZero]
@[simp] theorem convertRndn_nan (φ : Fmt) : φ.convertRndn .nan = .nan := by simp [Fmt.convertRndn, Fmt.conv, FP.isZero]

@[simp] theorem convertHull_empty (φ : Fmt) : φ.convertHull Itv.empty = Itv.empty := by
  simp [Fmt.convertHull, Itv.empty]

/-- Rounding two bounds outward gives the tightest interval of the format. -/
theorem hull_bounds (φ : Fmt) {l u : FP} (hl : l ≠ .nan) (hu : u ≠ .nan) (h : l.toE ≤ u.toE) (h1 : l.toE ≠ ⊤)
    (h2 : u.toE ≠ ⊥) : Tightest φ ⟨φ.convertRndd l, φ.convertRndu u⟩ {r | l.BelowR r ∧ u.AboveR r} := by
  obtain ⟨a1, a2, a3⟩ := convertRndd_spec φ hl
  obtain ⟨b1, b2, b3⟩ := convertRndu_spec φ hu
  have hS : {r : ℝ | l.BelowR r ∧ u.AboveR r} = {r : ℝ | l.toE ≤ (r:EReal) ∧ (r:EReal) ≤ u.toE} := by
    ext r; simp [FP.belowR_iff, FP.aboveR_iff, hl, hu]
  rw [hS]
  exact tightest_of_box (box_seg h h1 h2) a1 b1 a3 b3 a2 b2

theorem convertHull_tight {x : Itv} (hx : x.Ok ψ) : Tightest φ (φ.convertHull x) x.set := by
  rcases hx.cases with rfl | hN
  · rw [convertHull_empty, Itv.set_empty]; exact tightest_empty φ
  · exact hull_bounds φ hN.lo_ne hN.hi_ne hN.le hN.lo_top hN.hi_bot

/-- Every number of `φ` is a number of `ψ`. -/
def Fmt.Sub (φ ψ : Fmt) : Prop := ∀ q, φ.Rep q → ψ.Rep q

theorem Fmt.Sub.refl (φ : Fmt) : φ.Sub φ := fun _ h => h
theorem Fmt.Sub.trans {χ : Fmt} (h : φ.Sub ψ) (h' : ψ.Sub χ) : φ.Sub χ := fun q hq => h' q (h q hq)

theorem Fmt.Sub.in (h : φ.Sub ψ) {a : FP} (ha : a.In φ) : a.In ψ := by
  cases a <;> first | trivial | exact h _ ha

theorem Fmt.Sub.ok (h : φ.Sub ψ) {x : Itv} (hx : x.Ok φ) : x.Ok ψ :=
  hx.imp id fun ⟨h1, h2, h3, h4, h5⟩ => ⟨h1, h2, h3, h.in h4, h.in h5⟩

theorem Fmt.Sub.okD (h : φ.Sub ψ) {x : DItv} (hx : x.Ok φ) : x.Ok ψ := ⟨h.ok hx.1, hx.2⟩

theorem sub_of_params (hp : φ.p ≤ ψ.p) (hq : ψ.qmin ≤ φ.qmin) (he : φ.emax - φ.p ≤ ψ.emax - ψ.p) : φ.Sub ψ := by
  rintro q ⟨m, e, rfl, hm, h1, h2⟩
  refine ⟨m, e, rfl, hm.trans_le (pow_le_pow_right₀ (by norm_num) hp), by omega, by omega⟩

theorem sub_32_64 : binary32.Sub binary64 := sub_of_params (by decide) (by decide) (by decide)
theorem sub_64_x87 : binary64.Sub x87ext := sub_of_params (by decide) (by decide) (by decide)
theorem sub_32_x87 : binary32.Sub x87ext := sub_32_64.trans sub_64_x87

/-- Rounding the tightest interval of a wider format once more gives the tightest interval of the narrower one. -/
theorem tight_convert (h : φ.Sub ψ) {R : Itv} {S : Set ℝ} (hT : Tightest ψ R S) : Tightest φ (φ.convertHull R) S := by
  obtain ⟨h1, h2, h3⟩ := convertHull_tight (φ := φ) hT.1
  exact ⟨h1, hT.2.1.trans h2, fun Y hY hS => h3 Y hY (hT.2.2 Y (h.ok hY) hS)⟩

/-- Converting to a wider format is exact. -/
theorem convert_exact (h : φ.Sub ψ) {x : Itv} (hx : x.Ok φ) : (ψ.convertHull x).set = x.set :=
  (convertHull_tight hx).set_unique ⟨h.ok hx, le_rfl, fun _ _ h => h⟩

theorem convertHullD_eq {x : DItv} (hx : x.Ok ψ) (hn : x.dec ≠ .ill) :
    φ.convertHullD x = ⟨φ.convertHull x.itv,
      if x.dec = .com ∧ ((φ.convertHull x.itv).lo = .ninf ∨ (φ.convertHull x.itv).hi = .pinf) then .dac else x.dec⟩ := by
  unfold Fmt.convertHullD
  rw [hx.isNai_false hn]
  simp only [Bool.false_eq_true, if_false, Itv.feq_ninf, Itv.feq_pinf]
  by_cases h : x.dec = .com ∧ ((φ.convertHull x.itv).lo = .ninf ∨ (φ.convertHull x.itv).hi = .pinf)
  · rw [if_pos h, if_pos (by simpa [Fmt.convertHull] using h)]; rfl
  · rw [if_neg h, if_neg (by simpa [Fmt.convertHull] using h)]; rfl

theorem convertHullD_nai (φ : Fmt) : φ.convertHullD DItv.nai = DItv.nai := by
  have h2 : DItv.nai.isNai = true := by decide
  simp [Fmt.convertHullD, h2]

theorem Dec.ite_ne_ill {p : Prop} [Decidable p] {d : Dec} (h : d ≠ .ill) : (if p then Dec.dac else d) ≠ .ill := by
  split_ifs
  · simp
  · exact h

theorem convertHullD_itv {x : DItv} (hx : x.Ok ψ) (hn : x.dec ≠ .ill) :
    (φ.convertHullD x).itv = φ.convertHull x.itv := by rw [convertHullD_eq hx hn]

theorem convertHullD_ne_ill {x : DItv} (hx : x.Ok ψ) (hn : x.dec ≠ .ill) : (φ.convertHullD x).dec ≠ .ill := by
  rw [convertHullD_eq hx hn]; exact Dec.ite_ne_ill hn

theorem convertHull_empty_iff {x : Itv} (hx : x.Ok ψ) : φ.convertHull x = Itv.empty ↔ x = Itv.empty := by
  have hT := convertHull_tight (φ := φ) hx
  constructor
  · intro h
    have := hT.2.1
    rw [h, Itv.set_empty, Set.subset_empty_iff] at this
    exact hx.set_eq_empty_iff.mp this
  · rintro rfl; simp

theorem convertHullD_ok {x : DItv} (hx : x.Ok ψ) : (φ.convertHullD x).Ok φ := by
  by_cases hn : x.dec = .ill
  · have : x = DItv.nai := by
      obtain ⟨xi, xd⟩ := x
      have h2 := (DItv.isNaI_iff hx).mpr hn
      obtain ⟨a, b⟩ := h2
      simp only at a b; subst a; subst b; rfl
    rw [this, convertHullD_nai]
    exact ⟨Itv.ok_empty φ, fun _ => .inl rfl, fun h => absurd rfl h, by simp [DItv.nai]⟩
  · rw [convertHullD_eq hx hn]
    have hT := convertHull_tight (φ := φ) hx.1
    refine ⟨hT.1, fun h => ?_, fun _ => Dec.ite_ne_ill hn, fun h => ?_⟩
    · have he := (convertHull_empty_iff hx.1).mp h
      have := (hx.2.1 he).resolve_left hn
      right; simp [this]
    · simp only at h ⊢
      split_ifs at h with h'
      rw [not_and] at h'
      have := h' h
      rwa [not_or] at this

/-- Converting a decorated interval to a wider format changes neither the set nor the decoration. -/
theorem convertHullD_wide (h : φ.Sub ψ) {x : DItv} (hx : x.Ok φ) (hn : x.dec ≠ .ill) :
    (ψ.convertHullD x).set = x.set ∧ (ψ.convertHullD x).dec = x.dec := by
  rw [convertHullD_eq hx hn]
  have he := convert_exact h hx.1
  refine ⟨he, ?_⟩
  have hT := convertHull_tight (φ := ψ) hx.1
  by_cases hc : x.dec = .com
  · have hne : x.itv ≠ Itv.empty := fun h' => by
      rcases hx.2.1 h' with h'' | h'' <;> rw [hc] at h'' <;> cases h''
    have hN := (hx.1.cases).resolve_left hne
    have hN' : (ψ.convertHull x.itv).NE ψ := hT.1.cases.resolve_left (fun h' => hne ((convertHull_empty_iff hx.1).mp h'))
    have hb := hx.com_bounded hc
    have hb' : Bornology.IsBounded (ψ.convertHull x.itv).set := by rw [he]; exact hb
    rw [hN'.bounded_iff] at hb'
    simp only
    rw [if_neg (fun h' => h'.2.elim hb'.1 hb'.2)]
  · simp only
    rw [if_neg (fun h' => hc h'.1)]

section
variable {α : Type*} [TopologicalSpace α] [Bornology α]

/-- Rounding the result once more keeps the decoration exactly right. -/
theorem right_convert {f : α → ℝ} {dom X : Set α} {dx : Dec} {r : DItv} (hr : r.Ok ψ)
    (h : DecRight f dom X dx r) : DecRight f dom X dx (φ.convertHullD r) := by
  have hT := convertHull_tight (φ := φ) hr.1
  have e := convertHullD_eq (φ := φ) hr h.not_ill
  have hset : (φ.convertHullD r).set = (φ.convertHull r.itv).set := by rw [e]
  have hsub : r.set ⊆ (φ.convertHullD r).set := by rw [hset]; exact hT.2.1
  refine ⟨convertHullD_ne_ill hr h.not_ill, ?_, ?_, ?_⟩
  · refine Dec.le_trans ?_ h.le
    rw [e]; simp only
    split_ifs with h'
    · rw [h'.1]; decide
    · exact Dec.le_refl _
  · have ht := h.true_claim
    have hd := congrArg DItv.dec e
    simp only at hd
    split_ifs at hd with h'
    · rw [hd]
      rw [h'.1] at ht
      exact ⟨ht.1, ht.2.1, fun t hx => (ht.2.2.1 t hx).mono ht.2.1⟩
    · rw [hd]
      cases hrd : r.dec with
      | com =>
        rw [hrd] at ht
        refine ⟨ht.1, ht.2.1, ht.2.2.1, ht.2.2.2.1, ?_⟩
        have hne : r.itv ≠ Itv.empty := fun h'' => by
          rcases hr.2.1 h'' with g | g <;> rw [hrd] at g <;> cases g
        have hN' : (φ.convertHull r.itv).NE φ :=
          hT.1.cases.resolve_left (fun h'' => hne ((convertHull_empty_iff hr.1).mp h''))
        rw [hset, hN'.bounded_iff]
        rw [not_and] at h'
        have := h' hrd
        rwa [not_or] at this
      | _ => rw [hrd] at ht; exact ht
  · intro d hd hm
    have hm' : DecMeans f dom X r.set d := by
      cases d with
      | com => exact ⟨hm.1, hm.2.1, hm.2.2.1, hm.2.2.2.1, hm.2.2.2.2.subset hsub⟩
      | _ => exact hm
    have hle := h.strongest d hd hm'
    have hd' := congrArg DItv.dec e
    simp only at hd'
    split_ifs at hd' with h'
    · rw [hd']
      rw [Dec.le_iff_ne_com]
      rintro rfl
      have hb := hm.2.2.2.2
      have hne : r.itv ≠ Itv.empty := fun h'' => by
        rcases hr.2.1 h'' with g | g <;> rw [h'.1] at g <;> cases g
      have hN' : (φ.convertHull r.itv).NE φ :=
        hT.1.cases.resolve_left (fun h'' => hne ((convertHull_empty_iff hr.1).mp h''))
      rw [hset, hN'.bounded_iff] at hb
      exact h'.2.elim hb.1 hb.2
    · rw [hd']; exact hle
end

end P1788
