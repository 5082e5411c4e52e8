import Verif.Lemmas.Nearest
import Verif.Lemmas.Ex
import Verif.Lemmas.Ops

/-!
# C34 Conversion between number types
-/

namespace P1788
open Bornology
variable {φ ψ : Fmt}

/-- Converting a bare interval of format `ψ` to format `φ` gives the tightest interval of `φ` that contains it, and
signals nothing. -/
theorem C34_convert (φ : Fmt) {x : Itv} (hx : x.Ok ψ) :
    ∃ y : Itv, Returns (φ.convertType x) y ∧ Tightest φ y x.set := by
  refine ⟨φ.convertHull x, ?_, convertHull_tight hx⟩
  unfold Fmt.convertType
  exact (Itv.isValidM_ret hx.proper).bind (Returns.pure _)

/-- Converting a decorated interval that is not NaI: the tightest interval; the decoration is lowered from `com` to
`dac` if the conversion made the interval unbounded, and is kept in every other case. -/
theorem C34_convert_dec (φ : Fmt) {x : DItv} (hx : x.Ok ψ) (hn : ¬ x.IsNaI) :
    ∃ y : DItv, Returns (φ.convertTypeD x) y ∧ y.Ok φ ∧ Tightest φ y.itv x.set ∧
      (x.dec = .com ∧ ¬ IsBounded y.set → y.dec = .dac) ∧ (¬ (x.dec = .com ∧ ¬ IsBounded y.set) → y.dec = x.dec) := by
  rw [DItv.isNaI_iff hx] at hn
  have hT := convertHull_tight (φ := φ) hx.1
  refine ⟨φ.convertHullD x, ?_, convertHullD_ok hx, by rw [convertHullD_itv hx hn]; exact hT, ?_⟩
  · unfold Fmt.convertTypeD
    exact (DItv.isValidM_ret hx.isValid).bind (Returns.pure _)
  · have hs : (φ.convertHullD x).set = (φ.convertHull x.itv).set := by rw [convertHullD_eq hx hn]
    rw [hs]
    by_cases hc : x.dec = .com
    · have hne : x.itv ≠ Itv.empty := fun h'' => by
        rcases hx.2.1 h'' with g | g <;> rw [hc] at g <;> cases g
      have hN' : (φ.convertHull x.itv).NE φ :=
        hT.1.cases.resolve_left (fun h'' => hne ((convertHull_empty_iff hx.1).mp h''))
      rw [hN'.bounded_iff, convertHullD_eq hx hn]
      simp only
      constructor
      · intro h
        have := h.2
        rw [not_and_or, not_not, not_not] at this
        exact if_pos ⟨hc, this⟩
      · intro h
        refine if_neg ?_
        rintro ⟨-, h'⟩
        refine h ⟨hc, ?_⟩
        rw [not_and_or, not_not, not_not]; exact h'
    · rw [convertHullD_eq hx hn]
      exact ⟨fun h => absurd h.1 hc, fun _ => if_neg (fun h => hc h.1)⟩

/-- NaI converts to NaI. -/
theorem C34_convert_nai (φ : Fmt) {x : DItv} (hx : x.Ok ψ) (hn : x.IsNaI) :
    ∃ y : DItv, Returns (φ.convertTypeD x) y ∧ y.IsNaI := by
  refine ⟨DItv.nai, ?_, rfl, rfl⟩
  unfold Fmt.convertTypeD
  refine (DItv.isValidM_ret hx.isValid).bind ?_
  have := DItv.eq_nai hn
  rw [this, convertHullD_nai]
  exact Returns.pure _

/-- The three supported types are ordered by inclusion of their number sets. -/
theorem C34_order : binary32.Sub binary64 ∧ binary64.Sub x87ext := ⟨sub_32_64, sub_64_x87⟩

/-- Converting to a wider type is exact, and converting back gives the same set. -/
theorem C34_round_trip (h : φ.Sub ψ) {x : Itv} (hx : x.Ok φ) :
    (ψ.convertHull x).set = x.set ∧ (φ.convertHull (ψ.convertHull x)).set = x.set := by
  have h1 := convert_exact h hx
  refine ⟨h1, ?_⟩
  have hok := (convertHull_tight (φ := ψ) hx).1
  have hT := convertHull_tight (φ := φ) hok
  rw [h1] at hT
  exact hT.set_unique ⟨hx, le_rfl, fun _ _ h => h⟩

/-- The same for decorated intervals: also the decoration is unchanged. -/
theorem C34_round_trip_dec (h : φ.Sub ψ) {x : DItv} (hx : x.Ok φ) :
    (φ.convertHullD (ψ.convertHullD x)).set = x.set ∧ (φ.convertHullD (ψ.convertHullD x)).dec = x.dec := by
  rcases DItv.nai_or hx with rfl | hn
  · rw [convertHullD_nai, convertHullD_nai]; exact ⟨rfl, rfl⟩
  · obtain ⟨h1, h2⟩ := convertHullD_wide h hx hn
    have hok := convertHullD_ok (φ := ψ) hx
    have hn' : (ψ.convertHullD x).dec ≠ .ill := by rw [h2]; exact hn
    have hr := C34_round_trip h hx.1
    have e1 := convertHullD_itv (φ := ψ) hx hn
    have e2 := convertHullD_itv (φ := φ) hok hn'
    have hset : (φ.convertHullD (ψ.convertHullD x)).set = x.set := by
      rw [DItv.set, e2, e1]; exact hr.2
    refine ⟨hset, ?_⟩
    obtain ⟨y, hy, -, -, h3, h4⟩ := C34_convert_dec φ hok (by rw [DItv.isNaI_iff hok]; exact hn')
    have hy' : y = φ.convertHullD (ψ.convertHullD x) := by
      have : Returns (φ.convertTypeD (ψ.convertHullD x)) (φ.convertHullD (ψ.convertHullD x)) := by
        unfold Fmt.convertTypeD
        exact (DItv.isValidM_ret hok.isValid).bind (Returns.pure _)
      have a := hy ⟨Bits.none, Bits.none⟩
      have b := this ⟨Bits.none, Bits.none⟩
      rw [a] at b
      injection b with b _
      injection b
    subst hy'
    rw [h4 ?_, h2]
    rintro ⟨hc, hb⟩
    rw [h2] at hc
    rw [hset] at hb
    exact hb (hx.com_bounded hc)

/-- Taking the interval part of a decorated interval that is not NaI. -/
theorem C34_interval_part {x : DItv} (hx : x.Ok φ) (hn : ¬ x.IsNaI) :
    ∃ y : Itv, Returns (intervalPart x) y ∧ y.Ok φ ∧ y.set = x.set := by
  rw [DItv.isNaI_iff hx] at hn
  refine ⟨x.itv, ?_, hx.1, rfl⟩
  unfold intervalPart
  refine (DItv.isValidM_ret hx.isValid).bind ?_
  simp only [Bool.not_true, Bool.false_eq_true, if_false, hx.isNai_false hn]
  exact Returns.pure _

/-- Taking the interval part as an interval of another type. -/
theorem C34_interval_part_mixed (φ : Fmt) {x : DItv} (hx : x.Ok ψ) (hn : ¬ x.IsNaI) :
    ∃ y : Itv, Returns (φ.intervalPartMixed x) y ∧ Tightest φ y x.set := by
  rw [DItv.isNaI_iff hx] at hn
  refine ⟨φ.convertHull x.itv, ?_, convertHull_tight hx.1⟩
  unfold Fmt.intervalPartMixed
  refine (DItv.isValidM_ret hx.isValid).bind ?_
  simp only [Bool.not_true, Bool.false_eq_true, if_false, hx.isNai_false hn]
  exact Returns.pure _

/-- The interval part of NaI is the empty interval, and the interval-part-of-NaI condition is signalled. -/
theorem C34_interval_part_nai (φ : Fmt) {x : DItv} (hn : x.IsNaI) :
    (∃ y : Itv, Raises (intervalPart x) .intervalPartOfNai y ∧ y = ⟨.nan, .nan⟩) ∧
    (∃ y : Itv, Raises (φ.intervalPartMixed x) .intervalPartOfNai y ∧ y = ⟨.nan, .nan⟩) := by
  have := DItv.eq_nai hn
  subst this
  have hv : DItv.nai.isValid = true := by decide
  have hnai : DItv.nai.isNai = true := by decide
  refine ⟨⟨Itv.empty, ?_, rfl⟩, ⟨Itv.empty, ?_, rfl⟩⟩
  · unfold intervalPart
    refine (DItv.isValidM_ret hv).bind_raises ?_
    simp only [Bool.not_true, Bool.false_eq_true, if_false, hnai, if_true]
    exact raises_signal_then _ _
  · unfold Fmt.intervalPartMixed
    refine (DItv.isValidM_ret hv).bind_raises ?_
    simp only [Bool.not_true, Bool.false_eq_true, if_false, hnai, if_true]
    exact raises_signal_then _ _

/-- Copying keeps the interval. -/
theorem C34_copy {x : Itv} (hx : x.Ok φ) {y : DItv} (hy : y.Ok φ) : Returns (copyM x) x ∧ Returns (copyDM y) y := by
  constructor
  · unfold copyM
    exact (Itv.isValidM_ret hx.proper).bind (Returns.pure _)
  · unfold copyDM
    exact (DItv.isValidM_ret hy.isValid).bind (Returns.pure _)

/-- Converting a number within the range to nearest: a number of the format, no other one is closer, and a zero result
is `+0`. -/
theorem C34_number_nearest (φ : Fmt) {q : ℚ} (hq : |(q:ℝ)| ≤ (φ.maxFin : ℝ)) :
    ∃ r : ℚ, φ.convertRndn (.fin q) = .fin r ∧ φ.Rep r ∧ ∀ f : ℚ, φ.Rep f → |(r:ℝ) - q| ≤ |(f:ℝ) - q| := by
  have hm := φ.roundQ_le_maxFin (m := .N) hq
  refine ⟨φ.roundQ .N (q:ℝ), ?_, φ.rep_roundQ hm, fun f hf => φ.roundQ_N_nearest q hf⟩
  unfold Fmt.convertRndn Fmt.conv
  by_cases h0 : q = 0
  · subst h0
    rw [φ.roundQ_rep (by exact_mod_cast φ.rep_zero)]
    simp [FP.isZero]
  · have hm := abs_le.mp hm
    have hr : φ.round .N (q:ℝ) =
        if φ.roundQ .N (q:ℝ) = 0 then FP.mkZero (decide ((q:ℝ) < 0)) else .fin (φ.roundQ .N (q:ℝ)) := by
      unfold Fmt.round
      simp only
      rw [if_neg (not_lt.mpr hm.2), if_neg (not_lt.mpr hm.1)]
    simp only [h0, if_false, ← φ.round_cast, hr]
    by_cases hz : φ.roundQ .N (q:ℝ) = 0
    · rw [hz]; cases decide ((q:ℝ) < 0) <;> simp [FP.mkZero, FP.isZero]
    · simp [hz, FP.isZero]

-- `[0.1, 2^200]` (decorated `com`) as `float` is unbounded: the decoration becomes `dac`.
example : (DItv.mk ⟨.fin (3602879701896397 / 2 ^ 55), .fin (2 ^ 200)⟩ .com).Ok binary64 ∧
    (binary32.convertHullD ⟨⟨.fin (3602879701896397 / 2 ^ 55), .fin (2 ^ 200)⟩, .com⟩).dec = .dac :=
  ⟨⟨Itv.ok_of_okb (by decide +kernel), by simp, by simp, by simp⟩, by decide +kernel⟩

end P1788
