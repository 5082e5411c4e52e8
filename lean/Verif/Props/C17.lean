import Verif.Lemmas.Ex

/-!
# C17 Decorated construction
-/

namespace P1788
open Bornology
variable {φ ψ : Fmt}

/-- The decoration an interval gets when it is decorated: `trv` if empty, `com` if non-empty and bounded, `dac` if
unbounded. -/
def Fresh (x : DItv) : Prop :=
  (x.set = ∅ → x.dec = .trv) ∧ (x.set.Nonempty → IsBounded x.set → x.dec = .com) ∧
  (¬ IsBounded x.set → x.dec = .dac)

theorem newDec_itv (x : Itv) : x.newDec.itv = x := by unfold Itv.newDec; split_ifs <;> rfl

theorem newDec_fresh {x : Itv} (h : x.Ok φ) : Fresh x.newDec := by
  rcases h.cases with rfl | hN
  · have : (Itv.empty.newDec) = ⟨Itv.empty, .trv⟩ := by decide
    rw [this]
    exact ⟨fun _ => rfl, fun h => by simp [DItv.set] at h, fun h => by simp [DItv.set] at h⟩
  · have hne := hN.nonempty
    have hb := hN.bounded_iff
    unfold Itv.newDec
    rw [hN.isEmpty]
    simp only [Bool.false_eq_true, if_false, Itv.feq_ninf, Itv.feq_pinf]
    by_cases hc : x.lo = .ninf ∨ x.hi = .pinf
    · rw [if_pos (by simpa using hc)]
      refine ⟨fun h => ?_, fun _ h => ?_, fun _ => rfl⟩
      · exact absurd h hne.ne_empty
      · exact absurd (hb.mp h) (by tauto)
    · rw [if_neg (by simpa using hc)]
      refine ⟨fun h => ?_, fun _ h => rfl, fun h => ?_⟩
      · exact absurd h hne.ne_empty
      · exact absurd (hb.mpr (by tauto)) h

theorem fresh_ok {x : DItv} (h : x.itv.Ok φ) (hf : Fresh x) : x.Ok φ := by
  rcases h.cases with he | hN
  · have hd := hf.1 (by rw [DItv.set, he, Itv.set_empty])
    refine ⟨h, fun _ => .inr hd, fun h' => absurd he h', fun hc => ?_⟩
    rw [hd] at hc; cases hc
  · have hne := hN.nonempty
    by_cases hb : IsBounded x.itv.set
    · have hd := hf.2.1 hne hb
      exact ⟨h, fun h' => absurd h' hN.ne_empty, fun _ => by rw [hd]; simp, fun _ => hN.bounded_iff.mp hb⟩
    · have hd := hf.2.2 hb
      exact ⟨h, fun h' => absurd h' hN.ne_empty, fun _ => by rw [hd]; simp, fun hc => by rw [hd] at hc; cases hc⟩

/-- Decorating a bare interval: same value set, freshly decorated, nothing signalled. -/
theorem C17_new_dec {x : Itv} (h : x.Ok φ) :
    ∃ y : DItv, Returns (newDecM x) y ∧ y.Ok φ ∧ y.itv = x ∧ Fresh y :=
  ⟨_, newDecM_ret h.proper, fresh_ok ((newDec_itv x).symm ▸ h) (newDec_fresh h), newDec_itv x, newDec_fresh h⟩

/-- Decorating a bare interval of another number type: the tightest interval of the result type, freshly decorated. -/
theorem C17_new_dec_mixed (φ : Fmt) {x : Itv} (h : x.Ok ψ) :
    ∃ y : DItv, Returns (φ.newDecMixed x) y ∧ y.Ok φ ∧ Tightest φ y.itv x.set ∧ Fresh y := by
  have hT := convertHull_tight (φ := φ) h
  refine ⟨(φ.convertHull x).newDec, ?_, fresh_ok ((newDec_itv _).symm ▸ hT.1) (newDec_fresh hT.1),
    (newDec_itv _).symm ▸ hT, newDec_fresh hT.1⟩
  unfold Fmt.newDecMixed
  exact (Itv.isValidM_ret h.proper).bind (Returns.pure _)

/-- `decorated_interval<T>(l, u)` with valid bounds. -/
theorem C17_nums {l u : FP} (hl : l.In φ) (hu : u.In φ) (h : ValidBounds l u) :
    ∃ y : DItv, Returns (numsToDecorated l u) y ∧ y.Ok φ ∧ y.set = {r | l.BelowR r ∧ u.AboveR r} ∧ Fresh y := by
  have hok := (h.NE hl hu).ok
  obtain ⟨y, h1, h2, h3, h4⟩ := C17_new_dec hok
  refine ⟨y, ?_, h2, by rw [DItv.set, h3]; rfl, h4⟩
  unfold numsToDecorated
  rw [if_pos (boundsOk_iff.mpr h)]
  exact h1

/-- `decorated_interval<T>(l, u)` with bounds that do not denote an interval: the undefined-operation condition is
signalled and the value is NaI. -/
theorem C17_nums_invalid {l u : FP} (h : ¬ ValidBounds l u) :
    ∃ y : DItv, Raises (numsToDecorated l u) .undefinedOperation y ∧ y.IsNaI := by
  refine ⟨DItv.nai, ?_, rfl, rfl⟩
  unfold numsToDecorated
  rw [if_neg (fun h' => h (boundsOk_iff.mp h'))]
  exact raises_signal_then _ _

/-- `decorated_interval<T>(l, u)` with bounds of other types. -/
theorem C17_nums_mixed (φ : Fmt) {l u : FP} (h : ValidBounds l u) :
    ∃ y : DItv, Returns (φ.numsToDecoratedMixed l u) y ∧ y.Ok φ ∧
      Tightest φ y.itv {r | l.BelowR r ∧ u.AboveR r} ∧ Fresh y := by
  have hT := h.hull φ
  obtain ⟨y, h1, h2, h3, h4⟩ := C17_new_dec hT.1
  refine ⟨y, ?_, h2, by rw [h3]; exact hT, h4⟩
  unfold Fmt.numsToDecoratedMixed
  rw [if_pos (boundsOk_iff.mpr h)]
  exact h1

/-- The same with bounds that do not denote an interval. -/
theorem C17_nums_mixed_invalid (φ : Fmt) {l u : FP} (h : ¬ ValidBounds l u) :
    ∃ y : DItv, Raises (φ.numsToDecoratedMixed l u) .undefinedOperation y ∧ y.IsNaI := by
  refine ⟨DItv.nai, ?_, rfl, rfl⟩
  unfold Fmt.numsToDecoratedMixed
  rw [if_neg (fun h' => h (boundsOk_iff.mp h'))]
  exact raises_signal_then _ _

/-- The decoration `d` may be given to the interval with bounds `l`, `u`: the bounds are valid, `d` is not `ill`, and
`d` is `com` only if the bounds are finite. -/
def Consistent (l u : FP) (d : Dec) : Prop :=
  ValidBounds l u ∧ d ≠ .ill ∧ (d = .com → l ≠ .ninf ∧ u ≠ .pinf)

theorem boundsDecOk_iff {l u : FP} {d : Dec} : boundsDecOk l u d = true ↔ Consistent l u d := by
  have : boundsDecOk l u d = (d != .ill && (boundsOk l u && (d != .com || (!(l.feq .ninf) && !(u.feq .pinf))))) := by
    unfold boundsDecOk boundsOk; rfl
  rw [this, Consistent, ← boundsOk_iff]
  simp only [Bool.and_eq_true, Bool.or_eq_true, bne_iff_ne, Bool.not_eq_true', Itv.feq_ninf, Itv.feq_pinf,
    decide_eq_false_iff_not]
  tauto

/-- `decorated_interval<T>(l, u, d)` with a consistent combination: exactly this interval with exactly this
decoration. -/
theorem C17_nums_dec {l u : FP} (hl : l.In φ) (hu : u.In φ) {raw : UInt8} {d : Dec} (hd : Dec.ofRaw raw = some d)
    (h : Consistent l u d) :
    ∃ y : DItv, Returns (numsDecToDecorated l u raw) y ∧ y.Ok φ ∧ y.set = {r | l.BelowR r ∧ u.AboveR r} ∧
      y.dec = d := by
  have hN := h.1.NE hl hu
  refine ⟨⟨⟨l, u⟩, d⟩, ?_, ⟨hN.ok, fun h' => absurd h' hN.ne_empty, fun _ => h.2.1, h.2.2⟩, rfl, rfl⟩
  unfold numsDecToDecorated
  refine (decIsValidM_ret hd).bind ?_
  rw [if_pos rfl]
  simp only [hd]
  rw [if_pos (boundsDecOk_iff.mpr h)]
  exact Returns.pure _

/-- With an inconsistent combination the undefined-operation condition is signalled and the value is NaI. -/
theorem C17_nums_dec_inconsistent {l u : FP} {raw : UInt8} {d : Dec} (hd : Dec.ofRaw raw = some d)
    (h : ¬ Consistent l u d) :
    ∃ y : DItv, Raises (numsDecToDecorated l u raw) .undefinedOperation y ∧ y.IsNaI := by
  refine ⟨DItv.nai, ?_, rfl, rfl⟩
  unfold numsDecToDecorated
  refine (decIsValidM_ret hd).bind_raises ?_
  rw [if_pos rfl]
  simp only [hd]
  rw [if_neg (fun h' => h (boundsDecOk_iff.mp h'))]
  exact raises_signal_then _ _

/-- With a decoration value that is not an enumerator the invalid-operand condition is signalled and the value is
NaI. -/
theorem C17_nums_dec_bad {l u : FP} {raw : UInt8} (hd : Dec.ofRaw raw = none) :
    ∃ y : DItv, Raises (numsDecToDecorated l u raw) .invalidOperand y ∧ y.IsNaI := by
  refine ⟨DItv.nai, ?_, rfl, rfl⟩
  unfold numsDecToDecorated
  refine (decIsValidM_raise hd).bind ?_
  exact Returns.pure _

/-- `decorated_interval<T>(l, u, d)` with bounds of other types: the tightest interval of the result type; the
decoration is `d`, except that `com` becomes `dac` if a bound overflows. -/
theorem C17_nums_dec_mixed (φ : Fmt) {l u : FP} {raw : UInt8} {d : Dec} (hd : Dec.ofRaw raw = some d)
    (h : Consistent l u d) :
    ∃ y : DItv, Returns (φ.numsDecToDecoratedMixed l u raw) y ∧ y.Ok φ ∧
      Tightest φ y.itv {r | l.BelowR r ∧ u.AboveR r} ∧
      y.dec = (if d = .com ∧ (y.itv.lo = .ninf ∨ y.itv.hi = .pinf) then .dac else d) := by
  have hT := h.1.hull φ
  have hN := hT.ne h.1
  have hlo : (⟨φ.convertRndd l, φ.convertRndu u⟩ : Itv).lo ≠ .pinf := fun h' => hN.lo_top (by rw [h']; rfl)
  have hhi : (⟨φ.convertRndd l, φ.convertRndu u⟩ : Itv).hi ≠ .ninf := fun h' => hN.hi_bot (by rw [h']; rfl)
  refine ⟨⟨⟨φ.convertRndd l, φ.convertRndu u⟩,
    if d = .com ∧ (φ.convertRndd l = .ninf ∨ φ.convertRndu u = .pinf) then .dac else d⟩, ?_, ?_, hT, rfl⟩
  · unfold Fmt.numsDecToDecoratedMixed
    refine (decIsValidM_ret hd).bind ?_
    rw [if_pos rfl]
    simp only [hd]
    rw [if_pos (boundsDecOk_iff.mpr h)]
    have hi : ((φ.convertRndd l).isInf || (φ.convertRndu u).isInf) = true ↔
        φ.convertRndd l = .ninf ∨ φ.convertRndu u = .pinf := by
      simp only at hlo hhi
      revert hlo hhi
      cases φ.convertRndd l <;> cases φ.convertRndu u <;> simp [FP.isInf]
    have key : d.min (if (φ.convertRndd l).isInf || (φ.convertRndu u).isInf then .dac else .com) =
        if d = .com ∧ (φ.convertRndd l = .ninf ∨ φ.convertRndu u = .pinf) then .dac else d := by
      by_cases hc : φ.convertRndd l = .ninf ∨ φ.convertRndu u = .pinf
      · rw [if_pos (hi.mpr hc)]
        by_cases hd' : d = .com
        · rw [if_pos ⟨hd', hc⟩, hd']; rfl
        · rw [if_neg (by tauto)]
          revert hd'; cases d <;> decide
      · rw [if_neg (fun h' => hc (hi.mp h')), if_neg (by tauto)]
        cases d <;> rfl
    rw [key]
    exact Returns.pure _
  · refine ⟨hT.1, fun h' => absurd h' hN.ne_empty, fun _ => ?_, fun hc => ?_⟩
    · simp only
      split_ifs
      · simp
      · exact h.2.1
    · simp only at hc ⊢
      split_ifs at hc with h'
      tauto

/-- Inconsistent combination, bounds of other types. -/
theorem C17_nums_dec_mixed_inconsistent (φ : Fmt) {l u : FP} {raw : UInt8} {d : Dec} (hd : Dec.ofRaw raw = some d)
    (h : ¬ Consistent l u d) :
    ∃ y : DItv, Raises (φ.numsDecToDecoratedMixed l u raw) .undefinedOperation y ∧ y.IsNaI := by
  refine ⟨DItv.nai, ?_, rfl, rfl⟩
  unfold Fmt.numsDecToDecoratedMixed
  refine (decIsValidM_ret hd).bind_raises ?_
  rw [if_pos rfl]
  simp only [hd]
  rw [if_neg (fun h' => h (boundsDecOk_iff.mp h'))]
  exact raises_signal_then _ _

/-- Not an enumerator, bounds of other types. -/
theorem C17_nums_dec_mixed_bad (φ : Fmt) {l u : FP} {raw : UInt8} (hd : Dec.ofRaw raw = none) :
    ∃ y : DItv, Raises (φ.numsDecToDecoratedMixed l u raw) .invalidOperand y ∧ y.IsNaI := by
  refine ⟨DItv.nai, ?_, rfl, rfl⟩
  unfold Fmt.numsDecToDecoratedMixed
  refine (decIsValidM_raise hd).bind ?_
  exact Returns.pure _

/-- `decorated_interval(x, d)` for a bare interval `x`: NaI if `d` is `ill`; otherwise the same interval, with the
largest decoration that is at most `d` and consistent with it: `trv` if `x` is empty, `dac` for `com` on an unbounded
`x`, and `d` itself in all other cases.  So the decoration is never raised. -/
theorem C17_set_dec {x : Itv} (hx : x.Ok φ) {raw : UInt8} {d : Dec} (hd : Dec.ofRaw raw = some d) :
    ∃ y : DItv, Returns (setDec x raw) y ∧ y.Ok φ ∧ y.dec ≤ d ∧ (d = .ill → y.IsNaI) ∧
      (d ≠ .ill → y.itv = x ∧ (x.set = ∅ → y.dec = .trv) ∧
        (x.set.Nonempty → (d = .com ∧ ¬ IsBounded x.set → y.dec = .dac) ∧
          (¬(d = .com ∧ ¬ IsBounded x.set) → y.dec = d))) := by
  have step : ∀ {y}, Returns (match Dec.ofRaw raw with
      | some .ill => return DItv.nai
      | some d =>
        if x.isEmpty then return DItv.empty else
        if d = .com && (x.lo.feq .ninf || x.hi.feq .pinf) then return ⟨x, .dac⟩ else
        return ⟨x, d⟩
      | none => return DItv.nai : M DItv) y → Returns (setDec x raw) y := by
    intro y h
    unfold setDec
    refine (decIsValidM_ret hd).bind ?_
    simp only [Bool.not_true, Bool.false_eq_true, if_false]
    refine (Itv.isValidM_ret hx.proper).bind ?_
    simp only [Bool.not_true, Bool.false_eq_true, if_false]
    exact h
  rw [hd] at step
  by_cases hill : d = .ill
  · subst hill
    exact ⟨DItv.nai, step (Returns.pure _), ⟨Itv.ok_empty φ, fun _ => .inl rfl, fun h => absurd rfl h, by simp [DItv.nai]⟩,
      by decide, fun _ => ⟨rfl, rfl⟩, fun h => absurd rfl h⟩
  have step' : ∀ {y}, Returns (if x.isEmpty then return DItv.empty else
        if d = .com && (x.lo.feq .ninf || x.hi.feq .pinf) then return ⟨x, .dac⟩ else
        return ⟨x, d⟩ : M DItv) y → Returns (setDec x raw) y := by
    intro y h
    apply step
    cases d with
    | ill => exact absurd rfl hill
    | _ => exact h
  rcases hx.cases with rfl | hN
  · refine ⟨DItv.empty, step' ?_, ⟨Itv.ok_empty φ, fun _ => .inr rfl, fun h => absurd rfl h, by simp [DItv.empty]⟩,
      ?_, fun h => absurd h hill, fun _ => ⟨rfl, fun _ => rfl, fun h => by simp at h⟩⟩
    · rw [if_pos Itv.isEmpty_empty]; exact Returns.pure _
    · revert hill; cases d <;> decide
  · have hne := hN.nonempty
    by_cases hc : d = .com ∧ ¬ IsBounded x.set
    · have hc' : x.lo = .ninf ∨ x.hi = .pinf := by
        have := hc.2; rw [hN.bounded_iff] at this; tauto
      refine ⟨⟨x, .dac⟩, step' ?_, ⟨hx, fun h => absurd h hN.ne_empty, fun _ => by simp, fun h => by cases h⟩,
        ?_, fun h => absurd h hill, fun _ => ⟨rfl, fun h => absurd h hne.ne_empty, fun _ => ⟨fun _ => rfl, fun h => absurd hc h⟩⟩⟩
      · rw [hN.isEmpty, if_neg (by simp), if_pos (by simpa [Itv.feq_ninf, Itv.feq_pinf, hc.1] using hc')]
        exact Returns.pure _
      · rw [hc.1]; change Dec.dac ≤ Dec.com; decide
    · have hc' : ¬ (d = .com ∧ (x.lo = .ninf ∨ x.hi = .pinf)) := by
        rw [hN.bounded_iff] at hc; tauto
      refine ⟨⟨x, d⟩, step' ?_, ⟨hx, fun h => absurd h hN.ne_empty, fun _ => hill, fun h => ?_⟩,
        Dec.le_refl d, fun h => absurd h hill, fun _ => ⟨rfl, fun h => absurd h hne.ne_empty, fun _ => ⟨fun h => absurd h hc, fun _ => rfl⟩⟩⟩
      · rw [hN.isEmpty, if_neg (by simp), if_neg (by simpa [Itv.feq_ninf, Itv.feq_pinf] using hc')]
        exact Returns.pure _
      · simp only at h ⊢
        tauto

/-- With a decoration value that is not an enumerator the invalid-operand condition is signalled and the value is
NaI. -/
theorem C17_set_dec_bad {x : Itv} {raw : UInt8} (hd : Dec.ofRaw raw = none) :
    ∃ y : DItv, Raises (setDec x raw) .invalidOperand y ∧ y.IsNaI := by
  refine ⟨DItv.nai, ?_, rfl, rfl⟩
  unfold setDec
  refine (decIsValidM_raise hd).bind ?_
  exact Returns.pure _

/-- The same in the mixed-type overload. -/
theorem C17_set_dec_mixed_bad (φ : Fmt) {x : Itv} {raw : UInt8} (hd : Dec.ofRaw raw = none) :
    ∃ y : DItv, Raises (φ.setDecMixed x raw) .invalidOperand y ∧ y.IsNaI := by
  obtain ⟨y, h1, h2⟩ := C17_set_dec_bad (x := x) hd
  refine ⟨DItv.nai, ?_, rfl, rfl⟩
  unfold Fmt.setDecMixed
  refine h1.bind ?_
  rw [show y = DItv.nai by obtain ⟨a, b⟩ := y; obtain ⟨rfl, rfl⟩ := h2; rfl, convertHullD_nai]
  exact Returns.pure _

/-- `decorated_interval<T>(x, d)` for a bare interval `x` of another type: the tightest interval of the result type,
and a decoration that is never raised. -/
theorem C17_set_dec_mixed (φ : Fmt) {x : Itv} (hx : x.Ok ψ) {raw : UInt8} {d : Dec} (hd : Dec.ofRaw raw = some d) :
    ∃ y : DItv, Returns (φ.setDecMixed x raw) y ∧ y.Ok φ ∧ y.dec ≤ d ∧ (d = .ill → y.IsNaI) ∧
      (d ≠ .ill → Tightest φ y.itv x.set ∧ (x.set = ∅ → y.dec = .trv) ∧
        (x.set.Nonempty → (d = .com ∧ ¬ IsBounded y.set → y.dec = .dac) ∧
          (¬(d = .com ∧ ¬ IsBounded y.set) → y.dec = d))) := by
  obtain ⟨y, h1, h2, h3, h4, h5⟩ := C17_set_dec hx hd
  refine ⟨φ.convertHullD y, ?_, ?_⟩
  · unfold Fmt.setDecMixed
    exact h1.bind (Returns.pure _)
  · by_cases hill : d = .ill
    · have hy : y = DItv.nai := by
        have := h4 hill
        obtain ⟨yi, yd⟩ := y
        obtain ⟨a, b⟩ := this
        simp only at a b; subst a; subst b; rfl
      rw [hy, convertHullD_nai, hill]
      exact ⟨⟨Itv.ok_empty φ, fun _ => .inl rfl, fun h => absurd rfl h, by simp [DItv.nai]⟩, by decide,
        fun _ => ⟨rfl, rfl⟩, fun h => absurd rfl h⟩
    · obtain ⟨h6, h7, h8⟩ := h5 hill
      have hyn : y.dec ≠ .ill := by
        rcases hx.cases with rfl | hN
        · rw [h7 Itv.set_empty]; simp
        · intro h
          by_cases hc : d = .com ∧ ¬ IsBounded x.set
          · rw [(h8 hN.nonempty).1 hc] at h; cases h
          · rw [(h8 hN.nonempty).2 hc] at h; exact hill h
      rw [convertHullD_eq h2 hyn]
      have hT : Tightest φ (φ.convertHull y.itv) x.set := by rw [h6]; exact convertHull_tight hx
      set R := φ.convertHull y.itv with hR
      refine ⟨⟨hT.1, fun h => ?_, fun h => ?_, fun h => ?_⟩, ?_, fun h => absurd h hill, fun _ => ⟨hT, fun h => ?_, fun h => ?_⟩⟩
      · right
        rcases hx.cases with rfl | hN
        · have := h7 Itv.set_empty
          simp [this]
        · exact absurd h (hT.ne hN.nonempty).ne_empty
      · simp only; split_ifs
        · simp
        · exact hyn
      · simp only at h ⊢
        split_ifs at h with h'
        tauto
      · simp only; split_ifs with h'
        · rw [h'.1] at h3
          exact Dec.le_trans (by decide) h3
        · exact h3
      · have := h7 h
        simp [this]
      · have hN := hT.ne h
        have hb := hN.bounded_iff
        simp only [DItv.set]
        rw [hb]
        refine ⟨fun hc => ?_, fun hc => ?_⟩
        · split_ifs with h'
          · rfl
          · by_cases hx' : IsBounded x.set
            · have hyd := (h8 h).2 (fun h'' => h''.2 hx')
              rw [hyd] at h'
              refine absurd ⟨hc.1, ?_⟩ h'
              by_contra h''
              rw [not_or] at h''
              exact hc.2 h''
            · exact (h8 h).1 ⟨hc.1, hx'⟩
        · by_cases hcom : d = .com
          · have hc2 : R.lo ≠ .ninf ∧ R.hi ≠ .pinf := by
              by_contra h''
              exact hc ⟨hcom, h''⟩
            have hxb : IsBounded x.set := (hb.mpr hc2).subset hT.2.1
            rw [if_neg (fun h'' => h''.2.elim hc2.1 hc2.2)]
            exact (h8 h).2 (fun h'' => h''.2 hxb)
          · have hyd := (h8 h).2 (fun h'' => hcom h''.1)
            rw [if_neg (by rw [hyd]; exact fun h'' => hcom h''.1)]
            exact hyd

-- `com` on a half-line becomes `dac`; an enum value 5 is rejected; 16 is `com`.
example : Dec.ofRaw 16 = some .com ∧ Dec.ofRaw 5 = none := by decide
example : (Itv.mk (.fin 1) .pinf).Ok binary64 := Itv.ok_of_okb (by decide +kernel)
example : Consistent (.fin 1) .pinf .dac :=
  ⟨⟨2, by norm_num [FP.BelowR], by simp [FP.AboveR]⟩, by simp, by simp⟩
example : ¬ Consistent (.fin 1) .pinf .com := by
  rintro ⟨-, -, h⟩
  exact (h rfl).2 rfl

end P1788
