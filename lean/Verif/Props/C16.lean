import Verif.Lemmas.Ex

/-!
# C16 Construction from numbers
-/

namespace P1788

/-- `interval<T>(l, u)` with valid bounds is the set of all reals between them, it is a proper interval of the format,
and nothing is signalled. -/
theorem C16_valid (φ : Fmt) {l u : FP} (hl : l.In φ) (hu : u.In φ) (h : ValidBounds l u) :
    ∃ x : Itv, Returns (numsToInterval l u) x ∧ x.Ok φ ∧ x.set = {r | l.BelowR r ∧ u.AboveR r} := by
  refine ⟨⟨l, u⟩, ?_, (h.NE hl hu).ok, rfl⟩
  unfold numsToInterval
  rw [if_pos (boundsOk_iff.mpr h)]
  exact Returns.pure _

/-- With any other pair of numbers (a NaN, `l > u`, `l = +inf`, `u = -inf`) the undefined-operation condition is
signalled and the value is the empty interval. -/
theorem C16_invalid {l u : FP} (h : ¬ ValidBounds l u) :
    ∃ x : Itv, Raises (numsToInterval l u) .undefinedOperation x ∧ x = ⟨.nan, .nan⟩ := by
  refine ⟨Itv.empty, ?_, rfl⟩
  unfold numsToInterval
  rw [if_neg (fun h' => h (boundsOk_iff.mp h'))]
  exact raises_signal_then _ _

/-- `interval<T>(l, u)` with bounds of any other number types: the tightest interval of the result type that contains
all reals between the bounds. -/
theorem C16_mixed_valid (φ : Fmt) {l u : FP} (h : ValidBounds l u) :
    ∃ x : Itv, Returns (φ.numsToIntervalMixed l u) x ∧ Tightest φ x {r | l.BelowR r ∧ u.AboveR r} := by
  refine ⟨_, ?_, h.hull φ⟩
  unfold Fmt.numsToIntervalMixed
  rw [if_pos (boundsOk_iff.mpr h)]
  exact Returns.pure _

/-- The same for bounds that do not denote an interval. -/
theorem C16_mixed_invalid (φ : Fmt) {l u : FP} (h : ¬ ValidBounds l u) :
    ∃ x : Itv, Raises (φ.numsToIntervalMixed l u) .undefinedOperation x ∧ x = ⟨.nan, .nan⟩ := by
  refine ⟨Itv.empty, ?_, rfl⟩
  unfold Fmt.numsToIntervalMixed
  rw [if_neg (fun h' => h (boundsOk_iff.mp h'))]
  exact raises_signal_then _ _

/-- Which pairs are valid, in terms of the values. -/
theorem C16_bounds {l u : FP} :
    ValidBounds l u ↔ l ≤ u ∧ l ≠ .pinf ∧ u ≠ .ninf := by
  rw [validBounds_iff, FP.le_iff']; tauto

/-- A NaN bound never produces a non-empty interval: in every state the call throws or returns the empty interval. -/
theorem C16_nan {l u : FP} (h : l = .nan ∨ u = .nan) (s : ExSt) (x : Itv) :
    (numsToInterval l u s).1 = .ret x → x = ⟨.nan, .nan⟩ := by
  have hv : ¬ ValidBounds l u := by rw [validBounds_iff]; tauto
  obtain ⟨y, hy, he⟩ := C16_invalid hv
  obtain ⟨-, -, -, h4, h5⟩ := hy s
  intro hx
  cases hc : s.cwd .undefinedOperation with
  | true => rw [h4 hc] at hx; cases hx
  | false => rw [h5 hc] at hx; cases hx; exact he

/-- The same for bounds of other types. -/
theorem C16_mixed_nan (φ : Fmt) {l u : FP} (h : l = .nan ∨ u = .nan) (s : ExSt) (x : Itv) :
    (φ.numsToIntervalMixed l u s).1 = .ret x → x = ⟨.nan, .nan⟩ := by
  have hv : ¬ ValidBounds l u := by rw [validBounds_iff]; tauto
  obtain ⟨y, hy, he⟩ := C16_mixed_invalid φ hv
  obtain ⟨-, -, -, h4, h5⟩ := hy s
  intro hx
  cases hc : s.cwd .undefinedOperation with
  | true => rw [h4 hc] at hx; cases hx
  | false => rw [h5 hc] at hx; cases hx; exact he

-- Both cases occur: [1, +inf] is accepted, [+inf, +inf] and [2, 1] are not.
example : ValidBounds (.fin 1) .pinf := ⟨2, by norm_num [FP.BelowR], by simp [FP.AboveR]⟩
example : ¬ ValidBounds .pinf .pinf := by rintro ⟨r, h, -⟩; simp [FP.BelowR] at h
example : ¬ ValidBounds (.fin 2) (.fin 1) := by
  rintro ⟨r, h, h'⟩; norm_num [FP.BelowR, FP.AboveR] at h h'; linarith

end P1788
