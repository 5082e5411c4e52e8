import Verif.Props.C28

/-! # C28, continued: mixed-type midpoints of unbounded intervals -/

namespace P1788
variable {T T1 : NumTy}

/-- The mixed-type midpoint of an unbounded interval is zero or the largest finite number of the *result* type. -/
theorem C28_mid_mixed_unbounded {l u : FP} (hl : (Itv.mk l .pinf).Ok T1.fmt) (hl' : l ≠ .ninf)
    (hu : (Itv.mk .ninf u).Ok T1.fmt) (hu' : u ≠ .pinf) :
    Itv.entire.midMixed T = .fin 0 ∧ (Itv.mk l .pinf).midMixed T = .fin T.fmt.maxFin ∧
    (Itv.mk .ninf u).midMixed T = .fin (-T.fmt.maxFin) ∧ Itv.empty.midMixed T = .nan ∧
    Itv.empty.midRadMixed T T1 = (.nan, .nan) := by
  refine ⟨rfl, ?_, ?_, rfl, rfl⟩
  · rcases hl.cases with h | h
    · exact absurd h (by simp [Itv.empty])
    unfold Itv.midMixed Itv.isEntire
    rw [h.isValid, h.isEmpty, Itv.feq_ninf, Itv.feq_pinf]; simp [hl']
  · rcases hu.cases with h | h
    · exact absurd h (by simp [Itv.empty])
    unfold Itv.midMixed Itv.isEntire
    rw [h.isValid, h.isEmpty, Itv.feq_ninf, Itv.feq_pinf]; simp [hu']

/-- When every number of the interval's type is a number of the result type, the mixed-type midpoint of a non-empty interval is
a finite member of it. -/
theorem C28_mid_mixed_member {x : Itv} (hT : T1.fmt.Sub T.fmt) (hx : x.Ok T1.fmt) (hne : x.set.Nonempty) :
    ∃ q : ℚ, x.midMixed T = .fin q ∧ T.fmt.Rep q ∧ (q:ℝ) ∈ x.set := by
  exact C28_member (hT.ok hx) hne

example : NumTy.float.fmt.Sub NumTy.double.fmt ∧ (Itv.mk (.fin 1) (.fin 3)).Ok NumTy.float.fmt ∧
    (Itv.mk (.fin 1) (.fin 3)).midMixed .double = .fin 2 :=
  ⟨sub_32_64, Itv.ok_of_okb (by decide +kernel), by decide +kernel⟩

/-- A narrower result type can push the midpoint out of the interval: for `[2^200, +∞]` the `float` midpoint is the
largest `float`, which is below `2^200`. -/
theorem C28_mid_mixed_not_member : ∃ x : Itv, x.Ok NumTy.double.fmt ∧
    ∃ q : ℚ, x.midMixed .float = .fin q ∧ (q:ℝ) ∉ x.set := by
  refine ⟨⟨.fin (2 ^ 200), .pinf⟩, Itv.ok_of_okb (by decide +kernel), NumTy.float.fmt.maxFin, by decide +kernel, ?_⟩
  rintro ⟨h, -⟩
  have h' : ((2 ^ 200 : ℚ):ℝ) ≤ (NumTy.float.fmt.maxFin : ℝ) := h
  have : (2 ^ 200 : ℚ) ≤ NumTy.float.fmt.maxFin := by exact_mod_cast h'
  exact absurd this (by decide +kernel)

end P1788
