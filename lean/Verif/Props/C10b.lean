import Verif.Props.C10
import Verif.Lemmas.RevTrig5

/-! # C10, continued: the results stay inside `[-1, 1]` -/

namespace P1788
variable {φ : Fmt} {x : Itv}

/-- Sine and cosine of an interval never leave `[-1, 1]`, however the bounds were rounded. -/
theorem C10_range (hx : x.Ok φ) : (φ.sinI x).set ⊆ Set.Icc (-1) 1 ∧ (φ.cosI x).set ⊆ Set.Icc (-1) 1 := by
  rw [← set_unit]
  refine ⟨(C10_sin hx).2.2 _ (ok_unit φ).ok ?_, (C10_cos hx).2.2 _ (ok_unit φ).ok ?_⟩
  · rintro _ ⟨t, -, rfl⟩
    rw [set_unit]
    exact ⟨Real.neg_one_le_sin t, Real.sin_le_one t⟩
  · rintro _ ⟨t, -, rfl⟩
    rw [set_unit]
    exact ⟨Real.neg_one_le_cos t, Real.cos_le_one t⟩

example : (Itv.mk (.fin 0) (.fin (2 ^ 1000))).Ok binary64 := Itv.ok_of_okb (by decide +kernel)

end P1788
