import Verif.Lemmas.Arith

/-! # C01: addition and subtraction return the tightest enclosure -/

namespace P1788

/-- `x + y` is the tightest interval around `{a + b | a ∈ x, b ∈ y}`, in every format, for all proper
intervals. -/
theorem C01_add (φ : Fmt) {x y : Itv} (hx : x.Ok φ) (hy : y.Ok φ) :
    Tightest φ (φ.addI x y) {z | ∃ a ∈ x.set, ∃ b ∈ y.set, z = a + b} := by
  rcases hx.cases with rfl | hx
  · exact tightest_empty' (by simp [Fmt.addI]) (by simp)
  rcases hy.cases with rfl | hy
  · exact tightest_empty' (by simp [Fmt.addI]) (by simp)
  have e : φ.addI x y = ⟨φ.add .D x.lo y.lo, φ.add .U x.hi y.hi⟩ := by
    simp [Fmt.addI, hx.isValid, hy.isValid, hx.isEmpty, hy.isEmpty]
  rw [e]
  obtain ⟨h1, h2⟩ := φ.add_spec .D hx.lo_ne hy.lo_ne (fun h => hy.lo_top h.2) (fun h => hx.lo_top h.1)
  obtain ⟨h3, h4⟩ := φ.add_spec .U hx.hi_ne hy.hi_ne (fun h => hx.hi_bot h.1) (fun h => hy.hi_bot h.2)
  exact tightest_of_box (hx.box.add hy.box) h1 h3 (φ.add_in _ _ _) (φ.add_in _ _ _) h2 h4

/-- `x - y` is the tightest interval around `{a - b | a ∈ x, b ∈ y}`. -/
theorem C01_sub (φ : Fmt) {x y : Itv} (hx : x.Ok φ) (hy : y.Ok φ) :
    Tightest φ (φ.subI x y) {z | ∃ a ∈ x.set, ∃ b ∈ y.set, z = a - b} := by
  rcases hx.cases with rfl | hx
  · exact tightest_empty' (by simp [Fmt.subI]) (by simp)
  rcases hy.cases with rfl | hy
  · exact tightest_empty' (by simp [Fmt.subI]) (by simp)
  have e : φ.subI x y = ⟨φ.sub .D x.lo y.hi, φ.sub .U x.hi y.lo⟩ := by
    simp [Fmt.subI, hx.isValid, hy.isValid, hx.isEmpty, hy.isEmpty]
  rw [e]
  obtain ⟨h1, h2⟩ := φ.sub_spec .D hx.lo_ne hy.hi_ne (fun h => hy.hi_bot h.2) (fun h => hx.lo_top h.1)
  obtain ⟨h3, h4⟩ := φ.sub_spec .U hx.hi_ne hy.lo_ne (fun h => hx.hi_bot h.1) (fun h => hy.lo_top h.2)
  have hB := (hx.box.add hy.box.neg).of_eq (T := {z | ∃ a ∈ x.set, ∃ b ∈ y.set, z = a - b}) (by
    ext z; constructor
    · rintro ⟨a, ha, _, ⟨b, hb, rfl⟩, rfl⟩; exact ⟨a, ha, b, hb, by simp [sub_eq_add_neg]⟩
    · rintro ⟨a, ha, b, hb, rfl⟩; exact ⟨a, ha, -b, ⟨b, hb, rfl⟩, by simp [sub_eq_add_neg]⟩)
  exact tightest_of_box hB h1 h3 (φ.sub_in _ _ _) (φ.sub_in _ _ _)
    (by rw [h2]; rfl) (by rw [h4]; rfl)

/-- An interval used in the non-vacuity examples: `[1, +∞]`. -/
example : (Itv.mk (.fin 1) .pinf).Ok binary64 ∧ (Itv.mk (.fin (-2)) (.fin 3)).Ok binary64 := by
  refine ⟨Or.inr ⟨rfl, by simp, by simp, ?_, trivial⟩, Or.inr ⟨rfl, by simp, by simp, ?_, ?_⟩⟩
  · exact ⟨1, 0, by norm_num, by decide, by decide, by decide⟩
  · exact ⟨-2, 0, by norm_num, by decide, by decide, by decide⟩
  · exact ⟨3, 0, by norm_num, by decide, by decide, by decide⟩

end P1788
