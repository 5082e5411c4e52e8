import Verif.Lemmas.Unary

/-! # C05: min and max -/

namespace P1788

/-- `min(x,y)` is exact: its set is `{min a b | a ∈ x, b ∈ y}`. -/
theorem C05_min (φ : Fmt) {x y : Itv} (hx : x.Ok φ) (hy : y.Ok φ) :
    (Fmt.minI x y).Ok φ ∧ (Fmt.minI x y).set = {z | ∃ a ∈ x.set, ∃ b ∈ y.set, z = min a b} := by
  rcases hx.cases with rfl | hx
  · simp [Fmt.minI, Itv.ok_empty]
  rcases hy.cases with rfl | hy
  · simp [Fmt.minI, Itv.ok_empty]
  have e : Fmt.minI x y = ⟨FP.stdMin x.lo y.lo, FP.stdMin x.hi y.hi⟩ := by
    simp [Fmt.minI, hx.isValid, hy.isValid, hx.isEmpty, hy.isEmpty]
  rw [e]
  have t1 := FP.toE_stdMin hx.lo_ne hy.lo_ne
  have t2 := FP.toE_stdMin hx.hi_ne hy.hi_ne
  have hN : (Itv.mk (FP.stdMin x.lo y.lo) (FP.stdMin x.hi y.hi)).NE φ := by
    refine ⟨FP.stdMin_ne_nan hx.lo_ne hy.lo_ne, FP.stdMin_ne_nan hx.hi_ne hy.hi_ne, ?_, ?_, ?_, ?_, ?_⟩
    · simp only [t1, t2]; exact min_le_min hx.le hy.le
    · simp only [t1]; exact ne_top_of_le_ne_top hx.lo_top (min_le_left _ _)
    · simp only [t2]
      rcases min_choice x.hi.toE y.hi.toE with h | h <;> rw [h]
      · exact hx.hi_bot
      · exact hy.hi_bot
    · simp only [FP.stdMin]; split_ifs
      · exact hy.lo_in
      · exact hx.lo_in
    · simp only [FP.stdMin]; split_ifs
      · exact hy.hi_in
      · exact hx.hi_in
  refine ⟨hN.ok, ?_⟩
  ext z
  rw [hN.mem]
  simp only [t1, t2]
  constructor
  · rintro ⟨h1, h2⟩
    rw [le_min_iff] at h2
    obtain ⟨r, hr1, hr2⟩ := Itv.exists_real_between hx.le hx.lo_top hx.hi_bot
    obtain ⟨s, hs1, hs2⟩ := Itv.exists_real_between hy.le hy.lo_top hy.hi_bot
    rcases min_le_iff.mp h1 with h | h
    · refine ⟨z, hx.mem.mpr ⟨h, h2.1⟩, max z s, hy.mem.mpr ⟨?_, ?_⟩, by simp⟩
      · exact hs1.trans (by exact_mod_cast le_max_right z s)
      · rcases max_choice z s with g | g <;> rw [g]
        · exact h2.2
        · exact hs2
    · refine ⟨max z r, hx.mem.mpr ⟨?_, ?_⟩, z, hy.mem.mpr ⟨h, h2.2⟩, by simp⟩
      · exact hr1.trans (by exact_mod_cast le_max_right z r)
      · rcases max_choice z r with g | g <;> rw [g]
        · exact h2.1
        · exact hr2
  · rintro ⟨a, ha, b, hb, rfl⟩
    obtain ⟨a1, a2⟩ := hx.mem.mp ha
    obtain ⟨b1, b2⟩ := hy.mem.mp hb
    constructor
    · rcases min_choice a b with g | g <;> rw [g]
      · exact (min_le_left _ _).trans a1
      · exact (min_le_right _ _).trans b1
    · refine le_min (le_trans ?_ a2) (le_trans ?_ b2)
      · exact_mod_cast min_le_left a b
      · exact_mod_cast min_le_right a b

/-- `max(x,y)` is exact: its set is `{max a b | a ∈ x, b ∈ y}`. -/
theorem C05_max (φ : Fmt) {x y : Itv} (hx : x.Ok φ) (hy : y.Ok φ) :
    (Fmt.maxI x y).Ok φ ∧ (Fmt.maxI x y).set = {z | ∃ a ∈ x.set, ∃ b ∈ y.set, z = max a b} := by
  rcases hx.cases with rfl | hx
  · simp [Fmt.maxI, Itv.ok_empty]
  rcases hy.cases with rfl | hy
  · simp [Fmt.maxI, Itv.ok_empty]
  have e : Fmt.maxI x y = ⟨FP.stdMax x.lo y.lo, FP.stdMax x.hi y.hi⟩ := by
    simp [Fmt.maxI, hx.isValid, hy.isValid, hx.isEmpty, hy.isEmpty]
  rw [e]
  have t1 := FP.toE_stdMax hx.lo_ne hy.lo_ne
  have t2 := FP.toE_stdMax hx.hi_ne hy.hi_ne
  have hN : (Itv.mk (FP.stdMax x.lo y.lo) (FP.stdMax x.hi y.hi)).NE φ := by
    refine ⟨FP.stdMax_ne_nan hx.lo_ne hy.lo_ne, FP.stdMax_ne_nan hx.hi_ne hy.hi_ne, ?_, ?_, ?_, ?_, ?_⟩
    · simp only [t1, t2]; exact max_le_max hx.le hy.le
    · simp only [t1]
      rcases max_choice x.lo.toE y.lo.toE with h | h <;> rw [h]
      · exact hx.lo_top
      · exact hy.lo_top
    · simp only [t2]; exact ne_bot_of_le_ne_bot hx.hi_bot (le_max_left _ _)
    · simp only [FP.stdMax]; split_ifs
      · exact hy.lo_in
      · exact hx.lo_in
    · simp only [FP.stdMax]; split_ifs
      · exact hy.hi_in
      · exact hx.hi_in
  refine ⟨hN.ok, ?_⟩
  ext z
  rw [hN.mem]
  simp only [t1, t2]
  constructor
  · rintro ⟨h1, h2⟩
    rw [max_le_iff] at h1
    obtain ⟨r, hr1, hr2⟩ := Itv.exists_real_between hx.le hx.lo_top hx.hi_bot
    obtain ⟨s, hs1, hs2⟩ := Itv.exists_real_between hy.le hy.lo_top hy.hi_bot
    rcases le_max_iff.mp h2 with h | h
    · refine ⟨z, hx.mem.mpr ⟨h1.1, h⟩, min z s, hy.mem.mpr ⟨?_, ?_⟩, by simp⟩
      · rcases min_choice z s with g | g <;> rw [g]
        · exact h1.2
        · exact hs1
      · exact le_trans (by exact_mod_cast min_le_right z s) hs2
    · refine ⟨min z r, hx.mem.mpr ⟨?_, ?_⟩, z, hy.mem.mpr ⟨h1.2, h⟩, by simp⟩
      · rcases min_choice z r with g | g <;> rw [g]
        · exact h1.1
        · exact hr1
      · exact le_trans (by exact_mod_cast min_le_right z r) hr2
  · rintro ⟨a, ha, b, hb, rfl⟩
    obtain ⟨a1, a2⟩ := hx.mem.mp ha
    obtain ⟨b1, b2⟩ := hy.mem.mp hb
    constructor
    · refine max_le (a1.trans ?_) (b1.trans ?_)
      · exact_mod_cast le_max_left a b
      · exact_mod_cast le_max_right a b
    · rcases max_choice a b with g | g <;> rw [g]
      · exact a2.trans (le_max_left _ _)
      · exact b2.trans (le_max_right _ _)

example : (Itv.mk (.fin (-3)) (.fin 2)).Ok binary64 ∧ (Itv.mk (.fin 1) .pinf).Ok binary64 ∧
    Fmt.minI ⟨.fin (-3), .fin 2⟩ ⟨.fin 1, .pinf⟩ = ⟨.fin (-3), .fin 2⟩ ∧
    Fmt.maxI ⟨.fin (-3), .fin 2⟩ ⟨.fin 1, .pinf⟩ = ⟨.fin 1, .pinf⟩ :=
  ⟨Itv.ok_of_okb (by decide +kernel), Itv.ok_of_okb (by decide +kernel), by decide +kernel, by decide +kernel⟩

end P1788
