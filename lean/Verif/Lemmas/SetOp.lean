import Verif.Props.C22

/-! Helper lemmas: intersection and convex hull. -/

namespace P1788
variable {φ : Fmt} {x y : Itv}

theorem FP.stdMax_in {a b : FP} (ha : a.In φ) (hb : b.In φ) : (a.stdMax b).In φ := by
  unfold FP.stdMax; split_ifs <;> assumption
theorem FP.stdMin_in {a b : FP} (ha : a.In φ) (hb : b.In φ) : (a.stdMin b).In φ := by
  unfold FP.stdMin; split_ifs <;> assumption

theorem Itv.inter_ok_set (hx : x.Ok φ) (hy : y.Ok φ) :
    (x.inter y).Ok φ ∧ (x.inter y).set = x.set ∩ y.set := by
  unfold Itv.inter
  simp only [hx.isValid, hy.isValid, Bool.not_true, Bool.or_self, Bool.false_eq_true, if_false]
  have hd := C22_disjoint hx hy
  split_ifs with h
  · exact ⟨Itv.ok_empty φ, by rw [Itv.set_empty, hd.mp h]⟩
  · rw [hd, ← ne_eq, ← Set.nonempty_iff_ne_empty] at h
    rcases hx.cases with rfl | hx
    · simp at h
    rcases hy.cases with rfl | hy
    · simp at h
    obtain ⟨r, hr1, hr2⟩ := h
    have r1 := hx.mem.mp hr1
    have r2 := hy.mem.mp hr2
    have e1 := FP.toE_stdMax hx.lo_ne hy.lo_ne
    have e2 := FP.toE_stdMin hx.hi_ne hy.hi_ne
    have hle1 : max x.lo.toE y.lo.toE ≤ r := max_le r1.1 r2.1
    have hle2 : (r:EReal) ≤ min x.hi.toE y.hi.toE := le_min r1.2 r2.2
    have hN : (Itv.mk (x.lo.stdMax y.lo) (x.hi.stdMin y.hi)).NE φ :=
      ⟨FP.stdMax_ne_nan hx.lo_ne hy.lo_ne, FP.stdMin_ne_nan hx.hi_ne hy.hi_ne,
       by simp only [e1, e2]; exact hle1.trans hle2,
       by simp only [e1]; exact ne_top_of_le_ne_top (EReal.coe_ne_top r) hle1,
       by simp only [e2]; exact ne_bot_of_le_ne_bot (EReal.coe_ne_bot r) hle2,
       FP.stdMax_in hx.lo_in hy.lo_in, FP.stdMin_in hx.hi_in hy.hi_in⟩
    refine ⟨hN.ok, ?_⟩
    ext s
    rw [hN.mem, Set.mem_inter_iff, hx.mem, hy.mem]
    simp only [e1, e2, max_le_iff, le_min_iff]
    tauto

theorem Itv.hull_NE (hx : x.NE φ) (hy : y.NE φ) :
    (Itv.mk (x.lo.stdMin y.lo) (x.hi.stdMax y.hi)).NE φ ∧
    (x.lo.stdMin y.lo).toE = min x.lo.toE y.lo.toE ∧ (x.hi.stdMax y.hi).toE = max x.hi.toE y.hi.toE := by
  have e1 := FP.toE_stdMin hx.lo_ne hy.lo_ne
  have e2 := FP.toE_stdMax hx.hi_ne hy.hi_ne
  refine ⟨⟨FP.stdMin_ne_nan hx.lo_ne hy.lo_ne, FP.stdMax_ne_nan hx.hi_ne hy.hi_ne, ?_, ?_, ?_,
    FP.stdMin_in hx.lo_in hy.lo_in, FP.stdMax_in hx.hi_in hy.hi_in⟩, e1, e2⟩
  · simp only [e1, e2]; exact (min_le_left _ _).trans (hx.le.trans (le_max_left _ _))
  · simp only [e1]; exact ne_top_of_le_ne_top hx.lo_top (min_le_left _ _)
  · simp only [e2]; exact ne_bot_of_le_ne_bot hx.hi_bot (le_max_left _ _)

theorem Itv.hull_eq (hx : x.NE φ) (hy : y.NE φ) : x.hull y = ⟨x.lo.stdMin y.lo, x.hi.stdMax y.hi⟩ := by
  simp [Itv.hull, hx.isValid, hy.isValid, hx.isEmpty, hy.isEmpty]

theorem Itv.hull_tight (hx : x.Ok φ) (hy : y.Ok φ) : Tightest φ (x.hull y) (x.set ∪ y.set) := by
  rcases hx.cases with rfl | hx
  · have : Itv.empty.hull y = y := by simp [Itv.hull, hy.isValid]
    rw [this]; exact (Tightest.of_ok hy).of_eq (by simp)
  rcases hy.cases with rfl | hy
  · have : x.hull Itv.empty = x := by simp [Itv.hull, hx.isValid, hx.isEmpty]
    rw [this]; exact (Tightest.of_ok hx.ok).of_eq (by simp)
  rw [Itv.hull_eq hx hy]
  obtain ⟨hN, e1, e2⟩ := Itv.hull_NE hx hy
  refine ⟨hN.ok, ?_, fun Y hY hS => ?_⟩
  · rw [Set.union_subset_iff, hx.subset_iff hN, hy.subset_iff hN]
    simp only [e1, e2]
    exact ⟨⟨min_le_left _ _, le_max_left _ _⟩, min_le_right _ _, le_max_right _ _⟩
  · rw [Set.union_subset_iff] at hS
    rcases hY.cases with rfl | hY
    · have := hS.1 hx.nonempty.choose_spec; simp at this
    · rw [hx.subset_iff hY, hy.subset_iff hY] at hS
      rw [hN.subset_iff hY]
      simp only [e1, e2]
      exact ⟨le_min hS.1.1 hS.2.1, max_le hS.1.2 hS.2.2⟩

theorem Tightest.set_unique {R R' : Itv} {S : Set ℝ} (h : Tightest φ R S) (h' : Tightest φ R' S) : R.set = R'.set :=
  Set.Subset.antisymm (h.2.2 R' h'.1 h'.2.1) (h'.2.2 R h.1 h.2.1)

end P1788
