import Verif.Props.C11b

/-!
# C11, exactly: when the tangent is wrong
-/

namespace P1788
open Real
variable {φ : Fmt} {x : Itv}

theorem tan_drop {a b c : ℝ} (h1 : a < c) (h2 : c < b) (hc : cos c = 0) (hw : b - a ≤ π) : tan b ≤ tan a := by
  obtain ⟨n, -, k1, k2, t1, t2⟩ := pole_split h1 h2 hc
  rw [← t1, ← t2]
  rcases (show b - (n + 1) * π ≤ a - n * π by linarith).eq_or_lt with h | h
  · rw [h]
  · exact (tan_lt_tan_of_lt_of_lt_pi_div_two k2 k1 h).le

/-- In the bad case values of the tangent are lost. -/
theorem tanBad_loses (hx : x.Ok φ) (h : TanBad φ x) : ¬ tanRange x ⊆ (φ.tanI x).set := by
  obtain ⟨hp, a, b, ha, hb, hw, hr⟩ := h
  have hN : x.NE φ := by
    rcases hx.cases with rfl | hN
    · obtain ⟨t, ht, -⟩ := hp; simp at ht
    · exact hN
  obtain ⟨-, -, h3, n1, i1, e1, n2, i2, e2⟩ := tanI_fin hN ha hb
  rw [h3 hw hr]
  intro hs
  have hbox := range_pole hN hp
  obtain ⟨c, hc, hc0⟩ := hp
  have hm := hN.mem.mp hc
  rw [ha, hb] at hm
  have g1 : a < c := lt_of_le_of_ne (by exact_mod_cast hm.1) (fun h => cos_ne_of_toE ha (h ▸ hc0))
  have g2 : c < b := lt_of_le_of_ne (by exact_mod_cast hm.2) (fun h => cos_ne_of_toE hb (h ▸ hc0))
  have hwr : b - a ≤ π := by
    have := hw.trans (φ.rdE_le _)
    exact_mod_cast this
  have hd := tan_drop g1 g2 hc0 hwr
  have hl : φ.rdE (tan a) ≤ ⊥ := hbox.glb.2 (by
    rintro _ ⟨s, h, rfl⟩
    have := (Itv.mem_set.mp (hs h))
    rw [← e1]; exact this.1.2)
  have hu : ⊤ ≤ φ.ruE (tan b) := hbox.lub.2 (by
    rintro _ ⟨s, h, rfl⟩
    have := (Itv.mem_set.mp (hs h))
    rw [← e2]; exact this.2.2)
  have z : (FP.fin 0).In φ := φ.rep_zero
  rcases le_total 0 (tan a) with h | h
  · have := (φ.le_rdE_iff z (tan a : ℝ) (by simp)).mpr (by rw [FP.toE_fin]; push_cast; exact_mod_cast h)
    have := this.trans hl
    simp at this
  · have := (φ.ruE_le_iff z (tan b : ℝ) (by simp)).mpr (by rw [FP.toE_fin]; push_cast; exact_mod_cast hd.trans h)
    have := hu.trans this
    simp at this

/-- **Exactly when the tangent is right**: in a type of the kind of `float`, `double` and `long double` the result encloses the range
unless `x` is bad, and then it is the tightest interval that does. -/
theorem tan_exact {k : ℤ} (hk : PoleGap φ k) (hx : x.Ok φ) :
    (tanRange x ⊆ (φ.tanI x).set ↔ ¬ TanBad φ x) ∧ (¬ TanBad φ x → Tightest φ (φ.tanI x) (tanRange x)) := by
  have key : ¬ TanBad φ x → Tightest φ (φ.tanI x) (tanRange x) := by
    intro hb
    by_cases hp : x.HasPole
    · rcases hx.cases with rfl | hN
      · obtain ⟨t, ht, -⟩ := hp; simp at ht
      have he : φ.tanI x = Itv.entire := by
        by_cases hinf : x.lo = .ninf ∨ x.hi = .pinf
        · exact tanI_inf hN hinf
        obtain ⟨a, b, ha, hb'⟩ := fin_bounds hN hinf
        obtain ⟨h1, h2, -⟩ := tanI_fin hN ha hb'
        by_cases hw : φ.rdE (π:ℝ) < ((b - a : ℝ):EReal)
        · exact h1 hw
        · refine h2 (not_lt.mp hw) (not_le.mp fun h => hb ⟨hp, a, b, ha, hb', not_lt.mp hw, h⟩)
      rw [he]
      exact tight_entire (range_pole hN hp)
    · exact tan_tightest hk hx hb
  exact ⟨⟨fun h hb => tanBad_loses hx hb h, fun h => (key h).2.1⟩, key⟩

/-- **C11, exactly, for `double`**: all values of the tangent are enclosed if and only if `x` is not bad, and then the result is the
tightest interval. Bad intervals exist (`C11_tan_binary64_false`); they contain a pole and their width lies in the critical zone just
below `π`. -/
theorem C11_tan_exact_binary64 (hx : x.Ok binary64) :
    (tanRange x ⊆ (binary64.tanI x).set ↔ ¬ TanBad binary64 x) ∧
    (Tightest binary64 (binary64.tanI x) (tanRange x) ↔ ¬ TanBad binary64 x) ∧
    (TanBad binary64 x → x.HasPole ∧ CriticalWidth binary64 x) := by
  obtain ⟨h1, h2⟩ := tan_exact poleGap_binary64 hx
  exact ⟨h1, ⟨fun h => h1.mp h.2.1, h2⟩, fun h => ⟨h.1, h.critical hx⟩⟩

/-- Non-vacuity: both kinds of intervals exist. -/
example : (∃ x : Itv, x.Ok binary64 ∧ x.HasPole ∧ TanBad binary64 x) ∧ ∃ x : Itv, x.Ok binary64 ∧ x.HasPole ∧ ¬ TanBad binary64 x := by
  constructor
  · obtain ⟨x, hx, hp, h⟩ := C11_tan_binary64_false
    exact ⟨x, hx, hp, by_contra fun hb => h ((C11_tan_exact_binary64 hx).1.mpr hb)⟩
  · refine ⟨Itv.entire, Itv.ok_entire _, ⟨π / 2, by simp, cos_pi_div_two⟩, ?_⟩
    rintro ⟨-, a, b, h, -⟩
    simp [Itv.entire] at h

end P1788
