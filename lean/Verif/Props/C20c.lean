import Verif.Props.C11b

/-!
# C20, third part: the decoration of the tangent is exactly right

In `float` and x87 `long double` without restriction; in `double` outside the bad intervals of C11.
-/

namespace P1788
variable {φ : Fmt} {x : DItv}

theorem tan_right_of (hx : x.Ok φ) (hn : x.dec ≠ .ill) (hc : ¬ TanBad φ x.itv)
    (hw : x.itv.NE φ → ¬ x.itv.HasPole →
      ∃ a b : ℝ, x.itv.lo.toE = (a:EReal) ∧ x.itv.hi.toE = (b:EReal) ∧ ((b - a : ℝ):EReal) ≤ φ.rdE (Real.pi:ℝ)) :
    (φ.tanD x).itv = φ.tanI x.itv ∧ DecRight Real.tan {t | Real.cos t ≠ 0} x.set x.dec (φ.tanD x) := by
  obtain ⟨e1, e2⟩ := tanD_eq hx hn
  obtain ⟨-, c1, c2, c3⟩ := C20_tan_partial hx hn hc
  refine ⟨e1, c1, c2, c3, fun d hd hm => ?_⟩
  have low : ¬ (x.set.Nonempty ∧ x.set ⊆ {t | Real.cos t ≠ 0}) → d ≤ (φ.tanD x).dec := by
    intro h
    cases d with
    | ill => revert c1; cases (φ.tanD x).dec <;> decide
    | trv => revert c1; cases (φ.tanD x).dec <;> decide
    | defd => exact absurd hm h
    | dac => exact absurd ⟨hm.1, hm.2.1⟩ h
    | com => exact absurd ⟨hm.1, hm.2.1⟩ h
  rcases hx.1.cases with e | hN
  · refine low fun h => ?_
    have : x.set = ∅ := by show x.itv.set = ∅; rw [e, Itv.set_empty]
    rw [this] at h
    exact Set.not_nonempty_empty h.1
  by_cases hp : x.itv.HasPole
  · obtain ⟨t, ht, h0⟩ := hp
    exact low fun h => h.2 ht h0
  obtain ⟨a, b, ha, hb, hw⟩ := hw hN hp
  obtain ⟨b1, b2⟩ := tan_branch hN ha hb
  have hab : a ≤ b := by
    have := hN.le; rw [ha, hb] at this; exact_mod_cast this
  have hmono : Real.tan a ≤ Real.tan b := tan_mono_of_no_pole (a := a) (b := b)
    (fun t h1 h2 h0 => hp ⟨t, hN.mem.mpr ⟨by rw [ha]; exact_mod_cast h1, by rw [hb]; exact_mod_cast h2⟩, h0⟩) a b le_rfl hab le_rfl
  have q1 : (φ.constPi .D).ltb (φ.sub .U x.itv.hi x.itv.lo) = false := by
    rw [Bool.eq_false_iff]; exact fun h => absurd (b1.mp h) (not_lt.mpr hw)
  have q2 : (φ.tanF .U x.itv.hi).ltb (φ.tanF .D x.itv.lo) = false := by
    rw [Bool.eq_false_iff]
    refine fun h => absurd (b2.mp h) (not_lt.mpr ?_)
    exact (φ.rdE_le _).trans ((EReal.coe_le_coe_iff.mpr hmono).trans (φ.le_ruE _))
  rw [q1, q2, hN.isEmpty] at e2
  simp only [Bool.or_self, Bool.false_eq_true, if_false] at e2
  have hT := tight_no_pole hN ha hb hw hp
  have hS : tanRange x.itv = Real.tan '' (x.itv.set ∩ {t | Real.cos t ≠ 0}) := by
    ext z; constructor
    · rintro ⟨t, ht, h0, rfl⟩; exact ⟨t, ⟨ht, h0⟩, rfl⟩
    · rintro ⟨t, ⟨ht, h0⟩, rfl⟩; exact ⟨t, ht, h0, rfl⟩
  have hL := localOk_std (f := Real.tan) (dom := {t | Real.cos t ≠ 0}) (X := x.itv.set) (bad := false) (hT.of_eq hS)
    (fun _ => by
      simp only [Bool.false_eq_true, false_iff, not_not]
      exact fun t ht h0 => hp ⟨t, ht, h0⟩)
    (fun t ht => (Real.continuousAt_tan.mpr ht).continuousWithinAt)
  have hne : (φ.tanI x.itv).isEmpty = false := by
    rw [Bool.eq_false_iff, Ne, tight_empty_iff hT, ← Ne, ← Set.nonempty_iff_ne_empty, hS]
    obtain ⟨t, ht⟩ := hN.nonempty
    exact ⟨_, t, ⟨ht, fun h0 => hp ⟨t, ht, h0⟩⟩, rfl⟩
  rw [hne] at hL
  simp only [Bool.or_self, Bool.false_eq_true, if_false] at hL
  have hR := hL.right hn hx.com_bounded
  have hE : φ.tanD x = ⟨φ.tanI x.itv, x.dec.min (φ.tanI x.itv).comDac⟩ := by
    rw [← e2, ← e1]
  rw [hE] at hm ⊢
  exact hR.strongest d hd hm

theorem tan_right {k : ℤ} (hk : PoleGap φ k) (hx : x.Ok φ) (hn : x.dec ≠ .ill) (hc : ¬ TanBad φ x.itv) :
    (φ.tanD x).itv = φ.tanI x.itv ∧ DecRight Real.tan {t | Real.cos t ≠ 0} x.set x.dec (φ.tanD x) :=
  tan_right_of hx hn hc fun hN hp => width_of_no_pole hk hN hp

/-- `tan` for `float`: the decoration is exactly right, without restriction. -/
theorem C20_tan_right_binary32 (hx : x.Ok binary32) (hn : x.dec ≠ .ill) :
    (binary32.tanD x).itv = binary32.tanI x.itv ∧ DecRight Real.tan {t | Real.cos t ≠ 0} x.set x.dec (binary32.tanD x) :=
  tan_right poleGap_binary32 hx hn (noCritical_binary32 _ hx.1)

/-- `tan` for x87 `long double`: the decoration is exactly right, without restriction. -/
theorem C20_tan_right_x87ext (hx : x.Ok x87ext) (hn : x.dec ≠ .ill) :
    (x87ext.tanD x).itv = x87ext.tanI x.itv ∧ DecRight Real.tan {t | Real.cos t ≠ 0} x.set x.dec (x87ext.tanD x) :=
  tan_right poleGap_x87ext hx hn (noCritical_x87ext _ hx.1)

/-- `tan` for `double` (full statement: without `hc`; false, see `C20_tan_binary64_false`). -/
theorem C20_tan_right_binary64_partial (hx : x.Ok binary64) (hn : x.dec ≠ .ill)
    (hc : ¬ TanBad binary64 x.itv) :
    (binary64.tanD x).itv = binary64.tanI x.itv ∧ DecRight Real.tan {t | Real.cos t ≠ 0} x.set x.dec (binary64.tanD x) :=
  tan_right poleGap_binary64 hx hn hc

/-- Non-vacuity: an interval without pole decorated `com`. -/
example : (DItv.mk ⟨.fin 2, .fin 4⟩ .com).Ok binary32 ∧ (DItv.mk ⟨.fin 2, .fin 4⟩ .com).dec ≠ .ill :=
  ⟨⟨Itv.ok_of_okb (by decide +kernel), by simp, by simp, by simp⟩, by simp⟩

end P1788
