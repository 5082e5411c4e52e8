import Verif.Lemmas.Num
import Verif.Props.C33

/-!
# C27 Infimum, supremum, width, magnitude, mignitude
-/

namespace P1788

variable {φ : Fmt} {x : Itv} {T T1 : NumTy}

theorem infsup_aux (hx : x.Ok φ) : IsInf x.inf x.set ∧ IsSup x.sup x.set ∧ x.inf.In φ ∧ x.sup.In φ := by
  rcases hx.cases with rfl | h
  · refine ⟨⟨by decide, ?_⟩, ⟨by decide, ?_⟩, trivial, trivial⟩
    · rw [Itv.set_empty]; simp [show Itv.empty.inf = .pinf from rfl]
    · rw [Itv.set_empty]; simp [show Itv.empty.sup = .ninf from rfl]
  · have hi : x.inf ≠ .nan ∧ x.inf.toE = x.lo.toE ∧ x.inf.In φ := by
      unfold Itv.inf
      rw [h.isValid, h.isEmpty]
      simp only [Bool.not_true, Bool.false_eq_true, if_false]
      split_ifs with h0
      · exact ⟨by decide, by rw [(Fmt.isZero_iff h.lo_ne).mp h0]; rfl, trivial⟩
      · exact ⟨h.lo_ne, rfl, h.lo_in⟩
    have hs : x.sup ≠ .nan ∧ x.sup.toE = x.hi.toE ∧ x.sup.In φ := by
      unfold Itv.sup
      rw [h.isValid, h.isEmpty]
      simp only [Bool.not_true, Bool.false_eq_true, if_false]
      split_ifs with h0
      · exact ⟨by decide, by rw [(Fmt.isZero_iff h.hi_ne).mp h0]; simp, φ.rep_zero⟩
      · exact ⟨h.hi_ne, rfl, h.hi_in⟩
    exact ⟨⟨hi.1, by rw [hi.2.1]; exact h.glb⟩, ⟨hs.1, by rw [hs.2.1]; exact h.lub⟩, hi.2.2, hs.2.2⟩

/-- `inf` and `sup` are the exact infimum and supremum (for the empty interval `+∞` and `-∞`); a zero infimum is
`-0`, a zero supremum is `+0`. -/
theorem C27_inf_sup (hx : x.Ok φ) :
    IsInf x.inf x.set ∧ IsSup x.sup x.set ∧ x.inf ≠ .fin 0 ∧ x.sup ≠ .nzero := by
  obtain ⟨h1, h2, -, -⟩ := infsup_aux hx
  refine ⟨h1, h2, ?_, ?_⟩
  · unfold Itv.inf; split_ifs with a b c <;> try decide
    intro h; rw [h] at c; exact c rfl
  · unfold Itv.sup; split_ifs with a b c <;> try decide
    intro h; rw [h] at c; exact c rfl

example : (Itv.mk (.fin 0) (.nzero)).inf = .nzero ∧ (Itv.mk (.fin 0) (.nzero)).sup = .fin 0 := by decide +kernel

/-- `wid` of a non-empty interval is the least format number not below the distance of any two members. -/
theorem C27_wid (hx : x.Ok φ) (hne : x.set.Nonempty) :
    LeastUpper φ (x.wid φ) {d | ∃ r ∈ x.set, ∃ s ∈ x.set, d = r - s} ∧ x.wid φ ≠ .nzero := by
  rcases hx.cases with rfl | h
  · simp [Itv.set_empty] at hne
  unfold Itv.wid
  rw [h.isValid, h.isEmpty]
  simp only [Bool.not_true, Bool.or_false, Bool.false_eq_true, if_false]
  obtain ⟨e1, e2, e3⟩ := posZero_spec (φ.sub .U x.hi x.lo)
  have hsub := φ.sub_spec .U h.hi_ne h.lo_ne (fun hh => h.hi_bot hh.1) (fun hh => h.lo_top hh.2)
  refine ⟨leastUpper_of (lub_sub h) (posZero_in (φ.sub_in _ _ _)) (fun hh => hsub.1 (e1.mp hh)) ?_, e3⟩
  rw [e2, hsub.2, Fmt.rndE_U]

theorem mag_aux (h : x.NE φ) : IsSup x.mag ((fun r => |r|) '' x.set) ∧ x.mag.In φ := by
  unfold Itv.mag
  rw [h.isValid, h.isEmpty]
  simp only [Bool.not_true, Bool.or_false, Bool.false_eq_true, if_false]
  have hl : x.lo.abs ≠ .nan := fun hh => h.lo_ne (FP.abs_eq_nan.mp hh)
  have hu : x.hi.abs ≠ .nan := fun hh => h.hi_ne (FP.abs_eq_nan.mp hh)
  have hlub := abs_image_lub h
  rw [← FP.toE_abs, ← FP.toE_abs] at hlub
  split_ifs with hc
  · rw [FP.lt_iff hu hl] at hc
    rw [max_eq_left hc.le] at hlub
    exact ⟨⟨hl, hlub⟩, FP.abs_in h.lo_in⟩
  · rw [FP.lt_iff hu hl, not_lt] at hc
    rw [max_eq_right hc] at hlub
    exact ⟨⟨hu, hlub⟩, FP.abs_in h.hi_in⟩

theorem mig_aux (h : x.NE φ) : IsInf x.mig ((fun r => |r|) '' x.set) ∧ x.mig.In φ := by
  unfold Itv.mig
  rw [h.isValid, h.isEmpty]
  simp only [Bool.not_true, Bool.or_false, Bool.false_eq_true, if_false]
  have hl : x.lo.abs ≠ .nan := fun hh => h.lo_ne (FP.abs_eq_nan.mp hh)
  have hu : x.hi.abs ≠ .nan := fun hh => h.hi_ne (FP.abs_eq_nan.mp hh)
  have hglb := abs_image_glb h
  rw [← FP.toE_abs, ← FP.toE_abs] at hglb
  have e0 : (x.lo < .fin 0 ∧ .fin 0 < x.hi) ↔ (x.lo.toE < 0 ∧ 0 < x.hi.toE) := by
    rw [FP.lt_iff h.lo_ne (by simp), FP.lt_iff (by simp) h.hi_ne]; simp
  by_cases h0 : x.lo.toE < 0 ∧ 0 < x.hi.toE
  · rw [if_pos (e0.mpr h0)]
    rw [if_pos h0] at hglb
    exact ⟨⟨by decide, by simpa using hglb⟩, φ.rep_zero⟩
  · rw [if_neg (fun hh => h0 (e0.mp hh))]
    rw [if_neg h0] at hglb
    split_ifs with hc
    · rw [FP.lt_iff hl hu] at hc
      rw [min_eq_left hc.le] at hglb
      exact ⟨⟨hl, hglb⟩, FP.abs_in h.lo_in⟩
    · rw [FP.lt_iff hl hu, not_lt] at hc
      rw [min_eq_right hc] at hglb
      exact ⟨⟨hu, hglb⟩, FP.abs_in h.hi_in⟩

theorem abs_ne_nzero (a : FP) : a.abs ≠ .nzero := by cases a <;> simp [FP.abs]

/-- `mag` and `mig` of a non-empty interval are the exact supremum and infimum of the absolute values of its
members; a zero result is `+0`. -/
theorem C27_mag_mig (hx : x.Ok φ) (hne : x.set.Nonempty) :
    IsSup x.mag ((fun r => |r|) '' x.set) ∧ IsInf x.mig ((fun r => |r|) '' x.set) ∧
    x.mag ≠ .nzero ∧ x.mig ≠ .nzero := by
  rcases hx.cases with rfl | h
  · simp [Itv.set_empty] at hne
  refine ⟨(mag_aux h).1, (mig_aux h).1, ?_, ?_⟩
  · unfold Itv.mag; split_ifs <;> first | exact abs_ne_nzero _ | decide
  · unfold Itv.mig; split_ifs <;> first | exact abs_ne_nzero _ | decide

/-- Both values are attained in a closed set: `mig` always, `mag` when the interval is bounded. -/
theorem C27_attained (hx : x.Ok φ) (hne : x.set.Nonempty) :
    (∃ r ∈ x.set, x.mig.toE = ((|r| : ℝ) : EReal)) ∧
    (Bornology.IsBounded x.set → ∃ r ∈ x.set, x.mag.toE = ((|r| : ℝ) : EReal)) := by
  rcases hx.cases with rfl | h
  · simp [Itv.set_empty] at hne
  have hlo : ∀ r : ℝ, x.lo.toE = r → r ∈ x.set := fun r hr => h.lo_mem hr
  have hhi : ∀ r : ℝ, x.hi.toE = r → r ∈ x.set := fun r hr => h.hi_mem hr
  have absE : ∀ {a : FP} {r : ℝ}, a.toE = r → a.abs.toE = ((|r| : ℝ) : EReal) := by
    intro a r hr
    rw [FP.toE_abs, hr, ← EReal.coe_neg, abs_eq_max_neg]
    exact (EReal.coe_strictMono.monotone.map_max).symm
  constructor
  · have hl : x.lo.abs ≠ .nan := fun hh => h.lo_ne (FP.abs_eq_nan.mp hh)
    have hu : x.hi.abs ≠ .nan := fun hh => h.hi_ne (FP.abs_eq_nan.mp hh)
    unfold Itv.mig
    rw [h.isValid, h.isEmpty]
    simp only [Bool.not_true, Bool.or_false, Bool.false_eq_true, if_false]
    split_ifs with h0 hc
    · rw [FP.lt_iff h.lo_ne (by simp), FP.lt_iff (by simp) h.hi_ne] at h0
      exact ⟨0, h.mem.mpr ⟨by simpa using h0.1.le, by simpa using h0.2.le⟩, by simp⟩
    · rcases toE_cases h.lo_ne with e | e | ⟨e, -⟩
      · rw [e] at hc; rw [FP.lt_iff (by decide) hu] at hc; simp [FP.abs] at hc
      · exact absurd (by rw [e]; rfl) h.lo_top
      · exact ⟨_, hlo _ e, absE e⟩
    · rcases toE_cases h.hi_ne with e | e | ⟨e, -⟩
      · exact absurd (by rw [e]; rfl) h.hi_bot
      · rcases toE_cases h.lo_ne with e' | e' | ⟨e', -⟩
        · exfalso
          apply h0
          rw [FP.lt_iff h.lo_ne (by simp), FP.lt_iff (by simp) h.hi_ne, e, e']
          simp
        · exact absurd (by rw [e']; rfl) h.lo_top
        · rw [FP.lt_iff hl hu, absE e', e] at hc
          exact absurd (EReal.coe_lt_top _) hc
      · exact ⟨_, hhi _ e, absE e⟩
  · intro hb
    have hb' := h.bounded_iff.mp hb
    have el : x.lo.toE = ((x.lo.q:ℝ):EReal) := by
      rcases toE_cases h.lo_ne with e | e | ⟨e, -⟩
      · exact absurd e hb'.1
      · exact absurd (by rw [e]; rfl) h.lo_top
      · exact e
    have eh : x.hi.toE = ((x.hi.q:ℝ):EReal) := by
      rcases toE_cases h.hi_ne with e | e | ⟨e, -⟩
      · exact absurd (by rw [e]; rfl) h.hi_bot
      · exact absurd e hb'.2
      · exact e
    unfold Itv.mag
    rw [h.isValid, h.isEmpty]
    simp only [Bool.not_true, Bool.or_false, Bool.false_eq_true, if_false]
    split_ifs
    · exact ⟨_, hlo _ el, absE el⟩
    · exact ⟨_, hhi _ eh, absE eh⟩

/-- The empty interval has no width, magnitude or mignitude. -/
theorem C27_empty :
    Itv.empty.wid φ = .nan ∧ Itv.empty.mag = .nan ∧ Itv.empty.mig = .nan ∧
    Itv.empty.widMixed T T1 = .nan ∧ Itv.empty.magMixed T T1 = .nan ∧ Itv.empty.migMixed T T1 = .nan ∧
    Itv.empty.infMixed T T1 = .pinf ∧ Itv.empty.supMixed T T1 = .ninf := by
  refine ⟨rfl, rfl, rfl, ?_, ?_, ?_, ?_, ?_⟩ <;>
    simp only [Itv.widMixed, Itv.magMixed, Itv.migMixed, Itv.infMixed, Itv.supMixed, convertHull_empty] <;> rfl

/-- On decorated intervals every numeric function gives NaN for NaI and the value of the bare function otherwise. -/
theorem C27_decorated (f : Itv → FP) {y : DItv} (hy : y.Ok φ) :
    (y.IsNaI → y.num f = .nan) ∧ (¬ y.IsNaI → y.num f = f y.itv) := by
  unfold DItv.num
  have h1 := hy.isNai_iff
  rw [DItv.isNaI_iff hy, hy.isValid]
  constructor
  · intro h; rw [h1.mpr h]; simp
  · intro h; rw [hy.isNai_false h]; simp

theorem max_NE (h : x.NE T1.fmt) : ((T.maxPrec [T1]).fmt.convertHull x).NE (T.maxPrec [T1]).fmt ∧
    ((T.maxPrec [T1]).fmt.convertHull x).set = x.set := by
  have hs1 : T1.fmt.Sub (T.maxPrec [T1]).fmt := NumTy.sub_max (by simp)
  have ht := (convertHull_tight (φ := (T.maxPrec [T1]).fmt) h.ok).1
  refine ⟨?_, convert_exact hs1 h.ok⟩
  rcases ht.cases with e | e
  · exact absurd ((convertHull_empty_iff h.ok).mp e) h.ne_empty
  · exact e

/-- Mixed type: the infimum is rounded downward and the supremum upward, once. -/
theorem C27_inf_sup_mixed (hx : x.Ok T1.fmt) :
    GreatestLower T.fmt (x.infMixed T T1) x.set ∧ LeastUpper T.fmt (x.supMixed T T1) x.set := by
  rcases hx.cases with rfl | h
  · have e := C27_empty (φ := binary64) (T := T) (T1 := T1)
    rw [e.2.2.2.2.2.2.1, e.2.2.2.2.2.2.2, Itv.set_empty]
    refine ⟨⟨trivial, by simp, fun b _ hb _ => ?_⟩, ⟨trivial, by simp, fun b _ hb _ => ?_⟩⟩
    · rw [FP.le_iff hb (by decide)]; exact le_top
    · rw [FP.le_iff (by decide) hb]; exact bot_le
  · obtain ⟨hN, hset⟩ := max_NE (T := T) h
    obtain ⟨a1, a2, -, -⟩ := infsup_aux hN.ok
    rw [hset] at a1 a2
    unfold Itv.infMixed Itv.supMixed
    rw [h.isValid]
    simp only [Bool.not_true, Bool.false_eq_true, if_false]
    obtain ⟨b1, b2, b3⟩ := convertRndd_spec T.fmt a1.1
    obtain ⟨c1, c2, c3⟩ := convertRndu_spec T.fmt a2.1
    exact ⟨greatestLower_of a1.2 b3 b1 b2, leastUpper_of a2.2 c3 c1 c2⟩

/-- Mixed type: the width and the magnitude are rounded upward, the mignitude downward, once. -/
theorem C27_mixed (hx : x.Ok T1.fmt) (hne : x.set.Nonempty) :
    LeastUpper T.fmt (x.widMixed T T1) {d | ∃ r ∈ x.set, ∃ s ∈ x.set, d = r - s} ∧
    LeastUpper T.fmt (x.magMixed T T1) ((fun r => |r|) '' x.set) ∧
    GreatestLower T.fmt (x.migMixed T T1) ((fun r => |r|) '' x.set) := by
  rcases hx.cases with rfl | h
  · simp [Itv.set_empty] at hne
  obtain ⟨hN, hset⟩ := max_NE (T := T) h
  have hs : T.fmt.Sub (T.maxPrec [T1]).fmt := NumTy.sub_max (by simp)
  have w := (C27_wid hN.ok (by rw [hset]; exact hne)).1
  obtain ⟨m1, -⟩ := mag_aux hN
  obtain ⟨n1, -⟩ := mig_aux hN
  rw [hset] at w m1 n1
  have hwn : ((T.maxPrec [T1]).fmt.convertHull x).wid (T.maxPrec [T1]).fmt ≠ .nan := by
    intro hh
    rw [hh] at w
    obtain ⟨r, hr⟩ := hne
    exact w.2.1 0 ⟨r, hr, r, hr, by ring⟩
  unfold Itv.widMixed Itv.magMixed Itv.migMixed
  rw [h.isValid]
  simp only [Bool.not_true, Bool.false_eq_true, if_false]
  obtain ⟨b1, b2, b3⟩ := convertRndu_spec T.fmt hwn
  obtain ⟨c1, c2, c3⟩ := convertRndu_spec T.fmt m1.1
  obtain ⟨d1, d2, d3⟩ := convertRndd_spec T.fmt n1.1
  obtain ⟨e1, e2, -⟩ := posZero_spec (T.fmt.convertRndd ((T.maxPrec [T1]).fmt.convertHull x).mig)
  exact ⟨leastUpper_convert hs hwn w b1 b3 b2, leastUpper_of m1.2 c3 c1 c2,
    greatestLower_of n1.2 (posZero_in d3) (fun hh => d1 (e1.mp hh)) (by rw [e2, d2])⟩

-- float results for a double interval
example : (Itv.mk (.fin (1 + 1 / 2 ^ 52)) (.fin 2)).infMixed .float .double = .fin 1 ∧
    (Itv.mk (.fin (-2)) (.fin (-1 - 1 / 2 ^ 52))).migMixed .float .double = .fin 1 ∧
    (Itv.mk (.fin (-2)) (.fin (1 + 1 / 2 ^ 52))).widMixed .float .double = .fin (3 + 1 / 2 ^ 22) := by decide +kernel
example : (Itv.mk (.fin (1 + 1 / 2 ^ 52)) (.fin 2)).Ok binary64 := Itv.ok_of_okb (by decide +kernel)

end P1788
