import Verif.Lemmas.Num
import Verif.Props.C27

/-!
# C28 Midpoint and radius
-/

namespace P1788

variable {φ : Fmt} {x : Itv} {T T1 : NumTy}

/-- Bounds of a bounded non-empty interval. -/
theorem fin_of_bounded (h : x.NE φ) (hb : x.lo ≠ .ninf ∧ x.hi ≠ .pinf) :
    x.lo.toE = ((x.lo.q:ℝ):EReal) ∧ x.hi.toE = ((x.hi.q:ℝ):EReal) ∧ φ.Rep x.lo.q ∧ φ.Rep x.hi.q ∧ x.lo.q ≤ x.hi.q := by
  have rq : ∀ {a : FP}, a.In φ → φ.Rep a.q := by
    intro a ha; cases a <;> first | exact ha | exact φ.rep_zero
  have el : x.lo.toE = ((x.lo.q:ℝ):EReal) := by
    rcases toE_cases h.lo_ne with e | e | ⟨e, -⟩
    · exact absurd e hb.1
    · exact absurd (by rw [e]; rfl) h.lo_top
    · exact e
  have eh : x.hi.toE = ((x.hi.q:ℝ):EReal) := by
    rcases toE_cases h.hi_ne with e | e | ⟨e, -⟩
    · exact absurd (by rw [e]; rfl) h.hi_bot
    · exact absurd e hb.2
    · exact e
  refine ⟨el, eh, rq h.lo_in, rq h.hi_in, ?_⟩
  have := h.le
  rw [el, eh] at this
  exact_mod_cast this

theorem mid_rat {a b : ℚ} (h : |((a:ℝ) + b) / 2| ≤ (φ.maxFin : ℝ)) {l u : FP} (hl : l.q = a) (hu : u.q = b) :
    ∃ q, Itv.midBounds φ l u = .fin q ∧ RoundsTo φ q (((a:ℝ) + b) / 2) := by
  refine ⟨φ.roundQ .N (((a:ℝ) + b) / 2), ?_, roundsTo_roundQ h⟩
  unfold Itv.midBounds
  rw [hl, hu]
  have e : φ.round .N ((a + b) / 2) = φ.round .N (((a:ℝ) + b) / 2) := by
    rw [← Fmt.round_cast]; push_cast; rfl
  rw [e]
  have h1 := φ.round_toE (m := .N) h
  obtain ⟨p1, p2, p3⟩ := posZero_spec (φ.round .N (((a:ℝ) + b) / 2))
  rw [h1] at p2
  have hn : (φ.round .N (((a:ℝ) + b) / 2)).posZero ≠ .nan := fun hh => φ.round_ne_nan _ _ (p1.mp hh)
  revert p2 p3 hn
  cases (φ.round .N (((a:ℝ) + b) / 2)).posZero with
  | fin q =>
    intro p2 _ _
    rw [FP.toE_fin] at p2
    have : (q:ℝ) = (φ.roundQ .N (((a:ℝ) + b) / 2) : ℚ) := by exact_mod_cast p2
    have : q = φ.roundQ .N (((a:ℝ) + b) / 2) := by exact_mod_cast this
    rw [this]
  | nan => intro _ _ h; exact absurd rfl h
  | nzero => intro _ h; exact absurd rfl h
  | ninf => intro h; exact absurd h (EReal.bot_ne_coe _)
  | pinf => intro h; exact absurd h (EReal.top_ne_coe _)

theorem avg_le {a b : ℚ} (ha : φ.Rep a) (hb : φ.Rep b) : |((a:ℝ) + b) / 2| ≤ (φ.maxFin : ℝ) := by
  have h1 := (Rat.cast_le (K := ℝ)).mpr ha.abs_le
  have h2 := (Rat.cast_le (K := ℝ)).mpr hb.abs_le
  push_cast at h1 h2
  rw [abs_le] at h1 h2 ⊢
  constructor <;> linarith [h1.1, h1.2, h2.1, h2.2]

theorem mid_bounded (h : x.NE φ) (hb : x.lo ≠ .ninf ∧ x.hi ≠ .pinf) :
    ∃ q, x.mid φ = .fin q ∧ RoundsTo φ q (((x.lo.q:ℝ) + x.hi.q) / 2) := by
  obtain ⟨-, -, r1, r2, -⟩ := fin_of_bounded h hb
  obtain ⟨q, e, hq⟩ := mid_rat (avg_le r1 r2) (l := x.lo) (u := x.hi) rfl rfl
  refine ⟨q, ?_, hq⟩
  unfold Itv.mid Itv.isEntire
  rw [h.isValid, h.isEmpty, Itv.feq_ninf, Itv.feq_pinf]
  simp [hb.1, hb.2, e]

/-- For a bounded non-empty interval with end points `a` and `b` the midpoint is the correctly rounded `(a+b)/2`:
the nearest format number, ties to even. -/
theorem C28_mid (hx : x.Ok φ) {a b : ℝ} (ha : IsLeast x.set a) (hb : IsGreatest x.set b) :
    ∃ q, x.mid φ = .fin q ∧ RoundsTo φ q ((a + b) / 2) := by
  rcases hx.cases with rfl | h
  · have := ha.1; simp [Itv.set_empty] at this
  have hbd : x.lo ≠ .ninf ∧ x.hi ≠ .pinf := by
    constructor
    · intro hl
      have : a - 1 ∈ x.set := h.mem.mpr ⟨by rw [hl]; exact bot_le, le_trans (by exact_mod_cast (by linarith)) (h.mem.mp ha.1).2⟩
      have := ha.2 this; linarith
    · intro hl
      have : b + 1 ∈ x.set := h.mem.mpr ⟨(h.mem.mp hb.1).1.trans (by exact_mod_cast (by linarith)), by rw [hl]; exact le_top⟩
      have := hb.2 this; linarith
  obtain ⟨el, eh, -, -, -⟩ := fin_of_bounded h hbd
  have e1 : a = x.lo.q := le_antisymm (ha.2 (h.lo_mem el)) (by
    have := (h.mem.mp ha.1).1; rw [el] at this; exact_mod_cast this)
  have e2 : b = x.hi.q := le_antisymm (by
    have := (h.mem.mp hb.1).2; rw [eh] at this; exact_mod_cast this) (hb.2 (h.hi_mem eh))
  rw [e1, e2]
  exact mid_bounded h hbd

/-- The midpoint of a non-empty interval is a finite format number and a member of the interval. -/
theorem C28_member (hx : x.Ok φ) (hne : x.set.Nonempty) :
    ∃ q : ℚ, x.mid φ = .fin q ∧ φ.Rep q ∧ (q:ℝ) ∈ x.set := by
  rcases hx.cases with rfl | h
  · simp [Itv.set_empty] at hne
  by_cases hl : x.lo = .ninf
  · by_cases hu : x.hi = .pinf
    · refine ⟨0, ?_, φ.rep_zero, ?_⟩
      · unfold Itv.mid Itv.isEntire
        rw [h.isValid, h.isEmpty, Itv.feq_ninf, Itv.feq_pinf]; simp [hl, hu]
      · rw [h.mem, hl, hu]; simp
    · refine ⟨-φ.maxFin, ?_, φ.rep_maxFin.neg, ?_⟩
      · unfold Itv.mid Itv.isEntire
        rw [h.isValid, h.isEmpty, Itv.feq_ninf, Itv.feq_pinf]; simp [hl, hu]
      · rw [h.mem, hl]
        refine ⟨bot_le, ?_⟩
        rcases toE_cases h.hi_ne with e | e | ⟨e, -⟩
        · exact absurd (by rw [e]; rfl) h.hi_bot
        · exact absurd e hu
        · rw [e]
          have : φ.Rep x.hi.q := by
            have := h.hi_in
            revert this; cases x.hi <;> intro h' <;> first | exact h' | exact φ.rep_zero
          have := (abs_le.mp this.abs_le).1
          exact_mod_cast this
  · by_cases hu : x.hi = .pinf
    · refine ⟨φ.maxFin, ?_, φ.rep_maxFin, ?_⟩
      · unfold Itv.mid Itv.isEntire
        rw [h.isValid, h.isEmpty, Itv.feq_ninf, Itv.feq_pinf]; simp [hl, hu]
      · rw [h.mem, hu]
        refine ⟨?_, le_top⟩
        rcases toE_cases h.lo_ne with e | e | ⟨e, -⟩
        · exact absurd e hl
        · exact absurd (by rw [e]; rfl) h.lo_top
        · rw [e]
          have : φ.Rep x.lo.q := by
            have := h.lo_in
            revert this; cases x.lo <;> intro h' <;> first | exact h' | exact φ.rep_zero
          have := (abs_le.mp this.abs_le).2
          exact_mod_cast this
    · obtain ⟨q, e, hq⟩ := mid_bounded h ⟨hl, hu⟩
      obtain ⟨el, eh, r1, r2, hle⟩ := fin_of_bounded h ⟨hl, hu⟩
      obtain ⟨m1, m2⟩ := hq.mem r1 r2 hle
      refine ⟨q, e, hq.1, h.mem.mpr ?_⟩
      rw [el, eh]
      exact ⟨by exact_mod_cast m1, by exact_mod_cast m2⟩

/-- The midpoints of unbounded intervals and of the empty interval. -/
theorem C28_unbounded {l u : FP} (hl : (Itv.mk l .pinf).Ok φ) (hl' : l ≠ .ninf) (hu : (Itv.mk .ninf u).Ok φ)
    (hu' : u ≠ .pinf) :
    Itv.entire.mid φ = .fin 0 ∧ (Itv.mk l .pinf).mid φ = .fin φ.maxFin ∧ (Itv.mk .ninf u).mid φ = .fin (-φ.maxFin) ∧
    Itv.empty.mid φ = .nan ∧ Itv.empty.midRad φ = (.nan, .nan) := by
  have h1 : (Itv.mk l .pinf).NE φ := hl.cases.resolve_left (by simp [Itv.empty])
  have h2 : (Itv.mk .ninf u).NE φ := hu.cases.resolve_left (by simp [Itv.empty])
  refine ⟨rfl, ?_, ?_, rfl, rfl⟩
  · unfold Itv.mid Itv.isEntire
    rw [h1.isValid, h1.isEmpty, Itv.feq_ninf, Itv.feq_pinf]; simp [hl']
  · unfold Itv.mid Itv.isEntire
    rw [h2.isValid, h2.isEmpty, Itv.feq_ninf, Itv.feq_pinf]; simp [hu']

theorem rad_gen {ψ : Fmt} (h : x.NE ψ) {m : ℚ} (hm : ψ.Rep m) :
    LeastUpper ψ (if ψ.subNS .U x.hi (.fin m) < ψ.subNS .U (.fin m) x.lo then ψ.subNS .U (.fin m) x.lo
      else ψ.subNS .U x.hi (.fin m)) {d | ∃ r ∈ x.set, d = |r - m|} ∧
    (if ψ.subNS .U x.hi (.fin m) < ψ.subNS .U (.fin m) x.lo then ψ.subNS .U (.fin m) x.lo
      else ψ.subNS .U x.hi (.fin m)) ≠ .nan := by
  have hmi : (FP.fin m).In ψ := hm
  rw [ψ.subNS_eq .U h.hi_in hmi, ψ.subNS_eq .U hmi h.lo_in]
  obtain ⟨a1, a2⟩ := ψ.sub_spec .U (a := x.hi) (b := .fin m) h.hi_ne (by simp) (by simp) (by simp)
  obtain ⟨b1, b2⟩ := ψ.sub_spec .U (a := .fin m) (b := x.lo) (by simp) h.lo_ne (by simp) (by simp)
  rw [Fmt.rndE_U] at a2 b2
  have hlub := lub_dist h (m:ℝ)
  rw [FP.toE_fin] at a2 b2
  have hmax : ψ.ruE (max ((m:ℝ) - x.lo.toE) (x.hi.toE - ((m:ℝ):EReal))) =
      max (ψ.ruE ((m:ℝ) - x.lo.toE)) (ψ.ruE (x.hi.toE - ((m:ℝ):EReal))) :=
    Monotone.map_max (fun _ _ h => ψ.ruE_mono h)
  split_ifs with hc
  · refine ⟨leastUpper_of hlub (ψ.sub_in _ _ _) b1 ?_, b1⟩
    rw [hmax, ← a2, ← b2]
    rw [FP.lt_iff a1 b1] at hc
    rw [max_eq_left hc.le]
  · refine ⟨leastUpper_of hlub (ψ.sub_in _ _ _) a1 ?_, a1⟩
    rw [hmax, ← a2, ← b2]
    rw [FP.lt_iff a1 b1, not_lt] at hc
    rw [max_eq_right hc]

theorem leastUpper_posZero {a : FP} {S : Set ℝ} (hn : a ≠ .nan) (h : LeastUpper φ a S) : LeastUpper φ a.posZero S := by
  obtain ⟨p1, p2, -⟩ := posZero_spec a
  have hn' : a.posZero ≠ .nan := fun hh => hn (p1.mp hh)
  refine ⟨posZero_in h.1, fun r hr => ?_, fun b hb hbn hu => ?_⟩
  · rw [FP.aboveR_iff, p2]; exact ⟨hn', (FP.aboveR_iff.mp (h.2.1 r hr)).2⟩
  · rw [FP.le_iff hn' hbn, p2, ← FP.le_iff hn hbn]; exact h.2.2 b hb hbn hu

/-- The radius of a non-empty interval is the least format number `r` such that the interval lies within
`[mid - r, mid + r]`; `mid_rad` returns the midpoint together with it. -/
theorem C28_rad (hx : x.Ok φ) (hne : x.set.Nonempty) :
    x.midRad φ = (x.mid φ, x.rad φ) ∧
    ∃ m : ℚ, x.mid φ = .fin m ∧ LeastUpper φ (x.rad φ) {d | ∃ r ∈ x.set, d = |r - m|} ∧ x.rad φ ≠ .nzero := by
  obtain ⟨m, hm, hr, -⟩ := C28_member hx hne
  rcases hx.cases with rfl | h
  · simp [Itv.set_empty] at hne
  have e : x.midRad φ = (x.mid φ, (if φ.subNS .U x.hi (x.mid φ) < φ.subNS .U (x.mid φ) x.lo then
      φ.subNS .U (x.mid φ) x.lo else φ.subNS .U x.hi (x.mid φ)).posZero) := by
    unfold Itv.midRad
    rw [h.isValid, h.isEmpty]; rfl
  refine ⟨by rw [Itv.rad, e], m, hm, ?_⟩
  rw [Itv.rad, e, hm]
  obtain ⟨g1, g2⟩ := rad_gen h hr
  exact ⟨leastUpper_posZero g2 g1, (posZero_spec _).2.2⟩

/-- The radius of a bounded interval is finite: it does not overflow. -/
theorem C28_rad_finite (hx : x.Ok φ) (hne : x.set.Nonempty) (hb : Bornology.IsBounded x.set) :
    ∃ q : ℚ, x.rad φ = .fin q := by
  obtain ⟨-, m, hm, hr, hz⟩ := C28_rad hx hne
  rcases hx.cases with rfl | h
  · simp [Itv.set_empty] at hne
  have hbd := h.bounded_iff.mp hb
  obtain ⟨q, e, hq⟩ := mid_bounded h hbd
  obtain ⟨el, eh, r1, r2, hle⟩ := fin_of_bounded h hbd
  rw [hm] at e; injection e with e; subst e
  have h0 := (hq.2 0 φ.rep_zero).1
  have b1 := (Rat.cast_le (K := ℝ)).mpr r1.abs_le
  rw [Rat.cast_abs, abs_le] at b1
  have b2 := (Rat.cast_le (K := ℝ)).mpr r2.abs_le
  rw [Rat.cast_abs, abs_le] at b2
  have hle' : (x.lo.q:ℝ) ≤ x.hi.q := by exact_mod_cast hle
  have hle2 : x.rad φ ≤ .fin φ.maxFin := by
    refine hr.2.2 _ φ.rep_maxFin (by simp) ?_
    rintro _ ⟨r, hrx, rfl⟩
    have hr1 := (h.mem.mp hrx).1
    have hr2 := (h.mem.mp hrx).2
    rw [el] at hr1; rw [eh] at hr2
    have hr1 : (x.lo.q:ℝ) ≤ r := by exact_mod_cast hr1
    have hr2 : r ≤ (x.hi.q:ℝ) := by exact_mod_cast hr2
    show |r - m| ≤ (φ.maxFin : ℝ)
    simp only [Rat.cast_zero, zero_sub, abs_neg] at h0
    rcases le_total 0 (((x.lo.q:ℝ) + x.hi.q) / 2) with hc | hc
    · rw [abs_of_nonneg hc] at h0
      have := abs_le.mp h0
      rw [abs_le]; constructor <;> linarith [b1.1, b1.2, b2.1, b2.2, this.1, this.2]
    · rw [abs_of_nonpos hc] at h0
      have := abs_le.mp h0
      rw [abs_le]; constructor <;> linarith [b1.1, b1.2, b2.1, b2.2, this.1, this.2]
  have h1 := hr.2.1 |x.lo.q - m| ⟨x.lo.q, h.lo_mem el, rfl⟩
  cases hrad : x.rad φ with
  | fin q => exact ⟨q, rfl⟩
  | nzero => exact absurd hrad hz
  | nan => rw [hrad] at h1; exact h1.elim
  | ninf => rw [hrad] at h1; exact h1.elim
  | pinf => rw [hrad] at hle2; exact absurd hle2 (by simp [FP.le_def, FP.leb])

/-- Mixed type: the midpoint of a bounded interval is the exact midpoint rounded once to the result type, as long as
it is within the range of that type. -/
theorem C28_mid_mixed (hx : x.Ok T1.fmt) {a b : ℝ} (ha : IsLeast x.set a) (hb : IsGreatest x.set b)
    (hr : |(a + b) / 2| ≤ (T.fmt.maxFin : ℝ)) : ∃ q, x.midMixed T = .fin q ∧ RoundsTo T.fmt q ((a + b) / 2) := by
  rcases hx.cases with rfl | h
  · have := ha.1; simp [Itv.set_empty] at this
  have hbd : x.lo ≠ .ninf ∧ x.hi ≠ .pinf := by
    constructor
    · intro hl
      have : a - 1 ∈ x.set := h.mem.mpr ⟨by rw [hl]; exact bot_le, le_trans (by exact_mod_cast (by linarith)) (h.mem.mp ha.1).2⟩
      have := ha.2 this; linarith
    · intro hl
      have : b + 1 ∈ x.set := h.mem.mpr ⟨(h.mem.mp hb.1).1.trans (by exact_mod_cast (by linarith)), by rw [hl]; exact le_top⟩
      have := hb.2 this; linarith
  obtain ⟨el, eh, -, -, -⟩ := fin_of_bounded h hbd
  have e1 : a = x.lo.q := le_antisymm (ha.2 (h.lo_mem el)) (by
    have := (h.mem.mp ha.1).1; rw [el] at this; exact_mod_cast this)
  have e2 : b = x.hi.q := le_antisymm (by
    have := (h.mem.mp hb.1).2; rw [eh] at this; exact_mod_cast this) (hb.2 (h.hi_mem eh))
  rw [e1, e2] at hr ⊢
  obtain ⟨q, e, hq⟩ := mid_rat hr (l := x.lo) (u := x.hi) rfl rfl
  refine ⟨q, ?_, hq⟩
  unfold Itv.midMixed Itv.isEntire
  rw [h.isValid, h.isEmpty, Itv.feq_ninf, Itv.feq_pinf]
  simp [hbd.1, hbd.2, e]

/-- Mixed type: whenever the midpoint is finite the radius is the least number of the result type such that the
interval lies within `[mid - r, mid + r]`; `mid_rad` returns both. -/
theorem C28_rad_mixed (hx : x.Ok T1.fmt) (hne : x.set.Nonempty) :
    x.midRadMixed T T1 = (x.midMixed T, x.radMixed T T1) ∧
    ∀ m : ℚ, x.midMixed T = .fin m → T.fmt.Rep m →
      LeastUpper T.fmt (x.radMixed T T1) {d | ∃ r ∈ x.set, d = |r - m|} := by
  rcases hx.cases with rfl | h
  · simp [Itv.set_empty] at hne
  have hs : T.fmt.Sub (T.maxPrec [T1]).fmt := NumTy.sub_max (by simp)
  have hs1 : T1.fmt.Sub (T.maxPrec [T1]).fmt := NumTy.sub_max (by simp)
  have e : x.midRadMixed T T1 = (x.midMixed T, (T.fmt.conv .U
      (if (T.maxPrec [T1]).fmt.subNS .U x.hi (x.midMixed T) < (T.maxPrec [T1]).fmt.subNS .U (x.midMixed T) x.lo then
      (T.maxPrec [T1]).fmt.subNS .U (x.midMixed T) x.lo
      else (T.maxPrec [T1]).fmt.subNS .U x.hi (x.midMixed T))).posZero) := by
    unfold Itv.midRadMixed
    rw [h.isValid, h.isEmpty]; rfl
  refine ⟨by rw [Itv.radMixed, e], fun m hm hr => ?_⟩
  rw [Itv.radMixed, e, hm]
  have hN : x.NE (T.maxPrec [T1]).fmt := ⟨h.lo_ne, h.hi_ne, h.le, h.lo_top, h.hi_bot, hs1.in h.lo_in, hs1.in h.hi_in⟩
  obtain ⟨g1, g2⟩ := rad_gen hN (m := m) (by have := hs.in (a := .fin m) hr; exact this)
  obtain ⟨c1, c2, c3⟩ := conv_spec T.fmt .U g2
  rw [Fmt.rndE_U] at c2
  exact leastUpper_posZero c1 (leastUpper_convert hs g2 g1 c1 c3 c2)

/-- Mixed type with a result type narrower than the operand type: the midpoint of a bounded interval may be infinite
(`mid<float>` of the double interval `[2^200, 2^200]`). -/
theorem C28_mid_mixed_overflow :
    (Itv.mk (.fin (2 ^ 200)) (.fin (2 ^ 200))).midMixed .float = .pinf ∧
    (Itv.mk (.fin (2 ^ 200)) (.fin (2 ^ 200))).Ok NumTy.double.fmt :=
  ⟨by decide +kernel, Itv.ok_of_okb (by decide +kernel)⟩

-- [1, 2^1023] in double: midpoint without overflow; a tie in the subnormal range goes to even
example : (Itv.mk (.fin (2 ^ 1023)) (.fin ((2 ^ 53 - 1) * 2 ^ 971))).mid binary64 = .fin (3 * 2 ^ 1022) := by
  decide +kernel
example : (Itv.mk (.fin 0) (.fin (2 ^ (-1074 : ℤ)))).midRad binary64 = (.fin 0, .fin (2 ^ (-1074 : ℤ))) := by
  decide +kernel
example : (Itv.mk (.fin 0) (.fin (2 ^ (-1074 : ℤ)))).Ok binary64 := Itv.ok_of_okb (by decide +kernel)

end P1788
