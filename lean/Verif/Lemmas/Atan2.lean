import Verif.Model.Atan2
import Verif.Lemmas.Ends

/-! Helper lemmas: the polar angle over a rectangle. -/

namespace P1788
open FP Filter Topology

/-- The polar angle of the point `(x, y)`. -/
noncomputable def th (y x : ℝ) : ℝ := Complex.arg ⟨x, y⟩

theorem th_of_pos {y x : ℝ} (hy : 0 < y) : th y x = Real.pi / 2 - Real.arctan (x / y) := by
  have h0 : 0 < th y x := by
    refine lt_of_le_of_ne (Complex.arg_nonneg_iff.mpr hy.le) (fun h => ?_)
    exact hy.ne' (Complex.arg_eq_zero_iff.mp h.symm).2
  have h1 : th y x < Real.pi := Complex.arg_lt_pi_iff.mpr (Or.inr hy.ne')
  have h2 : Real.tan (Real.pi / 2 - th y x) = x / y := by
    rw [Real.tan_pi_div_two_sub, th, Complex.tan_arg, inv_div]
  rw [← h2, Real.arctan_tan (by linarith) (by linarith)]; ring

theorem th_of_right {y x : ℝ} (hx : 0 < x) : th y x = Real.arctan (y / x) := by
  have h := abs_lt.mp (Complex.abs_arg_lt_pi_div_two_iff.mpr (Or.inl hx : 0 < (Complex.mk x y).re ∨ Complex.mk x y = 0))
  have h2 : Real.tan (th y x) = y / x := by rw [th, Complex.tan_arg]
  rw [← h2]; exact (Real.arctan_tan h.1 h.2).symm

theorem th_zero_neg {x : ℝ} (hx : x < 0) : th 0 x = Real.pi := Complex.arg_eq_pi_iff.mpr ⟨hx, rfl⟩
theorem th_zero_nonneg {x : ℝ} (hx : 0 ≤ x) : th 0 x = 0 := Complex.arg_eq_zero_iff.mpr ⟨hx, rfl⟩

theorem th_neg {y x : ℝ} (h : y = 0 → 0 ≤ x) : th (-y) x = - th y x := by
  have := Complex.arg_conj ⟨x, y⟩
  have hp : Complex.arg ⟨x, y⟩ ≠ Real.pi := fun hc => by
    obtain ⟨h1, h2⟩ := Complex.arg_eq_pi_iff.mp hc
    have h1 : x < 0 := h1
    exact absurd (h h2) (not_le.mpr h1)
  rw [if_neg hp] at this
  exact this

theorem th_le_pi (y x : ℝ) : th y x ≤ Real.pi := Complex.arg_le_pi _
theorem neg_pi_lt_th (y x : ℝ) : -Real.pi < th y x := Complex.neg_pi_lt_arg _
theorem th_nonneg {y x : ℝ} (h : 0 ≤ y) : 0 ≤ th y x := Complex.arg_nonneg_iff.mpr h
theorem th_zero_right {y : ℝ} (h : 0 < y) : th y 0 = Real.pi / 2 := by simp [th_of_pos h]

/-- In the closed upper half plane the angle decreases with `x`. -/
theorem th_anti_x {y x x' : ℝ} (hy : 0 ≤ y) (h : x ≤ x') (hn : ¬(y = 0 ∧ x = 0)) : th y x' ≤ th y x := by
  rcases hy.eq_or_lt with rfl | hy
  · rcases lt_trichotomy x 0 with hx | hx | hx
    · rw [th_zero_neg hx]; exact th_le_pi _ _
    · exact absurd ⟨rfl, hx⟩ hn
    · rw [th_zero_nonneg hx.le, th_zero_nonneg (hx.le.trans h)]
  · rw [th_of_pos hy, th_of_pos hy]
    have : Real.arctan (x / y) ≤ Real.arctan (x' / y) := Real.arctan_strictMono.monotone (by gcongr)
    linarith

/-- In the closed right half plane the angle increases with `y`. -/
theorem th_mono_y {y y' x : ℝ} (hx : 0 ≤ x) (h : y ≤ y') (hn : ¬(y = 0 ∧ x = 0)) (hn' : ¬(y' = 0 ∧ x = 0)) :
    th y x ≤ th y' x := by
  rcases hx.eq_or_lt with rfl | hx
  · have e : ∀ t : ℝ, t < 0 → th t 0 = - (Real.pi / 2) := fun t ht => by
      have := th_neg (y := -t) (x := 0) (by simp)
      rw [neg_neg, th_zero_right (show 0 < -t by linarith)] at this; exact this
    have hpi := Real.pi_pos
    rcases lt_trichotomy y 0 with g | g | g
    · rcases lt_trichotomy y' 0 with g' | g' | g'
      · rw [e _ g, e _ g']
      · exact absurd ⟨g', rfl⟩ hn'
      · rw [e _ g, th_zero_right g']; linarith
    · exact absurd ⟨g, rfl⟩ hn
    · rw [th_zero_right g, th_zero_right (g.trans_le h)]
  · rw [th_of_right hx, th_of_right hx]
    exact Real.arctan_strictMono.monotone (by gcongr)

/-- In the upper left quadrant the angle decreases with `y`. -/
theorem th_anti_y {y y' x : ℝ} (hx : x ≤ 0) (hy : 0 ≤ y) (h : y ≤ y') (hn : ¬(y = 0 ∧ x = 0)) :
    th y' x ≤ th y x := by
  rcases hy.eq_or_lt with rfl | hy
  · have : x < 0 := lt_of_le_of_ne hx (fun h => hn ⟨rfl, h⟩)
    rw [th_zero_neg this]; exact th_le_pi _ _
  · rw [th_of_pos hy, th_of_pos (hy.trans_le h)]
    have : Real.arctan (x / y) ≤ Real.arctan (x / y') := by
      apply Real.arctan_strictMono.monotone
      rw [div_le_div_iff₀ hy (hy.trans_le h)]
      nlinarith
    linarith

/-- Infimum of a function on an arbitrary domain, reached along a filter. -/
theorem glb_of_filter' {α : Type*} {D : Set α} {f : α → ℝ} {L : EReal} (F : Filter α) [F.NeBot]
    (h1 : ∀ᶠ y in F, y ∈ D) (h2 : ∀ x ∈ D, ∀ᶠ y in F, f y ≤ f x)
    (h3 : Tendsto (fun x => (f x : EReal)) F (𝓝 L)) : IsGLB (eimg (f '' D)) L := by
  constructor
  · rintro e ⟨r, ⟨x, hx, rfl⟩, rfl⟩
    refine le_of_tendsto h3 ?_
    filter_upwards [h2 x hx] with y hy
    exact_mod_cast hy
  · intro b hb
    refine ge_of_tendsto h3 ?_
    filter_upwards [h1] with y hy
    exact hb ⟨f y, ⟨y, hy, rfl⟩, rfl⟩

theorem lub_of_filter' {α : Type*} {D : Set α} {f : α → ℝ} {L : EReal} (F : Filter α) [F.NeBot]
    (h1 : ∀ᶠ y in F, y ∈ D) (h2 : ∀ x ∈ D, ∀ᶠ y in F, f x ≤ f y)
    (h3 : Tendsto (fun x => (f x : EReal)) F (𝓝 L)) : IsLUB (eimg (f '' D)) L := by
  constructor
  · rintro e ⟨r, ⟨x, hx, rfl⟩, rfl⟩
    refine ge_of_tendsto h3 ?_
    filter_upwards [h2 x hx] with y hy
    exact_mod_cast hy
  · intro b hb
    refine le_of_tendsto h3 ?_
    filter_upwards [h1] with y hy
    exact hb ⟨f y, ⟨y, hy, rfl⟩, rfl⟩

/-- In the lower half plane the angle increases with `x`. -/
theorem th_mono_x {y x x' : ℝ} (hy : y ≤ 0) (h : x ≤ x') (hn : y = 0 → 0 < x) : th y x ≤ th y x' := by
  have h1 := th_anti_x (y := -y) (x := x) (x' := x') (by linarith) h (fun hc => by
    have := hn (by linarith [hc.1]); linarith [hc.2])
  rw [th_neg (fun e => (hn e).le), th_neg (fun e => ((hn e).le.trans h))] at h1
  linarith

/-- In the lower left quadrant the angle decreases with `y`. -/
theorem th_anti_y' {y y' x : ℝ} (hx : x ≤ 0) (hy : y' < 0) (h : y ≤ y') : th y' x ≤ th y x := by
  have h1 := th_anti_y (y := -y') (y' := -y) (x := x) hx (by linarith) (by linarith) (fun hc => by linarith [hc.1])
  rw [th_neg (fun e => by linarith), th_neg (fun e => by linarith)] at h1
  linarith

/-- `l` is the rounded-down infimum of `f` over `D`. -/
structure Low {α : Type*} (φ : Fmt) (f : α → ℝ) (D : Set α) (l : FP) : Prop where
  ne : D.Nonempty
  ex : ∃ L, IsGLB (eimg (f '' D)) L ∧ l.toE = φ.rdE L
  nn : l ≠ .nan
  inφ : l.In φ

/-- `u` is the rounded-up supremum of `f` over `D`. -/
structure Upp {α : Type*} (φ : Fmt) (f : α → ℝ) (D : Set α) (u : FP) : Prop where
  ex : ∃ L, IsLUB (eimg (f '' D)) L ∧ u.toE = φ.ruE L
  nn : u ≠ .nan
  inφ : u.In φ

theorem tight_low_upp {α : Type*} {φ : Fmt} {f : α → ℝ} {D : Set α} {l u : FP} (h1 : Low φ f D l)
    (h2 : Upp φ f D u) : Tightest φ ⟨l, u⟩ (f '' D) := by
  obtain ⟨L, hL, hl⟩ := h1.ex
  obtain ⟨U, hU, hu⟩ := h2.ex
  exact tightest_of_box ⟨h1.ne.image f, hL, hU⟩ h1.nn h2.nn h1.inφ h2.inφ hl hu

/-- `r` is the rounded limit of the binary function `f` at the corner `(a, b)`. -/
structure ULim2 (φ : Fmt) (m : Rnd) (f : ℝ × ℝ → ℝ) (a b r : FP) : Prop where
  ex : ∃ L, Tendsto (fun p => (f p : EReal)) (filtE a.toE ×ˢ filtE b.toE) (𝓝 L) ∧ r.toE = φ.rndE m L
  ne : r ≠ .nan
  inφ : r.In φ

theorem Low.corner {φ : Fmt} {f : ℝ × ℝ → ℝ} {D : Set (ℝ × ℝ)} {a b r : FP} (h : ULim2 φ .D f a b r)
    (h1 : ∀ᶠ p in filtE a.toE ×ˢ filtE b.toE, p ∈ D)
    (h2 : ∀ q ∈ D, ∀ᶠ p in filtE a.toE ×ˢ filtE b.toE, f p ≤ f q) : Low φ f D r := by
  obtain ⟨L, hL, hr⟩ := h.ex
  exact ⟨h1.exists, ⟨L, glb_of_filter' _ h1 h2 hL, hr⟩, h.ne, h.inφ⟩

theorem Upp.corner {φ : Fmt} {f : ℝ × ℝ → ℝ} {D : Set (ℝ × ℝ)} {a b r : FP} (h : ULim2 φ .U f a b r)
    (h1 : ∀ᶠ p in filtE a.toE ×ˢ filtE b.toE, p ∈ D)
    (h2 : ∀ q ∈ D, ∀ᶠ p in filtE a.toE ×ˢ filtE b.toE, f q ≤ f p) : Upp φ f D r := by
  obtain ⟨L, hL, hr⟩ := h.ex
  exact ⟨⟨L, lub_of_filter' _ h1 h2 hL, hr⟩, h.ne, h.inφ⟩

theorem Low.attained {α : Type*} {φ : Fmt} {f : α → ℝ} {D : Set α} {q : α} {r : FP} (hq : q ∈ D)
    (h : ∀ p ∈ D, f q ≤ f p) (hr : r.toE = φ.rdE (f q)) (hn : r ≠ .nan) (hi : r.In φ) : Low φ f D r := by
  refine ⟨⟨q, hq⟩, ⟨f q, ⟨?_, fun b hb => hb ⟨_, ⟨q, hq, rfl⟩, rfl⟩⟩, hr⟩, hn, hi⟩
  rintro _ ⟨_, ⟨p, hp, rfl⟩, rfl⟩
  exact EReal.coe_le_coe_iff.mpr (h p hp)

theorem Upp.attained {α : Type*} {φ : Fmt} {f : α → ℝ} {D : Set α} {q : α} {r : FP} (hq : q ∈ D)
    (h : ∀ p ∈ D, f p ≤ f q) (hr : r.toE = φ.ruE (f q)) (hn : r ≠ .nan) (hi : r.In φ) : Upp φ f D r := by
  refine ⟨⟨f q, ⟨?_, fun b hb => hb ⟨_, ⟨q, hq, rfl⟩, rfl⟩⟩, hr⟩, hn, hi⟩
  rintro _ ⟨_, ⟨p, hp, rfl⟩, rfl⟩
  exact EReal.coe_le_coe_iff.mpr (h p hp)

theorem ev_pos {a : EReal} (h : 0 < a) : ∀ᶠ t in filtE a, 0 < t := by
  induction a with
  | bot => simp at h
  | coe r => rw [filtE_coe, eventually_pure]; exact_mod_cast h
  | top => rw [filtE_top]; exact eventually_gt_atTop 0
theorem ev_neg {a : EReal} (h : a < 0) : ∀ᶠ t in filtE a, t < 0 := by
  induction a with
  | bot => rw [filtE_bot]; exact eventually_lt_atBot 0
  | coe r => rw [filtE_coe, eventually_pure]; exact_mod_cast h
  | top => simp at h

theorem Itv.NE.ev_lo {φ : Fmt} {x : Itv} (h : x.NE φ) : ∀ᶠ t in filtE x.lo.toE, t ∈ x.set := by
  rw [h.set_eq]; exact h.seg.ev_lo
theorem Itv.NE.ev_hi {φ : Fmt} {x : Itv} (h : x.NE φ) : ∀ᶠ t in filtE x.hi.toE, t ∈ x.set := by
  rw [h.set_eq]; exact h.seg.ev_hi
theorem Itv.NE.ev_lo_le {φ : Fmt} {x : Itv} (h : x.NE φ) {r : ℝ} (hr : r ∈ x.set) :
    ∀ᶠ t in filtE x.lo.toE, t ≤ r := P1788.ev_lo_le (h.mem.mp hr).1
theorem Itv.NE.ev_hi_ge {φ : Fmt} {x : Itv} (h : x.NE φ) {r : ℝ} (hr : r ∈ x.set) :
    ∀ᶠ t in filtE x.hi.toE, r ≤ t := P1788.ev_hi_ge (h.mem.mp hr).2

/-- Polar angle as a function on pairs. -/
noncomputable def thp (p : ℝ × ℝ) : ℝ := th p.1 p.2

theorem toE_cases {a : FP} (ha : a ≠ .nan) :
    a = .ninf ∨ a = .pinf ∨ (a.toE = ((a.q:ℝ):EReal) ∧ a.isInf = false) := by
  cases a <;> simp_all [FP.isInf, FP.q]

theorem signbit_of_neg {a : FP} (h : a.toE < 0) : a.signbit = true := by
  cases a with
  | nan => simp [FP.toE] at h
  | ninf => rfl
  | pinf => simp at h
  | nzero => rfl
  | fin q =>
    have : (q:ℝ) < 0 := by rw [FP.toE_fin] at h; exact_mod_cast h
    simp [FP.signbit]; exact_mod_cast this
theorem signbit_of_pos {a : FP} (h : 0 < a.toE) : a.signbit = false := by
  cases a with
  | nan => rfl
  | ninf => simp at h
  | pinf => rfl
  | nzero => simp at h
  | fin q =>
    have : (0:ℝ) < q := by rw [FP.toE_fin] at h; exact_mod_cast h
    simp [FP.signbit]; exact_mod_cast this.le

theorem angle_ne (φ : Fmt) (m : Rnd) (b : Bool) (t : ℝ) : φ.angle m b t ≠ .nan := φ.round_ne_nan _ _
theorem angle_in (φ : Fmt) (m : Rnd) (b : Bool) (t : ℝ) : (φ.angle m b t).In φ := φ.round_in _ _

theorem tendsto_th_xbot {y : ℝ} (hy : 0 < y) : Tendsto (fun x => th y x) atBot (𝓝 Real.pi) := by
  simp only [th_of_pos hy]
  have h1 : Tendsto (fun x : ℝ => x / y) atBot atBot := tendsto_id.atBot_div_const hy
  have h2 := (tendsto_nhds_of_tendsto_nhdsWithin Real.tendsto_arctan_atBot).comp h1
  have := (tendsto_const_nhds (x := Real.pi / 2)).sub h2
  rw [show Real.pi / 2 - -(Real.pi / 2) = Real.pi by ring] at this
  exact this

theorem tendsto_th_xtop {y : ℝ} : Tendsto (fun x => th y x) atTop (𝓝 0) := by
  have h1 : Tendsto (fun x : ℝ => y / x) atTop (𝓝 0) := tendsto_const_nhds.div_atTop tendsto_id
  have h2 := (Real.continuous_arctan.tendsto 0).comp h1
  rw [Real.arctan_zero] at h2
  refine h2.congr' ?_
  filter_upwards [eventually_gt_atTop 0] with x hx
  exact (th_of_right hx).symm

theorem tendsto_th_ytop {x : ℝ} : Tendsto (fun y => th y x) atTop (𝓝 (Real.pi / 2)) := by
  have h1 : Tendsto (fun y : ℝ => x / y) atTop (𝓝 0) := tendsto_const_nhds.div_atTop tendsto_id
  have h2 := (Real.continuous_arctan.tendsto 0).comp h1
  rw [Real.arctan_zero] at h2
  have h3 := (tendsto_const_nhds (x := Real.pi / 2)).sub h2
  rw [sub_zero] at h3
  refine h3.congr' ?_
  filter_upwards [eventually_gt_atTop 0] with y hy
  exact (th_of_pos hy).symm

theorem tendsto_th_ybot {x : ℝ} : Tendsto (fun y => th y x) atBot (𝓝 (-(Real.pi / 2))) := by
  have : Tendsto (fun y => - th (-y) x) atBot (𝓝 (-(Real.pi / 2))) :=
    (tendsto_th_ytop.comp tendsto_neg_atBot_atTop).neg
  refine this.congr' ?_
  filter_upwards [eventually_lt_atBot 0] with y hy
  rw [th_neg (fun e => by linarith), neg_neg]

theorem tendsto_th_xbot_neg {y : ℝ} (hy : y < 0) : Tendsto (fun x => th y x) atBot (𝓝 (-Real.pi)) := by
  have : Tendsto (fun x => - th (-y) x) atBot (𝓝 (-Real.pi)) := (tendsto_th_xbot (by linarith)).neg
  refine this.congr' (Eventually.of_forall fun x => ?_)
  show - th (-y) x = _
  rw [th_neg (fun e => by linarith), neg_neg]

theorem toE_ne_top_iff {a : FP} : a.toE ≠ ⊤ ↔ a ≠ .pinf := not_congr FP.toE_eq_top

/-- The corner values of `mpfr_atan2` used by the library are limits of the angle. -/
theorem atan2_ulim (φ : Fmt) (m : Rnd) {y x : FP} (hy : y ≠ .nan) (hx : x ≠ .nan)
    (h0 : y.toE = 0 → 0 < x.toE) (hi : (y = .ninf ∨ y = .pinf) → x ≠ .ninf ∧ x ≠ .pinf) :
    ULim2 φ m thp y x (φ.atan2 m y x) := by
  have ny : y.isNaN = false := Itv.isNaN_eq_false.mpr hy
  have nx : x.isNaN = false := Itv.isNaN_eq_false.mpr hx
  simp only [Fmt.atan2, ny, nx, Bool.or_self, Bool.false_eq_true, if_false]
  by_cases hz : y.toE = 0
  · have hpos := h0 hz
    rw [if_pos ((Fmt.isZero_iff hy).mpr hz), signbit_of_pos hpos, if_neg (by simp)]
    refine ⟨⟨0, ?_, by simp⟩, FP.mkZero_ne_nan _, φ.mkZero_in _⟩
    rw [hz, show (0:EReal) = ((0:ℝ):EReal) from rfl, filtE_coe]
    have : ∀ᶠ p in (pure (0:ℝ) ×ˢ filtE x.toE : Filter (ℝ × ℝ)), thp p = 0 := by
      rw [Filter.pure_prod, eventually_map]
      filter_upwards [ev_pos hpos] with t ht
      exact th_zero_nonneg ht.le
    refine (tendsto_const_nhds (x := ((0:ℝ):EReal))).congr' ?_
    filter_upwards [this] with p hp
    rw [hp]
  rw [if_neg (by rw [Fmt.isZero_iff hy]; exact hz)]
  rcases toE_cases hy with rfl | rfl | ⟨ey, iy⟩
  · have hx' := hi (Or.inl rfl)
    rw [if_pos (show FP.isInf .ninf = true from rfl), if_neg hx'.1, if_neg hx'.2]
    rcases toE_cases hx with rfl | rfl | ⟨ex, -⟩
    · exact absurd rfl hx'.1
    · exact absurd rfl hx'.2
    rw [show FP.signbit .ninf = true from rfl]
    refine ⟨⟨((-(Real.pi / 2) : ℝ) : EReal), ?_, ?_⟩, angle_ne _ _ _ _, angle_in _ _ _ _⟩
    · rw [ex, FP.toE_ninf, filtE_bot, filtE_coe, Filter.prod_pure, tendsto_map'_iff]
      exact (continuous_coe_real_ereal.tendsto _).comp tendsto_th_ybot
    · rw [Fmt.rndE_coe]; rfl
  · have hx' := hi (Or.inr rfl)
    rw [if_pos (show FP.isInf .pinf = true from rfl), if_neg hx'.1, if_neg hx'.2]
    rcases toE_cases hx with rfl | rfl | ⟨ex, -⟩
    · exact absurd rfl hx'.1
    · exact absurd rfl hx'.2
    rw [show FP.signbit .pinf = false from rfl]
    refine ⟨⟨(((Real.pi / 2) : ℝ) : EReal), ?_, ?_⟩, angle_ne _ _ _ _, angle_in _ _ _ _⟩
    · rw [ex, FP.toE_pinf, filtE_top, filtE_coe, Filter.prod_pure, tendsto_map'_iff]
      exact (continuous_coe_real_ereal.tendsto _).comp tendsto_th_ytop
    · rw [Fmt.rndE_coe]; rfl
  · rw [iy, if_neg (by simp)]
    have hyr : y.q ≠ 0 := by
      rintro h; rw [ey, h] at hz; simp at hz
    rcases toE_cases hx with rfl | rfl | ⟨ex, ix⟩
    · show ULim2 φ m thp y .ninf (φ.angle m y.signbit Real.pi)
      rcases lt_or_gt_of_ne hz with g | g
      · have g' : (y.q:ℝ) < 0 := by rw [ey] at g; exact_mod_cast g
        rw [signbit_of_neg g]
        refine ⟨⟨((-Real.pi : ℝ) : EReal), ?_, ?_⟩, angle_ne _ _ _ _, angle_in _ _ _ _⟩
        · rw [ey, FP.toE_ninf, filtE_bot, filtE_coe, Filter.pure_prod, tendsto_map'_iff]
          exact (continuous_coe_real_ereal.tendsto _).comp (tendsto_th_xbot_neg g')
        · rw [Fmt.rndE_coe]; rfl
      · have g' : 0 < (y.q:ℝ) := by rw [ey] at g; exact_mod_cast g
        rw [signbit_of_pos g]
        refine ⟨⟨((Real.pi : ℝ) : EReal), ?_, ?_⟩, angle_ne _ _ _ _, angle_in _ _ _ _⟩
        · rw [ey, FP.toE_ninf, filtE_bot, filtE_coe, Filter.pure_prod, tendsto_map'_iff]
          exact (continuous_coe_real_ereal.tendsto _).comp (tendsto_th_xbot g')
        · rw [Fmt.rndE_coe]; rfl
    · show ULim2 φ m thp y .pinf (FP.mkZero y.signbit)
      refine ⟨⟨((0:ℝ):EReal), ?_, by simp⟩, FP.mkZero_ne_nan _, φ.mkZero_in _⟩
      rw [ey, FP.toE_pinf, filtE_top, filtE_coe, Filter.pure_prod, tendsto_map'_iff]
      exact (continuous_coe_real_ereal.tendsto _).comp tendsto_th_xtop
    · have i1 : x ≠ .ninf := by rintro rfl; simp [FP.isInf] at ix
      have i2 : x ≠ .pinf := by rintro rfl; simp [FP.isInf] at ix
      rw [if_neg i1, if_neg i2]
      change ULim2 φ m thp y x (φ.round m (th y.q x.q))
      refine ⟨⟨(th y.q x.q : EReal), ?_, by rw [Fmt.rndE_coe]⟩, φ.round_ne_nan _ _, φ.round_in _ _⟩
      rw [ey, ex, filtE_coe, filtE_coe, Filter.pure_prod, Filter.map_pure]
      exact tendsto_pure_nhds _ _

end P1788
