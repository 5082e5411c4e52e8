import Verif.Lemmas.Ops
import Verif.Props.C22
import Verif.Props.C07
import Verif.Lemmas.Rev

/-! # C52: algebraic laws

Laws of real arithmetic between single calls carry over to intervals, whatever the rounding: both sides compare equal
(`equal`, i.e. `==`).  Laws that involve intermediate results do not (`C52_false_assoc`, `C52_false_distrib`). -/

namespace P1788
variable {φ : Fmt} {x y z : Itv}

theorem tight_equal {R R' : Itv} {S S' : Set ℝ} (h : Tightest φ R S) (h' : Tightest φ R' S') (e : S = S') :
    R.equal R' = true := by
  subst e
  exact (C22_equal h.1 h'.1).mpr (Set.Subset.antisymm (h.2.2 _ h'.1 h'.2.1) (h'.2.2 _ h.1 h.2.1))

/-- The negative of a tightest interval is the tightest interval of the negatives. -/
theorem Tightest.neg {R : Itv} {S : Set ℝ} (h : Tightest φ R S) : Tightest φ (Fmt.negI R) {z | ∃ a ∈ S, z = -a} := by
  obtain ⟨⟨o, -⟩, e⟩ := C04_neg φ h.1
  refine ⟨o, ?_, fun Y hY hs => ?_⟩
  · rw [e]; rintro _ ⟨a, ha, rfl⟩; exact ⟨a, h.2.1 ha, rfl⟩
  · obtain ⟨⟨o', -⟩, e'⟩ := C04_neg φ hY
    rw [e]
    rintro _ ⟨a, ha, rfl⟩
    have : a ∈ (Fmt.negI Y).set := h.2.2 _ o' (by
      intro b hb; rw [e']; exact ⟨-b, hs ⟨b, hb, rfl⟩, by simp⟩) ha
    rw [e'] at this
    obtain ⟨c, hc, rfl⟩ := this
    simpa using hc

/-- The point interval of a representable number. -/
theorem point {q : ℚ} (h : φ.Rep q) : (Itv.mk (.fin q) (.fin q)).Ok φ ∧ ∀ r : ℝ, r ∈ (Itv.mk (.fin q) (.fin q)).set ↔ r = q := by
  have h1 : (Itv.mk (.fin q) (.fin q)).NE φ := ⟨by simp, by simp, le_rfl, by simp, by simp, h, h⟩
  exact ⟨h1.ok, fun r => ⟨fun ⟨a, b⟩ => le_antisymm b a, fun h => h ▸ ⟨le_refl (q:ℝ), le_refl (q:ℝ)⟩⟩⟩

/-- **C52**, commutativity. -/
theorem C52_comm (hx : x.Ok φ) (hy : y.Ok φ) (hz : z.Ok φ) :
    (φ.addI x y).equal (φ.addI y x) = true ∧ (φ.mulI x y).equal (φ.mulI y x) = true ∧
    (Fmt.minI x y).equal (Fmt.minI y x) = true ∧ (Fmt.maxI x y).equal (Fmt.maxI y x) = true ∧
    (φ.fmaI x y z).equal (φ.fmaI y x z) = true := by
  refine ⟨tight_equal (C01_add φ hx hy) (C01_add φ hy hx) ?_, tight_equal (C02_mul φ hx hy) (C02_mul φ hy hx) ?_,
    (C22_equal (C05_min φ hx hy).1 (C05_min φ hy hx).1).mpr ?_,
    (C22_equal (C05_max φ hx hy).1 (C05_max φ hy hx).1).mpr ?_,
    tight_equal (C06_fma φ hx hy hz) (C06_fma φ hy hx hz) ?_⟩
  · ext w; constructor <;> rintro ⟨a, ha, b, hb, rfl⟩ <;> exact ⟨b, hb, a, ha, add_comm _ _⟩
  · ext w; constructor <;> rintro ⟨a, ha, b, hb, rfl⟩ <;> exact ⟨b, hb, a, ha, mul_comm _ _⟩
  · rw [(C05_min φ hx hy).2, (C05_min φ hy hx).2]
    ext w; constructor <;> rintro ⟨a, ha, b, hb, rfl⟩ <;> exact ⟨b, hb, a, ha, min_comm _ _⟩
  · rw [(C05_max φ hx hy).2, (C05_max φ hy hx).2]
    ext w; constructor <;> rintro ⟨a, ha, b, hb, rfl⟩ <;> exact ⟨b, hb, a, ha, max_comm _ _⟩
  · ext w
    constructor <;> rintro ⟨a, ha, b, hb, c, hc, rfl⟩ <;> exact ⟨b, hb, a, ha, c, hc, by rw [mul_comm]⟩

/-- **C52**, signs: `-(-x) = x`, `x - y = x + (-y) = -(y - x)`, `-(x + y) = (-x) + (-y)`, `(-x)·y = -(x·y)`,
`(-x) / y = -(x / y) = x / (-y)`, `max(x, y) = -min(-x, -y)`. -/
theorem C52_signs (hx : x.Ok φ) (hy : y.Ok φ) :
    (Fmt.negI (Fmt.negI x)).equal x = true ∧ (φ.subI x y).equal (φ.addI x (Fmt.negI y)) = true ∧
    (φ.subI x y).equal (Fmt.negI (φ.subI y x)) = true ∧
    (Fmt.negI (φ.addI x y)).equal (φ.addI (Fmt.negI x) (Fmt.negI y)) = true ∧
    (φ.mulI (Fmt.negI x) y).equal (Fmt.negI (φ.mulI x y)) = true ∧
    (φ.divI (Fmt.negI x) y).equal (Fmt.negI (φ.divI x y)) = true ∧
    (φ.divI x (Fmt.negI y)).equal (Fmt.negI (φ.divI x y)) = true ∧
    (Fmt.maxI x y).equal (Fmt.negI (Fmt.minI (Fmt.negI x) (Fmt.negI y))) = true := by
  obtain ⟨⟨ox, -⟩, ex⟩ := C04_neg φ hx
  obtain ⟨⟨oy, -⟩, ey⟩ := C04_neg φ hy
  have mx : ∀ r : ℝ, r ∈ (Fmt.negI x).set ↔ -r ∈ x.set := fun r => by
    rw [ex]; exact ⟨fun ⟨a, ha, h⟩ => by rw [h, neg_neg]; exact ha, fun h => ⟨-r, h, by simp⟩⟩
  have my : ∀ r : ℝ, r ∈ (Fmt.negI y).set ↔ -r ∈ y.set := fun r => by
    rw [ey]; exact ⟨fun ⟨a, ha, h⟩ => by rw [h, neg_neg]; exact ha, fun h => ⟨-r, h, by simp⟩⟩
  have nx : ∀ r : ℝ, r ∈ x.set → -r ∈ (Fmt.negI x).set := fun r h => (mx _).mpr (by rwa [neg_neg])
  have ny : ∀ r : ℝ, r ∈ y.set → -r ∈ (Fmt.negI y).set := fun r h => (my _).mpr (by rwa [neg_neg])
  refine ⟨?_, tight_equal (C01_sub φ hx hy) (C01_add φ hx oy) ?_, tight_equal (C01_sub φ hx hy) (C01_sub φ hy hx).neg ?_,
    tight_equal (C01_add φ hx hy).neg (C01_add φ ox oy) ?_, tight_equal (C02_mul φ ox hy) (C02_mul φ hx hy).neg ?_,
    tight_equal (C03_div φ ox hy) (C03_div φ hx hy).neg ?_, tight_equal (C03_div φ hx oy) (C03_div φ hx hy).neg ?_, ?_⟩
  · refine (C22_equal (C04_neg φ ox).1.1 hx).mpr ?_
    rw [(C04_neg φ ox).2]
    ext w
    exact ⟨fun ⟨a, ha, h⟩ => h ▸ (mx a).mp ha, fun h => ⟨-w, nx w h, by simp⟩⟩
  · ext w; constructor
    · rintro ⟨a, ha, b, hb, rfl⟩; exact ⟨a, ha, -b, ny b hb, by ring⟩
    · rintro ⟨a, ha, b, hb, rfl⟩; exact ⟨a, ha, -b, (my b).mp hb, by ring⟩
  · ext w; constructor
    · rintro ⟨a, ha, b, hb, rfl⟩; exact ⟨_, ⟨b, hb, a, ha, rfl⟩, by ring⟩
    · rintro ⟨_, ⟨b, hb, a, ha, rfl⟩, rfl⟩; exact ⟨a, ha, b, hb, by ring⟩
  · ext w; constructor
    · rintro ⟨_, ⟨a, ha, b, hb, rfl⟩, rfl⟩; exact ⟨-a, nx a ha, -b, ny b hb, by ring⟩
    · rintro ⟨a, ha, b, hb, rfl⟩; exact ⟨_, ⟨-a, (mx a).mp ha, -b, (my b).mp hb, rfl⟩, by ring⟩
  · ext w; constructor
    · rintro ⟨a, ha, b, hb, rfl⟩; exact ⟨_, ⟨-a, (mx a).mp ha, b, hb, rfl⟩, by ring⟩
    · rintro ⟨_, ⟨a, ha, b, hb, rfl⟩, rfl⟩; exact ⟨-a, nx a ha, b, hb, by ring⟩
  · ext w; constructor
    · rintro ⟨a, ha, b, hb, h0, rfl⟩; exact ⟨_, ⟨-a, (mx a).mp ha, b, hb, h0, rfl⟩, by ring⟩
    · rintro ⟨_, ⟨a, ha, b, hb, h0, rfl⟩, rfl⟩; exact ⟨-a, nx a ha, b, hb, h0, by ring⟩
  · ext w; constructor
    · rintro ⟨a, ha, b, hb, h0, rfl⟩
      exact ⟨_, ⟨a, ha, -b, (my b).mp hb, by simpa using h0, rfl⟩, by rw [div_neg, neg_neg]⟩
    · rintro ⟨_, ⟨a, ha, b, hb, h0, rfl⟩, rfl⟩
      exact ⟨a, ha, -b, ny b hb, by simpa using h0, by rw [div_neg]⟩
  · obtain ⟨o1, e1⟩ := C05_max φ hx hy
    obtain ⟨o2, e2⟩ := C05_min φ ox oy
    refine (C22_equal o1 (C04_neg φ o2).1.1).mpr ?_
    rw [(C04_neg φ o2).2, e1, e2]
    ext w; constructor
    · rintro ⟨a, ha, b, hb, rfl⟩
      exact ⟨_, ⟨-a, nx a ha, -b, ny b hb, rfl⟩, by rw [min_neg_neg, neg_neg]⟩
    · rintro ⟨_, ⟨a, ha, b, hb, rfl⟩, rfl⟩
      exact ⟨-a, (mx a).mp ha, -b, (my b).mp hb, by rw [max_neg_neg]⟩

/-- **C52**, neutral elements: `x + 0 = x`, `x · 1 = x`, `x / 1 = x`, `1 / x = recip(x)`, `x·y + 0 = x·y`,
`1·x + y = x + y`. -/
theorem C52_units (hx : x.Ok φ) (hy : y.Ok φ) :
    (φ.addI x ⟨.fin 0, .fin 0⟩).equal x = true ∧ (φ.mulI x ⟨.fin 1, .fin 1⟩).equal x = true ∧
    (φ.divI x ⟨.fin 1, .fin 1⟩).equal x = true ∧ (φ.divI ⟨.fin 1, .fin 1⟩ x).equal (φ.recipI x) = true ∧
    (φ.fmaI x y ⟨.fin 0, .fin 0⟩).equal (φ.mulI x y) = true ∧
    (φ.fmaI ⟨.fin 1, .fin 1⟩ x y).equal (φ.addI x y) = true := by
  obtain ⟨o0, m0⟩ := point φ.rep_zero
  obtain ⟨o1, m1⟩ := point (rep_one φ)
  simp only [Rat.cast_zero, Rat.cast_one] at m0 m1
  have tx := tight_of_eq hx rfl
  refine ⟨tight_equal (C01_add φ hx o0) tx ?_, tight_equal (C02_mul φ hx o1) tx ?_, tight_equal (C03_div φ hx o1) tx ?_,
    tight_equal (C03_div φ o1 hx) (C03_recip φ hx) ?_, tight_equal (C06_fma φ hx hy o0) (C02_mul φ hx hy) ?_,
    tight_equal (C06_fma φ o1 hx hy) (C01_add φ hx hy) ?_⟩
  · ext w; simp [m0]
  · ext w; simp [m1]
  · ext w; simp [m1]
  · ext w; simp [m1]
  · ext w; simp [m0]
  · ext w; simp [m1]

/-- **C52**, powers: `pown(x, 2) = sqr(x) = sqr(-x) = sqr(|x|)`, `pown(x, 1) = x`, `pown(x, -1) = recip(x)`,
`sqr(x) ⊆ x · x`. -/
theorem C52_powers (hx : x.Ok φ) :
    (φ.pownI x 2).equal (φ.sqrI x) = true ∧ (φ.sqrI (Fmt.negI x)).equal (φ.sqrI x) = true ∧
    (φ.sqrI (Fmt.absI x)).equal (φ.sqrI x) = true ∧ (φ.pownI x 1).equal x = true ∧
    (φ.pownI x (-1)).equal (φ.recipI x) = true ∧ (φ.sqrI x).subset (φ.mulI x x) = true := by
  obtain ⟨⟨ox, -⟩, ex⟩ := C04_neg φ hx
  obtain ⟨⟨ax, -⟩, eax⟩ := C04_abs φ hx
  refine ⟨tight_equal (C07_pown φ hx 2) (C04_sqr φ hx) ?_, tight_equal (C04_sqr φ ox) (C04_sqr φ hx) ?_,
    tight_equal (C04_sqr φ ax) (C04_sqr φ hx) ?_, tight_equal (C07_pown φ hx 1) (tight_of_eq hx rfl) ?_,
    tight_equal (C07_pown φ hx (-1)) (C03_recip φ hx) ?_, ?_⟩
  · ext w; simp
  · rw [ex]; ext w; constructor
    · rintro ⟨_, ⟨a, ha, rfl⟩, rfl⟩; exact ⟨a, ha, by ring⟩
    · rintro ⟨a, ha, rfl⟩; exact ⟨_, ⟨a, ha, rfl⟩, by ring⟩
  · rw [eax]; ext w; constructor
    · rintro ⟨_, ⟨a, ha, rfl⟩, rfl⟩; exact ⟨a, ha, (sq_abs a).symm⟩
    · rintro ⟨a, ha, rfl⟩; exact ⟨_, ⟨a, ha, rfl⟩, sq_abs a⟩
  · ext w; simp
  · ext w; constructor
    · rintro ⟨a, ⟨ha, h0⟩, rfl⟩; exact ⟨a, ha, h0 (by norm_num), by simp⟩
    · rintro ⟨a, ha, h0, rfl⟩; exact ⟨a, ⟨ha, fun _ => h0⟩, by simp⟩
  · refine (C22_subset (C04_sqr φ hx).1 (C02_mul φ hx hx).1).mpr ((C04_sqr φ hx).2.2 _ (C02_mul φ hx hx).1 ?_)
    rintro _ ⟨a, ha, rfl⟩
    exact (C02_mul φ hx hx).2.1 ⟨a, ha, a, ha, by ring⟩

/-- The even functions. -/
def Op1.EvenFn (op : Op1) : Prop := op = .abs ∨ op = .sqr ∨ op = .cos ∨ op = .cosh

/-- The odd functions. -/
def Op1.OddFn (op : Op1) : Prop :=
  op = .neg ∨ op = .pos ∨ op = .recip ∨ op = .sin ∨ op = .tan ∨ op = .asin ∨ op = .atan ∨ op = .sinh ∨ op = .tanh ∨
  op = .asinh ∨ op = .atanh ∨ op = .sign ∨ op = .trunc ∨ op = .roundAway ∨ op = .roundEven

theorem Op1.EvenFn.fn {op : Op1} (h : op.EvenFn) (a : ℝ) : op.fn (-a) = op.fn a ∧ (-a ∈ op.dom ↔ a ∈ op.dom) := by
  rcases h with rfl | rfl | rfl | rfl <;> refine ⟨?_, Iff.rfl⟩ <;> simp [Op1.fn]

theorem roundEvenR_neg (r : ℝ) : roundEvenR (-r) = -roundEvenR r := by
  have h1 := Int.floor_le r
  have h2 := Int.lt_floor_add_one r
  rcases eq_or_lt_of_le h1 with h0 | h0
  · have e : ⌊-r⌋ = -⌊r⌋ := by rw [Int.floor_eq_iff]; push_cast; constructor <;> linarith
    unfold roundEvenR
    rw [e, if_pos (by push_cast; linarith), if_pos (by linarith)]
  · have e : ⌊-r⌋ = -⌊r⌋ - 1 := by rw [Int.floor_eq_iff]; push_cast; constructor <;> linarith
    unfold roundEvenR
    rw [e]
    rcases lt_trichotomy (r - ⌊r⌋) (1 / 2) with h | h | h
    · rw [if_neg (by push_cast; linarith), if_pos (by push_cast; linarith), if_pos h]; ring
    · have g1 : ¬(-r - ((-⌊r⌋ - 1 : ℤ):ℝ) < 1 / 2) := by push_cast; linarith
      have g2 : ¬(1 / 2 < -r - ((-⌊r⌋ - 1 : ℤ):ℝ)) := by push_cast; linarith
      have g3 : ¬(r - (⌊r⌋:ℝ) < 1 / 2) := by linarith
      have g4 : ¬(1 / 2 < r - (⌊r⌋:ℝ)) := by linarith
      rw [if_neg g1, if_neg g2, if_neg g3, if_neg g4]
      have g5 : Even (-⌊r⌋ - 1) ↔ ¬Even ⌊r⌋ := by simp [Int.even_sub]
      by_cases hv : Even ⌊r⌋
      · rw [if_pos hv, if_neg (fun h => g5.mp h hv)]; ring
      · rw [if_neg hv, if_pos (g5.mpr hv)]; ring
    · rw [if_pos (by push_cast; linarith), if_neg (by linarith), if_pos h]; ring

theorem Op1.OddFn.fn {op : Op1} (h : op.OddFn) (a : ℝ) : op.fn (-a) = -op.fn a ∧ (-a ∈ op.dom ↔ a ∈ op.dom) := by
  rcases h with rfl | rfl | rfl | rfl | rfl | rfl | rfl | rfl | rfl | rfl | rfl | rfl | rfl | rfl | rfl
  · exact ⟨by simp [Op1.fn], Iff.rfl⟩
  · exact ⟨by simp [Op1.fn], Iff.rfl⟩
  · exact ⟨by simp [Op1.fn, div_neg], by simp [Op1.dom]⟩
  · exact ⟨by simp [Op1.fn], Iff.rfl⟩
  · exact ⟨by simp [Op1.fn], by simp [Op1.dom]⟩
  · refine ⟨by simp [Op1.fn], ?_⟩
    simp only [Op1.dom, Set.mem_ofPred_eq]; constructor <;> rintro ⟨h1, h2⟩ <;> constructor <;> linarith
  · exact ⟨by simp [Op1.fn], Iff.rfl⟩
  · exact ⟨by simp [Op1.fn], Iff.rfl⟩
  · exact ⟨by simp [Op1.fn], Iff.rfl⟩
  · exact ⟨by simp [Op1.fn], Iff.rfl⟩
  · refine ⟨?_, ?_⟩
    · simp only [Op1.fn, Real.artanh]
      rw [sub_neg_eq_add, ← sub_eq_add_neg, ← inv_div, Real.sqrt_inv, Real.log_inv]
    · simp only [Op1.dom, Set.mem_ofPred_eq]; constructor <;> rintro ⟨h1, h2⟩ <;> constructor <;> linarith
  · exact ⟨Real.sign_neg, Iff.rfl⟩
  · refine ⟨?_, Iff.rfl⟩
    simp only [Op1.fn, truncR]
    rcases lt_trichotomy a 0 with h | h | h
    · rw [if_pos (by linarith), if_neg (by linarith), Int.floor_neg]; simp
    · subst h; simp
    · rw [if_neg (by linarith), if_pos (by linarith), Int.ceil_neg]; simp
  · refine ⟨?_, Iff.rfl⟩
    simp only [Op1.fn, roundAwayR]
    rcases lt_trichotomy a 0 with h | h | h
    · rw [if_pos (by linarith), if_neg (by linarith), show -a + 1 / 2 = -(a - 1 / 2) by ring, Int.floor_neg]; simp
    · subst h; norm_num
    · rw [if_neg (by linarith), if_pos (by linarith), show -a - 1 / 2 = -(a + 1 / 2) by ring, Int.ceil_neg]; simp
  · refine ⟨?_, Iff.rfl⟩
    simp only [Op1.fn, roundEvenR_neg]; push_cast; rfl

/-- The tangent of `-x`. -/
theorem tan_odd (hx : x.Ok φ) : (φ.tanI (Fmt.negI x)).set = (Fmt.negI (φ.tanI x)).set := by
  rcases hx.cases with rfl | hN
  · simp [Fmt.negI, Fmt.tanI]
  have ent : Fmt.negI Itv.entire = Itv.entire := rfl
  have hneg := negI_ne hN
  have hM : (Fmt.negI x).NE φ := by
    rw [hneg]
    exact ⟨by simpa using hN.hi_ne, by simpa using hN.lo_ne, by simpa using hN.le, by simpa using hN.hi_bot,
      by simpa using hN.lo_top, FP.neg_in hN.hi_in, FP.neg_in hN.lo_in⟩
  by_cases hinf : x.lo = .ninf ∨ x.hi = .pinf
  · rw [tanI_inf hN hinf, tanI_inf hM (by rw [hneg]; rcases hinf with h | h <;> simp [h, FP.neg]), ent]
  obtain ⟨a, b, ha, hb⟩ := fin_bounds hN hinf
  have ha' : (Fmt.negI x).lo.toE = ((-b : ℝ):EReal) := by rw [hneg]; simp [hb]
  have hb' : (Fmt.negI x).hi.toE = ((-a : ℝ):EReal) := by rw [hneg]; simp [ha]
  obtain ⟨p1, p2, p3, n1, i1, e1, n2, i2, e2⟩ := tanI_fin hN ha hb
  obtain ⟨q1, q2, q3, m1, j1, f1, m2, j2, f2⟩ := tanI_fin hM ha' hb'
  have w : -a - -b = b - a := by ring
  have r1 : φ.rdE ((Real.tan (-b) : ℝ):EReal) = -φ.ruE ((Real.tan b : ℝ):EReal) := by
    rw [Real.tan_neg, EReal.coe_neg, Fmt.rdE_neg]
  have r2 : φ.ruE ((Real.tan (-a) : ℝ):EReal) = -φ.rdE ((Real.tan a : ℝ):EReal) := by
    rw [Real.tan_neg, EReal.coe_neg, Fmt.ruE_neg]
  rw [w] at q1 q2 q3
  rw [r1, r2] at q2 q3
  rw [r1] at f1
  rw [r2] at f2
  rcases lt_or_ge (φ.rdE (Real.pi:ℝ)) ((b - a : ℝ):EReal) with hw | hw
  · rw [p1 hw, q1 hw, ent]
  rcases lt_or_ge (φ.ruE ((Real.tan b : ℝ):EReal)) (φ.rdE ((Real.tan a : ℝ):EReal)) with hr | hr
  · rw [p2 hw hr, q2 hw (EReal.neg_lt_neg_iff.mpr hr), ent]
  have o1 := Op1.bare_ok .tan hx
  have o2 := Op1.bare_ok .tan hM.ok
  simp only [Op1.bare] at o1 o2
  rw [p3 hw hr] at o1 ⊢
  rw [q3 hw (EReal.neg_le_neg_iff.mpr hr)] at o2 ⊢
  have N1 : (Itv.mk (φ.tanF .D x.lo) (φ.tanF .U x.hi)).NE φ :=
    o1.cases.resolve_left fun h => n1 (congrArg Itv.lo h)
  have N2 : (Itv.mk (φ.tanF .D (Fmt.negI x).lo) (φ.tanF .U (Fmt.negI x).hi)).NE φ :=
    o2.cases.resolve_left fun h => m1 (congrArg Itv.lo h)
  rw [(C04_neg φ o1).2]
  ext t
  rw [N2.mem, Set.mem_ofPred_eq, f1, f2]
  constructor
  · rintro ⟨h1, h2⟩
    refine ⟨-t, N1.mem.mpr ⟨?_, ?_⟩, by simp⟩
    · rw [e1, EReal.coe_neg, EReal.le_neg]; exact h2
    · rw [e2, EReal.coe_neg, EReal.neg_le]; exact h1
  · rintro ⟨s, hs, rfl⟩
    obtain ⟨h1, h2⟩ := N1.mem.mp hs
    rw [e1] at h1
    rw [e2] at h2
    rw [EReal.coe_neg]
    exact ⟨EReal.neg_le_neg_iff.mpr h2, EReal.neg_le_neg_iff.mpr h1⟩

/-- **C52**, symmetry: `f(-x) = f(x)` for `abs`, `sqr`, `cos`, `cosh`. -/
theorem C52_even (op : Op1) (h : op.EvenFn) (hx : x.Ok φ) : (op.bare φ (Fmt.negI x)).equal (op.bare φ x) = true := by
  obtain ⟨⟨ox, -⟩, ex⟩ := C04_neg φ hx
  have ht : op ≠ .tan := by rintro rfl; simp [Op1.EvenFn] at h
  refine tight_equal (op.tight ht ox) (op.tight ht hx) ?_
  rw [ex]
  ext w; constructor
  · rintro ⟨_, ⟨⟨a, ha, rfl⟩, hd⟩, rfl⟩; exact ⟨a, ⟨ha, (h.fn a).2.mp hd⟩, (h.fn a).1.symm⟩
  · rintro ⟨a, ⟨ha, hd⟩, rfl⟩; exact ⟨-a, ⟨⟨a, ha, rfl⟩, (h.fn a).2.mpr hd⟩, (h.fn a).1⟩

/-- **C52**, antisymmetry: `f(-x) = -f(x)` for the odd functions, the tangent included. -/
theorem C52_odd (op : Op1) (h : op.OddFn) (hx : x.Ok φ) :
    (op.bare φ (Fmt.negI x)).equal (Fmt.negI (op.bare φ x)) = true := by
  obtain ⟨⟨ox, -⟩, ex⟩ := C04_neg φ hx
  by_cases ht : op = .tan
  · subst ht
    exact (C22_equal (Op1.bare_ok .tan ox) (C04_neg φ (Op1.bare_ok .tan hx)).1.1).mpr (tan_odd hx)
  refine tight_equal (op.tight ht ox) (op.tight ht hx).neg ?_
  rw [ex]
  ext w; constructor
  · rintro ⟨_, ⟨⟨a, ha, rfl⟩, hd⟩, rfl⟩; exact ⟨_, ⟨a, ⟨ha, (h.fn a).2.mp hd⟩, rfl⟩, (h.fn a).1⟩
  · rintro ⟨_, ⟨a, ⟨ha, hd⟩, rfl⟩, rfl⟩; exact ⟨-a, ⟨⟨a, ha, rfl⟩, (h.fn a).2.mpr hd⟩, (h.fn a).1⟩

/-- Pairs of functions with `g(f(a)) = a` wherever `f(a)` is defined. -/
def Op1.Inverse (f g : Op1) : Prop :=
  (f, g) ∈ [(Op1.exp, Op1.log), (.log, .exp), (.exp2, .log2), (.log2, .exp2), (.exp10, .log10), (.log10, .exp10),
    (.sqrt, .sqr), (.neg, .neg), (.recip, .recip), (.sinh, .asinh), (.asinh, .sinh), (.tanh, .atanh), (.atanh, .tanh),
    (.acosh, .cosh), (.asin, .sin), (.acos, .cos)]

theorem Op1.Inverse.fn {f g : Op1} (h : f.Inverse g) {a : ℝ} (ha : a ∈ f.dom) : f.fn a ∈ g.dom ∧ g.fn (f.fn a) = a := by
  simp only [Op1.Inverse, List.mem_cons, Prod.mk.injEq, List.not_mem_nil, or_false] at h
  rcases h with ⟨rfl, rfl⟩ | ⟨rfl, rfl⟩ | ⟨rfl, rfl⟩ | ⟨rfl, rfl⟩ | ⟨rfl, rfl⟩ | ⟨rfl, rfl⟩ | ⟨rfl, rfl⟩ | ⟨rfl, rfl⟩ |
    ⟨rfl, rfl⟩ | ⟨rfl, rfl⟩ | ⟨rfl, rfl⟩ | ⟨rfl, rfl⟩ | ⟨rfl, rfl⟩ | ⟨rfl, rfl⟩ | ⟨rfl, rfl⟩ | ⟨rfl, rfl⟩ <;>
    simp only [Op1.dom, Op1.fn, Set.mem_ofPred_eq, Set.mem_univ, true_and] at ha ⊢
  · exact ⟨Real.exp_pos a, Real.log_exp a⟩
  · exact Real.exp_log ha
  · exact ⟨Real.rpow_pos_of_pos two_pos a, Real.logb_rpow two_pos (by norm_num)⟩
  · exact Real.rpow_logb two_pos (by norm_num) ha
  · exact ⟨Real.rpow_pos_of_pos (by norm_num) a, Real.logb_rpow (by norm_num) (by norm_num)⟩
  · exact Real.rpow_logb (by norm_num) (by norm_num) ha
  · exact Real.sq_sqrt ha
  · exact neg_neg a
  · exact ⟨one_div_ne_zero ha, one_div_one_div a⟩
  · exact Real.arsinh_sinh a
  · exact Real.sinh_arsinh a
  · exact ⟨⟨Real.neg_one_lt_tanh a, Real.tanh_lt_one a⟩, Real.artanh_tanh a⟩
  · exact Real.tanh_artanh ha
  · exact Real.cosh_arcosh ha
  · exact Real.sin_arcsin ha.1 ha.2
  · exact Real.cos_arccos ha.1 ha.2

/-- **C52**, inverse functions: `g(f(x))` contains the part of `x` where `f` is defined. -/
theorem C52_inverse {f g : Op1} (h : f.Inverse g) (hx : x.Ok φ) {a : ℝ} (ha : a ∈ x.set) (hd : a ∈ f.dom) :
    a ∈ (g.bare φ (f.bare φ x)).set := by
  have hf : f = .tan → NoCritical φ := by rintro rfl; simp [Op1.Inverse] at h
  have hg : g = .tan → NoCritical φ := by rintro rfl; simp [Op1.Inverse] at h
  have := Op1.encl hg (f.bare_ok hx) (Op1.encl hf hx ha hd) (h.fn hd).1
  rwa [(h.fn hd).2] at this

/-- **C52**, undoing: `x ⊆ (x + y) - y`, `x ⊆ (x - y) + y`, `0 ∈ x - x`, and `x ⊆ (x · y) / y` if `y` has a member other
than zero. -/
theorem C52_undo (hx : x.Ok φ) (hy : y.Ok φ) (hn : y.set.Nonempty) :
    x.subset (φ.subI (φ.addI x y) y) = true ∧ x.subset (φ.addI (φ.subI x y) y) = true ∧
    (0:ℝ) ∈ (φ.subI y y).set ∧ ((∃ b ∈ y.set, b ≠ 0) → x.subset (φ.divI (φ.mulI x y) y) = true) := by
  obtain ⟨b, hb⟩ := hn
  have a1 := C01_add φ hx hy
  have a2 := C01_sub φ hx hy
  have a3 := C02_mul φ hx hy
  refine ⟨(C22_subset hx (C01_sub φ a1.1 hy).1).mpr fun a ha => ?_,
    (C22_subset hx (C01_add φ a2.1 hy).1).mpr fun a ha => ?_, ?_,
    fun ⟨c, hc, h0⟩ => (C22_subset hx (C03_div φ a3.1 hy).1).mpr fun a ha => ?_⟩
  · exact (C01_sub φ a1.1 hy).2.1 ⟨a + b, a1.2.1 ⟨a, ha, b, hb, rfl⟩, b, hb, by ring⟩
  · exact (C01_add φ a2.1 hy).2.1 ⟨a - b, a2.2.1 ⟨a, ha, b, hb, rfl⟩, b, hb, by ring⟩
  · exact (C01_sub φ hy hy).2.1 ⟨b, hb, b, hb, by ring⟩
  · exact (C03_div φ a3.1 hy).2.1 ⟨a * c, a3.2.1 ⟨a, ha, c, hc, rfl⟩, c, hc, h0, by field_simp⟩

/-- **C52**, `floor(-x) = -ceil(x)`. -/
theorem C52_floor_ceil (hx : x.Ok φ) : (Fmt.floorI (Fmt.negI x)).equal (Fmt.negI (Fmt.ceilI x)) = true := by
  obtain ⟨⟨ox, -⟩, ex⟩ := C04_neg φ hx
  refine tight_equal (Op1.tight (op := .floor) (by simp) ox) (Op1.tight (op := .ceil) (by simp) hx).neg ?_
  rw [ex]
  ext w; constructor
  · rintro ⟨_, ⟨⟨a, ha, rfl⟩, hd⟩, rfl⟩
    exact ⟨_, ⟨a, ⟨ha, trivial⟩, rfl⟩, by simp [Op1.fn, Int.floor_neg]⟩
  · rintro ⟨_, ⟨a, ⟨ha, hd⟩, rfl⟩, rfl⟩; exact ⟨-a, ⟨⟨a, ha, rfl⟩, trivial⟩, by simp [Op1.fn, Int.floor_neg]⟩

/-- Non-vacuity: the laws compare intervals that are not exact: `1/3 - 1/10` for `double`. -/
example : (binary64.recipI ⟨.fin 3, .fin 3⟩).Ok binary64 ∧ (binary64.recipI ⟨.fin 10, .fin 10⟩).Ok binary64 ∧
    (binary64.subI (binary64.recipI ⟨.fin 3, .fin 3⟩) (binary64.recipI ⟨.fin 10, .fin 10⟩)).equal
      (Fmt.negI (binary64.subI (binary64.recipI ⟨.fin 10, .fin 10⟩) (binary64.recipI ⟨.fin 3, .fin 3⟩))) = true ∧
    (binary64.recipI ⟨.fin 3, .fin 3⟩).isSingleton = false :=
  ⟨Itv.ok_of_okb (by decide +kernel), Itv.ok_of_okb (by decide +kernel), by decide +kernel, by decide +kernel⟩

/-- Addition is not associative: `1 + 2^53 - 2^53`. -/
theorem C52_false_assoc : ∃ x y z : Itv, x.Ok binary64 ∧ y.Ok binary64 ∧ z.Ok binary64 ∧
    (binary64.addI (binary64.addI x y) z).equal (binary64.addI x (binary64.addI y z)) = false :=
  ⟨⟨.fin 1, .fin 1⟩, ⟨.fin (2 ^ 53), .fin (2 ^ 53)⟩, ⟨.fin (-2 ^ 53), .fin (-2 ^ 53)⟩,
    Itv.ok_of_okb (by decide +kernel), Itv.ok_of_okb (by decide +kernel), Itv.ok_of_okb (by decide +kernel),
    by decide +kernel⟩

/-- Not even subdistributivity, `x·(y + z) ⊆ x·y + x·z`, survives rounding. -/
theorem C52_false_distrib : ∃ x y z : Itv, x.Ok binary64 ∧ y.Ok binary64 ∧ z.Ok binary64 ∧
    (binary64.mulI x (binary64.addI y z)).subset (binary64.addI (binary64.mulI x y) (binary64.mulI x z)) = false :=
  ⟨⟨.fin 3, .fin 3⟩, ⟨.fin 1, .fin 1⟩, ⟨.fin (1 / 2 ^ 60), .fin (1 / 2 ^ 60)⟩,
    Itv.ok_of_okb (by decide +kernel), Itv.ok_of_okb (by decide +kernel), Itv.ok_of_okb (by decide +kernel),
    by decide +kernel⟩

end P1788
