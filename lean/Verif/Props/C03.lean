import Verif.Lemmas.Div

/-! # C03: division and reciprocal return the tightest enclosure -/

namespace P1788

set_option maxHeartbeats 1600000 in
/-- `x / y` is the tightest interval around `{a / b | a ∈ x, b ∈ y, b ≠ 0}`; it is empty when there is no such
quotient. -/
theorem C03_div (φ : Fmt) {x y : Itv} (hx : x.Ok φ) (hy : y.Ok φ) :
    Tightest φ (φ.divI x y) {z | ∃ a ∈ x.set, ∃ b ∈ y.set, b ≠ 0 ∧ z = a / b} := by
  rcases hx.cases with rfl | hx
  · exact tightest_empty' (by simp [Fmt.divI]) (by simp)
  rcases hy.cases with rfl | hy
  · exact tightest_empty' (by simp [Fmt.divI]) (by simp)
  unfold Fmt.divI
  simp only [hx.isValid, hy.isValid, hx.isEmpty, hy.isEmpty, Bool.not_true, Bool.or_self, Bool.false_eq_true,
    if_false, NE.isZeroItv_iff hx, NE.isZeroItv_iff hy, NE.lt0_iff hx.lo_ne, NE.lt0_iff hy.lo_ne,
    NE.lt0_iff hy.hi_ne, NE.gt0_iff hx.hi_ne, NE.gt0_iff hy.hi_ne, NE.gt0_iff hy.lo_ne,
    NE.le0_iff hx.hi_ne, NE.ge0_iff hx.lo_ne, NE.eq0_iff hy.lo_ne, NE.eq0_iff hy.hi_ne]
  have e1 := hx.le; have e2 := hy.le
  have e3 := hx.lo_top; have e4 := hx.hi_bot
  have e5 := hy.lo_top; have e6 := hy.hi_bot
  have t1 := zero_lt_top'; have t2 := bot_lt_zero'
  have n1 := hx.lo_ne; have n2 := hx.hi_ne; have n3 := hy.lo_ne; have n4 := hy.hi_ne
  have finish : ∀ {p q r s : FP} {l u : EReal}, Box (quotSet x.set y.set) l u → l = p.toE * q.toE⁻¹ →
      u = r.toE * s.toE⁻¹ → p ≠ .nan → q ≠ .nan → r ≠ .nan → s ≠ .nan → q.toE ≠ 0 → s.toE ≠ 0 →
      ((p.toE = ⊤ ∨ p.toE = ⊥) → q.toE ≠ ⊤ ∧ q.toE ≠ ⊥) → ((r.toE = ⊤ ∨ r.toE = ⊥) → s.toE ≠ ⊤ ∧ s.toE ≠ ⊥) →
      Tightest φ ⟨φ.div .D p q, φ.div .U r s⟩ (quotSet x.set y.set) := by
    intro p q r s l u hB h1 h2 h3 h4 h5 h6 h7 h8 h9 h10
    obtain ⟨a1, b1⟩ := φ.div_spec .D h3 h4 h7 h9
    obtain ⟨a2, b2⟩ := φ.div_spec .U h5 h6 h8 h10
    exact tightest_of_box hB a1 a2 (φ.div_in _ _ _) (φ.div_in _ _ _) (by rw [h1]; exact b1) (by rw [h2]; exact b2)
  have finishU : ∀ {p q : FP} {l : EReal}, Box (quotSet x.set y.set) l ⊤ → l = p.toE * q.toE⁻¹ →
      p ≠ .nan → q ≠ .nan → q.toE ≠ 0 → ((p.toE = ⊤ ∨ p.toE = ⊥) → q.toE ≠ ⊤ ∧ q.toE ≠ ⊥) →
      Tightest φ ⟨φ.div .D p q, .pinf⟩ (quotSet x.set y.set) := by
    intro p q l hB h1 h3 h4 h7 h9
    obtain ⟨a1, b1⟩ := φ.div_spec .D h3 h4 h7 h9
    exact tightest_of_box hB a1 (by simp) (φ.div_in _ _ _) trivial (by rw [h1]; exact b1) (by simp)
  have finishL : ∀ {r s : FP} {u : EReal}, Box (quotSet x.set y.set) ⊥ u → u = r.toE * s.toE⁻¹ →
      r ≠ .nan → s ≠ .nan → s.toE ≠ 0 → ((r.toE = ⊤ ∨ r.toE = ⊥) → s.toE ≠ ⊤ ∧ s.toE ≠ ⊥) →
      Tightest φ ⟨.ninf, φ.div .U r s⟩ (quotSet x.set y.set) := by
    intro p q l hB h1 h3 h4 h7 h9
    obtain ⟨a1, b1⟩ := φ.div_spec .U h3 h4 h7 h9
    exact tightest_of_box hB (by simp) a1 trivial (φ.div_in _ _ _) (by simp) (by rw [h1]; exact b1)
  have hS : ∀ {l u : EReal}, Box (prodSet x.set (invSet (Seg y.lo.toE y.hi.toE))) l u →
      Box (quotSet x.set y.set) l u := by
    intro l u h; rw [← hy.set_eq] at h; rwa [quotSet_eq] at h
  have hneg : y.hi.toE < 0 → Box (invSet (Seg y.lo.toE y.hi.toE)) y.hi.toE⁻¹ y.lo.toE⁻¹ := invBox_neg hy.seg
  have hpos : 0 < y.lo.toE → Box (invSet (Seg y.lo.toE y.hi.toE)) y.hi.toE⁻¹ y.lo.toE⁻¹ := invBox_pos hy.seg
  have hneg0 : y.hi.toE = 0 → y.lo.toE < 0 → Box (invSet (Seg y.lo.toE y.hi.toE)) ⊥ y.lo.toE⁻¹ := by
    intro h h'; rw [h]; exact invBox_neg0 h'
  have hpos0 : y.lo.toE = 0 → 0 < y.hi.toE → Box (invSet (Seg y.lo.toE y.hi.toE)) y.hi.toE⁻¹ ⊤ := by
    intro h h'; rw [h]; exact invBox_pos0 h'
  have inonpos : ∀ {a : EReal}, a ≤ 0 → a⁻¹ ≤ 0 := fun h => EReal.inv_nonpos_of_nonpos h
  have inonneg : ∀ {a : EReal}, 0 ≤ a → 0 ≤ a⁻¹ := fun h => EReal.inv_nonneg_of_nonneg h
  by_cases zy : y.lo.toE = 0 ∧ y.hi.toE = 0
  · rw [if_pos zy]
    refine tightest_empty' rfl ?_
    rw [NE.set_zero hy zy]
    ext z; constructor
    · rintro ⟨a, ha, b, rfl, h, _⟩; exact absurd rfl h
    · intro h; cases h
  rw [if_neg zy]
  by_cases zx : x.lo.toE = 0 ∧ x.hi.toE = 0
  · rw [if_pos zx]
    obtain ⟨r, hr, hr0⟩ := NE.exists_ne_zero hy zy
    refine (Tightest.of_ok hx.ok).of_eq ?_
    rw [NE.set_zero hx zx]
    ext z; constructor
    · rintro rfl; exact ⟨0, rfl, r, hr, hr0, by simp⟩
    · rintro ⟨_, rfl, b, _, _, rfl⟩; simp
  rw [if_neg zx]
  have zx1 : x.lo.toE ≠ 0 ∨ x.hi.toE ≠ 0 := by tauto
  have zy1 : y.lo.toE ≠ 0 ∨ y.hi.toE ≠ 0 := by tauto
  split_ifs with c0 c1 c2 c3 c4 c5 c6 c7 c8 c9 c10 c11 c12
  · -- entire
    apply tight_entire
    rcases c0 with ⟨h1, h2⟩ | ⟨h1, h2, h3 | h3⟩
    · have := quot_box_entire (X := x.set) (NE.exists_ne_zero hx zx) h1 h2
      rwa [← hy.set_eq] at this
    · have hy2 : 0 < y.hi.toE := by rcases zy1 with h | h <;> order
      have := gbox_mp hx (hpos0 h3 hy2) h1.le h2.le (inonneg hy2.le) (by simp) (by simp)
      rw [EReal.mul_top_of_neg h1, EReal.mul_top_of_pos h2] at this
      exact hS this
    · have hy2 : y.lo.toE < 0 := by rcases zy1 with h | h <;> order
      have := gbox_mn hx (hneg0 h3 hy2) h1.le h2.le (inonpos hy2.le) (by simp) (by simp)
      rw [EReal.mul_bot_of_neg h1, EReal.mul_bot_of_pos h2] at this
      exact hS this
  · -- x ≤ 0, y < 0
    refine finish (hS (gbox_nn hx (hneg c2) c1 (inonpos ?_) (fun h => ?_) (fun h => ?_))) rfl rfl n2 n3 n1 n4
      ?_ ?_ ?_ ?_
    · order
    · constructor <;> order
    · rcases (inv_eq_zero' (by order)).mp h with h | h <;> exfalso <;> order
    · order
    · order
    · rintro (h | h) <;> exfalso <;> order
    · rintro (h | h) <;> constructor <;> order
  · -- x ≤ 0, y > 0
    refine finish (hS (gbox_np hx (hpos c3) c1 (inonneg ?_) (fun h => ?_) (fun h => ?_))) rfl rfl n1 n3 n2 n4
      ?_ ?_ ?_ ?_
    · order
    · rcases (inv_eq_zero' (by order)).mp h with h | h <;> exfalso <;> order
    · constructor <;> order
    · order
    · order
    · rintro (h | h) <;> constructor <;> order
    · rintro (h | h) <;> exfalso <;> order
  · -- x ≤ 0, y.hi = 0
    have hy2 : y.lo.toE < 0 := by rcases zy1 with h | h <;> order
    have hx2 : x.lo.toE < 0 := by rcases zx1 with h | h <;> order
    have := gbox_nn hx (hneg0 c4 hy2) c1 (inonpos hy2.le) (fun h => ?_) (by simp)
    · rw [EReal.mul_bot_of_neg hx2] at this
      refine finishU (hS this) rfl n2 n3 hy2.ne ?_
      rintro (h | h) <;> exfalso <;> order
    · constructor <;> order
  · -- x ≤ 0, y.lo = 0
    have hy2 : 0 < y.hi.toE := by rcases zy1 with h | h <;> order
    have hx2 : x.lo.toE < 0 := by rcases zx1 with h | h <;> order
    have := gbox_np hx (hpos0 c5 hy2) c1 (inonneg hy2.le) (by simp) (fun h => ?_)
    · rw [EReal.mul_top_of_neg hx2] at this
      refine finishL (hS this) rfl n2 n4 hy2.ne' ?_
      rintro (h | h) <;> exfalso <;> order
    · constructor <;> order
  · exfalso; push Not at c0 c2 c3
    obtain ⟨d1, d2⟩ := c0
    exact absurd (d1 (lt_of_le_of_ne c3 c5)) (not_le.mpr (lt_of_le_of_ne c2 (Ne.symm c4)))
  · -- x ≥ 0, y < 0
    refine finish (hS (gbox_pn hx (hneg c7) c6 (inonpos ?_) (fun h => ?_) (fun h => ?_))) rfl rfl n2 n4 n1 n3
      ?_ ?_ ?_ ?_
    · order
    · rcases (inv_eq_zero' (by order)).mp h with h | h <;> exfalso <;> order
    · constructor <;> order
    · order
    · order
    · rintro (h | h) <;> constructor <;> order
    · rintro (h | h) <;> exfalso <;> order
  · refine finish (hS (gbox_pp hx (hpos c8) c6 (inonneg ?_) (fun h => ?_) (fun h => ?_))) rfl rfl n1 n4 n2 n3
      ?_ ?_ ?_ ?_
    · order
    · constructor <;> order
    · rcases (inv_eq_zero' (by order)).mp h with h | h <;> exfalso <;> order
    · order
    · order
    · rintro (h | h) <;> exfalso <;> order
    · rintro (h | h) <;> constructor <;> order
  · have hy2 : y.lo.toE < 0 := by rcases zy1 with h | h <;> order
    have hx2 : 0 < x.hi.toE := by rcases zx1 with h | h <;> order
    have := gbox_pn hx (hneg0 c9 hy2) c6 (inonpos hy2.le) (by simp) (fun h => ?_)
    · rw [EReal.mul_bot_of_pos hx2] at this
      refine finishL (hS this) rfl n1 n3 hy2.ne ?_
      rintro (h | h) <;> exfalso <;> order
    · constructor <;> order
  · have hy2 : 0 < y.hi.toE := by rcases zy1 with h | h <;> order
    have hx2 : 0 < x.hi.toE := by rcases zx1 with h | h <;> order
    have := gbox_pp hx (hpos0 c10 hy2) c6 (inonneg hy2.le) (fun h => ?_) (by simp)
    · rw [EReal.mul_top_of_pos hx2] at this
      refine finishU (hS this) rfl n1 n4 hy2.ne' ?_
      rintro (h | h) <;> exfalso <;> order
    · constructor <;> order
  · exfalso; push Not at c0 c7 c8
    obtain ⟨d1, d2⟩ := c0
    exact absurd (d1 (lt_of_le_of_ne c8 c10)) (not_le.mpr (lt_of_le_of_ne c7 (Ne.symm c9)))
  · push Not at c1 c6
    refine finish (hS (gbox_mn hx (hneg c11) c6.le c1.le (inonpos ?_) (fun h => ?_) (fun h => ?_))) rfl rfl
      n2 n4 n1 n4 ?_ ?_ ?_ ?_
    · order
    · rcases (inv_eq_zero' (by order)).mp h with h | h <;> exfalso <;> order
    · rcases (inv_eq_zero' (by order)).mp h with h | h <;> exfalso <;> order
    · order
    · order
    · rintro (h | h) <;> constructor <;> order
    · rintro (h | h) <;> constructor <;> order
  · push Not at c1 c6
    refine finish (hS (gbox_mp hx (hpos c12) c6.le c1.le (inonneg ?_) (fun h => ?_) (fun h => ?_))) rfl rfl
      n1 n3 n2 n3 ?_ ?_ ?_ ?_
    · order
    · rcases (inv_eq_zero' (by order)).mp h with h | h <;> exfalso <;> order
    · rcases (inv_eq_zero' (by order)).mp h with h | h <;> exfalso <;> order
    · order
    · order
    · rintro (h | h) <;> constructor <;> order
    · rintro (h | h) <;> constructor <;> order
  · exfalso; push Not at c0 c1 c6 c11 c12
    obtain ⟨d1, d2⟩ := c0
    obtain ⟨d3, d4⟩ := d2 c6 c1
    exact absurd (d1 (lt_of_le_of_ne c12 d3)) (not_le.mpr (lt_of_le_of_ne c11 (Ne.symm d4)))

/-- `recip(x)` is the tightest interval around `{1 / b | b ∈ x, b ≠ 0}`. -/
theorem C03_recip (φ : Fmt) {x : Itv} (hx : x.Ok φ) :
    Tightest φ (φ.recipI x) {z | ∃ b ∈ x.set, b ≠ 0 ∧ z = 1 / b} := by
  have h1 : (Itv.mk (.fin 1) (.fin 1)).Ok φ := by
    have : φ.Rep 1 := ⟨1, 0, by norm_num, by
      rw [abs_one]; exact one_lt_pow₀ (by norm_num) (by have := φ.p_pos; omega), by have := φ.qmin_le; omega,
      by have := φ.emax_ge; omega⟩
    exact Or.inr ⟨rfl, by simp, by simp, this, this⟩
  have h := C03_div φ h1 hx
  unfold Fmt.recipI
  rw [hx.isValid]
  refine h.of_eq ?_
  have hs : (Itv.mk (.fin 1) (.fin 1)).set = {1} := by
    ext r; simp only [Itv.mem_set, Set.mem_singleton_iff]
    simp only [FP.toE_fin, Rat.cast_one, EReal.coe_le_coe_iff]
    constructor
    · rintro ⟨⟨_, h⟩, _, h'⟩; linarith
    · rintro rfl; simp
  ext z; constructor
  · rintro ⟨a, ha, b, hb, h0, rfl⟩
    rw [hs] at ha; rw [ha]; exact ⟨b, hb, h0, rfl⟩
  · rintro ⟨b, hb, h0, rfl⟩
    exact ⟨1, by rw [hs]; rfl, b, hb, h0, rfl⟩

/-- The hypotheses hold for an unbounded numerator and a denominator touching zero; the model computes the
expected quotients. -/
example : (Itv.mk (.fin (-1)) .pinf).Ok binary64 ∧ (Itv.mk .nzero (.fin 3)).Ok binary64 ∧
    binary64.divI ⟨.fin 1, .pinf⟩ ⟨.nzero, .fin 4⟩ = ⟨.fin (1/4), .pinf⟩ ∧
    binary64.divI ⟨.fin 1, .fin 2⟩ ⟨.fin (-1), .fin 4⟩ = Itv.entire ∧
    binary64.divI ⟨.fin 1, .fin 2⟩ ⟨.nzero, .fin 0⟩ = Itv.empty :=
  ⟨Itv.ok_of_okb (by decide +kernel), Itv.ok_of_okb (by decide +kernel), by decide +kernel, by decide +kernel,
   by decide +kernel⟩

end P1788
