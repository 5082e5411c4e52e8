import Verif.Lemmas.Div
import Verif.Lemmas.SetOp
import Verif.Model.MulRev
import Verif.SpecRev

/-! Helper lemmas for reverse multiplication. -/

namespace P1788
open FP

/-- `R` is the tightest enclosure of `S`, and a raised flag means that the bound it belongs to is not reached; more
precisely, the flags tell which bounds of `R` differ from the infimum and the supremum of `S`. -/
structure Leaf (φ : Fmt) (R : Itv) (tl tu : Bool) (S : Set ℝ) : Prop where
  tight : Tightest φ R S
  low : tl = true → ∀ s ∈ S, R.lo.toE < (s : EReal)
  upp : tu = true → ∀ s ∈ S, (s : EReal) < R.hi.toE
  box : S.Nonempty → ∃ l u, Box S l u ∧ (tl = true ↔ R.lo.toE ≠ l) ∧ (tu = true ↔ R.hi.toE ≠ u)

theorem Leaf.of_tight {φ : Fmt} {R : Itv} {S : Set ℝ} (h : Tightest φ R S) (hb : S.Nonempty → Box S R.lo.toE R.hi.toE) :
    Leaf φ R false false S :=
  ⟨h, by simp, by simp, fun hn => ⟨_, _, hb hn, by simp, by simp⟩⟩

theorem box_univ37 : Box (Set.univ : Set ℝ) ⊥ ⊤ := by
  refine ⟨⟨0, trivial⟩, ⟨fun _ _ => bot_le, fun e he => ?_⟩, ⟨fun _ _ => le_top, fun e he => ?_⟩⟩
  · refine le_of_forall_gt_imp_ge_of_dense fun r hr => ?_
    obtain ⟨q, -, h2⟩ := EReal.lt_iff_exists_real_btwn.mp hr
    exact (he ⟨q, trivial, rfl⟩).trans h2.le
  · refine le_of_forall_lt_imp_le_of_dense fun r hr => ?_
    obtain ⟨q, h1, -⟩ := EReal.lt_iff_exists_real_btwn.mp hr
    exact h1.le.trans (he ⟨q, trivial, rfl⟩)

theorem Leaf.univ {φ : Fmt} (h : Tightest φ Itv.entire Set.univ) : Leaf φ Itv.entire false false Set.univ :=
  Leaf.of_tight h fun _ => box_univ37

theorem Leaf.of_eq {φ : Fmt} {R : Itv} {tl tu : Bool} {S T : Set ℝ} (h : Leaf φ R tl tu S) (e : S = T) :
    Leaf φ R tl tu T := e ▸ h

/-- A non-zero ternary value: the rounded quotient differs from the exact one. -/
theorem divX_ne {φ : Fmt} {m : Rnd} {a b : FP} (ha : a ≠ .nan) (hb : b ≠ .nan) (h : φ.divX m a b = true) :
    (φ.div m a b).toE ≠ a.toE * b.toE⁻¹ := by
  have hfin : ∀ c : FP, c ≠ .nan → c.isInf = false → c.isZero = false → c = .fin c.q := by
    intro c h1 h2 h3; cases c <;> simp_all [FP.isInf, FP.isZero, FP.q]
  have key : φ.divX m a b = if a.isInf || b.isInf || a.isZero || b.isZero then false
      else match φ.div m a b with
        | .fin r => decide (r ≠ a.q / b.q)
        | _ => true := by
    cases a <;> cases b <;> first | rfl | exact absurd rfl ha | exact absurd rfl hb
  rw [key] at h
  split_ifs at h with hc
  simp only [Bool.or_eq_true, not_or, Bool.not_eq_true] at hc
  obtain ⟨⟨⟨c1, c2⟩, c3⟩, c4⟩ := hc
  have ea := hfin a ha c1 c3
  have eb := hfin b hb c2 c4
  have hq : a.toE * b.toE⁻¹ = (((a.q / b.q : ℚ) : ℝ) : EReal) := by
    have e1 : a.toE = ((a.q : ℝ) : EReal) := by conv_lhs => rw [ea, FP.toE_fin]
    have e2 : b.toE = ((b.q : ℝ) : EReal) := by conv_lhs => rw [eb, FP.toE_fin]
    rw [e1, e2, ← EReal.coe_inv, ← EReal.coe_mul, Rat.cast_div, div_eq_mul_inv]
  rw [hq]
  have hb0 : b.q ≠ 0 := by
    intro h0; rw [eb, h0] at c4; simp [FP.isZero] at c4
  cases hd : φ.div m a b with
  | nan =>
    exfalso
    have := (φ.div_spec m ha hb (by rw [eb]; simpa using hb0) (by rw [ea]; simp)).1
    exact this hd
  | ninf => simp
  | pinf => simp
  | nzero =>
    rw [hd] at h
    intro he
    simp only [FP.toE] at he
    have h0 : a.q / b.q = 0 := by
      have : ((0:ℝ):EReal) = (((a.q / b.q : ℚ) : ℝ) : EReal) := by simpa using he
      have := EReal.coe_injective this
      exact_mod_cast this.symm
    rcases div_eq_zero_iff.mp h0 with h1 | h1
    · rw [ea, h1] at c3; simp [FP.isZero] at c3
    · exact hb0 h1
  | fin r =>
    rw [hd] at h
    simp only [decide_eq_true_eq] at h
    intro he
    rw [FP.toE_fin] at he
    exact h (by exact_mod_cast EReal.coe_injective he)

/-- A zero ternary value: the rounded quotient is the exact one. -/
theorem divX_eq {φ : Fmt} {m : Rnd} {a b : FP} (ha : a ≠ .nan) (hb : b ≠ .nan) (hb0 : b.toE ≠ 0)
    (h1 : (a.toE = ⊤ ∨ a.toE = ⊥) → b.toE ≠ ⊤ ∧ b.toE ≠ ⊥) (h : φ.divX m a b = false) :
    (φ.div m a b).toE = a.toE * b.toE⁻¹ := by
  have key : φ.divX m a b = if a.isInf || b.isInf || a.isZero || b.isZero then false
      else match φ.div m a b with
        | .fin r => decide (r ≠ a.q / b.q)
        | _ => true := by
    cases a <;> cases b <;> first | rfl | exact absurd rfl ha | exact absurd rfl hb
  rw [key] at h
  have sp := (φ.div_spec m ha hb hb0 h1).2
  rw [sp, EReal.div_eq_inv_mul, mul_comm]
  have hinf : ∀ c : FP, c.isInf = true → c = .pinf ∨ c = .ninf := by intro c; cases c <;> simp [FP.isInf]
  have hfin : ∀ c : FP, c ≠ .nan → c.isInf = false → c.toE = ((c.q : ℝ) : EReal) := by
    intro c h1 h2; cases c <;> simp_all [FP.isInf, FP.q]
  have hz : ∀ c : FP, c.isZero = true → c.toE = 0 := by
    intro c; cases c <;> simp [FP.isZero]
  by_cases i1 : a.isInf = true
  · have hbf := h1 (by rcases hinf a i1 with rfl | rfl <;> simp)
    have ib : b.isInf = false := by
      by_contra hh
      rw [Bool.not_eq_false] at hh
      rcases hinf b hh with rfl | rfl <;> simp at hbf
    have eb := hfin b hb ib
    have hr : (b.q:ℝ) ≠ 0 := by rw [eb] at hb0; exact_mod_cast hb0
    have hi : b.toE⁻¹ = (((b.q:ℝ)⁻¹ : ℝ) : EReal) := by rw [eb, EReal.coe_inv]
    rw [hi]
    rcases lt_or_gt_of_ne (inv_ne_zero hr) with hr | hr <;> rcases hinf a i1 with rfl | rfl
    · simp [EReal.top_mul_coe_of_neg hr]
    · simp [EReal.bot_mul_coe_of_neg hr]
    · simp [EReal.top_mul_coe_of_pos hr]
    · simp [EReal.bot_mul_coe_of_pos hr]
  by_cases i2 : b.isInf = true
  · have : b.toE⁻¹ = 0 := by rcases hinf b i2 with rfl | rfl <;> simp
    rw [this, mul_zero]; simp
  by_cases i3 : a.isZero = true
  · rw [hz a i3, zero_mul]; simp
  by_cases i4 : b.isZero = true
  · exact absurd (hz b i4) hb0
  simp only [Bool.not_eq_true] at i1 i2 i3 i4
  simp only [i1, i2, i3, i4, Bool.or_self, Bool.false_eq_true, if_false] at h
  cases hd : φ.div m a b with
  | nan => rw [hd] at h; simp at h
  | pinf => rw [hd] at h; simp at h
  | ninf => rw [hd] at h; simp at h
  | nzero => rw [hd] at h; simp at h
  | fin r =>
    rw [hd] at h
    simp only [decide_eq_false_iff_not, not_not] at h
    have e : φ.rndE m (a.toE / b.toE) = (FP.fin r).toE := by rw [← hd, sp]
    rw [EReal.div_eq_inv_mul, mul_comm] at e
    rw [e, hfin a ha i1, hfin b hb i2, FP.toE_fin, h, ← EReal.coe_inv, ← EReal.coe_mul, Rat.cast_div, div_eq_mul_inv]

theorem divX_iff {φ : Fmt} {m : Rnd} {a b : FP} (ha : a ≠ .nan) (hb : b ≠ .nan) (hb0 : b.toE ≠ 0)
    (h1 : (a.toE = ⊤ ∨ a.toE = ⊥) → b.toE ≠ ⊤ ∧ b.toE ≠ ⊥) :
    φ.divX m a b = true ↔ (φ.div m a b).toE ≠ a.toE * b.toE⁻¹ :=
  ⟨divX_ne ha hb, fun h => by
    by_contra hh
    rw [Bool.not_eq_true] at hh
    exact h (divX_eq ha hb hb0 h1 hh)⟩

section
variable {φ : Fmt} {S : Set ℝ}

theorem leaf_fin {p q r s : FP} {l u : EReal} (hB : Box S l u) (h1 : l = p.toE * q.toE⁻¹)
    (h2 : u = r.toE * s.toE⁻¹) (h3 : p ≠ .nan) (h4 : q ≠ .nan) (h5 : r ≠ .nan) (h6 : s ≠ .nan) (h7 : q.toE ≠ 0)
    (h8 : s.toE ≠ 0) (h9 : (p.toE = ⊤ ∨ p.toE = ⊥) → q.toE ≠ ⊤ ∧ q.toE ≠ ⊥)
    (h10 : (r.toE = ⊤ ∨ r.toE = ⊥) → s.toE ≠ ⊤ ∧ s.toE ≠ ⊥) :
    Leaf φ ⟨φ.div .D p q, φ.div .U r s⟩ (φ.divX .D p q) (φ.divX .U r s) S := by
  obtain ⟨a1, b1⟩ := φ.div_spec .D h3 h4 h7 h9
  obtain ⟨a2, b2⟩ := φ.div_spec .U h5 h6 h8 h10
  refine ⟨tightest_of_box hB a1 a2 (φ.div_in _ _ _) (φ.div_in _ _ _) (by rw [h1]; exact b1) (by rw [h2]; exact b2),
    fun h t ht => ?_, fun h t ht => ?_, fun _ => ⟨l, u, hB, by rw [h1]; exact divX_iff h3 h4 h7 h9,
      by rw [h2]; exact divX_iff h5 h6 h8 h10⟩⟩
  · have := divX_ne h3 h4 h
    refine lt_of_lt_of_le (lt_of_le_of_ne ?_ (h1 ▸ this)) (hB.le ht)
    simp only; rw [b1]; rw [h1]; exact φ.rdE_le _
  · have := divX_ne h5 h6 h
    refine lt_of_le_of_lt (hB.ge ht) (lt_of_le_of_ne ?_ (h2 ▸ this.symm))
    simp only; rw [b2]; rw [h2]; exact φ.le_ruE _

theorem leaf_up {p q : FP} {l : EReal} (hB : Box S l ⊤) (h1 : l = p.toE * q.toE⁻¹)
    (h3 : p ≠ .nan) (h4 : q ≠ .nan) (h7 : q.toE ≠ 0) (h9 : (p.toE = ⊤ ∨ p.toE = ⊥) → q.toE ≠ ⊤ ∧ q.toE ≠ ⊥) :
    Leaf φ ⟨φ.div .D p q, .pinf⟩ (φ.divX .D p q) false S := by
  obtain ⟨a1, b1⟩ := φ.div_spec .D h3 h4 h7 h9
  refine ⟨tightest_of_box hB a1 (by simp) (φ.div_in _ _ _) trivial (by rw [h1]; exact b1) (by simp),
    fun h t ht => ?_, by simp, fun _ => ⟨l, ⊤, hB, by rw [h1]; exact divX_iff h3 h4 h7 h9, by simp⟩⟩
  have := divX_ne h3 h4 h
  refine lt_of_lt_of_le (lt_of_le_of_ne ?_ (h1 ▸ this)) (hB.le ht)
  simp only; rw [b1]; rw [h1]; exact φ.rdE_le _

theorem leaf_dn {r s : FP} {u : EReal} (hB : Box S ⊥ u) (h2 : u = r.toE * s.toE⁻¹)
    (h5 : r ≠ .nan) (h6 : s ≠ .nan) (h8 : s.toE ≠ 0) (h10 : (r.toE = ⊤ ∨ r.toE = ⊥) → s.toE ≠ ⊤ ∧ s.toE ≠ ⊥) :
    Leaf φ ⟨.ninf, φ.div .U r s⟩ false (φ.divX .U r s) S := by
  obtain ⟨a2, b2⟩ := φ.div_spec .U h5 h6 h8 h10
  refine ⟨tightest_of_box hB (by simp) a2 trivial (φ.div_in _ _ _) (by simp) (by rw [h2]; exact b2),
    by simp, fun h t ht => ?_, fun _ => ⟨⊥, u, hB, by simp, by rw [h2]; exact divX_iff h5 h6 h8 h10⟩⟩
  have := divX_ne h5 h6 h
  refine lt_of_le_of_lt (hB.ge ht) (lt_of_le_of_ne ?_ (h2 ▸ this.symm))
  simp only; rw [b2]; rw [h2]; exact φ.le_ruE _
end

section
variable {φ : Fmt} {x y : Itv} (hx : x.NE φ) (hy : y.NE φ)
include hx hy

theorem box_quot {l u : EReal} (h : Box (prodSet x.set (invSet (Seg y.lo.toE y.hi.toE))) l u) :
    Box (quotSet x.set y.set) l u := by
  rw [← hy.set_eq] at h; rwa [quotSet_eq] at h


theorem leaf_nn (c1 : x.hi.toE ≤ 0) (c2 : y.hi.toE < 0) :
    Leaf φ ⟨φ.div .D x.hi y.lo, φ.div .U x.lo y.hi⟩ (φ.divX .D x.hi y.lo) (φ.divX .U x.lo y.hi)
      (quotSet x.set y.set) := by
  have e1 := hx.le; have e2 := hy.le
  have e3 := hx.lo_top; have e4 := hx.hi_bot
  have e5 := hy.lo_top; have e6 := hy.hi_bot
  have t1 := zero_lt_top'; have t2 := bot_lt_zero'
  refine leaf_fin (box_quot hx hy (gbox_nn hx (invBox_neg hy.seg c2) c1 (EReal.inv_nonpos_of_nonpos ?_)
    (fun h => ?_) (fun h => ?_))) rfl rfl hx.hi_ne hy.lo_ne hx.lo_ne hy.hi_ne ?_ ?_ ?_ ?_
  · order
  · constructor <;> order
  · rcases (inv_eq_zero' (by order)).mp h with h | h <;> exfalso <;> order
  · order
  · order
  · rintro (h | h) <;> exfalso <;> order
  · rintro (h | h) <;> constructor <;> order

theorem leaf_np (c1 : x.hi.toE ≤ 0) (c3 : 0 < y.lo.toE) :
    Leaf φ ⟨φ.div .D x.lo y.lo, φ.div .U x.hi y.hi⟩ (φ.divX .D x.lo y.lo) (φ.divX .U x.hi y.hi)
      (quotSet x.set y.set) := by
  have e1 := hx.le; have e2 := hy.le
  have e3 := hx.lo_top; have e4 := hx.hi_bot
  have e5 := hy.lo_top; have e6 := hy.hi_bot
  have t1 := zero_lt_top'; have t2 := bot_lt_zero'
  refine leaf_fin (box_quot hx hy (gbox_np hx (invBox_pos hy.seg c3) c1 (EReal.inv_nonneg_of_nonneg ?_)
    (fun h => ?_) (fun h => ?_))) rfl rfl hx.lo_ne hy.lo_ne hx.hi_ne hy.hi_ne ?_ ?_ ?_ ?_
  · order
  · rcases (inv_eq_zero' (by order)).mp h with h | h <;> exfalso <;> order
  · constructor <;> order
  · order
  · order
  · rintro (h | h) <;> constructor <;> order
  · rintro (h | h) <;> exfalso <;> order

theorem leaf_nn0 (c1 : x.hi.toE ≤ 0) (hx2 : x.lo.toE < 0) (c4 : y.hi.toE = 0) (hy2 : y.lo.toE < 0) :
    Leaf φ ⟨φ.div .D x.hi y.lo, .pinf⟩ (φ.divX .D x.hi y.lo) false (quotSet x.set y.set) := by
  have e1 := hx.le; have e2 := hy.le
  have e3 := hx.lo_top; have e4 := hx.hi_bot
  have e5 := hy.lo_top; have e6 := hy.hi_bot
  have t1 := zero_lt_top'; have t2 := bot_lt_zero'
  have hn : Box (invSet (Seg y.lo.toE y.hi.toE)) ⊥ y.lo.toE⁻¹ := by rw [c4]; exact invBox_neg0 hy2
  have := gbox_nn hx hn c1 (EReal.inv_nonpos_of_nonpos hy2.le) (fun h => ?_) (by simp)
  · rw [EReal.mul_bot_of_neg hx2] at this
    refine leaf_up (box_quot hx hy this) rfl hx.hi_ne hy.lo_ne hy2.ne ?_
    rintro (h | h) <;> exfalso <;> order
  · constructor <;> order

theorem leaf_np0 (c1 : x.hi.toE ≤ 0) (hx2 : x.lo.toE < 0) (c5 : y.lo.toE = 0) (hy2 : 0 < y.hi.toE) :
    Leaf φ ⟨.ninf, φ.div .U x.hi y.hi⟩ false (φ.divX .U x.hi y.hi) (quotSet x.set y.set) := by
  have e1 := hx.le; have e2 := hy.le
  have e3 := hx.lo_top; have e4 := hx.hi_bot
  have e5 := hy.lo_top; have e6 := hy.hi_bot
  have t1 := zero_lt_top'; have t2 := bot_lt_zero'
  have hn : Box (invSet (Seg y.lo.toE y.hi.toE)) y.hi.toE⁻¹ ⊤ := by rw [c5]; exact invBox_pos0 hy2
  have := gbox_np hx hn c1 (EReal.inv_nonneg_of_nonneg hy2.le) (by simp) (fun h => ?_)
  · rw [EReal.mul_top_of_neg hx2] at this
    refine leaf_dn (box_quot hx hy this) rfl hx.hi_ne hy.hi_ne hy2.ne' ?_
    rintro (h | h) <;> exfalso <;> order
  · constructor <;> order

theorem leaf_pn (c6 : 0 ≤ x.lo.toE) (c7 : y.hi.toE < 0) :
    Leaf φ ⟨φ.div .D x.hi y.hi, φ.div .U x.lo y.lo⟩ (φ.divX .D x.hi y.hi) (φ.divX .U x.lo y.lo)
      (quotSet x.set y.set) := by
  have e1 := hx.le; have e2 := hy.le
  have e3 := hx.lo_top; have e4 := hx.hi_bot
  have e5 := hy.lo_top; have e6 := hy.hi_bot
  have t1 := zero_lt_top'; have t2 := bot_lt_zero'
  refine leaf_fin (box_quot hx hy (gbox_pn hx (invBox_neg hy.seg c7) c6 (EReal.inv_nonpos_of_nonpos ?_)
    (fun h => ?_) (fun h => ?_))) rfl rfl hx.hi_ne hy.hi_ne hx.lo_ne hy.lo_ne ?_ ?_ ?_ ?_
  · order
  · rcases (inv_eq_zero' (by order)).mp h with h | h <;> exfalso <;> order
  · constructor <;> order
  · order
  · order
  · rintro (h | h) <;> constructor <;> order
  · rintro (h | h) <;> exfalso <;> order

theorem leaf_pp (c6 : 0 ≤ x.lo.toE) (c8 : 0 < y.lo.toE) :
    Leaf φ ⟨φ.div .D x.lo y.hi, φ.div .U x.hi y.lo⟩ (φ.divX .D x.lo y.hi) (φ.divX .U x.hi y.lo)
      (quotSet x.set y.set) := by
  have e1 := hx.le; have e2 := hy.le
  have e3 := hx.lo_top; have e4 := hx.hi_bot
  have e5 := hy.lo_top; have e6 := hy.hi_bot
  have t1 := zero_lt_top'; have t2 := bot_lt_zero'
  refine leaf_fin (box_quot hx hy (gbox_pp hx (invBox_pos hy.seg c8) c6 (EReal.inv_nonneg_of_nonneg ?_)
    (fun h => ?_) (fun h => ?_))) rfl rfl hx.lo_ne hy.hi_ne hx.hi_ne hy.lo_ne ?_ ?_ ?_ ?_
  · order
  · constructor <;> order
  · rcases (inv_eq_zero' (by order)).mp h with h | h <;> exfalso <;> order
  · order
  · order
  · rintro (h | h) <;> exfalso <;> order
  · rintro (h | h) <;> constructor <;> order

theorem leaf_pn0 (c6 : 0 ≤ x.lo.toE) (hx2 : 0 < x.hi.toE) (c9 : y.hi.toE = 0) (hy2 : y.lo.toE < 0) :
    Leaf φ ⟨.ninf, φ.div .U x.lo y.lo⟩ false (φ.divX .U x.lo y.lo) (quotSet x.set y.set) := by
  have e1 := hx.le; have e2 := hy.le
  have e3 := hx.lo_top; have e4 := hx.hi_bot
  have e5 := hy.lo_top; have e6 := hy.hi_bot
  have t1 := zero_lt_top'; have t2 := bot_lt_zero'
  have hn : Box (invSet (Seg y.lo.toE y.hi.toE)) ⊥ y.lo.toE⁻¹ := by rw [c9]; exact invBox_neg0 hy2
  have := gbox_pn hx hn c6 (EReal.inv_nonpos_of_nonpos hy2.le) (by simp) (fun h => ?_)
  · rw [EReal.mul_bot_of_pos hx2] at this
    refine leaf_dn (box_quot hx hy this) rfl hx.lo_ne hy.lo_ne hy2.ne ?_
    rintro (h | h) <;> exfalso <;> order
  · constructor <;> order

theorem leaf_pp0 (c6 : 0 ≤ x.lo.toE) (hx2 : 0 < x.hi.toE) (c10 : y.lo.toE = 0) (hy2 : 0 < y.hi.toE) :
    Leaf φ ⟨φ.div .D x.lo y.hi, .pinf⟩ (φ.divX .D x.lo y.hi) false (quotSet x.set y.set) := by
  have e1 := hx.le; have e2 := hy.le
  have e3 := hx.lo_top; have e4 := hx.hi_bot
  have e5 := hy.lo_top; have e6 := hy.hi_bot
  have t1 := zero_lt_top'; have t2 := bot_lt_zero'
  have hn : Box (invSet (Seg y.lo.toE y.hi.toE)) y.hi.toE⁻¹ ⊤ := by rw [c10]; exact invBox_pos0 hy2
  have := gbox_pp hx hn c6 (EReal.inv_nonneg_of_nonneg hy2.le) (fun h => ?_) (by simp)
  · rw [EReal.mul_top_of_pos hx2] at this
    refine leaf_up (box_quot hx hy this) rfl hx.lo_ne hy.hi_ne hy2.ne' ?_
    rintro (h | h) <;> exfalso <;> order
  · constructor <;> order

theorem leaf_mn (c1 : x.lo.toE < 0) (c6 : 0 < x.hi.toE) (c11 : y.hi.toE < 0) :
    Leaf φ ⟨φ.div .D x.hi y.hi, φ.div .U x.lo y.hi⟩ (φ.divX .D x.hi y.hi) (φ.divX .U x.lo y.hi)
      (quotSet x.set y.set) := by
  have e1 := hx.le; have e2 := hy.le
  have e3 := hx.lo_top; have e4 := hx.hi_bot
  have e5 := hy.lo_top; have e6 := hy.hi_bot
  have t1 := zero_lt_top'; have t2 := bot_lt_zero'
  refine leaf_fin (box_quot hx hy (gbox_mn hx (invBox_neg hy.seg c11) c1.le c6.le (EReal.inv_nonpos_of_nonpos ?_)
    (fun h => ?_) (fun h => ?_))) rfl rfl hx.hi_ne hy.hi_ne hx.lo_ne hy.hi_ne ?_ ?_ ?_ ?_
  · order
  · rcases (inv_eq_zero' (by order)).mp h with h | h <;> exfalso <;> order
  · rcases (inv_eq_zero' (by order)).mp h with h | h <;> exfalso <;> order
  · order
  · order
  · rintro (h | h) <;> constructor <;> order
  · rintro (h | h) <;> constructor <;> order

theorem leaf_mp (c1 : x.lo.toE < 0) (c6 : 0 < x.hi.toE) (c12 : 0 < y.lo.toE) :
    Leaf φ ⟨φ.div .D x.lo y.lo, φ.div .U x.hi y.lo⟩ (φ.divX .D x.lo y.lo) (φ.divX .U x.hi y.lo)
      (quotSet x.set y.set) := by
  have e1 := hx.le; have e2 := hy.le
  have e3 := hx.lo_top; have e4 := hx.hi_bot
  have e5 := hy.lo_top; have e6 := hy.hi_bot
  have t1 := zero_lt_top'; have t2 := bot_lt_zero'
  refine leaf_fin (box_quot hx hy (gbox_mp hx (invBox_pos hy.seg c12) c1.le c6.le (EReal.inv_nonneg_of_nonneg ?_)
    (fun h => ?_) (fun h => ?_))) rfl rfl hx.lo_ne hy.lo_ne hx.hi_ne hy.lo_ne ?_ ?_ ?_ ?_
  · order
  · rcases (inv_eq_zero' (by order)).mp h with h | h <;> exfalso <;> order
  · rcases (inv_eq_zero' (by order)).mp h with h | h <;> exfalso <;> order
  · order
  · order
  · rintro (h | h) <;> constructor <;> order
  · rintro (h | h) <;> constructor <;> order
end


theorem mulSol_eq_quot {B C : Set ℝ} (h : (0:ℝ) ∉ B ∨ (0:ℝ) ∉ C) : MulSol B C = quotSet C B := by
  ext t; constructor
  · rintro ⟨b, hb, hc⟩
    have hb0 : b ≠ 0 := by
      rintro rfl
      rw [zero_mul] at hc
      exact h.elim (fun h => h hb) fun h => h hc
    exact ⟨b * t, hc, b, hb, hb0, by field_simp⟩
  · rintro ⟨a, ha, b, hb, hb0, rfl⟩
    exact ⟨b, hb, by rwa [mul_div_cancel₀ _ hb0]⟩

theorem mulSol_univ {B C : Set ℝ} (h1 : (0:ℝ) ∈ B) (h2 : (0:ℝ) ∈ C) : MulSol B C = Set.univ :=
  Set.eq_univ_of_forall fun t => ⟨0, h1, by simpa using h2⟩

theorem tight_univ (φ : Fmt) : Tightest φ Itv.entire Set.univ :=
  (Tightest.of_ok (Itv.ok_entire φ)).of_eq (by simp)

/-- What the private `mul_rev_to_pair` has to return. -/
def RevPair.Spec (φ : Fmt) (r : RevPair) (B C : Set ℝ) : Prop :=
  (¬Splits B C → Leaf φ r.fst r.fl r.fu (MulSol B C) ∧ r.snd = Itv.empty ∧ r.sl = false ∧ r.su = false) ∧
  (Splits B C → Leaf φ r.fst r.fl r.fu (MulSol B C ∩ Set.Iio 0) ∧ Leaf φ r.snd r.sl r.su (MulSol B C ∩ Set.Ioi 0))

theorem Itv.NE.zero_mem {φ : Fmt} {x : Itv} (h : x.NE φ) : (0:ℝ) ∈ x.set ↔ x.lo.toE ≤ 0 ∧ 0 ≤ x.hi.toE := by
  rw [h.mem]; simp

theorem Itv.NE.isMember0 {φ : Fmt} {x : Itv} (h : x.NE φ) : x.isMember (.fin 0) = true ↔ (0:ℝ) ∈ x.set := by
  unfold Itv.isMember
  simp [h.isValid, FP.isInf, h.mem, leb_iff h.lo_ne (b := .fin 0) (by simp), leb_iff (a := .fin 0) (by simp) h.hi_ne]

theorem RevPair.Spec.one {φ : Fmt} {R : Itv} {tl tu : Bool} {B C : Set ℝ} (hn : ¬Splits B C)
    (h : Leaf φ R tl tu (MulSol B C)) : RevPair.Spec φ ⟨R, .empty, tl, tu, false, false⟩ B C :=
  ⟨fun _ => ⟨h, rfl, rfl, rfl⟩, fun h => absurd h hn⟩

theorem RevPair.Spec.univ {φ : Fmt} {B C : Set ℝ} (hB : (0:ℝ) ∈ B) (hC : (0:ℝ) ∈ C) :
    RevPair.Spec φ ⟨.entire, .empty, false, false, false, false⟩ B C :=
  .one (fun h => h.2.2 hC) ((Leaf.univ (tight_univ φ)).of_eq (mulSol_univ hB hC).symm)

theorem mulSol_half {B C : Set ℝ} {n : Bool}
    (hC : ∀ a ∈ C, if n then a < 0 else 0 < a) :
    MulSol B C ∩ Set.Iio 0 = quotSet C (B ∩ (if n then Set.Ici 0 else Set.Iic 0)) ∧
    MulSol B C ∩ Set.Ioi 0 = quotSet C (B ∩ (if n then Set.Iic 0 else Set.Ici 0)) := by
  cases n with
  | true =>
    simp only [if_true] at hC ⊢
    constructor <;> ext t <;> constructor
    · rintro ⟨⟨b, hb, h⟩, ht⟩
      have h1 := hC _ h
      have ht : t < 0 := ht
      have hb0 : 0 < b := by by_contra hh; push Not at hh; nlinarith
      exact ⟨b * t, h, b, ⟨hb, hb0.le⟩, hb0.ne', (mul_div_cancel_left₀ _ hb0.ne').symm⟩
    · rintro ⟨a, ha, b, ⟨hb, hb0⟩, hbn, rfl⟩
      have hb0 : 0 < b := lt_of_le_of_ne hb0 (Ne.symm hbn)
      exact ⟨⟨b, hb, by rwa [mul_div_cancel₀ _ hbn]⟩, div_neg_of_neg_of_pos (hC a ha) hb0⟩
    · rintro ⟨⟨b, hb, h⟩, ht⟩
      have h1 := hC _ h
      have ht : 0 < t := ht
      have hb0 : b < 0 := by by_contra hh; push Not at hh; nlinarith
      exact ⟨b * t, h, b, ⟨hb, hb0.le⟩, hb0.ne, (mul_div_cancel_left₀ _ hb0.ne).symm⟩
    · rintro ⟨a, ha, b, ⟨hb, hb0⟩, hbn, rfl⟩
      have hb0 : b < 0 := lt_of_le_of_ne hb0 hbn
      exact ⟨⟨b, hb, by rwa [mul_div_cancel₀ _ hbn]⟩, div_pos_of_neg_of_neg (hC a ha) hb0⟩
  | false =>
    simp only [Bool.false_eq_true, if_false] at hC ⊢
    constructor <;> ext t <;> constructor
    · rintro ⟨⟨b, hb, h⟩, ht⟩
      have h1 := hC _ h
      have ht : t < 0 := ht
      have hb0 : b < 0 := by by_contra hh; push Not at hh; nlinarith
      exact ⟨b * t, h, b, ⟨hb, hb0.le⟩, hb0.ne, (mul_div_cancel_left₀ _ hb0.ne).symm⟩
    · rintro ⟨a, ha, b, ⟨hb, hb0⟩, hbn, rfl⟩
      have hb0 : b < 0 := lt_of_le_of_ne hb0 hbn
      exact ⟨⟨b, hb, by rwa [mul_div_cancel₀ _ hbn]⟩, div_neg_of_pos_of_neg (hC a ha) hb0⟩
    · rintro ⟨⟨b, hb, h⟩, ht⟩
      have h1 := hC _ h
      have ht : 0 < t := ht
      have hb0 : 0 < b := by by_contra hh; push Not at hh; nlinarith
      exact ⟨b * t, h, b, ⟨hb, hb0.le⟩, hb0.ne', (mul_div_cancel_left₀ _ hb0.ne').symm⟩
    · rintro ⟨a, ha, b, ⟨hb, hb0⟩, hbn, rfl⟩
      have hb0 : 0 < b := lt_of_le_of_ne hb0 (Ne.symm hbn)
      exact ⟨⟨b, hb, by rwa [mul_div_cancel₀ _ hbn]⟩, div_pos (hC a ha) hb0⟩

theorem half_pos {φ : Fmt} {b : Itv} (hb : b.NE φ) (h1 : b.lo.toE < 0) (h2 : 0 < b.hi.toE) :
    (Itv.mk (.fin 0) b.hi).NE φ ∧ (Itv.mk (.fin 0) b.hi).set = b.set ∩ Set.Ici 0 := by
  have h : (Itv.mk (.fin 0) b.hi).NE φ :=
    ⟨by simp, hb.hi_ne, by simpa using h2.le, by simp, hb.hi_bot, φ.rep_zero, hb.hi_in⟩
  refine ⟨h, ?_⟩
  ext t
  rw [h.mem, Set.mem_inter_iff, hb.mem]
  simp only [FP.toE_fin, Rat.cast_zero, EReal.coe_zero, Set.mem_Ici, EReal.coe_nonneg]
  constructor
  · rintro ⟨h3, h4⟩; exact ⟨⟨h1.le.trans (by exact_mod_cast h3), h4⟩, h3⟩
  · rintro ⟨⟨_, h4⟩, h3⟩; exact ⟨h3, h4⟩

theorem half_neg {φ : Fmt} {b : Itv} (hb : b.NE φ) (h1 : b.lo.toE < 0) (h2 : 0 < b.hi.toE) :
    (Itv.mk b.lo (.fin 0)).NE φ ∧ (Itv.mk b.lo (.fin 0)).set = b.set ∩ Set.Iic 0 := by
  have h : (Itv.mk b.lo (.fin 0)).NE φ :=
    ⟨hb.lo_ne, by simp, by simpa using h1.le, hb.lo_top, by simp, hb.lo_in, φ.rep_zero⟩
  refine ⟨h, ?_⟩
  ext t
  rw [h.mem, Set.mem_inter_iff, hb.mem]
  simp only [FP.toE_fin, Rat.cast_zero, EReal.coe_zero, Set.mem_Iic, EReal.coe_nonpos]
  constructor
  · rintro ⟨h3, h4⟩; exact ⟨⟨h3, le_trans (by exact_mod_cast h4) h2.le⟩, h4⟩
  · rintro ⟨⟨h4, _⟩, h3⟩; exact ⟨h4, h3⟩

set_option maxHeartbeats 1600000 in
theorem mulRevPairT_spec {φ : Fmt} {b c : Itv} (hb : b.NE φ) (hc : c.NE φ) :
    (φ.mulRevPairT b c).Spec φ b.set c.set := by
  have hB0 := hb.zero_mem
  have hC0 := hc.zero_mem
  have hsp : Splits b.set c.set ↔ b.lo.toE < 0 ∧ 0 < b.hi.toE ∧ (0:ℝ) ∉ c.set := by
    unfold Splits
    have h1 := hb.ex_gt (r := 0)
    have h2 := hb.ex_lt (r := 0)
    rw [h1, h2]; simp
  have e1 := hb.le; have e2 := hc.le
  have e3 := hb.lo_top; have e4 := hb.hi_bot
  have e5 := hc.lo_top; have e6 := hc.hi_bot
  have t1 := zero_lt_top'; have t2 := bot_lt_zero'
  have hL : ∀ {R : Itv} {tl tu : Bool}, ((0:ℝ) ∉ b.set ∨ (0:ℝ) ∉ c.set) → ¬Splits b.set c.set →
      Leaf φ R tl tu (quotSet c.set b.set) → RevPair.Spec φ ⟨R, .empty, tl, tu, false, false⟩ b.set c.set :=
    fun h hn hl => .one hn (hl.of_eq (mulSol_eq_quot h).symm)
  unfold Fmt.mulRevPairT
  simp only [hb.isValid, hc.isValid, hb.isEmpty, hc.isEmpty, Bool.not_true, Bool.or_self, Bool.false_eq_true,
    if_false, NE.isZeroItv_iff hb, NE.isZeroItv_iff hc, NE.isEntire_iff hc,
    NE.lt0_iff hb.lo_ne, NE.lt0_iff hb.hi_ne, NE.lt0_iff hc.hi_ne, NE.gt0_iff hb.lo_ne, NE.gt0_iff hb.hi_ne,
    NE.gt0_iff hc.lo_ne, NE.le0_iff hc.hi_ne, NE.ge0_iff hc.lo_ne, NE.eq0_iff hb.lo_ne, NE.eq0_iff hb.hi_ne]
  by_cases c1 : c.lo.toE = ⊥ ∧ c.hi.toE = ⊤
  · rw [if_pos c1]
    have hu := NE.set_univ hc c1
    refine .one (fun h => h.2.2 (by rw [hu]; trivial)) ((Leaf.univ (tight_univ φ)).of_eq ?_)
    obtain ⟨s, hs⟩ := hb.nonempty
    rw [hu]
    exact (Set.eq_univ_of_forall fun t => (⟨s, hs, trivial⟩ : ∃ b' ∈ b.set, b' * t ∈ Set.univ)).symm
  rw [if_neg c1]
  by_cases c2 : c.lo.toE = 0 ∧ c.hi.toE = 0
  · rw [if_pos c2]
    have hC := NE.set_zero hc c2
    by_cases h0 : (0:ℝ) ∈ b.set
    · rw [if_pos (hb.isMember0.mpr h0)]; exact .univ h0 (by rw [hC]; rfl)
    · rw [if_neg (hb.isMember0.not.mpr h0)]
      refine .one (fun h => h.2.2 (by rw [hC]; rfl)) (Leaf.of_tight ?_ ?_)
      rotate_left
      · intro _
        have e : MulSol b.set c.set = {0} := by
          rw [hC]
          ext t; constructor
          · rintro ⟨s, hs, h⟩
            rcases mul_eq_zero.mp h with rfl | h
            · exact absurd hs h0
            · exact h
          · rintro rfl
            obtain ⟨s, hs⟩ := hb.nonempty
            exact ⟨s, hs, by simp⟩
        rw [e]
        refine ⟨⟨0, rfl⟩, ?_, ?_⟩ <;> simp [eimg]
      have hz : (Itv.mk (.fin 0) (.fin 0)).NE φ :=
        ⟨by simp, by simp, le_rfl, by simp, by simp, φ.rep_zero, φ.rep_zero⟩
      refine (Tightest.of_ok hz.ok).of_eq ?_
      rw [NE.set_zero hz (by simp), hC]
      ext t; constructor
      · rintro rfl
        obtain ⟨s, hs⟩ := hb.nonempty
        exact ⟨s, hs, by simp⟩
      · rintro ⟨s, hs, h⟩
        rcases mul_eq_zero.mp h with rfl | h
        · exact absurd hs h0
        · exact h
  rw [if_neg c2]
  have hzb : (b.lo.toE = 0 ∧ b.hi.toE = 0) →
      RevPair.Spec φ ⟨if c.isMember (.fin 0) then .entire else .empty, .empty, false, false, false, false⟩
        b.set c.set := by
    intro h
    have hB := NE.set_zero hb h
    by_cases h0 : (0:ℝ) ∈ c.set
    · rw [if_pos (hc.isMember0.mpr h0)]; exact .univ (by rw [hB]; rfl) h0
    · rw [if_neg (hc.isMember0.not.mpr h0)]
      refine .one (fun hs => ?_) (Leaf.of_tight (tightest_empty' rfl ?_) ?_)
      · rw [hsp] at hs; rw [h.1] at hs; exact absurd hs.1 (lt_irrefl _)
      · rw [hB]
        ext t; constructor
        · rintro ⟨s, rfl, h⟩; rw [zero_mul] at h; exact h0 h
        · intro h; cases h
      · rw [hB]
        rintro ⟨t, s, rfl, h⟩; rw [zero_mul] at h; exact absurd h h0
  by_cases c3 : c.hi.toE ≤ 0
  · rw [if_pos c3]
    have hx2 : c.lo.toE < 0 := by
      refine lt_of_le_of_ne (e2.trans c3) fun h => c2 ⟨h, le_antisymm c3 (h ▸ e2)⟩
    by_cases c4 : b.lo.toE = 0 ∧ b.hi.toE = 0
    · rw [if_pos c4]; exact hzb c4
    rw [if_neg c4]
    by_cases c5 : b.lo.toE < 0 ∧ 0 < b.hi.toE ∧ c.hi.toE < 0
    · rw [if_pos c5]
      obtain ⟨d1, d2, d3⟩ := c5
      have hneg : ∀ a ∈ c.set, if true then a < 0 else 0 < a := by
        intro a ha
        have := (hc.mem.mp ha).2.trans_lt d3
        simpa using this
      obtain ⟨q1, q2⟩ := mulSol_half (B := b.set) hneg
      obtain ⟨p1, p2⟩ := half_pos hb d1 d2
      obtain ⟨m1, m2⟩ := half_neg hb d1 d2
      refine ⟨fun h => absurd (hsp.mpr ⟨d1, d2, by rw [hC0]; rintro ⟨_, h⟩; order⟩) h, fun _ => ⟨?_, ?_⟩⟩
      · rw [q1]; simp only [if_true]; rw [← p2]
        exact leaf_np0 hc p1 c3 hx2 (by simp) d2
      · rw [q2]; simp only [if_true]; rw [← m2]
        exact leaf_nn0 hc m1 c3 hx2 (by simp) d1
    rw [if_neg c5]
    have hns : ¬Splits b.set c.set := by
      rw [hsp, hC0]
      rintro ⟨d1, d2, d3⟩
      exact c5 ⟨d1, d2, lt_of_not_ge fun h => d3 ⟨hx2.le, h⟩⟩
    have hn0 : c.hi.toE < 0 → (0:ℝ) ∉ c.set := by
      intro h; rw [hC0]; rintro ⟨_, h'⟩; order
    by_cases c6 : b.hi.toE < 0
    · rw [if_pos c6]
      exact hL (Or.inl (by rw [hB0]; rintro ⟨_, h⟩; order)) hns (leaf_nn hc hb c3 c6)
    rw [if_neg c6]
    by_cases c7 : b.hi.toE = 0 ∧ c.hi.toE < 0
    · rw [if_pos c7]
      refine hL (Or.inr (hn0 c7.2)) hns (leaf_nn0 hc hb c3 hx2 c7.1 (lt_of_le_of_ne (c7.1 ▸ e1) fun h => c4 ⟨h, c7.1⟩))
    rw [if_neg c7]
    by_cases c8 : 0 < b.lo.toE
    · rw [if_pos c8]
      exact hL (Or.inl (by rw [hB0]; rintro ⟨h, _⟩; order)) hns (leaf_np hc hb c3 c8)
    rw [if_neg c8]
    by_cases c9 : b.lo.toE = 0 ∧ c.hi.toE < 0
    · rw [if_pos c9]
      refine hL (Or.inr (hn0 c9.2)) hns (leaf_np0 hc hb c3 hx2 c9.1
        (lt_of_le_of_ne (c9.1 ▸ e1) fun h => c4 ⟨c9.1, h.symm⟩))
    rw [if_neg c9]
    refine .univ (hB0.mpr ⟨by order, by order⟩) (hC0.mpr ⟨hx2.le, ?_⟩)
    by_contra hh
    push Not at hh c6 c8
    exact c5 ⟨lt_of_le_of_ne c8 fun h => c9 ⟨h, hh⟩, lt_of_le_of_ne c6 fun h => c7 ⟨h.symm, hh⟩, hh⟩
  rw [if_neg c3]
  push Not at c3
  by_cases c10 : 0 ≤ c.lo.toE
  · rw [if_pos c10]
    by_cases c4 : b.lo.toE = 0 ∧ b.hi.toE = 0
    · rw [if_pos c4]; exact hzb c4
    rw [if_neg c4]
    by_cases c5 : b.lo.toE < 0 ∧ 0 < b.hi.toE ∧ 0 < c.lo.toE
    · rw [if_pos c5]
      obtain ⟨d1, d2, d3⟩ := c5
      have hneg : ∀ a ∈ c.set, if false then a < 0 else 0 < a := by
        intro a ha
        have := d3.trans_le (hc.mem.mp ha).1
        simpa using this
      obtain ⟨q1, q2⟩ := mulSol_half (B := b.set) hneg
      obtain ⟨p1, p2⟩ := half_pos hb d1 d2
      obtain ⟨m1, m2⟩ := half_neg hb d1 d2
      refine ⟨fun h => absurd (hsp.mpr ⟨d1, d2, by rw [hC0]; rintro ⟨h, _⟩; order⟩) h, fun _ => ⟨?_, ?_⟩⟩
      · rw [q1]; simp only [Bool.false_eq_true, if_false]; rw [← m2]
        exact leaf_pn0 hc m1 c10 c3 (by simp) d1
      · rw [q2]; simp only [Bool.false_eq_true, if_false]; rw [← p2]
        exact leaf_pp0 hc p1 c10 c3 (by simp) d2
    rw [if_neg c5]
    have hns : ¬Splits b.set c.set := by
      rw [hsp, hC0]
      rintro ⟨d1, d2, d3⟩
      exact c5 ⟨d1, d2, lt_of_not_ge fun h => d3 ⟨h, c3.le⟩⟩
    have hn0 : 0 < c.lo.toE → (0:ℝ) ∉ c.set := by
      intro h; rw [hC0]; rintro ⟨h', _⟩; order
    by_cases c6 : b.hi.toE < 0
    · rw [if_pos c6]
      exact hL (Or.inl (by rw [hB0]; rintro ⟨_, h⟩; order)) hns (leaf_pn hc hb c10 c6)
    rw [if_neg c6]
    by_cases c7 : b.hi.toE = 0 ∧ 0 < c.lo.toE
    · rw [if_pos c7]
      refine hL (Or.inr (hn0 c7.2)) hns (leaf_pn0 hc hb c10 c3 c7.1 (lt_of_le_of_ne (c7.1 ▸ e1) fun h => c4 ⟨h, c7.1⟩))
    rw [if_neg c7]
    by_cases c8 : 0 < b.lo.toE
    · rw [if_pos c8]
      exact hL (Or.inl (by rw [hB0]; rintro ⟨h, _⟩; order)) hns (leaf_pp hc hb c10 c8)
    rw [if_neg c8]
    by_cases c9 : b.lo.toE = 0 ∧ 0 < c.lo.toE
    · rw [if_pos c9]
      refine hL (Or.inr (hn0 c9.2)) hns (leaf_pp0 hc hb c10 c3 c9.1
        (lt_of_le_of_ne (c9.1 ▸ e1) fun h => c4 ⟨c9.1, h.symm⟩))
    rw [if_neg c9]
    refine .univ (hB0.mpr ⟨by order, by order⟩) (hC0.mpr ⟨?_, c3.le⟩)
    by_contra hh
    push Not at hh c6 c8
    exact c5 ⟨lt_of_le_of_ne c8 fun h => c9 ⟨h, hh⟩, lt_of_le_of_ne c6 fun h => c7 ⟨h.symm, hh⟩, hh⟩
  rw [if_neg c10]
  push Not at c10
  have hz : (0:ℝ) ∈ c.set := hC0.mpr ⟨c10.le, c3.le⟩
  by_cases c4 : b.lo.toE = 0 ∧ b.hi.toE = 0
  · rw [if_pos c4]; exact .univ (hB0.mpr ⟨c4.1.le, c4.2.ge⟩) hz
  rw [if_neg c4]
  have hns : ¬Splits b.set c.set := fun h => h.2.2 hz
  by_cases c6 : b.hi.toE < 0
  · rw [if_pos c6]
    exact hL (Or.inl (by rw [hB0]; rintro ⟨_, h⟩; order)) hns (leaf_mn hc hb c10 c3 c6)
  rw [if_neg c6]
  by_cases c8 : 0 < b.lo.toE
  · rw [if_pos c8]
    exact hL (Or.inl (by rw [hB0]; rintro ⟨h, _⟩; order)) hns (leaf_mp hc hb c10 c3 c8)
  rw [if_neg c8]
  exact .univ (hB0.mpr ⟨not_lt.mp c8, not_lt.mp c6⟩) hz


section
variable {φ : Fmt}

/-- Emptying a candidate whose only common point with `x` is a bound it does not reach loses no solution. -/
theorem dropIf_spec {P x : Itv} {tl tu : Bool} {S : Set ℝ} (h : Leaf φ P tl tu S) (hx : x.Ok φ) :
    (P.dropIf x tl tu).Ok φ ∧ (P.dropIf x tl tu).set ⊆ P.set ∧ S ∩ x.set ⊆ (P.dropIf x tl tu).set := by
  unfold Itv.dropIf
  split_ifs with hc
  · refine ⟨Itv.ok_empty φ, by simp, ?_⟩
    rintro t ⟨hS, ht⟩
    exfalso
    have hP := h.tight.2.1 hS
    rw [Itv.mem_set] at hP ht
    simp only [Bool.or_eq_true, Bool.and_eq_true] at hc
    rcases hc with ⟨h1, h2⟩ | ⟨h1, h2⟩
    · rw [FP.feq_iff hP.2.1 ht.1.1] at h1
      have := h.upp h2 t hS
      rw [h1] at this
      exact absurd ht.1.2 (not_le.mpr this)
    · rw [FP.feq_iff ht.2.1 hP.1.1] at h1
      have := h.low h2 t hS
      rw [← h1] at this
      exact absurd ht.2.2 (not_le.mpr this)
  · exact ⟨h.tight.1, subset_rfl, fun t ht => h.tight.2.1 ht.1⟩

/-- The hull of two emptied candidates intersected with `x`. -/
theorem drop2_spec {P Q x : Itv} {tl tu sl su : Bool} {S S' : Set ℝ} (h : Leaf φ P tl tu S) (h' : Leaf φ Q sl su S')
    (hx : x.Ok φ) :
    let R := ((P.dropIf x tl tu).inter x).hull ((Q.dropIf x sl su).inter x)
    R.Ok φ ∧ (S ∪ S') ∩ x.set ⊆ R.set ∧ R.set ⊆ x.set ∧
      ∀ Y : Itv, Y.Ok φ → S ∪ S' ⊆ Y.set → R.set ⊆ Y.set := by
  obtain ⟨o1, a1, b1⟩ := dropIf_spec h hx
  obtain ⟨o2, a2, b2⟩ := dropIf_spec h' hx
  obtain ⟨i1, j1⟩ := Itv.inter_ok_set o1 hx
  obtain ⟨i2, j2⟩ := Itv.inter_ok_set o2 hx
  obtain ⟨k1, k2, k3⟩ := Itv.hull_tight i1 i2
  refine ⟨k1, ?_, ?_, ?_⟩
  · rintro t ⟨hS | hS, ht⟩
    · exact k2 (Or.inl (by rw [j1]; exact ⟨b1 ⟨hS, ht⟩, ht⟩))
    · exact k2 (Or.inr (by rw [j2]; exact ⟨b2 ⟨hS, ht⟩, ht⟩))
  · refine k3 x hx ?_
    rw [j1, j2]
    exact Set.union_subset Set.inter_subset_right Set.inter_subset_right
  · intro Y hY hSY
    refine k3 Y hY ?_
    rw [j1, j2]
    refine Set.union_subset (Set.inter_subset_left.trans (a1.trans (h.tight.2.2 Y hY ?_)))
      (Set.inter_subset_left.trans (a2.trans (h'.tight.2.2 Y hY ?_)))
    · exact Set.subset_union_left.trans hSY
    · exact Set.subset_union_right.trans hSY
end

theorem leaf_empty (φ : Fmt) : Leaf φ Itv.empty false false ∅ := Leaf.of_tight (tightest_empty' rfl rfl) (by simp)

/-- Two candidates that together enclose the solution set of reverse multiplication. -/
theorem mulRevPairT_leaves {φ : Fmt} {b c : Itv} (hb : b.Ok φ) (hc : c.Ok φ) :
    ∃ S S' : Set ℝ, S ∪ S' = MulSol b.set c.set ∧
      Leaf φ (φ.mulRevPairT b c).fst (φ.mulRevPairT b c).fl (φ.mulRevPairT b c).fu S ∧
      Leaf φ (φ.mulRevPairT b c).snd (φ.mulRevPairT b c).sl (φ.mulRevPairT b c).su S' := by
  rcases hb.cases with rfl | nb
  · refine ⟨∅, ∅, ?_, ?_, ?_⟩
    · ext t; simp [MulSol]
    · simpa [Fmt.mulRevPairT] using leaf_empty φ
    · simpa [Fmt.mulRevPairT] using leaf_empty φ
  rcases hc.cases with rfl | nc
  · refine ⟨∅, ∅, ?_, ?_, ?_⟩
    · ext t; simp [MulSol]
    · simpa [Fmt.mulRevPairT] using leaf_empty φ
    · simpa [Fmt.mulRevPairT] using leaf_empty φ
  obtain ⟨h1, h2⟩ := mulRevPairT_spec nb nc
  by_cases hs : Splits b.set c.set
  · refine ⟨_, _, ?_, h2 hs⟩
    rw [← Set.inter_union_distrib_left, Set.inter_eq_left]
    intro t ht
    rcases lt_trichotomy t 0 with h | rfl | h
    · exact Or.inl h
    · obtain ⟨s, _, h⟩ := ht
      rw [mul_zero] at h; exact absurd h hs.2.2
    · exact Or.inr h
  · obtain ⟨a1, a2, a3, a4⟩ := h1 hs
    refine ⟨_, ∅, Set.union_empty _, a1, ?_⟩
    rw [a2, a3, a4]; exact leaf_empty φ


theorem quot_ordConnected {B C : Set ℝ} (hB : B.OrdConnected) (hC : C.OrdConnected)
    (h : (∀ b ∈ B, 0 ≤ b) ∨ ∀ b ∈ B, b ≤ 0) : (quotSet C B).OrdConnected := by
  have key : ∀ D : Set ℝ, D.OrdConnected → (∀ b ∈ D, b ≠ 0) → (∀ b, b ∈ D ↔ b ∈ B ∧ b ≠ 0) →
      (quotSet C B).OrdConnected := by
    intro D hD h0 hDB
    have e : quotSet C B = (fun p : ℝ × ℝ => p.1 / p.2) '' (C ×ˢ D) := by
      ext t; constructor
      · rintro ⟨a, ha, b, hb, hb0, rfl⟩; exact ⟨(a, b), ⟨ha, (hDB b).mpr ⟨hb, hb0⟩⟩, rfl⟩
      · rintro ⟨⟨a, b⟩, ⟨ha, hb⟩, rfl⟩
        exact ⟨a, ha, b, ((hDB b).mp hb).1, h0 b hb, rfl⟩
    rw [e]
    refine IsPreconnected.ordConnected ?_
    refine IsPreconnected.image ?_ _ ?_
    · exact (hC.isPreconnected).prod hD.isPreconnected
    · exact continuousOn_fst.div continuousOn_snd fun p hp => h0 _ hp.2
  rcases h with h | h
  · refine key (B ∩ Set.Ioi 0) (hB.inter Set.ordConnected_Ioi) (fun b hb => hb.2.ne') fun b => ?_
    exact ⟨fun hb => ⟨hb.1, hb.2.ne'⟩, fun hb => ⟨hb.1, lt_of_le_of_ne (h b hb.1) (Ne.symm hb.2)⟩⟩
  · refine key (B ∩ Set.Iio 0) (hB.inter Set.ordConnected_Iio) (fun b hb => hb.2.ne) fun b => ?_
    exact ⟨fun hb => ⟨hb.1, hb.2.ne⟩, fun hb => ⟨hb.1, lt_of_le_of_ne (h b hb.1) hb.2⟩⟩

theorem Itv.ordConnected (x : Itv) : x.set.OrdConnected := by
  refine ⟨fun a ha b hb t ht => ?_⟩
  rw [Itv.mem_set] at *
  exact ⟨⟨ha.1.1, ha.1.2.trans (EReal.coe_le_coe_iff.mpr ht.1)⟩, hb.2.1, (EReal.coe_le_coe_iff.mpr ht.2).trans hb.2.2⟩

theorem mulSol_ordConnected {B C : Set ℝ} (hB : B.OrdConnected) (hC : C.OrdConnected) (h : ¬Splits B C) :
    (MulSol B C).OrdConnected := by
  by_cases h0 : (0:ℝ) ∈ B ∧ (0:ℝ) ∈ C
  · rw [mulSol_univ h0.1 h0.2]; exact Set.ordConnected_univ
  have h1 : (0:ℝ) ∉ B ∨ (0:ℝ) ∉ C := by tauto
  rw [mulSol_eq_quot h1]
  refine quot_ordConnected hB hC ?_
  by_contra hc
  push Not at hc
  obtain ⟨⟨p, hp, hp0⟩, q, hq, hq0⟩ := hc
  have hzB : (0:ℝ) ∈ B := hB.out hp hq ⟨hp0.le, hq0.le⟩
  exact h ⟨⟨p, hp, hp0⟩, ⟨q, hq, hq0⟩, fun hz => h0 ⟨hzB, hz⟩⟩

theorem mulSol_halves {B C : Set ℝ} (hB : B.OrdConnected) (hC : C.OrdConnected) (h : Splits B C) :
    (MulSol B C ∩ Set.Iio 0).OrdConnected ∧ (MulSol B C ∩ Set.Ioi 0).OrdConnected ∧
    (C.Nonempty → (MulSol B C ∩ Set.Iio 0).Nonempty ∧ (MulSol B C ∩ Set.Ioi 0).Nonempty) := by
  have hn : (∀ a ∈ C, if true then a < 0 else 0 < a) ∨ ∀ a ∈ C, if false then a < 0 else 0 < a := by
    by_contra hc
    push Not at hc
    simp only [if_true, Bool.false_eq_true, if_false] at hc
    obtain ⟨⟨a, ha, ha0⟩, d, hd, hd0⟩ := hc
    push Not at ha0 hd0
    exact h.2.2 (hC.out hd ha ⟨hd0, ha0⟩)
  obtain ⟨⟨p, hp, hp0⟩, ⟨q, hq, hq0⟩, _⟩ := h
  have hpos : (quotSet C (B ∩ Set.Ici 0)).OrdConnected :=
    quot_ordConnected (hB.inter Set.ordConnected_Ici) hC (Or.inl fun b hb => hb.2)
  have hneg : (quotSet C (B ∩ Set.Iic 0)).OrdConnected :=
    quot_ordConnected (hB.inter Set.ordConnected_Iic) hC (Or.inr fun b hb => hb.2)
  have npos : C.Nonempty → (quotSet C (B ∩ Set.Ici 0)).Nonempty := fun ⟨a, ha⟩ =>
    ⟨_, a, ha, q, ⟨hq, hq0.le⟩, hq0.ne', rfl⟩
  have nneg : C.Nonempty → (quotSet C (B ∩ Set.Iic 0)).Nonempty := fun ⟨a, ha⟩ =>
    ⟨_, a, ha, p, ⟨hp, hp0.le⟩, hp0.ne, rfl⟩
  rcases hn with hn | hn
  · obtain ⟨q1, q2⟩ := mulSol_half (B := B) hn
    simp only [if_true] at q1 q2
    rw [q1, q2]; exact ⟨hpos, hneg, fun h => ⟨npos h, nneg h⟩⟩
  · obtain ⟨q1, q2⟩ := mulSol_half (B := B) hn
    simp only [Bool.false_eq_true, if_false] at q1 q2
    rw [q1, q2]; exact ⟨hneg, hpos, fun h => ⟨nneg h, npos h⟩⟩

end P1788
