import Verif.SpecRev
import Verif.Lemmas.TwoSum
import Verif.Props.C04
import Verif.Props.C23
import Verif.Props.C28
import Verif.Props.C33

/-!
# C29 Cancellative addition and subtraction

The full property: for bounded non-empty `x`, `y` with `wid x ≥ wid y`, `cancel_minus(x,y)` is the tightest `z` with
`x ⊆ y + z`; it is entire if `wid x < wid y`.

The first part holds without restriction (`C29_minus`).  The second is false of the code (`C29_false_invalid`,
`C29_false_narrow`): if the upper bound of `x` is the largest finite number, `two_sum` may overflow in an intermediate
step, and the widths are taken to be equal.  `C29_minus_narrow` says exactly for which pairs this happens (`CancelBad`);
the theorems with suffix `_partial` exclude these pairs.
-/

namespace P1788

variable {φ : Fmt} {x y : Itv} {T T1 T2 : NumTy}

theorem val_lo (h : x.NE φ) (hb : x.lo ≠ .ninf ∧ x.hi ≠ .pinf) : Val x.lo x.lo.q ∧ Val x.hi x.hi.q :=
  ⟨⟨h.lo_ne, (fin_of_bounded h hb).1⟩, ⟨h.hi_ne, (fin_of_bounded h hb).2.1⟩⟩

theorem Val.neg {a : FP} {q : ℚ} (h : Val a q) : Val a.neg (-q) :=
  ⟨by simpa using h.1, by rw [FP.toE_neg, h.2]; push_cast; rfl⟩

theorem cancelBad_cast {a b c d : ℚ} : CancelBad φ a b c d ↔ b = φ.maxFin ∧ d ≤ a ∧
    (∃ k : ℤ, Even k ∧ 2 ^ (φ.p - 1) < k ∧ k < 2 ^ φ.p ∧ b - a = (k - 1 / 2) * 2 ^ (φ.emax - φ.p)) ∧
    b - a < d - c ∧ d - c ≤ b - a + 2 ^ (φ.emax - φ.p) := by
  unfold CancelBad
  refine and_congr (by norm_cast) (and_congr (by norm_cast) (and_congr ?_ (and_congr (by norm_cast) ?_)))
  · refine exists_congr fun k => and_congr Iff.rfl (and_congr Iff.rfl (and_congr Iff.rfl ?_))
    rw [← Rat.cast_inj (α := ℝ)]; push_cast; rfl
  · rw [← Rat.cast_le (K := ℝ)]; push_cast; rfl

theorem ite_iff {P Q : Prop} {i : Decidable P} {j : Decidable Q} (h : P ↔ Q) {a b : Itv} :
    @ite _ P i a b = @ite _ Q j a b := by
  by_cases hp : P
  · rw [if_pos hp, if_pos (h.mp hp)]
  · rw [if_neg hp, if_neg (fun hq => hp (h.mpr hq))]

open Classical in
theorem cancel_core (hx : x.NE φ) (hy : y.NE φ) (bx : x.lo ≠ .ninf ∧ x.hi ≠ .pinf) (by' : y.lo ≠ .ninf ∧ y.hi ≠ .pinf) :
    x.cancelMinus φ y = if x.hi.q - x.lo.q < y.hi.q - y.lo.q ∧ ¬ CancelBad φ x.lo.q x.hi.q y.lo.q y.hi.q then Itv.entire
      else ⟨φ.sub .D x.lo y.lo, φ.sub .U x.hi y.hi⟩ := by
  obtain ⟨xl, xu, rxl, rxu, lx⟩ := fin_of_bounded hx bx
  obtain ⟨yl, yu, ryl, ryu, ly⟩ := fin_of_bounded hy by'
  obtain ⟨vxl, vxu⟩ := val_lo hx bx
  obtain ⟨vyl, vyu⟩ := val_lo hy by'
  have hv : (!x.isValid || !x.isValid) = false := by rw [hx.isValid]; rfl
  have hinf : (x.lo.feq .ninf || x.hi.feq .pinf || y.lo.feq .ninf || y.hi.feq .pinf) = false := by
    simp [Itv.feq_ninf, Itv.feq_pinf, bx.1, bx.2, by'.1, by'.2]
  have hos := (C23_overlap hx.ok hy.ok _).mp rfl
  unfold Itv.cancelMinus
  rw [hv, hinf, φ.subNS_eq .D hx.lo_in hy.lo_in, φ.subNS_eq .U hx.hi_in hy.hi_in]
  simp only [Bool.false_eq_true, if_false]
  have axl := rxl.abs_le; have axu := rxu.abs_le; have ayl := ryl.abs_le; have ayu := ryu.abs_le
  have ixl := abs_le.mp axl; have ixu := abs_le.mp axu; have iyl := abs_le.mp ayl; have iyu := abs_le.mp ayu
  have hm := φ.maxFin_pos
  have hu := two_zpow_pos (φ.emax - φ.p)
  rw [cancelBad_cast]
  -- the test of the widths
  have P1 : (x.hi.q + -x.lo.q) + (y.hi.q + -y.lo.q) ≤ 2 * φ.maxFin → ¬ (x.hi.q = φ.maxFin ∧ ¬ y.hi.q ≤ x.lo.q) →
      (pairLt (φ.twoSum x.hi x.lo.neg) (φ.twoSum y.hi y.lo.neg) = true ↔
        x.hi.q - x.lo.q < y.hi.q - y.lo.q ∧ ¬ (x.hi.q = φ.maxFin ∧ y.hi.q ≤ x.lo.q ∧
          (∃ k : ℤ, Even k ∧ 2 ^ (φ.p - 1) < k ∧ k < 2 ^ φ.p ∧ x.hi.q - x.lo.q = (k - 1 / 2) * 2 ^ (φ.emax - φ.p)) ∧
          x.hi.q - x.lo.q < y.hi.q - y.lo.q ∧ y.hi.q - y.lo.q ≤ x.hi.q - x.lo.q + 2 ^ (φ.emax - φ.p))) := fun h hc => by
    rw [pairLt_twoSum vxu vxl.neg vyu vyl.neg rxu.repU rxl.repU.neg ryu.repU ryl.repU.neg axu (by rwa [abs_neg]) ayu
      (by rw [abs_neg]; exact ayl) (by linarith) h, ← sub_eq_add_neg, ← sub_eq_add_neg]
    refine and_congr_right fun hw => not_congr ?_
    have ht := Fmt.tie_iff (φ := φ) (w := x.hi.q - x.lo.q) (v := y.hi.q - y.lo.q) (by linarith)
    constructor
    · rintro ⟨h1, h2, h3⟩
      have h2' : |φ.rn (y.hi.q - y.lo.q)| ≤ φ.maxFin := by rwa [← h1]
      rcases h3 with h3 | h3
      · rcases (Fmt.over_iff axu (by rwa [← sub_eq_add_neg])).mp h3 with ⟨h4, h5⟩ | ⟨h4, h5⟩
        · rw [← sub_eq_add_neg] at h5
          refine ⟨h4, not_not.mp fun h => hc ⟨h4, h⟩, ht.mp ⟨h5, h2, hw, h1⟩⟩
        · have e : x.hi.q + -x.lo.q = 0 := by linarith
          rw [e, Fmt.rn_zero] at h5
          linarith
      · have hE := abs_le.mp (Fmt.err_le_of_le_maxFin h2)
        rcases (Fmt.over_iff ayu (by rwa [← sub_eq_add_neg])).mp h3 with ⟨h4, h5⟩ | ⟨h4, h5⟩
        · rw [← sub_eq_add_neg] at h5; linarith
        · have e : y.hi.q + -y.lo.q = 0 := by linarith
          rw [e, Fmt.rn_zero] at h5
          linarith
    · rintro ⟨h4, -, h5⟩
      obtain ⟨h6, h7, -, h8⟩ := ht.mpr h5
      refine ⟨h8, h7, .inl ((Fmt.over_iff axu (by rwa [← sub_eq_add_neg])).mpr (.inl ⟨h4, ?_⟩))⟩
      rw [← sub_eq_add_neg]; exact h6
  -- the test of the distances
  have P2 : -(2 * φ.maxFin) ≤ (y.lo.q + -x.lo.q) + (y.hi.q + -x.hi.q) →
      (y.lo.q + -x.lo.q) + (y.hi.q + -x.hi.q) ≤ 2 * φ.maxFin → y.lo.q < y.hi.q →
      (pairLt (φ.twoSum y.lo x.lo.neg) (φ.twoSum y.hi x.hi.neg) = true ↔
        x.hi.q - x.lo.q < y.hi.q - y.lo.q) := fun h h' hl => by
    rw [pairLt_twoSum vyl vxl.neg vyu vxu.neg ryl.repU rxl.repU.neg ryu.repU rxu.repU.neg ayl (by rwa [abs_neg]) ayu
      (by rw [abs_neg]; exact axu) h h', and_iff_left_of_imp]
    · constructor <;> intro h <;> linarith
    · rintro hw ⟨h1, h2, h3⟩
      have h2' : |φ.rn (y.hi.q + -x.hi.q)| ≤ φ.maxFin := by rwa [← h1]
      have hE := abs_le.mp (Fmt.err_le_of_le_maxFin h2)
      have hE' := abs_le.mp (Fmt.err_le_of_le_maxFin h2')
      rcases h3 with h3 | h3
      · rcases (Fmt.over_iff ayl h2).mp h3 with ⟨h4, h5⟩ | ⟨h4, h5⟩ <;> linarith
      · rcases (Fmt.over_iff ayu h2').mp h3 with ⟨h4, h5⟩ | ⟨h4, h5⟩ <;> linarith
  generalize x.overlap y = os at hos ⊢
  have n1 := hx.nonempty.ne_empty
  have n2 := hy.nonempty.ne_empty
  cases os <;> simp only [OverlapSpec, n1, n2, einf_set hx, einf_set hy, esup_set hx, esup_set hy, xl, xu, yl, yu,
    EReal.coe_lt_coe_iff, EReal.coe_eq_coe_iff, Rat.cast_lt, Rat.cast_inj, ne_eq, not_true_eq_false, not_false_eq_true,
    true_and, false_and, and_false] at hos
  case before =>
    have := P1 (by linarith) (fun h => by linarith [h.1])
    simp only [reduceCtorEq, false_or, or_false, if_false, true_or, or_true, true_and, false_and]
    exact ite_iff this
  case meets =>
    have := P1 (by linarith) (fun h => by linarith [h.1])
    simp only [reduceCtorEq, false_or, or_false, if_false, true_or, or_true, true_and, false_and]
    exact ite_iff this
  case metBy =>
    have := P1 (by linarith) (fun h => h.2 (by linarith))
    simp only [reduceCtorEq, false_or, or_false, if_false, true_or, or_true, true_and, false_and]
    exact ite_iff this
  case after =>
    have := P1 (by linarith) (fun h => h.2 (by linarith))
    simp only [reduceCtorEq, false_or, or_false, if_false, true_or, or_true, true_and, false_and]
    exact ite_iff this
  case overlaps =>
    have := P2 (by linarith) (by linarith) (by linarith)
    simp only [reduceCtorEq, false_or, or_false, if_false, true_or, or_true, true_and, false_and]
    exact ite_iff (this.trans (and_iff_left (fun h => absurd h.2.1 (by linarith))).symm)
  case overlappedBy =>
    have := P2 (by linarith) (by linarith) (by linarith)
    simp only [reduceCtorEq, false_or, or_false, if_false, true_or, or_true, true_and, false_and]
    exact ite_iff (this.trans (and_iff_left (fun h => absurd h.2.1 (by linarith))).symm)
  case starts =>
    simp only [reduceCtorEq, or_self, if_false, true_or, or_true, if_true]
    rw [if_pos ⟨by linarith, fun h => by linarith [h.2.1, h.2.2.2.1]⟩]
  case containedBy =>
    simp only [reduceCtorEq, or_self, if_false, true_or, or_true, if_true]
    rw [if_pos ⟨by linarith, fun h => by linarith [h.2.1, h.2.2.2.1]⟩]
  case finishes =>
    simp only [reduceCtorEq, or_self, if_false, true_or, or_true, if_true]
    refine (if_pos ⟨by linarith, ?_⟩).symm
    rintro ⟨-, h2, ⟨k, -, h3, -, h4⟩, -⟩
    have h5 : (1:ℤ) ≤ 2 ^ (φ.p - 1) := one_le_pow₀ (by norm_num)
    have h6 : (1:ℚ) < k := by exact_mod_cast h5.trans_lt h3
    nlinarith
  case equal => simp only [reduceCtorEq, or_self, if_false, false_and]; rw [if_neg (fun h => by linarith [h.1])]
  case finishedBy => simp only [reduceCtorEq, or_self, if_false, false_and]; rw [if_neg (fun h => by linarith [h.1])]
  case contains => simp only [reduceCtorEq, or_self, if_false, false_and]; rw [if_neg (fun h => by linarith [h.1])]
  case startedBy => simp only [reduceCtorEq, or_self, if_false, false_and]; rw [if_neg (fun h => by linarith [h.1])]

/-- Reading off the bounds of an interval given as a closed segment. -/
theorem bounds_of_Icc (hx : x.Ok φ) {a b : ℝ} (hX : x.set = Set.Icc a b) (hab : a ≤ b) :
    x.NE φ ∧ (x.lo ≠ .ninf ∧ x.hi ≠ .pinf) ∧ a = x.lo.q ∧ b = x.hi.q := by
  rcases hx.cases with rfl | h
  · rw [Itv.set_empty] at hX
    have : a ∈ Set.Icc a b := ⟨le_rfl, hab⟩
    rw [← hX] at this; exact absurd this (Set.notMem_empty a)
  have hb : x.lo ≠ .ninf ∧ x.hi ≠ .pinf := (h.bounded_iff).mp (by rw [hX]; exact Metric.isBounded_Icc a b)
  obtain ⟨xl, xu, -, -, lx⟩ := fin_of_bounded h hb
  have key : ∀ r : ℝ, (a ≤ r ∧ r ≤ b) ↔ ((x.lo.q:ℝ) ≤ r ∧ r ≤ (x.hi.q:ℝ)) := by
    intro r
    have h2 : r ∈ x.set ↔ r ∈ Set.Icc a b := by rw [hX]
    rw [h.mem, xl, xu, EReal.coe_le_coe_iff, EReal.coe_le_coe_iff] at h2
    exact h2.symm
  have lx' : (x.lo.q:ℝ) ≤ x.hi.q := by exact_mod_cast lx
  refine ⟨h, hb, ?_, ?_⟩
  · exact le_antisymm ((key _).mpr ⟨le_rfl, lx'⟩).1 ((key _).mp ⟨le_rfl, hab⟩).1
  · exact le_antisymm ((key _).mp ⟨hab, le_rfl⟩).2 ((key _).mpr ⟨lx', le_rfl⟩).2

/-- The tightest interval around the difference of the bounds is the tightest solution. -/
theorem cancels_of_tightest {R : Itv} {X Y : Set ℝ} {a b c d : ℝ} (hX : X = Set.Icc a b) (hY : Y = Set.Icc c d)
    (hab : a ≤ b) (hcd : c ≤ d) (hw : d - c ≤ b - a) (h : Tightest φ R (Set.Icc (a - c) (b - d))) :
    CancelsTo φ R X Y := by
  obtain ⟨h1, h2, h3⟩ := h
  subst hX hY
  refine ⟨h1, ?_, ?_⟩
  · rintro t ⟨ht1, ht2⟩
    rcases le_total (c + (t - a)) d with h | h
    · exact ⟨c + (t - a), ⟨by linarith, h⟩, a - c, h2 ⟨le_rfl, by linarith⟩, by ring⟩
    · exact ⟨d, ⟨hcd, le_rfl⟩, t - d, h2 ⟨by linarith, by linarith⟩, by ring⟩
  · intro Z hZ hs
    apply h3 Z hZ
    obtain ⟨y1, ⟨hy1, -⟩, z1, hz1, e1⟩ := hs a ⟨le_rfl, hab⟩
    obtain ⟨y2, ⟨-, hy2⟩, z2, hz2, e2⟩ := hs b ⟨hab, le_rfl⟩
    rcases hZ.cases with rfl | hZ
    · simp at hz1
    rintro r ⟨hr1, hr2⟩
    rw [hZ.mem] at hz1 hz2 ⊢
    exact ⟨hz1.1.trans (EReal.coe_le_coe_iff.mpr (by linarith)),
      (EReal.coe_le_coe_iff.mpr (by linarith)).trans hz2.2⟩

theorem sub_tight (hx : x.NE φ) (hy : y.NE φ) (bx : x.lo ≠ .ninf ∧ x.hi ≠ .pinf) (by' : y.lo ≠ .ninf ∧ y.hi ≠ .pinf)
    (hw : y.hi.q - y.lo.q ≤ x.hi.q - x.lo.q) :
    Tightest φ ⟨φ.sub .D x.lo y.lo, φ.sub .U x.hi y.hi⟩
      (Set.Icc ((x.lo.q:ℝ) - y.lo.q) ((x.hi.q:ℝ) - y.hi.q)) := by
  obtain ⟨xl, xu, -, -, lx⟩ := fin_of_bounded hx bx
  obtain ⟨yl, yu, -, -, ly⟩ := fin_of_bounded hy by'
  have hw' : (x.lo.q:ℝ) - y.lo.q ≤ (x.hi.q:ℝ) - y.hi.q := by
    have := (Rat.cast_le (K := ℝ)).mpr hw
    push_cast at this; linarith
  obtain ⟨d1, d2⟩ := φ.sub_spec (m := .D) hx.lo_ne hy.lo_ne (by rw [xl]; simp) (by rw [xl]; simp)
  obtain ⟨u1, u2⟩ := φ.sub_spec (m := .U) hx.hi_ne hy.hi_ne (by rw [xu]; simp) (by rw [xu]; simp)
  have hB := box_seg (l := (((x.lo.q:ℝ) - y.lo.q : ℝ) : EReal)) (u := (((x.hi.q:ℝ) - y.hi.q : ℝ) : EReal))
    (EReal.coe_le_coe_iff.mpr hw') (EReal.coe_ne_top _) (EReal.coe_ne_bot _)
  refine (tightest_of_box hB d1 u1 (φ.sub_in _ _ _) (φ.sub_in _ _ _) ?_ ?_).of_eq ?_
  · rw [d2, xl, yl, φ.rndE_D]; rfl
  · rw [u2, xu, yu, φ.rndE_U]; rfl
  · ext r; simp only [Set.mem_ofPred_eq, EReal.coe_le_coe_iff]; rfl

/-- `cancel_minus(x,y)` for bounded non-empty `x = [a,b]` and `y = [c,d]` with `wid y ≤ wid x` is the tightest `z`
with `x ⊆ y + z`. -/
theorem C29_minus (hx : x.Ok φ) (hy : y.Ok φ) {a b c d : ℝ} (hX : x.set = Set.Icc a b) (hab : a ≤ b)
    (hY : y.set = Set.Icc c d) (hcd : c ≤ d) (hw : d - c ≤ b - a) : CancelsTo φ (x.cancelMinus φ y) x.set y.set := by
  obtain ⟨nx, bx, ea, eb⟩ := bounds_of_Icc hx hX hab
  obtain ⟨ny, by', ec, ed⟩ := bounds_of_Icc hy hY hcd
  rw [cancel_core nx ny bx by']
  have hw' : y.hi.q - y.lo.q ≤ x.hi.q - x.lo.q := by
    rw [ea, eb, ec, ed] at hw; exact_mod_cast hw
  rw [if_neg (fun h => absurd h.1 (not_lt.mpr hw'))]
  refine cancels_of_tightest hX hY hab hcd hw ?_
  rw [ea, eb, ec, ed]
  exact sub_tight nx ny bx by' hw'

/-- If `y` is wider than `x`, `cancel_minus(x,y)` is entire unless `x` and `y` are a bad pair; then it is not. -/
theorem C29_minus_narrow (hx : x.Ok φ) (hy : y.Ok φ) {a b c d : ℝ} (hX : x.set = Set.Icc a b) (hab : a ≤ b)
    (hY : y.set = Set.Icc c d) (hcd : c ≤ d) (hw : b - a < d - c) :
    x.cancelMinus φ y = Itv.entire ↔ ¬ CancelBad φ a b c d := by
  obtain ⟨nx, bx, ea, eb⟩ := bounds_of_Icc hx hX hab
  obtain ⟨ny, by', ec, ed⟩ := bounds_of_Icc hy hY hcd
  rw [cancel_core nx ny bx by', ea, eb, ec, ed]
  rw [ea, eb, ec, ed] at hw
  have hw' : x.hi.q - x.lo.q < y.hi.q - y.lo.q := by exact_mod_cast hw
  constructor
  · intro h hb
    rw [if_neg (fun h => h.2 hb)] at h
    have h1 : φ.sub .D x.lo y.lo = .ninf := congrArg Itv.lo h
    obtain ⟨xl, xu, rxl, rxu, lx⟩ := fin_of_bounded nx bx
    obtain ⟨yl, yu, ryl, ryu, ly⟩ := fin_of_bounded ny by'
    obtain ⟨d1, d2⟩ := φ.sub_spec (m := .D) nx.lo_ne ny.lo_ne (by rw [xl]; simp) (by rw [xl]; simp)
    rw [h1, xl, yl, φ.rndE_D] at d2
    obtain ⟨hb1, hb2, -, hb3, hb4⟩ := cancelBad_cast.mp hb
    have hge : (FP.fin 0).toE ≤ φ.rdE (((x.lo.q:ℝ):EReal) - ((y.lo.q:ℝ):EReal)) := by
      have h0 : (0:ℝ) ≤ (x.lo.q:ℝ) - y.lo.q := by
        have : y.lo.q ≤ x.lo.q := ly.trans hb2
        have : (y.lo.q:ℝ) ≤ x.lo.q := by exact_mod_cast this
        linarith
      rw [φ.le_rdE_iff (f := .fin 0) φ.rep_zero _ (by simp), ← EReal.coe_sub]
      exact EReal.coe_le_coe_iff.mpr (by simpa using h0)
    rw [← d2] at hge
    simp [FP.toE] at hge
  · intro hb
    rw [if_pos ⟨hw', hb⟩]

/-- `cancel_minus(x,y)` is entire if `y` is wider than `x` (bad pairs excluded). -/
theorem C29_minus_narrow_partial (hx : x.Ok φ) (hy : y.Ok φ) {a b c d : ℝ} (hX : x.set = Set.Icc a b) (hab : a ≤ b)
    (hY : y.set = Set.Icc c d) (hcd : c ≤ d) (hw : b - a < d - c) (hb : ¬ CancelBad φ a b c d) :
    x.cancelMinus φ y = Itv.entire :=
  (C29_minus_narrow hx hy hX hab hY hcd hw).mpr hb

/-- `cancel_minus` with an unbounded operand is entire, and so is the result for empty `y` and non-empty `x`. -/
theorem C29_unbounded (hx : x.Ok φ) (hy : y.Ok φ)
    (h : ¬ Bornology.IsBounded x.set ∨ ¬ Bornology.IsBounded y.set ∨ (x.set.Nonempty ∧ y.set = ∅)) :
    x.cancelMinus φ y = Itv.entire := by
  have key : ∀ {z : Itv}, z.Ok φ → ¬ Bornology.IsBounded z.set → z.lo = .ninf ∨ z.hi = .pinf := by
    intro z hz hb
    rcases hz.cases with rfl | h
    · exact absurd (by rw [Itv.set_empty]; exact Bornology.isBounded_empty) hb
    · rw [h.bounded_iff] at hb; tauto
  unfold Itv.cancelMinus
  rw [hx.isValid]
  simp only [Bool.not_true, Bool.or_self, Bool.false_eq_true, if_false, Itv.feq_ninf, Itv.feq_pinf, Bool.or_eq_true,
    decide_eq_true_eq]
  rcases h with h | h | ⟨h, h'⟩
  · rw [if_pos]; have := key hx h; tauto
  · rw [if_pos]; have := key hy h; tauto
  · rw [hy.set_eq_empty_iff] at h'
    subst h'
    have hx' : x.overlap Itv.empty = .secondEmpty := (C23_overlap hx (Itv.ok_empty φ) _).mpr ⟨h.ne_empty, Itv.set_empty⟩
    rw [hx']
    simp

/-- `cancel_minus(∅, y)` is empty for bounded `y`. -/
theorem C29_empty (hy : y.Ok φ) (hb : Bornology.IsBounded y.set) : Itv.empty.cancelMinus φ y = Itv.empty := by
  unfold Itv.cancelMinus
  rcases hy.cases with rfl | h
  · rfl
  · rw [h.bounded_iff] at hb
    have : Itv.empty.overlap y = .firstEmpty :=
      (C23_overlap (Itv.ok_empty φ) hy _).mpr ⟨Itv.set_empty, h.nonempty.ne_empty⟩
    rw [this]
    simp [Itv.feq_ninf, Itv.feq_pinf, hb.1, hb.2, Itv.empty]

theorem neg_Icc {Y : Set ℝ} {c d : ℝ} (h : Y = Set.Icc c d) : {z | ∃ a ∈ Y, z = -a} = Set.Icc (-d) (-c) := by
  subst h
  ext r; constructor
  · rintro ⟨a, ⟨h1, h2⟩, rfl⟩; exact ⟨by linarith, by linarith⟩
  · rintro ⟨h1, h2⟩; exact ⟨-r, ⟨by linarith, by linarith⟩, by ring⟩

/-- `cancel_plus(x,y)` is the tightest `z` with `x ⊆ -y + z` if `wid y ≤ wid x`, and if `wid x < wid y` it is entire unless
`x` and `-y` are a bad pair. -/
theorem C29_plus (hx : x.Ok φ) (hy : y.Ok φ) {a b c d : ℝ} (hX : x.set = Set.Icc a b) (hab : a ≤ b)
    (hY : y.set = Set.Icc c d) (hcd : c ≤ d) :
    (d - c ≤ b - a → CancelsTo φ (x.cancelPlus φ y) x.set {z | ∃ t ∈ y.set, z = -t}) ∧
    (b - a < d - c → (x.cancelPlus φ y = Itv.entire ↔ ¬ CancelBad φ a b (-d) (-c))) := by
  obtain ⟨h1, h2⟩ := C04_neg φ hy
  have e := neg_Icc hY
  refine ⟨fun hw => ?_, fun hw => ?_⟩
  · rw [← h2]
    exact C29_minus hx h1.1 hX hab (h2.trans e) (by linarith) (by linarith)
  · exact C29_minus_narrow hx h1.1 hX hab (h2.trans e) (by linarith) (by linarith)

/-- `cancel_plus` with its two cases (bad pairs excluded). -/
theorem C29_plus_partial (hx : x.Ok φ) (hy : y.Ok φ) {a b c d : ℝ} (hX : x.set = Set.Icc a b) (hab : a ≤ b)
    (hY : y.set = Set.Icc c d) (hcd : c ≤ d) (hb : ¬ CancelBad φ a b (-d) (-c)) :
    (d - c ≤ b - a → CancelsTo φ (x.cancelPlus φ y) x.set {z | ∃ t ∈ y.set, z = -t}) ∧
    (b - a < d - c → x.cancelPlus φ y = Itv.entire) :=
  ⟨(C29_plus hx hy hX hab hY hcd).1, fun hw => ((C29_plus hx hy hX hab hY hcd).2 hw).mpr hb⟩

/-- `cancel_plus` with an unbounded or empty operand. -/
theorem C29_plus_rest (hx : x.Ok φ) (hy : y.Ok φ) :
    (¬ Bornology.IsBounded x.set ∨ ¬ Bornology.IsBounded y.set ∨ (x.set.Nonempty ∧ y.set = ∅) →
      x.cancelPlus φ y = Itv.entire) ∧
    (Bornology.IsBounded y.set → Itv.empty.cancelPlus φ y = Itv.empty) := by
  obtain ⟨h1, h2⟩ := C04_neg φ hy
  have e : {z | ∃ a ∈ y.set, z = -a} = -y.set := by
    ext r
    simp only [Set.mem_neg]
    exact ⟨fun ⟨a, ha, h⟩ => by rw [h]; simpa using ha, fun h => ⟨-r, h, by simp⟩⟩
  have hb : Bornology.IsBounded (Fmt.negI y).set ↔ Bornology.IsBounded y.set := by
    rw [h2, e]
    exact ⟨fun h => by simpa using h.neg, fun h => h.neg⟩
  have hn : y.set = ∅ → (Fmt.negI y).set = ∅ := fun h => by rw [h2, e, h]; simp
  refine ⟨fun h => C29_unbounded hx h1.1 ?_, fun h => C29_empty h1.1 (hb.mpr h)⟩
  rcases h with h | h | ⟨h, h'⟩
  · exact Or.inl h
  · exact Or.inr (Or.inl fun hh => h (hb.mp hh))
  · exact Or.inr (Or.inr ⟨h, hn h'⟩)

/-- Decorated operands: NaI is propagated, otherwise the interval part is the bare result and the decoration `trv`. -/
theorem C29_decorated {x y : DItv} (hx : x.Ok φ) (hy : y.Ok φ) :
    (x.IsNaI ∨ y.IsNaI → x.cancelMinus φ y = DItv.nai ∧ x.cancelPlus φ y = DItv.nai) ∧
    (¬ x.IsNaI → ¬ y.IsNaI →
      x.cancelMinus φ y = ⟨x.itv.cancelMinus φ y.itv, .trv⟩ ∧
      x.cancelPlus φ y = ⟨x.itv.cancelPlus φ y.itv, .trv⟩) := by
  have en : Op1.neg.decd φ = Fmt.negD := rfl
  rw [DItv.isNaI_iff hx, DItv.isNaI_iff hy]
  constructor
  · rintro (h | h)
    · have := (hx.isNai_iff).mpr h
      simp [DItv.cancelMinus, DItv.cancelPlus, this]
    · have := (hy.isNai_iff).mpr h
      refine ⟨by simp [DItv.cancelMinus, this], ?_⟩
      have e : Op1.neg.decd φ y = DItv.nai := by rw [en]; simp [Fmt.negD, this]
      unfold DItv.cancelPlus
      rw [e]
      have : DItv.nai.isNai = true := rfl
      simp [DItv.cancelMinus, this]
  · intro h1 h2
    have i1 := hx.isNai_false h1
    have i2 := hy.isNai_false h2
    refine ⟨by simp [DItv.cancelMinus, hx.isValid, hy.isValid, i1, i2], ?_⟩
    have e : Op1.neg.decd φ y = ⟨Fmt.negI y.itv, y.dec⟩ := by rw [en]; simp [Fmt.negD, hy.isValid, i2]
    have ho : (Op1.neg.decd φ y).Ok φ := Op1.decd_ok _ hy
    unfold DItv.cancelPlus Itv.cancelPlus
    have i3 : (Op1.neg.decd φ y).isNai = false := ho.isNai_false (by rw [e]; exact h2)
    simp only [DItv.cancelMinus, hx.isValid, ho.isValid, i1, i3, Bool.not_true, Bool.or_self, Bool.false_eq_true,
      if_false]
    rw [e]

/-- Mixed-type `cancel_minus` computes in the most precise format and rounds outward to the result format. -/
theorem C29_mixed (hx : x.Ok T1.fmt) (hy : y.Ok T2.fmt) {a b c d : ℝ} (hX : x.set = Set.Icc a b) (hab : a ≤ b)
    (hY : y.set = Set.Icc c d) (hcd : c ≤ d) :
    (d - c ≤ b - a → CancelsTo T.fmt (x.cancelMinusMixed T T1 T2 y) x.set y.set) ∧
    (b - a < d - c → ¬ CancelBad (T.maxPrec [T1, T2]).fmt a b c d → x.cancelMinusMixed T T1 T2 y = Itv.entire) := by
  have hs1 : T1.fmt.Sub (T.maxPrec [T1, T2]).fmt := NumTy.sub_max (by simp)
  have hs2 : T2.fmt.Sub (T.maxPrec [T1, T2]).fmt := NumTy.sub_max (by simp)
  have hs : T.fmt.Sub (T.maxPrec [T1, T2]).fmt := NumTy.sub_max (by simp)
  have ox := (convertHull_tight (φ := (T.maxPrec [T1, T2]).fmt) hx).1
  have oy := (convertHull_tight (φ := (T.maxPrec [T1, T2]).fmt) hy).1
  have ex := convert_exact hs1 hx
  have ey := convert_exact hs2 hy
  unfold Itv.cancelMinusMixed
  rw [hx.isValid, hy.isValid]
  simp only [Bool.not_true, Bool.or_self, Bool.false_eq_true, if_false]
  refine ⟨fun hw => ?_, fun hw hb => ?_⟩
  · obtain ⟨nx, bx, ea, eb⟩ := bounds_of_Icc ox (ex.trans hX) hab
    obtain ⟨ny, by', ec, ed⟩ := bounds_of_Icc oy (ey.trans hY) hcd
    rw [cancel_core nx ny bx by']
    generalize (T.maxPrec [T1, T2]).fmt.convertHull x = x' at *
    generalize (T.maxPrec [T1, T2]).fmt.convertHull y = y' at *
    have hw' : y'.hi.q - y'.lo.q ≤ x'.hi.q - x'.lo.q := by
      rw [ea, eb, ec, ed] at hw; exact_mod_cast hw
    rw [if_neg (fun h => absurd h.1 (not_lt.mpr hw'))]
    refine cancels_of_tightest hX hY hab hcd hw ?_
    rw [ea, eb, ec, ed]
    exact tight_convert hs (sub_tight nx ny bx by' hw')
  · rw [C29_minus_narrow_partial ox oy (ex.trans hX) hab (ey.trans hY) hcd hw hb]
    rfl

/-- A number of a format is smaller than the largest number of every greater format. -/
theorem NumTy.lt_max (h : T1 ≠ T) (hs : T1.fmt.Sub T.fmt) : T1.fmt.maxFin < T.fmt.maxFin := by
  refine lt_of_le_of_ne ((le_abs_self _).trans (hs _ T1.fmt.rep_maxFin).abs_le) ?_
  cases T1 <;> cases T <;> first | exact absurd rfl h | decide +kernel

/-- If the most precise format is not the one of the first operand there are no bad pairs. -/
theorem C29_mixed_wide (h1 : T1 ≠ T.maxPrec [T1, T2]) (hx : x.Ok T1.fmt) (hy : y.Ok T2.fmt) {a b c d : ℝ}
    (hX : x.set = Set.Icc a b) (hab : a ≤ b) (hY : y.set = Set.Icc c d) (hcd : c ≤ d) :
    (d - c ≤ b - a → CancelsTo T.fmt (x.cancelMinusMixed T T1 T2 y) x.set y.set) ∧
    (b - a < d - c → x.cancelMinusMixed T T1 T2 y = Itv.entire) := by
  have h := C29_mixed (T := T) hx hy hX hab hY hcd
  refine ⟨h.1, fun hw => h.2 hw fun hb => ?_⟩
  obtain ⟨nx, bx, ea, eb⟩ := bounds_of_Icc hx hX hab
  have := (abs_le.mp (fin_of_bounded nx bx).2.2.2.1.abs_le).2
  have hl := NumTy.lt_max h1 (NumTy.sub_max (by simp))
  have e := hb.1
  rw [eb] at e
  have e' : x.hi.q = (T.maxPrec [T1, T2]).fmt.maxFin := by exact_mod_cast e
  linarith

/-- Mixed-type `cancel_plus`: right if no number of the type of `y` is rounded in the result type (otherwise `-y` is rounded first,
see `C29_false_mixed_plus`). -/
theorem C29_mixed_plus (hs : T2.fmt.Sub T.fmt) (hx : x.Ok T1.fmt) (hy : y.Ok T2.fmt) {a b c d : ℝ}
    (hX : x.set = Set.Icc a b) (hab : a ≤ b) (hY : y.set = Set.Icc c d) (hcd : c ≤ d) :
    (d - c ≤ b - a → CancelsTo T.fmt (x.cancelPlusMixed T T1 T2 y) x.set {z | ∃ t ∈ y.set, z = -t}) ∧
    (b - a < d - c → ¬ CancelBad (T.maxPrec [T1, T]).fmt a b (-d) (-c) → x.cancelPlusMixed T T1 T2 y = Itv.entire) := by
  have h := C33_unary (T := T) (op := .neg) (by decide) hy
  have e : Op1.neg.fn '' (y.set ∩ Op1.neg.dom) = {z | ∃ t ∈ y.set, z = -t} := by
    ext z
    simp only [Op1.fn, Op1.dom, Set.inter_univ, Set.mem_image, Set.mem_ofPred_eq]
    exact ⟨fun ⟨t, h, e⟩ => ⟨t, h, e.symm⟩, fun ⟨t, h, e⟩ => ⟨t, h, e.symm⟩⟩
  rw [e] at h
  obtain ⟨h1, h2⟩ := C04_neg T.fmt (hs.ok hy)
  have es : (Op1.neg.mixed T T2 y).set = {z | ∃ t ∈ y.set, z = -t} := (h.set_unique h1).trans h2
  obtain ⟨m1, m2⟩ := C29_mixed (T := T) hx h.1 hX hab (es.trans (neg_Icc hY)) (by linarith)
  rw [es] at m1
  exact ⟨fun hw => m1 (by linarith), fun hw => m2 (by linarith)⟩

/-- Mixed-type decorated `cancel_minus`: NaI is propagated; otherwise the bare result, decorated `trv`. -/
theorem C29_mixed_decorated {x y : DItv} (hx : x.Ok T1.fmt) (hy : y.Ok T2.fmt) :
    (x.IsNaI ∨ y.IsNaI → x.cancelMinusMixed T T1 T2 y = DItv.nai) ∧
    (¬ x.IsNaI → ¬ y.IsNaI → x.cancelMinusMixed T T1 T2 y = ⟨x.itv.cancelMinusMixed T T1 T2 y.itv, .trv⟩) := by
  rw [DItv.isNaI_iff hx, DItv.isNaI_iff hy]
  constructor
  · rintro (h | h)
    · have := (hx.isNai_iff).mpr h
      simp [DItv.cancelMinusMixed, this]
    · have := (hy.isNai_iff).mpr h
      simp [DItv.cancelMinusMixed, this]
  · intro h1 h2
    have i1 := hx.isNai_false h1
    have i2 := hy.isNai_false h2
    simp only [DItv.cancelMinusMixed, Itv.cancelMinusMixed, hx.isValid, hy.isValid, hx.1.isValid, hy.1.isValid, i1, i2,
      Bool.not_true, Bool.or_self, Bool.false_eq_true, if_false]
    generalize (T.maxPrec [T1, T2]).fmt = ψ
    have ox := convertHullD_ok (φ := ψ) hx
    have oy := convertHullD_ok (φ := ψ) hy
    have j1 := ox.isNai_false (convertHullD_ne_ill hx h1)
    have j2 := oy.isNai_false (convertHullD_ne_ill hy h2)
    simp only [DItv.cancelMinus, ox.isValid, oy.isValid, j1, j2, Bool.not_true, Bool.or_self, Bool.false_eq_true,
      if_false, convertHullD_itv hx h1, convertHullD_itv hy h2]
    generalize (ψ.convertHull x.itv).cancelMinus ψ (ψ.convertHull y.itv) = r
    have : DItv.isNai ⟨r, .trv⟩ = false := by simp [DItv.isNai]
    simp [Fmt.convertHullD, this, Fmt.convertHull]

/-! ## Where the property fails -/

/-- The unit in the last place of the largest `float`s. -/
def topUlp : ℚ := 2 ^ 104

/-- The operands are proper intervals of `float` with `wid x < wid y`, but the result is not entire and not even a valid interval:
its lower bound is greater than its upper bound. -/
theorem C29_false_invalid :
    let x : Itv := ⟨.fin (2 ^ 127 - 5 / 2 * topUlp), .fin binary32.maxFin⟩
    let y : Itv := ⟨.fin (-(2 ^ 127 - 1 / 2 * topUlp)), .fin (3 * topUlp)⟩
    x.Ok binary32 ∧ y.Ok binary32 ∧ x.set.Nonempty ∧ y.set.Nonempty ∧
    (x.cancelMinus binary32 y).isValid = false ∧ ¬ (x.cancelMinus binary32 y).Ok binary32 := by
  intro x y
  have hx : x.Ok binary32 := Itv.ok_of_okb (by decide +kernel)
  have hy : y.Ok binary32 := Itv.ok_of_okb (by decide +kernel)
  have hv : (x.cancelMinus binary32 y).isValid = false := by decide +kernel
  refine ⟨hx, hy, ?_, ?_, hv, fun h => by rw [h.isValid] at hv; exact Bool.noConfusion hv⟩
  · rw [Set.nonempty_iff_ne_empty, ne_eq, hx.set_eq_empty_iff]; decide +kernel
  · rw [Set.nonempty_iff_ne_empty, ne_eq, hy.set_eq_empty_iff]; decide +kernel

/-- `wid x < wid y`, but the result is not entire. -/
theorem C29_false_narrow :
    let x : Itv := ⟨.fin (3 / 2 * topUlp), .fin binary32.maxFin⟩
    let y : Itv := ⟨.fin (-(binary32.maxFin - topUlp)), .fin 0⟩
    x.Ok binary32 ∧ y.Ok binary32 ∧ binary32.maxFin - 3 / 2 * topUlp < 0 - -(binary32.maxFin - topUlp) ∧
    x.cancelMinus binary32 y ≠ Itv.entire :=
  ⟨Itv.ok_of_okb (by decide +kernel), Itv.ok_of_okb (by decide +kernel), by decide +kernel, by decide +kernel⟩

/-- Mixed-type `cancel_plus` first rounds `-y` outward to the result type.  With result type `float` and operands of
type `double` the result then misses a solution: `x = [0,4]`, `y = [0, 1+2^-40]`, yet no member of the result `z` and
member `b` of `-y` give `b + c = 0 ∈ x`. -/
theorem C29_false_mixed_plus :
    let x : Itv := ⟨.fin 0, .fin 4⟩
    let y : Itv := ⟨.fin 0, .fin (1 + 1 / 2 ^ 40)⟩
    x.Ok binary64 ∧ y.Ok binary64 ∧
    ¬ ∀ a ∈ x.set, ∃ b ∈ {z | ∃ t ∈ y.set, z = -t}, ∃ c ∈ (x.cancelPlusMixed .float .double .double y).set, a = b + c := by
  intro x y
  have e : x.cancelPlusMixed .float .double .double y = ⟨.fin (1 + 1 / 2 ^ 23), .fin 4⟩ := by
    have e1 : Op1.neg.mixed .float .double y = binary32.convertHull (Fmt.negI y) := by
      have : y.isValid = true := by decide +kernel
      simp only [Op1.mixed, this]
      rfl
    unfold Itv.cancelPlusMixed
    rw [e1]
    decide +kernel
  refine ⟨Itv.ok_of_okb (by decide +kernel), Itv.ok_of_okb (by decide +kernel), fun h => ?_⟩
  obtain ⟨b, ⟨t, ht, rfl⟩, c, hc, hh⟩ := h 0 ⟨by norm_num [x, FP.BelowR], by norm_num [x, FP.AboveR]⟩
  rw [e] at hc
  have h1 : t ≤ 1 + 1 / 2 ^ 40 := by
    have := ht.2
    simp only [y, FP.AboveR] at this
    push_cast at this
    exact this
  have h2 : 1 + 1 / 2 ^ 23 ≤ c := by
    have := hc.1
    simp only [FP.BelowR] at this
    push_cast at this
    exact this
  norm_num at h1 h2
  linarith

/-- Non-vacuity: operands, a pair that is not bad with a narrow `x`, and a bad pair (that of `C29_false_narrow`). -/
example : (Itv.mk (.fin 1) (.fin 5)).Ok binary64 ∧ (Itv.mk (.fin 2) (.fin 3)).Ok binary64 ∧
    (Itv.mk (.fin 1) (.fin 5)).cancelMinus binary64 ⟨.fin 2, .fin 3⟩ = ⟨.fin (-1), .fin 2⟩ ∧
    ¬ CancelBad binary64 (2:ℚ) (3:ℚ) (1:ℚ) (5:ℚ) ∧
    CancelBad binary32 (3 / 2 * topUlp : ℚ) (binary32.maxFin : ℚ) (-(binary32.maxFin - topUlp) : ℚ) (0 : ℚ) :=
  ⟨Itv.ok_of_okb (by decide +kernel), Itv.ok_of_okb (by decide +kernel), by decide +kernel,
   fun h => absurd (cancelBad_cast.mp h).1 (by decide +kernel),
   cancelBad_cast.mpr ⟨rfl, by decide +kernel, ⟨2 ^ 24 - 2, by decide, by decide +kernel, by decide +kernel, by decide +kernel⟩,
     by decide +kernel, by decide +kernel⟩⟩

end P1788
