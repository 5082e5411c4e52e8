import Verif.Lemmas.RevCut
import Verif.Lemmas.Ops
import Verif.Props.C33

/-! # C30: reverse square, absolute value, integer power and cosh

`RevSol f C X = {t ∈ X | f t ∈ C}`, `PowSol p C = {t | (t ≠ 0 ∨ 0 ≤ p) ∧ t ^ p ∈ C}`.
-/

namespace P1788
open FP
variable {φ : Fmt} {c x : Itv}

theorem revSol_even {f : ℝ → ℝ} (hf : ∀ t, f (-t) = f t) (C X : Set ℝ) :
    ({t | 0 ≤ t ∧ f t ∈ C} ∪ {t | -t ∈ {t | 0 ≤ t ∧ f t ∈ C}}) ∩ X = RevSol f C X := by
  ext t
  simp only [RevSol, Set.mem_inter_iff, Set.mem_union, Set.mem_ofPred_eq, hf]
  rcases le_total 0 t with h | h
  · have : 0 ≤ -t → t = 0 := fun h' => by linarith
    tauto
  · have : 0 ≤ -t := by linarith
    tauto

/-- `sqr_rev(c, x)` is the tightest enclosure of `{t ∈ x | t² ∈ c}`. -/
theorem C30_sqr_rev (hc : c.Ok φ) (hx : x.Ok φ) :
    Tightest φ (c.sqrRev φ x) (RevSol (fun t => t ^ 2) c.set x.set) := by
  rcases hc.cases with rfl | nc
  · exact tightest_empty' (by simp [Itv.sqrRev]) (by simp [RevSol])
  rcases hx.cases with rfl | nx
  · exact tightest_empty' (by simp [Itv.sqrRev]) (by simp [RevSol])
  unfold Itv.sqrRev
  simp only [hc.isValid, hx.isValid, nc.isEmpty, nx.isEmpty, Bool.not_true, Bool.or_self, Bool.false_or]
  by_cases hb : c.hi.toE < 0
  · rw [if_pos ((ltb_iff nc.hi_ne (by simp)).mpr (by simpa using hb))]
    refine Tightest.of_set_empty (Itv.ok_empty φ) (by simp) ?_
    rw [Set.eq_empty_iff_forall_notMem]
    rintro t ⟨-, ht⟩
    have h1 := (nc.mem.mp ht).2
    have h0 : (0:EReal) ≤ ((t ^ 2 : ℝ) : EReal) := by exact_mod_cast sq_nonneg t
    exact absurd (h0.trans h1) hb.not_ge
  rw [if_neg (fun h => hb (by simpa using (ltb_iff nc.hi_ne (by simp)).mp h))]
  have hb := not_lt.mp hb
  obtain ⟨U, hU⟩ := sqrt_inv (φ := φ) .U nc.hi_ne hb
  rw [← revSol_even (f := fun t => t ^ 2) (fun t => by ring)]
  by_cases ha : c.lo.toE < 0
  · rw [if_pos ((NE.lt0_iff nc.lo_ne).mpr ha)]
    exact (xleaf_inv inv_sqr nc (by simpa using hb) (Or.inl ⟨by simpa using ha, rfl, rfl, rfl⟩) hU).revHull hx
  · rw [if_neg (fun h => ha ((NE.lt0_iff nc.lo_ne).mp h))]
    have ha := not_lt.mp ha
    obtain ⟨L, hL⟩ := sqrt_inv (φ := φ) .D nc.lo_ne ha
    exact (xleaf_inv inv_sqr nc (by simpa using hb) (Or.inr ⟨by simpa using ha, hL⟩) hU).revHull hx

/-- `cosh_rev(c, x)` is the tightest enclosure of `{t ∈ x | cosh t ∈ c}`. -/
theorem C30_cosh_rev (hc : c.Ok φ) (hx : x.Ok φ) :
    Tightest φ (c.coshRev φ x) (RevSol Real.cosh c.set x.set) := by
  rcases hc.cases with rfl | nc
  · exact tightest_empty' (by simp [Itv.coshRev]) (by simp [RevSol])
  rcases hx.cases with rfl | nx
  · exact tightest_empty' (by simp [Itv.coshRev]) (by simp [RevSol])
  unfold Itv.coshRev
  simp only [hc.isValid, hx.isValid, nc.isEmpty, nx.isEmpty, Bool.not_true, Bool.or_self, Bool.false_or]
  by_cases hb : c.hi.toE < 1
  · rw [if_pos ((ltb_iff nc.hi_ne (by simp)).mpr (by simpa [toE_one] using hb))]
    refine Tightest.of_set_empty (Itv.ok_empty φ) (by simp) ?_
    rw [Set.eq_empty_iff_forall_notMem]
    rintro t ⟨-, ht⟩
    have h1 := (nc.mem.mp ht).2
    have h0 : (1:EReal) ≤ ((Real.cosh t : ℝ) : EReal) := by exact_mod_cast Real.one_le_cosh t
    exact absurd (h0.trans h1) hb.not_ge
  rw [if_neg (fun h => hb (by simpa [toE_one] using (ltb_iff nc.hi_ne (by simp)).mp h))]
  have hb := not_lt.mp hb
  obtain ⟨U, hU⟩ := acosh_inv (φ := φ) .U nc.hi_ne hb
  rw [← revSol_even Real.cosh_neg]
  by_cases ha : c.lo.toE < 1
  · rw [if_pos ((FP.lt_iff nc.lo_ne (by simp)).mpr (by simpa [toE_one] using ha))]
    exact (xleaf_inv inv_cosh nc (by simpa using hb) (Or.inl ⟨by simpa using ha, rfl, rfl, rfl⟩) hU).revHull hx
  · rw [if_neg (fun h => ha (by simpa [toE_one] using (FP.lt_iff nc.lo_ne (by simp)).mp h))]
    have ha := not_lt.mp ha
    obtain ⟨L, hL⟩ := acosh_inv (φ := φ) .D nc.lo_ne ha
    exact (xleaf_inv inv_cosh nc (by simpa using hb) (Or.inr ⟨by simpa using ha, hL⟩) hU).revHull hx

/-- `abs_rev(c, x)` is the tightest enclosure of `{t ∈ x | |t| ∈ c}`. -/
theorem C30_abs_rev (hc : c.Ok φ) (hx : x.Ok φ) :
    Tightest φ (c.absRev x) (RevSol (fun t => |t|) c.set x.set) := by
  rcases hc.cases with rfl | nc
  · exact tightest_empty' (by simp [Itv.absRev]) (by simp [RevSol])
  rcases hx.cases with rfl | nx
  · exact tightest_empty' (by simp [Itv.absRev]) (by simp [RevSol])
  unfold Itv.absRev
  simp only [hc.isValid, hx.isValid, nc.isEmpty, nx.isEmpty, Bool.not_true, Bool.or_self, Bool.false_eq_true, if_false]
  by_cases hb : c.hi.toE < 0
  · rw [if_pos ((NE.lt0_iff nc.hi_ne).mpr hb)]
    refine Tightest.of_set_empty (Itv.ok_empty φ) (by simp) ?_
    rw [Set.eq_empty_iff_forall_notMem]
    rintro t ⟨-, ht⟩
    have h1 := (nc.mem.mp ht).2
    have h0 : (0:EReal) ≤ ((|t| : ℝ) : EReal) := by exact_mod_cast abs_nonneg t
    exact absurd (h0.trans h1) hb.not_ge
  rw [if_neg (fun h => hb ((NE.lt0_iff nc.hi_ne).mp h))]
  have hb := not_lt.mp hb
  have hP : ∃ l, (if .fin 0 < c.lo then c.lo else .fin 0) = l ∧ (Itv.mk l c.hi).NE φ ∧
      (Itv.mk l c.hi).set = {t | 0 ≤ t ∧ |t| ∈ c.set} := by
    by_cases ha : 0 < c.lo.toE
    · refine ⟨c.lo, if_pos ((NE.gt0_iff nc.lo_ne).mpr ha), nc, ?_⟩
      ext t
      have nc' : (Itv.mk c.lo c.hi).NE φ := nc
      rw [Set.mem_ofPred_eq, nc.mem, nc'.mem]
      constructor
      · rintro ⟨h1, h2⟩
        have : 0 ≤ t := by exact_mod_cast (ha.trans_le h1).le
        rw [abs_of_nonneg this]; exact ⟨this, h1, h2⟩
      · rintro ⟨h0, h1, h2⟩
        rw [abs_of_nonneg h0] at h1 h2; exact ⟨h1, h2⟩
    · have nc' : (Itv.mk (.fin 0) c.hi).NE φ :=
        ⟨by simp, nc.hi_ne, by simpa using hb, by simp, nc.hi_bot, φ.rep_zero, nc.hi_in⟩
      refine ⟨.fin 0, if_neg (fun h => ha ((NE.gt0_iff nc.lo_ne).mp h)), nc', ?_⟩
      ext t
      rw [Set.mem_ofPred_eq, nc.mem, nc'.mem]
      simp only [FP.toE_fin, Rat.cast_zero, EReal.coe_zero]
      constructor
      · rintro ⟨h1, h2⟩
        have h0 : 0 ≤ t := by exact_mod_cast h1
        rw [abs_of_nonneg h0]; exact ⟨h0, (not_lt.mp ha).trans h1, h2⟩
      · rintro ⟨h0, h1, h2⟩
        rw [abs_of_nonneg h0] at h2; exact ⟨by exact_mod_cast h0, h2⟩
  obtain ⟨l, e, nP, hS⟩ := hP
  simp only [e]
  rw [← revSol_even (fun t => abs_neg t), ← hS, Set.union_inter_distrib_right]
  have nQ : (Fmt.negI ⟨l, c.hi⟩).NE φ ∧ (Fmt.negI ⟨l, c.hi⟩).set = {t | -t ∈ (Itv.mk l c.hi).set} := by
    rw [negI_ne nP]
    have n : (Itv.mk c.hi.neg l.neg).NE φ := ⟨by simpa using nP.hi_ne, by simpa using nP.lo_ne, by simpa using nP.le,
      by simpa using nP.hi_bot, by simpa using nP.lo_top, FP.neg_in nP.hi_in, FP.neg_in nP.lo_in⟩
    refine ⟨n, ?_⟩
    ext t
    rw [Set.mem_ofPred_eq, n.mem, nP.mem]
    simp only [FP.toE_neg, EReal.coe_neg]
    rw [EReal.neg_le, EReal.le_neg, and_comm]
  obtain ⟨i1, j1⟩ := Itv.inter_ok_set nP.ok hx
  obtain ⟨i2, j2⟩ := Itv.inter_ok_set nQ.1.ok hx
  rw [← nQ.2, ← j1, ← j2]
  exact Itv.hull_tight i1 i2

/-- `pown_rev(c, x, p)` for every exponent of type `int` other than `INT_MIN`: the result lies in `x`, contains every
solution of `t ^ p ∈ c` in `x`, and is contained in every interval that contains the whole solution set.  (Full property:
every exponent; false at `INT_MIN` by `C30_pown_rev_int_min`.) -/
theorem C30_pown_rev_partial {p : ℤ} (hp : -2 ^ 31 < p) (hc : c.Ok φ) (hx : x.Ok φ) :
    ∃ R, c.pownRev φ x p = some R ∧ CutTo φ R (PowSol p c.set) x.set := by
  refine ⟨_, ?_, pownRevV_spec hc hx⟩
  unfold Itv.pownRev
  rw [if_neg]
  rintro ⟨h, -⟩
  rw [h] at hp
  norm_num [intMin] at hp

/-- The defect at `INT_MIN`: the computation is undefined (signed overflow of `-p`) exactly if `x` is not empty and `c`
contains a positive number; otherwise the result is right. -/
theorem C30_pown_rev_int_min (hc : c.Ok φ) (hx : x.Ok φ) :
    (c.pownRev φ x (-2 ^ 31) = none ↔ x.set.Nonempty ∧ ∃ r ∈ c.set, 0 < r) ∧
    ∀ R, c.pownRev φ x (-2 ^ 31) = some R → CutTo φ R (PowSol (-2 ^ 31) c.set) x.set := by
  have e : (-2 ^ 31 : ℤ) = intMin := by norm_num [intMin]
  constructor
  · rw [e]
    unfold Itv.pownRev
    rcases hc.cases with rfl | nc
    · simp
    rcases hx.cases with rfl | nx
    · simp
    simp only [true_and, hc.isValid, hx.isValid, nc.isEmpty, nx.isEmpty, Bool.not_true, Bool.or_self]
    obtain ⟨r0, hr0⟩ := nx.seg.nonempty
    rw [← nx.set_eq] at hr0
    rw [and_iff_right (show x.set.Nonempty from ⟨r0, hr0⟩)]
    have : (∃ r ∈ c.set, 0 < r) ↔ 0 < c.hi.toE := by
      constructor
      · rintro ⟨r, hr, h0⟩
        have : (0:EReal) < r := by exact_mod_cast h0
        exact this.trans_le (nc.mem.mp hr).2
      · intro h
        obtain ⟨r, hr, h0⟩ := nc.ex_lt.mpr h
        exact ⟨r, hr, by exact_mod_cast h0⟩
    rw [this, ← not_le]
    by_cases h : c.hi.toE ≤ 0
    · rw [if_neg (fun h' => h' ((NE.le0_iff nc.hi_ne).mpr h))]; simp [h]
    · rw [if_pos (fun h' => h ((NE.le0_iff nc.hi_ne).mp h'))]; simp [h]
  · intro R hR
    unfold Itv.pownRev at hR
    split at hR
    · exact absurd hR (by simp)
    · rw [← Option.some.inj hR]; exact pownRevV_spec hc hx

/-! ## Unary versions -/

/-- Without `x` the results are the tightest enclosures of the whole solution set. -/
theorem C30_unary (hc : c.Ok φ) :
    Tightest φ (Itv.rev1 (Itv.sqrRev φ) c) {t | t ^ 2 ∈ c.set} ∧
    Tightest φ (Itv.rev1 (Itv.coshRev φ) c) {t | Real.cosh t ∈ c.set} ∧
    Tightest φ (Itv.rev1 Itv.absRev c) {t | |t| ∈ c.set} := by
  refine ⟨(C30_sqr_rev hc (Itv.ok_entire φ)).of_eq ?_, (C30_cosh_rev hc (Itv.ok_entire φ)).of_eq ?_,
    (C30_abs_rev hc (Itv.ok_entire φ)).of_eq ?_⟩ <;>
  · ext t; simp [RevSol, Itv.set_entire]

/-- The same for the integer power. -/
theorem C30_pown_unary {p : ℤ} (hp : -2 ^ 31 < p) (hc : c.Ok φ) :
    ∃ R, c.pownRev1 φ p = some R ∧ Tightest φ R (PowSol p c.set) := by
  obtain ⟨R, h, h1, h2, -, h4⟩ := C30_pown_rev_partial hp hc (Itv.ok_entire φ)
  refine ⟨R, h, h1, ?_, h4⟩
  rw [Itv.set_entire, Set.inter_univ] at h2
  exact h2

/-! ## Mixed types -/
variable {T T1 T2 : NumTy}

theorem rev_mixed {f : Fmt → Itv → Itv → Itv} {g : ℝ → ℝ}
    (H : ∀ (ψ : Fmt) (c x : Itv), c.Ok ψ → x.Ok ψ → Tightest ψ (f ψ c x) (RevSol g c.set x.set))
    (hc : c.Ok T1.fmt) (hx : x.Ok T2.fmt) :
    Tightest T.fmt (Itv.revMixed f T T1 T2 c x) (RevSol g c.set x.set) := by
  have hs1 : T1.fmt.Sub (T.maxPrec [T1, T2]).fmt := NumTy.sub_max (by simp)
  have hs2 : T2.fmt.Sub (T.maxPrec [T1, T2]).fmt := NumTy.sub_max (by simp)
  have hs : T.fmt.Sub (T.maxPrec [T1, T2]).fmt := NumTy.sub_max (by simp)
  rcases hc.cases with rfl | nc
  · exact tightest_empty' (by simp [Itv.revMixed]) (by simp [RevSol])
  rcases hx.cases with rfl | nx
  · exact tightest_empty' (by simp [Itv.revMixed]) (by simp [RevSol])
  unfold Itv.revMixed
  simp only [hc.isValid, hx.isValid, nc.isEmpty, nx.isEmpty, Bool.not_true, Bool.or_self, Bool.false_eq_true, if_false]
  generalize (T.maxPrec [T1, T2]).fmt = ψ at *
  have h := H ψ _ _ (convertHull_tight (φ := ψ) hc).1 (convertHull_tight (φ := ψ) hx).1
  rw [convert_exact hs1 hc, convert_exact hs2 hx] at h
  exact tight_convert hs h

/-- Mixed-type versions: the tightest enclosures in the requested type. -/
theorem C30_mixed (hc : c.Ok T1.fmt) (hx : x.Ok T2.fmt) :
    Tightest T.fmt (Itv.revMixed Itv.sqrRev T T1 T2 c x) (RevSol (fun t => t ^ 2) c.set x.set) ∧
    Tightest T.fmt (Itv.revMixed Itv.coshRev T T1 T2 c x) (RevSol Real.cosh c.set x.set) ∧
    Tightest T.fmt (Itv.revMixed (fun _ => Itv.absRev) T T1 T2 c x) (RevSol (fun t => |t|) c.set x.set) :=
  ⟨rev_mixed (fun _ _ _ => C30_sqr_rev) hc hx, rev_mixed (fun _ _ _ => C30_cosh_rev) hc hx,
    rev_mixed (fun _ _ _ => C30_abs_rev) hc hx⟩

/-- Mixed-type integer power: no solution is lost and the result lies in the conversion of `x`. -/
theorem C30_pown_mixed {p : ℤ} (hp : -2 ^ 31 < p) (hc : c.Ok T1.fmt) (hx : x.Ok T2.fmt) :
    ∃ R, Itv.pownRevMixed T T1 T2 c x p = some R ∧ R.Ok T.fmt ∧ PowSol p c.set ∩ x.set ⊆ R.set ∧
      R.set ⊆ (T.fmt.convertHull x).set ∧ ∀ Y : Itv, Y.Ok T.fmt → PowSol p c.set ⊆ Y.set → R.set ⊆ Y.set := by
  have hs1 : T1.fmt.Sub (T.maxPrec [T1, T2]).fmt := NumTy.sub_max (by simp)
  have hs2 : T2.fmt.Sub (T.maxPrec [T1, T2]).fmt := NumTy.sub_max (by simp)
  have hs : T.fmt.Sub (T.maxPrec [T1, T2]).fmt := NumTy.sub_max (by simp)
  rcases hc.cases with rfl | nc
  · exact ⟨Itv.empty, by simp [Itv.pownRevMixed], Itv.ok_empty _, by simp [PowSol], by simp, by simp⟩
  rcases hx.cases with rfl | nx
  · exact ⟨Itv.empty, by simp [Itv.pownRevMixed], Itv.ok_empty _, by simp, by simp, by simp⟩
  unfold Itv.pownRevMixed
  simp only [hc.isValid, hx.isValid, nc.isEmpty, nx.isEmpty, Bool.not_true, Bool.or_self, Bool.false_eq_true, if_false]
  generalize (T.maxPrec [T1, T2]).fmt = ψ at *
  obtain ⟨R, h, h1, h2, h3, h4⟩ := C30_pown_rev_partial hp (convertHull_tight (φ := ψ) hc).1 (convertHull_tight (φ := ψ) hx).1
  rw [convert_exact hs1 hc] at h2 h4
  rw [convert_exact hs2 hx] at h2 h3
  have ht := convertHull_tight (φ := T.fmt) h1
  have htx := convertHull_tight (φ := T.fmt) hx
  refine ⟨_, by rw [h]; rfl, ht.1, h2.trans ht.2.1, ht.2.2 _ htx.1 (h3.trans htx.2.1), fun Y hY hS => ht.2.2 Y hY ?_⟩
  exact h4 Y (hs.ok hY) hS

/-! ## Decorated versions -/

/-- Decorated reverse functions (also mixed-type): NaI if an operand is NaI, otherwise the result of the bare function
decorated `trv`. -/
theorem C30_decorated (f : Itv → Itv → Itv) {ψ : Fmt} {c x : DItv} (hc : c.Ok φ) (hx : x.Ok ψ) :
    (c.IsNaI ∨ x.IsNaI → DItv.rev f c x = DItv.nai) ∧
    (¬c.IsNaI → ¬x.IsNaI → DItv.rev f c x = ⟨f c.itv x.itv, .trv⟩) := by
  rw [DItv.isNaI_iff hc, DItv.isNaI_iff hx]
  constructor
  · rintro (h | h)
    · have := hc.isNai_iff.mpr h; simp [DItv.rev, this]
    · have := hx.isNai_iff.mpr h; simp [DItv.rev, this]
  · intro h1 h2
    simp [DItv.rev, hc.isValid, hx.isValid, hc.isNai_false h1, hx.isNai_false h2]

/-- The same for the integer power. -/
theorem C30_pown_decorated {p : ℤ} {c x : DItv} (hc : c.Ok φ) (hx : x.Ok φ) :
    (c.IsNaI ∨ x.IsNaI → c.pownRev φ x p = some DItv.nai) ∧
    (¬c.IsNaI → ¬x.IsNaI → c.pownRev φ x p = (c.itv.pownRev φ x.itv p).map (fun R => ⟨R, .trv⟩)) := by
  rw [DItv.isNaI_iff hc, DItv.isNaI_iff hx]
  constructor
  · rintro (h | h)
    · have := hc.isNai_iff.mpr h; simp [DItv.pownRev, this]
    · have := hx.isNai_iff.mpr h; simp [DItv.pownRev, this]
  · intro h1 h2
    simp [DItv.pownRev, hc.isValid, hx.isValid, hc.isNai_false h1, hx.isNai_false h2]

/-- The same for the mixed-type integer power. -/
theorem C30_pown_mixed_decorated {p : ℤ} {c x : DItv} (hc : c.Ok T1.fmt) (hx : x.Ok T2.fmt) :
    (c.IsNaI ∨ x.IsNaI → DItv.pownRevMixed T T1 T2 c x p = some DItv.nai) ∧
    (¬c.IsNaI → ¬x.IsNaI →
      DItv.pownRevMixed T T1 T2 c x p = (Itv.pownRevMixed T T1 T2 c.itv x.itv p).map (fun R => ⟨R, .trv⟩)) := by
  rw [DItv.isNaI_iff hc, DItv.isNaI_iff hx]
  constructor
  · rintro (h | h)
    · have := hc.isNai_iff.mpr h; simp [DItv.pownRevMixed, this]
    · have := hx.isNai_iff.mpr h; simp [DItv.pownRevMixed, this]
  · intro h1 h2
    simp [DItv.pownRevMixed, hc.isValid, hx.isValid, hc.isNai_false h1, hx.isNai_false h2]

/-! ## Non-vacuity -/

/-- `sqr_rev([4, 9], [-2.5, 5]) ∋ -2, 3`. -/
example : (-2:ℝ) ∈ ((Itv.mk (.fin 4) (.fin 9)).sqrRev NumTy.double.fmt ⟨.fin (-5/2), .fin 5⟩).set ∧
    (3:ℝ) ∈ ((Itv.mk (.fin 4) (.fin 9)).sqrRev NumTy.double.fmt ⟨.fin (-5/2), .fin 5⟩).set := by
  have h := (C30_sqr_rev (φ := NumTy.double.fmt) (c := ⟨.fin 4, .fin 9⟩) (x := ⟨.fin (-5/2), .fin 5⟩)
    (Itv.ok_of_okb (by decide +kernel)) (Itv.ok_of_okb (by decide +kernel))).2.1
  exact ⟨h ⟨⟨by norm_num [FP.BelowR], by norm_num [FP.AboveR]⟩, ⟨by norm_num [FP.BelowR], by norm_num [FP.AboveR]⟩⟩,
    h ⟨⟨by norm_num [FP.BelowR], by norm_num [FP.AboveR]⟩, ⟨by norm_num [FP.BelowR], by norm_num [FP.AboveR]⟩⟩⟩

/-- `pown_rev([1/8, 1], [-3, 3], -3) ∋ 2`. -/
example : ∃ R, (Itv.mk (.fin (1/8)) (.fin 1)).pownRev NumTy.double.fmt ⟨.fin (-3), .fin 3⟩ (-3) = some R ∧ (2:ℝ) ∈ R.set := by
  obtain ⟨R, h, -, h2, -⟩ := C30_pown_rev_partial (φ := NumTy.double.fmt) (p := -3) (by norm_num)
    (c := ⟨.fin (1/8), .fin 1⟩) (x := ⟨.fin (-3), .fin 3⟩)
    (Itv.ok_of_okb (by decide +kernel)) (Itv.ok_of_okb (by decide +kernel))
  refine ⟨R, h, h2 ⟨⟨Or.inl (by norm_num), ?_⟩, ⟨by norm_num [FP.BelowR], by norm_num [FP.AboveR]⟩⟩⟩
  exact ⟨by norm_num [FP.BelowR, zpow_neg], by norm_num [FP.AboveR, zpow_neg]⟩

/-- Undefined behaviour at `INT_MIN` is reached. -/
example : (Itv.mk (.fin 1) (.fin 2)).pownRev NumTy.double.fmt ⟨.fin (-3), .fin 3⟩ (-2 ^ 31) = none := by
  refine (C30_pown_rev_int_min (Itv.ok_of_okb (by decide +kernel)) (Itv.ok_of_okb (by decide +kernel))).1.mpr ⟨⟨0, ?_⟩, 1, ?_, by norm_num⟩
  · exact ⟨by norm_num [FP.BelowR], by norm_num [FP.AboveR]⟩
  · exact ⟨by norm_num [FP.BelowR], by norm_num [FP.AboveR]⟩

end P1788
