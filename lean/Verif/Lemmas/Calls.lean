import Verif.Model.Calls
import Verif.Props.C06
import Verif.Props.C16
import Verif.Props.C17
import Verif.Props.C29Bad
import Verif.Props.C31
import Verif.Props.C32
import Verif.Props.C33
import Verif.Props.C34

/-! # Validity of the results of single calls -/

namespace P1788
variable {φ : Fmt} {T T1 T2 T3 : NumTy}

theorem ret_returnsB {m : M Itv} {a : Itv} (h : Returns m a) {o : Obj} (ho : o ∈ Call.retB T m) : o = .bare T a := by
  obtain ⟨s, r, h1, rfl⟩ := ho
  rw [h s] at h1; cases h1; rfl

theorem ret_returnsD {m : M DItv} {a : DItv} (h : Returns m a) {o : Obj} (ho : o ∈ Call.retD T m) : o = .dec T a := by
  obtain ⟨s, r, h1, rfl⟩ := ho
  rw [h s] at h1; cases h1; rfl

theorem ret_raisesB {m : M Itv} {a : Itv} {e : Ex} (h : Raises m e a) {o : Obj} (ho : o ∈ Call.retB T m) :
    o = .bare T a := by
  obtain ⟨s, r, h1, rfl⟩ := ho
  obtain ⟨-, -, -, h4, h5⟩ := h s
  cases hc : s.cwd e
  · rw [h5 hc] at h1; cases h1; rfl
  · rw [h4 hc] at h1; cases h1

theorem ret_raisesD {m : M DItv} {a : DItv} {e : Ex} (h : Raises m e a) {o : Obj} (ho : o ∈ Call.retD T m) :
    o = .dec T a := by
  obtain ⟨s, r, h1, rfl⟩ := ho
  obtain ⟨-, -, -, h4, h5⟩ := h s
  cases hc : s.cwd e
  · rw [h5 hc] at h1; cases h1; rfl
  · rw [h4 hc] at h1; cases h1

theorem ok_trv {x : Itv} (h : x.Ok φ) : (DItv.mk x .trv).Ok φ := ⟨h, by simp, by simp, by simp⟩

theorem DItv.Ok.of_nai {x : DItv} (h : x.IsNaI) : x.Ok φ := by rw [DItv.eq_nai h]; exact DItv.ok_nai

theorem DItv.ok_entire : DItv.entire.Ok φ := ⟨Itv.ok_entire φ, by simp [DItv.entire, Itv.entire], by simp [DItv.entire], by simp [DItv.entire]⟩

theorem conv_ok {ψ : Fmt} {x : Itv} (h : x.Ok ψ) : (φ.convertHull x).Ok φ := (convertHull_tight h).1

/-- A non-NaI operand stays non-NaI. -/
theorem ne_ill {x : DItv} (hx : x.Ok φ) (h : ¬ x.IsNaI) : x.dec ≠ .ill := fun e => h ((DItv.isNaI_iff hx).mpr e)

theorem Op1.mixed_ok (op : Op1) {x : Itv} (hx : x.Ok T1.fmt) : (op.mixed T T1 x).Ok T.fmt := by
  unfold Op1.mixed
  rw [hx.isValid]
  simp only [Bool.not_true, Bool.false_eq_true, if_false]
  split
  · exact conv_ok hx
  · exact conv_ok (Op1.bare_ok .neg hx)
  · exact conv_ok (op.bare_ok (conv_ok hx))

theorem Op1.mixedD_ok (op : Op1) {x : DItv} (hx : x.Ok T1.fmt) : (op.mixedD T T1 x).Ok T.fmt := by
  unfold Op1.mixedD
  split_ifs
  · exact DItv.ok_nai
  split
  · exact convertHullD_ok hx
  · exact convertHullD_ok (Op1.decd_ok .neg hx)
  · exact convertHullD_ok (op.decd_ok (convertHullD_ok hx))

theorem Op2.mixedD_ok (op : Op2) {x y : DItv} (hx : x.Ok T1.fmt) (hy : y.Ok T2.fmt) :
    (op.mixedD T T1 T2 x y).Ok T.fmt := by
  unfold Op2.mixedD
  split_ifs
  · exact DItv.ok_nai
  · exact convertHullD_ok (op.decd_ok (convertHullD_ok hx) (convertHullD_ok hy))

theorem fmaMixedD_ok {x y z : DItv} (hx : x.Ok T1.fmt) (hy : y.Ok T2.fmt) (hz : z.Ok T3.fmt) :
    (fmaMixedD T T1 T2 T3 x y z).Ok T.fmt := by
  unfold fmaMixedD
  split_ifs
  · exact DItv.ok_nai
  · exact convertHullD_ok (fmaD_ok (convertHullD_ok hx) (convertHullD_ok hy) (convertHullD_ok hz))

theorem interD_ok {x y : DItv} (hx : x.Ok φ) (hy : y.Ok φ) : (x.inter y).Ok φ ∧ (x.hull y).Ok φ := by
  unfold DItv.inter DItv.hull
  split_ifs
  · exact ⟨DItv.ok_nai, DItv.ok_nai⟩
  · exact ⟨ok_trv (Itv.inter_ok_set hx.1 hy.1).1, ok_trv (Itv.hull_tight hx.1 hy.1).1⟩

theorem interMixedD_ok {x y : DItv} (hx : x.Ok T1.fmt) (hy : y.Ok T2.fmt) :
    (DItv.interMixed T T1 T2 x y).Ok T.fmt ∧ (DItv.hullMixed T T1 T2 x y).Ok T.fmt := by
  unfold DItv.interMixed DItv.hullMixed
  split_ifs
  · exact ⟨DItv.ok_nai, DItv.ok_nai⟩
  · have := interD_ok (convertHullD_ok (φ := (T.maxPrec [T1, T2]).fmt) hx) (convertHullD_ok hy)
    exact ⟨convertHullD_ok this.1, convertHullD_ok this.2⟩

theorem cancel_ok {x y : Itv} (hx : x.Ok φ) (hy : y.Ok φ) (hb : ¬ x.CancelBad φ y) : (x.cancelMinus φ y).Ok φ := by
  by_cases h : ¬ Bornology.IsBounded x.set ∨ ¬ Bornology.IsBounded y.set ∨ (x.set.Nonempty ∧ y.set = ∅)
  · rw [C29_unbounded hx hy h]; exact Itv.ok_entire φ
  push Not at h
  obtain ⟨h1, h2, h3⟩ := h
  rcases hx.cases with rfl | nx
  · rw [C29_empty hy h2]; exact Itv.ok_empty φ
  rcases hy.cases with rfl | ny
  · exact absurd (Itv.set_empty) (h3 nx.nonempty).ne_empty
  have bx := nx.bounded_iff.mp h1
  have by' := ny.bounded_iff.mp h2
  have seg : ∀ {z : Itv}, z.NE φ → (z.lo ≠ .ninf ∧ z.hi ≠ .pinf) →
      z.set = Set.Icc (z.lo.q:ℝ) z.hi.q ∧ (z.lo.q:ℝ) ≤ z.hi.q := by
    intro z nz bz
    obtain ⟨zl, zu, -, -, lz⟩ := fin_of_bounded nz bz
    refine ⟨?_, by exact_mod_cast lz⟩
    ext r
    rw [nz.mem, zl, zu, EReal.coe_le_coe_iff, EReal.coe_le_coe_iff]; rfl
  rw [cancel_core nx ny bx by']
  split_ifs with h
  · exact Itv.ok_entire φ
  · refine (sub_tight nx ny bx by' (not_lt.mp fun hlt => h ⟨hlt, fun hc => hb ?_⟩)).1
    exact ⟨_, _, _, _, (seg nx bx).2, (seg ny by').2, (seg nx bx).1, (seg ny by').1, hc⟩

/-- Whether a pair is bad depends on the sets only. -/
theorem Itv.CancelBad.congr {x y x' y' : Itv} (h : x'.CancelBad φ y') (e1 : x'.set = x.set) (e2 : y'.set = y.set) :
    x.CancelBad φ y := by
  obtain ⟨a, b, c, d, h1, h2, h3, h4, h5⟩ := h
  exact ⟨a, b, c, d, h1, h2, e1 ▸ h3, e2 ▸ h4, h5⟩

theorem cancelMixed_ok {x y : Itv} (hx : x.Ok T1.fmt) (hy : y.Ok T2.fmt)
    (hb : ¬ x.CancelBad (T.maxPrec [T1, T2]).fmt y) : (Itv.cancelMinusMixed T T1 T2 x y).Ok T.fmt := by
  have hs1 : T1.fmt.Sub (T.maxPrec [T1, T2]).fmt := NumTy.sub_max (by simp)
  have hs2 : T2.fmt.Sub (T.maxPrec [T1, T2]).fmt := NumTy.sub_max (by simp)
  unfold Itv.cancelMinusMixed
  rw [hx.isValid, hy.isValid]
  simp only [Bool.not_true, Bool.or_self, Bool.false_eq_true, if_false]
  exact conv_ok (cancel_ok (conv_ok hx) (conv_ok hy) fun h =>
    hb (h.congr (convert_exact hs1 hx) (convert_exact hs2 hy)))

theorem cancel_ok_iff {x y : Itv} (hx : x.Ok φ) (hy : y.Ok φ) :
    (x.cancelMinus φ y).Ok φ ↔ ¬ x.CancelInvalid φ φ y := by
  refine ⟨fun h ⟨a, b, c, d, h1, h2, h3, h4, h5⟩ => (C29_minus_invalid hx hy h3 h1 h4 h2).mpr h5 h, fun h => ?_⟩
  by_contra hn
  have hb : x.CancelBad φ y := by
    by_contra hb; exact hn (cancel_ok hx hy hb)
  obtain ⟨a, b, c, d, h1, h2, h3, h4, -⟩ := hb
  exact h ⟨a, b, c, d, h1, h2, h3, h4, (C29_minus_invalid hx hy h3 h1 h4 h2).mp hn⟩

theorem cancelMixed_ok_iff {x y : Itv} (hx : x.Ok T1.fmt) (hy : y.Ok T2.fmt) :
    (Itv.cancelMinusMixed T T1 T2 x y).Ok T.fmt ↔ ¬ x.CancelInvalid (T.maxPrec [T1, T2]).fmt T.fmt y := by
  refine ⟨fun h ⟨a, b, c, d, h1, h2, h3, h4, h5⟩ => (C29_mixed_invalid hx hy h3 h1 h4 h2).mpr h5 h, fun h => ?_⟩
  by_contra hn
  have hb : x.CancelBad (T.maxPrec [T1, T2]).fmt y := by
    by_contra hb; exact hn (cancelMixed_ok hx hy hb)
  obtain ⟨a, b, c, d, h1, h2, h3, h4, -⟩ := hb
  exact h ⟨a, b, c, d, h1, h2, h3, h4, (C29_mixed_invalid hx hy h3 h1 h4 h2).mp hn⟩

/-- No pair with NaI is meant. -/
theorem not_invalid_nai {ψ : Fmt} {x y : DItv} (h : x.IsNaI ∨ y.IsNaI) {χ : Fmt} :
    ¬ x.itv.CancelInvalid ψ χ y.itv := by
  rintro ⟨a, b, c, d, h1, h2, h3, h4, -⟩
  rcases h with h | h
  · have : x.itv.set = ∅ := by rw [h.1]; exact Itv.set_empty
    rw [h3] at this
    exact (Set.nonempty_Icc.mpr h1).ne_empty this
  · have : y.itv.set = ∅ := by rw [h.1]; exact Itv.set_empty
    rw [h4] at this
    exact (Set.nonempty_Icc.mpr h2).ne_empty this

theorem RevOp.fn_ok (op : RevOp) {c x : Itv} (hc : c.Ok φ) (hx : x.Ok φ) : (op.fn φ c x).Ok φ := by
  cases op
  · exact (C30_sqr_rev hc hx).1
  · exact (C30_abs_rev hc hx).1
  · exact (C30_cosh_rev hc hx).1
  · exact (C31_valid hc hx).1.1
  · exact (C31_valid hc hx).2.1.1
  · exact (C31_valid hc hx).2.2.1

theorem RevOp.mixed_ok (op : RevOp) {c x : Itv} (hc : c.Ok T1.fmt) (hx : x.Ok T2.fmt) :
    (Itv.revMixed (fun φ => op.fn φ) T T1 T2 c x).Ok T.fmt := by
  unfold Itv.revMixed
  split_ifs
  · exact Itv.ok_empty _
  · exact conv_ok (op.fn_ok (conv_ok hc) (conv_ok hx))

theorem revD_ok {f : Itv → Itv → Itv} {c x : DItv} (h : (f c.itv x.itv).Ok φ) : (DItv.rev f c x).Ok φ := by
  unfold DItv.rev
  split_ifs
  · exact DItv.ok_nai
  · exact ok_trv h

theorem pownRev_ok {c x R : Itv} {p : ℤ} (hp : -2 ^ 31 ≤ p) (hc : c.Ok φ) (hx : x.Ok φ) (h : c.pownRev φ x p = some R) :
    R.Ok φ := by
  rcases hp.eq_or_lt with rfl | hp
  · exact ((C30_pown_rev_int_min hc hx).2 R h).1
  · obtain ⟨R', h1, h2⟩ := C30_pown_rev_partial hp hc hx
    rw [h1] at h; cases h; exact h2.1

theorem pownRevMixed_ok {c x R : Itv} {p : ℤ} (hp : -2 ^ 31 ≤ p) (hc : c.Ok T1.fmt) (hx : x.Ok T2.fmt)
    (h : Itv.pownRevMixed T T1 T2 c x p = some R) : R.Ok T.fmt := by
  unfold Itv.pownRevMixed at h
  split_ifs at h
  · cases h; exact Itv.ok_empty _
  · rw [Option.map_eq_some_iff] at h
    obtain ⟨R', h1, rfl⟩ := h
    exact conv_ok (pownRev_ok hp (conv_ok hc) (conv_ok hx) h1)

theorem pownRevD_ok {c x R : DItv} {p : ℤ} (hp : -2 ^ 31 ≤ p) (hc : c.Ok φ) (hx : x.Ok φ) (h : c.pownRev φ x p = some R) :
    R.Ok φ := by
  unfold DItv.pownRev at h
  split_ifs at h
  · cases h; exact DItv.ok_nai
  · rw [Option.map_eq_some_iff] at h
    obtain ⟨R', h1, rfl⟩ := h
    exact ok_trv (pownRev_ok hp hc.1 hx.1 h1)

theorem pownRevMixedD_ok {c x R : DItv} {p : ℤ} (hp : -2 ^ 31 ≤ p) (hc : c.Ok T1.fmt) (hx : x.Ok T2.fmt)
    (h : DItv.pownRevMixed T T1 T2 c x p = some R) : R.Ok T.fmt := by
  unfold DItv.pownRevMixed at h
  split_ifs at h
  · cases h; exact DItv.ok_nai
  · rw [Option.map_eq_some_iff] at h
    obtain ⟨R', h1, rfl⟩ := h
    exact ok_trv (pownRevMixed_ok hp hc.1 hx.1 h1)

theorem mulRevPair_ok {b c : Itv} (hb : b.Ok φ) (hc : c.Ok φ) :
    (b.mulRevToPair φ c).1.Ok φ ∧ (b.mulRevToPair φ c).2.Ok φ := by
  obtain ⟨_, _, _, h, h'⟩ := mulRevPairT_leaves hb hc
  exact ⟨h.tight.1, h'.tight.1⟩

theorem mulRevPairMixed_ok {b c : Itv} (hb : b.Ok T1.fmt) (hc : c.Ok T2.fmt) :
    (Itv.mulRevToPairMixed T T1 T2 b c).1.Ok T.fmt ∧ (Itv.mulRevToPairMixed T T1 T2 b c).2.Ok T.fmt := by
  obtain ⟨h, h'⟩ := mulRevPair_ok (conv_ok (φ := (T.maxPrec [T1, T2]).fmt) hb) (conv_ok hc)
  exact ⟨conv_ok h, conv_ok h'⟩

theorem mulRevPairD_ok {b c : DItv} (hb : b.Ok φ) (hc : c.Ok φ) :
    (b.mulRevToPair φ c).1.Ok φ ∧ (b.mulRevToPair φ c).2.Ok φ := by
  obtain ⟨h, h'⟩ := mulRevPair_ok hb.1 hc.1
  rcases DItv.nai_or hb with rfl | nb
  · simp [DItv.mulRevToPair, DItv.ok_nai, show DItv.nai.isNai = true by decide]
  rcases DItv.nai_or hc with rfl | nc
  · simp [DItv.mulRevToPair, DItv.ok_nai, show DItv.nai.isNai = true by decide]
  unfold DItv.mulRevToPair
  rw [hb.isValid, hc.isValid, hb.isNai_false nb, hc.isNai_false nc]
  simp only [Bool.not_true, Bool.or_self, Bool.false_eq_true, if_false]
  refine ⟨⟨h, ?_, ?_, ?_⟩, ok_trv h'⟩
  · intro e
    right
    have : (b.itv.mulRevToPair φ c.itv).1.isEmpty = true := by
      rw [show (b.itv.mulRevToPair φ c.itv).1 = Itv.empty from e]; decide
    simp only [this, Bool.or_true, if_true]
    revert nb nc; cases b.dec <;> cases c.dec <;> decide
  · intro _
    refine Dec.min_ne_ill (Dec.min_ne_ill nb nc) ?_
    split_ifs <;> simp
  · intro e
    obtain ⟨-, e⟩ := Dec.min_eq_com.mp e
    split_ifs at e with h1 h2
    rcases h.cases with h3 | h3
    · rw [h3] at h2; exact absurd h2 (by decide)
    · exact h3.bounded_iff.mp (h3.isCommon_iff.mp h2)

theorem mulRevPairMixedD_ok {b c : DItv} (hb : b.Ok T1.fmt) (hc : c.Ok T2.fmt) :
    (DItv.mulRevToPairMixed T T1 T2 b c).1.Ok T.fmt ∧ (DItv.mulRevToPairMixed T T1 T2 b c).2.Ok T.fmt := by
  obtain ⟨h, h'⟩ := mulRevPairD_ok (convertHullD_ok (φ := (T.maxPrec [T1, T2]).fmt) hb) (convertHullD_ok hc)
  exact ⟨convertHullD_ok h, convertHullD_ok h'⟩

theorem mulRevD_ok {b c x : DItv} (hb : b.Ok φ) (hc : c.Ok φ) (hx : x.Ok φ) : (b.mulRev φ c x).Ok φ := by
  unfold DItv.mulRev
  split_ifs
  · exact DItv.ok_nai
  · exact ok_trv (C32_mul_rev hb.1 hc.1 hx.1).1

theorem mulRevMixedD_ok {b c x : DItv} (hb : b.Ok T1.fmt) (hc : c.Ok T2.fmt) (hx : x.Ok T3.fmt) :
    (DItv.mulRevMixed T T1 T2 T3 b c x).Ok T.fmt := by
  unfold DItv.mulRevMixed
  split_ifs
  · exact DItv.ok_nai
  · exact ok_trv (C32_mul_rev_mixed hb.1 hc.1 hx.1).1

theorem cancelD_ok_iff {x y : DItv} (hx : x.Ok φ) (hy : y.Ok φ) :
    (x.cancelMinus φ y).Ok φ ↔ ¬ x.itv.CancelInvalid φ φ y.itv := by
  by_cases h : x.IsNaI ∨ y.IsNaI
  · have e : x.cancelMinus φ y = DItv.nai := by
      rcases h with h | h
      · have := (hx.isNai_iff).mpr ((DItv.isNaI_iff hx).mp h)
        simp [DItv.cancelMinus, this]
      · have := (hy.isNai_iff).mpr ((DItv.isNaI_iff hy).mp h)
        simp [DItv.cancelMinus, this]
    rw [e]
    exact ⟨fun _ => not_invalid_nai h, fun _ => DItv.ok_nai⟩
  · push Not at h
    rw [DItv.isNaI_iff hx, DItv.isNaI_iff hy] at h
    have e : x.cancelMinus φ y = ⟨x.itv.cancelMinus φ y.itv, .trv⟩ := by
      simp [DItv.cancelMinus, hx.isValid, hy.isValid, hx.isNai_false h.1, hy.isNai_false h.2]
    rw [e, ← cancel_ok_iff hx.1 hy.1]
    exact ⟨fun h => h.1, ok_trv⟩

theorem cancelPlusD_ok_iff {x y : DItv} (hx : x.Ok φ) (hy : y.Ok φ) :
    (x.cancelPlus φ y).Ok φ ↔ ¬ x.itv.CancelInvalid φ φ (Fmt.negI y.itv) := by
  by_cases h : x.IsNaI ∨ y.IsNaI
  · rw [((C29_decorated hx hy).1 h).2]
    refine ⟨fun _ => ?_, fun _ => DItv.ok_nai⟩
    rcases h with h | h
    · exact not_invalid_nai (y := ⟨_, .trv⟩) (.inl h)
    · rintro ⟨a, b, c, d, h1, h2, h3, h4, -⟩
      have e : (Fmt.negI y.itv).set = ∅ := by rw [h.1]; exact Itv.set_empty
      rw [h4] at e
      exact (Set.nonempty_Icc.mpr h2).ne_empty e
  · push Not at h
    rw [((C29_decorated hx hy).2 h.1 h.2).2]
    exact ⟨fun h => (cancel_ok_iff hx.1 (Op1.bare_ok .neg hy.1)).mp h.1,
      fun h => ok_trv ((cancel_ok_iff hx.1 (Op1.bare_ok .neg hy.1)).mpr h)⟩

theorem cancelMixedD_ok_iff {x y : DItv} (hx : x.Ok T1.fmt) (hy : y.Ok T2.fmt) :
    (DItv.cancelMinusMixed T T1 T2 x y).Ok T.fmt ↔ ¬ x.itv.CancelInvalid (T.maxPrec [T1, T2]).fmt T.fmt y.itv := by
  by_cases h : x.IsNaI ∨ y.IsNaI
  · rw [(C29_mixed_decorated hx hy).1 h]
    exact ⟨fun _ => not_invalid_nai h, fun _ => DItv.ok_nai⟩
  · push Not at h
    rw [(C29_mixed_decorated hx hy).2 h.1 h.2, ← cancelMixed_ok_iff hx.1 hy.1]
    exact ⟨fun h => h.1, ok_trv⟩

end P1788
