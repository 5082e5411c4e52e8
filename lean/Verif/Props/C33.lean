import Verif.Model.Mixed
import Verif.Lemmas.Ops
import Verif.Lemmas.Conv

/-!
# C33 Mixed-type operations round once
-/

namespace P1788

theorem NumTy.sub_of_order {a b : NumTy} (h : a.order ≤ b.order) : a.fmt.Sub b.fmt := by
  cases a <;> cases b <;> simp only [NumTy.order, NumTy.fmt] at h ⊢ <;>
    first
    | exact Fmt.Sub.refl _
    | exact sub_32_64
    | exact sub_64_x87
    | exact sub_32_x87
    | omega

theorem NumTy.max2_order (a b : NumTy) : a.order ≤ (a.max2 b).order ∧ b.order ≤ (a.max2 b).order := by
  unfold NumTy.max2; split_ifs <;> omega

theorem NumTy.maxPrec_order (a : NumTy) (l : List NumTy) : ∀ t ∈ a :: l, t.order ≤ (a.maxPrec l).order := by
  induction l generalizing a with
  | nil => intro t ht; simp at ht; subst ht; exact le_rfl
  | cons b l ih =>
    intro t ht
    have := ih (a.max2 b)
    have hm := NumTy.max2_order a b
    have h0 := this (a.max2 b) (by simp)
    simp only [List.mem_cons] at ht
    rcases ht with rfl | rfl | h
    · exact hm.1.trans h0
    · exact hm.2.trans h0
    · exact this t (by simp [h])

theorem NumTy.sub_max {a : NumTy} {l : List NumTy} {t : NumTy} (h : t ∈ a :: l) :
    t.fmt.Sub (a.maxPrec l).fmt := NumTy.sub_of_order (NumTy.maxPrec_order a l t h)

/-- The widest type involved is one of them. -/
theorem C33_max (a : NumTy) (l : List NumTy) : a.maxPrec l ∈ a :: l ∧ ∀ t ∈ a :: l, t.fmt.Sub (a.maxPrec l).fmt := by
  refine ⟨?_, fun t h => NumTy.sub_max h⟩
  induction l generalizing a with
  | nil => simp [NumTy.maxPrec]
  | cons b l ih =>
    have := ih (a.max2 b)
    simp only [List.mem_cons, NumTy.maxPrec] at this ⊢
    rcases this with h | h
    · rw [h]; unfold NumTy.max2; split_ifs <;> simp
    · exact .inr (.inr h)

variable {T T1 T2 T3 : NumTy}

/-- A unary function (other than `tan`) of an interval of type `T1` with result type `T` is the tightest interval of
type `T` around the exact range: it is rounded only once. -/
theorem C33_unary {op : Op1} (ht : op ≠ .tan) {x : Itv} (hx : x.Ok T1.fmt) :
    Tightest T.fmt (op.mixed T T1 x) (op.fn '' (x.set ∩ op.dom)) := by
  have hs1 : T1.fmt.Sub (T.maxPrec [T1]).fmt := NumTy.sub_max (by simp)
  have hs : T.fmt.Sub (T.maxPrec [T1]).fmt := NumTy.sub_max (by simp)
  have gen : Tightest T.fmt (T.fmt.convertHull (op.bare (T.maxPrec [T1]).fmt ((T.maxPrec [T1]).fmt.convertHull x)))
      (op.fn '' (x.set ∩ op.dom)) := by
    have h := tight_convert hs (Op1.tight ht (convertHull_tight (φ := (T.maxPrec [T1]).fmt) hx).1)
    rwa [convert_exact hs1 hx] at h
  unfold Op1.mixed
  rw [hx.isValid]
  simp only [Bool.not_true, Bool.false_eq_true, if_false]
  split
  · have h := convertHull_tight (φ := T.fmt) hx
    convert h using 1
    simp [Op1.fn, Op1.dom]
  · have h := Op1.tight (op := .neg) (by simp) hx
    have h2 := convertHull_tight (φ := T.fmt) h.1
    refine ⟨h2.1, h.2.1.trans h2.2.1, fun Y hY hS => h2.2.2 Y hY ?_⟩
    -- negation is exact in every format
    have hneg : (Op1.neg.bare T1.fmt x).set = Op1.neg.fn '' (x.set ∩ Op1.neg.dom) := by
      rcases hx.cases with rfl | hN
      · have h' := h.2.2 Itv.empty (Itv.ok_empty _) (by simp)
        rw [Itv.set_empty, Set.subset_empty_iff] at h'
        rw [h']; simp
      · have e : Op1.neg.bare T1.fmt x = ⟨x.hi.neg, x.lo.neg⟩ := by
          simp [Op1.bare, Fmt.negI, hN.isValid, hN.isEmpty]
        refine Set.Subset.antisymm (fun r hr => ?_) h.2.1
        refine ⟨-r, ⟨?_, by simp [Op1.dom]⟩, by simp [Op1.fn]⟩
        rw [e] at hr
        have hr' := Itv.mem_set.mp hr
        rw [hN.mem]
        simp only [FP.toE_neg] at hr'
        rw [EReal.coe_neg]
        constructor
        · rw [EReal.le_neg]; exact hr'.2.2
        · rw [EReal.neg_le]; exact hr'.1.2
    rw [hneg]; exact hS
  · exact gen

/-- A binary function of intervals of types `T1` and `T2` with result type `T`. -/
theorem C33_binary (op : Op2) {x y : Itv} (hx : x.Ok T1.fmt) (hy : y.Ok T2.fmt) :
    Tightest T.fmt (op.mixed T T1 T2 x y) (op.fn '' ((x.set ×ˢ y.set) ∩ op.dom)) := by
  have hs1 : T1.fmt.Sub (T.maxPrec [T1, T2]).fmt := NumTy.sub_max (by simp)
  have hs2 : T2.fmt.Sub (T.maxPrec [T1, T2]).fmt := NumTy.sub_max (by simp)
  have hs : T.fmt.Sub (T.maxPrec [T1, T2]).fmt := NumTy.sub_max (by simp)
  unfold Op2.mixed
  rw [hx.isValid, hy.isValid]
  simp only [Bool.not_true, Bool.or_self, Bool.false_eq_true, if_false]
  have h := tight_convert hs (Op2.tight op (convertHull_tight (φ := (T.maxPrec [T1, T2]).fmt) hx).1
    (convertHull_tight (φ := (T.maxPrec [T1, T2]).fmt) hy).1)
  rwa [convert_exact hs1 hx, convert_exact hs2 hy] at h

/-- `fma` of intervals of types `T1`, `T2` and `T3` with result type `T`. -/
theorem C33_fma {x y z : Itv} (hx : x.Ok T1.fmt) (hy : y.Ok T2.fmt) (hz : z.Ok T3.fmt) :
    Tightest T.fmt (fmaMixed T T1 T2 T3 x y z) {w | ∃ a ∈ x.set, ∃ b ∈ y.set, ∃ c ∈ z.set, w = a * b + c} := by
  have hs1 : T1.fmt.Sub (T.maxPrec [T1, T2, T3]).fmt := NumTy.sub_max (by simp)
  have hs2 : T2.fmt.Sub (T.maxPrec [T1, T2, T3]).fmt := NumTy.sub_max (by simp)
  have hs3 : T3.fmt.Sub (T.maxPrec [T1, T2, T3]).fmt := NumTy.sub_max (by simp)
  have hs : T.fmt.Sub (T.maxPrec [T1, T2, T3]).fmt := NumTy.sub_max (by simp)
  unfold fmaMixed
  rw [hx.isValid, hy.isValid, hz.isValid]
  simp only [Bool.not_true, Bool.or_self, Bool.false_eq_true, if_false]
  have h := tight_convert hs (C06_fma _ (convertHull_tight (φ := (T.maxPrec [T1, T2, T3]).fmt) hx).1
    (convertHull_tight (φ := (T.maxPrec [T1, T2, T3]).fmt) hy).1
    (convertHull_tight (φ := (T.maxPrec [T1, T2, T3]).fmt) hz).1)
  rwa [convert_exact hs1 hx, convert_exact hs2 hy, convert_exact hs3 hz] at h

/-- Intersection and convex hull of intervals of types `T1` and `T2` with result type `T`. -/
theorem C33_set_ops {x y : Itv} (hx : x.Ok T1.fmt) (hy : y.Ok T2.fmt) :
    Tightest T.fmt (Itv.interMixed T T1 T2 x y) (x.set ∩ y.set) ∧
    Tightest T.fmt (Itv.hullMixed T T1 T2 x y) (x.set ∪ y.set) := by
  have hs1 : T1.fmt.Sub (T.maxPrec [T1, T2]).fmt := NumTy.sub_max (by simp)
  have hs2 : T2.fmt.Sub (T.maxPrec [T1, T2]).fmt := NumTy.sub_max (by simp)
  have hs : T.fmt.Sub (T.maxPrec [T1, T2]).fmt := NumTy.sub_max (by simp)
  have o1 := (convertHull_tight (φ := (T.maxPrec [T1, T2]).fmt) hx).1
  have o2 := (convertHull_tight (φ := (T.maxPrec [T1, T2]).fmt) hy).1
  unfold Itv.interMixed Itv.hullMixed
  rw [hx.isValid, hy.isValid]
  simp only [Bool.not_true, Bool.or_self, Bool.false_eq_true, if_false]
  constructor
  · obtain ⟨h1, h2⟩ := Itv.inter_ok_set o1 o2
    rw [convert_exact hs1 hx, convert_exact hs2 hy] at h2
    exact tight_convert hs (tight_of_eq h1 h2)
  · have h := tight_convert hs (Itv.hull_tight o1 o2)
    rwa [convert_exact hs1 hx, convert_exact hs2 hy] at h

/-- Decorated unary functions (other than `tan`): the interval part is the tightest interval of the result type and
the decoration is exactly right for it. -/
theorem C33_unary_dec {op : Op1} (ht : op ≠ .tan) {x : DItv} (hx : x.Ok T1.fmt) (hn : ¬ x.IsNaI) :
    (op.mixedD T T1 x).Ok T.fmt ∧ Tightest T.fmt (op.mixedD T T1 x).itv (op.fn '' (x.set ∩ op.dom)) ∧
    DecRight op.fn op.dom x.set x.dec (op.mixedD T T1 x) := by
  rw [DItv.isNaI_iff hx] at hn
  have hs1 : T1.fmt.Sub (T.maxPrec [T1]).fmt := NumTy.sub_max (by simp)
  have hs : T.fmt.Sub (T.maxPrec [T1]).fmt := NumTy.sub_max (by simp)
  have hb := C33_unary (T := T) ht hx.1
  unfold Op1.mixed at hb
  unfold Op1.mixedD
  rw [hx.1.isValid] at hb
  rw [hx.isValid, hx.isNai_false hn]
  simp only [Bool.not_true, Bool.or_self, Bool.false_eq_true, if_false] at hb ⊢
  have gen : ∀ (ψ : Fmt) (r : DItv) (R : Itv), r.Ok ψ → r.itv = R → DecRight op.fn op.dom x.set x.dec r →
      Tightest T.fmt (T.fmt.convertHull R) (op.fn '' (x.set ∩ op.dom)) →
      (T.fmt.convertHullD r).Ok T.fmt ∧ Tightest T.fmt (T.fmt.convertHullD r).itv (op.fn '' (x.set ∩ op.dom)) ∧
      DecRight op.fn op.dom x.set x.dec (T.fmt.convertHullD r) := by
    intro ψ r R h1 h2 h3 h4
    exact ⟨convertHullD_ok h1, by rw [convertHullD_itv h1 h3.not_ill, h2]; exact h4, right_convert h1 h3⟩
  split at hb
  · refine gen T1.fmt x x.itv hx rfl ?_ hb
    have := (Op1.right (op := .pos) (by simp) hx hn).2
    have e : Op1.pos.decd T1.fmt x = x := by
      simp [Op1.decd, Fmt.posD, hx.isValid, hx.isNai_false hn]
    rwa [e] at this
  · exact gen T1.fmt _ _ (Op1.decd_ok _ hx) (Op1.right (op := .neg) (by simp) hx hn).1
      (Op1.right (op := .neg) (by simp) hx hn).2 hb
  · have hxw := convertHullD_ok (φ := (T.maxPrec [T1]).fmt) hx
    obtain ⟨w1, w2⟩ := convertHullD_wide hs1 hx hn
    have hnw : ((T.maxPrec [T1]).fmt.convertHullD x).dec ≠ .ill := by rw [w2]; exact hn
    obtain ⟨r1, r2⟩ := Op1.right ht hxw hnw
    rw [w1, w2] at r2
    refine gen _ _ _ (Op1.decd_ok _ hxw) r1 r2 ?_
    rw [convertHullD_itv hx hn]
    exact hb

/-- Decorated binary functions. -/
theorem C33_binary_dec (op : Op2) {x y : DItv} (hx : x.Ok T1.fmt) (hy : y.Ok T2.fmt) (hn : ¬ x.IsNaI) (hm : ¬ y.IsNaI) :
    (op.mixedD T T1 T2 x y).Ok T.fmt ∧
    Tightest T.fmt (op.mixedD T T1 T2 x y).itv (op.fn '' ((x.set ×ˢ y.set) ∩ op.dom)) ∧
    DecRight op.fn op.dom (x.set ×ˢ y.set) (x.dec.min y.dec) (op.mixedD T T1 T2 x y) := by
  rw [DItv.isNaI_iff hx] at hn
  rw [DItv.isNaI_iff hy] at hm
  have hs1 : T1.fmt.Sub (T.maxPrec [T1, T2]).fmt := NumTy.sub_max (by simp)
  have hs2 : T2.fmt.Sub (T.maxPrec [T1, T2]).fmt := NumTy.sub_max (by simp)
  have hb := C33_binary (T := T) op hx.1 hy.1
  unfold Op2.mixed at hb
  unfold Op2.mixedD
  rw [hx.1.isValid, hy.1.isValid] at hb
  rw [hx.isValid, hy.isValid, hx.isNai_false hn, hy.isNai_false hm]
  simp only [Bool.not_true, Bool.or_self, Bool.false_eq_true, if_false] at hb ⊢
  have hxw := convertHullD_ok (φ := (T.maxPrec [T1, T2]).fmt) hx
  have hyw := convertHullD_ok (φ := (T.maxPrec [T1, T2]).fmt) hy
  obtain ⟨w1, w2⟩ := convertHullD_wide hs1 hx hn
  obtain ⟨v1, v2⟩ := convertHullD_wide hs2 hy hm
  obtain ⟨r1, r2⟩ := Op2.right op hxw hyw (by rw [w2]; exact hn) (by rw [v2]; exact hm)
  rw [w1, w2, v1, v2] at r2
  have hok := Op2.decd_ok op hxw hyw
  refine ⟨convertHullD_ok hok, ?_, right_convert hok r2⟩
  rw [convertHullD_itv hok r2.not_ill, r1, convertHullD_itv hx hn, convertHullD_itv hy hm]
  exact hb

/-- Decorated `fma`. -/
theorem C33_fma_dec {x y z : DItv} (hx : x.Ok T1.fmt) (hy : y.Ok T2.fmt) (hz : z.Ok T3.fmt) (hn : ¬ x.IsNaI)
    (hm : ¬ y.IsNaI) (hk : ¬ z.IsNaI) :
    (fmaMixedD T T1 T2 T3 x y z).Ok T.fmt ∧
    Tightest T.fmt (fmaMixedD T T1 T2 T3 x y z).itv
      {w | ∃ a ∈ x.set, ∃ b ∈ y.set, ∃ c ∈ z.set, w = a * b + c} ∧
    DecRight (fun p : ℝ × ℝ × ℝ => p.1 * p.2.1 + p.2.2) Set.univ (x.set ×ˢ y.set ×ˢ z.set)
      ((x.dec.min y.dec).min z.dec) (fmaMixedD T T1 T2 T3 x y z) := by
  rw [DItv.isNaI_iff hx] at hn
  rw [DItv.isNaI_iff hy] at hm
  rw [DItv.isNaI_iff hz] at hk
  have hs1 : T1.fmt.Sub (T.maxPrec [T1, T2, T3]).fmt := NumTy.sub_max (by simp)
  have hs2 : T2.fmt.Sub (T.maxPrec [T1, T2, T3]).fmt := NumTy.sub_max (by simp)
  have hs3 : T3.fmt.Sub (T.maxPrec [T1, T2, T3]).fmt := NumTy.sub_max (by simp)
  have hb := C33_fma (T := T) hx.1 hy.1 hz.1
  unfold fmaMixed at hb
  unfold fmaMixedD
  rw [hx.1.isValid, hy.1.isValid, hz.1.isValid] at hb
  rw [hx.isValid, hy.isValid, hz.isValid, hx.isNai_false hn, hy.isNai_false hm, hz.isNai_false hk]
  simp only [Bool.not_true, Bool.or_self, Bool.false_eq_true, if_false] at hb ⊢
  have hxw := convertHullD_ok (φ := (T.maxPrec [T1, T2, T3]).fmt) hx
  have hyw := convertHullD_ok (φ := (T.maxPrec [T1, T2, T3]).fmt) hy
  have hzw := convertHullD_ok (φ := (T.maxPrec [T1, T2, T3]).fmt) hz
  obtain ⟨w1, w2⟩ := convertHullD_wide hs1 hx hn
  obtain ⟨v1, v2⟩ := convertHullD_wide hs2 hy hm
  obtain ⟨u1, u2⟩ := convertHullD_wide hs3 hz hk
  obtain ⟨r1, r2⟩ := C20_fma hxw hyw hzw (by rw [w2]; exact hn) (by rw [v2]; exact hm) (by rw [u2]; exact hk)
  rw [w1, w2, v1, v2, u1, u2] at r2
  have hok := fmaD_ok hxw hyw hzw
  refine ⟨convertHullD_ok hok, ?_, right_convert hok r2⟩
  rw [convertHullD_itv hok r2.not_ill, r1, convertHullD_itv hx hn, convertHullD_itv hy hm, convertHullD_itv hz hk]
  exact hb

/-- Decorated intersection and convex hull: the tightest interval, decorated `trv`. -/
theorem C33_set_ops_dec {x y : DItv} (hx : x.Ok T1.fmt) (hy : y.Ok T2.fmt) (hn : ¬ x.IsNaI) (hm : ¬ y.IsNaI) :
    Tightest T.fmt (DItv.interMixed T T1 T2 x y).itv (x.set ∩ y.set) ∧ (DItv.interMixed T T1 T2 x y).dec = .trv ∧
    Tightest T.fmt (DItv.hullMixed T T1 T2 x y).itv (x.set ∪ y.set) ∧ (DItv.hullMixed T T1 T2 x y).dec = .trv := by
  rw [DItv.isNaI_iff hx] at hn
  rw [DItv.isNaI_iff hy] at hm
  have hs1 : T1.fmt.Sub (T.maxPrec [T1, T2]).fmt := NumTy.sub_max (by simp)
  have hs2 : T2.fmt.Sub (T.maxPrec [T1, T2]).fmt := NumTy.sub_max (by simp)
  obtain ⟨hb1, hb2⟩ := C33_set_ops (T := T) hx.1 hy.1
  unfold Itv.interMixed at hb1
  unfold Itv.hullMixed at hb2
  unfold DItv.interMixed DItv.hullMixed
  rw [hx.1.isValid, hy.1.isValid] at hb1 hb2
  rw [hx.isValid, hy.isValid, hx.isNai_false hn, hy.isNai_false hm]
  simp only [Bool.not_true, Bool.or_self, Bool.false_eq_true, if_false] at hb1 hb2 ⊢
  have hxw := convertHullD_ok (φ := (T.maxPrec [T1, T2]).fmt) hx
  have hyw := convertHullD_ok (φ := (T.maxPrec [T1, T2]).fmt) hy
  obtain ⟨w1, w2⟩ := convertHullD_wide hs1 hx hn
  obtain ⟨v1, v2⟩ := convertHullD_wide hs2 hy hm
  have nw : ((T.maxPrec [T1, T2]).fmt.convertHullD x).dec ≠ .ill := by rw [w2]; exact hn
  have nv : ((T.maxPrec [T1, T2]).fmt.convertHullD y).dec ≠ .ill := by rw [v2]; exact hm
  have e1 := convertHullD_itv (φ := (T.maxPrec [T1, T2]).fmt) hx hn
  have e2 := convertHullD_itv (φ := (T.maxPrec [T1, T2]).fmt) hy hm
  have trvOk : ∀ R : Itv, R.Ok (T.maxPrec [T1, T2]).fmt → (DItv.mk R .trv).Ok (T.maxPrec [T1, T2]).fmt := fun R h =>
    ⟨h, fun _ => .inr rfl, fun _ => by simp, fun h => by cases h⟩
  have i1 : ((T.maxPrec [T1, T2]).fmt.convertHullD x).inter ((T.maxPrec [T1, T2]).fmt.convertHullD y) =
      ⟨((T.maxPrec [T1, T2]).fmt.convertHull x.itv).inter ((T.maxPrec [T1, T2]).fmt.convertHull y.itv), .trv⟩ := by
    rw [← e1, ← e2]
    simp [DItv.inter, hxw.isValid, hyw.isValid, hxw.isNai_false nw, hyw.isNai_false nv]
  have i2 : ((T.maxPrec [T1, T2]).fmt.convertHullD x).hull ((T.maxPrec [T1, T2]).fmt.convertHullD y) =
      ⟨((T.maxPrec [T1, T2]).fmt.convertHull x.itv).hull ((T.maxPrec [T1, T2]).fmt.convertHull y.itv), .trv⟩ := by
    rw [← e1, ← e2]
    simp [DItv.hull, hxw.isValid, hyw.isValid, hxw.isNai_false nw, hyw.isNai_false nv]
  have o1 := (convertHull_tight (φ := (T.maxPrec [T1, T2]).fmt) hx.1).1
  have o2 := (convertHull_tight (φ := (T.maxPrec [T1, T2]).fmt) hy.1).1
  have k1 := trvOk _ (Itv.inter_ok_set o1 o2).1
  have k2 := trvOk _ (Itv.hull_tight o1 o2).1
  rw [i1, i2, convertHullD_eq k1 (by simp), convertHullD_eq k2 (by simp)]
  exact ⟨hb1, by simp, hb2, by simp⟩

/-- NaI operands give NaI. -/
theorem C33_nai {x : DItv} (hx : x.IsNaI) :
    (∀ op : Op1, (op.mixedD T T1 x).IsNaI) ∧
    (∀ (op : Op2) (y : DItv), (op.mixedD T T1 T2 x y).IsNaI ∧ (op.mixedD T T1 T2 y x).IsNaI) ∧
    (∀ y z : DItv, (fmaMixedD T T1 T2 T3 x y z).IsNaI ∧ (fmaMixedD T T1 T2 T3 y x z).IsNaI ∧
      (fmaMixedD T T1 T2 T3 y z x).IsNaI) ∧
    (∀ y : DItv, (DItv.interMixed T T1 T2 x y).IsNaI ∧ (DItv.interMixed T T1 T2 y x).IsNaI ∧
      (DItv.hullMixed T T1 T2 x y).IsNaI ∧ (DItv.hullMixed T T1 T2 y x).IsNaI) := by
  have e := DItv.eq_nai hx
  subst e
  have hnai : DItv.nai.isNai = true := by decide
  have N : DItv.nai.IsNaI := ⟨rfl, rfl⟩
  refine ⟨fun op => ?_, fun op y => ⟨?_, ?_⟩, fun y z => ⟨?_, ?_, ?_⟩, fun y => ⟨?_, ?_, ?_, ?_⟩⟩ <;>
    simp [Op1.mixedD, Op2.mixedD, fmaMixedD, DItv.interMixed, DItv.hullMixed, hnai, N]

/-- `tan` of a `double` interval with result type `float` or `double` does not always enclose the exact range. -/
theorem C33_tan_false (hT : T ≠ .longDouble) : ∃ x : Itv, x.Ok NumTy.double.fmt ∧
    ¬ Op1.tan.fn '' (x.set ∩ Op1.tan.dom) ⊆ (Op1.tan.mixed T .double x).set := by
  obtain ⟨b, hx, ha, hb, hbv, ht1, hw, hr⟩ := tan_witness_branch
  obtain ⟨-, -, h3, n1, i1, e1, n2, i2, e2⟩ := tanI_fin hx ha hb
  have hT := h3 hw hr
  refine ⟨tanWitness, tanWitness_ok, fun hsub => ?_⟩
  have h0 : (0:ℝ) ∈ Op1.tan.fn '' (tanWitness.set ∩ Op1.tan.dom) := by
    refine ⟨Real.pi, ⟨hx.mem.mpr ⟨?_, ?_⟩, by simp [Op1.dom]⟩, by simp [Op1.fn]⟩
    · rw [ha]; exact_mod_cast (by linarith [Real.pi_gt_three])
    · have p2 := Real.pi_lt_d20
      rw [hb, hbv]; exact_mod_cast (by norm_num at p2 ⊢; linarith)
  have hm := hsub h0
  have e : Op1.tan.mixed T .double tanWitness = T.fmt.convertHull (binary64.tanI (binary64.convertHull tanWitness)) := by
    unfold Op1.mixed; rw [tanWitness_ok.isValid]
    cases T with
    | float => rfl
    | double => rfl
    | longDouble => exact absurd rfl hT
  have ew : binary64.convertHull tanWitness = tanWitness := by decide +kernel
  rw [e, ew] at hm
  have hok := tanI_ok tanWitness_ok
  have hY := (convertHull_tight (φ := T.fmt) hok).2.2 ⟨.fin 1, .pinf⟩
    (Itv.ok_of_okb (by cases T <;> decide +kernel)) (fun r hr' => by
      rw [hT] at hr'
      have := (Itv.mem_set.mp hr').1.2
      rw [show (Itv.mk (binary64.tanF .D tanWitness.lo) (binary64.tanF .U tanWitness.hi)).lo =
        binary64.tanF .D tanWitness.lo from rfl, e1] at this
      have h1le := (binary64.le_rdE_iff (f := .fin 1) (rep_one _) (Real.tan (7 / 8)) (by simp)).mpr (by
        rw [toE_one]; exact_mod_cast ht1.le)
      have := h1le.trans this
      rw [toE_one] at this
      refine ⟨?_, trivial⟩
      have h1 : (1:ℝ) ≤ r := by exact_mod_cast this
      simpa [FP.BelowR] using h1)
  have := (hY hm).1
  norm_num [FP.BelowR] at this

-- Non-vacuity: a `float` and a `double` operand with a `long double` result.
example : (Itv.mk (.fin (1/2)) (.fin 3)).Ok NumTy.float.fmt ∧ (Itv.mk (.fin (-7)) .pinf).Ok NumTy.double.fmt ∧
    NumTy.longDouble.maxPrec [.float, .double] = .longDouble ∧ NumTy.float.maxPrec [.double] = .double :=
  ⟨Itv.ok_of_okb (by decide +kernel), Itv.ok_of_okb (by decide +kernel), by decide, by decide⟩

end P1788
