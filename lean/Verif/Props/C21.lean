import Verif.Props.C15
import Verif.Props.C22
import Verif.Props.C23
import Verif.Props.C24
import Verif.Props.C27

/-! # C21: NaI is absorbing, and arises only where a program asks for something ill-formed -/

namespace P1788

/-- The object is NaI. -/
def Obj.IsNaI : Obj → Prop
  | .bare _ _ => False
  | .dec _ x => x.IsNaI

/-- The call extracts the interval part of a decorated interval (a bare interval cannot be NaI). -/
def Call.IsPart : Call → Prop
  | .part _ _ | .partM _ _ _ => True
  | _ => False

/-- The call itself asks for NaI: the constant, a constructor with invalid bounds, with a value that is no decoration
or one that contradicts the bounds, or `set_dec` with the decoration `ill` or a value that is none. -/
def Call.MakesNaI : Call → Prop
  | .naiD _ => True
  | .numsD _ l u | .numsMD _ _ _ l u => ¬ ValidBounds l u
  | .numsDec _ l u d | .numsDecM _ _ _ l u d => ∀ e, Dec.ofRaw d = some e → ¬ Consistent l u e
  | .setDec _ _ d | .setDecM _ _ _ d => ∀ e, Dec.ofRaw d = some e → e = .ill
  | _ => False

variable {φ : Fmt} {T T1 T2 T3 : NumTy}

theorem isNaI_nai : DItv.nai.IsNaI := ⟨rfl, rfl⟩

theorem isNai_nai : DItv.nai.isNai = true := by decide

theorem optD_some {m : Option DItv} {r : DItv} (h : m = some r) {o : Obj} (ho : o ∈ Call.optD T m) : o = .dec T r := by
  obtain ⟨r', h1, rfl⟩ := ho
  rw [h] at h1; cases h1; rfl

theorem Op1.mixedD_nai (op : Op1) : op.mixedD T T1 DItv.nai = DItv.nai := by
  unfold Op1.mixedD
  split_ifs
  · rfl
  split
  · exact convertHullD_nai _
  · rw [Op1.decd_nai]; exact convertHullD_nai _
  · simp only [convertHullD_nai, Op1.decd_nai]

/-- The value of a call with NaI among its arguments. -/
theorem single {c : Call} {o : Obj} (h : c.yields = {o}) (ho : o.IsNaI) :
    c.yields.Nonempty ∧ ∀ r ∈ c.yields, r.IsNaI := by
  rw [h]; exact ⟨⟨o, rfl⟩, fun r hr => by rw [hr]; exact ho⟩

theorem single_nai {c : Call} {x : DItv} (h : c.yields = {.dec T x}) (ho : x = DItv.nai) :
    c.yields.Nonempty ∧ ∀ r ∈ c.yields, r.IsNaI := single h (by rw [ho]; exact isNaI_nai)

theorem some_nai {c : Call} {m : Option DItv} (h : c.yields = Call.optD T m) (ho : m = some DItv.nai) :
    c.yields.Nonempty ∧ ∀ r ∈ c.yields, r.IsNaI := by
  rw [h, ho]
  exact ⟨⟨_, DItv.nai, rfl, rfl⟩, fun r hr => by rw [optD_some rfl hr]; exact isNaI_nai⟩

/-- A call with a NaI argument returns NaI, whatever the other arguments are: there is no other way it can end, and it
does end.  Excepted are the functions that extract the (bare) interval part. -/
theorem C21_absorbing (c : Call) (hc : ¬ c.IsPart) (ha : ∃ a ∈ c.args, a.IsNaI) :
    c.yields.Nonempty ∧ ∀ r ∈ c.yields, r.IsNaI := by
  cases c <;> simp only [Call.args, List.mem_cons, List.not_mem_nil, or_false, exists_eq_or_imp, exists_eq_left,
    Obj.IsNaI, or_self, false_and, exists_false, Call.IsPart, not_true] at ha hc
  case copyD T x =>
    have := DItv.eq_nai ha; subst this
    have h := (C34_copy (Itv.ok_empty T.fmt) (DItv.ok_nai (φ := T.fmt))).2
    refine ⟨⟨.dec T DItv.nai, ⟨fun _ => false, fun _ => false⟩, _, by rw [h], rfl⟩, fun r hr => ?_⟩
    rw [ret_returnsD h hr]; exact ha
  case convertD T T1 x =>
    obtain ⟨y, h, h2⟩ := C34_convert_nai T.fmt (.of_nai ha : x.Ok T1.fmt) ha
    refine ⟨⟨.dec T y, ⟨fun _ => false, fun _ => false⟩, _, by rw [h], rfl⟩, fun r hr => ?_⟩
    rw [ret_returnsD h hr]; exact h2
  case unD T op x => exact single_nai rfl (by rw [DItv.eq_nai ha]; exact op.decd_nai)
  case unMD T op x => exact single_nai rfl (by rw [DItv.eq_nai ha]; exact op.mixedD_nai)
  case binD T op x y => exact single_nai rfl (op.decd_nai (ha.imp DItv.eq_nai DItv.eq_nai))
  case binMD T T1 T2 op x y =>
    refine single_nai rfl ?_
    unfold Op2.mixedD
    split_ifs
    · rfl
    · rw [show T.fmt.convertHullD (op.decd (T.maxPrec [T1, T2]).fmt _ _) = _ from
        congrArg _ (op.decd_nai (by rcases ha with h | h <;> simp [DItv.eq_nai h, convertHullD_nai]))]
      exact convertHullD_nai _
  case fmaD T x y z =>
    exact single_nai rfl (fmaD_nai (by rcases ha with h | h | h <;> simp [DItv.eq_nai h]))
  case fmaMD T T1 T2 T3 x y z =>
    refine single_nai rfl ?_
    unfold fmaMixedD
    split_ifs
    · rfl
    · rw [show T.fmt.convertHullD ((T.maxPrec [T1, T2, T3]).fmt.fmaD _ _ _) = _ from
        congrArg _ (fmaD_nai (by rcases ha with h | h | h <;> simp [DItv.eq_nai h, convertHullD_nai]))]
      exact convertHullD_nai _
  case interD T x y =>
    refine single_nai rfl ?_
    unfold DItv.inter; rcases ha with h | h <;> rw [DItv.eq_nai h] <;> simp [isNai_nai]
  case hullD T x y =>
    refine single_nai rfl ?_
    unfold DItv.hull; rcases ha with h | h <;> rw [DItv.eq_nai h] <;> simp [isNai_nai]
  case interMD T T1 T2 x y =>
    refine single_nai rfl ?_
    unfold DItv.interMixed DItv.inter
    rcases ha with h | h <;> rw [DItv.eq_nai h] <;> simp [isNai_nai, convertHullD_nai]
  case hullMD T T1 T2 x y =>
    refine single_nai rfl ?_
    unfold DItv.hullMixed DItv.hull
    rcases ha with h | h <;> rw [DItv.eq_nai h] <;> simp [isNai_nai, convertHullD_nai]
  case cancelPlusD T x y =>
    refine single_nai rfl ?_
    unfold DItv.cancelPlus DItv.cancelMinus
    rcases ha with h | h <;> rw [DItv.eq_nai h] <;> simp [isNai_nai, Op1.decd_nai]
  case cancelMinusD T x y =>
    refine single_nai rfl ?_
    unfold DItv.cancelMinus
    rcases ha with h | h <;> rw [DItv.eq_nai h] <;> simp [isNai_nai]
  case cancelMinusMD T T1 T2 x y =>
    refine single_nai rfl ?_
    unfold DItv.cancelMinusMixed DItv.cancelMinus
    rcases ha with h | h <;> rw [DItv.eq_nai h] <;> simp [isNai_nai, convertHullD_nai]
  case cancelPlusMD T T1 T2 x y =>
    refine single_nai rfl ?_
    unfold DItv.cancelPlusMixed DItv.cancelMinusMixed DItv.cancelMinus
    rcases ha with h | h <;> rw [DItv.eq_nai h] <;> simp [isNai_nai, convertHullD_nai, Op1.mixedD_nai]
  case revD T op c x =>
    refine single_nai rfl ?_
    unfold DItv.rev; rcases ha with h | h <;> rw [DItv.eq_nai h] <;> simp [isNai_nai]
  case revMD T T1 T2 op c x =>
    refine single_nai rfl ?_
    unfold DItv.revMixed DItv.rev; rcases ha with h | h <;> rw [DItv.eq_nai h] <;> simp [isNai_nai]
  case rev1D T op c =>
    refine single_nai rfl ?_
    unfold DItv.rev1 DItv.rev; rw [DItv.eq_nai ha]; simp [isNai_nai]
  case rev1MD T T1 op c =>
    refine single_nai rfl ?_
    unfold DItv.rev1 DItv.revMixed DItv.rev; rw [DItv.eq_nai ha]; simp [isNai_nai]
  case pownRevD T c x p =>
    refine some_nai rfl ?_
    unfold DItv.pownRev; rcases ha with h | h <;> rw [DItv.eq_nai h] <;> simp [isNai_nai]
  case pownRevMD T T1 T2 c x p =>
    refine some_nai rfl ?_
    unfold DItv.pownRevMixed; rcases ha with h | h <;> rw [DItv.eq_nai h] <;> simp [isNai_nai]
  case pownRev1D T c p =>
    refine some_nai rfl ?_
    unfold DItv.pownRev1 DItv.pownRev; rw [DItv.eq_nai ha]; simp [isNai_nai]
  case pownRev1MD T T1 c p =>
    refine some_nai rfl ?_
    unfold DItv.pownRevMixed; rw [DItv.eq_nai ha]; simp [isNai_nai]
  case mulRevD T b c x =>
    refine single_nai rfl ?_
    unfold DItv.mulRev; rcases ha with h | h | h <;> rw [DItv.eq_nai h] <;> simp [isNai_nai]
  case mulRevMD T T1 T2 T3 b c x =>
    refine single_nai rfl ?_
    unfold DItv.mulRevMixed; rcases ha with h | h | h <;> rw [DItv.eq_nai h] <;> simp [isNai_nai]
  case mulRev2D T b c =>
    refine single_nai rfl ?_
    unfold DItv.mulRev2 DItv.mulRev; rcases ha with h | h <;> rw [DItv.eq_nai h] <;> simp [isNai_nai]
  case mulRev2MD T T1 T2 b c =>
    refine single_nai rfl ?_
    unfold DItv.mulRev2Mixed DItv.mulRevMixed; rcases ha with h | h <;> rw [DItv.eq_nai h] <;> simp [isNai_nai]
  case mulRevPairD T b c =>
    have h : b.mulRevToPair T.fmt c = (DItv.nai, DItv.nai) := by
      unfold DItv.mulRevToPair; rcases ha with h | h <;> rw [DItv.eq_nai h] <;> simp [isNai_nai]
    refine single_nai (T := T) (x := DItv.nai) ?_ rfl
    simp only [Call.yields, h, Set.pair_eq_singleton]
  case mulRevPairMD T T1 T2 b c =>
    have h : b.mulRevToPairMixed T T1 T2 c = (DItv.nai, DItv.nai) := by
      unfold DItv.mulRevToPairMixed DItv.mulRevToPair
      rcases ha with h | h <;> rw [DItv.eq_nai h] <;> simp [isNai_nai, convertHullD_nai]
    refine single_nai (T := T) (x := DItv.nai) ?_ rfl
    simp only [Call.yields, h, Set.pair_eq_singleton]

/-- Relations, predicates and the overlap relation applied to NaI; `is_nai` recognises it. -/
theorem C21_boolean (r : Itv → Itv → Bool) (p : Itv → Bool) (m : FP) {a b : DItv} (h : a.IsNaI ∨ b.IsNaI) :
    DItv.rel r a b = false ∧ a.overlap b = .undefined ∧
    (a.IsNaI → DItv.pred p a = false ∧ a.isMember m = false ∧ a.isNai = true) := by
  have e : ∀ {x : DItv}, x.IsNaI → x.isNai = true := fun h => by rw [DItv.eq_nai h]; rfl
  have h' : a.isNai = true ∨ b.isNai = true ∨ a.isValid = false ∨ b.isValid = false :=
    h.elim (fun h => Or.inl (e h)) (fun h => Or.inr (Or.inl (e h)))
  refine ⟨(C22_decorated r a b).1 h', (C23_decorated a b).1 h', fun h => ?_⟩
  obtain ⟨h1, h2⟩ := (C24_decorated p m a).1 (Or.inl (e h))
  exact ⟨h1, h2, e h⟩

/-- Numeric functions of NaI are NaN. -/
theorem C21_numeric (f : Itv → FP) {a : DItv} (h : a.IsNaI) : a.num f = .nan :=
  (C27_decorated f (.of_nai h : a.Ok binary64)).1 h

theorem not_nai {x : DItv} (h : x.dec ≠ .ill) : ¬ x.IsNaI := fun h' => h h'.2

theorem Op1.decd_ne_ill (op : Op1) {x : DItv} (hx : x.Ok φ) (hn : x.dec ≠ .ill) : (op.decd φ x).dec ≠ .ill := by
  by_cases ht : op = .tan
  · subst ht
    simp only [Op1.decd]
    rw [(tanD_eq hx hn).2]
    split_ifs
    · simp
    · refine Dec.min_ne_ill hn ?_
      unfold Itv.comDac; split_ifs <;> simp
  · exact (Op1.right ht hx hn).2.not_ill

theorem Op1.mixedD_ne_ill (op : Op1) {x : DItv} (hx : x.Ok T1.fmt) (hn : x.dec ≠ .ill) :
    (op.mixedD T T1 x).dec ≠ .ill := by
  unfold Op1.mixedD
  rw [hx.isValid, hx.isNai_false hn]
  simp only [Bool.not_true, Bool.or_self, Bool.false_eq_true, if_false]
  split
  · exact convertHullD_ne_ill hx hn
  · exact convertHullD_ne_ill (Op1.decd_ok .neg hx (φ := T1.fmt)) (Op1.decd_ne_ill .neg hx hn (φ := T1.fmt))
  · exact convertHullD_ne_ill (op.decd_ok (convertHullD_ok hx)) (op.decd_ne_ill (convertHullD_ok hx) (convertHullD_ne_ill hx hn))

theorem fresh_ne_ill {y : DItv} (h : Fresh y) : y.dec ≠ .ill := by
  obtain ⟨h1, h2, h3⟩ := h
  by_cases hb : Bornology.IsBounded y.set
  · rcases y.set.eq_empty_or_nonempty with hs | hs
    · rw [h1 hs]; simp
    · rw [h2 hs hb]; simp
  · rw [h3 hb]; simp

theorem Op2.decd_ne_ill (op : Op2) {x y : DItv} (hx : x.Ok φ) (hy : y.Ok φ) (hn : x.dec ≠ .ill) (hm : y.dec ≠ .ill) :
    (op.decd φ x y).dec ≠ .ill := (op.right hx hy hn hm).2.not_ill

theorem fmaD_ne_ill {x y z : DItv} (hx : x.Ok φ) (hy : y.Ok φ) (hz : z.Ok φ) (hn : x.dec ≠ .ill) (hm : y.dec ≠ .ill)
    (hk : z.dec ≠ .ill) : (φ.fmaD x y z).dec ≠ .ill := (C20_fma hx hy hz hn hm hk).2.not_ill

theorem mulRevToPairD_ne_ill {b c : DItv} (hb : b.Ok φ) (hc : c.Ok φ) (hn : b.dec ≠ .ill) (hm : c.dec ≠ .ill) :
    (b.mulRevToPair φ c).1.dec ≠ .ill ∧ (b.mulRevToPair φ c).2.dec ≠ .ill := by
  unfold DItv.mulRevToPair
  rw [hb.isValid, hc.isValid, hb.isNai_false hn, hc.isNai_false hm]
  simp only [Bool.not_true, Bool.or_self, Bool.false_eq_true, if_false]
  refine ⟨Dec.min_ne_ill (Dec.min_ne_ill hn hm) ?_, by simp⟩
  split_ifs <;> simp

/-- No call turns valid arguments other than NaI into NaI, except one that asks for it (`Call.MakesNaI`). -/
theorem C21_created (c : Call) (ht : c.WellTyped) (ha : ∀ a ∈ c.args, a.Ok ∧ ¬ a.IsNaI) (hm : ¬ c.MakesNaI) :
    ∀ r ∈ c.yields, ¬ r.IsNaI := by
  intro r hr
  cases c <;> simp only [Call.args, List.forall_mem_cons, List.not_mem_nil, false_imp_iff, implies_true, and_true,
    Obj.Ok, Obj.IsNaI, not_false_eq_true, Call.yields, Set.mem_singleton_iff, Set.mem_insert_iff, Call.WellTyped,
    Call.MakesNaI, not_not, not_true] at ha hr ht hm
  case emptyD => subst hr; exact not_nai (by simp [DItv.empty])
  case entireD => subst hr; exact not_nai (by simp [DItv.entire])
  case numsD T l u =>
    obtain ⟨y, h, -, -, h2⟩ := C17_nums ht.1 ht.2 hm
    rw [ret_returnsD h hr]; exact not_nai (fresh_ne_ill h2)
  case numsMD T _ _ l u =>
    obtain ⟨y, h, -, -, h2⟩ := C17_nums_mixed T.fmt hm
    rw [ret_returnsD h hr]; exact not_nai (fresh_ne_ill h2)
  case numsDec T l u d =>
    push Not at hm
    obtain ⟨e, he, hcon⟩ := hm
    obtain ⟨y, h, -, -, h2⟩ := C17_nums_dec ht.1 ht.2 he hcon
    rw [ret_returnsD h hr]; exact not_nai (by rw [h2]; exact hcon.2.1)
  case numsDecM T _ _ l u d =>
    push Not at hm
    obtain ⟨e, he, hcon⟩ := hm
    obtain ⟨y, h, -, -, h2⟩ := C17_nums_dec_mixed T.fmt he hcon
    rw [ret_returnsD h hr]; exact not_nai (by rw [h2]; exact Dec.ite_ne_ill hcon.2.1)
  case newDec T x =>
    obtain ⟨y, h, -, -, h2⟩ := C17_new_dec ha
    rw [ret_returnsD h hr]; exact not_nai (fresh_ne_ill h2)
  case newDecM T T1 x =>
    obtain ⟨y, h, -, -, h2⟩ := C17_new_dec_mixed T.fmt ha
    rw [ret_returnsD h hr]; exact not_nai (fresh_ne_ill h2)
  case setDec T x d =>
    push Not at hm
    obtain ⟨e, he, hne⟩ := hm
    obtain ⟨y, h, -, -, -, h2⟩ := C17_set_dec ha he
    obtain ⟨-, h3, h4⟩ := h2 hne
    rw [ret_returnsD h hr]
    refine not_nai ?_
    rcases x.set.eq_empty_or_nonempty with hs | hs
    · rw [h3 hs]; simp
    · by_cases hb : e = .com ∧ ¬ Bornology.IsBounded x.set
      · rw [(h4 hs).1 hb]; simp
      · rw [(h4 hs).2 hb]; exact hne
  case setDecM T T1 x d =>
    push Not at hm
    obtain ⟨e, he, hne⟩ := hm
    obtain ⟨y, h, -, -, -, h2⟩ := C17_set_dec_mixed T.fmt ha he
    obtain ⟨-, h3, h4⟩ := h2 hne
    rw [ret_returnsD h hr]
    refine not_nai ?_
    rcases x.set.eq_empty_or_nonempty with hs | hs
    · rw [h3 hs]; simp
    · by_cases hb : e = .com ∧ ¬ Bornology.IsBounded y.set
      · rw [(h4 hs).1 hb]; simp
      · rw [(h4 hs).2 hb]; exact hne
  case copyD T x =>
    rw [ret_returnsD (C34_copy (Itv.ok_empty _) ha.1).2 hr]; exact ha.2
  case convertD T T1 x =>
    obtain ⟨y, h1, h2, -, h3, h4⟩ := C34_convert_dec T.fmt ha.1 ha.2
    rw [ret_returnsD h1 hr]
    refine not_nai ?_
    by_cases h : x.dec = .com ∧ ¬ Bornology.IsBounded y.set
    · rw [h3 h]; simp
    · rw [h4 h]; exact ne_ill ha.1 ha.2
  case unD T op x => subst hr; exact not_nai (op.decd_ne_ill ha.1 (ne_ill ha.1 ha.2))
  case unMD T op x => subst hr; exact not_nai (op.mixedD_ne_ill ha.1 (ne_ill ha.1 ha.2))
  case binD T op x y =>
    subst hr
    exact not_nai (op.right ha.1.1 ha.2.1 (ne_ill ha.1.1 ha.1.2) (ne_ill ha.2.1 ha.2.2)).2.not_ill
  case binMD T T1 T2 op x y =>
    subst hr
    have h1 := ne_ill ha.1.1 ha.1.2
    have h2 := ne_ill ha.2.1 ha.2.2
    refine not_nai ?_
    unfold Op2.mixedD
    rw [ha.1.1.isValid, ha.2.1.isValid, ha.1.1.isNai_false h1, ha.2.1.isNai_false h2]
    simp only [Bool.not_true, Bool.or_self, Bool.false_eq_true, if_false]
    exact convertHullD_ne_ill (op.decd_ok (convertHullD_ok ha.1.1) (convertHullD_ok ha.2.1))
      (op.right (convertHullD_ok ha.1.1) (convertHullD_ok ha.2.1) (convertHullD_ne_ill ha.1.1 h1)
        (convertHullD_ne_ill ha.2.1 h2)).2.not_ill
  case fmaD T x y z =>
    subst hr
    exact not_nai (fmaD_ne_ill ha.1.1 ha.2.1.1 ha.2.2.1 (ne_ill ha.1.1 ha.1.2) (ne_ill ha.2.1.1 ha.2.1.2)
      (ne_ill ha.2.2.1 ha.2.2.2))
  case fmaMD T T1 T2 T3 x y z =>
    subst hr
    obtain ⟨⟨hx, nx⟩, ⟨hy, ny⟩, ⟨hz, nz⟩⟩ := ha
    replace nx := ne_ill hx nx; replace ny := ne_ill hy ny; replace nz := ne_ill hz nz
    refine not_nai ?_
    unfold fmaMixedD
    rw [hx.isValid, hy.isValid, hz.isValid, hx.isNai_false nx, hy.isNai_false ny, hz.isNai_false nz]
    simp only [Bool.not_true, Bool.or_self, Bool.false_eq_true, if_false]
    exact convertHullD_ne_ill (fmaD_ok (convertHullD_ok hx) (convertHullD_ok hy) (convertHullD_ok hz))
      (fmaD_ne_ill (convertHullD_ok hx) (convertHullD_ok hy) (convertHullD_ok hz) (convertHullD_ne_ill hx nx)
        (convertHullD_ne_ill hy ny) (convertHullD_ne_ill hz nz))
  case interD T x y =>
    subst hr
    obtain ⟨⟨hx, nx⟩, ⟨hy, ny⟩⟩ := ha
    refine not_nai ?_
    unfold DItv.inter
    simp [hx.isValid, hy.isValid, hx.isNai_false (ne_ill hx nx), hy.isNai_false (ne_ill hy ny)]
  case hullD T x y =>
    subst hr
    obtain ⟨⟨hx, nx⟩, ⟨hy, ny⟩⟩ := ha
    refine not_nai ?_
    unfold DItv.hull
    simp [hx.isValid, hy.isValid, hx.isNai_false (ne_ill hx nx), hy.isNai_false (ne_ill hy ny)]
  case interMD T T1 T2 x y =>
    subst hr
    obtain ⟨⟨hx, nx⟩, ⟨hy, ny⟩⟩ := ha
    replace nx := ne_ill hx nx; replace ny := ne_ill hy ny
    refine not_nai ?_
    unfold DItv.interMixed
    rw [hx.isValid, hy.isValid, hx.isNai_false nx, hy.isNai_false ny]
    simp only [Bool.not_true, Bool.or_self, Bool.false_eq_true, if_false]
    have ex := convertHullD_ok (φ := (T.maxPrec [T1, T2]).fmt) hx
    have ey := convertHullD_ok (φ := (T.maxPrec [T1, T2]).fmt) hy
    refine convertHullD_ne_ill (interD_ok ex ey).1 ?_
    unfold DItv.inter
    simp [ex.isValid, ey.isValid, ex.isNai_false (convertHullD_ne_ill hx nx), ey.isNai_false (convertHullD_ne_ill hy ny)]
  case hullMD T T1 T2 x y =>
    subst hr
    obtain ⟨⟨hx, nx⟩, ⟨hy, ny⟩⟩ := ha
    replace nx := ne_ill hx nx; replace ny := ne_ill hy ny
    refine not_nai ?_
    unfold DItv.hullMixed
    rw [hx.isValid, hy.isValid, hx.isNai_false nx, hy.isNai_false ny]
    simp only [Bool.not_true, Bool.or_self, Bool.false_eq_true, if_false]
    have ex := convertHullD_ok (φ := (T.maxPrec [T1, T2]).fmt) hx
    have ey := convertHullD_ok (φ := (T.maxPrec [T1, T2]).fmt) hy
    refine convertHullD_ne_ill (interD_ok ex ey).2 ?_
    unfold DItv.hull
    simp [ex.isValid, ey.isValid, ex.isNai_false (convertHullD_ne_ill hx nx), ey.isNai_false (convertHullD_ne_ill hy ny)]
  case cancelPlusD T x y =>
    subst hr
    rw [((C29_decorated ha.1.1 ha.2.1).2 ha.1.2 ha.2.2).2]; exact not_nai (by simp)
  case cancelMinusD T x y =>
    subst hr
    rw [((C29_decorated ha.1.1 ha.2.1).2 ha.1.2 ha.2.2).1]; exact not_nai (by simp)
  case cancelMinusMD T T1 T2 x y =>
    subst hr
    rw [(C29_mixed_decorated ha.1.1 ha.2.1).2 ha.1.2 ha.2.2]; exact not_nai (by simp)
  case cancelPlusMD T T1 T2 x y =>
    subst hr
    have h := Op1.mixedD_ok (T := T) .neg ha.2.1
    have h' := Op1.mixedD_ne_ill (T := T) .neg ha.2.1 (ne_ill ha.2.1 ha.2.2)
    unfold DItv.cancelPlusMixed
    rw [(C29_mixed_decorated ha.1.1 h).2 ha.1.2 (not_nai h')]; exact not_nai (by simp)
  case revD T op x y =>
    subst hr
    obtain ⟨⟨hx, nx⟩, ⟨hy, ny⟩⟩ := ha
    refine not_nai ?_
    unfold DItv.rev
    simp [hx.isValid, hy.isValid, hx.isNai_false (ne_ill hx nx), hy.isNai_false (ne_ill hy ny)]
  case revMD T T1 T2 op x y =>
    subst hr
    obtain ⟨⟨hx, nx⟩, ⟨hy, ny⟩⟩ := ha
    refine not_nai ?_
    unfold DItv.revMixed DItv.rev
    simp [hx.isValid, hy.isValid, hx.isNai_false (ne_ill hx nx), hy.isNai_false (ne_ill hy ny)]
  case rev1D T op c =>
    subst hr
    refine not_nai ?_
    have e := DItv.ok_entire (φ := T.fmt)
    unfold DItv.rev1 DItv.rev
    simp [ha.1.isValid, e.isValid, ha.1.isNai_false (ne_ill ha.1 ha.2), e.isNai_false (by simp [DItv.entire])]
  case rev1MD T T1 op c =>
    subst hr
    refine not_nai ?_
    have e := DItv.ok_entire (φ := T.fmt)
    unfold DItv.rev1 DItv.revMixed DItv.rev
    simp [ha.1.isValid, e.isValid, ha.1.isNai_false (ne_ill ha.1 ha.2), e.isNai_false (by simp [DItv.entire])]
  case pownRevD T c x p =>
    obtain ⟨R, h, rfl⟩ := hr
    obtain ⟨⟨hx, nx⟩, ⟨hy, ny⟩⟩ := ha
    replace nx := ne_ill hx nx; replace ny := ne_ill hy ny
    refine not_nai ?_
    unfold DItv.pownRev at h
    rw [hx.isValid, hy.isValid, hx.isNai_false nx, hy.isNai_false ny] at h
    simp only [Bool.not_true, Bool.or_self, Bool.false_eq_true, if_false, Option.map_eq_some_iff] at h
    obtain ⟨R', -, rfl⟩ := h
    simp
  case pownRevMD T T1 T2 c x p =>
    obtain ⟨R, h, rfl⟩ := hr
    obtain ⟨⟨hx, nx⟩, ⟨hy, ny⟩⟩ := ha
    replace nx := ne_ill hx nx; replace ny := ne_ill hy ny
    refine not_nai ?_
    unfold DItv.pownRevMixed at h
    rw [hx.isValid, hy.isValid, hx.isNai_false nx, hy.isNai_false ny] at h
    simp only [Bool.not_true, Bool.or_self, Bool.false_eq_true, if_false, Option.map_eq_some_iff] at h
    obtain ⟨R', -, rfl⟩ := h
    simp
  case pownRev1D T c p =>
    obtain ⟨R, h, rfl⟩ := hr
    have hy := DItv.ok_entire (φ := T.fmt)
    have ny : DItv.entire.dec ≠ .ill := by simp [DItv.entire]
    obtain ⟨hx, nx⟩ := ha
    replace nx := ne_ill hx nx
    refine not_nai ?_
    unfold DItv.pownRev1 DItv.pownRev at h
    rw [hx.isValid, hy.isValid, hx.isNai_false nx, hy.isNai_false ny] at h
    simp only [Bool.not_true, Bool.or_self, Bool.false_eq_true, if_false, Option.map_eq_some_iff] at h
    obtain ⟨R', -, rfl⟩ := h
    simp
  case pownRev1MD T T1 c p =>
    obtain ⟨R, h, rfl⟩ := hr
    have hy := DItv.ok_entire (φ := T.fmt)
    have ny : DItv.entire.dec ≠ .ill := by simp [DItv.entire]
    obtain ⟨hx, nx⟩ := ha
    replace nx := ne_ill hx nx
    refine not_nai ?_
    unfold DItv.pownRevMixed at h
    rw [hx.isValid, hy.isValid, hx.isNai_false nx, hy.isNai_false ny] at h
    simp only [Bool.not_true, Bool.or_self, Bool.false_eq_true, if_false, Option.map_eq_some_iff] at h
    obtain ⟨R', -, rfl⟩ := h
    simp
  case mulRevD => subst hr; rw [(C32_mul_rev_decorated ha.1.1 ha.2.1.1 ha.2.2.1).2 ha.1.2 ha.2.1.2 ha.2.2.2]; exact not_nai (by simp)
  case mulRevMD => subst hr; rw [(C32_mul_rev_mixed_decorated ha.1.1 ha.2.1.1 ha.2.2.1).2 ha.1.2 ha.2.1.2 ha.2.2.2]; exact not_nai (by simp)
  case mulRev2D T b c =>
    subst hr
    unfold DItv.mulRev2
    rw [(C32_mul_rev_decorated ha.1.1 ha.2.1 DItv.ok_entire).2 ha.1.2 ha.2.2 (not_nai (by simp [DItv.entire]))]
    exact not_nai (by simp)
  case mulRev2MD T T1 T2 b c =>
    subst hr
    unfold DItv.mulRev2Mixed
    rw [(C32_mul_rev_mixed_decorated ha.1.1 ha.2.1 DItv.ok_entire).2 ha.1.2 ha.2.2 (not_nai (by simp [DItv.entire]))]
    exact not_nai (by simp)
  case mulRevPairD T b c =>
    obtain ⟨h1, h2⟩ := mulRevToPairD_ne_ill ha.1.1 ha.2.1 (ne_ill ha.1.1 ha.1.2) (ne_ill ha.2.1 ha.2.2)
    rcases hr with rfl | rfl; exacts [not_nai h1, not_nai h2]
  case mulRevPairMD T T1 T2 b c =>
    have ex := convertHullD_ok (φ := (T.maxPrec [T1, T2]).fmt) ha.1.1
    have ey := convertHullD_ok (φ := (T.maxPrec [T1, T2]).fmt) ha.2.1
    obtain ⟨h1, h2⟩ := mulRevToPairD_ne_ill ex ey (convertHullD_ne_ill ha.1.1 (ne_ill ha.1.1 ha.1.2))
      (convertHullD_ne_ill ha.2.1 (ne_ill ha.2.1 ha.2.2))
    obtain ⟨h3, h4⟩ := mulRevPairD_ok ex ey
    rcases hr with rfl | rfl
    exacts [not_nai (convertHullD_ne_ill h3 h1), not_nai (convertHullD_ne_ill h4 h2)]
  all_goals (first | (rcases hr with rfl | rfl <;> exact id) | (subst hr; exact id) | (obtain ⟨_, _, -, rfl⟩ := hr; exact id) |
    (obtain ⟨_, -, rfl⟩ := hr; exact id))

/-- In particular no NaI arises in a history without calls that ask for it (and without the cancellative operations on
pairs with invalid results, C29). -/
theorem C21_history {l : List Obj} (h : History (fun c => c.NotBad ∧ ¬ c.MakesNaI) l) : ∀ o ∈ l, ¬ o.IsNaI := by
  have hok : ∀ {l : List Obj}, History (fun c => c.NotBad ∧ ¬ c.MakesNaI) l → ∀ o ∈ l, o.Ok :=
    fun h => C15_partial (h.mono fun _ h => h.1)
  induction h with
  | start => simp
  | call h c ht hP ha hr ih =>
    rw [List.forall_mem_cons]
    exact ⟨C21_created c ht (fun a h' => ⟨hok h a (ha a h'), ih a (ha a h')⟩) hP.2 _ hr, ih⟩

/-- Non-vacuity: a division with NaI and an unbounded second operand; a sum that yields a proper interval. -/
example : ∀ r ∈ (Call.binD .double .div ⟨⟨.fin 1, .pinf⟩, .dac⟩ DItv.nai).yields, r.IsNaI :=
  (C21_absorbing _ id ⟨.dec .double DItv.nai, by simp [Call.args], isNaI_nai⟩).2

example : ∀ r ∈ (Call.binMD .float .double .float .add ⟨⟨.fin 1, .pinf⟩, .dac⟩ DItv.empty).yields, ¬ r.IsNaI := by
  refine C21_created _ trivial ?_ id
  simp only [Call.args, List.forall_mem_cons, List.not_mem_nil, false_imp_iff, implies_true, and_true]
  exact ⟨⟨⟨Itv.ok_of_okb (by decide +kernel), by simp, by simp, by simp⟩, not_nai (by simp)⟩, DItv.ok_empty,
    not_nai (by simp [DItv.empty])⟩

example : (Call.setDec .double ⟨.fin 1, .fin 2⟩ 0).MakesNaI := by
  intro e he
  rw [show Dec.ofRaw 0 = some .ill from rfl] at he
  exact (Option.some.inj he).symm

end P1788
