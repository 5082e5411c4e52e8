import Verif.Lemmas.UnzDec
import Verif.Props.C15
import Verif.Props.C42

/-! # C53: equal intervals are interchangeable

The bounds of an interval may be `-0.0` or `+0.0`; as numbers these are different data, but intervals that differ only in them
compare equal.  `unz` (`Verif/Lemmas/Unz.lean`) replaces `-0.0` by `+0.0`.  `C53_equal` says that valid intervals compare equal
exactly if they agree after this replacement.  The other theorems say that equal arguments give equal results in every function
of the library that returns intervals (`C53_calls`), in all expressions (`C53_expr`), in all predicates and comparisons
(`C53_predicates`, `C53_comparisons`), in all numeric functions even with the same sign of zero (`C53_numbers`), and in the text in inf-sup form
(`C53_text`).  The text in uncertain form is an exception: it shows the sign of a zero bound (`C53_uncertain_false`). -/

namespace P1788
variable {φ ψ : Fmt}

/-- Objects without signs of zeros. -/
def Obj.unz : Obj → Obj
  | .bare T x => .bare T x.unz
  | .dec T x => .dec T x.unz

/-- The call with all signs of zeros removed from its arguments. -/
def Call.unz : Call → Call
  | .empty T => .empty T
  | .entire T => .entire T
  | .emptyD T => .emptyD T
  | .entireD T => .entireD T
  | .naiD T => .naiD T
  | .nums T l u => .nums T l.unz u.unz
  | .numsM T T1 T2 l u => .numsM T T1 T2 l.unz u.unz
  | .numsD T l u => .numsD T l.unz u.unz
  | .numsMD T T1 T2 l u => .numsMD T T1 T2 l.unz u.unz
  | .numsDec T l u d => .numsDec T l.unz u.unz d
  | .numsDecM T T1 T2 l u d => .numsDecM T T1 T2 l.unz u.unz d
  | .newDec T x => .newDec T x.unz
  | .newDecM T T1 x => .newDecM T T1 x.unz
  | .setDec T x d => .setDec T x.unz d
  | .setDecM T T1 x d => .setDecM T T1 x.unz d
  | .copy T x => .copy T x.unz
  | .copyD T x => .copyD T x.unz
  | .convert T T1 x => .convert T T1 x.unz
  | .convertD T T1 x => .convertD T T1 x.unz
  | .part T x => .part T x.unz
  | .partM T T1 x => .partM T T1 x.unz
  | .un T op x => .un T op x.unz
  | .unM T T1 op x => .unM T T1 op x.unz
  | .unD T op x => .unD T op x.unz
  | .unMD T T1 op x => .unMD T T1 op x.unz
  | .bin T op x y => .bin T op x.unz y.unz
  | .binM T T1 T2 op x y => .binM T T1 T2 op x.unz y.unz
  | .binD T op x y => .binD T op x.unz y.unz
  | .binMD T T1 T2 op x y => .binMD T T1 T2 op x.unz y.unz
  | .fma T x y z => .fma T x.unz y.unz z.unz
  | .fmaM T T1 T2 T3 x y z => .fmaM T T1 T2 T3 x.unz y.unz z.unz
  | .fmaD T x y z => .fmaD T x.unz y.unz z.unz
  | .fmaMD T T1 T2 T3 x y z => .fmaMD T T1 T2 T3 x.unz y.unz z.unz
  | .inter T x y => .inter T x.unz y.unz
  | .interM T T1 T2 x y => .interM T T1 T2 x.unz y.unz
  | .interD T x y => .interD T x.unz y.unz
  | .interMD T T1 T2 x y => .interMD T T1 T2 x.unz y.unz
  | .hull T x y => .hull T x.unz y.unz
  | .hullM T T1 T2 x y => .hullM T T1 T2 x.unz y.unz
  | .hullD T x y => .hullD T x.unz y.unz
  | .hullMD T T1 T2 x y => .hullMD T T1 T2 x.unz y.unz
  | .cancelPlus T x y => .cancelPlus T x.unz y.unz
  | .cancelPlusM T T1 T2 x y => .cancelPlusM T T1 T2 x.unz y.unz
  | .cancelPlusD T x y => .cancelPlusD T x.unz y.unz
  | .cancelPlusMD T T1 T2 x y => .cancelPlusMD T T1 T2 x.unz y.unz
  | .cancelMinus T x y => .cancelMinus T x.unz y.unz
  | .cancelMinusM T T1 T2 x y => .cancelMinusM T T1 T2 x.unz y.unz
  | .cancelMinusD T x y => .cancelMinusD T x.unz y.unz
  | .cancelMinusMD T T1 T2 x y => .cancelMinusMD T T1 T2 x.unz y.unz
  | .rev T op c x => .rev T op c.unz x.unz
  | .revM T T1 T2 op c x => .revM T T1 T2 op c.unz x.unz
  | .revD T op c x => .revD T op c.unz x.unz
  | .revMD T T1 T2 op c x => .revMD T T1 T2 op c.unz x.unz
  | .rev1 T op c => .rev1 T op c.unz
  | .rev1M T T1 op c => .rev1M T T1 op c.unz
  | .rev1D T op c => .rev1D T op c.unz
  | .rev1MD T T1 op c => .rev1MD T T1 op c.unz
  | .pownRev T c x p => .pownRev T c.unz x.unz p
  | .pownRevM T T1 T2 c x p => .pownRevM T T1 T2 c.unz x.unz p
  | .pownRevD T c x p => .pownRevD T c.unz x.unz p
  | .pownRevMD T T1 T2 c x p => .pownRevMD T T1 T2 c.unz x.unz p
  | .pownRev1 T c p => .pownRev1 T c.unz p
  | .pownRev1M T T1 c p => .pownRev1M T T1 c.unz p
  | .pownRev1D T c p => .pownRev1D T c.unz p
  | .pownRev1MD T T1 c p => .pownRev1MD T T1 c.unz p
  | .mulRev T b c x => .mulRev T b.unz c.unz x.unz
  | .mulRevM T T1 T2 T3 b c x => .mulRevM T T1 T2 T3 b.unz c.unz x.unz
  | .mulRevD T b c x => .mulRevD T b.unz c.unz x.unz
  | .mulRevMD T T1 T2 T3 b c x => .mulRevMD T T1 T2 T3 b.unz c.unz x.unz
  | .mulRev2 T b c => .mulRev2 T b.unz c.unz
  | .mulRev2M T T1 T2 b c => .mulRev2M T T1 T2 b.unz c.unz
  | .mulRev2D T b c => .mulRev2D T b.unz c.unz
  | .mulRev2MD T T1 T2 b c => .mulRev2MD T T1 T2 b.unz c.unz
  | .mulRevPair T b c => .mulRevPair T b.unz c.unz
  | .mulRevPairM T T1 T2 b c => .mulRevPairM T T1 T2 b.unz c.unz
  | .mulRevPairD T b c => .mulRevPairD T b.unz c.unz
  | .mulRevPairMD T T1 T2 b c => .mulRevPairMD T T1 T2 b.unz c.unz

/-- **C53**: valid intervals compare equal exactly if they differ at most in signs of zeros. -/
theorem C53_equal {x y : Itv} (hx : x.Ok φ) (hy : y.Ok ψ) : x.equal y = true ↔ x.unz = y.unz :=
  ⟨fun h => Itv.unz_of_set hx hy ((hx.eq_iff hy).mp h), fun h => (hx.eq_iff hy).mpr (Itv.set_of_unz h)⟩

/-! ### Calls that may signal -/

/-- The outcome with a function applied to the returned value. -/
def Outcome.map {α β : Type} (f : α → β) : Outcome α → Outcome β
  | .ret a => .ret (f a)
  | .thrown e => .thrown e

/-- Two computations end in the same way, with the same exception state, and return the same value up to `f`. -/
def M.Same {α β : Type} (f : α → β) (m m' : M α) : Prop := ∀ s, (m s).1.map f = (m' s).1.map f ∧ (m s).2 = (m' s).2

theorem M.Same.refl {α β : Type} (f : α → β) (m : M α) : M.Same f m m := fun _ => ⟨rfl, rfl⟩

theorem M.Same.pure {α β : Type} {f : α → β} {a b : α} (h : f a = f b) : M.Same f (Pure.pure a) (Pure.pure b) :=
  fun _ => ⟨congrArg Outcome.ret h, rfl⟩

theorem M.Same.bind {α β γ : Type} {f : γ → β} (m : M α) {k k' : α → M γ} (h : ∀ a, M.Same f (k a) (k' a)) :
    M.Same f (m >>= k) (m >>= k') := by
  intro s
  show (M.bind m k s).1.map f = (M.bind m k' s).1.map f ∧ (M.bind m k s).2 = (M.bind m k' s).2
  unfold M.bind
  rcases m s with ⟨o, s'⟩
  cases o
  · exact h _ s'
  · exact ⟨rfl, rfl⟩

theorem M.Same.ite {α β : Type} {f : α → β} {c : Prop} [Decidable c] {m m' k k' : M α} (h : M.Same f m m') (h' : M.Same f k k') :
    M.Same f (if c then m else k) (if c then m' else k') := by
  split_ifs
  · exact h
  · exact h'

theorem isValidM_unz (x : Itv) : x.unz.isValidM = x.isValidM := by simp only [Itv.isValidM, Itv.isValid_unz]
theorem isValidM_unzD (x : DItv) : x.unz.isValidM = x.isValidM := by simp only [DItv.isValidM, DItv.isValid_unz]
theorem newDec_unz (x : Itv) : x.unz.newDec.unz = x.newDec.unz := by
  simp only [Itv.newDec, Itv.isEmpty_unz, Itv.unz_lo, Itv.unz_hi, FP.feq_unz_left]
  split_ifs <;> exact DItv.mk_unz x.unz_unz _
theorem boundsOk_unz (l u : FP) : boundsOk l.unz u.unz = boundsOk l u := by simp [boundsOk]
theorem boundsDecOk_unz (l u : FP) (d : Dec) : boundsDecOk l.unz u.unz d = boundsDecOk l u d := by simp [boundsDecOk]

theorem newDecM_unz (x : Itv) : M.Same DItv.unz (newDecM x.unz) (newDecM x) := by
  unfold newDecM
  rw [isValidM_unz]
  refine M.Same.bind _ fun b => M.Same.ite (.refl _ _) (.pure (newDec_unz x))

theorem numsToInterval_unz (l u : FP) : M.Same Itv.unz (numsToInterval l.unz u.unz) (numsToInterval l u) := by
  unfold numsToInterval
  rw [boundsOk_unz]
  exact M.Same.ite (.pure (Itv.mk_unz l.unz_unz u.unz_unz)) (.refl _ _)

theorem numsToDecorated_unz (l u : FP) : M.Same DItv.unz (numsToDecorated l.unz u.unz) (numsToDecorated l u) := by
  unfold numsToDecorated
  rw [boundsOk_unz]
  exact M.Same.ite (newDecM_unz ⟨l, u⟩) (.refl _ _)

theorem numsDecToDecorated_unz (l u : FP) (d : UInt8) :
    M.Same DItv.unz (numsDecToDecorated l.unz u.unz d) (numsDecToDecorated l u d) := by
  unfold numsDecToDecorated
  simp only [boundsDecOk_unz]
  refine M.Same.bind _ fun b => M.Same.ite ?_ (.refl _ _)
  cases Dec.ofRaw d with
  | none => exact .refl _ _
  | some d => exact M.Same.ite (.pure (DItv.mk_unz (Itv.mk_unz l.unz_unz u.unz_unz) _)) (.refl _ _)

theorem setDec_unz (x : Itv) (d : UInt8) : M.Same DItv.unz (setDec x.unz d) (setDec x d) := by
  unfold setDec
  rw [isValidM_unz]
  refine M.Same.bind _ fun b => M.Same.ite (.refl _ _) (M.Same.bind _ fun b => M.Same.ite (.refl _ _) ?_)
  simp only [Itv.isEmpty_unz, Itv.unz_lo, Itv.unz_hi, FP.feq_unz_left]
  rcases Dec.ofRaw d with _ | d
  · exact .refl _ _
  · cases d <;> first
      | exact .refl _ _
      | exact M.Same.ite (.refl _ _) (M.Same.ite (.pure (DItv.mk_unz x.unz_unz _)) (.pure (DItv.mk_unz x.unz_unz _)))

theorem numsToIntervalMixed_unz (l u : FP) : φ.numsToIntervalMixed l.unz u.unz = φ.numsToIntervalMixed l u := by
  simp only [Fmt.numsToIntervalMixed, boundsOk_unz, Fmt.convertRndd_unz, Fmt.convertRndu_unz]

theorem numsToDecoratedMixed_unz (l u : FP) : φ.numsToDecoratedMixed l.unz u.unz = φ.numsToDecoratedMixed l u := by
  simp only [Fmt.numsToDecoratedMixed, boundsOk_unz, Fmt.convertRndd_unz, Fmt.convertRndu_unz]

theorem numsDecToDecoratedMixed_unz (l u : FP) (d : UInt8) :
    φ.numsDecToDecoratedMixed l.unz u.unz d = φ.numsDecToDecoratedMixed l u d := by
  simp only [Fmt.numsDecToDecoratedMixed, boundsDecOk_unz, Fmt.convertRndd_unz, Fmt.convertRndu_unz]

theorem convertType_unz (x : Itv) : φ.convertType x.unz = φ.convertType x := by
  simp only [Fmt.convertType, isValidM_unz, Fmt.convertHull_unz]

theorem convertTypeD_unz (x : DItv) : φ.convertTypeD x.unz = φ.convertTypeD x := by
  simp only [Fmt.convertTypeD, isValidM_unzD, Fmt.convertHullD_unz]

theorem intervalPartMixed_unz (x : DItv) : φ.intervalPartMixed x.unz = φ.intervalPartMixed x := by
  simp only [Fmt.intervalPartMixed, isValidM_unzD, DItv.isNai_unz, DItv.unz_itv, Fmt.convertHull_unz]

theorem newDecMixed_unz (x : Itv) : φ.newDecMixed x.unz = φ.newDecMixed x := by
  simp only [Fmt.newDecMixed, isValidM_unz, Fmt.convertHull_unz]

theorem copyM_unz (x : Itv) : M.Same Itv.unz (copyM x.unz) (copyM x) := by
  unfold copyM
  rw [isValidM_unz]
  exact M.Same.bind _ fun b => M.Same.ite (.refl _ _) (.pure x.unz_unz)

theorem copyDM_unz (x : DItv) : M.Same DItv.unz (copyDM x.unz) (copyDM x) := by
  unfold copyDM
  rw [isValidM_unzD]
  exact M.Same.bind _ fun b => M.Same.ite (.refl _ _) (.pure x.unz_unz)

theorem intervalPart_unz (x : DItv) : M.Same Itv.unz (intervalPart x.unz) (intervalPart x) := by
  unfold intervalPart
  rw [isValidM_unzD, DItv.isNai_unz]
  exact M.Same.bind _ fun b => M.Same.ite (.refl _ _) (M.Same.ite (.refl _ _) (.pure x.itv.unz_unz))

theorem M.Same.bindSame {α β γ : Type} {f : α → β} {m m' : M α} (h : M.Same f m m') {k : α → γ}
    (hk : ∀ a a', f a = f a' → k a = k a') : M.Same id (m >>= fun a => Pure.pure (k a)) (m' >>= fun a => Pure.pure (k a)) := by
  intro s
  have := h s
  show (M.bind m _ s).1.map id = (M.bind m' _ s).1.map id ∧ (M.bind m _ s).2 = (M.bind m' _ s).2
  unfold M.bind
  rcases hm : m s with ⟨o, t⟩
  rcases hm' : m' s with ⟨o', t'⟩
  rw [hm, hm'] at this
  rcases o with a | e <;> rcases o' with a' | e' <;> simp only [Outcome.map, Outcome.ret.injEq, Outcome.thrown.injEq,
    reduceCtorEq, false_and] at this
  · obtain ⟨h1, rfl⟩ := this
    simp only [hk a a' h1, and_self]
  · obtain ⟨rfl, rfl⟩ := this
    exact ⟨rfl, rfl⟩

theorem setDecMixed_unz (x : Itv) (d : UInt8) : M.Same DItv.unz (φ.setDecMixed x.unz d) (φ.setDecMixed x d) := by
  have h := M.Same.bindSame (setDec_unz x d) (k := φ.convertHullD) fun a a' => Fmt.congr_convertHullD
  intro s
  have := h s
  refine ⟨?_, this.2⟩
  have h1 := congrArg (Outcome.map DItv.unz) this.1
  have : ∀ o : Outcome DItv, (o.map id).map DItv.unz = o.map DItv.unz := fun o => by cases o <;> rfl
  rwa [this, this] at h1

/-! ### The sets of results -/

theorem image_retB (T : NumTy) {m m' : M Itv} (h : M.Same Itv.unz m m') :
    Obj.unz '' Call.retB T m = Obj.unz '' Call.retB T m' := by
  have key : ∀ {m m' : M Itv}, M.Same Itv.unz m m' → Obj.unz '' Call.retB T m ⊆ Obj.unz '' Call.retB T m' := by
    rintro m m' h _ ⟨_, ⟨s, r, h1, rfl⟩, rfl⟩
    have h2 := (h s).1
    rw [h1] at h2
    rcases h3 : (m' s).1 with r' | e
    · rw [h3] at h2
      exact ⟨_, ⟨s, r', h3, rfl⟩, congrArg (Obj.bare T) (Outcome.ret.inj h2).symm⟩
    · rw [h3] at h2; cases h2
  exact Set.Subset.antisymm (key h) (key fun s => ⟨(h s).1.symm, (h s).2.symm⟩)

theorem image_retD (T : NumTy) {m m' : M DItv} (h : M.Same DItv.unz m m') :
    Obj.unz '' Call.retD T m = Obj.unz '' Call.retD T m' := by
  have key : ∀ {m m' : M DItv}, M.Same DItv.unz m m' → Obj.unz '' Call.retD T m ⊆ Obj.unz '' Call.retD T m' := by
    rintro m m' h _ ⟨_, ⟨s, r, h1, rfl⟩, rfl⟩
    have h2 := (h s).1
    rw [h1] at h2
    rcases h3 : (m' s).1 with r' | e
    · rw [h3] at h2
      exact ⟨_, ⟨s, r', h3, rfl⟩, congrArg (Obj.dec T) (Outcome.ret.inj h2).symm⟩
    · rw [h3] at h2; cases h2
  exact Set.Subset.antisymm (key h) (key fun s => ⟨(h s).1.symm, (h s).2.symm⟩)

theorem image_optB (T : NumTy) {m m' : Option Itv} (h : m.map Itv.unz = m'.map Itv.unz) :
    Obj.unz '' Call.optB T m = Obj.unz '' Call.optB T m' := by
  rcases m with _ | r <;> rcases m' with _ | r' <;> simp at h
  · rfl
  · simp [Call.optB, Obj.unz, h]

theorem image_optD (T : NumTy) {m m' : Option DItv} (h : m.map DItv.unz = m'.map DItv.unz) :
    Obj.unz '' Call.optD T m = Obj.unz '' Call.optD T m' := by
  rcases m with _ | r <;> rcases m' with _ | r' <;> simp at h
  · rfl
  · simp [Call.optD, Obj.unz, h]

theorem image_bare (T : NumTy) {x y : Itv} (h : x.unz = y.unz) :
    Obj.unz '' ({.bare T x} : Set Obj) = Obj.unz '' ({.bare T y} : Set Obj) := by
  simp [Obj.unz, h]

theorem image_dec (T : NumTy) {x y : DItv} (h : x.unz = y.unz) :
    Obj.unz '' ({.dec T x} : Set Obj) = Obj.unz '' ({.dec T y} : Set Obj) := by
  simp [Obj.unz, h]

theorem image_bare2 (T : NumTy) {x y x' y' : Itv} (h : x.unz = y.unz) (h' : x'.unz = y'.unz) :
    Obj.unz '' ({.bare T x, .bare T x'} : Set Obj) = Obj.unz '' ({.bare T y, .bare T y'} : Set Obj) := by
  simp [Set.image_pair, Obj.unz, h, h']

theorem image_dec2 (T : NumTy) {x y x' y' : DItv} (h : x.unz = y.unz) (h' : x'.unz = y'.unz) :
    Obj.unz '' ({.dec T x, .dec T x'} : Set Obj) = Obj.unz '' ({.dec T y, .dec T y'} : Set Obj) := by
  simp [Set.image_pair, Obj.unz, h, h']

theorem yields_unz (c : Call) (ha : ∀ a ∈ c.args, a.Ok) : Obj.unz '' c.unz.yields = Obj.unz '' c.yields := by
  cases c <;> simp only [Call.args, List.forall_mem_cons, List.not_mem_nil, false_imp_iff, implies_true, and_true,
    Obj.Ok, Call.yields, Call.unz] at ha ⊢
  case nums T l u => exact image_retB T (numsToInterval_unz l u)
  case numsM => rw [numsToIntervalMixed_unz]
  case numsD T l u => exact image_retD T (numsToDecorated_unz l u)
  case numsMD => rw [numsToDecoratedMixed_unz]
  case numsDec T l u d => exact image_retD T (numsDecToDecorated_unz l u d)
  case numsDecM => rw [numsDecToDecoratedMixed_unz]
  case newDec T x => exact image_retD T (newDecM_unz x)
  case newDecM => rw [newDecMixed_unz]
  case setDec T x d => exact image_retD T (setDec_unz x d)
  case setDecM T T1 x d => exact image_retD T (setDecMixed_unz x d)
  case copy T x => exact image_retB T (copyM_unz x)
  case copyD T x => exact image_retD T (copyDM_unz x)
  case convert => rw [convertType_unz]
  case convertD => rw [convertTypeD_unz]
  case part T x => exact image_retB T (intervalPart_unz x)
  case partM => rw [intervalPartMixed_unz]
  case un T op x => exact image_bare T (op.bare_unz ha)
  case unM => rw [Op1.mixed_unz]
  case unD T op x => exact image_dec T (op.decd_unz ha.1)
  case unMD => rw [Op1.mixedD_unz]
  case bin T op x y => exact image_bare T (op.bare_unz ha.1 ha.2)
  case binM => rw [Op2.mixed_unz]
  case binD T op x y => exact image_dec T (op.decd_unz ha.1.1 ha.2.1)
  case binMD => rw [Op2.mixedD_unz]
  case fma T x y z => exact image_bare T (fmaI_unz ha.1 ha.2.1 ha.2.2)
  case fmaM => rw [fmaMixed_unz]
  case fmaD T x y z => exact image_dec T (fmaD_unz ha.1.1 ha.2.1.1 ha.2.2.1)
  case fmaMD => rw [fmaMixedD_unz]
  case inter T x y => exact image_bare T (Itv.inter_unz ..)
  case interM => rw [Itv.interMixed_unz]
  case interD T x y => exact image_dec T (DItv.inter_unz ..)
  case interMD => rw [DItv.interMixed_unz]
  case hull T x y => exact image_bare T (Itv.hull_unz ..)
  case hullM => rw [Itv.hullMixed_unz]
  case hullD T x y => exact image_dec T (DItv.hull_unz ..)
  case hullMD => rw [DItv.hullMixed_unz]
  case cancelPlus T x y => exact image_bare T (Itv.cancelPlus_unz ..)
  case cancelPlusM => rw [Itv.cancelPlusMixed_unz]
  case cancelPlusD T x y => exact image_dec T (DItv.cancelPlus_unz ..)
  case cancelPlusMD => rw [DItv.cancelPlusMixed_unz]
  case cancelMinus T x y => exact image_bare T (Itv.cancelMinus_unz ..)
  case cancelMinusM => rw [Itv.cancelMinusMixed_unz]
  case cancelMinusD T x y => exact image_dec T (DItv.cancelMinus_unz ..)
  case cancelMinusMD => rw [DItv.cancelMinusMixed_unz]
  case rev T op c x => exact image_bare T (Itv.revOp_unz ..)
  case revM => rw [Itv.revMixed_unz]
  case revD T op c x => exact image_dec T (DItv.rev_unz _ _ fun c x => Itv.revOp_unz ..)
  case revMD => rw [DItv.revMixed_unz]
  case rev1 T op c =>
    exact image_bare T (by have := Itv.revOp_unz (φ := T.fmt) c Itv.entire op; rwa [Itv.unz_entire] at this)
  case rev1M T T1 op c =>
    have := Itv.revMixed_unz T T1 T c Itv.entire (fun φ => op.fn φ)
    rw [Itv.unz_entire] at this
    rw [Itv.rev1, this, Itv.rev1]
  case rev1D T op c =>
    have := DItv.rev_unz c DItv.entire (f := op.fn T.fmt) fun c x => Itv.revOp_unz ..
    rw [DItv.unz_entire] at this
    exact image_dec T this
  case rev1MD T T1 op c =>
    have := DItv.revMixed_unz T T1 T c DItv.entire (fun φ => op.fn φ)
    rw [DItv.unz_entire] at this
    rw [DItv.rev1, this, DItv.rev1]
  case pownRev T c x p => exact image_optB T (Itv.pownRev_unz ..)
  case pownRevM => rw [Itv.pownRevMixed_unz]
  case pownRevD T c x p => exact image_optD T (DItv.pownRev_unz ..)
  case pownRevMD => rw [DItv.pownRevMixed_unz]
  case pownRev1 T c p =>
    exact image_optB T (by have := Itv.pownRev_unz (φ := T.fmt) c Itv.entire p; rwa [Itv.unz_entire] at this)
  case pownRev1M T T1 c p =>
    have := Itv.pownRevMixed_unz T T1 T c Itv.entire p
    rw [Itv.unz_entire] at this
    rw [this]
  case pownRev1D T c p =>
    exact image_optD T (by have := DItv.pownRev_unz (φ := T.fmt) c DItv.entire p; rwa [DItv.unz_entire] at this)
  case pownRev1MD T T1 c p =>
    have := DItv.pownRevMixed_unz T T1 T c DItv.entire p
    rw [DItv.unz_entire] at this
    rw [this]
  case mulRev T b c x => exact image_bare T (Itv.mulRev_unz ..)
  case mulRevM => rw [Itv.mulRevMixed_unz]
  case mulRevD T b c x => exact image_dec T (DItv.mulRev_unz ..)
  case mulRevMD => rw [DItv.mulRevMixed_unz]
  case mulRev2 T b c =>
    exact image_bare T (by have := Itv.mulRev_unz (φ := T.fmt) b c Itv.entire; rwa [Itv.unz_entire] at this)
  case mulRev2M T T1 T2 b c =>
    have := Itv.mulRevMixed_unz T T1 T2 T b c Itv.entire
    rw [Itv.unz_entire] at this
    rw [Itv.mulRev2Mixed, this, Itv.mulRev2Mixed]
  case mulRev2D T b c =>
    exact image_dec T (by have := DItv.mulRev_unz (φ := T.fmt) b c DItv.entire; rwa [DItv.unz_entire] at this)
  case mulRev2MD T T1 T2 b c =>
    have := DItv.mulRevMixed_unz T T1 T2 T b c DItv.entire
    rw [DItv.unz_entire] at this
    rw [DItv.mulRev2Mixed, this, DItv.mulRev2Mixed]
  case mulRevPair T b c => exact image_bare2 T (Itv.mulRevToPair_unz ..).1 (Itv.mulRevToPair_unz ..).2
  case mulRevPairM => rw [Itv.mulRevToPairMixed_unz]
  case mulRevPairD T b c => exact image_dec2 T (DItv.mulRevToPair_unz ..).1 (DItv.mulRevToPair_unz ..).2
  case mulRevPairMD => rw [DItv.mulRevToPairMixed_unz]

/-- **C53**: a call, and the same call with arguments that differ at most in signs of zeros (equal arguments, by `C53_equal`):
every result of the one differs from a result of the other at most in signs of zeros. -/
theorem C53_calls {c c' : Call} (h : c.unz = c'.unz) (ha : ∀ a ∈ c.args, a.Ok) (ha' : ∀ a ∈ c'.args, a.Ok) :
    ∀ r ∈ c.yields, ∃ r' ∈ c'.yields, r.unz = r'.unz := by
  intro r hr
  have : Obj.unz '' c.yields = Obj.unz '' c'.yields := by rw [← yields_unz c ha, h, yields_unz c' ha']
  have hm : r.unz ∈ Obj.unz '' c'.yields := this ▸ ⟨r, hr, rfl⟩
  obtain ⟨r', h1, h2⟩ := hm
  exact ⟨r', h1, h2.symm⟩

/-- **C53**: the constructors and conversions also end in the same way: the same exception is thrown or none, and the same exceptions are
recorded, from every exception state. -/
theorem C53_signals (l u : FP) (x : Itv) (y : DItv) (d : UInt8) :
    M.Same Itv.unz (numsToInterval l.unz u.unz) (numsToInterval l u) ∧
    M.Same DItv.unz (numsToDecorated l.unz u.unz) (numsToDecorated l u) ∧
    M.Same DItv.unz (numsDecToDecorated l.unz u.unz d) (numsDecToDecorated l u d) ∧
    M.Same DItv.unz (newDecM x.unz) (newDecM x) ∧
    M.Same DItv.unz (setDec x.unz d) (setDec x d) ∧
    M.Same Itv.unz (intervalPart y.unz) (intervalPart y) ∧
    M.Same Itv.unz (copyM x.unz) (copyM x) ∧ M.Same DItv.unz (copyDM y.unz) (copyDM y) ∧
    φ.numsToIntervalMixed l.unz u.unz = φ.numsToIntervalMixed l u ∧
    φ.numsToDecoratedMixed l.unz u.unz = φ.numsToDecoratedMixed l u ∧
    φ.numsDecToDecoratedMixed l.unz u.unz d = φ.numsDecToDecoratedMixed l u d ∧
    φ.newDecMixed x.unz = φ.newDecMixed x ∧ M.Same DItv.unz (φ.setDecMixed x.unz d) (φ.setDecMixed x d) ∧
    φ.intervalPartMixed y.unz = φ.intervalPartMixed y ∧
    φ.convertType x.unz = φ.convertType x ∧ φ.convertTypeD y.unz = φ.convertTypeD y :=
  ⟨numsToInterval_unz l u, numsToDecorated_unz l u, numsDecToDecorated_unz l u d, newDecM_unz x, setDec_unz x d, intervalPart_unz y,
    copyM_unz x, copyDM_unz y, numsToIntervalMixed_unz l u, numsToDecoratedMixed_unz l u, numsDecToDecoratedMixed_unz l u d,
    newDecMixed_unz x, setDecMixed_unz x d, intervalPartMixed_unz y, convertType_unz x, convertTypeD_unz y⟩

/-! ### Equal intervals -/

/-- Valid bare intervals that compare equal. -/
def Itv.EqualTo (φ : Fmt) (x x' : Itv) : Prop := x.Ok φ ∧ x'.Ok φ ∧ x.equal x' = true

/-- Valid decorated intervals with the same decoration whose interval parts compare equal. -/
def DItv.EqualTo (φ : Fmt) (x x' : DItv) : Prop := x.Ok φ ∧ x'.Ok φ ∧ x.dec = x'.dec ∧ x.itv.equal x'.itv = true

theorem Itv.EqualTo.unz {x x' : Itv} (h : x.EqualTo φ x') : x.unz = x'.unz := (C53_equal h.1 h.2.1).mp h.2.2
theorem Itv.EqualTo.mk' {x x' : Itv} (hx : x.Ok φ) (hx' : x'.Ok φ) (h : x.unz = x'.unz) : x.EqualTo φ x' :=
  ⟨hx, hx', (C53_equal hx hx').mpr h⟩
theorem DItv.eq_unz {x x' : DItv} (h : x.dec = x'.dec) (h' : x.itv.unz = x'.itv.unz) : x.unz = x'.unz := by
  cases x; cases x'; simp_all [DItv.unz]
theorem DItv.EqualTo.unz {x x' : DItv} (h : x.EqualTo φ x') : x.unz = x'.unz :=
  DItv.eq_unz h.2.2.1 ((C53_equal h.1.1 h.2.1.1).mp h.2.2.2)
theorem DItv.EqualTo.mk' {x x' : DItv} (hx : x.Ok φ) (hx' : x'.Ok φ) (h : x.unz = x'.unz) : x.EqualTo φ x' := by
  have h1 : x.unz.dec = x'.unz.dec := congrArg DItv.dec h
  have h2 : x.unz.itv = x'.unz.itv := congrArg DItv.itv h
  rw [DItv.unz_dec, DItv.unz_dec] at h1
  rw [DItv.unz_itv, DItv.unz_itv] at h2
  exact ⟨hx, hx', h1, (C53_equal hx.1 hx'.1).mpr h2⟩

/-- **C53**: expressions on equal intervals have equal values. -/
theorem C53_expr {ι : Type} (e : Expr ι) {X X' : ι → Itv} (h : ∀ i, (X i).EqualTo φ (X' i)) :
    (e.eval φ X).EqualTo φ (e.eval φ X') := by
  induction e with
  | var i => exact h i
  | un op e ih =>
    exact .mk' (op.bare_ok ih.1) (op.bare_ok ih.2.1) (by rw [Expr.eval, Expr.eval, ← op.bare_unz ih.1, ih.unz, op.bare_unz ih.2.1])
  | bin op e₁ e₂ ih₁ ih₂ =>
    exact .mk' (op.tight ih₁.1 ih₂.1).1 (op.tight ih₁.2.1 ih₂.2.1).1
      (by rw [Expr.eval, Expr.eval, ← op.bare_unz ih₁.1 ih₂.1, ih₁.unz, ih₂.unz, op.bare_unz ih₁.2.1 ih₂.2.1])
  | fma e₁ e₂ e₃ ih₁ ih₂ ih₃ =>
    exact .mk' (C06_fma φ ih₁.1 ih₂.1 ih₃.1).1 (C06_fma φ ih₁.2.1 ih₂.2.1 ih₃.2.1).1
      (by rw [Expr.eval, Expr.eval, ← fmaI_unz ih₁.1 ih₂.1 ih₃.1, ih₁.unz, ih₂.unz, ih₃.unz, fmaI_unz ih₁.2.1 ih₂.2.1 ih₃.2.1])

/-- **C53**: the same for decorated intervals. -/
theorem C53_expr_dec {ι : Type} (e : Expr ι) {X X' : ι → DItv} (h : ∀ i, (X i).EqualTo φ (X' i)) :
    (e.evalD φ X).EqualTo φ (e.evalD φ X') := by
  induction e with
  | var i => exact h i
  | un op e ih =>
    exact .mk' (op.decd_ok ih.1) (op.decd_ok ih.2.1) (by rw [Expr.evalD, Expr.evalD, ← op.decd_unz ih.1.1, ih.unz, op.decd_unz ih.2.1.1])
  | bin op e₁ e₂ ih₁ ih₂ =>
    exact .mk' (op.decd_ok ih₁.1 ih₂.1) (op.decd_ok ih₁.2.1 ih₂.2.1)
      (by rw [Expr.evalD, Expr.evalD, ← op.decd_unz ih₁.1.1 ih₂.1.1, ih₁.unz, ih₂.unz, op.decd_unz ih₁.2.1.1 ih₂.2.1.1])
  | fma e₁ e₂ e₃ ih₁ ih₂ ih₃ =>
    exact .mk' (fmaD_ok ih₁.1 ih₂.1 ih₃.1) (fmaD_ok ih₁.2.1 ih₂.2.1 ih₃.2.1)
      (by rw [Expr.evalD, Expr.evalD, ← fmaD_unz ih₁.1.1 ih₂.1.1 ih₃.1.1, ih₁.unz, ih₂.unz, ih₃.unz, fmaD_unz ih₁.2.1.1 ih₂.2.1.1 ih₃.2.1.1])

/-- A function of one interval cannot tell equal intervals apart. -/
def Blind {α β : Type} (E : α → α → Prop) (f : α → β) : Prop := ∀ x x', E x x' → f x = f x'

/-- The same for two intervals, of two number types. -/
def Blind2 {α β : Type} (E E' : α → α → Prop) (f : α → α → β) : Prop :=
  ∀ x x' y y', E x x' → E' y y' → f x y = f x' y'

theorem blindB {β : Type} {f : Itv → β} (h : ∀ x, f x.unz = f x) : Blind (Itv.EqualTo φ) f :=
  fun x x' e => by rw [← h x, e.unz, h]
theorem blindD {β : Type} {f : DItv → β} (h : ∀ x, f x.unz = f x) : Blind (DItv.EqualTo φ) f :=
  fun x x' e => by rw [← h x, e.unz, h]
theorem blind2B {β : Type} {f : Itv → Itv → β} (h : ∀ x y, f x.unz y.unz = f x y) :
    Blind2 (Itv.EqualTo φ) (Itv.EqualTo ψ) f :=
  fun x x' y y' e e' => by rw [← h x y, e.unz, e'.unz, h]
theorem blind2D {β : Type} {f : DItv → DItv → β} (h : ∀ x y, f x.unz y.unz = f x y) :
    Blind2 (DItv.EqualTo φ) (DItv.EqualTo ψ) f :=
  fun x x' y y' e e' => by rw [← h x y, e.unz, e'.unz, h]

theorem rel_unz {r : Itv → Itv → Bool} (h : ∀ x y : Itv, r x.unz y.unz = r x y) (x y : DItv) :
    DItv.rel r x.unz y.unz = DItv.rel r x y := by simp [DItv.rel, h]

/-- The comparisons of two intervals. -/
def comparisons : List (Itv → Itv → Bool) :=
  [Itv.equal, Itv.subset, Itv.less, Itv.precedes, Itv.interior, Itv.strictlyLess, Itv.strictlyPrecedes, Itv.disjoint,
    Itv.superset, Itv.greater, Itv.succeeds, Itv.containsInterior, Itv.strictlyGreater, Itv.strictlySucceeds]

/-- **C53**: no comparison can tell equal intervals apart, in its bare and in its decorated version, and neither can `overlap`. -/
theorem C53_comparisons :
    (∀ r ∈ comparisons, Blind2 (Itv.EqualTo φ) (Itv.EqualTo ψ) r ∧
      Blind2 (DItv.EqualTo φ) (DItv.EqualTo ψ) (DItv.rel r)) ∧
    Blind2 (Itv.EqualTo φ) (Itv.EqualTo ψ) Itv.overlap ∧ Blind2 (DItv.EqualTo φ) (DItv.EqualTo ψ) DItv.overlap := by
  refine ⟨?_, blind2B fun _ _ => Itv.overlap_unz, blind2D fun x y => by simp [DItv.overlap, Itv.overlap_unz]⟩
  have h : ∀ r ∈ comparisons, ∀ x y : Itv, r x.unz y.unz = r x y := by
    simp only [comparisons, List.forall_mem_cons, List.not_mem_nil, false_imp_iff, implies_true, and_true]
    exact ⟨fun _ _ => Itv.equal_unz, fun _ _ => Itv.subset_unz, fun _ _ => Itv.less_unz, fun _ _ => Itv.precedes_unz, fun _ _ => Itv.interior_unz, fun _ _ => Itv.strictlyLess_unz,
      fun _ _ => Itv.strictlyPrecedes_unz, fun _ _ => Itv.disjoint_unz, fun _ _ => Itv.subset_unz, fun _ _ => Itv.less_unz,
      fun _ _ => Itv.precedes_unz, fun _ _ => Itv.interior_unz, fun _ _ => Itv.strictlyLess_unz,
      fun _ _ => Itv.strictlyPrecedes_unz⟩
  exact fun r hr => ⟨blind2B (h r hr), blind2D (rel_unz (h r hr))⟩

/-- **C53**: no predicate can tell equal intervals apart. -/
theorem C53_predicates :
    (∀ r ∈ [Itv.isEmpty, Itv.isEntire, Itv.isCommon, Itv.isSingleton, Itv.isValid],
      Blind (Itv.EqualTo φ) r ∧ Blind (DItv.EqualTo φ) (DItv.pred r)) ∧
    Blind (DItv.EqualTo φ) DItv.isNai ∧ Blind (DItv.EqualTo φ) DItv.isValid ∧
    (∀ m, Blind (Itv.EqualTo φ) (Itv.isMember m) ∧ Blind (DItv.EqualTo φ) (DItv.isMember m)) := by
  refine ⟨?_, blindD DItv.isNai_unz, blindD DItv.isValid_unz,
    fun m => ⟨blindB fun x => Itv.isMember_unz x m, blindD fun x => DItv.isMember_unz x m⟩⟩
  simp only [List.forall_mem_cons, List.not_mem_nil, false_imp_iff, implies_true, and_true]
  exact ⟨⟨blindB Itv.isEmpty_unz, blindD fun x => by simp [DItv.pred]⟩, ⟨blindB Itv.isEntire_unz, blindD fun x => by simp [DItv.pred]⟩,
    ⟨blindB Itv.isCommon_unz, blindD fun x => by simp [DItv.pred]⟩, ⟨blindB Itv.isSingleton_unz, blindD fun x => by simp [DItv.pred]⟩,
    ⟨blindB Itv.isValid_unz, blindD fun x => by simp [DItv.pred]⟩⟩

/-! ### Numbers and text -/

theorem posZero_congr {a b : FP} (h : a.unz = b.unz) : a.posZero = b.posZero := by
  rw [← FP.posZero_unz, h, FP.posZero_unz]

theorem inf_unz (x : Itv) : x.unz.inf = x.inf := by
  simp only [Itv.inf, Itv.isValid_unz, Itv.isEmpty_unz, Itv.unz_lo, FP.isZero_unz]
  by_cases h : x.lo.isZero = true
  · simp [h]
  · rw [Itv.unz_self (by simpa using h)]

theorem sup_unz (x : Itv) : x.unz.sup = x.sup := by
  simp only [Itv.sup, Itv.isValid_unz, Itv.isEmpty_unz, Itv.unz_hi, FP.isZero_unz]
  by_cases h : x.hi.isZero = true
  · simp [h]
  · rw [Itv.unz_self (by simpa using h)]

theorem mid_unz (x : Itv) : x.unz.mid φ = x.mid φ := by simp [Itv.mid, Itv.midBounds]
theorem midMixed_unz (T : NumTy) (x : Itv) : x.unz.midMixed T = x.midMixed T := by simp [Itv.midMixed, Itv.midBounds]

theorem larger_unz {a b a' b' : FP} (h : a.unz = a'.unz) (h' : b.unz = b'.unz) :
    (if b < a then a else b).unz = (if b' < a' then a' else b').unz := by
  have : b < a ↔ b' < a' := by rw [← FP.lt_unz_left, ← FP.lt_unz_right, h, h', FP.lt_unz_left, FP.lt_unz_right]
  split_ifs <;> simp_all

theorem midRad_unz (x : Itv) : x.unz.midRad φ = x.midRad φ := by
  have h1 : (φ.subNS .U (x.mid φ) x.unz.lo).unz = (φ.subNS .U (x.mid φ) x.lo).unz := Fmt.congr_subNS _ _ rfl x.lo.unz_unz
  have h2 : (φ.subNS .U x.unz.hi (x.mid φ)).unz = (φ.subNS .U x.hi (x.mid φ)).unz := Fmt.congr_subNS _ _ x.hi.unz_unz rfl
  simp only [Itv.midRad, mid_unz, Itv.isValid_unz, Itv.isEmpty_unz, posZero_congr (larger_unz h1 h2)]

theorem midRadMixed_unz (T T1 : NumTy) (x : Itv) : x.unz.midRadMixed T T1 = x.midRadMixed T T1 := by
  have h1 : ((T.maxPrec [T1]).fmt.subNS .U (x.midMixed T) x.unz.lo).unz = ((T.maxPrec [T1]).fmt.subNS .U (x.midMixed T) x.lo).unz :=
    Fmt.congr_subNS _ _ rfl x.lo.unz_unz
  have h2 : ((T.maxPrec [T1]).fmt.subNS .U x.unz.hi (x.midMixed T)).unz = ((T.maxPrec [T1]).fmt.subNS .U x.hi (x.midMixed T)).unz :=
    Fmt.congr_subNS _ _ x.hi.unz_unz rfl
  simp only [Itv.midRadMixed, midMixed_unz, Itv.isValid_unz, Itv.isEmpty_unz, posZero_congr (Fmt.congr_conv _ _ (larger_unz h1 h2))]

theorem wid_unz (x : Itv) : x.unz.wid φ = x.wid φ := by
  simp only [Itv.wid, Itv.isValid_unz, Itv.isEmpty_unz]
  rw [Itv.unz_lo, Itv.unz_hi, posZero_congr (Fmt.congr_sub _ _ x.hi.unz_unz x.lo.unz_unz)]

theorem mag_unz (x : Itv) : x.unz.mag = x.mag := by simp [Itv.mag]
theorem mig_unz (x : Itv) : x.unz.mig = x.mig := by simp [Itv.mig]

/-- The functions that return a number, with the number type of the result and, for the mixed-type versions, of the argument. -/
noncomputable def numberFns (T T1 : NumTy) : List (Itv → FP) :=
  [Itv.inf, Itv.sup, Itv.mid T.fmt, Itv.rad T.fmt, Itv.wid T.fmt, Itv.mag, Itv.mig,
    Itv.infMixed T T1, Itv.supMixed T T1, Itv.midMixed T, Itv.radMixed T T1, Itv.widMixed T T1, Itv.magMixed T T1,
    Itv.migMixed T T1]

/-- **C53**: the numeric functions return the same number for equal intervals, even with the same sign of zero. -/
theorem C53_numbers (T T1 : NumTy) :
    (∀ f ∈ numberFns T T1, Blind (Itv.EqualTo φ) f ∧ Blind (DItv.EqualTo φ) (DItv.num f)) ∧
    (∀ f ∈ [Itv.midRad T.fmt, Itv.midRadMixed T T1], Blind (Itv.EqualTo φ) f ∧ Blind (DItv.EqualTo φ) (DItv.num2 f)) := by
  have h : ∀ f ∈ numberFns T T1, ∀ x : Itv, f x.unz = f x := by
    simp only [numberFns, List.forall_mem_cons, List.not_mem_nil, false_imp_iff, implies_true, and_true]
    exact ⟨inf_unz, sup_unz, mid_unz, fun x => by rw [Itv.rad, midRad_unz, Itv.rad], wid_unz, mag_unz, mig_unz,
      fun x => by simp [Itv.infMixed], fun x => by simp [Itv.supMixed], midMixed_unz T,
      fun x => by rw [Itv.radMixed, midRadMixed_unz, Itv.radMixed], fun x => by simp [Itv.widMixed],
      fun x => by simp [Itv.magMixed], fun x => by simp [Itv.migMixed]⟩
  have h2 : ∀ f ∈ [Itv.midRad T.fmt, Itv.midRadMixed T T1], ∀ x : Itv, f x.unz = f x := by
    simp only [List.forall_mem_cons, List.not_mem_nil, false_imp_iff, implies_true, and_true]
    exact ⟨midRad_unz, midRadMixed_unz T T1⟩
  exact ⟨fun f hf => ⟨blindB (h f hf), blindD fun x => by simp [DItv.num, h f hf]⟩,
    fun f hf => ⟨blindB (h2 f hf), blindD fun x => by simp [DItv.num2, h2 f hf]⟩⟩

theorem writeItv_unz (slack : ℕ) (k : Manip) (hk : k.form = .infSup) (o : OStr) (x : Itv) :
    φ.writeItv slack k o x.unz = φ.writeItv slack k o x := by
  simp [Fmt.writeItv, hk, Fmt.writeInfSup, Fmt.parts, Manip.specialText, inf_unz, sup_unz]

/-- **C53**: equal intervals are written as the same text in inf-sup form. -/
theorem C53_text (slack : ℕ) (k : Manip) (hk : k.form = .infSup) (o : OStr) :
    Blind (Itv.EqualTo φ) (φ.writeItv slack k o) ∧ Blind (DItv.EqualTo φ) (φ.writeDItv slack k o) :=
  ⟨blindB (writeItv_unz slack k hk o),
    blindD fun x => by simp [Fmt.writeDItv, writeItv_unz, hk]⟩

/-- **C53**: in uncertain form the sign of a zero bound is visible: the equal intervals `[-inf, -0.0]` and `[-inf, +0.0]` are written
as `-0.000000??d` and `0.000000??d`. -/
theorem C53_uncertain_false :
    (⟨.ninf, .nzero⟩ : Itv).EqualTo binary64 ⟨.ninf, .fin 0⟩ ∧
    (binary64.writeItv 99 { form := .uncertain } {} ⟨.ninf, .nzero⟩).written = some "-0.000000??d".toList ∧
    (binary64.writeItv 99 { form := .uncertain } {} ⟨.ninf, .fin 0⟩).written = some "0.000000??d".toList :=
  ⟨⟨Itv.ok_of_okb (by decide +kernel), Itv.ok_of_okb (by decide +kernel), by decide +kernel⟩, by decide +kernel, by decide +kernel⟩

/-- Non-vacuity: different data, equal intervals, bare and decorated; and a pair of calls with them. -/
example : (⟨.nzero, .fin 1⟩ : Itv).EqualTo binary64 ⟨.fin 0, .fin 1⟩ ∧ (⟨.nzero, .fin 1⟩ : Itv) ≠ ⟨.fin 0, .fin 1⟩ ∧
    (⟨⟨.fin (-1), .nzero⟩, .dac⟩ : DItv).EqualTo binary64 ⟨⟨.fin (-1), .fin 0⟩, .dac⟩ ∧
    (Call.un .double .recip ⟨.nzero, .fin 1⟩).unz = (Call.un .double .recip ⟨.fin 0, .fin 1⟩).unz :=
  ⟨⟨Itv.ok_of_okb (by decide +kernel), Itv.ok_of_okb (by decide +kernel), by decide +kernel⟩, by simp,
    ⟨⟨Itv.ok_of_okb (by decide +kernel), by simp, by simp, by simp⟩, ⟨Itv.ok_of_okb (by decide +kernel), by simp, by simp, by simp⟩, rfl,
      by decide +kernel⟩, rfl⟩

end P1788
