import Verif.Props.C15
import Verif.Props.C36
import Verif.Model.Calls

/-!
# C61: improper operands

`C15_false` shows that a program can obtain an interval object that represents no interval (lower bound above upper
bound).  Full statement: handing such an object to any operation gives the empty interval, in decorated arithmetic NaI,
a NaN or `false`, never a result that looks like an enclosure.

It is false of the code: `cancel_minus` checks its first operand twice and its second never (`C61_false`), and
`cancel_plus` turns an improper second operand into the empty interval before it is checked (`C61_false_plus`).
`C61_call_partial` is the statement for all other calls.  It follows that such objects do not spread
(`C61_confined`): in the histories of *all* programs, without any restriction on the calls, every object that is not
itself the result of a cancellative operation is a proper interval.
-/

namespace P1788

/-- A proper representation. -/
def Obj.Proper : Obj → Prop
  | .bare _ x => x.Proper
  | .dec _ x => x.Proper

/-- What is true of the objects of every program (`C61_history`): the bounds are numbers of the object's type, and
`com` does not decorate an unbounded interval. -/
def Obj.Fair : Obj → Prop
  | .bare T x => x.lo.In T.fmt ∧ x.hi.In T.fmt
  | .dec T x => (x.itv.lo.In T.fmt ∧ x.itv.hi.In T.fmt) ∧ (x.dec = .com → x.itv.lo ≠ .ninf ∧ x.itv.hi ≠ .pinf)

/-- The result that stands for an error. -/
def Obj.IsError : Obj → Prop
  | .bare _ x => x = Itv.empty
  | .dec _ x => x = DItv.nai

/-- The calls excluded: a bare cancellative operation whose first operand is proper. -/
def Call.Checks : Call → Prop
  | .cancelMinus _ x _ | .cancelPlus _ x _ | .cancelPlusM _ _ _ x _ => ¬ x.Proper
  | _ => True

namespace Improper
variable {φ : Fmt} {x y z : Itv} {u v w : DItv} {T T1 T2 T3 : NumTy}

theorem op1 (op : Op1) (h : x.isValid = false) : op.bare φ x = Itv.empty := by
  cases op <;> simp [Op1.bare, Fmt.posI, Fmt.negI, Fmt.recipI, Fmt.sqrI, Fmt.sqrtI, Fmt.absI, Fmt.pownI, Fmt.expI,
    Fmt.exp2I, Fmt.exp10I, Fmt.logI, Fmt.logI', Fmt.log2I, Fmt.log10I, Fmt.sinI, Fmt.cosI, Fmt.tanI, Fmt.asinI, Fmt.acosI, Fmt.atanI,
    Fmt.sinhI, Fmt.coshI, Fmt.tanhI, Fmt.asinhI, Fmt.acoshI, Fmt.atanhI, Fmt.signI, Fmt.ceilI, Fmt.floorI, Fmt.truncI,
    Fmt.roundEvenI, Fmt.roundAwayI, Fmt.rintI, h]

theorem op2 (op : Op2) (h : x.isValid = false ∨ y.isValid = false) : op.bare φ x y = Itv.empty := by
  rcases h with h | h <;> cases op <;>
    simp [Op2.bare, Fmt.addI, Fmt.subI, Fmt.mulI, Fmt.divI, Fmt.powI, Fmt.atan2I, Fmt.minI, Fmt.maxI, h]

theorem fma (h : x.isValid = false ∨ y.isValid = false ∨ z.isValid = false) : φ.fmaI x y z = Itv.empty := by
  rcases h with h | h | h <;> simp [Fmt.fmaI, h]

theorem op1D (op : Op1) (h : u.isValid = false) : op.decd φ u = DItv.nai := by
  cases op <;> simp [Op1.decd, Fmt.posD, Fmt.negD, Fmt.recipD, Fmt.sqrD, Fmt.sqrtD, Fmt.absD, Fmt.pownD, Fmt.expD,
    Fmt.exp2D, Fmt.exp10D, Fmt.logD, Fmt.log2D, Fmt.log10D, Fmt.sinD, Fmt.cosD, Fmt.tanD, Fmt.asinD, Fmt.acosD, Fmt.atanD,
    Fmt.sinhD, Fmt.coshD, Fmt.tanhD, Fmt.asinhD, Fmt.acoshD, Fmt.atanhD, Fmt.signD, Fmt.ceilD, Fmt.floorD, Fmt.truncD,
    Fmt.roundEvenD, Fmt.roundAwayD, DItv.un, h]

theorem op2D (op : Op2) (h : u.isValid = false ∨ v.isValid = false) : op.decd φ u v = DItv.nai := by
  rcases h with h | h <;> cases op <;>
    simp [Op2.decd, Fmt.addD, Fmt.subD, Fmt.mulD, Fmt.divD, Fmt.powD, Fmt.atan2D, Fmt.minD, Fmt.maxD, DItv.bin, h]

theorem fmaD (h : u.isValid = false ∨ v.isValid = false ∨ w.isValid = false) : φ.fmaD u v w = DItv.nai := by
  rcases h with h | h | h <;> simp [Fmt.fmaD, h]

theorem rev (op : RevOp) (h : x.isValid = false ∨ y.isValid = false) : op.fn φ x y = Itv.empty := by
  rcases h with h | h <;> cases op <;>
    simp [RevOp.fn, Itv.sqrRev, Itv.absRev, Itv.coshRev, Itv.sinRev, Itv.cosRev, Itv.tanRev, h]

theorem ne_valid : ¬ x.Proper ↔ x.isValid = false := by rw [← Itv.proper_iff, Bool.not_eq_true]

theorem ne_validD : ¬ u.Proper ↔ u.isValid = false := by rw [← DItv.proper_iff, Bool.not_eq_true]

/-- An exact conversion keeps a representation improper. -/
theorem conv {ψ : Fmt} (h : x.isValid = false) (hl : x.lo.In ψ) (hu : x.hi.In ψ) : (ψ.convertHull x).isValid = false := by
  rw [← ne_valid] at h ⊢
  intro hp
  apply h
  unfold Fmt.convertHull at hp
  have keyl : x.lo ≠ .nan → ψ.convertRndd x.lo ≠ .nan ∧ (ψ.convertRndd x.lo).toE = x.lo.toE := fun hn =>
    ⟨(convertRndd_spec ψ hn).1, by rw [(convertRndd_spec ψ hn).2.1, ψ.rdE_of_in hl hn]⟩
  have keyu : x.hi ≠ .nan → ψ.convertRndu x.hi ≠ .nan ∧ (ψ.convertRndu x.hi).toE = x.hi.toE := fun hn =>
    ⟨(convertRndu_spec ψ hn).1, by rw [(convertRndu_spec ψ hn).2.1, ψ.ruE_of_in hu hn]⟩
  rcases hp with hp | hp
  · left
    obtain ⟨l, r⟩ := x
    simp only [Itv.mk.injEq] at hp ⊢
    exact ⟨by by_contra k; exact (keyl k).1 hp.1, by by_contra k; exact (keyu k).1 hp.2⟩
  · right
    rw [validBounds_iff] at hp ⊢
    obtain ⟨h1, h2, h3, h4, h5⟩ := hp
    have nl : x.lo ≠ .nan := fun k => h1 (by rw [k]; simp)
    have nu : x.hi ≠ .nan := fun k => h2 (by rw [k]; simp)
    rw [(keyl nl).2, (keyu nu).2] at h3
    refine ⟨nl, nu, h3, fun k => h4 ?_, fun k => h5 ?_⟩
    · exact FP.toE_eq_top.mp ((keyl nl).2.trans (by rw [k, FP.toE_pinf]))
    · exact FP.toE_eq_bot.mp ((keyu nu).2.trans (by rw [k, FP.toE_ninf]))

theorem convD {ψ : Fmt} (h : u.isValid = false) (hl : u.itv.lo.In ψ) (hu : u.itv.hi.In ψ)
    (hc : u.dec = .com → u.itv.lo ≠ .ninf ∧ u.itv.hi ≠ .pinf) : (ψ.convertHullD u).isValid = false := by
  rw [← ne_validD] at h ⊢
  intro hp
  apply h
  have hn : u.isNai = false := by simp [DItv.isNai, ne_validD.mp h]
  have hi : (ψ.convertHullD u).itv = ψ.convertHull u.itv := by
    unfold Fmt.convertHullD; rw [hn]; simp only [Bool.false_eq_true, if_false]; split_ifs <;> rfl
  have hd : (ψ.convertHullD u).dec = .dac ∧ u.dec = .com ∧ ψ.convertHull u.itv ≠ ⟨.nan, .nan⟩ ∨
      (ψ.convertHullD u).dec = u.dec := by
    unfold Fmt.convertHullD; rw [hn]; simp only [Bool.false_eq_true, if_false]; split_ifs with k
    · left
      refine ⟨rfl, by simp at k; exact k.1, fun e => ?_⟩
      simp only [Fmt.convertHull, Itv.mk.injEq] at e
      rw [e.1, e.2] at k
      simp [FP.feq, FP.leb] at k
    · exact .inr rfl
  obtain ⟨p1, p2, p3, p4⟩ := hp
  rw [hi] at p1 p2 p3
  have q1 : u.itv.Proper := by
    by_contra k
    exact ne_valid.mpr (conv (ne_valid.mp k) hl hu) p1
  have e0 : u.itv = ⟨.nan, .nan⟩ → ψ.convertHull u.itv = ⟨.nan, .nan⟩ := fun e => by
    rw [e]; exact convertHull_empty ψ
  refine ⟨q1, fun e => ?_, fun e k => ?_, hc⟩
  · rcases hd with ⟨-, -, k⟩ | k
    · exact absurd (e0 e) k
    · rw [← k]; exact p2 (e0 e)
  · rcases hd with ⟨-, k', -⟩ | k'
    · rw [k] at k'; cases k'
    · refine p3 (fun e' => e ?_) (k'.trans k)
      have h3 : u.itv.Ok ψ := q1.imp id fun h => by
        rw [validBounds_iff] at h
        exact ⟨(FP.le_iff h.1 h.2.1).mpr h.2.2.1, h.2.2.2.1, h.2.2.2.2, hl, hu⟩
      exact (convertHull_empty_iff h3).mp e'

theorem pair (h : x.isValid = false ∨ y.isValid = false) : x.mulRevToPair φ y = (Itv.empty, Itv.empty) := by
  rcases h with h | h <;> simp [Itv.mulRevToPair, Fmt.mulRevPairT, h]

theorem mrev (h : x.isValid = false ∨ y.isValid = false ∨ z.isValid = false) : x.mulRev φ y z = Itv.empty := by
  rcases h with h | h | h <;> simp [Itv.mulRev, h]

theorem pown {p : ℤ} (h : x.isValid = false ∨ y.isValid = false) : x.pownRev φ y p = some Itv.empty := by
  rcases h with h | h <;> simp [Itv.pownRev, Itv.pownRevV, h]

end Improper
open Improper

theorem setDec_raises {x : Itv} (h : x.isValid = false) (d : UInt8) : Raises (setDec x d) .invalidOperand DItv.nai := by
  unfold setDec
  rcases hd : Dec.ofRaw d with _ | e
  · exact (decIsValidM_raise hd).bind (.pure _)
  · refine (decIsValidM_ret hd).bind_raises ?_
    exact (Itv.isValidM_raise (ne_valid.mpr h)).bind (.pure _)

/-- **An improper operand gives the empty interval, or NaI.** -/
theorem C61_call_partial (c : Call) (hc : c.Checks) (ht : ∀ a ∈ c.args, a.Fair) (h : ∃ a ∈ c.args, ¬ a.Proper) :
    ∀ r ∈ c.yields, r.IsError := by
  intro r hr
  cases c <;> simp only [Call.args, List.exists_mem_cons_iff, List.not_mem_nil, false_and, exists_false, or_false,
    Obj.Proper, Call.yields, Set.mem_singleton_iff, Set.mem_insert_iff, Call.Checks, ne_valid, ne_validD, List.forall_mem_cons, false_imp_iff, implies_true, and_true, Obj.Fair] at h hr hc ht
  case newDec T x =>
    rw [ret_raisesD (show Raises (newDecM x) .invalidOperand DItv.nai from
      (Itv.isValidM_raise (ne_valid.mpr h)).bind (.pure _)) hr]; rfl
  case newDecM T _ x =>
    rw [ret_raisesD (show Raises (T.fmt.newDecMixed x) .invalidOperand DItv.nai from
      (Itv.isValidM_raise (ne_valid.mpr h)).bind (.pure _)) hr]; rfl
  case setDec T x d => rw [ret_raisesD (setDec_raises h d) hr]; rfl
  case setDecM T _ x d =>
    rw [ret_raisesD (show Raises (T.fmt.setDecMixed x d) .invalidOperand (T.fmt.convertHullD DItv.nai) from
      (setDec_raises h d).bind (.pure _)) hr, convertHullD_nai]; rfl
  case copy T x =>
    rw [ret_raisesB (show Raises (copyM x) .invalidOperand Itv.empty from
      (Itv.isValidM_raise (ne_valid.mpr h)).bind (.pure _)) hr]; rfl
  case copyD T x =>
    rw [ret_raisesD (show Raises (copyDM x) .invalidOperand DItv.nai from
      (DItv.isValidM_raise (by rw [h]; simp)).bind (.pure _)) hr]; rfl
  case convert T _ x =>
    rw [ret_raisesB (show Raises (T.fmt.convertType x) .invalidOperand Itv.empty from
      (Itv.isValidM_raise (ne_valid.mpr h)).bind (.pure _)) hr]; rfl
  case convertD T _ x =>
    rw [ret_raisesD (show Raises (T.fmt.convertTypeD x) .invalidOperand DItv.nai from
      (DItv.isValidM_raise (by rw [h]; simp)).bind (.pure _)) hr]; rfl
  case part T x =>
    rw [ret_raisesB (show Raises (intervalPart x) .invalidOperand Itv.empty from
      (DItv.isValidM_raise (by rw [h]; simp)).bind (.pure _)) hr]; rfl
  case partM T _ x =>
    rw [ret_raisesB (show Raises (T.fmt.intervalPartMixed x) .invalidOperand Itv.empty from
      (DItv.isValidM_raise (by rw [h]; simp)).bind (.pure _)) hr]; rfl
  case un op x => subst hr; exact op1 op h
  case unM op x => subst hr; simp [Obj.IsError, Op1.mixed, h]
  case unD op x => subst hr; exact op1D op h
  case unMD op x => subst hr; simp [Obj.IsError, Op1.mixedD, h]
  case bin op x y => subst hr; exact op2 op h
  case binM op x y => subst hr; rcases h with h | h <;> simp [Obj.IsError, Op2.mixed, h]
  case binD op x y => subst hr; exact op2D op h
  case binMD op x y => subst hr; rcases h with h | h <;> simp [Obj.IsError, Op2.mixedD, h]
  case fma => subst hr; exact Improper.fma h
  case fmaM => subst hr; rcases h with h | h | h <;> simp [Obj.IsError, fmaMixed, h]
  case fmaD => subst hr; exact Improper.fmaD h
  case fmaMD => subst hr; rcases h with h | h | h <;> simp [Obj.IsError, fmaMixedD, h]
  case inter => subst hr; rcases h with h | h <;> simp [Obj.IsError, Itv.inter, h]
  case interM => subst hr; rcases h with h | h <;> simp [Obj.IsError, Itv.interMixed, h]
  case interD => subst hr; rcases h with h | h <;> simp [Obj.IsError, DItv.inter, h]
  case interMD => subst hr; rcases h with h | h <;> simp [Obj.IsError, DItv.interMixed, h]
  case hull => subst hr; rcases h with h | h <;> simp [Obj.IsError, Itv.hull, h]
  case hullM => subst hr; rcases h with h | h <;> simp [Obj.IsError, Itv.hullMixed, h]
  case hullD => subst hr; rcases h with h | h <;> simp [Obj.IsError, DItv.hull, h]
  case hullMD => subst hr; rcases h with h | h <;> simp [Obj.IsError, DItv.hullMixed, h]
  case cancelPlus => subst hr; simp [Obj.IsError, Itv.cancelPlus, Itv.cancelMinus, hc]
  case cancelPlusM => subst hr; simp [Obj.IsError, Itv.cancelPlusMixed, Itv.cancelMinusMixed, hc]
  case cancelPlusD T x y =>
    subst hr
    rcases h with h | h
    · simp [Obj.IsError, DItv.cancelPlus, DItv.cancelMinus, h]
    · have hn : DItv.nai.isNai = true := by decide
      simp [Obj.IsError, DItv.cancelPlus, op1D .neg h, DItv.cancelMinus, hn]
  case cancelPlusMD T T1 T2 x y =>
    subst hr
    rcases h with h | h
    · simp [Obj.IsError, DItv.cancelPlusMixed, DItv.cancelMinusMixed, h]
    · have hn : DItv.nai.isNai = true := by decide
      have : Op1.neg.mixedD T T2 y = DItv.nai := by simp [Op1.mixedD, h]
      simp [Obj.IsError, DItv.cancelPlusMixed, this, DItv.cancelMinusMixed, hn]
  case cancelMinus => subst hr; simp [Obj.IsError, Itv.cancelMinus, hc]
  case cancelMinusM => subst hr; rcases h with h | h <;> simp [Obj.IsError, Itv.cancelMinusMixed, h]
  case cancelMinusD => subst hr; rcases h with h | h <;> simp [Obj.IsError, DItv.cancelMinus, h]
  case cancelMinusMD => subst hr; rcases h with h | h <;> simp [Obj.IsError, DItv.cancelMinusMixed, h]
  case rev op c x => subst hr; exact Improper.rev op h
  case revM op c x => subst hr; rcases h with h | h <;> simp [Obj.IsError, Itv.revMixed, h]
  case revD op c x => subst hr; rcases h with h | h <;> simp [Obj.IsError, DItv.rev, h]
  case revMD op c x => subst hr; rcases h with h | h <;> simp [Obj.IsError, DItv.revMixed, DItv.rev, h]
  case rev1 op c => subst hr; exact Improper.rev op (.inl h)
  case rev1M op c => subst hr; simp [Obj.IsError, Itv.rev1, Itv.revMixed, h]
  case rev1D op c => subst hr; simp [Obj.IsError, DItv.rev1, DItv.rev, h]
  case rev1MD op c => subst hr; simp [Obj.IsError, DItv.rev1, DItv.revMixed, DItv.rev, h]
  case pownRev =>
    obtain ⟨R, hR, rfl⟩ := hr
    rw [pown h, Option.some.injEq] at hR
    exact hR.symm
  case pownRevM =>
    obtain ⟨R, hR, rfl⟩ := hr
    rcases h with h | h <;> simp [Itv.pownRevMixed, h] at hR <;> exact hR.symm
  case pownRevD =>
    obtain ⟨R, hR, rfl⟩ := hr
    rcases h with h | h <;> simp [DItv.pownRev, h] at hR <;> exact hR.symm
  case pownRevMD =>
    obtain ⟨R, hR, rfl⟩ := hr
    rcases h with h | h <;> simp [DItv.pownRevMixed, h] at hR <;> exact hR.symm
  case pownRev1 =>
    obtain ⟨R, hR, rfl⟩ := hr
    unfold Itv.pownRev1 at hR
    rw [pown (.inl h), Option.some.injEq] at hR
    exact hR.symm
  case pownRev1M => obtain ⟨R, hR, rfl⟩ := hr; simp [Itv.pownRevMixed, h] at hR; exact hR.symm
  case pownRev1D => obtain ⟨R, hR, rfl⟩ := hr; simp [DItv.pownRev1, DItv.pownRev, h] at hR; exact hR.symm
  case pownRev1MD => obtain ⟨R, hR, rfl⟩ := hr; simp [DItv.pownRevMixed, h] at hR; exact hR.symm
  case mulRev => subst hr; exact mrev h
  case mulRevM => subst hr; rcases h with h | h | h <;> simp [Obj.IsError, Itv.mulRevMixed, h]
  case mulRevD => subst hr; rcases h with h | h | h <;> simp [Obj.IsError, DItv.mulRev, h]
  case mulRevMD => subst hr; rcases h with h | h | h <;> simp [Obj.IsError, DItv.mulRevMixed, h]
  case mulRev2 => subst hr; exact mrev (h.imp_right .inl)
  case mulRev2M => subst hr; rcases h with h | h <;> simp [Obj.IsError, Itv.mulRev2Mixed, Itv.mulRevMixed, h]
  case mulRev2D => subst hr; rcases h with h | h <;> simp [Obj.IsError, DItv.mulRev2, DItv.mulRev, h]
  case mulRev2MD => subst hr; rcases h with h | h <;> simp [Obj.IsError, DItv.mulRev2Mixed, DItv.mulRevMixed, h]
  case mulRevPair =>
    rw [pair h] at hr
    rcases hr with rfl | rfl <;> rfl
  case mulRevPairM T T1 T2 b c =>
    have h1 := (C33_max T [T1, T2]).2 T1 (by simp)
    have h2 := (C33_max T [T1, T2]).2 T2 (by simp)
    have := pair (φ := (T.maxPrec [T1, T2]).fmt) (h.imp (fun h => conv h (h1.in ht.1.1) (h1.in ht.1.2)) (fun h => conv h (h2.in ht.2.1) (h2.in ht.2.2)))
    simp only [Itv.mulRevToPairMixed, this, convertHull_empty] at hr
    rcases hr with rfl | rfl <;> rfl
  case mulRevPairD => rcases h with h | h <;> simp [DItv.mulRevToPair, h] at hr <;> subst hr <;> rfl
  case mulRevPairMD T T1 T2 b c =>
    have h1 := (C33_max T [T1, T2]).2 T1 (by simp)
    have h2 := (C33_max T [T1, T2]).2 T2 (by simp)
    have : (((T.maxPrec [T1, T2]).fmt.convertHullD b).mulRevToPair (T.maxPrec [T1, T2]).fmt
        ((T.maxPrec [T1, T2]).fmt.convertHullD c)) = (DItv.nai, DItv.nai) := by
      rcases h with h | h
      · simp [DItv.mulRevToPair, convD h (h1.in ht.1.1.1) (h1.in ht.1.1.2) ht.1.2]
      · simp [DItv.mulRevToPair, convD h (h2.in ht.2.1.1) (h2.in ht.2.1.2) ht.2.2]
    simp only [DItv.mulRevToPairMixed, this, convertHullD_nai] at hr
    rcases hr with rfl | rfl <;> rfl

/-! ## Improper objects do not spread -/

theorem Obj.ok_iff {o : Obj} : o.Ok ↔ o.Fair ∧ o.Proper := by
  cases o with
  | bare T x =>
    simp only [Obj.Ok, Obj.Fair, Obj.Proper]
    constructor
    · intro h
      refine ⟨?_, Itv.proper_iff.mp h.isValid⟩
      rcases h.cases with rfl | hN
      · exact ⟨trivial, trivial⟩
      · exact ⟨hN.lo_in, hN.hi_in⟩
    · rintro ⟨⟨hl, hu⟩, h⟩
      refine h.imp id fun h => ?_
      rw [validBounds_iff] at h
      exact ⟨(FP.le_iff h.1 h.2.1).mpr h.2.2.1, h.2.2.2.1, h.2.2.2.2, hl, hu⟩
  | dec T x => 
    simp only [Obj.Ok, Obj.Fair, Obj.Proper]
    constructor
    · intro h
      refine ⟨⟨?_, h.2.2.2⟩, h.dproper⟩
      rcases h.1.cases with e | hN
      · rw [e]; exact ⟨trivial, trivial⟩
      · exact ⟨hN.lo_in, hN.hi_in⟩
    · rintro ⟨⟨⟨hl, hu⟩, hc⟩, h⟩
      refine ⟨h.1.imp id fun h => ?_, h.2⟩
      rw [validBounds_iff] at h
      exact ⟨(FP.le_iff h.1 h.2.1).mpr h.2.2.1, h.2.2.2.1, h.2.2.2.2, hl, hu⟩

theorem Obj.IsError.ok {o : Obj} (h : o.IsError) : o.Ok := by
  cases o with
  | bare T x => rw [show x = Itv.empty from h]; exact Itv.ok_empty _
  | dec T x => rw [show x = DItv.nai from h]; exact DItv.ok_nai

/-- A call that is not a cancellative operation gives a proper interval (or NaI), whatever its operands. -/
theorem call_ok (c : Call) (ht : c.WellTyped) (hc : c.NoCancel) (ha : ∀ a ∈ c.args, a.Fair) : ∀ r ∈ c.yields, r.Ok := by
  by_cases hp : ∃ a ∈ c.args, ¬ a.Proper
  · refine fun r hr => (C61_call_partial c ?_ ha hp r hr).ok
    cases c <;> first | exact trivial | exact hc.elim
  · push Not at hp
    refine C15_call c ht ?_ fun a h => Obj.ok_iff.mpr ⟨ha a h, hp a h⟩
    cases c <;> first | exact trivial | exact hc.elim

theorem fair_convert (φ : Fmt) (x : Itv) : (φ.convertHull x).lo.In φ ∧ (φ.convertHull x).hi.In φ := by
  constructor
  · by_cases h : x.lo = .nan
    · simp only [Fmt.convertHull, h]; exact trivial
    · exact (convertRndd_spec φ h).2.2
  · by_cases h : x.hi = .nan
    · simp only [Fmt.convertHull, h]; exact trivial
    · exact (convertRndu_spec φ h).2.2

theorem fair_cancel {φ : Fmt} {x y : Itv} (hx : x.lo.In φ ∧ x.hi.In φ) (hy : y.lo.In φ ∧ y.hi.In φ) :
    (x.cancelMinus φ y).lo.In φ ∧ (x.cancelMinus φ y).hi.In φ := by
  have hs : ∀ (m : Rnd) {a b : FP}, a.In φ → b.In φ → (φ.subNS m a b).In φ := by
    intro m a b ha hb
    rw [φ.subNS_eq m ha hb]
    exact φ.sub_in m a b
  unfold Itv.cancelMinus
  dsimp only
  split_ifs
  all_goals first
    | exact ⟨trivial, trivial⟩
    | exact hx
    | exact ⟨hs _ hx.1 hy.1, hs _ hx.2 hy.2⟩

theorem fair_neg {φ : Fmt} {y : Itv} (h : y.lo.In φ ∧ y.hi.In φ) : (Fmt.negI y).lo.In φ ∧ (Fmt.negI y).hi.In φ := by
  unfold Fmt.negI
  split_ifs
  all_goals first
    | exact ⟨trivial, trivial⟩
    | exact ⟨FP.neg_in h.2, FP.neg_in h.1⟩

theorem fair_nai (T : NumTy) : (Obj.dec T DItv.nai).Fair := ⟨⟨trivial, trivial⟩, fun h => by cases h⟩

theorem fair_cancelD {T : NumTy} {x y : DItv} (hx : x.itv.lo.In T.fmt ∧ x.itv.hi.In T.fmt)
    (hy : y.itv.lo.In T.fmt ∧ y.itv.hi.In T.fmt) : (Obj.dec T (x.cancelMinus T.fmt y)).Fair := by
  unfold DItv.cancelMinus
  split_ifs
  · exact fair_nai T
  · exact ⟨fair_cancel hx hy, fun h => by cases h⟩

theorem fair_cancelMD {T T1 T2 : NumTy} {x y : DItv} : (Obj.dec T (DItv.cancelMinusMixed T T1 T2 x y)).Fair := by
  unfold DItv.cancelMinusMixed
  split_ifs
  · exact fair_nai T
  · dsimp only
    generalize hz : ((T.maxPrec [T1, T2]).fmt.convertHullD x).cancelMinus (T.maxPrec [T1, T2]).fmt
      ((T.maxPrec [T1, T2]).fmt.convertHullD y) = z
    have hd : z.dec ≠ .com := by
      rw [← hz]; unfold DItv.cancelMinus; split_ifs <;> exact fun h => by cases h
    unfold Fmt.convertHullD
    dsimp only
    split_ifs with h1 h2
    · exact fair_nai T
    · simp [hd] at h2
    · exact ⟨fair_convert T.fmt z.itv, fun h => absurd h hd⟩

theorem call_fair (c : Call) (ht : c.WellTyped) (ha : ∀ a ∈ c.args, a.Fair) : ∀ r ∈ c.yields, r.Fair := by
  by_cases hc : c.NoCancel
  · exact fun r hr => (Obj.ok_iff.mp (call_ok c ht hc ha r hr)).1
  intro r hr
  cases c <;> simp only [Call.NoCancel, not_true, not_false_eq_true] at hc
  all_goals
    simp only [Call.args, List.forall_mem_cons, List.not_mem_nil, false_imp_iff, implies_true, and_true,
      Obj.Fair, Call.yields, Set.mem_singleton_iff] at ha hr
    subst hr
  case cancelPlus T x y =>
    refine fair_cancel ha.1 ?_
    exact fair_neg ha.2
  case cancelPlusM => 
    simp only [Obj.Fair, Itv.cancelPlusMixed, Itv.cancelMinusMixed]
    split_ifs
    · exact ⟨trivial, trivial⟩
    · exact fair_convert _ _
  case cancelPlusD T x y =>
    refine fair_cancelD ha.1.1 ?_
    change (Fmt.negD y).itv.lo.In T.fmt ∧ (Fmt.negD y).itv.hi.In T.fmt
    unfold Fmt.negD
    split_ifs
    · exact ⟨trivial, trivial⟩
    · exact fair_neg ha.2.1
  case cancelPlusMD => exact fair_cancelMD
  case cancelMinus T x y => exact fair_cancel ha.1 ha.2
  case cancelMinusM => 
    simp only [Obj.Fair, Itv.cancelMinusMixed]
    split_ifs
    · exact ⟨trivial, trivial⟩
    · exact fair_convert _ _
  case cancelMinusD => exact fair_cancelD ha.1.1 ha.2.1
  case cancelMinusMD => exact fair_cancelMD

/-- In every history of every program the bounds are numbers of the object's type, and `com` never decorates an
unbounded interval. -/
theorem C61_history {P : Call → Prop} {l : List Obj} (h : History P l) : ∀ o ∈ l, o.Fair := by
  induction h with
  | start => simp
  | call h c ht hP ha hr ih =>
    rw [List.forall_mem_cons]
    exact ⟨call_fair c ht (fun a h => ih a (ha a h)) _ hr, ih⟩

/-- **Improper objects do not spread.**  In a history of any program, the result of a call that is not a cancellative
operation is a proper interval of its type (or NaI), whatever objects it was given. -/
theorem C61_confined {P : Call → Prop} {l : List Obj} (h : History P l) (c : Call) (ht : c.WellTyped)
    (hc : c.NoCancel) (ha : ∀ a ∈ c.args, a ∈ l) : ∀ r ∈ c.yields, r.Ok :=
  call_ok c ht hc fun a h' => C61_history h a (ha a h')

/-! ## The operations that do not check -/

/-- The improper object of `C15_false`, the `cancel_minus` of two proper intervals of `float`. -/
def improper : Itv :=
  (Itv.mk (.fin (2 ^ 127 - 5 / 2 * topUlp)) (.fin binary32.maxFin)).cancelMinus binary32
    ⟨.fin (-(2 ^ 127 - 1 / 2 * topUlp)), .fin (3 * topUlp)⟩

theorem reach_nums {T : NumTy} {l u : FP} (hl : l.In T.fmt) (hu : u.In T.fmt) (h : boundsOk l u = true) {L : List Obj}
    (hL : History (fun _ => True) L) : History (fun _ => True) (.bare T ⟨l, u⟩ :: L) := by
  refine .call hL (.nums T l u) ⟨hl, hu⟩ trivial (by simp [Call.args]) (r := .bare T ⟨l, u⟩) ?_
  refine ⟨⟨fun _ => false, fun _ => false⟩, ⟨l, u⟩, ?_, rfl⟩
  unfold numsToInterval
  rw [if_pos h]
  rfl

/-- A program obtains `[0, 0]`, `[1, 2]` and the improper object. -/
theorem reach_improper : ∃ l, History (fun _ => True) l ∧ Obj.bare .float improper ∈ l ∧
    Obj.bare .float ⟨.fin 0, .fin 0⟩ ∈ l ∧ Obj.bare .float ⟨.fin 1, .fin 2⟩ ∈ l := by
  have h1 := reach_nums (T := .float) (l := .fin 0) (u := .fin 0) (FP.in_of_inb (by decide +kernel))
    (FP.in_of_inb (by decide +kernel)) (by decide +kernel) .start
  have h2 := reach_nums (T := .float) (l := .fin 1) (u := .fin 2) (FP.in_of_inb (by decide +kernel))
    (FP.in_of_inb (by decide +kernel)) (by decide +kernel) h1
  have h3 := reach_nums (T := .float) (l := .fin (2 ^ 127 - 5 / 2 * topUlp)) (u := .fin binary32.maxFin)
    (FP.in_of_inb (by decide +kernel)) (FP.in_of_inb (by decide +kernel)) (by decide +kernel) h2
  have h4 := reach_nums (T := .float) (l := .fin (-(2 ^ 127 - 1 / 2 * topUlp))) (u := .fin (3 * topUlp))
    (FP.in_of_inb (by decide +kernel)) (FP.in_of_inb (by decide +kernel)) (by decide +kernel) h3
  exact ⟨_, .call h4 (.cancelMinus .float ⟨.fin (2 ^ 127 - 5 / 2 * topUlp), .fin binary32.maxFin⟩
    ⟨.fin (-(2 ^ 127 - 1 / 2 * topUlp)), .fin (3 * topUlp)⟩) trivial trivial (by simp [Call.args]) (Set.mem_singleton _),
    by simp [improper, NumTy.fmt], by simp, by simp⟩

theorem improper_not : ¬ improper.Proper := ne_valid.mpr (by decide +kernel)

/-- **The full statement is false**: a program can obtain a proper interval `x` and an improper object `y` such that
`cancel_minus(x, y)` is a non-empty, bounded, proper interval: nothing tells the program that the operand was not an
interval. -/
theorem C61_false : ∃ l x y, History (fun _ => True) l ∧ Obj.bare .float x ∈ l ∧ Obj.bare .float y ∈ l ∧
    x.Ok binary32 ∧ ¬ y.Proper ∧ (x.cancelMinus binary32 y).Ok binary32 ∧ x.cancelMinus binary32 y ≠ Itv.empty ∧
    x.cancelMinus binary32 y ≠ Itv.entire ∧ (x.cancelMinus binary32 y).isCommon = true := by
  obtain ⟨l, h, h1, h2, -⟩ := reach_improper
  exact ⟨l, ⟨.fin 0, .fin 0⟩, improper, h, h2, h1, Itv.ok_of_okb (by decide +kernel), improper_not,
    Itv.ok_of_okb (by decide +kernel), by decide +kernel, by decide +kernel, by decide +kernel⟩

/-- Likewise `cancel_plus(x, y)` is entire, not empty. -/
theorem C61_false_plus : ∃ l x y, History (fun _ => True) l ∧ Obj.bare .float x ∈ l ∧ Obj.bare .float y ∈ l ∧
    x.Ok binary32 ∧ ¬ y.Proper ∧ x.cancelPlus binary32 y = Itv.entire := by
  obtain ⟨l, h, h1, h2, -⟩ := reach_improper
  exact ⟨l, ⟨.fin 0, .fin 0⟩, improper, h, h2, h1, Itv.ok_of_okb (by decide +kernel), improper_not, by decide +kernel⟩

/-- Non-vacuity of `C61_call_partial` and `C61_confined`: the sum of `[1, 2]` and the improper object is empty. -/
example : ∃ l, History (fun _ => True) l ∧ (∀ a ∈ (Call.bin .float .add ⟨.fin 1, .fin 2⟩ improper).args, a ∈ l) ∧
    (∃ a ∈ (Call.bin .float .add ⟨.fin 1, .fin 2⟩ improper).args, ¬ a.Proper) ∧
    ∀ r ∈ (Call.bin .float .add ⟨.fin 1, .fin 2⟩ improper).yields, r.IsError := by
  obtain ⟨l, h, h1, -, h2⟩ := reach_improper
  have ha : ∀ a ∈ (Call.bin .float .add ⟨.fin 1, .fin 2⟩ improper).args, a ∈ l := by simp [Call.args, h1, h2]
  have hn : ∃ a ∈ (Call.bin .float .add ⟨.fin 1, .fin 2⟩ improper).args, ¬ a.Proper :=
    ⟨.bare .float improper, by simp [Call.args], improper_not⟩
  exact ⟨l, h, ha, hn, C61_call_partial _ trivial (fun a h' => C61_history h a (ha a h')) hn⟩

/-! ## Numbers and comparisons -/

/-- The number functions of an improper object give NaN. -/
theorem C61_numbers {x : Itv} (h : ¬ x.Proper) (φ : Fmt) (T T1 : NumTy) :
    x.inf = .nan ∧ x.sup = .nan ∧ x.mid φ = .nan ∧ x.rad φ = .nan ∧ x.midRad φ = (.nan, .nan) ∧ x.wid φ = .nan ∧
    x.mag = .nan ∧ x.mig = .nan ∧ x.infMixed T T1 = .nan ∧ x.supMixed T T1 = .nan ∧ x.midMixed T = .nan ∧
    x.radMixed T T1 = .nan ∧ x.midRadMixed T T1 = (.nan, .nan) ∧ x.widMixed T T1 = .nan ∧ x.magMixed T T1 = .nan ∧
    x.migMixed T T1 = .nan := by
  rw [ne_valid] at h
  simp [Itv.inf, Itv.sup, Itv.mid, Itv.rad, Itv.midRad, Itv.wid, Itv.mag, Itv.mig, Itv.infMixed, Itv.supMixed,
    Itv.midMixed, Itv.radMixed, Itv.midRadMixed, Itv.widMixed, Itv.magMixed, Itv.migMixed, h]

/-- So do the decorated number functions. -/
theorem C61_numbers_dec {x : DItv} (h : ¬ x.Proper) (f : Itv → FP) (g : Itv → FP × FP) :
    x.num f = .nan ∧ x.num2 g = (.nan, .nan) := by
  rw [ne_validD] at h
  simp [DItv.num, DItv.num2, h]

/-- The predicates are false of an improper object. -/
theorem C61_predicates {x : Itv} (h : ¬ x.Proper) (m : FP) :
    x.isEmpty = false ∧ x.isEntire = false ∧ x.isCommon = false ∧ x.isSingleton = false ∧ Itv.isMember m x = false := by
  rw [ne_valid] at h
  simp [Itv.isEmpty, Itv.isEntire, Itv.isCommon, Itv.isSingleton, Itv.isMember, h]

/-- The predicates of decorated intervals. -/
theorem C61_predicates_dec {x : DItv} (h : ¬ x.Proper) (p : Itv → Bool) (m : FP) :
    x.pred p = false ∧ DItv.isMember m x = false ∧ x.isNai = false := by
  rw [ne_validD] at h
  simp [DItv.pred, DItv.isMember, DItv.isNai, h]

/-- No comparison with an improper object holds, not even with itself, and `overlap` gives `undefined`. -/
theorem C61_comparisons {x y : Itv} (h : ¬ x.Proper ∨ ¬ y.Proper) :
    x.equal y = false ∧ x.subset y = false ∧ x.superset y = false ∧ x.less y = false ∧ x.greater y = false ∧
    x.precedes y = false ∧ x.succeeds y = false ∧ x.interior y = false ∧ x.containsInterior y = false ∧
    x.strictlyLess y = false ∧ x.strictlyGreater y = false ∧ x.strictlyPrecedes y = false ∧
    x.strictlySucceeds y = false ∧ x.disjoint y = false ∧ x.overlap y = .undefined := by
  rw [ne_valid, ne_valid] at h
  rcases h with h | h <;>
    simp [Itv.equal, Itv.subset, Itv.superset, Itv.less, Itv.greater, Itv.precedes, Itv.succeeds, Itv.interior,
      Itv.containsInterior, Itv.strictlyLess, Itv.strictlyGreater, Itv.strictlyPrecedes, Itv.strictlySucceeds,
      Itv.disjoint, Itv.overlap, h]

/-- The comparisons of decorated intervals. -/
theorem C61_comparisons_dec {x y : DItv} (h : ¬ x.Proper ∨ ¬ y.Proper) (r : Itv → Itv → Bool) :
    DItv.rel r x y = false ∧ x.overlap y = .undefined := by
  rw [ne_validD, ne_validD] at h
  rcases h with h | h <;> simp [DItv.rel, DItv.overlap, h]

/-- Non-vacuity: the improper object above; `equal(y, y)` is false of it. -/
example : improper.wid binary32 = .nan ∧ improper.equal improper = false :=
  ⟨(C61_numbers improper_not binary32 .float .float).2.2.2.2.2.1, (C61_comparisons (.inl improper_not)).1⟩

/-- Non-vacuity for decorated objects: the decorated cancellation gives one. -/
example : ¬ ((DItv.mk ⟨.fin (2 ^ 127 - 5 / 2 * topUlp), .fin binary32.maxFin⟩ .com).cancelMinus binary32
    ⟨⟨.fin (-(2 ^ 127 - 1 / 2 * topUlp)), .fin (3 * topUlp)⟩, .com⟩).Proper := ne_validD.mpr (by decide +kernel)

end P1788
