import Verif.Lemmas.Unz
import Verif.Props.C06

/-! # Zeros without sign: elementary functions, decorated and mixed-type versions -/

namespace P1788
variable {φ : Fmt}

theorem Tightest.unz_eq {R R' : Itv} {S : Set ℝ} (h : Tightest φ R S) (h' : Tightest φ R' S) : R.unz = R'.unz :=
  Itv.unz_of_set h.1 h'.1 (Set.Subset.antisymm (h.2.2 _ h'.1 h'.2.1) (h'.2.2 _ h.1 h.2.1))

theorem tanI_unz (x : Itv) : (φ.tanI x.unz).unz = (φ.tanI x).unz := by
  have hw := φ.congr_sub .U x.hi.unz_unz x.lo.unz_unz
  have hl : (φ.tanF .D x.lo.unz).unz = (φ.tanF .D x.lo).unz := φ.unz_un_unz .D _ _ _ _
  have hu : (φ.tanF .U x.hi.unz).unz = (φ.tanF .U x.hi).unz := φ.unz_un_unz .U _ _ _ _
  have e1 : φ.constPi .D < φ.sub .U x.hi.unz x.lo.unz ↔ φ.constPi .D < φ.sub .U x.hi x.lo := by
    rw [← FP.lt_unz_right, hw, FP.lt_unz_right]
  have e2 : φ.tanF .U x.hi.unz < φ.tanF .D x.lo.unz ↔ φ.tanF .U x.hi < φ.tanF .D x.lo := by
    rw [← FP.lt_unz_right, hl, FP.lt_unz_right, ← FP.lt_unz_left, hu, FP.lt_unz_left]
  simp only [Fmt.tanI, Itv.isValid_unz, Itv.isEmpty_unz, Itv.unz_hi, Itv.unz_lo, e1, e2]
  split_ifs
  all_goals first
    | rfl
    | exact Itv.mk_unz hl hu

theorem Op1.bare_unz (op : Op1) {x : Itv} (hx : x.Ok φ) : (op.bare φ x.unz).unz = (op.bare φ x).unz := by
  by_cases h : op = .tan
  · subst h; exact tanI_unz x
  · have := Op1.tight h hx.unz
    rw [x.set_unz] at this
    exact this.unz_eq (Op1.tight h hx)

theorem Op2.bare_unz (op : Op2) {x y : Itv} (hx : x.Ok φ) (hy : y.Ok φ) :
    (op.bare φ x.unz y.unz).unz = (op.bare φ x y).unz := by
  have := Op2.tight op hx.unz hy.unz
  rw [x.set_unz, y.set_unz] at this
  exact this.unz_eq (Op2.tight op hx hy)

theorem fmaI_unz {x y z : Itv} (hx : x.Ok φ) (hy : y.Ok φ) (hz : z.Ok φ) :
    (φ.fmaI x.unz y.unz z.unz).unz = (φ.fmaI x y z).unz := by
  have := C06_fma φ hx.unz hy.unz hz.unz
  rw [x.set_unz, y.set_unz, z.set_unz] at this
  exact this.unz_eq (C06_fma φ hx hy hz)

namespace DItv
variable (x y : DItv)
@[simp] theorem unz_itv : x.unz.itv = x.itv.unz := rfl
@[simp] theorem unz_dec : x.unz.dec = x.dec := rfl
@[simp] theorem unz_unz : x.unz.unz = x.unz := by simp [unz]
@[simp] theorem unz_nai : DItv.nai.unz = .nai := rfl
@[simp] theorem unz_empty : DItv.empty.unz = .empty := rfl
@[simp] theorem unz_entire : DItv.entire.unz = .entire := rfl
@[simp] theorem isValid_unz : x.unz.isValid = x.isValid := by simp [isValid]
@[simp] theorem isNai_unz : x.unz.isNai = x.isNai := by simp [isNai]
@[simp] theorem isMember_unz (m : FP) : x.unz.isMember m = x.isMember m := by simp [isMember]
@[simp] theorem pred_isEmpty_unz : x.unz.pred Itv.isEmpty = x.pred Itv.isEmpty := by simp [pred]
theorem mk_unz {a b : Itv} (h : a.unz = b.unz) (d : Dec) : (DItv.mk a d).unz = (DItv.mk b d).unz := by simp [unz, h]

theorem un_unz {b b' : Itv} {l l' : Dec} (h : b.unz = b'.unz) (hl : l = l') : (x.unz.un b l).unz = (x.un b' l').unz := by
  subst hl
  simp only [un, isValid_unz, isNai_unz]
  split_ifs
  · rfl
  · exact mk_unz h _
theorem bin_unz {b b' : Itv} {l l' : Dec} (h : b.unz = b'.unz) (hl : l = l') : (x.unz.bin y.unz b l).unz = (x.bin y b' l').unz := by
  subst hl
  simp only [bin, isValid_unz, isNai_unz]
  split_ifs
  · rfl
  · exact mk_unz h _
end DItv

@[simp] theorem isTie_unz (a : FP) : φ.isTie a.unz = φ.isTie a := by simp [Fmt.isTie]

theorem tanD_unz (x : DItv) : (φ.tanD x.unz).unz = (φ.tanD x).unz := by
  have hw := φ.congr_sub .U x.itv.hi.unz_unz x.itv.lo.unz_unz
  have hl : (φ.tanF .D x.itv.lo.unz).unz = (φ.tanF .D x.itv.lo).unz := φ.unz_un_unz .D _ _ _ _
  have hu : (φ.tanF .U x.itv.hi.unz).unz = (φ.tanF .U x.itv.hi).unz := φ.unz_un_unz .U _ _ _ _
  have e1 : φ.constPi .D < φ.sub .U x.itv.hi.unz x.itv.lo.unz ↔ φ.constPi .D < φ.sub .U x.itv.hi x.itv.lo := by
    rw [← FP.lt_unz_right, hw, FP.lt_unz_right]
  have e2 : φ.tanF .U x.itv.hi.unz < φ.tanF .D x.itv.lo.unz ↔ φ.tanF .U x.itv.hi < φ.tanF .D x.itv.lo := by
    rw [← FP.lt_unz_right, hl, FP.lt_unz_right, ← FP.lt_unz_left, hu, FP.lt_unz_left]
  have hb := Itv.mk_unz hl hu
  simp only [Fmt.tanD, DItv.isValid_unz, DItv.isNai_unz, DItv.pred_isEmpty_unz, DItv.unz_itv, Itv.unz_hi, Itv.unz_lo, DItv.unz_dec, e1, e2,
    Itv.congr_comDac hb]
  split_ifs
  all_goals first
    | rfl
    | exact DItv.mk_unz hb _

theorem Op1.decd_unz (op : Op1) {x : DItv} (hx : x.itv.Ok φ) : (op.decd φ x.unz).unz = (op.decd φ x).unz := by
  have hb := Op1.bare_unz op hx
  have h1 := Itv.congr_isEmpty hb
  have h2 := Itv.congr_comDac hb
  have h3 := Itv.congr_isSingleton hb
  have h4 := FP.congr_feq (x.itv.hi.unz_unz) (Itv.hi_of_unz hb)
  have h5 := FP.congr_feq (x.itv.lo.unz_unz) (Itv.lo_of_unz hb)
  cases op
  case pos => simp only [Op1.decd, Fmt.posD, DItv.isValid_unz, DItv.isNai_unz]; split_ifs <;> simp
  case neg =>
    simp only [Op1.decd, Fmt.negD, DItv.isValid_unz, DItv.isNai_unz]
    split_ifs
    · rfl
    · exact DItv.mk_unz hb _
  case tan => exact tanD_unz x
  all_goals
    simp only [Op1.bare] at hb h1 h2 h3 h4 h5
    refine DItv.un_unz x hb ?_
    simp only [DItv.unz_itv, h1, h2, h3, h4, h5, DItv.isMember_unz, Itv.unz_lo, Itv.unz_hi, FP.ltb_unz_left, FP.ltb_unz_right, FP.leb_unz_left,
      FP.leb_unz_right, FP.feq_unz_left, isTie_unz]

theorem Op2.decd_unz (op : Op2) {x y : DItv} (hx : x.itv.Ok φ) (hy : y.itv.Ok φ) : (op.decd φ x.unz y.unz).unz = (op.decd φ x y).unz := by
  have hb := Op2.bare_unz op hx hy
  have h1 := Itv.congr_isEmpty hb
  have h2 := Itv.congr_comDac hb
  have h3 := Itv.congr_isCommon hb
  cases op
  all_goals
    simp only [Op2.bare] at hb h1 h2 h3
    refine DItv.bin_unz x y hb ?_
    simp only [DItv.unz_itv, h1, h2, h3, DItv.isMember_unz, Itv.unz_lo, Itv.unz_hi, FP.ltb_unz_left, FP.ltb_unz_right, FP.leb_unz_left,
      FP.leb_unz_right, FP.feq_unz_left]

theorem fmaD_unz {x y z : DItv} (hx : x.itv.Ok φ) (hy : y.itv.Ok φ) (hz : z.itv.Ok φ) :
    (φ.fmaD x.unz y.unz z.unz).unz = (φ.fmaD x y z).unz := by
  have hb := fmaI_unz hx hy hz
  simp only [Fmt.fmaD, DItv.isValid_unz, DItv.isNai_unz, DItv.unz_itv, DItv.unz_dec, Itv.congr_isEmpty hb, Itv.congr_comDac hb]
  split_ifs
  all_goals first
    | rfl
    | exact DItv.mk_unz hb _

/-! ### Mixed-type versions: the operands are converted first, which removes the signs of zeros -/

namespace Fmt
@[simp] theorem convertHullD_unz (x : DItv) : φ.convertHullD x.unz = φ.convertHullD x := by
  unfold Fmt.convertHullD
  rw [DItv.isNai_unz]
  simp only [DItv.unz_itv, Itv.unz_lo, Itv.unz_hi, convertRndd_unz, convertRndu_unz]
  rfl
theorem congr_convertHullD {x y : DItv} (h : x.unz = y.unz) : φ.convertHullD x = φ.convertHullD y := by
  rw [← convertHullD_unz, h, convertHullD_unz]
end Fmt

theorem Op1.mixed_unz (T T1 : NumTy) (op : Op1) (x : Itv) : op.mixed T T1 x.unz = op.mixed T T1 x := by
  simp only [Op1.mixed, Itv.isValid_unz, Fmt.convertHull_unz, Op1.bare, Fmt.congr_convertHull _ (Itv.congr_negI x.unz_unz)]

theorem negD_unz (x : DItv) : (Fmt.negD x.unz).unz = (Fmt.negD x).unz := by
  simp only [Fmt.negD, DItv.isValid_unz, DItv.isNai_unz]
  split_ifs
  · rfl
  · exact DItv.mk_unz (Itv.congr_negI x.itv.unz_unz) _

theorem Op1.mixedD_unz (T T1 : NumTy) (op : Op1) (x : DItv) : op.mixedD T T1 x.unz = op.mixedD T T1 x := by
  simp only [Op1.mixedD, DItv.isValid_unz, DItv.isNai_unz, Fmt.convertHullD_unz, Op1.decd, Fmt.congr_convertHullD (negD_unz x)]

theorem Op2.mixed_unz (T T1 T2 : NumTy) (op : Op2) (x y : Itv) : op.mixed T T1 T2 x.unz y.unz = op.mixed T T1 T2 x y := by
  simp only [Op2.mixed, Itv.isValid_unz, Fmt.convertHull_unz]
theorem Op2.mixedD_unz (T T1 T2 : NumTy) (op : Op2) (x y : DItv) : op.mixedD T T1 T2 x.unz y.unz = op.mixedD T T1 T2 x y := by
  simp only [Op2.mixedD, DItv.isValid_unz, DItv.isNai_unz, Fmt.convertHullD_unz]
theorem fmaMixed_unz (T T1 T2 T3 : NumTy) (x y z : Itv) : fmaMixed T T1 T2 T3 x.unz y.unz z.unz = fmaMixed T T1 T2 T3 x y z := by
  simp only [fmaMixed, Itv.isValid_unz, Fmt.convertHull_unz]
theorem fmaMixedD_unz (T T1 T2 T3 : NumTy) (x y z : DItv) : fmaMixedD T T1 T2 T3 x.unz y.unz z.unz = fmaMixedD T T1 T2 T3 x y z := by
  simp only [fmaMixedD, DItv.isValid_unz, DItv.isNai_unz, Fmt.convertHullD_unz]

namespace Itv
variable (T T1 T2 T3 : NumTy) (b c x y : Itv)
theorem interMixed_unz : interMixed T T1 T2 x.unz y.unz = interMixed T T1 T2 x y := by
  simp only [interMixed, isValid_unz, Fmt.convertHull_unz]
theorem hullMixed_unz : hullMixed T T1 T2 x.unz y.unz = hullMixed T T1 T2 x y := by
  simp only [hullMixed, isValid_unz, Fmt.convertHull_unz]
theorem cancelMinusMixed_unz : cancelMinusMixed T T1 T2 x.unz y.unz = cancelMinusMixed T T1 T2 x y := by
  simp only [cancelMinusMixed, isValid_unz, Fmt.convertHull_unz]
theorem cancelPlusMixed_unz : cancelPlusMixed T T1 T2 x.unz y.unz = cancelPlusMixed T T1 T2 x y := by
  simp only [cancelPlusMixed, Op1.mixed_unz, cancelMinusMixed, isValid_unz, Fmt.convertHull_unz]
theorem revMixed_unz (f : Fmt → Itv → Itv → Itv) : revMixed f T T1 T2 c.unz x.unz = revMixed f T T1 T2 c x := by
  simp only [revMixed, isValid_unz, isEmpty_unz, Fmt.convertHull_unz]
theorem pownRevMixed_unz (p : ℤ) : pownRevMixed T T1 T2 c.unz x.unz p = pownRevMixed T T1 T2 c x p := by
  simp only [pownRevMixed, isValid_unz, isEmpty_unz, Fmt.convertHull_unz]
theorem mulRevMixed_unz : mulRevMixed T T1 T2 T3 b.unz c.unz x.unz = mulRevMixed T T1 T2 T3 b c x := by
  simp only [mulRevMixed, isValid_unz, Fmt.convertHull_unz]
theorem mulRevToPairMixed_unz : mulRevToPairMixed T T1 T2 b.unz c.unz = mulRevToPairMixed T T1 T2 b c := by
  simp only [mulRevToPairMixed, Fmt.convertHull_unz]

theorem cancelPlus_unz : (x.unz.cancelPlus φ y.unz).unz = (x.cancelPlus φ y).unz := by
  unfold cancelPlus
  rw [← cancelMinus_unz, x.unz_unz, congr_negI y.unz_unz, cancelMinus_unz]

theorem mulRev_unz : (b.unz.mulRev φ c.unz x.unz).unz = (b.mulRev φ c x).unz := by
  have h := mulRevPairT_unz φ b c
  have h1 : (φ.mulRevPairT b.unz c.unz).fst.unz = (φ.mulRevPairT b c).fst.unz := congrArg RevPair.fst h
  have h2 : (φ.mulRevPairT b.unz c.unz).snd.unz = (φ.mulRevPairT b c).snd.unz := congrArg RevPair.snd h
  have h3 : (φ.mulRevPairT b.unz c.unz).fl = (φ.mulRevPairT b c).fl := by
    have := congrArg RevPair.fl h
    exact this
  have h4 : (φ.mulRevPairT b.unz c.unz).fu = (φ.mulRevPairT b c).fu := by
    have := congrArg RevPair.fu h
    exact this
  have h5 : (φ.mulRevPairT b.unz c.unz).sl = (φ.mulRevPairT b c).sl := by
    have := congrArg RevPair.sl h
    exact this
  have h6 : (φ.mulRevPairT b.unz c.unz).su = (φ.mulRevPairT b c).su := by
    have := congrArg RevPair.su h
    exact this
  simp only [mulRev, isValid_unz, h3, h4, h5, h6]
  split_ifs
  · rfl
  · exact congr_hull (congr_inter (congr_dropIf h1 x.unz_unz _ _) x.unz_unz) (congr_inter (congr_dropIf h2 x.unz_unz _ _) x.unz_unz)

theorem mulRevToPair_unz : (b.unz.mulRevToPair φ c.unz).1.unz = (b.mulRevToPair φ c).1.unz ∧
    (b.unz.mulRevToPair φ c.unz).2.unz = (b.mulRevToPair φ c).2.unz :=
  ⟨congrArg RevPair.fst (mulRevPairT_unz φ b c), congrArg RevPair.snd (mulRevPairT_unz φ b c)⟩
end Itv

namespace DItv
variable (T T1 T2 T3 : NumTy) (b c x y : DItv)

theorem inter_unz : (x.unz.inter y.unz).unz = (x.inter y).unz := by
  simp only [inter, isValid_unz, isNai_unz]
  split_ifs
  · rfl
  · exact mk_unz Itv.inter_unz _
theorem hull_unz : (x.unz.hull y.unz).unz = (x.hull y).unz := by
  simp only [hull, isValid_unz, isNai_unz]
  split_ifs
  · rfl
  · exact mk_unz Itv.hull_unz _
theorem cancelMinus_unz : (x.unz.cancelMinus φ y.unz).unz = (x.cancelMinus φ y).unz := by
  simp only [cancelMinus, isValid_unz, isNai_unz]
  split_ifs
  · rfl
  · exact mk_unz (Itv.cancelMinus_unz φ _ _) _
theorem cancelPlus_unz : (x.unz.cancelPlus φ y.unz).unz = (x.cancelPlus φ y).unz := by
  unfold cancelPlus
  have : (Op1.neg.decd φ y.unz).unz = (Op1.neg.decd φ y).unz := negD_unz y
  rw [← cancelMinus_unz, x.unz_unz, this, cancelMinus_unz]
theorem cancelMinusMixed_unz : cancelMinusMixed T T1 T2 x.unz y.unz = cancelMinusMixed T T1 T2 x y := by
  simp only [cancelMinusMixed, isValid_unz, isNai_unz, Fmt.convertHullD_unz]
theorem cancelPlusMixed_unz : cancelPlusMixed T T1 T2 x.unz y.unz = cancelPlusMixed T T1 T2 x y := by
  simp only [cancelPlusMixed, Op1.mixedD_unz, cancelMinusMixed, isValid_unz, isNai_unz, Fmt.convertHullD_unz]
theorem interMixed_unz : interMixed T T1 T2 x.unz y.unz = interMixed T T1 T2 x y := by
  simp only [interMixed, isValid_unz, isNai_unz, Fmt.convertHullD_unz]
theorem hullMixed_unz : hullMixed T T1 T2 x.unz y.unz = hullMixed T T1 T2 x y := by
  simp only [hullMixed, isValid_unz, isNai_unz, Fmt.convertHullD_unz]
theorem rev_unz {f : Itv → Itv → Itv} (hf : ∀ c x : Itv, (f c.unz x.unz).unz = (f c x).unz) : (rev f c.unz x.unz).unz = (rev f c x).unz := by
  simp only [rev, isValid_unz, isNai_unz]
  split_ifs
  · rfl
  · exact mk_unz (hf _ _) _
theorem revMixed_unz (f : Fmt → Itv → Itv → Itv) : revMixed f T T1 T2 c.unz x.unz = revMixed f T T1 T2 c x := by
  simp only [revMixed, rev, isValid_unz, isNai_unz, unz_itv, Itv.revMixed_unz]
theorem pownRev_unz (p : ℤ) : (c.unz.pownRev φ x.unz p).map unz = (c.pownRev φ x p).map unz := by
  simp only [pownRev, isValid_unz, isNai_unz]
  split_ifs
  · rfl
  · have h := Itv.pownRev_unz φ c.itv x.itv p
    simp only [unz_itv]
    cases h1 : c.itv.unz.pownRev φ x.itv.unz p <;> cases h2 : c.itv.pownRev φ x.itv p <;> simp_all [unz]
theorem pownRevMixed_unz (p : ℤ) : pownRevMixed T T1 T2 c.unz x.unz p = pownRevMixed T T1 T2 c x p := by
  simp only [pownRevMixed, isValid_unz, isNai_unz, unz_itv, Itv.pownRevMixed_unz]
theorem mulRev_unz : (b.unz.mulRev φ c.unz x.unz).unz = (b.mulRev φ c x).unz := by
  simp only [mulRev, isValid_unz, isNai_unz]
  split_ifs
  · rfl
  · exact mk_unz (Itv.mulRev_unz _ _ _) _
theorem mulRevMixed_unz : mulRevMixed T T1 T2 T3 b.unz c.unz x.unz = mulRevMixed T T1 T2 T3 b c x := by
  simp only [mulRevMixed, isValid_unz, isNai_unz, unz_itv, Itv.mulRevMixed_unz]
theorem mulRevToPair_unz : (b.unz.mulRevToPair φ c.unz).1.unz = (b.mulRevToPair φ c).1.unz ∧
    (b.unz.mulRevToPair φ c.unz).2.unz = (b.mulRevToPair φ c).2.unz := by
  have h := Itv.mulRevToPair_unz (φ := φ) b.itv c.itv
  simp only [mulRevToPair, isValid_unz, isNai_unz, isMember_unz, unz_itv, unz_dec, Itv.congr_isEmpty h.1, Itv.congr_isCommon h.1]
  split_ifs
  all_goals first
    | exact ⟨rfl, rfl⟩
    | exact ⟨mk_unz h.1 _, mk_unz h.2 _⟩
theorem mulRevToPairMixed_unz : mulRevToPairMixed T T1 T2 b.unz c.unz = mulRevToPairMixed T T1 T2 b c := by
  simp only [mulRevToPairMixed, Fmt.convertHullD_unz]
end DItv

end P1788
