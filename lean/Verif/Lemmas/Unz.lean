import Verif.Lemmas.Calls

/-! # Zeros without sign

`unz` replaces the bound `-0.0` by `+0.0`.  Two valid intervals compare equal exactly if they have the same `unz`.  The lemmas
say for each function of the model that its value depends on the sign of a zero at most in the sign of a zero. -/

namespace P1788

/-- The number with `-0.0` replaced by `+0.0`. -/
def FP.unz : FP → FP
  | .nzero => .fin 0
  | a => a

/-- Both bounds without signs of zeros. -/
def Itv.unz (x : Itv) : Itv := ⟨x.lo.unz, x.hi.unz⟩

/-- The same for decorated intervals. -/
def DItv.unz (x : DItv) : DItv := ⟨x.itv.unz, x.dec⟩

namespace FP
variable (a b : FP)

@[simp] theorem unz_nan : FP.nan.unz = .nan := rfl
@[simp] theorem unz_ninf : FP.ninf.unz = .ninf := rfl
@[simp] theorem unz_pinf : FP.pinf.unz = .pinf := rfl
@[simp] theorem unz_nzero : FP.nzero.unz = .fin 0 := rfl
@[simp] theorem unz_fin (q : ℚ) : (FP.fin q).unz = .fin q := rfl
@[simp] theorem unz_unz : a.unz.unz = a.unz := by cases a <;> rfl
@[simp] theorem isNaN_unz : a.unz.isNaN = a.isNaN := by cases a <;> rfl
@[simp] theorem isInf_unz : a.unz.isInf = a.isInf := by cases a <;> rfl
@[simp] theorem isZero_unz : a.unz.isZero = a.isZero := by cases a <;> simp [FP.isZero]
@[simp] theorem q_unz : a.unz.q = a.q := by cases a <;> rfl
@[simp] theorem toE_unz : a.unz.toE = a.toE := by cases a <;> simp [FP.toE]
@[simp] theorem abs_unz : a.unz.abs = a.abs := by cases a <;> simp [FP.abs]
@[simp] theorem unz_abs : a.abs.unz = a.abs := by cases a <;> simp [FP.abs]
@[simp] theorem ltb_unz_left : a.unz.ltb b = a.ltb b := by cases a <;> cases b <;> simp [FP.ltb]
@[simp] theorem ltb_unz_right : a.ltb b.unz = a.ltb b := by cases a <;> cases b <;> simp [FP.ltb]
@[simp] theorem leb_unz_left : a.unz.leb b = a.leb b := by cases a <;> cases b <;> simp [FP.leb]
@[simp] theorem leb_unz_right : a.leb b.unz = a.leb b := by cases a <;> cases b <;> simp [FP.leb]
@[simp] theorem feq_unz_left : a.unz.feq b = a.feq b := by simp [FP.feq]
@[simp] theorem feq_unz_right : a.feq b.unz = a.feq b := by simp [FP.feq]
@[simp] theorem lt_unz_left : a.unz < b ↔ a < b := by show _ = true ↔ _ = true; simp
@[simp] theorem lt_unz_right : a < b.unz ↔ a < b := by show _ = true ↔ _ = true; simp
@[simp] theorem le_unz_left : a.unz ≤ b ↔ a ≤ b := by show _ = true ↔ _ = true; simp
@[simp] theorem le_unz_right : a ≤ b.unz ↔ a ≤ b := by show _ = true ↔ _ = true; simp
@[simp] theorem unz_mkZero (s : Bool) : (FP.mkZero s).unz = .fin 0 := by cases s <;> rfl
@[simp] theorem unz_mkInf (s : Bool) : (FP.mkInf s).unz = .mkInf s := by cases s <;> rfl
@[simp] theorem unz_neg_unz : a.unz.neg.unz = a.neg.unz := by cases a <;> simp [FP.neg]
@[simp] theorem sgn_unz : a.unz.sgn = a.sgn := by simp [FP.sgn]
@[simp] theorem posZero_unz : a.unz.posZero = a.posZero := by cases a <;> simp [FP.posZero, FP.isZero]
theorem signbit_unz (h : a.isZero = false) : a.unz.signbit = a.signbit := by
  cases a <;> simp_all [FP.isZero, FP.signbit]
theorem In_unz {φ : Fmt} (h : a.In φ) : a.unz.In φ := by
  cases a <;> simp_all [FP.In, φ.rep_zero]
@[simp] theorem stdMin_unz : (a.unz.stdMin b.unz).unz = (a.stdMin b).unz := by simp only [FP.stdMin, lt_unz_left, lt_unz_right]; split_ifs <;> simp
@[simp] theorem stdMax_unz : (a.unz.stdMax b.unz).unz = (a.stdMax b).unz := by simp only [FP.stdMax, lt_unz_left, lt_unz_right]; split_ifs <;> simp

variable {a b}
theorem congr_ltb {a' b' : FP} (h : a.unz = a'.unz) (h' : b.unz = b'.unz) : a.ltb b = a'.ltb b' := by
  rw [← ltb_unz_left, ← ltb_unz_right, h, h', ltb_unz_left, ltb_unz_right]
theorem congr_leb {a' b' : FP} (h : a.unz = a'.unz) (h' : b.unz = b'.unz) : a.leb b = a'.leb b' := by
  rw [← leb_unz_left, ← leb_unz_right, h, h', leb_unz_left, leb_unz_right]
theorem congr_feq {a' b' : FP} (h : a.unz = a'.unz) (h' : b.unz = b'.unz) : a.feq b = a'.feq b' := by
  rw [← feq_unz_left, ← feq_unz_right, h, h', feq_unz_left, feq_unz_right]
theorem congr_stdMin {a' b' : FP} (h : a.unz = a'.unz) (h' : b.unz = b'.unz) : (a.stdMin b).unz = (a'.stdMin b').unz := by
  rw [← stdMin_unz, h, h', stdMin_unz]
theorem congr_stdMax {a' b' : FP} (h : a.unz = a'.unz) (h' : b.unz = b'.unz) : (a.stdMax b).unz = (a'.stdMax b').unz := by
  rw [← stdMax_unz, h, h', stdMax_unz]
theorem congr_neg {a' : FP} (h : a.unz = a'.unz) : a.neg.unz = a'.neg.unz := by rw [← unz_neg_unz, h, unz_neg_unz]

end FP

namespace Itv
variable (x y : Itv)

@[simp] theorem unz_lo : x.unz.lo = x.lo.unz := rfl
@[simp] theorem unz_hi : x.unz.hi = x.hi.unz := rfl
@[simp] theorem unz_unz : x.unz.unz = x.unz := by simp [unz]
@[simp] theorem unz_empty : Itv.empty.unz = .empty := rfl
@[simp] theorem unz_entire : Itv.entire.unz = .entire := rfl
@[simp] theorem isValid_unz : x.unz.isValid = x.isValid := by simp [isValid]
@[simp] theorem isEmpty_unz : x.unz.isEmpty = x.isEmpty := by simp [isEmpty]
@[simp] theorem isEntire_unz : x.unz.isEntire = x.isEntire := by simp [isEntire]
@[simp] theorem isCommon_unz : x.unz.isCommon = x.isCommon := by simp [isCommon]
@[simp] theorem isSingleton_unz : x.unz.isSingleton = x.isSingleton := by simp [isSingleton]
@[simp] theorem isZeroItv_unz : Fmt.isZeroItv x.unz = Fmt.isZeroItv x := by simp [Fmt.isZeroItv]
@[simp] theorem isMember_unz (m : FP) : x.unz.isMember m = x.isMember m := by simp [isMember]
theorem eq_of_unz {x y : Itv} (h : x.lo.unz = y.lo.unz) (h' : x.hi.unz = y.hi.unz) : x.unz = y.unz := by
  simp only [unz, h, h']
theorem lo_of_unz {x y : Itv} (h : x.unz = y.unz) : x.lo.unz = y.lo.unz := congrArg Itv.lo h
theorem hi_of_unz {x y : Itv} (h : x.unz = y.unz) : x.hi.unz = y.hi.unz := congrArg Itv.hi h
@[simp] theorem set_unz : x.unz.set = x.set := by
  cases x with | mk a b => cases a <;> cases b <;> simp [unz, Itv.set, FP.BelowR, FP.AboveR]

theorem Ok.unz {φ : Fmt} {x : Itv} (h : x.Ok φ) : x.unz.Ok φ := by
  rcases h.cases with rfl | h
  · exact h
  · exact NE.ok ⟨by have := h.lo_ne; cases hx : x.lo <;> simp_all [Itv.unz], by have := h.hi_ne; cases hx : x.hi <;> simp_all [Itv.unz],
      by simpa using h.le, by simpa using h.lo_top, by simpa using h.hi_bot, FP.In_unz _ h.lo_in, FP.In_unz _ h.hi_in⟩

theorem _root_.P1788.FP.unz_of_toE {a b : FP} (ha : a ≠ .nan) (hb : b ≠ .nan) (h : a.toE = b.toE) : a.unz = b.unz := by
  cases a <;> cases b <;> simp_all [FP.toE]
  all_goals first | exact_mod_cast h.symm | exact_mod_cast h | skip

/-- Valid intervals with the same members have the same bounds up to signs of zeros. -/
theorem unz_of_set {φ ψ : Fmt} {x y : Itv} (hx : x.Ok φ) (hy : y.Ok ψ) (h : x.set = y.set) : x.unz = y.unz := by
  rcases hx.cases with rfl | hx'
  · rw [hy.set_eq_empty_iff.mp (h ▸ (hx.set_eq_empty_iff.mpr rfl))]
  rcases hy.cases with rfl | hy'
  · rw [hx.set_eq_empty_iff.mp (h ▸ (hy.set_eq_empty_iff.mpr rfl))]
  obtain ⟨h1, h2⟩ := (hx'.subset_iff hy').mp h.le
  obtain ⟨h3, h4⟩ := (hy'.subset_iff hx').mp h.ge
  exact eq_of_unz (FP.unz_of_toE hx'.lo_ne hy'.lo_ne (le_antisymm h3 h1)) (FP.unz_of_toE hx'.hi_ne hy'.hi_ne (le_antisymm h2 h4))

theorem set_of_unz {x y : Itv} (h : x.unz = y.unz) : x.set = y.set := by rw [← set_unz, h, set_unz]

section
variable {x y x' y' : Itv}
theorem congr_isValid (h : x.unz = x'.unz) : x.isValid = x'.isValid := by rw [← isValid_unz, h, isValid_unz]
theorem congr_isEmpty (h : x.unz = x'.unz) : x.isEmpty = x'.isEmpty := by rw [← isEmpty_unz, h, isEmpty_unz]
theorem congr_isCommon (h : x.unz = x'.unz) : x.isCommon = x'.isCommon := by rw [← isCommon_unz, h, isCommon_unz]
theorem congr_isEntire (h : x.unz = x'.unz) : x.isEntire = x'.isEntire := by rw [← isEntire_unz, h, isEntire_unz]
theorem congr_isSingleton (h : x.unz = x'.unz) : x.isSingleton = x'.isSingleton := by
  rw [← isSingleton_unz, h, isSingleton_unz]
theorem congr_isMember (h : x.unz = x'.unz) (m : FP) : x.isMember m = x'.isMember m := by
  rw [← isMember_unz, h, isMember_unz]
theorem congr_comDac (h : x.unz = x'.unz) : x.comDac = x'.comDac := by simp only [comDac, congr_isCommon h]

theorem equal_unz : x.unz.equal y.unz = x.equal y := by simp [equal]
theorem subset_unz : x.unz.subset y.unz = x.subset y := by simp [subset]
theorem less_unz : x.unz.less y.unz = x.less y := by simp [less]
theorem precedes_unz : x.unz.precedes y.unz = x.precedes y := by simp [precedes]
theorem interior_unz : x.unz.interior y.unz = x.interior y := by simp [interior]
theorem strictlyLess_unz : x.unz.strictlyLess y.unz = x.strictlyLess y := by simp [strictlyLess]
theorem strictlyPrecedes_unz : x.unz.strictlyPrecedes y.unz = x.strictlyPrecedes y := by simp [strictlyPrecedes]
theorem disjoint_unz : x.unz.disjoint y.unz = x.disjoint y := by simp [disjoint]
theorem overlap_unz : x.unz.overlap y.unz = x.overlap y := by simp [overlap]

theorem inter_unz : (x.unz.inter y.unz).unz = (x.inter y).unz := by
  simp only [inter, isValid_unz, disjoint_unz]
  split_ifs <;> simp [unz]
theorem hull_unz : (x.unz.hull y.unz).unz = (x.hull y).unz := by
  simp only [hull, isValid_unz, isEmpty_unz]
  split_ifs <;> simp [unz]
theorem congr_inter (h : x.unz = x'.unz) (h' : y.unz = y'.unz) : (x.inter y).unz = (x'.inter y').unz := by
  rw [← inter_unz, h, h', inter_unz]
theorem congr_hull (h : x.unz = x'.unz) (h' : y.unz = y'.unz) : (x.hull y).unz = (x'.hull y').unz := by
  rw [← hull_unz, h, h', hull_unz]
theorem congr_equal (h : x.unz = x'.unz) (h' : y.unz = y'.unz) : x.equal y = x'.equal y' := by
  rw [← equal_unz, h, h', equal_unz]
theorem congr_overlap (h : x.unz = x'.unz) (h' : y.unz = y'.unz) : x.overlap y = x'.overlap y' := by
  rw [← overlap_unz, h, h', overlap_unz]
theorem congr_dropIf (h : x.unz = x'.unz) (h' : y.unz = y'.unz) (a b : Bool) : (x.dropIf y a b).unz = (x'.dropIf y' a b).unz := by
  unfold dropIf
  rw [FP.congr_feq (hi_of_unz h) (lo_of_unz h'), FP.congr_feq (hi_of_unz h') (lo_of_unz h)]
  split_ifs <;> simp [h]
theorem congr_negI (h : x.unz = x'.unz) : (Fmt.negI x).unz = (Fmt.negI x').unz := by
  unfold Fmt.negI
  rw [congr_isValid h, congr_isEmpty h]
  split_ifs
  · rfl
  · exact eq_of_unz (FP.congr_neg (hi_of_unz h)) (FP.congr_neg (lo_of_unz h))
theorem congr_revHull (h : x.unz = x'.unz) (h' : y.unz = y'.unz) (a b : Bool) :
    (x.revHull y a b).unz = (x'.revHull y' a b).unz :=
  congr_hull (congr_inter (congr_dropIf h h' _ _) h') (congr_inter (congr_dropIf (congr_negI h) h' _ _) h')
theorem congr_firstOf {b b' : Itv} (h : x.unz = x'.unz) (h' : b.unz = b'.unz) (h'' : y.unz = y'.unz) :
    (x.firstOf b y).unz = (x'.firstOf b' y').unz := by
  unfold firstOf
  rw [congr_isEmpty (congr_inter h h'')]
  split_ifs
  · exact congr_inter h' h''
  · exact congr_inter h h''
end
end Itv

/-! ### Rounded operations -/

namespace Fmt
variable (φ : Fmt) (m : Rnd) {a b a' b' : FP}

theorem unz_zeroIf {c d : Prop} [Decidable c] [Decidable d] (s t : Bool) (r : FP) :
    (if c then (if d then FP.mkZero s else FP.mkZero t) else r).unz = if c then .fin 0 else r.unz := by
  split_ifs <;> simp

theorem unz_add_unz (a b : FP) : (φ.add m a.unz b.unz).unz = (φ.add m a b).unz := by
  cases a <;> cases b <;> simp only [FP.unz_nan, FP.unz_ninf, FP.unz_pinf, FP.unz_nzero, FP.unz_fin, Fmt.add, unz_zeroIf] <;>
    (try rfl)

theorem congr_add (h : a.unz = a'.unz) (h' : b.unz = b'.unz) : (φ.add m a b).unz = (φ.add m a' b').unz := by
  rw [← unz_add_unz, h, h', unz_add_unz]
theorem congr_sub (h : a.unz = a'.unz) (h' : b.unz = b'.unz) : (φ.sub m a b).unz = (φ.sub m a' b').unz :=
  congr_add φ m h (FP.congr_neg h')

/-- `subNS` with the second operand negated already. -/
theorem subNS_cases (a b : FP) : φ.subNS m a b = (match a, b.neg with
  | .nan, _ => .nan
  | _, .nan => .nan
  | .ninf, .pinf => .nan
  | .pinf, .ninf => .nan
  | .ninf, _ => .ninf
  | _, .ninf => .ninf
  | .pinf, _ => .pinf
  | _, .pinf => .pinf
  | a, b =>
    if a.q + b.q = 0 then
      (if a.signbit == b.signbit then FP.mkZero a.signbit else FP.mkZero (decide (m = .D)))
    else φ.roundNS m (a.q + b.q)) := rfl

theorem unz_subNS_unz (a b : FP) : (φ.subNS m a.unz b.unz).unz = (φ.subNS m a b).unz := by
  have hb : b.unz.neg = b.neg ∨ (b.unz.neg = .nzero ∧ b.neg = .fin 0) := by
    cases b <;> simp [FP.neg]
  rw [subNS_cases, subNS_cases]
  rcases hb with hb | ⟨hb, hb'⟩
  · rw [hb]
    cases a <;> cases b.neg <;> simp only [FP.unz_nan, FP.unz_ninf, FP.unz_pinf, FP.unz_nzero, FP.unz_fin, unz_zeroIf] <;>
      (try rfl)
  · rw [hb, hb']
    cases a <;> simp only [FP.unz_nan, FP.unz_ninf, FP.unz_pinf, FP.unz_nzero, FP.unz_fin, unz_zeroIf] <;>
      (try rfl)
theorem congr_subNS (h : a.unz = a'.unz) (h' : b.unz = b'.unz) : (φ.subNS m a b).unz = (φ.subNS m a' b').unz := by
  rw [← unz_subNS_unz, h, h', unz_subNS_unz]

theorem unz_un_unz (f : ℝ → ℝ) (vn vp : FP) (a : FP) : (φ.un m f vn vp a.unz).unz = (φ.un m f vn vp a).unz := by
  cases a <;> simp only [FP.unz, Fmt.un]
  simp only [Rat.cast_zero]
  split_ifs with h
  · rw [h, round_zero]
  · rfl
theorem congr_un (f : ℝ → ℝ) (vn vp : FP) (h : a.unz = a'.unz) : (φ.un m f vn vp a).unz = (φ.un m f vn vp a').unz := by
  rw [← unz_un_unz, h, unz_un_unz]

theorem unz_sqrt_unz (a : FP) : (φ.sqrt m a.unz).unz = (φ.sqrt m a).unz := by
  cases a <;> simp [FP.unz, Fmt.sqrt, Fmt.un]
theorem congr_sqrt (h : a.unz = a'.unz) : (φ.sqrt m a).unz = (φ.sqrt m a').unz := by
  rw [← unz_sqrt_unz, h, unz_sqrt_unz]
theorem acosh_unz (a : FP) : φ.acosh m a.unz = φ.acosh m a := by
  cases a <;> simp [FP.unz, Fmt.acosh]
theorem congr_acosh (h : a.unz = a'.unz) : φ.acosh m a = φ.acosh m a' := by rw [← acosh_unz, h, acosh_unz]
theorem sqrtX_unz (a : FP) : φ.sqrtX m a.unz = φ.sqrtX m a := by
  cases a <;> simp [FP.unz, Fmt.sqrtX, Fmt.unX, FP.differs]
theorem congr_sqrtX (h : a.unz = a'.unz) : φ.sqrtX m a = φ.sqrtX m a' := by rw [← sqrtX_unz, h, sqrtX_unz]

/-- Division by the same number, not zero. -/
theorem unz_div_unz (a b : FP) (hb : b.isZero = false) : (φ.div m a.unz b.unz).unz = (φ.div m a b).unz := by
  have hbz : b.unz = b := by cases b <;> simp_all [FP.isZero]
  rw [hbz]
  cases a <;> try rfl
  cases b <;> simp_all [Fmt.div, FP.isZero, FP.isInf]
theorem unz_eq_of {a b : FP} (hb : b.isZero = false) (h : a.unz = b.unz) : a = b := by
  cases a <;> cases b <;> simp_all [FP.isZero]
theorem congr_div (h : a.unz = a'.unz) (h' : b.unz = b'.unz) (hb : b.isZero = false) :
    (φ.div m a b).unz = (φ.div m a' b').unz := by
  have hb' : b'.isZero = false := by rw [← FP.isZero_unz, ← h', FP.isZero_unz, hb]
  rw [← unz_div_unz φ m a b hb, h, h', unz_div_unz φ m a' b' hb']
theorem divX_unz (a b : FP) (hb : b.isZero = false) : φ.divX m a.unz b.unz = φ.divX m a b := by
  have hbz : b.unz = b := by cases b <;> simp_all [FP.isZero]
  rw [hbz]
  cases a <;> try rfl
  cases b <;> simp_all [Fmt.divX, FP.isZero, FP.isInf]
theorem congr_divX (h : a.unz = a'.unz) (h' : b.unz = b'.unz) (hb : b.isZero = false) :
    φ.divX m a b = φ.divX m a' b' := by
  have hb' : b'.isZero = false := by rw [← FP.isZero_unz, ← h', FP.isZero_unz, hb]
  rw [← divX_unz φ m a b hb, h, h', divX_unz φ m a' b' hb']

theorem unz_root_unz (n : ℕ) (a : FP) (hn : n ≠ 0) : (φ.root m n a.unz).unz = (φ.root m n a).unz := by
  cases a <;> simp [FP.unz, Fmt.root, rootR, hn]
theorem congr_root (n : ℕ) (hn : n ≠ 0) (h : a.unz = a'.unz) : (φ.root m n a).unz = (φ.root m n a').unz := by
  rw [← unz_root_unz φ m n a hn, h, unz_root_unz φ m n a' hn]

theorem unz_arcNS_unz (f : ℝ → ℝ) (vn vp : ℝ) (a : FP) : (φ.arcNS m f vn vp a.unz).unz = (φ.arcNS m f vn vp a).unz := by
  cases a <;> simp only [FP.unz_nan, FP.unz_ninf, FP.unz_pinf, FP.unz_nzero, FP.unz_fin, Fmt.arcNS, Rat.cast_zero]
  split_ifs with h
  · rw [h]
    rw [rndMP_zero]; rfl
  · rfl
theorem congr_arcNS (f : ℝ → ℝ) (vn vp : ℝ) (h : a.unz = a'.unz) : (φ.arcNS m f vn vp a).unz = (φ.arcNS m f vn vp a').unz := by
  rw [← unz_arcNS_unz, h, unz_arcNS_unz]

theorem congr_q (h : a.unz = a'.unz) : a.q = a'.q := by rw [← FP.q_unz, h, FP.q_unz]
theorem congr_fmaNS {c c' : FP} (h : c.unz = c'.unz) : (φ.fmaNS m a b c).unz = (φ.fmaNS m a b c').unz := by
  unfold Fmt.fmaNS
  rw [unz_zeroIf, unz_zeroIf, congr_q h]

theorem conv_unz (a : FP) : (φ.conv m a.unz).unz = (φ.conv m a).unz := by
  cases a <;> simp [Fmt.conv]
theorem congr_conv (h : a.unz = a'.unz) : (φ.conv m a).unz = (φ.conv m a').unz := by rw [← conv_unz, h, conv_unz]

@[simp] theorem convertRndd_unz (a : FP) : φ.convertRndd a.unz = φ.convertRndd a := by
  cases a <;> first | rfl | simp [Fmt.convertRndd, Fmt.conv, FP.isZero]
@[simp] theorem convertRndn_unz (a : FP) : φ.convertRndn a.unz = φ.convertRndn a := by
  cases a <;> first | rfl | simp [Fmt.convertRndn, Fmt.conv, FP.isZero]
@[simp] theorem convertRndu_unz (a : FP) : φ.convertRndu a.unz = φ.convertRndu a := by
  cases a <;> first | rfl | simp [Fmt.convertRndu, Fmt.conv, FP.isZero]
@[simp] theorem convertHull_unz (x : Itv) : φ.convertHull x.unz = φ.convertHull x := by simp [Fmt.convertHull]
theorem congr_convertHull {x x' : Itv} (h : x.unz = x'.unz) : φ.convertHull x = φ.convertHull x' := by
  rw [← convertHull_unz, h, convertHull_unz]

theorem congr_shiftBox (k : ℤ) {cl cu cl' cu' : FP} (h : cl.unz = cl'.unz) (h' : cu.unz = cu'.unz) :
    (φ.shiftBox k a b cl cu).unz = (φ.shiftBox k a b cl' cu').unz :=
  Itv.eq_of_unz (congr_conv φ _ (congr_fmaNS φ _ h)) (congr_conv φ _ (congr_fmaNS φ _ h'))
theorem congr_mirrorBox (k : ℤ) {cl cu cl' cu' : FP} (h : cl.unz = cl'.unz) (h' : cu.unz = cu'.unz) :
    (φ.mirrorBox k a b cl cu).unz = (φ.mirrorBox k a b cl' cu').unz :=
  Itv.eq_of_unz (FP.congr_neg (congr_conv φ _ (congr_fmaNS φ _ h'))) (FP.congr_neg (congr_conv φ _ (congr_fmaNS φ _ h)))

theorem congr_leftBox {box box' : ℤ → FP → FP → Itv} (hb : ∀ k a b, (box k a b).unz = (box' k a b).unz) {x x' : Itv}
    (h : x.unz = x'.unz) : (φ.leftBox box x).unz = (φ.leftBox box' x').unz := by
  have hl := Itv.lo_of_unz h
  have e1 : x.lo.feq .ninf = x'.lo.feq .ninf := FP.congr_feq hl rfl
  have e2 : x.lo < .fin 0 ↔ x'.lo < .fin 0 := by rw [← FP.lt_unz_left, hl, FP.lt_unz_left]
  unfold Fmt.leftBox
  rw [e1, congr_q hl]
  by_cases c1 : x'.lo.feq .ninf = true
  · rw [if_pos c1, if_pos c1]
  rw [if_neg c1, if_neg c1]
  by_cases c2 : x'.lo < .fin 0
  · rw [if_pos (e2.mpr c2), if_pos c2]
    exact Itv.congr_firstOf (hb _ _ _) (hb _ _ _) h
  · rw [if_neg (fun c => c2 (e2.mp c)), if_neg c2]
    exact Itv.congr_firstOf (hb _ _ _) (hb _ _ _) h

theorem congr_rightBox (quo : ℚ → ℚ → ℤ) {box box' : ℤ → FP → FP → Itv} (hb : ∀ k a b, (box k a b).unz = (box' k a b).unz)
    {x x' : Itv} (h : x.unz = x'.unz) : (φ.rightBox quo box x).unz = (φ.rightBox quo box' x').unz := by
  have hl := Itv.hi_of_unz h
  have e1 : x.hi.feq .pinf = x'.hi.feq .pinf := FP.congr_feq hl rfl
  have e2 : .fin 0 < x.hi ↔ .fin 0 < x'.hi := by rw [← FP.lt_unz_right, hl, FP.lt_unz_right]
  unfold Fmt.rightBox
  rw [e1, congr_q hl]
  by_cases c1 : x'.hi.feq .pinf = true
  · rw [if_pos c1, if_pos c1]
  rw [if_neg c1, if_neg c1]
  by_cases c2 : .fin 0 < x'.hi
  · rw [if_pos (e2.mpr c2), if_pos c2]
    exact Itv.congr_firstOf (hb _ _ _) (hb _ _ _) h
  · rw [if_neg (fun c => c2 (e2.mp c)), if_neg c2]
    exact Itv.congr_firstOf (hb _ _ _) (hb _ _ _) h

end Fmt

/-! ### Reverse functions and cancellation -/

namespace Itv
variable (φ : Fmt) (c x y : Itv)

theorem mk_unz {a a' b b' : FP} (h : a.unz = a'.unz) (h' : b.unz = b'.unz) : (Itv.mk a b).unz = (Itv.mk a' b').unz :=
  eq_of_unz h h'

theorem sqrRev_unz : (c.unz.sqrRev φ x.unz).unz = (c.sqrRev φ x).unz := by
  simp only [Itv.sqrRev, isValid_unz, isEmpty_unz, unz_hi, unz_lo, FP.ltb_unz_left, FP.lt_unz_left, φ.sqrtX_unz]
  split_ifs
  · rfl
  · exact congr_revHull (mk_unz rfl (φ.unz_sqrt_unz .U _)) x.unz_unz _ _
  · exact congr_revHull (mk_unz (φ.unz_sqrt_unz .D _) (φ.unz_sqrt_unz .U _)) x.unz_unz _ _

theorem acoshX_unz (m : Rnd) {a : FP} (h : ¬a < .fin 1) : φ.acoshX m a.unz = φ.acoshX m a := by
  cases a with
  | nzero => exact absurd (by decide) h
  | _ => rfl

theorem coshRev_unz : (c.unz.coshRev φ x.unz).unz = (c.coshRev φ x).unz := by
  simp only [Itv.coshRev, isValid_unz, isEmpty_unz, unz_hi, unz_lo, FP.ltb_unz_left, FP.lt_unz_left, φ.acosh_unz]
  by_cases h : (!c.isValid || !x.isValid || c.isEmpty || x.isEmpty || c.hi.ltb (.fin 1)) = true
  · rw [if_pos h, if_pos h]
  have hh : ¬c.hi < .fin 1 := by
    intro hc
    apply h
    rw [show c.hi.ltb (.fin 1) = true from hc, Bool.or_true]
  rw [if_neg h, if_neg h, acoshX_unz φ .U hh]
  by_cases h1 : c.lo < .fin 1
  · rw [if_pos h1, if_pos h1]
    exact congr_revHull rfl x.unz_unz _ _
  · rw [if_neg h1, if_neg h1, acoshX_unz φ .D h1]
    exact congr_revHull rfl x.unz_unz _ _

theorem absRev_unz : (c.unz.absRev x.unz).unz = (c.absRev x).unz := by
  simp only [Itv.absRev, isValid_unz, isEmpty_unz, unz_hi, unz_lo, FP.ltb_unz_left, FP.lt_unz_left, FP.lt_unz_right]
  have hp : (Itv.mk (if .fin 0 < c.lo then c.lo.unz else .fin 0) c.hi.unz).unz =
      (Itv.mk (if .fin 0 < c.lo then c.lo else .fin 0) c.hi).unz := by
    refine mk_unz ?_ c.hi.unz_unz
    split_ifs <;> simp
  split_ifs at hp ⊢
  all_goals first
    | rfl
    | exact congr_hull (congr_inter hp x.unz_unz) (congr_inter (congr_negI hp) x.unz_unz)

theorem sinBox_unz {cl cu cl' cu' : FP} (h : cl.unz = cl'.unz) (h' : cu.unz = cu'.unz) (k : ℤ) (a b : FP) :
    (φ.sinBox cl cu k a b).unz = (φ.sinBox cl' cu' k a b).unz := by
  unfold Fmt.sinBox; split_ifs
  · exact φ.congr_shiftBox k h h'
  · exact φ.congr_mirrorBox _ h h'
theorem cosBox_unz {cl cu cl' cu' : FP} (h : cl.unz = cl'.unz) (h' : cu.unz = cu'.unz) (k : ℤ) (a b : FP) :
    (φ.cosBox cl cu k a b).unz = (φ.cosBox cl' cu' k a b).unz := by
  unfold Fmt.cosBox; split_ifs
  · exact φ.congr_shiftBox k h h'
  · exact φ.congr_mirrorBox _ h h'

theorem sinRev_unz : (c.unz.sinRev φ x.unz).unz = (c.sinRev φ x).unz := by
  have hc : (c.unz.inter ⟨.fin (-1), .fin 1⟩).unz = (c.inter ⟨.fin (-1), .fin 1⟩).unz := congr_inter c.unz_unz rfl
  simp only [Itv.sinRev, isValid_unz, isEmpty_unz, congr_isEmpty hc, congr_equal hc rfl]
  split_ifs
  · rfl
  · exact hc
  · exact x.unz_unz
  · have hb := sinBox_unz φ (φ.congr_arcNS .D Real.arcsin 0 0 (lo_of_unz hc)) (φ.congr_arcNS .U Real.arcsin 0 0 (hi_of_unz hc))
    exact congr_hull (φ.congr_leftBox hb x.unz_unz) (φ.congr_rightBox _ hb x.unz_unz)

theorem cosRev_unz : (c.unz.cosRev φ x.unz).unz = (c.cosRev φ x).unz := by
  have hc : (c.unz.inter ⟨.fin (-1), .fin 1⟩).unz = (c.inter ⟨.fin (-1), .fin 1⟩).unz := congr_inter c.unz_unz rfl
  simp only [Itv.cosRev, isValid_unz, isEmpty_unz, congr_isEmpty hc, congr_equal hc rfl]
  split_ifs
  · rfl
  · exact hc
  · exact x.unz_unz
  · have hb := cosBox_unz φ (φ.congr_arcNS .D Real.arccos 0 0 (hi_of_unz hc)) (φ.congr_arcNS .U Real.arccos 0 0 (lo_of_unz hc))
    exact congr_hull (φ.congr_leftBox hb x.unz_unz) (φ.congr_rightBox _ hb x.unz_unz)

theorem tanRev_unz : (c.unz.tanRev φ x.unz).unz = (c.tanRev φ x).unz := by
  simp only [Itv.tanRev, isValid_unz, isEmpty_unz, unz_lo, unz_hi]
  split_ifs
  · rfl
  · have hb := fun k a b => φ.congr_shiftBox (a := a) (b := b) k
      (φ.congr_arcNS .D Real.arctan (-(Real.pi / 2)) (Real.pi / 2) c.lo.unz_unz)
      (φ.congr_arcNS .U Real.arctan (-(Real.pi / 2)) (Real.pi / 2) c.hi.unz_unz)
    exact congr_hull (φ.congr_leftBox hb x.unz_unz) (φ.congr_rightBox _ hb x.unz_unz)

theorem revOp_unz (op : RevOp) : (op.fn φ c.unz x.unz).unz = (op.fn φ c x).unz := by
  cases op
  exacts [sqrRev_unz φ c x, absRev_unz c x, coshRev_unz φ c x, sinRev_unz φ c x, cosRev_unz φ c x, tanRev_unz φ c x]

theorem isZero_of_lt {a : FP} (h : a < .fin 0 ∨ .fin 0 < a) : a.isZero = false := by
  cases a with
  | nzero => exact absurd h (by decide)
  | fin q =>
    have : q ≠ 0 := by
      rintro rfl
      exact absurd h (by decide)
    simp [FP.isZero, this]
  | _ => rfl

theorem isZero_of_feq {a : FP} (h : ¬a.feq (.fin 0) = true) : a.isZero = false := by
  cases a with
  | nzero => exact absurd (by decide) h
  | fin q =>
    have : q ≠ 0 := by
      rintro rfl
      exact absurd (by decide) h
    simp [FP.isZero, this]
  | _ => rfl

theorem unz_self {a : FP} (h : a.isZero = false) : a.unz = a := by
  cases a <;> simp_all [FP.isZero]

theorem isZero_of_not_le {a : FP} (h : ¬a ≤ .fin 0) : a.isZero = false := by
  cases a with
  | nzero => exact absurd (by decide) h
  | fin q =>
    have : q ≠ 0 := by
      rintro rfl
      exact absurd (by decide) h
    simp [FP.isZero, this]
  | _ => rfl

theorem isZero_of_not_ge {a : FP} (h : ¬.fin 0 ≤ a) : a.isZero = false := by
  cases a with
  | nzero => exact absurd (by decide) h
  | fin q =>
    have : q ≠ 0 := by
      rintro rfl
      exact absurd (by decide) h
    simp [FP.isZero, this]
  | _ => rfl

theorem pownRevV_unz (p : ℤ) : (c.unz.pownRevV φ x.unz p).unz = (c.pownRevV φ x p).unz := by
  simp only [Itv.pownRevV, isValid_unz, isEmpty_unz, unz_lo, unz_hi, isMember_unz, FP.le_unz_left, FP.le_unz_right, FP.lt_unz_left,
    FP.feq_unz_left]
  split_ifs with h1 h2 h3 h4 h5 h6 h7 h8 h9 h10 h11 h12 h13 h14 h15
  all_goals first
    | rfl
    | exact x.unz_unz
    | exact congr_inter x.unz_unz c.unz_unz
    | skip
  · rw [unz_self (isZero_of_not_le h7)]
    exact congr_revHull rfl x.unz_unz _ _
  · rw [unz_self (isZero_of_not_le h7), unz_self (isZero_of_not_le h8)]
    exact congr_revHull rfl x.unz_unz _ _
  · have hr := φ.unz_root_unz .U p.toNat c.hi (by omega)
    exact congr_inter x.unz_unz (mk_unz (FP.congr_neg hr) hr)
  · have hr := φ.unz_root_unz .U p.toNat c.hi (by omega)
    have hl := φ.unz_root_unz .D p.toNat c.lo (by omega)
    exact congr_hull (congr_inter x.unz_unz (mk_unz (FP.congr_neg hr) (FP.congr_neg hl))) (congr_inter x.unz_unz (mk_unz hl hr))
  all_goals try exact congr_inter x.unz_unz (mk_unz (φ.unz_root_unz .D p.toNat c.lo (by omega)) (φ.unz_root_unz .U p.toNat c.hi (by omega)))
  · exact congr_inter x.unz_unz (congr_dropIf rfl x.unz_unz _ _)
  · rw [unz_self (isZero_of_feq ‹¬c.lo.feq (.fin 0) = true›)]
    exact congr_inter x.unz_unz (congr_dropIf rfl x.unz_unz _ _)
  · rw [unz_self (isZero_of_feq ‹¬c.hi.feq (.fin 0) = true›)]
    exact congr_inter x.unz_unz (congr_dropIf rfl x.unz_unz _ _)
  · rw [unz_self (isZero_of_feq ‹¬c.hi.feq (.fin 0) = true›), unz_self (isZero_of_feq ‹¬c.lo.feq (.fin 0) = true›)]
    exact congr_inter x.unz_unz (congr_dropIf rfl x.unz_unz _ _)
  · rw [unz_self (isZero_of_not_le (fun h => h13 (Or.inr h))), unz_self (isZero_of_not_ge (fun h => h13 (Or.inl h)))]
    exact congr_hull (congr_inter x.unz_unz (congr_dropIf rfl x.unz_unz _ _)) (congr_inter x.unz_unz (congr_dropIf rfl x.unz_unz _ _))

theorem pownRev_unz (p : ℤ) : (c.unz.pownRev φ x.unz p).map Itv.unz = (c.pownRev φ x p).map Itv.unz := by
  simp only [Itv.pownRev, isValid_unz, isEmpty_unz, unz_hi, FP.le_unz_left]
  split_ifs
  · rfl
  · simp only [Option.map_some, pownRevV_unz]

theorem congr_twoSum {a b a' b' : FP} (h : a.unz = a'.unz) (h' : b.unz = b'.unz) :
    (φ.twoSum a b).1.unz = (φ.twoSum a' b').1.unz ∧ (φ.twoSum a b).2.unz = (φ.twoSum a' b').2.unz := by
  have h1 := φ.congr_add .N h h'
  have h2 := φ.congr_sub .N h1 h'
  have h3 := φ.congr_sub .N h1 h2
  exact ⟨h1, φ.congr_add .N (φ.congr_sub .N h h2) (φ.congr_sub .N h' h3)⟩

theorem congr_pairLt {r s r' s' : FP × FP} (h : r.1.unz = r'.1.unz ∧ r.2.unz = r'.2.unz) (h' : s.1.unz = s'.1.unz ∧ s.2.unz = s'.2.unz) :
    pairLt r s = pairLt r' s' := by
  unfold pairLt
  rw [FP.congr_ltb h.1 h'.1, FP.congr_ltb h.2 h'.2, FP.congr_feq h.1 h'.1]

theorem cancelMinus_unz : (x.unz.cancelMinus φ y.unz).unz = (x.cancelMinus φ y).unz := by
  have e1 := congr_pairLt (congr_twoSum φ x.hi.unz_unz (FP.congr_neg x.lo.unz_unz)) (congr_twoSum φ y.hi.unz_unz (FP.congr_neg y.lo.unz_unz))
  have e2 := congr_pairLt (congr_twoSum φ y.lo.unz_unz (FP.congr_neg x.lo.unz_unz)) (congr_twoSum φ y.hi.unz_unz (FP.congr_neg x.hi.unz_unz))
  simp only [Itv.cancelMinus, isValid_unz, unz_lo, unz_hi, FP.feq_unz_left, overlap_unz, e1, e2]
  split_ifs
  all_goals first
    | rfl
    | exact x.unz_unz
    | exact mk_unz (φ.unz_subNS_unz _ _ _) (φ.unz_subNS_unz _ _ _)

/-- Both intervals without signs of zeros. -/
def _root_.P1788.RevPair.unz (r : RevPair) : RevPair := { r with fst := r.fst.unz, snd := r.snd.unz }

theorem revPair_unz {f s f' s' : Itv} {b1 b2 b3 b4 b1' b2' b3' b4' : Bool} (h : f.unz = f'.unz) (h' : s.unz = s'.unz) (h1 : b1 = b1')
    (h2 : b2 = b2') (h3 : b3 = b3') (h4 : b4 = b4') : (RevPair.mk f s b1 b2 b3 b4).unz = (RevPair.mk f' s' b1' b2' b3' b4').unz := by
  subst h1 h2 h3 h4
  simp only [RevPair.unz, h, h']

theorem revPair_ite {c : Prop} [Decidable c] {f f' g g' : RevPair} (h : c → f.unz = f'.unz) (h' : ¬c → g.unz = g'.unz) :
    (if c then f else g).unz = (if c then f' else g').unz := by
  split_ifs with hc
  · exact h hc
  · exact h' hc

theorem sign_of_valid {b : Itv} (hv : b.isValid = true) (he : b.isEmpty = false) :
    (b.hi < .fin 0 → b.lo.isZero = false) ∧ (.fin 0 < b.lo → b.hi.isZero = false) := by
  obtain ⟨l, u⟩ := b
  have hl : l.leb u = true := by
    simp only [isEmpty, hv, Bool.true_and] at he
    simp only [isValid, he, Bool.false_or, Bool.and_eq_true] at hv
    exact hv.1.1
  constructor
  · intro h0
    have h : u.ltb (.fin 0) = true := h0
    clear h0
    cases l <;> cases u <;> simp_all [FP.leb, FP.ltb, FP.isZero]
    · exact absurd hl (not_le.mpr h)
    · rintro rfl; exact absurd hl (not_le.mpr h)
  · intro h0
    have h : FP.ltb (.fin 0) l = true := h0
    clear h0
    cases l <;> cases u <;> simp_all [FP.leb, FP.ltb, FP.isZero]
    · exact absurd hl (not_le.mpr h)
    · rintro rfl; exact absurd hl (not_le.mpr h)

local macro "nz" hlo:ident hhi:ident : tactic => `(tactic| first
  | exact isZero_of_lt (Or.inl ‹_›) | exact isZero_of_lt (Or.inr ‹_›)
  | exact isZero_of_lt (Or.inl (And.left ‹_ ∧ _›)) | exact isZero_of_lt (Or.inr (And.left (And.right ‹_ ∧ _ ∧ _›)))
  | exact (sign_of_valid (by simp_all) (by simp_all)).1 ‹_› | exact (sign_of_valid (by simp_all) (by simp_all)).2 ‹_›
  | exact $hlo (And.left ‹_ ∧ _›) | exact $hhi (And.left ‹_ ∧ _›))

theorem mulRevPairT_unz (b c : Itv) : (φ.mulRevPairT b.unz c.unz).unz = (φ.mulRevPairT b c).unz := by
  simp only [Fmt.mulRevPairT, isValid_unz, isEmpty_unz, isEntire_unz, isZeroItv_unz, isMember_unz, unz_lo, unz_hi, FP.le_unz_left,
    FP.le_unz_right, FP.lt_unz_left, FP.lt_unz_right, FP.feq_unz_left]
  by_cases hz : Fmt.isZeroItv b = true
  · simp only [hz, if_true]
    repeat' (refine revPair_ite (fun _ => ?_) (fun _ => ?_))
    all_goals rfl
  have hlo : b.hi.feq (.fin 0) = true → b.lo.isZero = false := fun h => isZero_of_feq fun h' => hz (by simp [Fmt.isZeroItv, h, h'])
  have hhi : b.lo.feq (.fin 0) = true → b.hi.isZero = false := fun h => isZero_of_feq fun h' => hz (by simp [Fmt.isZeroItv, h, h'])
  repeat' (refine revPair_ite (fun _ => ?_) (fun _ => ?_))
  all_goals first
    | rfl
    | (apply revPair_unz
       all_goals first
         | rfl
         | (refine mk_unz ?_ ?_ <;> first | rfl | (refine φ.unz_div_unz _ _ _ ?_; nz hlo hhi))
         | (refine φ.divX_unz _ _ _ ?_; nz hlo hhi))

end Itv
end P1788
