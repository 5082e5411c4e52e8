import Verif.SpecExpr
import Verif.Props.C20
import Verif.Props.C20b

/-! Helper lemmas: the table of operations. -/

namespace P1788
open Bornology
variable {φ : Fmt}

theorem isTrunc_truncR (r : ℝ) : IsTrunc r (truncR r) := by
  unfold truncR IsTrunc
  split_ifs with h
  · have h1 := Int.floor_le r
    have h2 := Int.lt_floor_add_one r
    have h3 : (0:ℝ) ≤ ⌊r⌋ := by exact_mod_cast Int.floor_nonneg.mpr h
    rw [abs_of_nonneg h, abs_of_nonneg h3]
    exact ⟨h1, h2, mul_nonneg h h3⟩
  · push Not at h
    have h1 := Int.le_ceil r
    have h2 := Int.ceil_lt_add_one r
    have h3 : ((⌈r⌉:ℤ):ℝ) ≤ 0 := by exact_mod_cast Int.ceil_le.mpr (by push_cast; exact h.le)
    rw [abs_of_neg h, abs_of_nonpos h3]
    exact ⟨by linarith, by linarith, mul_nonneg_of_nonpos_of_nonpos h.le h3⟩

theorem isRoundEven_roundEvenR (r : ℝ) : IsRoundEven r (roundEvenR r) := by
  unfold roundEvenR IsRoundEven
  have h1 := Int.floor_le r
  have h2 := Int.lt_floor_add_one r
  split_ifs with h h' h'
  · rw [abs_of_nonneg (by linarith)]
    exact ⟨h.le, fun e => absurd e h.ne⟩
  · push_cast
    rw [abs_of_nonpos (by linarith)]
    exact ⟨by linarith, fun e => by linarith⟩
  · rw [abs_of_nonneg (by linarith)]
    exact ⟨by linarith, fun _ => ‹_›⟩
  · push_cast
    rw [abs_of_nonpos (by linarith)]
    refine ⟨by linarith, fun _ => ?_⟩
    rw [Int.even_add_one]; assumption

theorem isRoundAway_roundAwayR (r : ℝ) : IsRoundAway r (roundAwayR r) := by
  unfold roundAwayR IsRoundAway
  split_ifs with h
  · have h1 := Int.floor_le (r + 1 / 2)
    have h2 := Int.lt_floor_add_one (r + 1 / 2)
    generalize ⌊r + 1 / 2⌋ = n at *
    refine ⟨abs_le.mpr ⟨by linarith, by linarith⟩, fun e => ?_⟩
    rcases abs_choice (r - n) with h' | h' <;> rw [h'] at e
    · linarith
    · rw [abs_of_nonneg h, abs_of_nonneg (by linarith)]; linarith
  · push Not at h
    have h1 := Int.le_ceil (r - 1 / 2)
    have h2 := Int.ceil_lt_add_one (r - 1 / 2)
    generalize ⌈r - 1 / 2⌉ = n at *
    refine ⟨abs_le.mpr ⟨by linarith, by linarith⟩, fun e => ?_⟩
    rcases abs_choice (r - n) with h' | h' <;> rw [h'] at e
    · rw [abs_of_neg h, abs_of_nonpos (by linarith)]; linarith
    · linarith

/-- The format has no intervals that are bad for the tangent (C11). -/
def NoCritical (φ : Fmt) : Prop := ∀ x : Itv, x.Ok φ → ¬ TanBad φ x

theorem noCritical_binary32 : NoCritical binary32 := by
  intro x hx hb
  refine absurd (hb.critical hx) ?_
  have := Real.pi_gt_d20
  have := Real.pi_lt_d20
  refine no_critical (k := 13176794) ?_ ?_ ?_ <;>
    simp only [binary32] <;> norm_num at * <;> linarith

theorem noCritical_x87ext : NoCritical x87ext := by
  intro x hx hb
  refine absurd (hb.critical hx) ?_
  have := Real.pi_gt_d20
  have := Real.pi_lt_d20
  refine no_critical (k := 14488038916154245684) ?_ ?_ ?_ <;>
    simp only [x87ext] <;> norm_num at * <;> linarith

theorem Tightest.of_eq' {R : Itv} {S T : Set ℝ} (h : Tightest φ R S) (e : T = S) : Tightest φ R T := e ▸ h

theorem Op1.tight {op : Op1} (ht : op ≠ .tan) {x : Itv} (hx : x.Ok φ) :
    Tightest φ (op.bare φ x) (op.fn '' (x.set ∩ op.dom)) := by
  cases op <;> simp only [Op1.bare, Op1.fn, Op1.dom, Set.inter_univ]
  case pos => simpa using C04_pos φ hx
  case neg => exact (C04_neg φ hx).1.of_eq' (by ext z; exact ⟨fun ⟨a, h, e⟩ => ⟨a, h, e.symm⟩, fun ⟨a, h, e⟩ => ⟨a, h, e.symm⟩⟩)
  case recip => exact (C03_recip φ hx).of_eq' (by ext z; exact ⟨fun ⟨a, h, e⟩ => ⟨a, h.1, h.2, e.symm⟩, fun ⟨a, h, h', e⟩ => ⟨a, ⟨h, h'⟩, e.symm⟩⟩)
  case sqr => exact C04_sqr φ hx
  case sqrt => exact C04_sqrt φ hx
  case abs => exact (C04_abs φ hx).1
  case pown p => exact C07_pown φ hx p
  case exp => exact C09_exp hx
  case exp2 => exact C09_exp2 hx
  case exp10 => exact C09_exp10 hx
  case log => exact C09_log hx
  case log2 => exact C09_log2 hx
  case log10 => exact C09_log10 hx
  case sin => exact C10_sin hx
  case cos => exact C10_cos hx
  case tan => exact absurd rfl ht
  case asin => exact C12_asin hx
  case acos => exact C12_acos hx
  case atan => exact C12_atan hx
  case sinh => exact C13_sinh hx
  case cosh => exact C13_cosh hx
  case tanh => exact C13_tanh hx
  case asinh => exact C13_asinh hx
  case acosh => exact C13_acosh hx
  case atanh => exact C13_atanh hx
  case sign => exact C14_sign hx
  case ceil => exact C14_ceil hx
  case floor => exact C14_floor hx
  case trunc => exact C14_trunc _ isTrunc_truncR hx
  case roundEven => exact C14_round_ties_to_even _ isRoundEven_roundEvenR hx
  case roundAway => exact C14_round_ties_to_away _ isRoundAway_roundAwayR hx

theorem tight_of_eq {R : Itv} {S : Set ℝ} (h : R.Ok φ) (e : R.set = S) : Tightest φ R S :=
  ⟨h, e ▸ le_rfl, fun _ _ hs => e ▸ hs⟩

theorem range2_image (f : ℝ → ℝ → ℝ) (dom : Set (ℝ × ℝ)) (X Y : Set ℝ) :
    (fun p : ℝ × ℝ => f p.1 p.2) '' ((X ×ˢ Y) ∩ dom) = range2 f dom X Y := by
  ext z; constructor
  · rintro ⟨⟨a, b⟩, ⟨⟨ha, hb⟩, h⟩, rfl⟩; exact ⟨a, ha, b, hb, h, rfl⟩
  · rintro ⟨a, ha, b, hb, h, rfl⟩; exact ⟨(a, b), ⟨⟨ha, hb⟩, h⟩, rfl⟩

theorem Op2.tight (op : Op2) {x y : Itv} (hx : x.Ok φ) (hy : y.Ok φ) :
    Tightest φ (op.bare φ x y) (op.fn '' ((x.set ×ˢ y.set) ∩ op.dom)) := by
  cases op <;> simp only [Op2.bare, Op2.fn, Op2.dom, Set.inter_univ]
  case add => exact (C01_add φ hx hy).of_eq' (image_prod_eq _ _ _)
  case sub => exact (C01_sub φ hx hy).of_eq' (image_prod_eq _ _ _)
  case mul => exact (C02_mul φ hx hy).of_eq' (image_prod_eq _ _ _)
  case div =>
    refine (C03_div φ hx hy).of_eq' ((range2_image (fun a b => a / b) _ _ _).trans ?_)
    rfl
  case pow => exact (C08_pow hx hy).of_eq' (range2_image (fun a b => a ^ b) _ _ _)
  case atan2 => exact (C12_atan2 hx hy).of_eq' (range2_image (fun b a => Complex.arg ⟨a, b⟩) _ _ _)
  case min => exact tight_of_eq (C05_min φ hx hy).1 ((C05_min φ hx hy).2.trans (image_prod_eq (fun p => p.1 ⊓ p.2) _ _).symm)
  case max => exact tight_of_eq (C05_max φ hx hy).1 ((C05_max φ hx hy).2.trans (image_prod_eq (fun p => p.1 ⊔ p.2) _ _).symm)

theorem tanI_ok {x : Itv} (hx : x.Ok φ) : (φ.tanI x).Ok φ := by
  rcases hx.cases with rfl | hN
  · have : φ.tanI Itv.empty = Itv.empty := by simp [Fmt.tanI]
    rw [this]; exact Itv.ok_empty φ
  by_cases hinf : x.lo = .ninf ∨ x.hi = .pinf
  · rw [tanI_inf hN hinf]; exact Itv.ok_entire φ
  obtain ⟨a, b, ha, hb⟩ := fin_bounds hN hinf
  obtain ⟨h1, h2, h3, n1, i1, e1, n2, i2, e2⟩ := tanI_fin hN ha hb
  rcases lt_or_ge (φ.rdE (Real.pi:ℝ)) ((b - a : ℝ):EReal) with h | h
  · rw [h1 h]; exact Itv.ok_entire φ
  rcases lt_or_ge (φ.ruE (Real.tan b)) (φ.rdE (Real.tan a)) with h' | h'
  · rw [h2 h h']; exact Itv.ok_entire φ
  rw [h3 h h']
  refine Itv.NE.ok ⟨n1, n2, ?_, ?_, ?_, i1, i2⟩
  · rw [e1, e2]; exact h'
  · rw [e1]; exact ((φ.rdE_le _).trans_lt (EReal.coe_lt_top _)).ne
  · rw [e2]; exact ((EReal.bot_lt_coe _).trans_le (φ.le_ruE _)).ne'

theorem Op1.bare_ok (op : Op1) {x : Itv} (hx : x.Ok φ) : (op.bare φ x).Ok φ := by
  by_cases ht : op = .tan
  · subst ht; exact tanI_ok hx
  · exact (Op1.tight ht hx).1

theorem Op1.encl {op : Op1} (hs : op = .tan → NoCritical φ) {x : Itv} (hx : x.Ok φ) {t : ℝ} (h : t ∈ x.set)
    (hd : t ∈ op.dom) : op.fn t ∈ (op.bare φ x).set := by
  by_cases ht : op = .tan
  · subst ht; exact (C11_tan_partial hx (hs rfl x hx)).2.1 ⟨t, h, hd, rfl⟩
  · exact (Op1.tight ht hx).2.1 ⟨t, ⟨h, hd⟩, rfl⟩

theorem Op2.encl (op : Op2) {x y : Itv} (hx : x.Ok φ) (hy : y.Ok φ) {s t : ℝ} (h : s ∈ x.set) (h' : t ∈ y.set)
    (hd : (s, t) ∈ op.dom) : op.fn (s, t) ∈ (op.bare φ x y).set :=
  (op.tight hx hy).2.1 ⟨(s, t), ⟨⟨h, h'⟩, hd⟩, rfl⟩

/-! ### Decorations -/

/-- The part of `DecRight` that also holds for the tangent. -/
structure DecTrue {α : Type*} [TopologicalSpace α] [Bornology α] (f : α → ℝ) (dom X : Set α) (dx : Dec) (r : DItv) :
    Prop where
  not_ill : r.dec ≠ .ill
  le : r.dec ≤ dx
  true_claim : DecMeans f dom X r.set r.dec

theorem DecRight.toTrue {α : Type*} [TopologicalSpace α] [Bornology α] {f : α → ℝ} {dom X : Set α} {dx : Dec}
    {r : DItv} (h : DecRight f dom X dx r) : DecTrue f dom X dx r := ⟨h.not_ill, h.le, h.true_claim⟩

theorem Op1.right {op : Op1} (ht : op ≠ .tan) {x : DItv} (hx : x.Ok φ) (hn : x.dec ≠ .ill) :
    (op.decd φ x).itv = op.bare φ x.itv ∧ DecRight op.fn op.dom x.set x.dec (op.decd φ x) := by
  cases op <;> simp only [Op1.bare, Op1.decd, Op1.fn, Op1.dom]
  case pos => exact C20_pos hx hn
  case neg => exact C20_neg hx hn
  case recip => exact C20_recip hx hn
  case sqr => exact C20_sqr hx hn
  case sqrt => exact C20_sqrt hx hn
  case abs => exact C20_abs hx hn
  case pown p => exact C20_pown hx hn p
  case exp => exact C20_exp hx hn
  case exp2 => exact C20_exp2 hx hn
  case exp10 => exact C20_exp10 hx hn
  case log => exact C20_log hx hn
  case log2 => exact C20_log2 hx hn
  case log10 => exact C20_log10 hx hn
  case sin => exact C20_sin hx hn
  case cos => exact C20_cos hx hn
  case tan => exact absurd rfl ht
  case asin => exact C20_asin hx hn
  case acos => exact C20_acos hx hn
  case atan => exact C20_atan hx hn
  case sinh => exact C20_sinh hx hn
  case cosh => exact C20_cosh hx hn
  case tanh => exact C20_tanh hx hn
  case asinh => exact C20_asinh hx hn
  case acosh => exact C20_acosh hx hn
  case atanh => exact C20_atanh hx hn
  case sign => exact C20_sign hx hn
  case ceil => exact C20_ceil hx hn
  case floor => exact C20_floor hx hn
  case trunc => exact C20_trunc _ isTrunc_truncR hx hn
  case roundEven => exact C20_round_ties_to_even _ isRoundEven_roundEvenR hx hn
  case roundAway => exact C20_round_ties_to_away _ isRoundAway_roundAwayR hx hn

theorem Op1.decTrue {op : Op1} (hs : op = .tan → NoCritical φ) {x : DItv} (hx : x.Ok φ) (hn : x.dec ≠ .ill) :
    DecTrue op.fn op.dom x.set x.dec (op.decd φ x) := by
  by_cases ht : op = .tan
  · subst ht
    obtain ⟨-, h1, h2, h3⟩ := C20_tan_partial hx hn (hs rfl _ hx.1)
    exact ⟨h1, h2, h3⟩
  · exact (Op1.right ht hx hn).2.toTrue

theorem Op1.decd_itv (op : Op1) {x : DItv} (hx : x.Ok φ) (hn : x.dec ≠ .ill) :
    (op.decd φ x).itv = op.bare φ x.itv := by
  by_cases ht : op = .tan
  · subst ht; exact (tanD_eq hx hn).1
  · exact (Op1.right ht hx hn).1

theorem Op2.right (op : Op2) {x y : DItv} (hx : x.Ok φ) (hy : y.Ok φ) (hn : x.dec ≠ .ill) (hm : y.dec ≠ .ill) :
    (op.decd φ x y).itv = op.bare φ x.itv y.itv ∧
      DecRight op.fn op.dom (x.set ×ˢ y.set) (x.dec.min y.dec) (op.decd φ x y) := by
  cases op <;> simp only [Op2.bare, Op2.decd, Op2.fn, Op2.dom]
  case add => exact C20_add hx hy hn hm
  case sub => exact C20_sub hx hy hn hm
  case mul => exact C20_mul hx hy hn hm
  case div => exact C20_div hx hy hn hm
  case pow => exact C20_pow hx hy hn hm
  case atan2 => exact C20_atan2 hx hy hn hm
  case min => exact C20_min hx hy hn hm
  case max => exact C20_max hx hy hn hm

/-! ### Well-formedness of decorated results -/

theorem DItv.ok_nai : DItv.nai.Ok φ := ⟨Itv.ok_empty φ, by simp [DItv.nai], by simp [DItv.nai, Itv.empty], by simp [DItv.nai]⟩
theorem DItv.ok_empty : DItv.empty.Ok φ :=
  ⟨Itv.ok_empty φ, by simp [DItv.empty], by simp [DItv.empty], by simp [DItv.empty]⟩

theorem Itv.Ok.eq_empty_of {R : Itv} (h : R.Ok φ) (e : R.set = ∅) : R = Itv.empty := by
  rcases h.cases with h | h
  · exact h
  · obtain ⟨t, ht⟩ := h.nonempty
    rw [e] at ht; exact ht.elim

theorem decOk {α : Type*} [TopologicalSpace α] [Bornology α] {f : α → ℝ} {dom X : Set α} {r : DItv}
    (h1 : r.itv.Ok φ) (h2 : ∀ t ∈ X, t ∈ dom → f t ∈ r.set) (h3 : r.dec ≠ .ill)
    (h4 : DecMeans f dom X r.set r.dec) : r.Ok φ := by
  refine ⟨h1, fun e => Or.inr ?_, fun _ => h3, fun e => ?_⟩
  · have hne : ∀ (_ : X.Nonempty) (_ : X ⊆ dom), False := by
      rintro ⟨t, ht⟩ hs
      have := h2 t ht (hs ht)
      rw [DItv.set, e] at this
      simp [Itv.set, FP.BelowR] at this
    revert h4 h3
    cases r.dec
    · simp
    · simp
    · exact fun _ h => (hne h.1 h.2).elim
    · exact fun _ h => (hne h.1 h.2.1).elim
    · exact fun _ h => (hne h.1 h.2.1).elim
  · rcases h1.cases with h | h
    · rw [h]; simp [Itv.empty]
    · rw [e] at h4
      exact h.bounded_iff.mp h4.2.2.2.2

theorem DItv.eq_nai {x : DItv} (h : x.IsNaI) : x = DItv.nai := by
  cases x; obtain ⟨h1, h2⟩ := h; simp at h1 h2; subst h1; subst h2; rfl

theorem DItv.nai_or {x : DItv} (hx : x.Ok φ) : x = DItv.nai ∨ x.dec ≠ .ill := by
  by_cases h : x.dec = .ill
  · left; exact DItv.eq_nai ((DItv.isNaI_iff hx).mpr h)
  · right; exact h

theorem Op1.decd_nai (op : Op1) : op.decd φ DItv.nai = DItv.nai := by
  have h1 : DItv.nai.isValid = true := by decide
  have h2 : DItv.nai.isNai = true := by decide
  cases op <;> simp [Op1.decd, Fmt.posD, Fmt.negD, Fmt.recipD, Fmt.sqrD, Fmt.sqrtD, Fmt.absD, Fmt.pownD, Fmt.expD,
    Fmt.exp2D, Fmt.exp10D, Fmt.logD, Fmt.log2D, Fmt.log10D, Fmt.sinD, Fmt.cosD, Fmt.tanD, Fmt.asinD, Fmt.acosD,
    Fmt.atanD, Fmt.sinhD, Fmt.coshD, Fmt.tanhD, Fmt.asinhD, Fmt.acoshD, Fmt.atanhD, Fmt.signD, Fmt.ceilD, Fmt.floorD,
    Fmt.truncD, Fmt.roundEvenD, Fmt.roundAwayD, DItv.un, h1, h2]

theorem Op2.decd_nai (op : Op2) {x y : DItv} (h : x = DItv.nai ∨ y = DItv.nai) : op.decd φ x y = DItv.nai := by
  have h2 : DItv.nai.isNai = true := by decide
  rcases h with rfl | rfl <;>
  cases op <;> simp [Op2.decd, Fmt.addD, Fmt.subD, Fmt.mulD, Fmt.divD, Fmt.powD, Fmt.atan2D, Fmt.minD, Fmt.maxD,
    DItv.bin, h2]

theorem fmaD_nai {x y z : DItv} (h : x = DItv.nai ∨ y = DItv.nai ∨ z = DItv.nai) : φ.fmaD x y z = DItv.nai := by
  have h2 : DItv.nai.isNai = true := by decide
  rcases h with rfl | rfl | rfl <;> simp [Fmt.fmaD, h2]

theorem tanD_ok {x : DItv} (hx : x.Ok φ) (hn : x.dec ≠ .ill) : (φ.tanD x).Ok φ := by
  obtain ⟨e1, e2⟩ := tanD_eq hx hn
  have h1 : (φ.tanD x).itv.Ok φ := by rw [e1]; exact tanI_ok hx.1
  have hcd : ∀ b : Itv, b.comDac ≠ .ill := fun b => by unfold Itv.comDac; split_ifs <;> simp
  refine ⟨h1, fun e => Or.inr ?_, fun _ => ?_, fun e => ?_⟩
  · rcases hx.1.cases with h | h
    · rw [e2, h]; simp
    · exfalso
      rw [e1] at e
      by_cases hinf : x.itv.lo = .ninf ∨ x.itv.hi = .pinf
      · rw [tanI_inf h hinf] at e; simp [Itv.entire] at e
      obtain ⟨a, b, ha, hb⟩ := fin_bounds h hinf
      obtain ⟨h1, h2, h3, n1, -⟩ := tanI_fin h ha hb
      rcases lt_or_ge (φ.rdE (Real.pi:ℝ)) ((b - a : ℝ):EReal) with h | h
      · rw [h1 h] at e; simp [Itv.entire] at e
      rcases lt_or_ge (φ.ruE (Real.tan b)) (φ.rdE (Real.tan a)) with h' | h'
      · rw [h2 h h'] at e; simp [Itv.entire] at e
      rw [h3 h h'] at e
      exact n1 (by injection e)
  · rw [e2]; split_ifs
    · simp
    · exact Dec.min_ne_ill hn (hcd _)
  · rw [e1]
    rw [e2] at e
    split_ifs at e
    rw [Dec.min_eq_com] at e
    have hc : (φ.tanI x.itv).isCommon = true := by
      by_contra hc
      have := e.2
      unfold Itv.comDac at this
      rw [if_neg hc] at this
      exact absurd this (by simp)
    rcases (tanI_ok hx.1).cases with h | h
    · rw [h]; simp [Itv.empty]
    · exact h.bounded_iff.mp (h.isCommon_iff.mp hc)

theorem Op1.decd_ok (op : Op1) {x : DItv} (hx : x.Ok φ) : (op.decd φ x).Ok φ := by
  rcases DItv.nai_or hx with rfl | hn
  · rw [Op1.decd_nai]; exact DItv.ok_nai
  by_cases ht : op = .tan
  · subst ht; exact tanD_ok hx hn
  · obtain ⟨e, h⟩ := Op1.right ht hx hn
    refine decOk (f := op.fn) (dom := op.dom) (X := x.set) ?_ ?_ h.not_ill h.true_claim
    · rw [e]; exact op.bare_ok hx.1
    · intro t h1 h2
      rw [DItv.set, e]
      exact (Op1.tight ht hx.1).2.1 ⟨t, ⟨h1, h2⟩, rfl⟩

theorem Op2.decd_ok (op : Op2) {x y : DItv} (hx : x.Ok φ) (hy : y.Ok φ) : (op.decd φ x y).Ok φ := by
  rcases DItv.nai_or hx with rfl | hn
  · rw [Op2.decd_nai _ (Or.inl rfl)]; exact DItv.ok_nai
  rcases DItv.nai_or hy with rfl | hm
  · rw [Op2.decd_nai _ (Or.inr rfl)]; exact DItv.ok_nai
  obtain ⟨e, h⟩ := op.right hx hy hn hm
  refine decOk (f := op.fn) (dom := op.dom) (X := x.set ×ˢ y.set) ?_ ?_ h.not_ill h.true_claim
  · rw [e]; exact (op.tight hx.1 hy.1).1
  · intro t h1 h2
    rw [DItv.set, e]
    exact (op.tight hx.1 hy.1).2.1 ⟨t, ⟨h1, h2⟩, rfl⟩

theorem fmaD_ok {x y z : DItv} (hx : x.Ok φ) (hy : y.Ok φ) (hz : z.Ok φ) : (φ.fmaD x y z).Ok φ := by
  rcases DItv.nai_or hx with rfl | hn
  · rw [fmaD_nai (Or.inl rfl)]; exact DItv.ok_nai
  rcases DItv.nai_or hy with rfl | hm
  · rw [fmaD_nai (Or.inr (Or.inl rfl))]; exact DItv.ok_nai
  rcases DItv.nai_or hz with rfl | hk
  · rw [fmaD_nai (Or.inr (Or.inr rfl))]; exact DItv.ok_nai
  obtain ⟨e, h⟩ := C20_fma hx hy hz hn hm hk
  refine decOk (f := fun p : ℝ × ℝ × ℝ => p.1 * p.2.1 + p.2.2) (dom := Set.univ) (X := x.set ×ˢ y.set ×ˢ z.set)
    ?_ ?_ h.not_ill h.true_claim
  · rw [e]; exact (C06_fma φ hx.1 hy.1 hz.1).1
  · rintro ⟨a, b, c⟩ ⟨h1, h2, h3⟩ -
    rw [DItv.set, e]
    exact (C06_fma φ hx.1 hy.1 hz.1).2.1 ⟨a, h1, b, h2, c, h3, rfl⟩

end P1788
