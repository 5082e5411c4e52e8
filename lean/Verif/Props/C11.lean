import Verif.Lemmas.Tan
import Mathlib.Analysis.SpecialFunctions.Trigonometric.Arctan
import Verif.Lemmas.Taylor

/-! # C11: tangent

`tan` recognises a pole inside a bounded interval only by comparing the rounded values at the two end points
(or by the width exceeding the rounded-down `π`).  This is sound when the width stays a little below `π`, and for
`float` and x87 `long double`; for `double` there are intervals containing a pole whose computed image is a single
point, so the property is false there. -/

namespace P1788
open Real
variable {φ : Fmt} {x : Itv}

/-- `x` contains a pole of the tangent. -/
def Itv.HasPole (x : Itv) : Prop := ∃ t ∈ x.set, cos t = 0

/-- The tangents of the points of `x` at which it is defined. -/
def tanRange (x : Itv) : Set ℝ := range1 tan {t | cos t ≠ 0} x.set

theorem cos_ne_of_toE {a : FP} {r : ℝ} (h : a.toE = (r:EReal)) : cos r ≠ 0 := by
  intro hc
  obtain ⟨k, hk⟩ := cos_eq_zero_iff.mp hc
  have hr : ∃ q : ℚ, r = q := by
    cases a with
    | nan => exact ⟨0, by rw [show FP.nan.toE = 0 from rfl] at h; push_cast; exact_mod_cast h.symm⟩
    | ninf => simp at h
    | pinf => simp at h
    | nzero => exact ⟨0, by rw [FP.toE_nzero] at h; push_cast; exact_mod_cast h.symm⟩
    | fin q => exact ⟨q, by rw [FP.toE_fin] at h; exact_mod_cast h.symm⟩
  obtain ⟨q, rfl⟩ := hr
  refine irrational_pi ⟨2 * q / (2 * k + 1), ?_⟩
  have h2 : (2 * (k:ℝ) + 1) ≠ 0 := by
    have : (2 * k + 1 : ℤ) ≠ 0 := by omega
    exact_mod_cast this
  push_cast
  rw [hk]; field_simp

/-- A pole strictly inside, and the end points moved next to it. -/
theorem pole_split {a b c : ℝ} (h1 : a < c) (h2 : c < b) (hc : cos c = 0) :
    ∃ n : ℤ, c = π / 2 + n * π ∧ a - n * π < π / 2 ∧ -(π / 2) < b - (n + 1) * π ∧ tan (a - n * π) = tan a ∧
      tan (b - (n + 1) * π) = tan b := by
  obtain ⟨n, hn⟩ := cos_eq_zero_iff.mp hc
  have hn' : c = π / 2 + n * π := by rw [hn]; ring
  refine ⟨n, hn', by linarith, by linarith, tan_periodic.sub_int_mul_eq n, ?_⟩
  have := tan_periodic.sub_int_mul_eq (x := b) (n + 1)
  push_cast at this; exact this

theorem tan_add_int (t : ℝ) (n : ℤ) : tan (t + n * π) = tan t := tan_periodic.int_mul n t

theorem cos_add_int_ne {t : ℝ} (h : cos t ≠ 0) (n : ℤ) : cos (t + n * π) ≠ 0 := by
  intro hc
  obtain ⟨k, hk⟩ := cos_eq_zero_iff.mp hc
  exact h (cos_eq_zero_iff.mpr ⟨k - n, by push_cast; linarith⟩)

/-- Around a pole all reals are tangents of points close to it. -/
theorem range_pole (hx : x.NE φ) (hp : x.HasPole) : Box (tanRange x) ⊥ ⊤ := by
  obtain ⟨c, hc, hc0⟩ := hp
  -- points of `x` on both sides of the pole
  have hm := hx.mem.mp hc
  have lo_lt : x.lo.toE < c := by
    refine lt_of_le_of_ne hm.1 (fun h => cos_ne_of_toE h hc0)
  have hi_gt : (c:EReal) < x.hi.toE := lt_of_le_of_ne hm.2 (fun h => cos_ne_of_toE h.symm hc0)
  obtain ⟨a, ha, hac⟩ := hx.ex_gt.mpr lo_lt
  obtain ⟨b, hb, hcb⟩ := hx.ex_lt.mpr hi_gt
  obtain ⟨n, hn, h1, h2, -, -⟩ := pole_split hac hcb hc0
  have hconv : ∀ t, a ≤ t → t ≤ b → t ∈ x.set := fun t h h' => by
    have ma := hx.mem.mp ha
    have mb := hx.mem.mp hb
    exact hx.mem.mpr ⟨ma.1.trans (by exact_mod_cast h), le_trans (by exact_mod_cast h') mb.2⟩
  have up : ∀ M : ℝ, ∃ s ∈ tanRange x, M < s := fun M => by
    set α := max (a - n * π) 0
    have hα : α < π / 2 := max_lt h1 (by linarith [pi_pos])
    have hα0 : 0 ≤ α := le_max_right _ _
    have hy : α ≤ arctan (max (M + 1) (tan α)) := by
      rw [← arctan_tan (x := α) (by linarith [pi_pos]) hα]
      exact arctan_mono (by rw [arctan_tan (by linarith [pi_pos]) hα]; exact le_max_right _ _)
    have hy2 := arctan_lt_pi_div_two (max (M + 1) (tan α))
    refine ⟨max (M + 1) (tan α), ⟨arctan (max (M + 1) (tan α)) + n * π, hconv _ ?_ ?_, ?_, ?_⟩, ?_⟩
    · have : a - n * π ≤ α := le_max_left _ _
      linarith
    · linarith
    · exact cos_add_int_ne (cos_arctan_pos _).ne' n
    · rw [tan_add_int, tan_arctan]
    · exact lt_of_lt_of_le (by linarith) (le_max_left _ _)
  have down : ∀ M : ℝ, ∃ s ∈ tanRange x, s < M := fun M => by
    set β := min (b - (n + 1) * π) 0
    have hβ : -(π / 2) < β := lt_min h2 (by linarith [pi_pos])
    have hβ0 : β ≤ 0 := min_le_right _ _
    have hy : arctan (min (M - 1) (tan β)) ≤ β := by
      rw [← arctan_tan (x := β) hβ (by linarith [pi_pos])]
      exact arctan_mono (by rw [arctan_tan hβ (by linarith [pi_pos])]; exact min_le_right _ _)
    have hy2 := neg_pi_div_two_lt_arctan (min (M - 1) (tan β))
    refine ⟨min (M - 1) (tan β), ⟨arctan (min (M - 1) (tan β)) + (n + 1 : ℤ) * π, hconv _ ?_ ?_, ?_, ?_⟩, ?_⟩
    · push_cast; linarith
    · have : β ≤ b - (n + 1) * π := min_le_left _ _
      push_cast; linarith
    · exact cos_add_int_ne (cos_arctan_pos _).ne' _
    · rw [tan_add_int, tan_arctan]
    · exact lt_of_le_of_lt (min_le_left _ _) (by linarith)
  obtain ⟨s0, hs0, -⟩ := up 0
  refine Box.mk' ⟨s0, hs0⟩ (fun _ _ => bot_le) (fun t ht => ?_) (fun _ _ => le_top) (fun t ht => ?_)
  · induction t with
    | bot => exact le_rfl
    | coe r => obtain ⟨s, hs, h⟩ := down r; exact absurd (ht s hs) (not_le.mpr (by exact_mod_cast h))
    | top => exact absurd (ht s0 hs0) (not_le.mpr (EReal.coe_lt_top _))
  · induction t with
    | top => exact le_rfl
    | coe r => obtain ⟨s, hs, h⟩ := up r; exact absurd (ht s hs) (not_le.mpr (by exact_mod_cast h))
    | bot => exact absurd (ht s0 hs0) (not_le.mpr (EReal.bot_lt_coe _))

/-- Between two poles the tangent is monotone. -/
theorem tan_mono_of_no_pole {a b : ℝ} (h : ∀ t, a ≤ t → t ≤ b → cos t ≠ 0) :
    ∀ s t, a ≤ s → s ≤ t → t ≤ b → tan s ≤ tan t := by
  intro s t h1 h2 h3
  have hp := pi_pos
  set n := ⌊(s + π / 2) / π⌋ with hn
  have f1 : (n:ℝ) * π ≤ s + π / 2 := by
    have := Int.floor_le ((s + π / 2) / π); rwa [le_div_iff₀ hp] at this
  have f2 : s + π / 2 < (n + 1) * π := by
    have := Int.lt_floor_add_one ((s + π / 2) / π); rwa [div_lt_iff₀ hp] at this
  have f3 : (n:ℝ) * π ≠ s + π / 2 := by
    intro he
    refine h s h1 (h2.trans h3) (cos_eq_zero_iff.mpr ⟨n - 1, ?_⟩)
    push_cast; linarith
  have f4 : t - n * π < π / 2 := by
    by_contra hc
    refine h (π / 2 + n * π) (by linarith) (by linarith) (cos_eq_zero_iff.mpr ⟨n, by ring⟩)
  rw [← tan_periodic.sub_int_mul_eq (x := s) n, ← tan_periodic.sub_int_mul_eq (x := t) n]
  have g1 : -(π / 2) < s - n * π := by
    have := lt_of_le_of_ne f1 f3; linarith
  rcases h2.eq_or_lt with rfl | h2
  · exact le_rfl
  · exact (tan_lt_tan_of_lt_of_lt_pi_div_two g1 f4 (by linarith)).le

/-- Bounded intervals: what the code computes. -/
theorem tanI_fin (hx : x.NE φ) {a b : ℝ} (ha : x.lo.toE = (a:EReal)) (hb : x.hi.toE = (b:EReal)) :
    (φ.rdE (π:ℝ) < ((b - a : ℝ):EReal) → φ.tanI x = Itv.entire) ∧
    (((b - a : ℝ):EReal) ≤ φ.rdE (π:ℝ) → φ.ruE (tan b) < φ.rdE (tan a) → φ.tanI x = Itv.entire) ∧
    (((b - a : ℝ):EReal) ≤ φ.rdE (π:ℝ) → φ.rdE (tan a) ≤ φ.ruE (tan b) → φ.tanI x = ⟨φ.tanF .D x.lo, φ.tanF .U x.hi⟩) ∧
    φ.tanF .D x.lo ≠ .nan ∧ (φ.tanF .D x.lo).In φ ∧ (φ.tanF .D x.lo).toE = φ.rdE (tan a) ∧
    φ.tanF .U x.hi ≠ .nan ∧ (φ.tanF .U x.hi).In φ ∧ (φ.tanF .U x.hi).toE = φ.ruE (tan b) := by
  have hw := φ.sub_spec (m := .U) hx.hi_ne hx.lo_ne (fun h => hx.hi_bot h.1) (fun h => hx.lo_top h.2)
  have gn : φ.constPi .D ≠ .nan := φ.round_ne_nan _ _
  have gp : (φ.constPi .D).toE = φ.rdE (π:ℝ) := (φ.rdE_coe _).symm
  have pw : (φ.constPi .D < φ.sub .U x.hi x.lo) ↔ φ.rdE (π:ℝ) < ((b - a : ℝ):EReal) := by
    rw [FP.lt_iff gn hw.1, hw.2, Fmt.rndE_U, ← not_le, φ.ruE_le_iff (f := φ.constPi .D) (φ.round_in .D π) _ gn, gp,
      ha, hb, not_le]
    exact_mod_cast Iff.rfl
  obtain ⟨l1, l1n, l1i⟩ := un_spec φ .D (by simp) tan .nan .nan ha hx.lo_ne
  obtain ⟨u1, u1n, u1i⟩ := un_spec φ .U (by simp) tan .nan .nan hb hx.hi_ne
  have cmp : (φ.tanF .U x.hi < φ.tanF .D x.lo) ↔ φ.ruE (tan b) < φ.rdE (tan a) := by
    unfold Fmt.tanF
    rw [FP.lt_iff u1n l1n, u1, l1]; rfl
  refine ⟨fun h => ?_, fun h h' => ?_, fun h h' => ?_, l1n, l1i, l1, u1n, u1i, u1⟩
  all_goals
    unfold Fmt.tanI
    simp only [hx.isValid, hx.isEmpty, Bool.not_true, Bool.or_false, Bool.false_eq_true, if_false, pw, cmp]
  · rw [if_pos h]
  · rw [if_neg (not_lt.mpr h), if_pos h']
  · rw [if_neg (not_lt.mpr h), if_neg (not_lt.mpr h')]

theorem tanI_inf (hx : x.NE φ) (h : x.lo = .ninf ∨ x.hi = .pinf) : φ.tanI x = Itv.entire := by
  have hw := φ.sub_spec (m := .U) hx.hi_ne hx.lo_ne (fun h => hx.hi_bot h.1) (fun h => hx.lo_top h.2)
  have hwt : x.hi.toE - x.lo.toE = ⊤ := by
    rcases h with h | h
    · rw [h, FP.toE_ninf, EReal.sub_bot hx.hi_bot]
    · rw [h, FP.toE_pinf]; exact EReal.top_sub hx.lo_top
  have gn : φ.constPi .D ≠ .nan := φ.round_ne_nan _ _
  have pw : φ.constPi .D < φ.sub .U x.hi x.lo := by
    rw [FP.lt_iff gn hw.1, hw.2, hwt]
    obtain ⟨ϖ, h, -⟩ := pi_gap φ
    rw [h]; simp
  unfold Fmt.tanI
  simp only [hx.isValid, hx.isEmpty, Bool.not_true, Bool.or_false, Bool.false_eq_true, if_false, pw, if_true]

theorem tight_no_pole (hx : x.NE φ) {a b : ℝ} (ha : x.lo.toE = (a:EReal)) (hb : x.hi.toE = (b:EReal))
    (hw : ((b - a : ℝ):EReal) ≤ φ.rdE (π:ℝ)) (hp : ¬ x.HasPole) : Tightest φ (φ.tanI x) (tanRange x) := by
  obtain ⟨-, -, h3, n1, i1, e1, n2, i2, e2⟩ := tanI_fin hx ha hb
  have hmem : ∀ t, t ∈ x.set ↔ a ≤ t ∧ t ≤ b := fun t => by
    rw [hx.mem, ha, hb]; exact_mod_cast Iff.rfl
  have hab : a ≤ b := by have := hx.le; rw [ha, hb] at this; exact_mod_cast this
  have hnp : ∀ t, a ≤ t → t ≤ b → cos t ≠ 0 := fun t h h' hc => hp ⟨t, (hmem t).mpr ⟨h, h'⟩, hc⟩
  have hmono := tan_mono_of_no_pole hnp
  have hab' : tan a ≤ tan b := hmono a b le_rfl hab le_rfl
  rw [h3 hw (((φ.rdE_le _).trans (by exact_mod_cast hab')).trans (φ.le_ruE _))]
  have hS : tanRange x = tan '' x.set := by
    ext z; constructor
    · rintro ⟨t, ht, -, rfl⟩; exact ⟨t, ht, rfl⟩
    · rintro ⟨t, ht, rfl⟩; exact ⟨t, ht, fun hc => hp ⟨t, ht, hc⟩, rfl⟩
  rw [hS]
  refine tight_low_upp (Low.attained (q := a) ((hmem a).mpr ⟨le_rfl, hab⟩) (fun t ht => ?_) e1 n1 i1)
    (Upp.attained (q := b) ((hmem b).mpr ⟨hab, le_rfl⟩) (fun t ht => ?_) e2 n2 i2)
  · exact hmono a t le_rfl ((hmem t).mp ht).1 ((hmem t).mp ht).2
  · exact hmono t b ((hmem t).mp ht).1 ((hmem t).mp ht).2 le_rfl

theorem pole_gap (hx : x.NE φ) {a b : ℝ} (ha : x.lo.toE = (a:EReal)) (hb : x.hi.toE = (b:EReal))
    (hw : b - a ≤ π - 9 / 8 * eps φ) (hp : x.HasPole) : φ.ruE (tan b) < φ.rdE (tan a) := by
  obtain ⟨c, hc, hc0⟩ := hp
  have hm := hx.mem.mp hc
  rw [ha, hb] at hm
  have g1 : a < c := lt_of_le_of_ne (by exact_mod_cast hm.1) (fun h => cos_ne_of_toE ha (h ▸ hc0))
  have g2 : c < b := lt_of_le_of_ne (by exact_mod_cast hm.2) (fun h => cos_ne_of_toE hb (h ▸ hc0))
  obtain ⟨n, -, k1, k2, t1, t2⟩ := pole_split g1 g2 hc0
  rw [← t1, ← t2]
  refine tan_gap k2 k1 ?_
  linarith

/-- The interval bounds, as reals, of an interval without infinite bounds. -/
theorem fin_bounds (hx : x.NE φ) (h : ¬ (x.lo = .ninf ∨ x.hi = .pinf)) :
    ∃ a b : ℝ, x.lo.toE = (a:EReal) ∧ x.hi.toE = (b:EReal) := by
  push Not at h
  obtain ⟨a, ha⟩ : ∃ a : ℝ, x.lo.toE = a := by
    rcases toE_cases hx.lo_ne with h' | h' | ⟨h', -⟩
    · exact absurd h' h.1
    · exact absurd (FP.toE_eq_top.mpr h') hx.lo_top
    · exact ⟨_, h'⟩
  obtain ⟨b, hb⟩ : ∃ b : ℝ, x.hi.toE = b := by
    rcases toE_cases hx.hi_ne with h' | h' | ⟨h', -⟩
    · exact absurd (FP.toE_eq_bot.mpr h') hx.hi_bot
    · exact absurd h' h.2
    · exact ⟨_, h'⟩
  exact ⟨a, b, ha, hb⟩

/-- Widths in the critical zone `(π - 9/8·2^(1-p), RD(π)]` just below `π`. -/
def CriticalWidth (φ : Fmt) (x : Itv) : Prop :=
  ∃ a b : ℝ, x.lo.toE = (a:EReal) ∧ x.hi.toE = (b:EReal) ∧ π - 9 / 8 * 2 ^ (1 - (φ.p:ℤ)) < b - a ∧
    ((b - a : ℝ):EReal) ≤ φ.rdE (π:ℝ)

/-- The case in which the two tests of the code miss a pole: `x = [a, b]` contains one, is not wider than `RD(π)`, and the gap between
`tan b` and `tan a` (`tan b < tan a`) disappears when they are rounded outwards. -/
def TanBad (φ : Fmt) (x : Itv) : Prop :=
  x.HasPole ∧ ∃ a b : ℝ, x.lo.toE = (a:EReal) ∧ x.hi.toE = (b:EReal) ∧ ((b - a : ℝ):EReal) ≤ φ.rdE (π:ℝ) ∧
    φ.rdE (tan a) ≤ φ.ruE (tan b)

/-- Bad intervals have a width in the critical zone. -/
theorem TanBad.critical (hx : x.Ok φ) (h : TanBad φ x) : CriticalWidth φ x := by
  obtain ⟨hp, a, b, ha, hb, hw, hr⟩ := h
  refine ⟨a, b, ha, hb, ?_, hw⟩
  by_contra hc
  have hN : x.NE φ := by
    rcases hx.cases with rfl | hN
    · obtain ⟨t, ht, -⟩ := hp; simp at ht
    · exact hN
  exact absurd (pole_gap hN ha hb (not_lt.mp hc) hp) (not_lt.mpr hr)

/-- **C11** (full statement: the same without the hypothesis `hc`; it is false for `double`, see
`C11_tan_binary64_false`, and false of every bad `x`, `C11_tan_exact_binary64`).  Unless `x` is bad, `tan(x)` is a proper interval containing the tangent of every point of `x` where it is defined; if `x`
contains a pole the result is the entire line. -/
theorem C11_tan_partial (hx : x.Ok φ) (hc : ¬ TanBad φ x) :
    (φ.tanI x).Ok φ ∧ tanRange x ⊆ (φ.tanI x).set ∧ (x.HasPole → φ.tanI x = Itv.entire) := by
  rcases hx.cases with rfl | hx
  · have : φ.tanI Itv.empty = Itv.empty := by simp [Fmt.tanI]
    rw [this]
    refine ⟨Itv.ok_empty φ, ?_, ?_⟩
    · rintro _ ⟨t, ht, -⟩; simp at ht
    · rintro ⟨t, ht, -⟩; simp at ht
  have full : φ.tanI x = Itv.entire → (φ.tanI x).Ok φ ∧ tanRange x ⊆ (φ.tanI x).set ∧ (x.HasPole → φ.tanI x = Itv.entire) := by
    intro h
    rw [h]
    exact ⟨Itv.ok_entire φ, by rw [Itv.set_entire]; exact Set.subset_univ _, fun _ => rfl⟩
  by_cases hinf : x.lo = .ninf ∨ x.hi = .pinf
  · exact full (tanI_inf hx hinf)
  obtain ⟨a, b, ha, hb⟩ := fin_bounds hx hinf
  by_cases hw : φ.rdE (π:ℝ) < ((b - a : ℝ):EReal)
  · exact full ((tanI_fin hx ha hb).1 hw)
  by_cases hp : x.HasPole
  · exact full ((tanI_fin hx ha hb).2.1 (not_lt.mp hw) (not_le.mp fun h => hc ⟨hp, a, b, ha, hb, not_lt.mp hw, h⟩))
  · have := tight_no_pole hx ha hb (not_lt.mp hw) hp
    exact ⟨this.1, this.2.1, fun h => absurd h hp⟩

/-- In every format the result is tightest when `x` contains no pole and is at most `RD(π)` wide, and when `x`
contains a pole (unless it is bad). -/
theorem C11_tan_tight_partial (hx : x.Ok φ) (hc : ¬ TanBad φ x)
    (hw : x.HasPole ∨ ∃ a b : ℝ, x.lo.toE = (a:EReal) ∧ x.hi.toE = (b:EReal) ∧ ((b - a : ℝ):EReal) ≤ φ.rdE (π:ℝ)) :
    Tightest φ (φ.tanI x) (tanRange x) := by
  rcases hx.cases with rfl | hne
  · refine tightest_empty' (by simp [Fmt.tanI]) ?_
    ext z; constructor
    · rintro ⟨t, ht, -⟩; simp at ht
    · simp
  by_cases hp : x.HasPole
  · rw [(C11_tan_partial hx hc).2.2 hp]
    exact tight_entire (range_pole hne hp)
  · obtain ⟨a, b, ha, hb, h⟩ := hw.resolve_left hp
    exact tight_no_pole hne ha hb h hp

/-- Exact value of the rounded-down `π`. -/
theorem rd_pi {k : ℤ} (h1 : (k:ℝ) * 2 ^ (2 - (φ.p:ℤ)) ≤ π) (h2 : π < (k + 1) * 2 ^ (2 - (φ.p:ℤ))) :
    φ.rdE (π:ℝ) = ((k * 2 ^ (2 - (φ.p:ℤ)) : ℝ):EReal) := by
  have hpos := two_zpow_posR (2 - (φ.p:ℤ))
  have hp := φ.p_pos
  have hlog : Int.log 2 |π| = 1 := by
    rw [abs_of_pos pi_pos]
    have h3 := pi_gt_three
    have h4 := pi_lt_four
    apply le_antisymm
    · have : Int.log 2 π < 2 := by
        rw [← Int.lt_zpow_iff_log_lt (by norm_num) pi_pos]; norm_num; exact h4
      omega
    · rw [← Int.zpow_le_iff_le_log (by norm_num) pi_pos]; norm_num; linarith
  have hex : φ.expo π = 2 - (φ.p:ℤ) := by
    unfold Fmt.expo
    rw [hlog, max_eq_left (by have := φ.qmin_le; omega)]; ring
  have hq : φ.roundQ .D π = k * 2 ^ (2 - (φ.p:ℤ)) := by
    unfold Fmt.roundQ
    rw [hex]
    congr 2
    simp only [roundInt]
    rw [Int.floor_eq_iff]
    rw [le_div_iff₀ hpos, div_lt_iff₀ hpos]
    exact ⟨h1, h2⟩
  have h0 : 0 ≤ φ.roundQ .D π := φ.le_roundQ_D φ.rep_zero (by simpa using pi_pos.le)
  have hle := φ.roundQ_D_le π
  have hM := maxFin_ge φ
  have hp8 : (2:ℝ) ^ 8 ≤ 2 ^ φ.p := pow_le_pow_right₀ (by norm_num) φ.p_pos
  have hr : φ.Rep (φ.roundQ .D π) := φ.rep_roundQ (by
    rw [abs_of_nonneg h0]
    have : (φ.roundQ .D π : ℝ) ≤ φ.maxFin := by linarith [pi_lt_four]
    exact_mod_cast this)
  rw [hq] at hr hle
  refine le_antisymm ?_ ?_
  · rw [φ.rdE_coe]
    have hle : (φ.round .D π).toE ≤ (φ.roundQ .D π : ℝ) := by
      cases hf : φ.round .D π with
      | nan => exact absurd hf (φ.round_ne_nan _ _)
      | ninf => simp
      | pinf =>
        have := φ.rdE_le (π:ℝ)
        rw [φ.rdE_coe, hf] at this; simp at this
      | nzero => rw [FP.toE_nzero]; exact_mod_cast h0
      | fin f =>
        have hin := φ.round_in .D π
        rw [hf] at hin
        have := φ.rdE_le (π:ℝ)
        rw [φ.rdE_coe, hf, FP.toE_fin] at this
        rw [FP.toE_fin]
        have := φ.le_roundQ_D (f := f) hin (by exact_mod_cast this)
        exact_mod_cast this
    rw [hq] at hle
    push_cast at hle
    exact hle
  · have := (φ.le_rdE_iff (f := .fin (k * 2 ^ (2 - (φ.p:ℤ)))) hr (π:ℝ) (by simp)).mpr (by
      rw [FP.toE_fin]; push_cast; exact_mod_cast h1)
    rw [FP.toE_fin] at this
    push_cast at this
    exact this

theorem no_critical {k : ℤ} (h1 : (k:ℝ) * 2 ^ (2 - (φ.p:ℤ)) ≤ π) (h2 : π < (k + 1) * 2 ^ (2 - (φ.p:ℤ)))
    (h3 : (k:ℝ) * 2 ^ (2 - (φ.p:ℤ)) ≤ π - 9 / 8 * 2 ^ (1 - (φ.p:ℤ))) : ¬ CriticalWidth φ x := by
  rintro ⟨a, b, -, -, g1, g2⟩
  rw [rd_pi h1 h2] at g2
  have g2 : b - a ≤ k * 2 ^ (2 - (φ.p:ℤ)) := by exact_mod_cast g2
  linarith

/-- For `float` the enclosure property holds without restriction. -/
theorem C11_tan_binary32 (hx : x.Ok binary32) :
    (binary32.tanI x).Ok binary32 ∧ tanRange x ⊆ (binary32.tanI x).set ∧ (x.HasPole → binary32.tanI x = Itv.entire) := by
  have := pi_gt_d20
  have := pi_lt_d20
  refine C11_tan_partial hx (fun h => no_critical (k := 13176794) ?_ ?_ ?_ (h.critical hx)) <;>
    (simp only [binary32]; norm_num; linarith)

/-- For x87 `long double` the enclosure property holds without restriction. -/
theorem C11_tan_x87ext (hx : x.Ok x87ext) :
    (x87ext.tanI x).Ok x87ext ∧ tanRange x ⊆ (x87ext.tanI x).set ∧ (x.HasPole → x87ext.tanI x = Itv.entire) := by
  have := pi_gt_d20
  have := pi_lt_d20
  refine C11_tan_partial hx (fun h => no_critical (k := 14488038916154245684) ?_ ?_ ?_ (h.critical hx)) <;>
    (simp only [x87ext]; norm_num; linarith)

/-- The interval `[0.875, 0.875 + RD(π)]` of `double`. -/
def tanWitness : Itv := ⟨.fin (7 / 8), .fin (7 / 8 + 884279719003555 / 2 ^ 48)⟩

/-- The computed image of `[0.875, 0.875 + RD(π)]` under `tan` is a point interval. -/
theorem tan_witness_bounds : ∃ b : ℝ, tanWitness.lo.toE = ((7 / 8 : ℝ):EReal) ∧ tanWitness.hi.toE = (b:EReal) ∧
    b = 7 / 8 + 884279719003555 / 2 ^ 48 ∧
    tan (7 / 8) < 5392707603225182 / 2 ^ 52 ∧ 5392707603225180 / 2 ^ 52 < tan b := by
  refine ⟨7 / 8 + 884279719003555 / 2 ^ 48, by rw [tanWitness, FP.toE_fin]; push_cast; rfl,
    by rw [tanWitness, FP.toE_fin]; push_cast; rfl, rfl, ?_⟩
  obtain ⟨hc, hs⟩ := taylor_bound 11 (by norm_num) (x := 7 / 8) (by rw [abs_of_pos] <;> norm_num)
  rw [abs_of_pos (show (0:ℝ) < 7 / 8 by norm_num), abs_le] at hc hs
  have eC : cosT 11 (7 / 8) = 36693080824786905691959469981148849 / 57243776404653700265977168527360000 := by
    norm_num [cosT, Finset.sum_range_succ, Nat.factorial]
  have eS : sinT 11 (7 / 8) = 1054490126948254782760812594216082609 / 1373850633711688806383452044656640000 := by
    norm_num [sinT, Finset.sum_range_succ, Nat.factorial]
  rw [eC] at hc
  rw [eS] at hs
  norm_num [Nat.factorial] at hc hs
  have c1 : (0.64099685816332513035:ℝ) < cos (7 / 8) := by norm_num; linarith [hc.1]
  have c2 : cos (7 / 8) < (0.64099685816332513036:ℝ) := by norm_num; linarith [hc.2]
  have s1 : (0.76754350223602703963:ℝ) < sin (7 / 8) := by norm_num; linarith [hs.1]
  have s2 : sin (7 / 8) < (0.76754350223602703964:ℝ) := by norm_num; linarith [hs.2]
  clear hc hs
  set C := cos (7 / 8)
  set S := sin (7 / 8)
  have hC : 0 < C := by linarith
  constructor
  · rw [tan_eq_sin_div_cos, div_lt_iff₀ hC]
    norm_num
    norm_num at c1 s2
    linarith
  · have p1 := pi_gt_d20
    have p2 := pi_lt_d20
    obtain ⟨δ, hδ⟩ : ∃ δ : ℝ, δ = π - 884279719003555 / 2 ^ 48 := ⟨_, rfl⟩
    have d1 : 0 < δ := by rw [hδ]; norm_num at p1 ⊢; linarith
    have d2 : δ < 1.2250e-16 := by rw [hδ]; norm_num at p2 ⊢; linarith
    have et : tan (7 / 8 + 884279719003555 / 2 ^ 48) = tan (7 / 8 - δ) := by
      rw [hδ, ← tan_periodic (7 / 8 - _)]; congr 1; ring
    rw [et]
    have sd : sin δ < δ := sin_lt d1
    have sd0 : 0 < sin δ := sin_pos_of_pos_of_lt_pi d1 (by norm_num at d2; linarith [pi_gt_three])
    have cd : 1 - δ ^ 2 / 2 ≤ cos δ := one_sub_sq_div_two_le_cos
    have cd1 : cos δ ≤ 1 := cos_le_one δ
    have cd2 : (1 - 1e-20 : ℝ) ≤ cos δ := by
      have : δ ^ 2 ≤ (1.2250e-16) ^ 2 := pow_le_pow_left₀ d1.le d2.le 2
      norm_num at this ⊢
      linarith
    have eS' : sin (7 / 8 - δ) = S * cos δ - C * sin δ := sin_sub _ _
    have eC' : cos (7 / 8 - δ) = C * cos δ + S * sin δ := cos_sub _ _
    have hS : 0 < S := by linarith
    have hcd : 0 < cos δ := by norm_num at cd2; linarith
    have hpos : 0 < cos (7 / 8 - δ) := by rw [eC']; positivity
    rw [tan_eq_sin_div_cos, lt_div_iff₀ hpos, eS', eC']
    set g : ℝ := 5392707603225180 / 2 ^ 52 with hg
    have k1 : (2.4e-16:ℝ) ≤ S - g * C := by
      rw [hg]; norm_num; norm_num at c2 s1; linarith
    have k2 : C + g * S ≤ 1.5602 := by
      rw [hg]; norm_num; norm_num at c2 s2; linarith
    have k3 : (2.4e-16:ℝ) * (1 - 1e-20) ≤ (S - g * C) * cos δ := mul_le_mul k1 cd2 (by norm_num) (le_trans (by norm_num) k1)
    have k4 : (C + g * S) * sin δ ≤ 1.5602 * 1.2250e-16 :=
      mul_le_mul k2 (sd.le.trans d2.le) sd0.le (by norm_num)
    have k5 : (1.5602:ℝ) * 1.2250e-16 < 2.4e-16 * (1 - 1e-20) := by norm_num
    have := lt_of_le_of_lt k4 (lt_of_lt_of_le k5 k3)
    nlinarith

theorem tanWitness_ok : tanWitness.Ok binary64 := Itv.ok_of_okb (by decide +kernel)

theorem tanWitness_pole : tanWitness.HasPole := by
  refine ⟨π / 2, ⟨?_, ?_⟩, cos_pi_div_two⟩
  · have := pi_gt_three
    show ((7 / 8 : ℚ):ℝ) ≤ π / 2
    push_cast; linarith
  · have := pi_lt_four
    show π / 2 ≤ ((7 / 8 + 884279719003555 / 2 ^ 48 : ℚ):ℝ)
    push_cast; norm_num; linarith

theorem tan_witness_branch : ∃ b : ℝ, tanWitness.NE binary64 ∧ tanWitness.lo.toE = ((7 / 8 : ℝ):EReal) ∧
    tanWitness.hi.toE = (b:EReal) ∧ b = 7 / 8 + 884279719003555 / 2 ^ 48 ∧ 1 < tan (7 / 8) ∧
    ((b - 7 / 8 : ℝ):EReal) ≤ binary64.rdE (π:ℝ) ∧ binary64.rdE (tan (7 / 8)) ≤ binary64.ruE (tan b) := by
  obtain ⟨b, ha, hb, hbv, h1, h2⟩ := tan_witness_bounds
  have hx : tanWitness.NE binary64 := by
    rcases tanWitness_ok.cases with h | h
    · exact absurd h (by simp [tanWitness, Itv.empty])
    · exact h
  set f : ℚ := 5392707603225181 / 2 ^ 52 with hf
  have rep : binary64.Rep f := ⟨5392707603225181, -52, by rw [hf]; norm_num, by decide, by decide, by decide⟩
  -- neighbours of `f`
  have key : ∀ q : ℚ, binary64.Rep q → ((q:ℝ) < 5392707603225182 / 2 ^ 52 → 1 ≤ q → q ≤ f) ∧
      ((5392707603225180:ℝ) / 2 ^ 52 < q → f ≤ q) := by
    rintro q ⟨m, e, rfl, hm, he, he2⟩
    have hm' : |m| < 9007199254740992 := by simpa [binary64] using hm
    rw [abs_lt] at hm'
    constructor
    · intro hq h1q
      rcases le_or_gt (-52) e with g | g
      · obtain ⟨n, rfl⟩ : ∃ n : ℕ, e = -52 + n := ⟨(e + 52).toNat, by omega⟩
        have e1 : (m:ℚ) * 2 ^ (-52 + (n:ℤ)) = ((m * 2 ^ n : ℤ) : ℚ) / 2 ^ 52 := by
          rw [zpow_add₀ (by norm_num)]; push_cast; rw [zpow_natCast, zpow_neg]; ring_nf
        rw [e1] at hq ⊢
        push_cast at hq
        rw [div_lt_div_iff_of_pos_right (by positivity)] at hq
        have : m * 2 ^ n < 5392707603225182 := by exact_mod_cast hq
        rw [hf, div_le_div_iff_of_pos_right (by positivity)]
        exact_mod_cast (by omega : m * 2 ^ n ≤ 5392707603225181)
      · exfalso
        have h3 : (2:ℚ) ^ e ≤ 2 ^ (-53:ℤ) := zpow_le_zpow_right₀ (by norm_num) (by omega)
        have h4 : (m:ℚ) ≤ 9007199254740991 := by exact_mod_cast (by omega : m ≤ 9007199254740991)
        have : (m:ℚ) * 2 ^ e ≤ 9007199254740991 * 2 ^ (-53:ℤ) := mul_le_mul h4 h3 (two_zpow_pos e).le (by norm_num)
        norm_num at this
        linarith
    · intro hq
      rcases le_or_gt (-52) e with g | g
      · obtain ⟨n, rfl⟩ : ∃ n : ℕ, e = -52 + n := ⟨(e + 52).toNat, by omega⟩
        have e1 : (m:ℚ) * 2 ^ (-52 + (n:ℤ)) = ((m * 2 ^ n : ℤ) : ℚ) / 2 ^ 52 := by
          rw [zpow_add₀ (by norm_num)]; push_cast; rw [zpow_natCast, zpow_neg]; ring_nf
        rw [e1] at hq ⊢
        push_cast at hq
        rw [div_lt_div_iff_of_pos_right (by positivity)] at hq
        have : 5392707603225180 < m * 2 ^ n := by exact_mod_cast hq
        rw [hf, div_le_div_iff_of_pos_right (by positivity)]
        exact_mod_cast (by omega : 5392707603225181 ≤ m * 2 ^ n)
      · exfalso
        have h3 : (2:ℝ) ^ e ≤ 2 ^ (-53:ℤ) := zpow_le_zpow_right₀ (by norm_num) (by omega)
        have h4 : (m:ℝ) ≤ 9007199254740991 := by exact_mod_cast (by omega : m ≤ 9007199254740991)
        have : (m:ℝ) * 2 ^ e ≤ 9007199254740991 * 2 ^ (-53:ℤ) := mul_le_mul h4 h3 (two_zpow_posR e).le (by norm_num)
        push_cast at hq
        norm_num at this hq
        linarith
  -- the tangent at the left end point exceeds one
  have ht1 : 1 < tan (7 / 8) := by
    rw [← tan_pi_div_four]
    have := pi_lt_d2
    exact tan_lt_tan_of_lt_of_lt_pi_div_two (by linarith [pi_pos]) (by linarith [pi_gt_three]) (by norm_num at this; linarith)
  have hb2 : tan b < tan (7 / 8) := by
    have p1 := pi_gt_d20
    have p2 := pi_lt_d20
    rw [show tan b = tan (b - π) from (tan_periodic.sub_eq b).symm]
    exact tan_lt_tan_of_lt_of_lt_pi_div_two (by rw [hbv]; norm_num at p2 ⊢; linarith) (by linarith)
      (by rw [hbv]; norm_num at p1 ⊢; linarith)
  obtain ⟨-, -, h3, n1, i1, e1, n2, i2, e2⟩ := tanI_fin hx ha hb
  have r1 : binary64.rdE (tan (7 / 8)) ≤ (f:ℝ) := by
    have h1le : ((1:ℝ):EReal) ≤ binary64.rdE (tan (7 / 8)) := by
      have := (binary64.le_rdE_iff (f := .fin 1) (rep_one _) (tan (7 / 8)) (by simp)).mpr (by
        rw [toE_one]; exact_mod_cast ht1.le)
      rw [toE_one] at this
      exact_mod_cast this
    obtain ⟨g, gi, gn, ge⟩ := binary64.exists_rdE (tan (7 / 8) : ℝ)
    rw [← ge] at h1le ⊢
    have hle := binary64.rdE_le (tan (7 / 8) : ℝ)
    rw [← ge] at hle
    cases g with
    | nan => exact absurd rfl gn
    | ninf => simp
    | pinf => simp at hle
    | nzero => rw [FP.toE_nzero] at h1le; exact absurd (by exact_mod_cast h1le : (1:ℝ) ≤ 0) (by norm_num)
    | fin q =>
      rw [FP.toE_fin] at hle h1le ⊢
      have hle : (q:ℝ) ≤ tan (7 / 8) := by exact_mod_cast hle
      have := (key q gi).1 (by linarith) (by exact_mod_cast h1le)
      exact_mod_cast this
  have r2 : ((f:ℝ):EReal) ≤ binary64.ruE (tan b) := by
    obtain ⟨g, gi, gn, ge⟩ : ∃ g : FP, g.In binary64 ∧ g ≠ .nan ∧ g.toE = binary64.ruE (tan b : ℝ) :=
      ⟨_, binary64.round_in .U _, binary64.round_ne_nan .U _, (binary64.ruE_coe _).symm⟩
    have hle := binary64.le_ruE (tan b : ℝ)
    rw [← ge] at hle ⊢
    cases g with
    | nan => exact absurd rfl gn
    | ninf => simp at hle
    | pinf => simp
    | nzero =>
      rw [FP.toE_nzero] at hle
      have : tan b ≤ 0 := by exact_mod_cast hle
      exact absurd (lt_of_lt_of_le h2 this) (by norm_num)
    | fin q =>
      rw [FP.toE_fin] at hle ⊢
      have hle : tan b ≤ (q:ℝ) := by exact_mod_cast hle
      have := (key q gi).2 (by linarith)
      exact_mod_cast this
  have hw : ((b - 7 / 8 : ℝ):EReal) ≤ binary64.rdE (π:ℝ) := by
    have p1 := pi_gt_d20
    have p2 := pi_lt_d20
    rw [rd_pi (φ := binary64) (k := 7074237752028440) (by simp only [binary64]; norm_num; norm_num at p1; linarith)
      (by simp only [binary64]; norm_num; norm_num at p2; linarith), hbv]
    simp only [binary64]
    norm_num
  exact ⟨b, hx, ha, hb, hbv, ht1, hw, r1.trans r2⟩

/-- **C11 is false for `double`.**  The interval `[0.875, 0.875 + RD(π)]` contains the pole `π/2` and the point `π`,
whose tangent is `0`; the computed result lies next to `1.197` (numerically, a single point). -/
theorem C11_tan_binary64_false : ∃ x : Itv, x.Ok binary64 ∧ x.HasPole ∧ ¬ tanRange x ⊆ (binary64.tanI x).set := by
  obtain ⟨b, hx, ha, hb, hbv, ht1, hw, hr⟩ := tan_witness_branch
  obtain ⟨-, -, h3, n1, i1, e1, n2, i2, e2⟩ := tanI_fin hx ha hb
  have hT := h3 hw hr
  refine ⟨tanWitness, tanWitness_ok, tanWitness_pole, fun hsub => ?_⟩
  · have h0 : (0:ℝ) ∈ tanRange tanWitness := ⟨π, hx.mem.mpr ⟨?_, ?_⟩, by simp, by simp⟩
    · have := hsub h0
      rw [hT] at this
      have := (Itv.mem_set.mp this).1.2
      rw [show (Itv.mk (binary64.tanF .D tanWitness.lo) (binary64.tanF .U tanWitness.hi)).lo = binary64.tanF .D tanWitness.lo from rfl, e1] at this
      have h1le := (binary64.le_rdE_iff (f := .fin 1) (rep_one _) (tan (7 / 8)) (by simp)).mpr (by
        rw [toE_one]; exact_mod_cast ht1.le)
      have := h1le.trans this
      rw [toE_one] at this
      exact absurd (by exact_mod_cast this : (1:ℝ) ≤ 0) (by norm_num)
    · rw [ha]; exact_mod_cast (by linarith [pi_gt_three])
    · have p2 := pi_lt_d20
      rw [hb, hbv]; exact_mod_cast (by norm_num at p2 ⊢; linarith)

/-- Non-vacuity of the positive theorems: an interval with a pole and one without. -/
example : (Itv.mk (.fin 1) (.fin 2)).Ok binary64 ∧ (Itv.mk (.fin 1) (.fin 2)).HasPole ∧
    ¬ TanBad binary64 (Itv.mk (.fin 1) (.fin 2)) := by
  refine ⟨Itv.ok_of_okb (by decide +kernel), ⟨π / 2, ⟨?_, ?_⟩, cos_pi_div_two⟩, fun hbad => ?_⟩
  · have := pi_gt_three
    show ((1 : ℚ):ℝ) ≤ π / 2
    push_cast; linarith
  · have := pi_le_four
    show π / 2 ≤ ((2 : ℚ):ℝ)
    push_cast; linarith
  · obtain ⟨a, b, ha, hb, h, -⟩ := hbad.critical (Itv.ok_of_okb (by decide +kernel))
    have ha : (1:ℝ) = a := by rw [show (Itv.mk (.fin 1) (.fin 2)).lo.toE = ((1:ℚ):ℝ) from rfl] at ha; push_cast at ha; exact_mod_cast ha
    have hb : (2:ℝ) = b := by rw [show (Itv.mk (.fin 1) (.fin 2)).hi.toE = ((2:ℚ):ℝ) from rfl] at hb; push_cast at hb; exact_mod_cast hb
    have : (2:ℝ) ^ (1 - ((53:ℕ):ℤ)) ≤ 1 := by norm_num
    have : (2:ℝ) ^ (1 - (binary64.p:ℤ)) ≤ 1 := this
    have := pi_gt_three
    subst ha hb
    linarith

end P1788
