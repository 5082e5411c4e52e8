import Verif.Lemmas.Glb
import Verif.Model.Elem
import Mathlib.Tactic.Order

/-! Helper lemmas for addition, multiplication, fused multiply-add. -/

namespace P1788
open FP

theorem Tightest.of_ok {φ : Fmt} {x : Itv} (h : x.Ok φ) : Tightest φ x x.set :=
  ⟨h, subset_rfl, fun _ _ h => h⟩

theorem Tightest.of_eq {φ : Fmt} {x : Itv} {S T : Set ℝ} (h : Tightest φ x S) (e : S = T) : Tightest φ x T :=
  e ▸ h

theorem tightest_empty' {φ : Fmt} {R : Itv} {S : Set ℝ} (h : R = Itv.empty) (hS : S = ∅) : Tightest φ R S := by
  rw [h, hS]; exact tightest_empty φ

theorem Box.of_eq {S T : Set ℝ} {a b : EReal} (h : Box S a b) (e : S = T) : Box T a b := e ▸ h

/-- The set of products. -/
abbrev prodSet (X Y : Set ℝ) : Set ℝ := {z | ∃ a ∈ X, ∃ b ∈ Y, z = a * b}

theorem box_mul {φ : Fmt} {x y : Itv} (hx : x.NE φ) (hy : y.NE φ) {l u : EReal}
    (hl : ∀ a ∈ x.set, ∀ b ∈ y.set, l ≤ (a:EReal) * (b:EReal))
    (hu : ∀ a ∈ x.set, ∀ b ∈ y.set, (a:EReal) * (b:EReal) ≤ u)
    (cl : l = x.lo.toE * y.lo.toE ∨ l = x.lo.toE * y.hi.toE ∨ l = x.hi.toE * y.lo.toE
      ∨ l = x.hi.toE * y.hi.toE ∨ l = min (x.lo.toE * y.hi.toE) (x.hi.toE * y.lo.toE))
    (cu : u = x.lo.toE * y.lo.toE ∨ u = x.lo.toE * y.hi.toE ∨ u = x.hi.toE * y.lo.toE
      ∨ u = x.hi.toE * y.hi.toE ∨ u = max (x.lo.toE * y.lo.toE) (x.hi.toE * y.hi.toE)) :
    Box (prodSet x.set y.set) l u := by
  obtain ⟨a, ha⟩ := hx.nonempty
  obtain ⟨b, hb⟩ := hy.nonempty
  refine Box.mk' ⟨a * b, a, ha, b, hb, rfl⟩ ?_ ?_ ?_ ?_
  · rintro _ ⟨a, ha, b, hb, rfl⟩
    rw [EReal.coe_mul]; exact hl a ha b hb
  · intro t ht
    obtain ⟨h1, h2, h3, h4⟩ := Box.corner_lower hx.box hy.box hx.zero_lo hx.zero_hi (t := t)
      (fun x hx y hy => ht _ ⟨x, hx, y, hy, rfl⟩)
    have h1 := h1 fun h => Or.inr (hy.zero_lo h)
    have h2 := h2 fun h => Or.inr (hy.zero_hi h)
    have h3 := h3 fun h => Or.inr (hy.zero_lo h)
    have h4 := h4 fun h => Or.inr (hy.zero_hi h)
    rcases cl with rfl | rfl | rfl | rfl | rfl <;> first | assumption | exact le_min h2 h3
  · rintro _ ⟨a, ha, b, hb, rfl⟩
    rw [EReal.coe_mul]; exact hu a ha b hb
  · intro t ht
    obtain ⟨h1, h2, h3, h4⟩ := Box.corner_upper hx.box hy.box hx.zero_lo hx.zero_hi (t := t)
      (fun x hx y hy => ht _ ⟨x, hx, y, hy, rfl⟩)
    have h1 := h1 fun h => Or.inr (hy.zero_lo h)
    have h2 := h2 fun h => Or.inr (hy.zero_hi h)
    have h3 := h3 fun h => Or.inr (hy.zero_lo h)
    have h4 := h4 fun h => Or.inr (hy.zero_hi h)
    rcases cu with rfl | rfl | rfl | rfl | rfl <;> first | assumption | exact max_le h1 h4

section leaves
variable {φ : Fmt} {x y : Itv} (hx : x.NE φ) (hy : y.NE φ)
include hx hy

theorem box_mul_nn (h1 : x.hi.toE ≤ 0) (h2 : y.hi.toE ≤ 0) :
    Box (prodSet x.set y.set) (x.hi.toE * y.hi.toE) (x.lo.toE * y.lo.toE) := by
  refine box_mul hx hy (fun a ha b hb => ?_) (fun a ha b hb => ?_) (by simp) (by simp)
  · obtain ⟨_, ha⟩ := hx.mem.mp ha; obtain ⟨_, hb⟩ := hy.mem.mp hb
    exact (EReal_mul_ge_left h1 hb).trans (EReal_mul_ge_right (hb.trans h2) ha)
  · obtain ⟨ha, ha'⟩ := hx.mem.mp ha; obtain ⟨hb, hb'⟩ := hy.mem.mp hb
    exact (EReal_mul_ge_left (ha'.trans h1) hb).trans (EReal_mul_ge_right ((hb.trans hb').trans h2) ha)

theorem box_mul_pn (h1 : 0 ≤ x.lo.toE) (h2 : y.hi.toE ≤ 0) :
    Box (prodSet x.set y.set) (x.hi.toE * y.lo.toE) (x.lo.toE * y.hi.toE) := by
  refine box_mul hx hy (fun a ha b hb => ?_) (fun a ha b hb => ?_) (by simp) (by simp)
  · obtain ⟨ha, ha'⟩ := hx.mem.mp ha; obtain ⟨hb, hb'⟩ := hy.mem.mp hb
    exact (EReal_mul_ge_right ((hb.trans hb').trans h2) ha').trans (EReal_mul_le_left (h1.trans ha) hb)
  · obtain ⟨ha, ha'⟩ := hx.mem.mp ha; obtain ⟨hb, hb'⟩ := hy.mem.mp hb
    exact (EReal_mul_ge_right (hb'.trans h2) ha).trans (EReal_mul_le_left h1 hb')

theorem box_mul_mn (h1 : x.lo.toE ≤ 0) (h1' : 0 ≤ x.hi.toE) (h2 : y.hi.toE ≤ 0) :
    Box (prodSet x.set y.set) (x.hi.toE * y.lo.toE) (x.lo.toE * y.lo.toE) := by
  refine box_mul hx hy (fun a ha b hb => ?_) (fun a ha b hb => ?_) (by simp) (by simp)
  · obtain ⟨ha, ha'⟩ := hx.mem.mp ha; obtain ⟨hb, hb'⟩ := hy.mem.mp hb
    exact (EReal_mul_le_left h1' hb).trans (EReal_mul_ge_right (hb'.trans h2) ha')
  · obtain ⟨ha, ha'⟩ := hx.mem.mp ha; obtain ⟨hb, hb'⟩ := hy.mem.mp hb
    exact (EReal_mul_ge_right (hb'.trans h2) ha).trans (EReal_mul_ge_left h1 hb)

theorem box_mul_np (h1 : x.hi.toE ≤ 0) (h2 : 0 ≤ y.lo.toE) :
    Box (prodSet x.set y.set) (x.lo.toE * y.hi.toE) (x.hi.toE * y.lo.toE) := by
  refine box_mul hx hy (fun a ha b hb => ?_) (fun a ha b hb => ?_) (by simp) (by simp)
  · obtain ⟨ha, ha'⟩ := hx.mem.mp ha; obtain ⟨hb, hb'⟩ := hy.mem.mp hb
    exact (EReal_mul_ge_left ((ha.trans ha').trans h1) hb').trans (EReal_mul_le_right (h2.trans hb) ha)
  · obtain ⟨ha, ha'⟩ := hx.mem.mp ha; obtain ⟨hb, hb'⟩ := hy.mem.mp hb
    exact (EReal_mul_le_right (h2.trans hb) ha').trans (EReal_mul_ge_left h1 hb)

theorem box_mul_pp (h1 : 0 ≤ x.lo.toE) (h2 : 0 ≤ y.lo.toE) :
    Box (prodSet x.set y.set) (x.lo.toE * y.lo.toE) (x.hi.toE * y.hi.toE) := by
  refine box_mul hx hy (fun a ha b hb => ?_) (fun a ha b hb => ?_) (by simp) (by simp)
  · obtain ⟨ha, ha'⟩ := hx.mem.mp ha; obtain ⟨hb, hb'⟩ := hy.mem.mp hb
    exact (EReal_mul_le_left h1 hb).trans (EReal_mul_le_right (h2.trans hb) ha)
  · obtain ⟨ha, ha'⟩ := hx.mem.mp ha; obtain ⟨hb, hb'⟩ := hy.mem.mp hb
    exact (EReal_mul_le_left (h1.trans ha) hb').trans (EReal_mul_le_right ((h2.trans hb).trans hb') ha')

theorem box_mul_mp (h1 : x.lo.toE ≤ 0) (h1' : 0 ≤ x.hi.toE) (h2 : 0 ≤ y.lo.toE) :
    Box (prodSet x.set y.set) (x.lo.toE * y.hi.toE) (x.hi.toE * y.hi.toE) := by
  refine box_mul hx hy (fun a ha b hb => ?_) (fun a ha b hb => ?_) (by simp) (by simp)
  · obtain ⟨ha, ha'⟩ := hx.mem.mp ha; obtain ⟨hb, hb'⟩ := hy.mem.mp hb
    exact (EReal_mul_ge_left h1 hb').trans (EReal_mul_le_right (h2.trans hb) ha)
  · obtain ⟨ha, ha'⟩ := hx.mem.mp ha; obtain ⟨hb, hb'⟩ := hy.mem.mp hb
    exact (EReal_mul_le_right (h2.trans hb) ha').trans (EReal_mul_le_left h1' hb')

theorem box_mul_nm (h1 : x.hi.toE ≤ 0) (h2 : y.lo.toE ≤ 0) (h2' : 0 ≤ y.hi.toE) :
    Box (prodSet x.set y.set) (x.lo.toE * y.hi.toE) (x.lo.toE * y.lo.toE) := by
  refine box_mul hx hy (fun a ha b hb => ?_) (fun a ha b hb => ?_) (by simp) (by simp)
  · obtain ⟨ha, ha'⟩ := hx.mem.mp ha; obtain ⟨hb, hb'⟩ := hy.mem.mp hb
    exact (EReal_mul_le_right h2' ha).trans (EReal_mul_ge_left (ha'.trans h1) hb')
  · obtain ⟨ha, ha'⟩ := hx.mem.mp ha; obtain ⟨hb, hb'⟩ := hy.mem.mp hb
    exact (EReal_mul_ge_left (ha'.trans h1) hb).trans (EReal_mul_ge_right h2 ha)

theorem box_mul_pm (h1 : 0 ≤ x.lo.toE) (h2 : y.lo.toE ≤ 0) (h2' : 0 ≤ y.hi.toE) :
    Box (prodSet x.set y.set) (x.hi.toE * y.lo.toE) (x.hi.toE * y.hi.toE) := by
  refine box_mul hx hy (fun a ha b hb => ?_) (fun a ha b hb => ?_) (by simp) (by simp)
  · obtain ⟨ha, ha'⟩ := hx.mem.mp ha; obtain ⟨hb, hb'⟩ := hy.mem.mp hb
    exact (EReal_mul_ge_right h2 ha').trans (EReal_mul_le_left (h1.trans ha) hb)
  · obtain ⟨ha, ha'⟩ := hx.mem.mp ha; obtain ⟨hb, hb'⟩ := hy.mem.mp hb
    exact (EReal_mul_le_left (h1.trans ha) hb').trans (EReal_mul_le_right h2' ha')

theorem box_mul_mm (h1 : x.lo.toE ≤ 0) (h1' : 0 ≤ x.hi.toE) (h2 : y.lo.toE ≤ 0) (h2' : 0 ≤ y.hi.toE) :
    Box (prodSet x.set y.set) (min (x.lo.toE * y.hi.toE) (x.hi.toE * y.lo.toE))
      (max (x.lo.toE * y.lo.toE) (x.hi.toE * y.hi.toE)) := by
  refine box_mul hx hy (fun a ha b hb => ?_) (fun a ha b hb => ?_) (by simp) (by simp)
  · obtain ⟨ha, ha'⟩ := hx.mem.mp ha; obtain ⟨hb, hb'⟩ := hy.mem.mp hb
    rcases le_total (b:EReal) 0 with h | h
    · exact (min_le_right _ _).trans ((EReal_mul_le_left h1' hb).trans (EReal_mul_ge_right h ha'))
    · exact (min_le_left _ _).trans ((EReal_mul_ge_left h1 hb').trans (EReal_mul_le_right h ha))
  · obtain ⟨ha, ha'⟩ := hx.mem.mp ha; obtain ⟨hb, hb'⟩ := hy.mem.mp hb
    rcases le_total (b:EReal) 0 with h | h
    · exact ((EReal_mul_ge_right h ha).trans (EReal_mul_ge_left h1 hb)).trans (le_max_left _ _)
    · exact ((EReal_mul_le_right h ha').trans (EReal_mul_le_left h1' hb')).trans (le_max_right _ _)

end leaves

/-- No `0 * ∞`. -/
def NoNan (a b : EReal) : Prop := (a ≠ 0 ∧ b ≠ 0) ∨ (a ≠ ⊤ ∧ a ≠ ⊥ ∧ b ≠ ⊤ ∧ b ≠ ⊥)

theorem mul_spec' (φ : Fmt) (m : Rnd) {a b : FP} (ha : a ≠ .nan) (hb : b ≠ .nan) (h : NoNan a.toE b.toE) :
    φ.mul m a b ≠ .nan ∧ (φ.mul m a b).toE = φ.rndE m (a.toE * b.toE) := by
  apply φ.mul_spec m ha hb <;> unfold NoNan at h <;> tauto

theorem mpfrMin_ne_nan {a b : FP} (ha : a ≠ .nan) (hb : b ≠ .nan) : a.mpfrMin b ≠ .nan := by
  unfold FP.mpfrMin
  split_ifs <;> first | assumption | exact FP.mkZero_ne_nan _
theorem mpfrMax_ne_nan {a b : FP} (ha : a ≠ .nan) (hb : b ≠ .nan) : a.mpfrMax b ≠ .nan := by
  unfold FP.mpfrMax
  split_ifs <;> first | assumption | exact FP.mkZero_ne_nan _
theorem mpfrMin_in {φ : Fmt} {a b : FP} (ha : a.In φ) (hb : b.In φ) : (a.mpfrMin b).In φ := by
  unfold FP.mpfrMin
  split_ifs <;> first | assumption | exact φ.mkZero_in _
theorem mpfrMax_in {φ : Fmt} {a b : FP} (ha : a.In φ) (hb : b.In φ) : (a.mpfrMax b).In φ := by
  unfold FP.mpfrMax
  split_ifs <;> first | assumption | exact φ.mkZero_in _
theorem toE_mpfrMin {a b : FP} (ha : a ≠ .nan) (hb : b ≠ .nan) : (a.mpfrMin b).toE = min a.toE b.toE := by
  unfold FP.mpfrMin
  rw [if_neg (by rw [Itv.isNaN_iff]; exact ha), if_neg (by rw [Itv.isNaN_iff]; exact hb)]
  split_ifs with h h
  · rw [Bool.and_eq_true, Fmt.isZero_iff ha, Fmt.isZero_iff hb] at h
    simp [h.1, h.2]
  · rw [FP.le_iff ha hb] at h; rw [min_eq_left h]
  · rw [FP.le_iff ha hb, not_le] at h; rw [min_eq_right h.le]
theorem toE_mpfrMax {a b : FP} (ha : a ≠ .nan) (hb : b ≠ .nan) : (a.mpfrMax b).toE = max a.toE b.toE := by
  unfold FP.mpfrMax
  rw [if_neg (by rw [Itv.isNaN_iff]; exact ha), if_neg (by rw [Itv.isNaN_iff]; exact hb)]
  split_ifs with h h
  · rw [Bool.and_eq_true, Fmt.isZero_iff ha, Fmt.isZero_iff hb] at h
    simp [h.1, h.2]
  · rw [FP.le_iff ha hb] at h; rw [max_eq_right h]
  · rw [FP.le_iff ha hb, not_le] at h; rw [max_eq_left h.le]

theorem rdE_min (φ : Fmt) (a b : EReal) : φ.rdE (min a b) = min (φ.rdE a) (φ.rdE b) :=
  Monotone.map_min (fun _ _ h => φ.rdE_mono h)
theorem ruE_max (φ : Fmt) (a b : EReal) : φ.ruE (max a b) = max (φ.ruE a) (φ.ruE b) :=
  Monotone.map_max (fun _ _ h => φ.ruE_mono h)

theorem NE.isZeroItv_iff {φ : Fmt} {x : Itv} (h : x.NE φ) :
    Fmt.isZeroItv x = true ↔ x.lo.toE = 0 ∧ x.hi.toE = 0 := by
  unfold Fmt.isZeroItv
  rw [Bool.and_eq_true, FP.feq_iff h.lo_ne (by simp), FP.feq_iff h.hi_ne (by simp)]
  simp

theorem NE.isEntire_iff {φ : Fmt} {x : Itv} (h : x.NE φ) :
    x.isEntire = true ↔ x.lo.toE = ⊥ ∧ x.hi.toE = ⊤ := by
  unfold Itv.isEntire
  rw [h.isValid, Bool.true_and, Bool.and_eq_true, FP.feq_iff h.lo_ne (by simp), FP.feq_iff h.hi_ne (by simp)]
  simp

theorem NE.le0_iff {a : FP} (h : a ≠ .nan) : a ≤ .fin 0 ↔ a.toE ≤ 0 := by
  rw [FP.le_iff h (by simp)]; simp
theorem NE.ge0_iff {a : FP} (h : a ≠ .nan) : .fin 0 ≤ a ↔ 0 ≤ a.toE := by
  rw [FP.le_iff (by simp) h]; simp
theorem NE.lt0_iff {a : FP} (h : a ≠ .nan) : a < .fin 0 ↔ a.toE < 0 := by
  rw [FP.lt_iff h (by simp)]; simp
theorem NE.gt0_iff {a : FP} (h : a ≠ .nan) : .fin 0 < a ↔ 0 < a.toE := by
  rw [FP.lt_iff (by simp) h]; simp
theorem NE.eq0_iff {a : FP} (h : a ≠ .nan) : a.feq (.fin 0) = true ↔ a.toE = 0 := by
  rw [FP.feq_iff h (by simp)]; simp

/-- Sets of intervals with extreme bounds. -/
theorem NE.set_zero {φ : Fmt} {x : Itv} (h : x.NE φ) (h0 : x.lo.toE = 0 ∧ x.hi.toE = 0) : x.set = {0} := by
  ext r
  rw [h.mem, h0.1, h0.2]
  rw [Set.mem_singleton_iff, ← EReal.coe_zero, EReal.coe_le_coe_iff, EReal.coe_le_coe_iff]
  exact ⟨fun h => le_antisymm h.2 h.1, fun h => by rw [h]; exact ⟨le_rfl, le_rfl⟩⟩

theorem NE.set_univ {φ : Fmt} {x : Itv} (h : x.NE φ) (h0 : x.lo.toE = ⊥ ∧ x.hi.toE = ⊤) : x.set = Set.univ := by
  ext r
  rw [h.mem, h0.1, h0.2]; simp

theorem NE.exists_ne_zero {φ : Fmt} {x : Itv} (h : x.NE φ) (h0 : ¬(x.lo.toE = 0 ∧ x.hi.toE = 0)) :
    ∃ r ∈ x.set, r ≠ 0 := by
  by_contra hcon
  push Not at hcon
  have h1 : x.set = {0} := by
    obtain ⟨r, hr⟩ := h.nonempty
    exact Set.Subset.antisymm (fun r hr => hcon r hr) (by rintro _ rfl; exact hcon r hr ▸ hr)
  have hB := h.box
  rw [h1] at hB
  apply h0
  constructor
  · apply le_antisymm (hB.le rfl)
    exact hB.le_glb (by rintro _ rfl; simp)
  · apply le_antisymm _ (hB.ge rfl)
    exact hB.lub_le (by rintro _ rfl; simp)

theorem prodSet_univ_left {Y : Set ℝ} (h : ∃ r ∈ Y, r ≠ 0) : prodSet Set.univ Y = Set.univ := by
  obtain ⟨r, hr, h0⟩ := h
  ext z
  simp only [Set.mem_univ, iff_true]
  exact ⟨z / r, trivial, r, hr, by field_simp⟩
theorem prodSet_univ_right {Y : Set ℝ} (h : ∃ r ∈ Y, r ≠ 0) : prodSet Y Set.univ = Set.univ := by
  obtain ⟨r, hr, h0⟩ := h
  ext z
  simp only [Set.mem_univ, iff_true]
  exact ⟨r, hr, z / r, trivial, by field_simp⟩
theorem prodSet_zero_left {Y : Set ℝ} (h : Y.Nonempty) : prodSet {0} Y = {0} := by
  obtain ⟨r, hr⟩ := h
  ext z
  constructor
  · rintro ⟨_, rfl, b, hb, rfl⟩; simp
  · rintro rfl; exact ⟨0, rfl, r, hr, by simp⟩
theorem prodSet_zero_right {Y : Set ℝ} (h : Y.Nonempty) : prodSet Y {0} = {0} := by
  obtain ⟨r, hr⟩ := h
  ext z
  constructor
  · rintro ⟨a, ha, _, rfl, rfl⟩; simp
  · rintro rfl; exact ⟨r, hr, 0, rfl, by simp⟩

/-- What the multiplication leaves compute: the pairs of bounds whose products are infimum and supremum. -/
structure MulLeaf (φ : Fmt) (x y : Itv) (p q r s : FP) : Prop where
  box : Box (prodSet x.set y.set) (p.toE * q.toE) (r.toE * s.toE)
  p_ne : p ≠ .nan
  q_ne : q ≠ .nan
  r_ne : r ≠ .nan
  s_ne : s ≠ .nan
  lo : NoNan p.toE q.toE
  hi : NoNan r.toE s.toE

theorem zero_lt_top' : (0:EReal) < ⊤ := by simp
theorem bot_lt_zero' : (⊥:EReal) < 0 := by simp

theorem MulLeaf.tight {φ : Fmt} {x y : Itv} {p q r s : FP} (h : MulLeaf φ x y p q r s) :
    Tightest φ ⟨φ.mul .D p q, φ.mul .U r s⟩ (prodSet x.set y.set) := by
  obtain ⟨h1, h2⟩ := mul_spec' φ .D h.p_ne h.q_ne h.lo
  obtain ⟨h3, h4⟩ := mul_spec' φ .U h.r_ne h.s_ne h.hi
  exact tightest_of_box h.box h1 h3 (φ.mul_in _ _ _) (φ.mul_in _ _ _) h2 h4

macro "nonan" : tactic => `(tactic|
  first
  | (left; constructor <;> order)
  | (right; refine ⟨?_, ?_, ?_, ?_⟩ <;> order))

section
variable {φ : Fmt} {x y : Itv}

/-- The eight leaves with a single product for each bound. -/
theorem mulLeaves (hx : x.NE φ) (hy : y.NE φ) (zx : ¬(x.lo.toE = 0 ∧ x.hi.toE = 0))
    (zy : ¬(y.lo.toE = 0 ∧ y.hi.toE = 0)) :
    (y.hi.toE ≤ 0 → x.hi.toE ≤ 0 → MulLeaf φ x y x.hi y.hi x.lo y.lo) ∧
    (y.hi.toE ≤ 0 → 0 ≤ x.lo.toE → MulLeaf φ x y x.hi y.lo x.lo y.hi) ∧
    (y.hi.toE ≤ 0 → ¬ x.hi.toE ≤ 0 → ¬ 0 ≤ x.lo.toE → MulLeaf φ x y x.hi y.lo x.lo y.lo) ∧
    (0 ≤ y.lo.toE → x.hi.toE ≤ 0 → MulLeaf φ x y x.lo y.hi x.hi y.lo) ∧
    (0 ≤ y.lo.toE → 0 ≤ x.lo.toE → MulLeaf φ x y x.lo y.lo x.hi y.hi) ∧
    (0 ≤ y.lo.toE → ¬ x.hi.toE ≤ 0 → ¬ 0 ≤ x.lo.toE → MulLeaf φ x y x.lo y.hi x.hi y.hi) ∧
    (¬ y.hi.toE ≤ 0 → ¬ 0 ≤ y.lo.toE → x.hi.toE ≤ 0 → MulLeaf φ x y x.lo y.hi x.lo y.lo) ∧
    (¬ y.hi.toE ≤ 0 → ¬ 0 ≤ y.lo.toE → 0 ≤ x.lo.toE → MulLeaf φ x y x.hi y.lo x.hi y.hi) := by
  have e1 := hx.le; have e2 := hy.le
  have e3 := hx.lo_top; have e4 := hx.hi_bot
  have e5 := hy.lo_top; have e6 := hy.hi_bot
  have t1 := zero_lt_top'; have t2 := bot_lt_zero'
  have n1 := hx.lo_ne; have n2 := hx.hi_ne; have n3 := hy.lo_ne; have n4 := hy.hi_ne
  have zx1 : x.lo.toE ≠ 0 ∨ x.hi.toE ≠ 0 := by tauto
  have zy1 : y.lo.toE ≠ 0 ∨ y.hi.toE ≠ 0 := by tauto
  refine ⟨fun a b => ?_, fun a b => ?_, fun a b c => ?_, fun a b => ?_, fun a b => ?_, fun a b c => ?_,
    fun a b c => ?_, fun a b c => ?_⟩
  · refine ⟨box_mul_nn hx hy b a, n2, n4, n1, n3, ?_, ?_⟩
    · nonan
    · rcases zx1 with h | h <;> rcases zy1 with h' | h' <;> nonan
  · refine ⟨box_mul_pn hx hy b a, n2, n3, n1, n4, ?_, ?_⟩
    · rcases zx1 with h | h <;> rcases zy1 with h' | h' <;> nonan
    · nonan
  · refine ⟨box_mul_mn hx hy (le_of_lt (not_le.mp c)) (le_of_lt (not_le.mp b)) a, n2, n3, n1, n3, ?_, ?_⟩
    · rcases zy1 with h' | h' <;> nonan
    · rcases zy1 with h' | h' <;> nonan
  · refine ⟨box_mul_np hx hy b a, n1, n4, n2, n3, ?_, ?_⟩
    · rcases zx1 with h | h <;> rcases zy1 with h' | h' <;> nonan
    · nonan
  · refine ⟨box_mul_pp hx hy b a, n1, n3, n2, n4, ?_, ?_⟩
    · nonan
    · rcases zx1 with h | h <;> rcases zy1 with h' | h' <;> nonan
  · refine ⟨box_mul_mp hx hy (le_of_lt (not_le.mp c)) (le_of_lt (not_le.mp b)) a, n1, n4, n2, n4, ?_, ?_⟩
    · rcases zy1 with h' | h' <;> nonan
    · rcases zy1 with h' | h' <;> nonan
  · refine ⟨box_mul_nm hx hy c (le_of_lt (not_le.mp b)) (le_of_lt (not_le.mp a)), n1, n4, n1, n3, ?_, ?_⟩
    · rcases zx1 with h' | h' <;> nonan
    · rcases zx1 with h' | h' <;> nonan
  · refine ⟨box_mul_pm hx hy c (le_of_lt (not_le.mp b)) (le_of_lt (not_le.mp a)), n2, n3, n2, n4, ?_, ?_⟩
    · rcases zx1 with h' | h' <;> nonan
    · rcases zx1 with h' | h' <;> nonan

end

end P1788
