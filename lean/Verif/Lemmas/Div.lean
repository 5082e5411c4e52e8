import Verif.Lemmas.Mono

/-! Helper lemmas for division. -/

namespace P1788
open FP

/-- Executable check that a datum belongs to a format (used in examples). -/
def FP.inb (φ : Fmt) : FP → Bool
  | .fin q => decide (q = 0) || decide (φ.round .D q = .fin q)
  | _ => true

theorem FP.in_of_inb {φ : Fmt} {a : FP} (h : a.inb φ = true) : a.In φ := by
  cases a with
  | fin q =>
    simp only [FP.inb, Bool.or_eq_true, decide_eq_true_eq] at h
    rcases h with rfl | h
    · exact φ.rep_zero
    · rw [← h]; exact φ.round_rat_in .D q
  | _ => trivial

/-- Executable check for `Itv.Ok` (used in examples). -/
def Itv.okb (φ : Fmt) (x : Itv) : Bool := x.isValid && x.lo.inb φ && x.hi.inb φ

theorem Itv.ok_of_okb {φ : Fmt} {x : Itv} (h : x.okb φ = true) : x.Ok φ := by
  simp only [Itv.okb, Bool.and_eq_true] at h
  exact Itv.ok_iff_isValid.mpr ⟨h.1.1, FP.in_of_inb h.1.2, FP.in_of_inb h.2⟩

/-- Products of an interval with a set of known infimum and supremum. -/
theorem box_mul' {φ : Fmt} {x : Itv} {T : Set ℝ} {c d : EReal} (hx : x.NE φ) (hT : Box T c d) {l u : EReal}
    (hl : ∀ a ∈ x.set, ∀ b ∈ T, l ≤ (a:EReal) * (b:EReal))
    (hu : ∀ a ∈ x.set, ∀ b ∈ T, (a:EReal) * (b:EReal) ≤ u)
    (cl : (l = x.lo.toE * c ∧ (c = 0 → x.lo.toE ≠ ⊤ ∧ x.lo.toE ≠ ⊥))
        ∨ (l = x.lo.toE * d ∧ (d = 0 → x.lo.toE ≠ ⊤ ∧ x.lo.toE ≠ ⊥))
        ∨ (l = x.hi.toE * c ∧ (c = 0 → x.hi.toE ≠ ⊤ ∧ x.hi.toE ≠ ⊥))
        ∨ (l = x.hi.toE * d ∧ (d = 0 → x.hi.toE ≠ ⊤ ∧ x.hi.toE ≠ ⊥)))
    (cu : (u = x.lo.toE * c ∧ (c = 0 → x.lo.toE ≠ ⊤ ∧ x.lo.toE ≠ ⊥))
        ∨ (u = x.lo.toE * d ∧ (d = 0 → x.lo.toE ≠ ⊤ ∧ x.lo.toE ≠ ⊥))
        ∨ (u = x.hi.toE * c ∧ (c = 0 → x.hi.toE ≠ ⊤ ∧ x.hi.toE ≠ ⊥))
        ∨ (u = x.hi.toE * d ∧ (d = 0 → x.hi.toE ≠ ⊤ ∧ x.hi.toE ≠ ⊥))) :
    Box (prodSet x.set T) l u := by
  obtain ⟨a, ha⟩ := hx.nonempty
  obtain ⟨b, hb⟩ := hT.ne
  refine Box.mk' ⟨a * b, a, ha, b, hb, rfl⟩ ?_ ?_ ?_ ?_
  · rintro _ ⟨a, ha, b, hb, rfl⟩
    rw [EReal.coe_mul]; exact hl a ha b hb
  · intro t ht
    obtain ⟨h1, h2, h3, h4⟩ := Box.corner_lower hx.box hT hx.zero_lo hx.zero_hi (t := t)
      (fun x hx y hy => ht _ ⟨x, hx, y, hy, rfl⟩)
    rcases cl with ⟨rfl, h⟩ | ⟨rfl, h⟩ | ⟨rfl, h⟩ | ⟨rfl, h⟩
    · exact h1 fun e => Or.inl (h e)
    · exact h2 fun e => Or.inl (h e)
    · exact h3 fun e => Or.inl (h e)
    · exact h4 fun e => Or.inl (h e)
  · rintro _ ⟨a, ha, b, hb, rfl⟩
    rw [EReal.coe_mul]; exact hu a ha b hb
  · intro t ht
    obtain ⟨h1, h2, h3, h4⟩ := Box.corner_upper hx.box hT hx.zero_lo hx.zero_hi (t := t)
      (fun x hx y hy => ht _ ⟨x, hx, y, hy, rfl⟩)
    rcases cu with ⟨rfl, h⟩ | ⟨rfl, h⟩ | ⟨rfl, h⟩ | ⟨rfl, h⟩
    · exact h1 fun e => Or.inl (h e)
    · exact h2 fun e => Or.inl (h e)
    · exact h3 fun e => Or.inl (h e)
    · exact h4 fun e => Or.inl (h e)

/-- Finite extended real. -/
abbrev FinE (a : EReal) : Prop := a ≠ ⊤ ∧ a ≠ ⊥

section leaves
variable {φ : Fmt} {x : Itv} {T : Set ℝ} {c d : EReal} (hx : x.NE φ) (hT : Box T c d)
include hx hT

theorem gbox_nn (h1 : x.hi.toE ≤ 0) (h2 : d ≤ 0) (s1 : d = 0 → FinE x.hi.toE) (s2 : c = 0 → FinE x.lo.toE) :
    Box (prodSet x.set T) (x.hi.toE * d) (x.lo.toE * c) := by
  refine box_mul' hx hT (fun a ha b hb => ?_) (fun a ha b hb => ?_) (by tauto) (by tauto)
  · obtain ⟨_, ha⟩ := hx.mem.mp ha; have hb := hT.ge hb
    exact (EReal_mul_ge_left h1 hb).trans (EReal_mul_ge_right (hb.trans h2) ha)
  · obtain ⟨ha, ha'⟩ := hx.mem.mp ha; have hb' := hT.ge hb; have hb := hT.le hb
    exact (EReal_mul_ge_left (ha'.trans h1) hb).trans (EReal_mul_ge_right ((hb.trans hb').trans h2) ha)

theorem gbox_pn (h1 : 0 ≤ x.lo.toE) (h2 : d ≤ 0) (s1 : c = 0 → FinE x.hi.toE) (s2 : d = 0 → FinE x.lo.toE) :
    Box (prodSet x.set T) (x.hi.toE * c) (x.lo.toE * d) := by
  refine box_mul' hx hT (fun a ha b hb => ?_) (fun a ha b hb => ?_) (by tauto) (by tauto)
  · obtain ⟨ha, ha'⟩ := hx.mem.mp ha; have hb' := hT.ge hb; have hb := hT.le hb
    exact (EReal_mul_ge_right ((hb.trans hb').trans h2) ha').trans (EReal_mul_le_left (h1.trans ha) hb)
  · obtain ⟨ha, ha'⟩ := hx.mem.mp ha; have hb' := hT.ge hb; have hb := hT.le hb
    exact (EReal_mul_ge_right (hb'.trans h2) ha).trans (EReal_mul_le_left h1 hb')

theorem gbox_mn (h1 : x.lo.toE ≤ 0) (h1' : 0 ≤ x.hi.toE) (h2 : d ≤ 0)
    (s1 : c = 0 → FinE x.hi.toE) (s2 : c = 0 → FinE x.lo.toE) :
    Box (prodSet x.set T) (x.hi.toE * c) (x.lo.toE * c) := by
  refine box_mul' hx hT (fun a ha b hb => ?_) (fun a ha b hb => ?_) (by tauto) (by tauto)
  · obtain ⟨ha, ha'⟩ := hx.mem.mp ha; have hb' := hT.ge hb; have hb := hT.le hb
    exact (EReal_mul_le_left h1' hb).trans (EReal_mul_ge_right (hb'.trans h2) ha')
  · obtain ⟨ha, ha'⟩ := hx.mem.mp ha; have hb' := hT.ge hb; have hb := hT.le hb
    exact (EReal_mul_ge_right (hb'.trans h2) ha).trans (EReal_mul_ge_left h1 hb)

theorem gbox_np (h1 : x.hi.toE ≤ 0) (h2 : 0 ≤ c) (s1 : d = 0 → FinE x.lo.toE) (s2 : c = 0 → FinE x.hi.toE) :
    Box (prodSet x.set T) (x.lo.toE * d) (x.hi.toE * c) := by
  refine box_mul' hx hT (fun a ha b hb => ?_) (fun a ha b hb => ?_) (by tauto) (by tauto)
  · obtain ⟨ha, ha'⟩ := hx.mem.mp ha; have hb' := hT.ge hb; have hb := hT.le hb
    exact (EReal_mul_ge_left ((ha.trans ha').trans h1) hb').trans (EReal_mul_le_right (h2.trans hb) ha)
  · obtain ⟨ha, ha'⟩ := hx.mem.mp ha; have hb' := hT.ge hb; have hb := hT.le hb
    exact (EReal_mul_le_right (h2.trans hb) ha').trans (EReal_mul_ge_left h1 hb)

theorem gbox_pp (h1 : 0 ≤ x.lo.toE) (h2 : 0 ≤ c) (s1 : c = 0 → FinE x.lo.toE) (s2 : d = 0 → FinE x.hi.toE) :
    Box (prodSet x.set T) (x.lo.toE * c) (x.hi.toE * d) := by
  refine box_mul' hx hT (fun a ha b hb => ?_) (fun a ha b hb => ?_) (by tauto) (by tauto)
  · obtain ⟨ha, ha'⟩ := hx.mem.mp ha; have hb' := hT.ge hb; have hb := hT.le hb
    exact (EReal_mul_le_left h1 hb).trans (EReal_mul_le_right (h2.trans hb) ha)
  · obtain ⟨ha, ha'⟩ := hx.mem.mp ha; have hb' := hT.ge hb; have hb := hT.le hb
    exact (EReal_mul_le_left (h1.trans ha) hb').trans (EReal_mul_le_right ((h2.trans hb).trans hb') ha')

theorem gbox_mp (h1 : x.lo.toE ≤ 0) (h1' : 0 ≤ x.hi.toE) (h2 : 0 ≤ c)
    (s1 : d = 0 → FinE x.lo.toE) (s2 : d = 0 → FinE x.hi.toE) :
    Box (prodSet x.set T) (x.lo.toE * d) (x.hi.toE * d) := by
  refine box_mul' hx hT (fun a ha b hb => ?_) (fun a ha b hb => ?_) (by tauto) (by tauto)
  · obtain ⟨ha, ha'⟩ := hx.mem.mp ha; have hb' := hT.ge hb; have hb := hT.le hb
    exact (EReal_mul_ge_left h1 hb').trans (EReal_mul_le_right (h2.trans hb) ha)
  · obtain ⟨ha, ha'⟩ := hx.mem.mp ha; have hb' := hT.ge hb; have hb := hT.le hb
    exact (EReal_mul_le_right (h2.trans hb) ha').trans (EReal_mul_le_left h1' hb')

end leaves

/-- The set of quotients. -/
abbrev quotSet (X Y : Set ℝ) : Set ℝ := {z | ∃ a ∈ X, ∃ b ∈ Y, b ≠ 0 ∧ z = a / b}

theorem quotSet_eq (X Y : Set ℝ) : prodSet X (invSet Y) = quotSet X Y := by
  ext z; constructor
  · rintro ⟨a, ha, _, ⟨b, hb, h0, rfl⟩, rfl⟩; exact ⟨a, ha, b, hb, h0, rfl⟩
  · rintro ⟨a, ha, b, hb, h0, rfl⟩; exact ⟨a, ha, _, ⟨b, hb, h0, rfl⟩, rfl⟩

theorem inv_eq_zero' {a : EReal} (h : a ≠ 0) : a⁻¹ = 0 ↔ a = ⊤ ∨ a = ⊥ := by
  induction a with
  | bot => simp
  | top => simp
  | coe a =>
    rw [← EReal.coe_inv]
    have : a ≠ 0 := by exact_mod_cast h
    constructor
    · intro h1
      have : a⁻¹ = 0 := by exact_mod_cast h1
      simp_all
    · intro h1; simp at h1

end P1788

namespace P1788

theorem quot_box_entire {X : Set ℝ} {c d : EReal} (hX : ∃ r ∈ X, r ≠ 0) (hc : c < 0) (hd : 0 < d) :
    Box (quotSet X (Seg c d)) ⊥ ⊤ := by
  obtain ⟨a, ha, ha0⟩ := hX
  obtain ⟨e1, h1, h1'⟩ := EReal.lt_iff_exists_real_btwn.mp hc
  obtain ⟨e2, h2, h2'⟩ := EReal.lt_iff_exists_real_btwn.mp hd
  have h1r : e1 < 0 := by exact_mod_cast h1'
  have h2r : 0 < e2 := by exact_mod_cast h2
  have key : ∀ K : ℝ, |a| / min (-e1) e2 ≤ |K| → K ≠ 0 → K ∈ quotSet X (Seg c d) := by
    intro K hK hK0
    have hmin : 0 < min (-e1) e2 := lt_min (by linarith) h2r
    have hb : |a / K| ≤ min (-e1) e2 := by
      rw [abs_div, div_le_iff₀ (abs_pos.mpr hK0)]
      rw [div_le_iff₀ hmin] at hK; linarith
    rw [abs_le] at hb
    have m1 := min_le_left (-e1) e2
    have m2 := min_le_right (-e1) e2
    refine ⟨a, ha, a / K, ⟨h1.le.trans ?_, le_trans ?_ h2'.le⟩, div_ne_zero ha0 hK0, by field_simp⟩
    · rw [EReal.coe_le_coe_iff]; linarith
    · rw [EReal.coe_le_coe_iff]; linarith
  have hK0 : 0 ≤ |a| / min (-e1) e2 := div_nonneg (abs_nonneg a) (lt_min (by linarith) h2r).le
  set K0 := |a| / min (-e1) e2
  refine Box.mk' ⟨K0 + 1, key _ ?_ ?_⟩ (fun _ _ => bot_le) (fun t ht => ?_) (fun _ _ => le_top) (fun t ht => ?_)
  · rw [abs_of_nonneg] <;> linarith
  · linarith
  · by_contra hcon
    rw [not_le] at hcon
    have htop : t ≠ ⊤ := by
      rintro rfl
      have := ht (K0+1) (key _ (by rw [abs_of_nonneg] <;> linarith) (by linarith))
      exact absurd (top_le_iff.mp this) (EReal.coe_ne_top _)
    lift t to ℝ using ⟨htop, hcon.ne'⟩
    have h3 := ht (-(K0 + |t| + 1)) (key _ (by
      rw [abs_neg, abs_of_nonneg (by positivity)]; have := abs_nonneg t; linarith) (by
      have := abs_nonneg t; linarith))
    rw [EReal.coe_le_coe_iff] at h3
    have := neg_abs_le t
    linarith
  · by_contra hcon
    rw [not_le] at hcon
    have htop : t ≠ ⊥ := by
      rintro rfl
      have := ht (K0+1) (key _ (by rw [abs_of_nonneg] <;> linarith) (by linarith))
      exact absurd (le_bot_iff.mp this) (EReal.coe_ne_bot _)
    lift t to ℝ using ⟨hcon.ne, htop⟩
    have h3 := ht (K0 + |t| + 1) (key _ (by
      rw [abs_of_nonneg (by positivity)]; have := abs_nonneg t; linarith) (by
      have := abs_nonneg t; linarith))
    rw [EReal.coe_le_coe_iff] at h3
    have := le_abs_self t
    linarith

theorem tight_entire {φ : Fmt} {S : Set ℝ} (h : Box S ⊥ ⊤) : Tightest φ Itv.entire S :=
  tightest_of_box h (by simp [Itv.entire]) (by simp [Itv.entire]) trivial trivial (by simp [Itv.entire])
    (by simp [Itv.entire])

end P1788
