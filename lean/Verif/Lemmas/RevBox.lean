import Verif.Lemmas.RevRoot
import Verif.Lemmas.Rev
import Verif.SpecRev

/-! Helper lemmas: the solution sets of reverse integer power and their bounds. -/

namespace P1788
open FP

variable {φ : Fmt}

/-- The solution of `v ^ (-n) = e`, with its limits. -/
noncomputable def vE (n : ℕ) (e : EReal) : EReal :=
  if e = ⊤ ∨ e = ⊥ then 0 else if e = 0 then ⊤ else (((rootR n e.toReal)⁻¹ : ℝ) : EReal)

theorem vE_top (n : ℕ) : vE n ⊤ = 0 := by simp [vE]
theorem vE_bot (n : ℕ) : vE n ⊥ = 0 := by simp [vE]
theorem vE_zero (n : ℕ) : vE n 0 = ⊤ := by simp [vE]
theorem vE_coe (n : ℕ) {r : ℝ} (hr : r ≠ 0) : vE n r = (((rootR n r)⁻¹ : ℝ) : EReal) := by
  simp [vE, hr]

theorem vE_neg (n : ℕ) {e : EReal} (he : e ≠ 0) : vE n (-e) = -vE n e := by
  induction e using EReal.rec with
  | bot => simp [vE_top, vE_bot]
  | top => simp [vE_top, vE_bot]
  | coe r =>
    have hr : r ≠ 0 := by rintro rfl; simp at he
    rw [← EReal.coe_neg, vE_coe n (neg_ne_zero.mpr hr), vE_coe n hr, rootR_neg_eq hr, inv_neg, EReal.coe_neg]

variable {p : ℤ}

theorem pow_gal (hp : p < 0) {r t : ℝ} (hr : 0 < r) (ht : 0 < t) :
    (r ≤ t ^ p ↔ t ≤ (rootR (-p).toNat r)⁻¹) ∧ (t ^ p ≤ r ↔ (rootR (-p).toNat r)⁻¹ ≤ t) := by
  have h := root_zpow hp hr.ne' (Or.inl hr)
  have hv : 0 < (rootR (-p).toNat r)⁻¹ := inv_pos.mpr (rootR_pos hr)
  obtain ⟨h1, h2, -⟩ := pow_cmp_iff hp (mul_pos ht hv) (Or.inl hv)
  rw [h] at h1 h2
  exact ⟨by rw [← not_lt, ← not_lt, h2], by rw [← not_lt, ← not_lt, h1]⟩

theorem le_pow_iff (hp : p < 0) {a : EReal} (ha : 0 ≤ a) {t : ℝ} (ht : 0 < t) :
    a ≤ ((t ^ p : ℝ) : EReal) ↔ (t:EReal) ≤ vE (-p).toNat a := by
  have htE : (0:EReal) < t := by exact_mod_cast ht
  induction a using EReal.rec with
  | bot => simp at ha
  | top => rw [vE_top]; exact iff_of_false (by simp) htE.not_ge
  | coe r =>
    rcases eq_or_ne r 0 with rfl | hr
    · rw [EReal.coe_zero, vE_zero]
      exact iff_of_true (by exact_mod_cast (zpow_pos ht p).le) le_top
    · have hr' : 0 < r := lt_of_le_of_ne (by exact_mod_cast ha) hr.symm
      rw [vE_coe _ hr, EReal.coe_le_coe_iff, EReal.coe_le_coe_iff]
      exact (pow_gal hp hr' ht).1

theorem pow_le_iff' (hp : p < 0) {b : EReal} (hb : 0 < b) {t : ℝ} (ht : 0 < t) :
    ((t ^ p : ℝ) : EReal) ≤ b ↔ vE (-p).toNat b ≤ t := by
  have htE : (0:EReal) < t := by exact_mod_cast ht
  induction b using EReal.rec with
  | bot => simp at hb
  | top => rw [vE_top]; exact iff_of_true le_top htE.le
  | coe r =>
    have hr' : 0 < r := by exact_mod_cast hb
    rw [vE_coe _ hr'.ne', EReal.coe_le_coe_iff, EReal.coe_le_coe_iff]
    exact (pow_gal hp hr' ht).2

theorem vE_nonneg {n : ℕ} {b : EReal} (hb : 0 ≤ b) : 0 ≤ vE n b := by
  induction b using EReal.rec with
  | bot => simp at hb
  | top => rw [vE_top]
  | coe r =>
    rcases eq_or_ne r 0 with rfl | hr
    · rw [EReal.coe_zero, vE_zero]; exact le_top
    have hr' : 0 < r := lt_of_le_of_ne (by exact_mod_cast hb) hr.symm
    rw [vE_coe _ hr]
    exact_mod_cast (inv_pos.mpr (rootR_pos (n := n) hr')).le

theorem vE_pos {n : ℕ} {b : EReal} (hb : 0 ≤ b) (ht : b ≠ ⊤) : 0 < vE n b := by
  induction b using EReal.rec with
  | bot => simp at hb
  | top => simp at ht
  | coe r =>
    rcases eq_or_ne r 0 with rfl | hr
    · rw [EReal.coe_zero, vE_zero]; simp
    have hr' : 0 < r := lt_of_le_of_ne (by exact_mod_cast hb) hr.symm
    rw [vE_coe _ hr]
    exact_mod_cast (inv_pos.mpr (rootR_pos (n := n) hr'))

theorem vE_ne_top {n : ℕ} {b : EReal} (hb : b ≠ 0) : vE n b ≠ ⊤ := by
  unfold vE
  split_ifs with h <;> simp

theorem vE_le (hp : p < 0) {a b : EReal} (ha : 0 ≤ a) (hab : a ≤ b) (hb : 0 < b) :
    vE (-p).toNat b ≤ vE (-p).toNat a := by
  by_cases ht : b = ⊤
  · rw [ht, vE_top]; exact vE_nonneg ha
  have h1 := vE_pos (n := (-p).toNat) hb.le ht
  have h2 := vE_ne_top (n := (-p).toNat) hb.ne'
  obtain ⟨v, hv⟩ : ∃ v : ℝ, (v:EReal) = vE (-p).toNat b :=
    ⟨_, EReal.coe_toReal h2 (ne_bot_of_gt h1)⟩
  rw [← hv] at h1 ⊢
  have hv0 : 0 < v := by exact_mod_cast h1
  rw [← le_pow_iff hp ha hv0]
  have hb' : b ≤ ((v ^ p : ℝ) : EReal) := by rw [le_pow_iff hp hb.le hv0, hv]
  exact hab.trans hb'

/-- A segment of positive numbers. -/
theorem box_pos {L U : EReal} (h0 : 0 ≤ L) (hLU : L ≤ U) (hU : 0 < U) (hL : L ≠ ⊤) :
    Box {t : ℝ | 0 < t ∧ L ≤ t ∧ (t:EReal) ≤ U} L U := by
  rcases eq_or_lt_of_le h0 with rfl | hpos
  · obtain ⟨t0, ht0, ht1⟩ := EReal.lt_iff_exists_real_btwn.mp hU
    have ht0' : 0 < t0 := by exact_mod_cast ht0
    refine Box.mk' ⟨t0, ht0', ht0.le, ht1.le⟩ (fun s hs => hs.2.1) (fun m hm => ?_) (fun s hs => hs.2.2) (fun M hM => ?_)
    · by_contra hcon
      rw [not_le] at hcon
      obtain ⟨t, g1, g2⟩ := EReal.lt_iff_exists_real_btwn.mp (lt_min hcon hU)
      rw [lt_min_iff] at g2
      exact absurd (hm t ⟨by exact_mod_cast g1, g1.le, g2.2.le⟩) g2.1.not_ge
    · by_contra hcon
      rw [not_le] at hcon
      obtain ⟨t, g1, g2⟩ := EReal.lt_iff_exists_real_btwn.mp (max_lt hcon hU)
      rw [max_lt_iff] at g1
      exact absurd (hM t ⟨by exact_mod_cast g1.2, g1.2.le, g2.le⟩) g1.1.not_ge
  · refine (box_seg hLU hL (ne_bot_of_gt hU)).of_eq ?_
    ext t
    simp only [mem_seg, Set.mem_ofPred_eq]
    constructor
    · rintro ⟨a, b⟩; exact ⟨by exact_mod_cast hpos.trans_le a, a, b⟩
    · rintro ⟨-, a, b⟩; exact ⟨a, b⟩

/-- The positive solutions of `a ≤ t ^ p ≤ b`. -/
def posSol (p : ℤ) (a b : EReal) : Set ℝ := {t : ℝ | 0 < t ∧ a ≤ ((t ^ p : ℝ) : EReal) ∧ ((t ^ p : ℝ) : EReal) ≤ b}

theorem posBox (hp : p < 0) {a b : EReal} (ha : 0 ≤ a) (ha' : a ≠ ⊤) (hab : a ≤ b) (hb : 0 < b) :
    Box (posSol p a b) (vE (-p).toNat b) (vE (-p).toNat a) := by
  refine (box_pos (vE_nonneg hb.le) (vE_le hp ha hab hb) (vE_pos ha ha') (vE_ne_top hb.ne')).of_eq ?_
  ext t
  simp only [posSol, Set.mem_ofPred_eq]
  refine and_congr_right (fun ht => ?_)
  rw [le_pow_iff hp ha ht, pow_le_iff' hp hb ht, and_comm]

/-- The negative solutions of `a ≤ t ^ p ≤ b`. -/
def negSol (p : ℤ) (a b : EReal) : Set ℝ := {t : ℝ | t < 0 ∧ a ≤ ((t ^ p : ℝ) : EReal) ∧ ((t ^ p : ℝ) : EReal) ≤ b}

theorem negSol_odd (ho : p % 2 ≠ 0) {a b : EReal} : {t | -t ∈ posSol p (-b) (-a)} = negSol p a b := by
  ext t
  simp only [posSol, negSol, Set.mem_ofPred_eq, zpow_neg_odd ho, EReal.coe_neg, EReal.neg_le_neg_iff]
  rw [neg_pos]
  tauto

theorem negSol_even (he : p % 2 = 0) {a b : EReal} : {t | -t ∈ posSol p a b} = negSol p a b := by
  ext t
  simp only [posSol, negSol, Set.mem_ofPred_eq, zpow_neg_even he]
  rw [neg_pos]

theorem box_mirror {S : Set ℝ} {l u : EReal} (h : Box S l u) : Box {t | -t ∈ S} (-u) (-l) := by
  have := h.neg
  refine this.of_eq ?_
  ext t
  constructor
  · rintro ⟨s, hs, rfl⟩; simpa using hs
  · intro ht; exact ⟨-t, ht, by simp⟩

theorem negBox (hp : p < 0) (ho : p % 2 ≠ 0) {a b : EReal} (hb : b ≤ 0) (hb' : b ≠ ⊥) (hab : a ≤ b) (ha : a < 0) :
    Box (negSol p a b) (-vE (-p).toNat (-b)) (vE (-p).toNat a) := by
  have h := box_mirror (posBox hp (a := -b) (b := -a) (by simpa using hb) (by simpa using hb') (by simpa using hab)
    (by simpa using ha))
  rw [negSol_odd ho, vE_neg _ ha.ne, neg_neg] at h
  exact h

theorem leaf_of_box {S : Set ℝ} {l u : EReal} (h : Box S l u) {a b : FP × Bool} (ha : RevAt φ .D l a) (hb : RevAt φ .U u b) :
    Leaf φ ⟨a.1, b.1⟩ a.2 b.2 S := by
  refine ⟨tightest_of_box h ha.ne hb.ne ha.inφ hb.inφ ha.val hb.val, ?_, ?_, fun _ => ⟨l, u, h, ha.flag, hb.flag⟩⟩
  · intro ht s hs
    have := ha.flag.mp ht
    refine lt_of_lt_of_le (lt_of_le_of_ne ?_ this) (h.le hs)
    show a.1.toE ≤ l
    rw [ha.val]; exact φ.rdE_le l
  · intro ht s hs
    have := hb.flag.mp ht
    refine lt_of_le_of_lt (h.ge hs) (lt_of_le_of_ne ?_ (Ne.symm this))
    show u ≤ b.1.toE
    rw [hb.val]; exact φ.le_ruE u

theorem RevAt.ninf (φ : Fmt) : RevAt φ .D ⊥ (.ninf, false) := ⟨by simp, by simp, by simp, trivial⟩
theorem RevAt.pinf (φ : Fmt) : RevAt φ .U ⊤ (.pinf, false) := ⟨by simp, by simp, by simp, trivial⟩

theorem pownRevInf_at (hp : p < 0) {c : FP} (hc : c ≠ .nan) (hi : c.In φ) (hs : 0 < c.toE ∨ p % 2 ≠ 0 ∧ c.toE ≠ 0 ∧ c.toE ≠ ⊥) :
    RevAt φ .D (vE (-p).toNat c.toE) (φ.pownRevInf c p) := by
  cases c with
  | nan => exact absurd rfl hc
  | ninf => simp at hs
  | pinf => rw [FP.toE_pinf, vE_top]; exact pownRevInf_pinf
  | nzero => simp at hs
  | fin q =>
    have hq : q ≠ 0 := by rintro rfl; simp at hs
    rw [FP.toE_fin, vE_coe _ (by exact_mod_cast hq)]
    refine pownRevInf_fin hi hq hp (hs.imp (fun h => ?_) And.left)
    rw [FP.toE_fin] at h
    exact_mod_cast h

theorem pownRevSup_at (hp : p < 0) {c : FP} (hc : c ≠ .nan) (hi : c.In φ)
    (hs : c = .fin 0 ∨ 0 < c.toE ∧ c.toE ≠ ⊤ ∨ p % 2 ≠ 0 ∧ c.toE ≠ 0 ∧ c.toE ≠ ⊤) :
    RevAt φ .U (vE (-p).toNat c.toE) (φ.pownRevSup c p) := by
  cases c with
  | nan => exact absurd rfl hc
  | pinf => simp at hs
  | ninf => rw [FP.toE_ninf, vE_bot]; exact pownRevSup_ninf hp (by simpa using hs)
  | nzero => simp at hs
  | fin q =>
    rcases eq_or_ne q 0 with rfl | hq
    · rw [FP.toE_fin, Rat.cast_zero, EReal.coe_zero, vE_zero]; exact pownRevSup_zero hp
    rw [FP.toE_fin, vE_coe _ (by exact_mod_cast hq)]
    refine pownRevSup_fin hi hq hp ?_
    rcases hs with h | h | h
    · simp [hq] at h
    · left; have := h.1; rw [FP.toE_fin] at this; exact_mod_cast this
    · exact Or.inr h.1

end P1788
