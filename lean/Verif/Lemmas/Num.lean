import Verif.SpecNum
import Verif.Lemmas.Nearest
import Verif.Lemmas.Conv
import Verif.Lemmas.Dec
import Verif.Lemmas.Atan2

/-!
# Lemmas about numeric functions
-/

namespace P1788
open Fmt

variable {φ ψ : Fmt} {x : Itv} {S : Set ℝ}

theorem posZero_spec (a : FP) : (a.posZero = .nan ↔ a = .nan) ∧ a.posZero.toE = a.toE ∧ a.posZero ≠ .nzero := by
  cases a with
  | fin q =>
    by_cases h : q = 0 <;> simp [FP.posZero, FP.isZero, h]
  | _ => simp [FP.posZero, FP.isZero]

theorem posZero_in {a : FP} (h : a.In φ) : a.posZero.In φ := by
  unfold FP.posZero; split_ifs
  · exact φ.rep_zero
  · exact h

theorem leastUpper_of {a : FP} {v : EReal} (hS : IsLUB (eimg S) v) (hi : a.In φ) (hn : a ≠ .nan)
    (ha : a.toE = φ.ruE v) : LeastUpper φ a S := by
  refine ⟨hi, fun r hr => FP.aboveR_iff.mpr ⟨hn, ?_⟩, fun b hb hbn h => ?_⟩
  · rw [ha]; exact (hS.1 ⟨r, hr, rfl⟩).trans (φ.le_ruE v)
  · rw [FP.le_iff hn hbn, ha, φ.ruE_le_iff hb _ hbn]
    refine hS.2 ?_
    rintro _ ⟨r, hr, rfl⟩
    exact (FP.aboveR_iff.mp (h r hr)).2

theorem greatestLower_of {a : FP} {v : EReal} (hS : IsGLB (eimg S) v) (hi : a.In φ) (hn : a ≠ .nan)
    (ha : a.toE = φ.rdE v) : GreatestLower φ a S := by
  refine ⟨hi, fun r hr => FP.belowR_iff.mpr ⟨hn, ?_⟩, fun b hb hbn h => ?_⟩
  · rw [ha]; exact (φ.rdE_le v).trans (hS.1 ⟨r, hr, rfl⟩)
  · rw [FP.le_iff hbn hn, ha, φ.le_rdE_iff hb _ hbn]
    refine hS.2 ?_
    rintro _ ⟨r, hr, rfl⟩
    exact (FP.belowR_iff.mp (h r hr)).2

theorem leastUpper_convert (h : φ.Sub ψ) {a c : FP} (hn : a ≠ .nan) (ha : LeastUpper ψ a S) (hc : c ≠ .nan)
    (hi : c.In φ) (e : c.toE = φ.ruE a.toE) : LeastUpper φ c S := by
  refine ⟨hi, fun r hr => FP.aboveR_iff.mpr ⟨hc, ?_⟩, fun b hb hbn hu => ?_⟩
  · rw [e]; exact (FP.aboveR_iff.mp (ha.2.1 r hr)).2.trans (φ.le_ruE _)
  · rw [FP.le_iff hc hbn, e, φ.ruE_le_iff hb _ hbn, ← FP.le_iff hn hbn]
    exact ha.2.2 b (h.in hb) hbn hu

theorem Itv.NE.glb (h : x.NE φ) : IsGLB (eimg x.set) x.lo.toE := h.box.glb
theorem Itv.NE.lub (h : x.NE φ) : IsLUB (eimg x.set) x.hi.toE := h.box.lub

theorem lub_sub (h : x.NE φ) : IsLUB (eimg {d | ∃ r ∈ x.set, ∃ s ∈ x.set, d = r - s}) (x.hi.toE - x.lo.toE) := by
  have hb := (h.box.add h.box.neg).lub
  have e : {z | ∃ a ∈ x.set, ∃ y ∈ (fun s => -s) '' x.set, z = a + y} = {d | ∃ r ∈ x.set, ∃ s ∈ x.set, d = r - s} := by
    ext z; constructor
    · rintro ⟨a, ha, y, ⟨s, hs, rfl⟩, rfl⟩; exact ⟨a, ha, s, hs, by ring⟩
    · rintro ⟨a, ha, s, hs, rfl⟩; exact ⟨a, ha, -s, ⟨s, hs, rfl⟩, by ring⟩
  rw [e] at hb
  rwa [sub_eq_add_neg]

/-- Supremum of the distances from a number. -/
theorem lub_dist (h : x.NE φ) (m : ℝ) :
    IsLUB (eimg {d | ∃ r ∈ x.set, d = |r - m|}) (max ((m : EReal) - x.lo.toE) (x.hi.toE - m)) := by
  constructor
  · rintro _ ⟨_, ⟨r, hr, rfl⟩, rfl⟩
    have h1 := (h.mem.mp hr).1
    have h2 := (h.mem.mp hr).2
    have e1 : ((r - m : ℝ) : EReal) ≤ x.hi.toE - m := by
      rw [EReal.coe_sub]; exact EReal.sub_le_sub h2 le_rfl
    have e2 : ((-(r - m) : ℝ) : EReal) ≤ (m:EReal) - x.lo.toE := by
      rw [show -(r - m) = m - r by ring, EReal.coe_sub]; exact EReal.sub_le_sub le_rfl h1
    rcases abs_cases (r - m) with ⟨e, -⟩ | ⟨e, -⟩ <;> simp only [e]
    · exact e1.trans (le_max_right _ _)
    · exact e2.trans (le_max_left _ _)
  · intro v hv
    refine max_le ?_ ?_
    · have hb := h.box.neg.add (box_seg (l := (m:EReal)) (u := m) le_rfl (EReal.coe_ne_top m) (EReal.coe_ne_bot m))
      have := hb.lub_le (t := v) (by
        rintro z ⟨_, ⟨r, hr, rfl⟩, y, hy, rfl⟩
        have hy' : y = m := by
          have := hy.1; have h2 := hy.2
          exact le_antisymm (by exact_mod_cast h2) (by exact_mod_cast this)
        subst hy'
        refine le_trans ?_ (hv ⟨_, ⟨r, hr, rfl⟩, rfl⟩)
        have : -r + y ≤ |r - y| := by rw [abs_sub_comm]; exact le_trans (by linarith) (le_abs_self _)
        exact EReal.coe_le_coe_iff.mpr this)
      rwa [sub_eq_add_neg, add_comm]
    · have hb := h.box.add (box_seg (l := ((-m:ℝ):EReal)) (u := ((-m:ℝ):EReal)) le_rfl (EReal.coe_ne_top _) (EReal.coe_ne_bot _))
      have := hb.lub_le (t := v) (by
        rintro z ⟨r, hr, y, hy, rfl⟩
        have hy' : y = -m := by
          have := hy.1; have h2 := hy.2
          exact le_antisymm (by exact_mod_cast h2) (by exact_mod_cast this)
        subst hy'
        refine le_trans ?_ (hv ⟨_, ⟨r, hr, rfl⟩, rfl⟩)
        have : r + -m ≤ |r - m| := le_trans (by linarith) (le_abs_self _)
        exact EReal.coe_le_coe_iff.mpr this)
      rw [sub_eq_add_neg, ← EReal.coe_neg]; exact this

theorem abs_image_lub (h : x.NE φ) :
    IsLUB (eimg ((fun r => |r|) '' x.set)) (max (max x.lo.toE (-x.lo.toE)) (max x.hi.toE (-x.hi.toE))) := by
  have h0 := lub_dist h 0
  have e : {d | ∃ r ∈ x.set, d = |r - 0|} = (fun r => |r|) '' x.set := by
    ext d; constructor
    · rintro ⟨r, hr, rfl⟩; exact ⟨r, hr, by simp⟩
    · rintro ⟨r, hr, rfl⟩; exact ⟨r, hr, by simp⟩
  rw [e] at h0
  have e2 : max ((0:ℝ) - x.lo.toE) (x.hi.toE - ((0:ℝ):EReal)) = max (-x.lo.toE) x.hi.toE := by simp
  rw [e2] at h0
  convert h0 using 1
  have hle := h.le
  have hneg : -x.hi.toE ≤ -x.lo.toE := EReal.neg_le_neg_iff.mpr hle
  apply le_antisymm
  · refine max_le (max_le (hle.trans (le_max_right _ _)) (le_max_left _ _)) (max_le (le_max_right _ _) (hneg.trans (le_max_left _ _)))
  · refine max_le ((le_max_right _ _).trans (le_max_left _ _)) ((le_max_left _ _).trans (le_max_right _ _))

theorem abs_image_glb (h : x.NE φ) : IsGLB (eimg ((fun r => |r|) '' x.set))
    (if x.lo.toE < 0 ∧ 0 < x.hi.toE then 0 else min (max x.lo.toE (-x.lo.toE)) (max x.hi.toE (-x.hi.toE))) := by
  have hle := h.le
  split_ifs with hc
  · constructor
    · rintro _ ⟨_, ⟨r, hr, rfl⟩, rfl⟩; exact EReal.coe_nonneg.mpr (abs_nonneg r)
    · intro v hv
      have h0 : (0:ℝ) ∈ x.set := h.mem.mpr ⟨by simpa using hc.1.le, by simpa using hc.2.le⟩
      have := hv ⟨_, ⟨0, h0, rfl⟩, rfl⟩
      simpa using this
  · by_cases h1 : x.lo.toE < 0
    · have h2 : x.hi.toE ≤ 0 := not_lt.mp (fun h' => hc ⟨h1, h'⟩)
      have e : min (max x.lo.toE (-x.lo.toE)) (max x.hi.toE (-x.hi.toE)) = - x.hi.toE := by
        have a1 : (0:EReal) ≤ -x.hi.toE := by rw [EReal.le_neg, neg_zero]; exact h2
        have a2 : (0:EReal) ≤ -x.lo.toE := by rw [EReal.le_neg, neg_zero]; exact h1.le
        rw [max_eq_right (h1.le.trans a2), max_eq_right (h2.trans a1), min_eq_right (EReal.neg_le_neg_iff.mpr hle)]
      rw [e]
      have hb := h.box.neg.glb
      convert hb using 2
      refine Set.image_congr (fun r hr => ?_)
      have : r ≤ 0 := by have := (h.mem.mp hr).2.trans h2; exact_mod_cast this
      exact abs_of_nonpos this
    · have h1' := not_lt.mp h1
      have h2 := h1'.trans hle
      have e : min (max x.lo.toE (-x.lo.toE)) (max x.hi.toE (-x.hi.toE)) = x.lo.toE := by
        have a1 : -x.hi.toE ≤ 0 := by rw [EReal.neg_le, neg_zero]; exact h2
        have a2 : -x.lo.toE ≤ 0 := by rw [EReal.neg_le, neg_zero]; exact h1'
        rw [max_eq_left (a2.trans h1'), max_eq_left (a1.trans h2), min_eq_left hle]
      rw [e]
      have hb := h.glb
      have : (fun r : ℝ => |r|) '' x.set = x.set := by
        have : (fun r : ℝ => |r|) '' x.set = id '' x.set := by
          refine Set.image_congr (fun r hr => ?_)
          have : 0 ≤ r := by have := h1'.trans (h.mem.mp hr).1; exact_mod_cast this
          exact abs_of_nonneg this
        rw [this, Set.image_id]
      rw [this]; exact hb

theorem roundInt_N_tie (y : ℝ) (k : ℤ) (h : |(k:ℝ) - y| = |(roundInt .N y : ℝ) - y|) (hk : k ≠ roundInt .N y) :
    |roundInt .N y - k| = 1 ∧ roundInt .N y % 2 = 0 := by
  have h1 := Int.floor_le y
  have h2 := Int.lt_floor_add_one y
  have n1 := roundInt_N_nearest y ⌊y⌋
  have n2 := roundInt_N_nearest y (⌊y⌋ + 1)
  have hb : roundInt .N y = ⌊y⌋ ∨ roundInt .N y = ⌊y⌋ + 1 := by
    simp only [roundInt]; split_ifs <;> simp
  have hs : (k:ℝ) - y = -((roundInt .N y : ℝ) - y) := by
    rcases abs_eq_abs.mp h with h | h
    · exact absurd (by have : (k:ℝ) = roundInt .N y := by linarith
                       exact_mod_cast this) hk
    · exact h
  set f := ⌊y⌋ with hf
  have hsum : (k:ℝ) + roundInt .N y = 2 * y := by linarith
  rw [← h] at n1 n2
  push_cast at n2
  rw [abs_of_nonpos (by linarith : (f:ℝ) - y ≤ 0)] at n1
  rw [abs_of_nonneg (by linarith : 0 ≤ (f:ℝ) + 1 - y)] at n2
  have hkf : k = f ∨ k = f + 1 := by
    have a1 := (abs_le.mp n1).1; have a2 := (abs_le.mp n2).2
    have b1 := (abs_le.mp n1).2; have b2 := (abs_le.mp n2).1
    have c1 : (f:ℝ) ≤ k := by linarith
    have c2 : (k:ℝ) ≤ f + 1 := by linarith
    have c1' : f ≤ k := by exact_mod_cast c1
    have c2' : k ≤ f + 1 := by exact_mod_cast c2
    omega
  have hhalf : y - f = 1 / 2 := by
    rcases hb with e | e <;> rcases hkf with e' | e'
    · exact absurd (e'.trans e.symm) hk
    · rw [e, e'] at hsum; push_cast at hsum; linarith
    · rw [e, e'] at hsum; push_cast at hsum; linarith
    · exact absurd (e'.trans e.symm) hk
  have hval : roundInt .N y = if f % 2 = 0 then f else f + 1 := by
    simp only [roundInt, ← hf]
    rw [if_neg (by linarith), if_neg (by linarith)]
  constructor
  · rcases hb with e | e <;> rcases hkf with e' | e'
    · exact absurd (e'.trans e.symm) hk
    · rw [e, e']; simp
    · rw [e, e']; simp
    · exact absurd (e'.trans e.symm) hk
  · rw [hval]; split_ifs with hm <;> omega

theorem roundsTo_roundQ {c : ℝ} (h : |c| ≤ (φ.maxFin : ℝ)) : RoundsTo φ (φ.roundQ .N c) c := by
  refine ⟨φ.rep_roundQ (φ.roundQ_le_maxFin h), fun f hf => ⟨φ.roundQ_N_nearest c hf, fun htie hne => ?_⟩⟩
  have hu := two_zpow_posR (φ.expo c)
  have hu' := two_zpow_pos (φ.expo c)
  -- a tie is with a multiple of the unit in the last place
  have key : ∀ k : ℤ, |(φ.roundQ .N c : ℝ) - c| ≤ |(k : ℝ) * 2 ^ φ.expo c - c| := by
    intro k
    have e3 : (φ.roundQ .N c : ℝ) = (roundInt .N (c / (2:ℝ) ^ φ.expo c) : ℤ) * (2:ℝ) ^ φ.expo c := by
      simp [Fmt.roundQ]
    have hx : c = c / (2:ℝ) ^ φ.expo c * 2 ^ φ.expo c := by field_simp
    have := roundInt_N_nearest (c / (2:ℝ) ^ φ.expo c) k
    rw [e3]
    calc |(roundInt .N (c / (2:ℝ) ^ φ.expo c) : ℝ) * 2 ^ φ.expo c - c|
        = |(roundInt .N (c / (2:ℝ) ^ φ.expo c) : ℝ) - c / (2:ℝ) ^ φ.expo c| * 2 ^ φ.expo c := by
          rw [← abs_of_pos hu, ← abs_mul, abs_of_pos hu, sub_mul, ← hx]
      _ ≤ |(k:ℝ) - c / (2:ℝ) ^ φ.expo c| * 2 ^ φ.expo c := mul_le_mul_of_nonneg_right this hu.le
      _ = |(k : ℝ) * 2 ^ φ.expo c - c| := by
          rw [← abs_of_pos hu, ← abs_mul, abs_of_pos hu, sub_mul, ← hx]
  have hmul : ∃ k : ℤ, f = k * 2 ^ φ.expo c := by
    rcases le_total (f:ℝ) c with h' | h'
    · obtain ⟨k, h3, h4⟩ := φ.exists_mult_between hf h'
      have h3' : (f:ℝ) ≤ k * 2 ^ φ.expo c := by
        have := (Rat.cast_le (K := ℝ)).mpr h3; push_cast at this; exact this
      have := key k
      rw [← htie, abs_of_nonpos (by linarith), abs_of_nonpos (by linarith)] at this
      refine ⟨k, ?_⟩
      have e : (f:ℝ) = ((k * 2 ^ φ.expo c : ℚ) : ℝ) := by push_cast; linarith
      exact_mod_cast e
    · obtain ⟨k, h3, h4⟩ := φ.exists_mult_between hf.neg (x := -c) (by push_cast; linarith)
      rw [expo_neg] at h3 h4
      have h3' : -(f:ℝ) ≤ k * 2 ^ φ.expo c := by
        have := (Rat.cast_le (K := ℝ)).mpr h3; push_cast at this; exact this
      have := key (-k)
      push_cast at this
      rw [← htie, abs_of_nonneg (by linarith), abs_of_nonneg (by linarith)] at this
      refine ⟨-k, ?_⟩
      have e : (f:ℝ) = ((((-k : ℤ) : ℚ) * 2 ^ φ.expo c : ℚ) : ℝ) := by push_cast; linarith
      exact_mod_cast e
  obtain ⟨k, rfl⟩ := hmul
  have e3 : φ.roundQ .N c = (roundInt .N (c / (2:ℝ) ^ φ.expo c) : ℤ) * (2:ℚ) ^ φ.expo c := rfl
  have e3' : (φ.roundQ .N c : ℝ) = (roundInt .N (c / (2:ℝ) ^ φ.expo c) : ℤ) * (2:ℝ) ^ φ.expo c := by
    rw [e3]; push_cast; rfl
  have ht : |(k:ℝ) - c / (2:ℝ) ^ φ.expo c| = |(roundInt .N (c / (2:ℝ) ^ φ.expo c) : ℝ) - c / (2:ℝ) ^ φ.expo c| := by
    have hx : c = c / (2:ℝ) ^ φ.expo c * 2 ^ φ.expo c := by field_simp
    have := htie
    rw [e3'] at this
    push_cast at this
    have g : ∀ a : ℝ, |a * 2 ^ φ.expo c - c| = |a - c / (2:ℝ) ^ φ.expo c| * 2 ^ φ.expo c := by
      intro a
      rw [← abs_of_pos hu, ← abs_mul, abs_of_pos hu, sub_mul, ← hx]
    rw [g, g] at this
    exact mul_right_cancel₀ hu.ne' this
  have hk : k ≠ roundInt .N (c / (2:ℝ) ^ φ.expo c) := fun e => hne (by rw [e3, e])
  obtain ⟨g1, g2⟩ := roundInt_N_tie _ k ht hk
  set r := roundInt .N (c / (2:ℝ) ^ φ.expo c)
  refine ⟨r / 2, ?_⟩
  have e4 : |φ.roundQ .N c - k * 2 ^ φ.expo c| = 2 ^ φ.expo c := by
    rw [e3, ← sub_mul, abs_mul, abs_of_pos hu']
    have : |((r:ℚ) - k)| = 1 := by exact_mod_cast g1
    rw [this, one_mul]
  rw [e4, e3]
  have : (r:ℚ) = 2 * ((r / 2 : ℤ) : ℚ) := by
    have : r = 2 * (r / 2) := by omega
    exact_mod_cast this
  rw [← this]

theorem RoundsTo.mem {q a b : ℚ} (h : RoundsTo φ q (((a:ℝ) + b) / 2)) (ha : φ.Rep a) (hb : φ.Rep b) (hab : a ≤ b) :
    a ≤ q ∧ q ≤ b := by
  have hab' : (a:ℝ) ≤ b := by exact_mod_cast hab
  have h1 := (h.2 a ha).1
  have h2 := (h.2 b hb).1
  rw [abs_of_nonpos (by linarith : (a:ℝ) - (a + b) / 2 ≤ 0)] at h1
  have h3 := abs_le.mp h1
  constructor
  · have : (a:ℝ) ≤ q := by linarith
    exact_mod_cast this
  · have : (q:ℝ) ≤ b := by linarith
    exact_mod_cast this

end P1788
