import Verif.Model.RoundInt
import Verif.Props.C13
import Verif.Lemmas.Atan2
import Mathlib.Data.Real.Sign

/-! # C14: sign and integer rounding functions -/

namespace P1788
open Filter Topology
variable {φ : Fmt} {x : Itv}

/-! Specification of the rounding functions on the reals. -/

/-- `n` is `r` rounded towards zero. -/
def IsTrunc (r : ℝ) (n : ℤ) : Prop := |(n:ℝ)| ≤ |r| ∧ |r| < |(n:ℝ)| + 1 ∧ 0 ≤ r * n
/-- `n` is a nearest integer to `r`, the even one in a tie. -/
def IsRoundEven (r : ℝ) (n : ℤ) : Prop := |r - n| ≤ 1 / 2 ∧ (|r - n| = 1 / 2 → Even n)
/-- `n` is a nearest integer to `r`, the one of larger magnitude in a tie. -/
def IsRoundAway (r : ℝ) (n : ℤ) : Prop := |r - n| ≤ 1 / 2 ∧ (|r - n| = 1 / 2 → |r| < |(n:ℝ)|)

/-- A monotone rounding function that fixes the integers. -/
structure IntRnd (G : ℝ → ℤ) : Prop where
  mono : Monotone G
  fix : ∀ n : ℤ, G n = n

namespace IntRnd
variable {G : ℝ → ℤ} (hG : IntRnd G)
include hG

theorem floor_le (r : ℝ) : ⌊r⌋ ≤ G r := by
  have := hG.mono (Int.floor_le r); rwa [hG.fix] at this
theorem le_ceil (r : ℝ) : G r ≤ ⌈r⌉ := by
  have := hG.mono (Int.le_ceil r); rwa [hG.fix] at this

theorem atTop : Tendsto (fun r => (G r : ℝ)) atTop atTop := by
  refine tendsto_atTop_mono (fun r => ?_) (tendsto_atTop_add_const_right _ (-1:ℝ) tendsto_id)
  have h1 : ((⌊r⌋:ℤ):ℝ) ≤ G r := by exact_mod_cast hG.floor_le r
  simp only [id]
  linarith [Int.lt_floor_add_one r]
theorem atBot : Tendsto (fun r => (G r : ℝ)) atBot atBot := by
  refine tendsto_atBot_mono (fun r => ?_) (tendsto_atBot_add_const_right _ (1:ℝ) tendsto_id)
  have h1 : (G r : ℝ) ≤ (⌈r⌉:ℤ) := by exact_mod_cast hG.le_ceil r
  simp only [id]
  linarith [Int.ceil_lt_add_one r]

theorem rep {q : ℚ} (hq : φ.Rep q) : φ.Rep (G q) := by
  obtain ⟨m, e, rfl, hm, he, hx⟩ := hq
  rcases le_or_gt 0 e with h | h
  · obtain ⟨k, rfl⟩ := Int.eq_ofNat_of_zero_le h
    have : (((m * 2 ^ (k:ℤ) : ℚ)) : ℝ) = ((m * 2 ^ k : ℤ) : ℝ) := by push_cast; rfl
    rw [this, hG.fix]
    exact ⟨m, k, by push_cast; rfl, hm, he, hx⟩
  · have hp := φ.p_pos
    have b0 : |((m * 2 ^ e : ℚ) : ℝ)| ≤ ((2 ^ (φ.p - 1) : ℤ) : ℝ) := by
      push_cast
      rw [abs_mul, abs_of_pos (two_zpow_posR e)]
      have h1 : |(m:ℝ)| ≤ 2 ^ φ.p := by exact_mod_cast hm.le
      have h2 : (2:ℝ) ^ e ≤ 2 ^ (-1:ℤ) := zpow_le_zpow_right₀ (by norm_num) (by omega)
      calc |(m:ℝ)| * 2 ^ e ≤ 2 ^ φ.p * 2 ^ (-1:ℤ) := by gcongr
        _ = 2 ^ (φ.p - 1) := by
          rw [show φ.p = (φ.p - 1) + 1 by omega, pow_succ, zpow_neg_one]; simp
    obtain ⟨b1, b2⟩ := abs_le.mp b0
    have c1 := hG.mono b1
    have c2 := hG.mono b2
    rw [← Int.cast_neg, hG.fix] at c1
    rw [hG.fix] at c2
    have hab : |G ((m * 2 ^ e : ℚ) : ℝ)| ≤ 2 ^ (φ.p - 1) := abs_le.mpr ⟨c1, c2⟩
    have := φ.rep_of_le (m := G ((m * 2 ^ e : ℚ) : ℝ)) (e := 0) (hab.trans (by gcongr <;> omega))
      (by have := φ.qmin_le; omega) (by
        rw [zpow_zero, mul_one, ← Int.cast_abs]
        calc ((|G ((m * 2 ^ e : ℚ) : ℝ)| : ℤ) : ℚ) ≤ ((2 ^ (φ.p - 1) : ℤ) : ℚ) := by exact_mod_cast hab
          _ ≤ φ.maxFin := by
            unfold Fmt.maxFin
            have h1 : (1:ℚ) ≤ 2 ^ (φ.emax - φ.p) := one_le_zpow₀ (by norm_num) (by have := φ.emax_ge; omega)
            have h2 : (2:ℚ) ^ φ.p = 2 * 2 ^ (φ.p - 1) := by
              rw [← pow_succ']; congr 1; omega
            have h3 : (1:ℚ) ≤ 2 ^ (φ.p - 1) := one_le_pow₀ (by norm_num)
            rw [h2]; push_cast
            nlinarith)
    simpa using this

theorem ulim {g : ℚ → ℤ} (hg : ∀ q : ℚ, G q = g q) {m : Rnd} (hm : m ≠ .N) {a : FP} (ha : a ≠ .nan)
    (hi : a.In φ) : ULim φ m (fun r => (G r : ℝ)) a (a.rint g) := by
  cases a with
  | nan => exact absurd rfl ha
  | ninf => exact ULim.ninf_ninf hG.atBot
  | pinf => exact ULim.pinf_pinf hG.atTop
  | nzero =>
    have h0 : G 0 = 0 := by simpa using hG.fix 0
    refine ⟨⟨((0:ℝ):EReal), ?_, ?_⟩, by simp [FP.rint], trivial⟩
    · have := LimAt.coe (fun r => (G r : ℝ)) 0
      simp only [h0] at this
      simpa using this
    · simp [FP.rint]
  | fin q =>
    have hr := hG.rep hi
    have e : ((FP.fin q).rint g).toE = ((G q : ℝ) : EReal) := by
      simp only [FP.rint]
      split_ifs with h
      · rw [hg, h]; simp
      · rw [hg]; simp
    have hn : (FP.fin q).rint g ≠ .nan := by
      simp only [FP.rint]; split_ifs
      · exact FP.mkZero_ne_nan _
      · simp
    have hin : ((FP.fin q).rint g).In φ := by
      simp only [FP.rint]; split_ifs
      · exact φ.mkZero_in _
      · rw [← hg]; exact hr
    refine ⟨⟨_, LimAt.coe (fun r => (G r : ℝ)) q, ?_⟩, hn, hin⟩
    rw [← e, rndE_self hin hn hm]

theorem tight {g : ℚ → ℤ} (hg : ∀ q : ℚ, G q = g q) (hx : x.Ok φ) :
    Tightest φ (Fmt.rintI g x) ((fun r => (G r : ℝ)) '' x.set) := by
  rcases hx.cases with rfl | hx
  · exact tightest_empty' (by simp [Fmt.rintI]) (by simp)
  · unfold Fmt.rintI
    simp only [hx.isValid, hx.isEmpty, Bool.not_true, Bool.or_false, Bool.false_eq_true, if_false]
    refine tight_mono hx (fun a _ b _ h => ?_) (hG.ulim hg (by simp) hx.lo_ne hx.lo_in) (hG.ulim hg (by simp) hx.hi_ne hx.hi_in)
    exact_mod_cast hG.mono h

end IntRnd

/-- **C14** `ceil(x)`. -/
theorem C14_ceil (hx : x.Ok φ) : Tightest φ (Fmt.ceilI x) ((fun r => (⌈r⌉ : ℝ)) '' x.set) :=
  IntRnd.tight ⟨Int.ceil_mono, Int.ceil_intCast⟩ (fun q => Rat.ceil_cast q) hx

/-- `floor(x)`. -/
theorem C14_floor (hx : x.Ok φ) : Tightest φ (Fmt.floorI x) ((fun r => (⌊r⌋ : ℝ)) '' x.set) :=
  IntRnd.tight ⟨Int.floor_mono, Int.floor_intCast⟩ (fun q => Rat.floor_cast q) hx

theorem intRnd_of_spec {P : ℝ → ℤ → Prop} {G : ℝ → ℤ} (h : ∀ r, P r (G r))
    (mono : ∀ r s n k, r ≤ s → P r n → P s k → n ≤ k) (fix : ∀ n : ℤ, P n n) : IntRnd G :=
  ⟨fun r s hrs => mono r s _ _ hrs (h r) (h s), fun n =>
    le_antisymm (mono _ _ _ _ le_rfl (h n) (fix n)) (mono _ _ _ _ le_rfl (fix n) (h n))⟩

theorem isTrunc_mono (r s : ℝ) (n k : ℤ) (h : r ≤ s) (h1 : IsTrunc r n) (h2 : IsTrunc s k) : n ≤ k := by
  obtain ⟨a1, a2, a3⟩ := h1
  obtain ⟨b1, b2, b3⟩ := h2
  by_contra hc
  have hc : k + 1 ≤ n := by omega
  have hc : (k:ℝ) + 1 ≤ n := by exact_mod_cast hc
  rcases le_or_gt 1 n with hn | hn
  · have hn' : (1:ℝ) ≤ n := by exact_mod_cast hn
    have hr : 0 ≤ r := by by_contra hr; nlinarith [not_le.mp hr]
    rw [abs_of_nonneg hr, abs_of_nonneg (by linarith : (0:ℝ) ≤ n)] at a1
    have hs : (0:ℝ) < s := by linarith
    rw [abs_of_pos hs] at b2
    have hk : (0:ℝ) ≤ k := by by_contra hk; nlinarith [not_le.mp hk]
    rw [abs_of_nonneg hk] at b2
    linarith
  · have hk : k ≤ -1 := by
      have : (k:ℝ) + 1 ≤ n := hc
      have : k + 1 ≤ n := by exact_mod_cast this
      omega
    have hk' : (k:ℝ) ≤ -1 := by exact_mod_cast hk
    have hs : s ≤ 0 := by by_contra hs; nlinarith [not_le.mp hs]
    rw [abs_of_nonpos hs, abs_of_nonpos (by linarith : (k:ℝ) ≤ 0)] at b1
    have hr : r < 0 := by linarith
    have hn0 : (n:ℝ) ≤ 0 := by exact_mod_cast (by omega : n ≤ 0)
    rw [abs_of_neg hr, abs_of_nonpos hn0] at a2
    linarith

theorem isTrunc_truncQ (q : ℚ) : IsTrunc q (truncQ q) := by
  unfold truncQ IsTrunc
  split_ifs with h
  · have h' : (q:ℝ) < 0 := by exact_mod_cast h
    have h1 : (⌈q⌉ : ℤ) ≤ 0 := Int.ceil_le.mpr (by exact_mod_cast h.le)
    have h1' : ((⌈q⌉:ℤ):ℝ) ≤ 0 := by exact_mod_cast h1
    have h2 : (q:ℝ) ≤ (⌈q⌉:ℤ) := by exact_mod_cast Int.le_ceil q
    have h3 : ((⌈q⌉:ℤ):ℝ) < q + 1 := by exact_mod_cast Int.ceil_lt_add_one q
    rw [abs_of_neg h', abs_of_nonpos h1']
    exact ⟨by linarith, by linarith, by nlinarith⟩
  · have h' : (0:ℝ) ≤ q := by exact_mod_cast (not_lt.mp h)
    have h1 : 0 ≤ (⌊q⌋ : ℤ) := Int.floor_nonneg.mpr (not_lt.mp h)
    have h1' : (0:ℝ) ≤ (⌊q⌋:ℤ) := by exact_mod_cast h1
    have h2 : ((⌊q⌋:ℤ):ℝ) ≤ q := by exact_mod_cast Int.floor_le q
    have h3 : (q:ℝ) < (⌊q⌋:ℤ) + 1 := by exact_mod_cast Int.lt_floor_add_one q
    rw [abs_of_nonneg h', abs_of_nonneg h1']
    exact ⟨by linarith, by linarith, by positivity⟩

/-- `trunc(x)`: for the function `G` rounding each real towards zero. -/
theorem C14_trunc (G : ℝ → ℤ) (hG : ∀ r, IsTrunc r (G r)) (hx : x.Ok φ) :
    Tightest φ (Fmt.truncI x) ((fun r => (G r : ℝ)) '' x.set) :=
  IntRnd.tight (intRnd_of_spec hG isTrunc_mono (fun n => ⟨le_rfl, by linarith, mul_self_nonneg _⟩))
    (fun q => le_antisymm (isTrunc_mono _ _ _ _ le_rfl (hG q) (isTrunc_truncQ q))
      (isTrunc_mono _ _ _ _ le_rfl (isTrunc_truncQ q) (hG q))) hx

/-- Two nearest integers in the wrong order force a tie at one point. -/
theorem nearest_tie {r s : ℝ} {n k : ℤ} (h : r ≤ s) (h1 : |r - n| ≤ 1 / 2) (h2 : |s - k| ≤ 1 / 2) (hc : k < n) :
    r = s ∧ n = k + 1 ∧ r = k + 1 / 2 := by
  have hc' : (k:ℝ) + 1 ≤ n := by exact_mod_cast hc
  have a := abs_le.mp h1
  have b := abs_le.mp h2
  have e1 : (n:ℝ) = k + 1 := by linarith
  exact ⟨by linarith, by exact_mod_cast e1, by linarith⟩

theorem isRoundEven_mono (r s : ℝ) (n k : ℤ) (h : r ≤ s) (h1 : IsRoundEven r n) (h2 : IsRoundEven s k) : n ≤ k := by
  by_contra hc
  obtain ⟨e1, e2, e3⟩ := nearest_tie h h1.1 h2.1 (not_le.mp hc)
  have en := h1.2 (by rw [e2, e3]; push_cast; rw [show (k:ℝ) + 1/2 - (k+1) = -(1/2) by ring, abs_neg]; norm_num)
  have ek := h2.2 (by rw [← e1, e3, add_sub_cancel_left]; norm_num)
  rw [e2] at en
  exact (Int.not_even_iff_odd.mpr (ek.add_one)) en

theorem isRoundEven_roundInt (q : ℚ) : IsRoundEven q (roundInt .N q) := by
  unfold roundInt IsRoundEven
  have h2 : ((⌊q⌋:ℤ):ℝ) ≤ q := by exact_mod_cast Int.floor_le q
  have h3 : (q:ℝ) < (⌊q⌋:ℤ) + 1 := by exact_mod_cast Int.lt_floor_add_one q
  simp only
  split_ifs with g1 g2 g3
  · have g1' : (q:ℝ) - (⌊q⌋:ℤ) < 1 / 2 := by have := (Rat.cast_lt (K := ℝ)).mpr g1; push_cast at this; exact this
    rw [abs_of_nonneg (by linarith)]
    exact ⟨g1'.le, fun h => absurd h g1'.ne⟩
  · have g2' : 1 / 2 < (q:ℝ) - (⌊q⌋:ℤ) := by have := (Rat.cast_lt (K := ℝ)).mpr g2; push_cast at this; exact this
    push_cast
    rw [abs_of_nonpos (by linarith)]
    exact ⟨by linarith, fun h => by linarith⟩
  · have e : (q:ℝ) - (⌊q⌋:ℤ) = 1 / 2 := by
      have := congrArg (Rat.cast : ℚ → ℝ) (le_antisymm (not_lt.mp g2) (not_lt.mp g1)); push_cast at this; exact this
    rw [e]
    exact ⟨by norm_num, fun _ => Int.even_iff.mpr g3⟩
  · have e : (q:ℝ) - (⌊q⌋:ℤ) = 1 / 2 := by
      have := congrArg (Rat.cast : ℚ → ℝ) (le_antisymm (not_lt.mp g2) (not_lt.mp g1)); push_cast at this; exact this
    have e' : (q:ℝ) - ((⌊q⌋ + 1 : ℤ)) = -(1 / 2) := by push_cast; linarith
    rw [e']
    exact ⟨by norm_num, fun _ => (Int.not_even_iff_odd.mp (by rw [Int.even_iff]; exact g3)).add_one⟩

/-- `round_ties_to_even(x)`: for the function `G` rounding each real to nearest, ties to even. -/
theorem C14_round_ties_to_even (G : ℝ → ℤ) (hG : ∀ r, IsRoundEven r (G r)) (hx : x.Ok φ) :
    Tightest φ (Fmt.roundEvenI x) ((fun r => (G r : ℝ)) '' x.set) :=
  IntRnd.tight (intRnd_of_spec hG isRoundEven_mono (fun n => ⟨by simp, fun h => by norm_num at h⟩))
    (fun q => le_antisymm (isRoundEven_mono _ _ _ _ le_rfl (hG q) (isRoundEven_roundInt q))
      (isRoundEven_mono _ _ _ _ le_rfl (isRoundEven_roundInt q) (hG q))) hx

theorem isRoundAway_mono (r s : ℝ) (n k : ℤ) (h : r ≤ s) (h1 : IsRoundAway r n) (h2 : IsRoundAway s k) : n ≤ k := by
  by_contra hc
  obtain ⟨e1, e2, e3⟩ := nearest_tie h h1.1 h2.1 (not_le.mp hc)
  have en := h1.2 (by rw [e2, e3]; push_cast; rw [show (k:ℝ) + 1/2 - (k+1) = -(1/2) by ring, abs_neg]; norm_num)
  have ek := h2.2 (by rw [← e1, e3, add_sub_cancel_left]; norm_num)
  rw [← e1, e3] at ek
  rw [e2, e3] at en
  push_cast at en
  rcases le_or_gt 0 k with hk | hk
  · have hk' : (0:ℝ) ≤ k := by exact_mod_cast hk
    rw [abs_of_nonneg hk', abs_of_nonneg (by linarith)] at ek
    linarith
  · have hk' : (k:ℝ) + 1 ≤ 0 := by exact_mod_cast hk
    rw [abs_of_nonpos (by linarith), abs_of_nonpos hk'] at en
    linarith

theorem isRoundAway_awayQ (q : ℚ) : IsRoundAway q (awayQ q) := by
  unfold awayQ IsRoundAway
  split_ifs with h
  · have h' : (q:ℝ) < 0 := by exact_mod_cast h
    have h2 : (q:ℝ) - 1 / 2 ≤ (⌈q - 1 / 2⌉:ℤ) := by
      have := (Rat.cast_le (K := ℝ)).mpr (Int.le_ceil (q - 1 / 2)); push_cast at this; exact this
    have h3 : ((⌈q - 1 / 2⌉:ℤ):ℝ) < q - 1 / 2 + 1 := by
      have := (Rat.cast_lt (K := ℝ)).mpr (Int.ceil_lt_add_one (q - 1 / 2)); push_cast at this; exact this
    refine ⟨abs_le.mpr ⟨by linarith, by linarith⟩, fun he => ?_⟩
    have e : (q:ℝ) - (⌈q - 1 / 2⌉:ℤ) = 1 / 2 := by
      rcases abs_eq (by norm_num : (0:ℝ) ≤ 1 / 2) |>.mp he with e | e
      · exact e
      · linarith
    rw [abs_of_neg h', abs_of_nonpos (by linarith)]; linarith
  · have h' : (0:ℝ) ≤ q := by exact_mod_cast (not_lt.mp h)
    have h2 : ((⌊q + 1 / 2⌋:ℤ):ℝ) ≤ q + 1 / 2 := by
      have := (Rat.cast_le (K := ℝ)).mpr (Int.floor_le (q + 1 / 2)); push_cast at this; exact this
    have h3 : (q:ℝ) + 1 / 2 < (⌊q + 1 / 2⌋:ℤ) + 1 := by
      have := (Rat.cast_lt (K := ℝ)).mpr (Int.lt_floor_add_one (q + 1 / 2)); push_cast at this; exact this
    refine ⟨abs_le.mpr ⟨by linarith, by linarith⟩, fun he => ?_⟩
    have e : (q:ℝ) - (⌊q + 1 / 2⌋:ℤ) = -(1 / 2) := by
      rcases abs_eq (by norm_num : (0:ℝ) ≤ 1 / 2) |>.mp he with e | e
      · linarith
      · exact e
    rw [abs_of_nonneg h', abs_of_nonneg (by linarith)]; linarith

/-- `round_ties_to_away(x)`: for the function `G` rounding each real to nearest, ties away from zero. -/
theorem C14_round_ties_to_away (G : ℝ → ℤ) (hG : ∀ r, IsRoundAway r (G r)) (hx : x.Ok φ) :
    Tightest φ (Fmt.roundAwayI x) ((fun r => (G r : ℝ)) '' x.set) :=
  IntRnd.tight (intRnd_of_spec hG isRoundAway_mono (fun n => ⟨by simp, fun h => by norm_num at h⟩))
    (fun q => le_antisymm (isRoundAway_mono _ _ _ _ le_rfl (hG q) (isRoundAway_awayQ q))
      (isRoundAway_mono _ _ _ _ le_rfl (isRoundAway_awayQ q) (hG q))) hx

theorem sign_ulim {m : Rnd} (hm : m ≠ .N) {a : FP} (ha : a ≠ .nan) : ULim φ m Real.sign a a.signF := by
  have h1 : (FP.fin 1).In φ := rep_one φ
  have h2 : (FP.fin (-1)).In φ := rep_neg_one φ
  have key : ∀ (v : ℚ) (F : Filter ℝ), F = filtE a.toE → (∀ᶠ t in F, Real.sign t = v) → φ.Rep v →
      a.signF = .fin v → ULim φ m Real.sign a a.signF := by
    intro v F hF hv hr he
    rw [he]
    refine ⟨⟨((v:ℝ):EReal), ?_, ?_⟩, by simp, hr⟩
    · unfold LimAt
      rw [← hF]
      refine (tendsto_const_nhds (x := ((v:ℝ):EReal))).congr' ?_
      filter_upwards [hv] with t ht
      rw [ht]
    · have := rndE_self (φ := φ) (m := m) (a := .fin v) hr (by simp) hm
      simpa using this.symm
  rcases lt_trichotomy a.toE 0 with h | h | h
  · refine key (-1) _ rfl ?_ h2 ?_
    · filter_upwards [ev_neg h] with t ht
      rw [Real.sign_of_neg ht]; norm_num
    · unfold FP.signF; rw [if_pos ((NE.lt0_iff ha).mpr h)]
  · refine key 0 _ rfl ?_ φ.rep_zero ?_
    · rw [h, show (0:EReal) = ((0:ℝ):EReal) from rfl, filtE_coe, eventually_pure]; simp
    · unfold FP.signF
      rw [if_neg (by rw [NE.lt0_iff ha, h]; exact lt_irrefl _), if_pos ((NE.eq0_iff ha).mpr h)]
  · refine key 1 _ rfl ?_ h1 ?_
    · filter_upwards [ev_pos h] with t ht
      rw [Real.sign_of_pos ht]; norm_num
    · unfold FP.signF
      rw [if_neg (by rw [NE.lt0_iff ha]; exact not_lt.mpr h.le), if_neg (by rw [NE.eq0_iff ha]; exact h.ne')]

theorem sign_monotone : Monotone Real.sign := by
  intro a b h
  rcases lt_trichotomy a 0 with ha | ha | ha
  · rw [Real.sign_of_neg ha]
    rcases lt_trichotomy b 0 with hb | hb | hb
    · rw [Real.sign_of_neg hb]
    · rw [hb, Real.sign_zero]; norm_num
    · rw [Real.sign_of_pos hb]; norm_num
  · rw [ha, Real.sign_zero]
    rcases (ha ▸ h : 0 ≤ b).eq_or_lt with hb | hb
    · rw [← hb, Real.sign_zero]
    · rw [Real.sign_of_pos hb]; norm_num
  · rw [Real.sign_of_pos ha, Real.sign_of_pos (ha.trans_le h)]

/-- `sign(x)`. -/
theorem C14_sign (hx : x.Ok φ) : Tightest φ (Fmt.signI x) (Real.sign '' x.set) := by
  rcases hx.cases with rfl | hx
  · exact tightest_empty' (by simp [Fmt.signI]) (by simp)
  · unfold Fmt.signI
    simp only [hx.isValid, hx.isEmpty, Bool.not_true, Bool.or_false, Bool.false_eq_true, if_false]
    exact tight_mono hx (sign_monotone.monotoneOn _) (sign_ulim (by simp) hx.lo_ne) (sign_ulim (by simp) hx.hi_ne)

/-- Non-vacuity: the rounding functions specified above exist. -/
example : (∃ G : ℝ → ℤ, ∀ r, IsTrunc r (G r)) ∧ (∃ G : ℝ → ℤ, ∀ r, IsRoundEven r (G r)) ∧
    (∃ G : ℝ → ℤ, ∀ r, IsRoundAway r (G r)) ∧ (Itv.mk (.fin (-5/2)) (.fin (7/2))).Ok binary64 := by
  refine ⟨?_, ?_, ?_, Itv.ok_of_okb (by decide +kernel)⟩
  · refine ⟨fun r => if r < 0 then ⌈r⌉ else ⌊r⌋, fun r => ?_⟩
    simp only [IsTrunc]
    split_ifs with h
    · have h1 : ((⌈r⌉:ℤ):ℝ) ≤ 0 := by exact_mod_cast Int.ceil_le.mpr (by simpa using h.le)
      rw [abs_of_neg h, abs_of_nonpos h1]
      exact ⟨by linarith [Int.le_ceil r], by linarith [Int.ceil_lt_add_one r], by nlinarith⟩
    · have h' := not_lt.mp h
      have h1 : (0:ℝ) ≤ (⌊r⌋:ℤ) := by exact_mod_cast Int.floor_nonneg.mpr h'
      rw [abs_of_nonneg h', abs_of_nonneg h1]
      exact ⟨by linarith [Int.floor_le r], by linarith [Int.lt_floor_add_one r], by positivity⟩
  · refine ⟨fun r => if r - ⌊r⌋ < 1 / 2 ∨ (r - ⌊r⌋ = 1 / 2 ∧ Even ⌊r⌋) then ⌊r⌋ else ⌊r⌋ + 1, fun r => ?_⟩
    simp only [IsRoundEven]
    have h2 := Int.floor_le r
    have h3 := Int.lt_floor_add_one r
    split_ifs with h
    · rw [abs_of_nonneg (by linarith)]
      rcases h with h | h
      · exact ⟨h.le, fun e => absurd e h.ne⟩
      · exact ⟨h.1.le, fun _ => h.2⟩
    · push Not at h
      push_cast
      rw [abs_of_nonpos (by linarith)]
      exact ⟨by linarith [h.1], fun e => (Int.not_even_iff_odd.mp (h.2 (by linarith))).add_one⟩
  · refine ⟨fun r => if r < 0 then ⌈r - 1 / 2⌉ else ⌊r + 1 / 2⌋, fun r => ?_⟩
    simp only [IsRoundAway]
    split_ifs with h
    · have h2 := Int.le_ceil (r - 1 / 2)
      have h3 := Int.ceil_lt_add_one (r - 1 / 2)
      refine ⟨abs_le.mpr ⟨by linarith, by linarith⟩, fun he => ?_⟩
      rw [abs_of_nonneg (by
        rcases abs_eq (by norm_num : (0:ℝ) ≤ 1 / 2) |>.mp he with e | e <;> linarith)] at he
      rw [abs_of_neg h, abs_of_nonpos (by linarith)]; linarith
    · have h' := not_lt.mp h
      have h2 := Int.floor_le (r + 1 / 2)
      have h3 := Int.lt_floor_add_one (r + 1 / 2)
      refine ⟨abs_le.mpr ⟨by linarith, by linarith⟩, fun he => ?_⟩
      have e : r - (⌊r + 1 / 2⌋:ℤ) = -(1 / 2) := by
        rcases abs_eq (by norm_num : (0:ℝ) ≤ 1 / 2) |>.mp he with e | e <;> linarith
      rw [abs_of_nonneg h', abs_of_nonneg (by linarith)]; linarith

end P1788
