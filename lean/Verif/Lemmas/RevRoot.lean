import Verif.Lemmas.RevPow

/-! Helper lemmas: the bounds computed by `pown_rev` for negative exponents. -/

namespace P1788
open FP

variable {φ : Fmt}

theorem rootR_pow {n : ℕ} (hn : n ≠ 0) {c : ℝ} (h : 0 ≤ c ∨ n % 2 ≠ 0) : rootR n c ^ n = c := by
  unfold rootR
  split_ifs with hc
  · have ho : Odd n := by
      rw [Nat.odd_iff]
      have := h.resolve_left (not_le.mpr hc); omega
    rw [ho.neg_pow, Real.rpow_inv_natCast_pow (by linarith) hn]; ring
  · exact Real.rpow_inv_natCast_pow (not_lt.mp hc) hn

theorem rootR_pos {n : ℕ} {c : ℝ} (h : 0 < c) : 0 < rootR n c := by
  unfold rootR
  rw [if_neg (not_lt.mpr h.le)]
  exact Real.rpow_pos_of_pos h _

theorem rootR_neg {n : ℕ} {c : ℝ} (h : c < 0) : rootR n c < 0 := by
  unfold rootR
  rw [if_pos h]
  exact neg_neg_of_pos (Real.rpow_pos_of_pos (by linarith) _)

theorem rootR_neg_eq {n : ℕ} {c : ℝ} (h : c ≠ 0) : rootR n (-c) = -rootR n c := by
  unfold rootR
  rcases lt_or_gt_of_ne h with h | h
  · rw [if_neg (by linarith), if_pos h]; simp
  · rw [if_pos (by linarith), if_neg (by linarith)]; simp

theorem rootR_zero {n : ℕ} (hn : n ≠ 0) : rootR n 0 = 0 := by
  unfold rootR
  rw [if_neg (lt_irrefl _)]
  exact Real.zero_rpow (inv_ne_zero (by exact_mod_cast hn))

theorem rootR_one (c : ℝ) : rootR 1 c = c := by
  unfold rootR; split_ifs <;> simp

theorem rootR_between {n : ℕ} (hn : n ≠ 0) {c : ℝ} (h : 0 < c) : min c 1 ≤ rootR n c ∧ rootR n c ≤ max c 1 := by
  have hw := rootR_pos (n := n) h
  have hp := rootR_pow hn (Or.inl h.le)
  generalize rootR n c = w at *
  rcases le_total w 1 with h1 | h1
  · refine ⟨(min_le_left _ _).trans ?_, h1.trans (le_max_right _ _)⟩
    rw [← hp]; exact pow_le_of_le_one hw.le h1 hn
  · refine ⟨(min_le_right _ _).trans h1, le_trans ?_ (le_max_left _ _)⟩
    rw [← hp]; exact le_self_pow₀ h1 hn

/-- A real number between two numbers of the format is rounded to a finite number between them. -/
theorem round_between {m : Rnd} (hm : m ≠ .N) {a b : ℚ} (ha : φ.Rep a) (hb : φ.Rep b) {w : ℝ} (h1 : (a:ℝ) ≤ w) (h2 : w ≤ b)
    (hs : 0 < a * b) : ∃ r : ℚ, φ.round m w = .fin r ∧ a ≤ r ∧ r ≤ b ∧ r ≠ 0 ∧ φ.Rep r := by
  have k : (FP.fin a).toE ≤ (φ.round m w).toE ∧ (φ.round m w).toE ≤ (FP.fin b).toE := by
    have e1 : (FP.fin a).toE ≤ (w:EReal) := by rw [FP.toE_fin]; exact_mod_cast h1
    have e2 : (w:EReal) ≤ (FP.fin b).toE := by rw [FP.toE_fin]; exact_mod_cast h2
    cases m with
    | N => exact absurd rfl hm
    | D =>
      rw [← Fmt.rdE_coe]
      exact ⟨(Fmt.le_rdE_iff φ (f := .fin a) ha _ (by simp)).mpr e1, (φ.rdE_le _).trans e2⟩
    | U =>
      rw [← Fmt.ruE_coe]
      exact ⟨e1.trans (φ.le_ruE _), (Fmt.ruE_le_iff φ (f := .fin b) hb _ (by simp)).mpr e2⟩
  have hn := φ.round_ne_nan m w
  have hin := φ.round_in m w
  cases hr : φ.round m w with
  | nan => exact absurd hr hn
  | ninf => rw [hr] at k; simp at k
  | pinf => rw [hr] at k; simp at k
  | nzero =>
    rw [hr] at k
    have k1 : a ≤ 0 := toE_le_fin.mp (by simpa using k.1)
    have k2 : 0 ≤ b := toE_le_fin.mp (by simpa using k.2)
    exact absurd (mul_nonpos_of_nonpos_of_nonneg k1 k2) (not_le.mpr hs)
  | fin r =>
    rw [hr] at k hin
    have k1 := toE_le_fin.mp k.1
    have k2 := toE_le_fin.mp k.2
    refine ⟨r, rfl, k1, k2, ?_, hin⟩
    rintro rfl
    exact absurd (mul_nonpos_of_nonpos_of_nonneg k1 k2) (not_le.mpr hs)

theorem root_round {m : Rnd} (hm : m ≠ .N) {n : ℕ} (hn : n ≠ 0) {c : ℚ} (hc : φ.Rep c) (hc0 : c ≠ 0)
    (hs : 0 < c ∨ n % 2 ≠ 0) : ∃ r : ℚ, φ.root m n (.fin c) = .fin r ∧ φ.round m (rootR n c) = .fin r ∧
      (0 < c → 0 < r) ∧ (c < 0 → r < 0) ∧ φ.Rep r := by
  have e : φ.root m n (.fin c) = φ.round m (rootR n c) := by
    simp only [Fmt.root]
    rw [if_neg]
    rintro ⟨h1, h2⟩
    rcases hs with h | h
    · exact absurd h (not_lt.mpr h1.le)
    · exact h h2
  rw [e]
  have r1 := rep_one φ
  rcases lt_or_gt_of_ne hc0 with h | h
  · have hR : (0:ℝ) < (-c:ℝ) := by have : (c:ℝ) < 0 := by exact_mod_cast h
                                   linarith
    have := rootR_between hn hR
    rw [rootR_neg_eq (by exact_mod_cast hc0)] at this
    have hmin : φ.Rep (min c (-1)) := by rcases min_choice c (-1) with h | h <;> rw [h]; exacts [hc, r1.neg]
    have hmax : φ.Rep (max c (-1)) := by rcases max_choice c (-1) with h | h <;> rw [h]; exacts [hc, r1.neg]
    have m1 : min c (-1) < 0 := (min_le_left _ _).trans_lt h
    have m2 : max c (-1) < 0 := max_lt h (by norm_num)
    obtain ⟨r, g1, g2, g3, g4, g5⟩ := round_between (φ := φ) hm hmin hmax (w := rootR n c) (by
        push_cast
        have h3 : min (c:ℝ) (-1) = -max (-(c:ℝ)) 1 := by rcases le_total (c:ℝ) (-1) with g | g <;> simp [min_def, max_def] <;> split_ifs <;> linarith
        rw [h3]; linarith [this.2]) (by
        push_cast
        have h3 : max (c:ℝ) (-1) = -min (-(c:ℝ)) 1 := by rcases le_total (c:ℝ) (-1) with g | g <;> simp [min_def, max_def] <;> split_ifs <;> linarith
        rw [h3]; linarith [this.1]) (mul_pos_of_neg_of_neg m1 m2)
    exact ⟨r, g1, g1, fun h' => absurd h' (not_lt.mpr h.le), fun _ => g3.trans_lt m2, g5⟩
  · have hR : (0:ℝ) < (c:ℝ) := by exact_mod_cast h
    have := rootR_between hn hR
    have hmin : φ.Rep (min c 1) := by rcases min_choice c 1 with h | h <;> rw [h]; exacts [hc, r1]
    have hmax : φ.Rep (max c 1) := by rcases max_choice c 1 with h | h <;> rw [h]; exacts [hc, r1]
    have m1 : 0 < min c 1 := lt_min h one_pos
    obtain ⟨r, g1, g2, g3, g4, g5⟩ := round_between (φ := φ) hm hmin hmax (w := rootR n c) (by
        push_cast; exact this.1) (by push_cast; exact this.2) (mul_pos m1 (h.trans_le (le_max_left _ _)))
    exact ⟨r, g1, g1, fun _ => m1.trans_le g2, fun h' => absurd h' (not_lt.mpr h.le), g5⟩

theorem div_fin {m : Rnd} {r : ℚ} (hr : r ≠ 0) : φ.div m (.fin 1) (.fin r) = φ.round m ((1 / r : ℚ) : ℝ) := by
  rw [Fmt.round_cast]
  simp [Fmt.div, FP.isInf, FP.isZero, hr, FP.q]

theorem divX_fin_iff {m : Rnd} {r : ℚ} (hr : r ≠ 0) :
    φ.divX m (.fin 1) (.fin r) = true ↔ (φ.div m (.fin 1) (.fin r)).toE ≠ (((1 / r : ℚ) : ℝ) : EReal) := by
  have e : φ.divX m (.fin 1) (.fin r) = match φ.div m (.fin 1) (.fin r) with
      | .fin s => decide (s ≠ 1 / r)
      | _ => true := by
    simp [Fmt.divX, FP.isInf, FP.isZero, hr, FP.q]
    cases φ.div m (.fin 1) (.fin r) <;> rfl
  rw [e]
  have hn : φ.div m (.fin 1) (.fin r) ≠ .nan := by rw [div_fin hr]; exact φ.round_ne_nan _ _
  have h1 : (1 / r : ℚ) ≠ 0 := one_div_ne_zero hr
  generalize φ.div m (.fin 1) (.fin r) = d at hn ⊢
  cases d with
  | nan => exact absurd rfl hn
  | ninf => simp
  | pinf => simp
  | nzero =>
    simp only [FP.toE_nzero, true_iff]
    intro h
    have h : ((0:ℝ):EReal) = (((1 / r : ℚ) : ℝ) : EReal) := h
    rw [EReal.coe_eq_coe_iff] at h
    exact h1 (by exact_mod_cast h.symm)
  | fin s =>
    simp only [FP.toE_fin, decide_eq_true_eq, ne_eq, EReal.coe_eq_coe_iff]
    exact_mod_cast Iff.rfl

theorem neg_toNat {p : ℤ} (hp : p < 0) : (-p).toNat ≠ 0 ∧ p = -((-p).toNat : ℤ) ∧
    (p % 2 ≠ 0 ↔ (-p).toNat % 2 ≠ 0) := by
  refine ⟨by omega, by omega, by omega⟩

theorem root_zpow {p : ℤ} (hp : p < 0) {c : ℝ} (hc0 : c ≠ 0) (hs : 0 < c ∨ p % 2 ≠ 0) :
    ((rootR (-p).toNat c)⁻¹) ^ p = c := by
  obtain ⟨h1, h2, h3⟩ := neg_toNat hp
  have := rootR_pow h1 (c := c) (hs.imp le_of_lt h3.mp)
  generalize (-p).toNat = n at *
  rw [h2, zpow_neg, zpow_natCast, inv_pow, inv_inv]
  exact this

theorem rootR_sign {n : ℕ} {c : ℝ} (hc : c ≠ 0) : rootR n c ≠ 0 ∧ (0 < rootR n c ↔ 0 < c) ∧ (rootR n c < 0 ↔ c < 0) := by
  rcases lt_or_gt_of_ne hc with h | h
  · have := rootR_neg (n := n) h
    exact ⟨this.ne, iff_of_false this.not_gt h.not_gt, iff_of_true this h⟩
  · have := rootR_pos (n := n) h
    exact ⟨this.ne', iff_of_true this h, iff_of_false this.not_gt h.not_gt⟩

/-- `pown_rev_inf` returns the largest number of the format that is not above the real solution. -/
theorem pownRevInf_fin {c : ℚ} (hc : φ.Rep c) (hc0 : c ≠ 0) {p : ℤ} (hp : p < 0) (hs : 0 < c ∨ p % 2 ≠ 0) :
    RevAt φ .D (((rootR (-p).toNat c)⁻¹ : ℝ) : EReal) (φ.pownRevInf (.fin c) p) := by
  obtain ⟨h1, h2, h3⟩ := neg_toNat hp
  have hcR : (c:ℝ) ≠ 0 := by exact_mod_cast hc0
  have hsR : 0 < (c:ℝ) ∨ p % 2 ≠ 0 := hs.imp (fun h => by exact_mod_cast h) id
  obtain ⟨r, e1, e2, e3, e4, e5⟩ := root_round (φ := φ) (m := .U) (by simp) h1 hc hc0 (hs.imp id h3.mp)
  have hr0 : r ≠ 0 := by
    rcases lt_or_gt_of_ne hc0 with h | h
    · exact (e4 h).ne
    · exact (e3 h).ne'
  have hpow := root_zpow hp hcR hsR
  obtain ⟨w0, w1, w2⟩ := rootR_sign (n := (-p).toNat) hcR
  have hwr : rootR (-p).toNat c ≤ r := by
    have := φ.le_ruE ((rootR (-p).toNat c : ℝ) : EReal)
    rw [Fmt.ruE_coe, e2, FP.toE_fin] at this
    exact_mod_cast this
  have hinv : (r:ℝ)⁻¹ ≤ (rootR (-p).toNat c)⁻¹ := by
    rcases lt_or_gt_of_ne hcR with h | h
    · have : (r:ℝ) < 0 := by exact_mod_cast e4 (by exact_mod_cast h)
      exact (inv_le_inv_of_neg this (w2.mpr h)).mpr hwr
    · exact inv_anti₀ (w1.mpr h) hwr
  have hx := div_fin (φ := φ) (m := .D) hr0
  have hX := divX_fin_iff (φ := φ) (m := .D) hr0
  have hxle : (φ.div .D (.fin 1) (.fin r)).toE ≤ (((r:ℝ)⁻¹ : ℝ) : EReal) := by
    rw [hx, ← Fmt.rdE_coe]
    refine (φ.rdE_le _).trans ?_
    push_cast; rw [one_div]
  unfold Fmt.pownRevInf
  simp only [e1]
  by_cases hb : p = -1 ∨ (φ.divX .D (.fin 1) (.fin r) || (FP.fin r).differs (rootR (-p).toNat c)) = false
  · rw [if_pos hb]
    have hexact : (r:ℝ) = rootR (-p).toNat c := by
      rcases hb with rfl | hb
      · have : rootR ((-(-1:ℤ)).toNat) (c:ℝ) = c := rootR_one c
        rw [this] at e2 ⊢
        have hrd := φ.ruE_of_in (f := .fin c) hc (by simp)
        rw [FP.toE_fin, Fmt.ruE_coe, e2, FP.toE_fin] at hrd
        exact_mod_cast hrd
      · simp only [Bool.or_eq_false_iff] at hb
        have := hb.2
        by_contra hne
        simp [FP.differs, hne] at this
    have hd : (FP.fin r).differs (rootR (-p).toNat c) = false := by
      simp [FP.differs, hexact]
    have hL : (((1 / r : ℚ) : ℝ) : EReal) = (((rootR (-p).toNat c)⁻¹ : ℝ) : EReal) := by
      rw [← hexact]; push_cast; rw [one_div]
    refine ⟨?_, ?_, ?_, ?_⟩
    · show (φ.div .D (.fin 1) (.fin r)).toE = _
      rw [hx, Fmt.rndE_D, ← hL, Fmt.rdE_coe]
    · show (_ || _) = true ↔ _
      rw [hd, Bool.or_false, hX, hL]
    · show φ.div .D (.fin 1) (.fin r) ≠ _
      rw [hx]; exact φ.round_ne_nan _ _
    · show (φ.div .D (.fin 1) (.fin r)).In φ
      rw [hx]; exact φ.round_in _ _
  · rw [if_neg hb]
    push Not at hb
    have hflag := hb.2
    refine revInfLoop_spec hc hc0 hp (inv_ne_zero w0) hpow (hsR.imp (fun h => inv_pos.mpr (w1.mpr h)) id)
      (by rw [hx]; exact φ.round_ne_nan _ _) (by rw [hx]; exact φ.round_in _ _) ?_ ?_
    · simp only [ne_eq, Bool.not_eq_false, Bool.or_eq_true] at hflag
      rcases hflag with h | h
      · have hne := hX.mp h
        refine lt_of_lt_of_le (lt_of_le_of_ne hxle ?_) (EReal.coe_le_coe_iff.mpr hinv)
        rw [show ((r:ℝ)⁻¹) = ((1 / r : ℚ) : ℝ) by push_cast; rw [one_div]]
        exact hne
      · refine lt_of_le_of_lt hxle (EReal.coe_lt_coe_iff.mpr (lt_of_le_of_ne hinv ?_))
        intro he
        have : (r:ℝ) = rootR (-p).toNat c := inv_injective he
        simp [FP.differs, this] at h
    · intro hv
      have hc' : 0 < c := by
        have := w1.mp (inv_pos.mp hv); exact_mod_cast this
      have : 0 < r := e3 hc'
      rw [hx, ← Fmt.rdE_coe]
      have h0 := (Fmt.le_rdE_iff φ (f := .fin 0) φ.rep_zero (((1 / r : ℚ) : ℝ) : EReal) (by simp)).mpr
      rw [show (FP.fin 0).toE = 0 by simp] at h0
      refine h0 ?_
      have : 0 ≤ 1 / r := by positivity
      have : (0:ℝ) ≤ ((1 / r : ℚ) : ℝ) := by exact_mod_cast this
      exact_mod_cast this

theorem pownRevSup_fin {c : ℚ} (hc : φ.Rep c) (hc0 : c ≠ 0) {p : ℤ} (hp : p < 0) (hs : 0 < c ∨ p % 2 ≠ 0) :
    RevAt φ .U (((rootR (-p).toNat c)⁻¹ : ℝ) : EReal) (φ.pownRevSup (.fin c) p) := by
  obtain ⟨h1, h2, h3⟩ := neg_toNat hp
  have hcR : (c:ℝ) ≠ 0 := by exact_mod_cast hc0
  have hsR : 0 < (c:ℝ) ∨ p % 2 ≠ 0 := hs.imp (fun h => by exact_mod_cast h) id
  obtain ⟨r, e1, e2, e3, e4, e5⟩ := root_round (φ := φ) (m := .D) (by simp) h1 hc hc0 (hs.imp id h3.mp)
  have hr0 : r ≠ 0 := by
    rcases lt_or_gt_of_ne hc0 with h | h
    · exact (e4 h).ne
    · exact (e3 h).ne'
  have hpow := root_zpow hp hcR hsR
  obtain ⟨w0, w1, w2⟩ := rootR_sign (n := (-p).toNat) hcR
  have hwr : (r:ℝ) ≤ rootR (-p).toNat c := by
    have := φ.rdE_le ((rootR (-p).toNat c : ℝ) : EReal)
    rw [Fmt.rdE_coe, e2, FP.toE_fin] at this
    exact_mod_cast this
  have hinv : (rootR (-p).toNat c)⁻¹ ≤ (r:ℝ)⁻¹ := by
    rcases lt_or_gt_of_ne hcR with h | h
    · have : (r:ℝ) < 0 := by exact_mod_cast e4 (by exact_mod_cast h)
      exact (inv_le_inv_of_neg (w2.mpr h) this).mpr hwr
    · have : (0:ℝ) < r := by exact_mod_cast e3 (by exact_mod_cast h)
      exact inv_anti₀ this hwr
  have hx := div_fin (φ := φ) (m := .U) hr0
  have hX := divX_fin_iff (φ := φ) (m := .U) hr0
  have hxle : (((r:ℝ)⁻¹ : ℝ) : EReal) ≤ (φ.div .U (.fin 1) (.fin r)).toE := by
    rw [hx, ← Fmt.ruE_coe]
    refine le_trans ?_ (φ.le_ruE _)
    push_cast; rw [one_div]
  unfold Fmt.pownRevSup
  simp only [e1]
  by_cases hb : p = -1 ∨ (φ.divX .U (.fin 1) (.fin r) || (FP.fin r).differs (rootR (-p).toNat c)) = false
  · rw [if_pos hb]
    have hexact : (r:ℝ) = rootR (-p).toNat c := by
      rcases hb with rfl | hb
      · have : rootR ((-(-1:ℤ)).toNat) (c:ℝ) = c := rootR_one c
        rw [this] at e2 ⊢
        have hrd := φ.rdE_of_in (f := .fin c) hc (by simp)
        rw [FP.toE_fin, Fmt.rdE_coe, e2, FP.toE_fin] at hrd
        exact_mod_cast hrd
      · simp only [Bool.or_eq_false_iff] at hb
        have := hb.2
        by_contra hne
        simp [FP.differs, hne] at this
    have hd : (FP.fin r).differs (rootR (-p).toNat c) = false := by
      simp [FP.differs, hexact]
    have hL : (((1 / r : ℚ) : ℝ) : EReal) = (((rootR (-p).toNat c)⁻¹ : ℝ) : EReal) := by
      rw [← hexact]; push_cast; rw [one_div]
    refine ⟨?_, ?_, ?_, ?_⟩
    · show (φ.div .U (.fin 1) (.fin r)).toE = _
      rw [hx, Fmt.rndE_U, ← hL, Fmt.ruE_coe]
    · show (_ || _) = true ↔ _
      rw [hd, Bool.or_false, hX, hL]
    · show φ.div .U (.fin 1) (.fin r) ≠ _
      rw [hx]; exact φ.round_ne_nan _ _
    · show (φ.div .U (.fin 1) (.fin r)).In φ
      rw [hx]; exact φ.round_in _ _
  · rw [if_neg hb]
    push Not at hb
    have hflag := hb.2
    refine revSupLoop_spec hc hc0 hp (inv_ne_zero w0) hpow (hsR.imp (fun h => inv_pos.mpr (w1.mpr h)) id)
      (by rw [hx]; exact φ.round_ne_nan _ _) (by rw [hx]; exact φ.round_in _ _) ?_ ?_
    · simp only [ne_eq, Bool.not_eq_false, Bool.or_eq_true] at hflag
      rcases hflag with h | h
      · have hne := hX.mp h
        refine lt_of_le_of_lt (EReal.coe_le_coe_iff.mpr hinv) (lt_of_le_of_ne hxle ?_)
        rw [show ((r:ℝ)⁻¹) = ((1 / r : ℚ) : ℝ) by push_cast; rw [one_div]]
        exact hne.symm
      · refine lt_of_lt_of_le (EReal.coe_lt_coe_iff.mpr (lt_of_le_of_ne hinv ?_)) hxle
        intro he
        have : (r:ℝ) = rootR (-p).toNat c := inv_injective he.symm
        simp [FP.differs, this] at h
    · intro hv
      have hc' : c < 0 := by
        have := w2.mp (inv_lt_zero.mp hv); exact_mod_cast this
      have : r < 0 := e4 hc'
      rw [hx, ← Fmt.ruE_coe]
      have h0 := (Fmt.ruE_le_iff φ (f := .fin 0) φ.rep_zero (((1 / r : ℚ) : ℝ) : EReal) (by simp)).mpr
      rw [show (FP.fin 0).toE = 0 by simp] at h0
      refine h0 ?_
      have : 1 / r ≤ 0 := (one_div_neg.mpr this).le
      have : ((1 / r : ℚ) : ℝ) ≤ (0:ℝ) := by exact_mod_cast this
      exact_mod_cast this

/-- The infinite and zero arguments are exact. -/
theorem pownRevInf_pinf {p : ℤ} : RevAt φ .D 0 (φ.pownRevInf .pinf p) := by
  have : φ.pownRevInf .pinf p = (.fin 0, false) := by
    simp [Fmt.pownRevInf, Fmt.root, Fmt.div, Fmt.divX, FP.isInf, FP.isZero, FP.signbit, FP.mkZero]
  rw [this]
  exact ⟨by simp, by simp, by simp, φ.rep_zero⟩

theorem pownRevSup_ninf {p : ℤ} (hp : p < 0) (ho : p % 2 ≠ 0) : RevAt φ .U 0 (φ.pownRevSup .ninf p) := by
  have h : ¬((-p).toNat % 2 = 0) := (neg_toNat hp).2.2.mp ho
  have : φ.pownRevSup .ninf p = (.nzero, false) := by
    simp [Fmt.pownRevSup, Fmt.root, h, Fmt.div, Fmt.divX, FP.isInf, FP.isZero, FP.signbit, FP.mkZero]
  rw [this]
  exact ⟨by simp, by simp, by simp, trivial⟩

theorem pownRevSup_zero {p : ℤ} (hp : p < 0) : RevAt φ .U ⊤ (φ.pownRevSup (.fin 0) p) := by
  have h := rootR_zero (neg_toNat hp).1
  have e : φ.root .D (-p).toNat (.fin 0) = .fin 0 := by simp [Fmt.root, h]
  have : φ.pownRevSup (.fin 0) p = (.pinf, false) := by
    unfold Fmt.pownRevSup
    simp only [e]
    simp [Fmt.div, Fmt.divX, FP.isInf, FP.isZero, FP.signbit, FP.mkInf, FP.differs, h]
  rw [this]
  exact ⟨by simp, by simp, by simp, trivial⟩

end P1788
