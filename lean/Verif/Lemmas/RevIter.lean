import Verif.Model.RevIter
import Verif.Lemmas.RevRoot
import Verif.Lemmas.RevNear
import Verif.Lemmas.TwoSum

/-! Helper lemmas: the number of iterations of the loops of `pown_rev`. -/

namespace P1788
open FP

variable {φ : Fmt}

theorem loopN_of {nxt back : FP → FP} {go done : FP → Prop} [DecidablePred go] [DecidablePred done] {K fuel : ℕ} {x : FP}
    (h : ¬go (nxt^[K+1] x)) (hK : K < fuel) :
    FP.loopN nxt back go done fuel x = some (FP.loop nxt back go done x) := by
  classical
  induction K using Nat.strong_induction_on generalizing fuel x with
  | _ K ih =>
    obtain ⟨n, rfl⟩ : ∃ n, fuel = n + 1 := ⟨fuel - 1, by omega⟩
    unfold FP.loopN
    by_cases hg : go (nxt x)
    · simp only [hg, if_true]
      obtain ⟨k, rfl⟩ : ∃ k, K = k + 1 := by
        rcases K with _ | k
        · exact absurd hg h
        · exact ⟨k, rfl⟩
      have h' : ¬go (nxt^[k+1] (nxt x)) := h
      rw [ih k (by omega) (fuel := n) (x := nxt x) h' (by omega)]
      have e1 : ∃ k, ¬go (nxt^[k+1] (nxt x)) := ⟨k, h'⟩
      have e2 : ∃ k, ¬go (nxt^[k+1] x) := ⟨k + 1, h⟩
      have hf := Nat.find_spec e1
      have hm : ∀ m < Nat.find e1, go (nxt^[m+1] (nxt x)) := fun m hm => by
        have := Nat.find_min e1 hm
        simpa using this
      have a1 := loop_eq (back := back) (done := done) (x := nxt x) (Nat.find e1) hf hm
      have a2 := loop_eq (back := back) (done := done) (go := go) (nxt := nxt) (x := x) (Nat.find e1 + 1) hf (by
        intro j hj
        rcases j with _ | j
        · exact hg
        · exact hm j (by omega))
      have e : nxt^[Nat.find e1 + 1 + 1] x = nxt^[Nat.find e1 + 1] (nxt x) := rfl
      rw [e] at a2
      rcases a1 with ⟨b1, b2⟩ | ⟨b1, b2⟩ <;> rcases a2 with ⟨d1, d2⟩ | ⟨d1, d2⟩
      · rw [b2, d2]
      · exact absurd b1 d1
      · exact absurd d1 b1
      · rw [b2, d2]
    · simp only [hg, if_false]
      have a := loop_eq (back := back) (done := done) (go := go) (nxt := nxt) (x := x) 0 hg (by intro k hk; omega)
      have e : nxt^[0 + 1] x = nxt x := rfl
      rw [e] at a
      rcases a with ⟨d1, d2⟩ | ⟨d1, d2⟩
      · rw [d2, if_pos d1]
      · rw [d2, if_neg d1]

/-- Two numbers of the format differ by at least the relative spacing. -/
theorem gap {a b : ℚ} (ha : φ.Rep a) (hb : φ.Rep b) (h0 : 0 < a) (h : a < b) : (a:ℝ) * (1 + uu φ) ≤ b := by
  have ra : φ.RepU a := by
    obtain ⟨m, e, h1, h2, h3, -⟩ := ha
    exact ⟨m, e, h1, h2.le, h3⟩
  have rb : φ.RepU b := by
    obtain ⟨m, e, h1, h2, h3, -⟩ := hb
    exact ⟨m, e, h1, h2.le, h3⟩
  obtain ⟨k, hk⟩ := φ.mult_expo ra
  obtain ⟨l, hl⟩ := φ.mult_expo rb
  have hm : φ.expo a ≤ φ.expo b := φ.expo_monoQ h0.ne' (by
    rw [abs_of_pos h0, abs_of_pos (h0.trans h)]; exact h.le)
  have hl' : ∃ l' : ℤ, b = l' * 2 ^ φ.expo a := by
    generalize φ.expo b = eb at *
    refine ⟨l * 2 ^ (eb - φ.expo a).toNat, ?_⟩
    push_cast
    rw [mul_assoc, ← zpow_natCast, Int.toNat_of_nonneg (by omega), ← zpow_add₀ (by norm_num), sub_add_cancel]
    exact hl
  obtain ⟨l', hl'⟩ := hl'
  have hp := two_zpow_pos (φ.expo a)
  generalize hE : φ.expo a = E at *
  have hab := φ.abs_lt_expoQ a
  rw [abs_of_pos h0, hE] at hab
  have hkl : k < l' := by
    have : (k:ℚ) * 2 ^ E < l' * 2 ^ E := by rw [← hk, ← hl']; exact h
    have := lt_of_mul_lt_mul_right this hp.le
    exact_mod_cast this
  have hq : a + 2 ^ E ≤ b := by
    rw [hl']
    have h1 : (k:ℚ) + 1 ≤ l' := by exact_mod_cast hkl
    have := mul_le_mul_of_nonneg_right h1 hp.le
    rw [add_mul, ← hk, one_mul] at this
    exact this
  have hqR := (Rat.cast_le (K := ℝ)).mpr hq
  have habR := (Rat.cast_lt (K := ℝ)).mpr hab
  push_cast at hqR habR
  obtain ⟨u1, -, u2, -⟩ := unit_facts φ
  have := mul_lt_mul_of_pos_left habR u1
  rw [← mul_assoc, u2, one_mul] at this
  nlinarith

/-- From a number within five relative spacings of `v`, at most five steps lead to `v`. -/
theorem count_up {x : FP} {x0 v : ℝ} (hx : x.toE = (x0:EReal)) (hs : 0 < x0 * v) (n1 : |x0| ≤ (1 + 5 * uu φ) * |v|)
    (n2 : |v| ≤ (1 + 5 * uu φ) * |x0|) {K : ℕ}
    (hK : ∀ k ≤ K, (φ.nextUp^[k] x) ≠ .nan ∧ (φ.nextUp^[k] x).In φ ∧ (φ.nextUp^[k] x).toE < v) : K ≤ 4 := by
  by_contra hc
  have hc : 5 ≤ K := by omega
  obtain ⟨u1, u2, -⟩ := unit_facts φ
  have hlt : ∀ k < 5, (φ.nextUp^[k] x).toE < (φ.nextUp^[k+1] x).toE := by
    intro k hk
    obtain ⟨g1, g2, g3⟩ := hK k (by omega)
    have := (nextUp_spec g1 g2 (ne_top_of_lt g3)).lt
    rwa [← Function.iterate_succ_apply' φ.nextUp k x] at this
  have hfin : ∀ k ≤ 5, ∃ q : ℚ, (φ.nextUp^[k] x).toE = ((q:ℝ):EReal) ∧ φ.Rep q := by
    intro k hk
    obtain ⟨f1, f2, f3⟩ := hK k (by omega)
    have hl : (⊥:EReal) < (φ.nextUp^[k] x).toE := by
      rcases k with _ | k
      · show ⊥ < x.toE
        rw [hx]; exact EReal.bot_lt_coe _
      · exact lt_of_le_of_lt bot_le (hlt k (by omega))
    generalize φ.nextUp^[k] x = z at *
    cases z with
    | nan => exact absurd rfl f1
    | ninf => simp at hl
    | pinf => simp at f3
    | nzero => exact ⟨0, by simp, φ.rep_zero⟩
    | fin q => exact ⟨q, by simp, f2⟩
  obtain ⟨q0, a0, r0⟩ := hfin 0 (by omega)
  obtain ⟨q1, a1, r1⟩ := hfin 1 (by omega)
  obtain ⟨q2, a2, r2⟩ := hfin 2 (by omega)
  obtain ⟨q3, a3, r3⟩ := hfin 3 (by omega)
  obtain ⟨q4, a4, r4⟩ := hfin 4 (by omega)
  obtain ⟨q5, a5, r5⟩ := hfin 5 (by omega)
  have l0 := hlt 0 (by omega)
  have l1 := hlt 1 (by omega)
  have l2 := hlt 2 (by omega)
  have l3 := hlt 3 (by omega)
  have l4 := hlt 4 (by omega)
  have hv := (hK 5 hc).2.2
  simp only [Nat.reduceAdd] at l0 l1 l2 l3 l4
  rw [a0, a1] at l0
  rw [a1, a2] at l1
  rw [a2, a3] at l2
  rw [a3, a4] at l3
  rw [a4, a5] at l4
  rw [a5] at hv
  have e0 : (q0:ℝ) = x0 := by
    have : x.toE = ((q0:ℝ):EReal) := a0
    rw [hx] at this
    exact_mod_cast this.symm
  have l0 : q0 < q1 := by exact_mod_cast l0
  have l1 : q1 < q2 := by exact_mod_cast l1
  have l2 : q2 < q3 := by exact_mod_cast l2
  have l3 : q3 < q4 := by exact_mod_cast l3
  have l4 : q4 < q5 := by exact_mod_cast l4
  have hv : (q5:ℝ) < v := by exact_mod_cast hv
  have b5 : 1 + 5 * uu φ ≤ (1 + uu φ) ^ 5 := by
    have := one_add_mul_le_pow (a := uu φ) (by linarith) 5
    simpa using this
  rcases pos_and_pos_or_neg_and_neg_of_mul_pos hs with ⟨p1, p2⟩ | ⟨p1, p2⟩
  · have h0 : 0 < q0 := by rw [← e0] at p1; exact_mod_cast p1
    have g0 := gap r0 r1 h0 l0
    have g1 := gap r1 r2 (by linarith) l1
    have g2 := gap r2 r3 (by linarith) l2
    have g3 := gap r3 r4 (by linarith) l3
    have g4 := gap r4 r5 (by linarith) l4
    rw [abs_of_pos p1, abs_of_pos p2, ← e0] at n2
    have hu : 0 ≤ 1 + uu φ := by linarith
    have t1 := mul_le_mul_of_nonneg_right g0 hu
    have t2 := mul_le_mul_of_nonneg_right (t1.trans g1) hu
    have t3 := mul_le_mul_of_nonneg_right (t2.trans g2) hu
    have t4 := mul_le_mul_of_nonneg_right (t3.trans g3) hu
    have t5 := t4.trans g4
    have h0R : (0:ℝ) ≤ q0 := by exact_mod_cast h0.le
    have := mul_le_mul_of_nonneg_right b5 h0R
    nlinarith
  · have h5 : q5 < 0 := by
      have : (q5:ℝ) < 0 := hv.trans p2
      exact_mod_cast this
    have g0 := gap r1.neg r0.neg (by linarith) (neg_lt_neg l0)
    have g1 := gap r2.neg r1.neg (by linarith) (neg_lt_neg l1)
    have g2 := gap r3.neg r2.neg (by linarith) (neg_lt_neg l2)
    have g3 := gap r4.neg r3.neg (by linarith) (neg_lt_neg l3)
    have g4 := gap r5.neg r4.neg (by linarith) (neg_lt_neg l4)
    rw [abs_of_neg p1, abs_of_neg p2, ← e0] at n1
    push_cast at g0 g1 g2 g3 g4
    have hu : 0 ≤ 1 + uu φ := by linarith
    have t1 := mul_le_mul_of_nonneg_right g4 hu
    have t2 := mul_le_mul_of_nonneg_right (t1.trans g3) hu
    have t3 := mul_le_mul_of_nonneg_right (t2.trans g2) hu
    have t4 := mul_le_mul_of_nonneg_right (t3.trans g1) hu
    have t5 := t4.trans g0
    have h0R : (0:ℝ) ≤ -q5 := by
      have : (q5:ℝ) < 0 := by exact_mod_cast h5
      linarith
    have := mul_le_mul_of_nonneg_right b5 h0R
    nlinarith

/-- The exponent range is wide and about symmetric, as that of the number types. -/
structure Roomy (φ : Fmt) : Prop where
  lo : φ.qmin + 2 * φ.p + 6 ≤ 0
  hi : φ.emax + 2 * φ.qmin + 2 * φ.p + 8 ≤ 0
  sym : -(φ.qmin + φ.p + 2) < φ.emax

theorem NumTy.roomy (T : NumTy) : Roomy T.fmt := by
  cases T <;> constructor <;> decide

theorem half_maxFin (φ : Fmt) : (2:ℝ) ^ (φ.emax - 1) ≤ φ.maxFin := by
  have h : φ.Rep (2 ^ (φ.emax - 1)) := by
    refine ⟨2 ^ (φ.p - 1), φ.emax - φ.p, ?_, ?_, ?_, by omega⟩
    · have := φ.p_pos
      push_cast
      rw [← zpow_natCast, ← zpow_add₀ (by norm_num)]
      congr 1
      omega
    · have := φ.p_pos
      rw [abs_of_pos (by positivity)]
      exact pow_lt_pow_right₀ (by norm_num) (by omega)
    · have := φ.range; omega
  have := (Rat.cast_le (K := ℝ)).mpr ((le_abs_self _).trans h.abs_le)
  push_cast at this
  exact this

theorem rd_near {w : ℝ} (h : |w| ≤ φ.maxFin) :
    ∃ e : ℝ, φ.rdE (w:EReal) = (e:EReal) ∧ |e - w| ≤ eps φ * |w| + 2 ^ φ.qmin := by
  obtain ⟨f, f1, f2, f3⟩ := rep_below (φ := φ) h
  have h1 := (φ.le_rdE_iff (f := .fin f) f1 (w : EReal) (by simp)).mpr (by simpa using f2)
  have h2 := φ.rdE_le (w : EReal)
  rw [FP.toE_fin] at h1
  generalize φ.rdE (w:EReal) = z at *
  induction z with
  | bot => simp at h1
  | top => simp at h2
  | coe z =>
    refine ⟨z, rfl, ?_⟩
    have h1 : (f:ℝ) ≤ z := by exact_mod_cast h1
    have h2 : z ≤ w := by exact_mod_cast h2
    rw [abs_le]
    have := two_zpow_posR φ.qmin
    have := mul_nonneg (eps_pos φ).le (abs_nonneg w)
    constructor <;> linarith

theorem ru_near {w : ℝ} (h : |w| ≤ φ.maxFin) :
    ∃ e : ℝ, φ.ruE (w:EReal) = (e:EReal) ∧ |e - w| ≤ eps φ * |w| + 2 ^ φ.qmin := by
  obtain ⟨e, h1, h2⟩ := rd_near (φ := φ) (w := -w) (by rwa [abs_neg])
  refine ⟨-e, ?_, ?_⟩
  · rw [EReal.coe_neg, φ.rdE_neg] at h1
    rw [EReal.coe_neg, ← h1, neg_neg]
  · rw [abs_neg] at h2
    rwa [show -e - w = -(e - -w) by ring, abs_neg]

/-- The root of a number of the format, of degree two or more, is far from the ends of the exponent range. -/
theorem root_mid (hφ : Roomy φ) {c : ℚ} (hc : φ.Rep c) (hc0 : c ≠ 0) {n : ℕ} (hn : 2 ≤ n) (hs : 0 < c ∨ n % 2 ≠ 0) :
    (2:ℝ) ^ (φ.qmin + φ.p + 3) ≤ |rootR n c| ∧ |rootR n c| ≤ 2 ^ (-(φ.qmin + φ.p + 4)) := by
  obtain ⟨h1, h2, h3⟩ := hφ
  have hp := φ.p_pos
  have hpow : |rootR n c| ^ n = |(c:ℝ)| := by
    rw [← abs_pow, rootR_pow (by omega) (hs.imp (fun h => by exact_mod_cast h.le) id)]
  have hcl : (2:ℝ) ^ φ.qmin ≤ |(c:ℝ)| := by
    have : (2:ℚ) ^ φ.qmin ≤ |c| := by
      rcases lt_or_gt_of_ne hc0 with h | h
      · rw [abs_of_neg h]
        have := step_le φ.rep_zero hc.neg (by linarith)
        linarith
      · rw [abs_of_pos h]
        have := step_le φ.rep_zero hc h
        linarith
    have := (Rat.cast_le (K := ℝ)).mpr this
    push_cast at this
    exact this
  have hcu : |(c:ℝ)| < 2 ^ φ.emax := by
    have h : φ.maxFin < 2 ^ φ.emax := by
      have e : (2:ℚ) ^ φ.emax = 2 ^ φ.p * 2 ^ (φ.emax - φ.p) := by
        rw [← zpow_natCast, ← zpow_add₀ (by norm_num)]
        congr 1; ring
      rw [e]
      exact mul_lt_mul_of_pos_right (by linarith) (two_zpow_pos _)
    have := (Rat.cast_lt (K := ℝ)).mpr (lt_of_le_of_lt hc.abs_le h)
    push_cast at this
    exact this
  have h0 : 0 ≤ |rootR n c| := abs_nonneg _
  constructor
  · by_contra hcon
    push Not at hcon
    have hB : (2:ℝ) ^ (φ.qmin + φ.p + 3) ≤ 1 := zpow_le_one_of_nonpos₀ (by norm_num) (by omega)
    have a1 : |rootR n c| ^ n ≤ |rootR n c| ^ 2 := pow_le_pow_of_le_one h0 (hcon.le.trans hB) hn
    have a2 : |rootR n c| ^ 2 < ((2:ℝ) ^ (φ.qmin + φ.p + 3)) ^ 2 := pow_lt_pow_left₀ hcon h0 (by norm_num)
    have a3 : ((2:ℝ) ^ (φ.qmin + φ.p + 3)) ^ 2 ≤ 2 ^ φ.qmin := by
      rw [← zpow_natCast, ← zpow_mul]
      exact zpow_le_zpow_right₀ (by norm_num) (by push_cast; omega)
    rw [hpow] at a1
    linarith
  · by_contra hcon
    push Not at hcon
    have hB : 1 ≤ (2:ℝ) ^ (-(φ.qmin + φ.p + 4)) := one_le_zpow₀ (by norm_num) (by omega)
    have a1 : |rootR n c| ^ 2 ≤ |rootR n c| ^ n := pow_le_pow_right₀ (hB.trans hcon.le) hn
    have a2 : ((2:ℝ) ^ (-(φ.qmin + φ.p + 4))) ^ 2 < |rootR n c| ^ 2 :=
      pow_lt_pow_left₀ hcon (zpow_pos (by norm_num) _).le (by norm_num)
    have a3 : (2:ℝ) ^ φ.emax ≤ ((2:ℝ) ^ (-(φ.qmin + φ.p + 4))) ^ 2 := by
      rw [← zpow_natCast, ← zpow_mul]
      exact zpow_le_zpow_right₀ (by norm_num) (by push_cast; omega)
    rw [hpow] at a1
    linarith

/-- A number in the middle of the range is rounded with a small relative error. -/
theorem mid_rel {w : ℝ} (h : (2:ℝ) ^ (φ.qmin + φ.p + 3) ≤ |w|) : eps φ * |w| + 2 ^ φ.qmin ≤ 17 / 8 * uu φ * |w| := by
  obtain ⟨u1, u2, u3, u4, -⟩ := unit_facts φ
  have e : (2:ℝ) ^ φ.qmin = uu φ / 8 * 2 ^ (φ.qmin + φ.p + 3) := by
    unfold uu
    rw [show φ.qmin + φ.p + 3 = φ.p + φ.qmin + 3 by ring, zpow_add₀ (by norm_num), zpow_add₀ (by norm_num), zpow_neg]
    have : (2:ℝ) ^ (φ.p:ℤ) ≠ 0 := (two_zpow_posR _).ne'
    field_simp
    norm_num
  rw [u4, e]
  have := mul_le_mul_of_nonneg_left h (by linarith : 0 ≤ uu φ / 8)
  linarith

/-- The number at which the search begins. -/
theorem start_near (hφ : Roomy φ) {ρ r x0 : ℝ} (h1 : (2:ℝ) ^ (φ.qmin + φ.p + 3) ≤ |ρ|)
    (h2 : |ρ| ≤ 2 ^ (-(φ.qmin + φ.p + 4))) (hr : |r - ρ| ≤ eps φ * |ρ| + 2 ^ φ.qmin) :
    (2:ℝ) ^ (φ.qmin + φ.p + 3) ≤ |r⁻¹| ∧ |r⁻¹| ≤ φ.maxFin ∧ (|x0 - r⁻¹| ≤ eps φ * |r⁻¹| + 2 ^ φ.qmin →
      0 < x0 * ρ⁻¹ ∧ |x0| ≤ (1 + 5 * uu φ) * |ρ⁻¹| ∧ |ρ⁻¹| ≤ (1 + 5 * uu φ) * |x0|) := by
  obtain ⟨u1, u2, -⟩ := unit_facts φ
  have hB := two_zpow_posR (φ.qmin + φ.p + 3)
  have hρ : 0 < |ρ| := lt_of_lt_of_le hB h1
  have hρ0 : ρ ≠ 0 := abs_pos.mp hρ
  have hr1 := hr.trans (mid_rel h1)
  obtain ⟨δ, hδ⟩ : ∃ δ, δ = 17 / 8 * uu φ := ⟨_, rfl⟩
  have d0 : 0 < δ := by rw [hδ]; linarith
  have d1 : δ ≤ 1 / 100 := by rw [hδ]; linarith
  rw [← hδ] at hr1
  -- the quotient of the two numbers
  obtain ⟨a, ha⟩ : ∃ a, a = r / ρ := ⟨_, rfl⟩
  have ra : r = a * ρ := by rw [ha]; field_simp
  have ha1 : |a - 1| ≤ δ := by
    rw [ra, show a * ρ - ρ = (a - 1) * ρ by ring, abs_mul] at hr1
    exact le_of_mul_le_mul_right hr1 hρ
  rw [abs_le] at ha1
  have apos : 0 < a := by linarith
  have hrabs : |r| = a * |ρ| := by rw [ra, abs_mul, abs_of_pos apos]
  have hr0 : r ≠ 0 := by rw [ra]; exact mul_ne_zero apos.ne' hρ0
  have hrp : 0 < |r| := abs_pos.mpr hr0
  have k1 : (2:ℝ) ^ (φ.qmin + φ.p + 3) ≤ |r⁻¹| := by
    rw [abs_inv, le_inv_comm₀ hB hrp, ← zpow_neg, hrabs]
    have : (2:ℝ) ^ (-(φ.qmin + φ.p + 3)) = 2 * 2 ^ (-(φ.qmin + φ.p + 4)) := by
      rw [← zpow_one_add₀ (by norm_num)]; congr 1; ring
    rw [this]
    nlinarith
  refine ⟨k1, ?_, ?_⟩
  · have k2 : |r⁻¹| ≤ 2 ^ (-(φ.qmin + φ.p + 2)) := by
      rw [abs_inv, inv_le_comm₀ hrp (two_zpow_posR _), ← zpow_neg, neg_neg, hrabs]
      have : (2:ℝ) ^ (φ.qmin + φ.p + 3) = 2 * 2 ^ (φ.qmin + φ.p + 2) := by
        rw [← zpow_one_add₀ (by norm_num)]; congr 1; ring
      have := two_zpow_posR (φ.qmin + φ.p + 2)
      nlinarith
    refine k2.trans (le_trans ?_ (half_maxFin φ))
    exact zpow_le_zpow_right₀ (by norm_num) (by have := hφ.sym; omega)
  · intro hx
    have hx1 := hx.trans (mid_rel k1)
    rw [← hδ] at hx1
    have hrip : 0 < |r⁻¹| := abs_pos.mpr (inv_ne_zero hr0)
    obtain ⟨b, hb⟩ : ∃ b, b = x0 * r := ⟨_, rfl⟩
    have xb : x0 = b * r⁻¹ := by rw [hb]; field_simp
    have hb1 : |b - 1| ≤ δ := by
      rw [xb, show b * r⁻¹ - r⁻¹ = (b - 1) * r⁻¹ by ring, abs_mul] at hx1
      exact le_of_mul_le_mul_right hx1 hrip
    rw [abs_le] at hb1
    have bpos : 0 < b := by linarith
    obtain ⟨L, hL⟩ : ∃ L, L = ρ⁻¹ := ⟨_, rfl⟩
    have hL0 : L ≠ 0 := by rw [hL]; exact inv_ne_zero hρ0
    have hLp : 0 < |L| := abs_pos.mpr hL0
    have xL : x0 * a = b * L := by
      rw [xb, hL, ra, mul_inv]; field_simp
    have xL2 : x0 = b / a * L := by
      field_simp; linarith
    have hba : 0 < b / a := div_pos bpos apos
    rw [← hL]
    have hxabs : |x0| * a = b * |L| := by
      rw [xL2, abs_mul, abs_of_pos hba]; field_simp
    have hxp : 0 < |x0| := by
      rw [xL2, abs_mul]
      exact mul_pos (abs_pos.mpr hba.ne') hLp
    have key : 1 + δ ≤ (1 + 5 * uu φ) * (1 - δ) := by rw [hδ]; nlinarith
    refine ⟨?_, ?_, ?_⟩
    · rw [xL2, mul_assoc]
      exact mul_pos hba (mul_self_pos.mpr hL0)
    · have s1 : b ≤ (1 + 5 * uu φ) * a := by nlinarith
      have s2 := mul_le_mul_of_nonneg_right s1 hLp.le
      rw [← hxabs] at s2
      have : |x0| * a ≤ ((1 + 5 * uu φ) * |L|) * a := by linarith
      exact le_of_mul_le_mul_right this apos
    · have s1 : a ≤ (1 + 5 * uu φ) * b := by nlinarith
      have s2 := mul_le_mul_of_nonneg_right s1 hxp.le
      have : |L| * b ≤ ((1 + 5 * uu φ) * |x0|) * b := by linarith
      exact le_of_mul_le_mul_right this bpos

/-- The search of `pown_rev_inf` stops at the first number that is not below the solution. -/
theorem revInf_stop {c : ℚ} (hc : φ.Rep c) (hc0 : c ≠ 0) {p : ℤ} (hp : p < 0) {v : ℝ} (hv0 : v ≠ 0)
    (hv : v ^ p = c) (hs : 0 < v ∨ p % 2 ≠ 0) {y : FP} (hy : y ≠ .nan) (hi : y.In φ) (hyv : y.toE < v)
    (hge : (v:EReal) ≤ (φ.nextUp y).toE) :
    ¬((φ.nextUp y).regular = true ∧ φ.revSgn .U (.fin c) (φ.nextUp y) p < 0) := by
  have hN := nextUp_spec hy hi (ne_top_of_lt hyv)
  rintro ⟨h1, h2⟩
  generalize φ.nextUp y = z at *
  cases z with
  | fin q =>
    have hq0 : q ≠ 0 := by simpa [FP.regular] using h1
    rw [FP.toE_fin] at hge
    have hge : v ≤ q := by exact_mod_cast hge
    have side : 0 < (q:ℝ) * v := by
      rcases lt_or_gt_of_ne hv0 with h | h
      · have h3 := hN.least .nzero trivial (by simp) (hyv.trans (by simpa using h))
        have h3 : q ≤ 0 := toE_le_fin.mp (by simpa using h3)
        have : q < 0 := lt_of_le_of_ne h3 hq0
        have : (q:ℝ) < 0 := by exact_mod_cast this
        exact mul_pos_of_neg_of_neg this h
      · exact mul_pos (h.trans_le hge) h
    have k1 := (pow_cmp_iff hp side hs).1
    have r1 := (revSgn_U hc hc0 hq0 hp).1.mp h2
    have : ((q ^ p : ℚ) : ℝ) = (q:ℝ) ^ p := by push_cast; rfl
    have r2 := (Rat.cast_lt (K := ℝ)).mpr r1
    rw [this, ← hv] at r2
    exact absurd (k1.mpr r2) (not_lt.mpr hge)
  | _ => simp [FP.regular] at h1

/-- The search of `pown_rev_sup` stops at the first number that is not above the solution. -/
theorem revSup_stop {c : ℚ} (hc : φ.Rep c) (hc0 : c ≠ 0) {p : ℤ} (hp : p < 0) {v : ℝ} (hv0 : v ≠ 0)
    (hv : v ^ p = c) (hs : 0 < v ∨ p % 2 ≠ 0) {y : FP} (hy : y ≠ .nan) (hi : y.In φ) (hyv : (v:EReal) < y.toE)
    (hge : (φ.nextDown y).toE ≤ v) :
    ¬((φ.nextDown y).regular = true ∧ 0 < φ.revSgn .D (.fin c) (φ.nextDown y) p) := by
  have hN := nextDown_spec hy hi (ne_bot_of_gt hyv)
  rintro ⟨h1, h2⟩
  generalize φ.nextDown y = z at *
  cases z with
  | fin q =>
    have hq0 : q ≠ 0 := by simpa [FP.regular] using h1
    rw [FP.toE_fin] at hge
    have hge : (q:ℝ) ≤ v := by exact_mod_cast hge
    have side : 0 < (q:ℝ) * v := by
      rcases lt_or_gt_of_ne hv0 with h | h
      · exact mul_pos_of_neg_of_neg (hge.trans_lt h) h
      · have h3 := hN.greatest .nzero trivial (by simp) (lt_trans (by simpa using h) hyv)
        have h3 : 0 ≤ q := toE_le_fin.mp (by simpa using h3)
        have : 0 < q := lt_of_le_of_ne h3 (Ne.symm hq0)
        have : (0:ℝ) < q := by exact_mod_cast this
        exact mul_pos this h
    have k1 := (pow_cmp_iff hp side hs).2.1
    have r1 := (revSgn_D hc hc0 hq0 hp).1.mp h2
    have : ((q ^ p : ℚ) : ℝ) = (q:ℝ) ^ p := by push_cast; rfl
    have r2 := (Rat.cast_lt (K := ℝ)).mpr r1
    rw [this, ← hv] at r2
    exact absurd (k1.mpr r2) (not_lt.mpr hge)
  | _ => simp [FP.regular] at h1

theorem revInfLoopN_five {fuel : ℕ} (hf : 5 ≤ fuel) {c : ℚ} (hc : φ.Rep c) (hc0 : c ≠ 0) {p : ℤ} (hp : p < 0) {v : ℝ} (hv0 : v ≠ 0)
    (hv : v ^ p = c) (hs : 0 < v ∨ p % 2 ≠ 0) {x : FP} {x0 : ℝ} (hx : x ≠ .nan) (hi : x.In φ) (hxv : x.toE < v)
    (hx0 : x.toE = (x0:EReal)) (h0 : 0 < x0 * v) (n1 : |x0| ≤ (1 + 5 * uu φ) * |v|)
    (n2 : |v| ≤ (1 + 5 * uu φ) * |x0|) :
    φ.revInfLoopN fuel (.fin c) x p = some (φ.revInfLoop (.fin c) x p) := by
  obtain ⟨K, hK, hK1⟩ := climb hx hi hxv
  have h4 := count_up hx0 h0 n1 n2 hK
  obtain ⟨g1, g2, g3⟩ := hK K le_rfl
  have hstop := revInf_stop hc hc0 hp hv0 hv hs g1 g2 g3 (by rwa [Function.iterate_succ_apply'] at hK1)
  rw [← Function.iterate_succ_apply' φ.nextUp K x] at hstop
  exact loopN_of hstop (by omega)

theorem revSupLoopN_five {fuel : ℕ} (hf : 5 ≤ fuel) {c : ℚ} (hc : φ.Rep c) (hc0 : c ≠ 0) {p : ℤ} (hp : p < 0) {v : ℝ} (hv0 : v ≠ 0)
    (hv : v ^ p = c) (hs : 0 < v ∨ p % 2 ≠ 0) {x : FP} {x0 : ℝ} (hx : x ≠ .nan) (hi : x.In φ) (hxv : (v:EReal) < x.toE)
    (hx0 : x.toE = (x0:EReal)) (h0 : 0 < x0 * v) (n1 : |x0| ≤ (1 + 5 * uu φ) * |v|)
    (n2 : |v| ≤ (1 + 5 * uu φ) * |x0|) :
    φ.revSupLoopN fuel (.fin c) x p = some (φ.revSupLoop (.fin c) x p) := by
  obtain ⟨K, hK, hK1⟩ := climb (φ := φ) (x := x.neg) (v := -v) (by simpa using hx) (FP.neg_in hi) (by
    rw [FP.toE_neg, EReal.coe_neg]; exact EReal.neg_lt_neg_iff.mpr hxv)
  have h4 := count_up (φ := φ) (x := x.neg) (x0 := -x0) (v := -v) (by rw [FP.toE_neg, hx0, EReal.coe_neg]) (by linarith)
    (by rwa [abs_neg, abs_neg]) (by rwa [abs_neg, abs_neg]) hK
  obtain ⟨g1, g2, g3⟩ := hK K le_rfl
  have hge : (φ.nextDown^[K+1] x).toE ≤ v := by
    rw [nextDown_iter, FP.toE_neg]
    rw [EReal.coe_neg] at hK1
    exact EReal.neg_le_of_neg_le hK1
  have hstop := revSup_stop hc hc0 hp hv0 hv hs (y := φ.nextDown^[K] x) (by rw [nextDown_iter]; simpa using g1)
    (by rw [nextDown_iter]; exact FP.neg_in g2)
    (by rw [nextDown_iter, FP.toE_neg]; rw [EReal.coe_neg] at g3; exact EReal.lt_neg_of_lt_neg g3)
    (by rwa [Function.iterate_succ_apply'] at hge)
  rw [← Function.iterate_succ_apply' φ.nextDown K x] at hstop
  exact loopN_of hstop (by omega)

theorem pownRevInfN_fin {fuel : ℕ} (hf : 5 ≤ fuel) (hφ : Roomy φ) {c : ℚ} (hc : φ.Rep c) (hc0 : c ≠ 0) {p : ℤ} (hp : p < 0)
    (hs : 0 < c ∨ p % 2 ≠ 0) : φ.pownRevInfN fuel (.fin c) p = some (φ.pownRevInf (.fin c) p) := by
  obtain ⟨h1, h2, h3⟩ := neg_toNat hp
  have hcR : (c:ℝ) ≠ 0 := by exact_mod_cast hc0
  have hsR : 0 < (c:ℝ) ∨ p % 2 ≠ 0 := hs.imp (fun h => by exact_mod_cast h) id
  obtain ⟨r, e1, e2, e3, e4, e5⟩ := root_round (φ := φ) (m := .U) (by simp) h1 hc hc0 (hs.imp id h3.mp)
  have hr0 : r ≠ 0 := by
    rcases lt_or_gt_of_ne hc0 with h | h
    · exact (e4 h).ne
    · exact (e3 h).ne'
  unfold Fmt.pownRevInfN Fmt.pownRevInf
  simp only [e1]
  by_cases hb : p = -1 ∨ (φ.divX .D (.fin 1) (.fin r) || (FP.fin r).differs (rootR (-p).toNat c)) = false
  · rw [if_pos hb, if_pos hb]
  rw [if_neg hb, if_neg hb]
  push Not at hb
  have hflag := hb.2
  have hpow := root_zpow hp hcR hsR
  obtain ⟨w0, w1, w2⟩ := rootR_sign (n := (-p).toNat) hcR
  obtain ⟨m1, m2⟩ := root_mid hφ hc hc0 (n := (-p).toNat) (by omega) (hs.imp id h3.mp)
  have hρ : |rootR (-p).toNat c| ≤ φ.maxFin := m2.trans (le_trans
    (zpow_le_zpow_right₀ (by norm_num) (by have := hφ.sym; omega)) (half_maxFin φ))
  have hrn : |(r:ℝ) - rootR (-p).toNat c| ≤ eps φ * |rootR (-p).toNat c| + 2 ^ φ.qmin := by
    obtain ⟨e, f1, f2⟩ := ru_near hρ
    rw [Fmt.ruE_coe, e2, FP.toE_fin] at f1
    have : (r:ℝ) = e := by exact_mod_cast f1
    rwa [this]
  obtain ⟨x0, hx0, hx1⟩ := rd_near (φ := φ) (start_near (x0 := 0) hφ m1 m2 hrn).2.1
  obtain ⟨n0, n1, n2⟩ := (start_near (x0 := x0) hφ m1 m2 hrn).2.2 hx1
  have hx := div_fin (φ := φ) (m := .D) hr0
  have hxe : (φ.div .D (.fin 1) (.fin r)).toE = (x0:EReal) := by
    rw [hx, ← Fmt.rdE_coe, ← hx0]; push_cast; rw [one_div]
  have hwr : rootR (-p).toNat c ≤ r := by
    have := φ.le_ruE ((rootR (-p).toNat c : ℝ) : EReal)
    rw [Fmt.ruE_coe, e2, FP.toE_fin] at this
    exact_mod_cast this
  have hinv : (r:ℝ)⁻¹ ≤ (rootR (-p).toNat c)⁻¹ := by
    rcases lt_or_gt_of_ne hcR with h | h
    · have : (r:ℝ) < 0 := by exact_mod_cast e4 (by exact_mod_cast h)
      exact (inv_le_inv_of_neg this (w2.mpr h)).mpr hwr
    · exact inv_anti₀ (w1.mpr h) hwr
  have hX := divX_fin_iff (φ := φ) (m := .D) hr0
  have hxle : (φ.div .D (.fin 1) (.fin r)).toE ≤ (((r:ℝ)⁻¹ : ℝ) : EReal) := by
    rw [hx, ← Fmt.rdE_coe]
    refine (φ.rdE_le _).trans ?_
    push_cast; rw [one_div]
  refine revInfLoopN_five hf hc hc0 hp (inv_ne_zero w0) hpow (hsR.imp (fun h => inv_pos.mpr (w1.mpr h)) id)
    (by rw [hx]; exact φ.round_ne_nan _ _) (by rw [hx]; exact φ.round_in _ _) ?_ hxe n0 n1 n2
  simp only [ne_eq, Bool.not_eq_false, Bool.or_eq_true] at hflag
  rcases hflag with h | h
  · have hne := hX.mp h
    refine lt_of_lt_of_le (lt_of_le_of_ne hxle ?_) (EReal.coe_le_coe_iff.mpr hinv)
    rw [show ((r:ℝ)⁻¹) = ((1 / r : ℚ) : ℝ) by push_cast; rw [one_div]]
    exact hne
  · refine lt_of_le_of_lt hxle (EReal.coe_lt_coe_iff.mpr (lt_of_le_of_ne hinv ?_))
    intro he
    have : (r:ℝ) = rootR (-p).toNat c := inv_injective he
    simp [FP.differs, this] at h

theorem pownRevSupN_fin {fuel : ℕ} (hf : 5 ≤ fuel) (hφ : Roomy φ) {c : ℚ} (hc : φ.Rep c) (hc0 : c ≠ 0) {p : ℤ} (hp : p < 0)
    (hs : 0 < c ∨ p % 2 ≠ 0) : φ.pownRevSupN fuel (.fin c) p = some (φ.pownRevSup (.fin c) p) := by
  obtain ⟨h1, h2, h3⟩ := neg_toNat hp
  have hcR : (c:ℝ) ≠ 0 := by exact_mod_cast hc0
  have hsR : 0 < (c:ℝ) ∨ p % 2 ≠ 0 := hs.imp (fun h => by exact_mod_cast h) id
  obtain ⟨r, e1, e2, e3, e4, e5⟩ := root_round (φ := φ) (m := .D) (by simp) h1 hc hc0 (hs.imp id h3.mp)
  have hr0 : r ≠ 0 := by
    rcases lt_or_gt_of_ne hc0 with h | h
    · exact (e4 h).ne
    · exact (e3 h).ne'
  unfold Fmt.pownRevSupN Fmt.pownRevSup
  simp only [e1]
  by_cases hb : p = -1 ∨ (φ.divX .U (.fin 1) (.fin r) || (FP.fin r).differs (rootR (-p).toNat c)) = false
  · rw [if_pos hb, if_pos hb]
  rw [if_neg hb, if_neg hb]
  push Not at hb
  have hflag := hb.2
  have hpow := root_zpow hp hcR hsR
  obtain ⟨w0, w1, w2⟩ := rootR_sign (n := (-p).toNat) hcR
  obtain ⟨m1, m2⟩ := root_mid hφ hc hc0 (n := (-p).toNat) (by omega) (hs.imp id h3.mp)
  have hρ : |rootR (-p).toNat c| ≤ φ.maxFin := m2.trans (le_trans
    (zpow_le_zpow_right₀ (by norm_num) (by have := hφ.sym; omega)) (half_maxFin φ))
  have hrn : |(r:ℝ) - rootR (-p).toNat c| ≤ eps φ * |rootR (-p).toNat c| + 2 ^ φ.qmin := by
    obtain ⟨e, f1, f2⟩ := rd_near hρ
    rw [Fmt.rdE_coe, e2, FP.toE_fin] at f1
    have : (r:ℝ) = e := by exact_mod_cast f1
    rwa [this]
  obtain ⟨x0, hx0, hx1⟩ := ru_near (φ := φ) (start_near (x0 := 0) hφ m1 m2 hrn).2.1
  obtain ⟨n0, n1, n2⟩ := (start_near (x0 := x0) hφ m1 m2 hrn).2.2 hx1
  have hx := div_fin (φ := φ) (m := .U) hr0
  have hxe : (φ.div .U (.fin 1) (.fin r)).toE = (x0:EReal) := by
    rw [hx, ← Fmt.ruE_coe, ← hx0]; push_cast; rw [one_div]
  have hwr : (r:ℝ) ≤ rootR (-p).toNat c := by
    have := φ.rdE_le ((rootR (-p).toNat c : ℝ) : EReal)
    rw [Fmt.rdE_coe, e2, FP.toE_fin] at this
    exact_mod_cast this
  have hinv : (rootR (-p).toNat c)⁻¹ ≤ (r:ℝ)⁻¹ := by
    rcases lt_or_gt_of_ne hcR with h | h
    · have : (r:ℝ) < 0 := by exact_mod_cast e4 (by exact_mod_cast h)
      exact (inv_le_inv_of_neg (w2.mpr h) this).mpr hwr
    · have : (0:ℝ) < r := by exact_mod_cast e3 (by exact_mod_cast h)
      exact inv_anti₀ this hwr
  have hX := divX_fin_iff (φ := φ) (m := .U) hr0
  have hxle : (((r:ℝ)⁻¹ : ℝ) : EReal) ≤ (φ.div .U (.fin 1) (.fin r)).toE := by
    rw [hx, ← Fmt.ruE_coe]
    refine le_trans ?_ (φ.le_ruE _)
    push_cast; rw [one_div]
  refine revSupLoopN_five hf hc hc0 hp (inv_ne_zero w0) hpow (hsR.imp (fun h => inv_pos.mpr (w1.mpr h)) id)
    (by rw [hx]; exact φ.round_ne_nan _ _) (by rw [hx]; exact φ.round_in _ _) ?_ hxe n0 n1 n2
  simp only [ne_eq, Bool.not_eq_false, Bool.or_eq_true] at hflag
  rcases hflag with h | h
  · have hne := hX.mp h
    refine lt_of_le_of_lt (EReal.coe_le_coe_iff.mpr hinv) (lt_of_le_of_ne hxle ?_)
    rw [show ((r:ℝ)⁻¹) = ((1 / r : ℚ) : ℝ) by push_cast; rw [one_div]]
    exact hne.symm
  · refine lt_of_lt_of_le (EReal.coe_lt_coe_iff.mpr (lt_of_le_of_ne hinv ?_)) hxle
    intro he
    have : rootR (-p).toNat c = (r:ℝ) := inv_injective he
    simp [FP.differs, this] at h

end P1788
