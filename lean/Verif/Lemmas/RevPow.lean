import Verif.Lemmas.Rev
import Verif.Lemmas.Nearest
import Verif.Lemmas.Near

/-! Helper lemmas: the loops of `pown_rev`. -/

namespace P1788
open FP

variable {φ : Fmt}

/-- `z` is the least number of the format above `y`. -/
structure IsNext (φ : Fmt) (y z : FP) : Prop where
  ne : z ≠ .nan
  inφ : z.In φ
  lt : y.toE < z.toE
  least : ∀ f : FP, f.In φ → f ≠ .nan → y.toE < f.toE → z.toE ≤ f.toE

theorem step_le {a b : ℚ} (ha : φ.Rep a) (hb : φ.Rep b) (h : a < b) : a + 2 ^ φ.qmin ≤ b := by
  obtain ⟨k, rfl⟩ := φ.rep_mult ha
  obtain ⟨l, rfl⟩ := φ.rep_mult hb
  have hp := two_zpow_pos φ.qmin
  have h : (k:ℚ) < l := lt_of_mul_lt_mul_right h hp.le
  have h : k + 1 ≤ l := by exact_mod_cast h
  have h : (k:ℚ) + 1 ≤ l := by exact_mod_cast h
  nlinarith

theorem toE_lt_fin {a b : ℚ} : (FP.fin a).toE < (FP.fin b).toE ↔ a < b := by
  rw [FP.toE_fin, FP.toE_fin, EReal.coe_lt_coe_iff]; exact_mod_cast Iff.rfl

theorem toE_le_fin {a b : ℚ} : (FP.fin a).toE ≤ (FP.fin b).toE ↔ a ≤ b := by
  rw [FP.toE_fin, FP.toE_fin, EReal.coe_le_coe_iff]; exact_mod_cast Iff.rfl

theorem rep_qmin (φ : Fmt) : φ.Rep (2 ^ φ.qmin) := by
  refine ⟨1, φ.qmin, by simp, ?_, le_rfl, ?_⟩
  · have := φ.p_pos
    rw [abs_one]
    exact one_lt_pow₀ (by norm_num) (by omega)
  · have := φ.range; omega

theorem nextUp_spec {y : FP} (hy : y ≠ .nan) (hi : y.In φ) (ht : y.toE ≠ ⊤) : IsNext φ y (φ.nextUp y) := by
  have hp := two_zpow_pos φ.qmin
  have hp1 := two_zpow_pos (φ.qmin - 1)
  have hp2 : (2:ℚ) ^ (φ.qmin - 1) ≤ 2 ^ φ.qmin := zpow_le_zpow_right₀ (by norm_num) (by omega)
  cases y with
  | nan => exact absurd rfl hy
  | pinf => simp at ht
  | ninf =>
    refine ⟨by simp [Fmt.nextUp], φ.rep_maxFin.neg, EReal.bot_lt_coe _, ?_⟩
    intro f hf hn hl
    cases f with
    | nan => exact absurd rfl hn
    | ninf => simp at hl
    | pinf => simp
    | nzero =>
      have := φ.maxFin_pos
      simp only [Fmt.nextUp]
      have h := (toE_le_fin (a := -φ.maxFin) (b := 0)).mpr (by linarith)
      simpa using h
    | fin q =>
      simp only [Fmt.nextUp]
      exact toE_le_fin.mpr (neg_le_of_abs_le (Fmt.Rep.abs_le hf))
  | nzero =>
    refine ⟨by simp [Fmt.nextUp], rep_qmin φ, ?_, ?_⟩
    · simp only [Fmt.nextUp]
      have := (toE_lt_fin (a := 0) (b := 2 ^ φ.qmin)).mpr hp
      simpa using this
    · intro f hf hn hl
      cases f with
      | nan => exact absurd rfl hn
      | ninf => simp at hl
      | pinf => simp
      | nzero => simp at hl
      | fin q =>
        simp only [Fmt.nextUp]
        have hl : 0 < q := toE_lt_fin.mp (by simpa using hl)
        have := step_le φ.rep_zero hf hl
        exact toE_le_fin.mpr (by linarith)
  | fin q =>
    have e : (φ.nextUp (.fin q)).toE = φ.ruE (((q + 2 ^ (φ.qmin - 1) : ℚ) : ℝ) : EReal) := by
      rw [Fmt.ruE_coe, Fmt.round_cast]; rfl
    have e1 : φ.nextUp (.fin q) = φ.round .U ((q + 2 ^ (φ.qmin - 1) : ℚ) : ℝ) := by rw [Fmt.round_cast]; rfl
    refine ⟨by rw [e1]; exact φ.round_ne_nan _ _, by rw [e1]; exact φ.round_in _ _, ?_, ?_⟩
    · rw [e]
      refine lt_of_lt_of_le ?_ (φ.le_ruE _)
      rw [← FP.toE_fin]
      exact toE_lt_fin.mpr (by linarith)
    · intro f hf hn hl
      rw [e, Fmt.ruE_le_iff φ hf _ hn, ← FP.toE_fin]
      cases f with
      | nan => exact absurd rfl hn
      | ninf => simp at hl
      | pinf => simp
      | nzero =>
        have hl : q < 0 := toE_lt_fin.mp (by simpa using hl)
        have := step_le hi φ.rep_zero hl
        have := (toE_le_fin (a := q + 2 ^ (φ.qmin - 1)) (b := 0)).mpr (by linarith)
        simpa using this
      | fin r =>
        have := step_le hi hf (toE_lt_fin.mp hl)
        exact toE_le_fin.mpr (by linarith)

theorem nextDown_nextUp {y : FP} (hy : y ≠ .nan) (hi : y.In φ) (ht : y.toE ≠ ⊤) :
    (φ.nextDown (φ.nextUp y)).toE = y.toE ∧ φ.nextDown (φ.nextUp y) ≠ .nan ∧ (φ.nextDown (φ.nextUp y)).In φ := by
  have h := nextUp_spec hy hi ht
  have hn : (φ.nextUp y).neg.toE ≠ ⊤ := by
    rw [FP.toE_neg]
    intro hc
    have hc : (φ.nextUp y).toE = ⊥ := by simpa using hc
    exact not_lt_bot (hc ▸ h.lt)
  have h' := nextUp_spec (φ := φ) (y := (φ.nextUp y).neg) (by simpa using h.ne) (FP.neg_in h.inφ) hn
  refine ⟨?_, by simpa [Fmt.nextDown] using h'.ne, FP.neg_in h'.inφ⟩
  unfold Fmt.nextDown
  rw [FP.toE_neg]
  apply le_antisymm
  · by_contra hc
    push Not at hc
    have := h.least (φ.nextUp (φ.nextUp y).neg).neg (FP.neg_in h'.inφ) (by simpa using h'.ne)
      (by rw [FP.toE_neg]; exact hc)
    rw [FP.toE_neg] at this
    have h2 := h'.lt
    rw [FP.toE_neg] at h2
    exact absurd this (not_le.mpr (EReal.neg_lt_comm.mp h2))
  · have := h'.least y.neg (FP.neg_in hi) (by simpa using hy) (by rw [FP.toE_neg, FP.toE_neg]; exact EReal.neg_lt_neg_iff.mpr h.lt)
    rw [FP.toE_neg] at this
    exact EReal.le_neg_of_le_neg this

/-- Climbing from below `v`, the successor steps over `v` after finitely many steps. -/
theorem climb {x : FP} {v : ℝ} (hx : x ≠ .nan) (hi : x.In φ) (hv : x.toE < v) :
    ∃ K : ℕ, (∀ k ≤ K, (φ.nextUp^[k] x) ≠ .nan ∧ (φ.nextUp^[k] x).In φ ∧ (φ.nextUp^[k] x).toE < v) ∧
      (v:EReal) ≤ (φ.nextUp^[K+1] x).toE := by
  by_contra hc
  push Not at hc
  have all : ∀ k, (φ.nextUp^[k] x) ≠ .nan ∧ (φ.nextUp^[k] x).In φ ∧ (φ.nextUp^[k] x).toE < v := by
    intro k
    induction k using Nat.strong_induction_on with
    | _ k ih =>
      rcases k with _ | k
      · exact ⟨hx, hi, hv⟩
      · have h1 := hc k (fun j hj => ih j (by omega))
        obtain ⟨g1, g2, g3⟩ := ih k (by omega)
        have := nextUp_spec g1 g2 (ne_top_of_lt g3)
        rw [Function.iterate_succ_apply']
        rw [Function.iterate_succ_apply'] at h1
        exact ⟨this.ne, this.inφ, h1⟩
  have hfin : ∀ k, ∃ q : ℚ, (φ.nextUp^[k+1] x).toE = ((q:ℝ):EReal) ∧ φ.Rep q := by
    intro k
    obtain ⟨g1, g2, g3⟩ := all k
    obtain ⟨f1, f2, f3⟩ := all (k+1)
    have hl := (nextUp_spec g1 g2 (ne_top_of_lt g3)).lt
    rw [← Function.iterate_succ_apply' φ.nextUp k x] at hl
    generalize φ.nextUp^[k+1] x = z at *
    cases z with
    | nan => exact absurd rfl f1
    | ninf => simp at hl
    | pinf => simp at f3
    | nzero => exact ⟨0, by simp, φ.rep_zero⟩
    | fin q => exact ⟨q, by simp, f2⟩
  choose q hq hr using hfin
  have hstep : ∀ k, q k + 2 ^ φ.qmin ≤ q (k+1) := by
    intro k
    obtain ⟨g1, g2, g3⟩ := all (k+1)
    have hl := (nextUp_spec g1 g2 (ne_top_of_lt g3)).lt
    rw [← Function.iterate_succ_apply' φ.nextUp (k+1) x, hq k, hq (k+1)] at hl
    exact step_le (hr k) (hr (k+1)) (by exact_mod_cast hl)
  have hgrow : ∀ k : ℕ, q 0 + k * 2 ^ φ.qmin ≤ q k := by
    intro k
    induction k with
    | zero => simp
    | succ k ih => have := hstep k; push_cast; linarith
  obtain ⟨n, hn⟩ := exists_nat_gt ((v - q 0) / (2:ℝ) ^ φ.qmin)
  have hp := two_zpow_posR φ.qmin
  rw [div_lt_iff₀ hp] at hn
  have h1 : (q n : ℝ) < v := by
    have := (all (n+1)).2.2
    rw [hq n] at this
    exact_mod_cast this
  have h2 := (Rat.cast_le (K := ℝ)).mpr (hgrow n)
  push_cast at h2
  linarith

theorem FP.neg_neg' (x : FP) : x.neg.neg = x := by
  cases x with
  | fin q => by_cases h : q = 0 <;> simp [FP.neg, h]
  | _ => simp [FP.neg]

theorem nextDown_iter (x : FP) (k : ℕ) : φ.nextDown^[k] x = (φ.nextUp^[k] x.neg).neg := by
  induction k with
  | zero => simp [FP.neg_neg']
  | succ k ih => rw [Function.iterate_succ_apply', Function.iterate_succ_apply', ih]; simp [Fmt.nextDown, FP.neg_neg']

theorem loop_eq {nxt back : FP → FP} {go done : FP → Prop} {x : FP} (K : ℕ) (h1 : ¬go (nxt^[K+1] x))
    (h2 : ∀ k < K, go (nxt^[k+1] x)) :
    (done (nxt^[K+1] x) ∧ FP.loop nxt back go done x = (nxt^[K+1] x, false)) ∨
    (¬done (nxt^[K+1] x) ∧ FP.loop nxt back go done x = (back (nxt^[K+1] x), true)) := by
  classical
  have hex : ∃ k, ¬go (nxt^[k+1] x) := ⟨K, h1⟩
  have hK : Nat.find hex = K := by
    rw [Nat.find_eq_iff]
    exact ⟨h1, fun n hn => not_not.mpr (h2 n hn)⟩
  unfold FP.loop
  rw [dif_pos hex]
  have hK' : ∀ (i : DecidablePred fun k => ¬go (nxt^[k+1] x)), @Nat.find _ i hex = K := by
    intro i; convert hK
  simp only [hK']
  by_cases hd : done (nxt^[K+1] x)
  · left; exact ⟨hd, by rw [if_pos hd]⟩
  · right; exact ⟨hd, by rw [if_neg hd]⟩

/-- The sign computed in the loops is that of the exact comparison of `c` with `x ^ p`. -/
theorem revSgn_U {c q : ℚ} (hc : φ.Rep c) (hc0 : c ≠ 0) (hq : q ≠ 0) {p : ℤ} (hp : p < 0) :
    (φ.revSgn .U (.fin c) (.fin q) p < 0 ↔ c < q ^ p) ∧ (φ.revSgn .U (.fin c) (.fin q) p = 0 ↔ c = q ^ p) := by
  obtain ⟨⟨L, hL, hv⟩, hn, hi⟩ := powSi_ulim φ .U hp.ne (a := .fin q) (by simp) (by simp [hq])
  have e : φ.powSi .U (.fin q) p = φ.round .U ((q ^ p : ℚ)) := by
    simp [Fmt.powSi, hp.ne, FP.isInf, FP.isZero, hq, FP.q]
  have ev : (φ.powSi .U (.fin q) p).toE = φ.ruE (FP.fin (q ^ p)).toE := by
    rw [e, FP.toE_fin, Fmt.ruE_coe, Fmt.round_cast]
  have hcn : (FP.fin c) ≠ .nan := by simp
  have h1 : FP.fin c < φ.powSi .U (.fin q) p ↔ c < q ^ p := by
    rw [FP.lt_iff hcn hn, ev, ← not_le, Fmt.ruE_le_iff φ (f := .fin c) hc _ hcn, toE_le_fin, not_le]
  have h2 : φ.powSi .U (.fin q) p < FP.fin c → q ^ p < c := by
    rw [FP.lt_iff hn hcn, ev]
    intro h
    exact toE_lt_fin.mp (lt_of_le_of_lt (φ.le_ruE _) h)
  have h3 : φ.powSi .U (.fin q) p = .fin (q ^ p) → ¬FP.fin c < φ.powSi .U (.fin q) p →
      ¬φ.powSi .U (.fin q) p < FP.fin c → c = q ^ p := by
    intro h
    rw [h, FP.lt_iff hcn (by simp), FP.lt_iff (by simp) hcn, toE_lt_fin, toE_lt_fin]
    intro a b; exact le_antisymm (not_lt.mp b) (not_lt.mp a)
  have h4 : c = q ^ p → φ.powSi .U (.fin q) p = .fin (q ^ p) := by
    intro h
    refine FP.eq_fin_of_toE (h ▸ hc0) hn ?_
    rw [ev, ← h, φ.ruE_of_in (f := .fin c) hc hcn, FP.toE_fin]
  simp only [Fmt.revSgn]
  by_cases g1 : FP.fin c < φ.powSi .U (.fin q) p
  · rw [if_pos g1]
    exact ⟨iff_of_true (by norm_num) (h1.mp g1), iff_of_false (by norm_num) (h1.mp g1).ne⟩
  · rw [if_neg g1]
    have g1' := fun h => g1 (h1.mpr h)
    by_cases g2 : φ.powSi .U (.fin q) p < FP.fin c
    · rw [if_pos g2]
      exact ⟨iff_of_false (by norm_num) g1', iff_of_false (by norm_num) (h2 g2).ne'⟩
    · rw [if_neg g2]
      by_cases g3 : φ.powSi .U (.fin q) p = .fin ((FP.fin q).q ^ p)
      · rw [if_pos g3]
        exact ⟨iff_of_false (by norm_num) g1', iff_of_true rfl (h3 g3 g1 g2)⟩
      · rw [if_neg g3]
        exact ⟨iff_of_false (by norm_num) g1', iff_of_false (by norm_num) (fun h => g3 (h4 h))⟩

theorem revSgn_D {c q : ℚ} (hc : φ.Rep c) (hc0 : c ≠ 0) (hq : q ≠ 0) {p : ℤ} (hp : p < 0) :
    (0 < φ.revSgn .D (.fin c) (.fin q) p ↔ q ^ p < c) ∧ (φ.revSgn .D (.fin c) (.fin q) p = 0 ↔ c = q ^ p) := by
  obtain ⟨⟨L, hL, hv⟩, hn, hi⟩ := powSi_ulim φ .D hp.ne (a := .fin q) (by simp) (by simp [hq])
  have e : φ.powSi .D (.fin q) p = φ.round .D ((q ^ p : ℚ)) := by
    simp [Fmt.powSi, hp.ne, FP.isInf, FP.isZero, hq, FP.q]
  have ev : (φ.powSi .D (.fin q) p).toE = φ.rdE (FP.fin (q ^ p)).toE := by
    rw [e, FP.toE_fin, Fmt.rdE_coe, Fmt.round_cast]
  have hcn : (FP.fin c) ≠ .nan := by simp
  have h1 : φ.powSi .D (.fin q) p < FP.fin c ↔ q ^ p < c := by
    rw [FP.lt_iff hn hcn, ev, ← not_le, Fmt.le_rdE_iff φ (f := .fin c) hc _ hcn, toE_le_fin, not_le]
  have h2 : FP.fin c < φ.powSi .D (.fin q) p → c < q ^ p := by
    rw [FP.lt_iff hcn hn, ev]
    intro h
    exact toE_lt_fin.mp (lt_of_lt_of_le h (φ.rdE_le _))
  have h3 : φ.powSi .D (.fin q) p = .fin (q ^ p) → ¬FP.fin c < φ.powSi .D (.fin q) p →
      ¬φ.powSi .D (.fin q) p < FP.fin c → c = q ^ p := by
    intro h
    rw [h, FP.lt_iff hcn (by simp), FP.lt_iff (by simp) hcn, toE_lt_fin, toE_lt_fin]
    intro a b; exact le_antisymm (not_lt.mp b) (not_lt.mp a)
  have h4 : c = q ^ p → φ.powSi .D (.fin q) p = .fin (q ^ p) := by
    intro h
    refine FP.eq_fin_of_toE (h ▸ hc0) hn ?_
    rw [ev, ← h, φ.rdE_of_in (f := .fin c) hc hcn, FP.toE_fin]
  simp only [Fmt.revSgn]
  by_cases g1 : FP.fin c < φ.powSi .D (.fin q) p
  · rw [if_pos g1]
    exact ⟨iff_of_false (by norm_num) (h2 g1).not_gt, iff_of_false (by norm_num) (h2 g1).ne⟩
  · rw [if_neg g1]
    by_cases g2 : φ.powSi .D (.fin q) p < FP.fin c
    · rw [if_pos g2]
      exact ⟨iff_of_true (by norm_num) (h1.mp g2), iff_of_false (by norm_num) (h1.mp g2).ne'⟩
    · rw [if_neg g2]
      have g2' := fun h => g2 (h1.mpr h)
      by_cases g3 : φ.powSi .D (.fin q) p = .fin ((FP.fin q).q ^ p)
      · rw [if_pos g3]
        exact ⟨iff_of_false (by norm_num) g2', iff_of_true rfl (h3 g3 g1 g2)⟩
      · rw [if_neg g3]
        exact ⟨iff_of_false (by norm_num) g2', iff_of_false (by norm_num) (fun h => g3 (h4 h))⟩

/-- On one side of zero a negative power is strictly decreasing. -/
theorem pow_cmp {p : ℤ} (hp : p < 0) {a b : ℝ} (hab : 0 < a * b) (hs : 0 < b ∨ p % 2 ≠ 0) (h : a < b) : b ^ p < a ^ p := by
  have key : ∀ a b : ℝ, 0 < a → a < b → b ^ p < a ^ p := by
    intro a b ha h
    have hb := ha.trans h
    obtain ⟨n, rfl⟩ : ∃ n : ℕ, p = -(n:ℤ) := ⟨(-p).toNat, by omega⟩
    have hn : n ≠ 0 := by rintro rfl; simp at hp
    rw [zpow_neg, zpow_neg, zpow_natCast, zpow_natCast]
    exact inv_strictAnti₀ (by positivity) (pow_lt_pow_left₀ h ha.le hn)
  rcases pos_and_pos_or_neg_and_neg_of_mul_pos hab with ⟨ha, hb⟩ | ⟨ha, hb⟩
  · exact key a b ha h
  · have ho : p % 2 ≠ 0 := hs.resolve_left (not_lt.mpr hb.le)
    have := key (-b) (-a) (by linarith) (by linarith)
    rw [zpow_neg_odd ho, zpow_neg_odd ho] at this
    linarith

theorem pow_cmp_iff {p : ℤ} (hp : p < 0) {a b : ℝ} (hab : 0 < a * b) (hs : 0 < b ∨ p % 2 ≠ 0) :
    (a < b ↔ b ^ p < a ^ p) ∧ (b < a ↔ a ^ p < b ^ p) ∧ (a = b ↔ a ^ p = b ^ p) := by
  have hs' : 0 < a ∨ p % 2 ≠ 0 := hs.imp (fun h => pos_of_mul_pos_left hab h.le) id
  have k1 := pow_cmp hp hab hs
  have k2 := pow_cmp hp (mul_comm a b ▸ hab) hs'
  rcases lt_trichotomy a b with h | h | h
  · have := k1 h
    exact ⟨iff_of_true h this, iff_of_false h.not_gt this.not_gt, iff_of_false h.ne this.ne'⟩
  · subst h; simp
  · have := k2 h
    exact ⟨iff_of_false h.not_gt this.not_gt, iff_of_true h this, iff_of_false h.ne' this.ne⟩

/-- A bound of `pown_rev` with its ternary value: the directed rounding of `L`. -/
structure RevAt (φ : Fmt) (m : Rnd) (L : EReal) (r : FP × Bool) : Prop where
  val : r.1.toE = φ.rndE m L
  flag : r.2 = true ↔ r.1.toE ≠ L
  ne : r.1 ≠ .nan
  inφ : r.1.In φ

theorem revInfLoop_spec {c : ℚ} (hc : φ.Rep c) (hc0 : c ≠ 0) {p : ℤ} (hp : p < 0) {v : ℝ} (hv0 : v ≠ 0)
    (hv : v ^ p = c) (hs : 0 < v ∨ p % 2 ≠ 0) {x : FP} (hx : x ≠ .nan) (hi : x.In φ) (hxv : x.toE < v)
    (hx0 : 0 < v → 0 ≤ x.toE) : RevAt φ .D (v:EReal) (φ.revInfLoop (.fin c) x p) := by
  obtain ⟨K, hK, hK1⟩ := climb hx hi hxv
  have hx_le : ∀ k ≤ K, x.toE ≤ (φ.nextUp^[k] x).toE := by
    intro k
    induction k with
    | zero => intro _; exact le_rfl
    | succ k ih =>
      intro hk
      obtain ⟨g1, g2, g3⟩ := hK k (by omega)
      have := (nextUp_spec g1 g2 (ne_top_of_lt g3)).lt
      rw [← Function.iterate_succ_apply' φ.nextUp k x] at this
      exact (ih (by omega)).trans this.le
  -- the successor of a number below `v`
  have side : ∀ k ≤ K, ∀ q : ℚ, φ.nextUp^[k+1] x = .fin q → q ≠ 0 → 0 < (q:ℝ) * v := by
    intro k hk q hq hq0
    obtain ⟨g1, g2, g3⟩ := hK k hk
    have hN := nextUp_spec g1 g2 (ne_top_of_lt g3)
    rw [← Function.iterate_succ_apply' φ.nextUp k x, hq] at hN
    rcases lt_or_gt_of_ne hv0 with h | h
    · have h1 := hN.least .nzero trivial (by simp) (g3.trans (by simpa using h))
      have h1 : q ≤ 0 := toE_le_fin.mp (by simpa using h1)
      have : q < 0 := lt_of_le_of_ne h1 hq0
      have : (q:ℝ) < 0 := by exact_mod_cast this
      exact mul_pos_of_neg_of_neg this h
    · have h1 := lt_of_le_of_lt ((hx0 h).trans (hx_le k hk)) hN.lt
      have h1 : 0 < q := toE_lt_fin.mp (by simpa using h1)
      have : (0:ℝ) < q := by exact_mod_cast h1
      exact mul_pos this h
  have cmp : ∀ k ≤ K, ∀ q : ℚ, φ.nextUp^[k+1] x = .fin q → q ≠ 0 →
      (φ.revSgn .U (.fin c) (.fin q) p < 0 ↔ (q:ℝ) < v) ∧ (φ.revSgn .U (.fin c) (.fin q) p = 0 ↔ (q:ℝ) = v) := by
    intro k hk q hq hq0
    obtain ⟨k1, k2, k3⟩ := pow_cmp_iff hp (side k hk q hq hq0) hs
    obtain ⟨r1, r2⟩ := revSgn_U hc hc0 hq0 hp
    rw [hv] at k1 k2 k3
    refine ⟨r1.trans (Iff.trans ?_ k1.symm), r2.trans (Iff.trans ?_ k3.symm)⟩
    · have : ((q ^ p : ℚ) : ℝ) = (q:ℝ) ^ p := by push_cast; rfl
      rw [← this]; exact_mod_cast Iff.rfl
    · have : ((q ^ p : ℚ) : ℝ) = (q:ℝ) ^ p := by push_cast; rfl
      rw [← this, eq_comm]; exact_mod_cast Iff.rfl
  have hgo : ∀ k < K, (φ.nextUp^[k+1] x).regular = true ∧ φ.revSgn .U (.fin c) (φ.nextUp^[k+1] x) p < 0 := by
    intro k hk
    obtain ⟨g1, g2, g3⟩ := hK k hk.le
    obtain ⟨f1, f2, f3⟩ := hK (k+1) hk
    have hN := nextUp_spec g1 g2 (ne_top_of_lt g3)
    rw [← Function.iterate_succ_apply' φ.nextUp k x] at hN
    have hlt := hN.lt
    have hcmp := cmp k hk.le
    have hreg : ∃ q, φ.nextUp^[k+1] x = .fin q ∧ q ≠ 0 := by
      have hz : (φ.nextUp^[k+1] x).toE ≠ 0 := by
        intro hz
        rcases lt_or_gt_of_ne hv0 with h | h
        · rw [hz] at f3
          have : (0:ℝ) < v := by exact_mod_cast f3
          linarith
        · have := lt_of_le_of_lt ((hx0 h).trans (hx_le k hk.le)) hlt
          exact this.ne' hz
      generalize φ.nextUp^[k+1] x = z at *
      cases z with
      | nan => exact absurd rfl f1
      | ninf => simp at hlt
      | pinf => simp at f3
      | nzero => simp at hz
      | fin q => exact ⟨q, rfl, by simpa using hz⟩
    obtain ⟨q, hq, hq0⟩ := hreg
    have := (hcmp q hq hq0).1
    rw [hq] at f3 ⊢
    refine ⟨by simp [FP.regular, hq0], this.mpr ?_⟩
    rw [FP.toE_fin] at f3; exact_mod_cast f3
  obtain ⟨g1, g2, g3⟩ := hK K le_rfl
  have hN := nextUp_spec g1 g2 (ne_top_of_lt g3)
  have hD := nextDown_nextUp g1 g2 (ne_top_of_lt g3)
  rw [← Function.iterate_succ_apply' φ.nextUp K x] at hN hD
  have hstop : ¬((φ.nextUp^[K+1] x).regular = true ∧ φ.revSgn .U (.fin c) (φ.nextUp^[K+1] x) p < 0) := by
    rintro ⟨h1, h2⟩
    have hcmp := cmp K le_rfl
    generalize φ.nextUp^[K+1] x = z at *
    cases z with
    | fin q =>
      have hq0 : q ≠ 0 := by simpa [FP.regular] using h1
      have := (hcmp q rfl hq0).1.mp h2
      rw [FP.toE_fin] at hK1
      have hK1 : v ≤ q := by exact_mod_cast hK1
      linarith
    | _ => simp [FP.regular] at h1
  unfold Fmt.revInfLoop
  rcases loop_eq (back := φ.nextDown) (go := fun y => y.regular = true ∧ φ.revSgn .U (.fin c) y p < 0)
     (done := fun y => y.regular = true ∧ φ.revSgn .U (.fin c) y p = 0) K hstop hgo with
    ⟨⟨h1, h2⟩, h3⟩ | ⟨h1, h3⟩
  · rw [h3]
    have hcmp := cmp K le_rfl
    have hin := hN.inφ
    generalize φ.nextUp^[K+1] x = z at *
    cases z with
    | fin q =>
      have hq0 : q ≠ 0 := by simpa [FP.regular] using h1
      have hqv := (hcmp q rfl hq0).2.mp h2
      refine ⟨?_, by simp [hqv], by simp, hin⟩
      have := φ.rdE_of_in hin (by simp)
      rw [FP.toE_fin, hqv] at this
      simp only [FP.toE_fin, hqv]
      exact this.symm
    | _ => simp [FP.regular] at h1
  · rw [h3]
    have hvlt : (v:EReal) < (φ.nextUp^[K+1] x).toE := by
      refine lt_of_le_of_ne hK1 (fun he => h1 ?_)
      have hcmp := cmp K le_rfl
      generalize φ.nextUp^[K+1] x = z at *
      have hne := hN.ne
      cases z with
      | nan => exact absurd rfl hne
      | ninf => simp at he
      | pinf => simp at he
      | nzero => exact absurd (by simpa using he) hv0
      | fin q =>
        have hqv : v = q := by rw [FP.toE_fin] at he; exact_mod_cast he
        have hq0 : q ≠ 0 := by
          rintro rfl; exact hv0 (by simpa using hqv)
        exact ⟨by simp [FP.regular, hq0], (hcmp q rfl hq0).2.mpr hqv.symm⟩
    refine ⟨?_, ?_, hD.2.1, hD.2.2⟩
    · show (φ.nextDown _).toE = φ.rdE v
      rw [hD.1]
      apply le_antisymm
      · rw [Fmt.le_rdE_iff φ g2 _ g1]; exact g3.le
      · obtain ⟨f, f1, f2, f3⟩ := φ.exists_rdE (v:EReal)
        rw [← f3]
        by_contra hcon
        push Not at hcon
        have := hN.least f f1 f2 hcon
        rw [f3] at this
        exact absurd (hvlt.trans_le (this.trans (φ.rdE_le _))) (lt_irrefl _)
    · show true = true ↔ (φ.nextDown _).toE ≠ v
      rw [hD.1]; simp [g3.ne]

/-- `z` is the greatest number of the format below `y`. -/
structure IsPrev (φ : Fmt) (y z : FP) : Prop where
  ne : z ≠ .nan
  inφ : z.In φ
  lt : z.toE < y.toE
  greatest : ∀ f : FP, f.In φ → f ≠ .nan → f.toE < y.toE → f.toE ≤ z.toE

theorem nextDown_spec {y : FP} (hy : y ≠ .nan) (hi : y.In φ) (hb : y.toE ≠ ⊥) : IsPrev φ y (φ.nextDown y) := by
  have h := nextUp_spec (φ := φ) (y := y.neg) (by simpa using hy) (FP.neg_in hi) (by rw [FP.toE_neg]; simpa using hb)
  refine ⟨by simpa [Fmt.nextDown] using h.ne, FP.neg_in h.inφ, ?_, ?_⟩
  · have := h.lt
    rw [FP.toE_neg] at this
    unfold Fmt.nextDown
    rw [FP.toE_neg]
    exact EReal.neg_lt_comm.mp this
  · intro f h1 h2 h3
    have := h.least f.neg (FP.neg_in h1) (by simpa using h2) (by
      rw [FP.toE_neg, FP.toE_neg]; exact EReal.neg_lt_neg_iff.mpr h3)
    rw [FP.toE_neg] at this
    unfold Fmt.nextDown
    rw [FP.toE_neg]
    exact EReal.le_neg_of_le_neg this

theorem nextUp_nextDown {y : FP} (hy : y ≠ .nan) (hi : y.In φ) (hb : y.toE ≠ ⊥) :
    (φ.nextUp (φ.nextDown y)).toE = y.toE ∧ φ.nextUp (φ.nextDown y) ≠ .nan ∧ (φ.nextUp (φ.nextDown y)).In φ := by
  obtain ⟨h1, h2, h3⟩ := nextDown_nextUp (φ := φ) (y := y.neg) (by simpa using hy) (FP.neg_in hi)
    (by rw [FP.toE_neg]; simpa using hb)
  have e : φ.nextDown (φ.nextUp y.neg) = (φ.nextUp (φ.nextDown y)).neg := by
    simp [Fmt.nextDown]
  rw [e] at h1 h2 h3
  refine ⟨?_, by simpa using h2, ?_⟩
  · rw [FP.toE_neg, FP.toE_neg] at h1; simpa using h1
  · have := FP.neg_in h3; rwa [FP.neg_neg'] at this

theorem descend {x : FP} {v : ℝ} (hx : x ≠ .nan) (hi : x.In φ) (hv : (v:EReal) < x.toE) :
    ∃ K : ℕ, (∀ k ≤ K, (φ.nextDown^[k] x) ≠ .nan ∧ (φ.nextDown^[k] x).In φ ∧ (v:EReal) < (φ.nextDown^[k] x).toE) ∧
      (φ.nextDown^[K+1] x).toE ≤ v := by
  obtain ⟨K, h1, h2⟩ := climb (φ := φ) (x := x.neg) (v := -v) (by simpa using hx) (FP.neg_in hi) (by
    rw [FP.toE_neg, EReal.coe_neg]; exact EReal.neg_lt_neg_iff.mpr hv)
  refine ⟨K, fun k hk => ?_, ?_⟩
  · obtain ⟨g1, g2, g3⟩ := h1 k hk
    rw [nextDown_iter]
    refine ⟨by simpa using g1, FP.neg_in g2, ?_⟩
    rw [FP.toE_neg]
    rw [EReal.coe_neg] at g3
    exact EReal.lt_neg_of_lt_neg g3
  · rw [nextDown_iter, FP.toE_neg]
    rw [EReal.coe_neg] at h2
    exact EReal.neg_le_of_neg_le h2

theorem revSupLoop_spec {c : ℚ} (hc : φ.Rep c) (hc0 : c ≠ 0) {p : ℤ} (hp : p < 0) {v : ℝ} (hv0 : v ≠ 0)
    (hv : v ^ p = c) (hs : 0 < v ∨ p % 2 ≠ 0) {x : FP} (hx : x ≠ .nan) (hi : x.In φ) (hxv : (v:EReal) < x.toE)
    (hx0 : v < 0 → x.toE ≤ 0) : RevAt φ .U (v:EReal) (φ.revSupLoop (.fin c) x p) := by
  obtain ⟨K, hK, hK1⟩ := descend hx hi hxv
  have hx_le : ∀ k ≤ K, (φ.nextDown^[k] x).toE ≤ x.toE := by
    intro k
    induction k with
    | zero => intro _; exact le_rfl
    | succ k ih =>
      intro hk
      obtain ⟨g1, g2, g3⟩ := hK k (by omega)
      have := (nextDown_spec g1 g2 (ne_bot_of_gt g3)).lt
      rw [← Function.iterate_succ_apply' φ.nextDown k x] at this
      exact this.le.trans (ih (by omega))
  have side : ∀ k ≤ K, ∀ q : ℚ, φ.nextDown^[k+1] x = .fin q → q ≠ 0 → 0 < (q:ℝ) * v := by
    intro k hk q hq hq0
    obtain ⟨g1, g2, g3⟩ := hK k hk
    have hN := nextDown_spec g1 g2 (ne_bot_of_gt g3)
    rw [← Function.iterate_succ_apply' φ.nextDown k x, hq] at hN
    rcases lt_or_gt_of_ne hv0 with h | h
    · have h1 := lt_of_lt_of_le hN.lt ((hx_le k hk).trans (hx0 h))
      have h1 : q < 0 := toE_lt_fin.mp (by simpa using h1)
      have : (q:ℝ) < 0 := by exact_mod_cast h1
      exact mul_pos_of_neg_of_neg this h
    · have h1 := hN.greatest .nzero trivial (by simp) (lt_trans (by simpa using h) g3)
      have h1 : 0 ≤ q := toE_le_fin.mp (by simpa using h1)
      have : 0 < q := lt_of_le_of_ne h1 (Ne.symm hq0)
      have : (0:ℝ) < q := by exact_mod_cast this
      exact mul_pos this h
  have cmp : ∀ k ≤ K, ∀ q : ℚ, φ.nextDown^[k+1] x = .fin q → q ≠ 0 →
      (0 < φ.revSgn .D (.fin c) (.fin q) p ↔ v < (q:ℝ)) ∧ (φ.revSgn .D (.fin c) (.fin q) p = 0 ↔ (q:ℝ) = v) := by
    intro k hk q hq hq0
    obtain ⟨k1, k2, k3⟩ := pow_cmp_iff hp (side k hk q hq hq0) hs
    obtain ⟨r1, r2⟩ := revSgn_D hc hc0 hq0 hp
    rw [hv] at k1 k2 k3
    refine ⟨r1.trans (Iff.trans ?_ k2.symm), r2.trans (Iff.trans ?_ k3.symm)⟩
    · have : ((q ^ p : ℚ) : ℝ) = (q:ℝ) ^ p := by push_cast; rfl
      rw [← this]; exact_mod_cast Iff.rfl
    · have : ((q ^ p : ℚ) : ℝ) = (q:ℝ) ^ p := by push_cast; rfl
      rw [← this, eq_comm]; exact_mod_cast Iff.rfl
  have hgo : ∀ k < K, (φ.nextDown^[k+1] x).regular = true ∧ 0 < φ.revSgn .D (.fin c) (φ.nextDown^[k+1] x) p := by
    intro k hk
    obtain ⟨g1, g2, g3⟩ := hK k hk.le
    obtain ⟨f1, f2, f3⟩ := hK (k+1) hk
    have hN := nextDown_spec g1 g2 (ne_bot_of_gt g3)
    rw [← Function.iterate_succ_apply' φ.nextDown k x] at hN
    have hlt := hN.lt
    have hcmp := cmp k hk.le
    have hreg : ∃ q, φ.nextDown^[k+1] x = .fin q ∧ q ≠ 0 := by
      have hz : (φ.nextDown^[k+1] x).toE ≠ 0 := by
        intro hz
        rcases lt_or_gt_of_ne hv0 with h | h
        · have := lt_of_lt_of_le hlt ((hx_le k hk.le).trans (hx0 h))
          exact this.ne hz
        · rw [hz] at f3
          have : v < (0:ℝ) := by exact_mod_cast f3
          linarith
      generalize φ.nextDown^[k+1] x = z at *
      cases z with
      | nan => exact absurd rfl f1
      | ninf => simp at f3
      | pinf => simp at hlt
      | nzero => simp at hz
      | fin q => exact ⟨q, rfl, by simpa using hz⟩
    obtain ⟨q, hq, hq0⟩ := hreg
    have := (hcmp q hq hq0).1
    rw [hq] at f3 ⊢
    refine ⟨by simp [FP.regular, hq0], this.mpr ?_⟩
    rw [FP.toE_fin] at f3; exact_mod_cast f3
  obtain ⟨g1, g2, g3⟩ := hK K le_rfl
  have hN := nextDown_spec g1 g2 (ne_bot_of_gt g3)
  have hD := nextUp_nextDown g1 g2 (ne_bot_of_gt g3)
  rw [← Function.iterate_succ_apply' φ.nextDown K x] at hN hD
  have hstop : ¬((φ.nextDown^[K+1] x).regular = true ∧ 0 < φ.revSgn .D (.fin c) (φ.nextDown^[K+1] x) p) := by
    rintro ⟨h1, h2⟩
    have hcmp := cmp K le_rfl
    generalize φ.nextDown^[K+1] x = z at *
    cases z with
    | fin q =>
      have hq0 : q ≠ 0 := by simpa [FP.regular] using h1
      have := (hcmp q rfl hq0).1.mp h2
      rw [FP.toE_fin] at hK1
      have hK1 : (q:ℝ) ≤ v := by exact_mod_cast hK1
      linarith
    | _ => simp [FP.regular] at h1
  unfold Fmt.revSupLoop
  rcases loop_eq (back := φ.nextUp) (go := fun y => y.regular = true ∧ 0 < φ.revSgn .D (.fin c) y p)
      (done := fun y => y.regular = true ∧ φ.revSgn .D (.fin c) y p = 0) K hstop hgo with
    ⟨⟨h1, h2⟩, h3⟩ | ⟨h1, h3⟩
  · rw [h3]
    have hcmp := cmp K le_rfl
    have hin := hN.inφ
    generalize φ.nextDown^[K+1] x = z at *
    cases z with
    | fin q =>
      have hq0 : q ≠ 0 := by simpa [FP.regular] using h1
      have hqv := (hcmp q rfl hq0).2.mp h2
      refine ⟨?_, by simp [hqv], by simp, hin⟩
      have := φ.ruE_of_in hin (by simp)
      rw [FP.toE_fin, hqv] at this
      simp only [FP.toE_fin, hqv]
      exact this.symm
    | _ => simp [FP.regular] at h1
  · rw [h3]
    have hvlt : (φ.nextDown^[K+1] x).toE < (v:EReal) := by
      refine lt_of_le_of_ne hK1 (fun he => h1 ?_)
      have hcmp := cmp K le_rfl
      generalize φ.nextDown^[K+1] x = z at *
      have hne := hN.ne
      cases z with
      | nan => exact absurd rfl hne
      | ninf => simp at he
      | pinf => simp at he
      | nzero => exact absurd (by simpa using he.symm) hv0
      | fin q =>
        have hqv : v = q := by rw [FP.toE_fin] at he; exact_mod_cast he.symm
        have hq0 : q ≠ 0 := by
          rintro rfl; exact hv0 (by simpa using hqv)
        exact ⟨by simp [FP.regular, hq0], (hcmp q rfl hq0).2.mpr hqv.symm⟩
    refine ⟨?_, ?_, hD.2.1, hD.2.2⟩
    · show (φ.nextUp _).toE = φ.ruE v
      rw [hD.1]
      apply le_antisymm
      · obtain ⟨f, f1, f2, f3⟩ : ∃ f : FP, f.In φ ∧ f ≠ .nan ∧ f.toE = φ.ruE v :=
          ⟨φ.round .U v, φ.round_in _ _, φ.round_ne_nan _ _, by rw [Fmt.ruE_coe]⟩
        rw [← f3]
        by_contra hcon
        push Not at hcon
        have := hN.greatest f f1 f2 hcon
        rw [f3] at this
        exact absurd (((φ.le_ruE _).trans this).trans_lt hvlt) (lt_irrefl _)
      · rw [Fmt.ruE_le_iff φ g2 _ g1]; exact g3.le
    · show true = true ↔ (φ.nextUp _).toE ≠ v
      rw [hD.1]; simp [g3.ne']

end P1788
