import Verif.Lemmas.Reduction
import Verif.Lemmas.Div

/-! # C37: reductions are correctly rounded

Full statement for `sum_sqr` and `dot`: for all finite vectors of equal length the result is the correctly rounded exact
sum of products.  It is false of the code, which computes the products in the exponent range of the format
(`C37_false_underflow`, `C37_false_overflow`); proved is the case that no product leaves this range. -/

namespace P1788

open Bornology

variable {φ : Fmt}

/-- `r` is the exact value `s` rounded once in the given direction.  Towards plus or minus infinity: the nearest datum of
the format, possibly infinite, on that side.  To nearest: the nearest number, ties to even, up to the point (half a unit
beyond the largest number) from where on the result is infinite.  A zero is `-0` if rounding downward, else `+0`. -/
structure CorrectlyRounded (φ : Fmt) (m : RMode) (s : ℝ) (r : FP) : Prop where
  num : r ≠ .nan ∧ r.In φ
  down : m = .downward ∨ (m = .toZero ∧ 0 ≤ s) →
    r.toE ≤ (s : EReal) ∧ ∀ f : FP, f.In φ → f ≠ .nan → f.toE ≤ (s : EReal) → f.toE ≤ r.toE
  up : m = .upward ∨ (m = .toZero ∧ s ≤ 0) →
    (s : EReal) ≤ r.toE ∧ ∀ f : FP, f.In φ → f ≠ .nan → (s : EReal) ≤ f.toE → r.toE ≤ f.toE
  near : m = .toNearest →
    (|s| < 2 ^ φ.emax - 2 ^ (φ.emax - φ.p - 1) → ∃ q : ℚ, r.toE = ((q : ℝ) : EReal) ∧ RoundsTo φ q s) ∧
    (2 ^ φ.emax - 2 ^ (φ.emax - φ.p - 1) ≤ s → r = .pinf) ∧
    (s ≤ -(2 ^ φ.emax - 2 ^ (φ.emax - φ.p - 1)) → r = .ninf)
  zero : r.toE = 0 → r = if m = .downward then .nzero else .fin 0

/-- The element is a finite number of the format. -/
def FP.Finite (φ : Fmt) (a : FP) : Prop := a.In φ ∧ a ≠ .nan ∧ a ≠ .pinf ∧ a ≠ .ninf

theorem finishSum_toE (m : RMode) {r : FP} (hn : r ≠ .nan) : (finishSum m r).toE = r.toE := by
  unfold finishSum
  split_ifs with h1 h2
  · rw [(Fmt.isZero_iff hn).mp h1]; simp [FP.toE]
  · rw [(Fmt.isZero_iff hn).mp h1]; simp [FP.toE]
  · rfl

theorem finishSum_in {m : RMode} {r : FP} (h : r.In φ) : (finishSum m r).In φ := by
  unfold finishSum
  split_ifs
  · trivial
  · exact φ.rep_zero
  · exact h

theorem roundN_near {s : ℝ} (h : |s| < φ.huge) : ∃ q : ℚ, (φ.round .N s).toE = ((q : ℝ) : EReal) ∧ RoundsTo φ q s := by
  rcases le_or_gt |s| (φ.maxFin : ℝ) with hs | hs
  · exact ⟨_, φ.round_toE hs, roundsTo_roundQ hs⟩
  have hm0 : (0:ℝ) < φ.maxFin := by exact_mod_cast φ.maxFin_pos
  have far : ∀ {c : ℝ}, (φ.maxFin : ℝ) < c → RoundsTo φ φ.maxFin c := by
    intro c hc
    refine ⟨φ.rep_maxFin, fun f hf => ?_⟩
    have h1 : (f:ℝ) ≤ φ.maxFin := by exact_mod_cast (abs_le.mp hf.abs_le).2
    rw [abs_of_neg (by linarith), abs_of_neg (by linarith)]
    refine ⟨by linarith, fun e hne => absurd ?_ hne⟩
    have : (f:ℝ) = φ.maxFin := by linarith
    exact_mod_cast this
  rcases lt_abs.mp hs with h' | h'
  · refine ⟨φ.maxFin, ?_, far h'⟩
    have e := φ.roundQ_N_top h'.le (lt_of_le_of_lt (le_abs_self s) h)
    unfold Fmt.round
    simp only [e, lt_irrefl, if_false]
    have := φ.maxFin_pos
    rw [if_neg (by linarith), if_neg this.ne']; rfl
  · refine ⟨-φ.maxFin, ?_, ?_⟩
    · have e := φ.roundQ_N_top h'.le (lt_of_le_of_lt (neg_le_abs s) h)
      rw [φ.roundQ_N_neg] at e
      have e' : φ.roundQ .N s = -φ.maxFin := by linarith
      unfold Fmt.round
      simp only [e']
      have := φ.maxFin_pos
      rw [if_neg (by linarith), if_neg (by linarith), if_neg (by linarith)]; rfl
    · obtain ⟨h1, h2⟩ := far h'
      refine ⟨h1.neg, fun f hf => ?_⟩
      obtain ⟨h3, h4⟩ := h2 (-f) hf.neg
      have e1 : |((-φ.maxFin : ℚ) : ℝ) - s| = |(φ.maxFin : ℝ) - -s| := by rw [← abs_neg]; push_cast; ring_nf
      have e2 : |(f : ℝ) - s| = |((-f : ℚ) : ℝ) - -s| := by rw [← abs_neg]; push_cast; ring_nf
      rw [e1, e2]
      refine ⟨h3, fun e hne => ?_⟩
      obtain ⟨k, hk⟩ := h4 e (fun h => hne (by linarith))
      refine ⟨-k, ?_⟩
      rw [show |(-φ.maxFin) - f| = |φ.maxFin - -f| by rw [← abs_neg]; ring_nf]
      push_cast; linarith

theorem roundN_huge {s : ℝ} (h : φ.huge ≤ s) : φ.round .N s = .pinf := by
  unfold Fmt.round
  simp only [if_pos (φ.roundQ_N_huge h)]

theorem roundN_nhuge {s : ℝ} (h : s ≤ -φ.huge) : φ.round .N s = .ninf := by
  have := φ.roundQ_N_huge (x := -s) (by linarith)
  rw [φ.roundQ_N_neg] at this
  have hm := φ.maxFin_pos
  unfold Fmt.round
  simp only []
  rw [if_neg (by linarith), if_pos (by linarith)]

theorem roundR_spec (m : RMode) (s : ℚ) : CorrectlyRounded φ m s (finishSum m (φ.roundR m s)) := by
  have hD : ∀ s : ℚ, φ.round .D s ≠ .nan := fun s => by rw [← Fmt.round_cast]; exact φ.round_ne_nan _ _
  have hU : ∀ s : ℚ, φ.round .U s ≠ .nan := fun s => by rw [← Fmt.round_cast]; exact φ.round_ne_nan _ _
  have hn : φ.roundR m s ≠ .nan := by
    cases m <;> simp only [Fmt.roundR]
    · exact hD s
    · exact hU s
    · rw [← Fmt.round_cast]; exact φ.round_ne_nan _ _
    · split_ifs; exacts [hU s, hD s]
  have hin : (φ.roundR m s).In φ := by
    cases m <;> simp only [Fmt.roundR] <;> first | exact φ.round_rat_in _ _ | (split_ifs <;> exact φ.round_rat_in _ _)
  have hn' : finishSum m (φ.roundR m s) ≠ .nan := by
    unfold finishSum; split_ifs <;> first | exact hn | simp
  have lo : (φ.round .D s).toE = φ.rdE ((s:ℝ) : EReal) := by rw [Fmt.rdE_coe, Fmt.round_cast]
  have hi : (φ.round .U s).toE = φ.ruE ((s:ℝ) : EReal) := by rw [Fmt.ruE_coe, Fmt.round_cast]
  refine ⟨⟨hn', finishSum_in hin⟩, fun h => ?_, fun h => ?_, fun h => ?_, fun h => ?_⟩
  · have e : (φ.roundR m s).toE = φ.rdE ((s:ℝ) : EReal) := by
      rcases h with rfl | ⟨rfl, h⟩
      · exact lo
      · simp only [Fmt.roundR]
        rw [if_neg (not_lt.mpr (by exact_mod_cast h))]; exact lo
    rw [finishSum_toE m hn, e]
    exact ⟨φ.rdE_le _, fun f h1 h2 h3 => (φ.le_rdE_iff h1 _ h2).mpr h3⟩
  · have e : (φ.roundR m s).toE = φ.ruE ((s:ℝ) : EReal) := by
      rcases h with rfl | ⟨rfl, h⟩
      · exact hi
      · simp only [Fmt.roundR]
        have h' : s ≤ 0 := by exact_mod_cast h
        rcases h'.lt_or_eq with h' | rfl
        · rw [if_pos h']; exact hi
        · rw [if_neg (lt_irrefl _), lo]; simp [Fmt.rdE_zero, Fmt.ruE_zero]
    rw [finishSum_toE m hn, e]
    exact ⟨φ.le_ruE _, fun f h1 h2 h3 => (φ.ruE_le_iff h1 _ h2).mpr h3⟩
  · subst h
    rw [finishSum_toE _ hn]
    simp only [Fmt.roundR]
    rw [← Fmt.round_cast]
    have fin : ∀ {r : FP}, r.isZero = false → finishSum .toNearest r = r := fun h => by simp [finishSum, h]
    refine ⟨fun h => roundN_near h, fun h => ?_, fun h => ?_⟩
    · rw [roundN_huge h, fin rfl]
    · rw [roundN_nhuge h, fin rfl]
  · rw [finishSum_toE m hn] at h
    simp only [finishSum, (Fmt.isZero_iff hn).mpr h, if_true]

theorem mpfrSum_finite {m : RMode} {l : List FP} (h : ∀ a ∈ l, a ≠ .nan ∧ a ≠ .pinf ∧ a ≠ .ninf) :
    φ.mpfrSum m l = φ.roundR m (l.map FP.q).sum := by
  unfold Fmt.mpfrSum
  have e : ∀ b : FP, (∀ a ∈ l, a ≠ b) → l.any (fun a => decide (a = b)) = false := by
    intro b hb
    rw [List.any_eq_false]
    intro a ha; simp [hb a ha]
  rw [e .nan fun a ha => (h a ha).1, e .pinf fun a ha => (h a ha).2.1, e .ninf fun a ha => (h a ha).2.2]
  simp

/-- The real number a finite datum stands for. -/
theorem toE_q {a : FP} (h : a ≠ .nan ∧ a ≠ .pinf ∧ a ≠ .ninf) : a.toE = ((a.q : ℝ) : EReal) := by
  cases a <;> simp_all [FP.toE, FP.q]

/-- `sum` of any finite vector of format numbers is the exact sum, rounded once. -/
theorem C37_sum (m : RMode) {l : List FP} {v : List ℝ} (hl : ∀ a ∈ l, a.Finite φ)
    (hv : l.map FP.toE = v.map (fun t : ℝ => (t : EReal))) : CorrectlyRounded φ m v.sum (φ.sum m l) := by
  have e : ((l.map FP.q).sum : ℝ) = v.sum := by
    induction l generalizing v with
    | nil => cases v with
      | nil => simp
      | cons b v => simp at hv
    | cons a l ih =>
      cases v with
      | nil => simp at hv
      | cons b v =>
        simp only [List.map_cons, List.cons.injEq] at hv
        simp only [List.map_cons, List.sum_cons]
        rw [Rat.cast_add, ih (fun a h => hl a (List.mem_cons_of_mem _ h)) hv.2]
        congr 1
        have := hv.1
        rw [toE_q (hl a List.mem_cons_self).2] at this
        exact_mod_cast this
  unfold Fmt.sum
  rw [mpfrSum_finite fun a h => (hl a h).2, ← e]
  exact roundR_spec m _

/-- `sum_abs` of any finite vector of format numbers is the exact sum of the absolute values, rounded once. -/
theorem C37_sum_abs (m : RMode) {l : List FP} {v : List ℝ} (hl : ∀ a ∈ l, a.Finite φ)
    (hv : l.map FP.toE = v.map (fun t : ℝ => (t : EReal))) :
    CorrectlyRounded φ m (v.map fun t => |t|).sum (φ.sumAbs m l) := by
  have key : φ.sumAbs m l = φ.sum m (l.map FP.abs) := rfl
  rw [key]
  refine C37_sum m ?_ ?_
  · intro a ha
    obtain ⟨b, hb, rfl⟩ := List.mem_map.mp ha
    obtain ⟨h1, h2, h3, h4⟩ := hl b hb
    cases b with
    | fin q => exact ⟨by simpa [FP.abs, FP.In] using h1.abs, by simp [FP.abs], by simp [FP.abs], by simp [FP.abs]⟩
    | nzero => exact ⟨φ.rep_zero, by simp [FP.abs], by simp [FP.abs], by simp [FP.abs]⟩
    | _ => simp_all
  · induction l generalizing v with
    | nil => cases v with
      | nil => simp
      | cons b v => simp at hv
    | cons a l ih =>
      cases v with
      | nil => simp at hv
      | cons b v =>
        simp only [List.map_cons, List.cons.injEq] at hv
        simp only [List.map_cons, List.cons.injEq]
        refine ⟨?_, ih (fun a h => hl a (List.mem_cons_of_mem _ h)) hv.2 rfl⟩
        have h1 := hv.1
        obtain ⟨-, h2, h3, h4⟩ := hl a List.mem_cons_self
        cases a with
        | fin q =>
          simp only [FP.toE, FP.abs] at h1 ⊢
          have : (q:ℝ) = b := by exact_mod_cast h1
          rw [← this]; simp
        | nzero =>
          simp only [FP.toE, FP.abs] at h1 ⊢
          have : (0:ℝ) = b := by exact_mod_cast h1
          rw [← this]; simp
        | _ => simp_all

/-- Infinities and NaN: a NaN, or infinities of both signs, give NaN; otherwise infinities give an infinity of their
sign. -/
theorem C37_sum_special (m : RMode) (l : List FP) :
    (.nan ∈ l ∨ (.pinf ∈ l ∧ .ninf ∈ l) → φ.sum m l = .nan) ∧
    (.nan ∉ l → .pinf ∈ l → .ninf ∉ l → φ.sum m l = .pinf) ∧
    (.nan ∉ l → .pinf ∉ l → .ninf ∈ l → φ.sum m l = .ninf) := by
  have e : ∀ b : FP, l.any (fun a => decide (a = b)) = decide (b ∈ l) := by
    intro b
    by_cases h : b ∈ l
    · simp only [h, decide_true, List.any_eq_true, decide_eq_true_eq]; exact ⟨b, h, rfl⟩
    · simp only [h, decide_false, List.any_eq_false, decide_eq_true_eq]; rintro a ha rfl; exact h ha
  unfold Fmt.sum Fmt.mpfrSum
  simp only [e, decide_eq_true_eq]
  refine ⟨?_, fun h1 h2 h3 => by simp [h1, h2, h3, finishSum, FP.isZero], fun h1 h2 h3 => by simp [h1, h2, h3, finishSum, FP.isZero]⟩
  rintro (h | ⟨h1, h2⟩)
  · simp [h, finishSum, FP.isZero]
  · simp [h1, h2, finishSum, FP.isZero]

/-- `sum_abs`: a NaN gives NaN; otherwise an infinity gives `+inf`. -/
theorem C37_sum_abs_special (m : RMode) (l : List FP) :
    (.nan ∈ l → φ.sumAbs m l = .nan) ∧ (.nan ∉ l → .pinf ∈ l ∨ .ninf ∈ l → φ.sumAbs m l = .pinf) := by
  have key : φ.sumAbs m l = φ.sum m (l.map FP.abs) := rfl
  obtain ⟨h1, h2, -⟩ := C37_sum_special (φ := φ) m (l.map FP.abs)
  have e : ∀ a : FP, a.abs ≠ .ninf ∧ (a.abs = .nan ↔ a = .nan) ∧ (a = .pinf ∨ a = .ninf → a.abs = .pinf) := by
    intro a; cases a <;> simp [FP.abs]
  rw [key]
  refine ⟨fun h => h1 (Or.inl (List.mem_map.mpr ⟨_, h, rfl⟩)), fun h h' => h2 ?_ ?_ ?_⟩
  · rw [List.mem_map]; rintro ⟨a, ha, h0⟩; rw [(e a).2.1] at h0; exact h (h0 ▸ ha)
  · rw [List.mem_map]; rcases h' with h' | h'; exacts [⟨_, h', rfl⟩, ⟨_, h', rfl⟩]
  · rw [List.mem_map]; rintro ⟨a, -, h0⟩; exact (e a).1 h0

/-- The order of the elements does not matter. -/
theorem C37_order (m : RMode) {l l' : List FP} (h : l.Perm l') :
    φ.sum m l = φ.sum m l' ∧ φ.sumAbs m l = φ.sumAbs m l' ∧ φ.sumSqr m l = φ.sumSqr m l' := by
  have key : ∀ {l l' : List FP}, l.Perm l' → φ.mpfrSum m l = φ.mpfrSum m l' := by
    intro l l' h
    unfold Fmt.mpfrSum
    have e : ∀ f : FP → Bool, l.any f = l'.any f := by
      intro f
      rw [Bool.eq_iff_iff, List.any_eq_true, List.any_eq_true]
      simp only [h.mem_iff]
    rw [e, e, e, (h.map FP.q).sum_eq]
  refine ⟨?_, ?_, ?_⟩
  · unfold Fmt.sum; rw [key h]
  · unfold Fmt.sumAbs; rw [key (h.map _)]
  · unfold Fmt.sumSqr; rw [key (h.map _)]

/-- The product of two numbers stays in the exponent range of the format: it is zero, or its absolute value is at least
the least positive number and less than `2^emax`. -/
def ProdInRange (φ : Fmt) (s t : ℝ) : Prop := s * t = 0 ∨ (2 ^ φ.qmin ≤ |s * t| ∧ |s * t| < 2 ^ φ.emax)

theorem mul2_exact {a b : FP} (ha : a ≠ .nan ∧ a ≠ .pinf ∧ a ≠ .ninf) (hb : b ≠ .nan ∧ b ≠ .pinf ∧ b ≠ .ninf)
    (h : ProdInRange φ a.q b.q) : (φ.mul2 a b ≠ .nan ∧ φ.mul2 a b ≠ .pinf ∧ φ.mul2 a b ≠ .ninf) ∧
      (φ.mul2 a b).q = a.q * b.q := by
  have core : φ.mul2 a b = (let v := a.q * b.q
      let s := a.signbit != b.signbit
      if 2 ^ φ.emax ≤ |v| then FP.mkInf s
      else if |v| ≤ 2 ^ (φ.qmin - 1) then FP.mkZero s
      else if |v| < 2 ^ φ.qmin then .fin (if s then -2 ^ φ.qmin else 2 ^ φ.qmin)
      else .fin v) := by
    cases a <;> cases b <;> first
      | rfl
      | exact absurd rfl ha.1
      | exact absurd rfl ha.2.1
      | exact absurd rfl ha.2.2
      | exact absurd rfl hb.1
      | exact absurd rfl hb.2.1
      | exact absurd rfl hb.2.2
  rw [core]
  rcases h with h | ⟨h1, h2⟩
  · have h0 : a.q * b.q = 0 := by exact_mod_cast h
    simp only [h0, abs_zero]
    rw [if_neg (not_le.mpr (two_zpow_pos _)), if_pos (two_zpow_pos _).le]
    cases a.signbit != b.signbit <;> simp [FP.mkZero, FP.q]
  · have h1' : 2 ^ φ.qmin ≤ |a.q * b.q| := by
      have e : ((2 ^ φ.qmin : ℚ) : ℝ) ≤ ((|a.q * b.q| : ℚ) : ℝ) := by push_cast; exact h1
      exact_mod_cast e
    have h2' : |a.q * b.q| < 2 ^ φ.emax := by
      have e : ((|a.q * b.q| : ℚ) : ℝ) < ((2 ^ φ.emax : ℚ) : ℝ) := by push_cast; exact h2
      exact_mod_cast e
    have h3 : (2:ℚ) ^ (φ.qmin - 1) < 2 ^ φ.qmin := zpow_lt_zpow_right₀ (by norm_num) (by omega)
    simp only []
    rw [if_neg (not_le.mpr h2'), if_neg (not_le.mpr (h3.trans_le h1')), if_neg (not_lt.mpr h1')]
    simp [FP.q]

/-- `dot` of two vectors of the same length whose products stay in the exponent range is the exact scalar product,
rounded once. -/
theorem C37_dot_partial (m : RMode) {a b : List FP} {s t : List ℝ} (ha : ∀ c ∈ a, c.Finite φ) (hb : ∀ c ∈ b, c.Finite φ)
    (hs : a.map FP.toE = s.map (fun t : ℝ => (t : EReal))) (ht : b.map FP.toE = t.map (fun t : ℝ => (t : EReal)))
    (hlen : s.length = t.length) (hr : ∀ p ∈ s.zip t, ProdInRange φ p.1 p.2) :
    ∃ r, φ.dot m a b = some r ∧ CorrectlyRounded φ m (List.zipWith (· * ·) s t).sum r := by
  have la : a.length = s.length := by simpa using congrArg List.length hs
  have lb : b.length = t.length := by simpa using congrArg List.length ht
  refine ⟨_, by unfold Fmt.dot; rw [if_neg (by omega)], ?_⟩
  have key : (∀ c ∈ List.zipWith φ.mul2 a b, c ≠ .nan ∧ c ≠ .pinf ∧ c ≠ .ninf) ∧
      (((List.zipWith φ.mul2 a b).map FP.q).sum : ℝ) = (List.zipWith (· * ·) s t).sum := by
    clear hlen la lb
    induction a generalizing b s t with
    | nil =>
      cases s with
      | nil => simp
      | cons => simp at hs
    | cons x a ih =>
      cases s with
      | nil => simp at hs
      | cons y s =>
        cases b with
        | nil =>
          cases t with
          | nil => simp
          | cons => simp at ht
        | cons z b =>
          cases t with
          | nil => simp at ht
          | cons w t =>
            simp only [List.map_cons, List.cons.injEq] at hs ht
            obtain ⟨i1, i2⟩ := ih (fun c h => ha c (List.mem_cons_of_mem _ h)) (fun c h => hb c (List.mem_cons_of_mem _ h))
              hs.2 ht.2 (fun p h => hr p (by simp [h]))
            have fx := (ha x List.mem_cons_self).2
            have fz := (hb z List.mem_cons_self).2
            have ex : (x.q : ℝ) = y := by have := hs.1; rw [toE_q fx] at this; exact_mod_cast this
            have ez : (z.q : ℝ) = w := by have := ht.1; rw [toE_q fz] at this; exact_mod_cast this
            obtain ⟨j1, j2⟩ := mul2_exact (φ := φ) fx fz (by rw [ex, ez]; exact hr (y, w) (by simp))
            simp only [List.zipWith_cons_cons, List.forall_mem_cons, List.map_cons, List.sum_cons]
            refine ⟨⟨j1, i1⟩, ?_⟩
            rw [Rat.cast_add, i2, j2, Rat.cast_mul, ex, ez]
  rw [mpfrSum_finite key.1, ← key.2]
  exact roundR_spec m _

/-- `sum_sqr` of a vector whose squares stay in the exponent range is the exact sum of squares, rounded once. -/
theorem C37_sum_sqr_partial (m : RMode) {l : List FP} {v : List ℝ} (hl : ∀ a ∈ l, a.Finite φ)
    (hv : l.map FP.toE = v.map (fun t : ℝ => (t : EReal))) (hr : ∀ t ∈ v, ProdInRange φ t t) :
    CorrectlyRounded φ m (v.map fun t => t ^ 2).sum (φ.sumSqr m l) := by
  obtain ⟨r, h1, h2⟩ := C37_dot_partial m hl hl hv hv rfl (by
    intro p hp
    rw [List.zip_eq_zipWith, List.zipWith_self] at hp
    obtain ⟨t, ht, rfl⟩ := List.mem_map.mp hp
    exact hr t ht)
  unfold Fmt.dot at h1
  rw [if_neg (lt_irrefl _)] at h1
  have e : φ.sumSqr m l = r := by
    rw [← Option.some.inj h1]; unfold Fmt.sumSqr; rw [List.zipWith_self]
  rw [e]
  rw [List.zipWith_self] at h2
  simpa [pow_two] using h2

/-- Of two vectors of different length, `dot` reads past the end of a shorter second one. -/
theorem C37_dot_short (m : RMode) {a b : List FP} (h : b.length < a.length) : φ.dot m a b = none := by
  unfold Fmt.dot; rw [if_pos h]

/-- Squares that underflow are lost: the sum of squares of the least positive `double`, rounded upward, is `0`, less
than the exact value. -/
theorem C37_false_underflow : (FP.fin (2 ^ (-1074:ℤ))).Finite binary64 ∧
    binary64.sumSqr .upward [.fin (2 ^ (-1074:ℤ))] = .fin 0 ∧
    ¬ CorrectlyRounded binary64 .upward ([(2:ℝ) ^ (-1074:ℤ)].map fun t => t ^ 2).sum
      (binary64.sumSqr .upward [.fin (2 ^ (-1074:ℤ))]) := by
  have h : binary64.sumSqr .upward [.fin (2 ^ (-1074:ℤ))] = .fin 0 := by decide +kernel
  refine ⟨⟨FP.in_of_inb (by decide +kernel), by simp, by simp, by simp⟩, h, fun hc => ?_⟩
  have := (hc.up (Or.inl rfl)).1
  rw [h] at this
  simp only [List.map_cons, List.map_nil, List.sum_cons, List.sum_nil, add_zero, FP.toE] at this
  have h0 : ((2:ℝ) ^ (-1074:ℤ)) ^ 2 ≤ 0 := by exact_mod_cast this
  have := pow_pos (two_zpow_posR (-1074)) 2
  linarith

/-- Products that overflow and would cancel give NaN instead of zero, or an infinity instead of a finite number. -/
theorem C37_false_overflow : (FP.fin (2 ^ (1000:ℤ))).Finite binary64 ∧
    binary64.dot .toNearest [.fin (2 ^ (1000:ℤ)), .fin (2 ^ (1000:ℤ))] [.fin (2 ^ (1000:ℤ)), .fin (-2 ^ (1000:ℤ))] = some .nan ∧
    binary64.dot .toNearest [.fin (2 ^ (1000:ℤ)), .fin (2 ^ (1000:ℤ))] [.fin (2 ^ (24:ℤ)), .fin (1 - 2 ^ (24:ℤ))] = some .pinf ∧
    ¬ CorrectlyRounded binary64 .toNearest (2 ^ (1000:ℤ) * 2 ^ (24:ℤ) + 2 ^ (1000:ℤ) * (1 - 2 ^ (24:ℤ))) .pinf := by
  refine ⟨⟨FP.in_of_inb (by decide +kernel), by simp, by simp, by simp⟩, by decide +kernel, by decide +kernel, fun hc => ?_⟩
  have e : (2:ℝ) ^ (1000:ℤ) * 2 ^ (24:ℤ) + 2 ^ (1000:ℤ) * (1 - 2 ^ (24:ℤ)) = 2 ^ (1000:ℤ) := by ring
  rw [e] at hc
  obtain ⟨q, hq, -⟩ := (hc.near rfl).1 (by
    rw [abs_of_pos (two_zpow_posR _)]
    have : (2:ℝ) ^ (1000:ℤ) + 2 ^ (binary64.emax - binary64.p - 1) < 2 ^ binary64.emax := by
      simp only [binary64]
      have e1 : (2:ℝ) ^ (1024:ℤ) = 2 ^ (24:ℤ) * 2 ^ (1000:ℤ) := by rw [← zpow_add₀ (by norm_num)]; norm_num
      have e2 : (2:ℝ) ^ ((1024:ℤ) - (53:ℕ) - 1) ≤ 2 ^ (1000:ℤ) := zpow_le_zpow_right₀ (by norm_num) (by norm_num)
      have e3 := two_zpow_posR 1000
      rw [e1, show (2:ℝ) ^ (24:ℤ) = 16777216 by norm_num]
      generalize (2:ℝ) ^ (1000:ℤ) = A at e2 e3 ⊢
      generalize (2:ℝ) ^ ((1024:ℤ) - (53:ℕ) - 1) = B at e2 ⊢
      linarith
    linarith)
  simp [FP.toE] at hq

/-- Non-vacuity: sums with cancellation and with products in range. -/
example : CorrectlyRounded binary64 .upward ([2 ^ 60, 1, -2 ^ 60].sum) (binary64.sum .upward [.fin (2 ^ 60), .fin 1, .fin (-2 ^ 60)]) :=
  C37_sum _ (by
    simp only [List.forall_mem_cons, List.not_mem_nil, false_imp_iff, implies_true, and_true]
    exact ⟨⟨FP.in_of_inb (by decide +kernel), by simp, by simp, by simp⟩,
      ⟨FP.in_of_inb (by decide +kernel), by simp, by simp, by simp⟩,
      ⟨FP.in_of_inb (by decide +kernel), by simp, by simp, by simp⟩⟩) (by simp [FP.toE])

example : binary64.sum .upward [.fin (2 ^ 60), .fin 1, .fin (-2 ^ 60)] = .fin 1 := by decide +kernel

example : ProdInRange binary64 3 5 := by
  right
  simp only [binary64]
  rw [show |(3:ℝ) * 5| = 15 by norm_num]
  exact ⟨le_trans (zpow_le_one_of_nonpos₀ (by norm_num) (by norm_num)) (by norm_num),
    lt_of_lt_of_le (by norm_num) (zpow_le_zpow_right₀ (by norm_num) (by norm_num : (4:ℤ) ≤ 1024))⟩

end P1788
