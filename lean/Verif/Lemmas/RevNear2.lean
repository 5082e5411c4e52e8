import Verif.Lemmas.RevNear

/-! # Every end of `sin_rev`, `cos_rev`, `tan_rev` is near a solution: the boxes -/

namespace P1788
open Real

variable {φ : Fmt} {x : Itv} {S V : Set ℝ} {α β s : ℝ}

/-- `s` is near to `S`. -/
def NearS (φ : Fmt) (S : Set ℝ) (s : ℝ) : Prop := ∃ t ∈ S, |t - s| ≤ 4 * uu φ * (|s| + 5)

theorem far {t0 : ℝ} (h : ∀ m : ℤ, t0 + m * (2 * π) ∈ S) (hs : 4 / 5 * 2 ^ φ.p ≤ |s|) : NearS φ S s := by
  obtain ⟨u0, -, hup, -⟩ := unit_facts φ
  obtain ⟨m, hm⟩ := per_near t0 s
  refine ⟨_, h m, hm.trans ?_⟩
  have hpi := pi_lt_d2
  have : uu φ * (4 / 5 * 2 ^ φ.p) ≤ uu φ * |s| := mul_le_mul_of_nonneg_left hs u0.le
  have e : uu φ * (4 / 5 * 2 ^ φ.p) = 4 / 5 := by rw [show uu φ * (4 / 5 * 2 ^ φ.p) = 4 / 5 * (uu φ * 2 ^ φ.p) by ring, hup]; ring
  have e2 : 4 * uu φ * (|s| + 5) = 4 * (uu φ * |s|) + 20 * uu φ := by ring
  rw [e2]; linarith

/-- `V` reaches from `α` to `β`. -/
structure Reach (V : Set ℝ) (α β : ℝ) : Prop where
  conn : V.OrdConnected
  lo : ∀ y, α < y → ∃ v ∈ V, v ≤ y
  hi : ∀ y, y < β → ∃ v ∈ V, y ≤ v

/-- What is known of the constants for pi. -/
structure IsPi (φ : Fmt) (a : FP) : Prop where
  three : 3 ≤ a.q
  near : |(a.q : ℝ) - π| ≤ 4 * uu φ

theorem isPi (m : Rnd) (hm : m = .D ∨ m = .U) : IsPi φ (φ.constPi m) := by
  obtain ⟨u0, -, hup, -⟩ := unit_facts φ
  obtain ⟨e, e0, e1, e2, e3⟩ := pi_near φ
  have he : e = 4 * uu φ := by
    have : (2:ℝ) ^ φ.p ≠ 0 := by positivity
    apply mul_right_cancel₀ this
    rw [e1, mul_assoc, hup, mul_one]
  have h1 := φ.pid_le
  have h2 := φ.le_piu
  rcases hm with rfl | rfl
  · exact ⟨φ.three_le_pid, by rw [← he]; exact abs_le.mpr ⟨by linarith, by linarith⟩⟩
  · exact ⟨φ.three_le_piu, by rw [← he]; exact abs_le.mpr ⟨by linarith, by linarith⟩⟩

theorem shift_near {k : ℤ} {a b cl cu : FP} (ha : IsPi φ a) (hb : IsPi φ b) (hk : ((|k| : ℤ) : ℚ) ≤ φ.maxFin)
    (hα : |α| ≤ π) (hβ : |β| ≤ π) (hdl : α - (2 * uu φ * |α| + uu φ) ≤ cl.q) (hdu : cu.q ≤ β + (2 * uu φ * |β| + uu φ))
    (hV : Reach V α β) (hS : ∀ v ∈ V, k * π + v ∈ S) (hfar : ∀ s, 4 / 5 * 2 ^ φ.p ≤ |s| → NearS φ S s)
    (h1 : (φ.shiftBox k a b cl cu).lo.toE ≤ (s:EReal)) (h2 : (s:EReal) ≤ (φ.shiftBox k a b cl cu).hi.toE) : NearS φ S s := by
  obtain ⟨u0, hu1, hup, hu, ht, hq⟩ := unit_facts φ
  rcases le_or_gt (4 / 5 * 2 ^ φ.p) |s| with hs | hs
  · exact hfar s hs
  have c1 := shift_lo_sharp (φ := φ) (k := k) (a := a) (b := b) (cl := cl) (cu := cu)
  have c2 := shift_hi_sharp (φ := φ) (k := k) (a := a) (b := b) (cl := cl) (cu := cu)
  rw [Rat.cast_add, Rat.cast_mul] at c1 c2
  obtain ⟨k1, k2, k3⟩ := core u0 hu hu1 hup ht hq (by exact_mod_cast ha.three) (by exact_mod_cast hb.three) ha.near hb.near
    hα hβ hdl hdu c1 c2 h1 h2 hs
  rcases mult_q hk with hr | hr
  · rw [hr] at k2 k3
    push_cast at k2 k3
    obtain ⟨v, hv, hd⟩ := pick hV.conn (s := s - k * π) (η := 4 * uu φ * (|s| + 5)) (by positivity)
      (hV.lo _ (by linarith)) (hV.hi _ (by linarith))
    refine ⟨_, hS v hv, ?_⟩
    rwa [show k * π + v - s = v - (s - k * π) by ring]
  · exact absurd hr (not_le.mpr k1)

theorem mirror_near {k : ℤ} {a b cl cu : FP} (ha : IsPi φ a) (hb : IsPi φ b) (hk : ((|k| : ℤ) : ℚ) ≤ φ.maxFin)
    (hα : |α| ≤ π) (hβ : |β| ≤ π) (hdl : α - (2 * uu φ * |α| + uu φ) ≤ cl.q) (hdu : cu.q ≤ β + (2 * uu φ * |β| + uu φ))
    (hV : Reach V α β) (hS : ∀ v ∈ V, -(k * π + v) ∈ S) (hfar : ∀ s, 4 / 5 * 2 ^ φ.p ≤ |s| → NearS φ S s)
    (h1 : (φ.mirrorBox k a b cl cu).lo.toE ≤ (s:EReal)) (h2 : (s:EReal) ≤ (φ.mirrorBox k a b cl cu).hi.toE) : NearS φ S s := by
  obtain ⟨u0, hu1, hup, hu, ht, hq⟩ := unit_facts φ
  rcases le_or_gt (4 / 5 * 2 ^ φ.p) |s| with hs | hs
  · exact hfar s hs
  have c1 := mirror_lo_sharp (φ := φ) (k := k) (a := a) (b := b) (cl := cl) (cu := cu)
  have c2 := mirror_hi_sharp (φ := φ) (k := k) (a := a) (b := b) (cl := cl) (cu := cu)
  rw [Rat.cast_add, Rat.cast_mul] at c1 c2
  rw [show -(((φ.round .N (k:ℚ)).q : ℝ) * a.q + cu.q) = -((φ.round .N (k:ℚ)).q : ℝ) * a.q + -cu.q by ring] at c1
  rw [show ((φ.round .N (k:ℚ)).q : ℝ) * b.q + cl.q = -(-((φ.round .N (k:ℚ)).q : ℝ) * b.q + -cl.q) by ring] at c2
  obtain ⟨k1, k2, k3⟩ := core (α := -β) (β := -α) u0 hu hu1 hup ht hq (by exact_mod_cast ha.three) (by exact_mod_cast hb.three)
    ha.near hb.near (by rwa [abs_neg]) (by rwa [abs_neg]) (by rw [abs_neg]; linarith) (by rw [abs_neg]; linarith) c1 c2 h1 h2 hs
  rw [abs_neg] at k1
  rcases mult_q hk with hr | hr
  · rw [hr] at k2 k3
    push_cast at k2 k3
    obtain ⟨v, hv, hd⟩ := pick hV.conn (s := -(s + k * π)) (η := 4 * uu φ * (|s| + 5)) (by positivity)
      (hV.lo _ (by linarith)) (hV.hi _ (by linarith))
    refine ⟨_, hS v hv, ?_⟩
    rwa [show -(k * π + v) - s = -(v - -(s + k * π)) by ring, abs_neg]
  · exact absurd hr (not_le.mpr k1)

/-- Each point of a box is near a solution. -/
def BoxNear (φ : Fmt) (box : ℤ → FP → FP → Itv) (S : Set ℝ) : Prop :=
  ∀ (k : ℤ) (a b : FP), ((|k| + 1 : ℤ) : ℚ) ≤ φ.maxFin → IsPi φ a → IsPi φ b →
    ∀ s : ℝ, (box k a b).lo.toE ≤ (s:EReal) → (s:EReal) ≤ (box k a b).hi.toE → NearS φ S s

theorem inter_within {b : Itv} (h1 : b.lo.In φ ∧ b.hi.In φ) (hx : x.NE φ) {Y : Set ℝ}
    (h : ∀ t : ℝ, b.lo.toE ≤ (t:EReal) → (t:EReal) ≤ b.hi.toE → t ∈ Y) : (b.inter x).set ⊆ Y := by
  by_cases hv : b.isValid = true
  · have ok := Itv.ok_iff_isValid.mpr ⟨hv, h1.1, h1.2⟩
    obtain ⟨i, j⟩ := Itv.inter_ok_set ok hx.ok
    rcases ok.cases with h | nb
    · rw [j, h]; simp
    · rw [j]
      rintro t ⟨ht1, ht2⟩
      exact h t (nb.mem.mp ht1).1 (nb.mem.mp ht1).2
  · have : b.inter x = Itv.empty := by simp [Itv.inter, hv]
    rw [this]; simp

theorem in_abs {a : FP} (h : a.In φ) : |a.q| ≤ φ.maxFin := by
  have h0 : 0 ≤ φ.maxFin := φ.maxFin_pos.le
  cases a with
  | fin q => exact Fmt.Rep.abs_le h
  | _ => simpa [FP.q] using h0

theorem quoLow_le (q : ℤ) : |quoLow q| ≤ |q| := by
  unfold quoLow
  have h1 : ((q.natAbs % 2 ^ 63 : ℕ) : ℤ) ≤ |q| := by
    rw [Int.abs_eq_natAbs]; exact_mod_cast Nat.mod_le _ _
  have h2 : (0:ℤ) ≤ ((q.natAbs % 2 ^ 63 : ℕ) : ℤ) := Int.natCast_nonneg _
  rw [abs_mul, abs_of_nonneg h2]
  have : |q.sign| ≤ 1 := by
    rcases lt_trichotomy q 0 with h | h | h
    · rw [Int.sign_eq_neg_one_of_neg h]; norm_num
    · subst h; simp
    · rw [Int.sign_eq_one_of_pos h]; norm_num
  nlinarith [abs_nonneg q.sign]

theorem quo_le {q y : ℚ} (hy : 3 ≤ y) : ((|quoLow (roundInt .N (q / y))| : ℤ) : ℚ) ≤ |q| / 3 + 1 := by
  have h := roundInt_N_half (q / y)
  have h1 : ((|quoLow (roundInt .N (q / y))| : ℤ) : ℚ) ≤ ((|roundInt .N (q / y)| : ℤ) : ℚ) := by exact_mod_cast quoLow_le _
  have h2 : ((|roundInt .N (q / y)| : ℤ) : ℚ) ≤ |q / y| + 1 / 2 := by
    rw [Int.cast_abs]
    calc |((roundInt .N (q / y) : ℤ) : ℚ)| = |(roundInt .N (q / y) - q / y) + q / y| := by ring_nf
      _ ≤ |(roundInt .N (q / y) : ℚ) - q / y| + |q / y| := abs_add_le _ _
      _ ≤ _ := by linarith
  have h3 : |q / y| ≤ |q| / 3 := by
    rw [abs_div, abs_of_pos (by linarith : 0 < y)]
    exact div_le_div_of_nonneg_left (abs_nonneg q) (by norm_num) hy
  linarith

/-- A number of periods found by `mpfr_remquo`. -/
def QuoSmall (quo : ℚ → ℚ → ℤ) : Prop := ∀ q y : ℚ, 3 ≤ y → ((|quo q y| : ℤ) : ℚ) ≤ |q| / 3 + 2

theorem abs_add_one_le (k : ℤ) : |k + 1| ≤ |k| + 1 ∧ |k - 1| ≤ |k| + 1 := by
  constructor
  · simpa using abs_add_le k 1
  · simpa using abs_sub k 1

theorem floor_small : QuoSmall floorQuo := by
  intro q y hy
  have h := quo_le (q := q) hy
  unfold floorQuo
  simp only
  split_ifs
  · have : ((|quoLow (roundInt .N (q / y)) - 1| : ℤ) : ℚ) ≤ ((|quoLow (roundInt .N (q / y))| + 1 : ℤ) : ℚ) := by
      exact_mod_cast (abs_add_one_le _).2
    push_cast at this h ⊢; linarith
  · linarith

theorem ceil_small : QuoSmall ceilQuo := by
  intro q y hy
  have h := quo_le (q := q) hy
  unfold ceilQuo
  simp only
  split_ifs
  · have : ((|quoLow (roundInt .N (q / y)) + 1| : ℤ) : ℚ) ≤ ((|quoLow (roundInt .N (q / y))| + 1 : ℤ) : ℚ) := by
      exact_mod_cast (abs_add_one_le _).1
    push_cast at this h ⊢; linarith
  · linarith

theorem maxFin_256 (φ : Fmt) : 256 ≤ φ.maxFin := by
  have h := φ.four_le_maxFin
  have : (2:ℚ) ^ 8 ≤ 2 ^ φ.p := pow_le_pow_right₀ (by norm_num) φ.p_pos
  linarith

theorem mult_small {quo : ℚ → ℚ → ℤ} (hq : QuoSmall quo) {q y : ℚ} (hy : 3 ≤ y) (h : |q| ≤ φ.maxFin) :
    ((|quo q y| + 1 : ℤ) : ℚ) ≤ φ.maxFin ∧ ((|quo q y + 1| + 1 : ℤ) : ℚ) ≤ φ.maxFin ∧ ((|quo q y - 1| + 1 : ℤ) : ℚ) ≤ φ.maxFin := by
  have h1 := hq q y hy
  have h2 := maxFin_256 φ
  have h3 : ((|quo q y + 1| : ℤ) : ℚ) ≤ ((|quo q y| + 1 : ℤ) : ℚ) := by exact_mod_cast (abs_add_one_le _).1
  have h4 : ((|quo q y - 1| : ℤ) : ℚ) ≤ ((|quo q y| + 1 : ℤ) : ℚ) := by exact_mod_cast (abs_add_one_le _).2
  push_cast at h1 h3 h4 ⊢
  exact ⟨by linarith, by linarith, by linarith⟩

theorem far_max {s : ℝ} (h : (φ.maxFin : ℝ) ≤ |s|) : 4 / 5 * (2:ℝ) ^ φ.p ≤ |s| := by
  have : ((2:ℝ) ^ φ.p) ≤ φ.maxFin := by exact_mod_cast φ.four_le_maxFin
  have : (0:ℝ) < 2 ^ φ.p := by positivity
  linarith

section
variable {box : ℤ → FP → FP → Itv}

theorem left_all (hb : BoxIn φ box) (hN : BoxNear φ box S) (hfar : ∀ s, 4 / 5 * 2 ^ φ.p ≤ |s| → NearS φ S s) (hx : x.NE φ) :
    ∀ t ∈ (φ.leftBox box x).set, NearS φ S t := by
  have pD := isPi (φ := φ) .D (Or.inl rfl)
  have pU := isPi (φ := φ) .U (Or.inr rfl)
  have hq := in_abs hx.lo_in
  unfold Fmt.leftBox
  split_ifs with h0 h1
  · have nL : Itv.NE φ ⟨.ninf, .fin (-φ.maxFin)⟩ :=
      ⟨by simp, by simp, by simp, by simp, by simp, trivial, φ.rep_maxFin.neg⟩
    intro t ht
    have := (nL.mem.mp ht).2
    simp only [FP.toE] at this
    have := EReal.coe_le_coe_iff.mp this
    push_cast at this
    exact hfar t (far_max ((by linarith : (φ.maxFin : ℝ) ≤ -t).trans (neg_le_abs t)))
  · obtain ⟨m1, m2, -⟩ := mult_small floor_small pD.three hq
    exact firstOf_sub (Y := {t | NearS φ S t}) (inter_within (hb _ _ _) hx (hN _ _ _ m1 pU pD))
      (inter_within (hb _ _ _) hx (hN _ _ _ m2 pU pD))
  · obtain ⟨m1, m2, -⟩ := mult_small floor_small pU.three hq
    exact firstOf_sub (Y := {t | NearS φ S t}) (inter_within (hb _ _ _) hx (hN _ _ _ m1 pD pU))
      (inter_within (hb _ _ _) hx (hN _ _ _ m2 pD pU))

theorem right_all {quo : ℚ → ℚ → ℤ} (hquo : QuoSmall quo) (hb : BoxIn φ box) (hN : BoxNear φ box S)
    (hfar : ∀ s, 4 / 5 * 2 ^ φ.p ≤ |s| → NearS φ S s) (hx : x.NE φ) :
    ∀ t ∈ (φ.rightBox quo box x).set, NearS φ S t := by
  have pD := isPi (φ := φ) .D (Or.inl rfl)
  have pU := isPi (φ := φ) .U (Or.inr rfl)
  have hq := in_abs hx.hi_in
  unfold Fmt.rightBox
  split_ifs with h0 h1
  · have nR : Itv.NE φ ⟨.fin φ.maxFin, .pinf⟩ :=
      ⟨by simp, by simp, by simp, by simp, by simp, φ.rep_maxFin, trivial⟩
    intro t ht
    have := (nR.mem.mp ht).1
    simp only [FP.toE] at this
    have := EReal.coe_le_coe_iff.mp this
    exact hfar t (far_max (this.trans (le_abs_self t)))
  · obtain ⟨m1, -, m2⟩ := mult_small hquo pD.three hq
    exact firstOf_sub (Y := {t | NearS φ S t}) (inter_within (hb _ _ _) hx (hN _ _ _ m1 pD pU))
      (inter_within (hb _ _ _) hx (hN _ _ _ m2 pD pU))
  · obtain ⟨m1, -, m2⟩ := mult_small hquo pU.three hq
    exact firstOf_sub (Y := {t | NearS φ S t}) (inter_within (hb _ _ _) hx (hN _ _ _ m1 pU pD))
      (inter_within (hb _ _ _) hx (hN _ _ _ m2 pU pD))

theorem least_lo {X : Itv} (n : X.NE φ) {e : ℝ} (h : IsLeast X.set e) : X.lo.toE = (e:EReal) := by
  refine le_antisymm (n.mem.mp h.1).1 (le_of_not_gt fun hc => ?_)
  obtain ⟨r, h1, h2⟩ := EReal.lt_iff_exists_real_btwn.mp hc
  have := h.2 (n.mem.mpr ⟨h1.le, h2.le.trans (n.mem.mp h.1).2⟩)
  exact absurd (EReal.coe_lt_coe_iff.mp h2) (not_lt.mpr this)

theorem greatest_hi {X : Itv} (n : X.NE φ) {e : ℝ} (h : IsGreatest X.set e) : X.hi.toE = (e:EReal) := by
  refine le_antisymm (le_of_not_gt fun hc => ?_) (n.mem.mp h.1).2
  obtain ⟨r, h1, h2⟩ := EReal.lt_iff_exists_real_btwn.mp hc
  have := h.2 (n.mem.mpr ⟨(n.mem.mp h.1).1.trans h1.le, h2.le⟩)
  exact absurd (EReal.coe_lt_coe_iff.mp h1) (not_lt.mpr this)

/-- The least (greatest) element of a hull is one of its parts. -/
theorem hull_end {L R : Itv} (hL : L.Ok φ) (hR : R.Ok φ) {e : ℝ} (h : IsLeast (L.hull R).set e ∨ IsGreatest (L.hull R).set e) :
    e ∈ L.set ∪ R.set := by
  rcases hL.cases with rfl | nL
  · have : Itv.empty.hull R = R := by simp [Itv.hull, hR.isValid]
    rw [this] at h
    exact Or.inr (h.elim (fun h => h.1) (fun h => h.1))
  rcases hR.cases with rfl | nR
  · have : L.hull Itv.empty = L := by simp [Itv.hull, hL.isValid, nL.isEmpty]
    rw [this] at h
    exact Or.inl (h.elim (fun h => h.1) (fun h => h.1))
  obtain ⟨n, e1, e2⟩ := Itv.hull_NE nL nR
  rw [Itv.hull_eq nL nR] at h
  rcases h with h | h
  · have h1 := least_lo n h
    rw [e1] at h1
    rcases min_choice L.lo.toE R.lo.toE with h2 | h2
    · rw [h2] at h1; exact Or.inl (nL.mem.mpr ⟨h1.le, h1 ▸ nL.le⟩)
    · rw [h2] at h1; exact Or.inr (nR.mem.mpr ⟨h1.le, h1 ▸ nR.le⟩)
  · have h1 := greatest_hi n h
    rw [e2] at h1
    rcases max_choice L.hi.toE R.hi.toE with h2 | h2
    · rw [h2] at h1; exact Or.inl (nL.mem.mpr ⟨h1 ▸ nL.le, h1.ge⟩)
    · rw [h2] at h1; exact Or.inr (nR.mem.mpr ⟨h1 ▸ nR.le, h1.ge⟩)

/-- Each end of the hull of the two boxes is near a solution. -/
theorem hull_near {quo : ℚ → ℚ → ℤ} (hquo : QuoSmall quo) (hb : BoxIn φ box) (hN : BoxNear φ box S)
    (hfar : ∀ s, 4 / 5 * 2 ^ φ.p ≤ |s| → NearS φ S s) (hx : x.NE φ) {e : ℝ}
    (h : IsLeast ((φ.leftBox box x).hull (φ.rightBox quo box x)).set e ∨
      IsGreatest ((φ.leftBox box x).hull (φ.rightBox quo box x)).set e) : NearS φ S e :=
  (hull_end (leftBox_any hb hx).1 (rightBox_any hb hx).1 h).elim (left_all hb hN hfar hx e) (right_all hquo hb hN hfar hx e)
end

end P1788
