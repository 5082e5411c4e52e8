import Verif.Model.Trig
import Verif.Lemmas.Trig
import Verif.Lemmas.Atan2b
import Verif.Props.C13
import Mathlib.Analysis.Real.Pi.Irrational
import Mathlib.Analysis.Real.Pi.Bounds

/-! # C10: sine and cosine -/

namespace P1788
open Filter Topology Trig
variable {φ : Fmt} {x : Itv}

/-- Numbers just below one round up to one. -/
theorem ru_near_one {v : ℝ} (h : 1 - (2:ℝ) ^ (-(φ.p:ℤ)) < v) (h1 : v ≤ 1) : φ.ruE v = 1 := by
  refine le_antisymm ?_ ?_
  · have := (φ.ruE_le_iff (f := .fin 1) (rep_one φ) v (by simp)).mpr (by rw [toE_one]; exact_mod_cast h1)
    rwa [toE_one] at this
  · by_contra hc
    have hlt : φ.ruE v < 1 := not_le.mp hc
    rw [φ.ruE_coe] at hlt
    have hge : (v:EReal) ≤ (φ.round .U v).toE := by rw [← φ.ruE_coe]; exact φ.le_ruE v
    have hin := φ.round_in .U v
    have hp := φ.p_pos
    have h2 : (2:ℝ) ^ (-(φ.p:ℤ)) ≤ 2 ^ (-1:ℤ) := zpow_le_zpow_right₀ (by norm_num) (by omega)
    have hv : (0:ℝ) < v := by rw [zpow_neg_one] at h2; linarith
    cases hf : φ.round .U v with
    | nan => exact φ.round_ne_nan _ _ hf
    | ninf => rw [hf] at hge; simp at hge
    | pinf => rw [hf, FP.toE_pinf] at hlt; exact absurd hlt (not_lt.mpr le_top)
    | nzero => rw [hf, FP.toE_nzero] at hge; exact absurd hge (not_le.mpr (by exact_mod_cast hv))
    | fin q =>
      rw [hf, FP.toE_fin] at hge hlt
      rw [hf] at hin
      have hq1 : (q:ℝ) < 1 := by exact_mod_cast hlt
      have hqv : v ≤ (q:ℝ) := by exact_mod_cast hge
      obtain ⟨m, e, rfl, hm, he, hx⟩ := hin
      push_cast at hq1 hqv
      have hm0 : (0:ℝ) < m := by
        by_contra hc
        have := mul_nonpos_of_nonpos_of_nonneg (not_lt.mp hc) (two_zpow_posR e).le
        linarith
      have hm' : (m:ℝ) ≤ 2 ^ φ.p - 1 := by
        have : m ≤ 2 ^ φ.p - 1 := by have := (abs_lt.mp hm).2; omega
        exact_mod_cast this
      rcases le_or_gt e (-(φ.p:ℤ)) with g | g
      · have : (2:ℝ) ^ e ≤ 2 ^ (-(φ.p:ℤ)) := zpow_le_zpow_right₀ (by norm_num) g
        have e2 : (2:ℝ) ^ φ.p * 2 ^ (-(φ.p:ℤ)) = 1 := by rw [zpow_neg, zpow_natCast]; field_simp
        have : (m:ℝ) * 2 ^ e ≤ (2 ^ φ.p - 1) * 2 ^ (-(φ.p:ℤ)) :=
          mul_le_mul hm' this (two_zpow_posR e).le (by linarith)
        linarith [sub_mul ((2:ℝ) ^ φ.p) 1 (2 ^ (-(φ.p:ℤ)))]
      · rcases le_or_gt 0 e with g0 | g0
        · have : (1:ℝ) ≤ 2 ^ e := one_le_zpow₀ (by norm_num) g0
          have hm1 : (1:ℝ) ≤ m := by exact_mod_cast (by exact_mod_cast hm0 : 0 < m)
          nlinarith
        · obtain ⟨k, rfl⟩ : ∃ k : ℕ, e = -(k:ℤ) := ⟨e.natAbs, by omega⟩
          have hkp : (2:ℝ) ^ (-(φ.p:ℤ)) ≤ 2 ^ (-(k:ℤ)) := zpow_le_zpow_right₀ (by norm_num) g.le
          have e2 : (2:ℝ) ^ k * 2 ^ (-(k:ℤ)) = 1 := by rw [zpow_neg, zpow_natCast]; field_simp
          have hpos := two_zpow_posR (-(k:ℤ))
          have hmk : (m:ℝ) < 2 ^ k := by
            by_contra hc
            have := mul_le_mul_of_nonneg_right (not_lt.mp hc) hpos.le
            linarith
          have hmk : m < 2 ^ k := by exact_mod_cast hmk
          have hmk : (m:ℝ) ≤ 2 ^ k - 1 := by
            have : m ≤ 2 ^ k - 1 := by omega
            exact_mod_cast this
          have := mul_le_mul_of_nonneg_right hmk hpos.le
          rw [sub_mul, e2, one_mul] at this
          linarith

/-- The rounded-down `π`. -/
theorem pi_gap (φ : Fmt) : ∃ ϖ : ℝ, (φ.constPi .D).toE = (ϖ:EReal) ∧ 0 < Real.pi - ϖ ∧ 3 ≤ ϖ ∧
    Real.pi - ϖ ≤ 2 ^ (2 - (φ.p:ℤ)) ∧ φ.constPi .D ≠ .nan ∧ ∃ q : ℚ, φ.constPi .D = .fin q ∧ (q:ℝ) = ϖ := by
  have hin := φ.round_in .D Real.pi
  have hn := φ.round_ne_nan .D Real.pi
  have hp := φ.p_pos
  have hq := φ.qmin_le
  have hem := φ.emax_ge
  have hle : (φ.constPi .D).toE ≤ Real.pi := by unfold Fmt.constPi; rw [← φ.rdE_coe]; exact φ.rdE_le _
  -- a lower bound
  have key : ∀ k : ℤ, |k| < 2 ^ φ.p → (k:ℝ) * 2 ^ (2 - (φ.p:ℤ)) ≤ Real.pi →
      (((k:ℝ) * 2 ^ (2 - (φ.p:ℤ)) : ℝ) : EReal) ≤ (φ.constPi .D).toE := by
    intro k hk h
    have hr : φ.Rep (k * 2 ^ (2 - (φ.p:ℤ))) := ⟨k, _, rfl, hk, by omega, by omega⟩
    have := (φ.le_rdE_iff (f := .fin (k * 2 ^ (2 - (φ.p:ℤ)))) hr Real.pi (by simp)).mpr (by
      rw [FP.toE_fin]; push_cast; exact_mod_cast h)
    rw [FP.toE_fin, φ.rdE_coe] at this
    push_cast at this
    exact this
  have hpos := two_zpow_posR (2 - (φ.p:ℤ))
  have e4 : (2:ℝ) ^ φ.p * 2 ^ (2 - (φ.p:ℤ)) = 4 := by
    rw [zpow_sub₀ (by norm_num), zpow_natCast]; field_simp; norm_num
  set k := ⌊Real.pi / 2 ^ (2 - (φ.p:ℤ))⌋ with hkdef
  have hk1 : (k:ℝ) * 2 ^ (2 - (φ.p:ℤ)) ≤ Real.pi := by
    have := Int.floor_le (Real.pi / 2 ^ (2 - (φ.p:ℤ)))
    rwa [le_div_iff₀ hpos] at this
  have hk2 : Real.pi < (k + 1) * 2 ^ (2 - (φ.p:ℤ)) := by
    have := Int.lt_floor_add_one (Real.pi / 2 ^ (2 - (φ.p:ℤ)))
    rwa [div_lt_iff₀ hpos] at this
  have hk0 : 0 ≤ k := Int.floor_nonneg.mpr (by have := Real.pi_pos; positivity)
  have hkp : |k| < 2 ^ φ.p := by
    rw [abs_of_nonneg hk0]
    have : (k:ℝ) < 2 ^ φ.p := by
      by_contra hc
      have h1 := mul_le_mul_of_nonneg_right (not_lt.mp hc) hpos.le
      rw [e4] at h1
      linarith [Real.pi_lt_four]
    exact_mod_cast this
  have l1 := key k hkp hk1
  have l2 : ((3:ℝ):EReal) ≤ (φ.constPi .D).toE := by
    have h3 : (3:ℝ) = ((3 * 2 ^ (φ.p - 2) : ℤ) : ℝ) * 2 ^ (2 - (φ.p:ℤ)) := by
      push_cast
      rw [zpow_sub₀ (by norm_num), zpow_natCast, show φ.p = φ.p - 2 + 2 by omega, pow_add]
      simp; field_simp
    rw [h3]
    refine key _ ?_ ?_
    · rw [abs_of_pos (by positivity), show φ.p = φ.p - 2 + 2 by omega, pow_add, show φ.p - 2 + 2 - 2 = φ.p - 2 by omega]
      have : (0:ℤ) < 2 ^ (φ.p - 2) := by positivity
      linarith
    · rw [← h3]; exact Real.pi_gt_three.le
  unfold Fmt.constPi at *
  cases hf : φ.round .D Real.pi with
  | nan => exact absurd hf hn
  | ninf => rw [hf] at l2; simp at l2
  | pinf => rw [hf] at hle; simp at hle
  | nzero => rw [hf, FP.toE_nzero] at l2; exact absurd (by exact_mod_cast l2 : (3:ℝ) ≤ 0) (by norm_num)
  | fin q =>
    rw [hf, FP.toE_fin] at hle l1 l2
    have hle : (q:ℝ) ≤ Real.pi := by exact_mod_cast hle
    have l1 : (k:ℝ) * 2 ^ (2 - (φ.p:ℤ)) ≤ q := by exact_mod_cast l1
    have l2 : (3:ℝ) ≤ q := by exact_mod_cast l2
    have hne : (q:ℝ) ≠ Real.pi := fun h => irrational_pi ⟨q, h⟩
    refine ⟨q, by simp, by linarith [lt_of_le_of_ne hle hne], l2, ?_, by simp, q, rfl, rfl⟩
    linarith [add_mul (k:ℝ) 1 (2 ^ (2 - (φ.p:ℤ)))]

/-- An MPFR function at a finite argument. -/
theorem un_spec (φ : Fmt) (m : Rnd) (hm : m ≠ .N) (f : ℝ → ℝ) (vn vp : FP) {a : FP} {r : ℝ} (h : a.toE = (r:EReal)) (hn : a ≠ .nan) :
    (φ.un m f vn vp a).toE = φ.rndE m (f r) ∧ φ.un m f vn vp a ≠ .nan ∧ (φ.un m f vn vp a).In φ := by
  cases a with
  | nan => exact absurd rfl hn
  | ninf => simp at h
  | pinf => simp at h
  | nzero =>
    have : r = 0 := by rw [FP.toE_nzero] at h; exact_mod_cast h.symm
    subst this
    unfold Fmt.un
    simp only
    split_ifs with h0
    · rw [h0]; simp [FP.In]
    · rw [φ.rndE_coe]; exact ⟨rfl, φ.round_ne_nan _ _, φ.round_in _ _⟩
  | fin q =>
    have : r = q := by rw [FP.toE_fin] at h; exact_mod_cast h.symm
    subst this
    unfold Fmt.un
    rw [φ.rndE_coe]; exact ⟨rfl, φ.round_ne_nan _ _, φ.round_in _ _⟩

/-- What the sign of a rounded value says about the exact value. -/
def SG (φ : Fmt) (s : ℤ) (y : ℝ) : Prop :=
  (s = 1 ∧ 0 < y) ∨ (s = -1 ∧ y < 0) ∨ (s = 0 ∧ |y| < 2 ^ φ.qmin)

theorem rep_qmin (φ : Fmt) : φ.Rep (2 ^ φ.qmin) :=
  ⟨1, φ.qmin, by push_cast; ring, by
    have := φ.p_pos
    rw [abs_one]
    exact one_lt_pow₀ (by norm_num) (by omega), le_rfl, φ.range⟩

theorem sgn_spec {m : Rnd} (hm : m ≠ .N) {v : FP} {y : ℝ} (h : v.toE = φ.rndE m y) (hn : v ≠ .nan) : SG φ v.sgn y := by
  have q1 := rep_qmin φ
  have q2 : ((FP.fin (2 ^ φ.qmin)).toE) = (((2:ℝ) ^ φ.qmin : ℝ):EReal) := by rw [FP.toE_fin]; push_cast; rfl
  have q3 : ((FP.fin (-2 ^ φ.qmin)).toE) = ((-(2:ℝ) ^ φ.qmin : ℝ):EReal) := by rw [FP.toE_fin]; push_cast; rfl
  have hpos := two_zpow_posR φ.qmin
  unfold FP.sgn SG
  have z : (FP.fin 0).In φ := φ.rep_zero
  -- comparison facts for both directed roundings
  have f1 : ∀ f : FP, f.In φ → f ≠ .nan → (f.toE ≤ (y:EReal) → f.toE ≤ v.toE) ∧ ((y:EReal) ≤ f.toE → v.toE ≤ f.toE) := by
    intro f hf hfn
    rw [h]
    cases m with
    | N => exact absurd rfl hm
    | D => exact ⟨(φ.le_rdE_iff hf y hfn).mpr, fun h => (φ.rdE_le y).trans h⟩
    | U => exact ⟨fun h => h.trans (φ.le_ruE y), (φ.ruE_le_iff hf y hfn).mpr⟩
  by_cases h1 : .fin 0 < v
  · rw [if_pos h1]
    left
    refine ⟨rfl, ?_⟩
    by_contra hc
    have := (f1 (.fin 0) z (by simp)).2 (by simpa using hc)
    rw [NE.gt0_iff hn] at h1
    simp at this
    exact absurd this (not_le.mpr h1)
  rw [if_neg h1]
  by_cases h2 : v < .fin 0
  · rw [if_pos h2]
    right; left
    refine ⟨rfl, ?_⟩
    by_contra hc
    have := (f1 (.fin 0) z (by simp)).1 (by simpa using hc)
    rw [NE.lt0_iff hn] at h2
    simp at this
    exact absurd this (not_le.mpr h2)
  rw [if_neg h2]
  right; right
  refine ⟨rfl, ?_⟩
  rw [NE.gt0_iff hn, not_lt] at h1
  rw [NE.lt0_iff hn, not_lt] at h2
  have hv : v.toE = 0 := le_antisymm h1 h2
  rw [abs_lt]
  constructor
  · by_contra hc
    have := (f1 (.fin (-2 ^ φ.qmin)) q1.neg (by simp)).2 (by rw [q3]; exact_mod_cast not_lt.mp hc)
    rw [q3, hv] at this
    have : (0:ℝ) ≤ -2 ^ φ.qmin := by exact_mod_cast this
    linarith
  · by_contra hc
    have := (f1 (.fin (2 ^ φ.qmin)) q1 (by simp)).1 (by rw [q2]; exact_mod_cast not_lt.mp hc)
    rw [q2, hv] at this
    have : (2:ℝ) ^ φ.qmin ≤ 0 := by exact_mod_cast this
    linarith

/-- The distance below which values next to a maximum round up to one. -/
noncomputable def rho (φ : Fmt) : ℝ := 2 ^ (3 - (φ.p:ℤ))

theorem near_one {t : ℝ} (h : Nr (rho φ) t) : φ.ruE (Real.sin t) = 1 := by
  refine ru_near_one (lt_of_lt_of_le ?_ (sin_of_nr h)) (Real.sin_le_one t)
  have hp := φ.p_pos
  have e : (rho φ) ^ 2 / 2 = 2 ^ (5 - 2 * (φ.p:ℤ)) := by
    unfold rho
    rw [← zpow_natCast, ← zpow_mul, show 5 - 2 * (φ.p:ℤ) = (3 - (φ.p:ℤ)) * (2:ℕ) - 1 by push_cast; ring,
      zpow_sub_one₀ (by norm_num)]
    rfl
  have : (2:ℝ) ^ (5 - 2 * (φ.p:ℤ)) < 2 ^ (-(φ.p:ℤ)) := zpow_lt_zpow_right₀ (by norm_num) (by omega)
  rw [e]; linarith

section
variable {f : ℝ → ℝ} {c a b : ℝ} (hf : ∀ t, f t = Real.sin (t + c)) (hx : x.NE φ)
  (ha : x.lo.toE = (a:EReal)) (hb : x.hi.toE = (b:EReal))
include hf hx ha hb

theorem upp_max_ends (h : ¬ HasMax (a + c) (b + c)) {u : FP} (hn : u ≠ .nan) (hi : u.In φ)
    (hu : u.toE = max (φ.ruE (f a)) (φ.ruE (f b))) : Upp φ f x.set u := by
  have hle : ∀ t ∈ x.set, f t ≤ max (f a) (f b) := fun t ht => by
    have := hx.mem.mp ht
    rw [ha, hb] at this
    have h1 : a ≤ t := by exact_mod_cast this.1
    have h2 : t ≤ b := by exact_mod_cast this.2
    rw [hf, hf, hf]
    exact sin_le_ends h (by linarith) (by linarith)
  rcases le_total (f a) (f b) with g | g
  · refine Upp.attained (q := b) (hx.hi_mem hb) (fun p hp => by simpa [g] using hle p hp) ?_ hn hi
    rw [hu, max_eq_right (φ.ruE_mono (by exact_mod_cast g))]
  · refine Upp.attained (q := a) (hx.lo_mem ha) (fun p hp => by simpa [g] using hle p hp) ?_ hn hi
    rw [hu, max_eq_left (φ.ruE_mono (by exact_mod_cast g))]

theorem upp_has (h : HasMax (a + c) (b + c)) {u : FP} (hn : u ≠ .nan) (hi : u.In φ)
    (hu : u.toE = 1) : Upp φ f x.set u := by
  obtain ⟨n, h1, h2⟩ := h
  refine Upp.attained (q := Real.pi / 2 + n * (2 * Real.pi) - c) (hx.mem.mpr ⟨?_, ?_⟩) (fun p _ => ?_) ?_ hn hi
  · rw [ha]; exact_mod_cast (by linarith)
  · rw [hb]; exact_mod_cast (by linarith)
  · rw [hf, hf, sub_add_cancel, sin_max_pt]; exact Real.sin_le_one _
  · rw [hf, sub_add_cancel, sin_max_pt, hu]
    have := φ.ruE_of_in (f := .fin 1) (rep_one φ) (by simp)
    rw [toE_one] at this
    exact this.symm

theorem upp_one (h : HasMax (a + c) (b + c) ∨ Nr (rho φ) (a + c) ∨ Nr (rho φ) (b + c)) {u : FP} (hn : u ≠ .nan) (hi : u.In φ)
    (hu : u.toE = 1) : Upp φ f x.set u := by
  by_cases hM : HasMax (a + c) (b + c)
  · exact upp_has hf hx ha hb hM hn hi hu
  refine upp_max_ends hf hx ha hb hM hn hi ?_
  have hle : ∀ t, φ.ruE (f t) ≤ 1 := fun t => by
    have := (φ.ruE_le_iff (f := .fin 1) (rep_one φ) (f t) (by simp)).mpr (by
      rw [toE_one, hf]; exact_mod_cast Real.sin_le_one _)
    rwa [toE_one] at this
  rcases h with h | h | h
  · exact absurd h hM
  · rw [hu, hf a, near_one h, max_eq_left (hle b)]
  · rw [hu, hf b, near_one h, max_eq_right (hle a)]

theorem upp_ends (h : ¬ HasMax (a + c) (b + c) ∨ Nr (rho φ) (a + c) ∨ Nr (rho φ) (b + c)) {u : FP} (hn : u ≠ .nan) (hi : u.In φ)
    (hu : u.toE = max (φ.ruE (f a)) (φ.ruE (f b))) : Upp φ f x.set u := by
  by_cases hM : HasMax (a + c) (b + c)
  · refine upp_has hf hx ha hb hM hn hi ?_
    have hle : ∀ t, φ.ruE (f t) ≤ 1 := fun t => by
      have := (φ.ruE_le_iff (f := .fin 1) (rep_one φ) (f t) (by simp)).mpr (by
        rw [toE_one, hf]; exact_mod_cast Real.sin_le_one _)
      rwa [toE_one] at this
    rcases h with h | h | h
    · exact absurd hM h
    · rw [hu, hf a, near_one h, max_eq_left (hle b)]
    · rw [hu, hf b, near_one h, max_eq_right (hle a)]
  · exact upp_max_ends hf hx ha hb hM hn hi hu

end

/-- Lower bounds by reflection. -/
theorem low_of_upp {α : Type*} {f : α → ℝ} {D : Set α} (hD : D.Nonempty) {l : FP} (h : Upp φ (fun t => - f t) D l.neg) : Low φ f D l := by
  obtain ⟨L, hL, hl⟩ := h.ex
  refine ⟨hD, ⟨-L, ?_, ?_⟩, fun e => h.nn (FP.neg_eq_nan.mpr e), ?_⟩
  · constructor
    · rintro _ ⟨_, ⟨t, ht, rfl⟩, rfl⟩
      have := hL.1 ⟨_, ⟨t, ht, rfl⟩, rfl⟩
      rw [EReal.neg_le]
      simpa using this
    · intro b hb
      rw [EReal.le_neg]
      refine hL.2 ?_
      rintro _ ⟨_, ⟨t, ht, rfl⟩, rfl⟩
      have := hb ⟨_, ⟨t, ht, rfl⟩, rfl⟩
      simpa using EReal.neg_le_neg_iff.mpr this
  · rw [φ.rdE_neg, ← hl, FP.toE_neg, neg_neg]
  · have := FP.neg_in h.inφ
    cases l with
    | fin q =>
      by_cases hq : q = 0
      · subst hq; exact φ.rep_zero
      · simp [FP.neg, hq] at this; exact this
    | _ => trivial

theorem eta_le (φ : Fmt) {δ : ℝ} (h : δ ≤ 2 ^ (2 - (φ.p:ℤ))) :
    2 * δ ≤ rho φ ∧ δ + 2 * 2 ^ φ.qmin ≤ rho φ := by
  have hp := φ.p_pos
  have hq := φ.qmin_le
  have e : rho φ = 2 * 2 ^ (2 - (φ.p:ℤ)) := by
    unfold rho
    rw [← zpow_one_add₀ (by norm_num)]; congr 1; ring
  have : 2 * (2:ℝ) ^ φ.qmin ≤ 2 ^ (2 - (φ.p:ℤ)) := by
    rw [← zpow_one_add₀ (by norm_num)]
    exact zpow_le_zpow_right₀ (by norm_num) (by omega)
  constructor <;> linarith

/-- The upper bound returned for a finite interval, given the signs of the derivative. -/
theorem trig_upp {f : ℝ → ℝ} {c a b ϖ : ℝ} {dl du : ℤ} {h : FP} (hf : ∀ t, f t = Real.sin (t + c)) (hx : x.NE φ)
    (ha : x.lo.toE = (a:EReal)) (hb : x.hi.toE = (b:EReal)) (hϖ0 : 0 < Real.pi - ϖ) (hϖ : Real.pi - ϖ ≤ 2 ^ (2 - (φ.p:ℤ)))
    (sl : SG φ dl (Real.cos (a + c))) (su : SG φ du (Real.cos (b + c))) (hn : h ≠ .nan) (hi : h.In φ)
    (hu : h.toE = max (φ.ruE (f a)) (φ.ruE (f b))) :
    Upp φ f x.set (if dl ≠ du then
      if dl = 0 then (if ϖ < b - a then .fin 1 else h)
      else if du = 0 then (if ϖ < b - a then .fin 1 else h)
      else if 2 * ϖ < b - a then .fin 1
      else if 0 < dl then .fin 1 else h
    else if ϖ < b - a then .fin 1 else h) := by
  obtain ⟨k1, k2⟩ := eta_le φ hϖ
  have hη := two_zpow_posR φ.qmin
  have hab : a + c ≤ b + c := by
    have := hx.le; rw [ha, hb] at this
    have : a ≤ b := by exact_mod_cast this
    linarith
  have i1 : (FP.fin 1).In φ := rep_one φ
  have e1 : Real.pi - (Real.pi - ϖ) = ϖ := by ring
  have e2 : b + c - (a + c) = b - a := by ring
  have O : Trig.One (Real.pi - ϖ) (2 ^ φ.qmin) (a + c) (b + c) → Upp φ f x.set (.fin 1) := fun h =>
    upp_one hf hx ha hb (one_main hϖ0 k1 k2 hη hab h) (by simp) i1 toE_one
  have E : Ends (Real.pi - ϖ) (2 ^ φ.qmin) (a + c) (b + c) → Upp φ f x.set h := fun h =>
    upp_ends hf hx ha hb (ends_main hϖ0 k2 hη h) hn hi hu
  have OR : |Real.cos (b + c)| < 2 ^ φ.qmin → ϖ < b - a → Upp φ f x.set (.fin 1) := fun h hw =>
    upp_one hf hx ha hb (one_right hϖ0 k1 k2 hη hab h (by rw [e1, e2]; exact hw)) (by simp) i1 toE_one
  have ER : |Real.cos (b + c)| < 2 ^ φ.qmin → b - a ≤ ϖ → Upp φ f x.set h := fun h hw =>
    upp_ends hf hx ha hb (ends_right hϖ0 k2 hη h (by rw [e1, e2]; exact hw)) hn hi hu
  unfold Trig.One at O
  unfold Trig.Ends at E
  rw [e1, e2] at O E
  rcases sl with ⟨rfl, sl⟩ | ⟨rfl, sl⟩ | ⟨rfl, sl⟩
  · rcases su with ⟨rfl, su⟩ | ⟨rfl, su⟩ | ⟨rfl, su⟩
    · simp only [ne_eq, not_true, if_false]
      split_ifs with w
      · exact O (by grind)
      · exact E (by grind)
    · simp only [show (1:ℤ) ≠ -1 by decide, ne_eq, not_false_iff, if_true, show (1:ℤ) ≠ 0 by decide,
        show (-1:ℤ) ≠ 0 by decide, if_false, show (0:ℤ) < 1 by decide, ite_self]
      exact O (by grind)
    · simp only [show (1:ℤ) ≠ 0 by decide, ne_eq, not_false_iff, if_true, if_false]
      split_ifs with w
      · exact OR su w
      · exact ER su (not_lt.mp w)
  · rcases su with ⟨rfl, su⟩ | ⟨rfl, su⟩ | ⟨rfl, su⟩
    · simp only [show (-1:ℤ) ≠ 1 by decide, ne_eq, not_false_iff, if_true, show (1:ℤ) ≠ 0 by decide,
        show (-1:ℤ) ≠ 0 by decide, if_false, show ¬ (0:ℤ) < -1 by decide]
      split_ifs with w
      · exact O (by grind)
      · exact E (by grind)
    · simp only [ne_eq, not_true, if_false]
      split_ifs with w
      · exact O (by grind)
      · exact E (by grind)
    · simp only [show (-1:ℤ) ≠ 0 by decide, ne_eq, not_false_iff, if_true, if_false]
      split_ifs with w
      · exact OR su w
      · exact ER su (not_lt.mp w)
  · by_cases hd : (0:ℤ) = du
    · rw [if_neg (by simpa using hd)]
      split_ifs with w
      · exact O (by grind)
      · exact E (by grind)
    · rw [if_pos hd, if_pos rfl]
      split_ifs with w
      · exact O (by grind)
      · exact E (by grind)

theorem SG.neg {s : ℤ} {y : ℝ} (h : SG φ s y) : SG φ (-s) (-y) := by
  rcases h with ⟨rfl, h⟩ | ⟨rfl, h⟩ | ⟨rfl, h⟩
  · exact Or.inr (Or.inl ⟨rfl, by linarith⟩)
  · exact Or.inl ⟨rfl, by linarith⟩
  · exact Or.inr (Or.inr ⟨rfl, by rwa [abs_neg]⟩)

/-- `sin` and `cos` share their case distinction; `f` is a shifted sine. -/
theorem trig_tight {f : ℝ → ℝ} {c : ℝ} {dl du : ℤ} (hf : ∀ t, f t = Real.sin (t + c)) (hx : x.NE φ)
    (sl : ∀ a : ℝ, x.lo.toE = a → SG φ dl (Real.cos (a + c))) (su : ∀ b : ℝ, x.hi.toE = b → SG φ du (Real.cos (b + c)))
    (sl' : x.lo = .ninf → dl = 0) (su' : x.hi = .pinf → du = 0) :
    Tightest φ (φ.trigCore (fun m a => φ.un m f .nan .nan a) x dl du) (f '' x.set) := by
  obtain ⟨ϖ, hϖ, g0, g3, g1, gn, q, hq, hqϖ⟩ := pi_gap φ
  have hw := φ.sub_spec (m := .U) hx.hi_ne hx.lo_ne (fun h => hx.hi_bot h.1) (fun h => hx.lo_top h.2)
  have i1 : (FP.fin 1).In φ := rep_one φ
  have i2 : (FP.fin (-1)).In φ := rep_neg_one φ
  have pw : (φ.constPi .D < φ.sub .U x.hi x.lo) ↔ (ϖ:EReal) < x.hi.toE - x.lo.toE := by
    rw [FP.lt_iff gn hw.1, hϖ, hw.2, Fmt.rndE_U]
    rw [← not_le, ← not_le, ← hϖ, φ.ruE_le_iff (f := φ.constPi .D) (φ.round_in .D Real.pi) _ gn]
  have full : (∃ t ∈ x.set, f t = 1) → (∃ t ∈ x.set, f t = -1) → Tightest φ ⟨.fin (-1), .fin 1⟩ (f '' x.set) := by
    rintro ⟨t, ht, e⟩ ⟨s, hs, e'⟩
    refine tight_low_upp (Low.attained hs (fun p _ => ?_) ?_ (by simp) i2) (Upp.attained ht (fun p _ => ?_) ?_ (by simp) i1)
    · rw [e', hf]; exact Real.neg_one_le_sin _
    · have := φ.rdE_of_in (f := .fin (-1)) i2 (by simp)
      rw [e', ← this, FP.toE_fin]; norm_num
    · rw [e, hf]; exact Real.sin_le_one _
    · have := φ.ruE_of_in (f := .fin 1) i1 (by simp)
      rw [e, ← this, FP.toE_fin]; norm_num
  by_cases hinf : x.lo = .ninf ∨ x.hi = .pinf
  · have hwt : x.hi.toE - x.lo.toE = ⊤ := by
      rcases hinf with h | h
      · rw [h, FP.toE_ninf, EReal.sub_bot hx.hi_bot]
      · rw [h, FP.toE_pinf]
        have := hx.lo_top
        exact EReal.top_sub this
    have pw' : φ.constPi .D < φ.sub .U x.hi x.lo := by rw [pw, hwt]; exact EReal.coe_lt_top _
    have : φ.trigCore (fun m a => φ.un m f .nan .nan a) x dl du = ⟨.fin (-1), .fin 1⟩ := by
      unfold Fmt.trigCore
      simp only [if_pos pw']
      rcases hinf with h | h
      · rw [sl' h]; simp
      · rw [su' h]
        by_cases hd : dl = 0
        · rw [hd]; simp
        · rw [if_pos hd, if_neg hd, if_pos rfl]
    rw [this]
    -- an unbounded interval contains maximum and minimum points
    have reach : ∀ s : ℝ, ∃ n : ℤ, s + n * (2 * Real.pi) ∈ x.set := by
      intro s
      have hp := Real.two_pi_pos
      rcases hinf with h | h
      · obtain ⟨r, hr⟩ := hx.nonempty
        refine ⟨⌊(r - s) / (2 * Real.pi)⌋, hx.mem.mpr ⟨by rw [h]; simp, ?_⟩⟩
        refine le_trans ?_ (hx.mem.mp hr).2
        have := Int.floor_le ((r - s) / (2 * Real.pi))
        rw [le_div_iff₀ hp] at this
        exact_mod_cast (by linarith)
      · obtain ⟨r, hr⟩ := hx.nonempty
        refine ⟨⌈(r - s) / (2 * Real.pi)⌉, hx.mem.mpr ⟨?_, by rw [h]; simp⟩⟩
        refine le_trans (hx.mem.mp hr).1 ?_
        have := Int.le_ceil ((r - s) / (2 * Real.pi))
        rw [div_le_iff₀ hp] at this
        exact_mod_cast (by linarith)
    refine full ?_ ?_
    · obtain ⟨n, hn⟩ := reach (Real.pi / 2 - c)
      refine ⟨_, hn, ?_⟩
      rw [hf, show Real.pi / 2 - c + n * (2 * Real.pi) + c = Real.pi / 2 + n * (2 * Real.pi) by ring, sin_max_pt]
    · obtain ⟨n, hn⟩ := reach (-(Real.pi / 2) - c)
      refine ⟨_, hn, ?_⟩
      rw [hf, show -(Real.pi / 2) - c + n * (2 * Real.pi) + c = -(Real.pi / 2) + n * (2 * Real.pi) by ring,
        Real.sin_add_int_mul_two_pi, Real.sin_neg, Real.sin_pi_div_two]
  · push Not at hinf
    obtain ⟨a, ha⟩ : ∃ a : ℝ, x.lo.toE = a := by
      rcases toE_cases hx.lo_ne with h | h | ⟨h, -⟩
      · exact absurd h hinf.1
      · exact absurd (FP.toE_eq_top.mpr h) hx.lo_top
      · exact ⟨_, h⟩
    obtain ⟨b, hb⟩ : ∃ b : ℝ, x.hi.toE = b := by
      rcases toE_cases hx.hi_ne with h | h | ⟨h, -⟩
      · exact absurd (FP.toE_eq_bot.mpr h) hx.hi_bot
      · exact absurd h hinf.2
      · exact ⟨_, h⟩
    have pw1 : (φ.constPi .D < φ.sub .U x.hi x.lo) ↔ ϖ < b - a := by
      rw [pw, ha, hb]; exact_mod_cast Iff.rfl
    have r2 : φ.Rep (q * 2) := by
      have hin : (φ.constPi .D).In φ := φ.round_in .D Real.pi
      rw [hq] at hin
      obtain ⟨m, e, hme, hm, he, hx⟩ := hin
      rw [hme, mul_assoc, ← zpow_add_one₀ (by norm_num)]
      refine φ.rep_of_le hm.le (by omega) ?_
      rw [zpow_add_one₀ (by norm_num), ← mul_assoc, ← hme]
      have hq4 : |q * 2| ≤ 8 := by
        have h1 : (q:ℝ) < 4 := by rw [hqϖ]; linarith [Real.pi_lt_four]
        have h0 : (3:ℝ) ≤ q := by rw [hqϖ]; exact g3
        have h1 : q < 4 := by exact_mod_cast h1
        have h0 : 3 ≤ q := by exact_mod_cast h0
        rw [abs_of_pos (by linarith)]; linarith
      refine hq4.trans ?_
      unfold Fmt.maxFin
      have h1 : (1:ℚ) ≤ 2 ^ (φ.emax - φ.p) := one_le_zpow₀ (by norm_num) (by have := φ.emax_ge; omega)
      have h2 : (2:ℚ) ^ 8 ≤ 2 ^ φ.p := pow_le_pow_right₀ (by norm_num) φ.p_pos
      nlinarith
    have hm2 := φ.mul_spec (m := .D) (a := φ.constPi .D) (b := .fin 2) gn (by simp)
      (fun h => by simp only [FP.toE_fin]; exact ⟨EReal.coe_ne_top _, EReal.coe_ne_bot _⟩)
      (fun h => by rw [hϖ]; exact ⟨EReal.coe_ne_top _, EReal.coe_ne_bot _⟩)
    have hm3 : (φ.mul .D (φ.constPi .D) (.fin 2)).toE = ((2 * ϖ : ℝ):EReal) := by
      rw [hm2.2, hϖ, FP.toE_fin, ← EReal.coe_mul, Fmt.rndE_D]
      have := φ.rdE_of_in (f := .fin (q * 2)) r2 (by simp)
      rw [FP.toE_fin] at this
      push_cast at this
      rw [hqϖ] at this
      push_cast
      rw [← EReal.coe_mul] at this ⊢
      rw [this, mul_comm, EReal.coe_mul]
    have pw2 : (φ.mul .D (φ.constPi .D) (.fin 2) < φ.sub .U x.hi x.lo) ↔ 2 * ϖ < b - a := by
      rw [FP.lt_iff hm2.1 hw.1, hm3, hw.2, Fmt.rndE_U, ← not_le, ← not_le]
      have e : ((2 * ϖ : ℝ):EReal) = (FP.fin (q * 2)).toE := by
        rw [FP.toE_fin]; push_cast; rw [hqϖ, mul_comm]
      rw [e, φ.ruE_le_iff (f := .fin (q * 2)) r2 _ (by simp), ← e, ha, hb]
      exact_mod_cast Iff.rfl
    obtain ⟨l1, l1n, l1i⟩ := un_spec φ .D (by simp) f .nan .nan ha hx.lo_ne
    obtain ⟨l2, l2n, l2i⟩ := un_spec φ .D (by simp) f .nan .nan hb hx.hi_ne
    obtain ⟨u1, u1n, u1i⟩ := un_spec φ .U (by simp) f .nan .nan ha hx.lo_ne
    obtain ⟨u2, u2n, u2i⟩ := un_spec φ .U (by simp) f .nan .nan hb hx.hi_ne
    set lo := (φ.un .D f .nan .nan x.lo).stdMin (φ.un .D f .nan .nan x.hi) with hlo
    set hi := (φ.un .U f .nan .nan x.lo).stdMax (φ.un .U f .nan .nan x.hi) with hhi
    have hin : hi.In φ := by rw [hhi]; unfold FP.stdMax; split_ifs <;> assumption
    have lin : lo.In φ := by rw [hlo]; unfold FP.stdMin; split_ifs <;> assumption
    have hU := trig_upp (h := hi) hf hx ha hb g0 g1 (sl a ha) (su b hb) (FP.stdMax_ne_nan u1n u2n) hin
      (by rw [hhi, FP.toE_stdMax u1n u2n, u1, u2]; rfl)
    have hL := trig_upp (f := fun t => - f t) (c := c + Real.pi) (h := lo.neg) (dl := -dl) (du := -du)
      (fun t => by rw [hf, ← add_assoc, Real.sin_add_pi]) hx ha hb g0 g1
      (by rw [← add_assoc, Real.cos_add_pi]; exact (sl a ha).neg)
      (by rw [← add_assoc, Real.cos_add_pi]; exact (su b hb).neg)
      (fun e => FP.stdMin_ne_nan l1n l2n (FP.neg_eq_nan.mp e)) (FP.neg_in lin)
      (by
        rw [FP.toE_neg, hlo, FP.toE_stdMin l1n l2n, l1, l2, Fmt.rndE_D, EReal.coe_neg, EReal.coe_neg, φ.ruE_neg, φ.ruE_neg]
        rcases le_total (φ.rdE (f a)) (φ.rdE (f b)) with h | h
        · rw [min_eq_left h, max_eq_left (EReal.neg_le_neg_iff.mpr h)]
        · rw [min_eq_right h, max_eq_right (EReal.neg_le_neg_iff.mpr h)])
    have n1 : (FP.fin (-1)).neg = .fin 1 := by simp [FP.neg]
    have hU' := hU
    have hL' : Low φ f x.set (if dl ≠ du then
      if dl = 0 then (if ϖ < b - a then .fin (-1) else lo)
      else if du = 0 then (if ϖ < b - a then .fin (-1) else lo)
      else if 2 * ϖ < b - a then .fin (-1)
      else if 0 < dl then lo else .fin (-1)
      else if ϖ < b - a then .fin (-1) else lo) := by
      refine low_of_upp hx.nonempty ?_
      convert hL using 1
      have hs : dl = 1 ∨ dl = -1 ∨ dl = 0 := by
        rcases sl a ha with h | h | h
        · exact Or.inl h.1
        · exact Or.inr (Or.inl h.1)
        · exact Or.inr (Or.inr h.1)
      simp only [ne_eq, neg_inj, neg_eq_zero]
      rcases hs with rfl | rfl | rfl
      · simp only [show (1:ℤ) ≠ 0 by decide, if_false, show (0:ℤ) < 1 by decide, if_true, show ¬ (0:ℤ) < -1 by decide]
        split_ifs <;> simp [FP.neg]
      · simp only [show (-1:ℤ) ≠ 0 by decide, if_false, show (0:ℤ) < - -1 by decide, if_true, show ¬ (0:ℤ) < -1 by decide]
        split_ifs <;> simp [FP.neg]
      · simp only [if_true]
        split_ifs <;> simp [FP.neg]
    have hT := tight_low_upp hL' hU'
    convert hT using 1
    unfold Fmt.trigCore
    simp only [pw1, pw2]
    rw [← hlo, ← hhi]
    split_ifs <;> rfl

theorem sgn_nan : FP.nan.sgn = 0 := by decide

/-- **C10** `sin(x)` is the tightest interval containing the range of the sine over `x`. -/
theorem C10_sin (hx : x.Ok φ) : Tightest φ (φ.sinI x) (Real.sin '' x.set) := by
  rcases hx.cases with rfl | hx
  · exact tightest_empty' (by simp [Fmt.sinI]) (by simp)
  unfold Fmt.sinI
  simp only [hx.isValid, hx.isEmpty, Bool.not_true, Bool.or_false, Bool.false_eq_true, if_false]
  refine trig_tight (c := 0) (fun t => by rw [add_zero]) hx (fun a ha => ?_) (fun b hb => ?_) (fun h => ?_) (fun h => ?_)
  · obtain ⟨h1, h2, -⟩ := un_spec φ .D (by simp) Real.cos .nan .nan ha hx.lo_ne
    rw [add_zero]; exact sgn_spec (by simp) h1 h2
  · obtain ⟨h1, h2, -⟩ := un_spec φ .U (by simp) Real.cos .nan .nan hb hx.hi_ne
    rw [add_zero]; exact sgn_spec (by simp) h1 h2
  · rw [h]; exact sgn_nan
  · rw [h]; exact sgn_nan

/-- `cos(x)` is the tightest interval containing the range of the cosine over `x`. -/
theorem C10_cos (hx : x.Ok φ) : Tightest φ (φ.cosI x) (Real.cos '' x.set) := by
  rcases hx.cases with rfl | hx
  · exact tightest_empty' (by simp [Fmt.cosI]) (by simp)
  unfold Fmt.cosI
  simp only [hx.isValid, hx.isEmpty, Bool.not_true, Bool.or_false, Bool.false_eq_true, if_false]
  have key : ∀ {m : Rnd} {v : FP} {y : ℝ}, m ≠ .N → v.toE = φ.rndE m y → v ≠ .nan → SG φ v.neg.sgn (-y) := by
    intro m v y hm h hn
    have hn' : v.neg ≠ .nan := fun e => hn (FP.neg_eq_nan.mp e)
    cases m with
    | N => exact absurd rfl hm
    | D => exact sgn_spec (m := .U) (by simp) (by rw [FP.toE_neg, h, EReal.coe_neg]; exact (φ.ruE_neg _).symm) hn'
    | U => exact sgn_spec (m := .D) (by simp) (by rw [FP.toE_neg, h, EReal.coe_neg]; exact (φ.rdE_neg _).symm) hn'
  refine trig_tight (c := Real.pi / 2) (fun t => by rw [Real.sin_add_pi_div_two]) hx (fun a ha => ?_) (fun b hb => ?_)
    (fun h => ?_) (fun h => ?_)
  · obtain ⟨h1, h2, -⟩ := un_spec φ .D (by simp) Real.sin .nan .nan ha hx.lo_ne
    rw [Real.cos_add_pi_div_two]; exact key (by simp) h1 h2
  · obtain ⟨h1, h2, -⟩ := un_spec φ .U (by simp) Real.sin .nan .nan hb hx.hi_ne
    rw [Real.cos_add_pi_div_two]; exact key (by simp) h1 h2
  · rw [h]; exact sgn_nan
  · rw [h]; exact sgn_nan

/-- Non-vacuity: an interval around a maximum, and an unbounded one. -/
example : (Itv.mk (.fin 1) (.fin 2)).Ok binary64 ∧ (Itv.mk .ninf (.fin 7)).Ok binary32 ∧
    (Real.sin '' (Itv.mk (.fin 1) (.fin 2)).set).Nonempty :=
  ⟨Itv.ok_of_okb (by decide +kernel), Itv.ok_of_okb (by decide +kernel),
   ⟨_, 1, ⟨by norm_num [FP.BelowR], by norm_num [FP.AboveR]⟩, rfl⟩⟩

end P1788
