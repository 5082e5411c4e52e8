import Verif.Lemmas.RevNear2
import Verif.Props.C31

/-! # C69: the reverse trigonometric functions are sharp

For all valid intervals `c`, `x` of every number format: each finite end `e` of `sin_rev(c, x)` (`cos_rev`, `tan_rev`)
is near to a number `t` with `sin t ∈ c` (`cos t ∈ c`; `tan t` defined and in `c`), the distance being at most
`2 ^ (2 - p) * (|e| + 5)`.  No condition on the size of the bounds of `x` is needed. -/

namespace P1788
open Real

variable {φ : Fmt} {c x : Itv}

/-- The least or the greatest element. -/
def IsEnd (A : Set ℝ) (e : ℝ) : Prop := IsLeast A e ∨ IsGreatest A e

/-- `e` is near to `S`, relative to the precision of the number format. -/
def NearTo (φ : Fmt) (S : Set ℝ) (e : ℝ) : Prop := ∃ t ∈ S, |t - e| ≤ 2 ^ (2 - (φ.p : ℤ)) * (|e| + 5)

theorem nearTo_of {S : Set ℝ} {e : ℝ} (h : NearS φ S e) : NearTo φ S e := by
  obtain ⟨t, ht, hd⟩ := h
  refine ⟨t, ht, hd.trans_eq ?_⟩
  unfold uu
  rw [sub_eq_add_neg, zpow_add₀ (by norm_num)]
  norm_num

theorem reach_Icc {α β : ℝ} (h : α ≤ β) : Reach (Set.Icc α β) α β :=
  ⟨Set.ordConnected_Icc, fun y hy => ⟨α, ⟨le_rfl, h⟩, hy.le⟩, fun y hy => ⟨β, ⟨h, le_rfl⟩, hy.le⟩⟩

theorem nearS_self {S : Set ℝ} {e : ℝ} (h : e ∈ S) : NearS φ S e :=
  ⟨e, h, by
    have := (unit_facts φ).1
    simp only [sub_self, abs_zero]
    positivity⟩

/-- The ends of `sin_rev(c, x)` are near to solutions. -/
theorem C69_sin_rev (hc : c.Ok φ) (hx : x.Ok φ) {e : ℝ} (he : IsEnd (c.sinRev φ x).set e) :
    NearTo φ {t | sin t ∈ c.set} e := by
  apply nearTo_of
  rcases hx.cases with rfl | nx
  · have : c.sinRev φ Itv.empty = Itv.empty := by simp [Itv.sinRev]
    rw [this] at he
    rcases he with he | he <;> simpa using he.1
  obtain ⟨i, j⟩ := Itv.inter_ok_set hc (ok_unit φ).ok
  rw [set_unit] at j
  unfold Itv.sinRev at he
  simp only [hc.isValid, hx.isValid, nx.isEmpty, Bool.not_true, Bool.or_self, Bool.false_eq_true, if_false] at he
  generalize c.inter ⟨.fin (-1), .fin 1⟩ = cc at *
  rcases i.cases with rfl | nc
  · rw [if_pos (by simp)] at he
    rcases he with he | he <;> simpa using he.1
  rw [if_neg (by simp [nc.isEmpty])] at he
  split_ifs at he with h2
  · have hs : cc.set = Set.Icc (-1) 1 := by
      rw [← set_unit]; exact (C22_equal i (ok_unit φ).ok).mp h2
    refine nearS_self ?_
    have : sin e ∈ cc.set := by rw [hs]; exact ⟨neg_one_le_sin e, sin_le_one e⟩
    rw [j] at this
    exact this.1
  obtain ⟨l, u, el, eu, hl, hlu, hu, rl, ru, hmem⟩ := unit_bounds nc (by rw [j]; exact Set.inter_subset_right)
  have hl' : (-1:ℝ) ≤ l := by exact_mod_cast hl
  have hu' : (u:ℝ) ≤ 1 := by exact_mod_cast hu
  have hlu' : (l:ℝ) ≤ u := by exact_mod_cast hlu
  have hin : ∀ r : ℝ, (l:ℝ) ≤ r → r ≤ u → r ∈ c.set := by
    intro r h1 h2
    have : r ∈ cc.set := nc.mem.mpr ⟨by rw [el]; exact EReal.coe_le_coe_iff.mpr h1, by rw [eu]; exact EReal.coe_le_coe_iff.mpr h2⟩
    rw [j] at this; exact this.1
  have hpi := pi_lt_d2
  have hpi0 := pi_pos
  have ql := arcNS_q (φ := φ) .D arcsin 0 0 el nc.lo_ne
  have qu := arcNS_q (φ := φ) .U arcsin 0 0 eu nc.hi_ne
  have bl := arcsin_mem_Icc (l:ℝ)
  have bu := arcsin_mem_Icc (u:ℝ)
  have al : |arcsin (l:ℝ)| ≤ π := abs_le.mpr ⟨by linarith [bl.1], by linarith [bl.2]⟩
  have au : |arcsin (u:ℝ)| ≤ π := abs_le.mpr ⟨by linarith [bu.1], by linarith [bu.2]⟩
  obtain ⟨u0, hu1, hup, hue, ht, hq⟩ := unit_facts φ
  have dl := rndMP_D_near (φ := φ) (al.trans (by linarith)) hue ht hq
  have du := rndMP_U_near (φ := φ) (au.trans (by linarith)) hue ht hq
  rw [← ql] at dl
  rw [← qu] at du
  have R := reach_Icc (monotone_arcsin hlu')
  have sv : ∀ v ∈ Set.Icc (arcsin (l:ℝ)) (arcsin u), sin v ∈ c.set := by
    intro v hv
    have v1 : v ∈ Set.Icc (-(π / 2)) (π / 2) := ⟨bl.1.trans hv.1, hv.2.trans bu.2⟩
    refine hin _ ?_ ?_
    · have := strictMonoOn_sin.monotoneOn bl v1 hv.1
      rwa [sin_arcsin hl' (by linarith)] at this
    · have := strictMonoOn_sin.monotoneOn v1 bu hv.2
      rwa [sin_arcsin (by linarith) hu'] at this
  have hfar : ∀ s, 4 / 5 * 2 ^ φ.p ≤ |s| → NearS φ {t | sin t ∈ c.set} s := fun s hs =>
    far (t0 := arcsin l) (fun m => by
      show sin _ ∈ c.set
      rw [sin_add_int_mul_two_pi]
      exact sv _ ⟨le_rfl, monotone_arcsin hlu'⟩) hs
  refine hull_near ceil_small (sinBox_in _ _) ?_ hfar nx he
  intro k a b hk pa pb s h1 h3
  unfold Fmt.sinBox at h1 h3
  have hk' : ((|k| : ℤ) : ℚ) ≤ φ.maxFin := by push_cast at hk ⊢; linarith
  split_ifs at h1 h3 with hpar
  · refine shift_near pa pb hk' al au dl du R (fun v hv => ?_) hfar h1 h3
    show sin _ ∈ c.set
    have hev : Even k := Int.even_iff.mpr hpar
    rw [add_comm, sin_add_int_mul_pi, hev.neg_one_zpow, one_mul]
    exact sv v hv
  · refine mirror_near pa pb (by rwa [abs_neg]) al au dl du R (fun v hv => ?_) hfar h1 h3
    show sin _ ∈ c.set
    have hod : Odd k := Int.not_even_iff_odd.mp (fun h => hpar (Int.even_iff.mp h))
    rw [show -((((-k : ℤ) : ℝ)) * π + v) = -v + k * π by push_cast; ring, sin_add_int_mul_pi, hod.neg_one_zpow, sin_neg]
    simpa using sv v hv

/-- The ends of `cos_rev(c, x)` are near to solutions. -/
theorem C69_cos_rev (hc : c.Ok φ) (hx : x.Ok φ) {e : ℝ} (he : IsEnd (c.cosRev φ x).set e) :
    NearTo φ {t | cos t ∈ c.set} e := by
  apply nearTo_of
  rcases hx.cases with rfl | nx
  · have : c.cosRev φ Itv.empty = Itv.empty := by simp [Itv.cosRev]
    rw [this] at he
    rcases he with he | he <;> simpa using he.1
  obtain ⟨i, j⟩ := Itv.inter_ok_set hc (ok_unit φ).ok
  rw [set_unit] at j
  unfold Itv.cosRev at he
  simp only [hc.isValid, hx.isValid, nx.isEmpty, Bool.not_true, Bool.or_self, Bool.false_eq_true, if_false] at he
  generalize c.inter ⟨.fin (-1), .fin 1⟩ = cc at *
  rcases i.cases with rfl | nc
  · rw [if_pos (by simp)] at he
    rcases he with he | he <;> simpa using he.1
  rw [if_neg (by simp [nc.isEmpty])] at he
  split_ifs at he with h2
  · have hs : cc.set = Set.Icc (-1) 1 := by
      rw [← set_unit]; exact (C22_equal i (ok_unit φ).ok).mp h2
    refine nearS_self ?_
    have : cos e ∈ cc.set := by rw [hs]; exact ⟨neg_one_le_cos e, cos_le_one e⟩
    rw [j] at this
    exact this.1
  obtain ⟨l, u, el, eu, hl, hlu, hu, rl, ru, hmem⟩ := unit_bounds nc (by rw [j]; exact Set.inter_subset_right)
  have hl' : (-1:ℝ) ≤ l := by exact_mod_cast hl
  have hu' : (u:ℝ) ≤ 1 := by exact_mod_cast hu
  have hlu' : (l:ℝ) ≤ u := by exact_mod_cast hlu
  have hin : ∀ r : ℝ, (l:ℝ) ≤ r → r ≤ u → r ∈ c.set := by
    intro r h1 h2
    have : r ∈ cc.set := nc.mem.mpr ⟨by rw [el]; exact EReal.coe_le_coe_iff.mpr h1, by rw [eu]; exact EReal.coe_le_coe_iff.mpr h2⟩
    rw [j] at this; exact this.1
  have hpi := pi_lt_d2
  have hpi0 := pi_pos
  have ql := arcNS_q (φ := φ) .D arccos 0 0 eu nc.hi_ne
  have qu := arcNS_q (φ := φ) .U arccos 0 0 el nc.lo_ne
  have al : |arccos (u:ℝ)| ≤ π := abs_le.mpr ⟨by linarith [arccos_nonneg (u:ℝ)], arccos_le_pi (u:ℝ)⟩
  have au : |arccos (l:ℝ)| ≤ π := abs_le.mpr ⟨by linarith [arccos_nonneg (l:ℝ)], arccos_le_pi (l:ℝ)⟩
  obtain ⟨u0, hu1, hup, hue, ht, hq⟩ := unit_facts φ
  have dl := rndMP_D_near (φ := φ) (al.trans (by linarith)) hue ht hq
  have du := rndMP_U_near (φ := φ) (au.trans (by linarith)) hue ht hq
  rw [← ql] at dl
  rw [← qu] at du
  have R := reach_Icc (antitone_arccos hlu')
  have sv : ∀ v ∈ Set.Icc (arccos (u:ℝ)) (arccos l), cos v ∈ c.set := by
    intro v hv
    have v1 : v ∈ Set.Icc 0 π := ⟨(arccos_nonneg _).trans hv.1, hv.2.trans (arccos_le_pi _)⟩
    refine hin _ ?_ ?_
    · have := strictAntiOn_cos.antitoneOn v1 ⟨arccos_nonneg _, arccos_le_pi _⟩ hv.2
      rwa [cos_arccos hl' (by linarith)] at this
    · have := strictAntiOn_cos.antitoneOn ⟨arccos_nonneg _, arccos_le_pi _⟩ v1 hv.1
      rwa [cos_arccos (by linarith) hu'] at this
  have hfar : ∀ s, 4 / 5 * 2 ^ φ.p ≤ |s| → NearS φ {t | cos t ∈ c.set} s := fun s hs =>
    far (t0 := arccos u) (fun m => by
      show cos _ ∈ c.set
      rw [cos_add_int_mul_two_pi]
      exact sv _ ⟨le_rfl, antitone_arccos hlu'⟩) hs
  refine hull_near floor_small (cosBox_in _ _) ?_ hfar nx he
  intro k a b hk pa pb s h1 h3
  unfold Fmt.cosBox at h1 h3
  have hk' : ((|k| : ℤ) : ℚ) ≤ φ.maxFin := by push_cast at hk ⊢; linarith
  split_ifs at h1 h3 with hpar
  · refine shift_near pa pb hk' al au dl du R (fun v hv => ?_) hfar h1 h3
    show cos _ ∈ c.set
    have hev : Even k := Int.even_iff.mpr hpar
    rw [add_comm, cos_add_int_mul_pi, hev.neg_one_zpow, one_mul]
    exact sv v hv
  · have hk2 : ((|-k - 1| : ℤ) : ℚ) ≤ φ.maxFin := by
      have : |-k - 1| ≤ |k| + 1 := by
        rw [show -k - 1 = -(k + 1) by ring, abs_neg]; exact (abs_add_one_le k).1
      exact le_trans (by exact_mod_cast this) hk
    refine mirror_near pa pb hk2 al au dl du R (fun v hv => ?_) hfar h1 h3
    show cos _ ∈ c.set
    have hod : Odd k := Int.not_even_iff_odd.mp (fun h => hpar (Int.even_iff.mp h))
    have hev : Even (k + 1) := hod.add_one
    rw [show -((((-k - 1 : ℤ) : ℝ)) * π + v) = -v + ((k + 1 : ℤ) : ℝ) * π by push_cast; ring, cos_add_int_mul_pi,
      hev.neg_one_zpow, one_mul, cos_neg]
    exact sv v hv

/-- The numbers whose tangent is in `c`, within one period. -/
theorem reach_tan {lo hi : EReal} {α β : ℝ} (hne : ∃ r : ℝ, lo ≤ r ∧ (r:EReal) ≤ hi)
    (hα : (∃ r : ℝ, lo = r ∧ α = arctan r) ∨ lo = ⊥ ∧ α = -(π / 2)) (hβ : (∃ r : ℝ, hi = r ∧ β = arctan r) ∨ hi = ⊤ ∧ β = π / 2) :
    Reach (arctan '' {r : ℝ | lo ≤ r ∧ (r:EReal) ≤ hi}) α β := by
  have hpi := pi_pos
  obtain ⟨r0, h0⟩ := hne
  refine ⟨⟨?_⟩, ?_, ?_⟩
  · rintro _ ⟨r, hr, rfl⟩ _ ⟨r', hr', rfl⟩ v ⟨h1, h2⟩
    have v1 : -(π / 2) < v := (neg_pi_div_two_lt_arctan r).trans_le h1
    have v2 : v < π / 2 := h2.trans_lt (arctan_lt_pi_div_two r')
    rw [← arctan_tan v1 v2] at h1 h2
    have g1 := arctan_strictMono.le_iff_le.mp h1
    have g2 := arctan_strictMono.le_iff_le.mp h2
    exact ⟨tan v, ⟨hr.1.trans (EReal.coe_le_coe_iff.mpr g1), (EReal.coe_le_coe_iff.mpr g2).trans hr'.2⟩, arctan_tan v1 v2⟩
  · intro y hy
    rcases hα with ⟨r, rfl, rfl⟩ | ⟨rfl, rfl⟩
    · exact ⟨_, ⟨r, ⟨le_rfl, h0.1.trans h0.2⟩, rfl⟩, hy.le⟩
    · have m1 : -(π / 2) < min y 0 := lt_min hy (by linarith)
      have m2 : min y 0 < π / 2 := (min_le_right _ _).trans_lt (by linarith)
      refine ⟨_, ⟨min r0 (tan (min y 0)), ⟨bot_le, (EReal.coe_le_coe_iff.mpr (min_le_left _ _)).trans h0.2⟩, rfl⟩, ?_⟩
      calc arctan (min r0 (tan (min y 0))) ≤ arctan (tan (min y 0)) := arctan_strictMono.monotone (min_le_right _ _)
        _ = min y 0 := arctan_tan m1 m2
        _ ≤ y := min_le_left _ _
  · intro y hy
    rcases hβ with ⟨r, rfl, rfl⟩ | ⟨rfl, rfl⟩
    · exact ⟨_, ⟨r, ⟨h0.1.trans h0.2, le_rfl⟩, rfl⟩, hy.le⟩
    · have m1 : max y 0 < π / 2 := max_lt hy (by linarith)
      have m2 : -(π / 2) < max y 0 := lt_of_lt_of_le (by linarith) (le_max_right _ _)
      refine ⟨_, ⟨max r0 (tan (max y 0)), ⟨h0.1.trans (EReal.coe_le_coe_iff.mpr (le_max_left _ _)), le_top⟩, rfl⟩, ?_⟩
      calc y ≤ max y 0 := le_max_left _ _
        _ = arctan (tan (max y 0)) := (arctan_tan m2 m1).symm
        _ ≤ _ := arctan_strictMono.monotone (le_max_right _ _)

/-- The ends of `tan_rev(c, x)` are near to solutions. -/
theorem C69_tan_rev (hc : c.Ok φ) (hx : x.Ok φ) {e : ℝ} (he : IsEnd (c.tanRev φ x).set e) :
    NearTo φ {t | cos t ≠ 0 ∧ tan t ∈ c.set} e := by
  apply nearTo_of
  rcases hx.cases with rfl | nx
  · have : c.tanRev φ Itv.empty = Itv.empty := by simp [Itv.tanRev]
    rw [this] at he
    rcases he with he | he <;> simpa using he.1
  rcases hc.cases with rfl | nc
  · have : Itv.empty.tanRev φ x = Itv.empty := by simp [Itv.tanRev]
    rw [this] at he
    rcases he with he | he <;> simpa using he.1
  unfold Itv.tanRev at he
  rw [if_neg (by simp [hc.isValid, hx.isValid, nc.isEmpty, nx.isEmpty])] at he
  have hpi := pi_lt_d2
  have hpi0 := pi_pos
  obtain ⟨u0, hu1, hup, hue, ht, hq⟩ := unit_facts φ
  obtain ⟨r0, hr0⟩ := nc.nonempty
  obtain ⟨α, hα, qα, aα⟩ : ∃ α, ((∃ r : ℝ, c.lo.toE = r ∧ α = arctan r) ∨ c.lo.toE = ⊥ ∧ α = -(π / 2)) ∧
      (φ.arcNS .D arctan (-(π / 2)) (π / 2) c.lo).q = (φ.rndMP .D α).q ∧ |α| ≤ π := by
    by_cases h : c.lo = .ninf
    · exact ⟨-(π / 2), Or.inr ⟨by rw [h]; rfl, rfl⟩, by rw [h]; rfl, by rw [abs_neg, abs_of_pos (by linarith)]; linarith⟩
    · have hf : c.lo.toE ≠ ⊥ := fun hh => h (FP.toE_eq_bot.mp hh)
      have hr : c.lo.toE = ((c.lo.toE.toReal : ℝ) : EReal) := (EReal.coe_toReal nc.lo_top hf).symm
      refine ⟨arctan c.lo.toE.toReal, Or.inl ⟨_, hr, rfl⟩, arcNS_q .D arctan _ _ hr nc.lo_ne, ?_⟩
      exact abs_le.mpr ⟨by linarith [neg_pi_div_two_lt_arctan c.lo.toE.toReal], by linarith [arctan_lt_pi_div_two c.lo.toE.toReal]⟩
  obtain ⟨β, hβ, qβ, aβ⟩ : ∃ β, ((∃ r : ℝ, c.hi.toE = r ∧ β = arctan r) ∨ c.hi.toE = ⊤ ∧ β = π / 2) ∧
      (φ.arcNS .U arctan (-(π / 2)) (π / 2) c.hi).q = (φ.rndMP .U β).q ∧ |β| ≤ π := by
    by_cases h : c.hi = .pinf
    · exact ⟨π / 2, Or.inr ⟨by rw [h]; rfl, rfl⟩, by rw [h]; rfl, by rw [abs_of_pos (by linarith)]; linarith⟩
    · have hf : c.hi.toE ≠ ⊤ := fun hh => h (FP.toE_eq_top.mp hh)
      have hr : c.hi.toE = ((c.hi.toE.toReal : ℝ) : EReal) := (EReal.coe_toReal hf nc.hi_bot).symm
      refine ⟨arctan c.hi.toE.toReal, Or.inl ⟨_, hr, rfl⟩, arcNS_q .U arctan _ _ hr nc.hi_ne, ?_⟩
      exact abs_le.mpr ⟨by linarith [neg_pi_div_two_lt_arctan c.hi.toE.toReal], by linarith [arctan_lt_pi_div_two c.hi.toE.toReal]⟩
  have dl := rndMP_D_near (φ := φ) (aα.trans (by linarith)) hue ht hq
  have du := rndMP_U_near (φ := φ) (aβ.trans (by linarith)) hue ht hq
  rw [← qα] at dl
  rw [← qβ] at du
  have R := reach_tan ⟨r0, nc.mem.mp hr0⟩ hα hβ
  have sv : ∀ (k : ℤ) (v : ℝ), v ∈ arctan '' {r : ℝ | c.lo.toE ≤ r ∧ (r:EReal) ≤ c.hi.toE} →
      v + k * π ∈ {t | cos t ≠ 0 ∧ tan t ∈ c.set} := by
    rintro k _ ⟨r, hr, rfl⟩
    refine ⟨?_, ?_⟩
    · rw [cos_add_int_mul_pi]
      exact mul_ne_zero (zpow_ne_zero _ (by norm_num)) (cos_arctan_pos r).ne'
    · rw [tan_add_int_mul_pi, tan_arctan]; exact nc.mem.mpr hr
  have hfar : ∀ s, 4 / 5 * 2 ^ φ.p ≤ |s| → NearS φ {t | cos t ≠ 0 ∧ tan t ∈ c.set} s := fun s hs =>
    far (t0 := arctan r0) (fun m => by
      have := sv (2 * m) (arctan r0) ⟨r0, nc.mem.mp hr0, rfl⟩
      rwa [show (((2 * m : ℤ) : ℝ)) * π = m * (2 * π) by push_cast; ring] at this) hs
  refine hull_near ceil_small (tanBox_in _ _) ?_ hfar nx he
  intro k a b hk pa pb s h1 h3
  have hk' : ((|k| : ℤ) : ℚ) ≤ φ.maxFin := by push_cast at hk ⊢; linarith
  exact shift_near pa pb hk' aα aβ dl du R (fun v hv => by rw [add_comm]; exact sv k v hv) hfar h1 h3

/-- A non-empty interval has an end, unless it is the set of all numbers. -/
theorem exists_end {X : Itv} (h : X.Ok φ) (hn : X.set.Nonempty) : (∃ e, IsEnd X.set e) ∨ X.set = Set.univ := by
  rcases h.cases with rfl | n
  · simp at hn
  by_cases h1 : X.lo.toE = ⊥
  · by_cases h2 : X.hi.toE = ⊤
    · exact Or.inr (Set.eq_univ_of_forall fun t => n.mem.mpr (by simp [h1, h2]))
    · have hr : X.hi.toE = ((X.hi.toE.toReal : ℝ) : EReal) := (EReal.coe_toReal h2 n.hi_bot).symm
      refine Or.inl ⟨X.hi.toE.toReal, Or.inr ⟨n.mem.mpr ⟨hr ▸ n.le, hr.ge⟩, fun t ht => ?_⟩⟩
      have := (n.mem.mp ht).2
      rw [hr] at this
      exact EReal.coe_le_coe_iff.mp this
  · have hr : X.lo.toE = ((X.lo.toE.toReal : ℝ) : EReal) := (EReal.coe_toReal n.lo_top h1).symm
    refine Or.inl ⟨X.lo.toE.toReal, Or.inl ⟨n.mem.mpr ⟨hr.le, hr ▸ n.le⟩, fun t ht => ?_⟩⟩
    have := (n.mem.mp ht).1
    rw [hr] at this
    exact EReal.coe_le_coe_iff.mp this

theorem end_mem {A : Set ℝ} {e : ℝ} (h : IsEnd A e) : e ∈ A := h.elim (fun h => h.1) (fun h => h.1)

theorem some_near {X : Itv} {S : Set ℝ} (h : X.Ok φ) (hs : X.set ⊆ x.set) (hn : X.set.Nonempty) (he : ∀ e, IsEnd X.set e → NearTo φ S e)
    (hS : S = ∅ → X.set = ∅) : ∃ e ∈ x.set, NearTo φ S e := by
  rcases exists_end h hn with ⟨e, h1⟩ | h1
  · exact ⟨e, hs (end_mem h1), he e h1⟩
  · rcases S.eq_empty_or_nonempty with h2 | ⟨t, ht⟩
    · rw [hS h2] at hn; simp at hn
    · exact ⟨t, hs (h1 ▸ trivial), nearTo_of (nearS_self ht)⟩

/-- The result is empty unless some point of `x` is near to a solution. -/
theorem C69_none (hc : c.Ok φ) (hx : x.Ok φ) :
    ((c.sinRev φ x).set.Nonempty → ∃ e ∈ x.set, NearTo φ {t | sin t ∈ c.set} e) ∧
    ((c.cosRev φ x).set.Nonempty → ∃ e ∈ x.set, NearTo φ {t | cos t ∈ c.set} e) ∧
    ((c.tanRev φ x).set.Nonempty → ∃ e ∈ x.set, NearTo φ {t | cos t ≠ 0 ∧ tan t ∈ c.set} e) := by
  obtain ⟨v1, v2, v3⟩ := C31_valid hc hx
  obtain ⟨i, j⟩ := Itv.inter_ok_set hc (ok_unit φ).ok
  rw [set_unit] at j
  have none : (c.inter ⟨.fin (-1), .fin 1⟩).set = ∅ → (c.sinRev φ x).set = ∅ ∧ (c.cosRev φ x).set = ∅ := by
    intro h
    have h' : (c.inter ⟨.fin (-1), .fin 1⟩).isEmpty = true := by
      rcases i.cases with h1 | h1
      · rw [h1]; rfl
      · exact absurd h1.nonempty (by rw [h]; simp)
    unfold Itv.sinRev Itv.cosRev
    simp only [h', if_true]
    constructor <;> split_ifs <;> simp [h]
  refine ⟨fun h => some_near v1.1 v1.2 h (fun e => C69_sin_rev hc hx) fun hS => (none ?_).1,
    fun h => some_near v2.1 v2.2 h (fun e => C69_cos_rev hc hx) fun hS => (none ?_).2,
    fun h => some_near v3.1 v3.2 h (fun e => C69_tan_rev hc hx) fun hS => ?_⟩
  · rw [j]
    refine Set.eq_empty_of_forall_notMem fun r hr => ?_
    have : arcsin r ∈ {t | sin t ∈ c.set} := by show sin (arcsin r) ∈ c.set; rw [sin_arcsin hr.2.1 hr.2.2]; exact hr.1
    rw [hS] at this; exact this
  · rw [j]
    refine Set.eq_empty_of_forall_notMem fun r hr => ?_
    have : arccos r ∈ {t | cos t ∈ c.set} := by show cos (arccos r) ∈ c.set; rw [cos_arccos hr.2.1 hr.2.2]; exact hr.1
    rw [hS] at this; exact this
  · rcases hc.cases with rfl | nc
    · simp [Itv.tanRev]
    · obtain ⟨r, hr⟩ := nc.nonempty
      have : arctan r ∈ {t | cos t ≠ 0 ∧ tan t ∈ c.set} := ⟨(cos_arctan_pos r).ne', by rw [tan_arctan]; exact hr⟩
      rw [hS] at this; exact absurd this (by simp)

/-! ## Examples -/

section
/-- `c = [0, 1/2]`, `x = [-1, 1]` -/
theorem ex_c : Itv.Ok binary64 ⟨.fin 0, .fin (1 / 2)⟩ := Itv.ok_of_okb (by decide +kernel)
theorem ex_x : Itv.Ok binary64 ⟨.fin (-1), .fin 1⟩ := Itv.ok_of_okb (by decide +kernel)

/-- The result has ends ... -/
example : ∃ e, IsEnd (Itv.sinRev binary64 ⟨.fin 0, .fin (1 / 2)⟩ ⟨.fin (-1), .fin 1⟩).set e := by
  obtain ⟨v, s⟩ := (C31_valid ex_c ex_x).1
  have h0 : (0:ℝ) ∈ Itv.set ⟨.fin 0, .fin (1 / 2)⟩ := mem_fin.mpr (by norm_num)
  have hx : (0:ℝ) ∈ Itv.set ⟨.fin (-1), .fin 1⟩ := mem_fin.mpr (by norm_num)
  have h1 := C31_sin_rev_partial ex_c ex_x (by rintro q (h | h) <;> simp only [FP.fin.injEq] at h <;> subst h <;> norm_num [binary64]) h0
    (show (0:ℝ) ∈ _ from ⟨hx, by rw [sin_zero]; exact h0⟩)
  rcases exists_end v ⟨0, h1⟩ with h | h
  · exact h
  · have : (5:ℝ) ∈ Itv.set ⟨.fin (-1), .fin 1⟩ := s (h ▸ trivial)
    have := (mem_fin.mp this).2
    norm_num at this

/-- ... which are less than `0.6`, although `x` reaches to `1`. -/
example {e : ℝ} (h : IsEnd (Itv.sinRev binary64 ⟨.fin 0, .fin (1 / 2)⟩ ⟨.fin (-1), .fin 1⟩).set e) : e < 6 / 10 := by
  obtain ⟨t, ht, hd⟩ := C69_sin_rev ex_c ex_x h
  have hm := mem_fin.mp ((C31_valid ex_c ex_x).1.2 (end_mem h))
  have hs := (mem_fin.mp (show sin t ∈ Itv.set ⟨.fin 0, .fin (1 / 2)⟩ from ht)).2
  push_cast at hm hs
  have he : |e| ≤ 1 := abs_le.mpr (by simpa using hm)
  have hd2 : |t - e| ≤ 1 / 100 := by
    refine hd.trans ?_
    have : (2:ℝ) ^ (2 - (binary64.p : ℤ)) ≤ 1 / 1000 := by
      show (2:ℝ) ^ (2 - ((53:ℕ) : ℤ)) ≤ _
      norm_num
    nlinarith [abs_nonneg e]
  have hd3 := abs_le.mp hd2
  have hpi := pi_gt_three
  have hpi' := pi_lt_d2
  by_contra hc
  push Not at hc
  have h6 : π / 6 < t := by linarith
  have := strictMonoOn_sin (a := π / 6) (b := t) ⟨by linarith, by linarith⟩ ⟨by linarith, by linarith [hm.2]⟩ h6
  rw [sin_pi_div_six] at this
  linarith
end

end P1788
