import Verif.Lemmas.RevLost
import Verif.Props.C31Ends
import Verif.Props.C69

/-! # C31: exactly when `sin_rev` and `tan_rev` lose solutions

`C31_sin_rev_ends_partial` and `C31_tan_rev_ends_partial` give a condition under which no solution is lost.  Here is the
converse, up to the rounding error: if the lower end `a` of `x` lies between `kπ` and `(k + 1)π` and there is no solution from `a`
to `(k + 3/2)π`, then nothing of `x` below the last `3π/2` is in the result, so all solutions there are lost.  The same holds at
the upper end. -/

namespace P1788
open Real

variable {φ : Fmt} {c x : Itv} {a b M : ℝ}

/-- The rounding error for numbers up to `M`. -/
noncomputable def RevErr (φ : Fmt) (M : ℝ) : ℝ := 2 ^ (2 - (φ.p:ℤ)) * (M + 5)

/-- `a` lies between `kπ` and `(k + 1)π`, and no solution lies between `a` and `(k + 3/2)π`. -/
def NoneAfter (S : Set ℝ) (μ a : ℝ) : Prop :=
  ∃ k : ℤ, k * π + μ ≤ a ∧ a + μ < (k + 1) * π ∧ ∀ s ∈ S, a - μ ≤ s → (k + 3 / 2) * π < s

/-- `b` lies between `(k - 1)π` and `kπ`, and no solution lies between `(k - 3/2)π` and `b`. -/
def NoneBefore (S : Set ℝ) (μ b : ℝ) : Prop :=
  ∃ k : ℤ, (k - 1) * π + μ < b ∧ b + μ ≤ k * π ∧ ∀ s ∈ S, s ≤ b + μ → s < (k - 3 / 2) * π

theorem revErr_eq : RevErr φ M = 4 * uu φ * (M + 5) := by
  unfold RevErr uu
  rw [sub_eq_add_neg, zpow_add₀ (by norm_num)]
  norm_num

/-- The solutions of one half period. -/
def Branch (S : Set ℝ) (k : ℤ) : Set ℝ := {t | t ∈ S ∧ |t - k * π| ≤ π / 2}

section
variable {box : ℤ → FP → FP → Itv} {S : Set ℝ}

theorem least_q (nx : x.NE φ) (ha : IsLeast x.set a) : (x.lo.q : ℝ) = a ∧ x.lo.toE = ((x.lo.q:ℝ):EReal) := by
  have h := least_lo nx ha
  have : (x.lo.q : ℝ) = a := by
    cases hl : x.lo <;> rw [hl] at h <;> simp [FP.toE] at h
    · simp only [FP.q, Rat.cast_zero]; exact_mod_cast h
    · simp only [FP.q, Rat.cast_zero]; exact_mod_cast h
    · exact h
  exact ⟨this, by rw [this, h]⟩

theorem greatest_q (nx : x.NE φ) (ha : IsGreatest x.set b) : (x.hi.q : ℝ) = b ∧ x.hi.toE = ((x.hi.q:ℝ):EReal) := by
  have h := greatest_hi nx ha
  have : (x.hi.q : ℝ) = b := by
    cases hl : x.hi <;> rw [hl] at h <;> simp [FP.toE] at h
    · simp only [FP.q, Rat.cast_zero]; exact_mod_cast h
    · simp only [FP.q, Rat.cast_zero]; exact_mod_cast h
    · exact h
  exact ⟨this, by rw [this, h]⟩

/-- The argument for either function, at the lower end. -/
theorem hull_lost_left (hb : BoxIn φ box) (hN : BoxLoc φ box (Branch S)) (nx : x.NE φ) (ha : IsLeast x.set a) (hg : IsGreatest x.set b)
    (hA : |a| ≤ M) (hB : |b| ≤ M) (hM : M ≤ 2 ^ φ.p / 2) (hM2 : M ≤ 2 ^ 64) (h : NoneAfter S (RevErr φ M) a) :
    ∀ s ∈ ((φ.leftBox box x).hull (φ.rightBox ceilQuo box x)).set, b - 3 / 2 * π - 2 * RevErr φ M ≤ s := by
  obtain ⟨ea, hl⟩ := least_q nx ha
  obtain ⟨eb, hh⟩ := greatest_q nx hg
  rw [← ea] at hA h
  rw [← eb] at hB ⊢
  rw [revErr_eq] at h ⊢
  have hpi := pi_pos
  obtain ⟨k, h1, h2, h3⟩ := h
  have lost := left_lost hb hN nx hl hh hA hB hM hM2 h1 h2 (fun t ht => by
      by_contra hc; push Not at hc
      have := h3 t ht.1 (by linarith)
      have := (abs_le.mp ht.2).2
      nlinarith) (fun t ht => by
      by_contra hc; push Not at hc
      have := h3 t ht.1 (by linarith)
      have := (abs_le.mp ht.2).2
      push_cast at this
      nlinarith)
  rw [hull_lost_l (leftBox_any hb nx).1 (rightBox_any hb nx).1 lost]
  intro s hs
  have := right_close hb hN (fun k t ht => ht.2) nx hl hh hA hB hM hM2 s hs
  linarith

/-- The argument for either function, at the upper end. -/
theorem hull_lost_right (hb : BoxIn φ box) (hN : BoxLoc φ box (Branch S)) (nx : x.NE φ) (ha : IsLeast x.set a) (hg : IsGreatest x.set b)
    (hA : |a| ≤ M) (hB : |b| ≤ M) (hM : M ≤ 2 ^ φ.p / 2) (hM2 : M ≤ 2 ^ 64) (h : NoneBefore S (RevErr φ M) b) :
    ∀ s ∈ ((φ.leftBox box x).hull (φ.rightBox ceilQuo box x)).set, s ≤ a + 3 / 2 * π + 2 * RevErr φ M := by
  obtain ⟨ea, hl⟩ := least_q nx ha
  obtain ⟨eb, hh⟩ := greatest_q nx hg
  rw [← ea] at hA ⊢
  rw [← eb] at hB h
  rw [revErr_eq] at h ⊢
  have hpi := pi_pos
  obtain ⟨k, h1, h2, h3⟩ := h
  have lost := right_lost hb hN nx hl hh hA hB hM hM2 h1 h2 (fun t ht => by
      by_contra hc; push Not at hc
      have := h3 t ht.1 (by linarith)
      have := (abs_le.mp ht.2).1
      nlinarith) (fun t ht => by
      by_contra hc; push Not at hc
      have := h3 t ht.1 (by linarith)
      have := (abs_le.mp ht.2).1
      push_cast at this
      nlinarith)
  rw [hull_lost_r (leftBox_any hb nx).1 (rightBox_any hb nx).1 lost]
  intro s hs
  have := left_close hb hN (fun k t ht => ht.2) nx hl hh hA hB hM hM2 s hs
  linarith
end

/-- How `sin_rev` gets its result, and that each box is near its branch. -/
theorem sin_rev_cases (hc : c.Ok φ) (hx : x.NE φ) :
    c.sinRev φ x = Itv.empty ∨ (∀ t, sin t ∈ c.set) ∨ ∃ box, BoxIn φ box ∧ BoxLoc φ box (Branch {t | sin t ∈ c.set}) ∧
      c.sinRev φ x = (φ.leftBox box x).hull (φ.rightBox ceilQuo box x) := by
  obtain ⟨i, j⟩ := Itv.inter_ok_set hc (ok_unit φ).ok
  rw [set_unit] at j
  unfold Itv.sinRev
  simp only [hc.isValid, hx.ok.isValid, hx.isEmpty, Bool.not_true, Bool.or_self, Bool.false_eq_true, if_false]
  generalize c.inter ⟨.fin (-1), .fin 1⟩ = cc at *
  rcases i.cases with rfl | nc
  · exact Or.inl (if_pos (by simp))
  refine Or.inr ?_
  rw [if_neg (by simp [nc.isEmpty])]
  split_ifs with h2
  · have hs : cc.set = Set.Icc (-1) 1 := by
      rw [← set_unit]; exact (C22_equal i (ok_unit φ).ok).mp h2
    refine Or.inl fun e => ?_
    have : sin e ∈ cc.set := by rw [hs]; exact ⟨neg_one_le_sin e, sin_le_one e⟩
    rw [j] at this
    exact this.1
  refine Or.inr ⟨_, sinBox_in _ _, ?_, rfl⟩
  obtain ⟨l, u, el, eu, hl, hlu, hu, rl, ru, hmem⟩ := unit_bounds nc (by rw [j]; exact Set.inter_subset_right)
  have hl' : (-1:ℝ) ≤ l := by exact_mod_cast hl
  have hu' : (u:ℝ) ≤ 1 := by exact_mod_cast hu
  have hlu' : (l:ℝ) ≤ u := by exact_mod_cast hlu
  have hin : ∀ r : ℝ, (l:ℝ) ≤ r → r ≤ u → r ∈ c.set := by
    intro r h1 h2
    have : r ∈ cc.set := nc.mem.mpr ⟨by rw [el]; exact EReal.coe_le_coe_iff.mpr h1, by rw [eu]; exact EReal.coe_le_coe_iff.mpr h2⟩
    rw [j] at this; exact this.1
  have hpi := pi_lt_d2
  have hpi0 := pi_pos
  have ql := arcNS_q (φ := φ) .D arcsin 0 0 el nc.lo_ne
  have qu := arcNS_q (φ := φ) .U arcsin 0 0 eu nc.hi_ne
  have bl := arcsin_mem_Icc (l:ℝ)
  have bu := arcsin_mem_Icc (u:ℝ)
  have al : |arcsin (l:ℝ)| ≤ π := abs_le.mpr ⟨by linarith [bl.1], by linarith [bl.2]⟩
  have au : |arcsin (u:ℝ)| ≤ π := abs_le.mpr ⟨by linarith [bu.1], by linarith [bu.2]⟩
  obtain ⟨u0, hu1, hup, hue, ht, hq⟩ := unit_facts φ
  have dl := rndMP_D_near (φ := φ) (al.trans (by linarith)) hue ht hq
  have du := rndMP_U_near (φ := φ) (au.trans (by linarith)) hue ht hq
  rw [← ql] at dl
  rw [← qu] at du
  have R := reach_Icc (monotone_arcsin hlu')
  have sv : ∀ v ∈ Set.Icc (arcsin (l:ℝ)) (arcsin u), v ∈ Set.Icc (-(π / 2)) (π / 2) ∧ sin v ∈ c.set := by
    intro v hv
    have v1 : v ∈ Set.Icc (-(π / 2)) (π / 2) := ⟨bl.1.trans hv.1, hv.2.trans bu.2⟩
    refine ⟨v1, hin _ ?_ ?_⟩
    · have := strictMonoOn_sin.monotoneOn bl v1 hv.1
      rwa [sin_arcsin hl' (by linarith)] at this
    · have := strictMonoOn_sin.monotoneOn v1 bu hv.2
      rwa [sin_arcsin (by linarith) hu'] at this
  intro k a b hk pa pb s h1 h3
  unfold Fmt.sinBox at h1 h3
  have hk' : ((|k| : ℤ) : ℚ) ≤ φ.maxFin := by push_cast at hk ⊢; linarith
  split_ifs at h1 h3 with hpar
  · refine shift_near pa pb hk' al au dl du R (fun v hv => Or.inl ⟨?_, ?_⟩) (fun s hs => near_far s hs _) h1 h3
    · show sin _ ∈ c.set
      have hev : Even k := Int.even_iff.mpr hpar
      rw [add_comm, sin_add_int_mul_pi, hev.neg_one_zpow, one_mul]
      exact (sv v hv).2
    · rw [show k * π + v - k * π = v by ring]; exact abs_le.mpr (sv v hv).1
  · refine mirror_near pa pb (by rwa [abs_neg]) al au dl du R (fun v hv => Or.inl ⟨?_, ?_⟩) (fun s hs => near_far s hs _) h1 h3
    · show sin _ ∈ c.set
      have hod : Odd k := Int.not_even_iff_odd.mp (fun h => hpar (Int.even_iff.mp h))
      rw [show -((((-k : ℤ) : ℝ)) * π + v) = -v + k * π by push_cast; ring, sin_add_int_mul_pi, hod.neg_one_zpow, sin_neg]
      simpa using (sv v hv).2
    · rw [show -((((-k : ℤ) : ℝ)) * π + v) - k * π = -v by push_cast; ring, abs_neg]; exact abs_le.mpr (sv v hv).1

/-- How `tan_rev` gets its result, and that each box is near its branch. -/
theorem tan_rev_cases (hc : c.Ok φ) (hx : x.NE φ) :
    c.tanRev φ x = Itv.empty ∨ ∃ box, BoxIn φ box ∧ BoxLoc φ box (Branch {t | cos t ≠ 0 ∧ tan t ∈ c.set}) ∧
      c.tanRev φ x = (φ.leftBox box x).hull (φ.rightBox ceilQuo box x) := by
  rcases hc.cases with rfl | nc
  · exact Or.inl (by simp [Itv.tanRev])
  refine Or.inr ?_
  unfold Itv.tanRev
  rw [if_neg (by simp [hc.isValid, hx.ok.isValid, nc.isEmpty, hx.isEmpty])]
  refine ⟨_, tanBox_in _ _, ?_, rfl⟩
  have hpi := pi_lt_d2
  have hpi0 := pi_pos
  obtain ⟨u0, hu1, hup, hue, ht, hq⟩ := unit_facts φ
  obtain ⟨r0, hr0⟩ := nc.nonempty
  obtain ⟨α, hα, qα, aα⟩ : ∃ α, ((∃ r : ℝ, c.lo.toE = r ∧ α = arctan r) ∨ c.lo.toE = ⊥ ∧ α = -(π / 2)) ∧
      (φ.arcNS .D arctan (-(π / 2)) (π / 2) c.lo).q = (φ.rndMP .D α).q ∧ |α| ≤ π := by
    by_cases h : c.lo = .ninf
    · exact ⟨-(π / 2), Or.inr ⟨by rw [h]; rfl, rfl⟩, by rw [h]; rfl, by rw [abs_neg, abs_of_pos (by linarith)]; linarith⟩
    · have hf : c.lo.toE ≠ ⊥ := fun hh => h (FP.toE_eq_bot.mp hh)
      have hr : c.lo.toE = ((c.lo.toE.toReal : ℝ) : EReal) := (EReal.coe_toReal nc.lo_top hf).symm
      refine ⟨arctan c.lo.toE.toReal, Or.inl ⟨_, hr, rfl⟩, arcNS_q .D arctan _ _ hr nc.lo_ne, ?_⟩
      exact abs_le.mpr ⟨by linarith [neg_pi_div_two_lt_arctan c.lo.toE.toReal], by linarith [arctan_lt_pi_div_two c.lo.toE.toReal]⟩
  obtain ⟨β, hβ, qβ, aβ⟩ : ∃ β, ((∃ r : ℝ, c.hi.toE = r ∧ β = arctan r) ∨ c.hi.toE = ⊤ ∧ β = π / 2) ∧
      (φ.arcNS .U arctan (-(π / 2)) (π / 2) c.hi).q = (φ.rndMP .U β).q ∧ |β| ≤ π := by
    by_cases h : c.hi = .pinf
    · exact ⟨π / 2, Or.inr ⟨by rw [h]; rfl, rfl⟩, by rw [h]; rfl, by rw [abs_of_pos (by linarith)]; linarith⟩
    · have hf : c.hi.toE ≠ ⊤ := fun hh => h (FP.toE_eq_top.mp hh)
      have hr : c.hi.toE = ((c.hi.toE.toReal : ℝ) : EReal) := (EReal.coe_toReal hf nc.hi_bot).symm
      refine ⟨arctan c.hi.toE.toReal, Or.inl ⟨_, hr, rfl⟩, arcNS_q .U arctan _ _ hr nc.hi_ne, ?_⟩
      exact abs_le.mpr ⟨by linarith [neg_pi_div_two_lt_arctan c.hi.toE.toReal], by linarith [arctan_lt_pi_div_two c.hi.toE.toReal]⟩
  have dl := rndMP_D_near (φ := φ) (aα.trans (by linarith)) hue ht hq
  have du := rndMP_U_near (φ := φ) (aβ.trans (by linarith)) hue ht hq
  rw [← qα] at dl
  rw [← qβ] at du
  have R := reach_tan ⟨r0, nc.mem.mp hr0⟩ hα hβ
  intro k a b hk pa pb s h1 h3
  have hk' : ((|k| : ℤ) : ℚ) ≤ φ.maxFin := by push_cast at hk ⊢; linarith
  refine shift_near pa pb hk' aα aβ dl du R ?_ (fun s hs => near_far s hs _) h1 h3
  rintro _ ⟨r, hr, rfl⟩
  refine Or.inl ⟨⟨?_, ?_⟩, ?_⟩
  · rw [add_comm, cos_add_int_mul_pi]
    exact mul_ne_zero (zpow_ne_zero _ (by norm_num)) (cos_arctan_pos r).ne'
  · rw [add_comm, tan_add_int_mul_pi, tan_arctan]; exact nc.mem.mpr hr
  · rw [show k * π + arctan r - k * π = arctan r by ring]
    exact abs_le.mpr ⟨(neg_pi_div_two_lt_arctan r).le, (arctan_lt_pi_div_two r).le⟩

/-- No solution from the lower end `a` of `x` up to the end of the next half period: nothing of `x` but its last `3π/2` is in
`sin_rev(c, x)`. -/
theorem C31_sin_rev_lost_low (hc : c.Ok φ) (hx : x.Ok φ) (ha : IsLeast x.set a) (hb : IsGreatest x.set b)
    (hA : |a| ≤ M) (hB : |b| ≤ M) (hM : M ≤ 2 ^ φ.p / 2) (hM2 : M ≤ 2 ^ 64)
    (h : NoneAfter {t | sin t ∈ c.set} (RevErr φ M) a) :
    ∀ s ∈ (c.sinRev φ x).set, b - 3 / 2 * π - 2 * RevErr φ M ≤ s := by
  rcases hx.cases with rfl | nx
  · simpa using ha.1
  rcases sin_rev_cases hc nx with e | e | ⟨box, b1, b2, e⟩
  · rw [e]; simp
  · obtain ⟨k, h1, h2, h3⟩ := h
    have u0 := (unit_facts φ).1
    have : 0 ≤ RevErr φ M := by
      have := (abs_nonneg a).trans hA
      rw [revErr_eq]; positivity
    have := h3 a (e a) (by linarith)
    have := pi_pos
    nlinarith
  · rw [e]; exact hull_lost_left b1 b2 nx ha hb hA hB hM hM2 h

/-- No solution from the start of the previous half period to the upper end `b` of `x`: nothing of `x` but its first `3π/2` is in
`sin_rev(c, x)`. -/
theorem C31_sin_rev_lost_high (hc : c.Ok φ) (hx : x.Ok φ) (ha : IsLeast x.set a) (hb : IsGreatest x.set b)
    (hA : |a| ≤ M) (hB : |b| ≤ M) (hM : M ≤ 2 ^ φ.p / 2) (hM2 : M ≤ 2 ^ 64)
    (h : NoneBefore {t | sin t ∈ c.set} (RevErr φ M) b) :
    ∀ s ∈ (c.sinRev φ x).set, s ≤ a + 3 / 2 * π + 2 * RevErr φ M := by
  rcases hx.cases with rfl | nx
  · simpa using ha.1
  rcases sin_rev_cases hc nx with e | e | ⟨box, b1, b2, e⟩
  · rw [e]; simp
  · obtain ⟨k, h1, h2, h3⟩ := h
    have u0 := (unit_facts φ).1
    have : 0 ≤ RevErr φ M := by
      have := (abs_nonneg a).trans hA
      rw [revErr_eq]; positivity
    have := h3 b (e b) (by linarith)
    have := pi_pos
    nlinarith
  · rw [e]; exact hull_lost_right b1 b2 nx ha hb hA hB hM hM2 h

/-- The same for `tan_rev` at the lower end. -/
theorem C31_tan_rev_lost_low (hc : c.Ok φ) (hx : x.Ok φ) (ha : IsLeast x.set a) (hb : IsGreatest x.set b)
    (hA : |a| ≤ M) (hB : |b| ≤ M) (hM : M ≤ 2 ^ φ.p / 2) (hM2 : M ≤ 2 ^ 64)
    (h : NoneAfter {t | cos t ≠ 0 ∧ tan t ∈ c.set} (RevErr φ M) a) :
    ∀ s ∈ (c.tanRev φ x).set, b - 3 / 2 * π - 2 * RevErr φ M ≤ s := by
  rcases hx.cases with rfl | nx
  · simpa using ha.1
  rcases tan_rev_cases hc nx with e | ⟨box, b1, b2, e⟩
  · rw [e]; simp
  · rw [e]; exact hull_lost_left b1 b2 nx ha hb hA hB hM hM2 h

/-- The same for `tan_rev` at the upper end. -/
theorem C31_tan_rev_lost_high (hc : c.Ok φ) (hx : x.Ok φ) (ha : IsLeast x.set a) (hb : IsGreatest x.set b)
    (hA : |a| ≤ M) (hB : |b| ≤ M) (hM : M ≤ 2 ^ φ.p / 2) (hM2 : M ≤ 2 ^ 64)
    (h : NoneBefore {t | cos t ≠ 0 ∧ tan t ∈ c.set} (RevErr φ M) b) :
    ∀ s ∈ (c.tanRev φ x).set, s ≤ a + 3 / 2 * π + 2 * RevErr φ M := by
  rcases hx.cases with rfl | nx
  · simpa using ha.1
  rcases tan_rev_cases hc nx with e | ⟨box, b1, b2, e⟩
  · rw [e]; simp
  · rw [e]; exact hull_lost_right b1 b2 nx ha hb hA hB hM hM2 h

/-- The lower end 3 is past the solutions near `π / 2`, the next ones are near `5π / 2`; those are lost. -/
example : let c : Itv := ⟨.fin (1/2), .fin 1⟩; let x : Itv := ⟨.fin 3, .fin 20⟩
    c.Ok binary64 ∧ x.Ok binary64 ∧ IsLeast x.set 3 ∧ IsGreatest x.set 20 ∧ NoneAfter {t | sin t ∈ c.set} (RevErr binary64 20) 3 ∧
      ∃ t ∈ RevSol sin c.set x.set, t < 20 - 3 / 2 * π - 2 * RevErr binary64 20 := by
  have hpi := pi_lt_d4
  have hpi' := pi_gt_d4
  have n1 : Itv.NE binary64 ⟨.fin 3, .fin 20⟩ := (Itv.ok_of_okb (by decide +kernel)).cases.resolve_left (by decide +kernel)
  have z : RevErr binary64 20 ≤ 1 / 100 := by
    unfold RevErr
    rw [show (2 - (binary64.p:ℤ)) = -51 from by decide]; norm_num
  have z0 : 0 ≤ RevErr binary64 20 := by
    unfold RevErr
    rw [show (2 - (binary64.p:ℤ)) = -51 from by decide]; norm_num
  refine ⟨Itv.ok_of_okb (by decide +kernel), n1.ok, n1.isLeast (by simp [FP.toE]), n1.isGreatest (by simp [FP.toE]),
    ⟨0, by push_cast; linarith, by push_cast; linarith, fun s hs h => ?_⟩, π / 2 + 2 * π, ⟨?_, ?_⟩, by linarith⟩
  · by_contra hc
    push Not at hc
    have hs' := (mem_fin.mp hs).1
    push_cast at hs' hc
    rcases le_or_gt s π with h1 | h1
    · rw [← sin_pi_sub] at hs'
      have := sin_le (x := π - s) (by linarith)
      linarith
    · rw [show s = (s - π) + π by ring, sin_add_pi] at hs'
      have := sin_nonneg_of_nonneg_of_le_pi (x := s - π) (by linarith) (by linarith)
      linarith
  · rw [mem_fin]; push_cast; constructor <;> linarith
  · rw [mem_fin, sin_add_two_pi, sin_pi_div_two]; push_cast; constructor <;> linarith

/-- The same for the tangent: the lower end 3 is past the solutions near `3π / 4`, those near `7π / 4` are lost. -/
example : let c : Itv := ⟨.fin (-2), .fin (-1)⟩; let x : Itv := ⟨.fin 3, .fin 20⟩
    c.Ok binary64 ∧ x.Ok binary64 ∧ IsLeast x.set 3 ∧ IsGreatest x.set 20 ∧
      NoneAfter {t | cos t ≠ 0 ∧ tan t ∈ c.set} (RevErr binary64 20) 3 ∧
      ∃ t ∈ RevSol tan c.set x.set, t < 20 - 3 / 2 * π - 2 * RevErr binary64 20 := by
  have hpi := pi_lt_d4
  have hpi' := pi_gt_d4
  have n1 : Itv.NE binary64 ⟨.fin 3, .fin 20⟩ := (Itv.ok_of_okb (by decide +kernel)).cases.resolve_left (by decide +kernel)
  have z : RevErr binary64 20 ≤ 1 / 100 := by
    unfold RevErr
    rw [show (2 - (binary64.p:ℤ)) = -51 from by decide]; norm_num
  have z0 : 0 ≤ RevErr binary64 20 := by
    unfold RevErr
    rw [show (2 - (binary64.p:ℤ)) = -51 from by decide]; norm_num
  refine ⟨Itv.ok_of_okb (by decide +kernel), n1.ok, n1.isLeast (by simp [FP.toE]), n1.isGreatest (by simp [FP.toE]),
    ⟨0, by push_cast; linarith, by push_cast; linarith, fun s hs h => ?_⟩, -(π / 4) + 2 * π, ⟨?_, ?_⟩, by linarith⟩
  · by_contra hc
    push Not at hc
    have hs' := (mem_fin.mp hs.2).2
    push_cast at hs' hc
    rcases le_or_gt π s with h1 | h1
    · rw [show s = (s - π) + π by ring, tan_add_pi] at hs'
      have := tan_nonneg_of_nonneg_of_le_pi_div_two (x := s - π) (by linarith) (by linarith)
      linarith
    · rw [show s = -(π - s) + π by ring, tan_add_pi, tan_neg] at hs'
      have := tan_lt_tan_of_nonneg_of_lt_pi_div_two (x := π - s) (y := π / 4) (by linarith) (by linarith) (by linarith)
      rw [tan_pi_div_four] at this
      linarith
  · rw [mem_fin]; push_cast; constructor <;> linarith
  · rw [mem_fin, show -(π / 4) + 2 * π = (-(π / 4) + π) + π by ring, tan_add_pi, tan_add_pi, tan_neg, tan_pi_div_four]
    push_cast; constructor <;> linarith

end P1788
