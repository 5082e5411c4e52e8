import Verif.Lemmas.RevTrig6
import Verif.Lemmas.RevKeep
import Verif.Props.C30

/-! # C31: reverse trigonometric functions

Full statement: for all valid intervals `c`, `x` the result of `sin_rev(c, x)` (`cos_rev`, `tan_rev`) contains every
`t ∈ x` with `sin t ∈ c` (`cos t ∈ c`; `tan t` defined and in `c`).

That statement is false of the code, see the theorems `C31_*_false`.  Proved are

* `C31_valid`: for all operands the result is a valid interval and a subset of `x`;
* `C31_unary`: the unary versions are correct for all operands;
* `C31_cos_rev_partial`: `cos_rev` loses no solution if the finite bounds of `x` are at most `2^64` in magnitude;
* `C31_sin_rev_partial`, `C31_tan_rev_partial`: the same for `sin_rev`, `tan_rev`, provided that `0 ∈ c`;
* in `C31Ends.lean`: the same for every `c`, provided that each finite end of `x` is near to a solution or, the lower end, in the first
  (the upper end, in the last) half of a period of the tangent.
-/

namespace P1788
open Real

variable {φ : Fmt} {c x : Itv}

/-- `tan` is defined where `cos` does not vanish. -/
def tanDom : Set ℝ := {t | cos t ≠ 0}

/-- Whatever the operands: the result is a valid interval, and it is contained in `x`. -/
theorem C31_valid (hc : c.Ok φ) (hx : x.Ok φ) :
    ((c.sinRev φ x).Ok φ ∧ (c.sinRev φ x).set ⊆ x.set) ∧
    ((c.cosRev φ x).Ok φ ∧ (c.cosRev φ x).set ⊆ x.set) ∧
    ((c.tanRev φ x).Ok φ ∧ (c.tanRev φ x).set ⊆ x.set) := by
  rcases hx.cases with rfl | nx
  · refine ⟨?_, ?_, ?_⟩ <;> simp [Itv.sinRev, Itv.cosRev, Itv.tanRev, Itv.ok_empty]
  obtain ⟨i, -⟩ := Itv.inter_ok_set hc (ok_unit φ).ok
  refine ⟨?_, ?_, ?_⟩
  · unfold Itv.sinRev
    simp only [hc.isValid, hx.isValid, nx.isEmpty, Bool.not_true, Bool.or_self, Bool.false_eq_true, if_false]
    split_ifs with h1 h2
    · have : c.inter ⟨.fin (-1), .fin 1⟩ = Itv.empty := i.isEmpty_iff.mp h1
      rw [this]; exact ⟨Itv.ok_empty φ, by simp⟩
    · exact ⟨hx, subset_rfl⟩
    · exact hull_any (sinBox_in _ _) nx
  · unfold Itv.cosRev
    simp only [hc.isValid, hx.isValid, nx.isEmpty, Bool.not_true, Bool.or_self, Bool.false_eq_true, if_false]
    split_ifs with h1 h2
    · have : c.inter ⟨.fin (-1), .fin 1⟩ = Itv.empty := i.isEmpty_iff.mp h1
      rw [this]; exact ⟨Itv.ok_empty φ, by simp⟩
    · exact ⟨hx, subset_rfl⟩
    · exact hull_any (cosBox_in _ _) nx
  · unfold Itv.tanRev
    split_ifs with h1
    · exact ⟨Itv.ok_empty φ, by simp⟩
    · exact hull_any (tanBox_in _ _) nx

/-- `sin_rev(c, x)` contains every `t ∈ x` with `sin t ∈ c`, if `0 ∈ c` and the finite bounds of `x` are at most `2^64` in magnitude.
(Missing for the full statement: `c` without zero, huge bounds; there it is false.) -/
theorem C31_sin_rev_partial (hc : c.Ok φ) (hx : x.Ok φ) (hs : x.Bounds64) (h0 : (0:ℝ) ∈ c.set) :
    RevSol sin c.set x.set ⊆ (c.sinRev φ x).set := by
  rcases hx.cases with rfl | nx
  · simp [RevSol]
  obtain ⟨i, j⟩ := Itv.inter_ok_set hc (ok_unit φ).ok
  rw [set_unit] at j
  unfold Itv.sinRev
  simp only [hc.isValid, hx.isValid, nx.isEmpty, Bool.not_true, Bool.or_self, Bool.false_eq_true, if_false]
  generalize c.inter ⟨.fin (-1), .fin 1⟩ = cc at *
  have h0' : (0:ℝ) ∈ cc.set := by rw [j]; exact ⟨h0, by norm_num⟩
  have nc : cc.NE φ := i.cases.resolve_left (by rintro rfl; simp at h0')
  rw [if_neg (by simp [nc.isEmpty])]
  split_ifs with h2
  · exact fun t ht => ht.1
  obtain ⟨l, u, el, eu, hl, hlu, hu, rl, ru, hmem⟩ := unit_bounds nc (by rw [j]; exact Set.inter_subset_right)
  have hl0 : (l:ℝ) ≤ 0 := (hmem 0 h0').1
  have hu0 : (0:ℝ) ≤ u := (hmem 0 h0').2
  have hpi := pi_lt_d2
  have ql := arcNS_q (φ := φ) .D arcsin 0 0 el nc.lo_ne
  have qu := arcNS_q (φ := φ) .U arcsin 0 0 eu nc.hi_ne
  have bl := arcsin_mem_Icc (l:ℝ)
  have bu := arcsin_mem_Icc (u:ℝ)
  have al : |arcsin (l:ℝ)| ≤ 4 := abs_le.mpr ⟨by linarith [bl.1], by linarith [bl.2]⟩
  have au : |arcsin (u:ℝ)| ≤ 4 := abs_le.mpr ⟨by linarith [bu.1], by linarith [bu.2]⟩
  have dl := φ.rndMP_D_le al
  have du := φ.le_rndMP_U au
  have r2 := φ.rep_small (k := 2) (by norm_num)
  have r2' := φ.rep_small (k := -2) (by norm_num)
  have dl2 := φ.le_rndMP_D al r2' (by push_cast; linarith [bl.1]) (Or.inl (by norm_num))
  have du2 := φ.rndMP_U_le au r2 (by push_cast; linarith [bu.2]) (Or.inl (by norm_num))
  have cl0 : (φ.arcNS .D arcsin 0 0 cc.lo).q ≤ 0 := by
    rw [ql]
    have : ((φ.rndMP .D (arcsin l)).q : ℝ) ≤ 0 := dl.trans (arcsin_nonpos.mpr hl0)
    exact_mod_cast this
  have cu0 : 0 ≤ (φ.arcNS .U arcsin 0 0 cc.hi).q := by
    rw [qu]
    have : (0:ℝ) ≤ ((φ.rndMP .U (arcsin u)).q : ℝ) := (arcsin_nonneg.mpr hu0).trans du
    exact_mod_cast this
  have cl2 : -2 ≤ (φ.arcNS .D arcsin 0 0 cc.lo).q := by rw [ql]; exact_mod_cast dl2
  have cu2 : (φ.arcNS .U arcsin 0 0 cc.hi).q ≤ 2 := by rw [qu]; exact_mod_cast du2
  have K := sin_keeps (φ := φ) cl0 cu0 cl2 cu2
  have F := sin_family (φ := φ) (U := arcsin '' (c.set ∩ Set.Icc (-1) 1))
    (cl := φ.arcNS .D arcsin 0 0 cc.lo) (cu := φ.arcNS .U arcsin 0 0 cc.hi)
    ⟨_, 0, by rw [← j]; exact h0', rfl⟩
    (by rintro _ ⟨r, -, rfl⟩; exact arcsin_mem_Icc r)
    (by rintro _ ⟨r, hr, rfl⟩
        rw [← j] at hr
        rw [ql, qu]
        exact ⟨dl.trans (monotone_arcsin (hmem r hr).1), (monotone_arcsin (hmem r hr).2).trans du⟩)
    cl0 cu0 cl2 cu2
  refine (hull_cover (S := RevSol sin c.set x.set) hx
    (left_cover' F K (sinBox_in _ _) (Or.inl rfl) nx hs (fun s hs => hs.1) ?_)
    (right_cover' F K (sinBox_in _ _) (Or.inl rfl) nx hs (ceil_quo _) (fun s hs => hs.1) ?_)).2.2
  · intro s hs n hn
    obtain ⟨k, hk, hr⟩ := sin_loc hs.2
    exact ⟨k, (round_loc hr).1 hn, hk⟩
  · intro s hs n hn
    obtain ⟨k, hk, hr⟩ := sin_loc hs.2
    exact ⟨k, (round_loc hr).2 hn, hk⟩

/-- `cos_rev(c, x)` contains every `t ∈ x` with `cos t ∈ c`, if the finite bounds of `x` are at most `2^64` in magnitude.
(Missing for the full statement: huge bounds; there it is false.) -/
theorem C31_cos_rev_partial (hc : c.Ok φ) (hx : x.Ok φ) (hs : x.Bounds64) :
    RevSol cos c.set x.set ⊆ (c.cosRev φ x).set := by
  rcases hx.cases with rfl | nx
  · simp [RevSol]
  obtain ⟨i, j⟩ := Itv.inter_ok_set hc (ok_unit φ).ok
  rw [set_unit] at j
  unfold Itv.cosRev
  simp only [hc.isValid, hx.isValid, nx.isEmpty, Bool.not_true, Bool.or_self, Bool.false_eq_true, if_false]
  generalize c.inter ⟨.fin (-1), .fin 1⟩ = cc at *
  rcases i.cases with rfl | nc
  · rintro t ⟨-, ht⟩
    have : cos t ∈ c.set ∩ Set.Icc (-1) 1 := ⟨ht, neg_one_le_cos t, cos_le_one t⟩
    rw [← j] at this; simp at this
  rw [if_neg (by simp [nc.isEmpty])]
  split_ifs with h2
  · exact fun t ht => ht.1
  obtain ⟨l, u, el, eu, hl, hlu, hu, rl, ru, hmem⟩ := unit_bounds nc (by rw [j]; exact Set.inter_subset_right)
  have hpi := pi_lt_d2
  have ql := arcNS_q (φ := φ) .D arccos 0 0 eu nc.hi_ne
  have qu := arcNS_q (φ := φ) .U arccos 0 0 el nc.lo_ne
  have al : |arccos (u:ℝ)| ≤ 4 := abs_le.mpr ⟨by linarith [arccos_nonneg (u:ℝ)], by linarith [arccos_le_pi (u:ℝ)]⟩
  have au : |arccos (l:ℝ)| ≤ 4 := abs_le.mpr ⟨by linarith [arccos_nonneg (l:ℝ)], by linarith [arccos_le_pi (l:ℝ)]⟩
  have dl := φ.rndMP_D_le al
  have du := φ.le_rndMP_U au
  have dl0 := φ.le_rndMP_D al φ.rep_zero (by push_cast; exact arccos_nonneg _) (Or.inr (Or.inl rfl))
  have du0 : (0:ℝ) ≤ ((φ.rndMP .U (arccos l)).q : ℝ) := (arccos_nonneg _).trans du
  have r4 := φ.rep_small (k := 4) (by norm_num)
  have du4 := φ.rndMP_U_le au r4 (by push_cast; linarith [arccos_le_pi (l:ℝ)]) (Or.inl (by norm_num))
  have thrq : ((2 ^ (φ.qmin + φ.p - 1) : ℚ) : ℝ) = φ.thr := by unfold Fmt.thr; push_cast; rfl
  have cl0 : 0 ≤ (φ.arcNS .D arccos 0 0 cc.hi).q := by rw [ql]; exact dl0
  have clp : (φ.arcNS .D arccos 0 0 cc.hi).q ≤ (φ.constPi .D).q := by
    rw [ql]
    rcases lt_or_ge |arccos (u:ℝ)| φ.thr with h | h
    · have h1 := (φ.rndMP_tiny_D h).1
      have h2 := (abs_lt.mp h).2
      have h3 := φ.thr_le_quarter
      have h4 : ((φ.rndMP .D (arccos u)).q : ℝ) ≤ 3 := by linarith
      have : (φ.rndMP .D (arccos u)).q ≤ 3 := by exact_mod_cast h4
      exact this.trans φ.three_le_pid
    · have hr : φ.Rep (φ.roundQ .D (arccos (u:ℝ))) := φ.rep_roundQ (φ.roundQ_le_maxFin (φ.abs_le_maxFin al))
      rw [φ.rndMP_big _ h, φ.round_q al, φ.pi_q]
      exact φ.le_roundQ_D hr ((φ.roundQ_D_le _).trans (arccos_le_pi _))
  have clu : (φ.arcNS .D arccos 0 0 cc.hi).q ≤ (φ.arcNS .U arccos 0 0 cc.lo).q := by
    rw [ql, qu]
    have : ((φ.rndMP .D (arccos u)).q : ℝ) ≤ ((φ.rndMP .U (arccos l)).q : ℝ) :=
      dl.trans ((antitone_arccos (by exact_mod_cast hlu)).trans du)
    exact_mod_cast this
  have cu4 : (φ.arcNS .U arccos 0 0 cc.lo).q ≤ 4 := by rw [qu]; exact_mod_cast du4
  have K := cos_keeps (φ := φ) cl0 clu clp cu4
  have F := cos_family (φ := φ) (U := arccos '' (c.set ∩ Set.Icc (-1) 1))
    (cl := φ.arcNS .D arccos 0 0 cc.hi) (cu := φ.arcNS .U arccos 0 0 cc.lo)
    (by obtain ⟨r, hr⟩ := nc.nonempty; exact ⟨_, r, by rw [← j]; exact hr, rfl⟩)
    (by rintro _ ⟨r, -, rfl⟩; exact ⟨arccos_nonneg r, arccos_le_pi r⟩)
    (by rintro _ ⟨r, hr, rfl⟩
        rw [← j] at hr
        rw [ql, qu]
        exact ⟨dl.trans (antitone_arccos (hmem r hr).2), (antitone_arccos (hmem r hr).1).trans du⟩)
    cl0 clp
    (by rw [qu]; exact_mod_cast du0)
    cu4
    (by rw [ql]
        rcases hu.eq_or_lt with h | h
        · left; rw [h]; push_cast; rw [arccos_one, φ.rndMP_zero]; rfl
        · right
          have hb := arccos_big ru h (hl.trans hlu)
          have := φ.le_rndMP_D al φ.rep_thr (by rw [thrq]; exact hb) (Or.inr (Or.inr (by rw [thrq])))
          have := (Rat.cast_le (K := ℝ)).mpr this
          rwa [thrq] at this)
    (by rw [qu]
        rcases (hlu.trans hu).eq_or_lt with h | h
        · left; rw [h]; push_cast; rw [arccos_one, φ.rndMP_zero]; rfl
        · right; exact (arccos_big rl h hl).trans du)
  refine (hull_cover (S := RevSol cos c.set x.set) hx
    (left_cover' F K (cosBox_in _ _) (Or.inr rfl) nx hs (fun s hs => hs.1) ?_)
    (right_cover' F K (cosBox_in _ _) (Or.inr rfl) nx hs (floor_quo _) (fun s hs => hs.1) ?_)).2.2
  · intro s hs n hn
    exact ⟨_, Int.le_floor.mpr (by rw [le_div_iff₀ pi_pos]; exact hn), cos_loc hs.2⟩
  · intro s hs n hn
    rcases hn.eq_or_lt with h | h
    · -- the common end of two branches
      refine ⟨n, le_rfl, ?_⟩
      have hm := cos_loc hs.2
      have hfl : ⌊s / π⌋ = n + 1 := by
        rw [h]; push_cast; rw [mul_div_assoc, div_self pi_ne_zero, mul_one]
        have : ⌊((n + 1 : ℤ) : ℝ)⌋ = n + 1 := Int.floor_intCast _
        push_cast at this; exact this
      rw [hfl] at hm
      obtain ⟨v, ⟨r, hr, rfl⟩, he⟩ := hm
      refine ⟨arccos r, ⟨r, hr, rfl⟩, ?_⟩
      push_cast at h he
      rcases Int.emod_two_eq_zero_or_one n with hp | hp
      · rw [if_neg (by omega)] at he
        rw [if_pos hp]; rw [h] at he ⊢; linarith
      · rw [if_pos (by omega)] at he
        rw [if_neg (by omega)]; rw [h] at he ⊢; linarith
    · refine ⟨_, ?_, cos_loc hs.2⟩
      have : ⌊s / π⌋ < n + 1 := Int.floor_lt.mpr (by rw [div_lt_iff₀ pi_pos]; exact_mod_cast h)
      omega

/-- `tan_rev(c, x)` contains every `t ∈ x` with `tan t ∈ c`, if `0 ∈ c` and the finite bounds of `x` are at most `2^64` in magnitude.
(Missing for the full statement: `c` without zero, huge bounds; there it is false.) -/
theorem C31_tan_rev_partial (hc : c.Ok φ) (hx : x.Ok φ) (hs : x.Bounds64) (h0 : (0:ℝ) ∈ c.set) :
    RevSolOn tan tanDom c.set x.set ⊆ (c.tanRev φ x).set := by
  rcases hx.cases with rfl | nx
  · simp [RevSolOn]
  have nc : c.NE φ := hc.cases.resolve_left (by rintro rfl; simp at h0)
  unfold Itv.tanRev
  simp only [hc.isValid, hx.isValid, nx.isEmpty, nc.isEmpty, Bool.not_true, Bool.or_self, Bool.false_eq_true, if_false]
  have hpi := pi_lt_d2
  have hpp := pi_pos
  -- the bounds of `atan`
  have hl : ∃ w : ℝ, -(π / 2) ≤ w ∧ w ≤ 0 ∧ (∀ r ∈ c.set, w ≤ arctan r) ∧
      (φ.arcNS .D arctan (-(π / 2)) (π / 2) c.lo).q = (φ.rndMP .D w).q := by
    by_cases hf : c.lo.feq .ninf = true
    · have e : c.lo = .ninf := by simpa [Itv.feq_ninf] using hf
      rw [e]
      exact ⟨-(π / 2), le_rfl, by linarith, fun r _ => (neg_pi_div_two_lt_arctan r).le, rfl⟩
    · have e := lo_fin nc hf
      refine ⟨arctan c.lo.q, (neg_pi_div_two_lt_arctan _).le, ?_, fun r hr => ?_, arcNS_q _ _ _ _ e nc.lo_ne⟩
      · have := (nc.mem.mp h0).1
        rw [e] at this
        have : ((c.lo.q : ℚ):ℝ) ≤ 0 := by exact_mod_cast this
        have := arctan_mono this
        rwa [arctan_zero] at this
      · have := (nc.mem.mp hr).1
        rw [e, EReal.coe_le_coe_iff] at this
        exact arctan_mono this
  have hu : ∃ w : ℝ, w ≤ π / 2 ∧ 0 ≤ w ∧ (∀ r ∈ c.set, arctan r ≤ w) ∧
      (φ.arcNS .U arctan (-(π / 2)) (π / 2) c.hi).q = (φ.rndMP .U w).q := by
    by_cases hf : c.hi.feq .pinf = true
    · have e : c.hi = .pinf := by simpa [Itv.feq_pinf] using hf
      rw [e]
      exact ⟨π / 2, le_rfl, by linarith, fun r _ => (arctan_lt_pi_div_two r).le, rfl⟩
    · have e := hi_fin nc hf
      refine ⟨arctan c.hi.q, (arctan_lt_pi_div_two _).le, ?_, fun r hr => ?_, arcNS_q _ _ _ _ e nc.hi_ne⟩
      · have := (nc.mem.mp h0).2
        rw [e] at this
        have : (0:ℝ) ≤ ((c.hi.q : ℚ):ℝ) := by exact_mod_cast this
        exact arctan_nonneg.mpr this
      · have := (nc.mem.mp hr).2
        rw [e, EReal.coe_le_coe_iff] at this
        exact arctan_mono this
  obtain ⟨wl, l1, l2, l3, l4⟩ := hl
  obtain ⟨wu, u1, u2, u3, u4⟩ := hu
  have dl := φ.rndMP_D_le (x := wl) (abs_le.mpr ⟨by linarith, by linarith⟩)
  have du := φ.le_rndMP_U (x := wu) (abs_le.mpr ⟨by linarith, by linarith⟩)
  have cl0 : (φ.arcNS .D arctan (-(π / 2)) (π / 2) c.lo).q ≤ 0 := by
    rw [l4]
    have := dl.trans l2
    exact_mod_cast this
  have cu0 : 0 ≤ (φ.arcNS .U arctan (-(π / 2)) (π / 2) c.hi).q := by
    rw [u4]
    have := u2.trans du
    exact_mod_cast this
  have K := tan_keeps (φ := φ) cl0 cu0
  have F := tan_family (φ := φ) (U := arctan '' c.set)
    (cl := φ.arcNS .D arctan (-(π / 2)) (π / 2) c.lo) (cu := φ.arcNS .U arctan (-(π / 2)) (π / 2) c.hi)
    ⟨_, 0, h0, rfl⟩
    (by rintro _ ⟨r, -, rfl⟩; exact ⟨(neg_pi_div_two_lt_arctan r).le, (arctan_lt_pi_div_two r).le⟩)
    (by rintro _ ⟨r, hr, rfl⟩
        rw [l4, u4]
        exact ⟨dl.trans (l3 r hr), (u3 r hr).trans du⟩)
    cl0 cu0
  refine (hull_cover (S := RevSolOn tan tanDom c.set x.set) hx
    (left_cover' F K (tanBox_in _ _) (Or.inl rfl) nx hs (fun s hs => hs.1) ?_)
    (right_cover' F K (tanBox_in _ _) (Or.inl rfl) nx hs (ceil_quo _) (fun s hs => hs.1) ?_)).2.2
  · intro s hs n hn
    obtain ⟨k, hk, hr⟩ := tan_loc hs.2.1 hs.2.2
    exact ⟨k, (round_loc hr).1 hn, hk⟩
  · intro s hs n hn
    obtain ⟨k, hk, hr⟩ := tan_loc hs.2.1 hs.2.2
    exact ⟨k, (round_loc hr).2 hn, hk⟩

/-! ## Counterexamples -/

theorem round3 {k : ℤ} (h : |k| ≤ 256) : (φ.round .N (k:ℚ)).q = k :=
  φ.round_intCast (h.trans (by
    calc (256:ℤ) = 2 ^ 8 := by norm_num
      _ ≤ _ := pow_le_pow_right₀ (by norm_num) φ.p_pos))

theorem big_abs {q : ℚ} (h : 1 ≤ |q| ∨ 1 / 2 ≤ |q|) : φ.thr ≤ |((q : ℚ) : ℝ)| := by
  have h1 : (1 / 2 : ℚ) ≤ |q| := by rcases h with h | h <;> linarith
  have h2 : (1 / 2 : ℝ) ≤ |(q:ℝ)| := by
    have := (Rat.cast_le (K := ℝ)).mpr h1; push_cast at this; exact this
  linarith [φ.thr_le_quarter]

/-- For `c = [1/2, 1]`, `x = [3, 14]` the number `7` is missing. -/
theorem sin_rev_witness (φ : Fmt) :
    let c : Itv := ⟨.fin (1 / 2), .fin 1⟩
    let x : Itv := ⟨.fin 3, .fin 14⟩
    c.Ok φ ∧ x.Ok φ ∧ x.SmallBounds φ ∧ (7:ℝ) ∈ RevSol sin c.set x.set ∧ (7:ℝ) ∉ (c.sinRev φ x).set := by
  have r1 : φ.Rep 1 := by simpa using φ.rep_small (k := 1) (by norm_num)
  have rh : φ.Rep (1 / 2) := by simpa using φ.rep_dyadic (j := 1) (i := 1) (by norm_num) (by norm_num)
  have r3 : φ.Rep 3 := by simpa using φ.rep_small (k := 3) (by norm_num)
  have r14 : φ.Rep 14 := by simpa using φ.rep_small (k := 14) (by norm_num)
  have r74 : φ.Rep (7 / 4) := by
    have := φ.rep_dyadic (j := 7) (i := 2) (by norm_num) (by norm_num); norm_num at this; exact this
  have r114 : φ.Rep (11 / 4) := by
    have := φ.rep_dyadic (j := 11) (i := 2) (by norm_num) (by norm_num); norm_num at this; exact this
  have r12 : φ.Rep 12 := by simpa using φ.rep_small (k := 12) (by norm_num)
  have nc := ne_fin rh r1 (by norm_num)
  have nx := ne_fin r3 r14 (by norm_num)
  have hpi := pi_lt_d4
  have hpi' := pi_gt_d4
  have hmod : (256:ℚ) ≤ 2 ^ φ.p := by
    calc (256:ℚ) = 2 ^ 8 := by norm_num
      _ ≤ _ := pow_le_pow_right₀ (by norm_num) φ.p_pos
  refine ⟨nc.ok, nx.ok, ?_, ⟨?_, ?_⟩, ?_⟩
  · intro q hq
    have : q = 3 ∨ q = 14 := by
      rcases hq with h | h
      · left; injection h with h; exact h.symm
      · right; injection h with h; exact h.symm
    rcases this with rfl | rfl
    · rw [abs_of_pos (by norm_num)]; exact ⟨by linarith, by norm_num⟩
    · rw [abs_of_pos (by norm_num)]; exact ⟨by linarith, by norm_num⟩
  · rw [mem_fin]; norm_num
  · rw [mem_fin]
    have e : sin 7 = sin (7 - 2 * π) := (sin_sub_two_pi 7).symm
    rw [e]
    push_cast
    constructor
    · rw [← sin_pi_div_six]
      exact sin_le_sin_of_le_of_le_pi_div_two (by linarith) (by linarith) (by linarith)
    · exact sin_le_one _
  · unfold Itv.sinRev
    have v1 := nc.ok.isValid
    have v2 := nx.ok.isValid
    have v3 := nx.isEmpty
    simp only [v1, v2, v3, Bool.not_true, Bool.or_self, Bool.false_eq_true, if_false]
    have ec : Itv.inter ⟨.fin (1 / 2), .fin 1⟩ ⟨.fin (-1), .fin 1⟩ = ⟨.fin (1 / 2), .fin 1⟩ := by decide +kernel
    rw [ec, if_neg (by decide +kernel), if_neg (by decide +kernel)]
    set cl := φ.arcNS .D arcsin 0 0 (.fin (1 / 2)) with hcl
    set cu := φ.arcNS .U arcsin 0 0 (.fin 1) with hcu
    have a6 : arcsin (1 / 2) = π / 6 :=
      arcsin_eq_of_sin_eq sin_pi_div_six ⟨by linarith, by linarith⟩
    have ecl : cl.q = (φ.rndMP .D (π / 6)).q := by
      rw [hcl]; simp only [Fmt.arcNS]; push_cast; rw [a6]
    have ecu : cu.q = (φ.rndMP .U (π / 2)).q := by
      rw [hcu]; simp only [Fmt.arcNS]; push_cast; rw [arcsin_one]
    have hl1 : 1 / 2 ≤ cl.q := by
      rw [ecl]
      refine φ.le_rndMP_D (abs_le.mpr ⟨by linarith, by linarith⟩) rh (by push_cast; linarith) (Or.inr (Or.inr ?_))
      push_cast; linarith [φ.thr_le_quarter]
    have hl2 : cl.q ≤ 1 := by
      have := φ.rndMP_D_le (x := π / 6) (abs_le.mpr ⟨by linarith, by linarith⟩)
      rw [ecl]
      have h : ((φ.rndMP .D (π / 6)).q : ℝ) ≤ 1 := by linarith
      exact_mod_cast h
    have hu1 : cu.q ≤ 7 / 4 := by
      rw [ecu]
      exact φ.rndMP_U_le (abs_le.mpr ⟨by linarith, by linarith⟩) r74 (by push_cast; linarith) (Or.inl (by norm_num))
    have hu2 : 3 / 2 ≤ cu.q := by
      have := φ.le_rndMP_U (x := π / 2) (abs_le.mpr ⟨by linarith, by linarith⟩)
      rw [ecu]
      have h : ((3 / 2 : ℚ) : ℝ) ≤ ((φ.rndMP .U (π / 2)).q : ℝ) := by push_cast; linarith
      exact_mod_cast h
    have p1 := φ.three_le_pid
    have p2 := φ.piu_le
    have p3 := φ.pid_le_piu
    have p4 : (φ.constPi .D).q ≤ 16 / 5 := by
      have h : ((φ.constPi .D).q : ℝ) ≤ ((16 / 5 : ℚ) : ℝ) := φ.pid_le.trans (by push_cast; linarith)
      exact_mod_cast h
    have nY : Itv.NE φ ⟨.fin 12, .pinf⟩ := ⟨by simp, by simp, by simp, EReal.coe_ne_top _, by simp, r12, trivial⟩
    have hb := sinBox_in (φ := φ) cl cu
    have L : (φ.leftBox (φ.sinBox cl cu) ⟨.fin 3, .fin 14⟩).set ⊆ Itv.set ⟨.fin 12, .pinf⟩ := by
      unfold Fmt.leftBox
      rw [if_neg (by decide +kernel), if_neg (by decide +kernel)]
      have en : floorQuo (FP.fin 3).q (φ.constPi .U).q = 0 := by
        refine floorQuo_eq (by linarith) (by norm_num [FP.q]) (by norm_num [FP.q]) ?_
        have : (3:ℝ) < ((φ.constPi .U).q : ℝ) := lt_of_lt_of_le pi_gt_three φ.le_piu
        have : (3:ℚ) < (φ.constPi .U).q := by exact_mod_cast this
        simpa [FP.q] using this
      simp only [en]
      refine firstOf_sub ?_ ?_
      · rw [inter_below (hb _ _ _) nx ?_ ?_]; · simp
        · unfold Fmt.sinBox
          rw [if_pos (by norm_num)]
          have e0 := round3 (φ := φ) (k := 0) (by norm_num)
          refine lt_of_le_of_lt (shift_hi_le (B := 7 / 4) r74 ?_ (Or.inr (big_abs (Or.inl ?_)))) ?_
          · rw [e0]; push_cast; linarith
          · rw [e0, abs_of_pos (by push_cast; linarith)]; push_cast; linarith
          · simp only [FP.toE]; rw [EReal.coe_lt_coe_iff]; norm_num
        · unfold Fmt.sinBox
          rw [if_pos (by norm_num)]
          exact (conv_spec φ _ (φ.fmaNS_ne_nan _ _ _ _)).1
      · rw [inter_below (hb _ _ _) nx ?_ ?_]; · simp
        · unfold Fmt.sinBox
          rw [if_neg (by norm_num)]
          have e0 := round3 (φ := φ) (k := -(0 + 1)) (by norm_num)
          refine lt_of_le_of_lt (mirror_hi_le (B := 11 / 4) r114 ?_ (Or.inr (big_abs (Or.inl ?_)))) ?_
          · rw [e0]; push_cast; linarith
          · rw [e0, abs_of_neg (by push_cast; linarith)]; push_cast; linarith
          · simp only [FP.toE]; rw [EReal.coe_lt_coe_iff]; norm_num
        · unfold Fmt.sinBox
          rw [if_neg (by norm_num)]
          simpa [Fmt.mirrorBox] using (conv_spec φ _ (φ.fmaNS_ne_nan _ _ _ _)).1
    have R : (φ.rightBox ceilQuo (φ.sinBox cl cu) ⟨.fin 3, .fin 14⟩).set ⊆ Itv.set ⟨.fin 12, .pinf⟩ := by
      unfold Fmt.rightBox
      rw [if_neg (by decide +kernel), if_pos (by decide +kernel)]
      have en : ceilQuo (FP.fin 14).q (φ.constPi .D).q = 5 := by
        refine ceilQuo_eq p1 (by norm_num [FP.q]) ?_ ?_
        · rw [show (FP.fin 14).q = 14 from rfl]; push_cast; linarith
        · rw [show (FP.fin 14).q = 14 from rfl]; push_cast; linarith
      simp only [en]
      refine firstOf_sub (inter_sub (hb _ _ _) nx ?_) (inter_sub (hb _ _ _) nx ?_)
      · intro t h1 _
        refine nY.mem.mpr ⟨le_trans ?_ h1, by simp⟩
        unfold Fmt.sinBox
        rw [if_neg (by norm_num)]
        have e0 := round3 (φ := φ) (k := -5) (by norm_num)
        refine le_mirror_lo r12 ?_ (Or.inr (big_abs (Or.inl ?_)))
        · rw [e0]; push_cast; linarith
        · rw [e0, abs_of_neg (by push_cast; linarith)]; push_cast; linarith
      · intro t h1 _
        refine nY.mem.mpr ⟨le_trans ?_ h1, by simp⟩
        unfold Fmt.sinBox
        rw [if_pos (by norm_num)]
        have e0 := round3 (φ := φ) (k := 5 - 1) (by norm_num)
        refine le_shift_lo r12 ?_ (Or.inr (big_abs (Or.inl ?_)))
        · rw [e0]; push_cast; linarith
        · rw [e0, abs_of_pos (by push_cast; linarith)]; push_cast; linarith
    intro hmem
    have := (Itv.hull_tight (leftBox_any hb nx).1 (rightBox_any (quo := ceilQuo) hb nx).1).2.2 _ nY.ok
      (Set.union_subset L R) hmem
    have := (nY.mem.mp this).1
    simp only [FP.toE] at this
    rw [EReal.coe_le_coe_iff] at this
    norm_num at this

/-- `sin_rev` loses solutions, in every format: for `c = [1/2, 1]`, `x = [3, 14]` the number `7` is missing. -/
theorem C31_sin_rev_false (φ : Fmt) :
    ∃ c x : Itv, c.Ok φ ∧ x.Ok φ ∧ x.SmallBounds φ ∧ ∃ t ∈ RevSol sin c.set x.set, t ∉ (c.sinRev φ x).set :=
  ⟨_, _, (sin_rev_witness φ).1, (sin_rev_witness φ).2.1, (sin_rev_witness φ).2.2.1, 7, (sin_rev_witness φ).2.2.2.1,
    (sin_rev_witness φ).2.2.2.2⟩

/-- For `c = [-1, -1]`, `x = [3, 10]` the number `7π/4` is missing. -/
theorem tan_rev_witness (φ : Fmt) :
    let c : Itv := ⟨.fin (-1), .fin (-1)⟩
    let x : Itv := ⟨.fin 3, .fin 10⟩
    c.Ok φ ∧ x.Ok φ ∧ x.SmallBounds φ ∧ 2 * π - π / 4 ∈ RevSolOn tan tanDom c.set x.set ∧
      2 * π - π / 4 ∉ (c.tanRev φ x).set := by
  have r1 : φ.Rep (-1) := by simpa using φ.rep_small (k := -1) (by norm_num)
  have r34 : φ.Rep (-(3 / 4)) := by
    have := φ.rep_dyadic (j := 3) (i := 2) (by norm_num) (by norm_num); norm_num at this; exact this.neg
  have r3 : φ.Rep 3 := by simpa using φ.rep_small (k := 3) (by norm_num)
  have r10 : φ.Rep 10 := by simpa using φ.rep_small (k := 10) (by norm_num)
  have r52 : φ.Rep (5 / 2) := by
    have := φ.rep_dyadic (j := 5) (i := 1) (by norm_num) (by norm_num); norm_num at this; exact this
  have r8 : φ.Rep 8 := by simpa using φ.rep_small (k := 8) (by norm_num)
  have nc := ne_fin r1 r1 le_rfl
  have nx := ne_fin r3 r10 (by norm_num)
  have hpi := pi_lt_d4
  have hpi' := pi_gt_d4
  have hmod : (256:ℚ) ≤ 2 ^ φ.p := by
    calc (256:ℚ) = 2 ^ 8 := by norm_num
      _ ≤ _ := pow_le_pow_right₀ (by norm_num) φ.p_pos
  have hcos : cos (2 * π - π / 4) ≠ 0 := by
    rw [cos_two_pi_sub, cos_pi_div_four]; positivity
  refine ⟨nc.ok, nx.ok, ?_, ⟨?_, hcos, ?_⟩, ?_⟩
  · intro q hq
    have : q = 3 ∨ q = 10 := by
      rcases hq with h | h
      · left; injection h with h; exact h.symm
      · right; injection h with h; exact h.symm
    rcases this with rfl | rfl
    · rw [abs_of_pos (by norm_num)]; exact ⟨by linarith, by norm_num⟩
    · rw [abs_of_pos (by norm_num)]; exact ⟨by linarith, by norm_num⟩
  · rw [mem_fin]; push_cast; constructor <;> linarith
  · have : tan (2 * π - π / 4) = -1 := by
      rw [tan_eq_sin_div_cos, sin_two_pi_sub, cos_two_pi_sub, neg_div, ← tan_eq_sin_div_cos, tan_pi_div_four]
    rw [this, mem_fin]; norm_num
  · unfold Itv.tanRev
    have v1 := nc.ok.isValid
    have v2 := nx.ok.isValid
    have v3 := nx.isEmpty
    have v4 := nc.isEmpty
    simp only [v1, v2, v3, v4, Bool.not_true, Bool.or_self, Bool.false_eq_true, if_false]
    set cl := φ.arcNS .D arctan (-(π / 2)) (π / 2) (.fin (-1)) with hcl
    set cu := φ.arcNS .U arctan (-(π / 2)) (π / 2) (.fin (-1)) with hcu
    have a4 : arctan (-1) = -(π / 4) := by rw [arctan_neg, arctan_one]
    have ecl : cl.q = (φ.rndMP .D (-(π / 4))).q := by
      rw [hcl]; simp only [Fmt.arcNS]; push_cast; rw [a4]
    have ecu : cu.q = (φ.rndMP .U (-(π / 4))).q := by
      rw [hcu]; simp only [Fmt.arcNS]; push_cast; rw [a4]
    have hl1 : -1 ≤ cl.q := by
      rw [ecl]
      exact φ.le_rndMP_D (abs_le.mpr ⟨by linarith, by linarith⟩) r1 (by push_cast; linarith) (Or.inl (by norm_num))
    have hu1 : cu.q ≤ -(3 / 4) := by
      rw [ecu]
      refine φ.rndMP_U_le (abs_le.mpr ⟨by linarith, by linarith⟩) r34 (by push_cast; linarith) (Or.inr (Or.inr ?_))
      push_cast; linarith [φ.thr_le_quarter]
    have hu2 : -1 ≤ cu.q := by
      have := φ.le_rndMP_U (x := -(π / 4)) (abs_le.mpr ⟨by linarith, by linarith⟩)
      rw [ecu]
      have h : ((-1 : ℚ) : ℝ) ≤ ((φ.rndMP .U (-(π / 4))).q : ℝ) := by push_cast; linarith
      exact_mod_cast h
    have p1 := φ.three_le_pid
    have p2 := φ.piu_le
    have p3 := φ.pid_le_piu
    have p4 : (φ.constPi .D).q ≤ 16 / 5 := by
      have h : ((φ.constPi .D).q : ℝ) ≤ ((16 / 5 : ℚ) : ℝ) := φ.pid_le.trans (by push_cast; linarith)
      exact_mod_cast h
    have nY : Itv.NE φ ⟨.fin 8, .pinf⟩ := ⟨by simp, by simp, by simp, EReal.coe_ne_top _, by simp, r8, trivial⟩
    have hb := tanBox_in (φ := φ) cl cu
    have L : (φ.leftBox (φ.tanBox cl cu) ⟨.fin 3, .fin 10⟩).set ⊆ Itv.set ⟨.fin 8, .pinf⟩ := by
      unfold Fmt.leftBox
      rw [if_neg (by decide +kernel), if_neg (by decide +kernel)]
      have en : floorQuo (FP.fin 3).q (φ.constPi .U).q = 0 := by
        refine floorQuo_eq (by linarith) (by norm_num [FP.q]) (by norm_num [FP.q]) ?_
        have : (3:ℝ) < ((φ.constPi .U).q : ℝ) := lt_of_lt_of_le pi_gt_three φ.le_piu
        have : (3:ℚ) < (φ.constPi .U).q := by exact_mod_cast this
        simpa [FP.q] using this
      simp only [en]
      refine firstOf_sub ?_ ?_
      · rw [inter_below (hb _ _ _) nx ?_ ?_]; · simp
        · have e0 := round3 (φ := φ) (k := 0) (by norm_num)
          refine lt_of_le_of_lt (shift_hi_le (B := -(3 / 4)) r34 ?_ (Or.inr (big_abs (Or.inr ?_)))) ?_
          · rw [e0]; push_cast; linarith
          · rw [e0, abs_of_neg (by push_cast; linarith)]; push_cast; linarith
          · simp only [FP.toE]; rw [EReal.coe_lt_coe_iff]; norm_num
        · exact (conv_spec φ _ (φ.fmaNS_ne_nan _ _ _ _)).1
      · rw [inter_below (hb _ _ _) nx ?_ ?_]; · simp
        · have e0 := round3 (φ := φ) (k := 0 + 1) (by norm_num)
          refine lt_of_le_of_lt (shift_hi_le (B := 5 / 2) r52 ?_ (Or.inr (big_abs (Or.inl ?_)))) ?_
          · rw [e0]; push_cast; linarith
          · rw [e0, abs_of_pos (by push_cast; linarith)]; push_cast; linarith
          · simp only [FP.toE]; rw [EReal.coe_lt_coe_iff]; norm_num
        · exact (conv_spec φ _ (φ.fmaNS_ne_nan _ _ _ _)).1
    have R : (φ.rightBox ceilQuo (φ.tanBox cl cu) ⟨.fin 3, .fin 10⟩).set ⊆ Itv.set ⟨.fin 8, .pinf⟩ := by
      unfold Fmt.rightBox
      rw [if_neg (by decide +kernel), if_pos (by decide +kernel)]
      have en : ceilQuo (FP.fin 10).q (φ.constPi .D).q = 4 := by
        refine ceilQuo_eq p1 (by norm_num [FP.q]) ?_ ?_
        · rw [show (FP.fin 10).q = 10 from rfl]; push_cast; linarith
        · rw [show (FP.fin 10).q = 10 from rfl]; push_cast; linarith
      simp only [en]
      refine firstOf_sub (inter_sub (hb _ _ _) nx ?_) (inter_sub (hb _ _ _) nx ?_)
      · intro t h1 _
        refine nY.mem.mpr ⟨le_trans ?_ h1, by simp⟩
        have e0 := round3 (φ := φ) (k := 4) (by norm_num)
        refine le_shift_lo r8 ?_ (Or.inr (big_abs (Or.inl ?_)))
        · rw [e0]; push_cast; linarith
        · rw [e0, abs_of_pos (by push_cast; linarith)]; push_cast; linarith
      · intro t h1 _
        refine nY.mem.mpr ⟨le_trans ?_ h1, by simp⟩
        have e0 := round3 (φ := φ) (k := 4 - 1) (by norm_num)
        refine le_shift_lo r8 ?_ (Or.inr (big_abs (Or.inl ?_)))
        · rw [e0]; push_cast; linarith
        · rw [e0, abs_of_pos (by push_cast; linarith)]; push_cast; linarith
    intro hmem
    have := (Itv.hull_tight (leftBox_any hb nx).1 (rightBox_any (quo := ceilQuo) hb nx).1).2.2 _ nY.ok
      (Set.union_subset L R) hmem
    have := (nY.mem.mp this).1
    simp only [FP.toE] at this
    rw [EReal.coe_le_coe_iff] at this
    push_cast at this
    linarith

/-- `tan_rev` loses solutions, in every format: for `c = [-1, -1]`, `x = [3, 10]` the number `7π/4` is missing. -/
theorem C31_tan_rev_false (φ : Fmt) :
    ∃ c x : Itv, c.Ok φ ∧ x.Ok φ ∧ x.SmallBounds φ ∧
      ∃ t ∈ RevSolOn tan tanDom c.set x.set, t ∉ (c.tanRev φ x).set :=
  ⟨_, _, (tan_rev_witness φ).1, (tan_rev_witness φ).2.1, (tan_rev_witness φ).2.2.1, _, (tan_rev_witness φ).2.2.2.1,
    (tan_rev_witness φ).2.2.2.2⟩

/-- Both boxes of `cos_rev` for `c = [1, 1]` are far below `2^100` whatever the number of periods `mpfr_remquo` yields. -/
theorem cosBox_huge (hE : 102 ≤ φ.emax) {k : ℤ} (hk : |k| ≤ 2 ^ 63 + 2) {a b cl cu : FP} (hcl : cl.q = 0) (hcu : cu.q = 0)
    (hb : 3 ≤ b.q) (hb' : b.q ≤ 4) :
    (φ.cosBox cl cu k a b).hi.toE ≤ (((2 ^ (66:ℤ) : ℚ) : ℝ) : EReal) ∧ (φ.cosBox cl cu k a b).hi ≠ .nan := by
  have hp := φ.p_pos
  have hq := φ.qmin_le
  have r64 : φ.Rep (2 ^ (64:ℤ)) := rep_pow (by have := φ.emax_ge; omega) (by omega)
  have r66 : φ.Rep (2 ^ (66:ℤ)) := rep_pow (by have := φ.emax_ge; omega) (by omega)
  have r1 : φ.Rep 1 := by simpa using φ.rep_small (k := 1) (by norm_num)
  have key : ∀ j : ℤ, |j| ≤ 2 ^ 63 + 3 → |(φ.round .N (j:ℚ)).q| ≤ 2 ^ 64 ∧
      ((φ.round .N (j:ℚ)).q = 0 ∨ 1 ≤ |(φ.round .N (j:ℚ)).q|) := by
    intro j hj
    have hjq : |(j:ℚ)| ≤ 2 ^ 63 + 3 := by exact_mod_cast hj
    have h64 : |((j:ℚ):ℝ)| ≤ ((2 ^ (64:ℤ) : ℚ) : ℝ) := by
      have : |(j:ℚ)| ≤ 2 ^ (64:ℤ) := hjq.trans (by norm_num)
      exact_mod_cast this
    have hM : |((j:ℚ):ℝ)| ≤ (φ.maxFin : ℝ) := by
      refine h64.trans ?_
      have := (abs_le.mp r64.abs_le).2
      exact_mod_cast this
    have hbt := φ.roundQ_between .N ((j:ℚ):ℝ)
    have e : (φ.round .N (j:ℚ)).q = φ.roundQ .N ((j:ℚ):ℝ) := by
      have hq := φ.roundQ_le_maxFin (m := .N) hM
      rw [abs_le] at hq
      rw [← φ.round_cast]
      simp only [Fmt.round]
      rw [if_neg (by linarith), if_neg (by linarith)]
      split_ifs with h0
      · rw [h0]; exact Fmt.mkZero_q _
      · rfl
    rw [e]
    obtain ⟨h1, h2⟩ := abs_le.mp h64
    constructor
    · rw [abs_le]
      constructor
      · refine le_trans ?_ hbt.1
        have := φ.le_roundQ_D r64.neg (x := ((j:ℚ):ℝ)) (by push_cast at h1 ⊢; exact h1)
        simpa using this
      · refine hbt.2.trans ?_
        have := φ.roundQ_U_le r64 (x := ((j:ℚ):ℝ)) h2
        simpa using this
    · rcases lt_trichotomy j 0 with h | h | h
      · right
        have hj1 : ((j:ℚ):ℝ) ≤ ((-1:ℚ):ℝ) := by
          have : j ≤ -1 := by omega
          exact_mod_cast this
        have := hbt.2.trans (φ.roundQ_U_le r1.neg hj1)
        rw [abs_of_neg (by linarith)]; linarith
      · left; subst h
        have := φ.roundQ_rep (m := .N) φ.rep_zero
        simpa using this
      · right
        have hj1 : ((1:ℚ):ℝ) ≤ ((j:ℚ):ℝ) := by
          have : (1:ℤ) ≤ j := by omega
          exact_mod_cast this
        have := (φ.le_roundQ_D r1 hj1).trans hbt.1
        rw [abs_of_pos (by linarith)]; linarith
  have fin : ∀ j : ℤ, |j| ≤ 2 ^ 63 + 3 → |(φ.round .N (j:ℚ)).q * b.q + 0| ≤ 2 ^ (66:ℤ) ∧
      ((φ.round .N (j:ℚ)).q * b.q + 0 = 0 ∨ φ.thr ≤ |(((φ.round .N (j:ℚ)).q * b.q + 0 : ℚ) : ℝ)|) := by
    intro j hj
    obtain ⟨h1, h2⟩ := key j hj
    have hab : |(φ.round .N (j:ℚ)).q * b.q + 0| = |(φ.round .N (j:ℚ)).q| * b.q := by
      rw [add_zero, abs_mul, abs_of_pos (by linarith : 0 < b.q)]
    constructor
    · rw [hab]
      have : (2:ℚ) ^ (66:ℤ) = 2 ^ 64 * 4 := by norm_num
      rw [this]
      exact mul_le_mul h1 hb' (by linarith) (by norm_num)
    · rcases h2 with h2 | h2
      · left; rw [h2]; ring
      · right
        refine big_abs (Or.inl ?_)
        rw [hab]; nlinarith
  unfold Fmt.cosBox
  split_ifs with he
  · obtain ⟨h1, h2⟩ := fin k (by omega)
    refine ⟨shift_hi_le r66 ?_ ?_, (conv_spec φ _ (φ.fmaNS_ne_nan _ _ _ _)).1⟩
    · rw [hcu]; exact (abs_le.mp h1).2
    · rw [hcu]; exact h2
  · obtain ⟨h1, h2⟩ := fin (-k - 1) (by have := abs_sub (-k) 1; rw [abs_one, abs_neg] at this; omega)
    refine ⟨mirror_hi_le r66 ?_ ?_, by simpa [Fmt.mirrorBox] using (conv_spec φ _ (φ.fmaNS_ne_nan _ _ _ _)).1⟩
    · rw [hcl]; exact (abs_le.mp h1).1
    · rw [hcl]; exact h2

theorem floorQuo_abs (q y : ℚ) : |floorQuo q y| ≤ 2 ^ 63 := by
  have h := quoLow_abs (roundInt .N (q / y))
  rw [abs_lt] at h
  simp only [floorQuo]
  split_ifs <;> rw [abs_le] <;> constructor <;> omega

/-- `cos_rev` loses solutions if the bounds of `x` are huge: `mpfr_remquo` returns the low 63 bits of the number of
periods only.  For `c = [1, 1]`, `x = [2^100, 2^101]` the result is empty, although `x` contains multiples of `2π`. -/
theorem C31_cos_rev_false (hE : 102 ≤ φ.emax) :
    ∃ c x : Itv, c.Ok φ ∧ x.Ok φ ∧ (RevSol cos c.set x.set).Nonempty ∧ (c.cosRev φ x).set = ∅ := by
  have r1 : φ.Rep 1 := by simpa using φ.rep_small (k := 1) (by norm_num)
  have hp := φ.p_pos
  have hq := φ.qmin_le
  have r100 : φ.Rep (2 ^ (100:ℤ)) := rep_pow (by have := φ.emax_ge; omega) (by omega)
  have r101 : φ.Rep (2 ^ (101:ℤ)) := rep_pow (by have := φ.emax_ge; omega) (by omega)
  have nc := ne_fin r1 r1 le_rfl
  have nx := ne_fin r100 r101 (by norm_num)
  refine ⟨⟨.fin 1, .fin 1⟩, ⟨.fin (2 ^ (100:ℤ)), .fin (2 ^ (101:ℤ))⟩, nc.ok, nx.ok, ?_, ?_⟩
  · refine ⟨(⌈(2:ℝ) ^ (100:ℤ) / (2 * π)⌉ : ℤ) * (2 * π), ?_, ?_⟩
    · rw [mem_fin]
      have h2 : 0 < 2 * π := by have := pi_pos; linarith
      have h1 := Int.le_ceil ((2:ℝ) ^ (100:ℤ) / (2 * π))
      have h3 := Int.ceil_lt_add_one ((2:ℝ) ^ (100:ℤ) / (2 * π))
      rw [div_le_iff₀ h2] at h1
      have h4 : ((⌈(2:ℝ) ^ (100:ℤ) / (2 * π)⌉ : ℤ) : ℝ) * (2 * π) < ((2:ℝ) ^ (100:ℤ) / (2 * π) + 1) * (2 * π) :=
        mul_lt_mul_of_pos_right h3 h2
      have h5 : ((2:ℝ) ^ (100:ℤ) / (2 * π) + 1) * (2 * π) = 2 ^ (100:ℤ) + 2 * π := by field_simp
      have h6 := pi_lt_four
      have h7 : (2:ℝ) ^ (101:ℤ) = 2 ^ (100:ℤ) + 2 ^ (100:ℤ) := by norm_num
      have h8 : (8:ℝ) ≤ 2 ^ (100:ℤ) := by norm_num
      have e1 : (((2:ℚ) ^ (100:ℤ) : ℚ) : ℝ) = 2 ^ (100:ℤ) := by norm_num
      have e2 : (((2:ℚ) ^ (101:ℤ) : ℚ) : ℝ) = 2 ^ (101:ℤ) := by norm_num
      rw [e1, e2]
      exact ⟨h1, by linarith⟩
    · rw [cos_int_mul_two_pi, mem_fin]; norm_num
  · unfold Itv.cosRev
    have v1 := nc.ok.isValid
    have v2 := nx.ok.isValid
    have v3 := nx.isEmpty
    simp only [v1, v2, v3, Bool.not_true, Bool.or_self, Bool.false_eq_true, if_false]
    have ec : Itv.inter ⟨.fin 1, .fin 1⟩ ⟨.fin (-1), .fin 1⟩ = ⟨.fin 1, .fin 1⟩ := by decide +kernel
    rw [ec, if_neg (by decide +kernel), if_neg (by decide +kernel)]
    have hcl : (φ.arcNS .D arccos 0 0 (.fin 1)).q = 0 := by
      simp only [Fmt.arcNS]; push_cast; rw [arccos_one, φ.rndMP_zero]; rfl
    have hcu : (φ.arcNS .U arccos 0 0 (.fin 1)).q = 0 := by
      simp only [Fmt.arcNS]; push_cast; rw [arccos_one, φ.rndMP_zero]; rfl
    generalize φ.arcNS .D arccos 0 0 (.fin 1) = cl at *
    generalize φ.arcNS .U arccos 0 0 (.fin 1) = cu at *
    have hb := cosBox_in (φ := φ) cl cu
    have p1 := φ.three_le_pid
    have p2 := φ.piu_le
    have p3 := φ.pid_le_piu
    have hin : ∀ k : ℤ, |k| ≤ 2 ^ 63 + 2 → ∀ a b : FP, 3 ≤ b.q → b.q ≤ 4 →
        ((φ.cosBox cl cu k a b).inter ⟨.fin (2 ^ (100:ℤ)), .fin (2 ^ (101:ℤ))⟩).set ⊆ ∅ := by
      intro k hk a b hb1 hb2
      obtain ⟨h1, h2⟩ := cosBox_huge hE hk (a := a) hcl hcu hb1 hb2
      rw [inter_below (hb _ _ _) nx (lt_of_le_of_lt h1 ?_) h2]
      simp only [FP.toE]
      rw [EReal.coe_lt_coe_iff]; norm_num
    have L : (φ.leftBox (φ.cosBox cl cu) ⟨.fin (2 ^ (100:ℤ)), .fin (2 ^ (101:ℤ))⟩).set ⊆ ∅ := by
      unfold Fmt.leftBox
      rw [if_neg (by decide +kernel), if_neg (by decide +kernel)]
      have := abs_le.mp (floorQuo_abs (Itv.lo ⟨.fin (2 ^ (100:ℤ)), .fin (2 ^ (101:ℤ))⟩).q (φ.constPi .U).q)
      exact firstOf_sub (hin _ (abs_le.mpr ⟨by omega, by omega⟩) _ _ (by linarith) (by linarith))
        (hin _ (abs_le.mpr ⟨by omega, by omega⟩) _ _ (by linarith) (by linarith))
    have R : (φ.rightBox floorQuo (φ.cosBox cl cu) ⟨.fin (2 ^ (100:ℤ)), .fin (2 ^ (101:ℤ))⟩).set ⊆ ∅ := by
      unfold Fmt.rightBox
      rw [if_neg (by decide +kernel), if_pos (by decide +kernel)]
      have := abs_le.mp (floorQuo_abs (Itv.hi ⟨.fin (2 ^ (100:ℤ)), .fin (2 ^ (101:ℤ))⟩).q (φ.constPi .D).q)
      exact firstOf_sub (hin _ (abs_le.mpr ⟨by omega, by omega⟩) _ _ (by linarith) (by linarith))
        (hin _ (abs_le.mpr ⟨by omega, by omega⟩) _ _ (by linarith) (by linarith))
    have := (Itv.hull_tight (leftBox_any hb nx).1 (rightBox_any (quo := floorQuo) hb nx).1).2.2 _ (Itv.ok_empty φ)
      (Set.union_subset (L.trans (by simp)) (R.trans (by simp)))
    simpa using this

/-! ## Unary, mixed-type and decorated versions -/

theorem hull_entire {quo : ℚ → ℚ → ℤ} {box : ℤ → FP → FP → Itv} :
    ((φ.leftBox box .entire).hull (φ.rightBox quo box .entire)).set = Set.univ := by
  have e1 : φ.leftBox box .entire = ⟨.ninf, .fin (-φ.maxFin)⟩ := by
    unfold Fmt.leftBox; rw [if_pos (by decide +kernel)]
  have e2 : φ.rightBox quo box .entire = ⟨.fin φ.maxFin, .pinf⟩ := by
    unfold Fmt.rightBox; rw [if_pos (by decide +kernel)]
  have n1 : Itv.NE φ ⟨.ninf, .fin (-φ.maxFin)⟩ :=
    ⟨by simp, by simp, by simp, by simp, EReal.coe_ne_bot _, trivial, φ.rep_maxFin.neg⟩
  have n2 : Itv.NE φ ⟨.fin φ.maxFin, .pinf⟩ :=
    ⟨by simp, by simp, by simp, EReal.coe_ne_top _, by simp, φ.rep_maxFin, trivial⟩
  rw [e1, e2]
  obtain ⟨-, h2, -⟩ := Itv.hull_tight n1.ok n2.ok
  refine Set.eq_univ_of_forall fun s => ?_
  refine (Itv.ordConnected _).out (h2 (Or.inl (show min s (-φ.maxFin : ℚ) ∈ _ from ?_)))
    (h2 (Or.inr (show max s (φ.maxFin : ℚ) ∈ _ from ?_))) ⟨min_le_left _ _, le_max_left _ _⟩
  · exact n1.mem.mpr ⟨by simp, EReal.coe_le_coe_iff.mpr (min_le_right _ _)⟩
  · exact n2.mem.mpr ⟨EReal.coe_le_coe_iff.mpr (le_max_right _ _), by simp⟩

/-- The unary versions lose no solution, for every `c`. -/
theorem C31_unary (hc : c.Ok φ) :
    ((Itv.rev1 (Itv.sinRev φ) c).Ok φ ∧ {t | sin t ∈ c.set} ⊆ (Itv.rev1 (Itv.sinRev φ) c).set) ∧
    ((Itv.rev1 (Itv.cosRev φ) c).Ok φ ∧ {t | cos t ∈ c.set} ⊆ (Itv.rev1 (Itv.cosRev φ) c).set) ∧
    ((Itv.rev1 (Itv.tanRev φ) c).Ok φ ∧ {t | t ∈ tanDom ∧ tan t ∈ c.set} ⊆ (Itv.rev1 (Itv.tanRev φ) c).set) := by
  obtain ⟨⟨a, -⟩, ⟨b, -⟩, ⟨d, -⟩⟩ := C31_valid hc (Itv.ok_entire φ)
  obtain ⟨i, j⟩ := Itv.inter_ok_set hc (ok_unit φ).ok
  rw [set_unit] at j
  have ve := (Itv.ok_entire φ).isValid
  have ee := (Itv.entire_NE φ).isEmpty
  refine ⟨⟨a, ?_⟩, ⟨b, ?_⟩, ⟨d, ?_⟩⟩
  · intro t ht
    have hm : sin t ∈ c.set ∩ Set.Icc (-1) 1 := ⟨ht, neg_one_le_sin t, sin_le_one t⟩
    rw [← j] at hm
    unfold Itv.rev1 Itv.sinRev
    simp only [hc.isValid, ve, ee, Bool.not_true, Bool.or_self, Bool.false_eq_true, if_false]
    split_ifs with h1 h2
    · rw [i.isEmpty_iff.mp h1] at hm; simp at hm
    · simp [Itv.set_entire]
    · rw [hull_entire]; trivial
  · intro t ht
    have hm : cos t ∈ c.set ∩ Set.Icc (-1) 1 := ⟨ht, neg_one_le_cos t, cos_le_one t⟩
    rw [← j] at hm
    unfold Itv.rev1 Itv.cosRev
    simp only [hc.isValid, ve, ee, Bool.not_true, Bool.or_self, Bool.false_eq_true, if_false]
    split_ifs with h1 h2
    · rw [i.isEmpty_iff.mp h1] at hm; simp at hm
    · simp [Itv.set_entire]
    · rw [hull_entire]; trivial
  · intro t ht
    have nc : c.NE φ := hc.cases.resolve_left (by rintro rfl; simpa using ht.2)
    unfold Itv.rev1 Itv.tanRev
    simp only [hc.isValid, nc.isEmpty, ve, ee, Bool.not_true, Bool.or_self, Bool.false_eq_true, if_false]
    rw [hull_entire]; trivial

section
variable {T T1 T2 : NumTy}

theorem bounds_mono {ψ : Fmt} {M : ℚ} (hM : 0 ≤ M) (hs : T2.fmt.Sub ψ) (hx : x.Ok T2.fmt)
    (h : ∀ q : ℚ, x.lo = .fin q ∨ x.hi = .fin q → |q| ≤ M) :
    ∀ q : ℚ, (ψ.convertHull x).lo = .fin q ∨ (ψ.convertHull x).hi = .fin q → |q| ≤ M := by
  rcases hx.cases with rfl | nx
  · intro q hq; rw [convertHull_empty] at hq; simp [Itv.empty] at hq
  have ok := (convertHull_tight (φ := ψ) hx).1
  have es := convert_exact hs hx
  have ny : (ψ.convertHull x).NE ψ := ok.cases.resolve_left (by
    intro e; rw [e] at es
    obtain ⟨t, ht⟩ := nx.nonempty
    rw [← es] at ht; simp at ht)
  have key : ∀ q : ℚ, (x.lo.toE = ((q:ℝ):EReal) ∨ x.hi.toE = ((q:ℝ):EReal)) → |q| ≤ M := by
    have aux : ∀ a : FP, (a = x.lo ∨ a = x.hi) → a ≠ .nan → ∀ r : ℚ, a.toE = ((r:ℝ):EReal) → |r| ≤ M := by
      intro a ha hn r hr
      cases a with
      | nan => exact absurd rfl hn
      | ninf => simp at hr
      | pinf => simp at hr
      | nzero =>
        have : (r:ℝ) = 0 := by simp only [FP.toE] at hr; exact_mod_cast hr.symm
        have : r = 0 := by exact_mod_cast this
        subst this; simpa using hM
      | fin q =>
        have : (q:ℝ) = r := by simp only [FP.toE] at hr; exact_mod_cast hr
        have : q = r := by exact_mod_cast this
        subst this
        exact h q (by rcases ha with ha | ha; exacts [Or.inl ha.symm, Or.inr ha.symm])
    rintro r (hr | hr)
    · exact aux _ (Or.inl rfl) nx.lo_ne r hr
    · exact aux _ (Or.inr rfl) nx.hi_ne r hr
  have hlo : (ψ.convertHull x).lo.toE = x.lo.toE ∧ (ψ.convertHull x).hi.toE = x.hi.toE := by
    obtain ⟨a1, a2⟩ := (ny.subset_iff nx).mp es.subset
    obtain ⟨b1, b2⟩ := (nx.subset_iff ny).mp es.ge
    exact ⟨le_antisymm b1 a1, le_antisymm a2 b2⟩
  intro q hq
  refine key q ?_
  rcases hq with hq | hq
  · left; rw [← hlo.1, hq]; rfl
  · right; rw [← hlo.2, hq]; rfl

theorem small_mono {ψ : Fmt} (hs : T2.fmt.Sub ψ) (hp : T2.fmt.p ≤ ψ.p) (hx : x.Ok T2.fmt) (h : x.SmallBounds T2.fmt) :
    (ψ.convertHull x).SmallBounds ψ := fun q hq =>
  ⟨(bounds_mono (by positivity) hs hx (fun q hq => (h q hq).1) q hq).trans (pow_le_pow_right₀ (by norm_num) hp),
    bounds_mono (by positivity) hs hx (fun q hq => (h q hq).2) q hq⟩

theorem b64_mono {ψ : Fmt} (hs : T2.fmt.Sub ψ) (_ : T2.fmt.p ≤ ψ.p) (hx : x.Ok T2.fmt) (h : x.Bounds64) :
    (ψ.convertHull x).Bounds64 := bounds_mono (by positivity) hs hx h

theorem NumTy.p_mono {a b : NumTy} (h : a.order ≤ b.order) : a.fmt.p ≤ b.fmt.p := by
  cases a <;> cases b <;> revert h <;> decide +kernel

theorem rev_mixed_sub' {f : Fmt → Itv → Itv → Itv} {Q : Fmt → Itv → Prop} {P : Set ℝ → Set ℝ → Prop} {S : Set ℝ → Set ℝ → Set ℝ}
    (hS : ∀ X, S ∅ X = ∅) (hS' : ∀ C, S C ∅ = ∅)
    (H : ∀ c x : Itv, c.Ok (T.maxPrec [T1, T2]).fmt → x.Ok (T.maxPrec [T1, T2]).fmt → Q (T.maxPrec [T1, T2]).fmt x → P c.set x.set →
      (f (T.maxPrec [T1, T2]).fmt c x).Ok (T.maxPrec [T1, T2]).fmt ∧ S c.set x.set ⊆ (f (T.maxPrec [T1, T2]).fmt c x).set)
    (hc : c.Ok T1.fmt) (hx : x.Ok T2.fmt)
    (hs : ∀ ψ : Fmt, T2.fmt.Sub ψ → T2.fmt.p ≤ ψ.p → Q ψ (ψ.convertHull x)) (h0 : P c.set x.set) :
    (Itv.revMixed f T T1 T2 c x).Ok T.fmt ∧ S c.set x.set ⊆ (Itv.revMixed f T T1 T2 c x).set := by
  have hs1 : T1.fmt.Sub (T.maxPrec [T1, T2]).fmt := NumTy.sub_max (by simp)
  have hs2 : T2.fmt.Sub (T.maxPrec [T1, T2]).fmt := NumTy.sub_max (by simp)
  have hp : T2.fmt.p ≤ (T.maxPrec [T1, T2]).fmt.p := NumTy.p_mono (NumTy.maxPrec_order T [T1, T2] T2 (by simp))
  rcases hc.cases with rfl | nc
  · simp [Itv.revMixed, Itv.ok_empty, hS]
  rcases hx.cases with rfl | nx
  · simp [Itv.revMixed, Itv.ok_empty, hS']
  unfold Itv.revMixed
  simp only [hc.isValid, hx.isValid, nc.isEmpty, nx.isEmpty, Bool.not_true, Bool.or_self, Bool.false_eq_true, if_false]
  generalize (T.maxPrec [T1, T2]).fmt = ψ at *
  obtain ⟨o, h⟩ := H _ _ (convertHull_tight (φ := ψ) hc).1 (convertHull_tight (φ := ψ) hx).1 (hs ψ hs2 hp)
    (by rwa [convert_exact hs1 hc, convert_exact hs2 hx])
  rw [convert_exact hs1 hc, convert_exact hs2 hx] at h
  obtain ⟨a, b, -⟩ := convertHull_tight (φ := T.fmt) o
  exact ⟨a, h.trans b⟩

theorem rev_mixed_sub {f : Fmt → Itv → Itv → Itv} {Q : Fmt → Itv → Prop} {P : Set ℝ → Set ℝ → Prop} {S : Set ℝ → Set ℝ → Set ℝ}
    (hS : ∀ X, S ∅ X = ∅) (hS' : ∀ C, S C ∅ = ∅)
    (H : ∀ (ψ : Fmt) (c x : Itv), T2.fmt.p ≤ ψ.p → c.Ok ψ → x.Ok ψ → Q ψ x → P c.set x.set → (f ψ c x).Ok ψ ∧ S c.set x.set ⊆ (f ψ c x).set)
    (hc : c.Ok T1.fmt) (hx : x.Ok T2.fmt)
    (hs : ∀ ψ : Fmt, T2.fmt.Sub ψ → T2.fmt.p ≤ ψ.p → Q ψ (ψ.convertHull x)) (h0 : P c.set x.set) :
    (Itv.revMixed f T T1 T2 c x).Ok T.fmt ∧ S c.set x.set ⊆ (Itv.revMixed f T T1 T2 c x).set :=
  rev_mixed_sub' hS hS' (fun c x => H _ c x (NumTy.p_mono (NumTy.maxPrec_order T [T1, T2] T2 (by simp)))) hc hx hs h0

/-- Mixed-type versions, under the same restrictions. -/
theorem C31_mixed_partial (hc : c.Ok T1.fmt) (hx : x.Ok T2.fmt) (hs : x.Bounds64) :
    ((Itv.revMixed Itv.cosRev T T1 T2 c x).Ok T.fmt ∧
      RevSol cos c.set x.set ⊆ (Itv.revMixed Itv.cosRev T T1 T2 c x).set) ∧
    ((0:ℝ) ∈ c.set →
      ((Itv.revMixed Itv.sinRev T T1 T2 c x).Ok T.fmt ∧
        RevSol sin c.set x.set ⊆ (Itv.revMixed Itv.sinRev T T1 T2 c x).set) ∧
      ((Itv.revMixed Itv.tanRev T T1 T2 c x).Ok T.fmt ∧
        RevSolOn tan tanDom c.set x.set ⊆ (Itv.revMixed Itv.tanRev T T1 T2 c x).set)) :=
  ⟨rev_mixed_sub (Q := fun _ x => x.Bounds64) (P := fun _ _ => True) (S := RevSol cos) (by simp [RevSol]) (by simp [RevSol])
    (fun _ _ _ _ h1 h2 h3 _ => ⟨(C31_valid h1 h2).2.1.1, C31_cos_rev_partial h1 h2 h3⟩) hc hx (fun _ a b => b64_mono a b hx hs) trivial,
  fun h0 => ⟨rev_mixed_sub (Q := fun _ x => x.Bounds64) (P := fun s _ => (0:ℝ) ∈ s) (S := RevSol sin) (by simp [RevSol]) (by simp [RevSol])
    (fun _ _ _ _ h1 h2 h3 h4 => ⟨(C31_valid h1 h2).1.1, C31_sin_rev_partial h1 h2 h3 h4⟩) hc hx (fun _ a b => b64_mono a b hx hs) h0,
    rev_mixed_sub (Q := fun _ x => x.Bounds64) (P := fun s _ => (0:ℝ) ∈ s) (S := RevSolOn tan tanDom) (by simp [RevSolOn]) (by simp [RevSolOn])
    (fun _ _ _ _ h1 h2 h3 h4 => ⟨(C31_valid h1 h2).2.2.1, C31_tan_rev_partial h1 h2 h3 h4⟩) hc hx (fun _ a b => b64_mono a b hx hs) h0⟩⟩

end

/-- Decorated versions: NaI if an argument is NaI, otherwise the bare result with `trv`. -/
theorem C31_decorated {c x : DItv} (hc : c.Ok φ) (hx : x.Ok φ) (f : Itv → Itv → Itv)
    (_ : f = Itv.sinRev φ ∨ f = Itv.cosRev φ ∨ f = Itv.tanRev φ) :
    (c.IsNaI ∨ x.IsNaI → DItv.rev f c x = DItv.nai) ∧
    (¬c.IsNaI → ¬x.IsNaI → DItv.rev f c x = ⟨f c.itv x.itv, .trv⟩) := C30_decorated f hc hx

/-! ### Concrete cases -/

/-- `c = [-1/2, 1/2]`, `x = [-3, 2^60]` meet the hypotheses of the partial theorems. -/
example : let c : Itv := ⟨.fin (-1/2), .fin (1/2)⟩; let x : Itv := ⟨.fin (-3), .fin (2 ^ 60)⟩
    c.Ok binary64 ∧ x.Ok binary64 ∧ x.Bounds64 ∧ (0:ℝ) ∈ c.set ∧ (0:ℝ) ∈ RevSol sin c.set x.set := by
  refine ⟨Itv.ok_of_okb (by decide +kernel), Itv.ok_of_okb (by decide +kernel), ?_, ?_, ?_⟩
  · rintro q (h | h) <;> simp only [FP.fin.injEq] at h <;> subst h <;> norm_num [binary64]
  · exact ⟨by norm_num [FP.BelowR], by norm_num [FP.AboveR]⟩
  · refine ⟨⟨by norm_num [FP.BelowR], by norm_num [FP.AboveR]⟩, ?_⟩
    rw [sin_zero]; exact ⟨by norm_num [FP.BelowR], by norm_num [FP.AboveR]⟩

example : 102 ≤ binary64.emax := by decide +kernel

end P1788
