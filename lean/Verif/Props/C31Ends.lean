import Verif.Lemmas.RevTrig7
import Verif.Props.C31
import Verif.Lemmas.RevKeep

/-! # C31: `sin_rev`, `tan_rev` for operands `c` without zero

`sin_rev` and `tan_rev` look for solutions only in the two half periods next to each end of `x`
(`C31_sin_rev_false`, `C31_tan_rev_false` exploit that).  Proved here: if each finite end of `x` shares a half period
`[(k - 1/2)π, (k + 1/2)π]` with some solution in `x`, then no solution is lost, whatever `c` is.  In particular no
solution is lost if `x` lies in one half period.  Nor is a solution lost if the lower end of `x` is in the first half of a period
`[kπ, (k + 1)π]` of the tangent and the upper end in the last half, but not just at `kπ` or `(k + 1)π`.  An end of `x`
beyond `2^(p+2)` (and within `2^64`) does no harm wherever it is: there the boxes are so wide that they contain it. -/

namespace P1788
open Real

variable {φ : Fmt} {c x : Itv}

/-- `a` and `s` lie in a common half period of the sine (between two consecutive odd multiples of `π / 2`). -/
def SameHalf (a s : ℝ) : Prop := ∃ k : ℤ, |a - k * π| ≤ π / 2 ∧ |s - k * π| ≤ π / 2

/-- `a` follows a multiple of `π` by at most `π / 2`, and by more than the rounding error of the quotient. -/
def FirstHalf (φ : Fmt) (a : ℝ) : Prop := ∃ k : ℤ, |a| * 2 ^ (2 - (φ.p:ℤ)) ≤ a - k * π ∧ a - k * π ≤ π / 2

/-- `a` precedes a multiple of `π` by at most `π / 2`, and by more than the rounding error of the quotient. -/
def LastHalf (φ : Fmt) (a : ℝ) : Prop := ∃ k : ℤ, |a| * 2 ^ (2 - (φ.p:ℤ)) ≤ k * π - a ∧ k * π - a ≤ π / 2

/-- Each finite end of `X` shares a half period with an element of `S`, or is on the safe side of a multiple of `π`. -/
def EndsNear (φ : Fmt) (X S : Set ℝ) : Prop :=
  (∀ a, IsLeast X a → FirstHalf φ a ∨ ∃ s ∈ S, SameHalf a s) ∧
  (∀ a, IsGreatest X a → LastHalf φ a ∨ ∃ s ∈ S, SameHalf a s)

/-- Each finite end `a` of `X` either satisfies `|a| > 2^(p+2)`, or `|a| ≤ 2^p` and the condition of `EndsNear`. -/
def EndsClear (φ : Fmt) (X S : Set ℝ) : Prop :=
  (∀ a, IsLeast X a → 2 ^ (φ.p + 2) < |a| ∨ |a| ≤ 2 ^ φ.p ∧ (FirstHalf φ a ∨ ∃ s ∈ S, SameHalf a s)) ∧
  (∀ a, IsGreatest X a → 2 ^ (φ.p + 2) < |a| ∨ |a| ≤ 2 ^ φ.p ∧ (LastHalf φ a ∨ ∃ s ∈ S, SameHalf a s))

theorem EndsNear.mono {φ ψ : Fmt} {X S : Set ℝ} (h : EndsNear φ X S) (hp : φ.p ≤ ψ.p) : EndsNear ψ X S := by
  have hz : (2:ℝ) ^ (2 - (ψ.p:ℤ)) ≤ 2 ^ (2 - (φ.p:ℤ)) := zpow_le_zpow_right₀ (by norm_num) (by omega)
  have key : ∀ a : ℝ, |a| * 2 ^ (2 - (ψ.p:ℤ)) ≤ |a| * 2 ^ (2 - (φ.p:ℤ)) :=
    fun a => mul_le_mul_of_nonneg_left hz (abs_nonneg a)
  exact ⟨fun a ha => (h.1 a ha).imp_left fun ⟨k, h1, h2⟩ => ⟨k, (key a).trans h1, h2⟩,
    fun a ha => (h.2 a ha).imp_left fun ⟨k, h1, h2⟩ => ⟨k, (key a).trans h1, h2⟩⟩

theorem Itv.NE.isLeast {a : ℝ} (h : x.NE φ) (e : x.lo.toE = (a:EReal)) : IsLeast x.set a :=
  ⟨h.mem.mpr ⟨e.le, e ▸ h.le⟩, fun t ht => by have := (h.mem.mp ht).1; rw [e] at this; exact_mod_cast this⟩

theorem Itv.NE.isGreatest {a : ℝ} (h : x.NE φ) (e : x.hi.toE = (a:EReal)) : IsGreatest x.set a :=
  ⟨h.mem.mpr ⟨e ▸ h.le, e.ge⟩, fun t ht => by have := (h.mem.mp ht).2; rw [e] at this; exact_mod_cast this⟩

theorem EndsNear.clear {S : Set ℝ} (hx : x.Ok φ) (hs : x.SmallBounds φ) (h : EndsNear φ x.set S) : EndsClear φ x.set S := by
  rcases hx.cases with rfl | nx
  · exact ⟨fun a ha => absurd ha.1 (by simp), fun a ha => absurd ha.1 (by simp)⟩
  have q1 : |(x.lo.q:ℝ)| ≤ 2 ^ φ.p := by exact_mod_cast (small_lo hs).1
  have q2 : |(x.hi.q:ℝ)| ≤ 2 ^ φ.p := by exact_mod_cast (small_hi hs).1
  refine ⟨fun a ha => Or.inr ⟨?_, h.1 a ha⟩, fun a ha => Or.inr ⟨?_, h.2 a ha⟩⟩
  · by_cases h0 : x.lo.feq .ninf = true
    · rw [Itv.feq_ninf, decide_eq_true_eq] at h0
      have : a - 1 ∈ x.set := nx.mem.mpr ⟨by rw [h0]; simp, le_trans (by exact_mod_cast (by linarith : a - 1 ≤ a)) (nx.mem.mp ha.1).2⟩
      linarith [ha.2 this]
    · rw [ha.unique (nx.isLeast (lo_fin nx h0))]; exact q1
  · by_cases h0 : x.hi.feq .pinf = true
    · rw [Itv.feq_pinf, decide_eq_true_eq] at h0
      have : a + 1 ∈ x.set := nx.mem.mpr ⟨le_trans (nx.mem.mp ha.1).1 (by exact_mod_cast (by linarith : a ≤ a + 1)), by rw [h0]; simp⟩
      linarith [ha.2 this]
    · rw [ha.unique (nx.isGreatest (hi_fin nx h0))]; exact q2

/-- `sin_rev(c, x)` contains every `t ∈ x` with `sin t ∈ c`, for every `c`, if each finite bound of `x` is between `2^(p+2)` and
`2^64` in magnitude, or is at most `2^p` and satisfies the condition of `EndsNear`.  (Missing for the full statement: the other
`x`; there it is false.) -/
theorem C31_sin_rev_clear_partial (hc : c.Ok φ) (hx : x.Ok φ) (hs : x.Bounds64)
    (he : EndsClear φ x.set (RevSol sin c.set x.set)) : RevSol sin c.set x.set ⊆ (c.sinRev φ x).set := by
  rcases hx.cases with rfl | nx
  · simp [RevSol]
  obtain ⟨i, j⟩ := Itv.inter_ok_set hc (ok_unit φ).ok
  rw [set_unit] at j
  unfold Itv.sinRev
  simp only [hc.isValid, hx.isValid, nx.isEmpty, Bool.not_true, Bool.or_self, Bool.false_eq_true, if_false]
  generalize c.inter ⟨.fin (-1), .fin 1⟩ = cc at *
  rcases i.cases with rfl | nc
  · rintro t ⟨-, ht⟩
    have : sin t ∈ c.set ∩ Set.Icc (-1) 1 := ⟨ht, neg_one_le_sin t, sin_le_one t⟩
    rw [← j] at this; simp at this
  rw [if_neg (by simp [nc.isEmpty])]
  split_ifs with h2
  · exact fun t ht => ht.1
  obtain ⟨l, u, el, eu, hl, hlu, hu, rl, ru, hmem⟩ := unit_bounds nc (by rw [j]; exact Set.inter_subset_right)
  have hpi := pi_lt_d2
  have ql := arcNS_q (φ := φ) .D arcsin 0 0 el nc.lo_ne
  have qu := arcNS_q (φ := φ) .U arcsin 0 0 eu nc.hi_ne
  have bl := arcsin_mem_Icc (l:ℝ)
  have bu := arcsin_mem_Icc (u:ℝ)
  have al : |arcsin (l:ℝ)| ≤ 4 := abs_le.mpr ⟨by linarith [bl.1], by linarith [bl.2]⟩
  have au : |arcsin (u:ℝ)| ≤ 4 := abs_le.mpr ⟨by linarith [bu.1], by linarith [bu.2]⟩
  have dl := φ.rndMP_D_le al
  have du := φ.le_rndMP_U au
  have r2 := φ.rep_small (k := 2) (by norm_num)
  have r2' := φ.rep_small (k := -2) (by norm_num)
  have dl2 := φ.le_rndMP_D al r2' (by push_cast; linarith [bl.1]) (Or.inl (by norm_num))
  have du2 := φ.rndMP_U_le au r2 (by push_cast; linarith [bu.2]) (Or.inl (by norm_num))
  have dl2' : (φ.rndMP .D (arcsin l)).q ≤ 2 := by
    have : ((φ.rndMP .D (arcsin l)).q : ℝ) ≤ 2 := by linarith [bl.2]
    exact_mod_cast this
  have du2' : -2 ≤ (φ.rndMP .U (arcsin u)).q := by
    have : (-2:ℝ) ≤ ((φ.rndMP .U (arcsin u)).q : ℝ) := by linarith [bu.1]
    exact_mod_cast this
  have r85 : φ.Rep (51 / 32) := by have := φ.rep_dyadic (j := 51) (i := 5) (by norm_num) (by norm_num); norm_num at this; exact this
  have r85' : φ.Rep (-(51 / 32)) := r85.neg
  have dl3 := φ.le_rndMP_D al r85' (by push_cast; linarith [bl.1]) (Or.inl (by norm_num))
  have du3 := φ.rndMP_U_le au r85 (by push_cast; linarith [bu.2]) (Or.inl (by norm_num))
  have K := sin_keeps' (φ := φ) (cl := φ.arcNS .D arcsin 0 0 cc.lo) (cu := φ.arcNS .U arcsin 0 0 cc.hi)
    (by rw [ql, qu]
        have : ((φ.rndMP .D (arcsin l)).q : ℝ) ≤ ((φ.rndMP .U (arcsin u)).q : ℝ) :=
          dl.trans ((monotone_arcsin (by exact_mod_cast hlu)).trans du)
        exact_mod_cast this)
    (by rw [ql]
        have : ((φ.rndMP .D (arcsin l)).q : ℝ) ≤ ((8 / 5 : ℚ) : ℝ) := by push_cast; linarith [bl.2]
        exact abs_le.mpr ⟨by linarith, by exact_mod_cast this⟩)
    (by rw [qu]
        have : ((-(8 / 5) : ℚ) : ℝ) ≤ ((φ.rndMP .U (arcsin u)).q : ℝ) := by push_cast; linarith [bu.1]
        exact abs_le.mpr ⟨by exact_mod_cast this, by linarith⟩)
  have F := sin_boxes (φ := φ) (U := arcsin '' (c.set ∩ Set.Icc (-1) 1))
    (cl := φ.arcNS .D arcsin 0 0 cc.lo) (cu := φ.arcNS .U arcsin 0 0 cc.hi)
    (by obtain ⟨r, hr⟩ := nc.nonempty; exact ⟨_, r, by rw [← j]; exact hr, rfl⟩)
    (by rintro _ ⟨r, -, rfl⟩; exact arcsin_mem_Icc r)
    (by rintro _ ⟨r, hr, rfl⟩
        rw [← j] at hr
        rw [ql, qu]
        exact ⟨dl.trans (monotone_arcsin (hmem r hr).1), (monotone_arcsin (hmem r hr).2).trans du⟩)
    (by rw [ql]; exact abs_le.mpr ⟨by exact_mod_cast dl2, dl2'⟩)
    (by rw [qu]; exact abs_le.mpr ⟨du2', by exact_mod_cast du2⟩)
  have hS : ∀ s ∈ RevSol sin c.set x.set, s ∈ x.set ∧
      ∃ k : ℤ, s ∈ sinBranch (arcsin '' (c.set ∩ Set.Icc (-1) 1)) k ∧ |s - k * π| ≤ π / 2 :=
    fun s hs => ⟨hs.1, sin_loc hs.2⟩
  refine (hull_cover hx (left_near' F K (sinBox_in _ _) nx hs hS ?_)
    (right_near' F K (sinBox_in _ _) nx hs hS ?_)).2.2
  · intro a ha
    rcases he.1 a (nx.isLeast ha) with h | ⟨h0, h | ⟨s, h1, k, h3, h4⟩⟩
    exacts [Or.inl h, Or.inr ⟨h0, Or.inr h⟩, Or.inr ⟨h0, Or.inl ⟨s, h1, k, sin_half h1.2 h4, h3⟩⟩]
  · intro a ha
    rcases he.2 a (nx.isGreatest ha) with h | ⟨h0, h | ⟨s, h1, k, h3, h4⟩⟩
    exacts [Or.inl h, Or.inr ⟨h0, Or.inr h⟩, Or.inr ⟨h0, Or.inl ⟨s, h1, k, sin_half h1.2 h4, h3⟩⟩]

/-- `sin_rev(c, x)` contains every `t ∈ x` with `sin t ∈ c`, for every `c`, if the finite bounds of `x` are not huge and
share a half period with a solution.  (Missing for the full statement: the other `x`; there it is false.) -/
theorem C31_sin_rev_ends_partial (hc : c.Ok φ) (hx : x.Ok φ) (hs : x.SmallBounds φ)
    (he : EndsNear φ x.set (RevSol sin c.set x.set)) : RevSol sin c.set x.set ⊆ (c.sinRev φ x).set :=
  C31_sin_rev_clear_partial hc hx hs.b64 (he.clear hx hs)

/-- `tan_rev(c, x)` contains every `t ∈ x` with `tan t ∈ c`, for every `c`, if each finite bound of `x` is between `2^(p+2)` and
`2^64` in magnitude, or is at most `2^p` and satisfies the condition of `EndsNear`.  (Missing for the full statement: the other
`x`; there it is false.) -/
theorem C31_tan_rev_clear_partial (hc : c.Ok φ) (hx : x.Ok φ) (hs : x.Bounds64)
    (he : EndsClear φ x.set (RevSolOn tan tanDom c.set x.set)) :
    RevSolOn tan tanDom c.set x.set ⊆ (c.tanRev φ x).set := by
  rcases hx.cases with rfl | nx
  · simp [RevSolOn]
  rcases hc.cases with rfl | nc
  · rintro t ⟨-, -, ht⟩; simp at ht
  unfold Itv.tanRev
  simp only [hc.isValid, hx.isValid, nx.isEmpty, nc.isEmpty, Bool.not_true, Bool.or_self, Bool.false_eq_true, if_false]
  have hpi := pi_lt_d2
  have hpp := pi_pos
  have hl : ∃ w : ℝ, -(π / 2) ≤ w ∧ w ≤ π / 2 ∧ (∀ r ∈ c.set, w ≤ arctan r) ∧
      (φ.arcNS .D arctan (-(π / 2)) (π / 2) c.lo).q = (φ.rndMP .D w).q := by
    by_cases hf : c.lo.feq .ninf = true
    · have e : c.lo = .ninf := by simpa [Itv.feq_ninf] using hf
      rw [e]
      exact ⟨-(π / 2), le_rfl, by linarith, fun r _ => (neg_pi_div_two_lt_arctan r).le, rfl⟩
    · have e := lo_fin nc hf
      refine ⟨arctan c.lo.q, (neg_pi_div_two_lt_arctan _).le, (arctan_lt_pi_div_two _).le, fun r hr => ?_,
        arcNS_q _ _ _ _ e nc.lo_ne⟩
      have := (nc.mem.mp hr).1
      rw [e, EReal.coe_le_coe_iff] at this
      exact arctan_mono this
  have hu : ∃ w : ℝ, -(π / 2) ≤ w ∧ w ≤ π / 2 ∧ (∀ r ∈ c.set, arctan r ≤ w) ∧
      (φ.arcNS .U arctan (-(π / 2)) (π / 2) c.hi).q = (φ.rndMP .U w).q := by
    by_cases hf : c.hi.feq .pinf = true
    · have e : c.hi = .pinf := by simpa [Itv.feq_pinf] using hf
      rw [e]
      exact ⟨π / 2, by linarith, le_rfl, fun r _ => (arctan_lt_pi_div_two r).le, rfl⟩
    · have e := hi_fin nc hf
      refine ⟨arctan c.hi.q, (neg_pi_div_two_lt_arctan _).le, (arctan_lt_pi_div_two _).le, fun r hr => ?_,
        arcNS_q _ _ _ _ e nc.hi_ne⟩
      have := (nc.mem.mp hr).2
      rw [e, EReal.coe_le_coe_iff] at this
      exact arctan_mono this
  obtain ⟨wl, l1, l2, l3, l4⟩ := hl
  obtain ⟨wu, u1, u2, u3, u4⟩ := hu
  have dl := φ.rndMP_D_le (x := wl) (abs_le.mpr ⟨by linarith, by linarith⟩)
  have du := φ.le_rndMP_U (x := wu) (abs_le.mpr ⟨by linarith, by linarith⟩)
  have hwlu : wl ≤ wu := by obtain ⟨r, hr⟩ := nc.nonempty; exact (l3 r hr).trans (u3 r hr)
  have K := tan_keeps' (φ := φ) (cl := φ.arcNS .D arctan (-(π / 2)) (π / 2) c.lo) (cu := φ.arcNS .U arctan (-(π / 2)) (π / 2) c.hi)
    (by rw [l4, u4]
        have := dl.trans (hwlu.trans du)
        exact_mod_cast this)
    (by rw [l4]
        have : ((φ.rndMP .D wl).q : ℝ) ≤ ((8 / 5 : ℚ) : ℝ) := by push_cast; linarith
        exact_mod_cast this)
    (by rw [u4]
        have : ((-(8 / 5) : ℚ) : ℝ) ≤ ((φ.rndMP .U wu).q : ℝ) := by push_cast; linarith
        exact_mod_cast this)
  have F := tan_boxes (φ := φ) (U := arctan '' c.set)
    (cl := φ.arcNS .D arctan (-(π / 2)) (π / 2) c.lo) (cu := φ.arcNS .U arctan (-(π / 2)) (π / 2) c.hi)
    (by obtain ⟨r, hr⟩ := nc.nonempty; exact ⟨_, r, hr, rfl⟩)
    (by rintro _ ⟨r, -, rfl⟩; exact ⟨(neg_pi_div_two_lt_arctan r).le, (arctan_lt_pi_div_two r).le⟩)
    (by rintro _ ⟨r, hr, rfl⟩
        rw [l4, u4]
        exact ⟨dl.trans (l3 r hr), (u3 r hr).trans du⟩)
  have hS : ∀ s ∈ RevSolOn tan tanDom c.set x.set, s ∈ x.set ∧
      ∃ k : ℤ, s ∈ tanBranch (arctan '' c.set) k ∧ |s - k * π| ≤ π / 2 :=
    fun s hs => ⟨hs.1, tan_loc hs.2.1 hs.2.2⟩
  refine (hull_cover hx (left_near' F K (tanBox_in _ _) nx hs hS ?_)
    (right_near' F K (tanBox_in _ _) nx hs hS ?_)).2.2
  · intro a ha
    rcases he.1 a (nx.isLeast ha) with h | ⟨h0, h | ⟨s, h1, k, h3, h4⟩⟩
    exacts [Or.inl h, Or.inr ⟨h0, Or.inr h⟩, Or.inr ⟨h0, Or.inl ⟨s, h1, k, tan_half h1.2.1 h1.2.2 h4, h3⟩⟩]
  · intro a ha
    rcases he.2 a (nx.isGreatest ha) with h | ⟨h0, h | ⟨s, h1, k, h3, h4⟩⟩
    exacts [Or.inl h, Or.inr ⟨h0, Or.inr h⟩, Or.inr ⟨h0, Or.inl ⟨s, h1, k, tan_half h1.2.1 h1.2.2 h4, h3⟩⟩]

/-- `tan_rev(c, x)` contains every `t ∈ x` with `tan t ∈ c`, for every `c`, if the finite bounds of `x` are not huge and
share a half period with a solution.  (Missing for the full statement: the other `x`; there it is false.) -/
theorem C31_tan_rev_ends_partial (hc : c.Ok φ) (hx : x.Ok φ) (hs : x.SmallBounds φ)
    (he : EndsNear φ x.set (RevSolOn tan tanDom c.set x.set)) :
    RevSolOn tan tanDom c.set x.set ⊆ (c.tanRev φ x).set :=
  C31_tan_rev_clear_partial hc hx hs.b64 (he.clear hx hs)

/-- If `x` lies in one half period then `sin_rev(c, x)` and `tan_rev(c, x)` lose no solution, whatever `c` is. -/
theorem C31_half_period_partial (hc : c.Ok φ) (hx : x.Ok φ) (hs : x.SmallBounds φ) (k : ℤ)
    (hk : x.set ⊆ Set.Icc (k * π - π / 2) (k * π + π / 2)) :
    RevSol sin c.set x.set ⊆ (c.sinRev φ x).set ∧ RevSolOn tan tanDom c.set x.set ⊆ (c.tanRev φ x).set := by
  have key : ∀ S ⊆ x.set, S.Nonempty → EndsNear φ x.set S := by
    rintro S hS ⟨s, hs⟩
    have near : ∀ t ∈ x.set, |t - k * π| ≤ π / 2 := fun t ht => by
      obtain ⟨h3, h4⟩ := hk ht
      exact abs_le.mpr ⟨by linarith, by linarith⟩
    exact ⟨fun a ha => Or.inr ⟨s, hs, k, near a ha.1, near s (hS hs)⟩, fun a ha => Or.inr ⟨s, hs, k, near a ha.1, near s (hS hs)⟩⟩
  constructor
  · intro t ht
    exact C31_sin_rev_ends_partial hc hx hs (key _ (fun _ h => h.1) ⟨t, ht⟩) ht
  · intro t ht
    exact C31_tan_rev_ends_partial hc hx hs (key _ (fun _ h => h.1) ⟨t, ht⟩) ht

section Mixed

variable {T T1 T2 : NumTy}

/-- Mixed-type versions, under the same restrictions. -/
theorem C31_mixed_ends_partial (hc : c.Ok T1.fmt) (hx : x.Ok T2.fmt) (hs : x.SmallBounds T2.fmt) :
    (EndsNear T2.fmt x.set (RevSol sin c.set x.set) →
      (Itv.revMixed Itv.sinRev T T1 T2 c x).Ok T.fmt ∧
        RevSol sin c.set x.set ⊆ (Itv.revMixed Itv.sinRev T T1 T2 c x).set) ∧
    (EndsNear T2.fmt x.set (RevSolOn tan tanDom c.set x.set) →
      (Itv.revMixed Itv.tanRev T T1 T2 c x).Ok T.fmt ∧
        RevSolOn tan tanDom c.set x.set ⊆ (Itv.revMixed Itv.tanRev T T1 T2 c x).set) :=
  ⟨rev_mixed_sub (Q := fun ψ x => x.SmallBounds ψ) (P := fun C X => EndsNear T2.fmt X (RevSol sin C X)) (S := RevSol sin) (by simp [RevSol]) (by simp [RevSol])
    (fun _ _ _ hp h1 h2 h3 h4 => ⟨(C31_valid h1 h2).1.1, C31_sin_rev_ends_partial h1 h2 h3 (h4.mono hp)⟩) hc hx (fun _ a b => small_mono a b hx hs),
  rev_mixed_sub (Q := fun ψ x => x.SmallBounds ψ) (P := fun C X => EndsNear T2.fmt X (RevSolOn tan tanDom C X)) (S := RevSolOn tan tanDom) (by simp [RevSolOn]) (by simp [RevSolOn])
    (fun _ _ _ hp h1 h2 h3 h4 => ⟨(C31_valid h1 h2).2.2.1, C31_tan_rev_ends_partial h1 h2 h3 (h4.mono hp)⟩) hc hx (fun _ a b => small_mono a b hx hs)⟩

/-- Mixed-type versions with ends of `x` up to `2^64`; precision is that of the widest of the three types, with which the code computes. -/
theorem C31_mixed_clear_partial (hc : c.Ok T1.fmt) (hx : x.Ok T2.fmt) (hs : x.Bounds64) :
    (EndsClear (T.maxPrec [T1, T2]).fmt x.set (RevSol sin c.set x.set) →
      (Itv.revMixed Itv.sinRev T T1 T2 c x).Ok T.fmt ∧
        RevSol sin c.set x.set ⊆ (Itv.revMixed Itv.sinRev T T1 T2 c x).set) ∧
    (EndsClear (T.maxPrec [T1, T2]).fmt x.set (RevSolOn tan tanDom c.set x.set) →
      (Itv.revMixed Itv.tanRev T T1 T2 c x).Ok T.fmt ∧
        RevSolOn tan tanDom c.set x.set ⊆ (Itv.revMixed Itv.tanRev T T1 T2 c x).set) :=
  ⟨rev_mixed_sub' (Q := fun _ x => x.Bounds64) (P := fun C X => EndsClear (T.maxPrec [T1, T2]).fmt X (RevSol sin C X)) (S := RevSol sin)
    (by simp [RevSol]) (by simp [RevSol])
    (fun _ _ h1 h2 h3 h4 => ⟨(C31_valid h1 h2).1.1, C31_sin_rev_clear_partial h1 h2 h3 h4⟩) hc hx (fun _ a b => b64_mono a b hx hs),
  rev_mixed_sub' (Q := fun _ x => x.Bounds64) (P := fun C X => EndsClear (T.maxPrec [T1, T2]).fmt X (RevSolOn tan tanDom C X))
    (S := RevSolOn tan tanDom) (by simp [RevSolOn]) (by simp [RevSolOn])
    (fun _ _ h1 h2 h3 h4 => ⟨(C31_valid h1 h2).2.2.1, C31_tan_rev_clear_partial h1 h2 h3 h4⟩) hc hx (fun _ a b => b64_mono a b hx hs)⟩

/-- The mixed-type versions lose no solution either if `x` lies in one half period. -/
theorem C31_mixed_half_period_partial (hc : c.Ok T1.fmt) (hx : x.Ok T2.fmt) (hs : x.SmallBounds T2.fmt) (k : ℤ)
    (hk : x.set ⊆ Set.Icc (k * π - π / 2) (k * π + π / 2)) :
    RevSol sin c.set x.set ⊆ (Itv.revMixed Itv.sinRev T T1 T2 c x).set ∧
    RevSolOn tan tanDom c.set x.set ⊆ (Itv.revMixed Itv.tanRev T T1 T2 c x).set :=
  ⟨(rev_mixed_sub (Q := fun ψ x => x.SmallBounds ψ) (P := fun _ X => X ⊆ Set.Icc (k * π - π / 2) (k * π + π / 2)) (S := RevSol sin) (by simp [RevSol]) (by simp [RevSol])
    (fun _ _ _ _ h1 h2 h3 h4 => ⟨(C31_valid h1 h2).1.1, (C31_half_period_partial h1 h2 h3 k h4).1⟩) hc hx (fun _ a b => small_mono a b hx hs) hk).2,
  (rev_mixed_sub (Q := fun ψ x => x.SmallBounds ψ) (P := fun _ X => X ⊆ Set.Icc (k * π - π / 2) (k * π + π / 2)) (S := RevSolOn tan tanDom) (by simp [RevSolOn]) (by simp [RevSolOn])
    (fun _ _ _ _ h1 h2 h3 h4 => ⟨(C31_valid h1 h2).2.2.1, (C31_half_period_partial h1 h2 h3 k h4).2⟩) hc hx (fun _ a b => small_mono a b hx hs) hk).2⟩

end Mixed

/-- `c = [1/2, 1]`, `x = [2^60, 2^63]` meet the hypotheses of `C31_sin_rev_clear_partial`; there are solutions. -/
example : let c : Itv := ⟨.fin (1/2), .fin 1⟩; let x : Itv := ⟨.fin (2 ^ 60), .fin (2 ^ 63)⟩
    c.Ok binary64 ∧ x.Ok binary64 ∧ x.Bounds64 ∧ (0:ℝ) ∉ c.set ∧ EndsClear binary64 x.set (RevSol sin c.set x.set) ∧
      (2 ^ 60 * (2 * π) + π / 2) ∈ RevSol sin c.set x.set := by
  have h1 := pi_gt_three
  have h2 := pi_lt_d2
  have far : ∀ a : ℝ, a ∈ Itv.set ⟨.fin (2 ^ 60), .fin (2 ^ 63)⟩ → (2:ℝ) ^ (binary64.p + 2) < |a| := by
    intro a ha
    have := (mem_fin.mp ha).1
    push_cast at this
    rw [abs_of_pos (by linarith), show binary64.p = 53 from rfl]
    norm_num at this ⊢
    linarith
  refine ⟨Itv.ok_of_okb (by decide +kernel), Itv.ok_of_okb (by decide +kernel), ?_, ?_, ?_, ?_⟩
  · rintro q (h | h) <;> simp only [FP.fin.injEq] at h <;> subst h <;> norm_num
  · intro h; have := (mem_fin.mp h).1; norm_num at this
  · exact ⟨fun a ha => Or.inl (far a ha.1), fun a ha => Or.inl (far a ha.1)⟩
  · refine ⟨mem_fin.mpr ?_, ?_⟩
    · push_cast; constructor <;> nlinarith
    · have : sin (2 ^ 60 * (2 * π) + π / 2) = 1 := by
        have := sin_add_int_mul_two_pi (π / 2) (2 ^ 60)
        rw [show (((2:ℤ) ^ 60 : ℤ) : ℝ) = 2 ^ 60 by norm_num] at this
        rw [add_comm, this, sin_pi_div_two]
      rw [this]; exact mem_fin.mpr (by norm_num)

/-- `c = [1/2, 1]`, `x = [1, 8]`: the ends share a half period with the solutions `1`, `8`. -/
example : let c : Itv := ⟨.fin (1/2), .fin 1⟩; let x : Itv := ⟨.fin 1, .fin 8⟩
    c.Ok binary64 ∧ x.Ok binary64 ∧ x.SmallBounds binary64 ∧ (0:ℝ) ∉ c.set ∧ EndsNear binary64 x.set (RevSol sin c.set x.set) := by
  have hpi := pi_lt_d4
  have hpi' := pi_gt_d4
  have n1 : Itv.NE binary64 ⟨.fin 1, .fin 8⟩ := (Itv.ok_of_okb (by decide +kernel)).cases.resolve_left (by decide +kernel)
  refine ⟨Itv.ok_of_okb (by decide +kernel), n1.ok, ?_, ?_, ?_⟩
  · rintro q (h | h) <;> · injection h with h; subst h; decide +kernel
  · rw [mem_fin]; norm_num
  · have l8 : IsLeast (Itv.set ⟨.fin 1, .fin 8⟩) 1 := n1.isLeast (by simp [FP.toE])
    have g8 : IsGreatest (Itv.set ⟨.fin 1, .fin 8⟩) 8 := n1.isGreatest (by simp [FP.toE])
    refine ⟨fun a ha => ?_, fun a ha => ?_⟩
    · rw [ha.unique l8]
      refine Or.inr ⟨1, ⟨l8.1, ?_⟩, 0, by rw [abs_le]; constructor <;> push_cast <;> linarith, by rw [abs_le]; constructor <;> push_cast <;> linarith⟩
      rw [mem_fin]
      refine ⟨?_, by push_cast; exact sin_le_one _⟩
      push_cast
      rw [← sin_pi_div_six]
      exact sin_le_sin_of_le_of_le_pi_div_two (by linarith) (by linarith) (by linarith)
    · rw [ha.unique g8]
      refine Or.inr ⟨8, ⟨g8.1, ?_⟩, 3, by rw [abs_le]; constructor <;> push_cast <;> linarith, by rw [abs_le]; constructor <;> push_cast <;> linarith⟩
      rw [mem_fin]
      refine ⟨?_, by push_cast; exact sin_le_one _⟩
      push_cast
      have e : sin 8 = sin (3 * π - 8) := by
        rw [show (3 * π - 8 : ℝ) = (π - 8) + 2 * π by ring, sin_add_two_pi, sin_pi_sub]
      rw [e, ← sin_pi_div_six]
      exact sin_le_sin_of_le_of_le_pi_div_two (by linarith) (by linarith) (by linarith)

/-- `c = [1/2, 1]`, `x = [4, 9]`: both ends are on the safe side, and no solution shares a half period with the lower one. -/
example : let c : Itv := ⟨.fin (1/2), .fin 1⟩; let x : Itv := ⟨.fin 4, .fin 9⟩
    c.Ok binary64 ∧ x.Ok binary64 ∧ x.SmallBounds binary64 ∧ (0:ℝ) ∉ c.set ∧ EndsNear binary64 x.set (RevSol sin c.set x.set) ∧
      (RevSol sin c.set x.set).Nonempty ∧ ¬ ∃ s ∈ RevSol sin c.set x.set, SameHalf 4 s := by
  have hpi := pi_lt_d4
  have hpi' := pi_gt_d4
  have n1 : Itv.NE binary64 ⟨.fin 4, .fin 9⟩ := (Itv.ok_of_okb (by decide +kernel)).cases.resolve_left (by decide +kernel)
  have z : (2:ℝ) ^ (2 - (binary64.p:ℤ)) ≤ 1 / 100 := by
    rw [show (2 - (binary64.p:ℤ)) = -51 from by decide]; norm_num
  refine ⟨Itv.ok_of_okb (by decide +kernel), n1.ok, ?_, ?_, ⟨fun a ha => ?_, fun a ha => ?_⟩, ⟨7, ?_, ?_⟩, ?_⟩
  · rintro q (h | h) <;> · injection h with h; subst h; decide +kernel
  · rw [mem_fin]; norm_num
  · rw [ha.unique (n1.isLeast (a := 4) (by simp [FP.toE]))]
    refine Or.inl ⟨1, ?_, by push_cast; linarith⟩
    rw [abs_of_pos (by norm_num)]; push_cast; linarith
  · rw [ha.unique (n1.isGreatest (a := 9) (by simp [FP.toE]))]
    refine Or.inl ⟨3, ?_, by push_cast; linarith⟩
    rw [abs_of_pos (by norm_num)]; push_cast; linarith
  · rw [mem_fin]; norm_num
  · rw [mem_fin, ← sin_sub_two_pi 7]
    push_cast
    refine ⟨?_, sin_le_one _⟩
    rw [← sin_pi_div_six]
    exact sin_le_sin_of_le_of_le_pi_div_two (by linarith) (by linarith) (by linarith)
  · rintro ⟨s, ⟨h1, h2⟩, k, h3, h4⟩
    rw [mem_fin] at h1 h2
    push_cast at h1 h2
    obtain ⟨a1, a2⟩ := abs_le.mp h3
    have hk : k = 1 := by
      have k1 : (k:ℝ) < 2 := by by_contra h; push Not at h; nlinarith
      have k2 : (0:ℝ) < k := by by_contra h; push Not at h; nlinarith
      have : k < 2 := by exact_mod_cast k1
      have : 0 < k := by exact_mod_cast k2
      omega
    subst hk
    obtain ⟨b1, b2⟩ := abs_le.mp h4
    push_cast at b1 b2
    have : sin (s - π) = - sin s := sin_sub_pi s
    have : 0 ≤ sin (s - π) := sin_nonneg_of_nonneg_of_le_pi (by linarith [h1.1]) (by linarith)
    linarith [h2.1]

/-- `x = [-1, 3/2]` lies in the principal half period. -/
example : let x : Itv := ⟨.fin (-1), .fin (3/2)⟩
    x.Ok binary64 ∧ x.SmallBounds binary64 ∧ x.set ⊆ Set.Icc ((0:ℤ) * π - π / 2) ((0:ℤ) * π + π / 2) := by
  have hpi' := pi_gt_d4
  refine ⟨Itv.ok_of_okb (by decide +kernel), ?_, ?_⟩
  · rintro q (h | h) <;> · injection h with h; subst h; decide +kernel
  · intro t ht
    rw [mem_fin] at ht
    push_cast at ht ⊢
    constructor <;> linarith [ht.1, ht.2]

end P1788
