import Verif.Lemmas.Search
import Verif.Props.C32
import Verif.Props.C01
import Verif.Props.C02
import Mathlib.Analysis.Calculus.MeanValue
import Mathlib.Analysis.Calculus.Deriv.Pow

/-! # C44: the root finding programs of the examples lose no zero

The bisection and the interval Newton program, run with any interval function that encloses a real function. -/

namespace P1788
variable {φ : Fmt} {f df : Itv → Itv} {g g' : ℝ → ℝ} {eps : FP} {x : Itv} {n : ℕ} {l : List Itv}

/-- The interval function `f` encloses the real function `g`. -/
def EnclosesFn (φ : Fmt) (f : Itv → Itv) (g : ℝ → ℝ) : Prop := ∀ x, x.Ok φ → (f x).Ok φ ∧ ∀ r ∈ x.set, g r ∈ (f x).set

theorem bisect_succ (h : x.NE φ) : ∃ a b : Itv, mkI x.inf (x.mid φ) = .ok a ∧ mkI (x.mid φ) x.sup = .ok b ∧ a.NE φ ∧ b.NE φ ∧
    a.set ∪ b.set = x.set ∧ (¬Atomic φ x → a.set ≠ x.set ∧ b.set ≠ x.set) ∧
    bisect φ f eps (n + 1) x = if (f x).isMember (.fin 0) = true then
      if (f x).wid φ < eps then .ok [x] else
        match bisect φ f eps n a with
        | .error s => .error s
        | .ok u => match bisect φ f eps n b with
          | .error s => .error s
          | .ok v => .ok (u ++ v)
      else .ok [] := by
  obtain ⟨q, hrep, hq, hmem, ⟨a, ha, hane, has⟩, ⟨b, hb, hbne, hbs⟩, -⟩ := halves h
  refine ⟨a, b, ha, hb, hane, hbne, ?_, ?_, ?_⟩
  · rw [has, hbs, ← Set.inter_union_distrib_left, Set.Iic_union_Ici, Set.inter_univ]
  · intro hna
    obtain ⟨⟨r1, h1, h1'⟩, r2, h2, h2'⟩ := mid_inside h hna hq
    constructor
    · intro he
      rw [← he, has] at h2
      exact absurd h2.2 (not_le.mpr h2')
    · intro he
      rw [← he, hbs] at h1
      exact absurd h1.2 (not_le.mpr h1')
  · simp only [bisect, ha, hb]
    rfl

/-- **No zero is lost by bisection**: every zero of `g` in the start interval lies in one of the intervals that are written. -/
theorem C44_bisect_covers (hf : EnclosesFn φ f g) (hx : x.Ok φ) (hne : x.set.Nonempty) (h : bisect φ f eps n x = .ok l) {r : ℝ}
    (hr : r ∈ x.set) (h0 : g r = 0) : ∃ y ∈ l, r ∈ y.set := by
  induction n generalizing x l with
  | zero => simp [bisect] at h
  | succ n ih =>
    have hx' : x.NE φ := hx.cases.resolve_left (fun he => by rw [he] at hr; exact absurd hr (by simp [Itv.set, Itv.empty, FP.BelowR]))
    obtain ⟨a, b, -, -, hane, hbne, hab, -, he⟩ := bisect_succ (f := f) (eps := eps) (n := n) hx'
    rw [he, if_pos ((isMember_zero (hf x hx).1).mpr (h0 ▸ (hf x hx).2 r hr))] at h
    split_ifs at h with hw
    · cases h
      exact ⟨x, by simp, hr⟩
    · cases hu : bisect φ f eps n a with
      | error s => simp [hu] at h
      | ok u =>
        cases hv : bisect φ f eps n b with
        | error s => simp [hu, hv] at h
        | ok v =>
          simp only [hu, hv, Except.ok.injEq] at h
          subst h
          rw [← hab] at hr
          rcases hr with hr | hr
          · obtain ⟨y, hy, h⟩ := ih hane.ok hane.nonempty hu hr
            exact ⟨y, List.mem_append_left _ hy, h⟩
          · obtain ⟨y, hy, h⟩ := ih hbne.ok hbne.nonempty hv hr
            exact ⟨y, List.mem_append_right _ hy, h⟩

/-- **What bisection writes**: proper non-empty parts of the start interval, on which the enclosure of the values contains zero and is
narrower than `eps`. -/
theorem C44_bisect_result (hf : EnclosesFn φ f g) (hx : x.Ok φ) (hne : x.set.Nonempty) (h : bisect φ f eps n x = .ok l) {y : Itv} (hy : y ∈ l) :
    y.Ok φ ∧ y.set.Nonempty ∧ y.set ⊆ x.set ∧ (0:ℝ) ∈ (f y).set ∧ (f y).wid φ < eps := by
  induction n generalizing x l with
  | zero => simp [bisect] at h
  | succ n ih =>
    have hx' : x.NE φ := hx.cases.resolve_left (fun he => by rw [he] at hne; exact absurd hne (by simp [Itv.set, Itv.empty, FP.BelowR]))
    obtain ⟨a, b, -, -, hane, hbne, hab, -, he⟩ := bisect_succ (f := f) (eps := eps) (n := n) hx'
    rw [he] at h
    split_ifs at h with hm hw
    · cases h
      rw [List.mem_singleton] at hy
      subst hy
      exact ⟨hx, hne, subset_rfl, (isMember_zero (hf y hx).1).mp hm, hw⟩
    · cases hu : bisect φ f eps n a with
      | error s => simp [hu] at h
      | ok u =>
        cases hv : bisect φ f eps n b with
        | error s => simp [hu, hv] at h
        | ok v =>
          simp only [hu, hv, Except.ok.injEq] at h
          subst h
          rcases List.mem_append.mp hy with hy | hy
          · obtain ⟨h1, h2, h3, h4⟩ := ih hane.ok hane.nonempty hu hy
            exact ⟨h1, h2, h3.trans (hab ▸ Set.subset_union_left), h4⟩
          · obtain ⟨h1, h2, h3, h4⟩ := ih hbne.ok hbne.nonempty hv hy
            exact ⟨h1, h2, h3.trans (hab ▸ Set.subset_union_right), h4⟩
    · cases h
      simp at hy

/-- **Bisection never signals**: the bounds it passes to the constructor always form an interval. -/
theorem C44_bisect_safe (f : Itv → Itv) (eps : FP) (n : ℕ) (hx : x.Ok φ) (hne : x.set.Nonempty) : bisect φ f eps n x ≠ .error .signalled := by
  induction n generalizing x with
  | zero => simp [bisect]
  | succ n ih =>
    have hx' : x.NE φ := hx.cases.resolve_left (fun he => by rw [he] at hne; exact absurd hne (by simp [Itv.set, Itv.empty, FP.BelowR]))
    obtain ⟨a, b, -, -, hane, hbne, hab, -, he⟩ := bisect_succ (f := f) (eps := eps) (n := n) hx'
    have ia := ih hane.ok hane.nonempty
    have ib := ih hbne.ok hbne.nonempty
    rw [he]
    split_ifs with hm hw
    · simp
    · cases hu : bisect φ f eps n a with
      | error s => rw [hu] at ia; simpa using ia
      | ok u =>
        cases hv : bisect φ f eps n b with
        | error s => rw [hv] at ib; simpa using ib
        | ok v => simp
    · simp

/-- **Bisection ends** if `eps` is not too small: if on each part of the start interval that has no number of the type inside, the
enclosure of the values does not contain zero or is narrower than `eps`. -/
theorem C44_bisect_ends (hf : EnclosesFn φ f g) (hx : x.Ok φ) (hne : x.set.Nonempty)
    (ha : ∀ y : Itv, y.Ok φ → y.set.Nonempty → y.set ⊆ x.set → Atomic φ y → (0:ℝ) ∉ (f y).set ∨ (f y).wid φ < eps) :
    ∃ N, ∀ n ≥ N, ∃ l, bisect φ f eps n x = .ok l := by
  generalize hk : (numsIn φ x).ncard = k
  induction k using Nat.strong_induction_on generalizing x with
  | _ k ih =>
    have hx' : x.NE φ := hx.cases.resolve_left (fun he => by rw [he] at hne; exact absurd hne (by simp [Itv.set, Itv.empty, FP.BelowR]))
    by_cases hat : Atomic φ x
    · refine ⟨1, fun n hn => ?_⟩
      obtain ⟨n, rfl⟩ : ∃ m, n = m + 1 := ⟨n - 1, by omega⟩
      obtain ⟨a, b, -, -, -, -, -, -, he⟩ := bisect_succ (f := f) (eps := eps) (n := n) hx'
      rw [he]
      rcases ha x hx hne subset_rfl hat with h | h
      · rw [if_neg (fun hm => h ((isMember_zero (hf x hx).1).mp hm))]
        exact ⟨_, rfl⟩
      · split_ifs
        · exact ⟨_, rfl⟩
        · exact ⟨_, rfl⟩
    · obtain ⟨a, b, ea, eb, hane, hbne, hab, hprop, -⟩ := bisect_succ (f := f) (eps := eps) (n := 0) hx'
      have sa : a.set ⊆ x.set := hab ▸ Set.subset_union_left
      have sb : b.set ⊆ x.set := hab ▸ Set.subset_union_right
      obtain ⟨N1, h1⟩ := ih _ (hk ▸ numsIn_lt hane hx' sa (hprop hat).1) hane.ok hane.nonempty (fun y h1 h2 h3 => ha y h1 h2 (h3.trans sa)) rfl
      obtain ⟨N2, h2⟩ := ih _ (hk ▸ numsIn_lt hbne hx' sb (hprop hat).2) hbne.ok hbne.nonempty (fun y h1 h2 h3 => ha y h1 h2 (h3.trans sb)) rfl
      refine ⟨max N1 N2 + 1, fun n hn => ?_⟩
      obtain ⟨n, rfl⟩ : ∃ m, n = m + 1 := ⟨n - 1, by omega⟩
      obtain ⟨a', b', ea', eb', -, -, -, -, he⟩ := bisect_succ (f := f) (eps := eps) (n := n) hx'
      cases Except.ok.inj (ea'.symm.trans ea)
      cases Except.ok.inj (eb'.symm.trans eb)
      obtain ⟨u, hu⟩ := h1 n (by omega)
      obtain ⟨v, hv⟩ := h2 n (by omega)
      rw [he]
      simp only [hu, hv]
      split_ifs
      · exact ⟨_, rfl⟩
      · exact ⟨_, rfl⟩
      · exact ⟨_, rfl⟩

/-! ## The Newton program -/

theorem newtonStep_ok (hf : EnclosesFn φ f g) (hdf : EnclosesFn φ df g') (h : x.NE φ) : ∃ v1 v2 : Itv, newtonStep φ f df x = .ok (v1, v2) ∧
    v1.Ok φ ∧ v2.Ok φ ∧ v1.set ⊆ x.set ∧ v2.set ⊆ x.set ∧ (¬Atomic φ x → v1.set ≠ x.set ∧ v2.set ≠ x.set) ∧
    ((∀ r ∈ x.set, HasDerivAt g (g' r) r) → ∀ r ∈ x.set, g r = 0 → r ∈ v1.set ∪ v2.set) := by
  obtain ⟨q, hrep, hq, hmem, ⟨a, ha, hane, has⟩, ⟨b, hb, hbne, hbs⟩, c, hc, hcne, hcs⟩ := halves h
  have hdx := hdf x h.ok
  have hfc := hf c hcne.ok
  set z := (df x).mulRevToPair φ (f c) with hz
  have hzok : z.1.Ok φ ∧ z.2.Ok φ := by
    by_cases hs : Splits (df x).set (f c).set
    · obtain ⟨h1, h2, -⟩ := C32_to_pair_two hdx.1 hfc.1 hs
      exact ⟨h1.1, h2.1⟩
    · obtain ⟨h1, h2⟩ := C32_to_pair_one hdx.1 hfc.1 hs
      exact ⟨h1.1, by rw [hz, h2]; exact Or.inl rfl⟩
  have t1 := C01_sub φ hcne.ok hzok.1
  have t2 := C01_sub φ hcne.ok hzok.2
  obtain ⟨o1, i1⟩ := C25_intersection h.ok t1.1
  obtain ⟨o2, i2⟩ := C25_intersection h.ok t2.1
  have hstep : newtonStep φ f df x = if (x.inter (φ.subI c z.1)).equal x = true then .ok (a, b) else
      .ok (x.inter (φ.subI c z.1), x.inter (φ.subI c z.2)) := by
    simp only [newtonStep, hc, ha, hb]
    rfl
  rw [hstep]
  by_cases he : (x.inter (φ.subI c z.1)).equal x = true
  · rw [if_pos he]
    refine ⟨a, b, rfl, hane.ok, hbne.ok, has ▸ Set.inter_subset_left, hbs ▸ Set.inter_subset_left, ?_, ?_⟩
    · intro hna
      obtain ⟨⟨r1, h1, h1'⟩, r2, h2, h2'⟩ := mid_inside h hna hq
      constructor
      · intro he
        rw [← he, has] at h2
        exact absurd h2.2 (not_le.mpr h2')
      · intro he
        rw [← he, hbs] at h1
        exact absurd h1.2 (not_le.mpr h1')
    · intro _ r hr _
      rw [has, hbs, ← Set.inter_union_distrib_left, Set.Iic_union_Ici, Set.inter_univ]
      exact hr
  · rw [if_neg he]
    refine ⟨_, _, rfl, o1, o2, i1 ▸ Set.inter_subset_left, i2 ▸ Set.inter_subset_left, ?_, ?_⟩
    · intro hna
      refine ⟨fun hh => he ((C22_equal o1 h.ok).mpr hh), fun hh => ?_⟩
      obtain ⟨-, r2, h2, h2'⟩ := mid_inside h hna hq
      -- the second part lies below the midpoint
      have hY : (Itv.mk .ninf (.fin q)).NE φ := ⟨by simp, by simp, by simp [FP.toE], by simp [FP.toE], by simp [FP.toE], trivial, hrep⟩
      have hsub : {w | ∃ s ∈ c.set, ∃ t ∈ z.2.set, w = s - t} ⊆ (Itv.mk .ninf (.fin q)).set := by
        rintro w ⟨s, hs, t, ht, rfl⟩
        rw [hcs] at hs
        have ht0 : 0 ≤ t := by
          by_cases hsp : Splits (df x).set (f c).set
          · obtain ⟨-, h2, -⟩ := C32_to_pair_two hdx.1 hfc.1 hsp
            have hP : (Itv.mk (.fin 0) .pinf).NE φ := ⟨by simp, by simp, by simp [FP.toE], by simp [FP.toE], by simp [FP.toE], φ.rep_zero, trivial⟩
            have := h2.2.2 _ hP.ok (fun t ht => hP.mem.mpr ⟨by simpa [FP.toE] using ht.2.le, by simp [FP.toE]⟩) ht
            simpa [FP.toE] using (hP.mem.mp this).1
          · rw [hz, (C32_to_pair_one hdx.1 hfc.1 hsp).2] at ht
            exact absurd ht (by simp [Itv.set, FP.BelowR])
        rw [hY.mem]
        refine ⟨by simp [FP.toE], ?_⟩
        show _ ≤ ((q:ℝ):EReal)
        rw [EReal.coe_le_coe_iff, Set.mem_singleton_iff.mp hs]
        linarith
      rw [← hh, i2] at h2
      have := (hY.mem.mp (t2.2.2 _ hY.ok hsub h2.2)).2
      exact absurd (EReal.coe_le_coe_iff.mp this) (not_le.mpr h2')
    · intro hd r hr h0
      have hqc : (q:ℝ) ∈ c.set := by rw [hcs]; rfl
      -- mean value theorem
      have hsol : (q:ℝ) - r ∈ MulSol (df x).set (f c).set := by
        have key : ∃ ξ ∈ x.set, g' ξ * ((q:ℝ) - r) = g q := by
          have hconn : ∀ {s t ξ : ℝ}, s ∈ x.set → t ∈ x.set → s ≤ ξ → ξ ≤ t → ξ ∈ x.set := by
            intro s t ξ hs ht h1 h2
            rw [h.mem] at hs ht ⊢
            exact ⟨hs.1.trans (EReal.coe_le_coe_iff.mpr h1), (EReal.coe_le_coe_iff.mpr h2).trans ht.2⟩
          rcases lt_trichotomy r (q:ℝ) with hlt | heq | hlt
          · obtain ⟨ξ, hξ, e⟩ := exists_hasDerivAt_eq_slope g g' hlt
              (fun w hw => (hd w (hconn hr hmem hw.1 hw.2)).continuousAt.continuousWithinAt) (fun w hw => hd w (hconn hr hmem hw.1.le hw.2.le))
            refine ⟨ξ, hconn hr hmem hξ.1.le hξ.2.le, ?_⟩
            rw [e, h0, sub_zero]
            exact div_mul_cancel₀ _ (by linarith)
          · refine ⟨q, hmem, ?_⟩
            rw [← heq, h0]; ring
          · obtain ⟨ξ, hξ, e⟩ := exists_hasDerivAt_eq_slope g g' hlt
              (fun w hw => (hd w (hconn hmem hr hw.1 hw.2)).continuousAt.continuousWithinAt) (fun w hw => hd w (hconn hmem hr hw.1.le hw.2.le))
            refine ⟨ξ, hconn hmem hr hξ.1.le hξ.2.le, ?_⟩
            rw [e, h0]
            have : r - (q:ℝ) ≠ 0 := by linarith
            field_simp
            ring
        obtain ⟨ξ, hξ, e⟩ := key
        exact ⟨g' ξ, hdx.2 ξ hξ, by rw [e]; exact hfc.2 _ hqc⟩
      have hin : (q:ℝ) - r ∈ z.1.set ∨ (q:ℝ) - r ∈ z.2.set := by
        by_cases hs : Splits (df x).set (f c).set
        · obtain ⟨h1, h2, h3⟩ := C32_to_pair_two hdx.1 hfc.1 hs
          rcases lt_trichotomy ((q:ℝ) - r) 0 with hlt | heq | hlt
          · exact Or.inl (h1.2.1 ⟨hsol, hlt⟩)
          · exact absurd (heq ▸ hsol) h3
          · exact Or.inr (h2.2.1 ⟨hsol, hlt⟩)
        · exact Or.inl ((C32_to_pair_one hdx.1 hfc.1 hs).1.2.1 hsol)
      rcases hin with hin | hin
      · left
        rw [i1]
        exact ⟨hr, t1.2.1 ⟨q, hqc, _, hin, by ring⟩⟩
      · right
        rw [i2]
        exact ⟨hr, t2.2.1 ⟨q, hqc, _, hin, by ring⟩⟩

/-- **No zero is lost by the Newton program**: if `df` encloses the derivative of `g`, every zero of `g` in the start interval lies in
one of the intervals that are written. -/
theorem C44_newton_covers (hf : EnclosesFn φ f g) (hdf : EnclosesFn φ df g') (hx : x.Ok φ) (hd : ∀ r ∈ x.set, HasDerivAt g (g' r) r)
    (h : newton φ f df eps n x = .ok l) {r : ℝ} (hr : r ∈ x.set) (h0 : g r = 0) : ∃ y ∈ l, r ∈ y.set := by
  induction n generalizing x l with
  | zero => simp [newton] at h
  | succ n ih =>
    have hx' : x.NE φ := hx.cases.resolve_left (fun he => by rw [he] at hr; exact absurd hr (by simp [Itv.set, Itv.empty, FP.BelowR]))
    obtain ⟨v1, v2, hstep, o1, o2, s1, s2, -, hcov⟩ := newtonStep_ok hf hdf hx'
    have hm := (isMember_zero (hf x hx).1).mpr (h0 ▸ (hf x hx).2 r hr)
    have hpart : ∀ v : Itv, v.Ok φ → v.set ⊆ x.set → r ∈ v.set → ∀ u, newtonPart φ eps (newton φ f df eps n) v = .ok u → ∃ y ∈ u, r ∈ y.set := by
      intro v hv hs hrv u hu
      have hv' : v.NE φ := hv.cases.resolve_left (fun he => by rw [he] at hrv; exact absurd hrv (by simp [Itv.set, Itv.empty, FP.BelowR]))
      unfold newtonPart at hu
      rw [hv'.isEmpty] at hu
      simp only [Bool.false_eq_true, if_false] at hu
      split_ifs at hu
      · cases hu
        exact ⟨v, by simp, hrv⟩
      · exact ih hv (fun s hs' => hd s (hs hs')) hu hrv
    simp only [newton, hm, Bool.not_true, Bool.false_eq_true, if_false, hstep] at h
    cases hu : newtonPart φ eps (newton φ f df eps n) v1 with
    | error s => simp [hu] at h
    | ok u =>
      cases hv : newtonPart φ eps (newton φ f df eps n) v2 with
      | error s => simp [hu, hv] at h
      | ok v =>
        simp only [hu, hv, Except.ok.injEq] at h
        subst h
        rcases hcov hd r hr h0 with hr | hr
        · obtain ⟨y, hy, h⟩ := hpart v1 o1 s1 hr u hu
          exact ⟨y, List.mem_append_left _ hy, h⟩
        · obtain ⟨y, hy, h⟩ := hpart v2 o2 s2 hr v hv
          exact ⟨y, List.mem_append_right _ hy, h⟩

/-- **What the Newton program writes**: proper non-empty parts of the start interval that are narrower than `eps`. -/
theorem C44_newton_result (hf : EnclosesFn φ f g) (hdf : EnclosesFn φ df g') (hx : x.Ok φ) (hne : x.set.Nonempty)
    (h : newton φ f df eps n x = .ok l) {y : Itv} (hy : y ∈ l) : y.Ok φ ∧ y.set.Nonempty ∧ y.set ⊆ x.set ∧ y.wid φ < eps := by
  induction n generalizing x l with
  | zero => simp [newton] at h
  | succ n ih =>
    have hx' : x.NE φ := hx.cases.resolve_left (fun he => by rw [he] at hne; exact absurd hne (by simp [Itv.set, Itv.empty, FP.BelowR]))
    obtain ⟨v1, v2, hstep, o1, o2, s1, s2, -, -⟩ := newtonStep_ok hf hdf hx'
    have hpart : ∀ v : Itv, v.Ok φ → v.set ⊆ x.set → ∀ u, newtonPart φ eps (newton φ f df eps n) v = .ok u → y ∈ u →
        y.Ok φ ∧ y.set.Nonempty ∧ y.set ⊆ x.set ∧ y.wid φ < eps := by
      intro v hv hs u hu hyu
      rcases hv.cases with rfl | hv'
      · have : u = [] := by
          simp only [newtonPart, Itv.isEmpty_empty, if_true, Except.ok.injEq] at hu
          exact hu.symm
        rw [this] at hyu
        simp at hyu
      · unfold newtonPart at hu
        rw [hv'.isEmpty] at hu
        simp only [Bool.false_eq_true, if_false] at hu
        split_ifs at hu with hw
        · cases hu
          rw [List.mem_singleton] at hyu
          subst hyu
          exact ⟨hv, hv'.nonempty, hs, hw⟩
        · obtain ⟨h1, h2, h3, h4⟩ := ih hv hv'.nonempty hu hyu
          exact ⟨h1, h2, h3.trans hs, h4⟩
    simp only [newton] at h
    split_ifs at h with hm
    · cases h
      simp at hy
    · simp only [hstep] at h
      cases hu : newtonPart φ eps (newton φ f df eps n) v1 with
      | error s => simp [hu] at h
      | ok u =>
        cases hv : newtonPart φ eps (newton φ f df eps n) v2 with
        | error s => simp [hu, hv] at h
        | ok v =>
          simp only [hu, hv, Except.ok.injEq] at h
          subst h
          rcases List.mem_append.mp hy with hy | hy
          · exact hpart v1 o1 s1 u hu hy
          · exact hpart v2 o2 s2 v hv hy

/-- **The Newton program never signals.** -/
theorem C44_newton_safe (hf : EnclosesFn φ f g) (hdf : EnclosesFn φ df g') (eps : FP) (n : ℕ) (hx : x.Ok φ) (hne : x.set.Nonempty) :
    newton φ f df eps n x ≠ .error .signalled := by
  induction n generalizing x with
  | zero => simp [newton]
  | succ n ih =>
    have hx' : x.NE φ := hx.cases.resolve_left (fun he => by rw [he] at hne; exact absurd hne (by simp [Itv.set, Itv.empty, FP.BelowR]))
    obtain ⟨v1, v2, hstep, o1, o2, s1, s2, -, -⟩ := newtonStep_ok hf hdf hx'
    have hpart : ∀ v : Itv, v.Ok φ → newtonPart φ eps (newton φ f df eps n) v ≠ .error .signalled := by
      intro v hv
      rcases hv.cases with rfl | hv'
      · simp [newtonPart, Itv.isEmpty_empty]
      · unfold newtonPart
        rw [hv'.isEmpty]
        simp only [Bool.false_eq_true, if_false]
        split_ifs
        · simp
        · exact ih hv hv'.nonempty
    have p1 := hpart v1 o1
    have p2 := hpart v2 o2
    simp only [newton]
    split_ifs
    · simp
    · simp only [hstep]
      cases hu : newtonPart φ eps (newton φ f df eps n) v1 with
      | error s => rw [hu] at p1; simpa using p1
      | ok u =>
        cases hv : newtonPart φ eps (newton φ f df eps n) v2 with
        | error s => rw [hv] at p2; simpa using p2
        | ok v => simp

/-- **The Newton program ends** if `eps` is not too small: if each part of the start interval that has no number of the type inside is
narrower than `eps`, or the enclosure of the values on it does not contain zero. -/
theorem C44_newton_ends (hf : EnclosesFn φ f g) (hdf : EnclosesFn φ df g') (hx : x.Ok φ) (hne : x.set.Nonempty)
    (ha : ∀ y : Itv, y.Ok φ → y.set.Nonempty → y.set ⊆ x.set → Atomic φ y → (0:ℝ) ∉ (f y).set ∨ y.wid φ < eps) :
    ∃ N, ∀ n ≥ N, ∃ l, newton φ f df eps n x = .ok l := by
  generalize hk : (numsIn φ x).ncard = k
  induction k using Nat.strong_induction_on generalizing x with
  | _ k ih =>
    have hx' : x.NE φ := hx.cases.resolve_left (fun he => by rw [he] at hne; exact absurd hne (by simp [Itv.set, Itv.empty, FP.BelowR]))
    obtain ⟨v1, v2, hstep, o1, o2, s1, s2, hprop, -⟩ := newtonStep_ok hf hdf hx'
    have hpart : ∀ v : Itv, v.Ok φ → v.set ⊆ x.set → ((f x).isMember (.fin 0) = true → ¬Atomic φ x → v.set ≠ x.set) →
        (f x).isMember (.fin 0) = true → ∃ N, ∀ n ≥ N, ∃ u, newtonPart φ eps (newton φ f df eps n) v = .ok u := by
      intro v hv hs hne' hm
      rcases hv.cases with rfl | hv'
      · exact ⟨0, fun n _ => ⟨[], by simp [newtonPart, Itv.isEmpty_empty]⟩⟩
      · by_cases hw : v.wid φ < eps
        · exact ⟨0, fun n _ => ⟨[v], by unfold newtonPart; rw [hv'.isEmpty]; simp [hw]⟩⟩
        · have hna : ¬Atomic φ x := by
            intro hat
            rcases ha x hx hne subset_rfl hat with h | h
            · exact h ((isMember_zero (hf x hx).1).mp hm)
            · exact hw (wid_mono hv' hx' hs h)
          obtain ⟨N, hN⟩ := ih _ (hk ▸ numsIn_lt hv' hx' hs (hne' hm hna)) hv hv'.nonempty (fun y h1 h2 h3 => ha y h1 h2 (h3.trans hs)) rfl
          refine ⟨N, fun n hn => ?_⟩
          unfold newtonPart
          rw [hv'.isEmpty]
          simpa [hw] using hN n hn
    by_cases hm : (f x).isMember (.fin 0) = true
    · obtain ⟨N1, h1⟩ := hpart v1 o1 s1 (fun _ h => (hprop h).1) hm
      obtain ⟨N2, h2⟩ := hpart v2 o2 s2 (fun _ h => (hprop h).2) hm
      refine ⟨max N1 N2 + 1, fun n hn => ?_⟩
      obtain ⟨n, rfl⟩ : ∃ m, n = m + 1 := ⟨n - 1, by omega⟩
      obtain ⟨u, hu⟩ := h1 n (by omega)
      obtain ⟨v, hv⟩ := h2 n (by omega)
      exact ⟨u ++ v, by simp only [newton, hm, Bool.not_true, Bool.false_eq_true, if_false, hstep, hu, hv]⟩
    · refine ⟨1, fun n hn => ?_⟩
      obtain ⟨n, rfl⟩ : ∃ m, n = m + 1 := ⟨n - 1, by omega⟩
      exact ⟨[], by simp [newton, hm]⟩

/-! ## The programs as they are run: the zeros of x² - 2 -/

/-- The functions of the example programs enclose `x² - 2` and its derivative. -/
theorem C44_example (h2 : φ.Rep 2) : EnclosesFn φ (exF φ) (fun r => r ^ 2 - 2) ∧ EnclosesFn φ (exDF φ) (fun r => 2 * r) ∧
    ∀ r : ℝ, HasDerivAt (fun r : ℝ => r ^ 2 - 2) (2 * r) r := by
  have hc : (Itv.mk (.fin 2) (.fin 2)).NE φ := ⟨by simp, by simp, le_rfl, by simp [FP.toE], by simp [FP.toE], h2, h2⟩
  have hm : (2:ℝ) ∈ (Itv.mk (.fin 2) (.fin 2)).set := by simp [Itv.set, FP.BelowR, FP.AboveR]
  refine ⟨fun x hx => ?_, fun x hx => ?_, fun r => ?_⟩
  · have t1 := C02_mul φ hx hx
    have t2 := C01_sub φ t1.1 hc.ok
    exact ⟨t2.1, fun r hr => t2.2.1 ⟨r * r, t1.2.1 ⟨r, hr, r, hr, rfl⟩, 2, hm, by ring⟩⟩
  · have t1 := C02_mul φ hc.ok hx
    exact ⟨t1.1, fun r hr => t1.2.1 ⟨2, hm, r, hr, rfl⟩⟩
  · simpa using (hasDerivAt_pow 2 r).sub_const 2

/-- `0.00001` as a `double`. -/
def exEps : FP := binary64.round .N (1 / 100000 : ℚ)

/-- How many intervals are written. -/
def written : Except Stop (List Itv) → Option ℕ
  | .ok l => some l.length
  | .error _ => none

theorem ok_of_written {r : Except Stop (List Itv)} {k : ℕ} (h : written r = some k) : ∃ l, r = .ok l ∧ l.length = k := by
  cases r with
  | error s => simp [written] at h
  | ok l => exact ⟨l, rfl, by simpa [written] using h⟩

theorem start_ok : (Itv.mk (.fin (-2)) (.fin 2)).Ok binary64 := Itv.ok_of_okb (by decide +kernel)

theorem roots_mem {r : ℝ} (h : r = Real.sqrt 2 ∨ r = -Real.sqrt 2) : r ∈ (Itv.mk (.fin (-2)) (.fin 2)).set ∧ (fun r : ℝ => r ^ 2 - 2) r = 0 := by
  have h2 : Real.sqrt 2 ≤ 2 := Real.sqrt_le_iff.mpr ⟨by norm_num, by norm_num⟩
  have h0 := Real.sqrt_nonneg 2
  have hs : Real.sqrt 2 ^ 2 = 2 := Real.sq_sqrt (by norm_num)
  constructor
  · rcases h with rfl | rfl <;> simp only [Itv.set, FP.BelowR, FP.AboveR, Set.mem_ofPred_eq] <;> push_cast <;> constructor <;> linarith
  · rcases h with rfl | rfl
    · show Real.sqrt 2 ^ 2 - 2 = 0
      rw [hs]; ring
    · show (-Real.sqrt 2) ^ 2 - 2 = 0
      rw [neg_sq, hs]; ring

/-- The runs of both programs, `examples/e15_bisection.cpp:82-94` and `examples/e16_newton.cpp:114-126`: they end, write two intervals
each, and these contain both roots. -/
theorem C44_example_runs :
    (∃ l, bisect binary64 (exF binary64) exEps 30 ⟨.fin (-2), .fin 2⟩ = .ok l ∧ l.length = 2 ∧ (∃ y ∈ l, Real.sqrt 2 ∈ y.set) ∧ ∃ y ∈ l, -Real.sqrt 2 ∈ y.set) ∧
    ∃ l, newton binary64 (exF binary64) (exDF binary64) exEps 10 ⟨.fin (-2), .fin 2⟩ = .ok l ∧ l.length = 2 ∧
      (∃ y ∈ l, Real.sqrt 2 ∈ y.set) ∧ ∃ y ∈ l, -Real.sqrt 2 ∈ y.set := by
  have h2 : binary64.Rep 2 := start_ok.resolve_left (by simp) |>.2.2.2.2
  obtain ⟨ef, edf, hd⟩ := C44_example h2
  have hne : (Itv.mk (.fin (-2)) (.fin 2)).set.Nonempty := ⟨_, (roots_mem (Or.inl rfl)).1⟩
  constructor
  · obtain ⟨l, hl, hlen⟩ := ok_of_written (r := bisect binary64 (exF binary64) exEps 30 ⟨.fin (-2), .fin 2⟩) (k := 2) (by decide +kernel)
    exact ⟨l, hl, hlen, C44_bisect_covers ef start_ok hne hl (roots_mem (Or.inl rfl)).1 (roots_mem (Or.inl rfl)).2,
      C44_bisect_covers ef start_ok hne hl (roots_mem (Or.inr rfl)).1 (roots_mem (Or.inr rfl)).2⟩
  · obtain ⟨l, hl, hlen⟩ := ok_of_written (r := newton binary64 (exF binary64) (exDF binary64) exEps 10 ⟨.fin (-2), .fin 2⟩) (k := 2) (by decide +kernel)
    exact ⟨l, hl, hlen, C44_newton_covers ef edf start_ok (fun r _ => hd r) hl (roots_mem (Or.inl rfl)).1 (roots_mem (Or.inl rfl)).2,
      C44_newton_covers ef edf start_ok (fun r _ => hd r) hl (roots_mem (Or.inr rfl)).1 (roots_mem (Or.inr rfl)).2⟩

/-- Multiples of 1/64 up to 3 as endpoints. -/
def grid (k : ℤ) : Itv := ⟨.fin ((k:ℚ) / 64), .fin (((k:ℚ) + 1) / 64)⟩

theorem grid_facts (k : ℕ) (hk : k < 264) : (grid (k - 132)).okb binary64 = true ∧ (exF binary64 (grid (k - 132))).wid binary64 < .fin (1/2) ∧
    (grid (k - 132)).wid binary64 < .fin (1/2) := by
  have h : ∀ k ∈ List.range 264, (grid (k - 132)).okb binary64 = true ∧ (exF binary64 (grid (k - 132))).wid binary64 < .fin (1/2) ∧
    (grid (k - 132)).wid binary64 < .fin (1/2) := by decide +kernel
  exact h k (List.mem_range.mpr hk)

/-- An interval within `[-2, 2]` that has no `double` inside lies between two neighbouring multiples of 1/64. -/
theorem atomic_grid {y : Itv} (hy : y.set ⊆ (Itv.mk (.fin (-2)) (.fin 2)).set) (hne : y.set.Nonempty) (ha : Atomic binary64 y) :
    ∃ k : ℕ, k < 264 ∧ y.set ⊆ (grid (k - 132)).set := by
  have hb : ∀ r ∈ y.set, -2 ≤ r ∧ r ≤ 2 := fun r hr => by
    have := hy hr
    simpa [Itv.set, FP.BelowR, FP.AboveR] using this
  have hset : ∀ (k : ℤ) (r : ℝ), r ∈ (grid k).set ↔ (k:ℝ) / 64 ≤ r ∧ r ≤ ((k:ℝ) + 1) / 64 := by
    intro k r
    simp [grid, Itv.set, FP.BelowR, FP.AboveR]
  have hrep : ∀ k : ℤ, -132 ≤ k → k < 132 → binary64.Rep ((k:ℚ) / 64) := by
    intro k h1 h2
    obtain ⟨m, hm⟩ : ∃ m : ℕ, (m:ℤ) = k + 132 := ⟨(k + 132).toNat, by omega⟩
    have := (Itv.ok_of_okb (grid_facts m (by omega)).1).resolve_left (by simp [grid]) |>.2.2.2.1
    have he : ((m:ℤ) - 132 : ℤ) = k := by omega
    rw [he] at this
    exact this
  obtain ⟨r, hr⟩ := hne
  have hk1 : ((⌊64 * r⌋:ℤ):ℝ) / 64 ≤ r := by have := Int.floor_le (64 * r); linarith
  have hk2 : r < (((⌊64 * r⌋:ℤ):ℝ) + 1) / 64 := by have := Int.lt_floor_add_one (64 * r); linarith
  have hk3 : -128 ≤ ⌊64 * r⌋ := Int.le_floor.mpr (by have := (hb r hr).1; push_cast; linarith)
  have hk4 : ⌊64 * r⌋ ≤ 128 := by
    have : ⌊64 * r⌋ < 129 := Int.floor_lt.mpr (by have := (hb r hr).2; push_cast; linarith)
    omega
  generalize ⌊64 * r⌋ = k at *
  have hn : ∀ (j : ℤ), -132 ≤ j → j < 132 → ∀ s ∈ y.set, ∀ t ∈ y.set, s < (j:ℝ) / 64 → t ≤ (j:ℝ) / 64 := by
    intro j h1 h2 s hs t ht hlt
    by_contra hcon
    refine ha _ (hrep j h1 h2) ⟨⟨s, hs, by push_cast; exact hlt⟩, ⟨t, ht, by push_cast; exact not_le.mp hcon⟩⟩
  by_cases hs : ∃ s ∈ y.set, s < (k:ℝ) / 64
  · obtain ⟨s, hs, hlt⟩ := hs
    refine ⟨(k + 131).toNat, by omega, fun t ht => ?_⟩
    rw [show (((k + 131).toNat : ℕ) : ℤ) - 132 = k - 1 by omega, hset]
    push_cast
    have := hn k (by omega) (by omega) s hs t ht hlt
    refine ⟨?_, by linarith⟩
    by_contra hcon
    have := hn (k - 1) (by omega) (by omega) t ht r hr (by push_cast; exact not_le.mp hcon)
    push_cast at this
    linarith
  · push Not at hs
    refine ⟨(k + 132).toNat, by omega, fun t ht => ?_⟩
    rw [show (((k + 132).toNat : ℕ) : ℤ) - 132 = k by omega, hset]
    refine ⟨hs t ht, ?_⟩
    have := hn (k + 1) (by omega) (by omega) r hr t ht (by push_cast; exact hk2)
    push_cast at this
    exact this

theorem exF_mono {y w : Itv} (hy : y.Ok φ) (hw : w.Ok φ) (h2 : φ.Rep 2) (h : y.set ⊆ w.set) : (exF φ y).set ⊆ (exF φ w).set := by
  have hc : (Itv.mk (.fin 2) (.fin 2)).NE φ := ⟨by simp, by simp, le_rfl, by simp [FP.toE], by simp [FP.toE], h2, h2⟩
  have t1 := C02_mul φ hy hy
  have t2 := C01_sub φ t1.1 hc.ok
  have s1 := C02_mul φ hw hw
  have s2 := C01_sub φ s1.1 hc.ok
  refine t2.2.2 _ s2.1 ?_
  rintro _ ⟨a, ha, b, hb, rfl⟩
  refine s2.2.1 ⟨a, t1.2.2 _ s1.1 ?_ ha, b, hb, rfl⟩
  rintro _ ⟨c, hc', d, hd, rfl⟩
  exact s1.2.1 ⟨c, h hc', d, h hd, rfl⟩

/-- A case that meets the conditions of the theorems on the end of the runs: the example function on `[-2, 2]` with `eps = 1/2`, which
needs several nested calls. -/
theorem ends_condition {y : Itv} (hy : y.Ok binary64) (hne : y.set.Nonempty) (hs : y.set ⊆ (Itv.mk (.fin (-2)) (.fin 2)).set) (ha : Atomic binary64 y) :
    (exF binary64 y).wid binary64 < .fin (1/2) ∧ y.wid binary64 < .fin (1/2) := by
  have h2 : binary64.Rep 2 := start_ok.resolve_left (by simp) |>.2.2.2.2
  obtain ⟨k, hk, hg⟩ := atomic_grid hs hne ha
  obtain ⟨g1, g2, g3⟩ := grid_facts k hk
  have gok := Itv.ok_of_okb g1
  have ene : ∀ {v : Itv}, v.Ok binary64 → v.set.Nonempty → v.NE binary64 := fun {v} hv hn =>
    hv.cases.resolve_left (fun he => by rw [he] at hn; exact absurd hn (by simp [Itv.set, Itv.empty, FP.BelowR]))
  obtain ⟨ef, -, -⟩ := C44_example h2
  have gne := hne.mono hg
  have fne : ∀ {v : Itv}, v.Ok binary64 → v.set.Nonempty → (exF binary64 v).NE binary64 := fun {v} hv hn =>
    ene (ef v hv).1 ⟨_, (ef v hv).2 _ hn.some_mem⟩
  exact ⟨wid_mono (fne hy hne) (fne gok gne) (exF_mono hy gok h2 hg) g2, wid_mono (ene hy hne) (ene gok gne) hg g3⟩

example : (∃ N, ∀ n ≥ N, ∃ l, bisect binary64 (exF binary64) (.fin (1/2)) n ⟨.fin (-2), .fin 2⟩ = .ok l) ∧
    (∃ N, ∀ n ≥ N, ∃ l, newton binary64 (exF binary64) (exDF binary64) (.fin (1/2)) n ⟨.fin (-2), .fin 2⟩ = .ok l) ∧
    bisect binary64 (exF binary64) (.fin (1/2)) 4 ⟨.fin (-2), .fin 2⟩ = .error .deeper := by
  have h2 : binary64.Rep 2 := start_ok.resolve_left (by simp) |>.2.2.2.2
  obtain ⟨ef, edf, -⟩ := C44_example h2
  have hne : (Itv.mk (.fin (-2)) (.fin 2)).set.Nonempty := ⟨_, (roots_mem (Or.inl rfl)).1⟩
  refine ⟨C44_bisect_ends ef start_ok hne fun y h1 h2 h3 h4 => Or.inr (ends_condition h1 h2 h3 h4).1,
    C44_newton_ends ef edf start_ok hne fun y h1 h2 h3 h4 => Or.inr (ends_condition h1 h2 h3 h4).2, ?_⟩
  have : written (bisect binary64 (exF binary64) (.fin (1/2)) 4 ⟨.fin (-2), .fin 2⟩) = none := by decide +kernel
  have hs := C44_bisect_safe (φ := binary64) (exF binary64) (.fin (1/2)) 4 start_ok hne
  cases hb : bisect binary64 (exF binary64) (.fin (1/2)) 4 ⟨.fin (-2), .fin 2⟩ with
  | ok l => rw [hb] at this; simp [written] at this
  | error s =>
    cases s with
    | deeper => rfl
    | signalled => exact absurd hb hs

/-! ## Runs that never end -/

/-- A chain of at most `k` nested calls of the bisection that comes back to the same interval. -/
def stuck (φ : Fmt) (f : Itv → Itv) (eps : FP) : ℕ → Itv → Bool
  | 0, _ => false
  | k + 1, x =>
    (f x).isMember (.fin 0) && !decide ((f x).wid φ < eps) &&
      match mkI x.inf (x.mid φ), mkI (x.mid φ) x.sup with
      | .ok a, .ok b => decide (a = x) || decide (b = x) || stuck φ f eps k a || stuck φ f eps k b
      | _, _ => false

theorem stuck_spec {k : ℕ} (h : stuck φ f eps k x = true) : ∀ n l, bisect φ f eps n x ≠ .ok l := by
  induction k generalizing x with
  | zero => simp [stuck] at h
  | succ k ih =>
    unfold stuck at h
    rw [Bool.and_eq_true, Bool.and_eq_true, Bool.not_eq_true', decide_eq_false_iff_not] at h
    obtain ⟨⟨hm, hw⟩, hrest⟩ := h
    split at hrest
    case h_2 => simp at hrest
    case h_1 a b ea eb =>
      have hn : ∀ n l, bisect φ f eps (n + 1) x = .ok l → (∃ u, bisect φ f eps n a = .ok u) ∧ ∃ v, bisect φ f eps n b = .ok v := by
        intro n l hl
        simp only [bisect, hm, hw, if_true, if_false, ea, eb] at hl
        cases hu : bisect φ f eps n a with
        | error s => simp [hu] at hl
        | ok u =>
          cases hv : bisect φ f eps n b with
          | error s => simp [hu, hv] at hl
          | ok v => exact ⟨⟨u, rfl⟩, v, rfl⟩
      intro n
      induction n with
      | zero => simp [bisect]
      | succ n ihn =>
        intro l hl
        obtain ⟨⟨u, hu⟩, v, hv⟩ := hn n l hl
        simp only [Bool.or_eq_true, decide_eq_true_eq] at hrest
        rcases hrest with ((h | h) | h) | h
        · subst h; exact ihn u hu
        · subst h; exact ihn v hv
        · exact ih h n u hu
        · exact ih h n v hv

/-- With an `eps` below the resolution of the type the bisection program never returns: no depth of nested calls suffices for the
example function with `eps = 10⁻²⁰`.  The condition of `C44_bisect_ends` cannot be dropped. -/
theorem C44_bisect_endless (n : ℕ) : bisect binary64 (exF binary64) (binary64.round .N (1 / 10 ^ 20 : ℚ)) n ⟨.fin (-2), .fin 2⟩ = .error .deeper := by
  have h := stuck_spec (φ := binary64) (f := exF binary64) (eps := binary64.round .N (1 / 10 ^ 20 : ℚ)) (x := ⟨.fin (-2), .fin 2⟩) (k := 60) (by decide +kernel) n
  have hs := C44_bisect_safe (φ := binary64) (exF binary64) (binary64.round .N (1 / 10 ^ 20 : ℚ)) n start_ok ⟨_, (roots_mem (Or.inl rfl)).1⟩
  cases hb : bisect binary64 (exF binary64) (binary64.round .N (1 / 10 ^ 20 : ℚ)) n ⟨.fin (-2), .fin 2⟩ with
  | ok l => exact absurd hb (h l)
  | error s =>
    cases s with
    | deeper => rfl
    | signalled => exact absurd hb hs

/-- The same for the Newton program. -/
def stuckN (φ : Fmt) (f df : Itv → Itv) (eps : FP) : ℕ → Itv → Bool
  | 0, _ => false
  | k + 1, x =>
    (f x).isMember (.fin 0) &&
      match newtonStep φ f df x with
      | .ok (a, b) =>
        (!a.isEmpty && !decide (a.wid φ < eps) && (decide (a = x) || stuckN φ f df eps k a)) ||
        (!b.isEmpty && !decide (b.wid φ < eps) && (decide (b = x) || stuckN φ f df eps k b))
      | .error _ => false

theorem stuckN_spec {k : ℕ} (h : stuckN φ f df eps k x = true) : ∀ n l, newton φ f df eps n x ≠ .ok l := by
  induction k generalizing x with
  | zero => simp [stuckN] at h
  | succ k ih =>
    unfold stuckN at h
    rw [Bool.and_eq_true] at h
    obtain ⟨hm, hrest⟩ := h
    split at hrest
    case h_2 => simp at hrest
    case h_1 a b e =>
      have hn : ∀ n l, newton φ f df eps (n + 1) x = .ok l →
          (∃ u, newtonPart φ eps (newton φ f df eps n) a = .ok u) ∧ ∃ v, newtonPart φ eps (newton φ f df eps n) b = .ok v := by
        intro n l hl
        simp only [newton, hm, Bool.not_true, Bool.false_eq_true, if_false, e] at hl
        cases hu : newtonPart φ eps (newton φ f df eps n) a with
        | error s => simp [hu] at hl
        | ok u =>
          cases hv : newtonPart φ eps (newton φ f df eps n) b with
          | error s => simp [hu, hv] at hl
          | ok v => exact ⟨⟨u, rfl⟩, v, rfl⟩
      intro n
      induction n with
      | zero => simp [newton]
      | succ n ihn =>
        intro l hl
        obtain ⟨⟨u, hu⟩, v, hv⟩ := hn n l hl
        simp only [Bool.or_eq_true, Bool.and_eq_true, Bool.not_eq_true', decide_eq_true_eq, decide_eq_false_iff_not] at hrest
        rcases hrest with ⟨⟨h1, h2⟩, h3⟩ | ⟨⟨h1, h2⟩, h3⟩
        · simp only [newtonPart, h1, h2, Bool.false_eq_true, if_false] at hu
          rcases h3 with h3 | h3
          · subst h3; exact ihn u hu
          · exact ih h3 n u hu
        · simp only [newtonPart, h1, h2, Bool.false_eq_true, if_false] at hv
          rcases h3 with h3 | h3
          · subst h3; exact ihn v hv
          · exact ih h3 n v hv

/-- Nor does the Newton program. -/
theorem C44_newton_endless (n : ℕ) :
    newton binary64 (exF binary64) (exDF binary64) (binary64.round .N (1 / 10 ^ 20 : ℚ)) n ⟨.fin (-2), .fin 2⟩ = .error .deeper := by
  have h2 : binary64.Rep 2 := start_ok.resolve_left (by simp) |>.2.2.2.2
  obtain ⟨ef, edf, -⟩ := C44_example h2
  have h := stuckN_spec (φ := binary64) (f := exF binary64) (df := exDF binary64) (eps := binary64.round .N (1 / 10 ^ 20 : ℚ))
    (x := ⟨.fin (-2), .fin 2⟩) (k := 20) (by decide +kernel) n
  have hs := C44_newton_safe ef edf (binary64.round .N (1 / 10 ^ 20 : ℚ)) n start_ok ⟨_, (roots_mem (Or.inl rfl)).1⟩
  cases hb : newton binary64 (exF binary64) (exDF binary64) (binary64.round .N (1 / 10 ^ 20 : ℚ)) n ⟨.fin (-2), .fin 2⟩ with
  | ok l => exact absurd hb (h l)
  | error s =>
    cases s with
    | deeper => rfl
    | signalled => exact absurd hb hs

end P1788
