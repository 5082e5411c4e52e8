import Verif.Lemmas.MpfrFinish
import Verif.Lemmas.Interval

/-!
# C43: rounding in two steps is rounding once, whatever earlier calls have left behind

The library sets MPFR's global exponent range, lets MPFR round to the precision of the type, and then calls `mpfr_subnormalize`.  The
rest of the development takes the composition to be one correct rounding, `Fmt.round`; here that is proved from the parts.
-/

namespace P1788

/-- A call that computes a non-zero real result: the format of the type, the rounding direction and the exact value. -/
structure OpCall where
  fmt : Fmt
  m : Rnd
  x : ℝ

/-- The results of a sequence of calls; each leaves its exponent range to the next. -/
noncomputable def runCalls : List OpCall → Range → List FP
  | [], _ => []
  | c :: cs, r => (c.fmt.viaMpfr c.m c.x r).1 :: runCalls cs (c.fmt.viaMpfr c.m c.x r).2

theorem viaMpfr_eq (φ : Fmt) (m : Rnd) {x : ℝ} (hx : x ≠ 0) (r : Range) : (φ.viaMpfr m x r).1 = φ.round m x := by
  show φ.get m (φ.var.range.subnormalize φ.p m (φ.var.range.check φ.p m (.fin (mpfrUnb φ.p m x), ternary (mpfrUnb φ.p m x) x))).1 = _
  rw [finish φ m hx]
  exact get_of_in φ m (φ.round_in m x)

theorem belowR_iff' {f : FP} (hn : f ≠ .nan) (x : ℝ) : f.BelowR x ↔ f.toE ≤ (x : EReal) := by
  cases f <;> simp_all [FP.BelowR, FP.toE]

theorem aboveR_iff' {f : FP} (hn : f ≠ .nan) (x : ℝ) : f.AboveR x ↔ (x : EReal) ≤ f.toE := by
  cases f <;> simp_all [FP.AboveR, FP.toE]

/-- Rounding downward gives the greatest number of the type that does not exceed the exact value. -/
theorem C43_down (φ : Fmt) {x : ℝ} (hx : x ≠ 0) (r : Range) :
    (φ.viaMpfr .D x r).1.In φ ∧ (φ.viaMpfr .D x r).1.BelowR x ∧ ∀ f : FP, f.In φ → f.BelowR x → f ≤ (φ.viaMpfr .D x r).1 := by
  rw [viaMpfr_eq φ .D hx]
  have hn := φ.round_ne_nan .D x
  refine ⟨φ.round_in .D x, (belowR_iff' hn x).mpr ?_, fun f hf hb => ?_⟩
  · rw [← φ.rdE_coe]; exact φ.rdE_le _
  · have hfn : f ≠ .nan := by rintro rfl; exact hb
    rw [FP.le_iff hfn hn, ← φ.rdE_coe, φ.le_rdE_iff hf _ hfn]
    exact (belowR_iff' hfn x).mp hb

/-- Rounding upward gives the least number of the type that is not below the exact value. -/
theorem C43_up (φ : Fmt) {x : ℝ} (hx : x ≠ 0) (r : Range) :
    (φ.viaMpfr .U x r).1.In φ ∧ (φ.viaMpfr .U x r).1.AboveR x ∧ ∀ f : FP, f.In φ → f.AboveR x → (φ.viaMpfr .U x r).1 ≤ f := by
  rw [viaMpfr_eq φ .U hx]
  have hn := φ.round_ne_nan .U x
  refine ⟨φ.round_in .U x, (aboveR_iff' hn x).mpr ?_, fun f hf hb => ?_⟩
  · rw [← φ.ruE_coe]; exact φ.le_ruE _
  · have hfn : f ≠ .nan := by rintro rfl; exact hb
    rw [FP.le_iff hn hfn, ← φ.ruE_coe, φ.ruE_le_iff hf _ hfn]
    exact (aboveR_iff' hfn x).mp hb

/-- Rounding to nearest gives a number of the type that no other one is closer to the exact value than. -/
theorem C43_nearest (φ : Fmt) {x : ℝ} (hx : x ≠ 0) (hb : |x| ≤ (φ.maxFin : ℝ)) (r : Range) :
    (φ.viaMpfr .N x r).1.In φ ∧ (φ.viaMpfr .N x r).1 ≠ .ninf ∧ (φ.viaMpfr .N x r).1 ≠ .pinf ∧ ∀ f : ℚ, φ.Rep f → |((φ.viaMpfr .N x r).1.q : ℝ) - x| ≤ |(f : ℝ) - x| := by
  rw [viaMpfr_eq φ .N hx]
  have hq := abs_le.mp (φ.roundQ_le_maxFin (m := .N) hb)
  have hr : φ.round .N x = if φ.roundQ .N x = 0 then FP.mkZero (decide (x < 0)) else .fin (φ.roundQ .N x) := by
    unfold Fmt.round
    simp only
    rw [if_neg (not_lt.mpr hq.2), if_neg (not_lt.mpr hq.1)]
  have hrq : (φ.round .N x).q = φ.roundQ .N x ∧ φ.round .N x ≠ .ninf ∧ φ.round .N x ≠ .pinf := by
    rw [hr]
    split_ifs with h0
    · rw [h0]; cases decide (x < 0) <;> simp [FP.mkZero, FP.q]
    · simp [FP.q]
  refine ⟨φ.round_in .N x, hrq.2.1, hrq.2.2, fun f hf => ?_⟩
  rw [hrq.1]
  exact φ.roundQ_N_nearest x hf

/-- In every sequence of calls, on types of different formats and from every initial state, each result is the correctly rounded one. -/
theorem C43_history (cs : List OpCall) (h : ∀ c ∈ cs, c.x ≠ 0) (r : Range) :
    runCalls cs r = cs.map fun c => c.fmt.round c.m c.x := by
  induction cs generalizing r with
  | nil => rfl
  | cons c cs ih =>
    rw [runCalls, viaMpfr_eq c.fmt c.m (h c (by simp)), ih (fun d hd => h d (by simp [hd]))]
    rfl

/-- The same for exact values that are rational. -/
theorem C43_rational (φ : Fmt) (m : Rnd) {x : ℚ} (hx : x ≠ 0) (r : Range) : (φ.viaMpfr m x r).1 = φ.round m x := by
  show φ.get m (φ.var.range.subnormalize φ.p m (φ.var.range.check φ.p m (.fin (mpfrUnb φ.p m x), ternary (mpfrUnb φ.p m x) x))).1 = _
  rw [finish φ m hx]
  exact get_of_in φ m (by rw [← φ.round_cast]; exact φ.round_in m _)

theorem fin_q' (q : ℚ) : (FP.fin q).q = q := rfl

theorem mid_sum {ψ : Fmt} {a b : FP} (ha : a.In ψ) (hb : b.In ψ) :
    ψ.Rep a.q ∧ ψ.Rep b.q ∧ (∃ k : ℤ, (a.q + b.q) / 2 = k * 2 ^ (ψ.qmin - 1)) ∧ |(a.q + b.q) / 2| ≤ ψ.maxFin := by
  have hr : ∀ {c : FP}, c.In ψ → ψ.Rep c.q := by
    intro c hc
    cases c with
    | fin q => exact hc
    | _ => exact ψ.rep_zero
  refine ⟨hr ha, hr hb, ?_, ?_⟩
  · obtain ⟨k, hk⟩ := ψ.q_mult ha
    obtain ⟨l, hl⟩ := ψ.q_mult hb
    refine ⟨k + l, ?_⟩
    rw [hk, hl, zpow_sub_one₀ (by norm_num)]
    push_cast
    ring
  · have h1 := abs_le.mp (hr ha).abs_le
    have h2 := abs_le.mp (hr hb).abs_le
    rw [abs_le]
    constructor <;> linarith [h1.1, h1.2, h2.1, h2.2]

theorem midMpfr_zero (φ ψ : Fmt) (V : VarTy) {a b : FP} (ha : a.In ψ) (hb : b.In ψ) (h0 : (a.q + b.q) / 2 = 0) (r : Range) :
    (φ.midMpfr ψ V a.q b.q r).1 = Itv.midBounds φ a b := by
  obtain ⟨h1, h2, -, -⟩ := mid_sum ha hb
  have e1 : ψ.extVar.prec = ψ.p := rfl
  have hs : a.q / 2 + b.q / 2 = 0 := by rw [← add_div]; exact h0
  have hz : φ.get .N (.fin 0) = .fin 0 := get_of_in φ .N φ.rep_zero
  have hr0 : φ.round .N (0 : ℚ) = .fin 0 := hz
  unfold Fmt.midMpfr Itv.midBounds VarTy.setup
  simp only [e1, half_exact ψ h1, half_exact ψ h2, fin_q', hs, h0, hr0]
  have hy : ψ.extVar.range.addN V.prec 0 = (.fin 0, 0) := by unfold Range.addN; rw [if_pos rfl]
  have hc : φ.var.range.check V.prec .N (.fin 0, 0) = (.fin 0, 0) := by unfold Range.check; simp
  have hsn : V.subnormalize φ.var.range .N (.fin 0, 0) = (.fin 0, 0) := by
    unfold VarTy.subnormalize Range.subnormalize
    split_ifs <;> simp
  rw [hy, hc, hsn]
  show (φ.get .N (.fin 0)).posZero = _
  rw [hz]

/-- The midpoint of a bounded interval is rounded once, although the code divides, adds, checks the range and
calls a `subnormalize` that does nothing: it is what the model of `mid` returns, whatever the state was before. -/
theorem C43_mid (φ : Fmt) {a b : FP} (ha : a.In φ) (hb : b.In φ) (r : Range) :
    (φ.midMpfr φ φ.extVar a.q b.q r).1 = Itv.midBounds φ a b := by
  by_cases h0 : (a.q + b.q) / 2 = 0
  · exact midMpfr_zero φ φ _ ha hb h0 r
  · obtain ⟨h1, h2, ⟨k, hk⟩, hs⟩ := mid_sum ha hb
    have e1 : φ.extVar.prec = φ.p := rfl
    unfold Fmt.midMpfr Itv.midBounds VarTy.setup
    simp only [e1, half_exact φ h1, half_exact φ h2, fin_q']
    rw [← add_div]
    have hy : φ.extVar.range.addN φ.p ((a.q + b.q) / 2) = φ.extVar.range.op φ.p .N ((a.q + b.q) / 2) := by
      unfold Range.addN; rw [if_neg h0]
    rw [hy, mid_core φ φ h0 hk hs (Or.inl le_rfl)]
    have := mid_nosub φ h0 hk
    have hid : ∀ y, φ.extVar.subnormalize φ.var.range .N y = y := fun y => if_neg (by simp [Fmt.extVar])
    rw [hid, this]

/-- The same for the midpoint of an interval of another type. -/
theorem C43_mid_mixed (T T1 : NumTy) {a b : FP} (ha : a.In T1.fmt) (hb : b.In T1.fmt) (r : Range) :
    (T.fmt.midMpfr T1.fmt T.fmt.var a.q b.q r).1 = Itv.midBounds T.fmt a b := by
  by_cases h0 : (a.q + b.q) / 2 = 0
  · exact midMpfr_zero T.fmt T1.fmt _ ha hb h0 r
  · obtain ⟨h1, h2, ⟨k, hk⟩, hs⟩ := mid_sum ha hb
    have hT : T.fmt.emax ≤ T1.fmt.emax ∨ T1.fmt.p ≤ T.fmt.p := by cases T <;> cases T1 <;> decide
    have e1 : T1.fmt.extVar.prec = T1.fmt.p := rfl
    have e2 : T.fmt.var.prec = T.fmt.p := rfl
    unfold Fmt.midMpfr Itv.midBounds VarTy.setup
    simp only [e1, e2, half_exact T1.fmt h1, half_exact T1.fmt h2, fin_q']
    rw [← add_div]
    have hy : T1.fmt.extVar.range.addN T.fmt.p ((a.q + b.q) / 2) = T1.fmt.extVar.range.op T.fmt.p .N ((a.q + b.q) / 2) := by
      unfold Range.addN; rw [if_neg h0]
    rw [hy, mid_core T.fmt T1.fmt h0 hk hs hT]
    have hf := finish T.fmt .N h0
    show (T.fmt.get .N (T.fmt.var.range.subnormalize T.fmt.p .N _).1).posZero = _
    rw [hf]
    rw [get_of_in T.fmt .N (by rw [← Fmt.round_cast]; exact Fmt.round_in _ .N _)]

/-- Without `setup()`, the range that a call on `float` leaves behind changes the results on `double`: 2^-200 would become 0. -/
theorem C43_setup_needed :
    binary64.get .D (binary64.var.subnormalize binary32.var.range .D (binary32.var.range.op 53 .D ((1 : ℚ) / 2 ^ 200))).1
      ≠ (binary64.viaMpfr .D ((1 : ℚ) / 2 ^ 200) binary32.var.range).1 := by decide +kernel

/-- Without the ternary value, `mpfr_subnormalize` would round twice: here to an odd multiple of the least number instead of the nearest. -/
theorem C43_ternary_needed :
    binary64.get .N (binary64.var.subnormalize binary64.var.range .N
        ((binary64.var.range.op 53 .N (((3 : ℚ) / 2 - 1 / 2 ^ 60) / 2 ^ 1074)).1, 0)).1
      ≠ (binary64.viaMpfr .N (((3 : ℚ) / 2 - 1 / 2 ^ 60) / 2 ^ 1074) binary64.var.range).1 := by decide +kernel

/-- The second rounding happens: a value just below 3/2 of the least number is first rounded to 3/2 of it. -/
example : (binary64.viaMpfr .N (((3 : ℚ) / 2 - 1 / 2 ^ 60) / 2 ^ 1074) ⟨-5, 5⟩).1 = .fin (1 / 2 ^ 1074)
    ∧ (binary64.var.range.op 53 .N (((3 : ℚ) / 2 - 1 / 2 ^ 60) / 2 ^ 1074)).1 = .fin (3 / 2 / 2 ^ 1074) := by decide +kernel

example : (binary64.midMpfr binary64 binary64.extVar (1 / 2 ^ 1074) (2 / 2 ^ 1074) ⟨-5, 5⟩).1 = .fin (2 / 2 ^ 1074) := by decide +kernel

example : ∃ cs : List OpCall, cs.length = 2 ∧ ∀ c ∈ cs, c.x ≠ 0 :=
  ⟨[⟨binary32, .D, 1⟩, ⟨binary64, .U, Real.sqrt 2⟩], rfl, by simp⟩

example : (FP.fin (1 / 2 ^ 149)).In binary32 := ⟨1, -149, by norm_num [zpow_neg], by decide, by decide, by decide⟩

end P1788
