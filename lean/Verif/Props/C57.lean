import Verif.Model.FEnv
import Verif.Props.C20b
import Verif.Lemmas.Ops

/-!
# C57: results do not depend on the rounding mode of the calling thread, and do not change it

`Expr.eval`, `Expr.evalD` are the functions of the other properties, in which no rounding mode occurs: what they return
is characterised there.
-/

namespace P1788
variable {φ : Fmt} {ι : Type}

@[simp] theorem FE.pure_run {α : Type} (a : α) (m : FEMode) : (pure a : FE α) m = (a, m) := rfl
@[simp] theorem FE.bind_run {α β : Type} (c : FE α) (f : α → FE β) (m : FEMode) : (c >>= f) m = f (c m).1 (c m).2 := rfl

theorem FE.ite_run {α : Type} (c : Prop) [Decidable c] (a b : FE α) (m : FEMode) :
    (if c then a else b) m = if c then a m else b m := by split_ifs <;> rfl

/-- The subtraction of the tests for ties is exact. -/
theorem tie_sub_exact (m : Rnd) {q : ℚ} (h : φ.Rep q) (h0 : 0 ≤ q) {A : FP} (hA : A ≠ .nan)
    (hq : A.toE = ((q:ℝ):EReal)) :
    φ.sub m A (A.rint truncQ) ≠ .nan ∧ (φ.sub m A (A.rint truncQ)).toE = (((q - ⌊q⌋ : ℚ):ℝ):EReal) := by
  have hB : A.rint truncQ ≠ .nan ∧ (A.rint truncQ).toE = (((⌊q⌋ : ℚ):ℝ):EReal) := by
    cases A with
    | nan => exact absurd rfl hA
    | ninf => simp at hq
    | pinf => simp at hq
    | nzero =>
      rw [FP.toE_nzero] at hq
      have : q = 0 := by exact_mod_cast hq.symm
      subst this
      exact ⟨by simp [FP.rint], by simp [FP.rint]⟩
    | fin p =>
      rw [FP.toE_fin] at hq
      have : p = q := by exact_mod_cast hq
      subst this
      have ht : truncQ p = ⌊p⌋ := if_neg (not_lt.mpr h0)
      unfold FP.rint
      simp only [ht]
      split_ifs with hz
      · exact ⟨FP.mkZero_ne_nan _, by rw [hz]; simp⟩
      · exact ⟨by simp, by rw [FP.toE_fin]⟩
  obtain ⟨h1, h2⟩ := φ.sub_spec (m := m) hA hB.1 (by rw [hq]; simp) (by rw [hq]; simp)
  refine ⟨h1, ?_⟩
  rw [h2, hq, hB.2, ← EReal.coe_sub, ← Rat.cast_sub, Fmt.rndE_coe, φ.round_rep_toE (rep_frac h h0)]

/-- The rounding of the subtraction does not matter. -/
theorem tie_sub_any (r s : Rnd) {a : FP} (hi : a.In φ) (c : ℚ) :
    (φ.sub r a.abs (a.abs.rint truncQ)).feq (.fin c) = (φ.sub s a.abs (a.abs.rint truncQ)).feq (.fin c) := by
  have key : ∀ q : ℚ, φ.Rep q → 0 ≤ q → a.abs ≠ .nan → a.abs.toE = ((q:ℝ):EReal) →
      (φ.sub r a.abs (a.abs.rint truncQ)).feq (.fin c) = (φ.sub s a.abs (a.abs.rint truncQ)).feq (.fin c) := by
    intro q hq h0 hA hE
    obtain ⟨r1, r2⟩ := tie_sub_exact r hq h0 hA hE
    obtain ⟨s1, s2⟩ := tie_sub_exact s hq h0 hA hE
    rw [Bool.eq_iff_iff, FP.feq_iff r1 (by simp), FP.feq_iff s1 (by simp), r2, s2]
  cases a with
  | nan => rfl
  | ninf => rfl
  | pinf => rfl
  | nzero => exact key 0 φ.rep_zero le_rfl (by simp [FP.abs]) (by simp [FP.abs])
  | fin q =>
    refine key |q| ?_ (abs_nonneg q) (by simp [FP.abs]) ?_
    · have := FP.abs_in (φ := φ) hi
      simpa [FP.abs, FP.In] using this
    · simp [FP.abs]

theorem fsub_run (a b : FP) (m : FEMode) : ∃ r, φ.fsub a b m = (φ.sub r a b, m) := by
  cases m
  · exact ⟨.N, rfl⟩
  · exact ⟨.U, rfl⟩
  · exact ⟨.D, rfl⟩
  · by_cases h : b.q < a.q
    · exact ⟨.D, by simp [Fmt.fsub, h]⟩
    · exact ⟨.U, by simp [Fmt.fsub, h]⟩

theorem isTieFE_run {a : FP} (hi : a.In φ) (m : FEMode) : φ.isTieFE a m = (φ.isTie a, m) := by
  obtain ⟨r, h⟩ := fsub_run (φ := φ) a.abs (a.abs.rint truncQ) m
  unfold Fmt.isTieFE Fmt.isTie
  rw [FE.bind_run, h, FE.pure_run, tie_sub_any r .N hi]

theorem isTieEitherFE_run {a b : FP} (ha : a.In φ) (hb : b.In φ) (m : FEMode) :
    φ.isTieEitherFE a b m = (φ.isTie a || φ.isTie b, m) := by
  unfold Fmt.isTieEitherFE
  rw [FE.bind_run, isTieFE_run ha]
  cases h : φ.isTie a <;> simp [isTieFE_run hb]

/-- `round_ties_to_even` on bare intervals. -/
theorem C57_round_ties_to_even (x : Itv) (m : FEMode) : Fmt.roundEvenFE x m = (Fmt.roundEvenI x, m) := by
  unfold Fmt.roundEvenFE Fmt.roundEvenI Fmt.rintI
  cases h : (!x.isValid || x.isEmpty) <;> simp [h, feGetRound, feSetRound, nearbyint, FEMode.toInt]

/-- The decorated functions `round_ties_to_even` and `round_ties_to_away`. -/
theorem C57_decorated {x : DItv} (hx : x.Ok φ) (m : FEMode) :
    φ.roundEvenDFE x m = (φ.roundEvenD x, m) ∧ φ.roundAwayDFE x m = (φ.roundAwayD x, m) := by
  rcases DItv.nai_or hx with rfl | hn
  · exact ⟨rfl, rfl⟩
  have hc : (!x.isValid || x.isNai) = false := by rw [hx.isValid, hx.isNai_false hn]; rfl
  have hb : x.itv.lo.In φ ∧ x.itv.hi.In φ := (Itv.ok_iff_isValid.mp hx.1).2
  unfold Fmt.roundEvenDFE Fmt.roundAwayDFE Fmt.roundEvenD Fmt.roundAwayD DItv.un
  simp only [hc]
  constructor
  · simp only [Bool.false_eq_true, if_false, FE.bind_run, C57_round_ties_to_even, FE.ite_run, FE.pure_run,
      isTieEitherFE_run hb.1 hb.2]
    split_ifs <;> rfl
  · simp only [Bool.false_eq_true, if_false, FE.bind_run, FE.ite_run, FE.pure_run, isTieEitherFE_run hb.1 hb.2]
    split_ifs <;> rfl

/-- Every unary function on bare intervals. -/
theorem bareFE_run (op : Op1) (x : Itv) (m : FEMode) : op.bareFE φ x m = (op.bare φ x, m) := by
  cases op <;> first | rfl | exact C57_round_ties_to_even x m

/-- Every unary function on decorated intervals. -/
theorem decdFE_run (op : Op1) {x : DItv} (hx : x.Ok φ) (m : FEMode) : op.decdFE φ x m = (op.decd φ x, m) := by
  cases op <;> first | rfl | exact (C57_decorated hx m).1 | exact (C57_decorated hx m).2

/-- Any formula on bare intervals: the result is the same in every rounding mode, and the mode is left as it was. -/
theorem C57_formula (e : Expr ι) (X : ι → Itv) (m : FEMode) : e.evalFE φ X m = (e.eval φ X, m) := by
  induction e generalizing m with
  | var i => rfl
  | un op e ih => rw [Expr.evalFE, FE.bind_run, ih, bareFE_run, Expr.eval]
  | bin op e₁ e₂ ih₁ ih₂ => simp only [Expr.evalFE, FE.bind_run, FE.pure_run, ih₁, ih₂, Expr.eval]
  | fma e₁ e₂ e₃ ih₁ ih₂ ih₃ => simp only [Expr.evalFE, FE.bind_run, FE.pure_run, ih₁, ih₂, ih₃, Expr.eval]

theorem evalD_ok57 (e : Expr ι) {X : ι → DItv} (hX : ∀ i, (X i).Ok φ) : (e.evalD φ X).Ok φ := by
  induction e with
  | var i => exact hX i
  | un op e ih => exact op.decd_ok ih
  | bin op e₁ e₂ ih₁ ih₂ => exact op.decd_ok ih₁ ih₂
  | fma e₁ e₂ e₃ ih₁ ih₂ ih₃ => exact fmaD_ok ih₁ ih₂ ih₃

/-- Any formula on decorated intervals. -/
theorem C57_formula_decorated (e : Expr ι) {X : ι → DItv} (hX : ∀ i, (X i).Ok φ) (m : FEMode) :
    e.evalDFE φ X m = (e.evalD φ X, m) := by
  induction e generalizing m with
  | var i => rfl
  | un op e ih => rw [Expr.evalDFE, FE.bind_run, ih, decdFE_run op (evalD_ok57 e hX), Expr.evalD]
  | bin op e₁ e₂ ih₁ ih₂ => simp only [Expr.evalDFE, FE.bind_run, FE.pure_run, ih₁, ih₂, Expr.evalD]
  | fma e₁ e₂ e₃ ih₁ ih₂ ih₃ => simp only [Expr.evalDFE, FE.bind_run, FE.pure_run, ih₁, ih₂, ih₃, Expr.evalD]

/-- The inputs of a step are intervals of the type. -/
def FEStep.Ok (φ : Fmt) : FEStep ι → Prop
  | .decd X _ => ∀ i, (X i).Ok φ
  | _ => True

/-- What a step reports, rounding modes apart. -/
noncomputable def FEStep.value (φ : Fmt) : FEStep ι → FEOut
  | .setMode _ => .none
  | .bare X e => .bare (e.eval φ X)
  | .decd X e => .decd (e.evalD φ X)

/-- The mode the program itself set last. -/
def lastMode (m : FEMode) : List (FEStep ι) → FEMode
  | [] => m
  | .setMode m' :: l => lastMode m' l
  | _ :: l => lastMode m l

/-- Any history of a thread: whatever rounding modes it sets in between, every formula has the value it has without
them, and the mode at the end is the one the thread set last. -/
theorem C57_history (l : List (FEStep ι)) (hl : ∀ s ∈ l, s.Ok φ) (m : FEMode) :
    runFE φ l m = (l.map (FEStep.value φ), lastMode m l) := by
  induction l generalizing m with
  | nil => rfl
  | cons s l ih =>
    have ih' := fun m => ih (fun s h => hl s (List.mem_cons_of_mem _ h)) m
    have hs := hl s List.mem_cons_self
    rw [runFE]
    simp only [FE.bind_run, FE.pure_run]
    cases s with
    | setMode m' => simp [FEStep.run, feSetRound, ih', FEStep.value, lastMode]
    | bare X e => simp [FEStep.run, C57_formula, ih', FEStep.value, lastMode]
    | decd X e => simp [FEStep.run, C57_formula_decorated e hs, ih', FEStep.value, lastMode]

/-- Upward rounding would give `3` for `2.5`; the function gives `2` in that mode, and leaves the mode. -/
example : (nearbyint (.fin (5 / 2)) .upward).1 = .fin 3 ∧
    Fmt.roundEvenFE ⟨.fin (5 / 2), .fin (5 / 2)⟩ .upward = (⟨.fin 2, .fin 2⟩, .upward) := by
  refine ⟨by decide +kernel, ?_⟩
  rw [C57_round_ties_to_even]
  have : Fmt.roundEvenI ⟨.fin (5 / 2), .fin (5 / 2)⟩ = ⟨.fin 2, .fin 2⟩ := by decide +kernel
  rw [this]

/-- A decorated operand meeting the hypotheses, at a tie. -/
example : (DItv.mk ⟨.fin (5 / 2), .fin (5 / 2)⟩ .com).Ok binary64 :=
  ⟨Itv.ok_of_okb (by decide +kernel), by decide +kernel⟩

end P1788
