import Verif.Model.Minimise
import Verif.Lemmas.Search
import Verif.Props.C60
import Verif.Props.C27
import Verif.Props.C17

/-!
# C63: global minimisation by branch and bound

Whatever the order of the steps: no global minimiser is lost, and the minimum lies between the bounds the program holds.
-/

namespace P1788
open Set
variable {φ : Fmt} {ι : Type} [DecidableEq ι]

/-- `t` is a point of the box at which the formula is defined. -/
def Feasible (e : Expr ι) (X : ι → Itv) (t : ι → ℝ) : Prop := (∀ i, t i ∈ (X i).set) ∧ t ∈ e.dom

/-- `t` is a global minimiser of the formula over the box. -/
def IsMinimiser (e : Expr ι) (X : ι → Itv) (t : ι → ℝ) : Prop :=
  Feasible e X t ∧ ∀ t', Feasible e X t' → e.val t ≤ e.val t'

/-- `u` is no lower than some value of the formula over the box, or `+∞`. -/
def KnownBound (e : Expr ι) (X : ι → Itv) (u : FP) : Prop :=
  u = .pinf ∨ u ≠ .nan ∧ ∃ t, Feasible e X t ∧ (e.val t : EReal) ≤ u.toE

/-- What holds of a state of a search on the box `X`. -/
structure SearchSound (φ : Fmt) (e : Expr ι) (X : ι → Itv) (S : MinState ι) : Prop where
  /-- the boxes are parts of `X` -/
  inside : ∀ Y ∈ S.boxes, ∀ i, (Y i).set ⊆ (X i).set
  /-- the upper bound is a bound of the infimum -/
  upper : KnownBound e X S.ub
  /-- no minimiser is lost, and its value is between the bounds -/
  minimiser : ∀ t, IsMinimiser e X t →
    (∃ Y ∈ S.boxes, (∀ i, t i ∈ (Y i).set) ∧ (e.eval φ Y).inf.toE ≤ (e.val t : EReal)) ∧ (e.val t : EReal) ≤ S.ub.toE
  /-- the smallest of `ub` and the lower bounds over the boxes is a lower bound over `X` -/
  lower : ∀ b : EReal, b ≤ S.ub.toE → (∀ Y ∈ S.boxes, b ≤ (e.eval φ Y).inf.toE) → ∀ t, Feasible e X t → b ≤ (e.val t : EReal)

/-- The full statement. -/
def C63_full (φ : Fmt) : Prop :=
  ∀ (ι : Type) [DecidableEq ι] (e : Expr ι) (X : ι → Itv) (u : FP) (S : MinState ι), (∀ i, (X i).Ok φ) → KnownBound e X u →
    MinRun φ e ⟨[X], u⟩ S → SearchSound φ e X S

/-- The invariant: every feasible point is in a box or certainly no minimiser. -/
structure Inv63 (φ : Fmt) (e : Expr ι) (X : ι → Itv) (S : MinState ι) : Prop where
  ok : ∀ Y ∈ S.boxes, ∀ i, (Y i).Ok φ
  inside : ∀ Y ∈ S.boxes, ∀ i, (Y i).set ⊆ (X i).set
  upper : KnownBound e X S.ub
  safe : ∀ Y ∈ S.boxes, e.TanSafeIn φ Y
  kept : ∀ t, Feasible e X t → (∃ Y ∈ S.boxes, ∀ i, t i ∈ (Y i).set) ∨ S.ub.toE < (e.val t : EReal)

theorem newDec_ok63 {x : Itv} (hx : x.Ok φ) : x.newDec.Ok φ := by
  obtain ⟨y, h1, h2, -, -⟩ := C17_new_dec hx
  have := newDecM_ret hx.proper
  have : x.newDec = y := by simpa [this ⟨Bits.none, Bits.none⟩] using congrArg Prod.fst (h1 ⟨Bits.none, Bits.none⟩)
  rwa [this]

theorem inf_le63 {x : Itv} (hx : x.Ok φ) {r : ℝ} (h : r ∈ x.set) : x.inf ≠ .nan ∧ x.inf.toE ≤ (r:EReal) :=
  ⟨(C27_inf_sup hx).1.1, (C27_inf_sup hx).1.2.1 ⟨r, h, rfl⟩⟩

theorem sup_ge63 {x : Itv} (hx : x.Ok φ) {r : ℝ} (h : r ∈ x.set) : x.sup ≠ .nan ∧ (r:EReal) ≤ x.sup.toE :=
  ⟨(C27_inf_sup hx).2.1.1, (C27_inf_sup hx).2.1.2.1 ⟨r, h, rfl⟩⟩

theorem Inv63.step {e : Expr ι} {X : ι → Itv} {S S' : MinState ι} (hI : Inv63 φ e X S)
    (h : MinStep φ e S S') : Inv63 φ e X S' := by
  cases h with
  | @dropEmpty l₁ l₂ Z u i h =>
    refine ⟨fun Y hY => hI.ok Y (by simp at hY ⊢; tauto), fun Y hY => hI.inside Y (by simp at hY ⊢; tauto), hI.upper,
      fun Y hY => hI.safe Y (by simp at hY ⊢; tauto), fun t hf => ?_⟩
    rcases hI.kept t hf with ⟨Y, hY, hm⟩ | h'
    · rcases (by simpa using hY : Y ∈ l₁ ∨ Y = Z ∨ Y ∈ l₂) with h1 | rfl | h1
      · exact Or.inl ⟨Y, by simp [h1], hm⟩
      · have := hm i
        rw [(C22_is_empty (hI.ok Y (by simp) i)).mp h] at this
        exact this.elim
      · exact Or.inl ⟨Y, by simp [h1], hm⟩
    · exact Or.inr h'
  | @drop l₁ l₂ Z u h =>
    refine ⟨fun Y hY => hI.ok Y (by simp at hY ⊢; tauto), fun Y hY => hI.inside Y (by simp at hY ⊢; tauto), hI.upper,
      fun Y hY => hI.safe Y (by simp at hY ⊢; tauto), fun t hf => ?_⟩
    rcases hI.kept t hf with ⟨Y, hY, hm⟩ | h'
    · rcases (by simpa using hY : Y ∈ l₁ ∨ Y = Z ∨ Y ∈ l₂) with h1 | rfl | h1
      · exact Or.inl ⟨Y, by simp [h1], hm⟩
      · obtain ⟨k1, k2⟩ := C18_ftia_safe_partial e Y (hI.ok Y (by simp)) ((hI.safe Y (by simp)).self (hI.ok Y (by simp)))
        exact Or.inr (lt_of_lt_of_le (FP.lt_iff'.mp h).2.2 (inf_le63 k1 (k2 t hm hf.2)).2)
      · exact Or.inl ⟨Y, by simp [h1], hm⟩
    · exact Or.inr h'
  | @split l₁ l₂ Z u i a b ha hb =>
    have hZ := hI.ok Z (by simp) i
    have hN : (Z i).NE φ := by
      rcases hZ.cases with h | h
      · rw [h] at ha
        have : mkI Itv.empty.inf (Itv.mid φ Itv.empty) = .error .signalled := rfl
        rw [this] at ha
        cases ha
      · exact h
    obtain ⟨q, -, -, -, ⟨a', ha', hane, has⟩, ⟨b', hb', hbne, hbs⟩, -⟩ := halves hN
    obtain rfl : a' = a := by simpa [ha'] using ha
    obtain rfl : b' = b := by simpa [hb'] using hb
    have cs : ∀ Y, Y ∈ l₁ ++ Function.update Z i a' :: Function.update Z i b' :: l₂ →
        Y = Function.update Z i a' ∨ Y = Function.update Z i b' ∨ Y ∈ l₁ ++ Z :: l₂ := by
      intro Y hY; simp at hY ⊢; tauto
    have upd : ∀ (v : Itv) (P : ι → Itv → Prop), P i v → (∀ j, P j (Z j)) → ∀ j, P j (Function.update Z i v j) := by
      intro v P h1 h2 j
      by_cases hj : j = i
      · subst hj; rwa [Function.update_self]
      · rw [Function.update_of_ne hj]; exact h2 j
    have hZin := hI.inside Z (by simp)
    have hZok := hI.ok Z (by simp)
    refine ⟨fun Y hY => ?_, fun Y hY => ?_, hI.upper, fun Y hY => ?_, fun t hf => ?_⟩
    · rcases cs Y hY with rfl | rfl | h1
      · exact upd _ (fun _ v => v.Ok φ) hane.ok hZok
      · exact upd _ (fun _ v => v.Ok φ) hbne.ok hZok
      · exact hI.ok Y h1
    · rcases cs Y hY with rfl | rfl | h1
      · exact upd _ (fun j v => v.set ⊆ (X j).set) (by rw [has]; exact inter_subset_left.trans (hZin i)) hZin
      · exact upd _ (fun j v => v.set ⊆ (X j).set) (by rw [hbs]; exact inter_subset_left.trans (hZin i)) hZin
      · exact hI.inside Y h1
    · have hs := hI.safe Z (by simp)
      rcases cs Y hY with rfl | rfl | h1
      · exact hs.mono (upd _ (fun j v => v.set ⊆ (Z j).set) (by rw [has]; exact inter_subset_left) fun _ => subset_rfl)
      · exact hs.mono (upd _ (fun j v => v.set ⊆ (Z j).set) (by rw [hbs]; exact inter_subset_left) fun _ => subset_rfl)
      · exact hI.safe Y h1
    · rcases hI.kept t hf with ⟨Y, hY, hm⟩ | h'
      · rcases (by simpa using hY : Y ∈ l₁ ∨ Y = Z ∨ Y ∈ l₂) with h1 | rfl | h1
        · exact Or.inl ⟨Y, by simp [h1], hm⟩
        · rcases le_total (t i) q with hq | hq
          · exact Or.inl ⟨_, by simp, upd a' (fun j v => t j ∈ v.set) (by rw [has]; exact ⟨hm i, hq⟩) hm⟩
          · exact Or.inl ⟨Function.update Y i b', by simp, upd b' (fun j v => t j ∈ v.set) (by rw [hbs]; exact ⟨hm i, hq⟩) hm⟩
        · exact Or.inl ⟨Y, by simp [h1], hm⟩
      · exact Or.inr h'
  | @probe l u Z p hX hi hp hd h =>
    have hP := fun i => point_ok60 (hI.ok Z hX i) (hi i) (hp i)
    choose r hr hrm hok hset using hP
    have hok' : ∀ i, (Itv.newDec ⟨p i, p i⟩).Ok φ := fun i => newDec_ok63 (hok i)
    have hset' : ∀ i, r i ∈ (Itv.newDec ⟨p i, p i⟩).set := fun i => by rw [DItv.set, newDec_itv, hset]; rfl
    obtain ⟨k1, -, k2, k3, -⟩ := C19_ftdia_safe_partial e _ hok' (hI.safe Z hX _ (fun i => (hok' i).1) fun i => by
      rw [newDec_itv, hset]; simpa using hrm i)
    have hdom := (k3 hd).2 r hset'
    have hm := k2 r (fun h => by rw [h] at hd; exact absurd hd (by decide)) hset' hdom
    have hs := sup_ge63 k1.1 hm
    refine ⟨hI.ok, hI.inside, Or.inr ⟨hs.1, r, ⟨fun i => hI.inside Z hX i (hrm i), hdom⟩, hs.2⟩, hI.safe, fun t hf => ?_⟩
    refine (hI.kept t hf).imp_right fun h' => lt_trans (FP.lt_iff'.mp h).2.2 h'

theorem Inv63.run {e : Expr ι} {X : ι → Itv} {S S' : MinState ι} (hI : Inv63 φ e X S) (h : MinRun φ e S S') : Inv63 φ e X S' := by
  induction h with
  | refl => exact hI
  | tail _ h ih => exact ih.step h

theorem Inv63.start {e : Expr ι} {X : ι → Itv} {u : FP} (ht : e.TanSafeIn φ X) (hX : ∀ i, (X i).Ok φ) (hu : KnownBound e X u) :
    Inv63 φ e X ⟨[X], u⟩ :=
  ⟨by simpa using hX, by simp, hu, by simpa using ht, fun t hf => Or.inl ⟨X, by simp, hf.1⟩⟩

theorem Inv63.sound {e : Expr ι} {X : ι → Itv} {S : MinState ι} (hI : Inv63 φ e X S) : SearchSound φ e X S := by
  have box : ∀ Y ∈ S.boxes, ∀ t, (∀ i, t i ∈ (Y i).set) → t ∈ e.dom → (e.eval φ Y).inf.toE ≤ (e.val t : EReal) :=
    fun Y hY t hm hd => (inf_le63 (e.eval_ok18 (hI.ok Y hY))
      ((C18_ftia_safe_partial e Y (hI.ok Y hY) ((hI.safe Y hY).self (hI.ok Y hY))).2 t hm hd)).2
  refine ⟨hI.inside, hI.upper, fun t hm => ?_, fun b h1 h2 t hf => ?_⟩
  · have hle : (e.val t : EReal) ≤ S.ub.toE := by
      rcases hI.upper with h | ⟨-, t', hf, h⟩
      · rw [h]; exact le_top
      · exact le_trans (by exact_mod_cast hm.2 t' hf) h
    refine ⟨?_, hle⟩
    rcases hI.kept t hm.1 with ⟨Y, hY, hk⟩ | h'
    · exact ⟨Y, hY, hk, box Y hY t hk hm.1.2⟩
    · exact absurd h' (not_lt.mpr hle)
  · rcases hI.kept t hf with ⟨Y, hY, hk⟩ | h'
    · exact (h2 Y hY).trans (box Y hY t hk hf.2)
    · exact h1.trans h'.le

/-- **Branch and bound loses no minimiser, and its bounds are bounds** (full statement `C63_full`: without `ht`; false for `double`
and the tangent, `C63_false`), after any number of steps in any order, from any valid initial bound.  `ht`: in the evaluations on
parts of `X` the tangent meets no bad interval (C11). -/
theorem C63_search_safe_partial {e : Expr ι} {X : ι → Itv} (ht : e.TanSafeIn φ X) {u : FP} {S : MinState ι}
    (hX : ∀ i, (X i).Ok φ) (hu : KnownBound e X u) (h : MinRun φ e ⟨[X], u⟩ S) : SearchSound φ e X S :=
  ((Inv63.start ht hX hu).run h).sound

/-- For types without bad intervals for the tangent and for formulas without the tangent. -/
theorem C63_search_partial {e : Expr ι} (ht : NoCritical φ ∨ e.TanFree) {X : ι → Itv} {u : FP} {S : MinState ι}
    (hX : ∀ i, (X i).Ok φ) (hu : KnownBound e X u) (h : MinRun φ e ⟨[X], u⟩ S) : SearchSound φ e X S :=
  C63_search_safe_partial (e.tanSafeIn ht X) hX hu h

/-- For `float` and `long double` without restriction. -/
theorem C63_binary32 : C63_full binary32 := fun _ _ _ _ _ _ hX hu h => C63_search_partial (Or.inl noCritical_binary32) hX hu h

theorem C63_x87ext : C63_full x87ext := fun _ _ _ _ _ _ hX hu h => C63_search_partial (Or.inl noCritical_x87ext) hX hu h

/-- **The full statement is false for `double`**: with the bound `0` known from the point `π` the search throws away the only
box, although the tangent takes negative values in it. -/
theorem C63_false : ¬ C63_full binary64 := by
  intro hf
  obtain ⟨b, hx, ha, hb, hbv, ht1, hw, hr⟩ := tan_witness_branch
  obtain ⟨-, -, h3, n1, i1, e1, n2, i2, e2⟩ := tanI_fin hx ha hb
  have hT := h3 hw hr
  have hok : (binary64.tanI tanWitness).Ok binary64 := Op1.bare_ok .tan tanWitness_ok
  have h1le := (binary64.le_rdE_iff (f := .fin 1) (rep_one _) (Real.tan (7 / 8)) (by simp)).mpr (by
      rw [toE_one]; exact_mod_cast ht1.le)
  have p1 := Real.pi_gt_d20
  have p2 := Real.pi_lt_d20
  have mem : ∀ t : ℝ, 7 / 8 ≤ t → t ≤ 4 → t ∈ tanWitness.set := fun t h1 h2 =>
    hx.mem.mpr ⟨by rw [ha]; exact_mod_cast h1, by rw [hb, hbv]; exact_mod_cast (by norm_num; linarith)⟩
  have hd : MinStep binary64 (.un .tan (.var ())) ⟨[] ++ (fun _ : Unit => tanWitness) :: [], .fin 0⟩ ⟨[] ++ [], .fin 0⟩ := by
    refine .drop ?_
    have hI := (C27_inf_sup hok).1
    refine FP.lt_iff'.mpr ⟨by simp, hI.1, lt_of_lt_of_le (b := (1:EReal)) (by simp) (hI.2.2 ?_)⟩
    rintro _ ⟨s, hs, rfl⟩
    rw [hT] at hs
    have := (Itv.mem_set.mp hs).1.2
    rw [show (Itv.mk (binary64.tanF .D tanWitness.lo) (binary64.tanF .U tanWitness.hi)).lo = binary64.tanF .D tanWitness.lo from rfl, e1] at this
    have := h1le.trans this
    rwa [toE_one] at this
  have hs := hf Unit (.un .tan (.var ())) (fun _ => tanWitness) (.fin 0) ⟨[], .fin 0⟩ (fun _ => tanWitness_ok)
    (Or.inr ⟨by simp, fun _ => Real.pi, ⟨fun _ => mem _ (by linarith) (by linarith), by simp [Expr.dom, Op1.dom, Expr.val]⟩,
      by simp [Expr.val, Op1.fn]⟩) (.single hd)
  have := hs.lower 0 (by simp) (by simp) (fun _ => 3) ⟨fun _ => mem 3 (by norm_num) (by norm_num), ?_⟩
  · have h3 : Real.tan 3 < 0 := by
      rw [← Real.tan_sub_pi]
      exact Real.tan_neg_of_neg_of_pi_div_two_lt (by linarith) (by linarith)
    simp only [Expr.val, Op1.fn] at this
    exact absurd (by exact_mod_cast this) (not_le.mpr h3)
  · have h3 : Real.cos 3 < 0 := Real.cos_neg_of_pi_div_two_lt_of_lt (by linarith) (by linarith)
    simpa [Expr.dom, Op1.dom, Expr.val] using h3.ne

/-- A run for `x²` on `[-1, 2]`: the value at `0`, a bisection, and the right half is thrown away. -/
theorem run63 : MinRun binary64 (.un .sqr (.var ())) ⟨[fun _ : Unit => ⟨.fin (-1), .fin 2⟩], .pinf⟩
    ⟨[Function.update (fun _ : Unit => ⟨.fin (-1), .fin 2⟩) () ⟨.fin (-1), .fin (1 / 2)⟩], .fin 0⟩ := by
  have e0 : ((Expr.un .sqr (.var ())).evalD binary64 fun _ : Unit => Itv.newDec ⟨.fin 0, .fin 0⟩) = ⟨⟨.fin 0, .fin 0⟩, .com⟩ := by
    simp only [Expr.evalD, Op1.decd]; decide +kernel
  have s1 : MinStep binary64 (.un .sqr (.var ())) ⟨[fun _ : Unit => ⟨.fin (-1), .fin 2⟩], .pinf⟩
      ⟨[fun _ => ⟨.fin (-1), .fin 2⟩], .fin 0⟩ := by
    have := MinStep.probe (φ := binary64) (e := .un .sqr (.var ())) (l := [fun _ : Unit => ⟨.fin (-1), .fin 2⟩]) (u := .pinf)
      (X := fun _ => ⟨.fin (-1), .fin 2⟩) (p := fun _ => .fin 0) (by simp) (fun _ => FP.in_of_inb (by decide +kernel))
      (fun _ => by decide +kernel) (by rw [e0]; decide) (by rw [e0]; decide +kernel)
    rw [e0] at this
    exact this
  refine (Relation.ReflTransGen.single s1).tail (.split (l₁ := []) (l₂ := []) (i := ()) (a := ⟨.fin (-1), .fin (1 / 2)⟩)
    (b := ⟨.fin (1 / 2), .fin 2⟩) (by decide +kernel) (by decide +kernel)) |>.tail (.drop (l₁ := [_]) (l₂ := []) ?_)
  simp only [Expr.eval, Op1.bare, Function.update_self]
  decide +kernel

/-- The hypotheses of `C63_search_partial` hold for it. -/
example : SearchSound binary64 (.un .sqr (.var ())) (fun _ : Unit => ⟨.fin (-1), .fin 2⟩)
    ⟨[Function.update (fun _ : Unit => ⟨.fin (-1), .fin 2⟩) () ⟨.fin (-1), .fin (1 / 2)⟩], .fin 0⟩ :=
  C63_search_partial (Or.inr (by simp [Expr.TanFree])) (fun _ => Itv.ok_of_okb (by decide +kernel)) (Or.inl rfl) run63

end P1788
