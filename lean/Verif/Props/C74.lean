import Verif.Model.NewtonSys
import Verif.Lemmas.NewtonSys
import Verif.Props.C60
import Verif.Props.C71
import Verif.Props.C73

/-!
# C74: Newton's method for systems of equations

What a program may conclude from the interval Newton operator for `n` equations in `n` unknowns.
-/

namespace P1788
open Set
variable {φ : Fmt} {n : ℕ} {κ : Type} {piv : ∀ n, (Fin (n + 1) → Itv) → Fin (n + 1)} {e : Fin n → Expr (Fin n ⊕ κ)}
  {J : Fin n → Fin n → Expr (Fin n ⊕ κ)} {B : Fin n ⊕ κ → DItv} {m : Fin n → FP} {N : Fin n → Itv} {c : κ → ℝ}

/-- The points of the box of the unknowns. -/
def unknowns (B : Fin n ⊕ κ → DItv) : Set (Fin n → ℝ) := {u | ∀ i, u i ∈ (B (.inl i)).set}

/-- The parameters lie in the box. -/
def ParamsIn (B : Fin n ⊕ κ → DItv) (c : κ → ℝ) : Prop := ∀ k, c k ∈ (B (.inr k)).set

/-- `u` solves the equations with parameters `c`. -/
def Solves (e : Fin n → Expr (Fin n ⊕ κ)) (c : κ → ℝ) (u : Fin n → ℝ) : Prop := ∀ i, (e i).val (Sum.elim u c) = 0

/-- The formulas `J` are the partial derivatives of the formulas `e` on the box, where they are defined. -/
def IsJacobian (e : Fin n → Expr (Fin n ⊕ κ)) (J : Fin n → Fin n → Expr (Fin n ⊕ κ)) (B : Fin n ⊕ κ → DItv) (c : κ → ℝ) : Prop :=
  ∀ u ∈ unknowns B, ∀ i, (∀ j, Sum.elim u c ∈ (J i j).dom) → HasFDerivWithinAt (fun w : Fin n → ℝ => (e i).val (Sum.elim w c))
    (∑ j, (J i j).val (Sum.elim u c) • ContinuousLinearMap.proj j : (Fin n → ℝ) →L[ℝ] ℝ) (unknowns B) u

/-- What the program may conclude: the equations are defined on the box, it contains at most one solution, and that lies in the result;
and one and only one solution exists if the test is successful. -/
def NewtonSysRight (e : Fin n → Expr (Fin n ⊕ κ)) (B : Fin n ⊕ κ → DItv) (m : Fin n → FP) (N : Fin n → Itv) (c : κ → ℝ) : Prop :=
  (∀ u ∈ unknowns B, ∀ i, Sum.elim u c ∈ (e i).dom) ∧
  (∀ u ∈ unknowns B, Solves e c u → (∀ i, u i ∈ (N i).set) ∧ ∀ v ∈ unknowns B, Solves e c v → v = u) ∧
  (newtonSysTest B m N = true → ∃! u, u ∈ unknowns B ∧ Solves e c u)

/-- The full statement. -/
def C74_full (φ : Fmt) : Prop :=
  ∀ (n : ℕ) (κ : Type) (piv : ∀ n, (Fin (n + 1) → Itv) → Fin (n + 1)) (e : Fin n → Expr (Fin n ⊕ κ))
    (J : Fin n → Fin n → Expr (Fin n ⊕ κ)) (B : Fin n ⊕ κ → DItv) (m : Fin n → FP) (N : Fin n → Itv),
    (∀ i, (B i).Ok φ) → (∀ i, (m i).In φ) → newtonSys φ piv e J B m = some N →
    (∀ i, (N i).Ok φ) ∧ ∀ c, ParamsIn B c → IsJacobian e J B c → NewtonSysRight e B m N c

theorem elim_mem74 {u : Fin n → ℝ} (hu : u ∈ unknowns B) (hc : ParamsIn B c) (j : Fin n ⊕ κ) :
    Sum.elim u c j ∈ (B j).set := by
  rcases j with i | k
  · exact hu i
  · exact hc k

theorem convex74 (B : Fin n ⊕ κ → DItv) : Convex ℝ (unknowns B) := by
  have : unknowns B = Set.pi univ fun i => (B (.inl i)).set := by ext u; simp [unknowns]
  rw [this]
  exact convex_pi fun i _ => (set_ordConnected (B (.inl i)).itv).convex

theorem newtonSys_some (h : newtonSys φ piv e J B m = some N) :
    (∀ i, .defd ≤ ((e i).evalD φ B).dec) ∧ (∀ i j, .defd ≤ ((J i j).evalD φ B).dec) ∧ (∀ i, DItv.isMember (m i) (B (.inl i)) = true) ∧
    ∃ d, gauss φ piv n (fun i j => ((J i j).evalD φ B).itv) (fun i => (e i).eval φ (pointBox B m)) = some d ∧
      N = fun i => φ.subI ⟨m i, m i⟩ (d i) := by
  unfold newtonSys at h
  split_ifs at h with hk
  obtain ⟨d, h1, h2⟩ := Option.map_eq_some_iff.mp h
  exact ⟨hk.1, hk.2.1, hk.2.2, d, h1, h2.symm⟩

/-- **C74** (full statement `C74_full`: without `ht` and `ht'`; false for `double` and the tangent, `C74_false`). -/
theorem C74_newton_safe_partial (ht : ∀ i, (e i).TanSafeIn φ fun j => (B j).itv) (ht' : ∀ i j, (J i j).TanSafe φ fun j => (B j).itv)
    (hB : ∀ i, (B i).Ok φ) (hm : ∀ i, (m i).In φ) (h : newtonSys φ piv e J B m = some N) :
    (∀ i, (N i).Ok φ) ∧ ∀ c, ParamsIn B c → IsJacobian e J B c → NewtonSysRight e B m N c := by
  obtain ⟨k1, k2, k3, d, hg, rfl⟩ := newtonSys_some h
  choose r hr1 hr2 hr3 hr4 using fun i => point_ok60 (hB (.inl i)).1 (hm i) (isMember_imp (k3 i))
  have hp : ∀ j, (pointBox B m j).Ok φ := by
    rintro (i | k)
    · exact hr3 i
    · exact (hB _).1
  have hps : ∀ j, (pointBox B m j).set ⊆ (B j).itv.set := by
    rintro (i | k)
    · show (Itv.mk (m i) (m i)).set ⊆ _
      rw [hr4 i, singleton_subset_iff]
      exact hr2 i
    · exact subset_rfl
  have oJ : ∀ i j, ((J i j).evalD φ B).itv.Ok φ := fun i j => (C19_ftdia_safe_partial (J i j) B hB (ht' i j)).1.1
  have oe : ∀ i, ((e i).eval φ (pointBox B m)).Ok φ := fun i => (C18_ftia_safe_partial (e i) _ hp (ht i _ hp hps)).1
  have og := C73_valid piv oJ oe hg
  have oN : ∀ i, (φ.subI ⟨m i, m i⟩ (d i)).Ok φ := fun i => (C01_sub φ (hr3 i) (og i)).1
  refine ⟨oN, fun c hc hj => ?_⟩
  have hrU : r ∈ unknowns B := hr2
  -- the formulas are defined on the box
  have he : ∀ u ∈ unknowns B, ∀ i, Sum.elim u c ∈ (e i).dom := fun u hu i =>
    ((C19_ftdia_safe_partial (e i) B hB ((ht i).self fun j => (hB j).1)).2.2.2.1 (k1 i)).2 _ (elim_mem74 hu hc)
  have hJd : ∀ u ∈ unknowns B, ∀ i j, Sum.elim u c ∈ (J i j).dom := fun u hu i j =>
    ((C19_ftdia_safe_partial (J i j) B hB (ht' i j)).2.2.2.1 (k2 i j)).2 _ (elim_mem74 hu hc)
  have hJv : ∀ u ∈ unknowns B, ∀ i j, (J i j).val (Sum.elim u c) ∈ ((J i j).evalD φ B).itv.set := fun u hu i j =>
    (C19_ftdia_safe_partial (J i j) B hB (ht' i j)).2.2.1 _ (fun k => by have := k2 i j; rw [k] at this; exact absurd this (by decide))
      (elim_mem74 hu hc) (hJd u hu i j)
  have hev : ∀ i, (e i).val (Sum.elim r c) ∈ ((e i).eval φ (pointBox B m)).set := fun i =>
    (C18_ftia_safe_partial (e i) _ hp (ht i _ hp hps)).2 _ (by
      rintro (i | k)
      · show r i ∈ (Itv.mk (m i) (m i)).set
        rw [hr4 i]; rfl
      · exact hc k) (he r hrU i)
  have hjac : HasJac (fun u i => (e i).val (Sum.elim u c)) (fun u i j => (J i j).val (Sum.elim u c)) (unknowns B) :=
    fun u hu i => hj u hu i (hJd u hu i)
  have hmix : ∀ M, MixedJac (fun u i j => (J i j).val (Sum.elim u c)) (unknowns B) M → ∀ i j, M i j ∈ ((J i j).evalD φ B).itv.set := by
    intro M hM i j
    obtain ⟨w, hw, e⟩ := hM i
    rw [e]
    exact hJv w hw i j
  have hdet : ∀ M, MixedJac (fun u i j => (J i j).val (Sum.elim u c)) (unknowns B) M → Matrix.det (Matrix.of M) ≠ 0 := fun M hM =>
    (C73_solution piv oJ oe hg (Matrix.of M) _ (hmix M hM) hev).1
  have hsol : ∀ M, MixedJac (fun u i j => (J i j).val (Sum.elim u c)) (unknowns B) M → ∀ y,
      (∀ i, ∑ j, M i j * y j = (e i).val (Sum.elim r c)) → ∀ i, (r - y) i ∈ (φ.subI ⟨m i, m i⟩ (d i)).set := by
    intro M hM y hy i
    obtain ⟨-, x, hx, -, hu⟩ := C73_solution piv oJ oe hg (Matrix.of M) _ (hmix M hM) hev
    obtain rfl := hu y (funext hy)
    exact mem_sub73 (hr3 i) (og i) (by rw [hr4 i]; rfl) (hx i)
  have hinj := inj74 (convex74 B) hjac hdet
  have huniq : ∀ u ∈ unknowns B, Solves e c u → ∀ v ∈ unknowns B, Solves e c v → v = u := fun u hu h0 v hv h1 =>
    hinj hv hu (funext fun i => (h1 i).trans (h0 i).symm)
  refine ⟨he, fun u hu h0 => ⟨?_, huniq u hu h0⟩, fun htest => ?_⟩
  · obtain ⟨M, h1, h2⟩ := mean74 (convex74 B) hjac hu hrU
    have := hsol M h1 (r - u) (fun i => by
      have := h2 i
      rw [h0 i, sub_zero] at this
      exact this.symm)
    rwa [sub_sub_cancel] at this
  · simp only [newtonSysTest, decide_eq_true_eq] at htest
    have hK : IsCompact (unknowns B) := by
      have : unknowns B = Set.pi univ fun i => (B (.inl i)).set := by ext u; simp [unknowns]
      rw [this]
      refine isCompact_univ_pi fun i => ?_
      obtain ⟨a, b, -, e⟩ := common_Icc (hB (.inl i)).1 (pred_imp (htest i).1)
      show IsCompact (B (.inl i)).itv.set
      rw [e]
      exact isCompact_Icc
    have hint : ∀ v : Fin n → ℝ, (∀ i, (∃ b ∈ (B (.inl i)).itv.set, b < v i) ∧ ∃ b ∈ (B (.inl i)).itv.set, v i < b) →
        v ∈ interior (unknowns B) := by
      intro v hv
      have : unknowns B = Set.pi univ fun i => (B (.inl i)).set := by ext u; simp [unknowns]
      rw [this, interior_pi_set finite_univ]
      intro i _
      obtain ⟨⟨a, ha, ha'⟩, b, hb, hb'⟩ := hv i
      rw [mem_interior_iff_mem_nhds]
      exact Filter.mem_of_superset (Icc_mem_nhds ha' hb') ((set_ordConnected (B (.inl i)).itv).out ha hb)
    obtain ⟨u, hu, h0⟩ := exists74 (convex74 B) hK hjac hdet (m := r)
      (hint r fun i => (C22_interior (hr3 i) (hB _).1).mp (htest i).2.1 _ (by rw [hr4 i]; rfl))
      (fun M hM y hy => hint _ fun i => (C22_interior (oN i) (hB _).1).mp (htest i).2.2 _ (hsol M hM y hy i))
    have h0 : Solves e c u := fun i => congrFun h0 i
    exact ⟨u, ⟨hu, h0⟩, fun v hv => huniq u hu h0 v hv.1 hv.2⟩

theorem C74_newton_partial (ht : NoCritical φ ∨ ∀ i, (e i).TanFree ∧ ∀ j, (J i j).TanFree)
    (hB : ∀ i, (B i).Ok φ) (hm : ∀ i, (m i).In φ) (h : newtonSys φ piv e J B m = some N) :
    (∀ i, (N i).Ok φ) ∧ ∀ c, ParamsIn B c → IsJacobian e J B c → NewtonSysRight e B m N c :=
  C74_newton_safe_partial (fun i => (e i).tanSafeIn (ht.imp_right fun h => (h i).1) _)
    (fun i j => (J i j).tanSafe (ht.imp_right fun h => (h i).2 j) fun k => (hB k).1) hB hm h

theorem C74_binary32 : C74_full binary32 := fun _ _ _ _ _ _ _ _ hB hm h => C74_newton_partial (Or.inl noCritical_binary32) hB hm h

theorem C74_x87ext : C74_full x87ext := fun _ _ _ _ _ _ _ _ hB hm h => C74_newton_partial (Or.inl noCritical_x87ext) hB hm h

/-! ### False of `double` with the tangent -/

/-- `x + k sin² x - c`, where `k`, `c` and `1` are parameters. -/
def sinEq74 : Fin 1 → Expr (Fin 1 ⊕ Fin 3) := fun _ =>
  .bin .sub (.bin .add (.var (.inl 0)) (.bin .mul (.var (.inr 1)) (.un .sqr (.un .sin (.var (.inl 0)))))) (.var (.inr 2))

/-- Its derivative `1 + 2 k sin x cos x`, written `1 + (k + k) (tan x * cos² x)`. -/
def sinJac74 : Fin 1 → Fin 1 → Expr (Fin 1 ⊕ Fin 3) := fun _ _ =>
  .bin .add (.var (.inr 0)) (.bin .mul (.bin .add (.var (.inr 1)) (.var (.inr 1)))
    (.bin .mul (.un .tan (.var (.inl 0))) (.un .sqr (.un .cos (.var (.inl 0))))))

/-- The unknown in an interval around `π`, the parameters `1`, `8` and `[25/8, 51/16]`. -/
def sinBox74 : Fin 1 ⊕ Fin 3 → DItv :=
  Sum.elim (fun _ => ⟨tanWitness, .com⟩)
    ![⟨⟨.fin 1, .fin 1⟩, .com⟩, ⟨⟨.fin 8, .fin 8⟩, .com⟩, ⟨⟨.fin (25 / 8), .fin (51 / 16)⟩, .com⟩]

theorem sinBox_ok74 : ∀ i, (sinBox74 i).Ok binary64 := by
  rintro (i | k)
  · exact ⟨tanWitness_ok, by simp [sinBox74, tanWitness], by simp [sinBox74], by simp [sinBox74, tanWitness]⟩
  · fin_cases k <;> exact ⟨Itv.ok_of_okb (by decide +kernel), by simp [sinBox74], by simp [sinBox74], by simp [sinBox74]⟩

theorem sin_one74 : (5 / 8 : ℝ) ≤ Real.sin 1 := by
  have h1 := Real.cos_two_neg
  have h2 := Real.cos_two_mul 1
  rw [mul_one] at h2
  have h3 := Real.sin_pos_of_pos_of_lt_pi one_pos (by linarith [Real.pi_gt_three])
  nlinarith [Real.sin_sq_add_cos_sq 1]

theorem not_ill74 {d : Dec} (h : .defd ≤ d) : d ≠ .ill := fun k => by rw [k] at h; exact absurd h (by decide)

theorem un74 {f : ℝ → ℝ} {x r : DItv} (h : DecRight f Set.univ x.set x.dec r) (hx : x.Ok φ) (hd : .defd ≤ x.dec) : .defd ≤ r.dec :=
  h.strongest _ hd ⟨hx.nonempty_of hd, Set.subset_univ _⟩

theorem bin74 {f : ℝ × ℝ → ℝ} {x y r : DItv} (h : DecRight f Set.univ (x.set ×ˢ y.set) (x.dec.min y.dec) r) (hx : x.Ok φ) (hy : y.Ok φ)
    (hd : .defd ≤ x.dec) (hd' : .defd ≤ y.dec) : .defd ≤ r.dec :=
  h.strongest _ (by revert hd hd'; cases x.dec <;> cases y.dec <;> decide)
    ⟨(hx.nonempty_of hd).prod (hy.nonempty_of hd'), Set.subset_univ _⟩

/-- Elimination for one equation. -/
theorem gauss_one {A : Fin 1 → Fin 1 → Itv} {b : Fin 1 → Itv} (h : (A 0 0).isMember (.fin 0) = false) :
    gauss φ piv 1 A b = some fun _ => φ.divI (b 0) (A 0 0) := by
  have hp : piv 0 (fun i => A i 0) = 0 := Fin.fin_one_eq_zero _
  unfold gauss
  simp only [hp, h, Bool.false_eq_true, if_false]
  unfold gauss
  simp only [Option.map_some, Option.some.injEq]
  funext i
  obtain rfl : i = 0 := Fin.fin_one_eq_zero _
  rfl

/-- The tangent of the witness: decorated as if there were no pole, and between 1 and 2. -/
theorem tan_facts74 : (binary64.tanD ⟨tanWitness, .com⟩).itv = binary64.tanI tanWitness ∧
    .defd ≤ (binary64.tanD ⟨tanWitness, .com⟩).dec ∧ ∀ z ∈ (binary64.tanI tanWitness).set, (1:ℝ) ≤ z := by
  obtain ⟨b, hx, ha, hb, hbv, ht1, hw, hr⟩ := tan_witness_branch
  obtain ⟨-, -, h3, n1, i1, e1, n2, i2, e2⟩ := tanI_fin hx ha hb
  have hT := h3 hw hr
  have hxd : (DItv.mk tanWitness .com).Ok binary64 :=
    ⟨tanWitness_ok, by simp [tanWitness], by simp, by simp [tanWitness]⟩
  obtain ⟨d1, d2⟩ := tanD_eq hxd (by simp)
  obtain ⟨b1, b2⟩ := tan_branch (x := DItv.mk tanWitness .com) hx ha hb
  have c1 := Bool.eq_false_iff.mpr (fun h => absurd (b1.mp h) (not_lt.mpr hw))
  have c2 := Bool.eq_false_iff.mpr (fun h => absurd (b2.mp h) (not_lt.mpr hr))
  rw [c1, c2, show (DItv.mk tanWitness .com).itv.isEmpty = false from hx.isEmpty] at d2
  simp only [Bool.or_self, Bool.false_eq_true, if_false] at d2
  have hd : Dec.defd ≤ (binary64.tanD (DItv.mk tanWitness .com)).dec := by
    rw [d2]; unfold Itv.comDac; split_ifs <;> decide
  refine ⟨d1, hd, fun z hz => ?_⟩
  rw [hT] at hz
  obtain ⟨⟨-, z1⟩, -, z2⟩ := Itv.mem_set.mp hz
  have l1 := (binary64.le_rdE_iff (f := .fin 1) (rep_one _) (Real.tan (7 / 8)) (by simp)).mpr (by
    rw [toE_one]; exact_mod_cast ht1.le)
  rw [show (Itv.mk (binary64.tanF .D tanWitness.lo) (binary64.tanF .U tanWitness.hi)).lo = binary64.tanF .D tanWitness.lo from rfl,
    e1] at z1
  have z1 := l1.trans z1
  rw [toE_one] at z1
  exact_mod_cast z1

/-- The full statement is **false** of `double`: the operator for `x + 8 sin² x - c` at `1` is less than `π`, the solution for `c = π`.  The
derivative is written with a tangent, whose pole in the interval is not seen. -/
theorem C74_false : ¬ C74_full binary64 := by
  intro hf
  obtain ⟨d1, hd, hS⟩ := tan_facts74
  have bo := sinBox_ok74
  have h0 := bo (.inl 0)
  have hp : (Itv.mk (.fin 1) (.fin 1)).Ok binary64 := Itv.ok_of_okb (by decide +kernel)
  have rep : ∀ (m : ℤ) (e : ℤ), |m| < 1000 → -20 ≤ e → e ≤ 10 → binary64.Rep ((m : ℚ) * 2 ^ e) := by
    intro m e h1 h2 h3
    refine ⟨m, e, rfl, h1.trans (by decide), ?_, ?_⟩
    · simp only [binary64]; omega
    · simp only [binary64]; omega
  have r0 : binary64.Rep 0 := binary64.rep_zero
  have r1 : binary64.Rep 1 := by have := rep 1 0 (by decide) (by decide) (by decide); norm_num at this; exact this
  have r2 : binary64.Rep (5 / 8) := by have := rep 5 (-3) (by decide) (by decide) (by decide); norm_num at this; exact this
  have r3 : binary64.Rep (25 / 64) := by have := rep 25 (-6) (by decide) (by decide) (by decide); norm_num at this; exact this
  have r4 : binary64.Rep (25 / 8) := by have := rep 25 (-3) (by decide) (by decide) (by decide); norm_num at this; exact this
  have r5 : binary64.Rep (33 / 8) := by have := rep 33 (-3) (by decide) (by decide) (by decide); norm_num at this; exact this
  have m1 : ∀ z, z ∈ (Itv.mk (.fin 1) (.fin 1)).set → z = 1 := by
    intro z
    simp only [Itv.set, FP.BelowR, FP.AboveR, Set.mem_ofPred_eq]
    push_cast
    exact fun h => le_antisymm h.2 h.1
  have m8 : ∀ z, z ∈ (Itv.mk (.fin 8) (.fin 8)).set → z = 8 := by
    intro z
    simp only [Itv.set, FP.BelowR, FP.AboveR, Set.mem_ofPred_eq]
    push_cast
    exact fun h => le_antisymm h.2 h.1
  -- the derivative: defined, and at least 1
  obtain ⟨c1, c2⟩ := C20_cos h0 (by simp [sinBox74])
  have oc := Op1.decd_ok .cos h0
  simp only [Op1.decd] at oc
  have dc := un74 c2 h0 (by decide)
  obtain ⟨s1, s2⟩ := C20_sqr oc (not_ill74 dc)
  have os := Op1.decd_ok .sqr oc
  simp only [Op1.decd] at os
  have ds := un74 s2 oc dc
  have ot := Op1.decd_ok .tan h0
  simp only [Op1.decd] at ot
  obtain ⟨p1, p2⟩ := C20_mul ot os (not_ill74 hd) (not_ill74 ds)
  have op := Op2.decd_ok .mul ot os
  simp only [Op2.decd] at op
  have dp := bin74 p2 ot os hd ds
  obtain ⟨k1, k2⟩ := C20_add (bo (.inr 1)) (bo (.inr 1)) (by decide) (by decide)
  have ok := Op2.decd_ok .add (bo (.inr 1)) (bo (.inr 1))
  simp only [Op2.decd] at ok
  have dk := bin74 k2 (bo (.inr 1)) (bo (.inr 1)) (by decide) (by decide)
  obtain ⟨q1, q2⟩ := C20_mul ok op (not_ill74 dk) (not_ill74 dp)
  have oq := Op2.decd_ok .mul ok op
  simp only [Op2.decd] at oq
  have dq := bin74 q2 ok op dk dp
  obtain ⟨j1, j2⟩ := C20_add (bo (.inr 0)) oq (by decide) (not_ill74 dq)
  have oj := Op2.decd_ok .add (bo (.inr 0)) oq
  simp only [Op2.decd] at oj
  have dj := bin74 j2 (bo (.inr 0)) oq (by decide) dq
  have hJ : ∀ z ∈ ((sinJac74 0 0).evalD binary64 sinBox74).itv.set, (1:ℝ) ≤ z := by
    have vs : ∀ z ∈ (binary64.sqrD (binary64.cosD (sinBox74 (.inl 0)))).itv.set, (0:ℝ) ≤ z := by
      rw [s1]
      have := (C04_sqr binary64 oc.1).ge r0 (by rintro _ ⟨a, -, rfl⟩; push_cast; exact sq_nonneg a)
      push_cast at this
      exact this
    have vp : ∀ z ∈ (binary64.mulD (binary64.tanD (sinBox74 (.inl 0))) (binary64.sqrD (binary64.cosD (sinBox74 (.inl 0))))).itv.set,
        (0:ℝ) ≤ z := by
      rw [p1]
      have := (C02_mul binary64 ot.1 os.1).ge r0 (by
        rintro _ ⟨a, ha, b, hb, rfl⟩
        push_cast
        exact mul_nonneg (zero_le_one.trans (hS a (by rw [← d1]; exact ha))) (vs b hb))
      push_cast at this
      exact this
    have vk : ∀ z ∈ (binary64.addD (sinBox74 (.inr 1)) (sinBox74 (.inr 1))).itv.set, (0:ℝ) ≤ z := by
      rw [k1]
      have := (C01_add binary64 (bo (.inr 1)).1 (bo (.inr 1)).1).ge r0 (by
        rintro _ ⟨a, ha, b, hb, rfl⟩
        rw [m8 a ha, m8 b hb]
        norm_num)
      push_cast at this
      exact this
    have vq : ∀ z ∈ (binary64.mulD (binary64.addD (sinBox74 (.inr 1)) (sinBox74 (.inr 1)))
        (binary64.mulD (binary64.tanD (sinBox74 (.inl 0))) (binary64.sqrD (binary64.cosD (sinBox74 (.inl 0)))))).itv.set, (0:ℝ) ≤ z := by
      rw [q1]
      have := (C02_mul binary64 ok.1 op.1).ge r0 (by
        rintro _ ⟨a, ha, b, hb, rfl⟩
        push_cast
        exact mul_nonneg (vk a ha) (vp b hb))
      push_cast at this
      exact this
    show ∀ z ∈ (binary64.addD (sinBox74 (.inr 0)) (binary64.mulD (binary64.addD (sinBox74 (.inr 1)) (sinBox74 (.inr 1)))
        (binary64.mulD (binary64.tanD (sinBox74 (.inl 0))) (binary64.sqrD (binary64.cosD (sinBox74 (.inl 0))))))).itv.set, (1:ℝ) ≤ z
    rw [j1]
    have := (C01_add binary64 (bo (.inr 0)).1 oq.1).ge r1 (by
      rintro _ ⟨a, ha, b, hb, rfl⟩
      rw [m1 a ha]
      push_cast
      linarith [vq b hb])
    push_cast at this
    exact this
  -- the equation: defined on the box, not negative at 1
  obtain ⟨f1, f2⟩ := C20_sin h0 (by simp [sinBox74])
  have of := Op1.decd_ok .sin h0
  simp only [Op1.decd] at of
  have df := un74 f2 h0 (by decide)
  obtain ⟨g1, g2⟩ := C20_sqr of (not_ill74 df)
  have og := Op1.decd_ok .sqr of
  simp only [Op1.decd] at og
  have dg := un74 g2 of df
  obtain ⟨-, n2⟩ := C20_mul (bo (.inr 1)) og (by decide) (not_ill74 dg)
  have on := Op2.decd_ok .mul (bo (.inr 1)) og
  simp only [Op2.decd] at on
  have dn := bin74 n2 (bo (.inr 1)) og (by decide) dg
  obtain ⟨-, a2⟩ := C20_add h0 on (by decide) (not_ill74 dn)
  have oa := Op2.decd_ok .add h0 on
  simp only [Op2.decd] at oa
  have da := bin74 a2 h0 on (by decide) dn
  obtain ⟨-, b2⟩ := C20_sub oa (bo (.inr 2)) (not_ill74 da) (by decide)
  have db := bin74 b2 oa (bo (.inr 2)) da (by decide)
  have hE : ((sinEq74 0).eval binary64 (pointBox sinBox74 fun _ => .fin 1)).Ok binary64 ∧
      ∀ z ∈ ((sinEq74 0).eval binary64 (pointBox sinBox74 fun _ => .fin 1)).set, (0:ℝ) ≤ z := by
    have t1 := C10_sin (φ := binary64) hp
    have w1 := t1.ge r2 (by
      rintro _ ⟨a, ha, rfl⟩
      rw [m1 a ha]
      push_cast
      exact sin_one74)
    have t2 := C04_sqr binary64 t1.1
    have w2 := t2.ge r3 (by
      rintro _ ⟨a, ha, rfl⟩
      have := w1 a ha
      push_cast at this ⊢
      nlinarith)
    have t3 := C02_mul binary64 (bo (.inr 1)).1 t2.1
    have w3 := t3.ge r4 (by
      rintro _ ⟨a, ha, b, hb, rfl⟩
      have := w2 b hb
      rw [m8 a ha]
      push_cast at this ⊢
      linarith)
    have t4 := C01_add binary64 hp t3.1
    have w4 := t4.ge r5 (by
      rintro _ ⟨a, ha, b, hb, rfl⟩
      have := w3 b hb
      rw [m1 a ha]
      push_cast at this ⊢
      linarith)
    have t5 := C01_sub binary64 t4.1 (bo (.inr 2)).1
    have w5 := t5.ge r0 (by
      rintro _ ⟨a, ha, b, hb, rfl⟩
      have := w4 a ha
      have hb : (((25 / 8 : ℚ) : ℝ)) ≤ b ∧ b ≤ ((51 / 16 : ℚ) : ℝ) := hb
      push_cast at this hb ⊢
      linarith)
    push_cast at w5
    exact ⟨t5.1, w5⟩
  have hz : ((sinJac74 0 0).evalD binary64 sinBox74).itv.isMember (.fin 0) = false := by
    rw [Bool.eq_false_iff]
    intro h
    have := hJ 0 ((isMember_zero oj.1).mp h)
    linarith
  have hmem : ∀ t : ℝ, 7 / 8 ≤ t → t ≤ 4 → t ∈ tanWitness.set := by
    obtain ⟨b, hx, ha, hb, hbv, -⟩ := tan_witness_branch
    exact fun t h1 h2 => hx.mem.mpr ⟨by rw [ha]; exact_mod_cast h1, by rw [hb, hbv]; exact_mod_cast h2.trans (by norm_num)⟩
  -- the result
  have hN : newtonSys binary64 (fun _ _ => 0) sinEq74 sinJac74 sinBox74 (fun _ => .fin 1) = some fun _ =>
      binary64.subI ⟨.fin 1, .fin 1⟩ (binary64.divI ((sinEq74 0).eval binary64 (pointBox sinBox74 fun _ => .fin 1))
        ((sinJac74 0 0).evalD binary64 sinBox74).itv) := by
    unfold newtonSys
    rw [if_pos, gauss_one hz]
    · rfl
    · refine ⟨fun _ => db, fun _ _ => dj, fun _ => ?_⟩
      have : tanWitness.isMember (.fin 1) = true :=
        (C24_is_member tanWitness_ok (.fin 1)).mpr ⟨1, by simp [FP.HasValue], hmem 1 (by norm_num) (by norm_num)⟩
      show DItv.isMember (.fin 1) (sinBox74 (.inl 0)) = true
      unfold DItv.isMember
      rw [h0.isValid, h0.isNai_false (by decide), if_neg (by simp)]
      exact this
  have π1 := Real.pi_gt_d20
  have π2 := Real.pi_lt_d20
  norm_num at π1 π2
  obtain ⟨-, hk⟩ := hf 1 (Fin 3) _ sinEq74 sinJac74 sinBox74 (fun _ => .fin 1) _ bo (fun _ => r1) hN
  have hc : ParamsIn sinBox74 ![1, 8, Real.pi] := by
    intro k
    fin_cases k
    · exact ⟨by show ((1 : ℚ) : ℝ) ≤ 1; norm_num, by show (1 : ℝ) ≤ ((1 : ℚ) : ℝ); norm_num⟩
    · exact ⟨by show ((8 : ℚ) : ℝ) ≤ 8; norm_num, by show (8 : ℝ) ≤ ((8 : ℚ) : ℝ); norm_num⟩
    · exact ⟨by show (((25 / 8 : ℚ) : ℝ)) ≤ Real.pi; push_cast; linarith, by show Real.pi ≤ ((51 / 16 : ℚ) : ℝ); push_cast; linarith⟩
  have hjac : IsJacobian sinEq74 sinJac74 sinBox74 ![1, 8, Real.pi] := by
    intro u _ i _
    have hd : HasDerivAt (fun x : ℝ => x + 8 * Real.sin x ^ 2 - Real.pi) (1 + (8 + 8) * (Real.tan (u 0) * Real.cos (u 0) ^ 2)) (u 0) := by
      have h1 := (((hasDerivAt_id (u 0)).add (((Real.hasDerivAt_sin (u 0)).pow 2).const_mul 8)).sub_const Real.pi)
      have e1 : Real.tan (u 0) * Real.cos (u 0) ^ 2 = Real.sin (u 0) * Real.cos (u 0) := by
        rw [Real.tan_eq_sin_div_cos]
        by_cases h : Real.cos (u 0) = 0
        · simp [h]
        · field_simp
      rw [e1]
      refine HasDerivAt.congr_deriv (f' := _) h1 ?_
      norm_num
      ring
    have := (hd.hasFDerivAt.comp u (ContinuousLinearMap.proj (R := ℝ) (φ := fun _ : Fin 1 => ℝ) 0).hasFDerivAt).hasFDerivWithinAt
      (s := unknowns sinBox74)
    refine HasFDerivWithinAt.congr_fderiv (this.congr (fun w _ => ?_) ?_) ?_
    · simp [sinEq74, Expr.val, Op1.fn, Op2.fn]
    · simp [sinEq74, Expr.val, Op1.fn, Op2.fn]
    · ext v
      simp [sinJac74, Expr.val, Op1.fn, Op2.fn]
      ring
  obtain ⟨-, hs, -⟩ := hk _ hc hjac
  obtain ⟨hs, -⟩ := hs (fun _ => Real.pi) (fun _ => hmem _ (by linarith) (by linarith)) (fun i => by
    simp [sinEq74, Expr.val, Op1.fn, Op2.fn])
  have hs := hs 0
  have w := (C01_sub binary64 hp (C03_div binary64 hE.1 oj.1).1).le r1 (by
    rintro _ ⟨a, ha, b, hb, rfl⟩
    rw [m1 a ha]
    have := (C03_div binary64 hE.1 oj.1).ge r0 (by
      rintro _ ⟨a, ha, b, hb, -, rfl⟩
      push_cast
      exact div_nonneg (hE.2 a ha) (zero_le_one.trans (hJ b hb))) b hb
    push_cast at this ⊢
    linarith) _ hs
  push_cast at w
  linarith

/-! ### An instance -/

/-- `x² + y² = c`, `x = y`. -/
def circEq74 : Fin 2 → Expr (Fin 2 ⊕ Bool) :=
  ![.bin .sub (.bin .add (.un .sqr (.var (.inl 0))) (.un .sqr (.var (.inl 1)))) (.var (.inr false)),
    .bin .sub (.var (.inl 0)) (.var (.inl 1))]

/-- The partial derivatives; the second parameter is 1. -/
def circJac74 : Fin 2 → Fin 2 → Expr (Fin 2 ⊕ Bool) :=
  ![![.bin .add (.var (.inl 0)) (.var (.inl 0)), .bin .add (.var (.inl 1)) (.var (.inl 1))],
    ![.var (.inr true), .un .neg (.var (.inr true))]]

/-- `x` and `y` in `[3/4, 5/4]`, `c` in `[31/16, 33/16]`. -/
def circBox74 : Fin 2 ⊕ Bool → DItv
  | .inl _ => ⟨⟨.fin (3 / 4), .fin (5 / 4)⟩, .com⟩
  | .inr false => ⟨⟨.fin (31 / 16), .fin (33 / 16)⟩, .com⟩
  | .inr true => ⟨⟨.fin 1, .fin 1⟩, .com⟩

/-- For every `c` in the interval there is one and only one solution in the box. -/
example : ∀ c ∈ Icc (31 / 16 : ℝ) (33 / 16), ∃! u : Fin 2 → ℝ, (∀ i, u i ∈ Icc (3 / 4 : ℝ) (5 / 4)) ∧ u 0 ^ 2 + u 1 ^ 2 = c ∧ u 0 = u 1 := by
  intro c hc
  have ok : ∀ i, (circBox74 i).Ok binary64 := by
    rintro (_ | _ | _) <;> exact ⟨Itv.ok_of_okb (show Itv.okb binary64 ⟨_, _⟩ = true by decide +kernel), by simp [circBox74], by simp [circBox74], by simp [circBox74]⟩
  obtain ⟨N, hN, hT⟩ : ∃ N, newtonSys binary64 (fun n _ => Fin.last n) circEq74 circJac74 circBox74 (fun _ => .fin 1) = some N ∧
      newtonSysTest circBox74 (fun _ => .fin 1) N = true := by
    have : ((gauss binary64 (fun n _ => Fin.last n) 2 (fun i j => ((circJac74 i j).evalD binary64 circBox74).itv)
        fun i => (circEq74 i).eval binary64 (pointBox circBox74 fun _ => .fin 1)).map
      fun d => newtonSysTest circBox74 (fun _ => .fin 1) fun i => binary64.subI ⟨.fin 1, .fin 1⟩ (d i)) = some true := by
      have e1 : (fun i j => ((circJac74 i j).evalD binary64 circBox74).itv) =
          ![![(binary64.addD (circBox74 (.inl 0)) (circBox74 (.inl 0))).itv, (binary64.addD (circBox74 (.inl 1)) (circBox74 (.inl 1))).itv],
            ![(circBox74 (.inr true)).itv, (Fmt.negD (circBox74 (.inr true))).itv]] := by
        funext i j
        fin_cases i <;> fin_cases j <;> rfl
      have e2 : (fun i => (circEq74 i).eval binary64 (pointBox circBox74 fun _ => .fin 1)) =
          ![binary64.subI (binary64.addI (binary64.sqrI ⟨.fin 1, .fin 1⟩) (binary64.sqrI ⟨.fin 1, .fin 1⟩)) (circBox74 (.inr false)).itv,
            binary64.subI ⟨.fin 1, .fin 1⟩ ⟨.fin 1, .fin 1⟩] := by
        funext i
        fin_cases i <;> rfl
      rw [e1, e2]
      decide +kernel
    obtain ⟨d, h1, h2⟩ := Option.map_eq_some_iff.mp this
    refine ⟨_, ?_, h2⟩
    unfold newtonSys
    rw [if_pos, h1]
    · rfl
    · refine ⟨fun i => ?_, fun i j => ?_, fun i => ?_⟩
      · fin_cases i
        · show Dec.defd ≤ (binary64.subD (binary64.addD (binary64.sqrD (circBox74 (.inl 0))) (binary64.sqrD (circBox74 (.inl 1))))
            (circBox74 (.inr false))).dec
          decide +kernel
        · show Dec.defd ≤ (binary64.subD (circBox74 (.inl 0)) (circBox74 (.inl 1))).dec
          decide +kernel
      · fin_cases i <;> fin_cases j
        · show Dec.defd ≤ (binary64.addD (circBox74 (.inl 0)) (circBox74 (.inl 0))).dec
          decide +kernel
        · show Dec.defd ≤ (binary64.addD (circBox74 (.inl 1)) (circBox74 (.inl 1))).dec
          decide +kernel
        · show Dec.defd ≤ (circBox74 (.inr true)).dec
          decide +kernel
        · show Dec.defd ≤ (Fmt.negD (circBox74 (.inr true))).dec
          decide +kernel
      · revert i
        decide +kernel
  have hp : ParamsIn circBox74 (fun b => if b then 1 else c) := by
    rintro (_ | _)
    · exact ⟨by show ((31 / 16 : ℚ) : ℝ) ≤ c; push_cast; exact hc.1, by show c ≤ ((33 / 16 : ℚ) : ℝ); push_cast; exact hc.2⟩
    · exact ⟨by show ((1 : ℚ) : ℝ) ≤ 1; norm_num, by show (1 : ℝ) ≤ ((1 : ℚ) : ℝ); norm_num⟩
  have hU : ∀ u, u ∈ unknowns circBox74 ↔ ∀ i, u i ∈ Icc (3 / 4 : ℝ) (5 / 4) := by
    intro u
    refine forall_congr' fun i => ?_
    simp [circBox74, DItv.set, Itv.set, FP.BelowR, FP.AboveR]
  have hS : ∀ u, Solves circEq74 (fun b => if b then 1 else c) u ↔ u 0 ^ 2 + u 1 ^ 2 = c ∧ u 0 = u 1 := by
    intro u
    simp [Solves, circEq74, Fin.forall_fin_two, Expr.val, Op1.fn, Op2.fn, sub_eq_zero]
  have hj : IsJacobian circEq74 circJac74 circBox74 (fun b => if b then 1 else c) := by
    intro u _ i _
    refine HasFDerivAt.hasFDerivWithinAt ?_
    have p0 := (ContinuousLinearMap.proj (R := ℝ) (φ := fun _ : Fin 2 => ℝ) 0).hasFDerivAt (x := u)
    have p1 := (ContinuousLinearMap.proj (R := ℝ) (φ := fun _ : Fin 2 => ℝ) 1).hasFDerivAt (x := u)
    revert i
    rw [Fin.forall_fin_two]
    refine ⟨fun _ => ?_, fun _ => ?_⟩
    · refine HasFDerivAt.congr_fderiv (f := fun w : Fin 2 → ℝ => w 0 ^ 2 + w 1 ^ 2 - c) (((p0.pow 2).add (p1.pow 2)).sub_const c) ?_
      ext v
      simp [circJac74, Expr.val, Op1.fn, Op2.fn, Fin.sum_univ_two]
      ring
    · refine HasFDerivAt.congr_fderiv (f := fun w : Fin 2 → ℝ => w 0 - w 1) (p0.sub p1) ?_
      ext v
      simp [circJac74, Expr.val, Op1.fn, Op2.fn, Fin.sum_univ_two]
      ring
  have := ((C74_newton_partial (Or.inr (by simp [circEq74, circJac74, Fin.forall_fin_two, Expr.TanFree])) ok (fun _ => FP.in_of_inb (by decide +kernel))
    hN).2 _ hp hj).2.2 hT
  simpa only [hU, hS] using this

end P1788
