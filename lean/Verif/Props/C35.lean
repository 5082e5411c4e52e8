import Verif.Lemmas.TanSafe
import Verif.Props.C25

/-! # C35: inclusion isotonicity -/

namespace P1788
variable {φ : Fmt} {ι : Type}

theorem tight_set_mono {R R' : Itv} {S S' : Set ℝ} (h : Tightest φ R S) (h' : Tightest φ R' S') (hs : S ⊆ S') :
    R.set ⊆ R'.set := h.2.2 R' h'.1 (hs.trans h'.2.1)

theorem tan_isotone {x x' : Itv} (hs : ¬ TanBad φ x') (hx : x.Ok φ) (hx' : x'.Ok φ)
    (h : x.set ⊆ x'.set) : (φ.tanI x).set ⊆ (φ.tanI x').set := by
  rcases hx.cases with rfl | hN
  · have : φ.tanI Itv.empty = Itv.empty := by simp [Fmt.tanI]
    rw [this, Itv.set_empty]; exact Set.empty_subset _
  rcases hx'.cases with rfl | hN'
  · rw [Itv.set_empty] at h
    obtain ⟨t, ht⟩ := hN.nonempty
    exact (h ht).elim
  obtain ⟨c1, c2, c3⟩ := C11_tan_partial hx' hs
  by_cases hp : x'.HasPole
  · rw [c3 hp, Itv.set_entire]; exact Set.subset_univ _
  by_cases hinf : x'.lo = .ninf ∨ x'.hi = .pinf
  · rw [tanI_inf hN' hinf, Itv.set_entire]; exact Set.subset_univ _
  obtain ⟨a', b', ha', hb'⟩ := fin_bounds hN' hinf
  obtain ⟨h1, -⟩ := tanI_fin hN' ha' hb'
  rcases lt_or_ge (φ.rdE (Real.pi:ℝ)) ((b' - a' : ℝ):EReal) with hw | hw
  · rw [h1 hw, Itv.set_entire]; exact Set.subset_univ _
  have hsub := (hN.subset_iff hN').mp h
  have hinf2 : ¬ (x.lo = .ninf ∨ x.hi = .pinf) := by
    rintro (e | e) <;> rw [e] at hsub
    · rw [ha'] at hsub; simp at hsub
    · rw [hb'] at hsub; simp at hsub
  obtain ⟨a, b, ha, hb⟩ := fin_bounds hN hinf2
  rw [ha, hb, ha', hb'] at hsub
  have g1 : a' ≤ a := by exact_mod_cast hsub.1
  have g2 : b ≤ b' := by exact_mod_cast hsub.2
  have hT := tight_no_pole hN ha hb (le_trans (by exact_mod_cast (by linarith : b - a ≤ b' - a')) hw)
    (fun ⟨t, ht, ht'⟩ => hp ⟨t, h ht, ht'⟩)
  refine hT.2.2 _ c1 (fun z hz => c2 ?_)
  obtain ⟨t, ht, h0, rfl⟩ := hz
  exact ⟨t, h ht, h0, rfl⟩

/-- **C35**, unary functions (full statement: without `hs`; false for `double` and the tangent, see
`C35_tan_binary64_false`).  `hs` only concerns the tangent and only the larger interval: it is not bad. -/
theorem C35_unary_safe_partial (op : Op1) {x x' : Itv} (hs : op = .tan → ¬ TanBad φ x') (hx : x.Ok φ)
    (hx' : x'.Ok φ) (h : x.set ⊆ x'.set) : (op.bare φ x).set ⊆ (op.bare φ x').set := by
  by_cases ht : op = .tan
  · subst ht; exact tan_isotone (hs rfl) hx hx' h
  · exact tight_set_mono (Op1.tight ht hx) (Op1.tight ht hx') (Set.image_mono (Set.inter_subset_inter_left _ h))

/-- For types without bad intervals for the tangent. -/
theorem C35_unary_partial (op : Op1) (hs : op = .tan → NoCritical φ) {x x' : Itv} (hx : x.Ok φ) (hx' : x'.Ok φ)
    (h : x.set ⊆ x'.set) : (op.bare φ x).set ⊆ (op.bare φ x').set :=
  C35_unary_safe_partial op (fun k => hs k x' hx') hx hx' h

/-- Binary functions. -/
theorem C35_binary (op : Op2) {x x' y y' : Itv} (hx : x.Ok φ) (hx' : x'.Ok φ) (hy : y.Ok φ) (hy' : y'.Ok φ)
    (h : x.set ⊆ x'.set) (k : y.set ⊆ y'.set) : (op.bare φ x y).set ⊆ (op.bare φ x' y').set :=
  tight_set_mono (op.tight hx hy) (op.tight hx' hy')
    (Set.image_mono (Set.inter_subset_inter_left _ (Set.prod_mono h k)))

/-- `fma`. -/
theorem C35_fma {x x' y y' z z' : Itv} (hx : x.Ok φ) (hx' : x'.Ok φ) (hy : y.Ok φ) (hy' : y'.Ok φ) (hz : z.Ok φ)
    (hz' : z'.Ok φ) (h : x.set ⊆ x'.set) (k : y.set ⊆ y'.set) (l : z.set ⊆ z'.set) :
    (φ.fmaI x y z).set ⊆ (φ.fmaI x' y' z').set := by
  refine tight_set_mono (C06_fma φ hx hy hz) (C06_fma φ hx' hy' hz') ?_
  rintro w ⟨a, ha, b, hb, c, hc, rfl⟩
  exact ⟨a, h ha, b, k hb, c, l hc, rfl⟩

/-- Intersection and convex hull. -/
theorem C35_setop {x x' y y' : Itv} (hx : x.Ok φ) (hx' : x'.Ok φ) (hy : y.Ok φ) (hy' : y'.Ok φ)
    (h : x.set ⊆ x'.set) (k : y.set ⊆ y'.set) :
    (x.inter y).set ⊆ (x'.inter y').set ∧ (x.hull y).set ⊆ (x'.hull y').set := by
  constructor
  · rw [(C25_intersection hx hy).2, (C25_intersection hx' hy').2]
    exact Set.inter_subset_inter h k
  · exact tight_set_mono (C25_convex_hull hx hy) (C25_convex_hull hx' hy') (Set.union_subset_union h k)

/-- Whole expressions: enlarging the input intervals never shrinks the result, if in the evaluation on the larger ones the
tangent meets no bad interval (C11). -/
theorem C35_expr_safe_partial (e : Expr ι) (X X' : ι → Itv) (ht : e.TanSafe φ X') (hX : ∀ i, (X i).Ok φ)
    (hX' : ∀ i, (X' i).Ok φ) (h : ∀ i, (X i).set ⊆ (X' i).set) : (e.eval φ X).set ⊆ (e.eval φ X').set := by
  induction e with
  | var i => exact h i
  | un op e ih => exact C35_unary_safe_partial op ht.2 (e.eval_ok18 hX) (e.eval_ok18 hX') (ih ht.1)
  | bin op e₁ e₂ ih₁ ih₂ =>
    exact C35_binary op (e₁.eval_ok18 hX) (e₁.eval_ok18 hX') (e₂.eval_ok18 hX) (e₂.eval_ok18 hX') (ih₁ ht.1) (ih₂ ht.2)
  | fma e₁ e₂ e₃ ih₁ ih₂ ih₃ =>
    exact C35_fma (e₁.eval_ok18 hX) (e₁.eval_ok18 hX') (e₂.eval_ok18 hX) (e₂.eval_ok18 hX') (e₃.eval_ok18 hX)
      (e₃.eval_ok18 hX') (ih₁ ht.1) (ih₂ ht.2.1) (ih₃ ht.2.2)

/-- For types without bad intervals for the tangent and for expressions without the tangent. -/
theorem C35_expr_partial (e : Expr ι) (ht : NoCritical φ ∨ e.TanFree) (X X' : ι → Itv) (hX : ∀ i, (X i).Ok φ)
    (hX' : ∀ i, (X' i).Ok φ) (h : ∀ i, (X i).set ⊆ (X' i).set) : (e.eval φ X).set ⊆ (e.eval φ X').set :=
  C35_expr_safe_partial e X X' (e.tanSafe ht hX') hX hX' h

theorem Expr.TanNarrow.safe {e : Expr ι} {X : ι → Itv} (h : e.TanNarrow φ X) (hX : ∀ i, (X i).Ok φ) : e.TanSafe φ X := by
  induction e with
  | var i => trivial
  | un op e ih => exact ⟨ih h.1, fun k => not_bad_of_width (.inl (h.2 k)) (e.eval_ok18 hX)⟩
  | bin op e₁ e₂ ih₁ ih₂ => exact ⟨ih₁ h.1, ih₂ h.2⟩
  | fma e₁ e₂ e₃ ih₁ ih₂ ih₃ => exact ⟨ih₁ h.1, ih₂ h.2.1, ih₃ h.2.2⟩

theorem Expr.TanNarrow.mono {e : Expr ι} {X Y : ι → Itv} (h : e.TanNarrow φ X) (hX : ∀ i, (X i).Ok φ) (hY : ∀ i, (Y i).Ok φ)
    (hs : ∀ i, (Y i).set ⊆ (X i).set) : e.TanNarrow φ Y := by
  induction e with
  | var i => trivial
  | un op e ih =>
    have k := C35_expr_safe_partial e Y X (Expr.TanNarrow.safe h.1 hX) hY hX hs
    exact ⟨ih h.1, fun ho s hs t ht => h.2 ho s (k hs) t (k ht)⟩
  | bin op e₁ e₂ ih₁ ih₂ => exact ⟨ih₁ h.1, ih₂ h.2⟩
  | fma e₁ e₂ e₃ ih₁ ih₂ ih₃ => exact ⟨ih₁ h.1, ih₂ h.2.1, ih₃ h.2.2⟩

/-- If the tangent is only applied to intervals of a width of at most 3 on a box, its evaluation is safe on all boxes inside. -/
theorem Expr.TanNarrow.safeIn {e : Expr ι} {X : ι → Itv} (h : e.TanNarrow φ X) (hX : ∀ i, (X i).Ok φ) : e.TanSafeIn φ X :=
  fun _ hY hs => Expr.TanNarrow.safe (h.mono hX hY hs) hY

/-- For `float` and x87 `long double`: all unary functions. -/
theorem C35_unary_binary32_x87ext (op : Op1) {x x' : Itv} (h : x.set ⊆ x'.set) :
    (x.Ok binary32 → x'.Ok binary32 → (op.bare binary32 x).set ⊆ (op.bare binary32 x').set) ∧
    (x.Ok x87ext → x'.Ok x87ext → (op.bare x87ext x).set ⊆ (op.bare x87ext x').set) :=
  ⟨fun hx hx' => C35_unary_partial op (fun _ => noCritical_binary32) hx hx' h,
   fun hx hx' => C35_unary_partial op (fun _ => noCritical_x87ext) hx hx' h⟩

/-- **C35 is false for `double` and the tangent**: `[3, 3] ⊆ x` but `tan([3, 3])` is not contained in `tan(x)`. -/
theorem C35_tan_binary64_false : ∃ x x' : Itv, x.Ok binary64 ∧ x'.Ok binary64 ∧ x.set ⊆ x'.set ∧
    ¬ (binary64.tanI x).set ⊆ (binary64.tanI x').set := by
  obtain ⟨b, hN, ha, hb, hbv, ht1, hw, hr⟩ := tan_witness_branch
  have h3 : (Itv.mk (.fin 3) (.fin 3)).Ok binary64 := Itv.ok_of_okb (by decide +kernel)
  have hsub : (Itv.mk (.fin 3) (.fin 3)).set ⊆ tanWitness.set := by
    intro t ht
    have : t = 3 := le_antisymm (by simpa [FP.AboveR] using ht.2) (by simpa [FP.BelowR] using ht.1)
    subst this
    rw [hN.mem, ha, hb, hbv]
    constructor <;> norm_cast <;> norm_num
  refine ⟨⟨.fin 3, .fin 3⟩, tanWitness, h3, tanWitness_ok, hsub, fun h => ?_⟩
  obtain ⟨-, -, hT, n1, i1, e1, n2, i2, e2⟩ := tanI_fin hN ha hb
  have hT := hT hw hr
  have hm : (3:ℝ) ∈ (Itv.mk (.fin 3) (.fin 3)).set := ⟨by simp [FP.BelowR], by simp [FP.AboveR]⟩
  have hnp : ¬ (Itv.mk (.fin 3) (.fin 3)).HasPole := by
    rintro ⟨t, ht, h0⟩
    have : t = 3 := le_antisymm (by simpa [FP.AboveR] using ht.2) (by simpa [FP.BelowR] using ht.1)
    subst this
    exact cos_ne_of_toE (a := .fin 3) (r := 3) (by simp) h0
  have hc3 : Real.cos 3 ≠ 0 := cos_ne_of_toE (a := .fin 3) (r := 3) (by simp)
  have hin := (C11_tan_partial h3 (fun hp => absurd hp.1 hnp)).2.1 ⟨3, hm, hc3, rfl⟩
  have := h hin
  rw [hT, Itv.mem_set] at this
  have h1 := this.1.2
  simp only at h1
  rw [e1] at h1
  -- `tan 3 < 0 < 1 ≤ RD (tan (7/8))`
  have h0 : (1:EReal) ≤ binary64.rdE (Real.tan (7 / 8)) := by
    have hin1 : (FP.fin 1).In binary64 := by
      have : (Itv.mk (.fin 1) (.fin 1)).Ok binary64 := Itv.ok_of_okb (by decide +kernel)
      exact (this.cases.resolve_left (by simp [Itv.empty])).lo_in
    have h4 := binary64.rdE_of_in hin1 (by simp)
    rw [show ((FP.fin 1).toE) = ((1:ℝ):EReal) by simp] at h4
    have := binary64.rdE_mono (x := ((1:ℝ):EReal)) (y := (Real.tan (7 / 8) : ℝ)) (by exact_mod_cast ht1.le)
    rw [h4] at this
    exact_mod_cast this
  have ht3 : Real.tan 3 < 0 := by
    have hpi := Real.pi_gt_d20
    have hpi' := Real.pi_lt_d20
    have : Real.tan (3 - Real.pi) < 0 := by
      rw [← neg_pos, ← Real.tan_neg]
      exact Real.tan_pos_of_pos_of_lt_pi_div_two (by linarith) (by linarith)
    rwa [Real.tan_sub_pi] at this
  have h5 := h0.trans h1
  have h6 : (1:ℝ) ≤ Real.tan 3 := by exact_mod_cast h5
  linarith

/-- Non-vacuity of `C35_expr_safe_partial` for `double` with the tangent: `tan x` on a box inside of `[1, 3]`, with a pole. -/
example (X : Unit → Itv) (hX : ∀ i, (X i).Ok binary64) (h : ∀ i, (X i).set ⊆ (Itv.mk (.fin 1) (.fin 3)).set) :
    (binary64.tanI (X ())).set ⊆ (binary64.tanI ⟨.fin 1, .fin 3⟩).set := by
  have h1 : (Itv.mk (.fin 1) (.fin 3)).Ok binary64 := Itv.ok_of_okb (by decide +kernel)
  refine C35_expr_safe_partial (.un .tan (.var ())) X (fun _ => ⟨.fin 1, .fin 3⟩)
    (Expr.TanNarrow.safe ⟨trivial, fun _ s hs t ht => ?_⟩ fun _ => h1) hX (fun _ => h1) h
  simp only [Expr.eval, Itv.set, FP.BelowR, FP.AboveR, Set.mem_ofPred_eq] at hs ht
  obtain ⟨a1, a2⟩ := hs
  obtain ⟨b1, b2⟩ := ht
  push_cast at a1 a2 b1 b2
  exact abs_le.mpr ⟨by linarith, by linarith⟩

/-- Non-vacuity: nested intervals. -/
example : (Itv.mk (.fin 1) (.fin 2)).Ok binary64 ∧ (Itv.mk (.fin (-1)) .pinf).Ok binary64 ∧
    (Itv.mk (.fin 1) (.fin 2)).set ⊆ (Itv.mk (.fin (-1)) .pinf).set := by
  refine ⟨Itv.ok_of_okb (by decide +kernel), Itv.ok_of_okb (by decide +kernel), fun t ht => ⟨?_, trivial⟩⟩
  have := ht.1
  simp only [FP.BelowR] at this ⊢
  push_cast at *
  linarith

end P1788
