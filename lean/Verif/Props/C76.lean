import Verif.Model.MeanValue
import Verif.Props.C74
import Verif.Props.C28
import Verif.Props.C25
import Verif.Props.C64b
import Mathlib.Analysis.SpecialFunctions.Trigonometric.ArctanDeriv

/-!
# C76: the mean value form

It encloses the range of the formula, and on small boxes it is wider than the range by at most a multiple of the square of the width.
-/

namespace P1788
open Set
variable {φ : Fmt} {n : ℕ} {κ : Type} {e : Expr (Fin n ⊕ κ)} {g : Fin n → Expr (Fin n ⊕ κ)} {B : Fin n ⊕ κ → DItv} {c : κ → ℝ}

/-- The formulas `g` are the partial derivatives of the formula `e` by the unknowns on the box, where they are defined. -/
def IsGradient (e : Expr (Fin n ⊕ κ)) (g : Fin n → Expr (Fin n ⊕ κ)) (B : Fin n ⊕ κ → DItv) (c : κ → ℝ) : Prop :=
  ∀ u ∈ unknowns B, (∀ j, Sum.elim u c ∈ (g j).dom) → HasFDerivWithinAt (fun w : Fin n → ℝ => e.val (Sum.elim w c))
    (∑ j, (g j).val (Sum.elim u c) • ContinuousLinearMap.proj j : (Fin n → ℝ) →L[ℝ] ℝ) (unknowns B) u

/-- The full statement. -/
def C76_full (φ : Fmt) : Prop :=
  ∀ (n : ℕ) (κ : Type) (e : Expr (Fin n ⊕ κ)) (g : Fin n → Expr (Fin n ⊕ κ)) (B : Fin n ⊕ κ → DItv) (R : Itv),
    (∀ i, (B i).Ok φ) → meanValue φ e g B = some R →
    R.Ok φ ∧ ∀ c, ParamsIn B c → IsGradient e g B c → ∀ u ∈ unknowns B, Sum.elim u c ∈ e.dom ∧ e.val (Sum.elim u c) ∈ R.set

theorem meanValue_some {R : Itv} (h : meanValue φ e g B = some R) :
    .defd ≤ (e.evalD φ B).dec ∧ (∀ j, .defd ≤ ((g j).evalD φ B).dec) ∧
    R = ((List.finRange n).foldl (fun s j => φ.addI s (φ.mulI ((g j).evalD φ B).itv (φ.subI (B (.inl j)).itv
      ⟨(B (.inl j)).itv.mid φ, (B (.inl j)).itv.mid φ⟩))) (e.eval φ (pointBox B fun i => (B (.inl i)).itv.mid φ))).inter (e.evalD φ B).itv := by
  unfold meanValue at h
  simp only at h
  split_ifs at h with hk
  exact ⟨hk.1, hk.2, (Option.some.inj h).symm⟩

/-- The mean value theorem in a box. -/
theorem mean76 {f : (Fin n → ℝ) → ℝ} {D : (Fin n → ℝ) → Fin n → ℝ} {S : Set (Fin n → ℝ)} (hS : Convex ℝ S)
    (h : ∀ u ∈ S, HasFDerivWithinAt f (∑ j, D u j • ContinuousLinearMap.proj j : (Fin n → ℝ) →L[ℝ] ℝ) S u) {u v : Fin n → ℝ} (hu : u ∈ S)
    (hv : v ∈ S) : ∃ w ∈ S, f v - f u = ∑ j, D w j * (v j - u j) := by
  cases n with
  | zero => exact ⟨u, hu, by rw [Subsingleton.elim v u]; simp⟩
  | succ n =>
    obtain ⟨M, h1, h2⟩ := mean74 (F := fun u _ => f u) (D := fun u _ => D u) hS (fun u hu i => h u hu) hu hv
    obtain ⟨w, hw, e⟩ := h1 0
    exact ⟨w, hw, by rw [h2 0, e]⟩

/-- The midpoint as an interval. -/
theorem mid_point76 {x : Itv} (hx : x.Ok φ) : (Itv.mk (x.mid φ) (x.mid φ)).Ok φ ∧ (Itv.mk (x.mid φ) (x.mid φ)).set ⊆ x.set ∧
    (x.set.Nonempty → ∃ r : ℝ, r ∈ x.set ∧ (Itv.mk (x.mid φ) (x.mid φ)).set = {r}) := by
  rcases x.set.eq_empty_or_nonempty with h | h
  · rcases hx.cases with rfl | hN
    · exact ⟨hx, subset_rfl, fun h' => absurd h' (by rw [h]; simp)⟩
    · exact absurd hN.nonempty (by rw [h]; simp)
  · obtain ⟨q, e, hq, hm⟩ := C28_member hx h
    have hs : (Itv.mk (.fin q) (.fin q)).set = {(q:ℝ)} := by
      ext z
      simp only [Itv.set, FP.BelowR, FP.AboveR, Set.mem_ofPred_eq, mem_singleton_iff]
      exact ⟨fun h => le_antisymm h.2 h.1, fun h => ⟨h.ge, h.le⟩⟩
    have hv : ValidBounds (.fin q) (.fin q) := ⟨q, by simp [FP.BelowR, FP.AboveR]⟩
    rw [e]
    exact ⟨(hv.NE (φ := φ) hq hq).ok, by rw [hs, singleton_subset_iff]; exact hm, fun _ => ⟨q, hm, hs⟩⟩

theorem pointBox76 (hB : ∀ i, (B i).Ok φ) : (∀ j, (pointBox B (fun i => (B (.inl i)).itv.mid φ) j).Ok φ) ∧
    ∀ j, (pointBox B (fun i => (B (.inl i)).itv.mid φ) j).set ⊆ (B j).itv.set := by
  refine ⟨?_, ?_⟩ <;> rintro (i | k)
  · exact (mid_point76 (hB _).1).1
  · exact (hB _).1
  · exact (mid_point76 (hB _).1).2.1
  · exact subset_rfl

/-- The sum of intervals. -/
theorem fold76 {P : Fin n → Itv} (hP : ∀ j, (P j).Ok φ) (l : List (Fin n)) {A : Itv} (hA : A.Ok φ) :
    (l.foldl (fun s j => φ.addI s (P j)) A).Ok φ ∧ ∀ a ∈ A.set, ∀ p : Fin n → ℝ, (∀ j, p j ∈ (P j).set) →
      a + (l.map p).sum ∈ (l.foldl (fun s j => φ.addI s (P j)) A).set := by
  induction l generalizing A with
  | nil => exact ⟨hA, fun a ha p _ => by simpa using ha⟩
  | cons j l ih =>
    have hT := C01_add φ hA (hP j)
    obtain ⟨h1, h2⟩ := ih hT.1
    refine ⟨h1, fun a ha p hp => ?_⟩
    have := h2 (a + p j) (hT.2.1 ⟨a, ha, p j, hp j, rfl⟩) p hp
    rw [List.map_cons, List.sum_cons, ← add_assoc]
    exact this

/-- **C76** (full statement `C76_full`: without `ht` and `ht'`; false for `double` and the tangent, `C76_false`). -/
theorem C76_mean_value_safe_partial {R : Itv} (ht : e.TanSafeIn φ fun j => (B j).itv) (ht' : ∀ j, (g j).TanSafe φ fun j => (B j).itv)
    (hB : ∀ i, (B i).Ok φ) (h : meanValue φ e g B = some R) :
    R.Ok φ ∧ ∀ c, ParamsIn B c → IsGradient e g B c → ∀ u ∈ unknowns B, Sum.elim u c ∈ e.dom ∧ e.val (Sum.elim u c) ∈ R.set := by
  obtain ⟨k1, k2, rfl⟩ := meanValue_some h
  obtain ⟨hp, hps⟩ := pointBox76 hB
  have fe := C19_ftdia_safe_partial e B hB (ht.self fun j => (hB j).1)
  have fg := fun j => C19_ftdia_safe_partial (g j) B hB (ht' j)
  have fm := C18_ftia_safe_partial e _ hp (ht _ hp hps)
  have om := fun j => mid_point76 (φ := φ) (hB (.inl j)).1
  have oD := fun j => (C01_sub φ (hB (.inl j)).1 (om j).1).1
  have oP := fun j => (C02_mul φ (fg j).1.1 (oD j)).1
  have of := fold76 oP (List.finRange n) fm.1
  have oI := C25_intersection of.1 fe.1.1
  refine ⟨oI.1, fun c hc hj u hu => ?_⟩
  have hd : ∀ u ∈ unknowns B, Sum.elim u c ∈ e.dom := fun u hu => (fe.2.2.2.1 k1).2 _ (elim_mem74 hu hc)
  have hgd : ∀ u ∈ unknowns B, ∀ j, Sum.elim u c ∈ (g j).dom := fun u hu j => ((fg j).2.2.2.1 (k2 j)).2 _ (elim_mem74 hu hc)
  choose r hr hrs using fun j => (om j).2.2 ⟨_, hu j⟩
  have hrU : r ∈ unknowns B := hr
  obtain ⟨w, hw, hmv⟩ := mean76 (convex74 B) (fun u hu => hj u hu (hgd u hu)) hrU hu
  refine ⟨hd u hu, ?_⟩
  rw [oI.2]
  refine ⟨?_, fe.2.2.1 _ (not_ill74 k1) (elim_mem74 hu hc) (hd u hu)⟩
  have h0 := fm.2 (Sum.elim r c) (by
    rintro (i | k)
    · show r i ∈ (Itv.mk _ _).set
      rw [hrs i]; rfl
    · exact hc k) (hd r hrU)
  have := of.2 _ h0 (fun j => (g j).val (Sum.elim w c) * (u j - r j)) fun j =>
    mem_mul73 (fg j).1.1 (oD j) ((fg j).2.2.1 _ (not_ill74 (k2 j)) (elim_mem74 hw hc) (hgd w hw j))
      (mem_sub73 (hB _).1 (om j).1 (hu j) (by rw [hrs j]; rfl))
  rw [← List.ofFn_eq_map, List.sum_ofFn, ← hmv, add_sub_cancel] at this
  exact this

/-- For formulas without the tangent, and for types without bad intervals. -/
theorem C76_mean_value_partial {R : Itv} (ht : NoCritical φ ∨ e.TanFree ∧ ∀ j, (g j).TanFree) (hB : ∀ i, (B i).Ok φ)
    (h : meanValue φ e g B = some R) :
    R.Ok φ ∧ ∀ c, ParamsIn B c → IsGradient e g B c → ∀ u ∈ unknowns B, Sum.elim u c ∈ e.dom ∧ e.val (Sum.elim u c) ∈ R.set :=
  C76_mean_value_safe_partial (e.tanSafeIn (ht.imp_right And.left) _)
    (fun j => (g j).tanSafe (ht.imp_right fun h => h.2 j) fun k => (hB k).1) hB h

/-- The full statement for `float`. -/
theorem C76_binary32 : C76_full binary32 := fun _ _ _ _ _ _ hB h => C76_mean_value_partial (Or.inl noCritical_binary32) hB h

/-- The full statement for `long double`. -/
theorem C76_x87ext : C76_full x87ext := fun _ _ _ _ _ _ hB h => C76_mean_value_partial (Or.inl noCritical_x87ext) hB h

/-! ### Quadratic convergence -/

/-- Bounds from one side. -/
theorem Tightest.side76 {R : Itv} {S : Set ℝ} (h : Tightest φ R S) {σ d b : ℝ} (hσ : σ = 1 ∨ σ = -1) (hS : ∀ z ∈ S, σ * z ≤ d)
    (hb : |d| ≤ b) (hm : b ≤ φ.maxFin) : ∀ v ∈ R.set, σ * v ≤ d + (b + 1) * φ.relUnit := by
  intro v hv
  have e1 := unit_le_rel (φ := φ) hb
  rcases hσ with rfl | rfl
  · have l := h.le (φ.rep_roundQ (φ.roundQ_le_maxFin (m := .U) (hb.trans hm)))
      (fun z hz => le_trans (by have := hS z hz; linarith) (φ.roundQ_U_ge d)) v hv
    have u := roundQ_U_lt (φ := φ) d
    linarith
  · have e2 := unit_le_rel (φ := φ) (m := -d) (B := b) (by rwa [abs_neg])
    have l := h.ge (φ.rep_roundQ (φ.roundQ_le_maxFin (m := .D) ((abs_neg d).symm ▸ hb.trans hm)))
      (fun z hz => (φ.roundQ_D_le (-d)).trans (by have := hS z hz; linarith)) v hv
    have u := roundQ_D_gt (φ := φ) (-d)
    linarith

theorem fold_side76 {P : Fin n → Itv} (hP : ∀ j, (P j).Ok φ) {σ b L : ℝ} (hσ : σ = 1 ∨ σ = -1) {p : Fin n → ℝ}
    (hp : ∀ j, ∀ v ∈ (P j).set, σ * v ≤ p j) (hL : ∀ j, |p j| ≤ L) (hm : b ≤ φ.maxFin) (hε : (b + 1) * φ.relUnit ≤ 1) (hb0 : 0 ≤ b)
    (l : List (Fin n)) {A : Itv} {d : ℝ} (hA : A.Ok φ) (hd : ∀ v ∈ A.set, σ * v ≤ d) (hb : |d| + l.length * (L + 1) ≤ b) :
    ∀ v ∈ (l.foldl (fun s j => φ.addI s (P j)) A).set, σ * v ≤ d + (l.map p).sum + l.length * ((b + 1) * φ.relUnit) := by
  induction l generalizing A d with
  | nil => intro v hv; simpa using hd v hv
  | cons j l ih =>
    intro v hv
    have hT := C01_add φ hA (hP j)
    have hL0 : 0 ≤ L := (abs_nonneg _).trans (hL j)
    have hl0 : 0 ≤ (l.length : ℝ) * (L + 1) := mul_nonneg (Nat.cast_nonneg _) (by linarith)
    simp only [List.length_cons, Nat.cast_add, Nat.cast_one] at hb ⊢
    have hur : 0 ≤ (b + 1) * φ.relUnit := mul_nonneg (by linarith) relUnit_pos.le
    have hdp : |d + p j| ≤ |d| + L := (abs_add_le _ _).trans (by linarith [hL j])
    have h1 := hT.side76 hσ (d := d + p j) (b := b) (by
      rintro z ⟨x, hx, y, hy, rfl⟩
      have := hd x hx
      have := hp j y hy
      linarith) (by linarith) hm
    have h2 : |d + p j + (b + 1) * φ.relUnit| ≤ |d| + L + 1 := (abs_add_le _ _).trans (by rw [abs_of_nonneg hur]; linarith)
    have := ih hT.1 h1 (by linarith) v hv
    rw [List.map_cons, List.sum_cons]
    linarith

/-- One term of the sum: `x` is a box about `m` of width `δ`, `γ` is near `G`. -/
theorem term76 {x y D : Itv} {m G δ κ' b σ : ℝ} (hσ : σ = 1 ∨ σ = -1) (hy : y.Ok φ) (hD : Tightest φ D {z | ∃ a ∈ x.set, z = a - m})
    (hxc : ∃ lo hi : ℝ, lo ≤ hi ∧ x.set = Icc lo hi) (hm : m ∈ x.set) (hδ : ∀ a ∈ x.set, ∀ a' ∈ x.set, |a - a'| ≤ δ) (hδ1 : δ ≤ 1)
    (hG : ∀ v ∈ y.set, |v - G| ≤ κ') (hκ : 0 ≤ κ')
    (hb : |G| * δ + (2 * |G| * φ.relUnit + κ' * (δ + 2 * φ.relUnit)) ≤ b) (hM : b ≤ φ.maxFin) (hM1 : 1 ≤ (φ.maxFin : ℝ)) :
    ∃ u ∈ x.set, ∀ v ∈ (φ.mulI y D).set,
      σ * v ≤ σ * (G * (u - m)) + (2 * |G| * φ.relUnit + κ' * (δ + 2 * φ.relUnit)) + (b + 1) * φ.relUnit := by
  obtain ⟨lo, hi, hle, hs⟩ := hxc
  have hlo : lo ∈ x.set := by rw [hs]; exact ⟨le_rfl, hle⟩
  have hhi : hi ∈ x.set := by rw [hs]; exact ⟨hle, le_rfl⟩
  have hur := relUnit_pos (φ := φ)
  have hδ0 : 0 ≤ δ := (abs_nonneg _).trans (hδ lo hlo hi hhi)
  have b1 := abs_le.mp (hδ hi hhi m hm)
  have b2 := abs_le.mp (hδ m hm lo hlo)
  have d1 : ∀ d ∈ D.set, d ≤ hi - m + 2 * φ.relUnit := fun d hd => by
    have := hD.side76 (σ := 1) (.inl rfl) (d := hi - m) (b := 1) (by
      rintro z ⟨a, ha, rfl⟩
      rw [hs] at ha
      linarith [ha.2]) (abs_le.mpr ⟨by linarith, by linarith⟩) hM1 d hd
    linarith
  have d2 : ∀ d ∈ D.set, lo - m - 2 * φ.relUnit ≤ d := fun d hd => by
    have := hD.side76 (σ := -1) (.inr rfl) (d := m - lo) (b := 1) (by
      rintro z ⟨a, ha, rfl⟩
      rw [hs] at ha
      linarith [ha.1]) (abs_le.mpr ⟨by linarith, by linarith⟩) hM1 d hd
    linarith
  have d3 : ∀ d ∈ D.set, |d| ≤ δ + 2 * φ.relUnit := fun d hd => abs_le.mpr ⟨by have := d2 d hd; linarith, by have := d1 d hd; linarith⟩
  have hσa : |σ| = 1 := by rcases hσ with rfl | rfl <;> simp
  -- the better end point
  obtain ⟨u, hu, hmax⟩ : ∃ u ∈ x.set, ∀ d ∈ D.set, σ * (G * d) ≤ σ * (G * (u - m)) + 2 * |G| * φ.relUnit := by
    have hgs : |σ * G| = |G| := by rw [abs_mul, hσa, one_mul]
    rcases le_total 0 (σ * G) with h0 | h0
    · refine ⟨hi, hhi, fun d hd => ?_⟩
      have := mul_le_mul_of_nonneg_left (d1 d hd) h0
      rw [abs_of_nonneg h0] at hgs
      rw [← hgs]
      linarith
    · refine ⟨lo, hlo, fun d hd => ?_⟩
      have := mul_le_mul_of_nonpos_left (d2 d hd) h0
      rw [abs_of_nonpos h0] at hgs
      rw [← hgs]
      linarith
  refine ⟨u, hu, (C02_mul φ hy hD.1).side76 hσ ?_ ?_ hM⟩
  · rintro z ⟨γ, hγ, d, hd, rfl⟩
    have h1 : σ * ((γ - G) * d) ≤ κ' * (δ + 2 * φ.relUnit) := by
      refine (le_abs_self _).trans ?_
      rw [abs_mul, hσa, one_mul, abs_mul]
      exact mul_le_mul (hG γ hγ) (d3 d hd) (abs_nonneg _) hκ
    have h2 := hmax d hd
    have h3 : σ * (γ * d) = σ * (G * d) + σ * ((γ - G) * d) := by ring
    linarith
  · refine le_trans ((abs_add_le _ _).trans (add_le_add ?_ ?_)) hb
    · rw [abs_mul, hσa, one_mul, abs_mul]
      exact mul_le_mul_of_nonneg_left (hδ u hu m hm) (abs_nonneg _)
    · rw [abs_of_nonneg (add_nonneg (by have := abs_nonneg G; nlinarith) (mul_nonneg hκ (by linarith)))]

theorem com_Icc76 {x : DItv} (hx : x.Ok φ) (hc : x.dec = .com) : ∃ lo hi : ℝ, lo ≤ hi ∧ x.itv.set = Icc lo hi := by
  obtain ⟨a, b, h, e⟩ : ∃ a b : ℝ, a ≤ b ∧ x.set = Icc a b := by
    refine common_Icc hx.1 ?_
    rcases hx.1.cases with h | hN
    · have := hx.com_nonempty hc
      rw [DItv.set, h] at this
      simp [Itv.set_empty] at this
    · have := hN.bounded_iff.mp (hx.com_bounded hc)
      exact (NE.common_iff hN).mpr ⟨by rw [Ne, FP.toE_eq_bot]; exact this.1, by rw [Ne, FP.toE_eq_top]; exact this.2⟩
  exact ⟨a, b, h, e⟩

set_option maxHeartbeats 1600000 in
/-- **On small boxes the mean value form is wider than the range by at most a multiple of the square of the width**, of the tolerance `τ` of
the parameters and of the rounding unit: near a point at which the formulas are tame, its ends are that close to values of the formula. -/
theorem C76_quadratic {t : Fin n → ℝ} (he : e.TameAt (Sum.elim t c)) (hg : ∀ j, (g j).TameAt (Sum.elim t c)) :
    ∃ K r M : ℝ, 0 < r ∧ ∀ φ : Fmt, φ.relUnit ≤ r → M ≤ φ.maxFin → ∀ B : Fin n ⊕ κ → DItv, (∀ i, (B i).Ok φ) → (∀ i, (B i).dec = .com) →
      ∀ δ τ : ℝ, 0 ≤ δ → δ ≤ r → 0 ≤ τ → τ ≤ r → (∀ i, ∀ a ∈ (B (.inl i)).set, |a - t i| ≤ r) →
      (∀ i, ∀ a ∈ (B (.inl i)).set, ∀ a' ∈ (B (.inl i)).set, |a - a'| ≤ δ) → (∀ k, ∀ a ∈ (B (.inr k)).set, |a - c k| ≤ τ) →
      (∀ u ∈ unknowns B, HasFDerivWithinAt (fun w : Fin n → ℝ => e.val (Sum.elim w c))
        (∑ j, (g j).val (Sum.elim u c) • ContinuousLinearMap.proj j : (Fin n → ℝ) →L[ℝ] ℝ) (unknowns B) u) →
      ∃ R, meanValue φ e g B = some R ∧ ∀ v ∈ R.set,
        (∃ u ∈ unknowns B, e.val (Sum.elim u c) - K * (δ ^ 2 + τ + φ.relUnit) ≤ v) ∧
        ∃ u ∈ unknowns B, v ≤ e.val (Sum.elim u c) + K * (δ ^ 2 + τ + φ.relUnit) := by
  obtain ⟨K0, r0, M0, hK0, hr0, hN0⟩ := narrow e he
  obtain ⟨r2, M2, hr2, hC0⟩ := comNear e he
  choose Kg rg Mg hKg hrg hNg using fun j => narrow (g j) (hg j)
  choose rc Mc hrc hCg using fun j => comNear (g j) (hg j)
  have small : ∀ f : Fin n → ℝ, (∀ i, 0 < f i) → ∃ x > 0, ∀ i, x ≤ f i := fun f hf => by
    obtain hE | hE := isEmpty_or_nonempty (Fin n)
    · exact ⟨1, one_pos, fun i => hE.elim i⟩
    · obtain ⟨i, hi⟩ := Finite.exists_min f
      exact ⟨f i, hf i, hi⟩
  have big : ∀ (f : Fin n → ℝ) i, f i ≤ ∑ i, |f i| := fun f i =>
    (le_abs_self _).trans (Finset.single_le_sum (f := fun i => |f i|) (fun j _ => abs_nonneg _) (Finset.mem_univ i))
  obtain ⟨r1, hr1, hr1'⟩ := small rg hrg
  obtain ⟨r3, hr3, hr3'⟩ := small rc hrc
  set K1 := ∑ j, |Kg j| with hK1
  have hK10 : 0 ≤ K1 := Finset.sum_nonneg fun _ _ => abs_nonneg _
  set M1 := ∑ j, |Mg j|
  set M3 := ∑ j, |Mc j|
  have hN1 : ∀ j, (g j).NarrowWith (Sum.elim t c) K1 r1 M1 := fun j => (hNg j).mono (big Kg j) (hr1' j) (big Mg j)
  set G := ∑ j, |(g j).val (Sum.elim t c)| + K1 with hG
  have hG0 : 0 ≤ G := add_nonneg (Finset.sum_nonneg fun _ _ => abs_nonneg _) hK10
  set E := |e.val (Sum.elim t c)| + K0 with hE
  have hE0 : 0 ≤ E := by positivity
  set L := G + (2 * G + 4 * K1) * 2 with hL
  have hL0 : 0 ≤ L := by positivity
  set b := E + 2 * K0 + n * (2 * L + 1 + 1) with hb
  have hb0 : 0 ≤ b := by positivity
  obtain ⟨r, hr, q0, q1, q2, q3, q4, q5⟩ : ∃ r : ℝ, 0 < r ∧ r ≤ 1 / 2 ∧ 3 * r ≤ r0 ∧ 3 * r ≤ r1 ∧ r ≤ r2 ∧ r ≤ r3 ∧ (b + 1) * r ≤ 1 := by
    refine ⟨min (min (1 / 2) (1 / (b + 1))) (min (min (r0 / 3) (r1 / 3)) (min r2 r3)), by positivity, ?_⟩
    set x := min (min (1 / 2) (1 / (b + 1))) (min (min (r0 / 3) (r1 / 3)) (min r2 r3))
    have a1 : x ≤ min (1 / 2) (1 / (b + 1)) := min_le_left _ _
    have a2 : x ≤ min (min (r0 / 3) (r1 / 3)) (min r2 r3) := min_le_right _ _
    have a3 := a2.trans (min_le_left _ _)
    have a4 := a2.trans (min_le_right _ _)
    have a5 := a1.trans (min_le_right _ _)
    rw [le_div_iff₀ (by linarith)] at a5
    refine ⟨a1.trans (min_le_left _ _), ?_, ?_, a4.trans (min_le_left _ _), a4.trans (min_le_right _ _), by linarith⟩
    · linarith [a3.trans (min_le_left _ _)]
    · linarith [a3.trans (min_le_right _ _)]
  refine ⟨n * (5 * K1 + 2 * G + (L + 1) + (b + 1)) + K0, r, max (max (max M0 M1) (max M2 M3)) (max b (max L 1)), hr,
    fun φ hε hM B hB hBc δ τ hδ0 hδ hτ0 hτ hBt hBδ hBτ hj => ?_⟩
  have hur := relUnit_pos (φ := φ)
  have mM0 : M0 ≤ φ.maxFin := ((le_max_left _ _).trans ((le_max_left _ _).trans (le_max_left _ _))).trans hM
  have mM1 : M1 ≤ φ.maxFin := ((le_max_right _ _).trans ((le_max_left _ _).trans (le_max_left _ _))).trans hM
  have mM2 : M2 ≤ φ.maxFin := ((le_max_left _ _).trans ((le_max_right _ _).trans (le_max_left _ _))).trans hM
  have mM3 : M3 ≤ φ.maxFin := ((le_max_right _ _).trans ((le_max_right _ _).trans (le_max_left _ _))).trans hM
  have mMb : b ≤ φ.maxFin := ((le_max_left _ _).trans (le_max_right _ _)).trans hM
  have mML : L ≤ φ.maxFin := ((le_max_left _ _).trans ((le_max_right _ _).trans (le_max_right _ _))).trans hM
  have mM4 : (1:ℝ) ≤ φ.maxFin := ((le_max_right _ _).trans ((le_max_right _ _).trans (le_max_right _ _))).trans hM
  set ε := φ.relUnit with hεd
  set ω := δ ^ 2 + τ + ε with hω
  have hω0 : 0 < ω := by positivity
  have hεω : ε ≤ ω := by have := sq_nonneg δ; linarith
  have hτω : τ + ε ≤ ω := by have := sq_nonneg δ; linarith
  have hδω : δ * δ ≤ ω := by rw [← sq]; linarith
  have hω2 : ω ≤ 2 := by
    have : δ ^ 2 ≤ 1 := pow_le_one₀ hδ0 (by linarith)
    linarith
  -- the decorations
  have hBr : ∀ i, ∀ a ∈ (B i).set, |a - Sum.elim t c i| ≤ r := by
    rintro (i | k) a ha
    · exact hBt i a ha
    · exact (hBτ k a ha).trans hτ
  obtain ⟨c1, c2⟩ := hC0 φ (hε.trans q3) mM2 B hB hBc fun i a ha => (hBr i a ha).trans q3
  have cg := fun j => hCg j φ (hε.trans (q4.trans (hr3' j))) ((big Mc j).trans mM3) B hB hBc fun i a ha => (hBr i a ha).trans (q4.trans (hr3' j))
  have hsome : meanValue φ e g B = some (((List.finRange n).foldl (fun s j => φ.addI s (φ.mulI ((g j).evalD φ B).itv (φ.subI (B (.inl j)).itv
      ⟨(B (.inl j)).itv.mid φ, (B (.inl j)).itv.mid φ⟩))) (e.eval φ (pointBox B fun i => (B (.inl i)).itv.mid φ))).inter (e.evalD φ B).itv) := by
    unfold meanValue
    simp only
    rw [if_pos ⟨by rw [c2]; decide, fun j => by rw [(cg j).2]; decide⟩]
  refine ⟨_, hsome, fun v hv => ?_⟩
  -- the midpoint
  obtain ⟨hp, hps⟩ := pointBox76 hB
  have om := fun j => mid_point76 (φ := φ) (hB (.inl j)).1
  choose m hm hms using fun j => (om j).2.2 ((hB (.inl j)).com_nonempty (hBc _))
  have hmU : m ∈ unknowns B := hm
  have near : ∀ u ∈ unknowns B, ∀ i, |Sum.elim u c i - Sum.elim t c i| ≤ r := by
    rintro u hu (i | k)
    · exact hBt i _ (hu i)
    · simp [hr.le]
  have hgv : ∀ j, ∀ u ∈ unknowns B, |(g j).val (Sum.elim u c)| ≤ G := fun j u hu => by
    have h1 := (hN1 j).1 (Sum.elim u c) (Sum.elim t c) r (fun i => (near u hu i).trans (by linarith)) (fun i => by simpa using hr1.le)
      (near u hu) hr.le
    have h2 : K1 * r ≤ K1 := mul_le_of_le_one_right hK10 (by linarith)
    have h3 := big (fun j => (g j).val (Sum.elim t c)) j
    have h4 : |(g j).val (Sum.elim t c)| ≤ ∑ j, |(g j).val (Sum.elim t c)| :=
      Finset.single_le_sum (f := fun j => |(g j).val (Sum.elim t c)|) (fun j _ => abs_nonneg _) (Finset.mem_univ j)
    have h5 := abs_le.mp h1
    have h6 := abs_le.mp h4
    rw [abs_le]; constructor <;> linarith
  have hev : |e.val (Sum.elim m c)| ≤ E := by
    have h1 := hN0.1 (Sum.elim m c) (Sum.elim t c) r (fun i => (near m hmU i).trans (by linarith)) (fun i => by simpa using hr0.le)
      (near m hmU) hr.le
    have h2 : K0 * r ≤ K0 := mul_le_of_le_one_right hK0 (by linarith)
    have h5 := abs_le.mp h1
    have h6 := abs_le.mp (le_refl |e.val (Sum.elim t c)|)
    rw [abs_le]; constructor <;> linarith
  -- the first summand
  have oA := hN0.2 φ mM0 _ hp (Sum.elim m c) (fun i => (near m hmU i).trans (by linarith)) τ hτ0 (by linarith) (by
    rintro (i | k) a ha
    · have : a ∈ (Itv.mk ((B (.inl i)).itv.mid φ) ((B (.inl i)).itv.mid φ)).set := ha
      rw [hms i, mem_singleton_iff] at this
      simp [this, hτ0]
    · exact hBτ k a ha)
  -- the derivatives
  have oG := fun j => (hN1 j).2 φ mM1 (fun i => (B i).itv) (fun i => (hB i).1) (Sum.elim m c) (fun i => (near m hmU i).trans (by linarith)) (δ + τ)
    (by linarith) (by linarith) (by
      rintro (i | k) a ha
      · exact (hBδ i a ha _ (hm i)).trans (by linarith)
      · exact (hBτ k a ha).trans (by linarith))
  have oG' : ∀ j, ((g j).evalD φ B).itv.Ok φ ∧ ∀ v ∈ ((g j).evalD φ B).itv.set, |v - (g j).val (Sum.elim m c)| ≤ K1 * (δ + τ + ε) := fun j => by
    rw [(cg j).1]; exact oG j
  have oD : ∀ j, Tightest φ (φ.subI (B (.inl j)).itv ⟨(B (.inl j)).itv.mid φ, (B (.inl j)).itv.mid φ⟩)
      {z | ∃ a ∈ (B (.inl j)).itv.set, z = a - m j} := fun j => by
    have := C01_sub φ (hB (.inl j)).1 (om j).1
    rw [hms j] at this
    convert this using 1
    ext z
    simp
  have oP := fun j => (C02_mul φ (oG' j).1 (oD j).1).1
  have hR := C25_intersection (fold76 oP (List.finRange n) oA.1).1 (evalD_ok62 e hB).1
  rw [hR.2] at hv
  -- one side
  have side : ∀ σ : ℝ, σ = 1 ∨ σ = -1 → ∃ u ∈ unknowns B,
      σ * v ≤ σ * e.val (Sum.elim u c) + (n * (5 * K1 + 2 * G + (L + 1) + (b + 1)) + K0) * ω := by
    intro σ hσ
    have hσa : |σ| = 1 := by rcases hσ with rfl | rfl <;> simp
    have hprod : (δ + τ + ε) * (δ + 2 * ε) ≤ 4 * ω := by
      have e1 : δ * ε ≤ 1 / 2 * ε := mul_le_mul_of_nonneg_right (by linarith) hur.le
      have e2 : δ * τ ≤ 1 / 2 * τ := mul_le_mul_of_nonneg_right (by linarith) hτ0
      have e3 : τ * ε ≤ 1 / 2 * ε := mul_le_mul_of_nonneg_right (by linarith) hur.le
      have e4 : ε * ε ≤ 1 / 2 * ε := mul_le_mul_of_nonneg_right (by linarith) hur.le
      have e5 : (δ + τ + ε) * (δ + 2 * ε) = δ ^ 2 + 3 * (δ * ε) + δ * τ + 2 * (τ * ε) + 2 * (ε * ε) := by ring
      have e6 := sq_nonneg δ
      rw [e5]
      linarith
    have hterm : ∀ j, 2 * |(g j).val (Sum.elim m c)| * ε + K1 * (δ + τ + ε) * (δ + 2 * ε) ≤ (2 * G + 4 * K1) * ω := fun j => by
      have h1 := mul_le_mul_of_nonneg_left hprod hK10
      have h2 : |(g j).val (Sum.elim m c)| * ε ≤ G * ω := mul_le_mul (hgv j m hmU) hεω hur.le hG0
      linarith
    have hLb : ∀ j, |(g j).val (Sum.elim m c)| * δ + (2 * |(g j).val (Sum.elim m c)| * ε + K1 * (δ + τ + ε) * (δ + 2 * ε)) ≤ L := fun j => by
      have h1 : |(g j).val (Sum.elim m c)| * δ ≤ G * 1 := mul_le_mul (hgv j m hmU) (by linarith) hδ0 hG0
      have h2 : (2 * G + 4 * K1) * ω ≤ (2 * G + 4 * K1) * 2 := mul_le_mul_of_nonneg_left hω2 (by positivity)
      have := hterm j
      linarith
    choose u hu hmax using fun j => term76 (φ := φ) hσ (oG' j).1 (oD j) (com_Icc76 (hB (.inl j)) (hBc _)) (hm j) (hBδ j) (by linarith)
      (oG' j).2 (by positivity) (hLb j) mML mM4
    have hu' : u ∈ unknowns B := hu
    refine ⟨u, hu', ?_⟩
    have hLε : (L + 1) * ε ≤ L + 1 := mul_le_of_le_one_right (by linarith) (by linarith)
    have hpL : ∀ j, |σ * ((g j).val (Sum.elim m c) * (u j - m j)) + (2 * |(g j).val (Sum.elim m c)| * ε + K1 * (δ + τ + ε) * (δ + 2 * ε))
        + (L + 1) * ε| ≤ 2 * L + 1 := fun j => by
      have h1 : |σ * ((g j).val (Sum.elim m c) * (u j - m j))| ≤ |(g j).val (Sum.elim m c)| * δ := by
        rw [abs_mul, hσa, one_mul, abs_mul]
        exact mul_le_mul_of_nonneg_left (hBδ j _ (hu j) _ (hm j)) (abs_nonneg _)
      have h2 := hLb j
      have h3 : 0 ≤ 2 * |(g j).val (Sum.elim m c)| * ε + K1 * (δ + τ + ε) * (δ + 2 * ε) := by positivity
      have h4 : 0 ≤ (L + 1) * ε := by positivity
      have h5 := abs_le.mp h1
      rw [abs_le]; constructor <;> linarith
    have hd0 : ∀ v ∈ (e.eval φ (pointBox B fun i => (B (.inl i)).itv.mid φ)).set, σ * v ≤ σ * e.val (Sum.elim m c) + K0 * ω := fun v hv => by
      have h1 := oA.2 v hv
      have h2 : K0 * (τ + ε) ≤ K0 * ω := mul_le_mul_of_nonneg_left hτω hK0
      have h3 : σ * (v - e.val (Sum.elim m c)) ≤ |v - e.val (Sum.elim m c)| := by
        refine (le_abs_self _).trans ?_
        rw [abs_mul, hσa, one_mul]
      linarith
    have hdb : |σ * e.val (Sum.elim m c) + K0 * ω| + ((List.finRange n).length : ℝ) * (2 * L + 1 + 1) ≤ b := by
      have h1 : |σ * e.val (Sum.elim m c) + K0 * ω| ≤ E + 2 * K0 := by
        refine (abs_add_le _ _).trans ?_
        rw [abs_mul, hσa, one_mul, abs_of_nonneg (mul_nonneg hK0 hω0.le)]
        have : K0 * ω ≤ K0 * 2 := mul_le_mul_of_nonneg_left hω2 hK0
        linarith
      rw [List.length_finRange]
      linarith
    have hfold := fold_side76 oP hσ hmax hpL mMb ((mul_le_mul_of_nonneg_left hε (by linarith)).trans q5) hb0 (List.finRange n) oA.1 hd0 hdb v hv.1
    rw [← List.ofFn_eq_map, List.sum_ofFn, List.length_finRange] at hfold
    -- the value at `u`
    obtain ⟨w, hw, hmv⟩ := mean76 (convex74 B) hj hmU hu'
    have hgw : ∀ j, σ * ((g j).val (Sum.elim m c) * (u j - m j)) ≤ σ * ((g j).val (Sum.elim w c) * (u j - m j)) + K1 * ω := fun j => by
      have h1 := (hN1 j).1 (Sum.elim m c) (Sum.elim w c) δ (fun i => (near m hmU i).trans (by linarith)) (fun i => (near w hw i).trans (by linarith))
        (by
          rintro (i | k)
          · exact hBδ i _ (hm i) _ (hw i)
          · simpa using hδ0) hδ0
      have h2 : |σ * (((g j).val (Sum.elim m c) - (g j).val (Sum.elim w c)) * (u j - m j))| ≤ K1 * δ * δ := by
        rw [abs_mul, hσa, one_mul, abs_mul]
        exact mul_le_mul h1 (hBδ j _ (hu j) _ (hm j)) (abs_nonneg _) (by positivity)
      have h3 : K1 * δ * δ ≤ K1 * ω := by rw [mul_assoc]; exact mul_le_mul_of_nonneg_left hδω hK10
      have h4 := (le_abs_self _).trans (h2.trans h3)
      rw [sub_mul, mul_sub] at h4
      exact sub_le_iff_le_add'.mp h4
    have hsum : ∑ j, (σ * ((g j).val (Sum.elim m c) * (u j - m j)) + (2 * |(g j).val (Sum.elim m c)| * ε + K1 * (δ + τ + ε) * (δ + 2 * ε))
        + (L + 1) * ε) ≤ ∑ j, (σ * ((g j).val (Sum.elim w c) * (u j - m j)) + (5 * K1 + 2 * G + (L + 1)) * ω) := by
      refine Finset.sum_le_sum fun j _ => ?_
      have h1 := hgw j
      have h2 := hterm j
      have h3 : (L + 1) * ε ≤ (L + 1) * ω := mul_le_mul_of_nonneg_left hεω (by linarith)
      linarith
    have hs2 : ∑ j, (σ * ((g j).val (Sum.elim w c) * (u j - m j)) + (5 * K1 + 2 * G + (L + 1)) * ω) =
        σ * (e.val (Sum.elim u c) - e.val (Sum.elim m c)) + n * ((5 * K1 + 2 * G + (L + 1)) * ω) := by
      rw [Finset.sum_add_distrib, ← Finset.mul_sum, ← hmv, Finset.sum_const, Finset.card_univ, Fintype.card_fin, nsmul_eq_mul]
    rw [hs2] at hsum
    have h6 : (n:ℝ) * ((b + 1) * ε) ≤ n * ((b + 1) * ω) :=
      mul_le_mul_of_nonneg_left (mul_le_mul_of_nonneg_left hεω (by linarith)) (Nat.cast_nonneg n)
    have h7 : (n * (5 * K1 + 2 * G + (L + 1) + (b + 1)) + K0) * ω = n * ((5 * K1 + 2 * G + (L + 1)) * ω) + n * ((b + 1) * ω) + K0 * ω := by ring
    rw [mul_sub] at hsum
    rw [h7]
    clear * - hfold hsum h6
    linarith
  obtain ⟨u, hu, h1⟩ := side 1 (.inl rfl)
  obtain ⟨u', hu', h2⟩ := side (-1) (.inr rfl)
  exact ⟨⟨u', hu', by linarith⟩, u, hu, by linarith⟩

end P1788
