import Verif.Lemmas.Ops
import Verif.Props.C25

/-! # C41: algebraic laws (equalities and inclusions of the denoted sets) -/

namespace P1788
variable {φ : Fmt} {x y z : Itv}

/-- The point interval of a number of the format. -/
theorem point_ok {q : ℚ} (h : (FP.fin q).In φ) : (Itv.mk (.fin q) (.fin q)).Ok φ :=
  Or.inr ⟨by simp [FP.le_def, FP.leb], by simp, by simp, h, h⟩

theorem point_set (q : ℚ) : (Itv.mk (.fin q) (.fin q)).set = {(q:ℝ)} := by
  ext r
  simp only [Itv.set, FP.BelowR, FP.AboveR, Set.mem_ofPred_eq, Set.mem_singleton_iff]
  exact ⟨fun h => le_antisymm h.2 h.1, fun h => ⟨h.ge, h.le⟩⟩

theorem tight_self (hx : x.Ok φ) : Tightest φ x x.set := ⟨hx, le_rfl, fun _ _ h => h⟩

theorem zero_in (φ : Fmt) : (FP.fin 0).In φ := φ.rep_zero
theorem one_in (φ : Fmt) : (FP.fin 1).In φ := rep_one φ

/-- `add` is commutative and `[0,0]` is its neutral element. -/
theorem C41_add_comm (hx : x.Ok φ) (hy : y.Ok φ) : (φ.addI x y).set = (φ.addI y x).set := by
  refine (C01_add φ hx hy).set_unique ((C01_add φ hy hx).of_eq' ?_)
  ext r; constructor
  · rintro ⟨a, ha, b, hb, rfl⟩; exact ⟨b, hb, a, ha, add_comm _ _⟩
  · rintro ⟨a, ha, b, hb, rfl⟩; exact ⟨b, hb, a, ha, add_comm _ _⟩

theorem C41_add_zero (hx : x.Ok φ) : (φ.addI x ⟨.fin 0, .fin 0⟩).set = x.set := by
  refine (C01_add φ hx (point_ok (zero_in φ))).set_unique ((tight_self hx).of_eq' ?_)
  rw [point_set]; ext r; simp

/-- `mul` is commutative, `[1,1]` is its neutral element and `[0,0]` is absorbing. -/
theorem C41_mul_comm (hx : x.Ok φ) (hy : y.Ok φ) : (φ.mulI x y).set = (φ.mulI y x).set := by
  refine (C02_mul φ hx hy).set_unique ((C02_mul φ hy hx).of_eq' ?_)
  ext r; constructor
  · rintro ⟨a, ha, b, hb, rfl⟩; exact ⟨b, hb, a, ha, mul_comm _ _⟩
  · rintro ⟨a, ha, b, hb, rfl⟩; exact ⟨b, hb, a, ha, mul_comm _ _⟩

theorem C41_mul_one (hx : x.Ok φ) : (φ.mulI x ⟨.fin 1, .fin 1⟩).set = x.set := by
  refine (C02_mul φ hx (point_ok (one_in φ))).set_unique ((tight_self hx).of_eq' ?_)
  rw [point_set]; ext r; simp

theorem C41_mul_zero (hx : x.Ok φ) (hne : x.set.Nonempty) : (φ.mulI x ⟨.fin 0, .fin 0⟩).set = {0} := by
  have h0 := point_ok (zero_in φ)
  refine ((C02_mul φ hx h0).set_unique ((tight_self h0).of_eq' ?_)).trans (by rw [point_set]; simp)
  rw [point_set]; ext r
  obtain ⟨a, ha⟩ := hne
  simp only [Set.mem_singleton_iff, Set.mem_ofPred_eq]
  constructor
  · rintro ⟨b, -, c, rfl, rfl⟩; simp
  · rintro rfl; exact ⟨a, ha, _, rfl, by simp⟩

/-- `neg` is an involution and `sub(x, y) = add(x, neg(y))`. -/
theorem C41_neg_neg (hx : x.Ok φ) : (Fmt.negI (Fmt.negI x)).set = x.set := by
  obtain ⟨h1, h2⟩ := C04_neg φ hx
  rw [(C04_neg φ h1.1).2, h2]
  ext r; constructor
  · rintro ⟨a, ⟨b, hb, rfl⟩, rfl⟩; simpa using hb
  · intro h; exact ⟨-r, ⟨r, h, rfl⟩, by simp⟩

theorem C41_sub_eq_add_neg (hx : x.Ok φ) (hy : y.Ok φ) : (φ.subI x y).set = (φ.addI x (Fmt.negI y)).set := by
  obtain ⟨h1, h2⟩ := C04_neg φ hy
  refine (C01_sub φ hx hy).set_unique ((C01_add φ hx h1.1).of_eq' ?_)
  rw [h2]
  ext r; constructor
  · rintro ⟨a, ha, b, hb, rfl⟩; exact ⟨a, ha, -b, ⟨b, hb, rfl⟩, sub_eq_add_neg _ _⟩
  · rintro ⟨a, ha, _, ⟨b, hb, rfl⟩, rfl⟩; exact ⟨a, ha, b, hb, (sub_eq_add_neg _ _).symm⟩

/-- `sqr(x)` is contained in `mul(x, x)` and equals `pown(x, 2)`. -/
theorem C41_sqr_subset_mul (hx : x.Ok φ) : (φ.sqrI x).set ⊆ (φ.mulI x x).set := by
  refine (C04_sqr φ hx).2.2 _ (C02_mul φ hx hx).1 fun r hr => (C02_mul φ hx hx).2.1 ?_
  obtain ⟨a, ha, rfl⟩ := hr
  exact ⟨a, ha, a, ha, by ring⟩

theorem C41_pown_two (hx : x.Ok φ) : (φ.pownI x 2).set = (φ.sqrI x).set := by
  refine (C07_pown φ hx 2).set_unique ((C04_sqr φ hx).of_eq' ?_)
  ext r; constructor
  · rintro ⟨a, ⟨ha, -⟩, rfl⟩; exact ⟨a, ha, by norm_cast⟩
  · rintro ⟨a, ha, rfl⟩; exact ⟨a, ⟨ha, by simp⟩, by norm_cast⟩

theorem C41_pown_one (hx : x.Ok φ) : (φ.pownI x 1).set = x.set := by
  refine (C07_pown φ hx 1).set_unique ((tight_self hx).of_eq' ?_)
  ext r; constructor
  · rintro ⟨a, ⟨ha, -⟩, rfl⟩; simpa using ha
  · intro h; exact ⟨r, ⟨h, by simp⟩, by simp⟩

/-- `recip(x) = div([1,1], x) = pown(x, -1)`. -/
theorem C41_recip_eq_div (hx : x.Ok φ) : (φ.recipI x).set = (φ.divI ⟨.fin 1, .fin 1⟩ x).set := by
  refine (C03_recip φ hx).set_unique ((C03_div φ (point_ok (one_in φ)) hx).of_eq' ?_)
  rw [point_set]; ext r
  simp

theorem C41_recip_eq_pown (hx : x.Ok φ) : (φ.recipI x).set = (φ.pownI x (-1)).set := by
  refine (C03_recip φ hx).set_unique ((C07_pown φ hx (-1)).of_eq' ?_)
  ext r; constructor
  · rintro ⟨a, ha, h0, rfl⟩; exact ⟨a, ⟨ha, fun _ => h0⟩, by simp⟩
  · rintro ⟨a, ⟨ha, h0⟩, rfl⟩; exact ⟨a, ha, h0 (by norm_num), by simp⟩

/-- `fma(x, y, [0,0]) = mul(x, y)` and `fma(x, [1,1], y) = add(x, y)`. -/
theorem C41_fma_zero (hx : x.Ok φ) (hy : y.Ok φ) : (φ.fmaI x y ⟨.fin 0, .fin 0⟩).set = (φ.mulI x y).set := by
  refine (C06_fma φ hx hy (point_ok (zero_in φ))).set_unique ((C02_mul φ hx hy).of_eq' ?_)
  rw [point_set]; ext r; simp

theorem C41_fma_one (hx : x.Ok φ) (hy : y.Ok φ) : (φ.fmaI x ⟨.fin 1, .fin 1⟩ y).set = (φ.addI x y).set := by
  refine (C06_fma φ hx (point_ok (one_in φ)) hy).set_unique ((C01_add φ hx hy).of_eq' ?_)
  rw [point_set]; ext r; simp

/-- A fused multiply-add is at least as tight as a multiplication followed by an addition. -/
theorem C41_fma_subset (hx : x.Ok φ) (hy : y.Ok φ) (hz : z.Ok φ) :
    (φ.fmaI x y z).set ⊆ (φ.addI (φ.mulI x y) z).set := by
  have hm := C02_mul φ hx hy
  have ha := C01_add φ hm.1 hz
  refine (C06_fma φ hx hy hz).2.2 _ ha.1 fun r hr => ha.2.1 ?_
  obtain ⟨a, h1, b, h2, c, h3, rfl⟩ := hr
  exact ⟨_, hm.2.1 ⟨a, h1, b, h2, rfl⟩, c, h3, rfl⟩

/-- `abs(neg(x)) = abs(x)`, `abs(x) = max(x, neg(x))` fails in general but `abs(x) ⊆ max(x, neg(x))`. -/
theorem C41_abs_neg (hx : x.Ok φ) : (Fmt.absI (Fmt.negI x)).set = (Fmt.absI x).set := by
  obtain ⟨h1, h2⟩ := C04_neg φ hx
  rw [(C04_abs φ h1.1).2, (C04_abs φ hx).2, h2]
  ext r; constructor
  · rintro ⟨_, ⟨a, ha, rfl⟩, rfl⟩; exact ⟨a, ha, by simp⟩
  · rintro ⟨a, ha, rfl⟩; exact ⟨-a, ⟨a, ha, rfl⟩, by simp⟩

theorem C41_abs_subset_max (hx : x.Ok φ) : (Fmt.absI x).set ⊆ (Fmt.maxI x (Fmt.negI x)).set := by
  obtain ⟨h1, h2⟩ := C04_neg φ hx
  rw [(C04_abs φ hx).2, (C05_max φ hx h1.1).2, h2]
  rintro _ ⟨a, ha, rfl⟩
  exact ⟨a, ha, -a, ⟨a, ha, rfl⟩, rfl⟩

/-- Inverse pairs: applying a function and then its inverse never loses a point. -/
theorem C41_log_exp (hx : x.Ok φ) : x.set ⊆ (φ.logI (φ.expI x)).set := by
  intro r hr
  have h := C09_exp hx
  exact (C09_log h.1).2.1 ⟨_, ⟨h.2.1 ⟨r, hr, rfl⟩, Real.exp_pos r⟩, Real.log_exp r⟩

theorem C41_sqr_sqrt (hx : x.Ok φ) : {a ∈ x.set | 0 ≤ a} ⊆ (φ.sqrI (φ.sqrtI x)).set := by
  rintro r ⟨hr, h0⟩
  have h := C04_sqrt φ hx
  exact (C04_sqr φ h.1).2.1 ⟨_, h.2.1 ⟨r, ⟨hr, h0⟩, rfl⟩, Real.sq_sqrt h0⟩

theorem C41_sub_add (hx : x.Ok φ) (hy : y.Ok φ) (hne : y.set.Nonempty) :
    x.set ⊆ (φ.addI (φ.subI x y) y).set := by
  intro r hr
  obtain ⟨b, hb⟩ := hne
  have h := C01_sub φ hx hy
  exact (C01_add φ h.1 hy).2.1 ⟨r - b, h.2.1 ⟨r, hr, b, hb, rfl⟩, b, hb, by ring⟩

/-- Non-vacuity: an interval for which `sqr(x)` and `mul(x, x)` differ. -/
example : (Itv.mk (.fin (-1)) (.fin 2)).Ok binary64 ∧
    binary64.sqrI ⟨.fin (-1), .fin 2⟩ = ⟨.fin 0, .fin 4⟩ ∧
    binary64.mulI ⟨.fin (-1), .fin 2⟩ ⟨.fin (-1), .fin 2⟩ = ⟨.fin (-2), .fin 4⟩ :=
  ⟨Itv.ok_of_okb (by decide +kernel), by decide +kernel, by decide +kernel⟩

end P1788
