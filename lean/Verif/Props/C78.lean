import Verif.Model.Monotone
import Verif.Props.C77
import Verif.Props.C63

/-!
# C78: the monotonicity test

Where the evaluation of the derivatives shows that a formula is monotone in some of its variables, its values at the ends of these sides
enclose the range, and every minimiser lies at the ends.
-/

namespace P1788
open Set
variable {φ : Fmt} {n : ℕ} {κ : Type} {e : Expr (Fin n ⊕ κ)} {g : Fin n → Expr (Fin n ⊕ κ)} {B : Fin n ⊕ κ → DItv} {c : κ → ℝ}

/-- The full statement: the result encloses the range, and the smaller box contains every minimiser. -/
def C78_full (φ : Fmt) : Prop :=
  ∀ (n : ℕ) (κ : Type) (e : Expr (Fin n ⊕ κ)) (g : Fin n → Expr (Fin n ⊕ κ)) (B : Fin n ⊕ κ → DItv), (∀ i, (B i).Ok φ) →
    ∀ c, ParamsIn B c → IsGradient e g B c →
    (∀ R, monoRange φ e g B = some R → R.Ok φ ∧ ∀ u ∈ unknowns B, Sum.elim u c ∈ e.dom ∧ e.val (Sum.elim u c) ∈ R.set) ∧
    ∀ Y, minBox φ e g B = some Y → (∀ j, (Y j).Ok φ ∧ (Y j).set ⊆ (B j).set) ∧
      ∀ u ∈ unknowns B, (∀ v ∈ unknowns B, e.val (Sum.elim u c) ≤ e.val (Sum.elim v c)) → ∀ j, Sum.elim u c j ∈ (Y j).set

theorem FP.toE_fin_of78 {a : FP} (hn : a ≠ .nan) (hi : a.isInf = false) : ∃ r : ℝ, a.toE = (r:EReal) := by
  cases a with
  | nan => exact absurd rfl hn
  | ninf => cases hi
  | pinf => cases hi
  | nzero => exact ⟨0, rfl⟩
  | fin q => exact ⟨q, rfl⟩

/-- The end of an interval: an interval with one number, or the whole interval. -/
theorem face78 {x : Itv} (hx : x.Ok φ) {a : FP} (ha : a = x.inf ∨ a = x.sup) : (x.face a).Ok φ ∧ (x.face a).set ⊆ x.set ∧
    (a.isInf = true ∧ x.face a = x ∨ ∃ r ∈ x.set, a.toE = (r:EReal) ∧ (x.face a).set = {r}) := by
  unfold Itv.face
  cases hi : a.isInf with
  | true => exact ⟨hx, subset_rfl, Or.inl ⟨rfl, rfl⟩⟩
  | false =>
    simp only [Bool.false_eq_true, if_false]
    rcases hx.cases with rfl | hN
    · rcases ha with rfl | rfl <;> exact absurd hi (by decide)
    · obtain ⟨⟨n1, t1, i1⟩, n2, t2, i2⟩ := infsup_E hN
      have hn : a ≠ .nan := by rcases ha with rfl | rfl <;> assumption
      have hin : a.In φ := by rcases ha with rfl | rfl <;> assumption
      obtain ⟨r, hr⟩ := FP.toE_fin_of78 hn hi
      have hs : (Itv.mk a a).set = {r} := by
        ext z
        simp only [Itv.set, FP.belowR_iff, FP.aboveR_iff, hr, EReal.coe_le_coe_iff, Set.mem_ofPred_eq, mem_singleton_iff]
        exact ⟨fun h => le_antisymm h.2.2 h.1.2, fun h => ⟨⟨hn, h.ge⟩, hn, h.le⟩⟩
      have hm : r ∈ x.set := by
        refine hN.mem.mpr ?_
        rw [← hr]
        rcases ha with rfl | rfl
        · rw [t1]; exact ⟨le_rfl, hN.le⟩
        · rw [t2]; exact ⟨hN.le, le_rfl⟩
      have hv : ValidBounds a a := ⟨r, FP.belowR_iff.mpr ⟨hn, hr.le⟩, FP.aboveR_iff.mpr ⟨hn, hr.ge⟩⟩
      exact ⟨(hv.NE (φ := φ) hin hin).ok, by rw [hs, singleton_subset_iff]; exact hm, Or.inr ⟨r, hm, hr, hs⟩⟩

/-- A lower end is the whole interval or its least number. -/
theorem face_inf78 {x : Itv} (hx : x.Ok φ) :
    x.face x.inf = x ∨ ∃ r ∈ x.set, (x.face x.inf).set = {r} ∧ ∀ z ∈ x.set, r ≤ z := by
  rcases (face78 hx (Or.inl rfl)).2.2 with ⟨-, h⟩ | ⟨r, hr, h1, h2⟩
  · exact Or.inl h
  · refine Or.inr ⟨r, hr, h2, fun z hz => ?_⟩
    have := (inf_le63 hx hz).2
    rw [h1] at this
    exact_mod_cast this

theorem face_sup78 {x : Itv} (hx : x.Ok φ) :
    x.face x.sup = x ∨ ∃ r ∈ x.set, (x.face x.sup).set = {r} ∧ ∀ z ∈ x.set, z ≤ r := by
  rcases (face78 hx (Or.inr rfl)).2.2 with ⟨-, h⟩ | ⟨r, hr, h1, h2⟩
  · exact Or.inl h
  · refine Or.inr ⟨r, hr, h2, fun z hz => ?_⟩
    have := (sup_ge63 hx hz).2
    rw [h1] at this
    exact_mod_cast this

theorem pos78 {y : Itv} (hy : y.Ok φ) (h : .fin 0 ≤ y.inf) {d : ℝ} (hd : d ∈ y.set) : 0 ≤ d := by
  have h1 := inf_le63 hy hd
  have h2 := ((FP.le_iff (by decide) h1.1).mp h).trans h1.2
  simpa using h2

theorem neg78 {y : Itv} (hy : y.Ok φ) (h : y.sup ≤ .fin 0) {d : ℝ} (hd : d ∈ y.set) : d ≤ 0 := by
  have h1 := sup_ge63 hy hd
  have h2 := h1.2.trans ((FP.le_iff h1.1 (by decide)).mp h)
  simpa using h2

theorem spos78 {y : Itv} (hy : y.Ok φ) (h : .fin 0 < y.inf) {d : ℝ} (hd : d ∈ y.set) : 0 < d := by
  have h1 := inf_le63 hy hd
  have h2 := ((FP.lt_iff (by decide) h1.1).mp h).trans_le h1.2
  simpa using h2

theorem sneg78 {y : Itv} (hy : y.Ok φ) (h : y.sup < .fin 0) {d : ℝ} (hd : d ∈ y.set) : d < 0 := by
  have h1 := sup_ge63 hy hd
  have h2 := h1.2.trans_lt ((FP.lt_iff h1.1 (by decide)).mp h)
  simpa using h2

/-- From every number of the side a number of the new side is reached against the derivative. -/
theorem lowSide78 {x y : Itv} (hx : x.Ok φ) (hy : y.Ok φ) : (x.lowSide y).Ok φ ∧ (x.lowSide y).set ⊆ x.set ∧
    ∀ z ∈ x.set, ∃ r ∈ (x.lowSide y).set, ∀ d ∈ y.set, 0 ≤ d * (z - r) := by
  unfold Itv.lowSide
  split_ifs with h1 h2
  · obtain ⟨o, s, -⟩ := face78 hx (Or.inl rfl : x.inf = x.inf ∨ _)
    refine ⟨o, s, fun z hz => ?_⟩
    rcases face_inf78 hx with h | ⟨r, hr, h, hz'⟩
    · exact ⟨z, by rwa [h], fun d _ => by simp⟩
    · exact ⟨r, by rw [h]; rfl, fun d hd => mul_nonneg (pos78 hy h1 hd) (sub_nonneg.mpr (hz' z hz))⟩
  · obtain ⟨o, s, -⟩ := face78 hx (Or.inr rfl : x.sup = x.inf ∨ x.sup = x.sup)
    refine ⟨o, s, fun z hz => ?_⟩
    rcases face_sup78 hx with h | ⟨r, hr, h, hz'⟩
    · exact ⟨z, by rwa [h], fun d _ => by simp⟩
    · exact ⟨r, by rw [h]; rfl, fun d hd => mul_nonneg_of_nonpos_of_nonpos (neg78 hy h2 hd) (sub_nonpos.mpr (hz' z hz))⟩
  · exact ⟨hx, subset_rfl, fun z hz => ⟨z, hz, fun d _ => by simp⟩⟩

theorem highSide78 {x y : Itv} (hx : x.Ok φ) (hy : y.Ok φ) : (x.highSide y).Ok φ ∧ (x.highSide y).set ⊆ x.set ∧
    ∀ z ∈ x.set, ∃ r ∈ (x.highSide y).set, ∀ d ∈ y.set, d * (z - r) ≤ 0 := by
  unfold Itv.highSide
  split_ifs with h1 h2
  · obtain ⟨o, s, -⟩ := face78 hx (Or.inr rfl : x.sup = x.inf ∨ x.sup = x.sup)
    refine ⟨o, s, fun z hz => ?_⟩
    rcases face_sup78 hx with h | ⟨r, hr, h, hz'⟩
    · exact ⟨z, by rwa [h], fun d _ => by simp⟩
    · exact ⟨r, by rw [h]; rfl, fun d hd => mul_nonpos_of_nonneg_of_nonpos (pos78 hy h1 hd) (sub_nonpos.mpr (hz' z hz))⟩
  · obtain ⟨o, s, -⟩ := face78 hx (Or.inl rfl : x.inf = x.inf ∨ _)
    refine ⟨o, s, fun z hz => ?_⟩
    rcases face_inf78 hx with h | ⟨r, hr, h, hz'⟩
    · exact ⟨z, by rwa [h], fun d _ => by simp⟩
    · exact ⟨r, by rw [h]; rfl, fun d hd => mul_nonpos_of_nonpos_of_nonneg (neg78 hy h2 hd) (sub_nonneg.mpr (hz' z hz))⟩
  · exact ⟨hx, subset_rfl, fun z hz => ⟨z, hz, fun d _ => by simp⟩⟩

/-- From every number that is not in the new side one is reached that is strictly against the derivative. -/
theorem minSide78 {x y : Itv} (hx : x.Ok φ) (hy : y.Ok φ) : (x.minSide y).Ok φ ∧ (x.minSide y).set ⊆ x.set ∧
    ∀ z ∈ x.set, z ∉ (x.minSide y).set → ∃ r ∈ (x.minSide y).set, ∀ d ∈ y.set, 0 < d * (z - r) := by
  unfold Itv.minSide
  split_ifs with h1 h2
  · obtain ⟨o, s, -⟩ := face78 hx (Or.inl rfl : x.inf = x.inf ∨ _)
    refine ⟨o, s, fun z hz hn => ?_⟩
    rcases face_inf78 hx with h | ⟨r, hr, h, hz'⟩
    · exact absurd (by rwa [h]) hn
    · refine ⟨r, by rw [h]; rfl, fun d hd => mul_pos (spos78 hy h1 hd) (sub_pos.mpr ?_)⟩
      exact lt_of_le_of_ne (hz' z hz) fun k => hn (by rw [h, k]; rfl)
  · obtain ⟨o, s, -⟩ := face78 hx (Or.inr rfl : x.sup = x.inf ∨ x.sup = x.sup)
    refine ⟨o, s, fun z hz hn => ?_⟩
    rcases face_sup78 hx with h | ⟨r, hr, h, hz'⟩
    · exact absurd (by rwa [h]) hn
    · refine ⟨r, by rw [h]; rfl, fun d hd => mul_pos_of_neg_of_neg (sneg78 hy h2 hd) (sub_neg.mpr ?_)⟩
      exact lt_of_le_of_ne (hz' z hz) fun k => hn (by rw [h, k]; rfl)
  · exact ⟨hx, subset_rfl, fun z hz hn => absurd hz hn⟩

theorem ordConn78 {x : Itv} {a b v : ℝ} (ha : a ∈ x.set) (hb : b ∈ x.set) (h1 : a ≤ v) (h2 : v ≤ b) : v ∈ x.set := by
  obtain ⟨h3, -⟩ := ha
  obtain ⟨-, h4⟩ := hb
  rw [FP.belowR_iff] at h3
  rw [FP.aboveR_iff] at h4
  exact ⟨FP.belowR_iff.mpr ⟨h3.1, h3.2.trans (by exact_mod_cast h1)⟩, FP.aboveR_iff.mpr ⟨h4.1, le_trans (by exact_mod_cast h2) h4.2⟩⟩

/-- **The range is enclosed** in all evaluations in which the tangent meets no bad interval (C11). -/
theorem C78_range_safe_partial {R : Itv} (ht : e.TanSafeIn φ fun j => (B j).itv) (ht' : ∀ j, (g j).TanSafe φ fun j => (B j).itv)
    (hB : ∀ i, (B i).Ok φ) (hc : ParamsIn B c) (hj : IsGradient e g B c) (h : monoRange φ e g B = some R) :
    R.Ok φ ∧ ∀ u ∈ unknowns B, Sum.elim u c ∈ e.dom ∧ e.val (Sum.elim u c) ∈ R.set := by
  unfold monoRange at h
  split_ifs at h with hk
  obtain ⟨k1, k2⟩ := hk
  obtain rfl := Option.some.inj h
  have fe := C19_ftdia_safe_partial e B hB (ht.self fun j => (hB j).1)
  have fg := fun j => C19_ftdia_safe_partial (g j) B hB (ht' j)
  have lo := fun j => lowSide78 (hB (.inl j)).1 (fg j).1.1
  have hi := fun j => highSide78 (hB (.inl j)).1 (fg j).1.1
  have ol : ∀ j, (sidesBox φ B Itv.lowSide g j).Ok φ := by rintro (j | k); exacts [(lo j).1, (hB _).1]
  have oh : ∀ j, (sidesBox φ B Itv.highSide g j).Ok φ := by rintro (j | k); exacts [(hi j).1, (hB _).1]
  have sl : ∀ j, (sidesBox φ B Itv.lowSide g j).set ⊆ (B j).itv.set := by rintro (j | k); exacts [(lo j).2.1, subset_rfl]
  have sh : ∀ j, (sidesBox φ B Itv.highSide g j).set ⊆ (B j).itv.set := by rintro (j | k); exacts [(hi j).2.1, subset_rfl]
  have fl := C18_ftia_safe_partial e _ ol (ht _ ol sl)
  have fh := C18_ftia_safe_partial e _ oh (ht _ oh sh)
  have oU := C25_convex_hull fl.1 fh.1
  have oI := C25_intersection oU.1 fe.1.1
  refine ⟨oI.1, fun u hu => ?_⟩
  have hd : ∀ u ∈ unknowns B, Sum.elim u c ∈ e.dom := fun u hu => (fe.2.2.2.1 k1).2 _ (elim_mem74 hu hc)
  have hgd : ∀ u ∈ unknowns B, ∀ j, Sum.elim u c ∈ (g j).dom := fun u hu j => ((fg j).2.2.2.1 (k2 j)).2 _ (elim_mem74 hu hc)
  have hgv : ∀ u ∈ unknowns B, ∀ j, (g j).val (Sum.elim u c) ∈ ((g j).evalD φ B).itv.set := fun u hu j =>
    (fg j).2.2.1 _ (not_ill74 (k2 j)) (elim_mem74 hu hc) (hgd u hu j)
  refine ⟨hd u hu, ?_⟩
  rw [oI.2]
  refine ⟨?_, fe.2.2.1 _ (not_ill74 k1) (elim_mem74 hu hc) (hd u hu)⟩
  choose p hp hp' using fun j => (lo j).2.2 (u j) (hu j)
  choose q hq hq' using fun j => (hi j).2.2 (u j) (hu j)
  have hpU : p ∈ unknowns B := fun j => (lo j).2.1 (hp j)
  have hqU : q ∈ unknowns B := fun j => (hi j).2.1 (hq j)
  have vp := fl.2 (Sum.elim p c) (by rintro (j | k); exacts [hp j, hc k]) (hd p hpU)
  have vq := fh.2 (Sum.elim q c) (by rintro (j | k); exacts [hq j, hc k]) (hd q hqU)
  obtain ⟨w, hw, e1⟩ := mean76 (convex74 B) (fun u hu => hj u hu (hgd u hu)) hpU hu
  obtain ⟨w', hw', e2⟩ := mean76 (convex74 B) (fun u hu => hj u hu (hgd u hu)) hqU hu
  have g1 := Finset.sum_nonneg (s := Finset.univ) fun j _ => hp' j _ (hgv w hw j)
  have g2 := Finset.sum_nonpos (s := Finset.univ) fun j _ => hq' j _ (hgv w' hw' j)
  rw [← e1] at g1
  rw [← e2] at g2
  exact ordConn78 (oU.2.1 (Or.inl vp)) (oU.2.1 (Or.inr vq)) (by linarith) (by linarith)

/-- **No minimiser is lost** in all evaluations in which the tangent meets no bad interval. -/
theorem C78_minimiser_safe_partial {Y : Fin n ⊕ κ → Itv} (ht' : ∀ j, (g j).TanSafe φ fun j => (B j).itv)
    (hB : ∀ i, (B i).Ok φ) (hc : ParamsIn B c) (hj : IsGradient e g B c) (h : minBox φ e g B = some Y) :
    (∀ j, (Y j).Ok φ ∧ (Y j).set ⊆ (B j).set) ∧
      ∀ u ∈ unknowns B, (∀ v ∈ unknowns B, e.val (Sum.elim u c) ≤ e.val (Sum.elim v c)) → ∀ j, Sum.elim u c j ∈ (Y j).set := by
  unfold minBox at h
  split_ifs at h with hk
  obtain ⟨k1, k2⟩ := hk
  obtain rfl := Option.some.inj h
  have fg := fun j => C19_ftdia_safe_partial (g j) B hB (ht' j)
  have lo := fun j => minSide78 (hB (.inl j)).1 (fg j).1.1
  have hgd : ∀ u ∈ unknowns B, ∀ j, Sum.elim u c ∈ (g j).dom := fun u hu j => ((fg j).2.2.2.1 (k2 j)).2 _ (elim_mem74 hu hc)
  have hgv : ∀ u ∈ unknowns B, ∀ j, (g j).val (Sum.elim u c) ∈ ((g j).evalD φ B).itv.set := fun u hu j =>
    (fg j).2.2.1 _ (not_ill74 (k2 j)) (elim_mem74 hu hc) (hgd u hu j)
  refine ⟨?_, fun u hu hm => ?_⟩
  · rintro (j | k)
    exacts [⟨(lo j).1, (lo j).2.1⟩, ⟨(hB _).1, subset_rfl⟩]
  rintro (j | k)
  swap
  · exact hc k
  by_contra hn
  obtain ⟨r, hr, hr'⟩ := (lo j).2.2 (u j) (hu j) hn
  have hvU : Function.update u j r ∈ unknowns B := fun i => by
    by_cases hi : i = j
    · subst hi; simpa using (lo i).2.1 hr
    · simpa [hi] using hu i
  obtain ⟨w, hw, e1⟩ := mean76 (convex74 B) (fun u hu => hj u hu (hgd u hu)) hvU hu
  rw [Finset.sum_eq_single j (fun i _ hi => by simp [hi]) (by simp)] at e1
  have := hr' _ (hgv w hw j)
  simp only [Function.update_self] at e1
  linarith [hm _ hvU]

/-- Both statements for formulas without the tangent, and for types without bad intervals (full statement `C78_full`: without `ht`; false for
`double` and the tangent, `C78_false`). -/
theorem C78_monotone_partial (ht : NoCritical φ ∨ e.TanFree ∧ ∀ j, (g j).TanFree) (hB : ∀ i, (B i).Ok φ) (hc : ParamsIn B c)
    (hj : IsGradient e g B c) :
    (∀ R, monoRange φ e g B = some R → R.Ok φ ∧ ∀ u ∈ unknowns B, Sum.elim u c ∈ e.dom ∧ e.val (Sum.elim u c) ∈ R.set) ∧
    ∀ Y, minBox φ e g B = some Y → (∀ j, (Y j).Ok φ ∧ (Y j).set ⊆ (B j).set) ∧
      ∀ u ∈ unknowns B, (∀ v ∈ unknowns B, e.val (Sum.elim u c) ≤ e.val (Sum.elim v c)) → ∀ j, Sum.elim u c j ∈ (Y j).set := by
  have h1 := e.tanSafeIn (φ := φ) (ht.imp_right And.left) fun j => (B j).itv
  have h2 := fun j => (g j).tanSafe (φ := φ) (ht.imp_right fun h => h.2 j) fun i => (hB i).1
  exact ⟨fun R h => C78_range_safe_partial h1 h2 hB hc hj h, fun Y h => C78_minimiser_safe_partial h2 hB hc hj h⟩

/-- The full statement for `float`. -/
theorem C78_binary32 : C78_full binary32 := fun _ _ _ _ _ hB _ hc hj => C78_monotone_partial (Or.inl noCritical_binary32) hB hc hj

/-- The full statement for `long double`. -/
theorem C78_x87ext : C78_full x87ext := fun _ _ _ _ _ hB _ hc hj => C78_monotone_partial (Or.inl noCritical_x87ext) hB hc hj

/-- With the derivatives of C77 there is no assumption about derivatives. -/
theorem C78_auto_partial {e : Expr (Fin n ⊕ ℚ)} {B : Fin n ⊕ ℚ → DItv} (ht : NoCritical φ ∨ e.TanFree) (hB : ∀ i, (B i).Ok φ)
    (hc : ParamsIn B ratR) :
    (∀ R, monoRange φ e (fun j => e.pd j) B = some R → R.Ok φ ∧
      ∀ u ∈ unknowns B, Sum.elim u ratR ∈ e.dom ∧ e.val (Sum.elim u ratR) ∈ R.set) ∧
    ∀ Y, minBox φ e (fun j => e.pd j) B = some Y → (∀ j, (Y j).Ok φ ∧ (Y j).set ⊆ (B j).set) ∧
      ∀ u ∈ unknowns B, (∀ v ∈ unknowns B, e.val (Sum.elim u ratR) ≤ e.val (Sum.elim v ratR)) → ∀ j, Sum.elim u ratR j ∈ (Y j).set :=
  C78_monotone_partial (ht.imp_right fun h => ⟨h, fun j => e.tanFree_pd j h⟩) hB hc IsGradient.auto

/-- The same in all evaluations in which the tangent meets no bad interval. -/
theorem C78_auto_safe_partial {e : Expr (Fin n ⊕ ℚ)} {B : Fin n ⊕ ℚ → DItv} (ht : e.TanSafeIn φ fun j => (B j).itv) (hB : ∀ i, (B i).Ok φ)
    (hc : ParamsIn B ratR) :
    (∀ R, monoRange φ e (fun j => e.pd j) B = some R → R.Ok φ ∧
      ∀ u ∈ unknowns B, Sum.elim u ratR ∈ e.dom ∧ e.val (Sum.elim u ratR) ∈ R.set) ∧
    ∀ Y, minBox φ e (fun j => e.pd j) B = some Y → (∀ j, (Y j).Ok φ ∧ (Y j).set ⊆ (B j).set) ∧
      ∀ u ∈ unknowns B, (∀ v ∈ unknowns B, e.val (Sum.elim u ratR) ≤ e.val (Sum.elim v ratR)) → ∀ j, Sum.elim u ratR j ∈ (Y j).set :=
  have hg := fun j => e.tanSafe_pd j (ht.self fun i => (hB i).1)
  ⟨fun _ h => C78_range_safe_partial ht hg hB hc IsGradient.auto h, fun _ h => C78_minimiser_safe_partial hg hB hc IsGradient.auto h⟩

/-! ### Sharpness -/

theorem below78 {A : Itv} (h : A.NE φ) {v : ℝ} (hv : A.lo.toE ≤ v) : ∃ a ∈ A.set, a ≤ v := by
  obtain ⟨a, ha⟩ := h.nonempty
  by_cases hav : a ≤ v
  · exact ⟨a, ha, hav⟩
  · exact ⟨v, h.mem.mpr ⟨hv, le_trans (by exact_mod_cast (not_le.mp hav).le) (h.mem.mp ha).2⟩, le_rfl⟩

theorem above78 {A : Itv} (h : A.NE φ) {v : ℝ} (hv : (v:EReal) ≤ A.hi.toE) : ∃ a ∈ A.set, v ≤ a := by
  obtain ⟨a, ha⟩ := h.nonempty
  by_cases hav : v ≤ a
  · exact ⟨a, ha, hav⟩
  · exact ⟨v, h.mem.mpr ⟨(h.mem.mp ha).1.trans (by exact_mod_cast (not_le.mp hav).le), hv⟩, le_rfl⟩

/-- A number of the convex hull lies between numbers of the two intervals. -/
theorem hull_between78 {A C : Itv} (hA : A.Ok φ) (hC : C.Ok φ) {v : ℝ} (hv : v ∈ (A.hull C).set) :
    (∃ a ∈ A.set ∪ C.set, a ≤ v) ∧ ∃ a ∈ A.set ∪ C.set, v ≤ a := by
  rcases hA.cases with rfl | nA
  · have : v ∈ C.set := by rw [← hull_empty_left hC]; exact hv
    exact ⟨⟨v, Or.inr this, le_rfl⟩, v, Or.inr this, le_rfl⟩
  rcases hC.cases with rfl | nC
  · have : v ∈ A.set := by rw [← hull_empty_right hA]; exact hv
    exact ⟨⟨v, Or.inl this, le_rfl⟩, v, Or.inl this, le_rfl⟩
  obtain ⟨-, -, hT⟩ := C25_convex_hull hA hC
  constructor
  · have key : ∀ l : FP, l ≠ .nan → l.In φ → l.toE ≠ ⊤ → l.toE ≤ A.lo.toE → l.toE ≤ C.lo.toE → l.toE ≤ v := fun l h1 h2 h3 h4 h5 => by
      have hN : (Itv.mk l .pinf).NE φ := ⟨h1, nofun, le_top, h3, top_ne_bot, h2, trivial⟩
      refine (hN.mem.mp (hT _ hN.ok ?_ hv)).1
      rintro a (ha | ha)
      · exact hN.mem.mpr ⟨h4.trans (nA.mem.mp ha).1, le_top⟩
      · exact hN.mem.mpr ⟨h5.trans (nC.mem.mp ha).1, le_top⟩
    rcases le_total A.lo.toE C.lo.toE with h | h
    · obtain ⟨a, ha, h'⟩ := below78 nA (key _ nA.lo_ne nA.lo_in nA.lo_top le_rfl h)
      exact ⟨a, Or.inl ha, h'⟩
    · obtain ⟨a, ha, h'⟩ := below78 nC (key _ nC.lo_ne nC.lo_in nC.lo_top h le_rfl)
      exact ⟨a, Or.inr ha, h'⟩
  · have key : ∀ l : FP, l ≠ .nan → l.In φ → l.toE ≠ ⊥ → A.hi.toE ≤ l.toE → C.hi.toE ≤ l.toE → (v:EReal) ≤ l.toE := fun l h1 h2 h3 h4 h5 => by
      have hN : (Itv.mk .ninf l).NE φ := ⟨nofun, h1, bot_le, bot_ne_top, h3, trivial, h2⟩
      refine (hN.mem.mp (hT _ hN.ok ?_ hv)).2
      rintro a (ha | ha)
      · exact hN.mem.mpr ⟨bot_le, (nA.mem.mp ha).2.trans h4⟩
      · exact hN.mem.mpr ⟨bot_le, (nC.mem.mp ha).2.trans h5⟩
    rcases le_total A.hi.toE C.hi.toE with h | h
    · obtain ⟨a, ha, h'⟩ := above78 nC (key _ nC.hi_ne nC.hi_in nC.hi_bot h le_rfl)
      exact ⟨a, Or.inr ha, h'⟩
    · obtain ⟨a, ha, h'⟩ := above78 nA (key _ nA.hi_ne nA.hi_in nA.hi_bot le_rfl h)
      exact ⟨a, Or.inl ha, h'⟩

/-- An end of a bounded interval is one number. -/
theorem face_point78 {x : DItv} (hx : x.Ok φ) (hd : x.dec = .com) {a : FP} (ha : a = x.itv.inf ∨ a = x.itv.sup) :
    ∃ r ∈ x.set, (x.itv.face a).set = {r} := by
  rcases (face78 hx.1 ha).2.2 with ⟨hi, -⟩ | ⟨r, hr, -, h⟩
  · exfalso
    obtain ⟨r0, hr0⟩ := hx.com_nonempty hd
    have hb := hx.com_bounded hd
    rcases hx.1.cases with he | hN
    · rw [DItv.set, he] at hr0; simp at hr0
    obtain ⟨⟨n1, t1, i1⟩, n2, t2, i2⟩ := infsup_E hN
    obtain ⟨b1, b2⟩ := hN.bounded_iff.mp hb
    have fin : ∀ f : FP, f ≠ .nan → f ≠ .ninf → f ≠ .pinf → f.toE ≠ ⊥ ∧ f.toE ≠ ⊤ := fun f k1 k2 k3 => by
      cases f with
      | nan => exact absurd rfl k1
      | ninf => exact absurd rfl k2
      | pinf => exact absurd rfl k3
      | nzero => exact ⟨EReal.zero_ne_bot, EReal.zero_ne_top⟩
      | fin q => exact ⟨EReal.coe_ne_bot _, EReal.coe_ne_top _⟩
    have ha' : a.toE ≠ ⊥ ∧ a.toE ≠ ⊤ := by
      rcases ha with rfl | rfl
      · rw [t1]; exact fin _ hN.lo_ne b1 fun k => hN.lo_top (by rw [k]; rfl)
      · rw [t2]; exact fin _ hN.hi_ne (fun k => hN.hi_bot (by rw [k]; rfl)) b2
    cases a with
    | ninf => exact ha'.1 rfl
    | pinf => exact ha'.2 rfl
    | nan => cases hi
    | nzero => cases hi
    | fin q => cases hi
  · exact ⟨r, hr, h⟩

theorem sides78 {x : DItv} {y : Itv} (hx : x.Ok φ) (hd : x.dec = .com) (h : .fin 0 ≤ y.inf ∨ y.sup ≤ .fin 0) :
    (∃ r ∈ x.set, (x.itv.lowSide y).set = {r}) ∧ ∃ r ∈ x.set, (x.itv.highSide y).set = {r} := by
  unfold Itv.lowSide Itv.highSide
  by_cases h1 : .fin 0 ≤ y.inf
  · simp only [if_pos h1]
    exact ⟨face_point78 hx hd (Or.inl rfl), face_point78 hx hd (Or.inr rfl)⟩
  · simp only [if_neg h1, if_pos (h.resolve_left h1)]
    exact ⟨face_point78 hx hd (Or.inr rfl), face_point78 hx hd (Or.inl rfl)⟩

/-- **Only rounding errors are left**: near a point at which no derivative is 0, the result exceeds the range by at most a multiple of the
rounding unit and of the width of the constants, however wide the sides are. -/
theorem C78_sharp {t : Fin n → ℝ} (he : e.TameAt (Sum.elim t c)) (hg : ∀ j, (g j).TameAt (Sum.elim t c))
    (h0 : ∀ j, (g j).val (Sum.elim t c) ≠ 0) :
    ∃ K r M : ℝ, 0 < r ∧ ∀ φ : Fmt, φ.relUnit ≤ r → M ≤ φ.maxFin → ∀ B : Fin n ⊕ κ → DItv, (∀ i, (B i).Ok φ) → (∀ i, (B i).dec = .com) →
      ∀ τ : ℝ, 0 ≤ τ → τ ≤ r → (∀ i, ∀ a ∈ (B (.inl i)).set, |a - t i| ≤ r) → (∀ k, ∀ a ∈ (B (.inr k)).set, |a - c k| ≤ τ) →
      ∃ R, monoRange φ e g B = some R ∧ ∀ v ∈ R.set,
        (∃ u ∈ unknowns B, e.val (Sum.elim u c) - K * (τ + φ.relUnit) ≤ v) ∧
        ∃ u ∈ unknowns B, v ≤ e.val (Sum.elim u c) + K * (τ + φ.relUnit) := by
  obtain ⟨K0, r0, M0, hK0, hr0, hN0⟩ := narrow e he
  obtain ⟨r2, M2, hr2, hC0⟩ := comNear e he
  choose Kg rg Mg hKg hrg hNg using fun j => narrow (g j) (hg j)
  choose rc Mc hrc hCg using fun j => comNear (g j) (hg j)
  have small : ∀ f : Fin n → ℝ, (∀ i, 0 < f i) → ∃ x > 0, ∀ i, x ≤ f i := fun f hf => by
    obtain hE | hE := isEmpty_or_nonempty (Fin n)
    · exact ⟨1, one_pos, fun i => hE.elim i⟩
    · obtain ⟨i, hi⟩ := Finite.exists_min f
      exact ⟨f i, hf i, hi⟩
  have big : ∀ (f : Fin n → ℝ) i, f i ≤ ∑ i, |f i| := fun f i =>
    (le_abs_self _).trans (Finset.single_le_sum (f := fun i => |f i|) (fun j _ => abs_nonneg _) (Finset.mem_univ i))
  obtain ⟨r1, hr1, hr1'⟩ := small rg hrg
  obtain ⟨r3, hr3, hr3'⟩ := small rc hrc
  obtain ⟨r4, hr4, hr4'⟩ := small (fun j => |(g j).val (Sum.elim t c)| / (Kg j + 1)) fun j =>
    div_pos (abs_pos.mpr (h0 j)) (by linarith [hKg j])
  obtain ⟨r, hr, q0, q1, q2, q3, q4⟩ : ∃ r : ℝ, 0 < r ∧ 2 * r ≤ r0 ∧ 2 * r ≤ r1 ∧ r ≤ r2 ∧ r ≤ r3 ∧ 2 * r ≤ r4 := by
    refine ⟨min (min (r0 / 2) (r1 / 2)) (min (min r2 r3) (r4 / 2)), by positivity, ?_⟩
    set x := min (min (r0 / 2) (r1 / 2)) (min (min r2 r3) (r4 / 2))
    have a1 : x ≤ min (r0 / 2) (r1 / 2) := min_le_left _ _
    have a2 : x ≤ min (min r2 r3) (r4 / 2) := min_le_right _ _
    have a3 := a2.trans (min_le_left _ _)
    refine ⟨?_, ?_, a3.trans (min_le_left _ _), a3.trans (min_le_right _ _), ?_⟩
    · linarith [a1.trans (min_le_left _ _)]
    · linarith [a1.trans (min_le_right _ _)]
    · linarith [a2.trans (min_le_right _ _)]
  refine ⟨K0, r, max (max M0 (∑ j, |Mg j|)) (max M2 (∑ j, |Mc j|)), hr, fun φ hε hM B hB hBc τ hτ0 hτ hBt hBτ => ?_⟩
  have mM0 : M0 ≤ φ.maxFin := ((le_max_left _ _).trans (le_max_left _ _)).trans hM
  have mM1 : ∑ j, |Mg j| ≤ φ.maxFin := ((le_max_right _ _).trans (le_max_left _ _)).trans hM
  have mM2 : M2 ≤ φ.maxFin := ((le_max_left _ _).trans (le_max_right _ _)).trans hM
  have mM3 : ∑ j, |Mc j| ≤ φ.maxFin := ((le_max_right _ _).trans (le_max_right _ _)).trans hM
  have hBr : ∀ i, ∀ a ∈ (B i).set, |a - Sum.elim t c i| ≤ r := by
    rintro (i | k) a ha
    · exact hBt i a ha
    · exact (hBτ k a ha).trans hτ
  obtain ⟨c1, c2⟩ := hC0 φ (hε.trans q2) mM2 B hB hBc fun i a ha => (hBr i a ha).trans q2
  have cg := fun j => hCg j φ (hε.trans (q3.trans (hr3' j))) ((big Mc j).trans mM3) B hB hBc fun i a ha => (hBr i a ha).trans (q3.trans (hr3' j))
  have hsome : monoRange φ e g B = some (((e.eval φ (sidesBox φ B Itv.lowSide g)).hull (e.eval φ (sidesBox φ B Itv.highSide g))).inter
      (e.evalD φ B).itv) := by
    unfold monoRange
    rw [if_pos ⟨by rw [c2]; decide, fun j => by rw [(cg j).2]; decide⟩]
  -- the signs of the derivatives
  have sign : ∀ j, .fin 0 ≤ ((g j).evalD φ B).itv.inf ∨ ((g j).evalD φ B).itv.sup ≤ .fin 0 := fun j => by
    obtain ⟨o, hv⟩ := (hNg j).2 φ ((big Mg j).trans mM1) (fun i => (B i).itv) (fun i => (hB i).1) (Sum.elim t c)
      (fun i => by simpa using (hrg j).le) r hr.le (by linarith [hr1' j]) hBr
    rw [(cg j).1]
    obtain ⟨⟨n1, i1⟩, ⟨n2, i2⟩, -⟩ := C27_inf_sup o
    have bd : Kg j * (r + φ.relUnit) < |(g j).val (Sum.elim t c)| := by
      have a1 := (le_div_iff₀ (by linarith [hKg j])).mp (hr4' j)
      have a2 : (Kg j + 1) * (r + φ.relUnit) ≤ (Kg j + 1) * r4 := mul_le_mul_of_nonneg_left (by linarith) (by linarith [hKg j])
      have := relUnit_pos (φ := φ)
      linarith
    rcases lt_or_gt_of_ne (h0 j) with hn | hp
    · right
      rw [FP.le_iff n2 (by decide)]
      refine i2.2 ?_
      rintro _ ⟨d, hd, rfl⟩
      have := (abs_le.mp (hv d hd)).2
      rw [abs_of_neg hn] at bd
      have : d ≤ 0 := by linarith
      simpa using this
    · left
      rw [FP.le_iff (by decide) n1]
      refine i1.2 ?_
      rintro _ ⟨d, hd, rfl⟩
      have := (abs_le.mp (hv d hd)).1
      rw [abs_of_pos hp] at bd
      have : 0 ≤ d := by linarith
      simpa using this
  choose p hp hps using fun j => (sides78 (hB (.inl j)) (hBc _) (sign j)).1
  choose q hq hqs using fun j => (sides78 (hB (.inl j)) (hBc _) (sign j)).2
  have og := fun j => (evalD_ok62 (g j) hB).1
  have ol : ∀ j, (sidesBox φ B Itv.lowSide g j).Ok φ := by rintro (j | k); exacts [(lowSide78 (hB _).1 (og j)).1, (hB _).1]
  have oh : ∀ j, (sidesBox φ B Itv.highSide g j).Ok φ := by rintro (j | k); exacts [(highSide78 (hB _).1 (og j)).1, (hB _).1]
  have near : ∀ u ∈ unknowns B, ∀ i, |Sum.elim u c i - Sum.elim t c i| ≤ r0 := by
    rintro u hu (i | k)
    · exact (hBt i _ (hu i)).trans (by linarith)
    · simpa using hr0.le
  obtain ⟨fl, vl⟩ := hN0.2 φ mM0 _ ol (Sum.elim p c) (near p hp) τ hτ0 (by linarith) (by
    rintro (j | k) a ha
    · change a ∈ (Itv.lowSide _ _).set at ha
      rw [hps j] at ha
      rw [mem_singleton_iff.mp ha]; simpa using hτ0
    · exact hBτ k a ha)
  obtain ⟨fh, vh⟩ := hN0.2 φ mM0 _ oh (Sum.elim q c) (near q hq) τ hτ0 (by linarith) (by
    rintro (j | k) a ha
    · change a ∈ (Itv.highSide _ _).set at ha
      rw [hqs j] at ha
      rw [mem_singleton_iff.mp ha]; simpa using hτ0
    · exact hBτ k a ha)
  refine ⟨_, hsome, fun v hv => ?_⟩
  rw [(C25_intersection (C25_convex_hull fl fh).1 (evalD_ok62 e hB).1).2] at hv
  obtain ⟨⟨a, ha, hav⟩, b, hb, hvb⟩ := hull_between78 fl fh hv.1
  constructor
  · rcases ha with ha | ha
    · exact ⟨p, hp, by linarith [(abs_le.mp (vl a ha)).1]⟩
    · exact ⟨q, hq, by linarith [(abs_le.mp (vh a ha)).1]⟩
  · rcases hb with ha | ha
    · exact ⟨p, hp, by linarith [(abs_le.mp (vl b ha)).2]⟩
    · exact ⟨q, hq, by linarith [(abs_le.mp (vh b ha)).2]⟩

end P1788
