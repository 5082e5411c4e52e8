import Verif.Model.Rev
import Verif.Lemmas.MulRev
import Verif.Props.C04
import Verif.Props.C13
import Verif.Lemmas.Conv

/-! Helper lemmas: reverse functions with a mirror image. -/

namespace P1788
open FP

/-- `P` encloses the segment `S`, and the flags tell exactly which bounds of `P` are rounded. -/
structure XLeaf (φ : Fmt) (P : Itv) (tl tu : Bool) (S : Set ℝ) : Prop where
  ex : ∃ l u : EReal, SegNE l u ∧ S = Seg l u ∧ P.lo.toE = φ.rdE l ∧ P.hi.toE = φ.ruE u ∧
    (tl = true ↔ P.lo.toE ≠ l) ∧ (tu = true ↔ P.hi.toE ≠ u)
  lo_ne : P.lo ≠ .nan
  hi_ne : P.hi ≠ .nan
  lo_in : P.lo.In φ
  hi_in : P.hi.In φ

variable {φ : Fmt} {P x : Itv} {tl tu : Bool} {S : Set ℝ}

theorem mem_seg {l u : EReal} {t : ℝ} : t ∈ Seg l u ↔ l ≤ t ∧ (t:EReal) ≤ u := Iff.rfl

theorem XLeaf.ne (h : XLeaf φ P tl tu S) : P.NE φ := by
  obtain ⟨l, u, hs, -, hl, hu, -, -⟩ := h.ex
  exact ⟨h.lo_ne, h.hi_ne, by rw [hl, hu]; exact (φ.rdE_le l).trans (hs.le.trans (φ.le_ruE u)),
    by rw [hl]; exact φ.rdE_ne_top hs.a_top, by rw [hu]; exact φ.ruE_ne_bot hs.b_bot, h.lo_in, h.hi_in⟩

theorem XLeaf.leaf (h : XLeaf φ P tl tu S) : Leaf φ P tl tu S := by
  obtain ⟨l, u, hs, rfl, hl, hu, h1, h2⟩ := h.ex
  refine ⟨tightest_of_box (box_seg hs.le hs.a_top hs.b_bot) h.lo_ne h.hi_ne h.lo_in h.hi_in hl hu, ?_, ?_,
    fun _ => ⟨l, u, box_seg hs.le hs.a_top hs.b_bot, h1, h2⟩⟩
  · intro ht s hs'
    have := h1.mp ht
    exact lt_of_lt_of_le (lt_of_le_of_ne (hl ▸ φ.rdE_le l) this) hs'.1
  · intro ht s hs'
    have := h2.mp ht
    exact lt_of_le_of_lt hs'.2 (lt_of_le_of_ne (hu ▸ φ.le_ruE u) (Ne.symm this))

theorem negI_ne (h : P.NE φ) : Fmt.negI P = ⟨P.hi.neg, P.lo.neg⟩ := by
  simp [Fmt.negI, h.isValid, h.isEmpty]

theorem XLeaf.neg (h : XLeaf φ P tl tu S) : XLeaf φ (Fmt.negI P) tu tl {t | -t ∈ S} := by
  rw [negI_ne h.ne]
  obtain ⟨l, u, hs, rfl, hl, hu, h1, h2⟩ := h.ex
  refine ⟨⟨-u, -l, ⟨by simpa using hs.le, by simpa using hs.b_bot, by simpa using hs.a_top⟩, ?_, ?_, ?_, ?_, ?_⟩,
    by simpa using h.hi_ne, by simpa using h.lo_ne, FP.neg_in h.hi_in, FP.neg_in h.lo_in⟩
  · ext t
    simp only [Set.mem_ofPred_eq, mem_seg, EReal.coe_neg]
    constructor
    · rintro ⟨a, b⟩; exact ⟨by rw [EReal.neg_le]; exact b, by rw [EReal.le_neg]; exact a⟩
    · rintro ⟨a, b⟩; exact ⟨by rw [EReal.le_neg]; exact b, by rw [EReal.neg_le]; exact a⟩
  · rw [FP.toE_neg, hu, Fmt.rdE_neg]
  · rw [FP.toE_neg, hl, Fmt.ruE_neg]
  · rw [h2, FP.toE_neg]; simp
  · rw [h1, FP.toE_neg]; simp

theorem Tightest.of_set_empty {R : Itv} {S : Set ℝ} (h : R.Ok φ) (h1 : R.set = ∅) (h2 : S = ∅) : Tightest φ R S :=
  ⟨h, by rw [h2]; simp, fun Y _ _ => by rw [h1]; simp⟩

/-- Cutting a segment with `x`: the code's test makes the result as tight as possible. -/
theorem XLeaf.cut (h : XLeaf φ P tl tu S) (hx : x.Ok φ) :
    Tightest φ ((P.dropIf x tl tu).inter x) (S ∩ x.set) := by
  obtain ⟨o1, a1, b1⟩ := dropIf_spec h.leaf hx
  obtain ⟨i1, j1⟩ := Itv.inter_ok_set o1 hx
  rcases hx.cases with rfl | nx
  · exact Tightest.of_set_empty i1 (by rw [j1]; simp) (by simp)
  obtain ⟨l, u, hs, rfl, hl, hu, h1, h2⟩ := h.ex
  have hN := h.ne
  by_cases hne : max l x.lo.toE ≤ min u x.hi.toE
  · refine ⟨i1, fun t ht => by rw [j1]; exact ⟨b1 ht, ht.2⟩, ?_⟩
    intro Y hY hSY
    have e : Seg l u ∩ x.set = Seg (max l x.lo.toE) (min u x.hi.toE) := by
      ext t; rw [Set.mem_inter_iff, nx.mem, mem_seg, mem_seg, max_le_iff, le_min_iff]; tauto
    have hs' : SegNE (max l x.lo.toE) (min u x.hi.toE) :=
      ⟨hne, by rw [ne_eq, max_eq_iff]; rintro (⟨g, -⟩ | ⟨g, -⟩) <;> [exact hs.a_top g; exact nx.lo_top g],
        by rw [ne_eq, min_eq_iff]; rintro (⟨g, -⟩ | ⟨g, -⟩) <;> [exact hs.b_bot g; exact nx.hi_bot g]⟩
    rw [e] at hSY
    have nY : Y.NE φ := by
      rcases hY.cases with rfl | nY
      · obtain ⟨t, ht⟩ := hs'.nonempty
        exact absurd (hSY ht) (by simp)
      · exact nY
    have hb := box_seg hs'.le hs'.a_top hs'.b_bot
    have y1 : Y.lo.toE ≤ max l x.lo.toE := hb.glb.2 (fun t ht => by
      obtain ⟨s, hs, rfl⟩ := ht; exact (nY.mem.mp (hSY hs)).1)
    have y2 : min u x.hi.toE ≤ Y.hi.toE := hb.lub.2 (fun t ht => by
      obtain ⟨s, hs, rfl⟩ := ht; exact (nY.mem.mp (hSY hs)).2)
    rw [j1]
    rintro t ⟨ht, htx⟩
    have htP := hN.mem.mp (a1 ht)
    have htx := nx.mem.mp htx
    rw [nY.mem]
    constructor
    · rcases le_max_iff.mp y1 with g | g
      · rw [← Fmt.le_rdE_iff φ nY.lo_in _ nY.lo_ne, ← hl] at g
        exact g.trans htP.1
      · exact g.trans htx.1
    · rcases min_le_iff.mp y2 with g | g
      · rw [← Fmt.ruE_le_iff φ nY.hi_in _ nY.hi_ne, ← hu] at g
        exact htP.2.trans g
      · exact htx.2.trans g
  · refine Tightest.of_set_empty i1 ?_ ?_
    · rw [j1, Set.eq_empty_iff_forall_notMem]
      rintro t ⟨ht, htx⟩
      have htP := hN.mem.mp (a1 ht)
      have htx := nx.mem.mp htx
      have hle := hs.le
      have hxle := nx.le
      have hcase : u < x.lo.toE ∨ x.hi.toE < l := by
        by_contra hc
        push Not at hc
        exact hne (max_le (le_min hle hc.2) (le_min hc.1 hxle))
      have hd : (P.dropIf x tl tu) ≠ Itv.empty := by
        intro hd; rw [hd] at ht; simp at ht
      apply hd
      rcases hcase with g | g
      · have g' := (Fmt.ruE_le_iff φ nx.lo_in u nx.lo_ne).mpr g.le
        rw [← hu] at g'
        have e : P.hi.toE = x.lo.toE := le_antisymm g' (htx.1.trans htP.2)
        have : tu = true := h2.mpr (by rw [e]; exact g.ne')
        unfold Itv.dropIf
        rw [if_pos]
        simp [this, (FP.feq_iff hN.hi_ne nx.lo_ne).mpr e]
      · have g' := (Fmt.le_rdE_iff φ nx.hi_in l nx.hi_ne).mpr g.le
        rw [← hl] at g'
        have e : x.hi.toE = P.lo.toE := le_antisymm g' (htP.1.trans htx.2)
        have : tl = true := h1.mpr (by rw [← e]; exact g.ne)
        unfold Itv.dropIf
        rw [if_pos]
        simp [this, (FP.feq_iff nx.hi_ne hN.lo_ne).mpr e]
    · rw [Set.eq_empty_iff_forall_notMem]
      rintro t ⟨⟨a, b⟩, htx⟩
      have htx := nx.mem.mp htx
      exact hne ((max_le a htx.1).trans (le_min b htx.2))

theorem Tightest.hull {A B : Itv} {S T : Set ℝ} (h : Tightest φ A S) (h' : Tightest φ B T) :
    Tightest φ (A.hull B) (S ∪ T) := by
  obtain ⟨k1, k2, k3⟩ := Itv.hull_tight h.1 h'.1
  refine ⟨k1, (Set.union_subset_union h.2.1 h'.2.1).trans k2, fun Y hY hS => k3 Y hY ?_⟩
  rw [Set.union_subset_iff] at hS
  exact Set.union_subset (h.2.2 Y hY hS.1) (h'.2.2 Y hY hS.2)

theorem XLeaf.revHull (h : XLeaf φ P tl tu S) (hx : x.Ok φ) :
    Tightest φ (P.revHull x tl tu) ((S ∪ {t | -t ∈ S}) ∩ x.set) := by
  rw [Set.union_inter_distrib_right]
  exact (h.cut hx).hull (h.neg.cut hx)

/-- Directed rounding of the inverse function `g` at a bound, with its ternary value. -/
structure InvAt (φ : Fmt) (m : Rnd) (g : ℝ → ℝ) (a r : FP) (t : Bool) (L : EReal) : Prop where
  lim : (a.toE = ⊤ ∧ L = ⊤) ∨ ∃ v : ℝ, a.toE = v ∧ L = g v
  val : r.toE = φ.rndE m L
  flag : t = true ↔ r.toE ≠ L
  ne : r ≠ .nan
  inφ : r.In φ

theorem differs_iff {r : FP} (hr : r ≠ .nan) (v : ℝ) : r.differs v = true ↔ r.toE ≠ (v:EReal) := by
  cases r with
  | nan => exact absurd rfl hr
  | ninf => simp [FP.differs]
  | pinf => simp [FP.differs]
  | nzero =>
    simp only [FP.differs, FP.toE_nzero, decide_eq_true_eq, ne_eq]
    rw [show (0:EReal) = ((0:ℝ):EReal) from rfl, EReal.coe_eq_coe_iff, eq_comm]
  | fin q => simp [FP.differs]

theorem sqrt_inv (m : Rnd) {a : FP} (ha : a ≠ .nan) (h0 : 0 ≤ a.toE) :
    ∃ L, InvAt φ m Real.sqrt a (φ.sqrt m a) (φ.sqrtX m a) L := by
  cases a with
  | nan => exact absurd rfl ha
  | ninf => simp at h0
  | pinf => exact ⟨⊤, Or.inl ⟨rfl, rfl⟩, by simp [Fmt.sqrt, Fmt.un], by simp [Fmt.sqrtX, Fmt.unX, Fmt.sqrt, Fmt.un],
      by simp [Fmt.sqrt, Fmt.un], by simp [Fmt.sqrt, Fmt.un, FP.In]⟩
  | nzero => exact ⟨0, Or.inr ⟨0, by simp, by simp⟩, by simp [Fmt.sqrt, Fmt.un],
      by simp [Fmt.sqrtX, Fmt.unX, Fmt.sqrt, Fmt.un], by simp [Fmt.sqrt, Fmt.un], by simp [Fmt.sqrt, Fmt.un, FP.In]⟩
  | fin q =>
    have hq : ¬ q < 0 := by
      have : (0:ℝ) ≤ q := by simpa using h0
      have : 0 ≤ q := by exact_mod_cast this
      exact not_lt.mpr this
    have e : φ.sqrt m (.fin q) = φ.round m (Real.sqrt q) := by simp [Fmt.sqrt, hq, Fmt.un]
    rw [e]
    exact ⟨(Real.sqrt q : ℝ), Or.inr ⟨q, by simp, rfl⟩, by rw [Fmt.rndE_coe],
      differs_iff (φ.round_ne_nan _ _) _, φ.round_ne_nan _ _, φ.round_in _ _⟩

theorem acosh_inv (m : Rnd) {a : FP} (ha : a ≠ .nan) (h0 : 1 ≤ a.toE) :
    ∃ L, InvAt φ m Real.arcosh a (φ.acosh m a) (φ.acoshX m a) L := by
  cases a with
  | nan => exact absurd rfl ha
  | ninf => exact absurd (le_bot_iff.mp h0) (EReal.coe_ne_bot 1)
  | pinf => exact ⟨⊤, Or.inl ⟨rfl, rfl⟩, by simp [Fmt.acosh], by simp [Fmt.acoshX, Fmt.unX, Fmt.acosh],
      by simp [Fmt.acosh], by simp [Fmt.acosh, FP.In]⟩
  | nzero => exact absurd (show (1:ℝ) ≤ 0 by exact_mod_cast (show ((1:ℝ):EReal) ≤ ((0:ℝ):EReal) from h0)) (by norm_num)
  | fin q =>
    have hq : (1:ℝ) ≤ q := by
      rw [FP.toE_fin] at h0; exact_mod_cast h0
    have hq : 1 ≤ q := by exact_mod_cast hq
    have e : φ.acosh m (.fin q) = φ.round m (Real.arcosh q) := by simp [Fmt.acosh, not_lt.mpr hq]
    rw [e]
    exact ⟨(Real.arcosh q : ℝ), Or.inr ⟨q, by simp, rfl⟩, by rw [Fmt.rndE_coe],
      differs_iff (φ.round_ne_nan _ _) _, φ.round_ne_nan _ _, φ.round_in _ _⟩

/-- `g` is the inverse of `f` on `[0, ∞)`, defined from `b` on. -/
structure InvOf (f g : ℝ → ℝ) (b : ℝ) : Prop where
  le : ∀ a t : ℝ, b ≤ a → 0 ≤ t → (g a ≤ t ↔ a ≤ f t)
  ge : ∀ a t : ℝ, b ≤ a → 0 ≤ t → (t ≤ g a ↔ f t ≤ a)
  nonneg : ∀ a, b ≤ a → 0 ≤ g a
  low : ∀ t, b ≤ f t

theorem InvAt.lower {f g : ℝ → ℝ} {b : ℝ} (H : InvOf f g b) {m : Rnd} {a r : FP} {t : Bool} {L : EReal}
    (h : InvAt φ m g a r t L) (h0 : (b:EReal) ≤ a.toE) {s : ℝ} (hs : 0 ≤ s) : L ≤ s ↔ a.toE ≤ (f s : ℝ) := by
  rcases h.lim with ⟨h1, rfl⟩ | ⟨v, h1, rfl⟩
  · rw [h1]; simp
  · rw [h1] at h0 ⊢
    have h0 : b ≤ v := by exact_mod_cast h0
    rw [EReal.coe_le_coe_iff, EReal.coe_le_coe_iff]; exact H.le v s h0 hs

theorem InvAt.upper {f g : ℝ → ℝ} {b : ℝ} (H : InvOf f g b) {m : Rnd} {a r : FP} {t : Bool} {L : EReal}
    (h : InvAt φ m g a r t L) (h0 : (b:EReal) ≤ a.toE) {s : ℝ} (hs : 0 ≤ s) : (s:EReal) ≤ L ↔ ((f s : ℝ):EReal) ≤ a.toE := by
  rcases h.lim with ⟨h1, rfl⟩ | ⟨v, h1, rfl⟩
  · rw [h1]; simp
  · rw [h1] at h0 ⊢
    have h0 : b ≤ v := by exact_mod_cast h0
    rw [EReal.coe_le_coe_iff, EReal.coe_le_coe_iff]; exact H.ge v s h0 hs

theorem InvAt.nonneg {f g : ℝ → ℝ} {b : ℝ} (H : InvOf f g b) {m : Rnd} {a r : FP} {t : Bool} {L : EReal}
    (h : InvAt φ m g a r t L) (h0 : (b:EReal) ≤ a.toE) : 0 ≤ L := by
  rcases h.lim with ⟨h1, rfl⟩ | ⟨v, h1, rfl⟩
  · simp
  · rw [h1] at h0
    have h0 : b ≤ v := by exact_mod_cast h0
    exact_mod_cast H.nonneg v h0

/-- The branch of `sqr_rev` and `cosh_rev` on the non-negative numbers. -/
theorem xleaf_inv {f g : ℝ → ℝ} {b : ℝ} (H : InvOf f g b) {c : Itv} (hc : c.NE φ) {l u : FP} {tl tu : Bool} {L U : EReal}
    (hb : (b:EReal) ≤ c.hi.toE)
    (hL : (c.lo.toE < b ∧ l = .fin 0 ∧ tl = false ∧ L = 0) ∨ ((b:EReal) ≤ c.lo.toE ∧ InvAt φ .D g c.lo l tl L))
    (hU : InvAt φ .U g c.hi u tu U) : XLeaf φ ⟨l, u⟩ tl tu {t | 0 ≤ t ∧ f t ∈ c.set} := by
  have hlow : ∀ s : ℝ, 0 ≤ s → (L ≤ s ↔ c.lo.toE ≤ (f s : ℝ)) := by
    intro s hs
    rcases hL with ⟨h1, h2, h3, rfl⟩ | ⟨h1, h2⟩
    · constructor
      · intro _
        exact h1.le.trans (by exact_mod_cast H.low s)
      · intro _; exact_mod_cast hs
    · exact h2.lower H h1 hs
  have hL0 : 0 ≤ L := by
    rcases hL with ⟨h1, h2, h3, rfl⟩ | ⟨h1, h2⟩
    · exact le_rfl
    · exact h2.nonneg H h1
  have hU0 := hU.nonneg H hb
  have hset : {t | 0 ≤ t ∧ f t ∈ c.set} = Seg L U := by
    ext t
    rw [mem_seg, Set.mem_ofPred_eq, hc.mem]
    constructor
    · rintro ⟨h1, h2, h3⟩
      exact ⟨(hlow t h1).mpr h2, (hU.upper H hb h1).mpr h3⟩
    · rintro ⟨h1, h2⟩
      have h0 : 0 ≤ t := by exact_mod_cast hL0.trans h1
      exact ⟨h0, (hlow t h0).mp h1, (hU.upper H hb h0).mp h2⟩
  have hLU : L ≤ U := by
    rcases hL with ⟨h1, h2, h3, rfl⟩ | ⟨h1, h2⟩
    · exact hU0
    · rcases h2.lim with ⟨g1, -⟩ | ⟨v, g1, rfl⟩
      · exact absurd g1 hc.lo_top
      · rcases hU.lim with ⟨g3, rfl⟩ | ⟨w, g3, rfl⟩
        · exact le_top
        · rw [g1] at h1
          have h1 : b ≤ v := by exact_mod_cast h1
          have hvw : v ≤ w := by
            have := hc.le; rw [g1, g3] at this; exact_mod_cast this
          have hbw := h1.trans hvw
          rw [EReal.coe_le_coe_iff, H.le v _ h1 (H.nonneg w hbw)]
          exact hvw.trans ((H.le w _ hbw (H.nonneg w hbw)).mp le_rfl)
  have hLt : L ≠ ⊤ := by
    rcases hL with ⟨h1, h2, h3, rfl⟩ | ⟨h1, h2⟩
    · simp
    · rcases h2.lim with ⟨g1, -⟩ | ⟨v, g1, rfl⟩
      · exact absurd g1 hc.lo_top
      · simp
  have hU1 : U ≠ ⊥ := by rintro rfl; simp at hU0
  refine ⟨⟨L, U, ⟨hLU, hLt, hU1⟩, hset, ?_, hU.val, ?_, hU.flag⟩, ?_, hU.ne, ?_, hU.inφ⟩
  · rcases hL with ⟨h1, h2, h3, rfl⟩ | ⟨h1, h2⟩
    · rw [h2, Fmt.rdE_zero]; simp
    · exact h2.val
  · rcases hL with ⟨h1, h2, h3, rfl⟩ | ⟨h1, h2⟩
    · rw [h2, h3]; simp
    · exact h2.flag
  · rcases hL with ⟨h1, h2, h3, rfl⟩ | ⟨h1, h2⟩
    · rw [h2]; simp
    · exact h2.ne
  · rcases hL with ⟨h1, h2, h3, rfl⟩ | ⟨h1, h2⟩
    · rw [h2]; exact φ.rep_zero
    · exact h2.inφ

theorem inv_sqr : InvOf (fun t => t ^ 2) Real.sqrt 0 :=
  ⟨fun a t _ h => by rw [Real.sqrt_le_left h], fun a t ha h => Real.le_sqrt h ha, fun a _ => Real.sqrt_nonneg a,
    fun t => sq_nonneg t⟩

theorem inv_cosh : InvOf Real.cosh Real.arcosh 1 := by
  refine ⟨fun a t ha ht => ?_, fun a t ha ht => ?_, fun a ha => Real.arcosh_nonneg ha, Real.one_le_cosh⟩
  · have h0 := Real.arcosh_nonneg ha
    conv_rhs => rw [← Real.cosh_arcosh ha]
    rw [Real.cosh_le_cosh, abs_of_nonneg h0, abs_of_nonneg ht]
  · have h0 := Real.arcosh_nonneg ha
    conv_rhs => rw [← Real.cosh_arcosh ha]
    rw [Real.cosh_le_cosh, abs_of_nonneg h0, abs_of_nonneg ht]

end P1788
