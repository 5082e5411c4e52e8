import Verif.Lemmas.RevCut
import Verif.Lemmas.SetOp

/-! Helper lemmas: the reverse functions are monotone. -/

namespace P1788
open FP

variable {φ : Fmt} {x x' : Itv} {S S' T T' : Set ℝ}

/-- A larger solution set and a larger interval to cut with give a larger piece. -/
theorem drop_mono {P P' : Itv} {tl tu tl' tu' : Bool} (h : Leaf φ P tl tu S) (h' : Leaf φ P' tl' tu' S') (hs : S ⊆ S')
    (hx : x.set ⊆ x'.set) :
    (P.dropIf x tl tu).set ∩ x.set ⊆ (P'.dropIf x' tl' tu').set ∩ x'.set := by
  rintro t ⟨ht, htx⟩
  refine ⟨?_, hx htx⟩
  have hd : P.dropIf x tl tu = P := by
    unfold Itv.dropIf at ht ⊢
    split_ifs at ht ⊢ with hc
    · simp at ht
    · rfl
  rw [hd] at ht
  have hPP : P.set ⊆ P'.set := h.tight.2.2 P' h'.tight.1 (hs.trans h'.tight.2.1)
  have hn : S.Nonempty := by
    by_contra hne
    rw [Set.not_nonempty_iff_eq_empty] at hne
    have := h.tight.2.2 Itv.empty (Itv.ok_empty φ) (by simp [hne]) ht
    simp at this
  obtain ⟨l, u, hB, fl, fu⟩ := h.box hn
  obtain ⟨l', u', hB', fl', fu'⟩ := h'.box (hn.mono hs)
  have hll : l' ≤ l := hB.le_glb fun s hs' => hB'.le (hs hs')
  have huu : u ≤ u' := hB.lub_le fun s hs' => hB'.ge (hs hs')
  have ht' := hPP ht
  have htx' := hx htx
  unfold Itv.dropIf
  split_ifs with hc
  · exfalso
    have m := Itv.mem_set.mp ht
    have m' := Itv.mem_set.mp ht'
    have mx := Itv.mem_set.mp htx
    have mx' := Itv.mem_set.mp htx'
    have n1 : P.set.Nonempty := ⟨t, ht⟩
    -- the point reached must be the bound itself
    simp only [Bool.or_eq_true, Bool.and_eq_true] at hc
    have hnd : ¬ ((P.hi.feq x.lo = true ∧ tu = true) ∨ (x.hi.feq P.lo = true ∧ tl = true)) := by
      intro hh
      unfold Itv.dropIf at hd
      rw [if_pos (by simpa using hh)] at hd
      rw [← hd] at ht; simp at ht
    rcases hc with ⟨c1, c2⟩ | ⟨c1, c2⟩
    · rw [FP.feq_iff m'.2.1 mx'.1.1] at c1
      have k1 : (t:EReal) = P'.hi.toE := le_antisymm m'.2.2 (c1 ▸ mx'.1.2)
      -- `t` is the lower bound of `x` and the upper bound of `P`
      have k2 : x.lo.toE = t := by
        refine le_antisymm mx.1.2 ?_
        by_contra hlt
        push Not at hlt
        obtain ⟨s, s1, s2⟩ := EReal.lt_iff_exists_real_btwn.mp hlt
        have : s ∈ x.set := Itv.mem_set.mpr ⟨⟨mx.1.1, s1.le⟩, mx.2.1, s2.le.trans mx.2.2⟩
        have := (Itv.mem_set.mp (hx this)).1.2
        rw [← c1, ← k1] at this
        exact absurd s2 (not_lt.mpr this)
      have k3 : P.hi.toE = t := by
        refine le_antisymm ?_ m.2.2
        by_contra hlt
        push Not at hlt
        obtain ⟨s, s1, s2⟩ := EReal.lt_iff_exists_real_btwn.mp hlt
        have : s ∈ P.set := Itv.mem_set.mpr ⟨⟨m.1.1, m.1.2.trans s1.le⟩, m.2.1, s2.le⟩
        have := (Itv.mem_set.mp (hPP this)).2.2
        rw [← k1] at this
        exact absurd s1 (not_lt.mpr this)
      have k4 : u' < t := by
        have := fu'.mp c2
        rw [← k1] at this
        exact lt_of_le_of_ne (k1 ▸ hB'.lub_le fun s hs' => (Itv.mem_set.mp (h'.tight.2.1 hs')).2.2) this.symm
      refine hnd (Or.inl ⟨(FP.feq_iff m.2.1 mx.1.1).mpr (by rw [k2, k3]), fu.mpr ?_⟩)
      rw [k3]; exact (huu.trans_lt k4).ne'
    · rw [FP.feq_iff mx'.2.1 m'.1.1] at c1
      have k1 : (t:EReal) = P'.lo.toE := le_antisymm (c1 ▸ mx'.2.2) m'.1.2
      have k2 : x.hi.toE = t := by
        refine le_antisymm ?_ mx.2.2
        by_contra hlt
        push Not at hlt
        obtain ⟨s, s1, s2⟩ := EReal.lt_iff_exists_real_btwn.mp hlt
        have : s ∈ x.set := Itv.mem_set.mpr ⟨⟨mx.1.1, mx.1.2.trans s1.le⟩, mx.2.1, s2.le⟩
        have := (Itv.mem_set.mp (hx this)).2.2
        rw [c1, ← k1] at this
        exact absurd s1 (not_lt.mpr this)
      have k3 : P.lo.toE = t := by
        refine le_antisymm m.1.2 ?_
        by_contra hlt
        push Not at hlt
        obtain ⟨s, s1, s2⟩ := EReal.lt_iff_exists_real_btwn.mp hlt
        have : s ∈ P.set := Itv.mem_set.mpr ⟨⟨m.1.1, s1.le⟩, m.2.1, s2.le.trans m.2.2⟩
        have := (Itv.mem_set.mp (hPP this)).1.2
        rw [← k1] at this
        exact absurd s2 (not_lt.mpr this)
      have k4 : (t:EReal) < l' := by
        have := fl'.mp c2
        rw [← k1] at this
        exact lt_of_le_of_ne (k1 ▸ hB'.le_glb fun s hs' => (Itv.mem_set.mp (h'.tight.2.1 hs')).1.2) this
      refine hnd (Or.inr ⟨(FP.feq_iff mx.2.1 m.1.1).mpr (by rw [k2, k3]), fl.mpr ?_⟩)
      rw [k3]; exact (k4.trans_le hll).ne
  · exact ht'

/-- The two pieces of `mul_rev` and `pown_rev`, put together. -/
theorem hull_mono {A B A' B' : Itv} (hA : A.Ok φ) (hB : B.Ok φ) (hA' : A'.Ok φ) (hB' : B'.Ok φ) (h : A.set ∪ B.set ⊆ A'.set ∪ B'.set) :
    (A.hull B).set ⊆ (A'.hull B').set :=
  (Itv.hull_tight hA hB).2.2 _ (Itv.hull_tight hA' hB').1 (h.trans (Itv.hull_tight hA' hB').2.1)

theorem hull_empty_left {A : Itv} (hA : A.Ok φ) : (Itv.empty.hull A).set = A.set := by
  obtain ⟨-, h2, h3⟩ := Itv.hull_tight (Itv.ok_empty φ) hA
  exact Set.Subset.antisymm (h3 A hA (by simp)) (Set.subset_union_right.trans h2)

theorem hull_empty_right {A : Itv} (hA : A.Ok φ) : (A.hull Itv.empty).set = A.set := by
  obtain ⟨-, h2, h3⟩ := Itv.hull_tight hA (Itv.ok_empty φ)
  exact Set.Subset.antisymm (h3 A hA (by simp)) (Set.subset_union_left.trans h2)

/-- The result of `pown_rev` is put together from pieces for the negative and the positive solutions. -/
structure Pieces (φ : Fmt) (R x : Itv) (N P : Set ℝ) : Prop where
  ex : ∃ (A B : Itv) (al au bl bu : Bool), Leaf φ A al au N ∧ Leaf φ B bl bu P ∧
    R.set = (((A.dropIf x al au).inter x).hull ((B.dropIf x bl bu).inter x)).set

theorem Pieces.mono {R R' : Itv} {N N' P P' : Set ℝ} (hx : x.Ok φ) (hx' : x'.Ok φ) (h : Pieces φ R x N P)
    (h' : Pieces φ R' x' N' P') (hN : N ⊆ N') (hP : P ⊆ P') (l : x.set ⊆ x'.set) : R.set ⊆ R'.set := by
  obtain ⟨A, B, al, au, bl, bu, L1, L2, e⟩ := h.ex
  obtain ⟨A', B', al', au', bl', bu', L1', L2', e'⟩ := h'.ex
  obtain ⟨i1, j1⟩ := Itv.inter_ok_set (dropIf_spec L1 hx).1 hx
  obtain ⟨i2, j2⟩ := Itv.inter_ok_set (dropIf_spec L2 hx).1 hx
  obtain ⟨i1', j1'⟩ := Itv.inter_ok_set (dropIf_spec L1' hx').1 hx'
  obtain ⟨i2', j2'⟩ := Itv.inter_ok_set (dropIf_spec L2' hx').1 hx'
  rw [e, e']
  refine hull_mono i1 i2 i1' i2' ?_
  rw [j1, j2, j1', j2']
  exact Set.union_subset_union (drop_mono L1 L1' hN l) (drop_mono L2 L2' hP l)

theorem dropIf_empty (x : Itv) : Itv.empty.dropIf x false false = Itv.empty := by simp [Itv.dropIf]

theorem inter_comm_set {A B : Itv} (hA : A.Ok φ) (hB : B.Ok φ) : (A.inter B).set = (B.inter A).set := by
  rw [(Itv.inter_ok_set hA hB).2, (Itv.inter_ok_set hB hA).2, Set.inter_comm]

theorem hull_congr {A B A' B' : Itv} (hA : A.Ok φ) (hB : B.Ok φ) (hA' : A'.Ok φ) (hB' : B'.Ok φ) (h : A.set = A'.set)
    (k : B.set = B'.set) : (A.hull B).set = (A'.hull B').set :=
  Set.Subset.antisymm (hull_mono hA hB hA' hB' (by rw [h, k])) (hull_mono hA' hB' hA hB (by rw [h, k]))

theorem empty_inter (x : Itv) : Itv.empty.inter x = Itv.empty := by
  unfold Itv.inter Itv.disjoint
  by_cases h : x.isValid = true <;> simp [h]

/-- Only negative solutions. -/
theorem Pieces.neg {A : Itv} {al au : Bool} {N P : Set ℝ} (hx : x.Ok φ) (h : Leaf φ A al au N) (hP : P = ∅) :
    Pieces φ (x.inter (A.dropIf x al au)) x N P := by
  have o := (dropIf_spec h hx).1
  refine ⟨A, Itv.empty, al, au, false, false, h, hP ▸ leaf_empty φ, ?_⟩
  have e : (Itv.empty.dropIf x false false).inter x = Itv.empty := by
    rw [dropIf_empty, empty_inter]
  rw [e, hull_empty_right (Itv.inter_ok_set o hx).1]
  exact inter_comm_set hx o

/-- Only positive solutions. -/
theorem Pieces.pos {A : Itv} {al au : Bool} {N P : Set ℝ} (hx : x.Ok φ) (h : Leaf φ A al au P) (hN : N = ∅) :
    Pieces φ (x.inter (A.dropIf x al au)) x N P := by
  have o := (dropIf_spec h hx).1
  refine ⟨Itv.empty, A, false, false, al, au, hN ▸ leaf_empty φ, h, ?_⟩
  have e : (Itv.empty.dropIf x false false).inter x = Itv.empty := by
    rw [dropIf_empty, empty_inter]
  rw [e, hull_empty_left (Itv.inter_ok_set o hx).1]
  exact inter_comm_set hx o

theorem Pieces.none {N P : Set ℝ} (hN : N = ∅) (hP : P = ∅) : Pieces φ Itv.empty x N P := by
  refine ⟨Itv.empty, Itv.empty, false, false, false, false, hN ▸ leaf_empty φ, hP ▸ leaf_empty φ, ?_⟩
  have e : (Itv.empty.dropIf x false false).inter x = Itv.empty := by
    rw [dropIf_empty, empty_inter]
  rw [e, hull_empty_left (Itv.ok_empty φ)]

theorem Pieces.both {A B : Itv} {al au bl bu : Bool} {N P : Set ℝ} (hx : x.Ok φ) (h : Leaf φ A al au N) (k : Leaf φ B bl bu P) :
    Pieces φ ((x.inter (A.dropIf x al au)).hull (x.inter (B.dropIf x bl bu))) x N P := by
  have o := (dropIf_spec h hx).1
  have o' := (dropIf_spec k hx).1
  refine ⟨A, B, al, au, bl, bu, h, k, ?_⟩
  exact hull_congr (Itv.inter_ok_set hx o).1 (Itv.inter_ok_set hx o').1 (Itv.inter_ok_set o hx).1 (Itv.inter_ok_set o' hx).1
    (inter_comm_set hx o) (inter_comm_set hx o')

theorem Pieces.mirror {a b : FP × Bool} {l u : EReal} {P : Set ℝ} (hx : x.Ok φ) (hB : Box P l u) (ha : RevAt φ .D l a)
    (hb : RevAt φ .U u b) : Pieces φ ((Itv.mk a.1 b.1).revHull x a.2 b.2) x {t | -t ∈ P} P := by
  have hL := leaf_of_box hB ha hb
  have ne : (Itv.mk a.1 b.1).NE φ := by
    rcases hL.tight.1.cases with h | h
    · obtain ⟨s, hs⟩ := hB.ne
      have := hL.tight.2.1 hs
      rw [h] at this; simp at this
    · exact h
  have hL' := leaf_of_box (box_mirror hB) (hb.neg (m' := .D) (fun e => φ.rdE_neg e)) (ha.neg (m' := .U) (fun e => φ.ruE_neg e))
  refine ⟨_, _, _, _, _, _, hL', hL, ?_⟩
  unfold Itv.revHull
  rw [negI_ne ne]
  have o1 := (Itv.inter_ok_set (dropIf_spec hL hx).1 hx).1
  have o2 := (Itv.inter_ok_set (dropIf_spec hL' hx).1 hx).1
  exact Set.Subset.antisymm (hull_mono o1 o2 o2 o1 (Set.union_comm _ _).subset)
    (hull_mono o2 o1 o1 o2 (Set.union_comm _ _).subset)

/-- Negative exponents. -/
theorem pownRevV_pieces {p : ℤ} {c : Itv} (hp : p < 0) (nc : c.NE φ) (nx : x.NE φ) :
    Pieces φ (c.pownRevV φ x p) x (negSol p c.lo.toE c.hi.toE) (posSol p c.lo.toE c.hi.toE) := by
  have hx := nx.ok
  unfold Itv.pownRevV
  simp only [nc.isValid, nx.isValid, nc.isEmpty, nx.isEmpty, Bool.not_true, Bool.or_self, Bool.false_eq_true, if_false]
  rw [if_neg (by omega), if_neg (by omega)]
  by_cases he : p % 2 = 0
  · rw [if_pos he, if_pos hp]
    by_cases hb : c.hi.toE ≤ 0
    · rw [if_pos ((NE.le0_iff nc.hi_ne).mpr hb)]
      refine Pieces.none ?_ (posSol_empty hb)
      rw [← negSol_even he, posSol_empty hb]; simp
    rw [if_neg (fun h => hb ((NE.le0_iff nc.hi_ne).mp h))]
    have hb := not_le.mp hb
    rw [← negSol_even he]
    by_cases ha : c.lo.toE ≤ 0
    · rw [if_pos ((NE.le0_iff nc.lo_ne).mpr ha)]
      rw [posSol_lower ha le_rfl]
      have hB := posBox hp le_rfl EReal.zero_ne_top hb.le hb
      refine Pieces.mirror hx hB (pownRevInf_at hp nc.hi_ne nc.hi_in (Or.inl hb)) ?_
      have := pownRevSup_at (φ := φ) hp (c := .fin 0) (by simp) φ.rep_zero (Or.inl rfl)
      simpa using this
    · rw [if_neg (fun h => ha ((NE.le0_iff nc.lo_ne).mp h))]
      have ha := not_le.mp ha
      have hB := posBox hp ha.le nc.lo_top nc.le hb
      exact Pieces.mirror hx hB (pownRevInf_at hp nc.hi_ne nc.hi_in (Or.inl hb))
        (pownRevSup_at hp nc.lo_ne nc.lo_in (Or.inr (Or.inl ⟨ha, nc.lo_top⟩)))
  · rw [if_neg he, if_pos hp]
    simp only [NE.eq0_iff nc.lo_ne, NE.eq0_iff nc.hi_ne, NE.ge0_iff nc.lo_ne, NE.le0_iff nc.hi_ne]
    by_cases hz : c.lo.toE = 0 ∧ c.hi.toE = 0
    · rw [if_pos hz]
      exact Pieces.none (negSol_empty_odd he hz.1.ge) (posSol_empty hz.2.le)
    rw [if_neg hz]
    have hle := nc.le
    by_cases hs : 0 ≤ c.lo.toE ∨ c.hi.toE ≤ 0
    · rw [if_pos hs]
      by_cases h0 : 0 ≤ c.lo.toE
      · have hb : 0 < c.hi.toE := by
          refine lt_of_le_of_ne (h0.trans hle) (fun h => hz ⟨le_antisymm ?_ h0, h.symm⟩)
          rw [h]; exact hle
        refine Pieces.pos hx ?_ (negSol_empty_odd he h0)
        have hB := posBox hp h0 nc.lo_top hle hb
        refine leaf_of_box hB ?_ ?_
        · rw [if_neg hb.ne']
          exact pownRevInf_at hp nc.hi_ne nc.hi_in (Or.inl hb)
        · by_cases hl : c.lo.toE = 0
          · rw [if_pos hl, hl, vE_zero]; exact RevAt.pinf φ
          · rw [if_neg hl]
            exact pownRevSup_at hp nc.lo_ne nc.lo_in (Or.inr (Or.inr ⟨he, hl, nc.lo_top⟩))
      · have hb := hs.resolve_left h0
        have ha := not_le.mp h0
        refine Pieces.neg hx ?_ (posSol_empty hb)
        have hB := negBox hp he hb nc.hi_bot hle ha
        refine leaf_of_box hB ?_ ?_
        · by_cases hl : c.hi.toE = 0
          · rw [if_pos hl, hl, neg_zero, vE_zero, EReal.neg_top]; exact RevAt.ninf φ
          · rw [if_neg hl, vE_neg _ hl, neg_neg]
            exact pownRevInf_at hp nc.hi_ne nc.hi_in (Or.inr ⟨he, hl, nc.hi_bot⟩)
        · rw [if_neg ha.ne]
          exact pownRevSup_at hp nc.lo_ne nc.lo_in (Or.inr (Or.inr ⟨he, ha.ne, nc.lo_top⟩))
    · rw [if_neg hs]
      push Not at hs
      obtain ⟨ha, hb⟩ := hs
      rw [posSol_lower ha.le le_rfl, negSol_upper he hb.le le_rfl]
      refine Pieces.both hx ?_ ?_
      · have hB := negBox hp he le_rfl EReal.zero_ne_bot ha.le ha
        rw [neg_zero, vE_zero, EReal.neg_top] at hB
        exact leaf_of_box hB (RevAt.ninf φ) (pownRevSup_at hp nc.lo_ne nc.lo_in (Or.inr (Or.inr ⟨he, ha.ne, nc.lo_top⟩)))
      · have hB := posBox hp le_rfl EReal.zero_ne_top hb.le hb
        rw [vE_zero] at hB
        exact leaf_of_box hB (pownRevInf_at hp nc.hi_ne nc.hi_in (Or.inl hb)) (RevAt.pinf φ)

theorem sol_mono {p : ℤ} {c c' : Itv} (nc : c.NE φ) (nc' : c'.NE φ) (h : c.set ⊆ c'.set) :
    negSol p c.lo.toE c.hi.toE ⊆ negSol p c'.lo.toE c'.hi.toE ∧ posSol p c.lo.toE c.hi.toE ⊆ posSol p c'.lo.toE c'.hi.toE := by
  constructor
  · rintro t ⟨h1, h2⟩
    exact ⟨h1, nc'.mem.mp (h (nc.mem.mpr h2))⟩
  · rintro t ⟨h1, h2⟩
    exact ⟨h1, nc'.mem.mp (h (nc.mem.mpr h2))⟩

/-- Exponents of two and more: a single piece unless the exponent is even and `c` is positive. -/
theorem pownRevV_pos {p : ℤ} {c : Itv} (hp : 2 ≤ p) (nc : c.NE φ) (nx : x.NE φ) :
    (¬ (p % 2 = 0 ∧ 0 < c.lo.toE) → ∃ R, Tightest φ R (PowSol p c.set) ∧ (c.pownRevV φ x p).set = x.set ∩ R.set) ∧
    (p % 2 = 0 ∧ 0 < c.lo.toE → ∃ A B, Tightest φ A (PowSol p c.set ∩ Set.Iic 0) ∧ Tightest φ B (PowSol p c.set ∩ Set.Ici 0) ∧
      (c.pownRevV φ x p).set = ((x.inter A).hull (x.inter B)).set) := by
  have hx := nx.ok
  have hc := nc.ok
  have hp0 : 0 < p := by omega
  have hn : p.toNat ≠ 0 := by omega
  unfold Itv.pownRevV
  simp only [nc.isValid, nx.isValid, nc.isEmpty, nx.isEmpty, Bool.not_true, Bool.or_self, Bool.false_eq_true, if_false]
  rw [if_neg (by omega), if_neg (by omega)]
  by_cases he : p % 2 = 0
  · rw [if_pos he, if_neg (by omega)]
    have hsol : ∀ t : ℝ, t ∈ PowSol p c.set ↔ c.lo.toE ≤ ((|t| ^ p.toNat : ℝ) : EReal) ∧ ((|t| ^ p.toNat : ℝ) : EReal) ≤ c.hi.toE := by
      intro t
      simp only [PowSol, Set.mem_ofPred_eq, nc.mem, hp0.le, or_true, true_and]
      rw [← zpow_abs_even he, pow_toNat hp0]
    by_cases hb : c.hi.toE < 0
    · rw [if_pos ((NE.lt0_iff nc.hi_ne).mpr hb)]
      refine ⟨fun _ => ⟨Itv.empty, tightest_empty' rfl ?_, by simp⟩, fun h => absurd (h.2.trans_le nc.le) hb.le.not_gt⟩
      rw [Set.eq_empty_iff_forall_notMem]
      intro t ht
      have h0 : (0:EReal) ≤ ((|t| ^ p.toNat : ℝ) : EReal) := by
        have : (0:ℝ) ≤ |t| ^ p.toNat := by positivity
        exact_mod_cast this
      exact absurd (h0.trans ((hsol t).mp ht).2) hb.not_ge
    rw [if_neg (fun h => hb ((NE.lt0_iff nc.hi_ne).mp h))]
    have hb := not_lt.mp hb
    obtain ⟨u1, u2, u3⟩ := root_at (φ := φ) (m := .U) hn nc.hi_ne (Or.inl hb)
    have hru := rE_nonneg hn hb
    by_cases ha : c.lo.toE ≤ 0
    · rw [if_pos ((NE.le0_iff nc.lo_ne).mpr ha)]
      refine ⟨fun _ => ⟨⟨(φ.root .U p.toNat c.hi).neg, φ.root .U p.toNat c.hi⟩, ?_, ?_⟩, fun h => absurd h.2 ha.not_gt⟩
      swap
      · refine (Itv.inter_ok_set hx ?_).2
        refine (Itv.NE.mk ?_ u2 ?_ ?_ ?_ ?_ u3).ok
        · simpa using u2
        · simp only [FP.toE_neg]
          have := hru.trans (φ.le_ruE (rE p.toNat c.hi.toE))
          rw [u1, Fmt.rndE_U]
          exact (EReal.neg_le.mpr (by simpa using this)).trans this
        · simp only [FP.toE_neg]
          rw [u1, Fmt.rndE_U]
          have : φ.ruE (rE p.toNat c.hi.toE) ≠ ⊥ := φ.ruE_ne_bot (rE_ne_bot nc.hi_bot)
          simpa using this
        · simp only []
          rw [u1, Fmt.rndE_U]
          exact φ.ruE_ne_bot (rE_ne_bot nc.hi_bot)
        · exact FP.neg_in u3
      have hB : Box (Seg (-rE p.toNat c.hi.toE) (rE p.toNat c.hi.toE)) (-rE p.toNat c.hi.toE) (rE p.toNat c.hi.toE) :=
        box_seg ((EReal.neg_le.mpr (by simpa using hru)).trans hru) (by simpa using rE_ne_bot nc.hi_bot) (rE_ne_bot nc.hi_bot)
      refine (tightest_of_box hB (by simpa using u2) u2 (FP.neg_in u3) u3 ?_ u1).of_eq ?_
      · show (φ.root .U p.toNat c.hi).neg.toE = _
        rw [FP.toE_neg, u1, Fmt.rndE_U, Fmt.rdE_neg]
      · ext t
        rw [hsol, mem_seg, ← (root_le_iff hn (Or.inl ⟨hb, abs_nonneg t⟩)).2]
        have h0 : (0:EReal) ≤ ((|t| ^ p.toNat : ℝ) : EReal) := by
          have : (0:ℝ) ≤ |t| ^ p.toNat := by positivity
          exact_mod_cast this
        rw [and_iff_right (ha.trans h0)]
        generalize rE p.toNat c.hi.toE = U
        rw [EReal.neg_le, ← EReal.coe_neg]
        rcases abs_cases t with ⟨e, h⟩ | ⟨e, h⟩
        · rw [e]
          refine ⟨fun g => g.2, fun g => ⟨le_trans ?_ g, g⟩⟩
          exact_mod_cast (by linarith : -t ≤ t)
        · rw [e]
          refine ⟨fun g => g.1, fun g => ⟨g, le_trans ?_ g⟩⟩
          exact_mod_cast (by linarith : t ≤ -t)
    · rw [if_neg (fun h => ha ((NE.le0_iff nc.lo_ne).mp h))]
      have ha' := not_le.mp ha
      have ha := (not_le.mp ha).le
      refine ⟨fun h => absurd ⟨he, ha'⟩ h, fun _ => ?_⟩
      obtain ⟨l1, l2, l3⟩ := root_at (φ := φ) (m := .D) hn nc.lo_ne (Or.inl ha)
      have hlu := rE_mono hn nc.le (Or.inl ha)
      have hrl := rE_nonneg hn ha
      have hB : Box (Seg (rE p.toNat c.lo.toE) (rE p.toNat c.hi.toE)) (rE p.toNat c.lo.toE) (rE p.toNat c.hi.toE) :=
        box_seg hlu (rE_ne_top nc.lo_top) (rE_ne_bot nc.hi_bot)
      have t1 := tightest_of_box (R := ⟨φ.root .D p.toNat c.lo, φ.root .U p.toNat c.hi⟩) hB l2 u2 l3 u3 l1 u1
      have t2 := tightest_of_box (R := ⟨(φ.root .U p.toNat c.hi).neg, (φ.root .D p.toNat c.lo).neg⟩) (box_mirror hB)
        (by simpa using u2) (by simpa using l2) (FP.neg_in u3) (FP.neg_in l3)
        (by rw [FP.toE_neg, u1, Fmt.rndE_U, Fmt.rdE_neg]) (by rw [FP.toE_neg, l1, Fmt.rndE_D, Fmt.ruE_neg])
      refine ⟨_, _, t2.of_eq ?_, t1.of_eq ?_, rfl⟩
      · ext t
        rw [Set.mem_inter_iff, hsol, ← (root_le_iff hn (Or.inl ⟨hb, abs_nonneg t⟩)).2, ← (root_le_iff hn (Or.inl ⟨ha, abs_nonneg t⟩)).1]
        simp only [Set.mem_ofPred_eq, mem_seg, Set.mem_Iic]
        generalize rE p.toNat c.lo.toE = L at *
        generalize rE p.toNat c.hi.toE = U at *
        constructor
        · intro g
          have : (0:EReal) ≤ ((-t : ℝ) : EReal) := hrl.trans g.1
          have h0 : 0 ≤ -t := by exact_mod_cast this
          rw [abs_of_nonpos (by linarith)]
          exact ⟨g, by linarith⟩
        · rintro ⟨g, h0⟩
          rwa [abs_of_nonpos h0] at g
      · ext t
        rw [Set.mem_inter_iff, hsol, ← (root_le_iff hn (Or.inl ⟨hb, abs_nonneg t⟩)).2, ← (root_le_iff hn (Or.inl ⟨ha, abs_nonneg t⟩)).1]
        simp only [mem_seg, Set.mem_Ici]
        generalize rE p.toNat c.lo.toE = L at *
        generalize rE p.toNat c.hi.toE = U at *
        constructor
        · intro g
          have : (0:EReal) ≤ (t : EReal) := hrl.trans g.1
          have h0 : 0 ≤ t := by exact_mod_cast this
          rw [abs_of_nonneg h0]
          exact ⟨g, h0⟩
        · rintro ⟨g, h0⟩
          rwa [abs_of_nonneg h0] at g
  · rw [if_neg he, if_neg (by omega)]
    have ho : p.toNat % 2 ≠ 0 := by omega
    obtain ⟨u1, u2, u3⟩ := root_at (φ := φ) (m := .U) hn nc.hi_ne (Or.inr ho)
    obtain ⟨l1, l2, l3⟩ := root_at (φ := φ) (m := .D) hn nc.lo_ne (Or.inr ho)
    have hB : Box (Seg (rE p.toNat c.lo.toE) (rE p.toNat c.hi.toE)) (rE p.toNat c.lo.toE) (rE p.toNat c.hi.toE) :=
        box_seg (rE_mono hn nc.le (Or.inr ho)) (rE_ne_top nc.lo_top) (rE_ne_bot nc.hi_bot)
    have ht := tightest_of_box (R := ⟨φ.root .D p.toNat c.lo, φ.root .U p.toNat c.hi⟩) hB l2 u2 l3 u3 l1 u1
    refine ⟨fun _ => ⟨_, ht.of_eq ?_, (Itv.inter_ok_set hx ht.1).2⟩, fun h => absurd h.1 he⟩
    ext t
    simp only [PowSol, Set.mem_ofPred_eq, nc.mem, hp0.le, or_true, true_and]
    rw [pow_toNat hp0, mem_seg, (root_le_iff hn (Or.inr ho)).1, (root_le_iff hn (Or.inr ho)).2]

end P1788
