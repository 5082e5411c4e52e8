import Verif.Lemmas.RevMono
import Verif.Props.C30
import Verif.Props.C32
import Verif.Props.C35
import Verif.Props.C31Ends
import Verif.Props.C33b

/-!
# C35, continued: the reverse functions

Enlarging the operands of a reverse function enlarges its result.
-/

namespace P1788
open FP
variable {φ : Fmt} {b b' c c' x x' : Itv}

theorem revSol_mono (f : ℝ → ℝ) {C C' X X' : Set ℝ} (h : C ⊆ C') (k : X ⊆ X') : RevSol f C X ⊆ RevSol f C' X' :=
  fun _ ht => ⟨k ht.1, h ht.2⟩

/-- `sqr_rev`, `abs_rev` and `cosh_rev`. -/
theorem C35_sqr_abs_cosh_rev (hc : c.Ok φ) (hc' : c'.Ok φ) (hx : x.Ok φ) (hx' : x'.Ok φ) (h : c.set ⊆ c'.set) (k : x.set ⊆ x'.set) :
    (c.sqrRev φ x).set ⊆ (c'.sqrRev φ x').set ∧ (c.absRev x).set ⊆ (c'.absRev x').set ∧
    (c.coshRev φ x).set ⊆ (c'.coshRev φ x').set :=
  ⟨tight_set_mono (C30_sqr_rev hc hx) (C30_sqr_rev hc' hx') (revSol_mono _ h k),
    tight_set_mono (C30_abs_rev hc hx) (C30_abs_rev hc' hx') (revSol_mono _ h k),
    tight_set_mono (C30_cosh_rev hc hx) (C30_cosh_rev hc' hx') (revSol_mono _ h k)⟩

theorem mulSol_mono {B B' C C' : Set ℝ} (h : B ⊆ B') (k : C ⊆ C') : MulSol B C ⊆ MulSol B' C' :=
  fun _ ⟨b, hb, hc⟩ => ⟨b, h hb, k hc⟩

/-- `mul_rev`. -/
theorem C35_mul_rev (hb : b.Ok φ) (hb' : b'.Ok φ) (hc : c.Ok φ) (hc' : c'.Ok φ) (hx : x.Ok φ) (hx' : x'.Ok φ)
    (h : b.set ⊆ b'.set) (k : c.set ⊆ c'.set) (l : x.set ⊆ x'.set) :
    (b.mulRev φ c x).set ⊆ (b'.mulRev φ c' x').set := by
  by_cases hne : b.set.Nonempty ∧ c.set.Nonempty
  swap
  · have : MulSol b.set c.set ⊆ Itv.empty.set := by
      rintro t ⟨s, hs, ht⟩; exact absurd ⟨⟨s, hs⟩, ⟨_, ht⟩⟩ hne
    refine ((C32_mul_rev hb hc hx).2.2.2 Itv.empty (Itv.ok_empty φ) this).trans ?_
    simp
  obtain ⟨nb1, nc1⟩ := hne
  have ne : ∀ {y : Itv}, y.Ok φ → y.set.Nonempty → y.NE φ := by
    rintro y hy ⟨t, ht⟩
    rcases hy.cases with rfl | hh
    · simp at ht
    · exact hh
  have nb := ne hb nb1
  have nc := ne hc nc1
  have nb' := ne hb' (nb1.mono h)
  have nc' := ne hc' (nc1.mono k)
  obtain ⟨s1, s2⟩ := mulRevPairT_spec nb nc
  obtain ⟨s1', s2'⟩ := mulRevPairT_spec nb' nc'
  obtain ⟨_, _, -, L1, L2⟩ := mulRevPairT_leaves hb hc
  obtain ⟨_, _, -, L1', L2'⟩ := mulRevPairT_leaves hb' hc'
  obtain ⟨i1, j1⟩ := Itv.inter_ok_set (dropIf_spec L1 hx).1 hx
  obtain ⟨i2, j2⟩ := Itv.inter_ok_set (dropIf_spec L2 hx).1 hx
  obtain ⟨i1', j1'⟩ := Itv.inter_ok_set (dropIf_spec L1' hx').1 hx'
  obtain ⟨i2', j2'⟩ := Itv.inter_ok_set (dropIf_spec L2' hx').1 hx'
  unfold Itv.mulRev
  simp only [hb.isValid, hc.isValid, hx.isValid, hb'.isValid, hc'.isValid, hx'.isValid, Bool.not_true, Bool.or_self,
    Bool.false_eq_true, if_false]
  refine hull_mono i1 i2 i1' i2' ?_
  rw [j1, j2, j1', j2']
  have hm := mulSol_mono h k
  by_cases sp : Splits b.set c.set <;> by_cases sp' : Splits b'.set c'.set
  · exact Set.union_subset_union (drop_mono (s2 sp).1 (s2' sp').1 (Set.inter_subset_inter_left _ hm) l)
      (drop_mono (s2 sp).2 (s2' sp').2 (Set.inter_subset_inter_left _ hm) l)
  · exact Set.union_subset
      ((drop_mono (s2 sp).1 (s1' sp').1 (Set.inter_subset_left.trans hm) l).trans Set.subset_union_left)
      ((drop_mono (s2 sp).2 (s1' sp').1 (Set.inter_subset_left.trans hm) l).trans Set.subset_union_left)
  · obtain ⟨a1, a2, a3, a4⟩ := s1 sp
    have hoc := mulSol_ordConnected b.ordConnected c.ordConnected sp
    have h0 : (0:ℝ) ∉ MulSol b.set c.set := by
      rintro ⟨s, -, hs⟩
      rw [mul_zero] at hs
      exact sp'.2.2 (k hs)
    have hsec : ((φ.mulRevPairT b c).snd.dropIf x (φ.mulRevPairT b c).sl (φ.mulRevPairT b c).su).set = ∅ := by
      have := (dropIf_spec L2 hx).2.1
      rw [a2] at this ⊢
      simpa using this
    rw [hsec, Set.empty_inter, Set.union_empty]
    have side : MulSol b.set c.set ⊆ Set.Iio 0 ∨ MulSol b.set c.set ⊆ Set.Ioi 0 := by
      by_contra hcon
      push Not at hcon
      simp only [Set.not_subset, Set.mem_Iio, Set.mem_Ioi, not_lt] at hcon
      obtain ⟨⟨t, ht, ht0⟩, s, hs, hs0⟩ := hcon
      exact h0 (hoc.out hs ht ⟨hs0, ht0⟩)
    rcases side with side | side
    · exact (drop_mono a1 (s2' sp').1 (Set.subset_inter hm side) l).trans Set.subset_union_left
    · exact (drop_mono a1 (s2' sp').2 (Set.subset_inter hm side) l).trans Set.subset_union_right
  · obtain ⟨a1, a2, a3, a4⟩ := s1 sp
    have hsec : ((φ.mulRevPairT b c).snd.dropIf x (φ.mulRevPairT b c).sl (φ.mulRevPairT b c).su).set = ∅ := by
      have := (dropIf_spec L2 hx).2.1
      rw [a2] at this ⊢
      simpa using this
    rw [hsec, Set.empty_inter, Set.union_empty]
    exact (drop_mono a1 (s1' sp').1 hm l).trans Set.subset_union_left

theorem powSol_mono {p : ℤ} {C C' : Set ℝ} (h : C ⊆ C') : PowSol p C ⊆ PowSol p C' := fun _ ⟨a, b⟩ => ⟨a, h b⟩

theorem pownRevV_mono {p : ℤ} (hc : c.Ok φ) (hc' : c'.Ok φ) (hx : x.Ok φ) (hx' : x'.Ok φ) (h : c.set ⊆ c'.set)
    (k : x.set ⊆ x'.set) : (c.pownRevV φ x p).set ⊆ (c'.pownRevV φ x' p).set := by
  have hemp : PowSol p c.set = ∅ ∨ x.set = ∅ → (c.pownRevV φ x p).set ⊆ (c'.pownRevV φ x' p).set := by
    obtain ⟨-, -, h3, h4⟩ := pownRevV_spec (p := p) hc hx
    rintro (h0 | h0)
    · exact (h4 Itv.empty (Itv.ok_empty φ) (by simp [h0])).trans (by simp)
    · exact h3.trans (by simp [h0])
  rcases hc.cases with rfl | nc
  · exact hemp (.inl (by ext t; simp [PowSol]))
  rcases hx.cases with rfl | nx
  · exact hemp (.inr (by simp))
  have ne : ∀ {y : Itv}, y.Ok φ → y.set.Nonempty → y.NE φ := by
    rintro y hy ⟨t, ht⟩
    rcases hy.cases with rfl | hh
    · simp at ht
    · exact hh
  have nc' := ne hc' (nc.nonempty.mono h)
  have nx' := ne hx' (nx.nonempty.mono k)
  rcases lt_or_ge p 0 with hp | hp
  · exact Pieces.mono hx hx' (pownRevV_pieces hp nc nx) (pownRevV_pieces hp nc' nx') (sol_mono nc nc' h).1
      (sol_mono nc nc' h).2 k
  by_cases p0 : p = 0
  · subst p0
    by_cases h1 : (1:ℝ) ∈ c.set
    · refine (pownRevV_spec hc hx).2.2.1.trans ?_
      refine k.trans (subset_trans ?_ (pownRevV_spec hc' hx').2.1)
      exact fun t ht => ⟨⟨.inr le_rfl, by simpa using h h1⟩, ht⟩
    · exact hemp (.inl (by ext t; simp [PowSol, h1]))
  by_cases p1 : p = 1
  · subst p1
    have e : ∀ {d y : Itv}, d.NE φ → y.NE φ → (d.pownRevV φ y 1).set = y.set ∩ d.set := by
      intro d y nd ny
      unfold Itv.pownRevV
      simp only [nd.ok.isValid, ny.ok.isValid, nd.isEmpty, ny.isEmpty, Bool.not_true, Bool.or_self, Bool.false_eq_true, if_false,
        one_ne_zero, if_true]
      exact (Itv.inter_ok_set ny.ok nd.ok).2
    rw [e nc nx, e nc' nx']
    exact Set.inter_subset_inter k h
  have hp2 : 2 ≤ p := by omega
  obtain ⟨a1, a2⟩ := pownRevV_pos hp2 nc nx
  obtain ⟨b1, b2⟩ := pownRevV_pos hp2 nc' nx'
  have hlo : 0 < c'.lo.toE → 0 < c.lo.toE := fun h0 => h0.trans_le ((Itv.NE.subset_iff nc nc').mp h).1
  by_cases s' : p % 2 = 0 ∧ 0 < c'.lo.toE
  · obtain ⟨A', B', tA', tB', e'⟩ := b2 s'
    obtain ⟨A, B, tA, tB, e⟩ := a2 ⟨s'.1, hlo s'.2⟩
    rw [e, e']
    obtain ⟨i1, j1⟩ := Itv.inter_ok_set hx tA.1
    obtain ⟨i2, j2⟩ := Itv.inter_ok_set hx tB.1
    obtain ⟨i1', j1'⟩ := Itv.inter_ok_set hx' tA'.1
    obtain ⟨i2', j2'⟩ := Itv.inter_ok_set hx' tB'.1
    refine hull_mono i1 i2 i1' i2' ?_
    rw [j1, j2, j1', j2']
    exact Set.union_subset_union
      (Set.inter_subset_inter k (tight_set_mono tA tA' (Set.inter_subset_inter_left _ (powSol_mono h))))
      (Set.inter_subset_inter k (tight_set_mono tB tB' (Set.inter_subset_inter_left _ (powSol_mono h))))
  · obtain ⟨R', tR', e'⟩ := b1 s'
    by_cases s : p % 2 = 0 ∧ 0 < c.lo.toE
    · obtain ⟨A, B, tA, tB, e⟩ := a2 s
      obtain ⟨i1, j1⟩ := Itv.inter_ok_set hx tA.1
      obtain ⟨i2, j2⟩ := Itv.inter_ok_set hx tB.1
      obtain ⟨i', j'⟩ := Itv.inter_ok_set hx' tR'.1
      rw [e, e', ← j']
      refine (Itv.hull_tight i1 i2).2.2 _ i' ?_
      rw [j1, j2, j']
      exact Set.union_subset
        (Set.inter_subset_inter k (tight_set_mono tA tR' (Set.inter_subset_left.trans (powSol_mono h))))
        (Set.inter_subset_inter k (tight_set_mono tB tR' (Set.inter_subset_left.trans (powSol_mono h))))
    · obtain ⟨R, tR, e⟩ := a1 s
      rw [e, e']
      exact Set.inter_subset_inter k (tight_set_mono tR tR' (powSol_mono h))

/-- `pown_rev`, whenever both calls return (they do for every exponent but `INT_MIN`, `C30_pown_rev_partial`). -/
theorem C35_pown_rev {p : ℤ} {R R' : Itv} (hc : c.Ok φ) (hc' : c'.Ok φ) (hx : x.Ok φ) (hx' : x'.Ok φ) (h : c.set ⊆ c'.set)
    (k : x.set ⊆ x'.set) (hR : c.pownRev φ x p = some R) (hR' : c'.pownRev φ x' p = some R') : R.set ⊆ R'.set := by
  unfold Itv.pownRev at hR hR'
  split_ifs at hR hR'
  simp only [Option.some.injEq] at hR hR'
  rw [← hR, ← hR']
  exact pownRevV_mono hc hc' hx hx' h k

/-! ## Mixed types -/
section
variable {T T1 T2 T3 : NumTy} {y y' z z' : Itv}

/-- Functions of one or two intervals, `fma`, intersection and convex hull of intervals of other types than the result.
The tangent of an interval that is bad for the widest type (only in `double`, C11) is excluded. -/
theorem C35_mixed_partial :
    (∀ op : Op1, (op = .tan → ¬ TanBad (T.maxPrec [T1]).fmt x') → x.Ok T1.fmt → x'.Ok T1.fmt → x.set ⊆ x'.set →
      (op.mixed T T1 x).set ⊆ (op.mixed T T1 x').set) ∧
    (x.Ok T1.fmt → x'.Ok T1.fmt → x.set ⊆ x'.set → y.Ok T2.fmt → y'.Ok T2.fmt → y.set ⊆ y'.set →
      (∀ op : Op2, (op.mixed T T1 T2 x y).set ⊆ (op.mixed T T1 T2 x' y').set) ∧
      (Itv.interMixed T T1 T2 x y).set ⊆ (Itv.interMixed T T1 T2 x' y').set ∧
      (Itv.hullMixed T T1 T2 x y).set ⊆ (Itv.hullMixed T T1 T2 x' y').set ∧
      (z.Ok T3.fmt → z'.Ok T3.fmt → z.set ⊆ z'.set →
        (fmaMixed T T1 T2 T3 x y z).set ⊆ (fmaMixed T T1 T2 T3 x' y' z').set)) := by
  constructor
  · intro op ho hx hx' h
    by_cases ht : op = .tan
    · subst ht
      have hs1 : T1.fmt.Sub (T.maxPrec [T1]).fmt := NumTy.sub_max (by simp)
      have o : ∀ {w : Itv}, w.Ok T1.fmt → ((T.maxPrec [T1]).fmt.convertHull w).Ok _ := fun hw => (convertHull_tight hw).1
      have e : ∀ {w : Itv}, w.Ok T1.fmt → Op1.tan.mixed T T1 w =
          T.fmt.convertHull (Op1.tan.bare (T.maxPrec [T1]).fmt ((T.maxPrec [T1]).fmt.convertHull w)) := fun hw => by
        unfold Op1.mixed; rw [hw.isValid]; rfl
      rw [e hx, e hx']
      refine tight_set_mono (convertHull_tight (Op1.bare_ok .tan (o hx))) (convertHull_tight (Op1.bare_ok .tan (o hx')))
        (C35_unary_safe_partial .tan (fun _ hb => ho rfl (hb.congr (o hx') (hs1.ok hx') (convert_exact hs1 hx'))) (o hx) (o hx') ?_)
      rw [convert_exact hs1 hx, convert_exact hs1 hx']
      exact h
    · exact tight_set_mono (C33_unary ht hx) (C33_unary ht hx') (Set.image_mono (Set.inter_subset_inter_left _ h))
  · intro hx hx' h hy hy' k
    refine ⟨fun op => tight_set_mono (C33_binary op hx hy) (C33_binary op hx' hy')
      (Set.image_mono (Set.inter_subset_inter_left _ (Set.prod_mono h k))),
      tight_set_mono (C33_set_ops hx hy).1 (C33_set_ops hx' hy').1 (Set.inter_subset_inter h k),
      tight_set_mono (C33_set_ops hx hy).2 (C33_set_ops hx' hy').2 (Set.union_subset_union h k), fun hz hz' l => ?_⟩
    refine tight_set_mono (C33_fma hx hy hz) (C33_fma hx' hy' hz') ?_
    rintro w ⟨a, ha, b, hb, c, hc, rfl⟩
    exact ⟨a, h ha, b, k hb, c, l hc, rfl⟩

theorem convertHull_mono {ψ : Fmt} (hx : x.Ok ψ) (hx' : x'.Ok ψ) (h : x.set ⊆ x'.set) :
    (φ.convertHull x).set ⊆ (φ.convertHull x').set :=
  tight_set_mono (convertHull_tight hx) (convertHull_tight hx') h

/-- The reverse functions of intervals of other types than the result. -/
theorem C35_rev_mixed (hc : c.Ok T1.fmt) (hc' : c'.Ok T1.fmt) (hx : x.Ok T2.fmt) (hx' : x'.Ok T2.fmt) (h : c.set ⊆ c'.set)
    (k : x.set ⊆ x'.set) :
    (Itv.revMixed Itv.sqrRev T T1 T2 c x).set ⊆ (Itv.revMixed Itv.sqrRev T T1 T2 c' x').set ∧
    (Itv.revMixed Itv.coshRev T T1 T2 c x).set ⊆ (Itv.revMixed Itv.coshRev T T1 T2 c' x').set ∧
    (Itv.revMixed (fun _ => Itv.absRev) T T1 T2 c x).set ⊆ (Itv.revMixed (fun _ => Itv.absRev) T T1 T2 c' x').set :=
  ⟨tight_set_mono (C30_mixed hc hx).1 (C30_mixed hc' hx').1 (revSol_mono _ h k),
    tight_set_mono (C30_mixed hc hx).2.1 (C30_mixed hc' hx').2.1 (revSol_mono _ h k),
    tight_set_mono (C30_mixed hc hx).2.2 (C30_mixed hc' hx').2.2 (revSol_mono _ h k)⟩

theorem C35_mul_rev_mixed (hb : b.Ok T1.fmt) (hb' : b'.Ok T1.fmt) (hc : c.Ok T2.fmt) (hc' : c'.Ok T2.fmt) (hx : x.Ok T3.fmt)
    (hx' : x'.Ok T3.fmt) (h : b.set ⊆ b'.set) (k : c.set ⊆ c'.set) (l : x.set ⊆ x'.set) :
    (b.mulRevMixed T T1 T2 T3 c x).set ⊆ (b'.mulRevMixed T T1 T2 T3 c' x').set := by
  unfold Itv.mulRevMixed
  simp only [hb.isValid, hc.isValid, hx.isValid, hb'.isValid, hc'.isValid, hx'.isValid, Bool.not_true, Bool.or_self,
    Bool.false_eq_true, if_false]
  have o : ∀ {w : Itv} {ψ : Fmt}, w.Ok ψ → ((T.maxPrec [T1, T2, T3]).fmt.convertHull w).Ok _ := fun hw =>
    (convertHull_tight (φ := (T.maxPrec [T1, T2, T3]).fmt) hw).1
  exact convertHull_mono (C32_mul_rev (o hb) (o hc) (o hx)).1 (C32_mul_rev (o hb') (o hc') (o hx')).1
    (C35_mul_rev (o hb) (o hb') (o hc) (o hc') (o hx) (o hx') (convertHull_mono hb hb' h) (convertHull_mono hc hc' k)
      (convertHull_mono hx hx' l))

theorem C35_pown_rev_mixed {p : ℤ} {R R' : Itv} (hc : c.Ok T1.fmt) (hc' : c'.Ok T1.fmt) (hx : x.Ok T2.fmt) (hx' : x'.Ok T2.fmt)
    (h : c.set ⊆ c'.set) (k : x.set ⊆ x'.set) (hR : Itv.pownRevMixed T T1 T2 c x p = some R)
    (hR' : Itv.pownRevMixed T T1 T2 c' x' p = some R') : R.set ⊆ R'.set := by
  unfold Itv.pownRevMixed at hR hR'
  have o : ∀ {w : Itv} {ψ : Fmt}, w.Ok ψ → ((T.maxPrec [T1, T2]).fmt.convertHull w).Ok _ := fun hw =>
    (convertHull_tight (φ := (T.maxPrec [T1, T2]).fmt) hw).1
  rcases hc.cases with rfl | nc
  · simp at hR; simp [← hR]
  rcases hx.cases with rfl | nx
  · simp at hR; simp [← hR]
  have ne : ∀ {y : Itv} {ψ : Fmt}, y.Ok ψ → y.set.Nonempty → y.NE ψ := by
    rintro y ψ hy ⟨t, ht⟩
    rcases hy.cases with rfl | hh
    · simp at ht
    · exact hh
  have nc' := ne hc' (nc.nonempty.mono h)
  have nx' := ne hx' (nx.nonempty.mono k)
  simp only [hc.isValid, hx.isValid, hc'.isValid, hx'.isValid, nc.isEmpty, nx.isEmpty, nc'.isEmpty, nx'.isEmpty, Bool.not_true,
    Bool.or_self, Bool.false_eq_true, if_false, Option.map_eq_some_iff] at hR hR'
  obtain ⟨A, hA, rfl⟩ := hR
  obtain ⟨A', hA', rfl⟩ := hR'
  have ok : ∀ {d y B : Itv} {ψ : Fmt}, d.Ok ψ → y.Ok ψ → d.pownRev ψ y p = some B → B.Ok ψ := by
    intro d y B ψ hd hy hB
    unfold Itv.pownRev at hB
    split_ifs at hB
    simp only [Option.some.injEq] at hB
    rw [← hB]
    exact (pownRevV_spec hd hy).1
  exact convertHull_mono (ok (o hc) (o hx) hA) (ok (o hc') (o hx') hA')
    (C35_pown_rev (o hc) (o hc') (o hx) (o hx') (convertHull_mono hc hc' h) (convertHull_mono hx hx' k) hA hA')
end

/-! ## Where it fails -/

theorem set_fin (a b : ℚ) : Itv.set ⟨.fin a, .fin b⟩ = Set.Icc (a:ℝ) b := rfl

/-- Cancellation is not isotone: the operation answers `entire` when the first operand is the narrower one. -/
theorem C35_cancel_false : ∃ x x' y : Itv, x.Ok binary64 ∧ x'.Ok binary64 ∧ y.Ok binary64 ∧ x.set ⊆ x'.set ∧
    ¬ (x.cancelMinus binary64 y).set ⊆ (x'.cancelMinus binary64 y).set := by
  refine ⟨⟨.fin 2, .fin 2⟩, ⟨.fin 1, .fin 5⟩, ⟨.fin 2, .fin 3⟩, Itv.ok_of_okb (by decide +kernel),
    Itv.ok_of_okb (by decide +kernel), Itv.ok_of_okb (by decide +kernel), ?_, ?_⟩
  · rw [set_fin, set_fin]
    exact Set.Icc_subset_Icc (by norm_num) (by norm_num)
  · have e1 : Itv.cancelMinus binary64 ⟨.fin 2, .fin 2⟩ ⟨.fin 2, .fin 3⟩ = Itv.entire := by decide +kernel
    have e2 : Itv.cancelMinus binary64 ⟨.fin 1, .fin 5⟩ ⟨.fin 2, .fin 3⟩ = ⟨.fin (-1), .fin 2⟩ := by decide +kernel
    rw [e1, e2, set_fin]
    intro h
    have := (h (show (3:ℝ) ∈ Itv.entire.set by simp)).2
    norm_num at this

/-- `sin_rev` is not isotone: for `c = [1/2, 1]`, `x = [7, 7]`, `x' = [3, 14]` the result for `x` contains `7`, that for
`x'` does not. -/
theorem C35_sin_rev_false (φ : Fmt) : ∃ c x x' : Itv, c.Ok φ ∧ x.Ok φ ∧ x'.Ok φ ∧ x.set ⊆ x'.set ∧
    ¬ (c.sinRev φ x).set ⊆ (c.sinRev φ x').set := by
  obtain ⟨hc, hx', hs, ht, hn⟩ := sin_rev_witness φ
  have r7 : φ.Rep 7 := by simpa using φ.rep_small (k := 7) (by norm_num)
  have nx : Itv.NE φ ⟨.fin 7, .fin 7⟩ := ne_fin r7 r7 le_rfl
  have hmod : (256:ℚ) ≤ 2 ^ φ.p := by
    calc (256:ℚ) = 2 ^ 8 := by norm_num
      _ ≤ _ := pow_le_pow_right₀ (by norm_num) φ.p_pos
  have e7 : Itv.set ⟨.fin 7, .fin 7⟩ = {(7:ℝ)} := by rw [set_fin]; simp
  have hpi := Real.pi_lt_d4
  have hpi' := Real.pi_gt_d4
  refine ⟨_, ⟨.fin 7, .fin 7⟩, _, hc, nx.ok, hx', ?_, fun h => hn (h ?_)⟩
  · rw [e7, Set.singleton_subset_iff]
    exact ht.1
  · refine (C31_half_period_partial hc nx.ok ?_ 2 ?_).1 ⟨by rw [e7]; rfl, ht.2⟩
    · intro q hq
      have : q = 7 := by
        rcases hq with h | h <;> (injection h with h; exact h.symm)
      subst this
      rw [abs_of_pos (by norm_num)]; exact ⟨by linarith, by norm_num⟩
    · rw [e7, Set.singleton_subset_iff]
      push_cast
      constructor <;> linarith

/-- `tan_rev` is not isotone: for `c = [-1, -1]`, `x = [5, 6]`, `x' = [3, 10]` the result for `x` contains `7π/4`, that for
`x'` does not. -/
theorem C35_tan_rev_false (φ : Fmt) : ∃ c x x' : Itv, c.Ok φ ∧ x.Ok φ ∧ x'.Ok φ ∧ x.set ⊆ x'.set ∧
    ¬ (c.tanRev φ x).set ⊆ (c.tanRev φ x').set := by
  obtain ⟨hc, hx', hs, ht, hn⟩ := tan_rev_witness φ
  have r5 : φ.Rep 5 := by simpa using φ.rep_small (k := 5) (by norm_num)
  have r6 : φ.Rep 6 := by simpa using φ.rep_small (k := 6) (by norm_num)
  have nx : Itv.NE φ ⟨.fin 5, .fin 6⟩ := ne_fin r5 r6 (by norm_num)
  have hmod : (256:ℚ) ≤ 2 ^ φ.p := by
    calc (256:ℚ) = 2 ^ 8 := by norm_num
      _ ≤ _ := pow_le_pow_right₀ (by norm_num) φ.p_pos
  have hpi := Real.pi_lt_d4
  have hpi' := Real.pi_gt_d4
  refine ⟨_, ⟨.fin 5, .fin 6⟩, _, hc, nx.ok, hx', ?_, fun h => hn (h ?_)⟩
  · rw [set_fin, set_fin]
    exact Set.Icc_subset_Icc (by norm_num) (by norm_num)
  · refine (C31_half_period_partial hc nx.ok ?_ 2 ?_).2 ⟨?_, ht.2⟩
    · intro q hq
      have : q = 5 ∨ q = 6 := by
        rcases hq with h | h
        · left; injection h with h; exact h.symm
        · right; injection h with h; exact h.symm
      rcases this with rfl | rfl <;> rw [abs_of_pos (by norm_num)] <;> exact ⟨by linarith, by norm_num⟩
    · rw [set_fin]
      push_cast
      exact Set.Icc_subset_Icc (by linarith) (by linarith)
    · rw [set_fin]
      push_cast
      constructor <;> linarith

theorem fmaNS_zero {m : Rnd} {a b c : FP} (ha : a.q = 0) (hc : c.q = 0) : ∃ s, φ.fmaNS m a b c = FP.mkZero s := by
  unfold Fmt.fmaNS
  rw [if_pos (by rw [ha, hc]; ring)]
  split_ifs <;> exact ⟨_, rfl⟩

/-- The box of `cos_rev` for the period `0` and `c = [1, 1]`. -/
theorem cosBox_zero {cl cu a b : FP} (hl : cl.q = 0) (hu : cu.q = 0) : ∃ s t, φ.cosBox cl cu 0 a b = ⟨FP.mkZero s, FP.mkZero t⟩ := by
  unfold Fmt.cosBox Fmt.shiftBox
  rw [if_pos (by norm_num)]
  have h0 : (φ.round .N ((0:ℤ):ℚ)).q = 0 := by
    rw [Int.cast_zero, ← φ.round_cast, Rat.cast_zero, φ.round_zero]; rfl
  obtain ⟨s, e1⟩ := fmaNS_zero (φ := φ) (m := .D) (b := a) h0 hl
  obtain ⟨t, e2⟩ := fmaNS_zero (φ := φ) (m := .U) (b := b) h0 hu
  simp only [e1, e2]
  exact ⟨s, t, by cases s <;> cases t <;> rfl⟩

theorem rep_shift_pi (hE : φ.p + 64 ≤ φ.emax) : φ.Rep (2 ^ 63 * (φ.constPi .D).q) := by
  have h3 := φ.three_le_pid
  have h4 := φ.pid_le_piu.trans φ.piu_le
  have hr : φ.Rep (φ.constPi .D).q := by 
    have hi : (φ.constPi .D).In φ := φ.round_in .D Real.pi
    cases hv : φ.constPi .D with
    | fin q => rw [hv] at hi; exact hi
    | _ => rw [hv] at h3; norm_num [FP.q] at h3
  obtain ⟨m, e, hq, hm, h1, h2⟩ := hr
  have hp : (0:ℚ) < 2 ^ e := zpow_pos (by norm_num) e
  have m1 : 1 ≤ m := by
    by_contra hc
    have : (m:ℚ) ≤ 0 := by exact_mod_cast (by omega : m ≤ 0)
    nlinarith [mul_nonneg (neg_nonneg.mpr this) hp.le]
  have he : e < 2 := by
    by_contra hc
    have : (2:ℚ) ^ (2:ℤ) ≤ 2 ^ e := zpow_le_zpow_right₀ (by norm_num) (by omega)
    have m1' : (1:ℚ) ≤ m := by exact_mod_cast m1
    have : (2:ℚ) ^ (2:ℤ) = 4 := by norm_num
    nlinarith
  refine ⟨m, e + 63, ?_, hm, by omega, by omega⟩
  rw [hq, zpow_add₀ (by norm_num)]
  have : (2:ℚ) ^ (63:ℤ) = 2 ^ 63 := by norm_cast
  rw [this]; ring

/-- `cos_rev` is not isotone on operands beyond the range of a `long` number of periods: for `c = [1, 1]` and
`x' = [-2^63·π, 0]` (with π rounded down) the result is `[0, 0]`, for `x = [-7, 0]` it contains `-2π`. -/
theorem C35_cos_rev_huge_false (hE : φ.p + 64 ≤ φ.emax) : ∃ c x x' : Itv, c.Ok φ ∧ x.Ok φ ∧ x'.Ok φ ∧ x.set ⊆ x'.set ∧
    ¬ (c.cosRev φ x).set ⊆ (c.cosRev φ x').set := by
  have r1 : φ.Rep 1 := by simpa using φ.rep_small (k := 1) (by norm_num)
  have r0 : φ.Rep 0 := φ.rep_zero
  have r7 : φ.Rep (-7) := by simpa using (φ.rep_small (k := 7) (by norm_num)).neg
  have rP : φ.Rep (-(2 ^ 63 * (φ.constPi .D).q)) := (rep_shift_pi hE).neg
  have p1 := φ.three_le_pid
  have nc := ne_fin r1 r1 le_rfl
  have nx := ne_fin r7 r0 (by norm_num)
  have nx' := ne_fin rP r0 (by linarith)
  have hmod : (256:ℚ) ≤ 2 ^ φ.p := by
    calc (256:ℚ) = 2 ^ 8 := by norm_num
      _ ≤ _ := pow_le_pow_right₀ (by norm_num) φ.p_pos
  have hpi := Real.pi_lt_d4
  have hpi' := Real.pi_gt_d4
  refine ⟨_, _, _, nc.ok, nx.ok, nx'.ok, ?_, fun h => ?_⟩
  · rw [set_fin, set_fin]
    refine Set.Icc_subset_Icc ?_ le_rfl
    exact_mod_cast (by linarith : -(2 ^ 63 * (φ.constPi .D).q) ≤ -7)
  have hm : -(2 * Real.pi) ∈ (Itv.cosRev φ ⟨.fin 1, .fin 1⟩ ⟨.fin (-7), .fin 0⟩).set := by
    refine C31_cos_rev_partial nc.ok nx.ok ?_ ⟨?_, ?_⟩
    · intro q hq
      have : q = -7 ∨ q = 0 := by
        rcases hq with h | h
        · left; injection h with h; exact h.symm
        · right; injection h with h; exact h.symm
      rcases this with rfl | rfl
      · norm_num
      · norm_num
    · rw [set_fin]; push_cast; constructor <;> linarith
    · rw [set_fin, Real.cos_neg, Real.cos_two_pi]; norm_num
  have hz := h hm
  have key : (Itv.cosRev φ ⟨.fin 1, .fin 1⟩ ⟨.fin (-(2 ^ 63 * (φ.constPi .D).q)), .fin 0⟩).set ⊆ Itv.set ⟨.fin 0, .fin 0⟩ := by
    have n0 : Itv.NE φ ⟨.fin 0, .fin 0⟩ := ne_fin r0 r0 le_rfl
    unfold Itv.cosRev
    have v1 := nc.ok.isValid
    have v2 := nx'.ok.isValid
    have v3 := nx'.isEmpty
    simp only [v1, v2, v3, Bool.not_true, Bool.or_self, Bool.false_eq_true, if_false]
    have ec : Itv.inter ⟨.fin 1, .fin 1⟩ ⟨.fin (-1), .fin 1⟩ = ⟨.fin 1, .fin 1⟩ := by decide +kernel
    rw [ec, if_neg (by decide +kernel), if_neg (by decide +kernel)]
    have hcl : (φ.arcNS .D Real.arccos 0 0 (.fin 1)).q = 0 := by
      simp only [Fmt.arcNS]; push_cast; rw [Real.arccos_one, φ.rndMP_zero]; rfl
    have hcu : (φ.arcNS .U Real.arccos 0 0 (.fin 1)).q = 0 := by
      simp only [Fmt.arcNS]; push_cast; rw [Real.arccos_one, φ.rndMP_zero]; rfl
    generalize φ.arcNS .D Real.arccos 0 0 (.fin 1) = cl at *
    generalize φ.arcNS .U Real.arccos 0 0 (.fin 1) = cu at *
    have hb := cosBox_in (φ := φ) cl cu
    have hin : ∀ (B : Itv) (a b : FP), ((φ.cosBox cl cu 0 a b).firstOf B
        ⟨.fin (-(2 ^ 63 * (φ.constPi .D).q)), .fin 0⟩).set ⊆ Itv.set ⟨.fin 0, .fin 0⟩ := by
      intro B a b
      obtain ⟨s, t, e⟩ := cosBox_zero (φ := φ) (a := a) (b := b) hcl hcu
      have nb : Itv.NE φ (φ.cosBox cl cu 0 a b) := by
        rw [e]
        cases s <;> cases t <;>
          exact ⟨by simp [FP.mkZero], by simp [FP.mkZero], by simp [FP.mkZero], by simp [FP.mkZero], by simp [FP.mkZero],
            by simp [FP.mkZero, FP.In, r0], by simp [FP.mkZero, FP.In, r0]⟩
      have sb : (φ.cosBox cl cu 0 a b).set = Itv.set ⟨.fin 0, .fin 0⟩ := by
        ext r
        rw [nb.mem, n0.mem, e]
        cases s <;> cases t <;> simp [FP.mkZero, FP.toE]
      obtain ⟨o, e1⟩ := Itv.inter_ok_set nb.ok nx'.ok
      have h0 : (0:ℝ) ∈ ((φ.cosBox cl cu 0 a b).inter ⟨.fin (-(2 ^ 63 * (φ.constPi .D).q)), .fin 0⟩).set := by
        rw [e1, sb, set_fin, set_fin]
        have : (3:ℝ) ≤ (φ.constPi .D).q := by exact_mod_cast p1
        refine ⟨by simp, ?_, by simp⟩
        push_cast; linarith
      have hne : ((φ.cosBox cl cu 0 a b).inter ⟨.fin (-(2 ^ 63 * (φ.constPi .D).q)), .fin 0⟩).isEmpty = false := by
        rcases o.cases with h | h
        · rw [h] at h0; simp at h0
        · exact h.isEmpty
      unfold Itv.firstOf
      rw [if_neg (by rw [hne]; simp), e1, sb]
      exact Set.inter_subset_left
    have q0 : quoLow (-2 ^ 63) = 0 := by decide +kernel
    have L : (φ.leftBox (φ.cosBox cl cu) ⟨.fin (-(2 ^ 63 * (φ.constPi .D).q)), .fin 0⟩).set ⊆
        Itv.set ⟨.fin 0, .fin 0⟩ := by
      unfold Fmt.leftBox
      have hn : floorQuo (-(2 ^ 63 * (φ.constPi .D).q)) (φ.constPi .D).q = 0 := by
        have e1 : (-(2 ^ 63 * (φ.constPi .D).q)) / (φ.constPi .D).q = ((-2 ^ 63 : ℤ) : ℚ) := by
          rw [div_eq_iff (by linarith)]; push_cast; ring
        have e2 : roundInt .N ((-2 ^ 63 : ℤ) : ℚ) = -2 ^ 63 := by decide +kernel
        simp only [floorQuo, e1, e2]
        rw [if_neg (by push_cast; linarith), q0]
      rw [if_neg (by simp [Itv.feq_ninf]), if_pos ((FP.lt_iff (by simp) (by simp)).mpr (by
        simp only [FP.toE]; rw [EReal.coe_lt_coe_iff]; exact_mod_cast (by linarith : -(2 ^ 63 * (φ.constPi .D).q) < 0)))]
      simp only [FP.q] at hn ⊢
      rw [hn]
      exact hin _ _ _
    have R : (φ.rightBox floorQuo (φ.cosBox cl cu) ⟨.fin (-(2 ^ 63 * (φ.constPi .D).q)), .fin 0⟩).set ⊆
        Itv.set ⟨.fin 0, .fin 0⟩ := by
      unfold Fmt.rightBox
      have hn : floorQuo 0 (φ.constPi .U).q = 0 := by
        simp only [floorQuo, zero_div]
        rw [show roundInt .N (0:ℚ) = 0 by decide +kernel, if_neg (by simp)]; rfl
      rw [if_neg (by simp [Itv.feq_pinf]), if_neg (show ¬ FP.fin 0 < FP.fin 0 by decide +kernel)]
      simp only [FP.q] at hn ⊢
      rw [hn]
      exact hin _ _ _
    exact (Itv.hull_tight (leftBox_any hb nx').1 (rightBox_any (quo := floorQuo) hb nx').1).2.2 _ n0.ok
      (Set.union_subset L R)
  have := (key hz).1
  have h0 : ((0:ℚ):ℝ) ≤ -(2 * Real.pi) := this
  push_cast at h0
  linarith

/-- `cos_rev` is not isotone on small operands either: the branches of `[-1, -1]` are enclosed separately, and a box for
the branch behind `π` reaches below the box for the branch before `π`.  For `x = [3, w]` with `w` just below `π` the
result is `[w, w]`, for `x' = [3, 10]` it starts at `π` rounded down. -/
theorem C35_cos_rev_false (φ : Fmt) : ∃ c x x' : Itv, c.Ok φ ∧ x.Ok φ ∧ x'.Ok φ ∧ x'.SmallBounds φ ∧ x.set ⊆ x'.set ∧
    ¬ (c.cosRev φ x).set ⊆ (c.cosRev φ x').set := by
  have r1 : φ.Rep (-1) := by simpa using (φ.rep_small (k := 1) (by norm_num)).neg
  have r3 : φ.Rep 3 := by simpa using φ.rep_small (k := 3) (by norm_num)
  have r9 : φ.Rep 9 := by simpa using φ.rep_small (k := 9) (by norm_num)
  have r10 : φ.Rep 10 := by simpa using φ.rep_small (k := 10) (by norm_num)
  have hpi := Real.pi_lt_d4
  have hpi' := Real.pi_gt_d4
  have p256 : (256:ℝ) ≤ 2 ^ φ.p := by
    calc (256:ℝ) = 2 ^ 8 := by norm_num
      _ ≤ _ := pow_le_pow_right₀ (by norm_num) φ.p_pos
  have q256 : (256:ℚ) ≤ 2 ^ φ.p := by exact_mod_cast p256
  have hq256 : (256:ℤ) ≤ 2 ^ φ.p := by exact_mod_cast p256
  have hthr := φ.thr_le_quarter
  have hcl : φ.arcNS .D Real.arccos 0 0 (.fin (-1)) = φ.constPi .D := by
    simp only [Fmt.arcNS]; push_cast
    rw [Real.arccos_neg_one, φ.rndMP_big _ (by rw [abs_of_pos Real.pi_pos]; linarith)]; rfl
  have hcu : φ.arcNS .U Real.arccos 0 0 (.fin (-1)) = φ.constPi .U := by
    simp only [Fmt.arcNS]; push_cast
    rw [Real.arccos_neg_one, φ.rndMP_big _ (by rw [abs_of_pos Real.pi_pos]; linarith)]; rfl
  obtain ⟨e, he0, he, n1, n2⟩ := pi_near φ
  have he1 : e ≤ 1 / 64 := by nlinarith
  have d3 := φ.three_le_pid
  have dpi := φ.pid_le
  have upi := φ.le_piu
  have hdu : (φ.constPi .D).q < (φ.constPi .U).q := by
    refine lt_of_le_of_ne φ.pid_le_piu fun h => ?_
    rw [h] at dpi
    exact irrational_pi ⟨_, le_antisymm dpi upi⟩
  have hdI : φ.Rep (φ.constPi .D).q := by
    have hi : (φ.constPi .D).In φ := φ.round_in .D Real.pi
    cases hv : φ.constPi .D with
    | fin q => rw [hv] at hi; exact hi
    | _ => rw [hv] at d3; norm_num [FP.q] at d3
  have c1 : (((4:ℚ) * (φ.constPi .D).q - (φ.constPi .U).q : ℚ) : ℝ) ≥ ((9.25:ℚ):ℝ) := by push_cast; linarith
  have c1 : (9.25:ℚ) ≤ 4 * (φ.constPi .D).q - (φ.constPi .U).q := by exact_mod_cast c1
  have c2 : (((2:ℚ) * (φ.constPi .D).q - (φ.constPi .U).q : ℚ) : ℝ) ≥ ((3:ℚ):ℝ) := by push_cast; linarith
  have c2 : (3:ℚ) ≤ 2 * (φ.constPi .D).q - (φ.constPi .U).q := by exact_mod_cast c2
  have c4 : (φ.constPi .D).q ≤ (3.2:ℚ) := by
    have : (((φ.constPi .D).q : ℚ) : ℝ) ≤ ((3.2:ℚ):ℝ) := by push_cast; linarith
    exact_mod_cast this
  have ut : (φ.constPi .U).q ≤ 13 / 4 := φ.piu_le
  generalize hD : φ.constPi .D = d at *
  generalize hU : φ.constPi .U = u at *
  -- the boxes
  have i0 : (φ.round .N ((0:ℤ):ℚ)).q = 0 := by simpa using φ.round_intCast (k := 0) (by simp)
  have i2 : (φ.round .N ((-2:ℤ):ℚ)).q = -2 := by
    simpa using φ.round_intCast (k := -2) (by rw [show |(-2:ℤ)| = 2 from rfl]; linarith)
  have i4 : (φ.round .N ((-4:ℤ):ℚ)).q = -4 := by
    simpa using φ.round_intCast (k := -4) (by rw [show |(-4:ℤ)| = 4 from rfl]; linarith)
  have b0 : φ.cosBox d u 0 d u = φ.shiftBox 0 d u d u := by unfold Fmt.cosBox; rw [if_pos (by norm_num)]
  have b1 : φ.cosBox d u 1 d u = φ.mirrorBox (-2) d u d u := by unfold Fmt.cosBox; rw [if_neg (by norm_num)]; rfl
  have b3 : φ.cosBox d u 3 d u = φ.mirrorBox (-4) d u d u := by unfold Fmt.cosBox; rw [if_neg (by norm_num)]; rfl
  have big : ∀ w : ℚ, 1 ≤ |w| → w = 0 ∨ φ.thr ≤ |((w:ℚ):ℝ)| := by
    intro w hw
    right
    have : (1:ℝ) ≤ |((w:ℚ):ℝ)| := by exact_mod_cast hw
    linarith
  have E0 : φ.Enc (φ.cosBox d u 0 d u) d.q u.q := by
    rw [b0]; have := Fmt.shift_enc (φ := φ) (k := 0) (a := d) (b := u) (cl := d) (cu := u) (by simp); simpa using this
  have E1 : φ.Enc (φ.cosBox d u 1 d u) (2 * d.q - u.q) (2 * u.q - d.q) := by
    rw [b1]
    have := Fmt.mirror_enc (φ := φ) (k := -2) (a := d) (b := u) (cl := d) (cu := u)
      (by rw [show |(-2:ℤ)| = 2 from rfl]; linarith) (big _ (by push_cast; rw [abs_of_neg (by linarith)]; linarith))
      (big _ (by push_cast; rw [abs_of_neg (by linarith)]; linarith))
    convert this using 1 <;> push_cast <;> ring
  have E3 : φ.Enc (φ.cosBox d u 3 d u) (4 * d.q - u.q) (4 * u.q - d.q) := by
    rw [b3]
    have := Fmt.mirror_enc (φ := φ) (k := -4) (a := d) (b := u) (cl := d) (cu := u)
      (by rw [show |(-4:ℤ)| = 4 from rfl]; linarith) (big _ (by push_cast; rw [abs_of_neg (by linarith)]; linarith))
      (big _ (by push_cast; rw [abs_of_neg (by linarith)]; linarith))
    convert this using 1 <;> push_cast <;> ring
  have L0 : (((d.q:ℚ):ℝ):EReal) ≤ (φ.cosBox d u 0 d u).lo.toE := by
    rw [b0]
    exact le_shift_lo hdI (by rw [i0]; linarith) (by rw [i0]; exact big _ (by rw [abs_of_pos] <;> linarith))
  have L1 : (((3:ℚ):ℝ):EReal) ≤ (φ.cosBox d u 1 d u).lo.toE := by
    rw [b1]
    exact le_mirror_lo r3 (by rw [i2]; linarith) (by rw [i2]; exact big _ (by rw [abs_of_neg] <;> linarith))
  have L3 : (((9:ℚ):ℝ):EReal) ≤ (φ.cosBox d u 3 d u).lo.toE := by
    rw [b3]
    exact le_mirror_lo r9 (by rw [i4]; linarith) (by rw [i4]; exact big _ (by rw [abs_of_neg] <;> linarith))
  have R2 : (d.q:ℝ) ≤ u.q := by exact_mod_cast hdu.le
  have N0 := E0.ne R2
  have N1 := E1.ne (by linarith)
  have N3 := E3.ne (by linarith)
  obtain ⟨w, hw, hwe⟩ : ∃ w : ℚ, φ.Rep w ∧ (φ.cosBox d u 1 d u).lo.toE = ((w:ℝ):EReal) := by
    have h1 := L1
    have h2 := N1.lo_in
    have h3 := N1.lo_top
    have h4 := N1.lo_ne
    cases hv : (φ.cosBox d u 1 d u).lo with
    | fin q => rw [hv] at h2; exact ⟨q, h2, rfl⟩
    | nan => exact absurd hv h4
    | pinf => exact absurd (by rw [hv]; rfl) h3
    | ninf => rw [hv] at h1; simp [FP.toE] at h1
    | nzero => exact ⟨0, φ.rep_zero, by simp [FP.toE]⟩
  have w3 : 3 ≤ w := by rw [hwe, EReal.coe_le_coe_iff] at L1; exact_mod_cast L1
  have wd : w < d.q := by
    have h1 := E1.lo_le
    rw [hwe, EReal.coe_le_coe_iff] at h1
    have : w ≤ 2 * d.q - u.q := by exact_mod_cast h1
    linarith
  have nc := ne_fin r1 r1 le_rfl
  have nx := ne_fin r3 hw w3
  have nx' := ne_fin r3 r10 (by norm_num)
  have hbI := cosBox_in (φ := φ) d u
  have ec : Itv.inter ⟨.fin (-1), .fin (-1)⟩ ⟨.fin (-1), .fin 1⟩ = ⟨.fin (-1), .fin (-1)⟩ := by decide +kernel
  have unf : ∀ x : Itv, x.NE φ → Itv.cosRev φ ⟨.fin (-1), .fin (-1)⟩ x =
      (φ.leftBox (φ.cosBox d u) x).hull (φ.rightBox floorQuo (φ.cosBox d u) x) := by
    intro x hx
    unfold Itv.cosRev
    have v1 := nc.ok.isValid
    have v2 := hx.ok.isValid
    have v3 := hx.isEmpty
    simp only [v1, v2, v3, Bool.not_true, Bool.or_self, Bool.false_eq_true, if_false]
    rw [ec, if_neg (by decide +kernel), if_neg (by decide +kernel)]
    simp only [hcl, hcu]
  have n3 : floorQuo 3 u.q = 0 := floorQuo_eq (by linarith) (by norm_num) (by norm_num) (by push_cast; linarith)
  have n10 : floorQuo 10 d.q = 3 := floorQuo_eq d3 (by norm_num) (by push_cast; linarith) (by push_cast; linarith)
  have lft : ∀ b : ℚ, φ.leftBox (φ.cosBox d u) ⟨.fin 3, .fin b⟩ =
      (φ.cosBox d u 0 d u).firstOf (φ.cosBox d u 1 d u) ⟨.fin 3, .fin b⟩ := by
    intro b
    unfold Fmt.leftBox
    rw [if_neg (by simp [Itv.feq_ninf]), if_neg (show ¬ FP.fin 3 < FP.fin 0 by decide +kernel)]
    simp only [hD, hU, show (FP.fin 3).q = 3 from rfl, n3, zero_add]
  refine ⟨_, _, _, nc.ok, nx.ok, nx'.ok, ?_, ?_, fun h => ?_⟩
  · intro q hq
    have : q = 3 ∨ q = 10 := by
      rcases hq with h | h
      · left; injection h with h; exact h.symm
      · right; injection h with h; exact h.symm
    rcases this with rfl | rfl
    · rw [abs_of_pos (by norm_num)]; exact ⟨by linarith, by norm_num⟩
    · rw [abs_of_pos (by norm_num)]; exact ⟨by linarith, by norm_num⟩
  · rw [set_fin, set_fin]
    refine Set.Icc_subset_Icc le_rfl ?_
    exact_mod_cast (by linarith : w ≤ 10)
  have hm : (w:ℝ) ∈ (Itv.cosRev φ ⟨.fin (-1), .fin (-1)⟩ ⟨.fin 3, .fin w⟩).set := by
    rw [unf _ nx]
    refine (Itv.hull_tight (leftBox_any hbI nx).1 (rightBox_any (quo := floorQuo) hbI nx).1).2.1 (Or.inl ?_)
    rw [lft]
    obtain ⟨o0, s0⟩ := Itv.inter_ok_set N0.ok nx.ok
    obtain ⟨o1, s1⟩ := Itv.inter_ok_set N1.ok nx.ok
    have e0 : ((φ.cosBox d u 0 d u).inter ⟨.fin 3, .fin w⟩).isEmpty = true := by
      rcases o0.cases with h | h
      · rw [h]; rfl
      · obtain ⟨t, ht⟩ := h.nonempty
        rw [s0] at ht
        have t1 := (N0.mem.mp ht.1).1
        have t2 := (mem_fin.mp ht.2).2
        have := L0.trans t1
        rw [EReal.coe_le_coe_iff] at this
        have : (w:ℝ) < d.q := by exact_mod_cast wd
        linarith
    unfold Itv.firstOf
    rw [if_pos e0, s1]
    refine ⟨N1.mem.mpr ⟨hwe.le, le_trans ?_ E1.le_hi⟩, mem_fin.mpr ⟨by exact_mod_cast w3, le_rfl⟩⟩
    rw [EReal.coe_le_coe_iff]
    have : (w:ℝ) < d.q := by exact_mod_cast wd
    linarith
  have hz := h hm
  have nz : Itv.NE φ ⟨.fin d.q, .fin 10⟩ := ne_fin hdI r10 (by linarith)
  have key : (Itv.cosRev φ ⟨.fin (-1), .fin (-1)⟩ ⟨.fin 3, .fin 10⟩).set ⊆ Itv.set ⟨.fin d.q, .fin 10⟩ := by
    rw [unf _ nx']
    refine (Itv.hull_tight (leftBox_any hbI nx').1 (rightBox_any (quo := floorQuo) hbI nx').1).2.2 _ nz.ok
      (Set.union_subset ?_ ?_)
    · rw [lft]
      obtain ⟨o0, s0⟩ := Itv.inter_ok_set N0.ok nx'.ok
      have hin : Real.pi ∈ ((φ.cosBox d u 0 d u).inter ⟨.fin 3, .fin 10⟩).set := by
        rw [s0]
        refine ⟨N0.mem.mpr ⟨E0.lo_le.trans (EReal.coe_le_coe_iff.mpr dpi), (EReal.coe_le_coe_iff.mpr upi).trans E0.le_hi⟩,
          mem_fin.mpr ⟨by push_cast; linarith, by push_cast; linarith⟩⟩
      have e0 : ((φ.cosBox d u 0 d u).inter ⟨.fin 3, .fin 10⟩).isEmpty = false := by
        rcases o0.cases with h | h
        · rw [h] at hin; simp at hin
        · exact h.isEmpty
      unfold Itv.firstOf
      rw [if_neg (by rw [e0]; simp)]
      refine inter_sub (hbI _ _ _) nx' fun t h1 h2 => nz.mem.mpr ⟨L0.trans h1, h2⟩
    · unfold Fmt.rightBox
      rw [if_neg (by simp [Itv.feq_pinf]), if_pos (show FP.fin 0 < FP.fin 10 by decide +kernel)]
      simp only [hD, hU, show (FP.fin 10).q = 10 from rfl, n10]
      obtain ⟨o0, s0⟩ := Itv.inter_ok_set N3.ok nx'.ok
      have hin : 3 * Real.pi ∈ ((φ.cosBox d u 3 d u).inter ⟨.fin 3, .fin 10⟩).set := by
        rw [s0]
        refine ⟨N3.mem.mpr ⟨E3.lo_le.trans (EReal.coe_le_coe_iff.mpr (by linarith)),
          (EReal.coe_le_coe_iff.mpr (by linarith)).trans E3.le_hi⟩, mem_fin.mpr ⟨by push_cast; linarith, by push_cast; linarith⟩⟩
      have e0 : ((φ.cosBox d u 3 d u).inter ⟨.fin 3, .fin 10⟩).isEmpty = false := by
        rcases o0.cases with h | h
        · rw [h] at hin; simp at hin
        · exact h.isEmpty
      unfold Itv.firstOf
      rw [if_neg (by rw [e0]; simp)]
      refine inter_sub (hbI _ _ _) nx' fun t h1 h2 => nz.mem.mpr ⟨le_trans ?_ (L3.trans h1), h2⟩
      simp only [FP.toE]
      rw [EReal.coe_le_coe_iff]; exact_mod_cast (by linarith : d.q ≤ 9)
  have h0 := (mem_fin.mp (key hz)).1
  have : (w:ℝ) < d.q := by exact_mod_cast wd
  linarith

/-- The hypotheses hold and the results are non-trivial: shrinking `x` and `c` shrinks the solutions of `b·t = c`. -/
example : (Itv.mk (.fin 1) (.fin 2)).Ok binary64 ∧ (Itv.mk (.fin 4) (.fin 4)).set ⊆ (Itv.mk (.fin 4) (.fin 8)).set ∧
    (Itv.mk (.fin 1) (.fin 2)).mulRev binary64 (Itv.mk (.fin 4) (.fin 4)) (Itv.mk (.fin 1) (.fin 3)) =
      Itv.mk (.fin 2) (.fin 3) ∧
    (Itv.mk (.fin 1) (.fin 2)).mulRev binary64 (Itv.mk (.fin 4) (.fin 8)) (Itv.mk (.fin 1) (.fin 6)) =
      Itv.mk (.fin 2) (.fin 6) :=
  ⟨Itv.ok_of_okb (by decide +kernel), by rw [set_fin, set_fin]; exact Set.Icc_subset_Icc le_rfl (by norm_num),
    by decide +kernel, by decide +kernel⟩

end P1788
