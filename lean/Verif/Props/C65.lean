import Verif.Props.C33b
import Verif.Props.C35b
import Verif.Props.C17
import Verif.Props.C19
import Verif.Props.C21

/-!
# C65: better operands give better results, decorations included

A decorated interval is at least as good as another one if it is contained in it and its decoration is at least as strong.
-/

namespace P1788
variable {φ : Fmt} {ι : Type}

/-- `x` is at least as good as `x'`: contained in it, with a decoration at least as strong. -/
def AsGood (x x' : DItv) : Prop := x.set ⊆ x'.set ∧ x'.dec ≤ x.dec

/-- **Full statement** for one format: every expression preserves "at least as good".  (True of `float` and `long double`,
`C65_binary32`, `C65_x87ext`; false of `double` because of the tangent, `C65_false`.) -/
def C65_full (φ : Fmt) : Prop := ∀ (ι : Type) (e : Expr ι) (X X' : ι → DItv), (∀ i, (X i).Ok φ) → (∀ i, (X' i).Ok φ) →
  (∀ i, AsGood (X i) (X' i)) → AsGood (e.evalD φ X) (e.evalD φ X')

theorem Dec.le_iff65 (a b : Dec) : a ≤ b ↔ a.val ≤ b.val := Iff.rfl

theorem Dec.le_ill65 {a : Dec} (h : a ≤ .ill) : a = .ill := by cases a <;> revert h <;> decide

theorem Dec.ill_le65 (a : Dec) : .ill ≤ a := by cases a <;> decide

theorem Dec.min_mono65 {a b a' b' : Dec} (h : a' ≤ a) (k : b' ≤ b) : a'.min b' ≤ a.min b := by
  revert h k; cases a <;> cases b <;> cases a' <;> cases b' <;> decide

theorem Dec.min_le_trv65 {a b : Dec} (h : a ≤ .trv ∨ b ≤ .trv) : a.min b ≤ .trv := by
  revert h; cases a <;> cases b <;> decide

theorem DItv.Ok.trv_of_empty {x : DItv} (hx : x.Ok φ) (he : ¬ x.set.Nonempty) : x.dec ≤ .trv := by
  rcases hx.1.cases with h | h
  · rcases hx.2.1 (by rw [h]; rfl) with h | h <;> rw [h] <;> decide
  · exact absurd h.nonempty he

/-- An exactly right decoration can only improve on a smaller box. -/
theorem decRight_mono {α : Type*} [TopologicalSpace α] [Bornology α] {f : α → ℝ} {dom X X' : Set α} {d d' : Dec} {r r' : DItv}
    (h : DecRight f dom X d r) (h' : DecTrue f dom X' d' r') (hX : X ⊆ X') (hd : d' ≤ d) (hr : r.set ⊆ r'.set)
    (he : ¬ X.Nonempty → d' ≤ .trv) : r'.dec ≤ r.dec := by
  refine h.strongest _ (Dec.le_trans h'.le hd) ?_
  by_cases hne : X.Nonempty
  · have ht := h'.true_claim
    revert ht
    cases hc : r'.dec with
    | ill => exact absurd hc h'.not_ill
    | trv => exact fun _ => trivial
    | defd => exact fun ht => ⟨hne, hX.trans ht.2⟩
    | dac => exact fun ht => ⟨hne, hX.trans ht.2.1, ht.2.2.mono hX⟩
    | com => exact fun ht => ⟨hne, hX.trans ht.2.1, fun t h => ht.2.2.1 t (hX h), ht.2.2.2.1.subset hX, ht.2.2.2.2.subset hr⟩
  · have := Dec.le_trans h'.le (he hne)
    have hn := h'.not_ill
    cases hc : r'.dec with
    | ill => exact absurd hc hn
    | trv => trivial
    | _ => rw [hc] at this; exact absurd this (by decide)

theorem nai_set : DItv.nai.set = ∅ := by
  ext t; simp [DItv.set, DItv.nai, Itv.set, Itv.empty, FP.BelowR]

theorem nai_best {x : DItv} (hx : x.Ok φ) (h : x.dec = .ill) : x = DItv.nai := by
  rcases DItv.nai_or hx with h' | h'
  · exact h'
  · exact absurd h h'

/-- **Unary functions**; the tangent of `x'` if it is not bad (C11).  `PoleGap` is a
fact about the format that holds of all three. -/
theorem C65_unary_safe_partial (op : Op1) {x x' : DItv} (hx : x.Ok φ) (hx' : x'.Ok φ)
    (hg : op = .tan → ∃ k, PoleGap φ k) (ht : op = .tan → x'.dec ≠ .ill → ¬ TanBad φ x'.itv)
    (h : AsGood x x') : AsGood (op.decd φ x) (op.decd φ x') := by
  by_cases hn' : x'.dec = .ill
  · have e' := nai_best hx' hn'
    have he : x.set = ∅ := Set.subset_empty_iff.mp (by rw [← nai_set, ← e']; exact h.1)
    constructor
    · by_cases hn : x.dec = .ill
      · rw [nai_best hx hn, Op1.decd_nai, nai_set]; exact Set.empty_subset _
      · rw [DItv.set, op.decd_itv hx hn, hx.1.eq_empty_of he]
        by_cases hop : op = .tan
        · subst hop
          have e0 : Op1.bare φ .tan Itv.empty = Itv.empty := by
            simp only [Op1.bare, Fmt.tanI]; exact if_pos (by decide)
          rw [e0]
          simp [Itv.set, Itv.empty, FP.BelowR]
        · have := (Op1.tight hop (Itv.ok_empty φ)).2.2 Itv.empty (Itv.ok_empty φ) (by
            rintro _ ⟨t, ⟨h1, -⟩, -⟩; exact h1)
          exact this.trans (by simp [Itv.set, Itv.empty, FP.BelowR])
    · rw [e', Op1.decd_nai]; exact Dec.ill_le65 _
  · have hn : x.dec ≠ .ill := fun h0 => hn' (Dec.le_ill65 (h0 ▸ h.2))
    have hs : (op.decd φ x).set ⊆ (op.decd φ x').set := by
      rw [DItv.set, DItv.set, op.decd_itv hx hn, op.decd_itv hx' hn']
      exact C35_unary_safe_partial op (fun e => ht e hn') hx.1 hx'.1 h.1
    have r' := op.decTrue_safe (fun e => ht e hn') hx' hn'
    have he : ¬ x.set.Nonempty → x'.dec ≤ .trv := fun he => Dec.le_trans h.2 (hx.trv_of_empty he)
    by_cases e : op = .tan
    · subst e
      obtain ⟨k, hk⟩ := hg rfl
      by_cases hp' : x'.itv.HasPole
      · have h1 : (Op1.tan.decd φ x').dec = .trv := by
          have hno : ¬ x'.set ⊆ {t | Real.cos t ≠ 0} := by
            obtain ⟨t, ht1, ht2⟩ := hp'
            exact fun h => h ht1 ht2
          have m := r'.true_claim
          have n := r'.not_ill
          revert m n
          cases (Op1.tan.decd φ x').dec with
          | ill => exact fun _ n => absurd rfl n
          | trv => exact fun _ _ => rfl
          | defd => exact fun m => absurd m.2 hno
          | dac => exact fun m => absurd m.2.1 hno
          | com => exact fun m => absurd m.2.1 hno
        refine ⟨hs, h1.symm ▸ ?_⟩
        have n : (Op1.tan.decd φ x).dec ≠ .ill := Op1.tan.decd_ne_ill hx hn
        revert n
        cases (Op1.tan.decd φ x).dec <;> decide
      · have hp : ¬ x.itv.HasPole := fun ⟨t, h1, h2⟩ => hp' ⟨t, h.1 h1, h2⟩
        exact ⟨hs, decRight_mono (tan_right hk hx hn fun h => absurd h.1 hp).2 r' h.1 h.2 hs he⟩
    · exact ⟨hs, decRight_mono (Op1.right e hx hn).2 r' h.1 h.2 hs he⟩

/-- **Unary functions**, in a format without bad intervals for the tangent. -/
theorem C65_unary_partial (op : Op1) (ht : op = .tan → NoCritical φ ∧ ∃ k, PoleGap φ k) {x x' : DItv} (hx : x.Ok φ)
    (hx' : x'.Ok φ) (h : AsGood x x') : AsGood (op.decd φ x) (op.decd φ x') :=
  C65_unary_safe_partial op hx hx' (fun e => (ht e).2) (fun e _ => (ht e).1 _ hx'.1) h

/-- **Binary functions.** -/
theorem C65_binary (op : Op2) {x x' y y' : DItv} (hx : x.Ok φ) (hx' : x'.Ok φ) (hy : y.Ok φ) (hy' : y'.Ok φ)
    (h : AsGood x x') (k : AsGood y y') : AsGood (op.decd φ x y) (op.decd φ x' y') := by
  by_cases hn' : x'.dec = .ill ∨ y'.dec = .ill
  · have e' : op.decd φ x' y' = DItv.nai := Op2.decd_nai _ (hn'.imp (nai_best hx') (nai_best hy'))
    have he : x.set = ∅ ∨ y.set = ∅ := by
      rcases hn' with hn | hn
      · exact Or.inl (Set.subset_empty_iff.mp (by rw [← nai_set, ← nai_best hx' hn]; exact h.1))
      · exact Or.inr (Set.subset_empty_iff.mp (by rw [← nai_set, ← nai_best hy' hn]; exact k.1))
    rw [e']
    refine ⟨?_, Dec.ill_le65 _⟩
    by_cases hn : x.dec = .ill ∨ y.dec = .ill
    · rw [Op2.decd_nai _ (hn.imp (nai_best hx) (nai_best hy))]
    · push Not at hn
      rw [DItv.set, (op.right hx hy hn.1 hn.2).1]
      refine ((op.tight hx.1 hy.1).2.2 Itv.empty (Itv.ok_empty φ) ?_)
      rintro _ ⟨t, ⟨⟨h1, h2⟩, -⟩, -⟩
      rcases he with he | he
      · exact absurd h1 (by rw [show x.itv.set = x.set from rfl, he]; exact id)
      · exact absurd h2 (by rw [show y.itv.set = y.set from rfl, he]; exact id)
  · push Not at hn'
    have hn : x.dec ≠ .ill := fun h0 => hn'.1 (Dec.le_ill65 (h0 ▸ h.2))
    have hm : y.dec ≠ .ill := fun h0 => hn'.2 (Dec.le_ill65 (h0 ▸ k.2))
    obtain ⟨e, r⟩ := op.right hx hy hn hm
    obtain ⟨e', r'⟩ := op.right hx' hy' hn'.1 hn'.2
    have hs : (op.decd φ x y).set ⊆ (op.decd φ x' y').set := by
      rw [DItv.set, DItv.set, e, e']
      exact C35_binary op hx.1 hx'.1 hy.1 hy'.1 h.1 k.1
    refine ⟨hs, decRight_mono r r'.toTrue (Set.prod_mono h.1 k.1) (Dec.min_mono65 h.2 k.2) hs fun he => ?_⟩
    rw [Set.prod_nonempty_iff, not_and_or] at he
    exact Dec.min_le_trv65 (he.imp (fun he => Dec.le_trans h.2 (hx.trv_of_empty he)) fun he => Dec.le_trans k.2 (hy.trv_of_empty he))

/-- **Fused multiply-add.** -/
theorem C65_fma {x x' y y' z z' : DItv} (hx : x.Ok φ) (hx' : x'.Ok φ) (hy : y.Ok φ) (hy' : y'.Ok φ) (hz : z.Ok φ) (hz' : z'.Ok φ)
    (h : AsGood x x') (k : AsGood y y') (l : AsGood z z') : AsGood (φ.fmaD x y z) (φ.fmaD x' y' z') := by
  by_cases hn' : x'.dec = .ill ∨ y'.dec = .ill ∨ z'.dec = .ill
  · have e' : φ.fmaD x' y' z' = DItv.nai := fmaD_nai (hn'.imp (nai_best hx') (Or.imp (nai_best hy') (nai_best hz')))
    have he : x.set = ∅ ∨ y.set = ∅ ∨ z.set = ∅ := by
      rcases hn' with hn | hn | hn
      · exact Or.inl (Set.subset_empty_iff.mp (by rw [← nai_set, ← nai_best hx' hn]; exact h.1))
      · exact Or.inr (Or.inl (Set.subset_empty_iff.mp (by rw [← nai_set, ← nai_best hy' hn]; exact k.1)))
      · exact Or.inr (Or.inr (Set.subset_empty_iff.mp (by rw [← nai_set, ← nai_best hz' hn]; exact l.1)))
    rw [e']
    refine ⟨?_, Dec.ill_le65 _⟩
    by_cases hn : x.dec = .ill ∨ y.dec = .ill ∨ z.dec = .ill
    · rw [fmaD_nai (hn.imp (nai_best hx) (Or.imp (nai_best hy) (nai_best hz)))]
    · push Not at hn
      rw [DItv.set, (C20_fma hx hy hz hn.1 hn.2.1 hn.2.2).1]
      refine ((C06_fma φ hx.1 hy.1 hz.1).2.2 Itv.empty (Itv.ok_empty φ) ?_)
      rintro _ ⟨a, h1, b, h2, c, h3, -⟩
      rcases he with he | he | he
      · exact absurd h1 (by rw [show x.itv.set = x.set from rfl, he]; exact id)
      · exact absurd h2 (by rw [show y.itv.set = y.set from rfl, he]; exact id)
      · exact absurd h3 (by rw [show z.itv.set = z.set from rfl, he]; exact id)
  · push Not at hn'
    have hn : x.dec ≠ .ill := fun h0 => hn'.1 (Dec.le_ill65 (h0 ▸ h.2))
    have hm : y.dec ≠ .ill := fun h0 => hn'.2.1 (Dec.le_ill65 (h0 ▸ k.2))
    have hk : z.dec ≠ .ill := fun h0 => hn'.2.2 (Dec.le_ill65 (h0 ▸ l.2))
    obtain ⟨e, r⟩ := C20_fma hx hy hz hn hm hk
    obtain ⟨e', r'⟩ := C20_fma hx' hy' hz' hn'.1 hn'.2.1 hn'.2.2
    have hs : (φ.fmaD x y z).set ⊆ (φ.fmaD x' y' z').set := by
      rw [DItv.set, DItv.set, e, e']
      exact C35_fma hx.1 hx'.1 hy.1 hy'.1 hz.1 hz'.1 h.1 k.1 l.1
    refine ⟨hs, decRight_mono r r'.toTrue (Set.prod_mono h.1 (Set.prod_mono k.1 l.1))
      (Dec.min_mono65 (Dec.min_mono65 h.2 k.2) l.2) hs fun he => ?_⟩
    rw [Set.prod_nonempty_iff, Set.prod_nonempty_iff, not_and_or, not_and_or] at he
    rcases he with he | he | he
    · exact Dec.min_le_trv65 (Or.inl (Dec.min_le_trv65 (Or.inl (Dec.le_trans h.2 (hx.trv_of_empty he)))))
    · exact Dec.min_le_trv65 (Or.inl (Dec.min_le_trv65 (Or.inr (Dec.le_trans k.2 (hy.trv_of_empty he)))))
    · exact Dec.min_le_trv65 (Or.inr (Dec.le_trans l.2 (hz.trv_of_empty he)))

/-- **Whole expressions**: operands that are at least as good give a result that is at least as good, if the tangent meets no
bad interval (C11) in the evaluation on the wider box. -/
theorem C65_expr_safe_partial (hg : ∃ k, PoleGap φ k) (e : Expr ι) (X X' : ι → DItv) (hX : ∀ i, (X i).Ok φ)
    (hX' : ∀ i, (X' i).Ok φ) (ht : e.TanSafe φ fun i => (X' i).itv) (h : ∀ i, AsGood (X i) (X' i)) :
    AsGood (e.evalD φ X) (e.evalD φ X') := by
  have main : (e.evalD φ X).Ok φ ∧ (e.evalD φ X').Ok φ ∧ AsGood (e.evalD φ X) (e.evalD φ X') := by
    induction e with
    | var i => exact ⟨hX i, hX' i, h i⟩
    | un op e ih =>
      obtain ⟨h1, h2, h3⟩ := ih ht.1
      refine ⟨op.decd_ok h1, op.decd_ok h2, C65_unary_safe_partial op h1 h2 (fun _ => hg) (fun h hn => ?_) h3⟩
      rw [(good e X' hX' ht.1).itv hn]
      exact ht.2 h
    | bin op e₁ e₂ ih₁ ih₂ =>
      obtain ⟨h1, h2, h3⟩ := ih₁ ht.1
      obtain ⟨k1, k2, k3⟩ := ih₂ ht.2
      exact ⟨op.decd_ok h1 k1, op.decd_ok h2 k2, C65_binary op h1 h2 k1 k2 h3 k3⟩
    | fma e₁ e₂ e₃ ih₁ ih₂ ih₃ =>
      obtain ⟨h1, h2, h3⟩ := ih₁ ht.1
      obtain ⟨k1, k2, k3⟩ := ih₂ ht.2.1
      obtain ⟨l1, l2, l3⟩ := ih₃ ht.2.2
      exact ⟨fmaD_ok h1 k1 l1, fmaD_ok h2 k2 l2, C65_fma h1 h2 k1 k2 l1 l2 h3 k3 l3⟩
  exact main.2.2

/-- The same for `double`. -/
theorem C65_binary64_partial (e : Expr ι) (X X' : ι → DItv) (hX : ∀ i, (X i).Ok binary64)
    (hX' : ∀ i, (X' i).Ok binary64) (ht : e.TanSafe binary64 fun i => (X' i).itv) (h : ∀ i, AsGood (X i) (X' i)) :
    AsGood (e.evalD binary64 X) (e.evalD binary64 X') :=
  C65_expr_safe_partial ⟨_, poleGap_binary64⟩ e X X' hX hX' ht h

/-- Expressions without the tangent, or formats without bad intervals for the tangent: no condition on the operands. -/
theorem C65_expr_partial (hg : ∃ k, PoleGap φ k) (e : Expr ι) (ht : NoCritical φ ∨ e.TanFree) (X X' : ι → DItv)
    (hX : ∀ i, (X i).Ok φ) (hX' : ∀ i, (X' i).Ok φ) (h : ∀ i, AsGood (X i) (X' i)) :
    AsGood (e.evalD φ X) (e.evalD φ X') :=
  C65_expr_safe_partial hg e X X' hX hX' (e.tanSafe ht fun i => (hX' i).1) h

theorem C65_binary32 : C65_full binary32 := fun _ e X X' hX hX' h => C65_expr_partial ⟨_, poleGap_binary32⟩ e (.inl noCritical_binary32) X X' hX hX' h
theorem C65_x87ext : C65_full x87ext := fun _ e X X' hX hX' h => C65_expr_partial ⟨_, poleGap_x87ext⟩ e (.inl noCritical_x87ext) X X' hX hX' h

/-- A freshly decorated non-empty interval is at least as good as every freshly decorated interval around it (an empty one is
not: it is decorated `trv`, see the example below). -/
theorem C65_new_dec {x x' : Itv} (hx : x.Ok φ) (hx' : x'.Ok φ) (hne : x.set.Nonempty) (h : x.set ⊆ x'.set) :
    AsGood x.newDec x'.newDec := by
  have e : x.newDec.set = x.set := by rw [DItv.set, newDec_itv]
  have e' : x'.newDec.set = x'.set := by rw [DItv.set, newDec_itv]
  refine ⟨by rw [e, e']; exact h, ?_⟩
  have f := newDec_fresh hx
  have f' := newDec_fresh hx'
  by_cases hb' : Bornology.IsBounded x'.newDec.set
  · have hb := hb'.subset (by rw [e, e']; exact h : x.newDec.set ⊆ x'.newDec.set)
    rw [f.2.1 (e ▸ hne) hb]
    cases x'.newDec.dec <;> decide
  · rw [f'.2.2 hb']
    by_cases hb : Bornology.IsBounded x.newDec.set
    · rw [f.2.1 (e ▸ hne) hb]; decide
    · rw [f.2.2 hb]; decide

/-- **From bare boxes**: evaluating an expression on freshly decorated operands, a non-empty smaller box gives a result that
is at least as good. -/
theorem C65_fresh_partial (hg : ∃ k, PoleGap φ k) (e : Expr ι) (X X' : ι → Itv) (hX : ∀ i, (X i).Ok φ)
    (hX' : ∀ i, (X' i).Ok φ) (ht : e.TanSafe φ X') (hne : ∀ i, (X i).set.Nonempty) (h : ∀ i, (X i).set ⊆ (X' i).set) :
    AsGood (e.evalD φ fun i => (X i).newDec) (e.evalD φ fun i => (X' i).newDec) :=
  C65_expr_safe_partial hg e _ _ (fun i => fresh_ok ((newDec_itv _).symm ▸ hX i) (newDec_fresh (hX i)))
    (fun i => fresh_ok ((newDec_itv _).symm ▸ hX' i) (newDec_fresh (hX' i)))
    (by simpa only [newDec_itv] using ht) fun i => C65_new_dec (hX i) (hX' i) (hne i) (h i)

/-- **The full statement is false of `double`**, in the decoration as well: the tangent of `[1,2]` decorated `com` is decorated
`trv`, that of an interval around it is decorated `dac` or better. -/
theorem C65_tan_binary64_false : ∃ x x' : DItv, x.Ok binary64 ∧ x'.Ok binary64 ∧ AsGood x x' ∧
    (binary64.tanD x).dec = .trv ∧ .dac ≤ (binary64.tanD x').dec := by
  obtain ⟨b, hN, ha, hb, hbv, ht1, hw, hr⟩ := tan_witness_branch
  have hx : (DItv.mk tanWitness .com).Ok binary64 :=
    ⟨tanWitness_ok, by simp [tanWitness], by simp, by simp [tanWitness]⟩
  obtain ⟨e1, e2⟩ := tanD_eq hx (by simp)
  obtain ⟨b1, b2⟩ := tan_branch (x := DItv.mk tanWitness .com) hN ha hb
  have c1 := Bool.eq_false_iff.mpr (fun h => absurd (b1.mp h) (not_lt.mpr hw))
  have c2 := Bool.eq_false_iff.mpr (fun h => absurd (b2.mp h) (not_lt.mpr hr))
  rw [c1, c2, show (DItv.mk tanWitness .com).itv.isEmpty = false from hN.isEmpty] at e2
  simp only [Bool.or_self, Bool.false_eq_true, if_false] at e2
  have hd : Dec.dac ≤ (binary64.tanD (DItv.mk tanWitness .com)).dec := by
    rw [e2]; unfold Itv.comDac; split_ifs <;> decide
  have h12 : (DItv.mk ⟨.fin 1, .fin 2⟩ .com).Ok binary64 :=
    ⟨Itv.ok_of_okb (by decide +kernel), by simp, by simp, by simp⟩
  refine ⟨⟨⟨.fin 1, .fin 2⟩, .com⟩, ⟨tanWitness, .com⟩, h12, hx, ⟨?_, Dec.le_refl _⟩, ?_, hd⟩
  · rintro t ⟨h1, h2⟩
    simp only [FP.BelowR, FP.AboveR] at h1 h2
    push_cast at h1 h2
    refine ⟨?_, ?_⟩
    · show ((7 / 8 : ℚ) : ℝ) ≤ t
      push_cast; linarith
    · show t ≤ ((7 / 8 + 884279719003555 / 2 ^ 48 : ℚ) : ℝ)
      push_cast; norm_num; linarith
  · obtain ⟨-, h1, h2, h3⟩ := C20_tan_partial h12 (by simp) fun hc => by
      obtain ⟨a, b, h1, h2, h3, -⟩ := hc.critical h12.1
      have e1 : ((1:ℚ):ℝ) = a := EReal.coe_eq_coe_iff.mp h1
      have e2 : ((2:ℚ):ℝ) = b := EReal.coe_eq_coe_iff.mp h2
      have := Real.pi_gt_three
      rw [← e1, ← e2] at h3
      simp only [binary64] at h3
      norm_num at h3
      linarith
    have hp : Real.pi / 2 ∈ (DItv.mk ⟨.fin 1, .fin 2⟩ .com).set := by
      have := Real.pi_gt_three
      have := Real.pi_lt_d2
      constructor
      · show ((1:ℚ):ℝ) ≤ _
        push_cast; linarith
      · show _ ≤ ((2:ℚ):ℝ)
        push_cast; norm_num at *; linarith
    have hno : ¬ (DItv.mk ⟨.fin 1, .fin 2⟩ .com).set ⊆ {t | Real.cos t ≠ 0} := fun h => h hp Real.cos_pi_div_two
    revert h1 h3
    generalize (binary64.tanD ⟨⟨.fin 1, .fin 2⟩, .com⟩).dec = d
    intro h1 h3
    cases d
    · exact absurd rfl h1
    · rfl
    · exact absurd h3.2 hno
    · exact absurd h3.2.1 hno
    · exact absurd h3.2.1 hno

theorem C65_false : ¬ C65_full binary64 := by
  intro h
  obtain ⟨x, x', hx, hx', hg, h1, h2⟩ := C65_tan_binary64_false
  have := (h Unit (.un .tan (.var ())) (fun _ => x) (fun _ => x') (fun _ => hx) (fun _ => hx') fun _ => hg).2
  have h3 : (binary64.tanD x').dec ≤ (binary64.tanD x).dec := this
  rw [h1] at h3
  exact absurd (Dec.le_trans h2 h3) (by decide)

/-! ### Mixed number types -/

variable {T T1 T2 T3 : NumTy}

theorem nai_set' {x : DItv} (h : x.IsNaI) : x.set = ∅ := by rw [DItv.eq_nai h, nai_set]

theorem tight_empty65 {S : Set ℝ} {R : Itv} (h : Tightest φ R S) (hS : S = ∅) : R.set = ∅ := by
  have := h.2.2 Itv.empty (Itv.ok_empty φ) (by rw [hS]; exact Set.empty_subset _)
  rwa [Itv.set_empty, Set.subset_empty_iff] at this

/-- **Unary functions, any combination of argument and result type**; the tangent unless the worse operand is bad for the widest type
(only in `double`, C11). -/
theorem C65_unary_mixed_partial (op : Op1) {x x' : DItv} (ht : op = .tan → ¬ TanBad (T.maxPrec [T1]).fmt x'.itv) (hx : x.Ok T1.fmt)
    (hx' : x'.Ok T1.fmt) (h : AsGood x x') : AsGood (op.mixedD T T1 x) (op.mixedD T T1 x') := by
  have right : ∀ x : DItv, (op = .tan → ¬ TanBad (T.maxPrec [T1]).fmt x.itv) → x.Ok T1.fmt → ¬ x.IsNaI →
      Tightest T.fmt (op.mixedD T T1 x).itv (op.fn '' (x.set ∩ op.dom)) ∧ DecRight op.fn op.dom x.set x.dec (op.mixedD T T1 x) := by
    intro x ht hx hn
    by_cases e : op = .tan
    · subst e; exact (C33_tan_dec_partial hx hn (ht rfl)).2
    · exact (C33_unary_dec e hx hn).2
  by_cases hn' : x'.IsNaI
  · have e' := (C33_nai (T := T) (T1 := T1) (T2 := T1) (T3 := T1) hn').1 op
    have he : x.set = ∅ := Set.subset_empty_iff.mp (by rw [← nai_set' hn']; exact h.1)
    refine ⟨?_, by rw [e'.2]; exact Dec.ill_le65 _⟩
    by_cases hn : x.IsNaI
    · rw [nai_set' ((C33_nai (T := T) (T1 := T1) (T2 := T1) (T3 := T1) hn).1 op)]; exact Set.empty_subset _
    · have hb : op = .tan → ¬ TanBad (T.maxPrec [T1]).fmt x.itv := fun _ hb => by
        obtain ⟨⟨t, ht, -⟩, -⟩ := hb
        have : t ∈ x.set := ht
        rw [he] at this; exact this
      rw [DItv.set, tight_empty65 (right x hb hx hn).1 (by rw [he]; simp)]; exact Set.empty_subset _
  · have hn : ¬ x.IsNaI := fun h0 => hn' ((DItv.isNaI_iff hx').mpr (Dec.le_ill65 (h0.2 ▸ h.2)))
    obtain ⟨t', r'⟩ := right x' ht hx' hn'
    by_cases hb : op = .tan → ¬ TanBad (T.maxPrec [T1]).fmt x.itv
    · obtain ⟨t, r⟩ := right x hb hx hn
      have hs : (op.mixedD T T1 x).set ⊆ (op.mixedD T T1 x').set :=
        t.2.2 _ t'.1 ((Set.image_mono (Set.inter_subset_inter_left _ h.1)).trans t'.2.1)
      exact ⟨hs, decRight_mono r r'.toTrue h.1 h.2 hs fun he => Dec.le_trans h.2 (hx.trv_of_empty he)⟩
    · push Not at hb
      obtain ⟨rfl, ⟨t, ht1, ht2⟩, -⟩ := hb
      -- the larger interval contains a pole, too, and is not bad: its tangent is the whole line, decorated `trv`
      have hno : ¬ x'.set ⊆ Op1.tan.dom := fun hd => hd (h.1 ht1) ht2
      have h1 : (Op1.tan.mixedD T T1 x').dec = .trv := by
        have m := r'.toTrue.true_claim
        have n := r'.toTrue.not_ill
        revert m n
        cases (Op1.tan.mixedD T T1 x').dec with
        | ill => exact fun _ n => absurd rfl n
        | trv => exact fun _ _ => rfl
        | defd => exact fun m => absurd m.2 hno
        | dac => exact fun m => absurd m.2.1 hno
        | com => exact fun m => absurd m.2.1 hno
      have hw : (Op1.tan.mixedD T T1 x').set = Set.univ := by
        rcases hx'.1.cases with e | hN
        · exact absurd (h.1 ht1) (by rw [DItv.set, e, Itv.set_empty]; exact id)
        have hp : x'.itv.HasPole := ⟨t, h.1 ht1, ht2⟩
        have h2 : Tightest T.fmt Itv.entire (Op1.tan.fn '' (x'.set ∩ Op1.tan.dom)) :=
          (tight_entire (range_pole hN hp)).of_eq'
            (by ext z; exact ⟨fun ⟨a, h, e⟩ => ⟨a, h.1, h.2, e.symm⟩, fun ⟨a, h, h', e⟩ => ⟨a, ⟨h, h'⟩, e.symm⟩⟩)
        rw [DItv.set, t'.set_unique h2, Itv.set_entire]
      have hi : (Op1.tan.mixedD T T1 x).dec ≠ .ill :=
        Op1.mixedD_ne_ill .tan hx fun h0 => hn ((DItv.isNaI_iff hx).mpr h0)
      refine ⟨by rw [hw]; exact Set.subset_univ _, ?_⟩
      rw [h1]
      revert hi
      cases (Op1.tan.mixedD T T1 x).dec <;> first | exact fun hi => absurd rfl hi | exact fun _ => by decide

/-- **Binary functions, any combination of types.** -/
theorem C65_binary_mixed (op : Op2) {x x' y y' : DItv} (hx : x.Ok T1.fmt) (hx' : x'.Ok T1.fmt) (hy : y.Ok T2.fmt)
    (hy' : y'.Ok T2.fmt) (h : AsGood x x') (k : AsGood y y') : AsGood (op.mixedD T T1 T2 x y) (op.mixedD T T1 T2 x' y') := by
  have nai : ∀ x y : DItv, x.IsNaI ∨ y.IsNaI → (op.mixedD T T1 T2 x y).IsNaI := fun x y h => h.elim
    (fun h => ((C33_nai (T := T) (T1 := T1) (T2 := T2) (T3 := T1) h).2.1 op y).1)
    (fun h => ((C33_nai (T := T) (T1 := T1) (T2 := T2) (T3 := T1) h).2.1 op x).2)
  by_cases hn' : x'.IsNaI ∨ y'.IsNaI
  · have he : x.set ×ˢ y.set = ∅ := by
      rcases hn' with hn | hn
      · rw [Set.subset_empty_iff.mp (by rw [← nai_set' hn]; exact h.1 : x.set ⊆ ∅), Set.empty_prod]
      · rw [Set.subset_empty_iff.mp (by rw [← nai_set' hn]; exact k.1 : y.set ⊆ ∅), Set.prod_empty]
    refine ⟨?_, by rw [(nai _ _ hn').2]; exact Dec.ill_le65 _⟩
    by_cases hn : x.IsNaI ∨ y.IsNaI
    · rw [nai_set' (nai _ _ hn)]; exact Set.empty_subset _
    · push Not at hn
      rw [DItv.set, tight_empty65 (C33_binary_dec op hx hy hn.1 hn.2).2.1 (by rw [he]; simp)]; exact Set.empty_subset _
  · push Not at hn'
    have hn : ¬ x.IsNaI := fun h0 => hn'.1 ((DItv.isNaI_iff hx').mpr (Dec.le_ill65 (h0.2 ▸ h.2)))
    have hm : ¬ y.IsNaI := fun h0 => hn'.2 ((DItv.isNaI_iff hy').mpr (Dec.le_ill65 (h0.2 ▸ k.2)))
    obtain ⟨-, t, r⟩ := C33_binary_dec (T := T) op hx hy hn hm
    obtain ⟨-, t', r'⟩ := C33_binary_dec (T := T) op hx' hy' hn'.1 hn'.2
    have hs : (op.mixedD T T1 T2 x y).set ⊆ (op.mixedD T T1 T2 x' y').set :=
      t.2.2 _ t'.1 ((Set.image_mono (Set.inter_subset_inter_left _ (Set.prod_mono h.1 k.1))).trans t'.2.1)
    refine ⟨hs, decRight_mono r r'.toTrue (Set.prod_mono h.1 k.1) (Dec.min_mono65 h.2 k.2) hs fun he => ?_⟩
    rw [Set.prod_nonempty_iff, not_and_or] at he
    exact Dec.min_le_trv65 (he.imp (fun he => Dec.le_trans h.2 (hx.trv_of_empty he)) fun he => Dec.le_trans k.2 (hy.trv_of_empty he))

/-- **Intersection and convex hull, any combination of types** (their results are decorated `trv`). -/
theorem C65_set_ops_mixed {x x' y y' : DItv} (hx : x.Ok T1.fmt) (hx' : x'.Ok T1.fmt) (hy : y.Ok T2.fmt)
    (hy' : y'.Ok T2.fmt) (hn : ¬ x'.IsNaI) (hm : ¬ y'.IsNaI) (h : AsGood x x') (k : AsGood y y') :
    AsGood (DItv.interMixed T T1 T2 x y) (DItv.interMixed T T1 T2 x' y') ∧
    AsGood (DItv.hullMixed T T1 T2 x y) (DItv.hullMixed T T1 T2 x' y') := by
  have hn0 : ¬ x.IsNaI := fun h0 => hn ((DItv.isNaI_iff hx').mpr (Dec.le_ill65 (h0.2 ▸ h.2)))
  have hm0 : ¬ y.IsNaI := fun h0 => hm ((DItv.isNaI_iff hy').mpr (Dec.le_ill65 (h0.2 ▸ k.2)))
  obtain ⟨a1, a2, a3, a4⟩ := C33_set_ops_dec (T := T) hx hy hn0 hm0
  obtain ⟨b1, b2, b3, b4⟩ := C33_set_ops_dec (T := T) hx' hy' hn hm
  exact ⟨⟨a1.2.2 _ b1.1 ((Set.inter_subset_inter h.1 k.1).trans b1.2.1), by rw [a2, b2]; decide⟩,
    ⟨a3.2.2 _ b3.1 ((Set.union_subset_union h.1 k.1).trans b3.2.1), by rw [a4, b4]; decide⟩⟩

/-- **Fused multiply-add, any combination of types.** -/
theorem C65_fma_mixed {x x' y y' z z' : DItv} (hx : x.Ok T1.fmt) (hx' : x'.Ok T1.fmt) (hy : y.Ok T2.fmt) (hy' : y'.Ok T2.fmt)
    (hz : z.Ok T3.fmt) (hz' : z'.Ok T3.fmt) (h : AsGood x x') (k : AsGood y y') (l : AsGood z z') :
    AsGood (fmaMixedD T T1 T2 T3 x y z) (fmaMixedD T T1 T2 T3 x' y' z') := by
  have nai : ∀ x y z : DItv, x.IsNaI ∨ y.IsNaI ∨ z.IsNaI → (fmaMixedD T T1 T2 T3 x y z).IsNaI := by
    rintro x y z (h | h | h)
    · exact ((C33_nai (T := T) (T1 := T1) (T2 := T2) (T3 := T3) h).2.2.1 y z).1
    · exact ((C33_nai (T := T) (T1 := T1) (T2 := T2) (T3 := T3) h).2.2.1 x z).2.1
    · exact ((C33_nai (T := T) (T1 := T1) (T2 := T2) (T3 := T3) h).2.2.1 x y).2.2
  by_cases hn' : x'.IsNaI ∨ y'.IsNaI ∨ z'.IsNaI
  · have he : x.set = ∅ ∨ y.set = ∅ ∨ z.set = ∅ := by
      rcases hn' with hn | hn | hn
      · exact Or.inl (Set.subset_empty_iff.mp (by rw [← nai_set' hn]; exact h.1))
      · exact Or.inr (Or.inl (Set.subset_empty_iff.mp (by rw [← nai_set' hn]; exact k.1)))
      · exact Or.inr (Or.inr (Set.subset_empty_iff.mp (by rw [← nai_set' hn]; exact l.1)))
    refine ⟨?_, by rw [(nai _ _ _ hn').2]; exact Dec.ill_le65 _⟩
    by_cases hn : x.IsNaI ∨ y.IsNaI ∨ z.IsNaI
    · rw [nai_set' (nai _ _ _ hn)]; exact Set.empty_subset _
    · push Not at hn
      rw [DItv.set, tight_empty65 (C33_fma_dec hx hy hz hn.1 hn.2.1 hn.2.2).2.1 (by
        rcases he with he | he | he <;> rw [he] <;> simp)]
      exact Set.empty_subset _
  · push Not at hn'
    have hn : ¬ x.IsNaI := fun h0 => hn'.1 ((DItv.isNaI_iff hx').mpr (Dec.le_ill65 (h0.2 ▸ h.2)))
    have hm : ¬ y.IsNaI := fun h0 => hn'.2.1 ((DItv.isNaI_iff hy').mpr (Dec.le_ill65 (h0.2 ▸ k.2)))
    have hk : ¬ z.IsNaI := fun h0 => hn'.2.2 ((DItv.isNaI_iff hz').mpr (Dec.le_ill65 (h0.2 ▸ l.2)))
    obtain ⟨-, t, r⟩ := C33_fma_dec (T := T) hx hy hz hn hm hk
    obtain ⟨-, t', r'⟩ := C33_fma_dec (T := T) hx' hy' hz' hn'.1 hn'.2.1 hn'.2.2
    have hs : (fmaMixedD T T1 T2 T3 x y z).set ⊆ (fmaMixedD T T1 T2 T3 x' y' z').set := by
      refine t.2.2 _ t'.1 (Set.Subset.trans ?_ t'.2.1)
      rintro w ⟨a, ha, b, hb, c, hc, e⟩
      exact ⟨a, h.1 ha, b, k.1 hb, c, l.1 hc, e⟩
    refine ⟨hs, decRight_mono r r'.toTrue (Set.prod_mono h.1 (Set.prod_mono k.1 l.1))
      (Dec.min_mono65 (Dec.min_mono65 h.2 k.2) l.2) hs fun he => ?_⟩
    rw [Set.prod_nonempty_iff, Set.prod_nonempty_iff, not_and_or, not_and_or] at he
    rcases he with he | he | he
    · exact Dec.min_le_trv65 (Or.inl (Dec.min_le_trv65 (Or.inl (Dec.le_trans h.2 (hx.trv_of_empty he)))))
    · exact Dec.min_le_trv65 (Or.inl (Dec.min_le_trv65 (Or.inr (Dec.le_trans k.2 (hy.trv_of_empty he)))))
    · exact Dec.min_le_trv65 (Or.inr (Dec.le_trans l.2 (hz.trv_of_empty he)))

/-- Non-vacuity: `[4,9]` decorated `com` is at least as good as `[-1,9]` decorated `com`; the reciprocal of the former is
decorated `com`, that of the latter `trv`. -/
example : let x : DItv := ⟨⟨.fin 4, .fin 9⟩, .com⟩; let x' : DItv := ⟨⟨.fin (-1), .fin 9⟩, .com⟩
    x.Ok binary64 ∧ x'.Ok binary64 ∧ AsGood x x' ∧
    (Op1.recip.decd binary64 x).dec = .com ∧ (Op1.recip.decd binary64 x').dec = .trv := by
  refine ⟨⟨Itv.ok_of_okb (by decide +kernel), ?_⟩, ⟨Itv.ok_of_okb (by decide +kernel), ?_⟩, ⟨?_, Dec.le_refl _⟩,
    by decide +kernel, by decide +kernel⟩
  · simp
  · simp
  · rintro t ⟨h1, h2⟩
    refine ⟨?_, h2⟩
    simp only [FP.BelowR] at h1 ⊢
    push_cast at h1 ⊢
    linarith

/-- Non-vacuity of `C65_binary64_partial` with the tangent: `tan` on `[1, 3]`, of which the parts are better operands. -/
example : Expr.TanSafe binary64 (fun _ : Unit => ⟨.fin 1, .fin 3⟩) (.un .tan (.var ())) ∧
    AsGood ⟨⟨.fin 2, .fin 3⟩, .com⟩ ⟨⟨.fin 1, .fin 3⟩, .com⟩ := by
  have hok : (Itv.mk (.fin 1) (.fin 3)).Ok binary64 := Itv.ok_of_okb (by decide +kernel)
  refine ⟨⟨trivial, fun _ => not_bad_of_width (.inl fun s hs t ht => ?_) hok⟩, ?_, Dec.le_refl _⟩
  · simp only [Expr.eval, Itv.set, FP.BelowR, FP.AboveR, Set.mem_ofPred_eq] at hs ht
    obtain ⟨a1, a2⟩ := hs
    obtain ⟨b1, b2⟩ := ht
    push_cast at a1 a2 b1 b2
    exact abs_le.mpr ⟨by linarith, by linarith⟩
  · rintro t ⟨h1, h2⟩
    refine ⟨?_, h2⟩
    simp only [FP.BelowR] at h1 ⊢
    push_cast at h1 ⊢
    linarith

/-- Without the non-emptiness in `C65_new_dec` the claim is wrong: the empty interval is decorated `trv`, `[1,2]` `com`. -/
example : ¬ AsGood Itv.empty.newDec (Itv.mk (.fin 1) (.fin 2)).newDec := fun h => absurd h.2 (by decide)

end P1788
