import Verif.Lemmas.Ops
import Verif.Props.C25
import Verif.Lemmas.RevTrig2

/-! # C50: exactness

Results that are representable are delivered without any widening; in particular computations with integers are exact as
long as no intermediate value exceeds `2^p`. -/

namespace P1788
variable {φ : Fmt} {ι : Type}

theorem tight_exact {R Y : Itv} (h : Tightest φ R Y.set) (hY : Y.Ok φ) : R.set = Y.set :=
  Set.Subset.antisymm (h.2.2 Y hY subset_rfl) h.2.1

/-- If the exact range of a unary function (other than the tangent) is an interval of the type, it is the result. -/
theorem C50_unary (op : Op1) (ht : op ≠ .tan) {x Y : Itv} (hx : x.Ok φ) (hY : Y.Ok φ)
    (h : op.fn '' (x.set ∩ op.dom) = Y.set) : (op.bare φ x).set = Y.set :=
  tight_exact (h ▸ op.tight ht hx) hY

/-- The same for binary functions, all of them. -/
theorem C50_binary (op : Op2) {x y Y : Itv} (hx : x.Ok φ) (hy : y.Ok φ) (hY : Y.Ok φ)
    (h : op.fn '' ((x.set ×ˢ y.set) ∩ op.dom) = Y.set) : (op.bare φ x y).set = Y.set :=
  tight_exact (h ▸ op.tight hx hy) hY

/-- The same for `fma`. -/
theorem C50_fma {x y z Y : Itv} (hx : x.Ok φ) (hy : y.Ok φ) (hz : z.Ok φ) (hY : Y.Ok φ)
    (h : {w | ∃ a ∈ x.set, ∃ b ∈ y.set, ∃ c ∈ z.set, w = a * b + c} = Y.set) : (φ.fmaI x y z).set = Y.set :=
  tight_exact (h ▸ C06_fma φ hx hy hz) hY

/-- Every subexpression is defined at `t`, and its value is a number of the type. -/
noncomputable def Expr.RepAt (φ : Fmt) (t : ι → ℝ) : Expr ι → Prop
  | .var i => ∃ q : ℚ, φ.Rep q ∧ t i = q
  | .un op e => e.RepAt φ t ∧ e.val t ∈ op.dom ∧ ∃ q : ℚ, φ.Rep q ∧ op.fn (e.val t) = q
  | .bin op e₁ e₂ => e₁.RepAt φ t ∧ e₂.RepAt φ t ∧ (e₁.val t, e₂.val t) ∈ op.dom ∧
      ∃ q : ℚ, φ.Rep q ∧ op.fn (e₁.val t, e₂.val t) = q
  | .fma e₁ e₂ e₃ => e₁.RepAt φ t ∧ e₂.RepAt φ t ∧ e₃.RepAt φ t ∧
      ∃ q : ℚ, φ.Rep q ∧ e₁.val t * e₂.val t + e₃.val t = q

theorem rep_point {q : ℚ} (h : φ.Rep q) : (Itv.mk (.fin q) (.fin q)).Ok φ ∧ (Itv.mk (.fin q) (.fin q)).set = {(q:ℝ)} := by
  have h1 : (Itv.mk (.fin q) (.fin q)).NE φ := ⟨by simp, by simp, le_rfl, by simp, by simp, h, h⟩
  refine ⟨h1.ok, ?_⟩
  ext r
  constructor
  · rintro ⟨a, b⟩; exact le_antisymm b a
  · intro h'; rw [Set.mem_singleton_iff.mp h']; exact ⟨le_refl (q:ℝ), le_refl (q:ℝ)⟩

/-- The tangent on a point interval. -/
theorem tan_point {x : Itv} {a : ℝ} (hx : x.Ok φ) (h : x.set = {a}) :
    Tightest φ (Op1.tan.bare φ x) (Op1.tan.fn '' (x.set ∩ Op1.tan.dom)) := by
  rcases hx.cases with rfl | hN
  · rw [Itv.set_empty] at h; exact absurd (h.symm ▸ Set.mem_singleton a : a ∈ (∅:Set ℝ)) (Set.notMem_empty a)
  have hm := hN.mem.mp (h ▸ Set.mem_singleton a : a ∈ x.set)
  have ha : x.lo.toE = (a:EReal) := by
    by_contra hne
    obtain ⟨c, c1, c2⟩ := EReal.lt_iff_exists_real_btwn.mp (lt_of_le_of_ne hm.1 hne)
    have : c ∈ x.set := hN.mem.mpr ⟨c1.le, c2.le.trans hm.2⟩
    rw [h] at this
    rw [Set.mem_singleton_iff.mp this] at c2
    exact lt_irrefl _ c2
  have hb : x.hi.toE = (a:EReal) := by
    by_contra hne
    obtain ⟨c, c1, c2⟩ := EReal.lt_iff_exists_real_btwn.mp (lt_of_le_of_ne hm.2 (Ne.symm hne))
    have : c ∈ x.set := hN.mem.mpr ⟨hm.1.trans c1.le, c2.le⟩
    rw [h] at this
    rw [Set.mem_singleton_iff.mp this] at c1
    exact lt_irrefl _ c1
  have hp : ¬x.HasPole := by
    rintro ⟨t, ht, h0⟩
    rw [h] at ht
    rw [Set.mem_singleton_iff.mp ht] at h0
    exact cos_ne_of_toE ha h0
  have hw : ((a - a : ℝ):EReal) ≤ φ.rdE (Real.pi:ℝ) := by
    rw [sub_self, EReal.coe_zero, ← φ.rdE_zero]
    exact φ.rdE_mono (by exact_mod_cast Real.pi_pos.le)
  refine (tight_no_pole hN ha hb hw hp).of_eq' ?_
  ext z
  constructor
  · rintro ⟨t, ⟨h1, h2⟩, rfl⟩; exact ⟨t, h1, h2, rfl⟩
  · rintro ⟨t, h1, h2, rfl⟩; exact ⟨t, ⟨h1, h2⟩, rfl⟩

/-- **C50**, whole expressions: on point intervals, if every intermediate value is a number of the type, the result is the
point interval of the value.  -/
theorem C50_expr (e : Expr ι) (t : ι → ℝ) (hr : e.RepAt φ t) (X : ι → Itv) (hX : ∀ i, (X i).Ok φ)
    (h : ∀ i, (X i).set = {t i}) : (e.eval φ X).Ok φ ∧ (e.eval φ X).set = {e.val t} := by
  induction e with
  | var i => exact ⟨hX i, h i⟩
  | un op e ih =>
    obtain ⟨h1, h2⟩ := ih hr.1
    obtain ⟨-, hd, q, hq, hv⟩ := hr
    refine ⟨op.bare_ok h1, ?_⟩
    have hp := rep_point hq
    have e1 : op.fn '' ((e.eval φ X).set ∩ op.dom) = (Itv.mk (.fin q) (.fin q)).set := by
      rw [h2, hp.2, Set.singleton_inter_of_mem hd, Set.image_singleton, hv]
    show (op.bare φ (e.eval φ X)).set = {op.fn (e.val t)}
    rw [hv, ← hp.2]
    by_cases ht : op = .tan
    · subst ht; exact tight_exact (e1 ▸ tan_point h1 h2) hp.1
    · exact C50_unary op ht h1 hp.1 e1
  | bin op e₁ e₂ ih₁ ih₂ =>
    obtain ⟨h1, h2⟩ := ih₁ hr.1
    obtain ⟨k1, k2⟩ := ih₂ hr.2.1
    obtain ⟨-, -, hd, q, hq, hv⟩ := hr
    refine ⟨(op.tight h1 k1).1, ?_⟩
    have hp := rep_point hq
    show (op.bare φ (e₁.eval φ X) (e₂.eval φ X)).set = {op.fn (e₁.val t, e₂.val t)}
    rw [C50_binary op h1 k1 hp.1 ?_, hp.2, hv]
    · rw [h2, k2, hp.2, Set.singleton_prod_singleton, Set.singleton_inter_of_mem hd, Set.image_singleton, hv]
  | fma e₁ e₂ e₃ ih₁ ih₂ ih₃ =>
    obtain ⟨h1, h2⟩ := ih₁ hr.1
    obtain ⟨k1, k2⟩ := ih₂ hr.2.1
    obtain ⟨l1, l2⟩ := ih₃ hr.2.2.1
    obtain ⟨-, -, -, q, hq, hv⟩ := hr
    refine ⟨(C06_fma φ h1 k1 l1).1, ?_⟩
    have hp := rep_point hq
    show (φ.fmaI _ _ _).set = {e₁.val t * e₂.val t + e₃.val t}
    rw [C50_fma h1 k1 l1 hp.1 ?_, hp.2, hv]
    rw [h2, k2, l2, hp.2, ← hv]
    ext w
    simp

/-- The functions that map integers to integers. -/
def Op1.Integral : Op1 → Prop
  | .pos | .neg | .sqr | .abs | .sign | .ceil | .floor | .trunc | .roundEven | .roundAway => True
  | .pown p => 0 ≤ p
  | _ => False

def Op2.Integral : Op2 → Prop
  | .add | .sub | .mul | .min | .max => True
  | _ => False

/-- Expressions built from the operations that map integers to integers. -/
def Expr.Integral : Expr ι → Prop
  | .var _ => True
  | .un op e => op.Integral ∧ e.Integral
  | .bin op e₁ e₂ => op.Integral ∧ e₁.Integral ∧ e₂.Integral
  | .fma e₁ e₂ e₃ => e₁.Integral ∧ e₂.Integral ∧ e₃.Integral

/-- The absolute values of all intermediate results are at most `B`. -/
noncomputable def Expr.Within (B : ℝ) (t : ι → ℝ) : Expr ι → Prop
  | .var i => |t i| ≤ B
  | .un op e => e.Within B t ∧ |op.fn (e.val t)| ≤ B
  | .bin op e₁ e₂ => e₁.Within B t ∧ e₂.Within B t ∧ |op.fn (e₁.val t, e₂.val t)| ≤ B
  | .fma e₁ e₂ e₃ => e₁.Within B t ∧ e₂.Within B t ∧ e₃.Within B t ∧ |e₁.val t * e₂.val t + e₃.val t| ≤ B

/-- **C50**, integers: expressions in `+`, `-`, `*`, `fma`, `sqr`, `pown`, `abs`, `min`, `max`, `sign` and the rounding
functions, evaluated on integers, give exactly their value if all intermediate results are at most `2^p` in magnitude. -/
theorem C50_integers (e : Expr ι) (hI : e.Integral) (n : ι → ℤ) (hB : e.Within (2 ^ φ.p) (fun i => (n i : ℝ)))
    (hX : ∀ i, |(n i : ℝ)| ≤ 2 ^ φ.p) :
    (e.eval φ fun i => ⟨.fin (n i), .fin (n i)⟩).set = {e.val fun i => (n i : ℝ)} := by
  have rep : ∀ k : ℤ, |(k:ℝ)| ≤ 2 ^ φ.p → ∃ q : ℚ, φ.Rep q ∧ (k:ℝ) = q := fun k hk =>
    ⟨k, φ.rep_intCast (by exact_mod_cast hk), by simp⟩
  have main : (∃ k : ℤ, e.val (fun i => (n i : ℝ)) = k) ∧ e.RepAt φ (fun i => (n i : ℝ)) := by
    induction e with
    | var i => exact ⟨⟨n i, rfl⟩, rep (n i) hB⟩
    | un op e ih =>
      obtain ⟨⟨k, hk⟩, h1⟩ := ih hI.2 hB.1
      have : (∃ m : ℤ, op.fn k = m) ∧ (k:ℝ) ∈ op.dom := by
        have := hI.1
        cases op <;> simp only [Op1.Integral] at this
        · exact ⟨⟨k, rfl⟩, trivial⟩
        · exact ⟨⟨-k, by simp [Op1.fn]⟩, trivial⟩
        · exact ⟨⟨k ^ 2, by simp [Op1.fn]⟩, trivial⟩
        · exact ⟨⟨|k|, by simp [Op1.fn]⟩, trivial⟩
        · rename_i p
          refine ⟨⟨k ^ p.toNat, ?_⟩, fun h => absurd h (not_lt.mpr this)⟩
          show (k:ℝ) ^ p = _
          conv_lhs => rw [← Int.toNat_of_nonneg this]
          rw [zpow_natCast]; push_cast; rfl
        · refine ⟨⟨SignType.sign k, ?_⟩, trivial⟩
          show Real.sign (k:ℝ) = _
          rcases lt_trichotomy k 0 with h | h | h
          · rw [Real.sign_of_neg (by exact_mod_cast h), sign_neg h]; simp
          · subst h; simp
          · rw [Real.sign_of_pos (by exact_mod_cast h), sign_pos h]; simp
        all_goals exact ⟨⟨_, rfl⟩, trivial⟩
      obtain ⟨⟨m, hm⟩, hd⟩ := this
      have hv : op.fn (e.val fun i => (n i : ℝ)) = m := by rw [hk, hm]
      obtain ⟨q, hq, hq'⟩ := rep m (hv ▸ hB.2)
      exact ⟨⟨m, hv⟩, h1, by rw [hk]; exact hd, q, hq, by rw [hv, hq']⟩
    | bin op e₁ e₂ ih₁ ih₂ =>
      obtain ⟨⟨k, hk⟩, h1⟩ := ih₁ hI.2.1 hB.1
      obtain ⟨⟨l, hl⟩, h2⟩ := ih₂ hI.2.2 hB.2.1
      have : (∃ m : ℤ, op.fn ((k:ℝ), (l:ℝ)) = m) ∧ ((k:ℝ), (l:ℝ)) ∈ op.dom := by
        have := hI.1
        cases op <;> simp only [Op2.Integral] at this <;> refine ⟨?_, trivial⟩
        · exact ⟨k + l, by simp [Op2.fn]⟩
        · exact ⟨k - l, by simp [Op2.fn]⟩
        · exact ⟨k * l, by simp [Op2.fn]⟩
        · exact ⟨min k l, by simp [Op2.fn]⟩
        · exact ⟨max k l, by simp [Op2.fn]⟩
      obtain ⟨⟨m, hm⟩, hd⟩ := this
      have hv : op.fn (e₁.val fun i => (n i : ℝ), e₂.val fun i => (n i : ℝ)) = m := by rw [hk, hl, hm]
      obtain ⟨q, hq, hq'⟩ := rep m (hv ▸ hB.2.2)
      exact ⟨⟨m, hv⟩, h1, h2, by rw [hk, hl]; exact hd, q, hq, by rw [hv, hq']⟩
    | fma e₁ e₂ e₃ ih₁ ih₂ ih₃ =>
      obtain ⟨⟨k, hk⟩, h1⟩ := ih₁ hI.1 hB.1
      obtain ⟨⟨l, hl⟩, h2⟩ := ih₂ hI.2.1 hB.2.1
      obtain ⟨⟨m, hm⟩, h3⟩ := ih₃ hI.2.2 hB.2.2.1
      have hv : (e₁.val fun i => (n i : ℝ)) * (e₂.val fun i => (n i : ℝ)) + (e₃.val fun i => (n i : ℝ))
          = ((k * l + m : ℤ) : ℝ) := by rw [hk, hl, hm]; push_cast; rfl
      obtain ⟨q, hq, hq'⟩ := rep _ (hv ▸ hB.2.2.2)
      exact ⟨⟨_, hv⟩, h1, h2, h3, q, hq, by rw [hv, hq']⟩
  have hp : ∀ i, (Itv.mk (.fin (n i)) (.fin (n i))).Ok φ ∧
      (Itv.mk (.fin (n i)) (.fin (n i))).set = {((n i : ℤ) : ℝ)} := fun i => by
    have := rep_point (φ := φ) (q := (n i : ℚ)) (φ.rep_intCast (by exact_mod_cast hX i))
    simpa using this
  exact (C50_expr e _ main.2 _ (fun i => (hp i).1) fun i => (hp i).2).2

/-- Non-vacuity of `C50_integers`: `x² - 3y` with `x = 1000`, `y = -7`. -/
example : ∃ (e : Expr Bool) (n : Bool → ℤ), e.Integral ∧ e.Within (2 ^ binary32.p) (fun i => (n i : ℝ)) ∧
    (∀ i, |(n i : ℝ)| ≤ 2 ^ binary32.p) ∧ e.val (fun i => (n i : ℝ)) = 1000049 := by
  refine ⟨.bin .sub (.un .sqr (.var true)) (.bin .mul (.un .abs (.var false)) (.un (.pown 1) (.var false))),
    fun b => if b then 1000 else -7, ?_, ?_, ?_, ?_⟩
  · simp [Expr.Integral, Op1.Integral, Op2.Integral]
  · simp only [Expr.Within, Expr.val, Op1.fn, Op2.fn, binary32]; norm_num
  · intro i; cases i <;> norm_num [binary32]
  · simp only [Expr.val, Op1.fn, Op2.fn]; norm_num

/-- Non-vacuity of `C50_expr` beyond integers: `sqrt(x) / y` with `x = 9/4`, `y = 2`. -/
example : ∃ (e : Expr Bool) (t : Bool → ℝ), e.RepAt binary64 t ∧ e.val t = 3 / 4 := by
  have r : ∀ m e : ℤ, |m| < 10 → -3 ≤ e → e ≤ 0 → binary64.Rep ((m:ℚ) * 2 ^ e) := fun m e h1 h2 h3 =>
    ⟨m, e, rfl, h1.trans (by norm_num [binary64]), by norm_num [binary64]; omega, by norm_num [binary64]; omega⟩
  have hs : Real.sqrt (9 / 4) = 3 / 2 := by
    rw [show (9 / 4 : ℝ) = (3 / 2) ^ 2 by norm_num, Real.sqrt_sq (by norm_num)]
  refine ⟨.bin .div (.un .sqrt (.var true)) (.var false), fun b => if b then 9 / 4 else 2,
    ⟨⟨⟨_, r 9 (-2) (by norm_num) (by norm_num) (by norm_num), ?_⟩, ?_, _, r 3 (-1) (by norm_num) (by norm_num) (by norm_num), ?_⟩,
      ⟨_, r 2 0 (by norm_num) (by norm_num) (by norm_num), ?_⟩, ?_, _, r 3 (-2) (by norm_num) (by norm_num) (by norm_num), ?_⟩, ?_⟩
  · norm_num
  · simp [Op1.dom, Expr.val]; norm_num
  · simp only [Op1.fn, Expr.val, if_true, hs]; norm_num
  · norm_num
  · simp [Op2.dom, Expr.val]
  · simp only [Op2.fn, Op1.fn, Expr.val, if_true, hs]; norm_num
  · simp only [Op2.fn, Op1.fn, Expr.val, if_true, hs]; norm_num

end P1788
