import Verif.Props.C11b
import Verif.Props.C18
import Verif.Props.C35
import Verif.Props.C44
import Verif.Lemmas.Rev

/-! # C55: splitting the arguments

A program that cuts the arguments into pieces, evaluates on every piece and takes the convex hull of the results gets, for a single operation,
exactly the result on the whole; for an expression it gets a result that is not wider and still contains the range. -/

namespace P1788
variable {φ : Fmt} {ι : Type}

/-- The convex hull of a list of intervals, by repeated calls of `convex_hull` from the empty set. -/
def hullAll (l : List Itv) : Itv := l.foldl Itv.hull Itv.empty

theorem hull_foldl {α : Type*} (f : α → Itv) (S : α → Set ℝ) (l : List α) (hl : ∀ a ∈ l, Tightest φ (f a) (S a)) (R : Itv) (U : Set ℝ)
    (hR : Tightest φ R U) : Tightest φ ((l.map f).foldl Itv.hull R) (U ∪ ⋃ a ∈ l, S a) := by
  induction l generalizing R U with
  | nil => simpa using hR
  | cons a l ih =>
    have := ih (fun b hb => hl b (by simp [hb])) (R.hull (f a)) (U ∪ S a) (hR.hull (hl a (by simp)))
    refine this.of_eq ?_
    ext t
    simp [or_assoc]

theorem hullAll_tight {α : Type*} (f : α → Itv) (S : α → Set ℝ) (l : List α) (hl : ∀ a ∈ l, Tightest φ (f a) (S a)) :
    Tightest φ (hullAll (l.map f)) (⋃ a ∈ l, S a) := by
  have h0 : Tightest φ Itv.empty ∅ := ⟨Itv.ok_empty φ, Set.empty_subset _, fun Y _ _ => by rw [Itv.set_empty]; exact Set.empty_subset _⟩
  exact (hull_foldl f S l hl _ _ h0).of_eq (by simp)

/-- **C55**, unary functions (full statement: without `ht`; in `double` it is false of the tangent, see `C55_tan_binary64_false`): the hull of
the results on pieces that make up `x` is the result on `x`. -/
theorem C55_unary_partial (op : Op1) (ht : op = .tan → TanTight φ) {x : Itv} (hx : x.Ok φ) (l : List Itv) (hl : ∀ y ∈ l, y.Ok φ)
    (hc : x.set = ⋃ y ∈ l, y.set) : (hullAll (l.map (op.bare φ))).set = (op.bare φ x).set := by
  refine (hullAll_tight _ _ l fun y hy => Op1.tight_all ht (hl y hy)).set_unique ((Op1.tight_all ht hx).of_eq ?_)
  rw [hc]
  ext z; simp only [Set.mem_image, Set.mem_inter_iff, Set.mem_iUnion, exists_prop]
  constructor
  · rintro ⟨t, ⟨⟨y, hy, hty⟩, hd⟩, rfl⟩; exact ⟨y, hy, t, ⟨hty, hd⟩, rfl⟩
  · rintro ⟨y, hy, t, ⟨hty, hd⟩, rfl⟩; exact ⟨t, ⟨⟨y, hy, hty⟩, hd⟩, rfl⟩

/-- All unary functions in `float` and x87 `long double`. -/
theorem C55_unary_float_long_double (T : NumTy) (hT : T ≠ .double) (op : Op1) {x : Itv} (hx : x.Ok T.fmt) (l : List Itv)
    (hl : ∀ y ∈ l, y.Ok T.fmt) (hc : x.set = ⋃ y ∈ l, y.set) : (hullAll (l.map (op.bare T.fmt))).set = (op.bare T.fmt x).set := by
  refine C55_unary_partial op (fun _ => ?_) hx l hl hc
  cases T with
  | float => exact tanTight_binary32
  | double => exact absurd rfl hT
  | longDouble => exact tanTight_x87ext

/-- The tangent in `double`: the pieces of an interval can give more than the whole. -/
theorem C55_tan_binary64_false : ∃ (x : Itv) (l : List Itv), x.Ok binary64 ∧ (∀ y ∈ l, y.Ok binary64) ∧ x.set = (⋃ y ∈ l, y.set) ∧
    (hullAll (l.map (Op1.tan.bare binary64))).set ≠ (Op1.tan.bare binary64 x).set := by
  obtain ⟨x, x', hx, hx', hs, hn⟩ := C35_tan_binary64_false
  refine ⟨x', [x, x'], hx', ?_, ?_, ?_⟩
  · intro y hy
    rcases List.mem_pair.mp hy with rfl | rfl <;> assumption
  · ext t
    simp only [List.mem_cons, List.not_mem_nil, or_false, Set.mem_iUnion, exists_prop]
    exact ⟨fun h => ⟨x', Or.inr rfl, h⟩, by rintro ⟨y, rfl | rfl, h⟩; exacts [hs h, h]⟩
  · intro h
    apply hn
    have := (hullAll_tight (φ := binary64) (Op1.tan.bare binary64) (fun y => (binary64.tanI y).set) [x, x'] (by
      intro y hy
      refine Tightest.of_ok (Op1.bare_ok .tan ?_)
      rcases List.mem_pair.mp hy with rfl | rfl <;> assumption)).2.1
    rw [h] at this
    refine Set.Subset.trans ?_ this
    intro t ht
    simp only [List.mem_cons, List.not_mem_nil, or_false, Set.mem_iUnion, exists_prop]
    exact ⟨x, Or.inl rfl, ht⟩

/-- Binary functions, on boxes that make up `x × y`. -/
theorem C55_binary (op : Op2) {x y : Itv} (hx : x.Ok φ) (hy : y.Ok φ) (l : List (Itv × Itv)) (hl : ∀ p ∈ l, p.1.Ok φ ∧ p.2.Ok φ)
    (hc : x.set ×ˢ y.set = ⋃ p ∈ l, p.1.set ×ˢ p.2.set) :
    (hullAll (l.map fun p => op.bare φ p.1 p.2)).set = (op.bare φ x y).set := by
  refine (hullAll_tight _ _ l fun p hp => Op2.tight op (hl p hp).1 (hl p hp).2).set_unique ((Op2.tight op hx hy).of_eq ?_)
  rw [hc]
  ext z; simp only [Set.mem_image, Set.mem_inter_iff, Set.mem_iUnion, exists_prop]
  constructor
  · rintro ⟨t, ⟨⟨p, hp, htp⟩, hd⟩, rfl⟩; exact ⟨p, hp, t, ⟨htp, hd⟩, rfl⟩
  · rintro ⟨p, hp, t, ⟨htp, hd⟩, rfl⟩; exact ⟨t, ⟨⟨p, hp, htp⟩, hd⟩, rfl⟩

/-- `fma`, on boxes that make up `x × y × z`. -/
theorem C55_fma {x y z : Itv} (hx : x.Ok φ) (hy : y.Ok φ) (hz : z.Ok φ) (l : List (Itv × Itv × Itv))
    (hl : ∀ p ∈ l, p.1.Ok φ ∧ p.2.1.Ok φ ∧ p.2.2.Ok φ)
    (hc : ∀ a b c : ℝ, (a ∈ x.set ∧ b ∈ y.set ∧ c ∈ z.set) ↔ ∃ p ∈ l, a ∈ p.1.set ∧ b ∈ p.2.1.set ∧ c ∈ p.2.2.set) :
    (hullAll (l.map fun p => φ.fmaI p.1 p.2.1 p.2.2)).set = (φ.fmaI x y z).set := by
  refine (hullAll_tight _ _ l fun p hp => C06_fma φ (hl p hp).1 (hl p hp).2.1 (hl p hp).2.2).set_unique ((C06_fma φ hx hy hz).of_eq ?_)
  ext w; simp only [Set.mem_ofPred_eq, Set.mem_iUnion, exists_prop]
  constructor
  · rintro ⟨a, ha, b, hb, c, hc', rfl⟩
    obtain ⟨p, hp, h1, h2, h3⟩ := (hc a b c).mp ⟨ha, hb, hc'⟩
    exact ⟨p, hp, a, h1, b, h2, c, h3, rfl⟩
  · rintro ⟨p, hp, a, h1, b, h2, c, h3, rfl⟩
    obtain ⟨ha, hb, hc'⟩ := (hc a b c).mpr ⟨p, hp, h1, h2, h3⟩
    exact ⟨a, ha, b, hb, c, hc', rfl⟩

/-- Whole expressions: evaluation on sub-boxes that cover the box `X` gives a hull that is not wider than the result on `X`, and it still
contains every value of the expression on `X` (full statement: without `ht`; false for `double`, from C18 and C35). -/
theorem C55_expr_safe_partial (e : Expr ι) (X : ι → Itv) (ht : e.TanSafeIn φ X) (hX : ∀ i, (X i).Ok φ) (l : List (ι → Itv))
    (hl : ∀ Y ∈ l, ∀ i, (Y i).Ok φ ∧ (Y i).set ⊆ (X i).set)
    (hc : ∀ t : ι → ℝ, (∀ i, t i ∈ (X i).set) → ∃ Y ∈ l, ∀ i, t i ∈ (Y i).set) :
    (hullAll (l.map fun Y => e.eval φ Y)).Ok φ ∧ (hullAll (l.map fun Y => e.eval φ Y)).set ⊆ (e.eval φ X).set ∧
    ∀ t : ι → ℝ, (∀ i, t i ∈ (X i).set) → t ∈ e.dom → e.val t ∈ (hullAll (l.map fun Y => e.eval φ Y)).set := by
  have hok : ∀ Y ∈ l, (e.eval φ Y).Ok φ := fun Y hY => e.eval_ok18 fun i => (hl Y hY i).1
  have h := hullAll_tight (φ := φ) (fun Y => e.eval φ Y) (fun Y => (e.eval φ Y).set) l (fun Y hY => Tightest.of_ok (hok Y hY))
  refine ⟨h.1, h.2.2 _ (e.eval_ok18 hX) ?_, fun t ht' hd => h.2.1 ?_⟩
  · refine Set.iUnion₂_subset fun Y hY => ?_
    exact C35_expr_safe_partial e Y X (ht.self hX) (fun i => (hl Y hY i).1) hX (fun i => (hl Y hY i).2)
  · obtain ⟨Y, hY, hm⟩ := hc t ht'
    exact Set.mem_iUnion₂.mpr ⟨Y, hY, (C18_ftia_safe_partial e Y (fun i => (hl Y hY i).1)
      (ht Y (fun i => (hl Y hY i).1) fun i => (hl Y hY i).2)).2 t hm hd⟩

/-- For types without bad intervals for the tangent and for expressions without the tangent. -/
theorem C55_expr_partial (e : Expr ι) (ht : NoCritical φ ∨ e.TanFree) (X : ι → Itv) (hX : ∀ i, (X i).Ok φ) (l : List (ι → Itv))
    (hl : ∀ Y ∈ l, ∀ i, (Y i).Ok φ ∧ (Y i).set ⊆ (X i).set)
    (hc : ∀ t : ι → ℝ, (∀ i, t i ∈ (X i).set) → ∃ Y ∈ l, ∀ i, t i ∈ (Y i).set) :
    (hullAll (l.map fun Y => e.eval φ Y)).Ok φ ∧ (hullAll (l.map fun Y => e.eval φ Y)).set ⊆ (e.eval φ X).set ∧
    ∀ t : ι → ℝ, (∀ i, t i ∈ (X i).set) → t ∈ e.dom → e.val t ∈ (hullAll (l.map fun Y => e.eval φ Y)).set :=
  C55_expr_safe_partial e X (e.tanSafeIn ht X) hX l hl hc

/-- The cut of the library's own bisection program: the halves `[inf(x), mid(x)]` and `[mid(x), sup(x)]` can always be constructed from a
non-empty interval, and the hull of the results on them is the result on the whole. -/
theorem C55_halves_partial (op : Op1) (ht : op = .tan → TanTight φ) {x : Itv} (hx : x.Ok φ) (hne : x.set.Nonempty) :
    ∃ a b : Itv, mkI x.inf (x.mid φ) = .ok a ∧ mkI (x.mid φ) x.sup = .ok b ∧
      (hullAll [op.bare φ a, op.bare φ b]).set = (op.bare φ x).set := by
  have hN : x.NE φ := hx.cases.resolve_left (fun he => by rw [he, Itv.set_empty] at hne; exact Set.not_nonempty_empty hne)
  obtain ⟨a, b, h1, h2, h3, h4, h5, -⟩ := bisect_succ (f := id) (eps := .nan) (n := 0) hN
  refine ⟨a, b, h1, h2, ?_⟩
  refine C55_unary_partial op ht hx [a, b] ?_ ?_
  · intro y hy
    rcases List.mem_pair.mp hy with rfl | rfl
    exacts [h3.ok, h4.ok]
  · rw [← h5]; ext t; simp

/-- Non-vacuity, and what splitting gains: `x - x` on `[0, 1]`, whole and in two pieces. -/
example : Fmt.subI binary64 ⟨.fin 0, .fin 1⟩ ⟨.fin 0, .fin 1⟩ = ⟨.fin (-1), .fin 1⟩ ∧
    hullAll ([⟨.fin 0, .fin (1/2)⟩, ⟨.fin (1/2), .fin 1⟩].map fun y => Fmt.subI binary64 y y) = ⟨.fin (-1/2), .fin (1/2)⟩ ∧
    (⟨.fin 0, .fin 1⟩ : Itv).set = ⋃ y ∈ [(⟨.fin 0, .fin (1/2)⟩ : Itv), ⟨.fin (1/2), .fin 1⟩], y.set := by
  refine ⟨by decide +kernel, by decide +kernel, ?_⟩
  ext t
  simp only [List.mem_cons, List.not_mem_nil, or_false, Set.mem_iUnion, exists_prop, exists_eq_or_imp, exists_eq_left, Itv.set,
    Set.mem_ofPred_eq, FP.BelowR, FP.AboveR]
  push_cast
  constructor
  · rintro ⟨h1, h2⟩
    rcases le_total t (1/2) with h | h
    · exact Or.inl ⟨h1, h⟩
    · exact Or.inr ⟨h, h2⟩
  · rintro (⟨h1, h2⟩ | ⟨h1, h2⟩) <;> constructor <;> linarith

end P1788
