import Verif.Lemmas.Rel
import Verif.Lemmas.Div
import Mathlib.Tactic.Order

/-! # C23: the overlap classification is exact and exclusive -/

namespace P1788

/-- Infimum and supremum of a set of reals, as extended reals. -/
noncomputable def einf (A : Set ℝ) : EReal := sInf (Real.toEReal '' A)
/-- See `einf`. -/
noncomputable def esup (A : Set ℝ) : EReal := sSup (Real.toEReal '' A)

/-- Defining conditions of the sixteen states (IEEE 1788-2015, table 10.7), for two sets `A`, `B` of reals with
bounds `inf A, sup A` and `inf B, sup B`. -/
def OverlapSpec (A B : Set ℝ) : Overlap → Prop
  | .bothEmpty => A = ∅ ∧ B = ∅
  | .firstEmpty => A = ∅ ∧ B ≠ ∅
  | .secondEmpty => A ≠ ∅ ∧ B = ∅
  | .before => A ≠ ∅ ∧ B ≠ ∅ ∧ esup A < einf B
  | .meets => A ≠ ∅ ∧ B ≠ ∅ ∧ einf A < esup A ∧ esup A = einf B ∧ einf B < esup B
  | .overlaps => A ≠ ∅ ∧ B ≠ ∅ ∧ einf A < einf B ∧ einf B < esup A ∧ esup A < esup B
  | .starts => A ≠ ∅ ∧ B ≠ ∅ ∧ einf A = einf B ∧ esup A < esup B
  | .containedBy => A ≠ ∅ ∧ B ≠ ∅ ∧ einf B < einf A ∧ esup A < esup B
  | .finishes => A ≠ ∅ ∧ B ≠ ∅ ∧ einf B < einf A ∧ esup A = esup B
  | .equal => A ≠ ∅ ∧ B ≠ ∅ ∧ einf A = einf B ∧ esup A = esup B
  | .finishedBy => A ≠ ∅ ∧ B ≠ ∅ ∧ einf A < einf B ∧ esup A = esup B
  | .contains => A ≠ ∅ ∧ B ≠ ∅ ∧ einf A < einf B ∧ esup B < esup A
  | .startedBy => A ≠ ∅ ∧ B ≠ ∅ ∧ einf A = einf B ∧ esup B < esup A
  | .overlappedBy => A ≠ ∅ ∧ B ≠ ∅ ∧ einf B < einf A ∧ einf A < esup B ∧ esup B < esup A
  | .metBy => A ≠ ∅ ∧ B ≠ ∅ ∧ einf B < esup B ∧ esup B = einf A ∧ einf A < esup A
  | .after => A ≠ ∅ ∧ B ≠ ∅ ∧ esup B < einf A
  | .undefined => False

/-- The state of the swapped pair. -/
def Overlap.converse : Overlap → Overlap
  | .bothEmpty => .bothEmpty
  | .firstEmpty => .secondEmpty
  | .secondEmpty => .firstEmpty
  | .before => .after
  | .meets => .metBy
  | .overlaps => .overlappedBy
  | .starts => .startedBy
  | .containedBy => .contains
  | .finishes => .finishedBy
  | .equal => .equal
  | .finishedBy => .finishes
  | .contains => .containedBy
  | .startedBy => .starts
  | .overlappedBy => .overlaps
  | .metBy => .meets
  | .after => .before
  | .undefined => .undefined

theorem einf_set {φ : Fmt} {x : Itv} (hx : x.NE φ) : einf x.set = x.lo.toE :=
  (hx.box.glb).sInf_eq
theorem esup_set {φ : Fmt} {x : Itv} (hx : x.NE φ) : esup x.set = x.hi.toE :=
  (hx.box.lub).sSup_eq

/-- The classification on the bounds of two non-empty intervals. -/
theorem ovl_core (a b c d : EReal) (hab : a ≤ b) (hcd : c ≤ d) (s : Overlap) :
    (if c ≤ b then
      if b ≤ d then
        if a = c then (if b < d then Overlap.starts else .equal)
        else if b = d then (if a < c then .finishedBy else .finishes)
        else if c < b then (if a < c then .overlaps else .containedBy)
        else .meets
      else if a ≤ d then
        if a ≤ c then (if a < c then .contains else .startedBy)
        else if a < d then .overlappedBy
        else .metBy
      else .after
    else .before) = s ↔
    (match s with
    | .before => b < c
    | .meets => a < b ∧ b = c ∧ c < d
    | .overlaps => a < c ∧ c < b ∧ b < d
    | .starts => a = c ∧ b < d
    | .containedBy => c < a ∧ b < d
    | .finishes => c < a ∧ b = d
    | .equal => a = c ∧ b = d
    | .finishedBy => a < c ∧ b = d
    | .contains => a < c ∧ d < b
    | .startedBy => a = c ∧ d < b
    | .overlappedBy => c < a ∧ a < d ∧ d < b
    | .metBy => c < d ∧ d = a ∧ a < b
    | .after => d < a
    | _ => False) := by
  split_ifs <;> cases s <;> simp only [reduceCtorEq, true_iff, false_iff, not_and, not_lt, not_false_eq_true] <;>
    grind

/-- `overlap(x,y)` returns a state exactly when its defining condition holds (so exactly one holds), also for
operands of different number formats. -/
theorem C23_overlap {φ ψ : Fmt} {x y : Itv} (hx : x.Ok φ) (hy : y.Ok ψ) (s : Overlap) :
    x.overlap y = s ↔ OverlapSpec x.set y.set s := by
  rcases hx.cases with rfl | hx <;> rcases hy.cases with rfl | hy
  · cases s <;> simp [Itv.overlap, OverlapSpec]
  · have := hy.nonempty.ne_empty
    cases s <;> simp [Itv.overlap, OverlapSpec, hy.isValid, hy.isEmpty, this]
  · have := hx.nonempty.ne_empty
    cases s <;> simp [Itv.overlap, OverlapSpec, hx.isValid, hx.isEmpty, this]
  · have n1 := hx.nonempty.ne_empty
    have n2 := hy.nonempty.ne_empty
    have e : x.overlap y = (if y.lo.toE ≤ x.hi.toE then
      if x.hi.toE ≤ y.hi.toE then
        if x.lo.toE = y.lo.toE then (if x.hi.toE < y.hi.toE then Overlap.starts else .equal)
        else if x.hi.toE = y.hi.toE then (if x.lo.toE < y.lo.toE then .finishedBy else .finishes)
        else if y.lo.toE < x.hi.toE then (if x.lo.toE < y.lo.toE then .overlaps else .containedBy)
        else .meets
      else if x.lo.toE ≤ y.hi.toE then
        if x.lo.toE ≤ y.lo.toE then (if x.lo.toE < y.lo.toE then .contains else .startedBy)
        else if x.lo.toE < y.hi.toE then .overlappedBy
        else .metBy
      else .after
    else .before) := by
      simp only [Itv.overlap, hx.isValid, hx.isEmpty, hy.isValid, hy.isEmpty, Bool.not_true, Bool.or_self,
        Bool.false_eq_true, if_false, FP.le_iff hy.lo_ne hx.hi_ne, FP.le_iff hx.hi_ne hy.hi_ne,
        FP.feq_iff hx.lo_ne hy.lo_ne, FP.feq_iff hx.hi_ne hy.hi_ne, FP.lt_iff hx.hi_ne hy.hi_ne,
        FP.lt_iff hx.lo_ne hy.lo_ne, FP.lt_iff hy.lo_ne hx.hi_ne, FP.le_iff hx.lo_ne hy.hi_ne,
        FP.le_iff hx.lo_ne hy.lo_ne, FP.lt_iff hx.lo_ne hy.hi_ne]
    rw [e, ovl_core _ _ _ _ hx.le hy.le]
    cases s <;> simp [OverlapSpec, n1, n2, einf_set hx, einf_set hy, esup_set hx, esup_set hy]

/-- Exactly one of the sixteen states applies. -/
theorem C23_exclusive {φ ψ : Fmt} {x y : Itv} (hx : x.Ok φ) (hy : y.Ok ψ) :
    ∃! s, OverlapSpec x.set y.set s :=
  ⟨x.overlap y, (C23_overlap hx hy _).mp rfl, fun _ h => ((C23_overlap hx hy _).mpr h).symm⟩

/-- `overlap(y,x)` is the converse state. -/
theorem C23_converse {φ ψ : Fmt} {x y : Itv} (hx : x.Ok φ) (hy : y.Ok ψ) :
    y.overlap x = (x.overlap y).converse := by
  rw [C23_overlap hy hx]
  have h := (C23_overlap hx hy _).mp rfl
  generalize x.overlap y = s at h
  cases s <;> simp only [OverlapSpec, Overlap.converse, ne_eq] at h ⊢ <;> tauto

/-- Decorated operands: NaI (or invalid) gives `undefined`, otherwise the interval parts decide. -/
theorem C23_decorated (a b : DItv) :
    (a.isNai = true ∨ b.isNai = true ∨ a.isValid = false ∨ b.isValid = false → a.overlap b = .undefined) ∧
    (a.isValid = true → b.isValid = true → a.isNai = false → b.isNai = false →
      a.overlap b = a.itv.overlap b.itv) := by
  constructor
  · rintro (h | h | h | h) <;> simp [DItv.overlap, h]
  · intro h1 h2 h3 h4; simp [DItv.overlap, h1, h2, h3, h4]

/-- Non-vacuity. -/
example : (Itv.mk (.fin 1) (.fin 2)).Ok binary64 ∧ (Itv.mk .nzero (.fin 2)).Ok binary32 ∧
    (Itv.mk (.fin 1) (.fin 2)).overlap ⟨.nzero, .fin 2⟩ = .finishes :=
  ⟨Itv.ok_of_okb (by decide +kernel), Itv.ok_of_okb (by decide +kernel), by decide +kernel⟩

end P1788
