import Verif.Model.Search
import Verif.Props.C28
import Verif.Props.C27
import Verif.Props.C25
import Verif.Props.C24
import Verif.Props.C22
import Mathlib.Data.Set.Card
import Mathlib.Data.Set.Finite.Lattice
import Mathlib.Order.Interval.Finset.Defs

/-! # Lemmas for C44: halving, and intervals without numbers inside -/

namespace P1788
variable {φ : Fmt} {x v : Itv}

/-- No number of the type lies strictly between the bounds: such an interval cannot be halved. -/
def Atomic (φ : Fmt) (x : Itv) : Prop :=
  ∀ q : ℚ, φ.Rep q → ¬((∃ r ∈ x.set, r < (q : ℝ)) ∧ ∃ r ∈ x.set, (q : ℝ) < r)

theorem infsup_E (h : x.NE φ) : (x.inf ≠ .nan ∧ x.inf.toE = x.lo.toE ∧ x.inf.In φ) ∧ (x.sup ≠ .nan ∧ x.sup.toE = x.hi.toE ∧ x.sup.In φ) := by
  constructor
  · unfold Itv.inf
    rw [h.isValid, h.isEmpty]
    simp only [Bool.not_true, Bool.false_eq_true, if_false]
    split_ifs with h0
    · exact ⟨by decide, by rw [(Fmt.isZero_iff h.lo_ne).mp h0]; rfl, trivial⟩
    · exact ⟨h.lo_ne, rfl, h.lo_in⟩
  · unfold Itv.sup
    rw [h.isValid, h.isEmpty]
    simp only [Bool.not_true, Bool.false_eq_true, if_false]
    split_ifs with h0
    · exact ⟨by decide, by rw [(Fmt.isZero_iff h.hi_ne).mp h0]; simp, φ.rep_zero⟩
    · exact ⟨h.hi_ne, rfl, h.hi_in⟩

theorem mkI_ok {l u : FP} (hl : l.In φ) (hu : u.In φ) (hln : l ≠ .nan) (hun : u ≠ .nan) (hle : l.toE ≤ u.toE) (ht : l.toE ≠ ⊤) (hb : u.toE ≠ ⊥) :
    mkI l u = .ok ⟨l, u⟩ ∧ (Itv.mk l u).NE φ := by
  refine ⟨?_, ⟨hln, hun, hle, ht, hb, hl, hu⟩⟩
  have : boundsOk l u = true := by
    unfold boundsOk
    rw [Itv.feq_pinf, Itv.feq_ninf]
    have h1 : l.leb u = true := (FP.le_iff hln hun).mpr hle
    have h2 : l ≠ .pinf := fun h => ht (by rw [h]; rfl)
    have h3 : u ≠ .ninf := fun h => hb (by rw [h]; rfl)
    simp [h1, h2, h3]
  unfold mkI
  rw [if_pos this]

/-- The two halves of a non-empty interval. -/
theorem halves (h : x.NE φ) : ∃ q : ℚ, φ.Rep q ∧ x.mid φ = .fin q ∧ (q : ℝ) ∈ x.set ∧
    (∃ l, mkI x.inf (x.mid φ) = .ok l ∧ l.NE φ ∧ l.set = x.set ∩ Set.Iic (q : ℝ)) ∧
    (∃ r, mkI (x.mid φ) x.sup = .ok r ∧ r.NE φ ∧ r.set = x.set ∩ Set.Ici (q : ℝ)) ∧
    (∃ c, mkI (x.mid φ) (x.mid φ) = .ok c ∧ c.NE φ ∧ c.set = {(q : ℝ)}) := by
  obtain ⟨q, hq, hrep, hmem⟩ := C28_member h.ok h.nonempty
  obtain ⟨⟨i1, i2, i3⟩, ⟨s1, s2, s3⟩⟩ := infsup_E h
  have hm := h.mem.mp hmem
  have hqt : (FP.fin q).toE ≠ ⊤ := EReal.coe_ne_top _
  have hqb : (FP.fin q).toE ≠ ⊥ := EReal.coe_ne_bot _
  refine ⟨q, hrep, hq, hmem, ?_, ?_, ?_⟩
  · have hk := mkI_ok (φ := φ) (l := x.inf) (u := .fin q) i3 hrep i1 (by simp) (by rw [i2]; exact hm.1) (by rw [i2]; exact h.lo_top) hqb
    refine ⟨⟨x.inf, .fin q⟩, by rw [hq]; exact hk.1, hk.2, ?_⟩
    ext r
    rw [hk.2.mem, Set.mem_inter_iff, h.mem, Set.mem_Iic]
    show x.inf.toE ≤ _ ∧ _ ≤ ((q : ℝ) : EReal) ↔ _
    rw [i2, EReal.coe_le_coe_iff]
    constructor
    · rintro ⟨a, b⟩
      exact ⟨⟨a, le_trans (EReal.coe_le_coe_iff.mpr b) hm.2⟩, b⟩
    · rintro ⟨⟨a, -⟩, b⟩
      exact ⟨a, b⟩
  · have hk := mkI_ok (φ := φ) (l := .fin q) (u := x.sup) hrep s3 (by simp) s1 (by rw [s2]; exact hm.2) hqt (by rw [s2]; exact h.hi_bot)
    refine ⟨⟨.fin q, x.sup⟩, by rw [hq]; exact hk.1, hk.2, ?_⟩
    ext r
    rw [hk.2.mem, Set.mem_inter_iff, h.mem, Set.mem_Ici]
    show ((q : ℝ) : EReal) ≤ _ ∧ _ ≤ x.sup.toE ↔ _
    rw [s2, EReal.coe_le_coe_iff]
    constructor
    · rintro ⟨a, b⟩
      exact ⟨⟨le_trans hm.1 (EReal.coe_le_coe_iff.mpr a), b⟩, a⟩
    · rintro ⟨⟨-, a⟩, b⟩
      exact ⟨b, a⟩
  · have hk := mkI_ok (φ := φ) (l := .fin q) (u := .fin q) hrep hrep (by simp) (by simp) le_rfl hqt hqb
    refine ⟨⟨.fin q, .fin q⟩, by rw [hq]; exact hk.1, hk.2, ?_⟩
    ext r
    rw [hk.2.mem]
    show ((q : ℝ) : EReal) ≤ _ ∧ _ ≤ ((q : ℝ) : EReal) ↔ _
    rw [EReal.coe_le_coe_iff, EReal.coe_le_coe_iff, Set.mem_singleton_iff]
    exact ⟨fun h' => le_antisymm h'.2 h'.1, fun h' => ⟨h'.ge, h'.le⟩⟩

/-- The midpoint of an interval that has a number of the type inside lies inside. -/
theorem mid_inside (h : x.NE φ) (ha : ¬Atomic φ x) {q : ℚ} (hq : x.mid φ = .fin q) :
    (∃ r ∈ x.set, r < (q : ℝ)) ∧ ∃ r ∈ x.set, (q : ℝ) < r := by
  unfold Atomic at ha
  push Not at ha
  obtain ⟨f, hf, ⟨r1, hr1, h1⟩, r2, hr2, h2⟩ := ha
  have hfm := abs_le.mp hf.abs_le
  have hf1 : -(φ.maxFin : ℝ) ≤ f := by exact_mod_cast hfm.1
  have hf2 : (f : ℝ) ≤ φ.maxFin := by exact_mod_cast hfm.2
  by_cases hl : x.lo = .ninf
  · by_cases hu : x.hi = .pinf
    · have h0 : x.mid φ = .fin 0 := by
        unfold Itv.mid Itv.isEntire
        rw [h.isValid, h.isEmpty, Itv.feq_ninf, Itv.feq_pinf]; simp [hl, hu]
      rw [h0] at hq
      have hq0 : q = 0 := (FP.fin.inj hq).symm
      have hall : ∀ r : ℝ, r ∈ x.set := fun r => by rw [h.mem, hl, hu]; simp
      refine ⟨⟨-1, hall _, by rw [hq0]; norm_num⟩, ⟨1, hall _, by rw [hq0]; norm_num⟩⟩
    · have h0 : x.mid φ = .fin (-φ.maxFin) := by
        unfold Itv.mid Itv.isEntire
        rw [h.isValid, h.isEmpty, Itv.feq_ninf, Itv.feq_pinf]; simp [hl, hu]
      rw [h0] at hq
      have hq0 : q = -φ.maxFin := (FP.fin.inj hq).symm
      have hdown : ∀ r : ℝ, r ≤ r2 → r ∈ x.set := fun r hr => by
        rw [h.mem, hl]
        exact ⟨by simp, le_trans (EReal.coe_le_coe_iff.mpr hr) (h.mem.mp hr2).2⟩
      refine ⟨⟨-φ.maxFin - 1, hdown _ (by linarith), by rw [hq0]; push_cast; linarith⟩, ⟨r2, hr2, by rw [hq0]; push_cast; linarith⟩⟩
  · by_cases hu : x.hi = .pinf
    · have h0 : x.mid φ = .fin φ.maxFin := by
        unfold Itv.mid Itv.isEntire
        rw [h.isValid, h.isEmpty, Itv.feq_ninf, Itv.feq_pinf]; simp [hl, hu]
      rw [h0] at hq
      have hq0 : q = φ.maxFin := (FP.fin.inj hq).symm
      have hup : ∀ r : ℝ, r1 ≤ r → r ∈ x.set := fun r hr => by
        rw [h.mem, hu]
        exact ⟨le_trans (h.mem.mp hr1).1 (EReal.coe_le_coe_iff.mpr hr), by simp⟩
      refine ⟨⟨r1, hr1, by rw [hq0]; linarith⟩, ⟨φ.maxFin + 1, hup _ (by linarith), by rw [hq0]; linarith⟩⟩
    · obtain ⟨e1, e2, -, -, -⟩ := fin_of_bounded h ⟨hl, hu⟩
      obtain ⟨q', hq', hrep, hnear⟩ := mid_bounded h ⟨hl, hu⟩
      have : q' = q := FP.fin.inj (hq'.symm.trans hq)
      subst this
      have m1 := h.mem.mp hr1
      have m2 := h.mem.mp hr2
      rw [e1, e2] at m1 m2
      have a1 : (x.lo.q : ℝ) ≤ r1 := EReal.coe_le_coe_iff.mp m1.1
      have b2 : r2 ≤ (x.hi.q : ℝ) := EReal.coe_le_coe_iff.mp m2.2
      have hlo : (x.lo.q : ℝ) ∈ x.set := by
        rw [h.mem, e1, e2]
        exact ⟨le_rfl, EReal.coe_le_coe_iff.mpr (by linarith)⟩
      have hhi : (x.hi.q : ℝ) ∈ x.set := by
        rw [h.mem, e1, e2]
        exact ⟨EReal.coe_le_coe_iff.mpr (by linarith), le_rfl⟩
      have hfl : |(f : ℝ) - ((x.lo.q : ℝ) + x.hi.q) / 2| < ((x.hi.q : ℝ) - x.lo.q) / 2 := by
        rw [abs_lt]; constructor <;> linarith
      have hn := abs_lt.mp (lt_of_le_of_lt (hnear f hf).1 hfl)
      exact ⟨⟨_, hlo, by linarith⟩, ⟨_, hhi, by linarith⟩⟩

/-- The numbers of the type, infinities included, between the bounds. -/
def numsIn (φ : Fmt) (x : Itv) : Set EReal := {a | (a = ⊥ ∨ a = ⊤ ∨ ∃ q : ℚ, φ.Rep q ∧ a = ((q : ℝ) : EReal)) ∧ x.lo.toE ≤ a ∧ a ≤ x.hi.toE}

theorem rep_finite (φ : Fmt) : {q : ℚ | φ.Rep q}.Finite := by
  refine Set.Finite.subset (((Set.finite_Icc (-(2:ℤ) ^ φ.p) (2 ^ φ.p)).prod (Set.finite_Icc φ.qmin (φ.emax - φ.p))).image
    fun me : ℤ × ℤ => (me.1 : ℚ) * 2 ^ me.2) ?_
  rintro q ⟨m, e, hq, hm, h1, h2⟩
  rw [abs_lt] at hm
  exact ⟨(m, e), ⟨⟨hm.1.le, hm.2.le⟩, ⟨h1, by show e ≤ _; omega⟩⟩, hq.symm⟩

theorem numsIn_finite (φ : Fmt) (x : Itv) : (numsIn φ x).Finite := by
  have h1 : ({⊥, ⊤} ∪ (fun q : ℚ => ((q : ℝ) : EReal)) '' {q : ℚ | φ.Rep q} : Set EReal).Finite :=
    (Set.toFinite _).union ((rep_finite φ).image _)
  refine h1.subset ?_
  rintro a ⟨h | h | ⟨q, hq, h⟩, -⟩
  · left; left; exact h
  · left; right; exact h
  · right; exact ⟨q, hq, h.symm⟩

theorem toE_num {a : FP} (h : a.In φ) (hn : a ≠ .nan) : a.toE = ⊥ ∨ a.toE = ⊤ ∨ ∃ q : ℚ, φ.Rep q ∧ a.toE = ((q : ℝ) : EReal) := by
  cases a with
  | nan => exact absurd rfl hn
  | ninf => left; rfl
  | pinf => right; left; rfl
  | nzero => right; right; exact ⟨0, φ.rep_zero, by simp⟩
  | fin q => right; right; exact ⟨q, h, rfl⟩

/-- A proper part of an interval contains fewer numbers. -/
theorem numsIn_lt (hv : v.NE φ) (hx : x.NE φ) (hs : v.set ⊆ x.set) (hne : v.set ≠ x.set) : (numsIn φ v).ncard < (numsIn φ x).ncard := by
  have hb := (Itv.NE.subset_iff hv hx).mp hs
  have hsub : numsIn φ v ⊆ numsIn φ x := fun a ha => ⟨ha.1, hb.1.trans ha.2.1, ha.2.2.trans hb.2⟩
  refine Set.ncard_lt_ncard ⟨hsub, fun hsup => hne ?_⟩ (numsIn_finite φ x)
  have hlo : x.lo.toE ∈ numsIn φ v := hsup ⟨toE_num hx.lo_in hx.lo_ne, le_rfl, hx.le⟩
  have hhi : x.hi.toE ∈ numsIn φ v := hsup ⟨toE_num hx.hi_in hx.hi_ne, hx.le, le_rfl⟩
  refine Set.Subset.antisymm hs ?_
  exact (Itv.NE.subset_iff hx hv).mpr ⟨hlo.2.1, hhi.2.2⟩

/-- The width of a part is not greater. -/
theorem wid_mono (hv : v.NE φ) (hx : x.NE φ) (hs : v.set ⊆ x.set) {eps : FP} (h : x.wid φ < eps) : v.wid φ < eps := by
  obtain ⟨⟨-, a2, a3⟩, -⟩ := C27_wid hv.ok hv.nonempty
  obtain ⟨⟨b1, b2, -⟩, -⟩ := C27_wid hx.ok hx.nonempty
  have h' := FP.lt_iff'.mp h
  have hle : v.wid φ ≤ x.wid φ := by
    refine a3 _ b1 h'.1 ?_
    rintro d ⟨r, hr, s, hs', rfl⟩
    exact b2 _ ⟨r, hs hr, s, hs hs', rfl⟩
  have hle' := FP.le_iff'.mp hle
  rw [FP.lt_iff']
  exact ⟨hle'.1, h'.2.1, lt_of_le_of_lt hle'.2.2 h'.2.2⟩

theorem isMember_zero (hx : x.Ok φ) : x.isMember (.fin 0) = true ↔ (0 : ℝ) ∈ x.set := by
  rw [C24_is_member hx]
  constructor
  · rintro ⟨r, hr, hm⟩
    have : r = 0 := by simpa [FP.HasValue] using hr
    rw [this] at hm
    exact hm
  · intro h
    exact ⟨0, by simp [FP.HasValue], h⟩

end P1788
