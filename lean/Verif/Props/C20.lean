import Verif.Lemmas.Dec
import Verif.Props.C01
import Verif.Props.C02
import Verif.Props.C03
import Verif.Props.C04
import Verif.Props.C05
import Verif.Props.C06
import Verif.Props.C07
import Verif.Props.C08
import Verif.Props.C09
import Verif.Props.C10
import Verif.Props.C12
import Verif.Props.C13
import Mathlib.Analysis.SpecialFunctions.Trigonometric.Inverse
import Mathlib.Analysis.SpecialFunctions.Trigonometric.Arctan
import Mathlib.Analysis.SpecialFunctions.Pow.Continuity
import Mathlib.Analysis.SpecialFunctions.Arsinh

/-! # C20: decorations of the elementary functions (continuous functions) -/

namespace P1788
open Bornology
variable {φ : Fmt} {x y z : DItv}

theorem dec_un {f : ℝ → ℝ} {dom : Set ℝ} {b : Itv} {loc : Dec} (hx : x.Ok φ) (hn : x.dec ≠ .ill)
    (h : LocalOk f dom x.set b.set loc) :
    (x.un b loc).itv = b ∧ DecRight f dom x.set x.dec (x.un b loc) := by
  rw [hx.un hn]
  exact ⟨rfl, h.right hn hx.com_bounded⟩

theorem dec_bin {f : ℝ × ℝ → ℝ} {dom : Set (ℝ × ℝ)} {b : Itv} {loc : Dec} (hx : x.Ok φ) (hy : y.Ok φ)
    (hn : x.dec ≠ .ill) (hm : y.dec ≠ .ill) (h : LocalOk f dom (x.set ×ˢ y.set) b.set loc) :
    (x.bin y b loc).itv = b ∧ DecRight f dom (x.set ×ˢ y.set) (x.dec.min y.dec) (x.bin y b loc) := by
  rw [hx.bin hy hn hm]
  refine ⟨rfl, h.right (Dec.min_ne_ill hn hm) fun e => ?_⟩
  rw [Dec.min_eq_com] at e
  exact (hx.com_bounded e.1).prod (hy.com_bounded e.2)

/-- Total continuous functions. -/
theorem dec_un_total {f : ℝ → ℝ} {b : Itv} (hx : x.Ok φ) (hn : x.dec ≠ .ill) (hT : Tightest φ b (f '' x.set))
    (hc : Continuous f) :
    (x.un b (if b.isEmpty then .trv else b.comDac)).itv = b ∧
      DecRight f Set.univ x.set x.dec (x.un b (if b.isEmpty then .trv else b.comDac)) := by
  refine dec_un hx hn ?_
  have := localOk_std (f := f) (dom := Set.univ) (X := x.set) (b := b) (bad := false) (φ := φ)
    (by rw [Set.inter_univ]; exact hT) (fun _ => by simp) hc.continuousOn
  simpa using this

theorem dec_bin_total {f : ℝ × ℝ → ℝ} {b : Itv} (hx : x.Ok φ) (hy : y.Ok φ)
    (hn : x.dec ≠ .ill) (hm : y.dec ≠ .ill) {S : Set ℝ} (hT : Tightest φ b S) (hS : f '' (x.set ×ˢ y.set) = S)
    (hc : Continuous f) : LocalOk f Set.univ (x.set ×ˢ y.set) b.set (if b.isEmpty then .trv else b.comDac) := by
  have := localOk_std (f := f) (dom := Set.univ) (X := x.set ×ˢ y.set) (b := b) (bad := false) (φ := φ)
    (by rw [Set.inter_univ, hS]; exact hT) (fun _ => by simp) hc.continuousOn
  simpa using this

theorem image_prod_eq (f : ℝ × ℝ → ℝ) (X Y : Set ℝ) :
    f '' (X ×ˢ Y) = {z | ∃ a ∈ X, ∃ b ∈ Y, z = f (a, b)} := by
  ext z; constructor
  · rintro ⟨⟨a, b⟩, ⟨ha, hb⟩, rfl⟩; exact ⟨a, ha, b, hb, rfl⟩
  · rintro ⟨a, ha, b, hb, rfl⟩; exact ⟨(a, b), ⟨ha, hb⟩, rfl⟩

theorem image_prod_dom_eq (f : ℝ × ℝ → ℝ) (dom : Set (ℝ × ℝ)) (X Y : Set ℝ) :
    f '' (X ×ˢ Y ∩ dom) = range2 (fun a b => f (a, b)) dom X Y := by
  ext z; constructor
  · rintro ⟨⟨a, b⟩, ⟨⟨ha, hb⟩, hd⟩, rfl⟩; exact ⟨a, ha, b, hb, hd, rfl⟩
  · rintro ⟨a, ha, b, hb, hd, rfl⟩; exact ⟨(a, b), ⟨⟨ha, hb⟩, hd⟩, rfl⟩

theorem comEmpty_swap {b : Itv} (_h : b.Ok φ) :
    (if b.isCommon then Dec.com else if b.isEmpty then .trv else .dac) = if b.isEmpty then .trv else b.comDac := by
  unfold Itv.comDac Itv.isCommon
  cases b.isEmpty <;> simp

/-- A decoration consistent with the interval is the minimum of itself and the usual local decoration. -/
theorem dec_self (hx : x.Ok φ) (hn : x.dec ≠ .ill) {b : Itv} (hb : b.Ok φ) (he : b.set = ∅ ↔ x.set = ∅)
    (hc : IsBounded b.set ↔ IsBounded x.set) : x.dec.min (if b.isEmpty then .trv else b.comDac) = x.dec := by
  rcases hx.1.cases with e | hne
  · have h1 : x.set = ∅ := by show x.itv.set = ∅; rw [e]; simp
    have h2 : x.dec = .trv := (hx.2.1 e).resolve_left hn
    rw [h2, hb.isEmpty_iff.mpr (hb.set_eq_empty_iff.mp (he.mpr h1)), if_pos rfl]; rfl
  · have hx0 := hne.nonempty.ne_empty
    have hb0 : ¬ b.set = ∅ := fun h => hx0 (he.mp h)
    rcases hb.cases with rfl | hbn
    · exact absurd Itv.set_empty hb0
    rw [hbn.isEmpty]
    unfold Itv.comDac
    simp only [Bool.false_eq_true, if_false]
    split_ifs with h
    · cases x.dec <;> decide
    · rw [hbn.isCommon_iff, hc] at h
      have : x.dec ≠ .com := fun e => h (hx.com_bounded e)
      revert this; cases x.dec <;> decide

/-- **C20** `pos`: identity, defined and continuous everywhere. -/
theorem C20_pos (hx : x.Ok φ) (hn : x.dec ≠ .ill) :
    (Fmt.posD x).itv = Fmt.posI x.itv ∧ DecRight (fun a => a) Set.univ x.set x.dec (Fmt.posD x) := by
  have h := dec_un_total (f := fun a => a) hx hn (C04_pos φ hx.1 |>.of_eq (Set.image_id' _).symm) continuous_id
  have e : Fmt.posI x.itv = x.itv := by simp [Fmt.posI, hx.1.isValid]
  rw [hx.un hn, e, dec_self hx hn hx.1 Iff.rfl Iff.rfl] at h
  have e2 : Fmt.posD x = x := by simp [Fmt.posD, hx.isValid, hx.isNai_false hn]
  rw [e2, e]
  exact ⟨rfl, h.2⟩

/-- `neg`. -/
theorem C20_neg (hx : x.Ok φ) (hn : x.dec ≠ .ill) :
    (Fmt.negD x).itv = Fmt.negI x.itv ∧ DecRight (fun a => -a) Set.univ x.set x.dec (Fmt.negD x) := by
  have hs : {z | ∃ a ∈ x.itv.set, z = -a} = (fun a : ℝ => -a) '' x.set := by
    ext z; simp only [Set.mem_ofPred_eq, Set.mem_image, eq_comm]
  have hset : (Fmt.negI x.itv).set = -x.set := by
    rw [(C04_neg φ hx.1).2, hs, Set.image_neg_eq_neg]
  have h := dec_un_total (f := fun a => -a) hx hn ((C04_neg φ hx.1).1.of_eq hs) continuous_neg
  rw [hx.un hn, dec_self hx hn (C04_neg φ hx.1).1.1 (by rw [hset, Set.neg_eq_empty])
    (by rw [hset]; exact ⟨fun h => by simpa using h.neg, fun h => h.neg⟩)] at h
  have e2 : Fmt.negD x = ⟨Fmt.negI x.itv, x.dec⟩ := by simp [Fmt.negD, hx.isValid, hx.isNai_false hn]
  rw [e2]
  exact ⟨rfl, h.2⟩

/-- `add`. -/
theorem C20_add (hx : x.Ok φ) (hy : y.Ok φ) (hn : x.dec ≠ .ill) (hm : y.dec ≠ .ill) :
    (φ.addD x y).itv = φ.addI x.itv y.itv ∧
    DecRight (fun p : ℝ × ℝ => p.1 + p.2) Set.univ (x.set ×ˢ y.set) (x.dec.min y.dec) (φ.addD x y) := by
  have hT := C01_add φ hx.1 hy.1
  refine dec_bin hx hy hn hm ?_
  rw [comEmpty_swap hT.1]
  exact dec_bin_total hx hy hn hm hT (image_prod_eq _ _ _) (by fun_prop)

/-- `sub`. -/
theorem C20_sub (hx : x.Ok φ) (hy : y.Ok φ) (hn : x.dec ≠ .ill) (hm : y.dec ≠ .ill) :
    (φ.subD x y).itv = φ.subI x.itv y.itv ∧
    DecRight (fun p : ℝ × ℝ => p.1 - p.2) Set.univ (x.set ×ˢ y.set) (x.dec.min y.dec) (φ.subD x y) := by
  have hT := C01_sub φ hx.1 hy.1
  refine dec_bin hx hy hn hm ?_
  rw [comEmpty_swap hT.1]
  exact dec_bin_total hx hy hn hm hT (image_prod_eq _ _ _) (by fun_prop)

/-- `mul`. -/
theorem C20_mul (hx : x.Ok φ) (hy : y.Ok φ) (hn : x.dec ≠ .ill) (hm : y.dec ≠ .ill) :
    (φ.mulD x y).itv = φ.mulI x.itv y.itv ∧
    DecRight (fun p : ℝ × ℝ => p.1 * p.2) Set.univ (x.set ×ˢ y.set) (x.dec.min y.dec) (φ.mulD x y) := by
  have hT := C02_mul φ hx.1 hy.1
  refine dec_bin hx hy hn hm ?_
  rw [comEmpty_swap hT.1]
  exact dec_bin_total hx hy hn hm hT (image_prod_eq _ _ _) (by fun_prop)

/-- `div`: undefined where the divisor is zero. -/
theorem C20_div (hx : x.Ok φ) (hy : y.Ok φ) (hn : x.dec ≠ .ill) (hm : y.dec ≠ .ill) :
    (φ.divD x y).itv = φ.divI x.itv y.itv ∧
    DecRight (fun p : ℝ × ℝ => p.1 / p.2) {p | p.2 ≠ 0} (x.set ×ˢ y.set) (x.dec.min y.dec) (φ.divD x y) := by
  have hT := C03_div φ hx.1 hy.1
  refine dec_bin hx hy hn hm (localOk_std (hT.of_eq ?_) ?_ ?_)
  · rw [image_prod_dom_eq]; rfl
  · rintro ⟨⟨a, b⟩, ha, hb⟩
    rw [hy.isMember hm]
    constructor
    · intro h0 hs
      exact hs (show (a, ((0:ℚ):ℝ)) ∈ x.set ×ˢ y.set from ⟨ha, h0⟩) (by simp)
    · intro hs
      rw [Set.not_subset] at hs
      obtain ⟨⟨c, d⟩, ⟨_, hd⟩, h0⟩ := hs
      have : d = 0 := by simpa using h0
      rw [this] at hd; simpa using hd
  · exact continuousOn_fst.div continuousOn_snd (fun p hp => hp)

/-- `recip`. -/
theorem C20_recip (hx : x.Ok φ) (hn : x.dec ≠ .ill) :
    (φ.recipD x).itv = φ.recipI x.itv ∧
    DecRight (fun a => 1 / a) {a | a ≠ 0} x.set x.dec (φ.recipD x) := by
  have hT := C03_recip φ hx.1
  refine dec_un hx hn (localOk_std (hT.of_eq ?_) ?_ ?_)
  · ext z; constructor
    · rintro ⟨b, hb, h0, rfl⟩; exact ⟨b, ⟨hb, h0⟩, rfl⟩
    · rintro ⟨b, ⟨hb, h0⟩, rfl⟩; exact ⟨b, hb, h0, rfl⟩
  · intro _
    rw [hx.isMember hn, Set.not_subset]
    constructor
    · intro h0; exact ⟨_, h0, by simp⟩
    · rintro ⟨d, hd, h0⟩
      have : d = 0 := by simpa using h0
      rw [this] at hd; simpa using hd
  · exact continuousOn_const.div continuousOn_id (fun p hp => hp)

/-- `sqr`. -/
theorem C20_sqr (hx : x.Ok φ) (hn : x.dec ≠ .ill) :
    (φ.sqrD x).itv = φ.sqrI x.itv ∧ DecRight (fun a => a ^ 2) Set.univ x.set x.dec (φ.sqrD x) :=
  dec_un_total hx hn (C04_sqr φ hx.1) (by fun_prop)

/-- `abs`. -/
theorem C20_abs (hx : x.Ok φ) (hn : x.dec ≠ .ill) :
    (Fmt.absD x).itv = Fmt.absI x.itv ∧ DecRight (fun a => |a|) Set.univ x.set x.dec (Fmt.absD x) :=
  dec_un_total hx hn (C04_abs φ hx.1).1 (by fun_prop)

theorem bad_lt {q : ℚ} (hx : x.Ok φ) (h : x.set.Nonempty) :
    x.itv.lo.ltb (.fin q) = true ↔ ¬ x.set ⊆ {a : ℝ | (q:ℝ) ≤ a} := by
  rcases hx.1.cases with e | hN
  · exact absurd (show x.itv.set = ∅ by rw [e]; simp) h.ne_empty
  rw [ltb_iff hN.lo_ne (by simp), FP.toE_fin, ← hN.ex_gt, Set.not_subset]
  simp

theorem bad_le {q : ℚ} (hx : x.Ok φ) (h : x.set.Nonempty) :
    x.itv.lo.leb (.fin q) = true ↔ ¬ x.set ⊆ {a : ℝ | (q:ℝ) < a} := by
  rcases hx.1.cases with e | hN
  · exact absurd (show x.itv.set = ∅ by rw [e]; simp) h.ne_empty
  rw [leb_iff hN.lo_ne (by simp), FP.toE_fin, ← hN.ex_ge, Set.not_subset]
  simp

theorem bad_gt {q : ℚ} (hx : x.Ok φ) (h : x.set.Nonempty) :
    FP.ltb (.fin q) x.itv.hi = true ↔ ¬ x.set ⊆ {a : ℝ | a ≤ (q:ℝ)} := by
  rcases hx.1.cases with e | hN
  · exact absurd (show x.itv.set = ∅ by rw [e]; simp) h.ne_empty
  rw [ltb_iff (by simp) hN.hi_ne, FP.toE_fin, ← hN.ex_lt, Set.not_subset]
  simp

theorem bad_ge {q : ℚ} (hx : x.Ok φ) (h : x.set.Nonempty) :
    FP.leb (.fin q) x.itv.hi = true ↔ ¬ x.set ⊆ {a : ℝ | a < (q:ℝ)} := by
  rcases hx.1.cases with e | hN
  · exact absurd (show x.itv.set = ∅ by rw [e]; simp) h.ne_empty
  rw [leb_iff (by simp) hN.hi_ne, FP.toE_fin, ← hN.ex_le, Set.not_subset]
  simp

/-- `sqrt`: defined on the non-negative numbers. -/
theorem C20_sqrt (hx : x.Ok φ) (hn : x.dec ≠ .ill) :
    (φ.sqrtD x).itv = φ.sqrtI x.itv ∧ DecRight Real.sqrt {a | 0 ≤ a} x.set x.dec (φ.sqrtD x) :=
  dec_un hx hn (localOk_std (C04_sqrt φ hx.1) (fun h => by rw [bad_lt hx h]; simp) Real.continuous_sqrt.continuousOn)

/-- `fma`. -/
theorem C20_fma (hx : x.Ok φ) (hy : y.Ok φ) (hz : z.Ok φ) (hn : x.dec ≠ .ill) (hm : y.dec ≠ .ill) (hk : z.dec ≠ .ill) :
    (φ.fmaD x y z).itv = φ.fmaI x.itv y.itv z.itv ∧
    DecRight (fun p : ℝ × ℝ × ℝ => p.1 * p.2.1 + p.2.2) Set.univ (x.set ×ˢ y.set ×ˢ z.set)
      ((x.dec.min y.dec).min z.dec) (φ.fmaD x y z) := by
  have hT := C06_fma φ hx.1 hy.1 hz.1
  have e : φ.fmaD x y z = ⟨φ.fmaI x.itv y.itv z.itv, ((x.dec.min y.dec).min z.dec).min
      (if (φ.fmaI x.itv y.itv z.itv).isEmpty then .trv else (φ.fmaI x.itv y.itv z.itv).comDac)⟩ := by
    unfold Fmt.fmaD
    rw [hx.isValid, hx.isNai_false hn, hy.isValid, hy.isNai_false hm, hz.isValid, hz.isNai_false hk]; rfl
  rw [e]
  refine ⟨rfl, LocalOk.right ?_ (Dec.min_ne_ill (Dec.min_ne_ill hn hm) hk) fun e => ?_⟩
  · have := localOk_std (f := fun p : ℝ × ℝ × ℝ => p.1 * p.2.1 + p.2.2) (dom := Set.univ)
      (X := x.set ×ˢ y.set ×ˢ z.set) (bad := false) (hT.of_eq ?_) (fun _ => by simp)
      (Continuous.continuousOn (by fun_prop))
    · simpa using this
    · rw [Set.inter_univ]
      ext w; constructor
      · rintro ⟨a, ha, b, hb, c, hc, rfl⟩; exact ⟨(a, b, c), ⟨ha, hb, hc⟩, rfl⟩
      · rintro ⟨⟨a, b, c⟩, ⟨ha, hb, hc⟩, rfl⟩; exact ⟨a, ha, b, hb, c, hc, rfl⟩
  · rw [Dec.min_eq_com, Dec.min_eq_com] at e
    exact (hx.com_bounded e.1.1).prod ((hy.com_bounded e.1.2).prod (hz.com_bounded e.2))

/-- `pown(x, p)`: undefined at zero for negative `p`. -/
theorem C20_pown (hx : x.Ok φ) (hn : x.dec ≠ .ill) (p : ℤ) :
    (φ.pownD x p).itv = φ.pownI x.itv p ∧
    DecRight (fun a : ℝ => a ^ p) {a | p < 0 → a ≠ 0} x.set x.dec (φ.pownD x p) := by
  refine dec_un hx hn (localOk_std (C07_pown φ hx.1 p) ?_ ?_)
  · intro _
    rw [Bool.and_eq_true, decide_eq_true_iff, hx.isMember hn, Set.not_subset]
    constructor
    · rintro ⟨hp, h0⟩; exact ⟨_, h0, by simpa using hp⟩
    · rintro ⟨d, hd, h0⟩
      have h0' : p < 0 ∧ d = 0 := by simpa using h0
      rw [h0'.2] at hd; exact ⟨h0'.1, by simpa using hd⟩
  · intro a ha
    refine (continuousAt_zpow₀ a p ?_).continuousWithinAt
    rcases lt_or_ge p 0 with h | h
    · exact Or.inl (ha h)
    · exact Or.inr h

/-- `pow(x, y)`: defined for positive base, and for base zero with positive exponent. -/
theorem C20_pow (hx : x.Ok φ) (hy : y.Ok φ) (hn : x.dec ≠ .ill) (hm : y.dec ≠ .ill) :
    (φ.powD x y).itv = φ.powI x.itv y.itv ∧
    DecRight (fun p : ℝ × ℝ => p.1 ^ p.2) {p | 0 < p.1 ∨ (p.1 = 0 ∧ 0 < p.2)} (x.set ×ˢ y.set) (x.dec.min y.dec)
      (φ.powD x y) := by
  have hT := C08_pow hx.1 hy.1
  refine dec_bin hx hy hn hm (localOk_std (hT.of_eq ?_) ?_ ?_)
  · rw [image_prod_dom_eq]
  · rintro ⟨⟨a, b⟩, ha, hb⟩
    rw [Bool.or_eq_true, Bool.and_eq_true, hx.isMember hn, bad_lt hx ⟨a, ha⟩, bad_le hy ⟨b, hb⟩, Set.not_subset,
      Set.not_subset, Set.not_subset]
    constructor
    · rintro (⟨c, hc, h⟩ | ⟨h0, c, hc, h⟩)
      · refine ⟨(c, b), ⟨hc, hb⟩, ?_⟩
        have : c < 0 := by simpa using h
        rintro (h1 | h1)
        · exact absurd h1 this.not_gt
        · exact absurd h1.1 this.ne
      · refine ⟨(((0:ℚ):ℝ), c), ⟨h0, hc⟩, ?_⟩
        have : c ≤ 0 := by simpa using h
        rintro (h1 | h1)
        · simp at h1
        · exact absurd h1.2 this.not_gt
    · rintro ⟨⟨c, d⟩, ⟨hc, hd⟩, h⟩
      have h' : ¬ (0 < c ∨ (c = 0 ∧ 0 < d)) := h
      rcases lt_trichotomy c 0 with h1 | h1 | h1
      · exact Or.inl ⟨c, hc, by simpa using h1⟩
      · refine Or.inr ⟨by rw [h1] at hc; simpa using hc, d, hd, ?_⟩
        simp only [Set.mem_ofPred_eq]
        rw [not_lt, Rat.cast_zero]
        by_contra hcon
        exact h' (Or.inr ⟨h1, not_le.mp hcon⟩)
      · exact absurd (Or.inl h1) h'
  · intro p hp
    refine (Real.continuousAt_rpow p ?_).continuousWithinAt
    rcases hp with h | h
    · exact Or.inl h.ne'
    · exact Or.inr h.2

/-- `exp`. -/
theorem C20_exp (hx : x.Ok φ) (hn : x.dec ≠ .ill) :
    (φ.expD x).itv = φ.expI x.itv ∧ DecRight Real.exp Set.univ x.set x.dec (φ.expD x) :=
  dec_un_total hx hn (C09_exp hx.1) Real.continuous_exp

/-- `exp2`. -/
theorem C20_exp2 (hx : x.Ok φ) (hn : x.dec ≠ .ill) :
    (φ.exp2D x).itv = φ.exp2I x.itv ∧ DecRight (fun a => (2:ℝ) ^ a) Set.univ x.set x.dec (φ.exp2D x) :=
  dec_un_total hx hn (C09_exp2 hx.1) (Real.continuous_const_rpow (by norm_num))

/-- `exp10`. -/
theorem C20_exp10 (hx : x.Ok φ) (hn : x.dec ≠ .ill) :
    (φ.exp10D x).itv = φ.exp10I x.itv ∧ DecRight (fun a => (10:ℝ) ^ a) Set.univ x.set x.dec (φ.exp10D x) :=
  dec_un_total hx hn (C09_exp10 hx.1) (Real.continuous_const_rpow (by norm_num))

theorem continuousOn_log_pos : ContinuousOn Real.log {a | 0 < a} :=
  fun a ha => (Real.continuousAt_log (ne_of_gt ha)).continuousWithinAt
theorem continuousOn_logb_pos (b : ℝ) : ContinuousOn (Real.logb b) {a | 0 < a} := by
  show ContinuousOn (fun a => Real.log a / Real.log b) _
  exact continuousOn_log_pos.div_const _

/-- `log`: defined on the positive numbers. -/
theorem C20_log (hx : x.Ok φ) (hn : x.dec ≠ .ill) :
    (φ.logD x).itv = φ.logI x.itv ∧ DecRight Real.log {a | 0 < a} x.set x.dec (φ.logD x) :=
  dec_un hx hn (localOk_std (C09_log hx.1) (fun h => by rw [bad_le hx h]; simp) continuousOn_log_pos)

/-- `log2`. -/
theorem C20_log2 (hx : x.Ok φ) (hn : x.dec ≠ .ill) :
    (φ.log2D x).itv = φ.log2I x.itv ∧ DecRight (Real.logb 2) {a | 0 < a} x.set x.dec (φ.log2D x) :=
  dec_un hx hn (localOk_std (C09_log2 hx.1) (fun h => by rw [bad_le hx h]; simp) (continuousOn_logb_pos _))

/-- `log10`. -/
theorem C20_log10 (hx : x.Ok φ) (hn : x.dec ≠ .ill) :
    (φ.log10D x).itv = φ.log10I x.itv ∧ DecRight (Real.logb 10) {a | 0 < a} x.set x.dec (φ.log10D x) :=
  dec_un hx hn (localOk_std (C09_log10 hx.1) (fun h => by rw [bad_le hx h]; simp) (continuousOn_logb_pos _))

/-- `sin`. -/
theorem C20_sin (hx : x.Ok φ) (hn : x.dec ≠ .ill) :
    (φ.sinD x).itv = φ.sinI x.itv ∧ DecRight Real.sin Set.univ x.set x.dec (φ.sinD x) :=
  dec_un_total hx hn (C10_sin hx.1) Real.continuous_sin

/-- `cos`. -/
theorem C20_cos (hx : x.Ok φ) (hn : x.dec ≠ .ill) :
    (φ.cosD x).itv = φ.cosI x.itv ∧ DecRight Real.cos Set.univ x.set x.dec (φ.cosD x) :=
  dec_un_total hx hn (C10_cos hx.1) Real.continuous_cos

/-- A result around a bounded range is bounded. -/
theorem Tightest.common {b : Itv} {S : Set ℝ} (hT : Tightest φ b S) (hS : S.Nonempty)
    (hb : S ⊆ Set.Icc (-4) 4) : b.isCommon = true := by
  have hr : φ.Rep 4 := ⟨4, 0, by norm_num, by
      have : (2:ℤ) ^ 8 ≤ 2 ^ φ.p := by gcongr; exacts [by norm_num, φ.p_pos]
      norm_num; linarith, by have := φ.qmin_le; omega, by
      have := φ.emax_ge; have := φ.p_pos; omega⟩
  have hY : (Itv.mk (.fin (-4)) (.fin 4)).NE φ :=
    ⟨by simp, by simp, by rw [FP.toE_fin, FP.toE_fin, EReal.coe_le_coe_iff]; norm_num, by simp [FP.toE], by simp [FP.toE],
      hr.neg, hr⟩
  have h1 := hT.2.2 _ hY.ok (hb.trans fun r hr => ⟨by simpa [FP.BelowR] using hr.1, by simpa [FP.AboveR] using hr.2⟩)
  have hN : b.NE φ := by
    rcases hT.1.cases with rfl | h
    · have := hT.2.1 hS.some_mem; simp at this
    · exact h
  rw [hN.isCommon_iff]
  exact (hY.bounded_iff.mpr ⟨by simp, by simp⟩).subset h1

/-- Variant of the usual expression for functions of bounded range, whose last alternative is `com`. -/
theorem localOk_bdd {f : ℝ → ℝ} {dom X : Set ℝ} {b : Itv} {bad : Bool} (hT : Tightest φ b (f '' (X ∩ dom)))
    (hbad : X.Nonempty → (bad = true ↔ ¬ X ⊆ dom)) (hc : ContinuousOn f dom) (hb : ∀ a ∈ dom, |f a| ≤ 4) :
    LocalOk f dom X b.set (if bad || b.isEmpty then .trv else .com) := by
  have h := localOk_std hT hbad hc
  rcases h0 : (bad || b.isEmpty) with _ | _
  · rw [h0] at h
    simp only [Bool.false_eq_true, if_false] at h ⊢
    have hc : b.isCommon = true := by
      refine Tightest.common hT ?_ ?_
      · rw [Set.nonempty_iff_ne_empty, Ne, ← tight_empty_iff hT]
        rw [Bool.or_eq_false_iff] at h0; rw [h0.2]; simp
      · rintro _ ⟨a, ha, rfl⟩
        exact abs_le.mp (hb a ha.2)
    rw [Itv.comDac, hc] at h
    exact h
  · rw [h0] at h; exact h

theorem bad_unit (hx : x.Ok φ) (h : x.set.Nonempty) :
    (x.itv.lo.ltb (.fin (-1)) || FP.ltb (.fin 1) x.itv.hi) = true ↔ ¬ x.set ⊆ {a : ℝ | -1 ≤ a ∧ a ≤ 1} := by
  rw [Bool.or_eq_true, bad_lt hx h, bad_gt hx h, ← not_and_or, ← Set.subset_inter_iff]
  simp [Set.inter_def]

/-- `asin`: defined on `[-1, 1]`. -/
theorem C20_asin (hx : x.Ok φ) (hn : x.dec ≠ .ill) :
    (φ.asinD x).itv = φ.asinI x.itv ∧ DecRight Real.arcsin {a | -1 ≤ a ∧ a ≤ 1} x.set x.dec (φ.asinD x) := by
  refine dec_un hx hn (localOk_bdd (C12_asin hx.1) (bad_unit hx) Real.continuous_arcsin.continuousOn fun a _ => ?_)
  have := Real.arcsin_le_pi_div_two a
  have := Real.neg_pi_div_two_le_arcsin a
  have := Real.pi_lt_four
  rw [abs_le]; constructor <;> linarith

/-- `acos`. -/
theorem C20_acos (hx : x.Ok φ) (hn : x.dec ≠ .ill) :
    (φ.acosD x).itv = φ.acosI x.itv ∧ DecRight Real.arccos {a | -1 ≤ a ∧ a ≤ 1} x.set x.dec (φ.acosD x) := by
  refine dec_un hx hn (localOk_bdd (C12_acos hx.1) (bad_unit hx) Real.continuous_arccos.continuousOn fun a _ => ?_)
  have := Real.arccos_le_pi a
  have := Real.arccos_nonneg a
  have := Real.pi_lt_four
  rw [abs_le]; constructor <;> linarith

/-- `atan`. -/
theorem C20_atan (hx : x.Ok φ) (hn : x.dec ≠ .ill) :
    (φ.atanD x).itv = φ.atanI x.itv ∧ DecRight Real.arctan Set.univ x.set x.dec (φ.atanD x) := by
  have := localOk_bdd (f := Real.arctan) (dom := Set.univ) (X := x.set) (bad := false)
    ((C12_atan hx.1).of_eq (by rw [Set.inter_univ])) (fun _ => by simp) Real.continuous_arctan.continuousOn fun a _ => by
      have := Real.arctan_lt_pi_div_two a
      have := Real.neg_pi_div_two_lt_arctan a
      have := Real.pi_lt_four
      rw [abs_le]; constructor <;> linarith
  exact dec_un hx hn (by simpa using this)

/-- `sinh`. -/
theorem C20_sinh (hx : x.Ok φ) (hn : x.dec ≠ .ill) :
    (φ.sinhD x).itv = φ.sinhI x.itv ∧ DecRight Real.sinh Set.univ x.set x.dec (φ.sinhD x) :=
  dec_un_total hx hn (C13_sinh hx.1) Real.continuous_sinh

/-- `cosh`. -/
theorem C20_cosh (hx : x.Ok φ) (hn : x.dec ≠ .ill) :
    (φ.coshD x).itv = φ.coshI x.itv ∧ DecRight Real.cosh Set.univ x.set x.dec (φ.coshD x) :=
  dec_un_total hx hn (C13_cosh hx.1) Real.continuous_cosh

theorem continuous_tanh' : Continuous Real.tanh := by
  have : Real.tanh = fun a => Real.sinh a / Real.cosh a := by ext a; exact Real.tanh_eq_sinh_div_cosh a
  rw [this]
  exact Real.continuous_sinh.div Real.continuous_cosh fun a => (Real.cosh_pos a).ne'

/-- `tanh`. -/
theorem C20_tanh (hx : x.Ok φ) (hn : x.dec ≠ .ill) :
    (φ.tanhD x).itv = φ.tanhI x.itv ∧ DecRight Real.tanh Set.univ x.set x.dec (φ.tanhD x) := by
  have := localOk_bdd (f := Real.tanh) (dom := Set.univ) (X := x.set) (bad := false)
    ((C13_tanh hx.1).of_eq (by rw [Set.inter_univ])) (fun _ => by simp) continuous_tanh'.continuousOn fun a _ => by
      have := Real.abs_tanh_lt_one a
      linarith
  exact dec_un hx hn (by simpa using this)

/-- `asinh`. -/
theorem C20_asinh (hx : x.Ok φ) (hn : x.dec ≠ .ill) :
    (φ.asinhD x).itv = φ.asinhI x.itv ∧ DecRight Real.arsinh Set.univ x.set x.dec (φ.asinhD x) :=
  dec_un_total hx hn (C13_asinh hx.1) Real.continuous_arsinh

/-- `acosh`: defined from `1` on. -/
theorem C20_acosh (hx : x.Ok φ) (hn : x.dec ≠ .ill) :
    (φ.acoshD x).itv = φ.acoshI x.itv ∧ DecRight Real.arcosh {a | 1 ≤ a} x.set x.dec (φ.acoshD x) :=
  dec_un hx hn (localOk_std (C13_acosh hx.1) (fun h => by rw [bad_lt hx h]; simp)
    Real.continuousOn_arcosh)

/-- `atanh`: defined on `(-1, 1)`. -/
theorem C20_atanh (hx : x.Ok φ) (hn : x.dec ≠ .ill) :
    (φ.atanhD x).itv = φ.atanhI x.itv ∧ DecRight Real.artanh {a | -1 < a ∧ a < 1} x.set x.dec (φ.atanhD x) := by
  refine dec_un hx hn (localOk_std (C13_atanh hx.1) (fun h => ?_) ?_)
  · rw [Bool.or_eq_true, bad_le hx h, bad_ge hx h, ← not_and_or, ← Set.subset_inter_iff]
    simp [Set.inter_def]
  · intro a ha
    have h1 : 0 < 1 + a := by linarith [ha.1]
    have h2 : 0 < 1 - a := by linarith [ha.2]
    refine ContinuousAt.continuousWithinAt ?_
    unfold Real.artanh
    refine ContinuousAt.log ?_ (Real.sqrt_pos.mpr (div_pos h1 h2)).ne'
    exact (ContinuousAt.div (by fun_prop) (by fun_prop) h2.ne').sqrt

/-- `min`. -/
theorem C20_min (hx : x.Ok φ) (hy : y.Ok φ) (hn : x.dec ≠ .ill) (hm : y.dec ≠ .ill) :
    (Fmt.minD x y).itv = Fmt.minI x.itv y.itv ∧
    DecRight (fun p : ℝ × ℝ => min p.1 p.2) Set.univ (x.set ×ˢ y.set) (x.dec.min y.dec) (Fmt.minD x y) := by
  have h := C05_min φ hx.1 hy.1
  exact dec_bin hx hy hn hm (dec_bin_total hx hy hn hm ((Tightest.of_ok h.1).of_eq h.2) (image_prod_eq _ _ _) (by fun_prop))

/-- `max`. -/
theorem C20_max (hx : x.Ok φ) (hy : y.Ok φ) (hn : x.dec ≠ .ill) (hm : y.dec ≠ .ill) :
    (Fmt.maxD x y).itv = Fmt.maxI x.itv y.itv ∧
    DecRight (fun p : ℝ × ℝ => max p.1 p.2) Set.univ (x.set ×ˢ y.set) (x.dec.min y.dec) (Fmt.maxD x y) := by
  have h := C05_max φ hx.1 hy.1
  exact dec_bin hx hy hn hm (dec_bin_total hx hy hn hm ((Tightest.of_ok h.1).of_eq h.2) (image_prod_eq _ _ _) (by fun_prop))

/-- Non-vacuity: operands with an honest `com`, a `dac` and a `trv` decoration. -/
example : (DItv.mk ⟨.fin 1, .fin 2⟩ .com).Ok binary64 ∧ (DItv.mk ⟨.fin (-1), .pinf⟩ .dac).Ok binary64 ∧
    (DItv.mk Itv.empty .trv).Ok binary64 ∧ (DItv.mk ⟨.fin (-1), .fin 2⟩ .trv).Ok binary32 := by
  refine ⟨⟨Itv.ok_of_okb (by decide +kernel), ?_⟩, ⟨Itv.ok_of_okb (by decide +kernel), ?_⟩,
    ⟨Itv.ok_of_okb (by decide +kernel), ?_⟩, ⟨Itv.ok_of_okb (by decide +kernel), ?_⟩⟩ <;> simp [Itv.empty]

end P1788
