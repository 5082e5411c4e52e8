import Verif.Lemmas.RevBox

/-! Helper lemmas: reverse integer power. -/

namespace P1788
open FP

variable {φ : Fmt} {x : Itv} {S S' : Set ℝ}

theorem CutTo.of_eq {R : Itv} {T : Set ℝ} (h : CutTo φ R S x.set) (e : S = T) : CutTo φ R T x.set := e ▸ h

theorem CutTo.hull {A B : Itv} (hx : x.Ok φ) (h : CutTo φ A S x.set) (h' : CutTo φ B S' x.set) :
    CutTo φ (A.hull B) (S ∪ S') x.set := by
  obtain ⟨k1, k2, k3⟩ := Itv.hull_tight h.1 h'.1
  refine ⟨k1, ?_, k3 x hx (Set.union_subset h.2.2.1 h'.2.2.1), fun Y hY hS => k3 Y hY ?_⟩
  · rw [Set.union_inter_distrib_right]
    exact (Set.union_subset_union h.2.1 h'.2.1).trans k2
  · rw [Set.union_subset_iff] at hS
    exact Set.union_subset (h.2.2.2 Y hY hS.1) (h'.2.2.2 Y hY hS.2)

theorem CutTo.empty (hS : S = ∅) : CutTo φ Itv.empty S x.set :=
  ⟨Itv.ok_empty φ, by simp [hS], by simp, by simp⟩

theorem CutTo.drop {P : Itv} {tl tu : Bool} (hx : x.Ok φ) (h : Leaf φ P tl tu S) :
    CutTo φ (x.inter (P.dropIf x tl tu)) S x.set := by
  obtain ⟨o1, a1, b1⟩ := dropIf_spec h hx
  obtain ⟨i1, j1⟩ := Itv.inter_ok_set hx o1
  refine ⟨i1, fun t ht => by rw [j1]; exact ⟨ht.2, b1 ht⟩, by rw [j1]; exact Set.inter_subset_left, fun Y hY hS => ?_⟩
  rw [j1]
  exact Set.inter_subset_right.trans (a1.trans (h.tight.2.2 Y hY hS))

theorem CutTo.drop' {P : Itv} {tl tu : Bool} (hx : x.Ok φ) (h : Leaf φ P tl tu S) :
    CutTo φ ((P.dropIf x tl tu).inter x) S x.set := by
  obtain ⟨o1, a1, b1⟩ := dropIf_spec h hx
  obtain ⟨i1, j1⟩ := Itv.inter_ok_set o1 hx
  refine ⟨i1, fun t ht => by rw [j1]; exact ⟨b1 ht, ht.2⟩, by rw [j1]; exact Set.inter_subset_right, fun Y hY hS => ?_⟩
  rw [j1]
  exact Set.inter_subset_left.trans (a1.trans (h.tight.2.2 Y hY hS))

theorem CutTo.inter {P : Itv} (hx : x.Ok φ) (h : Tightest φ P S) : CutTo φ (x.inter P) S x.set := by
  obtain ⟨i1, j1⟩ := Itv.inter_ok_set hx h.1
  refine ⟨i1, fun t ht => by rw [j1]; exact ⟨ht.2, h.2.1 ht.1⟩, by rw [j1]; exact Set.inter_subset_left, fun Y hY hS => ?_⟩
  rw [j1]
  exact Set.inter_subset_right.trans (h.2.2 Y hY hS)

/-! ## Negative exponents -/

variable {p : ℤ} {c : Itv}

theorem RevAt.neg {m m' : Rnd} {L : EReal} {r : FP × Bool} (hm : ∀ e, φ.rndE m' (-e) = -φ.rndE m e) (h : RevAt φ m L r) :
    RevAt φ m' (-L) (r.1.neg, r.2) :=
  ⟨by rw [FP.toE_neg, hm, h.val], by rw [FP.toE_neg]; rw [h.flag]; simp, by simpa using h.ne, FP.neg_in h.inφ⟩

theorem revHull_cut {a b : FP × Bool} {l u : EReal} (hx : x.Ok φ) (hB : Box S l u) (ha : RevAt φ .D l a) (hb : RevAt φ .U u b) :
    CutTo φ ((Itv.mk a.1 b.1).revHull x a.2 b.2) (S ∪ {t | -t ∈ S}) x.set := by
  have hL := leaf_of_box hB ha hb
  have ne : (Itv.mk a.1 b.1).NE φ := by
    rcases hL.tight.1.cases with h | h
    · obtain ⟨s, hs⟩ := hB.ne
      have := hL.tight.2.1 hs
      rw [h] at this; simp at this
    · exact h
  unfold Itv.revHull
  rw [negI_ne ne]
  refine CutTo.hull hx (CutTo.drop' hx hL) (CutTo.drop' hx ?_)
  exact leaf_of_box (box_mirror hB) (hb.neg (m' := .D) (fun e => φ.rdE_neg e)) (ha.neg (m' := .U) (fun e => φ.ruE_neg e))

theorem powSol_neg (hp : p < 0) (hc : c.NE φ) :
    PowSol p c.set = posSol p c.lo.toE c.hi.toE ∪ negSol p c.lo.toE c.hi.toE := by
  ext t
  simp only [PowSol, posSol, negSol, Set.mem_union, Set.mem_ofPred_eq, hc.mem]
  have : t ≠ 0 ∨ 0 ≤ p ↔ 0 < t ∨ t < 0 := by
    rw [or_iff_left hp.not_ge, ne_iff_lt_or_gt, or_comm]
  rw [this]
  tauto

theorem zpow_sign_odd (ho : p % 2 ≠ 0) {t : ℝ} (ht : t < 0) : t ^ p < 0 := by
  have h := zpow_neg_odd ho t
  have := zpow_pos (neg_pos.mpr ht) p
  linarith

theorem zpow_sign_even (he : p % 2 = 0) {t : ℝ} (ht : t ≠ 0) : 0 < t ^ p := by
  rw [← zpow_abs_even he]
  exact zpow_pos (abs_pos.mpr ht) p

theorem posSol_empty {a b : EReal} (hb : b ≤ 0) : posSol p a b = ∅ := by
  rw [Set.eq_empty_iff_forall_notMem]
  rintro t ⟨h1, -, h3⟩
  have : (0:EReal) < ((t ^ p : ℝ) : EReal) := by exact_mod_cast zpow_pos h1 p
  exact absurd (h3.trans hb) this.not_ge

theorem negSol_empty_odd (ho : p % 2 ≠ 0) {a b : EReal} (ha : 0 ≤ a) : negSol p a b = ∅ := by
  rw [Set.eq_empty_iff_forall_notMem]
  rintro t ⟨h1, h2, -⟩
  have : ((t ^ p : ℝ) : EReal) < 0 := by exact_mod_cast zpow_sign_odd ho h1
  exact absurd (ha.trans h2) this.not_ge

theorem posSol_lower {a a' b : EReal} (ha : a ≤ 0) (ha' : a' ≤ 0) : posSol p a b = posSol p a' b := by
  ext t
  refine and_congr_right (fun ht => and_congr_left (fun _ => ?_))
  have : (0:EReal) < ((t ^ p : ℝ) : EReal) := by exact_mod_cast zpow_pos ht p
  exact iff_of_true (ha.trans this.le) (ha'.trans this.le)

theorem negSol_upper (ho : p % 2 ≠ 0) {a b b' : EReal} (hb : 0 ≤ b) (hb' : 0 ≤ b') : negSol p a b = negSol p a b' := by
  ext t
  refine and_congr_right (fun ht => and_congr_right (fun _ => ?_))
  have : ((t ^ p : ℝ) : EReal) < 0 := by exact_mod_cast zpow_sign_odd ho ht
  exact iff_of_true (this.le.trans hb) (this.le.trans hb')

/-! ## Positive exponents -/

/-- The root with its limits. -/
noncomputable def rE (n : ℕ) (e : EReal) : EReal :=
  if e = ⊤ then ⊤ else if e = ⊥ then ⊥ else ((rootR n e.toReal : ℝ) : EReal)

theorem rE_top (n : ℕ) : rE n ⊤ = ⊤ := by simp [rE]
theorem rE_bot (n : ℕ) : rE n ⊥ = ⊥ := by simp [rE]
theorem rE_coe (n : ℕ) (r : ℝ) : rE n r = ((rootR n r : ℝ) : EReal) := by simp [rE]

theorem root_at {m : Rnd} {n : ℕ} (hn : n ≠ 0) {a : FP} (ha : a ≠ .nan) (hs : 0 ≤ a.toE ∨ n % 2 ≠ 0) :
    (φ.root m n a).toE = φ.rndE m (rE n a.toE) ∧ φ.root m n a ≠ .nan ∧ (φ.root m n a).In φ := by
  cases a with
  | nan => exact absurd rfl ha
  | ninf =>
    have : ¬ n % 2 = 0 := by simpa using hs
    simp [Fmt.root, this, rE_bot, FP.In]
  | pinf => simp [Fmt.root, rE_top, FP.In]
  | nzero =>
    have : rE n 0 = 0 := by
      rw [show (0:EReal) = ((0:ℝ):EReal) from rfl, rE_coe, rootR_zero hn]
    simp [Fmt.root, this, FP.In]
  | fin q =>
    have : ¬(q < 0 ∧ n % 2 = 0) := by
      rintro ⟨h1, h2⟩
      rcases hs with h | h
      · rw [FP.toE_fin] at h
        have : (0:ℝ) ≤ q := by exact_mod_cast h
        have : (0:ℚ) ≤ q := by exact_mod_cast this
        linarith
      · exact h h2
    have e : φ.root m n (.fin q) = φ.round m (rootR n q) := by
      simp only [Fmt.root]; rw [if_neg this]
    rw [e]
    refine ⟨?_, φ.round_ne_nan _ _, φ.round_in _ _⟩
    rw [FP.toE_fin, rE_coe, Fmt.rndE_coe]

theorem root_le_iff {n : ℕ} (hn : n ≠ 0) {a : EReal} {t : ℝ} (hs : (0 ≤ a ∧ 0 ≤ t) ∨ n % 2 ≠ 0) :
    (rE n a ≤ t ↔ a ≤ ((t ^ n : ℝ) : EReal)) ∧ ((t:EReal) ≤ rE n a ↔ ((t ^ n : ℝ) : EReal) ≤ a) := by
  induction a using EReal.rec with
  | bot => rw [rE_bot]; simp [-EReal.coe_pow]
  | top => rw [rE_top]; simp [-EReal.coe_pow]
  | coe r =>
    rw [rE_coe]
    simp only [EReal.coe_le_coe_iff]
    have hr := rootR_pow hn (c := r) (hs.imp (fun h => by exact_mod_cast h.1) id)
    rcases hs with ⟨h1, h2⟩ | h
    · have h1 : 0 ≤ r := by exact_mod_cast h1
      have h0 : 0 ≤ rootR n r := by
        rcases eq_or_lt_of_le h1 with h | h
        · rw [← h, rootR_zero hn]
        · exact (rootR_pos h).le
      conv => enter [1, 2]; rw [← hr]
      conv => enter [2, 2]; rw [← hr]
      exact ⟨(pow_le_pow_iff_left₀ h0 h2 hn).symm, (pow_le_pow_iff_left₀ h2 h0 hn).symm⟩
    · have ho : Odd n := Nat.odd_iff.mpr (by omega)
      conv => enter [1, 2]; rw [← hr]
      conv => enter [2, 2]; rw [← hr]
      exact ⟨(ho.strictMono_pow.le_iff_le).symm, (ho.strictMono_pow.le_iff_le).symm⟩

theorem rE_nonneg {n : ℕ} (hn : n ≠ 0) {a : EReal} (h : 0 ≤ a) : 0 ≤ rE n a := by
  have := (root_le_iff (t := 0) hn (Or.inl ⟨h, le_rfl⟩)).2
  rw [EReal.coe_zero] at this
  rw [this]
  simpa [hn] using h

theorem rE_ne_top {n : ℕ} {a : EReal} (h : a ≠ ⊤) : rE n a ≠ ⊤ := by
  unfold rE; rw [if_neg h]; split_ifs <;> simp

theorem rE_ne_bot {n : ℕ} {a : EReal} (h : a ≠ ⊥) : rE n a ≠ ⊥ := by
  unfold rE; split_ifs <;> simp

theorem rE_mono {n : ℕ} (hn : n ≠ 0) {a b : EReal} (hab : a ≤ b) (hs : 0 ≤ a ∨ n % 2 ≠ 0) : rE n a ≤ rE n b := by
  by_cases ht : b = ⊤
  · rw [ht, rE_top]; exact le_top
  by_cases hb : a = ⊥
  · rw [hb, rE_bot]; exact bot_le
  have ha' : a ≠ ⊤ := by rintro rfl; exact ht (top_le_iff.mp hab)
  obtain ⟨t, he⟩ : ∃ t : ℝ, (t:EReal) = rE n a := ⟨_, EReal.coe_toReal (rE_ne_top ha') (rE_ne_bot hb)⟩
  have hs1 : (0 ≤ a ∧ 0 ≤ t) ∨ n % 2 ≠ 0 := hs.imp (fun h => ⟨h, by
    have := rE_nonneg hn h; rw [← he] at this; exact_mod_cast this⟩) id
  rw [← he, (root_le_iff hn (hs1.imp (fun h => ⟨h.1.trans hab, h.2⟩) id)).2]
  exact ((root_le_iff hn hs1).2.mp he.le).trans hab

theorem pow_toNat {p : ℤ} (hp : 0 < p) (t : ℝ) : t ^ p = t ^ p.toNat := by
  obtain ⟨n, rfl⟩ := Int.eq_ofNat_of_zero_le hp.le
  simp

theorem mem_one {c : Itv} (hc : c.Ok φ) : c.isMember (.fin 1) = true ↔ (1:ℝ) ∈ c.set := by
  unfold Itv.isMember
  rw [hc.isValid]
  simp only [FP.isInf, Bool.not_true, Bool.or_self, Bool.false_eq_true, if_false, Bool.not_false, Bool.and_true,
    Bool.and_eq_true, decide_eq_true_eq]
  rcases hc.cases with rfl | nc
  · simp [Itv.empty, FP.leb]
  · rw [leb_iff nc.lo_ne (by simp), leb_iff (by simp) nc.hi_ne, nc.mem]
    simp

/-- Reverse integer power, all cases. -/
theorem pownRevV_spec {p : ℤ} {c : Itv} (hc : c.Ok φ) (hx : x.Ok φ) :
    CutTo φ (c.pownRevV φ x p) (PowSol p c.set) x.set := by
  rcases hc.cases with rfl | nc
  · have : Itv.empty.pownRevV φ x p = Itv.empty := by simp [Itv.pownRevV]
    rw [this]; exact CutTo.empty (by ext t; simp [PowSol])
  rcases hx.cases with rfl | nx
  · have : c.pownRevV φ Itv.empty p = Itv.empty := by simp [Itv.pownRevV]
    rw [this]; exact ⟨Itv.ok_empty φ, by simp, by simp, by simp⟩
  unfold Itv.pownRevV
  simp only [hc.isValid, hx.isValid, nc.isEmpty, nx.isEmpty, Bool.not_true, Bool.or_self, Bool.false_eq_true, if_false]
  by_cases p0 : p = 0
  · rw [if_pos p0]; subst p0
    by_cases h1 : (1:ℝ) ∈ c.set
    · rw [if_pos ((mem_one hc).mpr h1)]
      have : PowSol 0 c.set = Set.univ := by ext t; simp [PowSol, h1]
      rw [this]
      exact ⟨hx, by simp, le_rfl, fun Y _ h t _ => h trivial⟩
    · rw [if_neg (fun h => h1 ((mem_one hc).mp h))]
      exact CutTo.empty (by ext t; simp [PowSol, h1])
  rw [if_neg p0]
  by_cases p1 : p = 1
  · rw [if_pos p1]; subst p1
    refine (CutTo.inter hx (S := c.set) ⟨hc, le_rfl, fun Y _ h => h⟩).of_eq ?_
    ext t; simp [PowSol]
  rw [if_neg p1]
  by_cases he : p % 2 = 0
  · rw [if_pos he]
    by_cases hp : p < 0
    · rw [if_pos hp, powSol_neg hp nc]
      by_cases hb : c.hi.toE ≤ 0
      · rw [if_pos ((NE.le0_iff nc.hi_ne).mpr hb)]
        refine CutTo.empty ?_
        rw [← negSol_even he, posSol_empty hb]; simp
      rw [if_neg (fun h => hb ((NE.le0_iff nc.hi_ne).mp h))]
      have hb := not_le.mp hb
      rw [← negSol_even he]
      by_cases ha : c.lo.toE ≤ 0
      · rw [if_pos ((NE.le0_iff nc.lo_ne).mpr ha)]
        rw [posSol_lower ha le_rfl]
        have hB := posBox hp le_rfl EReal.zero_ne_top hb.le hb
        refine revHull_cut hx hB (pownRevInf_at hp nc.hi_ne nc.hi_in (Or.inl hb)) ?_
        have := pownRevSup_at (φ := φ) hp (c := .fin 0) (by simp) φ.rep_zero (Or.inl rfl)
        simpa using this
      · rw [if_neg (fun h => ha ((NE.le0_iff nc.lo_ne).mp h))]
        have ha := not_le.mp ha
        have hB := posBox hp ha.le nc.lo_top nc.le hb
        exact revHull_cut hx hB (pownRevInf_at hp nc.hi_ne nc.hi_in (Or.inl hb))
          (pownRevSup_at hp nc.lo_ne nc.lo_in (Or.inr (Or.inl ⟨ha, nc.lo_top⟩)))
    · rw [if_neg hp]
      have hp : 0 < p := by omega
      have hn : p.toNat ≠ 0 := by omega
      have hsol : ∀ t : ℝ, t ∈ PowSol p c.set ↔ c.lo.toE ≤ ((|t| ^ p.toNat : ℝ) : EReal) ∧ ((|t| ^ p.toNat : ℝ) : EReal) ≤ c.hi.toE := by
        intro t
        simp only [PowSol, Set.mem_ofPred_eq, nc.mem, hp.le, or_true, true_and]
        rw [← zpow_abs_even he, pow_toNat hp]
      by_cases hb : c.hi.toE < 0
      · rw [if_pos ((NE.lt0_iff nc.hi_ne).mpr hb)]
        refine CutTo.empty ?_
        rw [Set.eq_empty_iff_forall_notMem]
        intro t ht
        have h0 : (0:EReal) ≤ ((|t| ^ p.toNat : ℝ) : EReal) := by
          have : (0:ℝ) ≤ |t| ^ p.toNat := by positivity
          exact_mod_cast this
        exact absurd (h0.trans ((hsol t).mp ht).2) hb.not_ge
      rw [if_neg (fun h => hb ((NE.lt0_iff nc.hi_ne).mp h))]
      have hb := not_lt.mp hb
      obtain ⟨u1, u2, u3⟩ := root_at (φ := φ) (m := .U) hn nc.hi_ne (Or.inl hb)
      have hru := rE_nonneg hn hb
      by_cases ha : c.lo.toE ≤ 0
      · rw [if_pos ((NE.le0_iff nc.lo_ne).mpr ha)]
        refine CutTo.inter hx ?_
        have hB : Box (Seg (-rE p.toNat c.hi.toE) (rE p.toNat c.hi.toE)) (-rE p.toNat c.hi.toE) (rE p.toNat c.hi.toE) :=
          box_seg ((EReal.neg_le.mpr (by simpa using hru)).trans hru) (by simpa using rE_ne_bot nc.hi_bot) (rE_ne_bot nc.hi_bot)
        refine (tightest_of_box hB (by simpa using u2) u2 (FP.neg_in u3) u3 ?_ u1).of_eq ?_
        · show (φ.root .U p.toNat c.hi).neg.toE = _
          rw [FP.toE_neg, u1, Fmt.rndE_U, Fmt.rdE_neg]
        · ext t
          rw [hsol, mem_seg, ← (root_le_iff hn (Or.inl ⟨hb, abs_nonneg t⟩)).2]
          have h0 : (0:EReal) ≤ ((|t| ^ p.toNat : ℝ) : EReal) := by
            have : (0:ℝ) ≤ |t| ^ p.toNat := by positivity
            exact_mod_cast this
          rw [and_iff_right (ha.trans h0)]
          generalize rE p.toNat c.hi.toE = U
          rw [EReal.neg_le, ← EReal.coe_neg]
          rcases abs_cases t with ⟨e, h⟩ | ⟨e, h⟩
          · rw [e]
            refine ⟨fun g => g.2, fun g => ⟨le_trans ?_ g, g⟩⟩
            exact_mod_cast (by linarith : -t ≤ t)
          · rw [e]
            refine ⟨fun g => g.1, fun g => ⟨g, le_trans ?_ g⟩⟩
            exact_mod_cast (by linarith : t ≤ -t)
      · rw [if_neg (fun h => ha ((NE.le0_iff nc.lo_ne).mp h))]
        have ha := (not_le.mp ha).le
        obtain ⟨l1, l2, l3⟩ := root_at (φ := φ) (m := .D) hn nc.lo_ne (Or.inl ha)
        have hlu := rE_mono hn nc.le (Or.inl ha)
        have hrl := rE_nonneg hn ha
        have hB : Box (Seg (rE p.toNat c.lo.toE) (rE p.toNat c.hi.toE)) (rE p.toNat c.lo.toE) (rE p.toNat c.hi.toE) :=
          box_seg hlu (rE_ne_top nc.lo_top) (rE_ne_bot nc.hi_bot)
        have t1 := tightest_of_box (R := ⟨φ.root .D p.toNat c.lo, φ.root .U p.toNat c.hi⟩) hB l2 u2 l3 u3 l1 u1
        have t2 := tightest_of_box (R := ⟨(φ.root .U p.toNat c.hi).neg, (φ.root .D p.toNat c.lo).neg⟩) (box_mirror hB)
          (by simpa using u2) (by simpa using l2) (FP.neg_in u3) (FP.neg_in l3)
          (by rw [FP.toE_neg, u1, Fmt.rndE_U, Fmt.rdE_neg]) (by rw [FP.toE_neg, l1, Fmt.rndE_D, Fmt.ruE_neg])
        refine (CutTo.hull hx (CutTo.inter hx t2) (CutTo.inter hx t1)).of_eq ?_
        ext t
        rw [hsol, ← (root_le_iff hn (Or.inl ⟨hb, abs_nonneg t⟩)).2, ← (root_le_iff hn (Or.inl ⟨ha, abs_nonneg t⟩)).1]
        simp only [Set.mem_union, Set.mem_ofPred_eq, mem_seg]
        generalize rE p.toNat c.lo.toE = L at *
        generalize rE p.toNat c.hi.toE = U at *
        rcases abs_cases t with ⟨e, h⟩ | ⟨e, h⟩
        · rw [e]
          refine ⟨fun g => ?_, fun g => Or.inr g⟩
          rcases g with g | g
          · have : (0:EReal) ≤ ((-t : ℝ) : EReal) := hrl.trans g.1
            have : 0 ≤ -t := by exact_mod_cast this
            have : t = 0 := by linarith
            subst this; simpa using g
          · exact g
        · rw [e]
          refine ⟨fun g => ?_, fun g => Or.inl g⟩
          rcases g with g | g
          · exact g
          · have : (0:EReal) ≤ (t : EReal) := hrl.trans g.1
            have : 0 ≤ t := by exact_mod_cast this
            linarith
  · rw [if_neg he]
    by_cases hp : p < 0
    · rw [if_pos hp, powSol_neg hp nc]
      simp only [NE.eq0_iff nc.lo_ne, NE.eq0_iff nc.hi_ne, NE.ge0_iff nc.lo_ne, NE.le0_iff nc.hi_ne]
      by_cases hz : c.lo.toE = 0 ∧ c.hi.toE = 0
      · rw [if_pos hz]
        refine CutTo.empty ?_
        rw [posSol_empty hz.2.le, negSol_empty_odd he hz.1.ge]; simp
      rw [if_neg hz]
      have hle := nc.le
      by_cases hs : 0 ≤ c.lo.toE ∨ c.hi.toE ≤ 0
      · rw [if_pos hs]
        refine CutTo.drop hx ?_
        by_cases h0 : 0 ≤ c.lo.toE
        · have hb : 0 < c.hi.toE := by
            refine lt_of_le_of_ne (h0.trans hle) (fun h => hz ⟨le_antisymm ?_ h0, h.symm⟩)
            rw [h]; exact hle
          rw [negSol_empty_odd he h0, Set.union_empty]
          have hB := posBox hp h0 nc.lo_top hle hb
          refine leaf_of_box hB ?_ ?_
          · rw [if_neg hb.ne']
            exact pownRevInf_at hp nc.hi_ne nc.hi_in (Or.inl hb)
          · by_cases hl : c.lo.toE = 0
            · rw [if_pos hl, hl, vE_zero]; exact RevAt.pinf φ
            · rw [if_neg hl]
              exact pownRevSup_at hp nc.lo_ne nc.lo_in (Or.inr (Or.inr ⟨he, hl, nc.lo_top⟩))
        · have hb := hs.resolve_left h0
          have ha := not_le.mp h0
          rw [posSol_empty hb, Set.empty_union]
          have hB := negBox hp he hb nc.hi_bot hle ha
          refine leaf_of_box hB ?_ ?_
          · by_cases hl : c.hi.toE = 0
            · rw [if_pos hl, hl, neg_zero, vE_zero, EReal.neg_top]; exact RevAt.ninf φ
            · rw [if_neg hl, vE_neg _ hl, neg_neg]
              exact pownRevInf_at hp nc.hi_ne nc.hi_in (Or.inr ⟨he, hl, nc.hi_bot⟩)
          · rw [if_neg ha.ne]
            exact pownRevSup_at hp nc.lo_ne nc.lo_in (Or.inr (Or.inr ⟨he, ha.ne, nc.lo_top⟩))
      · rw [if_neg hs]
        push Not at hs
        obtain ⟨ha, hb⟩ := hs
        rw [Set.union_comm, posSol_lower ha.le le_rfl, negSol_upper he hb.le le_rfl]
        refine CutTo.hull hx (CutTo.drop hx ?_) (CutTo.drop hx ?_)
        · have hB := negBox hp he le_rfl EReal.zero_ne_bot ha.le ha
          rw [neg_zero, vE_zero, EReal.neg_top] at hB
          exact leaf_of_box hB (RevAt.ninf φ) (pownRevSup_at hp nc.lo_ne nc.lo_in (Or.inr (Or.inr ⟨he, ha.ne, nc.lo_top⟩)))
        · have hB := posBox hp le_rfl EReal.zero_ne_top hb.le hb
          rw [vE_zero] at hB
          exact leaf_of_box hB (pownRevInf_at hp nc.hi_ne nc.hi_in (Or.inl hb)) (RevAt.pinf φ)
    · rw [if_neg hp]
      have hp : 0 < p := by omega
      have hn : p.toNat ≠ 0 := by omega
      have ho : p.toNat % 2 ≠ 0 := by omega
      obtain ⟨u1, u2, u3⟩ := root_at (φ := φ) (m := .U) hn nc.hi_ne (Or.inr ho)
      obtain ⟨l1, l2, l3⟩ := root_at (φ := φ) (m := .D) hn nc.lo_ne (Or.inr ho)
      have hB : Box (Seg (rE p.toNat c.lo.toE) (rE p.toNat c.hi.toE)) (rE p.toNat c.lo.toE) (rE p.toNat c.hi.toE) :=
          box_seg (rE_mono hn nc.le (Or.inr ho)) (rE_ne_top nc.lo_top) (rE_ne_bot nc.hi_bot)
      refine CutTo.inter hx ((tightest_of_box hB l2 u2 l3 u3 l1 u1).of_eq ?_)
      ext t
      simp only [PowSol, Set.mem_ofPred_eq, nc.mem, hp.le, or_true, true_and]
      rw [pow_toNat hp, mem_seg, (root_le_iff hn (Or.inr ho)).1, (root_le_iff hn (Or.inr ho)).2]

end P1788
