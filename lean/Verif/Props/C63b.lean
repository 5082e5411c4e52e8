import Verif.Props.C63
import Verif.Props.C62b

/-!
# C63: accuracy of branch and bound

When no box can be thrown away, all boxes are narrow and each has been probed, the bound is close to the minimum and so is every
value over the remaining boxes.  From every box the search can be continued until this is the case with sides of the size of the
rounding unit.
-/

namespace P1788
open Set
variable {φ : Fmt} {ι : Type} [DecidableEq ι]

/-- The value of the formula at the point `p`, as the program computes it. -/
noncomputable def probeAt (φ : Fmt) (e : Expr ι) (p : ι → FP) : DItv := e.evalD φ fun i => Itv.newDec ⟨p i, p i⟩

/-- No box can be thrown away, all sides are non-empty and of width at most `δ`, and each box has been probed at some point of it
(a probe there cannot improve the bound). -/
structure Exhausted (φ : Fmt) (e : Expr ι) (δ : ℝ) (S : MinState ι) : Prop where
  nonempty : ∀ Y ∈ S.boxes, ∀ i, (Y i).set.Nonempty
  narrow : ∀ Y ∈ S.boxes, ∀ i, ∀ s ∈ (Y i).set, ∀ s' ∈ (Y i).set, |s - s'| ≤ δ
  kept : ∀ Y ∈ S.boxes, ¬ S.ub < (e.eval φ Y).inf
  probed : ∀ Y ∈ S.boxes, ∃ p : ι → FP, (∀ i, (p i).In φ) ∧ (∀ i, (Y i).isMember (p i) = true) ∧ ¬ (probeAt φ e p).itv.sup < S.ub

theorem KnownBound.ne_nan {e : Expr ι} {X : ι → Itv} {u : FP} (h : KnownBound e X u) : u ≠ .nan := by
  rcases h with rfl | h
  · simp
  · exact h.1

theorem le_of_not_lt63 {a b : FP} (ha : a ≠ .nan) (hb : b ≠ .nan) (h : ¬ a < b) : b.toE ≤ a.toE := by
  by_contra hc
  exact h (FP.lt_iff'.mpr ⟨ha, hb, not_le.mp hc⟩)

/-- What is known about a probe. -/
theorem probe_facts [Finite ι] {e : Expr ι} {a b : ι → ℝ} (h : ∀ t, (∀ i, a i ≤ t i ∧ t i ≤ b i) → e.TameAt t) :
    ∃ K r M : ℝ, 0 ≤ K ∧ 0 < r ∧ ∀ φ : Fmt, φ.relUnit ≤ r → M ≤ φ.maxFin → ∀ (Y : ι → Itv) (p : ι → FP), (∀ i, (Y i).Ok φ) →
      (∀ i, ∀ s ∈ (Y i).set, a i ≤ s ∧ s ≤ b i) → (∀ i, (p i).In φ) → (∀ i, (Y i).isMember (p i) = true) →
      (probeAt φ e p).itv.Ok φ ∧ (probeAt φ e p).dec = .com ∧ ∃ s : ι → ℝ, (∀ i, s i ∈ (Y i).set) ∧
        ∀ v ∈ (probeAt φ e p).set, |v - e.val s| ≤ K * φ.relUnit := by
  obtain ⟨K, r₁, M₁, hr₁, N₁⟩ := C64_box e h
  obtain ⟨r₂, M₂, hr₂, N₂⟩ := C64_com_box e h
  refine ⟨max K 0, min r₁ r₂, max M₁ M₂, le_max_right _ _, lt_min hr₁ hr₂, fun φ hε hM Y p hY hab hi hp => ?_⟩
  have hP := fun i => point_ok60 (hY i) (hi i) (hp i)
  choose s hs hsm hok hset using hP
  have hok' : ∀ i, (Itv.newDec ⟨p i, p i⟩).Ok φ := fun i => newDec_ok63 (hok i)
  have hset' : ∀ i, (Itv.newDec ⟨p i, p i⟩).set = {s i} := fun i => by rw [DItv.set, newDec_itv, hset]
  have hcom : ∀ i, (Itv.newDec ⟨p i, p i⟩).dec = .com := fun i =>
    (newDec_fresh (hok i)).2.1 (by rw [hset']; exact singleton_nonempty _) (by rw [hset']; exact Bornology.isBounded_singleton)
  have hin : ∀ i, ∀ x ∈ (Itv.newDec ⟨p i, p i⟩).set, a i ≤ x ∧ x ≤ b i := fun i x hx => by
    rw [hset'] at hx; obtain rfl : x = s i := hx; exact hab i _ (hsm i)
  have h0 : ∀ i, ∀ x ∈ (Itv.newDec ⟨p i, p i⟩).set, ∀ y ∈ (Itv.newDec ⟨p i, p i⟩).set, |x - y| ≤ 0 := fun i x hx y hy => by
    rw [hset'] at hx hy; obtain rfl : x = s i := hx; obtain rfl : y = s i := hy; simp
  obtain ⟨k1, k2⟩ := N₂ φ (hε.trans (min_le_right _ _)) ((le_max_right _ _).trans hM) _ hok' hcom hin
    (fun i x hx y hy => (h0 i x hx y hy).trans hr₂.le)
  refine ⟨(evalD_ok62 e hok').1, k2, s, hsm, fun v hv => ?_⟩
  rw [DItv.set, probeAt, k1] at hv
  have := N₁ φ (hε.trans (min_le_left _ _)) ((le_max_left _ _).trans hM) _ (fun i => (hok' i).1) hin 0 le_rfl hr₁.le h0 s
    (fun i => by have := hset' i; rw [DItv.set] at this; rw [this]; rfl) v hv
  rw [zero_add] at this
  exact this.trans (mul_le_mul_of_nonneg_right (le_max_left _ _) relUnit_pos.le)

/-- The accuracy of exhausted states. -/
theorem accuracy63 [Finite ι] (e : Expr ι) {a b : ι → ℝ} (h : ∀ t, (∀ i, a i ≤ t i ∧ t i ≤ b i) → e.TameAt t) :
    ∃ K r M : ℝ, 0 < r ∧ ∀ φ : Fmt, φ.relUnit ≤ r → M ≤ φ.maxFin →
      ∀ (X : ι → Itv) (S : MinState ι) (δ : ℝ), (∀ i, ∀ s ∈ (X i).set, a i ≤ s ∧ s ≤ b i) →
        Inv63 φ e X S → 0 ≤ δ → δ ≤ r → Exhausted φ e δ S →
        ∀ t, IsMinimiser e X t → (e.val t : EReal) ≤ S.ub.toE ∧ S.ub.toE ≤ ((e.val t + K * (δ + φ.relUnit) : ℝ) : EReal) ∧
          ∀ Y ∈ S.boxes, ∀ t', (∀ i, t' i ∈ (Y i).set) → e.val t' ≤ e.val t + K * (δ + φ.relUnit) := by
  obtain ⟨K₁, r₁, M₁, hr₁, N₁⟩ := C64_box e h
  obtain ⟨K₂, r₂, M₂, hK₂, hr₂, N₂⟩ := probe_facts h
  set K := max K₁ K₂ with hKd
  have hK : 0 ≤ K := hK₂.trans (le_max_right _ _)
  refine ⟨3 * K, min r₁ r₂, max M₁ M₂, lt_min hr₁ hr₂, fun φ hε hM X S δ hab hI hδ hδr hE t hm => ?_⟩
  have hε0 := relUnit_pos (φ := φ)
  have hub := hI.upper.ne_nan
  obtain ⟨⟨Y, hY, htY, -⟩, hle⟩ := hI.sound.minimiser t hm
  have inab : ∀ Z ∈ S.boxes, ∀ i, ∀ s ∈ (Z i).set, a i ≤ s ∧ s ≤ b i := fun Z hZ i s hs => hab i s (hI.inside Z hZ i hs)
  have close : ∀ Z ∈ S.boxes, ∀ s, (∀ i, s i ∈ (Z i).set) → ∀ v ∈ (e.eval φ Z).set, |v - e.val s| ≤ K * (δ + φ.relUnit) :=
    fun Z hZ s hs v hv => (N₁ φ (hε.trans (min_le_left _ _)) ((le_max_left _ _).trans hM) Z (hI.ok Z hZ) (inab Z hZ) δ hδ
      (hδr.trans (min_le_left _ _)) (hE.narrow Z hZ) s hs v hv).trans (mul_le_mul_of_nonneg_right (le_max_left _ _) (by linarith))
  obtain ⟨p, p1, p2, p3⟩ := hE.probed Y hY
  obtain ⟨q1, -, s, hs, q2⟩ := N₂ φ (hε.trans (min_le_right _ _)) ((le_max_right _ _).trans hM) Y p (hI.ok Y hY) (inab Y hY) p1 p2
  have hv := (C18_ftia_safe_partial e Y (hI.ok Y hY) ((hI.safe Y hY).self (hI.ok Y hY))).2 t htY hm.1.2
  have c1 := close Y hY t htY _ hv
  have c2 := close Y hY s hs _ hv
  have hsup : (probeAt φ e p).itv.sup.toE ≤ ((e.val s + K * (δ + φ.relUnit) : ℝ) : EReal) := by
    refine (C27_inf_sup q1).2.1.2.2 ?_
    rintro _ ⟨v, hv, rfl⟩
    have := q2 v hv
    have h2 : K₂ * φ.relUnit ≤ K * (δ + φ.relUnit) := mul_le_mul (le_max_right _ _) (by linarith) hε0.le hK
    show (v:EReal) ≤ _
    exact_mod_cast (by linarith [(abs_le.mp this).2] : v ≤ e.val s + K * (δ + φ.relUnit))
  have h1 := (le_of_not_lt63 (C27_inf_sup q1).2.1.1 hub p3).trans hsup
  have h2 : S.ub.toE ≤ ((e.val t + 2 * K * (δ + φ.relUnit) : ℝ) : EReal) := by
    refine h1.trans ?_
    exact_mod_cast (by linarith [(abs_le.mp c2).1] : e.val s + K * (δ + φ.relUnit) ≤ e.val t + 2 * K * (δ + φ.relUnit))
  have hKn : 0 ≤ K * (δ + φ.relUnit) := by positivity
  refine ⟨hle, h2.trans (by exact_mod_cast (by linarith : e.val t + 2 * K * (δ + φ.relUnit) ≤ e.val t + 3 * K * (δ + φ.relUnit))),
    fun Z hZ t' ht' => ?_⟩
  have k1 := e.eval_ok18 (hI.ok Z hZ)
  have hinf : ((e.val t' - K * (δ + φ.relUnit) : ℝ) : EReal) ≤ (e.eval φ Z).inf.toE := by
    refine (C27_inf_sup k1).1.2.2 ?_
    rintro _ ⟨v, hv, rfl⟩
    have := close Z hZ t' ht' v hv
    show _ ≤ (v:EReal)
    exact_mod_cast (by linarith [(abs_le.mp this).1] : e.val t' - K * (δ + φ.relUnit) ≤ v)
  have h3 := (hinf.trans (le_of_not_lt63 hub (C27_inf_sup k1).1.1 (hE.kept Z hZ))).trans h2
  have h4 : e.val t' - K * (δ + φ.relUnit) ≤ e.val t + 2 * K * (δ + φ.relUnit) := by exact_mod_cast h3
  linarith

/-- **Accuracy**: if the formula is tame on a bounded box, then in every state of a search of that box or a part of it which is
exhausted with sides of at most `δ`, the bound exceeds the minimum by at most `K · (δ + 2^(1-p))`, and so do all values of the
formula over the remaining boxes.  (Full statement: without the hypothesis about the tangent; the search may throw away the
minimisers on a bad interval, `C63_false`.) -/
theorem C63_accuracy_partial [Finite ι] (e : Expr ι) {a b : ι → ℝ} (h : ∀ t, (∀ i, a i ≤ t i ∧ t i ≤ b i) → e.TameAt t) :
    ∃ K r M : ℝ, 0 < r ∧ ∀ φ : Fmt, φ.relUnit ≤ r → M ≤ φ.maxFin →
      ∀ (X : ι → Itv) (u : FP) (S : MinState ι) (δ : ℝ), e.TanSafeIn φ X → (∀ i, (X i).Ok φ) →
        (∀ i, ∀ s ∈ (X i).set, a i ≤ s ∧ s ≤ b i) →
        KnownBound e X u → MinRun φ e ⟨[X], u⟩ S → 0 ≤ δ → δ ≤ r → Exhausted φ e δ S →
        ∀ t, IsMinimiser e X t → (e.val t : EReal) ≤ S.ub.toE ∧ S.ub.toE ≤ ((e.val t + K * (δ + φ.relUnit) : ℝ) : EReal) ∧
          ∀ Y ∈ S.boxes, ∀ t', (∀ i, t' i ∈ (Y i).set) → e.val t' ≤ e.val t + K * (δ + φ.relUnit) := by
  obtain ⟨K, r, M, hr, N⟩ := accuracy63 e h
  exact ⟨K, r, M, hr, fun φ hε hM X u S δ ht hX hab hu hS => N φ hε hM X S δ hab ((Inv63.start ht hX hu).run hS)⟩

/-- A formula that is tame on a bounded box has a minimiser over it. -/
theorem minimiser_exists [Finite ι] (e : Expr ι) {X : ι → Itv} (hX : ∀ i, (X i).Ok φ) (hne : ∀ i, (X i).set.Nonempty)
    (hb : ∀ i, Bornology.IsBounded (X i).set) (h : ∀ t, (∀ i, t i ∈ (X i).set) → e.TameAt t) : ∃ t, IsMinimiser e X t := by
  have hc : IsCompact {t : ι → ℝ | ∀ i, t i ∈ (X i).set} := by
    have : ∀ i, IsCompact (X i).set := fun i => by
      rcases (hX i).cases with h | hN
      · rw [h]; simp
      · obtain ⟨c1, c2⟩ := hN.bounded_iff.mp (hb i)
        obtain ⟨l, u, -, e⟩ := common_Icc (hX i) ((NE.common_iff hN).mpr ⟨fun h => c1 (FP.toE_eq_bot.mp h), fun h => c2 (FP.toE_eq_top.mp h)⟩)
        rw [e]; exact isCompact_Icc
    have := isCompact_univ_pi this
    convert this using 1; ext t; simp
  choose t₀ ht₀ using hne
  obtain ⟨t, ht, hmin⟩ := hc.exists_isMinOn ⟨t₀, ht₀⟩ (f := e.val) fun t ht => (continuousAt_of_tame (h t ht)).continuousWithinAt
  exact ⟨t, ⟨ht, (h t ht).dom⟩, fun t' h' => hmin h'.1⟩

/-- An interval without numbers inside is narrow. -/
theorem atomic_narrow {x : Itv} (ha : Atomic φ x) {B : ℝ} (hB : ∀ s ∈ x.set, |s| ≤ B) (hM : B ≤ (φ.maxFin : ℝ)) :
    ∀ s ∈ x.set, ∀ s' ∈ x.set, |s - s'| ≤ 2 * (B + 1) * φ.relUnit := by
  have key : ∀ s ∈ x.set, ∀ s' ∈ x.set, s < s' → s' - s ≤ 2 * (B + 1) * φ.relUnit := fun s hs s' hs' hlt => by
    have h1 := φ.roundQ_D_le ((s + s') / 2)
    have h2 := roundQ_D_gt (φ := φ) ((s + s') / 2)
    have b1 := abs_le.mp (hB s hs)
    have b2 := abs_le.mp (hB s' hs')
    have h3 := unit_le_rel (φ := φ) (m := (s + s') / 2) (B := B) (abs_le.mpr ⟨by linarith, by linarith⟩)
    by_contra hc
    have h4 : s < (φ.roundQ .D ((s + s') / 2) : ℝ) := by linarith
    have h5 : (φ.roundQ .D ((s + s') / 2) : ℝ) < s' := by linarith
    refine ha _ (φ.rep_roundQ ?_) ⟨⟨s, hs, h4⟩, s', hs', h5⟩
    have : |(φ.roundQ .D ((s + s') / 2) : ℝ)| ≤ (φ.maxFin : ℝ) := abs_le.mpr ⟨by linarith, by linarith⟩
    exact_mod_cast this
  intro s hs s' hs'
  have hn : 0 ≤ 2 * (B + 1) * φ.relUnit := by
    have := (abs_nonneg s).trans (hB s hs)
    have := relUnit_pos (φ := φ)
    positivity
  rcases lt_trichotomy s s' with h | rfl | h
  · rw [abs_sub_comm, abs_of_pos (by linarith)]; exact key s hs s' hs' h
  · simpa using hn
  · rw [abs_of_pos (by linarith)]; exact key s' hs' s hs h

/-- By bisection alone every box can be cut into boxes whose sides have no number inside. -/
theorem split_all [Fintype ι] (e : Expr ι) : ∀ (n : ℕ) (Y : ι → Itv), (∀ i, (Y i).NE φ) → ∑ i, (numsIn φ (Y i)).ncard ≤ n →
    ∃ L : List (ι → Itv), (∀ l₁ l₂ u, MinRun φ e ⟨l₁ ++ Y :: l₂, u⟩ ⟨l₁ ++ L ++ l₂, u⟩) ∧
      (∀ Z ∈ L, ∀ i, (Z i).NE φ ∧ Atomic φ (Z i)) ∧ (∀ Z ∈ L, ∀ i, (Z i).set ⊆ (Y i).set) ∧
      ∀ t : ι → ℝ, (∀ i, t i ∈ (Y i).set) → ∃ Z ∈ L, ∀ i, t i ∈ (Z i).set := by
  intro n
  induction n using Nat.strong_induction_on with
  | _ n ih =>
    intro Y hY hn
    by_cases hA : ∀ i, Atomic φ (Y i)
    · exact ⟨[Y], fun l₁ l₂ u => by simp only [List.append_assoc, List.singleton_append]; exact .refl, fun Z hZ i => by
        obtain rfl : Z = Y := by simpa using hZ
        exact ⟨hY i, hA i⟩, fun Z hZ i => by
        obtain rfl : Z = Y := by simpa using hZ
        exact subset_rfl, fun t ht => ⟨Y, by simp, ht⟩⟩
    · push Not at hA
      obtain ⟨i, hi⟩ := hA
      obtain ⟨q, -, hq, -, ⟨a, ha, hane, has⟩, ⟨b, hb, hbne, hbs⟩, -⟩ := halves (hY i)
      obtain ⟨⟨r, hr, hrq⟩, r', hr', hqr⟩ := mid_inside (hY i) hi hq
      have sub : ∀ v : Itv, v.NE φ → v.set ⊆ (Y i).set → v.set ≠ (Y i).set →
          (∀ j, (Function.update Y i v j).NE φ) ∧ ∑ j, (numsIn φ (Function.update Y i v j)).ncard < n := fun v h1 h2 h3 => by
        refine ⟨fun j => ?_, lt_of_lt_of_le (Finset.sum_lt_sum (fun j _ => ?_) ⟨i, Finset.mem_univ _, ?_⟩) hn⟩
        · by_cases hj : j = i
          · subst hj; rwa [Function.update_self]
          · rw [Function.update_of_ne hj]; exact hY j
        · by_cases hj : j = i
          · subst hj; rw [Function.update_self]; exact (numsIn_lt h1 (hY j) h2 h3).le
          · rw [Function.update_of_ne hj]
        · rw [Function.update_self]; exact numsIn_lt h1 (hY i) h2 h3
      obtain ⟨a1, a2⟩ := sub a hane (by rw [has]; exact inter_subset_left) fun h => by
        rw [← h, has] at hr'; exact absurd hr'.2 (not_le.mpr hqr)
      obtain ⟨b1, b2⟩ := sub b hbne (by rw [hbs]; exact inter_subset_left) fun h => by
        rw [← h, hbs] at hr; exact absurd hr.2 (not_le.mpr hrq)
      obtain ⟨L, L1, L2, L3, L4⟩ := ih _ a2 _ a1 le_rfl
      obtain ⟨R, R1, R2, R3, R4⟩ := ih _ b2 _ b1 le_rfl
      have upd : ∀ (v : Itv) (P : ι → Itv → Prop), P i v → (∀ j, P j (Y j)) → ∀ j, P j (Function.update Y i v j) := by
        intro v P h1 h2 j
        by_cases hj : j = i
        · subst hj; rwa [Function.update_self]
        · rw [Function.update_of_ne hj]; exact h2 j
      refine ⟨L ++ R, fun l₁ l₂ u => ?_, fun Z hZ => ?_, fun Z hZ j => ?_, fun t ht => ?_⟩
      · have s1 : MinRun φ e ⟨l₁ ++ Y :: l₂, u⟩ _ := .single (.split (i := i) ha hb)
        have s2 := L1 l₁ (Function.update Y i b :: l₂) u
        have s3 := R1 (l₁ ++ L) l₂ u
        have s4 : MinRun φ e _ _ := s1.trans (s2.trans s3)
        simpa using s4
      · rcases List.mem_append.mp hZ with h | h
        · exact L2 Z h
        · exact R2 Z h
      · rcases List.mem_append.mp hZ with h | h
        · exact (L3 Z h j).trans (upd a (fun j v => v.set ⊆ (Y j).set) (by rw [has]; exact inter_subset_left) (fun _ => subset_rfl) j)
        · exact (R3 Z h j).trans (upd b (fun j v => v.set ⊆ (Y j).set) (by rw [hbs]; exact inter_subset_left) (fun _ => subset_rfl) j)
      · rcases le_total (t i) q with hq | hq
        · obtain ⟨Z, h1, h2⟩ := L4 t (upd a (fun j v => t j ∈ v.set) (by rw [has]; exact ⟨ht i, hq⟩) ht)
          exact ⟨Z, List.mem_append_left _ h1, h2⟩
        · obtain ⟨Z, h1, h2⟩ := R4 t (upd b (fun j v => t j ∈ v.set) (by rw [hbs]; exact ⟨ht i, hq⟩) ht)
          exact ⟨Z, List.mem_append_right _ h1, h2⟩

theorem lt_trans63 {a b c : FP} (h1 : a < b) (h2 : b < c) : a < c := by
  have h1 := FP.lt_iff'.mp h1
  have h2 := FP.lt_iff'.mp h2
  exact FP.lt_iff'.mpr ⟨h1.1, h2.2.1, h1.2.2.trans h2.2.2⟩

/-- All boxes can be probed, at any points at which the result is decorated `com`. -/
theorem probe_all {e : Expr ι} {l : List (ι → Itv)} (p : (ι → Itv) → ι → FP)
    (hp : ∀ Y ∈ l, (∀ i, (p Y i).In φ) ∧ (∀ i, (Y i).isMember (p Y i) = true) ∧ .defd ≤ (probeAt φ e (p Y)).dec) (u : FP) :
    ∀ l' : List (ι → Itv), l' ⊆ l → ∃ u', MinRun φ e ⟨l, u⟩ ⟨l, u'⟩ ∧ ∀ Y ∈ l', ¬ (probeAt φ e (p Y)).itv.sup < u' := by
  intro l'
  induction l' with
  | nil => exact fun _ => ⟨u, .refl, by simp⟩
  | cons Z l' ih =>
    intro hl
    obtain ⟨u', h1, h2⟩ := ih fun _ h => hl (List.mem_cons_of_mem _ h)
    have hZ : Z ∈ l := hl List.mem_cons_self
    by_cases hc : (probeAt φ e (p Z)).itv.sup < u'
    · obtain ⟨p1, p2, p3⟩ := hp Z hZ
      refine ⟨_, h1.tail (.probe hZ p1 p2 p3 hc), fun Y hY hlt => ?_⟩
      rcases List.mem_cons.mp hY with rfl | hY
      · exact lt_irrefl _ (FP.lt_iff'.mp hlt).2.2
      · exact h2 Y hY (lt_trans63 hlt hc)
    · exact ⟨u', h1, fun Y hY => (List.mem_cons.mp hY).elim (fun h => h ▸ hc) (h2 Y)⟩

/-- All boxes above the bound can be thrown away. -/
theorem drop_all (e : Expr ι) (u : FP) : ∀ l : List (ι → Itv), ∃ l', l' ⊆ l ∧ (∀ l₁, MinRun φ e ⟨l₁ ++ l, u⟩ ⟨l₁ ++ l', u⟩) ∧
    ∀ Y ∈ l', ¬ u < (e.eval φ Y).inf := by
  intro l
  induction l with
  | nil => exact ⟨[], by simp, fun _ => .refl, by simp⟩
  | cons Z l ih =>
    obtain ⟨l', h1, h2, h3⟩ := ih
    by_cases hc : u < (e.eval φ Z).inf
    · exact ⟨l', List.Subset.trans h1 (List.subset_cons_self _ _), fun l₁ => (Relation.ReflTransGen.single (.drop hc)).trans (h2 l₁), h3⟩
    · exact ⟨Z :: l', List.cons_subset_cons _ h1, fun l₁ => by simpa using h2 (l₁ ++ [Z]),
        fun Y hY => (List.mem_cons.mp hY).elim (fun h => h ▸ hc) (h3 Y)⟩

theorem reach63 [Finite ι] (e : Expr ι) {a b : ι → ℝ} (h : ∀ t, (∀ i, a i ≤ t i ∧ t i ≤ b i) → e.TameAt t) :
    ∃ C r M : ℝ, 0 ≤ C ∧ 0 < r ∧ ∀ φ : Fmt, φ.relUnit ≤ r → M ≤ φ.maxFin →
      ∀ (X : ι → Itv) (u : FP), (∀ i, (X i).Ok φ) → (∀ i, (X i).set.Nonempty) → (∀ i, ∀ s ∈ (X i).set, a i ≤ s ∧ s ≤ b i) →
        KnownBound e X u → ∃ S, MinRun φ e ⟨[X], u⟩ S ∧ Inv63 φ e X S ∧ Exhausted φ e (C * φ.relUnit) S := by
  cases nonempty_fintype ι
  obtain ⟨r₀, M₀, hr₀, N₀⟩ := C64_tan_narrow e h
  obtain ⟨K, r, M, -, hr, N⟩ := probe_facts h
  set B := ∑ i, (|a i| + |b i|) with hBd
  have hB : ∀ i, |a i| + |b i| ≤ B := fun i =>
    Finset.single_le_sum (f := fun i => |a i| + |b i|) (fun _ _ => by positivity) (Finset.mem_univ i)
  have hB0 : 0 ≤ B := Finset.sum_nonneg fun _ _ => by positivity
  have hq : 0 < min r₀ (r₀ / (2 * (B + 1))) := lt_min hr₀ (by positivity)
  refine ⟨2 * (B + 1), min r (min r₀ (r₀ / (2 * (B + 1)))), max M₀ (max M B), by positivity, lt_min hr hq,
    fun φ hε₀ hM₀ X u hX hne hab hu => ?_⟩
  have hε := hε₀.trans (min_le_left _ _)
  have hM := (le_max_right _ _).trans hM₀
  have hXN : ∀ i, (X i).NE φ := fun i => (hX i).cases.resolve_left fun h => by
    have := hne i; rw [h] at this; obtain ⟨s, hs⟩ := this; simp at hs
  obtain ⟨L, L1, L2, L3, L4⟩ := split_all e _ X hXN le_rfl
  have run1 : MinRun φ e ⟨[X], u⟩ ⟨L, u⟩ := by simpa using L1 [] [] u
  have inab : ∀ Y ∈ L, ∀ i, ∀ s ∈ (Y i).set, a i ≤ s ∧ s ≤ b i := fun Y hY i s hs =>
    hab i s (L3 Y hY i hs)
  have thin : ∀ Y ∈ L, ∀ i, ∀ s ∈ (Y i).set, ∀ s' ∈ (Y i).set, |s - s'| ≤ 2 * (B + 1) * φ.relUnit := fun Y hY i => by
    refine atomic_narrow (L2 Y hY i).2 (fun s hs => ?_) ((le_max_right _ _).trans hM)
    obtain ⟨h1, h2⟩ := inab Y hY i s hs
    have := hB i
    exact abs_le.mpr ⟨by linarith [neg_abs_le (a i), abs_nonneg (b i)], by linarith [le_abs_self (b i), abs_nonneg (a i)]⟩
  have hI : Inv63 φ e X ⟨L, u⟩ := by
    refine ⟨fun Y hY i => (L2 Y hY i).1.ok, L3, hu, fun Y hY => ?_, fun t hf => Or.inl (L4 t hf.1)⟩
    refine Expr.TanNarrow.safeIn (N₀ φ (hε₀.trans ((min_le_right _ _).trans (min_le_left _ _))) ((le_max_left _ _).trans hM₀) Y
      (fun i => (L2 Y hY i).1.ok) (fun i => (L2 Y hY i).1.nonempty) (inab Y hY) fun i s hs s' hs' => ?_) fun i => (L2 Y hY i).1.ok
    refine (thin Y hY i s hs s' hs').trans ?_
    have := hε₀.trans ((min_le_right _ _).trans (min_le_right _ _))
    rw [le_div_iff₀ (by positivity)] at this
    linarith
  have hp : ∀ Y ∈ L, (∀ i, ((Y i).mid φ).In φ) ∧ (∀ i, (Y i).isMember ((Y i).mid φ) = true) ∧
      .defd ≤ (probeAt φ e fun i => (Y i).mid φ).dec := fun Y hY => by
    have hm : ∀ i, ((Y i).mid φ).In φ ∧ (Y i).isMember ((Y i).mid φ) = true := fun i => by
      obtain ⟨q, h1, h2, h3, -⟩ := halves (L2 Y hY i).1
      rw [h2]
      exact ⟨h1, (C24_is_member (L2 Y hY i).1.ok _).mpr ⟨q, Or.inr ⟨q, rfl, rfl⟩, h3⟩⟩
    have := (N φ hε ((le_max_left _ _).trans hM) Y (fun i => (Y i).mid φ) (fun i => (L2 Y hY i).1.ok) (inab Y hY)
      (fun i => (hm i).1) fun i => (hm i).2).2.1
    exact ⟨fun i => (hm i).1, fun i => (hm i).2, by rw [this]; decide⟩
  obtain ⟨u', run2, hu'⟩ := probe_all (fun Y i => (Y i).mid φ) hp u L (List.Subset.refl _)
  obtain ⟨L', hL', run3, hd⟩ := drop_all (φ := φ) e u' L
  have run4 := run2.trans (run3 [])
  refine ⟨⟨L', u'⟩, run1.trans run4, hI.run run4, fun Y hY i => (L2 Y (hL' hY) i).1.nonempty,
    fun Y hY => thin Y (hL' hY), hd, fun Y hY => ⟨_, (hp Y (hL' hY)).1, (hp Y (hL' hY)).2.1, hu' Y (hL' hY)⟩⟩

/-- **The search can always be completed**: if the formula is tame on a bounded box, then from every non-empty box in it and every
valid bound some sequence of steps leads to a state which is exhausted with sides of at most `C · 2^(1-p)`, and in which no minimiser
is lost.  (Also for `double` and formulas with the tangent: the boxes are bisected until they are small enough.) -/
theorem C63_reach [Finite ι] (e : Expr ι) {a b : ι → ℝ} (h : ∀ t, (∀ i, a i ≤ t i ∧ t i ≤ b i) → e.TameAt t) :
    ∃ C r M : ℝ, 0 ≤ C ∧ 0 < r ∧ ∀ φ : Fmt, φ.relUnit ≤ r → M ≤ φ.maxFin →
      ∀ (X : ι → Itv) (u : FP), (∀ i, (X i).Ok φ) → (∀ i, (X i).set.Nonempty) → (∀ i, ∀ s ∈ (X i).set, a i ≤ s ∧ s ≤ b i) →
        KnownBound e X u → ∃ S, MinRun φ e ⟨[X], u⟩ S ∧ SearchSound φ e X S ∧ Exhausted φ e (C * φ.relUnit) S := by
  obtain ⟨C, r, M, hC, hr, N⟩ := reach63 e h
  refine ⟨C, r, M, hC, hr, fun φ hε hM X u hX hne hab hu => ?_⟩
  obtain ⟨S, h1, h2, h3⟩ := N φ hε hM X u hX hne hab hu
  exact ⟨S, h1, h2.sound, h3⟩

/-- **The minimum is reached up to a multiple of the rounding unit**: some sequence of steps encloses the minimum by the bound
from above and, up to `K · 2^(1-p)`, from below; all values over the remaining boxes are that close to it, and every minimiser is
in one of them. -/
theorem C63_any_accuracy [Finite ι] (e : Expr ι) {a b : ι → ℝ} (h : ∀ t, (∀ i, a i ≤ t i ∧ t i ≤ b i) → e.TameAt t) :
    ∃ K r M : ℝ, 0 < r ∧ ∀ φ : Fmt, φ.relUnit ≤ r → M ≤ φ.maxFin →
      ∀ (X : ι → Itv) (u : FP), (∀ i, (X i).Ok φ) → (∀ i, (X i).set.Nonempty) → (∀ i, ∀ s ∈ (X i).set, a i ≤ s ∧ s ≤ b i) →
        KnownBound e X u → ∃ S, MinRun φ e ⟨[X], u⟩ S ∧ (∃ t, IsMinimiser e X t) ∧ ∀ t, IsMinimiser e X t →
          (∃ Y ∈ S.boxes, ∀ i, t i ∈ (Y i).set) ∧
          (e.val t : EReal) ≤ S.ub.toE ∧ S.ub.toE ≤ ((e.val t + K * φ.relUnit : ℝ) : EReal) ∧
          ∀ Y ∈ S.boxes, ∀ t', (∀ i, t' i ∈ (Y i).set) → e.val t' ≤ e.val t + K * φ.relUnit := by
  obtain ⟨K, r₁, M₁, hr₁, N₁⟩ := accuracy63 e h
  obtain ⟨C, r₂, M₂, hC, hr₂, N₂⟩ := reach63 e h
  refine ⟨K * (C + 1), min (min r₁ r₂) (r₁ / (C + 1)), max M₁ M₂, lt_min (lt_min hr₁ hr₂) (by positivity),
    fun φ hε hM X u hX hne hab hu => ?_⟩
  have hε0 := relUnit_pos (φ := φ)
  obtain ⟨S, S1, hI, S2⟩ := N₂ φ (hε.trans ((min_le_left _ _).trans (min_le_right _ _))) ((le_max_right _ _).trans hM) X u hX hne hab hu
  have hCr : C * φ.relUnit ≤ r₁ := by
    have := (le_div_iff₀ (by positivity)).mp (hε.trans (min_le_right _ _))
    nlinarith
  have hm : ∃ t, IsMinimiser e X t := minimiser_exists e hX hne
    (fun i => (Metric.isBounded_Icc (a i) (b i)).subset fun s hs => hab i s hs) fun t ht' => h t fun i => hab i _ (ht' i)
  refine ⟨S, S1, hm, fun t htm => ?_⟩
  obtain ⟨h1, h2, h3⟩ := N₁ φ (hε.trans ((min_le_left _ _).trans (min_le_left _ _))) ((le_max_left _ _).trans hM) X S
    (C * φ.relUnit) hab hI (by positivity) hCr S2 t htm
  obtain ⟨⟨Y, hY, hk, -⟩, -⟩ := hI.sound.minimiser t htm
  have e1 : K * (C * φ.relUnit + φ.relUnit) = K * (C + 1) * φ.relUnit := by ring
  rw [e1] at h2 h3
  exact ⟨⟨Y, hY, hk⟩, h1, h2, h3⟩

/-- Non-vacuity: a formula in two variables, tame everywhere. -/
example : ∀ t : Bool → ℝ, (∀ i, (-1:ℝ) ≤ t i ∧ t i ≤ 2) →
    (Expr.bin .add (.un .sqr (.var true)) (.un .exp (.bin .mul (.var true) (.var false)))).TameAt t :=
  fun _ _ => ⟨⟨trivial, trivial⟩, ⟨⟨trivial, trivial, trivial⟩, trivial⟩, trivial⟩

/-- Non-vacuity: `x²` on the point box `[0, 0]` after a probe at `0` is exhausted with `δ = 0`. -/
example : Exhausted binary64 (.un .sqr (.var ())) 0 ⟨[fun _ : Unit => ⟨.fin 0, .fin 0⟩], .fin 0⟩ := by
  have hN : (Itv.mk (.fin 0) (.fin 0)).NE binary64 := (Itv.ok_of_okb (by decide +kernel)).cases.resolve_left (by decide)
  have h0 : ∀ s : ℝ, s ∈ (Itv.mk (.fin 0) (.fin 0)).set ↔ s = 0 := fun s => by
    rw [hN.mem]; simp [le_antisymm_iff, and_comm]
  refine ⟨?_, ?_, ?_, ?_⟩ <;> simp only [List.mem_singleton] <;> rintro _ rfl
  · exact fun _ => hN.nonempty
  · intro _ s hs s' hs'
    rw [(h0 s).mp hs, (h0 s').mp hs']; simp
  · simp only [Expr.eval, Op1.bare]; decide +kernel
  · refine ⟨fun _ => .fin 0, fun _ => binary64.rep_zero, fun _ => (isMember_zero hN.ok).mpr ((h0 0).mpr rfl), ?_⟩
    simp only [probeAt, Expr.evalD, Op1.decd]; decide +kernel

end P1788
