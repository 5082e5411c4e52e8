import Verif.Lemmas.Mpfr
import Mathlib.Topology.Instances.EReal.Lemmas

/-! Helper lemmas: infima and suprema of ranges in the extended reals. -/

namespace P1788
open Filter Topology

/-- Infimum and supremum of a non-empty set of reals. -/
structure Box (S : Set ℝ) (a b : EReal) : Prop where
  ne : S.Nonempty
  glb : IsGLB (eimg S) a
  lub : IsLUB (eimg S) b

namespace Box
variable {S T : Set ℝ} {a b c d : EReal}

theorem le (h : Box S a b) {s : ℝ} (hs : s ∈ S) : a ≤ s := h.glb.1 ⟨s, hs, rfl⟩
theorem ge (h : Box S a b) {s : ℝ} (hs : s ∈ S) : (s:EReal) ≤ b := h.lub.1 ⟨s, hs, rfl⟩
theorem le_glb (h : Box S a b) {t : EReal} (ht : ∀ s ∈ S, t ≤ (s:EReal)) : t ≤ a :=
  h.glb.2 (by rintro _ ⟨s, hs, rfl⟩; exact ht s hs)
theorem lub_le (h : Box S a b) {t : EReal} (ht : ∀ s ∈ S, (s:EReal) ≤ t) : b ≤ t :=
  h.lub.2 (by rintro _ ⟨s, hs, rfl⟩; exact ht s hs)
theorem ne_top (h : Box S a b) : a ≠ ⊤ := by
  obtain ⟨s, hs⟩ := h.ne
  exact ne_top_of_le_ne_top (EReal.coe_ne_top s) (h.le hs)
theorem ne_bot (h : Box S a b) : b ≠ ⊥ := by
  obtain ⟨s, hs⟩ := h.ne
  exact ne_bot_of_le_ne_bot (EReal.coe_ne_bot s) (h.ge hs)
theorem a_le_b (h : Box S a b) : a ≤ b := by
  obtain ⟨s, hs⟩ := h.ne
  exact (h.le hs).trans (h.ge hs)

theorem mk' (hne : S.Nonempty) (h1 : ∀ s ∈ S, a ≤ (s:EReal)) (h2 : ∀ t : EReal, (∀ s ∈ S, t ≤ (s:EReal)) → t ≤ a)
    (h3 : ∀ s ∈ S, (s:EReal) ≤ b) (h4 : ∀ t : EReal, (∀ s ∈ S, (s:EReal) ≤ t) → b ≤ t) : Box S a b :=
  ⟨hne, ⟨by rintro _ ⟨s, hs, rfl⟩; exact h1 s hs, fun t ht => h2 t (fun s hs => ht ⟨s, hs, rfl⟩)⟩,
   ⟨by rintro _ ⟨s, hs, rfl⟩; exact h3 s hs, fun t ht => h4 t (fun s hs => ht ⟨s, hs, rfl⟩)⟩⟩

/-- The set of opposites. -/
theorem neg (h : Box S a b) : Box ((fun s => -s) '' S) (-b) (-a) := by
  obtain ⟨s0, hs0⟩ := h.ne
  refine mk' ⟨-s0, s0, hs0, rfl⟩ ?_ ?_ ?_ ?_
  · rintro _ ⟨s, hs, rfl⟩
    simpa using h.ge hs
  · intro t ht
    rw [EReal.le_neg]
    apply h.lub_le
    intro s hs
    have := ht (-s) ⟨s, hs, rfl⟩
    rw [EReal.coe_neg] at this
    exact EReal.le_neg_of_le_neg this
  · rintro _ ⟨s, hs, rfl⟩
    simpa using h.le hs
  · intro t ht
    rw [EReal.neg_le]
    apply h.le_glb
    intro s hs
    have := ht (-s) ⟨s, hs, rfl⟩
    rw [EReal.coe_neg] at this
    exact EReal.neg_le.mp this

end Box

theorem EReal_mul_le_left {e u v : EReal} (he : 0 ≤ e) (h : u ≤ v) : e * u ≤ e * v :=
  mul_le_mul_of_nonneg_left h he

theorem EReal_mul_ge_left {e u v : EReal} (he : e ≤ 0) (h : u ≤ v) : e * v ≤ e * u := by
  have h1 : 0 ≤ -e := by rwa [EReal.le_neg, neg_zero]
  have h2 := EReal_mul_le_left h1 h
  rwa [EReal.neg_mul, EReal.neg_mul, EReal.neg_le_neg_iff] at h2

theorem EReal_mul_le_right {e u v : EReal} (he : 0 ≤ e) (h : u ≤ v) : u * e ≤ v * e := by
  rw [mul_comm u, mul_comm v]; exact EReal_mul_le_left he h

theorem EReal_mul_ge_right {e u v : EReal} (he : e ≤ 0) (h : u ≤ v) : v * e ≤ u * e := by
  rw [mul_comm u, mul_comm v]; exact EReal_mul_ge_left he h

namespace Box
variable {S T : Set ℝ} {a b c d : EReal}

/-- A lower bound of `e * S` is below `e * inf S` (unless this is `∞ * 0` with `0` not in `S`). -/
theorem lin_glb (h : Box S a b) {e t : EReal} (hc : a = 0 → (e ≠ ⊤ ∧ e ≠ ⊥) ∨ (0:ℝ) ∈ S)
    (ht : ∀ s ∈ S, t ≤ e * (s:EReal)) : t ≤ e * a := by
  obtain ⟨s0, hs0⟩ := h.ne
  rcases lt_trichotomy e 0 with he | he | he
  · exact (ht s0 hs0).trans (EReal_mul_ge_left he.le (h.le hs0))
  · have := ht s0 hs0
    rw [he] at this ⊢
    simpa using this
  · induction e with
    | bot => exact absurd he (by simp)
    | top =>
      rcases lt_trichotomy a 0 with ha | ha | ha
      · obtain ⟨s, hs, hs'⟩ : ∃ s ∈ S, (s:EReal) < 0 := by
          by_contra hcon
          push Not at hcon
          exact absurd (h.le_glb hcon) (not_le.mpr ha)
        have h1 := ht s hs
        rw [EReal.top_mul_of_neg hs'] at h1
        rw [le_bot_iff.mp h1]; exact bot_le
      · rcases hc ha with h1 | h1
        · exact absurd rfl h1.1
        · have := ht 0 h1
          rw [ha]; simpa using this
      · rw [EReal.top_mul_of_pos ha]; exact le_top
    | coe e =>
      have he' : (0:ℝ) < e := by exact_mod_cast he
      have key : ∀ s ∈ S, ((e⁻¹:ℝ):EReal) * t ≤ (s:EReal) := by
        intro s hs
        have h1 := EReal_mul_le_left (e := ((e⁻¹:ℝ):EReal)) (by exact_mod_cast (inv_pos.mpr he').le) (ht s hs)
        rwa [← EReal.coe_mul, ← EReal.coe_mul, ← mul_assoc, inv_mul_cancel₀ he'.ne', one_mul] at h1
      have h2 := h.le_glb key
      have h3 := EReal_mul_le_left (e := (e:EReal)) he.le h2
      rwa [← mul_assoc, ← EReal.coe_mul, mul_inv_cancel₀ he'.ne', EReal.coe_one, one_mul] at h3

/-- A lower bound of `e * S` is below `e * sup S`. -/
theorem lin_lub (h : Box S a b) {e t : EReal} (hc : b = 0 → (e ≠ ⊤ ∧ e ≠ ⊥) ∨ (0:ℝ) ∈ S)
    (ht : ∀ s ∈ S, t ≤ e * (s:EReal)) : t ≤ e * b := by
  have := h.neg.lin_glb (e := -e) (t := t) ?_ ?_
  · rwa [EReal.neg_mul, mul_neg, neg_neg] at this
  · intro hb
    have hb' : b = 0 := by rwa [EReal.neg_eq_zero_iff] at hb
    rcases hc hb' with h1 | h1
    · left
      constructor
      · rw [Ne, EReal.neg_eq_top_iff]; exact h1.2
      · rw [Ne, EReal.neg_eq_bot_iff]; exact h1.1
    · right; exact ⟨0, h1, by simp⟩
  · rintro _ ⟨s, hs, rfl⟩
    rw [EReal.coe_neg, EReal.neg_mul, mul_neg, neg_neg]
    exact ht s hs

/-- Upper-bound versions. -/
theorem lin_glb' (h : Box S a b) {e t : EReal} (hc : a = 0 → (e ≠ ⊤ ∧ e ≠ ⊥) ∨ (0:ℝ) ∈ S)
    (ht : ∀ s ∈ S, e * (s:EReal) ≤ t) : e * a ≤ t := by
  have := h.lin_glb (e := -e) (t := -t) ?_ ?_
  · rwa [EReal.neg_mul, EReal.neg_le_neg_iff] at this
  · intro ha
    rcases hc ha with h1 | h1
    · left
      constructor
      · rw [Ne, EReal.neg_eq_top_iff]; exact h1.2
      · rw [Ne, EReal.neg_eq_bot_iff]; exact h1.1
    · exact Or.inr h1
  · intro s hs
    rw [EReal.neg_mul, EReal.neg_le_neg_iff]; exact ht s hs

theorem lin_lub' (h : Box S a b) {e t : EReal} (hc : b = 0 → (e ≠ ⊤ ∧ e ≠ ⊥) ∨ (0:ℝ) ∈ S)
    (ht : ∀ s ∈ S, e * (s:EReal) ≤ t) : e * b ≤ t := by
  have := h.lin_lub (e := -e) (t := -t) ?_ ?_
  · rwa [EReal.neg_mul, EReal.neg_le_neg_iff] at this
  · intro ha
    rcases hc ha with h1 | h1
    · left
      constructor
      · rw [Ne, EReal.neg_eq_top_iff]; exact h1.2
      · rw [Ne, EReal.neg_eq_bot_iff]; exact h1.1
    · exact Or.inr h1
  · intro s hs
    rw [EReal.neg_mul, EReal.neg_le_neg_iff]; exact ht s hs

/-- Sums: infimum and supremum add up. -/
theorem add (h : Box S a b) (h' : Box T c d) :
    Box {z | ∃ x ∈ S, ∃ y ∈ T, z = x + y} (a + c) (b + d) := by
  obtain ⟨s0, hs0⟩ := h.ne
  obtain ⟨t0, ht0⟩ := h'.ne
  have key : ∀ {S T : Set ℝ} {a b c d : EReal} (h : Box S a b) (h' : Box T c d) (t : EReal),
      (∀ s ∈ {z | ∃ x ∈ S, ∃ y ∈ T, z = x + y}, t ≤ (s:EReal)) → t ≤ a + c := by
    intro S T a b c d h h' t ht
    have h1 : ∀ y ∈ T, t ≤ a + (y:EReal) := by
      intro y hy
      have : ∀ x ∈ S, t - (y:EReal) ≤ (x:EReal) := by
        intro x hx
        rw [EReal.sub_le_iff_le_add (Or.inl (EReal.coe_ne_bot y)) (Or.inl (EReal.coe_ne_top y)), ← EReal.coe_add]
        exact ht _ ⟨x, hx, y, hy, rfl⟩
      have := h.le_glb this
      rwa [EReal.sub_le_iff_le_add (Or.inl (EReal.coe_ne_bot y)) (Or.inl (EReal.coe_ne_top y))] at this
    have hatop := h.ne_top
    obtain ⟨y0, hy0⟩ := h'.ne
    induction a with
    | bot => simpa using h1 y0 hy0
    | top => exact absurd rfl hatop
    | coe a =>
      have : ∀ y ∈ T, t - (a:EReal) ≤ (y:EReal) := by
        intro y hy
        rw [EReal.sub_le_iff_le_add (Or.inl (EReal.coe_ne_bot a)) (Or.inl (EReal.coe_ne_top a)), add_comm]
        exact h1 y hy
      have := h'.le_glb this
      rwa [EReal.sub_le_iff_le_add (Or.inl (EReal.coe_ne_bot a)) (Or.inl (EReal.coe_ne_top a)), add_comm] at this
  refine mk' ⟨s0 + t0, s0, hs0, t0, ht0, rfl⟩ ?_ (key h h') ?_ ?_
  · rintro _ ⟨x, hx, y, hy, rfl⟩
    rw [EReal.coe_add]; exact add_le_add (h.le hx) (h'.le hy)
  · rintro _ ⟨x, hx, y, hy, rfl⟩
    rw [EReal.coe_add]; exact add_le_add (h.ge hx) (h'.ge hy)
  · intro t ht
    have := key h.neg h'.neg (-t) ?_
    · rw [← EReal.neg_le_neg_iff]
      refine this.trans (le_of_eq ?_)
      rw [EReal.neg_add (Or.inl h.ne_bot) (Or.inr h'.ne_bot), sub_eq_add_neg]
    · rintro _ ⟨_, ⟨x, hx, rfl⟩, _, ⟨y, hy, rfl⟩, rfl⟩
      rw [← neg_add, EReal.coe_neg, EReal.neg_le_neg_iff]
      exact ht _ ⟨x, hx, y, hy, rfl⟩

/-- Every lower bound of the set of products is below each product of bounds. -/
theorem corner_lower (h : Box S a b) (h' : Box T c d)
    (ha : a = 0 → (0:ℝ) ∈ S) (hb : b = 0 → (0:ℝ) ∈ S)
    {t : EReal} (ht : ∀ x ∈ S, ∀ y ∈ T, t ≤ ((x * y : ℝ):EReal)) :
    ((c = 0 → (a ≠ ⊤ ∧ a ≠ ⊥) ∨ (0:ℝ) ∈ T) → t ≤ a * c) ∧
    ((d = 0 → (a ≠ ⊤ ∧ a ≠ ⊥) ∨ (0:ℝ) ∈ T) → t ≤ a * d) ∧
    ((c = 0 → (b ≠ ⊤ ∧ b ≠ ⊥) ∨ (0:ℝ) ∈ T) → t ≤ b * c) ∧
    ((d = 0 → (b ≠ ⊤ ∧ b ≠ ⊥) ∨ (0:ℝ) ∈ T) → t ≤ b * d) := by
  have h1 : ∀ y ∈ T, t ≤ a * (y:EReal) := by
    intro y hy
    rw [mul_comm]
    apply h.lin_glb (fun h0 => Or.inr (ha h0))
    intro x hx
    rw [mul_comm, ← EReal.coe_mul]; exact ht x hx y hy
  have h2 : ∀ y ∈ T, t ≤ b * (y:EReal) := by
    intro y hy
    rw [mul_comm]
    apply h.lin_lub (fun h0 => Or.inr (hb h0))
    intro x hx
    rw [mul_comm, ← EReal.coe_mul]; exact ht x hx y hy
  exact ⟨fun hc => h'.lin_glb hc h1, fun hc => h'.lin_lub hc h1,
    fun hc => h'.lin_glb hc h2, fun hc => h'.lin_lub hc h2⟩

theorem corner_upper (h : Box S a b) (h' : Box T c d)
    (ha : a = 0 → (0:ℝ) ∈ S) (hb : b = 0 → (0:ℝ) ∈ S)
    {t : EReal} (ht : ∀ x ∈ S, ∀ y ∈ T, ((x * y : ℝ):EReal) ≤ t) :
    ((c = 0 → (a ≠ ⊤ ∧ a ≠ ⊥) ∨ (0:ℝ) ∈ T) → a * c ≤ t) ∧
    ((d = 0 → (a ≠ ⊤ ∧ a ≠ ⊥) ∨ (0:ℝ) ∈ T) → a * d ≤ t) ∧
    ((c = 0 → (b ≠ ⊤ ∧ b ≠ ⊥) ∨ (0:ℝ) ∈ T) → b * c ≤ t) ∧
    ((d = 0 → (b ≠ ⊤ ∧ b ≠ ⊥) ∨ (0:ℝ) ∈ T) → b * d ≤ t) := by
  have h1 : ∀ y ∈ T, a * (y:EReal) ≤ t := by
    intro y hy
    rw [mul_comm]
    apply h.lin_glb' (fun h0 => Or.inr (ha h0))
    intro x hx
    rw [mul_comm, ← EReal.coe_mul]; exact ht x hx y hy
  have h2 : ∀ y ∈ T, b * (y:EReal) ≤ t := by
    intro y hy
    rw [mul_comm]
    apply h.lin_lub' (fun h0 => Or.inr (hb h0))
    intro x hx
    rw [mul_comm, ← EReal.coe_mul]; exact ht x hx y hy
  exact ⟨fun hc => h'.lin_glb' hc h1, fun hc => h'.lin_lub' hc h1,
    fun hc => h'.lin_glb' hc h2, fun hc => h'.lin_lub' hc h2⟩

end Box

theorem Itv.NE.box {φ : Fmt} {x : Itv} (h : x.NE φ) : Box x.set x.lo.toE x.hi.toE := by
  obtain ⟨r0, hr0⟩ := h.nonempty
  obtain ⟨h1, h2⟩ := h.mem.mp hr0
  refine Box.mk' ⟨r0, hr0⟩ (fun s hs => (h.mem.mp hs).1) (fun t ht => ?_)
    (fun s hs => (h.mem.mp hs).2) (fun t ht => ?_)
  · by_cases hb : x.lo.toE = ⊥
    · rw [hb]
      by_contra hcon
      rw [not_le] at hcon
      have htop : t ≠ ⊤ := ne_top_of_le_ne_top (EReal.coe_ne_top r0) (ht r0 hr0)
      lift t to ℝ using ⟨htop, hcon.ne'⟩
      have hm : min r0 (t - 1) ∈ x.set := by
        rw [h.mem]
        exact ⟨by rw [hb]; exact bot_le, (EReal.coe_le_coe_iff.mpr (min_le_left _ _)).trans h2⟩
      have h4 := ht _ hm
      rw [EReal.coe_le_coe_iff] at h4
      have := min_le_right r0 (t-1)
      linarith
    · have hlo := h.lo_top
      have hmem : ∀ v : ℝ, (v:EReal) = x.lo.toE → v ∈ x.set := by
        intro v hv
        rw [h.mem, hv]; exact ⟨le_rfl, h.le⟩
      obtain ⟨v, hv⟩ : ∃ v : ℝ, (v:EReal) = x.lo.toE := ⟨x.lo.toE.toReal, EReal.coe_toReal hlo hb⟩
      rw [← hv]; exact ht v (hmem v hv)
  · by_cases hb : x.hi.toE = ⊤
    · rw [hb]
      by_contra hcon
      rw [not_le] at hcon
      have hbot : t ≠ ⊥ := ne_bot_of_le_ne_bot (EReal.coe_ne_bot r0) (ht r0 hr0)
      lift t to ℝ using ⟨hcon.ne, hbot⟩
      have hm : max r0 (t + 1) ∈ x.set := by
        rw [h.mem]
        exact ⟨h1.trans (EReal.coe_le_coe_iff.mpr (le_max_left _ _)), by rw [hb]; exact le_top⟩
      have h4 := ht _ hm
      rw [EReal.coe_le_coe_iff] at h4
      have := le_max_right r0 (t+1)
      linarith
    · have hhi := h.hi_bot
      have hmem : ∀ v : ℝ, (v:EReal) = x.hi.toE → v ∈ x.set := by
        intro v hv
        rw [h.mem, hv]; exact ⟨h.le, le_rfl⟩
      obtain ⟨v, hv⟩ : ∃ v : ℝ, (v:EReal) = x.hi.toE := ⟨x.hi.toE.toReal, EReal.coe_toReal hb hhi⟩
      rw [← hv]; exact ht v (hmem v hv)

theorem Itv.NE.lo_mem {φ : Fmt} {x : Itv} (h : x.NE φ) {v : ℝ} (hv : x.lo.toE = (v:EReal)) : v ∈ x.set := by
  rw [h.mem, ← hv]; exact ⟨le_rfl, h.le⟩
theorem Itv.NE.hi_mem {φ : Fmt} {x : Itv} (h : x.NE φ) {v : ℝ} (hv : x.hi.toE = (v:EReal)) : v ∈ x.set := by
  rw [h.mem, ← hv]; exact ⟨h.le, le_rfl⟩

theorem Itv.NE.zero_lo {φ : Fmt} {x : Itv} (h : x.NE φ) (hv : x.lo.toE = 0) : (0:ℝ) ∈ x.set :=
  h.lo_mem (by simpa using hv)
theorem Itv.NE.zero_hi {φ : Fmt} {x : Itv} (h : x.NE φ) (hv : x.hi.toE = 0) : (0:ℝ) ∈ x.set :=
  h.hi_mem (by simpa using hv)

/-- Tightness from a box. -/
theorem tightest_of_box {φ : Fmt} {R : Itv} {S : Set ℝ} {l u : EReal} (hB : Box S l u)
    (hln : R.lo ≠ .nan) (hhn : R.hi ≠ .nan) (hli : R.lo.In φ) (hhi' : R.hi.In φ)
    (hlo : R.lo.toE = φ.rdE l) (hhi : R.hi.toE = φ.ruE u) :
    Tightest φ R S :=
  tightest_of_glb_lub hB.ne hB.glb hB.lub hlo hhi hln hhn hli hhi'

/-- Infimum of an image along a filter. -/
theorem glb_of_filter {D : Set ℝ} {f : ℝ → ℝ} {L : EReal} (F : Filter ℝ) [F.NeBot]
    (h1 : ∀ᶠ y in F, y ∈ D) (h2 : ∀ x ∈ D, ∀ᶠ y in F, f y ≤ f x)
    (h3 : Tendsto (fun x => (f x : EReal)) F (𝓝 L)) : IsGLB (eimg (f '' D)) L := by
  constructor
  · rintro _ ⟨_, ⟨x, hx, rfl⟩, rfl⟩
    exact le_of_tendsto h3 ((h2 x hx).mono fun y hy => EReal.coe_le_coe_iff.mpr hy)
  · intro t ht
    exact ge_of_tendsto h3 (h1.mono fun y hy => ht ⟨f y, ⟨y, hy, rfl⟩, rfl⟩)

/-- Supremum of an image along a filter. -/
theorem lub_of_filter {D : Set ℝ} {f : ℝ → ℝ} {L : EReal} (F : Filter ℝ) [F.NeBot]
    (h1 : ∀ᶠ y in F, y ∈ D) (h2 : ∀ x ∈ D, ∀ᶠ y in F, f x ≤ f y)
    (h3 : Tendsto (fun x => (f x : EReal)) F (𝓝 L)) : IsLUB (eimg (f '' D)) L := by
  constructor
  · rintro _ ⟨_, ⟨x, hx, rfl⟩, rfl⟩
    exact ge_of_tendsto h3 ((h2 x hx).mono fun y hy => EReal.coe_le_coe_iff.mpr hy)
  · intro t ht
    exact le_of_tendsto h3 (h1.mono fun y hy => ht ⟨f y, ⟨y, hy, rfl⟩, rfl⟩)

end P1788
