import Verif.Lemmas.Arith
import Mathlib.Topology.Algebra.Order.Field

/-! Helper lemmas: infimum and supremum of monotone images of intervals. -/

namespace P1788
open FP Filter Topology

/-- The filter converging to an interval bound from inside the interval. -/
noncomputable def filtE (a : EReal) : Filter ℝ :=
  if a = ⊥ then atBot else if a = ⊤ then atTop else pure a.toReal

@[simp] theorem filtE_bot : filtE ⊥ = atBot := by simp [filtE]
@[simp] theorem filtE_top : filtE ⊤ = atTop := by simp [filtE]
@[simp] theorem filtE_coe (r : ℝ) : filtE (r:EReal) = pure r := by simp [filtE]

instance (a : EReal) : (filtE a).NeBot := by
  induction a with
  | bot => rw [filtE_bot]; infer_instance
  | top => rw [filtE_top]; infer_instance
  | coe r => rw [filtE_coe]; infer_instance

/-- The reals between two extended reals. -/
def Seg (a b : EReal) : Set ℝ := {r | a ≤ (r:EReal) ∧ (r:EReal) ≤ b}

theorem Itv.NE.set_eq {φ : Fmt} {x : Itv} (h : x.NE φ) : x.set = Seg x.lo.toE x.hi.toE := by
  ext r; exact h.mem

structure SegNE (a b : EReal) : Prop where
  le : a ≤ b
  a_top : a ≠ ⊤
  b_bot : b ≠ ⊥

theorem Itv.NE.seg {φ : Fmt} {x : Itv} (h : x.NE φ) : SegNE x.lo.toE x.hi.toE := ⟨h.le, h.lo_top, h.hi_bot⟩

theorem SegNE.nonempty {a b : EReal} (h : SegNE a b) : (Seg a b).Nonempty :=
  Itv.exists_real_between h.le h.a_top h.b_bot

theorem SegNE.ev_lo {a b : EReal} (h : SegNE a b) : ∀ᶠ y in filtE a, y ∈ Seg a b := by
  have hle := h.le
  induction a with
  | bot =>
    rw [filtE_bot]
    induction b with
    | bot => exact absurd rfl h.b_bot
    | top => exact Eventually.of_forall fun y => ⟨bot_le, le_top⟩
    | coe b => exact (eventually_le_atBot b).mono fun y hy => ⟨bot_le, by exact_mod_cast hy⟩
  | top => exact absurd rfl h.a_top
  | coe r => rw [filtE_coe]; exact eventually_pure.mpr ⟨le_rfl, hle⟩

theorem SegNE.ev_hi {a b : EReal} (h : SegNE a b) : ∀ᶠ y in filtE b, y ∈ Seg a b := by
  have hle := h.le
  induction b with
  | top =>
    rw [filtE_top]
    induction a with
    | top => exact absurd rfl h.a_top
    | bot => exact Eventually.of_forall fun y => ⟨bot_le, le_top⟩
    | coe b => exact (eventually_ge_atTop b).mono fun y hy => ⟨by exact_mod_cast hy, le_top⟩
  | bot => exact absurd rfl h.b_bot
  | coe r => rw [filtE_coe]; exact eventually_pure.mpr ⟨hle, le_rfl⟩

theorem ev_lo_le {a : EReal} {x : ℝ} (h : a ≤ x) : ∀ᶠ y in filtE a, y ≤ x := by
  induction a with
  | bot => rw [filtE_bot]; exact eventually_le_atBot x
  | top => exact absurd (top_le_iff.mp h) (EReal.coe_ne_top x)
  | coe r => rw [filtE_coe]; exact eventually_pure.mpr (by exact_mod_cast h)

theorem ev_hi_ge {b : EReal} {x : ℝ} (h : (x:EReal) ≤ b) : ∀ᶠ y in filtE b, x ≤ y := by
  induction b with
  | top => rw [filtE_top]; exact eventually_ge_atTop x
  | bot => exact absurd (le_bot_iff.mp h) (EReal.coe_ne_bot x)
  | coe r => rw [filtE_coe]; exact eventually_pure.mpr (by exact_mod_cast h)

/-- `f` tends to `L` at the bound `a`. -/
def LimAt (f : ℝ → ℝ) (a L : EReal) : Prop := Tendsto (fun x => (f x : EReal)) (filtE a) (𝓝 L)

theorem LimAt.coe (f : ℝ → ℝ) (r : ℝ) : LimAt f (r:EReal) (f r : EReal) := by
  unfold LimAt; rw [filtE_coe]; exact tendsto_pure_nhds _ _

theorem limAt_bot {f : ℝ → ℝ} {L : ℝ} (h : Tendsto f atBot (𝓝 L)) : LimAt f ⊥ (L:EReal) := by
  unfold LimAt; rw [filtE_bot]; exact (continuous_coe_real_ereal.tendsto L).comp h
theorem limAt_top {f : ℝ → ℝ} {L : ℝ} (h : Tendsto f atTop (𝓝 L)) : LimAt f ⊤ (L:EReal) := by
  unfold LimAt; rw [filtE_top]; exact (continuous_coe_real_ereal.tendsto L).comp h

theorem tendsto_coe_atTop : Tendsto (fun x : ℝ => (x:EReal)) atTop (𝓝 ⊤) := by
  rw [EReal.tendsto_nhds_top_iff_real]
  intro x
  filter_upwards [eventually_gt_atTop x] with y hy
  exact_mod_cast hy
theorem tendsto_coe_atBot : Tendsto (fun x : ℝ => (x:EReal)) atBot (𝓝 ⊥) := by
  rw [EReal.tendsto_nhds_bot_iff_real]
  intro x
  filter_upwards [eventually_lt_atBot x] with y hy
  exact_mod_cast hy

theorem limAt_bot_top {f : ℝ → ℝ} (h : Tendsto f atBot atTop) : LimAt f ⊥ ⊤ := by
  unfold LimAt; rw [filtE_bot]; exact tendsto_coe_atTop.comp h
theorem limAt_bot_bot {f : ℝ → ℝ} (h : Tendsto f atBot atBot) : LimAt f ⊥ ⊥ := by
  unfold LimAt; rw [filtE_bot]; exact tendsto_coe_atBot.comp h
theorem limAt_top_top {f : ℝ → ℝ} (h : Tendsto f atTop atTop) : LimAt f ⊤ ⊤ := by
  unfold LimAt; rw [filtE_top]; exact tendsto_coe_atTop.comp h
theorem limAt_top_bot {f : ℝ → ℝ} (h : Tendsto f atTop atBot) : LimAt f ⊤ ⊥ := by
  unfold LimAt; rw [filtE_top]; exact tendsto_coe_atBot.comp h

theorem box_of_lims {D : Set ℝ} {f : ℝ → ℝ} {L U : EReal} (F G : Filter ℝ) [F.NeBot] [G.NeBot]
    (h1 : ∀ᶠ y in F, y ∈ D) (h2 : ∀ x ∈ D, ∀ᶠ y in F, f y ≤ f x)
    (h3 : Tendsto (fun x => (f x : EReal)) F (𝓝 L))
    (g1 : ∀ᶠ y in G, y ∈ D) (g2 : ∀ x ∈ D, ∀ᶠ y in G, f x ≤ f y)
    (g3 : Tendsto (fun x => (f x : EReal)) G (𝓝 U)) : Box (f '' D) L U := by
  refine ⟨?_, glb_of_filter F h1 h2 h3, lub_of_filter G g1 g2 g3⟩
  obtain ⟨y, hy⟩ := h1.exists
  exact ⟨f y, y, hy, rfl⟩

/-- Image of a segment under a monotone function. -/
theorem box_mono {a b L U : EReal} {f : ℝ → ℝ} (h : SegNE a b) (hf : MonotoneOn f (Seg a b))
    (hL : LimAt f a L) (hU : LimAt f b U) : Box (f '' Seg a b) L U := by
  refine box_of_lims (filtE a) (filtE b) h.ev_lo (fun x hx => ?_) hL h.ev_hi (fun x hx => ?_) hU
  · filter_upwards [h.ev_lo, ev_lo_le hx.1] with y hy hyx
    exact hf hy hx hyx
  · filter_upwards [h.ev_hi, ev_hi_ge hx.2] with y hy hyx
    exact hf hx hy hyx

/-- Image of a segment under an antitone function. -/
theorem box_anti {a b L U : EReal} {f : ℝ → ℝ} (h : SegNE a b) (hf : AntitoneOn f (Seg a b))
    (hL : LimAt f b L) (hU : LimAt f a U) : Box (f '' Seg a b) L U := by
  refine box_of_lims (filtE b) (filtE a) h.ev_hi (fun x hx => ?_) hL h.ev_lo (fun x hx => ?_) hU
  · filter_upwards [h.ev_hi, ev_hi_ge hx.2] with y hy hyx
    exact hf hx hy hyx
  · filter_upwards [h.ev_lo, ev_lo_le hx.1] with y hy hyx
    exact hf hy hx hyx

/-- The inverses of the non-zero elements. -/
abbrev invSet (Y : Set ℝ) : Set ℝ := {z | ∃ b ∈ Y, b ≠ 0 ∧ z = b⁻¹}

theorem invBox_pos {c d : EReal} (h : SegNE c d) (hc : 0 < c) : Box (invSet (Seg c d)) d⁻¹ c⁻¹ := by
  have e : (fun b : ℝ => b⁻¹) '' Seg c d = invSet (Seg c d) := by
    ext z; constructor
    · rintro ⟨b, hb, rfl⟩
      refine ⟨b, hb, ?_, rfl⟩
      rintro rfl
      exact absurd hb.1 (not_le.mpr (by simpa using hc))
    · rintro ⟨b, hb, _, rfl⟩; exact ⟨b, hb, rfl⟩
  rw [← e]
  apply box_anti h
  · intro x hx y hy hxy
    have : (0:ℝ) < x := by
      have := lt_of_lt_of_le hc hx.1; exact_mod_cast this
    exact inv_anti₀ this hxy
  · have := h.b_bot
    induction d with
    | bot => exact absurd rfl this
    | top => rw [EReal.inv_top]; exact limAt_top tendsto_inv_atTop_zero
    | coe d => rw [← EReal.coe_inv]; exact LimAt.coe (fun b => b⁻¹) d
  · have := h.a_top
    induction c with
    | bot => exact absurd hc (by simp)
    | top => exact absurd rfl this
    | coe c => rw [← EReal.coe_inv]; exact LimAt.coe (fun b => b⁻¹) c

theorem invBox_pos0 {d : EReal} (hd : 0 < d) : Box (invSet (Seg 0 d)) d⁻¹ ⊤ := by
  have e : (fun b : ℝ => b⁻¹) '' {b | b ∈ Seg 0 d ∧ 0 < b} = invSet (Seg 0 d) := by
    ext z; constructor
    · rintro ⟨b, hb, rfl⟩
      exact ⟨b, hb.1, hb.2.ne', rfl⟩
    · rintro ⟨b, hb, hb0, rfl⟩
      refine ⟨b, ⟨hb, lt_of_le_of_ne ?_ hb0.symm⟩, rfl⟩
      have := hb.1; exact_mod_cast this
  rw [← e]
  have hs : SegNE 0 d := ⟨hd.le, by simp, (bot_lt_zero'.trans hd).ne'⟩
  have hpos : ∀ᶠ y in filtE d, (0:ℝ) < y := by
    induction d with
    | bot => exact absurd hd (by simp)
    | top => rw [filtE_top]; exact eventually_gt_atTop 0
    | coe d => rw [filtE_coe]; exact eventually_pure.mpr (by exact_mod_cast hd)
  have hright : ∀ {x : ℝ}, 0 < x → ∀ᶠ y in 𝓝[>] (0:ℝ), y ≤ x := fun {x} hx =>
    (eventually_le_nhds hx).filter_mono nhdsWithin_le_nhds
  refine box_of_lims (filtE d) (𝓝[>] 0) ?_ (fun x hx => ?_) ?_ ?_ (fun x hx => ?_) ?_
  · filter_upwards [hs.ev_hi, hpos] with y h1 h2 using ⟨h1, h2⟩
  · filter_upwards [hpos, ev_hi_ge hx.1.2] with y h1 h2
    exact inv_anti₀ hx.2 h2
  · induction d with
    | bot => exact absurd hd (by simp)
    | top => rw [EReal.inv_top]; exact limAt_top tendsto_inv_atTop_zero
    | coe d => rw [← EReal.coe_inv]; exact LimAt.coe (fun b => b⁻¹) d
  · obtain ⟨x, hx⟩ := ((hs.ev_hi).and hpos).exists
    filter_upwards [self_mem_nhdsWithin, hright hx.2] with y h1 h2
    have h1' : (0:ℝ) < y := h1
    exact ⟨⟨by exact_mod_cast h1'.le, (EReal.coe_le_coe_iff.mpr h2).trans hx.1.2⟩, h1⟩
  · filter_upwards [self_mem_nhdsWithin, hright hx.2] with y h1 h2
    exact inv_anti₀ h1 h2
  · exact tendsto_coe_atTop.comp tendsto_inv_nhdsGT_zero

theorem invSet_neg (c d : EReal) : (fun s => -s) '' invSet (Seg (-d) (-c)) = invSet (Seg c d) := by
  ext z; constructor
  · rintro ⟨_, ⟨b, hb, hb0, rfl⟩, rfl⟩
    refine ⟨-b, ⟨?_, ?_⟩, by simpa using hb0, by simp [inv_neg]⟩
    · rw [EReal.coe_neg, EReal.le_neg]; exact hb.2
    · rw [EReal.coe_neg, EReal.neg_le]; exact hb.1
  · rintro ⟨b, hb, hb0, rfl⟩
    refine ⟨(-b)⁻¹, ⟨-b, ⟨?_, ?_⟩, by simpa using hb0, rfl⟩, by simp [inv_neg]⟩
    · rw [EReal.coe_neg, EReal.neg_le_neg_iff]; exact hb.2
    · rw [EReal.coe_neg, EReal.neg_le_neg_iff]; exact hb.1

theorem invBox_neg {c d : EReal} (h : SegNE c d) (hd : d < 0) : Box (invSet (Seg c d)) d⁻¹ c⁻¹ := by
  have h' : SegNE (-d) (-c) := ⟨EReal.neg_le_neg_iff.mpr h.le, by simpa using h.b_bot, by simpa using h.a_top⟩
  have := (invBox_pos h' (by rwa [EReal.lt_neg_comm, neg_zero])).neg.of_eq (invSet_neg c d)
  simpa [EReal.inv_neg] using this

theorem invBox_neg0 {c : EReal} (hc : c < 0) : Box (invSet (Seg c 0)) ⊥ c⁻¹ := by
  have := (invBox_pos0 (d := -c) (by rwa [EReal.lt_neg_comm, neg_zero])).neg
  have e := invSet_neg c 0
  rw [neg_zero] at e
  simpa [EReal.inv_neg] using this.of_eq e

end P1788
