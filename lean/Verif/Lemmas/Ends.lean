import Verif.Lemmas.Unary

/-! Helper lemmas: images of half-open and open intervals under monotone functions. -/

namespace P1788
open FP Filter Topology

/-- The filter `F` approaches the lower end of `D` from inside. -/
structure EndL (D : Set ℝ) (F : Filter ℝ) : Prop where
  ne : F.NeBot
  mem : ∀ᶠ y in F, y ∈ D
  le : ∀ x ∈ D, ∀ᶠ y in F, y ≤ x

/-- The filter `F` approaches the upper end of `D` from inside. -/
structure EndU (D : Set ℝ) (F : Filter ℝ) : Prop where
  ne : F.NeBot
  mem : ∀ᶠ y in F, y ∈ D
  ge : ∀ x ∈ D, ∀ᶠ y in F, x ≤ y

theorem SegNE.endL {a b : EReal} (h : SegNE a b) : EndL (Seg a b) (filtE a) :=
  ⟨inferInstance, h.ev_lo, fun _ hx => ev_lo_le hx.1⟩
theorem SegNE.endU {a b : EReal} (h : SegNE a b) : EndU (Seg a b) (filtE b) :=
  ⟨inferInstance, h.ev_hi, fun _ hx => ev_hi_ge hx.2⟩

/-- An open lower end. -/
theorem EndL.open {D : Set ℝ} {a c : ℝ} (hD : ∀ y ∈ D, a < y) (hac : a < c) (hc : ∀ y, a < y → y ≤ c → y ∈ D) :
    EndL D (𝓝[>] a) := by
  refine ⟨inferInstance, ?_, fun x hx => ?_⟩
  · have : ∀ᶠ y in 𝓝[>] a, y ≤ c := (eventually_le_nhds hac).filter_mono nhdsWithin_le_nhds
    filter_upwards [this, self_mem_nhdsWithin] with y h1 h2
    exact hc y h2 h1
  · exact (eventually_le_nhds (hD x hx)).filter_mono nhdsWithin_le_nhds

/-- An open upper end. -/
theorem EndU.open {D : Set ℝ} {a c : ℝ} (hD : ∀ y ∈ D, y < a) (hac : c < a) (hc : ∀ y, c ≤ y → y < a → y ∈ D) :
    EndU D (𝓝[<] a) := by
  refine ⟨inferInstance, ?_, fun x hx => ?_⟩
  · have : ∀ᶠ y in 𝓝[<] a, c ≤ y := (eventually_ge_nhds hac).filter_mono nhdsWithin_le_nhds
    filter_upwards [this, self_mem_nhdsWithin] with y h1 h2
    exact hc y h1 h2
  · exact (eventually_ge_nhds (hD x hx)).filter_mono nhdsWithin_le_nhds

theorem box_mono' {D : Set ℝ} {F G : Filter ℝ} {f : ℝ → ℝ} {L U : EReal} (hF : EndL D F) (hG : EndU D G)
    (hf : MonotoneOn f D) (hL : Tendsto (fun x => (f x : EReal)) F (𝓝 L))
    (hU : Tendsto (fun x => (f x : EReal)) G (𝓝 U)) : Box (f '' D) L U := by
  have := hF.ne
  have := hG.ne
  refine box_of_lims F G hF.mem (fun x hx => ?_) hL hG.mem (fun x hx => ?_) hU
  · filter_upwards [hF.mem, hF.le x hx] with y hy hyx using hf hy hx hyx
  · filter_upwards [hG.mem, hG.ge x hx] with y hy hyx using hf hx hy hyx

end P1788
