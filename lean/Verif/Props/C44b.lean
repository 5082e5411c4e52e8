import Verif.Props.C44
import Verif.Props.C27
import Mathlib.Topology.Order.Compact

/-! # C44, continued: what bisection writes is close to a zero -/

namespace P1788
variable {φ : Fmt} {f : Itv → Itv} {g : ℝ → ℝ} {eps : ℚ} {n : ℕ} {x : Itv} {l : List Itv}

theorem aboveR_lt {a : FP} {r : ℝ} (h : a.AboveR r) (hl : a < .fin eps) : r < eps := by
  cases a with
  | nan => exact h.elim
  | ninf => exact h.elim
  | pinf => exact absurd hl (by simp [FP.lt_def, FP.ltb])
  | nzero => exact lt_of_le_of_lt h (by exact_mod_cast (show (0:ℚ) < eps by simpa [FP.lt_def, FP.ltb] using hl))
  | fin q => exact lt_of_le_of_lt h (by exact_mod_cast (show q < eps by simpa [FP.lt_def, FP.ltb] using hl))

/-- **What bisection writes**: at every point of every interval the function is smaller than `eps`. -/
theorem C44_bisect_residual (hf : EnclosesFn φ f g) (hx : x.Ok φ) (hne : x.set.Nonempty) (h : bisect φ f (.fin eps) n x = .ok l)
    {y : Itv} (hy : y ∈ l) {r : ℝ} (hr : r ∈ y.set) : |g r| < eps := by
  obtain ⟨h1, h2, h3, h4, h5⟩ := C44_bisect_result hf hx hne h hy
  obtain ⟨o, m⟩ := hf y h1
  have hw := (C27_wid o ⟨0, h4⟩).1.2.1
  have a1 := aboveR_lt (hw _ ⟨_, m r hr, 0, h4, rfl⟩) h5
  have a2 := aboveR_lt (hw _ ⟨0, h4, _, m r hr, rfl⟩) h5
  rw [abs_lt]; constructor <;> linarith

/-- **What bisection writes is close to a zero.**  For a continuous function on a bounded interval and every distance `η` there
is a tolerance below which every point of every interval written, in whatever format and by whatever enclosure of the
function, has a zero of the function within `η`. -/
theorem C44_bisect_near {a b : ℝ} (hg : ContinuousOn g (Set.Icc a b)) {η : ℝ} (hη : 0 < η) :
    ∃ ε : ℝ, 0 < ε ∧ ∀ (φ : Fmt) (f : Itv → Itv) (eps : ℚ) (n : ℕ) (x : Itv) (l : List Itv), EnclosesFn φ f g → x.Ok φ →
      x.set.Nonempty → x.set ⊆ Set.Icc a b → (eps:ℝ) ≤ ε → bisect φ f (.fin eps) n x = .ok l →
      ∀ y ∈ l, ∀ r ∈ y.set, ∃ z ∈ Set.Icc a b, g z = 0 ∧ |r - z| < η := by
  let S : Set ℝ := {r | r ∈ Set.Icc a b ∧ ∀ z ∈ Set.Icc a b, g z = 0 → η ≤ |r - z|}
  have key : ∃ ε : ℝ, 0 < ε ∧ ∀ r ∈ S, ε ≤ |g r| := by
    rcases S.eq_empty_or_nonempty with he | hS
    · exact ⟨1, one_pos, fun r hr => by rw [he] at hr; exact hr.elim⟩
    · have hc : IsCompact S := by
        have : S = Set.Icc a b ∩ ⋂ z ∈ {z | z ∈ Set.Icc a b ∧ g z = 0}, {r | η ≤ |r - z|} := by
          ext r; simp only [S, Set.mem_ofPred_eq, Set.mem_inter_iff, Set.mem_iInter, and_imp]
        rw [this]
        refine isCompact_Icc.inter_right (isClosed_biInter fun z _ => ?_)
        exact isClosed_le continuous_const (by fun_prop)
      obtain ⟨r, hr, hm⟩ := hc.exists_isMinOn hS (hg.mono fun r hr => hr.1).abs
      refine ⟨|g r|, abs_pos.mpr fun h0 => ?_, fun s hs => hm hs⟩
      have := hr.2 r hr.1 h0
      simp at this; linarith
  obtain ⟨ε, h0, hm⟩ := key
  refine ⟨ε, h0, fun φ f eps n x l hf hx hne hab he h y hy r hr => ?_⟩
  by_contra hn
  push Not at hn
  have hs := (C44_bisect_result hf hx hne h hy).2.2.1 hr
  have := hm r ⟨hab hs, fun z hz h0 => hn z hz h0⟩
  have := C44_bisect_residual hf hx hne h hy hr
  linarith

/-- A run that meets the conditions: the example program finds two intervals, and the function is smaller than `1/2` in both. -/
example : ∃ l, bisect binary64 (exF binary64) (.fin (1/2)) 30 ⟨.fin (-2), .fin 2⟩ = .ok l ∧ l ≠ [] ∧
    ∀ y ∈ l, ∀ r ∈ y.set, |r ^ 2 - 2| < ((1/2 : ℚ) : ℝ) := by
  have h2 : binary64.Rep 2 := start_ok.resolve_left (by simp) |>.2.2.2.2
  obtain ⟨ef, -, -⟩ := C44_example h2
  have hne : (Itv.mk (.fin (-2)) (.fin 2)).set.Nonempty := ⟨_, (roots_mem (Or.inl rfl)).1⟩
  obtain ⟨l, hl, hlen⟩ := ok_of_written (r := bisect binary64 (exF binary64) (.fin (1/2)) 30 ⟨.fin (-2), .fin 2⟩) (k := 2)
    (by decide +kernel)
  exact ⟨l, hl, by rintro rfl; simp at hlen, fun y hy r hr => C44_bisect_residual ef start_ok hne hl hy hr⟩

end P1788
