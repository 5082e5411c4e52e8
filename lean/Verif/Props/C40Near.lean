import Verif.Props.C40Width
import Verif.Props.C29Bad
import Mathlib.Topology.MetricSpace.Pseudo.Defs

/-! # C40: with enough digits the round trip through text moves every bound by at most one number -/

namespace P1788

variable {φ : Fmt} {slack : ℕ}

/-- The printed numbers have as many digits as the numbers of the format, and a little more: 17 for `double`. -/
def Fmt.Digits (φ : Fmt) (r : NumRep) (prec : ℕ) : Prop :=
  match r with
  | .dec => False
  | .sci => 2 ^ φ.p ≤ 10 ^ prec
  | .decSci => 0 < prec ∧ 2 ^ φ.p ≤ 10 ^ (prec - 1)
  | .hex => prec = 0 ∨ 2 ^ φ.p ≤ 16 ^ prec

/-- The distance of two numbers of the format. -/
theorem num_gap {f q : ℚ} (hf : φ.Rep f) (hq : φ.Rep q) (h : f ≠ q) : |q| ≤ 2 ^ φ.p * |q - f| := by
  obtain ⟨m, e, rfl, hm, -, -⟩ := hf
  obtain ⟨n, d, rfl, hn, -, -⟩ := hq
  have hp : (1 : ℤ) ≤ 2 ^ φ.p := one_le_pow₀ (by norm_num)
  rcases le_total d e with hde | hde
  · have e1 : (2:ℚ) ^ e = ((2 ^ (e - d).toNat : ℤ) : ℚ) * 2 ^ d := by
      push_cast
      rw [← zpow_natCast, Int.toNat_of_nonneg (by omega), ← zpow_add₀ (by norm_num)]; congr 1; ring
    set j : ℤ := n - m * 2 ^ (e - d).toNat with hj
    have e2 : (n * 2 ^ d - m * 2 ^ e : ℚ) = j * 2 ^ d := by rw [e1, hj]; push_cast; ring
    have hj0 : j ≠ 0 := by
      intro h0; rw [h0] at e2; apply h; push_cast at e2; linarith
    rw [e2, abs_mul, abs_mul, ← mul_assoc]
    refine mul_le_mul_of_nonneg_right ?_ (abs_nonneg _)
    have h1 : 1 ≤ |j| := Int.one_le_abs hj0
    have h2 : |n| ≤ 2 ^ φ.p * |j| := by nlinarith
    exact_mod_cast h2
  · have e1 : (2:ℚ) ^ d = ((2 ^ (d - e).toNat : ℤ) : ℚ) * 2 ^ e := by
      push_cast
      rw [← zpow_natCast, Int.toNat_of_nonneg (by omega), ← zpow_add₀ (by norm_num)]; congr 1; ring
    set j : ℤ := n * 2 ^ (d - e).toNat - m with hj
    have e2 : (n * 2 ^ d - m * 2 ^ e : ℚ) = j * 2 ^ e := by rw [e1, hj]; push_cast; ring
    have hj0 : j ≠ 0 := by
      intro h0; rw [h0] at e2; apply h; push_cast at e2; linarith
    have e3 : (n * 2 ^ d : ℚ) = (m + j : ℤ) * 2 ^ e := by rw [e1, hj]; push_cast; ring
    rw [e2, e3, abs_mul, abs_mul, ← mul_assoc]
    refine mul_le_mul_of_nonneg_right ?_ (abs_nonneg _)
    have h1 : 1 ≤ |j| := Int.one_le_abs hj0
    have h2 : |m + j| ≤ 2 ^ φ.p * |j| := by
      have := abs_add_le m j
      nlinarith
    exact_mod_cast h2

theorem tol_gap {r : NumRep} {prec : ℕ} (h : φ.Digits r prec) (q : ℚ) : 2 ^ φ.p * r.tol prec q ≤ |q| := by
  have key : ∀ {b n : ℕ}, 0 < b → 2 ^ φ.p ≤ b ^ n → (2:ℚ) ^ φ.p * (|q| * (b:ℚ) ^ (-(n : ℤ))) ≤ |q| := by
    intro b n hb h
    have h1 : (2:ℚ) ^ φ.p ≤ (b:ℚ) ^ n := by exact_mod_cast h
    have h2 : (0:ℚ) < (b:ℚ) ^ n := pow_pos (by exact_mod_cast hb) _
    rw [zpow_neg, zpow_natCast]
    have h3 : (2:ℚ) ^ φ.p * ((b:ℚ) ^ n)⁻¹ ≤ 1 := by
      rw [← div_eq_mul_inv, div_le_one h2]; exact h1
    calc (2:ℚ) ^ φ.p * (|q| * ((b:ℚ) ^ n)⁻¹) = |q| * ((2:ℚ) ^ φ.p * ((b:ℚ) ^ n)⁻¹) := by ring
      _ ≤ |q| * 1 := mul_le_mul_of_nonneg_left h3 (abs_nonneg _)
      _ = |q| := mul_one _
  have hp := φ.p_pos
  cases r with
  | dec => exact h.elim
  | sci =>
    have h : 2 ^ φ.p ≤ 10 ^ prec := h
    have h0 : prec ≠ 0 := by
      rintro rfl
      have := Nat.one_lt_two_pow (n := φ.p) (by omega)
      omega
    simp only [NumRep.tol, h0, if_false]
    exact key (b := 10) (by norm_num) h
  | decSci =>
    have h : 0 < prec ∧ 2 ^ φ.p ≤ 10 ^ (prec - 1) := h
    simp only [NumRep.tol, h.1.ne', if_false]
    have e : (1 - (prec:ℤ)) = -((prec - 1 : ℕ) : ℤ) := by have := h.1; omega
    rw [e]
    exact key (b := 10) (by norm_num) h.2
  | hex =>
    have h : prec = 0 ∨ 2 ^ φ.p ≤ 16 ^ prec := h
    unfold NumRep.tol
    simp only
    split_ifs with h0
    · simp
    · exact key (b := 16) (by norm_num) (h.resolve_left h0)

theorem le_of_gap {f q v : ℚ} (hf : φ.Rep f) (hq : φ.Rep q) (h : f < q) {r : NumRep} {prec : ℕ} (hd : φ.Digits r prec)
    (hv : q - v ≤ r.tol prec q) : f ≤ v := by
  have h1 := num_gap hf hq h.ne
  have h2 := tol_gap hd q
  rw [abs_of_pos (show 0 < q - f by linarith)] at h1
  have hp : (0:ℚ) < 2 ^ φ.p := by positivity
  have := le_of_mul_le_mul_left (h2.trans h1) hp
  linarith

theorem ge_of_gap {f q v : ℚ} (hf : φ.Rep f) (hq : φ.Rep q) (h : q < f) {r : NumRep} {prec : ℕ} (hd : φ.Digits r prec)
    (hv : v - q ≤ r.tol prec q) : v ≤ f := by
  have h1 := num_gap hf hq h.ne'
  have h2 := tol_gap hd q
  rw [abs_of_neg (show q - f < 0 by linarith)] at h1
  have hp : (0:ℚ) < 2 ^ φ.p := by positivity
  have := le_of_mul_le_mul_left (h2.trans h1) hp
  linarith

/-- What a text denotes is contained in every interval of the format that contains the interval in its interior. -/
theorem denot_sub {r : NumRep} {prec : ℕ} (hd : φ.Digits r prec) {x z : Itv} {D : Denot} (hx : x.Ok φ) (hD : x.set = ∅ ↔ D = .empty)
    (ha : Accurate r prec x D) (hz : z.Ok φ) (hs : x.set ⊆ interior z.set) : D.set ⊆ z.set := by
  match D, ha with
  | .nai, _ => exact Set.empty_subset _
  | .empty, _ => exact Set.empty_subset _
  | .bounds l u, ha =>
    obtain ⟨a1, a2, a3, a4⟩ := ha l u rfl
    have nx : x.NE φ := by
      rcases hx.cases with rfl | hne
      · have := hD.mp Itv.set_empty
        cases this
      · exact hne
    obtain ⟨t0, ht0⟩ := nx.nonempty
    have nz : z.NE φ := by
      rcases hz.cases with rfl | hne
      · have := interior_subset (hs ht0)
        rw [Itv.set_empty] at this
        exact this.elim
      · exact hne
    have near : ∀ t ∈ x.set, ∃ ε > 0, t - ε ∈ z.set ∧ t + ε ∈ z.set := by
      intro t ht
      obtain ⟨ε, h0, hb⟩ := Metric.mem_nhds_iff.mp (mem_interior_iff_mem_nhds.mp (hs ht))
      refine ⟨ε / 2, by linarith, hb ?_, hb ?_⟩
      · rw [Metric.mem_ball, Real.dist_eq, show t - ε / 2 - t = -(ε / 2) by ring, abs_neg, abs_of_pos] <;> linarith
      · rw [Metric.mem_ball, Real.dist_eq, show t + ε / 2 - t = ε / 2 by ring, abs_of_pos] <;> linarith
    rintro s ⟨s1, s2⟩
    rw [nz.mem]
    have mz : ∀ t ∈ z.set, z.lo.toE ≤ (t:EReal) ∧ (t:EReal) ≤ z.hi.toE := fun t ht => nz.mem.mp ht
    constructor
    · by_cases hb : z.lo.toE = ⊥
      · rw [hb]; exact bot_le
      obtain ⟨ez, rz⟩ := FP.real_of nz.lo_in nz.lo_ne hb nz.lo_top
      have hxb : x.lo.toE ≠ ⊥ := by
        intro hxb
        have : min t0 (z.lo.q - 1) ∈ x.set := by
          rw [nx.mem, hxb]
          exact ⟨bot_le, (EReal.coe_le_coe_iff.mpr (min_le_left _ _)).trans (nx.mem.mp ht0).2⟩
        have h1 := (mz _ (interior_subset (hs this))).1
        rw [ez, EReal.coe_le_coe_iff] at h1
        have := min_le_right t0 ((z.lo.q:ℝ) - 1)
        linarith
      obtain ⟨ex, rx⟩ := FP.real_of nx.lo_in nx.lo_ne hxb nx.lo_top
      have hmem : (x.lo.q:ℝ) ∈ x.set := by
        rw [nx.mem, ← ex]; exact ⟨le_rfl, nx.le⟩
      obtain ⟨ε, h0, h1, -⟩ := near _ hmem
      have h1 := (mz _ h1).1
      rw [ez, EReal.coe_le_coe_iff] at h1
      have hlt : z.lo.q < x.lo.q := by
        have : (z.lo.q:ℝ) < x.lo.q := by linarith
        exact_mod_cast this
      obtain ⟨v, rfl⟩ := Option.ne_none_iff_exists'.mp (fun e => hxb (by rw [a1.mp e]; rfl))
      have h2 := le_of_gap rz rx hlt hd (a3 v rfl)
      rw [ez, EReal.coe_le_coe_iff]
      have : (z.lo.q:ℝ) ≤ v := by exact_mod_cast h2
      linarith [s1 v rfl]
    · by_cases hb : z.hi.toE = ⊤
      · rw [hb]; exact le_top
      obtain ⟨ez, rz⟩ := FP.real_of nz.hi_in nz.hi_ne nz.hi_bot hb
      have hxb : x.hi.toE ≠ ⊤ := by
        intro hxb
        have : max t0 (z.hi.q + 1) ∈ x.set := by
          rw [nx.mem, hxb]
          exact ⟨(nx.mem.mp ht0).1.trans (EReal.coe_le_coe_iff.mpr (le_max_left _ _)), le_top⟩
        have h1 := (mz _ (interior_subset (hs this))).2
        rw [ez, EReal.coe_le_coe_iff] at h1
        have := le_max_right t0 ((z.hi.q:ℝ) + 1)
        linarith
      obtain ⟨ex, rx⟩ := FP.real_of nx.hi_in nx.hi_ne nx.hi_bot hxb
      have hmem : (x.hi.q:ℝ) ∈ x.set := by
        rw [nx.mem, ← ex]; exact ⟨nx.le, le_rfl⟩
      obtain ⟨ε, h0, -, h1⟩ := near _ hmem
      have h1 := (mz _ h1).2
      rw [ez, EReal.coe_le_coe_iff] at h1
      have hlt : x.hi.q < z.hi.q := by
        have : (x.hi.q:ℝ) < z.hi.q := by linarith
        exact_mod_cast this
      obtain ⟨v, rfl⟩ := Option.ne_none_iff_exists'.mp (fun e => hxb (by rw [a2.mp e]; rfl))
      have h2 := ge_of_gap rz rx hlt hd (a4 v rfl)
      rw [ez, EReal.coe_le_coe_iff]
      have : (v:ℝ) ≤ z.hi.q := by exact_mod_cast h2
      linarith [s2 v rfl]

/-- **With enough digits**, what is read back is contained in every interval of the format that contains the written interval in its
interior: each bound moves by at most one number of the format. -/
theorem C40_neighbours {k : Manip} {o o' : OStr} {x : Itv} (hx : x.Ok φ) (hf : k.form = .infSup ∨ x.set = ∅) (hp : k.punct = true)
    (ho : o.Plain) (he : ¬ (x.set = ∅ ∧ k.special = .bounds)) (hd : φ.Digits k.numRep k.prec) (hB : φ.B k.prec < 2 ^ 31)
    (h : φ.writeItv slack k o x = .ok o') :
    ∃ t m y, o'.text = o.text ++ t ∧ φ.textToInterval t = .ok m ∧ Returns m y ∧ y.Ok φ ∧ x.set ⊆ y.set ∧
      ∀ z : Itv, z.Ok φ → x.set ⊆ interior z.set → y.set ⊆ z.set := by
  obtain ⟨t, D, N, e, hl, hn, hs, hD, ha, hN⟩ := C40_contains_partial hx hf hp ho he h
  obtain ⟨m, hm, h1, -⟩ := C38_bare_partial (φ := φ) hl (fun n hn => supported_of_small hB (hN n hn))
  obtain ⟨y, hy, hT⟩ := h1 hn
  exact ⟨t, m, y, e, hm, hy, hT.1, hs.trans hT.2.1, fun z hz hz' => hT.2.2 z hz (denot_sub hd hx hD ha hz hz')⟩

/-- The bounds do move, however many decimal digits are written: the text of `[0.1, 0.1]` (`double`) with 17 digits denotes an
interval with bounds below and above, and reading it gives the neighbours of the number. -/
theorem C40_drift :
    let q : ℚ := 3602879701896397 / 2 ^ 55
    (binary64.writeItv 0 { numRep := .sci, prec := 16, width := 24 } {} ⟨.fin q, .fin q⟩).written =
      some "[  1.0000000000000000e-01,  1.0000000000000001e-01]".toList ∧
    (binary64.readItv { rest := "[  1.0000000000000000e-01,  1.0000000000000001e-01]".toList }).item =
      some ⟨⟨.fin (q - 1 / 2 ^ 56), .fin (q + 1 / 2 ^ 56)⟩, .com⟩ := by
  decide +kernel

/-- 17 digits are enough for `double`, 9 for `float`, 21 for the x87 format. -/
example : binary64.Digits .sci 16 ∧ binary32.Digits .sci 8 ∧ x87ext.Digits .sci 20 ∧ binary64.Digits .decSci 17 := by
  refine ⟨?_, ?_, ?_, ?_, ?_⟩ <;> first | (change 2 ^ _ ≤ 10 ^ _; norm_num [binary64, binary32, x87ext]) | norm_num

end P1788
