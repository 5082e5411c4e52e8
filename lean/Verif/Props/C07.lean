import Verif.Lemmas.Pow

/-! # C07: integer powers return the tightest enclosure -/

namespace P1788

theorem rep_one (φ : Fmt) : φ.Rep 1 := ⟨1, 0, by norm_num, by
  rw [abs_one]; exact one_lt_pow₀ (by norm_num) (by have := φ.p_pos; omega), by have := φ.qmin_le; omega,
  by have := φ.emax_ge; omega⟩

theorem one_ok (φ : Fmt) : (Itv.mk (.fin 1) (.fin 1)).NE φ :=
  ⟨by simp, by simp, le_rfl, by simpa using EReal.coe_ne_top 1, by simpa using EReal.coe_ne_bot 1, rep_one φ, rep_one φ⟩

theorem one_set : (Itv.mk (.fin 1) (.fin 1)).set = {1} := by
  ext r; simp only [Itv.mem_set, Set.mem_singleton_iff]
  simp only [FP.toE_fin, Rat.cast_one, EReal.coe_le_coe_iff]
  constructor
  · rintro ⟨⟨_, h⟩, _, h'⟩; linarith
  · rintro rfl; simp

/-- `pown(x,p)` is the tightest interval around `{a^p | a ∈ x}`, where `0` is left out of the domain for negative
`p` (and `0^0 = 1`), for every integer exponent. -/
theorem C07_pown (φ : Fmt) {x : Itv} (hx : x.Ok φ) (p : ℤ) :
    Tightest φ (φ.pownI x p) ((fun a : ℝ => a ^ p) '' {a ∈ x.set | p < 0 → a ≠ 0}) := by
  rcases hx.cases with rfl | hx
  · exact tightest_empty' (by simp [Fmt.pownI]) (by simp)
  unfold Fmt.pownI
  simp only [hx.isValid, hx.isEmpty, Bool.not_true, Bool.or_self, Bool.false_eq_true,
    if_false, NE.lt0_iff hx.lo_ne, NE.gt0_iff hx.hi_ne, NE.isZeroItv_iff hx, NE.eq0_iff hx.lo_ne,
    NE.eq0_iff hx.hi_ne]
  by_cases hp : 0 < p
  · rw [if_pos hp]
    have hdom : {a ∈ x.set | p < 0 → a ≠ 0} = x.set := by
      ext r; simp only [Set.mem_ofPred_eq, and_iff_left_iff_imp]; intros; omega
    rw [hdom]
    by_cases he : p % 2 = 0
    · rw [if_pos he]
      have key : ∀ {a : Itv}, AbsOf φ x a → (fun a : ℝ => a ^ p) '' a.set = (fun a => a ^ p) '' x.set ∧
          MonotoneOn (fun a : ℝ => a ^ p) a.set := by
        intro a h
        constructor
        · rw [h.set, Set.image_image]; simp only [zpow_abs_even he]
        · intro r hr s hs hrs
          have h0 : (0:ℝ) ≤ r := by
            have := h.nonneg.trans (h.ne.mem.mp hr).1; exact_mod_cast this
          exact zpow_mono_nonneg hp h0 hrs
      by_cases h : x.lo.toE < 0 ∧ 0 < x.hi.toE
      · rw [if_pos h]
        have hA := evenBounds_mixed hx h.1 h.2
        obtain ⟨k1, k2⟩ := key hA
        rw [← k1]
        refine tight_mono hA.ne k2 ?_ (powSi_ulim φ .U hp.ne' hA.ne.hi_ne (fun _ => hp))
        have := powSi_ulim φ .D hp.ne' (a := .fin 0) (by simp) (fun _ => hp)
        simpa [Fmt.powSi, FP.isInf, FP.isZero, FP.mkZero, FP.signbit, hp.ne', hp] using this
      · rw [if_neg h]
        have hA := evenBounds hx h
        obtain ⟨k1, k2⟩ := key hA
        rw [← k1]
        exact tight_mono hA.ne k2 (powSi_ulim φ .D hp.ne' hA.ne.lo_ne (fun _ => hp))
          (powSi_ulim φ .U hp.ne' hA.ne.hi_ne (fun _ => hp))
    · rw [if_neg he]
      refine tight_mono hx ?_ (powSi_ulim φ .D hp.ne' hx.lo_ne (fun _ => hp))
          (powSi_ulim φ .U hp.ne' hx.hi_ne (fun _ => hp))
      intro r _ s _ hrs
      obtain ⟨n, rfl⟩ : ∃ n : ℕ, p = n := ⟨p.toNat, by omega⟩
      simp only [zpow_natCast]
      exact (Odd.strictMono_pow (Nat.odd_iff.mpr (by omega))).monotone hrs
  rw [if_neg hp]
  by_cases hn : p < 0
  · rw [if_pos hn]
    have hdom : {a ∈ x.set | p < 0 → a ≠ 0} = {a ∈ x.set | a ≠ 0} := by
      ext r; simp [hn]
    rw [hdom]
    by_cases hz : x.lo.toE = 0 ∧ x.hi.toE = 0
    · rw [if_pos hz]
      refine tightest_empty' rfl ?_
      rw [NE.set_zero hx hz, Set.image_eq_empty, Set.eq_empty_iff_forall_notMem]
      rintro a ⟨ha, ha0⟩; exact ha0 ha
    rw [if_neg hz]
    have hpn : p ≠ 0 := hn.ne
    -- positive interval
    have posTight : ∀ {a : Itv}, a.NE φ → 0 < a.lo.toE →
        Tightest φ ⟨φ.powSi .D a.hi p, φ.powSi .U a.lo p⟩ ((fun a : ℝ => a ^ p) '' a.set) := by
      intro a ha h0
      refine tight_anti ha ?_ (powSi_ulim φ .D hpn ha.hi_ne (fun h => ?_))
        (powSi_ulim φ .U hpn ha.lo_ne (fun h => absurd h h0.ne'))
      · intro r hr s hs hrs
        have : (0:ℝ) < r := by
          have := lt_of_lt_of_le h0 (ha.mem.mp hr).1; exact_mod_cast this
        exact zpow_anti_pos hn this hrs
      · exact absurd h (lt_of_lt_of_le h0 ha.le).ne'
    -- nonnegative interval reaching zero
    have pos0Tight : ∀ {a : Itv} {u : FP}, a.NE φ → a.lo.toE = 0 → 0 < a.hi.toE → u = .pinf →
        Tightest φ ⟨φ.powSi .D a.hi p, u⟩ ((fun a : ℝ => a ^ p) '' {r ∈ a.set | r ≠ 0}) := by
      rintro a _ ha h0 h1 rfl
      obtain ⟨⟨L, hL, hl⟩, h2, h3⟩ := powSi_ulim φ .D hpn ha.hi_ne (fun h => absurd h h1.ne')
      have hB := powBox_pos0 hn h1 hL
      rw [ha.set_eq, h0]
      exact tightest_of_box hB h2 (by simp) h3 trivial hl (by simp)
    by_cases he : p % 2 = 0
    · rw [if_pos he]
      have key : ∀ {a : Itv}, AbsOf φ x a → (fun a : ℝ => a ^ p) '' {r ∈ a.set | r ≠ 0}
          = (fun a => a ^ p) '' {r ∈ x.set | r ≠ 0} := by
        intro a h
        ext w; constructor
        · rintro ⟨r, ⟨hr, hr0⟩, rfl⟩
          rw [h.set] at hr
          obtain ⟨s, hs, rfl⟩ := hr
          exact ⟨s, ⟨hs, by simpa using hr0⟩, by simp [zpow_abs_even he]⟩
        · rintro ⟨r, ⟨hr, hr0⟩, rfl⟩
          exact ⟨|r|, ⟨by rw [h.set]; exact ⟨r, hr, rfl⟩, by simpa using hr0⟩, by simp [zpow_abs_even he]⟩
      by_cases h : x.lo.toE < 0 ∧ 0 < x.hi.toE
      · rw [if_pos h]
        have hA := evenBounds_mixed hx h.1 h.2
        rw [← key hA]
        refine pos0Tight hA.ne (by simp) ?_ rfl
        by_contra hc
        push Not at hc
        have h1 : x.hi.toE ≤ (if x.hi < x.lo.abs then x.lo.abs else x.hi).toE := by
          split_ifs with g
          · rw [FP.lt_iff hx.hi_ne (by simpa using hx.lo_ne)] at g; exact g.le
          · exact le_rfl
        exact absurd (h1.trans hc) (not_le.mpr h.2)
      · rw [if_neg h]
        have hA := evenBounds hx h
        rw [← key hA]
        have hnz : ¬(hA.ne.lo_ne = hA.ne.lo_ne ∧ False) := by tauto
        by_cases h0 : (if x.lo.abs < x.hi.abs then x.lo.abs else x.hi.abs).toE = 0
        · refine pos0Tight hA.ne h0 ?_ (powSi_zero_neg φ .U hn hA.ne.lo_ne h0 he)
          refine lt_of_le_of_ne (hA.nonneg.trans hA.ne.le) ?_
          intro hh
          have hs0 := NE.set_zero hA.ne ⟨h0, hh.symm⟩
          obtain ⟨r, hr, hr0⟩ := NE.exists_ne_zero hx hz
          have : |r| ∈ ({0} : Set ℝ) := by rw [← hs0, hA.set]; exact ⟨r, hr, rfl⟩
          exact hr0 (by simpa using this)
        · have h1 : 0 < (if x.lo.abs < x.hi.abs then x.lo.abs else x.hi.abs).toE :=
            lt_of_le_of_ne hA.nonneg (Ne.symm h0)
          have e : {r ∈ (Itv.mk (if x.lo.abs < x.hi.abs then x.lo.abs else x.hi.abs)
              (if x.hi.abs < x.lo.abs then x.lo.abs else x.hi.abs)).set | r ≠ 0} = (Itv.mk (if x.lo.abs < x.hi.abs then x.lo.abs else x.hi.abs)
              (if x.hi.abs < x.lo.abs then x.lo.abs else x.hi.abs)).set := by
            ext r; constructor
            · exact fun h => h.1
            · intro hr
              refine ⟨hr, ?_⟩
              rintro rfl
              exact absurd (hA.ne.mem.mp hr).1 (not_le.mpr (by simpa using h1))
          rw [e]
          exact posTight hA.ne h1
    · rw [if_neg he]
      by_cases h : x.lo.toE < 0 ∧ 0 < x.hi.toE
      · rw [if_pos h]
        apply tight_entire
        obtain ⟨⟨L, hL, _⟩, _, _⟩ := powSi_ulim φ .D hpn hx.hi_ne (fun g => absurd g h.2.ne')
        obtain ⟨⟨U, hU, _⟩, _, _⟩ := powSi_ulim φ .U hpn hx.lo_ne (fun g => absurd g h.1.ne)
        have hB := (powBox_neg0 hn he h.1 hU).union (powBox_pos0 hn h.2 hL)
        rw [min_eq_left bot_le, max_eq_right le_top] at hB
        refine hB.of_eq ?_
        rw [← Set.image_union, hx.set_eq]
        congr 1
        ext r; constructor
        · rintro (⟨hr, h0⟩ | ⟨hr, h0⟩)
          · exact ⟨⟨hr.1, hr.2.trans h.2.le⟩, h0⟩
          · exact ⟨⟨h.1.le.trans hr.1, hr.2⟩, h0⟩
        · rintro ⟨hr, h0⟩
          rcases le_total (r:EReal) 0 with g | g
          · exact Or.inl ⟨⟨hr.1, g⟩, h0⟩
          · exact Or.inr ⟨⟨g, hr.2⟩, h0⟩
      rw [if_neg h]
      by_cases h1 : x.lo.toE = 0
      · rw [if_pos h1]
        have h2 : 0 < x.hi.toE := by
          refine lt_of_le_of_ne (h1 ▸ hx.le) (fun g => hz ⟨h1, g.symm⟩)
        exact pos0Tight hx h1 h2 rfl
      rw [if_neg h1]
      by_cases h2 : x.hi.toE = 0
      · rw [if_pos h2]
        have h3 : x.lo.toE < 0 := lt_of_le_of_ne (h2 ▸ hx.le) h1
        obtain ⟨⟨L, hL, hl⟩, g2, g3⟩ := powSi_ulim φ .U hpn hx.lo_ne (fun h => absurd h h1)
        have hB := powBox_neg0 hn he h3 hL
        rw [hx.set_eq, h2]
        exact tightest_of_box hB (by simp) g2 trivial g3 (by simp) hl
      rw [if_neg h2]
      have e : {r ∈ x.set | r ≠ 0} = x.set := by
        ext r; constructor
        · exact fun h => h.1
        · intro hr
          refine ⟨hr, ?_⟩
          rintro rfl
          have := hx.mem.mp hr
          exact h ⟨lt_of_le_of_ne (by simpa using this.1) h1, lt_of_le_of_ne (by simpa using this.2) (Ne.symm h2)⟩
      rw [e]
      by_cases h3 : 0 < x.lo.toE
      · exact posTight hx h3
      · have h4 : x.hi.toE < 0 := by
          by_contra hc
          exact h ⟨lt_of_le_of_ne (not_lt.mp h3) h1, lt_of_le_of_ne (not_lt.mp hc) (Ne.symm h2)⟩
        refine tight_anti hx ?_ (powSi_ulim φ .D hpn hx.hi_ne (fun h => absurd h h2))
          (powSi_ulim φ .U hpn hx.lo_ne (fun h => absurd h h1))
        intro r hr s hs hrs
        have hs0 : s < 0 := by
          have := lt_of_le_of_lt (hx.mem.mp hs).2 h4; exact_mod_cast this
        have := zpow_anti_pos hn (a := -s) (b := -r) (by linarith) (by linarith)
        rw [zpow_neg_odd he, zpow_neg_odd he] at this
        simpa using this
  · rw [if_neg hn]
    have h0 : p = 0 := by omega
    refine (Tightest.of_ok (one_ok φ).ok).of_eq ?_
    rw [one_set, h0]
    obtain ⟨r, hr⟩ := hx.nonempty
    ext w; constructor
    · rintro rfl; exact ⟨r, ⟨hr, by simp⟩, by simp⟩
    · rintro ⟨s, _, rfl⟩; simp

/-- Non-vacuity: a mixed-sign interval, with an even and an odd negative exponent. -/
example : (Itv.mk (.fin (-2)) (.fin 4)).Ok binary64 ∧
    binary64.pownI ⟨.fin (-2), .fin 4⟩ (-2) = ⟨.fin (1/16), .pinf⟩ ∧
    binary64.pownI ⟨.fin (-2), .fin 4⟩ (-3) = Itv.entire ∧
    binary64.pownI ⟨.fin (-2), .fin 4⟩ 3 = ⟨.fin (-8), .fin 64⟩ :=
  ⟨Itv.ok_of_okb (by decide +kernel), by decide +kernel, by decide +kernel, by decide +kernel⟩

end P1788
