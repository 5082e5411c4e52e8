import Verif.Props.C31

/-! # C31: `sin_rev`, `cos_rev`, `tan_rev` beyond `2^65`

`mpfr_remquo` yields the low 63 bits of the number of periods only, so the boxes that the code looks at never reach beyond
`2^65`.  Whatever `c` is (unless it contains `[-1, 1]`, in the case of `sin_rev` and `cos_rev`), the result for a bounded `x`
beyond `2^65` (or below `-2^65`) is empty.  Hence the bound `2^64` in `C31_sin_rev_partial`, `C31_cos_rev_partial` and
`C31_tan_rev_partial` can be improved by a factor of 2 at most. -/

namespace P1788
open Real

variable {φ : Fmt} {c x : Itv}

/-- A bounded set above `2^65` or below `-2^65`. -/
def Beyond (X : Set ℝ) : Prop := Bornology.IsBounded X ∧ ((∀ t ∈ X, 2 ^ 65 < t) ∨ ∀ t ∈ X, t < -2 ^ 65)

/-- The same in terms of the bounds. -/
def Itv.Beyond (x : Itv) : Prop := ∃ a b : ℚ, x.lo = .fin a ∧ x.hi = .fin b ∧ (2 ^ 65 < a ∨ b < -2 ^ 65)

theorem Itv.NE.beyond (hx : x.NE φ) (h : P1788.Beyond x.set) : x.Beyond := by
  obtain ⟨hb, h⟩ := h
  obtain ⟨h1, h2⟩ := hx.bounded_iff.mp hb
  have h0 : (0:ℝ) ∉ x.set := fun h0 => by
    rcases h with h | h
    · linarith [h 0 h0]
    · linarith [h 0 h0]
  have hlh := hx.le
  have key : ∀ v : FP, (v = x.lo ∨ v = x.hi) → ∃ a : ℚ, v = .fin a ∧ (a:ℝ) ∈ x.set := by
    intro v hv
    have hm : ∀ r : ℝ, v.toE = (r:EReal) → r ∈ x.set := by
      intro r hr
      rw [hx.mem]
      rcases hv with rfl | rfl
      · exact ⟨hr.le, hr ▸ hlh⟩
      · exact ⟨hr ▸ hlh, hr.ge⟩
    cases v with
    | nan => rcases hv with hv | hv; exacts [absurd hv.symm hx.lo_ne, absurd hv.symm hx.hi_ne]
    | ninf => rcases hv with hv | hv
              · exact absurd hv.symm h1
              · exact absurd (by rw [← hv]; rfl) hx.hi_bot
    | pinf => rcases hv with hv | hv
              · exact absurd (by rw [← hv]; rfl) hx.lo_top
              · exact absurd hv.symm h2
    | nzero => exact absurd (hm 0 (by simp)) h0
    | fin q => exact ⟨q, rfl, hm q rfl⟩
  obtain ⟨a, ea, ha⟩ := key x.lo (Or.inl rfl)
  obtain ⟨b, eb, hb⟩ := key x.hi (Or.inr rfl)
  refine ⟨a, b, ea, eb, ?_⟩
  rcases h with h | h
  · left; exact_mod_cast h _ ha
  · right; have := h _ hb; exact_mod_cast this

theorem roundNS_U_tiny {w : ℝ} (h : |w| < φ.thr) : (φ.roundNS .U w).toE ≤ ((1:ℝ):EReal) := by
  have hM : (1:ℚ) ≤ φ.maxFin := by
    have := φ.abs_le_maxFin (x := 1) (by norm_num)
    rw [abs_one] at this; exact_mod_cast this
  have ht := φ.thr_le_quarter
  rcases eq_or_ne w 0 with rfl | h0
  · have e : φ.roundNS .U (0:ℝ) = FP.mkZero false := by
      have hp := φ.maxFin_pos
      simp only [Fmt.roundNS, zero_div, roundInt]
      simp [hp.le, not_lt.mpr hp.le]
    rw [e]; simp [FP.mkZero, FP.toE]
  have hw : 0 < |w| := abs_pos.mpr h0
  have h1 := φ.expoNS_le hw
  have hp : (0:ℝ) < 2 ^ φ.expoNS w := by positivity
  have hv : (((roundInt .U (w / (2:ℝ) ^ φ.expoNS w) : ℤ) * (2:ℚ) ^ φ.expoNS w : ℚ) : ℝ) ≤ 1 := by
    have h2 : ((roundInt .U (w / (2:ℝ) ^ φ.expoNS w) : ℤ) : ℝ) < w / (2:ℝ) ^ φ.expoNS w + 1 := Int.ceil_lt_add_one _
    have h3 := mul_lt_mul_of_pos_right h2 hp
    have h4 : (w / (2:ℝ) ^ φ.expoNS w + 1) * (2:ℝ) ^ φ.expoNS w = w + 2 ^ φ.expoNS w := by field_simp
    push_cast
    have := le_abs_self w
    linarith
  simp only [Fmt.roundNS]
  generalize ((roundInt .U (w / (2:ℝ) ^ φ.expoNS w) : ℤ) * (2:ℚ) ^ φ.expoNS w : ℚ) = v at *
  have v2 : v ≤ 1 := by exact_mod_cast hv
  rw [if_neg (by linarith)]
  split_ifs with h5 h6
  · simp only [FP.toE]; rw [EReal.coe_le_coe_iff]; push_cast
    have : (0:ℝ) < φ.maxFin := by exact_mod_cast φ.maxFin_pos
    linarith
  · rw [FP.toE_mkZero]; exact_mod_cast zero_le_one
  · simp only [FP.toE]; exact_mod_cast hv

theorem le_roundNS_D_tiny {w : ℝ} (h : |w| < φ.thr) : ((-1:ℝ):EReal) ≤ (φ.roundNS .D w).toE := by
  have hM : (1:ℚ) ≤ φ.maxFin := by
    have := φ.abs_le_maxFin (x := 1) (by norm_num)
    rw [abs_one] at this; exact_mod_cast this
  have ht := φ.thr_le_quarter
  rcases eq_or_ne w 0 with rfl | h0
  · have e : φ.roundNS .D (0:ℝ) = FP.mkZero false := by
      have hp := φ.maxFin_pos
      simp only [Fmt.roundNS, zero_div, roundInt]
      simp [hp.le, not_lt.mpr hp.le]
    rw [e]; simp [FP.mkZero, FP.toE]
  have hw : 0 < |w| := abs_pos.mpr h0
  have h1 := φ.expoNS_le hw
  have hp : (0:ℝ) < 2 ^ φ.expoNS w := by positivity
  have hv : -1 ≤ (((roundInt .D (w / (2:ℝ) ^ φ.expoNS w) : ℤ) * (2:ℚ) ^ φ.expoNS w : ℚ) : ℝ) := by
    have h2 : w / (2:ℝ) ^ φ.expoNS w - 1 < ((roundInt .D (w / (2:ℝ) ^ φ.expoNS w) : ℤ) : ℝ) := Int.sub_one_lt_floor _
    have h3 := mul_lt_mul_of_pos_right h2 hp
    have h4 : (w / (2:ℝ) ^ φ.expoNS w - 1) * (2:ℝ) ^ φ.expoNS w = w - 2 ^ φ.expoNS w := by field_simp
    push_cast
    have := neg_abs_le w
    linarith
  simp only [Fmt.roundNS]
  generalize ((roundInt .D (w / (2:ℝ) ^ φ.expoNS w) : ℤ) * (2:ℚ) ^ φ.expoNS w : ℚ) = v at *
  have v2 : -1 ≤ v := by exact_mod_cast hv
  rw [if_neg (c := v < -φ.maxFin) (by linarith)]
  split_ifs with h5 h6
  · simp only [FP.toE]; rw [EReal.coe_le_coe_iff]
    have : (0:ℝ) < φ.maxFin := by exact_mod_cast φ.maxFin_pos
    linarith
  · rw [FP.toE_mkZero]; exact_mod_cast (by norm_num : (-1:ℝ) ≤ 0)
  · simp only [FP.toE]; exact_mod_cast hv

theorem fma_U_le' {a b c : FP} {B : ℚ} (hB : φ.Rep B) (h1 : 1 ≤ B) (h : a.q * b.q + c.q ≤ B) :
    (φ.fmaNS .U a b c).toE ≤ ((B:ℝ):EReal) := by
  by_cases hb : a.q * b.q + c.q = 0 ∨ φ.thr ≤ |((a.q * b.q + c.q : ℚ) : ℝ)|
  · exact fma_U_le hB h hb
  · push Not at hb
    unfold Fmt.fmaNS
    rw [if_neg hb.1]
    refine (roundNS_U_tiny hb.2).trans (EReal.coe_le_coe_iff.mpr ?_)
    exact_mod_cast h1

theorem le_fma_D' {a b c : FP} {B : ℚ} (hB : φ.Rep B) (h1 : B ≤ -1) (h : B ≤ a.q * b.q + c.q) :
    ((B:ℝ):EReal) ≤ (φ.fmaNS .D a b c).toE := by
  by_cases hb : a.q * b.q + c.q = 0 ∨ φ.thr ≤ |((a.q * b.q + c.q : ℚ) : ℝ)|
  · exact le_fma_D hB h hb
  · push Not at hb
    unfold Fmt.fmaNS
    rw [if_neg hb.1]
    refine le_trans (EReal.coe_le_coe_iff.mpr ?_) (le_roundNS_D_tiny hb.2)
    exact_mod_cast h1

/-- The bounds of a box are numbers of magnitude at most `B`. -/
structure BndBy (B : ℚ) (b : Itv) : Prop where
  lo_ne : b.lo ≠ .nan
  hi_ne : b.hi ≠ .nan
  le_lo : (((-B:ℚ):ℝ):EReal) ≤ b.lo.toE
  hi_le : b.hi.toE ≤ ((B:ℝ):EReal)

theorem rep65 (h : 2 ^ 65 < φ.maxFin) : φ.Rep (2 ^ (65:ℤ)) ∧ φ.Rep (((129:ℤ):ℚ) * 2 ^ (56:ℤ)) := by
  have h1 : φ.maxFin < 2 ^ φ.emax := by
    unfold Fmt.maxFin
    rw [sub_mul, one_mul, ← zpow_natCast, ← zpow_add₀ (by norm_num)]
    have := two_zpow_pos (φ.emax - φ.p)
    rw [show (φ.p:ℤ) + (φ.emax - φ.p) = φ.emax by ring]
    linarith
  have h2 : (2:ℚ) ^ (65:ℤ) < 2 ^ φ.emax := lt_trans (by exact_mod_cast h) h1
  have h3 : (65:ℤ) < φ.emax := (zpow_lt_zpow_iff_right₀ (by norm_num)).mp h2
  have hp := φ.p_pos
  have hq := φ.qmin_le
  have h8 : (2:ℤ) ^ 8 ≤ 2 ^ φ.p := pow_le_pow_right₀ (by norm_num) hp
  refine ⟨rep_pow (by have := φ.emax_ge; omega) (by omega), φ.rep_of_le (by norm_num; norm_num at h8; omega) (by omega) ?_⟩
  rw [abs_of_pos (by norm_num)]
  exact le_trans (by norm_num) h.le

theorem tick_abs (h : 2 ^ 65 < φ.maxFin) {j : ℤ} (hj : |j| ≤ 2 ^ 63 + 3) : |(φ.round .N (j:ℚ)).q| ≤ 129 * 2 ^ 56 := by
  obtain ⟨-, r64⟩ := rep65 h
  have hjq : |(j:ℚ)| ≤ 2 ^ 63 + 3 := by exact_mod_cast hj
  have h64 : |((j:ℚ):ℝ)| ≤ ((((129:ℤ):ℚ) * 2 ^ (56:ℤ) : ℚ) : ℝ) := by
    have : |(j:ℚ)| ≤ ((129:ℤ):ℚ) * 2 ^ (56:ℤ) := hjq.trans (by norm_num)
    have := (Rat.cast_le (K := ℝ)).mpr this
    rwa [Rat.cast_abs] at this
  have hM : |((j:ℚ):ℝ)| ≤ (φ.maxFin : ℝ) := by
    refine h64.trans ?_
    have := (abs_le.mp r64.abs_le).2
    exact_mod_cast this
  have hbt := φ.roundQ_between .N ((j:ℚ):ℝ)
  have e : (φ.round .N (j:ℚ)).q = φ.roundQ .N ((j:ℚ):ℝ) := by
    have hq := φ.roundQ_le_maxFin (m := .N) hM
    rw [abs_le] at hq
    rw [← φ.round_cast]
    simp only [Fmt.round]
    rw [if_neg (by linarith), if_neg (by linarith)]
    split_ifs with h0
    · rw [h0]; exact Fmt.mkZero_q _
    · rfl
  rw [e]
  obtain ⟨h1, h2⟩ := abs_le.mp h64
  rw [abs_le]
  constructor
  · refine le_trans ?_ hbt.1
    have := φ.le_roundQ_D r64.neg (x := ((j:ℚ):ℝ)) (by push_cast at h1 ⊢; exact h1)
    simpa using this
  · refine hbt.2.trans ?_
    have := φ.roundQ_U_le r64 (x := ((j:ℚ):ℝ)) h2
    simpa using this

section
variable {a b cl cu : FP}

theorem tick_fma (h : 2 ^ 65 < φ.maxFin) {j : ℤ} (hj : |j| ≤ 2 ^ 63 + 3) {y : ℚ} (h3 : 3 ≤ y) (h4 : y ≤ 13 / 4) :
    -(2 ^ (65:ℤ)) + 4 ≤ (φ.round .N (j:ℚ)).q * y ∧ (φ.round .N (j:ℚ)).q * y + 4 ≤ 2 ^ (65:ℤ) := by
  obtain ⟨h1, h2⟩ := abs_le.mp (tick_abs h hj)
  have e : (2:ℚ) ^ (65:ℤ) = 2 ^ 56 * 512 := by norm_num
  rw [e]
  constructor <;> nlinarith

theorem shift_within (h : 2 ^ 65 < φ.maxFin) {j : ℤ} (hj : |j| ≤ 2 ^ 63 + 3) (ha : 3 ≤ a.q ∧ a.q ≤ 13 / 4)
    (hb : 3 ≤ b.q ∧ b.q ≤ 13 / 4) (hl : -4 ≤ cl.q) (hu : cu.q ≤ 4) : BndBy (2 ^ (65:ℤ)) (φ.shiftBox j a b cl cu) := by
  obtain ⟨r, -⟩ := rep65 h
  have h1 : (1:ℚ) ≤ 2 ^ (65:ℤ) := by norm_num
  refine ⟨(conv_spec φ _ (φ.fmaNS_ne_nan _ _ _ _)).1, (conv_spec φ _ (φ.fmaNS_ne_nan _ _ _ _)).1,
    le_conv_D r.neg (φ.fmaNS_ne_nan _ _ _ _) (le_fma_D' r.neg (by linarith) ?_),
    conv_U_le r (φ.fmaNS_ne_nan _ _ _ _) (fma_U_le' r h1 ?_)⟩
  · linarith [(tick_fma h hj ha.1 ha.2).1]
  · linarith [(tick_fma h hj hb.1 hb.2).2]

theorem mirror_within (h : 2 ^ 65 < φ.maxFin) {j : ℤ} (hj : |j| ≤ 2 ^ 63 + 3) (ha : 3 ≤ a.q ∧ a.q ≤ 13 / 4)
    (hb : 3 ≤ b.q ∧ b.q ≤ 13 / 4) (hl : -4 ≤ cl.q) (hu : cu.q ≤ 4) : BndBy (2 ^ (65:ℤ)) (φ.mirrorBox j a b cl cu) := by
  obtain ⟨r, -⟩ := rep65 h
  have h1 : (1:ℚ) ≤ 2 ^ (65:ℤ) := by norm_num
  refine ⟨by simpa [Fmt.mirrorBox] using (conv_spec φ _ (φ.fmaNS_ne_nan _ _ _ _)).1,
    by simpa [Fmt.mirrorBox] using (conv_spec φ _ (φ.fmaNS_ne_nan _ _ _ _)).1, ?_, ?_⟩
  · have h2 := fma_U_le' (φ := φ) (a := φ.round .N (j:ℚ)) (b := a) (c := cu) r h1 (by linarith [(tick_fma h hj ha.1 ha.2).2])
    have h3 := conv_spec φ .D (φ.fmaNS_ne_nan .U (φ.round .N (j:ℚ)) a cu)
    show _ ≤ (φ.conv .D _).neg.toE
    rw [FP.toE_neg, h3.2.1, Fmt.rndE_D, EReal.le_neg]
    refine ((φ.rdE_le _).trans h2).trans (le_of_eq ?_)
    rw [← EReal.coe_neg]; push_cast; rw [neg_neg]
  · have h2 := le_fma_D' (φ := φ) (a := φ.round .N (j:ℚ)) (b := b) (c := cl) r.neg (by linarith)
      (by linarith [(tick_fma h hj hb.1 hb.2).1])
    have h3 := conv_spec φ .U (φ.fmaNS_ne_nan .D (φ.round .N (j:ℚ)) b cl)
    show (φ.conv .U _).neg.toE ≤ _
    rw [FP.toE_neg, h3.2.1, Fmt.rndE_U, EReal.neg_le]
    refine le_trans (le_of_eq ?_) (h2.trans (φ.le_ruE _))
    rw [← EReal.coe_neg]; push_cast; rfl
end

/-- All boxes that the code looks at are within `2^65`. -/
def BoxWithin (φ : Fmt) (box : ℤ → FP → FP → Itv) : Prop :=
  ∀ k : ℤ, |k| ≤ 2 ^ 63 + 2 → ∀ a b : FP, (3 ≤ a.q ∧ a.q ≤ 13 / 4) → (3 ≤ b.q ∧ b.q ≤ 13 / 4) → BndBy (2 ^ (65:ℤ)) (box k a b)

theorem sinBox_within (h : 2 ^ 65 < φ.maxFin) {cl cu : FP} (hl : -4 ≤ cl.q) (hu : cu.q ≤ 4) : BoxWithin φ (φ.sinBox cl cu) := by
  intro k hk a b ha hb
  unfold Fmt.sinBox; split_ifs
  · exact shift_within h (by omega) ha hb hl hu
  · exact mirror_within h (by rw [abs_neg]; omega) ha hb hl hu

theorem cosBox_within (h : 2 ^ 65 < φ.maxFin) {cl cu : FP} (hl : -4 ≤ cl.q) (hu : cu.q ≤ 4) : BoxWithin φ (φ.cosBox cl cu) := by
  intro k hk a b ha hb
  unfold Fmt.cosBox; split_ifs
  · exact shift_within h (by omega) ha hb hl hu
  · exact mirror_within h (by have := abs_sub (-k) 1; rw [abs_one, abs_neg] at this; omega) ha hb hl hu

theorem tanBox_within (h : 2 ^ 65 < φ.maxFin) {cl cu : FP} (hl : -4 ≤ cl.q) (hu : cu.q ≤ 4) : BoxWithin φ (φ.tanBox cl cu) :=
  fun _ hk _ _ ha hb => shift_within h (by omega) ha hb hl hu

theorem ceilQuo_abs (q y : ℚ) : |ceilQuo q y| ≤ 2 ^ 63 := by
  have h := quoLow_abs (roundInt .N (q / y))
  rw [abs_lt] at h
  simp only [ceilQuo]
  split_ifs <;> rw [abs_le] <;> constructor <;> omega

theorem inter_beyond {b : Itv} (h1 : b.lo.In φ ∧ b.hi.In φ) (hx : x.NE φ) (hw : BndBy (2 ^ (65:ℤ)) b) (hf : x.Beyond) :
    (b.inter x).set ⊆ ∅ := by
  obtain ⟨u, v, el, eh, h | h⟩ := hf
  · rw [inter_below h1 hx (lt_of_le_of_lt hw.hi_le ?_) hw.hi_ne]
    rw [el]; simp only [FP.toE]
    rw [EReal.coe_lt_coe_iff]; exact_mod_cast h
  · refine inter_sub h1 hx fun t ht1 ht2 => absurd ((hw.le_lo.trans ht1).trans ht2) (not_le.mpr ?_)
    rw [eh]; simp only [FP.toE]
    rw [EReal.coe_lt_coe_iff]
    have := (Rat.cast_lt (K := ℝ)).mpr h
    push_cast at this ⊢
    exact_mod_cast this

theorem hull_beyond {quo : ℚ → ℚ → ℤ} {box : ℤ → FP → FP → Itv} (hq : ∀ q y, |quo q y| ≤ 2 ^ 63) (hb : BoxIn φ box)
    (hw : BoxWithin φ box) (hx : x.NE φ) (hf : x.Beyond) : ((φ.leftBox box x).hull (φ.rightBox quo box x)).set = ∅ := by
  have pd : 3 ≤ (φ.constPi .D).q ∧ (φ.constPi .D).q ≤ 13 / 4 := ⟨φ.three_le_pid, φ.pid_le_piu.trans φ.piu_le⟩
  have pu : 3 ≤ (φ.constPi .U).q ∧ (φ.constPi .U).q ≤ 13 / 4 := ⟨φ.three_le_piu, φ.piu_le⟩
  obtain ⟨u, v, el, eh, -⟩ := id hf
  have L : (φ.leftBox box x).set ⊆ ∅ := by
    unfold Fmt.leftBox
    rw [if_neg (by rw [el]; simp [Itv.feq_ninf])]
    split_ifs
    · have := abs_le.mp (floorQuo_abs x.lo.q (φ.constPi .D).q)
      exact firstOf_sub (inter_beyond (hb _ _ _) hx (hw _ (abs_le.mpr ⟨by omega, by omega⟩) _ _ pu pd) hf)
        (inter_beyond (hb _ _ _) hx (hw _ (abs_le.mpr ⟨by omega, by omega⟩) _ _ pu pd) hf)
    · have := abs_le.mp (floorQuo_abs x.lo.q (φ.constPi .U).q)
      exact firstOf_sub (inter_beyond (hb _ _ _) hx (hw _ (abs_le.mpr ⟨by omega, by omega⟩) _ _ pd pu) hf)
        (inter_beyond (hb _ _ _) hx (hw _ (abs_le.mpr ⟨by omega, by omega⟩) _ _ pd pu) hf)
  have R : (φ.rightBox quo box x).set ⊆ ∅ := by
    unfold Fmt.rightBox
    rw [if_neg (by rw [eh]; simp [Itv.feq_pinf])]
    split_ifs
    · have := abs_le.mp (hq x.hi.q (φ.constPi .D).q)
      exact firstOf_sub (inter_beyond (hb _ _ _) hx (hw _ (abs_le.mpr ⟨by omega, by omega⟩) _ _ pd pu) hf)
        (inter_beyond (hb _ _ _) hx (hw _ (abs_le.mpr ⟨by omega, by omega⟩) _ _ pd pu) hf)
    · have := abs_le.mp (hq x.hi.q (φ.constPi .U).q)
      exact firstOf_sub (inter_beyond (hb _ _ _) hx (hw _ (abs_le.mpr ⟨by omega, by omega⟩) _ _ pu pd) hf)
        (inter_beyond (hb _ _ _) hx (hw _ (abs_le.mpr ⟨by omega, by omega⟩) _ _ pu pd) hf)
  have := (Itv.hull_tight (leftBox_any hb hx).1 (rightBox_any (quo := quo) hb hx).1).2.2 _ (Itv.ok_empty φ)
    (Set.union_subset (L.trans (by simp)) (R.trans (by simp)))
  simpa using this

theorem beyond_max (hx : x.NE φ) (hf : x.Beyond) : 2 ^ 65 < φ.maxFin := by
  obtain ⟨a, b, el, eh, h⟩ := hf
  have h1 : φ.Rep a := by have := hx.lo_in; rwa [el] at this
  have h2 : φ.Rep b := by have := hx.hi_in; rwa [eh] at this
  have := abs_le.mp h1.abs_le
  have := abs_le.mp h2.abs_le
  rcases h with h | h <;> linarith

/-- Bounds of the arcs, as used by the three functions. -/
theorem arc_le {f : ℝ → ℝ} {w : ℝ} (h : |f w| ≤ 4) : -4 ≤ (φ.rndMP .D (f w)).q ∧ (φ.rndMP .U (f w)).q ≤ 4 := by
  have r := φ.rep_small (k := 4) (by norm_num)
  have r' := φ.rep_small (k := -4) (by norm_num)
  obtain ⟨h1, h2⟩ := abs_le.mp h
  have a1 := φ.le_rndMP_D h r' (by push_cast; linarith) (Or.inl (by norm_num))
  have a2 := φ.rndMP_U_le h r (by push_cast; linarith) (Or.inl (by norm_num))
  exact ⟨by exact_mod_cast a1, by exact_mod_cast a2⟩

/-- Beyond `2^65` everything is lost: unless `c` contains `[-1, 1]`, the result of `sin_rev` and of `cos_rev` is empty; the
result of `tan_rev` is empty in any case. -/
theorem C31_beyond (hc : c.Ok φ) (hx : x.Ok φ) (hf : Beyond x.set) :
    (¬ Set.Icc (-1:ℝ) 1 ⊆ c.set → (c.sinRev φ x).set = ∅ ∧ (c.cosRev φ x).set = ∅) ∧ (c.tanRev φ x).set = ∅ := by
  rcases hx.cases with rfl | nx
  · simp [Itv.sinRev, Itv.cosRev, Itv.tanRev]
  replace hf := nx.beyond hf
  have hM := beyond_max nx hf
  have hpi := pi_lt_d2
  have hpp := pi_pos
  obtain ⟨i, j⟩ := Itv.inter_ok_set hc (ok_unit φ).ok
  rw [set_unit] at j
  refine ⟨fun hn => ?_, ?_⟩
  · have heq : ¬ (c.inter ⟨.fin (-1), .fin 1⟩).equal ⟨.fin (-1), .fin 1⟩ = true := by
      intro h
      have h1 := (i.eq_iff (ok_unit φ).ok).mp h
      rw [j, set_unit] at h1
      exact hn (h1 ▸ Set.inter_subset_left)
    unfold Itv.sinRev Itv.cosRev
    simp only [hc.isValid, hx.isValid, nx.isEmpty, Bool.not_true, Bool.or_self, Bool.false_eq_true, if_false]
    generalize c.inter ⟨.fin (-1), .fin 1⟩ = cc at *
    rcases i.cases with rfl | nc
    · simp
    rw [if_neg (by simp [nc.isEmpty]), if_neg heq, if_neg (by simp [nc.isEmpty]), if_neg heq]
    obtain ⟨l, u, el, eu, hl, hlu, hu, rl, ru, hmem⟩ := unit_bounds nc (by rw [j]; exact Set.inter_subset_right)
    have s1 : ∀ w : ℝ, |arcsin w| ≤ 4 := fun w => by
      have := arcsin_mem_Icc w
      exact abs_le.mpr ⟨by linarith [this.1], by linarith [this.2]⟩
    have s2 : ∀ w : ℝ, |arccos w| ≤ 4 := fun w =>
      abs_le.mpr ⟨by linarith [arccos_nonneg w], by linarith [arccos_le_pi w]⟩
    constructor
    · refine hull_beyond ceilQuo_abs (sinBox_in _ _) (sinBox_within hM ?_ ?_) nx hf
      · rw [arcNS_q .D arcsin 0 0 el nc.lo_ne]; exact (arc_le (s1 _)).1
      · rw [arcNS_q .U arcsin 0 0 eu nc.hi_ne]; exact (arc_le (s1 _)).2
    · refine hull_beyond floorQuo_abs (cosBox_in _ _) (cosBox_within hM ?_ ?_) nx hf
      · rw [arcNS_q .D arccos 0 0 eu nc.hi_ne]; exact (arc_le (s2 _)).1
      · rw [arcNS_q .U arccos 0 0 el nc.lo_ne]; exact (arc_le (s2 _)).2
  · unfold Itv.tanRev
    split_ifs with h1
    · simp
    have t1 : ∀ w : ℝ, |arctan w| ≤ 4 := fun w =>
      abs_le.mpr ⟨by linarith [neg_pi_div_two_lt_arctan w], by linarith [arctan_lt_pi_div_two w]⟩
    have t2 : |π / 2| ≤ 4 := abs_le.mpr ⟨by linarith, by linarith⟩
    have t3 : |-(π / 2)| ≤ 4 := by rwa [abs_neg]
    have key : ∀ a : FP, -4 ≤ (φ.arcNS .D arctan (-(π / 2)) (π / 2) a).q ∧ (φ.arcNS .U arctan (-(π / 2)) (π / 2) a).q ≤ 4 := by
      intro a
      cases a with
      | nan => simp [Fmt.arcNS, FP.q]
      | ninf => exact arc_le (f := id) t3
      | pinf => exact arc_le (f := id) t2
      | nzero => simp [Fmt.arcNS, FP.q]
      | fin q => exact arc_le (t1 _)
    exact hull_beyond ceilQuo_abs (tanBox_in _ _) (tanBox_within hM (key _).1 (key _).2) nx hf

theorem exists_shift {a b p t : ℝ} (hp : 0 < p) (h : p ≤ b - a) : ∃ k : ℤ, a ≤ t + k * p ∧ t + k * p ≤ b := by
  refine ⟨⌈(a - t) / p⌉, ?_, ?_⟩
  · have := Int.le_ceil ((a - t) / p)
    rw [div_le_iff₀ hp] at this
    linarith
  · have := mul_lt_mul_of_pos_right (Int.ceil_lt_add_one ((a - t) / p)) hp
    have e : ((a - t) / p + 1) * p = a - t + p := by field_simp
    linarith

/-- ... although an `x` that is at least 7 wide does contain solutions: for every `c` that meets `[-1, 1]` but does not contain it
`sin_rev` and `cos_rev` lose all of them, and `tan_rev` does for every non-empty `c`. -/
theorem C31_beyond_false (hc : c.Ok φ) (hx : x.Ok φ) (hf : Beyond x.set) {a b : ℝ} (ha : a ∈ x.set) (hb : b ∈ x.set)
    (hw : 7 ≤ b - a) :
    ((c.set ∩ Set.Icc (-1) 1).Nonempty → ¬ Set.Icc (-1:ℝ) 1 ⊆ c.set →
      (RevSol sin c.set x.set).Nonempty ∧ (c.sinRev φ x).set = ∅ ∧
      (RevSol cos c.set x.set).Nonempty ∧ (c.cosRev φ x).set = ∅) ∧
    (c.set.Nonempty → (RevSolOn tan tanDom c.set x.set).Nonempty ∧ (c.tanRev φ x).set = ∅) := by
  obtain ⟨h1, h2⟩ := C31_beyond hc hx hf
  have hpp := pi_pos
  have hpi := pi_lt_d2
  refine ⟨?_, ?_⟩
  · rintro ⟨v, hv, hv1, hv2⟩ hn
    refine ⟨?_, (h1 hn).1, ?_, (h1 hn).2⟩
    · obtain ⟨k, k1, k2⟩ := exists_shift (t := arcsin v) (p := 2 * π) (a := a) (b := b) (by linarith) (by linarith)
      exact ⟨_, (Itv.ordConnected _).out ha hb ⟨k1, k2⟩, by rw [sin_add_int_mul_two_pi, sin_arcsin hv1 hv2]; exact hv⟩
    · obtain ⟨k, k1, k2⟩ := exists_shift (t := arccos v) (p := 2 * π) (a := a) (b := b) (by linarith) (by linarith)
      exact ⟨_, (Itv.ordConnected _).out ha hb ⟨k1, k2⟩, by rw [cos_add_int_mul_two_pi, cos_arccos hv1 hv2]; exact hv⟩
  · rintro ⟨v, hv⟩
    refine ⟨?_, h2⟩
    obtain ⟨k, k1, k2⟩ := exists_shift (t := arctan v) (p := 2 * π) (a := a) (b := b) (by linarith) (by linarith)
    refine ⟨_, (Itv.ordConnected _).out ha hb ⟨k1, k2⟩, ?_, ?_⟩
    · show cos _ ≠ 0
      rw [cos_add_int_mul_two_pi]; exact (cos_arctan_pos v).ne'
    · rw [tan_eq_sin_div_cos, sin_add_int_mul_two_pi, cos_add_int_mul_two_pi, ← tan_eq_sin_div_cos, tan_arctan]; exact hv

section Mixed
variable {T T1 T2 : NumTy}

theorem mixed_beyond {f : Fmt → Itv → Itv → Itv}
    (H : ∀ (ψ : Fmt) (c' x' : Itv), c'.Ok ψ → x'.Ok ψ → c'.set = c.set → x'.set = x.set → (f ψ c' x').Ok ψ ∧ (f ψ c' x').set = ∅)
    (hc : c.Ok T1.fmt) (hx : x.Ok T2.fmt) : (Itv.revMixed f T T1 T2 c x).set = ∅ := by
  have hs1 : T1.fmt.Sub (T.maxPrec [T1, T2]).fmt := NumTy.sub_max (by simp)
  have hs2 : T2.fmt.Sub (T.maxPrec [T1, T2]).fmt := NumTy.sub_max (by simp)
  unfold Itv.revMixed
  split_ifs
  · simp
  generalize (T.maxPrec [T1, T2]).fmt = ψ at *
  obtain ⟨o, e⟩ := H ψ _ _ (convertHull_tight (φ := ψ) hc).1 (convertHull_tight (φ := ψ) hx).1 (convert_exact hs1 hc) (convert_exact hs2 hx)
  have := (convertHull_tight (φ := T.fmt) o).2.2 _ (Itv.ok_empty _) (by rw [e]; simp)
  simpa using this

/-- The mixed-type versions lose everything beyond `2^65` as well. -/
theorem C31_beyond_mixed (hc : c.Ok T1.fmt) (hx : x.Ok T2.fmt) (hf : Beyond x.set) :
    (¬ Set.Icc (-1:ℝ) 1 ⊆ c.set →
      (Itv.revMixed Itv.sinRev T T1 T2 c x).set = ∅ ∧ (Itv.revMixed Itv.cosRev T T1 T2 c x).set = ∅) ∧
    (Itv.revMixed Itv.tanRev T T1 T2 c x).set = ∅ :=
  ⟨fun hn => ⟨mixed_beyond (fun _ _ _ h1 h2 e1 e2 => ⟨(C31_valid h1 h2).1.1, ((C31_beyond h1 h2 (e2 ▸ hf)).1 (e1 ▸ hn)).1⟩) hc hx,
    mixed_beyond (fun _ _ _ h1 h2 e1 e2 => ⟨(C31_valid h1 h2).2.1.1, ((C31_beyond h1 h2 (e2 ▸ hf)).1 (e1 ▸ hn)).2⟩) hc hx⟩,
    mixed_beyond (fun _ _ _ h1 h2 _ e2 => ⟨(C31_valid h1 h2).2.2.1, (C31_beyond h1 h2 (e2 ▸ hf)).2⟩) hc hx⟩

end Mixed

/-- The hypotheses can be met in `binary64` and in `binary32`, e.g. with `c = [0, 1/2]` and `x = [2^66, 2^67]`. -/
example : let c : Itv := ⟨.fin 0, .fin (1 / 2)⟩; let x : Itv := ⟨.fin (2 ^ 66), .fin (2 ^ 67)⟩
    c.Ok binary32 ∧ x.Ok binary32 ∧ Beyond x.set ∧ ((2:ℝ) ^ 66 ∈ x.set ∧ (2:ℝ) ^ 67 ∈ x.set ∧ (7:ℝ) ≤ 2 ^ 67 - 2 ^ 66) ∧
      (c.set ∩ Set.Icc (-1) 1).Nonempty ∧ ¬ Set.Icc (-1:ℝ) 1 ⊆ c.set := by
  have e : Itv.set ⟨.fin (2 ^ 66), .fin (2 ^ 67)⟩ = Set.Icc ((2:ℝ) ^ 66) (2 ^ 67) := by
    ext t; rw [mem_fin]; push_cast; rfl
  have e' : Itv.set ⟨.fin 0, .fin (1 / 2)⟩ = Set.Icc (0:ℝ) (1 / 2) := by
    ext t; rw [mem_fin]; push_cast; rfl
  refine ⟨Itv.ok_of_okb (by decide +kernel), Itv.ok_of_okb (by decide +kernel), ?_, ?_, ?_, ?_⟩
  · rw [e]; exact ⟨Metric.isBounded_Icc _ _, Or.inl fun t ht => lt_of_lt_of_le (by norm_num) ht.1⟩
  · rw [e]; norm_num
  · rw [e']; exact ⟨0, by norm_num, by norm_num⟩
  · rw [e']; intro h
    have := h (show (-1:ℝ) ∈ Set.Icc (-1) 1 by norm_num)
    norm_num at this

end P1788
