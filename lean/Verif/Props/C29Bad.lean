import Verif.Props.C29

/-! # C29: which results of `cancel_minus`, `cancel_plus` are invalid

Only the result for a bad pair (`CancelBad`) can be invalid.  It is if and only if two different numbers of the format lie
between `sup x - sup y` and `inf x - inf y`. -/

namespace P1788

variable {φ ψ : Fmt} {x y : Itv} {T T1 T2 : NumTy}

theorem FP.real_of {v : FP} (h : v.In φ) (hn : v ≠ .nan) (h1 : v.toE ≠ ⊥) (h2 : v.toE ≠ ⊤) :
    v.toE = ((v.q:ℝ):EReal) ∧ φ.Rep v.q := by
  cases v with
  | nan => exact absurd rfl hn
  | ninf => exact absurd rfl h1
  | pinf => exact absurd rfl h2
  | nzero => exact ⟨by simp [FP.toE, FP.q], by simpa [FP.q] using φ.rep_zero⟩
  | fin q => exact ⟨rfl, h⟩

/-- `L` is `A` rounded down, `U` is `B` rounded up. -/
theorem two_iff {L U : FP} {A B : ℝ} (l1 : L ≠ .nan) (u1 : U ≠ .nan) (l2 : L.In φ) (u2 : U.In φ)
    (hL : L.toE = φ.rdE A) (hU : U.toE = φ.ruE B) : ¬ (Itv.mk L U).Ok φ ↔ TwoBetween φ B A := by
  have hL' := hL.trans_le (φ.rdE_le _)
  have hU' := (φ.le_ruE _).trans_eq hU.symm
  have lt := (hL'.trans_lt (EReal.coe_lt_top _)).ne
  have ub := ((EReal.bot_lt_coe _).trans_le hU').ne'
  constructor
  · intro h
    have hlt : U.toE < L.toE := by
      by_contra hge
      exact h (Itv.NE.ok ⟨l1, u1, not_lt.mp hge, lt, ub, l2, u2⟩)
    obtain ⟨eL, rL⟩ := FP.real_of l2 l1 (bot_le.trans_lt hlt).ne' lt
    obtain ⟨eU, rU⟩ := FP.real_of u2 u1 ub (hlt.trans_le le_top).ne
    rw [eL, eU, EReal.coe_lt_coe_iff] at hlt
    rw [eL, EReal.coe_le_coe_iff] at hL'
    rw [eU, EReal.coe_le_coe_iff] at hU'
    exact ⟨U.q, L.q, rU, rL, by exact_mod_cast hlt, hU', hL'⟩
  · rintro ⟨f, g, rf, rg, hfg, h1, h2⟩ hok
    have h3 : ((g:ℝ):EReal) ≤ L.toE := by
      rw [hL]; exact (φ.le_rdE_iff (f := .fin g) rg _ (by simp)).mpr (EReal.coe_le_coe_iff.mpr h2)
    have h4 : U.toE ≤ ((f:ℝ):EReal) := by
      rw [hU]; exact (φ.ruE_le_iff (f := .fin f) rf _ (by simp)).mpr (EReal.coe_le_coe_iff.mpr h1)
    rcases hok.cases with h | h
    · exact l1 (congrArg Itv.lo h)
    · have := (h3.trans h.le).trans h4
      rw [EReal.coe_le_coe_iff] at this
      have : g ≤ f := by exact_mod_cast this
      linarith

/-- What is returned for a bad pair. -/
theorem cancel_bad (hx : x.NE φ) (hy : y.NE φ) (bx : x.lo ≠ .ninf ∧ x.hi ≠ .pinf) (by' : y.lo ≠ .ninf ∧ y.hi ≠ .pinf)
    (hb : CancelBad φ x.lo.q x.hi.q y.lo.q y.hi.q) : ∃ L U : FP, x.cancelMinus φ y = ⟨L, U⟩ ∧ L ≠ .nan ∧ U ≠ .nan ∧
      L.In φ ∧ U.In φ ∧ L.toE = φ.rdE ((x.lo.q - y.lo.q : ℝ) : EReal) ∧ U.toE = φ.ruE ((x.hi.q - y.hi.q : ℝ) : EReal) := by
  rw [cancel_core hx hy bx by', if_neg (fun h => h.2 hb)]
  obtain ⟨xl, xu, -, -, -⟩ := fin_of_bounded hx bx
  obtain ⟨yl, yu, -, -, -⟩ := fin_of_bounded hy by'
  obtain ⟨d1, d2⟩ := φ.sub_spec (m := .D) hx.lo_ne hy.lo_ne (by rw [xl]; simp) (by rw [xl]; simp)
  obtain ⟨u1, u2⟩ := φ.sub_spec (m := .U) hx.hi_ne hy.hi_ne (by rw [xu]; simp) (by rw [xu]; simp)
  rw [xl, yl, φ.rndE_D, ← EReal.coe_sub] at d2
  rw [xu, yu, φ.rndE_U, ← EReal.coe_sub] at u2
  exact ⟨_, _, rfl, d1, u1, φ.sub_in .D x.lo y.lo, φ.sub_in .U x.hi y.hi, d2, u2⟩

theorem two_lt {s t : ℝ} (h : TwoBetween φ s t) : s < t := by
  obtain ⟨f, g, -, -, h1, h2, h3⟩ := h
  have : (f:ℝ) < g := by exact_mod_cast h1
  linarith

/-- The result of `cancel_minus(x, y)` with bounded operands `x = [a, b]`, `y = [c, d]` is no interval exactly if the pair is bad
and two different numbers of the format lie between `b - d` and `a - c`. -/
theorem C29_minus_invalid (hx : x.Ok φ) (hy : y.Ok φ) {a b c d : ℝ} (hX : x.set = Set.Icc a b) (hab : a ≤ b)
    (hY : y.set = Set.Icc c d) (hcd : c ≤ d) :
    ¬ (x.cancelMinus φ y).Ok φ ↔ CancelBad φ a b c d ∧ TwoBetween φ (b - d) (a - c) := by
  rcases le_or_gt (d - c) (b - a) with hw | hw
  · have h := C29_minus hx hy hX hab hY hcd hw
    refine ⟨fun h' => absurd h.1 h', fun h => ?_⟩
    linarith [two_lt h.2]
  by_cases hbad : CancelBad φ a b c d
  swap
  · rw [C29_minus_narrow_partial hx hy hX hab hY hcd hw hbad]
    exact ⟨fun h => absurd (Itv.ok_entire φ) h, fun h => absurd h.1 hbad⟩
  obtain ⟨nx, bx, rfl, rfl⟩ := bounds_of_Icc hx hX hab
  obtain ⟨ny, by', rfl, rfl⟩ := bounds_of_Icc hy hY hcd
  obtain ⟨L, U, e, l1, u1, l2, u2, hL, hU⟩ := cancel_bad nx ny bx by' hbad
  rw [e, two_iff l1 u1 l2 u2 hL hU]
  exact ⟨fun h => ⟨hbad, h⟩, fun h => h.2⟩

/-- The same for `cancel_plus`, with `-y` in the place of `y`. -/
theorem C29_plus_invalid (hx : x.Ok φ) (hy : y.Ok φ) {a b c d : ℝ} (hX : x.set = Set.Icc a b) (hab : a ≤ b)
    (hY : y.set = Set.Icc c d) (hcd : c ≤ d) :
    ¬ (x.cancelPlus φ y).Ok φ ↔ CancelBad φ a b (-d) (-c) ∧ TwoBetween φ (b + c) (a + d) := by
  obtain ⟨h1, h2⟩ := C04_neg φ hy
  have := C29_minus_invalid hx h1.1 hX hab (h2.trans (neg_Icc hY)) (by linarith)
  rw [sub_neg_eq_add, sub_neg_eq_add] at this
  exact this

theorem rd_rd (hs : φ.Sub ψ) (A : EReal) : φ.rdE (ψ.rdE A) = φ.rdE A := by
  obtain ⟨f, hf, hn, he⟩ := φ.exists_rdE A
  refine le_antisymm (φ.rdE_mono (ψ.rdE_le _)) ?_
  rw [← he, φ.le_rdE_iff hf _ hn, ψ.le_rdE_iff (hs.in hf) _ hn, he]
  exact φ.rdE_le _

theorem ru_ru (hs : φ.Sub ψ) (A : EReal) : φ.ruE (ψ.ruE A) = φ.ruE A := by
  have := rd_rd hs (-A)
  rw [ψ.rdE_neg, φ.rdE_neg, φ.rdE_neg] at this
  exact neg_injective this

theorem convertHull_mk {L U : FP} : φ.convertHull ⟨L, U⟩ = ⟨φ.convertRndd L, φ.convertRndu U⟩ := by
  rfl

/-- Mixed types: the pair is bad in the most precise format, and two numbers of the result type lie between `b - d` and
`a - c`. -/
theorem C29_mixed_invalid (hx : x.Ok T1.fmt) (hy : y.Ok T2.fmt) {a b c d : ℝ} (hX : x.set = Set.Icc a b) (hab : a ≤ b)
    (hY : y.set = Set.Icc c d) (hcd : c ≤ d) : ¬ (x.cancelMinusMixed T T1 T2 y).Ok T.fmt ↔
      CancelBad (T.maxPrec [T1, T2]).fmt a b c d ∧ TwoBetween T.fmt (b - d) (a - c) := by
  rcases le_or_gt (d - c) (b - a) with hw | hw
  · have h := (C29_mixed (T := T) hx hy hX hab hY hcd).1 hw
    refine ⟨fun h' => absurd h.1 h', fun h => ?_⟩
    linarith [two_lt h.2]
  by_cases hbad : CancelBad (T.maxPrec [T1, T2]).fmt a b c d
  swap
  · rw [(C29_mixed (T := T) hx hy hX hab hY hcd).2 hw hbad]
    exact ⟨fun h => absurd (Itv.ok_entire _) h, fun h => absurd h.1 hbad⟩
  have hs1 : T1.fmt.Sub (T.maxPrec [T1, T2]).fmt := NumTy.sub_max (by simp)
  have hs2 : T2.fmt.Sub (T.maxPrec [T1, T2]).fmt := NumTy.sub_max (by simp)
  have hs : T.fmt.Sub (T.maxPrec [T1, T2]).fmt := NumTy.sub_max (by simp)
  have ox := (convertHull_tight (φ := (T.maxPrec [T1, T2]).fmt) hx).1
  have oy := (convertHull_tight (φ := (T.maxPrec [T1, T2]).fmt) hy).1
  unfold Itv.cancelMinusMixed
  rw [hx.isValid, hy.isValid]
  simp only [Bool.not_true, Bool.or_self, Bool.false_eq_true, if_false]
  obtain ⟨nx, bx, rfl, rfl⟩ := bounds_of_Icc ox ((convert_exact hs1 hx).trans hX) hab
  obtain ⟨ny, by', rfl, rfl⟩ := bounds_of_Icc oy ((convert_exact hs2 hy).trans hY) hcd
  obtain ⟨L, U, e, l1, u1, -, -, hL, hU⟩ := cancel_bad nx ny bx by' hbad
  obtain ⟨a1, a2, a3⟩ := convertRndd_spec T.fmt l1
  obtain ⟨b1, b2, b3⟩ := convertRndu_spec T.fmt u1
  rw [hL, rd_rd hs] at a2
  rw [hU, ru_ru hs] at b2
  rw [e, convertHull_mk, two_iff a1 b1 a3 b3 a2 b2]
  exact ⟨fun h => ⟨hbad, h⟩, fun h => h.2⟩

/-- A bad pair of `float`s with a result that is no interval. -/
example :
    let x : Itv := ⟨.fin (2 ^ 127 - 5 / 2 * topUlp), .fin binary32.maxFin⟩
    let y : Itv := ⟨.fin (-(2 ^ 127 - 1 / 2 * topUlp)), .fin (3 * topUlp)⟩
    TwoBetween binary32 ((x.hi.q:ℝ) - y.hi.q) ((x.lo.q:ℝ) - y.lo.q) := by
  intro x y
  have hx : x.Ok binary32 := Itv.ok_of_okb (by decide +kernel)
  have hy : y.Ok binary32 := Itv.ok_of_okb (by decide +kernel)
  have lx : (x.lo.q:ℝ) ≤ x.hi.q := by exact_mod_cast (by decide +kernel : x.lo.q ≤ x.hi.q)
  have ly : (y.lo.q:ℝ) ≤ y.hi.q := by exact_mod_cast (by decide +kernel : y.lo.q ≤ y.hi.q)
  exact ((C29_minus_invalid hx hy (Set.ext fun _ => Iff.rfl) lx (Set.ext fun _ => Iff.rfl) ly).mp C29_false_invalid.2.2.2.2.2).2

end P1788
