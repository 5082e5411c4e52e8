import Verif.Props.C69

/-! # C69: the reverse trigonometric functions are sharp, decorated and mixed-type versions

In the mixed-type versions the operands may be of any number types; the distance is relative to the precision of the result type. -/

namespace P1788
open Real

variable {φ ψ : Fmt} {S : Set ℝ} {e e' : ℝ}

theorem near_rd (h : φ.rdE (e' : EReal) = (e : EReal)) : |e' - e| ≤ eps φ * |e'| + 2 ^ φ.qmin ∨ (φ.maxFin : ℝ) ≤ |e| := by
  have hle : e ≤ e' := by
    have := φ.rdE_le (e' : EReal)
    rw [h] at this
    exact EReal.coe_le_coe_iff.mp this
  by_cases h1 : |e'| ≤ φ.maxFin
  · left
    obtain ⟨f, hf, f1, f2⟩ := rep_below (φ := φ) h1
    have h3 := (φ.le_rdE_iff (f := .fin f) hf (e' : EReal) (by simp)).mpr (by simpa using f1)
    rw [h] at h3
    have h4 : (f : ℝ) ≤ e := by simpa using h3
    rw [abs_of_nonneg (by linarith)]
    linarith
  · right
    push Not at h1
    rcases lt_abs.mp h1 with h2 | h2
    · have h3 := (φ.le_rdE_iff (f := .fin φ.maxFin) φ.rep_maxFin (e' : EReal) (by simp)).mpr (by simpa using h2.le)
      rw [h] at h3
      have h4 : (φ.maxFin : ℝ) ≤ e := by simpa using h3
      exact h4.trans (le_abs_self e)
    · exact le_trans (by linarith) (neg_le_abs e)

theorem near_ru (h : φ.ruE (e' : EReal) = (e : EReal)) : |e' - e| ≤ eps φ * |e'| + 2 ^ φ.qmin ∨ (φ.maxFin : ℝ) ≤ |e| := by
  have h1 : φ.rdE ((-e' : ℝ) : EReal) = ((-e : ℝ) : EReal) := by
    rw [EReal.coe_neg, EReal.coe_neg, φ.rdE_neg, h]
  have := near_rd h1
  rwa [abs_neg, abs_neg, show -e' - -e = -(e' - e) by ring, abs_neg] at this

/-- A number near to `S` in a finer format, rounded. -/
theorem near_conv (hS : ∀ t ∈ S, ∀ m : ℤ, t + m * (2 * π) ∈ S) (hu : uu ψ ≤ uu φ / 4) (hn : NearS ψ S e')
    (h : |e' - e| ≤ eps φ * |e'| + 2 ^ φ.qmin ∨ (φ.maxFin : ℝ) ≤ |e|) : NearS φ S e := by
  obtain ⟨t, ht, hd⟩ := hn
  rcases h with h | h
  · refine ⟨t, ht, ?_⟩
    obtain ⟨u0, hu1, hup, hue, htr, hq⟩ := unit_facts φ
    obtain ⟨v0, -⟩ := unit_facts ψ
    rw [hue] at h
    have a1 : |t - e| ≤ |t - e'| + |e' - e| := abs_sub_le t e' e
    have a2 : |e'| ≤ |e| + |e' - e| := by
      have := abs_sub_abs_le_abs_sub e' e
      linarith
    have ae := abs_nonneg e
    have ae' := abs_nonneg e'
    have d20 := abs_nonneg (e' - e)
    generalize |t - e| = d at *
    generalize |t - e'| = d1 at *
    generalize |e' - e| = d2 at *
    generalize |e| = a at *
    generalize |e'| = b at *
    have e1 : d1 ≤ uu φ * (b + 5) := hd.trans (by nlinarith)
    have d0 : 0 ≤ d2 := d20
    have e2 : uu φ * b ≤ uu φ * a + d2 / 256 := by
      have := mul_le_mul_of_nonneg_left a2 u0.le
      have := mul_le_mul_of_nonneg_right hu1 d0
      linarith
    have e0 : 0 ≤ uu φ * a := mul_nonneg u0.le ae
    rw [show 4 * uu φ * (a + 5) = 4 * (uu φ * a) + 20 * uu φ by ring]
    rw [show uu φ * (b + 5) = uu φ * b + 5 * uu φ by ring] at e1
    rw [show 2 * uu φ * b = 2 * (uu φ * b) by ring] at h
    linarith
  · exact far (hS t ht) (far_max h)

theorem NumTy.uu_max {T M : NumTy} (h : T.order ≤ M.order) : M = T ∨ uu M.fmt ≤ uu T.fmt / 4 := by
  have key : M = T ∨ T.fmt.p + 2 ≤ M.fmt.p := by
    cases T <;> cases M <;> revert h <;> decide +kernel
  refine key.imp id fun k => ?_
  unfold uu
  rw [show (2:ℝ) ^ (-(T.fmt.p:ℤ)) / 4 = 2 ^ (-(T.fmt.p:ℤ) - 2) by rw [zpow_sub₀ (by norm_num)]; norm_num]
  exact zpow_le_zpow_right₀ (by norm_num) (by omega)

theorem nearS_of {S : Set ℝ} {e : ℝ} (h : NearTo φ S e) : NearS φ S e := by
  obtain ⟨t, ht, hd⟩ := h
  refine ⟨t, ht, hd.trans_eq ?_⟩
  unfold uu
  rw [sub_eq_add_neg, zpow_add₀ (by norm_num)]
  norm_num

theorem conv_end {X : Itv} (hX : X.Ok ψ) (h : IsEnd (φ.convertHull X).set e) :
    ∃ e', IsEnd X.set e' ∧ (|e' - e| ≤ eps φ * |e'| + 2 ^ φ.qmin ∨ (φ.maxFin : ℝ) ≤ |e|) := by
  rcases hX.cases with rfl | n
  · rcases h with h | h <;> simpa using h.1
  rcases (convertHull_tight (φ := φ) hX).1.cases with h0 | m
  · rw [h0] at h
    rcases h with h | h <;> simpa using h.1
  rcases h with h | h
  · have h1 := least_lo m h
    have h2 := (convertRndd_spec φ n.lo_ne).2.1
    rw [show φ.convertRndd X.lo = (φ.convertHull X).lo from rfl, h1] at h2
    have hb : X.lo.toE ≠ ⊥ := by
      intro hb
      have := φ.rdE_le X.lo.toE
      rw [← h2, hb] at this
      simp at this
    have hr : X.lo.toE = ((X.lo.toE.toReal : ℝ) : EReal) := (EReal.coe_toReal n.lo_top hb).symm
    refine ⟨X.lo.toE.toReal, Or.inl ⟨n.mem.mpr ⟨hr.le, hr ▸ n.le⟩, fun r hr' => ?_⟩, near_rd (by rw [← hr, h2])⟩
    have := (n.mem.mp hr').1
    rw [hr] at this
    exact EReal.coe_le_coe_iff.mp this
  · have h1 := greatest_hi m h
    have h2 := (convertRndu_spec φ n.hi_ne).2.1
    rw [show φ.convertRndu X.hi = (φ.convertHull X).hi from rfl, h1] at h2
    have hb : X.hi.toE ≠ ⊤ := by
      intro hb
      have := φ.le_ruE X.hi.toE
      rw [← h2, hb] at this
      simp at this
    have hr : X.hi.toE = ((X.hi.toE.toReal : ℝ) : EReal) := (EReal.coe_toReal hb n.hi_bot).symm
    refine ⟨X.hi.toE.toReal, Or.inr ⟨n.mem.mpr ⟨hr ▸ n.le, hr.ge⟩, fun r hr' => ?_⟩, near_ru (by rw [← hr, h2])⟩
    have := (n.mem.mp hr').2
    rw [hr] at this
    exact EReal.coe_le_coe_iff.mp this

theorem rev_mixed_near {f : Fmt → Itv → Itv → Itv} {S : Set ℝ → Set ℝ} {T T1 T2 : NumTy} {c x : Itv}
    (hS : ∀ C, ∀ t ∈ S C, ∀ m : ℤ, t + m * (2 * π) ∈ S C)
    (hv : ∀ (ψ : Fmt) (c x : Itv), c.Ok ψ → x.Ok ψ → (f ψ c x).Ok ψ)
    (H : ∀ (ψ : Fmt) (c x : Itv), c.Ok ψ → x.Ok ψ → ∀ e, IsEnd (f ψ c x).set e → NearTo ψ (S c.set) e)
    (hc : c.Ok T1.fmt) (hx : x.Ok T2.fmt) (h : IsEnd (Itv.revMixed f T T1 T2 c x).set e) : NearTo T.fmt (S c.set) e := by
  have hs1 : T1.fmt.Sub (T.maxPrec [T1, T2]).fmt := NumTy.sub_max (by simp)
  have hT := NumTy.maxPrec_order T [T1, T2] T (by simp)
  have hem : ∀ e, ¬IsEnd Itv.empty.set e := by
    rintro e (he | he) <;> simpa using he.1
  rcases hc.cases with rfl | nc
  · exact absurd (by simpa [Itv.revMixed] using h) (hem e)
  rcases hx.cases with rfl | nx
  · exact absurd (by simpa [Itv.revMixed] using h) (hem e)
  unfold Itv.revMixed at h
  simp only [hc.isValid, hx.isValid, nc.isEmpty, nx.isEmpty, Bool.not_true, Bool.or_self, Bool.false_eq_true, if_false] at h
  generalize T.maxPrec [T1, T2] = M at *
  have oc := (convertHull_tight (φ := M.fmt) hc).1
  have ox := (convertHull_tight (φ := M.fmt) hx).1
  have hn := H M.fmt _ _ oc ox
  have ov := hv M.fmt _ _ oc ox
  rw [convert_exact hs1 hc] at hn
  rcases NumTy.uu_max hT with rfl | hu
  · rw [convert_exact (fun _ h => h) ov] at h
    exact hn e h
  · obtain ⟨e', h1, h2⟩ := conv_end ov h
    exact nearTo_of (near_conv (hS _) hu (nearS_of (hn e' h1)) h2)

/-- The ends of the mixed-type versions are near to solutions, relative to the precision of the result type. -/
theorem C69_mixed {T T1 T2 : NumTy} {c x : Itv} (hc : c.Ok T1.fmt) (hx : x.Ok T2.fmt) :
    (IsEnd (Itv.revMixed Itv.sinRev T T1 T2 c x).set e → NearTo T.fmt {t | sin t ∈ c.set} e) ∧
    (IsEnd (Itv.revMixed Itv.cosRev T T1 T2 c x).set e → NearTo T.fmt {t | cos t ∈ c.set} e) ∧
    (IsEnd (Itv.revMixed Itv.tanRev T T1 T2 c x).set e → NearTo T.fmt {t | cos t ≠ 0 ∧ tan t ∈ c.set} e) := by
  refine ⟨rev_mixed_near (S := fun C => {t | sin t ∈ C}) (fun C t ht m => ?_) (fun _ _ _ h1 h2 => (C31_valid h1 h2).1.1)
      (fun _ _ _ h1 h2 _ => C69_sin_rev h1 h2) hc hx,
    rev_mixed_near (S := fun C => {t | cos t ∈ C}) (fun C t ht m => ?_) (fun _ _ _ h1 h2 => (C31_valid h1 h2).2.1.1)
      (fun _ _ _ h1 h2 _ => C69_cos_rev h1 h2) hc hx,
    rev_mixed_near (S := fun C => {t | cos t ≠ 0 ∧ tan t ∈ C}) (fun C t ht m => ?_) (fun _ _ _ h1 h2 => (C31_valid h1 h2).2.2.1)
      (fun _ _ _ h1 h2 _ => C69_tan_rev h1 h2) hc hx⟩
  · show sin _ ∈ C
    rw [sin_add_int_mul_two_pi]; exact ht
  · show cos _ ∈ C
    rw [cos_add_int_mul_two_pi]; exact ht
  · refine ⟨?_, ?_⟩
    · rw [cos_add_int_mul_two_pi]; exact ht.1
    · rw [tan_eq_sin_div_cos, sin_add_int_mul_two_pi, cos_add_int_mul_two_pi, ← tan_eq_sin_div_cos]; exact ht.2

theorem rev_dec_near {f : Itv → Itv → Itv} {S : Set ℝ} {c x : DItv}
    (H : IsEnd (f c.itv x.itv).set e → NearTo φ S e) (h : IsEnd (DItv.rev f c x).itv.set e) : NearTo φ S e := by
  unfold DItv.rev at h
  split_ifs at h
  · rcases h with h | h <;> simpa [DItv.nai] using h.1
  · exact H h

/-- The ends of the decorated versions are near to solutions. -/
theorem C69_decorated {c x : DItv} (hc : c.Ok φ) (hx : x.Ok φ) :
    (IsEnd (DItv.rev (Itv.sinRev φ) c x).itv.set e → NearTo φ {t | sin t ∈ c.itv.set} e) ∧
    (IsEnd (DItv.rev (Itv.cosRev φ) c x).itv.set e → NearTo φ {t | cos t ∈ c.itv.set} e) ∧
    (IsEnd (DItv.rev (Itv.tanRev φ) c x).itv.set e → NearTo φ {t | cos t ≠ 0 ∧ tan t ∈ c.itv.set} e) :=
  ⟨rev_dec_near (C69_sin_rev hc.1 hx.1), rev_dec_near (C69_cos_rev hc.1 hx.1), rev_dec_near (C69_tan_rev hc.1 hx.1)⟩

/-- The ends of the decorated mixed-type versions are near to solutions. -/
theorem C69_decorated_mixed {T T1 T2 : NumTy} {c x : DItv} (hc : c.Ok T1.fmt) (hx : x.Ok T2.fmt) :
    (IsEnd (DItv.revMixed Itv.sinRev T T1 T2 c x).itv.set e → NearTo T.fmt {t | sin t ∈ c.itv.set} e) ∧
    (IsEnd (DItv.revMixed Itv.cosRev T T1 T2 c x).itv.set e → NearTo T.fmt {t | cos t ∈ c.itv.set} e) ∧
    (IsEnd (DItv.revMixed Itv.tanRev T T1 T2 c x).itv.set e → NearTo T.fmt {t | cos t ≠ 0 ∧ tan t ∈ c.itv.set} e) :=
  ⟨rev_dec_near (C69_mixed hc.1 hx.1).1, rev_dec_near (C69_mixed hc.1 hx.1).2.1, rev_dec_near (C69_mixed hc.1 hx.1).2.2⟩

/-- A mixed-type result with ends: operands of `double`, result of `float`. -/
example : ∃ e, IsEnd (Itv.revMixed Itv.sinRev .float .double .double ⟨.fin 0, .fin (1 / 2)⟩ ⟨.fin (-1), .fin 1⟩).set e := by
  have hs : Itv.Bounds64 ⟨.fin (-1), .fin 1⟩ := by
    rintro q (h | h) <;> simp only [FP.fin.injEq] at h <;> subst h <;> norm_num
  have h0 : (0:ℝ) ∈ Itv.set ⟨.fin 0, .fin (1 / 2)⟩ := mem_fin.mpr (by norm_num)
  have hx : (0:ℝ) ∈ Itv.set ⟨.fin (-1), .fin 1⟩ := mem_fin.mpr (by norm_num)
  obtain ⟨v, s⟩ := ((C31_mixed_partial (T := .float) (T1 := .double) (T2 := .double) ex_c ex_x hs).2 h0).1
  have h1 := s (show (0:ℝ) ∈ _ from ⟨hx, by rw [sin_zero]; exact h0⟩)
  rcases exists_end v ⟨0, h1⟩ with h | h
  · exact h
  · exfalso
    have h2 : (2:ℝ) ∈ (Itv.revMixed Itv.sinRev .float .double .double ⟨.fin 0, .fin (1 / 2)⟩ ⟨.fin (-1), .fin 1⟩).set := h ▸ trivial
    have hc : Itv.Ok NumTy.double.fmt ⟨.fin 0, .fin (1 / 2)⟩ := ex_c
    have hx : Itv.Ok NumTy.double.fmt ⟨.fin (-1), .fin 1⟩ := ex_x
    have e1 := convert_exact (fun _ h => h : NumTy.double.fmt.Sub NumTy.double.fmt) hx
    obtain ⟨w, t⟩ := (C31_valid (convertHull_tight (φ := NumTy.double.fmt) hc).1 (convertHull_tight (φ := NumTy.double.fmt) hx).1).1
    rw [e1] at t
    have := (convertHull_tight (φ := NumTy.float.fmt) w).2.2 ⟨.fin (-1), .fin 1⟩ (Itv.ok_of_okb (by decide +kernel)) t
    rw [Itv.revMixed, if_neg (by simp [hc.isValid, hx.isValid]; decide +kernel)] at h2
    have := mem_fin.mp (this h2)
    norm_num at this

end P1788
