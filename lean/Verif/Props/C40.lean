import Verif.Lemmas.Write
import Verif.Model.WriteUnc
import Verif.Props.C38

/-!
# C40 Writing intervals is safe

Texts and their meaning are those of `Verif/SpecText.lean`.
-/

namespace P1788
variable {φ : Fmt} {slack : ℕ}

/-! ### Text -/

theorem body_of_bounds {p2 p4 v w a b : List Char} {n n' : ℤ} {l u : Option ℚ} {N N' : List NumInfo} (hv : IsWs v) (hw : IsWs w)
    (h2 : p2 = blanks n ++ a) (h4 : p4 = blanks n' ++ b) (ha : BoundText [['-']] a l N) (hb : BoundText [[], ['+']] b u N') :
    BodyText ('[' :: (v ++ p2 ++ ',' :: (w ++ p4 ++ [']']))) (.bounds l u) (N ++ N') := by
  have := BodyText.pair (w1 := v ++ blanks n) (w2 := []) (w3 := w ++ blanks n') (w4 := []) (hv.append blanks_ws) ha isWs_nil (hw.append blanks_ws) hb isWs_nil
  subst h2 h4
  simpa using this

theorem inf_facts {x : Itv} (h : x.NE φ) : x.inf.In φ ∧ x.inf ≠ .nan ∧ x.inf ≠ .pinf ∧ (∀ r, x.lo.BelowR r → x.inf.BelowR r) ∧ (x.inf = .ninf ↔ x.lo = .ninf) ∧ x.inf.q = x.lo.q := by
  unfold Itv.inf
  rw [h.isValid, h.isEmpty]
  simp only [Bool.not_true, Bool.false_eq_true, if_false]
  split_ifs with h0
  · have e : x.lo = .nzero ∨ x.lo = .fin 0 := by
      cases hl : x.lo <;> rw [hl] at h0 <;> simp_all [FP.isZero]
    rcases e with e | e <;> rw [e] <;> exact ⟨trivial, by simp, by simp, by simp [FP.BelowR], by simp, by simp [FP.q]⟩
  · exact ⟨h.lo_in, h.lo_ne, fun e => h.lo_top (FP.toE_eq_top.mpr e), fun r hr => hr, Iff.rfl, rfl⟩

theorem sup_facts {x : Itv} (h : x.NE φ) : x.sup.In φ ∧ x.sup ≠ .nan ∧ x.sup ≠ .ninf ∧ (∀ r, x.hi.AboveR r → x.sup.AboveR r) ∧ (x.sup = .pinf ↔ x.hi = .pinf) ∧ x.sup.q = x.hi.q := by
  unfold Itv.sup
  rw [h.isValid, h.isEmpty]
  simp only [Bool.not_true, Bool.false_eq_true, if_false]
  split_ifs with h0
  · have e : x.hi = .nzero ∨ x.hi = .fin 0 := by
      cases hl : x.hi <;> rw [hl] at h0 <;> simp_all [FP.isZero]
    rcases e with e | e <;> rw [e] <;> exact ⟨φ.rep_zero, by simp, by simp, by simp [FP.AboveR], by simp, by simp [FP.q]⟩
  · exact ⟨h.hi_in, h.hi_ne, fun e => h.hi_bot (FP.toE_eq_bot.mpr e), fun r hr => hr, Iff.rfl, rfl⟩

theorem dec_le_bounds {l u : Option ℚ} {d : Dec} (h : d = .com → l ≠ none ∧ u ≠ none) : d ≤ (Denot.bounds l u).dec := by
  cases l with
  | none =>
    have : d ≠ .com := fun e => (h e).1 rfl
    change d ≤ .dac
    revert this; cases d <;> decide
  | some a =>
    cases u with
    | none =>
      have : d ≠ .com := fun e => (h e).2 rfl
      change d ≤ .dac
      revert this; cases d <;> decide
    | some b =>
      change d ≤ .com
      cases d <;> decide

/-- The bounds of `D` are missing where those of `x` are infinite, and differ from them by no more than the tolerance of the number
format. -/
def Accurate (r : NumRep) (prec : ℕ) (x : Itv) (D : Denot) : Prop :=
  ∀ l u, D = .bounds l u → (l = none ↔ x.lo = .ninf) ∧ (u = none ↔ x.hi = .pinf) ∧
    (∀ v, l = some v → x.lo.q - v ≤ r.tol prec x.lo.q) ∧ ∀ v, u = some v → v - x.hi.q ≤ r.tol prec x.hi.q

/-- The five parts, between which white space may be inserted. -/
theorem parts_val {k : Manip} {up : Bool} {x : Itv} {p : Parts} (hx : x.Ok φ) (hp : k.punct = true)
    (he : ¬ (x = ⟨.nan, .nan⟩ ∧ k.special = .bounds)) (h : φ.parts slack k up x = .ok p) :
    p.p1 = ['['] ∧ p.p5 = [']'] ∧ ∃ D N,
      (∀ v w, IsWs v → IsWs w → BodyText ('[' :: (v ++ p.p2 ++ p.p3 ++ w ++ p.p4 ++ [']'])) D N) ∧ x.set ⊆ D.set ∧ D ≠ .nai ∧
      (x = ⟨.nan, .nan⟩ ↔ D = .empty) ∧ (∀ d, x ≠ ⟨.nan, .nan⟩ → (d = .com → x.lo ≠ .ninf ∧ x.hi ≠ .pinf) → d ≤ D.dec) ∧
      Accurate k.numRep k.prec x D ∧
      ∀ n ∈ N, n.Small (φ.B k.prec) := by
  unfold Fmt.parts at h
  rw [hp] at h
  simp only [if_true] at h
  by_cases hs : ((x.isEmpty || x.isEntire) && decide (k.special ≠ .bounds)) = true
  · rw [if_pos hs] at h
    replace h := (Std.ok.inj h).symm
    generalize toInt (k.width - ((((k.specialText up x).length - 1) / 2 : ℕ) : ℤ)) = b1 at h
    generalize toInt (k.width - ((((k.specialText up x).length - 1 - ((k.specialText up x).length - 1) / 2) : ℕ) : ℤ)) = b2 at h
    subst h
    refine ⟨rfl, rfl, ?_⟩
    simp only [Bool.and_eq_true, Bool.or_eq_true, decide_eq_true_eq] at hs
    have ws2 : ∀ {v : List Char} {n : ℤ}, IsWs v → IsWs (v ++ blanks n) := fun h => h.append blanks_ws
    rcases hx.cases with rfl | hne
    · refine ⟨.empty, [], fun v w hv hw => ?_, by rw [Itv.set_empty]; exact Set.empty_subset _, by simp, by simp [Itv.empty], fun d h => absurd rfl h, by simp [Accurate], by simp⟩
      unfold Manip.specialText
      rw [hp]
      simp only [show Itv.empty.isEmpty = true from by decide, if_true, and_true]
      by_cases h1 : k.special = .noBounds
      · rw [if_pos h1]
        have := BodyText.empty (w1 := v ++ blanks b1 ++ [' ']) (w2 := w ++ blanks b2) ((ws2 hv).append (by simp [IsWs])) (ws2 hw)
        simpa using this
      · rw [if_neg h1]
        have := BodyText.emptyName (w1 := v ++ blanks b1) (w := if up then ['E', 'M', 'P', 'T', 'Y'] else ['e', 'm', 'p', 't', 'y']) (w2 := w ++ blanks b2)
          (ws2 hv) (by cases up <;> decide) (ws2 hw)
        simpa using this
    · have hent : x.isEntire = true := by
        rcases hs.1 with h | h
        · rw [hne.isEmpty] at h; exact Bool.noConfusion h
        · exact h
      have hlo : x.lo = .ninf ∧ x.hi = .pinf := by
        obtain ⟨a, b⟩ := (NE.isEntire_iff hne).mp hent
        exact ⟨FP.toE_eq_bot.mp a, FP.toE_eq_top.mp b⟩
      refine ⟨.bounds none none, [], fun v w hv hw => ?_, fun r _ => by simp [Denot.set], by simp, by simp [show x ≠ ⟨.nan, .nan⟩ from hne.ne_empty], fun d _ h => dec_le_bounds fun e => ?_, ?_, by simp⟩
      · unfold Manip.specialText
        rw [hp]
        simp only [hne.isEmpty, Bool.false_eq_true, if_false, and_true]
        by_cases h1 : k.special = .noBounds
        · rw [if_pos h1]
          have := BodyText.pair (w1 := v ++ blanks b1) (w2 := []) (w3 := w ++ blanks b2) (w4 := []) (ws2 hv) .none isWs_nil (ws2 hw) .none isWs_nil
          simpa using this
        · rw [if_neg h1]
          have := BodyText.entire (w1 := v ++ blanks b1) (w := if up then ['E', 'N', 'T', 'I', 'R', 'E'] else ['e', 'n', 't', 'i', 'r', 'e']) (w2 := w ++ blanks b2)
            (ws2 hv) (by cases up <;> decide) (ws2 hw)
          simpa using this
      · exact absurd hlo.1 (h e).1
      · intro l u e
        injection e with e1 e2
        subst e1 e2
        simp [hlo.1, hlo.2]
  · rw [if_neg hs] at h
    have hne : x.NE φ := by
      rcases hx.cases with rfl | hne
      · exfalso
        refine hs ?_
        have : k.special ≠ .bounds := fun e => he ⟨rfl, e⟩
        simp [this, show Itv.empty.isEmpty = true from by decide]
      · exact hne
    cases h2 : φ.getStr slack .D k.numRep k.width k.prec up x.inf with
    | outOfRange => rw [h2] at h; exact Std.noConfusion rfl (heq_of_eq h)
    | ub => rw [h2] at h; exact Std.noConfusion rfl (heq_of_eq h)
    | ok t2 =>
      rw [h2] at h
      cases h4 : φ.getStr slack .U k.numRep k.width k.prec up x.sup with
      | outOfRange => rw [h4] at h; exact Std.noConfusion rfl (heq_of_eq h)
      | ub => rw [h4] at h; exact Std.noConfusion rfl (heq_of_eq h)
      | ok t4 =>
        rw [h4] at h
        replace h := (Std.ok.inj h).symm
        subst h
        refine ⟨rfl, rfl, ?_⟩
        obtain ⟨n, e2⟩ := getStr_ok h2
        obtain ⟨n', e4⟩ := getStr_ok h4
        obtain ⟨i1, i2, i3, i4, i5, i6⟩ := inf_facts hne
        obtain ⟨s1, s2, s3, s4, s5, s6⟩ := sup_facts hne
        obtain ⟨l, N, l1, l2, l3, l4, l5⟩ := lower_text (r := k.numRep) (up := up) (prec := k.prec) i1 i2 i3
        obtain ⟨u, N', u1, u2, u3, u4, u5⟩ := upper_text (r := k.numRep) (up := up) (prec := k.prec) s1 s2 s3
        refine ⟨.bounds l u, N ++ N', fun v w hv hw => ?_, fun r hr => ⟨l2 r (i4 r hr.1), u2 r (s4 r hr.2)⟩, by simp, by simp [show x ≠ ⟨.nan, .nan⟩ from hne.ne_empty],
          fun d _ h => dec_le_bounds fun e => ?_, ?_, fun n hn => ?_⟩
        · have := body_of_bounds hv hw e2 e4 l1 u1
          simpa using this
        · rw [Ne, l4, i5, Ne, u4, s5]; exact h e
        · intro l' u' e
          injection e with e1 e2
          subst e1 e2
          rw [l4, i5, u4, s5, ← i6, ← s6]
          exact ⟨Iff.rfl, Iff.rfl, l5, u5⟩
        · rcases List.mem_append.mp hn with h | h
          exacts [l3 n h, u3 n h]

/-- What is written for a bare interval with punctuation. -/
theorem infSup_text {k : Manip} {o o' : OStr} {x : Itv} (hx : x.Ok φ) (hp : k.punct = true) (ho : o.Plain)
    (he : ¬ (x = ⟨.nan, .nan⟩ ∧ k.special = .bounds)) (h : φ.writeInfSup slack k o x = .ok o') :
    ∃ u b D N, IsWs u ∧ o'.text = o.text ++ (u ++ b) ∧ o'.width = 0 ∧ BodyText b D N ∧ x.set ⊆ D.set ∧ D ≠ .nai ∧ D.Consistent ∧
      (x = ⟨.nan, .nan⟩ ↔ D = .empty) ∧ (∀ d, x ≠ ⟨.nan, .nan⟩ → (d = .com → x.lo ≠ .ninf ∧ x.hi ≠ .pinf) → d ≤ D.dec) ∧
      Accurate k.numRep k.prec x D ∧
      ∀ n ∈ N, n.Small (φ.B k.prec) := by
  unfold Fmt.writeInfSup at h
  cases h1 : φ.parts slack k o.upper x with
  | outOfRange => rw [h1] at h; exact Std.noConfusion rfl (heq_of_eq h)
  | ub => rw [h1] at h; exact Std.noConfusion rfl (heq_of_eq h)
  | ok p =>
    rw [h1] at h
    replace h := (Std.ok.inj h).symm
    subst h
    obtain ⟨e1, e5, D, N, hB, hs, hn, hem, hd, hac, hN⟩ := parts_val hx hp he h1
    obtain ⟨u, v, w, hu, hv, hw, e, e'⟩ := parts_text (p := p) (n := k.strWidth) ho (by rw [e1]; simp)
    refine ⟨u, _, D, N, hu, ?_, e', hB v w hv hw, hs, hn, ?_, hem, hd, hac, hN⟩
    · rw [e, e1, e5]; simp
    · rcases hx.cases with rfl | hne
      · rw [hem.mp rfl]; trivial
      · obtain ⟨r, hr⟩ := hne.nonempty
        have := hs hr
        match D, this with
        | .bounds (some a) (some b), h =>
          have := (h.1 a rfl).trans (h.2 b rfl)
          exact_mod_cast this
        | .bounds none _, _ => trivial
        | .bounds (some _) none, _ => trivial
        | .empty, _ => trivial
        | .nai, _ => trivial

/-! ### Bare intervals -/

theorem set_empty_iff_nan {x : Itv} (hx : x.Ok φ) : x.set = ∅ ↔ x = ⟨.nan, .nan⟩ := by
  rcases hx.cases with rfl | hne
  · simp [Itv.set_empty, Itv.empty]
  · simp [hne.nonempty.ne_empty, show x ≠ ⟨.nan, .nan⟩ from hne.ne_empty]

/-- What is written for an interval, in inf-sup form, denotes a set that contains the interval and that differs from it by no more than the
precision asked for.  `slack` is arbitrary: the statement holds however much memory the allocator provides beyond what was
requested, provided that the buffer suffices.  Excluded, because they are not literals: output without punctuation, the
empty set with special representation "bounds", and padding with characters other than white space. -/
theorem C40_contains_partial {k : Manip} {o o' : OStr} {x : Itv} (hx : x.Ok φ) (hf : k.form = .infSup ∨ x.set = ∅) (hp : k.punct = true)
    (ho : o.Plain) (he : ¬ (x.set = ∅ ∧ k.special = .bounds)) (h : φ.writeItv slack k o x = .ok o') :
    ∃ t D N, o'.text = o.text ++ t ∧ Literal t D D.dec N ∧ D ≠ .nai ∧ x.set ⊆ D.set ∧ (x.set = ∅ ↔ D = .empty) ∧ Accurate k.numRep k.prec x D ∧
      ∀ n ∈ N, n.Small (φ.B k.prec) := by
  have hem := set_empty_iff_nan hx
  rw [hem] at hf he ⊢
  unfold Fmt.writeItv at h
  rw [Itv.Ok.isValid hx] at h
  simp only [Bool.not_true, Bool.false_eq_true, if_false] at h
  rw [if_neg (by
    rintro ⟨h1, h2⟩
    rcases hf with hf | rfl
    · exact h1 hf
    · exact absurd h2 (by decide))] at h
  obtain ⟨u, b, D, N, hu, e, -, hB, hs, hn, hc, hD, -, ha, hN⟩ := infSup_text hx hp ho he h
  refine ⟨u ++ b, D, N, e, ?_, hn, hs, hD, ha, hN⟩
  have := Literal.plain (w1 := []) hu hB hc isWs_nil
  simpa using this

theorem supported_of_small {B : ℕ} (hB : B < 2 ^ 31) {n : NumInfo} (h : n.Small B) : n.Supported := by
  obtain ⟨h1, h2, h3⟩ := h
  rw [abs_le] at h2 h3
  have hB' : (B : ℤ) < 2 ^ 31 := by exact_mod_cast hB
  norm_num at hB'
  exact ⟨h1, ⟨by omega, by omega⟩, by omega, by omega⟩

/-- An interval that is written and read again is contained in the result. -/
theorem C40_round_trip_partial {k : Manip} {o o' : OStr} {x : Itv} (hx : x.Ok φ) (hf : k.form = .infSup ∨ x.set = ∅) (hp : k.punct = true)
    (ho : o.Plain) (he : ¬ (x.set = ∅ ∧ k.special = .bounds)) (hB : φ.B k.prec < 2 ^ 31) (h : φ.writeItv slack k o x = .ok o') :
    ∃ t m y, o'.text = o.text ++ t ∧ φ.textToInterval t = .ok m ∧ Returns m y ∧ y.Ok φ ∧ x.set ⊆ y.set ∧ (x.set = ∅ → y.set = ∅) := by
  obtain ⟨t, D, N, e, hl, hn, hs, hD, -, hN⟩ := C40_contains_partial hx hf hp ho he h
  obtain ⟨m, hm, h1, -⟩ := C38_bare_partial (φ := φ) hl (fun n hn => supported_of_small hB (hN n hn))
  obtain ⟨y, hy, hT⟩ := h1 hn
  refine ⟨t, m, y, e, hm, hy, hT.1, hs.trans hT.2.1, fun h => ?_⟩
  rw [hD.mp h] at hT
  exact Set.subset_empty_iff.mp (hT.2.2 Itv.empty (Itv.ok_empty φ) (by simp [Denot.set]) |>.trans (by rw [Itv.set_empty]))

/-- Hexadecimal numbers without a given precision are exact. -/
theorem hex_set_eq {x : Itv} {D : Denot} (hx : x.Ok φ) (hs : x.set ⊆ D.set) (hD : x.set = ∅ ↔ D = .empty) (ha : Accurate .hex 0 x D) :
    D.set = x.set := by
  refine Set.Subset.antisymm ?_ hs
  match D, ha with
  | .nai, _ => exact Set.empty_subset _
  | .empty, _ => exact Set.empty_subset _
  | .bounds l u, ha =>
    obtain ⟨a1, a2, a3, a4⟩ := ha l u rfl
    simp only [NumRep.tol, if_true] at a3 a4
    have hne : x.NE φ := by
      rcases hx.cases with rfl | hne
      · have := hD.mp Itv.set_empty
        cases this
      · exact hne
    rintro r ⟨r1, r2⟩
    constructor
    · cases hb : x.lo with
      | nan => exact absurd hb hne.lo_ne
      | pinf => exact absurd (FP.toE_eq_top.mpr hb) hne.lo_top
      | ninf => trivial
      | nzero =>
        obtain ⟨v, rfl⟩ := Option.ne_none_iff_exists'.mp (fun e => by rw [a1.mp e] at hb; cases hb)
        have h1 := (Rat.cast_le (K := ℝ)).mpr (a3 v rfl)
        have h2 := r1 v rfl
        rw [hb] at h1
        simp only [FP.q, FP.BelowR] at h1 ⊢
        push_cast at h1
        linarith
      | fin q =>
        obtain ⟨v, rfl⟩ := Option.ne_none_iff_exists'.mp (fun e => by rw [a1.mp e] at hb; cases hb)
        have h1 := (Rat.cast_le (K := ℝ)).mpr (a3 v rfl)
        have h2 := r1 v rfl
        rw [hb] at h1
        simp only [FP.q, FP.BelowR] at h1 ⊢
        push_cast at h1
        linarith
    · cases hb : x.hi with
      | nan => exact absurd hb hne.hi_ne
      | ninf => exact absurd (FP.toE_eq_bot.mpr hb) hne.hi_bot
      | pinf => trivial
      | nzero =>
        obtain ⟨v, rfl⟩ := Option.ne_none_iff_exists'.mp (fun e => by rw [a2.mp e] at hb; cases hb)
        have h1 := (Rat.cast_le (K := ℝ)).mpr (a4 v rfl)
        have h2 := r2 v rfl
        rw [hb] at h1
        simp only [FP.q, FP.AboveR] at h1 ⊢
        push_cast at h1
        linarith
      | fin q =>
        obtain ⟨v, rfl⟩ := Option.ne_none_iff_exists'.mp (fun e => by rw [a2.mp e] at hb; cases hb)
        have h1 := (Rat.cast_le (K := ℝ)).mpr (a4 v rfl)
        have h2 := r2 v rfl
        rw [hb] at h1
        simp only [FP.q, FP.AboveR] at h1 ⊢
        push_cast at h1
        linarith

/-- Hexadecimal numbers without a given precision are exact: the text denotes the interval itself. -/
theorem C40_hex_exact {k : Manip} {o o' : OStr} {x : Itv} (hx : x.Ok φ) (hf : k.form = .infSup ∨ x.set = ∅) (hp : k.punct = true)
    (ho : o.Plain) (he : ¬ (x.set = ∅ ∧ k.special = .bounds)) (hk : k.numRep = .hex) (hk0 : k.prec = 0) (h : φ.writeItv slack k o x = .ok o') :
    ∃ t D N, o'.text = o.text ++ t ∧ Literal t D D.dec N ∧ D ≠ .nai ∧ D.set = x.set ∧
      (φ.B 0 < 2 ^ 31 → ∃ m y, φ.textToInterval t = .ok m ∧ Returns m y ∧ y.set = x.set) := by
  obtain ⟨t, D, N, e, hl, hn, hs, hD, ha, hN⟩ := C40_contains_partial hx hf hp ho he h
  have heq : D.set = x.set := hex_set_eq hx hs hD (by rw [hk, hk0] at ha; exact ha)
  refine ⟨t, D, N, e, hl, hn, heq, fun hB => ?_⟩
  obtain ⟨m, hm, h1, -⟩ := C38_bare_partial (φ := φ) hl (fun n hn => supported_of_small (by rw [hk0]; exact hB) (hN n hn))
  obtain ⟨y, hy, hT⟩ := h1 hn
  rw [heq] at hT
  exact ⟨m, y, hm, hy, Set.Subset.antisymm (hT.2.2 x hx subset_rfl) hT.2.1⟩

end P1788
