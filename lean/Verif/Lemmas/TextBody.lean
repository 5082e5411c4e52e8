import Verif.Lemmas.TextLit
import Verif.Lemmas.Conv
import Verif.Lemmas.Ex

/-! # Intervals computed from the captured texts -/

namespace P1788
variable {φ : Fmt}

/-! ## Sets -/

/-- The rounded bounds. -/
def Fmt.loFP (φ : Fmt) : Option ℚ → FP
  | none => .ninf
  | some q => φ.round .D q
def Fmt.hiFP (φ : Fmt) : Option ℚ → FP
  | none => .pinf
  | some q => φ.round .U q

theorem bounds_tight (φ : Fmt) {l u : Option ℚ} (h : (Denot.bounds l u).Consistent) :
    Tightest φ ⟨φ.loFP l, φ.hiFP u⟩ (Denot.bounds l u).set ∧ boundsOk (φ.loFP l) (φ.hiFP u) = true := by
  set a : EReal := match l with | none => ⊥ | some q => ((q : ℝ) : EReal) with ha
  set b : EReal := match u with | none => ⊤ | some q => ((q : ℝ) : EReal) with hb
  have hab : a ≤ b := by
    cases l <;> cases u <;> simp only [ha, hb, bot_le, le_top]
    exact EReal.coe_le_coe_iff.mpr ((Rat.cast_le (K := ℝ)).mpr h)
  have hat : a ≠ ⊤ := by cases l <;> simp [ha]
  have hbt : b ≠ ⊥ := by cases u <;> simp [hb]
  have hS : (Denot.bounds l u).set = {r : ℝ | a ≤ (r : EReal) ∧ (r : EReal) ≤ b} := by
    ext r
    cases l <;> cases u <;> simp [ha, hb, Denot.set, EReal.coe_le_coe_iff]
  have lo1 : φ.loFP l ≠ .nan ∧ (φ.loFP l).In φ ∧ (φ.loFP l).toE = φ.rdE a := by
    cases l with
    | none => exact ⟨by simp [Fmt.loFP], trivial, by simp [Fmt.loFP, ha, Fmt.rdE_bot, FP.toE]⟩
    | some q =>
      simp only [Fmt.loFP, ha, Fmt.rdE_coe, ← Fmt.round_cast]
      exact ⟨φ.round_ne_nan _ _, φ.round_in _ _, trivial⟩
  have hi1 : φ.hiFP u ≠ .nan ∧ (φ.hiFP u).In φ ∧ (φ.hiFP u).toE = φ.ruE b := by
    cases u with
    | none => exact ⟨by simp [Fmt.hiFP], trivial, by simp [Fmt.hiFP, hb, Fmt.ruE_top, FP.toE]⟩
    | some q =>
      simp only [Fmt.hiFP, hb, Fmt.ruE_coe, ← Fmt.round_cast]
      exact ⟨φ.round_ne_nan _ _, φ.round_in _ _, trivial⟩
  rw [hS]
  have hB := box_seg hab hat hbt
  have hT : Tightest φ ⟨φ.loFP l, φ.hiFP u⟩ {r : ℝ | a ≤ (r : EReal) ∧ (r : EReal) ≤ b} :=
    tightest_of_box hB lo1.1 hi1.1 lo1.2.1 hi1.2.1 lo1.2.2 hi1.2.2
  refine ⟨hT, boundsOk_iff.mpr ?_⟩
  obtain ⟨r, hr⟩ := hB.ne
  exact ⟨r, hT.2.1 hr⟩

/-- What the evaluation of a literal must do: the tightest interval if the literal is consistent and its numbers can be read,
otherwise no interval. -/
def EvalOk (φ : Fmt) (D : Denot) (N : List NumInfo) (r : Std (Itv × Dec)) : Prop :=
  ((D.Consistent ∧ ∀ n ∈ N, n.Supported) → ∃ x, r = .ok (x, D.dec) ∧ Fmt.textOk x = true ∧ Tightest φ x D.set) ∧
  (¬(D.Consistent ∧ ∀ n ∈ N, n.Supported) → ∀ x d, r = .ok (x, d) → Fmt.textOk x = false) ∧
  ((∀ n ∈ N, n.InRange) → ∃ y, r = .ok y)

theorem noItv_not_ok : Fmt.textOk Fmt.noItv = false := by decide +kernel

theorem textOk_of_boundsOk {x : Itv} (h : boundsOk x.lo x.hi = true) : Fmt.textOk x = true := by
  simp [Fmt.textOk, h]

theorem numOut_supported {q : ℚ} {N : NumInfo} (h : N.Supported) : numOut q N = .ok (some q) := by
  obtain ⟨h1, h2, h3⟩ := h
  unfold numOut
  rw [h1]
  simp only [Bool.false_eq_true, if_false]
  rw [if_pos (show intMin' ≤ N.exp ∧ N.exp ≤ intMax from h2), if_pos (show intMin' < N.scale ∧ N.scale ≤ intMax from h3)]

theorem numOut_not_supported {q : ℚ} {N : NumInfo} (h : ¬ N.Supported) {r : Option ℚ} (hr : numOut q N = .ok r) : r = none := by
  unfold numOut at hr
  split_ifs at hr with h1 h2 h3
  · exact (Std.ok.inj hr).symm
  · exact absurd ⟨by simpa using h1, h2, h3⟩ h

theorem numOut_inRange (q : ℚ) {N : NumInfo} (h : N.InRange) : ∃ r, numOut q N = .ok r := by
  obtain ⟨h2, h3⟩ := h
  unfold numOut
  rw [if_pos (show intMin' ≤ N.exp ∧ N.exp ≤ intMax from h2), if_pos (show intMin' < N.scale ∧ N.scale ≤ intMax from h3)]
  split_ifs
  · exact ⟨_, rfl⟩
  · exact ⟨_, rfl⟩

/-! ## One argument -/

theorem oneArg_spec (φ : Fmt) {w : List Char} {k : Caps} (h : Rx.Matches (.opt (.grp 1 Rx.arg)) w k) :
    ∃ D N, (∀ w1 w2, IsWs w1 → IsWs w2 → BodyText ('[' :: (w1 ++ w ++ w2 ++ [']'])) D N) ∧ EvalOk φ D N (φ.oneArg k) := by
  have hE : ∀ k : Caps, (0 < (k.get 8).length ∨ (k.get 1).length = 0) → EvalOk φ .empty [] (φ.oneArg k) := by
    intro k hk
    unfold Fmt.oneArg
    rw [if_pos hk]
    exact ⟨fun _ => ⟨_, rfl, by decide +kernel, tightest_empty φ⟩, fun hn => absurd ⟨trivial, by simp⟩ hn, fun _ => ⟨_, rfl⟩⟩
  have hnum : ∀ {w : List Char} {k' : Caps}, (Rx.Matches (Rx.float 2) w k' ∨ Rx.Matches (Rx.hex 4) w k' ∨ Rx.Matches (Rx.rational 6) w k') →
      Caps.get k' 8 = [] → Caps.get k' 9 = [] → Caps.get k' 10 = [] → w ≠ [] →
      ∃ D N, (∀ w1 w2, IsWs w1 → IsWs w2 → BodyText ('[' :: (w1 ++ w ++ w2 ++ [']'])) D N) ∧ EvalOk φ D N (φ.oneArg ((1, w) :: k')) := by
    intro w k' hm h8 h9 h10 hw
    obtain ⟨q, N, hq, hr⟩ := litNum_eq (m := (1, w) :: k') (n := 2) hm fun i hi _ => Caps.get_cons_ne (by omega)
    refine ⟨.bounds (some q) (some q), [N], fun w1 w2 h1 h2 => .point h1 hq h2, ?_⟩
    unfold Fmt.oneArg
    rw [Caps.get_cons_self, Caps.get_cons_ne (by decide), Caps.get_cons_ne (by decide), Caps.get_cons_ne (by decide), h8, h9, h10,
      if_neg (by simpa using hw), if_neg (by simp), if_neg (by simp), hr]
    obtain ⟨t1, t2⟩ := bounds_tight φ (l := some q) (u := some q) (le_refl q)
    refine ⟨?_, ?_, ?_⟩
    · rintro ⟨-, hs⟩
      rw [numOut_supported (hs N (by simp))]
      have hle : φ.round .D q ≤ φ.round .U q := by
        simp only [boundsOk, Bool.and_eq_true] at t2
        exact t2.1.1
      refine ⟨⟨φ.round .D q, φ.round .U q⟩, ?_, textOk_of_boundsOk t2, t1⟩
      simp only [bind, Std.bind, pure, hle, if_true, Denot.dec]
    · intro hn x d hx
      have hs : ¬ N.Supported := fun hs => hn ⟨le_refl q, by simpa using hs⟩
      cases ho : numOut q N with
      | ok r =>
        have := numOut_not_supported hs ho
        subst this
        rw [ho] at hx
        simp only [bind, Std.bind, pure, Std.ok.injEq, Prod.mk.injEq] at hx
        rw [← hx.1]; exact noItv_not_ok
      | outOfRange => rw [ho] at hx; simp [bind, Std.bind] at hx
      | ub => rw [ho] at hx; simp [bind, Std.bind] at hx
    · intro hr
      obtain ⟨r, hr⟩ := numOut_inRange q (hr N (by simp))
      rw [hr]
      cases r <;> exact ⟨_, rfl⟩
  rcases h with ⟨k', rfl, h⟩ | ⟨rfl, rfl⟩
  · rcases h with ⟨rfl, rfl⟩ | h | h | h | h | h | h
    · exact ⟨.empty, [], fun w1 w2 h1 h2 => by simpa using BodyText.empty h1 h2, hE _ (Or.inr (by simp [Caps.get]))⟩
    · refine hnum (Or.inl h) (h.get_none (by decide)) (h.get_none (by decide)) (h.get_none (by decide)) ?_
      obtain ⟨s, m, x, y, sg, v, j, e, rfl, -, hm, -⟩ := Rx.matches_float h
      simp [hm.ne_nil]
    · refine hnum (Or.inr (Or.inl h)) (h.get_none (by decide)) (h.get_none (by decide)) (h.get_none (by decide)) ?_
      obtain ⟨s, c, m, d, y, sg, v, j, e, rfl, -⟩ := Rx.matches_hex h
      simp
    · refine hnum (Or.inr (Or.inr h)) (h.get_none (by decide)) (h.get_none (by decide)) (h.get_none (by decide)) ?_
      obtain ⟨s, a, w1, w2, d, sg, rfl, -⟩ := Rx.matches_rational h
      simp
    · obtain ⟨k'', rfl, h⟩ := h
      obtain ⟨hw, rfl⟩ := Rx.matches_str.mp h
      refine ⟨.empty, [], fun w1 w2 h1 h2 => .emptyName h1 hw h2, hE _ (Or.inl ?_)⟩
      rw [Caps.get_cons_ne (by decide), Caps.get_cons_self, ← List.length_map Char.toLower, hw]; decide
    · obtain ⟨k'', rfl, h⟩ := h
      obtain ⟨hw, rfl⟩ := Rx.matches_str.mp h
      have hl : 0 < w.length := by rw [← List.length_map Char.toLower, hw]; decide
      refine ⟨.bounds none none, [], fun w1 w2 h1 h2 => .entire h1 hw h2, ?_⟩
      unfold Fmt.oneArg
      have e8 : Caps.get [(1, w), (9, w)] 8 = [] := by simp [Caps.get, List.lookup]
      have e1 : Caps.get [(1, w), (9, w)] 1 = w := by simp [Caps.get, List.lookup]
      have e9 : Caps.get [(1, w), (9, w)] 9 = w := by simp [Caps.get, List.lookup]
      rw [e8, e1, e9, if_neg (by simp; rintro rfl; simp at hl), if_pos hl]
      exact ⟨fun _ => ⟨_, rfl, by decide +kernel, (bounds_tight φ (l := none) (u := none) trivial).1⟩, fun hn => absurd ⟨trivial, by simp⟩ hn, fun _ => ⟨_, rfl⟩⟩
    · obtain ⟨k'', rfl, h⟩ := h
      obtain ⟨hw, rfl⟩ := Rx.matches_str.mp h
      have hl : 0 < w.length := by rw [← List.length_map Char.toLower, hw]; decide
      refine ⟨.nai, [], fun w1 w2 h1 h2 => .nai h1 hw h2, ?_⟩
      unfold Fmt.oneArg
      have e8 : Caps.get [(1, w), (10, w)] 8 = [] := by simp [Caps.get, List.lookup]
      have e1 : Caps.get [(1, w), (10, w)] 1 = w := by simp [Caps.get, List.lookup]
      have e9 : Caps.get [(1, w), (10, w)] 9 = [] := by simp [Caps.get, List.lookup]
      have e10 : Caps.get [(1, w), (10, w)] 10 = w := by simp [Caps.get, List.lookup]
      rw [e8, e1, e9, e10, if_neg (by simp; rintro rfl; simp at hl), if_neg (by simp), if_pos hl]
      exact ⟨fun _ => ⟨_, rfl, by decide +kernel, tightest_empty φ⟩, fun hn => absurd ⟨trivial, by simp⟩ hn, fun _ => ⟨_, rfl⟩⟩
  · exact ⟨.empty, [], fun w1 w2 h1 h2 => by simpa using BodyText.empty h1 h2, hE _ (Or.inr (by simp [Caps.get]))⟩

/-! ## Two arguments -/

/-- Reading a bound: whether it is infinite, and the number. -/
def BoundOk (m : Caps) (l : Option ℚ) (N : List NumInfo) (whole inf num : ℕ) : Prop :=
  (l = none ∧ N = [] ∧ (0 < (m.get inf).length ∨ (m.get whole).length = 0)) ∨
  ∃ q n, l = some q ∧ N = [n] ∧ ¬(0 < (m.get inf).length ∨ (m.get whole).length = 0) ∧ litNum m num = numOut q n

theorem lower_spec {w : List Char} {k m : Caps} (h : Rx.Matches (.opt (.grp 11 Rx.lower)) w k)
    (hm : ∀ i, 11 ≤ i → i < 19 → m.get i = k.get i) : ∃ l N, BoundText [['-']] w l N ∧ BoundOk m l N 11 18 12 := by
  have hnum : ∀ {w : List Char} {k' : Caps}, (Rx.Matches (Rx.float 12) w k' ∨ Rx.Matches (Rx.hex 14) w k' ∨ Rx.Matches (Rx.rational 16) w k') →
      Caps.get k' 18 = [] → w ≠ [] → (∀ i, 11 ≤ i → i < 19 → m.get i = Caps.get ((11, w) :: k') i) →
      ∃ l N, BoundText [['-']] w l N ∧ BoundOk m l N 11 18 12 := by
    intro w k' hk h18 hw hm
    obtain ⟨q, N, hq, hr⟩ := litNum_eq (m := m) (n := 12) hk fun i hi hi' => by
      rw [hm i (by omega) (by omega), Caps.get_cons_ne (by omega)]
    refine ⟨some q, [N], .num hq, Or.inr ⟨q, N, rfl, rfl, ?_, hr⟩⟩
    rw [hm 18 (by omega) (by omega), hm 11 (by omega) (by omega), Caps.get_cons_self, Caps.get_cons_ne (by decide), h18]
    simpa using hw
  rcases h with ⟨k', rfl, h⟩ | ⟨rfl, rfl⟩
  · rcases h with ⟨rfl, rfl⟩ | h | h | h | h
    · refine ⟨none, [], .none, Or.inl ⟨rfl, rfl, Or.inr ?_⟩⟩
      rw [hm 11 (by omega) (by omega), Caps.get_cons_self]; rfl
    · refine hnum (Or.inl h) (h.get_none (by decide)) ?_ hm
      obtain ⟨s, m, x, y, sg, v, j, e, rfl, -, hm, -⟩ := Rx.matches_float h
      simp [hm.ne_nil]
    · refine hnum (Or.inr (Or.inl h)) (h.get_none (by decide)) ?_ hm
      obtain ⟨s, c, m, d, y, sg, v, j, e, rfl, -⟩ := Rx.matches_hex h
      simp
    · refine hnum (Or.inr (Or.inr h)) (h.get_none (by decide)) ?_ hm
      obtain ⟨s, a, w1, w2, d, sg, rfl, -⟩ := Rx.matches_rational h
      simp
    · obtain ⟨w1, w2, k1, k2, rfl, rfl, h1, k3, rfl, h2⟩ := h
      obtain ⟨rfl, rfl⟩ := Rx.matches_lit.mp h1
      have hw : w2.map Char.toLower = "inf".toList ∨ w2.map Char.toLower = "infinity".toList := by
        rcases h2 with h2 | h2
        · exact Or.inl (Rx.matches_str.mp h2).1
        · exact Or.inr (Rx.matches_str.mp h2).1
      refine ⟨none, [], .inf (by simp) hw, Or.inl ⟨rfl, rfl, Or.inl ?_⟩⟩
      rw [hm 18 (by omega) (by omega), Caps.get_cons_ne (by decide), List.nil_append, Caps.get_cons_self,
        ← List.length_map Char.toLower]
      rcases hw with hw | hw <;> rw [hw] <;> decide
  · refine ⟨none, [], .none, Or.inl ⟨rfl, rfl, Or.inr ?_⟩⟩
    rw [hm 11 (by omega) (by omega)]; rfl

theorem upper_spec {w : List Char} {k m : Caps} (h : Rx.Matches (.opt (.grp 20 Rx.upper)) w k)
    (hm : ∀ i, 20 ≤ i → i < 28 → m.get i = k.get i) : ∃ l N, BoundText [[], ['+']] w l N ∧ BoundOk m l N 20 27 21 := by
  have hnum : ∀ {w : List Char} {k' : Caps}, (Rx.Matches (Rx.float 21) w k' ∨ Rx.Matches (Rx.hex 23) w k' ∨ Rx.Matches (Rx.rational 25) w k') →
      Caps.get k' 27 = [] → w ≠ [] → (∀ i, 20 ≤ i → i < 28 → m.get i = Caps.get ((20, w) :: k') i) →
      ∃ l N, BoundText [[], ['+']] w l N ∧ BoundOk m l N 20 27 21 := by
    intro w k' hk h27 hw hm
    obtain ⟨q, N, hq, hr⟩ := litNum_eq (m := m) (n := 21) hk fun i hi hi' => by
      rw [hm i (by omega) (by omega), Caps.get_cons_ne (by omega)]
    refine ⟨some q, [N], .num hq, Or.inr ⟨q, N, rfl, rfl, ?_, hr⟩⟩
    rw [hm 27 (by omega) (by omega), hm 20 (by omega) (by omega), Caps.get_cons_self, Caps.get_cons_ne (by decide), h27]
    simpa using hw
  rcases h with ⟨k', rfl, h⟩ | ⟨rfl, rfl⟩
  · rcases h with ⟨rfl, rfl⟩ | h | h | h | h
    · refine ⟨none, [], .none, Or.inl ⟨rfl, rfl, Or.inr ?_⟩⟩
      rw [hm 20 (by omega) (by omega), Caps.get_cons_self]; rfl
    · refine hnum (Or.inl h) (h.get_none (by decide)) ?_ hm
      obtain ⟨s, m, x, y, sg, v, j, e, rfl, -, hm, -⟩ := Rx.matches_float h
      simp [hm.ne_nil]
    · refine hnum (Or.inr (Or.inl h)) (h.get_none (by decide)) ?_ hm
      obtain ⟨s, c, m, d, y, sg, v, j, e, rfl, -⟩ := Rx.matches_hex h
      simp
    · refine hnum (Or.inr (Or.inr h)) (h.get_none (by decide)) ?_ hm
      obtain ⟨s, a, w1, w2, d, sg, rfl, -⟩ := Rx.matches_rational h
      simp
    · obtain ⟨w1, w2, k1, k2, rfl, rfl, h1, k3, rfl, h2⟩ := h
      have hs : w1 ∈ [[], ['+']] ∧ k1 = [] := by
        rcases h1 with h1 | ⟨rfl, rfl⟩
        · obtain ⟨rfl, rfl⟩ := Rx.matches_lit.mp h1; simp
        · simp
      obtain ⟨hs, rfl⟩ := hs
      have hw : w2.map Char.toLower = "inf".toList ∨ w2.map Char.toLower = "infinity".toList := by
        rcases h2 with h2 | h2
        · exact Or.inl (Rx.matches_str.mp h2).1
        · exact Or.inr (Rx.matches_str.mp h2).1
      refine ⟨none, [], .inf hs hw, Or.inl ⟨rfl, rfl, Or.inl ?_⟩⟩
      rw [hm 27 (by omega) (by omega), Caps.get_cons_ne (by decide), List.nil_append, Caps.get_cons_self,
        ← List.length_map Char.toLower]
      rcases hw with hw | hw <;> rw [hw] <;> decide
  · refine ⟨none, [], .none, Or.inl ⟨rfl, rfl, Or.inr ?_⟩⟩
    rw [hm 20 (by omega) (by omega)]; rfl

theorem Denot.dec_bounds (l u : Option ℚ) :
    (Denot.bounds l u).dec = if l.isNone || u.isNone then Dec.dac else .com := by
  cases l <;> cases u <;> rfl

theorem textOk_pinf (u : FP) : Fmt.textOk ⟨.pinf, u⟩ = false := by
  cases u <;> simp [Fmt.textOk, boundsOk, FP.isNaN, FP.feq, FP.leb]

theorem textOk_ninf (l : FP) : Fmt.textOk ⟨l, .ninf⟩ = false := by
  cases l <;> simp [Fmt.textOk, boundsOk, FP.isNaN, FP.feq, FP.leb]

theorem ite_not_ok {p : Prop} [Decidable p] {x y : Itv} (h1 : Fmt.textOk x = false) (h2 : Fmt.textOk y = false) :
    Fmt.textOk (if p then x else y) = false := by split_ifs <;> assumption

theorem twoArgs_spec (φ : Fmt) {m : Caps} {l u : Option ℚ} {N N' : List NumInfo} (hl : BoundOk m l N 11 18 12)
    (hu : BoundOk m u N' 20 27 21) : EvalOk φ (.bounds l u) (N ++ N') (φ.twoArgs m) := by
  have hT := fun h : (Denot.bounds l u).Consistent => bounds_tight φ h
  have le_of {a b : FP} (h : boundsOk a b = true) : a ≤ b := by
    simp only [boundsOk, Bool.and_eq_true] at h; exact h.1.1
  rcases hl with ⟨rfl, rfl, il⟩ | ⟨p, n, rfl, rfl, il, rl⟩ <;> rcases hu with ⟨rfl, rfl, iu⟩ | ⟨q, n', rfl, rfl, iu, ru⟩
  · obtain ⟨t1, t2⟩ := hT trivial
    refine ⟨fun _ => ⟨_, ?_, textOk_of_boundsOk t2, t1⟩, fun hn => absurd ⟨trivial, by simp⟩ hn, fun _ => ?_⟩
    rotate_left
    · simp only [Fmt.twoArgs, il, iu, decide_true, if_true, bind, Std.bind, pure, Bool.or_self, Denot.dec]; exact ⟨_, rfl⟩
    simp only [Fmt.twoArgs, il, iu, decide_true, if_true, bind, Std.bind, pure, Bool.or_self, Denot.dec]
    rfl
  · obtain ⟨t1, t2⟩ := hT trivial
    simp only [Fmt.twoArgs, il, iu, ru, decide_true, decide_false, if_true, Bool.false_eq_true, if_false, bind, Std.bind, pure, Bool.true_or, Denot.dec]
    refine ⟨?_, ?_, ?_⟩
    · rintro ⟨-, hs⟩
      rw [numOut_supported (hs n' (by simp))]
      refine ⟨_, ?_, textOk_of_boundsOk t2, t1⟩
      have := le_of t2
      simp only [Fmt.loFP, Fmt.hiFP] at this ⊢
      simp [this]
      rfl
    · intro hn x d hx
      have hs : ¬ n'.Supported := fun hs => hn ⟨trivial, by simpa using hs⟩
      cases ho : numOut q n' with
      | ok r =>
        have := numOut_not_supported hs ho
        subst this
        rw [ho] at hx
        simp only [Std.ok.injEq, Prod.mk.injEq] at hx
        rw [← hx.1]; exact ite_not_ok (textOk_ninf _) noItv_not_ok
      | outOfRange => rw [ho] at hx; simp at hx
      | ub => rw [ho] at hx; simp at hx
    · intro hr
      obtain ⟨r, hr⟩ := numOut_inRange q (hr n' (by simp))
      rw [hr]; exact ⟨_, rfl⟩
  · obtain ⟨t1, t2⟩ := hT trivial
    simp only [Fmt.twoArgs, il, iu, rl, decide_true, decide_false, if_true, Bool.false_eq_true, if_false, bind, Std.bind, pure, Bool.or_true, Denot.dec]
    refine ⟨?_, ?_, ?_⟩
    · rintro ⟨-, hs⟩
      rw [numOut_supported (hs n (by simp))]
      refine ⟨_, ?_, textOk_of_boundsOk t2, t1⟩
      have := le_of t2
      simp only [Fmt.loFP, Fmt.hiFP] at this ⊢
      simp [this]
      rfl
    · intro hn x d hx
      have hs : ¬ n.Supported := fun hs => hn ⟨trivial, by simpa using hs⟩
      cases ho : numOut p n with
      | ok r =>
        have := numOut_not_supported hs ho
        subst this
        rw [ho] at hx
        simp only [Std.ok.injEq, Prod.mk.injEq] at hx
        rw [← hx.1]; exact ite_not_ok (textOk_pinf _) noItv_not_ok
      | outOfRange => rw [ho] at hx; simp at hx
      | ub => rw [ho] at hx; simp at hx
    · intro hr
      obtain ⟨r, hr⟩ := numOut_inRange p (hr n (by simp))
      rw [hr]; exact ⟨_, rfl⟩
  · simp only [Fmt.twoArgs, il, iu, rl, ru, decide_false, Bool.false_eq_true, if_false, bind, Std.bind, pure, Bool.or_self, Denot.dec, false_or]
    refine ⟨?_, ?_, ?_⟩
    · rintro ⟨hc, hs⟩
      obtain ⟨t1, t2⟩ := hT hc
      rw [numOut_supported (hs n (by simp)), numOut_supported (hs n' (by simp))]
      refine ⟨_, ?_, textOk_of_boundsOk t2, t1⟩
      have := le_of t2
      have hc' : p ≤ q := hc
      simp only [Fmt.loFP, Fmt.hiFP] at this ⊢
      simp [this, hc']
      rfl
    · intro hn x d hx
      cases ho : numOut p n with
      | ok r =>
        rw [ho] at hx
        cases ho' : numOut q n' with
        | ok r' =>
          rw [ho'] at hx
          simp only [Std.ok.injEq, Prod.mk.injEq] at hx
          rw [← hx.1]
          by_cases hs : n.Supported
          · by_cases hs' : n'.Supported
            · have hc : ¬ p ≤ q := fun hc => hn ⟨hc, by simpa using ⟨hs, hs'⟩⟩
              rw [numOut_supported hs] at ho
              rw [numOut_supported hs'] at ho'
              obtain rfl := Std.ok.inj ho
              obtain rfl := Std.ok.inj ho'
              rw [if_neg (by simp [hc])]; exact noItv_not_ok
            · have := numOut_not_supported hs' ho'
              subst this
              exact ite_not_ok (textOk_ninf _) noItv_not_ok
          · have := numOut_not_supported hs ho
            subst this
            exact ite_not_ok (textOk_pinf _) noItv_not_ok
        | outOfRange => rw [ho'] at hx; simp at hx
        | ub => rw [ho'] at hx; simp at hx
      | outOfRange => rw [ho] at hx; simp at hx
      | ub => rw [ho] at hx; simp at hx
    · intro hr
      obtain ⟨r, h1⟩ := numOut_inRange p (hr n (by simp))
      obtain ⟨r', h2⟩ := numOut_inRange q (hr n' (by simp))
      rw [h1, h2]; exact ⟨_, rfl⟩

/-! ## The text in brackets -/

theorem Rx.infSup_spec (φ : Fmt) {w : List Char} {k : Caps} (h : Rx.infSup.matchAll w = some k) :
    ∃ D N, BodyText w D N ∧ w.head? = some '[' ∧ EvalOk φ D N (φ.args k) := by
  unfold Fmt.args
  rcases Rx.matches_of_matchAll h with h | h
  · obtain ⟨v0, u0, c0, d0, rfl, rfl, m0, v1, u1, c1, d1, rfl, rfl, ⟨m1, rfl⟩, v2, u2, c2, d2, rfl, rfl, m2, v3, u3, c3, d3, rfl, rfl,
      ⟨m3, rfl⟩, m4⟩ := h
    obtain ⟨rfl, rfl⟩ := Rx.matches_lit.mp m0
    obtain ⟨rfl, rfl⟩ := Rx.matches_lit.mp m4
    simp only [List.nil_append, List.append_nil]
    obtain ⟨D, N, hB, hE⟩ := oneArg_spec φ m2
    refine ⟨D, N, by simpa using hB v1 v3 (isWs_iff.mpr m1) (isWs_iff.mpr m3), rfl, ?_⟩
    rw [m2.get_none (n := 19) (by decide)]
    exact hE
  · obtain ⟨v0, u0, c0, d0, rfl, rfl, m0, v1, u1, c1, d1, rfl, rfl, ⟨m1, rfl⟩, v2, u2, c2, d2, rfl, rfl, m2, v3, u3, c3, d3, rfl, rfl,
      ⟨m3, rfl⟩, v4, u4, c4, d4, rfl, rfl, ⟨c5, rfl, m4⟩, v6, u6, c6, d6, rfl, rfl, ⟨m6, rfl⟩, v7, u7, c7, d7, rfl, rfl, m7,
      v8, u8, c8, d8, rfl, rfl, ⟨m8, rfl⟩, m9⟩ := h
    obtain ⟨rfl, rfl⟩ := Rx.matches_lit.mp m0
    obtain ⟨rfl, rfl⟩ := Rx.matches_lit.mp m4
    obtain ⟨rfl, rfl⟩ := Rx.matches_lit.mp m9
    simp only [List.nil_append, List.append_nil, List.cons_append]
    have k2 : ∀ e ∈ c2, 11 ≤ e.1 ∧ e.1 < 19 := fun e he => by
      have := m2.keys e he
      revert this; generalize e.1 = i; intro hi
      have hd : ∀ i ∈ (Rx.opt (.grp 11 Rx.lower)).groups, 11 ≤ i ∧ i < 19 := by decide
      exact hd i hi
    have k7 : ∀ e ∈ c7, 20 ≤ e.1 ∧ e.1 < 28 := fun e he => by
      have := m7.keys e he
      revert this; generalize e.1 = i; intro hi
      have hd : ∀ i ∈ (Rx.opt (.grp 20 Rx.upper)).groups, 20 ≤ i ∧ i < 28 := by decide
      exact hd i hi
    have g19 : Caps.get (c2 ++ (19, [',']) :: c7) 19 = [','] := by
      rw [Caps.get_append_right fun e he => by have := k2 e he; omega, Caps.get_cons_self]
    obtain ⟨l, N, hl, el⟩ := lower_spec (m := c2 ++ (19, [',']) :: c7) m2 fun i hi hi' => Caps.get_append_left fun e he => by
      rcases List.mem_cons.mp he with rfl | he
      · simp only; omega
      · have := k7 e he; omega
    obtain ⟨u, N', hu, eu⟩ := upper_spec (m := c2 ++ (19, [',']) :: c7) m7 fun i hi hi' => by
      rw [Caps.get_append_right fun e he => by have := k2 e he; omega, Caps.get_cons_ne (by omega)]
    refine ⟨.bounds l u, N ++ N', ?_, rfl, ?_⟩
    · simpa using BodyText.pair (isWs_iff.mpr m1) hl (isWs_iff.mpr m3) (isWs_iff.mpr m6) hu (isWs_iff.mpr m8)
    · rw [g19, if_neg (by simp)]
      exact twoArgs_spec φ el eu

theorem Rx.infSup_of_body {w : List Char} {D : Denot} {N : List NumInfo} (h : BodyText w D N) (hw : w.head? = some '[') :
    ∃ k, Rx.infSup.matchAll w = some k := by
  suffices ∃ k, Rx.Matches Rx.infSup w k from let ⟨k, hk⟩ := this; Rx.matchAll_of_matches hk
  have one : ∀ {w1 w w2 : List Char}, IsWs w1 → IsWs w2 → (∃ k, Rx.Matches Rx.arg w k) →
      ∃ k, Rx.Matches Rx.infSup ('[' :: (w1 ++ w ++ w2 ++ [']'])) k := by
    rintro w1 w w2 h1 h2 ⟨k, hk⟩
    exact ⟨_, Or.inl ⟨['['], _, _, _, rfl, rfl, Rx.matches_lit.mpr ⟨rfl, rfl⟩, w1, w ++ (w2 ++ [']']), [], _, by simp, rfl,
      ⟨isWs_iff.mp h1, rfl⟩, w, w2 ++ [']'], _, _, rfl, rfl, Or.inl ⟨k, rfl, hk⟩, w2, [']'], [], [], rfl, rfl, ⟨isWs_iff.mp h2, rfl⟩,
      Rx.matches_lit.mpr ⟨rfl, rfl⟩⟩⟩
  have lo : ∀ {a : List Char} {l : Option ℚ} {N : List NumInfo}, BoundText [['-']] a l N → ∃ k, Rx.Matches Rx.lower a k := by
    intro a l N h
    cases h with
    | none => exact ⟨[], Or.inl ⟨rfl, rfl⟩⟩
    | inf hs hw =>
      simp only [List.mem_singleton] at hs
      subst hs
      rename_i w
      refine ⟨_, Or.inr (Or.inr (Or.inr (Or.inr ⟨['-'], w, [], _, rfl, rfl, Rx.matches_lit.mpr ⟨rfl, rfl⟩, [], rfl, ?_⟩)))⟩
      exact hw.imp (fun h => Rx.matches_str.mpr ⟨h, rfl⟩) (fun h => Rx.matches_str.mpr ⟨h, rfl⟩)
    | num h =>
      rcases Rx.num_matches (n := 12) h with ⟨k, h⟩ | ⟨k, h⟩ | ⟨k, h⟩
      · exact ⟨k, Or.inr (Or.inl h)⟩
      · exact ⟨k, Or.inr (Or.inr (Or.inl h))⟩
      · exact ⟨k, Or.inr (Or.inr (Or.inr (Or.inl h)))⟩
  have up : ∀ {a : List Char} {l : Option ℚ} {N : List NumInfo}, BoundText [[], ['+']] a l N → ∃ k, Rx.Matches Rx.upper a k := by
    intro a l N h
    cases h with
    | none => exact ⟨[], Or.inl ⟨rfl, rfl⟩⟩
    | inf hs hw =>
      rename_i s w
      refine ⟨_, Or.inr (Or.inr (Or.inr (Or.inr ⟨s, w, [], _, rfl, rfl, ?_, [], rfl, ?_⟩)))⟩
      · simp only [List.mem_cons, List.not_mem_nil, or_false] at hs
        rcases hs with rfl | rfl
        · exact Or.inr ⟨rfl, rfl⟩
        · exact Or.inl (Rx.matches_lit.mpr ⟨rfl, rfl⟩)
      · exact hw.imp (fun h => Rx.matches_str.mpr ⟨h, rfl⟩) (fun h => Rx.matches_str.mpr ⟨h, rfl⟩)
    | num h =>
      rcases Rx.num_matches (n := 21) h with ⟨k, h⟩ | ⟨k, h⟩ | ⟨k, h⟩
      · exact ⟨k, Or.inr (Or.inl h)⟩
      · exact ⟨k, Or.inr (Or.inr (Or.inl h))⟩
      · exact ⟨k, Or.inr (Or.inr (Or.inr (Or.inl h)))⟩
  cases h with
  | empty h1 h2 => simpa using one h1 h2 (w := []) ⟨[], Or.inl ⟨rfl, rfl⟩⟩
  | emptyName h1 hn h2 =>
    exact one h1 h2 ⟨_, Or.inr (Or.inr (Or.inr (Or.inr (Or.inl ⟨[], rfl, Rx.matches_str.mpr ⟨hn, rfl⟩⟩))))⟩
  | entire h1 hn h2 =>
    exact one h1 h2 ⟨_, Or.inr (Or.inr (Or.inr (Or.inr (Or.inr (Or.inl ⟨[], rfl, Rx.matches_str.mpr ⟨hn, rfl⟩⟩)))))⟩
  | nai h1 hn h2 =>
    exact one h1 h2 ⟨_, Or.inr (Or.inr (Or.inr (Or.inr (Or.inr (Or.inr ⟨[], rfl, Rx.matches_str.mpr ⟨hn, rfl⟩⟩)))))⟩
  | point h1 hq h2 =>
    refine one h1 h2 ?_
    rcases Rx.num_matches (n := 2) hq with ⟨k, h⟩ | ⟨k, h⟩ | ⟨k, h⟩
    · exact ⟨k, Or.inr (Or.inl h)⟩
    · exact ⟨k, Or.inr (Or.inr (Or.inl h))⟩
    · exact ⟨k, Or.inr (Or.inr (Or.inr (Or.inl h)))⟩
  | pair h1 ha h2 h3 hb h4 =>
    obtain ⟨k, hk⟩ := lo ha
    obtain ⟨k', hk'⟩ := up hb
    rename_i w1 a w2 w3 b w4 l u N N'
    exact ⟨_, Or.inr ⟨['['], _, _, _, rfl, rfl, Rx.matches_lit.mpr ⟨rfl, rfl⟩, w1, a ++ (w2 ++ ',' :: (w3 ++ (b ++ (w4 ++ [']'])))), [], _, by simp, rfl,
      ⟨isWs_iff.mp h1, rfl⟩, a, _, _, _, rfl, rfl, Or.inl ⟨k, rfl, hk⟩, w2, _, [], _, rfl, rfl, ⟨isWs_iff.mp h2, rfl⟩,
      [','], _, _, _, rfl, rfl, ⟨[], rfl, Rx.matches_lit.mpr ⟨rfl, rfl⟩⟩, w3, _, [], _, rfl, rfl, ⟨isWs_iff.mp h3, rfl⟩,
      b, _, _, _, rfl, rfl, Or.inl ⟨k', rfl, hk'⟩, w4, _, [], [], rfl, rfl, ⟨isWs_iff.mp h4, rfl⟩, Rx.matches_lit.mpr ⟨rfl, rfl⟩⟩⟩
  | uncertain hs hm hr hd hx =>
    exfalso
    rename_i s m r d x sg v k e ρ rd lo hi
    rcases hs.cases with ⟨rfl, -⟩ | ⟨rfl, -⟩ | ⟨rfl, -⟩
    · obtain ⟨ip, fp, hmm, h1, h2, -, -⟩ := hm
      have hb : ∀ c ∈ ip ++ fp, c ≠ '[' := by
        intro c hc
        have := isDigits_ten.mp h2 c hc
        rintro rfl; exact absurd this (by decide)
      rcases hmm with ⟨rfl, rfl⟩ | rfl
      · cases m with
        | nil => simp at h1
        | cons c m =>
          simp only [List.nil_append, List.cons_append, List.head?_cons, Option.some.injEq] at hw
          exact hb c (by simp) hw
      · cases ip with
        | nil => simp at hw
        | cons c ip =>
          simp only [List.nil_append, List.cons_append, List.head?_cons, Option.some.injEq] at hw
          exact hb c (by simp) hw
    · simp at hw
    · simp at hw

/-! ## Uncertain numbers -/

theorem Rx.matches_uncertain {w : List Char} {k : Caps} (h : Rx.Matches Rx.uncertain w k) :
    ∃ s m r d x y sg v j e ρ rd lo hi, w = s ++ m ++ '?' :: (r ++ d ++ x) ∧ SignText s sg ∧ MantText 10 m v j ∧ RadText r ρ rd ∧
      DirText d lo hi ∧ ExpText x e ∧ k.get 1 = s ++ m ∧ k.get 3 = (if rd then r else []) ∧
      k.get 2 = (if ρ = none then ['?'] else []) ∧ (0 < (k.get 4).length ↔ lo = false) ∧ (0 < (k.get 5).length ↔ hi = false) ∧
      k.get 6 = y ∧ (y = [] ∧ e = 0 ∨ IntText y e) := by
  obtain ⟨w1, w2, k1, k2, rfl, rfl, ⟨k', rfl, h1⟩, w3, w4, k3, k4, rfl, rfl, hl, r, w5, kr, k5, rfl, rfl, hr, d, x, kd, kx, rfl, rfl, hd, hx⟩ := h
  obtain ⟨s, m, ks, km, rfl, rfl, hs, hm⟩ := h1
  obtain ⟨⟨sg, hS⟩, rfl⟩ := Rx.matches_sign.mp hs
  obtain ⟨⟨v, j, hM⟩, rfl⟩ := (Rx.matches_mantissa isDigit_eq).mp hm
  obtain ⟨rfl, rfl⟩ := Rx.matches_lit.mp hl
  have kr' : ∀ e ∈ kr, e.1 = 2 ∨ e.1 = 3 := fun e he => by
    have := hr.keys e he; simpa [Rx.groups, Rx.lit, Rx.plus] using this
  have kd' : ∀ e ∈ kd, e.1 = 4 ∨ e.1 = 5 := fun e he => by
    have := hd.keys e he; simpa [Rx.groups, Rx.ci] using this
  have kx' : ∀ e ∈ kx, e.1 = 6 := fun e he => by
    have := hx.keys e he; simpa [Rx.groups, Rx.ci, Rx.integer, Rx.plus] using this
  have er : ∃ ρ rd, RadText r ρ rd ∧ kr.get 3 = (if rd then r else []) ∧ kr.get 2 = (if ρ = none then ['?'] else []) ∧
      ∀ i, i ≠ 2 → i ≠ 3 → kr.get i = [] := by
    rcases hr with (⟨k', rfl, hr⟩ | ⟨k', rfl, hr⟩) | ⟨rfl, rfl⟩
    · obtain ⟨rfl, rfl⟩ := Rx.matches_lit.mp hr
      exact ⟨_, _, .inf, rfl, rfl, fun i h2 _ => by rw [Caps.get_cons_ne h2]; rfl⟩
    · obtain ⟨h1, h2, rfl⟩ := Rx.matches_plus.mp hr
      exact ⟨_, _, .num h1 (isDigits_ten.mpr h2), rfl, rfl, fun i _ h3 => by rw [Caps.get_cons_ne h3]; rfl⟩
    · exact ⟨_, _, .half, rfl, rfl, fun _ _ _ => rfl⟩
  have ed : ∃ lo hi, DirText d lo hi ∧ (0 < (kd.get 4).length ↔ lo = false) ∧ (0 < (kd.get 5).length ↔ hi = false) ∧
      ∀ i, i ≠ 4 → i ≠ 5 → kd.get i = [] := by
    rcases hd with (⟨k', rfl, hr⟩ | ⟨k', rfl, hr⟩) | ⟨rfl, rfl⟩
    · obtain ⟨c, hc, rfl, rfl⟩ := Rx.matches_ci.mp hr
      exact ⟨_, _, .up hc, by simp [Caps.get], by simp [Caps.get, List.lookup], fun i h2 _ => by rw [Caps.get_cons_ne h2]; rfl⟩
    · obtain ⟨c, hc, rfl, rfl⟩ := Rx.matches_ci.mp hr
      exact ⟨_, _, .down hc, by simp [Caps.get, List.lookup], by simp [Caps.get], fun i _ h2 => by rw [Caps.get_cons_ne h2]; rfl⟩
    · exact ⟨_, _, .both, by simp [Caps.get], by simp [Caps.get], fun _ _ _ => rfl⟩
  have ex : ∃ y e, ExpText x e ∧ kx.get 6 = y ∧ (y = [] ∧ e = 0 ∨ IntText y e) ∧ ∀ i, i ≠ 6 → kx.get i = [] := by
    rcases hx with ⟨w3, y, k3, k4, rfl, rfl, he, k5, rfl, hy⟩ | ⟨rfl, rfl⟩
    · obtain ⟨c, hc, rfl, rfl⟩ := Rx.matches_ci.mp he
      obtain ⟨⟨e, hY⟩, rfl⟩ := Rx.matches_integer.mp hy
      exact ⟨y, e, Or.inr ⟨c, y, hc, rfl, hY⟩, rfl, Or.inr hY, fun i h => by rw [List.nil_append, Caps.get_cons_ne h]; rfl⟩
    · exact ⟨[], 0, Or.inl ⟨rfl, rfl⟩, rfl, Or.inl ⟨rfl, rfl⟩, fun _ _ => rfl⟩
  obtain ⟨ρ, rd, r1, r2, r3, r4⟩ := er
  obtain ⟨lo, hi, d1, d2, d3, d4⟩ := ed
  obtain ⟨y, e, x1, x2, x3, x4⟩ := ex
  have lr : ∀ i, i = 2 ∨ i = 3 → Caps.get (kr ++ (kd ++ kx)) i = kr.get i := fun i hi => by
    rw [Caps.get_append_left]
    intro e he
    rcases List.mem_append.mp he with he | he
    · have := kd' e he; omega
    · have := kx' e he; omega
  have ld : ∀ i, i = 4 ∨ i = 5 → Caps.get (kr ++ (kd ++ kx)) i = kd.get i := fun i hi => by
    rw [Caps.get_append_right fun e he => by have := kr' e he; omega, Caps.get_append_left fun e he => by have := kx' e he; omega]
  have lx : Caps.get (kr ++ (kd ++ kx)) 6 = kx.get 6 := by
    rw [Caps.get_append_right fun e he => by have := kr' e he; omega, Caps.get_append_right fun e he => by have := kd' e he; omega]
  refine ⟨s, m, r, d, x, y, sg, v, j, e, ρ, rd, lo, hi, by simp, hS, hM, r1, d1, x1, Caps.get_cons_self, ?_, ?_, ?_, ?_, ?_, x3⟩
  all_goals simp only [List.cons_append, List.nil_append]; rw [Caps.get_cons_ne (by decide)]
  · rw [lr 3 (Or.inr rfl), r2]
  · rw [lr 2 (Or.inl rfl), r3]
  · rw [ld 4 (Or.inl rfl)]; exact d2
  · rw [ld 5 (Or.inr rfl)]; exact d3
  · rw [lx, x2]

theorem RadText.nonneg {r : List Char} {ρ : ℚ} {rd : Bool} (h : RadText r (some ρ) rd) : 0 ≤ ρ := by
  cases h with
  | half => norm_num
  | num h hw => exact Nat.cast_nonneg _

/-- The interval of an uncertain number is consistent. -/
theorem uncertain_consistent {r d : List Char} {ρ : Option ℚ} {rd lo hi : Bool} (hr : RadText r ρ rd) (hd : DirText d lo hi) (c E : ℚ) (hE : 0 < E) :
    (Denot.bounds (if lo then ρ.map (fun ρ => (c - ρ) * E) else some (c * E)) (if hi then ρ.map (fun ρ => (c + ρ) * E) else some (c * E))).Consistent := by
  cases ρ with
  | none => cases hd <;> trivial
  | some ρ =>
    have := hr.nonneg
    cases hd <;> simp only [Denot.Consistent, if_true, Bool.false_eq_true, if_false, Option.map_some] <;>
      apply mul_le_mul_of_nonneg_right _ hE.le <;> linarith

/-- What the evaluation of an uncertain number must do. -/
def EvalOkU (φ : Fmt) (D : Denot) (N : List NumInfo) (r : Std (Option (Itv × Dec))) : Prop :=
  ((D.Consistent ∧ ∀ n ∈ N, n.Supported) → ∃ x, r = .ok (some (x, D.dec)) ∧ boundsOk x.lo x.hi = true ∧ Tightest φ x D.set) ∧
  (¬(D.Consistent ∧ ∀ n ∈ N, n.Supported) → ∀ x, r ≠ .ok (some x)) ∧ ((∀ n ∈ N, n.InRange) → ∃ y, r = .ok y)

theorem Rx.uncertain_spec (φ : Fmt) {w : List Char} {k : Caps} (h : Rx.uncertain.matchAll w = some k) :
    ∃ D N, BodyText w D N ∧ EvalOkU φ D N (φ.uncertainArg k) := by
  obtain ⟨s, m, r, d, x, y, sg, v, j, e, ρ, rd, lo, hi, rfl, hs, hm, hr, hd, hx, g1, g3, g2, g4, g5, g6, hy⟩ :=
    Rx.matches_uncertain (Rx.matches_of_matchAll h)
  refine ⟨_, _, .uncertain hs hm hr hd hx, ?_⟩
  have hcons := uncertain_consistent hr hd (sg * v : ℚ) (10 ^ (e - j)) (by exact zpow_pos (by norm_num) _)
  obtain ⟨t1, t2⟩ := bounds_tight φ hcons
  obtain ⟨ds, p1, p2, p3, hv⟩ := hm.removePoint (b := .dec) (sign_no_point hs)
  have hv' : numVal 10 ds = v := hv.symm
  have im := mpzSetStr_eq hs p2 p3
  rw [show numVal 10 ds = v from hv'] at im
  have il3 : (0 < (k.get 3).length) ↔ rd = true := by
    rw [g3]
    cases hr <;> simp [List.length_pos_iff, *]
  have il2 : (0 < (k.get 2).length) ↔ ρ = none := by
    rw [g2]; split_ifs with hh <;> simp [hh]
  have iu : (if 0 < (k.get 3).length then mpzSetStr (k.get 3) else some 5) = some (if rd then (numVal 10 r : ℤ) else 5) := by
    rw [g3]
    cases hr with
    | half => simp
    | inf => simp
    | num h hw =>
      have := mpzSetStr_eq (s := []) (sg := 1) (by simp [SignText]) h hw
      simp [List.length_pos_iff, h]
      simpa using this
  have hst : (if rd then -(j:ℤ) else -(j:ℤ) - 1) + e = (if rd then e - j else e - j - 1 : ℤ) := by
    cases rd <;> simp <;> ring
  have key : φ.uncertainArg k = if s = ['+'] then .ok none else
      if intMin' ≤ e ∧ e ≤ intMax then
        if intMin' < (if rd then e - j else e - j - 1 : ℤ) ∧ (if rd then e - j else e - j - 1 : ℤ) ≤ intMax then
          .ok (some (⟨φ.loFP (if lo then ρ.map (fun ρ => (sg * v - ρ) * 10 ^ (e - j)) else some (sg * v * 10 ^ (e - j))),
            φ.hiFP (if hi then ρ.map (fun ρ => (sg * v + ρ) * 10 ^ (e - j)) else some (sg * v * 10 ^ (e - j)))⟩,
            (Denot.bounds (if lo then ρ.map (fun ρ => ((sg * v - ρ) * 10 ^ (e - j) : ℚ)) else some (sg * v * 10 ^ (e - j)))
              (if hi then ρ.map (fun ρ => ((sg * v + ρ) * 10 ^ (e - j) : ℚ)) else some (sg * v * 10 ^ (e - j)))).dec))
        else .ub
      else .outOfRange := by
    unfold Fmt.uncertainArg
    simp only [g1, p1, im, iu]
    by_cases hp : s = ['+']
    · simp only [hp, if_true]; rfl
    · simp only [hp, if_false, il3, il2, g4, g5, g6, addExp_eq hy, hst]
      by_cases h1 : intMin' ≤ e ∧ e ≤ intMax
      · simp only [h1, and_self, if_true]
        by_cases h2 : intMin' < (if rd then e - j else e - j - 1 : ℤ) ∧ (if rd then e - j else e - j - 1 : ℤ) ≤ intMax
        · rw [if_pos h2, if_pos h2]
          simp only [bind, Std.bind, pure]
          have e10 : (10 : ℚ) ^ (e - j) = 10 * 10 ^ (e - j - 1) := by
            rw [← zpow_one_add₀ (by norm_num)]; congr 1; ring
          clear h hcons t1 t2 il3 il2 iu hst im g1 g2 g3 g4 g5 g6 h2 p1
          cases hr <;> cases hd <;>
            simp [Fmt.loFP, Fmt.hiFP, Denot.dec, e10]
          all_goals try first
            | (constructor <;> congr 1 <;> ring)
            | (congr 1; ring)
        · rw [if_neg h2, if_neg h2]; rfl
      · simp only [h1, if_false]; rfl
  rw [key]
  refine ⟨?_, ?_, ?_⟩
  · rintro ⟨-, hS⟩
    obtain ⟨q1, q2, q3⟩ := hS _ (List.mem_singleton.mpr rfl)
    change intMin' ≤ e ∧ e ≤ intMax at q2
    change intMin' < (if rd then e - j else e - j - 1 : ℤ) ∧ (if rd then e - j else e - j - 1 : ℤ) ≤ intMax at q3
    rw [if_neg (by simpa using q1), if_pos q2, if_pos q3]
    exact ⟨_, rfl, t2, t1⟩
  · intro hn x hx
    by_cases h1 : s = ['+']
    · rw [if_pos h1] at hx; simp at hx
    rw [if_neg h1] at hx
    by_cases h2 : intMin' ≤ e ∧ e ≤ intMax
    swap
    · rw [if_neg h2] at hx; simp at hx
    rw [if_pos h2] at hx
    by_cases h3 : intMin' < (if rd then e - j else e - j - 1 : ℤ) ∧ (if rd then e - j else e - j - 1 : ℤ) ≤ intMax
    swap
    · rw [if_neg h3] at hx; simp at hx
    exact hn ⟨hcons, fun n hmem => by
      rw [List.mem_singleton.mp hmem]
      exact ⟨by simpa using h1, h2, h3⟩⟩
  · intro hR
    obtain ⟨q2, q3⟩ := hR _ (List.mem_singleton.mpr rfl)
    change intMin' ≤ e ∧ e ≤ intMax at q2
    change intMin' < (if rd then e - j else e - j - 1 : ℤ) ∧ (if rd then e - j else e - j - 1 : ℤ) ≤ intMax at q3
    rw [if_pos q2, if_pos q3]
    by_cases h1 : s = ['+']
    · rw [if_pos h1]; exact ⟨_, rfl⟩
    · rw [if_neg h1]; exact ⟨_, rfl⟩

theorem Rx.uncertain_of_body {w : List Char} {D : Denot} {N : List NumInfo} (h : BodyText w D N) (hw : w.head? ≠ some '[') :
    ∃ k, Rx.uncertain.matchAll w = some k := by
  suffices ∃ k, Rx.Matches Rx.uncertain w k from let ⟨k, hk⟩ := this; Rx.matchAll_of_matches hk
  cases h with
  | uncertain hs hm hr hd hx =>
    rename_i s m r d x sg v k e ρ rd lo hi
    have h1 : Rx.Matches (.grp 1 (.seq (.opt (.chr Rx.isSign)) (Rx.mantissa isDigit))) (s ++ m) [(1, s ++ m)] :=
      ⟨[], rfl, s, m, [], [], rfl, rfl, Rx.matches_sign.mpr ⟨⟨sg, hs⟩, rfl⟩, (Rx.matches_mantissa isDigit_eq).mpr ⟨⟨v, k, hm⟩, rfl⟩⟩
    have h2 : ∃ k, Rx.Matches (.opt (.alt (.grp 2 (Rx.lit '?')) (.grp 3 (Rx.plus isDigit)))) r k := by
      cases hr with
      | half => exact ⟨_, Or.inr ⟨rfl, rfl⟩⟩
      | inf => exact ⟨_, Or.inl (Or.inl ⟨_, rfl, Rx.matches_lit.mpr ⟨rfl, rfl⟩⟩)⟩
      | num h hw => exact ⟨_, Or.inl (Or.inr ⟨_, rfl, Rx.matches_plus.mpr ⟨h, isDigits_ten.mp hw, rfl⟩⟩)⟩
    have h3 : ∃ k, Rx.Matches (.opt (.alt (.grp 4 (Rx.ci 'u')) (.grp 5 (Rx.ci 'd')))) d k := by
      cases hd with
      | both => exact ⟨_, Or.inr ⟨rfl, rfl⟩⟩
      | up h => exact ⟨_, Or.inl (Or.inl ⟨_, rfl, Rx.matches_ci.mpr ⟨_, h, rfl, rfl⟩⟩)⟩
      | down h => exact ⟨_, Or.inl (Or.inr ⟨_, rfl, Rx.matches_ci.mpr ⟨_, h, rfl, rfl⟩⟩)⟩
    have h4 : ∃ k, Rx.Matches (.opt (.seq (Rx.ci 'e') (.grp 6 Rx.integer))) x k := by
      rcases hx with ⟨rfl, rfl⟩ | ⟨c, y, hc, rfl, hy⟩
      · exact ⟨_, Or.inr ⟨rfl, rfl⟩⟩
      · exact ⟨_, Or.inl ⟨[c], y, [], _, rfl, rfl, Rx.matches_ci.mpr ⟨c, hc, rfl, rfl⟩, [], rfl, Rx.matches_integer.mpr ⟨⟨e, hy⟩, rfl⟩⟩⟩
    obtain ⟨k2, h2⟩ := h2
    obtain ⟨k3, h3⟩ := h3
    obtain ⟨k4, h4⟩ := h4
    exact ⟨_, s ++ m, _, _, _, rfl, rfl, h1, ['?'], r ++ d ++ x, [], _, rfl, rfl, Rx.matches_lit.mpr ⟨rfl, rfl⟩, r, d ++ x, _, _, by simp, rfl, h2,
      d, x, _, _, rfl, rfl, h3, h4⟩
  | _ => simp at hw

end P1788
