import Verif.Lemmas.WriteUnc
import Verif.Props.C28
import Verif.Props.C40b

/-!
# C42 Writing intervals in uncertain form

Texts and their meaning are those of `Verif/SpecText.lean`.
-/

namespace P1788
variable {φ : Fmt} {slack : ℕ}

/-! ### Text -/

theorem UcExp.text {ex : List Char} {e : ℤ} (h : UcExp ex e) : ExpText ex e := by
  rcases h with h | ⟨c, w, rfl, hc, h1, h2, h3⟩
  · exact Or.inl h
  · refine Or.inr ⟨c, _, by rcases hc with rfl | rfl <;> decide, rfl, ?_⟩
    by_cases he : e < 0
    · rw [if_pos he]
      exact ⟨['-'], -1, w, rfl, Or.inr ⟨rfl, rfl⟩, h1, h2, by rw [h3]; omega⟩
    · rw [if_neg he]
      exact ⟨['+'], 1, w, rfl, Or.inl ⟨Or.inr rfl, rfl⟩, h1, h2, by rw [h3]; omega⟩

theorem UcNum.body {prec : ℕ} {t ip fp ex w d : List Char} {neg : Bool} {e : ℤ} (h : UcNum prec t neg ip fp e ex) {ρ : Option ℚ} {rd lo hi : Bool}
    (hr : RadText w ρ rd) (hd : DirText d lo hi) {B : ℕ} (hB : |e| + prec + 1 ≤ B) :
    ∃ N, BodyText (mantPart t ++ '?' :: (w ++ d ++ expPart t))
      (.bounds (if lo then ρ.map (fun ρ => (sval neg (ip ++ fp) - ρ) * 10 ^ (e - prec)) else some (sval neg (ip ++ fp) * 10 ^ (e - prec)))
        (if hi then ρ.map (fun ρ => (sval neg (ip ++ fp) + ρ) * 10 ^ (e - prec)) else some (sval neg (ip ++ fp) * 10 ^ (e - prec)))) N ∧
      ∀ n ∈ N, n.Small B := by
  have hm : MantText 10 (ip ++ '.' :: fp) (numVal 10 (ip ++ fp)) prec := ⟨ip, fp, Or.inr rfl, by simp [h.ip_ne], h.dig, rfl, h.len.symm⟩
  have hs : SignText (sgT neg) (if neg then -1 else 1) := by
    cases neg
    · exact Or.inl ⟨Or.inl rfl, rfl⟩
    · exact Or.inr ⟨rfl, rfl⟩
  have hv : (((if neg then -1 else 1 : ℤ) : ℤ) : ℚ) * (numVal 10 (ip ++ fp) : ℚ) = (sval neg (ip ++ fp) : ℚ) := by
    rw [sval]; cases neg <;> simp
  have := BodyText.uncertain hs hm hr hd h.exp.text
  simp only [hv] at this
  rw [h.mant, h.expp]
  refine ⟨_, by rw [← List.append_assoc] at this; exact this, ?_⟩
  intro n hn
  rw [List.mem_singleton] at hn
  have he := abs_le.mp (le_refl |e|)
  subst hn
  refine ⟨by cases neg <;> simp [sgT], by simp only; omega, ?_⟩
  simp only
  rw [abs_le]
  split_ifs <;> constructor <;> omega

theorem intText_nat {z : ℤ} (h : 0 ≤ z) : RadText (intText z) (some (z : ℚ)) true := by
  obtain ⟨h1, h2⟩ := natText_val (b := 10) (up := false) (k := 1) (n := z.natAbs) (by norm_num) (by norm_num)
  have := RadText.num (List.ne_nil_of_length_pos length_natText_pos) h1
  rw [h2] at this
  rw [intText, if_neg (by omega)]
  have e : ((z.natAbs : ℕ) : ℚ) = z := by rw [← Int.cast_natCast, Int.natAbs_of_nonneg h]
  rw [← e]
  exact this

/-- The text of a bound. -/
theorem ucStr_ok {k : Manip} {up : Bool} {m : Rnd} {v : FP} {t : List Char} (h : φ.ucStr slack k up m v = .ok t) : t = φ.numText k.ucRep up k.ucPrec m v := by
  unfold Fmt.ucStr Fmt.getStr at h
  simp only at h
  split_ifs at h
  have := (Std.ok.inj h).symm
  rw [this, blanks, show ((0 : ℕ) - ((φ.numText k.ucRep up k.ucPrec m v).length : ℤ) : ℤ).toNat = 0 by omega]
  rfl

theorem ucRep_or (k : Manip) : k.ucRep = .dec ∨ k.ucRep = .sci := by
  unfold Manip.ucRep; split_ifs <;> simp

theorem ucPrec_pos (k : Manip) : 0 < k.ucPrec := by
  unfold Manip.ucPrec; split_ifs <;> omega

theorem insertMark_eq {t w d : List Char} : insertMark t ('?' :: w ++ d) = mantPart t ++ '?' :: (w ++ d ++ expPart t) := by
  simp [insertMark]

theorem B_le {k : Manip} {e : ℤ} (h : |e| ≤ (φ.E + 1 : ℕ)) : |e| + k.ucPrec + 1 ≤ (φ.B k.ucPrec : ℕ) := by
  unfold Fmt.B; push_cast at h ⊢; omega

/-! ### Bounded intervals -/

/-- What the three forms have in common. -/
theorem uc_dir {k : Manip} {down : Bool} {x : Itv} {tl tu : List Char} {r : List Char × ℤ × List Char} {nl nu : Bool} {il fl xl iu fu xu : List Char} {el eu : ℤ}
    (hl : UcNum k.ucPrec tl nl il fl el xl) (hu : UcNum k.ucPrec tu nu iu fu eu xu)
    (fL : nl = true → numVal 10 (il ++ fl) ≠ 0 → x.lo.ltb (.fin 0) = true) (fU : nu = false → numVal 10 (iu ++ fu) ≠ 0 → FP.ltb (.fin 0) x.hi = true)
    (hle : (sval nl (il ++ fl) : ℚ) * (10 : ℚ) ^ (el - (k.ucPrec : ℤ)) ≤ (sval nu (iu ++ fu) : ℚ) * (10 : ℚ) ^ (eu - (k.ucPrec : ℤ)))
    (gL : x.lo.ltb (.fin 0) = true → nl = true) (gU : FP.ltb (.fin 0) x.hi = true → nu = false)
    (h : ucDir k down x tl tu = .ok r) :
    0 ≤ r.2.1 ∧ (r.1, r.2.2) = (if down then (mantPart tu, expPart tu) else (mantPart tl, expPart tl)) ∧
      (down = true → ((sval nu (iu ++ fu) : ℚ) - r.2.1) * (10 : ℚ) ^ (eu - (k.ucPrec : ℤ)) ≤ sval nl (il ++ fl) * (10 : ℚ) ^ (el - (k.ucPrec : ℤ))) ∧
      (down = false → (sval nu (iu ++ fu) : ℚ) * (10 : ℚ) ^ (eu - (k.ucPrec : ℤ)) ≤ (sval nl (il ++ fl) + r.2.1) * (10 : ℚ) ^ (el - (k.ucPrec : ℤ))) ∧
      (down = true → (sval nl (il ++ fl) : ℚ) * (10 : ℚ) ^ (el - (k.ucPrec : ℤ)) - (10 : ℚ) ^ (eu - (k.ucPrec : ℤ)) ≤
        (sval nu (iu ++ fu) - r.2.1) * (10 : ℚ) ^ (eu - (k.ucPrec : ℤ))) ∧
      (down = false → (sval nl (il ++ fl) + r.2.1) * (10 : ℚ) ^ (el - (k.ucPrec : ℤ)) ≤
        (sval nu (iu ++ fu) : ℚ) * (10 : ℚ) ^ (eu - (k.ucPrec : ℤ)) + (10 : ℚ) ^ (el - (k.ucPrec : ℤ))) := by
  unfold ucDir at h
  obtain ⟨a, ha, h⟩ := Std.bind_ok h
  obtain ⟨b, hb, h⟩ := Std.bind_ok h
  obtain ⟨e, he, h⟩ := Std.bind_ok h
  obtain ⟨l', hl', h⟩ := Std.bind_ok h
  obtain ⟨u', hu', h⟩ := Std.bind_ok h
  obtain ⟨⟨l'', ul⟩, hl'', h⟩ := Std.bind_ok h
  obtain ⟨⟨u'', uu⟩, hu'', h⟩ := Std.bind_ok h
  obtain ⟨L, hL, h⟩ := Std.bind_ok h
  obtain ⟨L', hL', h⟩ := Std.bind_ok h
  obtain ⟨U, hU, h⟩ := Std.bind_ok h
  obtain ⟨s, hs, h⟩ := Std.bind_ok h
  obtain ⟨s', hs', h⟩ := Std.bind_ok h
  have h := Std.ok.inj h
  have ha := hl.expVal ha
  have hb := hu.expVal hb
  have he := inBits_ok he
  have hL' := inBits_ok hL'
  have hs := inBits_ok hs
  have hs' := inBits_ok hs'
  rw [hl.sep] at hl'
  rw [hu.sep] at hu'
  have hl' := Std.ok.inj hl'
  have hu' := Std.ok.inj hu'
  subst ha hb he hl' hu' hL' hs hs' h
  have hpow : ∀ z : ℤ, (0 : ℚ) < (10 : ℚ) ^ z := fun z => zpow_pos (by norm_num) _
  cases down
  · simp only [Bool.false_eq_true, if_false] at hl'' hu'' hL hU ⊢
    obtain ⟨e1, e2⟩ := Prod.mk.inj (Std.ok.inj hl'')
    subst e1 e2
    obtain ⟨_, hL⟩ := stoNum_sg hl.dig hL
    obtain ⟨c0, -, c2, -, c4⟩ := shiftDigits_val hu.dig hu'' hU
    have c2 := c2 fU
    have c4 := c4 gU
    subst hL
    have key : (sval nu (iu ++ fu) : ℚ) * (10 : ℚ) ^ (b - (k.ucPrec : ℤ)) ≤ ((U + uu : ℤ) : ℚ) * (10 : ℚ) ^ (a - (k.ucPrec : ℤ)) := by
      have := mul_le_mul_of_nonneg_right c2 (hpow (a - k.ucPrec)).le
      rwa [mul_assoc, ← zpow_add₀ (by norm_num), show -(a - b) + (a - (k.ucPrec : ℤ)) = b - k.ucPrec by ring] at this
    have key' : ((U + uu : ℤ) : ℚ) * (10 : ℚ) ^ (a - (k.ucPrec : ℤ)) ≤ (sval nu (iu ++ fu) : ℚ) * (10 : ℚ) ^ (b - (k.ucPrec : ℤ)) + (10 : ℚ) ^ (a - (k.ucPrec : ℤ)) := by
      have := mul_le_mul_of_nonneg_right c4 (hpow (a - k.ucPrec)).le
      rwa [add_mul _ _ ((10 : ℚ) ^ (a - (k.ucPrec : ℤ))), mul_assoc, ← zpow_add₀ (by norm_num), show -(a - b) + (a - (k.ucPrec : ℤ)) = b - k.ucPrec by ring, one_mul] at this
    refine ⟨?_, trivial, by simp, fun _ => ?_, by simp, fun _ => le_trans (le_of_eq ?_) key'⟩
    rotate_right
    · push_cast; ring
    · have := le_of_mul_le_mul_right (hle.trans key) (hpow _)
      have : sval nl (il ++ fl) ≤ U + uu := by exact_mod_cast this
      linarith
    · refine key.trans (le_of_eq ?_)
      push_cast
      ring
  · simp only [if_true] at hl'' hu'' hL hU ⊢
    obtain ⟨e1, e2⟩ := Prod.mk.inj (Std.ok.inj hu'')
    subst e1 e2
    obtain ⟨_, hU⟩ := stoNum_sg hu.dig hU
    obtain ⟨c0, c1, -, c3, -⟩ := shiftDigits_val hl.dig hl'' hL
    have c1 := c1 fL
    have c3 := c3 gL
    subst hU
    have key : ((L - ul : ℤ) : ℚ) * (10 : ℚ) ^ (b - (k.ucPrec : ℤ)) ≤ (sval nl (il ++ fl) : ℚ) * (10 : ℚ) ^ (a - (k.ucPrec : ℤ)) := by
      have := mul_le_mul_of_nonneg_right c1 (hpow (b - k.ucPrec)).le
      rwa [mul_assoc _ ((10 : ℚ) ^ (a - b)), ← zpow_add₀ (by norm_num), show (a - b) + (b - (k.ucPrec : ℤ)) = a - k.ucPrec by ring] at this
    have key' : (sval nl (il ++ fl) : ℚ) * (10 : ℚ) ^ (a - (k.ucPrec : ℤ)) - (10 : ℚ) ^ (b - (k.ucPrec : ℤ)) ≤ ((L - ul : ℤ) : ℚ) * (10 : ℚ) ^ (b - (k.ucPrec : ℤ)) := by
      have := mul_le_mul_of_nonneg_right c3 (hpow (b - k.ucPrec)).le
      rwa [sub_mul _ _ ((10 : ℚ) ^ (b - (k.ucPrec : ℤ))), mul_assoc _ ((10 : ℚ) ^ (a - b)), ← zpow_add₀ (by norm_num), show (a - b) + (b - (k.ucPrec : ℤ)) = a - k.ucPrec by ring, one_mul] at this
    refine ⟨?_, trivial, fun _ => ?_, by simp, fun _ => key'.trans (le_of_eq ?_), by simp⟩
    rotate_right
    · push_cast; ring
    · have := le_of_mul_le_mul_right (key.trans hle) (hpow _)
      have : L - ul ≤ sval nu (iu ++ fu) := by exact_mod_cast this
      linarith
    · refine le_trans (le_of_eq ?_) key
      push_cast
      ring

theorem uc_sym {k : Manip} {up : Bool} {x : Itv} {tl tu tm : List Char} {r : List Char × ℤ × List Char} {nl nu nm : Bool} {il fl xl iu fu xu im fm xm : List Char} {el eu em : ℤ}
    (ht : tm = φ.numText k.ucRep up k.ucPrec .N (x.mid φ))
    (hl : UcNum k.ucPrec tl nl il fl el xl) (hu : UcNum k.ucPrec tu nu iu fu eu xu) (hm : UcNum k.ucPrec tm nm im fm em xm)
    (xx : xl = [] ∧ xu = [] ∧ xm = [] ∨ xl ≠ [] ∧ xu ≠ [] ∧ xm ≠ [] ∧ xm.length ≤ k.ucPrec + 1)
    (fL : nl = true → numVal 10 (il ++ fl) ≠ 0 → x.lo.ltb (.fin 0) = true) (fU : nu = false → numVal 10 (iu ++ fu) ≠ 0 → FP.ltb (.fin 0) x.hi = true)
    (hle : (sval nl (il ++ fl) : ℚ) * (10 : ℚ) ^ (el - (k.ucPrec : ℤ)) ≤ (sval nu (iu ++ fu) : ℚ) * (10 : ℚ) ^ (eu - (k.ucPrec : ℤ)))
    (gL : x.lo.ltb (.fin 0) = true → nl = true) (gU : FP.ltb (.fin 0) x.hi = true → nu = false)
    (h : φ.ucSym slack k up x tl tu = .ok r) :
    0 ≤ r.2.1 ∧ r.1 = mantPart tm ∧ r.2.2 = expPart tm ∧
      ((sval nm (im ++ fm) : ℚ) - r.2.1) * (10 : ℚ) ^ (em - (k.ucPrec : ℤ)) ≤ sval nl (il ++ fl) * (10 : ℚ) ^ (el - (k.ucPrec : ℤ)) ∧
      (sval nu (iu ++ fu) : ℚ) * (10 : ℚ) ^ (eu - (k.ucPrec : ℤ)) ≤ (sval nm (im ++ fm) + r.2.1) * (10 : ℚ) ^ (em - (k.ucPrec : ℤ)) ∧
      r.2.1 * (10 : ℚ) ^ (em - (k.ucPrec : ℤ)) ≤ max (sval nm (im ++ fm) * (10 : ℚ) ^ (em - (k.ucPrec : ℤ)) - sval nl (il ++ fl) * (10 : ℚ) ^ (el - (k.ucPrec : ℤ)))
        (sval nu (iu ++ fu) * (10 : ℚ) ^ (eu - (k.ucPrec : ℤ)) - sval nm (im ++ fm) * (10 : ℚ) ^ (em - (k.ucPrec : ℤ))) + (10 : ℚ) ^ (em - (k.ucPrec : ℤ)) := by
  unfold Fmt.ucSym at h
  obtain ⟨t, ht', h⟩ := Std.bind_ok h
  obtain ⟨m, hm', h⟩ := Std.bind_ok h
  obtain ⟨c, hc, h⟩ := Std.bind_ok h
  obtain ⟨a, ha, h⟩ := Std.bind_ok h
  obtain ⟨dl, hdl, h⟩ := Std.bind_ok h
  obtain ⟨l', hl', h⟩ := Std.bind_ok h
  obtain ⟨⟨l'', ul⟩, hl'', h⟩ := Std.bind_ok h
  obtain ⟨b, hb, h⟩ := Std.bind_ok h
  obtain ⟨du, hdu, h⟩ := Std.bind_ok h
  obtain ⟨u', hu', h⟩ := Std.bind_ok h
  obtain ⟨⟨u'', uu⟩, hu'', h⟩ := Std.bind_ok h
  obtain ⟨M, hM, h⟩ := Std.bind_ok h
  obtain ⟨L, hL, h⟩ := Std.bind_ok h
  obtain ⟨L', hL', h⟩ := Std.bind_ok h
  obtain ⟨s1, hs1, h⟩ := Std.bind_ok h
  obtain ⟨s2, hs2, h⟩ := Std.bind_ok h
  obtain ⟨M', hM', h⟩ := Std.bind_ok h
  obtain ⟨U, hU, h⟩ := Std.bind_ok h
  obtain ⟨s3, hs3, h⟩ := Std.bind_ok h
  obtain ⟨s4, hs4, h⟩ := Std.bind_ok h
  have h := Std.ok.inj h
  have ht' : t = tm := by rw [ht]; exact ucStr_ok ht'
  subst ht'
  rw [hm.sep] at hm'
  have hm' := Std.ok.inj hm'
  subst hm'
  have hc : c = em := by
    rw [hm.expp] at hc
    by_cases h0 : xm = []
    · rw [if_pos h0] at hc
      rcases hm.exp with ⟨_, he⟩ | ⟨c, w, h1, _⟩
      · rw [he, Std.ok.inj hc]
      · rw [h1] at h0; cases h0
    · rw [if_neg h0] at hc
      have hlen : (xm.drop 1).length ≤ (sgT nm ++ (im ++ fm)).length - 1 := by
        rcases xx with h | ⟨_, _, _, h⟩
        · exact absurd h.2.2 h0
        · have := List.length_pos_of_ne_nil hm.ip_ne
          simp only [List.length_drop, List.length_append, hm.len]; omega
      rw [List.take_of_length_le hlen] at hc
      exact hm.exp.val h0 hc
  have ha : a = el := by
    rw [hl.expp] at ha
    by_cases h0 : xl = []
    · rw [if_pos h0] at ha
      have hx : xm = [] := by rcases xx with h | h; exacts [h.2.2, absurd h0 h.1]
      have e1 : em = 0 := by
        rcases hm.exp with ⟨_, he⟩ | ⟨c, w, h1, _⟩
        · exact he
        · rw [h1] at hx; cases hx
      have e2 : el = 0 := by
        rcases hl.exp with ⟨_, he⟩ | ⟨c, w, h1, _⟩
        · exact he
        · rw [h1] at h0; cases h0
      rw [← Std.ok.inj ha, hc, e1, e2]
    · rw [if_neg h0] at ha
      exact hl.expVal ha
  have hb : b = eu := by
    rw [hu.expp] at hb
    by_cases h0 : xu = []
    · rw [if_pos h0] at hb
      have hx : xm = [] := by rcases xx with h | h; exacts [h.2.2, absurd h0 h.2.1]
      have e1 : em = 0 := by
        rcases hm.exp with ⟨_, he⟩ | ⟨c, w, h1, _⟩
        · exact he
        · rw [h1] at hx; cases hx
      have e2 : eu = 0 := by
        rcases hu.exp with ⟨_, he⟩ | ⟨c, w, h1, _⟩
        · exact he
        · rw [h1] at h0; cases h0
      rw [← Std.ok.inj hb, hc, e1, e2]
    · rw [if_neg h0] at hb
      exact hu.expVal hb
  have hdl := inBits_ok hdl
  have hdu := inBits_ok hdu
  have hL' := inBits_ok hL'
  have hM' := inBits_ok hM'
  have hs1 := inBits_ok hs1
  have hs2 := inBits_ok hs2
  have hs3 := inBits_ok hs3
  have hs4 := inBits_ok hs4
  rw [hl.sep] at hl'
  rw [hu.sep] at hu'
  have hl' := Std.ok.inj hl'
  have hu' := Std.ok.inj hu'
  obtain ⟨_, hM⟩ := stoNum_sg hm.dig hM
  subst hc ha hb hdl hdu hl' hu' hL' hM' hs1 hs2 hs3 hs4 h
  have hpow : ∀ z : ℤ, (0 : ℚ) < (10 : ℚ) ^ z := fun z => zpow_pos (by norm_num) _
  obtain ⟨-, c1, -, c3, -⟩ := shiftDigits_val hl.dig hl'' hL
  obtain ⟨-, -, c2, -, c4⟩ := shiftDigits_val hu.dig hu'' hU
  have c1 := c1 fL
  have c2 := c2 fU
  have c3 := c3 gL
  have c4 := c4 gU
  have k1 : ((L - ul : ℤ) : ℚ) * (10 : ℚ) ^ (c - (k.ucPrec : ℤ)) ≤ (sval nl (il ++ fl) : ℚ) * (10 : ℚ) ^ (a - (k.ucPrec : ℤ)) := by
    have := mul_le_mul_of_nonneg_right c1 (hpow (c - k.ucPrec)).le
    rwa [mul_assoc _ ((10 : ℚ) ^ (a - c)), ← zpow_add₀ (by norm_num), show (a - c) + (c - (k.ucPrec : ℤ)) = a - k.ucPrec by ring] at this
  have k2 : (sval nu (iu ++ fu) : ℚ) * (10 : ℚ) ^ (b - (k.ucPrec : ℤ)) ≤ ((U + uu : ℤ) : ℚ) * (10 : ℚ) ^ (c - (k.ucPrec : ℤ)) := by
    have := mul_le_mul_of_nonneg_right c2 (hpow (c - k.ucPrec)).le
    rwa [mul_assoc _ ((10 : ℚ) ^ (b - c)), ← zpow_add₀ (by norm_num), show (b - c) + (c - (k.ucPrec : ℤ)) = b - k.ucPrec by ring] at this
  have k3 : L - ul ≤ U + uu := by exact_mod_cast le_of_mul_le_mul_right (k1.trans (hle.trans k2)) (hpow _)
  have k4 : (sval nl (il ++ fl) : ℚ) * (10 : ℚ) ^ (a - (k.ucPrec : ℤ)) - (10 : ℚ) ^ (c - (k.ucPrec : ℤ)) ≤ ((L - ul : ℤ) : ℚ) * (10 : ℚ) ^ (c - (k.ucPrec : ℤ)) := by
    have := mul_le_mul_of_nonneg_right c3 (hpow (c - k.ucPrec)).le
    rwa [sub_mul _ _ ((10 : ℚ) ^ (c - (k.ucPrec : ℤ))), mul_assoc _ ((10 : ℚ) ^ (a - c)), ← zpow_add₀ (by norm_num), show (a - c) + (c - (k.ucPrec : ℤ)) = a - k.ucPrec by ring, one_mul] at this
  have k5 : ((U + uu : ℤ) : ℚ) * (10 : ℚ) ^ (c - (k.ucPrec : ℤ)) ≤ (sval nu (iu ++ fu) : ℚ) * (10 : ℚ) ^ (b - (k.ucPrec : ℤ)) + (10 : ℚ) ^ (c - (k.ucPrec : ℤ)) := by
    have := mul_le_mul_of_nonneg_right c4 (hpow (c - k.ucPrec)).le
    rwa [add_mul _ _ ((10 : ℚ) ^ (c - (k.ucPrec : ℤ))), mul_assoc _ ((10 : ℚ) ^ (b - c)), ← zpow_add₀ (by norm_num), show (b - c) + (c - (k.ucPrec : ℤ)) = b - k.ucPrec by ring, one_mul] at this
  have m1 := le_max_left (-L + M + ul) (-M + U + uu)
  have m2 := le_max_right (-L + M + ul) (-M + U + uu)
  have m3 := max_choice (-L + M + ul) (-M + U + uu)
  simp only
  generalize max (-L + M + ul) (-M + U + uu) = s at m1 m2 m3 ⊢
  refine ⟨by omega, trivial, trivial, le_trans (mul_le_mul_of_nonneg_right ?_ (hpow _).le) k1, k2.trans (mul_le_mul_of_nonneg_right ?_ (hpow _).le), ?_⟩
  rotate_right
  · rw [← hM, ← max_add_add_right]
    rcases m3 with m3 | m3
    · refine le_max_of_le_left ?_
      have : (s : ℚ) = -((L - ul : ℤ) : ℚ) + M := by rw [m3]; push_cast; ring
      rw [this, add_mul, neg_mul]
      linarith
    · refine le_max_of_le_right ?_
      have : (s : ℚ) = ((U + uu : ℤ) : ℚ) - M := by rw [m3]; push_cast; ring
      rw [this, sub_mul]
      linarith
  · rw [← hM]
    have : M - s ≤ L - ul := by omega
    exact_mod_cast this
  · rw [← hM]
    have : U + uu ≤ M + s := by omega
    exact_mod_cast this

/-! ### The text -/

theorem below_q {x : FP} {r : ℝ} (h1 : x ≠ .nan) (h2 : x ≠ .ninf) (h : x.BelowR r) : (x.q : ℝ) ≤ r := by
  cases x <;> simp_all [FP.BelowR, FP.q]

theorem above_q {x : FP} {r : ℝ} (h1 : x ≠ .nan) (h2 : x ≠ .pinf) (h : x.AboveR r) : r ≤ (x.q : ℝ) := by
  cases x <;> simp_all [FP.AboveR, FP.q]

theorem consistent_of_ne {D : Denot} {r : ℝ} (h : r ∈ D.set) : D.Consistent := by
  match D with
  | .nai => trivial
  | .empty => trivial
  | .bounds none _ => trivial
  | .bounds (some _) none => trivial
  | .bounds (some p) (some q) =>
    have := (h.1 p rfl).trans (h.2 q rfl)
    exact (Rat.cast_le (K := ℝ)).mp this

/-- How close the bounds of a text in uncertain form are to those of the interval: what may be lost by rounding to the number of digits
asked for (`tol`), and one unit in the last place of the number before the question mark (`unit`). -/
def UcAccurate (φ : Fmt) (k : Manip) (x : Itv) (l u : Option ℚ) : Prop :=
  (∀ a, l = some a → u = none → x.lo.q - a ≤ k.ucRep.tol k.ucPrec x.lo.q) ∧
  (∀ b, u = some b → l = none → b - x.hi.q ≤ k.ucRep.tol k.ucPrec x.hi.q) ∧
  ∀ a b, l = some a → u = some b →
    (k.form = .up → x.lo.q - a ≤ k.ucRep.tol k.ucPrec x.lo.q ∧ b - x.hi.q ≤ k.ucRep.tol k.ucPrec x.hi.q + k.ucRep.unit k.ucPrec a) ∧
    (k.form = .down → b - x.hi.q ≤ k.ucRep.tol k.ucPrec x.hi.q ∧ x.lo.q - a ≤ k.ucRep.tol k.ucPrec x.lo.q + k.ucRep.unit k.ucPrec b) ∧
    (k.form = .uncertain → |(a + b) / 2 - (x.mid φ).q| ≤ k.ucRep.tol k.ucPrec (x.mid φ).q ∧
      (b - a) / 2 ≤ max ((a + b) / 2 - (x.lo.q - k.ucRep.tol k.ucPrec x.lo.q)) (x.hi.q + k.ucRep.tol k.ucPrec x.hi.q - (a + b) / 2) +
        k.ucRep.unit k.ucPrec ((a + b) / 2))

/-- The exponent of the midpoint, with its sign, has no more characters than there are digits after the point. -/
def MidFits (φ : Fmt) (k : Manip) (x : Itv) : Prop :=
  3 ≤ k.ucPrec ∧ ∀ c, x.mid φ = .fin c → c ≠ 0 → -10 ^ (k.ucPrec - 1) < Int.log 10 |c| ∧ Int.log 10 |c| + 1 < 10 ^ (k.ucPrec - 1)

theorem MidFits.length {k : Manip} {x : Itv} (h : MidFits φ k x) {c : ℚ} (hc : x.mid φ = .fin c) {ex : List Char} {e : ℤ}
    (h1 : ex.length = 2 + max 2 (Nat.log 10 e.natAbs + 1)) (h2 : e = 0 ∨ (FP.fin c).q ≠ 0 ∧ (e = Int.log 10 |(FP.fin c).q| ∨ e = Int.log 10 |(FP.fin c).q| + 1)) :
    ex.length ≤ k.ucPrec + 1 := by
  have h3 := h.1
  have h4 : Nat.log 10 e.natAbs < k.ucPrec - 1 := by
    rcases Nat.eq_zero_or_pos e.natAbs with h0 | h0
    · rw [h0]; simp; omega
    · rw [Nat.log_lt_iff_lt_pow (by norm_num) (by omega)]
      obtain ⟨h5, h6⟩ := h.2 c hc (by rcases h2 with rfl | h2; exacts [by simp at h0, h2.1])
      have h7 : |e| < ((10 ^ (k.ucPrec - 1) : ℕ) : ℤ) := by
        push_cast
        simp only [FP.q] at h2
        rw [abs_lt]
        rcases h2 with rfl | ⟨_, h2 | h2⟩
        · simp at h0
        · constructor <;> omega
        · constructor <;> omega
      rw [← Int.natCast_natAbs] at h7
      exact_mod_cast h7
  rw [h1]
  omega

theorem ucText_val {k : Manip} {up : Bool} {x : Itv} {t : List Char} (hne : x.NE φ)
    (hprec : x.lo ≠ .ninf → x.hi ≠ .pinf → k.form ≠ .up → k.form ≠ .down → k.ucExp = true → MidFits φ k x) (h : φ.ucText slack k up x = .ok t) :
    ∃ l u N, BodyText t (.bounds l u) N ∧ x.set ⊆ (Denot.bounds l u).set ∧ (l = none ↔ x.lo = .ninf) ∧ (u = none ↔ x.hi = .pinf) ∧
      (∀ n ∈ N, n.Small (φ.B k.ucPrec)) ∧ UcAccurate φ k x l u := by
  have hlo_top : x.lo ≠ .pinf := fun e => hne.lo_top (FP.toE_eq_top.mpr e)
  have hhi_bot : x.hi ≠ .ninf := fun e => hne.hi_bot (FP.toE_eq_bot.mpr e)
  have hup : DirText (if up then ['U'] else ['u']) false true := by cases up <;> exact .up (by decide)
  have hdn : DirText (if up then ['D'] else ['d']) true false := by cases up <;> exact .down (by decide)
  unfold Fmt.ucText at h
  simp only at h
  by_cases hent : x.isEntire = true
  · rw [if_pos hent] at h
    obtain ⟨s, hs, h⟩ := Std.bind_ok h
    obtain ⟨a, b⟩ := (NE.isEntire_iff hne).mp hent
    have hl := FP.toE_eq_bot.mp a
    have hh := FP.toE_eq_top.mp b
    have hmid : x.mid φ = .fin 0 := by
      unfold Itv.mid
      rw [hne.isValid, hne.isEmpty, hent]; rfl
    rw [hmid] at hs
    obtain ⟨neg, ip, fp, e, ex, n1, -, -, -, -, n6, -⟩ := numText_uc (φ := φ) (ucRep_or k) (up := up) (ucPrec_pos k) (m := .N) (v := .fin 0) φ.rep_zero (by simp) (by simp) (by simp)
    rw [← ucStr_ok hs] at n1
    obtain ⟨N, hb, hN⟩ := n1.body .inf .both (B_le n6)
    have h := Std.ok.inj h
    refine ⟨none, none, N, ?_, fun r _ => by simp [Denot.set], by simp [hl], by simp [hh], hN, by simp [UcAccurate]⟩
    rw [← h]
    have e := insertMark_eq (t := s) (w := ['?']) (d := [])
    rw [List.append_nil] at e
    rw [show (['?', '?'] : List Char) = '?' :: ['?'] from rfl, e]
    exact hb
  rw [if_neg hent] at h
  by_cases hli : x.lo.isInf = true
  · rw [if_pos hli] at h
    obtain ⟨s, hs, h⟩ := Std.bind_ok h
    have hl : x.lo = .ninf := by cases e : x.lo <;> rw [e] at hli <;> simp_all [FP.isInf]
    have hh : x.hi ≠ .pinf := fun e => hent ((NE.isEntire_iff hne).mpr ⟨FP.toE_eq_bot.mpr hl, FP.toE_eq_top.mpr e⟩)
    obtain ⟨neg, ip, fp, e, ex, n1, -, n3, -, -, n6, -, -, -, n10, -⟩ := numText_uc (φ := φ) (ucRep_or k) (up := up) (ucPrec_pos k) (m := .U) hne.hi_in hne.hi_ne hhi_bot hh
    rw [← ucStr_ok hs] at n1
    obtain ⟨N, hb, hN⟩ := n1.body .inf hdn (B_le n6)
    have h := Std.ok.inj h
    rw [← insertMark_eq, show insertMark s ('?' :: ['?'] ++ if up then ['D'] else ['d']) = t from h] at hb
    refine ⟨_, _, N, hb, ?_, ?_, ?_, hN, by simp, ?_, by simp⟩
    rotate_right
    · intro v hv _
      simp only [Bool.false_eq_true, if_false, Option.some.injEq] at hv
      rw [← hv]
      exact (abs_le.mp n10).2
    · intro r hr
      refine ⟨by simp, ?_⟩
      intro q hq
      simp only [Bool.false_eq_true, if_false, Option.some.injEq] at hq
      have h1 := above_q hne.hi_ne hh hr.2
      have h2 := (Rat.cast_le (K := ℝ)).mpr (n3 rfl)
      rw [hq] at h2
      exact h1.trans h2
    · simp [hl]
    · simp [hh]
  rw [if_neg hli] at h
  have hl : x.lo ≠ .ninf := by intro e; rw [e] at hli; exact hli rfl
  obtain ⟨nl, il, fl, el, xl, l1, l2, -, l4, -, l6, l7, l8, l9, l10, l11, l12, -, -⟩ := numText_uc (φ := φ) (ucRep_or k) (up := up) (ucPrec_pos k) (m := .D) hne.lo_in hne.lo_ne hl hlo_top
  have hlow : ∀ r ∈ x.set, ∀ z : ℚ, z ≤ (sval nl (il ++ fl) : ℚ) * (10 : ℚ) ^ (el - (k.ucPrec : ℤ)) → (z : ℝ) ≤ r := by
    intro r hr z hz
    exact ((Rat.cast_le (K := ℝ)).mpr (hz.trans (l2 rfl))).trans (below_q hne.lo_ne hl hr.1)
  by_cases hhi : x.hi.isInf = true
  · rw [if_pos hhi] at h
    obtain ⟨s, hs, h⟩ := Std.bind_ok h
    have hh : x.hi = .pinf := by cases e : x.hi <;> rw [e] at hhi <;> simp_all [FP.isInf]
    rw [← ucStr_ok hs] at l1
    obtain ⟨N, hb, hN⟩ := l1.body .inf hup (B_le l6)
    have h := Std.ok.inj h
    rw [← insertMark_eq, show insertMark s ('?' :: ['?'] ++ if up then ['U'] else ['u']) = t from h] at hb
    refine ⟨_, _, N, hb, ?_, ?_, ?_, hN, ?_, by simp, by simp⟩
    rotate_right
    · intro v hv _
      simp only [Bool.false_eq_true, if_false, Option.some.injEq] at hv
      rw [← hv]
      linarith [(abs_le.mp l10).1]
    · intro r hr
      refine ⟨?_, by simp⟩
      intro q hq
      simp only [Bool.false_eq_true, if_false, Option.some.injEq] at hq
      exact hlow r hr q hq.ge
    · simp [hl]
    · simp [hh]
  rw [if_neg hhi] at h
  have hh : x.hi ≠ .pinf := by intro e; rw [e] at hhi; exact hhi rfl
  obtain ⟨nu, iu, fu, eu, xu, u1, -, u3, -, u5, u6, u7, u8, u9, u10, u11, -, u13, -⟩ := numText_uc (φ := φ) (ucRep_or k) (up := up) (ucPrec_pos k) (m := .U) hne.hi_in hne.hi_ne hhi_bot hh
  have hhigh : ∀ r ∈ x.set, ∀ z : ℚ, (sval nu (iu ++ fu) : ℚ) * (10 : ℚ) ^ (eu - (k.ucPrec : ℤ)) ≤ z → r ≤ (z : ℝ) := by
    intro r hr z hz
    exact (above_q hne.hi_ne hh hr.2).trans ((Rat.cast_le (K := ℝ)).mpr ((u3 rfl).trans hz))
  obtain ⟨-, -, -, -, hqq⟩ := fin_of_bounded hne ⟨hl, hh⟩
  have hle : (sval nl (il ++ fl) : ℚ) * (10 : ℚ) ^ (el - (k.ucPrec : ℤ)) ≤ (sval nu (iu ++ fu) : ℚ) * (10 : ℚ) ^ (eu - (k.ucPrec : ℤ)) := by
    refine (l2 rfl).trans (le_trans ?_ (u3 rfl))
    exact_mod_cast hqq
  obtain ⟨tl, htl, h⟩ := Std.bind_ok h
  obtain ⟨tu, htu, h⟩ := Std.bind_ok h
  obtain ⟨r, hr, h⟩ := Std.bind_ok h
  have h := Std.ok.inj h
  rw [← ucStr_ok htl] at l1
  rw [← ucStr_ok htu] at u1
  have l10' := abs_le.mp l10
  have u10' := abs_le.mp u10
  have dir : ∀ {down : Bool} {d : List Char}, k.form = (if down then .down else .up) → DirText d down (!down) → ucDir k down x tl tu = .ok r →
      r.1 ++ '?' :: (intText r.2.1 ++ d ++ r.2.2) = t →
      ∃ l u N, BodyText t (.bounds l u) N ∧ x.set ⊆ (Denot.bounds l u).set ∧ (l = none ↔ x.lo = .ninf) ∧ (u = none ↔ x.hi = .pinf) ∧
        (∀ n ∈ N, n.Small (φ.B k.ucPrec)) ∧ UcAccurate φ k x l u := by
    intro down d hform hd hr ht
    obtain ⟨s0, s1, s2, s3, s4, s5⟩ := uc_dir l1 u1 l4 u5 hle l12 u13 hr
    cases down
    · obtain ⟨e1, e2⟩ := Prod.mk.inj s1
      obtain ⟨N, hb, hN⟩ := l1.body (intText_nat s0) hd (B_le l6)
      rw [← ht, e1, e2]
      refine ⟨_, _, N, hb, fun v hv => ⟨?_, ?_⟩, by simp [hl], by simp [hh], hN, by simp, by simp, ?_⟩
      rotate_right
      · intro v w hv hw
        simp only [Bool.false_eq_true, if_false, Option.some.injEq] at hv
        simp only [Bool.not_false, if_true, Option.map_some, Option.some.injEq] at hw
        refine ⟨fun _ => ?_, by simp [hform], by simp [hform]⟩
        have s5 := s5 rfl
        rw [hw] at s5
        rw [hv] at l11 l10'
        exact ⟨by linarith, by linarith⟩
      · intro q hq
        simp only [Bool.false_eq_true, if_false, Option.some.injEq] at hq
        exact hlow v hv q hq.ge
      · intro q hq
        simp only [Bool.not_false, if_true, Option.map_some, Option.some.injEq] at hq
        exact hhigh v hv q (hq ▸ s3 rfl)
    · obtain ⟨e1, e2⟩ := Prod.mk.inj s1
      obtain ⟨N, hb, hN⟩ := u1.body (intText_nat s0) hd (B_le u6)
      rw [← ht, e1, e2]
      refine ⟨_, _, N, hb, fun v hv => ⟨?_, ?_⟩, by simp [hl], by simp [hh], hN, by simp, by simp, ?_⟩
      rotate_right
      · intro v w hv hw
        simp only [if_true, Option.map_some, Option.some.injEq] at hv
        simp only [Bool.not_true, Bool.false_eq_true, if_false, Option.some.injEq] at hw
        refine ⟨by simp [hform], fun _ => ?_, by simp [hform]⟩
        have s4 := s4 rfl
        rw [hv] at s4
        rw [hw] at u11 u10'
        exact ⟨by linarith, by linarith⟩
      · intro q hq
        simp only [if_true, Option.map_some, Option.some.injEq] at hq
        exact hlow v hv q (hq ▸ s2 rfl)
      · intro q hq
        simp only [Bool.not_true, Bool.false_eq_true, if_false, Option.some.injEq] at hq
        exact hhigh v hv q hq.le
  have sym : k.form ≠ .up → k.form ≠ .down → φ.ucSym slack k up x tl tu = .ok r → r.1 ++ '?' :: (intText r.2.1 ++ [] ++ r.2.2) = t →
      ∃ l u N, BodyText t (.bounds l u) N ∧ x.set ⊆ (Denot.bounds l u).set ∧ (l = none ↔ x.lo = .ninf) ∧ (u = none ↔ x.hi = .pinf) ∧
        (∀ n ∈ N, n.Small (φ.B k.ucPrec)) ∧ UcAccurate φ k x l u := by
    intro f1 f2 hr ht
    obtain ⟨q, hq, hqr⟩ := mid_bounded hne ⟨hl, hh⟩
    have hin : (x.mid φ).In φ := by rw [hq]; exact hqr.1
    obtain ⟨nm, im, fm, em, xm, m1, -, -, -, -, m6, m7, m8, m9, m10, m11, -, -, m14⟩ := numText_uc (φ := φ) (ucRep_or k) (up := up) (ucPrec_pos k) (m := .N) hin (by rw [hq]; simp) (by rw [hq]; simp) (by rw [hq]; simp)
    have hxx : xl = [] ∧ xu = [] ∧ xm = [] ∨ xl ≠ [] ∧ xu ≠ [] ∧ xm ≠ [] ∧ xm.length ≤ k.ucPrec + 1 := by
      by_cases he : k.ucExp = true
      · have hs : k.ucRep = .sci := by rw [Manip.ucRep, if_pos he]
        exact Or.inr ⟨(l9 hs).2, (u9 hs).2, (m9 hs).2, (hprec hl hh f1 f2 he).length hq (m14 hs).1 (by rw [hq] at m14; exact (m14 hs).2)⟩
      · have hs : k.ucRep = .dec := by rw [Manip.ucRep, if_neg he]
        exact Or.inl ⟨l7 hs, u7 hs, m7 hs⟩
    obtain ⟨s0, s1, s2, s3, s4, s5⟩ := uc_sym rfl l1 u1 m1 hxx l4 u5 hle l12 u13 hr
    obtain ⟨N, hb, hN⟩ := m1.body (intText_nat s0) .both (B_le m6)
    rw [← ht, s1, s2]
    refine ⟨_, _, N, hb, fun v hv => ⟨?_, ?_⟩, by simp [hl], by simp [hh], hN, by simp, by simp, ?_⟩
    rotate_right
    · intro v w hv hw
      simp only [if_true, Option.map_some, Option.some.injEq] at hv hw
      refine ⟨fun e => absurd e f1, fun e => absurd e f2, fun _ => ?_⟩
      have e1 : (v + w) / 2 = sval nm (im ++ fm) * (10 : ℚ) ^ (em - (k.ucPrec : ℤ)) := by rw [← hv, ← hw]; ring
      have e2 : (w - v) / 2 = r.2.1 * (10 : ℚ) ^ (em - (k.ucPrec : ℤ)) := by rw [← hv, ← hw]; ring
      rw [e1, e2]
      refine ⟨m10, s5.trans (add_le_add (max_le_max ?_ ?_) m11)⟩ <;> linarith
    · intro q hq
      simp only [if_true, Option.map_some, Option.some.injEq] at hq
      exact hlow v hv q (hq ▸ s3)
    · intro q hq
      simp only [if_true, Option.map_some, Option.some.injEq] at hq
      exact hhigh v hv q (hq ▸ s4)
  cases hk : k.form with
  | up => rw [hk] at hr h; exact dir (down := false) (by simp [hk]) hup hr h
  | down => rw [hk] at hr h; exact dir (down := true) (by simp [hk]) hdn hr h
  | uncertain => rw [hk] at hr h; exact sym (by simp [hk]) (by simp [hk]) hr h
  | infSup => rw [hk] at hr h; exact sym (by simp [hk]) (by simp [hk]) hr h

theorem ne_of_nonempty {x : Itv} (hx : x.Ok φ) (h0 : x.set.Nonempty) : x.NE φ := by
  rcases hx.cases with rfl | h
  · rw [Itv.set_empty] at h0; exact absurd h0 Set.not_nonempty_empty
  · exact h

theorem body_ne {b : List Char} {D : Denot} {N : List NumInfo} (h : BodyText b D N) : b ≠ [] := by cases h <;> simp

theorem put_narrow {o : OStr} {w : List Char} (h : o.width ≤ 1) (hw : w ≠ []) : (o.put w).text = o.text ++ w ∧ (o.put w).width = 0 := by
  have h0 : o.width - w.length = 0 := by
    have := List.length_pos_of_ne_nil hw
    omega
  unfold OStr.put
  rw [h0]
  simp

theorem lo_ninf_iff {x : Itv} (h : x.NE φ) : x.lo = .ninf ↔ ¬ BddBelow x.set := by
  constructor
  · rintro e ⟨b, hb⟩
    obtain ⟨r, hr⟩ := h.nonempty
    have h1 := hb (show min r (b - 1) ∈ x.set from ⟨by rw [e]; trivial, ?_⟩)
    · have := min_le_right r (b - 1)
      linarith
    · have := hr.2
      have hm := min_le_left r (b - 1)
      cases hh : x.hi <;> rw [hh] at this <;> simp only [FP.AboveR] at this ⊢ <;> linarith
  · intro hb
    by_contra hc
    exact hb ⟨(x.lo.q : ℝ), fun r hr => below_q h.lo_ne hc hr.1⟩

theorem hi_pinf_iff {x : Itv} (h : x.NE φ) : x.hi = .pinf ↔ ¬ BddAbove x.set := by
  constructor
  · rintro e ⟨b, hb⟩
    obtain ⟨r, hr⟩ := h.nonempty
    have h1 := hb (show max r (b + 1) ∈ x.set from ⟨?_, by rw [e]; trivial⟩)
    · have := le_max_right r (b + 1)
      linarith
    · have := hr.1
      have hm := le_max_left r (b + 1)
      cases hh : x.lo <;> rw [hh] at this <;> simp only [FP.BelowR] at this ⊢ <;> linarith
  · intro hb
    by_contra hc
    exact hb ⟨(x.hi.q : ℝ), fun r hr => above_q h.hi_ne hc hr.2⟩

/-- Where the text ends up. -/
theorem uc_written {k : Manip} {o o' : OStr} {x : Itv} (hx : x.Ok φ) (h0 : x.set.Nonempty) (hf : k.form ≠ .infSup) (ho : o.Plain)
    (hprec : x.lo ≠ .ninf → x.hi ≠ .pinf → k.form = .uncertain → k.ucExp = true → MidFits φ k x) (h : φ.writeItv slack k o x = .ok o') :
    ∃ a b c l u N, IsWs a ∧ IsWs c ∧ o'.text = o.text ++ (a ++ b ++ c) ∧ o'.width = 0 ∧ (o.width ≤ 1 → c = []) ∧ BodyText b (.bounds l u) N ∧
      x.set ⊆ (Denot.bounds l u).set ∧ (l = none ↔ x.lo = .ninf) ∧ (u = none ↔ x.hi = .pinf) ∧ (∀ n ∈ N, n.Small (φ.B k.ucPrec)) ∧ UcAccurate φ k x l u := by
  have hne := ne_of_nonempty hx h0
  unfold Fmt.writeItv at h
  rw [hne.isValid, hne.isEmpty] at h
  simp only [Bool.not_true, Bool.false_eq_true, if_false, Bool.not_false, and_true] at h
  rw [if_pos hf] at h
  obtain ⟨t, ht, h⟩ := Std.bind_ok h
  have h := Std.ok.inj h
  obtain ⟨l, u, N, t1, t2, t3, t4, t5, t6⟩ := ucText_val hne (fun b1 b2 f1 f2 he => hprec b1 b2 (by cases hk : k.form <;> simp_all) he) ht
  have hb : blanks (toInt (k.strWidth - t.length)) ++ t ≠ [] := by
    intro e
    exact body_ne t1 (List.append_eq_nil_iff.mp e).2
  by_cases hw : o.width ≤ 1
  · obtain ⟨e1, e2⟩ := put_narrow hw hb
    exact ⟨blanks (toInt (k.strWidth - t.length)), t, [], l, u, N, blanks_ws, isWs_nil, by rw [← h, e1]; simp, by rw [← h, e2], fun _ => rfl, t1, t2, t3, t4, t5, t6⟩
  obtain ⟨a, b, ha, hb', e1, e2⟩ := put_first ho hb
  refine ⟨a ++ blanks (toInt (k.strWidth - t.length)), t, b, l, u, N, ha.append blanks_ws, hb', by rw [← h, e1]; simp, by rw [← h, e2], fun h => absurd h hw, t1, t2, t3, t4, t5, t6⟩

theorem prec_bounded {x : Itv} {P : Prop} (h : x.NE φ) (hp : BddBelow x.set → BddAbove x.set → P) : x.lo ≠ .ninf → x.hi ≠ .pinf → P := fun h1 h2 =>
  hp (by by_contra hc; exact h1 ((lo_ninf_iff h).mpr hc)) (by by_contra hc; exact h2 ((hi_pinf_iff h).mpr hc))

/-- In every format so many digits are enough. -/
theorem midFits_of {k : Manip} {x : Itv} (hx : x.Ok φ) (h1 : 3 ≤ k.ucPrec) (h2 : φ.E / 3 + 2 < 10 ^ (k.ucPrec - 1)) : MidFits φ k x := by
  refine ⟨h1, fun c hc h0 => ?_⟩
  have hr : φ.Rep c := by
    rcases hx.cases with rfl | hne
    · exact absurd hc (by rw [show Itv.empty.mid φ = .nan from rfl]; simp)
    · obtain ⟨c', hc', hr, -⟩ := C28_member hx hne.nonempty
      rw [hc] at hc'
      rw [FP.fin.inj hc']
      exact hr
  have hr' : φ.Rep |c| := by
    rcases abs_choice c with h | h <;> rw [h]
    exacts [hr, hr.neg]
  have hpos : 0 < |c| := abs_pos.mpr h0
  obtain ⟨b1, b2⟩ := (Fmt.rep_within hr' hpos.le).resolve_left hpos.ne'
  have h10 : (2 : ℚ) ^ (φ.E : ℤ) < (10 : ℚ) ^ ((φ.E / 3 + 1 : ℕ) : ℤ) := by
    rw [zpow_natCast, zpow_natCast]
    calc (2 : ℚ) ^ φ.E = 2 ^ (3 * (φ.E / 3) + φ.E % 3) := by rw [Nat.div_add_mod]
      _ = 8 ^ (φ.E / 3) * 2 ^ (φ.E % 3) := by rw [pow_add, pow_mul]; norm_num
      _ < 10 ^ (φ.E / 3) * 10 := by
        have e1 : (8 : ℚ) ^ (φ.E / 3) ≤ 10 ^ (φ.E / 3) := pow_le_pow_left₀ (by norm_num) (by norm_num) _
        have e2 : (2 : ℚ) ^ (φ.E % 3) < 10 := by
          have : φ.E % 3 < 3 := Nat.mod_lt _ (by norm_num)
          interval_cases φ.E % 3 <;> norm_num
        have e3 : (0 : ℚ) < 10 ^ (φ.E / 3) := by positivity
        have e4 : (0 : ℚ) < 2 ^ (φ.E % 3) := by positivity
        nlinarith
      _ = 10 ^ (φ.E / 3 + 1) := by rw [pow_succ]
  have k1 : Int.log 10 |c| < ((φ.E / 3 + 1 : ℕ) : ℤ) := by
    rw [← Int.lt_zpow_iff_log_lt (by norm_num) hpos]
    exact_mod_cast b2.trans_lt h10
  have k2 : -((φ.E / 3 + 1 : ℕ) : ℤ) ≤ Int.log 10 |c| := by
    rw [← Int.zpow_le_iff_le_log (by norm_num) hpos]
    refine le_trans ?_ b1
    rw [zpow_neg, zpow_neg]
    exact_mod_cast inv_anti₀ (zpow_pos (by norm_num) _) h10.le
  have h2 : ((φ.E / 3 + 2 : ℕ) : ℤ) < 10 ^ (k.ucPrec - 1) := by exact_mod_cast h2
  push_cast at k1 k2 h2
  constructor <;> linarith

/-- 3 digits are enough for binary32, 4 for binary64, 5 for the x87 format. -/
theorem C42_digits {k : Manip} {x : Itv} : (x.Ok binary32 → 3 ≤ k.ucPrec → MidFits binary32 k x) ∧ (x.Ok binary64 → 4 ≤ k.ucPrec → MidFits binary64 k x) ∧
    (x.Ok x87ext → 5 ≤ k.ucPrec → MidFits x87ext k x) := by
  have hp : ∀ {n : ℕ}, n + 1 ≤ k.ucPrec → 10 ^ n ≤ 10 ^ (k.ucPrec - 1) := fun h => Nat.pow_le_pow_right (by norm_num) (by omega)
  refine ⟨fun hx h => midFits_of hx h (lt_of_lt_of_le ?_ (hp h)), fun hx h => midFits_of hx (by omega) (lt_of_lt_of_le ?_ (hp h)),
    fun hx h => midFits_of hx (by omega) (lt_of_lt_of_le ?_ (hp h))⟩ <;> decide

/-- What is written for a non-empty interval in uncertain form denotes a set that contains the interval, and that is bounded on the same
sides.  `slack` is arbitrary: the statement holds however much memory the allocator provides beyond what was requested.
Excluded: the symmetric form of bounded intervals with exponent and a small precision (`C42_false_contains`); for binary64, precisions less
than 4 (`C42_digits`). -/
theorem C42_contains_partial {k : Manip} {o o' : OStr} {x : Itv} (hx : x.Ok φ) (h0 : x.set.Nonempty) (hf : k.form ≠ .infSup) (ho : o.Plain)
    (hprec : BddBelow x.set → BddAbove x.set → k.form = .uncertain → k.ucExp = true → MidFits φ k x) (h : φ.writeItv slack k o x = .ok o') :
    ∃ t l u N, o'.text = o.text ++ t ∧ Literal t (.bounds l u) (Denot.bounds l u).dec N ∧ x.set ⊆ (Denot.bounds l u).set ∧
      (l = none ↔ ¬ BddBelow x.set) ∧ (u = none ↔ ¬ BddAbove x.set) ∧ ∀ n ∈ N, n.Small (φ.B k.ucPrec) := by
  have hne := ne_of_nonempty hx h0
  obtain ⟨a, b, c, l, u, N, ha, hc, e, -, -, hB, hs, hl, hu, hN, -⟩ := uc_written hx h0 hf ho (prec_bounded hne hprec) h
  obtain ⟨r, hr⟩ := h0
  exact ⟨a ++ b ++ c, l, u, N, e, .plain ha hB (consistent_of_ne (hs hr)) hc, hs, hl.trans (lo_ninf_iff hne), hu.trans (hi_pinf_iff hne), hN⟩

/-- Reading the text again gives an interval that contains the one written. -/
theorem C42_round_trip_partial {k : Manip} {o o' : OStr} {x : Itv} (hx : x.Ok φ) (h0 : x.set.Nonempty) (hf : k.form ≠ .infSup) (ho : o.Plain)
    (hprec : BddBelow x.set → BddAbove x.set → k.form = .uncertain → k.ucExp = true → MidFits φ k x) (hB : φ.B k.ucPrec < 2 ^ 31)
    (h : φ.writeItv slack k o x = .ok o') :
    ∃ t m y, o'.text = o.text ++ t ∧ φ.textToInterval t = .ok m ∧ Returns m y ∧ y.Ok φ ∧ x.set ⊆ y.set := by
  obtain ⟨t, l, u, N, e, hl, hs, -, -, hN⟩ := C42_contains_partial hx h0 hf ho hprec h
  obtain ⟨m, hm, h1, -⟩ := C38_bare_partial (φ := φ) hl (fun n hn => supported_of_small hB (hN n hn))
  obtain ⟨y, hy, hT⟩ := h1 (by simp)
  exact ⟨t, m, y, e, hm, hy, hT.1, hs.trans hT.2.1⟩

/-- What is written for a decorated interval, and how close it is. -/
theorem ucD_written {k : Manip} {o o' : OStr} {x : DItv} (hx : x.Ok φ) (h0 : x.itv.set.Nonempty) (hf : k.form ≠ .infSup) (hp : k.punct = true)
    (hw : o.width ≤ 1) (hnum : o.numeric = true → o.base = .dec)
    (hprec : BddBelow x.itv.set → BddAbove x.itv.set → k.form = .uncertain → k.ucExp = true → MidFits φ k x.itv) (h : φ.writeDItv slack k o x = .ok o') :
    ∃ t l u N, o'.text = o.text ++ t ∧ Literal t (.bounds l u) x.dec N ∧ x.itv.set ⊆ (Denot.bounds l u).set ∧
      (l = none ↔ ¬ BddBelow x.itv.set) ∧ (u = none ↔ ¬ BddAbove x.itv.set) ∧ (∀ n ∈ N, n.Small (φ.B k.ucPrec)) ∧ UcAccurate φ k x.itv l u := by
  have hne := ne_of_nonempty hx.1 h0
  have hx1 : x.itv ≠ ⟨.nan, .nan⟩ := hne.ne_empty
  unfold Fmt.writeDItv at h
  rw [DItv.Ok.isValid hx] at h
  simp only [Bool.not_true, Bool.false_eq_true, if_false] at h
  have h1 : ¬ x.isNai = true := by
    intro h1
    unfold DItv.isNai at h1
    simp only [hx.isValid, Bool.true_and] at h1
    have h2 : x.dec = .ill := (by simpa using h1 : (_ ∧ _) ∧ x.dec = .ill).2
    exact hx.2.2.1 hx1 h2
  rw [if_neg h1, if_neg (by rw [hne.isEmpty]; simp)] at h
  simp only [manip_decText hp hw] at h
  obtain ⟨w, -, h⟩ := Std.bind_ok h
  generalize hk' : ({ k with strWidth := w } : Manip) = k' at h
  obtain ⟨o1, h2, h⟩ := Std.bind_ok h
  have h := Std.ok.inj h
  have k1 : k'.form = k.form := by rw [← hk']
  have k2 : k'.ucExp = k.ucExp := by rw [← hk']
  have k3 : k'.ucPrec = k.ucPrec := by rw [← hk']; rfl
  obtain ⟨a, b, c, l, u, N, ha, hc, e, e', hc', hB, hs, hl, hu, hN, hA⟩ := uc_written hx.1 h0 (k := k') (by rw [k1]; exact hf) (Or.inl hw)
    (by rw [k1, k2]; unfold MidFits; rw [k3]; exact prec_bounded hne hprec) h2
  rw [k3] at hN
  obtain ⟨f1, -⟩ := put_zero (w := '_' :: x.dec.text o) e'
  have hc := hc' hw
  subst hc
  obtain ⟨r, hr⟩ := h0
  refine ⟨a ++ b ++ '_' :: x.dec.text o, l, u, N, by rw [← h, f1, e]; simp, ?_, hs, hl.trans (lo_ninf_iff hne), hu.trans (hi_pinf_iff hne), hN, by subst hk'; exact hA⟩
  · have := Literal.decorated (w1 := []) (w2 := []) ha hB (consistent_of_ne (hs hr)) isWs_nil (decText_text (d := x.dec) hnum) isWs_nil (by simp)
      (dec_le_bounds fun e => by rw [ne_eq, ne_eq, hl, hu]; exact hx.2.2.2 e) (hx.2.2.1 hx1)
    simpa using this

/-- Decorated intervals: the decoration is written after the interval. -/
theorem C42_decorated_partial {k : Manip} {o o' : OStr} {x : DItv} (hx : x.Ok φ) (h0 : x.itv.set.Nonempty) (hf : k.form ≠ .infSup) (hp : k.punct = true)
    (hw : o.width ≤ 1) (hnum : o.numeric = true → o.base = .dec)
    (hprec : BddBelow x.itv.set → BddAbove x.itv.set → k.form = .uncertain → k.ucExp = true → MidFits φ k x.itv) (h : φ.writeDItv slack k o x = .ok o') :
    ∃ t l u N, o'.text = o.text ++ t ∧ Literal t (.bounds l u) x.dec N ∧ x.itv.set ⊆ (Denot.bounds l u).set ∧
      (l = none ↔ ¬ BddBelow x.itv.set) ∧ (u = none ↔ ¬ BddAbove x.itv.set) ∧ ∀ n ∈ N, n.Small (φ.B k.ucPrec) := by
  obtain ⟨t, l, u, N, e, hL, hs, hl, hu, hN, -⟩ := ucD_written hx h0 hf hp hw hnum hprec h
  exact ⟨t, l, u, N, e, hL, hs, hl, hu, hN⟩

/-! ### The exceptions -/

/-- C42 is false of the code: in symmetric form with exponent and a low precision the exponent of the midpoint is read wrongly, and
the number written does not contain the interval. -/
theorem C42_false_contains :
    (⟨.fin (-1 / 64), .fin (1 / 64 + 1 / 2 ^ 50)⟩ : Itv).Ok binary64 ∧
    (binary64.writeItv 99 { form := .uncertain, ucExp := true, prec := 2 } {} ⟨.fin (-1 / 64), .fin (1 / 64 + 1 / 2 ^ 50)⟩).written =
      some "4.44?460e-16".toList ∧
    ∀ D d N, Literal "4.44?460e-16".toList D d N → ¬ (⟨.fin (-1 / 64), .fin (1 / 64 + 1 / 2 ^ 50)⟩ : Itv).set ⊆ D.set := by
  refine ⟨Itv.ok_of_okb (by decide +kernel), by decide +kernel, fun D d N h hs => ?_⟩
  have hb := BodyText.uncertain (s := []) (sg := 1) (m := "4.44".toList) (v := 444) (k := 2) (r := "460".toList) (d := []) (x := "e-16".toList) (e := -16)
    (Or.inl ⟨Or.inl rfl, rfl⟩) ⟨['4'], ['4', '4'], Or.inr (by decide), by simp, digits_of (by decide), by decide, rfl⟩
    (.num (by decide) (digits_of (by decide))) .both
    (Or.inr ⟨'e', "-16".toList, by decide, by decide, ['-'], -1, ['1', '6'], by decide, Or.inr ⟨rfl, rfl⟩, by simp, digits_of (by decide), by decide⟩)
  have hl := Literal.plain (w0 := []) (w1 := []) isWs_nil hb (by
    simp only [if_true, Option.map_some, Denot.Consistent]
    rw [show numVal 10 "460".toList = 460 by decide]
    norm_num) isWs_nil
  obtain ⟨rfl, -⟩ := C38_unique h (by simpa using hl)
  have h1 := hs (show (1 / 64 : ℝ) ∈ _ from ⟨by simp only [FP.BelowR]; norm_num, by simp only [FP.AboveR]; norm_num⟩)
  have h2 := h1.2 _ rfl
  rw [show numVal 10 ['4', '6', '0'] = 460 by decide] at h2
  push_cast at h2
  norm_num at h2

/-- An exception leaves the call. -/
def Std.threw {α : Type} : Std α → Bool
  | .outOfRange => true
  | _ => false

/-- The behaviour is undefined. -/
def Std.isUb {α : Type} : Std α → Bool
  | .ub => true
  | _ => false

theorem threw_of {α : Type} {m : Std α} (h : m.threw = true) : m = .outOfRange := by
  cases m <;> simp_all [Std.threw]

theorem ub_of {α : Type} {m : Std α} (h : m.isUb = true) : m = .ub := by
  cases m <;> simp_all [Std.isUb]

/-- An exception of the C++ library leaves the call if the exponents of the bounds are too far apart, or if a bound has too many
digits. -/
theorem C42_false_throws :
    (⟨.fin (1 / 2 ^ 40), .fin 1⟩ : Itv).Ok binary64 ∧ (⟨.fin 1, .fin (2 ^ 60)⟩ : Itv).Ok binary64 ∧
    binary64.writeItv 999 { form := .uncertain, ucExp := true } {} ⟨.fin (1 / 2 ^ 40), .fin 1⟩ = .outOfRange ∧
    binary64.writeItv 999 { form := .uncertain } {} ⟨.fin 1, .fin (2 ^ 60)⟩ = .outOfRange :=
  ⟨Itv.ok_of_okb (by decide +kernel), Itv.ok_of_okb (by decide +kernel), threw_of (by decide +kernel), threw_of (by decide +kernel)⟩

/-- The radius of the number written can overflow, which is undefined behaviour, even if the buffer is large enough. -/
theorem C42_false_overflow :
    (⟨.fin (-2 ^ 59), .fin (2 ^ 59)⟩ : Itv).Ok binary64 ∧
    binary64.writeItv 999 { form := .down, prec := 1 } {} ⟨.fin (-2 ^ 59), .fin (2 ^ 59)⟩ = .ub :=
  ⟨Itv.ok_of_okb (by decide +kernel), ub_of (by decide +kernel)⟩

/-- Examples: what is written. -/
example : (binary64.writeItv 99 { form := .uncertain, ucExp := true } {} ⟨.fin (1 / 4), .fin (1 / 2)⟩).written = some "3.750000?1250000e-01".toList ∧
    (binary64.writeItv 99 { form := .down } {} ⟨.fin (1 / 4), .fin (1 / 2)⟩).written = some "0.500000?250000d".toList ∧
    (binary64.writeItv 99 { form := .up, prec := 3, ucExp := true } {} ⟨.fin (-1 / 4), .fin (123 / 2)⟩).written = some "-2.500?617500ue-01".toList ∧
    (binary64.writeItv 99 { form := .up, prec := 3 } {} ⟨.ninf, .fin (123 / 2)⟩).written = some "61.500??d".toList ∧
    (binary64.writeItv 99 { form := .uncertain, prec := 3 } {} ⟨.fin (123 / 2), .pinf⟩).written = some "61.500??u".toList ∧
    (binary64.writeItv 99 { form := .up, prec := 3, ucExp := true } {} ⟨.ninf, .pinf⟩).written = some "0.000??e+00".toList ∧
    (binary64.writeDItv 99 { form := .uncertain, prec := 3 } {} ⟨⟨.fin (1 / 4), .fin (1 / 2)⟩, .com⟩).written = some "0.375?125_com".toList := by
  decide +kernel

/-- The hypotheses of the theorems hold for these cases. -/
example : (⟨.fin (1 / 4), .fin (1 / 2)⟩ : Itv).Ok binary64 ∧ ((⟨.fin (1 / 4), .fin (1 / 2)⟩ : Itv).set).Nonempty ∧ ({} : OStr).Plain ∧
    MidFits binary64 { form := .uncertain, ucExp := true } ⟨.fin (1 / 4), .fin (1 / 2)⟩ ∧ binary64.B 6 < 2 ^ 31 ∧
    (⟨⟨.fin (1 / 4), .fin (1 / 2)⟩, .com⟩ : DItv).Ok binary64 :=
  ⟨Itv.ok_of_okb (by decide +kernel), ⟨1 / 4, by simp only [FP.BelowR]; norm_num, by simp only [FP.AboveR]; norm_num⟩, Or.inl (by decide),
    C42_digits.2.1 (Itv.ok_of_okb (by decide +kernel)) (by decide),
    by decide, Itv.ok_of_okb (by decide +kernel), by simp, by simp, by simp⟩

end P1788
