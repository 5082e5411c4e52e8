import Verif.Model.Text
import Verif.SpecText
import Verif.Lemmas.Regex
import Verif.Props.C39
import Mathlib.Data.List.Induction

/-! # Numbers in text: what the regular expressions match, and what is computed from it -/

namespace P1788

/-! ## Characters -/

theorem lower_cases {c d : Char} (hd : d.toLower = c) (h : 'a' ≤ c) (h' : c ≤ 'z') : d = c ∨ d = Char.ofNat (c.toNat - 32) := by
  rw [← lower_char] at hd
  split_ifs at hd with hc
  · right
    have h1 : 65 ≤ d.toNat := hc.1
    have h2 : d.toNat ≤ 90 := hc.2
    have he : d = Char.ofNat d.toNat := (Char.ofNat_toNat d).symm
    subst hd
    generalize d.toNat = n at *
    subst he
    interval_cases n <;> rfl
  · exact Or.inl hd

theorem digitVal_eq (b : Base) (c : Char) : digitVal b c = (digitNum c).bind fun n => if n < b.toNat then some n else none := by
  unfold digitVal
  have key : (if '0' ≤ c ∧ c ≤ '9' then some (c.toNat - '0'.toNat)
    else if 'a' ≤ c ∧ c ≤ 'f' then some (c.toNat - 'a'.toNat + 10)
    else if 'A' ≤ c ∧ c ≤ 'F' then some (c.toNat - 'A'.toNat + 10) else none) = digitNum c := ?_
  · rw [key]
  by_cases h : 48 ≤ c.toNat ∧ c.toNat ≤ 102
  · have hc : c = Char.ofNat c.toNat := (Char.ofNat_toNat c).symm
    generalize c.toNat = n at *
    subst hc
    obtain ⟨h1, h2⟩ := h
    interval_cases n <;> rfl
  · have e1 : ¬('0' ≤ c ∧ c ≤ '9') := fun hc => h ⟨hc.1, le_trans (b := 57) hc.2 (by norm_num)⟩
    have e2 : ¬('a' ≤ c ∧ c ≤ 'f') := fun hc => h ⟨le_trans (b := 97) (by norm_num) hc.1, hc.2⟩
    have e3 : ¬('A' ≤ c ∧ c ≤ 'F') := fun hc => h ⟨le_trans (b := 65) (by norm_num) hc.1, le_trans (b := 70) hc.2 (by norm_num)⟩
    rw [if_neg e1, if_neg e2, if_neg e3]
    unfold digitNum
    symm
    rw [List.idxOf?_eq_none_iff]
    intro hm
    rw [← lower_char] at hm
    split_ifs at hm with hu
    · apply h
      have h1 : 65 ≤ c.toNat := hu.1
      have h2 : c.toNat ≤ 90 := hu.2
      exact ⟨by omega, by omega⟩
    · apply h
      simp only [List.mem_cons, List.not_mem_nil, or_false] at hm
      rcases hm with h | h | h | h | h | h | h | h | h | h | h | h | h | h | h | h <;> subst h <;> decide

theorem isDigitOf_iff {b : Base} {c : Char} : isDigitOf b c = true ↔ ∃ k < b.toNat, digitNum c = some k := by
  unfold isDigitOf
  rw [digitVal_eq]
  cases digitNum c with
  | none => simp
  | some n => by_cases h : n < b.toNat <;> simp [h]

theorem isDigits_iff {b : Base} {w : List Char} : IsDigits b.toNat w ↔ ∀ c ∈ w, isDigitOf b c = true := by
  simp only [IsDigits, isDigitOf_iff]

theorem isDigit_eq (c : Char) : isDigit c = isDigitOf .dec c := by
  unfold isDigit isDigitOf digitVal
  by_cases h : '0' ≤ c ∧ c ≤ '9'
  · have h1 : 48 ≤ c.toNat := h.1
    have h2 : c.toNat ≤ 57 := h.2
    have hc : c = Char.ofNat c.toNat := (Char.ofNat_toNat c).symm
    generalize c.toNat = n at *
    subst hc
    interval_cases n <;> rfl
  · rw [if_neg h]
    have e : (decide ('0' ≤ c) && decide (c ≤ '9')) = false := by
      rw [Bool.eq_false_iff]; simpa using h
    rw [e]
    symm
    rw [Bool.eq_false_iff]
    intro hh
    split_ifs at hh with h1 h2 <;> simp [Base.toNat] at hh <;> omega

theorem isDigits_ten {w : List Char} : IsDigits 10 w ↔ ∀ c ∈ w, isDigit c = true := by
  rw [show (10:ℕ) = Base.dec.toNat from rfl, isDigits_iff]
  simp only [isDigit_eq]

theorem digitsVal_eq {b : Base} {w : List Char} (h : IsDigits b.toNat w) : digitsVal b w = numVal b.toNat w := by
  unfold digitsVal numVal
  induction w using List.reverseRecOn with
  | nil => simp
  | append_singleton w c ih =>
    rw [List.foldl_append, ih fun d hd => h d (List.mem_append_left _ hd)]
    obtain ⟨k, hk, hc⟩ := h c (by simp)
    simp [digitVal_eq, hc, hk, Nat.ofDigits_cons, add_comm]

theorem isWs_iff {w : List Char} : IsWs w ↔ ∀ c ∈ w, isSpace c = true := by
  simp only [IsWs, isSpace]
  simp [or_assoc]

theorem isWs_nil : IsWs [] := fun _ h => absurd h List.not_mem_nil

theorem isSign_iff {c : Char} : Rx.isSign c = true ↔ c = '+' ∨ c = '-' := by simp [Rx.isSign]

/-! ## Grammar of the regular expressions -/

namespace Rx

theorem matches_lit {c : Char} {w : List Char} {k : Caps} : Matches (lit c) w k ↔ w = [c] ∧ k = [] := by
  simp [lit, Matches]

theorem matches_ci {c : Char} {w : List Char} {k : Caps} : Matches (ci c) w k ↔ ∃ d, d.toLower = c ∧ w = [d] ∧ k = [] := by
  simp only [ci, Matches, decide_eq_true_eq]
  constructor
  · rintro ⟨d, h1, h2, h3⟩; exact ⟨d, h2, h1, h3⟩
  · rintro ⟨d, h1, h2, h3⟩; exact ⟨d, h2, h1, h3⟩

theorem matches_plus {p : Char → Bool} {w : List Char} {k : Caps} :
    Matches (plus p) w k ↔ w ≠ [] ∧ (∀ c ∈ w, p c = true) ∧ k = [] := by
  simp only [plus, Matches]
  constructor
  · rintro ⟨w1, w2, k1, k2, rfl, rfl, ⟨c, rfl, hc, rfl⟩, h, rfl⟩
    refine ⟨by simp, ?_, rfl⟩
    intro d hd
    simp only [List.cons_append, List.nil_append, List.mem_cons] at hd
    rcases hd with rfl | hd
    · exact hc
    · exact h d hd
  · rintro ⟨h1, h2, rfl⟩
    cases w with
    | nil => exact absurd rfl h1
    | cons c w =>
      exact ⟨[c], w, [], [], rfl, rfl, ⟨c, rfl, h2 c List.mem_cons_self, rfl⟩, fun d hd => h2 d (List.mem_cons_of_mem _ hd), rfl⟩

theorem matches_str {l w : List Char} {k : Caps} : Matches (str l) w k ↔ w.map Char.toLower = l ∧ k = [] := by
  induction l generalizing w k with
  | nil => simp [str, Matches]
  | cons c l ih =>
    simp only [str, Matches, ih, matches_ci]
    constructor
    · rintro ⟨w1, w2, k1, k2, rfl, rfl, ⟨d, hd, rfl, rfl⟩, rfl, rfl⟩
      simp [hd]
    · rintro ⟨h, rfl⟩
      cases w with
      | nil => simp at h
      | cons d w =>
        simp only [List.map_cons, List.cons.injEq] at h
        exact ⟨[d], w, [], [], rfl, rfl, ⟨d, h.1, rfl, rfl⟩, h.2, rfl⟩

theorem matches_sign {w : List Char} {k : Caps} : Matches (opt (chr isSign)) w k ↔ (∃ s, SignText w s) ∧ k = [] := by
  simp only [Matches, isSign_iff, SignText]
  constructor
  · rintro (⟨c, rfl, (rfl | rfl), rfl⟩ | ⟨rfl, rfl⟩)
    · exact ⟨⟨1, by simp⟩, rfl⟩
    · exact ⟨⟨-1, by simp⟩, rfl⟩
    · exact ⟨⟨1, by simp⟩, rfl⟩
  · rintro ⟨⟨s, (⟨rfl | rfl, -⟩ | ⟨rfl, -⟩)⟩, rfl⟩ <;> simp

theorem matches_integer {w : List Char} {k : Caps} : Matches integer w k ↔ (∃ e, IntText w e) ∧ k = [] := by
  unfold integer
  rw [Matches]
  simp only [matches_sign, matches_plus, IntText, isDigits_ten]
  constructor
  · rintro ⟨w1, w2, k1, k2, rfl, rfl, ⟨⟨s, hs⟩, rfl⟩, h1, h2, rfl⟩
    exact ⟨⟨_, w1, s, w2, rfl, hs, h1, h2, rfl⟩, rfl⟩
  · rintro ⟨⟨e, s, sg, ds, rfl, hs, h1, h2, rfl⟩, rfl⟩
    exact ⟨s, ds, [], [], rfl, rfl, ⟨⟨sg, hs⟩, rfl⟩, h1, h2, rfl⟩

theorem matches_mantissa {b : Base} {d : Char → Bool} (hd : ∀ c, d c = isDigitOf b c) {w : List Char} {k : Caps} :
    Matches (mantissa d) w k ↔ (∃ v n, MantText b.toNat w v n) ∧ k = [] := by
  unfold mantissa
  simp only [Matches, matches_lit, matches_plus, MantText, isDigits_iff, hd]
  constructor
  · rintro (⟨w1, w2, k1, k2, rfl, rfl, ⟨h1, rfl⟩, w3, w4, k3, k4, rfl, rfl, ⟨rfl, rfl⟩, h2, h3, rfl⟩ |
      ⟨w1, w2, k1, k2, rfl, rfl, ⟨h1, h2, rfl⟩, rfl, rfl⟩ | ⟨h1, h2, rfl⟩)
    · refine ⟨⟨_, _, w1, w4, Or.inr rfl, by simp [h2], ?_, rfl, rfl⟩, rfl⟩
      intro c hc
      rcases List.mem_append.mp hc with hc | hc
      · exact h1 c hc
      · exact h3 c hc
    · refine ⟨⟨_, _, w1, [], Or.inr rfl, by simpa using h1, ?_, rfl, rfl⟩, rfl⟩
      simpa using h2
    · exact ⟨⟨_, _, w, [], Or.inl ⟨rfl, rfl⟩, by simpa using h1, by simpa using h2, rfl, rfl⟩, rfl⟩
  · rintro ⟨⟨v, n, ip, fp, (⟨rfl, rfl⟩ | rfl), h1, h2, -, -⟩, rfl⟩
    · right; right
      exact ⟨by simpa using h1, by simpa using h2, rfl⟩
    · by_cases hf : fp = []
      · right; left
        subst hf
        exact ⟨ip, ['.'], [], [], rfl, rfl, ⟨by simpa using h1, by simpa using h2, rfl⟩, rfl, rfl⟩
      · left
        exact ⟨ip, '.' :: fp, [], [], rfl, rfl, ⟨fun c hc => h2 c (List.mem_append_left _ hc), rfl⟩, ['.'], fp, [], [], rfl, rfl,
          ⟨rfl, rfl⟩, hf, fun c hc => h2 c (List.mem_append_right _ hc), rfl⟩

end Rx
end P1788
