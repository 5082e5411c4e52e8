import Verif.Model.Regex

/-! # What a regular expression matches -/

namespace P1788
namespace Rx

/-- The expression matches exactly the text, with these captures. -/
def Matches : Rx → List Char → Caps → Prop
  | chr p, w, k => ∃ c, w = [c] ∧ p c = true ∧ k = []
  | star p, w, k => (∀ c ∈ w, p c = true) ∧ k = []
  | seq a b, w, k => ∃ w1 w2 k1 k2, w = w1 ++ w2 ∧ k = k1 ++ k2 ∧ Matches a w1 k1 ∧ Matches b w2 k2
  | alt a b, w, k => Matches a w k ∨ Matches b w k
  | opt a, w, k => Matches a w k ∨ w = [] ∧ k = []
  | grp n a, w, k => ∃ k', k = (n, w) :: k' ∧ Matches a w k'
  | eps, w, k => w = [] ∧ k = []

theorem mem_starRun {p : Char → Bool} {l w r : List Char} :
    (w, r) ∈ starRun p l ↔ l = w ++ r ∧ ∀ c ∈ w, p c = true := by
  induction l generalizing w with
  | nil =>
    simp only [starRun, List.mem_singleton, Prod.mk.injEq, List.nil_eq, List.append_eq_nil_iff]
    constructor
    · rintro ⟨rfl, rfl⟩; simp
    · rintro ⟨⟨rfl, rfl⟩, -⟩; simp
  | cons c l ih =>
    unfold starRun
    split
    next h =>
      simp only [List.mem_append, List.mem_map, List.mem_singleton, Prod.exists, Prod.mk.injEq]
      constructor
      · rintro (⟨w', r', h1, rfl, rfl⟩ | ⟨rfl, rfl⟩)
        · obtain ⟨rfl, h2⟩ := ih.mp h1
          exact ⟨rfl, by simpa using ⟨h, h2⟩⟩
        · simp
      · rintro ⟨h1, h2⟩
        cases w with
        | nil => right; simpa using h1.symm
        | cons d w =>
          simp only [List.cons_append, List.cons.injEq] at h1
          left
          exact ⟨w, r, ih.mpr ⟨h1.2, fun c hc => h2 c (List.mem_cons_of_mem _ hc)⟩, by rw [h1.1], rfl⟩
    next h =>
      simp only [List.mem_singleton, Prod.mk.injEq]
      constructor
      · rintro ⟨rfl, rfl⟩; simp
      · rintro ⟨h1, h2⟩
        cases w with
        | nil => simpa using h1.symm
        | cons d w =>
          simp only [List.cons_append, List.cons.injEq] at h1
          exact absurd (h1.1 ▸ h2 d List.mem_cons_self) h

theorem mem_run {a : Rx} {l w r : List Char} {k : Caps} : (w, r, k) ∈ run a l ↔ l = w ++ r ∧ Matches a w k := by
  induction a generalizing l w r k with
  | chr p =>
    cases l with
    | nil =>
      simp only [run, List.not_mem_nil, Matches, false_iff, List.nil_eq, List.append_eq_nil_iff]
      rintro ⟨⟨rfl, rfl⟩, c, h, -⟩; simp at h
    | cons c l =>
      simp only [run, Matches]
      split
      next h =>
        simp only [List.mem_singleton, Prod.mk.injEq]
        constructor
        · rintro ⟨rfl, rfl, rfl⟩; exact ⟨rfl, c, rfl, h, rfl⟩
        · rintro ⟨h1, d, rfl, h2, rfl⟩
          simp only [List.cons_append, List.nil_append, List.cons.injEq] at h1
          simp [h1.1, h1.2]
      next h =>
        simp only [List.not_mem_nil, false_iff]
        rintro ⟨h1, d, rfl, h2, rfl⟩
        simp only [List.cons_append, List.nil_append, List.cons.injEq] at h1
        exact h (h1.1 ▸ h2)
  | star p =>
    simp only [run, Matches, List.mem_map, Prod.exists, Prod.mk.injEq]
    constructor
    · rintro ⟨w', r', h, rfl, rfl, rfl⟩
      exact ⟨(mem_starRun.mp h).1, (mem_starRun.mp h).2, rfl⟩
    · rintro ⟨h1, h2, rfl⟩
      exact ⟨w, r, mem_starRun.mpr ⟨h1, h2⟩, rfl, rfl, rfl⟩
  | seq a b iha ihb =>
    simp only [run, Matches, List.mem_flatMap, List.mem_map, Prod.exists, Prod.mk.injEq]
    constructor
    · rintro ⟨w1, r1, k1, h1, w2, r2, k2, h2, rfl, rfl, rfl⟩
      obtain ⟨rfl, m1⟩ := iha.mp h1
      obtain ⟨rfl, m2⟩ := ihb.mp h2
      exact ⟨by simp, w1, w2, k1, k2, rfl, rfl, m1, m2⟩
    · rintro ⟨rfl, w1, w2, k1, k2, rfl, rfl, m1, m2⟩
      exact ⟨w1, w2 ++ r, k1, iha.mpr ⟨by simp, m1⟩, w2, r, k2, ihb.mpr ⟨rfl, m2⟩, rfl, rfl, rfl⟩
  | alt a b iha ihb =>
    simp only [run, Matches, List.mem_append, iha, ihb]
    constructor
    · rintro (⟨h, m⟩ | ⟨h, m⟩)
      · exact ⟨h, Or.inl m⟩
      · exact ⟨h, Or.inr m⟩
    · rintro ⟨h, m | m⟩
      · exact Or.inl ⟨h, m⟩
      · exact Or.inr ⟨h, m⟩
  | opt a iha =>
    simp only [run, Matches, List.mem_append, iha, List.mem_singleton, Prod.mk.injEq]
    constructor
    · rintro (⟨h, m⟩ | ⟨rfl, rfl, rfl⟩)
      · exact ⟨h, Or.inl m⟩
      · exact ⟨rfl, Or.inr ⟨rfl, rfl⟩⟩
    · rintro ⟨h, m | ⟨rfl, rfl⟩⟩
      · exact Or.inl ⟨h, m⟩
      · exact Or.inr ⟨rfl, h.symm, rfl⟩
  | grp n a iha =>
    simp only [run, Matches, List.mem_map, Prod.exists, Prod.mk.injEq]
    constructor
    · rintro ⟨w', r', k', h, rfl, rfl, rfl⟩
      exact ⟨(iha.mp h).1, k', rfl, (iha.mp h).2⟩
    · rintro ⟨h, k', rfl, m⟩
      exact ⟨w, r, k', iha.mpr ⟨h, m⟩, rfl, rfl, rfl⟩
  | eps =>
    simp only [run, Matches, List.mem_singleton, Prod.mk.injEq]
    constructor
    · rintro ⟨rfl, rfl, rfl⟩; simp
    · rintro ⟨h, rfl, rfl⟩; exact ⟨rfl, h.symm, rfl⟩

/-- `regex_match` returns the captures of a match of the whole text. -/
theorem matches_of_matchAll {a : Rx} {l : List Char} {k : Caps} (h : matchAll a l = some k) : Matches a l k := by
  unfold matchAll at h
  obtain ⟨⟨w, r, k'⟩, h1, rfl⟩ := Option.map_eq_some_iff.mp h
  have h2 := List.find?_some h1
  obtain ⟨rfl, m⟩ := mem_run.mp (List.mem_of_find?_eq_some h1)
  simp only [List.isEmpty_iff] at h2
  subst h2
  simpa using m

/-- `regex_match` succeeds if there is a match. -/
theorem matchAll_of_matches {a : Rx} {l : List Char} {k : Caps} (h : Matches a l k) : ∃ k', matchAll a l = some k' := by
  unfold matchAll
  have : ((run a l).find? fun r => r.2.1.isEmpty).isSome = true := by
    rw [List.find?_isSome]
    exact ⟨(l, [], k), mem_run.mpr ⟨by simp, h⟩, rfl⟩
  obtain ⟨r, hr⟩ := Option.isSome_iff_exists.mp this
  exact ⟨_, by rw [hr]; rfl⟩

end Rx
end P1788
