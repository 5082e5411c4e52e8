import Verif.Props.C38

/-!
# C38, exactly: which texts are read

A text is read without a signal exactly if it is a literal all of whose numbers are supported; in particular, a literal that
contains a plus sign, or a number that `std::stoi` cannot take, is never accepted, whatever the format.
-/

namespace P1788

variable {φ : Fmt}

/-- A call that returns does not signal. -/
theorem Returns.not_refused {α : Type} {m : M α} {x a : α} {e : Ex} (h : Returns m x) : ¬ Refused m e a := by
  intro hr
  have h1 := h ⟨fun _ => false, fun _ => false⟩
  rcases hr ⟨fun _ => false, fun _ => false⟩ with ⟨e', h2, -⟩ | ⟨-, h2, -⟩
  · exact Bool.noConfusion h2
  · rw [h1] at h2; exact Bool.noConfusion h2

theorem Returns.unique {α : Type} {m : M α} {x y : α} (h : Returns m x) (h' : Returns m y) : x = y := by
  have h1 := h ⟨fun _ => false, fun _ => false⟩
  rw [h' ⟨fun _ => false, fun _ => false⟩] at h1
  injection h1 with h1 _
  injection h1 with h1
  exact h1.symm

/-- Any string: it is read without a signal if and only if it is a literal all of whose numbers are supported. -/
theorem C38_read_iff {l : List Char} :
    (∃ m x, φ.textToDecorated l = .ok m ∧ Returns m x) ↔ ∃ D d N, Literal l D d N ∧ ∀ n ∈ N, n.Supported := by
  constructor
  · rintro ⟨m, x, hm, hx⟩
    rcases C38_safe hm with ⟨D, d, N, -, hl, hN, -⟩ | ⟨y, hy, -⟩
    · exact ⟨D, d, N, hl, hN⟩
    · exact absurd hy.refused hx.not_refused
  · rintro ⟨D, d, N, hl, hN⟩
    obtain ⟨m, x, h1, h2, -⟩ := C38_literal_partial (φ := φ) hl hN
    exact ⟨m, x, h1, h2⟩

/-- Any literal: the decorated interval it denotes is returned if and only if all its numbers are supported. -/
theorem C38_literal_iff {l : List Char} {D : Denot} {d : Dec} {N : List NumInfo} (h : Literal l D d N) :
    (∃ m x, φ.textToDecorated l = .ok m ∧ Returns m x ∧ LiteralResult φ x D d) ↔ ∀ n ∈ N, n.Supported := by
  constructor
  · rintro ⟨m, x, hm, hx, -⟩
    obtain ⟨D', d', N', h', hN⟩ := C38_read_iff.mp ⟨m, x, hm, hx⟩
    obtain ⟨-, -, rfl⟩ := C38_unique h h'
    exact hN
  · exact C38_literal_partial h

/-- Any literal that contains a number which is not supported: if the call ends normally (neither an
exception of the standard library nor undefined behaviour), it signals an undefined operation and returns NaI. -/
theorem C38_unsupported {l : List Char} {D : Denot} {d : Dec} {N : List NumInfo} (h : Literal l D d N) {n : NumInfo} (hn : n ∈ N)
    (hs : ¬ n.Supported) {m : M DItv} (hm : φ.textToDecorated l = .ok m) :
    ∃ y, Raises m .undefinedOperation y ∧ y.IsNaI :=
  C38_malformed (fun _ _ _ h' => by obtain ⟨-, -, rfl⟩ := C38_unique h h'; exact ⟨n, hn, hs⟩) hm

/-- Any string, read as a bare interval: it is read without a signal if and only if it is a literal, other than NaI, all of whose
numbers are supported. -/
theorem C38_bare_read_iff {l : List Char} :
    (∃ m x, φ.textToInterval l = .ok m ∧ Returns m x) ↔ ∃ D d N, Literal l D d N ∧ D ≠ .nai ∧ ∀ n ∈ N, n.Supported := by
  constructor
  · rintro ⟨m, x, hm, hx⟩
    rcases C38_bare_safe hm with ⟨D, d, N, hl, hN, -, h2⟩ | hy
    · refine ⟨D, d, N, hl, fun e => ?_, hN⟩
      obtain ⟨y, hy, -⟩ := h2 e
      exact hx.not_refused hy.refused
    · exact absurd hy hx.not_refused
  · rintro ⟨D, d, N, hl, hD, hN⟩
    obtain ⟨m, h1, h2, -⟩ := C38_bare_partial (φ := φ) hl hN
    obtain ⟨x, hx, -⟩ := h2 hD
    exact ⟨m, x, h1, hx⟩

/-- Any literal other than NaI: its tightest interval is returned if and only if all its numbers are supported. -/
theorem C38_bare_literal_iff {l : List Char} {D : Denot} {d : Dec} {N : List NumInfo} (h : Literal l D d N) (hD : D ≠ .nai) :
    (∃ m x, φ.textToInterval l = .ok m ∧ Returns m x ∧ Tightest φ x D.set) ↔ ∀ n ∈ N, n.Supported := by
  constructor
  · rintro ⟨m, x, hm, hx, -⟩
    obtain ⟨D', d', N', h', -, hN⟩ := C38_bare_read_iff.mp ⟨m, x, hm, hx⟩
    obtain ⟨-, -, rfl⟩ := C38_unique h h'
    exact hN
  · intro hN
    obtain ⟨m, h1, h2, -⟩ := C38_bare_partial (φ := φ) h hN
    obtain ⟨x, hx, ht⟩ := h2 hD
    exact ⟨m, x, h1, hx, ht⟩

-- not vacuous: a literal with a plus sign is a literal, and it is not read
example : ¬ ∃ m x, φ.textToDecorated "[+1,2]".toList = .ok m ∧ Returns m x ∧ LiteralResult φ x (.bounds (some 1) (some 2)) .com := by
  rw [C38_literal_iff literal_plus]
  intro h
  have := h ⟨true, 0, 0⟩ (by simp)
  simp [NumInfo.Supported] at this

end P1788
