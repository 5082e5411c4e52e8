import Verif.SpecEx
import Verif.Lemmas.Conv

/-! Helper lemmas: calls that signal. -/

namespace P1788
variable {φ ψ : Fmt} {α β : Type}

theorem Returns.pure (a : α) : Returns (Pure.pure a : M α) a := fun _ => rfl

theorem Returns.bind {m : M α} {a : α} {f : α → M β} {b : β} (h : Returns m a) (h' : Returns (f a) b) :
    Returns (m >>= f) b := by
  intro s
  change M.bind m f s = _
  unfold M.bind
  rw [h s]; exact h' s

theorem Returns.bind_raises {m : M α} {a : α} {f : α → M β} {b : β} {e : Ex} (h : Returns m a)
    (h' : Raises (f a) e b) : Raises (m >>= f) e b := by
  intro s
  have : (m >>= f) s = f a s := by
    change M.bind m f s = _
    unfold M.bind
    rw [h s]
  rw [this]; exact h' s

theorem Raises.bind {m : M α} {a : α} {f : α → M β} {b : β} {e : Ex} (h : Raises m e a)
    (h' : Returns (f a) b) : Raises (m >>= f) e b := by
  intro s
  obtain ⟨h1, h2, h3, h4, h5⟩ := h s
  have key : (m >>= f) s = M.bind m f s := rfl
  cases hc : s.cwd e with
  | true =>
    have h6 := h4 hc
    have : (m >>= f) s = (.thrown e, (m s).2) := by
      rw [key]; unfold M.bind
      rcases hm : m s with ⟨o, s'⟩
      rw [hm] at h6
      simp only at h6
      rw [h6]
    rw [this]
    exact ⟨h1, h2, h3, fun _ => rfl, fun h => by simp at h⟩
  | false =>
    have h6 := h5 hc
    have : (m >>= f) s = (.ret b, (m s).2) := by
      rw [key]; unfold M.bind
      rcases hm : m s with ⟨o, s'⟩
      rw [hm] at h6
      simp only at h6
      rw [h6]
      exact h' s'
    rw [this]
    exact ⟨h1, h2, h3, fun h => by simp at h, fun _ => rfl⟩

theorem raises_signal (e : Ex) : Raises (signal e) e () := by
  intro s
  unfold signal
  cases hc : s.cwd e <;> simp +contextual

theorem raises_signal_then (e : Ex) (a : α) : Raises (do signal e; return a) e a :=
  (raises_signal e).bind (Returns.pure a)

theorem ite_true' {p : Prop} [Decidable p] {a b : α} (h : p) : (if p then a else b) = a := if_pos h

theorem Returns.ex {m : M α} {a : α} (h : Returns m a) (s : ExSt) : m s = (.ret a, s) := h s

theorem validBounds_iff {l u : FP} :
    ValidBounds l u ↔ l ≠ .nan ∧ u ≠ .nan ∧ l.toE ≤ u.toE ∧ l ≠ .pinf ∧ u ≠ .ninf := by
  unfold ValidBounds
  simp only [FP.belowR_iff, FP.aboveR_iff]
  constructor
  · rintro ⟨r, ⟨h1, h2⟩, h3, h4⟩
    exact ⟨h1, h3, h2.trans h4, by rintro rfl; simp at h2, by rintro rfl; simp at h4⟩
  · rintro ⟨h1, h2, h3, h4, h5⟩
    obtain ⟨r, h6, h7⟩ := Itv.exists_real_between h3 (by simpa [FP.toE_eq_top] using h4)
      (by simpa [FP.toE_eq_bot] using h5)
    exact ⟨r, ⟨h1, h6⟩, h2, h7⟩

theorem boundsOk_iff {l u : FP} : boundsOk l u = true ↔ ValidBounds l u := by
  rw [validBounds_iff]
  unfold boundsOk
  simp only [Bool.and_eq_true, Bool.not_eq_true', Itv.feq_pinf, Itv.feq_ninf, decide_eq_false_iff_not]
  constructor
  · rintro ⟨⟨h, h1⟩, h2⟩
    have h' : l ≤ u := h
    rw [FP.le_iff'] at h'
    exact ⟨h'.1, h'.2.1, h'.2.2, h1, h2⟩
  · rintro ⟨h1, h2, h3, h4, h5⟩
    have h' : l ≤ u := FP.le_iff'.mpr ⟨h1, h2, h3⟩
    exact ⟨⟨h', h4⟩, h5⟩

theorem Itv.proper_iff {x : Itv} : x.isValid = true ↔ x.Proper := by
  rw [Itv.isValid_iff]
  unfold Itv.Proper
  rw [validBounds_iff]
  refine or_congr ?_ ?_
  · cases x; simp
  · rw [FP.le_iff']; tauto

theorem Itv.Ok.proper {x : Itv} (h : x.Ok φ) : x.Proper := Itv.proper_iff.mp h.isValid

theorem ValidBounds.NE {l u : FP} (h : ValidBounds l u) (h1 : l.In φ) (h2 : u.In φ) : (Itv.mk l u).NE φ := by
  rw [validBounds_iff] at h
  exact ⟨h.1, h.2.1, h.2.2.1, by simpa [FP.toE_eq_top] using h.2.2.2.1, by simpa [FP.toE_eq_bot] using h.2.2.2.2,
    h1, h2⟩

theorem Itv.isValidM_ret {x : Itv} (h : x.Proper) : Returns x.isValidM true := by
  unfold Itv.isValidM; rw [if_pos (Itv.proper_iff.mpr h)]; exact Returns.pure _

theorem Itv.isValidM_raise {x : Itv} (h : ¬ x.Proper) : Raises x.isValidM .invalidOperand false := by
  unfold Itv.isValidM; rw [if_neg (fun h' => h (Itv.proper_iff.mp h'))]; exact raises_signal_then _ _

theorem DItv.isValidM_ret {x : DItv} (h : x.isValid = true) : Returns x.isValidM true := by
  unfold DItv.isValidM; rw [if_pos h]; exact Returns.pure _

theorem DItv.isValidM_raise {x : DItv} (h : ¬ x.isValid = true) : Raises x.isValidM .invalidOperand false := by
  unfold DItv.isValidM; rw [if_neg h]; exact raises_signal_then _ _

theorem decIsValidM_ret {d : UInt8} {e : Dec} (h : Dec.ofRaw d = some e) : Returns (decIsValidM d) true := by
  unfold decIsValidM; rw [if_pos (by simp [h])]; exact Returns.pure _

theorem decIsValidM_raise {d : UInt8} (h : Dec.ofRaw d = none) : Raises (decIsValidM d) .invalidOperand false := by
  unfold decIsValidM; rw [if_neg (by simp [h])]; exact raises_signal_then _ _

theorem newDecM_ret {x : Itv} (h : x.Proper) : Returns (newDecM x) x.newDec := by
  unfold newDecM
  exact (Itv.isValidM_ret h).bind (Returns.pure _)

theorem ValidBounds.hull {l u : FP} (h : ValidBounds l u) (φ : Fmt) :
    Tightest φ ⟨φ.convertRndd l, φ.convertRndu u⟩ {r : ℝ | l.BelowR r ∧ u.AboveR r} := by
  rw [validBounds_iff] at h
  exact hull_bounds φ h.1 h.2.1 h.2.2.1 (by simpa [FP.toE_eq_top] using h.2.2.2.1)
    (by simpa [FP.toE_eq_bot] using h.2.2.2.2)

theorem Tightest.ne {R : Itv} {S : Set ℝ} (h : Tightest φ R S) (hS : S.Nonempty) : R.NE φ := by
  rcases h.1.cases with rfl | hN
  · have := h.2.1
    rw [Itv.set_empty, Set.subset_empty_iff] at this
    simp [this] at hS
  · exact hN

end P1788
