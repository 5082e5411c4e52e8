import Verif.Props.C66

/-!
# C66: units that are not yet initialised

A function of a unit that runs before the variables of the unit are initialised (a constructor of another unit may call it) finds 0 in all
of them: all settings are one and the same entry of the table.
-/

namespace P1788
variable {φ : Fmt} {slack : ℕ}

/-- All settings are read from entry 0, and no other entry is changed. -/
theorem C66_uninitialised_all {b : ℕ} {cs : List XCall} {t : ℕ} (ht : ∀ k, XCall.unit t k ∉ cs) (w : WStream) :
    (∀ k, (w.view (slotIndex b cs t)).iw k = w.table 0) ∧
    ∀ (c : OutCmd) (w' : WStream), w.exec φ slack (slotIndex b cs) (.unit t c) = .ok w' → ∀ j, j ≠ 0 → w'.table j = w.table j := by
  have h0 : ∀ k, slotIndex b cs t k = 0 := fun k => if_neg (ht k)
  refine ⟨fun k => congrArg w.table (h0 k), fun c w' h j hj => ?_⟩
  obtain ⟨r, -, hr⟩ := Std.bind_ok h
  cases Std.ok.inj hr
  exact WStream.store_other fun k he => hj (he ▸ (h0 k).symm ▸ rfl)

/-- Its hypothesis holds for unit 1 before it is initialised, while unit 0 is: the manipulator `uppercase` of unit 1 changes entry 0, and no
setting of unit 0. -/
example : (∀ k, XCall.unit 1 k ∉ Slot.all.map (XCall.unit 0)) ∧ Initialised (Slot.all.map (XCall.unit 0)) 0 ∧
    ∃ w : WStream, WStream.exec binary64 0 (slotIndex 4 (Slot.all.map (XCall.unit 0))) {} (.unit 1 (.case true)) = .ok w ∧ w.table 0 ≠ 0 ∧
      ∀ k, w.table (slotIndex 4 (Slot.all.map (XCall.unit 0)) 0 k) = 0 := by
  refine ⟨by simp, fun k => by cases k <;> simp [Slot.all], _, rfl, by decide +kernel, fun k => ?_⟩
  cases k <;> decide +kernel

end P1788
