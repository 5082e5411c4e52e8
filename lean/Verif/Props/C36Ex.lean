import Verif.Props.C36

/-!
# C36: the repository's example of exception handling

`examples/e14_exceptions.cpp`.
-/

namespace P1788

/-- The calls of `examples/e14_exceptions.cpp:56-57, 83, 90-91, 96, 99, 119`. -/
def e14 : List Cmd :=
  [.nums (.fin 2) (.fin (-1)), .intervalPart DItv.nai, .clear,
   .setMask (fun e => e = .intervalPartOfNai ∨ e = .invalidOperand), .nums (.fin 2) (.fin (-1)), .intervalPart DItv.nai, .intervalPart DItv.nai]

/-- The example behaves as its comments say: the first two calls throw nothing and set the flags of "undefined operation" and "interval part
of NaI" and no other (lines 69-80), no flag is set after the third (85), and after the mask is set the first call throws nothing (96) and the
other two throw (99, 119). -/
example : (runAll e14 ExSt.init).1 = [none, none, none, none, none, some .intervalPartOfNai, some .intervalPartOfNai] ∧
    (∀ e, (runAll (e14.take 2) ExSt.init).2.flags e = true ↔ e = .undefinedOperation ∨ e = .intervalPartOfNai) ∧
    (∀ e, (runAll (e14.take 3) ExSt.init).2.flags e = false) ∧
    (∀ e, (runAll (e14.take 5) ExSt.init).2.flags e = true ↔ e = .undefinedOperation) := by
  refine ⟨by decide +kernel, fun e => ?_, fun e => ?_, fun e => ?_⟩ <;> cases e <;> decide +kernel

end P1788
