import Verif.Props.C47

/-! # C47: a program that writes an interval without any setting has undefined behaviour: the examples of the repository -/

namespace P1788

variable {φ : Fmt}

/-- Any program whose first output is an interval other than the empty set and the real line, with the default settings: its
behaviour is undefined, whatever it does afterwards. -/
theorem C47_false_first {x : Itv} (hx : x.Ok φ) (h0 : x.set.Nonempty) (hu : x.set ≠ Set.univ) (cs : List OutCmd) :
    Sink.run φ 0 {} (.putItv x :: cs) = .ub := by
  have h : φ.writeItv 0 {} {} x = .ub := C40_false_buffer hx h0 (fun h => hu h.1) rfl (by decide) rfl rfl
  change ((φ.writeItv 0 {} {} x >>= fun o => Std.ok (({} : Sink).after o)) >>= _) = _
  rw [h]; rfl

/-- What the first example of the repository writes, `examples/e01_helloworld.cpp:49-57`: the sum of `[-1, 5]` and `[1, 2]`, and the
end of the line. -/
def helloWorld : List OutCmd := [.putItv (binary64.addI ⟨.fin (-1), .fin 5⟩ ⟨.fin 1, .fin 2⟩), .putText ['\n']]

/-- The first example of the repository has undefined behaviour. -/
theorem C47_false_hello : Sink.run binary64 0 {} helloWorld = .ub := by
  have e : binary64.addI ⟨.fin (-1), .fin 5⟩ ⟨.fin 1, .fin 2⟩ = ⟨.nzero, .fin 7⟩ := by decide +kernel
  unfold helloWorld
  rw [e]
  refine C47_false_first (Itv.ok_of_okb (by decide +kernel)) ⟨1, by norm_num [Itv.set, FP.BelowR, FP.AboveR]⟩ (fun h => ?_) _
  have : (8 : ℝ) ∈ (⟨.nzero, .fin 7⟩ : Itv).set := by rw [h]; trivial
  norm_num [Itv.set, FP.BelowR, FP.AboveR] at this

/-- If the allocator happens to provide two more bytes, the sum is written; so it is, without such luck, with a number width that
has room for every number. -/
example : (match Sink.run binary64 2 {} helloWorld with | .ok s => some s.text | _ => none) = some "[-0,7]\n".toList ∧
    (match Sink.run binary64 0 {} (.width 14 :: helloWorld) with | .ok s => some s.text | _ => none) =
      some "[            -0,             7]\n".toList := by
  decide +kernel

/-- The input of the example `examples/e03_io.cpp:57-78` is read as its comments say: `[1.0,inf]_def`, `[5.0]`, a text in uncertain form
with decoration `dac`, and `[,]`; at the end nothing is left. -/
example : (match (show Std (Option DItv × Option DItv × Option Dec × Option DItv × List Char) from do
    let (a, s) ← binary64.readItv { rest := "[1.0,inf]_def   [5.0]   1.234567?12de+3_dac   [,]".toList }
    let (b, s) ← binary64.readItv s
    let (c, s) ← binary64.readItv s
    let (d, s) ← binary64.readItv s
    return (a, b, c.map DItv.dec, d, s.rest)) with
    | Std.ok r => some r
    | _ => none) = some (some ⟨⟨.fin 1, .pinf⟩, .defd⟩, some ⟨⟨.fin 5, .fin 5⟩, .com⟩, some Dec.dac,
      some ⟨⟨.ninf, .pinf⟩, .dac⟩, []) := by
  decide +kernel

end P1788
