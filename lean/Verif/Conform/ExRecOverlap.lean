import Verif.Conform.Basic

/-!
# Conformance: rec_overlap, exceptions

Generated from `/repo/test/p1788/flavor/infsup/setbased/test_mpfr_bin_ieee754_flavor_rec_overlap.cpp`: the assertions of the project's own test suite, evaluated in the
model by the kernel.  Each test case is the list of its calls and of its
assertions, with their lines, about the exception flags and about thrown exceptions.  These are tests of the model, not proofs of
properties.
-/

set_option maxRecDepth 100000

namespace P1788.Conform

/-- `minimal_overlap_test` -/
example : failed [
    .call clearFlags,
    .call ((Cmd.run (.op [(Itv.empty : Itv), (Itv.empty : Itv)]))),
    .call ((Cmd.run (.op [(Itv.empty : Itv), (⟨(f 1 0), (f 2 0)⟩ : Itv)]))),
    .call ((Cmd.run (.op [(⟨(f 1 0), (f 2 0)⟩ : Itv), (Itv.empty : Itv)]))),
    .call ((Cmd.run (.op [(⟨.ninf, (f 2 0)⟩ : Itv), (⟨(f 3 0), .pinf⟩ : Itv)]))),
    .call ((Cmd.run (.op [(⟨.ninf, (f 2 0)⟩ : Itv), (⟨(f 3 0), (f 4 0)⟩ : Itv)]))),
    .call ((Cmd.run (.op [(⟨(f 2 0), (f 2 0)⟩ : Itv), (⟨(f 3 0), (f 4 0)⟩ : Itv)]))),
    .call ((Cmd.run (.op [(⟨(f 1 0), (f 2 0)⟩ : Itv), (⟨(f 3 0), (f 4 0)⟩ : Itv)]))),
    .call ((Cmd.run (.op [(⟨(f 1 0), (f 2 0)⟩ : Itv), (⟨(f 3 0), (f 3 0)⟩ : Itv)]))),
    .call ((Cmd.run (.op [(⟨(f 2 0), (f 2 0)⟩ : Itv), (⟨(f 3 0), (f 3 0)⟩ : Itv)]))),
    .call ((Cmd.run (.op [(⟨(f 2 0), (f 2 0)⟩ : Itv), (⟨(f 3 0), .pinf⟩ : Itv)]))),
    .call ((Cmd.run (.op [(⟨.ninf, (f 2 0)⟩ : Itv), (⟨(f 2 0), (f 3 0)⟩ : Itv)]))),
    .call ((Cmd.run (.op [(⟨(f 1 0), (f 2 0)⟩ : Itv), (⟨(f 2 0), (f 3 0)⟩ : Itv)]))),
    .call ((Cmd.run (.op [(⟨(f 1 0), (f 2 0)⟩ : Itv), (⟨(f 2 0), .pinf⟩ : Itv)]))),
    .call ((Cmd.run (.op [(⟨(f 1 0), (f 2 0)⟩ : Itv), (⟨(f (3) (-1)), (f (5) (-1))⟩ : Itv)]))),
    .call ((Cmd.run (.op [(⟨(f 1 0), (f 2 0)⟩ : Itv), (⟨(f 1 0), .pinf⟩ : Itv)]))),
    .call ((Cmd.run (.op [(⟨(f 1 0), (f 2 0)⟩ : Itv), (⟨(f 1 0), (f 3 0)⟩ : Itv)]))),
    .call ((Cmd.run (.op [(⟨(f 1 0), (f 1 0)⟩ : Itv), (⟨(f 1 0), (f 3 0)⟩ : Itv)]))),
    .call ((Cmd.run (.op [(⟨(f 1 0), (f 2 0)⟩ : Itv), (⟨.ninf, .pinf⟩ : Itv)]))),
    .call ((Cmd.run (.op [(⟨(f 1 0), (f 2 0)⟩ : Itv), (⟨.ninf, (f 3 0)⟩ : Itv)]))),
    .call ((Cmd.run (.op [(⟨(f 1 0), (f 2 0)⟩ : Itv), (⟨(f 0 0), (f 3 0)⟩ : Itv)]))),
    .call ((Cmd.run (.op [(⟨(f 2 0), (f 2 0)⟩ : Itv), (⟨(f 0 0), (f 3 0)⟩ : Itv)]))),
    .call ((Cmd.run (.op [(⟨(f 2 0), (f 2 0)⟩ : Itv), (⟨(f 0 0), .pinf⟩ : Itv)]))),
    .call ((Cmd.run (.op [(⟨(f 1 0), (f 2 0)⟩ : Itv), (⟨.ninf, (f 2 0)⟩ : Itv)]))),
    .call ((Cmd.run (.op [(⟨(f 1 0), (f 2 0)⟩ : Itv), (⟨(f 0 0), (f 2 0)⟩ : Itv)]))),
    .call ((Cmd.run (.op [(⟨(f 2 0), (f 2 0)⟩ : Itv), (⟨(f 0 0), (f 2 0)⟩ : Itv)]))),
    .call ((Cmd.run (.op [(⟨(f 1 0), (f 2 0)⟩ : Itv), (⟨(f 1 0), (f 2 0)⟩ : Itv)]))),
    .call ((Cmd.run (.op [(⟨(f 1 0), (f 1 0)⟩ : Itv), (⟨(f 1 0), (f 1 0)⟩ : Itv)]))),
    .call ((Cmd.run (.op [(⟨.ninf, (f 1 0)⟩ : Itv), (⟨.ninf, (f 1 0)⟩ : Itv)]))),
    .call ((Cmd.run (.op [(⟨.ninf, .pinf⟩ : Itv), (⟨.ninf, .pinf⟩ : Itv)]))),
    .call ((Cmd.run (.op [(⟨(f 3 0), (f 4 0)⟩ : Itv), (⟨(f 2 0), (f 2 0)⟩ : Itv)]))),
    .call ((Cmd.run (.op [(⟨(f 3 0), (f 4 0)⟩ : Itv), (⟨(f 1 0), (f 2 0)⟩ : Itv)]))),
    .call ((Cmd.run (.op [(⟨(f 3 0), (f 3 0)⟩ : Itv), (⟨(f 1 0), (f 2 0)⟩ : Itv)]))),
    .call ((Cmd.run (.op [(⟨(f 3 0), (f 3 0)⟩ : Itv), (⟨(f 2 0), (f 2 0)⟩ : Itv)]))),
    .call ((Cmd.run (.op [(⟨(f 3 0), .pinf⟩ : Itv), (⟨(f 2 0), (f 2 0)⟩ : Itv)]))),
    .call ((Cmd.run (.op [(⟨(f 2 0), (f 3 0)⟩ : Itv), (⟨(f 1 0), (f 2 0)⟩ : Itv)]))),
    .call ((Cmd.run (.op [(⟨(f 2 0), (f 3 0)⟩ : Itv), (⟨.ninf, (f 2 0)⟩ : Itv)]))),
    .call ((Cmd.run (.op [(⟨(f (3) (-1)), (f (5) (-1))⟩ : Itv), (⟨(f 1 0), (f 2 0)⟩ : Itv)]))),
    .call ((Cmd.run (.op [(⟨(f (3) (-1)), (f (5) (-1))⟩ : Itv), (⟨.ninf, (f 2 0)⟩ : Itv)]))),
    .call ((Cmd.run (.op [(⟨(f 1 0), .pinf⟩ : Itv), (⟨(f 1 0), (f 2 0)⟩ : Itv)]))),
    .call ((Cmd.run (.op [(⟨(f 1 0), (f 3 0)⟩ : Itv), (⟨(f 1 0), (f 2 0)⟩ : Itv)]))),
    .call ((Cmd.run (.op [(⟨(f 1 0), (f 3 0)⟩ : Itv), (⟨(f 1 0), (f 1 0)⟩ : Itv)]))),
    .call ((Cmd.run (.op [(⟨.ninf, (f 3 0)⟩ : Itv), (⟨(f 1 0), (f 2 0)⟩ : Itv)]))),
    .call ((Cmd.run (.op [(⟨.ninf, .pinf⟩ : Itv), (⟨(f 1 0), (f 2 0)⟩ : Itv)]))),
    .call ((Cmd.run (.op [(⟨(f 0 0), (f 3 0)⟩ : Itv), (⟨(f 1 0), (f 2 0)⟩ : Itv)]))),
    .call ((Cmd.run (.op [(⟨(f 0 0), (f 3 0)⟩ : Itv), (⟨(f 2 0), (f 2 0)⟩ : Itv)]))),
    .call ((Cmd.run (.op [(⟨.ninf, (f 2 0)⟩ : Itv), (⟨(f 1 0), (f 2 0)⟩ : Itv)]))),
    .call ((Cmd.run (.op [(⟨(f 0 0), (f 2 0)⟩ : Itv), (⟨(f 1 0), (f 2 0)⟩ : Itv)]))),
    .call ((Cmd.run (.op [(⟨(f 0 0), (f 2 0)⟩ : Itv), (⟨(f 2 0), (f 2 0)⟩ : Itv)]))),
    .state 121 [],
    .call clearFlags,
    .call ((Cmd.run (.op [(⟨(f 1 0), (f (-5404319552844595) (-51))⟩ : Itv), (⟨(f 1 0), (f 2 0)⟩ : Itv)]))),
    .state 125 [.invalidOperand],
    .call clearFlags,
    .call (setCwd (bitsOf [.invalidOperand])),
    .throws 128 ((Cmd.run (.op [(⟨(f 1 0), (f (5404319552844595) (-51))⟩ : Itv), (⟨(f 1 0), (f (-2) (0))⟩ : Itv)]))) .invalidOperand,
    .state 129 [.invalidOperand],
    .call clearFlags,
    .call (setCwd (bitsOf []))] ExSt.init = [] := by
  decide +kernel

/-- `minimal_overlap_mixedtype_test` -/
example : failed [
    .call clearFlags,
    .call ((Cmd.run (.op [(Itv.empty : Itv), (Itv.empty : Itv)]))),
    .call ((Cmd.run (.op [(Itv.empty : Itv), (⟨(f 1 0), (f 2 0)⟩ : Itv)]))),
    .call ((Cmd.run (.op [(⟨(f 1 0), (f 2 0)⟩ : Itv), (Itv.empty : Itv)]))),
    .call ((Cmd.run (.op [(⟨(f 2 0), (f 2 0)⟩ : Itv), (⟨(f 3 0), (f 4 0)⟩ : Itv)]))),
    .call ((Cmd.run (.op [(⟨(f 1 0), (f 2 0)⟩ : Itv), (⟨(f 3 0), (f 4 0)⟩ : Itv)]))),
    .call ((Cmd.run (.op [(⟨(f 1 0), (f 2 0)⟩ : Itv), (⟨(f 3 0), (f 3 0)⟩ : Itv)]))),
    .call ((Cmd.run (.op [(⟨(f 2 0), (f 2 0)⟩ : Itv), (⟨(f 3 0), (f 3 0)⟩ : Itv)]))),
    .call ((Cmd.run (.op [(⟨(f 1 0), (f 2 0)⟩ : Itv), (⟨(f 2 0), (f 3 0)⟩ : Itv)]))),
    .call ((Cmd.run (.op [(⟨(f 1 0), (f 2 0)⟩ : Itv), (⟨(f (3) (-1)), (f (5) (-1))⟩ : Itv)]))),
    .call ((Cmd.run (.op [(⟨(f 1 0), (f 2 0)⟩ : Itv), (⟨(f 1 0), (f 3 0)⟩ : Itv)]))),
    .call ((Cmd.run (.op [(⟨(f 1 0), (f 1 0)⟩ : Itv), (⟨(f 1 0), (f 3 0)⟩ : Itv)]))),
    .call ((Cmd.run (.op [(⟨(f 1 0), (f 2 0)⟩ : Itv), (⟨(f 0 0), (f 3 0)⟩ : Itv)]))),
    .call ((Cmd.run (.op [(⟨(f 2 0), (f 2 0)⟩ : Itv), (⟨(f 0 0), (f 3 0)⟩ : Itv)]))),
    .call ((Cmd.run (.op [(⟨(f 1 0), (f 2 0)⟩ : Itv), (⟨(f 0 0), (f 2 0)⟩ : Itv)]))),
    .call ((Cmd.run (.op [(⟨(f 2 0), (f 2 0)⟩ : Itv), (⟨(f 0 0), (f 2 0)⟩ : Itv)]))),
    .call ((Cmd.run (.op [(⟨(f 1 0), (f 2 0)⟩ : Itv), (⟨(f 1 0), (f 2 0)⟩ : Itv)]))),
    .call ((Cmd.run (.op [(⟨(f 1 0), (f 1 0)⟩ : Itv), (⟨(f 1 0), (f 1 0)⟩ : Itv)]))),
    .call ((Cmd.run (.op [(⟨(f 3 0), (f 4 0)⟩ : Itv), (⟨(f 2 0), (f 2 0)⟩ : Itv)]))),
    .call ((Cmd.run (.op [(⟨(f 3 0), (f 4 0)⟩ : Itv), (⟨(f 1 0), (f 2 0)⟩ : Itv)]))),
    .call ((Cmd.run (.op [(⟨(f 3 0), (f 3 0)⟩ : Itv), (⟨(f 1 0), (f 2 0)⟩ : Itv)]))),
    .call ((Cmd.run (.op [(⟨(f 3 0), (f 3 0)⟩ : Itv), (⟨(f 2 0), (f 2 0)⟩ : Itv)]))),
    .call ((Cmd.run (.op [(⟨(f 2 0), (f 3 0)⟩ : Itv), (⟨(f 1 0), (f 2 0)⟩ : Itv)]))),
    .call ((Cmd.run (.op [(⟨(f (3) (-1)), (f (5) (-1))⟩ : Itv), (⟨(f 1 0), (f 2 0)⟩ : Itv)]))),
    .call ((Cmd.run (.op [(⟨(f 1 0), (f 3 0)⟩ : Itv), (⟨(f 1 0), (f 2 0)⟩ : Itv)]))),
    .call ((Cmd.run (.op [(⟨(f 1 0), (f 3 0)⟩ : Itv), (⟨(f 1 0), (f 1 0)⟩ : Itv)]))),
    .call ((Cmd.run (.op [(⟨(f 0 0), (f 3 0)⟩ : Itv), (⟨(f 1 0), (f 2 0)⟩ : Itv)]))),
    .call ((Cmd.run (.op [(⟨(f 0 0), (f 3 0)⟩ : Itv), (⟨(f 2 0), (f 2 0)⟩ : Itv)]))),
    .call ((Cmd.run (.op [(⟨(f 0 0), (f 2 0)⟩ : Itv), (⟨(f 1 0), (f 2 0)⟩ : Itv)]))),
    .call ((Cmd.run (.op [(⟨(f 0 0), (f 2 0)⟩ : Itv), (⟨(f 2 0), (f 2 0)⟩ : Itv)]))),
    .state 181 [],
    .call clearFlags,
    .call ((Cmd.run (.op [(⟨(f 1 0), (f (-5404319552844595) (-51))⟩ : Itv), (⟨(f 1 0), (f 2 0)⟩ : Itv)]))),
    .state 185 [.invalidOperand],
    .call clearFlags,
    .call (setCwd (bitsOf [.invalidOperand])),
    .throws 188 ((Cmd.run (.op [(⟨(f 1 0), (f (5404319552844595) (-51))⟩ : Itv), (⟨(f 1 0), (f (-2) (0))⟩ : Itv)]))) .invalidOperand,
    .state 189 [.invalidOperand],
    .call clearFlags,
    .call (setCwd (bitsOf []))] ExSt.init = [] := by
  decide +kernel

/-- `minimal_overlap_dec_test` -/
example : failed [
    .call clearFlags,
    .call ((Cmd.run (.opD [(DItv.nai : DItv), (DItv.nai : DItv)]))),
    .call ((Cmd.run (.opD [(DItv.nai : DItv), (⟨⟨(f 1 0), (f 2 0)⟩, .defd⟩ : DItv)]))),
    .call ((Cmd.run (.opD [(⟨⟨(f 1 0), (f 2 0)⟩, .dac⟩ : DItv), (DItv.nai : DItv)]))),
    .call ((Cmd.run (.opD [(DItv.empty : DItv), (DItv.empty : DItv)]))),
    .call ((Cmd.run (.opD [(DItv.empty : DItv), (⟨⟨(f 1 0), (f 2 0)⟩, .com⟩ : DItv)]))),
    .call ((Cmd.run (.opD [(⟨⟨(f 1 0), (f 2 0)⟩, .defd⟩ : DItv), (DItv.empty : DItv)]))),
    .call ((Cmd.run (.opD [(⟨⟨(f 2 0), (f 2 0)⟩, .defd⟩ : DItv), (⟨⟨(f 3 0), (f 4 0)⟩, .defd⟩ : DItv)]))),
    .call ((Cmd.run (.opD [(⟨⟨(f 1 0), (f 2 0)⟩, .dac⟩ : DItv), (⟨⟨(f 3 0), (f 4 0)⟩, .com⟩ : DItv)]))),
    .call ((Cmd.run (.opD [(⟨⟨(f 1 0), (f 2 0)⟩, .com⟩ : DItv), (⟨⟨(f 3 0), (f 3 0)⟩, .trv⟩ : DItv)]))),
    .call ((Cmd.run (.opD [(⟨⟨(f 2 0), (f 2 0)⟩, .trv⟩ : DItv), (⟨⟨(f 3 0), (f 3 0)⟩, .defd⟩ : DItv)]))),
    .call ((Cmd.run (.opD [(⟨⟨(f 1 0), (f 2 0)⟩, .defd⟩ : DItv), (⟨⟨(f 2 0), (f 3 0)⟩, .defd⟩ : DItv)]))),
    .call ((Cmd.run (.opD [(⟨⟨(f 1 0), (f 2 0)⟩, .dac⟩ : DItv), (⟨⟨(f (3) (-1)), (f (5) (-1))⟩, .defd⟩ : DItv)]))),
    .call ((Cmd.run (.opD [(⟨⟨(f 1 0), (f 2 0)⟩, .defd⟩ : DItv), (⟨⟨(f 1 0), (f 3 0)⟩, .com⟩ : DItv)]))),
    .call ((Cmd.run (.opD [(⟨⟨(f 1 0), (f 1 0)⟩, .trv⟩ : DItv), (⟨⟨(f 1 0), (f 3 0)⟩, .defd⟩ : DItv)]))),
    .call ((Cmd.run (.opD [(⟨⟨(f 1 0), (f 2 0)⟩, .defd⟩ : DItv), (⟨⟨(f 0 0), (f 3 0)⟩, .dac⟩ : DItv)]))),
    .call ((Cmd.run (.opD [(⟨⟨(f 2 0), (f 2 0)⟩, .trv⟩ : DItv), (⟨⟨(f 0 0), (f 3 0)⟩, .defd⟩ : DItv)]))),
    .call ((Cmd.run (.opD [(⟨⟨(f 1 0), (f 2 0)⟩, .trv⟩ : DItv), (⟨⟨(f 0 0), (f 2 0)⟩, .com⟩ : DItv)]))),
    .call ((Cmd.run (.opD [(⟨⟨(f 2 0), (f 2 0)⟩, .defd⟩ : DItv), (⟨⟨(f 0 0), (f 2 0)⟩, .dac⟩ : DItv)]))),
    .call ((Cmd.run (.opD [(⟨⟨(f 1 0), (f 2 0)⟩, .defd⟩ : DItv), (⟨⟨(f 1 0), (f 2 0)⟩, .defd⟩ : DItv)]))),
    .call ((Cmd.run (.opD [(⟨⟨(f 1 0), (f 1 0)⟩, .dac⟩ : DItv), (⟨⟨(f 1 0), (f 1 0)⟩, .dac⟩ : DItv)]))),
    .call ((Cmd.run (.opD [(⟨⟨(f 3 0), (f 4 0)⟩, .trv⟩ : DItv), (⟨⟨(f 2 0), (f 2 0)⟩, .trv⟩ : DItv)]))),
    .call ((Cmd.run (.opD [(⟨⟨(f 3 0), (f 4 0)⟩, .defd⟩ : DItv), (⟨⟨(f 1 0), (f 2 0)⟩, .defd⟩ : DItv)]))),
    .call ((Cmd.run (.opD [(⟨⟨(f 3 0), (f 3 0)⟩, .com⟩ : DItv), (⟨⟨(f 1 0), (f 2 0)⟩, .dac⟩ : DItv)]))),
    .call ((Cmd.run (.opD [(⟨⟨(f 3 0), (f 3 0)⟩, .defd⟩ : DItv), (⟨⟨(f 2 0), (f 2 0)⟩, .trv⟩ : DItv)]))),
    .call ((Cmd.run (.opD [(⟨⟨(f 2 0), (f 3 0)⟩, .defd⟩ : DItv), (⟨⟨(f 1 0), (f 2 0)⟩, .trv⟩ : DItv)]))),
    .call ((Cmd.run (.opD [(⟨⟨(f (3) (-1)), (f (5) (-1))⟩, .com⟩ : DItv), (⟨⟨(f 1 0), (f 2 0)⟩, .com⟩ : DItv)]))),
    .call ((Cmd.run (.opD [(⟨⟨(f 1 0), (f 3 0)⟩, .dac⟩ : DItv), (⟨⟨(f 1 0), (f 2 0)⟩, .defd⟩ : DItv)]))),
    .call ((Cmd.run (.opD [(⟨⟨(f 1 0), (f 3 0)⟩, .com⟩ : DItv), (⟨⟨(f 1 0), (f 1 0)⟩, .dac⟩ : DItv)]))),
    .call ((Cmd.run (.opD [(⟨⟨(f 0 0), (f 3 0)⟩, .com⟩ : DItv), (⟨⟨(f 1 0), (f 2 0)⟩, .dac⟩ : DItv)]))),
    .call ((Cmd.run (.opD [(⟨⟨(f 0 0), (f 3 0)⟩, .com⟩ : DItv), (⟨⟨(f 2 0), (f 2 0)⟩, .defd⟩ : DItv)]))),
    .call ((Cmd.run (.opD [(⟨⟨(f 0 0), (f 2 0)⟩, .defd⟩ : DItv), (⟨⟨(f 1 0), (f 2 0)⟩, .trv⟩ : DItv)]))),
    .call ((Cmd.run (.opD [(⟨⟨(f 0 0), (f 2 0)⟩, .dac⟩ : DItv), (⟨⟨(f 2 0), (f 2 0)⟩, .defd⟩ : DItv)]))),
    .state 245 [],
    .call clearFlags,
    .call ((Cmd.run (.opD [(⟨⟨(f 1 0), (f (-5404319552844595) (-51))⟩, .trv⟩ : DItv), (⟨⟨(f 1 0), (f 2 0)⟩, .defd⟩ : DItv)]))),
    .state 249 [.invalidOperand],
    .call clearFlags,
    .call (setCwd (bitsOf [.invalidOperand])),
    .throws 252 ((Cmd.run (.opD [(⟨⟨(f 1 0), (f (5404319552844595) (-51))⟩, .ill⟩ : DItv), (⟨⟨(f 1 0), (f (-2) (0))⟩, .defd⟩ : DItv)]))) .invalidOperand,
    .state 253 [.invalidOperand],
    .call clearFlags,
    .call (setCwd (bitsOf []))] ExSt.init = [] := by
  decide +kernel

/-- `minimal_overlap_dec_mixedtype_test` -/
example : failed [
    .call clearFlags,
    .call ((Cmd.run (.opD [(DItv.nai : DItv), (DItv.nai : DItv)]))),
    .call ((Cmd.run (.opD [(DItv.nai : DItv), (⟨⟨(f 1 0), (f 2 0)⟩, .trv⟩ : DItv)]))),
    .call ((Cmd.run (.opD [(⟨⟨(f 1 0), (f 2 0)⟩, .defd⟩ : DItv), (DItv.nai : DItv)]))),
    .call ((Cmd.run (.opD [(DItv.empty : DItv), (DItv.empty : DItv)]))),
    .call ((Cmd.run (.opD [(DItv.empty : DItv), (⟨⟨(f 1 0), (f 2 0)⟩, .defd⟩ : DItv)]))),
    .call ((Cmd.run (.opD [(⟨⟨(f 1 0), (f 2 0)⟩, .defd⟩ : DItv), (DItv.empty : DItv)]))),
    .call ((Cmd.run (.opD [(⟨⟨(f 2 0), (f 2 0)⟩, .defd⟩ : DItv), (⟨⟨(f 3 0), (f 4 0)⟩, .trv⟩ : DItv)]))),
    .call ((Cmd.run (.opD [(⟨⟨(f 1 0), (f 2 0)⟩, .dac⟩ : DItv), (⟨⟨(f 3 0), (f 4 0)⟩, .defd⟩ : DItv)]))),
    .call ((Cmd.run (.opD [(⟨⟨(f 1 0), (f 2 0)⟩, .dac⟩ : DItv), (⟨⟨(f 3 0), (f 3 0)⟩, .dac⟩ : DItv)]))),
    .call ((Cmd.run (.opD [(⟨⟨(f 2 0), (f 2 0)⟩, .defd⟩ : DItv), (⟨⟨(f 3 0), (f 3 0)⟩, .com⟩ : DItv)]))),
    .call ((Cmd.run (.opD [(⟨⟨(f 1 0), (f 2 0)⟩, .trv⟩ : DItv), (⟨⟨(f 2 0), (f 3 0)⟩, .dac⟩ : DItv)]))),
    .call ((Cmd.run (.opD [(⟨⟨(f 1 0), (f 2 0)⟩, .trv⟩ : DItv), (⟨⟨(f (3) (-1)), (f (5) (-1))⟩, .dac⟩ : DItv)]))),
    .call ((Cmd.run (.opD [(⟨⟨(f 1 0), (f 2 0)⟩, .defd⟩ : DItv), (⟨⟨(f 1 0), (f 3 0)⟩, .trv⟩ : DItv)]))),
    .call ((Cmd.run (.opD [(⟨⟨(f 1 0), (f 1 0)⟩, .dac⟩ : DItv), (⟨⟨(f 1 0), (f 3 0)⟩, .com⟩ : DItv)]))),
    .call ((Cmd.run (.opD [(⟨⟨(f 1 0), (f 2 0)⟩, .com⟩ : DItv), (⟨⟨(f 0 0), (f 3 0)⟩, .defd⟩ : DItv)]))),
    .call ((Cmd.run (.opD [(⟨⟨(f 2 0), (f 2 0)⟩, .com⟩ : DItv), (⟨⟨(f 0 0), (f 3 0)⟩, .dac⟩ : DItv)]))),
    .call ((Cmd.run (.opD [(⟨⟨(f 1 0), (f 2 0)⟩, .dac⟩ : DItv), (⟨⟨(f 0 0), (f 2 0)⟩, .dac⟩ : DItv)]))),
    .call ((Cmd.run (.opD [(⟨⟨(f 2 0), (f 2 0)⟩, .defd⟩ : DItv), (⟨⟨(f 0 0), (f 2 0)⟩, .dac⟩ : DItv)]))),
    .call ((Cmd.run (.opD [(⟨⟨(f 1 0), (f 2 0)⟩, .trv⟩ : DItv), (⟨⟨(f 1 0), (f 2 0)⟩, .defd⟩ : DItv)]))),
    .call ((Cmd.run (.opD [(⟨⟨(f 1 0), (f 1 0)⟩, .defd⟩ : DItv), (⟨⟨(f 1 0), (f 1 0)⟩, .trv⟩ : DItv)]))),
    .call ((Cmd.run (.opD [(⟨⟨(f 3 0), (f 4 0)⟩, .dac⟩ : DItv), (⟨⟨(f 2 0), (f 2 0)⟩, .defd⟩ : DItv)]))),
    .call ((Cmd.run (.opD [(⟨⟨(f 3 0), (f 4 0)⟩, .defd⟩ : DItv), (⟨⟨(f 1 0), (f 2 0)⟩, .com⟩ : DItv)]))),
    .call ((Cmd.run (.opD [(⟨⟨(f 3 0), (f 3 0)⟩, .dac⟩ : DItv), (⟨⟨(f 1 0), (f 2 0)⟩, .com⟩ : DItv)]))),
    .call ((Cmd.run (.opD [(⟨⟨(f 3 0), (f 3 0)⟩, .defd⟩ : DItv), (⟨⟨(f 2 0), (f 2 0)⟩, .defd⟩ : DItv)]))),
    .call ((Cmd.run (.opD [(⟨⟨(f 2 0), (f 3 0)⟩, .com⟩ : DItv), (⟨⟨(f 1 0), (f 2 0)⟩, .dac⟩ : DItv)]))),
    .call ((Cmd.run (.opD [(⟨⟨(f (3) (-1)), (f (5) (-1))⟩, .defd⟩ : DItv), (⟨⟨(f 1 0), (f 2 0)⟩, .defd⟩ : DItv)]))),
    .call ((Cmd.run (.opD [(⟨⟨(f 1 0), (f 3 0)⟩, .com⟩ : DItv), (⟨⟨(f 1 0), (f 2 0)⟩, .defd⟩ : DItv)]))),
    .call ((Cmd.run (.opD [(⟨⟨(f 1 0), (f 3 0)⟩, .com⟩ : DItv), (⟨⟨(f 1 0), (f 1 0)⟩, .dac⟩ : DItv)]))),
    .call ((Cmd.run (.opD [(⟨⟨(f 0 0), (f 3 0)⟩, .defd⟩ : DItv), (⟨⟨(f 1 0), (f 2 0)⟩, .com⟩ : DItv)]))),
    .call ((Cmd.run (.opD [(⟨⟨(f 0 0), (f 3 0)⟩, .trv⟩ : DItv), (⟨⟨(f 2 0), (f 2 0)⟩, .trv⟩ : DItv)]))),
    .call ((Cmd.run (.opD [(⟨⟨(f 0 0), (f 2 0)⟩, .dac⟩ : DItv), (⟨⟨(f 1 0), (f 2 0)⟩, .dac⟩ : DItv)]))),
    .call ((Cmd.run (.opD [(⟨⟨(f 0 0), (f 2 0)⟩, .dac⟩ : DItv), (⟨⟨(f 2 0), (f 2 0)⟩, .defd⟩ : DItv)]))),
    .state 309 [],
    .call clearFlags,
    .call ((Cmd.run (.opD [(⟨⟨(f 1 0), (f (-5404319552844595) (-51))⟩, .dac⟩ : DItv), (⟨⟨(f 1 0), (f 2 0)⟩, .dac⟩ : DItv)]))),
    .state 313 [.invalidOperand],
    .call clearFlags,
    .call (setCwd (bitsOf [.invalidOperand])),
    .throws 316 ((Cmd.run (.opD [(⟨⟨(f 1 0), (f (5404319552844595) (-51))⟩, .trv⟩ : DItv), (⟨⟨(f 1 0), (f (-2) (0))⟩, .trv⟩ : DItv)]))) .invalidOperand,
    .state 317 [.invalidOperand],
    .call clearFlags,
    .call (setCwd (bitsOf []))] ExSt.init = [] := by
  decide +kernel

end P1788.Conform
