import Verif.Conform.Basic

/-!
# Conformance: bool_func, exceptions

Generated from `/repo/test/p1788/flavor/infsup/setbased/test_mpfr_bin_ieee754_flavor_bool_func.cpp`: the assertions of the project's own test suite, evaluated in the
model by the kernel.  Each test case is the list of its calls and of its
assertions, with their lines, about the exception flags and about thrown exceptions.  These are tests of the model, not proofs of
properties.
-/

set_option maxRecDepth 100000

namespace P1788.Conform

/-- `minimal_is_empty_test` -/
example : failed [
    .call clearFlags,
    .call ((Cmd.run (.op [(⟨.nan, .nan⟩ : Itv)]))),
    .call ((Cmd.run (.op [(⟨.ninf, .pinf⟩ : Itv)]))),
    .call ((Cmd.run (.op [(⟨(f 1 0), (f 2 0)⟩ : Itv)]))),
    .call ((Cmd.run (.op [(⟨(f (-1) (0)), (f 2 0)⟩ : Itv)]))),
    .call ((Cmd.run (.op [(⟨(f (-3) (0)), (f (-2) (0))⟩ : Itv)]))),
    .call ((Cmd.run (.op [(⟨.ninf, (f 2 0)⟩ : Itv)]))),
    .call ((Cmd.run (.op [(⟨.ninf, (f 0 0)⟩ : Itv)]))),
    .call ((Cmd.run (.op [(⟨.ninf, .nzero⟩ : Itv)]))),
    .call ((Cmd.run (.op [(⟨(f 0 0), .pinf⟩ : Itv)]))),
    .call ((Cmd.run (.op [(⟨.nzero, .pinf⟩ : Itv)]))),
    .call ((Cmd.run (.op [(⟨.nzero, (f 0 0)⟩ : Itv)]))),
    .call ((Cmd.run (.op [(⟨(f 0 0), .nzero⟩ : Itv)]))),
    .call ((Cmd.run (.op [(⟨(f 0 0), (f 0 0)⟩ : Itv)]))),
    .call ((Cmd.run (.op [(⟨.nzero, .nzero⟩ : Itv)]))),
    .state 71 [],
    .call clearFlags,
    .call ((Cmd.run (.op [(⟨(f 1 0), (f (-2) (0))⟩ : Itv)]))),
    .state 75 [.invalidOperand],
    .call clearFlags,
    .call (setCwd (bitsOf [.invalidOperand])),
    .throws 78 ((Cmd.run (.op [(⟨(f 1 0), (f (-2) (0))⟩ : Itv)]))) .invalidOperand,
    .state 79 [.invalidOperand],
    .call clearFlags,
    .call (setCwd (bitsOf []))] ExSt.init = [] := by
  decide +kernel

/-- `minimal_is_empty_dec_test` -/
example : failed [
    .call clearFlags,
    .call ((Cmd.run (.opD [(⟨⟨.nan, .nan⟩, .ill⟩ : DItv)]))),
    .call ((Cmd.run (.opD [(⟨⟨.nan, .nan⟩, .trv⟩ : DItv)]))),
    .call ((Cmd.run (.opD [(⟨⟨.ninf, .pinf⟩, .defd⟩ : DItv)]))),
    .call ((Cmd.run (.opD [(⟨⟨(f 1 0), (f 2 0)⟩, .com⟩ : DItv)]))),
    .call ((Cmd.run (.opD [(⟨⟨(f (-1) (0)), (f 2 0)⟩, .trv⟩ : DItv)]))),
    .call ((Cmd.run (.opD [(⟨⟨(f (-3) (0)), (f (-2) (0))⟩, .dac⟩ : DItv)]))),
    .call ((Cmd.run (.opD [(⟨⟨.ninf, (f 2 0)⟩, .trv⟩ : DItv)]))),
    .call ((Cmd.run (.opD [(⟨⟨.ninf, (f 0 0)⟩, .trv⟩ : DItv)]))),
    .call ((Cmd.run (.opD [(⟨⟨.ninf, .nzero⟩, .trv⟩ : DItv)]))),
    .call ((Cmd.run (.opD [(⟨⟨(f 0 0), .pinf⟩, .defd⟩ : DItv)]))),
    .call ((Cmd.run (.opD [(⟨⟨.nzero, .pinf⟩, .trv⟩ : DItv)]))),
    .call ((Cmd.run (.opD [(⟨⟨.nzero, (f 0 0)⟩, .com⟩ : DItv)]))),
    .call ((Cmd.run (.opD [(⟨⟨(f 0 0), .nzero⟩, .trv⟩ : DItv)]))),
    .call ((Cmd.run (.opD [(⟨⟨(f 0 0), (f 0 0)⟩, .trv⟩ : DItv)]))),
    .call ((Cmd.run (.opD [(⟨⟨.nzero, .nzero⟩, .trv⟩ : DItv)]))),
    .state 104 [],
    .call clearFlags,
    .call ((Cmd.run (.opD [(⟨⟨(f 1 0), (f (-2) (0))⟩, .com⟩ : DItv)]))),
    .state 108 [.invalidOperand],
    .call clearFlags,
    .call (setCwd (bitsOf [.invalidOperand])),
    .throws 111 ((Cmd.run (.opD [(⟨⟨(f 1 0), (f (-2) (0))⟩, .com⟩ : DItv)]))) .invalidOperand,
    .state 112 [.invalidOperand],
    .call clearFlags,
    .call (setCwd (bitsOf []))] ExSt.init = [] := by
  decide +kernel

/-- `minimal_is_entire_test` -/
example : failed [
    .call clearFlags,
    .call ((Cmd.run (.op [(⟨.nan, .nan⟩ : Itv)]))),
    .call ((Cmd.run (.op [(⟨.ninf, .pinf⟩ : Itv)]))),
    .call ((Cmd.run (.op [(⟨(f 1 0), (f 2 0)⟩ : Itv)]))),
    .call ((Cmd.run (.op [(⟨(f (-1) (0)), (f 2 0)⟩ : Itv)]))),
    .call ((Cmd.run (.op [(⟨(f (-3) (0)), (f (-2) (0))⟩ : Itv)]))),
    .call ((Cmd.run (.op [(⟨.ninf, (f 2 0)⟩ : Itv)]))),
    .call ((Cmd.run (.op [(⟨.ninf, (f 0 0)⟩ : Itv)]))),
    .call ((Cmd.run (.op [(⟨.ninf, .nzero⟩ : Itv)]))),
    .call ((Cmd.run (.op [(⟨(f 0 0), .pinf⟩ : Itv)]))),
    .call ((Cmd.run (.op [(⟨.nzero, .pinf⟩ : Itv)]))),
    .call ((Cmd.run (.op [(⟨.nzero, (f 0 0)⟩ : Itv)]))),
    .call ((Cmd.run (.op [(⟨(f 0 0), .nzero⟩ : Itv)]))),
    .call ((Cmd.run (.op [(⟨(f 0 0), (f 0 0)⟩ : Itv)]))),
    .call ((Cmd.run (.op [(⟨.nzero, .nzero⟩ : Itv)]))),
    .state 136 [],
    .call clearFlags,
    .call ((Cmd.run (.op [(⟨(f (-1) (0)), (f (-2) (0))⟩ : Itv)]))),
    .state 140 [.invalidOperand],
    .call clearFlags,
    .call (setCwd (bitsOf [.invalidOperand])),
    .throws 143 ((Cmd.run (.op [(⟨(f (-1) (0)), (f (-2) (0))⟩ : Itv)]))) .invalidOperand,
    .state 144 [.invalidOperand],
    .call clearFlags,
    .call (setCwd (bitsOf []))] ExSt.init = [] := by
  decide +kernel

/-- `minimal_is_entire_dec_test` -/
example : failed [
    .call clearFlags,
    .call ((Cmd.run (.opD [(⟨⟨.nan, .nan⟩, .ill⟩ : DItv)]))),
    .call ((Cmd.run (.opD [(⟨⟨.nan, .nan⟩, .trv⟩ : DItv)]))),
    .call ((Cmd.run (.opD [(⟨⟨.ninf, .pinf⟩, .trv⟩ : DItv)]))),
    .call ((Cmd.run (.opD [(⟨⟨.ninf, .pinf⟩, .defd⟩ : DItv)]))),
    .call ((Cmd.run (.opD [(⟨⟨.ninf, .pinf⟩, .dac⟩ : DItv)]))),
    .call ((Cmd.run (.opD [(⟨⟨(f 1 0), (f 2 0)⟩, .com⟩ : DItv)]))),
    .call ((Cmd.run (.opD [(⟨⟨(f (-1) (0)), (f 2 0)⟩, .trv⟩ : DItv)]))),
    .call ((Cmd.run (.opD [(⟨⟨(f (-3) (0)), (f (-2) (0))⟩, .dac⟩ : DItv)]))),
    .call ((Cmd.run (.opD [(⟨⟨.ninf, (f 2 0)⟩, .trv⟩ : DItv)]))),
    .call ((Cmd.run (.opD [(⟨⟨.ninf, (f 0 0)⟩, .trv⟩ : DItv)]))),
    .call ((Cmd.run (.opD [(⟨⟨.ninf, .nzero⟩, .trv⟩ : DItv)]))),
    .call ((Cmd.run (.opD [(⟨⟨(f 0 0), .pinf⟩, .defd⟩ : DItv)]))),
    .call ((Cmd.run (.opD [(⟨⟨.nzero, .pinf⟩, .trv⟩ : DItv)]))),
    .call ((Cmd.run (.opD [(⟨⟨.nzero, (f 0 0)⟩, .com⟩ : DItv)]))),
    .call ((Cmd.run (.opD [(⟨⟨(f 0 0), .nzero⟩, .trv⟩ : DItv)]))),
    .call ((Cmd.run (.opD [(⟨⟨(f 0 0), (f 0 0)⟩, .trv⟩ : DItv)]))),
    .call ((Cmd.run (.opD [(⟨⟨.nzero, .nzero⟩, .trv⟩ : DItv)]))),
    .state 171 [],
    .call clearFlags,
    .call ((Cmd.run (.opD [(⟨⟨(f 1 0), (f (-2) (0))⟩, .com⟩ : DItv)]))),
    .state 175 [.invalidOperand],
    .call clearFlags,
    .call (setCwd (bitsOf [.invalidOperand])),
    .throws 178 ((Cmd.run (.opD [(⟨⟨(f 1 0), (f (-2) (0))⟩, .com⟩ : DItv)]))) .invalidOperand,
    .state 179 [.invalidOperand],
    .call clearFlags,
    .call (setCwd (bitsOf []))] ExSt.init = [] := by
  decide +kernel

/-- `minimal_is_nai_dec_test` -/
example : failed [
    .call clearFlags,
    .call ((Cmd.run (.opD [(⟨⟨.nan, .nan⟩, .ill⟩ : DItv)]))),
    .call ((Cmd.run (.opD [(⟨⟨.nan, .nan⟩, .trv⟩ : DItv)]))),
    .call ((Cmd.run (.opD [(⟨⟨.ninf, .pinf⟩, .trv⟩ : DItv)]))),
    .call ((Cmd.run (.opD [(⟨⟨.ninf, .pinf⟩, .defd⟩ : DItv)]))),
    .call ((Cmd.run (.opD [(⟨⟨.ninf, .pinf⟩, .dac⟩ : DItv)]))),
    .call ((Cmd.run (.opD [(⟨⟨(f 1 0), (f 2 0)⟩, .com⟩ : DItv)]))),
    .call ((Cmd.run (.opD [(⟨⟨(f (-1) (0)), (f 2 0)⟩, .trv⟩ : DItv)]))),
    .call ((Cmd.run (.opD [(⟨⟨(f (-3) (0)), (f (-2) (0))⟩, .dac⟩ : DItv)]))),
    .call ((Cmd.run (.opD [(⟨⟨.ninf, (f 2 0)⟩, .trv⟩ : DItv)]))),
    .call ((Cmd.run (.opD [(⟨⟨.ninf, (f 0 0)⟩, .trv⟩ : DItv)]))),
    .call ((Cmd.run (.opD [(⟨⟨.ninf, .nzero⟩, .trv⟩ : DItv)]))),
    .call ((Cmd.run (.opD [(⟨⟨(f 0 0), .pinf⟩, .defd⟩ : DItv)]))),
    .call ((Cmd.run (.opD [(⟨⟨.nzero, .pinf⟩, .trv⟩ : DItv)]))),
    .call ((Cmd.run (.opD [(⟨⟨.nzero, (f 0 0)⟩, .com⟩ : DItv)]))),
    .call ((Cmd.run (.opD [(⟨⟨(f 0 0), .nzero⟩, .trv⟩ : DItv)]))),
    .call ((Cmd.run (.opD [(⟨⟨(f 0 0), (f 0 0)⟩, .trv⟩ : DItv)]))),
    .call ((Cmd.run (.opD [(⟨⟨.nzero, .nzero⟩, .trv⟩ : DItv)]))),
    .state 206 [],
    .call clearFlags,
    .call ((Cmd.run (.opD [(⟨⟨(f (-1) (0)), (f (-2) (0))⟩, .trv⟩ : DItv)]))),
    .state 210 [.invalidOperand],
    .call clearFlags,
    .call (setCwd (bitsOf [.invalidOperand])),
    .throws 213 ((Cmd.run (.opD [(⟨⟨(f (-1) (0)), (f (-2) (0))⟩, .trv⟩ : DItv)]))) .invalidOperand,
    .state 214 [.invalidOperand],
    .call clearFlags,
    .call (setCwd (bitsOf []))] ExSt.init = [] := by
  decide +kernel

/-- `minimal_equal_test` -/
example : failed [
    .call clearFlags,
    .call ((Cmd.run (.op [(⟨(f 1 0), (f 2 0)⟩ : Itv), (⟨(f 1 0), (f 2 0)⟩ : Itv)]))),
    .call ((Cmd.run (.op [(⟨(f 1 0), (f (4728779608739021) (-51))⟩ : Itv), (⟨(f 1 0), (f 2 0)⟩ : Itv)]))),
    .call ((Cmd.run (.op [(⟨.nan, .nan⟩ : Itv), (⟨.nan, .nan⟩ : Itv)]))),
    .call ((Cmd.run (.op [(⟨.nan, .nan⟩ : Itv), (⟨(f 1 0), (f 2 0)⟩ : Itv)]))),
    .call ((Cmd.run (.op [(⟨.ninf, .pinf⟩ : Itv), (⟨.ninf, .pinf⟩ : Itv)]))),
    .call ((Cmd.run (.op [(⟨(f 1 0), (f (5404319552844595) (-51))⟩ : Itv), (⟨.ninf, .pinf⟩ : Itv)]))),
    .call ((Cmd.run (.op [(⟨(f 1 0), .pinf⟩ : Itv), (⟨(f 1 0), .pinf⟩ : Itv)]))),
    .call ((Cmd.run (.op [(⟨(f 1 0), (f (5404319552844595) (-51))⟩ : Itv), (⟨(f 1 0), .pinf⟩ : Itv)]))),
    .call ((Cmd.run (.op [(⟨.ninf, (f 2 0)⟩ : Itv), (⟨.ninf, (f 2 0)⟩ : Itv)]))),
    .call ((Cmd.run (.op [(⟨.ninf, (f (5404319552844595) (-51))⟩ : Itv), (⟨.ninf, (f 2 0)⟩ : Itv)]))),
    .call ((Cmd.run (.op [(⟨(f (-2) (0)), (f 0 0)⟩ : Itv), (⟨(f (-2) (0)), (f 0 0)⟩ : Itv)]))),
    .call ((Cmd.run (.op [(⟨.nzero, (f 2 0)⟩ : Itv), (⟨(f 0 0), (f 2 0)⟩ : Itv)]))),
    .call ((Cmd.run (.op [(⟨.nzero, .nzero⟩ : Itv), (⟨(f 0 0), (f 0 0)⟩ : Itv)]))),
    .call ((Cmd.run (.op [(⟨.nzero, (f 0 0)⟩ : Itv), (⟨(f 0 0), (f 0 0)⟩ : Itv)]))),
    .call ((Cmd.run (.op [(⟨(f 0 0), .nzero⟩ : Itv), (⟨(f 0 0), (f 0 0)⟩ : Itv)]))),
    .state 239 [],
    .call clearFlags,
    .call ((Cmd.run (.op [(⟨(f 1 0), (f (-5404319552844595) (-51))⟩ : Itv), (⟨.ninf, .pinf⟩ : Itv)]))),
    .state 243 [.invalidOperand],
    .call clearFlags,
    .call (setCwd (bitsOf [.invalidOperand])),
    .throws 246 ((Cmd.run (.op [(⟨(f 1 0), (f (5404319552844595) (-51))⟩ : Itv), (⟨.ninf, .ninf⟩ : Itv)]))) .invalidOperand,
    .state 247 [.invalidOperand],
    .call clearFlags,
    .call (setCwd (bitsOf []))] ExSt.init = [] := by
  decide +kernel

/-- `minimal_equal_mixedtype_test` -/
example : failed [
    .call clearFlags,
    .call ((Cmd.run (.op [(⟨(f 1 0), (f 2 0)⟩ : Itv), (⟨(f 1 0), (f 2 0)⟩ : Itv)]))),
    .call ((Cmd.run (.op [(⟨(f 1 0), (f (4728779608739021) (-51))⟩ : Itv), (⟨(f 1 0), (f 2 0)⟩ : Itv)]))),
    .call ((Cmd.run (.op [(⟨.nan, .nan⟩ : Itv), (⟨.nan, .nan⟩ : Itv)]))),
    .call ((Cmd.run (.op [(⟨.nan, .nan⟩ : Itv), (⟨(f 1 0), (f 2 0)⟩ : Itv)]))),
    .call ((Cmd.run (.op [(⟨.ninf, .pinf⟩ : Itv), (⟨.ninf, .pinf⟩ : Itv)]))),
    .call ((Cmd.run (.op [(⟨(f 1 0), (f (5404319552844595) (-51))⟩ : Itv), (⟨.ninf, .pinf⟩ : Itv)]))),
    .call ((Cmd.run (.op [(⟨(f 1 0), .pinf⟩ : Itv), (⟨(f 1 0), .pinf⟩ : Itv)]))),
    .call ((Cmd.run (.op [(⟨(f 1 0), (f (5404319552844595) (-51))⟩ : Itv), (⟨(f 1 0), .pinf⟩ : Itv)]))),
    .call ((Cmd.run (.op [(⟨.ninf, (f 2 0)⟩ : Itv), (⟨.ninf, (f 2 0)⟩ : Itv)]))),
    .call ((Cmd.run (.op [(⟨.ninf, (f (5404319552844595) (-51))⟩ : Itv), (⟨.ninf, (f 2 0)⟩ : Itv)]))),
    .call ((Cmd.run (.op [(⟨(f (-2) (0)), (f 0 0)⟩ : Itv), (⟨(f (-2) (0)), (f 0 0)⟩ : Itv)]))),
    .call ((Cmd.run (.op [(⟨.nzero, (f 2 0)⟩ : Itv), (⟨(f 0 0), (f 2 0)⟩ : Itv)]))),
    .call ((Cmd.run (.op [(⟨.nzero, .nzero⟩ : Itv), (⟨(f 0 0), (f 0 0)⟩ : Itv)]))),
    .call ((Cmd.run (.op [(⟨.nzero, (f 0 0)⟩ : Itv), (⟨(f 0 0), (f 0 0)⟩ : Itv)]))),
    .call ((Cmd.run (.op [(⟨(f 0 0), .nzero⟩ : Itv), (⟨(f 0 0), (f 0 0)⟩ : Itv)]))),
    .state 272 [],
    .call clearFlags,
    .call ((Cmd.run (.op [(⟨(f 1 0), (f (-5404319552844595) (-51))⟩ : Itv), (⟨.ninf, .pinf⟩ : Itv)]))),
    .state 276 [.invalidOperand],
    .call clearFlags,
    .call (setCwd (bitsOf [.invalidOperand])),
    .throws 279 ((Cmd.run (.op [(⟨(f 1 0), (f (5404319552844595) (-51))⟩ : Itv), (⟨.pinf, .pinf⟩ : Itv)]))) .invalidOperand,
    .state 280 [.invalidOperand],
    .call clearFlags,
    .call (setCwd (bitsOf [])),
    .call ((Cmd.run (.op [(⟨(f 1 0), (f 2 0)⟩ : Itv), (⟨(f 1 0), (f 2 0)⟩ : Itv)]))),
    .call ((Cmd.run (.op [(⟨(f 1 0), (f (4404019) (-21))⟩ : Itv), (⟨(f 1 0), (f 2 0)⟩ : Itv)]))),
    .call ((Cmd.run (.op [(⟨.nan, .nan⟩ : Itv), (⟨.nan, .nan⟩ : Itv)]))),
    .call ((Cmd.run (.op [(⟨.nan, .nan⟩ : Itv), (⟨(f 1 0), (f 2 0)⟩ : Itv)]))),
    .call ((Cmd.run (.op [(⟨.ninf, .pinf⟩ : Itv), (⟨.ninf, .pinf⟩ : Itv)]))),
    .call ((Cmd.run (.op [(⟨(f 1 0), (f (5033165) (-21))⟩ : Itv), (⟨.ninf, .pinf⟩ : Itv)]))),
    .call ((Cmd.run (.op [(⟨(f 1 0), .pinf⟩ : Itv), (⟨(f 1 0), .pinf⟩ : Itv)]))),
    .call ((Cmd.run (.op [(⟨(f 1 0), (f (5033165) (-21))⟩ : Itv), (⟨(f 1 0), .pinf⟩ : Itv)]))),
    .call ((Cmd.run (.op [(⟨.ninf, (f 2 0)⟩ : Itv), (⟨.ninf, (f 2 0)⟩ : Itv)]))),
    .call ((Cmd.run (.op [(⟨.ninf, (f (5033165) (-21))⟩ : Itv), (⟨.ninf, (f 2 0)⟩ : Itv)]))),
    .call ((Cmd.run (.op [(⟨(f (-2) (0)), (f 0 0)⟩ : Itv), (⟨(f (-2) (0)), (f 0 0)⟩ : Itv)]))),
    .call ((Cmd.run (.op [(⟨.nzero, (f 2 0)⟩ : Itv), (⟨(f 0 0), (f 2 0)⟩ : Itv)]))),
    .call ((Cmd.run (.op [(⟨.nzero, .nzero⟩ : Itv), (⟨(f 0 0), (f 0 0)⟩ : Itv)]))),
    .call ((Cmd.run (.op [(⟨.nzero, (f 0 0)⟩ : Itv), (⟨(f 0 0), (f 0 0)⟩ : Itv)]))),
    .call ((Cmd.run (.op [(⟨(f 0 0), .nzero⟩ : Itv), (⟨(f 0 0), (f 0 0)⟩ : Itv)]))),
    .state 300 [],
    .call clearFlags,
    .call ((Cmd.run (.op [(⟨.pinf, (f (-5033165) (-21))⟩ : Itv), (⟨.ninf, (f 2 0)⟩ : Itv)]))),
    .state 304 [.invalidOperand],
    .call clearFlags,
    .call (setCwd (bitsOf [.invalidOperand])),
    .throws 307 ((Cmd.run (.op [(⟨.ninf, (f (5033165) (-21))⟩ : Itv), (⟨.pinf, (f 2 0)⟩ : Itv)]))) .invalidOperand,
    .state 308 [.invalidOperand],
    .call clearFlags,
    .call (setCwd (bitsOf []))] ExSt.init = [] := by
  decide +kernel

/-- `minimal_equal_dec_test` -/
example : failed [
    .call clearFlags,
    .call ((Cmd.run (.opD [(⟨⟨(f 1 0), (f 2 0)⟩, .defd⟩ : DItv), (⟨⟨(f 1 0), (f 2 0)⟩, .trv⟩ : DItv)]))),
    .call ((Cmd.run (.opD [(⟨⟨(f 1 0), (f (4728779608739021) (-51))⟩, .trv⟩ : DItv), (⟨⟨(f 1 0), (f 2 0)⟩, .trv⟩ : DItv)]))),
    .call ((Cmd.run (.opD [(⟨⟨.nan, .nan⟩, .trv⟩ : DItv), (⟨⟨.nan, .nan⟩, .trv⟩ : DItv)]))),
    .call ((Cmd.run (.opD [(⟨⟨.nan, .nan⟩, .trv⟩ : DItv), (⟨⟨.nan, .nan⟩, .ill⟩ : DItv)]))),
    .call ((Cmd.run (.opD [(⟨⟨.nan, .nan⟩, .ill⟩ : DItv), (⟨⟨.nan, .nan⟩, .trv⟩ : DItv)]))),
    .call ((Cmd.run (.opD [(⟨⟨.nan, .nan⟩, .ill⟩ : DItv), (⟨⟨.nan, .nan⟩, .ill⟩ : DItv)]))),
    .call ((Cmd.run (.opD [(⟨⟨.nan, .nan⟩, .trv⟩ : DItv), (⟨⟨(f 1 0), (f 2 0)⟩, .trv⟩ : DItv)]))),
    .call ((Cmd.run (.opD [(⟨⟨.nan, .nan⟩, .ill⟩ : DItv), (⟨⟨(f 1 0), (f 2 0)⟩, .trv⟩ : DItv)]))),
    .call ((Cmd.run (.opD [(⟨⟨.ninf, .pinf⟩, .defd⟩ : DItv), (⟨⟨.ninf, .pinf⟩, .trv⟩ : DItv)]))),
    .call ((Cmd.run (.opD [(⟨⟨(f 1 0), (f (5404319552844595) (-51))⟩, .trv⟩ : DItv), (⟨⟨.ninf, .pinf⟩, .trv⟩ : DItv)]))),
    .call ((Cmd.run (.opD [(⟨⟨(f 1 0), .pinf⟩, .trv⟩ : DItv), (⟨⟨(f 1 0), .pinf⟩, .trv⟩ : DItv)]))),
    .call ((Cmd.run (.opD [(⟨⟨(f 1 0), (f (5404319552844595) (-51))⟩, .defd⟩ : DItv), (⟨⟨(f 1 0), .pinf⟩, .trv⟩ : DItv)]))),
    .call ((Cmd.run (.opD [(⟨⟨.ninf, (f 2 0)⟩, .trv⟩ : DItv), (⟨⟨.ninf, (f 2 0)⟩, .trv⟩ : DItv)]))),
    .call ((Cmd.run (.opD [(⟨⟨.ninf, (f (5404319552844595) (-51))⟩, .defd⟩ : DItv), (⟨⟨.ninf, (f 2 0)⟩, .trv⟩ : DItv)]))),
    .call ((Cmd.run (.opD [(⟨⟨(f (-2) (0)), (f 0 0)⟩, .trv⟩ : DItv), (⟨⟨(f (-2) (0)), (f 0 0)⟩, .trv⟩ : DItv)]))),
    .call ((Cmd.run (.opD [(⟨⟨.nzero, (f 2 0)⟩, .defd⟩ : DItv), (⟨⟨(f 0 0), (f 2 0)⟩, .trv⟩ : DItv)]))),
    .call ((Cmd.run (.opD [(⟨⟨.nzero, .nzero⟩, .trv⟩ : DItv), (⟨⟨(f 0 0), (f 0 0)⟩, .trv⟩ : DItv)]))),
    .call ((Cmd.run (.opD [(⟨⟨.nzero, (f 0 0)⟩, .defd⟩ : DItv), (⟨⟨(f 0 0), (f 0 0)⟩, .trv⟩ : DItv)]))),
    .call ((Cmd.run (.opD [(⟨⟨(f 0 0), .nzero⟩, .trv⟩ : DItv), (⟨⟨(f 0 0), (f 0 0)⟩, .trv⟩ : DItv)]))),
    .state 337 [],
    .call clearFlags,
    .call ((Cmd.run (.opD [(⟨⟨.ninf, (f (5404319552844595) (-51))⟩, .defd⟩ : DItv), (⟨⟨.pinf, (f 2 0)⟩, .trv⟩ : DItv)]))),
    .state 341 [.invalidOperand],
    .call clearFlags,
    .call (setCwd (bitsOf [.invalidOperand])),
    .throws 344 ((Cmd.run (.opD [(⟨⟨.pinf, (f (5404319552844595) (-51))⟩, .defd⟩ : DItv), (⟨⟨.ninf, (f 2 0)⟩, .trv⟩ : DItv)]))) .invalidOperand,
    .state 345 [.invalidOperand],
    .call clearFlags,
    .call (setCwd (bitsOf []))] ExSt.init = [] := by
  decide +kernel

/-- `minimal_equal_dec_mixedtype_test` -/
example : failed [
    .call clearFlags,
    .call ((Cmd.run (.opD [(⟨⟨(f 1 0), (f 2 0)⟩, .com⟩ : DItv), (⟨⟨(f 1 0), (f 2 0)⟩, .trv⟩ : DItv)]))),
    .call ((Cmd.run (.opD [(⟨⟨(f 1 0), (f (4728779608739021) (-51))⟩, .trv⟩ : DItv), (⟨⟨(f 1 0), (f 2 0)⟩, .trv⟩ : DItv)]))),
    .call ((Cmd.run (.opD [(⟨⟨.nan, .nan⟩, .trv⟩ : DItv), (⟨⟨.nan, .nan⟩, .trv⟩ : DItv)]))),
    .call ((Cmd.run (.opD [(⟨⟨.nan, .nan⟩, .trv⟩ : DItv), (⟨⟨.nan, .nan⟩, .ill⟩ : DItv)]))),
    .call ((Cmd.run (.opD [(⟨⟨.nan, .nan⟩, .ill⟩ : DItv), (⟨⟨.nan, .nan⟩, .trv⟩ : DItv)]))),
    .call ((Cmd.run (.opD [(⟨⟨.nan, .nan⟩, .ill⟩ : DItv), (⟨⟨.nan, .nan⟩, .ill⟩ : DItv)]))),
    .call ((Cmd.run (.opD [(⟨⟨.nan, .nan⟩, .trv⟩ : DItv), (⟨⟨(f 1 0), (f 2 0)⟩, .trv⟩ : DItv)]))),
    .call ((Cmd.run (.opD [(⟨⟨.nan, .nan⟩, .ill⟩ : DItv), (⟨⟨(f 1 0), (f 2 0)⟩, .trv⟩ : DItv)]))),
    .call ((Cmd.run (.opD [(⟨⟨.ninf, .pinf⟩, .trv⟩ : DItv), (⟨⟨.ninf, .pinf⟩, .defd⟩ : DItv)]))),
    .call ((Cmd.run (.opD [(⟨⟨(f 1 0), (f (5404319552844595) (-51))⟩, .defd⟩ : DItv), (⟨⟨.ninf, .pinf⟩, .trv⟩ : DItv)]))),
    .call ((Cmd.run (.opD [(⟨⟨(f 1 0), .pinf⟩, .trv⟩ : DItv), (⟨⟨(f 1 0), .pinf⟩, .trv⟩ : DItv)]))),
    .call ((Cmd.run (.opD [(⟨⟨(f 1 0), (f (5404319552844595) (-51))⟩, .trv⟩ : DItv), (⟨⟨(f 1 0), .pinf⟩, .trv⟩ : DItv)]))),
    .call ((Cmd.run (.opD [(⟨⟨.ninf, (f 2 0)⟩, .trv⟩ : DItv), (⟨⟨.ninf, (f 2 0)⟩, .trv⟩ : DItv)]))),
    .call ((Cmd.run (.opD [(⟨⟨.ninf, (f (5404319552844595) (-51))⟩, .trv⟩ : DItv), (⟨⟨.ninf, (f 2 0)⟩, .trv⟩ : DItv)]))),
    .call ((Cmd.run (.opD [(⟨⟨(f (-2) (0)), (f 0 0)⟩, .trv⟩ : DItv), (⟨⟨(f (-2) (0)), (f 0 0)⟩, .trv⟩ : DItv)]))),
    .call ((Cmd.run (.opD [(⟨⟨.nzero, (f 2 0)⟩, .trv⟩ : DItv), (⟨⟨(f 0 0), (f 2 0)⟩, .trv⟩ : DItv)]))),
    .call ((Cmd.run (.opD [(⟨⟨.nzero, .nzero⟩, .defd⟩ : DItv), (⟨⟨(f 0 0), (f 0 0)⟩, .trv⟩ : DItv)]))),
    .call ((Cmd.run (.opD [(⟨⟨.nzero, (f 0 0)⟩, .trv⟩ : DItv), (⟨⟨(f 0 0), (f 0 0)⟩, .dac⟩ : DItv)]))),
    .call ((Cmd.run (.opD [(⟨⟨(f 0 0), .nzero⟩, .com⟩ : DItv), (⟨⟨(f 0 0), (f 0 0)⟩, .defd⟩ : DItv)]))),
    .state 374 [],
    .call clearFlags,
    .call ((Cmd.run (.opD [(⟨⟨.pinf, (f (5404319552844595) (-51))⟩, .trv⟩ : DItv), (⟨⟨.ninf, (f 2 0)⟩, .trv⟩ : DItv)]))),
    .state 378 [.invalidOperand],
    .call clearFlags,
    .call (setCwd (bitsOf [.invalidOperand])),
    .throws 381 ((Cmd.run (.opD [(⟨⟨.ninf, (f (5404319552844595) (-51))⟩, .trv⟩ : DItv), (⟨⟨.pinf, (f 2 0)⟩, .trv⟩ : DItv)]))) .invalidOperand,
    .state 382 [.invalidOperand],
    .call clearFlags,
    .call (setCwd (bitsOf [])),
    .call ((Cmd.run (.opD [(⟨⟨(f 1 0), (f 2 0)⟩, .com⟩ : DItv), (⟨⟨(f 1 0), (f 2 0)⟩, .trv⟩ : DItv)]))),
    .call ((Cmd.run (.opD [(⟨⟨(f 1 0), (f (4404019) (-21))⟩, .trv⟩ : DItv), (⟨⟨(f 1 0), (f 2 0)⟩, .trv⟩ : DItv)]))),
    .call ((Cmd.run (.opD [(⟨⟨.nan, .nan⟩, .trv⟩ : DItv), (⟨⟨.nan, .nan⟩, .trv⟩ : DItv)]))),
    .call ((Cmd.run (.opD [(⟨⟨.nan, .nan⟩, .ill⟩ : DItv), (⟨⟨.nan, .nan⟩, .trv⟩ : DItv)]))),
    .call ((Cmd.run (.opD [(⟨⟨.nan, .nan⟩, .ill⟩ : DItv), (⟨⟨.nan, .nan⟩, .ill⟩ : DItv)]))),
    .call ((Cmd.run (.opD [(⟨⟨.nan, .nan⟩, .ill⟩ : DItv), (⟨⟨.nan, .nan⟩, .ill⟩ : DItv)]))),
    .call ((Cmd.run (.opD [(⟨⟨.nan, .nan⟩, .trv⟩ : DItv), (⟨⟨(f 1 0), (f 2 0)⟩, .trv⟩ : DItv)]))),
    .call ((Cmd.run (.opD [(⟨⟨.ninf, .pinf⟩, .trv⟩ : DItv), (⟨⟨.ninf, .pinf⟩, .defd⟩ : DItv)]))),
    .call ((Cmd.run (.opD [(⟨⟨(f 1 0), (f (5033165) (-21))⟩, .trv⟩ : DItv), (⟨⟨.ninf, .pinf⟩, .trv⟩ : DItv)]))),
    .call ((Cmd.run (.opD [(⟨⟨(f 1 0), .pinf⟩, .dac⟩ : DItv), (⟨⟨(f 1 0), .pinf⟩, .trv⟩ : DItv)]))),
    .call ((Cmd.run (.opD [(⟨⟨(f 1 0), (f (5033165) (-21))⟩, .trv⟩ : DItv), (⟨⟨(f 1 0), .pinf⟩, .trv⟩ : DItv)]))),
    .call ((Cmd.run (.opD [(⟨⟨.ninf, (f 2 0)⟩, .trv⟩ : DItv), (⟨⟨.ninf, (f 2 0)⟩, .trv⟩ : DItv)]))),
    .call ((Cmd.run (.opD [(⟨⟨.ninf, (f (5033165) (-21))⟩, .defd⟩ : DItv), (⟨⟨.ninf, (f 2 0)⟩, .trv⟩ : DItv)]))),
    .call ((Cmd.run (.opD [(⟨⟨(f (-2) (0)), (f 0 0)⟩, .trv⟩ : DItv), (⟨⟨(f (-2) (0)), (f 0 0)⟩, .trv⟩ : DItv)]))),
    .call ((Cmd.run (.opD [(⟨⟨.nzero, (f 2 0)⟩, .trv⟩ : DItv), (⟨⟨(f 0 0), (f 2 0)⟩, .trv⟩ : DItv)]))),
    .call ((Cmd.run (.opD [(⟨⟨.nzero, .nzero⟩, .trv⟩ : DItv), (⟨⟨(f 0 0), (f 0 0)⟩, .trv⟩ : DItv)]))),
    .call ((Cmd.run (.opD [(⟨⟨.nzero, (f 0 0)⟩, .com⟩ : DItv), (⟨⟨(f 0 0), (f 0 0)⟩, .defd⟩ : DItv)]))),
    .call ((Cmd.run (.opD [(⟨⟨(f 0 0), .nzero⟩, .trv⟩ : DItv), (⟨⟨(f 0 0), (f 0 0)⟩, .trv⟩ : DItv)]))),
    .state 405 [],
    .call clearFlags,
    .call ((Cmd.run (.opD [(⟨⟨(f 1 0), (f (-5033165) (-21))⟩, .trv⟩ : DItv), (⟨⟨.ninf, .pinf⟩, .trv⟩ : DItv)]))),
    .state 409 [.invalidOperand],
    .call clearFlags,
    .call (setCwd (bitsOf [.invalidOperand])),
    .throws 412 ((Cmd.run (.opD [(⟨⟨(f 1 0), (f (5033165) (-21))⟩, .trv⟩ : DItv), (⟨⟨.ninf, .pinf⟩, .com⟩ : DItv)]))) .invalidOperand,
    .state 413 [.invalidOperand],
    .call clearFlags,
    .call (setCwd (bitsOf []))] ExSt.init = [] := by
  decide +kernel

/-- `minimal_subset_test` -/
example : failed [
    .call clearFlags,
    .call ((Cmd.run (.op [(⟨.nan, .nan⟩ : Itv), (⟨.nan, .nan⟩ : Itv)]))),
    .call ((Cmd.run (.op [(⟨.nan, .nan⟩ : Itv), (⟨(f 0 0), (f 4 0)⟩ : Itv)]))),
    .call ((Cmd.run (.op [(⟨.nan, .nan⟩ : Itv), (⟨.nzero, (f 4 0)⟩ : Itv)]))),
    .call ((Cmd.run (.op [(⟨.nan, .nan⟩ : Itv), (⟨(f (-3602879701896397) (-55)), (f 1 0)⟩ : Itv)]))),
    .call ((Cmd.run (.op [(⟨.nan, .nan⟩ : Itv), (⟨(f (-3602879701896397) (-55)), (f 0 0)⟩ : Itv)]))),
    .call ((Cmd.run (.op [(⟨.nan, .nan⟩ : Itv), (⟨(f (-3602879701896397) (-55)), .nzero⟩ : Itv)]))),
    .call ((Cmd.run (.op [(⟨.nan, .nan⟩ : Itv), (⟨.ninf, .pinf⟩ : Itv)]))),
    .call ((Cmd.run (.op [(⟨(f 0 0), (f 4 0)⟩ : Itv), (⟨.nan, .nan⟩ : Itv)]))),
    .call ((Cmd.run (.op [(⟨.nzero, (f 4 0)⟩ : Itv), (⟨.nan, .nan⟩ : Itv)]))),
    .call ((Cmd.run (.op [(⟨(f (-3602879701896397) (-55)), (f 1 0)⟩ : Itv), (⟨.nan, .nan⟩ : Itv)]))),
    .call ((Cmd.run (.op [(⟨.ninf, .pinf⟩ : Itv), (⟨.nan, .nan⟩ : Itv)]))),
    .call ((Cmd.run (.op [(⟨(f 0 0), (f 4 0)⟩ : Itv), (⟨.ninf, .pinf⟩ : Itv)]))),
    .call ((Cmd.run (.op [(⟨.nzero, (f 4 0)⟩ : Itv), (⟨.ninf, .pinf⟩ : Itv)]))),
    .call ((Cmd.run (.op [(⟨(f (-3602879701896397) (-55)), (f 1 0)⟩ : Itv), (⟨.ninf, .pinf⟩ : Itv)]))),
    .call ((Cmd.run (.op [(⟨.ninf, .pinf⟩ : Itv), (⟨.ninf, .pinf⟩ : Itv)]))),
    .call ((Cmd.run (.op [(⟨(f 1 0), (f 2 0)⟩ : Itv), (⟨(f 1 0), (f 2 0)⟩ : Itv)]))),
    .call ((Cmd.run (.op [(⟨(f 1 0), (f 2 0)⟩ : Itv), (⟨(f 0 0), (f 4 0)⟩ : Itv)]))),
    .call ((Cmd.run (.op [(⟨(f 1 0), (f 2 0)⟩ : Itv), (⟨.nzero, (f 4 0)⟩ : Itv)]))),
    .call ((Cmd.run (.op [(⟨(f (3602879701896397) (-55)), (f (3602879701896397) (-54))⟩ : Itv), (⟨(f 0 0), (f 4 0)⟩ : Itv)]))),
    .call ((Cmd.run (.op [(⟨(f (3602879701896397) (-55)), (f (3602879701896397) (-54))⟩ : Itv), (⟨.nzero, (f 4 0)⟩ : Itv)]))),
    .call ((Cmd.run (.op [(⟨(f (-3602879701896397) (-55)), (f (-3602879701896397) (-55))⟩ : Itv), (⟨(f (-4) (0)), (f (7656119366529843) (-51))⟩ : Itv)]))),
    .call ((Cmd.run (.op [(⟨(f 0 0), (f 0 0)⟩ : Itv), (⟨.nzero, .nzero⟩ : Itv)]))),
    .call ((Cmd.run (.op [(⟨.nzero, .nzero⟩ : Itv), (⟨(f 0 0), (f 0 0)⟩ : Itv)]))),
    .call ((Cmd.run (.op [(⟨.nzero, (f 0 0)⟩ : Itv), (⟨(f 0 0), (f 0 0)⟩ : Itv)]))),
    .call ((Cmd.run (.op [(⟨.nzero, (f 0 0)⟩ : Itv), (⟨(f 0 0), .nzero⟩ : Itv)]))),
    .call ((Cmd.run (.op [(⟨(f 0 0), .nzero⟩ : Itv), (⟨(f 0 0), (f 0 0)⟩ : Itv)]))),
    .call ((Cmd.run (.op [(⟨(f 0 0), .nzero⟩ : Itv), (⟨.nzero, (f 0 0)⟩ : Itv)]))),
    .state 455 [],
    .call clearFlags,
    .call ((Cmd.run (.op [(⟨(f 1 0), (f (-2) (0))⟩ : Itv), (⟨.nzero, (f 4 0)⟩ : Itv)]))),
    .state 459 [.invalidOperand],
    .call clearFlags,
    .call (setCwd (bitsOf [.invalidOperand])),
    .throws 462 ((Cmd.run (.op [(⟨(f 1 0), (f 2 0)⟩ : Itv), (⟨.nzero, (f (-4) (0))⟩ : Itv)]))) .invalidOperand,
    .state 463 [.invalidOperand],
    .call clearFlags,
    .call (setCwd (bitsOf []))] ExSt.init = [] := by
  decide +kernel

/-- `minimal_subset_mixedtype_test` -/
example : failed [
    .call clearFlags,
    .call ((Cmd.run (.op [(⟨.nan, .nan⟩ : Itv), (⟨.nan, .nan⟩ : Itv)]))),
    .call ((Cmd.run (.op [(⟨.nan, .nan⟩ : Itv), (⟨(f 0 0), (f 4 0)⟩ : Itv)]))),
    .call ((Cmd.run (.op [(⟨.nan, .nan⟩ : Itv), (⟨.nzero, (f 4 0)⟩ : Itv)]))),
    .call ((Cmd.run (.op [(⟨.nan, .nan⟩ : Itv), (⟨(f (-13421773) (-27)), (f 1 0)⟩ : Itv)]))),
    .call ((Cmd.run (.op [(⟨.nan, .nan⟩ : Itv), (⟨(f (-13421773) (-27)), (f 0 0)⟩ : Itv)]))),
    .call ((Cmd.run (.op [(⟨.nan, .nan⟩ : Itv), (⟨(f (-13421773) (-27)), .nzero⟩ : Itv)]))),
    .call ((Cmd.run (.op [(⟨.nan, .nan⟩ : Itv), (⟨.ninf, .pinf⟩ : Itv)]))),
    .call ((Cmd.run (.op [(⟨(f 0 0), (f 4 0)⟩ : Itv), (⟨.nan, .nan⟩ : Itv)]))),
    .call ((Cmd.run (.op [(⟨.nzero, (f 4 0)⟩ : Itv), (⟨.nan, .nan⟩ : Itv)]))),
    .call ((Cmd.run (.op [(⟨(f (-3602879701896397) (-55)), (f 1 0)⟩ : Itv), (⟨.nan, .nan⟩ : Itv)]))),
    .call ((Cmd.run (.op [(⟨.ninf, .pinf⟩ : Itv), (⟨.nan, .nan⟩ : Itv)]))),
    .call ((Cmd.run (.op [(⟨(f 0 0), (f 4 0)⟩ : Itv), (⟨.ninf, .pinf⟩ : Itv)]))),
    .call ((Cmd.run (.op [(⟨.nzero, (f 4 0)⟩ : Itv), (⟨.ninf, .pinf⟩ : Itv)]))),
    .call ((Cmd.run (.op [(⟨(f (-3602879701896397) (-55)), (f 1 0)⟩ : Itv), (⟨.ninf, .pinf⟩ : Itv)]))),
    .call ((Cmd.run (.op [(⟨.ninf, .pinf⟩ : Itv), (⟨.ninf, .pinf⟩ : Itv)]))),
    .call ((Cmd.run (.op [(⟨(f 1 0), (f 2 0)⟩ : Itv), (⟨(f 1 0), (f 2 0)⟩ : Itv)]))),
    .call ((Cmd.run (.op [(⟨(f 1 0), (f 2 0)⟩ : Itv), (⟨(f 0 0), (f 4 0)⟩ : Itv)]))),
    .call ((Cmd.run (.op [(⟨(f 1 0), (f 2 0)⟩ : Itv), (⟨.nzero, (f 4 0)⟩ : Itv)]))),
    .call ((Cmd.run (.op [(⟨(f (3602879701896397) (-55)), (f (3602879701896397) (-54))⟩ : Itv), (⟨(f 0 0), (f 4 0)⟩ : Itv)]))),
    .call ((Cmd.run (.op [(⟨(f (3602879701896397) (-55)), (f (3602879701896397) (-54))⟩ : Itv), (⟨.nzero, (f 4 0)⟩ : Itv)]))),
    .call ((Cmd.run (.op [(⟨(f (-3602879701896397) (-55)), (f (-3602879701896397) (-55))⟩ : Itv), (⟨(f (-4) (0)), (f (7130317) (-21))⟩ : Itv)]))),
    .call ((Cmd.run (.op [(⟨(f 0 0), (f 0 0)⟩ : Itv), (⟨.nzero, .nzero⟩ : Itv)]))),
    .call ((Cmd.run (.op [(⟨.nzero, .nzero⟩ : Itv), (⟨(f 0 0), (f 0 0)⟩ : Itv)]))),
    .call ((Cmd.run (.op [(⟨.nzero, (f 0 0)⟩ : Itv), (⟨(f 0 0), (f 0 0)⟩ : Itv)]))),
    .call ((Cmd.run (.op [(⟨.nzero, (f 0 0)⟩ : Itv), (⟨(f 0 0), .nzero⟩ : Itv)]))),
    .call ((Cmd.run (.op [(⟨(f 0 0), .nzero⟩ : Itv), (⟨(f 0 0), (f 0 0)⟩ : Itv)]))),
    .call ((Cmd.run (.op [(⟨(f 0 0), .nzero⟩ : Itv), (⟨.nzero, (f 0 0)⟩ : Itv)]))),
    .call ((Cmd.run (.op [(⟨.nan, .nan⟩ : Itv), (⟨.nan, .nan⟩ : Itv)]))),
    .call ((Cmd.run (.op [(⟨.nan, .nan⟩ : Itv), (⟨(f 0 0), (f 4 0)⟩ : Itv)]))),
    .call ((Cmd.run (.op [(⟨.nan, .nan⟩ : Itv), (⟨.nzero, (f 4 0)⟩ : Itv)]))),
    .call ((Cmd.run (.op [(⟨.nan, .nan⟩ : Itv), (⟨(f (-3602879701896397) (-55)), (f 1 0)⟩ : Itv)]))),
    .call ((Cmd.run (.op [(⟨.nan, .nan⟩ : Itv), (⟨(f (-3602879701896397) (-55)), (f 0 0)⟩ : Itv)]))),
    .call ((Cmd.run (.op [(⟨.nan, .nan⟩ : Itv), (⟨(f (-3602879701896397) (-55)), .nzero⟩ : Itv)]))),
    .call ((Cmd.run (.op [(⟨.nan, .nan⟩ : Itv), (⟨.ninf, .pinf⟩ : Itv)]))),
    .call ((Cmd.run (.op [(⟨(f 0 0), (f 4 0)⟩ : Itv), (⟨.nan, .nan⟩ : Itv)]))),
    .call ((Cmd.run (.op [(⟨.nzero, (f 4 0)⟩ : Itv), (⟨.nan, .nan⟩ : Itv)]))),
    .call ((Cmd.run (.op [(⟨(f (-13421773) (-27)), (f 1 0)⟩ : Itv), (⟨.nan, .nan⟩ : Itv)]))),
    .call ((Cmd.run (.op [(⟨.ninf, .pinf⟩ : Itv), (⟨.nan, .nan⟩ : Itv)]))),
    .call ((Cmd.run (.op [(⟨(f 0 0), (f 4 0)⟩ : Itv), (⟨.ninf, .pinf⟩ : Itv)]))),
    .call ((Cmd.run (.op [(⟨.nzero, (f 4 0)⟩ : Itv), (⟨.ninf, .pinf⟩ : Itv)]))),
    .call ((Cmd.run (.op [(⟨(f (-13421773) (-27)), (f 1 0)⟩ : Itv), (⟨.ninf, .pinf⟩ : Itv)]))),
    .call ((Cmd.run (.op [(⟨.ninf, .pinf⟩ : Itv), (⟨.ninf, .pinf⟩ : Itv)]))),
    .call ((Cmd.run (.op [(⟨(f 1 0), (f 2 0)⟩ : Itv), (⟨(f 1 0), (f 2 0)⟩ : Itv)]))),
    .call ((Cmd.run (.op [(⟨(f 1 0), (f 2 0)⟩ : Itv), (⟨(f 0 0), (f 4 0)⟩ : Itv)]))),
    .call ((Cmd.run (.op [(⟨(f 1 0), (f 2 0)⟩ : Itv), (⟨.nzero, (f 4 0)⟩ : Itv)]))),
    .call ((Cmd.run (.op [(⟨(f (13421773) (-27)), (f (13421773) (-26))⟩ : Itv), (⟨(f 0 0), (f 4 0)⟩ : Itv)]))),
    .call ((Cmd.run (.op [(⟨(f (13421773) (-27)), (f (13421773) (-26))⟩ : Itv), (⟨.nzero, (f 4 0)⟩ : Itv)]))),
    .call ((Cmd.run (.op [(⟨(f (-13421773) (-27)), (f (-13421773) (-27))⟩ : Itv), (⟨(f (-4) (0)), (f (7656119366529843) (-51))⟩ : Itv)]))),
    .call ((Cmd.run (.op [(⟨(f 0 0), (f 0 0)⟩ : Itv), (⟨.nzero, .nzero⟩ : Itv)]))),
    .call ((Cmd.run (.op [(⟨.nzero, .nzero⟩ : Itv), (⟨(f 0 0), (f 0 0)⟩ : Itv)]))),
    .call ((Cmd.run (.op [(⟨.nzero, (f 0 0)⟩ : Itv), (⟨(f 0 0), (f 0 0)⟩ : Itv)]))),
    .call ((Cmd.run (.op [(⟨.nzero, (f 0 0)⟩ : Itv), (⟨(f 0 0), .nzero⟩ : Itv)]))),
    .call ((Cmd.run (.op [(⟨(f 0 0), .nzero⟩ : Itv), (⟨(f 0 0), (f 0 0)⟩ : Itv)]))),
    .call ((Cmd.run (.op [(⟨(f 0 0), .nzero⟩ : Itv), (⟨.nzero, (f 0 0)⟩ : Itv)]))),
    .state 538 [],
    .call clearFlags,
    .call ((Cmd.run (.op [(⟨(f 1 0), (f (-2) (0))⟩ : Itv), (⟨(f 0 0), (f 4 0)⟩ : Itv)]))),
    .state 542 [.invalidOperand],
    .call clearFlags,
    .call (setCwd (bitsOf [.invalidOperand])),
    .throws 545 ((Cmd.run (.op [(⟨(f 1 0), (f 2 0)⟩ : Itv), (⟨(f 0 0), (f (-4) (0))⟩ : Itv)]))) .invalidOperand,
    .state 546 [.invalidOperand],
    .call clearFlags,
    .call (setCwd (bitsOf []))] ExSt.init = [] := by
  decide +kernel

/-- `minimal_subset_dec_test` -/
example : failed [
    .call clearFlags,
    .call ((Cmd.run (.opD [(⟨⟨.nan, .nan⟩, .ill⟩ : DItv), (⟨⟨.nan, .nan⟩, .ill⟩ : DItv)]))),
    .call ((Cmd.run (.opD [(⟨⟨.nan, .nan⟩, .ill⟩ : DItv), (⟨⟨.nan, .nan⟩, .trv⟩ : DItv)]))),
    .call ((Cmd.run (.opD [(⟨⟨.nan, .nan⟩, .ill⟩ : DItv), (⟨⟨(f 0 0), (f 4 0)⟩, .trv⟩ : DItv)]))),
    .call ((Cmd.run (.opD [(⟨⟨.nan, .nan⟩, .trv⟩ : DItv), (⟨⟨.nan, .nan⟩, .trv⟩ : DItv)]))),
    .call ((Cmd.run (.opD [(⟨⟨.nan, .nan⟩, .trv⟩ : DItv), (⟨⟨(f 0 0), (f 4 0)⟩, .trv⟩ : DItv)]))),
    .call ((Cmd.run (.opD [(⟨⟨.nan, .nan⟩, .trv⟩ : DItv), (⟨⟨.nzero, (f 4 0)⟩, .defd⟩ : DItv)]))),
    .call ((Cmd.run (.opD [(⟨⟨.nan, .nan⟩, .trv⟩ : DItv), (⟨⟨(f (-3602879701896397) (-55)), (f 1 0)⟩, .trv⟩ : DItv)]))),
    .call ((Cmd.run (.opD [(⟨⟨.nan, .nan⟩, .trv⟩ : DItv), (⟨⟨(f (-3602879701896397) (-55)), (f 0 0)⟩, .trv⟩ : DItv)]))),
    .call ((Cmd.run (.opD [(⟨⟨.nan, .nan⟩, .trv⟩ : DItv), (⟨⟨(f (-3602879701896397) (-55)), .nzero⟩, .trv⟩ : DItv)]))),
    .call ((Cmd.run (.opD [(⟨⟨.nan, .nan⟩, .trv⟩ : DItv), (⟨⟨.ninf, .pinf⟩, .trv⟩ : DItv)]))),
    .call ((Cmd.run (.opD [(⟨⟨(f 0 0), (f 4 0)⟩, .trv⟩ : DItv), (⟨⟨.nan, .nan⟩, .trv⟩ : DItv)]))),
    .call ((Cmd.run (.opD [(⟨⟨.nzero, (f 4 0)⟩, .defd⟩ : DItv), (⟨⟨.nan, .nan⟩, .trv⟩ : DItv)]))),
    .call ((Cmd.run (.opD [(⟨⟨(f (-3602879701896397) (-55)), (f 1 0)⟩, .trv⟩ : DItv), (⟨⟨.nan, .nan⟩, .trv⟩ : DItv)]))),
    .call ((Cmd.run (.opD [(⟨⟨.ninf, .pinf⟩, .trv⟩ : DItv), (⟨⟨.nan, .nan⟩, .trv⟩ : DItv)]))),
    .call ((Cmd.run (.opD [(⟨⟨(f 0 0), (f 4 0)⟩, .trv⟩ : DItv), (⟨⟨.ninf, .pinf⟩, .trv⟩ : DItv)]))),
    .call ((Cmd.run (.opD [(⟨⟨.nzero, (f 4 0)⟩, .trv⟩ : DItv), (⟨⟨.ninf, .pinf⟩, .trv⟩ : DItv)]))),
    .call ((Cmd.run (.opD [(⟨⟨(f (-3602879701896397) (-55)), (f 1 0)⟩, .trv⟩ : DItv), (⟨⟨.ninf, .pinf⟩, .trv⟩ : DItv)]))),
    .call ((Cmd.run (.opD [(⟨⟨.ninf, .pinf⟩, .trv⟩ : DItv), (⟨⟨.ninf, .pinf⟩, .trv⟩ : DItv)]))),
    .call ((Cmd.run (.opD [(⟨⟨(f 1 0), (f 2 0)⟩, .trv⟩ : DItv), (⟨⟨(f 1 0), (f 2 0)⟩, .trv⟩ : DItv)]))),
    .call ((Cmd.run (.opD [(⟨⟨(f 1 0), (f 2 0)⟩, .trv⟩ : DItv), (⟨⟨(f 0 0), (f 4 0)⟩, .trv⟩ : DItv)]))),
    .call ((Cmd.run (.opD [(⟨⟨(f 1 0), (f 2 0)⟩, .defd⟩ : DItv), (⟨⟨.nzero, (f 4 0)⟩, .defd⟩ : DItv)]))),
    .call ((Cmd.run (.opD [(⟨⟨(f (3602879701896397) (-55)), (f (3602879701896397) (-54))⟩, .trv⟩ : DItv), (⟨⟨(f 0 0), (f 4 0)⟩, .trv⟩ : DItv)]))),
    .call ((Cmd.run (.opD [(⟨⟨(f (3602879701896397) (-55)), (f (3602879701896397) (-54))⟩, .trv⟩ : DItv), (⟨⟨.nzero, (f 4 0)⟩, .defd⟩ : DItv)]))),
    .call ((Cmd.run (.opD [(⟨⟨(f (-3602879701896397) (-55)), (f (-3602879701896397) (-55))⟩, .trv⟩ : DItv), (⟨⟨(f (-4) (0)), (f (7656119366529843) (-51))⟩, .trv⟩ : DItv)]))),
    .call ((Cmd.run (.opD [(⟨⟨(f 0 0), (f 0 0)⟩, .trv⟩ : DItv), (⟨⟨.nzero, .nzero⟩, .trv⟩ : DItv)]))),
    .call ((Cmd.run (.opD [(⟨⟨.nzero, .nzero⟩, .trv⟩ : DItv), (⟨⟨(f 0 0), (f 0 0)⟩, .defd⟩ : DItv)]))),
    .call ((Cmd.run (.opD [(⟨⟨.nzero, (f 0 0)⟩, .trv⟩ : DItv), (⟨⟨(f 0 0), (f 0 0)⟩, .trv⟩ : DItv)]))),
    .call ((Cmd.run (.opD [(⟨⟨.nzero, (f 0 0)⟩, .trv⟩ : DItv), (⟨⟨(f 0 0), .nzero⟩, .trv⟩ : DItv)]))),
    .call ((Cmd.run (.opD [(⟨⟨(f 0 0), .nzero⟩, .defd⟩ : DItv), (⟨⟨(f 0 0), (f 0 0)⟩, .trv⟩ : DItv)]))),
    .call ((Cmd.run (.opD [(⟨⟨(f 0 0), .nzero⟩, .trv⟩ : DItv), (⟨⟨.nzero, (f 0 0)⟩, .trv⟩ : DItv)]))),
    .state 592 [],
    .call clearFlags,
    .call ((Cmd.run (.opD [(⟨⟨(f 1 0), (f (-2) (0))⟩, .trv⟩ : DItv), (⟨⟨(f 1 0), (f 2 0)⟩, .trv⟩ : DItv)]))),
    .state 596 [.invalidOperand],
    .call clearFlags,
    .call (setCwd (bitsOf [.invalidOperand])),
    .throws 599 ((Cmd.run (.opD [(⟨⟨(f 1 0), (f 2 0)⟩, .trv⟩ : DItv), (⟨⟨(f 1 0), (f 2 0)⟩, .ill⟩ : DItv)]))) .invalidOperand,
    .state 600 [.invalidOperand],
    .call clearFlags,
    .call (setCwd (bitsOf []))] ExSt.init = [] := by
  decide +kernel

/-- `minimal_subset_dec_mixedtype_test` -/
example : failed [
    .call clearFlags,
    .call ((Cmd.run (.opD [(⟨⟨.nan, .nan⟩, .ill⟩ : DItv), (⟨⟨.nan, .nan⟩, .ill⟩ : DItv)]))),
    .call ((Cmd.run (.opD [(⟨⟨.nan, .nan⟩, .ill⟩ : DItv), (⟨⟨.nan, .nan⟩, .trv⟩ : DItv)]))),
    .call ((Cmd.run (.opD [(⟨⟨.nan, .nan⟩, .ill⟩ : DItv), (⟨⟨(f 0 0), (f 4 0)⟩, .trv⟩ : DItv)]))),
    .call ((Cmd.run (.opD [(⟨⟨.nan, .nan⟩, .trv⟩ : DItv), (⟨⟨.nan, .nan⟩, .trv⟩ : DItv)]))),
    .call ((Cmd.run (.opD [(⟨⟨.nan, .nan⟩, .trv⟩ : DItv), (⟨⟨(f 0 0), (f 4 0)⟩, .trv⟩ : DItv)]))),
    .call ((Cmd.run (.opD [(⟨⟨.nan, .nan⟩, .trv⟩ : DItv), (⟨⟨.nzero, (f 4 0)⟩, .defd⟩ : DItv)]))),
    .call ((Cmd.run (.opD [(⟨⟨.nan, .nan⟩, .trv⟩ : DItv), (⟨⟨(f (-13421773) (-27)), (f 1 0)⟩, .trv⟩ : DItv)]))),
    .call ((Cmd.run (.opD [(⟨⟨.nan, .nan⟩, .trv⟩ : DItv), (⟨⟨(f (-13421773) (-27)), (f 0 0)⟩, .trv⟩ : DItv)]))),
    .call ((Cmd.run (.opD [(⟨⟨.nan, .nan⟩, .trv⟩ : DItv), (⟨⟨(f (-13421773) (-27)), .nzero⟩, .trv⟩ : DItv)]))),
    .call ((Cmd.run (.opD [(⟨⟨.nan, .nan⟩, .trv⟩ : DItv), (⟨⟨.ninf, .pinf⟩, .trv⟩ : DItv)]))),
    .call ((Cmd.run (.opD [(⟨⟨(f 0 0), (f 4 0)⟩, .trv⟩ : DItv), (⟨⟨.nan, .nan⟩, .trv⟩ : DItv)]))),
    .call ((Cmd.run (.opD [(⟨⟨.nzero, (f 4 0)⟩, .defd⟩ : DItv), (⟨⟨.nan, .nan⟩, .trv⟩ : DItv)]))),
    .call ((Cmd.run (.opD [(⟨⟨(f (-3602879701896397) (-55)), (f 1 0)⟩, .trv⟩ : DItv), (⟨⟨.nan, .nan⟩, .trv⟩ : DItv)]))),
    .call ((Cmd.run (.opD [(⟨⟨.ninf, .pinf⟩, .trv⟩ : DItv), (⟨⟨.nan, .nan⟩, .trv⟩ : DItv)]))),
    .call ((Cmd.run (.opD [(⟨⟨(f 0 0), (f 4 0)⟩, .trv⟩ : DItv), (⟨⟨.ninf, .pinf⟩, .trv⟩ : DItv)]))),
    .call ((Cmd.run (.opD [(⟨⟨.nzero, (f 4 0)⟩, .trv⟩ : DItv), (⟨⟨.ninf, .pinf⟩, .trv⟩ : DItv)]))),
    .call ((Cmd.run (.opD [(⟨⟨(f (-3602879701896397) (-55)), (f 1 0)⟩, .trv⟩ : DItv), (⟨⟨.ninf, .pinf⟩, .trv⟩ : DItv)]))),
    .call ((Cmd.run (.opD [(⟨⟨.ninf, .pinf⟩, .trv⟩ : DItv), (⟨⟨.ninf, .pinf⟩, .trv⟩ : DItv)]))),
    .call ((Cmd.run (.opD [(⟨⟨(f 1 0), (f 2 0)⟩, .trv⟩ : DItv), (⟨⟨(f 1 0), (f 2 0)⟩, .trv⟩ : DItv)]))),
    .call ((Cmd.run (.opD [(⟨⟨(f 1 0), (f 2 0)⟩, .trv⟩ : DItv), (⟨⟨(f 0 0), (f 4 0)⟩, .trv⟩ : DItv)]))),
    .call ((Cmd.run (.opD [(⟨⟨(f 1 0), (f 2 0)⟩, .defd⟩ : DItv), (⟨⟨.nzero, (f 4 0)⟩, .defd⟩ : DItv)]))),
    .call ((Cmd.run (.opD [(⟨⟨(f (3602879701896397) (-55)), (f (3602879701896397) (-54))⟩, .trv⟩ : DItv), (⟨⟨(f 0 0), (f 4 0)⟩, .trv⟩ : DItv)]))),
    .call ((Cmd.run (.opD [(⟨⟨(f (3602879701896397) (-55)), (f (3602879701896397) (-54))⟩, .trv⟩ : DItv), (⟨⟨.nzero, (f 4 0)⟩, .defd⟩ : DItv)]))),
    .call ((Cmd.run (.opD [(⟨⟨(f (-3602879701896397) (-55)), (f (-3602879701896397) (-55))⟩, .trv⟩ : DItv), (⟨⟨(f (-4) (0)), (f (7130317) (-21))⟩, .trv⟩ : DItv)]))),
    .call ((Cmd.run (.opD [(⟨⟨(f 0 0), (f 0 0)⟩, .trv⟩ : DItv), (⟨⟨.nzero, .nzero⟩, .trv⟩ : DItv)]))),
    .call ((Cmd.run (.opD [(⟨⟨.nzero, .nzero⟩, .trv⟩ : DItv), (⟨⟨(f 0 0), (f 0 0)⟩, .trv⟩ : DItv)]))),
    .call ((Cmd.run (.opD [(⟨⟨.nzero, (f 0 0)⟩, .defd⟩ : DItv), (⟨⟨(f 0 0), (f 0 0)⟩, .trv⟩ : DItv)]))),
    .call ((Cmd.run (.opD [(⟨⟨.nzero, (f 0 0)⟩, .trv⟩ : DItv), (⟨⟨(f 0 0), .nzero⟩, .trv⟩ : DItv)]))),
    .call ((Cmd.run (.opD [(⟨⟨(f 0 0), .nzero⟩, .trv⟩ : DItv), (⟨⟨(f 0 0), (f 0 0)⟩, .defd⟩ : DItv)]))),
    .call ((Cmd.run (.opD [(⟨⟨(f 0 0), .nzero⟩, .trv⟩ : DItv), (⟨⟨.nzero, (f 0 0)⟩, .trv⟩ : DItv)]))),
    .call ((Cmd.run (.opD [(⟨⟨.nan, .nan⟩, .ill⟩ : DItv), (⟨⟨.nan, .nan⟩, .ill⟩ : DItv)]))),
    .call ((Cmd.run (.opD [(⟨⟨.nan, .nan⟩, .ill⟩ : DItv), (⟨⟨.nan, .nan⟩, .trv⟩ : DItv)]))),
    .call ((Cmd.run (.opD [(⟨⟨.nan, .nan⟩, .ill⟩ : DItv), (⟨⟨(f 0 0), (f 4 0)⟩, .trv⟩ : DItv)]))),
    .call ((Cmd.run (.opD [(⟨⟨.nan, .nan⟩, .trv⟩ : DItv), (⟨⟨.nan, .nan⟩, .trv⟩ : DItv)]))),
    .call ((Cmd.run (.opD [(⟨⟨.nan, .nan⟩, .trv⟩ : DItv), (⟨⟨(f 0 0), (f 4 0)⟩, .trv⟩ : DItv)]))),
    .call ((Cmd.run (.opD [(⟨⟨.nan, .nan⟩, .trv⟩ : DItv), (⟨⟨.nzero, (f 4 0)⟩, .trv⟩ : DItv)]))),
    .call ((Cmd.run (.opD [(⟨⟨.nan, .nan⟩, .trv⟩ : DItv), (⟨⟨(f (-3602879701896397) (-55)), (f 1 0)⟩, .defd⟩ : DItv)]))),
    .call ((Cmd.run (.opD [(⟨⟨.nan, .nan⟩, .trv⟩ : DItv), (⟨⟨(f (-3602879701896397) (-55)), (f 0 0)⟩, .trv⟩ : DItv)]))),
    .call ((Cmd.run (.opD [(⟨⟨.nan, .nan⟩, .trv⟩ : DItv), (⟨⟨(f (-3602879701896397) (-55)), .nzero⟩, .trv⟩ : DItv)]))),
    .call ((Cmd.run (.opD [(⟨⟨.nan, .nan⟩, .trv⟩ : DItv), (⟨⟨.ninf, .pinf⟩, .trv⟩ : DItv)]))),
    .call ((Cmd.run (.opD [(⟨⟨(f 0 0), (f 4 0)⟩, .trv⟩ : DItv), (⟨⟨.nan, .nan⟩, .trv⟩ : DItv)]))),
    .call ((Cmd.run (.opD [(⟨⟨.nzero, (f 4 0)⟩, .defd⟩ : DItv), (⟨⟨.nan, .nan⟩, .trv⟩ : DItv)]))),
    .call ((Cmd.run (.opD [(⟨⟨(f (-13421773) (-27)), (f 1 0)⟩, .trv⟩ : DItv), (⟨⟨.nan, .nan⟩, .trv⟩ : DItv)]))),
    .call ((Cmd.run (.opD [(⟨⟨.ninf, .pinf⟩, .trv⟩ : DItv), (⟨⟨.nan, .nan⟩, .trv⟩ : DItv)]))),
    .call ((Cmd.run (.opD [(⟨⟨(f 0 0), (f 4 0)⟩, .trv⟩ : DItv), (⟨⟨.ninf, .pinf⟩, .trv⟩ : DItv)]))),
    .call ((Cmd.run (.opD [(⟨⟨.nzero, (f 4 0)⟩, .trv⟩ : DItv), (⟨⟨.ninf, .pinf⟩, .trv⟩ : DItv)]))),
    .call ((Cmd.run (.opD [(⟨⟨(f (-13421773) (-27)), (f 1 0)⟩, .trv⟩ : DItv), (⟨⟨.ninf, .pinf⟩, .trv⟩ : DItv)]))),
    .call ((Cmd.run (.opD [(⟨⟨.ninf, .pinf⟩, .trv⟩ : DItv), (⟨⟨.ninf, .pinf⟩, .trv⟩ : DItv)]))),
    .call ((Cmd.run (.opD [(⟨⟨(f 1 0), (f 2 0)⟩, .trv⟩ : DItv), (⟨⟨(f 1 0), (f 2 0)⟩, .trv⟩ : DItv)]))),
    .call ((Cmd.run (.opD [(⟨⟨(f 1 0), (f 2 0)⟩, .trv⟩ : DItv), (⟨⟨(f 0 0), (f 4 0)⟩, .trv⟩ : DItv)]))),
    .call ((Cmd.run (.opD [(⟨⟨(f 1 0), (f 2 0)⟩, .defd⟩ : DItv), (⟨⟨.nzero, (f 4 0)⟩, .trv⟩ : DItv)]))),
    .call ((Cmd.run (.opD [(⟨⟨(f (13421773) (-27)), (f (13421773) (-26))⟩, .trv⟩ : DItv), (⟨⟨(f 0 0), (f 4 0)⟩, .trv⟩ : DItv)]))),
    .call ((Cmd.run (.opD [(⟨⟨(f (13421773) (-27)), (f (13421773) (-26))⟩, .trv⟩ : DItv), (⟨⟨.nzero, (f 4 0)⟩, .defd⟩ : DItv)]))),
    .call ((Cmd.run (.opD [(⟨⟨(f (-13421773) (-27)), (f (-13421773) (-27))⟩, .trv⟩ : DItv), (⟨⟨(f (-4) (0)), (f (7656119366529843) (-51))⟩, .trv⟩ : DItv)]))),
    .call ((Cmd.run (.opD [(⟨⟨(f 0 0), (f 0 0)⟩, .trv⟩ : DItv), (⟨⟨.nzero, .nzero⟩, .trv⟩ : DItv)]))),
    .call ((Cmd.run (.opD [(⟨⟨.nzero, .nzero⟩, .trv⟩ : DItv), (⟨⟨(f 0 0), (f 0 0)⟩, .trv⟩ : DItv)]))),
    .call ((Cmd.run (.opD [(⟨⟨.nzero, (f 0 0)⟩, .trv⟩ : DItv), (⟨⟨(f 0 0), (f 0 0)⟩, .trv⟩ : DItv)]))),
    .call ((Cmd.run (.opD [(⟨⟨.nzero, (f 0 0)⟩, .trv⟩ : DItv), (⟨⟨(f 0 0), .nzero⟩, .defd⟩ : DItv)]))),
    .call ((Cmd.run (.opD [(⟨⟨(f 0 0), .nzero⟩, .trv⟩ : DItv), (⟨⟨(f 0 0), (f 0 0)⟩, .trv⟩ : DItv)]))),
    .call ((Cmd.run (.opD [(⟨⟨(f 0 0), .nzero⟩, .trv⟩ : DItv), (⟨⟨.nzero, (f 0 0)⟩, .trv⟩ : DItv)]))),
    .state 682 [],
    .call clearFlags,
    .call ((Cmd.run (.opD [(⟨⟨(f 0 0), (f 4 0)⟩, .trv⟩ : DItv), (⟨⟨.nan, .nan⟩, .defd⟩ : DItv)]))),
    .state 686 [.invalidOperand],
    .call clearFlags,
    .call (setCwd (bitsOf [.invalidOperand])),
    .throws 689 ((Cmd.run (.opD [(⟨⟨(f 0 0), (f 4 0)⟩, .ill⟩ : DItv), (⟨⟨.nan, .nan⟩, .trv⟩ : DItv)]))) .invalidOperand,
    .state 690 [.invalidOperand],
    .call clearFlags,
    .call (setCwd (bitsOf []))] ExSt.init = [] := by
  decide +kernel

/-- `minimal_less_test` -/
example : failed [
    .call clearFlags,
    .call ((Cmd.run (.op [(⟨.nan, .nan⟩ : Itv), (⟨.nan, .nan⟩ : Itv)]))),
    .call ((Cmd.run (.op [(⟨(f 1 0), (f 2 0)⟩ : Itv), (⟨.nan, .nan⟩ : Itv)]))),
    .call ((Cmd.run (.op [(⟨.nan, .nan⟩ : Itv), (⟨(f 1 0), (f 2 0)⟩ : Itv)]))),
    .call ((Cmd.run (.op [(⟨.ninf, .pinf⟩ : Itv), (⟨.ninf, .pinf⟩ : Itv)]))),
    .call ((Cmd.run (.op [(⟨(f 1 0), (f 2 0)⟩ : Itv), (⟨.ninf, .pinf⟩ : Itv)]))),
    .call ((Cmd.run (.op [(⟨(f 0 0), (f 2 0)⟩ : Itv), (⟨.ninf, .pinf⟩ : Itv)]))),
    .call ((Cmd.run (.op [(⟨.nzero, (f 2 0)⟩ : Itv), (⟨.ninf, .pinf⟩ : Itv)]))),
    .call ((Cmd.run (.op [(⟨.ninf, .pinf⟩ : Itv), (⟨(f 1 0), (f 2 0)⟩ : Itv)]))),
    .call ((Cmd.run (.op [(⟨.ninf, .pinf⟩ : Itv), (⟨(f 0 0), (f 2 0)⟩ : Itv)]))),
    .call ((Cmd.run (.op [(⟨.ninf, .pinf⟩ : Itv), (⟨.nzero, (f 2 0)⟩ : Itv)]))),
    .call ((Cmd.run (.op [(⟨(f 0 0), (f 2 0)⟩ : Itv), (⟨(f 0 0), (f 2 0)⟩ : Itv)]))),
    .call ((Cmd.run (.op [(⟨(f 0 0), (f 2 0)⟩ : Itv), (⟨.nzero, (f 2 0)⟩ : Itv)]))),
    .call ((Cmd.run (.op [(⟨(f 0 0), (f 2 0)⟩ : Itv), (⟨(f 1 0), (f 2 0)⟩ : Itv)]))),
    .call ((Cmd.run (.op [(⟨.nzero, (f 2 0)⟩ : Itv), (⟨(f 1 0), (f 2 0)⟩ : Itv)]))),
    .call ((Cmd.run (.op [(⟨(f 1 0), (f 2 0)⟩ : Itv), (⟨(f 1 0), (f 2 0)⟩ : Itv)]))),
    .call ((Cmd.run (.op [(⟨(f 1 0), (f 2 0)⟩ : Itv), (⟨(f 3 0), (f 4 0)⟩ : Itv)]))),
    .call ((Cmd.run (.op [(⟨(f 1 0), (f (7) (-1))⟩ : Itv), (⟨(f 3 0), (f 4 0)⟩ : Itv)]))),
    .call ((Cmd.run (.op [(⟨(f 1 0), (f 4 0)⟩ : Itv), (⟨(f 3 0), (f 4 0)⟩ : Itv)]))),
    .call ((Cmd.run (.op [(⟨(f (-2) (0)), (f (-1) (0))⟩ : Itv), (⟨(f (-2) (0)), (f (-1) (0))⟩ : Itv)]))),
    .call ((Cmd.run (.op [(⟨(f (-3) (0)), (f (-3) (-1))⟩ : Itv), (⟨(f (-2) (0)), (f (-1) (0))⟩ : Itv)]))),
    .call ((Cmd.run (.op [(⟨(f 0 0), (f 0 0)⟩ : Itv), (⟨.nzero, .nzero⟩ : Itv)]))),
    .call ((Cmd.run (.op [(⟨.nzero, .nzero⟩ : Itv), (⟨(f 0 0), (f 0 0)⟩ : Itv)]))),
    .call ((Cmd.run (.op [(⟨.nzero, (f 0 0)⟩ : Itv), (⟨(f 0 0), (f 0 0)⟩ : Itv)]))),
    .call ((Cmd.run (.op [(⟨.nzero, (f 0 0)⟩ : Itv), (⟨(f 0 0), .nzero⟩ : Itv)]))),
    .call ((Cmd.run (.op [(⟨(f 0 0), .nzero⟩ : Itv), (⟨(f 0 0), (f 0 0)⟩ : Itv)]))),
    .call ((Cmd.run (.op [(⟨(f 0 0), .nzero⟩ : Itv), (⟨.nzero, (f 0 0)⟩ : Itv)]))),
    .state 731 [],
    .call clearFlags,
    .call ((Cmd.run (.op [(⟨(f 0 0), (f 2 0)⟩ : Itv), (⟨(f 1 0), (f (-2) (0))⟩ : Itv)]))),
    .state 735 [.invalidOperand],
    .call clearFlags,
    .call (setCwd (bitsOf [.invalidOperand])),
    .throws 738 ((Cmd.run (.op [(⟨(f 0 0), .nan⟩ : Itv), (⟨(f 1 0), (f 2 0)⟩ : Itv)]))) .invalidOperand,
    .state 739 [.invalidOperand],
    .call clearFlags,
    .call (setCwd (bitsOf []))] ExSt.init = [] := by
  decide +kernel

/-- `minimal_less_mixedtype_test` -/
example : failed [
    .call clearFlags,
    .call ((Cmd.run (.op [(⟨.nan, .nan⟩ : Itv), (⟨.nan, .nan⟩ : Itv)]))),
    .call ((Cmd.run (.op [(⟨(f 1 0), (f 2 0)⟩ : Itv), (⟨.nan, .nan⟩ : Itv)]))),
    .call ((Cmd.run (.op [(⟨.nan, .nan⟩ : Itv), (⟨(f 1 0), (f 2 0)⟩ : Itv)]))),
    .call ((Cmd.run (.op [(⟨.ninf, .pinf⟩ : Itv), (⟨.ninf, .pinf⟩ : Itv)]))),
    .call ((Cmd.run (.op [(⟨(f 1 0), (f 2 0)⟩ : Itv), (⟨.ninf, .pinf⟩ : Itv)]))),
    .call ((Cmd.run (.op [(⟨(f 0 0), (f 2 0)⟩ : Itv), (⟨.ninf, .pinf⟩ : Itv)]))),
    .call ((Cmd.run (.op [(⟨.nzero, (f 2 0)⟩ : Itv), (⟨.ninf, .pinf⟩ : Itv)]))),
    .call ((Cmd.run (.op [(⟨.ninf, .pinf⟩ : Itv), (⟨(f 1 0), (f 2 0)⟩ : Itv)]))),
    .call ((Cmd.run (.op [(⟨.ninf, .pinf⟩ : Itv), (⟨(f 0 0), (f 2 0)⟩ : Itv)]))),
    .call ((Cmd.run (.op [(⟨.ninf, .pinf⟩ : Itv), (⟨.nzero, (f 2 0)⟩ : Itv)]))),
    .call ((Cmd.run (.op [(⟨(f 0 0), (f 2 0)⟩ : Itv), (⟨(f 0 0), (f 2 0)⟩ : Itv)]))),
    .call ((Cmd.run (.op [(⟨(f 0 0), (f 2 0)⟩ : Itv), (⟨.nzero, (f 2 0)⟩ : Itv)]))),
    .call ((Cmd.run (.op [(⟨(f 0 0), (f 2 0)⟩ : Itv), (⟨(f 1 0), (f 2 0)⟩ : Itv)]))),
    .call ((Cmd.run (.op [(⟨.nzero, (f 2 0)⟩ : Itv), (⟨(f 1 0), (f 2 0)⟩ : Itv)]))),
    .call ((Cmd.run (.op [(⟨(f 1 0), (f 2 0)⟩ : Itv), (⟨(f 1 0), (f 2 0)⟩ : Itv)]))),
    .call ((Cmd.run (.op [(⟨(f 1 0), (f 2 0)⟩ : Itv), (⟨(f 3 0), (f 4 0)⟩ : Itv)]))),
    .call ((Cmd.run (.op [(⟨(f 1 0), (f (7) (-1))⟩ : Itv), (⟨(f 3 0), (f 4 0)⟩ : Itv)]))),
    .call ((Cmd.run (.op [(⟨(f 1 0), (f 4 0)⟩ : Itv), (⟨(f 3 0), (f 4 0)⟩ : Itv)]))),
    .call ((Cmd.run (.op [(⟨(f (-2) (0)), (f (-1) (0))⟩ : Itv), (⟨(f (-2) (0)), (f (-1) (0))⟩ : Itv)]))),
    .call ((Cmd.run (.op [(⟨(f (-3) (0)), (f (-3) (-1))⟩ : Itv), (⟨(f (-2) (0)), (f (-1) (0))⟩ : Itv)]))),
    .call ((Cmd.run (.op [(⟨(f 0 0), (f 0 0)⟩ : Itv), (⟨.nzero, .nzero⟩ : Itv)]))),
    .call ((Cmd.run (.op [(⟨.nzero, .nzero⟩ : Itv), (⟨(f 0 0), (f 0 0)⟩ : Itv)]))),
    .call ((Cmd.run (.op [(⟨.nzero, (f 0 0)⟩ : Itv), (⟨(f 0 0), (f 0 0)⟩ : Itv)]))),
    .call ((Cmd.run (.op [(⟨.nzero, (f 0 0)⟩ : Itv), (⟨(f 0 0), .nzero⟩ : Itv)]))),
    .call ((Cmd.run (.op [(⟨(f 0 0), .nzero⟩ : Itv), (⟨(f 0 0), (f 0 0)⟩ : Itv)]))),
    .call ((Cmd.run (.op [(⟨(f 0 0), .nzero⟩ : Itv), (⟨.nzero, (f 0 0)⟩ : Itv)]))),
    .call ((Cmd.run (.op [(⟨.nan, .nan⟩ : Itv), (⟨.nan, .nan⟩ : Itv)]))),
    .call ((Cmd.run (.op [(⟨(f 1 0), (f 2 0)⟩ : Itv), (⟨.nan, .nan⟩ : Itv)]))),
    .call ((Cmd.run (.op [(⟨.nan, .nan⟩ : Itv), (⟨(f 1 0), (f 2 0)⟩ : Itv)]))),
    .call ((Cmd.run (.op [(⟨.ninf, .pinf⟩ : Itv), (⟨.ninf, .pinf⟩ : Itv)]))),
    .call ((Cmd.run (.op [(⟨(f 1 0), (f 2 0)⟩ : Itv), (⟨.ninf, .pinf⟩ : Itv)]))),
    .call ((Cmd.run (.op [(⟨(f 0 0), (f 2 0)⟩ : Itv), (⟨.ninf, .pinf⟩ : Itv)]))),
    .call ((Cmd.run (.op [(⟨.nzero, (f 2 0)⟩ : Itv), (⟨.ninf, .pinf⟩ : Itv)]))),
    .call ((Cmd.run (.op [(⟨.ninf, .pinf⟩ : Itv), (⟨(f 1 0), (f 2 0)⟩ : Itv)]))),
    .call ((Cmd.run (.op [(⟨.ninf, .pinf⟩ : Itv), (⟨(f 0 0), (f 2 0)⟩ : Itv)]))),
    .call ((Cmd.run (.op [(⟨.ninf, .pinf⟩ : Itv), (⟨.nzero, (f 2 0)⟩ : Itv)]))),
    .call ((Cmd.run (.op [(⟨(f 0 0), (f 2 0)⟩ : Itv), (⟨(f 0 0), (f 2 0)⟩ : Itv)]))),
    .call ((Cmd.run (.op [(⟨(f 0 0), (f 2 0)⟩ : Itv), (⟨.nzero, (f 2 0)⟩ : Itv)]))),
    .call ((Cmd.run (.op [(⟨(f 0 0), (f 2 0)⟩ : Itv), (⟨(f 1 0), (f 2 0)⟩ : Itv)]))),
    .call ((Cmd.run (.op [(⟨.nzero, (f 2 0)⟩ : Itv), (⟨(f 1 0), (f 2 0)⟩ : Itv)]))),
    .call ((Cmd.run (.op [(⟨(f 1 0), (f 2 0)⟩ : Itv), (⟨(f 1 0), (f 2 0)⟩ : Itv)]))),
    .call ((Cmd.run (.op [(⟨(f 1 0), (f 2 0)⟩ : Itv), (⟨(f 3 0), (f 4 0)⟩ : Itv)]))),
    .call ((Cmd.run (.op [(⟨(f 1 0), (f (7) (-1))⟩ : Itv), (⟨(f 3 0), (f 4 0)⟩ : Itv)]))),
    .call ((Cmd.run (.op [(⟨(f 1 0), (f 4 0)⟩ : Itv), (⟨(f 3 0), (f 4 0)⟩ : Itv)]))),
    .call ((Cmd.run (.op [(⟨(f (-2) (0)), (f (-1) (0))⟩ : Itv), (⟨(f (-2) (0)), (f (-1) (0))⟩ : Itv)]))),
    .call ((Cmd.run (.op [(⟨(f (-3) (0)), (f (-3) (-1))⟩ : Itv), (⟨(f (-2) (0)), (f (-1) (0))⟩ : Itv)]))),
    .call ((Cmd.run (.op [(⟨(f 0 0), (f 0 0)⟩ : Itv), (⟨.nzero, .nzero⟩ : Itv)]))),
    .call ((Cmd.run (.op [(⟨.nzero, .nzero⟩ : Itv), (⟨(f 0 0), (f 0 0)⟩ : Itv)]))),
    .call ((Cmd.run (.op [(⟨.nzero, (f 0 0)⟩ : Itv), (⟨(f 0 0), (f 0 0)⟩ : Itv)]))),
    .call ((Cmd.run (.op [(⟨.nzero, (f 0 0)⟩ : Itv), (⟨(f 0 0), .nzero⟩ : Itv)]))),
    .call ((Cmd.run (.op [(⟨(f 0 0), .nzero⟩ : Itv), (⟨(f 0 0), (f 0 0)⟩ : Itv)]))),
    .call ((Cmd.run (.op [(⟨(f 0 0), .nzero⟩ : Itv), (⟨.nzero, (f 0 0)⟩ : Itv)]))),
    .state 812 [],
    .call clearFlags,
    .call ((Cmd.run (.op [(⟨(f 1 0), (f 2 0)⟩ : Itv), (⟨(f 1 0), (f (-2) (0))⟩ : Itv)]))),
    .state 816 [.invalidOperand],
    .call clearFlags,
    .call (setCwd (bitsOf [.invalidOperand])),
    .throws 819 ((Cmd.run (.op [(⟨(f 1 0), (f (-2) (0))⟩ : Itv), (⟨(f 1 0), (f 2 0)⟩ : Itv)]))) .invalidOperand,
    .state 820 [.invalidOperand],
    .call clearFlags,
    .call (setCwd (bitsOf []))] ExSt.init = [] := by
  decide +kernel

/-- `minimal_less_dec_test` -/
example : failed [
    .call clearFlags,
    .call ((Cmd.run (.opD [(⟨⟨.nan, .nan⟩, .ill⟩ : DItv), (⟨⟨.nan, .nan⟩, .ill⟩ : DItv)]))),
    .call ((Cmd.run (.opD [(⟨⟨.nan, .nan⟩, .trv⟩ : DItv), (⟨⟨.nan, .nan⟩, .ill⟩ : DItv)]))),
    .call ((Cmd.run (.opD [(⟨⟨(f 1 0), (f 2 0)⟩, .trv⟩ : DItv), (⟨⟨.nan, .nan⟩, .ill⟩ : DItv)]))),
    .call ((Cmd.run (.opD [(⟨⟨.nan, .nan⟩, .ill⟩ : DItv), (⟨⟨(f 1 0), (f 2 0)⟩, .defd⟩ : DItv)]))),
    .call ((Cmd.run (.opD [(⟨⟨.nan, .nan⟩, .trv⟩ : DItv), (⟨⟨.nan, .nan⟩, .trv⟩ : DItv)]))),
    .call ((Cmd.run (.opD [(⟨⟨(f 1 0), (f 2 0)⟩, .trv⟩ : DItv), (⟨⟨.nan, .nan⟩, .trv⟩ : DItv)]))),
    .call ((Cmd.run (.opD [(⟨⟨.nan, .nan⟩, .trv⟩ : DItv), (⟨⟨(f 1 0), (f 2 0)⟩, .trv⟩ : DItv)]))),
    .call ((Cmd.run (.opD [(⟨⟨.ninf, .pinf⟩, .trv⟩ : DItv), (⟨⟨.ninf, .pinf⟩, .trv⟩ : DItv)]))),
    .call ((Cmd.run (.opD [(⟨⟨(f 1 0), (f 2 0)⟩, .defd⟩ : DItv), (⟨⟨.ninf, .pinf⟩, .trv⟩ : DItv)]))),
    .call ((Cmd.run (.opD [(⟨⟨(f 0 0), (f 2 0)⟩, .trv⟩ : DItv), (⟨⟨.ninf, .pinf⟩, .trv⟩ : DItv)]))),
    .call ((Cmd.run (.opD [(⟨⟨.nzero, (f 2 0)⟩, .trv⟩ : DItv), (⟨⟨.ninf, .pinf⟩, .trv⟩ : DItv)]))),
    .call ((Cmd.run (.opD [(⟨⟨.ninf, .pinf⟩, .trv⟩ : DItv), (⟨⟨(f 1 0), (f 2 0)⟩, .trv⟩ : DItv)]))),
    .call ((Cmd.run (.opD [(⟨⟨.ninf, .pinf⟩, .trv⟩ : DItv), (⟨⟨(f 0 0), (f 2 0)⟩, .defd⟩ : DItv)]))),
    .call ((Cmd.run (.opD [(⟨⟨.ninf, .pinf⟩, .trv⟩ : DItv), (⟨⟨.nzero, (f 2 0)⟩, .trv⟩ : DItv)]))),
    .call ((Cmd.run (.opD [(⟨⟨(f 0 0), (f 2 0)⟩, .trv⟩ : DItv), (⟨⟨(f 0 0), (f 2 0)⟩, .trv⟩ : DItv)]))),
    .call ((Cmd.run (.opD [(⟨⟨(f 0 0), (f 2 0)⟩, .trv⟩ : DItv), (⟨⟨.nzero, (f 2 0)⟩, .trv⟩ : DItv)]))),
    .call ((Cmd.run (.opD [(⟨⟨(f 0 0), (f 2 0)⟩, .defd⟩ : DItv), (⟨⟨(f 1 0), (f 2 0)⟩, .defd⟩ : DItv)]))),
    .call ((Cmd.run (.opD [(⟨⟨.nzero, (f 2 0)⟩, .trv⟩ : DItv), (⟨⟨(f 1 0), (f 2 0)⟩, .trv⟩ : DItv)]))),
    .call ((Cmd.run (.opD [(⟨⟨(f 1 0), (f 2 0)⟩, .trv⟩ : DItv), (⟨⟨(f 1 0), (f 2 0)⟩, .trv⟩ : DItv)]))),
    .call ((Cmd.run (.opD [(⟨⟨(f 1 0), (f 2 0)⟩, .trv⟩ : DItv), (⟨⟨(f 3 0), (f 4 0)⟩, .defd⟩ : DItv)]))),
    .call ((Cmd.run (.opD [(⟨⟨(f 1 0), (f (7) (-1))⟩, .trv⟩ : DItv), (⟨⟨(f 3 0), (f 4 0)⟩, .trv⟩ : DItv)]))),
    .call ((Cmd.run (.opD [(⟨⟨(f 1 0), (f 4 0)⟩, .trv⟩ : DItv), (⟨⟨(f 3 0), (f 4 0)⟩, .trv⟩ : DItv)]))),
    .call ((Cmd.run (.opD [(⟨⟨(f (-2) (0)), (f (-1) (0))⟩, .trv⟩ : DItv), (⟨⟨(f (-2) (0)), (f (-1) (0))⟩, .trv⟩ : DItv)]))),
    .call ((Cmd.run (.opD [(⟨⟨(f (-3) (0)), (f (-3) (-1))⟩, .trv⟩ : DItv), (⟨⟨(f (-2) (0)), (f (-1) (0))⟩, .trv⟩ : DItv)]))),
    .call ((Cmd.run (.opD [(⟨⟨(f 0 0), (f 0 0)⟩, .trv⟩ : DItv), (⟨⟨.nzero, .nzero⟩, .trv⟩ : DItv)]))),
    .call ((Cmd.run (.opD [(⟨⟨.nzero, .nzero⟩, .trv⟩ : DItv), (⟨⟨(f 0 0), (f 0 0)⟩, .defd⟩ : DItv)]))),
    .call ((Cmd.run (.opD [(⟨⟨.nzero, (f 0 0)⟩, .trv⟩ : DItv), (⟨⟨(f 0 0), (f 0 0)⟩, .trv⟩ : DItv)]))),
    .call ((Cmd.run (.opD [(⟨⟨.nzero, (f 0 0)⟩, .trv⟩ : DItv), (⟨⟨(f 0 0), .nzero⟩, .trv⟩ : DItv)]))),
    .call ((Cmd.run (.opD [(⟨⟨(f 0 0), .nzero⟩, .defd⟩ : DItv), (⟨⟨(f 0 0), (f 0 0)⟩, .trv⟩ : DItv)]))),
    .call ((Cmd.run (.opD [(⟨⟨(f 0 0), .nzero⟩, .trv⟩ : DItv), (⟨⟨.nzero, (f 0 0)⟩, .trv⟩ : DItv)]))),
    .state 865 [],
    .call clearFlags,
    .call ((Cmd.run (.opD [(⟨⟨(f 1 0), (f (-2) (0))⟩, .trv⟩ : DItv), (⟨⟨(f 3 0), (f 4 0)⟩, .defd⟩ : DItv)]))),
    .state 869 [.invalidOperand],
    .call clearFlags,
    .call (setCwd (bitsOf [.invalidOperand])),
    .throws 872 ((Cmd.run (.opD [(⟨⟨(f 1 0), (f 2 0)⟩, .trv⟩ : DItv), (⟨⟨(f 3 0), (f (-4) (0))⟩, .defd⟩ : DItv)]))) .invalidOperand,
    .state 873 [.invalidOperand],
    .call clearFlags,
    .call (setCwd (bitsOf []))] ExSt.init = [] := by
  decide +kernel

/-- `minimal_less_dec_mixedtype_test` -/
example : failed [
    .call clearFlags,
    .call ((Cmd.run (.opD [(⟨⟨.nan, .nan⟩, .ill⟩ : DItv), (⟨⟨.nan, .nan⟩, .ill⟩ : DItv)]))),
    .call ((Cmd.run (.opD [(⟨⟨.nan, .nan⟩, .trv⟩ : DItv), (⟨⟨.nan, .nan⟩, .ill⟩ : DItv)]))),
    .call ((Cmd.run (.opD [(⟨⟨(f 1 0), (f 2 0)⟩, .trv⟩ : DItv), (⟨⟨.nan, .nan⟩, .ill⟩ : DItv)]))),
    .call ((Cmd.run (.opD [(⟨⟨.nan, .nan⟩, .ill⟩ : DItv), (⟨⟨(f 1 0), (f 2 0)⟩, .trv⟩ : DItv)]))),
    .call ((Cmd.run (.opD [(⟨⟨.nan, .nan⟩, .trv⟩ : DItv), (⟨⟨.nan, .nan⟩, .trv⟩ : DItv)]))),
    .call ((Cmd.run (.opD [(⟨⟨(f 1 0), (f 2 0)⟩, .trv⟩ : DItv), (⟨⟨.nan, .nan⟩, .trv⟩ : DItv)]))),
    .call ((Cmd.run (.opD [(⟨⟨.nan, .nan⟩, .trv⟩ : DItv), (⟨⟨(f 1 0), (f 2 0)⟩, .trv⟩ : DItv)]))),
    .call ((Cmd.run (.opD [(⟨⟨.ninf, .pinf⟩, .trv⟩ : DItv), (⟨⟨.ninf, .pinf⟩, .defd⟩ : DItv)]))),
    .call ((Cmd.run (.opD [(⟨⟨(f 1 0), (f 2 0)⟩, .trv⟩ : DItv), (⟨⟨.ninf, .pinf⟩, .trv⟩ : DItv)]))),
    .call ((Cmd.run (.opD [(⟨⟨(f 0 0), (f 2 0)⟩, .defd⟩ : DItv), (⟨⟨.ninf, .pinf⟩, .trv⟩ : DItv)]))),
    .call ((Cmd.run (.opD [(⟨⟨.nzero, (f 2 0)⟩, .trv⟩ : DItv), (⟨⟨.ninf, .pinf⟩, .trv⟩ : DItv)]))),
    .call ((Cmd.run (.opD [(⟨⟨.ninf, .pinf⟩, .trv⟩ : DItv), (⟨⟨(f 1 0), (f 2 0)⟩, .trv⟩ : DItv)]))),
    .call ((Cmd.run (.opD [(⟨⟨.ninf, .pinf⟩, .trv⟩ : DItv), (⟨⟨(f 0 0), (f 2 0)⟩, .defd⟩ : DItv)]))),
    .call ((Cmd.run (.opD [(⟨⟨.ninf, .pinf⟩, .trv⟩ : DItv), (⟨⟨.nzero, (f 2 0)⟩, .trv⟩ : DItv)]))),
    .call ((Cmd.run (.opD [(⟨⟨(f 0 0), (f 2 0)⟩, .trv⟩ : DItv), (⟨⟨(f 0 0), (f 2 0)⟩, .trv⟩ : DItv)]))),
    .call ((Cmd.run (.opD [(⟨⟨(f 0 0), (f 2 0)⟩, .trv⟩ : DItv), (⟨⟨.nzero, (f 2 0)⟩, .trv⟩ : DItv)]))),
    .call ((Cmd.run (.opD [(⟨⟨(f 0 0), (f 2 0)⟩, .defd⟩ : DItv), (⟨⟨(f 1 0), (f 2 0)⟩, .defd⟩ : DItv)]))),
    .call ((Cmd.run (.opD [(⟨⟨.nzero, (f 2 0)⟩, .trv⟩ : DItv), (⟨⟨(f 1 0), (f 2 0)⟩, .trv⟩ : DItv)]))),
    .call ((Cmd.run (.opD [(⟨⟨(f 1 0), (f 2 0)⟩, .trv⟩ : DItv), (⟨⟨(f 1 0), (f 2 0)⟩, .trv⟩ : DItv)]))),
    .call ((Cmd.run (.opD [(⟨⟨(f 1 0), (f 2 0)⟩, .trv⟩ : DItv), (⟨⟨(f 3 0), (f 4 0)⟩, .defd⟩ : DItv)]))),
    .call ((Cmd.run (.opD [(⟨⟨(f 1 0), (f (7) (-1))⟩, .trv⟩ : DItv), (⟨⟨(f 3 0), (f 4 0)⟩, .trv⟩ : DItv)]))),
    .call ((Cmd.run (.opD [(⟨⟨(f 1 0), (f 4 0)⟩, .trv⟩ : DItv), (⟨⟨(f 3 0), (f 4 0)⟩, .trv⟩ : DItv)]))),
    .call ((Cmd.run (.opD [(⟨⟨(f (-2) (0)), (f (-1) (0))⟩, .trv⟩ : DItv), (⟨⟨(f (-2) (0)), (f (-1) (0))⟩, .trv⟩ : DItv)]))),
    .call ((Cmd.run (.opD [(⟨⟨(f (-3) (0)), (f (-3) (-1))⟩, .trv⟩ : DItv), (⟨⟨(f (-2) (0)), (f (-1) (0))⟩, .trv⟩ : DItv)]))),
    .call ((Cmd.run (.opD [(⟨⟨(f 0 0), (f 0 0)⟩, .trv⟩ : DItv), (⟨⟨.nzero, .nzero⟩, .trv⟩ : DItv)]))),
    .call ((Cmd.run (.opD [(⟨⟨.nzero, .nzero⟩, .trv⟩ : DItv), (⟨⟨(f 0 0), (f 0 0)⟩, .trv⟩ : DItv)]))),
    .call ((Cmd.run (.opD [(⟨⟨.nzero, (f 0 0)⟩, .defd⟩ : DItv), (⟨⟨(f 0 0), (f 0 0)⟩, .trv⟩ : DItv)]))),
    .call ((Cmd.run (.opD [(⟨⟨.nzero, (f 0 0)⟩, .trv⟩ : DItv), (⟨⟨(f 0 0), .nzero⟩, .defd⟩ : DItv)]))),
    .call ((Cmd.run (.opD [(⟨⟨(f 0 0), .nzero⟩, .trv⟩ : DItv), (⟨⟨(f 0 0), (f 0 0)⟩, .trv⟩ : DItv)]))),
    .call ((Cmd.run (.opD [(⟨⟨(f 0 0), .nzero⟩, .trv⟩ : DItv), (⟨⟨.nzero, (f 0 0)⟩, .trv⟩ : DItv)]))),
    .call ((Cmd.run (.opD [(⟨⟨.nan, .nan⟩, .ill⟩ : DItv), (⟨⟨.nan, .nan⟩, .ill⟩ : DItv)]))),
    .call ((Cmd.run (.opD [(⟨⟨.nan, .nan⟩, .trv⟩ : DItv), (⟨⟨.nan, .nan⟩, .ill⟩ : DItv)]))),
    .call ((Cmd.run (.opD [(⟨⟨(f 1 0), (f 2 0)⟩, .trv⟩ : DItv), (⟨⟨.nan, .nan⟩, .ill⟩ : DItv)]))),
    .call ((Cmd.run (.opD [(⟨⟨.nan, .nan⟩, .ill⟩ : DItv), (⟨⟨(f 1 0), (f 2 0)⟩, .trv⟩ : DItv)]))),
    .call ((Cmd.run (.opD [(⟨⟨.nan, .nan⟩, .trv⟩ : DItv), (⟨⟨.nan, .nan⟩, .trv⟩ : DItv)]))),
    .call ((Cmd.run (.opD [(⟨⟨(f 1 0), (f 2 0)⟩, .trv⟩ : DItv), (⟨⟨.nan, .nan⟩, .trv⟩ : DItv)]))),
    .call ((Cmd.run (.opD [(⟨⟨.nan, .nan⟩, .trv⟩ : DItv), (⟨⟨(f 1 0), (f 2 0)⟩, .trv⟩ : DItv)]))),
    .call ((Cmd.run (.opD [(⟨⟨.ninf, .pinf⟩, .trv⟩ : DItv), (⟨⟨.ninf, .pinf⟩, .trv⟩ : DItv)]))),
    .call ((Cmd.run (.opD [(⟨⟨(f 1 0), (f 2 0)⟩, .trv⟩ : DItv), (⟨⟨.ninf, .pinf⟩, .trv⟩ : DItv)]))),
    .call ((Cmd.run (.opD [(⟨⟨(f 0 0), (f 2 0)⟩, .defd⟩ : DItv), (⟨⟨.ninf, .pinf⟩, .trv⟩ : DItv)]))),
    .call ((Cmd.run (.opD [(⟨⟨.nzero, (f 2 0)⟩, .trv⟩ : DItv), (⟨⟨.ninf, .pinf⟩, .trv⟩ : DItv)]))),
    .call ((Cmd.run (.opD [(⟨⟨.ninf, .pinf⟩, .trv⟩ : DItv), (⟨⟨(f 1 0), (f 2 0)⟩, .trv⟩ : DItv)]))),
    .call ((Cmd.run (.opD [(⟨⟨.ninf, .pinf⟩, .trv⟩ : DItv), (⟨⟨(f 0 0), (f 2 0)⟩, .defd⟩ : DItv)]))),
    .call ((Cmd.run (.opD [(⟨⟨.ninf, .pinf⟩, .trv⟩ : DItv), (⟨⟨.nzero, (f 2 0)⟩, .trv⟩ : DItv)]))),
    .call ((Cmd.run (.opD [(⟨⟨(f 0 0), (f 2 0)⟩, .trv⟩ : DItv), (⟨⟨(f 0 0), (f 2 0)⟩, .trv⟩ : DItv)]))),
    .call ((Cmd.run (.opD [(⟨⟨(f 0 0), (f 2 0)⟩, .trv⟩ : DItv), (⟨⟨.nzero, (f 2 0)⟩, .trv⟩ : DItv)]))),
    .call ((Cmd.run (.opD [(⟨⟨(f 0 0), (f 2 0)⟩, .trv⟩ : DItv), (⟨⟨(f 1 0), (f 2 0)⟩, .trv⟩ : DItv)]))),
    .call ((Cmd.run (.opD [(⟨⟨.nzero, (f 2 0)⟩, .defd⟩ : DItv), (⟨⟨(f 1 0), (f 2 0)⟩, .defd⟩ : DItv)]))),
    .call ((Cmd.run (.opD [(⟨⟨(f 1 0), (f 2 0)⟩, .trv⟩ : DItv), (⟨⟨(f 1 0), (f 2 0)⟩, .trv⟩ : DItv)]))),
    .call ((Cmd.run (.opD [(⟨⟨(f 1 0), (f 2 0)⟩, .trv⟩ : DItv), (⟨⟨(f 3 0), (f 4 0)⟩, .trv⟩ : DItv)]))),
    .call ((Cmd.run (.opD [(⟨⟨(f 1 0), (f (7) (-1))⟩, .trv⟩ : DItv), (⟨⟨(f 3 0), (f 4 0)⟩, .defd⟩ : DItv)]))),
    .call ((Cmd.run (.opD [(⟨⟨(f 1 0), (f 4 0)⟩, .trv⟩ : DItv), (⟨⟨(f 3 0), (f 4 0)⟩, .trv⟩ : DItv)]))),
    .call ((Cmd.run (.opD [(⟨⟨(f (-2) (0)), (f (-1) (0))⟩, .trv⟩ : DItv), (⟨⟨(f (-2) (0)), (f (-1) (0))⟩, .trv⟩ : DItv)]))),
    .call ((Cmd.run (.opD [(⟨⟨(f (-3) (0)), (f (-3) (-1))⟩, .trv⟩ : DItv), (⟨⟨(f (-2) (0)), (f (-1) (0))⟩, .trv⟩ : DItv)]))),
    .call ((Cmd.run (.opD [(⟨⟨(f 0 0), (f 0 0)⟩, .trv⟩ : DItv), (⟨⟨.nzero, .nzero⟩, .trv⟩ : DItv)]))),
    .call ((Cmd.run (.opD [(⟨⟨.nzero, .nzero⟩, .trv⟩ : DItv), (⟨⟨(f 0 0), (f 0 0)⟩, .trv⟩ : DItv)]))),
    .call ((Cmd.run (.opD [(⟨⟨.nzero, (f 0 0)⟩, .trv⟩ : DItv), (⟨⟨(f 0 0), (f 0 0)⟩, .defd⟩ : DItv)]))),
    .call ((Cmd.run (.opD [(⟨⟨.nzero, (f 0 0)⟩, .trv⟩ : DItv), (⟨⟨(f 0 0), .nzero⟩, .trv⟩ : DItv)]))),
    .call ((Cmd.run (.opD [(⟨⟨(f 0 0), .nzero⟩, .defd⟩ : DItv), (⟨⟨(f 0 0), (f 0 0)⟩, .trv⟩ : DItv)]))),
    .call ((Cmd.run (.opD [(⟨⟨(f 0 0), .nzero⟩, .trv⟩ : DItv), (⟨⟨.nzero, (f 0 0)⟩, .trv⟩ : DItv)]))),
    .state 956 [],
    .call clearFlags,
    .call ((Cmd.run (.opD [(⟨⟨(f 1 0), (f (-2) (0))⟩, .trv⟩ : DItv), (⟨⟨(f 1 0), (f 2 0)⟩, .trv⟩ : DItv)]))),
    .state 960 [.invalidOperand],
    .call clearFlags,
    .call (setCwd (bitsOf [.invalidOperand])),
    .throws 963 ((Cmd.run (.opD [(⟨⟨(f 1 0), (f 2 0)⟩, .trv⟩ : DItv), (⟨⟨(f (-1) (0)), (f (-2) (0))⟩, .trv⟩ : DItv)]))) .invalidOperand,
    .state 964 [.invalidOperand],
    .call clearFlags,
    .call (setCwd (bitsOf []))] ExSt.init = [] := by
  decide +kernel

/-- `minimal_precedes_test` -/
example : failed [
    .call clearFlags,
    .call ((Cmd.run (.op [(⟨.nan, .nan⟩ : Itv), (⟨(f 3 0), (f 4 0)⟩ : Itv)]))),
    .call ((Cmd.run (.op [(⟨(f 3 0), (f 4 0)⟩ : Itv), (⟨.nan, .nan⟩ : Itv)]))),
    .call ((Cmd.run (.op [(⟨.nan, .nan⟩ : Itv), (⟨.nan, .nan⟩ : Itv)]))),
    .call ((Cmd.run (.op [(⟨(f 1 0), (f 2 0)⟩ : Itv), (⟨.ninf, .pinf⟩ : Itv)]))),
    .call ((Cmd.run (.op [(⟨(f 0 0), (f 2 0)⟩ : Itv), (⟨.ninf, .pinf⟩ : Itv)]))),
    .call ((Cmd.run (.op [(⟨.nzero, (f 2 0)⟩ : Itv), (⟨.ninf, .pinf⟩ : Itv)]))),
    .call ((Cmd.run (.op [(⟨.ninf, .pinf⟩ : Itv), (⟨(f 1 0), (f 2 0)⟩ : Itv)]))),
    .call ((Cmd.run (.op [(⟨.ninf, .pinf⟩ : Itv), (⟨.ninf, .pinf⟩ : Itv)]))),
    .call ((Cmd.run (.op [(⟨(f 1 0), (f 2 0)⟩ : Itv), (⟨(f 3 0), (f 4 0)⟩ : Itv)]))),
    .call ((Cmd.run (.op [(⟨(f 1 0), (f 3 0)⟩ : Itv), (⟨(f 3 0), (f 4 0)⟩ : Itv)]))),
    .call ((Cmd.run (.op [(⟨(f (-3) (0)), (f (-1) (0))⟩ : Itv), (⟨(f (-1) (0)), (f 0 0)⟩ : Itv)]))),
    .call ((Cmd.run (.op [(⟨(f (-3) (0)), (f (-1) (0))⟩ : Itv), (⟨(f (-1) (0)), .nzero⟩ : Itv)]))),
    .call ((Cmd.run (.op [(⟨(f 1 0), (f (7) (-1))⟩ : Itv), (⟨(f 3 0), (f 4 0)⟩ : Itv)]))),
    .call ((Cmd.run (.op [(⟨(f 1 0), (f 4 0)⟩ : Itv), (⟨(f 3 0), (f 4 0)⟩ : Itv)]))),
    .call ((Cmd.run (.op [(⟨(f (-3) (0)), (f (-3602879701896397) (-55))⟩ : Itv), (⟨(f (-1) (0)), (f 0 0)⟩ : Itv)]))),
    .call ((Cmd.run (.op [(⟨(f 0 0), (f 0 0)⟩ : Itv), (⟨.nzero, .nzero⟩ : Itv)]))),
    .call ((Cmd.run (.op [(⟨.nzero, .nzero⟩ : Itv), (⟨(f 0 0), (f 0 0)⟩ : Itv)]))),
    .call ((Cmd.run (.op [(⟨.nzero, (f 0 0)⟩ : Itv), (⟨(f 0 0), (f 0 0)⟩ : Itv)]))),
    .call ((Cmd.run (.op [(⟨.nzero, (f 0 0)⟩ : Itv), (⟨(f 0 0), .nzero⟩ : Itv)]))),
    .call ((Cmd.run (.op [(⟨(f 0 0), .nzero⟩ : Itv), (⟨(f 0 0), (f 0 0)⟩ : Itv)]))),
    .call ((Cmd.run (.op [(⟨(f 0 0), .nzero⟩ : Itv), (⟨.nzero, (f 0 0)⟩ : Itv)]))),
    .state 1001 [],
    .call clearFlags,
    .call ((Cmd.run (.op [(⟨(f (-3) (0)), (f (-1) (0))⟩ : Itv), (⟨(f 1 0), (f 0 0)⟩ : Itv)]))),
    .state 1005 [.invalidOperand],
    .call clearFlags,
    .call (setCwd (bitsOf [.invalidOperand])),
    .throws 1008 ((Cmd.run (.op [(⟨(f 3 0), (f (-1) (0))⟩ : Itv), (⟨(f (-1) (0)), (f 0 0)⟩ : Itv)]))) .invalidOperand,
    .state 1009 [.invalidOperand],
    .call clearFlags,
    .call (setCwd (bitsOf []))] ExSt.init = [] := by
  decide +kernel

/-- `minimal_precedes_mixedtype_test` -/
example : failed [
    .call clearFlags,
    .call ((Cmd.run (.op [(⟨.nan, .nan⟩ : Itv), (⟨(f 3 0), (f 4 0)⟩ : Itv)]))),
    .call ((Cmd.run (.op [(⟨(f 3 0), (f 4 0)⟩ : Itv), (⟨.nan, .nan⟩ : Itv)]))),
    .call ((Cmd.run (.op [(⟨.nan, .nan⟩ : Itv), (⟨.nan, .nan⟩ : Itv)]))),
    .call ((Cmd.run (.op [(⟨(f 1 0), (f 2 0)⟩ : Itv), (⟨.ninf, .pinf⟩ : Itv)]))),
    .call ((Cmd.run (.op [(⟨(f 0 0), (f 2 0)⟩ : Itv), (⟨.ninf, .pinf⟩ : Itv)]))),
    .call ((Cmd.run (.op [(⟨.nzero, (f 2 0)⟩ : Itv), (⟨.ninf, .pinf⟩ : Itv)]))),
    .call ((Cmd.run (.op [(⟨.ninf, .pinf⟩ : Itv), (⟨(f 1 0), (f 2 0)⟩ : Itv)]))),
    .call ((Cmd.run (.op [(⟨.ninf, .pinf⟩ : Itv), (⟨.ninf, .pinf⟩ : Itv)]))),
    .call ((Cmd.run (.op [(⟨(f 1 0), (f 2 0)⟩ : Itv), (⟨(f 3 0), (f 4 0)⟩ : Itv)]))),
    .call ((Cmd.run (.op [(⟨(f 1 0), (f 3 0)⟩ : Itv), (⟨(f 3 0), (f 4 0)⟩ : Itv)]))),
    .call ((Cmd.run (.op [(⟨(f (-3) (0)), (f (-1) (0))⟩ : Itv), (⟨(f (-1) (0)), (f 0 0)⟩ : Itv)]))),
    .call ((Cmd.run (.op [(⟨(f (-3) (0)), (f (-1) (0))⟩ : Itv), (⟨(f (-1) (0)), .nzero⟩ : Itv)]))),
    .call ((Cmd.run (.op [(⟨(f 1 0), (f (7) (-1))⟩ : Itv), (⟨(f 3 0), (f 4 0)⟩ : Itv)]))),
    .call ((Cmd.run (.op [(⟨(f 1 0), (f 4 0)⟩ : Itv), (⟨(f 3 0), (f 4 0)⟩ : Itv)]))),
    .call ((Cmd.run (.op [(⟨(f (-3) (0)), (f (-3602879701896397) (-55))⟩ : Itv), (⟨(f (-1) (0)), (f 0 0)⟩ : Itv)]))),
    .call ((Cmd.run (.op [(⟨(f 0 0), (f 0 0)⟩ : Itv), (⟨.nzero, .nzero⟩ : Itv)]))),
    .call ((Cmd.run (.op [(⟨.nzero, .nzero⟩ : Itv), (⟨(f 0 0), (f 0 0)⟩ : Itv)]))),
    .call ((Cmd.run (.op [(⟨.nzero, (f 0 0)⟩ : Itv), (⟨(f 0 0), (f 0 0)⟩ : Itv)]))),
    .call ((Cmd.run (.op [(⟨.nzero, (f 0 0)⟩ : Itv), (⟨(f 0 0), .nzero⟩ : Itv)]))),
    .call ((Cmd.run (.op [(⟨(f 0 0), .nzero⟩ : Itv), (⟨(f 0 0), (f 0 0)⟩ : Itv)]))),
    .call ((Cmd.run (.op [(⟨(f 0 0), .nzero⟩ : Itv), (⟨.nzero, (f 0 0)⟩ : Itv)]))),
    .call ((Cmd.run (.op [(⟨.nan, .nan⟩ : Itv), (⟨(f 3 0), (f 4 0)⟩ : Itv)]))),
    .call ((Cmd.run (.op [(⟨(f 3 0), (f 4 0)⟩ : Itv), (⟨.nan, .nan⟩ : Itv)]))),
    .call ((Cmd.run (.op [(⟨.nan, .nan⟩ : Itv), (⟨.nan, .nan⟩ : Itv)]))),
    .call ((Cmd.run (.op [(⟨(f 1 0), (f 2 0)⟩ : Itv), (⟨.ninf, .pinf⟩ : Itv)]))),
    .call ((Cmd.run (.op [(⟨(f 0 0), (f 2 0)⟩ : Itv), (⟨.ninf, .pinf⟩ : Itv)]))),
    .call ((Cmd.run (.op [(⟨.nzero, (f 2 0)⟩ : Itv), (⟨.ninf, .pinf⟩ : Itv)]))),
    .call ((Cmd.run (.op [(⟨.ninf, .pinf⟩ : Itv), (⟨(f 1 0), (f 2 0)⟩ : Itv)]))),
    .call ((Cmd.run (.op [(⟨.ninf, .pinf⟩ : Itv), (⟨.ninf, .pinf⟩ : Itv)]))),
    .call ((Cmd.run (.op [(⟨(f 1 0), (f 2 0)⟩ : Itv), (⟨(f 3 0), (f 4 0)⟩ : Itv)]))),
    .call ((Cmd.run (.op [(⟨(f 1 0), (f 3 0)⟩ : Itv), (⟨(f 3 0), (f 4 0)⟩ : Itv)]))),
    .call ((Cmd.run (.op [(⟨(f (-3) (0)), (f (-1) (0))⟩ : Itv), (⟨(f (-1) (0)), (f 0 0)⟩ : Itv)]))),
    .call ((Cmd.run (.op [(⟨(f (-3) (0)), (f (-1) (0))⟩ : Itv), (⟨(f (-1) (0)), .nzero⟩ : Itv)]))),
    .call ((Cmd.run (.op [(⟨(f 1 0), (f (7) (-1))⟩ : Itv), (⟨(f 3 0), (f 4 0)⟩ : Itv)]))),
    .call ((Cmd.run (.op [(⟨(f 1 0), (f 4 0)⟩ : Itv), (⟨(f 3 0), (f 4 0)⟩ : Itv)]))),
    .call ((Cmd.run (.op [(⟨(f (-3) (0)), (f (-13421773) (-27))⟩ : Itv), (⟨(f (-1) (0)), (f 0 0)⟩ : Itv)]))),
    .call ((Cmd.run (.op [(⟨(f 0 0), (f 0 0)⟩ : Itv), (⟨.nzero, .nzero⟩ : Itv)]))),
    .call ((Cmd.run (.op [(⟨.nzero, .nzero⟩ : Itv), (⟨(f 0 0), (f 0 0)⟩ : Itv)]))),
    .call ((Cmd.run (.op [(⟨.nzero, (f 0 0)⟩ : Itv), (⟨(f 0 0), (f 0 0)⟩ : Itv)]))),
    .call ((Cmd.run (.op [(⟨.nzero, (f 0 0)⟩ : Itv), (⟨(f 0 0), .nzero⟩ : Itv)]))),
    .call ((Cmd.run (.op [(⟨(f 0 0), .nzero⟩ : Itv), (⟨(f 0 0), (f 0 0)⟩ : Itv)]))),
    .call ((Cmd.run (.op [(⟨(f 0 0), .nzero⟩ : Itv), (⟨.nzero, (f 0 0)⟩ : Itv)]))),
    .state 1070 [],
    .call clearFlags,
    .call ((Cmd.run (.op [(⟨(f 1 0), (f (7) (-1))⟩ : Itv), (⟨(f 3 0), (f (-4) (0))⟩ : Itv)]))),
    .state 1074 [.invalidOperand],
    .call clearFlags,
    .call (setCwd (bitsOf [.invalidOperand])),
    .throws 1077 ((Cmd.run (.op [(⟨(f 1 0), (f (-7) (-1))⟩ : Itv), (⟨(f 3 0), (f 4 0)⟩ : Itv)]))) .invalidOperand,
    .state 1078 [.invalidOperand],
    .call clearFlags,
    .call (setCwd (bitsOf []))] ExSt.init = [] := by
  decide +kernel

/-- `minimal_precedes_dec_test` -/
example : failed [
    .call clearFlags,
    .call ((Cmd.run (.opD [(⟨⟨.nan, .nan⟩, .ill⟩ : DItv), (⟨⟨(f 3 0), (f 4 0)⟩, .defd⟩ : DItv)]))),
    .call ((Cmd.run (.opD [(⟨⟨(f 3 0), (f 4 0)⟩, .trv⟩ : DItv), (⟨⟨.nan, .nan⟩, .ill⟩ : DItv)]))),
    .call ((Cmd.run (.opD [(⟨⟨.nan, .nan⟩, .ill⟩ : DItv), (⟨⟨.nan, .nan⟩, .trv⟩ : DItv)]))),
    .call ((Cmd.run (.opD [(⟨⟨.nan, .nan⟩, .ill⟩ : DItv), (⟨⟨.nan, .nan⟩, .ill⟩ : DItv)]))),
    .call ((Cmd.run (.opD [(⟨⟨.nan, .nan⟩, .trv⟩ : DItv), (⟨⟨(f 3 0), (f 4 0)⟩, .trv⟩ : DItv)]))),
    .call ((Cmd.run (.opD [(⟨⟨(f 3 0), (f 4 0)⟩, .trv⟩ : DItv), (⟨⟨.nan, .nan⟩, .trv⟩ : DItv)]))),
    .call ((Cmd.run (.opD [(⟨⟨.nan, .nan⟩, .trv⟩ : DItv), (⟨⟨.nan, .nan⟩, .trv⟩ : DItv)]))),
    .call ((Cmd.run (.opD [(⟨⟨(f 1 0), (f 2 0)⟩, .trv⟩ : DItv), (⟨⟨.ninf, .pinf⟩, .trv⟩ : DItv)]))),
    .call ((Cmd.run (.opD [(⟨⟨(f 0 0), (f 2 0)⟩, .trv⟩ : DItv), (⟨⟨.ninf, .pinf⟩, .trv⟩ : DItv)]))),
    .call ((Cmd.run (.opD [(⟨⟨.nzero, (f 2 0)⟩, .trv⟩ : DItv), (⟨⟨.ninf, .pinf⟩, .trv⟩ : DItv)]))),
    .call ((Cmd.run (.opD [(⟨⟨.ninf, .pinf⟩, .trv⟩ : DItv), (⟨⟨(f 1 0), (f 2 0)⟩, .trv⟩ : DItv)]))),
    .call ((Cmd.run (.opD [(⟨⟨.ninf, .pinf⟩, .trv⟩ : DItv), (⟨⟨.ninf, .pinf⟩, .trv⟩ : DItv)]))),
    .call ((Cmd.run (.opD [(⟨⟨(f 1 0), (f 2 0)⟩, .trv⟩ : DItv), (⟨⟨(f 3 0), (f 4 0)⟩, .trv⟩ : DItv)]))),
    .call ((Cmd.run (.opD [(⟨⟨(f 1 0), (f 3 0)⟩, .trv⟩ : DItv), (⟨⟨(f 3 0), (f 4 0)⟩, .defd⟩ : DItv)]))),
    .call ((Cmd.run (.opD [(⟨⟨(f (-3) (0)), (f (-1) (0))⟩, .defd⟩ : DItv), (⟨⟨(f (-1) (0)), (f 0 0)⟩, .trv⟩ : DItv)]))),
    .call ((Cmd.run (.opD [(⟨⟨(f (-3) (0)), (f (-1) (0))⟩, .trv⟩ : DItv), (⟨⟨(f (-1) (0)), .nzero⟩, .trv⟩ : DItv)]))),
    .call ((Cmd.run (.opD [(⟨⟨(f 1 0), (f (7) (-1))⟩, .trv⟩ : DItv), (⟨⟨(f 3 0), (f 4 0)⟩, .trv⟩ : DItv)]))),
    .call ((Cmd.run (.opD [(⟨⟨(f 1 0), (f 4 0)⟩, .trv⟩ : DItv), (⟨⟨(f 3 0), (f 4 0)⟩, .trv⟩ : DItv)]))),
    .call ((Cmd.run (.opD [(⟨⟨(f (-3) (0)), (f (-3602879701896397) (-55))⟩, .trv⟩ : DItv), (⟨⟨(f (-1) (0)), (f 0 0)⟩, .trv⟩ : DItv)]))),
    .call ((Cmd.run (.opD [(⟨⟨(f 0 0), (f 0 0)⟩, .trv⟩ : DItv), (⟨⟨.nzero, .nzero⟩, .trv⟩ : DItv)]))),
    .call ((Cmd.run (.opD [(⟨⟨.nzero, .nzero⟩, .trv⟩ : DItv), (⟨⟨(f 0 0), (f 0 0)⟩, .defd⟩ : DItv)]))),
    .call ((Cmd.run (.opD [(⟨⟨.nzero, (f 0 0)⟩, .trv⟩ : DItv), (⟨⟨(f 0 0), (f 0 0)⟩, .trv⟩ : DItv)]))),
    .call ((Cmd.run (.opD [(⟨⟨.nzero, (f 0 0)⟩, .defd⟩ : DItv), (⟨⟨(f 0 0), .nzero⟩, .trv⟩ : DItv)]))),
    .call ((Cmd.run (.opD [(⟨⟨(f 0 0), .nzero⟩, .trv⟩ : DItv), (⟨⟨(f 0 0), (f 0 0)⟩, .trv⟩ : DItv)]))),
    .call ((Cmd.run (.opD [(⟨⟨(f 0 0), .nzero⟩, .trv⟩ : DItv), (⟨⟨.nzero, (f 0 0)⟩, .trv⟩ : DItv)]))),
    .state 1120 [],
    .call clearFlags,
    .call ((Cmd.run (.opD [(⟨⟨(f 1 0), (f (7) (-1))⟩, .ill⟩ : DItv), (⟨⟨(f 3 0), (f 4 0)⟩, .trv⟩ : DItv)]))),
    .state 1124 [.invalidOperand],
    .call clearFlags,
    .call (setCwd (bitsOf [.invalidOperand])),
    .throws 1127 ((Cmd.run (.opD [(⟨⟨(f 1 0), (f (7) (-1))⟩, .trv⟩ : DItv), (⟨⟨(f 3 0), (f (-4) (0))⟩, .trv⟩ : DItv)]))) .invalidOperand,
    .state 1128 [.invalidOperand],
    .call clearFlags,
    .call (setCwd (bitsOf []))] ExSt.init = [] := by
  decide +kernel

/-- `minimal_precedes_dec_mixedtype_test` -/
example : failed [
    .call clearFlags,
    .call ((Cmd.run (.opD [(⟨⟨.nan, .nan⟩, .ill⟩ : DItv), (⟨⟨(f 3 0), (f 4 0)⟩, .trv⟩ : DItv)]))),
    .call ((Cmd.run (.opD [(⟨⟨(f 3 0), (f 4 0)⟩, .trv⟩ : DItv), (⟨⟨.nan, .nan⟩, .ill⟩ : DItv)]))),
    .call ((Cmd.run (.opD [(⟨⟨.nan, .nan⟩, .trv⟩ : DItv), (⟨⟨.nan, .nan⟩, .ill⟩ : DItv)]))),
    .call ((Cmd.run (.opD [(⟨⟨.nan, .nan⟩, .ill⟩ : DItv), (⟨⟨.nan, .nan⟩, .ill⟩ : DItv)]))),
    .call ((Cmd.run (.opD [(⟨⟨.nan, .nan⟩, .trv⟩ : DItv), (⟨⟨(f 3 0), (f 4 0)⟩, .trv⟩ : DItv)]))),
    .call ((Cmd.run (.opD [(⟨⟨(f 3 0), (f 4 0)⟩, .trv⟩ : DItv), (⟨⟨.nan, .nan⟩, .trv⟩ : DItv)]))),
    .call ((Cmd.run (.opD [(⟨⟨.nan, .nan⟩, .trv⟩ : DItv), (⟨⟨.nan, .nan⟩, .trv⟩ : DItv)]))),
    .call ((Cmd.run (.opD [(⟨⟨(f 1 0), (f 2 0)⟩, .trv⟩ : DItv), (⟨⟨.ninf, .pinf⟩, .trv⟩ : DItv)]))),
    .call ((Cmd.run (.opD [(⟨⟨(f 0 0), (f 2 0)⟩, .defd⟩ : DItv), (⟨⟨.ninf, .pinf⟩, .trv⟩ : DItv)]))),
    .call ((Cmd.run (.opD [(⟨⟨.nzero, (f 2 0)⟩, .trv⟩ : DItv), (⟨⟨.ninf, .pinf⟩, .trv⟩ : DItv)]))),
    .call ((Cmd.run (.opD [(⟨⟨.ninf, .pinf⟩, .trv⟩ : DItv), (⟨⟨(f 1 0), (f 2 0)⟩, .trv⟩ : DItv)]))),
    .call ((Cmd.run (.opD [(⟨⟨.ninf, .pinf⟩, .trv⟩ : DItv), (⟨⟨.ninf, .pinf⟩, .trv⟩ : DItv)]))),
    .call ((Cmd.run (.opD [(⟨⟨(f 1 0), (f 2 0)⟩, .trv⟩ : DItv), (⟨⟨(f 3 0), (f 4 0)⟩, .trv⟩ : DItv)]))),
    .call ((Cmd.run (.opD [(⟨⟨(f 1 0), (f 3 0)⟩, .trv⟩ : DItv), (⟨⟨(f 3 0), (f 4 0)⟩, .trv⟩ : DItv)]))),
    .call ((Cmd.run (.opD [(⟨⟨(f (-3) (0)), (f (-1) (0))⟩, .trv⟩ : DItv), (⟨⟨(f (-1) (0)), (f 0 0)⟩, .defd⟩ : DItv)]))),
    .call ((Cmd.run (.opD [(⟨⟨(f (-3) (0)), (f (-1) (0))⟩, .trv⟩ : DItv), (⟨⟨(f (-1) (0)), .nzero⟩, .trv⟩ : DItv)]))),
    .call ((Cmd.run (.opD [(⟨⟨(f 1 0), (f (7) (-1))⟩, .trv⟩ : DItv), (⟨⟨(f 3 0), (f 4 0)⟩, .trv⟩ : DItv)]))),
    .call ((Cmd.run (.opD [(⟨⟨(f 1 0), (f 4 0)⟩, .defd⟩ : DItv), (⟨⟨(f 3 0), (f 4 0)⟩, .trv⟩ : DItv)]))),
    .call ((Cmd.run (.opD [(⟨⟨(f (-3) (0)), (f (-3602879701896397) (-55))⟩, .trv⟩ : DItv), (⟨⟨(f (-1) (0)), (f 0 0)⟩, .trv⟩ : DItv)]))),
    .call ((Cmd.run (.opD [(⟨⟨(f 0 0), (f 0 0)⟩, .trv⟩ : DItv), (⟨⟨.nzero, .nzero⟩, .trv⟩ : DItv)]))),
    .call ((Cmd.run (.opD [(⟨⟨.nzero, .nzero⟩, .trv⟩ : DItv), (⟨⟨(f 0 0), (f 0 0)⟩, .trv⟩ : DItv)]))),
    .call ((Cmd.run (.opD [(⟨⟨.nzero, (f 0 0)⟩, .defd⟩ : DItv), (⟨⟨(f 0 0), (f 0 0)⟩, .defd⟩ : DItv)]))),
    .call ((Cmd.run (.opD [(⟨⟨.nzero, (f 0 0)⟩, .trv⟩ : DItv), (⟨⟨(f 0 0), .nzero⟩, .trv⟩ : DItv)]))),
    .call ((Cmd.run (.opD [(⟨⟨(f 0 0), .nzero⟩, .trv⟩ : DItv), (⟨⟨(f 0 0), (f 0 0)⟩, .trv⟩ : DItv)]))),
    .call ((Cmd.run (.opD [(⟨⟨(f 0 0), .nzero⟩, .trv⟩ : DItv), (⟨⟨.nzero, (f 0 0)⟩, .trv⟩ : DItv)]))),
    .call ((Cmd.run (.opD [(⟨⟨.nan, .nan⟩, .ill⟩ : DItv), (⟨⟨(f 3 0), (f 4 0)⟩, .trv⟩ : DItv)]))),
    .call ((Cmd.run (.opD [(⟨⟨(f 3 0), (f 4 0)⟩, .trv⟩ : DItv), (⟨⟨.nan, .nan⟩, .ill⟩ : DItv)]))),
    .call ((Cmd.run (.opD [(⟨⟨.nan, .nan⟩, .trv⟩ : DItv), (⟨⟨.nan, .nan⟩, .ill⟩ : DItv)]))),
    .call ((Cmd.run (.opD [(⟨⟨.nan, .nan⟩, .ill⟩ : DItv), (⟨⟨.nan, .nan⟩, .ill⟩ : DItv)]))),
    .call ((Cmd.run (.opD [(⟨⟨.nan, .nan⟩, .trv⟩ : DItv), (⟨⟨(f 3 0), (f 4 0)⟩, .trv⟩ : DItv)]))),
    .call ((Cmd.run (.opD [(⟨⟨(f 3 0), (f 4 0)⟩, .trv⟩ : DItv), (⟨⟨.nan, .nan⟩, .trv⟩ : DItv)]))),
    .call ((Cmd.run (.opD [(⟨⟨.nan, .nan⟩, .trv⟩ : DItv), (⟨⟨.nan, .nan⟩, .trv⟩ : DItv)]))),
    .call ((Cmd.run (.opD [(⟨⟨(f 1 0), (f 2 0)⟩, .trv⟩ : DItv), (⟨⟨.ninf, .pinf⟩, .trv⟩ : DItv)]))),
    .call ((Cmd.run (.opD [(⟨⟨(f 0 0), (f 2 0)⟩, .trv⟩ : DItv), (⟨⟨.ninf, .pinf⟩, .trv⟩ : DItv)]))),
    .call ((Cmd.run (.opD [(⟨⟨.nzero, (f 2 0)⟩, .trv⟩ : DItv), (⟨⟨.ninf, .pinf⟩, .trv⟩ : DItv)]))),
    .call ((Cmd.run (.opD [(⟨⟨.ninf, .pinf⟩, .trv⟩ : DItv), (⟨⟨(f 1 0), (f 2 0)⟩, .trv⟩ : DItv)]))),
    .call ((Cmd.run (.opD [(⟨⟨.ninf, .pinf⟩, .trv⟩ : DItv), (⟨⟨.ninf, .pinf⟩, .trv⟩ : DItv)]))),
    .call ((Cmd.run (.opD [(⟨⟨(f 1 0), (f 2 0)⟩, .trv⟩ : DItv), (⟨⟨(f 3 0), (f 4 0)⟩, .trv⟩ : DItv)]))),
    .call ((Cmd.run (.opD [(⟨⟨(f 1 0), (f 3 0)⟩, .trv⟩ : DItv), (⟨⟨(f 3 0), (f 4 0)⟩, .defd⟩ : DItv)]))),
    .call ((Cmd.run (.opD [(⟨⟨(f (-3) (0)), (f (-1) (0))⟩, .defd⟩ : DItv), (⟨⟨(f (-1) (0)), (f 0 0)⟩, .trv⟩ : DItv)]))),
    .call ((Cmd.run (.opD [(⟨⟨(f (-3) (0)), (f (-1) (0))⟩, .defd⟩ : DItv), (⟨⟨(f (-1) (0)), .nzero⟩, .defd⟩ : DItv)]))),
    .call ((Cmd.run (.opD [(⟨⟨(f 1 0), (f (7) (-1))⟩, .trv⟩ : DItv), (⟨⟨(f 3 0), (f 4 0)⟩, .trv⟩ : DItv)]))),
    .call ((Cmd.run (.opD [(⟨⟨(f 1 0), (f 4 0)⟩, .trv⟩ : DItv), (⟨⟨(f 3 0), (f 4 0)⟩, .trv⟩ : DItv)]))),
    .call ((Cmd.run (.opD [(⟨⟨(f (-3) (0)), (f (-13421773) (-27))⟩, .trv⟩ : DItv), (⟨⟨(f (-1) (0)), (f 0 0)⟩, .trv⟩ : DItv)]))),
    .call ((Cmd.run (.opD [(⟨⟨(f 0 0), (f 0 0)⟩, .trv⟩ : DItv), (⟨⟨.nzero, .nzero⟩, .trv⟩ : DItv)]))),
    .call ((Cmd.run (.opD [(⟨⟨.nzero, .nzero⟩, .defd⟩ : DItv), (⟨⟨(f 0 0), (f 0 0)⟩, .defd⟩ : DItv)]))),
    .call ((Cmd.run (.opD [(⟨⟨.nzero, (f 0 0)⟩, .trv⟩ : DItv), (⟨⟨(f 0 0), (f 0 0)⟩, .defd⟩ : DItv)]))),
    .call ((Cmd.run (.opD [(⟨⟨.nzero, (f 0 0)⟩, .trv⟩ : DItv), (⟨⟨(f 0 0), .nzero⟩, .trv⟩ : DItv)]))),
    .call ((Cmd.run (.opD [(⟨⟨(f 0 0), .nzero⟩, .trv⟩ : DItv), (⟨⟨(f 0 0), (f 0 0)⟩, .trv⟩ : DItv)]))),
    .call ((Cmd.run (.opD [(⟨⟨(f 0 0), .nzero⟩, .trv⟩ : DItv), (⟨⟨.nzero, (f 0 0)⟩, .trv⟩ : DItv)]))),
    .state 1199 [],
    .call clearFlags,
    .call ((Cmd.run (.opD [(⟨⟨(f 1 0), (f (-4) (0))⟩, .defd⟩ : DItv), (⟨⟨(f 3 0), (f 4 0)⟩, .trv⟩ : DItv)]))),
    .state 1203 [.invalidOperand],
    .call clearFlags,
    .call (setCwd (bitsOf [.invalidOperand])),
    .throws 1206 ((Cmd.run (.opD [(⟨⟨(f 1 0), (f 4 0)⟩, .defd⟩ : DItv), (⟨⟨(f 3 0), (f (-4) (0))⟩, .trv⟩ : DItv)]))) .invalidOperand,
    .state 1207 [.invalidOperand],
    .call clearFlags,
    .call (setCwd (bitsOf []))] ExSt.init = [] := by
  decide +kernel

/-- `minimal_interior_test` -/
example : failed [
    .call clearFlags,
    .call ((Cmd.run (.op [(⟨.nan, .nan⟩ : Itv), (⟨.nan, .nan⟩ : Itv)]))),
    .call ((Cmd.run (.op [(⟨.nan, .nan⟩ : Itv), (⟨(f 0 0), (f 4 0)⟩ : Itv)]))),
    .call ((Cmd.run (.op [(⟨(f 0 0), (f 4 0)⟩ : Itv), (⟨.nan, .nan⟩ : Itv)]))),
    .call ((Cmd.run (.op [(⟨.ninf, .pinf⟩ : Itv), (⟨.ninf, .pinf⟩ : Itv)]))),
    .call ((Cmd.run (.op [(⟨(f 0 0), (f 4 0)⟩ : Itv), (⟨.ninf, .pinf⟩ : Itv)]))),
    .call ((Cmd.run (.op [(⟨.nan, .nan⟩ : Itv), (⟨.ninf, .pinf⟩ : Itv)]))),
    .call ((Cmd.run (.op [(⟨.ninf, .pinf⟩ : Itv), (⟨(f 0 0), (f 4 0)⟩ : Itv)]))),
    .call ((Cmd.run (.op [(⟨(f 0 0), (f 4 0)⟩ : Itv), (⟨(f 0 0), (f 4 0)⟩ : Itv)]))),
    .call ((Cmd.run (.op [(⟨(f 1 0), (f 2 0)⟩ : Itv), (⟨(f 0 0), (f 4 0)⟩ : Itv)]))),
    .call ((Cmd.run (.op [(⟨(f (-2) (0)), (f 2 0)⟩ : Itv), (⟨(f (-2) (0)), (f 4 0)⟩ : Itv)]))),
    .call ((Cmd.run (.op [(⟨.nzero, .nzero⟩ : Itv), (⟨(f (-2) (0)), (f 4 0)⟩ : Itv)]))),
    .call ((Cmd.run (.op [(⟨(f 0 0), (f 0 0)⟩ : Itv), (⟨(f (-2) (0)), (f 4 0)⟩ : Itv)]))),
    .call ((Cmd.run (.op [(⟨(f 0 0), (f 0 0)⟩ : Itv), (⟨.nzero, .nzero⟩ : Itv)]))),
    .call ((Cmd.run (.op [(⟨(f 0 0), (f (2476979795053773) (-49))⟩ : Itv), (⟨(f 0 0), (f 4 0)⟩ : Itv)]))),
    .call ((Cmd.run (.op [(⟨(f (-1) (0)), (f (-1) (0))⟩ : Itv), (⟨(f 0 0), (f 4 0)⟩ : Itv)]))),
    .call ((Cmd.run (.op [(⟨(f 2 0), (f 2 0)⟩ : Itv), (⟨(f (-2) (0)), (f (-1) (0))⟩ : Itv)]))),
    .state 1237 [],
    .call clearFlags,
    .call ((Cmd.run (.op [(⟨.nzero, (f (-1) (0))⟩ : Itv), (⟨(f (-2) (0)), (f 4 0)⟩ : Itv)]))),
    .state 1241 [.invalidOperand],
    .call clearFlags,
    .call (setCwd (bitsOf [.invalidOperand])),
    .throws 1244 ((Cmd.run (.op [(⟨.nzero, .nzero⟩ : Itv), (⟨(f (-2) (0)), (f (-4) (0))⟩ : Itv)]))) .invalidOperand,
    .state 1245 [.invalidOperand],
    .call clearFlags,
    .call (setCwd (bitsOf []))] ExSt.init = [] := by
  decide +kernel

/-- `minimal_interior_mixedtype_test` -/
example : failed [
    .call clearFlags,
    .call ((Cmd.run (.op [(⟨.nan, .nan⟩ : Itv), (⟨.nan, .nan⟩ : Itv)]))),
    .call ((Cmd.run (.op [(⟨.nan, .nan⟩ : Itv), (⟨(f 0 0), (f 4 0)⟩ : Itv)]))),
    .call ((Cmd.run (.op [(⟨(f 0 0), (f 4 0)⟩ : Itv), (⟨.nan, .nan⟩ : Itv)]))),
    .call ((Cmd.run (.op [(⟨.ninf, .pinf⟩ : Itv), (⟨.ninf, .pinf⟩ : Itv)]))),
    .call ((Cmd.run (.op [(⟨(f 0 0), (f 4 0)⟩ : Itv), (⟨.ninf, .pinf⟩ : Itv)]))),
    .call ((Cmd.run (.op [(⟨.nan, .nan⟩ : Itv), (⟨.ninf, .pinf⟩ : Itv)]))),
    .call ((Cmd.run (.op [(⟨.ninf, .pinf⟩ : Itv), (⟨(f 0 0), (f 4 0)⟩ : Itv)]))),
    .call ((Cmd.run (.op [(⟨(f 0 0), (f 4 0)⟩ : Itv), (⟨(f 0 0), (f 4 0)⟩ : Itv)]))),
    .call ((Cmd.run (.op [(⟨(f 1 0), (f 2 0)⟩ : Itv), (⟨(f 0 0), (f 4 0)⟩ : Itv)]))),
    .call ((Cmd.run (.op [(⟨(f (-2) (0)), (f 2 0)⟩ : Itv), (⟨(f (-2) (0)), (f 4 0)⟩ : Itv)]))),
    .call ((Cmd.run (.op [(⟨.nzero, .nzero⟩ : Itv), (⟨(f (-2) (0)), (f 4 0)⟩ : Itv)]))),
    .call ((Cmd.run (.op [(⟨(f 0 0), (f 0 0)⟩ : Itv), (⟨(f (-2) (0)), (f 4 0)⟩ : Itv)]))),
    .call ((Cmd.run (.op [(⟨(f 0 0), (f 0 0)⟩ : Itv), (⟨.nzero, .nzero⟩ : Itv)]))),
    .call ((Cmd.run (.op [(⟨(f 0 0), (f (2476979795053773) (-49))⟩ : Itv), (⟨(f 0 0), (f 4 0)⟩ : Itv)]))),
    .call ((Cmd.run (.op [(⟨(f (-1) (0)), (f (-1) (0))⟩ : Itv), (⟨(f 0 0), (f 4 0)⟩ : Itv)]))),
    .call ((Cmd.run (.op [(⟨(f 2 0), (f 2 0)⟩ : Itv), (⟨(f (-2) (0)), (f (-1) (0))⟩ : Itv)]))),
    .call ((Cmd.run (.op [(⟨.nan, .nan⟩ : Itv), (⟨.nan, .nan⟩ : Itv)]))),
    .call ((Cmd.run (.op [(⟨.nan, .nan⟩ : Itv), (⟨(f 0 0), (f 4 0)⟩ : Itv)]))),
    .call ((Cmd.run (.op [(⟨(f 0 0), (f 4 0)⟩ : Itv), (⟨.nan, .nan⟩ : Itv)]))),
    .call ((Cmd.run (.op [(⟨.ninf, .pinf⟩ : Itv), (⟨.ninf, .pinf⟩ : Itv)]))),
    .call ((Cmd.run (.op [(⟨(f 0 0), (f 4 0)⟩ : Itv), (⟨.ninf, .pinf⟩ : Itv)]))),
    .call ((Cmd.run (.op [(⟨.nan, .nan⟩ : Itv), (⟨.ninf, .pinf⟩ : Itv)]))),
    .call ((Cmd.run (.op [(⟨.ninf, .pinf⟩ : Itv), (⟨(f 0 0), (f 4 0)⟩ : Itv)]))),
    .call ((Cmd.run (.op [(⟨(f 0 0), (f 4 0)⟩ : Itv), (⟨(f 0 0), (f 4 0)⟩ : Itv)]))),
    .call ((Cmd.run (.op [(⟨(f 1 0), (f 2 0)⟩ : Itv), (⟨(f 0 0), (f 4 0)⟩ : Itv)]))),
    .call ((Cmd.run (.op [(⟨(f (-2) (0)), (f 2 0)⟩ : Itv), (⟨(f (-2) (0)), (f 4 0)⟩ : Itv)]))),
    .call ((Cmd.run (.op [(⟨.nzero, .nzero⟩ : Itv), (⟨(f (-2) (0)), (f 4 0)⟩ : Itv)]))),
    .call ((Cmd.run (.op [(⟨(f 0 0), (f 0 0)⟩ : Itv), (⟨(f (-2) (0)), (f 4 0)⟩ : Itv)]))),
    .call ((Cmd.run (.op [(⟨(f 0 0), (f 0 0)⟩ : Itv), (⟨.nzero, .nzero⟩ : Itv)]))),
    .call ((Cmd.run (.op [(⟨(f 0 0), (f (9227469) (-21))⟩ : Itv), (⟨(f 0 0), (f 4 0)⟩ : Itv)]))),
    .call ((Cmd.run (.op [(⟨(f (-1) (0)), (f (-1) (0))⟩ : Itv), (⟨(f 0 0), (f 4 0)⟩ : Itv)]))),
    .call ((Cmd.run (.op [(⟨(f 2 0), (f 2 0)⟩ : Itv), (⟨(f (-2) (0)), (f (-1) (0))⟩ : Itv)]))),
    .state 1294 [],
    .call clearFlags,
    .call ((Cmd.run (.op [(⟨(f 1 0), (f (-1) (0))⟩ : Itv), (⟨(f 0 0), (f 4 0)⟩ : Itv)]))),
    .state 1298 [.invalidOperand],
    .call clearFlags,
    .call (setCwd (bitsOf [.invalidOperand])),
    .throws 1301 ((Cmd.run (.op [(⟨(f (-1) (0)), (f (-1) (0))⟩ : Itv), (⟨(f 10 0), (f 4 0)⟩ : Itv)]))) .invalidOperand,
    .state 1302 [.invalidOperand],
    .call clearFlags,
    .call (setCwd (bitsOf []))] ExSt.init = [] := by
  decide +kernel

/-- `minimal_interior_dec_test` -/
example : failed [
    .call clearFlags,
    .call ((Cmd.run (.opD [(⟨⟨.nan, .nan⟩, .ill⟩ : DItv), (⟨⟨.nan, .nan⟩, .ill⟩ : DItv)]))),
    .call ((Cmd.run (.opD [(⟨⟨.nan, .nan⟩, .ill⟩ : DItv), (⟨⟨.nan, .nan⟩, .trv⟩ : DItv)]))),
    .call ((Cmd.run (.opD [(⟨⟨.nan, .nan⟩, .ill⟩ : DItv), (⟨⟨(f 0 0), (f 4 0)⟩, .trv⟩ : DItv)]))),
    .call ((Cmd.run (.opD [(⟨⟨(f 0 0), (f 4 0)⟩, .defd⟩ : DItv), (⟨⟨.nan, .nan⟩, .ill⟩ : DItv)]))),
    .call ((Cmd.run (.opD [(⟨⟨.nan, .nan⟩, .trv⟩ : DItv), (⟨⟨.nan, .nan⟩, .trv⟩ : DItv)]))),
    .call ((Cmd.run (.opD [(⟨⟨.nan, .nan⟩, .trv⟩ : DItv), (⟨⟨(f 0 0), (f 4 0)⟩, .trv⟩ : DItv)]))),
    .call ((Cmd.run (.opD [(⟨⟨(f 0 0), (f 4 0)⟩, .trv⟩ : DItv), (⟨⟨.nan, .nan⟩, .trv⟩ : DItv)]))),
    .call ((Cmd.run (.opD [(⟨⟨.ninf, .pinf⟩, .trv⟩ : DItv), (⟨⟨.ninf, .pinf⟩, .trv⟩ : DItv)]))),
    .call ((Cmd.run (.opD [(⟨⟨(f 0 0), (f 4 0)⟩, .trv⟩ : DItv), (⟨⟨.ninf, .pinf⟩, .trv⟩ : DItv)]))),
    .call ((Cmd.run (.opD [(⟨⟨.nan, .nan⟩, .trv⟩ : DItv), (⟨⟨.ninf, .pinf⟩, .trv⟩ : DItv)]))),
    .call ((Cmd.run (.opD [(⟨⟨.ninf, .pinf⟩, .trv⟩ : DItv), (⟨⟨(f 0 0), (f 4 0)⟩, .trv⟩ : DItv)]))),
    .call ((Cmd.run (.opD [(⟨⟨(f 0 0), (f 4 0)⟩, .trv⟩ : DItv), (⟨⟨(f 0 0), (f 4 0)⟩, .trv⟩ : DItv)]))),
    .call ((Cmd.run (.opD [(⟨⟨(f 1 0), (f 2 0)⟩, .defd⟩ : DItv), (⟨⟨(f 0 0), (f 4 0)⟩, .trv⟩ : DItv)]))),
    .call ((Cmd.run (.opD [(⟨⟨(f (-2) (0)), (f 2 0)⟩, .trv⟩ : DItv), (⟨⟨(f (-2) (0)), (f 4 0)⟩, .defd⟩ : DItv)]))),
    .call ((Cmd.run (.opD [(⟨⟨.nzero, .nzero⟩, .trv⟩ : DItv), (⟨⟨(f (-2) (0)), (f 4 0)⟩, .trv⟩ : DItv)]))),
    .call ((Cmd.run (.opD [(⟨⟨(f 0 0), (f 0 0)⟩, .defd⟩ : DItv), (⟨⟨(f (-2) (0)), (f 4 0)⟩, .trv⟩ : DItv)]))),
    .call ((Cmd.run (.opD [(⟨⟨(f 0 0), (f 0 0)⟩, .trv⟩ : DItv), (⟨⟨.nzero, .nzero⟩, .trv⟩ : DItv)]))),
    .call ((Cmd.run (.opD [(⟨⟨(f 0 0), (f (2476979795053773) (-49))⟩, .trv⟩ : DItv), (⟨⟨(f 0 0), (f 4 0)⟩, .trv⟩ : DItv)]))),
    .call ((Cmd.run (.opD [(⟨⟨(f (-1) (0)), (f (-1) (0))⟩, .trv⟩ : DItv), (⟨⟨(f 0 0), (f 4 0)⟩, .defd⟩ : DItv)]))),
    .call ((Cmd.run (.opD [(⟨⟨(f 2 0), (f 2 0)⟩, .defd⟩ : DItv), (⟨⟨(f (-2) (0)), (f (-1) (0))⟩, .trv⟩ : DItv)]))),
    .state 1337 [],
    .call clearFlags,
    .call ((Cmd.run (.opD [(⟨⟨(f (-2) (0)), (f (-14) (0))⟩, .trv⟩ : DItv), (⟨⟨(f (-2) (0)), (f 4 0)⟩, .defd⟩ : DItv)]))),
    .state 1341 [.invalidOperand],
    .call clearFlags,
    .call (setCwd (bitsOf [.invalidOperand])),
    .throws 1344 ((Cmd.run (.opD [(⟨⟨(f (-2) (0)), (f 14 0)⟩, .trv⟩ : DItv), (⟨⟨(f (-2) (0)), (f 4 0)⟩, .ill⟩ : DItv)]))) .invalidOperand,
    .state 1345 [.invalidOperand],
    .call clearFlags,
    .call (setCwd (bitsOf []))] ExSt.init = [] := by
  decide +kernel

/-- `minimal_interior_dec_mixedtype_test` -/
example : failed [
    .call clearFlags,
    .call ((Cmd.run (.opD [(⟨⟨.nan, .nan⟩, .ill⟩ : DItv), (⟨⟨.nan, .nan⟩, .ill⟩ : DItv)]))),
    .call ((Cmd.run (.opD [(⟨⟨.nan, .nan⟩, .trv⟩ : DItv), (⟨⟨.nan, .nan⟩, .ill⟩ : DItv)]))),
    .call ((Cmd.run (.opD [(⟨⟨.nan, .nan⟩, .ill⟩ : DItv), (⟨⟨(f 0 0), (f 4 0)⟩, .trv⟩ : DItv)]))),
    .call ((Cmd.run (.opD [(⟨⟨(f 0 0), (f 4 0)⟩, .trv⟩ : DItv), (⟨⟨.nan, .nan⟩, .ill⟩ : DItv)]))),
    .call ((Cmd.run (.opD [(⟨⟨.nan, .nan⟩, .trv⟩ : DItv), (⟨⟨.nan, .nan⟩, .trv⟩ : DItv)]))),
    .call ((Cmd.run (.opD [(⟨⟨.nan, .nan⟩, .trv⟩ : DItv), (⟨⟨(f 0 0), (f 4 0)⟩, .trv⟩ : DItv)]))),
    .call ((Cmd.run (.opD [(⟨⟨(f 0 0), (f 4 0)⟩, .trv⟩ : DItv), (⟨⟨.nan, .nan⟩, .trv⟩ : DItv)]))),
    .call ((Cmd.run (.opD [(⟨⟨.ninf, .pinf⟩, .trv⟩ : DItv), (⟨⟨.ninf, .pinf⟩, .trv⟩ : DItv)]))),
    .call ((Cmd.run (.opD [(⟨⟨(f 0 0), (f 4 0)⟩, .trv⟩ : DItv), (⟨⟨.ninf, .pinf⟩, .trv⟩ : DItv)]))),
    .call ((Cmd.run (.opD [(⟨⟨.nan, .nan⟩, .trv⟩ : DItv), (⟨⟨.ninf, .pinf⟩, .trv⟩ : DItv)]))),
    .call ((Cmd.run (.opD [(⟨⟨.ninf, .pinf⟩, .trv⟩ : DItv), (⟨⟨(f 0 0), (f 4 0)⟩, .trv⟩ : DItv)]))),
    .call ((Cmd.run (.opD [(⟨⟨(f 0 0), (f 4 0)⟩, .trv⟩ : DItv), (⟨⟨(f 0 0), (f 4 0)⟩, .trv⟩ : DItv)]))),
    .call ((Cmd.run (.opD [(⟨⟨(f 1 0), (f 2 0)⟩, .defd⟩ : DItv), (⟨⟨(f 0 0), (f 4 0)⟩, .trv⟩ : DItv)]))),
    .call ((Cmd.run (.opD [(⟨⟨(f (-2) (0)), (f 2 0)⟩, .trv⟩ : DItv), (⟨⟨(f (-2) (0)), (f 4 0)⟩, .defd⟩ : DItv)]))),
    .call ((Cmd.run (.opD [(⟨⟨.nzero, .nzero⟩, .trv⟩ : DItv), (⟨⟨(f (-2) (0)), (f 4 0)⟩, .trv⟩ : DItv)]))),
    .call ((Cmd.run (.opD [(⟨⟨(f 0 0), (f 0 0)⟩, .defd⟩ : DItv), (⟨⟨(f (-2) (0)), (f 4 0)⟩, .trv⟩ : DItv)]))),
    .call ((Cmd.run (.opD [(⟨⟨(f 0 0), (f 0 0)⟩, .trv⟩ : DItv), (⟨⟨.nzero, .nzero⟩, .trv⟩ : DItv)]))),
    .call ((Cmd.run (.opD [(⟨⟨(f 0 0), (f (2476979795053773) (-49))⟩, .trv⟩ : DItv), (⟨⟨(f 0 0), (f 4 0)⟩, .trv⟩ : DItv)]))),
    .call ((Cmd.run (.opD [(⟨⟨(f (-1) (0)), (f (-1) (0))⟩, .defd⟩ : DItv), (⟨⟨(f 0 0), (f 4 0)⟩, .defd⟩ : DItv)]))),
    .call ((Cmd.run (.opD [(⟨⟨(f 2 0), (f 2 0)⟩, .trv⟩ : DItv), (⟨⟨(f (-2) (0)), (f (-1) (0))⟩, .trv⟩ : DItv)]))),
    .call ((Cmd.run (.opD [(⟨⟨.nan, .nan⟩, .ill⟩ : DItv), (⟨⟨.nan, .nan⟩, .ill⟩ : DItv)]))),
    .call ((Cmd.run (.opD [(⟨⟨.nan, .nan⟩, .ill⟩ : DItv), (⟨⟨.nan, .nan⟩, .trv⟩ : DItv)]))),
    .call ((Cmd.run (.opD [(⟨⟨.nan, .nan⟩, .ill⟩ : DItv), (⟨⟨(f 0 0), (f 4 0)⟩, .trv⟩ : DItv)]))),
    .call ((Cmd.run (.opD [(⟨⟨(f 0 0), (f 4 0)⟩, .trv⟩ : DItv), (⟨⟨.nan, .nan⟩, .ill⟩ : DItv)]))),
    .call ((Cmd.run (.opD [(⟨⟨.nan, .nan⟩, .trv⟩ : DItv), (⟨⟨.nan, .nan⟩, .trv⟩ : DItv)]))),
    .call ((Cmd.run (.opD [(⟨⟨.nan, .nan⟩, .trv⟩ : DItv), (⟨⟨(f 0 0), (f 4 0)⟩, .trv⟩ : DItv)]))),
    .call ((Cmd.run (.opD [(⟨⟨(f 0 0), (f 4 0)⟩, .defd⟩ : DItv), (⟨⟨.nan, .nan⟩, .trv⟩ : DItv)]))),
    .call ((Cmd.run (.opD [(⟨⟨.ninf, .pinf⟩, .trv⟩ : DItv), (⟨⟨.ninf, .pinf⟩, .trv⟩ : DItv)]))),
    .call ((Cmd.run (.opD [(⟨⟨(f 0 0), (f 4 0)⟩, .trv⟩ : DItv), (⟨⟨.ninf, .pinf⟩, .trv⟩ : DItv)]))),
    .call ((Cmd.run (.opD [(⟨⟨.nan, .nan⟩, .trv⟩ : DItv), (⟨⟨.ninf, .pinf⟩, .trv⟩ : DItv)]))),
    .call ((Cmd.run (.opD [(⟨⟨.ninf, .pinf⟩, .trv⟩ : DItv), (⟨⟨(f 0 0), (f 4 0)⟩, .trv⟩ : DItv)]))),
    .call ((Cmd.run (.opD [(⟨⟨(f 0 0), (f 4 0)⟩, .trv⟩ : DItv), (⟨⟨(f 0 0), (f 4 0)⟩, .trv⟩ : DItv)]))),
    .call ((Cmd.run (.opD [(⟨⟨(f 1 0), (f 2 0)⟩, .defd⟩ : DItv), (⟨⟨(f 0 0), (f 4 0)⟩, .defd⟩ : DItv)]))),
    .call ((Cmd.run (.opD [(⟨⟨(f (-2) (0)), (f 2 0)⟩, .trv⟩ : DItv), (⟨⟨(f (-2) (0)), (f 4 0)⟩, .defd⟩ : DItv)]))),
    .call ((Cmd.run (.opD [(⟨⟨.nzero, .nzero⟩, .trv⟩ : DItv), (⟨⟨(f (-2) (0)), (f 4 0)⟩, .trv⟩ : DItv)]))),
    .call ((Cmd.run (.opD [(⟨⟨(f 0 0), (f 0 0)⟩, .trv⟩ : DItv), (⟨⟨(f (-2) (0)), (f 4 0)⟩, .trv⟩ : DItv)]))),
    .call ((Cmd.run (.opD [(⟨⟨(f 0 0), (f 0 0)⟩, .trv⟩ : DItv), (⟨⟨.nzero, .nzero⟩, .trv⟩ : DItv)]))),
    .call ((Cmd.run (.opD [(⟨⟨(f 0 0), (f (9227469) (-21))⟩, .trv⟩ : DItv), (⟨⟨(f 0 0), (f 4 0)⟩, .trv⟩ : DItv)]))),
    .call ((Cmd.run (.opD [(⟨⟨(f (-1) (0)), (f (-1) (0))⟩, .trv⟩ : DItv), (⟨⟨(f 0 0), (f 4 0)⟩, .trv⟩ : DItv)]))),
    .call ((Cmd.run (.opD [(⟨⟨(f 2 0), (f 2 0)⟩, .trv⟩ : DItv), (⟨⟨(f (-2) (0)), (f (-1) (0))⟩, .trv⟩ : DItv)]))),
    .state 1404 [],
    .call clearFlags,
    .call ((Cmd.run (.opD [(⟨⟨(f 0 0), (f 4 0)⟩, .trv⟩ : DItv), (⟨⟨.nan, .nan⟩, .com⟩ : DItv)]))),
    .state 1408 [.invalidOperand],
    .call clearFlags,
    .call (setCwd (bitsOf [.invalidOperand])),
    .throws 1411 ((Cmd.run (.opD [(⟨⟨(f 0 0), (f (-4) (0))⟩, .trv⟩ : DItv), (⟨⟨.nan, .nan⟩, .ill⟩ : DItv)]))) .invalidOperand,
    .state 1412 [.invalidOperand],
    .call clearFlags,
    .call (setCwd (bitsOf []))] ExSt.init = [] := by
  decide +kernel

/-- `minimal_strictly_less_test` -/
example : failed [
    .call clearFlags,
    .call ((Cmd.run (.op [(⟨.nan, .nan⟩ : Itv), (⟨.nan, .nan⟩ : Itv)]))),
    .call ((Cmd.run (.op [(⟨(f 1 0), (f 2 0)⟩ : Itv), (⟨.nan, .nan⟩ : Itv)]))),
    .call ((Cmd.run (.op [(⟨.nan, .nan⟩ : Itv), (⟨(f 1 0), (f 2 0)⟩ : Itv)]))),
    .call ((Cmd.run (.op [(⟨.ninf, .pinf⟩ : Itv), (⟨.ninf, .pinf⟩ : Itv)]))),
    .call ((Cmd.run (.op [(⟨(f 1 0), (f 2 0)⟩ : Itv), (⟨.ninf, .pinf⟩ : Itv)]))),
    .call ((Cmd.run (.op [(⟨.ninf, .pinf⟩ : Itv), (⟨(f 1 0), (f 2 0)⟩ : Itv)]))),
    .call ((Cmd.run (.op [(⟨(f 1 0), (f 2 0)⟩ : Itv), (⟨(f 1 0), (f 2 0)⟩ : Itv)]))),
    .call ((Cmd.run (.op [(⟨(f 1 0), (f 2 0)⟩ : Itv), (⟨(f 3 0), (f 4 0)⟩ : Itv)]))),
    .call ((Cmd.run (.op [(⟨(f 1 0), (f (7) (-1))⟩ : Itv), (⟨(f 3 0), (f 4 0)⟩ : Itv)]))),
    .call ((Cmd.run (.op [(⟨(f 1 0), (f 4 0)⟩ : Itv), (⟨(f 3 0), (f 4 0)⟩ : Itv)]))),
    .call ((Cmd.run (.op [(⟨(f 0 0), (f 4 0)⟩ : Itv), (⟨(f 0 0), (f 4 0)⟩ : Itv)]))),
    .call ((Cmd.run (.op [(⟨.nzero, (f 4 0)⟩ : Itv), (⟨(f 0 0), (f 4 0)⟩ : Itv)]))),
    .call ((Cmd.run (.op [(⟨(f (-2) (0)), (f (-1) (0))⟩ : Itv), (⟨(f (-2) (0)), (f (-1) (0))⟩ : Itv)]))),
    .call ((Cmd.run (.op [(⟨(f (-3) (0)), (f (-3) (-1))⟩ : Itv), (⟨(f (-2) (0)), (f (-1) (0))⟩ : Itv)]))),
    .state 1440 [],
    .call clearFlags,
    .call ((Cmd.run (.op [(⟨(f 1 0), (f 4 0)⟩ : Itv), (⟨(f 3 0), (f (-4) (0))⟩ : Itv)]))),
    .state 1444 [.invalidOperand],
    .call clearFlags,
    .call (setCwd (bitsOf [.invalidOperand])),
    .throws 1447 ((Cmd.run (.op [(⟨(f 10 0), (f 4 0)⟩ : Itv), (⟨(f 3 0), (f 4 0)⟩ : Itv)]))) .invalidOperand,
    .state 1448 [.invalidOperand],
    .call clearFlags,
    .call (setCwd (bitsOf []))] ExSt.init = [] := by
  decide +kernel

/-- `minimal_strictly_less_mixedtype_test` -/
example : failed [
    .call clearFlags,
    .call ((Cmd.run (.op [(⟨.nan, .nan⟩ : Itv), (⟨.nan, .nan⟩ : Itv)]))),
    .call ((Cmd.run (.op [(⟨(f 1 0), (f 2 0)⟩ : Itv), (⟨.nan, .nan⟩ : Itv)]))),
    .call ((Cmd.run (.op [(⟨.nan, .nan⟩ : Itv), (⟨(f 1 0), (f 2 0)⟩ : Itv)]))),
    .call ((Cmd.run (.op [(⟨.ninf, .pinf⟩ : Itv), (⟨.ninf, .pinf⟩ : Itv)]))),
    .call ((Cmd.run (.op [(⟨(f 1 0), (f 2 0)⟩ : Itv), (⟨.ninf, .pinf⟩ : Itv)]))),
    .call ((Cmd.run (.op [(⟨.ninf, .pinf⟩ : Itv), (⟨(f 1 0), (f 2 0)⟩ : Itv)]))),
    .call ((Cmd.run (.op [(⟨(f 1 0), (f 2 0)⟩ : Itv), (⟨(f 1 0), (f 2 0)⟩ : Itv)]))),
    .call ((Cmd.run (.op [(⟨(f 1 0), (f 2 0)⟩ : Itv), (⟨(f 3 0), (f 4 0)⟩ : Itv)]))),
    .call ((Cmd.run (.op [(⟨(f 1 0), (f (7) (-1))⟩ : Itv), (⟨(f 3 0), (f 4 0)⟩ : Itv)]))),
    .call ((Cmd.run (.op [(⟨(f 1 0), (f 4 0)⟩ : Itv), (⟨(f 3 0), (f 4 0)⟩ : Itv)]))),
    .call ((Cmd.run (.op [(⟨(f 0 0), (f 4 0)⟩ : Itv), (⟨(f 0 0), (f 4 0)⟩ : Itv)]))),
    .call ((Cmd.run (.op [(⟨.nzero, (f 4 0)⟩ : Itv), (⟨(f 0 0), (f 4 0)⟩ : Itv)]))),
    .call ((Cmd.run (.op [(⟨(f (-2) (0)), (f (-1) (0))⟩ : Itv), (⟨(f (-2) (0)), (f (-1) (0))⟩ : Itv)]))),
    .call ((Cmd.run (.op [(⟨(f (-3) (0)), (f (-3) (-1))⟩ : Itv), (⟨(f (-2) (0)), (f (-1) (0))⟩ : Itv)]))),
    .call ((Cmd.run (.op [(⟨.nan, .nan⟩ : Itv), (⟨.nan, .nan⟩ : Itv)]))),
    .call ((Cmd.run (.op [(⟨(f 1 0), (f 2 0)⟩ : Itv), (⟨.nan, .nan⟩ : Itv)]))),
    .call ((Cmd.run (.op [(⟨.nan, .nan⟩ : Itv), (⟨(f 1 0), (f 2 0)⟩ : Itv)]))),
    .call ((Cmd.run (.op [(⟨.ninf, .pinf⟩ : Itv), (⟨.ninf, .pinf⟩ : Itv)]))),
    .call ((Cmd.run (.op [(⟨(f 1 0), (f 2 0)⟩ : Itv), (⟨.ninf, .pinf⟩ : Itv)]))),
    .call ((Cmd.run (.op [(⟨.ninf, .pinf⟩ : Itv), (⟨(f 1 0), (f 2 0)⟩ : Itv)]))),
    .call ((Cmd.run (.op [(⟨(f 1 0), (f 2 0)⟩ : Itv), (⟨(f 1 0), (f 2 0)⟩ : Itv)]))),
    .call ((Cmd.run (.op [(⟨(f 1 0), (f 2 0)⟩ : Itv), (⟨(f 3 0), (f 4 0)⟩ : Itv)]))),
    .call ((Cmd.run (.op [(⟨(f 1 0), (f (7) (-1))⟩ : Itv), (⟨(f 3 0), (f 4 0)⟩ : Itv)]))),
    .call ((Cmd.run (.op [(⟨(f 1 0), (f 4 0)⟩ : Itv), (⟨(f 3 0), (f 4 0)⟩ : Itv)]))),
    .call ((Cmd.run (.op [(⟨(f 0 0), (f 4 0)⟩ : Itv), (⟨(f 0 0), (f 4 0)⟩ : Itv)]))),
    .call ((Cmd.run (.op [(⟨.nzero, (f 4 0)⟩ : Itv), (⟨(f 0 0), (f 4 0)⟩ : Itv)]))),
    .call ((Cmd.run (.op [(⟨(f (-2) (0)), (f (-1) (0))⟩ : Itv), (⟨(f (-2) (0)), (f (-1) (0))⟩ : Itv)]))),
    .call ((Cmd.run (.op [(⟨(f (-3) (0)), (f (-3) (-1))⟩ : Itv), (⟨(f (-2) (0)), (f (-1) (0))⟩ : Itv)]))),
    .state 1493 [],
    .call clearFlags,
    .call ((Cmd.run (.op [(⟨(f 1 0), (f (7) (-1))⟩ : Itv), (⟨(f 3 0), (f (-4) (0))⟩ : Itv)]))),
    .state 1497 [.invalidOperand],
    .call clearFlags,
    .call (setCwd (bitsOf [.invalidOperand])),
    .throws 1500 ((Cmd.run (.op [(⟨(f 1 0), (f (-7) (-1))⟩ : Itv), (⟨(f 3 0), (f 4 0)⟩ : Itv)]))) .invalidOperand,
    .state 1501 [.invalidOperand],
    .call clearFlags,
    .call (setCwd (bitsOf []))] ExSt.init = [] := by
  decide +kernel

/-- `minimal_strictly_less_dec_test` -/
example : failed [
    .call clearFlags,
    .call ((Cmd.run (.opD [(⟨⟨.nan, .nan⟩, .ill⟩ : DItv), (⟨⟨.nan, .nan⟩, .ill⟩ : DItv)]))),
    .call ((Cmd.run (.opD [(⟨⟨.nan, .nan⟩, .trv⟩ : DItv), (⟨⟨.nan, .nan⟩, .ill⟩ : DItv)]))),
    .call ((Cmd.run (.opD [(⟨⟨(f 1 0), (f 2 0)⟩, .trv⟩ : DItv), (⟨⟨.nan, .nan⟩, .ill⟩ : DItv)]))),
    .call ((Cmd.run (.opD [(⟨⟨.nan, .nan⟩, .ill⟩ : DItv), (⟨⟨(f 1 0), (f 2 0)⟩, .defd⟩ : DItv)]))),
    .call ((Cmd.run (.opD [(⟨⟨.nan, .nan⟩, .trv⟩ : DItv), (⟨⟨.nan, .nan⟩, .trv⟩ : DItv)]))),
    .call ((Cmd.run (.opD [(⟨⟨(f 1 0), (f 2 0)⟩, .defd⟩ : DItv), (⟨⟨.nan, .nan⟩, .trv⟩ : DItv)]))),
    .call ((Cmd.run (.opD [(⟨⟨.nan, .nan⟩, .trv⟩ : DItv), (⟨⟨(f 1 0), (f 2 0)⟩, .defd⟩ : DItv)]))),
    .call ((Cmd.run (.opD [(⟨⟨.ninf, .pinf⟩, .trv⟩ : DItv), (⟨⟨.ninf, .pinf⟩, .trv⟩ : DItv)]))),
    .call ((Cmd.run (.opD [(⟨⟨(f 1 0), (f 2 0)⟩, .trv⟩ : DItv), (⟨⟨.ninf, .pinf⟩, .trv⟩ : DItv)]))),
    .call ((Cmd.run (.opD [(⟨⟨.ninf, .pinf⟩, .trv⟩ : DItv), (⟨⟨(f 1 0), (f 2 0)⟩, .trv⟩ : DItv)]))),
    .call ((Cmd.run (.opD [(⟨⟨(f 1 0), (f 2 0)⟩, .trv⟩ : DItv), (⟨⟨(f 1 0), (f 2 0)⟩, .trv⟩ : DItv)]))),
    .call ((Cmd.run (.opD [(⟨⟨(f 1 0), (f 2 0)⟩, .trv⟩ : DItv), (⟨⟨(f 3 0), (f 4 0)⟩, .trv⟩ : DItv)]))),
    .call ((Cmd.run (.opD [(⟨⟨(f 1 0), (f (7) (-1))⟩, .defd⟩ : DItv), (⟨⟨(f 3 0), (f 4 0)⟩, .trv⟩ : DItv)]))),
    .call ((Cmd.run (.opD [(⟨⟨(f 1 0), (f 4 0)⟩, .trv⟩ : DItv), (⟨⟨(f 3 0), (f 4 0)⟩, .defd⟩ : DItv)]))),
    .call ((Cmd.run (.opD [(⟨⟨(f 0 0), (f 4 0)⟩, .trv⟩ : DItv), (⟨⟨(f 0 0), (f 4 0)⟩, .defd⟩ : DItv)]))),
    .call ((Cmd.run (.opD [(⟨⟨.nzero, (f 4 0)⟩, .defd⟩ : DItv), (⟨⟨(f 0 0), (f 4 0)⟩, .trv⟩ : DItv)]))),
    .call ((Cmd.run (.opD [(⟨⟨(f (-2) (0)), (f (-1) (0))⟩, .defd⟩ : DItv), (⟨⟨(f (-2) (0)), (f (-1) (0))⟩, .defd⟩ : DItv)]))),
    .call ((Cmd.run (.opD [(⟨⟨(f (-3) (0)), (f (-3) (-1))⟩, .trv⟩ : DItv), (⟨⟨(f (-2) (0)), (f (-1) (0))⟩, .trv⟩ : DItv)]))),
    .state 1534 [],
    .call clearFlags,
    .call ((Cmd.run (.opD [(⟨⟨(f 1 0), (f 2 0)⟩, .trv⟩ : DItv), (⟨⟨(f 3 0), (f (-4) (0))⟩, .trv⟩ : DItv)]))),
    .state 1538 [.invalidOperand],
    .call clearFlags,
    .call (setCwd (bitsOf [.invalidOperand])),
    .throws 1541 ((Cmd.run (.opD [(⟨⟨(f 1 0), (f (-2) (0))⟩, .trv⟩ : DItv), (⟨⟨(f 3 0), (f 4 0)⟩, .trv⟩ : DItv)]))) .invalidOperand,
    .state 1542 [.invalidOperand],
    .call clearFlags,
    .call (setCwd (bitsOf []))] ExSt.init = [] := by
  decide +kernel

/-- `minimal_strictly_less_dec_mixedtype_test` -/
example : failed [
    .call clearFlags,
    .call ((Cmd.run (.opD [(⟨⟨.nan, .nan⟩, .ill⟩ : DItv), (⟨⟨.nan, .nan⟩, .ill⟩ : DItv)]))),
    .call ((Cmd.run (.opD [(⟨⟨.nan, .nan⟩, .ill⟩ : DItv), (⟨⟨.nan, .nan⟩, .trv⟩ : DItv)]))),
    .call ((Cmd.run (.opD [(⟨⟨(f 1 0), (f 2 0)⟩, .trv⟩ : DItv), (⟨⟨.nan, .nan⟩, .ill⟩ : DItv)]))),
    .call ((Cmd.run (.opD [(⟨⟨.nan, .nan⟩, .ill⟩ : DItv), (⟨⟨(f 1 0), (f 2 0)⟩, .trv⟩ : DItv)]))),
    .call ((Cmd.run (.opD [(⟨⟨.nan, .nan⟩, .trv⟩ : DItv), (⟨⟨.nan, .nan⟩, .trv⟩ : DItv)]))),
    .call ((Cmd.run (.opD [(⟨⟨(f 1 0), (f 2 0)⟩, .trv⟩ : DItv), (⟨⟨.nan, .nan⟩, .trv⟩ : DItv)]))),
    .call ((Cmd.run (.opD [(⟨⟨.nan, .nan⟩, .trv⟩ : DItv), (⟨⟨(f 1 0), (f 2 0)⟩, .defd⟩ : DItv)]))),
    .call ((Cmd.run (.opD [(⟨⟨.ninf, .pinf⟩, .trv⟩ : DItv), (⟨⟨.ninf, .pinf⟩, .trv⟩ : DItv)]))),
    .call ((Cmd.run (.opD [(⟨⟨(f 1 0), (f 2 0)⟩, .trv⟩ : DItv), (⟨⟨.ninf, .pinf⟩, .trv⟩ : DItv)]))),
    .call ((Cmd.run (.opD [(⟨⟨.ninf, .pinf⟩, .trv⟩ : DItv), (⟨⟨(f 1 0), (f 2 0)⟩, .trv⟩ : DItv)]))),
    .call ((Cmd.run (.opD [(⟨⟨(f 1 0), (f 2 0)⟩, .defd⟩ : DItv), (⟨⟨(f 1 0), (f 2 0)⟩, .defd⟩ : DItv)]))),
    .call ((Cmd.run (.opD [(⟨⟨(f 1 0), (f 2 0)⟩, .trv⟩ : DItv), (⟨⟨(f 3 0), (f 4 0)⟩, .trv⟩ : DItv)]))),
    .call ((Cmd.run (.opD [(⟨⟨(f 1 0), (f (7) (-1))⟩, .defd⟩ : DItv), (⟨⟨(f 3 0), (f 4 0)⟩, .trv⟩ : DItv)]))),
    .call ((Cmd.run (.opD [(⟨⟨(f 1 0), (f 4 0)⟩, .trv⟩ : DItv), (⟨⟨(f 3 0), (f 4 0)⟩, .trv⟩ : DItv)]))),
    .call ((Cmd.run (.opD [(⟨⟨(f 0 0), (f 4 0)⟩, .trv⟩ : DItv), (⟨⟨(f 0 0), (f 4 0)⟩, .trv⟩ : DItv)]))),
    .call ((Cmd.run (.opD [(⟨⟨.nzero, (f 4 0)⟩, .trv⟩ : DItv), (⟨⟨(f 0 0), (f 4 0)⟩, .trv⟩ : DItv)]))),
    .call ((Cmd.run (.opD [(⟨⟨(f (-2) (0)), (f (-1) (0))⟩, .trv⟩ : DItv), (⟨⟨(f (-2) (0)), (f (-1) (0))⟩, .trv⟩ : DItv)]))),
    .call ((Cmd.run (.opD [(⟨⟨(f (-3) (0)), (f (-3) (-1))⟩, .trv⟩ : DItv), (⟨⟨(f (-2) (0)), (f (-1) (0))⟩, .trv⟩ : DItv)]))),
    .call ((Cmd.run (.opD [(⟨⟨.nan, .nan⟩, .ill⟩ : DItv), (⟨⟨.nan, .nan⟩, .ill⟩ : DItv)]))),
    .call ((Cmd.run (.opD [(⟨⟨.nan, .nan⟩, .ill⟩ : DItv), (⟨⟨.nan, .nan⟩, .trv⟩ : DItv)]))),
    .call ((Cmd.run (.opD [(⟨⟨(f 1 0), (f 2 0)⟩, .defd⟩ : DItv), (⟨⟨.nan, .nan⟩, .ill⟩ : DItv)]))),
    .call ((Cmd.run (.opD [(⟨⟨.nan, .nan⟩, .ill⟩ : DItv), (⟨⟨(f 1 0), (f 2 0)⟩, .trv⟩ : DItv)]))),
    .call ((Cmd.run (.opD [(⟨⟨.nan, .nan⟩, .trv⟩ : DItv), (⟨⟨.nan, .nan⟩, .trv⟩ : DItv)]))),
    .call ((Cmd.run (.opD [(⟨⟨(f 1 0), (f 2 0)⟩, .trv⟩ : DItv), (⟨⟨.nan, .nan⟩, .trv⟩ : DItv)]))),
    .call ((Cmd.run (.opD [(⟨⟨.nan, .nan⟩, .trv⟩ : DItv), (⟨⟨(f 1 0), (f 2 0)⟩, .trv⟩ : DItv)]))),
    .call ((Cmd.run (.opD [(⟨⟨.ninf, .pinf⟩, .trv⟩ : DItv), (⟨⟨.ninf, .pinf⟩, .trv⟩ : DItv)]))),
    .call ((Cmd.run (.opD [(⟨⟨(f 1 0), (f 2 0)⟩, .trv⟩ : DItv), (⟨⟨.ninf, .pinf⟩, .trv⟩ : DItv)]))),
    .call ((Cmd.run (.opD [(⟨⟨.ninf, .pinf⟩, .trv⟩ : DItv), (⟨⟨(f 1 0), (f 2 0)⟩, .trv⟩ : DItv)]))),
    .call ((Cmd.run (.opD [(⟨⟨(f 1 0), (f 2 0)⟩, .trv⟩ : DItv), (⟨⟨(f 1 0), (f 2 0)⟩, .trv⟩ : DItv)]))),
    .call ((Cmd.run (.opD [(⟨⟨(f 1 0), (f 2 0)⟩, .defd⟩ : DItv), (⟨⟨(f 3 0), (f 4 0)⟩, .trv⟩ : DItv)]))),
    .call ((Cmd.run (.opD [(⟨⟨(f 1 0), (f (7) (-1))⟩, .trv⟩ : DItv), (⟨⟨(f 3 0), (f 4 0)⟩, .trv⟩ : DItv)]))),
    .call ((Cmd.run (.opD [(⟨⟨(f 1 0), (f 4 0)⟩, .trv⟩ : DItv), (⟨⟨(f 3 0), (f 4 0)⟩, .defd⟩ : DItv)]))),
    .call ((Cmd.run (.opD [(⟨⟨(f 0 0), (f 4 0)⟩, .trv⟩ : DItv), (⟨⟨(f 0 0), (f 4 0)⟩, .trv⟩ : DItv)]))),
    .call ((Cmd.run (.opD [(⟨⟨.nzero, (f 4 0)⟩, .trv⟩ : DItv), (⟨⟨(f 0 0), (f 4 0)⟩, .trv⟩ : DItv)]))),
    .call ((Cmd.run (.opD [(⟨⟨(f (-2) (0)), (f (-1) (0))⟩, .trv⟩ : DItv), (⟨⟨(f (-2) (0)), (f (-1) (0))⟩, .trv⟩ : DItv)]))),
    .call ((Cmd.run (.opD [(⟨⟨(f (-3) (0)), (f (-3) (-1))⟩, .trv⟩ : DItv), (⟨⟨(f (-2) (0)), (f (-1) (0))⟩, .trv⟩ : DItv)]))),
    .state 1597 [],
    .call clearFlags,
    .call ((Cmd.run (.opD [(⟨⟨.ninf, .pinf⟩, .trv⟩ : DItv), (⟨⟨.ninf, .pinf⟩, .com⟩ : DItv)]))),
    .state 1601 [.invalidOperand],
    .call clearFlags,
    .call (setCwd (bitsOf [.invalidOperand])),
    .throws 1604 ((Cmd.run (.opD [(⟨⟨.ninf, .pinf⟩, .com⟩ : DItv), (⟨⟨.ninf, .pinf⟩, .trv⟩ : DItv)]))) .invalidOperand,
    .state 1605 [.invalidOperand],
    .call clearFlags,
    .call (setCwd (bitsOf []))] ExSt.init = [] := by
  decide +kernel

/-- `minimal_strictly_precedes_test` -/
example : failed [
    .call clearFlags,
    .call ((Cmd.run (.op [(⟨.nan, .nan⟩ : Itv), (⟨(f 3 0), (f 4 0)⟩ : Itv)]))),
    .call ((Cmd.run (.op [(⟨(f 3 0), (f 4 0)⟩ : Itv), (⟨.nan, .nan⟩ : Itv)]))),
    .call ((Cmd.run (.op [(⟨.nan, .nan⟩ : Itv), (⟨.nan, .nan⟩ : Itv)]))),
    .call ((Cmd.run (.op [(⟨(f 1 0), (f 2 0)⟩ : Itv), (⟨.ninf, .pinf⟩ : Itv)]))),
    .call ((Cmd.run (.op [(⟨.ninf, .pinf⟩ : Itv), (⟨(f 1 0), (f 2 0)⟩ : Itv)]))),
    .call ((Cmd.run (.op [(⟨.ninf, .pinf⟩ : Itv), (⟨.ninf, .pinf⟩ : Itv)]))),
    .call ((Cmd.run (.op [(⟨(f 1 0), (f 2 0)⟩ : Itv), (⟨(f 3 0), (f 4 0)⟩ : Itv)]))),
    .call ((Cmd.run (.op [(⟨(f 1 0), (f 3 0)⟩ : Itv), (⟨(f 3 0), (f 4 0)⟩ : Itv)]))),
    .call ((Cmd.run (.op [(⟨(f (-3) (0)), (f (-1) (0))⟩ : Itv), (⟨(f (-1) (0)), (f 0 0)⟩ : Itv)]))),
    .call ((Cmd.run (.op [(⟨(f (-3) (0)), .nzero⟩ : Itv), (⟨(f 0 0), (f 1 0)⟩ : Itv)]))),
    .call ((Cmd.run (.op [(⟨(f (-3) (0)), (f 0 0)⟩ : Itv), (⟨.nzero, (f 1 0)⟩ : Itv)]))),
    .call ((Cmd.run (.op [(⟨(f 1 0), (f (7) (-1))⟩ : Itv), (⟨(f 3 0), (f 4 0)⟩ : Itv)]))),
    .call ((Cmd.run (.op [(⟨(f 1 0), (f 4 0)⟩ : Itv), (⟨(f 3 0), (f 4 0)⟩ : Itv)]))),
    .call ((Cmd.run (.op [(⟨(f (-3) (0)), (f (-3602879701896397) (-55))⟩ : Itv), (⟨(f (-1) (0)), (f 0 0)⟩ : Itv)]))),
    .state 1635 [],
    .call clearFlags,
    .call ((Cmd.run (.op [(⟨(f 1 0), (f 3 0)⟩ : Itv), (⟨(f 3 0), (f (-4) (0))⟩ : Itv)]))),
    .state 1639 [.invalidOperand],
    .call clearFlags,
    .call (setCwd (bitsOf [.invalidOperand])),
    .throws 1642 ((Cmd.run (.op [(⟨(f 16 0), (f 3 0)⟩ : Itv), (⟨(f 3 0), (f 4 0)⟩ : Itv)]))) .invalidOperand,
    .state 1643 [.invalidOperand],
    .call clearFlags,
    .call (setCwd (bitsOf []))] ExSt.init = [] := by
  decide +kernel

/-- `minimal_strictly_precedes_mixedtype_test` -/
example : failed [
    .call clearFlags,
    .call ((Cmd.run (.op [(⟨.nan, .nan⟩ : Itv), (⟨(f 3 0), (f 4 0)⟩ : Itv)]))),
    .call ((Cmd.run (.op [(⟨(f 3 0), (f 4 0)⟩ : Itv), (⟨.nan, .nan⟩ : Itv)]))),
    .call ((Cmd.run (.op [(⟨.nan, .nan⟩ : Itv), (⟨.nan, .nan⟩ : Itv)]))),
    .call ((Cmd.run (.op [(⟨(f 1 0), (f 2 0)⟩ : Itv), (⟨.ninf, .pinf⟩ : Itv)]))),
    .call ((Cmd.run (.op [(⟨.ninf, .pinf⟩ : Itv), (⟨(f 1 0), (f 2 0)⟩ : Itv)]))),
    .call ((Cmd.run (.op [(⟨.ninf, .pinf⟩ : Itv), (⟨.ninf, .pinf⟩ : Itv)]))),
    .call ((Cmd.run (.op [(⟨(f 1 0), (f 2 0)⟩ : Itv), (⟨(f 3 0), (f 4 0)⟩ : Itv)]))),
    .call ((Cmd.run (.op [(⟨(f 1 0), (f 3 0)⟩ : Itv), (⟨(f 3 0), (f 4 0)⟩ : Itv)]))),
    .call ((Cmd.run (.op [(⟨(f (-3) (0)), (f (-1) (0))⟩ : Itv), (⟨(f (-1) (0)), (f 0 0)⟩ : Itv)]))),
    .call ((Cmd.run (.op [(⟨(f (-3) (0)), .nzero⟩ : Itv), (⟨(f 0 0), (f 1 0)⟩ : Itv)]))),
    .call ((Cmd.run (.op [(⟨(f (-3) (0)), (f 0 0)⟩ : Itv), (⟨.nzero, (f 1 0)⟩ : Itv)]))),
    .call ((Cmd.run (.op [(⟨(f 1 0), (f (7) (-1))⟩ : Itv), (⟨(f 3 0), (f 4 0)⟩ : Itv)]))),
    .call ((Cmd.run (.op [(⟨(f 1 0), (f 4 0)⟩ : Itv), (⟨(f 3 0), (f 4 0)⟩ : Itv)]))),
    .call ((Cmd.run (.op [(⟨(f (-3) (0)), (f (-3602879701896397) (-55))⟩ : Itv), (⟨(f (-1) (0)), (f 0 0)⟩ : Itv)]))),
    .call ((Cmd.run (.op [(⟨.nan, .nan⟩ : Itv), (⟨(f 3 0), (f 4 0)⟩ : Itv)]))),
    .call ((Cmd.run (.op [(⟨(f 3 0), (f 4 0)⟩ : Itv), (⟨.nan, .nan⟩ : Itv)]))),
    .call ((Cmd.run (.op [(⟨.nan, .nan⟩ : Itv), (⟨.nan, .nan⟩ : Itv)]))),
    .call ((Cmd.run (.op [(⟨(f 1 0), (f 2 0)⟩ : Itv), (⟨.ninf, .pinf⟩ : Itv)]))),
    .call ((Cmd.run (.op [(⟨.ninf, .pinf⟩ : Itv), (⟨(f 1 0), (f 2 0)⟩ : Itv)]))),
    .call ((Cmd.run (.op [(⟨.ninf, .pinf⟩ : Itv), (⟨.ninf, .pinf⟩ : Itv)]))),
    .call ((Cmd.run (.op [(⟨(f 1 0), (f 2 0)⟩ : Itv), (⟨(f 3 0), (f 4 0)⟩ : Itv)]))),
    .call ((Cmd.run (.op [(⟨(f 1 0), (f 3 0)⟩ : Itv), (⟨(f 3 0), (f 4 0)⟩ : Itv)]))),
    .call ((Cmd.run (.op [(⟨(f (-3) (0)), (f (-1) (0))⟩ : Itv), (⟨(f (-1) (0)), (f 0 0)⟩ : Itv)]))),
    .call ((Cmd.run (.op [(⟨(f (-3) (0)), .nzero⟩ : Itv), (⟨(f 0 0), (f 1 0)⟩ : Itv)]))),
    .call ((Cmd.run (.op [(⟨(f (-3) (0)), (f 0 0)⟩ : Itv), (⟨.nzero, (f 1 0)⟩ : Itv)]))),
    .call ((Cmd.run (.op [(⟨(f 1 0), (f (7) (-1))⟩ : Itv), (⟨(f 3 0), (f 4 0)⟩ : Itv)]))),
    .call ((Cmd.run (.op [(⟨(f 1 0), (f 4 0)⟩ : Itv), (⟨(f 3 0), (f 4 0)⟩ : Itv)]))),
    .call ((Cmd.run (.op [(⟨(f (-3) (0)), (f (-13421773) (-27))⟩ : Itv), (⟨(f (-1) (0)), (f 0 0)⟩ : Itv)]))),
    .state 1691 [],
    .call clearFlags,
    .call ((Cmd.run (.op [(⟨(f 1 0), (f 2 0)⟩ : Itv), (⟨.ninf, .ninf⟩ : Itv)]))),
    .state 1695 [.invalidOperand],
    .call clearFlags,
    .call (setCwd (bitsOf [.invalidOperand])),
    .throws 1698 ((Cmd.run (.op [(⟨(f 1 0), (f (-2) (0))⟩ : Itv), (⟨.ninf, .pinf⟩ : Itv)]))) .invalidOperand,
    .state 1699 [.invalidOperand],
    .call clearFlags,
    .call (setCwd (bitsOf []))] ExSt.init = [] := by
  decide +kernel

/-- `minimal_strictly_precedes_dec_test` -/
example : failed [
    .call clearFlags,
    .call ((Cmd.run (.opD [(⟨⟨.nan, .nan⟩, .ill⟩ : DItv), (⟨⟨(f 3 0), (f 4 0)⟩, .trv⟩ : DItv)]))),
    .call ((Cmd.run (.opD [(⟨⟨(f 3 0), (f 4 0)⟩, .defd⟩ : DItv), (⟨⟨.nan, .nan⟩, .ill⟩ : DItv)]))),
    .call ((Cmd.run (.opD [(⟨⟨.nan, .nan⟩, .ill⟩ : DItv), (⟨⟨.nan, .nan⟩, .trv⟩ : DItv)]))),
    .call ((Cmd.run (.opD [(⟨⟨.nan, .nan⟩, .ill⟩ : DItv), (⟨⟨.nan, .nan⟩, .ill⟩ : DItv)]))),
    .call ((Cmd.run (.opD [(⟨⟨.nan, .nan⟩, .trv⟩ : DItv), (⟨⟨(f 3 0), (f 4 0)⟩, .trv⟩ : DItv)]))),
    .call ((Cmd.run (.opD [(⟨⟨(f 3 0), (f 4 0)⟩, .defd⟩ : DItv), (⟨⟨.nan, .nan⟩, .trv⟩ : DItv)]))),
    .call ((Cmd.run (.opD [(⟨⟨.nan, .nan⟩, .trv⟩ : DItv), (⟨⟨.nan, .nan⟩, .trv⟩ : DItv)]))),
    .call ((Cmd.run (.opD [(⟨⟨(f 1 0), (f 2 0)⟩, .trv⟩ : DItv), (⟨⟨.ninf, .pinf⟩, .trv⟩ : DItv)]))),
    .call ((Cmd.run (.opD [(⟨⟨.ninf, .pinf⟩, .trv⟩ : DItv), (⟨⟨(f 1 0), (f 2 0)⟩, .trv⟩ : DItv)]))),
    .call ((Cmd.run (.opD [(⟨⟨.ninf, .pinf⟩, .trv⟩ : DItv), (⟨⟨.ninf, .pinf⟩, .trv⟩ : DItv)]))),
    .call ((Cmd.run (.opD [(⟨⟨(f 1 0), (f 2 0)⟩, .trv⟩ : DItv), (⟨⟨(f 3 0), (f 4 0)⟩, .trv⟩ : DItv)]))),
    .call ((Cmd.run (.opD [(⟨⟨(f 1 0), (f 3 0)⟩, .defd⟩ : DItv), (⟨⟨(f 3 0), (f 4 0)⟩, .trv⟩ : DItv)]))),
    .call ((Cmd.run (.opD [(⟨⟨(f (-3) (0)), (f (-1) (0))⟩, .trv⟩ : DItv), (⟨⟨(f (-1) (0)), (f 0 0)⟩, .defd⟩ : DItv)]))),
    .call ((Cmd.run (.opD [(⟨⟨(f (-3) (0)), .nzero⟩, .defd⟩ : DItv), (⟨⟨(f 0 0), (f 1 0)⟩, .trv⟩ : DItv)]))),
    .call ((Cmd.run (.opD [(⟨⟨(f (-3) (0)), (f 0 0)⟩, .trv⟩ : DItv), (⟨⟨.nzero, (f 1 0)⟩, .trv⟩ : DItv)]))),
    .call ((Cmd.run (.opD [(⟨⟨(f 1 0), (f (7) (-1))⟩, .trv⟩ : DItv), (⟨⟨(f 3 0), (f 4 0)⟩, .trv⟩ : DItv)]))),
    .call ((Cmd.run (.opD [(⟨⟨(f 1 0), (f 4 0)⟩, .trv⟩ : DItv), (⟨⟨(f 3 0), (f 4 0)⟩, .defd⟩ : DItv)]))),
    .call ((Cmd.run (.opD [(⟨⟨(f (-3) (0)), (f (-3602879701896397) (-55))⟩, .trv⟩ : DItv), (⟨⟨(f (-1) (0)), (f 0 0)⟩, .trv⟩ : DItv)]))),
    .state 1732 [],
    .call clearFlags,
    .call ((Cmd.run (.opD [(⟨⟨(f 1 0), (f (-2) (0))⟩, .trv⟩ : DItv), (⟨⟨(f 3 0), (f 4 0)⟩, .ill⟩ : DItv)]))),
    .state 1736 [.invalidOperand],
    .call clearFlags,
    .call (setCwd (bitsOf [.invalidOperand])),
    .throws 1739 ((Cmd.run (.opD [(⟨⟨(f 1 0), (f 2 0)⟩, .trv⟩ : DItv), (⟨⟨(f 3 0), .pinf⟩, .com⟩ : DItv)]))) .invalidOperand,
    .state 1740 [.invalidOperand],
    .call clearFlags,
    .call (setCwd (bitsOf []))] ExSt.init = [] := by
  decide +kernel

/-- `minimal_strictly_precedes_dec_mixedtype_test` -/
example : failed [
    .call clearFlags,
    .call ((Cmd.run (.opD [(⟨⟨.nan, .nan⟩, .ill⟩ : DItv), (⟨⟨(f 3 0), (f 4 0)⟩, .trv⟩ : DItv)]))),
    .call ((Cmd.run (.opD [(⟨⟨(f 3 0), (f 4 0)⟩, .trv⟩ : DItv), (⟨⟨.nan, .nan⟩, .ill⟩ : DItv)]))),
    .call ((Cmd.run (.opD [(⟨⟨.nan, .nan⟩, .ill⟩ : DItv), (⟨⟨.nan, .nan⟩, .trv⟩ : DItv)]))),
    .call ((Cmd.run (.opD [(⟨⟨.nan, .nan⟩, .ill⟩ : DItv), (⟨⟨.nan, .nan⟩, .ill⟩ : DItv)]))),
    .call ((Cmd.run (.opD [(⟨⟨.nan, .nan⟩, .trv⟩ : DItv), (⟨⟨(f 3 0), (f 4 0)⟩, .trv⟩ : DItv)]))),
    .call ((Cmd.run (.opD [(⟨⟨(f 3 0), (f 4 0)⟩, .trv⟩ : DItv), (⟨⟨.nan, .nan⟩, .trv⟩ : DItv)]))),
    .call ((Cmd.run (.opD [(⟨⟨.nan, .nan⟩, .trv⟩ : DItv), (⟨⟨.nan, .nan⟩, .trv⟩ : DItv)]))),
    .call ((Cmd.run (.opD [(⟨⟨(f 1 0), (f 2 0)⟩, .trv⟩ : DItv), (⟨⟨.ninf, .pinf⟩, .defd⟩ : DItv)]))),
    .call ((Cmd.run (.opD [(⟨⟨.ninf, .pinf⟩, .trv⟩ : DItv), (⟨⟨(f 1 0), (f 2 0)⟩, .defd⟩ : DItv)]))),
    .call ((Cmd.run (.opD [(⟨⟨.ninf, .pinf⟩, .trv⟩ : DItv), (⟨⟨.ninf, .pinf⟩, .trv⟩ : DItv)]))),
    .call ((Cmd.run (.opD [(⟨⟨(f 1 0), (f 2 0)⟩, .trv⟩ : DItv), (⟨⟨(f 3 0), (f 4 0)⟩, .trv⟩ : DItv)]))),
    .call ((Cmd.run (.opD [(⟨⟨(f 1 0), (f 3 0)⟩, .trv⟩ : DItv), (⟨⟨(f 3 0), (f 4 0)⟩, .trv⟩ : DItv)]))),
    .call ((Cmd.run (.opD [(⟨⟨(f (-3) (0)), (f (-1) (0))⟩, .defd⟩ : DItv), (⟨⟨(f (-1) (0)), (f 0 0)⟩, .trv⟩ : DItv)]))),
    .call ((Cmd.run (.opD [(⟨⟨(f (-3) (0)), .nzero⟩, .trv⟩ : DItv), (⟨⟨(f 0 0), (f 1 0)⟩, .defd⟩ : DItv)]))),
    .call ((Cmd.run (.opD [(⟨⟨(f (-3) (0)), (f 0 0)⟩, .trv⟩ : DItv), (⟨⟨.nzero, (f 1 0)⟩, .trv⟩ : DItv)]))),
    .call ((Cmd.run (.opD [(⟨⟨(f 1 0), (f (7) (-1))⟩, .trv⟩ : DItv), (⟨⟨(f 3 0), (f 4 0)⟩, .trv⟩ : DItv)]))),
    .call ((Cmd.run (.opD [(⟨⟨(f 1 0), (f 4 0)⟩, .defd⟩ : DItv), (⟨⟨(f 3 0), (f 4 0)⟩, .defd⟩ : DItv)]))),
    .call ((Cmd.run (.opD [(⟨⟨(f (-3) (0)), (f (-3602879701896397) (-55))⟩, .trv⟩ : DItv), (⟨⟨(f (-1) (0)), (f 0 0)⟩, .trv⟩ : DItv)]))),
    .call ((Cmd.run (.opD [(⟨⟨.nan, .nan⟩, .ill⟩ : DItv), (⟨⟨(f 3 0), (f 4 0)⟩, .trv⟩ : DItv)]))),
    .call ((Cmd.run (.opD [(⟨⟨(f 3 0), (f 4 0)⟩, .trv⟩ : DItv), (⟨⟨.nan, .nan⟩, .ill⟩ : DItv)]))),
    .call ((Cmd.run (.opD [(⟨⟨.nan, .nan⟩, .ill⟩ : DItv), (⟨⟨.nan, .nan⟩, .trv⟩ : DItv)]))),
    .call ((Cmd.run (.opD [(⟨⟨.nan, .nan⟩, .ill⟩ : DItv), (⟨⟨.nan, .nan⟩, .ill⟩ : DItv)]))),
    .call ((Cmd.run (.opD [(⟨⟨.nan, .nan⟩, .trv⟩ : DItv), (⟨⟨(f 3 0), (f 4 0)⟩, .trv⟩ : DItv)]))),
    .call ((Cmd.run (.opD [(⟨⟨(f 3 0), (f 4 0)⟩, .trv⟩ : DItv), (⟨⟨.nan, .nan⟩, .trv⟩ : DItv)]))),
    .call ((Cmd.run (.opD [(⟨⟨.nan, .nan⟩, .trv⟩ : DItv), (⟨⟨.nan, .nan⟩, .trv⟩ : DItv)]))),
    .call ((Cmd.run (.opD [(⟨⟨(f 1 0), (f 2 0)⟩, .trv⟩ : DItv), (⟨⟨.ninf, .pinf⟩, .trv⟩ : DItv)]))),
    .call ((Cmd.run (.opD [(⟨⟨.ninf, .pinf⟩, .trv⟩ : DItv), (⟨⟨(f 1 0), (f 2 0)⟩, .trv⟩ : DItv)]))),
    .call ((Cmd.run (.opD [(⟨⟨.ninf, .pinf⟩, .trv⟩ : DItv), (⟨⟨.ninf, .pinf⟩, .trv⟩ : DItv)]))),
    .call ((Cmd.run (.opD [(⟨⟨(f 1 0), (f 2 0)⟩, .trv⟩ : DItv), (⟨⟨(f 3 0), (f 4 0)⟩, .trv⟩ : DItv)]))),
    .call ((Cmd.run (.opD [(⟨⟨(f 1 0), (f 3 0)⟩, .trv⟩ : DItv), (⟨⟨(f 3 0), (f 4 0)⟩, .trv⟩ : DItv)]))),
    .call ((Cmd.run (.opD [(⟨⟨(f (-3) (0)), (f (-1) (0))⟩, .defd⟩ : DItv), (⟨⟨(f (-1) (0)), (f 0 0)⟩, .trv⟩ : DItv)]))),
    .call ((Cmd.run (.opD [(⟨⟨(f (-3) (0)), .nzero⟩, .trv⟩ : DItv), (⟨⟨(f 0 0), (f 1 0)⟩, .defd⟩ : DItv)]))),
    .call ((Cmd.run (.opD [(⟨⟨(f (-3) (0)), (f 0 0)⟩, .trv⟩ : DItv), (⟨⟨.nzero, (f 1 0)⟩, .trv⟩ : DItv)]))),
    .call ((Cmd.run (.opD [(⟨⟨(f 1 0), (f (7) (-1))⟩, .trv⟩ : DItv), (⟨⟨(f 3 0), (f 4 0)⟩, .trv⟩ : DItv)]))),
    .call ((Cmd.run (.opD [(⟨⟨(f 1 0), (f 4 0)⟩, .trv⟩ : DItv), (⟨⟨(f 3 0), (f 4 0)⟩, .trv⟩ : DItv)]))),
    .call ((Cmd.run (.opD [(⟨⟨(f (-3) (0)), (f (-13421773) (-27))⟩, .trv⟩ : DItv), (⟨⟨(f (-1) (0)), (f 0 0)⟩, .trv⟩ : DItv)]))),
    .state 1796 [],
    .call clearFlags,
    .call ((Cmd.run (.opD [(⟨⟨(f 1 0), (f (7) (-1))⟩, .trv⟩ : DItv), (⟨⟨(f 3 0), (f (-4) (0))⟩, .trv⟩ : DItv)]))),
    .state 1800 [.invalidOperand],
    .call clearFlags,
    .call (setCwd (bitsOf [.invalidOperand])),
    .throws 1803 ((Cmd.run (.opD [(⟨⟨(f 1 0), (f (-7) (-1))⟩, .trv⟩ : DItv), (⟨⟨(f 3 0), (f 4 0)⟩, .trv⟩ : DItv)]))) .invalidOperand,
    .state 1804 [.invalidOperand],
    .call clearFlags,
    .call (setCwd (bitsOf []))] ExSt.init = [] := by
  decide +kernel

/-- `minimal_disjoint_test` -/
example : failed [
    .call clearFlags,
    .call ((Cmd.run (.op [(⟨.nan, .nan⟩ : Itv), (⟨(f 3 0), (f 4 0)⟩ : Itv)]))),
    .call ((Cmd.run (.op [(⟨(f 3 0), (f 4 0)⟩ : Itv), (⟨.nan, .nan⟩ : Itv)]))),
    .call ((Cmd.run (.op [(⟨.nan, .nan⟩ : Itv), (⟨.nan, .nan⟩ : Itv)]))),
    .call ((Cmd.run (.op [(⟨(f 3 0), (f 4 0)⟩ : Itv), (⟨(f 1 0), (f 2 0)⟩ : Itv)]))),
    .call ((Cmd.run (.op [(⟨(f 0 0), (f 0 0)⟩ : Itv), (⟨.nzero, .nzero⟩ : Itv)]))),
    .call ((Cmd.run (.op [(⟨(f 0 0), .nzero⟩ : Itv), (⟨.nzero, (f 0 0)⟩ : Itv)]))),
    .call ((Cmd.run (.op [(⟨(f 3 0), (f 4 0)⟩ : Itv), (⟨(f 1 0), (f 7 0)⟩ : Itv)]))),
    .call ((Cmd.run (.op [(⟨(f 3 0), (f 4 0)⟩ : Itv), (⟨.ninf, .pinf⟩ : Itv)]))),
    .call ((Cmd.run (.op [(⟨.ninf, .pinf⟩ : Itv), (⟨(f 1 0), (f 7 0)⟩ : Itv)]))),
    .call ((Cmd.run (.op [(⟨.ninf, .pinf⟩ : Itv), (⟨.ninf, .pinf⟩ : Itv)]))),
    .state 1827 [],
    .call clearFlags,
    .call ((Cmd.run (.op [(⟨(f 3 0), (f (-4) (0))⟩ : Itv), (⟨.ninf, .pinf⟩ : Itv)]))),
    .state 1831 [.invalidOperand],
    .call clearFlags,
    .call (setCwd (bitsOf [.invalidOperand])),
    .throws 1834 ((Cmd.run (.op [(⟨(f 3 0), (f 4 0)⟩ : Itv), (⟨.pinf, .pinf⟩ : Itv)]))) .invalidOperand,
    .state 1835 [.invalidOperand],
    .call clearFlags,
    .call (setCwd (bitsOf []))] ExSt.init = [] := by
  decide +kernel

/-- `minimal_disjoint_mixedtype_test` -/
example : failed [
    .call clearFlags,
    .call ((Cmd.run (.op [(⟨.nan, .nan⟩ : Itv), (⟨(f 3 0), (f 4 0)⟩ : Itv)]))),
    .call ((Cmd.run (.op [(⟨(f 3 0), (f 4 0)⟩ : Itv), (⟨.nan, .nan⟩ : Itv)]))),
    .call ((Cmd.run (.op [(⟨.nan, .nan⟩ : Itv), (⟨.nan, .nan⟩ : Itv)]))),
    .call ((Cmd.run (.op [(⟨(f 3 0), (f 4 0)⟩ : Itv), (⟨(f 1 0), (f 2 0)⟩ : Itv)]))),
    .call ((Cmd.run (.op [(⟨(f 0 0), (f 0 0)⟩ : Itv), (⟨.nzero, .nzero⟩ : Itv)]))),
    .call ((Cmd.run (.op [(⟨(f 0 0), .nzero⟩ : Itv), (⟨.nzero, (f 0 0)⟩ : Itv)]))),
    .call ((Cmd.run (.op [(⟨(f 3 0), (f 4 0)⟩ : Itv), (⟨(f 1 0), (f 7 0)⟩ : Itv)]))),
    .call ((Cmd.run (.op [(⟨(f 3 0), (f 4 0)⟩ : Itv), (⟨.ninf, .pinf⟩ : Itv)]))),
    .call ((Cmd.run (.op [(⟨.ninf, .pinf⟩ : Itv), (⟨(f 1 0), (f 7 0)⟩ : Itv)]))),
    .call ((Cmd.run (.op [(⟨.ninf, .pinf⟩ : Itv), (⟨.ninf, .pinf⟩ : Itv)]))),
    .call ((Cmd.run (.op [(⟨.nan, .nan⟩ : Itv), (⟨(f 3 0), (f 4 0)⟩ : Itv)]))),
    .call ((Cmd.run (.op [(⟨(f 3 0), (f 4 0)⟩ : Itv), (⟨.nan, .nan⟩ : Itv)]))),
    .call ((Cmd.run (.op [(⟨.nan, .nan⟩ : Itv), (⟨.nan, .nan⟩ : Itv)]))),
    .call ((Cmd.run (.op [(⟨(f 3 0), (f 4 0)⟩ : Itv), (⟨(f 1 0), (f 2 0)⟩ : Itv)]))),
    .call ((Cmd.run (.op [(⟨(f 0 0), (f 0 0)⟩ : Itv), (⟨.nzero, .nzero⟩ : Itv)]))),
    .call ((Cmd.run (.op [(⟨(f 0 0), .nzero⟩ : Itv), (⟨.nzero, (f 0 0)⟩ : Itv)]))),
    .call ((Cmd.run (.op [(⟨(f 3 0), (f 4 0)⟩ : Itv), (⟨(f 1 0), (f 7 0)⟩ : Itv)]))),
    .call ((Cmd.run (.op [(⟨(f 3 0), (f 4 0)⟩ : Itv), (⟨.ninf, .pinf⟩ : Itv)]))),
    .call ((Cmd.run (.op [(⟨.ninf, .pinf⟩ : Itv), (⟨(f 1 0), (f 7 0)⟩ : Itv)]))),
    .call ((Cmd.run (.op [(⟨.ninf, .pinf⟩ : Itv), (⟨.ninf, .pinf⟩ : Itv)]))),
    .state 1870 [],
    .call clearFlags,
    .call ((Cmd.run (.op [(⟨(f 3 0), (f 4 0)⟩ : Itv), (⟨.ninf, .ninf⟩ : Itv)]))),
    .state 1874 [.invalidOperand],
    .call clearFlags,
    .call (setCwd (bitsOf [.invalidOperand])),
    .throws 1877 ((Cmd.run (.op [(⟨(f 30 0), (f 4 0)⟩ : Itv), (⟨.ninf, .pinf⟩ : Itv)]))) .invalidOperand,
    .state 1878 [.invalidOperand],
    .call clearFlags,
    .call (setCwd (bitsOf []))] ExSt.init = [] := by
  decide +kernel

/-- `minimal_disjoint_dec_test` -/
example : failed [
    .call clearFlags,
    .call ((Cmd.run (.opD [(⟨⟨.nan, .nan⟩, .ill⟩ : DItv), (⟨⟨(f 3 0), (f 4 0)⟩, .defd⟩ : DItv)]))),
    .call ((Cmd.run (.opD [(⟨⟨(f 3 0), (f 4 0)⟩, .trv⟩ : DItv), (⟨⟨.nan, .nan⟩, .ill⟩ : DItv)]))),
    .call ((Cmd.run (.opD [(⟨⟨.nan, .nan⟩, .trv⟩ : DItv), (⟨⟨.nan, .nan⟩, .ill⟩ : DItv)]))),
    .call ((Cmd.run (.opD [(⟨⟨.nan, .nan⟩, .ill⟩ : DItv), (⟨⟨.nan, .nan⟩, .ill⟩ : DItv)]))),
    .call ((Cmd.run (.opD [(⟨⟨.nan, .nan⟩, .trv⟩ : DItv), (⟨⟨(f 3 0), (f 4 0)⟩, .trv⟩ : DItv)]))),
    .call ((Cmd.run (.opD [(⟨⟨(f 3 0), (f 4 0)⟩, .trv⟩ : DItv), (⟨⟨.nan, .nan⟩, .trv⟩ : DItv)]))),
    .call ((Cmd.run (.opD [(⟨⟨.nan, .nan⟩, .trv⟩ : DItv), (⟨⟨.nan, .nan⟩, .trv⟩ : DItv)]))),
    .call ((Cmd.run (.opD [(⟨⟨(f 3 0), (f 4 0)⟩, .trv⟩ : DItv), (⟨⟨(f 1 0), (f 2 0)⟩, .defd⟩ : DItv)]))),
    .call ((Cmd.run (.opD [(⟨⟨(f 0 0), (f 0 0)⟩, .trv⟩ : DItv), (⟨⟨.nzero, .nzero⟩, .trv⟩ : DItv)]))),
    .call ((Cmd.run (.opD [(⟨⟨(f 0 0), .nzero⟩, .trv⟩ : DItv), (⟨⟨.nzero, (f 0 0)⟩, .trv⟩ : DItv)]))),
    .call ((Cmd.run (.opD [(⟨⟨(f 3 0), (f 4 0)⟩, .defd⟩ : DItv), (⟨⟨(f 1 0), (f 7 0)⟩, .defd⟩ : DItv)]))),
    .call ((Cmd.run (.opD [(⟨⟨(f 3 0), (f 4 0)⟩, .trv⟩ : DItv), (⟨⟨.ninf, .pinf⟩, .trv⟩ : DItv)]))),
    .call ((Cmd.run (.opD [(⟨⟨.ninf, .pinf⟩, .trv⟩ : DItv), (⟨⟨(f 1 0), (f 7 0)⟩, .trv⟩ : DItv)]))),
    .call ((Cmd.run (.opD [(⟨⟨.ninf, .pinf⟩, .trv⟩ : DItv), (⟨⟨.ninf, .pinf⟩, .trv⟩ : DItv)]))),
    .state 1906 [],
    .call clearFlags,
    .call ((Cmd.run (.opD [(⟨⟨(f 3 0), (f 4 0)⟩, .trv⟩ : DItv), (⟨⟨.ninf, .pinf⟩, .com⟩ : DItv)]))),
    .state 1910 [.invalidOperand],
    .call clearFlags,
    .call (setCwd (bitsOf [.invalidOperand])),
    .throws 1913 ((Cmd.run (.opD [(⟨⟨(f 3 0), (f 4 0)⟩, .ill⟩ : DItv), (⟨⟨.ninf, .pinf⟩, .trv⟩ : DItv)]))) .invalidOperand,
    .state 1914 [.invalidOperand],
    .call clearFlags,
    .call (setCwd (bitsOf []))] ExSt.init = [] := by
  decide +kernel

/-- `minimal_disjoint_dec_mixedtype_test` -/
example : failed [
    .call clearFlags,
    .call ((Cmd.run (.opD [(⟨⟨.nan, .nan⟩, .ill⟩ : DItv), (⟨⟨(f 3 0), (f 4 0)⟩, .trv⟩ : DItv)]))),
    .call ((Cmd.run (.opD [(⟨⟨(f 3 0), (f 4 0)⟩, .trv⟩ : DItv), (⟨⟨.nan, .nan⟩, .ill⟩ : DItv)]))),
    .call ((Cmd.run (.opD [(⟨⟨.nan, .nan⟩, .trv⟩ : DItv), (⟨⟨.nan, .nan⟩, .ill⟩ : DItv)]))),
    .call ((Cmd.run (.opD [(⟨⟨.nan, .nan⟩, .ill⟩ : DItv), (⟨⟨.nan, .nan⟩, .ill⟩ : DItv)]))),
    .call ((Cmd.run (.opD [(⟨⟨.nan, .nan⟩, .trv⟩ : DItv), (⟨⟨(f 3 0), (f 4 0)⟩, .defd⟩ : DItv)]))),
    .call ((Cmd.run (.opD [(⟨⟨(f 3 0), (f 4 0)⟩, .trv⟩ : DItv), (⟨⟨.nan, .nan⟩, .trv⟩ : DItv)]))),
    .call ((Cmd.run (.opD [(⟨⟨.nan, .nan⟩, .trv⟩ : DItv), (⟨⟨.nan, .nan⟩, .trv⟩ : DItv)]))),
    .call ((Cmd.run (.opD [(⟨⟨(f 3 0), (f 4 0)⟩, .trv⟩ : DItv), (⟨⟨(f 1 0), (f 2 0)⟩, .trv⟩ : DItv)]))),
    .call ((Cmd.run (.opD [(⟨⟨(f 0 0), (f 0 0)⟩, .trv⟩ : DItv), (⟨⟨.nzero, .nzero⟩, .trv⟩ : DItv)]))),
    .call ((Cmd.run (.opD [(⟨⟨(f 0 0), .nzero⟩, .defd⟩ : DItv), (⟨⟨.nzero, (f 0 0)⟩, .defd⟩ : DItv)]))),
    .call ((Cmd.run (.opD [(⟨⟨(f 3 0), (f 4 0)⟩, .trv⟩ : DItv), (⟨⟨(f 1 0), (f 7 0)⟩, .trv⟩ : DItv)]))),
    .call ((Cmd.run (.opD [(⟨⟨(f 3 0), (f 4 0)⟩, .trv⟩ : DItv), (⟨⟨.ninf, .pinf⟩, .defd⟩ : DItv)]))),
    .call ((Cmd.run (.opD [(⟨⟨.ninf, .pinf⟩, .trv⟩ : DItv), (⟨⟨(f 1 0), (f 7 0)⟩, .trv⟩ : DItv)]))),
    .call ((Cmd.run (.opD [(⟨⟨.ninf, .pinf⟩, .trv⟩ : DItv), (⟨⟨.ninf, .pinf⟩, .trv⟩ : DItv)]))),
    .call ((Cmd.run (.opD [(⟨⟨.nan, .nan⟩, .ill⟩ : DItv), (⟨⟨(f 3 0), (f 4 0)⟩, .trv⟩ : DItv)]))),
    .call ((Cmd.run (.opD [(⟨⟨(f 3 0), (f 4 0)⟩, .trv⟩ : DItv), (⟨⟨.nan, .nan⟩, .ill⟩ : DItv)]))),
    .call ((Cmd.run (.opD [(⟨⟨.nan, .nan⟩, .trv⟩ : DItv), (⟨⟨.nan, .nan⟩, .ill⟩ : DItv)]))),
    .call ((Cmd.run (.opD [(⟨⟨.nan, .nan⟩, .ill⟩ : DItv), (⟨⟨.nan, .nan⟩, .ill⟩ : DItv)]))),
    .call ((Cmd.run (.opD [(⟨⟨.nan, .nan⟩, .trv⟩ : DItv), (⟨⟨(f 3 0), (f 4 0)⟩, .trv⟩ : DItv)]))),
    .call ((Cmd.run (.opD [(⟨⟨(f 3 0), (f 4 0)⟩, .trv⟩ : DItv), (⟨⟨.nan, .nan⟩, .trv⟩ : DItv)]))),
    .call ((Cmd.run (.opD [(⟨⟨.nan, .nan⟩, .trv⟩ : DItv), (⟨⟨.nan, .nan⟩, .trv⟩ : DItv)]))),
    .call ((Cmd.run (.opD [(⟨⟨(f 3 0), (f 4 0)⟩, .trv⟩ : DItv), (⟨⟨(f 1 0), (f 2 0)⟩, .trv⟩ : DItv)]))),
    .call ((Cmd.run (.opD [(⟨⟨(f 0 0), (f 0 0)⟩, .defd⟩ : DItv), (⟨⟨.nzero, .nzero⟩, .trv⟩ : DItv)]))),
    .call ((Cmd.run (.opD [(⟨⟨(f 0 0), .nzero⟩, .trv⟩ : DItv), (⟨⟨.nzero, (f 0 0)⟩, .trv⟩ : DItv)]))),
    .call ((Cmd.run (.opD [(⟨⟨(f 3 0), (f 4 0)⟩, .trv⟩ : DItv), (⟨⟨(f 1 0), (f 7 0)⟩, .defd⟩ : DItv)]))),
    .call ((Cmd.run (.opD [(⟨⟨(f 3 0), (f 4 0)⟩, .trv⟩ : DItv), (⟨⟨.ninf, .pinf⟩, .trv⟩ : DItv)]))),
    .call ((Cmd.run (.opD [(⟨⟨.ninf, .pinf⟩, .trv⟩ : DItv), (⟨⟨(f 1 0), (f 7 0)⟩, .trv⟩ : DItv)]))),
    .call ((Cmd.run (.opD [(⟨⟨.ninf, .pinf⟩, .trv⟩ : DItv), (⟨⟨.ninf, .pinf⟩, .trv⟩ : DItv)]))),
    .state 1959 [],
    .call clearFlags,
    .call ((Cmd.run (.opD [(⟨⟨.nan, .nan⟩, .dac⟩ : DItv), (⟨⟨.nan, .nan⟩, .ill⟩ : DItv)]))),
    .state 1963 [.invalidOperand],
    .call clearFlags,
    .call (setCwd (bitsOf [.invalidOperand])),
    .throws 1966 ((Cmd.run (.opD [(⟨⟨.nan, .nan⟩, .trv⟩ : DItv), (⟨⟨.nan, .nan⟩, .defd⟩ : DItv)]))) .invalidOperand,
    .state 1967 [.invalidOperand],
    .call clearFlags,
    .call (setCwd (bitsOf []))] ExSt.init = [] := by
  decide +kernel

end P1788.Conform
