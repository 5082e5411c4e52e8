import Verif.Conform.Basic

/-!
# Conformance: num_func, exceptions

Generated from `/repo/test/p1788/flavor/infsup/setbased/test_mpfr_bin_ieee754_flavor_num_func.cpp`: the assertions of the project's own test suite, evaluated in the
model by the kernel.  Each test case is the list of its calls and of its
assertions, with their lines, about the exception flags and about thrown exceptions.  These are tests of the model, not proofs of
properties.
-/

set_option maxRecDepth 100000

namespace P1788.Conform

/-- `minimal_inf_test` -/
example : failed [
    .call clearFlags,
    .call ((Cmd.run (.op [(⟨.nan, .nan⟩ : Itv)]))),
    .call ((Cmd.run (.op [(⟨.ninf, .pinf⟩ : Itv)]))),
    .call ((Cmd.run (.op [(⟨(f 1 0), (f 2 0)⟩ : Itv)]))),
    .call ((Cmd.run (.op [(⟨(f (-3) (0)), (f (-2) (0))⟩ : Itv)]))),
    .call ((Cmd.run (.op [(⟨.ninf, (f 2 0)⟩ : Itv)]))),
    .call ((Cmd.run (.op [(⟨.ninf, (f 0 0)⟩ : Itv)]))),
    .call ((Cmd.run (.op [(⟨.ninf, .nzero⟩ : Itv)]))),
    .call ((Cmd.run (.op [(⟨(f (-2) (0)), .pinf⟩ : Itv)]))),
    .call ((Cmd.run (.op [(⟨(f 0 0), .pinf⟩ : Itv)]))),
    .call ((Cmd.run (.op [(⟨(f 0 0), .pinf⟩ : Itv)]))),
    .call ((Cmd.run (.op [(⟨.nzero, .pinf⟩ : Itv)]))),
    .call ((Cmd.run (.op [(⟨.nzero, .pinf⟩ : Itv)]))),
    .call ((Cmd.run (.op [(⟨.nzero, (f 0 0)⟩ : Itv)]))),
    .call ((Cmd.run (.op [(⟨.nzero, (f 0 0)⟩ : Itv)]))),
    .call ((Cmd.run (.op [(⟨(f 0 0), .nzero⟩ : Itv)]))),
    .call ((Cmd.run (.op [(⟨(f 0 0), .nzero⟩ : Itv)]))),
    .call ((Cmd.run (.op [(⟨(f 0 0), (f 0 0)⟩ : Itv)]))),
    .call ((Cmd.run (.op [(⟨(f 0 0), (f 0 0)⟩ : Itv)]))),
    .call ((Cmd.run (.op [(⟨.nzero, .nzero⟩ : Itv)]))),
    .call ((Cmd.run (.op [(⟨.nzero, .nzero⟩ : Itv)]))),
    .state 84 [],
    .call clearFlags,
    .call ((Cmd.run (.op [(⟨(f 1 0), (f (-2) (0))⟩ : Itv)]))),
    .state 88 [.invalidOperand],
    .call clearFlags,
    .call (setCwd (bitsOf [.invalidOperand])),
    .throws 91 ((Cmd.run (.op [(⟨(f 1 0), (f (-2) (0))⟩ : Itv)]))) .invalidOperand,
    .state 92 [.invalidOperand],
    .call clearFlags,
    .call (setCwd (bitsOf []))] ExSt.init = [] := by
  decide +kernel

/-- `minimal_inf_mixedtype_test` -/
example : failed [
    .call clearFlags,
    .call ((Cmd.run (.op [(⟨.nan, .nan⟩ : Itv)]))),
    .call ((Cmd.run (.op [(⟨.ninf, .pinf⟩ : Itv)]))),
    .call ((Cmd.run (.op [(⟨(f 1 0), (f 2 0)⟩ : Itv)]))),
    .call ((Cmd.run (.op [(⟨(f (-3) (0)), (f (-2) (0))⟩ : Itv)]))),
    .call ((Cmd.run (.op [(⟨.ninf, (f 2 0)⟩ : Itv)]))),
    .call ((Cmd.run (.op [(⟨.ninf, (f 0 0)⟩ : Itv)]))),
    .call ((Cmd.run (.op [(⟨.ninf, .nzero⟩ : Itv)]))),
    .call ((Cmd.run (.op [(⟨(f (-2) (0)), .pinf⟩ : Itv)]))),
    .call ((Cmd.run (.op [(⟨(f 0 0), .pinf⟩ : Itv)]))),
    .call ((Cmd.run (.op [(⟨(f 0 0), .pinf⟩ : Itv)]))),
    .call ((Cmd.run (.op [(⟨.nzero, .pinf⟩ : Itv)]))),
    .call ((Cmd.run (.op [(⟨.nzero, .pinf⟩ : Itv)]))),
    .call ((Cmd.run (.op [(⟨.nzero, (f 0 0)⟩ : Itv)]))),
    .call ((Cmd.run (.op [(⟨.nzero, (f 0 0)⟩ : Itv)]))),
    .call ((Cmd.run (.op [(⟨(f 0 0), .nzero⟩ : Itv)]))),
    .call ((Cmd.run (.op [(⟨(f 0 0), .nzero⟩ : Itv)]))),
    .call ((Cmd.run (.op [(⟨(f 0 0), (f 0 0)⟩ : Itv)]))),
    .call ((Cmd.run (.op [(⟨(f 0 0), (f 0 0)⟩ : Itv)]))),
    .call ((Cmd.run (.op [(⟨.nzero, .nzero⟩ : Itv)]))),
    .call ((Cmd.run (.op [(⟨.nzero, .nzero⟩ : Itv)]))),
    .call ((Cmd.run (.op [(⟨(f (-1) (-1074)), (f (1) (-1074))⟩ : Itv)]))),
    .call ((Cmd.run (.op [(⟨(f (-1) (-1074)), (f (-1) (-1074))⟩ : Itv)]))),
    .call ((Cmd.run (.op [(⟨(f (1) (-1074)), (f (1) (-1074))⟩ : Itv)]))),
    .call ((Cmd.run (.op [(⟨(f (1) (-1074)), (f (1) (-1074))⟩ : Itv)]))),
    .call ((Cmd.run (.op [(⟨(f (-9007199254740991) (971)), (f 9007199254740991 971)⟩ : Itv)]))),
    .state 128 [],
    .call clearFlags,
    .call ((Cmd.run (.op [(⟨(f 1 0), (f (-2) (0))⟩ : Itv)]))),
    .state 132 [.invalidOperand],
    .call clearFlags,
    .call (setCwd (bitsOf [.invalidOperand])),
    .throws 135 ((Cmd.run (.op [(⟨(f 1 0), (f (-2) (0))⟩ : Itv)]))) .invalidOperand,
    .state 136 [.invalidOperand],
    .call clearFlags,
    .call (setCwd (bitsOf [])),
    .call ((Cmd.run (.op [(⟨.nan, .nan⟩ : Itv)]))),
    .call ((Cmd.run (.op [(⟨.ninf, .pinf⟩ : Itv)]))),
    .call ((Cmd.run (.op [(⟨(f 1 0), (f 2 0)⟩ : Itv)]))),
    .call ((Cmd.run (.op [(⟨(f (-3) (0)), (f (-2) (0))⟩ : Itv)]))),
    .call ((Cmd.run (.op [(⟨.ninf, (f 2 0)⟩ : Itv)]))),
    .call ((Cmd.run (.op [(⟨.ninf, (f 0 0)⟩ : Itv)]))),
    .call ((Cmd.run (.op [(⟨.ninf, .nzero⟩ : Itv)]))),
    .call ((Cmd.run (.op [(⟨(f (-2) (0)), .pinf⟩ : Itv)]))),
    .call ((Cmd.run (.op [(⟨(f 0 0), .pinf⟩ : Itv)]))),
    .call ((Cmd.run (.op [(⟨(f 0 0), .pinf⟩ : Itv)]))),
    .call ((Cmd.run (.op [(⟨.nzero, .pinf⟩ : Itv)]))),
    .call ((Cmd.run (.op [(⟨.nzero, .pinf⟩ : Itv)]))),
    .call ((Cmd.run (.op [(⟨.nzero, (f 0 0)⟩ : Itv)]))),
    .call ((Cmd.run (.op [(⟨.nzero, (f 0 0)⟩ : Itv)]))),
    .call ((Cmd.run (.op [(⟨(f 0 0), .nzero⟩ : Itv)]))),
    .call ((Cmd.run (.op [(⟨(f 0 0), .nzero⟩ : Itv)]))),
    .call ((Cmd.run (.op [(⟨(f 0 0), (f 0 0)⟩ : Itv)]))),
    .call ((Cmd.run (.op [(⟨(f 0 0), (f 0 0)⟩ : Itv)]))),
    .call ((Cmd.run (.op [(⟨.nzero, .nzero⟩ : Itv)]))),
    .call ((Cmd.run (.op [(⟨.nzero, .nzero⟩ : Itv)]))),
    .call ((Cmd.run (.op [(⟨(f (-1) (-149)), (f (1) (-149))⟩ : Itv)]))),
    .call ((Cmd.run (.op [(⟨(f (-1) (-149)), (f (-1) (-149))⟩ : Itv)]))),
    .call ((Cmd.run (.op [(⟨(f (1) (-149)), (f (1) (-149))⟩ : Itv)]))),
    .call ((Cmd.run (.op [(⟨(f (-16777215) (104)), (f 16777215 104)⟩ : Itv)]))),
    .state 167 [],
    .call clearFlags,
    .call ((Cmd.run (.op [(⟨(f 1 0), (f (-2) (0))⟩ : Itv)]))),
    .state 171 [.invalidOperand],
    .call clearFlags,
    .call (setCwd (bitsOf [.invalidOperand])),
    .throws 174 ((Cmd.run (.op [(⟨(f 1 0), (f (-2) (0))⟩ : Itv)]))) .invalidOperand,
    .state 175 [.invalidOperand],
    .call clearFlags,
    .call (setCwd (bitsOf []))] ExSt.init = [] := by
  decide +kernel

/-- `minimal_inf_dec_test` -/
example : failed [
    .call clearFlags,
    .call ((Cmd.run (.opD [(⟨⟨.nan, .nan⟩, .ill⟩ : DItv)]))),
    .call ((Cmd.run (.opD [(⟨⟨.nan, .nan⟩, .trv⟩ : DItv)]))),
    .call ((Cmd.run (.opD [(⟨⟨.ninf, .pinf⟩, .defd⟩ : DItv)]))),
    .call ((Cmd.run (.opD [(⟨⟨(f 1 0), (f 2 0)⟩, .com⟩ : DItv)]))),
    .call ((Cmd.run (.opD [(⟨⟨(f (-3) (0)), (f (-2) (0))⟩, .trv⟩ : DItv)]))),
    .call ((Cmd.run (.opD [(⟨⟨.ninf, (f 2 0)⟩, .dac⟩ : DItv)]))),
    .call ((Cmd.run (.opD [(⟨⟨.ninf, (f 0 0)⟩, .defd⟩ : DItv)]))),
    .call ((Cmd.run (.opD [(⟨⟨.ninf, .nzero⟩, .trv⟩ : DItv)]))),
    .call ((Cmd.run (.opD [(⟨⟨(f (-2) (0)), .pinf⟩, .trv⟩ : DItv)]))),
    .call ((Cmd.run (.opD [(⟨⟨(f 0 0), .pinf⟩, .defd⟩ : DItv)]))),
    .call ((Cmd.run (.opD [(⟨⟨(f 0 0), .pinf⟩, .defd⟩ : DItv)]))),
    .call ((Cmd.run (.opD [(⟨⟨.nzero, .pinf⟩, .trv⟩ : DItv)]))),
    .call ((Cmd.run (.opD [(⟨⟨.nzero, .pinf⟩, .trv⟩ : DItv)]))),
    .call ((Cmd.run (.opD [(⟨⟨.nzero, (f 0 0)⟩, .dac⟩ : DItv)]))),
    .call ((Cmd.run (.opD [(⟨⟨.nzero, (f 0 0)⟩, .trv⟩ : DItv)]))),
    .call ((Cmd.run (.opD [(⟨⟨(f 0 0), .nzero⟩, .trv⟩ : DItv)]))),
    .call ((Cmd.run (.opD [(⟨⟨(f 0 0), .nzero⟩, .trv⟩ : DItv)]))),
    .call ((Cmd.run (.opD [(⟨⟨(f 0 0), (f 0 0)⟩, .trv⟩ : DItv)]))),
    .call ((Cmd.run (.opD [(⟨⟨(f 0 0), (f 0 0)⟩, .trv⟩ : DItv)]))),
    .call ((Cmd.run (.opD [(⟨⟨.nzero, .nzero⟩, .trv⟩ : DItv)]))),
    .call ((Cmd.run (.opD [(⟨⟨.nzero, .nzero⟩, .trv⟩ : DItv)]))),
    .state 207 [],
    .call clearFlags,
    .call ((Cmd.run (.opD [(⟨⟨(f 1 0), (f (-2) (0))⟩, .com⟩ : DItv)]))),
    .state 212 [.invalidOperand],
    .call clearFlags,
    .call (setCwd (bitsOf [.invalidOperand])),
    .throws 215 ((Cmd.run (.opD [(⟨⟨(f 1 0), (f (-2) (0))⟩, .com⟩ : DItv)]))) .invalidOperand,
    .state 216 [.invalidOperand],
    .call clearFlags,
    .call (setCwd (bitsOf []))] ExSt.init = [] := by
  decide +kernel

/-- `minimal_inf_dec_mixedtype_test` -/
example : failed [
    .call clearFlags,
    .call ((Cmd.run (.opD [(⟨⟨.nan, .nan⟩, .ill⟩ : DItv)]))),
    .call ((Cmd.run (.opD [(⟨⟨.nan, .nan⟩, .trv⟩ : DItv)]))),
    .call ((Cmd.run (.opD [(⟨⟨.ninf, .pinf⟩, .defd⟩ : DItv)]))),
    .call ((Cmd.run (.opD [(⟨⟨(f 1 0), (f 2 0)⟩, .com⟩ : DItv)]))),
    .call ((Cmd.run (.opD [(⟨⟨(f (-3) (0)), (f (-2) (0))⟩, .trv⟩ : DItv)]))),
    .call ((Cmd.run (.opD [(⟨⟨.ninf, (f 2 0)⟩, .dac⟩ : DItv)]))),
    .call ((Cmd.run (.opD [(⟨⟨.ninf, (f 0 0)⟩, .defd⟩ : DItv)]))),
    .call ((Cmd.run (.opD [(⟨⟨.ninf, .nzero⟩, .trv⟩ : DItv)]))),
    .call ((Cmd.run (.opD [(⟨⟨(f (-2) (0)), .pinf⟩, .trv⟩ : DItv)]))),
    .call ((Cmd.run (.opD [(⟨⟨(f 0 0), .pinf⟩, .defd⟩ : DItv)]))),
    .call ((Cmd.run (.opD [(⟨⟨(f 0 0), .pinf⟩, .defd⟩ : DItv)]))),
    .call ((Cmd.run (.opD [(⟨⟨.nzero, .pinf⟩, .trv⟩ : DItv)]))),
    .call ((Cmd.run (.opD [(⟨⟨.nzero, .pinf⟩, .trv⟩ : DItv)]))),
    .call ((Cmd.run (.opD [(⟨⟨.nzero, (f 0 0)⟩, .dac⟩ : DItv)]))),
    .call ((Cmd.run (.opD [(⟨⟨.nzero, (f 0 0)⟩, .trv⟩ : DItv)]))),
    .call ((Cmd.run (.opD [(⟨⟨(f 0 0), .nzero⟩, .trv⟩ : DItv)]))),
    .call ((Cmd.run (.opD [(⟨⟨(f 0 0), .nzero⟩, .trv⟩ : DItv)]))),
    .call ((Cmd.run (.opD [(⟨⟨(f 0 0), (f 0 0)⟩, .trv⟩ : DItv)]))),
    .call ((Cmd.run (.opD [(⟨⟨(f 0 0), (f 0 0)⟩, .trv⟩ : DItv)]))),
    .call ((Cmd.run (.opD [(⟨⟨.nzero, .nzero⟩, .trv⟩ : DItv)]))),
    .call ((Cmd.run (.opD [(⟨⟨.nzero, .nzero⟩, .trv⟩ : DItv)]))),
    .call ((Cmd.run (.opD [(⟨⟨(f (-1) (-1074)), (f (1) (-1074))⟩, .com⟩ : DItv)]))),
    .call ((Cmd.run (.opD [(⟨⟨(f (-1) (-1074)), (f (-1) (-1074))⟩, .trv⟩ : DItv)]))),
    .call ((Cmd.run (.opD [(⟨⟨(f (1) (-1074)), (f (1) (-1074))⟩, .defd⟩ : DItv)]))),
    .call ((Cmd.run (.opD [(⟨⟨(f (1) (-1074)), (f (1) (-1074))⟩, .dac⟩ : DItv)]))),
    .call ((Cmd.run (.opD [(⟨⟨(f (-9007199254740991) (971)), (f 9007199254740991 971)⟩, .trv⟩ : DItv)]))),
    .state 255 [],
    .call clearFlags,
    .call ((Cmd.run (.opD [(⟨⟨(f 1 0), (f (-2) (0))⟩, .com⟩ : DItv)]))),
    .state 259 [.invalidOperand],
    .call clearFlags,
    .call (setCwd (bitsOf [.invalidOperand])),
    .throws 262 ((Cmd.run (.opD [(⟨⟨(f 1 0), (f (-2) (0))⟩, .com⟩ : DItv)]))) .invalidOperand,
    .state 263 [.invalidOperand],
    .call clearFlags,
    .call (setCwd (bitsOf [])),
    .call ((Cmd.run (.opD [(⟨⟨.nan, .nan⟩, .ill⟩ : DItv)]))),
    .call ((Cmd.run (.opD [(⟨⟨.nan, .nan⟩, .trv⟩ : DItv)]))),
    .call ((Cmd.run (.opD [(⟨⟨.ninf, .pinf⟩, .defd⟩ : DItv)]))),
    .call ((Cmd.run (.opD [(⟨⟨(f 1 0), (f 2 0)⟩, .com⟩ : DItv)]))),
    .call ((Cmd.run (.opD [(⟨⟨(f (-3) (0)), (f (-2) (0))⟩, .trv⟩ : DItv)]))),
    .call ((Cmd.run (.opD [(⟨⟨.ninf, (f 2 0)⟩, .dac⟩ : DItv)]))),
    .call ((Cmd.run (.opD [(⟨⟨.ninf, (f 0 0)⟩, .defd⟩ : DItv)]))),
    .call ((Cmd.run (.opD [(⟨⟨.ninf, .nzero⟩, .trv⟩ : DItv)]))),
    .call ((Cmd.run (.opD [(⟨⟨(f (-2) (0)), .pinf⟩, .trv⟩ : DItv)]))),
    .call ((Cmd.run (.opD [(⟨⟨(f 0 0), .pinf⟩, .defd⟩ : DItv)]))),
    .call ((Cmd.run (.opD [(⟨⟨(f 0 0), .pinf⟩, .defd⟩ : DItv)]))),
    .call ((Cmd.run (.opD [(⟨⟨.nzero, .pinf⟩, .trv⟩ : DItv)]))),
    .call ((Cmd.run (.opD [(⟨⟨.nzero, .pinf⟩, .trv⟩ : DItv)]))),
    .call ((Cmd.run (.opD [(⟨⟨.nzero, (f 0 0)⟩, .dac⟩ : DItv)]))),
    .call ((Cmd.run (.opD [(⟨⟨.nzero, (f 0 0)⟩, .trv⟩ : DItv)]))),
    .call ((Cmd.run (.opD [(⟨⟨(f 0 0), .nzero⟩, .trv⟩ : DItv)]))),
    .call ((Cmd.run (.opD [(⟨⟨(f 0 0), .nzero⟩, .trv⟩ : DItv)]))),
    .call ((Cmd.run (.opD [(⟨⟨(f 0 0), (f 0 0)⟩, .trv⟩ : DItv)]))),
    .call ((Cmd.run (.opD [(⟨⟨(f 0 0), (f 0 0)⟩, .trv⟩ : DItv)]))),
    .call ((Cmd.run (.opD [(⟨⟨.nzero, .nzero⟩, .trv⟩ : DItv)]))),
    .call ((Cmd.run (.opD [(⟨⟨.nzero, .nzero⟩, .trv⟩ : DItv)]))),
    .call ((Cmd.run (.opD [(⟨⟨(f (-1) (-149)), (f (1) (-149))⟩, .com⟩ : DItv)]))),
    .call ((Cmd.run (.opD [(⟨⟨(f (-1) (-149)), (f (-1) (-149))⟩, .trv⟩ : DItv)]))),
    .call ((Cmd.run (.opD [(⟨⟨(f (1) (-149)), (f (1) (-149))⟩, .defd⟩ : DItv)]))),
    .call ((Cmd.run (.opD [(⟨⟨(f (-16777215) (104)), (f 16777215 104)⟩, .trv⟩ : DItv)]))),
    .state 295 [],
    .call clearFlags,
    .call ((Cmd.run (.opD [(⟨⟨(f 1 0), (f (-2) (0))⟩, .com⟩ : DItv)]))),
    .state 299 [.invalidOperand],
    .call clearFlags,
    .call (setCwd (bitsOf [.invalidOperand])),
    .throws 302 ((Cmd.run (.opD [(⟨⟨(f 1 0), (f (-2) (0))⟩, .com⟩ : DItv)]))) .invalidOperand,
    .state 303 [.invalidOperand],
    .call clearFlags,
    .call (setCwd (bitsOf []))] ExSt.init = [] := by
  decide +kernel

/-- `minimal_sup_test` -/
example : failed [
    .call clearFlags,
    .call ((Cmd.run (.op [(⟨.nan, .nan⟩ : Itv)]))),
    .call ((Cmd.run (.op [(⟨.ninf, .pinf⟩ : Itv)]))),
    .call ((Cmd.run (.op [(⟨(f 1 0), (f 2 0)⟩ : Itv)]))),
    .call ((Cmd.run (.op [(⟨(f (-3) (0)), (f (-2) (0))⟩ : Itv)]))),
    .call ((Cmd.run (.op [(⟨.ninf, (f 2 0)⟩ : Itv)]))),
    .call ((Cmd.run (.op [(⟨.ninf, (f 0 0)⟩ : Itv)]))),
    .call ((Cmd.run (.op [(⟨.ninf, (f 0 0)⟩ : Itv)]))),
    .call ((Cmd.run (.op [(⟨.ninf, .nzero⟩ : Itv)]))),
    .call ((Cmd.run (.op [(⟨.ninf, .nzero⟩ : Itv)]))),
    .call ((Cmd.run (.op [(⟨(f (-2) (0)), .pinf⟩ : Itv)]))),
    .call ((Cmd.run (.op [(⟨(f 0 0), .pinf⟩ : Itv)]))),
    .call ((Cmd.run (.op [(⟨.nzero, .pinf⟩ : Itv)]))),
    .call ((Cmd.run (.op [(⟨.nzero, (f 0 0)⟩ : Itv)]))),
    .call ((Cmd.run (.op [(⟨.nzero, (f 0 0)⟩ : Itv)]))),
    .call ((Cmd.run (.op [(⟨(f 0 0), .nzero⟩ : Itv)]))),
    .call ((Cmd.run (.op [(⟨(f 0 0), .nzero⟩ : Itv)]))),
    .call ((Cmd.run (.op [(⟨(f 0 0), (f 0 0)⟩ : Itv)]))),
    .call ((Cmd.run (.op [(⟨(f 0 0), (f 0 0)⟩ : Itv)]))),
    .call ((Cmd.run (.op [(⟨.nzero, .nzero⟩ : Itv)]))),
    .call ((Cmd.run (.op [(⟨.nzero, .nzero⟩ : Itv)]))),
    .state 335 [],
    .call clearFlags,
    .call ((Cmd.run (.op [(⟨(f 1 0), (f (-2) (0))⟩ : Itv)]))),
    .state 339 [.invalidOperand],
    .call clearFlags,
    .call (setCwd (bitsOf [.invalidOperand])),
    .throws 342 ((Cmd.run (.op [(⟨(f 1 0), (f (-2) (0))⟩ : Itv)]))) .invalidOperand,
    .state 343 [.invalidOperand],
    .call clearFlags,
    .call (setCwd (bitsOf []))] ExSt.init = [] := by
  decide +kernel

/-- `minimal_sup_mixedtype_test` -/
example : failed [
    .call clearFlags,
    .call ((Cmd.run (.op [(⟨.nan, .nan⟩ : Itv)]))),
    .call ((Cmd.run (.op [(⟨.ninf, .pinf⟩ : Itv)]))),
    .call ((Cmd.run (.op [(⟨(f 1 0), (f 2 0)⟩ : Itv)]))),
    .call ((Cmd.run (.op [(⟨(f (-3) (0)), (f (-2) (0))⟩ : Itv)]))),
    .call ((Cmd.run (.op [(⟨.ninf, (f 2 0)⟩ : Itv)]))),
    .call ((Cmd.run (.op [(⟨.ninf, (f 0 0)⟩ : Itv)]))),
    .call ((Cmd.run (.op [(⟨.ninf, (f 0 0)⟩ : Itv)]))),
    .call ((Cmd.run (.op [(⟨.ninf, .nzero⟩ : Itv)]))),
    .call ((Cmd.run (.op [(⟨.ninf, .nzero⟩ : Itv)]))),
    .call ((Cmd.run (.op [(⟨(f (-2) (0)), .pinf⟩ : Itv)]))),
    .call ((Cmd.run (.op [(⟨(f 0 0), .pinf⟩ : Itv)]))),
    .call ((Cmd.run (.op [(⟨.nzero, .pinf⟩ : Itv)]))),
    .call ((Cmd.run (.op [(⟨.nzero, (f 0 0)⟩ : Itv)]))),
    .call ((Cmd.run (.op [(⟨.nzero, (f 0 0)⟩ : Itv)]))),
    .call ((Cmd.run (.op [(⟨(f 0 0), .nzero⟩ : Itv)]))),
    .call ((Cmd.run (.op [(⟨(f 0 0), .nzero⟩ : Itv)]))),
    .call ((Cmd.run (.op [(⟨(f 0 0), (f 0 0)⟩ : Itv)]))),
    .call ((Cmd.run (.op [(⟨(f 0 0), (f 0 0)⟩ : Itv)]))),
    .call ((Cmd.run (.op [(⟨.nzero, .nzero⟩ : Itv)]))),
    .call ((Cmd.run (.op [(⟨.nzero, .nzero⟩ : Itv)]))),
    .call ((Cmd.run (.op [(⟨(f (-1) (-1074)), (f (1) (-1074))⟩ : Itv)]))),
    .call ((Cmd.run (.op [(⟨(f (-1) (-1074)), (f (-1) (-1074))⟩ : Itv)]))),
    .call ((Cmd.run (.op [(⟨(f (-1) (-1074)), (f (-1) (-1074))⟩ : Itv)]))),
    .call ((Cmd.run (.op [(⟨(f (1) (-1074)), (f (1) (-1074))⟩ : Itv)]))),
    .call ((Cmd.run (.op [(⟨(f (-9007199254740991) (971)), (f 9007199254740991 971)⟩ : Itv)]))),
    .state 379 [],
    .call clearFlags,
    .call ((Cmd.run (.op [(⟨(f 1 0), (f (-2) (0))⟩ : Itv)]))),
    .state 383 [.invalidOperand],
    .call clearFlags,
    .call (setCwd (bitsOf [.invalidOperand])),
    .throws 386 ((Cmd.run (.op [(⟨(f 1 0), (f (-2) (0))⟩ : Itv)]))) .invalidOperand,
    .state 387 [.invalidOperand],
    .call clearFlags,
    .call (setCwd (bitsOf [])),
    .call ((Cmd.run (.op [(⟨.nan, .nan⟩ : Itv)]))),
    .call ((Cmd.run (.op [(⟨.ninf, .pinf⟩ : Itv)]))),
    .call ((Cmd.run (.op [(⟨(f 1 0), (f 2 0)⟩ : Itv)]))),
    .call ((Cmd.run (.op [(⟨(f (-3) (0)), (f (-2) (0))⟩ : Itv)]))),
    .call ((Cmd.run (.op [(⟨.ninf, (f 2 0)⟩ : Itv)]))),
    .call ((Cmd.run (.op [(⟨.ninf, (f 0 0)⟩ : Itv)]))),
    .call ((Cmd.run (.op [(⟨.ninf, (f 0 0)⟩ : Itv)]))),
    .call ((Cmd.run (.op [(⟨.ninf, .nzero⟩ : Itv)]))),
    .call ((Cmd.run (.op [(⟨.ninf, .nzero⟩ : Itv)]))),
    .call ((Cmd.run (.op [(⟨(f (-2) (0)), .pinf⟩ : Itv)]))),
    .call ((Cmd.run (.op [(⟨(f 0 0), .pinf⟩ : Itv)]))),
    .call ((Cmd.run (.op [(⟨.nzero, .pinf⟩ : Itv)]))),
    .call ((Cmd.run (.op [(⟨.nzero, (f 0 0)⟩ : Itv)]))),
    .call ((Cmd.run (.op [(⟨.nzero, (f 0 0)⟩ : Itv)]))),
    .call ((Cmd.run (.op [(⟨(f 0 0), .nzero⟩ : Itv)]))),
    .call ((Cmd.run (.op [(⟨(f 0 0), .nzero⟩ : Itv)]))),
    .call ((Cmd.run (.op [(⟨(f 0 0), (f 0 0)⟩ : Itv)]))),
    .call ((Cmd.run (.op [(⟨(f 0 0), (f 0 0)⟩ : Itv)]))),
    .call ((Cmd.run (.op [(⟨.nzero, .nzero⟩ : Itv)]))),
    .call ((Cmd.run (.op [(⟨.nzero, .nzero⟩ : Itv)]))),
    .call ((Cmd.run (.op [(⟨(f (-1) (-149)), (f (1) (-149))⟩ : Itv)]))),
    .call ((Cmd.run (.op [(⟨(f (-1) (-149)), (f (-1) (-149))⟩ : Itv)]))),
    .call ((Cmd.run (.op [(⟨(f (1) (-149)), (f (1) (-149))⟩ : Itv)]))),
    .call ((Cmd.run (.op [(⟨(f (-16777215) (104)), (f 16777215 104)⟩ : Itv)]))),
    .state 418 [],
    .call clearFlags,
    .call ((Cmd.run (.op [(⟨(f 1 0), (f (-2) (0))⟩ : Itv)]))),
    .state 422 [.invalidOperand],
    .call clearFlags,
    .call (setCwd (bitsOf [.invalidOperand])),
    .throws 425 ((Cmd.run (.op [(⟨(f 1 0), (f (-2) (0))⟩ : Itv)]))) .invalidOperand,
    .state 426 [.invalidOperand],
    .call clearFlags,
    .call (setCwd (bitsOf []))] ExSt.init = [] := by
  decide +kernel

/-- `minimal_sup_dec_test` -/
example : failed [
    .call clearFlags,
    .call ((Cmd.run (.opD [(⟨⟨.nan, .nan⟩, .ill⟩ : DItv)]))),
    .call ((Cmd.run (.opD [(⟨⟨.nan, .nan⟩, .trv⟩ : DItv)]))),
    .call ((Cmd.run (.opD [(⟨⟨.ninf, .pinf⟩, .defd⟩ : DItv)]))),
    .call ((Cmd.run (.opD [(⟨⟨(f 1 0), (f 2 0)⟩, .com⟩ : DItv)]))),
    .call ((Cmd.run (.opD [(⟨⟨(f (-3) (0)), (f (-2) (0))⟩, .trv⟩ : DItv)]))),
    .call ((Cmd.run (.opD [(⟨⟨.ninf, (f 2 0)⟩, .dac⟩ : DItv)]))),
    .call ((Cmd.run (.opD [(⟨⟨.ninf, (f 0 0)⟩, .defd⟩ : DItv)]))),
    .call ((Cmd.run (.opD [(⟨⟨.ninf, (f 0 0)⟩, .trv⟩ : DItv)]))),
    .call ((Cmd.run (.opD [(⟨⟨.ninf, .nzero⟩, .trv⟩ : DItv)]))),
    .call ((Cmd.run (.opD [(⟨⟨.ninf, (f 0 0)⟩, .trv⟩ : DItv)]))),
    .call ((Cmd.run (.opD [(⟨⟨(f (-2) (0)), .pinf⟩, .trv⟩ : DItv)]))),
    .call ((Cmd.run (.opD [(⟨⟨(f 0 0), .pinf⟩, .defd⟩ : DItv)]))),
    .call ((Cmd.run (.opD [(⟨⟨.nzero, .pinf⟩, .trv⟩ : DItv)]))),
    .call ((Cmd.run (.opD [(⟨⟨.nzero, (f 0 0)⟩, .dac⟩ : DItv)]))),
    .call ((Cmd.run (.opD [(⟨⟨.nzero, (f 0 0)⟩, .trv⟩ : DItv)]))),
    .call ((Cmd.run (.opD [(⟨⟨(f 0 0), .nzero⟩, .trv⟩ : DItv)]))),
    .call ((Cmd.run (.opD [(⟨⟨(f 0 0), .nzero⟩, .trv⟩ : DItv)]))),
    .call ((Cmd.run (.opD [(⟨⟨(f 0 0), (f 0 0)⟩, .trv⟩ : DItv)]))),
    .call ((Cmd.run (.opD [(⟨⟨(f 0 0), (f 0 0)⟩, .trv⟩ : DItv)]))),
    .call ((Cmd.run (.opD [(⟨⟨.nzero, .nzero⟩, .trv⟩ : DItv)]))),
    .call ((Cmd.run (.opD [(⟨⟨.nzero, .nzero⟩, .trv⟩ : DItv)]))),
    .state 458 [],
    .call clearFlags,
    .call ((Cmd.run (.opD [(⟨⟨(f 1 0), (f (-2) (0))⟩, .com⟩ : DItv)]))),
    .state 462 [.invalidOperand],
    .call clearFlags,
    .call (setCwd (bitsOf [.invalidOperand])),
    .throws 465 ((Cmd.run (.opD [(⟨⟨(f 1 0), (f (-2) (0))⟩, .com⟩ : DItv)]))) .invalidOperand,
    .state 466 [.invalidOperand],
    .call clearFlags,
    .call (setCwd (bitsOf []))] ExSt.init = [] := by
  decide +kernel

/-- `minimal_sup_dec_mixedtype_test` -/
example : failed [
    .call clearFlags,
    .call ((Cmd.run (.opD [(⟨⟨.nan, .nan⟩, .ill⟩ : DItv)]))),
    .call ((Cmd.run (.opD [(⟨⟨.nan, .nan⟩, .trv⟩ : DItv)]))),
    .call ((Cmd.run (.opD [(⟨⟨.ninf, .pinf⟩, .defd⟩ : DItv)]))),
    .call ((Cmd.run (.opD [(⟨⟨(f 1 0), (f 2 0)⟩, .com⟩ : DItv)]))),
    .call ((Cmd.run (.opD [(⟨⟨(f (-3) (0)), (f (-2) (0))⟩, .trv⟩ : DItv)]))),
    .call ((Cmd.run (.opD [(⟨⟨.ninf, (f 2 0)⟩, .dac⟩ : DItv)]))),
    .call ((Cmd.run (.opD [(⟨⟨.ninf, (f 0 0)⟩, .defd⟩ : DItv)]))),
    .call ((Cmd.run (.opD [(⟨⟨.ninf, (f 0 0)⟩, .defd⟩ : DItv)]))),
    .call ((Cmd.run (.opD [(⟨⟨.ninf, .nzero⟩, .trv⟩ : DItv)]))),
    .call ((Cmd.run (.opD [(⟨⟨.ninf, .nzero⟩, .trv⟩ : DItv)]))),
    .call ((Cmd.run (.opD [(⟨⟨(f (-2) (0)), .pinf⟩, .trv⟩ : DItv)]))),
    .call ((Cmd.run (.opD [(⟨⟨(f 0 0), .pinf⟩, .defd⟩ : DItv)]))),
    .call ((Cmd.run (.opD [(⟨⟨.nzero, .pinf⟩, .trv⟩ : DItv)]))),
    .call ((Cmd.run (.opD [(⟨⟨.nzero, (f 0 0)⟩, .dac⟩ : DItv)]))),
    .call ((Cmd.run (.opD [(⟨⟨.nzero, (f 0 0)⟩, .trv⟩ : DItv)]))),
    .call ((Cmd.run (.opD [(⟨⟨(f 0 0), .nzero⟩, .trv⟩ : DItv)]))),
    .call ((Cmd.run (.opD [(⟨⟨(f 0 0), .nzero⟩, .trv⟩ : DItv)]))),
    .call ((Cmd.run (.opD [(⟨⟨(f 0 0), (f 0 0)⟩, .trv⟩ : DItv)]))),
    .call ((Cmd.run (.opD [(⟨⟨(f 0 0), (f 0 0)⟩, .trv⟩ : DItv)]))),
    .call ((Cmd.run (.opD [(⟨⟨.nzero, .nzero⟩, .trv⟩ : DItv)]))),
    .call ((Cmd.run (.opD [(⟨⟨.nzero, .nzero⟩, .trv⟩ : DItv)]))),
    .call ((Cmd.run (.opD [(⟨⟨(f (-1) (-1074)), (f (1) (-1074))⟩, .com⟩ : DItv)]))),
    .call ((Cmd.run (.opD [(⟨⟨(f (-1) (-1074)), (f (-1) (-1074))⟩, .trv⟩ : DItv)]))),
    .call ((Cmd.run (.opD [(⟨⟨(f (-1) (-1074)), (f (-1) (-1074))⟩, .trv⟩ : DItv)]))),
    .call ((Cmd.run (.opD [(⟨⟨(f (1) (-1074)), (f (1) (-1074))⟩, .defd⟩ : DItv)]))),
    .call ((Cmd.run (.opD [(⟨⟨(f (-9007199254740991) (971)), (f 9007199254740991 971)⟩, .trv⟩ : DItv)]))),
    .state 504 [],
    .call clearFlags,
    .call ((Cmd.run (.opD [(⟨⟨(f 1 0), (f (-2) (0))⟩, .com⟩ : DItv)]))),
    .state 508 [.invalidOperand],
    .call clearFlags,
    .call (setCwd (bitsOf [.invalidOperand])),
    .throws 511 ((Cmd.run (.opD [(⟨⟨(f 1 0), (f (-2) (0))⟩, .com⟩ : DItv)]))) .invalidOperand,
    .state 512 [.invalidOperand],
    .call clearFlags,
    .call (setCwd (bitsOf [])),
    .call ((Cmd.run (.opD [(⟨⟨.nan, .nan⟩, .ill⟩ : DItv)]))),
    .call ((Cmd.run (.opD [(⟨⟨.nan, .nan⟩, .trv⟩ : DItv)]))),
    .call ((Cmd.run (.opD [(⟨⟨.ninf, .pinf⟩, .defd⟩ : DItv)]))),
    .call ((Cmd.run (.opD [(⟨⟨(f 1 0), (f 2 0)⟩, .com⟩ : DItv)]))),
    .call ((Cmd.run (.opD [(⟨⟨(f (-3) (0)), (f (-2) (0))⟩, .trv⟩ : DItv)]))),
    .call ((Cmd.run (.opD [(⟨⟨.ninf, (f 2 0)⟩, .dac⟩ : DItv)]))),
    .call ((Cmd.run (.opD [(⟨⟨.ninf, (f 0 0)⟩, .defd⟩ : DItv)]))),
    .call ((Cmd.run (.opD [(⟨⟨.ninf, (f 0 0)⟩, .trv⟩ : DItv)]))),
    .call ((Cmd.run (.opD [(⟨⟨.ninf, .nzero⟩, .trv⟩ : DItv)]))),
    .call ((Cmd.run (.opD [(⟨⟨.ninf, .nzero⟩, .trv⟩ : DItv)]))),
    .call ((Cmd.run (.opD [(⟨⟨(f (-2) (0)), .pinf⟩, .trv⟩ : DItv)]))),
    .call ((Cmd.run (.opD [(⟨⟨(f 0 0), .pinf⟩, .defd⟩ : DItv)]))),
    .call ((Cmd.run (.opD [(⟨⟨.nzero, .pinf⟩, .trv⟩ : DItv)]))),
    .call ((Cmd.run (.opD [(⟨⟨.nzero, (f 0 0)⟩, .dac⟩ : DItv)]))),
    .call ((Cmd.run (.opD [(⟨⟨.nzero, (f 0 0)⟩, .trv⟩ : DItv)]))),
    .call ((Cmd.run (.opD [(⟨⟨(f 0 0), .nzero⟩, .trv⟩ : DItv)]))),
    .call ((Cmd.run (.opD [(⟨⟨(f 0 0), .nzero⟩, .trv⟩ : DItv)]))),
    .call ((Cmd.run (.opD [(⟨⟨(f 0 0), (f 0 0)⟩, .trv⟩ : DItv)]))),
    .call ((Cmd.run (.opD [(⟨⟨(f 0 0), (f 0 0)⟩, .trv⟩ : DItv)]))),
    .call ((Cmd.run (.opD [(⟨⟨.nzero, .nzero⟩, .trv⟩ : DItv)]))),
    .call ((Cmd.run (.opD [(⟨⟨.nzero, .nzero⟩, .trv⟩ : DItv)]))),
    .call ((Cmd.run (.opD [(⟨⟨(f (-1) (-149)), (f (1) (-149))⟩, .com⟩ : DItv)]))),
    .call ((Cmd.run (.opD [(⟨⟨(f (-1) (-149)), (f (-1) (-149))⟩, .trv⟩ : DItv)]))),
    .call ((Cmd.run (.opD [(⟨⟨(f (1) (-149)), (f (1) (-149))⟩, .defd⟩ : DItv)]))),
    .call ((Cmd.run (.opD [(⟨⟨(f (-16777215) (104)), (f 16777215 104)⟩, .trv⟩ : DItv)]))),
    .state 545 [],
    .call clearFlags,
    .call ((Cmd.run (.opD [(⟨⟨(f 1 0), (f (-2) (0))⟩, .com⟩ : DItv)]))),
    .state 549 [.invalidOperand],
    .call clearFlags,
    .call (setCwd (bitsOf [.invalidOperand])),
    .throws 552 ((Cmd.run (.opD [(⟨⟨(f 1 0), (f (-2) (0))⟩, .com⟩ : DItv)]))) .invalidOperand,
    .state 553 [.invalidOperand],
    .call clearFlags,
    .call (setCwd (bitsOf []))] ExSt.init = [] := by
  decide +kernel

/-- `minimal_mid_test` -/
example : failed [
    .call clearFlags,
    .call ((Cmd.run (.op [(⟨.nan, .nan⟩ : Itv)]))),
    .call ((Cmd.run (.op [(⟨.ninf, .pinf⟩ : Itv)]))),
    .call ((Cmd.run (.op [(⟨.ninf, .pinf⟩ : Itv)]))),
    .call ((Cmd.run (.op [(⟨(f (-9007199254740991) (971)), (f 9007199254740991 971)⟩ : Itv)]))),
    .call ((Cmd.run (.op [(⟨(f (-9007199254740991) (971)), (f 9007199254740991 971)⟩ : Itv)]))),
    .call ((Cmd.run (.op [(⟨(f 0 0), (f 2 0)⟩ : Itv)]))),
    .call ((Cmd.run (.op [(⟨(f 2 0), (f 2 0)⟩ : Itv)]))),
    .call ((Cmd.run (.op [(⟨(f (-2) (0)), (f 2 0)⟩ : Itv)]))),
    .call ((Cmd.run (.op [(⟨(f (-2) (0)), (f 2 0)⟩ : Itv)]))),
    .call ((Cmd.run (.op [(⟨(f 0 0), .pinf⟩ : Itv)]))),
    .call ((Cmd.run (.op [(⟨.ninf, (f (5404319552844595) (-52))⟩ : Itv)]))),
    .call ((Cmd.run (.op [(⟨(f (-1) (-1073)), (f (1) (-1074))⟩ : Itv)]))),
    .call ((Cmd.run (.op [(⟨(f (-1) (-1073)), (f (1) (-1074))⟩ : Itv)]))),
    .call ((Cmd.run (.op [(⟨(f (-1) (-1074)), (f (1) (-1073))⟩ : Itv)]))),
    .call ((Cmd.run (.op [(⟨(f (-1) (-1074)), (f (1) (-1073))⟩ : Itv)]))),
    .call ((Cmd.run (.op [(⟨(f 9007199254740991 970), (f 9007199254740991 971)⟩ : Itv)]))),
    .call ((Cmd.run (.op [(⟨(f (1) (-1074)), (f (3) (-1074))⟩ : Itv)]))),
    .call ((Cmd.run (.op [(⟨(f (1) (-1074)), (f (1) (-1073))⟩ : Itv)]))),
    .state 584 [],
    .call clearFlags,
    .call ((Cmd.run (.op [(⟨(f (3) (-1)), (f (3152519739159347) (-52))⟩ : Itv)]))),
    .state 588 [.invalidOperand],
    .call clearFlags,
    .call (setCwd (bitsOf [.invalidOperand])),
    .throws 591 ((Cmd.run (.op [(⟨(f (3) (-1)), (f (3152519739159347) (-52))⟩ : Itv)]))) .invalidOperand,
    .state 592 [.invalidOperand],
    .call clearFlags,
    .call (setCwd (bitsOf []))] ExSt.init = [] := by
  decide +kernel

/-- `minimal_mid_mixedtype_test` -/
example : failed [
    .call clearFlags,
    .call ((Cmd.run (.op [(⟨.nan, .nan⟩ : Itv)]))),
    .call ((Cmd.run (.op [(⟨.ninf, .pinf⟩ : Itv)]))),
    .call ((Cmd.run (.op [(⟨.ninf, .pinf⟩ : Itv)]))),
    .call ((Cmd.run (.op [(⟨(f (-9007199254740991) (971)), (f 9007199254740991 971)⟩ : Itv)]))),
    .call ((Cmd.run (.op [(⟨(f (-9007199254740991) (971)), (f 9007199254740991 971)⟩ : Itv)]))),
    .call ((Cmd.run (.op [(⟨(f 0 0), (f 2 0)⟩ : Itv)]))),
    .call ((Cmd.run (.op [(⟨(f 2 0), (f 2 0)⟩ : Itv)]))),
    .call ((Cmd.run (.op [(⟨(f (-2) (0)), (f 2 0)⟩ : Itv)]))),
    .call ((Cmd.run (.op [(⟨(f (-2) (0)), (f 2 0)⟩ : Itv)]))),
    .call ((Cmd.run (.op [(⟨(f 0 0), .pinf⟩ : Itv)]))),
    .call ((Cmd.run (.op [(⟨.ninf, (f (5404319552844595) (-52))⟩ : Itv)]))),
    .call ((Cmd.run (.op [(⟨(f (-1) (-1073)), (f (1) (-1074))⟩ : Itv)]))),
    .call ((Cmd.run (.op [(⟨(f (-1) (-1073)), (f (1) (-1074))⟩ : Itv)]))),
    .call ((Cmd.run (.op [(⟨(f (-1) (-1074)), (f (1) (-1073))⟩ : Itv)]))),
    .call ((Cmd.run (.op [(⟨(f (-1) (-1074)), (f (1) (-1073))⟩ : Itv)]))),
    .call ((Cmd.run (.op [(⟨(f (33554393) (-24)), (f (9007188785758209) (-52))⟩ : Itv)]))),
    .call ((Cmd.run (.op [(⟨(f (1) (-1074)), (f (3) (-1074))⟩ : Itv)]))),
    .call ((Cmd.run (.op [(⟨(f (1) (-1074)), (f (3) (-1074))⟩ : Itv)]))),
    .state 620 [],
    .call clearFlags,
    .call ((Cmd.run (.op [(⟨(f (3) (-1)), (f (3152519739159347) (-52))⟩ : Itv)]))),
    .state 624 [.invalidOperand],
    .call clearFlags,
    .call (setCwd (bitsOf [.invalidOperand])),
    .throws 627 ((Cmd.run (.op [(⟨(f (3) (-1)), (f (3152519739159347) (-52))⟩ : Itv)]))) .invalidOperand,
    .state 628 [.invalidOperand],
    .call clearFlags,
    .call (setCwd (bitsOf []))] ExSt.init = [] := by
  decide +kernel

/-- `minimal_mid_dec_test` -/
example : failed [
    .call clearFlags,
    .call ((Cmd.run (.opD [(⟨⟨.nan, .nan⟩, .trv⟩ : DItv)]))),
    .call ((Cmd.run (.opD [(⟨⟨.nan, .nan⟩, .ill⟩ : DItv)]))),
    .call ((Cmd.run (.opD [(⟨⟨.ninf, .pinf⟩, .defd⟩ : DItv)]))),
    .call ((Cmd.run (.opD [(⟨⟨.ninf, .pinf⟩, .defd⟩ : DItv)]))),
    .call ((Cmd.run (.opD [(⟨⟨(f (-9007199254740991) (971)), (f 9007199254740991 971)⟩, .trv⟩ : DItv)]))),
    .call ((Cmd.run (.opD [(⟨⟨(f (-9007199254740991) (971)), (f 9007199254740991 971)⟩, .trv⟩ : DItv)]))),
    .call ((Cmd.run (.opD [(⟨⟨(f 0 0), (f 2 0)⟩, .com⟩ : DItv)]))),
    .call ((Cmd.run (.opD [(⟨⟨(f 2 0), (f 2 0)⟩, .dac⟩ : DItv)]))),
    .call ((Cmd.run (.opD [(⟨⟨(f (-2) (0)), (f 2 0)⟩, .trv⟩ : DItv)]))),
    .call ((Cmd.run (.opD [(⟨⟨(f (-2) (0)), (f 2 0)⟩, .trv⟩ : DItv)]))),
    .call ((Cmd.run (.opD [(⟨⟨(f 0 0), .pinf⟩, .trv⟩ : DItv)]))),
    .call ((Cmd.run (.opD [(⟨⟨.ninf, (f (5404319552844595) (-52))⟩, .trv⟩ : DItv)]))),
    .call ((Cmd.run (.opD [(⟨⟨(f (-1) (-1073)), (f (1) (-1074))⟩, .trv⟩ : DItv)]))),
    .call ((Cmd.run (.opD [(⟨⟨(f (-1) (-1073)), (f (1) (-1074))⟩, .trv⟩ : DItv)]))),
    .call ((Cmd.run (.opD [(⟨⟨(f (-1) (-1074)), (f (1) (-1073))⟩, .trv⟩ : DItv)]))),
    .call ((Cmd.run (.opD [(⟨⟨(f (-1) (-1074)), (f (1) (-1073))⟩, .trv⟩ : DItv)]))),
    .call ((Cmd.run (.opD [(⟨⟨(f 9007199254740991 970), (f 9007199254740991 971)⟩, .trv⟩ : DItv)]))),
    .call ((Cmd.run (.opD [(⟨⟨(f (1) (-1074)), (f (3) (-1074))⟩, .trv⟩ : DItv)]))),
    .call ((Cmd.run (.opD [(⟨⟨(f (1) (-1074)), (f (1) (-1073))⟩, .trv⟩ : DItv)]))),
    .state 657 [],
    .call clearFlags,
    .call ((Cmd.run (.opD [(⟨⟨(f (3) (-1)), (f (3152519739159347) (-52))⟩, .trv⟩ : DItv)]))),
    .state 661 [.invalidOperand],
    .call clearFlags,
    .call (setCwd (bitsOf [.invalidOperand])),
    .throws 664 ((Cmd.run (.opD [(⟨⟨(f (3) (-1)), (f (3152519739159347) (-52))⟩, .trv⟩ : DItv)]))) .invalidOperand,
    .state 665 [.invalidOperand],
    .call clearFlags,
    .call (setCwd (bitsOf []))] ExSt.init = [] := by
  decide +kernel

/-- `minimal_mid_dec_mixedtype_test` -/
example : failed [
    .call clearFlags,
    .call ((Cmd.run (.opD [(⟨⟨.nan, .nan⟩, .trv⟩ : DItv)]))),
    .call ((Cmd.run (.opD [(⟨⟨.nan, .nan⟩, .ill⟩ : DItv)]))),
    .call ((Cmd.run (.opD [(⟨⟨.ninf, .pinf⟩, .defd⟩ : DItv)]))),
    .call ((Cmd.run (.opD [(⟨⟨.ninf, .pinf⟩, .trv⟩ : DItv)]))),
    .call ((Cmd.run (.opD [(⟨⟨(f (-9007199254740991) (971)), (f 9007199254740991 971)⟩, .trv⟩ : DItv)]))),
    .call ((Cmd.run (.opD [(⟨⟨(f (-9007199254740991) (971)), (f 9007199254740991 971)⟩, .trv⟩ : DItv)]))),
    .call ((Cmd.run (.opD [(⟨⟨(f 0 0), (f 2 0)⟩, .com⟩ : DItv)]))),
    .call ((Cmd.run (.opD [(⟨⟨(f 2 0), (f 2 0)⟩, .trv⟩ : DItv)]))),
    .call ((Cmd.run (.opD [(⟨⟨(f (-2) (0)), (f 2 0)⟩, .trv⟩ : DItv)]))),
    .call ((Cmd.run (.opD [(⟨⟨(f (-2) (0)), (f 2 0)⟩, .trv⟩ : DItv)]))),
    .call ((Cmd.run (.opD [(⟨⟨(f 0 0), .pinf⟩, .trv⟩ : DItv)]))),
    .call ((Cmd.run (.opD [(⟨⟨.ninf, (f (5404319552844595) (-52))⟩, .trv⟩ : DItv)]))),
    .call ((Cmd.run (.opD [(⟨⟨(f (-1) (-1073)), (f (1) (-1074))⟩, .trv⟩ : DItv)]))),
    .call ((Cmd.run (.opD [(⟨⟨(f (-1) (-1073)), (f (1) (-1074))⟩, .trv⟩ : DItv)]))),
    .call ((Cmd.run (.opD [(⟨⟨(f (-1) (-1074)), (f (1) (-1073))⟩, .trv⟩ : DItv)]))),
    .call ((Cmd.run (.opD [(⟨⟨(f (-1) (-1074)), (f (1) (-1073))⟩, .trv⟩ : DItv)]))),
    .call ((Cmd.run (.opD [(⟨⟨(f (33554393) (-24)), (f (9007188785758209) (-52))⟩, .trv⟩ : DItv)]))),
    .call ((Cmd.run (.opD [(⟨⟨(f (1) (-1074)), (f (3) (-1074))⟩, .trv⟩ : DItv)]))),
    .call ((Cmd.run (.opD [(⟨⟨(f (1) (-1074)), (f (3) (-1074))⟩, .trv⟩ : DItv)]))),
    .state 694 [],
    .call clearFlags,
    .call ((Cmd.run (.opD [(⟨⟨(f (3) (-1)), (f (3152519739159347) (-52))⟩, .trv⟩ : DItv)]))),
    .state 698 [.invalidOperand],
    .call clearFlags,
    .call (setCwd (bitsOf [.invalidOperand])),
    .throws 701 ((Cmd.run (.opD [(⟨⟨(f (3) (-1)), (f (3152519739159347) (-52))⟩, .trv⟩ : DItv)]))) .invalidOperand,
    .state 702 [.invalidOperand],
    .call clearFlags,
    .call (setCwd (bitsOf []))] ExSt.init = [] := by
  decide +kernel

/-- `minimal_rad_test` -/
example : failed [
    .call clearFlags,
    .call ((Cmd.run (.op [(⟨(f 0 0), (f 2 0)⟩ : Itv)]))),
    .call ((Cmd.run (.op [(⟨(f 2 0), (f 2 0)⟩ : Itv)]))),
    .call ((Cmd.run (.op [(⟨(f 2 0), (f 2 0)⟩ : Itv)]))),
    .call ((Cmd.run (.op [(⟨.nan, .nan⟩ : Itv)]))),
    .call ((Cmd.run (.op [(⟨.ninf, .pinf⟩ : Itv)]))),
    .call ((Cmd.run (.op [(⟨(f 0 0), .pinf⟩ : Itv)]))),
    .call ((Cmd.run (.op [(⟨.ninf, (f (5404319552844595) (-52))⟩ : Itv)]))),
    .call ((Cmd.run (.op [(⟨(f (-1) (-1073)), (f (1) (-1074))⟩ : Itv)]))),
    .call ((Cmd.run (.op [(⟨(f (1) (-1074)), (f (1) (-1073))⟩ : Itv)]))),
    .call ((Cmd.run (.op [(⟨(f 1 0), (f (4503599627370499) (-52))⟩ : Itv)]))),
    .state 724 [],
    .call clearFlags,
    .call ((Cmd.run (.op [(⟨(f (3) (-1)), (f (3152519739159347) (-52))⟩ : Itv)]))),
    .state 728 [.invalidOperand],
    .call clearFlags,
    .call (setCwd (bitsOf [.invalidOperand])),
    .throws 731 ((Cmd.run (.op [(⟨(f (3) (-1)), (f (3152519739159347) (-52))⟩ : Itv)]))) .invalidOperand,
    .state 732 [.invalidOperand],
    .call clearFlags,
    .call (setCwd (bitsOf []))] ExSt.init = [] := by
  decide +kernel

/-- `minimal_rad_mixedtype_test` -/
example : failed [
    .call clearFlags,
    .call ((Cmd.run (.op [(⟨(f 0 0), (f 2 0)⟩ : Itv)]))),
    .call ((Cmd.run (.op [(⟨(f 2 0), (f 2 0)⟩ : Itv)]))),
    .call ((Cmd.run (.op [(⟨(f 2 0), (f 2 0)⟩ : Itv)]))),
    .call ((Cmd.run (.op [(⟨.nan, .nan⟩ : Itv)]))),
    .call ((Cmd.run (.op [(⟨.ninf, .pinf⟩ : Itv)]))),
    .call ((Cmd.run (.op [(⟨(f 0 0), .pinf⟩ : Itv)]))),
    .call ((Cmd.run (.op [(⟨.ninf, (f (5404319552844595) (-52))⟩ : Itv)]))),
    .call ((Cmd.run (.op [(⟨(f 8388607 105), (f 33554431 103)⟩ : Itv)]))),
    .state 750 [],
    .call clearFlags,
    .call ((Cmd.run (.op [(⟨(f (3) (-1)), (f (3152519739159347) (-52))⟩ : Itv)]))),
    .state 754 [.invalidOperand],
    .call clearFlags,
    .call (setCwd (bitsOf [.invalidOperand])),
    .throws 757 ((Cmd.run (.op [(⟨(f (3) (-1)), (f (3152519739159347) (-52))⟩ : Itv)]))) .invalidOperand,
    .state 758 [.invalidOperand],
    .call clearFlags,
    .call (setCwd (bitsOf []))] ExSt.init = [] := by
  decide +kernel

/-- `minimal_rad_dec_test` -/
example : failed [
    .call clearFlags,
    .call ((Cmd.run (.opD [(⟨⟨(f 0 0), (f 2 0)⟩, .trv⟩ : DItv)]))),
    .call ((Cmd.run (.opD [(⟨⟨(f 2 0), (f 2 0)⟩, .com⟩ : DItv)]))),
    .call ((Cmd.run (.opD [(⟨⟨(f 2 0), (f 2 0)⟩, .trv⟩ : DItv)]))),
    .call ((Cmd.run (.opD [(⟨⟨.nan, .nan⟩, .trv⟩ : DItv)]))),
    .call ((Cmd.run (.opD [(⟨⟨.nan, .nan⟩, .ill⟩ : DItv)]))),
    .call ((Cmd.run (.opD [(⟨⟨.ninf, .pinf⟩, .trv⟩ : DItv)]))),
    .call ((Cmd.run (.opD [(⟨⟨(f 0 0), .pinf⟩, .defd⟩ : DItv)]))),
    .call ((Cmd.run (.opD [(⟨⟨.ninf, (f (5404319552844595) (-52))⟩, .trv⟩ : DItv)]))),
    .call ((Cmd.run (.opD [(⟨⟨(f (-1) (-1073)), (f (1) (-1074))⟩, .trv⟩ : DItv)]))),
    .call ((Cmd.run (.opD [(⟨⟨(f (1) (-1074)), (f (1) (-1073))⟩, .trv⟩ : DItv)]))),
    .call ((Cmd.run (.opD [(⟨⟨(f 1 0), (f (4503599627370499) (-52))⟩, .trv⟩ : DItv)]))),
    .state 779 [],
    .call clearFlags,
    .call ((Cmd.run (.opD [(⟨⟨(f (3) (-1)), (f (3152519739159347) (-52))⟩, .trv⟩ : DItv)]))),
    .state 783 [.invalidOperand],
    .call clearFlags,
    .call (setCwd (bitsOf [.invalidOperand])),
    .throws 786 ((Cmd.run (.opD [(⟨⟨(f (3) (-1)), (f (3152519739159347) (-52))⟩, .trv⟩ : DItv)]))) .invalidOperand,
    .state 787 [.invalidOperand],
    .call clearFlags,
    .call (setCwd (bitsOf []))] ExSt.init = [] := by
  decide +kernel

/-- `minimal_rad_dec_mixedtype_test` -/
example : failed [
    .call clearFlags,
    .call ((Cmd.run (.opD [(⟨⟨(f 0 0), (f 2 0)⟩, .trv⟩ : DItv)]))),
    .call ((Cmd.run (.opD [(⟨⟨(f 2 0), (f 2 0)⟩, .com⟩ : DItv)]))),
    .call ((Cmd.run (.opD [(⟨⟨(f 2 0), (f 2 0)⟩, .trv⟩ : DItv)]))),
    .call ((Cmd.run (.opD [(⟨⟨.nan, .nan⟩, .trv⟩ : DItv)]))),
    .call ((Cmd.run (.opD [(⟨⟨.nan, .nan⟩, .ill⟩ : DItv)]))),
    .call ((Cmd.run (.opD [(⟨⟨.ninf, .pinf⟩, .defd⟩ : DItv)]))),
    .call ((Cmd.run (.opD [(⟨⟨(f 0 0), .pinf⟩, .trv⟩ : DItv)]))),
    .call ((Cmd.run (.opD [(⟨⟨.ninf, (f (5404319552844595) (-52))⟩, .trv⟩ : DItv)]))),
    .call ((Cmd.run (.opD [(⟨⟨(f 8388607 105), (f 33554431 103)⟩, .trv⟩ : DItv)]))),
    .state 806 [],
    .call clearFlags,
    .call ((Cmd.run (.opD [(⟨⟨(f (3) (-1)), (f (3152519739159347) (-52))⟩, .trv⟩ : DItv)]))),
    .state 810 [.invalidOperand],
    .call clearFlags,
    .call (setCwd (bitsOf [.invalidOperand])),
    .throws 813 ((Cmd.run (.opD [(⟨⟨(f (3) (-1)), (f (3152519739159347) (-52))⟩, .trv⟩ : DItv)]))) .invalidOperand,
    .state 814 [.invalidOperand],
    .call clearFlags,
    .call (setCwd (bitsOf []))] ExSt.init = [] := by
  decide +kernel

/-- `minimal_mid_rad_test` -/
example : failed [
    .call clearFlags,
    .call ((Cmd.run (.op [(⟨.nan, .nan⟩ : Itv)]))),
    .call ((Cmd.run (.op [(⟨.ninf, .pinf⟩ : Itv)]))),
    .call ((Cmd.run (.op [(⟨.ninf, .pinf⟩ : Itv)]))),
    .call ((Cmd.run (.op [(⟨(f (-9007199254740991) (971)), (f 9007199254740991 971)⟩ : Itv)]))),
    .call ((Cmd.run (.op [(⟨(f (-9007199254740991) (971)), (f 9007199254740991 971)⟩ : Itv)]))),
    .call ((Cmd.run (.op [(⟨(f 0 0), (f 2 0)⟩ : Itv)]))),
    .call ((Cmd.run (.op [(⟨(f 2 0), (f 2 0)⟩ : Itv)]))),
    .call ((Cmd.run (.op [(⟨(f (-2) (0)), (f 2 0)⟩ : Itv)]))),
    .call ((Cmd.run (.op [(⟨(f (-2) (0)), (f 2 0)⟩ : Itv)]))),
    .call ((Cmd.run (.op [(⟨(f 0 0), .pinf⟩ : Itv)]))),
    .call ((Cmd.run (.op [(⟨.ninf, (f (5404319552844595) (-52))⟩ : Itv)]))),
    .call ((Cmd.run (.op [(⟨(f (-1) (-1073)), (f (1) (-1074))⟩ : Itv)]))),
    .call ((Cmd.run (.op [(⟨(f (-1) (-1073)), (f (1) (-1074))⟩ : Itv)]))),
    .call ((Cmd.run (.op [(⟨(f (-1) (-1074)), (f (1) (-1073))⟩ : Itv)]))),
    .call ((Cmd.run (.op [(⟨(f (-1) (-1074)), (f (1) (-1073))⟩ : Itv)]))),
    .call ((Cmd.run (.op [(⟨(f 9007199254740991 970), (f 9007199254740991 971)⟩ : Itv)]))),
    .call ((Cmd.run (.op [(⟨(f (1) (-1074)), (f (3) (-1074))⟩ : Itv)]))),
    .call ((Cmd.run (.op [(⟨(f (1) (-1074)), (f (1) (-1073))⟩ : Itv)]))),
    .state 844 [],
    .call clearFlags,
    .call ((Cmd.run (.op [(⟨(f (3) (-1)), (f (3152519739159347) (-52))⟩ : Itv)]))),
    .call ((Cmd.run (.op [(⟨(f (3) (-1)), (f (3152519739159347) (-52))⟩ : Itv)]))),
    .state 849 [.invalidOperand],
    .call clearFlags,
    .call (setCwd (bitsOf [.invalidOperand])),
    .throws 852 ((Cmd.run (.op [(⟨(f (3) (-1)), (f (3152519739159347) (-52))⟩ : Itv)]))) .invalidOperand,
    .state 853 [.invalidOperand],
    .call clearFlags,
    .call (setCwd (bitsOf [])),
    .call ((Cmd.run (.op [(⟨(f 0 0), (f 2 0)⟩ : Itv)]))),
    .call ((Cmd.run (.op [(⟨(f 2 0), (f 2 0)⟩ : Itv)]))),
    .call ((Cmd.run (.op [(⟨(f 2 0), (f 2 0)⟩ : Itv)]))),
    .call ((Cmd.run (.op [(⟨.nan, .nan⟩ : Itv)]))),
    .call ((Cmd.run (.op [(⟨.ninf, .pinf⟩ : Itv)]))),
    .call ((Cmd.run (.op [(⟨(f 0 0), .pinf⟩ : Itv)]))),
    .call ((Cmd.run (.op [(⟨.ninf, (f (5404319552844595) (-52))⟩ : Itv)]))),
    .call ((Cmd.run (.op [(⟨(f (-1) (-1073)), (f (1) (-1074))⟩ : Itv)]))),
    .call ((Cmd.run (.op [(⟨(f (1) (-1074)), (f (1) (-1073))⟩ : Itv)]))),
    .call ((Cmd.run (.op [(⟨(f 1 0), (f (4503599627370499) (-52))⟩ : Itv)]))),
    .state 868 []] ExSt.init = [] := by
  decide +kernel

/-- `minimal_mid_rad_mixedtype_test` -/
example : failed [
    .call clearFlags,
    .call ((Cmd.run (.op [(⟨.nan, .nan⟩ : Itv)]))),
    .call ((Cmd.run (.op [(⟨.ninf, .pinf⟩ : Itv)]))),
    .call ((Cmd.run (.op [(⟨.ninf, .pinf⟩ : Itv)]))),
    .call ((Cmd.run (.op [(⟨(f (-9007199254740991) (971)), (f 9007199254740991 971)⟩ : Itv)]))),
    .call ((Cmd.run (.op [(⟨(f (-9007199254740991) (971)), (f 9007199254740991 971)⟩ : Itv)]))),
    .call ((Cmd.run (.op [(⟨(f 0 0), (f 2 0)⟩ : Itv)]))),
    .call ((Cmd.run (.op [(⟨(f 2 0), (f 2 0)⟩ : Itv)]))),
    .call ((Cmd.run (.op [(⟨(f (-2) (0)), (f 2 0)⟩ : Itv)]))),
    .call ((Cmd.run (.op [(⟨(f (-2) (0)), (f 2 0)⟩ : Itv)]))),
    .call ((Cmd.run (.op [(⟨(f 0 0), .pinf⟩ : Itv)]))),
    .call ((Cmd.run (.op [(⟨.ninf, (f (5404319552844595) (-52))⟩ : Itv)]))),
    .call ((Cmd.run (.op [(⟨(f (-1) (-1073)), (f (1) (-1074))⟩ : Itv)]))),
    .call ((Cmd.run (.op [(⟨(f (-1) (-1073)), (f (1) (-1074))⟩ : Itv)]))),
    .call ((Cmd.run (.op [(⟨(f (-1) (-1074)), (f (1) (-1073))⟩ : Itv)]))),
    .call ((Cmd.run (.op [(⟨(f (-1) (-1074)), (f (1) (-1073))⟩ : Itv)]))),
    .call ((Cmd.run (.op [(⟨(f (33554393) (-24)), (f (9007188785758209) (-52))⟩ : Itv)]))),
    .call ((Cmd.run (.op [(⟨(f (1) (-1074)), (f (3) (-1074))⟩ : Itv)]))),
    .call ((Cmd.run (.op [(⟨(f (1) (-1074)), (f (3) (-1074))⟩ : Itv)]))),
    .state 895 [],
    .call clearFlags,
    .call ((Cmd.run (.op [(⟨(f (3) (-1)), (f (3152519739159347) (-52))⟩ : Itv)]))),
    .call ((Cmd.run (.op [(⟨(f (3) (-1)), (f (3152519739159347) (-52))⟩ : Itv)]))),
    .state 900 [.invalidOperand],
    .call clearFlags,
    .call (setCwd (bitsOf [.invalidOperand])),
    .throws 903 ((Cmd.run (.op [(⟨(f (3) (-1)), (f (3152519739159347) (-52))⟩ : Itv)]))) .invalidOperand,
    .state 904 [.invalidOperand],
    .call clearFlags,
    .call (setCwd (bitsOf [])),
    .call ((Cmd.run (.op [(⟨(f 0 0), (f 2 0)⟩ : Itv)]))),
    .call ((Cmd.run (.op [(⟨(f 2 0), (f 2 0)⟩ : Itv)]))),
    .call ((Cmd.run (.op [(⟨(f 2 0), (f 2 0)⟩ : Itv)]))),
    .call ((Cmd.run (.op [(⟨.nan, .nan⟩ : Itv)]))),
    .call ((Cmd.run (.op [(⟨.ninf, .pinf⟩ : Itv)]))),
    .call ((Cmd.run (.op [(⟨(f 0 0), .pinf⟩ : Itv)]))),
    .call ((Cmd.run (.op [(⟨.ninf, (f (5404319552844595) (-52))⟩ : Itv)]))),
    .call ((Cmd.run (.op [(⟨(f 8388607 105), (f 33554431 103)⟩ : Itv)]))),
    .state 917 []] ExSt.init = [] := by
  decide +kernel

/-- `minimal_mid_rad_dec_test` -/
example : failed [
    .call clearFlags,
    .call ((Cmd.run (.opD [(⟨⟨.nan, .nan⟩, .trv⟩ : DItv)]))),
    .call ((Cmd.run (.opD [(⟨⟨.nan, .nan⟩, .ill⟩ : DItv)]))),
    .call ((Cmd.run (.opD [(⟨⟨.ninf, .pinf⟩, .defd⟩ : DItv)]))),
    .call ((Cmd.run (.opD [(⟨⟨.ninf, .pinf⟩, .defd⟩ : DItv)]))),
    .call ((Cmd.run (.opD [(⟨⟨(f (-9007199254740991) (971)), (f 9007199254740991 971)⟩, .trv⟩ : DItv)]))),
    .call ((Cmd.run (.opD [(⟨⟨(f (-9007199254740991) (971)), (f 9007199254740991 971)⟩, .trv⟩ : DItv)]))),
    .call ((Cmd.run (.opD [(⟨⟨(f 0 0), (f 2 0)⟩, .com⟩ : DItv)]))),
    .call ((Cmd.run (.opD [(⟨⟨(f 2 0), (f 2 0)⟩, .dac⟩ : DItv)]))),
    .call ((Cmd.run (.opD [(⟨⟨(f (-2) (0)), (f 2 0)⟩, .trv⟩ : DItv)]))),
    .call ((Cmd.run (.opD [(⟨⟨(f (-2) (0)), (f 2 0)⟩, .trv⟩ : DItv)]))),
    .call ((Cmd.run (.opD [(⟨⟨(f 0 0), .pinf⟩, .trv⟩ : DItv)]))),
    .call ((Cmd.run (.opD [(⟨⟨.ninf, (f (5404319552844595) (-52))⟩, .trv⟩ : DItv)]))),
    .call ((Cmd.run (.opD [(⟨⟨(f (-1) (-1073)), (f (1) (-1074))⟩, .trv⟩ : DItv)]))),
    .call ((Cmd.run (.opD [(⟨⟨(f (-1) (-1073)), (f (1) (-1074))⟩, .trv⟩ : DItv)]))),
    .call ((Cmd.run (.opD [(⟨⟨(f (-1) (-1074)), (f (1) (-1073))⟩, .trv⟩ : DItv)]))),
    .call ((Cmd.run (.opD [(⟨⟨(f (-1) (-1074)), (f (1) (-1073))⟩, .trv⟩ : DItv)]))),
    .call ((Cmd.run (.opD [(⟨⟨(f 9007199254740991 970), (f 9007199254740991 971)⟩, .trv⟩ : DItv)]))),
    .call ((Cmd.run (.opD [(⟨⟨(f (1) (-1074)), (f (3) (-1074))⟩, .trv⟩ : DItv)]))),
    .call ((Cmd.run (.opD [(⟨⟨(f (1) (-1074)), (f (1) (-1073))⟩, .trv⟩ : DItv)]))),
    .state 946 [],
    .call clearFlags,
    .call ((Cmd.run (.opD [(⟨⟨(f (3) (-1)), (f (3152519739159347) (-52))⟩, .trv⟩ : DItv)]))),
    .call ((Cmd.run (.opD [(⟨⟨(f (3) (-1)), (f (3152519739159347) (-52))⟩, .trv⟩ : DItv)]))),
    .state 952 [.invalidOperand],
    .call clearFlags,
    .call (setCwd (bitsOf [.invalidOperand])),
    .throws 955 ((Cmd.run (.opD [(⟨⟨(f (3) (-1)), (f (3152519739159347) (-52))⟩, .trv⟩ : DItv)]))) .invalidOperand,
    .state 956 [.invalidOperand],
    .call clearFlags,
    .call (setCwd (bitsOf [])),
    .call ((Cmd.run (.opD [(⟨⟨(f 0 0), (f 2 0)⟩, .trv⟩ : DItv)]))),
    .call ((Cmd.run (.opD [(⟨⟨(f 2 0), (f 2 0)⟩, .com⟩ : DItv)]))),
    .call ((Cmd.run (.opD [(⟨⟨(f 2 0), (f 2 0)⟩, .trv⟩ : DItv)]))),
    .call ((Cmd.run (.opD [(⟨⟨.nan, .nan⟩, .trv⟩ : DItv)]))),
    .call ((Cmd.run (.opD [(⟨⟨.nan, .nan⟩, .ill⟩ : DItv)]))),
    .call ((Cmd.run (.opD [(⟨⟨.ninf, .pinf⟩, .trv⟩ : DItv)]))),
    .call ((Cmd.run (.opD [(⟨⟨(f 0 0), .pinf⟩, .defd⟩ : DItv)]))),
    .call ((Cmd.run (.opD [(⟨⟨.ninf, (f (5404319552844595) (-52))⟩, .trv⟩ : DItv)]))),
    .call ((Cmd.run (.opD [(⟨⟨(f (-1) (-1073)), (f (1) (-1074))⟩, .trv⟩ : DItv)]))),
    .call ((Cmd.run (.opD [(⟨⟨(f (1) (-1074)), (f (1) (-1073))⟩, .trv⟩ : DItv)]))),
    .call ((Cmd.run (.opD [(⟨⟨(f 1 0), (f (4503599627370499) (-52))⟩, .trv⟩ : DItv)]))),
    .state 972 []] ExSt.init = [] := by
  decide +kernel

/-- `minimal_mid_rad_dec_mixedtype_test` -/
example : failed [
    .call clearFlags,
    .call ((Cmd.run (.opD [(⟨⟨.nan, .nan⟩, .trv⟩ : DItv)]))),
    .call ((Cmd.run (.opD [(⟨⟨.nan, .nan⟩, .ill⟩ : DItv)]))),
    .call ((Cmd.run (.opD [(⟨⟨.ninf, .pinf⟩, .defd⟩ : DItv)]))),
    .call ((Cmd.run (.opD [(⟨⟨.ninf, .pinf⟩, .trv⟩ : DItv)]))),
    .call ((Cmd.run (.opD [(⟨⟨(f (-9007199254740991) (971)), (f 9007199254740991 971)⟩, .trv⟩ : DItv)]))),
    .call ((Cmd.run (.opD [(⟨⟨(f (-9007199254740991) (971)), (f 9007199254740991 971)⟩, .trv⟩ : DItv)]))),
    .call ((Cmd.run (.opD [(⟨⟨(f 0 0), (f 2 0)⟩, .com⟩ : DItv)]))),
    .call ((Cmd.run (.opD [(⟨⟨(f 2 0), (f 2 0)⟩, .trv⟩ : DItv)]))),
    .call ((Cmd.run (.opD [(⟨⟨(f (-2) (0)), (f 2 0)⟩, .trv⟩ : DItv)]))),
    .call ((Cmd.run (.opD [(⟨⟨(f (-2) (0)), (f 2 0)⟩, .trv⟩ : DItv)]))),
    .call ((Cmd.run (.opD [(⟨⟨(f 0 0), .pinf⟩, .trv⟩ : DItv)]))),
    .call ((Cmd.run (.opD [(⟨⟨.ninf, (f (5404319552844595) (-52))⟩, .trv⟩ : DItv)]))),
    .call ((Cmd.run (.opD [(⟨⟨(f (-1) (-1073)), (f (1) (-1074))⟩, .trv⟩ : DItv)]))),
    .call ((Cmd.run (.opD [(⟨⟨(f (-1) (-1073)), (f (1) (-1074))⟩, .trv⟩ : DItv)]))),
    .call ((Cmd.run (.opD [(⟨⟨(f (-1) (-1074)), (f (1) (-1073))⟩, .trv⟩ : DItv)]))),
    .call ((Cmd.run (.opD [(⟨⟨(f (-1) (-1074)), (f (1) (-1073))⟩, .trv⟩ : DItv)]))),
    .call ((Cmd.run (.opD [(⟨⟨(f (33554393) (-24)), (f (9007188785758209) (-52))⟩, .trv⟩ : DItv)]))),
    .call ((Cmd.run (.opD [(⟨⟨(f (1) (-1074)), (f (3) (-1074))⟩, .trv⟩ : DItv)]))),
    .call ((Cmd.run (.opD [(⟨⟨(f (1) (-1074)), (f (3) (-1074))⟩, .trv⟩ : DItv)]))),
    .state 1000 [],
    .call clearFlags,
    .call ((Cmd.run (.opD [(⟨⟨(f (3) (-1)), (f (3152519739159347) (-52))⟩, .trv⟩ : DItv)]))),
    .call ((Cmd.run (.opD [(⟨⟨(f (3) (-1)), (f (3152519739159347) (-52))⟩, .trv⟩ : DItv)]))),
    .state 1006 [.invalidOperand],
    .call clearFlags,
    .call (setCwd (bitsOf [.invalidOperand])),
    .throws 1009 ((Cmd.run (.opD [(⟨⟨(f (3) (-1)), (f (3152519739159347) (-52))⟩, .trv⟩ : DItv)]))) .invalidOperand,
    .state 1010 [.invalidOperand],
    .call clearFlags,
    .call (setCwd (bitsOf [])),
    .call ((Cmd.run (.opD [(⟨⟨(f 0 0), (f 2 0)⟩, .trv⟩ : DItv)]))),
    .call ((Cmd.run (.opD [(⟨⟨(f 2 0), (f 2 0)⟩, .com⟩ : DItv)]))),
    .call ((Cmd.run (.opD [(⟨⟨(f 2 0), (f 2 0)⟩, .trv⟩ : DItv)]))),
    .call ((Cmd.run (.opD [(⟨⟨.nan, .nan⟩, .trv⟩ : DItv)]))),
    .call ((Cmd.run (.opD [(⟨⟨.nan, .nan⟩, .ill⟩ : DItv)]))),
    .call ((Cmd.run (.opD [(⟨⟨.ninf, .pinf⟩, .defd⟩ : DItv)]))),
    .call ((Cmd.run (.opD [(⟨⟨(f 0 0), .pinf⟩, .trv⟩ : DItv)]))),
    .call ((Cmd.run (.opD [(⟨⟨.ninf, (f (5404319552844595) (-52))⟩, .trv⟩ : DItv)]))),
    .call ((Cmd.run (.opD [(⟨⟨(f 8388607 105), (f 33554431 103)⟩, .trv⟩ : DItv)]))),
    .state 1024 []] ExSt.init = [] := by
  decide +kernel

/-- `minimal_wid_test` -/
example : failed [
    .call clearFlags,
    .call ((Cmd.run (.op [(⟨(f 2 0), (f 2 0)⟩ : Itv)]))),
    .call ((Cmd.run (.op [(⟨(f 2 0), (f 2 0)⟩ : Itv)]))),
    .call ((Cmd.run (.op [(⟨(f 1 0), (f 2 0)⟩ : Itv)]))),
    .call ((Cmd.run (.op [(⟨(f 1 0), .pinf⟩ : Itv)]))),
    .call ((Cmd.run (.op [(⟨.ninf, (f 2 0)⟩ : Itv)]))),
    .call ((Cmd.run (.op [(⟨.ninf, .pinf⟩ : Itv)]))),
    .call ((Cmd.run (.op [(⟨.nan, .nan⟩ : Itv)]))),
    .call ((Cmd.run (.op [(⟨(f 1 0), (f (4503599627370497) (-52))⟩ : Itv)]))),
    .call ((Cmd.run (.op [(⟨(f (1) (-1022)), (f (4503599627370497) (-1074))⟩ : Itv)]))),
    .state 1043 [],
    .call clearFlags,
    .call ((Cmd.run (.op [(⟨(f 1 0), (f (-2) (0))⟩ : Itv)]))),
    .state 1047 [.invalidOperand],
    .call clearFlags,
    .call (setCwd (bitsOf [.invalidOperand])),
    .throws 1050 ((Cmd.run (.op [(⟨(f 1 0), (f (-2) (0))⟩ : Itv)]))) .invalidOperand,
    .state 1051 [.invalidOperand],
    .call clearFlags,
    .call (setCwd (bitsOf []))] ExSt.init = [] := by
  decide +kernel

/-- `minimal_wid_mixedtype_test` -/
example : failed [
    .call clearFlags,
    .call ((Cmd.run (.op [(⟨(f 2 0), (f 2 0)⟩ : Itv)]))),
    .call ((Cmd.run (.op [(⟨(f 2 0), (f 2 0)⟩ : Itv)]))),
    .call ((Cmd.run (.op [(⟨(f 1 0), (f 2 0)⟩ : Itv)]))),
    .call ((Cmd.run (.op [(⟨(f 1 0), .pinf⟩ : Itv)]))),
    .call ((Cmd.run (.op [(⟨.ninf, (f 2 0)⟩ : Itv)]))),
    .call ((Cmd.run (.op [(⟨.ninf, .pinf⟩ : Itv)]))),
    .call ((Cmd.run (.op [(⟨.nan, .nan⟩ : Itv)]))),
    .call ((Cmd.run (.op [(⟨(f (1) (-1022)), (f (4503599627370497) (-1074))⟩ : Itv)]))),
    .state 1069 [],
    .call clearFlags,
    .call ((Cmd.run (.op [(⟨(f 1 0), (f (-2) (0))⟩ : Itv)]))),
    .state 1074 [.invalidOperand],
    .call clearFlags,
    .call (setCwd (bitsOf [.invalidOperand])),
    .throws 1077 ((Cmd.run (.op [(⟨(f 1 0), (f (-2) (0))⟩ : Itv)]))) .invalidOperand,
    .state 1078 [.invalidOperand],
    .call clearFlags,
    .call (setCwd (bitsOf []))] ExSt.init = [] := by
  decide +kernel

/-- `minimal_wid_dec_test` -/
example : failed [
    .call clearFlags,
    .call ((Cmd.run (.opD [(⟨⟨(f 2 0), (f 2 0)⟩, .com⟩ : DItv)]))),
    .call ((Cmd.run (.opD [(⟨⟨(f 2 0), (f 2 0)⟩, .trv⟩ : DItv)]))),
    .call ((Cmd.run (.opD [(⟨⟨(f 1 0), (f 2 0)⟩, .trv⟩ : DItv)]))),
    .call ((Cmd.run (.opD [(⟨⟨(f 1 0), .pinf⟩, .trv⟩ : DItv)]))),
    .call ((Cmd.run (.opD [(⟨⟨.ninf, (f 2 0)⟩, .defd⟩ : DItv)]))),
    .call ((Cmd.run (.opD [(⟨⟨.ninf, .pinf⟩, .trv⟩ : DItv)]))),
    .call ((Cmd.run (.opD [(⟨⟨.nan, .nan⟩, .trv⟩ : DItv)]))),
    .call ((Cmd.run (.opD [(⟨⟨.nan, .nan⟩, .ill⟩ : DItv)]))),
    .call ((Cmd.run (.opD [(⟨⟨(f 1 0), (f (4503599627370497) (-52))⟩, .trv⟩ : DItv)]))),
    .call ((Cmd.run (.opD [(⟨⟨(f (1) (-1022)), (f (4503599627370497) (-1074))⟩, .trv⟩ : DItv)]))),
    .state 1098 [],
    .call clearFlags,
    .call ((Cmd.run (.opD [(⟨⟨(f 1 0), (f (-2) (0))⟩, .trv⟩ : DItv)]))),
    .state 1103 [.invalidOperand],
    .call clearFlags,
    .call (setCwd (bitsOf [.invalidOperand])),
    .throws 1106 ((Cmd.run (.opD [(⟨⟨(f 1 0), (f (-2) (0))⟩, .trv⟩ : DItv)]))) .invalidOperand,
    .state 1107 [.invalidOperand],
    .call clearFlags,
    .call (setCwd (bitsOf []))] ExSt.init = [] := by
  decide +kernel

/-- `minimal_wid_dec_mixedtype_test` -/
example : failed [
    .call clearFlags,
    .call ((Cmd.run (.opD [(⟨⟨(f 2 0), (f 2 0)⟩, .com⟩ : DItv)]))),
    .call ((Cmd.run (.opD [(⟨⟨(f 2 0), (f 2 0)⟩, .trv⟩ : DItv)]))),
    .call ((Cmd.run (.opD [(⟨⟨(f 1 0), (f 2 0)⟩, .trv⟩ : DItv)]))),
    .call ((Cmd.run (.opD [(⟨⟨(f 1 0), .pinf⟩, .trv⟩ : DItv)]))),
    .call ((Cmd.run (.opD [(⟨⟨.ninf, (f 2 0)⟩, .defd⟩ : DItv)]))),
    .call ((Cmd.run (.opD [(⟨⟨.ninf, .pinf⟩, .trv⟩ : DItv)]))),
    .call ((Cmd.run (.opD [(⟨⟨.nan, .nan⟩, .trv⟩ : DItv)]))),
    .call ((Cmd.run (.opD [(⟨⟨.nan, .nan⟩, .ill⟩ : DItv)]))),
    .call ((Cmd.run (.opD [(⟨⟨(f (1) (-1022)), (f (4503599627370497) (-1074))⟩, .trv⟩ : DItv)]))),
    .state 1126 [],
    .call clearFlags,
    .call ((Cmd.run (.opD [(⟨⟨(f 1 0), (f (-2) (0))⟩, .trv⟩ : DItv)]))),
    .state 1130 [.invalidOperand],
    .call clearFlags,
    .call (setCwd (bitsOf [.invalidOperand])),
    .throws 1133 ((Cmd.run (.opD [(⟨⟨(f 1 0), (f (-2) (0))⟩, .trv⟩ : DItv)]))) .invalidOperand,
    .state 1134 [.invalidOperand],
    .call clearFlags,
    .call (setCwd (bitsOf []))] ExSt.init = [] := by
  decide +kernel

/-- `minimal_mag_test` -/
example : failed [
    .call clearFlags,
    .call ((Cmd.run (.op [(⟨(f 1 0), (f 2 0)⟩ : Itv)]))),
    .call ((Cmd.run (.op [(⟨(f (-4) (0)), (f 2 0)⟩ : Itv)]))),
    .call ((Cmd.run (.op [(⟨.ninf, (f 2 0)⟩ : Itv)]))),
    .call ((Cmd.run (.op [(⟨(f 1 0), .pinf⟩ : Itv)]))),
    .call ((Cmd.run (.op [(⟨.ninf, .pinf⟩ : Itv)]))),
    .call ((Cmd.run (.op [(⟨.nan, .nan⟩ : Itv)]))),
    .call ((Cmd.run (.op [(⟨.nzero, (f 0 0)⟩ : Itv)]))),
    .call ((Cmd.run (.op [(⟨.nzero, (f 0 0)⟩ : Itv)]))),
    .call ((Cmd.run (.op [(⟨.nzero, .nzero⟩ : Itv)]))),
    .call ((Cmd.run (.op [(⟨.nzero, .nzero⟩ : Itv)]))),
    .state 1155 [],
    .call clearFlags,
    .call ((Cmd.run (.op [(⟨(f 1 0), (f (-2) (0))⟩ : Itv)]))),
    .state 1159 [.invalidOperand],
    .call clearFlags,
    .call (setCwd (bitsOf [.invalidOperand])),
    .throws 1162 ((Cmd.run (.op [(⟨(f 1 0), (f (-2) (0))⟩ : Itv)]))) .invalidOperand,
    .state 1163 [.invalidOperand],
    .call clearFlags,
    .call (setCwd (bitsOf []))] ExSt.init = [] := by
  decide +kernel

/-- `minimal_mag_mixedtype_test` -/
example : failed [
    .call clearFlags,
    .call ((Cmd.run (.op [(⟨(f 1 0), (f 2 0)⟩ : Itv)]))),
    .call ((Cmd.run (.op [(⟨(f (-4) (0)), (f 2 0)⟩ : Itv)]))),
    .call ((Cmd.run (.op [(⟨.ninf, (f 2 0)⟩ : Itv)]))),
    .call ((Cmd.run (.op [(⟨(f 1 0), .pinf⟩ : Itv)]))),
    .call ((Cmd.run (.op [(⟨.ninf, .pinf⟩ : Itv)]))),
    .call ((Cmd.run (.op [(⟨.nan, .nan⟩ : Itv)]))),
    .call ((Cmd.run (.op [(⟨.nzero, (f 0 0)⟩ : Itv)]))),
    .call ((Cmd.run (.op [(⟨.nzero, (f 0 0)⟩ : Itv)]))),
    .call ((Cmd.run (.op [(⟨.nzero, .nzero⟩ : Itv)]))),
    .call ((Cmd.run (.op [(⟨.nzero, .nzero⟩ : Itv)]))),
    .call ((Cmd.run (.op [(⟨(f (1) (-1022)), (f (4503599627370497) (-1074))⟩ : Itv)]))),
    .call ((Cmd.run (.op [(⟨(f (-2476979795053773) (-51)), (f (3152519739159347) (-52))⟩ : Itv)]))),
    .state 1185 [],
    .call clearFlags,
    .call ((Cmd.run (.op [(⟨(f 1 0), (f (-2) (0))⟩ : Itv)]))),
    .state 1190 [.invalidOperand],
    .call clearFlags,
    .call (setCwd (bitsOf [.invalidOperand])),
    .throws 1193 ((Cmd.run (.op [(⟨(f 1 0), (f (-2) (0))⟩ : Itv)]))) .invalidOperand,
    .state 1194 [.invalidOperand],
    .call clearFlags,
    .call (setCwd (bitsOf []))] ExSt.init = [] := by
  decide +kernel

/-- `minimal_mag_dec_test` -/
example : failed [
    .call clearFlags,
    .call ((Cmd.run (.opD [(⟨⟨(f 1 0), (f 2 0)⟩, .com⟩ : DItv)]))),
    .call ((Cmd.run (.opD [(⟨⟨(f (-4) (0)), (f 2 0)⟩, .trv⟩ : DItv)]))),
    .call ((Cmd.run (.opD [(⟨⟨.ninf, (f 2 0)⟩, .trv⟩ : DItv)]))),
    .call ((Cmd.run (.opD [(⟨⟨(f 1 0), .pinf⟩, .defd⟩ : DItv)]))),
    .call ((Cmd.run (.opD [(⟨⟨.ninf, .pinf⟩, .trv⟩ : DItv)]))),
    .call ((Cmd.run (.opD [(⟨⟨.nan, .nan⟩, .trv⟩ : DItv)]))),
    .call ((Cmd.run (.opD [(⟨⟨.nan, .nan⟩, .ill⟩ : DItv)]))),
    .call ((Cmd.run (.opD [(⟨⟨.nzero, (f 0 0)⟩, .trv⟩ : DItv)]))),
    .call ((Cmd.run (.opD [(⟨⟨.nzero, (f 0 0)⟩, .trv⟩ : DItv)]))),
    .call ((Cmd.run (.opD [(⟨⟨.nzero, .nzero⟩, .trv⟩ : DItv)]))),
    .call ((Cmd.run (.opD [(⟨⟨.nzero, .nzero⟩, .trv⟩ : DItv)]))),
    .state 1216 [],
    .call clearFlags,
    .call ((Cmd.run (.opD [(⟨⟨(f 1 0), (f (-2) (0))⟩, .trv⟩ : DItv)]))),
    .state 1220 [.invalidOperand],
    .call clearFlags,
    .call (setCwd (bitsOf [.invalidOperand])),
    .throws 1223 ((Cmd.run (.opD [(⟨⟨(f 1 0), (f (-2) (0))⟩, .trv⟩ : DItv)]))) .invalidOperand,
    .state 1224 [.invalidOperand],
    .call clearFlags,
    .call (setCwd (bitsOf []))] ExSt.init = [] := by
  decide +kernel

/-- `minimal_mag_dec_mixedtype_test` -/
example : failed [
    .call clearFlags,
    .call ((Cmd.run (.opD [(⟨⟨(f 1 0), (f 2 0)⟩, .com⟩ : DItv)]))),
    .call ((Cmd.run (.opD [(⟨⟨(f (-4) (0)), (f 2 0)⟩, .trv⟩ : DItv)]))),
    .call ((Cmd.run (.opD [(⟨⟨.ninf, (f 2 0)⟩, .trv⟩ : DItv)]))),
    .call ((Cmd.run (.opD [(⟨⟨(f 1 0), .pinf⟩, .defd⟩ : DItv)]))),
    .call ((Cmd.run (.opD [(⟨⟨.ninf, .pinf⟩, .trv⟩ : DItv)]))),
    .call ((Cmd.run (.opD [(⟨⟨.nan, .nan⟩, .trv⟩ : DItv)]))),
    .call ((Cmd.run (.opD [(⟨⟨.nan, .nan⟩, .ill⟩ : DItv)]))),
    .call ((Cmd.run (.opD [(⟨⟨.nzero, (f 0 0)⟩, .trv⟩ : DItv)]))),
    .call ((Cmd.run (.opD [(⟨⟨.nzero, (f 0 0)⟩, .trv⟩ : DItv)]))),
    .call ((Cmd.run (.opD [(⟨⟨.nzero, .nzero⟩, .trv⟩ : DItv)]))),
    .call ((Cmd.run (.opD [(⟨⟨.nzero, .nzero⟩, .trv⟩ : DItv)]))),
    .call ((Cmd.run (.opD [(⟨⟨(f (1) (-1022)), (f (4503599627370497) (-1074))⟩, .trv⟩ : DItv)]))),
    .call ((Cmd.run (.opD [(⟨⟨(f (-2476979795053773) (-51)), (f (3152519739159347) (-52))⟩, .trv⟩ : DItv)]))),
    .state 1248 [],
    .call clearFlags,
    .call ((Cmd.run (.opD [(⟨⟨(f 1 0), (f (-2) (0))⟩, .trv⟩ : DItv)]))),
    .state 1252 [.invalidOperand],
    .call clearFlags,
    .call (setCwd (bitsOf [.invalidOperand])),
    .throws 1255 ((Cmd.run (.opD [(⟨⟨(f 1 0), (f (-2) (0))⟩, .trv⟩ : DItv)]))) .invalidOperand,
    .state 1256 [.invalidOperand],
    .call clearFlags,
    .call (setCwd (bitsOf []))] ExSt.init = [] := by
  decide +kernel

/-- `minimal_mig_test` -/
example : failed [
    .call clearFlags,
    .call ((Cmd.run (.op [(⟨(f 1 0), (f 2 0)⟩ : Itv)]))),
    .call ((Cmd.run (.op [(⟨(f (-4) (0)), (f 2 0)⟩ : Itv)]))),
    .call ((Cmd.run (.op [(⟨(f (-4) (0)), (f 2 0)⟩ : Itv)]))),
    .call ((Cmd.run (.op [(⟨(f (-4) (0)), (f (-2) (0))⟩ : Itv)]))),
    .call ((Cmd.run (.op [(⟨.ninf, (f 2 0)⟩ : Itv)]))),
    .call ((Cmd.run (.op [(⟨.ninf, (f (-2) (0))⟩ : Itv)]))),
    .call ((Cmd.run (.op [(⟨(f (-1) (0)), .pinf⟩ : Itv)]))),
    .call ((Cmd.run (.op [(⟨(f 1 0), .pinf⟩ : Itv)]))),
    .call ((Cmd.run (.op [(⟨.ninf, .pinf⟩ : Itv)]))),
    .call ((Cmd.run (.op [(⟨.ninf, .pinf⟩ : Itv)]))),
    .call ((Cmd.run (.op [(⟨.nan, .nan⟩ : Itv)]))),
    .call ((Cmd.run (.op [(⟨.nzero, (f 0 0)⟩ : Itv)]))),
    .call ((Cmd.run (.op [(⟨.nzero, (f 0 0)⟩ : Itv)]))),
    .call ((Cmd.run (.op [(⟨.nzero, .nzero⟩ : Itv)]))),
    .call ((Cmd.run (.op [(⟨.nzero, .nzero⟩ : Itv)]))),
    .state 1282 [],
    .call clearFlags,
    .call ((Cmd.run (.op [(⟨(f 1 0), (f (-2) (0))⟩ : Itv)]))),
    .state 1286 [.invalidOperand],
    .call clearFlags,
    .call (setCwd (bitsOf [.invalidOperand])),
    .throws 1289 ((Cmd.run (.op [(⟨(f 1 0), (f (-2) (0))⟩ : Itv)]))) .invalidOperand,
    .state 1290 [.invalidOperand],
    .call clearFlags,
    .call (setCwd (bitsOf []))] ExSt.init = [] := by
  decide +kernel

/-- `minimal_mig_mixedtype_test` -/
example : failed [
    .call clearFlags,
    .call ((Cmd.run (.op [(⟨(f 1 0), (f 2 0)⟩ : Itv)]))),
    .call ((Cmd.run (.op [(⟨(f (-4) (0)), (f 2 0)⟩ : Itv)]))),
    .call ((Cmd.run (.op [(⟨(f (-4) (0)), (f 2 0)⟩ : Itv)]))),
    .call ((Cmd.run (.op [(⟨(f (-4) (0)), (f (-2) (0))⟩ : Itv)]))),
    .call ((Cmd.run (.op [(⟨.ninf, (f 2 0)⟩ : Itv)]))),
    .call ((Cmd.run (.op [(⟨.ninf, (f (-2) (0))⟩ : Itv)]))),
    .call ((Cmd.run (.op [(⟨(f (-1) (0)), .pinf⟩ : Itv)]))),
    .call ((Cmd.run (.op [(⟨(f 1 0), .pinf⟩ : Itv)]))),
    .call ((Cmd.run (.op [(⟨.ninf, .pinf⟩ : Itv)]))),
    .call ((Cmd.run (.op [(⟨.ninf, .pinf⟩ : Itv)]))),
    .call ((Cmd.run (.op [(⟨.nan, .nan⟩ : Itv)]))),
    .call ((Cmd.run (.op [(⟨.nzero, (f 0 0)⟩ : Itv)]))),
    .call ((Cmd.run (.op [(⟨.nzero, (f 0 0)⟩ : Itv)]))),
    .call ((Cmd.run (.op [(⟨.nzero, .nzero⟩ : Itv)]))),
    .call ((Cmd.run (.op [(⟨.nzero, .nzero⟩ : Itv)]))),
    .call ((Cmd.run (.op [(⟨(f (2476979795053773) (-51)), (f (3152519739159347) (-50))⟩ : Itv)]))),
    .state 1316 [],
    .call clearFlags,
    .call ((Cmd.run (.op [(⟨(f 1 0), (f (-2) (0))⟩ : Itv)]))),
    .state 1321 [.invalidOperand],
    .call clearFlags,
    .call (setCwd (bitsOf [.invalidOperand])),
    .throws 1324 ((Cmd.run (.op [(⟨(f 1 0), (f (-2) (0))⟩ : Itv)]))) .invalidOperand,
    .state 1325 [.invalidOperand],
    .call clearFlags,
    .call (setCwd (bitsOf []))] ExSt.init = [] := by
  decide +kernel

/-- `minimal_mig_dec_test` -/
example : failed [
    .call clearFlags,
    .call ((Cmd.run (.opD [(⟨⟨(f 1 0), (f 2 0)⟩, .com⟩ : DItv)]))),
    .call ((Cmd.run (.opD [(⟨⟨(f (-4) (0)), (f 2 0)⟩, .trv⟩ : DItv)]))),
    .call ((Cmd.run (.opD [(⟨⟨(f (-4) (0)), (f 2 0)⟩, .trv⟩ : DItv)]))),
    .call ((Cmd.run (.opD [(⟨⟨(f (-4) (0)), (f (-2) (0))⟩, .trv⟩ : DItv)]))),
    .call ((Cmd.run (.opD [(⟨⟨.ninf, (f 2 0)⟩, .defd⟩ : DItv)]))),
    .call ((Cmd.run (.opD [(⟨⟨.ninf, (f (-2) (0))⟩, .trv⟩ : DItv)]))),
    .call ((Cmd.run (.opD [(⟨⟨(f (-1) (0)), .pinf⟩, .trv⟩ : DItv)]))),
    .call ((Cmd.run (.opD [(⟨⟨(f 1 0), .pinf⟩, .trv⟩ : DItv)]))),
    .call ((Cmd.run (.opD [(⟨⟨.ninf, .pinf⟩, .trv⟩ : DItv)]))),
    .call ((Cmd.run (.opD [(⟨⟨.ninf, .pinf⟩, .trv⟩ : DItv)]))),
    .call ((Cmd.run (.opD [(⟨⟨.nan, .nan⟩, .trv⟩ : DItv)]))),
    .call ((Cmd.run (.opD [(⟨⟨.nan, .nan⟩, .ill⟩ : DItv)]))),
    .call ((Cmd.run (.opD [(⟨⟨.nzero, (f 0 0)⟩, .trv⟩ : DItv)]))),
    .call ((Cmd.run (.opD [(⟨⟨.nzero, (f 0 0)⟩, .trv⟩ : DItv)]))),
    .call ((Cmd.run (.opD [(⟨⟨.nzero, .nzero⟩, .trv⟩ : DItv)]))),
    .call ((Cmd.run (.opD [(⟨⟨.nzero, .nzero⟩, .trv⟩ : DItv)]))),
    .state 1351 [],
    .call clearFlags,
    .call ((Cmd.run (.opD [(⟨⟨(f 1 0), (f (-2) (0))⟩, .trv⟩ : DItv)]))),
    .state 1355 [.invalidOperand],
    .call clearFlags,
    .call (setCwd (bitsOf [.invalidOperand])),
    .throws 1358 ((Cmd.run (.opD [(⟨⟨(f 1 0), (f (-2) (0))⟩, .trv⟩ : DItv)]))) .invalidOperand,
    .state 1359 [.invalidOperand],
    .call clearFlags,
    .call (setCwd (bitsOf []))] ExSt.init = [] := by
  decide +kernel

/-- `minimal_mig_dec_mixedtype_test` -/
example : failed [
    .call clearFlags,
    .call ((Cmd.run (.opD [(⟨⟨(f 1 0), (f 2 0)⟩, .com⟩ : DItv)]))),
    .call ((Cmd.run (.opD [(⟨⟨(f (-4) (0)), (f 2 0)⟩, .trv⟩ : DItv)]))),
    .call ((Cmd.run (.opD [(⟨⟨(f (-4) (0)), (f 2 0)⟩, .trv⟩ : DItv)]))),
    .call ((Cmd.run (.opD [(⟨⟨(f (-4) (0)), (f (-2) (0))⟩, .trv⟩ : DItv)]))),
    .call ((Cmd.run (.opD [(⟨⟨.ninf, (f 2 0)⟩, .trv⟩ : DItv)]))),
    .call ((Cmd.run (.opD [(⟨⟨.ninf, (f (-2) (0))⟩, .defd⟩ : DItv)]))),
    .call ((Cmd.run (.opD [(⟨⟨(f (-1) (0)), .pinf⟩, .trv⟩ : DItv)]))),
    .call ((Cmd.run (.opD [(⟨⟨(f 1 0), .pinf⟩, .trv⟩ : DItv)]))),
    .call ((Cmd.run (.opD [(⟨⟨.ninf, .pinf⟩, .trv⟩ : DItv)]))),
    .call ((Cmd.run (.opD [(⟨⟨.ninf, .pinf⟩, .trv⟩ : DItv)]))),
    .call ((Cmd.run (.opD [(⟨⟨.nan, .nan⟩, .trv⟩ : DItv)]))),
    .call ((Cmd.run (.opD [(⟨⟨.nan, .nan⟩, .ill⟩ : DItv)]))),
    .call ((Cmd.run (.opD [(⟨⟨.nzero, (f 0 0)⟩, .trv⟩ : DItv)]))),
    .call ((Cmd.run (.opD [(⟨⟨.nzero, (f 0 0)⟩, .trv⟩ : DItv)]))),
    .call ((Cmd.run (.opD [(⟨⟨.nzero, .nzero⟩, .trv⟩ : DItv)]))),
    .call ((Cmd.run (.opD [(⟨⟨.nzero, .nzero⟩, .trv⟩ : DItv)]))),
    .call ((Cmd.run (.opD [(⟨⟨(f (2476979795053773) (-51)), (f (3152519739159347) (-50))⟩, .trv⟩ : DItv)]))),
    .state 1386 [],
    .call clearFlags,
    .call ((Cmd.run (.opD [(⟨⟨(f 1 0), (f (-2) (0))⟩, .trv⟩ : DItv)]))),
    .state 1390 [.invalidOperand],
    .call clearFlags,
    .call (setCwd (bitsOf [.invalidOperand])),
    .throws 1393 ((Cmd.run (.opD [(⟨⟨(f 1 0), (f (-2) (0))⟩, .trv⟩ : DItv)]))) .invalidOperand,
    .state 1394 [.invalidOperand],
    .call clearFlags,
    .call (setCwd (bitsOf []))] ExSt.init = [] := by
  decide +kernel

end P1788.Conform
