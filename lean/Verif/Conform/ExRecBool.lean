import Verif.Conform.Basic

/-!
# Conformance: rec_bool_func, exceptions

Generated from `/repo/test/p1788/flavor/infsup/setbased/test_mpfr_bin_ieee754_flavor_rec_bool_func.cpp`: the assertions of the project's own test suite, evaluated in the
model by the kernel.  Each test case is the list of its calls and of its
assertions, with their lines, about the exception flags and about thrown exceptions.  These are tests of the model, not proofs of
properties.
-/

set_option maxRecDepth 100000

namespace P1788.Conform

/-- `minimal_is_common_interval_test` -/
example : failed [
    .call clearFlags,
    .call ((Cmd.run (.op [(⟨(f (-27) (0)), (f (-27) (0))⟩ : Itv)]))),
    .call ((Cmd.run (.op [(⟨(f (-27) (0)), (f 0 0)⟩ : Itv)]))),
    .call ((Cmd.run (.op [(⟨(f 0 0), (f 0 0)⟩ : Itv)]))),
    .call ((Cmd.run (.op [(⟨.nzero, .nzero⟩ : Itv)]))),
    .call ((Cmd.run (.op [(⟨.nzero, (f 0 0)⟩ : Itv)]))),
    .call ((Cmd.run (.op [(⟨(f 0 0), .nzero⟩ : Itv)]))),
    .call ((Cmd.run (.op [(⟨(f 5 0), (f (6980579422424269) (-49))⟩ : Itv)]))),
    .call ((Cmd.run (.op [(⟨(f (-9007199254740991) (971)), (f 9007199254740991 971)⟩ : Itv)]))),
    .call ((Cmd.run (.op [(⟨.ninf, .pinf⟩ : Itv)]))),
    .call ((Cmd.run (.op [(⟨.nan, .nan⟩ : Itv)]))),
    .call ((Cmd.run (.op [(⟨.ninf, (f 0 0)⟩ : Itv)]))),
    .call ((Cmd.run (.op [(⟨(f 0 0), .pinf⟩ : Itv)]))),
    .state 75 [],
    .call clearFlags,
    .call ((Cmd.run (.op [(⟨(f 0 0), .ninf⟩ : Itv)]))),
    .state 79 [.invalidOperand],
    .call clearFlags,
    .call (setCwd (bitsOf [.invalidOperand])),
    .throws 82 ((Cmd.run (.op [(⟨(f 1 0), (f (-2) (0))⟩ : Itv)]))) .invalidOperand,
    .state 83 [.invalidOperand],
    .call clearFlags,
    .call (setCwd (bitsOf []))] ExSt.init = [] := by
  decide +kernel

/-- `minimal_is_common_interval_dec_test` -/
example : failed [
    .call clearFlags,
    .call ((Cmd.run (.opD [(⟨⟨(f (-27) (0)), (f (-27) (0))⟩, .com⟩ : DItv)]))),
    .call ((Cmd.run (.opD [(⟨⟨(f (-27) (0)), (f 0 0)⟩, .com⟩ : DItv)]))),
    .call ((Cmd.run (.opD [(⟨⟨(f 0 0), (f 0 0)⟩, .com⟩ : DItv)]))),
    .call ((Cmd.run (.opD [(⟨⟨.nzero, .nzero⟩, .com⟩ : DItv)]))),
    .call ((Cmd.run (.opD [(⟨⟨.nzero, (f 0 0)⟩, .com⟩ : DItv)]))),
    .call ((Cmd.run (.opD [(⟨⟨(f 0 0), .nzero⟩, .com⟩ : DItv)]))),
    .call ((Cmd.run (.opD [(⟨⟨(f 5 0), (f (6980579422424269) (-49))⟩, .com⟩ : DItv)]))),
    .call ((Cmd.run (.opD [(⟨⟨(f (-9007199254740991) (971)), (f 9007199254740991 971)⟩, .com⟩ : DItv)]))),
    .call ((Cmd.run (.opD [(⟨⟨(f (-27) (0)), (f (-27) (0))⟩, .trv⟩ : DItv)]))),
    .call ((Cmd.run (.opD [(⟨⟨(f (-27) (0)), (f 0 0)⟩, .defd⟩ : DItv)]))),
    .call ((Cmd.run (.opD [(⟨⟨(f 0 0), (f 0 0)⟩, .dac⟩ : DItv)]))),
    .call ((Cmd.run (.opD [(⟨⟨.nzero, .nzero⟩, .trv⟩ : DItv)]))),
    .call ((Cmd.run (.opD [(⟨⟨.nzero, (f 0 0)⟩, .defd⟩ : DItv)]))),
    .call ((Cmd.run (.opD [(⟨⟨(f 0 0), .nzero⟩, .dac⟩ : DItv)]))),
    .call ((Cmd.run (.opD [(⟨⟨(f 5 0), (f (6980579422424269) (-49))⟩, .defd⟩ : DItv)]))),
    .call ((Cmd.run (.opD [(⟨⟨(f (-9007199254740991) (971)), (f 9007199254740991 971)⟩, .trv⟩ : DItv)]))),
    .call ((Cmd.run (.opD [(⟨⟨.ninf, .pinf⟩, .dac⟩ : DItv)]))),
    .call ((Cmd.run (.opD [(⟨⟨.nan, .nan⟩, .ill⟩ : DItv)]))),
    .call ((Cmd.run (.opD [(⟨⟨.nan, .nan⟩, .trv⟩ : DItv)]))),
    .call ((Cmd.run (.opD [(⟨⟨.ninf, (f 0 0)⟩, .trv⟩ : DItv)]))),
    .call ((Cmd.run (.opD [(⟨⟨(f 0 0), .pinf⟩, .defd⟩ : DItv)]))),
    .state 116 [],
    .call clearFlags,
    .call ((Cmd.run (.opD [(⟨⟨(f 27 0), (f (-27) (0))⟩, .com⟩ : DItv)]))),
    .state 120 [.invalidOperand],
    .call clearFlags,
    .call (setCwd (bitsOf [.invalidOperand])),
    .throws 123 ((Cmd.run (.opD [(⟨⟨(f 27 0), (f (-27) (0))⟩, .com⟩ : DItv)]))) .invalidOperand,
    .state 124 [.invalidOperand],
    .call clearFlags,
    .call (setCwd (bitsOf []))] ExSt.init = [] := by
  decide +kernel

/-- `minimal_is_singleton_test` -/
example : failed [
    .call clearFlags,
    .call ((Cmd.run (.op [(⟨(f (-27) (0)), (f (-27) (0))⟩ : Itv)]))),
    .call ((Cmd.run (.op [(⟨(f (-2) (0)), (f (-2) (0))⟩ : Itv)]))),
    .call ((Cmd.run (.op [(⟨(f 12 0), (f 12 0)⟩ : Itv)]))),
    .call ((Cmd.run (.op [(⟨(f (2406611050876109) (-47)), (f (2406611050876109) (-47))⟩ : Itv)]))),
    .call ((Cmd.run (.op [(⟨.nzero, .nzero⟩ : Itv)]))),
    .call ((Cmd.run (.op [(⟨(f 0 0), (f 0 0)⟩ : Itv)]))),
    .call ((Cmd.run (.op [(⟨.nzero, (f 0 0)⟩ : Itv)]))),
    .call ((Cmd.run (.op [(⟨(f 0 0), .nzero⟩ : Itv)]))),
    .call ((Cmd.run (.op [(⟨.nan, .nan⟩ : Itv)]))),
    .call ((Cmd.run (.op [(⟨.ninf, .pinf⟩ : Itv)]))),
    .call ((Cmd.run (.op [(⟨(f (-1) (0)), (f 0 0)⟩ : Itv)]))),
    .call ((Cmd.run (.op [(⟨(f (-1) (0)), (f (-1) (-1))⟩ : Itv)]))),
    .call ((Cmd.run (.op [(⟨(f 1 0), (f 2 0)⟩ : Itv)]))),
    .call ((Cmd.run (.op [(⟨.ninf, (f (-9007199254740991) (971))⟩ : Itv)]))),
    .call ((Cmd.run (.op [(⟨(f (-1) (0)), .pinf⟩ : Itv)]))),
    .state 150 [],
    .call clearFlags,
    .call ((Cmd.run (.op [(⟨(f 1 0), (f 0 0)⟩ : Itv)]))),
    .state 154 [.invalidOperand],
    .call clearFlags,
    .call (setCwd (bitsOf [.invalidOperand])),
    .throws 157 ((Cmd.run (.op [(⟨(f 1 0), (f 0 0)⟩ : Itv)]))) .invalidOperand,
    .state 158 [.invalidOperand],
    .call clearFlags,
    .call (setCwd (bitsOf []))] ExSt.init = [] := by
  decide +kernel

/-- `minimal_is_singleton_dec_test` -/
example : failed [
    .call clearFlags,
    .call ((Cmd.run (.opD [(⟨⟨(f (-27) (0)), (f (-27) (0))⟩, .defd⟩ : DItv)]))),
    .call ((Cmd.run (.opD [(⟨⟨(f (-2) (0)), (f (-2) (0))⟩, .trv⟩ : DItv)]))),
    .call ((Cmd.run (.opD [(⟨⟨(f 12 0), (f 12 0)⟩, .dac⟩ : DItv)]))),
    .call ((Cmd.run (.opD [(⟨⟨(f (2406611050876109) (-47)), (f (2406611050876109) (-47))⟩, .com⟩ : DItv)]))),
    .call ((Cmd.run (.opD [(⟨⟨.nzero, .nzero⟩, .defd⟩ : DItv)]))),
    .call ((Cmd.run (.opD [(⟨⟨(f 0 0), (f 0 0)⟩, .com⟩ : DItv)]))),
    .call ((Cmd.run (.opD [(⟨⟨.nzero, (f 0 0)⟩, .defd⟩ : DItv)]))),
    .call ((Cmd.run (.opD [(⟨⟨(f 0 0), .nzero⟩, .dac⟩ : DItv)]))),
    .call ((Cmd.run (.opD [(⟨⟨.nan, .nan⟩, .trv⟩ : DItv)]))),
    .call ((Cmd.run (.opD [(⟨⟨.nan, .nan⟩, .ill⟩ : DItv)]))),
    .call ((Cmd.run (.opD [(⟨⟨.ninf, .pinf⟩, .defd⟩ : DItv)]))),
    .call ((Cmd.run (.opD [(⟨⟨(f (-1) (0)), (f 0 0)⟩, .dac⟩ : DItv)]))),
    .call ((Cmd.run (.opD [(⟨⟨(f (-1) (0)), (f (-1) (-1))⟩, .com⟩ : DItv)]))),
    .call ((Cmd.run (.opD [(⟨⟨(f 1 0), (f 2 0)⟩, .defd⟩ : DItv)]))),
    .call ((Cmd.run (.opD [(⟨⟨.ninf, (f (-9007199254740991) (971))⟩, .dac⟩ : DItv)]))),
    .call ((Cmd.run (.opD [(⟨⟨(f (-1) (0)), .pinf⟩, .trv⟩ : DItv)]))),
    .state 185 [],
    .call clearFlags,
    .call ((Cmd.run (.opD [(⟨⟨(f 1 0), (f (-1) (-1))⟩, .com⟩ : DItv)]))),
    .state 189 [.invalidOperand],
    .call clearFlags,
    .call (setCwd (bitsOf [.invalidOperand])),
    .throws 192 ((Cmd.run (.opD [(⟨⟨(f (-1) (0)), (f (-1) (-1))⟩, .ill⟩ : DItv)]))) .invalidOperand,
    .state 193 [.invalidOperand],
    .call clearFlags,
    .call (setCwd (bitsOf []))] ExSt.init = [] := by
  decide +kernel

/-- `minimal_is_member_test` -/
example : failed [
    .call clearFlags,
    .call ((Cmd.run (.op [(⟨(f (-27) (0)), (f (-27) (0))⟩ : Itv)]))),
    .call ((Cmd.run (.op [(⟨(f (-27) (0)), (f 0 0)⟩ : Itv)]))),
    .call ((Cmd.run (.op [(⟨(f (-27) (0)), (f 0 0)⟩ : Itv)]))),
    .call ((Cmd.run (.op [(⟨(f (-27) (0)), (f 0 0)⟩ : Itv)]))),
    .call ((Cmd.run (.op [(⟨(f 0 0), (f 0 0)⟩ : Itv)]))),
    .call ((Cmd.run (.op [(⟨(f 0 0), (f 0 0)⟩ : Itv)]))),
    .call ((Cmd.run (.op [(⟨.nzero, .nzero⟩ : Itv)]))),
    .call ((Cmd.run (.op [(⟨.nzero, (f 0 0)⟩ : Itv)]))),
    .call ((Cmd.run (.op [(⟨(f 0 0), .nzero⟩ : Itv)]))),
    .call ((Cmd.run (.op [(⟨(f 5 0), (f (6980579422424269) (-49))⟩ : Itv)]))),
    .call ((Cmd.run (.op [(⟨(f 5 0), (f (6980579422424269) (-49))⟩ : Itv)]))),
    .call ((Cmd.run (.op [(⟨(f 5 0), (f (6980579422424269) (-49))⟩ : Itv)]))),
    .call ((Cmd.run (.op [(⟨.ninf, .pinf⟩ : Itv)]))),
    .call ((Cmd.run (.op [(⟨.ninf, .pinf⟩ : Itv)]))),
    .call ((Cmd.run (.op [(⟨.ninf, .pinf⟩ : Itv)]))),
    .call ((Cmd.run (.op [(⟨.ninf, .pinf⟩ : Itv)]))),
    .call ((Cmd.run (.op [(⟨.ninf, .pinf⟩ : Itv)]))),
    .call ((Cmd.run (.op [(⟨.ninf, .pinf⟩ : Itv)]))),
    .call ((Cmd.run (.op [(⟨.ninf, .pinf⟩ : Itv)]))),
    .call ((Cmd.run (.op [(⟨.ninf, .pinf⟩ : Itv)]))),
    .call ((Cmd.run (.op [(⟨(f (-27) (0)), (f 0 0)⟩ : Itv)]))),
    .call ((Cmd.run (.op [(⟨(f (-27) (0)), (f 0 0)⟩ : Itv)]))),
    .call ((Cmd.run (.op [(⟨(f 0 0), (f 0 0)⟩ : Itv)]))),
    .call ((Cmd.run (.op [(⟨(f 0 0), (f 0 0)⟩ : Itv)]))),
    .call ((Cmd.run (.op [(⟨.nzero, .nzero⟩ : Itv)]))),
    .call ((Cmd.run (.op [(⟨(f 5 0), (f (6980579422424269) (-49))⟩ : Itv)]))),
    .call ((Cmd.run (.op [(⟨(f 5 0), (f (6980579422424269) (-49))⟩ : Itv)]))),
    .call ((Cmd.run (.op [(⟨.nan, .nan⟩ : Itv)]))),
    .call ((Cmd.run (.op [(⟨.nan, .nan⟩ : Itv)]))),
    .call ((Cmd.run (.op [(⟨.nan, .nan⟩ : Itv)]))),
    .call ((Cmd.run (.op [(⟨.nan, .nan⟩ : Itv)]))),
    .call ((Cmd.run (.op [(⟨.nan, .nan⟩ : Itv)]))),
    .call ((Cmd.run (.op [(⟨.ninf, .pinf⟩ : Itv)]))),
    .call ((Cmd.run (.op [(⟨.ninf, .pinf⟩ : Itv)]))),
    .call ((Cmd.run (.op [(⟨.ninf, .pinf⟩ : Itv)]))),
    .state 239 [],
    .call clearFlags,
    .call ((Cmd.run (.op [(⟨(f 5 0), (f (-6980579422424269) (-49))⟩ : Itv)]))),
    .state 243 [.invalidOperand],
    .call clearFlags,
    .call (setCwd (bitsOf [.invalidOperand])),
    .throws 246 ((Cmd.run (.op [(⟨.nan, (f (6980579422424269) (-49))⟩ : Itv)]))) .invalidOperand,
    .state 247 [.invalidOperand],
    .call clearFlags,
    .call (setCwd (bitsOf []))] ExSt.init = [] := by
  decide +kernel

/-- `minimal_is_member_dec_test` -/
example : failed [
    .call clearFlags,
    .call ((Cmd.run (.opD [(⟨⟨(f (-27) (0)), (f (-27) (0))⟩, .trv⟩ : DItv)]))),
    .call ((Cmd.run (.opD [(⟨⟨(f (-27) (0)), (f 0 0)⟩, .defd⟩ : DItv)]))),
    .call ((Cmd.run (.opD [(⟨⟨(f (-27) (0)), (f 0 0)⟩, .dac⟩ : DItv)]))),
    .call ((Cmd.run (.opD [(⟨⟨(f (-27) (0)), (f 0 0)⟩, .com⟩ : DItv)]))),
    .call ((Cmd.run (.opD [(⟨⟨(f 0 0), (f 0 0)⟩, .trv⟩ : DItv)]))),
    .call ((Cmd.run (.opD [(⟨⟨(f 0 0), (f 0 0)⟩, .defd⟩ : DItv)]))),
    .call ((Cmd.run (.opD [(⟨⟨.nzero, .nzero⟩, .dac⟩ : DItv)]))),
    .call ((Cmd.run (.opD [(⟨⟨.nzero, (f 0 0)⟩, .com⟩ : DItv)]))),
    .call ((Cmd.run (.opD [(⟨⟨(f 0 0), .nzero⟩, .trv⟩ : DItv)]))),
    .call ((Cmd.run (.opD [(⟨⟨(f 5 0), (f (6980579422424269) (-49))⟩, .defd⟩ : DItv)]))),
    .call ((Cmd.run (.opD [(⟨⟨(f 5 0), (f (6980579422424269) (-49))⟩, .dac⟩ : DItv)]))),
    .call ((Cmd.run (.opD [(⟨⟨(f 5 0), (f (6980579422424269) (-49))⟩, .com⟩ : DItv)]))),
    .call ((Cmd.run (.opD [(⟨⟨.ninf, .pinf⟩, .trv⟩ : DItv)]))),
    .call ((Cmd.run (.opD [(⟨⟨.ninf, .pinf⟩, .defd⟩ : DItv)]))),
    .call ((Cmd.run (.opD [(⟨⟨.ninf, .pinf⟩, .dac⟩ : DItv)]))),
    .call ((Cmd.run (.opD [(⟨⟨.ninf, .pinf⟩, .trv⟩ : DItv)]))),
    .call ((Cmd.run (.opD [(⟨⟨.ninf, .pinf⟩, .defd⟩ : DItv)]))),
    .call ((Cmd.run (.opD [(⟨⟨.ninf, .pinf⟩, .dac⟩ : DItv)]))),
    .call ((Cmd.run (.opD [(⟨⟨.ninf, .pinf⟩, .trv⟩ : DItv)]))),
    .call ((Cmd.run (.opD [(⟨⟨.ninf, .pinf⟩, .defd⟩ : DItv)]))),
    .call ((Cmd.run (.opD [(⟨⟨(f (-27) (0)), (f 0 0)⟩, .trv⟩ : DItv)]))),
    .call ((Cmd.run (.opD [(⟨⟨(f (-27) (0)), (f 0 0)⟩, .defd⟩ : DItv)]))),
    .call ((Cmd.run (.opD [(⟨⟨(f 0 0), (f 0 0)⟩, .dac⟩ : DItv)]))),
    .call ((Cmd.run (.opD [(⟨⟨(f 0 0), (f 0 0)⟩, .com⟩ : DItv)]))),
    .call ((Cmd.run (.opD [(⟨⟨.nzero, .nzero⟩, .trv⟩ : DItv)]))),
    .call ((Cmd.run (.opD [(⟨⟨(f 5 0), (f (6980579422424269) (-49))⟩, .defd⟩ : DItv)]))),
    .call ((Cmd.run (.opD [(⟨⟨(f 5 0), (f (6980579422424269) (-49))⟩, .dac⟩ : DItv)]))),
    .call ((Cmd.run (.opD [(⟨⟨.nan, .nan⟩, .ill⟩ : DItv)]))),
    .call ((Cmd.run (.opD [(⟨⟨.nan, .nan⟩, .trv⟩ : DItv)]))),
    .call ((Cmd.run (.opD [(⟨⟨.nan, .nan⟩, .trv⟩ : DItv)]))),
    .call ((Cmd.run (.opD [(⟨⟨.nan, .nan⟩, .ill⟩ : DItv)]))),
    .call ((Cmd.run (.opD [(⟨⟨.nan, .nan⟩, .trv⟩ : DItv)]))),
    .call ((Cmd.run (.opD [(⟨⟨.nan, .nan⟩, .ill⟩ : DItv)]))),
    .call ((Cmd.run (.opD [(⟨⟨.nan, .nan⟩, .trv⟩ : DItv)]))),
    .call ((Cmd.run (.opD [(⟨⟨.nan, .nan⟩, .ill⟩ : DItv)]))),
    .call ((Cmd.run (.opD [(⟨⟨.nan, .nan⟩, .trv⟩ : DItv)]))),
    .call ((Cmd.run (.opD [(⟨⟨.nan, .nan⟩, .ill⟩ : DItv)]))),
    .call ((Cmd.run (.opD [(⟨⟨.ninf, .pinf⟩, .trv⟩ : DItv)]))),
    .call ((Cmd.run (.opD [(⟨⟨.ninf, .pinf⟩, .defd⟩ : DItv)]))),
    .call ((Cmd.run (.opD [(⟨⟨.ninf, .pinf⟩, .dac⟩ : DItv)]))),
    .state 298 [],
    .call clearFlags,
    .call ((Cmd.run (.opD [(⟨⟨(f 10 0), (f 0 0)⟩, .dac⟩ : DItv)]))),
    .state 302 [.invalidOperand],
    .call clearFlags,
    .call (setCwd (bitsOf [.invalidOperand])),
    .throws 305 ((Cmd.run (.opD [(⟨⟨(f 0 0), .pinf⟩, .com⟩ : DItv)]))) .invalidOperand,
    .state 306 [.invalidOperand],
    .call clearFlags,
    .call (setCwd (bitsOf []))] ExSt.init = [] := by
  decide +kernel

/-- `minimal_mixedtype_is_member_test` -/
example : failed [
    .call clearFlags,
    .call ((Cmd.run (.op [(⟨(f (-27) (0)), (f (-27) (0))⟩ : Itv)]))),
    .call ((Cmd.run (.op [(⟨(f (-27) (0)), (f 0 0)⟩ : Itv)]))),
    .call ((Cmd.run (.op [(⟨(f (-27) (0)), (f 0 0)⟩ : Itv)]))),
    .call ((Cmd.run (.op [(⟨(f (-27) (0)), (f 0 0)⟩ : Itv)]))),
    .call ((Cmd.run (.op [(⟨(f 0 0), (f 0 0)⟩ : Itv)]))),
    .call ((Cmd.run (.op [(⟨(f 0 0), (f 0 0)⟩ : Itv)]))),
    .call ((Cmd.run (.op [(⟨.nzero, .nzero⟩ : Itv)]))),
    .call ((Cmd.run (.op [(⟨.nzero, (f 0 0)⟩ : Itv)]))),
    .call ((Cmd.run (.op [(⟨(f 0 0), .nzero⟩ : Itv)]))),
    .call ((Cmd.run (.op [(⟨(f 5 0), (f (6501171) (-19))⟩ : Itv)]))),
    .call ((Cmd.run (.op [(⟨(f 5 0), (f (6501171) (-19))⟩ : Itv)]))),
    .call ((Cmd.run (.op [(⟨.ninf, .pinf⟩ : Itv)]))),
    .call ((Cmd.run (.op [(⟨.ninf, .pinf⟩ : Itv)]))),
    .call ((Cmd.run (.op [(⟨.ninf, .pinf⟩ : Itv)]))),
    .call ((Cmd.run (.op [(⟨.ninf, .pinf⟩ : Itv)]))),
    .call ((Cmd.run (.op [(⟨.ninf, .pinf⟩ : Itv)]))),
    .call ((Cmd.run (.op [(⟨.ninf, .pinf⟩ : Itv)]))),
    .call ((Cmd.run (.op [(⟨.ninf, .pinf⟩ : Itv)]))),
    .call ((Cmd.run (.op [(⟨.ninf, .pinf⟩ : Itv)]))),
    .call ((Cmd.run (.op [(⟨(f 5 0), (f (6501171) (-19))⟩ : Itv)]))),
    .call ((Cmd.run (.op [(⟨(f (-27) (0)), (f 0 0)⟩ : Itv)]))),
    .call ((Cmd.run (.op [(⟨(f (-27) (0)), (f 0 0)⟩ : Itv)]))),
    .call ((Cmd.run (.op [(⟨(f 0 0), (f 0 0)⟩ : Itv)]))),
    .call ((Cmd.run (.op [(⟨(f 0 0), (f 0 0)⟩ : Itv)]))),
    .call ((Cmd.run (.op [(⟨.nzero, .nzero⟩ : Itv)]))),
    .call ((Cmd.run (.op [(⟨(f 5 0), (f (6980579422424269) (-49))⟩ : Itv)]))),
    .call ((Cmd.run (.op [(⟨(f 5 0), (f (6980579422424269) (-49))⟩ : Itv)]))),
    .call ((Cmd.run (.op [(⟨.nan, .nan⟩ : Itv)]))),
    .call ((Cmd.run (.op [(⟨.nan, .nan⟩ : Itv)]))),
    .call ((Cmd.run (.op [(⟨.nan, .nan⟩ : Itv)]))),
    .call ((Cmd.run (.op [(⟨.nan, .nan⟩ : Itv)]))),
    .call ((Cmd.run (.op [(⟨.nan, .nan⟩ : Itv)]))),
    .call ((Cmd.run (.op [(⟨.ninf, .pinf⟩ : Itv)]))),
    .call ((Cmd.run (.op [(⟨.ninf, .pinf⟩ : Itv)]))),
    .call ((Cmd.run (.op [(⟨.ninf, .pinf⟩ : Itv)]))),
    .state 352 [],
    .call clearFlags,
    .call ((Cmd.run (.op [(⟨(f 27 0), (f 0 0)⟩ : Itv)]))),
    .state 356 [.invalidOperand],
    .call clearFlags,
    .call (setCwd (bitsOf [.invalidOperand])),
    .throws 359 ((Cmd.run (.op [(⟨(f 27 0), (f (-20) (0))⟩ : Itv)]))) .invalidOperand,
    .state 360 [.invalidOperand],
    .call clearFlags,
    .call (setCwd (bitsOf []))] ExSt.init = [] := by
  decide +kernel

/-- `minimal_mixedtype_is_member_dec_test` -/
example : failed [
    .call clearFlags,
    .call ((Cmd.run (.opD [(⟨⟨(f (-27) (0)), (f (-27) (0))⟩, .trv⟩ : DItv)]))),
    .call ((Cmd.run (.opD [(⟨⟨(f (-27) (0)), (f 0 0)⟩, .defd⟩ : DItv)]))),
    .call ((Cmd.run (.opD [(⟨⟨(f (-27) (0)), (f 0 0)⟩, .dac⟩ : DItv)]))),
    .call ((Cmd.run (.opD [(⟨⟨(f (-27) (0)), (f 0 0)⟩, .com⟩ : DItv)]))),
    .call ((Cmd.run (.opD [(⟨⟨(f 0 0), (f 0 0)⟩, .trv⟩ : DItv)]))),
    .call ((Cmd.run (.opD [(⟨⟨(f 0 0), (f 0 0)⟩, .defd⟩ : DItv)]))),
    .call ((Cmd.run (.opD [(⟨⟨.nzero, .nzero⟩, .dac⟩ : DItv)]))),
    .call ((Cmd.run (.opD [(⟨⟨.nzero, (f 0 0)⟩, .com⟩ : DItv)]))),
    .call ((Cmd.run (.opD [(⟨⟨(f 0 0), .nzero⟩, .trv⟩ : DItv)]))),
    .call ((Cmd.run (.opD [(⟨⟨(f 5 0), (f (6501171) (-19))⟩, .defd⟩ : DItv)]))),
    .call ((Cmd.run (.opD [(⟨⟨(f 5 0), (f (6501171) (-19))⟩, .dac⟩ : DItv)]))),
    .call ((Cmd.run (.opD [(⟨⟨.ninf, .pinf⟩, .trv⟩ : DItv)]))),
    .call ((Cmd.run (.opD [(⟨⟨.ninf, .pinf⟩, .defd⟩ : DItv)]))),
    .call ((Cmd.run (.opD [(⟨⟨.ninf, .pinf⟩, .dac⟩ : DItv)]))),
    .call ((Cmd.run (.opD [(⟨⟨.ninf, .pinf⟩, .trv⟩ : DItv)]))),
    .call ((Cmd.run (.opD [(⟨⟨.ninf, .pinf⟩, .defd⟩ : DItv)]))),
    .call ((Cmd.run (.opD [(⟨⟨.ninf, .pinf⟩, .dac⟩ : DItv)]))),
    .call ((Cmd.run (.opD [(⟨⟨.ninf, .pinf⟩, .trv⟩ : DItv)]))),
    .call ((Cmd.run (.opD [(⟨⟨.ninf, .pinf⟩, .defd⟩ : DItv)]))),
    .call ((Cmd.run (.opD [(⟨⟨(f 5 0), (f (6501171) (-19))⟩, .trv⟩ : DItv)]))),
    .call ((Cmd.run (.opD [(⟨⟨(f (-27) (0)), (f 0 0)⟩, .defd⟩ : DItv)]))),
    .call ((Cmd.run (.opD [(⟨⟨(f (-27) (0)), (f 0 0)⟩, .dac⟩ : DItv)]))),
    .call ((Cmd.run (.opD [(⟨⟨(f 0 0), (f 0 0)⟩, .com⟩ : DItv)]))),
    .call ((Cmd.run (.opD [(⟨⟨(f 0 0), (f 0 0)⟩, .trv⟩ : DItv)]))),
    .call ((Cmd.run (.opD [(⟨⟨.nzero, .nzero⟩, .defd⟩ : DItv)]))),
    .call ((Cmd.run (.opD [(⟨⟨(f 5 0), (f (6980579422424269) (-49))⟩, .dac⟩ : DItv)]))),
    .call ((Cmd.run (.opD [(⟨⟨(f 5 0), (f (6980579422424269) (-49))⟩, .com⟩ : DItv)]))),
    .call ((Cmd.run (.opD [(⟨⟨.nan, .nan⟩, .trv⟩ : DItv)]))),
    .call ((Cmd.run (.opD [(⟨⟨.nan, .nan⟩, .ill⟩ : DItv)]))),
    .call ((Cmd.run (.opD [(⟨⟨.nan, .nan⟩, .trv⟩ : DItv)]))),
    .call ((Cmd.run (.opD [(⟨⟨.nan, .nan⟩, .ill⟩ : DItv)]))),
    .call ((Cmd.run (.opD [(⟨⟨.nan, .nan⟩, .trv⟩ : DItv)]))),
    .call ((Cmd.run (.opD [(⟨⟨.nan, .nan⟩, .ill⟩ : DItv)]))),
    .call ((Cmd.run (.opD [(⟨⟨.nan, .nan⟩, .trv⟩ : DItv)]))),
    .call ((Cmd.run (.opD [(⟨⟨.nan, .nan⟩, .ill⟩ : DItv)]))),
    .call ((Cmd.run (.opD [(⟨⟨.nan, .nan⟩, .trv⟩ : DItv)]))),
    .call ((Cmd.run (.opD [(⟨⟨.nan, .nan⟩, .ill⟩ : DItv)]))),
    .call ((Cmd.run (.opD [(⟨⟨.ninf, .pinf⟩, .trv⟩ : DItv)]))),
    .call ((Cmd.run (.opD [(⟨⟨.ninf, .pinf⟩, .defd⟩ : DItv)]))),
    .call ((Cmd.run (.opD [(⟨⟨.ninf, .pinf⟩, .dac⟩ : DItv)]))),
    .state 411 [],
    .call clearFlags,
    .call ((Cmd.run (.opD [(⟨⟨(f (-27) (0)), (f 0 0)⟩, .ill⟩ : DItv)]))),
    .state 415 [.invalidOperand],
    .call clearFlags,
    .call (setCwd (bitsOf [.invalidOperand])),
    .throws 418 ((Cmd.run (.opD [(⟨⟨(f 27 0), (f 0 0)⟩, .trv⟩ : DItv)]))) .invalidOperand,
    .state 419 [.invalidOperand],
    .call clearFlags,
    .call (setCwd (bitsOf []))] ExSt.init = [] := by
  decide +kernel

end P1788.Conform
