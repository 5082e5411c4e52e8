import Verif.Conform.Basic

/-!
# Conformance: validation_func, exceptions

Generated from `/repo/test/p1788/flavor/infsup/setbased/test_mpfr_bin_ieee754_flavor_validation_func.cpp`: the assertions of the project's own test suite, evaluated in the
model by the kernel.  Each test case is the list of its calls and of its
assertions, with their lines, about the exception flags and about thrown exceptions.  These are tests of the model, not proofs of
properties.
-/

set_option maxRecDepth 100000

namespace P1788.Conform

/-- `minimal_is_valid_test` -/
example : failed [
    .call clearFlags,
    .call ((Cmd.run (.op [(⟨.nan, .nan⟩ : Itv)]))),
    .call ((Cmd.run (.op [(⟨.ninf, (f (-9007199254740991) (971))⟩ : Itv)]))),
    .call ((Cmd.run (.op [(⟨.ninf, (f (-1) (0))⟩ : Itv)]))),
    .call ((Cmd.run (.op [(⟨.ninf, (f 0 0)⟩ : Itv)]))),
    .call ((Cmd.run (.op [(⟨.ninf, (f 1 0)⟩ : Itv)]))),
    .call ((Cmd.run (.op [(⟨.ninf, (f 9007199254740991 971)⟩ : Itv)]))),
    .call ((Cmd.run (.op [(⟨.ninf, .pinf⟩ : Itv)]))),
    .call ((Cmd.run (.op [(⟨(f (-9007199254740991) (971)), (f (-1) (0))⟩ : Itv)]))),
    .call ((Cmd.run (.op [(⟨(f (-9007199254740991) (971)), (f 0 0)⟩ : Itv)]))),
    .call ((Cmd.run (.op [(⟨(f (-9007199254740991) (971)), (f 1 0)⟩ : Itv)]))),
    .call ((Cmd.run (.op [(⟨(f (-9007199254740991) (971)), (f 9007199254740991 971)⟩ : Itv)]))),
    .call ((Cmd.run (.op [(⟨(f (-9007199254740991) (971)), .pinf⟩ : Itv)]))),
    .call ((Cmd.run (.op [(⟨(f (-1) (0)), (f (-1) (0))⟩ : Itv)]))),
    .call ((Cmd.run (.op [(⟨(f (-1) (0)), (f 0 0)⟩ : Itv)]))),
    .call ((Cmd.run (.op [(⟨(f (-1) (0)), (f 1 0)⟩ : Itv)]))),
    .call ((Cmd.run (.op [(⟨(f (-1) (0)), (f 9007199254740991 971)⟩ : Itv)]))),
    .call ((Cmd.run (.op [(⟨(f (-1) (0)), .pinf⟩ : Itv)]))),
    .call ((Cmd.run (.op [(⟨(f 0 0), (f 0 0)⟩ : Itv)]))),
    .call ((Cmd.run (.op [(⟨.nzero, .nzero⟩ : Itv)]))),
    .call ((Cmd.run (.op [(⟨(f 0 0), .nzero⟩ : Itv)]))),
    .call ((Cmd.run (.op [(⟨.nzero, (f 0 0)⟩ : Itv)]))),
    .call ((Cmd.run (.op [(⟨(f 0 0), (f 1 0)⟩ : Itv)]))),
    .call ((Cmd.run (.op [(⟨(f 0 0), (f 9007199254740991 971)⟩ : Itv)]))),
    .call ((Cmd.run (.op [(⟨(f 0 0), .pinf⟩ : Itv)]))),
    .call ((Cmd.run (.op [(⟨(f 1 0), (f 1 0)⟩ : Itv)]))),
    .call ((Cmd.run (.op [(⟨(f 1 0), (f 9007199254740991 971)⟩ : Itv)]))),
    .call ((Cmd.run (.op [(⟨(f 1 0), .pinf⟩ : Itv)]))),
    .call ((Cmd.run (.op [(⟨(f 9007199254740991 971), (f 9007199254740991 971)⟩ : Itv)]))),
    .call ((Cmd.run (.op [(⟨(f 9007199254740991 971), .pinf⟩ : Itv)]))),
    .call ((Cmd.run (.op [(⟨.ninf, .ninf⟩ : Itv)]))),
    .call clearFlags,
    .call ((Cmd.run (.op [(⟨(f (-1) (0)), (f (-3) (0))⟩ : Itv)]))),
    .call clearFlags,
    .call ((Cmd.run (.op [(⟨(f 0 0), (f (-3) (0))⟩ : Itv)]))),
    .call clearFlags,
    .call ((Cmd.run (.op [(⟨(f 1 0), (f (-3) (0))⟩ : Itv)]))),
    .call clearFlags,
    .call ((Cmd.run (.op [(⟨.pinf, .pinf⟩ : Itv)]))),
    .call clearFlags,
    .call ((Cmd.run (.op [(⟨.nan, .ninf⟩ : Itv)]))),
    .call clearFlags,
    .call ((Cmd.run (.op [(⟨.nan, (f (-3) (0))⟩ : Itv)]))),
    .call clearFlags,
    .call ((Cmd.run (.op [(⟨.nan, (f (-3) (0))⟩ : Itv)]))),
    .call clearFlags,
    .call ((Cmd.run (.op [(⟨.nan, (f (-3) (0))⟩ : Itv)]))),
    .call clearFlags,
    .call ((Cmd.run (.op [(⟨.nan, .pinf⟩ : Itv)]))),
    .call clearFlags,
    .call ((Cmd.run (.op [(⟨.ninf, .nan⟩ : Itv)]))),
    .call clearFlags,
    .call ((Cmd.run (.op [(⟨(f (-1) (0)), .nan⟩ : Itv)]))),
    .call clearFlags,
    .call ((Cmd.run (.op [(⟨(f 0 0), .nan⟩ : Itv)]))),
    .call clearFlags,
    .call ((Cmd.run (.op [(⟨(f 1 0), .nan⟩ : Itv)]))),
    .call clearFlags,
    .call ((Cmd.run (.op [(⟨.pinf, .nan⟩ : Itv)]))),
    .call clearFlags,
    .call (setCwd (bitsOf [.invalidOperand])),
    .throws 155 ((Cmd.run (.op [(⟨.ninf, .ninf⟩ : Itv)]))) .invalidOperand,
    .call clearFlags,
    .call (setCwd (bitsOf []))] ExSt.init = [] := by
  decide +kernel

/-- `minimal_is_valid_dec_test` -/
example : failed [
    .call clearFlags,
    .call ((Cmd.run (.opD [(⟨⟨.nan, .nan⟩, .ill⟩ : DItv)]))),
    .call ((Cmd.run (.opD [(⟨⟨.nan, .nan⟩, .trv⟩ : DItv)]))),
    .call ((Cmd.run (.opD [(⟨⟨.ninf, (f (-9007199254740991) (971))⟩, .trv⟩ : DItv)]))),
    .call ((Cmd.run (.opD [(⟨⟨.ninf, (f (-9007199254740991) (971))⟩, .defd⟩ : DItv)]))),
    .call ((Cmd.run (.opD [(⟨⟨.ninf, (f (-9007199254740991) (971))⟩, .dac⟩ : DItv)]))),
    .call ((Cmd.run (.opD [(⟨⟨.ninf, (f (-1) (0))⟩, .trv⟩ : DItv)]))),
    .call ((Cmd.run (.opD [(⟨⟨.ninf, (f (-1) (0))⟩, .defd⟩ : DItv)]))),
    .call ((Cmd.run (.opD [(⟨⟨.ninf, (f (-1) (0))⟩, .dac⟩ : DItv)]))),
    .call ((Cmd.run (.opD [(⟨⟨.ninf, (f 0 0)⟩, .trv⟩ : DItv)]))),
    .call ((Cmd.run (.opD [(⟨⟨.ninf, (f 0 0)⟩, .defd⟩ : DItv)]))),
    .call ((Cmd.run (.opD [(⟨⟨.ninf, (f 0 0)⟩, .dac⟩ : DItv)]))),
    .call ((Cmd.run (.opD [(⟨⟨.ninf, (f 1 0)⟩, .trv⟩ : DItv)]))),
    .call ((Cmd.run (.opD [(⟨⟨.ninf, (f 1 0)⟩, .defd⟩ : DItv)]))),
    .call ((Cmd.run (.opD [(⟨⟨.ninf, (f 1 0)⟩, .dac⟩ : DItv)]))),
    .call ((Cmd.run (.opD [(⟨⟨.ninf, (f 9007199254740991 971)⟩, .trv⟩ : DItv)]))),
    .call ((Cmd.run (.opD [(⟨⟨.ninf, (f 9007199254740991 971)⟩, .defd⟩ : DItv)]))),
    .call ((Cmd.run (.opD [(⟨⟨.ninf, (f 9007199254740991 971)⟩, .dac⟩ : DItv)]))),
    .call ((Cmd.run (.opD [(⟨⟨.ninf, .pinf⟩, .trv⟩ : DItv)]))),
    .call ((Cmd.run (.opD [(⟨⟨.ninf, .pinf⟩, .defd⟩ : DItv)]))),
    .call ((Cmd.run (.opD [(⟨⟨.ninf, .pinf⟩, .dac⟩ : DItv)]))),
    .call ((Cmd.run (.opD [(⟨⟨(f (-9007199254740991) (971)), (f (-1) (0))⟩, .trv⟩ : DItv)]))),
    .call ((Cmd.run (.opD [(⟨⟨(f (-9007199254740991) (971)), (f (-1) (0))⟩, .defd⟩ : DItv)]))),
    .call ((Cmd.run (.opD [(⟨⟨(f (-9007199254740991) (971)), (f (-1) (0))⟩, .dac⟩ : DItv)]))),
    .call ((Cmd.run (.opD [(⟨⟨(f (-9007199254740991) (971)), (f (-1) (0))⟩, .com⟩ : DItv)]))),
    .call ((Cmd.run (.opD [(⟨⟨(f (-9007199254740991) (971)), (f 0 0)⟩, .trv⟩ : DItv)]))),
    .call ((Cmd.run (.opD [(⟨⟨(f (-9007199254740991) (971)), (f 0 0)⟩, .defd⟩ : DItv)]))),
    .call ((Cmd.run (.opD [(⟨⟨(f (-9007199254740991) (971)), (f 0 0)⟩, .dac⟩ : DItv)]))),
    .call ((Cmd.run (.opD [(⟨⟨(f (-9007199254740991) (971)), (f 0 0)⟩, .com⟩ : DItv)]))),
    .call ((Cmd.run (.opD [(⟨⟨(f (-9007199254740991) (971)), (f 1 0)⟩, .trv⟩ : DItv)]))),
    .call ((Cmd.run (.opD [(⟨⟨(f (-9007199254740991) (971)), (f 1 0)⟩, .defd⟩ : DItv)]))),
    .call ((Cmd.run (.opD [(⟨⟨(f (-9007199254740991) (971)), (f 1 0)⟩, .dac⟩ : DItv)]))),
    .call ((Cmd.run (.opD [(⟨⟨(f (-9007199254740991) (971)), (f 1 0)⟩, .com⟩ : DItv)]))),
    .call ((Cmd.run (.opD [(⟨⟨(f (-9007199254740991) (971)), (f 9007199254740991 971)⟩, .trv⟩ : DItv)]))),
    .call ((Cmd.run (.opD [(⟨⟨(f (-9007199254740991) (971)), (f 9007199254740991 971)⟩, .defd⟩ : DItv)]))),
    .call ((Cmd.run (.opD [(⟨⟨(f (-9007199254740991) (971)), (f 9007199254740991 971)⟩, .dac⟩ : DItv)]))),
    .call ((Cmd.run (.opD [(⟨⟨(f (-9007199254740991) (971)), (f 9007199254740991 971)⟩, .com⟩ : DItv)]))),
    .call ((Cmd.run (.opD [(⟨⟨(f (-9007199254740991) (971)), .pinf⟩, .trv⟩ : DItv)]))),
    .call ((Cmd.run (.opD [(⟨⟨(f (-9007199254740991) (971)), .pinf⟩, .defd⟩ : DItv)]))),
    .call ((Cmd.run (.opD [(⟨⟨(f (-9007199254740991) (971)), .pinf⟩, .dac⟩ : DItv)]))),
    .call ((Cmd.run (.opD [(⟨⟨(f (-1) (0)), (f (-1) (0))⟩, .trv⟩ : DItv)]))),
    .call ((Cmd.run (.opD [(⟨⟨(f (-1) (0)), (f (-1) (0))⟩, .defd⟩ : DItv)]))),
    .call ((Cmd.run (.opD [(⟨⟨(f (-1) (0)), (f (-1) (0))⟩, .dac⟩ : DItv)]))),
    .call ((Cmd.run (.opD [(⟨⟨(f (-1) (0)), (f (-1) (0))⟩, .com⟩ : DItv)]))),
    .call ((Cmd.run (.opD [(⟨⟨(f (-1) (0)), (f 0 0)⟩, .trv⟩ : DItv)]))),
    .call ((Cmd.run (.opD [(⟨⟨(f (-1) (0)), (f 0 0)⟩, .defd⟩ : DItv)]))),
    .call ((Cmd.run (.opD [(⟨⟨(f (-1) (0)), (f 0 0)⟩, .dac⟩ : DItv)]))),
    .call ((Cmd.run (.opD [(⟨⟨(f (-1) (0)), (f 0 0)⟩, .com⟩ : DItv)]))),
    .call ((Cmd.run (.opD [(⟨⟨(f (-1) (0)), (f 1 0)⟩, .trv⟩ : DItv)]))),
    .call ((Cmd.run (.opD [(⟨⟨(f (-1) (0)), (f 1 0)⟩, .defd⟩ : DItv)]))),
    .call ((Cmd.run (.opD [(⟨⟨(f (-1) (0)), (f 1 0)⟩, .dac⟩ : DItv)]))),
    .call ((Cmd.run (.opD [(⟨⟨(f (-1) (0)), (f 1 0)⟩, .com⟩ : DItv)]))),
    .call ((Cmd.run (.opD [(⟨⟨(f (-1) (0)), (f 9007199254740991 971)⟩, .trv⟩ : DItv)]))),
    .call ((Cmd.run (.opD [(⟨⟨(f (-1) (0)), (f 9007199254740991 971)⟩, .defd⟩ : DItv)]))),
    .call ((Cmd.run (.opD [(⟨⟨(f (-1) (0)), (f 9007199254740991 971)⟩, .dac⟩ : DItv)]))),
    .call ((Cmd.run (.opD [(⟨⟨(f (-1) (0)), (f 9007199254740991 971)⟩, .com⟩ : DItv)]))),
    .call ((Cmd.run (.opD [(⟨⟨(f (-1) (0)), .pinf⟩, .trv⟩ : DItv)]))),
    .call ((Cmd.run (.opD [(⟨⟨(f (-1) (0)), .pinf⟩, .dac⟩ : DItv)]))),
    .call ((Cmd.run (.opD [(⟨⟨(f 0 0), (f 0 0)⟩, .trv⟩ : DItv)]))),
    .call ((Cmd.run (.opD [(⟨⟨(f 0 0), (f 0 0)⟩, .defd⟩ : DItv)]))),
    .call ((Cmd.run (.opD [(⟨⟨(f 0 0), (f 0 0)⟩, .dac⟩ : DItv)]))),
    .call ((Cmd.run (.opD [(⟨⟨(f 0 0), (f 0 0)⟩, .com⟩ : DItv)]))),
    .call ((Cmd.run (.opD [(⟨⟨.nzero, .nzero⟩, .trv⟩ : DItv)]))),
    .call ((Cmd.run (.opD [(⟨⟨.nzero, .nzero⟩, .defd⟩ : DItv)]))),
    .call ((Cmd.run (.opD [(⟨⟨.nzero, .nzero⟩, .dac⟩ : DItv)]))),
    .call ((Cmd.run (.opD [(⟨⟨.nzero, .nzero⟩, .com⟩ : DItv)]))),
    .call ((Cmd.run (.opD [(⟨⟨(f 0 0), .nzero⟩, .trv⟩ : DItv)]))),
    .call ((Cmd.run (.opD [(⟨⟨(f 0 0), .nzero⟩, .defd⟩ : DItv)]))),
    .call ((Cmd.run (.opD [(⟨⟨(f 0 0), .nzero⟩, .dac⟩ : DItv)]))),
    .call ((Cmd.run (.opD [(⟨⟨(f 0 0), .nzero⟩, .com⟩ : DItv)]))),
    .call ((Cmd.run (.opD [(⟨⟨.nzero, (f 0 0)⟩, .trv⟩ : DItv)]))),
    .call ((Cmd.run (.opD [(⟨⟨.nzero, (f 0 0)⟩, .defd⟩ : DItv)]))),
    .call ((Cmd.run (.opD [(⟨⟨.nzero, (f 0 0)⟩, .dac⟩ : DItv)]))),
    .call ((Cmd.run (.opD [(⟨⟨.nzero, (f 0 0)⟩, .com⟩ : DItv)]))),
    .call ((Cmd.run (.opD [(⟨⟨(f 0 0), (f 1 0)⟩, .trv⟩ : DItv)]))),
    .call ((Cmd.run (.opD [(⟨⟨(f 0 0), (f 1 0)⟩, .defd⟩ : DItv)]))),
    .call ((Cmd.run (.opD [(⟨⟨(f 0 0), (f 1 0)⟩, .dac⟩ : DItv)]))),
    .call ((Cmd.run (.opD [(⟨⟨(f 0 0), (f 1 0)⟩, .com⟩ : DItv)]))),
    .call ((Cmd.run (.opD [(⟨⟨(f 0 0), (f 9007199254740991 971)⟩, .trv⟩ : DItv)]))),
    .call ((Cmd.run (.opD [(⟨⟨(f 0 0), (f 9007199254740991 971)⟩, .defd⟩ : DItv)]))),
    .call ((Cmd.run (.opD [(⟨⟨(f 0 0), (f 9007199254740991 971)⟩, .dac⟩ : DItv)]))),
    .call ((Cmd.run (.opD [(⟨⟨(f 0 0), (f 9007199254740991 971)⟩, .com⟩ : DItv)]))),
    .call ((Cmd.run (.opD [(⟨⟨(f 0 0), .pinf⟩, .trv⟩ : DItv)]))),
    .call ((Cmd.run (.opD [(⟨⟨(f 0 0), .pinf⟩, .defd⟩ : DItv)]))),
    .call ((Cmd.run (.opD [(⟨⟨(f 0 0), .pinf⟩, .dac⟩ : DItv)]))),
    .call ((Cmd.run (.opD [(⟨⟨(f 1 0), (f 1 0)⟩, .trv⟩ : DItv)]))),
    .call ((Cmd.run (.opD [(⟨⟨(f 1 0), (f 1 0)⟩, .defd⟩ : DItv)]))),
    .call ((Cmd.run (.opD [(⟨⟨(f 1 0), (f 1 0)⟩, .dac⟩ : DItv)]))),
    .call ((Cmd.run (.opD [(⟨⟨(f 1 0), (f 1 0)⟩, .com⟩ : DItv)]))),
    .call ((Cmd.run (.opD [(⟨⟨(f 1 0), (f 9007199254740991 971)⟩, .trv⟩ : DItv)]))),
    .call ((Cmd.run (.opD [(⟨⟨(f 1 0), (f 9007199254740991 971)⟩, .defd⟩ : DItv)]))),
    .call ((Cmd.run (.opD [(⟨⟨(f 1 0), (f 9007199254740991 971)⟩, .dac⟩ : DItv)]))),
    .call ((Cmd.run (.opD [(⟨⟨(f 1 0), (f 9007199254740991 971)⟩, .com⟩ : DItv)]))),
    .call ((Cmd.run (.opD [(⟨⟨(f 1 0), .pinf⟩, .trv⟩ : DItv)]))),
    .call ((Cmd.run (.opD [(⟨⟨(f 1 0), .pinf⟩, .defd⟩ : DItv)]))),
    .call ((Cmd.run (.opD [(⟨⟨(f 1 0), .pinf⟩, .dac⟩ : DItv)]))),
    .call ((Cmd.run (.opD [(⟨⟨(f 9007199254740991 971), (f 9007199254740991 971)⟩, .trv⟩ : DItv)]))),
    .call ((Cmd.run (.opD [(⟨⟨(f 9007199254740991 971), (f 9007199254740991 971)⟩, .defd⟩ : DItv)]))),
    .call ((Cmd.run (.opD [(⟨⟨(f 9007199254740991 971), (f 9007199254740991 971)⟩, .dac⟩ : DItv)]))),
    .call ((Cmd.run (.opD [(⟨⟨(f 9007199254740991 971), (f 9007199254740991 971)⟩, .com⟩ : DItv)]))),
    .call ((Cmd.run (.opD [(⟨⟨(f 9007199254740991 971), .pinf⟩, .trv⟩ : DItv)]))),
    .call ((Cmd.run (.opD [(⟨⟨(f 9007199254740991 971), .pinf⟩, .defd⟩ : DItv)]))),
    .call ((Cmd.run (.opD [(⟨⟨(f 9007199254740991 971), .pinf⟩, .dac⟩ : DItv)]))),
    .call ((Cmd.run (.opD [(⟨⟨.nan, .nan⟩, .defd⟩ : DItv)]))),
    .call clearFlags,
    .call ((Cmd.run (.opD [(⟨⟨.nan, .nan⟩, .dac⟩ : DItv)]))),
    .call clearFlags,
    .call ((Cmd.run (.opD [(⟨⟨.nan, .nan⟩, .com⟩ : DItv)]))),
    .call clearFlags,
    .call ((Cmd.run (.opD [(⟨⟨.ninf, (f (-9007199254740991) (971))⟩, .ill⟩ : DItv)]))),
    .call clearFlags,
    .call ((Cmd.run (.opD [(⟨⟨.ninf, (f (-9007199254740991) (971))⟩, .com⟩ : DItv)]))),
    .call clearFlags,
    .call ((Cmd.run (.opD [(⟨⟨.ninf, (f (-1) (0))⟩, .ill⟩ : DItv)]))),
    .call clearFlags,
    .call ((Cmd.run (.opD [(⟨⟨.ninf, (f (-1) (0))⟩, .com⟩ : DItv)]))),
    .call clearFlags,
    .call ((Cmd.run (.opD [(⟨⟨.ninf, (f 0 0)⟩, .ill⟩ : DItv)]))),
    .call clearFlags,
    .call ((Cmd.run (.opD [(⟨⟨.ninf, (f 0 0)⟩, .com⟩ : DItv)]))),
    .call clearFlags,
    .call ((Cmd.run (.opD [(⟨⟨.ninf, (f 1 0)⟩, .ill⟩ : DItv)]))),
    .call clearFlags,
    .call ((Cmd.run (.opD [(⟨⟨.ninf, (f 1 0)⟩, .com⟩ : DItv)]))),
    .call clearFlags,
    .call ((Cmd.run (.opD [(⟨⟨.ninf, (f 9007199254740991 971)⟩, .ill⟩ : DItv)]))),
    .call clearFlags,
    .call ((Cmd.run (.opD [(⟨⟨.ninf, (f 9007199254740991 971)⟩, .com⟩ : DItv)]))),
    .call clearFlags,
    .call ((Cmd.run (.opD [(⟨⟨.ninf, .pinf⟩, .ill⟩ : DItv)]))),
    .call clearFlags,
    .call ((Cmd.run (.opD [(⟨⟨.ninf, .pinf⟩, .com⟩ : DItv)]))),
    .call clearFlags,
    .call ((Cmd.run (.opD [(⟨⟨(f (-9007199254740991) (971)), (f (-1) (0))⟩, .ill⟩ : DItv)]))),
    .call clearFlags,
    .call ((Cmd.run (.opD [(⟨⟨(f (-9007199254740991) (971)), (f 0 0)⟩, .ill⟩ : DItv)]))),
    .call clearFlags,
    .call ((Cmd.run (.opD [(⟨⟨(f (-9007199254740991) (971)), (f 1 0)⟩, .ill⟩ : DItv)]))),
    .call clearFlags,
    .call ((Cmd.run (.opD [(⟨⟨(f (-9007199254740991) (971)), (f 9007199254740991 971)⟩, .ill⟩ : DItv)]))),
    .call clearFlags,
    .call ((Cmd.run (.opD [(⟨⟨(f (-9007199254740991) (971)), .pinf⟩, .ill⟩ : DItv)]))),
    .call clearFlags,
    .call ((Cmd.run (.opD [(⟨⟨(f (-9007199254740991) (971)), .pinf⟩, .com⟩ : DItv)]))),
    .call clearFlags,
    .call ((Cmd.run (.opD [(⟨⟨(f (-1) (0)), (f (-1) (0))⟩, .ill⟩ : DItv)]))),
    .call clearFlags,
    .call ((Cmd.run (.opD [(⟨⟨(f (-1) (0)), (f 0 0)⟩, .ill⟩ : DItv)]))),
    .call clearFlags,
    .call ((Cmd.run (.opD [(⟨⟨(f (-1) (0)), (f 1 0)⟩, .ill⟩ : DItv)]))),
    .call clearFlags,
    .call ((Cmd.run (.opD [(⟨⟨(f (-1) (0)), (f 9007199254740991 971)⟩, .ill⟩ : DItv)]))),
    .call clearFlags,
    .call ((Cmd.run (.opD [(⟨⟨(f (-1) (0)), .pinf⟩, .ill⟩ : DItv)]))),
    .call clearFlags,
    .call ((Cmd.run (.opD [(⟨⟨(f (-1) (0)), .pinf⟩, .com⟩ : DItv)]))),
    .call clearFlags,
    .call ((Cmd.run (.opD [(⟨⟨(f 0 0), (f 0 0)⟩, .ill⟩ : DItv)]))),
    .call clearFlags,
    .call ((Cmd.run (.opD [(⟨⟨.nzero, .nzero⟩, .ill⟩ : DItv)]))),
    .call clearFlags,
    .call ((Cmd.run (.opD [(⟨⟨(f 0 0), .nzero⟩, .ill⟩ : DItv)]))),
    .call clearFlags,
    .call ((Cmd.run (.opD [(⟨⟨.nzero, (f 0 0)⟩, .ill⟩ : DItv)]))),
    .call clearFlags,
    .call ((Cmd.run (.opD [(⟨⟨(f 0 0), (f 1 0)⟩, .ill⟩ : DItv)]))),
    .call clearFlags,
    .call ((Cmd.run (.opD [(⟨⟨(f 0 0), (f 9007199254740991 971)⟩, .ill⟩ : DItv)]))),
    .call clearFlags,
    .call ((Cmd.run (.opD [(⟨⟨(f 0 0), .pinf⟩, .ill⟩ : DItv)]))),
    .call clearFlags,
    .call ((Cmd.run (.opD [(⟨⟨(f 0 0), .pinf⟩, .com⟩ : DItv)]))),
    .call clearFlags,
    .call ((Cmd.run (.opD [(⟨⟨(f 1 0), (f 1 0)⟩, .ill⟩ : DItv)]))),
    .call clearFlags,
    .call ((Cmd.run (.opD [(⟨⟨(f 1 0), (f 9007199254740991 971)⟩, .ill⟩ : DItv)]))),
    .call clearFlags,
    .call ((Cmd.run (.opD [(⟨⟨(f 1 0), .pinf⟩, .ill⟩ : DItv)]))),
    .call clearFlags,
    .call ((Cmd.run (.opD [(⟨⟨(f 1 0), .pinf⟩, .com⟩ : DItv)]))),
    .call clearFlags,
    .call ((Cmd.run (.opD [(⟨⟨(f 9007199254740991 971), (f 9007199254740991 971)⟩, .ill⟩ : DItv)]))),
    .call clearFlags,
    .call ((Cmd.run (.opD [(⟨⟨(f 9007199254740991 971), .pinf⟩, .ill⟩ : DItv)]))),
    .call clearFlags,
    .call ((Cmd.run (.opD [(⟨⟨(f 9007199254740991 971), .pinf⟩, .com⟩ : DItv)]))),
    .call clearFlags,
    .call ((Cmd.run (.opD [(⟨⟨.ninf, .ninf⟩, .trv⟩ : DItv)]))),
    .call clearFlags,
    .call ((Cmd.run (.opD [(⟨⟨(f (-1) (0)), (f (-3) (0))⟩, .ill⟩ : DItv)]))),
    .call clearFlags,
    .call ((Cmd.run (.opD [(⟨⟨(f 0 0), (f (-3) (0))⟩, .defd⟩ : DItv)]))),
    .call clearFlags,
    .call ((Cmd.run (.opD [(⟨⟨(f 1 0), (f (-3) (0))⟩, .com⟩ : DItv)]))),
    .call clearFlags,
    .call ((Cmd.run (.opD [(⟨⟨.pinf, .pinf⟩, .dac⟩ : DItv)]))),
    .call clearFlags,
    .call ((Cmd.run (.opD [(⟨⟨.nan, .ninf⟩, .ill⟩ : DItv)]))),
    .call clearFlags,
    .call ((Cmd.run (.opD [(⟨⟨.nan, (f (-3) (0))⟩, .trv⟩ : DItv)]))),
    .call clearFlags,
    .call ((Cmd.run (.opD [(⟨⟨.nan, (f (-3) (0))⟩, .defd⟩ : DItv)]))),
    .call clearFlags,
    .call ((Cmd.run (.opD [(⟨⟨.nan, (f (-3) (0))⟩, .dac⟩ : DItv)]))),
    .call clearFlags,
    .call ((Cmd.run (.opD [(⟨⟨.nan, .pinf⟩, .com⟩ : DItv)]))),
    .call clearFlags,
    .call ((Cmd.run (.opD [(⟨⟨.ninf, .nan⟩, .ill⟩ : DItv)]))),
    .call clearFlags,
    .call ((Cmd.run (.opD [(⟨⟨(f (-1) (0)), .nan⟩, .defd⟩ : DItv)]))),
    .call clearFlags,
    .call ((Cmd.run (.opD [(⟨⟨(f 0 0), .nan⟩, .trv⟩ : DItv)]))),
    .call clearFlags,
    .call ((Cmd.run (.opD [(⟨⟨(f 1 0), .nan⟩, .dac⟩ : DItv)]))),
    .call clearFlags,
    .call ((Cmd.run (.opD [(⟨⟨.pinf, .nan⟩, .com⟩ : DItv)]))),
    .call clearFlags,
    .call (setCwd (bitsOf [.invalidOperand])),
    .throws 459 ((Cmd.run (.opD [(⟨⟨.pinf, .nan⟩, .com⟩ : DItv)]))) .invalidOperand,
    .call clearFlags,
    .call (setCwd (bitsOf []))] ExSt.init = [] := by
  decide +kernel

end P1788.Conform
