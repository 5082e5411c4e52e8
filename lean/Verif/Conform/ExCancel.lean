import Verif.Conform.Basic

/-!
# Conformance: cancel_func, exceptions

Generated from `/repo/test/p1788/flavor/infsup/setbased/test_mpfr_bin_ieee754_flavor_cancel_func.cpp`: the assertions of the project's own test suite, evaluated in the
model by the kernel.  Each test case is the list of its calls and of its
assertions, with their lines, about the exception flags and about thrown exceptions.  These are tests of the model, not proofs of
properties.
-/

set_option maxRecDepth 100000

namespace P1788.Conform

/-- `minimal_cancel_plus_test` -/
example : failed [
    .call ((Cmd.run (.op [(⟨.ninf, (f (-1) (0))⟩ : Itv), (Itv.empty : Itv)]))),
    .call ((Cmd.run (.op [(⟨(f (-1) (0)), .pinf⟩ : Itv), (Itv.empty : Itv)]))),
    .call ((Cmd.run (.op [(Itv.entire : Itv), (Itv.empty : Itv)]))),
    .call ((Cmd.run (.op [(⟨.ninf, (f (-1) (0))⟩ : Itv), (⟨(f (-5) (0)), (f 1 0)⟩ : Itv)]))),
    .call ((Cmd.run (.op [(⟨(f (-1) (0)), .pinf⟩ : Itv), (⟨(f (-5) (0)), (f 1 0)⟩ : Itv)]))),
    .call ((Cmd.run (.op [(Itv.entire : Itv), (⟨(f (-5) (0)), (f 1 0)⟩ : Itv)]))),
    .call ((Cmd.run (.op [(⟨.ninf, (f (-1) (0))⟩ : Itv), (Itv.entire : Itv)]))),
    .call ((Cmd.run (.op [(⟨(f (-1) (0)), .pinf⟩ : Itv), (Itv.entire : Itv)]))),
    .call ((Cmd.run (.op [(Itv.empty : Itv), (⟨(f 1 0), .pinf⟩ : Itv)]))),
    .call ((Cmd.run (.op [(Itv.empty : Itv), (⟨.ninf, (f 1 0)⟩ : Itv)]))),
    .call ((Cmd.run (.op [(Itv.empty : Itv), (Itv.entire : Itv)]))),
    .call ((Cmd.run (.op [(⟨(f (-1) (0)), (f 5 0)⟩ : Itv), (⟨(f 1 0), .pinf⟩ : Itv)]))),
    .call ((Cmd.run (.op [(⟨(f (-1) (0)), (f 5 0)⟩ : Itv), (⟨.ninf, (f 1 0)⟩ : Itv)]))),
    .call ((Cmd.run (.op [(⟨(f (-1) (0)), (f 5 0)⟩ : Itv), (Itv.entire : Itv)]))),
    .call ((Cmd.run (.op [(Itv.entire : Itv), (⟨(f 1 0), .pinf⟩ : Itv)]))),
    .call ((Cmd.run (.op [(Itv.entire : Itv), (⟨.ninf, (f 1 0)⟩ : Itv)]))),
    .call ((Cmd.run (.op [(Itv.entire : Itv), (Itv.entire : Itv)]))),
    .call ((Cmd.run (.op [(⟨(f (-5) (0)), (f (-1) (0))⟩ : Itv), (⟨(f 1 0), (f (2871044762448691) (-49))⟩ : Itv)]))),
    .call ((Cmd.run (.op [(⟨(f (-5) (0)), (f (-1) (0))⟩ : Itv), (⟨(f (8106479329266893) (-53)), (f 5 0)⟩ : Itv)]))),
    .call ((Cmd.run (.op [(⟨(f (-5) (0)), (f (-1) (0))⟩ : Itv), (⟨(f (8106479329266893) (-53)), (f (2871044762448691) (-49))⟩ : Itv)]))),
    .call ((Cmd.run (.op [(⟨(f (-10) (0)), (f 5 0)⟩ : Itv), (⟨(f (-5) (0)), (f (5685794529555251) (-49))⟩ : Itv)]))),
    .call ((Cmd.run (.op [(⟨(f (-10) (0)), (f 5 0)⟩ : Itv), (⟨(f (-2871044762448691) (-49)), (f 10 0)⟩ : Itv)]))),
    .call ((Cmd.run (.op [(⟨(f (-10) (0)), (f 5 0)⟩ : Itv), (⟨(f (-2871044762448691) (-49)), (f (5685794529555251) (-49))⟩ : Itv)]))),
    .call ((Cmd.run (.op [(⟨(f 1 0), (f 5 0)⟩ : Itv), (⟨(f (-5) (0)), (f (-8106479329266893) (-53))⟩ : Itv)]))),
    .call ((Cmd.run (.op [(⟨(f 1 0), (f 5 0)⟩ : Itv), (⟨(f (-2871044762448691) (-49)), (f (-1) (0))⟩ : Itv)]))),
    .call ((Cmd.run (.op [(⟨(f 1 0), (f 5 0)⟩ : Itv), (⟨(f (-2871044762448691) (-49)), (f (-8106479329266893) (-53))⟩ : Itv)]))),
    .call ((Cmd.run (.op [(⟨(f (-10) (0)), (f (-1) (0))⟩ : Itv), (Itv.empty : Itv)]))),
    .call ((Cmd.run (.op [(⟨(f (-10) (0)), (f 5 0)⟩ : Itv), (Itv.empty : Itv)]))),
    .call ((Cmd.run (.op [(⟨(f 1 0), (f 5 0)⟩ : Itv), (Itv.empty : Itv)]))),
    .call (do (Cmd.run (.op [(Itv.empty : Itv), (Itv.empty : Itv)])); (Cmd.run (.op [(Itv.cancelPlus binary64 (Itv.empty : Itv) (Itv.empty : Itv) : Itv)]))),
    .call (do (Cmd.run (.op [(Itv.empty : Itv), (⟨(f 1 0), (f 10 0)⟩ : Itv)])); (Cmd.run (.op [(Itv.cancelPlus binary64 (Itv.empty : Itv) (⟨(f 1 0), (f 10 0)⟩ : Itv) : Itv)]))),
    .call (do (Cmd.run (.op [(Itv.empty : Itv), (⟨(f (-5) (0)), (f 10 0)⟩ : Itv)])); (Cmd.run (.op [(Itv.cancelPlus binary64 (Itv.empty : Itv) (⟨(f (-5) (0)), (f 10 0)⟩ : Itv) : Itv)]))),
    .call (do (Cmd.run (.op [(Itv.empty : Itv), (⟨(f (-5) (0)), (f (-1) (0))⟩ : Itv)])); (Cmd.run (.op [(Itv.cancelPlus binary64 (Itv.empty : Itv) (⟨(f (-5) (0)), (f (-1) (0))⟩ : Itv) : Itv)]))),
    .call ((Cmd.run (.op [(⟨(f (-2871044762448691) (-49)), .nzero⟩ : Itv), (⟨(f 0 0), (f 5 0)⟩ : Itv)]))),
    .call ((Cmd.run (.op [(⟨(f (-2871044762448691) (-49)), (f (-1) (0))⟩ : Itv), (⟨(f 1 0), (f 5 0)⟩ : Itv)]))),
    .call ((Cmd.run (.op [(⟨(f (-5) (0)), (f (-8106479329266893) (-53))⟩ : Itv), (⟨(f 1 0), (f 5 0)⟩ : Itv)]))),
    .call ((Cmd.run (.op [(⟨(f (-2871044762448691) (-49)), (f (-8106479329266893) (-53))⟩ : Itv), (⟨(f 1 0), (f 5 0)⟩ : Itv)]))),
    .call ((Cmd.run (.op [(⟨(f (-5) (0)), (f (-1) (0))⟩ : Itv), (⟨(f 1 0), (f 5 0)⟩ : Itv)]))),
    .call ((Cmd.run (.op [(⟨(f (-5685794529555251) (-49)), (f 5 0)⟩ : Itv), (⟨(f (-5) (0)), (f 10 0)⟩ : Itv)]))),
    .call ((Cmd.run (.op [(⟨(f (-10) (0)), (f (2871044762448691) (-49))⟩ : Itv), (⟨(f (-5) (0)), (f 10 0)⟩ : Itv)]))),
    .call ((Cmd.run (.op [(⟨(f (-5685794529555251) (-49)), (f (2871044762448691) (-49))⟩ : Itv), (⟨(f (-5) (0)), (f 10 0)⟩ : Itv)]))),
    .call ((Cmd.run (.op [(⟨(f (-10) (0)), (f 5 0)⟩ : Itv), (⟨(f (-5) (0)), (f 10 0)⟩ : Itv)]))),
    .call ((Cmd.run (.op [(⟨(f (8106479329266893) (-53)), (f 5 0)⟩ : Itv), (⟨(f (-5) (0)), (f (-1) (0))⟩ : Itv)]))),
    .call ((Cmd.run (.op [(⟨(f 1 0), (f (2871044762448691) (-49))⟩ : Itv), (⟨(f (-5) (0)), (f (-1) (0))⟩ : Itv)]))),
    .call ((Cmd.run (.op [(⟨(f 0 0), (f (2871044762448691) (-49))⟩ : Itv), (⟨(f (-5) (0)), .nzero⟩ : Itv)]))),
    .call ((Cmd.run (.op [(⟨(f (8106479329266893) (-53)), (f (2871044762448691) (-49))⟩ : Itv), (⟨(f (-5) (0)), (f (-1) (0))⟩ : Itv)]))),
    .call ((Cmd.run (.op [(⟨(f 1 0), (f 5 0)⟩ : Itv), (⟨(f (-5) (0)), (f (-1) (0))⟩ : Itv)]))),
    .call ((Cmd.run (.op [(⟨(f 0 0), (f 5 0)⟩ : Itv), (⟨(f (-5) (0)), .nzero⟩ : Itv)]))),
    .call ((Cmd.run (.op [(⟨(f (562949953421311) (-48)), (f (562949953421311) (-48))⟩ : Itv), (⟨(f (-3602879701896397) (-55)), (f (-3602879701896397) (-55))⟩ : Itv)]))),
    .call ((Cmd.run (.op [(⟨(f (-3602879701896397) (-55)), (f (562949953421311) (-48))⟩ : Itv), (⟨(f (-3602879701896397) (-55)), (f (5764607523034235) (-59))⟩ : Itv)]))),
    .call ((Cmd.run (.op [(⟨(f 9007199254740991 971), (f 9007199254740991 971)⟩ : Itv), (⟨(f 9007199254740991 971), (f 9007199254740991 971)⟩ : Itv)]))),
    .call ((Cmd.run (.op [(⟨(f (-9007199254740991) (971)), (f 9007199254740991 971)⟩ : Itv), (⟨(f (-9007199254740991) (971)), (f 9007199254740991 971)⟩ : Itv)]))),
    .call ((Cmd.run (.op [(⟨(f (-9007199254740991) (971)), (f 9007199254740991 971)⟩ : Itv), (⟨(f (-4503599627370495) (972)), (f 9007199254740991 971)⟩ : Itv)]))),
    .call ((Cmd.run (.op [(⟨(f (-9007199254740991) (971)), (f 9007199254740991 971)⟩ : Itv), (⟨(f (-9007199254740991) (971)), (f 4503599627370495 972)⟩ : Itv)]))),
    .call ((Cmd.run (.op [(⟨(f (-9007199254740991) (971)), (f 4503599627370495 972)⟩ : Itv), (⟨(f (-9007199254740991) (971)), (f 9007199254740991 971)⟩ : Itv)]))),
    .call ((Cmd.run (.op [(⟨(f (-4503599627370495) (972)), (f 9007199254740991 971)⟩ : Itv), (⟨(f (-9007199254740991) (971)), (f 9007199254740991 971)⟩ : Itv)]))),
    .call ((Cmd.run (.op [(⟨(f (-1) (0)), (f (9007199254740991) (-105))⟩ : Itv), (⟨(f (-1) (0)), (f (4503599627370495) (-104))⟩ : Itv)]))),
    .call ((Cmd.run (.op [(⟨(f (-1) (0)), (f (4503599627370495) (-104))⟩ : Itv), (⟨(f (-1) (0)), (f (9007199254740991) (-105))⟩ : Itv)]))),
    .state 126 [],
    .call clearFlags,
    .call (do (Cmd.run (.op [(⟨(f 1 0), (f (-9007199254740991) (971))⟩ : Itv), (⟨(f 3 0), (f 4 0)⟩ : Itv)])); (Cmd.run (.op [(Itv.cancelPlus binary64 (⟨(f 1 0), (f (-9007199254740991) (971))⟩ : Itv) (⟨(f 3 0), (f 4 0)⟩ : Itv) : Itv)]))),
    .state 130 [.invalidOperand],
    .call clearFlags,
    .call (setCwd (bitsOf [.invalidOperand])),
    .throws 133 ((Cmd.run (.op [(⟨(f 1 0), (f 9007199254740991 971)⟩ : Itv), (⟨(f 3 0), (f (-4) (0))⟩ : Itv)]))) .invalidOperand,
    .state 134 [.invalidOperand],
    .call clearFlags,
    .call (setCwd (bitsOf []))] ExSt.init = [] := by
  decide +kernel

/-- `minimal_cancel_plus_mixedtype_test` -/
example : failed [
    .call ((Cmd.run (.op [(⟨(f (-5) (0)), (f (-8106479329266893) (-53))⟩ : Itv), (⟨(f 1 0), (f 5 0)⟩ : Itv)]))),
    .call ((Cmd.run (.op [(⟨(f (-2871044762448691) (-49)), (f (-8106479329266893) (-53))⟩ : Itv), (⟨(f 1 0), (f 5 0)⟩ : Itv)]))),
    .call ((Cmd.run (.op [(⟨(f (-5295309) (-19)), (f (10695475) (-21))⟩ : Itv), (⟨(f (-5) (0)), (f 10 0)⟩ : Itv)]))),
    .call ((Cmd.run (.op [(⟨(f (-13421773) (-27)), (f 2 0)⟩ : Itv), (⟨(f (-13421773) (-27)), (f (5368709) (-29))⟩ : Itv)]))),
    .call ((Cmd.run (.op [(⟨(f (-1) (0)), (f (8388607) (-75))⟩ : Itv), (⟨(f (-1) (0)), (f (16777215) (-76))⟩ : Itv)]))),
    .state 148 [],
    .call clearFlags,
    .call (do (Cmd.run (.op [(⟨(f 1 0), (f (-9007199254740991) (971))⟩ : Itv), (⟨(f 3 0), (f 4 0)⟩ : Itv)])); (Cmd.run (.op [(Itv.cancelMinusMixed .float .double .float (⟨(f 1 0), (f (-9007199254740991) (971))⟩ : Itv) (if !(⟨(f 3 0), (f 4 0)⟩ : Itv).isValid then Itv.empty else Fmt.convertHull binary32 (Fmt.negI (⟨(f 3 0), (f 4 0)⟩ : Itv)) : Itv) : Itv)]))),
    .state 152 [.invalidOperand],
    .call clearFlags,
    .call (setCwd (bitsOf [.invalidOperand])),
    .throws 155 ((Cmd.run (.op [(⟨(f 1 0), (f 9007199254740991 971)⟩ : Itv), (⟨(f 3 0), (f (-4) (0))⟩ : Itv)]))) .invalidOperand,
    .state 156 [.invalidOperand],
    .call clearFlags,
    .call (setCwd (bitsOf []))] ExSt.init = [] := by
  decide +kernel

/-- `minimal_cancel_plus_dec_test` -/
example : failed [
    .call ((Cmd.run (.opD [(⟨⟨.ninf, (f (-1) (0))⟩, .dac⟩ : DItv), (DItv.empty : DItv)]))),
    .call ((Cmd.run (.opD [(⟨⟨(f (-1) (0)), .pinf⟩, .defd⟩ : DItv), (DItv.empty : DItv)]))),
    .call ((Cmd.run (.opD [(DItv.entire : DItv), (DItv.empty : DItv)]))),
    .call ((Cmd.run (.opD [(⟨⟨.ninf, (f (-1) (0))⟩, .dac⟩ : DItv), (⟨⟨(f (-5) (0)), (f 1 0)⟩, .com⟩ : DItv)]))),
    .call ((Cmd.run (.opD [(⟨⟨(f (-1) (0)), .pinf⟩, .trv⟩ : DItv), (⟨⟨(f (-5) (0)), (f 1 0)⟩, .defd⟩ : DItv)]))),
    .call ((Cmd.run (.opD [(DItv.entire : DItv), (⟨⟨(f (-5) (0)), (f 1 0)⟩, .defd⟩ : DItv)]))),
    .call ((Cmd.run (.opD [(⟨⟨.ninf, (f (-1) (0))⟩, .dac⟩ : DItv), (DItv.entire : DItv)]))),
    .call ((Cmd.run (.opD [(⟨⟨(f (-1) (0)), .pinf⟩, .defd⟩ : DItv), (DItv.entire : DItv)]))),
    .call ((Cmd.run (.opD [(DItv.empty : DItv), (⟨⟨(f 1 0), .pinf⟩, .defd⟩ : DItv)]))),
    .call ((Cmd.run (.opD [(DItv.empty : DItv), (⟨⟨.ninf, (f 1 0)⟩, .trv⟩ : DItv)]))),
    .call ((Cmd.run (.opD [(DItv.empty : DItv), (DItv.entire : DItv)]))),
    .call ((Cmd.run (.opD [(⟨⟨(f (-1) (0)), (f 5 0)⟩, .dac⟩ : DItv), (⟨⟨(f 1 0), .pinf⟩, .dac⟩ : DItv)]))),
    .call ((Cmd.run (.opD [(⟨⟨(f (-1) (0)), (f 5 0)⟩, .defd⟩ : DItv), (⟨⟨.ninf, (f 1 0)⟩, .dac⟩ : DItv)]))),
    .call ((Cmd.run (.opD [(⟨⟨(f (-1) (0)), (f 5 0)⟩, .com⟩ : DItv), (DItv.entire : DItv)]))),
    .call ((Cmd.run (.opD [(DItv.entire : DItv), (⟨⟨(f 1 0), .pinf⟩, .dac⟩ : DItv)]))),
    .call ((Cmd.run (.opD [(DItv.entire : DItv), (⟨⟨.ninf, (f 1 0)⟩, .defd⟩ : DItv)]))),
    .call ((Cmd.run (.opD [(DItv.entire : DItv), (DItv.entire : DItv)]))),
    .call ((Cmd.run (.opD [(⟨⟨(f (-5) (0)), (f (-1) (0))⟩, .com⟩ : DItv), (⟨⟨(f 1 0), (f (2871044762448691) (-49))⟩, .defd⟩ : DItv)]))),
    .call ((Cmd.run (.opD [(⟨⟨(f (-5) (0)), (f (-1) (0))⟩, .dac⟩ : DItv), (⟨⟨(f (8106479329266893) (-53)), (f 5 0)⟩, .defd⟩ : DItv)]))),
    .call ((Cmd.run (.opD [(⟨⟨(f (-5) (0)), (f (-1) (0))⟩, .defd⟩ : DItv), (⟨⟨(f (8106479329266893) (-53)), (f (2871044762448691) (-49))⟩, .defd⟩ : DItv)]))),
    .call ((Cmd.run (.opD [(⟨⟨(f (-10) (0)), (f 5 0)⟩, .trv⟩ : DItv), (⟨⟨(f (-5) (0)), (f (5685794529555251) (-49))⟩, .dac⟩ : DItv)]))),
    .call ((Cmd.run (.opD [(⟨⟨(f (-10) (0)), (f 5 0)⟩, .com⟩ : DItv), (⟨⟨(f (-2871044762448691) (-49)), (f 10 0)⟩, .dac⟩ : DItv)]))),
    .call ((Cmd.run (.opD [(⟨⟨(f (-10) (0)), (f 5 0)⟩, .dac⟩ : DItv), (⟨⟨(f (-2871044762448691) (-49)), (f (5685794529555251) (-49))⟩, .dac⟩ : DItv)]))),
    .call ((Cmd.run (.opD [(⟨⟨(f 1 0), (f 5 0)⟩, .defd⟩ : DItv), (⟨⟨(f (-5) (0)), (f (-8106479329266893) (-53))⟩, .com⟩ : DItv)]))),
    .call ((Cmd.run (.opD [(⟨⟨(f 1 0), (f 5 0)⟩, .trv⟩ : DItv), (⟨⟨(f (-2871044762448691) (-49)), (f (-1) (0))⟩, .com⟩ : DItv)]))),
    .call ((Cmd.run (.opD [(⟨⟨(f 1 0), (f 5 0)⟩, .dac⟩ : DItv), (⟨⟨(f (-2871044762448691) (-49)), (f (-8106479329266893) (-53))⟩, .com⟩ : DItv)]))),
    .call ((Cmd.run (.opD [(⟨⟨(f (-10) (0)), (f (-1) (0))⟩, .trv⟩ : DItv), (DItv.empty : DItv)]))),
    .call ((Cmd.run (.opD [(⟨⟨(f (-10) (0)), (f 5 0)⟩, .defd⟩ : DItv), (DItv.empty : DItv)]))),
    .call ((Cmd.run (.opD [(⟨⟨(f 1 0), (f 5 0)⟩, .com⟩ : DItv), (DItv.empty : DItv)]))),
    .call (do (Cmd.run (.opD [(DItv.empty : DItv), (DItv.empty : DItv)])); (Cmd.run (.opD [(DItv.cancelMinus binary64 (DItv.empty : DItv) (Fmt.negD (DItv.empty : DItv)) : DItv)]))),
    .call (do (Cmd.run (.opD [(DItv.empty : DItv), (⟨⟨(f 1 0), (f 10 0)⟩, .dac⟩ : DItv)])); (Cmd.run (.opD [(DItv.cancelMinus binary64 (DItv.empty : DItv) (Fmt.negD (⟨⟨(f 1 0), (f 10 0)⟩, .dac⟩ : DItv)) : DItv)]))),
    .call (do (Cmd.run (.opD [(DItv.empty : DItv), (⟨⟨(f (-5) (0)), (f 10 0)⟩, .defd⟩ : DItv)])); (Cmd.run (.opD [(DItv.cancelMinus binary64 (DItv.empty : DItv) (Fmt.negD (⟨⟨(f (-5) (0)), (f 10 0)⟩, .defd⟩ : DItv)) : DItv)]))),
    .call (do (Cmd.run (.opD [(DItv.empty : DItv), (⟨⟨(f (-5) (0)), (f (-1) (0))⟩, .com⟩ : DItv)])); (Cmd.run (.opD [(DItv.cancelMinus binary64 (DItv.empty : DItv) (Fmt.negD (⟨⟨(f (-5) (0)), (f (-1) (0))⟩, .com⟩ : DItv)) : DItv)]))),
    .call ((Cmd.run (.opD [(⟨⟨(f (-2871044762448691) (-49)), .nzero⟩, .com⟩ : DItv), (⟨⟨(f 0 0), (f 5 0)⟩, .com⟩ : DItv)]))),
    .call ((Cmd.run (.opD [(⟨⟨(f (-2871044762448691) (-49)), (f (-1) (0))⟩, .com⟩ : DItv), (⟨⟨(f 1 0), (f 5 0)⟩, .dac⟩ : DItv)]))),
    .call ((Cmd.run (.opD [(⟨⟨(f (-5) (0)), (f (-8106479329266893) (-53))⟩, .com⟩ : DItv), (⟨⟨(f 1 0), (f 5 0)⟩, .defd⟩ : DItv)]))),
    .call ((Cmd.run (.opD [(⟨⟨(f (-2871044762448691) (-49)), (f (-8106479329266893) (-53))⟩, .dac⟩ : DItv), (⟨⟨(f 1 0), (f 5 0)⟩, .trv⟩ : DItv)]))),
    .call ((Cmd.run (.opD [(⟨⟨(f (-5) (0)), (f (-1) (0))⟩, .dac⟩ : DItv), (⟨⟨(f 1 0), (f 5 0)⟩, .com⟩ : DItv)]))),
    .call ((Cmd.run (.opD [(⟨⟨(f (-5685794529555251) (-49)), (f 5 0)⟩, .dac⟩ : DItv), (⟨⟨(f (-5) (0)), (f 10 0)⟩, .dac⟩ : DItv)]))),
    .call ((Cmd.run (.opD [(⟨⟨(f (-10) (0)), (f (2871044762448691) (-49))⟩, .defd⟩ : DItv), (⟨⟨(f (-5) (0)), (f 10 0)⟩, .defd⟩ : DItv)]))),
    .call ((Cmd.run (.opD [(⟨⟨(f (-5685794529555251) (-49)), (f (2871044762448691) (-49))⟩, .defd⟩ : DItv), (⟨⟨(f (-5) (0)), (f 10 0)⟩, .trv⟩ : DItv)]))),
    .call ((Cmd.run (.opD [(⟨⟨(f (-10) (0)), (f 5 0)⟩, .defd⟩ : DItv), (⟨⟨(f (-5) (0)), (f 10 0)⟩, .com⟩ : DItv)]))),
    .call ((Cmd.run (.opD [(⟨⟨(f (8106479329266893) (-53)), (f 5 0)⟩, .trv⟩ : DItv), (⟨⟨(f (-5) (0)), (f (-1) (0))⟩, .dac⟩ : DItv)]))),
    .call ((Cmd.run (.opD [(⟨⟨(f 1 0), (f (2871044762448691) (-49))⟩, .trv⟩ : DItv), (⟨⟨(f (-5) (0)), (f (-1) (0))⟩, .defd⟩ : DItv)]))),
    .call ((Cmd.run (.opD [(⟨⟨(f 0 0), (f (2871044762448691) (-49))⟩, .trv⟩ : DItv), (⟨⟨(f (-5) (0)), .nzero⟩, .trv⟩ : DItv)]))),
    .call ((Cmd.run (.opD [(⟨⟨(f (8106479329266893) (-53)), (f (2871044762448691) (-49))⟩, .com⟩ : DItv), (⟨⟨(f (-5) (0)), (f (-1) (0))⟩, .com⟩ : DItv)]))),
    .call ((Cmd.run (.opD [(⟨⟨(f 1 0), (f 5 0)⟩, .dac⟩ : DItv), (⟨⟨(f (-5) (0)), (f (-1) (0))⟩, .dac⟩ : DItv)]))),
    .call ((Cmd.run (.opD [(⟨⟨(f 0 0), (f 5 0)⟩, .defd⟩ : DItv), (⟨⟨(f (-5) (0)), .nzero⟩, .trv⟩ : DItv)]))),
    .call ((Cmd.run (.opD [(⟨⟨(f (562949953421311) (-48)), (f (562949953421311) (-48))⟩, .com⟩ : DItv), (⟨⟨(f (-3602879701896397) (-55)), (f (-3602879701896397) (-55))⟩, .com⟩ : DItv)]))),
    .call ((Cmd.run (.opD [(⟨⟨(f (-3602879701896397) (-55)), (f (562949953421311) (-48))⟩, .dac⟩ : DItv), (⟨⟨(f (-3602879701896397) (-55)), (f (5764607523034235) (-59))⟩, .com⟩ : DItv)]))),
    .call ((Cmd.run (.opD [(⟨⟨(f 9007199254740991 971), (f 9007199254740991 971)⟩, .com⟩ : DItv), (⟨⟨(f 9007199254740991 971), (f 9007199254740991 971)⟩, .com⟩ : DItv)]))),
    .call ((Cmd.run (.opD [(⟨⟨(f (-9007199254740991) (971)), (f 9007199254740991 971)⟩, .com⟩ : DItv), (⟨⟨(f (-9007199254740991) (971)), (f 9007199254740991 971)⟩, .com⟩ : DItv)]))),
    .call ((Cmd.run (.opD [(⟨⟨(f (-9007199254740991) (971)), (f 9007199254740991 971)⟩, .dac⟩ : DItv), (⟨⟨(f (-4503599627370495) (972)), (f 9007199254740991 971)⟩, .com⟩ : DItv)]))),
    .call ((Cmd.run (.opD [(⟨⟨(f (-9007199254740991) (971)), (f 9007199254740991 971)⟩, .dac⟩ : DItv), (⟨⟨(f (-9007199254740991) (971)), (f 4503599627370495 972)⟩, .com⟩ : DItv)]))),
    .call ((Cmd.run (.opD [(⟨⟨(f (-9007199254740991) (971)), (f 4503599627370495 972)⟩, .com⟩ : DItv), (⟨⟨(f (-9007199254740991) (971)), (f 9007199254740991 971)⟩, .com⟩ : DItv)]))),
    .call ((Cmd.run (.opD [(⟨⟨(f (-4503599627370495) (972)), (f 9007199254740991 971)⟩, .com⟩ : DItv), (⟨⟨(f (-9007199254740991) (971)), (f 9007199254740991 971)⟩, .com⟩ : DItv)]))),
    .call ((Cmd.run (.opD [(⟨⟨(f (-1) (0)), (f (9007199254740991) (-105))⟩, .dac⟩ : DItv), (⟨⟨(f (-1) (0)), (f (4503599627370495) (-104))⟩, .com⟩ : DItv)]))),
    .call ((Cmd.run (.opD [(⟨⟨(f (-1) (0)), (f (4503599627370495) (-104))⟩, .defd⟩ : DItv), (⟨⟨(f (-1) (0)), (f (9007199254740991) (-105))⟩, .com⟩ : DItv)]))),
    .state 233 [],
    .call clearFlags,
    .call (do (Cmd.run (.opD [(⟨⟨(f 1 0), (f (-9007199254740991) (971))⟩, .trv⟩ : DItv), (⟨⟨(f 3 0), (f 4 0)⟩, .trv⟩ : DItv)])); (Cmd.run (.opD [(DItv.cancelMinus binary64 (⟨⟨(f 1 0), (f (-9007199254740991) (971))⟩, .trv⟩ : DItv) (Fmt.negD (⟨⟨(f 3 0), (f 4 0)⟩, .trv⟩ : DItv)) : DItv)]))),
    .state 237 [.invalidOperand],
    .call clearFlags,
    .call (setCwd (bitsOf [.invalidOperand])),
    .throws 240 ((Cmd.run (.opD [(⟨⟨(f 1 0), (f 9007199254740991 971)⟩, .trv⟩ : DItv), (⟨⟨(f 3 0), (f (-4) (0))⟩, .trv⟩ : DItv)]))) .invalidOperand,
    .state 241 [.invalidOperand],
    .call clearFlags,
    .call (setCwd (bitsOf []))] ExSt.init = [] := by
  decide +kernel

/-- `minimal_cancel_plus_dec_mixedtype_test` -/
example : failed [
    .call ((Cmd.run (.opD [(⟨⟨(f (-5) (0)), (f (-8106479329266893) (-53))⟩, .com⟩ : DItv), (⟨⟨(f 1 0), (f 5 0)⟩, .com⟩ : DItv)]))),
    .call ((Cmd.run (.opD [(⟨⟨(f (-2871044762448691) (-49)), (f (-8106479329266893) (-53))⟩, .dac⟩ : DItv), (⟨⟨(f 1 0), (f 5 0)⟩, .defd⟩ : DItv)]))),
    .call ((Cmd.run (.opD [(⟨⟨(f (-5295309) (-19)), (f (10695475) (-21))⟩, .defd⟩ : DItv), (⟨⟨(f (-5) (0)), (f 10 0)⟩, .trv⟩ : DItv)]))),
    .call ((Cmd.run (.opD [(⟨⟨(f (-13421773) (-27)), (f 2 0)⟩, .trv⟩ : DItv), (⟨⟨(f (-13421773) (-27)), (f (5368709) (-29))⟩, .dac⟩ : DItv)]))),
    .call ((Cmd.run (.opD [(⟨⟨(f (-1) (0)), (f (8388607) (-75))⟩, .com⟩ : DItv), (⟨⟨(f (-1) (0)), (f (16777215) (-76))⟩, .defd⟩ : DItv)]))),
    .state 256 [],
    .call clearFlags,
    .call (do (Cmd.run (.opD [(⟨⟨(f 1 0), (f (-9007199254740991) (971))⟩, .trv⟩ : DItv), (⟨⟨(f 3 0), (f 4 0)⟩, .trv⟩ : DItv)])); (Cmd.run (.opD [(DItv.cancelMinusMixed .float .double .float (⟨⟨(f 1 0), (f (-9007199254740991) (971))⟩, .trv⟩ : DItv) (if !(⟨⟨(f 3 0), (f 4 0)⟩, .trv⟩ : DItv).isValid || (⟨⟨(f 3 0), (f 4 0)⟩, .trv⟩ : DItv).isNai then DItv.nai else Fmt.convertHullD binary32 (Fmt.negD (⟨⟨(f 3 0), (f 4 0)⟩, .trv⟩ : DItv)) : DItv) : DItv)]))),
    .state 260 [.invalidOperand],
    .call clearFlags,
    .call (setCwd (bitsOf [.invalidOperand])),
    .throws 263 ((Cmd.run (.opD [(⟨⟨(f 1 0), (f 9007199254740991 971)⟩, .trv⟩ : DItv), (⟨⟨(f 3 0), (f (-4) (0))⟩, .trv⟩ : DItv)]))) .invalidOperand,
    .state 264 [.invalidOperand],
    .call clearFlags,
    .call (setCwd (bitsOf []))] ExSt.init = [] := by
  decide +kernel

/-- `minimal_cancel_minus_test` -/
example : failed [
    .call ((Cmd.run (.op [(⟨.ninf, (f (-1) (0))⟩ : Itv), (Itv.empty : Itv)]))),
    .call ((Cmd.run (.op [(⟨(f (-1) (0)), .pinf⟩ : Itv), (Itv.empty : Itv)]))),
    .call ((Cmd.run (.op [(Itv.entire : Itv), (Itv.empty : Itv)]))),
    .call ((Cmd.run (.op [(⟨.ninf, (f (-1) (0))⟩ : Itv), (⟨(f (-1) (0)), (f 5 0)⟩ : Itv)]))),
    .call ((Cmd.run (.op [(⟨(f (-1) (0)), .pinf⟩ : Itv), (⟨(f (-1) (0)), (f 5 0)⟩ : Itv)]))),
    .call ((Cmd.run (.op [(Itv.entire : Itv), (⟨(f (-1) (0)), (f 5 0)⟩ : Itv)]))),
    .call ((Cmd.run (.op [(⟨.ninf, (f (-1) (0))⟩ : Itv), (Itv.entire : Itv)]))),
    .call ((Cmd.run (.op [(⟨(f (-1) (0)), .pinf⟩ : Itv), (Itv.entire : Itv)]))),
    .call ((Cmd.run (.op [(Itv.empty : Itv), (⟨.ninf, (f (-1) (0))⟩ : Itv)]))),
    .call ((Cmd.run (.op [(Itv.empty : Itv), (⟨(f (-1) (0)), .pinf⟩ : Itv)]))),
    .call ((Cmd.run (.op [(Itv.empty : Itv), (Itv.entire : Itv)]))),
    .call ((Cmd.run (.op [(⟨(f (-1) (0)), (f 5 0)⟩ : Itv), (⟨.ninf, (f (-1) (0))⟩ : Itv)]))),
    .call ((Cmd.run (.op [(⟨(f (-1) (0)), (f 5 0)⟩ : Itv), (⟨(f (-1) (0)), .pinf⟩ : Itv)]))),
    .call ((Cmd.run (.op [(⟨(f (-1) (0)), (f 5 0)⟩ : Itv), (Itv.entire : Itv)]))),
    .call ((Cmd.run (.op [(Itv.entire : Itv), (⟨.ninf, (f (-1) (0))⟩ : Itv)]))),
    .call ((Cmd.run (.op [(Itv.entire : Itv), (⟨(f (-1) (0)), .pinf⟩ : Itv)]))),
    .call ((Cmd.run (.op [(Itv.entire : Itv), (Itv.entire : Itv)]))),
    .call ((Cmd.run (.op [(⟨(f (-5) (0)), (f (-1) (0))⟩ : Itv), (⟨(f (-2871044762448691) (-49)), (f (-1) (0))⟩ : Itv)]))),
    .call ((Cmd.run (.op [(⟨(f (-5) (0)), (f (-1) (0))⟩ : Itv), (⟨(f (-5) (0)), (f (-8106479329266893) (-53))⟩ : Itv)]))),
    .call ((Cmd.run (.op [(⟨(f (-5) (0)), (f (-1) (0))⟩ : Itv), (⟨(f (-2871044762448691) (-49)), (f (-8106479329266893) (-53))⟩ : Itv)]))),
    .call ((Cmd.run (.op [(⟨(f (-10) (0)), (f 5 0)⟩ : Itv), (⟨(f (-5685794529555251) (-49)), (f 5 0)⟩ : Itv)]))),
    .call ((Cmd.run (.op [(⟨(f (-10) (0)), (f 5 0)⟩ : Itv), (⟨(f (-10) (0)), (f (2871044762448691) (-49))⟩ : Itv)]))),
    .call ((Cmd.run (.op [(⟨(f (-10) (0)), (f 5 0)⟩ : Itv), (⟨(f (-5685794529555251) (-49)), (f (2871044762448691) (-49))⟩ : Itv)]))),
    .call ((Cmd.run (.op [(⟨(f 1 0), (f 5 0)⟩ : Itv), (⟨(f (8106479329266893) (-53)), (f 5 0)⟩ : Itv)]))),
    .call ((Cmd.run (.op [(⟨(f 1 0), (f 5 0)⟩ : Itv), (⟨(f 1 0), (f (2871044762448691) (-49))⟩ : Itv)]))),
    .call ((Cmd.run (.op [(⟨(f 1 0), (f 5 0)⟩ : Itv), (⟨(f (8106479329266893) (-53)), (f (2871044762448691) (-49))⟩ : Itv)]))),
    .call ((Cmd.run (.op [(⟨(f (-10) (0)), (f (-1) (0))⟩ : Itv), (Itv.empty : Itv)]))),
    .call ((Cmd.run (.op [(⟨(f (-10) (0)), (f 5 0)⟩ : Itv), (Itv.empty : Itv)]))),
    .call ((Cmd.run (.op [(⟨(f 1 0), (f 5 0)⟩ : Itv), (Itv.empty : Itv)]))),
    .call (do (Cmd.run (.op [(Itv.empty : Itv), (Itv.empty : Itv)])); (Cmd.run (.op [(Itv.cancelMinus binary64 (Itv.empty : Itv) (Itv.empty : Itv) : Itv)]))),
    .call (do (Cmd.run (.op [(Itv.empty : Itv), (⟨(f (-10) (0)), (f (-1) (0))⟩ : Itv)])); (Cmd.run (.op [(Itv.cancelMinus binary64 (Itv.empty : Itv) (⟨(f (-10) (0)), (f (-1) (0))⟩ : Itv) : Itv)]))),
    .call (do (Cmd.run (.op [(Itv.empty : Itv), (⟨(f (-10) (0)), (f 5 0)⟩ : Itv)])); (Cmd.run (.op [(Itv.cancelMinus binary64 (Itv.empty : Itv) (⟨(f (-10) (0)), (f 5 0)⟩ : Itv) : Itv)]))),
    .call (do (Cmd.run (.op [(Itv.empty : Itv), (⟨(f 1 0), (f 5 0)⟩ : Itv)])); (Cmd.run (.op [(Itv.cancelMinus binary64 (Itv.empty : Itv) (⟨(f 1 0), (f 5 0)⟩ : Itv) : Itv)]))),
    .call ((Cmd.run (.op [(⟨(f (-2871044762448691) (-49)), .nzero⟩ : Itv), (⟨(f (-5) (0)), (f 0 0)⟩ : Itv)]))),
    .call ((Cmd.run (.op [(⟨(f (-2871044762448691) (-49)), (f (-1) (0))⟩ : Itv), (⟨(f (-5) (0)), (f (-1) (0))⟩ : Itv)]))),
    .call ((Cmd.run (.op [(⟨(f (-5) (0)), (f (-8106479329266893) (-53))⟩ : Itv), (⟨(f (-5) (0)), (f (-1) (0))⟩ : Itv)]))),
    .call ((Cmd.run (.op [(⟨(f (-2871044762448691) (-49)), (f (-8106479329266893) (-53))⟩ : Itv), (⟨(f (-5) (0)), (f (-1) (0))⟩ : Itv)]))),
    .call ((Cmd.run (.op [(⟨(f (-5) (0)), (f (-1) (0))⟩ : Itv), (⟨(f (-5) (0)), (f (-1) (0))⟩ : Itv)]))),
    .call ((Cmd.run (.op [(⟨(f (-5685794529555251) (-49)), (f 5 0)⟩ : Itv), (⟨(f (-10) (0)), (f 5 0)⟩ : Itv)]))),
    .call ((Cmd.run (.op [(⟨(f (-10) (0)), (f (2871044762448691) (-49))⟩ : Itv), (⟨(f (-10) (0)), (f 5 0)⟩ : Itv)]))),
    .call ((Cmd.run (.op [(⟨(f (-5685794529555251) (-49)), (f (2871044762448691) (-49))⟩ : Itv), (⟨(f (-10) (0)), (f 5 0)⟩ : Itv)]))),
    .call ((Cmd.run (.op [(⟨(f (-10) (0)), (f 5 0)⟩ : Itv), (⟨(f (-10) (0)), (f 5 0)⟩ : Itv)]))),
    .call ((Cmd.run (.op [(⟨(f (8106479329266893) (-53)), (f 5 0)⟩ : Itv), (⟨(f 1 0), (f 5 0)⟩ : Itv)]))),
    .call ((Cmd.run (.op [(⟨.nzero, (f (2871044762448691) (-49))⟩ : Itv), (⟨(f 0 0), (f 5 0)⟩ : Itv)]))),
    .call ((Cmd.run (.op [(⟨(f 1 0), (f (2871044762448691) (-49))⟩ : Itv), (⟨(f 1 0), (f 5 0)⟩ : Itv)]))),
    .call ((Cmd.run (.op [(⟨(f (8106479329266893) (-53)), (f (2871044762448691) (-49))⟩ : Itv), (⟨(f 1 0), (f 5 0)⟩ : Itv)]))),
    .call ((Cmd.run (.op [(⟨(f 1 0), (f 5 0)⟩ : Itv), (⟨(f 1 0), (f 5 0)⟩ : Itv)]))),
    .call ((Cmd.run (.op [(⟨(f (-5) (0)), (f 1 0)⟩ : Itv), (⟨(f (-1) (0)), (f 5 0)⟩ : Itv)]))),
    .call ((Cmd.run (.op [(⟨(f (-5) (0)), (f 0 0)⟩ : Itv), (⟨.nzero, (f 5 0)⟩ : Itv)]))),
    .call ((Cmd.run (.op [(⟨(f (562949953421311) (-48)), (f (562949953421311) (-48))⟩ : Itv), (⟨(f (3602879701896397) (-55)), (f (3602879701896397) (-55))⟩ : Itv)]))),
    .call ((Cmd.run (.op [(⟨(f (-3602879701896397) (-55)), (f (562949953421311) (-48))⟩ : Itv), (⟨(f (-5764607523034235) (-59)), (f (3602879701896397) (-55))⟩ : Itv)]))),
    .call ((Cmd.run (.op [(⟨(f 9007199254740991 971), (f 9007199254740991 971)⟩ : Itv), (⟨(f (-9007199254740991) (971)), (f (-9007199254740991) (971))⟩ : Itv)]))),
    .call ((Cmd.run (.op [(⟨(f (-9007199254740991) (971)), (f 9007199254740991 971)⟩ : Itv), (⟨(f (-9007199254740991) (971)), (f 9007199254740991 971)⟩ : Itv)]))),
    .call ((Cmd.run (.op [(⟨(f (-9007199254740991) (971)), (f 9007199254740991 971)⟩ : Itv), (⟨(f (-9007199254740991) (971)), (f 4503599627370495 972)⟩ : Itv)]))),
    .call ((Cmd.run (.op [(⟨(f (-9007199254740991) (971)), (f 9007199254740991 971)⟩ : Itv), (⟨(f (-4503599627370495) (972)), (f 9007199254740991 971)⟩ : Itv)]))),
    .call ((Cmd.run (.op [(⟨(f (-9007199254740991) (971)), (f 4503599627370495 972)⟩ : Itv), (⟨(f (-9007199254740991) (971)), (f 9007199254740991 971)⟩ : Itv)]))),
    .call ((Cmd.run (.op [(⟨(f (-4503599627370495) (972)), (f 9007199254740991 971)⟩ : Itv), (⟨(f (-9007199254740991) (971)), (f 9007199254740991 971)⟩ : Itv)]))),
    .call ((Cmd.run (.op [(⟨(f (1) (-1022)), (f (1) (-1022))⟩ : Itv), (⟨(f (1) (-1022)), (f (1) (-1022))⟩ : Itv)]))),
    .call ((Cmd.run (.op [(⟨(f (1) (-1022)), (f (1) (-1022))⟩ : Itv), (⟨(f (-1) (-1022)), (f (-1) (-1022))⟩ : Itv)]))),
    .call ((Cmd.run (.op [(⟨(f (1) (-1022)), (f (2251799813685249) (-1073))⟩ : Itv), (⟨(f (1) (-1022)), (f (4503599627370497) (-1074))⟩ : Itv)]))),
    .call ((Cmd.run (.op [(⟨(f (1) (-1022)), (f (4503599627370497) (-1074))⟩ : Itv), (⟨(f (1) (-1022)), (f (2251799813685249) (-1073))⟩ : Itv)]))),
    .call ((Cmd.run (.op [(⟨(f (-1) (0)), (f (9007199254740991) (-105))⟩ : Itv), (⟨(f (-4503599627370495) (-104)), (f 1 0)⟩ : Itv)]))),
    .call ((Cmd.run (.op [(⟨(f (-1) (0)), (f (4503599627370495) (-104))⟩ : Itv), (⟨(f (-9007199254740991) (-105)), (f 1 0)⟩ : Itv)]))),
    .state 347 [],
    .call clearFlags,
    .call (do (Cmd.run (.op [(⟨(f 1 0), (f (-9007199254740991) (971))⟩ : Itv), (⟨(f 3 0), (f 4 0)⟩ : Itv)])); (Cmd.run (.op [(Itv.cancelMinus binary64 (⟨(f 1 0), (f (-9007199254740991) (971))⟩ : Itv) (⟨(f 3 0), (f 4 0)⟩ : Itv) : Itv)]))),
    .state 351 [.invalidOperand],
    .call clearFlags,
    .call (setCwd (bitsOf [.invalidOperand])),
    .throws 354 ((Cmd.run (.op [(⟨(f 1 0), (f 9007199254740991 971)⟩ : Itv), (⟨(f 3 0), (f (-4) (0))⟩ : Itv)]))) .invalidOperand,
    .state 355 [.invalidOperand],
    .call clearFlags,
    .call (setCwd (bitsOf []))] ExSt.init = [] := by
  decide +kernel

/-- `minimal_cancel_minus_mixedtype_test` -/
example : failed [
    .call ((Cmd.run (.op [(⟨(f (-5) (0)), (f (-8106479329266893) (-53))⟩ : Itv), (⟨(f (-5) (0)), (f (-1) (0))⟩ : Itv)]))),
    .call ((Cmd.run (.op [(⟨(f (-2871044762448691) (-49)), (f (-8106479329266893) (-53))⟩ : Itv), (⟨(f (-5) (0)), (f (-1) (0))⟩ : Itv)]))),
    .call ((Cmd.run (.op [(⟨(f (-5295309) (-19)), (f (10695475) (-21))⟩ : Itv), (⟨(f (-10) (0)), (f 5 0)⟩ : Itv)]))),
    .call ((Cmd.run (.op [(⟨(f (-13421773) (-27)), (f 2 0)⟩ : Itv), (⟨(f (-5368709) (-29)), (f (13421773) (-27))⟩ : Itv)]))),
    .call ((Cmd.run (.op [(⟨(f (-1) (0)), (f (8388607) (-75))⟩ : Itv), (⟨(f (-16777215) (-76)), (f 1 0)⟩ : Itv)]))),
    .state 370 [],
    .call clearFlags,
    .call (do (Cmd.run (.op [(⟨(f 1 0), (f (-9007199254740991) (971))⟩ : Itv), (⟨(f 3 0), (f 4 0)⟩ : Itv)])); (Cmd.run (.op [(Itv.cancelMinusMixed .float .double .double (⟨(f 1 0), (f (-9007199254740991) (971))⟩ : Itv) (⟨(f 3 0), (f 4 0)⟩ : Itv) : Itv)]))),
    .state 374 [.invalidOperand],
    .call clearFlags,
    .call (setCwd (bitsOf [.invalidOperand])),
    .throws 377 ((Cmd.run (.op [(⟨(f 1 0), (f 9007199254740991 971)⟩ : Itv), (⟨(f 3 0), (f (-4) (0))⟩ : Itv)]))) .invalidOperand,
    .state 378 [.invalidOperand],
    .call clearFlags,
    .call (setCwd (bitsOf []))] ExSt.init = [] := by
  decide +kernel

/-- `minimal_cancel_minus_dec_test` -/
example : failed [
    .call ((Cmd.run (.opD [(⟨⟨.ninf, (f (-1) (0))⟩, .dac⟩ : DItv), (DItv.empty : DItv)]))),
    .call ((Cmd.run (.opD [(⟨⟨(f (-1) (0)), .pinf⟩, .defd⟩ : DItv), (DItv.empty : DItv)]))),
    .call ((Cmd.run (.opD [(DItv.entire : DItv), (DItv.empty : DItv)]))),
    .call ((Cmd.run (.opD [(⟨⟨.ninf, (f (-1) (0))⟩, .trv⟩ : DItv), (⟨⟨(f (-1) (0)), (f 5 0)⟩, .dac⟩ : DItv)]))),
    .call ((Cmd.run (.opD [(⟨⟨(f (-1) (0)), .pinf⟩, .dac⟩ : DItv), (⟨⟨(f (-1) (0)), (f 5 0)⟩, .com⟩ : DItv)]))),
    .call ((Cmd.run (.opD [(DItv.entire : DItv), (⟨⟨(f (-1) (0)), (f 5 0)⟩, .defd⟩ : DItv)]))),
    .call ((Cmd.run (.opD [(⟨⟨.ninf, (f (-1) (0))⟩, .defd⟩ : DItv), (DItv.entire : DItv)]))),
    .call ((Cmd.run (.opD [(⟨⟨(f (-1) (0)), .pinf⟩, .trv⟩ : DItv), (DItv.entire : DItv)]))),
    .call ((Cmd.run (.opD [(DItv.empty : DItv), (⟨⟨.ninf, (f (-1) (0))⟩, .dac⟩ : DItv)]))),
    .call ((Cmd.run (.opD [(DItv.empty : DItv), (⟨⟨(f (-1) (0)), .pinf⟩, .dac⟩ : DItv)]))),
    .call ((Cmd.run (.opD [(DItv.empty : DItv), (DItv.entire : DItv)]))),
    .call ((Cmd.run (.opD [(⟨⟨(f (-1) (0)), (f 5 0)⟩, .dac⟩ : DItv), (⟨⟨.ninf, (f (-1) (0))⟩, .defd⟩ : DItv)]))),
    .call ((Cmd.run (.opD [(⟨⟨(f (-1) (0)), (f 5 0)⟩, .defd⟩ : DItv), (⟨⟨(f (-1) (0)), .pinf⟩, .trv⟩ : DItv)]))),
    .call ((Cmd.run (.opD [(⟨⟨(f (-1) (0)), (f 5 0)⟩, .com⟩ : DItv), (DItv.entire : DItv)]))),
    .call ((Cmd.run (.opD [(DItv.entire : DItv), (⟨⟨.ninf, (f (-1) (0))⟩, .dac⟩ : DItv)]))),
    .call ((Cmd.run (.opD [(DItv.entire : DItv), (⟨⟨(f (-1) (0)), .pinf⟩, .defd⟩ : DItv)]))),
    .call ((Cmd.run (.opD [(DItv.entire : DItv), (DItv.entire : DItv)]))),
    .call ((Cmd.run (.opD [(⟨⟨(f (-5) (0)), (f (-1) (0))⟩, .com⟩ : DItv), (⟨⟨(f (-2871044762448691) (-49)), (f (-1) (0))⟩, .trv⟩ : DItv)]))),
    .call ((Cmd.run (.opD [(⟨⟨(f (-5) (0)), (f (-1) (0))⟩, .dac⟩ : DItv), (⟨⟨(f (-5) (0)), (f (-8106479329266893) (-53))⟩, .defd⟩ : DItv)]))),
    .call ((Cmd.run (.opD [(⟨⟨(f (-5) (0)), (f (-1) (0))⟩, .defd⟩ : DItv), (⟨⟨(f (-2871044762448691) (-49)), (f (-8106479329266893) (-53))⟩, .dac⟩ : DItv)]))),
    .call ((Cmd.run (.opD [(⟨⟨(f (-10) (0)), (f 5 0)⟩, .trv⟩ : DItv), (⟨⟨(f (-5685794529555251) (-49)), (f 5 0)⟩, .com⟩ : DItv)]))),
    .call ((Cmd.run (.opD [(⟨⟨(f (-10) (0)), (f 5 0)⟩, .com⟩ : DItv), (⟨⟨(f (-10) (0)), (f (2871044762448691) (-49))⟩, .com⟩ : DItv)]))),
    .call ((Cmd.run (.opD [(⟨⟨(f (-10) (0)), (f 5 0)⟩, .dac⟩ : DItv), (⟨⟨(f (-5685794529555251) (-49)), (f (2871044762448691) (-49))⟩, .trv⟩ : DItv)]))),
    .call ((Cmd.run (.opD [(⟨⟨(f 1 0), (f 5 0)⟩, .defd⟩ : DItv), (⟨⟨(f (8106479329266893) (-53)), (f 5 0)⟩, .defd⟩ : DItv)]))),
    .call ((Cmd.run (.opD [(⟨⟨(f 1 0), (f 5 0)⟩, .trv⟩ : DItv), (⟨⟨(f 1 0), (f (2871044762448691) (-49))⟩, .dac⟩ : DItv)]))),
    .call ((Cmd.run (.opD [(⟨⟨(f 1 0), (f 5 0)⟩, .com⟩ : DItv), (⟨⟨(f (8106479329266893) (-53)), (f (2871044762448691) (-49))⟩, .dac⟩ : DItv)]))),
    .call ((Cmd.run (.opD [(⟨⟨(f (-10) (0)), (f (-1) (0))⟩, .com⟩ : DItv), (DItv.empty : DItv)]))),
    .call ((Cmd.run (.opD [(⟨⟨(f (-10) (0)), (f 5 0)⟩, .dac⟩ : DItv), (DItv.empty : DItv)]))),
    .call ((Cmd.run (.opD [(⟨⟨(f 1 0), (f 5 0)⟩, .defd⟩ : DItv), (DItv.empty : DItv)]))),
    .call (do (Cmd.run (.opD [(DItv.empty : DItv), (DItv.empty : DItv)])); (Cmd.run (.opD [(DItv.cancelMinus binary64 (DItv.empty : DItv) (DItv.empty : DItv) : DItv)]))),
    .call (do (Cmd.run (.opD [(DItv.empty : DItv), (⟨⟨(f (-10) (0)), (f (-1) (0))⟩, .com⟩ : DItv)])); (Cmd.run (.opD [(DItv.cancelMinus binary64 (DItv.empty : DItv) (⟨⟨(f (-10) (0)), (f (-1) (0))⟩, .com⟩ : DItv) : DItv)]))),
    .call (do (Cmd.run (.opD [(DItv.empty : DItv), (⟨⟨(f (-10) (0)), (f 5 0)⟩, .dac⟩ : DItv)])); (Cmd.run (.opD [(DItv.cancelMinus binary64 (DItv.empty : DItv) (⟨⟨(f (-10) (0)), (f 5 0)⟩, .dac⟩ : DItv) : DItv)]))),
    .call (do (Cmd.run (.opD [(DItv.empty : DItv), (⟨⟨(f 1 0), (f 5 0)⟩, .defd⟩ : DItv)])); (Cmd.run (.opD [(DItv.cancelMinus binary64 (DItv.empty : DItv) (⟨⟨(f 1 0), (f 5 0)⟩, .defd⟩ : DItv) : DItv)]))),
    .call ((Cmd.run (.opD [(⟨⟨(f (-2871044762448691) (-49)), .nzero⟩, .com⟩ : DItv), (⟨⟨(f (-5) (0)), (f 0 0)⟩, .com⟩ : DItv)]))),
    .call ((Cmd.run (.opD [(⟨⟨(f (-2871044762448691) (-49)), (f (-1) (0))⟩, .dac⟩ : DItv), (⟨⟨(f (-5) (0)), (f (-1) (0))⟩, .com⟩ : DItv)]))),
    .call ((Cmd.run (.opD [(⟨⟨(f (-5) (0)), (f (-8106479329266893) (-53))⟩, .defd⟩ : DItv), (⟨⟨(f (-5) (0)), (f (-1) (0))⟩, .com⟩ : DItv)]))),
    .call ((Cmd.run (.opD [(⟨⟨(f (-2871044762448691) (-49)), (f (-8106479329266893) (-53))⟩, .trv⟩ : DItv), (⟨⟨(f (-5) (0)), (f (-1) (0))⟩, .com⟩ : DItv)]))),
    .call ((Cmd.run (.opD [(⟨⟨(f (-5) (0)), (f (-1) (0))⟩, .com⟩ : DItv), (⟨⟨(f (-5) (0)), (f (-1) (0))⟩, .dac⟩ : DItv)]))),
    .call ((Cmd.run (.opD [(⟨⟨(f (-5685794529555251) (-49)), (f 5 0)⟩, .dac⟩ : DItv), (⟨⟨(f (-10) (0)), (f 5 0)⟩, .dac⟩ : DItv)]))),
    .call ((Cmd.run (.opD [(⟨⟨(f (-10) (0)), (f (2871044762448691) (-49))⟩, .defd⟩ : DItv), (⟨⟨(f (-10) (0)), (f 5 0)⟩, .dac⟩ : DItv)]))),
    .call ((Cmd.run (.opD [(⟨⟨(f (-5685794529555251) (-49)), (f (2871044762448691) (-49))⟩, .trv⟩ : DItv), (⟨⟨(f (-10) (0)), (f 5 0)⟩, .defd⟩ : DItv)]))),
    .call ((Cmd.run (.opD [(⟨⟨(f (-10) (0)), (f 5 0)⟩, .com⟩ : DItv), (⟨⟨(f (-10) (0)), (f 5 0)⟩, .defd⟩ : DItv)]))),
    .call ((Cmd.run (.opD [(⟨⟨(f (8106479329266893) (-53)), (f 5 0)⟩, .dac⟩ : DItv), (⟨⟨(f 1 0), (f 5 0)⟩, .defd⟩ : DItv)]))),
    .call ((Cmd.run (.opD [(⟨⟨.nzero, (f (2871044762448691) (-49))⟩, .defd⟩ : DItv), (⟨⟨(f 0 0), (f 5 0)⟩, .defd⟩ : DItv)]))),
    .call ((Cmd.run (.opD [(⟨⟨(f 1 0), (f (2871044762448691) (-49))⟩, .trv⟩ : DItv), (⟨⟨(f 1 0), (f 5 0)⟩, .trv⟩ : DItv)]))),
    .call ((Cmd.run (.opD [(⟨⟨(f (8106479329266893) (-53)), (f (2871044762448691) (-49))⟩, .com⟩ : DItv), (⟨⟨(f 1 0), (f 5 0)⟩, .trv⟩ : DItv)]))),
    .call ((Cmd.run (.opD [(⟨⟨(f 1 0), (f 5 0)⟩, .dac⟩ : DItv), (⟨⟨(f 1 0), (f 5 0)⟩, .com⟩ : DItv)]))),
    .call ((Cmd.run (.opD [(⟨⟨(f (-5) (0)), (f 1 0)⟩, .defd⟩ : DItv), (⟨⟨(f (-1) (0)), (f 5 0)⟩, .defd⟩ : DItv)]))),
    .call ((Cmd.run (.opD [(⟨⟨(f (-5) (0)), (f 0 0)⟩, .trv⟩ : DItv), (⟨⟨.nzero, (f 5 0)⟩, .trv⟩ : DItv)]))),
    .call ((Cmd.run (.opD [(⟨⟨(f (562949953421311) (-48)), (f (562949953421311) (-48))⟩, .com⟩ : DItv), (⟨⟨(f (3602879701896397) (-55)), (f (3602879701896397) (-55))⟩, .com⟩ : DItv)]))),
    .call ((Cmd.run (.opD [(⟨⟨(f (-3602879701896397) (-55)), (f (562949953421311) (-48))⟩, .defd⟩ : DItv), (⟨⟨(f (-5764607523034235) (-59)), (f (3602879701896397) (-55))⟩, .dac⟩ : DItv)]))),
    .call ((Cmd.run (.opD [(⟨⟨(f 9007199254740991 971), (f 9007199254740991 971)⟩, .com⟩ : DItv), (⟨⟨(f (-9007199254740991) (971)), (f (-9007199254740991) (971))⟩, .com⟩ : DItv)]))),
    .call ((Cmd.run (.opD [(⟨⟨(f (-9007199254740991) (971)), (f 9007199254740991 971)⟩, .com⟩ : DItv), (⟨⟨(f (-9007199254740991) (971)), (f 9007199254740991 971)⟩, .com⟩ : DItv)]))),
    .call ((Cmd.run (.opD [(⟨⟨(f (-9007199254740991) (971)), (f 9007199254740991 971)⟩, .com⟩ : DItv), (⟨⟨(f (-9007199254740991) (971)), (f 4503599627370495 972)⟩, .com⟩ : DItv)]))),
    .call ((Cmd.run (.opD [(⟨⟨(f (-9007199254740991) (971)), (f 9007199254740991 971)⟩, .com⟩ : DItv), (⟨⟨(f (-4503599627370495) (972)), (f 9007199254740991 971)⟩, .com⟩ : DItv)]))),
    .call ((Cmd.run (.opD [(⟨⟨(f (-9007199254740991) (971)), (f 4503599627370495 972)⟩, .com⟩ : DItv), (⟨⟨(f (-9007199254740991) (971)), (f 9007199254740991 971)⟩, .com⟩ : DItv)]))),
    .call ((Cmd.run (.opD [(⟨⟨(f (-4503599627370495) (972)), (f 9007199254740991 971)⟩, .com⟩ : DItv), (⟨⟨(f (-9007199254740991) (971)), (f 9007199254740991 971)⟩, .com⟩ : DItv)]))),
    .call ((Cmd.run (.opD [(⟨⟨(f (1) (-1022)), (f (1) (-1022))⟩, .com⟩ : DItv), (⟨⟨(f (1) (-1022)), (f (1) (-1022))⟩, .com⟩ : DItv)]))),
    .call ((Cmd.run (.opD [(⟨⟨(f (1) (-1022)), (f (1) (-1022))⟩, .com⟩ : DItv), (⟨⟨(f (-1) (-1022)), (f (-1) (-1022))⟩, .dac⟩ : DItv)]))),
    .call ((Cmd.run (.opD [(⟨⟨(f (1) (-1022)), (f (2251799813685249) (-1073))⟩, .dac⟩ : DItv), (⟨⟨(f (1) (-1022)), (f (4503599627370497) (-1074))⟩, .dac⟩ : DItv)]))),
    .call ((Cmd.run (.opD [(⟨⟨(f (1) (-1022)), (f (4503599627370497) (-1074))⟩, .defd⟩ : DItv), (⟨⟨(f (1) (-1022)), (f (2251799813685249) (-1073))⟩, .com⟩ : DItv)]))),
    .call ((Cmd.run (.opD [(⟨⟨(f (-1) (0)), (f (9007199254740991) (-105))⟩, .com⟩ : DItv), (⟨⟨(f (-4503599627370495) (-104)), (f 1 0)⟩, .dac⟩ : DItv)]))),
    .call ((Cmd.run (.opD [(⟨⟨(f (-1) (0)), (f (4503599627370495) (-104))⟩, .defd⟩ : DItv), (⟨⟨(f (-9007199254740991) (-105)), (f 1 0)⟩, .dac⟩ : DItv)]))),
    .state 462 [],
    .call clearFlags,
    .call (do (Cmd.run (.opD [(⟨⟨(f 1 0), (f (-9007199254740991) (971))⟩, .trv⟩ : DItv), (⟨⟨(f 3 0), (f 4 0)⟩, .trv⟩ : DItv)])); (Cmd.run (.opD [(DItv.cancelMinus binary64 (⟨⟨(f 1 0), (f (-9007199254740991) (971))⟩, .trv⟩ : DItv) (⟨⟨(f 3 0), (f 4 0)⟩, .trv⟩ : DItv) : DItv)]))),
    .state 466 [.invalidOperand],
    .call clearFlags,
    .call (setCwd (bitsOf [.invalidOperand])),
    .throws 469 ((Cmd.run (.opD [(⟨⟨(f 1 0), (f 9007199254740991 971)⟩, .trv⟩ : DItv), (⟨⟨(f 3 0), (f (-4) (0))⟩, .trv⟩ : DItv)]))) .invalidOperand,
    .state 470 [.invalidOperand],
    .call clearFlags,
    .call (setCwd (bitsOf []))] ExSt.init = [] := by
  decide +kernel

/-- `minimal_cancel_minus_dec_mixedtype_test` -/
example : failed [
    .call ((Cmd.run (.opD [(⟨⟨(f (-5) (0)), (f (-8106479329266893) (-53))⟩, .com⟩ : DItv), (⟨⟨(f (-5) (0)), (f (-1) (0))⟩, .dac⟩ : DItv)]))),
    .call ((Cmd.run (.opD [(⟨⟨(f (-2871044762448691) (-49)), (f (-8106479329266893) (-53))⟩, .dac⟩ : DItv), (⟨⟨(f (-5) (0)), (f (-1) (0))⟩, .defd⟩ : DItv)]))),
    .call ((Cmd.run (.opD [(⟨⟨(f (-5295309) (-19)), (f (10695475) (-21))⟩, .defd⟩ : DItv), (⟨⟨(f (-10) (0)), (f 5 0)⟩, .dac⟩ : DItv)]))),
    .call ((Cmd.run (.opD [(⟨⟨(f (-13421773) (-27)), (f 2 0)⟩, .trv⟩ : DItv), (⟨⟨(f (-5368709) (-29)), (f (13421773) (-27))⟩, .com⟩ : DItv)]))),
    .call ((Cmd.run (.opD [(⟨⟨(f (-1) (0)), (f (8388607) (-75))⟩, .dac⟩ : DItv), (⟨⟨(f (-16777215) (-76)), (f 1 0)⟩, .defd⟩ : DItv)]))),
    .state 486 [],
    .call clearFlags,
    .call (do (Cmd.run (.opD [(⟨⟨(f 1 0), (f (-9007199254740991) (971))⟩, .trv⟩ : DItv), (⟨⟨(f 3 0), (f 4 0)⟩, .trv⟩ : DItv)])); (Cmd.run (.opD [(DItv.cancelMinusMixed .float .double .double (⟨⟨(f 1 0), (f (-9007199254740991) (971))⟩, .trv⟩ : DItv) (⟨⟨(f 3 0), (f 4 0)⟩, .trv⟩ : DItv) : DItv)]))),
    .state 490 [.invalidOperand],
    .call clearFlags,
    .call (setCwd (bitsOf [.invalidOperand])),
    .throws 493 ((Cmd.run (.opD [(⟨⟨(f 1 0), (f 9007199254740991 971)⟩, .trv⟩ : DItv), (⟨⟨(f 3 0), (f (-4) (0))⟩, .trv⟩ : DItv)]))) .invalidOperand,
    .state 494 [.invalidOperand],
    .call clearFlags,
    .call (setCwd (bitsOf []))] ExSt.init = [] := by
  decide +kernel

end P1788.Conform
