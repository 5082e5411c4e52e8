import Verif.Conform.Basic

/-!
# Conformance: rev_func, exceptions

Generated from `/repo/test/p1788/flavor/infsup/setbased/test_mpfr_bin_ieee754_flavor_rev_func.cpp`: the assertions of the project's own test suite, evaluated in the
model by the kernel.  Each test case is the list of its calls and of its
assertions, with their lines, about the exception flags and about thrown exceptions.  These are tests of the model, not proofs of
properties.
-/

set_option maxRecDepth 100000

namespace P1788.Conform

/-- `minimal_sqr_rev_test` -/
example : failed [
    .call (do (Cmd.run (.op [(Itv.empty : Itv)])); (Cmd.run (.op [(Itv.empty : Itv)]))),
    .call (do (Cmd.run (.op [(⟨(f (-10) (0)), (f (-1) (0))⟩ : Itv)])); (Cmd.run (.op [(Itv.empty : Itv)]))),
    .call ((Cmd.run (.op [(⟨(f 0 0), .pinf⟩ : Itv)]))),
    .call ((Cmd.run (.op [(⟨(f 0 0), (f 1 0)⟩ : Itv)]))),
    .call ((Cmd.run (.op [(⟨(f (-1) (-1)), (f 1 0)⟩ : Itv)]))),
    .call ((Cmd.run (.op [(⟨(f (-1000) (0)), (f 1 0)⟩ : Itv)]))),
    .call ((Cmd.run (.op [(⟨(f 0 0), (f 25 0)⟩ : Itv)]))),
    .call ((Cmd.run (.op [(⟨(f (-1) (0)), (f 25 0)⟩ : Itv)]))),
    .call ((Cmd.run (.op [(⟨(f (5764607523034235) (-59)), (f (1441151880758559) (-57))⟩ : Itv)]))),
    .call ((Cmd.run (.op [(⟨(f 0 0), (f (9007199254740961) (-51))⟩ : Itv)]))),
    .state 75 [],
    .call clearFlags,
    .call (do (Cmd.run (.op [(⟨(f 1 0), (f (-9007199254740991) (971))⟩ : Itv)])); (Cmd.run (.op [(Itv.empty : Itv)]))),
    .state 79 [.invalidOperand],
    .call clearFlags,
    .call (setCwd (bitsOf [.invalidOperand])),
    .throws 82 ((Cmd.run (.op [(⟨(f 3 0), (f (-4) (0))⟩ : Itv)]))) .invalidOperand,
    .state 83 [.invalidOperand],
    .call clearFlags,
    .call (setCwd (bitsOf []))] ExSt.init = [] := by
  decide +kernel

/-- `minimal_sqr_rev_bin_test` -/
example : failed [
    .call (do (Cmd.run (.op [(Itv.empty : Itv), (⟨(f (-5) (0)), (f 1 0)⟩ : Itv)])); (Cmd.run (.op [(Itv.empty : Itv)]))),
    .call (do (Cmd.run (.op [(⟨(f (-10) (0)), (f (-1) (0))⟩ : Itv), (⟨(f (-5) (0)), (f 1 0)⟩ : Itv)])); (Cmd.run (.op [(Itv.empty : Itv)]))),
    .call ((Cmd.run (.op [(⟨(f 0 0), .pinf⟩ : Itv), (⟨(f (-5) (0)), (f 1 0)⟩ : Itv)]))),
    .call ((Cmd.run (.op [(⟨(f 0 0), (f 1 0)⟩ : Itv), (⟨(f (-3602879701896397) (-55)), (f 1 0)⟩ : Itv)]))),
    .call ((Cmd.run (.op [(⟨(f (-1) (-1)), (f 1 0)⟩ : Itv), (⟨(f (-3602879701896397) (-55)), (f 1 0)⟩ : Itv)]))),
    .call ((Cmd.run (.op [(⟨(f (-1000) (0)), (f 1 0)⟩ : Itv), (⟨(f (-3602879701896397) (-55)), (f 1 0)⟩ : Itv)]))),
    .call ((Cmd.run (.op [(⟨(f 0 0), (f 25 0)⟩ : Itv), (⟨(f (-2308094809027379) (-49)), (f 6 0)⟩ : Itv)]))),
    .call ((Cmd.run (.op [(⟨(f (-1) (0)), (f 25 0)⟩ : Itv), (⟨(f (-2308094809027379) (-49)), (f 7 0)⟩ : Itv)]))),
    .call ((Cmd.run (.op [(⟨(f 1 0), (f 25 0)⟩ : Itv), (⟨(f 0 0), (f 7 0)⟩ : Itv)]))),
    .call ((Cmd.run (.op [(⟨(f (5764607523034235) (-59)), (f (1441151880758559) (-57))⟩ : Itv), (⟨(f (-3602879701896397) (-55)), .pinf⟩ : Itv)]))),
    .call ((Cmd.run (.op [(⟨(f 0 0), (f (9007199254740961) (-51))⟩ : Itv), (⟨(f (-3602879701896397) (-55)), .pinf⟩ : Itv)]))),
    .call ((Cmd.run (.op [(⟨(f (4503599627370497) (-52)), .pinf⟩ : Itv), (⟨(f (-1) (0)), (f (4503599627370497) (-52))⟩ : Itv)]))),
    .call ((Cmd.run (.op [(⟨(f (4503599627370497) (-52)), .pinf⟩ : Itv), (⟨(f (-4503599627370497) (-52)), (f 1 0)⟩ : Itv)]))),
    .call (do (Cmd.run (.op [(⟨(f (4503599627370497) (-52)), .pinf⟩ : Itv), (⟨(f (-1) (0)), (f 1 0)⟩ : Itv)])); (Cmd.run (.op [(Itv.empty : Itv)]))),
    .call (do (Cmd.run (.op [(⟨(f (4503599627370497) (-52)), .pinf⟩ : Itv), (⟨(f 1 0), (f 1 0)⟩ : Itv)])); (Cmd.run (.op [(Itv.empty : Itv)]))),
    .call (do (Cmd.run (.op [(⟨(f (4503599627370497) (-52)), .pinf⟩ : Itv), (⟨(f (-1) (0)), (f (-1) (0))⟩ : Itv)])); (Cmd.run (.op [(Itv.empty : Itv)]))),
    .state 109 [],
    .call clearFlags,
    .call (do (Cmd.run (.op [(⟨(f 1 0), (f (-9007199254740991) (971))⟩ : Itv), (⟨(f 1 0), (f (-9007199254740991) (971))⟩ : Itv)])); (Cmd.run (.op [(Itv.empty : Itv)]))),
    .state 113 [.invalidOperand],
    .call clearFlags,
    .call (setCwd (bitsOf [.invalidOperand])),
    .throws 116 ((Cmd.run (.op [(⟨(f 3 0), (f (-4) (0))⟩ : Itv), (⟨(f 3 0), (f (-4) (0))⟩ : Itv)]))) .invalidOperand,
    .state 117 [.invalidOperand],
    .call clearFlags,
    .call (setCwd (bitsOf []))] ExSt.init = [] := by
  decide +kernel

/-- `minimal_sqr_rev_mixedtype_test` -/
example : failed [
    .call (do (Cmd.run (.op [(Itv.empty : Itv)])); (Cmd.run (.op [(Itv.empty : Itv)]))),
    .call (do (Cmd.run (.op [(⟨(f (-10) (0)), (f (-1) (0))⟩ : Itv)])); (Cmd.run (.op [(Itv.empty : Itv)]))),
    .call ((Cmd.run (.op [(⟨(f 0 0), .pinf⟩ : Itv)]))),
    .call ((Cmd.run (.op [(⟨(f 0 0), (f 1 0)⟩ : Itv)]))),
    .call ((Cmd.run (.op [(⟨(f (-1) (-1)), (f 1 0)⟩ : Itv)]))),
    .call ((Cmd.run (.op [(⟨(f (-1000) (0)), (f 1 0)⟩ : Itv)]))),
    .call ((Cmd.run (.op [(⟨(f 0 0), (f 25 0)⟩ : Itv)]))),
    .call ((Cmd.run (.op [(⟨(f (-1) (0)), (f 25 0)⟩ : Itv)]))),
    .call ((Cmd.run (.op [(⟨(f (5764607523034235) (-59)), (f (1441151880758559) (-57))⟩ : Itv)]))),
    .call ((Cmd.run (.op [(⟨(f 0 0), (f (16777215) (-22))⟩ : Itv)]))),
    .state 137 [],
    .call clearFlags,
    .call (do (Cmd.run (.op [(⟨(f 1 0), (f (-9007199254740991) (971))⟩ : Itv)])); (Cmd.run (.op [(Itv.empty : Itv)]))),
    .state 141 [.invalidOperand],
    .call clearFlags,
    .call (setCwd (bitsOf [.invalidOperand])),
    .throws 144 ((Cmd.run (.op [(⟨(f 3 0), (f (-4) (0))⟩ : Itv)]))) .invalidOperand,
    .state 145 [.invalidOperand],
    .call clearFlags,
    .call (setCwd (bitsOf []))] ExSt.init = [] := by
  decide +kernel

/-- `minimal_sqr_rev_bin_mixedtype_test` -/
example : failed [
    .call (do (Cmd.run (.op [(Itv.empty : Itv), (⟨(f (-5) (0)), (f 1 0)⟩ : Itv)])); (Cmd.run (.op [(Itv.empty : Itv)]))),
    .call (do (Cmd.run (.op [(⟨(f (-10) (0)), (f (-1) (0))⟩ : Itv), (⟨(f (-5) (0)), (f 1 0)⟩ : Itv)])); (Cmd.run (.op [(Itv.empty : Itv)]))),
    .call ((Cmd.run (.op [(⟨(f 0 0), .pinf⟩ : Itv), (⟨(f (-5) (0)), (f 1 0)⟩ : Itv)]))),
    .call ((Cmd.run (.op [(⟨(f 0 0), (f 1 0)⟩ : Itv), (⟨(f (-13421773) (-27)), (f 1 0)⟩ : Itv)]))),
    .call ((Cmd.run (.op [(⟨(f (-1) (-1)), (f 1 0)⟩ : Itv), (⟨(f (-13421773) (-27)), (f 1 0)⟩ : Itv)]))),
    .call ((Cmd.run (.op [(⟨(f (-1000) (0)), (f 1 0)⟩ : Itv), (⟨(f (-3602879701896397) (-55)), (f 1 0)⟩ : Itv)]))),
    .call ((Cmd.run (.op [(⟨(f 0 0), (f 25 0)⟩ : Itv), (⟨(f (-2308094809027379) (-49)), (f 6 0)⟩ : Itv)]))),
    .call ((Cmd.run (.op [(⟨(f (-1) (0)), (f 25 0)⟩ : Itv), (⟨(f (-2308094809027379) (-49)), (f 7 0)⟩ : Itv)]))),
    .call ((Cmd.run (.op [(⟨(f 1 0), (f 25 0)⟩ : Itv), (⟨(f 0 0), (f 7 0)⟩ : Itv)]))),
    .call ((Cmd.run (.op [(⟨(f (5764607523034235) (-59)), (f (1441151880758559) (-57))⟩ : Itv), (⟨(f (-13421773) (-27)), .pinf⟩ : Itv)]))),
    .call ((Cmd.run (.op [(⟨(f 0 0), (f (16777215) (-22))⟩ : Itv), (⟨(f (-3602879701896397) (-55)), .pinf⟩ : Itv)]))),
    .state 166 [],
    .call clearFlags,
    .call (do (Cmd.run (.op [(⟨(f 1 0), (f (-9007199254740991) (971))⟩ : Itv), (⟨(f 1 0), (f (-9007199254740991) (971))⟩ : Itv)])); (Cmd.run (.op [(Itv.empty : Itv)]))),
    .state 170 [.invalidOperand],
    .call clearFlags,
    .call (setCwd (bitsOf [.invalidOperand])),
    .throws 173 ((Cmd.run (.op [(⟨(f 3 0), (f (-4) (0))⟩ : Itv), (⟨(f 3 0), (f (-4) (0))⟩ : Itv)]))) .invalidOperand,
    .state 174 [.invalidOperand],
    .call clearFlags,
    .call (setCwd (bitsOf []))] ExSt.init = [] := by
  decide +kernel

/-- `minimal_sqr_rev_dec_test` -/
example : failed [
    .call (do (Cmd.run (.opD [(DItv.empty : DItv)])); (Cmd.run (.opD [(DItv.empty : DItv)]))),
    .call (do (Cmd.run (.opD [(⟨⟨(f (-10) (0)), (f (-1) (0))⟩, .com⟩ : DItv)])); (Cmd.run (.opD [(DItv.empty : DItv)]))),
    .call ((Cmd.run (.opD [(⟨⟨(f 0 0), .pinf⟩, .dac⟩ : DItv)]))),
    .call ((Cmd.run (.opD [(⟨⟨(f 0 0), (f 1 0)⟩, .defd⟩ : DItv)]))),
    .call ((Cmd.run (.opD [(⟨⟨(f (-1) (-1)), (f 1 0)⟩, .dac⟩ : DItv)]))),
    .call ((Cmd.run (.opD [(⟨⟨(f (-1000) (0)), (f 1 0)⟩, .com⟩ : DItv)]))),
    .call ((Cmd.run (.opD [(⟨⟨(f 0 0), (f 25 0)⟩, .defd⟩ : DItv)]))),
    .call ((Cmd.run (.opD [(⟨⟨(f (-1) (0)), (f 25 0)⟩, .dac⟩ : DItv)]))),
    .call ((Cmd.run (.opD [(⟨⟨(f (5764607523034235) (-59)), (f (1441151880758559) (-57))⟩, .com⟩ : DItv)]))),
    .call ((Cmd.run (.opD [(⟨⟨(f 0 0), (f (9007199254740961) (-51))⟩, .defd⟩ : DItv)]))),
    .state 194 [],
    .call clearFlags,
    .call (do (Cmd.run (.opD [(⟨⟨(f 1 0), (f (-9007199254740991) (971))⟩, .ill⟩ : DItv)])); (Cmd.run (.opD [(DItv.empty : DItv)]))),
    .state 198 [.invalidOperand],
    .call clearFlags,
    .call (setCwd (bitsOf [.invalidOperand])),
    .throws 201 ((Cmd.run (.opD [(⟨⟨(f 3 0), (f (-4) (0))⟩, .trv⟩ : DItv)]))) .invalidOperand,
    .state 202 [.invalidOperand],
    .call clearFlags,
    .call (setCwd (bitsOf []))] ExSt.init = [] := by
  decide +kernel

/-- `minimal_sqr_rev_dec_bin_test` -/
example : failed [
    .call (do (Cmd.run (.opD [(DItv.empty : DItv), (⟨⟨(f (-5) (0)), (f 1 0)⟩, .defd⟩ : DItv)])); (Cmd.run (.opD [(DItv.empty : DItv)]))),
    .call (do (Cmd.run (.opD [(⟨⟨(f (-10) (0)), (f (-1) (0))⟩, .com⟩ : DItv), (⟨⟨(f (-5) (0)), (f 1 0)⟩, .dac⟩ : DItv)])); (Cmd.run (.opD [(DItv.empty : DItv)]))),
    .call ((Cmd.run (.opD [(⟨⟨(f 0 0), .pinf⟩, .defd⟩ : DItv), (⟨⟨(f (-5) (0)), (f 1 0)⟩, .dac⟩ : DItv)]))),
    .call ((Cmd.run (.opD [(⟨⟨(f 0 0), (f 1 0)⟩, .dac⟩ : DItv), (⟨⟨(f (-3602879701896397) (-55)), (f 1 0)⟩, .defd⟩ : DItv)]))),
    .call ((Cmd.run (.opD [(⟨⟨(f (-1) (-1)), (f 1 0)⟩, .defd⟩ : DItv), (⟨⟨(f (-3602879701896397) (-55)), (f 1 0)⟩, .dac⟩ : DItv)]))),
    .call ((Cmd.run (.opD [(⟨⟨(f (-1000) (0)), (f 1 0)⟩, .com⟩ : DItv), (⟨⟨(f (-3602879701896397) (-55)), (f 1 0)⟩, .defd⟩ : DItv)]))),
    .call ((Cmd.run (.opD [(⟨⟨(f 0 0), (f 25 0)⟩, .defd⟩ : DItv), (⟨⟨(f (-2308094809027379) (-49)), (f 6 0)⟩, .com⟩ : DItv)]))),
    .call ((Cmd.run (.opD [(⟨⟨(f (-1) (0)), (f 25 0)⟩, .dac⟩ : DItv), (⟨⟨(f (-2308094809027379) (-49)), (f 7 0)⟩, .defd⟩ : DItv)]))),
    .call ((Cmd.run (.opD [(⟨⟨(f 1 0), (f 25 0)⟩, .dac⟩ : DItv), (⟨⟨(f 0 0), (f 7 0)⟩, .defd⟩ : DItv)]))),
    .call ((Cmd.run (.opD [(⟨⟨(f (5764607523034235) (-59)), (f (1441151880758559) (-57))⟩, .defd⟩ : DItv), (⟨⟨(f (-3602879701896397) (-55)), .pinf⟩, .dac⟩ : DItv)]))),
    .call ((Cmd.run (.opD [(⟨⟨(f 0 0), (f (9007199254740961) (-51))⟩, .dac⟩ : DItv), (⟨⟨(f (-3602879701896397) (-55)), .pinf⟩, .dac⟩ : DItv)]))),
    .state 223 [],
    .call clearFlags,
    .call (do (Cmd.run (.opD [(⟨⟨(f 1 0), (f (-9007199254740991) (971))⟩, .ill⟩ : DItv), (⟨⟨(f 1 0), (f (-9007199254740991) (971))⟩, .trv⟩ : DItv)])); (Cmd.run (.opD [(DItv.empty : DItv)]))),
    .state 227 [.invalidOperand],
    .call clearFlags,
    .call (setCwd (bitsOf [.invalidOperand])),
    .throws 230 ((Cmd.run (.opD [(⟨⟨(f 3 0), (f (-4) (0))⟩, .defd⟩ : DItv), (⟨⟨(f 3 0), (f (-4) (0))⟩, .trv⟩ : DItv)]))) .invalidOperand,
    .state 231 [.invalidOperand],
    .call clearFlags,
    .call (setCwd (bitsOf []))] ExSt.init = [] := by
  decide +kernel

/-- `minimal_sqr_rev_dec_mixedtype_test` -/
example : failed [
    .call (do (Cmd.run (.opD [(DItv.empty : DItv)])); (Cmd.run (.opD [(DItv.empty : DItv)]))),
    .call (do (Cmd.run (.opD [(⟨⟨(f (-10) (0)), (f (-1) (0))⟩, .defd⟩ : DItv)])); (Cmd.run (.opD [(DItv.empty : DItv)]))),
    .call ((Cmd.run (.opD [(⟨⟨(f 0 0), .pinf⟩, .dac⟩ : DItv)]))),
    .call ((Cmd.run (.opD [(⟨⟨(f 0 0), (f 1 0)⟩, .defd⟩ : DItv)]))),
    .call ((Cmd.run (.opD [(⟨⟨(f (-1) (-1)), (f 1 0)⟩, .com⟩ : DItv)]))),
    .call ((Cmd.run (.opD [(⟨⟨(f (-1000) (0)), (f 1 0)⟩, .defd⟩ : DItv)]))),
    .call ((Cmd.run (.opD [(⟨⟨(f 0 0), (f 25 0)⟩, .dac⟩ : DItv)]))),
    .call ((Cmd.run (.opD [(⟨⟨(f (-1) (0)), (f 25 0)⟩, .defd⟩ : DItv)]))),
    .call ((Cmd.run (.opD [(⟨⟨(f (5764607523034235) (-59)), (f (1441151880758559) (-57))⟩, .defd⟩ : DItv)]))),
    .call ((Cmd.run (.opD [(⟨⟨(f 0 0), (f (16777215) (-22))⟩, .com⟩ : DItv)]))),
    .state 251 [],
    .call clearFlags,
    .call (do (Cmd.run (.opD [(⟨⟨(f 1 0), (f (-9007199254740991) (971))⟩, .defd⟩ : DItv)])); (Cmd.run (.opD [(DItv.empty : DItv)]))),
    .state 255 [.invalidOperand],
    .call clearFlags,
    .call (setCwd (bitsOf [.invalidOperand])),
    .throws 258 ((Cmd.run (.opD [(⟨⟨(f 3 0), (f (-4) (0))⟩, .trv⟩ : DItv)]))) .invalidOperand,
    .state 259 [.invalidOperand],
    .call clearFlags,
    .call (setCwd (bitsOf []))] ExSt.init = [] := by
  decide +kernel

/-- `minimal_sqr_rev_dec_bin_mixedtype_test` -/
example : failed [
    .call (do (Cmd.run (.opD [(DItv.empty : DItv), (⟨⟨(f (-5) (0)), (f 1 0)⟩, .defd⟩ : DItv)])); (Cmd.run (.opD [(DItv.empty : DItv)]))),
    .call (do (Cmd.run (.opD [(⟨⟨(f (-10) (0)), (f (-1) (0))⟩, .dac⟩ : DItv), (⟨⟨(f (-5) (0)), (f 1 0)⟩, .defd⟩ : DItv)])); (Cmd.run (.opD [(DItv.empty : DItv)]))),
    .call ((Cmd.run (.opD [(⟨⟨(f 0 0), .pinf⟩, .dac⟩ : DItv), (⟨⟨(f (-5) (0)), (f 1 0)⟩, .dac⟩ : DItv)]))),
    .call ((Cmd.run (.opD [(⟨⟨(f 0 0), (f 1 0)⟩, .com⟩ : DItv), (⟨⟨(f (-13421773) (-27)), (f 1 0)⟩, .dac⟩ : DItv)]))),
    .call ((Cmd.run (.opD [(⟨⟨(f (-1) (-1)), (f 1 0)⟩, .defd⟩ : DItv), (⟨⟨(f (-13421773) (-27)), (f 1 0)⟩, .defd⟩ : DItv)]))),
    .call ((Cmd.run (.opD [(⟨⟨(f (-1000) (0)), (f 1 0)⟩, .defd⟩ : DItv), (⟨⟨(f (-3602879701896397) (-55)), (f 1 0)⟩, .com⟩ : DItv)]))),
    .call ((Cmd.run (.opD [(⟨⟨(f 0 0), (f 25 0)⟩, .dac⟩ : DItv), (⟨⟨(f (-2308094809027379) (-49)), (f 6 0)⟩, .com⟩ : DItv)]))),
    .call ((Cmd.run (.opD [(⟨⟨(f (-1) (0)), (f 25 0)⟩, .dac⟩ : DItv), (⟨⟨(f (-2308094809027379) (-49)), (f 7 0)⟩, .defd⟩ : DItv)]))),
    .call ((Cmd.run (.opD [(⟨⟨(f 1 0), (f 25 0)⟩, .dac⟩ : DItv), (⟨⟨(f 0 0), (f 7 0)⟩, .defd⟩ : DItv)]))),
    .call ((Cmd.run (.opD [(⟨⟨(f (5764607523034235) (-59)), (f (1441151880758559) (-57))⟩, .dac⟩ : DItv), (⟨⟨(f (-13421773) (-27)), .pinf⟩, .dac⟩ : DItv)]))),
    .call ((Cmd.run (.opD [(⟨⟨(f 0 0), (f (16777215) (-22))⟩, .dac⟩ : DItv), (⟨⟨(f (-3602879701896397) (-55)), .pinf⟩, .defd⟩ : DItv)]))),
    .state 280 [],
    .call clearFlags,
    .call (do (Cmd.run (.opD [(⟨⟨(f 1 0), (f (-9007199254740991) (971))⟩, .defd⟩ : DItv), (⟨⟨(f 1 0), (f (-9007199254740991) (971))⟩, .trv⟩ : DItv)])); (Cmd.run (.opD [(DItv.empty : DItv)]))),
    .state 284 [.invalidOperand],
    .call clearFlags,
    .call (setCwd (bitsOf [.invalidOperand])),
    .throws 287 ((Cmd.run (.opD [(⟨⟨(f 3 0), (f (-4) (0))⟩, .trv⟩ : DItv), (⟨⟨(f 3 0), (f (-4) (0))⟩, .com⟩ : DItv)]))) .invalidOperand,
    .state 288 [.invalidOperand],
    .call clearFlags,
    .call (setCwd (bitsOf []))] ExSt.init = [] := by
  decide +kernel

/-- `minimal_abs_rev_test` -/
example : failed [
    .call (do (Cmd.run (.op [(Itv.empty : Itv)])); (Cmd.run (.op [(Itv.absRev (Itv.empty : Itv) (Itv.entire : Itv) : Itv)]))),
    .call (do (Cmd.run (.op [(⟨(f (-2476979795053773) (-51)), (f (-3602879701896397) (-53))⟩ : Itv)])); (Cmd.run (.op [(Itv.absRev (⟨(f (-2476979795053773) (-51)), (f (-3602879701896397) (-53))⟩ : Itv) (Itv.entire : Itv) : Itv)]))),
    .call ((Cmd.run (.op [(⟨(f 0 0), .pinf⟩ : Itv)]))),
    .call ((Cmd.run (.op [(⟨(f (2476979795053773) (-51)), (f (4728779608739021) (-51))⟩ : Itv)]))),
    .call ((Cmd.run (.op [(⟨(f (-2476979795053773) (-51)), (f 2 0)⟩ : Itv)]))),
    .call ((Cmd.run (.op [(⟨(f (-2476979795053773) (-51)), (f 0 0)⟩ : Itv)]))),
    .call ((Cmd.run (.op [(⟨(f (-4278419646001971) (-51)), (f (3602879701896397) (-54))⟩ : Itv)]))),
    .call ((Cmd.run (.op [(⟨(f 0 0), (f (3602879701896397) (-54))⟩ : Itv)]))),
    .call ((Cmd.run (.op [(⟨(f (-3) (-1)), .pinf⟩ : Itv)]))),
    .call clearFlags,
    .call (do (Cmd.run (.op [(⟨(f 1 0), (f (-9007199254740991) (971))⟩ : Itv)])); (Cmd.run (.op [(Itv.absRev (⟨(f 1 0), (f (-9007199254740991) (971))⟩ : Itv) (Itv.entire : Itv) : Itv)]))),
    .state 308 [.invalidOperand],
    .call clearFlags,
    .call (setCwd (bitsOf [.invalidOperand])),
    .throws 311 ((Cmd.run (.op [(⟨(f 1 0), (f (-3) (0))⟩ : Itv)]))) .invalidOperand,
    .state 312 [.invalidOperand],
    .call clearFlags,
    .call (setCwd (bitsOf []))] ExSt.init = [] := by
  decide +kernel

/-- `minimal_abs_rev_bin_test` -/
example : failed [
    .call (do (Cmd.run (.op [(Itv.empty : Itv), (⟨(f (-2476979795053773) (-51)), (f 5 0)⟩ : Itv)])); (Cmd.run (.op [(Itv.absRev (Itv.empty : Itv) (⟨(f (-2476979795053773) (-51)), (f 5 0)⟩ : Itv) : Itv)]))),
    .call (do (Cmd.run (.op [(⟨(f (-2476979795053773) (-51)), (f (-3602879701896397) (-53))⟩ : Itv), (⟨(f (-2476979795053773) (-51)), (f 5 0)⟩ : Itv)])); (Cmd.run (.op [(Itv.absRev (⟨(f (-2476979795053773) (-51)), (f (-3602879701896397) (-53))⟩ : Itv) (⟨(f (-2476979795053773) (-51)), (f 5 0)⟩ : Itv) : Itv)]))),
    .call ((Cmd.run (.op [(⟨(f 0 0), .pinf⟩ : Itv), (⟨(f (-2476979795053773) (-51)), (f 5 0)⟩ : Itv)]))),
    .call ((Cmd.run (.op [(⟨(f (2476979795053773) (-51)), (f (4728779608739021) (-51))⟩ : Itv), (⟨(f (-1) (0)), (f 5 0)⟩ : Itv)]))),
    .call ((Cmd.run (.op [(⟨(f (-2476979795053773) (-51)), (f 2 0)⟩ : Itv), (⟨(f (-2476979795053773) (-51)), (f 5 0)⟩ : Itv)]))),
    .call ((Cmd.run (.op [(⟨(f (-2476979795053773) (-51)), (f 0 0)⟩ : Itv), (⟨(f (-2476979795053773) (-51)), (f 5 0)⟩ : Itv)]))),
    .call ((Cmd.run (.op [(⟨(f (-4278419646001971) (-51)), (f (3602879701896397) (-54))⟩ : Itv), (⟨(f (-2476979795053773) (-51)), (f 5 0)⟩ : Itv)]))),
    .call clearFlags,
    .call (do (Cmd.run (.op [(⟨(f 1 0), (f (-9007199254740991) (971))⟩ : Itv), (⟨(f (-2476979795053773) (-51)), (f 5 0)⟩ : Itv)])); (Cmd.run (.op [(Itv.absRev (⟨(f 1 0), (f (-9007199254740991) (971))⟩ : Itv) (⟨(f (-2476979795053773) (-51)), (f 5 0)⟩ : Itv) : Itv)]))),
    .state 330 [.invalidOperand],
    .call clearFlags,
    .call (setCwd (bitsOf [.invalidOperand])),
    .throws 333 ((Cmd.run (.op [(⟨(f 1 0), (f (-3) (0))⟩ : Itv), (⟨(f (-2476979795053773) (-51)), (f 5 0)⟩ : Itv)]))) .invalidOperand,
    .state 334 [.invalidOperand],
    .call clearFlags,
    .call (setCwd (bitsOf []))] ExSt.init = [] := by
  decide +kernel

/-- `minimal_abs_rev_mixedtype_test` -/
example : failed [
    .call (do (Cmd.run (.op [(Itv.empty : Itv)])); (Cmd.run (.op [(Itv.revMixed (fun _ => Itv.absRev) .float .double .float (Itv.empty : Itv) (Itv.entire : Itv) : Itv)]))),
    .call (do (Cmd.run (.op [(⟨(f (-9227469) (-23)), (f (-13421773) (-25))⟩ : Itv)])); (Cmd.run (.op [(Itv.revMixed (fun _ => Itv.absRev) .double .float .double (⟨(f (-9227469) (-23)), (f (-13421773) (-25))⟩ : Itv) (Itv.entire : Itv) : Itv)]))),
    .call ((Cmd.run (.op [(⟨(f 0 0), .pinf⟩ : Itv)]))),
    .call ((Cmd.run (.op [(⟨(f (9227469) (-23)), (f (4404019) (-21))⟩ : Itv)]))),
    .call ((Cmd.run (.op [(⟨(f (-9227469) (-23)), (f 2 0)⟩ : Itv)]))),
    .call ((Cmd.run (.op [(⟨(f (-2476979795053773) (-51)), (f 0 0)⟩ : Itv)]))),
    .call ((Cmd.run (.op [(⟨(f (-4278419646001971) (-51)), (f (3602879701896397) (-54))⟩ : Itv)]))),
    .call ((Cmd.run (.op [(⟨(f 0 0), (f (3602879701896397) (-54))⟩ : Itv)]))),
    .call ((Cmd.run (.op [(⟨(f (-3) (-1)), .pinf⟩ : Itv)]))),
    .call clearFlags,
    .call (do (Cmd.run (.op [(⟨(f 1 0), (f (-9007199254740991) (971))⟩ : Itv)])); (Cmd.run (.op [(Itv.revMixed (fun _ => Itv.absRev) .float .double .float (⟨(f 1 0), (f (-9007199254740991) (971))⟩ : Itv) (Itv.entire : Itv) : Itv)]))),
    .state 354 [.invalidOperand],
    .call clearFlags,
    .call (setCwd (bitsOf [.invalidOperand])),
    .throws 357 ((Cmd.run (.op [(⟨(f 1 0), (f (-3) (0))⟩ : Itv)]))) .invalidOperand,
    .state 358 [.invalidOperand],
    .call clearFlags,
    .call (setCwd (bitsOf []))] ExSt.init = [] := by
  decide +kernel

/-- `minimal_abs_rev_bin_mixedtype_test` -/
example : failed [
    .call (do (Cmd.run (.op [(Itv.empty : Itv), (⟨(f (-2476979795053773) (-51)), (f 5 0)⟩ : Itv)])); (Cmd.run (.op [(Itv.revMixed (fun _ => Itv.absRev) .float .double .double (Itv.empty : Itv) (⟨(f (-2476979795053773) (-51)), (f 5 0)⟩ : Itv) : Itv)]))),
    .call (do (Cmd.run (.op [(⟨(f (-9227469) (-23)), (f (-13421773) (-25))⟩ : Itv), (⟨(f (-1) (0)), (f 5 0)⟩ : Itv)])); (Cmd.run (.op [(Itv.revMixed (fun _ => Itv.absRev) .double .float .float (⟨(f (-9227469) (-23)), (f (-13421773) (-25))⟩ : Itv) (⟨(f (-1) (0)), (f 5 0)⟩ : Itv) : Itv)]))),
    .call ((Cmd.run (.op [(⟨(f 0 0), .pinf⟩ : Itv), (⟨(f (-2476979795053773) (-51)), (f 5 0)⟩ : Itv)]))),
    .call ((Cmd.run (.op [(⟨(f (9227469) (-23)), (f (4404019) (-21))⟩ : Itv), (⟨(f (-2476979795053773) (-51)), (f 5 0)⟩ : Itv)]))),
    .call ((Cmd.run (.op [(⟨(f (-9227469) (-23)), (f 2 0)⟩ : Itv), (⟨(f (-2476979795053773) (-51)), (f 5 0)⟩ : Itv)]))),
    .call ((Cmd.run (.op [(⟨(f (-2476979795053773) (-51)), (f 0 0)⟩ : Itv), (⟨(f (-2476979795053773) (-51)), (f 5 0)⟩ : Itv)]))),
    .call ((Cmd.run (.op [(⟨(f (-4278419646001971) (-51)), (f (3602879701896397) (-54))⟩ : Itv), (⟨(f (-2476979795053773) (-51)), (f 5 0)⟩ : Itv)]))),
    .call clearFlags,
    .call (do (Cmd.run (.op [(⟨(f 1 0), (f (-9007199254740991) (971))⟩ : Itv), (⟨(f (-2476979795053773) (-51)), (f 5 0)⟩ : Itv)])); (Cmd.run (.op [(Itv.revMixed (fun _ => Itv.absRev) .float .double .double (⟨(f 1 0), (f (-9007199254740991) (971))⟩ : Itv) (⟨(f (-2476979795053773) (-51)), (f 5 0)⟩ : Itv) : Itv)]))),
    .state 376 [.invalidOperand],
    .call clearFlags,
    .call (setCwd (bitsOf [.invalidOperand])),
    .throws 379 ((Cmd.run (.op [(⟨(f 1 0), (f (-3) (0))⟩ : Itv), (⟨(f (-2476979795053773) (-51)), (f 5 0)⟩ : Itv)]))) .invalidOperand,
    .state 380 [.invalidOperand],
    .call clearFlags,
    .call (setCwd (bitsOf []))] ExSt.init = [] := by
  decide +kernel

/-- `minimal_abs_rev_dec_test` -/
example : failed [
    .call (do (Cmd.run (.opD [(DItv.empty : DItv)])); (Cmd.run (.opD [(DItv.rev Itv.absRev (DItv.empty : DItv) (DItv.entire : DItv) : DItv)]))),
    .call (do (Cmd.run (.opD [(⟨⟨(f (-2476979795053773) (-51)), (f (-3602879701896397) (-53))⟩, .dac⟩ : DItv)])); (Cmd.run (.opD [(DItv.rev Itv.absRev (⟨⟨(f (-2476979795053773) (-51)), (f (-3602879701896397) (-53))⟩, .dac⟩ : DItv) (DItv.entire : DItv) : DItv)]))),
    .call ((Cmd.run (.opD [(⟨⟨(f 0 0), .pinf⟩, .dac⟩ : DItv)]))),
    .call ((Cmd.run (.opD [(⟨⟨(f (2476979795053773) (-51)), (f (4728779608739021) (-51))⟩, .com⟩ : DItv)]))),
    .call ((Cmd.run (.opD [(⟨⟨(f (-2476979795053773) (-51)), (f 2 0)⟩, .defd⟩ : DItv)]))),
    .call ((Cmd.run (.opD [(⟨⟨(f (-2476979795053773) (-51)), (f 0 0)⟩, .dac⟩ : DItv)]))),
    .call ((Cmd.run (.opD [(⟨⟨(f (-4278419646001971) (-51)), (f (3602879701896397) (-54))⟩, .com⟩ : DItv)]))),
    .call ((Cmd.run (.opD [(⟨⟨(f 0 0), (f (3602879701896397) (-54))⟩, .defd⟩ : DItv)]))),
    .call ((Cmd.run (.opD [(⟨⟨(f (-3) (-1)), .pinf⟩, .defd⟩ : DItv)]))),
    .call clearFlags,
    .call (do (Cmd.run (.opD [(⟨⟨(f 1 0), (f (-9007199254740991) (971))⟩, .trv⟩ : DItv)])); (Cmd.run (.opD [(DItv.rev Itv.absRev (⟨⟨(f 1 0), (f (-9007199254740991) (971))⟩, .trv⟩ : DItv) (DItv.entire : DItv) : DItv)]))),
    .state 401 [.invalidOperand],
    .call clearFlags,
    .call (setCwd (bitsOf [.invalidOperand])),
    .throws 404 ((Cmd.run (.opD [(⟨⟨(f 1 0), (f (-3) (0))⟩, .dac⟩ : DItv)]))) .invalidOperand,
    .state 405 [.invalidOperand],
    .call clearFlags,
    .call (setCwd (bitsOf []))] ExSt.init = [] := by
  decide +kernel

/-- `minimal_abs_rev_dec_bin_test` -/
example : failed [
    .call (do (Cmd.run (.opD [(DItv.empty : DItv), (⟨⟨(f (-2476979795053773) (-51)), (f 5 0)⟩, .com⟩ : DItv)])); (Cmd.run (.opD [(DItv.rev Itv.absRev (DItv.empty : DItv) (⟨⟨(f (-2476979795053773) (-51)), (f 5 0)⟩, .com⟩ : DItv) : DItv)]))),
    .call (do (Cmd.run (.opD [(⟨⟨(f (-2476979795053773) (-51)), (f (-3602879701896397) (-53))⟩, .dac⟩ : DItv), (⟨⟨(f (-2476979795053773) (-51)), (f 5 0)⟩, .dac⟩ : DItv)])); (Cmd.run (.opD [(DItv.rev Itv.absRev (⟨⟨(f (-2476979795053773) (-51)), (f (-3602879701896397) (-53))⟩, .dac⟩ : DItv) (⟨⟨(f (-2476979795053773) (-51)), (f 5 0)⟩, .dac⟩ : DItv) : DItv)]))),
    .call ((Cmd.run (.opD [(⟨⟨(f 0 0), .pinf⟩, .defd⟩ : DItv), (⟨⟨(f (-2476979795053773) (-51)), (f 5 0)⟩, .defd⟩ : DItv)]))),
    .call ((Cmd.run (.opD [(⟨⟨(f (2476979795053773) (-51)), (f (4728779608739021) (-51))⟩, .dac⟩ : DItv), (⟨⟨(f (-1) (0)), (f 5 0)⟩, .defd⟩ : DItv)]))),
    .call ((Cmd.run (.opD [(⟨⟨(f (-2476979795053773) (-51)), (f 2 0)⟩, .com⟩ : DItv), (⟨⟨(f (-2476979795053773) (-51)), (f 5 0)⟩, .defd⟩ : DItv)]))),
    .call ((Cmd.run (.opD [(⟨⟨(f (-2476979795053773) (-51)), (f 0 0)⟩, .defd⟩ : DItv), (⟨⟨(f (-2476979795053773) (-51)), (f 5 0)⟩, .defd⟩ : DItv)]))),
    .call ((Cmd.run (.opD [(⟨⟨(f (-4278419646001971) (-51)), (f (3602879701896397) (-54))⟩, .dac⟩ : DItv), (⟨⟨(f (-2476979795053773) (-51)), (f 5 0)⟩, .defd⟩ : DItv)]))),
    .call clearFlags,
    .call (do (Cmd.run (.opD [(⟨⟨(f 1 0), (f (-9007199254740991) (971))⟩, .dac⟩ : DItv), (⟨⟨(f (-2476979795053773) (-51)), (f 5 0)⟩, .defd⟩ : DItv)])); (Cmd.run (.opD [(DItv.rev Itv.absRev (⟨⟨(f 1 0), (f (-9007199254740991) (971))⟩, .dac⟩ : DItv) (⟨⟨(f (-2476979795053773) (-51)), (f 5 0)⟩, .defd⟩ : DItv) : DItv)]))),
    .state 423 [.invalidOperand],
    .call clearFlags,
    .call (setCwd (bitsOf [.invalidOperand])),
    .throws 426 ((Cmd.run (.opD [(⟨⟨(f 1 0), (f (-3) (0))⟩, .trv⟩ : DItv), (⟨⟨(f (-2476979795053773) (-51)), (f 5 0)⟩, .com⟩ : DItv)]))) .invalidOperand,
    .state 427 [.invalidOperand],
    .call clearFlags,
    .call (setCwd (bitsOf []))] ExSt.init = [] := by
  decide +kernel

/-- `minimal_abs_rev_dec_mixedtype_test` -/
example : failed [
    .call (do (Cmd.run (.opD [(DItv.empty : DItv)])); (Cmd.run (.opD [(DItv.revMixed (fun _ => Itv.absRev) .float .double .float (DItv.empty : DItv) (DItv.entire : DItv) : DItv)]))),
    .call (do (Cmd.run (.opD [(⟨⟨(f (-9227469) (-23)), (f (-13421773) (-25))⟩, .defd⟩ : DItv)])); (Cmd.run (.opD [(DItv.revMixed (fun _ => Itv.absRev) .double .float .double (⟨⟨(f (-9227469) (-23)), (f (-13421773) (-25))⟩, .defd⟩ : DItv) (DItv.entire : DItv) : DItv)]))),
    .call ((Cmd.run (.opD [(⟨⟨(f 0 0), .pinf⟩, .dac⟩ : DItv)]))),
    .call ((Cmd.run (.opD [(⟨⟨(f (9227469) (-23)), (f (4404019) (-21))⟩, .defd⟩ : DItv)]))),
    .call ((Cmd.run (.opD [(⟨⟨(f (-9227469) (-23)), (f 2 0)⟩, .com⟩ : DItv)]))),
    .call ((Cmd.run (.opD [(⟨⟨(f (-2476979795053773) (-51)), (f 0 0)⟩, .dac⟩ : DItv)]))),
    .call ((Cmd.run (.opD [(⟨⟨(f (-4278419646001971) (-51)), (f (3602879701896397) (-54))⟩, .defd⟩ : DItv)]))),
    .call ((Cmd.run (.opD [(⟨⟨(f 0 0), (f (3602879701896397) (-54))⟩, .com⟩ : DItv)]))),
    .call ((Cmd.run (.opD [(⟨⟨(f (-3) (-1)), .pinf⟩, .dac⟩ : DItv)]))),
    .call clearFlags,
    .call (do (Cmd.run (.opD [(⟨⟨(f 1 0), (f (-9007199254740991) (971))⟩, .defd⟩ : DItv)])); (Cmd.run (.opD [(DItv.revMixed (fun _ => Itv.absRev) .float .double .float (⟨⟨(f 1 0), (f (-9007199254740991) (971))⟩, .defd⟩ : DItv) (DItv.entire : DItv) : DItv)]))),
    .state 447 [.invalidOperand],
    .call clearFlags,
    .call (setCwd (bitsOf [.invalidOperand])),
    .throws 450 ((Cmd.run (.opD [(⟨⟨(f 1 0), (f (-3) (0))⟩, .dac⟩ : DItv)]))) .invalidOperand,
    .state 451 [.invalidOperand],
    .call clearFlags,
    .call (setCwd (bitsOf []))] ExSt.init = [] := by
  decide +kernel

/-- `minimal_abs_rev_dec_bin_mixedtype_test` -/
example : failed [
    .call (do (Cmd.run (.opD [(DItv.empty : DItv), (⟨⟨(f (-2476979795053773) (-51)), (f 5 0)⟩, .trv⟩ : DItv)])); (Cmd.run (.opD [(DItv.revMixed (fun _ => Itv.absRev) .float .double .double (DItv.empty : DItv) (⟨⟨(f (-2476979795053773) (-51)), (f 5 0)⟩, .trv⟩ : DItv) : DItv)]))),
    .call (do (Cmd.run (.opD [(⟨⟨(f (-9227469) (-23)), (f (-13421773) (-25))⟩, .defd⟩ : DItv), (⟨⟨(f (-1) (0)), (f 5 0)⟩, .dac⟩ : DItv)])); (Cmd.run (.opD [(DItv.revMixed (fun _ => Itv.absRev) .double .float .float (⟨⟨(f (-9227469) (-23)), (f (-13421773) (-25))⟩, .defd⟩ : DItv) (⟨⟨(f (-1) (0)), (f 5 0)⟩, .dac⟩ : DItv) : DItv)]))),
    .call ((Cmd.run (.opD [(⟨⟨(f 0 0), .pinf⟩, .dac⟩ : DItv), (⟨⟨(f (-2476979795053773) (-51)), (f 5 0)⟩, .defd⟩ : DItv)]))),
    .call ((Cmd.run (.opD [(⟨⟨(f (9227469) (-23)), (f (4404019) (-21))⟩, .defd⟩ : DItv), (⟨⟨(f (-2476979795053773) (-51)), (f 5 0)⟩, .defd⟩ : DItv)]))),
    .call ((Cmd.run (.opD [(⟨⟨(f (-9227469) (-23)), (f 2 0)⟩, .defd⟩ : DItv), (⟨⟨(f (-2476979795053773) (-51)), (f 5 0)⟩, .dac⟩ : DItv)]))),
    .call ((Cmd.run (.opD [(⟨⟨(f (-2476979795053773) (-51)), (f 0 0)⟩, .com⟩ : DItv), (⟨⟨(f (-2476979795053773) (-51)), (f 5 0)⟩, .dac⟩ : DItv)]))),
    .call ((Cmd.run (.opD [(⟨⟨(f (-4278419646001971) (-51)), (f (3602879701896397) (-54))⟩, .com⟩ : DItv), (⟨⟨(f (-2476979795053773) (-51)), (f 5 0)⟩, .com⟩ : DItv)]))),
    .call clearFlags,
    .call (do (Cmd.run (.opD [(⟨⟨(f 1 0), (f (-9007199254740991) (971))⟩, .defd⟩ : DItv), (⟨⟨(f (-2476979795053773) (-51)), (f 5 0)⟩, .trv⟩ : DItv)])); (Cmd.run (.opD [(DItv.revMixed (fun _ => Itv.absRev) .float .double .double (⟨⟨(f 1 0), (f (-9007199254740991) (971))⟩, .defd⟩ : DItv) (⟨⟨(f (-2476979795053773) (-51)), (f 5 0)⟩, .trv⟩ : DItv) : DItv)]))),
    .state 469 [.invalidOperand],
    .call clearFlags,
    .call (setCwd (bitsOf [.invalidOperand])),
    .throws 472 ((Cmd.run (.opD [(⟨⟨(f 1 0), (f (-3) (0))⟩, .trv⟩ : DItv), (⟨⟨(f (-2476979795053773) (-51)), (f 5 0)⟩, .dac⟩ : DItv)]))) .invalidOperand,
    .state 473 [.invalidOperand],
    .call clearFlags,
    .call (setCwd (bitsOf []))] ExSt.init = [] := by
  decide +kernel

/-- `minimal_pown_rev_test` -/
example : failed [
    .call (do (Cmd.run (.op [(Itv.empty : Itv)])); (Cmd.run (.op [(Itv.empty : Itv)]))),
    .call ((Cmd.run (.op [(⟨(f 1 0), (f 1 0)⟩ : Itv)]))),
    .call ((Cmd.run (.op [(⟨(f (-1) (0)), (f 5 0)⟩ : Itv)]))),
    .call (do (Cmd.run (.op [(⟨(f (-1) (0)), (f 0 0)⟩ : Itv)])); (Cmd.run (.op [(Itv.empty : Itv)]))),
    .call (do (Cmd.run (.op [(⟨(f (-1) (0)), .nzero⟩ : Itv)])); (Cmd.run (.op [(Itv.empty : Itv)]))),
    .call (do (Cmd.run (.op [(⟨(f (2476979795053773) (-51)), (f 10 0)⟩ : Itv)])); (Cmd.run (.op [(Itv.empty : Itv)]))),
    .call (do (Cmd.run (.op [(Itv.empty : Itv)])); (Cmd.run (.op [(Itv.empty : Itv)]))),
    .call ((Cmd.run (.op [(Itv.entire : Itv)]))),
    .call ((Cmd.run (.op [(⟨(f 0 0), (f 0 0)⟩ : Itv)]))),
    .call ((Cmd.run (.op [(⟨.nzero, .nzero⟩ : Itv)]))),
    .call ((Cmd.run (.op [(⟨(f (7374644389819187) (-49)), (f (7374644389819187) (-49))⟩ : Itv)]))),
    .call ((Cmd.run (.op [(⟨(f (-2048155141936251) (-38)), (f (-2048155141936251) (-38))⟩ : Itv)]))),
    .call ((Cmd.run (.op [(⟨(f 9007199254740991 971), (f 9007199254740991 971)⟩ : Itv)]))),
    .call ((Cmd.run (.op [(⟨(f (-9007199254740991) (971)), (f (-9007199254740991) (971))⟩ : Itv)]))),
    .call ((Cmd.run (.op [(⟨(f 0 0), .pinf⟩ : Itv)]))),
    .call ((Cmd.run (.op [(⟨.nzero, .pinf⟩ : Itv)]))),
    .call ((Cmd.run (.op [(⟨.ninf, (f 0 0)⟩ : Itv)]))),
    .call ((Cmd.run (.op [(⟨.ninf, .nzero⟩ : Itv)]))),
    .call ((Cmd.run (.op [(⟨(f (-5705145934204109) (-44)), (f (5) (-1))⟩ : Itv)]))),
    .call ((Cmd.run (.op [(⟨(f (5764607523034235) (-59)), (f (1311673391471657) (-49))⟩ : Itv)]))),
    .call ((Cmd.run (.op [(⟨(f (-4278419646001971) (-51)), (f (-5944751508129055) (-54))⟩ : Itv)]))),
    .call (do (Cmd.run (.op [(Itv.empty : Itv)])); (Cmd.run (.op [(Itv.empty : Itv)]))),
    .call (do (Cmd.run (.op [(⟨(f (-5) (0)), (f (-1) (0))⟩ : Itv)])); (Cmd.run (.op [(Itv.empty : Itv)]))),
    .call ((Cmd.run (.op [(⟨(f 0 0), .pinf⟩ : Itv)]))),
    .call ((Cmd.run (.op [(⟨.nzero, .pinf⟩ : Itv)]))),
    .call ((Cmd.run (.op [(⟨(f 0 0), (f 0 0)⟩ : Itv)]))),
    .call ((Cmd.run (.op [(⟨.nzero, .nzero⟩ : Itv)]))),
    .call ((Cmd.run (.op [(⟨(f (6037990094164459) (-45)), (f (1509497523541115) (-43))⟩ : Itv)]))),
    .call ((Cmd.run (.op [(⟨(f (7451709445831341) (-27)), (f (3725854722915671) (-26))⟩ : Itv)]))),
    .call ((Cmd.run (.op [(⟨(f 9007199254740991 971), (f 9007199254740991 971)⟩ : Itv)]))),
    .call ((Cmd.run (.op [(⟨(f 0 0), (f (3613630520434361) (-35))⟩ : Itv)]))),
    .call ((Cmd.run (.op [(⟨.nzero, (f (3613630520434361) (-35))⟩ : Itv)]))),
    .call ((Cmd.run (.op [(⟨(f (1844674407370955) (-64)), (f (3056199002128961) (-49))⟩ : Itv)]))),
    .call ((Cmd.run (.op [(⟨(f (490441999420647) (-52)), (f (8128997327403745) (-51))⟩ : Itv)]))),
    .call (do (Cmd.run (.op [(Itv.empty : Itv)])); (Cmd.run (.op [(Itv.empty : Itv)]))),
    .call ((Cmd.run (.op [(Itv.entire : Itv)]))),
    .call ((Cmd.run (.op [(⟨(f 0 0), .pinf⟩ : Itv)]))),
    .call ((Cmd.run (.op [(⟨.nzero, .pinf⟩ : Itv)]))),
    .call ((Cmd.run (.op [(⟨(f 0 0), (f 0 0)⟩ : Itv)]))),
    .call ((Cmd.run (.op [(⟨.nzero, .nzero⟩ : Itv)]))),
    .call ((Cmd.run (.op [(⟨(f (7275456786617333) (-23)), (f (3637728393308667) (-22))⟩ : Itv)]))),
    .call ((Cmd.run (.op [(⟨(f 8438870763038477 50), (f 4219435381519239 51)⟩ : Itv)]))),
    .call ((Cmd.run (.op [(⟨(f 9007199254740991 971), (f 9007199254740991 971)⟩ : Itv)]))),
    .call ((Cmd.run (.op [(⟨(f 0 0), (f 466697707361877 18)⟩ : Itv)]))),
    .call ((Cmd.run (.op [(⟨.nzero, (f 466697707361877 18)⟩ : Itv)]))),
    .call ((Cmd.run (.op [(⟨(f (8112963841460669) (-106)), (f (7640770965392973) (-43))⟩ : Itv)]))),
    .call ((Cmd.run (.op [(⟨(f (5188731968750243) (-65)), (f (2987780007143395) (-44))⟩ : Itv)]))),
    .call (do (Cmd.run (.op [(Itv.empty : Itv)])); (Cmd.run (.op [(Itv.empty : Itv)]))),
    .call ((Cmd.run (.op [(Itv.entire : Itv)]))),
    .call ((Cmd.run (.op [(⟨(f 0 0), (f 0 0)⟩ : Itv)]))),
    .call ((Cmd.run (.op [(⟨.nzero, .nzero⟩ : Itv)]))),
    .call ((Cmd.run (.op [(⟨(f (2471802194798575) (-40)), (f (4943604389597151) (-41))⟩ : Itv)]))),
    .call ((Cmd.run (.op [(⟨(f (-6777803659516477) (-14)), (f (-1694450914879119) (-12))⟩ : Itv)]))),
    .call ((Cmd.run (.op [(⟨(f 9007199254740991 971), (f 9007199254740991 971)⟩ : Itv)]))),
    .call ((Cmd.run (.op [(⟨(f (-9007199254740991) (971)), (f (-9007199254740991) (971))⟩ : Itv)]))),
    .call ((Cmd.run (.op [(⟨(f 0 0), .pinf⟩ : Itv)]))),
    .call ((Cmd.run (.op [(⟨.nzero, .pinf⟩ : Itv)]))),
    .call ((Cmd.run (.op [(⟨.ninf, (f 0 0)⟩ : Itv)]))),
    .call ((Cmd.run (.op [(⟨.ninf, .nzero⟩ : Itv)]))),
    .call ((Cmd.run (.op [(⟨(f (-572216981336359) (-24)), (f (125) (-3))⟩ : Itv)]))),
    .call ((Cmd.run (.op [(⟨(f (4722366482869645) (-72)), (f (222529489842515) (-44))⟩ : Itv)]))),
    .call ((Cmd.run (.op [(⟨(f (-7722547461033557) (-50)), (f (-5179067513882033) (-57))⟩ : Itv)]))),
    .call (do (Cmd.run (.op [(Itv.empty : Itv)])); (Cmd.run (.op [(Itv.empty : Itv)]))),
    .call ((Cmd.run (.op [(Itv.entire : Itv)]))),
    .call ((Cmd.run (.op [(⟨(f 0 0), (f 0 0)⟩ : Itv)]))),
    .call ((Cmd.run (.op [(⟨.nzero, .nzero⟩ : Itv)]))),
    .call ((Cmd.run (.op [(⟨(f (8886054090524987) (-27)), (f (2221513522631247) (-25))⟩ : Itv)]))),
    .call ((Cmd.run (.op [(⟨(f (-4638966849444697) (38)), (f (-579870856180587) (41))⟩ : Itv)]))),
    .call ((Cmd.run (.op [(⟨(f 9007199254740991 971), (f 9007199254740991 971)⟩ : Itv)]))),
    .call ((Cmd.run (.op [(⟨(f (-9007199254740991) (971)), (f (-9007199254740991) (971))⟩ : Itv)]))),
    .call ((Cmd.run (.op [(⟨(f 0 0), .pinf⟩ : Itv)]))),
    .call ((Cmd.run (.op [(⟨.nzero, .pinf⟩ : Itv)]))),
    .call ((Cmd.run (.op [(⟨.ninf, (f 0 0)⟩ : Itv)]))),
    .call ((Cmd.run (.op [(⟨.ninf, .nzero⟩ : Itv)]))),
    .call ((Cmd.run (.op [(⟨(f (-5894523001400703) (6)), (f (78125) (-7))⟩ : Itv)]))),
    .call ((Cmd.run (.op [(⟨(f (6338253001141147) (-99)), (f (6558601687032595) (-44))⟩ : Itv)]))),
    .call ((Cmd.run (.op [(⟨(f (-6290063172933463) (-46)), (f (-3930857552083517) (-63))⟩ : Itv)]))),
    .call (do (Cmd.run (.op [(Itv.empty : Itv)])); (Cmd.run (.op [(Itv.empty : Itv)]))),
    .call ((Cmd.run (.op [(⟨(f 0 0), .pinf⟩ : Itv)]))),
    .call ((Cmd.run (.op [(⟨.nzero, .pinf⟩ : Itv)]))),
    .call (do (Cmd.run (.op [(⟨(f 0 0), (f 0 0)⟩ : Itv)])); (Cmd.run (.op [(Itv.empty : Itv)]))),
    .call (do (Cmd.run (.op [(⟨.nzero, .nzero⟩ : Itv)])); (Cmd.run (.op [(Itv.empty : Itv)]))),
    .call (do (Cmd.run (.op [(⟨(f (-10) (0)), (f 0 0)⟩ : Itv)])); (Cmd.run (.op [(Itv.empty : Itv)]))),
    .call (do (Cmd.run (.op [(⟨(f (-10) (0)), .nzero⟩ : Itv)])); (Cmd.run (.op [(Itv.empty : Itv)]))),
    .call ((Cmd.run (.op [(⟨(f (839783159931565) (-57)), (f (6718265279452521) (-60))⟩ : Itv)]))),
    .call ((Cmd.run (.op [(⟨(f (1360923272108933) (-76)), (f (5443693088435733) (-78))⟩ : Itv)]))),
    .call ((Cmd.run (.op [(⟨(f 0 0), (f (1) (-1074))⟩ : Itv)]))),
    .call ((Cmd.run (.op [(⟨(f (5612751356000201) (-69)), .pinf⟩ : Itv)]))),
    .call ((Cmd.run (.op [(⟨(f (6636481979584071) (-55)), (f 10000 0)⟩ : Itv)]))),
    .call ((Cmd.run (.op [(⟨(f (38985453838041) (-47)), (f (5169421059883489) (-49))⟩ : Itv)]))),
    .call (do (Cmd.run (.op [(Itv.empty : Itv)])); (Cmd.run (.op [(Itv.empty : Itv)]))),
    .call ((Cmd.run (.op [(⟨(f 0 0), .pinf⟩ : Itv)]))),
    .call ((Cmd.run (.op [(⟨.nzero, .pinf⟩ : Itv)]))),
    .call (do (Cmd.run (.op [(⟨(f 0 0), (f 0 0)⟩ : Itv)])); (Cmd.run (.op [(Itv.empty : Itv)]))),
    .call (do (Cmd.run (.op [(⟨.nzero, .nzero⟩ : Itv)])); (Cmd.run (.op [(Itv.empty : Itv)]))),
    .call ((Cmd.run (.op [(⟨(f (5575570084055661) (-82)), (f (2787785042027831) (-81))⟩ : Itv)]))),
    .call ((Cmd.run (.op [(⟨(f (1201725335840363) (-153)), (f (4806901343361453) (-155))⟩ : Itv)]))),
    .call ((Cmd.run (.op [(⟨(f 0 0), (f (1) (-1074))⟩ : Itv)]))),
    .call ((Cmd.run (.op [(⟨(f (1358106736150403) (-117)), .pinf⟩ : Itv)]))),
    .call ((Cmd.run (.op [(⟨(f (1327248892521183) (-60)), (f 152587890625 16)⟩ : Itv)]))),
    .call ((Cmd.run (.op [(⟨(f (6788454824370957) (-60)), (f (1954466883797901) (-38))⟩ : Itv)]))),
    .call (do (Cmd.run (.op [(Itv.empty : Itv)])); (Cmd.run (.op [(Itv.empty : Itv)]))),
    .call ((Cmd.run (.op [(Itv.entire : Itv)]))),
    .call (do (Cmd.run (.op [(⟨(f 0 0), (f 0 0)⟩ : Itv)])); (Cmd.run (.op [(Itv.empty : Itv)]))),
    .call (do (Cmd.run (.op [(⟨.nzero, .nzero⟩ : Itv)])); (Cmd.run (.op [(Itv.empty : Itv)]))),
    .call ((Cmd.run (.op [(⟨(f (2750289848775875) (-55)), (f (5500579697551751) (-56))⟩ : Itv)]))),
    .call ((Cmd.run (.op [(⟨(f (-4951385075370175) (-65)), (f (-2475692537685087) (-64))⟩ : Itv)]))),
    .call ((Cmd.run (.op [(⟨(f (1) (-1024)), (f (1125899906842625) (-1074))⟩ : Itv)]))),
    .call ((Cmd.run (.op [(⟨(f (-1125899906842625) (-1074)), (f (-1) (-1024))⟩ : Itv)]))),
    .call ((Cmd.run (.op [(⟨(f 0 0), .pinf⟩ : Itv)]))),
    .call ((Cmd.run (.op [(⟨.nzero, .pinf⟩ : Itv)]))),
    .call ((Cmd.run (.op [(⟨.ninf, (f 0 0)⟩ : Itv)]))),
    .call ((Cmd.run (.op [(⟨.ninf, .nzero⟩ : Itv)]))),
    .call ((Cmd.run (.op [(⟨(f (7731501506215443) (-54)), (f 100 0)⟩ : Itv)]))),
    .call ((Cmd.run (.op [(⟨(f (-3411817899523103) (-50)), (f (-4740631186705785) (-53))⟩ : Itv)]))),
    .call (do (Cmd.run (.op [(Itv.empty : Itv)])); (Cmd.run (.op [(Itv.empty : Itv)]))),
    .call ((Cmd.run (.op [(Itv.entire : Itv)]))),
    .call (do (Cmd.run (.op [(⟨(f 0 0), (f 0 0)⟩ : Itv)])); (Cmd.run (.op [(Itv.empty : Itv)]))),
    .call (do (Cmd.run (.op [(⟨.nzero, .nzero⟩ : Itv)])); (Cmd.run (.op [(Itv.empty : Itv)]))),
    .call ((Cmd.run (.op [(⟨(f (8205514845132849) (-64)), (f (4102757422566425) (-63))⟩ : Itv)]))),
    .call ((Cmd.run (.op [(⟨(f (-5984950471432985) (-91)), (f (-748118808929123) (-88))⟩ : Itv)]))),
    .call ((Cmd.run (.op [(⟨(f 0 0), (f (1) (-1074))⟩ : Itv)]))),
    .call ((Cmd.run (.op [(⟨(f (-1) (-1074)), .nzero⟩ : Itv)]))),
    .call ((Cmd.run (.op [(⟨(f 0 0), .pinf⟩ : Itv)]))),
    .call ((Cmd.run (.op [(⟨.nzero, .pinf⟩ : Itv)]))),
    .call ((Cmd.run (.op [(⟨.ninf, (f 0 0)⟩ : Itv)]))),
    .call ((Cmd.run (.op [(⟨.ninf, .nzero⟩ : Itv)]))),
    .call ((Cmd.run (.op [(⟨(f (5696551055436971) (-56)), (f 1000000 0)⟩ : Itv)]))),
    .call ((Cmd.run (.op [(⟨(f (-1958114037834655) (-46)), (f (-1313194234544539) (-53))⟩ : Itv)]))),
    .call (do (Cmd.run (.op [(Itv.empty : Itv)])); (Cmd.run (.op [(Itv.empty : Itv)]))),
    .call ((Cmd.run (.op [(Itv.entire : Itv)]))),
    .call (do (Cmd.run (.op [(⟨(f 0 0), (f 0 0)⟩ : Itv)])); (Cmd.run (.op [(Itv.empty : Itv)]))),
    .call (do (Cmd.run (.op [(⟨.nzero, .nzero⟩ : Itv)])); (Cmd.run (.op [(Itv.empty : Itv)]))),
    .call ((Cmd.run (.op [(⟨(f (1141249501580143) (-76)), (f (4564998006320573) (-78))⟩ : Itv)]))),
    .call ((Cmd.run (.op [(⟨(f (-8744364968281487) (-143)), (f (-4372182484140743) (-142))⟩ : Itv)]))),
    .call ((Cmd.run (.op [(⟨(f 0 0), (f (1) (-1074))⟩ : Itv)]))),
    .call ((Cmd.run (.op [(⟨(f (-1) (-1074)), .nzero⟩ : Itv)]))),
    .call ((Cmd.run (.op [(⟨(f 0 0), .pinf⟩ : Itv)]))),
    .call ((Cmd.run (.op [(⟨.nzero, .pinf⟩ : Itv)]))),
    .call ((Cmd.run (.op [(⟨.ninf, (f 0 0)⟩ : Itv)]))),
    .call ((Cmd.run (.op [(⟨.ninf, .nzero⟩ : Itv)]))),
    .call ((Cmd.run (.op [(⟨(f (6184979839148713) (-61)), (f 6103515625 14)⟩ : Itv)]))),
    .call ((Cmd.run (.op [(⟨(f (-5159792573226459) (-41)), (f (-6449032083152409) (-59))⟩ : Itv)]))),
    .state 635 [],
    .call clearFlags,
    .call (do (Cmd.run (.op [(⟨(f 1 0), (f (-9007199254740991) (971))⟩ : Itv)])); (Cmd.run (.op [(Itv.empty : Itv)]))),
    .state 639 [.invalidOperand],
    .call clearFlags,
    .call (setCwd (bitsOf [.invalidOperand])),
    .throws 642 ((Cmd.run (.op [(⟨(f 3 0), (f (-4) (0))⟩ : Itv)]))) .invalidOperand,
    .state 643 [.invalidOperand],
    .call clearFlags,
    .call (setCwd (bitsOf []))] ExSt.init = [] := by
  decide +kernel

/-- `minimal_pown_rev_bin_test` -/
example : failed [
    .call (do (Cmd.run (.op [(Itv.empty : Itv), (⟨(f 1 0), (f 1 0)⟩ : Itv)])); (Cmd.run (.op [(Itv.empty : Itv)]))),
    .call ((Cmd.run (.op [(⟨(f 1 0), (f 1 0)⟩ : Itv), (⟨(f 1 0), (f 1 0)⟩ : Itv)]))),
    .call ((Cmd.run (.op [(⟨(f (-1) (0)), (f 5 0)⟩ : Itv), (⟨(f (-51) (0)), (f 12 0)⟩ : Itv)]))),
    .call (do (Cmd.run (.op [(⟨(f (-1) (0)), (f 0 0)⟩ : Itv), (⟨(f 5 0), (f 10 0)⟩ : Itv)])); (Cmd.run (.op [(Itv.empty : Itv)]))),
    .call (do (Cmd.run (.op [(⟨(f (-1) (0)), .nzero⟩ : Itv), (⟨(f (-1) (0)), (f 1 0)⟩ : Itv)])); (Cmd.run (.op [(Itv.empty : Itv)]))),
    .call (do (Cmd.run (.op [(⟨(f (2476979795053773) (-51)), (f 10 0)⟩ : Itv), (⟨(f 1 0), (f 41 0)⟩ : Itv)])); (Cmd.run (.op [(Itv.empty : Itv)]))),
    .call (do (Cmd.run (.op [(Itv.empty : Itv), (⟨(f 0 0), (f (3521955646092083) (-45))⟩ : Itv)])); (Cmd.run (.op [(Itv.empty : Itv)]))),
    .call ((Cmd.run (.op [(Itv.entire : Itv), (⟨(f (-2871044762448691) (-49)), (f 10 0)⟩ : Itv)]))),
    .call ((Cmd.run (.op [(⟨(f 0 0), (f 0 0)⟩ : Itv), (⟨(f (-10) (0)), (f (2871044762448691) (-49))⟩ : Itv)]))),
    .call (do (Cmd.run (.op [(⟨.nzero, .nzero⟩ : Itv), (⟨(f 1 0), (f 5 0)⟩ : Itv)])); (Cmd.run (.op [(Itv.empty : Itv)]))),
    .call (do (Cmd.run (.op [(Itv.empty : Itv), (⟨(f 5 0), (f (2406611050876109) (-47))⟩ : Itv)])); (Cmd.run (.op [(Itv.empty : Itv)]))),
    .call (do (Cmd.run (.op [(⟨(f (-5) (0)), (f (-1) (0))⟩ : Itv), (⟨(f 5 0), (f (2406611050876109) (-47))⟩ : Itv)])); (Cmd.run (.op [(Itv.empty : Itv)]))),
    .call ((Cmd.run (.op [(⟨(f 0 0), .pinf⟩ : Itv), (⟨(f (3152519739159347) (-49)), (f (7752946758518309) (-48))⟩ : Itv)]))),
    .call (do (Cmd.run (.op [(⟨(f 0 0), (f 0 0)⟩ : Itv), (⟨(f 1 0), (f 2 0)⟩ : Itv)])); (Cmd.run (.op [(Itv.empty : Itv)]))),
    .call ((Cmd.run (.op [(⟨(f (1844674407370955) (-64)), (f (3056199002128961) (-49))⟩ : Itv), (⟨(f 1 0), .pinf⟩ : Itv)]))),
    .call ((Cmd.run (.op [(⟨(f (490441999420647) (-52)), (f (8128997327403745) (-51))⟩ : Itv), (⟨.ninf, (f (-1) (0))⟩ : Itv)]))),
    .call (do (Cmd.run (.op [(Itv.empty : Itv), (⟨(f (-23) (0)), (f (-1) (0))⟩ : Itv)])); (Cmd.run (.op [(Itv.empty : Itv)]))),
    .call ((Cmd.run (.op [(Itv.entire : Itv), (⟨(f (-23) (0)), (f (-1) (0))⟩ : Itv)]))),
    .call (do (Cmd.run (.op [(⟨(f 0 0), (f 0 0)⟩ : Itv), (⟨(f 1 0), (f 2 0)⟩ : Itv)])); (Cmd.run (.op [(Itv.empty : Itv)]))),
    .call ((Cmd.run (.op [(⟨(f (4722366482869645) (-72)), (f (222529489842515) (-44))⟩ : Itv), (⟨(f 1 0), .pinf⟩ : Itv)]))),
    .call ((Cmd.run (.op [(⟨(f (-7722547461033557) (-50)), (f (-5179067513882033) (-57))⟩ : Itv), (⟨.ninf, (f (-1) (0))⟩ : Itv)]))),
    .call (do (Cmd.run (.op [(Itv.empty : Itv), (⟨(f (-3) (0)), (f (4869517097094349) (-48))⟩ : Itv)])); (Cmd.run (.op [(Itv.empty : Itv)]))),
    .call ((Cmd.run (.op [(⟨(f 0 0), .pinf⟩ : Itv), (⟨(f (-2871044762448691) (-49)), (f (-3602879701896397) (-55))⟩ : Itv)]))),
    .call (do (Cmd.run (.op [(⟨(f 0 0), (f 0 0)⟩ : Itv), (⟨(f (7656119366529843) (-48)), (f (7754635608378573) (-47))⟩ : Itv)])); (Cmd.run (.op [(Itv.empty : Itv)]))),
    .call (do (Cmd.run (.op [(⟨(f (5612751356000201) (-69)), .pinf⟩ : Itv), (⟨.ninf, (f (-9007199254740991) (971))⟩ : Itv)])); (Cmd.run (.op [(Itv.empty : Itv)]))),
    .call ((Cmd.run (.op [(⟨(f (6636481979584071) (-55)), (f 10000 0)⟩ : Itv), (⟨(f 1 0), .pinf⟩ : Itv)]))),
    .call ((Cmd.run (.op [(⟨(f (38985453838041) (-47)), (f (5169421059883489) (-49))⟩ : Itv), (⟨.ninf, (f (-1) (0))⟩ : Itv)]))),
    .call (do (Cmd.run (.op [(Itv.empty : Itv), (⟨(f (-2871044762448691) (-49)), (f (111) (-1))⟩ : Itv)])); (Cmd.run (.op [(Itv.empty : Itv)]))),
    .call ((Cmd.run (.op [(Itv.entire : Itv), (⟨(f (-2871044762448691) (-49)), (f (111) (-1))⟩ : Itv)]))),
    .call (do (Cmd.run (.op [(⟨(f 0 0), (f 0 0)⟩ : Itv), (⟨(f (-2871044762448691) (-49)), (f (111) (-1))⟩ : Itv)])); (Cmd.run (.op [(Itv.empty : Itv)]))),
    .call ((Cmd.run (.op [(⟨.ninf, .nzero⟩ : Itv), (⟨(f (-1) (0)), (f 1 0)⟩ : Itv)]))),
    .call (do (Cmd.run (.op [(⟨(f (7731501506215443) (-54)), (f 100 0)⟩ : Itv), (⟨(f (-1) (0)), (f 0 0)⟩ : Itv)])); (Cmd.run (.op [(Itv.empty : Itv)]))),
    .call (do (Cmd.run (.op [(Itv.empty : Itv), (⟨(f (-2871044762448691) (-49)), (f (111) (-1))⟩ : Itv)])); (Cmd.run (.op [(Itv.empty : Itv)]))),
    .call ((Cmd.run (.op [(Itv.entire : Itv), (⟨(f (-2871044762448691) (-49)), (f (111) (-1))⟩ : Itv)]))),
    .call (do (Cmd.run (.op [(⟨(f 0 0), (f 0 0)⟩ : Itv), (⟨(f (-2871044762448691) (-49)), (f (111) (-1))⟩ : Itv)])); (Cmd.run (.op [(Itv.empty : Itv)]))),
    .call (do (Cmd.run (.op [(⟨.ninf, (f 0 0)⟩ : Itv), (⟨(f (2871044762448691) (-49)), (f (111) (-1))⟩ : Itv)])); (Cmd.run (.op [(Itv.empty : Itv)]))),
    .call ((Cmd.run (.op [(⟨.ninf, .nzero⟩ : Itv), (⟨(f (-32) (0)), (f (2476979795053773) (-51))⟩ : Itv)]))),
    .state 695 [],
    .call clearFlags,
    .call (do (Cmd.run (.op [(⟨(f 1 0), (f (-9007199254740991) (971))⟩ : Itv), (⟨(f (-1) (0)), (f 5 0)⟩ : Itv)])); (Cmd.run (.op [(Itv.empty : Itv)]))),
    .state 699 [.invalidOperand],
    .call clearFlags,
    .call (setCwd (bitsOf [.invalidOperand])),
    .throws 702 ((Cmd.run (.op [(⟨(f 3 0), (f 4 0)⟩ : Itv), (⟨(f 5 0), (f (-3996944669291315) (-49))⟩ : Itv)]))) .invalidOperand,
    .state 703 [.invalidOperand],
    .call clearFlags,
    .call (setCwd (bitsOf []))] ExSt.init = [] := by
  decide +kernel

/-- `minimal_pown_rev_mixedtype_test` -/
example : failed [
    .call ((Cmd.run (.op [(⟨(f (5764607523034235) (-59)), (f (1311673391471657) (-49))⟩ : Itv)]))),
    .call ((Cmd.run (.op [(⟨(f (-15938355) (-23)), (f (-11072963) (-25))⟩ : Itv)]))),
    .call ((Cmd.run (.op [(⟨(f (1844674407370955) (-64)), (f (3056199002128961) (-49))⟩ : Itv)]))),
    .call ((Cmd.run (.op [(⟨(f (7308155) (-26)), (f (7570719) (-21))⟩ : Itv)]))),
    .call ((Cmd.run (.op [(⟨(f (4722366482869645) (-72)), (f (222529489842515) (-44))⟩ : Itv)]))),
    .call ((Cmd.run (.op [(⟨(f (-7192183) (-20)), (f (-2411691) (-26))⟩ : Itv)]))),
    .call ((Cmd.run (.op [(⟨(f (1327248892521183) (-60)), (f 152587890625 16)⟩ : Itv)]))),
    .call ((Cmd.run (.op [(⟨(f (6322241) (-30)), (f (7280957) (-10))⟩ : Itv)]))),
    .call ((Cmd.run (.op [(⟨(f (7731501506215443) (-54)), (f 100 0)⟩ : Itv)]))),
    .call ((Cmd.run (.op [(⟨(f (-12710013) (-22)), (f (-8830113) (-24))⟩ : Itv)]))),
    .call ((Cmd.run (.op [(⟨(f (6184979839148713) (-61)), (f 6103515625 14)⟩ : Itv)]))),
    .call ((Cmd.run (.op [(⟨(f (-9610863) (-12)), (f (-6006129) (-29))⟩ : Itv)]))),
    .state 729 [],
    .call clearFlags,
    .call (do (Cmd.run (.op [(⟨(f 1 0), (f (-9007199254740991) (971))⟩ : Itv)])); (Cmd.run (.op [(Itv.empty : Itv)]))),
    .state 733 [.invalidOperand],
    .call clearFlags,
    .call (setCwd (bitsOf [.invalidOperand])),
    .throws 736 ((Cmd.run (.op [(⟨(f 3 0), (f (-4) (0))⟩ : Itv)]))) .invalidOperand,
    .state 737 [.invalidOperand],
    .call clearFlags,
    .call (setCwd (bitsOf []))] ExSt.init = [] := by
  decide +kernel

/-- `minimal_pown_rev_bin_mixedtype_test` -/
example : failed [
    .call ((Cmd.run (.op [(⟨(f (1844674407370955) (-64)), (f (3056199002128961) (-49))⟩ : Itv), (⟨(f 1 0), .pinf⟩ : Itv)]))),
    .call ((Cmd.run (.op [(⟨(f (7308155) (-26)), (f (7570719) (-21))⟩ : Itv), (⟨.ninf, (f (-1) (0))⟩ : Itv)]))),
    .call ((Cmd.run (.op [(⟨(f (4722366482869645) (-72)), (f (222529489842515) (-44))⟩ : Itv), (⟨(f 1 0), .pinf⟩ : Itv)]))),
    .call ((Cmd.run (.op [(⟨(f (-7192183) (-20)), (f (-2411691) (-26))⟩ : Itv), (⟨.ninf, (f (-1) (0))⟩ : Itv)]))),
    .call ((Cmd.run (.op [(⟨(f (6636481979584071) (-55)), (f 10000 0)⟩ : Itv), (⟨(f 1 0), .pinf⟩ : Itv)]))),
    .call ((Cmd.run (.op [(⟨(f (1161857) (-22)), (f (4814399) (-19))⟩ : Itv), (⟨.ninf, (f (-1) (0))⟩ : Itv)]))),
    .call ((Cmd.run (.op [(Itv.entire : Itv), (⟨(f (-2871044762448691) (-49)), (f (111) (-1))⟩ : Itv)]))),
    .call (do (Cmd.run (.op [(⟨(f (14401043) (-25)), (f 100 0)⟩ : Itv), (⟨(f (-1) (0)), (f 0 0)⟩ : Itv)])); (Cmd.run (.op [(Itv.empty : Itv)]))),
    .call ((Cmd.run (.op [(Itv.entire : Itv), (⟨(f (-2871044762448691) (-49)), (f (111) (-1))⟩ : Itv)]))),
    .call ((Cmd.run (.op [(⟨.ninf, .nzero⟩ : Itv), (⟨(f (-32) (0)), (f (9227469) (-23))⟩ : Itv)]))),
    .state 760 [],
    .call clearFlags,
    .call (do (Cmd.run (.op [(⟨(f 1 0), (f (-9007199254740991) (971))⟩ : Itv), (⟨(f (-1) (0)), (f 5 0)⟩ : Itv)])); (Cmd.run (.op [(Itv.empty : Itv)]))),
    .state 764 [.invalidOperand],
    .call clearFlags,
    .call (setCwd (bitsOf [.invalidOperand])),
    .throws 767 ((Cmd.run (.op [(⟨(f 3 0), (f 4 0)⟩ : Itv), (⟨(f 5 0), (f (-3996944669291315) (-49))⟩ : Itv)]))) .invalidOperand,
    .state 768 [.invalidOperand],
    .call clearFlags,
    .call (setCwd (bitsOf []))] ExSt.init = [] := by
  decide +kernel

/-- `minimal_pown_rev_dec_test` -/
example : failed [
    .call (do (Cmd.run (.opD [(DItv.empty : DItv)])); (Cmd.run (.opD [(DItv.empty : DItv)]))),
    .call ((Cmd.run (.opD [(⟨⟨(f 1 0), (f 1 0)⟩, .com⟩ : DItv)]))),
    .call ((Cmd.run (.opD [(⟨⟨(f (-1) (0)), (f 5 0)⟩, .dac⟩ : DItv)]))),
    .call (do (Cmd.run (.opD [(⟨⟨(f (-1) (0)), (f 0 0)⟩, .defd⟩ : DItv)])); (Cmd.run (.opD [(DItv.empty : DItv)]))),
    .call (do (Cmd.run (.opD [(⟨⟨(f (-1) (0)), .nzero⟩, .dac⟩ : DItv)])); (Cmd.run (.opD [(DItv.empty : DItv)]))),
    .call (do (Cmd.run (.opD [(⟨⟨(f (2476979795053773) (-51)), (f 10 0)⟩, .com⟩ : DItv)])); (Cmd.run (.opD [(DItv.empty : DItv)]))),
    .call (do (Cmd.run (.opD [(DItv.empty : DItv)])); (Cmd.run (.opD [(DItv.empty : DItv)]))),
    .call ((Cmd.run (.opD [(DItv.entire : DItv)]))),
    .call ((Cmd.run (.opD [(⟨⟨(f 0 0), (f 0 0)⟩, .com⟩ : DItv)]))),
    .call ((Cmd.run (.opD [(⟨⟨.nzero, .nzero⟩, .dac⟩ : DItv)]))),
    .call ((Cmd.run (.opD [(⟨⟨(f (7374644389819187) (-49)), (f (7374644389819187) (-49))⟩, .defd⟩ : DItv)]))),
    .call ((Cmd.run (.opD [(⟨⟨(f (-2048155141936251) (-38)), (f (-2048155141936251) (-38))⟩, .dac⟩ : DItv)]))),
    .call ((Cmd.run (.opD [(⟨⟨(f 9007199254740991 971), (f 9007199254740991 971)⟩, .com⟩ : DItv)]))),
    .call ((Cmd.run (.opD [(⟨⟨(f (-9007199254740991) (971)), (f (-9007199254740991) (971))⟩, .com⟩ : DItv)]))),
    .call ((Cmd.run (.opD [(⟨⟨(f 0 0), .pinf⟩, .dac⟩ : DItv)]))),
    .call ((Cmd.run (.opD [(⟨⟨.nzero, .pinf⟩, .dac⟩ : DItv)]))),
    .call ((Cmd.run (.opD [(⟨⟨.ninf, (f 0 0)⟩, .defd⟩ : DItv)]))),
    .call ((Cmd.run (.opD [(⟨⟨.ninf, .nzero⟩, .defd⟩ : DItv)]))),
    .call ((Cmd.run (.opD [(⟨⟨(f (-5705145934204109) (-44)), (f (5) (-1))⟩, .dac⟩ : DItv)]))),
    .call ((Cmd.run (.opD [(⟨⟨(f (5764607523034235) (-59)), (f (1311673391471657) (-49))⟩, .com⟩ : DItv)]))),
    .call ((Cmd.run (.opD [(⟨⟨(f (-4278419646001971) (-51)), (f (-5944751508129055) (-54))⟩, .defd⟩ : DItv)]))),
    .call (do (Cmd.run (.opD [(DItv.empty : DItv)])); (Cmd.run (.opD [(DItv.empty : DItv)]))),
    .call ((Cmd.run (.opD [(⟨⟨(f 0 0), .pinf⟩, .dac⟩ : DItv)]))),
    .call ((Cmd.run (.opD [(⟨⟨.nzero, .pinf⟩, .defd⟩ : DItv)]))),
    .call ((Cmd.run (.opD [(⟨⟨(f 0 0), (f 0 0)⟩, .com⟩ : DItv)]))),
    .call ((Cmd.run (.opD [(⟨⟨.nzero, .nzero⟩, .dac⟩ : DItv)]))),
    .call ((Cmd.run (.opD [(⟨⟨(f (6037990094164459) (-45)), (f (1509497523541115) (-43))⟩, .defd⟩ : DItv)]))),
    .call ((Cmd.run (.opD [(⟨⟨(f (7451709445831341) (-27)), (f (3725854722915671) (-26))⟩, .defd⟩ : DItv)]))),
    .call ((Cmd.run (.opD [(⟨⟨(f 9007199254740991 971), (f 9007199254740991 971)⟩, .dac⟩ : DItv)]))),
    .call ((Cmd.run (.opD [(⟨⟨(f 0 0), (f (3613630520434361) (-35))⟩, .dac⟩ : DItv)]))),
    .call ((Cmd.run (.opD [(⟨⟨.nzero, (f (3613630520434361) (-35))⟩, .defd⟩ : DItv)]))),
    .call ((Cmd.run (.opD [(⟨⟨(f (1844674407370955) (-64)), (f (3056199002128961) (-49))⟩, .com⟩ : DItv)]))),
    .call ((Cmd.run (.opD [(⟨⟨(f (490441999420647) (-52)), (f (8128997327403745) (-51))⟩, .defd⟩ : DItv)]))),
    .call (do (Cmd.run (.opD [(DItv.empty : DItv)])); (Cmd.run (.opD [(DItv.empty : DItv)]))),
    .call ((Cmd.run (.opD [(DItv.entire : DItv)]))),
    .call ((Cmd.run (.opD [(⟨⟨(f 0 0), .pinf⟩, .dac⟩ : DItv)]))),
    .call ((Cmd.run (.opD [(⟨⟨.nzero, .pinf⟩, .dac⟩ : DItv)]))),
    .call ((Cmd.run (.opD [(⟨⟨(f 0 0), (f 0 0)⟩, .defd⟩ : DItv)]))),
    .call ((Cmd.run (.opD [(⟨⟨.nzero, .nzero⟩, .dac⟩ : DItv)]))),
    .call ((Cmd.run (.opD [(⟨⟨(f (7275456786617333) (-23)), (f (3637728393308667) (-22))⟩, .com⟩ : DItv)]))),
    .call ((Cmd.run (.opD [(⟨⟨(f 8438870763038477 50), (f 4219435381519239 51)⟩, .dac⟩ : DItv)]))),
    .call ((Cmd.run (.opD [(⟨⟨(f 9007199254740991 971), (f 9007199254740991 971)⟩, .defd⟩ : DItv)]))),
    .call ((Cmd.run (.opD [(⟨⟨(f 0 0), (f 466697707361877 18)⟩, .dac⟩ : DItv)]))),
    .call ((Cmd.run (.opD [(⟨⟨.nzero, (f 466697707361877 18)⟩, .defd⟩ : DItv)]))),
    .call ((Cmd.run (.opD [(⟨⟨(f (8112963841460669) (-106)), (f (7640770965392973) (-43))⟩, .com⟩ : DItv)]))),
    .call ((Cmd.run (.opD [(⟨⟨(f (5188731968750243) (-65)), (f (2987780007143395) (-44))⟩, .dac⟩ : DItv)]))),
    .call (do (Cmd.run (.opD [(DItv.empty : DItv)])); (Cmd.run (.opD [(DItv.empty : DItv)]))),
    .call ((Cmd.run (.opD [(DItv.entire : DItv)]))),
    .call ((Cmd.run (.opD [(⟨⟨(f 0 0), (f 0 0)⟩, .dac⟩ : DItv)]))),
    .call ((Cmd.run (.opD [(⟨⟨.nzero, .nzero⟩, .defd⟩ : DItv)]))),
    .call ((Cmd.run (.opD [(⟨⟨(f (2471802194798575) (-40)), (f (4943604389597151) (-41))⟩, .com⟩ : DItv)]))),
    .call ((Cmd.run (.opD [(⟨⟨(f (-6777803659516477) (-14)), (f (-1694450914879119) (-12))⟩, .defd⟩ : DItv)]))),
    .call ((Cmd.run (.opD [(⟨⟨(f 9007199254740991 971), (f 9007199254740991 971)⟩, .dac⟩ : DItv)]))),
    .call ((Cmd.run (.opD [(⟨⟨(f (-9007199254740991) (971)), (f (-9007199254740991) (971))⟩, .com⟩ : DItv)]))),
    .call ((Cmd.run (.opD [(⟨⟨(f 0 0), .pinf⟩, .defd⟩ : DItv)]))),
    .call ((Cmd.run (.opD [(⟨⟨.nzero, .pinf⟩, .defd⟩ : DItv)]))),
    .call ((Cmd.run (.opD [(⟨⟨.ninf, (f 0 0)⟩, .dac⟩ : DItv)]))),
    .call ((Cmd.run (.opD [(⟨⟨.ninf, .nzero⟩, .defd⟩ : DItv)]))),
    .call ((Cmd.run (.opD [(⟨⟨(f (-572216981336359) (-24)), (f (125) (-3))⟩, .com⟩ : DItv)]))),
    .call ((Cmd.run (.opD [(⟨⟨(f (4722366482869645) (-72)), (f (222529489842515) (-44))⟩, .dac⟩ : DItv)]))),
    .call ((Cmd.run (.opD [(⟨⟨(f (-7722547461033557) (-50)), (f (-5179067513882033) (-57))⟩, .defd⟩ : DItv)]))),
    .call (do (Cmd.run (.opD [(DItv.empty : DItv)])); (Cmd.run (.opD [(DItv.empty : DItv)]))),
    .call ((Cmd.run (.opD [(DItv.entire : DItv)]))),
    .call ((Cmd.run (.opD [(⟨⟨(f 0 0), (f 0 0)⟩, .com⟩ : DItv)]))),
    .call ((Cmd.run (.opD [(⟨⟨.nzero, .nzero⟩, .dac⟩ : DItv)]))),
    .call ((Cmd.run (.opD [(⟨⟨(f (8886054090524987) (-27)), (f (2221513522631247) (-25))⟩, .defd⟩ : DItv)]))),
    .call ((Cmd.run (.opD [(⟨⟨(f (-4638966849444697) (38)), (f (-579870856180587) (41))⟩, .dac⟩ : DItv)]))),
    .call ((Cmd.run (.opD [(⟨⟨(f 9007199254740991 971), (f 9007199254740991 971)⟩, .com⟩ : DItv)]))),
    .call ((Cmd.run (.opD [(⟨⟨(f (-9007199254740991) (971)), (f (-9007199254740991) (971))⟩, .defd⟩ : DItv)]))),
    .call ((Cmd.run (.opD [(⟨⟨(f 0 0), .pinf⟩, .dac⟩ : DItv)]))),
    .call ((Cmd.run (.opD [(⟨⟨.nzero, .pinf⟩, .dac⟩ : DItv)]))),
    .call ((Cmd.run (.opD [(⟨⟨.ninf, (f 0 0)⟩, .defd⟩ : DItv)]))),
    .call ((Cmd.run (.opD [(⟨⟨.ninf, .nzero⟩, .defd⟩ : DItv)]))),
    .call ((Cmd.run (.opD [(⟨⟨(f (-5894523001400703) (6)), (f (78125) (-7))⟩, .dac⟩ : DItv)]))),
    .call ((Cmd.run (.opD [(⟨⟨(f (6338253001141147) (-99)), (f (6558601687032595) (-44))⟩, .com⟩ : DItv)]))),
    .call ((Cmd.run (.opD [(⟨⟨(f (-6290063172933463) (-46)), (f (-3930857552083517) (-63))⟩, .defd⟩ : DItv)]))),
    .call (do (Cmd.run (.opD [(DItv.empty : DItv)])); (Cmd.run (.opD [(DItv.empty : DItv)]))),
    .call ((Cmd.run (.opD [(⟨⟨(f 0 0), .pinf⟩, .dac⟩ : DItv)]))),
    .call ((Cmd.run (.opD [(⟨⟨.nzero, .pinf⟩, .dac⟩ : DItv)]))),
    .call (do (Cmd.run (.opD [(⟨⟨(f 0 0), (f 0 0)⟩, .defd⟩ : DItv)])); (Cmd.run (.opD [(DItv.empty : DItv)]))),
    .call (do (Cmd.run (.opD [(⟨⟨.nzero, .nzero⟩, .com⟩ : DItv)])); (Cmd.run (.opD [(DItv.empty : DItv)]))),
    .call (do (Cmd.run (.opD [(⟨⟨(f (-10) (0)), (f 0 0)⟩, .dac⟩ : DItv)])); (Cmd.run (.opD [(DItv.empty : DItv)]))),
    .call (do (Cmd.run (.opD [(⟨⟨(f (-10) (0)), .nzero⟩, .defd⟩ : DItv)])); (Cmd.run (.opD [(DItv.empty : DItv)]))),
    .call ((Cmd.run (.opD [(⟨⟨(f (839783159931565) (-57)), (f (6718265279452521) (-60))⟩, .dac⟩ : DItv)]))),
    .call ((Cmd.run (.opD [(⟨⟨(f (1360923272108933) (-76)), (f (5443693088435733) (-78))⟩, .defd⟩ : DItv)]))),
    .call ((Cmd.run (.opD [(⟨⟨(f 0 0), (f (1) (-1074))⟩, .com⟩ : DItv)]))),
    .call ((Cmd.run (.opD [(⟨⟨(f (5612751356000201) (-69)), .pinf⟩, .dac⟩ : DItv)]))),
    .call ((Cmd.run (.opD [(⟨⟨(f (6636481979584071) (-55)), (f 10000 0)⟩, .defd⟩ : DItv)]))),
    .call ((Cmd.run (.opD [(⟨⟨(f (38985453838041) (-47)), (f (5169421059883489) (-49))⟩, .com⟩ : DItv)]))),
    .call (do (Cmd.run (.opD [(DItv.empty : DItv)])); (Cmd.run (.opD [(DItv.empty : DItv)]))),
    .call ((Cmd.run (.opD [(⟨⟨(f 0 0), .pinf⟩, .defd⟩ : DItv)]))),
    .call ((Cmd.run (.opD [(⟨⟨.nzero, .pinf⟩, .dac⟩ : DItv)]))),
    .call (do (Cmd.run (.opD [(⟨⟨(f 0 0), (f 0 0)⟩, .defd⟩ : DItv)])); (Cmd.run (.opD [(DItv.empty : DItv)]))),
    .call (do (Cmd.run (.opD [(⟨⟨.nzero, .nzero⟩, .dac⟩ : DItv)])); (Cmd.run (.opD [(DItv.empty : DItv)]))),
    .call ((Cmd.run (.opD [(⟨⟨(f (5575570084055661) (-82)), (f (2787785042027831) (-81))⟩, .com⟩ : DItv)]))),
    .call ((Cmd.run (.opD [(⟨⟨(f (1201725335840363) (-153)), (f (4806901343361453) (-155))⟩, .defd⟩ : DItv)]))),
    .call ((Cmd.run (.opD [(⟨⟨(f 0 0), (f (1) (-1074))⟩, .dac⟩ : DItv)]))),
    .call ((Cmd.run (.opD [(⟨⟨(f (1358106736150403) (-117)), .pinf⟩, .defd⟩ : DItv)]))),
    .call ((Cmd.run (.opD [(⟨⟨(f (1327248892521183) (-60)), (f 152587890625 16)⟩, .com⟩ : DItv)]))),
    .call ((Cmd.run (.opD [(⟨⟨(f (6788454824370957) (-60)), (f (1954466883797901) (-38))⟩, .defd⟩ : DItv)]))),
    .call (do (Cmd.run (.opD [(DItv.empty : DItv)])); (Cmd.run (.opD [(DItv.empty : DItv)]))),
    .call ((Cmd.run (.opD [(DItv.entire : DItv)]))),
    .call (do (Cmd.run (.opD [(⟨⟨(f 0 0), (f 0 0)⟩, .dac⟩ : DItv)])); (Cmd.run (.opD [(DItv.empty : DItv)]))),
    .call (do (Cmd.run (.opD [(⟨⟨.nzero, .nzero⟩, .dac⟩ : DItv)])); (Cmd.run (.opD [(DItv.empty : DItv)]))),
    .call ((Cmd.run (.opD [(⟨⟨(f (2750289848775875) (-55)), (f (5500579697551751) (-56))⟩, .defd⟩ : DItv)]))),
    .call ((Cmd.run (.opD [(⟨⟨(f (-4951385075370175) (-65)), (f (-2475692537685087) (-64))⟩, .dac⟩ : DItv)]))),
    .call ((Cmd.run (.opD [(⟨⟨(f (1) (-1024)), (f (1125899906842625) (-1074))⟩, .dac⟩ : DItv)]))),
    .call ((Cmd.run (.opD [(⟨⟨(f (-1125899906842625) (-1074)), (f (-1) (-1024))⟩, .defd⟩ : DItv)]))),
    .call ((Cmd.run (.opD [(⟨⟨(f 0 0), .pinf⟩, .dac⟩ : DItv)]))),
    .call ((Cmd.run (.opD [(⟨⟨.nzero, .pinf⟩, .dac⟩ : DItv)]))),
    .call ((Cmd.run (.opD [(⟨⟨.ninf, (f 0 0)⟩, .dac⟩ : DItv)]))),
    .call ((Cmd.run (.opD [(⟨⟨.ninf, .nzero⟩, .defd⟩ : DItv)]))),
    .call ((Cmd.run (.opD [(⟨⟨(f (7731501506215443) (-54)), (f 100 0)⟩, .com⟩ : DItv)]))),
    .call ((Cmd.run (.opD [(⟨⟨(f (-3411817899523103) (-50)), (f (-4740631186705785) (-53))⟩, .com⟩ : DItv)]))),
    .call (do (Cmd.run (.opD [(DItv.empty : DItv)])); (Cmd.run (.opD [(DItv.empty : DItv)]))),
    .call ((Cmd.run (.opD [(DItv.entire : DItv)]))),
    .call (do (Cmd.run (.opD [(⟨⟨(f 0 0), (f 0 0)⟩, .defd⟩ : DItv)])); (Cmd.run (.opD [(DItv.empty : DItv)]))),
    .call (do (Cmd.run (.opD [(⟨⟨.nzero, .nzero⟩, .dac⟩ : DItv)])); (Cmd.run (.opD [(DItv.empty : DItv)]))),
    .call ((Cmd.run (.opD [(⟨⟨(f (8205514845132849) (-64)), (f (4102757422566425) (-63))⟩, .com⟩ : DItv)]))),
    .call ((Cmd.run (.opD [(⟨⟨(f (-5984950471432985) (-91)), (f (-748118808929123) (-88))⟩, .defd⟩ : DItv)]))),
    .call ((Cmd.run (.opD [(⟨⟨(f 0 0), (f (1) (-1074))⟩, .dac⟩ : DItv)]))),
    .call ((Cmd.run (.opD [(⟨⟨(f (-1) (-1074)), .nzero⟩, .defd⟩ : DItv)]))),
    .call ((Cmd.run (.opD [(⟨⟨(f 0 0), .pinf⟩, .dac⟩ : DItv)]))),
    .call ((Cmd.run (.opD [(⟨⟨.nzero, .pinf⟩, .dac⟩ : DItv)]))),
    .call ((Cmd.run (.opD [(⟨⟨.ninf, (f 0 0)⟩, .defd⟩ : DItv)]))),
    .call ((Cmd.run (.opD [(⟨⟨.ninf, .nzero⟩, .defd⟩ : DItv)]))),
    .call ((Cmd.run (.opD [(⟨⟨(f (5696551055436971) (-56)), (f 1000000 0)⟩, .com⟩ : DItv)]))),
    .call ((Cmd.run (.opD [(⟨⟨(f (-1958114037834655) (-46)), (f (-1313194234544539) (-53))⟩, .defd⟩ : DItv)]))),
    .call (do (Cmd.run (.opD [(DItv.empty : DItv)])); (Cmd.run (.opD [(DItv.empty : DItv)]))),
    .call ((Cmd.run (.opD [(DItv.entire : DItv)]))),
    .call (do (Cmd.run (.opD [(⟨⟨(f 0 0), (f 0 0)⟩, .com⟩ : DItv)])); (Cmd.run (.opD [(DItv.empty : DItv)]))),
    .call (do (Cmd.run (.opD [(⟨⟨.nzero, .nzero⟩, .defd⟩ : DItv)])); (Cmd.run (.opD [(DItv.empty : DItv)]))),
    .call ((Cmd.run (.opD [(⟨⟨(f (1141249501580143) (-76)), (f (4564998006320573) (-78))⟩, .dac⟩ : DItv)]))),
    .call ((Cmd.run (.opD [(⟨⟨(f (-8744364968281487) (-143)), (f (-4372182484140743) (-142))⟩, .dac⟩ : DItv)]))),
    .call ((Cmd.run (.opD [(⟨⟨(f 0 0), (f (1) (-1074))⟩, .defd⟩ : DItv)]))),
    .call ((Cmd.run (.opD [(⟨⟨(f (-1) (-1074)), .nzero⟩, .defd⟩ : DItv)]))),
    .call ((Cmd.run (.opD [(⟨⟨(f 0 0), .pinf⟩, .dac⟩ : DItv)]))),
    .call ((Cmd.run (.opD [(⟨⟨.nzero, .pinf⟩, .defd⟩ : DItv)]))),
    .call ((Cmd.run (.opD [(⟨⟨.ninf, (f 0 0)⟩, .dac⟩ : DItv)]))),
    .call ((Cmd.run (.opD [(⟨⟨.ninf, .nzero⟩, .defd⟩ : DItv)]))),
    .call ((Cmd.run (.opD [(⟨⟨(f (6184979839148713) (-61)), (f 6103515625 14)⟩, .com⟩ : DItv)]))),
    .call ((Cmd.run (.opD [(⟨⟨(f (-5159792573226459) (-41)), (f (-6449032083152409) (-59))⟩, .com⟩ : DItv)]))),
    .state 929 [],
    .call clearFlags,
    .call (do (Cmd.run (.opD [(⟨⟨(f 1 0), (f (-9007199254740991) (971))⟩, .defd⟩ : DItv)])); (Cmd.run (.opD [(DItv.empty : DItv)]))),
    .state 933 [.invalidOperand],
    .call clearFlags,
    .call (setCwd (bitsOf [.invalidOperand])),
    .throws 936 ((Cmd.run (.opD [(⟨⟨(f 3 0), (f (-4) (0))⟩, .dac⟩ : DItv)]))) .invalidOperand,
    .state 937 [.invalidOperand],
    .call clearFlags,
    .call (setCwd (bitsOf []))] ExSt.init = [] := by
  decide +kernel

/-- `minimal_pown_rev_dec_bin_test` -/
example : failed [
    .call (do (Cmd.run (.opD [(DItv.empty : DItv), (⟨⟨(f 1 0), (f 1 0)⟩, .defd⟩ : DItv)])); (Cmd.run (.opD [(DItv.empty : DItv)]))),
    .call ((Cmd.run (.opD [(⟨⟨(f 1 0), (f 1 0)⟩, .dac⟩ : DItv), (⟨⟨(f 1 0), (f 1 0)⟩, .dac⟩ : DItv)]))),
    .call ((Cmd.run (.opD [(⟨⟨(f (-1) (0)), (f 5 0)⟩, .defd⟩ : DItv), (⟨⟨(f (-51) (0)), (f 12 0)⟩, .dac⟩ : DItv)]))),
    .call (do (Cmd.run (.opD [(⟨⟨(f (-1) (0)), (f 0 0)⟩, .com⟩ : DItv), (⟨⟨(f 5 0), (f 10 0)⟩, .dac⟩ : DItv)])); (Cmd.run (.opD [(DItv.empty : DItv)]))),
    .call (do (Cmd.run (.opD [(⟨⟨(f (-1) (0)), .nzero⟩, .dac⟩ : DItv), (⟨⟨(f (-1) (0)), (f 1 0)⟩, .defd⟩ : DItv)])); (Cmd.run (.opD [(DItv.empty : DItv)]))),
    .call (do (Cmd.run (.opD [(⟨⟨(f (2476979795053773) (-51)), (f 10 0)⟩, .defd⟩ : DItv), (⟨⟨(f 1 0), (f 41 0)⟩, .dac⟩ : DItv)])); (Cmd.run (.opD [(DItv.empty : DItv)]))),
    .call (do (Cmd.run (.opD [(DItv.empty : DItv), (⟨⟨(f 0 0), (f (3521955646092083) (-45))⟩, .dac⟩ : DItv)])); (Cmd.run (.opD [(DItv.empty : DItv)]))),
    .call ((Cmd.run (.opD [(DItv.entire : DItv), (⟨⟨(f (-2871044762448691) (-49)), (f 10 0)⟩, .defd⟩ : DItv)]))),
    .call ((Cmd.run (.opD [(⟨⟨(f 0 0), (f 0 0)⟩, .com⟩ : DItv), (⟨⟨(f (-10) (0)), (f (2871044762448691) (-49))⟩, .dac⟩ : DItv)]))),
    .call (do (Cmd.run (.opD [(⟨⟨.nzero, .nzero⟩, .defd⟩ : DItv), (⟨⟨(f 1 0), (f 5 0)⟩, .dac⟩ : DItv)])); (Cmd.run (.opD [(DItv.empty : DItv)]))),
    .call (do (Cmd.run (.opD [(DItv.empty : DItv), (⟨⟨(f 5 0), (f (2406611050876109) (-47))⟩, .defd⟩ : DItv)])); (Cmd.run (.opD [(DItv.empty : DItv)]))),
    .call ((Cmd.run (.opD [(⟨⟨(f 0 0), .pinf⟩, .dac⟩ : DItv), (⟨⟨(f (3152519739159347) (-49)), (f (7752946758518309) (-48))⟩, .dac⟩ : DItv)]))),
    .call (do (Cmd.run (.opD [(⟨⟨(f 0 0), (f 0 0)⟩, .defd⟩ : DItv), (⟨⟨(f 1 0), (f 2 0)⟩, .defd⟩ : DItv)])); (Cmd.run (.opD [(DItv.empty : DItv)]))),
    .call ((Cmd.run (.opD [(⟨⟨(f (1844674407370955) (-64)), (f (3056199002128961) (-49))⟩, .com⟩ : DItv), (⟨⟨(f 1 0), .pinf⟩, .defd⟩ : DItv)]))),
    .call ((Cmd.run (.opD [(⟨⟨(f (490441999420647) (-52)), (f (8128997327403745) (-51))⟩, .dac⟩ : DItv), (⟨⟨.ninf, (f (-1) (0))⟩, .defd⟩ : DItv)]))),
    .call (do (Cmd.run (.opD [(DItv.empty : DItv), (⟨⟨(f (-23) (0)), (f (-1) (0))⟩, .dac⟩ : DItv)])); (Cmd.run (.opD [(DItv.empty : DItv)]))),
    .call ((Cmd.run (.opD [(DItv.entire : DItv), (⟨⟨(f (-23) (0)), (f (-1) (0))⟩, .com⟩ : DItv)]))),
    .call (do (Cmd.run (.opD [(⟨⟨(f 0 0), (f 0 0)⟩, .defd⟩ : DItv), (⟨⟨(f 1 0), (f 2 0)⟩, .dac⟩ : DItv)])); (Cmd.run (.opD [(DItv.empty : DItv)]))),
    .call ((Cmd.run (.opD [(⟨⟨(f (4722366482869645) (-72)), (f (222529489842515) (-44))⟩, .com⟩ : DItv), (⟨⟨(f 1 0), .pinf⟩, .dac⟩ : DItv)]))),
    .call ((Cmd.run (.opD [(⟨⟨(f (-7722547461033557) (-50)), (f (-5179067513882033) (-57))⟩, .com⟩ : DItv), (⟨⟨.ninf, (f (-1) (0))⟩, .dac⟩ : DItv)]))),
    .call (do (Cmd.run (.opD [(DItv.empty : DItv), (⟨⟨(f (-3) (0)), (f (4869517097094349) (-48))⟩, .defd⟩ : DItv)])); (Cmd.run (.opD [(DItv.empty : DItv)]))),
    .call ((Cmd.run (.opD [(⟨⟨(f 0 0), .pinf⟩, .dac⟩ : DItv), (⟨⟨(f (-2871044762448691) (-49)), (f (-3602879701896397) (-55))⟩, .dac⟩ : DItv)]))),
    .call (do (Cmd.run (.opD [(⟨⟨(f 0 0), (f 0 0)⟩, .defd⟩ : DItv), (⟨⟨(f (7656119366529843) (-48)), (f (7754635608378573) (-47))⟩, .dac⟩ : DItv)])); (Cmd.run (.opD [(DItv.empty : DItv)]))),
    .call (do (Cmd.run (.opD [(⟨⟨(f (5612751356000201) (-69)), .pinf⟩, .defd⟩ : DItv), (⟨⟨.ninf, (f (-9007199254740991) (971))⟩, .dac⟩ : DItv)])); (Cmd.run (.opD [(DItv.empty : DItv)]))),
    .call ((Cmd.run (.opD [(⟨⟨(f (6636481979584071) (-55)), (f 10000 0)⟩, .com⟩ : DItv), (⟨⟨(f 1 0), .pinf⟩, .dac⟩ : DItv)]))),
    .call ((Cmd.run (.opD [(⟨⟨(f (38985453838041) (-47)), (f (5169421059883489) (-49))⟩, .com⟩ : DItv), (⟨⟨.ninf, (f (-1) (0))⟩, .dac⟩ : DItv)]))),
    .call (do (Cmd.run (.opD [(DItv.empty : DItv), (⟨⟨(f (-2871044762448691) (-49)), (f (111) (-1))⟩, .defd⟩ : DItv)])); (Cmd.run (.opD [(DItv.empty : DItv)]))),
    .call ((Cmd.run (.opD [(DItv.entire : DItv), (⟨⟨(f (-2871044762448691) (-49)), (f (111) (-1))⟩, .dac⟩ : DItv)]))),
    .call (do (Cmd.run (.opD [(⟨⟨(f 0 0), (f 0 0)⟩, .dac⟩ : DItv), (⟨⟨(f (-2871044762448691) (-49)), (f (111) (-1))⟩, .defd⟩ : DItv)])); (Cmd.run (.opD [(DItv.empty : DItv)]))),
    .call ((Cmd.run (.opD [(⟨⟨.ninf, .nzero⟩, .dac⟩ : DItv), (⟨⟨(f (-1) (0)), (f 1 0)⟩, .com⟩ : DItv)]))),
    .call (do (Cmd.run (.opD [(⟨⟨(f (7731501506215443) (-54)), (f 100 0)⟩, .defd⟩ : DItv), (⟨⟨(f (-1) (0)), (f 0 0)⟩, .dac⟩ : DItv)])); (Cmd.run (.opD [(DItv.empty : DItv)]))),
    .call (do (Cmd.run (.opD [(DItv.empty : DItv), (⟨⟨(f (-2871044762448691) (-49)), (f (111) (-1))⟩, .dac⟩ : DItv)])); (Cmd.run (.opD [(DItv.empty : DItv)]))),
    .call ((Cmd.run (.opD [(DItv.entire : DItv), (⟨⟨(f (-2871044762448691) (-49)), (f (111) (-1))⟩, .defd⟩ : DItv)]))),
    .call (do (Cmd.run (.opD [(⟨⟨(f 0 0), (f 0 0)⟩, .defd⟩ : DItv), (⟨⟨(f (-2871044762448691) (-49)), (f (111) (-1))⟩, .defd⟩ : DItv)])); (Cmd.run (.opD [(DItv.empty : DItv)]))),
    .call (do (Cmd.run (.opD [(⟨⟨.ninf, (f 0 0)⟩, .dac⟩ : DItv), (⟨⟨(f (2871044762448691) (-49)), (f (111) (-1))⟩, .com⟩ : DItv)])); (Cmd.run (.opD [(DItv.empty : DItv)]))),
    .call ((Cmd.run (.opD [(⟨⟨.ninf, .nzero⟩, .dac⟩ : DItv), (⟨⟨(f (-32) (0)), (f (2476979795053773) (-51))⟩, .defd⟩ : DItv)]))),
    .state 988 [],
    .call clearFlags,
    .call (do (Cmd.run (.opD [(⟨⟨(f 1 0), (f (-9007199254740991) (971))⟩, .com⟩ : DItv), (⟨⟨(f (-1) (0)), (f 5 0)⟩, .dac⟩ : DItv)])); (Cmd.run (.opD [(DItv.empty : DItv)]))),
    .state 992 [.invalidOperand],
    .call clearFlags,
    .call (setCwd (bitsOf [.invalidOperand])),
    .throws 995 ((Cmd.run (.opD [(⟨⟨(f 3 0), (f 4 0)⟩, .defd⟩ : DItv), (⟨⟨(f 5 0), (f (-3996944669291315) (-49))⟩, .defd⟩ : DItv)]))) .invalidOperand,
    .state 996 [.invalidOperand],
    .call clearFlags,
    .call (setCwd (bitsOf []))] ExSt.init = [] := by
  decide +kernel

/-- `minimal_pown_rev_dec_mixedtype_test` -/
example : failed [
    .call ((Cmd.run (.opD [(⟨⟨(f (5764607523034235) (-59)), (f (1311673391471657) (-49))⟩, .com⟩ : DItv)]))),
    .call ((Cmd.run (.opD [(⟨⟨(f (-15938355) (-23)), (f (-11072963) (-25))⟩, .com⟩ : DItv)]))),
    .call ((Cmd.run (.opD [(⟨⟨(f (1844674407370955) (-64)), (f (3056199002128961) (-49))⟩, .defd⟩ : DItv)]))),
    .call ((Cmd.run (.opD [(⟨⟨(f (7308155) (-26)), (f (7570719) (-21))⟩, .dac⟩ : DItv)]))),
    .call ((Cmd.run (.opD [(⟨⟨(f (4722366482869645) (-72)), (f (222529489842515) (-44))⟩, .dac⟩ : DItv)]))),
    .call ((Cmd.run (.opD [(⟨⟨(f (-7192183) (-20)), (f (-2411691) (-26))⟩, .com⟩ : DItv)]))),
    .call ((Cmd.run (.opD [(⟨⟨(f (1327248892521183) (-60)), (f 152587890625 16)⟩, .defd⟩ : DItv)]))),
    .call ((Cmd.run (.opD [(⟨⟨(f (6322241) (-30)), (f (7280957) (-10))⟩, .dac⟩ : DItv)]))),
    .call ((Cmd.run (.opD [(⟨⟨(f (7731501506215443) (-54)), (f 100 0)⟩, .defd⟩ : DItv)]))),
    .call ((Cmd.run (.opD [(⟨⟨(f (-12710013) (-22)), (f (-8830113) (-24))⟩, .com⟩ : DItv)]))),
    .call ((Cmd.run (.opD [(⟨⟨(f (6184979839148713) (-61)), (f 6103515625 14)⟩, .com⟩ : DItv)]))),
    .call ((Cmd.run (.opD [(⟨⟨(f (-9610863) (-12)), (f (-6006129) (-29))⟩, .dac⟩ : DItv)]))),
    .state 1022 [],
    .call clearFlags,
    .call (do (Cmd.run (.opD [(⟨⟨(f 1 0), (f (-9007199254740991) (971))⟩, .defd⟩ : DItv)])); (Cmd.run (.opD [(DItv.empty : DItv)]))),
    .state 1026 [.invalidOperand],
    .call clearFlags,
    .call (setCwd (bitsOf [.invalidOperand])),
    .throws 1029 ((Cmd.run (.opD [(⟨⟨(f 3 0), (f (-4) (0))⟩, .dac⟩ : DItv)]))) .invalidOperand,
    .state 1030 [.invalidOperand],
    .call clearFlags,
    .call (setCwd (bitsOf []))] ExSt.init = [] := by
  decide +kernel

/-- `minimal_pown_rev_dec_bin_mixedtype_test` -/
example : failed [
    .call ((Cmd.run (.opD [(⟨⟨(f (1844674407370955) (-64)), (f (3056199002128961) (-49))⟩, .com⟩ : DItv), (⟨⟨(f 1 0), .pinf⟩, .dac⟩ : DItv)]))),
    .call ((Cmd.run (.opD [(⟨⟨(f (7308155) (-26)), (f (7570719) (-21))⟩, .dac⟩ : DItv), (⟨⟨.ninf, (f (-1) (0))⟩, .defd⟩ : DItv)]))),
    .call ((Cmd.run (.opD [(⟨⟨(f (4722366482869645) (-72)), (f (222529489842515) (-44))⟩, .com⟩ : DItv), (⟨⟨(f 1 0), .pinf⟩, .dac⟩ : DItv)]))),
    .call ((Cmd.run (.opD [(⟨⟨(f (-7192183) (-20)), (f (-2411691) (-26))⟩, .defd⟩ : DItv), (⟨⟨.ninf, (f (-1) (0))⟩, .defd⟩ : DItv)]))),
    .call ((Cmd.run (.opD [(⟨⟨(f (6636481979584071) (-55)), (f 10000 0)⟩, .defd⟩ : DItv), (⟨⟨(f 1 0), .pinf⟩, .dac⟩ : DItv)]))),
    .call ((Cmd.run (.opD [(⟨⟨(f (1161857) (-22)), (f (4814399) (-19))⟩, .dac⟩ : DItv), (⟨⟨.ninf, (f (-1) (0))⟩, .dac⟩ : DItv)]))),
    .call ((Cmd.run (.opD [(DItv.entire : DItv), (⟨⟨(f (-2871044762448691) (-49)), (f (111) (-1))⟩, .dac⟩ : DItv)]))),
    .call (do (Cmd.run (.opD [(⟨⟨(f (14401043) (-25)), (f 100 0)⟩, .defd⟩ : DItv), (⟨⟨(f (-1) (0)), (f 0 0)⟩, .dac⟩ : DItv)])); (Cmd.run (.opD [(DItv.empty : DItv)]))),
    .call ((Cmd.run (.opD [(DItv.entire : DItv), (⟨⟨(f (-2871044762448691) (-49)), (f (111) (-1))⟩, .defd⟩ : DItv)]))),
    .call ((Cmd.run (.opD [(⟨⟨.ninf, .nzero⟩, .dac⟩ : DItv), (⟨⟨(f (-32) (0)), (f (9227469) (-23))⟩, .dac⟩ : DItv)]))),
    .state 1053 [],
    .call clearFlags,
    .call (do (Cmd.run (.opD [(⟨⟨(f 1 0), (f (-9007199254740991) (971))⟩, .com⟩ : DItv), (⟨⟨(f (-1) (0)), (f 5 0)⟩, .dac⟩ : DItv)])); (Cmd.run (.opD [(DItv.empty : DItv)]))),
    .state 1057 [.invalidOperand],
    .call clearFlags,
    .call (setCwd (bitsOf [.invalidOperand])),
    .throws 1060 ((Cmd.run (.opD [(⟨⟨(f 3 0), (f 4 0)⟩, .defd⟩ : DItv), (⟨⟨(f 5 0), (f (-3996944669291315) (-49))⟩, .dac⟩ : DItv)]))) .invalidOperand,
    .state 1061 [.invalidOperand],
    .call clearFlags,
    .call (setCwd (bitsOf []))] ExSt.init = [] := by
  decide +kernel

/-- `minimal_sin_rev_test` -/
example : failed [
    .call (do (Cmd.run (.op [(Itv.empty : Itv)])); (Cmd.run (.op [(Itv.empty : Itv)]))),
    .call (do (Cmd.run (.op [(⟨(f (-2) (0)), (f (-2476979795053773) (-51))⟩ : Itv)])); (Cmd.run (.op [(Itv.empty : Itv)]))),
    .call (do (Cmd.run (.op [(⟨(f (2476979795053773) (-51)), (f 2 0)⟩ : Itv)])); (Cmd.run (.op [(Itv.empty : Itv)]))),
    .call ((Cmd.run (.op [(⟨(f (-1) (0)), (f 1 0)⟩ : Itv)]))),
    .call ((Cmd.run (.op [(⟨(f 0 0), (f 0 0)⟩ : Itv)]))),
    .call ((Cmd.run (.op [(⟨(f (2483878800010755) (-104)), (f (4967757600021511) (-105))⟩ : Itv)]))),
    .state 1078 [],
    .call clearFlags,
    .call (do (Cmd.run (.op [(⟨(f 1 0), (f (-9007199254740991) (971))⟩ : Itv)])); (Cmd.run (.op [(Itv.empty : Itv)]))),
    .state 1082 [.invalidOperand],
    .call clearFlags,
    .call (setCwd (bitsOf [.invalidOperand])),
    .throws 1085 ((Cmd.run (.op [(⟨(f 2 0), (f 1 0)⟩ : Itv)]))) .invalidOperand,
    .state 1086 [.invalidOperand],
    .call clearFlags,
    .call (setCwd (bitsOf []))] ExSt.init = [] := by
  decide +kernel

/-- `minimal_sin_rev_bin_test` -/
example : failed [
    .call (do (Cmd.run (.op [(Itv.empty : Itv), (⟨(f (-5404319552844595) (-52)), (f (6811694436397875) (-49))⟩ : Itv)])); (Cmd.run (.op [(Itv.empty : Itv)]))),
    .call (do (Cmd.run (.op [(⟨(f (-2) (0)), (f (-2476979795053773) (-51))⟩ : Itv), (⟨(f (-5) (0)), (f 5 0)⟩ : Itv)])); (Cmd.run (.op [(Itv.empty : Itv)]))),
    .call (do (Cmd.run (.op [(⟨(f (2476979795053773) (-51)), (f 2 0)⟩ : Itv), (⟨(f (-5) (0)), (f 5 0)⟩ : Itv)])); (Cmd.run (.op [(Itv.empty : Itv)]))),
    .call ((Cmd.run (.op [(⟨(f (-1) (0)), (f 1 0)⟩ : Itv), (⟨(f (-5404319552844595) (-52)), (f (6811694436397875) (-49))⟩ : Itv)]))),
    .call ((Cmd.run (.op [(⟨(f 0 0), (f 0 0)⟩ : Itv), (⟨(f (-1) (0)), (f 1 0)⟩ : Itv)]))),
    .call (do (Cmd.run (.op [(⟨.nzero, .nzero⟩ : Itv), (⟨(f 2 0), (f (5) (-1))⟩ : Itv)])); (Cmd.run (.op [(Itv.empty : Itv)]))),
    .call ((Cmd.run (.op [(⟨.nzero, .nzero⟩ : Itv), (⟨(f 3 0), (f (7) (-1))⟩ : Itv)]))),
    .call ((Cmd.run (.op [(⟨(f (9007199254740991) (-53)), (f 1 0)⟩ : Itv), (⟨(f (7070651414971679) (-52)), (f (889460926405673) (-49))⟩ : Itv)]))),
    .call ((Cmd.run (.op [(⟨(f 0 0), (f 1 0)⟩ : Itv), (⟨(f (-3602879701896397) (-55)), (f (889460926405673) (-49))⟩ : Itv)]))),
    .call ((Cmd.run (.op [(⟨(f (2483878800010755) (-104)), (f (4967757600021511) (-105))⟩ : Itv), (⟨(f (7070651414971679) (-51)), (f (7093169413108531) (-51))⟩ : Itv)]))),
    .call ((Cmd.run (.op [(⟨(f (-6523320454730237) (-104)), (f (-1630830113682559) (-102))⟩ : Itv), (⟨(f (7070651414971679) (-51)), (f (7093169413108531) (-51))⟩ : Itv)]))),
    .call ((Cmd.run (.op [(⟨(f (-6523320454730237) (-104)), (f (4967757600021511) (-105))⟩ : Itv), (⟨(f (7070651414971679) (-51)), (f (7093169413108531) (-51))⟩ : Itv)]))),
    .call ((Cmd.run (.op [(⟨(f 0 0), (f 1 0)⟩ : Itv), (⟨(f (-3602879701896397) (-55)), (f (7093169413108531) (-51))⟩ : Itv)]))),
    .call ((Cmd.run (.op [(⟨(f 0 0), (f 1 0)⟩ : Itv), (⟨(f (-3602879701896397) (-55)), (f (7093169413108531) (-51))⟩ : Itv)]))),
    .call ((Cmd.run (.op [(⟨(f (-6523320454730237) (-104)), (f 1 0)⟩ : Itv), (⟨(f (-3602879701896397) (-55)), (f (7093169413108531) (-51))⟩ : Itv)]))),
    .call ((Cmd.run (.op [(⟨(f (-6523320454730237) (-104)), (f 1 0)⟩ : Itv), (⟨(f 0 0), (f (7093169413108531) (-51))⟩ : Itv)]))),
    .call ((Cmd.run (.op [(⟨(f (2483878800010755) (-104)), (f 1 0)⟩ : Itv), (⟨(f (7070651414971679) (-51)), (f (7093169413108531) (-51))⟩ : Itv)]))),
    .call ((Cmd.run (.op [(⟨(f (-6523320454730237) (-104)), (f 1 0)⟩ : Itv), (⟨(f (7070651414971679) (-52)), (f (7093169413108531) (-51))⟩ : Itv)]))),
    .call ((Cmd.run (.op [(⟨(f (2483878800010755) (-104)), (f (4967757600021511) (-105))⟩ : Itv), (⟨.ninf, (f (7093169413108531) (-51))⟩ : Itv)]))),
    .call ((Cmd.run (.op [(⟨(f (-6523320454730237) (-104)), (f (-1630830113682559) (-102))⟩ : Itv), (⟨(f (7070651414971679) (-51)), .pinf⟩ : Itv)]))),
    .state 1122 [],
    .call clearFlags,
    .call (do (Cmd.run (.op [(⟨(f 1 0), (f (-9007199254740991) (971))⟩ : Itv), (⟨(f 1 0), (f 2 0)⟩ : Itv)])); (Cmd.run (.op [(Itv.empty : Itv)]))),
    .state 1126 [.invalidOperand],
    .call clearFlags,
    .call (setCwd (bitsOf [.invalidOperand])),
    .throws 1129 ((Cmd.run (.op [(⟨(f 1 0), (f 3 0)⟩ : Itv), (⟨(f 2 0), (f 1 0)⟩ : Itv)]))) .invalidOperand,
    .state 1130 [.invalidOperand],
    .call clearFlags,
    .call (setCwd (bitsOf []))] ExSt.init = [] := by
  decide +kernel

/-- `minimal_sin_rev_mixedtype_test` -/
example : failed [
    .call (do (Cmd.run (.op [(Itv.empty : Itv)])); (Cmd.run (.op [(Itv.empty : Itv)]))),
    .call (do (Cmd.run (.op [(⟨(f (-2) (0)), (f (-9227469) (-23))⟩ : Itv)])); (Cmd.run (.op [(Itv.empty : Itv)]))),
    .call (do (Cmd.run (.op [(⟨(f (2476979795053773) (-51)), (f 2 0)⟩ : Itv)])); (Cmd.run (.op [(Itv.empty : Itv)]))),
    .call ((Cmd.run (.op [(⟨(f (-1) (0)), (f 1 0)⟩ : Itv)]))),
    .call ((Cmd.run (.op [(⟨(f 0 0), (f 0 0)⟩ : Itv)]))),
    .state 1146 [],
    .call clearFlags,
    .call (do (Cmd.run (.op [(⟨(f 1 0), (f (-9007199254740991) (971))⟩ : Itv)])); (Cmd.run (.op [(Itv.empty : Itv)]))),
    .state 1150 [.invalidOperand],
    .call clearFlags,
    .call (setCwd (bitsOf [.invalidOperand])),
    .throws 1153 ((Cmd.run (.op [(⟨(f 2 0), (f 1 0)⟩ : Itv)]))) .invalidOperand,
    .state 1154 [.invalidOperand],
    .call clearFlags,
    .call (setCwd (bitsOf []))] ExSt.init = [] := by
  decide +kernel

/-- `minimal_sin_rev_bin_mixedtype_test` -/
example : failed [
    .call ((Cmd.run (.op [(⟨(f (2483878800010755) (-104)), (f (4967757600021511) (-105))⟩ : Itv), (⟨(f (13170115) (-22)), (f (6606029) (-21))⟩ : Itv)]))),
    .call ((Cmd.run (.op [(⟨(f (-6523320454730237) (-104)), (f (-1630830113682559) (-102))⟩ : Itv), (⟨(f (7070651414971679) (-51)), (f (7093169413108531) (-51))⟩ : Itv)]))),
    .state 1167 [],
    .call clearFlags,
    .call (do (Cmd.run (.op [(⟨(f 1 0), (f (-9007199254740991) (971))⟩ : Itv), (⟨(f 1 0), (f 2 0)⟩ : Itv)])); (Cmd.run (.op [(Itv.empty : Itv)]))),
    .state 1171 [.invalidOperand],
    .call clearFlags,
    .call (setCwd (bitsOf [.invalidOperand])),
    .throws 1174 ((Cmd.run (.op [(⟨(f 1 0), (f 3 0)⟩ : Itv), (⟨(f 2 0), (f 1 0)⟩ : Itv)]))) .invalidOperand,
    .state 1175 [.invalidOperand],
    .call clearFlags,
    .call (setCwd (bitsOf []))] ExSt.init = [] := by
  decide +kernel

/-- `minimal_sin_rev_dec_test` -/
example : failed [
    .call (do (Cmd.run (.opD [(DItv.empty : DItv)])); (Cmd.run (.opD [(DItv.empty : DItv)]))),
    .call (do (Cmd.run (.opD [(⟨⟨(f (-2) (0)), (f (-2476979795053773) (-51))⟩, .com⟩ : DItv)])); (Cmd.run (.opD [(DItv.empty : DItv)]))),
    .call (do (Cmd.run (.opD [(⟨⟨(f (2476979795053773) (-51)), (f 2 0)⟩, .dac⟩ : DItv)])); (Cmd.run (.opD [(DItv.empty : DItv)]))),
    .call ((Cmd.run (.opD [(⟨⟨(f (-1) (0)), (f 1 0)⟩, .com⟩ : DItv)]))),
    .call ((Cmd.run (.opD [(⟨⟨(f 0 0), (f 0 0)⟩, .dac⟩ : DItv)]))),
    .call ((Cmd.run (.opD [(⟨⟨(f (2483878800010755) (-104)), (f (4967757600021511) (-105))⟩, .defd⟩ : DItv)]))),
    .state 1192 [],
    .call clearFlags,
    .call (do (Cmd.run (.opD [(⟨⟨(f 1 0), (f (-9007199254740991) (971))⟩, .defd⟩ : DItv)])); (Cmd.run (.opD [(DItv.empty : DItv)]))),
    .state 1196 [.invalidOperand],
    .call clearFlags,
    .call (setCwd (bitsOf [.invalidOperand])),
    .throws 1199 ((Cmd.run (.opD [(⟨⟨(f 2 0), (f 1 0)⟩, .dac⟩ : DItv)]))) .invalidOperand,
    .state 1200 [.invalidOperand],
    .call clearFlags,
    .call (setCwd (bitsOf []))] ExSt.init = [] := by
  decide +kernel

/-- `minimal_sin_rev_dec_bin_test` -/
example : failed [
    .call (do (Cmd.run (.opD [(DItv.empty : DItv), (⟨⟨(f (-5404319552844595) (-52)), (f (6811694436397875) (-49))⟩, .com⟩ : DItv)])); (Cmd.run (.opD [(DItv.empty : DItv)]))),
    .call (do (Cmd.run (.opD [(⟨⟨(f (-2) (0)), (f (-2476979795053773) (-51))⟩, .defd⟩ : DItv), (⟨⟨(f (-5) (0)), (f 5 0)⟩, .defd⟩ : DItv)])); (Cmd.run (.opD [(DItv.empty : DItv)]))),
    .call (do (Cmd.run (.opD [(⟨⟨(f (2476979795053773) (-51)), (f 2 0)⟩, .dac⟩ : DItv), (⟨⟨(f (-5) (0)), (f 5 0)⟩, .com⟩ : DItv)])); (Cmd.run (.opD [(DItv.empty : DItv)]))),
    .call ((Cmd.run (.opD [(⟨⟨(f (-1) (0)), (f 1 0)⟩, .com⟩ : DItv), (⟨⟨(f (-5404319552844595) (-52)), (f (6811694436397875) (-49))⟩, .defd⟩ : DItv)]))),
    .call ((Cmd.run (.opD [(⟨⟨(f 0 0), (f 0 0)⟩, .dac⟩ : DItv), (⟨⟨(f (-1) (0)), (f 1 0)⟩, .defd⟩ : DItv)]))),
    .call (do (Cmd.run (.opD [(⟨⟨.nzero, .nzero⟩, .defd⟩ : DItv), (⟨⟨(f 2 0), (f (5) (-1))⟩, .trv⟩ : DItv)])); (Cmd.run (.opD [(DItv.empty : DItv)]))),
    .call ((Cmd.run (.opD [(⟨⟨.nzero, .nzero⟩, .defd⟩ : DItv), (⟨⟨(f 3 0), (f (7) (-1))⟩, .dac⟩ : DItv)]))),
    .call ((Cmd.run (.opD [(⟨⟨(f (9007199254740991) (-53)), (f 1 0)⟩, .dac⟩ : DItv), (⟨⟨(f (7070651414971679) (-52)), (f (889460926405673) (-49))⟩, .dac⟩ : DItv)]))),
    .call ((Cmd.run (.opD [(⟨⟨(f 0 0), (f 1 0)⟩, .com⟩ : DItv), (⟨⟨(f (-3602879701896397) (-55)), (f (889460926405673) (-49))⟩, .dac⟩ : DItv)]))),
    .call ((Cmd.run (.opD [(⟨⟨(f (2483878800010755) (-104)), (f (4967757600021511) (-105))⟩, .com⟩ : DItv), (⟨⟨(f (7070651414971679) (-51)), (f (7093169413108531) (-51))⟩, .defd⟩ : DItv)]))),
    .call ((Cmd.run (.opD [(⟨⟨(f (-6523320454730237) (-104)), (f (-1630830113682559) (-102))⟩, .com⟩ : DItv), (⟨⟨(f (7070651414971679) (-51)), (f (7093169413108531) (-51))⟩, .dac⟩ : DItv)]))),
    .call ((Cmd.run (.opD [(⟨⟨(f (-6523320454730237) (-104)), (f (4967757600021511) (-105))⟩, .dac⟩ : DItv), (⟨⟨(f (7070651414971679) (-51)), (f (7093169413108531) (-51))⟩, .com⟩ : DItv)]))),
    .call ((Cmd.run (.opD [(⟨⟨(f 0 0), (f 1 0)⟩, .defd⟩ : DItv), (⟨⟨(f (-3602879701896397) (-55)), (f (7093169413108531) (-51))⟩, .defd⟩ : DItv)]))),
    .call ((Cmd.run (.opD [(⟨⟨(f 0 0), (f 1 0)⟩, .dac⟩ : DItv), (⟨⟨(f (-3602879701896397) (-55)), (f (7093169413108531) (-51))⟩, .com⟩ : DItv)]))),
    .call ((Cmd.run (.opD [(⟨⟨(f (-6523320454730237) (-104)), (f 1 0)⟩, .defd⟩ : DItv), (⟨⟨(f (-3602879701896397) (-55)), (f (7093169413108531) (-51))⟩, .defd⟩ : DItv)]))),
    .call ((Cmd.run (.opD [(⟨⟨(f (-6523320454730237) (-104)), (f 1 0)⟩, .com⟩ : DItv), (⟨⟨(f 0 0), (f (7093169413108531) (-51))⟩, .dac⟩ : DItv)]))),
    .call ((Cmd.run (.opD [(⟨⟨(f (2483878800010755) (-104)), (f 1 0)⟩, .defd⟩ : DItv), (⟨⟨(f (7070651414971679) (-51)), (f (7093169413108531) (-51))⟩, .com⟩ : DItv)]))),
    .call ((Cmd.run (.opD [(⟨⟨(f (-6523320454730237) (-104)), (f 1 0)⟩, .dac⟩ : DItv), (⟨⟨(f (7070651414971679) (-52)), (f (7093169413108531) (-51))⟩, .com⟩ : DItv)]))),
    .call ((Cmd.run (.opD [(⟨⟨(f (2483878800010755) (-104)), (f (4967757600021511) (-105))⟩, .com⟩ : DItv), (⟨⟨.ninf, (f (7093169413108531) (-51))⟩, .dac⟩ : DItv)]))),
    .call ((Cmd.run (.opD [(⟨⟨(f (-6523320454730237) (-104)), (f (-1630830113682559) (-102))⟩, .com⟩ : DItv), (⟨⟨(f (7070651414971679) (-51)), .pinf⟩, .dac⟩ : DItv)]))),
    .state 1236 [],
    .call clearFlags,
    .call (do (Cmd.run (.opD [(⟨⟨(f 1 0), (f (-9007199254740991) (971))⟩, .defd⟩ : DItv), (⟨⟨(f 1 0), (f 2 0)⟩, .trv⟩ : DItv)])); (Cmd.run (.opD [(DItv.empty : DItv)]))),
    .state 1240 [.invalidOperand],
    .call clearFlags,
    .call (setCwd (bitsOf [.invalidOperand])),
    .throws 1243 ((Cmd.run (.opD [(⟨⟨(f 1 0), (f 3 0)⟩, .trv⟩ : DItv), (⟨⟨(f 2 0), (f 1 0)⟩, .com⟩ : DItv)]))) .invalidOperand,
    .state 1244 [.invalidOperand],
    .call clearFlags,
    .call (setCwd (bitsOf []))] ExSt.init = [] := by
  decide +kernel

/-- `minimal_sin_rev_dec_mixedtype_test` -/
example : failed [
    .call (do (Cmd.run (.opD [(DItv.empty : DItv)])); (Cmd.run (.opD [(DItv.empty : DItv)]))),
    .call (do (Cmd.run (.opD [(⟨⟨(f (-2) (0)), (f (-9227469) (-23))⟩, .com⟩ : DItv)])); (Cmd.run (.opD [(DItv.empty : DItv)]))),
    .call (do (Cmd.run (.opD [(⟨⟨(f (2476979795053773) (-51)), (f 2 0)⟩, .defd⟩ : DItv)])); (Cmd.run (.opD [(DItv.empty : DItv)]))),
    .call ((Cmd.run (.opD [(⟨⟨(f (-1) (0)), (f 1 0)⟩, .dac⟩ : DItv)]))),
    .call ((Cmd.run (.opD [(⟨⟨(f 0 0), (f 0 0)⟩, .defd⟩ : DItv)]))),
    .state 1260 [],
    .call clearFlags,
    .call (do (Cmd.run (.opD [(⟨⟨(f 1 0), (f (-9007199254740991) (971))⟩, .defd⟩ : DItv)])); (Cmd.run (.opD [(DItv.empty : DItv)]))),
    .state 1264 [.invalidOperand],
    .call clearFlags,
    .call (setCwd (bitsOf [.invalidOperand])),
    .throws 1267 ((Cmd.run (.opD [(⟨⟨(f 2 0), (f 1 0)⟩, .com⟩ : DItv)]))) .invalidOperand,
    .state 1268 [.invalidOperand],
    .call clearFlags,
    .call (setCwd (bitsOf []))] ExSt.init = [] := by
  decide +kernel

/-- `minimal_sin_rev_dec_bin_mixedtype_test` -/
example : failed [
    .call ((Cmd.run (.opD [(⟨⟨(f (2483878800010755) (-104)), (f (4967757600021511) (-105))⟩, .com⟩ : DItv), (⟨⟨(f (13170115) (-22)), (f (6606029) (-21))⟩, .com⟩ : DItv)]))),
    .call ((Cmd.run (.opD [(⟨⟨(f (-6523320454730237) (-104)), (f (-1630830113682559) (-102))⟩, .defd⟩ : DItv), (⟨⟨(f (7070651414971679) (-51)), (f (7093169413108531) (-51))⟩, .defd⟩ : DItv)]))),
    .state 1281 [],
    .call clearFlags,
    .call (do (Cmd.run (.opD [(⟨⟨(f 1 0), (f (-9007199254740991) (971))⟩, .dac⟩ : DItv), (⟨⟨(f 1 0), (f 2 0)⟩, .defd⟩ : DItv)])); (Cmd.run (.opD [(DItv.empty : DItv)]))),
    .state 1285 [.invalidOperand],
    .call clearFlags,
    .call (setCwd (bitsOf [.invalidOperand])),
    .throws 1288 ((Cmd.run (.opD [(⟨⟨(f 1 0), (f 3 0)⟩, .defd⟩ : DItv), (⟨⟨(f 2 0), (f 1 0)⟩, .trv⟩ : DItv)]))) .invalidOperand,
    .state 1289 [.invalidOperand],
    .call clearFlags,
    .call (setCwd (bitsOf []))] ExSt.init = [] := by
  decide +kernel

/-- `minimal_cos_rev_test` -/
example : failed [
    .call (do (Cmd.run (.op [(Itv.empty : Itv)])); (Cmd.run (.op [(Itv.empty : Itv)]))),
    .call (do (Cmd.run (.op [(⟨(f (-2) (0)), (f (-2476979795053773) (-51))⟩ : Itv)])); (Cmd.run (.op [(Itv.empty : Itv)]))),
    .call (do (Cmd.run (.op [(⟨(f (2476979795053773) (-51)), (f 2 0)⟩ : Itv)])); (Cmd.run (.op [(Itv.empty : Itv)]))),
    .call ((Cmd.run (.op [(⟨(f (-1) (0)), (f 1 0)⟩ : Itv)]))),
    .call ((Cmd.run (.op [(⟨(f 0 0), (f 0 0)⟩ : Itv)]))),
    .call ((Cmd.run (.op [(⟨(f (2483878800010755) (-104)), (f (4967757600021511) (-105))⟩ : Itv)]))),
    .state 1307 [],
    .call clearFlags,
    .call (do (Cmd.run (.op [(⟨(f 1 0), (f (-9007199254740991) (971))⟩ : Itv)])); (Cmd.run (.op [(Itv.empty : Itv)]))),
    .state 1311 [.invalidOperand],
    .call clearFlags,
    .call (setCwd (bitsOf [.invalidOperand])),
    .throws 1314 ((Cmd.run (.op [(⟨(f 2 0), (f 1 0)⟩ : Itv)]))) .invalidOperand,
    .state 1315 [.invalidOperand],
    .call clearFlags,
    .call (setCwd (bitsOf []))] ExSt.init = [] := by
  decide +kernel

/-- `minimal_cos_rev_bin_test` -/
example : failed [
    .call (do (Cmd.run (.op [(Itv.empty : Itv), (⟨(f (-5404319552844595) (-52)), (f (6811694436397875) (-49))⟩ : Itv)])); (Cmd.run (.op [(Itv.empty : Itv)]))),
    .call (do (Cmd.run (.op [(⟨(f (-2) (0)), (f (-2476979795053773) (-51))⟩ : Itv), (⟨(f (-5) (0)), (f 5 0)⟩ : Itv)])); (Cmd.run (.op [(Itv.empty : Itv)]))),
    .call (do (Cmd.run (.op [(⟨(f (2476979795053773) (-51)), (f 2 0)⟩ : Itv), (⟨(f (-5) (0)), (f 5 0)⟩ : Itv)])); (Cmd.run (.op [(Itv.empty : Itv)]))),
    .call ((Cmd.run (.op [(⟨(f (-1) (0)), (f 1 0)⟩ : Itv), (⟨(f (-5404319552844595) (-52)), (f (6811694436397875) (-49))⟩ : Itv)]))),
    .call ((Cmd.run (.op [(⟨(f 1 0), (f 1 0)⟩ : Itv), (⟨(f (-3602879701896397) (-55)), (f (3602879701896397) (-55))⟩ : Itv)]))),
    .call ((Cmd.run (.op [(⟨(f (-1) (0)), (f (-1) (0))⟩ : Itv), (⟨(f (7070651414971679) (-51)), (f (7093169413108531) (-51))⟩ : Itv)]))),
    .call ((Cmd.run (.op [(⟨(f (2483878800010755) (-105)), (f (4967757600021511) (-106))⟩ : Itv), (⟨(f (7070651414971679) (-52)), (f (889460926405673) (-49))⟩ : Itv)]))),
    .call ((Cmd.run (.op [(⟨(f (-6523320454730237) (-105)), (f (-1630830113682559) (-103))⟩ : Itv), (⟨(f (7070651414971679) (-52)), (f (889460926405673) (-49))⟩ : Itv)]))),
    .call ((Cmd.run (.op [(⟨(f (-6523320454730237) (-105)), (f (4967757600021511) (-106))⟩ : Itv), (⟨(f (7070651414971679) (-52)), (f (889460926405673) (-49))⟩ : Itv)]))),
    .call ((Cmd.run (.op [(⟨(f (2483878800010755) (-105)), (f 1 0)⟩ : Itv), (⟨(f (-2) (0)), (f 2 0)⟩ : Itv)]))),
    .call ((Cmd.run (.op [(⟨(f (2483878800010755) (-105)), (f 1 0)⟩ : Itv), (⟨(f 0 0), (f 2 0)⟩ : Itv)]))),
    .call ((Cmd.run (.op [(⟨(f (-6523320454730237) (-105)), (f 1 0)⟩ : Itv), (⟨(f (-3602879701896397) (-55)), (f (7074254294673575) (-52))⟩ : Itv)]))),
    .call ((Cmd.run (.op [(⟨(f (-1) (0)), (f (-9007199254740991) (-53))⟩ : Itv), (⟨(f (7070651414971679) (-51)), (f (7093169413108531) (-51))⟩ : Itv)]))),
    .call ((Cmd.run (.op [(⟨(f (-1) (0)), (f (-9007199254740991) (-53))⟩ : Itv), (⟨(f (-7093169413108531) (-51)), (f (-7070651414971679) (-51))⟩ : Itv)]))),
    .call ((Cmd.run (.op [(⟨(f (-1) (0)), (f (-9007199254740991) (-53))⟩ : Itv), (⟨(f (5302988561228759) (-49)), (f (2659938529915699) (-48))⟩ : Itv)]))),
    .call ((Cmd.run (.op [(⟨(f (3444542989651657) (-52)), (f 1 0)⟩ : Itv), (⟨(f (-1) (0)), (f (3602879701896397) (-55))⟩ : Itv)]))),
    .call ((Cmd.run (.op [(⟨(f (-7496634952020485) (-54)), (f (1216652631687587) (-51))⟩ : Itv), (⟨(f 0 0), (f (4728779608739021) (-51))⟩ : Itv)]))),
    .call ((Cmd.run (.op [(⟨(f (2483878800010755) (-104)), (f (4967757600021511) (-105))⟩ : Itv), (⟨.ninf, (f (889460926405673) (-49))⟩ : Itv)]))),
    .call ((Cmd.run (.op [(⟨(f (2483878800010755) (-104)), (f (4967757600021511) (-105))⟩ : Itv), (⟨.ninf, (f (3) (-1))⟩ : Itv)]))),
    .call ((Cmd.run (.op [(⟨(f (-6523320454730237) (-104)), (f (-1630830113682559) (-102))⟩ : Itv), (⟨(f (-889460926405673) (-49)), .pinf⟩ : Itv)]))),
    .call ((Cmd.run (.op [(⟨(f (-6523320454730237) (-104)), (f (-1630830113682559) (-102))⟩ : Itv), (⟨(f (-3) (-1)), .pinf⟩ : Itv)]))),
    .state 1353 [],
    .call clearFlags,
    .call (do (Cmd.run (.op [(⟨(f 1 0), (f (-9007199254740991) (971))⟩ : Itv), (⟨(f 1 0), (f 2 0)⟩ : Itv)])); (Cmd.run (.op [(Itv.empty : Itv)]))),
    .state 1357 [.invalidOperand],
    .call clearFlags,
    .call (setCwd (bitsOf [.invalidOperand])),
    .throws 1360 ((Cmd.run (.op [(⟨(f 1 0), (f 3 0)⟩ : Itv), (⟨(f 2 0), (f 1 0)⟩ : Itv)]))) .invalidOperand,
    .state 1361 [.invalidOperand],
    .call clearFlags,
    .call (setCwd (bitsOf []))] ExSt.init = [] := by
  decide +kernel

/-- `minimal_cos_rev_mixedtype_test` -/
example : failed [
    .call (do (Cmd.run (.op [(Itv.empty : Itv)])); (Cmd.run (.op [(Itv.empty : Itv)]))),
    .call (do (Cmd.run (.op [(⟨(f (-2) (0)), (f (-9227469) (-23))⟩ : Itv)])); (Cmd.run (.op [(Itv.empty : Itv)]))),
    .call (do (Cmd.run (.op [(⟨(f (2476979795053773) (-51)), (f 2 0)⟩ : Itv)])); (Cmd.run (.op [(Itv.empty : Itv)]))),
    .call ((Cmd.run (.op [(⟨(f (-1) (0)), (f 1 0)⟩ : Itv)]))),
    .call ((Cmd.run (.op [(⟨(f 0 0), (f 0 0)⟩ : Itv)]))),
    .state 1378 [],
    .call clearFlags,
    .call (do (Cmd.run (.op [(⟨(f 1 0), (f (-9007199254740991) (971))⟩ : Itv)])); (Cmd.run (.op [(Itv.empty : Itv)]))),
    .state 1382 [.invalidOperand],
    .call clearFlags,
    .call (setCwd (bitsOf [.invalidOperand])),
    .throws 1385 ((Cmd.run (.op [(⟨(f 2 0), (f 1 0)⟩ : Itv)]))) .invalidOperand,
    .state 1386 [.invalidOperand],
    .call clearFlags,
    .call (setCwd (bitsOf []))] ExSt.init = [] := by
  decide +kernel

/-- `minimal_cos_rev_bin_mixedtype_test` -/
example : failed [
    .call ((Cmd.run (.op [(⟨(f (9253169) (-76)), (f (4626585) (-75))⟩ : Itv), (⟨.ninf, (f (889460926405673) (-49))⟩ : Itv)]))),
    .call ((Cmd.run (.op [(⟨(f (2483878800010755) (-104)), (f (4967757600021511) (-105))⟩ : Itv), (⟨.ninf, (f (3) (-1))⟩ : Itv)]))),
    .state 1398 [],
    .call clearFlags,
    .call (do (Cmd.run (.op [(⟨(f 1 0), (f (-9007199254740991) (971))⟩ : Itv), (⟨(f 1 0), (f 2 0)⟩ : Itv)])); (Cmd.run (.op [(Itv.empty : Itv)]))),
    .state 1402 [.invalidOperand],
    .call clearFlags,
    .call (setCwd (bitsOf [.invalidOperand])),
    .throws 1405 ((Cmd.run (.op [(⟨(f 1 0), (f 3 0)⟩ : Itv), (⟨(f 2 0), (f 1 0)⟩ : Itv)]))) .invalidOperand,
    .state 1406 [.invalidOperand],
    .call clearFlags,
    .call (setCwd (bitsOf []))] ExSt.init = [] := by
  decide +kernel

/-- `minimal_cos_rev_dec_test` -/
example : failed [
    .call (do (Cmd.run (.opD [(DItv.empty : DItv)])); (Cmd.run (.opD [(DItv.empty : DItv)]))),
    .call (do (Cmd.run (.opD [(⟨⟨(f (-2) (0)), (f (-2476979795053773) (-51))⟩, .defd⟩ : DItv)])); (Cmd.run (.opD [(DItv.empty : DItv)]))),
    .call (do (Cmd.run (.opD [(⟨⟨(f (2476979795053773) (-51)), (f 2 0)⟩, .dac⟩ : DItv)])); (Cmd.run (.opD [(DItv.empty : DItv)]))),
    .call ((Cmd.run (.opD [(⟨⟨(f (-1) (0)), (f 1 0)⟩, .com⟩ : DItv)]))),
    .call ((Cmd.run (.opD [(⟨⟨(f 0 0), (f 0 0)⟩, .defd⟩ : DItv)]))),
    .call ((Cmd.run (.opD [(⟨⟨(f (2483878800010755) (-104)), (f (4967757600021511) (-105))⟩, .dac⟩ : DItv)]))),
    .state 1424 [],
    .call clearFlags,
    .call (do (Cmd.run (.opD [(⟨⟨(f 1 0), (f (-9007199254740991) (971))⟩, .defd⟩ : DItv)])); (Cmd.run (.opD [(DItv.empty : DItv)]))),
    .state 1428 [.invalidOperand],
    .call clearFlags,
    .call (setCwd (bitsOf [.invalidOperand])),
    .throws 1431 ((Cmd.run (.opD [(⟨⟨(f 2 0), (f 1 0)⟩, .com⟩ : DItv)]))) .invalidOperand,
    .state 1432 [.invalidOperand],
    .call clearFlags,
    .call (setCwd (bitsOf []))] ExSt.init = [] := by
  decide +kernel

/-- `minimal_cos_rev_dec_bin_test` -/
example : failed [
    .call (do (Cmd.run (.opD [(DItv.empty : DItv), (⟨⟨(f (-5404319552844595) (-52)), (f (6811694436397875) (-49))⟩, .defd⟩ : DItv)])); (Cmd.run (.opD [(DItv.empty : DItv)]))),
    .call (do (Cmd.run (.opD [(⟨⟨(f (-2) (0)), (f (-2476979795053773) (-51))⟩, .dac⟩ : DItv), (⟨⟨(f (-5) (0)), (f 5 0)⟩, .com⟩ : DItv)])); (Cmd.run (.opD [(DItv.empty : DItv)]))),
    .call (do (Cmd.run (.opD [(⟨⟨(f (2476979795053773) (-51)), (f 2 0)⟩, .dac⟩ : DItv), (⟨⟨(f (-5) (0)), (f 5 0)⟩, .com⟩ : DItv)])); (Cmd.run (.opD [(DItv.empty : DItv)]))),
    .call ((Cmd.run (.opD [(⟨⟨(f (-1) (0)), (f 1 0)⟩, .dac⟩ : DItv), (⟨⟨(f (-5404319552844595) (-52)), (f (6811694436397875) (-49))⟩, .defd⟩ : DItv)]))),
    .call ((Cmd.run (.opD [(⟨⟨(f 1 0), (f 1 0)⟩, .defd⟩ : DItv), (⟨⟨(f (-3602879701896397) (-55)), (f (3602879701896397) (-55))⟩, .dac⟩ : DItv)]))),
    .call ((Cmd.run (.opD [(⟨⟨(f (-1) (0)), (f (-1) (0))⟩, .com⟩ : DItv), (⟨⟨(f (7070651414971679) (-51)), (f (7093169413108531) (-51))⟩, .dac⟩ : DItv)]))),
    .call ((Cmd.run (.opD [(⟨⟨(f (2483878800010755) (-105)), (f (4967757600021511) (-106))⟩, .defd⟩ : DItv), (⟨⟨(f (7070651414971679) (-52)), (f (889460926405673) (-49))⟩, .defd⟩ : DItv)]))),
    .call ((Cmd.run (.opD [(⟨⟨(f (-6523320454730237) (-105)), (f (-1630830113682559) (-103))⟩, .dac⟩ : DItv), (⟨⟨(f (7070651414971679) (-52)), (f (889460926405673) (-49))⟩, .dac⟩ : DItv)]))),
    .call ((Cmd.run (.opD [(⟨⟨(f (-6523320454730237) (-105)), (f (4967757600021511) (-106))⟩, .com⟩ : DItv), (⟨⟨(f (7070651414971679) (-52)), (f (889460926405673) (-49))⟩, .dac⟩ : DItv)]))),
    .call ((Cmd.run (.opD [(⟨⟨(f (2483878800010755) (-105)), (f 1 0)⟩, .defd⟩ : DItv), (⟨⟨(f (-2) (0)), (f 2 0)⟩, .com⟩ : DItv)]))),
    .call ((Cmd.run (.opD [(⟨⟨(f (2483878800010755) (-105)), (f 1 0)⟩, .dac⟩ : DItv), (⟨⟨(f 0 0), (f 2 0)⟩, .defd⟩ : DItv)]))),
    .call ((Cmd.run (.opD [(⟨⟨(f (-6523320454730237) (-105)), (f 1 0)⟩, .defd⟩ : DItv), (⟨⟨(f (-3602879701896397) (-55)), (f (7074254294673575) (-52))⟩, .dac⟩ : DItv)]))),
    .call ((Cmd.run (.opD [(⟨⟨(f (-1) (0)), (f (-9007199254740991) (-53))⟩, .dac⟩ : DItv), (⟨⟨(f (7070651414971679) (-51)), (f (7093169413108531) (-51))⟩, .defd⟩ : DItv)]))),
    .call ((Cmd.run (.opD [(⟨⟨(f (-1) (0)), (f (-9007199254740991) (-53))⟩, .defd⟩ : DItv), (⟨⟨(f (-7093169413108531) (-51)), (f (-7070651414971679) (-51))⟩, .com⟩ : DItv)]))),
    .call ((Cmd.run (.opD [(⟨⟨(f (-1) (0)), (f (-9007199254740991) (-53))⟩, .defd⟩ : DItv), (⟨⟨(f (5302988561228759) (-49)), (f (2659938529915699) (-48))⟩, .dac⟩ : DItv)]))),
    .call ((Cmd.run (.opD [(⟨⟨(f (3444542989651657) (-52)), (f 1 0)⟩, .dac⟩ : DItv), (⟨⟨(f (-1) (0)), (f (3602879701896397) (-55))⟩, .defd⟩ : DItv)]))),
    .call ((Cmd.run (.opD [(⟨⟨(f (-7496634952020485) (-54)), (f (1216652631687587) (-51))⟩, .com⟩ : DItv), (⟨⟨(f 0 0), (f (4728779608739021) (-51))⟩, .dac⟩ : DItv)]))),
    .call ((Cmd.run (.opD [(⟨⟨(f (2483878800010755) (-104)), (f (4967757600021511) (-105))⟩, .com⟩ : DItv), (⟨⟨.ninf, (f (889460926405673) (-49))⟩, .dac⟩ : DItv)]))),
    .call ((Cmd.run (.opD [(⟨⟨(f (2483878800010755) (-104)), (f (4967757600021511) (-105))⟩, .defd⟩ : DItv), (⟨⟨.ninf, (f (3) (-1))⟩, .dac⟩ : DItv)]))),
    .call ((Cmd.run (.opD [(⟨⟨(f (-6523320454730237) (-104)), (f (-1630830113682559) (-102))⟩, .dac⟩ : DItv), (⟨⟨(f (-889460926405673) (-49)), .pinf⟩, .dac⟩ : DItv)]))),
    .call ((Cmd.run (.opD [(⟨⟨(f (-6523320454730237) (-104)), (f (-1630830113682559) (-102))⟩, .defd⟩ : DItv), (⟨⟨(f (-3) (-1)), .pinf⟩, .dac⟩ : DItv)]))),
    .state 1470 [],
    .call clearFlags,
    .call (do (Cmd.run (.opD [(⟨⟨(f 1 0), (f (-9007199254740991) (971))⟩, .defd⟩ : DItv), (⟨⟨(f 1 0), (f 2 0)⟩, .dac⟩ : DItv)])); (Cmd.run (.opD [(DItv.empty : DItv)]))),
    .state 1474 [.invalidOperand],
    .call clearFlags,
    .call (setCwd (bitsOf [.invalidOperand])),
    .throws 1477 ((Cmd.run (.opD [(⟨⟨(f 1 0), (f 3 0)⟩, .com⟩ : DItv), (⟨⟨(f 2 0), (f 1 0)⟩, .defd⟩ : DItv)]))) .invalidOperand,
    .state 1478 [.invalidOperand],
    .call clearFlags,
    .call (setCwd (bitsOf []))] ExSt.init = [] := by
  decide +kernel

/-- `minimal_cos_rev_dec_mixedtype_test` -/
example : failed [
    .call (do (Cmd.run (.opD [(DItv.empty : DItv)])); (Cmd.run (.opD [(DItv.empty : DItv)]))),
    .call (do (Cmd.run (.opD [(⟨⟨(f (-2) (0)), (f (-9227469) (-23))⟩, .dac⟩ : DItv)])); (Cmd.run (.opD [(DItv.empty : DItv)]))),
    .call (do (Cmd.run (.opD [(⟨⟨(f (2476979795053773) (-51)), (f 2 0)⟩, .defd⟩ : DItv)])); (Cmd.run (.opD [(DItv.empty : DItv)]))),
    .call ((Cmd.run (.opD [(⟨⟨(f (-1) (0)), (f 1 0)⟩, .com⟩ : DItv)]))),
    .call ((Cmd.run (.opD [(⟨⟨(f 0 0), (f 0 0)⟩, .com⟩ : DItv)]))),
    .state 1495 [],
    .call clearFlags,
    .call (do (Cmd.run (.opD [(⟨⟨(f 1 0), (f (-9007199254740991) (971))⟩, .dac⟩ : DItv)])); (Cmd.run (.opD [(DItv.empty : DItv)]))),
    .state 1499 [.invalidOperand],
    .call clearFlags,
    .call (setCwd (bitsOf [.invalidOperand])),
    .throws 1502 ((Cmd.run (.opD [(⟨⟨(f 2 0), (f 1 0)⟩, .defd⟩ : DItv)]))) .invalidOperand,
    .state 1503 [.invalidOperand],
    .call clearFlags,
    .call (setCwd (bitsOf []))] ExSt.init = [] := by
  decide +kernel

/-- `minimal_cos_rev_dec_bin_mixedtype_test` -/
example : failed [
    .call ((Cmd.run (.opD [(⟨⟨(f (9253169) (-76)), (f (4626585) (-75))⟩, .defd⟩ : DItv), (⟨⟨.ninf, (f (889460926405673) (-49))⟩, .dac⟩ : DItv)]))),
    .call ((Cmd.run (.opD [(⟨⟨(f (2483878800010755) (-104)), (f (4967757600021511) (-105))⟩, .com⟩ : DItv), (⟨⟨.ninf, (f (3) (-1))⟩, .dac⟩ : DItv)]))),
    .state 1515 [],
    .call clearFlags,
    .call (do (Cmd.run (.opD [(⟨⟨(f 1 0), (f (-9007199254740991) (971))⟩, .defd⟩ : DItv), (⟨⟨(f 1 0), (f 2 0)⟩, .defd⟩ : DItv)])); (Cmd.run (.opD [(DItv.empty : DItv)]))),
    .state 1519 [.invalidOperand],
    .call clearFlags,
    .call (setCwd (bitsOf [.invalidOperand])),
    .throws 1522 ((Cmd.run (.opD [(⟨⟨(f 1 0), (f 3 0)⟩, .com⟩ : DItv), (⟨⟨(f 2 0), (f 1 0)⟩, .dac⟩ : DItv)]))) .invalidOperand,
    .state 1523 [.invalidOperand],
    .call clearFlags,
    .call (setCwd (bitsOf []))] ExSt.init = [] := by
  decide +kernel

/-- `minimal_tan_rev_test` -/
example : failed [
    .call (do (Cmd.run (.op [(Itv.empty : Itv)])); (Cmd.run (.op [(Itv.empty : Itv)]))),
    .call ((Cmd.run (.op [(⟨(f (-1) (0)), (f 1 0)⟩ : Itv)]))),
    .call ((Cmd.run (.op [(⟨(f (-156) (0)), (f (-12) (0))⟩ : Itv)]))),
    .call ((Cmd.run (.op [(⟨(f 0 0), (f 0 0)⟩ : Itv)]))),
    .call ((Cmd.run (.op [(⟨(f (2483878800010755) (-104)), (f (4967757600021511) (-105))⟩ : Itv)]))),
    .state 1538 [],
    .call clearFlags,
    .call (do (Cmd.run (.op [(⟨(f 1 0), (f (-9007199254740991) (971))⟩ : Itv)])); (Cmd.run (.op [(Itv.empty : Itv)]))),
    .state 1542 [.invalidOperand],
    .call clearFlags,
    .call (setCwd (bitsOf [.invalidOperand])),
    .throws 1545 ((Cmd.run (.op [(⟨(f 2 0), (f 1 0)⟩ : Itv)]))) .invalidOperand,
    .state 1546 [.invalidOperand],
    .call clearFlags,
    .call (setCwd (bitsOf []))] ExSt.init = [] := by
  decide +kernel

/-- `minimal_tan_rev_bin_test` -/
example : failed [
    .call (do (Cmd.run (.op [(Itv.empty : Itv), (⟨(f (-7074254294673575) (-52)), (f (7074254294673575) (-52))⟩ : Itv)])); (Cmd.run (.op [(Itv.empty : Itv)]))),
    .call ((Cmd.run (.op [(Itv.entire : Itv), (⟨(f (-7074254294673575) (-52)), (f (7074254294673575) (-52))⟩ : Itv)]))),
    .call ((Cmd.run (.op [(⟨(f 0 0), (f 0 0)⟩ : Itv), (⟨(f (-7074254294673575) (-52)), (f (7074254294673575) (-52))⟩ : Itv)]))),
    .call ((Cmd.run (.op [(⟨(f 2041404919149421 3), (f 8165619676597685 1)⟩ : Itv), (⟨(f (-7074254294673575) (-52)), (f (7074254294673575) (-52))⟩ : Itv)]))),
    .call ((Cmd.run (.op [(⟨(f (-4967757600021511) (-105)), (f (-2483878800010755) (-104))⟩ : Itv), (⟨(f (7070651414971679) (-51)), (f (7093169413108531) (-51))⟩ : Itv)]))),
    .call ((Cmd.run (.op [(⟨(f (1630830113682559) (-102)), (f (6523320454730237) (-104))⟩ : Itv), (⟨(f (-7093169413108531) (-51)), (f (7093169413108531) (-51))⟩ : Itv)]))),
    .call ((Cmd.run (.op [(⟨(f (-124597468209) (-36)), (f (124597468209) (-36))⟩ : Itv), (⟨.ninf, (f (7074238532074879) (-52))⟩ : Itv)]))),
    .call ((Cmd.run (.op [(⟨(f (-124597468209) (-36)), (f (124597468209) (-36))⟩ : Itv), (⟨(f (-7074238532074879) (-52)), .pinf⟩ : Itv)]))),
    .call ((Cmd.run (.op [(⟨(f (-124597468209) (-36)), (f (124597468209) (-36))⟩ : Itv), (⟨(f (-7074238532074879) (-52)), (f (7074238532074879) (-52))⟩ : Itv)]))),
    .call ((Cmd.run (.op [(⟨(f (-8165619676597685) (1)), (f 8165619676597685 1)⟩ : Itv), (⟨(f (-7074238532074879) (-52)), (f (7074238532074879) (-52))⟩ : Itv)]))),
    .state 1568 [],
    .call clearFlags,
    .call (do (Cmd.run (.op [(⟨(f 1 0), (f (-9007199254740991) (971))⟩ : Itv), (⟨(f 0 0), (f 0 0)⟩ : Itv)])); (Cmd.run (.op [(Itv.empty : Itv)]))),
    .state 1572 [.invalidOperand],
    .call clearFlags,
    .call (setCwd (bitsOf [.invalidOperand])),
    .throws 1575 ((Cmd.run (.op [(⟨(f 0 0), (f 0 0)⟩ : Itv), (⟨(f 2 0), (f 1 0)⟩ : Itv)]))) .invalidOperand,
    .state 1576 [.invalidOperand],
    .call clearFlags,
    .call (setCwd (bitsOf []))] ExSt.init = [] := by
  decide +kernel

/-- `minimal_tan_rev_mixedtype_test` -/
example : failed [
    .call (do (Cmd.run (.op [(Itv.empty : Itv)])); (Cmd.run (.op [(Itv.empty : Itv)]))),
    .call ((Cmd.run (.op [(⟨(f (-1) (0)), (f 1 0)⟩ : Itv)]))),
    .call ((Cmd.run (.op [(⟨(f (-156) (0)), (f (-12) (0))⟩ : Itv)]))),
    .state 1588 [],
    .call clearFlags,
    .call (do (Cmd.run (.op [(⟨(f 1 0), (f (-9007199254740991) (971))⟩ : Itv)])); (Cmd.run (.op [(Itv.empty : Itv)]))),
    .state 1592 [.invalidOperand],
    .call clearFlags,
    .call (setCwd (bitsOf [.invalidOperand])),
    .throws 1595 ((Cmd.run (.op [(⟨(f 2 0), (f 1 0)⟩ : Itv)]))) .invalidOperand,
    .state 1596 [.invalidOperand],
    .call clearFlags,
    .call (setCwd (bitsOf []))] ExSt.init = [] := by
  decide +kernel

/-- `minimal_tan_rev_bin_mixedtype_test` -/
example : failed [
    .call (do (Cmd.run (.op [(Itv.empty : Itv), (⟨(f (-7074254294673575) (-52)), (f (7074254294673575) (-52))⟩ : Itv)])); (Cmd.run (.op [(Itv.empty : Itv)]))),
    .call ((Cmd.run (.op [(Itv.entire : Itv), (⟨(f (-13176825) (-23)), (f (13176825) (-23))⟩ : Itv)]))),
    .call ((Cmd.run (.op [(⟨(f 2041404919149421 3), (f 8165619676597685 1)⟩ : Itv), (⟨(f (-7074254294673575) (-52)), (f (7074254294673575) (-52))⟩ : Itv)]))),
    .state 1609 [],
    .call clearFlags,
    .call (do (Cmd.run (.op [(⟨(f 1 0), (f (-9007199254740991) (971))⟩ : Itv), (⟨(f 0 0), (f 0 0)⟩ : Itv)])); (Cmd.run (.op [(Itv.empty : Itv)]))),
    .state 1613 [.invalidOperand],
    .call clearFlags,
    .call (setCwd (bitsOf [.invalidOperand])),
    .throws 1616 ((Cmd.run (.op [(⟨(f 0 0), (f 0 0)⟩ : Itv), (⟨(f 2 0), (f 1 0)⟩ : Itv)]))) .invalidOperand,
    .state 1617 [.invalidOperand],
    .call clearFlags,
    .call (setCwd (bitsOf []))] ExSt.init = [] := by
  decide +kernel

/-- `minimal_tan_rev_dec_test` -/
example : failed [
    .call (do (Cmd.run (.opD [(DItv.empty : DItv)])); (Cmd.run (.opD [(DItv.empty : DItv)]))),
    .call ((Cmd.run (.opD [(⟨⟨(f (-1) (0)), (f 1 0)⟩, .com⟩ : DItv)]))),
    .call ((Cmd.run (.opD [(⟨⟨(f (-156) (0)), (f (-12) (0))⟩, .dac⟩ : DItv)]))),
    .call ((Cmd.run (.opD [(⟨⟨(f 0 0), (f 0 0)⟩, .defd⟩ : DItv)]))),
    .call ((Cmd.run (.opD [(⟨⟨(f (2483878800010755) (-104)), (f (4967757600021511) (-105))⟩, .com⟩ : DItv)]))),
    .state 1634 [],
    .call clearFlags,
    .call (do (Cmd.run (.opD [(⟨⟨(f 1 0), (f (-9007199254740991) (971))⟩, .defd⟩ : DItv)])); (Cmd.run (.opD [(DItv.empty : DItv)]))),
    .state 1638 [.invalidOperand],
    .call clearFlags,
    .call (setCwd (bitsOf [.invalidOperand])),
    .throws 1641 ((Cmd.run (.opD [(⟨⟨(f 2 0), (f 1 0)⟩, .dac⟩ : DItv)]))) .invalidOperand,
    .state 1642 [.invalidOperand],
    .call clearFlags,
    .call (setCwd (bitsOf []))] ExSt.init = [] := by
  decide +kernel

/-- `minimal_tan_rev_dec_bin_test` -/
example : failed [
    .call (do (Cmd.run (.opD [(DItv.empty : DItv), (⟨⟨(f (-7074254294673575) (-52)), (f (7074254294673575) (-52))⟩, .defd⟩ : DItv)])); (Cmd.run (.opD [(DItv.empty : DItv)]))),
    .call ((Cmd.run (.opD [(DItv.entire : DItv), (⟨⟨(f (-7074254294673575) (-52)), (f (7074254294673575) (-52))⟩, .dac⟩ : DItv)]))),
    .call ((Cmd.run (.opD [(⟨⟨(f 0 0), (f 0 0)⟩, .com⟩ : DItv), (⟨⟨(f (-7074254294673575) (-52)), (f (7074254294673575) (-52))⟩, .defd⟩ : DItv)]))),
    .call ((Cmd.run (.opD [(⟨⟨(f 2041404919149421 3), (f 8165619676597685 1)⟩, .dac⟩ : DItv), (⟨⟨(f (-7074254294673575) (-52)), (f (7074254294673575) (-52))⟩, .defd⟩ : DItv)]))),
    .call ((Cmd.run (.opD [(⟨⟨(f (-4967757600021511) (-105)), (f (-2483878800010755) (-104))⟩, .defd⟩ : DItv), (⟨⟨(f (7070651414971679) (-51)), (f (7093169413108531) (-51))⟩, .dac⟩ : DItv)]))),
    .call ((Cmd.run (.opD [(⟨⟨(f (1630830113682559) (-102)), (f (6523320454730237) (-104))⟩, .com⟩ : DItv), (⟨⟨(f (-7093169413108531) (-51)), (f (7093169413108531) (-51))⟩, .com⟩ : DItv)]))),
    .call ((Cmd.run (.opD [(⟨⟨(f (-124597468209) (-36)), (f (124597468209) (-36))⟩, .defd⟩ : DItv), (⟨⟨.ninf, (f (7074238532074879) (-52))⟩, .defd⟩ : DItv)]))),
    .call ((Cmd.run (.opD [(⟨⟨(f (-124597468209) (-36)), (f (124597468209) (-36))⟩, .com⟩ : DItv), (⟨⟨(f (-7074238532074879) (-52)), .pinf⟩, .dac⟩ : DItv)]))),
    .call ((Cmd.run (.opD [(⟨⟨(f (-124597468209) (-36)), (f (124597468209) (-36))⟩, .com⟩ : DItv), (⟨⟨(f (-7074238532074879) (-52)), (f (7074238532074879) (-52))⟩, .com⟩ : DItv)]))),
    .call ((Cmd.run (.opD [(⟨⟨(f (-8165619676597685) (1)), (f 8165619676597685 1)⟩, .dac⟩ : DItv), (⟨⟨(f (-7074238532074879) (-52)), (f (7074238532074879) (-52))⟩, .defd⟩ : DItv)]))),
    .state 1664 [],
    .call clearFlags,
    .call (do (Cmd.run (.opD [(⟨⟨(f 1 0), (f (-9007199254740991) (971))⟩, .dac⟩ : DItv), (⟨⟨(f 0 0), (f 0 0)⟩, .defd⟩ : DItv)])); (Cmd.run (.opD [(DItv.empty : DItv)]))),
    .state 1668 [.invalidOperand],
    .call clearFlags,
    .call (setCwd (bitsOf [.invalidOperand])),
    .throws 1671 ((Cmd.run (.opD [(⟨⟨(f 0 0), (f 0 0)⟩, .dac⟩ : DItv), (⟨⟨(f 2 0), (f 1 0)⟩, .defd⟩ : DItv)]))) .invalidOperand,
    .state 1672 [.invalidOperand],
    .call clearFlags,
    .call (setCwd (bitsOf []))] ExSt.init = [] := by
  decide +kernel

/-- `minimal_tan_rev_dec_mixedtype_test` -/
example : failed [
    .call (do (Cmd.run (.opD [(DItv.empty : DItv)])); (Cmd.run (.opD [(DItv.empty : DItv)]))),
    .call ((Cmd.run (.opD [(⟨⟨(f (-1) (0)), (f 1 0)⟩, .defd⟩ : DItv)]))),
    .call ((Cmd.run (.opD [(⟨⟨(f (-156) (0)), (f (-12) (0))⟩, .com⟩ : DItv)]))),
    .state 1684 [],
    .call clearFlags,
    .call (do (Cmd.run (.opD [(⟨⟨(f 1 0), (f (-9007199254740991) (971))⟩, .dac⟩ : DItv)])); (Cmd.run (.opD [(DItv.empty : DItv)]))),
    .state 1688 [.invalidOperand],
    .call clearFlags,
    .call (setCwd (bitsOf [.invalidOperand])),
    .throws 1691 ((Cmd.run (.opD [(⟨⟨(f 2 0), (f 1 0)⟩, .defd⟩ : DItv)]))) .invalidOperand,
    .state 1692 [.invalidOperand],
    .call clearFlags,
    .call (setCwd (bitsOf []))] ExSt.init = [] := by
  decide +kernel

/-- `minimal_tan_rev_dec_bin_mixedtype_test` -/
example : failed [
    .call (do (Cmd.run (.opD [(DItv.empty : DItv), (⟨⟨(f (-7074254294673575) (-52)), (f (7074254294673575) (-52))⟩, .trv⟩ : DItv)])); (Cmd.run (.opD [(DItv.empty : DItv)]))),
    .call ((Cmd.run (.opD [(DItv.entire : DItv), (⟨⟨(f (-13176825) (-23)), (f (13176825) (-23))⟩, .trv⟩ : DItv)]))),
    .call ((Cmd.run (.opD [(⟨⟨(f 2041404919149421 3), (f 8165619676597685 1)⟩, .trv⟩ : DItv), (⟨⟨(f (-7074254294673575) (-52)), (f (7074254294673575) (-52))⟩, .trv⟩ : DItv)]))),
    .state 1705 [],
    .call clearFlags,
    .call (do (Cmd.run (.opD [(⟨⟨(f 1 0), (f (-9007199254740991) (971))⟩, .trv⟩ : DItv), (⟨⟨(f 0 0), (f 0 0)⟩, .dac⟩ : DItv)])); (Cmd.run (.opD [(DItv.empty : DItv)]))),
    .state 1709 [.invalidOperand],
    .call clearFlags,
    .call (setCwd (bitsOf [.invalidOperand])),
    .throws 1712 ((Cmd.run (.opD [(⟨⟨(f 0 0), (f 0 0)⟩, .trv⟩ : DItv), (⟨⟨(f 2 0), (f 1 0)⟩, .com⟩ : DItv)]))) .invalidOperand,
    .state 1713 [.invalidOperand],
    .call clearFlags,
    .call (setCwd (bitsOf []))] ExSt.init = [] := by
  decide +kernel

/-- `minimal_cosh_rev_test` -/
example : failed [
    .call (do (Cmd.run (.op [(Itv.empty : Itv)])); (Cmd.run (.op [(Itv.empty : Itv)]))),
    .call ((Cmd.run (.op [(⟨(f 1 0), .pinf⟩ : Itv)]))),
    .call ((Cmd.run (.op [(⟨(f 0 0), .pinf⟩ : Itv)]))),
    .call ((Cmd.run (.op [(⟨(f 1 0), (f 1 0)⟩ : Itv)]))),
    .call ((Cmd.run (.op [(⟨(f (434338585747285) (-48)), (f 3463345852430435 381)⟩ : Itv)]))),
    .state 1730 [],
    .call clearFlags,
    .call (do (Cmd.run (.op [(⟨(f 1 0), (f (-9007199254740991) (971))⟩ : Itv)])); (Cmd.run (.op [(Itv.empty : Itv)]))),
    .state 1734 [.invalidOperand],
    .call clearFlags,
    .call (setCwd (bitsOf [.invalidOperand])),
    .throws 1737 ((Cmd.run (.op [(⟨(f 2 0), (f 1 0)⟩ : Itv)]))) .invalidOperand,
    .state 1738 [.invalidOperand],
    .call clearFlags,
    .call (setCwd (bitsOf []))] ExSt.init = [] := by
  decide +kernel

/-- `minimal_cosh_rev_bin_test` -/
example : failed [
    .call (do (Cmd.run (.op [(Itv.empty : Itv), (⟨(f 0 0), .pinf⟩ : Itv)])); (Cmd.run (.op [(Itv.empty : Itv)]))),
    .call ((Cmd.run (.op [(⟨(f 1 0), .pinf⟩ : Itv), (⟨(f 0 0), .pinf⟩ : Itv)]))),
    .call ((Cmd.run (.op [(⟨(f 0 0), .pinf⟩ : Itv), (⟨(f 1 0), (f 2 0)⟩ : Itv)]))),
    .call (do (Cmd.run (.op [(⟨(f 1 0), (f 1 0)⟩ : Itv), (⟨(f 1 0), .pinf⟩ : Itv)])); (Cmd.run (.op [(Itv.empty : Itv)]))),
    .call ((Cmd.run (.op [(⟨(f (434338585747285) (-48)), (f 3463345852430435 381)⟩ : Itv), (⟨.ninf, (f 0 0)⟩ : Itv)]))),
    .call ((Cmd.run (.op [(⟨(f (4503599627370497) (-52)), .pinf⟩ : Itv), (⟨(f (-6369051672525773) (-78)), (f (1592262918131443) (-76))⟩ : Itv)]))),
    .call ((Cmd.run (.op [(⟨(f (4503599627370497) (-52)), .pinf⟩ : Itv), (⟨(f (-1592262918131443) (-76)), (f (6369051672525773) (-78))⟩ : Itv)]))),
    .call (do (Cmd.run (.op [(⟨(f (4503599627370497) (-52)), .pinf⟩ : Itv), (⟨(f (-1592262918131443) (-76)), (f (1592262918131443) (-76))⟩ : Itv)])); (Cmd.run (.op [(Itv.empty : Itv)]))),
    .state 1758 [],
    .call clearFlags,
    .call (do (Cmd.run (.op [(⟨(f 1 0), (f (-9007199254740991) (971))⟩ : Itv), (⟨(f 0 0), .pinf⟩ : Itv)])); (Cmd.run (.op [(Itv.empty : Itv)]))),
    .state 1762 [.invalidOperand],
    .call clearFlags,
    .call (setCwd (bitsOf [.invalidOperand])),
    .throws 1765 ((Cmd.run (.op [(⟨(f 2 0), (f 1 0)⟩ : Itv), (⟨(f 0 0), .pinf⟩ : Itv)]))) .invalidOperand,
    .state 1766 [.invalidOperand],
    .call clearFlags,
    .call (setCwd (bitsOf []))] ExSt.init = [] := by
  decide +kernel

/-- `minimal_cosh_rev_mixedtype_test` -/
example : failed [
    .call (do (Cmd.run (.op [(Itv.empty : Itv)])); (Cmd.run (.op [(Itv.empty : Itv)]))),
    .call ((Cmd.run (.op [(⟨(f 1 0), .pinf⟩ : Itv)]))),
    .call ((Cmd.run (.op [(⟨(f 0 0), .pinf⟩ : Itv)]))),
    .call ((Cmd.run (.op [(⟨(f (434338585747285) (-48)), (f 3463345852430435 381)⟩ : Itv)]))),
    .state 1782 [],
    .call clearFlags,
    .call (do (Cmd.run (.op [(⟨(f 1 0), (f (-9007199254740991) (971))⟩ : Itv)])); (Cmd.run (.op [(Itv.empty : Itv)]))),
    .state 1786 [.invalidOperand],
    .call clearFlags,
    .call (setCwd (bitsOf [.invalidOperand])),
    .throws 1789 ((Cmd.run (.op [(⟨(f 2 0), (f 1 0)⟩ : Itv)]))) .invalidOperand,
    .state 1790 [.invalidOperand],
    .call clearFlags,
    .call (setCwd (bitsOf []))] ExSt.init = [] := by
  decide +kernel

/-- `minimal_cosh_rev_bin_mixedtype_test` -/
example : failed [
    .call ((Cmd.run (.op [(⟨(f 0 0), .pinf⟩ : Itv), (⟨(f 1 0), (f 2 0)⟩ : Itv)]))),
    .call ((Cmd.run (.op [(⟨(f (434338585747285) (-48)), (f 3463345852430435 381)⟩ : Itv), (⟨.ninf, (f 0 0)⟩ : Itv)]))),
    .state 1803 [],
    .call clearFlags,
    .call (do (Cmd.run (.op [(⟨(f 1 0), (f (-9007199254740991) (971))⟩ : Itv), (⟨(f 0 0), .pinf⟩ : Itv)])); (Cmd.run (.op [(Itv.empty : Itv)]))),
    .state 1807 [.invalidOperand],
    .call clearFlags,
    .call (setCwd (bitsOf [.invalidOperand])),
    .throws 1810 ((Cmd.run (.op [(⟨(f 2 0), (f 1 0)⟩ : Itv), (⟨(f 0 0), .pinf⟩ : Itv)]))) .invalidOperand,
    .state 1811 [.invalidOperand],
    .call clearFlags,
    .call (setCwd (bitsOf []))] ExSt.init = [] := by
  decide +kernel

/-- `minimal_cosh_rev_dec_test` -/
example : failed [
    .call (do (Cmd.run (.opD [(DItv.empty : DItv)])); (Cmd.run (.opD [(DItv.empty : DItv)]))),
    .call ((Cmd.run (.opD [(⟨⟨(f 1 0), .pinf⟩, .dac⟩ : DItv)]))),
    .call ((Cmd.run (.opD [(⟨⟨(f 0 0), .pinf⟩, .dac⟩ : DItv)]))),
    .call ((Cmd.run (.opD [(⟨⟨(f 1 0), (f 1 0)⟩, .defd⟩ : DItv)]))),
    .call ((Cmd.run (.opD [(⟨⟨(f (434338585747285) (-48)), (f 3463345852430435 381)⟩, .com⟩ : DItv)]))),
    .state 1829 [],
    .call clearFlags,
    .call (do (Cmd.run (.opD [(⟨⟨(f 1 0), (f (-9007199254740991) (971))⟩, .defd⟩ : DItv)])); (Cmd.run (.opD [(DItv.empty : DItv)]))),
    .state 1833 [.invalidOperand],
    .call clearFlags,
    .call (setCwd (bitsOf [.invalidOperand])),
    .throws 1836 ((Cmd.run (.opD [(⟨⟨(f 2 0), (f 1 0)⟩, .defd⟩ : DItv)]))) .invalidOperand,
    .state 1837 [.invalidOperand],
    .call clearFlags,
    .call (setCwd (bitsOf []))] ExSt.init = [] := by
  decide +kernel

/-- `minimal_cosh_rev_dec_bin_test` -/
example : failed [
    .call (do (Cmd.run (.opD [(DItv.empty : DItv), (⟨⟨(f 0 0), .pinf⟩, .dac⟩ : DItv)])); (Cmd.run (.opD [(DItv.empty : DItv)]))),
    .call ((Cmd.run (.opD [(⟨⟨(f 1 0), .pinf⟩, .defd⟩ : DItv), (⟨⟨(f 0 0), .pinf⟩, .dac⟩ : DItv)]))),
    .call ((Cmd.run (.opD [(⟨⟨(f 0 0), .pinf⟩, .defd⟩ : DItv), (⟨⟨(f 1 0), (f 2 0)⟩, .com⟩ : DItv)]))),
    .call (do (Cmd.run (.opD [(⟨⟨(f 1 0), (f 1 0)⟩, .dac⟩ : DItv), (⟨⟨(f 1 0), .pinf⟩, .defd⟩ : DItv)])); (Cmd.run (.opD [(DItv.empty : DItv)]))),
    .call ((Cmd.run (.opD [(⟨⟨(f (434338585747285) (-48)), (f 3463345852430435 381)⟩, .com⟩ : DItv), (⟨⟨.ninf, (f 0 0)⟩, .dac⟩ : DItv)]))),
    .state 1853 [],
    .call clearFlags,
    .call (do (Cmd.run (.opD [(⟨⟨(f 1 0), (f (-9007199254740991) (971))⟩, .defd⟩ : DItv), (⟨⟨(f 0 0), .pinf⟩, .dac⟩ : DItv)])); (Cmd.run (.opD [(DItv.empty : DItv)]))),
    .state 1857 [.invalidOperand],
    .call clearFlags,
    .call (setCwd (bitsOf [.invalidOperand])),
    .throws 1860 ((Cmd.run (.opD [(⟨⟨(f 2 0), (f 1 0)⟩, .dac⟩ : DItv), (⟨⟨(f 0 0), .pinf⟩, .defd⟩ : DItv)]))) .invalidOperand,
    .state 1861 [.invalidOperand],
    .call clearFlags,
    .call (setCwd (bitsOf []))] ExSt.init = [] := by
  decide +kernel

/-- `minimal_cosh_rev_dec_mixedtype_test` -/
example : failed [
    .call (do (Cmd.run (.opD [(DItv.empty : DItv)])); (Cmd.run (.opD [(DItv.empty : DItv)]))),
    .call ((Cmd.run (.opD [(⟨⟨(f 1 0), .pinf⟩, .dac⟩ : DItv)]))),
    .call ((Cmd.run (.opD [(⟨⟨(f 0 0), .pinf⟩, .defd⟩ : DItv)]))),
    .call ((Cmd.run (.opD [(⟨⟨(f (434338585747285) (-48)), (f 3463345852430435 381)⟩, .com⟩ : DItv)]))),
    .state 1877 [],
    .call clearFlags,
    .call (do (Cmd.run (.opD [(⟨⟨(f 1 0), (f (-9007199254740991) (971))⟩, .defd⟩ : DItv)])); (Cmd.run (.opD [(DItv.empty : DItv)]))),
    .state 1881 [.invalidOperand],
    .call clearFlags,
    .call (setCwd (bitsOf [.invalidOperand])),
    .throws 1884 ((Cmd.run (.opD [(⟨⟨(f 2 0), (f 1 0)⟩, .com⟩ : DItv)]))) .invalidOperand,
    .state 1885 [.invalidOperand],
    .call clearFlags,
    .call (setCwd (bitsOf []))] ExSt.init = [] := by
  decide +kernel

/-- `minimal_cosh_rev_dec_bin_mixedtype_test` -/
example : failed [
    .call ((Cmd.run (.opD [(⟨⟨(f 0 0), .pinf⟩, .dac⟩ : DItv), (⟨⟨(f 1 0), (f 2 0)⟩, .com⟩ : DItv)]))),
    .call ((Cmd.run (.opD [(⟨⟨(f (434338585747285) (-48)), (f 3463345852430435 381)⟩, .defd⟩ : DItv), (⟨⟨.ninf, (f 0 0)⟩, .defd⟩ : DItv)]))),
    .state 1898 [],
    .call clearFlags,
    .call (do (Cmd.run (.opD [(⟨⟨(f 1 0), (f (-9007199254740991) (971))⟩, .dac⟩ : DItv), (⟨⟨(f 0 0), .pinf⟩, .com⟩ : DItv)])); (Cmd.run (.opD [(DItv.empty : DItv)]))),
    .state 1902 [.invalidOperand],
    .call clearFlags,
    .call (setCwd (bitsOf [.invalidOperand])),
    .throws 1905 ((Cmd.run (.opD [(⟨⟨(f 2 0), (f 1 0)⟩, .defd⟩ : DItv), (⟨⟨(f 0 0), .pinf⟩, .defd⟩ : DItv)]))) .invalidOperand,
    .state 1906 [.invalidOperand],
    .call clearFlags,
    .call (setCwd (bitsOf []))] ExSt.init = [] := by
  decide +kernel

/-- `minimal_mul_rev_test` -/
example : failed [
    .call (do (Cmd.run (.op [(Itv.empty : Itv), (⟨(f 1 0), (f 2 0)⟩ : Itv)])); (Cmd.run (.op [(Itv.mulRev2 binary64 (Itv.empty : Itv) (⟨(f 1 0), (f 2 0)⟩ : Itv) : Itv)]))),
    .call (do (Cmd.run (.op [(⟨(f 1 0), (f 2 0)⟩ : Itv), (Itv.empty : Itv)])); (Cmd.run (.op [(Itv.mulRev2 binary64 (⟨(f 1 0), (f 2 0)⟩ : Itv) (Itv.empty : Itv) : Itv)]))),
    .call (do (Cmd.run (.op [(Itv.empty : Itv), (Itv.empty : Itv)])); (Cmd.run (.op [(Itv.mulRev2 binary64 (Itv.empty : Itv) (Itv.empty : Itv) : Itv)]))),
    .call ((Cmd.run (.op [(⟨(f (-2) (0)), (f (-3602879701896397) (-55))⟩ : Itv), (⟨(f (-4728779608739021) (-51)), (f (-3602879701896397) (-53))⟩ : Itv)]))),
    .call ((Cmd.run (.op [(⟨(f (-2) (0)), (f 0 0)⟩ : Itv), (⟨(f (-4728779608739021) (-51)), (f (-3602879701896397) (-53))⟩ : Itv)]))),
    .call ((Cmd.run (.op [(⟨(f (-2) (0)), (f (2476979795053773) (-51))⟩ : Itv), (⟨(f (-4728779608739021) (-51)), (f (-3602879701896397) (-53))⟩ : Itv)]))),
    .call ((Cmd.run (.op [(⟨(f 0 0), (f (2476979795053773) (-51))⟩ : Itv), (⟨(f (-4728779608739021) (-51)), (f (-3602879701896397) (-53))⟩ : Itv)]))),
    .call ((Cmd.run (.op [(⟨(f (5764607523034235) (-59)), (f (2476979795053773) (-51))⟩ : Itv), (⟨(f (-4728779608739021) (-51)), (f (-3602879701896397) (-53))⟩ : Itv)]))),
    .call (do (Cmd.run (.op [(⟨(f 0 0), (f 0 0)⟩ : Itv), (⟨(f (-4728779608739021) (-51)), (f (-3602879701896397) (-53))⟩ : Itv)])); (Cmd.run (.op [(Itv.mulRev2 binary64 (⟨(f 0 0), (f 0 0)⟩ : Itv) (⟨(f (-4728779608739021) (-51)), (f (-3602879701896397) (-53))⟩ : Itv) : Itv)]))),
    .call ((Cmd.run (.op [(⟨.ninf, (f (-3602879701896397) (-55))⟩ : Itv), (⟨(f (-4728779608739021) (-51)), (f (-3602879701896397) (-53))⟩ : Itv)]))),
    .call ((Cmd.run (.op [(⟨.ninf, (f 0 0)⟩ : Itv), (⟨(f (-4728779608739021) (-51)), (f (-3602879701896397) (-53))⟩ : Itv)]))),
    .call ((Cmd.run (.op [(⟨.ninf, (f (2476979795053773) (-51))⟩ : Itv), (⟨(f (-4728779608739021) (-51)), (f (-3602879701896397) (-53))⟩ : Itv)]))),
    .call ((Cmd.run (.op [(⟨(f (-2) (0)), .pinf⟩ : Itv), (⟨(f (-4728779608739021) (-51)), (f (-3602879701896397) (-53))⟩ : Itv)]))),
    .call ((Cmd.run (.op [(⟨(f 0 0), .pinf⟩ : Itv), (⟨(f (-4728779608739021) (-51)), (f (-3602879701896397) (-53))⟩ : Itv)]))),
    .call ((Cmd.run (.op [(⟨(f (5764607523034235) (-59)), .pinf⟩ : Itv), (⟨(f (-4728779608739021) (-51)), (f (-3602879701896397) (-53))⟩ : Itv)]))),
    .call ((Cmd.run (.op [(⟨.ninf, .pinf⟩ : Itv), (⟨(f (-4728779608739021) (-51)), (f (-3602879701896397) (-53))⟩ : Itv)]))),
    .call ((Cmd.run (.op [(⟨(f (-2) (0)), (f (-3602879701896397) (-55))⟩ : Itv), (⟨(f (-4728779608739021) (-51)), (f 0 0)⟩ : Itv)]))),
    .call ((Cmd.run (.op [(⟨(f (-2) (0)), (f 0 0)⟩ : Itv), (⟨(f (-4728779608739021) (-51)), (f 0 0)⟩ : Itv)]))),
    .call ((Cmd.run (.op [(⟨(f (-2) (0)), (f (2476979795053773) (-51))⟩ : Itv), (⟨(f (-4728779608739021) (-51)), (f 0 0)⟩ : Itv)]))),
    .call ((Cmd.run (.op [(⟨(f 0 0), (f (2476979795053773) (-51))⟩ : Itv), (⟨(f (-4728779608739021) (-51)), (f 0 0)⟩ : Itv)]))),
    .call ((Cmd.run (.op [(⟨(f (5764607523034235) (-59)), (f (2476979795053773) (-51))⟩ : Itv), (⟨(f (-4728779608739021) (-51)), (f 0 0)⟩ : Itv)]))),
    .call ((Cmd.run (.op [(⟨(f 0 0), (f 0 0)⟩ : Itv), (⟨(f (-4728779608739021) (-51)), (f 0 0)⟩ : Itv)]))),
    .call ((Cmd.run (.op [(⟨.ninf, (f (-3602879701896397) (-55))⟩ : Itv), (⟨(f (-4728779608739021) (-51)), (f 0 0)⟩ : Itv)]))),
    .call ((Cmd.run (.op [(⟨.ninf, (f 0 0)⟩ : Itv), (⟨(f (-4728779608739021) (-51)), (f 0 0)⟩ : Itv)]))),
    .call ((Cmd.run (.op [(⟨.ninf, (f (2476979795053773) (-51))⟩ : Itv), (⟨(f (-4728779608739021) (-51)), (f 0 0)⟩ : Itv)]))),
    .call ((Cmd.run (.op [(⟨(f (-2) (0)), .pinf⟩ : Itv), (⟨(f (-4728779608739021) (-51)), (f 0 0)⟩ : Itv)]))),
    .call ((Cmd.run (.op [(⟨(f 0 0), .pinf⟩ : Itv), (⟨(f (-4728779608739021) (-51)), (f 0 0)⟩ : Itv)]))),
    .call ((Cmd.run (.op [(⟨(f (5764607523034235) (-59)), .pinf⟩ : Itv), (⟨(f (-4728779608739021) (-51)), (f 0 0)⟩ : Itv)]))),
    .call ((Cmd.run (.op [(⟨.ninf, .pinf⟩ : Itv), (⟨(f (-4728779608739021) (-51)), (f 0 0)⟩ : Itv)]))),
    .call ((Cmd.run (.op [(⟨(f (-2) (0)), (f (-3602879701896397) (-55))⟩ : Itv), (⟨(f (-4728779608739021) (-51)), (f (1080863910568919) (-53))⟩ : Itv)]))),
    .call ((Cmd.run (.op [(⟨(f (-2) (0)), (f 0 0)⟩ : Itv), (⟨(f (-4728779608739021) (-51)), (f (1080863910568919) (-53))⟩ : Itv)]))),
    .call ((Cmd.run (.op [(⟨(f (-2) (0)), (f (2476979795053773) (-51))⟩ : Itv), (⟨(f (-4728779608739021) (-51)), (f (1080863910568919) (-53))⟩ : Itv)]))),
    .call ((Cmd.run (.op [(⟨(f 0 0), (f (2476979795053773) (-51))⟩ : Itv), (⟨(f (-4728779608739021) (-51)), (f (1080863910568919) (-53))⟩ : Itv)]))),
    .call ((Cmd.run (.op [(⟨(f (5764607523034235) (-59)), (f (2476979795053773) (-51))⟩ : Itv), (⟨(f (-4728779608739021) (-51)), (f (1080863910568919) (-53))⟩ : Itv)]))),
    .call ((Cmd.run (.op [(⟨(f 0 0), (f 0 0)⟩ : Itv), (⟨(f (-4728779608739021) (-51)), (f (1080863910568919) (-53))⟩ : Itv)]))),
    .call ((Cmd.run (.op [(⟨.ninf, (f (-3602879701896397) (-55))⟩ : Itv), (⟨(f (-4728779608739021) (-51)), (f (1080863910568919) (-53))⟩ : Itv)]))),
    .call ((Cmd.run (.op [(⟨.ninf, (f 0 0)⟩ : Itv), (⟨(f (-4728779608739021) (-51)), (f (1080863910568919) (-53))⟩ : Itv)]))),
    .call ((Cmd.run (.op [(⟨.ninf, (f (2476979795053773) (-51))⟩ : Itv), (⟨(f (-4728779608739021) (-51)), (f (1080863910568919) (-53))⟩ : Itv)]))),
    .call ((Cmd.run (.op [(⟨(f (-2) (0)), .pinf⟩ : Itv), (⟨(f (-4728779608739021) (-51)), (f (1080863910568919) (-53))⟩ : Itv)]))),
    .call ((Cmd.run (.op [(⟨(f 0 0), .pinf⟩ : Itv), (⟨(f (-4728779608739021) (-51)), (f (1080863910568919) (-53))⟩ : Itv)]))),
    .call ((Cmd.run (.op [(⟨(f (5764607523034235) (-59)), .pinf⟩ : Itv), (⟨(f (-4728779608739021) (-51)), (f (1080863910568919) (-53))⟩ : Itv)]))),
    .call ((Cmd.run (.op [(⟨.ninf, .pinf⟩ : Itv), (⟨(f (-4728779608739021) (-51)), (f (1080863910568919) (-53))⟩ : Itv)]))),
    .call ((Cmd.run (.op [(⟨(f (-2) (0)), (f (-3602879701896397) (-55))⟩ : Itv), (⟨(f 0 0), (f (1080863910568919) (-53))⟩ : Itv)]))),
    .call ((Cmd.run (.op [(⟨(f (-2) (0)), (f 0 0)⟩ : Itv), (⟨(f 0 0), (f (1080863910568919) (-53))⟩ : Itv)]))),
    .call ((Cmd.run (.op [(⟨(f (-2) (0)), (f (2476979795053773) (-51))⟩ : Itv), (⟨(f 0 0), (f (1080863910568919) (-53))⟩ : Itv)]))),
    .call ((Cmd.run (.op [(⟨(f 0 0), (f (2476979795053773) (-51))⟩ : Itv), (⟨(f 0 0), (f (1080863910568919) (-53))⟩ : Itv)]))),
    .call ((Cmd.run (.op [(⟨(f (5764607523034235) (-59)), (f (2476979795053773) (-51))⟩ : Itv), (⟨(f 0 0), (f (1080863910568919) (-53))⟩ : Itv)]))),
    .call ((Cmd.run (.op [(⟨(f 0 0), (f 0 0)⟩ : Itv), (⟨(f 0 0), (f (1080863910568919) (-53))⟩ : Itv)]))),
    .call ((Cmd.run (.op [(⟨.ninf, (f (-3602879701896397) (-55))⟩ : Itv), (⟨(f 0 0), (f (1080863910568919) (-53))⟩ : Itv)]))),
    .call ((Cmd.run (.op [(⟨.ninf, (f 0 0)⟩ : Itv), (⟨(f 0 0), (f (1080863910568919) (-53))⟩ : Itv)]))),
    .call ((Cmd.run (.op [(⟨.ninf, (f (2476979795053773) (-51))⟩ : Itv), (⟨(f 0 0), (f (1080863910568919) (-53))⟩ : Itv)]))),
    .call ((Cmd.run (.op [(⟨(f (-2) (0)), .pinf⟩ : Itv), (⟨(f 0 0), (f (1080863910568919) (-53))⟩ : Itv)]))),
    .call ((Cmd.run (.op [(⟨(f 0 0), .pinf⟩ : Itv), (⟨(f 0 0), (f (1080863910568919) (-53))⟩ : Itv)]))),
    .call ((Cmd.run (.op [(⟨(f (5764607523034235) (-59)), .pinf⟩ : Itv), (⟨(f 0 0), (f (1080863910568919) (-53))⟩ : Itv)]))),
    .call ((Cmd.run (.op [(⟨.ninf, .pinf⟩ : Itv), (⟨(f 0 0), (f (1080863910568919) (-53))⟩ : Itv)]))),
    .call ((Cmd.run (.op [(⟨(f (-2) (0)), (f (-3602879701896397) (-55))⟩ : Itv), (⟨(f (5764607523034235) (-59)), (f (1080863910568919) (-53))⟩ : Itv)]))),
    .call ((Cmd.run (.op [(⟨(f (-2) (0)), (f 0 0)⟩ : Itv), (⟨(f (5764607523034235) (-59)), (f (1080863910568919) (-53))⟩ : Itv)]))),
    .call ((Cmd.run (.op [(⟨(f (-2) (0)), (f (2476979795053773) (-51))⟩ : Itv), (⟨(f (5764607523034235) (-59)), (f (1080863910568919) (-53))⟩ : Itv)]))),
    .call ((Cmd.run (.op [(⟨(f 0 0), (f (2476979795053773) (-51))⟩ : Itv), (⟨(f (5764607523034235) (-59)), (f (1080863910568919) (-53))⟩ : Itv)]))),
    .call ((Cmd.run (.op [(⟨(f (5764607523034235) (-59)), (f (2476979795053773) (-51))⟩ : Itv), (⟨(f (5764607523034235) (-59)), (f (1080863910568919) (-53))⟩ : Itv)]))),
    .call (do (Cmd.run (.op [(⟨(f 0 0), (f 0 0)⟩ : Itv), (⟨(f (5764607523034235) (-59)), (f (1080863910568919) (-53))⟩ : Itv)])); (Cmd.run (.op [(Itv.mulRev2 binary64 (⟨(f 0 0), (f 0 0)⟩ : Itv) (⟨(f (5764607523034235) (-59)), (f (1080863910568919) (-53))⟩ : Itv) : Itv)]))),
    .call ((Cmd.run (.op [(⟨.ninf, (f (-3602879701896397) (-55))⟩ : Itv), (⟨(f (5764607523034235) (-59)), (f (1080863910568919) (-53))⟩ : Itv)]))),
    .call ((Cmd.run (.op [(⟨.ninf, (f 0 0)⟩ : Itv), (⟨(f (5764607523034235) (-59)), (f (1080863910568919) (-53))⟩ : Itv)]))),
    .call ((Cmd.run (.op [(⟨.ninf, (f (2476979795053773) (-51))⟩ : Itv), (⟨(f (5764607523034235) (-59)), (f (1080863910568919) (-53))⟩ : Itv)]))),
    .call ((Cmd.run (.op [(⟨(f (-2) (0)), .pinf⟩ : Itv), (⟨(f (5764607523034235) (-59)), (f (1080863910568919) (-53))⟩ : Itv)]))),
    .call ((Cmd.run (.op [(⟨(f 0 0), .pinf⟩ : Itv), (⟨(f (5764607523034235) (-59)), (f (1080863910568919) (-53))⟩ : Itv)]))),
    .call ((Cmd.run (.op [(⟨(f (5764607523034235) (-59)), .pinf⟩ : Itv), (⟨(f (5764607523034235) (-59)), (f (1080863910568919) (-53))⟩ : Itv)]))),
    .call ((Cmd.run (.op [(⟨.ninf, .pinf⟩ : Itv), (⟨(f (5764607523034235) (-59)), (f (1080863910568919) (-53))⟩ : Itv)]))),
    .call ((Cmd.run (.op [(⟨(f (-2) (0)), (f (-3602879701896397) (-55))⟩ : Itv), (⟨(f 0 0), (f 0 0)⟩ : Itv)]))),
    .call ((Cmd.run (.op [(⟨(f (-2) (0)), (f 0 0)⟩ : Itv), (⟨(f 0 0), (f 0 0)⟩ : Itv)]))),
    .call ((Cmd.run (.op [(⟨(f (-2) (0)), (f (2476979795053773) (-51))⟩ : Itv), (⟨(f 0 0), (f 0 0)⟩ : Itv)]))),
    .call ((Cmd.run (.op [(⟨(f 0 0), (f (2476979795053773) (-51))⟩ : Itv), (⟨(f 0 0), (f 0 0)⟩ : Itv)]))),
    .call ((Cmd.run (.op [(⟨(f (5764607523034235) (-59)), (f (2476979795053773) (-51))⟩ : Itv), (⟨(f 0 0), (f 0 0)⟩ : Itv)]))),
    .call ((Cmd.run (.op [(⟨(f 0 0), (f 0 0)⟩ : Itv), (⟨(f 0 0), (f 0 0)⟩ : Itv)]))),
    .call ((Cmd.run (.op [(⟨.ninf, (f (-3602879701896397) (-55))⟩ : Itv), (⟨(f 0 0), (f 0 0)⟩ : Itv)]))),
    .call ((Cmd.run (.op [(⟨.ninf, (f 0 0)⟩ : Itv), (⟨(f 0 0), (f 0 0)⟩ : Itv)]))),
    .call ((Cmd.run (.op [(⟨.ninf, (f (2476979795053773) (-51))⟩ : Itv), (⟨(f 0 0), (f 0 0)⟩ : Itv)]))),
    .call ((Cmd.run (.op [(⟨(f (-2) (0)), .pinf⟩ : Itv), (⟨(f 0 0), (f 0 0)⟩ : Itv)]))),
    .call ((Cmd.run (.op [(⟨(f 0 0), .pinf⟩ : Itv), (⟨(f 0 0), (f 0 0)⟩ : Itv)]))),
    .call ((Cmd.run (.op [(⟨(f (5764607523034235) (-59)), .pinf⟩ : Itv), (⟨(f 0 0), (f 0 0)⟩ : Itv)]))),
    .call ((Cmd.run (.op [(⟨.ninf, .pinf⟩ : Itv), (⟨(f 0 0), (f 0 0)⟩ : Itv)]))),
    .call ((Cmd.run (.op [(⟨(f (-2) (0)), (f (-3602879701896397) (-55))⟩ : Itv), (⟨.ninf, (f (-3602879701896397) (-55))⟩ : Itv)]))),
    .call ((Cmd.run (.op [(⟨(f (-2) (0)), (f 0 0)⟩ : Itv), (⟨.ninf, (f (-3602879701896397) (-55))⟩ : Itv)]))),
    .call ((Cmd.run (.op [(⟨(f (-2) (0)), (f (2476979795053773) (-51))⟩ : Itv), (⟨.ninf, (f (-3602879701896397) (-55))⟩ : Itv)]))),
    .call ((Cmd.run (.op [(⟨(f 0 0), (f (2476979795053773) (-51))⟩ : Itv), (⟨.ninf, (f (-3602879701896397) (-55))⟩ : Itv)]))),
    .call ((Cmd.run (.op [(⟨(f (5764607523034235) (-59)), (f (2476979795053773) (-51))⟩ : Itv), (⟨.ninf, (f (-3602879701896397) (-55))⟩ : Itv)]))),
    .call (do (Cmd.run (.op [(⟨(f 0 0), (f 0 0)⟩ : Itv), (⟨.ninf, (f (-3602879701896397) (-55))⟩ : Itv)])); (Cmd.run (.op [(Itv.mulRev2 binary64 (⟨(f 0 0), (f 0 0)⟩ : Itv) (⟨.ninf, (f (-3602879701896397) (-55))⟩ : Itv) : Itv)]))),
    .call ((Cmd.run (.op [(⟨.ninf, (f (-3602879701896397) (-55))⟩ : Itv), (⟨.ninf, (f (-3602879701896397) (-55))⟩ : Itv)]))),
    .call ((Cmd.run (.op [(⟨.ninf, (f 0 0)⟩ : Itv), (⟨.ninf, (f (-3602879701896397) (-55))⟩ : Itv)]))),
    .call ((Cmd.run (.op [(⟨.ninf, (f (2476979795053773) (-51))⟩ : Itv), (⟨.ninf, (f (-3602879701896397) (-55))⟩ : Itv)]))),
    .call ((Cmd.run (.op [(⟨(f (-2) (0)), .pinf⟩ : Itv), (⟨.ninf, (f (-3602879701896397) (-55))⟩ : Itv)]))),
    .call ((Cmd.run (.op [(⟨(f 0 0), .pinf⟩ : Itv), (⟨.ninf, (f (-3602879701896397) (-55))⟩ : Itv)]))),
    .call ((Cmd.run (.op [(⟨(f (5764607523034235) (-59)), .pinf⟩ : Itv), (⟨.ninf, (f (-3602879701896397) (-55))⟩ : Itv)]))),
    .call ((Cmd.run (.op [(⟨.ninf, .pinf⟩ : Itv), (⟨.ninf, (f (-3602879701896397) (-55))⟩ : Itv)]))),
    .call ((Cmd.run (.op [(⟨(f (-2) (0)), (f (-3602879701896397) (-55))⟩ : Itv), (⟨.ninf, (f 0 0)⟩ : Itv)]))),
    .call ((Cmd.run (.op [(⟨(f (-2) (0)), (f 0 0)⟩ : Itv), (⟨.ninf, (f 0 0)⟩ : Itv)]))),
    .call ((Cmd.run (.op [(⟨(f (-2) (0)), (f (2476979795053773) (-51))⟩ : Itv), (⟨.ninf, (f 0 0)⟩ : Itv)]))),
    .call ((Cmd.run (.op [(⟨(f 0 0), (f (2476979795053773) (-51))⟩ : Itv), (⟨.ninf, (f 0 0)⟩ : Itv)]))),
    .call ((Cmd.run (.op [(⟨(f (5764607523034235) (-59)), (f (2476979795053773) (-51))⟩ : Itv), (⟨.ninf, (f 0 0)⟩ : Itv)]))),
    .call ((Cmd.run (.op [(⟨(f 0 0), (f 0 0)⟩ : Itv), (⟨.ninf, (f 0 0)⟩ : Itv)]))),
    .call ((Cmd.run (.op [(⟨.ninf, (f (-3602879701896397) (-55))⟩ : Itv), (⟨.ninf, (f 0 0)⟩ : Itv)]))),
    .call ((Cmd.run (.op [(⟨.ninf, (f 0 0)⟩ : Itv), (⟨.ninf, (f 0 0)⟩ : Itv)]))),
    .call ((Cmd.run (.op [(⟨.ninf, (f (2476979795053773) (-51))⟩ : Itv), (⟨.ninf, (f 0 0)⟩ : Itv)]))),
    .call ((Cmd.run (.op [(⟨(f (-2) (0)), .pinf⟩ : Itv), (⟨.ninf, (f 0 0)⟩ : Itv)]))),
    .call ((Cmd.run (.op [(⟨(f 0 0), .pinf⟩ : Itv), (⟨.ninf, (f 0 0)⟩ : Itv)]))),
    .call ((Cmd.run (.op [(⟨(f (5764607523034235) (-59)), .pinf⟩ : Itv), (⟨.ninf, (f 0 0)⟩ : Itv)]))),
    .call ((Cmd.run (.op [(⟨.ninf, .pinf⟩ : Itv), (⟨.ninf, (f 0 0)⟩ : Itv)]))),
    .call ((Cmd.run (.op [(⟨(f (-2) (0)), (f (-3602879701896397) (-55))⟩ : Itv), (⟨.ninf, (f (5404319552844595) (-54))⟩ : Itv)]))),
    .call ((Cmd.run (.op [(⟨(f (-2) (0)), (f 0 0)⟩ : Itv), (⟨.ninf, (f (5404319552844595) (-54))⟩ : Itv)]))),
    .call ((Cmd.run (.op [(⟨(f (-2) (0)), (f (2476979795053773) (-51))⟩ : Itv), (⟨.ninf, (f (5404319552844595) (-54))⟩ : Itv)]))),
    .call ((Cmd.run (.op [(⟨(f 0 0), (f (2476979795053773) (-51))⟩ : Itv), (⟨.ninf, (f (5404319552844595) (-54))⟩ : Itv)]))),
    .call ((Cmd.run (.op [(⟨(f (5764607523034235) (-59)), (f (2476979795053773) (-51))⟩ : Itv), (⟨.ninf, (f (5404319552844595) (-54))⟩ : Itv)]))),
    .call ((Cmd.run (.op [(⟨(f 0 0), (f 0 0)⟩ : Itv), (⟨.ninf, (f (5404319552844595) (-54))⟩ : Itv)]))),
    .call ((Cmd.run (.op [(⟨.ninf, (f (-3602879701896397) (-55))⟩ : Itv), (⟨.ninf, (f (5404319552844595) (-54))⟩ : Itv)]))),
    .call ((Cmd.run (.op [(⟨.ninf, (f 0 0)⟩ : Itv), (⟨.ninf, (f (5404319552844595) (-54))⟩ : Itv)]))),
    .call ((Cmd.run (.op [(⟨.ninf, (f (2476979795053773) (-51))⟩ : Itv), (⟨.ninf, (f (5404319552844595) (-54))⟩ : Itv)]))),
    .call ((Cmd.run (.op [(⟨(f (-2) (0)), .pinf⟩ : Itv), (⟨.ninf, (f (5404319552844595) (-54))⟩ : Itv)]))),
    .call ((Cmd.run (.op [(⟨(f 0 0), .pinf⟩ : Itv), (⟨.ninf, (f (5404319552844595) (-54))⟩ : Itv)]))),
    .call ((Cmd.run (.op [(⟨(f (5764607523034235) (-59)), .pinf⟩ : Itv), (⟨.ninf, (f (5404319552844595) (-54))⟩ : Itv)]))),
    .call ((Cmd.run (.op [(⟨.ninf, .pinf⟩ : Itv), (⟨.ninf, (f (5404319552844595) (-54))⟩ : Itv)]))),
    .call ((Cmd.run (.op [(⟨(f (-2) (0)), (f (-3602879701896397) (-55))⟩ : Itv), (⟨(f (-7566047373982433) (-55)), .pinf⟩ : Itv)]))),
    .call ((Cmd.run (.op [(⟨(f (-2) (0)), (f 0 0)⟩ : Itv), (⟨(f (-7566047373982433) (-55)), .pinf⟩ : Itv)]))),
    .call ((Cmd.run (.op [(⟨(f (-2) (0)), (f (2476979795053773) (-51))⟩ : Itv), (⟨(f (-7566047373982433) (-55)), .pinf⟩ : Itv)]))),
    .call ((Cmd.run (.op [(⟨(f 0 0), (f (2476979795053773) (-51))⟩ : Itv), (⟨(f (-7566047373982433) (-55)), .pinf⟩ : Itv)]))),
    .call ((Cmd.run (.op [(⟨(f (5764607523034235) (-59)), (f (2476979795053773) (-51))⟩ : Itv), (⟨(f (-7566047373982433) (-55)), .pinf⟩ : Itv)]))),
    .call ((Cmd.run (.op [(⟨(f 0 0), (f 0 0)⟩ : Itv), (⟨(f (-7566047373982433) (-55)), .pinf⟩ : Itv)]))),
    .call ((Cmd.run (.op [(⟨.ninf, (f (-3602879701896397) (-55))⟩ : Itv), (⟨(f (-7566047373982433) (-55)), .pinf⟩ : Itv)]))),
    .call ((Cmd.run (.op [(⟨.ninf, (f 0 0)⟩ : Itv), (⟨(f (-7566047373982433) (-55)), .pinf⟩ : Itv)]))),
    .call ((Cmd.run (.op [(⟨.ninf, (f (2476979795053773) (-51))⟩ : Itv), (⟨(f (-7566047373982433) (-55)), .pinf⟩ : Itv)]))),
    .call ((Cmd.run (.op [(⟨(f (-2) (0)), .pinf⟩ : Itv), (⟨(f (-7566047373982433) (-55)), .pinf⟩ : Itv)]))),
    .call ((Cmd.run (.op [(⟨(f 0 0), .pinf⟩ : Itv), (⟨(f (-7566047373982433) (-55)), .pinf⟩ : Itv)]))),
    .call ((Cmd.run (.op [(⟨(f (5764607523034235) (-59)), .pinf⟩ : Itv), (⟨(f (-7566047373982433) (-55)), .pinf⟩ : Itv)]))),
    .call ((Cmd.run (.op [(⟨.ninf, .pinf⟩ : Itv), (⟨(f (-7566047373982433) (-55)), .pinf⟩ : Itv)]))),
    .call ((Cmd.run (.op [(⟨(f (-2) (0)), (f (-3602879701896397) (-55))⟩ : Itv), (⟨(f 0 0), .pinf⟩ : Itv)]))),
    .call ((Cmd.run (.op [(⟨(f (-2) (0)), (f 0 0)⟩ : Itv), (⟨(f 0 0), .pinf⟩ : Itv)]))),
    .call ((Cmd.run (.op [(⟨(f (-2) (0)), (f (2476979795053773) (-51))⟩ : Itv), (⟨(f 0 0), .pinf⟩ : Itv)]))),
    .call ((Cmd.run (.op [(⟨(f 0 0), (f (2476979795053773) (-51))⟩ : Itv), (⟨(f 0 0), .pinf⟩ : Itv)]))),
    .call ((Cmd.run (.op [(⟨(f (5764607523034235) (-59)), (f (2476979795053773) (-51))⟩ : Itv), (⟨(f 0 0), .pinf⟩ : Itv)]))),
    .call ((Cmd.run (.op [(⟨(f 0 0), (f 0 0)⟩ : Itv), (⟨(f 0 0), .pinf⟩ : Itv)]))),
    .call ((Cmd.run (.op [(⟨.ninf, (f (-3602879701896397) (-55))⟩ : Itv), (⟨(f 0 0), .pinf⟩ : Itv)]))),
    .call ((Cmd.run (.op [(⟨.ninf, (f 0 0)⟩ : Itv), (⟨(f 0 0), .pinf⟩ : Itv)]))),
    .call ((Cmd.run (.op [(⟨.ninf, (f (2476979795053773) (-51))⟩ : Itv), (⟨(f 0 0), .pinf⟩ : Itv)]))),
    .call ((Cmd.run (.op [(⟨(f (-2) (0)), .pinf⟩ : Itv), (⟨(f 0 0), .pinf⟩ : Itv)]))),
    .call ((Cmd.run (.op [(⟨(f 0 0), .pinf⟩ : Itv), (⟨(f 0 0), .pinf⟩ : Itv)]))),
    .call ((Cmd.run (.op [(⟨(f (5764607523034235) (-59)), .pinf⟩ : Itv), (⟨(f 0 0), .pinf⟩ : Itv)]))),
    .call ((Cmd.run (.op [(⟨.ninf, .pinf⟩ : Itv), (⟨(f 0 0), .pinf⟩ : Itv)]))),
    .call ((Cmd.run (.op [(⟨(f (-2) (0)), (f (-3602879701896397) (-55))⟩ : Itv), (⟨(f (5764607523034235) (-57)), .pinf⟩ : Itv)]))),
    .call ((Cmd.run (.op [(⟨(f (-2) (0)), (f 0 0)⟩ : Itv), (⟨(f (5764607523034235) (-57)), .pinf⟩ : Itv)]))),
    .call ((Cmd.run (.op [(⟨(f (-2) (0)), (f (2476979795053773) (-51))⟩ : Itv), (⟨(f (5764607523034235) (-57)), .pinf⟩ : Itv)]))),
    .call ((Cmd.run (.op [(⟨(f 0 0), (f (2476979795053773) (-51))⟩ : Itv), (⟨(f (5764607523034235) (-57)), .pinf⟩ : Itv)]))),
    .call ((Cmd.run (.op [(⟨(f (5764607523034235) (-59)), (f (2476979795053773) (-51))⟩ : Itv), (⟨(f (5764607523034235) (-57)), .pinf⟩ : Itv)]))),
    .call (do (Cmd.run (.op [(⟨(f 0 0), (f 0 0)⟩ : Itv), (⟨(f (5764607523034235) (-57)), .pinf⟩ : Itv)])); (Cmd.run (.op [(Itv.mulRev2 binary64 (⟨(f 0 0), (f 0 0)⟩ : Itv) (⟨(f (5764607523034235) (-57)), .pinf⟩ : Itv) : Itv)]))),
    .call ((Cmd.run (.op [(⟨.ninf, (f (-3602879701896397) (-55))⟩ : Itv), (⟨(f (5764607523034235) (-57)), .pinf⟩ : Itv)]))),
    .call ((Cmd.run (.op [(⟨.ninf, (f 0 0)⟩ : Itv), (⟨(f (5764607523034235) (-57)), .pinf⟩ : Itv)]))),
    .call ((Cmd.run (.op [(⟨.ninf, (f (2476979795053773) (-51))⟩ : Itv), (⟨(f (5764607523034235) (-57)), .pinf⟩ : Itv)]))),
    .call ((Cmd.run (.op [(⟨(f (-2) (0)), .pinf⟩ : Itv), (⟨(f (5764607523034235) (-57)), .pinf⟩ : Itv)]))),
    .call ((Cmd.run (.op [(⟨(f 0 0), .pinf⟩ : Itv), (⟨(f (5764607523034235) (-57)), .pinf⟩ : Itv)]))),
    .call ((Cmd.run (.op [(⟨(f (5764607523034235) (-59)), .pinf⟩ : Itv), (⟨(f (5764607523034235) (-57)), .pinf⟩ : Itv)]))),
    .call ((Cmd.run (.op [(⟨.ninf, .pinf⟩ : Itv), (⟨(f (5764607523034235) (-57)), .pinf⟩ : Itv)]))),
    .call ((Cmd.run (.op [(⟨(f (-2) (0)), (f (-3602879701896397) (-55))⟩ : Itv), (⟨.ninf, .pinf⟩ : Itv)]))),
    .call ((Cmd.run (.op [(⟨(f (-2) (0)), (f 0 0)⟩ : Itv), (⟨.ninf, .pinf⟩ : Itv)]))),
    .call ((Cmd.run (.op [(⟨(f (-2) (0)), (f (2476979795053773) (-51))⟩ : Itv), (⟨.ninf, .pinf⟩ : Itv)]))),
    .call ((Cmd.run (.op [(⟨(f 0 0), (f (2476979795053773) (-51))⟩ : Itv), (⟨.ninf, .pinf⟩ : Itv)]))),
    .call ((Cmd.run (.op [(⟨(f (5764607523034235) (-59)), (f (2476979795053773) (-51))⟩ : Itv), (⟨.ninf, .pinf⟩ : Itv)]))),
    .call ((Cmd.run (.op [(⟨(f 0 0), (f 0 0)⟩ : Itv), (⟨.ninf, .pinf⟩ : Itv)]))),
    .call ((Cmd.run (.op [(⟨.ninf, (f (-3602879701896397) (-55))⟩ : Itv), (⟨.ninf, .pinf⟩ : Itv)]))),
    .call ((Cmd.run (.op [(⟨.ninf, (f 0 0)⟩ : Itv), (⟨.ninf, .pinf⟩ : Itv)]))),
    .call ((Cmd.run (.op [(⟨.ninf, (f (2476979795053773) (-51))⟩ : Itv), (⟨.ninf, .pinf⟩ : Itv)]))),
    .call ((Cmd.run (.op [(⟨(f (-2) (0)), .pinf⟩ : Itv), (⟨.ninf, .pinf⟩ : Itv)]))),
    .call ((Cmd.run (.op [(⟨(f 0 0), .pinf⟩ : Itv), (⟨.ninf, .pinf⟩ : Itv)]))),
    .call ((Cmd.run (.op [(⟨(f (5764607523034235) (-59)), .pinf⟩ : Itv), (⟨.ninf, .pinf⟩ : Itv)]))),
    .call ((Cmd.run (.op [(⟨.ninf, .pinf⟩ : Itv), (⟨.ninf, .pinf⟩ : Itv)]))),
    .call (do (Cmd.run (.op [(⟨(f (-9007199254740991) (-53)), (f (9007199254740991) (-53))⟩ : Itv), (⟨(f 1 0), (f 1 0)⟩ : Itv), (⟨(f 0 0), (f 1 0)⟩ : Itv)])); (Cmd.run (.op [(Itv.mulRev binary64 (⟨(f (-9007199254740991) (-53)), (f (9007199254740991) (-53))⟩ : Itv) (⟨(f 1 0), (f 1 0)⟩ : Itv) (⟨(f 0 0), (f 1 0)⟩ : Itv) : Itv)]))),
    .state 2105 [],
    .call clearFlags,
    .call (do (Cmd.run (.op [(⟨(f 1 0), (f (-2) (0))⟩ : Itv), (⟨(f 1 0), (f 2 0)⟩ : Itv)])); (Cmd.run (.op [(Itv.mulRev2 binary64 (⟨(f 1 0), (f (-2) (0))⟩ : Itv) (⟨(f 1 0), (f 2 0)⟩ : Itv) : Itv)]))),
    .state 2109 [.invalidOperand],
    .call clearFlags,
    .call (setCwd (bitsOf [.invalidOperand])),
    .throws 2112 ((Cmd.run (.op [(⟨(f 1 0), (f 2 0)⟩ : Itv), (⟨(f 1 0), (f (-2) (0))⟩ : Itv)]))) .invalidOperand,
    .state 2113 [.invalidOperand],
    .call clearFlags,
    .call (setCwd (bitsOf []))] ExSt.init = [] := by
  decide +kernel

/-- `minimal_mul_rev_mixedtype_test` -/
example : failed [
    .call (do (Cmd.run (.op [(Itv.empty : Itv), (⟨(f 1 0), (f 2 0)⟩ : Itv)])); (Cmd.run (.op [(Itv.mulRev2Mixed .double .float .double (Itv.empty : Itv) (⟨(f 1 0), (f 2 0)⟩ : Itv) : Itv)]))),
    .call (do (Cmd.run (.op [(⟨(f 1 0), (f 2 0)⟩ : Itv), (Itv.empty : Itv)])); (Cmd.run (.op [(Itv.mulRev2Mixed .float .double .double (⟨(f 1 0), (f 2 0)⟩ : Itv) (Itv.empty : Itv) : Itv)]))),
    .call ((Cmd.run (.op [(⟨(f (-2) (0)), (f (-3602879701896397) (-55))⟩ : Itv), (⟨(f (-4728779608739021) (-51)), (f (-3602879701896397) (-53))⟩ : Itv)]))),
    .call ((Cmd.run (.op [(⟨(f (5764607523034235) (-59)), (f (2476979795053773) (-51))⟩ : Itv), (⟨(f (-4728779608739021) (-51)), (f 0 0)⟩ : Itv)]))),
    .call ((Cmd.run (.op [(⟨(f (5764607523034235) (-59)), (f (2476979795053773) (-51))⟩ : Itv), (⟨(f (-4728779608739021) (-51)), (f (1080863910568919) (-53))⟩ : Itv)]))),
    .call ((Cmd.run (.op [(⟨(f (5368709) (-29)), .pinf⟩ : Itv), (⟨(f 0 0), (f (16106127) (-27))⟩ : Itv)]))),
    .call ((Cmd.run (.op [(⟨(f (-2) (0)), (f (9227469) (-23))⟩ : Itv), (⟨(f (5368709) (-29)), (f (16106127) (-27))⟩ : Itv)]))),
    .call ((Cmd.run (.op [(⟨(f (-2) (0)), (f (9227469) (-23))⟩ : Itv), (⟨.ninf, (f (-3602879701896397) (-55))⟩ : Itv)]))),
    .call ((Cmd.run (.op [(⟨(f (-2) (0)), (f (2476979795053773) (-51))⟩ : Itv), (⟨(f (5764607523034235) (-57)), .pinf⟩ : Itv)]))),
    .state 2135 [],
    .call clearFlags,
    .call (do (Cmd.run (.op [(⟨(f 1 0), (f (-2) (0))⟩ : Itv), (⟨(f 1 0), (f 2 0)⟩ : Itv)])); (Cmd.run (.op [(Itv.mulRev2Mixed .float .double .double (⟨(f 1 0), (f (-2) (0))⟩ : Itv) (⟨(f 1 0), (f 2 0)⟩ : Itv) : Itv)]))),
    .state 2139 [.invalidOperand],
    .call clearFlags,
    .call (setCwd (bitsOf [.invalidOperand])),
    .throws 2142 ((Cmd.run (.op [(⟨(f 1 0), (f 2 0)⟩ : Itv), (⟨(f 1 0), (f (-2) (0))⟩ : Itv)]))) .invalidOperand,
    .state 2143 [.invalidOperand],
    .call clearFlags,
    .call (setCwd (bitsOf []))] ExSt.init = [] := by
  decide +kernel

/-- `minimal_mul_rev_ten_test` -/
example : failed [
    .call ((Cmd.run (.op [(⟨(f (-2) (0)), (f (-3602879701896397) (-55))⟩ : Itv), (⟨(f (-4728779608739021) (-51)), (f (-3602879701896397) (-53))⟩ : Itv), (⟨(f (3602879701896397) (-55)), (f 15 0)⟩ : Itv)]))),
    .call ((Cmd.run (.op [(⟨(f (-2) (0)), (f (2476979795053773) (-51))⟩ : Itv), (⟨(f (-4728779608739021) (-51)), (f (-3602879701896397) (-53))⟩ : Itv), (⟨.ninf, (f 0 0)⟩ : Itv)]))),
    .call ((Cmd.run (.op [(⟨(f (5764607523034235) (-59)), (f (2476979795053773) (-51))⟩ : Itv), (⟨(f (-4728779608739021) (-51)), (f 0 0)⟩ : Itv), (⟨(f (-22) (0)), (f (-1) (0))⟩ : Itv)]))),
    .call (do (Cmd.run (.op [(⟨.ninf, (f (-3602879701896397) (-55))⟩ : Itv), (⟨(f 0 0), (f (1080863910568919) (-53))⟩ : Itv), (⟨(f 1 0), .pinf⟩ : Itv)])); (Cmd.run (.op [(Itv.mulRev binary64 (⟨.ninf, (f (-3602879701896397) (-55))⟩ : Itv) (⟨(f 0 0), (f (1080863910568919) (-53))⟩ : Itv) (⟨(f 1 0), .pinf⟩ : Itv) : Itv)]))),
    .call ((Cmd.run (.op [(⟨(f (-2) (0)), (f (2476979795053773) (-51))⟩ : Itv), (⟨(f (5764607523034235) (-57)), .pinf⟩ : Itv), (⟨(f 0 0), .pinf⟩ : Itv)]))),
    .state 2156 [],
    .call clearFlags,
    .call (do (Cmd.run (.op [(⟨(f 1 0), (f (-2) (0))⟩ : Itv), (⟨(f 1 0), (f 2 0)⟩ : Itv), (⟨(f 5 0), (f 1 0)⟩ : Itv)])); (Cmd.run (.op [(Itv.mulRev binary64 (⟨(f 1 0), (f (-2) (0))⟩ : Itv) (⟨(f 1 0), (f 2 0)⟩ : Itv) (⟨(f 5 0), (f 1 0)⟩ : Itv) : Itv)]))),
    .state 2160 [.invalidOperand],
    .call clearFlags,
    .call (setCwd (bitsOf [.invalidOperand])),
    .throws 2163 ((Cmd.run (.op [(⟨(f 1 0), (f 2 0)⟩ : Itv), (⟨(f 1 0), (f (-2) (0))⟩ : Itv), (⟨(f 5 0), (f 1 0)⟩ : Itv)]))) .invalidOperand,
    .state 2164 [.invalidOperand],
    .call clearFlags,
    .call (setCwd (bitsOf []))] ExSt.init = [] := by
  decide +kernel

/-- `minimal_mul_rev_ten_mixedtype_test` -/
example : failed [
    .call ((Cmd.run (.op [(⟨(f (-2) (0)), (f (-3602879701896397) (-55))⟩ : Itv), (⟨(f (-4728779608739021) (-51)), (f (-3602879701896397) (-53))⟩ : Itv), (⟨(f (3602879701896397) (-55)), (f 15 0)⟩ : Itv)]))),
    .call ((Cmd.run (.op [(⟨(f (-2) (0)), (f (2476979795053773) (-51))⟩ : Itv), (⟨(f (5764607523034235) (-57)), .pinf⟩ : Itv), (⟨.ninf, (f 0 0)⟩ : Itv)]))),
    .state 2178 [],
    .call clearFlags,
    .call (do (Cmd.run (.op [(⟨(f 1 0), (f (-2) (0))⟩ : Itv), (⟨(f 1 0), (f 2 0)⟩ : Itv), (⟨(f 1 0), (f 2 0)⟩ : Itv)])); (Cmd.run (.op [(Itv.mulRevMixed .float .double .double .double (⟨(f 1 0), (f (-2) (0))⟩ : Itv) (⟨(f 1 0), (f 2 0)⟩ : Itv) (⟨(f 1 0), (f 2 0)⟩ : Itv) : Itv)]))),
    .state 2182 [.invalidOperand],
    .call clearFlags,
    .call (setCwd (bitsOf [.invalidOperand])),
    .throws 2185 ((Cmd.run (.op [(⟨(f 1 0), (f 2 0)⟩ : Itv), (⟨(f 1 0), (f (-2) (0))⟩ : Itv), (⟨(f 1 0), (f (-2) (0))⟩ : Itv)]))) .invalidOperand,
    .state 2186 [.invalidOperand],
    .call clearFlags,
    .call (setCwd (bitsOf []))] ExSt.init = [] := by
  decide +kernel

/-- `minimal_mul_rev_dec_test` -/
example : failed [
    .call (do (Cmd.run (.opD [(DItv.nai : DItv), (⟨⟨(f 1 0), (f 2 0)⟩, .dac⟩ : DItv)])); (Cmd.run (.opD [(DItv.mulRev2 binary64 (DItv.nai : DItv) (⟨⟨(f 1 0), (f 2 0)⟩, .dac⟩ : DItv) : DItv)]))),
    .call (do (Cmd.run (.opD [(⟨⟨(f 1 0), (f 2 0)⟩, .dac⟩ : DItv), (DItv.nai : DItv)])); (Cmd.run (.opD [(DItv.mulRev2 binary64 (⟨⟨(f 1 0), (f 2 0)⟩, .dac⟩ : DItv) (DItv.nai : DItv) : DItv)]))),
    .call (do (Cmd.run (.opD [(DItv.nai : DItv), (DItv.nai : DItv)])); (Cmd.run (.opD [(DItv.mulRev2 binary64 (DItv.nai : DItv) (DItv.nai : DItv) : DItv)]))),
    .call ((Cmd.run (.opD [(⟨⟨(f (-2) (0)), (f (-3602879701896397) (-55))⟩, .dac⟩ : DItv), (⟨⟨(f (-4728779608739021) (-51)), (f (-3602879701896397) (-53))⟩, .dac⟩ : DItv)]))),
    .call ((Cmd.run (.opD [(⟨⟨(f (-2) (0)), (f (-3602879701896397) (-55))⟩, .defd⟩ : DItv), (⟨⟨(f (-4728779608739021) (-51)), (f 0 0)⟩, .defd⟩ : DItv)]))),
    .call ((Cmd.run (.opD [(⟨⟨(f (-2) (0)), (f (-3602879701896397) (-55))⟩, .com⟩ : DItv), (⟨⟨(f (-4728779608739021) (-51)), (f (1080863910568919) (-53))⟩, .dac⟩ : DItv)]))),
    .call ((Cmd.run (.opD [(⟨⟨.ninf, (f (-3602879701896397) (-55))⟩, .dac⟩ : DItv), (⟨⟨(f 0 0), (f (1080863910568919) (-53))⟩, .com⟩ : DItv)]))),
    .call ((Cmd.run (.opD [(⟨⟨(f (5764607523034235) (-59)), (f (2476979795053773) (-51))⟩, .defd⟩ : DItv), (⟨⟨(f (5764607523034235) (-59)), (f (1080863910568919) (-53))⟩, .dac⟩ : DItv)]))),
    .call ((Cmd.run (.opD [(⟨⟨(f (5764607523034235) (-59)), (f (2476979795053773) (-51))⟩, .dac⟩ : DItv), (⟨⟨.ninf, (f (5404319552844595) (-54))⟩, .defd⟩ : DItv)]))),
    .call ((Cmd.run (.opD [(⟨⟨.ninf, (f (-3602879701896397) (-55))⟩, .trv⟩ : DItv), (⟨⟨(f (-7566047373982433) (-55)), .pinf⟩, .dac⟩ : DItv)]))),
    .state 2207 [],
    .call clearFlags,
    .call (do (Cmd.run (.opD [(⟨⟨(f 1 0), (f (-2) (0))⟩, .dac⟩ : DItv), (⟨⟨(f 1 0), (f 2 0)⟩, .dac⟩ : DItv)])); (Cmd.run (.opD [(DItv.mulRev2 binary64 (⟨⟨(f 1 0), (f (-2) (0))⟩, .dac⟩ : DItv) (⟨⟨(f 1 0), (f 2 0)⟩, .dac⟩ : DItv) : DItv)]))),
    .state 2211 [.invalidOperand],
    .call clearFlags,
    .call (setCwd (bitsOf [.invalidOperand])),
    .throws 2214 ((Cmd.run (.opD [(⟨⟨(f 1 0), (f 2 0)⟩, .dac⟩ : DItv), (⟨⟨(f 1 0), (f (-2) (0))⟩, .dac⟩ : DItv)]))) .invalidOperand,
    .state 2215 [.invalidOperand],
    .call clearFlags,
    .call (setCwd (bitsOf []))] ExSt.init = [] := by
  decide +kernel

/-- `minimal_mul_rev_dec_mixedtype_test` -/
example : failed [
    .call ((Cmd.run (.opD [(⟨⟨(f (-2) (0)), (f (-3602879701896397) (-55))⟩, .dac⟩ : DItv), (⟨⟨(f (-4728779608739021) (-51)), (f (-3602879701896397) (-53))⟩, .dac⟩ : DItv)]))),
    .call ((Cmd.run (.opD [(⟨⟨(f (5764607523034235) (-59)), (f (2476979795053773) (-51))⟩, .defd⟩ : DItv), (⟨⟨(f (-4728779608739021) (-51)), (f 0 0)⟩, .com⟩ : DItv)]))),
    .call ((Cmd.run (.opD [(⟨⟨(f (5764607523034235) (-59)), (f (2476979795053773) (-51))⟩, .trv⟩ : DItv), (⟨⟨(f (-4728779608739021) (-51)), (f (1080863910568919) (-53))⟩, .dac⟩ : DItv)]))),
    .state 2232 [],
    .call clearFlags,
    .call (do (Cmd.run (.opD [(⟨⟨(f 1 0), (f (-2) (0))⟩, .dac⟩ : DItv), (⟨⟨(f 1 0), (f 2 0)⟩, .dac⟩ : DItv)])); (Cmd.run (.opD [(DItv.mulRev2Mixed .float .double .double (⟨⟨(f 1 0), (f (-2) (0))⟩, .dac⟩ : DItv) (⟨⟨(f 1 0), (f 2 0)⟩, .dac⟩ : DItv) : DItv)]))),
    .state 2236 [.invalidOperand],
    .call clearFlags,
    .call (setCwd (bitsOf [.invalidOperand])),
    .throws 2239 ((Cmd.run (.opD [(⟨⟨(f 1 0), (f 2 0)⟩, .dac⟩ : DItv), (⟨⟨(f 1 0), (f (-2) (0))⟩, .dac⟩ : DItv)]))) .invalidOperand,
    .state 2240 [.invalidOperand],
    .call clearFlags,
    .call (setCwd (bitsOf []))] ExSt.init = [] := by
  decide +kernel

/-- `minimal_mul_rev_dec_ten_test` -/
example : failed [
    .call ((Cmd.run (.opD [(⟨⟨(f (-2) (0)), (f (-3602879701896397) (-55))⟩, .dac⟩ : DItv), (⟨⟨(f (-4728779608739021) (-51)), (f (-3602879701896397) (-53))⟩, .dac⟩ : DItv), (⟨⟨(f (3602879701896397) (-55)), (f 15 0)⟩, .dac⟩ : DItv)]))),
    .call ((Cmd.run (.opD [(⟨⟨(f (-2) (0)), (f (2476979795053773) (-51))⟩, .defd⟩ : DItv), (⟨⟨(f (-4728779608739021) (-51)), (f (-3602879701896397) (-53))⟩, .com⟩ : DItv), (⟨⟨.ninf, (f 0 0)⟩, .dac⟩ : DItv)]))),
    .call ((Cmd.run (.opD [(⟨⟨(f (5764607523034235) (-59)), (f (2476979795053773) (-51))⟩, .com⟩ : DItv), (⟨⟨(f (-4728779608739021) (-51)), (f 0 0)⟩, .dac⟩ : DItv), (⟨⟨(f (-22) (0)), (f (-1) (0))⟩, .dac⟩ : DItv)]))),
    .call (do (Cmd.run (.opD [(⟨⟨.ninf, (f (-3602879701896397) (-55))⟩, .dac⟩ : DItv), (⟨⟨(f 0 0), (f (1080863910568919) (-53))⟩, .com⟩ : DItv), (⟨⟨(f 1 0), .pinf⟩, .dac⟩ : DItv)])); (Cmd.run (.opD [(DItv.mulRev binary64 (⟨⟨.ninf, (f (-3602879701896397) (-55))⟩, .dac⟩ : DItv) (⟨⟨(f 0 0), (f (1080863910568919) (-53))⟩, .com⟩ : DItv) (⟨⟨(f 1 0), .pinf⟩, .dac⟩ : DItv) : DItv)]))),
    .call ((Cmd.run (.opD [(⟨⟨(f (-2) (0)), (f (2476979795053773) (-51))⟩, .defd⟩ : DItv), (⟨⟨(f (5764607523034235) (-57)), .pinf⟩, .dac⟩ : DItv), (⟨⟨(f 0 0), .pinf⟩, .dac⟩ : DItv)]))),
    .state 2253 [],
    .call clearFlags,
    .call (do (Cmd.run (.opD [(⟨⟨(f 1 0), (f (-2) (0))⟩, .ill⟩ : DItv), (⟨⟨(f 1 0), (f 2 0)⟩, .dac⟩ : DItv), (⟨⟨(f 5 0), (f 1 0)⟩, .dac⟩ : DItv)])); (Cmd.run (.opD [(DItv.mulRev binary64 (⟨⟨(f 1 0), (f (-2) (0))⟩, .ill⟩ : DItv) (⟨⟨(f 1 0), (f 2 0)⟩, .dac⟩ : DItv) (⟨⟨(f 5 0), (f 1 0)⟩, .dac⟩ : DItv) : DItv)]))),
    .state 2257 [.invalidOperand],
    .call clearFlags,
    .call (setCwd (bitsOf [.invalidOperand])),
    .throws 2260 ((Cmd.run (.opD [(⟨⟨(f 1 0), (f 2 0)⟩, .defd⟩ : DItv), (⟨⟨(f 1 0), (f (-2) (0))⟩, .dac⟩ : DItv), (⟨⟨(f 5 0), (f 1 0)⟩, .com⟩ : DItv)]))) .invalidOperand,
    .state 2261 [.invalidOperand],
    .call clearFlags,
    .call (setCwd (bitsOf []))] ExSt.init = [] := by
  decide +kernel

/-- `minimal_mul_rev_dec_ten_mixedtype_test` -/
example : failed [
    .call ((Cmd.run (.opD [(⟨⟨(f (-2) (0)), (f (-3602879701896397) (-55))⟩, .defd⟩ : DItv), (⟨⟨(f (-4728779608739021) (-51)), (f (-3602879701896397) (-53))⟩, .defd⟩ : DItv), (⟨⟨(f (3602879701896397) (-55)), (f 15 0)⟩, .defd⟩ : DItv)]))),
    .call ((Cmd.run (.opD [(⟨⟨(f (-2) (0)), (f (2476979795053773) (-51))⟩, .dac⟩ : DItv), (⟨⟨(f (5764607523034235) (-57)), .pinf⟩, .dac⟩ : DItv), (⟨⟨.ninf, (f 0 0)⟩, .defd⟩ : DItv)]))),
    .state 2275 [],
    .call clearFlags,
    .call (do (Cmd.run (.opD [(⟨⟨(f 1 0), (f (-2) (0))⟩, .dac⟩ : DItv), (⟨⟨(f 1 0), (f 2 0)⟩, .com⟩ : DItv), (⟨⟨(f 1 0), (f 2 0)⟩, .ill⟩ : DItv)])); (Cmd.run (.opD [(DItv.mulRevMixed .float .double .double .double (⟨⟨(f 1 0), (f (-2) (0))⟩, .dac⟩ : DItv) (⟨⟨(f 1 0), (f 2 0)⟩, .com⟩ : DItv) (⟨⟨(f 1 0), (f 2 0)⟩, .ill⟩ : DItv) : DItv)]))),
    .state 2279 [.invalidOperand],
    .call clearFlags,
    .call (setCwd (bitsOf [.invalidOperand])),
    .throws 2282 ((Cmd.run (.opD [(⟨⟨(f 1 0), (f 2 0)⟩, .dac⟩ : DItv), (⟨⟨(f 1 0), (f (-2) (0))⟩, .com⟩ : DItv), (⟨⟨(f 1 0), (f (-2) (0))⟩, .defd⟩ : DItv)]))) .invalidOperand,
    .state 2283 [.invalidOperand],
    .call clearFlags,
    .call (setCwd (bitsOf []))] ExSt.init = [] := by
  decide +kernel

end P1788.Conform
