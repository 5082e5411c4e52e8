import Verif.Conform.Basic

/-!
# Conformance: elem_func, exceptions

Generated from `/repo/test/p1788/flavor/infsup/setbased/test_mpfr_bin_ieee754_flavor_elem_func.cpp`: the assertions of the project's own test suite, evaluated in the
model by the kernel.  Each test case is the list of its calls and of its
assertions, with their lines, about the exception flags and about thrown exceptions.  These are tests of the model, not proofs of
properties.
-/

set_option maxRecDepth 100000

namespace P1788.Conform

/-- `minimal_pos_test` -/
example : failed [
    .call ((Cmd.run (.op [(⟨(f 1 0), (f 2 0)⟩ : Itv)]))),
    .call (do (Cmd.run (.op [(Itv.empty : Itv)])); (Cmd.run (.op [(Fmt.posI (Itv.empty : Itv) : Itv)]))),
    .call ((Cmd.run (.op [(Itv.entire : Itv)]))),
    .call ((Cmd.run (.op [(⟨(f 1 0), .pinf⟩ : Itv)]))),
    .call ((Cmd.run (.op [(⟨.ninf, (f (-1) (0))⟩ : Itv)]))),
    .call ((Cmd.run (.op [(⟨(f 0 0), (f 2 0)⟩ : Itv)]))),
    .call ((Cmd.run (.op [(⟨.nzero, (f 2 0)⟩ : Itv)]))),
    .call ((Cmd.run (.op [(⟨(f (-5) (-1)), .nzero⟩ : Itv)]))),
    .call ((Cmd.run (.op [(⟨(f (-5) (-1)), (f 0 0)⟩ : Itv)]))),
    .call ((Cmd.run (.op [(⟨.nzero, .nzero⟩ : Itv)]))),
    .call ((Cmd.run (.op [(⟨(f 0 0), (f 0 0)⟩ : Itv)]))),
    .state 75 [],
    .call clearFlags,
    .call (do (Cmd.run (.op [(⟨(f 1 0), (f (-2) (0))⟩ : Itv)])); (Cmd.run (.op [(Fmt.posI (⟨(f 1 0), (f (-2) (0))⟩ : Itv) : Itv)]))),
    .state 79 [.invalidOperand],
    .call clearFlags,
    .call (setCwd (bitsOf [.invalidOperand])),
    .throws 82 ((Cmd.run (.op [(⟨(f 1 0), (f (-2) (0))⟩ : Itv)]))) .invalidOperand,
    .state 83 [.invalidOperand],
    .call clearFlags,
    .call (setCwd (bitsOf []))] ExSt.init = [] := by
  decide +kernel

/-- `minimal_pos_mixedtype_test` -/
example : failed [
    .call ((Cmd.run (.op [(⟨(f (-6710887) (-18)), (f (7205759403792793) (-56))⟩ : Itv)]))),
    .call ((Cmd.run (.op [(⟨(f (-6710887) (-18)), (f 9007199254740991 971)⟩ : Itv)]))),
    .state 93 [],
    .call clearFlags,
    .call (do (Cmd.run (.op [(⟨(f 1 0), (f (-2) (0))⟩ : Itv)])); (Cmd.run (.op [(if !(⟨(f 1 0), (f (-2) (0))⟩ : Itv).isValid then Itv.empty else Fmt.convertHull binary64 (⟨(f 1 0), (f (-2) (0))⟩ : Itv) : Itv)]))),
    .state 97 [.invalidOperand],
    .call clearFlags,
    .call (setCwd (bitsOf [.invalidOperand])),
    .throws 100 ((Cmd.run (.op [(⟨(f 1 0), (f (-2) (0))⟩ : Itv)]))) .invalidOperand,
    .state 101 [.invalidOperand],
    .call clearFlags,
    .call (setCwd (bitsOf []))] ExSt.init = [] := by
  decide +kernel

/-- `minimal_pos_dec_test` -/
example : failed [
    .call (do (Cmd.run (.opD [(DItv.nai : DItv)])); (Cmd.run (.opD [(Fmt.posD (DItv.nai : DItv) : DItv)]))),
    .call (do (Cmd.run (.opD [(DItv.empty : DItv)])); (Cmd.run (.opD [(Fmt.posD (DItv.empty : DItv) : DItv)]))),
    .call ((Cmd.run (.opD [(DItv.entire : DItv)]))),
    .call ((Cmd.run (.opD [(⟨⟨(f 1 0), (f 2 0)⟩, .com⟩ : DItv)]))),
    .state 113 [],
    .call clearFlags,
    .call (do (Cmd.run (.opD [(⟨⟨(f 1 0), (f (-2) (0))⟩, .com⟩ : DItv)])); (Cmd.run (.opD [(Fmt.posD (⟨⟨(f 1 0), (f (-2) (0))⟩, .com⟩ : DItv) : DItv)]))),
    .state 117 [.invalidOperand],
    .call clearFlags,
    .call (setCwd (bitsOf [.invalidOperand])),
    .throws 120 ((Cmd.run (.opD [(⟨⟨(f 1 0), .pinf⟩, .com⟩ : DItv)]))) .invalidOperand,
    .state 121 [.invalidOperand],
    .call clearFlags,
    .call (setCwd (bitsOf []))] ExSt.init = [] := by
  decide +kernel

/-- `minimal_pos_dec_mixedtype_test` -/
example : failed [
    .call ((Cmd.run (.opD [(⟨⟨(f (-6710887) (-18)), (f (7205759403792793) (-56))⟩, .com⟩ : DItv)]))),
    .call ((Cmd.run (.opD [(⟨⟨(f (-6710887) (-18)), (f 9007199254740991 971)⟩, .com⟩ : DItv)]))),
    .state 131 [],
    .call clearFlags,
    .call (do (Cmd.run (.opD [(⟨⟨(f 1 0), (f (-2) (0))⟩, .com⟩ : DItv)])); (Cmd.run (.opD [(if !(⟨⟨(f 1 0), (f (-2) (0))⟩, .com⟩ : DItv).isValid || (⟨⟨(f 1 0), (f (-2) (0))⟩, .com⟩ : DItv).isNai then DItv.nai else Fmt.convertHullD binary32 (⟨⟨(f 1 0), (f (-2) (0))⟩, .com⟩ : DItv) : DItv)]))),
    .state 135 [.invalidOperand],
    .call clearFlags,
    .call (setCwd (bitsOf [.invalidOperand])),
    .throws 138 ((Cmd.run (.opD [(⟨⟨(f 1 0), .pinf⟩, .com⟩ : DItv)]))) .invalidOperand,
    .state 139 [.invalidOperand],
    .call clearFlags,
    .call (setCwd (bitsOf []))] ExSt.init = [] := by
  decide +kernel

/-- `minimal_neg_test` -/
example : failed [
    .call ((Cmd.run (.op [(⟨(f 1 0), (f 2 0)⟩ : Itv)]))),
    .call (do (Cmd.run (.op [(Itv.empty : Itv)])); (Cmd.run (.op [(Fmt.negI (Itv.empty : Itv) : Itv)]))),
    .call ((Cmd.run (.op [(Itv.entire : Itv)]))),
    .call ((Cmd.run (.op [(⟨(f 1 0), .pinf⟩ : Itv)]))),
    .call ((Cmd.run (.op [(⟨.ninf, (f 1 0)⟩ : Itv)]))),
    .call ((Cmd.run (.op [(⟨(f 0 0), (f 2 0)⟩ : Itv)]))),
    .call ((Cmd.run (.op [(⟨.nzero, (f 2 0)⟩ : Itv)]))),
    .call ((Cmd.run (.op [(⟨(f (-2) (0)), (f 0 0)⟩ : Itv)]))),
    .call ((Cmd.run (.op [(⟨(f (-2) (0)), .nzero⟩ : Itv)]))),
    .call ((Cmd.run (.op [(⟨(f 0 0), .nzero⟩ : Itv)]))),
    .call ((Cmd.run (.op [(⟨.nzero, .nzero⟩ : Itv)]))),
    .state 160 [],
    .call clearFlags,
    .call (do (Cmd.run (.op [(⟨(f 1 0), (f (-2) (0))⟩ : Itv)])); (Cmd.run (.op [(Fmt.negI (⟨(f 1 0), (f (-2) (0))⟩ : Itv) : Itv)]))),
    .state 164 [.invalidOperand],
    .call clearFlags,
    .call (setCwd (bitsOf [.invalidOperand])),
    .throws 167 ((Cmd.run (.op [(⟨(f 1 0), (f (-2) (0))⟩ : Itv)]))) .invalidOperand,
    .state 168 [.invalidOperand],
    .call clearFlags,
    .call (setCwd (bitsOf []))] ExSt.init = [] := by
  decide +kernel

/-- `minimal_neg_mixedtype_test` -/
example : failed [
    .call ((Cmd.run (.op [(⟨(f (-6710887) (-18)), (f (7205759403792793) (-56))⟩ : Itv)]))),
    .call ((Cmd.run (.op [(⟨(f (-6710887) (-18)), (f 9007199254740991 971)⟩ : Itv)]))),
    .state 178 [],
    .call clearFlags,
    .call (do (Cmd.run (.op [(⟨(f 1 0), (f (-2) (0))⟩ : Itv)])); (Cmd.run (.op [(if !(⟨(f 1 0), (f (-2) (0))⟩ : Itv).isValid then Itv.empty else Fmt.convertHull binary64 (Fmt.negI (⟨(f 1 0), (f (-2) (0))⟩ : Itv)) : Itv)]))),
    .state 182 [.invalidOperand],
    .call clearFlags,
    .call (setCwd (bitsOf [.invalidOperand])),
    .throws 185 ((Cmd.run (.op [(⟨(f 1 0), (f (-2) (0))⟩ : Itv)]))) .invalidOperand,
    .state 186 [.invalidOperand],
    .call clearFlags,
    .call (setCwd (bitsOf []))] ExSt.init = [] := by
  decide +kernel

/-- `minimal_neg_dec_test` -/
example : failed [
    .call (do (Cmd.run (.opD [(DItv.nai : DItv)])); (Cmd.run (.opD [(Fmt.negD (DItv.nai : DItv) : DItv)]))),
    .call (do (Cmd.run (.opD [(DItv.empty : DItv)])); (Cmd.run (.opD [(Fmt.negD (DItv.empty : DItv) : DItv)]))),
    .call ((Cmd.run (.opD [(DItv.entire : DItv)]))),
    .call ((Cmd.run (.opD [(⟨⟨(f 1 0), (f 2 0)⟩, .com⟩ : DItv)]))),
    .state 198 [],
    .call clearFlags,
    .call (do (Cmd.run (.opD [(⟨⟨(f 1 0), (f (-2) (0))⟩, .com⟩ : DItv)])); (Cmd.run (.opD [(Fmt.negD (⟨⟨(f 1 0), (f (-2) (0))⟩, .com⟩ : DItv) : DItv)]))),
    .state 202 [.invalidOperand],
    .call clearFlags,
    .call (setCwd (bitsOf [.invalidOperand])),
    .throws 205 ((Cmd.run (.opD [(⟨⟨(f 1 0), .pinf⟩, .com⟩ : DItv)]))) .invalidOperand,
    .state 206 [.invalidOperand],
    .call clearFlags,
    .call (setCwd (bitsOf []))] ExSt.init = [] := by
  decide +kernel

/-- `minimal_neg_dec_mixedtype_test` -/
example : failed [
    .call ((Cmd.run (.opD [(⟨⟨(f (-6710887) (-18)), (f (7205759403792793) (-56))⟩, .com⟩ : DItv)]))),
    .call ((Cmd.run (.opD [(⟨⟨(f (-6710887) (-18)), (f 9007199254740991 971)⟩, .com⟩ : DItv)]))),
    .state 216 [],
    .call clearFlags,
    .call (do (Cmd.run (.opD [(⟨⟨(f 1 0), (f (-2) (0))⟩, .com⟩ : DItv)])); (Cmd.run (.opD [(if !(⟨⟨(f 1 0), (f (-2) (0))⟩, .com⟩ : DItv).isValid || (⟨⟨(f 1 0), (f (-2) (0))⟩, .com⟩ : DItv).isNai then DItv.nai else Fmt.convertHullD binary32 (Fmt.negD (⟨⟨(f 1 0), (f (-2) (0))⟩, .com⟩ : DItv)) : DItv)]))),
    .state 220 [.invalidOperand],
    .call clearFlags,
    .call (setCwd (bitsOf [.invalidOperand])),
    .throws 223 ((Cmd.run (.opD [(⟨⟨(f 1 0), .pinf⟩, .com⟩ : DItv)]))) .invalidOperand,
    .state 224 [.invalidOperand],
    .call clearFlags,
    .call (setCwd (bitsOf []))] ExSt.init = [] := by
  decide +kernel

/-- `minimal_add_test` -/
example : failed [
    .call (do (Cmd.run (.op [(Itv.empty : Itv), (Itv.empty : Itv)])); (Cmd.run (.op [(Fmt.addI binary64 (Itv.empty : Itv) (Itv.empty : Itv) : Itv)]))),
    .call (do (Cmd.run (.op [(⟨(f (-1) (0)), (f 1 0)⟩ : Itv), (Itv.empty : Itv)])); (Cmd.run (.op [(Fmt.addI binary64 (⟨(f (-1) (0)), (f 1 0)⟩ : Itv) (Itv.empty : Itv) : Itv)]))),
    .call (do (Cmd.run (.op [(Itv.empty : Itv), (⟨(f (-1) (0)), (f 1 0)⟩ : Itv)])); (Cmd.run (.op [(Fmt.addI binary64 (Itv.empty : Itv) (⟨(f (-1) (0)), (f 1 0)⟩ : Itv) : Itv)]))),
    .call (do (Cmd.run (.op [(Itv.empty : Itv), (Itv.entire : Itv)])); (Cmd.run (.op [(Fmt.addI binary64 (Itv.empty : Itv) (Itv.entire : Itv) : Itv)]))),
    .call (do (Cmd.run (.op [(Itv.entire : Itv), (Itv.empty : Itv)])); (Cmd.run (.op [(Fmt.addI binary64 (Itv.entire : Itv) (Itv.empty : Itv) : Itv)]))),
    .call ((Cmd.run (.op [(Itv.entire : Itv), (⟨.ninf, (f 1 0)⟩ : Itv)]))),
    .call ((Cmd.run (.op [(Itv.entire : Itv), (⟨(f (-1) (0)), (f 1 0)⟩ : Itv)]))),
    .call ((Cmd.run (.op [(Itv.entire : Itv), (⟨(f (-1) (0)), .pinf⟩ : Itv)]))),
    .call ((Cmd.run (.op [(Itv.entire : Itv), (Itv.entire : Itv)]))),
    .call ((Cmd.run (.op [(⟨.ninf, (f 1 0)⟩ : Itv), (Itv.entire : Itv)]))),
    .call ((Cmd.run (.op [(⟨(f (-1) (0)), (f 1 0)⟩ : Itv), (Itv.entire : Itv)]))),
    .call ((Cmd.run (.op [(⟨(f (-1) (0)), .pinf⟩ : Itv), (Itv.entire : Itv)]))),
    .call ((Cmd.run (.op [(⟨.ninf, (f 2 0)⟩ : Itv), (⟨.ninf, (f 4 0)⟩ : Itv)]))),
    .call ((Cmd.run (.op [(⟨.ninf, (f 2 0)⟩ : Itv), (⟨(f 3 0), (f 4 0)⟩ : Itv)]))),
    .call ((Cmd.run (.op [(⟨.ninf, (f 2 0)⟩ : Itv), (⟨(f 3 0), .pinf⟩ : Itv)]))),
    .call ((Cmd.run (.op [(⟨(f 1 0), (f 2 0)⟩ : Itv), (⟨.ninf, (f 4 0)⟩ : Itv)]))),
    .call ((Cmd.run (.op [(⟨(f 1 0), (f 2 0)⟩ : Itv), (⟨(f 3 0), (f 4 0)⟩ : Itv)]))),
    .call ((Cmd.run (.op [(⟨(f 1 0), (f 2 0)⟩ : Itv), (⟨(f 3 0), .pinf⟩ : Itv)]))),
    .call ((Cmd.run (.op [(⟨(f 1 0), .pinf⟩ : Itv), (⟨.ninf, (f 4 0)⟩ : Itv)]))),
    .call ((Cmd.run (.op [(⟨(f 1 0), .pinf⟩ : Itv), (⟨(f 3 0), (f 4 0)⟩ : Itv)]))),
    .call ((Cmd.run (.op [(⟨(f 1 0), .pinf⟩ : Itv), (⟨(f 3 0), .pinf⟩ : Itv)]))),
    .call ((Cmd.run (.op [(⟨(f 1 0), (f 9007199254740991 971)⟩ : Itv), (⟨(f 3 0), (f 4 0)⟩ : Itv)]))),
    .call ((Cmd.run (.op [(⟨(f (-9007199254740991) (971)), (f 2 0)⟩ : Itv), (⟨(f (-3) (0)), (f 4 0)⟩ : Itv)]))),
    .call ((Cmd.run (.op [(⟨(f (-9007199254740991) (971)), (f 2 0)⟩ : Itv), (⟨(f (-3) (0)), (f 9007199254740991 971)⟩ : Itv)]))),
    .call ((Cmd.run (.op [(⟨(f 1 0), (f 9007199254740991 971)⟩ : Itv), (⟨(f 0 0), (f 0 0)⟩ : Itv)]))),
    .call ((Cmd.run (.op [(⟨(f 1 0), (f 9007199254740991 971)⟩ : Itv), (⟨.nzero, .nzero⟩ : Itv)]))),
    .call ((Cmd.run (.op [(⟨(f 0 0), (f 0 0)⟩ : Itv), (⟨(f (-3) (0)), (f 4 0)⟩ : Itv)]))),
    .call ((Cmd.run (.op [(⟨.nzero, .nzero⟩ : Itv), (⟨(f (-3) (0)), (f 9007199254740991 971)⟩ : Itv)]))),
    .call ((Cmd.run (.op [(⟨(f (562949953421311) (-48)), (f (562949953421311) (-48))⟩ : Itv), (⟨(f (3602879701896397) (-55)), (f (3602879701896397) (-55))⟩ : Itv)]))),
    .call ((Cmd.run (.op [(⟨(f (562949953421311) (-48)), (f (562949953421311) (-48))⟩ : Itv), (⟨(f (-3602879701896397) (-55)), (f (-3602879701896397) (-55))⟩ : Itv)]))),
    .call ((Cmd.run (.op [(⟨(f (-562949953421311) (-48)), (f (562949953421311) (-48))⟩ : Itv), (⟨(f (3602879701896397) (-55)), (f (3602879701896397) (-55))⟩ : Itv)]))),
    .state 274 [],
    .call clearFlags,
    .call (do (Cmd.run (.op [(⟨(f 1 0), (f (-9007199254740991) (971))⟩ : Itv), (⟨(f 3 0), (f 4 0)⟩ : Itv)])); (Cmd.run (.op [(Fmt.addI binary64 (⟨(f 1 0), (f (-9007199254740991) (971))⟩ : Itv) (⟨(f 3 0), (f 4 0)⟩ : Itv) : Itv)]))),
    .state 278 [.invalidOperand],
    .call clearFlags,
    .call (setCwd (bitsOf [.invalidOperand])),
    .throws 281 ((Cmd.run (.op [(⟨(f 1 0), (f 9007199254740991 971)⟩ : Itv), (⟨(f 3 0), (f (-4) (0))⟩ : Itv)]))) .invalidOperand,
    .state 282 [.invalidOperand],
    .call clearFlags,
    .call (setCwd (bitsOf []))] ExSt.init = [] := by
  decide +kernel

/-- `minimal_add_mixedtype_test` -/
example : failed [
    .call ((Cmd.run (.op [(⟨(f (562949953421311) (-48)), (f (562949953421311) (-48))⟩ : Itv), (⟨(f (3602879701896397) (-55)), (f (3602879701896397) (-55))⟩ : Itv)]))),
    .call ((Cmd.run (.op [(⟨(f (562949953421311) (-48)), (f (562949953421311) (-48))⟩ : Itv), (⟨(f (-3602879701896397) (-55)), (f (-3602879701896397) (-55))⟩ : Itv)]))),
    .call ((Cmd.run (.op [(⟨(f (-2) (0)), (f 2 0)⟩ : Itv), (⟨(f (13421773) (-27)), (f (13421773) (-27))⟩ : Itv)]))),
    .state 294 [],
    .call clearFlags,
    .call (do (Cmd.run (.op [(⟨(f 1 0), (f (-9007199254740991) (971))⟩ : Itv), (⟨(f 3 0), (f 4 0)⟩ : Itv)])); (Cmd.run (.op [(if !(⟨(f 1 0), (f (-9007199254740991) (971))⟩ : Itv).isValid || !(⟨(f 3 0), (f 4 0)⟩ : Itv).isValid then Itv.empty else Fmt.convertHull binary32 (Fmt.addI binary64 (Fmt.convertHull binary64 (⟨(f 1 0), (f (-9007199254740991) (971))⟩ : Itv)) (Fmt.convertHull binary64 (⟨(f 3 0), (f 4 0)⟩ : Itv))) : Itv)]))),
    .state 298 [.invalidOperand],
    .call clearFlags,
    .call (setCwd (bitsOf [.invalidOperand])),
    .throws 301 ((Cmd.run (.op [(⟨(f 1 0), (f 16777215 104)⟩ : Itv), (⟨(f 3 0), (f (-4) (0))⟩ : Itv)]))) .invalidOperand,
    .state 302 [.invalidOperand],
    .call clearFlags,
    .call (setCwd (bitsOf []))] ExSt.init = [] := by
  decide +kernel

/-- `minimal_add_dec_test` -/
example : failed [
    .call ((Cmd.run (.opD [(⟨⟨(f 1 0), (f 2 0)⟩, .com⟩ : DItv), (⟨⟨(f 5 0), (f 7 0)⟩, .com⟩ : DItv)]))),
    .call ((Cmd.run (.opD [(⟨⟨(f 1 0), (f 2 0)⟩, .com⟩ : DItv), (⟨⟨(f 5 0), (f 7 0)⟩, .defd⟩ : DItv)]))),
    .call ((Cmd.run (.opD [(⟨⟨(f 1 0), (f 2 0)⟩, .com⟩ : DItv), (⟨⟨(f 5 0), (f 9007199254740991 971)⟩, .com⟩ : DItv)]))),
    .call ((Cmd.run (.opD [(⟨⟨(f (-9007199254740991) (971)), (f 2 0)⟩, .com⟩ : DItv), (⟨⟨(f (-3602879701896397) (-55)), (f 5 0)⟩, .com⟩ : DItv)]))),
    .call (do (Cmd.run (.opD [(⟨⟨(f 1 0), (f 2 0)⟩, .trv⟩ : DItv), (DItv.empty : DItv)])); (Cmd.run (.opD [(Fmt.addD binary64 (⟨⟨(f 1 0), (f 2 0)⟩, .trv⟩ : DItv) (DItv.empty : DItv) : DItv)]))),
    .call (do (Cmd.run (.opD [(DItv.nai : DItv), (⟨⟨(f 1 0), (f 2 0)⟩, .trv⟩ : DItv)])); (Cmd.run (.opD [(Fmt.addD binary64 (DItv.nai : DItv) (⟨⟨(f 1 0), (f 2 0)⟩, .trv⟩ : DItv) : DItv)]))),
    .state 317 [],
    .call clearFlags,
    .call (do (Cmd.run (.opD [(⟨⟨(f 1 0), (f (-2) (0))⟩, .com⟩ : DItv), (⟨⟨(f 5 0), (f 7 0)⟩, .com⟩ : DItv)])); (Cmd.run (.opD [(Fmt.addD binary64 (⟨⟨(f 1 0), (f (-2) (0))⟩, .com⟩ : DItv) (⟨⟨(f 5 0), (f 7 0)⟩, .com⟩ : DItv) : DItv)]))),
    .state 321 [.invalidOperand],
    .call clearFlags,
    .call (setCwd (bitsOf [.invalidOperand])),
    .throws 324 ((Cmd.run (.opD [(⟨⟨(f 1 0), .pinf⟩, .com⟩ : DItv), (⟨⟨(f 5 0), (f 7 0)⟩, .com⟩ : DItv)]))) .invalidOperand,
    .state 325 [.invalidOperand],
    .call clearFlags,
    .call (setCwd (bitsOf []))] ExSt.init = [] := by
  decide +kernel

/-- `minimal_add_dec_mixedtype_test` -/
example : failed [
    .call ((Cmd.run (.opD [(⟨⟨(f (562949953421311) (-48)), (f (562949953421311) (-48))⟩, .com⟩ : DItv), (⟨⟨(f (3602879701896397) (-55)), (f (3602879701896397) (-55))⟩, .com⟩ : DItv)]))),
    .call ((Cmd.run (.opD [(⟨⟨(f (562949953421311) (-48)), (f (562949953421311) (-48))⟩, .defd⟩ : DItv), (⟨⟨(f (3602879701896397) (-55)), (f (3602879701896397) (-55))⟩, .com⟩ : DItv)]))),
    .state 335 [],
    .call clearFlags,
    .call (do (Cmd.run (.opD [(⟨⟨(f 1 0), (f (-2) (0))⟩, .com⟩ : DItv), (⟨⟨(f 5 0), (f 7 0)⟩, .com⟩ : DItv)])); (Cmd.run (.opD [(if !(⟨⟨(f 1 0), (f (-2) (0))⟩, .com⟩ : DItv).isValid || (⟨⟨(f 1 0), (f (-2) (0))⟩, .com⟩ : DItv).isNai || !(⟨⟨(f 5 0), (f 7 0)⟩, .com⟩ : DItv).isValid || (⟨⟨(f 5 0), (f 7 0)⟩, .com⟩ : DItv).isNai then DItv.nai else Fmt.convertHullD binary64 (Fmt.addD binary64 (Fmt.convertHullD binary64 (⟨⟨(f 1 0), (f (-2) (0))⟩, .com⟩ : DItv)) (Fmt.convertHullD binary64 (⟨⟨(f 5 0), (f 7 0)⟩, .com⟩ : DItv))) : DItv)]))),
    .state 339 [.invalidOperand],
    .call clearFlags,
    .call (setCwd (bitsOf [.invalidOperand])),
    .throws 342 ((Cmd.run (.opD [(⟨⟨(f 1 0), .pinf⟩, .com⟩ : DItv), (⟨⟨(f 5 0), (f 7 0)⟩, .com⟩ : DItv)]))) .invalidOperand,
    .state 343 [.invalidOperand],
    .call clearFlags,
    .call (setCwd (bitsOf []))] ExSt.init = [] := by
  decide +kernel

/-- `minimal_sub_test` -/
example : failed [
    .call (do (Cmd.run (.op [(Itv.empty : Itv), (Itv.empty : Itv)])); (Cmd.run (.op [(Fmt.subI binary64 (Itv.empty : Itv) (Itv.empty : Itv) : Itv)]))),
    .call (do (Cmd.run (.op [(⟨(f (-1) (0)), (f 1 0)⟩ : Itv), (Itv.empty : Itv)])); (Cmd.run (.op [(Fmt.subI binary64 (⟨(f (-1) (0)), (f 1 0)⟩ : Itv) (Itv.empty : Itv) : Itv)]))),
    .call (do (Cmd.run (.op [(Itv.empty : Itv), (⟨(f (-1) (0)), (f 1 0)⟩ : Itv)])); (Cmd.run (.op [(Fmt.subI binary64 (Itv.empty : Itv) (⟨(f (-1) (0)), (f 1 0)⟩ : Itv) : Itv)]))),
    .call (do (Cmd.run (.op [(Itv.empty : Itv), (Itv.entire : Itv)])); (Cmd.run (.op [(Fmt.subI binary64 (Itv.empty : Itv) (Itv.entire : Itv) : Itv)]))),
    .call (do (Cmd.run (.op [(Itv.entire : Itv), (Itv.empty : Itv)])); (Cmd.run (.op [(Fmt.subI binary64 (Itv.entire : Itv) (Itv.empty : Itv) : Itv)]))),
    .call ((Cmd.run (.op [(Itv.entire : Itv), (⟨.ninf, (f 1 0)⟩ : Itv)]))),
    .call ((Cmd.run (.op [(Itv.entire : Itv), (⟨(f (-1) (0)), (f 1 0)⟩ : Itv)]))),
    .call ((Cmd.run (.op [(Itv.entire : Itv), (⟨(f (-1) (0)), .pinf⟩ : Itv)]))),
    .call ((Cmd.run (.op [(Itv.entire : Itv), (Itv.entire : Itv)]))),
    .call ((Cmd.run (.op [(⟨.ninf, (f 1 0)⟩ : Itv), (Itv.entire : Itv)]))),
    .call ((Cmd.run (.op [(⟨(f (-1) (0)), (f 1 0)⟩ : Itv), (Itv.entire : Itv)]))),
    .call ((Cmd.run (.op [(⟨(f (-1) (0)), .pinf⟩ : Itv), (Itv.entire : Itv)]))),
    .call ((Cmd.run (.op [(⟨.ninf, (f 2 0)⟩ : Itv), (⟨.ninf, (f 4 0)⟩ : Itv)]))),
    .call ((Cmd.run (.op [(⟨.ninf, (f 2 0)⟩ : Itv), (⟨(f 3 0), (f 4 0)⟩ : Itv)]))),
    .call ((Cmd.run (.op [(⟨.ninf, (f 2 0)⟩ : Itv), (⟨(f 3 0), .pinf⟩ : Itv)]))),
    .call ((Cmd.run (.op [(⟨(f 1 0), (f 2 0)⟩ : Itv), (⟨.ninf, (f 4 0)⟩ : Itv)]))),
    .call ((Cmd.run (.op [(⟨(f 1 0), (f 2 0)⟩ : Itv), (⟨(f 3 0), (f 4 0)⟩ : Itv)]))),
    .call ((Cmd.run (.op [(⟨(f 1 0), (f 2 0)⟩ : Itv), (⟨(f 3 0), .pinf⟩ : Itv)]))),
    .call ((Cmd.run (.op [(⟨(f 1 0), .pinf⟩ : Itv), (⟨.ninf, (f 4 0)⟩ : Itv)]))),
    .call ((Cmd.run (.op [(⟨(f 1 0), .pinf⟩ : Itv), (⟨(f 3 0), (f 4 0)⟩ : Itv)]))),
    .call ((Cmd.run (.op [(⟨(f 1 0), .pinf⟩ : Itv), (⟨(f 3 0), .pinf⟩ : Itv)]))),
    .call ((Cmd.run (.op [(⟨(f 1 0), (f 9007199254740991 971)⟩ : Itv), (⟨(f (-3) (0)), (f 4 0)⟩ : Itv)]))),
    .call ((Cmd.run (.op [(⟨(f (-9007199254740991) (971)), (f 2 0)⟩ : Itv), (⟨(f 3 0), (f 4 0)⟩ : Itv)]))),
    .call ((Cmd.run (.op [(⟨(f (-9007199254740991) (971)), (f 2 0)⟩ : Itv), (⟨(f (-9007199254740991) (971)), (f 4 0)⟩ : Itv)]))),
    .call ((Cmd.run (.op [(⟨(f 1 0), (f 9007199254740991 971)⟩ : Itv), (⟨(f 0 0), (f 0 0)⟩ : Itv)]))),
    .call ((Cmd.run (.op [(⟨(f 1 0), (f 9007199254740991 971)⟩ : Itv), (⟨.nzero, .nzero⟩ : Itv)]))),
    .call ((Cmd.run (.op [(⟨(f 0 0), (f 0 0)⟩ : Itv), (⟨(f (-3) (0)), (f 4 0)⟩ : Itv)]))),
    .call ((Cmd.run (.op [(⟨.nzero, .nzero⟩ : Itv), (⟨(f (-3) (0)), (f 9007199254740991 971)⟩ : Itv)]))),
    .call ((Cmd.run (.op [(⟨(f (562949953421311) (-48)), (f (562949953421311) (-48))⟩ : Itv), (⟨(f (3602879701896397) (-55)), (f (3602879701896397) (-55))⟩ : Itv)]))),
    .call ((Cmd.run (.op [(⟨(f (562949953421311) (-48)), (f (562949953421311) (-48))⟩ : Itv), (⟨(f (-3602879701896397) (-55)), (f (-3602879701896397) (-55))⟩ : Itv)]))),
    .call ((Cmd.run (.op [(⟨(f (-562949953421311) (-48)), (f (562949953421311) (-48))⟩ : Itv), (⟨(f (3602879701896397) (-55)), (f (3602879701896397) (-55))⟩ : Itv)]))),
    .state 392 [],
    .call clearFlags,
    .call (do (Cmd.run (.op [(⟨(f 1 0), (f (-9007199254740991) (971))⟩ : Itv), (⟨(f 3 0), (f 4 0)⟩ : Itv)])); (Cmd.run (.op [(Fmt.subI binary64 (⟨(f 1 0), (f (-9007199254740991) (971))⟩ : Itv) (⟨(f 3 0), (f 4 0)⟩ : Itv) : Itv)]))),
    .state 396 [.invalidOperand],
    .call clearFlags,
    .call (setCwd (bitsOf [.invalidOperand])),
    .throws 399 ((Cmd.run (.op [(⟨(f 1 0), (f 9007199254740991 971)⟩ : Itv), (⟨(f 3 0), (f (-4) (0))⟩ : Itv)]))) .invalidOperand,
    .state 400 [.invalidOperand],
    .call clearFlags,
    .call (setCwd (bitsOf []))] ExSt.init = [] := by
  decide +kernel

/-- `minimal_sub_mixedtype_test` -/
example : failed [
    .call ((Cmd.run (.op [(⟨(f (562949953421311) (-48)), (f (562949953421311) (-48))⟩ : Itv), (⟨(f (3602879701896397) (-55)), (f (3602879701896397) (-55))⟩ : Itv)]))),
    .call ((Cmd.run (.op [(⟨(f (562949953421311) (-48)), (f (562949953421311) (-48))⟩ : Itv), (⟨(f (-3602879701896397) (-55)), (f (-3602879701896397) (-55))⟩ : Itv)]))),
    .call ((Cmd.run (.op [(⟨(f (-2) (0)), (f 2 0)⟩ : Itv), (⟨(f (13421773) (-27)), (f (13421773) (-27))⟩ : Itv)]))),
    .state 411 [],
    .call clearFlags,
    .call (do (Cmd.run (.op [(⟨(f 1 0), (f (-9007199254740991) (971))⟩ : Itv), (⟨(f 3 0), (f 4 0)⟩ : Itv)])); (Cmd.run (.op [(if !(⟨(f 1 0), (f (-9007199254740991) (971))⟩ : Itv).isValid || !(⟨(f 3 0), (f 4 0)⟩ : Itv).isValid then Itv.empty else Fmt.convertHull binary32 (Fmt.subI binary64 (Fmt.convertHull binary64 (⟨(f 1 0), (f (-9007199254740991) (971))⟩ : Itv)) (Fmt.convertHull binary64 (⟨(f 3 0), (f 4 0)⟩ : Itv))) : Itv)]))),
    .state 415 [.invalidOperand],
    .call clearFlags,
    .call (setCwd (bitsOf [.invalidOperand])),
    .throws 418 ((Cmd.run (.op [(⟨(f 1 0), (f 16777215 104)⟩ : Itv), (⟨(f 3 0), (f (-4) (0))⟩ : Itv)]))) .invalidOperand,
    .state 419 [.invalidOperand],
    .call clearFlags,
    .call (setCwd (bitsOf []))] ExSt.init = [] := by
  decide +kernel

/-- `minimal_sub_dec_test` -/
example : failed [
    .call ((Cmd.run (.opD [(⟨⟨(f 1 0), (f 2 0)⟩, .com⟩ : DItv), (⟨⟨(f 5 0), (f 7 0)⟩, .com⟩ : DItv)]))),
    .call ((Cmd.run (.opD [(⟨⟨(f 1 0), (f 2 0)⟩, .com⟩ : DItv), (⟨⟨(f 5 0), (f 7 0)⟩, .defd⟩ : DItv)]))),
    .call ((Cmd.run (.opD [(⟨⟨(f (-1) (0)), (f 2 0)⟩, .com⟩ : DItv), (⟨⟨(f 5 0), (f 9007199254740991 971)⟩, .com⟩ : DItv)]))),
    .call ((Cmd.run (.opD [(⟨⟨(f (-9007199254740991) (971)), (f 2 0)⟩, .com⟩ : DItv), (⟨⟨(f (-1) (0)), (f 5 0)⟩, .com⟩ : DItv)]))),
    .call (do (Cmd.run (.opD [(⟨⟨(f 1 0), (f 2 0)⟩, .trv⟩ : DItv), (DItv.empty : DItv)])); (Cmd.run (.opD [(Fmt.subD binary64 (⟨⟨(f 1 0), (f 2 0)⟩, .trv⟩ : DItv) (DItv.empty : DItv) : DItv)]))),
    .call (do (Cmd.run (.opD [(DItv.nai : DItv), (⟨⟨(f 1 0), (f 2 0)⟩, .trv⟩ : DItv)])); (Cmd.run (.opD [(Fmt.subD binary64 (DItv.nai : DItv) (⟨⟨(f 1 0), (f 2 0)⟩, .trv⟩ : DItv) : DItv)]))),
    .state 433 [],
    .call clearFlags,
    .call (do (Cmd.run (.opD [(⟨⟨(f 1 0), (f (-2) (0))⟩, .com⟩ : DItv), (⟨⟨(f 5 0), (f 7 0)⟩, .com⟩ : DItv)])); (Cmd.run (.opD [(Fmt.subD binary64 (⟨⟨(f 1 0), (f (-2) (0))⟩, .com⟩ : DItv) (⟨⟨(f 5 0), (f 7 0)⟩, .com⟩ : DItv) : DItv)]))),
    .state 437 [.invalidOperand],
    .call clearFlags,
    .call (setCwd (bitsOf [.invalidOperand])),
    .throws 440 ((Cmd.run (.opD [(⟨⟨(f 1 0), .pinf⟩, .com⟩ : DItv), (⟨⟨(f 5 0), (f 7 0)⟩, .com⟩ : DItv)]))) .invalidOperand,
    .state 441 [.invalidOperand],
    .call clearFlags,
    .call (setCwd (bitsOf []))] ExSt.init = [] := by
  decide +kernel

/-- `minimal_sub_dec_mixedtype_test` -/
example : failed [
    .call ((Cmd.run (.opD [(⟨⟨(f (562949953421311) (-48)), (f (562949953421311) (-48))⟩, .com⟩ : DItv), (⟨⟨(f (3602879701896397) (-55)), (f (3602879701896397) (-55))⟩, .com⟩ : DItv)]))),
    .call ((Cmd.run (.opD [(⟨⟨(f (562949953421311) (-48)), (f (562949953421311) (-48))⟩, .defd⟩ : DItv), (⟨⟨(f (3602879701896397) (-55)), (f (3602879701896397) (-55))⟩, .com⟩ : DItv)]))),
    .state 451 [],
    .call clearFlags,
    .call (do (Cmd.run (.opD [(⟨⟨(f 1 0), (f (-2) (0))⟩, .com⟩ : DItv), (⟨⟨(f 5 0), (f 7 0)⟩, .com⟩ : DItv)])); (Cmd.run (.opD [(if !(⟨⟨(f 1 0), (f (-2) (0))⟩, .com⟩ : DItv).isValid || (⟨⟨(f 1 0), (f (-2) (0))⟩, .com⟩ : DItv).isNai || !(⟨⟨(f 5 0), (f 7 0)⟩, .com⟩ : DItv).isValid || (⟨⟨(f 5 0), (f 7 0)⟩, .com⟩ : DItv).isNai then DItv.nai else Fmt.convertHullD binary64 (Fmt.subD binary64 (Fmt.convertHullD binary64 (⟨⟨(f 1 0), (f (-2) (0))⟩, .com⟩ : DItv)) (Fmt.convertHullD binary64 (⟨⟨(f 5 0), (f 7 0)⟩, .com⟩ : DItv))) : DItv)]))),
    .state 455 [.invalidOperand],
    .call clearFlags,
    .call (setCwd (bitsOf [.invalidOperand])),
    .throws 458 ((Cmd.run (.opD [(⟨⟨(f 1 0), .pinf⟩, .com⟩ : DItv), (⟨⟨(f 5 0), (f 7 0)⟩, .com⟩ : DItv)]))) .invalidOperand,
    .state 459 [.invalidOperand],
    .call clearFlags,
    .call (setCwd (bitsOf []))] ExSt.init = [] := by
  decide +kernel

/-- `minimal_mul_test` -/
example : failed [
    .call (do (Cmd.run (.op [(Itv.empty : Itv), (Itv.empty : Itv)])); (Cmd.run (.op [(Fmt.mulI binary64 (Itv.empty : Itv) (Itv.empty : Itv) : Itv)]))),
    .call (do (Cmd.run (.op [(⟨(f (-1) (0)), (f 1 0)⟩ : Itv), (Itv.empty : Itv)])); (Cmd.run (.op [(Fmt.mulI binary64 (⟨(f (-1) (0)), (f 1 0)⟩ : Itv) (Itv.empty : Itv) : Itv)]))),
    .call (do (Cmd.run (.op [(Itv.empty : Itv), (⟨(f (-1) (0)), (f 1 0)⟩ : Itv)])); (Cmd.run (.op [(Fmt.mulI binary64 (Itv.empty : Itv) (⟨(f (-1) (0)), (f 1 0)⟩ : Itv) : Itv)]))),
    .call (do (Cmd.run (.op [(Itv.empty : Itv), (Itv.entire : Itv)])); (Cmd.run (.op [(Fmt.mulI binary64 (Itv.empty : Itv) (Itv.entire : Itv) : Itv)]))),
    .call (do (Cmd.run (.op [(Itv.entire : Itv), (Itv.empty : Itv)])); (Cmd.run (.op [(Fmt.mulI binary64 (Itv.entire : Itv) (Itv.empty : Itv) : Itv)]))),
    .call (do (Cmd.run (.op [(⟨(f 0 0), (f 0 0)⟩ : Itv), (Itv.empty : Itv)])); (Cmd.run (.op [(Fmt.mulI binary64 (⟨(f 0 0), (f 0 0)⟩ : Itv) (Itv.empty : Itv) : Itv)]))),
    .call (do (Cmd.run (.op [(Itv.empty : Itv), (⟨(f 0 0), (f 0 0)⟩ : Itv)])); (Cmd.run (.op [(Fmt.mulI binary64 (Itv.empty : Itv) (⟨(f 0 0), (f 0 0)⟩ : Itv) : Itv)]))),
    .call (do (Cmd.run (.op [(⟨.nzero, .nzero⟩ : Itv), (Itv.empty : Itv)])); (Cmd.run (.op [(Fmt.mulI binary64 (⟨.nzero, .nzero⟩ : Itv) (Itv.empty : Itv) : Itv)]))),
    .call (do (Cmd.run (.op [(Itv.empty : Itv), (⟨.nzero, .nzero⟩ : Itv)])); (Cmd.run (.op [(Fmt.mulI binary64 (Itv.empty : Itv) (⟨.nzero, .nzero⟩ : Itv) : Itv)]))),
    .call ((Cmd.run (.op [(Itv.entire : Itv), (⟨(f 0 0), (f 0 0)⟩ : Itv)]))),
    .call ((Cmd.run (.op [(Itv.entire : Itv), (⟨.nzero, .nzero⟩ : Itv)]))),
    .call ((Cmd.run (.op [(Itv.entire : Itv), (⟨(f (-5) (0)), (f (-1) (0))⟩ : Itv)]))),
    .call ((Cmd.run (.op [(Itv.entire : Itv), (⟨(f (-5) (0)), (f 3 0)⟩ : Itv)]))),
    .call ((Cmd.run (.op [(Itv.entire : Itv), (⟨(f 1 0), (f 3 0)⟩ : Itv)]))),
    .call ((Cmd.run (.op [(Itv.entire : Itv), (⟨.ninf, (f (-1) (0))⟩ : Itv)]))),
    .call ((Cmd.run (.op [(Itv.entire : Itv), (⟨.ninf, (f 3 0)⟩ : Itv)]))),
    .call ((Cmd.run (.op [(Itv.entire : Itv), (⟨(f (-5) (0)), .pinf⟩ : Itv)]))),
    .call ((Cmd.run (.op [(Itv.entire : Itv), (⟨(f 1 0), .pinf⟩ : Itv)]))),
    .call ((Cmd.run (.op [(Itv.entire : Itv), (Itv.entire : Itv)]))),
    .call ((Cmd.run (.op [(⟨(f 1 0), .pinf⟩ : Itv), (⟨(f 0 0), (f 0 0)⟩ : Itv)]))),
    .call ((Cmd.run (.op [(⟨(f 1 0), .pinf⟩ : Itv), (⟨.nzero, .nzero⟩ : Itv)]))),
    .call ((Cmd.run (.op [(⟨(f 1 0), .pinf⟩ : Itv), (⟨(f (-5) (0)), (f (-1) (0))⟩ : Itv)]))),
    .call ((Cmd.run (.op [(⟨(f 1 0), .pinf⟩ : Itv), (⟨(f (-5) (0)), (f 3 0)⟩ : Itv)]))),
    .call ((Cmd.run (.op [(⟨(f 1 0), .pinf⟩ : Itv), (⟨(f 1 0), (f 3 0)⟩ : Itv)]))),
    .call ((Cmd.run (.op [(⟨(f 1 0), .pinf⟩ : Itv), (⟨.ninf, (f (-1) (0))⟩ : Itv)]))),
    .call ((Cmd.run (.op [(⟨(f 1 0), .pinf⟩ : Itv), (⟨.ninf, (f 3 0)⟩ : Itv)]))),
    .call ((Cmd.run (.op [(⟨(f 1 0), .pinf⟩ : Itv), (⟨(f (-5) (0)), .pinf⟩ : Itv)]))),
    .call ((Cmd.run (.op [(⟨(f 1 0), .pinf⟩ : Itv), (⟨(f 1 0), .pinf⟩ : Itv)]))),
    .call ((Cmd.run (.op [(⟨(f 1 0), .pinf⟩ : Itv), (Itv.entire : Itv)]))),
    .call ((Cmd.run (.op [(⟨(f (-1) (0)), .pinf⟩ : Itv), (⟨(f 0 0), (f 0 0)⟩ : Itv)]))),
    .call ((Cmd.run (.op [(⟨(f (-1) (0)), .pinf⟩ : Itv), (⟨.nzero, .nzero⟩ : Itv)]))),
    .call ((Cmd.run (.op [(⟨(f (-1) (0)), .pinf⟩ : Itv), (⟨(f (-5) (0)), (f (-1) (0))⟩ : Itv)]))),
    .call ((Cmd.run (.op [(⟨(f (-1) (0)), .pinf⟩ : Itv), (⟨(f (-5) (0)), (f 3 0)⟩ : Itv)]))),
    .call ((Cmd.run (.op [(⟨(f (-1) (0)), .pinf⟩ : Itv), (⟨(f 1 0), (f 3 0)⟩ : Itv)]))),
    .call ((Cmd.run (.op [(⟨(f (-1) (0)), .pinf⟩ : Itv), (⟨.ninf, (f (-1) (0))⟩ : Itv)]))),
    .call ((Cmd.run (.op [(⟨(f (-1) (0)), .pinf⟩ : Itv), (⟨.ninf, (f 3 0)⟩ : Itv)]))),
    .call ((Cmd.run (.op [(⟨(f (-1) (0)), .pinf⟩ : Itv), (⟨(f (-5) (0)), .pinf⟩ : Itv)]))),
    .call ((Cmd.run (.op [(⟨(f (-1) (0)), .pinf⟩ : Itv), (⟨(f 1 0), .pinf⟩ : Itv)]))),
    .call ((Cmd.run (.op [(⟨(f (-1) (0)), .pinf⟩ : Itv), (Itv.entire : Itv)]))),
    .call ((Cmd.run (.op [(⟨.ninf, (f 3 0)⟩ : Itv), (⟨(f 0 0), (f 0 0)⟩ : Itv)]))),
    .call ((Cmd.run (.op [(⟨.ninf, (f 3 0)⟩ : Itv), (⟨.nzero, .nzero⟩ : Itv)]))),
    .call ((Cmd.run (.op [(⟨.ninf, (f 3 0)⟩ : Itv), (⟨(f (-5) (0)), (f (-1) (0))⟩ : Itv)]))),
    .call ((Cmd.run (.op [(⟨.ninf, (f 3 0)⟩ : Itv), (⟨(f (-5) (0)), (f 3 0)⟩ : Itv)]))),
    .call ((Cmd.run (.op [(⟨.ninf, (f 3 0)⟩ : Itv), (⟨(f 1 0), (f 3 0)⟩ : Itv)]))),
    .call ((Cmd.run (.op [(⟨.ninf, (f 3 0)⟩ : Itv), (⟨.ninf, (f (-1) (0))⟩ : Itv)]))),
    .call ((Cmd.run (.op [(⟨.ninf, (f 3 0)⟩ : Itv), (⟨.ninf, (f 3 0)⟩ : Itv)]))),
    .call ((Cmd.run (.op [(⟨.ninf, (f 3 0)⟩ : Itv), (⟨(f (-5) (0)), .pinf⟩ : Itv)]))),
    .call ((Cmd.run (.op [(⟨.ninf, (f 3 0)⟩ : Itv), (⟨(f 1 0), .pinf⟩ : Itv)]))),
    .call ((Cmd.run (.op [(⟨.ninf, (f 3 0)⟩ : Itv), (Itv.entire : Itv)]))),
    .call ((Cmd.run (.op [(⟨.ninf, (f (-3) (0))⟩ : Itv), (⟨(f 0 0), (f 0 0)⟩ : Itv)]))),
    .call ((Cmd.run (.op [(⟨.ninf, (f (-3) (0))⟩ : Itv), (⟨.nzero, .nzero⟩ : Itv)]))),
    .call ((Cmd.run (.op [(⟨.ninf, (f (-3) (0))⟩ : Itv), (⟨(f (-5) (0)), (f (-1) (0))⟩ : Itv)]))),
    .call ((Cmd.run (.op [(⟨.ninf, (f (-3) (0))⟩ : Itv), (⟨(f (-5) (0)), (f 3 0)⟩ : Itv)]))),
    .call ((Cmd.run (.op [(⟨.ninf, (f (-3) (0))⟩ : Itv), (⟨(f 1 0), (f 3 0)⟩ : Itv)]))),
    .call ((Cmd.run (.op [(⟨.ninf, (f (-3) (0))⟩ : Itv), (⟨.ninf, (f (-1) (0))⟩ : Itv)]))),
    .call ((Cmd.run (.op [(⟨.ninf, (f (-3) (0))⟩ : Itv), (⟨.ninf, (f 3 0)⟩ : Itv)]))),
    .call ((Cmd.run (.op [(⟨.ninf, (f (-3) (0))⟩ : Itv), (⟨(f (-5) (0)), .pinf⟩ : Itv)]))),
    .call ((Cmd.run (.op [(⟨.ninf, (f (-3) (0))⟩ : Itv), (⟨(f 1 0), .pinf⟩ : Itv)]))),
    .call ((Cmd.run (.op [(⟨.ninf, (f (-3) (0))⟩ : Itv), (Itv.entire : Itv)]))),
    .call ((Cmd.run (.op [(⟨(f 0 0), (f 0 0)⟩ : Itv), (⟨(f 0 0), (f 0 0)⟩ : Itv)]))),
    .call ((Cmd.run (.op [(⟨(f 0 0), (f 0 0)⟩ : Itv), (⟨.nzero, .nzero⟩ : Itv)]))),
    .call ((Cmd.run (.op [(⟨(f 0 0), (f 0 0)⟩ : Itv), (⟨(f (-5) (0)), (f (-1) (0))⟩ : Itv)]))),
    .call ((Cmd.run (.op [(⟨(f 0 0), (f 0 0)⟩ : Itv), (⟨(f (-5) (0)), (f 3 0)⟩ : Itv)]))),
    .call ((Cmd.run (.op [(⟨(f 0 0), (f 0 0)⟩ : Itv), (⟨(f 1 0), (f 3 0)⟩ : Itv)]))),
    .call ((Cmd.run (.op [(⟨(f 0 0), (f 0 0)⟩ : Itv), (⟨.ninf, (f (-1) (0))⟩ : Itv)]))),
    .call ((Cmd.run (.op [(⟨(f 0 0), (f 0 0)⟩ : Itv), (⟨.ninf, (f 3 0)⟩ : Itv)]))),
    .call ((Cmd.run (.op [(⟨(f 0 0), (f 0 0)⟩ : Itv), (⟨(f (-5) (0)), .pinf⟩ : Itv)]))),
    .call ((Cmd.run (.op [(⟨(f 0 0), (f 0 0)⟩ : Itv), (⟨(f 1 0), .pinf⟩ : Itv)]))),
    .call ((Cmd.run (.op [(⟨(f 0 0), (f 0 0)⟩ : Itv), (Itv.entire : Itv)]))),
    .call ((Cmd.run (.op [(⟨.nzero, .nzero⟩ : Itv), (⟨(f 0 0), (f 0 0)⟩ : Itv)]))),
    .call ((Cmd.run (.op [(⟨.nzero, .nzero⟩ : Itv), (⟨.nzero, .nzero⟩ : Itv)]))),
    .call ((Cmd.run (.op [(⟨.nzero, .nzero⟩ : Itv), (⟨(f (-5) (0)), (f (-1) (0))⟩ : Itv)]))),
    .call ((Cmd.run (.op [(⟨.nzero, .nzero⟩ : Itv), (⟨(f (-5) (0)), (f 3 0)⟩ : Itv)]))),
    .call ((Cmd.run (.op [(⟨.nzero, .nzero⟩ : Itv), (⟨(f 1 0), (f 3 0)⟩ : Itv)]))),
    .call ((Cmd.run (.op [(⟨.nzero, .nzero⟩ : Itv), (⟨.ninf, (f (-1) (0))⟩ : Itv)]))),
    .call ((Cmd.run (.op [(⟨.nzero, .nzero⟩ : Itv), (⟨.ninf, (f 3 0)⟩ : Itv)]))),
    .call ((Cmd.run (.op [(⟨.nzero, .nzero⟩ : Itv), (⟨(f (-5) (0)), .pinf⟩ : Itv)]))),
    .call ((Cmd.run (.op [(⟨.nzero, .nzero⟩ : Itv), (⟨(f 1 0), .pinf⟩ : Itv)]))),
    .call ((Cmd.run (.op [(⟨.nzero, .nzero⟩ : Itv), (Itv.entire : Itv)]))),
    .call ((Cmd.run (.op [(⟨(f 1 0), (f 5 0)⟩ : Itv), (⟨(f 0 0), (f 0 0)⟩ : Itv)]))),
    .call ((Cmd.run (.op [(⟨(f 1 0), (f 5 0)⟩ : Itv), (⟨.nzero, .nzero⟩ : Itv)]))),
    .call ((Cmd.run (.op [(⟨(f 1 0), (f 5 0)⟩ : Itv), (⟨(f (-5) (0)), (f (-1) (0))⟩ : Itv)]))),
    .call ((Cmd.run (.op [(⟨(f 1 0), (f 5 0)⟩ : Itv), (⟨(f (-5) (0)), (f 3 0)⟩ : Itv)]))),
    .call ((Cmd.run (.op [(⟨(f 1 0), (f 5 0)⟩ : Itv), (⟨(f 1 0), (f 3 0)⟩ : Itv)]))),
    .call ((Cmd.run (.op [(⟨(f 1 0), (f 5 0)⟩ : Itv), (⟨.ninf, (f (-1) (0))⟩ : Itv)]))),
    .call ((Cmd.run (.op [(⟨(f 1 0), (f 5 0)⟩ : Itv), (⟨.ninf, (f 3 0)⟩ : Itv)]))),
    .call ((Cmd.run (.op [(⟨(f 1 0), (f 5 0)⟩ : Itv), (⟨(f (-5) (0)), .pinf⟩ : Itv)]))),
    .call ((Cmd.run (.op [(⟨(f 1 0), (f 5 0)⟩ : Itv), (⟨(f 1 0), .pinf⟩ : Itv)]))),
    .call ((Cmd.run (.op [(⟨(f 1 0), (f 5 0)⟩ : Itv), (Itv.entire : Itv)]))),
    .call ((Cmd.run (.op [(⟨(f (-1) (0)), (f 5 0)⟩ : Itv), (⟨(f 0 0), (f 0 0)⟩ : Itv)]))),
    .call ((Cmd.run (.op [(⟨(f (-1) (0)), (f 5 0)⟩ : Itv), (⟨.nzero, .nzero⟩ : Itv)]))),
    .call ((Cmd.run (.op [(⟨(f (-1) (0)), (f 5 0)⟩ : Itv), (⟨(f (-5) (0)), (f (-1) (0))⟩ : Itv)]))),
    .call ((Cmd.run (.op [(⟨(f (-1) (0)), (f 5 0)⟩ : Itv), (⟨(f (-5) (0)), (f 3 0)⟩ : Itv)]))),
    .call ((Cmd.run (.op [(⟨(f (-10) (0)), (f 2 0)⟩ : Itv), (⟨(f (-5) (0)), (f 3 0)⟩ : Itv)]))),
    .call ((Cmd.run (.op [(⟨(f (-1) (0)), (f 5 0)⟩ : Itv), (⟨(f (-1) (0)), (f 10 0)⟩ : Itv)]))),
    .call ((Cmd.run (.op [(⟨(f (-2) (0)), (f 2 0)⟩ : Itv), (⟨(f (-5) (0)), (f 3 0)⟩ : Itv)]))),
    .call ((Cmd.run (.op [(⟨(f (-1) (0)), (f 5 0)⟩ : Itv), (⟨(f 1 0), (f 3 0)⟩ : Itv)]))),
    .call ((Cmd.run (.op [(⟨(f (-1) (0)), (f 5 0)⟩ : Itv), (⟨.ninf, (f (-1) (0))⟩ : Itv)]))),
    .call ((Cmd.run (.op [(⟨(f (-1) (0)), (f 5 0)⟩ : Itv), (⟨.ninf, (f 3 0)⟩ : Itv)]))),
    .call ((Cmd.run (.op [(⟨(f (-1) (0)), (f 5 0)⟩ : Itv), (⟨(f (-5) (0)), .pinf⟩ : Itv)]))),
    .call ((Cmd.run (.op [(⟨(f (-1) (0)), (f 5 0)⟩ : Itv), (⟨(f 1 0), .pinf⟩ : Itv)]))),
    .call ((Cmd.run (.op [(⟨(f (-1) (0)), (f 5 0)⟩ : Itv), (Itv.entire : Itv)]))),
    .call ((Cmd.run (.op [(⟨(f (-10) (0)), (f (-5) (0))⟩ : Itv), (⟨(f 0 0), (f 0 0)⟩ : Itv)]))),
    .call ((Cmd.run (.op [(⟨(f (-10) (0)), (f (-5) (0))⟩ : Itv), (⟨.nzero, .nzero⟩ : Itv)]))),
    .call ((Cmd.run (.op [(⟨(f (-10) (0)), (f (-5) (0))⟩ : Itv), (⟨(f (-5) (0)), (f (-1) (0))⟩ : Itv)]))),
    .call ((Cmd.run (.op [(⟨(f (-10) (0)), (f (-5) (0))⟩ : Itv), (⟨(f (-5) (0)), (f 3 0)⟩ : Itv)]))),
    .call ((Cmd.run (.op [(⟨(f (-10) (0)), (f (-5) (0))⟩ : Itv), (⟨(f 1 0), (f 3 0)⟩ : Itv)]))),
    .call ((Cmd.run (.op [(⟨(f (-10) (0)), (f (-5) (0))⟩ : Itv), (⟨.ninf, (f (-1) (0))⟩ : Itv)]))),
    .call ((Cmd.run (.op [(⟨(f (-10) (0)), (f (-5) (0))⟩ : Itv), (⟨.ninf, (f 3 0)⟩ : Itv)]))),
    .call ((Cmd.run (.op [(⟨(f (-10) (0)), (f (-5) (0))⟩ : Itv), (⟨(f (-5) (0)), .pinf⟩ : Itv)]))),
    .call ((Cmd.run (.op [(⟨(f (-10) (0)), (f (-5) (0))⟩ : Itv), (⟨(f 1 0), .pinf⟩ : Itv)]))),
    .call ((Cmd.run (.op [(⟨(f (-10) (0)), (f (-5) (0))⟩ : Itv), (Itv.entire : Itv)]))),
    .call ((Cmd.run (.op [(⟨(f (3602879701896397) (-55)), (f (562949953421311) (-48))⟩ : Itv), (⟨(f (-562949953421311) (-48)), .pinf⟩ : Itv)]))),
    .call ((Cmd.run (.op [(⟨(f (-3602879701896397) (-55)), (f (562949953421311) (-48))⟩ : Itv), (⟨(f (-562949953421311) (-48)), (f (-3602879701896397) (-55))⟩ : Itv)]))),
    .call ((Cmd.run (.op [(⟨(f (-3602879701896397) (-55)), (f (3602879701896397) (-55))⟩ : Itv), (⟨(f (-562949953421311) (-48)), (f (3602879701896397) (-55))⟩ : Itv)]))),
    .call ((Cmd.run (.op [(⟨(f (-562949953421311) (-48)), (f (-3602879701896397) (-55))⟩ : Itv), (⟨(f (3602879701896397) (-55)), (f (562949953421311) (-48))⟩ : Itv)]))),
    .state 603 [],
    .call clearFlags,
    .call (do (Cmd.run (.op [(⟨(f 1 0), (f (-9007199254740991) (971))⟩ : Itv), (⟨(f 3 0), (f 4 0)⟩ : Itv)])); (Cmd.run (.op [(Fmt.mulI binary64 (⟨(f 1 0), (f (-9007199254740991) (971))⟩ : Itv) (⟨(f 3 0), (f 4 0)⟩ : Itv) : Itv)]))),
    .state 607 [.invalidOperand],
    .call clearFlags,
    .call (setCwd (bitsOf [.invalidOperand])),
    .throws 610 ((Cmd.run (.op [(⟨(f 1 0), (f 9007199254740991 971)⟩ : Itv), (⟨(f 3 0), (f (-4) (0))⟩ : Itv)]))) .invalidOperand,
    .state 611 [.invalidOperand],
    .call clearFlags,
    .call (setCwd (bitsOf []))] ExSt.init = [] := by
  decide +kernel

/-- `minimal_mul_mixedtype_test` -/
example : failed [
    .call ((Cmd.run (.op [(⟨(f (3602879701896397) (-55)), (f (562949953421311) (-48))⟩ : Itv), (⟨(f (-562949953421311) (-48)), .pinf⟩ : Itv)]))),
    .call ((Cmd.run (.op [(⟨(f (3602879701896397) (-55)), (f (562949953421311) (-48))⟩ : Itv), (⟨(f (-562949953421311) (-48)), (f (-3602879701896397) (-55))⟩ : Itv)]))),
    .call ((Cmd.run (.op [(⟨(f (13421773) (-27)), (f 2 0)⟩ : Itv), (⟨(f (-2) (0)), (f (-13421773) (-27))⟩ : Itv)]))),
    .state 622 [],
    .call clearFlags,
    .call (do (Cmd.run (.op [(⟨(f 1 0), (f (-9007199254740991) (971))⟩ : Itv), (⟨(f 3 0), (f 4 0)⟩ : Itv)])); (Cmd.run (.op [(if !(⟨(f 1 0), (f (-9007199254740991) (971))⟩ : Itv).isValid || !(⟨(f 3 0), (f 4 0)⟩ : Itv).isValid then Itv.empty else Fmt.convertHull binary32 (Fmt.mulI binary64 (Fmt.convertHull binary64 (⟨(f 1 0), (f (-9007199254740991) (971))⟩ : Itv)) (Fmt.convertHull binary64 (⟨(f 3 0), (f 4 0)⟩ : Itv))) : Itv)]))),
    .state 626 [.invalidOperand],
    .call clearFlags,
    .call (setCwd (bitsOf [.invalidOperand])),
    .throws 629 ((Cmd.run (.op [(⟨(f 1 0), (f 16777215 104)⟩ : Itv), (⟨(f 3 0), (f (-4) (0))⟩ : Itv)]))) .invalidOperand,
    .state 630 [.invalidOperand],
    .call clearFlags,
    .call (setCwd (bitsOf []))] ExSt.init = [] := by
  decide +kernel

/-- `minimal_mul_dec_test` -/
example : failed [
    .call ((Cmd.run (.opD [(⟨⟨(f 1 0), (f 2 0)⟩, .com⟩ : DItv), (⟨⟨(f 5 0), (f 7 0)⟩, .com⟩ : DItv)]))),
    .call ((Cmd.run (.opD [(⟨⟨(f 1 0), (f 2 0)⟩, .com⟩ : DItv), (⟨⟨(f 5 0), (f 7 0)⟩, .defd⟩ : DItv)]))),
    .call ((Cmd.run (.opD [(⟨⟨(f 1 0), (f 2 0)⟩, .com⟩ : DItv), (⟨⟨(f 5 0), (f 9007199254740991 971)⟩, .com⟩ : DItv)]))),
    .call ((Cmd.run (.opD [(⟨⟨(f (-9007199254740991) (971)), (f 2 0)⟩, .com⟩ : DItv), (⟨⟨(f (-1) (0)), (f 5 0)⟩, .com⟩ : DItv)]))),
    .call (do (Cmd.run (.opD [(⟨⟨(f 1 0), (f 2 0)⟩, .trv⟩ : DItv), (DItv.empty : DItv)])); (Cmd.run (.opD [(Fmt.mulD binary64 (⟨⟨(f 1 0), (f 2 0)⟩, .trv⟩ : DItv) (DItv.empty : DItv) : DItv)]))),
    .call (do (Cmd.run (.opD [(DItv.nai : DItv), (⟨⟨(f 1 0), (f 2 0)⟩, .trv⟩ : DItv)])); (Cmd.run (.opD [(Fmt.mulD binary64 (DItv.nai : DItv) (⟨⟨(f 1 0), (f 2 0)⟩, .trv⟩ : DItv) : DItv)]))),
    .state 644 [],
    .call clearFlags,
    .call (do (Cmd.run (.opD [(⟨⟨(f 1 0), (f (-2) (0))⟩, .com⟩ : DItv), (⟨⟨(f 5 0), (f 7 0)⟩, .com⟩ : DItv)])); (Cmd.run (.opD [(Fmt.mulD binary64 (⟨⟨(f 1 0), (f (-2) (0))⟩, .com⟩ : DItv) (⟨⟨(f 5 0), (f 7 0)⟩, .com⟩ : DItv) : DItv)]))),
    .state 648 [.invalidOperand],
    .call clearFlags,
    .call (setCwd (bitsOf [.invalidOperand])),
    .throws 651 ((Cmd.run (.opD [(⟨⟨(f 1 0), .pinf⟩, .com⟩ : DItv), (⟨⟨(f 5 0), (f 7 0)⟩, .com⟩ : DItv)]))) .invalidOperand,
    .state 652 [.invalidOperand],
    .call clearFlags,
    .call (setCwd (bitsOf []))] ExSt.init = [] := by
  decide +kernel

/-- `minimal_mul_dec_mixedtype_test` -/
example : failed [
    .call ((Cmd.run (.opD [(⟨⟨(f (3602879701896397) (-55)), (f (562949953421311) (-48))⟩, .com⟩ : DItv), (⟨⟨(f (-562949953421311) (-48)), (f (-3602879701896397) (-55))⟩, .com⟩ : DItv)]))),
    .call ((Cmd.run (.opD [(⟨⟨(f (13421773) (-27)), (f 2 0)⟩, .defd⟩ : DItv), (⟨⟨(f (-2) (0)), (f (-13421773) (-27))⟩, .com⟩ : DItv)]))),
    .state 662 [],
    .call clearFlags,
    .call (do (Cmd.run (.opD [(⟨⟨(f 1 0), (f (-2) (0))⟩, .com⟩ : DItv), (⟨⟨(f 5 0), (f 7 0)⟩, .com⟩ : DItv)])); (Cmd.run (.opD [(if !(⟨⟨(f 1 0), (f (-2) (0))⟩, .com⟩ : DItv).isValid || (⟨⟨(f 1 0), (f (-2) (0))⟩, .com⟩ : DItv).isNai || !(⟨⟨(f 5 0), (f 7 0)⟩, .com⟩ : DItv).isValid || (⟨⟨(f 5 0), (f 7 0)⟩, .com⟩ : DItv).isNai then DItv.nai else Fmt.convertHullD binary64 (Fmt.mulD binary64 (Fmt.convertHullD binary64 (⟨⟨(f 1 0), (f (-2) (0))⟩, .com⟩ : DItv)) (Fmt.convertHullD binary64 (⟨⟨(f 5 0), (f 7 0)⟩, .com⟩ : DItv))) : DItv)]))),
    .state 666 [.invalidOperand],
    .call clearFlags,
    .call (setCwd (bitsOf [.invalidOperand])),
    .throws 669 ((Cmd.run (.opD [(⟨⟨(f 1 0), .pinf⟩, .com⟩ : DItv), (⟨⟨(f 5 0), (f 7 0)⟩, .com⟩ : DItv)]))) .invalidOperand,
    .state 670 [.invalidOperand],
    .call clearFlags,
    .call (setCwd (bitsOf []))] ExSt.init = [] := by
  decide +kernel

/-- `minimal_div_test` -/
example : failed [
    .call (do (Cmd.run (.op [(Itv.empty : Itv), (Itv.empty : Itv)])); (Cmd.run (.op [(Fmt.divI binary64 (Itv.empty : Itv) (Itv.empty : Itv) : Itv)]))),
    .call (do (Cmd.run (.op [(⟨(f (-1) (0)), (f 1 0)⟩ : Itv), (Itv.empty : Itv)])); (Cmd.run (.op [(Fmt.divI binary64 (⟨(f (-1) (0)), (f 1 0)⟩ : Itv) (Itv.empty : Itv) : Itv)]))),
    .call (do (Cmd.run (.op [(Itv.empty : Itv), (⟨(f (-1) (0)), (f 1 0)⟩ : Itv)])); (Cmd.run (.op [(Fmt.divI binary64 (Itv.empty : Itv) (⟨(f (-1) (0)), (f 1 0)⟩ : Itv) : Itv)]))),
    .call (do (Cmd.run (.op [(Itv.empty : Itv), (⟨(f (3602879701896397) (-55)), (f 1 0)⟩ : Itv)])); (Cmd.run (.op [(Fmt.divI binary64 (Itv.empty : Itv) (⟨(f (3602879701896397) (-55)), (f 1 0)⟩ : Itv) : Itv)]))),
    .call (do (Cmd.run (.op [(Itv.empty : Itv), (⟨(f (-1) (0)), (f (-3602879701896397) (-55))⟩ : Itv)])); (Cmd.run (.op [(Fmt.divI binary64 (Itv.empty : Itv) (⟨(f (-1) (0)), (f (-3602879701896397) (-55))⟩ : Itv) : Itv)]))),
    .call (do (Cmd.run (.op [(Itv.empty : Itv), (Itv.entire : Itv)])); (Cmd.run (.op [(Fmt.divI binary64 (Itv.empty : Itv) (Itv.entire : Itv) : Itv)]))),
    .call (do (Cmd.run (.op [(Itv.entire : Itv), (Itv.empty : Itv)])); (Cmd.run (.op [(Fmt.divI binary64 (Itv.entire : Itv) (Itv.empty : Itv) : Itv)]))),
    .call (do (Cmd.run (.op [(⟨(f 0 0), (f 0 0)⟩ : Itv), (Itv.empty : Itv)])); (Cmd.run (.op [(Fmt.divI binary64 (⟨(f 0 0), (f 0 0)⟩ : Itv) (Itv.empty : Itv) : Itv)]))),
    .call (do (Cmd.run (.op [(Itv.empty : Itv), (⟨(f 0 0), (f 0 0)⟩ : Itv)])); (Cmd.run (.op [(Fmt.divI binary64 (Itv.empty : Itv) (⟨(f 0 0), (f 0 0)⟩ : Itv) : Itv)]))),
    .call (do (Cmd.run (.op [(⟨.nzero, .nzero⟩ : Itv), (Itv.empty : Itv)])); (Cmd.run (.op [(Fmt.divI binary64 (⟨.nzero, .nzero⟩ : Itv) (Itv.empty : Itv) : Itv)]))),
    .call (do (Cmd.run (.op [(Itv.empty : Itv), (⟨.nzero, .nzero⟩ : Itv)])); (Cmd.run (.op [(Fmt.divI binary64 (Itv.empty : Itv) (⟨.nzero, .nzero⟩ : Itv) : Itv)]))),
    .call ((Cmd.run (.op [(Itv.entire : Itv), (⟨(f (-5) (0)), (f (-3) (0))⟩ : Itv)]))),
    .call ((Cmd.run (.op [(Itv.entire : Itv), (⟨(f 3 0), (f 5 0)⟩ : Itv)]))),
    .call ((Cmd.run (.op [(Itv.entire : Itv), (⟨.ninf, (f (-3) (0))⟩ : Itv)]))),
    .call ((Cmd.run (.op [(Itv.entire : Itv), (⟨(f 3 0), .pinf⟩ : Itv)]))),
    .call (do (Cmd.run (.op [(Itv.entire : Itv), (⟨(f 0 0), (f 0 0)⟩ : Itv)])); (Cmd.run (.op [(Fmt.divI binary64 (Itv.entire : Itv) (⟨(f 0 0), (f 0 0)⟩ : Itv) : Itv)]))),
    .call (do (Cmd.run (.op [(Itv.entire : Itv), (⟨.nzero, .nzero⟩ : Itv)])); (Cmd.run (.op [(Fmt.divI binary64 (Itv.entire : Itv) (⟨.nzero, .nzero⟩ : Itv) : Itv)]))),
    .call ((Cmd.run (.op [(Itv.entire : Itv), (⟨(f (-3) (0)), (f 0 0)⟩ : Itv)]))),
    .call ((Cmd.run (.op [(Itv.entire : Itv), (⟨(f (-3) (0)), .nzero⟩ : Itv)]))),
    .call ((Cmd.run (.op [(Itv.entire : Itv), (⟨(f (-3) (0)), (f 3 0)⟩ : Itv)]))),
    .call ((Cmd.run (.op [(Itv.entire : Itv), (⟨(f 0 0), (f 3 0)⟩ : Itv)]))),
    .call ((Cmd.run (.op [(Itv.entire : Itv), (⟨.ninf, (f 0 0)⟩ : Itv)]))),
    .call ((Cmd.run (.op [(Itv.entire : Itv), (⟨.nzero, (f 3 0)⟩ : Itv)]))),
    .call ((Cmd.run (.op [(Itv.entire : Itv), (⟨.ninf, .nzero⟩ : Itv)]))),
    .call ((Cmd.run (.op [(Itv.entire : Itv), (⟨.ninf, (f 3 0)⟩ : Itv)]))),
    .call ((Cmd.run (.op [(Itv.entire : Itv), (⟨(f (-3) (0)), .pinf⟩ : Itv)]))),
    .call ((Cmd.run (.op [(Itv.entire : Itv), (⟨(f 0 0), .pinf⟩ : Itv)]))),
    .call ((Cmd.run (.op [(Itv.entire : Itv), (⟨.nzero, .pinf⟩ : Itv)]))),
    .call ((Cmd.run (.op [(Itv.entire : Itv), (Itv.entire : Itv)]))),
    .call ((Cmd.run (.op [(⟨(f (-30) (0)), (f (-15) (0))⟩ : Itv), (⟨(f (-5) (0)), (f (-3) (0))⟩ : Itv)]))),
    .call ((Cmd.run (.op [(⟨(f (-30) (0)), (f (-15) (0))⟩ : Itv), (⟨(f 3 0), (f 5 0)⟩ : Itv)]))),
    .call ((Cmd.run (.op [(⟨(f (-30) (0)), (f (-15) (0))⟩ : Itv), (⟨.ninf, (f (-3) (0))⟩ : Itv)]))),
    .call ((Cmd.run (.op [(⟨(f (-30) (0)), (f (-15) (0))⟩ : Itv), (⟨(f 3 0), .pinf⟩ : Itv)]))),
    .call (do (Cmd.run (.op [(⟨(f (-30) (0)), (f (-15) (0))⟩ : Itv), (⟨(f 0 0), (f 0 0)⟩ : Itv)])); (Cmd.run (.op [(Fmt.divI binary64 (⟨(f (-30) (0)), (f (-15) (0))⟩ : Itv) (⟨(f 0 0), (f 0 0)⟩ : Itv) : Itv)]))),
    .call ((Cmd.run (.op [(⟨(f (-30) (0)), (f (-15) (0))⟩ : Itv), (⟨(f (-3) (0)), (f 0 0)⟩ : Itv)]))),
    .call (do (Cmd.run (.op [(⟨(f (-30) (0)), (f (-15) (0))⟩ : Itv), (⟨.nzero, .nzero⟩ : Itv)])); (Cmd.run (.op [(Fmt.divI binary64 (⟨(f (-30) (0)), (f (-15) (0))⟩ : Itv) (⟨.nzero, .nzero⟩ : Itv) : Itv)]))),
    .call ((Cmd.run (.op [(⟨(f (-30) (0)), (f (-15) (0))⟩ : Itv), (⟨(f (-3) (0)), .nzero⟩ : Itv)]))),
    .call ((Cmd.run (.op [(⟨(f (-30) (0)), (f (-15) (0))⟩ : Itv), (⟨(f (-3) (0)), (f 3 0)⟩ : Itv)]))),
    .call ((Cmd.run (.op [(⟨(f (-30) (0)), (f (-15) (0))⟩ : Itv), (⟨(f 0 0), (f 3 0)⟩ : Itv)]))),
    .call ((Cmd.run (.op [(⟨(f (-30) (0)), (f (-15) (0))⟩ : Itv), (⟨.ninf, (f 0 0)⟩ : Itv)]))),
    .call ((Cmd.run (.op [(⟨(f (-30) (0)), (f (-15) (0))⟩ : Itv), (⟨.nzero, (f 3 0)⟩ : Itv)]))),
    .call ((Cmd.run (.op [(⟨(f (-30) (0)), (f (-15) (0))⟩ : Itv), (⟨.ninf, .nzero⟩ : Itv)]))),
    .call ((Cmd.run (.op [(⟨(f (-30) (0)), (f (-15) (0))⟩ : Itv), (⟨.ninf, (f 3 0)⟩ : Itv)]))),
    .call ((Cmd.run (.op [(⟨(f (-30) (0)), (f (-15) (0))⟩ : Itv), (⟨(f (-3) (0)), .pinf⟩ : Itv)]))),
    .call ((Cmd.run (.op [(⟨(f (-30) (0)), (f (-15) (0))⟩ : Itv), (⟨(f 0 0), .pinf⟩ : Itv)]))),
    .call ((Cmd.run (.op [(⟨(f (-30) (0)), (f (-15) (0))⟩ : Itv), (⟨.nzero, .pinf⟩ : Itv)]))),
    .call ((Cmd.run (.op [(⟨(f (-30) (0)), (f (-15) (0))⟩ : Itv), (Itv.entire : Itv)]))),
    .call ((Cmd.run (.op [(⟨(f (-30) (0)), (f 15 0)⟩ : Itv), (⟨(f (-5) (0)), (f (-3) (0))⟩ : Itv)]))),
    .call ((Cmd.run (.op [(⟨(f (-30) (0)), (f 15 0)⟩ : Itv), (⟨(f 3 0), (f 5 0)⟩ : Itv)]))),
    .call ((Cmd.run (.op [(⟨(f (-30) (0)), (f 15 0)⟩ : Itv), (⟨.ninf, (f (-3) (0))⟩ : Itv)]))),
    .call ((Cmd.run (.op [(⟨(f (-30) (0)), (f 15 0)⟩ : Itv), (⟨(f 3 0), .pinf⟩ : Itv)]))),
    .call (do (Cmd.run (.op [(⟨(f (-30) (0)), (f 15 0)⟩ : Itv), (⟨(f 0 0), (f 0 0)⟩ : Itv)])); (Cmd.run (.op [(Fmt.divI binary64 (⟨(f (-30) (0)), (f 15 0)⟩ : Itv) (⟨(f 0 0), (f 0 0)⟩ : Itv) : Itv)]))),
    .call (do (Cmd.run (.op [(⟨(f (-30) (0)), (f 15 0)⟩ : Itv), (⟨.nzero, .nzero⟩ : Itv)])); (Cmd.run (.op [(Fmt.divI binary64 (⟨(f (-30) (0)), (f 15 0)⟩ : Itv) (⟨.nzero, .nzero⟩ : Itv) : Itv)]))),
    .call ((Cmd.run (.op [(⟨(f (-30) (0)), (f 15 0)⟩ : Itv), (⟨(f (-3) (0)), (f 0 0)⟩ : Itv)]))),
    .call ((Cmd.run (.op [(⟨(f (-30) (0)), (f 15 0)⟩ : Itv), (⟨(f (-3) (0)), .nzero⟩ : Itv)]))),
    .call ((Cmd.run (.op [(⟨(f (-30) (0)), (f 15 0)⟩ : Itv), (⟨(f (-3) (0)), (f 3 0)⟩ : Itv)]))),
    .call ((Cmd.run (.op [(⟨(f (-30) (0)), (f 15 0)⟩ : Itv), (⟨(f 0 0), (f 3 0)⟩ : Itv)]))),
    .call ((Cmd.run (.op [(⟨(f (-30) (0)), (f 15 0)⟩ : Itv), (⟨.ninf, (f 0 0)⟩ : Itv)]))),
    .call ((Cmd.run (.op [(⟨(f (-30) (0)), (f 15 0)⟩ : Itv), (⟨.nzero, (f 3 0)⟩ : Itv)]))),
    .call ((Cmd.run (.op [(⟨(f (-30) (0)), (f 15 0)⟩ : Itv), (⟨.ninf, .nzero⟩ : Itv)]))),
    .call ((Cmd.run (.op [(⟨(f (-30) (0)), (f 15 0)⟩ : Itv), (⟨.ninf, (f 3 0)⟩ : Itv)]))),
    .call ((Cmd.run (.op [(⟨(f (-30) (0)), (f 15 0)⟩ : Itv), (⟨(f (-3) (0)), .pinf⟩ : Itv)]))),
    .call ((Cmd.run (.op [(⟨(f (-30) (0)), (f 15 0)⟩ : Itv), (⟨(f 0 0), .pinf⟩ : Itv)]))),
    .call ((Cmd.run (.op [(⟨(f (-30) (0)), (f 15 0)⟩ : Itv), (⟨.nzero, .pinf⟩ : Itv)]))),
    .call ((Cmd.run (.op [(⟨(f (-30) (0)), (f 15 0)⟩ : Itv), (Itv.entire : Itv)]))),
    .call ((Cmd.run (.op [(⟨(f 15 0), (f 30 0)⟩ : Itv), (⟨(f (-5) (0)), (f (-3) (0))⟩ : Itv)]))),
    .call ((Cmd.run (.op [(⟨(f 15 0), (f 30 0)⟩ : Itv), (⟨(f 3 0), (f 5 0)⟩ : Itv)]))),
    .call ((Cmd.run (.op [(⟨(f 15 0), (f 30 0)⟩ : Itv), (⟨.ninf, (f (-3) (0))⟩ : Itv)]))),
    .call ((Cmd.run (.op [(⟨(f 15 0), (f 30 0)⟩ : Itv), (⟨(f 3 0), .pinf⟩ : Itv)]))),
    .call (do (Cmd.run (.op [(⟨(f 15 0), (f 30 0)⟩ : Itv), (⟨(f 0 0), (f 0 0)⟩ : Itv)])); (Cmd.run (.op [(Fmt.divI binary64 (⟨(f 15 0), (f 30 0)⟩ : Itv) (⟨(f 0 0), (f 0 0)⟩ : Itv) : Itv)]))),
    .call ((Cmd.run (.op [(⟨(f 15 0), (f 30 0)⟩ : Itv), (⟨(f (-3) (0)), (f 0 0)⟩ : Itv)]))),
    .call (do (Cmd.run (.op [(⟨(f 15 0), (f 30 0)⟩ : Itv), (⟨.nzero, .nzero⟩ : Itv)])); (Cmd.run (.op [(Fmt.divI binary64 (⟨(f 15 0), (f 30 0)⟩ : Itv) (⟨.nzero, .nzero⟩ : Itv) : Itv)]))),
    .call ((Cmd.run (.op [(⟨(f 15 0), (f 30 0)⟩ : Itv), (⟨(f (-3) (0)), .nzero⟩ : Itv)]))),
    .call ((Cmd.run (.op [(⟨(f 15 0), (f 30 0)⟩ : Itv), (⟨(f (-3) (0)), (f 3 0)⟩ : Itv)]))),
    .call ((Cmd.run (.op [(⟨(f 15 0), (f 30 0)⟩ : Itv), (⟨(f 0 0), (f 3 0)⟩ : Itv)]))),
    .call ((Cmd.run (.op [(⟨(f 15 0), (f 30 0)⟩ : Itv), (⟨.ninf, (f 0 0)⟩ : Itv)]))),
    .call ((Cmd.run (.op [(⟨(f 15 0), (f 30 0)⟩ : Itv), (⟨.nzero, (f 3 0)⟩ : Itv)]))),
    .call ((Cmd.run (.op [(⟨(f 15 0), (f 30 0)⟩ : Itv), (⟨.ninf, .nzero⟩ : Itv)]))),
    .call ((Cmd.run (.op [(⟨(f 15 0), (f 30 0)⟩ : Itv), (⟨.ninf, (f 3 0)⟩ : Itv)]))),
    .call ((Cmd.run (.op [(⟨(f 15 0), (f 30 0)⟩ : Itv), (⟨(f (-3) (0)), .pinf⟩ : Itv)]))),
    .call ((Cmd.run (.op [(⟨(f 15 0), (f 30 0)⟩ : Itv), (⟨(f 0 0), .pinf⟩ : Itv)]))),
    .call ((Cmd.run (.op [(⟨(f 15 0), (f 30 0)⟩ : Itv), (⟨.nzero, .pinf⟩ : Itv)]))),
    .call ((Cmd.run (.op [(⟨(f 15 0), (f 30 0)⟩ : Itv), (Itv.entire : Itv)]))),
    .call ((Cmd.run (.op [(⟨(f 0 0), (f 0 0)⟩ : Itv), (⟨(f (-5) (0)), (f (-3) (0))⟩ : Itv)]))),
    .call ((Cmd.run (.op [(⟨(f 0 0), (f 0 0)⟩ : Itv), (⟨(f 3 0), (f 5 0)⟩ : Itv)]))),
    .call ((Cmd.run (.op [(⟨(f 0 0), (f 0 0)⟩ : Itv), (⟨.ninf, (f (-3) (0))⟩ : Itv)]))),
    .call ((Cmd.run (.op [(⟨(f 0 0), (f 0 0)⟩ : Itv), (⟨(f 3 0), .pinf⟩ : Itv)]))),
    .call (do (Cmd.run (.op [(⟨(f 0 0), (f 0 0)⟩ : Itv), (⟨(f 0 0), (f 0 0)⟩ : Itv)])); (Cmd.run (.op [(Fmt.divI binary64 (⟨(f 0 0), (f 0 0)⟩ : Itv) (⟨(f 0 0), (f 0 0)⟩ : Itv) : Itv)]))),
    .call ((Cmd.run (.op [(⟨(f 0 0), (f 0 0)⟩ : Itv), (⟨(f (-3) (0)), (f 0 0)⟩ : Itv)]))),
    .call (do (Cmd.run (.op [(⟨(f 0 0), (f 0 0)⟩ : Itv), (⟨.nzero, .nzero⟩ : Itv)])); (Cmd.run (.op [(Fmt.divI binary64 (⟨(f 0 0), (f 0 0)⟩ : Itv) (⟨.nzero, .nzero⟩ : Itv) : Itv)]))),
    .call ((Cmd.run (.op [(⟨(f 0 0), (f 0 0)⟩ : Itv), (⟨(f (-3) (0)), .nzero⟩ : Itv)]))),
    .call ((Cmd.run (.op [(⟨(f 0 0), (f 0 0)⟩ : Itv), (⟨(f (-3) (0)), (f 3 0)⟩ : Itv)]))),
    .call ((Cmd.run (.op [(⟨(f 0 0), (f 0 0)⟩ : Itv), (⟨(f 0 0), (f 3 0)⟩ : Itv)]))),
    .call ((Cmd.run (.op [(⟨(f 0 0), (f 0 0)⟩ : Itv), (⟨.ninf, (f 0 0)⟩ : Itv)]))),
    .call ((Cmd.run (.op [(⟨(f 0 0), (f 0 0)⟩ : Itv), (⟨.nzero, (f 3 0)⟩ : Itv)]))),
    .call ((Cmd.run (.op [(⟨(f 0 0), (f 0 0)⟩ : Itv), (⟨.ninf, .nzero⟩ : Itv)]))),
    .call ((Cmd.run (.op [(⟨(f 0 0), (f 0 0)⟩ : Itv), (⟨.ninf, (f 3 0)⟩ : Itv)]))),
    .call ((Cmd.run (.op [(⟨(f 0 0), (f 0 0)⟩ : Itv), (⟨(f (-3) (0)), .pinf⟩ : Itv)]))),
    .call ((Cmd.run (.op [(⟨(f 0 0), (f 0 0)⟩ : Itv), (⟨(f 0 0), .pinf⟩ : Itv)]))),
    .call ((Cmd.run (.op [(⟨(f 0 0), (f 0 0)⟩ : Itv), (⟨.nzero, .pinf⟩ : Itv)]))),
    .call ((Cmd.run (.op [(⟨(f 0 0), (f 0 0)⟩ : Itv), (Itv.entire : Itv)]))),
    .call ((Cmd.run (.op [(⟨.nzero, .nzero⟩ : Itv), (⟨(f (-5) (0)), (f (-3) (0))⟩ : Itv)]))),
    .call ((Cmd.run (.op [(⟨.nzero, .nzero⟩ : Itv), (⟨(f 3 0), (f 5 0)⟩ : Itv)]))),
    .call ((Cmd.run (.op [(⟨.nzero, .nzero⟩ : Itv), (⟨.ninf, (f (-3) (0))⟩ : Itv)]))),
    .call ((Cmd.run (.op [(⟨.nzero, .nzero⟩ : Itv), (⟨(f 3 0), .pinf⟩ : Itv)]))),
    .call (do (Cmd.run (.op [(⟨.nzero, .nzero⟩ : Itv), (⟨(f 0 0), (f 0 0)⟩ : Itv)])); (Cmd.run (.op [(Fmt.divI binary64 (⟨.nzero, .nzero⟩ : Itv) (⟨(f 0 0), (f 0 0)⟩ : Itv) : Itv)]))),
    .call ((Cmd.run (.op [(⟨.nzero, .nzero⟩ : Itv), (⟨(f (-3) (0)), (f 0 0)⟩ : Itv)]))),
    .call (do (Cmd.run (.op [(⟨.nzero, .nzero⟩ : Itv), (⟨.nzero, .nzero⟩ : Itv)])); (Cmd.run (.op [(Fmt.divI binary64 (⟨.nzero, .nzero⟩ : Itv) (⟨.nzero, .nzero⟩ : Itv) : Itv)]))),
    .call ((Cmd.run (.op [(⟨.nzero, .nzero⟩ : Itv), (⟨(f (-3) (0)), .nzero⟩ : Itv)]))),
    .call ((Cmd.run (.op [(⟨.nzero, .nzero⟩ : Itv), (⟨(f (-3) (0)), (f 3 0)⟩ : Itv)]))),
    .call ((Cmd.run (.op [(⟨.nzero, .nzero⟩ : Itv), (⟨(f 0 0), (f 3 0)⟩ : Itv)]))),
    .call ((Cmd.run (.op [(⟨.nzero, .nzero⟩ : Itv), (⟨.ninf, (f 0 0)⟩ : Itv)]))),
    .call ((Cmd.run (.op [(⟨.nzero, .nzero⟩ : Itv), (⟨.nzero, (f 3 0)⟩ : Itv)]))),
    .call ((Cmd.run (.op [(⟨.nzero, .nzero⟩ : Itv), (⟨.ninf, .nzero⟩ : Itv)]))),
    .call ((Cmd.run (.op [(⟨.nzero, .nzero⟩ : Itv), (⟨.ninf, (f 3 0)⟩ : Itv)]))),
    .call ((Cmd.run (.op [(⟨.nzero, .nzero⟩ : Itv), (⟨(f (-3) (0)), .pinf⟩ : Itv)]))),
    .call ((Cmd.run (.op [(⟨.nzero, .nzero⟩ : Itv), (⟨(f 0 0), .pinf⟩ : Itv)]))),
    .call ((Cmd.run (.op [(⟨.nzero, .nzero⟩ : Itv), (⟨.nzero, .pinf⟩ : Itv)]))),
    .call ((Cmd.run (.op [(⟨.nzero, .nzero⟩ : Itv), (Itv.entire : Itv)]))),
    .call ((Cmd.run (.op [(⟨.ninf, (f (-15) (0))⟩ : Itv), (⟨(f (-5) (0)), (f (-3) (0))⟩ : Itv)]))),
    .call ((Cmd.run (.op [(⟨.ninf, (f (-15) (0))⟩ : Itv), (⟨(f 3 0), (f 5 0)⟩ : Itv)]))),
    .call ((Cmd.run (.op [(⟨.ninf, (f (-15) (0))⟩ : Itv), (⟨.ninf, (f (-3) (0))⟩ : Itv)]))),
    .call ((Cmd.run (.op [(⟨.ninf, (f (-15) (0))⟩ : Itv), (⟨(f 3 0), .pinf⟩ : Itv)]))),
    .call (do (Cmd.run (.op [(⟨.ninf, (f (-15) (0))⟩ : Itv), (⟨(f 0 0), (f 0 0)⟩ : Itv)])); (Cmd.run (.op [(Fmt.divI binary64 (⟨.ninf, (f (-15) (0))⟩ : Itv) (⟨(f 0 0), (f 0 0)⟩ : Itv) : Itv)]))),
    .call ((Cmd.run (.op [(⟨.ninf, (f (-15) (0))⟩ : Itv), (⟨(f (-3) (0)), (f 0 0)⟩ : Itv)]))),
    .call (do (Cmd.run (.op [(⟨.ninf, (f (-15) (0))⟩ : Itv), (⟨.nzero, .nzero⟩ : Itv)])); (Cmd.run (.op [(Fmt.divI binary64 (⟨.ninf, (f (-15) (0))⟩ : Itv) (⟨.nzero, .nzero⟩ : Itv) : Itv)]))),
    .call ((Cmd.run (.op [(⟨.ninf, (f (-15) (0))⟩ : Itv), (⟨(f (-3) (0)), .nzero⟩ : Itv)]))),
    .call ((Cmd.run (.op [(⟨.ninf, (f (-15) (0))⟩ : Itv), (⟨(f (-3) (0)), (f 3 0)⟩ : Itv)]))),
    .call ((Cmd.run (.op [(⟨.ninf, (f (-15) (0))⟩ : Itv), (⟨(f 0 0), (f 3 0)⟩ : Itv)]))),
    .call ((Cmd.run (.op [(⟨.ninf, (f (-15) (0))⟩ : Itv), (⟨.ninf, (f 0 0)⟩ : Itv)]))),
    .call ((Cmd.run (.op [(⟨.ninf, (f (-15) (0))⟩ : Itv), (⟨.nzero, (f 3 0)⟩ : Itv)]))),
    .call ((Cmd.run (.op [(⟨.ninf, (f (-15) (0))⟩ : Itv), (⟨.ninf, .nzero⟩ : Itv)]))),
    .call ((Cmd.run (.op [(⟨.ninf, (f (-15) (0))⟩ : Itv), (⟨.ninf, (f 3 0)⟩ : Itv)]))),
    .call ((Cmd.run (.op [(⟨.ninf, (f (-15) (0))⟩ : Itv), (⟨(f (-3) (0)), .pinf⟩ : Itv)]))),
    .call ((Cmd.run (.op [(⟨.ninf, (f (-15) (0))⟩ : Itv), (⟨(f 0 0), .pinf⟩ : Itv)]))),
    .call ((Cmd.run (.op [(⟨.ninf, (f (-15) (0))⟩ : Itv), (⟨.nzero, .pinf⟩ : Itv)]))),
    .call ((Cmd.run (.op [(⟨.ninf, (f (-15) (0))⟩ : Itv), (Itv.entire : Itv)]))),
    .call ((Cmd.run (.op [(⟨.ninf, (f 15 0)⟩ : Itv), (⟨(f (-5) (0)), (f (-3) (0))⟩ : Itv)]))),
    .call ((Cmd.run (.op [(⟨.ninf, (f 15 0)⟩ : Itv), (⟨(f 3 0), (f 5 0)⟩ : Itv)]))),
    .call ((Cmd.run (.op [(⟨.ninf, (f 15 0)⟩ : Itv), (⟨.ninf, (f (-3) (0))⟩ : Itv)]))),
    .call ((Cmd.run (.op [(⟨.ninf, (f 15 0)⟩ : Itv), (⟨(f 3 0), .pinf⟩ : Itv)]))),
    .call (do (Cmd.run (.op [(⟨.ninf, (f 15 0)⟩ : Itv), (⟨(f 0 0), (f 0 0)⟩ : Itv)])); (Cmd.run (.op [(Fmt.divI binary64 (⟨.ninf, (f 15 0)⟩ : Itv) (⟨(f 0 0), (f 0 0)⟩ : Itv) : Itv)]))),
    .call ((Cmd.run (.op [(⟨.ninf, (f 15 0)⟩ : Itv), (⟨(f (-3) (0)), (f 0 0)⟩ : Itv)]))),
    .call (do (Cmd.run (.op [(⟨.ninf, (f 15 0)⟩ : Itv), (⟨.nzero, .nzero⟩ : Itv)])); (Cmd.run (.op [(Fmt.divI binary64 (⟨.ninf, (f 15 0)⟩ : Itv) (⟨.nzero, .nzero⟩ : Itv) : Itv)]))),
    .call ((Cmd.run (.op [(⟨.ninf, (f 15 0)⟩ : Itv), (⟨(f (-3) (0)), .nzero⟩ : Itv)]))),
    .call ((Cmd.run (.op [(⟨.ninf, (f 15 0)⟩ : Itv), (⟨(f (-3) (0)), (f 3 0)⟩ : Itv)]))),
    .call ((Cmd.run (.op [(⟨.ninf, (f 15 0)⟩ : Itv), (⟨(f 0 0), (f 3 0)⟩ : Itv)]))),
    .call ((Cmd.run (.op [(⟨.ninf, (f 15 0)⟩ : Itv), (⟨.ninf, (f 0 0)⟩ : Itv)]))),
    .call ((Cmd.run (.op [(⟨.ninf, (f 15 0)⟩ : Itv), (⟨.nzero, (f 3 0)⟩ : Itv)]))),
    .call ((Cmd.run (.op [(⟨.ninf, (f 15 0)⟩ : Itv), (⟨.ninf, .nzero⟩ : Itv)]))),
    .call ((Cmd.run (.op [(⟨.ninf, (f 15 0)⟩ : Itv), (⟨.ninf, (f 3 0)⟩ : Itv)]))),
    .call ((Cmd.run (.op [(⟨.ninf, (f 15 0)⟩ : Itv), (⟨(f (-3) (0)), .pinf⟩ : Itv)]))),
    .call ((Cmd.run (.op [(⟨.ninf, (f 15 0)⟩ : Itv), (⟨(f 0 0), .pinf⟩ : Itv)]))),
    .call ((Cmd.run (.op [(⟨.ninf, (f 15 0)⟩ : Itv), (⟨.nzero, .pinf⟩ : Itv)]))),
    .call ((Cmd.run (.op [(⟨.ninf, (f 15 0)⟩ : Itv), (Itv.entire : Itv)]))),
    .call ((Cmd.run (.op [(⟨(f (-15) (0)), .pinf⟩ : Itv), (⟨(f (-5) (0)), (f (-3) (0))⟩ : Itv)]))),
    .call ((Cmd.run (.op [(⟨(f (-15) (0)), .pinf⟩ : Itv), (⟨(f 3 0), (f 5 0)⟩ : Itv)]))),
    .call ((Cmd.run (.op [(⟨(f (-15) (0)), .pinf⟩ : Itv), (⟨.ninf, (f (-3) (0))⟩ : Itv)]))),
    .call ((Cmd.run (.op [(⟨(f (-15) (0)), .pinf⟩ : Itv), (⟨(f 3 0), .pinf⟩ : Itv)]))),
    .call (do (Cmd.run (.op [(⟨(f (-15) (0)), .pinf⟩ : Itv), (⟨(f 0 0), (f 0 0)⟩ : Itv)])); (Cmd.run (.op [(Fmt.divI binary64 (⟨(f (-15) (0)), .pinf⟩ : Itv) (⟨(f 0 0), (f 0 0)⟩ : Itv) : Itv)]))),
    .call ((Cmd.run (.op [(⟨(f (-15) (0)), .pinf⟩ : Itv), (⟨(f (-3) (0)), (f 0 0)⟩ : Itv)]))),
    .call (do (Cmd.run (.op [(⟨(f (-15) (0)), .pinf⟩ : Itv), (⟨.nzero, .nzero⟩ : Itv)])); (Cmd.run (.op [(Fmt.divI binary64 (⟨(f (-15) (0)), .pinf⟩ : Itv) (⟨.nzero, .nzero⟩ : Itv) : Itv)]))),
    .call ((Cmd.run (.op [(⟨(f (-15) (0)), .pinf⟩ : Itv), (⟨(f (-3) (0)), .nzero⟩ : Itv)]))),
    .call ((Cmd.run (.op [(⟨(f (-15) (0)), .pinf⟩ : Itv), (⟨(f (-3) (0)), (f 3 0)⟩ : Itv)]))),
    .call ((Cmd.run (.op [(⟨(f (-15) (0)), .pinf⟩ : Itv), (⟨(f 0 0), (f 3 0)⟩ : Itv)]))),
    .call ((Cmd.run (.op [(⟨(f (-15) (0)), .pinf⟩ : Itv), (⟨.ninf, (f 0 0)⟩ : Itv)]))),
    .call ((Cmd.run (.op [(⟨(f (-15) (0)), .pinf⟩ : Itv), (⟨.nzero, (f 3 0)⟩ : Itv)]))),
    .call ((Cmd.run (.op [(⟨(f (-15) (0)), .pinf⟩ : Itv), (⟨.ninf, .nzero⟩ : Itv)]))),
    .call ((Cmd.run (.op [(⟨(f (-15) (0)), .pinf⟩ : Itv), (⟨.ninf, (f 3 0)⟩ : Itv)]))),
    .call ((Cmd.run (.op [(⟨(f (-15) (0)), .pinf⟩ : Itv), (⟨(f (-3) (0)), .pinf⟩ : Itv)]))),
    .call ((Cmd.run (.op [(⟨(f (-15) (0)), .pinf⟩ : Itv), (⟨(f 0 0), .pinf⟩ : Itv)]))),
    .call ((Cmd.run (.op [(⟨(f (-15) (0)), .pinf⟩ : Itv), (⟨.nzero, .pinf⟩ : Itv)]))),
    .call ((Cmd.run (.op [(⟨(f (-15) (0)), .pinf⟩ : Itv), (Itv.entire : Itv)]))),
    .call ((Cmd.run (.op [(⟨(f 15 0), .pinf⟩ : Itv), (⟨(f (-5) (0)), (f (-3) (0))⟩ : Itv)]))),
    .call ((Cmd.run (.op [(⟨(f 15 0), .pinf⟩ : Itv), (⟨(f 3 0), (f 5 0)⟩ : Itv)]))),
    .call ((Cmd.run (.op [(⟨(f 15 0), .pinf⟩ : Itv), (⟨.ninf, (f (-3) (0))⟩ : Itv)]))),
    .call ((Cmd.run (.op [(⟨(f 15 0), .pinf⟩ : Itv), (⟨(f 3 0), .pinf⟩ : Itv)]))),
    .call (do (Cmd.run (.op [(⟨(f 15 0), .pinf⟩ : Itv), (⟨(f 0 0), (f 0 0)⟩ : Itv)])); (Cmd.run (.op [(Fmt.divI binary64 (⟨(f 15 0), .pinf⟩ : Itv) (⟨(f 0 0), (f 0 0)⟩ : Itv) : Itv)]))),
    .call ((Cmd.run (.op [(⟨(f 15 0), .pinf⟩ : Itv), (⟨(f (-3) (0)), (f 0 0)⟩ : Itv)]))),
    .call (do (Cmd.run (.op [(⟨(f 15 0), .pinf⟩ : Itv), (⟨.nzero, .nzero⟩ : Itv)])); (Cmd.run (.op [(Fmt.divI binary64 (⟨(f 15 0), .pinf⟩ : Itv) (⟨.nzero, .nzero⟩ : Itv) : Itv)]))),
    .call ((Cmd.run (.op [(⟨(f 15 0), .pinf⟩ : Itv), (⟨(f (-3) (0)), .nzero⟩ : Itv)]))),
    .call ((Cmd.run (.op [(⟨(f 15 0), .pinf⟩ : Itv), (⟨(f (-3) (0)), (f 3 0)⟩ : Itv)]))),
    .call ((Cmd.run (.op [(⟨(f 15 0), .pinf⟩ : Itv), (⟨(f 0 0), (f 3 0)⟩ : Itv)]))),
    .call ((Cmd.run (.op [(⟨(f 15 0), .pinf⟩ : Itv), (⟨.ninf, (f 0 0)⟩ : Itv)]))),
    .call ((Cmd.run (.op [(⟨(f 15 0), .pinf⟩ : Itv), (⟨.nzero, (f 3 0)⟩ : Itv)]))),
    .call ((Cmd.run (.op [(⟨(f 15 0), .pinf⟩ : Itv), (⟨.ninf, .nzero⟩ : Itv)]))),
    .call ((Cmd.run (.op [(⟨(f 15 0), .pinf⟩ : Itv), (⟨.ninf, (f 3 0)⟩ : Itv)]))),
    .call ((Cmd.run (.op [(⟨(f 15 0), .pinf⟩ : Itv), (⟨(f (-3) (0)), .pinf⟩ : Itv)]))),
    .call ((Cmd.run (.op [(⟨(f 15 0), .pinf⟩ : Itv), (⟨(f 0 0), .pinf⟩ : Itv)]))),
    .call ((Cmd.run (.op [(⟨(f 15 0), .pinf⟩ : Itv), (⟨.nzero, .pinf⟩ : Itv)]))),
    .call ((Cmd.run (.op [(⟨(f 15 0), .pinf⟩ : Itv), (Itv.entire : Itv)]))),
    .call ((Cmd.run (.op [(⟨(f (-30) (0)), (f 0 0)⟩ : Itv), (⟨(f (-5) (0)), (f (-3) (0))⟩ : Itv)]))),
    .call ((Cmd.run (.op [(⟨(f (-30) (0)), (f 0 0)⟩ : Itv), (⟨(f 3 0), (f 5 0)⟩ : Itv)]))),
    .call ((Cmd.run (.op [(⟨(f (-30) (0)), (f 0 0)⟩ : Itv), (⟨.ninf, (f (-3) (0))⟩ : Itv)]))),
    .call ((Cmd.run (.op [(⟨(f (-30) (0)), (f 0 0)⟩ : Itv), (⟨(f 3 0), .pinf⟩ : Itv)]))),
    .call (do (Cmd.run (.op [(⟨(f (-30) (0)), (f 0 0)⟩ : Itv), (⟨(f 0 0), (f 0 0)⟩ : Itv)])); (Cmd.run (.op [(Fmt.divI binary64 (⟨(f (-30) (0)), (f 0 0)⟩ : Itv) (⟨(f 0 0), (f 0 0)⟩ : Itv) : Itv)]))),
    .call ((Cmd.run (.op [(⟨(f (-30) (0)), (f 0 0)⟩ : Itv), (⟨(f (-3) (0)), (f 0 0)⟩ : Itv)]))),
    .call (do (Cmd.run (.op [(⟨(f (-30) (0)), (f 0 0)⟩ : Itv), (⟨.nzero, .nzero⟩ : Itv)])); (Cmd.run (.op [(Fmt.divI binary64 (⟨(f (-30) (0)), (f 0 0)⟩ : Itv) (⟨.nzero, .nzero⟩ : Itv) : Itv)]))),
    .call ((Cmd.run (.op [(⟨(f (-30) (0)), (f 0 0)⟩ : Itv), (⟨(f (-3) (0)), .nzero⟩ : Itv)]))),
    .call ((Cmd.run (.op [(⟨(f (-30) (0)), (f 0 0)⟩ : Itv), (⟨(f (-3) (0)), (f 3 0)⟩ : Itv)]))),
    .call ((Cmd.run (.op [(⟨(f (-30) (0)), (f 0 0)⟩ : Itv), (⟨(f 0 0), (f 3 0)⟩ : Itv)]))),
    .call ((Cmd.run (.op [(⟨(f (-30) (0)), (f 0 0)⟩ : Itv), (⟨.ninf, (f 0 0)⟩ : Itv)]))),
    .call ((Cmd.run (.op [(⟨(f (-30) (0)), (f 0 0)⟩ : Itv), (⟨.nzero, (f 3 0)⟩ : Itv)]))),
    .call ((Cmd.run (.op [(⟨(f (-30) (0)), (f 0 0)⟩ : Itv), (⟨.ninf, .nzero⟩ : Itv)]))),
    .call ((Cmd.run (.op [(⟨(f (-30) (0)), (f 0 0)⟩ : Itv), (⟨.ninf, (f 3 0)⟩ : Itv)]))),
    .call ((Cmd.run (.op [(⟨(f (-30) (0)), (f 0 0)⟩ : Itv), (⟨(f (-3) (0)), .pinf⟩ : Itv)]))),
    .call ((Cmd.run (.op [(⟨(f (-30) (0)), (f 0 0)⟩ : Itv), (⟨(f 0 0), .pinf⟩ : Itv)]))),
    .call ((Cmd.run (.op [(⟨(f (-30) (0)), (f 0 0)⟩ : Itv), (⟨.nzero, .pinf⟩ : Itv)]))),
    .call ((Cmd.run (.op [(⟨(f (-30) (0)), (f 0 0)⟩ : Itv), (Itv.entire : Itv)]))),
    .call ((Cmd.run (.op [(⟨(f (-30) (0)), .nzero⟩ : Itv), (⟨(f (-5) (0)), (f (-3) (0))⟩ : Itv)]))),
    .call ((Cmd.run (.op [(⟨(f (-30) (0)), .nzero⟩ : Itv), (⟨(f 3 0), (f 5 0)⟩ : Itv)]))),
    .call ((Cmd.run (.op [(⟨(f (-30) (0)), .nzero⟩ : Itv), (⟨.ninf, (f (-3) (0))⟩ : Itv)]))),
    .call ((Cmd.run (.op [(⟨(f (-30) (0)), .nzero⟩ : Itv), (⟨(f 3 0), .pinf⟩ : Itv)]))),
    .call (do (Cmd.run (.op [(⟨(f (-30) (0)), .nzero⟩ : Itv), (⟨(f 0 0), (f 0 0)⟩ : Itv)])); (Cmd.run (.op [(Fmt.divI binary64 (⟨(f (-30) (0)), .nzero⟩ : Itv) (⟨(f 0 0), (f 0 0)⟩ : Itv) : Itv)]))),
    .call ((Cmd.run (.op [(⟨(f (-30) (0)), .nzero⟩ : Itv), (⟨(f (-3) (0)), (f 0 0)⟩ : Itv)]))),
    .call (do (Cmd.run (.op [(⟨(f (-30) (0)), .nzero⟩ : Itv), (⟨.nzero, .nzero⟩ : Itv)])); (Cmd.run (.op [(Fmt.divI binary64 (⟨(f (-30) (0)), .nzero⟩ : Itv) (⟨.nzero, .nzero⟩ : Itv) : Itv)]))),
    .call ((Cmd.run (.op [(⟨(f (-30) (0)), .nzero⟩ : Itv), (⟨(f (-3) (0)), .nzero⟩ : Itv)]))),
    .call ((Cmd.run (.op [(⟨(f (-30) (0)), .nzero⟩ : Itv), (⟨(f (-3) (0)), (f 3 0)⟩ : Itv)]))),
    .call ((Cmd.run (.op [(⟨(f (-30) (0)), .nzero⟩ : Itv), (⟨(f 0 0), (f 3 0)⟩ : Itv)]))),
    .call ((Cmd.run (.op [(⟨(f (-30) (0)), .nzero⟩ : Itv), (⟨.ninf, (f 0 0)⟩ : Itv)]))),
    .call ((Cmd.run (.op [(⟨(f (-30) (0)), .nzero⟩ : Itv), (⟨.nzero, (f 3 0)⟩ : Itv)]))),
    .call ((Cmd.run (.op [(⟨(f (-30) (0)), .nzero⟩ : Itv), (⟨.ninf, .nzero⟩ : Itv)]))),
    .call ((Cmd.run (.op [(⟨(f (-30) (0)), .nzero⟩ : Itv), (⟨.ninf, (f 3 0)⟩ : Itv)]))),
    .call ((Cmd.run (.op [(⟨(f (-30) (0)), .nzero⟩ : Itv), (⟨(f (-3) (0)), .pinf⟩ : Itv)]))),
    .call ((Cmd.run (.op [(⟨(f (-30) (0)), .nzero⟩ : Itv), (⟨(f 0 0), .pinf⟩ : Itv)]))),
    .call ((Cmd.run (.op [(⟨(f (-30) (0)), .nzero⟩ : Itv), (⟨.nzero, .pinf⟩ : Itv)]))),
    .call ((Cmd.run (.op [(⟨(f (-30) (0)), .nzero⟩ : Itv), (Itv.entire : Itv)]))),
    .call ((Cmd.run (.op [(⟨(f 0 0), (f 30 0)⟩ : Itv), (⟨(f (-5) (0)), (f (-3) (0))⟩ : Itv)]))),
    .call ((Cmd.run (.op [(⟨(f 0 0), (f 30 0)⟩ : Itv), (⟨(f 3 0), (f 5 0)⟩ : Itv)]))),
    .call ((Cmd.run (.op [(⟨(f 0 0), (f 30 0)⟩ : Itv), (⟨.ninf, (f (-3) (0))⟩ : Itv)]))),
    .call ((Cmd.run (.op [(⟨(f 0 0), (f 30 0)⟩ : Itv), (⟨(f 3 0), .pinf⟩ : Itv)]))),
    .call (do (Cmd.run (.op [(⟨(f 0 0), (f 30 0)⟩ : Itv), (⟨(f 0 0), (f 0 0)⟩ : Itv)])); (Cmd.run (.op [(Fmt.divI binary64 (⟨(f 0 0), (f 30 0)⟩ : Itv) (⟨(f 0 0), (f 0 0)⟩ : Itv) : Itv)]))),
    .call ((Cmd.run (.op [(⟨(f 0 0), (f 30 0)⟩ : Itv), (⟨(f (-3) (0)), (f 0 0)⟩ : Itv)]))),
    .call (do (Cmd.run (.op [(⟨(f 0 0), (f 30 0)⟩ : Itv), (⟨.nzero, .nzero⟩ : Itv)])); (Cmd.run (.op [(Fmt.divI binary64 (⟨(f 0 0), (f 30 0)⟩ : Itv) (⟨.nzero, .nzero⟩ : Itv) : Itv)]))),
    .call ((Cmd.run (.op [(⟨(f 0 0), (f 30 0)⟩ : Itv), (⟨(f (-3) (0)), .nzero⟩ : Itv)]))),
    .call ((Cmd.run (.op [(⟨(f 0 0), (f 30 0)⟩ : Itv), (⟨(f (-3) (0)), (f 3 0)⟩ : Itv)]))),
    .call ((Cmd.run (.op [(⟨(f 0 0), (f 30 0)⟩ : Itv), (⟨(f 0 0), (f 3 0)⟩ : Itv)]))),
    .call ((Cmd.run (.op [(⟨(f 0 0), (f 30 0)⟩ : Itv), (⟨.ninf, (f 0 0)⟩ : Itv)]))),
    .call ((Cmd.run (.op [(⟨(f 0 0), (f 30 0)⟩ : Itv), (⟨.nzero, (f 3 0)⟩ : Itv)]))),
    .call ((Cmd.run (.op [(⟨(f 0 0), (f 30 0)⟩ : Itv), (⟨.ninf, .nzero⟩ : Itv)]))),
    .call ((Cmd.run (.op [(⟨(f 0 0), (f 30 0)⟩ : Itv), (⟨.ninf, (f 3 0)⟩ : Itv)]))),
    .call ((Cmd.run (.op [(⟨(f 0 0), (f 30 0)⟩ : Itv), (⟨(f (-3) (0)), .pinf⟩ : Itv)]))),
    .call ((Cmd.run (.op [(⟨(f 0 0), (f 30 0)⟩ : Itv), (⟨(f 0 0), .pinf⟩ : Itv)]))),
    .call ((Cmd.run (.op [(⟨(f 0 0), (f 30 0)⟩ : Itv), (⟨.nzero, .pinf⟩ : Itv)]))),
    .call ((Cmd.run (.op [(⟨(f 0 0), (f 30 0)⟩ : Itv), (Itv.entire : Itv)]))),
    .call ((Cmd.run (.op [(⟨.nzero, (f 30 0)⟩ : Itv), (⟨(f (-5) (0)), (f (-3) (0))⟩ : Itv)]))),
    .call ((Cmd.run (.op [(⟨.nzero, (f 30 0)⟩ : Itv), (⟨(f 3 0), (f 5 0)⟩ : Itv)]))),
    .call ((Cmd.run (.op [(⟨.nzero, (f 30 0)⟩ : Itv), (⟨.ninf, (f (-3) (0))⟩ : Itv)]))),
    .call ((Cmd.run (.op [(⟨.nzero, (f 30 0)⟩ : Itv), (⟨(f 3 0), .pinf⟩ : Itv)]))),
    .call (do (Cmd.run (.op [(⟨.nzero, (f 30 0)⟩ : Itv), (⟨(f 0 0), (f 0 0)⟩ : Itv)])); (Cmd.run (.op [(Fmt.divI binary64 (⟨.nzero, (f 30 0)⟩ : Itv) (⟨(f 0 0), (f 0 0)⟩ : Itv) : Itv)]))),
    .call ((Cmd.run (.op [(⟨.nzero, (f 30 0)⟩ : Itv), (⟨(f (-3) (0)), (f 0 0)⟩ : Itv)]))),
    .call (do (Cmd.run (.op [(⟨.nzero, (f 30 0)⟩ : Itv), (⟨.nzero, .nzero⟩ : Itv)])); (Cmd.run (.op [(Fmt.divI binary64 (⟨.nzero, (f 30 0)⟩ : Itv) (⟨.nzero, .nzero⟩ : Itv) : Itv)]))),
    .call ((Cmd.run (.op [(⟨.nzero, (f 30 0)⟩ : Itv), (⟨(f (-3) (0)), .nzero⟩ : Itv)]))),
    .call ((Cmd.run (.op [(⟨.nzero, (f 30 0)⟩ : Itv), (⟨(f (-3) (0)), (f 3 0)⟩ : Itv)]))),
    .call ((Cmd.run (.op [(⟨.nzero, (f 30 0)⟩ : Itv), (⟨(f 0 0), (f 3 0)⟩ : Itv)]))),
    .call ((Cmd.run (.op [(⟨.nzero, (f 30 0)⟩ : Itv), (⟨.ninf, (f 0 0)⟩ : Itv)]))),
    .call ((Cmd.run (.op [(⟨.nzero, (f 30 0)⟩ : Itv), (⟨.nzero, (f 3 0)⟩ : Itv)]))),
    .call ((Cmd.run (.op [(⟨.nzero, (f 30 0)⟩ : Itv), (⟨.ninf, .nzero⟩ : Itv)]))),
    .call ((Cmd.run (.op [(⟨.nzero, (f 30 0)⟩ : Itv), (⟨.ninf, (f 3 0)⟩ : Itv)]))),
    .call ((Cmd.run (.op [(⟨.nzero, (f 30 0)⟩ : Itv), (⟨(f (-3) (0)), .pinf⟩ : Itv)]))),
    .call ((Cmd.run (.op [(⟨.nzero, (f 30 0)⟩ : Itv), (⟨(f 0 0), .pinf⟩ : Itv)]))),
    .call ((Cmd.run (.op [(⟨.nzero, (f 30 0)⟩ : Itv), (⟨.nzero, .pinf⟩ : Itv)]))),
    .call ((Cmd.run (.op [(⟨.nzero, (f 30 0)⟩ : Itv), (Itv.entire : Itv)]))),
    .call ((Cmd.run (.op [(⟨.ninf, (f 0 0)⟩ : Itv), (⟨(f (-5) (0)), (f (-3) (0))⟩ : Itv)]))),
    .call ((Cmd.run (.op [(⟨.ninf, (f 0 0)⟩ : Itv), (⟨(f 3 0), (f 5 0)⟩ : Itv)]))),
    .call ((Cmd.run (.op [(⟨.ninf, (f 0 0)⟩ : Itv), (⟨.ninf, (f (-3) (0))⟩ : Itv)]))),
    .call ((Cmd.run (.op [(⟨.ninf, (f 0 0)⟩ : Itv), (⟨(f 3 0), .pinf⟩ : Itv)]))),
    .call (do (Cmd.run (.op [(⟨.ninf, (f 0 0)⟩ : Itv), (⟨(f 0 0), (f 0 0)⟩ : Itv)])); (Cmd.run (.op [(Fmt.divI binary64 (⟨.ninf, (f 0 0)⟩ : Itv) (⟨(f 0 0), (f 0 0)⟩ : Itv) : Itv)]))),
    .call ((Cmd.run (.op [(⟨.ninf, (f 0 0)⟩ : Itv), (⟨(f (-3) (0)), (f 0 0)⟩ : Itv)]))),
    .call (do (Cmd.run (.op [(⟨.ninf, (f 0 0)⟩ : Itv), (⟨.nzero, .nzero⟩ : Itv)])); (Cmd.run (.op [(Fmt.divI binary64 (⟨.ninf, (f 0 0)⟩ : Itv) (⟨.nzero, .nzero⟩ : Itv) : Itv)]))),
    .call ((Cmd.run (.op [(⟨.ninf, (f 0 0)⟩ : Itv), (⟨(f (-3) (0)), .nzero⟩ : Itv)]))),
    .call ((Cmd.run (.op [(⟨.ninf, (f 0 0)⟩ : Itv), (⟨(f (-3) (0)), (f 3 0)⟩ : Itv)]))),
    .call ((Cmd.run (.op [(⟨.ninf, (f 0 0)⟩ : Itv), (⟨(f 0 0), (f 3 0)⟩ : Itv)]))),
    .call ((Cmd.run (.op [(⟨.ninf, (f 0 0)⟩ : Itv), (⟨.ninf, (f 0 0)⟩ : Itv)]))),
    .call ((Cmd.run (.op [(⟨.ninf, (f 0 0)⟩ : Itv), (⟨.nzero, (f 3 0)⟩ : Itv)]))),
    .call ((Cmd.run (.op [(⟨.ninf, (f 0 0)⟩ : Itv), (⟨.ninf, .nzero⟩ : Itv)]))),
    .call ((Cmd.run (.op [(⟨.ninf, (f 0 0)⟩ : Itv), (⟨.ninf, (f 3 0)⟩ : Itv)]))),
    .call ((Cmd.run (.op [(⟨.ninf, (f 0 0)⟩ : Itv), (⟨(f (-3) (0)), .pinf⟩ : Itv)]))),
    .call ((Cmd.run (.op [(⟨.ninf, (f 0 0)⟩ : Itv), (⟨(f 0 0), .pinf⟩ : Itv)]))),
    .call ((Cmd.run (.op [(⟨.ninf, (f 0 0)⟩ : Itv), (⟨.nzero, .pinf⟩ : Itv)]))),
    .call ((Cmd.run (.op [(⟨.ninf, (f 0 0)⟩ : Itv), (Itv.entire : Itv)]))),
    .call ((Cmd.run (.op [(⟨.ninf, .nzero⟩ : Itv), (⟨(f (-5) (0)), (f (-3) (0))⟩ : Itv)]))),
    .call ((Cmd.run (.op [(⟨.ninf, .nzero⟩ : Itv), (⟨(f 3 0), (f 5 0)⟩ : Itv)]))),
    .call ((Cmd.run (.op [(⟨.ninf, .nzero⟩ : Itv), (⟨.ninf, (f (-3) (0))⟩ : Itv)]))),
    .call ((Cmd.run (.op [(⟨.ninf, .nzero⟩ : Itv), (⟨(f 3 0), .pinf⟩ : Itv)]))),
    .call (do (Cmd.run (.op [(⟨.ninf, .nzero⟩ : Itv), (⟨(f 0 0), (f 0 0)⟩ : Itv)])); (Cmd.run (.op [(Fmt.divI binary64 (⟨.ninf, .nzero⟩ : Itv) (⟨(f 0 0), (f 0 0)⟩ : Itv) : Itv)]))),
    .call ((Cmd.run (.op [(⟨.ninf, .nzero⟩ : Itv), (⟨(f (-3) (0)), (f 0 0)⟩ : Itv)]))),
    .call (do (Cmd.run (.op [(⟨.ninf, .nzero⟩ : Itv), (⟨.nzero, .nzero⟩ : Itv)])); (Cmd.run (.op [(Fmt.divI binary64 (⟨.ninf, .nzero⟩ : Itv) (⟨.nzero, .nzero⟩ : Itv) : Itv)]))),
    .call ((Cmd.run (.op [(⟨.ninf, .nzero⟩ : Itv), (⟨(f (-3) (0)), .nzero⟩ : Itv)]))),
    .call ((Cmd.run (.op [(⟨.ninf, .nzero⟩ : Itv), (⟨(f (-3) (0)), (f 3 0)⟩ : Itv)]))),
    .call ((Cmd.run (.op [(⟨.ninf, .nzero⟩ : Itv), (⟨(f 0 0), (f 3 0)⟩ : Itv)]))),
    .call ((Cmd.run (.op [(⟨.ninf, .nzero⟩ : Itv), (⟨.ninf, (f 0 0)⟩ : Itv)]))),
    .call ((Cmd.run (.op [(⟨.ninf, .nzero⟩ : Itv), (⟨.nzero, (f 3 0)⟩ : Itv)]))),
    .call ((Cmd.run (.op [(⟨.ninf, .nzero⟩ : Itv), (⟨.ninf, .nzero⟩ : Itv)]))),
    .call ((Cmd.run (.op [(⟨.ninf, .nzero⟩ : Itv), (⟨.ninf, (f 3 0)⟩ : Itv)]))),
    .call ((Cmd.run (.op [(⟨.ninf, .nzero⟩ : Itv), (⟨(f (-3) (0)), .pinf⟩ : Itv)]))),
    .call ((Cmd.run (.op [(⟨.ninf, .nzero⟩ : Itv), (⟨(f 0 0), .pinf⟩ : Itv)]))),
    .call ((Cmd.run (.op [(⟨.ninf, .nzero⟩ : Itv), (⟨.nzero, .pinf⟩ : Itv)]))),
    .call ((Cmd.run (.op [(⟨.ninf, .nzero⟩ : Itv), (Itv.entire : Itv)]))),
    .call ((Cmd.run (.op [(⟨(f 0 0), .pinf⟩ : Itv), (⟨(f (-5) (0)), (f (-3) (0))⟩ : Itv)]))),
    .call ((Cmd.run (.op [(⟨(f 0 0), .pinf⟩ : Itv), (⟨(f 3 0), (f 5 0)⟩ : Itv)]))),
    .call ((Cmd.run (.op [(⟨(f 0 0), .pinf⟩ : Itv), (⟨.ninf, (f (-3) (0))⟩ : Itv)]))),
    .call ((Cmd.run (.op [(⟨(f 0 0), .pinf⟩ : Itv), (⟨(f 3 0), .pinf⟩ : Itv)]))),
    .call (do (Cmd.run (.op [(⟨(f 0 0), .pinf⟩ : Itv), (⟨(f 0 0), (f 0 0)⟩ : Itv)])); (Cmd.run (.op [(Fmt.divI binary64 (⟨(f 0 0), .pinf⟩ : Itv) (⟨(f 0 0), (f 0 0)⟩ : Itv) : Itv)]))),
    .call ((Cmd.run (.op [(⟨(f 0 0), .pinf⟩ : Itv), (⟨(f (-3) (0)), (f 0 0)⟩ : Itv)]))),
    .call (do (Cmd.run (.op [(⟨(f 0 0), .pinf⟩ : Itv), (⟨.nzero, .nzero⟩ : Itv)])); (Cmd.run (.op [(Fmt.divI binary64 (⟨(f 0 0), .pinf⟩ : Itv) (⟨.nzero, .nzero⟩ : Itv) : Itv)]))),
    .call ((Cmd.run (.op [(⟨(f 0 0), .pinf⟩ : Itv), (⟨(f (-3) (0)), .nzero⟩ : Itv)]))),
    .call ((Cmd.run (.op [(⟨(f 0 0), .pinf⟩ : Itv), (⟨(f (-3) (0)), (f 3 0)⟩ : Itv)]))),
    .call ((Cmd.run (.op [(⟨(f 0 0), .pinf⟩ : Itv), (⟨(f 0 0), (f 3 0)⟩ : Itv)]))),
    .call ((Cmd.run (.op [(⟨(f 0 0), .pinf⟩ : Itv), (⟨.ninf, (f 0 0)⟩ : Itv)]))),
    .call ((Cmd.run (.op [(⟨(f 0 0), .pinf⟩ : Itv), (⟨.nzero, (f 3 0)⟩ : Itv)]))),
    .call ((Cmd.run (.op [(⟨(f 0 0), .pinf⟩ : Itv), (⟨.ninf, .nzero⟩ : Itv)]))),
    .call ((Cmd.run (.op [(⟨(f 0 0), .pinf⟩ : Itv), (⟨.ninf, (f 3 0)⟩ : Itv)]))),
    .call ((Cmd.run (.op [(⟨(f 0 0), .pinf⟩ : Itv), (⟨(f (-3) (0)), .pinf⟩ : Itv)]))),
    .call ((Cmd.run (.op [(⟨(f 0 0), .pinf⟩ : Itv), (⟨(f 0 0), .pinf⟩ : Itv)]))),
    .call ((Cmd.run (.op [(⟨(f 0 0), .pinf⟩ : Itv), (⟨.nzero, .pinf⟩ : Itv)]))),
    .call ((Cmd.run (.op [(⟨(f 0 0), .pinf⟩ : Itv), (Itv.entire : Itv)]))),
    .call ((Cmd.run (.op [(⟨.nzero, .pinf⟩ : Itv), (⟨(f (-5) (0)), (f (-3) (0))⟩ : Itv)]))),
    .call ((Cmd.run (.op [(⟨.nzero, .pinf⟩ : Itv), (⟨(f 3 0), (f 5 0)⟩ : Itv)]))),
    .call ((Cmd.run (.op [(⟨.nzero, .pinf⟩ : Itv), (⟨.ninf, (f (-3) (0))⟩ : Itv)]))),
    .call ((Cmd.run (.op [(⟨.nzero, .pinf⟩ : Itv), (⟨(f 3 0), .pinf⟩ : Itv)]))),
    .call (do (Cmd.run (.op [(⟨.nzero, .pinf⟩ : Itv), (⟨(f 0 0), (f 0 0)⟩ : Itv)])); (Cmd.run (.op [(Fmt.divI binary64 (⟨.nzero, .pinf⟩ : Itv) (⟨(f 0 0), (f 0 0)⟩ : Itv) : Itv)]))),
    .call ((Cmd.run (.op [(⟨.nzero, .pinf⟩ : Itv), (⟨(f (-3) (0)), (f 0 0)⟩ : Itv)]))),
    .call (do (Cmd.run (.op [(⟨.nzero, .pinf⟩ : Itv), (⟨.nzero, .nzero⟩ : Itv)])); (Cmd.run (.op [(Fmt.divI binary64 (⟨.nzero, .pinf⟩ : Itv) (⟨.nzero, .nzero⟩ : Itv) : Itv)]))),
    .call ((Cmd.run (.op [(⟨.nzero, .pinf⟩ : Itv), (⟨(f (-3) (0)), .nzero⟩ : Itv)]))),
    .call ((Cmd.run (.op [(⟨.nzero, .pinf⟩ : Itv), (⟨(f (-3) (0)), (f 3 0)⟩ : Itv)]))),
    .call ((Cmd.run (.op [(⟨.nzero, .pinf⟩ : Itv), (⟨(f 0 0), (f 3 0)⟩ : Itv)]))),
    .call ((Cmd.run (.op [(⟨.nzero, .pinf⟩ : Itv), (⟨.ninf, (f 0 0)⟩ : Itv)]))),
    .call ((Cmd.run (.op [(⟨.nzero, .pinf⟩ : Itv), (⟨.nzero, (f 3 0)⟩ : Itv)]))),
    .call ((Cmd.run (.op [(⟨.nzero, .pinf⟩ : Itv), (⟨.ninf, .nzero⟩ : Itv)]))),
    .call ((Cmd.run (.op [(⟨.nzero, .pinf⟩ : Itv), (⟨.ninf, (f 3 0)⟩ : Itv)]))),
    .call ((Cmd.run (.op [(⟨.nzero, .pinf⟩ : Itv), (⟨(f (-3) (0)), .pinf⟩ : Itv)]))),
    .call ((Cmd.run (.op [(⟨.nzero, .pinf⟩ : Itv), (⟨(f 0 0), .pinf⟩ : Itv)]))),
    .call ((Cmd.run (.op [(⟨.nzero, .pinf⟩ : Itv), (⟨.nzero, .pinf⟩ : Itv)]))),
    .call ((Cmd.run (.op [(⟨.nzero, .pinf⟩ : Itv), (Itv.entire : Itv)]))),
    .call ((Cmd.run (.op [(⟨(f (-2) (0)), (f (-1) (0))⟩ : Itv), (⟨(f (-10) (0)), (f (-3) (0))⟩ : Itv)]))),
    .call ((Cmd.run (.op [(⟨(f (-2) (0)), (f (-1) (0))⟩ : Itv), (⟨(f 0 0), (f 10 0)⟩ : Itv)]))),
    .call ((Cmd.run (.op [(⟨(f (-2) (0)), (f (-1) (0))⟩ : Itv), (⟨.nzero, (f 10 0)⟩ : Itv)]))),
    .call ((Cmd.run (.op [(⟨(f (-1) (0)), (f 2 0)⟩ : Itv), (⟨(f 10 0), .pinf⟩ : Itv)]))),
    .call ((Cmd.run (.op [(⟨(f 1 0), (f 3 0)⟩ : Itv), (⟨.ninf, (f (-10) (0))⟩ : Itv)]))),
    .call ((Cmd.run (.op [(⟨.ninf, (f (-1) (0))⟩ : Itv), (⟨(f 1 0), (f 3 0)⟩ : Itv)]))),
    .state 1041 [],
    .call clearFlags,
    .call (do (Cmd.run (.op [(⟨(f 1 0), (f (-9007199254740991) (971))⟩ : Itv), (⟨(f 3 0), (f 4 0)⟩ : Itv)])); (Cmd.run (.op [(Fmt.divI binary64 (⟨(f 1 0), (f (-9007199254740991) (971))⟩ : Itv) (⟨(f 3 0), (f 4 0)⟩ : Itv) : Itv)]))),
    .state 1045 [.invalidOperand],
    .call clearFlags,
    .call (setCwd (bitsOf [.invalidOperand])),
    .throws 1048 ((Cmd.run (.op [(⟨(f 1 0), (f 9007199254740991 971)⟩ : Itv), (⟨(f 3 0), (f (-4) (0))⟩ : Itv)]))) .invalidOperand,
    .state 1049 [.invalidOperand],
    .call clearFlags,
    .call (setCwd (bitsOf []))] ExSt.init = [] := by
  decide +kernel

/-- `minimal_div_mixedtype_test` -/
example : failed [
    .call ((Cmd.run (.op [(⟨(f (-2) (0)), (f (-1) (0))⟩ : Itv), (⟨(f (-10) (0)), (f (-3) (0))⟩ : Itv)]))),
    .call ((Cmd.run (.op [(⟨(f (-2) (0)), (f (-1) (0))⟩ : Itv), (⟨(f 0 0), (f 10 0)⟩ : Itv)]))),
    .call ((Cmd.run (.op [(⟨(f (-2) (0)), (f (-1) (0))⟩ : Itv), (⟨.nzero, (f 10 0)⟩ : Itv)]))),
    .call ((Cmd.run (.op [(⟨(f (-1) (0)), (f 2 0)⟩ : Itv), (⟨(f 10 0), .pinf⟩ : Itv)]))),
    .state 1062 [],
    .call clearFlags,
    .call (do (Cmd.run (.op [(⟨(f 1 0), (f (-9007199254740991) (971))⟩ : Itv), (⟨(f 3 0), (f 4 0)⟩ : Itv)])); (Cmd.run (.op [(if !(⟨(f 1 0), (f (-9007199254740991) (971))⟩ : Itv).isValid || !(⟨(f 3 0), (f 4 0)⟩ : Itv).isValid then Itv.empty else Fmt.convertHull binary32 (Fmt.divI binary64 (Fmt.convertHull binary64 (⟨(f 1 0), (f (-9007199254740991) (971))⟩ : Itv)) (Fmt.convertHull binary64 (⟨(f 3 0), (f 4 0)⟩ : Itv))) : Itv)]))),
    .state 1066 [.invalidOperand],
    .call clearFlags,
    .call (setCwd (bitsOf [.invalidOperand])),
    .throws 1069 ((Cmd.run (.op [(⟨(f 1 0), (f 9007199254740991 971)⟩ : Itv), (⟨(f 3 0), (f (-4) (0))⟩ : Itv)]))) .invalidOperand,
    .state 1070 [.invalidOperand],
    .call clearFlags,
    .call (setCwd (bitsOf []))] ExSt.init = [] := by
  decide +kernel

/-- `minimal_div_dec_test` -/
example : failed [
    .call ((Cmd.run (.opD [(⟨⟨(f (-2) (0)), (f (-1) (0))⟩, .com⟩ : DItv), (⟨⟨(f (-10) (0)), (f (-3) (0))⟩, .com⟩ : DItv)]))),
    .call ((Cmd.run (.opD [(⟨⟨(f (-200) (0)), (f (-1) (0))⟩, .com⟩ : DItv), (⟨⟨(f (1) (-1022)), (f 10 0)⟩, .com⟩ : DItv)]))),
    .call ((Cmd.run (.opD [(⟨⟨(f (-2) (0)), (f (-1) (0))⟩, .com⟩ : DItv), (⟨⟨(f 0 0), (f 10 0)⟩, .com⟩ : DItv)]))),
    .call ((Cmd.run (.opD [(⟨⟨(f 1 0), (f 3 0)⟩, .defd⟩ : DItv), (⟨⟨.ninf, (f (-10) (0))⟩, .dac⟩ : DItv)]))),
    .call (do (Cmd.run (.opD [(⟨⟨(f 1 0), (f 2 0)⟩, .trv⟩ : DItv), (DItv.empty : DItv)])); (Cmd.run (.opD [(Fmt.divD binary64 (⟨⟨(f 1 0), (f 2 0)⟩, .trv⟩ : DItv) (DItv.empty : DItv) : DItv)]))),
    .call (do (Cmd.run (.opD [(DItv.nai : DItv), (⟨⟨(f 1 0), (f 2 0)⟩, .trv⟩ : DItv)])); (Cmd.run (.opD [(Fmt.divD binary64 (DItv.nai : DItv) (⟨⟨(f 1 0), (f 2 0)⟩, .trv⟩ : DItv) : DItv)]))),
    .state 1084 [],
    .call clearFlags,
    .call (do (Cmd.run (.opD [(⟨⟨(f 1 0), (f (-2) (0))⟩, .com⟩ : DItv), (⟨⟨(f 5 0), (f 7 0)⟩, .com⟩ : DItv)])); (Cmd.run (.opD [(Fmt.divD binary64 (⟨⟨(f 1 0), (f (-2) (0))⟩, .com⟩ : DItv) (⟨⟨(f 5 0), (f 7 0)⟩, .com⟩ : DItv) : DItv)]))),
    .state 1088 [.invalidOperand],
    .call clearFlags,
    .call (setCwd (bitsOf [.invalidOperand])),
    .throws 1091 ((Cmd.run (.opD [(⟨⟨(f 1 0), .pinf⟩, .com⟩ : DItv), (⟨⟨(f 5 0), (f 7 0)⟩, .com⟩ : DItv)]))) .invalidOperand,
    .state 1092 [.invalidOperand],
    .call clearFlags,
    .call (setCwd (bitsOf []))] ExSt.init = [] := by
  decide +kernel

/-- `minimal_div_dec_mixedtype_test` -/
example : failed [
    .call ((Cmd.run (.opD [(⟨⟨(f (-2) (0)), (f (-1) (0))⟩, .com⟩ : DItv), (⟨⟨(f (-10) (0)), (f (-3) (0))⟩, .com⟩ : DItv)]))),
    .call ((Cmd.run (.opD [(⟨⟨(f (-200) (0)), (f (-1) (0))⟩, .com⟩ : DItv), (⟨⟨(f (1) (-1022)), (f 10 0)⟩, .com⟩ : DItv)]))),
    .call ((Cmd.run (.opD [(⟨⟨(f (-2) (0)), (f (-1) (0))⟩, .com⟩ : DItv), (⟨⟨(f 0 0), (f 10 0)⟩, .com⟩ : DItv)]))),
    .call ((Cmd.run (.opD [(⟨⟨(f 1 0), (f 3 0)⟩, .defd⟩ : DItv), (⟨⟨.ninf, (f (-10) (0))⟩, .dac⟩ : DItv)]))),
    .call (do (Cmd.run (.opD [(⟨⟨(f 1 0), (f 2 0)⟩, .trv⟩ : DItv), (DItv.empty : DItv)])); (Cmd.run (.opD [(if !(⟨⟨(f 1 0), (f 2 0)⟩, .trv⟩ : DItv).isValid || (⟨⟨(f 1 0), (f 2 0)⟩, .trv⟩ : DItv).isNai || !(DItv.empty : DItv).isValid || (DItv.empty : DItv).isNai then DItv.nai else Fmt.convertHullD binary64 (Fmt.divD binary64 (Fmt.convertHullD binary64 (⟨⟨(f 1 0), (f 2 0)⟩, .trv⟩ : DItv)) (Fmt.convertHullD binary64 (DItv.empty : DItv))) : DItv)]))),
    .call (do (Cmd.run (.opD [(DItv.nai : DItv), (⟨⟨(f 1 0), (f 2 0)⟩, .trv⟩ : DItv)])); (Cmd.run (.opD [(if !(DItv.nai : DItv).isValid || (DItv.nai : DItv).isNai || !(⟨⟨(f 1 0), (f 2 0)⟩, .trv⟩ : DItv).isValid || (⟨⟨(f 1 0), (f 2 0)⟩, .trv⟩ : DItv).isNai then DItv.nai else Fmt.convertHullD binary32 (Fmt.divD binary64 (Fmt.convertHullD binary64 (DItv.nai : DItv)) (Fmt.convertHullD binary64 (⟨⟨(f 1 0), (f 2 0)⟩, .trv⟩ : DItv))) : DItv)]))),
    .state 1106 [],
    .call clearFlags,
    .call (do (Cmd.run (.opD [(⟨⟨(f 1 0), (f (-2) (0))⟩, .com⟩ : DItv), (⟨⟨(f 5 0), (f 7 0)⟩, .com⟩ : DItv)])); (Cmd.run (.opD [(if !(⟨⟨(f 1 0), (f (-2) (0))⟩, .com⟩ : DItv).isValid || (⟨⟨(f 1 0), (f (-2) (0))⟩, .com⟩ : DItv).isNai || !(⟨⟨(f 5 0), (f 7 0)⟩, .com⟩ : DItv).isValid || (⟨⟨(f 5 0), (f 7 0)⟩, .com⟩ : DItv).isNai then DItv.nai else Fmt.convertHullD binary32 (Fmt.divD binary64 (Fmt.convertHullD binary64 (⟨⟨(f 1 0), (f (-2) (0))⟩, .com⟩ : DItv)) (Fmt.convertHullD binary64 (⟨⟨(f 5 0), (f 7 0)⟩, .com⟩ : DItv))) : DItv)]))),
    .state 1110 [.invalidOperand],
    .call clearFlags,
    .call (setCwd (bitsOf [.invalidOperand])),
    .throws 1113 ((Cmd.run (.opD [(⟨⟨(f 1 0), .pinf⟩, .com⟩ : DItv), (⟨⟨(f 5 0), (f 7 0)⟩, .com⟩ : DItv)]))) .invalidOperand,
    .state 1114 [.invalidOperand],
    .call clearFlags,
    .call (setCwd (bitsOf []))] ExSt.init = [] := by
  decide +kernel

/-- `minimal_recip_test` -/
example : failed [
    .call ((Cmd.run (.op [(⟨(f (-50) (0)), (f (-10) (0))⟩ : Itv)]))),
    .call ((Cmd.run (.op [(⟨(f 10 0), (f 50 0)⟩ : Itv)]))),
    .call ((Cmd.run (.op [(⟨.ninf, (f (-10) (0))⟩ : Itv)]))),
    .call ((Cmd.run (.op [(⟨(f 10 0), .pinf⟩ : Itv)]))),
    .call (do (Cmd.run (.op [(⟨(f 0 0), (f 0 0)⟩ : Itv)])); (Cmd.run (.op [(Fmt.recipI binary64 (⟨(f 0 0), (f 0 0)⟩ : Itv) : Itv)]))),
    .call (do (Cmd.run (.op [(⟨.nzero, .nzero⟩ : Itv)])); (Cmd.run (.op [(Fmt.recipI binary64 (⟨.nzero, .nzero⟩ : Itv) : Itv)]))),
    .call ((Cmd.run (.op [(⟨(f (-10) (0)), (f 0 0)⟩ : Itv)]))),
    .call ((Cmd.run (.op [(⟨(f (-10) (0)), .nzero⟩ : Itv)]))),
    .call ((Cmd.run (.op [(⟨(f (-10) (0)), (f 10 0)⟩ : Itv)]))),
    .call ((Cmd.run (.op [(⟨(f 0 0), (f 10 0)⟩ : Itv)]))),
    .call ((Cmd.run (.op [(⟨.nzero, (f 10 0)⟩ : Itv)]))),
    .call ((Cmd.run (.op [(⟨.ninf, (f 0 0)⟩ : Itv)]))),
    .call ((Cmd.run (.op [(⟨.ninf, .nzero⟩ : Itv)]))),
    .call ((Cmd.run (.op [(⟨.ninf, (f 10 0)⟩ : Itv)]))),
    .call ((Cmd.run (.op [(⟨(f (-10) (0)), .pinf⟩ : Itv)]))),
    .call ((Cmd.run (.op [(⟨(f 0 0), .pinf⟩ : Itv)]))),
    .call ((Cmd.run (.op [(⟨.nzero, .pinf⟩ : Itv)]))),
    .call ((Cmd.run (.op [(Itv.entire : Itv)]))),
    .state 1142 [],
    .call clearFlags,
    .call (do (Cmd.run (.op [(⟨(f 1 0), (f (-9007199254740991) (971))⟩ : Itv)])); (Cmd.run (.op [(Fmt.recipI binary64 (⟨(f 1 0), (f (-9007199254740991) (971))⟩ : Itv) : Itv)]))),
    .state 1146 [.invalidOperand],
    .call clearFlags,
    .call (setCwd (bitsOf [.invalidOperand])),
    .throws 1149 ((Cmd.run (.op [(⟨(f 3 0), (f (-4) (0))⟩ : Itv)]))) .invalidOperand,
    .state 1150 [.invalidOperand],
    .call clearFlags,
    .call (setCwd (bitsOf []))] ExSt.init = [] := by
  decide +kernel

/-- `minimal_recip_mixedtype_test` -/
example : failed [
    .call ((Cmd.run (.op [(⟨(f (-50) (0)), (f (-10) (0))⟩ : Itv)]))),
    .call ((Cmd.run (.op [(⟨(f 10 0), (f 50 0)⟩ : Itv)]))),
    .call ((Cmd.run (.op [(⟨.ninf, (f (-10) (0))⟩ : Itv)]))),
    .state 1161 [],
    .call clearFlags,
    .call (do (Cmd.run (.op [(⟨(f 1 0), (f (-9007199254740991) (971))⟩ : Itv)])); (Cmd.run (.op [(if !(⟨(f 1 0), (f (-9007199254740991) (971))⟩ : Itv).isValid then Itv.empty else Fmt.convertHull binary32 (Fmt.recipI binary64 (Fmt.convertHull binary64 (⟨(f 1 0), (f (-9007199254740991) (971))⟩ : Itv))) : Itv)]))),
    .state 1165 [.invalidOperand],
    .call clearFlags,
    .call (setCwd (bitsOf [.invalidOperand])),
    .throws 1168 ((Cmd.run (.op [(⟨(f 3 0), (f (-4) (0))⟩ : Itv)]))) .invalidOperand,
    .state 1169 [.invalidOperand],
    .call clearFlags,
    .call (setCwd (bitsOf []))] ExSt.init = [] := by
  decide +kernel

/-- `minimal_recip_dec_test` -/
example : failed [
    .call ((Cmd.run (.opD [(⟨⟨(f 10 0), (f 50 0)⟩, .com⟩ : DItv)]))),
    .call ((Cmd.run (.opD [(⟨⟨.ninf, (f (-10) (0))⟩, .dac⟩ : DItv)]))),
    .call ((Cmd.run (.opD [(⟨⟨(f (-9007199254740991) (971)), (f (-1) (-1022))⟩, .defd⟩ : DItv)]))),
    .call (do (Cmd.run (.opD [(⟨⟨(f 0 0), (f 0 0)⟩, .com⟩ : DItv)])); (Cmd.run (.opD [(Fmt.recipD binary64 (⟨⟨(f 0 0), (f 0 0)⟩, .com⟩ : DItv) : DItv)]))),
    .call ((Cmd.run (.opD [(⟨⟨(f (-10) (0)), (f 0 0)⟩, .com⟩ : DItv)]))),
    .call ((Cmd.run (.opD [(⟨⟨(f (-10) (0)), .pinf⟩, .dac⟩ : DItv)]))),
    .call ((Cmd.run (.opD [(⟨⟨.nzero, .pinf⟩, .dac⟩ : DItv)]))),
    .call ((Cmd.run (.opD [(DItv.entire : DItv)]))),
    .state 1185 [],
    .call clearFlags,
    .call (do (Cmd.run (.opD [(⟨⟨(f 1 0), (f (-9007199254740991) (971))⟩, .com⟩ : DItv)])); (Cmd.run (.opD [(Fmt.recipD binary64 (⟨⟨(f 1 0), (f (-9007199254740991) (971))⟩, .com⟩ : DItv) : DItv)]))),
    .state 1189 [.invalidOperand],
    .call clearFlags,
    .call (setCwd (bitsOf [.invalidOperand])),
    .throws 1192 ((Cmd.run (.opD [(⟨⟨(f 3 0), (f (-4) (0))⟩, .com⟩ : DItv)]))) .invalidOperand,
    .state 1193 [.invalidOperand],
    .call clearFlags,
    .call (setCwd (bitsOf []))] ExSt.init = [] := by
  decide +kernel

/-- `minimal_recip_dec_mixedtype_test` -/
example : failed [
    .call ((Cmd.run (.opD [(⟨⟨(f 10 0), (f 50 0)⟩, .com⟩ : DItv)]))),
    .call ((Cmd.run (.opD [(⟨⟨.ninf, (f (-10) (0))⟩, .dac⟩ : DItv)]))),
    .call ((Cmd.run (.opD [(⟨⟨(f (-9007199254740991) (971)), (f (-1) (-1022))⟩, .com⟩ : DItv)]))),
    .state 1205 [],
    .call clearFlags,
    .call (do (Cmd.run (.opD [(⟨⟨(f 1 0), (f (-9007199254740991) (971))⟩, .com⟩ : DItv)])); (Cmd.run (.opD [(if !(⟨⟨(f 1 0), (f (-9007199254740991) (971))⟩, .com⟩ : DItv).isValid || (⟨⟨(f 1 0), (f (-9007199254740991) (971))⟩, .com⟩ : DItv).isNai then DItv.nai else Fmt.convertHullD binary32 (Fmt.recipD binary64 (Fmt.convertHullD binary64 (⟨⟨(f 1 0), (f (-9007199254740991) (971))⟩, .com⟩ : DItv))) : DItv)]))),
    .state 1209 [.invalidOperand],
    .call clearFlags,
    .call (setCwd (bitsOf [.invalidOperand])),
    .throws 1212 ((Cmd.run (.opD [(⟨⟨(f 3 0), (f (-4) (0))⟩, .com⟩ : DItv)]))) .invalidOperand,
    .state 1213 [.invalidOperand],
    .call clearFlags,
    .call (setCwd (bitsOf []))] ExSt.init = [] := by
  decide +kernel

/-- `minimal_sqr_test` -/
example : failed [
    .call (do (Cmd.run (.op [(Itv.empty : Itv)])); (Cmd.run (.op [(Fmt.sqrI binary64 (Itv.empty : Itv) : Itv)]))),
    .call ((Cmd.run (.op [(Itv.entire : Itv)]))),
    .call ((Cmd.run (.op [(⟨.ninf, (f (-1) (-1022))⟩ : Itv)]))),
    .call ((Cmd.run (.op [(⟨(f (-1) (0)), (f 1 0)⟩ : Itv)]))),
    .call ((Cmd.run (.op [(⟨(f 0 0), (f 1 0)⟩ : Itv)]))),
    .call ((Cmd.run (.op [(⟨.nzero, (f 1 0)⟩ : Itv)]))),
    .call ((Cmd.run (.op [(⟨(f (-5) (0)), (f 3 0)⟩ : Itv)]))),
    .call ((Cmd.run (.op [(⟨(f (-5) (0)), (f 0 0)⟩ : Itv)]))),
    .call ((Cmd.run (.op [(⟨(f (-5) (0)), .nzero⟩ : Itv)]))),
    .call ((Cmd.run (.op [(⟨(f (3602879701896397) (-55)), (f (3602879701896397) (-55))⟩ : Itv)]))),
    .call ((Cmd.run (.op [(⟨(f (-562949953421311) (-48)), (f (3602879701896397) (-55))⟩ : Itv)]))),
    .call ((Cmd.run (.op [(⟨(f (-562949953421311) (-48)), (f (-562949953421311) (-48))⟩ : Itv)]))),
    .state 1237 [],
    .call clearFlags,
    .call (do (Cmd.run (.op [(⟨(f 1 0), (f (-9007199254740991) (971))⟩ : Itv)])); (Cmd.run (.op [(Fmt.sqrI binary64 (⟨(f 1 0), (f (-9007199254740991) (971))⟩ : Itv) : Itv)]))),
    .state 1241 [.invalidOperand],
    .call clearFlags,
    .call (setCwd (bitsOf [.invalidOperand])),
    .throws 1244 ((Cmd.run (.op [(⟨(f 3 0), (f (-4) (0))⟩ : Itv)]))) .invalidOperand,
    .state 1245 [.invalidOperand],
    .call clearFlags,
    .call (setCwd (bitsOf []))] ExSt.init = [] := by
  decide +kernel

/-- `minimal_sqr_mixedtype_test` -/
example : failed [
    .call ((Cmd.run (.op [(⟨.ninf, (f (-1) (-126))⟩ : Itv)]))),
    .call ((Cmd.run (.op [(⟨(f (-1) (0)), (f 1 0)⟩ : Itv)]))),
    .call ((Cmd.run (.op [(⟨(f (-562949953421311) (-48)), (f (3602879701896397) (-55))⟩ : Itv)]))),
    .state 1256 [],
    .call clearFlags,
    .call (do (Cmd.run (.op [(⟨(f 1 0), (f (-9007199254740991) (971))⟩ : Itv)])); (Cmd.run (.op [(if !(⟨(f 1 0), (f (-9007199254740991) (971))⟩ : Itv).isValid then Itv.empty else Fmt.convertHull binary32 (Fmt.sqrI binary64 (Fmt.convertHull binary64 (⟨(f 1 0), (f (-9007199254740991) (971))⟩ : Itv))) : Itv)]))),
    .state 1260 [.invalidOperand],
    .call clearFlags,
    .call (setCwd (bitsOf [.invalidOperand])),
    .throws 1263 ((Cmd.run (.op [(⟨(f 3 0), (f (-4) (0))⟩ : Itv)]))) .invalidOperand,
    .state 1264 [.invalidOperand],
    .call clearFlags,
    .call (setCwd (bitsOf []))] ExSt.init = [] := by
  decide +kernel

/-- `minimal_sqr_dec_test` -/
example : failed [
    .call ((Cmd.run (.opD [(⟨⟨(f (-9007199254740991) (971)), (f (-1) (-1022))⟩, .com⟩ : DItv)]))),
    .call ((Cmd.run (.opD [(⟨⟨(f (-1) (0)), (f 1 0)⟩, .defd⟩ : DItv)]))),
    .call ((Cmd.run (.opD [(⟨⟨(f (-5) (0)), (f 3 0)⟩, .com⟩ : DItv)]))),
    .call ((Cmd.run (.opD [(⟨⟨(f (3602879701896397) (-55)), (f (3602879701896397) (-55))⟩, .com⟩ : DItv)]))),
    .state 1277 [],
    .call clearFlags,
    .call (do (Cmd.run (.opD [(⟨⟨(f 1 0), (f (-9007199254740991) (971))⟩, .com⟩ : DItv)])); (Cmd.run (.opD [(Fmt.sqrD binary64 (⟨⟨(f 1 0), (f (-9007199254740991) (971))⟩, .com⟩ : DItv) : DItv)]))),
    .state 1281 [.invalidOperand],
    .call clearFlags,
    .call (setCwd (bitsOf [.invalidOperand])),
    .throws 1284 ((Cmd.run (.opD [(⟨⟨(f 3 0), (f (-4) (0))⟩, .com⟩ : DItv)]))) .invalidOperand,
    .state 1285 [.invalidOperand],
    .call clearFlags,
    .call (setCwd (bitsOf []))] ExSt.init = [] := by
  decide +kernel

/-- `minimal_sqr_dec_mixedtype_test` -/
example : failed [
    .call ((Cmd.run (.opD [(⟨⟨(f (-16777215) (104)), (f (-1) (-126))⟩, .com⟩ : DItv)]))),
    .call ((Cmd.run (.opD [(⟨⟨(f (-562949953421311) (-48)), (f (3602879701896397) (-55))⟩, .com⟩ : DItv)]))),
    .call ((Cmd.run (.opD [(⟨⟨(f (-9007199254740991) (971)), (f (-1) (-1022))⟩, .com⟩ : DItv)]))),
    .state 1297 [],
    .call clearFlags,
    .call (do (Cmd.run (.opD [(⟨⟨(f 1 0), (f (-9007199254740991) (971))⟩, .com⟩ : DItv)])); (Cmd.run (.opD [(if !(⟨⟨(f 1 0), (f (-9007199254740991) (971))⟩, .com⟩ : DItv).isValid || (⟨⟨(f 1 0), (f (-9007199254740991) (971))⟩, .com⟩ : DItv).isNai then DItv.nai else Fmt.convertHullD binary32 (Fmt.sqrD binary64 (Fmt.convertHullD binary64 (⟨⟨(f 1 0), (f (-9007199254740991) (971))⟩, .com⟩ : DItv))) : DItv)]))),
    .state 1301 [.invalidOperand],
    .call clearFlags,
    .call (setCwd (bitsOf [.invalidOperand])),
    .throws 1304 ((Cmd.run (.opD [(⟨⟨(f 3 0), (f (-4) (0))⟩, .com⟩ : DItv)]))) .invalidOperand,
    .state 1305 [.invalidOperand],
    .call clearFlags,
    .call (setCwd (bitsOf []))] ExSt.init = [] := by
  decide +kernel

/-- `minimal_sqrt_test` -/
example : failed [
    .call (do (Cmd.run (.op [(Itv.empty : Itv)])); (Cmd.run (.op [(Itv.empty : Itv)]))),
    .call ((Cmd.run (.op [(Itv.entire : Itv)]))),
    .call (do (Cmd.run (.op [(⟨.ninf, (f (-1) (-1022))⟩ : Itv)])); (Cmd.run (.op [(Itv.empty : Itv)]))),
    .call ((Cmd.run (.op [(⟨(f (-1) (0)), (f 1 0)⟩ : Itv)]))),
    .call ((Cmd.run (.op [(⟨(f 0 0), (f 1 0)⟩ : Itv)]))),
    .call ((Cmd.run (.op [(⟨.nzero, (f 1 0)⟩ : Itv)]))),
    .call ((Cmd.run (.op [(⟨(f (-5) (0)), (f 25 0)⟩ : Itv)]))),
    .call ((Cmd.run (.op [(⟨(f 0 0), (f 25 0)⟩ : Itv)]))),
    .call ((Cmd.run (.op [(⟨.nzero, (f 25 0)⟩ : Itv)]))),
    .call ((Cmd.run (.op [(⟨(f (-5) (0)), .pinf⟩ : Itv)]))),
    .call ((Cmd.run (.op [(⟨(f (3602879701896397) (-55)), (f (3602879701896397) (-55))⟩ : Itv)]))),
    .call ((Cmd.run (.op [(⟨(f (-562949953421311) (-48)), (f (3602879701896397) (-55))⟩ : Itv)]))),
    .call ((Cmd.run (.op [(⟨(f (3602879701896397) (-55)), (f (562949953421311) (-48))⟩ : Itv)]))),
    .state 1329 [],
    .call clearFlags,
    .call (do (Cmd.run (.op [(⟨(f 1 0), (f (-9007199254740991) (971))⟩ : Itv)])); (Cmd.run (.op [(Itv.empty : Itv)]))),
    .state 1333 [.invalidOperand],
    .call clearFlags,
    .call (setCwd (bitsOf [.invalidOperand])),
    .throws 1336 ((Cmd.run (.op [(⟨(f 3 0), (f (-4) (0))⟩ : Itv)]))) .invalidOperand,
    .state 1337 [.invalidOperand],
    .call clearFlags,
    .call (setCwd (bitsOf []))] ExSt.init = [] := by
  decide +kernel

/-- `minimal_sqrt_mixedtype_test` -/
example : failed [
    .call ((Cmd.run (.op [(⟨(f (3602879701896397) (-55)), (f (3602879701896397) (-55))⟩ : Itv)]))),
    .call ((Cmd.run (.op [(⟨(f (-2) (0)), (f (13421773) (-27))⟩ : Itv)]))),
    .state 1347 [],
    .call clearFlags,
    .call (do (Cmd.run (.op [(⟨(f 1 0), (f (-9007199254740991) (971))⟩ : Itv)])); (Cmd.run (.op [(Itv.empty : Itv)]))),
    .state 1351 [.invalidOperand],
    .call clearFlags,
    .call (setCwd (bitsOf [.invalidOperand])),
    .throws 1354 ((Cmd.run (.op [(⟨(f 3 0), (f (-4) (0))⟩ : Itv)]))) .invalidOperand,
    .state 1355 [.invalidOperand],
    .call clearFlags,
    .call (setCwd (bitsOf []))] ExSt.init = [] := by
  decide +kernel

/-- `minimal_sqrt_dec_test` -/
example : failed [
    .call ((Cmd.run (.opD [(⟨⟨(f 1 0), (f 4 0)⟩, .com⟩ : DItv)]))),
    .call ((Cmd.run (.opD [(⟨⟨(f (-5) (0)), (f 25 0)⟩, .com⟩ : DItv)]))),
    .call ((Cmd.run (.opD [(⟨⟨(f 0 0), (f 25 0)⟩, .defd⟩ : DItv)]))),
    .call ((Cmd.run (.opD [(⟨⟨(f (-5) (0)), .pinf⟩, .dac⟩ : DItv)]))),
    .state 1368 [],
    .call clearFlags,
    .call (do (Cmd.run (.opD [(⟨⟨(f 1 0), (f (-9007199254740991) (971))⟩, .com⟩ : DItv)])); (Cmd.run (.opD [(DItv.empty : DItv)]))),
    .state 1372 [.invalidOperand],
    .call clearFlags,
    .call (setCwd (bitsOf [.invalidOperand])),
    .throws 1375 ((Cmd.run (.opD [(⟨⟨(f 3 0), (f (-4) (0))⟩, .com⟩ : DItv)]))) .invalidOperand,
    .state 1376 [.invalidOperand],
    .call clearFlags,
    .call (setCwd (bitsOf []))] ExSt.init = [] := by
  decide +kernel

/-- `minimal_sqrt_dec_mixedtype_test` -/
example : failed [
    .call ((Cmd.run (.opD [(⟨⟨(f (3602879701896397) (-55)), (f (3602879701896397) (-55))⟩, .com⟩ : DItv)]))),
    .call ((Cmd.run (.opD [(⟨⟨(f (-2) (0)), (f (13421773) (-27))⟩, .com⟩ : DItv)]))),
    .call ((Cmd.run (.opD [(⟨⟨(f (-5) (0)), .pinf⟩, .dac⟩ : DItv)]))),
    .state 1387 [],
    .call clearFlags,
    .call (do (Cmd.run (.opD [(⟨⟨(f 1 0), (f (-9007199254740991) (971))⟩, .com⟩ : DItv)])); (Cmd.run (.opD [(DItv.empty : DItv)]))),
    .state 1391 [.invalidOperand],
    .call clearFlags,
    .call (setCwd (bitsOf [.invalidOperand])),
    .throws 1394 ((Cmd.run (.opD [(⟨⟨(f 3 0), (f (-4) (0))⟩, .com⟩ : DItv)]))) .invalidOperand,
    .state 1395 [.invalidOperand],
    .call clearFlags,
    .call (setCwd (bitsOf []))] ExSt.init = [] := by
  decide +kernel

/-- `minimal_fma_test` -/
example : failed [
    .call (do (Cmd.run (.op [(Itv.empty : Itv), (Itv.empty : Itv), (Itv.empty : Itv)])); (Cmd.run (.op [(Fmt.fmaI binary64 (Itv.empty : Itv) (Itv.empty : Itv) (Itv.empty : Itv) : Itv)]))),
    .call (do (Cmd.run (.op [(⟨(f (-1) (0)), (f 1 0)⟩ : Itv), (Itv.empty : Itv), (Itv.empty : Itv)])); (Cmd.run (.op [(Fmt.fmaI binary64 (⟨(f (-1) (0)), (f 1 0)⟩ : Itv) (Itv.empty : Itv) (Itv.empty : Itv) : Itv)]))),
    .call (do (Cmd.run (.op [(Itv.empty : Itv), (⟨(f (-1) (0)), (f 1 0)⟩ : Itv), (Itv.empty : Itv)])); (Cmd.run (.op [(Fmt.fmaI binary64 (Itv.empty : Itv) (⟨(f (-1) (0)), (f 1 0)⟩ : Itv) (Itv.empty : Itv) : Itv)]))),
    .call (do (Cmd.run (.op [(Itv.empty : Itv), (Itv.entire : Itv), (Itv.empty : Itv)])); (Cmd.run (.op [(Fmt.fmaI binary64 (Itv.empty : Itv) (Itv.entire : Itv) (Itv.empty : Itv) : Itv)]))),
    .call (do (Cmd.run (.op [(Itv.entire : Itv), (Itv.empty : Itv), (Itv.empty : Itv)])); (Cmd.run (.op [(Fmt.fmaI binary64 (Itv.entire : Itv) (Itv.empty : Itv) (Itv.empty : Itv) : Itv)]))),
    .call (do (Cmd.run (.op [(⟨(f 0 0), (f 0 0)⟩ : Itv), (Itv.empty : Itv), (Itv.empty : Itv)])); (Cmd.run (.op [(Fmt.fmaI binary64 (⟨(f 0 0), (f 0 0)⟩ : Itv) (Itv.empty : Itv) (Itv.empty : Itv) : Itv)]))),
    .call (do (Cmd.run (.op [(⟨.nzero, .nzero⟩ : Itv), (Itv.empty : Itv), (Itv.empty : Itv)])); (Cmd.run (.op [(Fmt.fmaI binary64 (⟨.nzero, .nzero⟩ : Itv) (Itv.empty : Itv) (Itv.empty : Itv) : Itv)]))),
    .call (do (Cmd.run (.op [(Itv.empty : Itv), (⟨(f 0 0), (f 0 0)⟩ : Itv), (Itv.empty : Itv)])); (Cmd.run (.op [(Fmt.fmaI binary64 (Itv.empty : Itv) (⟨(f 0 0), (f 0 0)⟩ : Itv) (Itv.empty : Itv) : Itv)]))),
    .call (do (Cmd.run (.op [(Itv.empty : Itv), (⟨.nzero, .nzero⟩ : Itv), (Itv.empty : Itv)])); (Cmd.run (.op [(Fmt.fmaI binary64 (Itv.empty : Itv) (⟨.nzero, .nzero⟩ : Itv) (Itv.empty : Itv) : Itv)]))),
    .call (do (Cmd.run (.op [(Itv.entire : Itv), (⟨(f 0 0), (f 0 0)⟩ : Itv), (Itv.empty : Itv)])); (Cmd.run (.op [(Fmt.fmaI binary64 (Itv.entire : Itv) (⟨(f 0 0), (f 0 0)⟩ : Itv) (Itv.empty : Itv) : Itv)]))),
    .call (do (Cmd.run (.op [(Itv.entire : Itv), (⟨.nzero, .nzero⟩ : Itv), (Itv.empty : Itv)])); (Cmd.run (.op [(Fmt.fmaI binary64 (Itv.entire : Itv) (⟨.nzero, .nzero⟩ : Itv) (Itv.empty : Itv) : Itv)]))),
    .call (do (Cmd.run (.op [(Itv.entire : Itv), (⟨(f (-5) (0)), (f (-1) (0))⟩ : Itv), (Itv.empty : Itv)])); (Cmd.run (.op [(Fmt.fmaI binary64 (Itv.entire : Itv) (⟨(f (-5) (0)), (f (-1) (0))⟩ : Itv) (Itv.empty : Itv) : Itv)]))),
    .call (do (Cmd.run (.op [(Itv.entire : Itv), (⟨(f (-5) (0)), (f 3 0)⟩ : Itv), (Itv.empty : Itv)])); (Cmd.run (.op [(Fmt.fmaI binary64 (Itv.entire : Itv) (⟨(f (-5) (0)), (f 3 0)⟩ : Itv) (Itv.empty : Itv) : Itv)]))),
    .call (do (Cmd.run (.op [(Itv.entire : Itv), (⟨(f 1 0), (f 3 0)⟩ : Itv), (Itv.empty : Itv)])); (Cmd.run (.op [(Fmt.fmaI binary64 (Itv.entire : Itv) (⟨(f 1 0), (f 3 0)⟩ : Itv) (Itv.empty : Itv) : Itv)]))),
    .call (do (Cmd.run (.op [(Itv.entire : Itv), (⟨.ninf, (f (-1) (0))⟩ : Itv), (Itv.empty : Itv)])); (Cmd.run (.op [(Fmt.fmaI binary64 (Itv.entire : Itv) (⟨.ninf, (f (-1) (0))⟩ : Itv) (Itv.empty : Itv) : Itv)]))),
    .call (do (Cmd.run (.op [(Itv.entire : Itv), (⟨.ninf, (f 3 0)⟩ : Itv), (Itv.empty : Itv)])); (Cmd.run (.op [(Fmt.fmaI binary64 (Itv.entire : Itv) (⟨.ninf, (f 3 0)⟩ : Itv) (Itv.empty : Itv) : Itv)]))),
    .call (do (Cmd.run (.op [(Itv.entire : Itv), (⟨(f (-5) (0)), .pinf⟩ : Itv), (Itv.empty : Itv)])); (Cmd.run (.op [(Fmt.fmaI binary64 (Itv.entire : Itv) (⟨(f (-5) (0)), .pinf⟩ : Itv) (Itv.empty : Itv) : Itv)]))),
    .call (do (Cmd.run (.op [(Itv.entire : Itv), (⟨(f 1 0), .pinf⟩ : Itv), (Itv.empty : Itv)])); (Cmd.run (.op [(Fmt.fmaI binary64 (Itv.entire : Itv) (⟨(f 1 0), .pinf⟩ : Itv) (Itv.empty : Itv) : Itv)]))),
    .call (do (Cmd.run (.op [(Itv.entire : Itv), (Itv.entire : Itv), (Itv.empty : Itv)])); (Cmd.run (.op [(Fmt.fmaI binary64 (Itv.entire : Itv) (Itv.entire : Itv) (Itv.empty : Itv) : Itv)]))),
    .call (do (Cmd.run (.op [(⟨(f 1 0), .pinf⟩ : Itv), (⟨(f 0 0), (f 0 0)⟩ : Itv), (Itv.empty : Itv)])); (Cmd.run (.op [(Fmt.fmaI binary64 (⟨(f 1 0), .pinf⟩ : Itv) (⟨(f 0 0), (f 0 0)⟩ : Itv) (Itv.empty : Itv) : Itv)]))),
    .call (do (Cmd.run (.op [(⟨(f 1 0), .pinf⟩ : Itv), (⟨.nzero, .nzero⟩ : Itv), (Itv.empty : Itv)])); (Cmd.run (.op [(Fmt.fmaI binary64 (⟨(f 1 0), .pinf⟩ : Itv) (⟨.nzero, .nzero⟩ : Itv) (Itv.empty : Itv) : Itv)]))),
    .call (do (Cmd.run (.op [(⟨(f 1 0), .pinf⟩ : Itv), (⟨(f (-5) (0)), (f (-1) (0))⟩ : Itv), (Itv.empty : Itv)])); (Cmd.run (.op [(Fmt.fmaI binary64 (⟨(f 1 0), .pinf⟩ : Itv) (⟨(f (-5) (0)), (f (-1) (0))⟩ : Itv) (Itv.empty : Itv) : Itv)]))),
    .call (do (Cmd.run (.op [(⟨(f 1 0), .pinf⟩ : Itv), (⟨(f (-5) (0)), (f 3 0)⟩ : Itv), (Itv.empty : Itv)])); (Cmd.run (.op [(Fmt.fmaI binary64 (⟨(f 1 0), .pinf⟩ : Itv) (⟨(f (-5) (0)), (f 3 0)⟩ : Itv) (Itv.empty : Itv) : Itv)]))),
    .call (do (Cmd.run (.op [(⟨(f 1 0), .pinf⟩ : Itv), (⟨(f 1 0), (f 3 0)⟩ : Itv), (Itv.empty : Itv)])); (Cmd.run (.op [(Fmt.fmaI binary64 (⟨(f 1 0), .pinf⟩ : Itv) (⟨(f 1 0), (f 3 0)⟩ : Itv) (Itv.empty : Itv) : Itv)]))),
    .call (do (Cmd.run (.op [(⟨(f 1 0), .pinf⟩ : Itv), (⟨.ninf, (f (-1) (0))⟩ : Itv), (Itv.empty : Itv)])); (Cmd.run (.op [(Fmt.fmaI binary64 (⟨(f 1 0), .pinf⟩ : Itv) (⟨.ninf, (f (-1) (0))⟩ : Itv) (Itv.empty : Itv) : Itv)]))),
    .call (do (Cmd.run (.op [(⟨(f 1 0), .pinf⟩ : Itv), (⟨.ninf, (f 3 0)⟩ : Itv), (Itv.empty : Itv)])); (Cmd.run (.op [(Fmt.fmaI binary64 (⟨(f 1 0), .pinf⟩ : Itv) (⟨.ninf, (f 3 0)⟩ : Itv) (Itv.empty : Itv) : Itv)]))),
    .call (do (Cmd.run (.op [(⟨(f 1 0), .pinf⟩ : Itv), (⟨(f (-5) (0)), .pinf⟩ : Itv), (Itv.empty : Itv)])); (Cmd.run (.op [(Fmt.fmaI binary64 (⟨(f 1 0), .pinf⟩ : Itv) (⟨(f (-5) (0)), .pinf⟩ : Itv) (Itv.empty : Itv) : Itv)]))),
    .call (do (Cmd.run (.op [(⟨(f 1 0), .pinf⟩ : Itv), (⟨(f 1 0), .pinf⟩ : Itv), (Itv.empty : Itv)])); (Cmd.run (.op [(Fmt.fmaI binary64 (⟨(f 1 0), .pinf⟩ : Itv) (⟨(f 1 0), .pinf⟩ : Itv) (Itv.empty : Itv) : Itv)]))),
    .call (do (Cmd.run (.op [(⟨(f 1 0), .pinf⟩ : Itv), (Itv.entire : Itv), (Itv.empty : Itv)])); (Cmd.run (.op [(Fmt.fmaI binary64 (⟨(f 1 0), .pinf⟩ : Itv) (Itv.entire : Itv) (Itv.empty : Itv) : Itv)]))),
    .call (do (Cmd.run (.op [(⟨(f (-1) (0)), .pinf⟩ : Itv), (⟨(f 0 0), (f 0 0)⟩ : Itv), (Itv.empty : Itv)])); (Cmd.run (.op [(Fmt.fmaI binary64 (⟨(f (-1) (0)), .pinf⟩ : Itv) (⟨(f 0 0), (f 0 0)⟩ : Itv) (Itv.empty : Itv) : Itv)]))),
    .call (do (Cmd.run (.op [(⟨(f (-1) (0)), .pinf⟩ : Itv), (⟨.nzero, .nzero⟩ : Itv), (Itv.empty : Itv)])); (Cmd.run (.op [(Fmt.fmaI binary64 (⟨(f (-1) (0)), .pinf⟩ : Itv) (⟨.nzero, .nzero⟩ : Itv) (Itv.empty : Itv) : Itv)]))),
    .call (do (Cmd.run (.op [(⟨(f (-1) (0)), .pinf⟩ : Itv), (⟨(f (-5) (0)), (f (-1) (0))⟩ : Itv), (Itv.empty : Itv)])); (Cmd.run (.op [(Fmt.fmaI binary64 (⟨(f (-1) (0)), .pinf⟩ : Itv) (⟨(f (-5) (0)), (f (-1) (0))⟩ : Itv) (Itv.empty : Itv) : Itv)]))),
    .call (do (Cmd.run (.op [(⟨(f (-1) (0)), .pinf⟩ : Itv), (⟨(f (-5) (0)), (f 3 0)⟩ : Itv), (Itv.empty : Itv)])); (Cmd.run (.op [(Fmt.fmaI binary64 (⟨(f (-1) (0)), .pinf⟩ : Itv) (⟨(f (-5) (0)), (f 3 0)⟩ : Itv) (Itv.empty : Itv) : Itv)]))),
    .call (do (Cmd.run (.op [(⟨(f (-1) (0)), .pinf⟩ : Itv), (⟨(f 1 0), (f 3 0)⟩ : Itv), (Itv.empty : Itv)])); (Cmd.run (.op [(Fmt.fmaI binary64 (⟨(f (-1) (0)), .pinf⟩ : Itv) (⟨(f 1 0), (f 3 0)⟩ : Itv) (Itv.empty : Itv) : Itv)]))),
    .call (do (Cmd.run (.op [(⟨(f (-1) (0)), .pinf⟩ : Itv), (⟨.ninf, (f (-1) (0))⟩ : Itv), (Itv.empty : Itv)])); (Cmd.run (.op [(Fmt.fmaI binary64 (⟨(f (-1) (0)), .pinf⟩ : Itv) (⟨.ninf, (f (-1) (0))⟩ : Itv) (Itv.empty : Itv) : Itv)]))),
    .call (do (Cmd.run (.op [(⟨(f (-1) (0)), .pinf⟩ : Itv), (⟨.ninf, (f 3 0)⟩ : Itv), (Itv.empty : Itv)])); (Cmd.run (.op [(Fmt.fmaI binary64 (⟨(f (-1) (0)), .pinf⟩ : Itv) (⟨.ninf, (f 3 0)⟩ : Itv) (Itv.empty : Itv) : Itv)]))),
    .call (do (Cmd.run (.op [(⟨(f (-1) (0)), .pinf⟩ : Itv), (⟨(f (-5) (0)), .pinf⟩ : Itv), (Itv.empty : Itv)])); (Cmd.run (.op [(Fmt.fmaI binary64 (⟨(f (-1) (0)), .pinf⟩ : Itv) (⟨(f (-5) (0)), .pinf⟩ : Itv) (Itv.empty : Itv) : Itv)]))),
    .call (do (Cmd.run (.op [(⟨(f (-1) (0)), .pinf⟩ : Itv), (⟨(f 1 0), .pinf⟩ : Itv), (Itv.empty : Itv)])); (Cmd.run (.op [(Fmt.fmaI binary64 (⟨(f (-1) (0)), .pinf⟩ : Itv) (⟨(f 1 0), .pinf⟩ : Itv) (Itv.empty : Itv) : Itv)]))),
    .call (do (Cmd.run (.op [(⟨(f (-1) (0)), .pinf⟩ : Itv), (Itv.entire : Itv), (Itv.empty : Itv)])); (Cmd.run (.op [(Fmt.fmaI binary64 (⟨(f (-1) (0)), .pinf⟩ : Itv) (Itv.entire : Itv) (Itv.empty : Itv) : Itv)]))),
    .call (do (Cmd.run (.op [(⟨.ninf, (f 3 0)⟩ : Itv), (⟨(f 0 0), (f 0 0)⟩ : Itv), (Itv.empty : Itv)])); (Cmd.run (.op [(Fmt.fmaI binary64 (⟨.ninf, (f 3 0)⟩ : Itv) (⟨(f 0 0), (f 0 0)⟩ : Itv) (Itv.empty : Itv) : Itv)]))),
    .call (do (Cmd.run (.op [(⟨.ninf, (f 3 0)⟩ : Itv), (⟨.nzero, .nzero⟩ : Itv), (Itv.empty : Itv)])); (Cmd.run (.op [(Fmt.fmaI binary64 (⟨.ninf, (f 3 0)⟩ : Itv) (⟨.nzero, .nzero⟩ : Itv) (Itv.empty : Itv) : Itv)]))),
    .call (do (Cmd.run (.op [(⟨.ninf, (f 3 0)⟩ : Itv), (⟨(f (-5) (0)), (f (-1) (0))⟩ : Itv), (Itv.empty : Itv)])); (Cmd.run (.op [(Fmt.fmaI binary64 (⟨.ninf, (f 3 0)⟩ : Itv) (⟨(f (-5) (0)), (f (-1) (0))⟩ : Itv) (Itv.empty : Itv) : Itv)]))),
    .call (do (Cmd.run (.op [(⟨.ninf, (f 3 0)⟩ : Itv), (⟨(f (-5) (0)), (f 3 0)⟩ : Itv), (Itv.empty : Itv)])); (Cmd.run (.op [(Fmt.fmaI binary64 (⟨.ninf, (f 3 0)⟩ : Itv) (⟨(f (-5) (0)), (f 3 0)⟩ : Itv) (Itv.empty : Itv) : Itv)]))),
    .call (do (Cmd.run (.op [(⟨.ninf, (f 3 0)⟩ : Itv), (⟨(f 1 0), (f 3 0)⟩ : Itv), (Itv.empty : Itv)])); (Cmd.run (.op [(Fmt.fmaI binary64 (⟨.ninf, (f 3 0)⟩ : Itv) (⟨(f 1 0), (f 3 0)⟩ : Itv) (Itv.empty : Itv) : Itv)]))),
    .call (do (Cmd.run (.op [(⟨.ninf, (f 3 0)⟩ : Itv), (⟨.ninf, (f (-1) (0))⟩ : Itv), (Itv.empty : Itv)])); (Cmd.run (.op [(Fmt.fmaI binary64 (⟨.ninf, (f 3 0)⟩ : Itv) (⟨.ninf, (f (-1) (0))⟩ : Itv) (Itv.empty : Itv) : Itv)]))),
    .call (do (Cmd.run (.op [(⟨.ninf, (f 3 0)⟩ : Itv), (⟨.ninf, (f 3 0)⟩ : Itv), (Itv.empty : Itv)])); (Cmd.run (.op [(Fmt.fmaI binary64 (⟨.ninf, (f 3 0)⟩ : Itv) (⟨.ninf, (f 3 0)⟩ : Itv) (Itv.empty : Itv) : Itv)]))),
    .call (do (Cmd.run (.op [(⟨.ninf, (f 3 0)⟩ : Itv), (⟨(f (-5) (0)), .pinf⟩ : Itv), (Itv.empty : Itv)])); (Cmd.run (.op [(Fmt.fmaI binary64 (⟨.ninf, (f 3 0)⟩ : Itv) (⟨(f (-5) (0)), .pinf⟩ : Itv) (Itv.empty : Itv) : Itv)]))),
    .call (do (Cmd.run (.op [(⟨.ninf, (f 3 0)⟩ : Itv), (⟨(f 1 0), .pinf⟩ : Itv), (Itv.empty : Itv)])); (Cmd.run (.op [(Fmt.fmaI binary64 (⟨.ninf, (f 3 0)⟩ : Itv) (⟨(f 1 0), .pinf⟩ : Itv) (Itv.empty : Itv) : Itv)]))),
    .call (do (Cmd.run (.op [(⟨.ninf, (f 3 0)⟩ : Itv), (Itv.entire : Itv), (Itv.empty : Itv)])); (Cmd.run (.op [(Fmt.fmaI binary64 (⟨.ninf, (f 3 0)⟩ : Itv) (Itv.entire : Itv) (Itv.empty : Itv) : Itv)]))),
    .call (do (Cmd.run (.op [(⟨.ninf, (f (-3) (0))⟩ : Itv), (⟨(f 0 0), (f 0 0)⟩ : Itv), (Itv.empty : Itv)])); (Cmd.run (.op [(Fmt.fmaI binary64 (⟨.ninf, (f (-3) (0))⟩ : Itv) (⟨(f 0 0), (f 0 0)⟩ : Itv) (Itv.empty : Itv) : Itv)]))),
    .call (do (Cmd.run (.op [(⟨.ninf, (f (-3) (0))⟩ : Itv), (⟨.nzero, .nzero⟩ : Itv), (Itv.empty : Itv)])); (Cmd.run (.op [(Fmt.fmaI binary64 (⟨.ninf, (f (-3) (0))⟩ : Itv) (⟨.nzero, .nzero⟩ : Itv) (Itv.empty : Itv) : Itv)]))),
    .call (do (Cmd.run (.op [(⟨.ninf, (f (-3) (0))⟩ : Itv), (⟨(f (-5) (0)), (f (-1) (0))⟩ : Itv), (Itv.empty : Itv)])); (Cmd.run (.op [(Fmt.fmaI binary64 (⟨.ninf, (f (-3) (0))⟩ : Itv) (⟨(f (-5) (0)), (f (-1) (0))⟩ : Itv) (Itv.empty : Itv) : Itv)]))),
    .call (do (Cmd.run (.op [(⟨.ninf, (f (-3) (0))⟩ : Itv), (⟨(f (-5) (0)), (f 3 0)⟩ : Itv), (Itv.empty : Itv)])); (Cmd.run (.op [(Fmt.fmaI binary64 (⟨.ninf, (f (-3) (0))⟩ : Itv) (⟨(f (-5) (0)), (f 3 0)⟩ : Itv) (Itv.empty : Itv) : Itv)]))),
    .call (do (Cmd.run (.op [(⟨.ninf, (f (-3) (0))⟩ : Itv), (⟨(f 1 0), (f 3 0)⟩ : Itv), (Itv.empty : Itv)])); (Cmd.run (.op [(Fmt.fmaI binary64 (⟨.ninf, (f (-3) (0))⟩ : Itv) (⟨(f 1 0), (f 3 0)⟩ : Itv) (Itv.empty : Itv) : Itv)]))),
    .call (do (Cmd.run (.op [(⟨.ninf, (f (-3) (0))⟩ : Itv), (⟨.ninf, (f (-1) (0))⟩ : Itv), (Itv.empty : Itv)])); (Cmd.run (.op [(Fmt.fmaI binary64 (⟨.ninf, (f (-3) (0))⟩ : Itv) (⟨.ninf, (f (-1) (0))⟩ : Itv) (Itv.empty : Itv) : Itv)]))),
    .call (do (Cmd.run (.op [(⟨.ninf, (f (-3) (0))⟩ : Itv), (⟨.ninf, (f 3 0)⟩ : Itv), (Itv.empty : Itv)])); (Cmd.run (.op [(Fmt.fmaI binary64 (⟨.ninf, (f (-3) (0))⟩ : Itv) (⟨.ninf, (f 3 0)⟩ : Itv) (Itv.empty : Itv) : Itv)]))),
    .call (do (Cmd.run (.op [(⟨.ninf, (f (-3) (0))⟩ : Itv), (⟨(f (-5) (0)), .pinf⟩ : Itv), (Itv.empty : Itv)])); (Cmd.run (.op [(Fmt.fmaI binary64 (⟨.ninf, (f (-3) (0))⟩ : Itv) (⟨(f (-5) (0)), .pinf⟩ : Itv) (Itv.empty : Itv) : Itv)]))),
    .call (do (Cmd.run (.op [(⟨.ninf, (f (-3) (0))⟩ : Itv), (⟨(f 1 0), .pinf⟩ : Itv), (Itv.empty : Itv)])); (Cmd.run (.op [(Fmt.fmaI binary64 (⟨.ninf, (f (-3) (0))⟩ : Itv) (⟨(f 1 0), .pinf⟩ : Itv) (Itv.empty : Itv) : Itv)]))),
    .call (do (Cmd.run (.op [(⟨.ninf, (f (-3) (0))⟩ : Itv), (Itv.entire : Itv), (Itv.empty : Itv)])); (Cmd.run (.op [(Fmt.fmaI binary64 (⟨.ninf, (f (-3) (0))⟩ : Itv) (Itv.entire : Itv) (Itv.empty : Itv) : Itv)]))),
    .call (do (Cmd.run (.op [(⟨(f 0 0), (f 0 0)⟩ : Itv), (⟨(f 0 0), (f 0 0)⟩ : Itv), (Itv.empty : Itv)])); (Cmd.run (.op [(Fmt.fmaI binary64 (⟨(f 0 0), (f 0 0)⟩ : Itv) (⟨(f 0 0), (f 0 0)⟩ : Itv) (Itv.empty : Itv) : Itv)]))),
    .call (do (Cmd.run (.op [(⟨(f 0 0), (f 0 0)⟩ : Itv), (⟨.nzero, .nzero⟩ : Itv), (Itv.empty : Itv)])); (Cmd.run (.op [(Fmt.fmaI binary64 (⟨(f 0 0), (f 0 0)⟩ : Itv) (⟨.nzero, .nzero⟩ : Itv) (Itv.empty : Itv) : Itv)]))),
    .call (do (Cmd.run (.op [(⟨(f 0 0), (f 0 0)⟩ : Itv), (⟨(f (-5) (0)), (f (-1) (0))⟩ : Itv), (Itv.empty : Itv)])); (Cmd.run (.op [(Fmt.fmaI binary64 (⟨(f 0 0), (f 0 0)⟩ : Itv) (⟨(f (-5) (0)), (f (-1) (0))⟩ : Itv) (Itv.empty : Itv) : Itv)]))),
    .call (do (Cmd.run (.op [(⟨(f 0 0), (f 0 0)⟩ : Itv), (⟨(f (-5) (0)), (f 3 0)⟩ : Itv), (Itv.empty : Itv)])); (Cmd.run (.op [(Fmt.fmaI binary64 (⟨(f 0 0), (f 0 0)⟩ : Itv) (⟨(f (-5) (0)), (f 3 0)⟩ : Itv) (Itv.empty : Itv) : Itv)]))),
    .call (do (Cmd.run (.op [(⟨(f 0 0), (f 0 0)⟩ : Itv), (⟨(f 1 0), (f 3 0)⟩ : Itv), (Itv.empty : Itv)])); (Cmd.run (.op [(Fmt.fmaI binary64 (⟨(f 0 0), (f 0 0)⟩ : Itv) (⟨(f 1 0), (f 3 0)⟩ : Itv) (Itv.empty : Itv) : Itv)]))),
    .call (do (Cmd.run (.op [(⟨(f 0 0), (f 0 0)⟩ : Itv), (⟨.ninf, (f (-1) (0))⟩ : Itv), (Itv.empty : Itv)])); (Cmd.run (.op [(Fmt.fmaI binary64 (⟨(f 0 0), (f 0 0)⟩ : Itv) (⟨.ninf, (f (-1) (0))⟩ : Itv) (Itv.empty : Itv) : Itv)]))),
    .call (do (Cmd.run (.op [(⟨(f 0 0), (f 0 0)⟩ : Itv), (⟨.ninf, (f 3 0)⟩ : Itv), (Itv.empty : Itv)])); (Cmd.run (.op [(Fmt.fmaI binary64 (⟨(f 0 0), (f 0 0)⟩ : Itv) (⟨.ninf, (f 3 0)⟩ : Itv) (Itv.empty : Itv) : Itv)]))),
    .call (do (Cmd.run (.op [(⟨(f 0 0), (f 0 0)⟩ : Itv), (⟨(f (-5) (0)), .pinf⟩ : Itv), (Itv.empty : Itv)])); (Cmd.run (.op [(Fmt.fmaI binary64 (⟨(f 0 0), (f 0 0)⟩ : Itv) (⟨(f (-5) (0)), .pinf⟩ : Itv) (Itv.empty : Itv) : Itv)]))),
    .call (do (Cmd.run (.op [(⟨(f 0 0), (f 0 0)⟩ : Itv), (⟨(f 1 0), .pinf⟩ : Itv), (Itv.empty : Itv)])); (Cmd.run (.op [(Fmt.fmaI binary64 (⟨(f 0 0), (f 0 0)⟩ : Itv) (⟨(f 1 0), .pinf⟩ : Itv) (Itv.empty : Itv) : Itv)]))),
    .call (do (Cmd.run (.op [(⟨(f 0 0), (f 0 0)⟩ : Itv), (Itv.entire : Itv), (Itv.empty : Itv)])); (Cmd.run (.op [(Fmt.fmaI binary64 (⟨(f 0 0), (f 0 0)⟩ : Itv) (Itv.entire : Itv) (Itv.empty : Itv) : Itv)]))),
    .call (do (Cmd.run (.op [(⟨.nzero, .nzero⟩ : Itv), (⟨(f 0 0), (f 0 0)⟩ : Itv), (Itv.empty : Itv)])); (Cmd.run (.op [(Fmt.fmaI binary64 (⟨.nzero, .nzero⟩ : Itv) (⟨(f 0 0), (f 0 0)⟩ : Itv) (Itv.empty : Itv) : Itv)]))),
    .call (do (Cmd.run (.op [(⟨.nzero, .nzero⟩ : Itv), (⟨.nzero, .nzero⟩ : Itv), (Itv.empty : Itv)])); (Cmd.run (.op [(Fmt.fmaI binary64 (⟨.nzero, .nzero⟩ : Itv) (⟨.nzero, .nzero⟩ : Itv) (Itv.empty : Itv) : Itv)]))),
    .call (do (Cmd.run (.op [(⟨.nzero, .nzero⟩ : Itv), (⟨(f (-5) (0)), (f (-1) (0))⟩ : Itv), (Itv.empty : Itv)])); (Cmd.run (.op [(Fmt.fmaI binary64 (⟨.nzero, .nzero⟩ : Itv) (⟨(f (-5) (0)), (f (-1) (0))⟩ : Itv) (Itv.empty : Itv) : Itv)]))),
    .call (do (Cmd.run (.op [(⟨.nzero, .nzero⟩ : Itv), (⟨(f (-5) (0)), (f 3 0)⟩ : Itv), (Itv.empty : Itv)])); (Cmd.run (.op [(Fmt.fmaI binary64 (⟨.nzero, .nzero⟩ : Itv) (⟨(f (-5) (0)), (f 3 0)⟩ : Itv) (Itv.empty : Itv) : Itv)]))),
    .call (do (Cmd.run (.op [(⟨.nzero, .nzero⟩ : Itv), (⟨(f 1 0), (f 3 0)⟩ : Itv), (Itv.empty : Itv)])); (Cmd.run (.op [(Fmt.fmaI binary64 (⟨.nzero, .nzero⟩ : Itv) (⟨(f 1 0), (f 3 0)⟩ : Itv) (Itv.empty : Itv) : Itv)]))),
    .call (do (Cmd.run (.op [(⟨.nzero, .nzero⟩ : Itv), (⟨.ninf, (f (-1) (0))⟩ : Itv), (Itv.empty : Itv)])); (Cmd.run (.op [(Fmt.fmaI binary64 (⟨.nzero, .nzero⟩ : Itv) (⟨.ninf, (f (-1) (0))⟩ : Itv) (Itv.empty : Itv) : Itv)]))),
    .call (do (Cmd.run (.op [(⟨.nzero, .nzero⟩ : Itv), (⟨.ninf, (f 3 0)⟩ : Itv), (Itv.empty : Itv)])); (Cmd.run (.op [(Fmt.fmaI binary64 (⟨.nzero, .nzero⟩ : Itv) (⟨.ninf, (f 3 0)⟩ : Itv) (Itv.empty : Itv) : Itv)]))),
    .call (do (Cmd.run (.op [(⟨.nzero, .nzero⟩ : Itv), (⟨(f (-5) (0)), .pinf⟩ : Itv), (Itv.empty : Itv)])); (Cmd.run (.op [(Fmt.fmaI binary64 (⟨.nzero, .nzero⟩ : Itv) (⟨(f (-5) (0)), .pinf⟩ : Itv) (Itv.empty : Itv) : Itv)]))),
    .call (do (Cmd.run (.op [(⟨.nzero, .nzero⟩ : Itv), (⟨(f 1 0), .pinf⟩ : Itv), (Itv.empty : Itv)])); (Cmd.run (.op [(Fmt.fmaI binary64 (⟨.nzero, .nzero⟩ : Itv) (⟨(f 1 0), .pinf⟩ : Itv) (Itv.empty : Itv) : Itv)]))),
    .call (do (Cmd.run (.op [(⟨.nzero, .nzero⟩ : Itv), (Itv.entire : Itv), (Itv.empty : Itv)])); (Cmd.run (.op [(Fmt.fmaI binary64 (⟨.nzero, .nzero⟩ : Itv) (Itv.entire : Itv) (Itv.empty : Itv) : Itv)]))),
    .call (do (Cmd.run (.op [(⟨(f 1 0), (f 5 0)⟩ : Itv), (⟨(f 0 0), (f 0 0)⟩ : Itv), (Itv.empty : Itv)])); (Cmd.run (.op [(Fmt.fmaI binary64 (⟨(f 1 0), (f 5 0)⟩ : Itv) (⟨(f 0 0), (f 0 0)⟩ : Itv) (Itv.empty : Itv) : Itv)]))),
    .call (do (Cmd.run (.op [(⟨(f 1 0), (f 5 0)⟩ : Itv), (⟨.nzero, .nzero⟩ : Itv), (Itv.empty : Itv)])); (Cmd.run (.op [(Fmt.fmaI binary64 (⟨(f 1 0), (f 5 0)⟩ : Itv) (⟨.nzero, .nzero⟩ : Itv) (Itv.empty : Itv) : Itv)]))),
    .call (do (Cmd.run (.op [(⟨(f 1 0), (f 5 0)⟩ : Itv), (⟨(f (-5) (0)), (f (-1) (0))⟩ : Itv), (Itv.empty : Itv)])); (Cmd.run (.op [(Fmt.fmaI binary64 (⟨(f 1 0), (f 5 0)⟩ : Itv) (⟨(f (-5) (0)), (f (-1) (0))⟩ : Itv) (Itv.empty : Itv) : Itv)]))),
    .call (do (Cmd.run (.op [(⟨(f 1 0), (f 5 0)⟩ : Itv), (⟨(f (-5) (0)), (f 3 0)⟩ : Itv), (Itv.empty : Itv)])); (Cmd.run (.op [(Fmt.fmaI binary64 (⟨(f 1 0), (f 5 0)⟩ : Itv) (⟨(f (-5) (0)), (f 3 0)⟩ : Itv) (Itv.empty : Itv) : Itv)]))),
    .call (do (Cmd.run (.op [(⟨(f 1 0), (f 5 0)⟩ : Itv), (⟨(f 1 0), (f 3 0)⟩ : Itv), (Itv.empty : Itv)])); (Cmd.run (.op [(Fmt.fmaI binary64 (⟨(f 1 0), (f 5 0)⟩ : Itv) (⟨(f 1 0), (f 3 0)⟩ : Itv) (Itv.empty : Itv) : Itv)]))),
    .call (do (Cmd.run (.op [(⟨(f 1 0), (f 5 0)⟩ : Itv), (⟨.ninf, (f (-1) (0))⟩ : Itv), (Itv.empty : Itv)])); (Cmd.run (.op [(Fmt.fmaI binary64 (⟨(f 1 0), (f 5 0)⟩ : Itv) (⟨.ninf, (f (-1) (0))⟩ : Itv) (Itv.empty : Itv) : Itv)]))),
    .call (do (Cmd.run (.op [(⟨(f 1 0), (f 5 0)⟩ : Itv), (⟨.ninf, (f 3 0)⟩ : Itv), (Itv.empty : Itv)])); (Cmd.run (.op [(Fmt.fmaI binary64 (⟨(f 1 0), (f 5 0)⟩ : Itv) (⟨.ninf, (f 3 0)⟩ : Itv) (Itv.empty : Itv) : Itv)]))),
    .call (do (Cmd.run (.op [(⟨(f 1 0), (f 5 0)⟩ : Itv), (⟨(f (-5) (0)), .pinf⟩ : Itv), (Itv.empty : Itv)])); (Cmd.run (.op [(Fmt.fmaI binary64 (⟨(f 1 0), (f 5 0)⟩ : Itv) (⟨(f (-5) (0)), .pinf⟩ : Itv) (Itv.empty : Itv) : Itv)]))),
    .call (do (Cmd.run (.op [(⟨(f 1 0), (f 5 0)⟩ : Itv), (⟨(f 1 0), .pinf⟩ : Itv), (Itv.empty : Itv)])); (Cmd.run (.op [(Fmt.fmaI binary64 (⟨(f 1 0), (f 5 0)⟩ : Itv) (⟨(f 1 0), .pinf⟩ : Itv) (Itv.empty : Itv) : Itv)]))),
    .call (do (Cmd.run (.op [(⟨(f 1 0), (f 5 0)⟩ : Itv), (Itv.entire : Itv), (Itv.empty : Itv)])); (Cmd.run (.op [(Fmt.fmaI binary64 (⟨(f 1 0), (f 5 0)⟩ : Itv) (Itv.entire : Itv) (Itv.empty : Itv) : Itv)]))),
    .call (do (Cmd.run (.op [(⟨(f (-1) (0)), (f 5 0)⟩ : Itv), (⟨(f 0 0), (f 0 0)⟩ : Itv), (Itv.empty : Itv)])); (Cmd.run (.op [(Fmt.fmaI binary64 (⟨(f (-1) (0)), (f 5 0)⟩ : Itv) (⟨(f 0 0), (f 0 0)⟩ : Itv) (Itv.empty : Itv) : Itv)]))),
    .call (do (Cmd.run (.op [(⟨(f (-1) (0)), (f 5 0)⟩ : Itv), (⟨.nzero, .nzero⟩ : Itv), (Itv.empty : Itv)])); (Cmd.run (.op [(Fmt.fmaI binary64 (⟨(f (-1) (0)), (f 5 0)⟩ : Itv) (⟨.nzero, .nzero⟩ : Itv) (Itv.empty : Itv) : Itv)]))),
    .call (do (Cmd.run (.op [(⟨(f (-1) (0)), (f 5 0)⟩ : Itv), (⟨(f (-5) (0)), (f (-1) (0))⟩ : Itv), (Itv.empty : Itv)])); (Cmd.run (.op [(Fmt.fmaI binary64 (⟨(f (-1) (0)), (f 5 0)⟩ : Itv) (⟨(f (-5) (0)), (f (-1) (0))⟩ : Itv) (Itv.empty : Itv) : Itv)]))),
    .call (do (Cmd.run (.op [(⟨(f (-1) (0)), (f 5 0)⟩ : Itv), (⟨(f (-5) (0)), (f 3 0)⟩ : Itv), (Itv.empty : Itv)])); (Cmd.run (.op [(Fmt.fmaI binary64 (⟨(f (-1) (0)), (f 5 0)⟩ : Itv) (⟨(f (-5) (0)), (f 3 0)⟩ : Itv) (Itv.empty : Itv) : Itv)]))),
    .call (do (Cmd.run (.op [(⟨(f (-10) (0)), (f 2 0)⟩ : Itv), (⟨(f (-5) (0)), (f 3 0)⟩ : Itv), (Itv.empty : Itv)])); (Cmd.run (.op [(Fmt.fmaI binary64 (⟨(f (-10) (0)), (f 2 0)⟩ : Itv) (⟨(f (-5) (0)), (f 3 0)⟩ : Itv) (Itv.empty : Itv) : Itv)]))),
    .call (do (Cmd.run (.op [(⟨(f (-1) (0)), (f 5 0)⟩ : Itv), (⟨(f (-1) (0)), (f 10 0)⟩ : Itv), (Itv.empty : Itv)])); (Cmd.run (.op [(Fmt.fmaI binary64 (⟨(f (-1) (0)), (f 5 0)⟩ : Itv) (⟨(f (-1) (0)), (f 10 0)⟩ : Itv) (Itv.empty : Itv) : Itv)]))),
    .call (do (Cmd.run (.op [(⟨(f (-2) (0)), (f 2 0)⟩ : Itv), (⟨(f (-5) (0)), (f 3 0)⟩ : Itv), (Itv.empty : Itv)])); (Cmd.run (.op [(Fmt.fmaI binary64 (⟨(f (-2) (0)), (f 2 0)⟩ : Itv) (⟨(f (-5) (0)), (f 3 0)⟩ : Itv) (Itv.empty : Itv) : Itv)]))),
    .call (do (Cmd.run (.op [(⟨(f (-1) (0)), (f 5 0)⟩ : Itv), (⟨(f 1 0), (f 3 0)⟩ : Itv), (Itv.empty : Itv)])); (Cmd.run (.op [(Fmt.fmaI binary64 (⟨(f (-1) (0)), (f 5 0)⟩ : Itv) (⟨(f 1 0), (f 3 0)⟩ : Itv) (Itv.empty : Itv) : Itv)]))),
    .call (do (Cmd.run (.op [(⟨(f (-1) (0)), (f 5 0)⟩ : Itv), (⟨.ninf, (f (-1) (0))⟩ : Itv), (Itv.empty : Itv)])); (Cmd.run (.op [(Fmt.fmaI binary64 (⟨(f (-1) (0)), (f 5 0)⟩ : Itv) (⟨.ninf, (f (-1) (0))⟩ : Itv) (Itv.empty : Itv) : Itv)]))),
    .call (do (Cmd.run (.op [(⟨(f (-1) (0)), (f 5 0)⟩ : Itv), (⟨.ninf, (f 3 0)⟩ : Itv), (Itv.empty : Itv)])); (Cmd.run (.op [(Fmt.fmaI binary64 (⟨(f (-1) (0)), (f 5 0)⟩ : Itv) (⟨.ninf, (f 3 0)⟩ : Itv) (Itv.empty : Itv) : Itv)]))),
    .call (do (Cmd.run (.op [(⟨(f (-1) (0)), (f 5 0)⟩ : Itv), (⟨(f (-5) (0)), .pinf⟩ : Itv), (Itv.empty : Itv)])); (Cmd.run (.op [(Fmt.fmaI binary64 (⟨(f (-1) (0)), (f 5 0)⟩ : Itv) (⟨(f (-5) (0)), .pinf⟩ : Itv) (Itv.empty : Itv) : Itv)]))),
    .call (do (Cmd.run (.op [(⟨(f (-1) (0)), (f 5 0)⟩ : Itv), (⟨(f 1 0), .pinf⟩ : Itv), (Itv.empty : Itv)])); (Cmd.run (.op [(Fmt.fmaI binary64 (⟨(f (-1) (0)), (f 5 0)⟩ : Itv) (⟨(f 1 0), .pinf⟩ : Itv) (Itv.empty : Itv) : Itv)]))),
    .call (do (Cmd.run (.op [(⟨(f (-1) (0)), (f 5 0)⟩ : Itv), (Itv.entire : Itv), (Itv.empty : Itv)])); (Cmd.run (.op [(Fmt.fmaI binary64 (⟨(f (-1) (0)), (f 5 0)⟩ : Itv) (Itv.entire : Itv) (Itv.empty : Itv) : Itv)]))),
    .call (do (Cmd.run (.op [(⟨(f (-10) (0)), (f (-5) (0))⟩ : Itv), (⟨(f 0 0), (f 0 0)⟩ : Itv), (Itv.empty : Itv)])); (Cmd.run (.op [(Fmt.fmaI binary64 (⟨(f (-10) (0)), (f (-5) (0))⟩ : Itv) (⟨(f 0 0), (f 0 0)⟩ : Itv) (Itv.empty : Itv) : Itv)]))),
    .call (do (Cmd.run (.op [(⟨(f (-10) (0)), (f (-5) (0))⟩ : Itv), (⟨.nzero, .nzero⟩ : Itv), (Itv.empty : Itv)])); (Cmd.run (.op [(Fmt.fmaI binary64 (⟨(f (-10) (0)), (f (-5) (0))⟩ : Itv) (⟨.nzero, .nzero⟩ : Itv) (Itv.empty : Itv) : Itv)]))),
    .call (do (Cmd.run (.op [(⟨(f (-10) (0)), (f (-5) (0))⟩ : Itv), (⟨(f (-5) (0)), (f (-1) (0))⟩ : Itv), (Itv.empty : Itv)])); (Cmd.run (.op [(Fmt.fmaI binary64 (⟨(f (-10) (0)), (f (-5) (0))⟩ : Itv) (⟨(f (-5) (0)), (f (-1) (0))⟩ : Itv) (Itv.empty : Itv) : Itv)]))),
    .call (do (Cmd.run (.op [(⟨(f (-10) (0)), (f (-5) (0))⟩ : Itv), (⟨(f (-5) (0)), (f 3 0)⟩ : Itv), (Itv.empty : Itv)])); (Cmd.run (.op [(Fmt.fmaI binary64 (⟨(f (-10) (0)), (f (-5) (0))⟩ : Itv) (⟨(f (-5) (0)), (f 3 0)⟩ : Itv) (Itv.empty : Itv) : Itv)]))),
    .call (do (Cmd.run (.op [(⟨(f (-10) (0)), (f (-5) (0))⟩ : Itv), (⟨(f 1 0), (f 3 0)⟩ : Itv), (Itv.empty : Itv)])); (Cmd.run (.op [(Fmt.fmaI binary64 (⟨(f (-10) (0)), (f (-5) (0))⟩ : Itv) (⟨(f 1 0), (f 3 0)⟩ : Itv) (Itv.empty : Itv) : Itv)]))),
    .call (do (Cmd.run (.op [(⟨(f (-10) (0)), (f (-5) (0))⟩ : Itv), (⟨.ninf, (f (-1) (0))⟩ : Itv), (Itv.empty : Itv)])); (Cmd.run (.op [(Fmt.fmaI binary64 (⟨(f (-10) (0)), (f (-5) (0))⟩ : Itv) (⟨.ninf, (f (-1) (0))⟩ : Itv) (Itv.empty : Itv) : Itv)]))),
    .call (do (Cmd.run (.op [(⟨(f (-10) (0)), (f (-5) (0))⟩ : Itv), (⟨.ninf, (f 3 0)⟩ : Itv), (Itv.empty : Itv)])); (Cmd.run (.op [(Fmt.fmaI binary64 (⟨(f (-10) (0)), (f (-5) (0))⟩ : Itv) (⟨.ninf, (f 3 0)⟩ : Itv) (Itv.empty : Itv) : Itv)]))),
    .call (do (Cmd.run (.op [(⟨(f (-10) (0)), (f (-5) (0))⟩ : Itv), (⟨(f (-5) (0)), .pinf⟩ : Itv), (Itv.empty : Itv)])); (Cmd.run (.op [(Fmt.fmaI binary64 (⟨(f (-10) (0)), (f (-5) (0))⟩ : Itv) (⟨(f (-5) (0)), .pinf⟩ : Itv) (Itv.empty : Itv) : Itv)]))),
    .call (do (Cmd.run (.op [(⟨(f (-10) (0)), (f (-5) (0))⟩ : Itv), (⟨(f 1 0), .pinf⟩ : Itv), (Itv.empty : Itv)])); (Cmd.run (.op [(Fmt.fmaI binary64 (⟨(f (-10) (0)), (f (-5) (0))⟩ : Itv) (⟨(f 1 0), .pinf⟩ : Itv) (Itv.empty : Itv) : Itv)]))),
    .call (do (Cmd.run (.op [(⟨(f (-10) (0)), (f (-5) (0))⟩ : Itv), (Itv.entire : Itv), (Itv.empty : Itv)])); (Cmd.run (.op [(Fmt.fmaI binary64 (⟨(f (-10) (0)), (f (-5) (0))⟩ : Itv) (Itv.entire : Itv) (Itv.empty : Itv) : Itv)]))),
    .call (do (Cmd.run (.op [(Itv.empty : Itv), (Itv.empty : Itv), (⟨.ninf, (f 2 0)⟩ : Itv)])); (Cmd.run (.op [(Fmt.fmaI binary64 (Itv.empty : Itv) (Itv.empty : Itv) (⟨.ninf, (f 2 0)⟩ : Itv) : Itv)]))),
    .call (do (Cmd.run (.op [(⟨(f (-1) (0)), (f 1 0)⟩ : Itv), (Itv.empty : Itv), (⟨.ninf, (f 2 0)⟩ : Itv)])); (Cmd.run (.op [(Fmt.fmaI binary64 (⟨(f (-1) (0)), (f 1 0)⟩ : Itv) (Itv.empty : Itv) (⟨.ninf, (f 2 0)⟩ : Itv) : Itv)]))),
    .call (do (Cmd.run (.op [(Itv.empty : Itv), (⟨(f (-1) (0)), (f 1 0)⟩ : Itv), (⟨.ninf, (f 2 0)⟩ : Itv)])); (Cmd.run (.op [(Fmt.fmaI binary64 (Itv.empty : Itv) (⟨(f (-1) (0)), (f 1 0)⟩ : Itv) (⟨.ninf, (f 2 0)⟩ : Itv) : Itv)]))),
    .call (do (Cmd.run (.op [(Itv.empty : Itv), (Itv.entire : Itv), (⟨.ninf, (f 2 0)⟩ : Itv)])); (Cmd.run (.op [(Fmt.fmaI binary64 (Itv.empty : Itv) (Itv.entire : Itv) (⟨.ninf, (f 2 0)⟩ : Itv) : Itv)]))),
    .call (do (Cmd.run (.op [(Itv.entire : Itv), (Itv.empty : Itv), (⟨.ninf, (f 2 0)⟩ : Itv)])); (Cmd.run (.op [(Fmt.fmaI binary64 (Itv.entire : Itv) (Itv.empty : Itv) (⟨.ninf, (f 2 0)⟩ : Itv) : Itv)]))),
    .call (do (Cmd.run (.op [(⟨(f 0 0), (f 0 0)⟩ : Itv), (Itv.empty : Itv), (⟨.ninf, (f 2 0)⟩ : Itv)])); (Cmd.run (.op [(Fmt.fmaI binary64 (⟨(f 0 0), (f 0 0)⟩ : Itv) (Itv.empty : Itv) (⟨.ninf, (f 2 0)⟩ : Itv) : Itv)]))),
    .call (do (Cmd.run (.op [(⟨.nzero, .nzero⟩ : Itv), (Itv.empty : Itv), (⟨.ninf, (f 2 0)⟩ : Itv)])); (Cmd.run (.op [(Fmt.fmaI binary64 (⟨.nzero, .nzero⟩ : Itv) (Itv.empty : Itv) (⟨.ninf, (f 2 0)⟩ : Itv) : Itv)]))),
    .call (do (Cmd.run (.op [(Itv.empty : Itv), (⟨(f 0 0), (f 0 0)⟩ : Itv), (⟨.ninf, (f 2 0)⟩ : Itv)])); (Cmd.run (.op [(Fmt.fmaI binary64 (Itv.empty : Itv) (⟨(f 0 0), (f 0 0)⟩ : Itv) (⟨.ninf, (f 2 0)⟩ : Itv) : Itv)]))),
    .call (do (Cmd.run (.op [(Itv.empty : Itv), (⟨.nzero, .nzero⟩ : Itv), (⟨.ninf, (f 2 0)⟩ : Itv)])); (Cmd.run (.op [(Fmt.fmaI binary64 (Itv.empty : Itv) (⟨.nzero, .nzero⟩ : Itv) (⟨.ninf, (f 2 0)⟩ : Itv) : Itv)]))),
    .call ((Cmd.run (.op [(Itv.entire : Itv), (⟨(f 0 0), (f 0 0)⟩ : Itv), (⟨.ninf, (f 2 0)⟩ : Itv)]))),
    .call ((Cmd.run (.op [(Itv.entire : Itv), (⟨.nzero, .nzero⟩ : Itv), (⟨.ninf, (f 2 0)⟩ : Itv)]))),
    .call ((Cmd.run (.op [(Itv.entire : Itv), (⟨(f (-5) (0)), (f (-1) (0))⟩ : Itv), (⟨.ninf, (f 2 0)⟩ : Itv)]))),
    .call ((Cmd.run (.op [(Itv.entire : Itv), (⟨(f (-5) (0)), (f 3 0)⟩ : Itv), (⟨.ninf, (f 2 0)⟩ : Itv)]))),
    .call ((Cmd.run (.op [(Itv.entire : Itv), (⟨(f 1 0), (f 3 0)⟩ : Itv), (⟨.ninf, (f 2 0)⟩ : Itv)]))),
    .call ((Cmd.run (.op [(Itv.entire : Itv), (⟨.ninf, (f (-1) (0))⟩ : Itv), (⟨.ninf, (f 2 0)⟩ : Itv)]))),
    .call ((Cmd.run (.op [(Itv.entire : Itv), (⟨.ninf, (f 3 0)⟩ : Itv), (⟨.ninf, (f 2 0)⟩ : Itv)]))),
    .call ((Cmd.run (.op [(Itv.entire : Itv), (⟨(f (-5) (0)), .pinf⟩ : Itv), (⟨.ninf, (f 2 0)⟩ : Itv)]))),
    .call ((Cmd.run (.op [(Itv.entire : Itv), (⟨(f 1 0), .pinf⟩ : Itv), (⟨.ninf, (f 2 0)⟩ : Itv)]))),
    .call ((Cmd.run (.op [(Itv.entire : Itv), (Itv.entire : Itv), (⟨.ninf, (f 2 0)⟩ : Itv)]))),
    .call ((Cmd.run (.op [(⟨(f 1 0), .pinf⟩ : Itv), (⟨(f 0 0), (f 0 0)⟩ : Itv), (⟨.ninf, (f 2 0)⟩ : Itv)]))),
    .call ((Cmd.run (.op [(⟨(f 1 0), .pinf⟩ : Itv), (⟨.nzero, .nzero⟩ : Itv), (⟨.ninf, (f 2 0)⟩ : Itv)]))),
    .call ((Cmd.run (.op [(⟨(f 1 0), .pinf⟩ : Itv), (⟨(f (-5) (0)), (f (-1) (0))⟩ : Itv), (⟨.ninf, (f 2 0)⟩ : Itv)]))),
    .call ((Cmd.run (.op [(⟨(f 1 0), .pinf⟩ : Itv), (⟨(f (-5) (0)), (f 3 0)⟩ : Itv), (⟨.ninf, (f 2 0)⟩ : Itv)]))),
    .call ((Cmd.run (.op [(⟨(f 1 0), .pinf⟩ : Itv), (⟨(f 1 0), (f 3 0)⟩ : Itv), (⟨.ninf, (f 2 0)⟩ : Itv)]))),
    .call ((Cmd.run (.op [(⟨(f 1 0), .pinf⟩ : Itv), (⟨.ninf, (f (-1) (0))⟩ : Itv), (⟨.ninf, (f 2 0)⟩ : Itv)]))),
    .call ((Cmd.run (.op [(⟨(f 1 0), .pinf⟩ : Itv), (⟨.ninf, (f 3 0)⟩ : Itv), (⟨.ninf, (f 2 0)⟩ : Itv)]))),
    .call ((Cmd.run (.op [(⟨(f 1 0), .pinf⟩ : Itv), (⟨(f (-5) (0)), .pinf⟩ : Itv), (⟨.ninf, (f 2 0)⟩ : Itv)]))),
    .call ((Cmd.run (.op [(⟨(f 1 0), .pinf⟩ : Itv), (⟨(f 1 0), .pinf⟩ : Itv), (⟨.ninf, (f 2 0)⟩ : Itv)]))),
    .call ((Cmd.run (.op [(⟨(f 1 0), .pinf⟩ : Itv), (Itv.entire : Itv), (⟨.ninf, (f 2 0)⟩ : Itv)]))),
    .call ((Cmd.run (.op [(⟨(f (-1) (0)), .pinf⟩ : Itv), (⟨(f 0 0), (f 0 0)⟩ : Itv), (⟨.ninf, (f 2 0)⟩ : Itv)]))),
    .call ((Cmd.run (.op [(⟨(f (-1) (0)), .pinf⟩ : Itv), (⟨.nzero, .nzero⟩ : Itv), (⟨.ninf, (f 2 0)⟩ : Itv)]))),
    .call ((Cmd.run (.op [(⟨(f (-1) (0)), .pinf⟩ : Itv), (⟨(f (-5) (0)), (f (-1) (0))⟩ : Itv), (⟨.ninf, (f 2 0)⟩ : Itv)]))),
    .call ((Cmd.run (.op [(⟨(f (-1) (0)), .pinf⟩ : Itv), (⟨(f (-5) (0)), (f 3 0)⟩ : Itv), (⟨.ninf, (f 2 0)⟩ : Itv)]))),
    .call ((Cmd.run (.op [(⟨(f (-1) (0)), .pinf⟩ : Itv), (⟨(f 1 0), (f 3 0)⟩ : Itv), (⟨.ninf, (f 2 0)⟩ : Itv)]))),
    .call ((Cmd.run (.op [(⟨(f (-1) (0)), .pinf⟩ : Itv), (⟨.ninf, (f (-1) (0))⟩ : Itv), (⟨.ninf, (f 2 0)⟩ : Itv)]))),
    .call ((Cmd.run (.op [(⟨(f (-1) (0)), .pinf⟩ : Itv), (⟨.ninf, (f 3 0)⟩ : Itv), (⟨.ninf, (f 2 0)⟩ : Itv)]))),
    .call ((Cmd.run (.op [(⟨(f (-1) (0)), .pinf⟩ : Itv), (⟨(f (-5) (0)), .pinf⟩ : Itv), (⟨.ninf, (f 2 0)⟩ : Itv)]))),
    .call ((Cmd.run (.op [(⟨(f (-1) (0)), .pinf⟩ : Itv), (⟨(f 1 0), .pinf⟩ : Itv), (⟨.ninf, (f 2 0)⟩ : Itv)]))),
    .call ((Cmd.run (.op [(⟨(f (-1) (0)), .pinf⟩ : Itv), (Itv.entire : Itv), (⟨.ninf, (f 2 0)⟩ : Itv)]))),
    .call ((Cmd.run (.op [(⟨.ninf, (f 3 0)⟩ : Itv), (⟨(f 0 0), (f 0 0)⟩ : Itv), (⟨.ninf, (f 2 0)⟩ : Itv)]))),
    .call ((Cmd.run (.op [(⟨.ninf, (f 3 0)⟩ : Itv), (⟨.nzero, .nzero⟩ : Itv), (⟨.ninf, (f 2 0)⟩ : Itv)]))),
    .call ((Cmd.run (.op [(⟨.ninf, (f 3 0)⟩ : Itv), (⟨(f (-5) (0)), (f (-1) (0))⟩ : Itv), (⟨.ninf, (f 2 0)⟩ : Itv)]))),
    .call ((Cmd.run (.op [(⟨.ninf, (f 3 0)⟩ : Itv), (⟨(f (-5) (0)), (f 3 0)⟩ : Itv), (⟨.ninf, (f 2 0)⟩ : Itv)]))),
    .call ((Cmd.run (.op [(⟨.ninf, (f 3 0)⟩ : Itv), (⟨(f 1 0), (f 3 0)⟩ : Itv), (⟨.ninf, (f 2 0)⟩ : Itv)]))),
    .call ((Cmd.run (.op [(⟨.ninf, (f 3 0)⟩ : Itv), (⟨.ninf, (f (-1) (0))⟩ : Itv), (⟨.ninf, (f 2 0)⟩ : Itv)]))),
    .call ((Cmd.run (.op [(⟨.ninf, (f 3 0)⟩ : Itv), (⟨.ninf, (f 3 0)⟩ : Itv), (⟨.ninf, (f 2 0)⟩ : Itv)]))),
    .call ((Cmd.run (.op [(⟨.ninf, (f 3 0)⟩ : Itv), (⟨(f (-5) (0)), .pinf⟩ : Itv), (⟨.ninf, (f 2 0)⟩ : Itv)]))),
    .call ((Cmd.run (.op [(⟨.ninf, (f 3 0)⟩ : Itv), (⟨(f 1 0), .pinf⟩ : Itv), (⟨.ninf, (f 2 0)⟩ : Itv)]))),
    .call ((Cmd.run (.op [(⟨.ninf, (f 3 0)⟩ : Itv), (Itv.entire : Itv), (⟨.ninf, (f 2 0)⟩ : Itv)]))),
    .call ((Cmd.run (.op [(⟨.ninf, (f (-3) (0))⟩ : Itv), (⟨(f 0 0), (f 0 0)⟩ : Itv), (⟨.ninf, (f 2 0)⟩ : Itv)]))),
    .call ((Cmd.run (.op [(⟨.ninf, (f (-3) (0))⟩ : Itv), (⟨.nzero, .nzero⟩ : Itv), (⟨.ninf, (f 2 0)⟩ : Itv)]))),
    .call ((Cmd.run (.op [(⟨.ninf, (f (-3) (0))⟩ : Itv), (⟨(f (-5) (0)), (f (-1) (0))⟩ : Itv), (⟨.ninf, (f 2 0)⟩ : Itv)]))),
    .call ((Cmd.run (.op [(⟨.ninf, (f (-3) (0))⟩ : Itv), (⟨(f (-5) (0)), (f 3 0)⟩ : Itv), (⟨.ninf, (f 2 0)⟩ : Itv)]))),
    .call ((Cmd.run (.op [(⟨.ninf, (f (-3) (0))⟩ : Itv), (⟨(f 1 0), (f 3 0)⟩ : Itv), (⟨.ninf, (f 2 0)⟩ : Itv)]))),
    .call ((Cmd.run (.op [(⟨.ninf, (f (-3) (0))⟩ : Itv), (⟨.ninf, (f (-1) (0))⟩ : Itv), (⟨.ninf, (f 2 0)⟩ : Itv)]))),
    .call ((Cmd.run (.op [(⟨.ninf, (f (-3) (0))⟩ : Itv), (⟨.ninf, (f 3 0)⟩ : Itv), (⟨.ninf, (f 2 0)⟩ : Itv)]))),
    .call ((Cmd.run (.op [(⟨.ninf, (f (-3) (0))⟩ : Itv), (⟨(f (-5) (0)), .pinf⟩ : Itv), (⟨.ninf, (f 2 0)⟩ : Itv)]))),
    .call ((Cmd.run (.op [(⟨.ninf, (f (-3) (0))⟩ : Itv), (⟨(f 1 0), .pinf⟩ : Itv), (⟨.ninf, (f 2 0)⟩ : Itv)]))),
    .call ((Cmd.run (.op [(⟨.ninf, (f (-3) (0))⟩ : Itv), (Itv.entire : Itv), (⟨.ninf, (f 2 0)⟩ : Itv)]))),
    .call ((Cmd.run (.op [(⟨(f 0 0), (f 0 0)⟩ : Itv), (⟨(f 0 0), (f 0 0)⟩ : Itv), (⟨.ninf, (f 2 0)⟩ : Itv)]))),
    .call ((Cmd.run (.op [(⟨(f 0 0), (f 0 0)⟩ : Itv), (⟨.nzero, .nzero⟩ : Itv), (⟨.ninf, (f 2 0)⟩ : Itv)]))),
    .call ((Cmd.run (.op [(⟨(f 0 0), (f 0 0)⟩ : Itv), (⟨(f (-5) (0)), (f (-1) (0))⟩ : Itv), (⟨.ninf, (f 2 0)⟩ : Itv)]))),
    .call ((Cmd.run (.op [(⟨(f 0 0), (f 0 0)⟩ : Itv), (⟨(f (-5) (0)), (f 3 0)⟩ : Itv), (⟨.ninf, (f 2 0)⟩ : Itv)]))),
    .call ((Cmd.run (.op [(⟨(f 0 0), (f 0 0)⟩ : Itv), (⟨(f 1 0), (f 3 0)⟩ : Itv), (⟨.ninf, (f 2 0)⟩ : Itv)]))),
    .call ((Cmd.run (.op [(⟨(f 0 0), (f 0 0)⟩ : Itv), (⟨.ninf, (f (-1) (0))⟩ : Itv), (⟨.ninf, (f 2 0)⟩ : Itv)]))),
    .call ((Cmd.run (.op [(⟨(f 0 0), (f 0 0)⟩ : Itv), (⟨.ninf, (f 3 0)⟩ : Itv), (⟨.ninf, (f 2 0)⟩ : Itv)]))),
    .call ((Cmd.run (.op [(⟨(f 0 0), (f 0 0)⟩ : Itv), (⟨(f (-5) (0)), .pinf⟩ : Itv), (⟨.ninf, (f 2 0)⟩ : Itv)]))),
    .call ((Cmd.run (.op [(⟨(f 0 0), (f 0 0)⟩ : Itv), (⟨(f 1 0), .pinf⟩ : Itv), (⟨.ninf, (f 2 0)⟩ : Itv)]))),
    .call ((Cmd.run (.op [(⟨(f 0 0), (f 0 0)⟩ : Itv), (Itv.entire : Itv), (⟨.ninf, (f 2 0)⟩ : Itv)]))),
    .call ((Cmd.run (.op [(⟨.nzero, .nzero⟩ : Itv), (⟨(f 0 0), (f 0 0)⟩ : Itv), (⟨.ninf, (f 2 0)⟩ : Itv)]))),
    .call ((Cmd.run (.op [(⟨.nzero, .nzero⟩ : Itv), (⟨.nzero, .nzero⟩ : Itv), (⟨.ninf, (f 2 0)⟩ : Itv)]))),
    .call ((Cmd.run (.op [(⟨.nzero, .nzero⟩ : Itv), (⟨(f (-5) (0)), (f (-1) (0))⟩ : Itv), (⟨.ninf, (f 2 0)⟩ : Itv)]))),
    .call ((Cmd.run (.op [(⟨.nzero, .nzero⟩ : Itv), (⟨(f (-5) (0)), (f 3 0)⟩ : Itv), (⟨.ninf, (f 2 0)⟩ : Itv)]))),
    .call ((Cmd.run (.op [(⟨.nzero, .nzero⟩ : Itv), (⟨(f 1 0), (f 3 0)⟩ : Itv), (⟨.ninf, (f 2 0)⟩ : Itv)]))),
    .call ((Cmd.run (.op [(⟨.nzero, .nzero⟩ : Itv), (⟨.ninf, (f (-1) (0))⟩ : Itv), (⟨.ninf, (f 2 0)⟩ : Itv)]))),
    .call ((Cmd.run (.op [(⟨.nzero, .nzero⟩ : Itv), (⟨.ninf, (f 3 0)⟩ : Itv), (⟨.ninf, (f 2 0)⟩ : Itv)]))),
    .call ((Cmd.run (.op [(⟨.nzero, .nzero⟩ : Itv), (⟨(f (-5) (0)), .pinf⟩ : Itv), (⟨.ninf, (f 2 0)⟩ : Itv)]))),
    .call ((Cmd.run (.op [(⟨.nzero, .nzero⟩ : Itv), (⟨(f 1 0), .pinf⟩ : Itv), (⟨.ninf, (f 2 0)⟩ : Itv)]))),
    .call ((Cmd.run (.op [(⟨.nzero, .nzero⟩ : Itv), (Itv.entire : Itv), (⟨.ninf, (f 2 0)⟩ : Itv)]))),
    .call ((Cmd.run (.op [(⟨(f 1 0), (f 5 0)⟩ : Itv), (⟨(f 0 0), (f 0 0)⟩ : Itv), (⟨.ninf, (f 2 0)⟩ : Itv)]))),
    .call ((Cmd.run (.op [(⟨(f 1 0), (f 5 0)⟩ : Itv), (⟨.nzero, .nzero⟩ : Itv), (⟨.ninf, (f 2 0)⟩ : Itv)]))),
    .call ((Cmd.run (.op [(⟨(f 1 0), (f 5 0)⟩ : Itv), (⟨(f (-5) (0)), (f (-1) (0))⟩ : Itv), (⟨.ninf, (f 2 0)⟩ : Itv)]))),
    .call ((Cmd.run (.op [(⟨(f 1 0), (f 5 0)⟩ : Itv), (⟨(f (-5) (0)), (f 3 0)⟩ : Itv), (⟨.ninf, (f 2 0)⟩ : Itv)]))),
    .call ((Cmd.run (.op [(⟨(f 1 0), (f 5 0)⟩ : Itv), (⟨(f 1 0), (f 3 0)⟩ : Itv), (⟨.ninf, (f 2 0)⟩ : Itv)]))),
    .call ((Cmd.run (.op [(⟨(f 1 0), (f 5 0)⟩ : Itv), (⟨.ninf, (f (-1) (0))⟩ : Itv), (⟨.ninf, (f 2 0)⟩ : Itv)]))),
    .call ((Cmd.run (.op [(⟨(f 1 0), (f 5 0)⟩ : Itv), (⟨.ninf, (f 3 0)⟩ : Itv), (⟨.ninf, (f 2 0)⟩ : Itv)]))),
    .call ((Cmd.run (.op [(⟨(f 1 0), (f 5 0)⟩ : Itv), (⟨(f (-5) (0)), .pinf⟩ : Itv), (⟨.ninf, (f 2 0)⟩ : Itv)]))),
    .call ((Cmd.run (.op [(⟨(f 1 0), (f 5 0)⟩ : Itv), (⟨(f 1 0), .pinf⟩ : Itv), (⟨.ninf, (f 2 0)⟩ : Itv)]))),
    .call ((Cmd.run (.op [(⟨(f 1 0), (f 5 0)⟩ : Itv), (Itv.entire : Itv), (⟨.ninf, (f 2 0)⟩ : Itv)]))),
    .call ((Cmd.run (.op [(⟨(f (-1) (0)), (f 5 0)⟩ : Itv), (⟨(f 0 0), (f 0 0)⟩ : Itv), (⟨.ninf, (f 2 0)⟩ : Itv)]))),
    .call ((Cmd.run (.op [(⟨(f (-1) (0)), (f 5 0)⟩ : Itv), (⟨.nzero, .nzero⟩ : Itv), (⟨.ninf, (f 2 0)⟩ : Itv)]))),
    .call ((Cmd.run (.op [(⟨(f (-1) (0)), (f 5 0)⟩ : Itv), (⟨(f (-5) (0)), (f (-1) (0))⟩ : Itv), (⟨.ninf, (f 2 0)⟩ : Itv)]))),
    .call ((Cmd.run (.op [(⟨(f (-1) (0)), (f 5 0)⟩ : Itv), (⟨(f (-5) (0)), (f 3 0)⟩ : Itv), (⟨.ninf, (f 2 0)⟩ : Itv)]))),
    .call ((Cmd.run (.op [(⟨(f (-10) (0)), (f 2 0)⟩ : Itv), (⟨(f (-5) (0)), (f 3 0)⟩ : Itv), (⟨.ninf, (f 2 0)⟩ : Itv)]))),
    .call ((Cmd.run (.op [(⟨(f (-1) (0)), (f 5 0)⟩ : Itv), (⟨(f (-1) (0)), (f 10 0)⟩ : Itv), (⟨.ninf, (f 2 0)⟩ : Itv)]))),
    .call ((Cmd.run (.op [(⟨(f (-2) (0)), (f 2 0)⟩ : Itv), (⟨(f (-5) (0)), (f 3 0)⟩ : Itv), (⟨.ninf, (f 2 0)⟩ : Itv)]))),
    .call ((Cmd.run (.op [(⟨(f (-1) (0)), (f 5 0)⟩ : Itv), (⟨(f 1 0), (f 3 0)⟩ : Itv), (⟨.ninf, (f 2 0)⟩ : Itv)]))),
    .call ((Cmd.run (.op [(⟨(f (-1) (0)), (f 5 0)⟩ : Itv), (⟨.ninf, (f (-1) (0))⟩ : Itv), (⟨.ninf, (f 2 0)⟩ : Itv)]))),
    .call ((Cmd.run (.op [(⟨(f (-1) (0)), (f 5 0)⟩ : Itv), (⟨.ninf, (f 3 0)⟩ : Itv), (⟨.ninf, (f 2 0)⟩ : Itv)]))),
    .call ((Cmd.run (.op [(⟨(f (-1) (0)), (f 5 0)⟩ : Itv), (⟨(f (-5) (0)), .pinf⟩ : Itv), (⟨.ninf, (f 2 0)⟩ : Itv)]))),
    .call ((Cmd.run (.op [(⟨(f (-1) (0)), (f 5 0)⟩ : Itv), (⟨(f 1 0), .pinf⟩ : Itv), (⟨.ninf, (f 2 0)⟩ : Itv)]))),
    .call ((Cmd.run (.op [(⟨(f (-1) (0)), (f 5 0)⟩ : Itv), (Itv.entire : Itv), (⟨.ninf, (f 2 0)⟩ : Itv)]))),
    .call ((Cmd.run (.op [(⟨(f (-10) (0)), (f (-5) (0))⟩ : Itv), (⟨(f 0 0), (f 0 0)⟩ : Itv), (⟨.ninf, (f 2 0)⟩ : Itv)]))),
    .call ((Cmd.run (.op [(⟨(f (-10) (0)), (f (-5) (0))⟩ : Itv), (⟨.nzero, .nzero⟩ : Itv), (⟨.ninf, (f 2 0)⟩ : Itv)]))),
    .call ((Cmd.run (.op [(⟨(f (-10) (0)), (f (-5) (0))⟩ : Itv), (⟨(f (-5) (0)), (f (-1) (0))⟩ : Itv), (⟨.ninf, (f 2 0)⟩ : Itv)]))),
    .call ((Cmd.run (.op [(⟨(f (-10) (0)), (f (-5) (0))⟩ : Itv), (⟨(f (-5) (0)), (f 3 0)⟩ : Itv), (⟨.ninf, (f 2 0)⟩ : Itv)]))),
    .call ((Cmd.run (.op [(⟨(f (-10) (0)), (f (-5) (0))⟩ : Itv), (⟨(f 1 0), (f 3 0)⟩ : Itv), (⟨.ninf, (f 2 0)⟩ : Itv)]))),
    .call ((Cmd.run (.op [(⟨(f (-10) (0)), (f (-5) (0))⟩ : Itv), (⟨.ninf, (f (-1) (0))⟩ : Itv), (⟨.ninf, (f 2 0)⟩ : Itv)]))),
    .call ((Cmd.run (.op [(⟨(f (-10) (0)), (f (-5) (0))⟩ : Itv), (⟨.ninf, (f 3 0)⟩ : Itv), (⟨.ninf, (f 2 0)⟩ : Itv)]))),
    .call ((Cmd.run (.op [(⟨(f (-10) (0)), (f (-5) (0))⟩ : Itv), (⟨(f (-5) (0)), .pinf⟩ : Itv), (⟨.ninf, (f 2 0)⟩ : Itv)]))),
    .call ((Cmd.run (.op [(⟨(f (-10) (0)), (f (-5) (0))⟩ : Itv), (⟨(f 1 0), .pinf⟩ : Itv), (⟨.ninf, (f 2 0)⟩ : Itv)]))),
    .call ((Cmd.run (.op [(⟨(f (-10) (0)), (f (-5) (0))⟩ : Itv), (Itv.entire : Itv), (⟨.ninf, (f 2 0)⟩ : Itv)]))),
    .call (do (Cmd.run (.op [(Itv.empty : Itv), (Itv.empty : Itv), (⟨(f (-2) (0)), (f 2 0)⟩ : Itv)])); (Cmd.run (.op [(Fmt.fmaI binary64 (Itv.empty : Itv) (Itv.empty : Itv) (⟨(f (-2) (0)), (f 2 0)⟩ : Itv) : Itv)]))),
    .call (do (Cmd.run (.op [(⟨(f (-1) (0)), (f 1 0)⟩ : Itv), (Itv.empty : Itv), (⟨(f (-2) (0)), (f 2 0)⟩ : Itv)])); (Cmd.run (.op [(Fmt.fmaI binary64 (⟨(f (-1) (0)), (f 1 0)⟩ : Itv) (Itv.empty : Itv) (⟨(f (-2) (0)), (f 2 0)⟩ : Itv) : Itv)]))),
    .call (do (Cmd.run (.op [(Itv.empty : Itv), (⟨(f (-1) (0)), (f 1 0)⟩ : Itv), (⟨(f (-2) (0)), (f 2 0)⟩ : Itv)])); (Cmd.run (.op [(Fmt.fmaI binary64 (Itv.empty : Itv) (⟨(f (-1) (0)), (f 1 0)⟩ : Itv) (⟨(f (-2) (0)), (f 2 0)⟩ : Itv) : Itv)]))),
    .call (do (Cmd.run (.op [(Itv.empty : Itv), (Itv.entire : Itv), (⟨(f (-2) (0)), (f 2 0)⟩ : Itv)])); (Cmd.run (.op [(Fmt.fmaI binary64 (Itv.empty : Itv) (Itv.entire : Itv) (⟨(f (-2) (0)), (f 2 0)⟩ : Itv) : Itv)]))),
    .call (do (Cmd.run (.op [(Itv.entire : Itv), (Itv.empty : Itv), (⟨(f (-2) (0)), (f 2 0)⟩ : Itv)])); (Cmd.run (.op [(Fmt.fmaI binary64 (Itv.entire : Itv) (Itv.empty : Itv) (⟨(f (-2) (0)), (f 2 0)⟩ : Itv) : Itv)]))),
    .call (do (Cmd.run (.op [(⟨(f 0 0), (f 0 0)⟩ : Itv), (Itv.empty : Itv), (⟨(f (-2) (0)), (f 2 0)⟩ : Itv)])); (Cmd.run (.op [(Fmt.fmaI binary64 (⟨(f 0 0), (f 0 0)⟩ : Itv) (Itv.empty : Itv) (⟨(f (-2) (0)), (f 2 0)⟩ : Itv) : Itv)]))),
    .call (do (Cmd.run (.op [(⟨.nzero, .nzero⟩ : Itv), (Itv.empty : Itv), (⟨(f (-2) (0)), (f 2 0)⟩ : Itv)])); (Cmd.run (.op [(Fmt.fmaI binary64 (⟨.nzero, .nzero⟩ : Itv) (Itv.empty : Itv) (⟨(f (-2) (0)), (f 2 0)⟩ : Itv) : Itv)]))),
    .call (do (Cmd.run (.op [(Itv.empty : Itv), (⟨(f 0 0), (f 0 0)⟩ : Itv), (⟨(f (-2) (0)), (f 2 0)⟩ : Itv)])); (Cmd.run (.op [(Fmt.fmaI binary64 (Itv.empty : Itv) (⟨(f 0 0), (f 0 0)⟩ : Itv) (⟨(f (-2) (0)), (f 2 0)⟩ : Itv) : Itv)]))),
    .call (do (Cmd.run (.op [(Itv.empty : Itv), (⟨.nzero, .nzero⟩ : Itv), (⟨(f (-2) (0)), (f 2 0)⟩ : Itv)])); (Cmd.run (.op [(Fmt.fmaI binary64 (Itv.empty : Itv) (⟨.nzero, .nzero⟩ : Itv) (⟨(f (-2) (0)), (f 2 0)⟩ : Itv) : Itv)]))),
    .call ((Cmd.run (.op [(Itv.entire : Itv), (⟨(f 0 0), (f 0 0)⟩ : Itv), (⟨(f (-2) (0)), (f 2 0)⟩ : Itv)]))),
    .call ((Cmd.run (.op [(Itv.entire : Itv), (⟨.nzero, .nzero⟩ : Itv), (⟨(f (-2) (0)), (f 2 0)⟩ : Itv)]))),
    .call ((Cmd.run (.op [(Itv.entire : Itv), (⟨(f (-5) (0)), (f (-1) (0))⟩ : Itv), (⟨(f (-2) (0)), (f 2 0)⟩ : Itv)]))),
    .call ((Cmd.run (.op [(Itv.entire : Itv), (⟨(f (-5) (0)), (f 3 0)⟩ : Itv), (⟨(f (-2) (0)), (f 2 0)⟩ : Itv)]))),
    .call ((Cmd.run (.op [(Itv.entire : Itv), (⟨(f 1 0), (f 3 0)⟩ : Itv), (⟨(f (-2) (0)), (f 2 0)⟩ : Itv)]))),
    .call ((Cmd.run (.op [(Itv.entire : Itv), (⟨.ninf, (f (-1) (0))⟩ : Itv), (⟨(f (-2) (0)), (f 2 0)⟩ : Itv)]))),
    .call ((Cmd.run (.op [(Itv.entire : Itv), (⟨.ninf, (f 3 0)⟩ : Itv), (⟨(f (-2) (0)), (f 2 0)⟩ : Itv)]))),
    .call ((Cmd.run (.op [(Itv.entire : Itv), (⟨(f (-5) (0)), .pinf⟩ : Itv), (⟨(f (-2) (0)), (f 2 0)⟩ : Itv)]))),
    .call ((Cmd.run (.op [(Itv.entire : Itv), (⟨(f 1 0), .pinf⟩ : Itv), (⟨(f (-2) (0)), (f 2 0)⟩ : Itv)]))),
    .call ((Cmd.run (.op [(Itv.entire : Itv), (Itv.entire : Itv), (⟨(f (-2) (0)), (f 2 0)⟩ : Itv)]))),
    .call ((Cmd.run (.op [(⟨(f 1 0), .pinf⟩ : Itv), (⟨(f 0 0), (f 0 0)⟩ : Itv), (⟨(f (-2) (0)), (f 2 0)⟩ : Itv)]))),
    .call ((Cmd.run (.op [(⟨(f 1 0), .pinf⟩ : Itv), (⟨.nzero, .nzero⟩ : Itv), (⟨(f (-2) (0)), (f 2 0)⟩ : Itv)]))),
    .call ((Cmd.run (.op [(⟨(f 1 0), .pinf⟩ : Itv), (⟨(f (-5) (0)), (f (-1) (0))⟩ : Itv), (⟨(f (-2) (0)), (f 2 0)⟩ : Itv)]))),
    .call ((Cmd.run (.op [(⟨(f 1 0), .pinf⟩ : Itv), (⟨(f (-5) (0)), (f 3 0)⟩ : Itv), (⟨(f (-2) (0)), (f 2 0)⟩ : Itv)]))),
    .call ((Cmd.run (.op [(⟨(f 1 0), .pinf⟩ : Itv), (⟨(f 1 0), (f 3 0)⟩ : Itv), (⟨(f (-2) (0)), (f 2 0)⟩ : Itv)]))),
    .call ((Cmd.run (.op [(⟨(f 1 0), .pinf⟩ : Itv), (⟨.ninf, (f (-1) (0))⟩ : Itv), (⟨(f (-2) (0)), (f 2 0)⟩ : Itv)]))),
    .call ((Cmd.run (.op [(⟨(f 1 0), .pinf⟩ : Itv), (⟨.ninf, (f 3 0)⟩ : Itv), (⟨(f (-2) (0)), (f 2 0)⟩ : Itv)]))),
    .call ((Cmd.run (.op [(⟨(f 1 0), .pinf⟩ : Itv), (⟨(f (-5) (0)), .pinf⟩ : Itv), (⟨(f (-2) (0)), (f 2 0)⟩ : Itv)]))),
    .call ((Cmd.run (.op [(⟨(f 1 0), .pinf⟩ : Itv), (⟨(f 1 0), .pinf⟩ : Itv), (⟨(f (-2) (0)), (f 2 0)⟩ : Itv)]))),
    .call ((Cmd.run (.op [(⟨(f 1 0), .pinf⟩ : Itv), (Itv.entire : Itv), (⟨(f (-2) (0)), (f 2 0)⟩ : Itv)]))),
    .call ((Cmd.run (.op [(⟨(f (-1) (0)), .pinf⟩ : Itv), (⟨(f 0 0), (f 0 0)⟩ : Itv), (⟨(f (-2) (0)), (f 2 0)⟩ : Itv)]))),
    .call ((Cmd.run (.op [(⟨(f (-1) (0)), .pinf⟩ : Itv), (⟨.nzero, .nzero⟩ : Itv), (⟨(f (-2) (0)), (f 2 0)⟩ : Itv)]))),
    .call ((Cmd.run (.op [(⟨(f (-1) (0)), .pinf⟩ : Itv), (⟨(f (-5) (0)), (f (-1) (0))⟩ : Itv), (⟨(f (-2) (0)), (f 2 0)⟩ : Itv)]))),
    .call ((Cmd.run (.op [(⟨(f (-1) (0)), .pinf⟩ : Itv), (⟨(f (-5) (0)), (f 3 0)⟩ : Itv), (⟨(f (-2) (0)), (f 2 0)⟩ : Itv)]))),
    .call ((Cmd.run (.op [(⟨(f (-1) (0)), .pinf⟩ : Itv), (⟨(f 1 0), (f 3 0)⟩ : Itv), (⟨(f (-2) (0)), (f 2 0)⟩ : Itv)]))),
    .call ((Cmd.run (.op [(⟨(f (-1) (0)), .pinf⟩ : Itv), (⟨.ninf, (f (-1) (0))⟩ : Itv), (⟨(f (-2) (0)), (f 2 0)⟩ : Itv)]))),
    .call ((Cmd.run (.op [(⟨(f (-1) (0)), .pinf⟩ : Itv), (⟨.ninf, (f 3 0)⟩ : Itv), (⟨(f (-2) (0)), (f 2 0)⟩ : Itv)]))),
    .call ((Cmd.run (.op [(⟨(f (-1) (0)), .pinf⟩ : Itv), (⟨(f (-5) (0)), .pinf⟩ : Itv), (⟨(f (-2) (0)), (f 2 0)⟩ : Itv)]))),
    .call ((Cmd.run (.op [(⟨(f (-1) (0)), .pinf⟩ : Itv), (⟨(f 1 0), .pinf⟩ : Itv), (⟨(f (-2) (0)), (f 2 0)⟩ : Itv)]))),
    .call ((Cmd.run (.op [(⟨(f (-1) (0)), .pinf⟩ : Itv), (Itv.entire : Itv), (⟨(f (-2) (0)), (f 2 0)⟩ : Itv)]))),
    .call ((Cmd.run (.op [(⟨.ninf, (f 3 0)⟩ : Itv), (⟨(f 0 0), (f 0 0)⟩ : Itv), (⟨(f (-2) (0)), (f 2 0)⟩ : Itv)]))),
    .call ((Cmd.run (.op [(⟨.ninf, (f 3 0)⟩ : Itv), (⟨.nzero, .nzero⟩ : Itv), (⟨(f (-2) (0)), (f 2 0)⟩ : Itv)]))),
    .call ((Cmd.run (.op [(⟨.ninf, (f 3 0)⟩ : Itv), (⟨(f (-5) (0)), (f (-1) (0))⟩ : Itv), (⟨(f (-2) (0)), (f 2 0)⟩ : Itv)]))),
    .call ((Cmd.run (.op [(⟨.ninf, (f 3 0)⟩ : Itv), (⟨(f (-5) (0)), (f 3 0)⟩ : Itv), (⟨(f (-2) (0)), (f 2 0)⟩ : Itv)]))),
    .call ((Cmd.run (.op [(⟨.ninf, (f 3 0)⟩ : Itv), (⟨(f 1 0), (f 3 0)⟩ : Itv), (⟨(f (-2) (0)), (f 2 0)⟩ : Itv)]))),
    .call ((Cmd.run (.op [(⟨.ninf, (f 3 0)⟩ : Itv), (⟨.ninf, (f (-1) (0))⟩ : Itv), (⟨(f (-2) (0)), (f 2 0)⟩ : Itv)]))),
    .call ((Cmd.run (.op [(⟨.ninf, (f 3 0)⟩ : Itv), (⟨.ninf, (f 3 0)⟩ : Itv), (⟨(f (-2) (0)), (f 2 0)⟩ : Itv)]))),
    .call ((Cmd.run (.op [(⟨.ninf, (f 3 0)⟩ : Itv), (⟨(f (-5) (0)), .pinf⟩ : Itv), (⟨(f (-2) (0)), (f 2 0)⟩ : Itv)]))),
    .call ((Cmd.run (.op [(⟨.ninf, (f 3 0)⟩ : Itv), (⟨(f 1 0), .pinf⟩ : Itv), (⟨(f (-2) (0)), (f 2 0)⟩ : Itv)]))),
    .call ((Cmd.run (.op [(⟨.ninf, (f 3 0)⟩ : Itv), (Itv.entire : Itv), (⟨(f (-2) (0)), (f 2 0)⟩ : Itv)]))),
    .call ((Cmd.run (.op [(⟨.ninf, (f (-3) (0))⟩ : Itv), (⟨(f 0 0), (f 0 0)⟩ : Itv), (⟨(f (-2) (0)), (f 2 0)⟩ : Itv)]))),
    .call ((Cmd.run (.op [(⟨.ninf, (f (-3) (0))⟩ : Itv), (⟨.nzero, .nzero⟩ : Itv), (⟨(f (-2) (0)), (f 2 0)⟩ : Itv)]))),
    .call ((Cmd.run (.op [(⟨.ninf, (f (-3) (0))⟩ : Itv), (⟨(f (-5) (0)), (f (-1) (0))⟩ : Itv), (⟨(f (-2) (0)), (f 2 0)⟩ : Itv)]))),
    .call ((Cmd.run (.op [(⟨.ninf, (f (-3) (0))⟩ : Itv), (⟨(f (-5) (0)), (f 3 0)⟩ : Itv), (⟨(f (-2) (0)), (f 2 0)⟩ : Itv)]))),
    .call ((Cmd.run (.op [(⟨.ninf, (f (-3) (0))⟩ : Itv), (⟨(f 1 0), (f 3 0)⟩ : Itv), (⟨(f (-2) (0)), (f 2 0)⟩ : Itv)]))),
    .call ((Cmd.run (.op [(⟨.ninf, (f (-3) (0))⟩ : Itv), (⟨.ninf, (f (-1) (0))⟩ : Itv), (⟨(f (-2) (0)), (f 2 0)⟩ : Itv)]))),
    .call ((Cmd.run (.op [(⟨.ninf, (f (-3) (0))⟩ : Itv), (⟨.ninf, (f 3 0)⟩ : Itv), (⟨(f (-2) (0)), (f 2 0)⟩ : Itv)]))),
    .call ((Cmd.run (.op [(⟨.ninf, (f (-3) (0))⟩ : Itv), (⟨(f (-5) (0)), .pinf⟩ : Itv), (⟨(f (-2) (0)), (f 2 0)⟩ : Itv)]))),
    .call ((Cmd.run (.op [(⟨.ninf, (f (-3) (0))⟩ : Itv), (⟨(f 1 0), .pinf⟩ : Itv), (⟨(f (-2) (0)), (f 2 0)⟩ : Itv)]))),
    .call ((Cmd.run (.op [(⟨.ninf, (f (-3) (0))⟩ : Itv), (Itv.entire : Itv), (⟨(f (-2) (0)), (f 2 0)⟩ : Itv)]))),
    .call ((Cmd.run (.op [(⟨(f 0 0), (f 0 0)⟩ : Itv), (⟨(f 0 0), (f 0 0)⟩ : Itv), (⟨(f (-2) (0)), (f 2 0)⟩ : Itv)]))),
    .call ((Cmd.run (.op [(⟨(f 0 0), (f 0 0)⟩ : Itv), (⟨.nzero, .nzero⟩ : Itv), (⟨(f (-2) (0)), (f 2 0)⟩ : Itv)]))),
    .call ((Cmd.run (.op [(⟨(f 0 0), (f 0 0)⟩ : Itv), (⟨(f (-5) (0)), (f (-1) (0))⟩ : Itv), (⟨(f (-2) (0)), (f 2 0)⟩ : Itv)]))),
    .call ((Cmd.run (.op [(⟨(f 0 0), (f 0 0)⟩ : Itv), (⟨(f (-5) (0)), (f 3 0)⟩ : Itv), (⟨(f (-2) (0)), (f 2 0)⟩ : Itv)]))),
    .call ((Cmd.run (.op [(⟨(f 0 0), (f 0 0)⟩ : Itv), (⟨(f 1 0), (f 3 0)⟩ : Itv), (⟨(f (-2) (0)), (f 2 0)⟩ : Itv)]))),
    .call ((Cmd.run (.op [(⟨(f 0 0), (f 0 0)⟩ : Itv), (⟨.ninf, (f (-1) (0))⟩ : Itv), (⟨(f (-2) (0)), (f 2 0)⟩ : Itv)]))),
    .call ((Cmd.run (.op [(⟨(f 0 0), (f 0 0)⟩ : Itv), (⟨.ninf, (f 3 0)⟩ : Itv), (⟨(f (-2) (0)), (f 2 0)⟩ : Itv)]))),
    .call ((Cmd.run (.op [(⟨(f 0 0), (f 0 0)⟩ : Itv), (⟨(f (-5) (0)), .pinf⟩ : Itv), (⟨(f (-2) (0)), (f 2 0)⟩ : Itv)]))),
    .call ((Cmd.run (.op [(⟨(f 0 0), (f 0 0)⟩ : Itv), (⟨(f 1 0), .pinf⟩ : Itv), (⟨(f (-2) (0)), (f 2 0)⟩ : Itv)]))),
    .call ((Cmd.run (.op [(⟨(f 0 0), (f 0 0)⟩ : Itv), (Itv.entire : Itv), (⟨(f (-2) (0)), (f 2 0)⟩ : Itv)]))),
    .call ((Cmd.run (.op [(⟨.nzero, .nzero⟩ : Itv), (⟨(f 0 0), (f 0 0)⟩ : Itv), (⟨(f (-2) (0)), (f 2 0)⟩ : Itv)]))),
    .call ((Cmd.run (.op [(⟨.nzero, .nzero⟩ : Itv), (⟨.nzero, .nzero⟩ : Itv), (⟨(f (-2) (0)), (f 2 0)⟩ : Itv)]))),
    .call ((Cmd.run (.op [(⟨.nzero, .nzero⟩ : Itv), (⟨(f (-5) (0)), (f (-1) (0))⟩ : Itv), (⟨(f (-2) (0)), (f 2 0)⟩ : Itv)]))),
    .call ((Cmd.run (.op [(⟨.nzero, .nzero⟩ : Itv), (⟨(f (-5) (0)), (f 3 0)⟩ : Itv), (⟨(f (-2) (0)), (f 2 0)⟩ : Itv)]))),
    .call ((Cmd.run (.op [(⟨.nzero, .nzero⟩ : Itv), (⟨(f 1 0), (f 3 0)⟩ : Itv), (⟨(f (-2) (0)), (f 2 0)⟩ : Itv)]))),
    .call ((Cmd.run (.op [(⟨.nzero, .nzero⟩ : Itv), (⟨.ninf, (f (-1) (0))⟩ : Itv), (⟨(f (-2) (0)), (f 2 0)⟩ : Itv)]))),
    .call ((Cmd.run (.op [(⟨.nzero, .nzero⟩ : Itv), (⟨.ninf, (f 3 0)⟩ : Itv), (⟨(f (-2) (0)), (f 2 0)⟩ : Itv)]))),
    .call ((Cmd.run (.op [(⟨.nzero, .nzero⟩ : Itv), (⟨(f (-5) (0)), .pinf⟩ : Itv), (⟨(f (-2) (0)), (f 2 0)⟩ : Itv)]))),
    .call ((Cmd.run (.op [(⟨.nzero, .nzero⟩ : Itv), (⟨(f 1 0), .pinf⟩ : Itv), (⟨(f (-2) (0)), (f 2 0)⟩ : Itv)]))),
    .call ((Cmd.run (.op [(⟨.nzero, .nzero⟩ : Itv), (Itv.entire : Itv), (⟨(f (-2) (0)), (f 2 0)⟩ : Itv)]))),
    .call ((Cmd.run (.op [(⟨(f 1 0), (f 5 0)⟩ : Itv), (⟨(f 0 0), (f 0 0)⟩ : Itv), (⟨(f (-2) (0)), (f 2 0)⟩ : Itv)]))),
    .call ((Cmd.run (.op [(⟨(f 1 0), (f 5 0)⟩ : Itv), (⟨.nzero, .nzero⟩ : Itv), (⟨(f (-2) (0)), (f 2 0)⟩ : Itv)]))),
    .call ((Cmd.run (.op [(⟨(f 1 0), (f 5 0)⟩ : Itv), (⟨(f (-5) (0)), (f (-1) (0))⟩ : Itv), (⟨(f (-2) (0)), (f 2 0)⟩ : Itv)]))),
    .call ((Cmd.run (.op [(⟨(f 1 0), (f 5 0)⟩ : Itv), (⟨(f (-5) (0)), (f 3 0)⟩ : Itv), (⟨(f (-2) (0)), (f 2 0)⟩ : Itv)]))),
    .call ((Cmd.run (.op [(⟨(f 1 0), (f 5 0)⟩ : Itv), (⟨(f 1 0), (f 3 0)⟩ : Itv), (⟨(f (-2) (0)), (f 2 0)⟩ : Itv)]))),
    .call ((Cmd.run (.op [(⟨(f 1 0), (f 5 0)⟩ : Itv), (⟨.ninf, (f (-1) (0))⟩ : Itv), (⟨(f (-2) (0)), (f 2 0)⟩ : Itv)]))),
    .call ((Cmd.run (.op [(⟨(f 1 0), (f 5 0)⟩ : Itv), (⟨.ninf, (f 3 0)⟩ : Itv), (⟨(f (-2) (0)), (f 2 0)⟩ : Itv)]))),
    .call ((Cmd.run (.op [(⟨(f 1 0), (f 5 0)⟩ : Itv), (⟨(f (-5) (0)), .pinf⟩ : Itv), (⟨(f (-2) (0)), (f 2 0)⟩ : Itv)]))),
    .call ((Cmd.run (.op [(⟨(f 1 0), (f 5 0)⟩ : Itv), (⟨(f 1 0), .pinf⟩ : Itv), (⟨(f (-2) (0)), (f 2 0)⟩ : Itv)]))),
    .call ((Cmd.run (.op [(⟨(f 1 0), (f 5 0)⟩ : Itv), (Itv.entire : Itv), (⟨(f (-2) (0)), (f 2 0)⟩ : Itv)]))),
    .call ((Cmd.run (.op [(⟨(f (-1) (0)), (f 5 0)⟩ : Itv), (⟨(f 0 0), (f 0 0)⟩ : Itv), (⟨(f (-2) (0)), (f 2 0)⟩ : Itv)]))),
    .call ((Cmd.run (.op [(⟨(f (-1) (0)), (f 5 0)⟩ : Itv), (⟨.nzero, .nzero⟩ : Itv), (⟨(f (-2) (0)), (f 2 0)⟩ : Itv)]))),
    .call ((Cmd.run (.op [(⟨(f (-1) (0)), (f 5 0)⟩ : Itv), (⟨(f (-5) (0)), (f (-1) (0))⟩ : Itv), (⟨(f (-2) (0)), (f 2 0)⟩ : Itv)]))),
    .call ((Cmd.run (.op [(⟨(f (-1) (0)), (f 5 0)⟩ : Itv), (⟨(f (-5) (0)), (f 3 0)⟩ : Itv), (⟨(f (-2) (0)), (f 2 0)⟩ : Itv)]))),
    .call ((Cmd.run (.op [(⟨(f (-10) (0)), (f 2 0)⟩ : Itv), (⟨(f (-5) (0)), (f 3 0)⟩ : Itv), (⟨(f (-2) (0)), (f 2 0)⟩ : Itv)]))),
    .call ((Cmd.run (.op [(⟨(f (-1) (0)), (f 5 0)⟩ : Itv), (⟨(f (-1) (0)), (f 10 0)⟩ : Itv), (⟨(f (-2) (0)), (f 2 0)⟩ : Itv)]))),
    .call ((Cmd.run (.op [(⟨(f (-2) (0)), (f 2 0)⟩ : Itv), (⟨(f (-5) (0)), (f 3 0)⟩ : Itv), (⟨(f (-2) (0)), (f 2 0)⟩ : Itv)]))),
    .call ((Cmd.run (.op [(⟨(f (-1) (0)), (f 5 0)⟩ : Itv), (⟨(f 1 0), (f 3 0)⟩ : Itv), (⟨(f (-2) (0)), (f 2 0)⟩ : Itv)]))),
    .call ((Cmd.run (.op [(⟨(f (-1) (0)), (f 5 0)⟩ : Itv), (⟨.ninf, (f (-1) (0))⟩ : Itv), (⟨(f (-2) (0)), (f 2 0)⟩ : Itv)]))),
    .call ((Cmd.run (.op [(⟨(f (-1) (0)), (f 5 0)⟩ : Itv), (⟨.ninf, (f 3 0)⟩ : Itv), (⟨(f (-2) (0)), (f 2 0)⟩ : Itv)]))),
    .call ((Cmd.run (.op [(⟨(f (-1) (0)), (f 5 0)⟩ : Itv), (⟨(f (-5) (0)), .pinf⟩ : Itv), (⟨(f (-2) (0)), (f 2 0)⟩ : Itv)]))),
    .call ((Cmd.run (.op [(⟨(f (-1) (0)), (f 5 0)⟩ : Itv), (⟨(f 1 0), .pinf⟩ : Itv), (⟨(f (-2) (0)), (f 2 0)⟩ : Itv)]))),
    .call ((Cmd.run (.op [(⟨(f (-1) (0)), (f 5 0)⟩ : Itv), (Itv.entire : Itv), (⟨(f (-2) (0)), (f 2 0)⟩ : Itv)]))),
    .call ((Cmd.run (.op [(⟨(f (-10) (0)), (f (-5) (0))⟩ : Itv), (⟨(f 0 0), (f 0 0)⟩ : Itv), (⟨(f (-2) (0)), (f 2 0)⟩ : Itv)]))),
    .call ((Cmd.run (.op [(⟨(f (-10) (0)), (f (-5) (0))⟩ : Itv), (⟨.nzero, .nzero⟩ : Itv), (⟨(f (-2) (0)), (f 2 0)⟩ : Itv)]))),
    .call ((Cmd.run (.op [(⟨(f (-10) (0)), (f (-5) (0))⟩ : Itv), (⟨(f (-5) (0)), (f (-1) (0))⟩ : Itv), (⟨(f (-2) (0)), (f 2 0)⟩ : Itv)]))),
    .call ((Cmd.run (.op [(⟨(f (-10) (0)), (f (-5) (0))⟩ : Itv), (⟨(f (-5) (0)), (f 3 0)⟩ : Itv), (⟨(f (-2) (0)), (f 2 0)⟩ : Itv)]))),
    .call ((Cmd.run (.op [(⟨(f (-10) (0)), (f (-5) (0))⟩ : Itv), (⟨(f 1 0), (f 3 0)⟩ : Itv), (⟨(f (-2) (0)), (f 2 0)⟩ : Itv)]))),
    .call ((Cmd.run (.op [(⟨(f (-10) (0)), (f (-5) (0))⟩ : Itv), (⟨.ninf, (f (-1) (0))⟩ : Itv), (⟨(f (-2) (0)), (f 2 0)⟩ : Itv)]))),
    .call ((Cmd.run (.op [(⟨(f (-10) (0)), (f (-5) (0))⟩ : Itv), (⟨.ninf, (f 3 0)⟩ : Itv), (⟨(f (-2) (0)), (f 2 0)⟩ : Itv)]))),
    .call ((Cmd.run (.op [(⟨(f (-10) (0)), (f (-5) (0))⟩ : Itv), (⟨(f (-5) (0)), .pinf⟩ : Itv), (⟨(f (-2) (0)), (f 2 0)⟩ : Itv)]))),
    .call ((Cmd.run (.op [(⟨(f (-10) (0)), (f (-5) (0))⟩ : Itv), (⟨(f 1 0), .pinf⟩ : Itv), (⟨(f (-2) (0)), (f 2 0)⟩ : Itv)]))),
    .call ((Cmd.run (.op [(⟨(f (-10) (0)), (f (-5) (0))⟩ : Itv), (Itv.entire : Itv), (⟨(f (-2) (0)), (f 2 0)⟩ : Itv)]))),
    .call (do (Cmd.run (.op [(Itv.empty : Itv), (Itv.empty : Itv), (⟨(f (-2) (0)), .pinf⟩ : Itv)])); (Cmd.run (.op [(Fmt.fmaI binary64 (Itv.empty : Itv) (Itv.empty : Itv) (⟨(f (-2) (0)), .pinf⟩ : Itv) : Itv)]))),
    .call (do (Cmd.run (.op [(⟨(f (-1) (0)), (f 1 0)⟩ : Itv), (Itv.empty : Itv), (⟨(f (-2) (0)), .pinf⟩ : Itv)])); (Cmd.run (.op [(Fmt.fmaI binary64 (⟨(f (-1) (0)), (f 1 0)⟩ : Itv) (Itv.empty : Itv) (⟨(f (-2) (0)), .pinf⟩ : Itv) : Itv)]))),
    .call (do (Cmd.run (.op [(Itv.empty : Itv), (⟨(f (-1) (0)), (f 1 0)⟩ : Itv), (⟨(f (-2) (0)), .pinf⟩ : Itv)])); (Cmd.run (.op [(Fmt.fmaI binary64 (Itv.empty : Itv) (⟨(f (-1) (0)), (f 1 0)⟩ : Itv) (⟨(f (-2) (0)), .pinf⟩ : Itv) : Itv)]))),
    .call (do (Cmd.run (.op [(Itv.empty : Itv), (Itv.entire : Itv), (⟨(f (-2) (0)), .pinf⟩ : Itv)])); (Cmd.run (.op [(Fmt.fmaI binary64 (Itv.empty : Itv) (Itv.entire : Itv) (⟨(f (-2) (0)), .pinf⟩ : Itv) : Itv)]))),
    .call (do (Cmd.run (.op [(Itv.entire : Itv), (Itv.empty : Itv), (⟨(f (-2) (0)), .pinf⟩ : Itv)])); (Cmd.run (.op [(Fmt.fmaI binary64 (Itv.entire : Itv) (Itv.empty : Itv) (⟨(f (-2) (0)), .pinf⟩ : Itv) : Itv)]))),
    .call (do (Cmd.run (.op [(⟨(f 0 0), (f 0 0)⟩ : Itv), (Itv.empty : Itv), (⟨(f (-2) (0)), .pinf⟩ : Itv)])); (Cmd.run (.op [(Fmt.fmaI binary64 (⟨(f 0 0), (f 0 0)⟩ : Itv) (Itv.empty : Itv) (⟨(f (-2) (0)), .pinf⟩ : Itv) : Itv)]))),
    .call (do (Cmd.run (.op [(⟨.nzero, .nzero⟩ : Itv), (Itv.empty : Itv), (⟨(f (-2) (0)), .pinf⟩ : Itv)])); (Cmd.run (.op [(Fmt.fmaI binary64 (⟨.nzero, .nzero⟩ : Itv) (Itv.empty : Itv) (⟨(f (-2) (0)), .pinf⟩ : Itv) : Itv)]))),
    .call (do (Cmd.run (.op [(Itv.empty : Itv), (⟨(f 0 0), (f 0 0)⟩ : Itv), (⟨(f (-2) (0)), .pinf⟩ : Itv)])); (Cmd.run (.op [(Fmt.fmaI binary64 (Itv.empty : Itv) (⟨(f 0 0), (f 0 0)⟩ : Itv) (⟨(f (-2) (0)), .pinf⟩ : Itv) : Itv)]))),
    .call (do (Cmd.run (.op [(Itv.empty : Itv), (⟨.nzero, .nzero⟩ : Itv), (⟨(f (-2) (0)), .pinf⟩ : Itv)])); (Cmd.run (.op [(Fmt.fmaI binary64 (Itv.empty : Itv) (⟨.nzero, .nzero⟩ : Itv) (⟨(f (-2) (0)), .pinf⟩ : Itv) : Itv)]))),
    .call ((Cmd.run (.op [(Itv.entire : Itv), (⟨(f 0 0), (f 0 0)⟩ : Itv), (⟨(f (-2) (0)), .pinf⟩ : Itv)]))),
    .call ((Cmd.run (.op [(Itv.entire : Itv), (⟨.nzero, .nzero⟩ : Itv), (⟨(f (-2) (0)), .pinf⟩ : Itv)]))),
    .call ((Cmd.run (.op [(Itv.entire : Itv), (⟨(f (-5) (0)), (f (-1) (0))⟩ : Itv), (⟨(f (-2) (0)), .pinf⟩ : Itv)]))),
    .call ((Cmd.run (.op [(Itv.entire : Itv), (⟨(f (-5) (0)), (f 3 0)⟩ : Itv), (⟨(f (-2) (0)), .pinf⟩ : Itv)]))),
    .call ((Cmd.run (.op [(Itv.entire : Itv), (⟨(f 1 0), (f 3 0)⟩ : Itv), (⟨(f (-2) (0)), .pinf⟩ : Itv)]))),
    .call ((Cmd.run (.op [(Itv.entire : Itv), (⟨.ninf, (f (-1) (0))⟩ : Itv), (⟨(f (-2) (0)), .pinf⟩ : Itv)]))),
    .call ((Cmd.run (.op [(Itv.entire : Itv), (⟨.ninf, (f 3 0)⟩ : Itv), (⟨(f (-2) (0)), .pinf⟩ : Itv)]))),
    .call ((Cmd.run (.op [(Itv.entire : Itv), (⟨(f (-5) (0)), .pinf⟩ : Itv), (⟨(f (-2) (0)), .pinf⟩ : Itv)]))),
    .call ((Cmd.run (.op [(Itv.entire : Itv), (⟨(f 1 0), .pinf⟩ : Itv), (⟨(f (-2) (0)), .pinf⟩ : Itv)]))),
    .call ((Cmd.run (.op [(Itv.entire : Itv), (Itv.entire : Itv), (⟨(f (-2) (0)), .pinf⟩ : Itv)]))),
    .call ((Cmd.run (.op [(⟨(f 1 0), .pinf⟩ : Itv), (⟨(f 0 0), (f 0 0)⟩ : Itv), (⟨(f (-2) (0)), .pinf⟩ : Itv)]))),
    .call ((Cmd.run (.op [(⟨(f 1 0), .pinf⟩ : Itv), (⟨.nzero, .nzero⟩ : Itv), (⟨(f (-2) (0)), .pinf⟩ : Itv)]))),
    .call ((Cmd.run (.op [(⟨(f 1 0), .pinf⟩ : Itv), (⟨(f (-5) (0)), (f (-1) (0))⟩ : Itv), (⟨(f (-2) (0)), .pinf⟩ : Itv)]))),
    .call ((Cmd.run (.op [(⟨(f 1 0), .pinf⟩ : Itv), (⟨(f (-5) (0)), (f 3 0)⟩ : Itv), (⟨(f (-2) (0)), .pinf⟩ : Itv)]))),
    .call ((Cmd.run (.op [(⟨(f 1 0), .pinf⟩ : Itv), (⟨(f 1 0), (f 3 0)⟩ : Itv), (⟨(f (-2) (0)), .pinf⟩ : Itv)]))),
    .call ((Cmd.run (.op [(⟨(f 1 0), .pinf⟩ : Itv), (⟨.ninf, (f (-1) (0))⟩ : Itv), (⟨(f (-2) (0)), .pinf⟩ : Itv)]))),
    .call ((Cmd.run (.op [(⟨(f 1 0), .pinf⟩ : Itv), (⟨.ninf, (f 3 0)⟩ : Itv), (⟨(f (-2) (0)), .pinf⟩ : Itv)]))),
    .call ((Cmd.run (.op [(⟨(f 1 0), .pinf⟩ : Itv), (⟨(f (-5) (0)), .pinf⟩ : Itv), (⟨(f (-2) (0)), .pinf⟩ : Itv)]))),
    .call ((Cmd.run (.op [(⟨(f 1 0), .pinf⟩ : Itv), (⟨(f 1 0), .pinf⟩ : Itv), (⟨(f (-2) (0)), .pinf⟩ : Itv)]))),
    .call ((Cmd.run (.op [(⟨(f 1 0), .pinf⟩ : Itv), (Itv.entire : Itv), (⟨(f (-2) (0)), .pinf⟩ : Itv)]))),
    .call ((Cmd.run (.op [(⟨(f (-1) (0)), .pinf⟩ : Itv), (⟨(f 0 0), (f 0 0)⟩ : Itv), (⟨(f (-2) (0)), .pinf⟩ : Itv)]))),
    .call ((Cmd.run (.op [(⟨(f (-1) (0)), .pinf⟩ : Itv), (⟨.nzero, .nzero⟩ : Itv), (⟨(f (-2) (0)), .pinf⟩ : Itv)]))),
    .call ((Cmd.run (.op [(⟨(f (-1) (0)), .pinf⟩ : Itv), (⟨(f (-5) (0)), (f (-1) (0))⟩ : Itv), (⟨(f (-2) (0)), .pinf⟩ : Itv)]))),
    .call ((Cmd.run (.op [(⟨(f (-1) (0)), .pinf⟩ : Itv), (⟨(f (-5) (0)), (f 3 0)⟩ : Itv), (⟨(f (-2) (0)), .pinf⟩ : Itv)]))),
    .call ((Cmd.run (.op [(⟨(f (-1) (0)), .pinf⟩ : Itv), (⟨(f 1 0), (f 3 0)⟩ : Itv), (⟨(f (-2) (0)), .pinf⟩ : Itv)]))),
    .call ((Cmd.run (.op [(⟨(f (-1) (0)), .pinf⟩ : Itv), (⟨.ninf, (f (-1) (0))⟩ : Itv), (⟨(f (-2) (0)), .pinf⟩ : Itv)]))),
    .call ((Cmd.run (.op [(⟨(f (-1) (0)), .pinf⟩ : Itv), (⟨.ninf, (f 3 0)⟩ : Itv), (⟨(f (-2) (0)), .pinf⟩ : Itv)]))),
    .call ((Cmd.run (.op [(⟨(f (-1) (0)), .pinf⟩ : Itv), (⟨(f (-5) (0)), .pinf⟩ : Itv), (⟨(f (-2) (0)), .pinf⟩ : Itv)]))),
    .call ((Cmd.run (.op [(⟨(f (-1) (0)), .pinf⟩ : Itv), (⟨(f 1 0), .pinf⟩ : Itv), (⟨(f (-2) (0)), .pinf⟩ : Itv)]))),
    .call ((Cmd.run (.op [(⟨(f (-1) (0)), .pinf⟩ : Itv), (Itv.entire : Itv), (⟨(f (-2) (0)), .pinf⟩ : Itv)]))),
    .call ((Cmd.run (.op [(⟨.ninf, (f 3 0)⟩ : Itv), (⟨(f 0 0), (f 0 0)⟩ : Itv), (⟨(f (-2) (0)), .pinf⟩ : Itv)]))),
    .call ((Cmd.run (.op [(⟨.ninf, (f 3 0)⟩ : Itv), (⟨.nzero, .nzero⟩ : Itv), (⟨(f (-2) (0)), .pinf⟩ : Itv)]))),
    .call ((Cmd.run (.op [(⟨.ninf, (f 3 0)⟩ : Itv), (⟨(f (-5) (0)), (f (-1) (0))⟩ : Itv), (⟨(f (-2) (0)), .pinf⟩ : Itv)]))),
    .call ((Cmd.run (.op [(⟨.ninf, (f 3 0)⟩ : Itv), (⟨(f (-5) (0)), (f 3 0)⟩ : Itv), (⟨(f (-2) (0)), .pinf⟩ : Itv)]))),
    .call ((Cmd.run (.op [(⟨.ninf, (f 3 0)⟩ : Itv), (⟨(f 1 0), (f 3 0)⟩ : Itv), (⟨(f (-2) (0)), .pinf⟩ : Itv)]))),
    .call ((Cmd.run (.op [(⟨.ninf, (f 3 0)⟩ : Itv), (⟨.ninf, (f (-1) (0))⟩ : Itv), (⟨(f (-2) (0)), .pinf⟩ : Itv)]))),
    .call ((Cmd.run (.op [(⟨.ninf, (f 3 0)⟩ : Itv), (⟨.ninf, (f 3 0)⟩ : Itv), (⟨(f (-2) (0)), .pinf⟩ : Itv)]))),
    .call ((Cmd.run (.op [(⟨.ninf, (f 3 0)⟩ : Itv), (⟨(f (-5) (0)), .pinf⟩ : Itv), (⟨(f (-2) (0)), .pinf⟩ : Itv)]))),
    .call ((Cmd.run (.op [(⟨.ninf, (f 3 0)⟩ : Itv), (⟨(f 1 0), .pinf⟩ : Itv), (⟨(f (-2) (0)), .pinf⟩ : Itv)]))),
    .call ((Cmd.run (.op [(⟨.ninf, (f 3 0)⟩ : Itv), (Itv.entire : Itv), (⟨(f (-2) (0)), .pinf⟩ : Itv)]))),
    .call ((Cmd.run (.op [(⟨.ninf, (f (-3) (0))⟩ : Itv), (⟨(f 0 0), (f 0 0)⟩ : Itv), (⟨(f (-2) (0)), .pinf⟩ : Itv)]))),
    .call ((Cmd.run (.op [(⟨.ninf, (f (-3) (0))⟩ : Itv), (⟨.nzero, .nzero⟩ : Itv), (⟨(f (-2) (0)), .pinf⟩ : Itv)]))),
    .call ((Cmd.run (.op [(⟨.ninf, (f (-3) (0))⟩ : Itv), (⟨(f (-5) (0)), (f (-1) (0))⟩ : Itv), (⟨(f (-2) (0)), .pinf⟩ : Itv)]))),
    .call ((Cmd.run (.op [(⟨.ninf, (f (-3) (0))⟩ : Itv), (⟨(f (-5) (0)), (f 3 0)⟩ : Itv), (⟨(f (-2) (0)), .pinf⟩ : Itv)]))),
    .call ((Cmd.run (.op [(⟨.ninf, (f (-3) (0))⟩ : Itv), (⟨(f 1 0), (f 3 0)⟩ : Itv), (⟨(f (-2) (0)), .pinf⟩ : Itv)]))),
    .call ((Cmd.run (.op [(⟨.ninf, (f (-3) (0))⟩ : Itv), (⟨.ninf, (f (-1) (0))⟩ : Itv), (⟨(f (-2) (0)), .pinf⟩ : Itv)]))),
    .call ((Cmd.run (.op [(⟨.ninf, (f (-3) (0))⟩ : Itv), (⟨.ninf, (f 3 0)⟩ : Itv), (⟨(f (-2) (0)), .pinf⟩ : Itv)]))),
    .call ((Cmd.run (.op [(⟨.ninf, (f (-3) (0))⟩ : Itv), (⟨(f (-5) (0)), .pinf⟩ : Itv), (⟨(f (-2) (0)), .pinf⟩ : Itv)]))),
    .call ((Cmd.run (.op [(⟨.ninf, (f (-3) (0))⟩ : Itv), (⟨(f 1 0), .pinf⟩ : Itv), (⟨(f (-2) (0)), .pinf⟩ : Itv)]))),
    .call ((Cmd.run (.op [(⟨.ninf, (f (-3) (0))⟩ : Itv), (Itv.entire : Itv), (⟨(f (-2) (0)), .pinf⟩ : Itv)]))),
    .call ((Cmd.run (.op [(⟨(f 0 0), (f 0 0)⟩ : Itv), (⟨(f 0 0), (f 0 0)⟩ : Itv), (⟨(f (-2) (0)), .pinf⟩ : Itv)]))),
    .call ((Cmd.run (.op [(⟨(f 0 0), (f 0 0)⟩ : Itv), (⟨.nzero, .nzero⟩ : Itv), (⟨(f (-2) (0)), .pinf⟩ : Itv)]))),
    .call ((Cmd.run (.op [(⟨(f 0 0), (f 0 0)⟩ : Itv), (⟨(f (-5) (0)), (f (-1) (0))⟩ : Itv), (⟨(f (-2) (0)), .pinf⟩ : Itv)]))),
    .call ((Cmd.run (.op [(⟨(f 0 0), (f 0 0)⟩ : Itv), (⟨(f (-5) (0)), (f 3 0)⟩ : Itv), (⟨(f (-2) (0)), .pinf⟩ : Itv)]))),
    .call ((Cmd.run (.op [(⟨(f 0 0), (f 0 0)⟩ : Itv), (⟨(f 1 0), (f 3 0)⟩ : Itv), (⟨(f (-2) (0)), .pinf⟩ : Itv)]))),
    .call ((Cmd.run (.op [(⟨(f 0 0), (f 0 0)⟩ : Itv), (⟨.ninf, (f (-1) (0))⟩ : Itv), (⟨(f (-2) (0)), .pinf⟩ : Itv)]))),
    .call ((Cmd.run (.op [(⟨(f 0 0), (f 0 0)⟩ : Itv), (⟨.ninf, (f 3 0)⟩ : Itv), (⟨(f (-2) (0)), .pinf⟩ : Itv)]))),
    .call ((Cmd.run (.op [(⟨(f 0 0), (f 0 0)⟩ : Itv), (⟨(f (-5) (0)), .pinf⟩ : Itv), (⟨(f (-2) (0)), .pinf⟩ : Itv)]))),
    .call ((Cmd.run (.op [(⟨(f 0 0), (f 0 0)⟩ : Itv), (⟨(f 1 0), .pinf⟩ : Itv), (⟨(f (-2) (0)), .pinf⟩ : Itv)]))),
    .call ((Cmd.run (.op [(⟨(f 0 0), (f 0 0)⟩ : Itv), (Itv.entire : Itv), (⟨(f (-2) (0)), .pinf⟩ : Itv)]))),
    .call ((Cmd.run (.op [(⟨.nzero, .nzero⟩ : Itv), (⟨(f 0 0), (f 0 0)⟩ : Itv), (⟨(f (-2) (0)), .pinf⟩ : Itv)]))),
    .call ((Cmd.run (.op [(⟨.nzero, .nzero⟩ : Itv), (⟨.nzero, .nzero⟩ : Itv), (⟨(f (-2) (0)), .pinf⟩ : Itv)]))),
    .call ((Cmd.run (.op [(⟨.nzero, .nzero⟩ : Itv), (⟨(f (-5) (0)), (f (-1) (0))⟩ : Itv), (⟨(f (-2) (0)), .pinf⟩ : Itv)]))),
    .call ((Cmd.run (.op [(⟨.nzero, .nzero⟩ : Itv), (⟨(f (-5) (0)), (f 3 0)⟩ : Itv), (⟨(f (-2) (0)), .pinf⟩ : Itv)]))),
    .call ((Cmd.run (.op [(⟨.nzero, .nzero⟩ : Itv), (⟨(f 1 0), (f 3 0)⟩ : Itv), (⟨(f (-2) (0)), .pinf⟩ : Itv)]))),
    .call ((Cmd.run (.op [(⟨.nzero, .nzero⟩ : Itv), (⟨.ninf, (f (-1) (0))⟩ : Itv), (⟨(f (-2) (0)), .pinf⟩ : Itv)]))),
    .call ((Cmd.run (.op [(⟨.nzero, .nzero⟩ : Itv), (⟨.ninf, (f 3 0)⟩ : Itv), (⟨(f (-2) (0)), .pinf⟩ : Itv)]))),
    .call ((Cmd.run (.op [(⟨.nzero, .nzero⟩ : Itv), (⟨(f (-5) (0)), .pinf⟩ : Itv), (⟨(f (-2) (0)), .pinf⟩ : Itv)]))),
    .call ((Cmd.run (.op [(⟨.nzero, .nzero⟩ : Itv), (⟨(f 1 0), .pinf⟩ : Itv), (⟨(f (-2) (0)), .pinf⟩ : Itv)]))),
    .call ((Cmd.run (.op [(⟨.nzero, .nzero⟩ : Itv), (Itv.entire : Itv), (⟨(f (-2) (0)), .pinf⟩ : Itv)]))),
    .call ((Cmd.run (.op [(⟨(f 1 0), (f 5 0)⟩ : Itv), (⟨(f 0 0), (f 0 0)⟩ : Itv), (⟨(f (-2) (0)), .pinf⟩ : Itv)]))),
    .call ((Cmd.run (.op [(⟨(f 1 0), (f 5 0)⟩ : Itv), (⟨.nzero, .nzero⟩ : Itv), (⟨(f (-2) (0)), .pinf⟩ : Itv)]))),
    .call ((Cmd.run (.op [(⟨(f 1 0), (f 5 0)⟩ : Itv), (⟨(f (-5) (0)), (f (-1) (0))⟩ : Itv), (⟨(f (-2) (0)), .pinf⟩ : Itv)]))),
    .call ((Cmd.run (.op [(⟨(f 1 0), (f 5 0)⟩ : Itv), (⟨(f (-5) (0)), (f 3 0)⟩ : Itv), (⟨(f (-2) (0)), .pinf⟩ : Itv)]))),
    .call ((Cmd.run (.op [(⟨(f 1 0), (f 5 0)⟩ : Itv), (⟨(f 1 0), (f 3 0)⟩ : Itv), (⟨(f (-2) (0)), .pinf⟩ : Itv)]))),
    .call ((Cmd.run (.op [(⟨(f 1 0), (f 5 0)⟩ : Itv), (⟨.ninf, (f (-1) (0))⟩ : Itv), (⟨(f (-2) (0)), .pinf⟩ : Itv)]))),
    .call ((Cmd.run (.op [(⟨(f 1 0), (f 5 0)⟩ : Itv), (⟨.ninf, (f 3 0)⟩ : Itv), (⟨(f (-2) (0)), .pinf⟩ : Itv)]))),
    .call ((Cmd.run (.op [(⟨(f 1 0), (f 5 0)⟩ : Itv), (⟨(f (-5) (0)), .pinf⟩ : Itv), (⟨(f (-2) (0)), .pinf⟩ : Itv)]))),
    .call ((Cmd.run (.op [(⟨(f 1 0), (f 5 0)⟩ : Itv), (⟨(f 1 0), .pinf⟩ : Itv), (⟨(f (-2) (0)), .pinf⟩ : Itv)]))),
    .call ((Cmd.run (.op [(⟨(f 1 0), (f 5 0)⟩ : Itv), (Itv.entire : Itv), (⟨(f (-2) (0)), .pinf⟩ : Itv)]))),
    .call ((Cmd.run (.op [(⟨(f (-1) (0)), (f 5 0)⟩ : Itv), (⟨.nzero, .nzero⟩ : Itv), (⟨(f (-2) (0)), .pinf⟩ : Itv)]))),
    .call ((Cmd.run (.op [(⟨(f (-1) (0)), (f 5 0)⟩ : Itv), (⟨(f 0 0), (f 0 0)⟩ : Itv), (⟨(f (-2) (0)), .pinf⟩ : Itv)]))),
    .call ((Cmd.run (.op [(⟨(f (-1) (0)), (f 5 0)⟩ : Itv), (⟨(f (-5) (0)), (f (-1) (0))⟩ : Itv), (⟨(f (-2) (0)), .pinf⟩ : Itv)]))),
    .call ((Cmd.run (.op [(⟨(f (-1) (0)), (f 5 0)⟩ : Itv), (⟨(f (-5) (0)), (f 3 0)⟩ : Itv), (⟨(f (-2) (0)), .pinf⟩ : Itv)]))),
    .call ((Cmd.run (.op [(⟨(f (-10) (0)), (f 2 0)⟩ : Itv), (⟨(f (-5) (0)), (f 3 0)⟩ : Itv), (⟨(f (-2) (0)), .pinf⟩ : Itv)]))),
    .call ((Cmd.run (.op [(⟨(f (-1) (0)), (f 5 0)⟩ : Itv), (⟨(f (-1) (0)), (f 10 0)⟩ : Itv), (⟨(f (-2) (0)), .pinf⟩ : Itv)]))),
    .call ((Cmd.run (.op [(⟨(f (-2) (0)), (f 2 0)⟩ : Itv), (⟨(f (-5) (0)), (f 3 0)⟩ : Itv), (⟨(f (-2) (0)), .pinf⟩ : Itv)]))),
    .call ((Cmd.run (.op [(⟨(f (-1) (0)), (f 5 0)⟩ : Itv), (⟨(f 1 0), (f 3 0)⟩ : Itv), (⟨(f (-2) (0)), .pinf⟩ : Itv)]))),
    .call ((Cmd.run (.op [(⟨(f (-1) (0)), (f 5 0)⟩ : Itv), (⟨.ninf, (f (-1) (0))⟩ : Itv), (⟨(f (-2) (0)), .pinf⟩ : Itv)]))),
    .call ((Cmd.run (.op [(⟨(f (-1) (0)), (f 5 0)⟩ : Itv), (⟨.ninf, (f 3 0)⟩ : Itv), (⟨(f (-2) (0)), .pinf⟩ : Itv)]))),
    .call ((Cmd.run (.op [(⟨(f (-1) (0)), (f 5 0)⟩ : Itv), (⟨(f (-5) (0)), .pinf⟩ : Itv), (⟨(f (-2) (0)), .pinf⟩ : Itv)]))),
    .call ((Cmd.run (.op [(⟨(f (-1) (0)), (f 5 0)⟩ : Itv), (⟨(f 1 0), .pinf⟩ : Itv), (⟨(f (-2) (0)), .pinf⟩ : Itv)]))),
    .call ((Cmd.run (.op [(⟨(f (-1) (0)), (f 5 0)⟩ : Itv), (Itv.entire : Itv), (⟨(f (-2) (0)), .pinf⟩ : Itv)]))),
    .call ((Cmd.run (.op [(⟨(f (-10) (0)), (f (-5) (0))⟩ : Itv), (⟨(f 0 0), (f 0 0)⟩ : Itv), (⟨(f (-2) (0)), .pinf⟩ : Itv)]))),
    .call ((Cmd.run (.op [(⟨(f (-10) (0)), (f (-5) (0))⟩ : Itv), (⟨.nzero, .nzero⟩ : Itv), (⟨(f (-2) (0)), .pinf⟩ : Itv)]))),
    .call ((Cmd.run (.op [(⟨(f (-10) (0)), (f (-5) (0))⟩ : Itv), (⟨(f (-5) (0)), (f (-1) (0))⟩ : Itv), (⟨(f (-2) (0)), .pinf⟩ : Itv)]))),
    .call ((Cmd.run (.op [(⟨(f (-10) (0)), (f (-5) (0))⟩ : Itv), (⟨(f (-5) (0)), (f 3 0)⟩ : Itv), (⟨(f (-2) (0)), .pinf⟩ : Itv)]))),
    .call ((Cmd.run (.op [(⟨(f (-10) (0)), (f (-5) (0))⟩ : Itv), (⟨(f 1 0), (f 3 0)⟩ : Itv), (⟨(f (-2) (0)), .pinf⟩ : Itv)]))),
    .call ((Cmd.run (.op [(⟨(f (-10) (0)), (f (-5) (0))⟩ : Itv), (⟨.ninf, (f (-1) (0))⟩ : Itv), (⟨(f (-2) (0)), .pinf⟩ : Itv)]))),
    .call ((Cmd.run (.op [(⟨(f (-10) (0)), (f (-5) (0))⟩ : Itv), (⟨.ninf, (f 3 0)⟩ : Itv), (⟨(f (-2) (0)), .pinf⟩ : Itv)]))),
    .call ((Cmd.run (.op [(⟨(f (-10) (0)), (f (-5) (0))⟩ : Itv), (⟨(f (-5) (0)), .pinf⟩ : Itv), (⟨(f (-2) (0)), .pinf⟩ : Itv)]))),
    .call ((Cmd.run (.op [(⟨(f (-10) (0)), (f (-5) (0))⟩ : Itv), (⟨(f 1 0), .pinf⟩ : Itv), (⟨(f (-2) (0)), .pinf⟩ : Itv)]))),
    .call ((Cmd.run (.op [(⟨(f (-10) (0)), (f (-5) (0))⟩ : Itv), (Itv.entire : Itv), (⟨(f (-2) (0)), .pinf⟩ : Itv)]))),
    .call (do (Cmd.run (.op [(Itv.empty : Itv), (Itv.empty : Itv), (Itv.entire : Itv)])); (Cmd.run (.op [(Fmt.fmaI binary64 (Itv.empty : Itv) (Itv.empty : Itv) (Itv.entire : Itv) : Itv)]))),
    .call (do (Cmd.run (.op [(⟨(f (-1) (0)), (f 1 0)⟩ : Itv), (Itv.empty : Itv), (Itv.entire : Itv)])); (Cmd.run (.op [(Fmt.fmaI binary64 (⟨(f (-1) (0)), (f 1 0)⟩ : Itv) (Itv.empty : Itv) (Itv.entire : Itv) : Itv)]))),
    .call (do (Cmd.run (.op [(Itv.empty : Itv), (⟨(f (-1) (0)), (f 1 0)⟩ : Itv), (Itv.entire : Itv)])); (Cmd.run (.op [(Fmt.fmaI binary64 (Itv.empty : Itv) (⟨(f (-1) (0)), (f 1 0)⟩ : Itv) (Itv.entire : Itv) : Itv)]))),
    .call (do (Cmd.run (.op [(Itv.empty : Itv), (Itv.entire : Itv), (Itv.entire : Itv)])); (Cmd.run (.op [(Fmt.fmaI binary64 (Itv.empty : Itv) (Itv.entire : Itv) (Itv.entire : Itv) : Itv)]))),
    .call (do (Cmd.run (.op [(Itv.entire : Itv), (Itv.empty : Itv), (Itv.entire : Itv)])); (Cmd.run (.op [(Fmt.fmaI binary64 (Itv.entire : Itv) (Itv.empty : Itv) (Itv.entire : Itv) : Itv)]))),
    .call (do (Cmd.run (.op [(⟨(f 0 0), (f 0 0)⟩ : Itv), (Itv.empty : Itv), (Itv.entire : Itv)])); (Cmd.run (.op [(Fmt.fmaI binary64 (⟨(f 0 0), (f 0 0)⟩ : Itv) (Itv.empty : Itv) (Itv.entire : Itv) : Itv)]))),
    .call (do (Cmd.run (.op [(⟨.nzero, .nzero⟩ : Itv), (Itv.empty : Itv), (Itv.entire : Itv)])); (Cmd.run (.op [(Fmt.fmaI binary64 (⟨.nzero, .nzero⟩ : Itv) (Itv.empty : Itv) (Itv.entire : Itv) : Itv)]))),
    .call (do (Cmd.run (.op [(Itv.empty : Itv), (⟨(f 0 0), (f 0 0)⟩ : Itv), (Itv.entire : Itv)])); (Cmd.run (.op [(Fmt.fmaI binary64 (Itv.empty : Itv) (⟨(f 0 0), (f 0 0)⟩ : Itv) (Itv.entire : Itv) : Itv)]))),
    .call (do (Cmd.run (.op [(Itv.empty : Itv), (⟨.nzero, .nzero⟩ : Itv), (Itv.entire : Itv)])); (Cmd.run (.op [(Fmt.fmaI binary64 (Itv.empty : Itv) (⟨.nzero, .nzero⟩ : Itv) (Itv.entire : Itv) : Itv)]))),
    .call ((Cmd.run (.op [(Itv.entire : Itv), (⟨(f 0 0), (f 0 0)⟩ : Itv), (Itv.entire : Itv)]))),
    .call ((Cmd.run (.op [(Itv.entire : Itv), (⟨.nzero, .nzero⟩ : Itv), (Itv.entire : Itv)]))),
    .call ((Cmd.run (.op [(Itv.entire : Itv), (⟨(f (-5) (0)), (f (-1) (0))⟩ : Itv), (Itv.entire : Itv)]))),
    .call ((Cmd.run (.op [(Itv.entire : Itv), (⟨(f (-5) (0)), (f 3 0)⟩ : Itv), (Itv.entire : Itv)]))),
    .call ((Cmd.run (.op [(Itv.entire : Itv), (⟨(f 1 0), (f 3 0)⟩ : Itv), (Itv.entire : Itv)]))),
    .call ((Cmd.run (.op [(Itv.entire : Itv), (⟨.ninf, (f (-1) (0))⟩ : Itv), (Itv.entire : Itv)]))),
    .call ((Cmd.run (.op [(Itv.entire : Itv), (⟨.ninf, (f 3 0)⟩ : Itv), (Itv.entire : Itv)]))),
    .call ((Cmd.run (.op [(Itv.entire : Itv), (⟨(f (-5) (0)), .pinf⟩ : Itv), (Itv.entire : Itv)]))),
    .call ((Cmd.run (.op [(Itv.entire : Itv), (⟨(f 1 0), .pinf⟩ : Itv), (Itv.entire : Itv)]))),
    .call ((Cmd.run (.op [(Itv.entire : Itv), (Itv.entire : Itv), (Itv.entire : Itv)]))),
    .call ((Cmd.run (.op [(⟨(f 1 0), .pinf⟩ : Itv), (⟨(f 0 0), (f 0 0)⟩ : Itv), (Itv.entire : Itv)]))),
    .call ((Cmd.run (.op [(⟨(f 1 0), .pinf⟩ : Itv), (⟨.nzero, .nzero⟩ : Itv), (Itv.entire : Itv)]))),
    .call ((Cmd.run (.op [(⟨(f 1 0), .pinf⟩ : Itv), (⟨(f (-5) (0)), (f (-1) (0))⟩ : Itv), (Itv.entire : Itv)]))),
    .call ((Cmd.run (.op [(⟨(f 1 0), .pinf⟩ : Itv), (⟨(f (-5) (0)), (f 3 0)⟩ : Itv), (Itv.entire : Itv)]))),
    .call ((Cmd.run (.op [(⟨(f 1 0), .pinf⟩ : Itv), (⟨(f 1 0), (f 3 0)⟩ : Itv), (Itv.entire : Itv)]))),
    .call ((Cmd.run (.op [(⟨(f 1 0), .pinf⟩ : Itv), (⟨.ninf, (f (-1) (0))⟩ : Itv), (Itv.entire : Itv)]))),
    .call ((Cmd.run (.op [(⟨(f 1 0), .pinf⟩ : Itv), (⟨.ninf, (f 3 0)⟩ : Itv), (Itv.entire : Itv)]))),
    .call ((Cmd.run (.op [(⟨(f 1 0), .pinf⟩ : Itv), (⟨(f (-5) (0)), .pinf⟩ : Itv), (Itv.entire : Itv)]))),
    .call ((Cmd.run (.op [(⟨(f 1 0), .pinf⟩ : Itv), (⟨(f 1 0), .pinf⟩ : Itv), (Itv.entire : Itv)]))),
    .call ((Cmd.run (.op [(⟨(f 1 0), .pinf⟩ : Itv), (Itv.entire : Itv), (Itv.entire : Itv)]))),
    .call ((Cmd.run (.op [(⟨(f (-1) (0)), .pinf⟩ : Itv), (⟨(f 0 0), (f 0 0)⟩ : Itv), (Itv.entire : Itv)]))),
    .call ((Cmd.run (.op [(⟨(f (-1) (0)), .pinf⟩ : Itv), (⟨.nzero, .nzero⟩ : Itv), (Itv.entire : Itv)]))),
    .call ((Cmd.run (.op [(⟨(f (-1) (0)), .pinf⟩ : Itv), (⟨(f (-5) (0)), (f (-1) (0))⟩ : Itv), (Itv.entire : Itv)]))),
    .call ((Cmd.run (.op [(⟨(f (-1) (0)), .pinf⟩ : Itv), (⟨(f (-5) (0)), (f 3 0)⟩ : Itv), (Itv.entire : Itv)]))),
    .call ((Cmd.run (.op [(⟨(f (-1) (0)), .pinf⟩ : Itv), (⟨(f 1 0), (f 3 0)⟩ : Itv), (Itv.entire : Itv)]))),
    .call ((Cmd.run (.op [(⟨(f (-1) (0)), .pinf⟩ : Itv), (⟨.ninf, (f (-1) (0))⟩ : Itv), (Itv.entire : Itv)]))),
    .call ((Cmd.run (.op [(⟨(f (-1) (0)), .pinf⟩ : Itv), (⟨.ninf, (f 3 0)⟩ : Itv), (Itv.entire : Itv)]))),
    .call ((Cmd.run (.op [(⟨(f (-1) (0)), .pinf⟩ : Itv), (⟨(f (-5) (0)), .pinf⟩ : Itv), (Itv.entire : Itv)]))),
    .call ((Cmd.run (.op [(⟨(f (-1) (0)), .pinf⟩ : Itv), (⟨(f 1 0), .pinf⟩ : Itv), (Itv.entire : Itv)]))),
    .call ((Cmd.run (.op [(⟨(f (-1) (0)), .pinf⟩ : Itv), (Itv.entire : Itv), (Itv.entire : Itv)]))),
    .call ((Cmd.run (.op [(⟨.ninf, (f 3 0)⟩ : Itv), (⟨(f 0 0), (f 0 0)⟩ : Itv), (Itv.entire : Itv)]))),
    .call ((Cmd.run (.op [(⟨.ninf, (f 3 0)⟩ : Itv), (⟨.nzero, .nzero⟩ : Itv), (Itv.entire : Itv)]))),
    .call ((Cmd.run (.op [(⟨.ninf, (f 3 0)⟩ : Itv), (⟨(f (-5) (0)), (f (-1) (0))⟩ : Itv), (Itv.entire : Itv)]))),
    .call ((Cmd.run (.op [(⟨.ninf, (f 3 0)⟩ : Itv), (⟨(f (-5) (0)), (f 3 0)⟩ : Itv), (Itv.entire : Itv)]))),
    .call ((Cmd.run (.op [(⟨.ninf, (f 3 0)⟩ : Itv), (⟨(f 1 0), (f 3 0)⟩ : Itv), (Itv.entire : Itv)]))),
    .call ((Cmd.run (.op [(⟨.ninf, (f 3 0)⟩ : Itv), (⟨.ninf, (f (-1) (0))⟩ : Itv), (Itv.entire : Itv)]))),
    .call ((Cmd.run (.op [(⟨.ninf, (f 3 0)⟩ : Itv), (⟨.ninf, (f 3 0)⟩ : Itv), (Itv.entire : Itv)]))),
    .call ((Cmd.run (.op [(⟨.ninf, (f 3 0)⟩ : Itv), (⟨(f (-5) (0)), .pinf⟩ : Itv), (Itv.entire : Itv)]))),
    .call ((Cmd.run (.op [(⟨.ninf, (f 3 0)⟩ : Itv), (⟨(f 1 0), .pinf⟩ : Itv), (Itv.entire : Itv)]))),
    .call ((Cmd.run (.op [(⟨.ninf, (f 3 0)⟩ : Itv), (Itv.entire : Itv), (Itv.entire : Itv)]))),
    .call ((Cmd.run (.op [(⟨.ninf, (f (-3) (0))⟩ : Itv), (⟨(f 0 0), (f 0 0)⟩ : Itv), (Itv.entire : Itv)]))),
    .call ((Cmd.run (.op [(⟨.ninf, (f (-3) (0))⟩ : Itv), (⟨.nzero, .nzero⟩ : Itv), (Itv.entire : Itv)]))),
    .call ((Cmd.run (.op [(⟨.ninf, (f (-3) (0))⟩ : Itv), (⟨(f (-5) (0)), (f (-1) (0))⟩ : Itv), (Itv.entire : Itv)]))),
    .call ((Cmd.run (.op [(⟨.ninf, (f (-3) (0))⟩ : Itv), (⟨(f (-5) (0)), (f 3 0)⟩ : Itv), (Itv.entire : Itv)]))),
    .call ((Cmd.run (.op [(⟨.ninf, (f (-3) (0))⟩ : Itv), (⟨(f 1 0), (f 3 0)⟩ : Itv), (Itv.entire : Itv)]))),
    .call ((Cmd.run (.op [(⟨.ninf, (f (-3) (0))⟩ : Itv), (⟨.ninf, (f (-1) (0))⟩ : Itv), (Itv.entire : Itv)]))),
    .call ((Cmd.run (.op [(⟨.ninf, (f (-3) (0))⟩ : Itv), (⟨.ninf, (f 3 0)⟩ : Itv), (Itv.entire : Itv)]))),
    .call ((Cmd.run (.op [(⟨.ninf, (f (-3) (0))⟩ : Itv), (⟨(f (-5) (0)), .pinf⟩ : Itv), (Itv.entire : Itv)]))),
    .call ((Cmd.run (.op [(⟨.ninf, (f (-3) (0))⟩ : Itv), (⟨(f 1 0), .pinf⟩ : Itv), (Itv.entire : Itv)]))),
    .call ((Cmd.run (.op [(⟨.ninf, (f (-3) (0))⟩ : Itv), (Itv.entire : Itv), (Itv.entire : Itv)]))),
    .call ((Cmd.run (.op [(⟨(f 0 0), (f 0 0)⟩ : Itv), (⟨(f 0 0), (f 0 0)⟩ : Itv), (Itv.entire : Itv)]))),
    .call ((Cmd.run (.op [(⟨(f 0 0), (f 0 0)⟩ : Itv), (⟨.nzero, .nzero⟩ : Itv), (Itv.entire : Itv)]))),
    .call ((Cmd.run (.op [(⟨(f 0 0), (f 0 0)⟩ : Itv), (⟨(f (-5) (0)), (f (-1) (0))⟩ : Itv), (Itv.entire : Itv)]))),
    .call ((Cmd.run (.op [(⟨(f 0 0), (f 0 0)⟩ : Itv), (⟨(f (-5) (0)), (f 3 0)⟩ : Itv), (Itv.entire : Itv)]))),
    .call ((Cmd.run (.op [(⟨(f 0 0), (f 0 0)⟩ : Itv), (⟨(f 1 0), (f 3 0)⟩ : Itv), (Itv.entire : Itv)]))),
    .call ((Cmd.run (.op [(⟨(f 0 0), (f 0 0)⟩ : Itv), (⟨.ninf, (f (-1) (0))⟩ : Itv), (Itv.entire : Itv)]))),
    .call ((Cmd.run (.op [(⟨(f 0 0), (f 0 0)⟩ : Itv), (⟨.ninf, (f 3 0)⟩ : Itv), (Itv.entire : Itv)]))),
    .call ((Cmd.run (.op [(⟨(f 0 0), (f 0 0)⟩ : Itv), (⟨(f (-5) (0)), .pinf⟩ : Itv), (Itv.entire : Itv)]))),
    .call ((Cmd.run (.op [(⟨(f 0 0), (f 0 0)⟩ : Itv), (⟨(f 1 0), .pinf⟩ : Itv), (Itv.entire : Itv)]))),
    .call ((Cmd.run (.op [(⟨(f 0 0), (f 0 0)⟩ : Itv), (Itv.entire : Itv), (Itv.entire : Itv)]))),
    .call ((Cmd.run (.op [(⟨.nzero, .nzero⟩ : Itv), (⟨(f 0 0), (f 0 0)⟩ : Itv), (Itv.entire : Itv)]))),
    .call ((Cmd.run (.op [(⟨.nzero, .nzero⟩ : Itv), (⟨.nzero, .nzero⟩ : Itv), (Itv.entire : Itv)]))),
    .call ((Cmd.run (.op [(⟨.nzero, .nzero⟩ : Itv), (⟨(f (-5) (0)), (f (-1) (0))⟩ : Itv), (Itv.entire : Itv)]))),
    .call ((Cmd.run (.op [(⟨.nzero, .nzero⟩ : Itv), (⟨(f (-5) (0)), (f 3 0)⟩ : Itv), (Itv.entire : Itv)]))),
    .call ((Cmd.run (.op [(⟨.nzero, .nzero⟩ : Itv), (⟨(f 1 0), (f 3 0)⟩ : Itv), (Itv.entire : Itv)]))),
    .call ((Cmd.run (.op [(⟨.nzero, .nzero⟩ : Itv), (⟨.ninf, (f (-1) (0))⟩ : Itv), (Itv.entire : Itv)]))),
    .call ((Cmd.run (.op [(⟨.nzero, .nzero⟩ : Itv), (⟨.ninf, (f 3 0)⟩ : Itv), (Itv.entire : Itv)]))),
    .call ((Cmd.run (.op [(⟨.nzero, .nzero⟩ : Itv), (⟨(f (-5) (0)), .pinf⟩ : Itv), (Itv.entire : Itv)]))),
    .call ((Cmd.run (.op [(⟨.nzero, .nzero⟩ : Itv), (⟨(f 1 0), .pinf⟩ : Itv), (Itv.entire : Itv)]))),
    .call ((Cmd.run (.op [(⟨.nzero, .nzero⟩ : Itv), (Itv.entire : Itv), (Itv.entire : Itv)]))),
    .call ((Cmd.run (.op [(⟨(f 1 0), (f 5 0)⟩ : Itv), (⟨(f 0 0), (f 0 0)⟩ : Itv), (Itv.entire : Itv)]))),
    .call ((Cmd.run (.op [(⟨(f 1 0), (f 5 0)⟩ : Itv), (⟨.nzero, .nzero⟩ : Itv), (Itv.entire : Itv)]))),
    .call ((Cmd.run (.op [(⟨(f 1 0), (f 5 0)⟩ : Itv), (⟨(f (-5) (0)), (f (-1) (0))⟩ : Itv), (Itv.entire : Itv)]))),
    .call ((Cmd.run (.op [(⟨(f 1 0), (f 5 0)⟩ : Itv), (⟨(f (-5) (0)), (f 3 0)⟩ : Itv), (Itv.entire : Itv)]))),
    .call ((Cmd.run (.op [(⟨(f 1 0), (f 5 0)⟩ : Itv), (⟨(f 1 0), (f 3 0)⟩ : Itv), (Itv.entire : Itv)]))),
    .call ((Cmd.run (.op [(⟨(f 1 0), (f 5 0)⟩ : Itv), (⟨.ninf, (f (-1) (0))⟩ : Itv), (Itv.entire : Itv)]))),
    .call ((Cmd.run (.op [(⟨(f 1 0), (f 5 0)⟩ : Itv), (⟨.ninf, (f 3 0)⟩ : Itv), (Itv.entire : Itv)]))),
    .call ((Cmd.run (.op [(⟨(f 1 0), (f 5 0)⟩ : Itv), (⟨(f (-5) (0)), .pinf⟩ : Itv), (Itv.entire : Itv)]))),
    .call ((Cmd.run (.op [(⟨(f 1 0), (f 5 0)⟩ : Itv), (⟨(f 1 0), .pinf⟩ : Itv), (Itv.entire : Itv)]))),
    .call ((Cmd.run (.op [(⟨(f 1 0), (f 5 0)⟩ : Itv), (Itv.entire : Itv), (Itv.entire : Itv)]))),
    .call ((Cmd.run (.op [(⟨(f (-1) (0)), (f 5 0)⟩ : Itv), (⟨(f 0 0), (f 0 0)⟩ : Itv), (Itv.entire : Itv)]))),
    .call ((Cmd.run (.op [(⟨(f (-1) (0)), (f 5 0)⟩ : Itv), (⟨.nzero, .nzero⟩ : Itv), (Itv.entire : Itv)]))),
    .call ((Cmd.run (.op [(⟨(f (-1) (0)), (f 5 0)⟩ : Itv), (⟨(f (-5) (0)), (f (-1) (0))⟩ : Itv), (Itv.entire : Itv)]))),
    .call ((Cmd.run (.op [(⟨(f (-1) (0)), (f 5 0)⟩ : Itv), (⟨(f (-5) (0)), (f 3 0)⟩ : Itv), (Itv.entire : Itv)]))),
    .call ((Cmd.run (.op [(⟨(f (-10) (0)), (f 2 0)⟩ : Itv), (⟨(f (-5) (0)), (f 3 0)⟩ : Itv), (Itv.entire : Itv)]))),
    .call ((Cmd.run (.op [(⟨(f (-1) (0)), (f 5 0)⟩ : Itv), (⟨(f (-1) (0)), (f 10 0)⟩ : Itv), (Itv.entire : Itv)]))),
    .call ((Cmd.run (.op [(⟨(f (-2) (0)), (f 2 0)⟩ : Itv), (⟨(f (-5) (0)), (f 3 0)⟩ : Itv), (Itv.entire : Itv)]))),
    .call ((Cmd.run (.op [(⟨(f (-1) (0)), (f 5 0)⟩ : Itv), (⟨(f 1 0), (f 3 0)⟩ : Itv), (Itv.entire : Itv)]))),
    .call ((Cmd.run (.op [(⟨(f (-1) (0)), (f 5 0)⟩ : Itv), (⟨.ninf, (f (-1) (0))⟩ : Itv), (Itv.entire : Itv)]))),
    .call ((Cmd.run (.op [(⟨(f (-1) (0)), (f 5 0)⟩ : Itv), (⟨.ninf, (f 3 0)⟩ : Itv), (Itv.entire : Itv)]))),
    .call ((Cmd.run (.op [(⟨(f (-1) (0)), (f 5 0)⟩ : Itv), (⟨(f (-5) (0)), .pinf⟩ : Itv), (Itv.entire : Itv)]))),
    .call ((Cmd.run (.op [(⟨(f (-1) (0)), (f 5 0)⟩ : Itv), (⟨(f 1 0), .pinf⟩ : Itv), (Itv.entire : Itv)]))),
    .call ((Cmd.run (.op [(⟨(f (-1) (0)), (f 5 0)⟩ : Itv), (Itv.entire : Itv), (Itv.entire : Itv)]))),
    .call ((Cmd.run (.op [(⟨(f (-10) (0)), (f (-5) (0))⟩ : Itv), (⟨(f 0 0), (f 0 0)⟩ : Itv), (Itv.entire : Itv)]))),
    .call ((Cmd.run (.op [(⟨(f (-10) (0)), (f (-5) (0))⟩ : Itv), (⟨.nzero, .nzero⟩ : Itv), (Itv.entire : Itv)]))),
    .call ((Cmd.run (.op [(⟨(f (-10) (0)), (f (-5) (0))⟩ : Itv), (⟨(f (-5) (0)), (f (-1) (0))⟩ : Itv), (Itv.entire : Itv)]))),
    .call ((Cmd.run (.op [(⟨(f (-10) (0)), (f (-5) (0))⟩ : Itv), (⟨(f (-5) (0)), (f 3 0)⟩ : Itv), (Itv.entire : Itv)]))),
    .call ((Cmd.run (.op [(⟨(f (-10) (0)), (f (-5) (0))⟩ : Itv), (⟨(f 1 0), (f 3 0)⟩ : Itv), (Itv.entire : Itv)]))),
    .call ((Cmd.run (.op [(⟨(f (-10) (0)), (f (-5) (0))⟩ : Itv), (⟨.ninf, (f (-1) (0))⟩ : Itv), (Itv.entire : Itv)]))),
    .call ((Cmd.run (.op [(⟨(f (-10) (0)), (f (-5) (0))⟩ : Itv), (⟨.ninf, (f 3 0)⟩ : Itv), (Itv.entire : Itv)]))),
    .call ((Cmd.run (.op [(⟨(f (-10) (0)), (f (-5) (0))⟩ : Itv), (⟨(f (-5) (0)), .pinf⟩ : Itv), (Itv.entire : Itv)]))),
    .call ((Cmd.run (.op [(⟨(f (-10) (0)), (f (-5) (0))⟩ : Itv), (⟨(f 1 0), .pinf⟩ : Itv), (Itv.entire : Itv)]))),
    .call ((Cmd.run (.op [(⟨(f (-10) (0)), (f (-5) (0))⟩ : Itv), (Itv.entire : Itv), (Itv.entire : Itv)]))),
    .call ((Cmd.run (.op [(⟨(f (3602879701896397) (-55)), (f (1) (-1))⟩ : Itv), (⟨(f (-5) (0)), (f 3 0)⟩ : Itv), (⟨(f (-3602879701896397) (-55)), (f (3602879701896397) (-55))⟩ : Itv)]))),
    .call ((Cmd.run (.op [(⟨(f (-1) (-1)), (f (3602879701896397) (-54))⟩ : Itv), (⟨(f (-5) (0)), (f 3 0)⟩ : Itv), (⟨(f (-3602879701896397) (-55)), (f (3602879701896397) (-55))⟩ : Itv)]))),
    .call ((Cmd.run (.op [(⟨(f (-1) (-1)), (f (-3602879701896397) (-55))⟩ : Itv), (⟨(f 2 0), (f 3 0)⟩ : Itv), (⟨(f (-3602879701896397) (-55)), (f (3602879701896397) (-55))⟩ : Itv)]))),
    .call ((Cmd.run (.op [(⟨(f (-1) (-1)), (f (-3602879701896397) (-55))⟩ : Itv), (⟨.ninf, (f 3 0)⟩ : Itv), (⟨(f (-3602879701896397) (-55)), (f (3602879701896397) (-55))⟩ : Itv)]))),
    .state 2044 [],
    .call clearFlags,
    .call (do (Cmd.run (.op [(⟨(f 0 0), (f (-30) (0))⟩ : Itv), (⟨(f 0 0), (f 0 0)⟩ : Itv), (⟨(f (-2) (0)), .pinf⟩ : Itv)])); (Cmd.run (.op [(Fmt.fmaI binary64 (⟨(f 0 0), (f (-30) (0))⟩ : Itv) (⟨(f 0 0), (f 0 0)⟩ : Itv) (⟨(f (-2) (0)), .pinf⟩ : Itv) : Itv)]))),
    .state 2048 [.invalidOperand],
    .call clearFlags,
    .call (setCwd (bitsOf [.invalidOperand])),
    .throws 2051 ((Cmd.run (.op [(⟨(f 0 0), (f 0 0)⟩ : Itv), (⟨(f 5 0), (f 0 0)⟩ : Itv), (⟨(f (-2) (0)), .pinf⟩ : Itv)]))) .invalidOperand,
    .state 2052 [.invalidOperand],
    .call clearFlags,
    .call (setCwd (bitsOf []))] ExSt.init = [] := by
  decide +kernel

/-- `minimal_fma_mixedtype_test` -/
example : failed [
    .call ((Cmd.run (.op [(⟨(f (3602879701896397) (-55)), (f (1) (-1))⟩ : Itv), (⟨(f (-5) (0)), (f 3 0)⟩ : Itv), (⟨(f (-3602879701896397) (-55)), (f (3602879701896397) (-55))⟩ : Itv)]))),
    .call ((Cmd.run (.op [(⟨(f (-1) (-1)), (f (-13421773) (-27))⟩ : Itv), (⟨.ninf, (f 3 0)⟩ : Itv), (⟨(f (-3602879701896397) (-55)), (f (3602879701896397) (-55))⟩ : Itv)]))),
    .state 2062 [],
    .call clearFlags,
    .call (do (Cmd.run (.op [(⟨(f 0 0), (f (-30) (0))⟩ : Itv), (⟨(f 0 0), (f 0 0)⟩ : Itv), (⟨(f (-2) (0)), .pinf⟩ : Itv)])); (Cmd.run (.op [(fmaMixed .float .double .double .double (⟨(f 0 0), (f (-30) (0))⟩ : Itv) (⟨(f 0 0), (f 0 0)⟩ : Itv) (⟨(f (-2) (0)), .pinf⟩ : Itv) : Itv)]))),
    .state 2066 [.invalidOperand],
    .call clearFlags,
    .call (setCwd (bitsOf [.invalidOperand])),
    .throws 2069 ((Cmd.run (.op [(⟨(f 0 0), (f 0 0)⟩ : Itv), (⟨(f 5 0), (f 0 0)⟩ : Itv), (⟨(f (-2) (0)), .pinf⟩ : Itv)]))) .invalidOperand,
    .state 2070 [.invalidOperand],
    .call clearFlags,
    .call (setCwd (bitsOf []))] ExSt.init = [] := by
  decide +kernel

/-- `minimal_fma_dec_test` -/
example : failed [
    .call ((Cmd.run (.opD [(⟨⟨(f (-1) (-1)), (f (-3602879701896397) (-55))⟩, .com⟩ : DItv), (⟨⟨.ninf, (f 3 0)⟩, .dac⟩ : DItv), (⟨⟨(f (-3602879701896397) (-55)), (f (3602879701896397) (-55))⟩, .com⟩ : DItv)]))),
    .call ((Cmd.run (.opD [(⟨⟨(f 1 0), (f 2 0)⟩, .com⟩ : DItv), (⟨⟨(f 1 0), (f 9007199254740991 971)⟩, .com⟩ : DItv), (⟨⟨(f 0 0), (f 1 0)⟩, .com⟩ : DItv)]))),
    .call ((Cmd.run (.opD [(⟨⟨(f 1 0), (f 2 0)⟩, .com⟩ : DItv), (⟨⟨(f 1 0), (f 2 0)⟩, .com⟩ : DItv), (⟨⟨(f 2 0), (f 5 0)⟩, .com⟩ : DItv)]))),
    .state 2082 [],
    .call clearFlags,
    .call (do (Cmd.run (.opD [(⟨⟨(f 0 0), (f (-30) (0))⟩, .trv⟩ : DItv), (⟨⟨(f 0 0), (f 0 0)⟩, .trv⟩ : DItv), (⟨⟨(f (-2) (0)), .pinf⟩, .trv⟩ : DItv)])); (Cmd.run (.opD [(Fmt.fmaD binary64 (⟨⟨(f 0 0), (f (-30) (0))⟩, .trv⟩ : DItv) (⟨⟨(f 0 0), (f 0 0)⟩, .trv⟩ : DItv) (⟨⟨(f (-2) (0)), .pinf⟩, .trv⟩ : DItv) : DItv)]))),
    .state 2086 [.invalidOperand],
    .call clearFlags,
    .call (setCwd (bitsOf [.invalidOperand])),
    .throws 2089 ((Cmd.run (.opD [(⟨⟨(f 0 0), (f 0 0)⟩, .trv⟩ : DItv), (⟨⟨(f 5 0), (f 0 0)⟩, .trv⟩ : DItv), (⟨⟨(f (-2) (0)), .pinf⟩, .trv⟩ : DItv)]))) .invalidOperand,
    .state 2090 [.invalidOperand],
    .call clearFlags,
    .call (setCwd (bitsOf []))] ExSt.init = [] := by
  decide +kernel

/-- `minimal_fma_dec_mixedtype_test` -/
example : failed [
    .call ((Cmd.run (.opD [(⟨⟨(f (3602879701896397) (-55)), (f (1) (-1))⟩, .com⟩ : DItv), (⟨⟨(f (-5) (0)), (f 3 0)⟩, .dac⟩ : DItv), (⟨⟨(f (-3602879701896397) (-55)), (f (3602879701896397) (-55))⟩, .defd⟩ : DItv)]))),
    .call ((Cmd.run (.opD [(⟨⟨(f (-1) (-1)), (f (-13421773) (-27))⟩, .com⟩ : DItv), (⟨⟨.ninf, (f 3 0)⟩, .dac⟩ : DItv), (⟨⟨(f (-3602879701896397) (-55)), (f (3602879701896397) (-55))⟩, .com⟩ : DItv)]))),
    .state 2100 [],
    .call clearFlags,
    .call (do (Cmd.run (.opD [(⟨⟨(f 0 0), (f (-30) (0))⟩, .trv⟩ : DItv), (⟨⟨(f 0 0), (f 0 0)⟩, .trv⟩ : DItv), (⟨⟨(f (-2) (0)), .pinf⟩, .trv⟩ : DItv)])); (Cmd.run (.opD [(fmaMixedD .float .double .double .double (⟨⟨(f 0 0), (f (-30) (0))⟩, .trv⟩ : DItv) (⟨⟨(f 0 0), (f 0 0)⟩, .trv⟩ : DItv) (⟨⟨(f (-2) (0)), .pinf⟩, .trv⟩ : DItv) : DItv)]))),
    .state 2104 [.invalidOperand],
    .call clearFlags,
    .call (setCwd (bitsOf [.invalidOperand])),
    .throws 2107 ((Cmd.run (.opD [(⟨⟨(f 0 0), (f 0 0)⟩, .trv⟩ : DItv), (⟨⟨(f 5 0), (f 0 0)⟩, .trv⟩ : DItv), (⟨⟨(f (-2) (0)), .pinf⟩, .trv⟩ : DItv)]))) .invalidOperand,
    .state 2108 [.invalidOperand],
    .call clearFlags,
    .call (setCwd (bitsOf []))] ExSt.init = [] := by
  decide +kernel

/-- `minimal_pown_test` -/
example : failed [
    .call (do (Cmd.run (.op [(Itv.empty : Itv)])); (Cmd.run (.op [(Fmt.pownI binary64 (Itv.empty : Itv) (0) : Itv)]))),
    .call ((Cmd.run (.op [(Itv.entire : Itv)]))),
    .call ((Cmd.run (.op [(⟨(f 0 0), (f 0 0)⟩ : Itv)]))),
    .call ((Cmd.run (.op [(⟨.nzero, .nzero⟩ : Itv)]))),
    .call ((Cmd.run (.op [(⟨(f (7374644389819187) (-49)), (f (7374644389819187) (-49))⟩ : Itv)]))),
    .call ((Cmd.run (.op [(⟨(f (-2048155141936251) (-38)), (f (-2048155141936251) (-38))⟩ : Itv)]))),
    .call ((Cmd.run (.op [(⟨(f 9007199254740991 971), (f 9007199254740991 971)⟩ : Itv)]))),
    .call ((Cmd.run (.op [(⟨(f (-9007199254740991) (971)), (f (-9007199254740991) (971))⟩ : Itv)]))),
    .call ((Cmd.run (.op [(⟨(f 0 0), .pinf⟩ : Itv)]))),
    .call ((Cmd.run (.op [(⟨.nzero, .pinf⟩ : Itv)]))),
    .call ((Cmd.run (.op [(⟨.ninf, (f 0 0)⟩ : Itv)]))),
    .call ((Cmd.run (.op [(⟨.ninf, .nzero⟩ : Itv)]))),
    .call ((Cmd.run (.op [(⟨(f (-5705145934204109) (-44)), (f (5) (-1))⟩ : Itv)]))),
    .call (do (Cmd.run (.op [(Itv.empty : Itv)])); (Cmd.run (.op [(Fmt.pownI binary64 (Itv.empty : Itv) (2) : Itv)]))),
    .call ((Cmd.run (.op [(Itv.entire : Itv)]))),
    .call ((Cmd.run (.op [(⟨(f 0 0), (f 0 0)⟩ : Itv)]))),
    .call ((Cmd.run (.op [(⟨.nzero, .nzero⟩ : Itv)]))),
    .call ((Cmd.run (.op [(⟨(f (7374644389819187) (-49)), (f (7374644389819187) (-49))⟩ : Itv)]))),
    .call ((Cmd.run (.op [(⟨(f (-2048155141936251) (-38)), (f (-2048155141936251) (-38))⟩ : Itv)]))),
    .call ((Cmd.run (.op [(⟨(f 9007199254740991 971), (f 9007199254740991 971)⟩ : Itv)]))),
    .call ((Cmd.run (.op [(⟨(f (-9007199254740991) (971)), (f (-9007199254740991) (971))⟩ : Itv)]))),
    .call ((Cmd.run (.op [(⟨(f 0 0), .pinf⟩ : Itv)]))),
    .call ((Cmd.run (.op [(⟨.nzero, .pinf⟩ : Itv)]))),
    .call ((Cmd.run (.op [(⟨.ninf, (f 0 0)⟩ : Itv)]))),
    .call ((Cmd.run (.op [(⟨.ninf, .nzero⟩ : Itv)]))),
    .call ((Cmd.run (.op [(⟨(f (-5705145934204109) (-44)), (f (5) (-1))⟩ : Itv)]))),
    .call ((Cmd.run (.op [(⟨(f (5764607523034235) (-59)), (f (1311673391471657) (-49))⟩ : Itv)]))),
    .call ((Cmd.run (.op [(⟨(f (-4278419646001971) (-51)), (f (-5944751508129055) (-54))⟩ : Itv)]))),
    .call (do (Cmd.run (.op [(Itv.empty : Itv)])); (Cmd.run (.op [(Fmt.pownI binary64 (Itv.empty : Itv) (8) : Itv)]))),
    .call ((Cmd.run (.op [(Itv.entire : Itv)]))),
    .call ((Cmd.run (.op [(⟨(f 0 0), (f 0 0)⟩ : Itv)]))),
    .call ((Cmd.run (.op [(⟨.nzero, .nzero⟩ : Itv)]))),
    .call ((Cmd.run (.op [(⟨(f (7374644389819187) (-49)), (f (7374644389819187) (-49))⟩ : Itv)]))),
    .call ((Cmd.run (.op [(⟨(f (-2048155141936251) (-38)), (f (-2048155141936251) (-38))⟩ : Itv)]))),
    .call ((Cmd.run (.op [(⟨(f 9007199254740991 971), (f 9007199254740991 971)⟩ : Itv)]))),
    .call ((Cmd.run (.op [(⟨(f (-9007199254740991) (971)), (f (-9007199254740991) (971))⟩ : Itv)]))),
    .call ((Cmd.run (.op [(⟨(f 0 0), .pinf⟩ : Itv)]))),
    .call ((Cmd.run (.op [(⟨.nzero, .pinf⟩ : Itv)]))),
    .call ((Cmd.run (.op [(⟨.ninf, (f 0 0)⟩ : Itv)]))),
    .call ((Cmd.run (.op [(⟨.ninf, .nzero⟩ : Itv)]))),
    .call ((Cmd.run (.op [(⟨(f (-5705145934204109) (-44)), (f (5) (-1))⟩ : Itv)]))),
    .call ((Cmd.run (.op [(⟨(f (5764607523034235) (-59)), (f (1311673391471657) (-49))⟩ : Itv)]))),
    .call ((Cmd.run (.op [(⟨(f (-4278419646001971) (-51)), (f (-5944751508129055) (-54))⟩ : Itv)]))),
    .call (do (Cmd.run (.op [(Itv.empty : Itv)])); (Cmd.run (.op [(Fmt.pownI binary64 (Itv.empty : Itv) (1) : Itv)]))),
    .call ((Cmd.run (.op [(Itv.entire : Itv)]))),
    .call ((Cmd.run (.op [(⟨(f 0 0), (f 0 0)⟩ : Itv)]))),
    .call ((Cmd.run (.op [(⟨.nzero, .nzero⟩ : Itv)]))),
    .call ((Cmd.run (.op [(⟨(f (7374644389819187) (-49)), (f (7374644389819187) (-49))⟩ : Itv)]))),
    .call ((Cmd.run (.op [(⟨(f (-2048155141936251) (-38)), (f (-2048155141936251) (-38))⟩ : Itv)]))),
    .call ((Cmd.run (.op [(⟨(f 9007199254740991 971), (f 9007199254740991 971)⟩ : Itv)]))),
    .call ((Cmd.run (.op [(⟨(f (-9007199254740991) (971)), (f (-9007199254740991) (971))⟩ : Itv)]))),
    .call ((Cmd.run (.op [(⟨(f 0 0), .pinf⟩ : Itv)]))),
    .call ((Cmd.run (.op [(⟨.nzero, .pinf⟩ : Itv)]))),
    .call ((Cmd.run (.op [(⟨.ninf, (f 0 0)⟩ : Itv)]))),
    .call ((Cmd.run (.op [(⟨.ninf, .nzero⟩ : Itv)]))),
    .call ((Cmd.run (.op [(⟨(f (-5705145934204109) (-44)), (f (5) (-1))⟩ : Itv)]))),
    .call ((Cmd.run (.op [(⟨(f (5764607523034235) (-59)), (f (1311673391471657) (-49))⟩ : Itv)]))),
    .call ((Cmd.run (.op [(⟨(f (-4278419646001971) (-51)), (f (-5944751508129055) (-54))⟩ : Itv)]))),
    .call (do (Cmd.run (.op [(Itv.empty : Itv)])); (Cmd.run (.op [(Fmt.pownI binary64 (Itv.empty : Itv) (3) : Itv)]))),
    .call ((Cmd.run (.op [(Itv.entire : Itv)]))),
    .call ((Cmd.run (.op [(⟨(f 0 0), (f 0 0)⟩ : Itv)]))),
    .call ((Cmd.run (.op [(⟨.nzero, .nzero⟩ : Itv)]))),
    .call ((Cmd.run (.op [(⟨(f (7374644389819187) (-49)), (f (7374644389819187) (-49))⟩ : Itv)]))),
    .call ((Cmd.run (.op [(⟨(f (-2048155141936251) (-38)), (f (-2048155141936251) (-38))⟩ : Itv)]))),
    .call ((Cmd.run (.op [(⟨(f 9007199254740991 971), (f 9007199254740991 971)⟩ : Itv)]))),
    .call ((Cmd.run (.op [(⟨(f (-9007199254740991) (971)), (f (-9007199254740991) (971))⟩ : Itv)]))),
    .call ((Cmd.run (.op [(⟨(f 0 0), .pinf⟩ : Itv)]))),
    .call ((Cmd.run (.op [(⟨.nzero, .pinf⟩ : Itv)]))),
    .call ((Cmd.run (.op [(⟨.ninf, (f 0 0)⟩ : Itv)]))),
    .call ((Cmd.run (.op [(⟨.ninf, .nzero⟩ : Itv)]))),
    .call ((Cmd.run (.op [(⟨(f (-5705145934204109) (-44)), (f (5) (-1))⟩ : Itv)]))),
    .call ((Cmd.run (.op [(⟨(f (5764607523034235) (-59)), (f (1311673391471657) (-49))⟩ : Itv)]))),
    .call ((Cmd.run (.op [(⟨(f (-4278419646001971) (-51)), (f (-5944751508129055) (-54))⟩ : Itv)]))),
    .call (do (Cmd.run (.op [(Itv.empty : Itv)])); (Cmd.run (.op [(Fmt.pownI binary64 (Itv.empty : Itv) (7) : Itv)]))),
    .call ((Cmd.run (.op [(Itv.entire : Itv)]))),
    .call ((Cmd.run (.op [(⟨(f 0 0), (f 0 0)⟩ : Itv)]))),
    .call ((Cmd.run (.op [(⟨.nzero, .nzero⟩ : Itv)]))),
    .call ((Cmd.run (.op [(⟨(f (7374644389819187) (-49)), (f (7374644389819187) (-49))⟩ : Itv)]))),
    .call ((Cmd.run (.op [(⟨(f (-2048155141936251) (-38)), (f (-2048155141936251) (-38))⟩ : Itv)]))),
    .call ((Cmd.run (.op [(⟨(f 9007199254740991 971), (f 9007199254740991 971)⟩ : Itv)]))),
    .call ((Cmd.run (.op [(⟨(f (-9007199254740991) (971)), (f (-9007199254740991) (971))⟩ : Itv)]))),
    .call ((Cmd.run (.op [(⟨(f 0 0), .pinf⟩ : Itv)]))),
    .call ((Cmd.run (.op [(⟨.nzero, .pinf⟩ : Itv)]))),
    .call ((Cmd.run (.op [(⟨.ninf, (f 0 0)⟩ : Itv)]))),
    .call ((Cmd.run (.op [(⟨.ninf, .nzero⟩ : Itv)]))),
    .call ((Cmd.run (.op [(⟨(f (-5705145934204109) (-44)), (f (5) (-1))⟩ : Itv)]))),
    .call ((Cmd.run (.op [(⟨(f (5764607523034235) (-59)), (f (1311673391471657) (-49))⟩ : Itv)]))),
    .call ((Cmd.run (.op [(⟨(f (-4278419646001971) (-51)), (f (-5944751508129055) (-54))⟩ : Itv)]))),
    .call (do (Cmd.run (.op [(Itv.empty : Itv)])); (Cmd.run (.op [(Fmt.pownI binary64 (Itv.empty : Itv) (-2) : Itv)]))),
    .call ((Cmd.run (.op [(Itv.entire : Itv)]))),
    .call (do (Cmd.run (.op [(⟨(f 0 0), (f 0 0)⟩ : Itv)])); (Cmd.run (.op [(Fmt.pownI binary64 (⟨(f 0 0), (f 0 0)⟩ : Itv) (-2) : Itv)]))),
    .call (do (Cmd.run (.op [(⟨.nzero, .nzero⟩ : Itv)])); (Cmd.run (.op [(Fmt.pownI binary64 (⟨.nzero, .nzero⟩ : Itv) (-2) : Itv)]))),
    .call ((Cmd.run (.op [(⟨(f (7374644389819187) (-49)), (f (7374644389819187) (-49))⟩ : Itv)]))),
    .call ((Cmd.run (.op [(⟨(f (-2048155141936251) (-38)), (f (-2048155141936251) (-38))⟩ : Itv)]))),
    .call ((Cmd.run (.op [(⟨(f 9007199254740991 971), (f 9007199254740991 971)⟩ : Itv)]))),
    .call ((Cmd.run (.op [(⟨(f (-9007199254740991) (971)), (f (-9007199254740991) (971))⟩ : Itv)]))),
    .call ((Cmd.run (.op [(⟨(f 0 0), .pinf⟩ : Itv)]))),
    .call ((Cmd.run (.op [(⟨.nzero, .pinf⟩ : Itv)]))),
    .call ((Cmd.run (.op [(⟨.ninf, (f 0 0)⟩ : Itv)]))),
    .call ((Cmd.run (.op [(⟨.ninf, .nzero⟩ : Itv)]))),
    .call ((Cmd.run (.op [(⟨(f (-5705145934204109) (-44)), (f (5) (-1))⟩ : Itv)]))),
    .call ((Cmd.run (.op [(⟨(f (5764607523034235) (-59)), (f (1311673391471657) (-49))⟩ : Itv)]))),
    .call ((Cmd.run (.op [(⟨(f (-4278419646001971) (-51)), (f (-5944751508129055) (-54))⟩ : Itv)]))),
    .call (do (Cmd.run (.op [(Itv.empty : Itv)])); (Cmd.run (.op [(Fmt.pownI binary64 (Itv.empty : Itv) (-8) : Itv)]))),
    .call ((Cmd.run (.op [(Itv.entire : Itv)]))),
    .call (do (Cmd.run (.op [(⟨(f 0 0), (f 0 0)⟩ : Itv)])); (Cmd.run (.op [(Fmt.pownI binary64 (⟨(f 0 0), (f 0 0)⟩ : Itv) (-8) : Itv)]))),
    .call (do (Cmd.run (.op [(⟨.nzero, .nzero⟩ : Itv)])); (Cmd.run (.op [(Fmt.pownI binary64 (⟨.nzero, .nzero⟩ : Itv) (-8) : Itv)]))),
    .call ((Cmd.run (.op [(⟨(f (7374644389819187) (-49)), (f (7374644389819187) (-49))⟩ : Itv)]))),
    .call ((Cmd.run (.op [(⟨(f (-2048155141936251) (-38)), (f (-2048155141936251) (-38))⟩ : Itv)]))),
    .call ((Cmd.run (.op [(⟨(f 9007199254740991 971), (f 9007199254740991 971)⟩ : Itv)]))),
    .call ((Cmd.run (.op [(⟨(f (-9007199254740991) (971)), (f (-9007199254740991) (971))⟩ : Itv)]))),
    .call ((Cmd.run (.op [(⟨(f 0 0), .pinf⟩ : Itv)]))),
    .call ((Cmd.run (.op [(⟨.nzero, .pinf⟩ : Itv)]))),
    .call ((Cmd.run (.op [(⟨.ninf, (f 0 0)⟩ : Itv)]))),
    .call ((Cmd.run (.op [(⟨.ninf, .nzero⟩ : Itv)]))),
    .call ((Cmd.run (.op [(⟨(f (-5705145934204109) (-44)), (f (5) (-1))⟩ : Itv)]))),
    .call ((Cmd.run (.op [(⟨(f (5764607523034235) (-59)), (f (1311673391471657) (-49))⟩ : Itv)]))),
    .call ((Cmd.run (.op [(⟨(f (-4278419646001971) (-51)), (f (-5944751508129055) (-54))⟩ : Itv)]))),
    .call (do (Cmd.run (.op [(Itv.empty : Itv)])); (Cmd.run (.op [(Fmt.pownI binary64 (Itv.empty : Itv) (-1) : Itv)]))),
    .call ((Cmd.run (.op [(Itv.entire : Itv)]))),
    .call (do (Cmd.run (.op [(⟨(f 0 0), (f 0 0)⟩ : Itv)])); (Cmd.run (.op [(Fmt.pownI binary64 (⟨(f 0 0), (f 0 0)⟩ : Itv) (-1) : Itv)]))),
    .call (do (Cmd.run (.op [(⟨.nzero, .nzero⟩ : Itv)])); (Cmd.run (.op [(Fmt.pownI binary64 (⟨.nzero, .nzero⟩ : Itv) (-1) : Itv)]))),
    .call ((Cmd.run (.op [(⟨(f (7374644389819187) (-49)), (f (7374644389819187) (-49))⟩ : Itv)]))),
    .call ((Cmd.run (.op [(⟨(f (-2048155141936251) (-38)), (f (-2048155141936251) (-38))⟩ : Itv)]))),
    .call ((Cmd.run (.op [(⟨(f 9007199254740991 971), (f 9007199254740991 971)⟩ : Itv)]))),
    .call ((Cmd.run (.op [(⟨(f (-9007199254740991) (971)), (f (-9007199254740991) (971))⟩ : Itv)]))),
    .call ((Cmd.run (.op [(⟨(f 0 0), .pinf⟩ : Itv)]))),
    .call ((Cmd.run (.op [(⟨.nzero, .pinf⟩ : Itv)]))),
    .call ((Cmd.run (.op [(⟨.ninf, (f 0 0)⟩ : Itv)]))),
    .call ((Cmd.run (.op [(⟨.ninf, .nzero⟩ : Itv)]))),
    .call ((Cmd.run (.op [(⟨(f (-5705145934204109) (-44)), (f (5) (-1))⟩ : Itv)]))),
    .call ((Cmd.run (.op [(⟨(f (5764607523034235) (-59)), (f (1311673391471657) (-49))⟩ : Itv)]))),
    .call ((Cmd.run (.op [(⟨(f (-4278419646001971) (-51)), (f (-5944751508129055) (-54))⟩ : Itv)]))),
    .call (do (Cmd.run (.op [(Itv.empty : Itv)])); (Cmd.run (.op [(Fmt.pownI binary64 (Itv.empty : Itv) (-3) : Itv)]))),
    .call ((Cmd.run (.op [(Itv.entire : Itv)]))),
    .call (do (Cmd.run (.op [(⟨(f 0 0), (f 0 0)⟩ : Itv)])); (Cmd.run (.op [(Fmt.pownI binary64 (⟨(f 0 0), (f 0 0)⟩ : Itv) (-3) : Itv)]))),
    .call (do (Cmd.run (.op [(⟨.nzero, .nzero⟩ : Itv)])); (Cmd.run (.op [(Fmt.pownI binary64 (⟨.nzero, .nzero⟩ : Itv) (-3) : Itv)]))),
    .call ((Cmd.run (.op [(⟨(f (7374644389819187) (-49)), (f (7374644389819187) (-49))⟩ : Itv)]))),
    .call ((Cmd.run (.op [(⟨(f (-2048155141936251) (-38)), (f (-2048155141936251) (-38))⟩ : Itv)]))),
    .call ((Cmd.run (.op [(⟨(f 9007199254740991 971), (f 9007199254740991 971)⟩ : Itv)]))),
    .call ((Cmd.run (.op [(⟨(f (-9007199254740991) (971)), (f (-9007199254740991) (971))⟩ : Itv)]))),
    .call ((Cmd.run (.op [(⟨(f 0 0), .pinf⟩ : Itv)]))),
    .call ((Cmd.run (.op [(⟨.nzero, .pinf⟩ : Itv)]))),
    .call ((Cmd.run (.op [(⟨.ninf, (f 0 0)⟩ : Itv)]))),
    .call ((Cmd.run (.op [(⟨.ninf, .nzero⟩ : Itv)]))),
    .call ((Cmd.run (.op [(⟨(f (-5705145934204109) (-44)), (f (5) (-1))⟩ : Itv)]))),
    .call ((Cmd.run (.op [(⟨(f (5764607523034235) (-59)), (f (1311673391471657) (-49))⟩ : Itv)]))),
    .call ((Cmd.run (.op [(⟨(f (-4278419646001971) (-51)), (f (-5944751508129055) (-54))⟩ : Itv)]))),
    .call (do (Cmd.run (.op [(Itv.empty : Itv)])); (Cmd.run (.op [(Fmt.pownI binary64 (Itv.empty : Itv) (-7) : Itv)]))),
    .call ((Cmd.run (.op [(Itv.entire : Itv)]))),
    .call (do (Cmd.run (.op [(⟨(f 0 0), (f 0 0)⟩ : Itv)])); (Cmd.run (.op [(Fmt.pownI binary64 (⟨(f 0 0), (f 0 0)⟩ : Itv) (-7) : Itv)]))),
    .call (do (Cmd.run (.op [(⟨.nzero, .nzero⟩ : Itv)])); (Cmd.run (.op [(Fmt.pownI binary64 (⟨.nzero, .nzero⟩ : Itv) (-7) : Itv)]))),
    .call ((Cmd.run (.op [(⟨(f (7374644389819187) (-49)), (f (7374644389819187) (-49))⟩ : Itv)]))),
    .call ((Cmd.run (.op [(⟨(f (-2048155141936251) (-38)), (f (-2048155141936251) (-38))⟩ : Itv)]))),
    .call ((Cmd.run (.op [(⟨(f 9007199254740991 971), (f 9007199254740991 971)⟩ : Itv)]))),
    .call ((Cmd.run (.op [(⟨(f (-9007199254740991) (971)), (f (-9007199254740991) (971))⟩ : Itv)]))),
    .call ((Cmd.run (.op [(⟨(f 0 0), .pinf⟩ : Itv)]))),
    .call ((Cmd.run (.op [(⟨.nzero, .pinf⟩ : Itv)]))),
    .call ((Cmd.run (.op [(⟨.ninf, (f 0 0)⟩ : Itv)]))),
    .call ((Cmd.run (.op [(⟨.ninf, .nzero⟩ : Itv)]))),
    .call ((Cmd.run (.op [(⟨(f (-5705145934204109) (-44)), (f (5) (-1))⟩ : Itv)]))),
    .call ((Cmd.run (.op [(⟨(f (5764607523034235) (-59)), (f (1311673391471657) (-49))⟩ : Itv)]))),
    .call ((Cmd.run (.op [(⟨(f (-4278419646001971) (-51)), (f (-5944751508129055) (-54))⟩ : Itv)]))),
    .state 2307 [],
    .call clearFlags,
    .call (do (Cmd.run (.op [(⟨(f 1 0), (f (-9007199254740991) (971))⟩ : Itv)])); (Cmd.run (.op [(Fmt.pownI binary64 (⟨(f 1 0), (f (-9007199254740991) (971))⟩ : Itv) (5) : Itv)]))),
    .state 2311 [.invalidOperand],
    .call clearFlags,
    .call (setCwd (bitsOf [.invalidOperand])),
    .throws 2314 ((Cmd.run (.op [(⟨(f 3 0), (f (-4) (0))⟩ : Itv)]))) .invalidOperand,
    .state 2315 [.invalidOperand],
    .call clearFlags,
    .call (setCwd (bitsOf []))] ExSt.init = [] := by
  decide +kernel

/-- `minimal_pown_mixedtype_test` -/
example : failed [
    .call ((Cmd.run (.op [(⟨(f (6868173) (-19)), (f (6868173) (-19))⟩ : Itv)]))),
    .call ((Cmd.run (.op [(⟨(f (5764607523034235) (-59)), (f (1311673391471657) (-49))⟩ : Itv)]))),
    .call ((Cmd.run (.op [(⟨(f (5764607523034235) (-59)), (f (1311673391471657) (-49))⟩ : Itv)]))),
    .call ((Cmd.run (.op [(⟨(f (5764607523034235) (-59)), (f (1311673391471657) (-49))⟩ : Itv)]))),
    .call ((Cmd.run (.op [(⟨(f (5368709) (-29)), (f (1221591) (-19))⟩ : Itv)]))),
    .state 2328 [],
    .call clearFlags,
    .call (do (Cmd.run (.op [(⟨(f 1 0), (f (-9007199254740991) (971))⟩ : Itv)])); (Cmd.run (.op [(if !(⟨(f 1 0), (f (-9007199254740991) (971))⟩ : Itv).isValid then Itv.empty else Fmt.convertHull binary32 (Fmt.pownI binary64 (Fmt.convertHull binary64 (⟨(f 1 0), (f (-9007199254740991) (971))⟩ : Itv)) (5)) : Itv)]))),
    .state 2332 [.invalidOperand],
    .call clearFlags,
    .call (setCwd (bitsOf [.invalidOperand])),
    .throws 2335 ((Cmd.run (.op [(⟨(f 3 0), (f (-4) (0))⟩ : Itv)]))) .invalidOperand,
    .state 2336 [.invalidOperand],
    .call clearFlags,
    .call (setCwd (bitsOf []))] ExSt.init = [] := by
  decide +kernel

/-- `minimal_pown_dec_test` -/
example : failed [
    .call ((Cmd.run (.opD [(⟨⟨(f (-5) (0)), (f 10 0)⟩, .com⟩ : DItv)]))),
    .call ((Cmd.run (.opD [(⟨⟨.ninf, (f 15 0)⟩, .dac⟩ : DItv)]))),
    .call ((Cmd.run (.opD [(⟨⟨(f (-3) (0)), (f 5 0)⟩, .defd⟩ : DItv)]))),
    .call ((Cmd.run (.opD [(⟨⟨(f (-9007199254740991) (971)), (f 2 0)⟩, .com⟩ : DItv)]))),
    .call ((Cmd.run (.opD [(⟨⟨(f (-3) (0)), (f 5 0)⟩, .dac⟩ : DItv)]))),
    .call ((Cmd.run (.opD [(⟨⟨(f (-9007199254740991) (971)), (f 2 0)⟩, .com⟩ : DItv)]))),
    .call ((Cmd.run (.opD [(⟨⟨(f 3 0), (f 5 0)⟩, .com⟩ : DItv)]))),
    .call ((Cmd.run (.opD [(⟨⟨(f (-5) (0)), (f (-3) (0))⟩, .defd⟩ : DItv)]))),
    .call ((Cmd.run (.opD [(⟨⟨(f (-5) (0)), (f 3 0)⟩, .com⟩ : DItv)]))),
    .call ((Cmd.run (.opD [(⟨⟨(f 3 0), (f 5 0)⟩, .dac⟩ : DItv)]))),
    .call ((Cmd.run (.opD [(⟨⟨(f (-3) (0)), (f 5 0)⟩, .com⟩ : DItv)]))),
    .state 2356 [],
    .call clearFlags,
    .call (do (Cmd.run (.opD [(⟨⟨(f (-5) (0)), (f 10 0)⟩, .ill⟩ : DItv)])); (Cmd.run (.opD [(Fmt.pownD binary64 (⟨⟨(f (-5) (0)), (f 10 0)⟩, .ill⟩ : DItv) (0) : DItv)]))),
    .state 2360 [.invalidOperand],
    .call clearFlags,
    .call (setCwd (bitsOf [.invalidOperand])),
    .throws 2363 ((Cmd.run (.opD [(⟨⟨(f (-5) (0)), (f (-10) (0))⟩, .com⟩ : DItv)]))) .invalidOperand,
    .state 2364 [.invalidOperand],
    .call clearFlags,
    .call (setCwd (bitsOf []))] ExSt.init = [] := by
  decide +kernel

/-- `minimal_pown_dec_mixedtype_test` -/
example : failed [
    .call ((Cmd.run (.opD [(⟨⟨(f 3 0), (f 5 0)⟩, .com⟩ : DItv)]))),
    .call ((Cmd.run (.opD [(⟨⟨(f (-5) (0)), (f 3 0)⟩, .com⟩ : DItv)]))),
    .call ((Cmd.run (.opD [(⟨⟨(f 3 0), (f 5 0)⟩, .dac⟩ : DItv)]))),
    .state 2376 [],
    .call clearFlags,
    .call (do (Cmd.run (.opD [(⟨⟨(f (-5) (0)), (f 10 0)⟩, .ill⟩ : DItv)])); (Cmd.run (.opD [(if !(⟨⟨(f (-5) (0)), (f 10 0)⟩, .ill⟩ : DItv).isValid || (⟨⟨(f (-5) (0)), (f 10 0)⟩, .ill⟩ : DItv).isNai then DItv.nai else Fmt.convertHullD binary32 (Fmt.pownD binary64 (Fmt.convertHullD binary64 (⟨⟨(f (-5) (0)), (f 10 0)⟩, .ill⟩ : DItv)) (0)) : DItv)]))),
    .state 2380 [.invalidOperand],
    .call clearFlags,
    .call (setCwd (bitsOf [.invalidOperand])),
    .throws 2383 ((Cmd.run (.opD [(⟨⟨(f (-5) (0)), (f (-10) (0))⟩, .com⟩ : DItv)]))) .invalidOperand,
    .state 2384 [.invalidOperand],
    .call clearFlags,
    .call (setCwd (bitsOf []))] ExSt.init = [] := by
  decide +kernel

/-- `minimal_pow_test` -/
example : failed [
    .call (do (Cmd.run (.op [(Itv.empty : Itv), (Itv.empty : Itv)])); (Cmd.run (.op [(Itv.empty : Itv)]))),
    .call (do (Cmd.run (.op [(Itv.empty : Itv), (Itv.entire : Itv)])); (Cmd.run (.op [(Itv.empty : Itv)]))),
    .call (do (Cmd.run (.op [(Itv.empty : Itv), (⟨.ninf, (f (-1) (0))⟩ : Itv)])); (Cmd.run (.op [(Itv.empty : Itv)]))),
    .call (do (Cmd.run (.op [(Itv.empty : Itv), (⟨.ninf, (f 0 0)⟩ : Itv)])); (Cmd.run (.op [(Itv.empty : Itv)]))),
    .call (do (Cmd.run (.op [(Itv.empty : Itv), (⟨.ninf, .nzero⟩ : Itv)])); (Cmd.run (.op [(Itv.empty : Itv)]))),
    .call (do (Cmd.run (.op [(Itv.empty : Itv), (⟨(f 0 0), .pinf⟩ : Itv)])); (Cmd.run (.op [(Itv.empty : Itv)]))),
    .call (do (Cmd.run (.op [(Itv.empty : Itv), (⟨.nzero, .pinf⟩ : Itv)])); (Cmd.run (.op [(Itv.empty : Itv)]))),
    .call (do (Cmd.run (.op [(Itv.empty : Itv), (⟨(f 1 0), .pinf⟩ : Itv)])); (Cmd.run (.op [(Itv.empty : Itv)]))),
    .call (do (Cmd.run (.op [(Itv.empty : Itv), (⟨(f (-3) (0)), (f 5 0)⟩ : Itv)])); (Cmd.run (.op [(Itv.empty : Itv)]))),
    .call (do (Cmd.run (.op [(Itv.empty : Itv), (⟨(f 0 0), (f 0 0)⟩ : Itv)])); (Cmd.run (.op [(Itv.empty : Itv)]))),
    .call (do (Cmd.run (.op [(Itv.empty : Itv), (⟨.nzero, .nzero⟩ : Itv)])); (Cmd.run (.op [(Itv.empty : Itv)]))),
    .call (do (Cmd.run (.op [(Itv.empty : Itv), (⟨(f (-5) (0)), (f (-5) (0))⟩ : Itv)])); (Cmd.run (.op [(Itv.empty : Itv)]))),
    .call (do (Cmd.run (.op [(Itv.empty : Itv), (⟨(f 5 0), (f 5 0)⟩ : Itv)])); (Cmd.run (.op [(Itv.empty : Itv)]))),
    .call (do (Cmd.run (.op [(⟨(f (3602879701896397) (-55)), (f (1) (-1))⟩ : Itv), (Itv.empty : Itv)])); (Cmd.run (.op [(Itv.empty : Itv)]))),
    .call ((Cmd.run (.op [(⟨(f (3602879701896397) (-55)), (f (1) (-1))⟩ : Itv), (⟨(f 0 0), (f 0 0)⟩ : Itv)]))),
    .call ((Cmd.run (.op [(⟨(f (3602879701896397) (-55)), (f (1) (-1))⟩ : Itv), (⟨.nzero, .nzero⟩ : Itv)]))),
    .call ((Cmd.run (.op [(⟨(f (3602879701896397) (-55)), (f (1) (-1))⟩ : Itv), (⟨(f 0 0), (f 1 0)⟩ : Itv)]))),
    .call ((Cmd.run (.op [(⟨(f (3602879701896397) (-55)), (f (1) (-1))⟩ : Itv), (⟨.nzero, (f 1 0)⟩ : Itv)]))),
    .call ((Cmd.run (.op [(⟨(f (3602879701896397) (-55)), (f (1) (-1))⟩ : Itv), (⟨(f 0 0), (f (5) (-1))⟩ : Itv)]))),
    .call ((Cmd.run (.op [(⟨(f (3602879701896397) (-55)), (f (1) (-1))⟩ : Itv), (⟨.nzero, (f (5) (-1))⟩ : Itv)]))),
    .call ((Cmd.run (.op [(⟨(f (3602879701896397) (-55)), (f (1) (-1))⟩ : Itv), (⟨(f 0 0), .pinf⟩ : Itv)]))),
    .call ((Cmd.run (.op [(⟨(f (3602879701896397) (-55)), (f (1) (-1))⟩ : Itv), (⟨.nzero, .pinf⟩ : Itv)]))),
    .call ((Cmd.run (.op [(⟨(f (3602879701896397) (-55)), (f (1) (-1))⟩ : Itv), (⟨(f (3602879701896397) (-55)), (f (3602879701896397) (-55))⟩ : Itv)]))),
    .call ((Cmd.run (.op [(⟨(f (3602879701896397) (-55)), (f (1) (-1))⟩ : Itv), (⟨(f (3602879701896397) (-55)), (f 1 0)⟩ : Itv)]))),
    .call ((Cmd.run (.op [(⟨(f (3602879701896397) (-55)), (f (1) (-1))⟩ : Itv), (⟨(f (3602879701896397) (-55)), (f (5) (-1))⟩ : Itv)]))),
    .call ((Cmd.run (.op [(⟨(f (3602879701896397) (-55)), (f (1) (-1))⟩ : Itv), (⟨(f (3602879701896397) (-55)), .pinf⟩ : Itv)]))),
    .call ((Cmd.run (.op [(⟨(f (3602879701896397) (-55)), (f (1) (-1))⟩ : Itv), (⟨(f 1 0), (f 1 0)⟩ : Itv)]))),
    .call ((Cmd.run (.op [(⟨(f (3602879701896397) (-55)), (f (1) (-1))⟩ : Itv), (⟨(f 1 0), (f (5) (-1))⟩ : Itv)]))),
    .call ((Cmd.run (.op [(⟨(f (3602879701896397) (-55)), (f (1) (-1))⟩ : Itv), (⟨(f 1 0), .pinf⟩ : Itv)]))),
    .call ((Cmd.run (.op [(⟨(f (3602879701896397) (-55)), (f (1) (-1))⟩ : Itv), (⟨(f (5) (-1)), (f (5) (-1))⟩ : Itv)]))),
    .call ((Cmd.run (.op [(⟨(f (3602879701896397) (-55)), (f (1) (-1))⟩ : Itv), (⟨(f (5) (-1)), .pinf⟩ : Itv)]))),
    .call ((Cmd.run (.op [(⟨(f (3602879701896397) (-55)), (f (1) (-1))⟩ : Itv), (⟨(f (-3602879701896397) (-55)), (f (3602879701896397) (-55))⟩ : Itv)]))),
    .call ((Cmd.run (.op [(⟨(f (3602879701896397) (-55)), (f (1) (-1))⟩ : Itv), (⟨(f (-3602879701896397) (-55)), (f 1 0)⟩ : Itv)]))),
    .call ((Cmd.run (.op [(⟨(f (3602879701896397) (-55)), (f (1) (-1))⟩ : Itv), (⟨(f (-3602879701896397) (-55)), (f (5) (-1))⟩ : Itv)]))),
    .call ((Cmd.run (.op [(⟨(f (3602879701896397) (-55)), (f (1) (-1))⟩ : Itv), (⟨(f (-3602879701896397) (-55)), .pinf⟩ : Itv)]))),
    .call ((Cmd.run (.op [(⟨(f (3602879701896397) (-55)), (f (1) (-1))⟩ : Itv), (⟨(f (-1) (0)), (f (3602879701896397) (-55))⟩ : Itv)]))),
    .call ((Cmd.run (.op [(⟨(f (3602879701896397) (-55)), (f (1) (-1))⟩ : Itv), (⟨(f (-1) (0)), (f 1 0)⟩ : Itv)]))),
    .call ((Cmd.run (.op [(⟨(f (3602879701896397) (-55)), (f (1) (-1))⟩ : Itv), (⟨(f (-1) (0)), (f (5) (-1))⟩ : Itv)]))),
    .call ((Cmd.run (.op [(⟨(f (3602879701896397) (-55)), (f (1) (-1))⟩ : Itv), (⟨(f (-1) (0)), .pinf⟩ : Itv)]))),
    .call ((Cmd.run (.op [(⟨(f (3602879701896397) (-55)), (f (1) (-1))⟩ : Itv), (⟨(f (-5) (-1)), (f (3602879701896397) (-55))⟩ : Itv)]))),
    .call ((Cmd.run (.op [(⟨(f (3602879701896397) (-55)), (f (1) (-1))⟩ : Itv), (⟨(f (-5) (-1)), (f 1 0)⟩ : Itv)]))),
    .call ((Cmd.run (.op [(⟨(f (3602879701896397) (-55)), (f (1) (-1))⟩ : Itv), (⟨(f (-5) (-1)), (f (5) (-1))⟩ : Itv)]))),
    .call ((Cmd.run (.op [(⟨(f (3602879701896397) (-55)), (f (1) (-1))⟩ : Itv), (⟨(f (-5) (-1)), .pinf⟩ : Itv)]))),
    .call ((Cmd.run (.op [(⟨(f (3602879701896397) (-55)), (f (1) (-1))⟩ : Itv), (⟨.ninf, (f (3602879701896397) (-55))⟩ : Itv)]))),
    .call ((Cmd.run (.op [(⟨(f (3602879701896397) (-55)), (f (1) (-1))⟩ : Itv), (⟨.ninf, (f 1 0)⟩ : Itv)]))),
    .call ((Cmd.run (.op [(⟨(f (3602879701896397) (-55)), (f (1) (-1))⟩ : Itv), (⟨.ninf, (f (5) (-1))⟩ : Itv)]))),
    .call ((Cmd.run (.op [(⟨(f (3602879701896397) (-55)), (f (1) (-1))⟩ : Itv), (Itv.entire : Itv)]))),
    .call ((Cmd.run (.op [(⟨(f (3602879701896397) (-55)), (f (1) (-1))⟩ : Itv), (⟨(f (-1) (0)), (f 0 0)⟩ : Itv)]))),
    .call ((Cmd.run (.op [(⟨(f (3602879701896397) (-55)), (f (1) (-1))⟩ : Itv), (⟨(f (-1) (0)), .nzero⟩ : Itv)]))),
    .call ((Cmd.run (.op [(⟨(f (3602879701896397) (-55)), (f (1) (-1))⟩ : Itv), (⟨(f (-5) (-1)), (f 0 0)⟩ : Itv)]))),
    .call ((Cmd.run (.op [(⟨(f (3602879701896397) (-55)), (f (1) (-1))⟩ : Itv), (⟨(f (-5) (-1)), .nzero⟩ : Itv)]))),
    .call ((Cmd.run (.op [(⟨(f (3602879701896397) (-55)), (f (1) (-1))⟩ : Itv), (⟨.ninf, (f 0 0)⟩ : Itv)]))),
    .call ((Cmd.run (.op [(⟨(f (3602879701896397) (-55)), (f (1) (-1))⟩ : Itv), (⟨.ninf, .nzero⟩ : Itv)]))),
    .call ((Cmd.run (.op [(⟨(f (3602879701896397) (-55)), (f (1) (-1))⟩ : Itv), (⟨(f (-3602879701896397) (-55)), (f (-3602879701896397) (-55))⟩ : Itv)]))),
    .call ((Cmd.run (.op [(⟨(f (3602879701896397) (-55)), (f (1) (-1))⟩ : Itv), (⟨(f (-1) (0)), (f (-3602879701896397) (-55))⟩ : Itv)]))),
    .call ((Cmd.run (.op [(⟨(f (3602879701896397) (-55)), (f (1) (-1))⟩ : Itv), (⟨(f (-5) (-1)), (f (-3602879701896397) (-55))⟩ : Itv)]))),
    .call ((Cmd.run (.op [(⟨(f (3602879701896397) (-55)), (f (1) (-1))⟩ : Itv), (⟨.ninf, (f (-3602879701896397) (-55))⟩ : Itv)]))),
    .call ((Cmd.run (.op [(⟨(f (3602879701896397) (-55)), (f (1) (-1))⟩ : Itv), (⟨(f (-1) (0)), (f (-1) (0))⟩ : Itv)]))),
    .call ((Cmd.run (.op [(⟨(f (3602879701896397) (-55)), (f (1) (-1))⟩ : Itv), (⟨(f (-5) (-1)), (f (-1) (0))⟩ : Itv)]))),
    .call ((Cmd.run (.op [(⟨(f (3602879701896397) (-55)), (f (1) (-1))⟩ : Itv), (⟨.ninf, (f (-1) (0))⟩ : Itv)]))),
    .call ((Cmd.run (.op [(⟨(f (3602879701896397) (-55)), (f (1) (-1))⟩ : Itv), (⟨(f (-5) (-1)), (f (-5) (-1))⟩ : Itv)]))),
    .call ((Cmd.run (.op [(⟨(f (3602879701896397) (-55)), (f (1) (-1))⟩ : Itv), (⟨.ninf, (f (-5) (-1))⟩ : Itv)]))),
    .call (do (Cmd.run (.op [(⟨(f (3602879701896397) (-55)), (f 1 0)⟩ : Itv), (Itv.empty : Itv)])); (Cmd.run (.op [(Itv.empty : Itv)]))),
    .call ((Cmd.run (.op [(⟨(f (3602879701896397) (-55)), (f 1 0)⟩ : Itv), (⟨(f 0 0), (f 0 0)⟩ : Itv)]))),
    .call ((Cmd.run (.op [(⟨(f (3602879701896397) (-55)), (f 1 0)⟩ : Itv), (⟨.nzero, .nzero⟩ : Itv)]))),
    .call ((Cmd.run (.op [(⟨(f (3602879701896397) (-55)), (f 1 0)⟩ : Itv), (⟨(f 0 0), (f 1 0)⟩ : Itv)]))),
    .call ((Cmd.run (.op [(⟨(f (3602879701896397) (-55)), (f 1 0)⟩ : Itv), (⟨.nzero, (f 1 0)⟩ : Itv)]))),
    .call ((Cmd.run (.op [(⟨(f (3602879701896397) (-55)), (f 1 0)⟩ : Itv), (⟨(f 0 0), (f (5) (-1))⟩ : Itv)]))),
    .call ((Cmd.run (.op [(⟨(f (3602879701896397) (-55)), (f 1 0)⟩ : Itv), (⟨.nzero, (f (5) (-1))⟩ : Itv)]))),
    .call ((Cmd.run (.op [(⟨(f (3602879701896397) (-55)), (f 1 0)⟩ : Itv), (⟨(f 0 0), .pinf⟩ : Itv)]))),
    .call ((Cmd.run (.op [(⟨(f (3602879701896397) (-55)), (f 1 0)⟩ : Itv), (⟨.nzero, .pinf⟩ : Itv)]))),
    .call ((Cmd.run (.op [(⟨(f (3602879701896397) (-55)), (f 1 0)⟩ : Itv), (⟨(f (3602879701896397) (-55)), (f (3602879701896397) (-55))⟩ : Itv)]))),
    .call ((Cmd.run (.op [(⟨(f (3602879701896397) (-55)), (f 1 0)⟩ : Itv), (⟨(f (3602879701896397) (-55)), (f 1 0)⟩ : Itv)]))),
    .call ((Cmd.run (.op [(⟨(f (3602879701896397) (-55)), (f 1 0)⟩ : Itv), (⟨(f (3602879701896397) (-55)), (f (5) (-1))⟩ : Itv)]))),
    .call ((Cmd.run (.op [(⟨(f (3602879701896397) (-55)), (f 1 0)⟩ : Itv), (⟨(f (3602879701896397) (-55)), .pinf⟩ : Itv)]))),
    .call ((Cmd.run (.op [(⟨(f (3602879701896397) (-55)), (f 1 0)⟩ : Itv), (⟨(f 1 0), (f 1 0)⟩ : Itv)]))),
    .call ((Cmd.run (.op [(⟨(f (3602879701896397) (-55)), (f 1 0)⟩ : Itv), (⟨(f 1 0), (f (5) (-1))⟩ : Itv)]))),
    .call ((Cmd.run (.op [(⟨(f (3602879701896397) (-55)), (f 1 0)⟩ : Itv), (⟨(f 1 0), .pinf⟩ : Itv)]))),
    .call ((Cmd.run (.op [(⟨(f (3602879701896397) (-55)), (f 1 0)⟩ : Itv), (⟨(f (5) (-1)), (f (5) (-1))⟩ : Itv)]))),
    .call ((Cmd.run (.op [(⟨(f (3602879701896397) (-55)), (f 1 0)⟩ : Itv), (⟨(f (5) (-1)), .pinf⟩ : Itv)]))),
    .call ((Cmd.run (.op [(⟨(f (3602879701896397) (-55)), (f 1 0)⟩ : Itv), (⟨(f (-3602879701896397) (-55)), (f (3602879701896397) (-55))⟩ : Itv)]))),
    .call ((Cmd.run (.op [(⟨(f (3602879701896397) (-55)), (f 1 0)⟩ : Itv), (⟨(f (-3602879701896397) (-55)), (f 1 0)⟩ : Itv)]))),
    .call ((Cmd.run (.op [(⟨(f (3602879701896397) (-55)), (f 1 0)⟩ : Itv), (⟨(f (-3602879701896397) (-55)), (f (5) (-1))⟩ : Itv)]))),
    .call ((Cmd.run (.op [(⟨(f (3602879701896397) (-55)), (f 1 0)⟩ : Itv), (⟨(f (-3602879701896397) (-55)), .pinf⟩ : Itv)]))),
    .call ((Cmd.run (.op [(⟨(f (3602879701896397) (-55)), (f 1 0)⟩ : Itv), (⟨(f (-1) (0)), (f (3602879701896397) (-55))⟩ : Itv)]))),
    .call ((Cmd.run (.op [(⟨(f (3602879701896397) (-55)), (f 1 0)⟩ : Itv), (⟨(f (-1) (0)), (f 1 0)⟩ : Itv)]))),
    .call ((Cmd.run (.op [(⟨(f (3602879701896397) (-55)), (f 1 0)⟩ : Itv), (⟨(f (-1) (0)), (f (5) (-1))⟩ : Itv)]))),
    .call ((Cmd.run (.op [(⟨(f (3602879701896397) (-55)), (f 1 0)⟩ : Itv), (⟨(f (-1) (0)), .pinf⟩ : Itv)]))),
    .call ((Cmd.run (.op [(⟨(f (3602879701896397) (-55)), (f 1 0)⟩ : Itv), (⟨(f (-5) (-1)), (f (3602879701896397) (-55))⟩ : Itv)]))),
    .call ((Cmd.run (.op [(⟨(f (3602879701896397) (-55)), (f 1 0)⟩ : Itv), (⟨(f (-5) (-1)), (f 1 0)⟩ : Itv)]))),
    .call ((Cmd.run (.op [(⟨(f (3602879701896397) (-55)), (f 1 0)⟩ : Itv), (⟨(f (-5) (-1)), (f (5) (-1))⟩ : Itv)]))),
    .call ((Cmd.run (.op [(⟨(f (3602879701896397) (-55)), (f 1 0)⟩ : Itv), (⟨(f (-5) (-1)), .pinf⟩ : Itv)]))),
    .call ((Cmd.run (.op [(⟨(f (3602879701896397) (-55)), (f 1 0)⟩ : Itv), (⟨.ninf, (f (3602879701896397) (-55))⟩ : Itv)]))),
    .call ((Cmd.run (.op [(⟨(f (3602879701896397) (-55)), (f 1 0)⟩ : Itv), (⟨.ninf, (f 1 0)⟩ : Itv)]))),
    .call ((Cmd.run (.op [(⟨(f (3602879701896397) (-55)), (f 1 0)⟩ : Itv), (⟨.ninf, (f (5) (-1))⟩ : Itv)]))),
    .call ((Cmd.run (.op [(⟨(f (3602879701896397) (-55)), (f 1 0)⟩ : Itv), (Itv.entire : Itv)]))),
    .call ((Cmd.run (.op [(⟨(f (3602879701896397) (-55)), (f 1 0)⟩ : Itv), (⟨(f (-3602879701896397) (-55)), (f 0 0)⟩ : Itv)]))),
    .call ((Cmd.run (.op [(⟨(f (3602879701896397) (-55)), (f 1 0)⟩ : Itv), (⟨(f (-3602879701896397) (-55)), .nzero⟩ : Itv)]))),
    .call ((Cmd.run (.op [(⟨(f (3602879701896397) (-55)), (f 1 0)⟩ : Itv), (⟨(f (-1) (0)), (f 0 0)⟩ : Itv)]))),
    .call ((Cmd.run (.op [(⟨(f (3602879701896397) (-55)), (f 1 0)⟩ : Itv), (⟨(f (-1) (0)), .nzero⟩ : Itv)]))),
    .call ((Cmd.run (.op [(⟨(f (3602879701896397) (-55)), (f 1 0)⟩ : Itv), (⟨(f (-5) (-1)), (f 0 0)⟩ : Itv)]))),
    .call ((Cmd.run (.op [(⟨(f (3602879701896397) (-55)), (f 1 0)⟩ : Itv), (⟨(f (-5) (-1)), .nzero⟩ : Itv)]))),
    .call ((Cmd.run (.op [(⟨(f (3602879701896397) (-55)), (f 1 0)⟩ : Itv), (⟨.ninf, (f 0 0)⟩ : Itv)]))),
    .call ((Cmd.run (.op [(⟨(f (3602879701896397) (-55)), (f 1 0)⟩ : Itv), (⟨.ninf, .nzero⟩ : Itv)]))),
    .call ((Cmd.run (.op [(⟨(f (3602879701896397) (-55)), (f 1 0)⟩ : Itv), (⟨(f (-3602879701896397) (-55)), (f (-3602879701896397) (-55))⟩ : Itv)]))),
    .call ((Cmd.run (.op [(⟨(f (3602879701896397) (-55)), (f 1 0)⟩ : Itv), (⟨(f (-1) (0)), (f (-3602879701896397) (-55))⟩ : Itv)]))),
    .call ((Cmd.run (.op [(⟨(f (3602879701896397) (-55)), (f 1 0)⟩ : Itv), (⟨(f (-5) (-1)), (f (-3602879701896397) (-55))⟩ : Itv)]))),
    .call ((Cmd.run (.op [(⟨(f (3602879701896397) (-55)), (f 1 0)⟩ : Itv), (⟨.ninf, (f (-3602879701896397) (-55))⟩ : Itv)]))),
    .call ((Cmd.run (.op [(⟨(f (3602879701896397) (-55)), (f 1 0)⟩ : Itv), (⟨(f (-1) (0)), (f (-1) (0))⟩ : Itv)]))),
    .call ((Cmd.run (.op [(⟨(f (3602879701896397) (-55)), (f 1 0)⟩ : Itv), (⟨(f (-5) (-1)), (f (-1) (0))⟩ : Itv)]))),
    .call ((Cmd.run (.op [(⟨(f (3602879701896397) (-55)), (f 1 0)⟩ : Itv), (⟨.ninf, (f (-1) (0))⟩ : Itv)]))),
    .call ((Cmd.run (.op [(⟨(f (3602879701896397) (-55)), (f 1 0)⟩ : Itv), (⟨(f (-5) (-1)), (f (-5) (-1))⟩ : Itv)]))),
    .call ((Cmd.run (.op [(⟨(f (3602879701896397) (-55)), (f 1 0)⟩ : Itv), (⟨.ninf, (f (-5) (-1))⟩ : Itv)]))),
    .call (do (Cmd.run (.op [(⟨(f (1) (-1)), (f (3) (-1))⟩ : Itv), (Itv.empty : Itv)])); (Cmd.run (.op [(Itv.empty : Itv)]))),
    .call ((Cmd.run (.op [(⟨(f (1) (-1)), (f (3) (-1))⟩ : Itv), (⟨(f 0 0), (f 0 0)⟩ : Itv)]))),
    .call ((Cmd.run (.op [(⟨(f (1) (-1)), (f (3) (-1))⟩ : Itv), (⟨.nzero, .nzero⟩ : Itv)]))),
    .call ((Cmd.run (.op [(⟨(f (1) (-1)), (f (3) (-1))⟩ : Itv), (⟨(f 0 0), (f 1 0)⟩ : Itv)]))),
    .call ((Cmd.run (.op [(⟨(f (1) (-1)), (f (3) (-1))⟩ : Itv), (⟨.nzero, (f 1 0)⟩ : Itv)]))),
    .call ((Cmd.run (.op [(⟨(f (1) (-1)), (f (3) (-1))⟩ : Itv), (⟨(f 0 0), (f (5) (-1))⟩ : Itv)]))),
    .call ((Cmd.run (.op [(⟨(f (1) (-1)), (f (3) (-1))⟩ : Itv), (⟨.nzero, (f (5) (-1))⟩ : Itv)]))),
    .call ((Cmd.run (.op [(⟨(f (1) (-1)), (f (3) (-1))⟩ : Itv), (⟨(f 0 0), .pinf⟩ : Itv)]))),
    .call ((Cmd.run (.op [(⟨(f (1) (-1)), (f (3) (-1))⟩ : Itv), (⟨.nzero, .pinf⟩ : Itv)]))),
    .call ((Cmd.run (.op [(⟨(f (1) (-1)), (f (3) (-1))⟩ : Itv), (⟨(f (3602879701896397) (-55)), (f (3602879701896397) (-55))⟩ : Itv)]))),
    .call ((Cmd.run (.op [(⟨(f (1) (-1)), (f (3) (-1))⟩ : Itv), (⟨(f (3602879701896397) (-55)), (f 1 0)⟩ : Itv)]))),
    .call ((Cmd.run (.op [(⟨(f (1) (-1)), (f (3) (-1))⟩ : Itv), (⟨(f (3602879701896397) (-55)), (f (5) (-1))⟩ : Itv)]))),
    .call ((Cmd.run (.op [(⟨(f (1) (-1)), (f (3) (-1))⟩ : Itv), (⟨(f (3602879701896397) (-55)), .pinf⟩ : Itv)]))),
    .call ((Cmd.run (.op [(⟨(f (1) (-1)), (f (3) (-1))⟩ : Itv), (⟨(f 1 0), (f 1 0)⟩ : Itv)]))),
    .call ((Cmd.run (.op [(⟨(f (1) (-1)), (f (3) (-1))⟩ : Itv), (⟨(f 1 0), (f (5) (-1))⟩ : Itv)]))),
    .call ((Cmd.run (.op [(⟨(f (1) (-1)), (f (3) (-1))⟩ : Itv), (⟨(f 1 0), .pinf⟩ : Itv)]))),
    .call ((Cmd.run (.op [(⟨(f (1) (-1)), (f (3) (-1))⟩ : Itv), (⟨(f (5) (-1)), (f (5) (-1))⟩ : Itv)]))),
    .call ((Cmd.run (.op [(⟨(f (1) (-1)), (f (3) (-1))⟩ : Itv), (⟨(f (5) (-1)), .pinf⟩ : Itv)]))),
    .call ((Cmd.run (.op [(⟨(f (1) (-1)), (f (3) (-1))⟩ : Itv), (⟨(f (-3602879701896397) (-55)), (f (3602879701896397) (-55))⟩ : Itv)]))),
    .call ((Cmd.run (.op [(⟨(f (1) (-1)), (f (3) (-1))⟩ : Itv), (⟨(f (-3602879701896397) (-55)), (f 1 0)⟩ : Itv)]))),
    .call ((Cmd.run (.op [(⟨(f (1) (-1)), (f (3) (-1))⟩ : Itv), (⟨(f (-3602879701896397) (-55)), (f (5) (-1))⟩ : Itv)]))),
    .call ((Cmd.run (.op [(⟨(f (1) (-1)), (f (3) (-1))⟩ : Itv), (⟨(f (-3602879701896397) (-55)), .pinf⟩ : Itv)]))),
    .call ((Cmd.run (.op [(⟨(f (1) (-1)), (f (3) (-1))⟩ : Itv), (⟨(f (-1) (0)), (f (3602879701896397) (-55))⟩ : Itv)]))),
    .call ((Cmd.run (.op [(⟨(f (1) (-1)), (f (3) (-1))⟩ : Itv), (⟨(f (-1) (0)), (f 1 0)⟩ : Itv)]))),
    .call ((Cmd.run (.op [(⟨(f (1) (-1)), (f (3) (-1))⟩ : Itv), (⟨(f (-1) (0)), (f (5) (-1))⟩ : Itv)]))),
    .call ((Cmd.run (.op [(⟨(f (1) (-1)), (f (3) (-1))⟩ : Itv), (⟨(f (-1) (0)), .pinf⟩ : Itv)]))),
    .call ((Cmd.run (.op [(⟨(f (1) (-1)), (f (3) (-1))⟩ : Itv), (⟨(f (-5) (-1)), (f (3602879701896397) (-55))⟩ : Itv)]))),
    .call ((Cmd.run (.op [(⟨(f (1) (-1)), (f (3) (-1))⟩ : Itv), (⟨(f (-5) (-1)), (f 1 0)⟩ : Itv)]))),
    .call ((Cmd.run (.op [(⟨(f (1) (-1)), (f (3) (-1))⟩ : Itv), (⟨(f (-5) (-1)), (f (5) (-1))⟩ : Itv)]))),
    .call ((Cmd.run (.op [(⟨(f (1) (-1)), (f (3) (-1))⟩ : Itv), (⟨(f (-5) (-1)), .pinf⟩ : Itv)]))),
    .call ((Cmd.run (.op [(⟨(f (1) (-1)), (f (3) (-1))⟩ : Itv), (⟨.ninf, (f (3602879701896397) (-55))⟩ : Itv)]))),
    .call ((Cmd.run (.op [(⟨(f (1) (-1)), (f (3) (-1))⟩ : Itv), (⟨.ninf, (f 1 0)⟩ : Itv)]))),
    .call ((Cmd.run (.op [(⟨(f (1) (-1)), (f (3) (-1))⟩ : Itv), (⟨.ninf, (f (5) (-1))⟩ : Itv)]))),
    .call ((Cmd.run (.op [(⟨(f (1) (-1)), (f (3) (-1))⟩ : Itv), (Itv.entire : Itv)]))),
    .call ((Cmd.run (.op [(⟨(f (1) (-1)), (f (3) (-1))⟩ : Itv), (⟨(f (-1) (0)), (f 0 0)⟩ : Itv)]))),
    .call ((Cmd.run (.op [(⟨(f (1) (-1)), (f (3) (-1))⟩ : Itv), (⟨(f (-1) (0)), .nzero⟩ : Itv)]))),
    .call ((Cmd.run (.op [(⟨(f (1) (-1)), (f (3) (-1))⟩ : Itv), (⟨(f (-5) (-1)), (f 0 0)⟩ : Itv)]))),
    .call ((Cmd.run (.op [(⟨(f (1) (-1)), (f (3) (-1))⟩ : Itv), (⟨(f (-5) (-1)), .nzero⟩ : Itv)]))),
    .call ((Cmd.run (.op [(⟨(f (1) (-1)), (f (3) (-1))⟩ : Itv), (⟨.ninf, (f 0 0)⟩ : Itv)]))),
    .call ((Cmd.run (.op [(⟨(f (1) (-1)), (f (3) (-1))⟩ : Itv), (⟨.ninf, .nzero⟩ : Itv)]))),
    .call ((Cmd.run (.op [(⟨(f (1) (-1)), (f (3) (-1))⟩ : Itv), (⟨(f (-3602879701896397) (-55)), (f (-3602879701896397) (-55))⟩ : Itv)]))),
    .call ((Cmd.run (.op [(⟨(f (1) (-1)), (f (3) (-1))⟩ : Itv), (⟨(f (-1) (0)), (f (-3602879701896397) (-55))⟩ : Itv)]))),
    .call ((Cmd.run (.op [(⟨(f (1) (-1)), (f (3) (-1))⟩ : Itv), (⟨(f (-5) (-1)), (f (-3602879701896397) (-55))⟩ : Itv)]))),
    .call ((Cmd.run (.op [(⟨(f (1) (-1)), (f (3) (-1))⟩ : Itv), (⟨.ninf, (f (-3602879701896397) (-55))⟩ : Itv)]))),
    .call ((Cmd.run (.op [(⟨(f (1) (-1)), (f (3) (-1))⟩ : Itv), (⟨(f (-1) (0)), (f (-1) (0))⟩ : Itv)]))),
    .call ((Cmd.run (.op [(⟨(f (1) (-1)), (f (3) (-1))⟩ : Itv), (⟨(f (-5) (-1)), (f (-1) (0))⟩ : Itv)]))),
    .call ((Cmd.run (.op [(⟨(f (1) (-1)), (f (3) (-1))⟩ : Itv), (⟨.ninf, (f (-1) (0))⟩ : Itv)]))),
    .call ((Cmd.run (.op [(⟨(f (1) (-1)), (f (3) (-1))⟩ : Itv), (⟨(f (-5) (-1)), (f (-5) (-1))⟩ : Itv)]))),
    .call ((Cmd.run (.op [(⟨(f (1) (-1)), (f (3) (-1))⟩ : Itv), (⟨.ninf, (f (-5) (-1))⟩ : Itv)]))),
    .call (do (Cmd.run (.op [(⟨(f (1) (-1)), .pinf⟩ : Itv), (Itv.empty : Itv)])); (Cmd.run (.op [(Itv.empty : Itv)]))),
    .call ((Cmd.run (.op [(⟨(f (1) (-1)), .pinf⟩ : Itv), (⟨(f 0 0), (f 0 0)⟩ : Itv)]))),
    .call ((Cmd.run (.op [(⟨(f (1) (-1)), .pinf⟩ : Itv), (⟨.nzero, .nzero⟩ : Itv)]))),
    .call ((Cmd.run (.op [(⟨(f (1) (-1)), .pinf⟩ : Itv), (⟨(f 0 0), (f 1 0)⟩ : Itv)]))),
    .call ((Cmd.run (.op [(⟨(f (1) (-1)), .pinf⟩ : Itv), (⟨.nzero, (f 1 0)⟩ : Itv)]))),
    .call ((Cmd.run (.op [(⟨(f (1) (-1)), .pinf⟩ : Itv), (⟨(f 0 0), (f (5) (-1))⟩ : Itv)]))),
    .call ((Cmd.run (.op [(⟨(f (1) (-1)), .pinf⟩ : Itv), (⟨.nzero, (f (5) (-1))⟩ : Itv)]))),
    .call ((Cmd.run (.op [(⟨(f (1) (-1)), .pinf⟩ : Itv), (⟨(f 0 0), .pinf⟩ : Itv)]))),
    .call ((Cmd.run (.op [(⟨(f (1) (-1)), .pinf⟩ : Itv), (⟨.nzero, .pinf⟩ : Itv)]))),
    .call ((Cmd.run (.op [(⟨(f (1) (-1)), .pinf⟩ : Itv), (⟨(f (3602879701896397) (-55)), (f (3602879701896397) (-55))⟩ : Itv)]))),
    .call ((Cmd.run (.op [(⟨(f (1) (-1)), .pinf⟩ : Itv), (⟨(f (3602879701896397) (-55)), (f 1 0)⟩ : Itv)]))),
    .call ((Cmd.run (.op [(⟨(f (1) (-1)), .pinf⟩ : Itv), (⟨(f (3602879701896397) (-55)), (f (5) (-1))⟩ : Itv)]))),
    .call ((Cmd.run (.op [(⟨(f (1) (-1)), .pinf⟩ : Itv), (⟨(f (3602879701896397) (-55)), .pinf⟩ : Itv)]))),
    .call ((Cmd.run (.op [(⟨(f (1) (-1)), .pinf⟩ : Itv), (⟨(f 1 0), (f 1 0)⟩ : Itv)]))),
    .call ((Cmd.run (.op [(⟨(f (1) (-1)), .pinf⟩ : Itv), (⟨(f 1 0), (f (5) (-1))⟩ : Itv)]))),
    .call ((Cmd.run (.op [(⟨(f (1) (-1)), .pinf⟩ : Itv), (⟨(f 1 0), .pinf⟩ : Itv)]))),
    .call ((Cmd.run (.op [(⟨(f (1) (-1)), .pinf⟩ : Itv), (⟨(f (5) (-1)), (f (5) (-1))⟩ : Itv)]))),
    .call ((Cmd.run (.op [(⟨(f (1) (-1)), .pinf⟩ : Itv), (⟨(f (5) (-1)), .pinf⟩ : Itv)]))),
    .call ((Cmd.run (.op [(⟨(f (1) (-1)), .pinf⟩ : Itv), (⟨(f (-3602879701896397) (-55)), (f (3602879701896397) (-55))⟩ : Itv)]))),
    .call ((Cmd.run (.op [(⟨(f (1) (-1)), .pinf⟩ : Itv), (⟨(f (-3602879701896397) (-55)), (f 1 0)⟩ : Itv)]))),
    .call ((Cmd.run (.op [(⟨(f (1) (-1)), .pinf⟩ : Itv), (⟨(f (-3602879701896397) (-55)), (f (5) (-1))⟩ : Itv)]))),
    .call ((Cmd.run (.op [(⟨(f (1) (-1)), .pinf⟩ : Itv), (⟨(f (-3602879701896397) (-55)), .pinf⟩ : Itv)]))),
    .call ((Cmd.run (.op [(⟨(f (1) (-1)), .pinf⟩ : Itv), (⟨(f (-1) (0)), (f (3602879701896397) (-55))⟩ : Itv)]))),
    .call ((Cmd.run (.op [(⟨(f (1) (-1)), .pinf⟩ : Itv), (⟨(f (-1) (0)), (f 1 0)⟩ : Itv)]))),
    .call ((Cmd.run (.op [(⟨(f (1) (-1)), .pinf⟩ : Itv), (⟨(f (-1) (0)), (f (5) (-1))⟩ : Itv)]))),
    .call ((Cmd.run (.op [(⟨(f (1) (-1)), .pinf⟩ : Itv), (⟨(f (-1) (0)), .pinf⟩ : Itv)]))),
    .call ((Cmd.run (.op [(⟨(f (1) (-1)), .pinf⟩ : Itv), (⟨(f (-5) (-1)), (f (3602879701896397) (-55))⟩ : Itv)]))),
    .call ((Cmd.run (.op [(⟨(f (1) (-1)), .pinf⟩ : Itv), (⟨(f (-5) (-1)), (f 1 0)⟩ : Itv)]))),
    .call ((Cmd.run (.op [(⟨(f (1) (-1)), .pinf⟩ : Itv), (⟨(f (-5) (-1)), (f (5) (-1))⟩ : Itv)]))),
    .call ((Cmd.run (.op [(⟨(f (1) (-1)), .pinf⟩ : Itv), (⟨(f (-5) (-1)), .pinf⟩ : Itv)]))),
    .call ((Cmd.run (.op [(⟨(f (1) (-1)), .pinf⟩ : Itv), (⟨.ninf, (f (3602879701896397) (-55))⟩ : Itv)]))),
    .call ((Cmd.run (.op [(⟨(f (1) (-1)), .pinf⟩ : Itv), (⟨.ninf, (f 1 0)⟩ : Itv)]))),
    .call ((Cmd.run (.op [(⟨(f (1) (-1)), .pinf⟩ : Itv), (⟨.ninf, (f (5) (-1))⟩ : Itv)]))),
    .call ((Cmd.run (.op [(⟨(f (1) (-1)), .pinf⟩ : Itv), (Itv.entire : Itv)]))),
    .call ((Cmd.run (.op [(⟨(f (1) (-1)), .pinf⟩ : Itv), (⟨(f (-1) (0)), (f 0 0)⟩ : Itv)]))),
    .call ((Cmd.run (.op [(⟨(f (1) (-1)), .pinf⟩ : Itv), (⟨(f (-1) (0)), .nzero⟩ : Itv)]))),
    .call ((Cmd.run (.op [(⟨(f (1) (-1)), .pinf⟩ : Itv), (⟨(f (-5) (-1)), (f 0 0)⟩ : Itv)]))),
    .call ((Cmd.run (.op [(⟨(f (1) (-1)), .pinf⟩ : Itv), (⟨(f (-5) (-1)), .nzero⟩ : Itv)]))),
    .call ((Cmd.run (.op [(⟨(f (1) (-1)), .pinf⟩ : Itv), (⟨.ninf, (f 0 0)⟩ : Itv)]))),
    .call ((Cmd.run (.op [(⟨(f (1) (-1)), .pinf⟩ : Itv), (⟨.ninf, .nzero⟩ : Itv)]))),
    .call ((Cmd.run (.op [(⟨(f (1) (-1)), .pinf⟩ : Itv), (⟨(f (-3602879701896397) (-55)), (f (-3602879701896397) (-55))⟩ : Itv)]))),
    .call ((Cmd.run (.op [(⟨(f (1) (-1)), .pinf⟩ : Itv), (⟨(f (-1) (0)), (f (-3602879701896397) (-55))⟩ : Itv)]))),
    .call ((Cmd.run (.op [(⟨(f (1) (-1)), .pinf⟩ : Itv), (⟨(f (-5) (-1)), (f (-3602879701896397) (-55))⟩ : Itv)]))),
    .call ((Cmd.run (.op [(⟨(f (1) (-1)), .pinf⟩ : Itv), (⟨.ninf, (f (-3602879701896397) (-55))⟩ : Itv)]))),
    .call ((Cmd.run (.op [(⟨(f (1) (-1)), .pinf⟩ : Itv), (⟨(f (-1) (0)), (f (-1) (0))⟩ : Itv)]))),
    .call ((Cmd.run (.op [(⟨(f (1) (-1)), .pinf⟩ : Itv), (⟨(f (-5) (-1)), (f (-1) (0))⟩ : Itv)]))),
    .call ((Cmd.run (.op [(⟨(f (1) (-1)), .pinf⟩ : Itv), (⟨.ninf, (f (-1) (0))⟩ : Itv)]))),
    .call ((Cmd.run (.op [(⟨(f (1) (-1)), .pinf⟩ : Itv), (⟨.ninf, (f (-5) (-1))⟩ : Itv)]))),
    .call ((Cmd.run (.op [(⟨(f (1) (-1)), .pinf⟩ : Itv), (⟨(f (-5) (-1)), (f (-5) (-1))⟩ : Itv)]))),
    .call (do (Cmd.run (.op [(⟨(f 1 0), (f (3) (-1))⟩ : Itv), (Itv.empty : Itv)])); (Cmd.run (.op [(Itv.empty : Itv)]))),
    .call ((Cmd.run (.op [(⟨(f 1 0), (f (3) (-1))⟩ : Itv), (⟨(f 0 0), (f 0 0)⟩ : Itv)]))),
    .call ((Cmd.run (.op [(⟨(f 1 0), (f (3) (-1))⟩ : Itv), (⟨.nzero, .nzero⟩ : Itv)]))),
    .call ((Cmd.run (.op [(⟨(f 1 0), (f (3) (-1))⟩ : Itv), (⟨(f 0 0), (f 1 0)⟩ : Itv)]))),
    .call ((Cmd.run (.op [(⟨(f 1 0), (f (3) (-1))⟩ : Itv), (⟨.nzero, (f 1 0)⟩ : Itv)]))),
    .call ((Cmd.run (.op [(⟨(f 1 0), (f (3) (-1))⟩ : Itv), (⟨(f 0 0), (f (5) (-1))⟩ : Itv)]))),
    .call ((Cmd.run (.op [(⟨(f 1 0), (f (3) (-1))⟩ : Itv), (⟨.nzero, (f (5) (-1))⟩ : Itv)]))),
    .call ((Cmd.run (.op [(⟨(f 1 0), (f (3) (-1))⟩ : Itv), (⟨(f 0 0), .pinf⟩ : Itv)]))),
    .call ((Cmd.run (.op [(⟨(f 1 0), (f (3) (-1))⟩ : Itv), (⟨.nzero, .pinf⟩ : Itv)]))),
    .call ((Cmd.run (.op [(⟨(f 1 0), (f (3) (-1))⟩ : Itv), (⟨(f (3602879701896397) (-55)), (f (3602879701896397) (-55))⟩ : Itv)]))),
    .call ((Cmd.run (.op [(⟨(f 1 0), (f (3) (-1))⟩ : Itv), (⟨(f (3602879701896397) (-55)), (f 1 0)⟩ : Itv)]))),
    .call ((Cmd.run (.op [(⟨(f 1 0), (f (3) (-1))⟩ : Itv), (⟨(f (3602879701896397) (-55)), (f (5) (-1))⟩ : Itv)]))),
    .call ((Cmd.run (.op [(⟨(f 1 0), (f (3) (-1))⟩ : Itv), (⟨(f (3602879701896397) (-55)), .pinf⟩ : Itv)]))),
    .call ((Cmd.run (.op [(⟨(f 1 0), (f (3) (-1))⟩ : Itv), (⟨(f 1 0), (f 1 0)⟩ : Itv)]))),
    .call ((Cmd.run (.op [(⟨(f 1 0), (f (3) (-1))⟩ : Itv), (⟨(f 1 0), (f (5) (-1))⟩ : Itv)]))),
    .call ((Cmd.run (.op [(⟨(f 1 0), (f (3) (-1))⟩ : Itv), (⟨(f 1 0), .pinf⟩ : Itv)]))),
    .call ((Cmd.run (.op [(⟨(f 1 0), (f (3) (-1))⟩ : Itv), (⟨(f (5) (-1)), (f (5) (-1))⟩ : Itv)]))),
    .call ((Cmd.run (.op [(⟨(f 1 0), (f (3) (-1))⟩ : Itv), (⟨(f (5) (-1)), .pinf⟩ : Itv)]))),
    .call ((Cmd.run (.op [(⟨(f 1 0), (f (3) (-1))⟩ : Itv), (⟨(f (-3602879701896397) (-55)), (f (3602879701896397) (-55))⟩ : Itv)]))),
    .call ((Cmd.run (.op [(⟨(f 1 0), (f (3) (-1))⟩ : Itv), (⟨(f (-3602879701896397) (-55)), (f 1 0)⟩ : Itv)]))),
    .call ((Cmd.run (.op [(⟨(f 1 0), (f (3) (-1))⟩ : Itv), (⟨(f (-3602879701896397) (-55)), (f (5) (-1))⟩ : Itv)]))),
    .call ((Cmd.run (.op [(⟨(f 1 0), (f (3) (-1))⟩ : Itv), (⟨(f (-3602879701896397) (-55)), .pinf⟩ : Itv)]))),
    .call ((Cmd.run (.op [(⟨(f 1 0), (f (3) (-1))⟩ : Itv), (⟨(f (-1) (0)), (f (3602879701896397) (-55))⟩ : Itv)]))),
    .call ((Cmd.run (.op [(⟨(f 1 0), (f (3) (-1))⟩ : Itv), (⟨(f (-1) (0)), (f 1 0)⟩ : Itv)]))),
    .call ((Cmd.run (.op [(⟨(f 1 0), (f (3) (-1))⟩ : Itv), (⟨(f (-1) (0)), (f (5) (-1))⟩ : Itv)]))),
    .call ((Cmd.run (.op [(⟨(f 1 0), (f (3) (-1))⟩ : Itv), (⟨(f (-1) (0)), .pinf⟩ : Itv)]))),
    .call ((Cmd.run (.op [(⟨(f 1 0), (f (3) (-1))⟩ : Itv), (⟨(f (-5) (-1)), (f (3602879701896397) (-55))⟩ : Itv)]))),
    .call ((Cmd.run (.op [(⟨(f 1 0), (f (3) (-1))⟩ : Itv), (⟨(f (-5) (-1)), (f 1 0)⟩ : Itv)]))),
    .call ((Cmd.run (.op [(⟨(f 1 0), (f (3) (-1))⟩ : Itv), (⟨(f (-5) (-1)), (f (5) (-1))⟩ : Itv)]))),
    .call ((Cmd.run (.op [(⟨(f 1 0), (f (3) (-1))⟩ : Itv), (⟨(f (-5) (-1)), .pinf⟩ : Itv)]))),
    .call ((Cmd.run (.op [(⟨(f 1 0), (f (3) (-1))⟩ : Itv), (⟨.ninf, (f (3602879701896397) (-55))⟩ : Itv)]))),
    .call ((Cmd.run (.op [(⟨(f 1 0), (f (3) (-1))⟩ : Itv), (⟨.ninf, (f 1 0)⟩ : Itv)]))),
    .call ((Cmd.run (.op [(⟨(f 1 0), (f (3) (-1))⟩ : Itv), (⟨.ninf, (f (5) (-1))⟩ : Itv)]))),
    .call ((Cmd.run (.op [(⟨(f 1 0), (f (3) (-1))⟩ : Itv), (Itv.entire : Itv)]))),
    .call ((Cmd.run (.op [(⟨(f 1 0), (f (3) (-1))⟩ : Itv), (⟨(f (-1) (0)), (f 0 0)⟩ : Itv)]))),
    .call ((Cmd.run (.op [(⟨(f 1 0), (f (3) (-1))⟩ : Itv), (⟨(f (-1) (0)), .nzero⟩ : Itv)]))),
    .call ((Cmd.run (.op [(⟨(f 1 0), (f (3) (-1))⟩ : Itv), (⟨(f (-5) (-1)), (f 0 0)⟩ : Itv)]))),
    .call ((Cmd.run (.op [(⟨(f 1 0), (f (3) (-1))⟩ : Itv), (⟨(f (-5) (-1)), .nzero⟩ : Itv)]))),
    .call ((Cmd.run (.op [(⟨(f 1 0), (f (3) (-1))⟩ : Itv), (⟨.ninf, (f 0 0)⟩ : Itv)]))),
    .call ((Cmd.run (.op [(⟨(f 1 0), (f (3) (-1))⟩ : Itv), (⟨.ninf, .nzero⟩ : Itv)]))),
    .call ((Cmd.run (.op [(⟨(f 1 0), (f (3) (-1))⟩ : Itv), (⟨(f (-3602879701896397) (-55)), (f (-3602879701896397) (-55))⟩ : Itv)]))),
    .call ((Cmd.run (.op [(⟨(f 1 0), (f (3) (-1))⟩ : Itv), (⟨(f (-1) (0)), (f (-3602879701896397) (-55))⟩ : Itv)]))),
    .call ((Cmd.run (.op [(⟨(f 1 0), (f (3) (-1))⟩ : Itv), (⟨(f (-5) (-1)), (f (-3602879701896397) (-55))⟩ : Itv)]))),
    .call ((Cmd.run (.op [(⟨(f 1 0), (f (3) (-1))⟩ : Itv), (⟨.ninf, (f (-3602879701896397) (-55))⟩ : Itv)]))),
    .call ((Cmd.run (.op [(⟨(f 1 0), (f (3) (-1))⟩ : Itv), (⟨(f (-1) (0)), (f (-1) (0))⟩ : Itv)]))),
    .call ((Cmd.run (.op [(⟨(f 1 0), (f (3) (-1))⟩ : Itv), (⟨(f (-5) (-1)), (f (-1) (0))⟩ : Itv)]))),
    .call ((Cmd.run (.op [(⟨(f 1 0), (f (3) (-1))⟩ : Itv), (⟨.ninf, (f (-1) (0))⟩ : Itv)]))),
    .call ((Cmd.run (.op [(⟨(f 1 0), (f (3) (-1))⟩ : Itv), (⟨(f (-5) (-1)), (f (-5) (-1))⟩ : Itv)]))),
    .call ((Cmd.run (.op [(⟨(f 1 0), (f (3) (-1))⟩ : Itv), (⟨.ninf, (f (-5) (-1))⟩ : Itv)]))),
    .call (do (Cmd.run (.op [(⟨(f 1 0), .pinf⟩ : Itv), (Itv.empty : Itv)])); (Cmd.run (.op [(Itv.empty : Itv)]))),
    .call ((Cmd.run (.op [(⟨(f 1 0), .pinf⟩ : Itv), (⟨(f 0 0), (f 0 0)⟩ : Itv)]))),
    .call ((Cmd.run (.op [(⟨(f 1 0), .pinf⟩ : Itv), (⟨.nzero, .nzero⟩ : Itv)]))),
    .call ((Cmd.run (.op [(⟨(f 1 0), .pinf⟩ : Itv), (⟨(f 0 0), (f 1 0)⟩ : Itv)]))),
    .call ((Cmd.run (.op [(⟨(f 1 0), .pinf⟩ : Itv), (⟨.nzero, (f 1 0)⟩ : Itv)]))),
    .call ((Cmd.run (.op [(⟨(f 1 0), .pinf⟩ : Itv), (⟨(f 0 0), (f (5) (-1))⟩ : Itv)]))),
    .call ((Cmd.run (.op [(⟨(f 1 0), .pinf⟩ : Itv), (⟨.nzero, (f (5) (-1))⟩ : Itv)]))),
    .call ((Cmd.run (.op [(⟨(f 1 0), .pinf⟩ : Itv), (⟨(f 0 0), .pinf⟩ : Itv)]))),
    .call ((Cmd.run (.op [(⟨(f 1 0), .pinf⟩ : Itv), (⟨.nzero, .pinf⟩ : Itv)]))),
    .call ((Cmd.run (.op [(⟨(f 1 0), .pinf⟩ : Itv), (⟨(f (3602879701896397) (-55)), (f (3602879701896397) (-55))⟩ : Itv)]))),
    .call ((Cmd.run (.op [(⟨(f 1 0), .pinf⟩ : Itv), (⟨(f (3602879701896397) (-55)), (f 1 0)⟩ : Itv)]))),
    .call ((Cmd.run (.op [(⟨(f 1 0), .pinf⟩ : Itv), (⟨(f (3602879701896397) (-55)), (f (5) (-1))⟩ : Itv)]))),
    .call ((Cmd.run (.op [(⟨(f 1 0), .pinf⟩ : Itv), (⟨(f (3602879701896397) (-55)), .pinf⟩ : Itv)]))),
    .call ((Cmd.run (.op [(⟨(f 1 0), .pinf⟩ : Itv), (⟨(f 1 0), (f 1 0)⟩ : Itv)]))),
    .call ((Cmd.run (.op [(⟨(f 1 0), .pinf⟩ : Itv), (⟨(f 1 0), (f (5) (-1))⟩ : Itv)]))),
    .call ((Cmd.run (.op [(⟨(f 1 0), .pinf⟩ : Itv), (⟨(f 1 0), .pinf⟩ : Itv)]))),
    .call ((Cmd.run (.op [(⟨(f 1 0), .pinf⟩ : Itv), (⟨(f (5) (-1)), (f (5) (-1))⟩ : Itv)]))),
    .call ((Cmd.run (.op [(⟨(f 1 0), .pinf⟩ : Itv), (⟨(f (5) (-1)), .pinf⟩ : Itv)]))),
    .call ((Cmd.run (.op [(⟨(f 1 0), .pinf⟩ : Itv), (⟨(f (-3602879701896397) (-55)), (f (3602879701896397) (-55))⟩ : Itv)]))),
    .call ((Cmd.run (.op [(⟨(f 1 0), .pinf⟩ : Itv), (⟨(f (-3602879701896397) (-55)), (f 1 0)⟩ : Itv)]))),
    .call ((Cmd.run (.op [(⟨(f 1 0), .pinf⟩ : Itv), (⟨(f (-3602879701896397) (-55)), (f (5) (-1))⟩ : Itv)]))),
    .call ((Cmd.run (.op [(⟨(f 1 0), .pinf⟩ : Itv), (⟨(f (-3602879701896397) (-55)), .pinf⟩ : Itv)]))),
    .call ((Cmd.run (.op [(⟨(f 1 0), .pinf⟩ : Itv), (⟨(f (-1) (0)), (f (3602879701896397) (-55))⟩ : Itv)]))),
    .call ((Cmd.run (.op [(⟨(f 1 0), .pinf⟩ : Itv), (⟨(f (-1) (0)), (f 1 0)⟩ : Itv)]))),
    .call ((Cmd.run (.op [(⟨(f 1 0), .pinf⟩ : Itv), (⟨(f (-1) (0)), (f (5) (-1))⟩ : Itv)]))),
    .call ((Cmd.run (.op [(⟨(f 1 0), .pinf⟩ : Itv), (⟨(f (-1) (0)), .pinf⟩ : Itv)]))),
    .call ((Cmd.run (.op [(⟨(f 1 0), .pinf⟩ : Itv), (⟨(f (-5) (-1)), (f (3602879701896397) (-55))⟩ : Itv)]))),
    .call ((Cmd.run (.op [(⟨(f 1 0), .pinf⟩ : Itv), (⟨(f (-5) (-1)), (f 1 0)⟩ : Itv)]))),
    .call ((Cmd.run (.op [(⟨(f 1 0), .pinf⟩ : Itv), (⟨(f (-5) (-1)), (f (5) (-1))⟩ : Itv)]))),
    .call ((Cmd.run (.op [(⟨(f 1 0), .pinf⟩ : Itv), (⟨(f (-5) (-1)), .pinf⟩ : Itv)]))),
    .call ((Cmd.run (.op [(⟨(f 1 0), .pinf⟩ : Itv), (⟨.ninf, (f (3602879701896397) (-55))⟩ : Itv)]))),
    .call ((Cmd.run (.op [(⟨(f 1 0), .pinf⟩ : Itv), (⟨.ninf, (f 1 0)⟩ : Itv)]))),
    .call ((Cmd.run (.op [(⟨(f 1 0), .pinf⟩ : Itv), (⟨.ninf, (f (5) (-1))⟩ : Itv)]))),
    .call ((Cmd.run (.op [(⟨(f 1 0), .pinf⟩ : Itv), (Itv.entire : Itv)]))),
    .call ((Cmd.run (.op [(⟨(f 1 0), .pinf⟩ : Itv), (⟨(f (-1) (0)), (f 0 0)⟩ : Itv)]))),
    .call ((Cmd.run (.op [(⟨(f 1 0), .pinf⟩ : Itv), (⟨(f (-1) (0)), .nzero⟩ : Itv)]))),
    .call ((Cmd.run (.op [(⟨(f 1 0), .pinf⟩ : Itv), (⟨(f (-5) (-1)), (f 0 0)⟩ : Itv)]))),
    .call ((Cmd.run (.op [(⟨(f 1 0), .pinf⟩ : Itv), (⟨(f (-5) (-1)), .nzero⟩ : Itv)]))),
    .call ((Cmd.run (.op [(⟨(f 1 0), .pinf⟩ : Itv), (⟨.ninf, (f 0 0)⟩ : Itv)]))),
    .call ((Cmd.run (.op [(⟨(f 1 0), .pinf⟩ : Itv), (⟨.ninf, .nzero⟩ : Itv)]))),
    .call ((Cmd.run (.op [(⟨(f 1 0), .pinf⟩ : Itv), (⟨(f (-3602879701896397) (-55)), (f (-3602879701896397) (-55))⟩ : Itv)]))),
    .call ((Cmd.run (.op [(⟨(f 1 0), .pinf⟩ : Itv), (⟨(f (-1) (0)), (f (-3602879701896397) (-55))⟩ : Itv)]))),
    .call ((Cmd.run (.op [(⟨(f 1 0), .pinf⟩ : Itv), (⟨(f (-5) (-1)), (f (-3602879701896397) (-55))⟩ : Itv)]))),
    .call ((Cmd.run (.op [(⟨(f 1 0), .pinf⟩ : Itv), (⟨.ninf, (f (-3602879701896397) (-55))⟩ : Itv)]))),
    .call ((Cmd.run (.op [(⟨(f 1 0), .pinf⟩ : Itv), (⟨(f (-1) (0)), (f (-1) (0))⟩ : Itv)]))),
    .call ((Cmd.run (.op [(⟨(f 1 0), .pinf⟩ : Itv), (⟨(f (-5) (-1)), (f (-1) (0))⟩ : Itv)]))),
    .call ((Cmd.run (.op [(⟨(f 1 0), .pinf⟩ : Itv), (⟨.ninf, (f (-1) (0))⟩ : Itv)]))),
    .call ((Cmd.run (.op [(⟨(f 1 0), .pinf⟩ : Itv), (⟨(f (-5) (-1)), (f (-5) (-1))⟩ : Itv)]))),
    .call ((Cmd.run (.op [(⟨(f 1 0), .pinf⟩ : Itv), (⟨.ninf, (f (-5) (-1))⟩ : Itv)]))),
    .call (do (Cmd.run (.op [(⟨(f (2476979795053773) (-51)), (f (3) (-1))⟩ : Itv), (Itv.empty : Itv)])); (Cmd.run (.op [(Itv.empty : Itv)]))),
    .call ((Cmd.run (.op [(⟨(f (2476979795053773) (-51)), (f (3) (-1))⟩ : Itv), (⟨(f 0 0), (f 0 0)⟩ : Itv)]))),
    .call ((Cmd.run (.op [(⟨(f (2476979795053773) (-51)), (f (3) (-1))⟩ : Itv), (⟨.nzero, .nzero⟩ : Itv)]))),
    .call ((Cmd.run (.op [(⟨(f (2476979795053773) (-51)), (f (3) (-1))⟩ : Itv), (⟨(f 0 0), (f 1 0)⟩ : Itv)]))),
    .call ((Cmd.run (.op [(⟨(f (2476979795053773) (-51)), (f (3) (-1))⟩ : Itv), (⟨.nzero, (f 1 0)⟩ : Itv)]))),
    .call ((Cmd.run (.op [(⟨(f (2476979795053773) (-51)), (f (3) (-1))⟩ : Itv), (⟨(f 0 0), (f (5) (-1))⟩ : Itv)]))),
    .call ((Cmd.run (.op [(⟨(f (2476979795053773) (-51)), (f (3) (-1))⟩ : Itv), (⟨.nzero, (f (5) (-1))⟩ : Itv)]))),
    .call ((Cmd.run (.op [(⟨(f (2476979795053773) (-51)), (f (3) (-1))⟩ : Itv), (⟨(f 0 0), .pinf⟩ : Itv)]))),
    .call ((Cmd.run (.op [(⟨(f (2476979795053773) (-51)), (f (3) (-1))⟩ : Itv), (⟨.nzero, .pinf⟩ : Itv)]))),
    .call ((Cmd.run (.op [(⟨(f (2476979795053773) (-51)), (f (3) (-1))⟩ : Itv), (⟨(f (3602879701896397) (-55)), (f (3602879701896397) (-55))⟩ : Itv)]))),
    .call ((Cmd.run (.op [(⟨(f (2476979795053773) (-51)), (f (3) (-1))⟩ : Itv), (⟨(f (3602879701896397) (-55)), (f 1 0)⟩ : Itv)]))),
    .call ((Cmd.run (.op [(⟨(f (2476979795053773) (-51)), (f (3) (-1))⟩ : Itv), (⟨(f (3602879701896397) (-55)), (f (5) (-1))⟩ : Itv)]))),
    .call ((Cmd.run (.op [(⟨(f (2476979795053773) (-51)), (f (3) (-1))⟩ : Itv), (⟨(f (3602879701896397) (-55)), .pinf⟩ : Itv)]))),
    .call ((Cmd.run (.op [(⟨(f (2476979795053773) (-51)), (f (3) (-1))⟩ : Itv), (⟨(f 1 0), (f 1 0)⟩ : Itv)]))),
    .call ((Cmd.run (.op [(⟨(f (2476979795053773) (-51)), (f (3) (-1))⟩ : Itv), (⟨(f 1 0), (f (5) (-1))⟩ : Itv)]))),
    .call ((Cmd.run (.op [(⟨(f (2476979795053773) (-51)), (f (3) (-1))⟩ : Itv), (⟨(f 1 0), .pinf⟩ : Itv)]))),
    .call ((Cmd.run (.op [(⟨(f (2476979795053773) (-51)), (f (3) (-1))⟩ : Itv), (⟨(f (5) (-1)), (f (5) (-1))⟩ : Itv)]))),
    .call ((Cmd.run (.op [(⟨(f (2476979795053773) (-51)), (f (3) (-1))⟩ : Itv), (⟨(f (5) (-1)), .pinf⟩ : Itv)]))),
    .call ((Cmd.run (.op [(⟨(f (2476979795053773) (-51)), (f (3) (-1))⟩ : Itv), (⟨(f (-3602879701896397) (-55)), (f (3602879701896397) (-55))⟩ : Itv)]))),
    .call ((Cmd.run (.op [(⟨(f (2476979795053773) (-51)), (f (3) (-1))⟩ : Itv), (⟨(f (-3602879701896397) (-55)), (f 1 0)⟩ : Itv)]))),
    .call ((Cmd.run (.op [(⟨(f (2476979795053773) (-51)), (f (3) (-1))⟩ : Itv), (⟨(f (-3602879701896397) (-55)), (f (5) (-1))⟩ : Itv)]))),
    .call ((Cmd.run (.op [(⟨(f (2476979795053773) (-51)), (f (3) (-1))⟩ : Itv), (⟨(f (-3602879701896397) (-55)), .pinf⟩ : Itv)]))),
    .call ((Cmd.run (.op [(⟨(f (2476979795053773) (-51)), (f (3) (-1))⟩ : Itv), (⟨(f (-1) (0)), (f (3602879701896397) (-55))⟩ : Itv)]))),
    .call ((Cmd.run (.op [(⟨(f (2476979795053773) (-51)), (f (3) (-1))⟩ : Itv), (⟨(f (-1) (0)), (f 1 0)⟩ : Itv)]))),
    .call ((Cmd.run (.op [(⟨(f (2476979795053773) (-51)), (f (3) (-1))⟩ : Itv), (⟨(f (-1) (0)), (f (5) (-1))⟩ : Itv)]))),
    .call ((Cmd.run (.op [(⟨(f (2476979795053773) (-51)), (f (3) (-1))⟩ : Itv), (⟨(f (-1) (0)), .pinf⟩ : Itv)]))),
    .call ((Cmd.run (.op [(⟨(f (2476979795053773) (-51)), (f (3) (-1))⟩ : Itv), (⟨(f (-5) (-1)), (f (3602879701896397) (-55))⟩ : Itv)]))),
    .call ((Cmd.run (.op [(⟨(f (2476979795053773) (-51)), (f (3) (-1))⟩ : Itv), (⟨(f (-5) (-1)), (f 1 0)⟩ : Itv)]))),
    .call ((Cmd.run (.op [(⟨(f (2476979795053773) (-51)), (f (3) (-1))⟩ : Itv), (⟨(f (-5) (-1)), (f (5) (-1))⟩ : Itv)]))),
    .call ((Cmd.run (.op [(⟨(f (2476979795053773) (-51)), (f (3) (-1))⟩ : Itv), (⟨(f (-5) (-1)), .pinf⟩ : Itv)]))),
    .call ((Cmd.run (.op [(⟨(f (2476979795053773) (-51)), (f (3) (-1))⟩ : Itv), (⟨.ninf, (f (3602879701896397) (-55))⟩ : Itv)]))),
    .call ((Cmd.run (.op [(⟨(f (2476979795053773) (-51)), (f (3) (-1))⟩ : Itv), (⟨.ninf, (f 1 0)⟩ : Itv)]))),
    .call ((Cmd.run (.op [(⟨(f (2476979795053773) (-51)), (f (3) (-1))⟩ : Itv), (⟨.ninf, (f (5) (-1))⟩ : Itv)]))),
    .call ((Cmd.run (.op [(⟨(f (2476979795053773) (-51)), (f (3) (-1))⟩ : Itv), (Itv.entire : Itv)]))),
    .call ((Cmd.run (.op [(⟨(f (2476979795053773) (-51)), (f (3) (-1))⟩ : Itv), (⟨(f (-1) (0)), (f 0 0)⟩ : Itv)]))),
    .call ((Cmd.run (.op [(⟨(f (2476979795053773) (-51)), (f (3) (-1))⟩ : Itv), (⟨(f (-1) (0)), .nzero⟩ : Itv)]))),
    .call ((Cmd.run (.op [(⟨(f (2476979795053773) (-51)), (f (3) (-1))⟩ : Itv), (⟨(f (-5) (-1)), (f 0 0)⟩ : Itv)]))),
    .call ((Cmd.run (.op [(⟨(f (2476979795053773) (-51)), (f (3) (-1))⟩ : Itv), (⟨(f (-5) (-1)), .nzero⟩ : Itv)]))),
    .call ((Cmd.run (.op [(⟨(f (2476979795053773) (-51)), (f (3) (-1))⟩ : Itv), (⟨.ninf, (f 0 0)⟩ : Itv)]))),
    .call ((Cmd.run (.op [(⟨(f (2476979795053773) (-51)), (f (3) (-1))⟩ : Itv), (⟨.ninf, .nzero⟩ : Itv)]))),
    .call ((Cmd.run (.op [(⟨(f (2476979795053773) (-51)), (f (3) (-1))⟩ : Itv), (⟨(f (-3602879701896397) (-55)), (f (-3602879701896397) (-55))⟩ : Itv)]))),
    .call ((Cmd.run (.op [(⟨(f (2476979795053773) (-51)), (f (3) (-1))⟩ : Itv), (⟨(f (-1) (0)), (f (-3602879701896397) (-55))⟩ : Itv)]))),
    .call ((Cmd.run (.op [(⟨(f (2476979795053773) (-51)), (f (3) (-1))⟩ : Itv), (⟨(f (-5) (-1)), (f (-3602879701896397) (-55))⟩ : Itv)]))),
    .call ((Cmd.run (.op [(⟨(f (2476979795053773) (-51)), (f (3) (-1))⟩ : Itv), (⟨.ninf, (f (-3602879701896397) (-55))⟩ : Itv)]))),
    .call ((Cmd.run (.op [(⟨(f (2476979795053773) (-51)), (f (3) (-1))⟩ : Itv), (⟨(f (-1) (0)), (f (-1) (0))⟩ : Itv)]))),
    .call ((Cmd.run (.op [(⟨(f (2476979795053773) (-51)), (f (3) (-1))⟩ : Itv), (⟨(f (-5) (-1)), (f (-1) (0))⟩ : Itv)]))),
    .call ((Cmd.run (.op [(⟨(f (2476979795053773) (-51)), (f (3) (-1))⟩ : Itv), (⟨.ninf, (f (-1) (0))⟩ : Itv)]))),
    .call ((Cmd.run (.op [(⟨(f (2476979795053773) (-51)), (f (3) (-1))⟩ : Itv), (⟨(f (-5) (-1)), (f (-5) (-1))⟩ : Itv)]))),
    .call ((Cmd.run (.op [(⟨(f (2476979795053773) (-51)), (f (3) (-1))⟩ : Itv), (⟨.ninf, (f (-5) (-1))⟩ : Itv)]))),
    .call (do (Cmd.run (.op [(⟨(f (2476979795053773) (-51)), .pinf⟩ : Itv), (Itv.empty : Itv)])); (Cmd.run (.op [(Itv.empty : Itv)]))),
    .call ((Cmd.run (.op [(⟨(f (2476979795053773) (-51)), .pinf⟩ : Itv), (⟨(f 0 0), (f 0 0)⟩ : Itv)]))),
    .call ((Cmd.run (.op [(⟨(f (2476979795053773) (-51)), .pinf⟩ : Itv), (⟨.nzero, .nzero⟩ : Itv)]))),
    .call ((Cmd.run (.op [(⟨(f (2476979795053773) (-51)), .pinf⟩ : Itv), (⟨(f 0 0), (f 1 0)⟩ : Itv)]))),
    .call ((Cmd.run (.op [(⟨(f (2476979795053773) (-51)), .pinf⟩ : Itv), (⟨.nzero, (f 1 0)⟩ : Itv)]))),
    .call ((Cmd.run (.op [(⟨(f (2476979795053773) (-51)), .pinf⟩ : Itv), (⟨(f 0 0), (f (5) (-1))⟩ : Itv)]))),
    .call ((Cmd.run (.op [(⟨(f (2476979795053773) (-51)), .pinf⟩ : Itv), (⟨.nzero, (f (5) (-1))⟩ : Itv)]))),
    .call ((Cmd.run (.op [(⟨(f (2476979795053773) (-51)), .pinf⟩ : Itv), (⟨(f 0 0), .pinf⟩ : Itv)]))),
    .call ((Cmd.run (.op [(⟨(f (2476979795053773) (-51)), .pinf⟩ : Itv), (⟨.nzero, .pinf⟩ : Itv)]))),
    .call ((Cmd.run (.op [(⟨(f (2476979795053773) (-51)), .pinf⟩ : Itv), (⟨(f (3602879701896397) (-55)), (f (3602879701896397) (-55))⟩ : Itv)]))),
    .call ((Cmd.run (.op [(⟨(f (2476979795053773) (-51)), .pinf⟩ : Itv), (⟨(f (3602879701896397) (-55)), (f 1 0)⟩ : Itv)]))),
    .call ((Cmd.run (.op [(⟨(f (2476979795053773) (-51)), .pinf⟩ : Itv), (⟨(f (3602879701896397) (-55)), (f (5) (-1))⟩ : Itv)]))),
    .call ((Cmd.run (.op [(⟨(f (2476979795053773) (-51)), .pinf⟩ : Itv), (⟨(f (3602879701896397) (-55)), .pinf⟩ : Itv)]))),
    .call ((Cmd.run (.op [(⟨(f (2476979795053773) (-51)), .pinf⟩ : Itv), (⟨(f 1 0), (f 1 0)⟩ : Itv)]))),
    .call ((Cmd.run (.op [(⟨(f (2476979795053773) (-51)), .pinf⟩ : Itv), (⟨(f 1 0), (f (5) (-1))⟩ : Itv)]))),
    .call ((Cmd.run (.op [(⟨(f (2476979795053773) (-51)), .pinf⟩ : Itv), (⟨(f 1 0), .pinf⟩ : Itv)]))),
    .call ((Cmd.run (.op [(⟨(f (2476979795053773) (-51)), .pinf⟩ : Itv), (⟨(f (5) (-1)), (f (5) (-1))⟩ : Itv)]))),
    .call ((Cmd.run (.op [(⟨(f (2476979795053773) (-51)), .pinf⟩ : Itv), (⟨(f (5) (-1)), .pinf⟩ : Itv)]))),
    .call ((Cmd.run (.op [(⟨(f (2476979795053773) (-51)), .pinf⟩ : Itv), (⟨(f (-3602879701896397) (-55)), (f (3602879701896397) (-55))⟩ : Itv)]))),
    .call ((Cmd.run (.op [(⟨(f (2476979795053773) (-51)), .pinf⟩ : Itv), (⟨(f (-3602879701896397) (-55)), (f 1 0)⟩ : Itv)]))),
    .call ((Cmd.run (.op [(⟨(f (2476979795053773) (-51)), .pinf⟩ : Itv), (⟨(f (-3602879701896397) (-55)), (f (5) (-1))⟩ : Itv)]))),
    .call ((Cmd.run (.op [(⟨(f (2476979795053773) (-51)), .pinf⟩ : Itv), (⟨(f (-3602879701896397) (-55)), .pinf⟩ : Itv)]))),
    .call ((Cmd.run (.op [(⟨(f (2476979795053773) (-51)), .pinf⟩ : Itv), (⟨(f (-1) (0)), (f (3602879701896397) (-55))⟩ : Itv)]))),
    .call ((Cmd.run (.op [(⟨(f (2476979795053773) (-51)), .pinf⟩ : Itv), (⟨(f (-1) (0)), (f 1 0)⟩ : Itv)]))),
    .call ((Cmd.run (.op [(⟨(f (2476979795053773) (-51)), .pinf⟩ : Itv), (⟨(f (-1) (0)), (f (5) (-1))⟩ : Itv)]))),
    .call ((Cmd.run (.op [(⟨(f (2476979795053773) (-51)), .pinf⟩ : Itv), (⟨(f (-1) (0)), .pinf⟩ : Itv)]))),
    .call ((Cmd.run (.op [(⟨(f (2476979795053773) (-51)), .pinf⟩ : Itv), (⟨(f (-5) (-1)), (f (3602879701896397) (-55))⟩ : Itv)]))),
    .call ((Cmd.run (.op [(⟨(f (2476979795053773) (-51)), .pinf⟩ : Itv), (⟨(f (-5) (-1)), (f 1 0)⟩ : Itv)]))),
    .call ((Cmd.run (.op [(⟨(f (2476979795053773) (-51)), .pinf⟩ : Itv), (⟨(f (-5) (-1)), (f (5) (-1))⟩ : Itv)]))),
    .call ((Cmd.run (.op [(⟨(f (2476979795053773) (-51)), .pinf⟩ : Itv), (⟨(f (-5) (-1)), .pinf⟩ : Itv)]))),
    .call ((Cmd.run (.op [(⟨(f (2476979795053773) (-51)), .pinf⟩ : Itv), (⟨.ninf, (f (3602879701896397) (-55))⟩ : Itv)]))),
    .call ((Cmd.run (.op [(⟨(f (2476979795053773) (-51)), .pinf⟩ : Itv), (⟨.ninf, (f 1 0)⟩ : Itv)]))),
    .call ((Cmd.run (.op [(⟨(f (2476979795053773) (-51)), .pinf⟩ : Itv), (⟨.ninf, (f (5) (-1))⟩ : Itv)]))),
    .call ((Cmd.run (.op [(⟨(f (2476979795053773) (-51)), .pinf⟩ : Itv), (Itv.entire : Itv)]))),
    .call ((Cmd.run (.op [(⟨(f (2476979795053773) (-51)), .pinf⟩ : Itv), (⟨(f (-1) (0)), (f 0 0)⟩ : Itv)]))),
    .call ((Cmd.run (.op [(⟨(f (2476979795053773) (-51)), .pinf⟩ : Itv), (⟨(f (-1) (0)), .nzero⟩ : Itv)]))),
    .call ((Cmd.run (.op [(⟨(f (2476979795053773) (-51)), .pinf⟩ : Itv), (⟨(f (-5) (-1)), (f 0 0)⟩ : Itv)]))),
    .call ((Cmd.run (.op [(⟨(f (2476979795053773) (-51)), .pinf⟩ : Itv), (⟨(f (-5) (-1)), .nzero⟩ : Itv)]))),
    .call ((Cmd.run (.op [(⟨(f (2476979795053773) (-51)), .pinf⟩ : Itv), (⟨.ninf, (f 0 0)⟩ : Itv)]))),
    .call ((Cmd.run (.op [(⟨(f (2476979795053773) (-51)), .pinf⟩ : Itv), (⟨.ninf, .nzero⟩ : Itv)]))),
    .call ((Cmd.run (.op [(⟨(f (2476979795053773) (-51)), .pinf⟩ : Itv), (⟨(f (-3602879701896397) (-55)), (f (-3602879701896397) (-55))⟩ : Itv)]))),
    .call ((Cmd.run (.op [(⟨(f (2476979795053773) (-51)), .pinf⟩ : Itv), (⟨(f (-1) (0)), (f (-3602879701896397) (-55))⟩ : Itv)]))),
    .call ((Cmd.run (.op [(⟨(f (2476979795053773) (-51)), .pinf⟩ : Itv), (⟨(f (-5) (-1)), (f (-3602879701896397) (-55))⟩ : Itv)]))),
    .call ((Cmd.run (.op [(⟨(f (2476979795053773) (-51)), .pinf⟩ : Itv), (⟨.ninf, (f (-3602879701896397) (-55))⟩ : Itv)]))),
    .call ((Cmd.run (.op [(⟨(f (2476979795053773) (-51)), .pinf⟩ : Itv), (⟨(f (-1) (0)), (f (-1) (0))⟩ : Itv)]))),
    .call ((Cmd.run (.op [(⟨(f (2476979795053773) (-51)), .pinf⟩ : Itv), (⟨(f (-5) (-1)), (f (-1) (0))⟩ : Itv)]))),
    .call ((Cmd.run (.op [(⟨(f (2476979795053773) (-51)), .pinf⟩ : Itv), (⟨.ninf, (f (-1) (0))⟩ : Itv)]))),
    .call ((Cmd.run (.op [(⟨(f (2476979795053773) (-51)), .pinf⟩ : Itv), (⟨(f (-5) (-1)), (f (-5) (-1))⟩ : Itv)]))),
    .call ((Cmd.run (.op [(⟨(f (2476979795053773) (-51)), .pinf⟩ : Itv), (⟨.ninf, (f (-5) (-1))⟩ : Itv)]))),
    .call (do (Cmd.run (.op [(⟨(f 0 0), (f (1) (-1))⟩ : Itv), (Itv.empty : Itv)])); (Cmd.run (.op [(Itv.empty : Itv)]))),
    .call ((Cmd.run (.op [(⟨(f 0 0), (f (1) (-1))⟩ : Itv), (⟨(f 0 0), (f 0 0)⟩ : Itv)]))),
    .call ((Cmd.run (.op [(⟨(f 0 0), (f (1) (-1))⟩ : Itv), (⟨.nzero, .nzero⟩ : Itv)]))),
    .call ((Cmd.run (.op [(⟨(f 0 0), (f (1) (-1))⟩ : Itv), (⟨(f 0 0), (f 1 0)⟩ : Itv)]))),
    .call ((Cmd.run (.op [(⟨(f 0 0), (f (1) (-1))⟩ : Itv), (⟨.nzero, (f 1 0)⟩ : Itv)]))),
    .call ((Cmd.run (.op [(⟨(f 0 0), (f (1) (-1))⟩ : Itv), (⟨(f 0 0), (f (5) (-1))⟩ : Itv)]))),
    .call ((Cmd.run (.op [(⟨(f 0 0), (f (1) (-1))⟩ : Itv), (⟨.nzero, (f (5) (-1))⟩ : Itv)]))),
    .call ((Cmd.run (.op [(⟨(f 0 0), (f (1) (-1))⟩ : Itv), (⟨(f 0 0), .pinf⟩ : Itv)]))),
    .call ((Cmd.run (.op [(⟨(f 0 0), (f (1) (-1))⟩ : Itv), (⟨.nzero, .pinf⟩ : Itv)]))),
    .call ((Cmd.run (.op [(⟨(f 0 0), (f (1) (-1))⟩ : Itv), (⟨(f (3602879701896397) (-55)), (f (3602879701896397) (-55))⟩ : Itv)]))),
    .call ((Cmd.run (.op [(⟨(f 0 0), (f (1) (-1))⟩ : Itv), (⟨(f (3602879701896397) (-55)), (f 1 0)⟩ : Itv)]))),
    .call ((Cmd.run (.op [(⟨(f 0 0), (f (1) (-1))⟩ : Itv), (⟨(f (3602879701896397) (-55)), (f (5) (-1))⟩ : Itv)]))),
    .call ((Cmd.run (.op [(⟨(f 0 0), (f (1) (-1))⟩ : Itv), (⟨(f (3602879701896397) (-55)), .pinf⟩ : Itv)]))),
    .call ((Cmd.run (.op [(⟨(f 0 0), (f (1) (-1))⟩ : Itv), (⟨(f 1 0), (f 1 0)⟩ : Itv)]))),
    .call ((Cmd.run (.op [(⟨(f 0 0), (f (1) (-1))⟩ : Itv), (⟨(f 1 0), (f (5) (-1))⟩ : Itv)]))),
    .call ((Cmd.run (.op [(⟨(f 0 0), (f (1) (-1))⟩ : Itv), (⟨(f 1 0), .pinf⟩ : Itv)]))),
    .call ((Cmd.run (.op [(⟨(f 0 0), (f (1) (-1))⟩ : Itv), (⟨(f (5) (-1)), (f (5) (-1))⟩ : Itv)]))),
    .call ((Cmd.run (.op [(⟨(f 0 0), (f (1) (-1))⟩ : Itv), (⟨(f (5) (-1)), .pinf⟩ : Itv)]))),
    .call ((Cmd.run (.op [(⟨(f 0 0), (f (1) (-1))⟩ : Itv), (⟨(f (-3602879701896397) (-55)), (f (3602879701896397) (-55))⟩ : Itv)]))),
    .call ((Cmd.run (.op [(⟨(f 0 0), (f (1) (-1))⟩ : Itv), (⟨(f (-3602879701896397) (-55)), (f 1 0)⟩ : Itv)]))),
    .call ((Cmd.run (.op [(⟨(f 0 0), (f (1) (-1))⟩ : Itv), (⟨(f (-3602879701896397) (-55)), (f (5) (-1))⟩ : Itv)]))),
    .call ((Cmd.run (.op [(⟨(f 0 0), (f (1) (-1))⟩ : Itv), (⟨(f (-3602879701896397) (-55)), .pinf⟩ : Itv)]))),
    .call ((Cmd.run (.op [(⟨(f 0 0), (f (1) (-1))⟩ : Itv), (⟨(f (-1) (0)), (f (3602879701896397) (-55))⟩ : Itv)]))),
    .call ((Cmd.run (.op [(⟨(f 0 0), (f (1) (-1))⟩ : Itv), (⟨(f (-1) (0)), (f 1 0)⟩ : Itv)]))),
    .call ((Cmd.run (.op [(⟨(f 0 0), (f (1) (-1))⟩ : Itv), (⟨(f (-1) (0)), (f (5) (-1))⟩ : Itv)]))),
    .call ((Cmd.run (.op [(⟨(f 0 0), (f (1) (-1))⟩ : Itv), (⟨(f (-1) (0)), .pinf⟩ : Itv)]))),
    .call ((Cmd.run (.op [(⟨(f 0 0), (f (1) (-1))⟩ : Itv), (⟨(f (-5) (-1)), (f (3602879701896397) (-55))⟩ : Itv)]))),
    .call ((Cmd.run (.op [(⟨(f 0 0), (f (1) (-1))⟩ : Itv), (⟨(f (-5) (-1)), (f 1 0)⟩ : Itv)]))),
    .call ((Cmd.run (.op [(⟨(f 0 0), (f (1) (-1))⟩ : Itv), (⟨(f (-5) (-1)), (f (5) (-1))⟩ : Itv)]))),
    .call ((Cmd.run (.op [(⟨(f 0 0), (f (1) (-1))⟩ : Itv), (⟨(f (-5) (-1)), .pinf⟩ : Itv)]))),
    .call ((Cmd.run (.op [(⟨(f 0 0), (f (1) (-1))⟩ : Itv), (⟨.ninf, (f (3602879701896397) (-55))⟩ : Itv)]))),
    .call ((Cmd.run (.op [(⟨(f 0 0), (f (1) (-1))⟩ : Itv), (⟨.ninf, (f 1 0)⟩ : Itv)]))),
    .call ((Cmd.run (.op [(⟨(f 0 0), (f (1) (-1))⟩ : Itv), (⟨.ninf, (f (5) (-1))⟩ : Itv)]))),
    .call ((Cmd.run (.op [(⟨(f 0 0), (f (1) (-1))⟩ : Itv), (Itv.entire : Itv)]))),
    .call ((Cmd.run (.op [(⟨(f 0 0), (f (1) (-1))⟩ : Itv), (⟨(f (-1) (0)), (f 0 0)⟩ : Itv)]))),
    .call ((Cmd.run (.op [(⟨(f 0 0), (f (1) (-1))⟩ : Itv), (⟨(f (-1) (0)), .nzero⟩ : Itv)]))),
    .call ((Cmd.run (.op [(⟨(f 0 0), (f (1) (-1))⟩ : Itv), (⟨(f (-5) (-1)), (f 0 0)⟩ : Itv)]))),
    .call ((Cmd.run (.op [(⟨(f 0 0), (f (1) (-1))⟩ : Itv), (⟨(f (-5) (-1)), .nzero⟩ : Itv)]))),
    .call ((Cmd.run (.op [(⟨(f 0 0), (f (1) (-1))⟩ : Itv), (⟨.ninf, (f 0 0)⟩ : Itv)]))),
    .call ((Cmd.run (.op [(⟨(f 0 0), (f (1) (-1))⟩ : Itv), (⟨.ninf, .nzero⟩ : Itv)]))),
    .call ((Cmd.run (.op [(⟨(f 0 0), (f (1) (-1))⟩ : Itv), (⟨(f (-3602879701896397) (-55)), (f (-3602879701896397) (-55))⟩ : Itv)]))),
    .call ((Cmd.run (.op [(⟨(f 0 0), (f (1) (-1))⟩ : Itv), (⟨(f (-1) (0)), (f (-3602879701896397) (-55))⟩ : Itv)]))),
    .call ((Cmd.run (.op [(⟨(f 0 0), (f (1) (-1))⟩ : Itv), (⟨(f (-5) (-1)), (f (-3602879701896397) (-55))⟩ : Itv)]))),
    .call ((Cmd.run (.op [(⟨(f 0 0), (f (1) (-1))⟩ : Itv), (⟨.ninf, (f (-3602879701896397) (-55))⟩ : Itv)]))),
    .call ((Cmd.run (.op [(⟨(f 0 0), (f (1) (-1))⟩ : Itv), (⟨(f (-1) (0)), (f (-1) (0))⟩ : Itv)]))),
    .call ((Cmd.run (.op [(⟨(f 0 0), (f (1) (-1))⟩ : Itv), (⟨(f (-5) (-1)), (f (-1) (0))⟩ : Itv)]))),
    .call ((Cmd.run (.op [(⟨(f 0 0), (f (1) (-1))⟩ : Itv), (⟨.ninf, (f (-1) (0))⟩ : Itv)]))),
    .call ((Cmd.run (.op [(⟨(f 0 0), (f (1) (-1))⟩ : Itv), (⟨(f (-5) (-1)), (f (-5) (-1))⟩ : Itv)]))),
    .call ((Cmd.run (.op [(⟨(f 0 0), (f (1) (-1))⟩ : Itv), (⟨.ninf, (f (-5) (-1))⟩ : Itv)]))),
    .call (do (Cmd.run (.op [(⟨(f 0 0), (f 1 0)⟩ : Itv), (Itv.empty : Itv)])); (Cmd.run (.op [(Itv.empty : Itv)]))),
    .call ((Cmd.run (.op [(⟨(f 0 0), (f 1 0)⟩ : Itv), (⟨(f 0 0), (f 0 0)⟩ : Itv)]))),
    .call ((Cmd.run (.op [(⟨(f 0 0), (f 1 0)⟩ : Itv), (⟨.nzero, .nzero⟩ : Itv)]))),
    .call ((Cmd.run (.op [(⟨(f 0 0), (f 1 0)⟩ : Itv), (⟨(f 0 0), (f 1 0)⟩ : Itv)]))),
    .call ((Cmd.run (.op [(⟨(f 0 0), (f 1 0)⟩ : Itv), (⟨.nzero, (f 1 0)⟩ : Itv)]))),
    .call ((Cmd.run (.op [(⟨(f 0 0), (f 1 0)⟩ : Itv), (⟨(f 0 0), (f (5) (-1))⟩ : Itv)]))),
    .call ((Cmd.run (.op [(⟨(f 0 0), (f 1 0)⟩ : Itv), (⟨.nzero, (f (5) (-1))⟩ : Itv)]))),
    .call ((Cmd.run (.op [(⟨(f 0 0), (f 1 0)⟩ : Itv), (⟨(f 0 0), .pinf⟩ : Itv)]))),
    .call ((Cmd.run (.op [(⟨(f 0 0), (f 1 0)⟩ : Itv), (⟨.nzero, .pinf⟩ : Itv)]))),
    .call ((Cmd.run (.op [(⟨(f 0 0), (f 1 0)⟩ : Itv), (⟨(f (3602879701896397) (-55)), (f (3602879701896397) (-55))⟩ : Itv)]))),
    .call ((Cmd.run (.op [(⟨(f 0 0), (f 1 0)⟩ : Itv), (⟨(f (3602879701896397) (-55)), (f 1 0)⟩ : Itv)]))),
    .call ((Cmd.run (.op [(⟨(f 0 0), (f 1 0)⟩ : Itv), (⟨(f (3602879701896397) (-55)), (f (5) (-1))⟩ : Itv)]))),
    .call ((Cmd.run (.op [(⟨(f 0 0), (f 1 0)⟩ : Itv), (⟨(f (3602879701896397) (-55)), .pinf⟩ : Itv)]))),
    .call ((Cmd.run (.op [(⟨(f 0 0), (f 1 0)⟩ : Itv), (⟨(f 1 0), (f 1 0)⟩ : Itv)]))),
    .call ((Cmd.run (.op [(⟨(f 0 0), (f 1 0)⟩ : Itv), (⟨(f 1 0), (f (5) (-1))⟩ : Itv)]))),
    .call ((Cmd.run (.op [(⟨(f 0 0), (f 1 0)⟩ : Itv), (⟨(f 1 0), .pinf⟩ : Itv)]))),
    .call ((Cmd.run (.op [(⟨(f 0 0), (f 1 0)⟩ : Itv), (⟨(f (5) (-1)), (f (5) (-1))⟩ : Itv)]))),
    .call ((Cmd.run (.op [(⟨(f 0 0), (f 1 0)⟩ : Itv), (⟨(f (5) (-1)), .pinf⟩ : Itv)]))),
    .call ((Cmd.run (.op [(⟨(f 0 0), (f 1 0)⟩ : Itv), (⟨(f (-3602879701896397) (-55)), (f (3602879701896397) (-55))⟩ : Itv)]))),
    .call ((Cmd.run (.op [(⟨(f 0 0), (f 1 0)⟩ : Itv), (⟨(f (-3602879701896397) (-55)), (f 1 0)⟩ : Itv)]))),
    .call ((Cmd.run (.op [(⟨(f 0 0), (f 1 0)⟩ : Itv), (⟨(f (-3602879701896397) (-55)), (f (5) (-1))⟩ : Itv)]))),
    .call ((Cmd.run (.op [(⟨(f 0 0), (f 1 0)⟩ : Itv), (⟨(f (-3602879701896397) (-55)), .pinf⟩ : Itv)]))),
    .call ((Cmd.run (.op [(⟨(f 0 0), (f 1 0)⟩ : Itv), (⟨(f (-1) (0)), (f (3602879701896397) (-55))⟩ : Itv)]))),
    .call ((Cmd.run (.op [(⟨(f 0 0), (f 1 0)⟩ : Itv), (⟨(f (-1) (0)), (f 1 0)⟩ : Itv)]))),
    .call ((Cmd.run (.op [(⟨(f 0 0), (f 1 0)⟩ : Itv), (⟨(f (-1) (0)), (f (5) (-1))⟩ : Itv)]))),
    .call ((Cmd.run (.op [(⟨(f 0 0), (f 1 0)⟩ : Itv), (⟨(f (-1) (0)), .pinf⟩ : Itv)]))),
    .call ((Cmd.run (.op [(⟨(f 0 0), (f 1 0)⟩ : Itv), (⟨(f (-5) (-1)), (f (3602879701896397) (-55))⟩ : Itv)]))),
    .call ((Cmd.run (.op [(⟨(f 0 0), (f 1 0)⟩ : Itv), (⟨(f (-5) (-1)), (f 1 0)⟩ : Itv)]))),
    .call ((Cmd.run (.op [(⟨(f 0 0), (f 1 0)⟩ : Itv), (⟨(f (-5) (-1)), (f (5) (-1))⟩ : Itv)]))),
    .call ((Cmd.run (.op [(⟨(f 0 0), (f 1 0)⟩ : Itv), (⟨(f (-5) (-1)), .pinf⟩ : Itv)]))),
    .call ((Cmd.run (.op [(⟨(f 0 0), (f 1 0)⟩ : Itv), (⟨.ninf, (f (3602879701896397) (-55))⟩ : Itv)]))),
    .call ((Cmd.run (.op [(⟨(f 0 0), (f 1 0)⟩ : Itv), (⟨.ninf, (f 1 0)⟩ : Itv)]))),
    .call ((Cmd.run (.op [(⟨(f 0 0), (f 1 0)⟩ : Itv), (⟨.ninf, (f (5) (-1))⟩ : Itv)]))),
    .call ((Cmd.run (.op [(⟨(f 0 0), (f 1 0)⟩ : Itv), (Itv.entire : Itv)]))),
    .call ((Cmd.run (.op [(⟨(f 0 0), (f 1 0)⟩ : Itv), (⟨(f (-3602879701896397) (-55)), (f 0 0)⟩ : Itv)]))),
    .call ((Cmd.run (.op [(⟨(f 0 0), (f 1 0)⟩ : Itv), (⟨(f (-3602879701896397) (-55)), .nzero⟩ : Itv)]))),
    .call ((Cmd.run (.op [(⟨(f 0 0), (f 1 0)⟩ : Itv), (⟨(f (-1) (0)), (f 0 0)⟩ : Itv)]))),
    .call ((Cmd.run (.op [(⟨(f 0 0), (f 1 0)⟩ : Itv), (⟨(f (-1) (0)), .nzero⟩ : Itv)]))),
    .call ((Cmd.run (.op [(⟨(f 0 0), (f 1 0)⟩ : Itv), (⟨(f (-5) (-1)), (f 0 0)⟩ : Itv)]))),
    .call ((Cmd.run (.op [(⟨(f 0 0), (f 1 0)⟩ : Itv), (⟨(f (-5) (-1)), .nzero⟩ : Itv)]))),
    .call ((Cmd.run (.op [(⟨(f 0 0), (f 1 0)⟩ : Itv), (⟨.ninf, (f 0 0)⟩ : Itv)]))),
    .call ((Cmd.run (.op [(⟨(f 0 0), (f 1 0)⟩ : Itv), (⟨.ninf, .nzero⟩ : Itv)]))),
    .call ((Cmd.run (.op [(⟨(f 0 0), (f 1 0)⟩ : Itv), (⟨(f (-3602879701896397) (-55)), (f (-3602879701896397) (-55))⟩ : Itv)]))),
    .call ((Cmd.run (.op [(⟨(f 0 0), (f 1 0)⟩ : Itv), (⟨(f (-1) (0)), (f (-3602879701896397) (-55))⟩ : Itv)]))),
    .call ((Cmd.run (.op [(⟨(f 0 0), (f 1 0)⟩ : Itv), (⟨(f (-5) (-1)), (f (-3602879701896397) (-55))⟩ : Itv)]))),
    .call ((Cmd.run (.op [(⟨(f 0 0), (f 1 0)⟩ : Itv), (⟨.ninf, (f (-3602879701896397) (-55))⟩ : Itv)]))),
    .call ((Cmd.run (.op [(⟨(f 0 0), (f 1 0)⟩ : Itv), (⟨(f (-1) (0)), (f (-1) (0))⟩ : Itv)]))),
    .call ((Cmd.run (.op [(⟨(f 0 0), (f 1 0)⟩ : Itv), (⟨(f (-5) (-1)), (f (-1) (0))⟩ : Itv)]))),
    .call ((Cmd.run (.op [(⟨(f 0 0), (f 1 0)⟩ : Itv), (⟨.ninf, (f (-1) (0))⟩ : Itv)]))),
    .call ((Cmd.run (.op [(⟨(f 0 0), (f 1 0)⟩ : Itv), (⟨(f (-5) (-1)), (f (-5) (-1))⟩ : Itv)]))),
    .call ((Cmd.run (.op [(⟨(f 0 0), (f 1 0)⟩ : Itv), (⟨.ninf, (f (-5) (-1))⟩ : Itv)]))),
    .call (do (Cmd.run (.op [(⟨(f 0 0), (f (3) (-1))⟩ : Itv), (Itv.empty : Itv)])); (Cmd.run (.op [(Itv.empty : Itv)]))),
    .call ((Cmd.run (.op [(⟨(f 0 0), (f (3) (-1))⟩ : Itv), (⟨(f 0 0), (f 0 0)⟩ : Itv)]))),
    .call ((Cmd.run (.op [(⟨(f 0 0), (f (3) (-1))⟩ : Itv), (⟨.nzero, .nzero⟩ : Itv)]))),
    .call ((Cmd.run (.op [(⟨(f 0 0), (f (3) (-1))⟩ : Itv), (⟨(f 0 0), (f 1 0)⟩ : Itv)]))),
    .call ((Cmd.run (.op [(⟨(f 0 0), (f (3) (-1))⟩ : Itv), (⟨.nzero, (f 1 0)⟩ : Itv)]))),
    .call ((Cmd.run (.op [(⟨(f 0 0), (f (3) (-1))⟩ : Itv), (⟨(f 0 0), (f (5) (-1))⟩ : Itv)]))),
    .call ((Cmd.run (.op [(⟨(f 0 0), (f (3) (-1))⟩ : Itv), (⟨.nzero, (f (5) (-1))⟩ : Itv)]))),
    .call ((Cmd.run (.op [(⟨(f 0 0), (f (3) (-1))⟩ : Itv), (⟨(f 0 0), .pinf⟩ : Itv)]))),
    .call ((Cmd.run (.op [(⟨(f 0 0), (f (3) (-1))⟩ : Itv), (⟨.nzero, .pinf⟩ : Itv)]))),
    .call ((Cmd.run (.op [(⟨(f 0 0), (f (3) (-1))⟩ : Itv), (⟨(f (3602879701896397) (-55)), (f (3602879701896397) (-55))⟩ : Itv)]))),
    .call ((Cmd.run (.op [(⟨(f 0 0), (f (3) (-1))⟩ : Itv), (⟨(f (3602879701896397) (-55)), (f 1 0)⟩ : Itv)]))),
    .call ((Cmd.run (.op [(⟨(f 0 0), (f (3) (-1))⟩ : Itv), (⟨(f (3602879701896397) (-55)), (f (5) (-1))⟩ : Itv)]))),
    .call ((Cmd.run (.op [(⟨(f 0 0), (f (3) (-1))⟩ : Itv), (⟨(f (3602879701896397) (-55)), .pinf⟩ : Itv)]))),
    .call ((Cmd.run (.op [(⟨(f 0 0), (f (3) (-1))⟩ : Itv), (⟨(f 1 0), (f 1 0)⟩ : Itv)]))),
    .call ((Cmd.run (.op [(⟨(f 0 0), (f (3) (-1))⟩ : Itv), (⟨(f 1 0), (f (5) (-1))⟩ : Itv)]))),
    .call ((Cmd.run (.op [(⟨(f 0 0), (f (3) (-1))⟩ : Itv), (⟨(f 1 0), .pinf⟩ : Itv)]))),
    .call ((Cmd.run (.op [(⟨(f 0 0), (f (3) (-1))⟩ : Itv), (⟨(f (5) (-1)), (f (5) (-1))⟩ : Itv)]))),
    .call ((Cmd.run (.op [(⟨(f 0 0), (f (3) (-1))⟩ : Itv), (⟨(f (5) (-1)), .pinf⟩ : Itv)]))),
    .call ((Cmd.run (.op [(⟨(f 0 0), (f (3) (-1))⟩ : Itv), (⟨(f (-3602879701896397) (-55)), (f (3602879701896397) (-55))⟩ : Itv)]))),
    .call ((Cmd.run (.op [(⟨(f 0 0), (f (3) (-1))⟩ : Itv), (⟨(f (-3602879701896397) (-55)), (f 1 0)⟩ : Itv)]))),
    .call ((Cmd.run (.op [(⟨(f 0 0), (f (3) (-1))⟩ : Itv), (⟨(f (-3602879701896397) (-55)), (f (5) (-1))⟩ : Itv)]))),
    .call ((Cmd.run (.op [(⟨(f 0 0), (f (3) (-1))⟩ : Itv), (⟨(f (-3602879701896397) (-55)), .pinf⟩ : Itv)]))),
    .call ((Cmd.run (.op [(⟨(f 0 0), (f (3) (-1))⟩ : Itv), (⟨(f (-1) (0)), (f (3602879701896397) (-55))⟩ : Itv)]))),
    .call ((Cmd.run (.op [(⟨(f 0 0), (f (3) (-1))⟩ : Itv), (⟨(f (-1) (0)), (f 1 0)⟩ : Itv)]))),
    .call ((Cmd.run (.op [(⟨(f 0 0), (f (3) (-1))⟩ : Itv), (⟨(f (-1) (0)), (f (5) (-1))⟩ : Itv)]))),
    .call ((Cmd.run (.op [(⟨(f 0 0), (f (3) (-1))⟩ : Itv), (⟨(f (-1) (0)), .pinf⟩ : Itv)]))),
    .call ((Cmd.run (.op [(⟨(f 0 0), (f (3) (-1))⟩ : Itv), (⟨(f (-5) (-1)), (f (3602879701896397) (-55))⟩ : Itv)]))),
    .call ((Cmd.run (.op [(⟨(f 0 0), (f (3) (-1))⟩ : Itv), (⟨(f (-5) (-1)), (f 1 0)⟩ : Itv)]))),
    .call ((Cmd.run (.op [(⟨(f 0 0), (f (3) (-1))⟩ : Itv), (⟨(f (-5) (-1)), (f (5) (-1))⟩ : Itv)]))),
    .call ((Cmd.run (.op [(⟨(f 0 0), (f (3) (-1))⟩ : Itv), (⟨(f (-5) (-1)), .pinf⟩ : Itv)]))),
    .call ((Cmd.run (.op [(⟨(f 0 0), (f (3) (-1))⟩ : Itv), (⟨.ninf, (f (3602879701896397) (-55))⟩ : Itv)]))),
    .call ((Cmd.run (.op [(⟨(f 0 0), (f (3) (-1))⟩ : Itv), (⟨.ninf, (f 1 0)⟩ : Itv)]))),
    .call ((Cmd.run (.op [(⟨(f 0 0), (f (3) (-1))⟩ : Itv), (⟨.ninf, (f (5) (-1))⟩ : Itv)]))),
    .call ((Cmd.run (.op [(⟨(f 0 0), (f (3) (-1))⟩ : Itv), (Itv.entire : Itv)]))),
    .call ((Cmd.run (.op [(⟨(f 0 0), (f (3) (-1))⟩ : Itv), (⟨(f (-1) (0)), (f 0 0)⟩ : Itv)]))),
    .call ((Cmd.run (.op [(⟨(f 0 0), (f (3) (-1))⟩ : Itv), (⟨(f (-1) (0)), .nzero⟩ : Itv)]))),
    .call ((Cmd.run (.op [(⟨(f 0 0), (f (3) (-1))⟩ : Itv), (⟨(f (-5) (-1)), (f 0 0)⟩ : Itv)]))),
    .call ((Cmd.run (.op [(⟨(f 0 0), (f (3) (-1))⟩ : Itv), (⟨(f (-5) (-1)), .nzero⟩ : Itv)]))),
    .call ((Cmd.run (.op [(⟨(f 0 0), (f (3) (-1))⟩ : Itv), (⟨.ninf, (f 0 0)⟩ : Itv)]))),
    .call ((Cmd.run (.op [(⟨(f 0 0), (f (3) (-1))⟩ : Itv), (⟨.ninf, .nzero⟩ : Itv)]))),
    .call ((Cmd.run (.op [(⟨(f 0 0), (f (3) (-1))⟩ : Itv), (⟨(f (-3602879701896397) (-55)), (f (-3602879701896397) (-55))⟩ : Itv)]))),
    .call ((Cmd.run (.op [(⟨(f 0 0), (f (3) (-1))⟩ : Itv), (⟨(f (-1) (0)), (f (-3602879701896397) (-55))⟩ : Itv)]))),
    .call ((Cmd.run (.op [(⟨(f 0 0), (f (3) (-1))⟩ : Itv), (⟨(f (-5) (-1)), (f (-3602879701896397) (-55))⟩ : Itv)]))),
    .call ((Cmd.run (.op [(⟨(f 0 0), (f (3) (-1))⟩ : Itv), (⟨.ninf, (f (-3602879701896397) (-55))⟩ : Itv)]))),
    .call ((Cmd.run (.op [(⟨(f 0 0), (f (3) (-1))⟩ : Itv), (⟨(f (-1) (0)), (f (-1) (0))⟩ : Itv)]))),
    .call ((Cmd.run (.op [(⟨(f 0 0), (f (3) (-1))⟩ : Itv), (⟨(f (-5) (-1)), (f (-1) (0))⟩ : Itv)]))),
    .call ((Cmd.run (.op [(⟨(f 0 0), (f (3) (-1))⟩ : Itv), (⟨.ninf, (f (-1) (0))⟩ : Itv)]))),
    .call ((Cmd.run (.op [(⟨(f 0 0), (f (3) (-1))⟩ : Itv), (⟨(f (-5) (-1)), (f (-5) (-1))⟩ : Itv)]))),
    .call ((Cmd.run (.op [(⟨(f 0 0), (f (3) (-1))⟩ : Itv), (⟨.ninf, (f (-5) (-1))⟩ : Itv)]))),
    .call (do (Cmd.run (.op [(⟨(f 0 0), .pinf⟩ : Itv), (Itv.empty : Itv)])); (Cmd.run (.op [(Itv.empty : Itv)]))),
    .call ((Cmd.run (.op [(⟨(f 0 0), .pinf⟩ : Itv), (⟨(f 0 0), (f 0 0)⟩ : Itv)]))),
    .call ((Cmd.run (.op [(⟨(f 0 0), .pinf⟩ : Itv), (⟨.nzero, .nzero⟩ : Itv)]))),
    .call ((Cmd.run (.op [(⟨(f 0 0), .pinf⟩ : Itv), (⟨(f 0 0), (f 1 0)⟩ : Itv)]))),
    .call ((Cmd.run (.op [(⟨(f 0 0), .pinf⟩ : Itv), (⟨.nzero, (f 1 0)⟩ : Itv)]))),
    .call ((Cmd.run (.op [(⟨(f 0 0), .pinf⟩ : Itv), (⟨(f 0 0), (f (5) (-1))⟩ : Itv)]))),
    .call ((Cmd.run (.op [(⟨(f 0 0), .pinf⟩ : Itv), (⟨.nzero, (f (5) (-1))⟩ : Itv)]))),
    .call ((Cmd.run (.op [(⟨(f 0 0), .pinf⟩ : Itv), (⟨(f 0 0), .pinf⟩ : Itv)]))),
    .call ((Cmd.run (.op [(⟨(f 0 0), .pinf⟩ : Itv), (⟨.nzero, .pinf⟩ : Itv)]))),
    .call ((Cmd.run (.op [(⟨(f 0 0), .pinf⟩ : Itv), (⟨(f (3602879701896397) (-55)), (f (3602879701896397) (-55))⟩ : Itv)]))),
    .call ((Cmd.run (.op [(⟨(f 0 0), .pinf⟩ : Itv), (⟨(f (3602879701896397) (-55)), (f 1 0)⟩ : Itv)]))),
    .call ((Cmd.run (.op [(⟨(f 0 0), .pinf⟩ : Itv), (⟨(f (3602879701896397) (-55)), (f (5) (-1))⟩ : Itv)]))),
    .call ((Cmd.run (.op [(⟨(f 0 0), .pinf⟩ : Itv), (⟨(f (3602879701896397) (-55)), .pinf⟩ : Itv)]))),
    .call ((Cmd.run (.op [(⟨(f 0 0), .pinf⟩ : Itv), (⟨(f 1 0), (f 1 0)⟩ : Itv)]))),
    .call ((Cmd.run (.op [(⟨(f 0 0), .pinf⟩ : Itv), (⟨(f 1 0), (f (5) (-1))⟩ : Itv)]))),
    .call ((Cmd.run (.op [(⟨(f 0 0), .pinf⟩ : Itv), (⟨(f 1 0), .pinf⟩ : Itv)]))),
    .call ((Cmd.run (.op [(⟨(f 0 0), .pinf⟩ : Itv), (⟨(f (5) (-1)), (f (5) (-1))⟩ : Itv)]))),
    .call ((Cmd.run (.op [(⟨(f 0 0), .pinf⟩ : Itv), (⟨(f (5) (-1)), .pinf⟩ : Itv)]))),
    .call ((Cmd.run (.op [(⟨(f 0 0), .pinf⟩ : Itv), (⟨(f (-3602879701896397) (-55)), (f (3602879701896397) (-55))⟩ : Itv)]))),
    .call ((Cmd.run (.op [(⟨(f 0 0), .pinf⟩ : Itv), (⟨(f (-3602879701896397) (-55)), (f 1 0)⟩ : Itv)]))),
    .call ((Cmd.run (.op [(⟨(f 0 0), .pinf⟩ : Itv), (⟨(f (-3602879701896397) (-55)), (f (5) (-1))⟩ : Itv)]))),
    .call ((Cmd.run (.op [(⟨(f 0 0), .pinf⟩ : Itv), (⟨(f (-3602879701896397) (-55)), .pinf⟩ : Itv)]))),
    .call ((Cmd.run (.op [(⟨(f 0 0), .pinf⟩ : Itv), (⟨(f (-1) (0)), (f (3602879701896397) (-55))⟩ : Itv)]))),
    .call ((Cmd.run (.op [(⟨(f 0 0), .pinf⟩ : Itv), (⟨(f (-1) (0)), (f 1 0)⟩ : Itv)]))),
    .call ((Cmd.run (.op [(⟨(f 0 0), .pinf⟩ : Itv), (⟨(f (-1) (0)), (f (5) (-1))⟩ : Itv)]))),
    .call ((Cmd.run (.op [(⟨(f 0 0), .pinf⟩ : Itv), (⟨(f (-1) (0)), .pinf⟩ : Itv)]))),
    .call ((Cmd.run (.op [(⟨(f 0 0), .pinf⟩ : Itv), (⟨(f (-5) (-1)), (f (3602879701896397) (-55))⟩ : Itv)]))),
    .call ((Cmd.run (.op [(⟨(f 0 0), .pinf⟩ : Itv), (⟨(f (-5) (-1)), (f 1 0)⟩ : Itv)]))),
    .call ((Cmd.run (.op [(⟨(f 0 0), .pinf⟩ : Itv), (⟨(f (-5) (-1)), (f (5) (-1))⟩ : Itv)]))),
    .call ((Cmd.run (.op [(⟨(f 0 0), .pinf⟩ : Itv), (⟨(f (-5) (-1)), .pinf⟩ : Itv)]))),
    .call ((Cmd.run (.op [(⟨(f 0 0), .pinf⟩ : Itv), (⟨.ninf, (f (3602879701896397) (-55))⟩ : Itv)]))),
    .call ((Cmd.run (.op [(⟨(f 0 0), .pinf⟩ : Itv), (⟨.ninf, (f 1 0)⟩ : Itv)]))),
    .call ((Cmd.run (.op [(⟨(f 0 0), .pinf⟩ : Itv), (⟨.ninf, (f (5) (-1))⟩ : Itv)]))),
    .call ((Cmd.run (.op [(⟨(f 0 0), .pinf⟩ : Itv), (Itv.entire : Itv)]))),
    .call ((Cmd.run (.op [(⟨(f 0 0), .pinf⟩ : Itv), (⟨(f (-1) (0)), (f 0 0)⟩ : Itv)]))),
    .call ((Cmd.run (.op [(⟨(f 0 0), .pinf⟩ : Itv), (⟨(f (-1) (0)), .nzero⟩ : Itv)]))),
    .call ((Cmd.run (.op [(⟨(f 0 0), .pinf⟩ : Itv), (⟨(f (-5) (-1)), (f 0 0)⟩ : Itv)]))),
    .call ((Cmd.run (.op [(⟨(f 0 0), .pinf⟩ : Itv), (⟨(f (-5) (-1)), .nzero⟩ : Itv)]))),
    .call ((Cmd.run (.op [(⟨(f 0 0), .pinf⟩ : Itv), (⟨.ninf, (f 0 0)⟩ : Itv)]))),
    .call ((Cmd.run (.op [(⟨(f 0 0), .pinf⟩ : Itv), (⟨.ninf, .nzero⟩ : Itv)]))),
    .call ((Cmd.run (.op [(⟨(f 0 0), .pinf⟩ : Itv), (⟨(f (-3602879701896397) (-55)), (f (-3602879701896397) (-55))⟩ : Itv)]))),
    .call ((Cmd.run (.op [(⟨(f 0 0), .pinf⟩ : Itv), (⟨(f (-1) (0)), (f (-3602879701896397) (-55))⟩ : Itv)]))),
    .call ((Cmd.run (.op [(⟨(f 0 0), .pinf⟩ : Itv), (⟨(f (-5) (-1)), (f (-3602879701896397) (-55))⟩ : Itv)]))),
    .call ((Cmd.run (.op [(⟨(f 0 0), .pinf⟩ : Itv), (⟨.ninf, (f (-3602879701896397) (-55))⟩ : Itv)]))),
    .call ((Cmd.run (.op [(⟨(f 0 0), .pinf⟩ : Itv), (⟨(f (-1) (0)), (f (-1) (0))⟩ : Itv)]))),
    .call ((Cmd.run (.op [(⟨(f 0 0), .pinf⟩ : Itv), (⟨(f (-5) (-1)), (f (-1) (0))⟩ : Itv)]))),
    .call ((Cmd.run (.op [(⟨(f 0 0), .pinf⟩ : Itv), (⟨.ninf, (f (-1) (0))⟩ : Itv)]))),
    .call ((Cmd.run (.op [(⟨(f 0 0), .pinf⟩ : Itv), (⟨.ninf, (f (-5) (-1))⟩ : Itv)]))),
    .call ((Cmd.run (.op [(⟨(f 0 0), .pinf⟩ : Itv), (⟨(f (-5) (-1)), (f (-5) (-1))⟩ : Itv)]))),
    .call (do (Cmd.run (.op [(⟨.nzero, (f (1) (-1))⟩ : Itv), (Itv.empty : Itv)])); (Cmd.run (.op [(Itv.empty : Itv)]))),
    .call ((Cmd.run (.op [(⟨.nzero, (f (1) (-1))⟩ : Itv), (⟨(f 0 0), (f 0 0)⟩ : Itv)]))),
    .call ((Cmd.run (.op [(⟨.nzero, (f (1) (-1))⟩ : Itv), (⟨.nzero, .nzero⟩ : Itv)]))),
    .call ((Cmd.run (.op [(⟨.nzero, (f (1) (-1))⟩ : Itv), (⟨(f 0 0), (f 1 0)⟩ : Itv)]))),
    .call ((Cmd.run (.op [(⟨.nzero, (f (1) (-1))⟩ : Itv), (⟨.nzero, (f 1 0)⟩ : Itv)]))),
    .call ((Cmd.run (.op [(⟨.nzero, (f (1) (-1))⟩ : Itv), (⟨(f 0 0), (f (5) (-1))⟩ : Itv)]))),
    .call ((Cmd.run (.op [(⟨.nzero, (f (1) (-1))⟩ : Itv), (⟨.nzero, (f (5) (-1))⟩ : Itv)]))),
    .call ((Cmd.run (.op [(⟨.nzero, (f (1) (-1))⟩ : Itv), (⟨(f 0 0), .pinf⟩ : Itv)]))),
    .call ((Cmd.run (.op [(⟨.nzero, (f (1) (-1))⟩ : Itv), (⟨.nzero, .pinf⟩ : Itv)]))),
    .call ((Cmd.run (.op [(⟨.nzero, (f (1) (-1))⟩ : Itv), (⟨(f (3602879701896397) (-55)), (f (3602879701896397) (-55))⟩ : Itv)]))),
    .call ((Cmd.run (.op [(⟨.nzero, (f (1) (-1))⟩ : Itv), (⟨(f (3602879701896397) (-55)), (f 1 0)⟩ : Itv)]))),
    .call ((Cmd.run (.op [(⟨.nzero, (f (1) (-1))⟩ : Itv), (⟨(f (3602879701896397) (-55)), (f (5) (-1))⟩ : Itv)]))),
    .call ((Cmd.run (.op [(⟨.nzero, (f (1) (-1))⟩ : Itv), (⟨(f (3602879701896397) (-55)), .pinf⟩ : Itv)]))),
    .call ((Cmd.run (.op [(⟨.nzero, (f (1) (-1))⟩ : Itv), (⟨(f 1 0), (f 1 0)⟩ : Itv)]))),
    .call ((Cmd.run (.op [(⟨.nzero, (f (1) (-1))⟩ : Itv), (⟨(f 1 0), (f (5) (-1))⟩ : Itv)]))),
    .call ((Cmd.run (.op [(⟨.nzero, (f (1) (-1))⟩ : Itv), (⟨(f 1 0), .pinf⟩ : Itv)]))),
    .call ((Cmd.run (.op [(⟨.nzero, (f (1) (-1))⟩ : Itv), (⟨(f (5) (-1)), (f (5) (-1))⟩ : Itv)]))),
    .call ((Cmd.run (.op [(⟨.nzero, (f (1) (-1))⟩ : Itv), (⟨(f (5) (-1)), .pinf⟩ : Itv)]))),
    .call ((Cmd.run (.op [(⟨.nzero, (f (1) (-1))⟩ : Itv), (⟨(f (-3602879701896397) (-55)), (f (3602879701896397) (-55))⟩ : Itv)]))),
    .call ((Cmd.run (.op [(⟨.nzero, (f (1) (-1))⟩ : Itv), (⟨(f (-3602879701896397) (-55)), (f 1 0)⟩ : Itv)]))),
    .call ((Cmd.run (.op [(⟨.nzero, (f (1) (-1))⟩ : Itv), (⟨(f (-3602879701896397) (-55)), (f (5) (-1))⟩ : Itv)]))),
    .call ((Cmd.run (.op [(⟨.nzero, (f (1) (-1))⟩ : Itv), (⟨(f (-3602879701896397) (-55)), .pinf⟩ : Itv)]))),
    .call ((Cmd.run (.op [(⟨.nzero, (f (1) (-1))⟩ : Itv), (⟨(f (-1) (0)), (f (3602879701896397) (-55))⟩ : Itv)]))),
    .call ((Cmd.run (.op [(⟨.nzero, (f (1) (-1))⟩ : Itv), (⟨(f (-1) (0)), (f 1 0)⟩ : Itv)]))),
    .call ((Cmd.run (.op [(⟨.nzero, (f (1) (-1))⟩ : Itv), (⟨(f (-1) (0)), (f (5) (-1))⟩ : Itv)]))),
    .call ((Cmd.run (.op [(⟨.nzero, (f (1) (-1))⟩ : Itv), (⟨(f (-1) (0)), .pinf⟩ : Itv)]))),
    .call ((Cmd.run (.op [(⟨.nzero, (f (1) (-1))⟩ : Itv), (⟨(f (-5) (-1)), (f (3602879701896397) (-55))⟩ : Itv)]))),
    .call ((Cmd.run (.op [(⟨.nzero, (f (1) (-1))⟩ : Itv), (⟨(f (-5) (-1)), (f 1 0)⟩ : Itv)]))),
    .call ((Cmd.run (.op [(⟨.nzero, (f (1) (-1))⟩ : Itv), (⟨(f (-5) (-1)), (f (5) (-1))⟩ : Itv)]))),
    .call ((Cmd.run (.op [(⟨.nzero, (f (1) (-1))⟩ : Itv), (⟨(f (-5) (-1)), .pinf⟩ : Itv)]))),
    .call ((Cmd.run (.op [(⟨.nzero, (f (1) (-1))⟩ : Itv), (⟨.ninf, (f (3602879701896397) (-55))⟩ : Itv)]))),
    .call ((Cmd.run (.op [(⟨.nzero, (f (1) (-1))⟩ : Itv), (⟨.ninf, (f 1 0)⟩ : Itv)]))),
    .call ((Cmd.run (.op [(⟨.nzero, (f (1) (-1))⟩ : Itv), (⟨.ninf, (f (5) (-1))⟩ : Itv)]))),
    .call ((Cmd.run (.op [(⟨.nzero, (f (1) (-1))⟩ : Itv), (Itv.entire : Itv)]))),
    .call ((Cmd.run (.op [(⟨.nzero, (f (1) (-1))⟩ : Itv), (⟨(f (-1) (0)), (f 0 0)⟩ : Itv)]))),
    .call ((Cmd.run (.op [(⟨.nzero, (f (1) (-1))⟩ : Itv), (⟨(f (-1) (0)), .nzero⟩ : Itv)]))),
    .call ((Cmd.run (.op [(⟨.nzero, (f (1) (-1))⟩ : Itv), (⟨(f (-5) (-1)), (f 0 0)⟩ : Itv)]))),
    .call ((Cmd.run (.op [(⟨.nzero, (f (1) (-1))⟩ : Itv), (⟨(f (-5) (-1)), .nzero⟩ : Itv)]))),
    .call ((Cmd.run (.op [(⟨.nzero, (f (1) (-1))⟩ : Itv), (⟨.ninf, (f 0 0)⟩ : Itv)]))),
    .call ((Cmd.run (.op [(⟨.nzero, (f (1) (-1))⟩ : Itv), (⟨.ninf, .nzero⟩ : Itv)]))),
    .call ((Cmd.run (.op [(⟨.nzero, (f (1) (-1))⟩ : Itv), (⟨(f (-3602879701896397) (-55)), (f (-3602879701896397) (-55))⟩ : Itv)]))),
    .call ((Cmd.run (.op [(⟨.nzero, (f (1) (-1))⟩ : Itv), (⟨(f (-1) (0)), (f (-3602879701896397) (-55))⟩ : Itv)]))),
    .call ((Cmd.run (.op [(⟨.nzero, (f (1) (-1))⟩ : Itv), (⟨(f (-5) (-1)), (f (-3602879701896397) (-55))⟩ : Itv)]))),
    .call ((Cmd.run (.op [(⟨.nzero, (f (1) (-1))⟩ : Itv), (⟨.ninf, (f (-3602879701896397) (-55))⟩ : Itv)]))),
    .call ((Cmd.run (.op [(⟨.nzero, (f (1) (-1))⟩ : Itv), (⟨(f (-1) (0)), (f (-1) (0))⟩ : Itv)]))),
    .call ((Cmd.run (.op [(⟨.nzero, (f (1) (-1))⟩ : Itv), (⟨(f (-5) (-1)), (f (-1) (0))⟩ : Itv)]))),
    .call ((Cmd.run (.op [(⟨.nzero, (f (1) (-1))⟩ : Itv), (⟨.ninf, (f (-1) (0))⟩ : Itv)]))),
    .call ((Cmd.run (.op [(⟨.nzero, (f (1) (-1))⟩ : Itv), (⟨(f (-5) (-1)), (f (-5) (-1))⟩ : Itv)]))),
    .call ((Cmd.run (.op [(⟨.nzero, (f (1) (-1))⟩ : Itv), (⟨.ninf, (f (-5) (-1))⟩ : Itv)]))),
    .call (do (Cmd.run (.op [(⟨.nzero, (f 1 0)⟩ : Itv), (Itv.empty : Itv)])); (Cmd.run (.op [(Itv.empty : Itv)]))),
    .call ((Cmd.run (.op [(⟨.nzero, (f 1 0)⟩ : Itv), (⟨(f 0 0), (f 0 0)⟩ : Itv)]))),
    .call ((Cmd.run (.op [(⟨.nzero, (f 1 0)⟩ : Itv), (⟨.nzero, .nzero⟩ : Itv)]))),
    .call ((Cmd.run (.op [(⟨.nzero, (f 1 0)⟩ : Itv), (⟨(f 0 0), (f 1 0)⟩ : Itv)]))),
    .call ((Cmd.run (.op [(⟨.nzero, (f 1 0)⟩ : Itv), (⟨.nzero, (f 1 0)⟩ : Itv)]))),
    .call ((Cmd.run (.op [(⟨.nzero, (f 1 0)⟩ : Itv), (⟨(f 0 0), (f (5) (-1))⟩ : Itv)]))),
    .call ((Cmd.run (.op [(⟨.nzero, (f 1 0)⟩ : Itv), (⟨.nzero, (f (5) (-1))⟩ : Itv)]))),
    .call ((Cmd.run (.op [(⟨.nzero, (f 1 0)⟩ : Itv), (⟨(f 0 0), .pinf⟩ : Itv)]))),
    .call ((Cmd.run (.op [(⟨.nzero, (f 1 0)⟩ : Itv), (⟨.nzero, .pinf⟩ : Itv)]))),
    .call ((Cmd.run (.op [(⟨.nzero, (f 1 0)⟩ : Itv), (⟨(f (3602879701896397) (-55)), (f (3602879701896397) (-55))⟩ : Itv)]))),
    .call ((Cmd.run (.op [(⟨.nzero, (f 1 0)⟩ : Itv), (⟨(f (3602879701896397) (-55)), (f 1 0)⟩ : Itv)]))),
    .call ((Cmd.run (.op [(⟨.nzero, (f 1 0)⟩ : Itv), (⟨(f (3602879701896397) (-55)), (f (5) (-1))⟩ : Itv)]))),
    .call ((Cmd.run (.op [(⟨.nzero, (f 1 0)⟩ : Itv), (⟨(f (3602879701896397) (-55)), .pinf⟩ : Itv)]))),
    .call ((Cmd.run (.op [(⟨.nzero, (f 1 0)⟩ : Itv), (⟨(f 1 0), (f 1 0)⟩ : Itv)]))),
    .call ((Cmd.run (.op [(⟨.nzero, (f 1 0)⟩ : Itv), (⟨(f 1 0), (f (5) (-1))⟩ : Itv)]))),
    .call ((Cmd.run (.op [(⟨.nzero, (f 1 0)⟩ : Itv), (⟨(f 1 0), .pinf⟩ : Itv)]))),
    .call ((Cmd.run (.op [(⟨.nzero, (f 1 0)⟩ : Itv), (⟨(f (5) (-1)), (f (5) (-1))⟩ : Itv)]))),
    .call ((Cmd.run (.op [(⟨.nzero, (f 1 0)⟩ : Itv), (⟨(f (5) (-1)), .pinf⟩ : Itv)]))),
    .call ((Cmd.run (.op [(⟨.nzero, (f 1 0)⟩ : Itv), (⟨(f (-3602879701896397) (-55)), (f (3602879701896397) (-55))⟩ : Itv)]))),
    .call ((Cmd.run (.op [(⟨.nzero, (f 1 0)⟩ : Itv), (⟨(f (-3602879701896397) (-55)), (f 1 0)⟩ : Itv)]))),
    .call ((Cmd.run (.op [(⟨.nzero, (f 1 0)⟩ : Itv), (⟨(f (-3602879701896397) (-55)), (f (5) (-1))⟩ : Itv)]))),
    .call ((Cmd.run (.op [(⟨.nzero, (f 1 0)⟩ : Itv), (⟨(f (-3602879701896397) (-55)), .pinf⟩ : Itv)]))),
    .call ((Cmd.run (.op [(⟨.nzero, (f 1 0)⟩ : Itv), (⟨(f (-1) (0)), (f (3602879701896397) (-55))⟩ : Itv)]))),
    .call ((Cmd.run (.op [(⟨.nzero, (f 1 0)⟩ : Itv), (⟨(f (-1) (0)), (f 1 0)⟩ : Itv)]))),
    .call ((Cmd.run (.op [(⟨.nzero, (f 1 0)⟩ : Itv), (⟨(f (-1) (0)), (f (5) (-1))⟩ : Itv)]))),
    .call ((Cmd.run (.op [(⟨.nzero, (f 1 0)⟩ : Itv), (⟨(f (-1) (0)), .pinf⟩ : Itv)]))),
    .call ((Cmd.run (.op [(⟨.nzero, (f 1 0)⟩ : Itv), (⟨(f (-5) (-1)), (f (3602879701896397) (-55))⟩ : Itv)]))),
    .call ((Cmd.run (.op [(⟨.nzero, (f 1 0)⟩ : Itv), (⟨(f (-5) (-1)), (f 1 0)⟩ : Itv)]))),
    .call ((Cmd.run (.op [(⟨.nzero, (f 1 0)⟩ : Itv), (⟨(f (-5) (-1)), (f (5) (-1))⟩ : Itv)]))),
    .call ((Cmd.run (.op [(⟨.nzero, (f 1 0)⟩ : Itv), (⟨(f (-5) (-1)), .pinf⟩ : Itv)]))),
    .call ((Cmd.run (.op [(⟨.nzero, (f 1 0)⟩ : Itv), (⟨.ninf, (f (3602879701896397) (-55))⟩ : Itv)]))),
    .call ((Cmd.run (.op [(⟨.nzero, (f 1 0)⟩ : Itv), (⟨.ninf, (f 1 0)⟩ : Itv)]))),
    .call ((Cmd.run (.op [(⟨.nzero, (f 1 0)⟩ : Itv), (⟨.ninf, (f (5) (-1))⟩ : Itv)]))),
    .call ((Cmd.run (.op [(⟨.nzero, (f 1 0)⟩ : Itv), (Itv.entire : Itv)]))),
    .call ((Cmd.run (.op [(⟨.nzero, (f 1 0)⟩ : Itv), (⟨(f (-3602879701896397) (-55)), (f 0 0)⟩ : Itv)]))),
    .call ((Cmd.run (.op [(⟨.nzero, (f 1 0)⟩ : Itv), (⟨(f (-3602879701896397) (-55)), .nzero⟩ : Itv)]))),
    .call ((Cmd.run (.op [(⟨.nzero, (f 1 0)⟩ : Itv), (⟨(f (-1) (0)), (f 0 0)⟩ : Itv)]))),
    .call ((Cmd.run (.op [(⟨.nzero, (f 1 0)⟩ : Itv), (⟨(f (-1) (0)), .nzero⟩ : Itv)]))),
    .call ((Cmd.run (.op [(⟨.nzero, (f 1 0)⟩ : Itv), (⟨(f (-5) (-1)), (f 0 0)⟩ : Itv)]))),
    .call ((Cmd.run (.op [(⟨.nzero, (f 1 0)⟩ : Itv), (⟨(f (-5) (-1)), .nzero⟩ : Itv)]))),
    .call ((Cmd.run (.op [(⟨.nzero, (f 1 0)⟩ : Itv), (⟨.ninf, (f 0 0)⟩ : Itv)]))),
    .call ((Cmd.run (.op [(⟨.nzero, (f 1 0)⟩ : Itv), (⟨.ninf, .nzero⟩ : Itv)]))),
    .call ((Cmd.run (.op [(⟨.nzero, (f 1 0)⟩ : Itv), (⟨(f (-3602879701896397) (-55)), (f (-3602879701896397) (-55))⟩ : Itv)]))),
    .call ((Cmd.run (.op [(⟨.nzero, (f 1 0)⟩ : Itv), (⟨(f (-1) (0)), (f (-3602879701896397) (-55))⟩ : Itv)]))),
    .call ((Cmd.run (.op [(⟨.nzero, (f 1 0)⟩ : Itv), (⟨(f (-5) (-1)), (f (-3602879701896397) (-55))⟩ : Itv)]))),
    .call ((Cmd.run (.op [(⟨.nzero, (f 1 0)⟩ : Itv), (⟨.ninf, (f (-3602879701896397) (-55))⟩ : Itv)]))),
    .call ((Cmd.run (.op [(⟨.nzero, (f 1 0)⟩ : Itv), (⟨(f (-1) (0)), (f (-1) (0))⟩ : Itv)]))),
    .call ((Cmd.run (.op [(⟨.nzero, (f 1 0)⟩ : Itv), (⟨(f (-5) (-1)), (f (-1) (0))⟩ : Itv)]))),
    .call ((Cmd.run (.op [(⟨.nzero, (f 1 0)⟩ : Itv), (⟨.ninf, (f (-1) (0))⟩ : Itv)]))),
    .call ((Cmd.run (.op [(⟨.nzero, (f 1 0)⟩ : Itv), (⟨(f (-5) (-1)), (f (-5) (-1))⟩ : Itv)]))),
    .call ((Cmd.run (.op [(⟨.nzero, (f 1 0)⟩ : Itv), (⟨.ninf, (f (-5) (-1))⟩ : Itv)]))),
    .call (do (Cmd.run (.op [(⟨.nzero, (f (3) (-1))⟩ : Itv), (Itv.empty : Itv)])); (Cmd.run (.op [(Itv.empty : Itv)]))),
    .call ((Cmd.run (.op [(⟨.nzero, (f (3) (-1))⟩ : Itv), (⟨(f 0 0), (f 0 0)⟩ : Itv)]))),
    .call ((Cmd.run (.op [(⟨.nzero, (f (3) (-1))⟩ : Itv), (⟨.nzero, .nzero⟩ : Itv)]))),
    .call ((Cmd.run (.op [(⟨.nzero, (f (3) (-1))⟩ : Itv), (⟨(f 0 0), (f 1 0)⟩ : Itv)]))),
    .call ((Cmd.run (.op [(⟨.nzero, (f (3) (-1))⟩ : Itv), (⟨.nzero, (f 1 0)⟩ : Itv)]))),
    .call ((Cmd.run (.op [(⟨.nzero, (f (3) (-1))⟩ : Itv), (⟨(f 0 0), (f (5) (-1))⟩ : Itv)]))),
    .call ((Cmd.run (.op [(⟨.nzero, (f (3) (-1))⟩ : Itv), (⟨.nzero, (f (5) (-1))⟩ : Itv)]))),
    .call ((Cmd.run (.op [(⟨.nzero, (f (3) (-1))⟩ : Itv), (⟨(f 0 0), .pinf⟩ : Itv)]))),
    .call ((Cmd.run (.op [(⟨.nzero, (f (3) (-1))⟩ : Itv), (⟨.nzero, .pinf⟩ : Itv)]))),
    .call ((Cmd.run (.op [(⟨.nzero, (f (3) (-1))⟩ : Itv), (⟨(f (3602879701896397) (-55)), (f (3602879701896397) (-55))⟩ : Itv)]))),
    .call ((Cmd.run (.op [(⟨.nzero, (f (3) (-1))⟩ : Itv), (⟨(f (3602879701896397) (-55)), (f 1 0)⟩ : Itv)]))),
    .call ((Cmd.run (.op [(⟨.nzero, (f (3) (-1))⟩ : Itv), (⟨(f (3602879701896397) (-55)), (f (5) (-1))⟩ : Itv)]))),
    .call ((Cmd.run (.op [(⟨.nzero, (f (3) (-1))⟩ : Itv), (⟨(f (3602879701896397) (-55)), .pinf⟩ : Itv)]))),
    .call ((Cmd.run (.op [(⟨.nzero, (f (3) (-1))⟩ : Itv), (⟨(f 1 0), (f 1 0)⟩ : Itv)]))),
    .call ((Cmd.run (.op [(⟨.nzero, (f (3) (-1))⟩ : Itv), (⟨(f 1 0), (f (5) (-1))⟩ : Itv)]))),
    .call ((Cmd.run (.op [(⟨.nzero, (f (3) (-1))⟩ : Itv), (⟨(f 1 0), .pinf⟩ : Itv)]))),
    .call ((Cmd.run (.op [(⟨.nzero, (f (3) (-1))⟩ : Itv), (⟨(f (5) (-1)), (f (5) (-1))⟩ : Itv)]))),
    .call ((Cmd.run (.op [(⟨.nzero, (f (3) (-1))⟩ : Itv), (⟨(f (5) (-1)), .pinf⟩ : Itv)]))),
    .call ((Cmd.run (.op [(⟨.nzero, (f (3) (-1))⟩ : Itv), (⟨(f (-3602879701896397) (-55)), (f (3602879701896397) (-55))⟩ : Itv)]))),
    .call ((Cmd.run (.op [(⟨.nzero, (f (3) (-1))⟩ : Itv), (⟨(f (-3602879701896397) (-55)), (f 1 0)⟩ : Itv)]))),
    .call ((Cmd.run (.op [(⟨.nzero, (f (3) (-1))⟩ : Itv), (⟨(f (-3602879701896397) (-55)), (f (5) (-1))⟩ : Itv)]))),
    .call ((Cmd.run (.op [(⟨.nzero, (f (3) (-1))⟩ : Itv), (⟨(f (-3602879701896397) (-55)), .pinf⟩ : Itv)]))),
    .call ((Cmd.run (.op [(⟨.nzero, (f (3) (-1))⟩ : Itv), (⟨(f (-1) (0)), (f (3602879701896397) (-55))⟩ : Itv)]))),
    .call ((Cmd.run (.op [(⟨.nzero, (f (3) (-1))⟩ : Itv), (⟨(f (-1) (0)), (f 1 0)⟩ : Itv)]))),
    .call ((Cmd.run (.op [(⟨.nzero, (f (3) (-1))⟩ : Itv), (⟨(f (-1) (0)), (f (5) (-1))⟩ : Itv)]))),
    .call ((Cmd.run (.op [(⟨.nzero, (f (3) (-1))⟩ : Itv), (⟨(f (-1) (0)), .pinf⟩ : Itv)]))),
    .call ((Cmd.run (.op [(⟨.nzero, (f (3) (-1))⟩ : Itv), (⟨(f (-5) (-1)), (f (3602879701896397) (-55))⟩ : Itv)]))),
    .call ((Cmd.run (.op [(⟨.nzero, (f (3) (-1))⟩ : Itv), (⟨(f (-5) (-1)), (f 1 0)⟩ : Itv)]))),
    .call ((Cmd.run (.op [(⟨.nzero, (f (3) (-1))⟩ : Itv), (⟨(f (-5) (-1)), (f (5) (-1))⟩ : Itv)]))),
    .call ((Cmd.run (.op [(⟨.nzero, (f (3) (-1))⟩ : Itv), (⟨(f (-5) (-1)), .pinf⟩ : Itv)]))),
    .call ((Cmd.run (.op [(⟨.nzero, (f (3) (-1))⟩ : Itv), (⟨.ninf, (f (3602879701896397) (-55))⟩ : Itv)]))),
    .call ((Cmd.run (.op [(⟨.nzero, (f (3) (-1))⟩ : Itv), (⟨.ninf, (f 1 0)⟩ : Itv)]))),
    .call ((Cmd.run (.op [(⟨.nzero, (f (3) (-1))⟩ : Itv), (⟨.ninf, (f (5) (-1))⟩ : Itv)]))),
    .call ((Cmd.run (.op [(⟨.nzero, (f (3) (-1))⟩ : Itv), (Itv.entire : Itv)]))),
    .call ((Cmd.run (.op [(⟨.nzero, (f (3) (-1))⟩ : Itv), (⟨(f (-1) (0)), (f 0 0)⟩ : Itv)]))),
    .call ((Cmd.run (.op [(⟨.nzero, (f (3) (-1))⟩ : Itv), (⟨(f (-1) (0)), .nzero⟩ : Itv)]))),
    .call ((Cmd.run (.op [(⟨.nzero, (f (3) (-1))⟩ : Itv), (⟨(f (-5) (-1)), (f 0 0)⟩ : Itv)]))),
    .call ((Cmd.run (.op [(⟨.nzero, (f (3) (-1))⟩ : Itv), (⟨(f (-5) (-1)), .nzero⟩ : Itv)]))),
    .call ((Cmd.run (.op [(⟨.nzero, (f (3) (-1))⟩ : Itv), (⟨.ninf, (f 0 0)⟩ : Itv)]))),
    .call ((Cmd.run (.op [(⟨.nzero, (f (3) (-1))⟩ : Itv), (⟨.ninf, .nzero⟩ : Itv)]))),
    .call ((Cmd.run (.op [(⟨.nzero, (f (3) (-1))⟩ : Itv), (⟨(f (-3602879701896397) (-55)), (f (-3602879701896397) (-55))⟩ : Itv)]))),
    .call ((Cmd.run (.op [(⟨.nzero, (f (3) (-1))⟩ : Itv), (⟨(f (-1) (0)), (f (-3602879701896397) (-55))⟩ : Itv)]))),
    .call ((Cmd.run (.op [(⟨.nzero, (f (3) (-1))⟩ : Itv), (⟨(f (-5) (-1)), (f (-3602879701896397) (-55))⟩ : Itv)]))),
    .call ((Cmd.run (.op [(⟨.nzero, (f (3) (-1))⟩ : Itv), (⟨.ninf, (f (-3602879701896397) (-55))⟩ : Itv)]))),
    .call ((Cmd.run (.op [(⟨.nzero, (f (3) (-1))⟩ : Itv), (⟨(f (-1) (0)), (f (-1) (0))⟩ : Itv)]))),
    .call ((Cmd.run (.op [(⟨.nzero, (f (3) (-1))⟩ : Itv), (⟨(f (-5) (-1)), (f (-1) (0))⟩ : Itv)]))),
    .call ((Cmd.run (.op [(⟨.nzero, (f (3) (-1))⟩ : Itv), (⟨.ninf, (f (-1) (0))⟩ : Itv)]))),
    .call ((Cmd.run (.op [(⟨.nzero, (f (3) (-1))⟩ : Itv), (⟨(f (-5) (-1)), (f (-5) (-1))⟩ : Itv)]))),
    .call ((Cmd.run (.op [(⟨.nzero, (f (3) (-1))⟩ : Itv), (⟨.ninf, (f (-5) (-1))⟩ : Itv)]))),
    .call (do (Cmd.run (.op [(⟨.nzero, .pinf⟩ : Itv), (Itv.empty : Itv)])); (Cmd.run (.op [(Itv.empty : Itv)]))),
    .call ((Cmd.run (.op [(⟨.nzero, .pinf⟩ : Itv), (⟨(f 0 0), (f 0 0)⟩ : Itv)]))),
    .call ((Cmd.run (.op [(⟨.nzero, .pinf⟩ : Itv), (⟨.nzero, .nzero⟩ : Itv)]))),
    .call ((Cmd.run (.op [(⟨.nzero, .pinf⟩ : Itv), (⟨(f 0 0), (f 1 0)⟩ : Itv)]))),
    .call ((Cmd.run (.op [(⟨.nzero, .pinf⟩ : Itv), (⟨.nzero, (f 1 0)⟩ : Itv)]))),
    .call ((Cmd.run (.op [(⟨.nzero, .pinf⟩ : Itv), (⟨(f 0 0), (f (5) (-1))⟩ : Itv)]))),
    .call ((Cmd.run (.op [(⟨.nzero, .pinf⟩ : Itv), (⟨.nzero, (f (5) (-1))⟩ : Itv)]))),
    .call ((Cmd.run (.op [(⟨.nzero, .pinf⟩ : Itv), (⟨(f 0 0), .pinf⟩ : Itv)]))),
    .call ((Cmd.run (.op [(⟨.nzero, .pinf⟩ : Itv), (⟨.nzero, .pinf⟩ : Itv)]))),
    .call ((Cmd.run (.op [(⟨.nzero, .pinf⟩ : Itv), (⟨(f (3602879701896397) (-55)), (f (3602879701896397) (-55))⟩ : Itv)]))),
    .call ((Cmd.run (.op [(⟨.nzero, .pinf⟩ : Itv), (⟨(f (3602879701896397) (-55)), (f 1 0)⟩ : Itv)]))),
    .call ((Cmd.run (.op [(⟨.nzero, .pinf⟩ : Itv), (⟨(f (3602879701896397) (-55)), (f (5) (-1))⟩ : Itv)]))),
    .call ((Cmd.run (.op [(⟨.nzero, .pinf⟩ : Itv), (⟨(f (3602879701896397) (-55)), .pinf⟩ : Itv)]))),
    .call ((Cmd.run (.op [(⟨.nzero, .pinf⟩ : Itv), (⟨(f 1 0), (f 1 0)⟩ : Itv)]))),
    .call ((Cmd.run (.op [(⟨.nzero, .pinf⟩ : Itv), (⟨(f 1 0), (f (5) (-1))⟩ : Itv)]))),
    .call ((Cmd.run (.op [(⟨.nzero, .pinf⟩ : Itv), (⟨(f 1 0), .pinf⟩ : Itv)]))),
    .call ((Cmd.run (.op [(⟨.nzero, .pinf⟩ : Itv), (⟨(f (5) (-1)), (f (5) (-1))⟩ : Itv)]))),
    .call ((Cmd.run (.op [(⟨.nzero, .pinf⟩ : Itv), (⟨(f (5) (-1)), .pinf⟩ : Itv)]))),
    .call ((Cmd.run (.op [(⟨.nzero, .pinf⟩ : Itv), (⟨(f (-3602879701896397) (-55)), (f (3602879701896397) (-55))⟩ : Itv)]))),
    .call ((Cmd.run (.op [(⟨.nzero, .pinf⟩ : Itv), (⟨(f (-3602879701896397) (-55)), (f 1 0)⟩ : Itv)]))),
    .call ((Cmd.run (.op [(⟨.nzero, .pinf⟩ : Itv), (⟨(f (-3602879701896397) (-55)), (f (5) (-1))⟩ : Itv)]))),
    .call ((Cmd.run (.op [(⟨.nzero, .pinf⟩ : Itv), (⟨(f (-3602879701896397) (-55)), .pinf⟩ : Itv)]))),
    .call ((Cmd.run (.op [(⟨.nzero, .pinf⟩ : Itv), (⟨(f (-1) (0)), (f (3602879701896397) (-55))⟩ : Itv)]))),
    .call ((Cmd.run (.op [(⟨.nzero, .pinf⟩ : Itv), (⟨(f (-1) (0)), (f 1 0)⟩ : Itv)]))),
    .call ((Cmd.run (.op [(⟨.nzero, .pinf⟩ : Itv), (⟨(f (-1) (0)), (f (5) (-1))⟩ : Itv)]))),
    .call ((Cmd.run (.op [(⟨.nzero, .pinf⟩ : Itv), (⟨(f (-1) (0)), .pinf⟩ : Itv)]))),
    .call ((Cmd.run (.op [(⟨.nzero, .pinf⟩ : Itv), (⟨(f (-5) (-1)), (f (3602879701896397) (-55))⟩ : Itv)]))),
    .call ((Cmd.run (.op [(⟨.nzero, .pinf⟩ : Itv), (⟨(f (-5) (-1)), (f 1 0)⟩ : Itv)]))),
    .call ((Cmd.run (.op [(⟨.nzero, .pinf⟩ : Itv), (⟨(f (-5) (-1)), (f (5) (-1))⟩ : Itv)]))),
    .call ((Cmd.run (.op [(⟨.nzero, .pinf⟩ : Itv), (⟨(f (-5) (-1)), .pinf⟩ : Itv)]))),
    .call ((Cmd.run (.op [(⟨.nzero, .pinf⟩ : Itv), (⟨.ninf, (f (3602879701896397) (-55))⟩ : Itv)]))),
    .call ((Cmd.run (.op [(⟨.nzero, .pinf⟩ : Itv), (⟨.ninf, (f 1 0)⟩ : Itv)]))),
    .call ((Cmd.run (.op [(⟨.nzero, .pinf⟩ : Itv), (⟨.ninf, (f (5) (-1))⟩ : Itv)]))),
    .call ((Cmd.run (.op [(⟨.nzero, .pinf⟩ : Itv), (Itv.entire : Itv)]))),
    .call ((Cmd.run (.op [(⟨.nzero, .pinf⟩ : Itv), (⟨(f (-1) (0)), (f 0 0)⟩ : Itv)]))),
    .call ((Cmd.run (.op [(⟨.nzero, .pinf⟩ : Itv), (⟨(f (-1) (0)), .nzero⟩ : Itv)]))),
    .call ((Cmd.run (.op [(⟨.nzero, .pinf⟩ : Itv), (⟨(f (-5) (-1)), (f 0 0)⟩ : Itv)]))),
    .call ((Cmd.run (.op [(⟨.nzero, .pinf⟩ : Itv), (⟨(f (-5) (-1)), .nzero⟩ : Itv)]))),
    .call ((Cmd.run (.op [(⟨.nzero, .pinf⟩ : Itv), (⟨.ninf, (f 0 0)⟩ : Itv)]))),
    .call ((Cmd.run (.op [(⟨.nzero, .pinf⟩ : Itv), (⟨.ninf, .nzero⟩ : Itv)]))),
    .call ((Cmd.run (.op [(⟨.nzero, .pinf⟩ : Itv), (⟨(f (-3602879701896397) (-55)), (f (-3602879701896397) (-55))⟩ : Itv)]))),
    .call ((Cmd.run (.op [(⟨.nzero, .pinf⟩ : Itv), (⟨(f (-1) (0)), (f (-3602879701896397) (-55))⟩ : Itv)]))),
    .call ((Cmd.run (.op [(⟨.nzero, .pinf⟩ : Itv), (⟨(f (-5) (-1)), (f (-3602879701896397) (-55))⟩ : Itv)]))),
    .call ((Cmd.run (.op [(⟨.nzero, .pinf⟩ : Itv), (⟨.ninf, (f (-3602879701896397) (-55))⟩ : Itv)]))),
    .call ((Cmd.run (.op [(⟨.nzero, .pinf⟩ : Itv), (⟨(f (-1) (0)), (f (-1) (0))⟩ : Itv)]))),
    .call ((Cmd.run (.op [(⟨.nzero, .pinf⟩ : Itv), (⟨(f (-5) (-1)), (f (-1) (0))⟩ : Itv)]))),
    .call ((Cmd.run (.op [(⟨.nzero, .pinf⟩ : Itv), (⟨.ninf, (f (-1) (0))⟩ : Itv)]))),
    .call ((Cmd.run (.op [(⟨.nzero, .pinf⟩ : Itv), (⟨.ninf, (f (-5) (-1))⟩ : Itv)]))),
    .call ((Cmd.run (.op [(⟨.nzero, .pinf⟩ : Itv), (⟨(f (-5) (-1)), (f (-5) (-1))⟩ : Itv)]))),
    .call (do (Cmd.run (.op [(⟨(f (-3602879701896397) (-55)), (f (1) (-1))⟩ : Itv), (Itv.empty : Itv)])); (Cmd.run (.op [(Itv.empty : Itv)]))),
    .call ((Cmd.run (.op [(⟨(f (-3602879701896397) (-55)), (f (1) (-1))⟩ : Itv), (⟨(f 0 0), (f 0 0)⟩ : Itv)]))),
    .call ((Cmd.run (.op [(⟨(f (-3602879701896397) (-55)), (f (1) (-1))⟩ : Itv), (⟨.nzero, .nzero⟩ : Itv)]))),
    .call ((Cmd.run (.op [(⟨(f (-3602879701896397) (-55)), (f (1) (-1))⟩ : Itv), (⟨(f 0 0), (f 1 0)⟩ : Itv)]))),
    .call ((Cmd.run (.op [(⟨(f (-3602879701896397) (-55)), (f (1) (-1))⟩ : Itv), (⟨.nzero, (f 1 0)⟩ : Itv)]))),
    .call ((Cmd.run (.op [(⟨(f (-3602879701896397) (-55)), (f (1) (-1))⟩ : Itv), (⟨(f 0 0), (f (5) (-1))⟩ : Itv)]))),
    .call ((Cmd.run (.op [(⟨(f (-3602879701896397) (-55)), (f (1) (-1))⟩ : Itv), (⟨.nzero, (f (5) (-1))⟩ : Itv)]))),
    .call ((Cmd.run (.op [(⟨(f (-3602879701896397) (-55)), (f (1) (-1))⟩ : Itv), (⟨(f 0 0), .pinf⟩ : Itv)]))),
    .call ((Cmd.run (.op [(⟨(f (-3602879701896397) (-55)), (f (1) (-1))⟩ : Itv), (⟨.nzero, .pinf⟩ : Itv)]))),
    .call ((Cmd.run (.op [(⟨(f (-3602879701896397) (-55)), (f (1) (-1))⟩ : Itv), (⟨(f (3602879701896397) (-55)), (f (3602879701896397) (-55))⟩ : Itv)]))),
    .call ((Cmd.run (.op [(⟨(f (-3602879701896397) (-55)), (f (1) (-1))⟩ : Itv), (⟨(f (3602879701896397) (-55)), (f 1 0)⟩ : Itv)]))),
    .call ((Cmd.run (.op [(⟨(f (-3602879701896397) (-55)), (f (1) (-1))⟩ : Itv), (⟨(f (3602879701896397) (-55)), (f (5) (-1))⟩ : Itv)]))),
    .call ((Cmd.run (.op [(⟨(f (-3602879701896397) (-55)), (f (1) (-1))⟩ : Itv), (⟨(f (3602879701896397) (-55)), .pinf⟩ : Itv)]))),
    .call ((Cmd.run (.op [(⟨(f (-3602879701896397) (-55)), (f (1) (-1))⟩ : Itv), (⟨(f 1 0), (f 1 0)⟩ : Itv)]))),
    .call ((Cmd.run (.op [(⟨(f (-3602879701896397) (-55)), (f (1) (-1))⟩ : Itv), (⟨(f 1 0), (f (5) (-1))⟩ : Itv)]))),
    .call ((Cmd.run (.op [(⟨(f (-3602879701896397) (-55)), (f (1) (-1))⟩ : Itv), (⟨(f 1 0), .pinf⟩ : Itv)]))),
    .call ((Cmd.run (.op [(⟨(f (-3602879701896397) (-55)), (f (1) (-1))⟩ : Itv), (⟨(f (5) (-1)), (f (5) (-1))⟩ : Itv)]))),
    .call ((Cmd.run (.op [(⟨(f (-3602879701896397) (-55)), (f (1) (-1))⟩ : Itv), (⟨(f (5) (-1)), .pinf⟩ : Itv)]))),
    .call ((Cmd.run (.op [(⟨(f (-3602879701896397) (-55)), (f (1) (-1))⟩ : Itv), (⟨(f (-3602879701896397) (-55)), (f (3602879701896397) (-55))⟩ : Itv)]))),
    .call ((Cmd.run (.op [(⟨(f (-3602879701896397) (-55)), (f (1) (-1))⟩ : Itv), (⟨(f (-3602879701896397) (-55)), (f 1 0)⟩ : Itv)]))),
    .call ((Cmd.run (.op [(⟨(f (-3602879701896397) (-55)), (f (1) (-1))⟩ : Itv), (⟨(f (-3602879701896397) (-55)), (f (5) (-1))⟩ : Itv)]))),
    .call ((Cmd.run (.op [(⟨(f (-3602879701896397) (-55)), (f (1) (-1))⟩ : Itv), (⟨(f (-3602879701896397) (-55)), .pinf⟩ : Itv)]))),
    .call ((Cmd.run (.op [(⟨(f (-3602879701896397) (-55)), (f (1) (-1))⟩ : Itv), (⟨(f (-1) (0)), (f (3602879701896397) (-55))⟩ : Itv)]))),
    .call ((Cmd.run (.op [(⟨(f (-3602879701896397) (-55)), (f (1) (-1))⟩ : Itv), (⟨(f (-1) (0)), (f 1 0)⟩ : Itv)]))),
    .call ((Cmd.run (.op [(⟨(f (-3602879701896397) (-55)), (f (1) (-1))⟩ : Itv), (⟨(f (-1) (0)), (f (5) (-1))⟩ : Itv)]))),
    .call ((Cmd.run (.op [(⟨(f (-3602879701896397) (-55)), (f (1) (-1))⟩ : Itv), (⟨(f (-1) (0)), .pinf⟩ : Itv)]))),
    .call ((Cmd.run (.op [(⟨(f (-3602879701896397) (-55)), (f (1) (-1))⟩ : Itv), (⟨(f (-5) (-1)), (f (3602879701896397) (-55))⟩ : Itv)]))),
    .call ((Cmd.run (.op [(⟨(f (-3602879701896397) (-55)), (f (1) (-1))⟩ : Itv), (⟨(f (-5) (-1)), (f 1 0)⟩ : Itv)]))),
    .call ((Cmd.run (.op [(⟨(f (-3602879701896397) (-55)), (f (1) (-1))⟩ : Itv), (⟨(f (-5) (-1)), (f (5) (-1))⟩ : Itv)]))),
    .call ((Cmd.run (.op [(⟨(f (-3602879701896397) (-55)), (f (1) (-1))⟩ : Itv), (⟨(f (-5) (-1)), .pinf⟩ : Itv)]))),
    .call ((Cmd.run (.op [(⟨(f (-3602879701896397) (-55)), (f (1) (-1))⟩ : Itv), (⟨.ninf, (f (3602879701896397) (-55))⟩ : Itv)]))),
    .call ((Cmd.run (.op [(⟨(f (-3602879701896397) (-55)), (f (1) (-1))⟩ : Itv), (⟨.ninf, (f 1 0)⟩ : Itv)]))),
    .call ((Cmd.run (.op [(⟨(f (-3602879701896397) (-55)), (f (1) (-1))⟩ : Itv), (⟨.ninf, (f (5) (-1))⟩ : Itv)]))),
    .call ((Cmd.run (.op [(⟨(f (-3602879701896397) (-55)), (f (1) (-1))⟩ : Itv), (Itv.entire : Itv)]))),
    .call ((Cmd.run (.op [(⟨(f (-3602879701896397) (-55)), (f (1) (-1))⟩ : Itv), (⟨(f (-1) (0)), (f 0 0)⟩ : Itv)]))),
    .call ((Cmd.run (.op [(⟨(f (-3602879701896397) (-55)), (f (1) (-1))⟩ : Itv), (⟨(f (-1) (0)), .nzero⟩ : Itv)]))),
    .call ((Cmd.run (.op [(⟨(f (-3602879701896397) (-55)), (f (1) (-1))⟩ : Itv), (⟨(f (-5) (-1)), (f 0 0)⟩ : Itv)]))),
    .call ((Cmd.run (.op [(⟨(f (-3602879701896397) (-55)), (f (1) (-1))⟩ : Itv), (⟨(f (-5) (-1)), .nzero⟩ : Itv)]))),
    .call ((Cmd.run (.op [(⟨(f (-3602879701896397) (-55)), (f (1) (-1))⟩ : Itv), (⟨.ninf, (f 0 0)⟩ : Itv)]))),
    .call ((Cmd.run (.op [(⟨(f (-3602879701896397) (-55)), (f (1) (-1))⟩ : Itv), (⟨.ninf, .nzero⟩ : Itv)]))),
    .call ((Cmd.run (.op [(⟨(f (-3602879701896397) (-55)), (f (1) (-1))⟩ : Itv), (⟨(f (-3602879701896397) (-55)), (f (-3602879701896397) (-55))⟩ : Itv)]))),
    .call ((Cmd.run (.op [(⟨(f (-3602879701896397) (-55)), (f (1) (-1))⟩ : Itv), (⟨(f (-1) (0)), (f (-3602879701896397) (-55))⟩ : Itv)]))),
    .call ((Cmd.run (.op [(⟨(f (-3602879701896397) (-55)), (f (1) (-1))⟩ : Itv), (⟨(f (-5) (-1)), (f (-3602879701896397) (-55))⟩ : Itv)]))),
    .call ((Cmd.run (.op [(⟨(f (-3602879701896397) (-55)), (f (1) (-1))⟩ : Itv), (⟨.ninf, (f (-3602879701896397) (-55))⟩ : Itv)]))),
    .call ((Cmd.run (.op [(⟨(f (-3602879701896397) (-55)), (f (1) (-1))⟩ : Itv), (⟨(f (-1) (0)), (f (-1) (0))⟩ : Itv)]))),
    .call ((Cmd.run (.op [(⟨(f (-3602879701896397) (-55)), (f (1) (-1))⟩ : Itv), (⟨(f (-5) (-1)), (f (-1) (0))⟩ : Itv)]))),
    .call ((Cmd.run (.op [(⟨(f (-3602879701896397) (-55)), (f (1) (-1))⟩ : Itv), (⟨.ninf, (f (-1) (0))⟩ : Itv)]))),
    .call ((Cmd.run (.op [(⟨(f (-3602879701896397) (-55)), (f (1) (-1))⟩ : Itv), (⟨(f (-5) (-1)), (f (-5) (-1))⟩ : Itv)]))),
    .call ((Cmd.run (.op [(⟨(f (-3602879701896397) (-55)), (f (1) (-1))⟩ : Itv), (⟨.ninf, (f (-5) (-1))⟩ : Itv)]))),
    .call (do (Cmd.run (.op [(⟨(f (-3602879701896397) (-55)), (f 1 0)⟩ : Itv), (Itv.empty : Itv)])); (Cmd.run (.op [(Itv.empty : Itv)]))),
    .call ((Cmd.run (.op [(⟨(f (-3602879701896397) (-55)), (f 1 0)⟩ : Itv), (⟨(f 0 0), (f 0 0)⟩ : Itv)]))),
    .call ((Cmd.run (.op [(⟨(f (-3602879701896397) (-55)), (f 1 0)⟩ : Itv), (⟨.nzero, .nzero⟩ : Itv)]))),
    .call ((Cmd.run (.op [(⟨(f (-3602879701896397) (-55)), (f 1 0)⟩ : Itv), (⟨(f 0 0), (f 1 0)⟩ : Itv)]))),
    .call ((Cmd.run (.op [(⟨(f (-3602879701896397) (-55)), (f 1 0)⟩ : Itv), (⟨.nzero, (f 1 0)⟩ : Itv)]))),
    .call ((Cmd.run (.op [(⟨(f (-3602879701896397) (-55)), (f 1 0)⟩ : Itv), (⟨(f 0 0), (f (5) (-1))⟩ : Itv)]))),
    .call ((Cmd.run (.op [(⟨(f (-3602879701896397) (-55)), (f 1 0)⟩ : Itv), (⟨.nzero, (f (5) (-1))⟩ : Itv)]))),
    .call ((Cmd.run (.op [(⟨(f (-3602879701896397) (-55)), (f 1 0)⟩ : Itv), (⟨(f 0 0), .pinf⟩ : Itv)]))),
    .call ((Cmd.run (.op [(⟨(f (-3602879701896397) (-55)), (f 1 0)⟩ : Itv), (⟨.nzero, .pinf⟩ : Itv)]))),
    .call ((Cmd.run (.op [(⟨(f (-3602879701896397) (-55)), (f 1 0)⟩ : Itv), (⟨(f (3602879701896397) (-55)), (f (3602879701896397) (-55))⟩ : Itv)]))),
    .call ((Cmd.run (.op [(⟨(f (-3602879701896397) (-55)), (f 1 0)⟩ : Itv), (⟨(f (3602879701896397) (-55)), (f 1 0)⟩ : Itv)]))),
    .call ((Cmd.run (.op [(⟨(f (-3602879701896397) (-55)), (f 1 0)⟩ : Itv), (⟨(f (3602879701896397) (-55)), (f (5) (-1))⟩ : Itv)]))),
    .call ((Cmd.run (.op [(⟨(f (-3602879701896397) (-55)), (f 1 0)⟩ : Itv), (⟨(f (3602879701896397) (-55)), .pinf⟩ : Itv)]))),
    .call ((Cmd.run (.op [(⟨(f (-3602879701896397) (-55)), (f 1 0)⟩ : Itv), (⟨(f 1 0), (f 1 0)⟩ : Itv)]))),
    .call ((Cmd.run (.op [(⟨(f (-3602879701896397) (-55)), (f 1 0)⟩ : Itv), (⟨(f 1 0), (f (5) (-1))⟩ : Itv)]))),
    .call ((Cmd.run (.op [(⟨(f (-3602879701896397) (-55)), (f 1 0)⟩ : Itv), (⟨(f 1 0), .pinf⟩ : Itv)]))),
    .call ((Cmd.run (.op [(⟨(f (-3602879701896397) (-55)), (f 1 0)⟩ : Itv), (⟨(f (5) (-1)), (f (5) (-1))⟩ : Itv)]))),
    .call ((Cmd.run (.op [(⟨(f (-3602879701896397) (-55)), (f 1 0)⟩ : Itv), (⟨(f (5) (-1)), .pinf⟩ : Itv)]))),
    .call ((Cmd.run (.op [(⟨(f (-3602879701896397) (-55)), (f 1 0)⟩ : Itv), (⟨(f (-3602879701896397) (-55)), (f (3602879701896397) (-55))⟩ : Itv)]))),
    .call ((Cmd.run (.op [(⟨(f (-3602879701896397) (-55)), (f 1 0)⟩ : Itv), (⟨(f (-3602879701896397) (-55)), (f 1 0)⟩ : Itv)]))),
    .call ((Cmd.run (.op [(⟨(f (-3602879701896397) (-55)), (f 1 0)⟩ : Itv), (⟨(f (-3602879701896397) (-55)), (f (5) (-1))⟩ : Itv)]))),
    .call ((Cmd.run (.op [(⟨(f (-3602879701896397) (-55)), (f 1 0)⟩ : Itv), (⟨(f (-3602879701896397) (-55)), .pinf⟩ : Itv)]))),
    .call ((Cmd.run (.op [(⟨(f (-3602879701896397) (-55)), (f 1 0)⟩ : Itv), (⟨(f (-1) (0)), (f (3602879701896397) (-55))⟩ : Itv)]))),
    .call ((Cmd.run (.op [(⟨(f (-3602879701896397) (-55)), (f 1 0)⟩ : Itv), (⟨(f (-1) (0)), (f 1 0)⟩ : Itv)]))),
    .call ((Cmd.run (.op [(⟨(f (-3602879701896397) (-55)), (f 1 0)⟩ : Itv), (⟨(f (-1) (0)), (f (5) (-1))⟩ : Itv)]))),
    .call ((Cmd.run (.op [(⟨(f (-3602879701896397) (-55)), (f 1 0)⟩ : Itv), (⟨(f (-1) (0)), .pinf⟩ : Itv)]))),
    .call ((Cmd.run (.op [(⟨(f (-3602879701896397) (-55)), (f 1 0)⟩ : Itv), (⟨(f (-5) (-1)), (f (3602879701896397) (-55))⟩ : Itv)]))),
    .call ((Cmd.run (.op [(⟨(f (-3602879701896397) (-55)), (f 1 0)⟩ : Itv), (⟨(f (-5) (-1)), (f 1 0)⟩ : Itv)]))),
    .call ((Cmd.run (.op [(⟨(f (-3602879701896397) (-55)), (f 1 0)⟩ : Itv), (⟨(f (-5) (-1)), (f (5) (-1))⟩ : Itv)]))),
    .call ((Cmd.run (.op [(⟨(f (-3602879701896397) (-55)), (f 1 0)⟩ : Itv), (⟨(f (-5) (-1)), .pinf⟩ : Itv)]))),
    .call ((Cmd.run (.op [(⟨(f (-3602879701896397) (-55)), (f 1 0)⟩ : Itv), (⟨.ninf, (f (3602879701896397) (-55))⟩ : Itv)]))),
    .call ((Cmd.run (.op [(⟨(f (-3602879701896397) (-55)), (f 1 0)⟩ : Itv), (⟨.ninf, (f 1 0)⟩ : Itv)]))),
    .call ((Cmd.run (.op [(⟨(f (-3602879701896397) (-55)), (f 1 0)⟩ : Itv), (⟨.ninf, (f (5) (-1))⟩ : Itv)]))),
    .call ((Cmd.run (.op [(⟨(f (-3602879701896397) (-55)), (f 1 0)⟩ : Itv), (Itv.entire : Itv)]))),
    .call ((Cmd.run (.op [(⟨(f (-3602879701896397) (-55)), (f 1 0)⟩ : Itv), (⟨(f (-3602879701896397) (-55)), (f 0 0)⟩ : Itv)]))),
    .call ((Cmd.run (.op [(⟨(f (-3602879701896397) (-55)), (f 1 0)⟩ : Itv), (⟨(f (-3602879701896397) (-55)), .nzero⟩ : Itv)]))),
    .call ((Cmd.run (.op [(⟨(f (-3602879701896397) (-55)), (f 1 0)⟩ : Itv), (⟨(f (-1) (0)), (f 0 0)⟩ : Itv)]))),
    .call ((Cmd.run (.op [(⟨(f (-3602879701896397) (-55)), (f 1 0)⟩ : Itv), (⟨(f (-1) (0)), .nzero⟩ : Itv)]))),
    .call ((Cmd.run (.op [(⟨(f (-3602879701896397) (-55)), (f 1 0)⟩ : Itv), (⟨(f (-5) (-1)), (f 0 0)⟩ : Itv)]))),
    .call ((Cmd.run (.op [(⟨(f (-3602879701896397) (-55)), (f 1 0)⟩ : Itv), (⟨(f (-5) (-1)), .nzero⟩ : Itv)]))),
    .call ((Cmd.run (.op [(⟨(f (-3602879701896397) (-55)), (f 1 0)⟩ : Itv), (⟨.ninf, (f 0 0)⟩ : Itv)]))),
    .call ((Cmd.run (.op [(⟨(f (-3602879701896397) (-55)), (f 1 0)⟩ : Itv), (⟨.ninf, .nzero⟩ : Itv)]))),
    .call ((Cmd.run (.op [(⟨(f (-3602879701896397) (-55)), (f 1 0)⟩ : Itv), (⟨(f (-3602879701896397) (-55)), (f (-3602879701896397) (-55))⟩ : Itv)]))),
    .call ((Cmd.run (.op [(⟨(f (-3602879701896397) (-55)), (f 1 0)⟩ : Itv), (⟨(f (-1) (0)), (f (-3602879701896397) (-55))⟩ : Itv)]))),
    .call ((Cmd.run (.op [(⟨(f (-3602879701896397) (-55)), (f 1 0)⟩ : Itv), (⟨(f (-5) (-1)), (f (-3602879701896397) (-55))⟩ : Itv)]))),
    .call ((Cmd.run (.op [(⟨(f (-3602879701896397) (-55)), (f 1 0)⟩ : Itv), (⟨.ninf, (f (-3602879701896397) (-55))⟩ : Itv)]))),
    .call ((Cmd.run (.op [(⟨(f (-3602879701896397) (-55)), (f 1 0)⟩ : Itv), (⟨(f (-1) (0)), (f (-1) (0))⟩ : Itv)]))),
    .call ((Cmd.run (.op [(⟨(f (-3602879701896397) (-55)), (f 1 0)⟩ : Itv), (⟨(f (-5) (-1)), (f (-1) (0))⟩ : Itv)]))),
    .call ((Cmd.run (.op [(⟨(f (-3602879701896397) (-55)), (f 1 0)⟩ : Itv), (⟨.ninf, (f (-1) (0))⟩ : Itv)]))),
    .call ((Cmd.run (.op [(⟨(f (-3602879701896397) (-55)), (f 1 0)⟩ : Itv), (⟨(f (-5) (-1)), (f (-5) (-1))⟩ : Itv)]))),
    .call ((Cmd.run (.op [(⟨(f (-3602879701896397) (-55)), (f 1 0)⟩ : Itv), (⟨.ninf, (f (-5) (-1))⟩ : Itv)]))),
    .call (do (Cmd.run (.op [(⟨(f (-3602879701896397) (-55)), (f (3) (-1))⟩ : Itv), (Itv.empty : Itv)])); (Cmd.run (.op [(Itv.empty : Itv)]))),
    .call ((Cmd.run (.op [(⟨(f (-3602879701896397) (-55)), (f (3) (-1))⟩ : Itv), (⟨(f 0 0), (f 0 0)⟩ : Itv)]))),
    .call ((Cmd.run (.op [(⟨(f (-3602879701896397) (-55)), (f (3) (-1))⟩ : Itv), (⟨.nzero, .nzero⟩ : Itv)]))),
    .call ((Cmd.run (.op [(⟨(f (-3602879701896397) (-55)), (f (3) (-1))⟩ : Itv), (⟨(f 0 0), (f 1 0)⟩ : Itv)]))),
    .call ((Cmd.run (.op [(⟨(f (-3602879701896397) (-55)), (f (3) (-1))⟩ : Itv), (⟨.nzero, (f 1 0)⟩ : Itv)]))),
    .call ((Cmd.run (.op [(⟨(f (-3602879701896397) (-55)), (f (3) (-1))⟩ : Itv), (⟨(f 0 0), (f (5) (-1))⟩ : Itv)]))),
    .call ((Cmd.run (.op [(⟨(f (-3602879701896397) (-55)), (f (3) (-1))⟩ : Itv), (⟨.nzero, (f (5) (-1))⟩ : Itv)]))),
    .call ((Cmd.run (.op [(⟨(f (-3602879701896397) (-55)), (f (3) (-1))⟩ : Itv), (⟨(f 0 0), .pinf⟩ : Itv)]))),
    .call ((Cmd.run (.op [(⟨(f (-3602879701896397) (-55)), (f (3) (-1))⟩ : Itv), (⟨.nzero, .pinf⟩ : Itv)]))),
    .call ((Cmd.run (.op [(⟨(f (-3602879701896397) (-55)), (f (3) (-1))⟩ : Itv), (⟨(f (3602879701896397) (-55)), (f (3602879701896397) (-55))⟩ : Itv)]))),
    .call ((Cmd.run (.op [(⟨(f (-3602879701896397) (-55)), (f (3) (-1))⟩ : Itv), (⟨(f (3602879701896397) (-55)), (f 1 0)⟩ : Itv)]))),
    .call ((Cmd.run (.op [(⟨(f (-3602879701896397) (-55)), (f (3) (-1))⟩ : Itv), (⟨(f (3602879701896397) (-55)), (f (5) (-1))⟩ : Itv)]))),
    .call ((Cmd.run (.op [(⟨(f (-3602879701896397) (-55)), (f (3) (-1))⟩ : Itv), (⟨(f (3602879701896397) (-55)), .pinf⟩ : Itv)]))),
    .call ((Cmd.run (.op [(⟨(f (-3602879701896397) (-55)), (f (3) (-1))⟩ : Itv), (⟨(f 1 0), (f 1 0)⟩ : Itv)]))),
    .call ((Cmd.run (.op [(⟨(f (-3602879701896397) (-55)), (f (3) (-1))⟩ : Itv), (⟨(f 1 0), (f (5) (-1))⟩ : Itv)]))),
    .call ((Cmd.run (.op [(⟨(f (-3602879701896397) (-55)), (f (3) (-1))⟩ : Itv), (⟨(f 1 0), .pinf⟩ : Itv)]))),
    .call ((Cmd.run (.op [(⟨(f (-3602879701896397) (-55)), (f (3) (-1))⟩ : Itv), (⟨(f (5) (-1)), (f (5) (-1))⟩ : Itv)]))),
    .call ((Cmd.run (.op [(⟨(f (-3602879701896397) (-55)), (f (3) (-1))⟩ : Itv), (⟨(f (5) (-1)), .pinf⟩ : Itv)]))),
    .call ((Cmd.run (.op [(⟨(f (-3602879701896397) (-55)), (f (3) (-1))⟩ : Itv), (⟨(f (-3602879701896397) (-55)), (f (3602879701896397) (-55))⟩ : Itv)]))),
    .call ((Cmd.run (.op [(⟨(f (-3602879701896397) (-55)), (f (3) (-1))⟩ : Itv), (⟨(f (-3602879701896397) (-55)), (f 1 0)⟩ : Itv)]))),
    .call ((Cmd.run (.op [(⟨(f (-3602879701896397) (-55)), (f (3) (-1))⟩ : Itv), (⟨(f (-3602879701896397) (-55)), (f (5) (-1))⟩ : Itv)]))),
    .call ((Cmd.run (.op [(⟨(f (-3602879701896397) (-55)), (f (3) (-1))⟩ : Itv), (⟨(f (-3602879701896397) (-55)), .pinf⟩ : Itv)]))),
    .call ((Cmd.run (.op [(⟨(f (-3602879701896397) (-55)), (f (3) (-1))⟩ : Itv), (⟨(f (-1) (0)), (f (3602879701896397) (-55))⟩ : Itv)]))),
    .call ((Cmd.run (.op [(⟨(f (-3602879701896397) (-55)), (f (3) (-1))⟩ : Itv), (⟨(f (-1) (0)), (f 1 0)⟩ : Itv)]))),
    .call ((Cmd.run (.op [(⟨(f (-3602879701896397) (-55)), (f (3) (-1))⟩ : Itv), (⟨(f (-1) (0)), (f (5) (-1))⟩ : Itv)]))),
    .call ((Cmd.run (.op [(⟨(f (-3602879701896397) (-55)), (f (3) (-1))⟩ : Itv), (⟨(f (-1) (0)), .pinf⟩ : Itv)]))),
    .call ((Cmd.run (.op [(⟨(f (-3602879701896397) (-55)), (f (3) (-1))⟩ : Itv), (⟨(f (-5) (-1)), (f (3602879701896397) (-55))⟩ : Itv)]))),
    .call ((Cmd.run (.op [(⟨(f (-3602879701896397) (-55)), (f (3) (-1))⟩ : Itv), (⟨(f (-5) (-1)), (f 1 0)⟩ : Itv)]))),
    .call ((Cmd.run (.op [(⟨(f (-3602879701896397) (-55)), (f (3) (-1))⟩ : Itv), (⟨(f (-5) (-1)), (f (5) (-1))⟩ : Itv)]))),
    .call ((Cmd.run (.op [(⟨(f (-3602879701896397) (-55)), (f (3) (-1))⟩ : Itv), (⟨(f (-5) (-1)), .pinf⟩ : Itv)]))),
    .call ((Cmd.run (.op [(⟨(f (-3602879701896397) (-55)), (f (3) (-1))⟩ : Itv), (⟨.ninf, (f (3602879701896397) (-55))⟩ : Itv)]))),
    .call ((Cmd.run (.op [(⟨(f (-3602879701896397) (-55)), (f (3) (-1))⟩ : Itv), (⟨.ninf, (f 1 0)⟩ : Itv)]))),
    .call ((Cmd.run (.op [(⟨(f (-3602879701896397) (-55)), (f (3) (-1))⟩ : Itv), (⟨.ninf, (f (5) (-1))⟩ : Itv)]))),
    .call ((Cmd.run (.op [(⟨(f (-3602879701896397) (-55)), (f (3) (-1))⟩ : Itv), (Itv.entire : Itv)]))),
    .call ((Cmd.run (.op [(⟨(f (-3602879701896397) (-55)), (f (3) (-1))⟩ : Itv), (⟨(f (-1) (0)), (f 0 0)⟩ : Itv)]))),
    .call ((Cmd.run (.op [(⟨(f (-3602879701896397) (-55)), (f (3) (-1))⟩ : Itv), (⟨(f (-1) (0)), .nzero⟩ : Itv)]))),
    .call ((Cmd.run (.op [(⟨(f (-3602879701896397) (-55)), (f (3) (-1))⟩ : Itv), (⟨(f (-5) (-1)), (f 0 0)⟩ : Itv)]))),
    .call ((Cmd.run (.op [(⟨(f (-3602879701896397) (-55)), (f (3) (-1))⟩ : Itv), (⟨(f (-5) (-1)), .nzero⟩ : Itv)]))),
    .call ((Cmd.run (.op [(⟨(f (-3602879701896397) (-55)), (f (3) (-1))⟩ : Itv), (⟨.ninf, (f 0 0)⟩ : Itv)]))),
    .call ((Cmd.run (.op [(⟨(f (-3602879701896397) (-55)), (f (3) (-1))⟩ : Itv), (⟨.ninf, .nzero⟩ : Itv)]))),
    .call ((Cmd.run (.op [(⟨(f (-3602879701896397) (-55)), (f (3) (-1))⟩ : Itv), (⟨(f (-3602879701896397) (-55)), (f (-3602879701896397) (-55))⟩ : Itv)]))),
    .call ((Cmd.run (.op [(⟨(f (-3602879701896397) (-55)), (f (3) (-1))⟩ : Itv), (⟨(f (-1) (0)), (f (-3602879701896397) (-55))⟩ : Itv)]))),
    .call ((Cmd.run (.op [(⟨(f (-3602879701896397) (-55)), (f (3) (-1))⟩ : Itv), (⟨(f (-5) (-1)), (f (-3602879701896397) (-55))⟩ : Itv)]))),
    .call ((Cmd.run (.op [(⟨(f (-3602879701896397) (-55)), (f (3) (-1))⟩ : Itv), (⟨.ninf, (f (-3602879701896397) (-55))⟩ : Itv)]))),
    .call ((Cmd.run (.op [(⟨(f (-3602879701896397) (-55)), (f (3) (-1))⟩ : Itv), (⟨(f (-1) (0)), (f (-1) (0))⟩ : Itv)]))),
    .call ((Cmd.run (.op [(⟨(f (-3602879701896397) (-55)), (f (3) (-1))⟩ : Itv), (⟨(f (-5) (-1)), (f (-1) (0))⟩ : Itv)]))),
    .call ((Cmd.run (.op [(⟨(f (-3602879701896397) (-55)), (f (3) (-1))⟩ : Itv), (⟨.ninf, (f (-1) (0))⟩ : Itv)]))),
    .call ((Cmd.run (.op [(⟨(f (-3602879701896397) (-55)), (f (3) (-1))⟩ : Itv), (⟨(f (-5) (-1)), (f (-5) (-1))⟩ : Itv)]))),
    .call ((Cmd.run (.op [(⟨(f (-3602879701896397) (-55)), (f (3) (-1))⟩ : Itv), (⟨.ninf, (f (-5) (-1))⟩ : Itv)]))),
    .call (do (Cmd.run (.op [(⟨(f (-3602879701896397) (-55)), .pinf⟩ : Itv), (Itv.empty : Itv)])); (Cmd.run (.op [(Itv.empty : Itv)]))),
    .call ((Cmd.run (.op [(⟨(f (-3602879701896397) (-55)), .pinf⟩ : Itv), (⟨(f 0 0), (f 0 0)⟩ : Itv)]))),
    .call ((Cmd.run (.op [(⟨(f (-3602879701896397) (-55)), .pinf⟩ : Itv), (⟨.nzero, .nzero⟩ : Itv)]))),
    .call ((Cmd.run (.op [(⟨(f (-3602879701896397) (-55)), .pinf⟩ : Itv), (⟨(f 0 0), (f 1 0)⟩ : Itv)]))),
    .call ((Cmd.run (.op [(⟨(f (-3602879701896397) (-55)), .pinf⟩ : Itv), (⟨.nzero, (f 1 0)⟩ : Itv)]))),
    .call ((Cmd.run (.op [(⟨(f (-3602879701896397) (-55)), .pinf⟩ : Itv), (⟨(f 0 0), (f (5) (-1))⟩ : Itv)]))),
    .call ((Cmd.run (.op [(⟨(f (-3602879701896397) (-55)), .pinf⟩ : Itv), (⟨.nzero, (f (5) (-1))⟩ : Itv)]))),
    .call ((Cmd.run (.op [(⟨(f (-3602879701896397) (-55)), .pinf⟩ : Itv), (⟨(f 0 0), .pinf⟩ : Itv)]))),
    .call ((Cmd.run (.op [(⟨(f (-3602879701896397) (-55)), .pinf⟩ : Itv), (⟨.nzero, .pinf⟩ : Itv)]))),
    .call ((Cmd.run (.op [(⟨(f (-3602879701896397) (-55)), .pinf⟩ : Itv), (⟨(f (3602879701896397) (-55)), (f (3602879701896397) (-55))⟩ : Itv)]))),
    .call ((Cmd.run (.op [(⟨(f (-3602879701896397) (-55)), .pinf⟩ : Itv), (⟨(f (3602879701896397) (-55)), (f 1 0)⟩ : Itv)]))),
    .call ((Cmd.run (.op [(⟨(f (-3602879701896397) (-55)), .pinf⟩ : Itv), (⟨(f (3602879701896397) (-55)), (f (5) (-1))⟩ : Itv)]))),
    .call ((Cmd.run (.op [(⟨(f (-3602879701896397) (-55)), .pinf⟩ : Itv), (⟨(f (3602879701896397) (-55)), .pinf⟩ : Itv)]))),
    .call ((Cmd.run (.op [(⟨(f (-3602879701896397) (-55)), .pinf⟩ : Itv), (⟨(f 1 0), (f 1 0)⟩ : Itv)]))),
    .call ((Cmd.run (.op [(⟨(f (-3602879701896397) (-55)), .pinf⟩ : Itv), (⟨(f 1 0), (f (5) (-1))⟩ : Itv)]))),
    .call ((Cmd.run (.op [(⟨(f (-3602879701896397) (-55)), .pinf⟩ : Itv), (⟨(f 1 0), .pinf⟩ : Itv)]))),
    .call ((Cmd.run (.op [(⟨(f (-3602879701896397) (-55)), .pinf⟩ : Itv), (⟨(f (5) (-1)), (f (5) (-1))⟩ : Itv)]))),
    .call ((Cmd.run (.op [(⟨(f (-3602879701896397) (-55)), .pinf⟩ : Itv), (⟨(f (5) (-1)), .pinf⟩ : Itv)]))),
    .call ((Cmd.run (.op [(⟨(f (-3602879701896397) (-55)), .pinf⟩ : Itv), (⟨(f (-3602879701896397) (-55)), (f (3602879701896397) (-55))⟩ : Itv)]))),
    .call ((Cmd.run (.op [(⟨(f (-3602879701896397) (-55)), .pinf⟩ : Itv), (⟨(f (-3602879701896397) (-55)), (f 1 0)⟩ : Itv)]))),
    .call ((Cmd.run (.op [(⟨(f (-3602879701896397) (-55)), .pinf⟩ : Itv), (⟨(f (-3602879701896397) (-55)), (f (5) (-1))⟩ : Itv)]))),
    .call ((Cmd.run (.op [(⟨(f (-3602879701896397) (-55)), .pinf⟩ : Itv), (⟨(f (-3602879701896397) (-55)), .pinf⟩ : Itv)]))),
    .call ((Cmd.run (.op [(⟨(f (-3602879701896397) (-55)), .pinf⟩ : Itv), (⟨(f (-1) (0)), (f (3602879701896397) (-55))⟩ : Itv)]))),
    .call ((Cmd.run (.op [(⟨(f (-3602879701896397) (-55)), .pinf⟩ : Itv), (⟨(f (-1) (0)), (f 1 0)⟩ : Itv)]))),
    .call ((Cmd.run (.op [(⟨(f (-3602879701896397) (-55)), .pinf⟩ : Itv), (⟨(f (-1) (0)), (f (5) (-1))⟩ : Itv)]))),
    .call ((Cmd.run (.op [(⟨(f (-3602879701896397) (-55)), .pinf⟩ : Itv), (⟨(f (-1) (0)), .pinf⟩ : Itv)]))),
    .call ((Cmd.run (.op [(⟨(f (-3602879701896397) (-55)), .pinf⟩ : Itv), (⟨(f (-5) (-1)), (f (3602879701896397) (-55))⟩ : Itv)]))),
    .call ((Cmd.run (.op [(⟨(f (-3602879701896397) (-55)), .pinf⟩ : Itv), (⟨(f (-5) (-1)), (f 1 0)⟩ : Itv)]))),
    .call ((Cmd.run (.op [(⟨(f (-3602879701896397) (-55)), .pinf⟩ : Itv), (⟨(f (-5) (-1)), (f (5) (-1))⟩ : Itv)]))),
    .call ((Cmd.run (.op [(⟨(f (-3602879701896397) (-55)), .pinf⟩ : Itv), (⟨(f (-5) (-1)), .pinf⟩ : Itv)]))),
    .call ((Cmd.run (.op [(⟨(f (-3602879701896397) (-55)), .pinf⟩ : Itv), (⟨.ninf, (f (3602879701896397) (-55))⟩ : Itv)]))),
    .call ((Cmd.run (.op [(⟨(f (-3602879701896397) (-55)), .pinf⟩ : Itv), (⟨.ninf, (f 1 0)⟩ : Itv)]))),
    .call ((Cmd.run (.op [(⟨(f (-3602879701896397) (-55)), .pinf⟩ : Itv), (⟨.ninf, (f (5) (-1))⟩ : Itv)]))),
    .call ((Cmd.run (.op [(⟨(f (-3602879701896397) (-55)), .pinf⟩ : Itv), (Itv.entire : Itv)]))),
    .call ((Cmd.run (.op [(⟨(f (-3602879701896397) (-55)), .pinf⟩ : Itv), (⟨(f (-1) (0)), (f 0 0)⟩ : Itv)]))),
    .call ((Cmd.run (.op [(⟨(f (-3602879701896397) (-55)), .pinf⟩ : Itv), (⟨(f (-1) (0)), .nzero⟩ : Itv)]))),
    .call ((Cmd.run (.op [(⟨(f (-3602879701896397) (-55)), .pinf⟩ : Itv), (⟨(f (-5) (-1)), (f 0 0)⟩ : Itv)]))),
    .call ((Cmd.run (.op [(⟨(f (-3602879701896397) (-55)), .pinf⟩ : Itv), (⟨(f (-5) (-1)), .nzero⟩ : Itv)]))),
    .call ((Cmd.run (.op [(⟨(f (-3602879701896397) (-55)), .pinf⟩ : Itv), (⟨.ninf, (f 0 0)⟩ : Itv)]))),
    .call ((Cmd.run (.op [(⟨(f (-3602879701896397) (-55)), .pinf⟩ : Itv), (⟨.ninf, .nzero⟩ : Itv)]))),
    .call ((Cmd.run (.op [(⟨(f (-3602879701896397) (-55)), .pinf⟩ : Itv), (⟨(f (-3602879701896397) (-55)), (f (-3602879701896397) (-55))⟩ : Itv)]))),
    .call ((Cmd.run (.op [(⟨(f (-3602879701896397) (-55)), .pinf⟩ : Itv), (⟨(f (-1) (0)), (f (-3602879701896397) (-55))⟩ : Itv)]))),
    .call ((Cmd.run (.op [(⟨(f (-3602879701896397) (-55)), .pinf⟩ : Itv), (⟨(f (-5) (-1)), (f (-3602879701896397) (-55))⟩ : Itv)]))),
    .call ((Cmd.run (.op [(⟨(f (-3602879701896397) (-55)), .pinf⟩ : Itv), (⟨.ninf, (f (-3602879701896397) (-55))⟩ : Itv)]))),
    .call ((Cmd.run (.op [(⟨(f (-3602879701896397) (-55)), .pinf⟩ : Itv), (⟨(f (-1) (0)), (f (-1) (0))⟩ : Itv)]))),
    .call ((Cmd.run (.op [(⟨(f (-3602879701896397) (-55)), .pinf⟩ : Itv), (⟨(f (-5) (-1)), (f (-1) (0))⟩ : Itv)]))),
    .call ((Cmd.run (.op [(⟨(f (-3602879701896397) (-55)), .pinf⟩ : Itv), (⟨.ninf, (f (-1) (0))⟩ : Itv)]))),
    .call ((Cmd.run (.op [(⟨(f (-3602879701896397) (-55)), .pinf⟩ : Itv), (⟨.ninf, (f (-5) (-1))⟩ : Itv)]))),
    .call ((Cmd.run (.op [(⟨(f (-3602879701896397) (-55)), .pinf⟩ : Itv), (⟨(f (-5) (-1)), (f (-5) (-1))⟩ : Itv)]))),
    .call (do (Cmd.run (.op [(⟨(f 0 0), (f 0 0)⟩ : Itv), (Itv.empty : Itv)])); (Cmd.run (.op [(Itv.empty : Itv)]))),
    .call (do (Cmd.run (.op [(⟨(f 0 0), (f 0 0)⟩ : Itv), (⟨(f 0 0), (f 0 0)⟩ : Itv)])); (Cmd.run (.op [(Itv.empty : Itv)]))),
    .call (do (Cmd.run (.op [(⟨(f 0 0), (f 0 0)⟩ : Itv), (⟨.nzero, .nzero⟩ : Itv)])); (Cmd.run (.op [(Itv.empty : Itv)]))),
    .call ((Cmd.run (.op [(⟨(f 0 0), (f 0 0)⟩ : Itv), (⟨(f 0 0), (f 1 0)⟩ : Itv)]))),
    .call ((Cmd.run (.op [(⟨(f 0 0), (f 0 0)⟩ : Itv), (⟨.nzero, (f 1 0)⟩ : Itv)]))),
    .call ((Cmd.run (.op [(⟨(f 0 0), (f 0 0)⟩ : Itv), (⟨(f 0 0), (f (5) (-1))⟩ : Itv)]))),
    .call ((Cmd.run (.op [(⟨(f 0 0), (f 0 0)⟩ : Itv), (⟨.nzero, (f (5) (-1))⟩ : Itv)]))),
    .call ((Cmd.run (.op [(⟨(f 0 0), (f 0 0)⟩ : Itv), (⟨(f 0 0), .pinf⟩ : Itv)]))),
    .call ((Cmd.run (.op [(⟨(f 0 0), (f 0 0)⟩ : Itv), (⟨.nzero, .pinf⟩ : Itv)]))),
    .call ((Cmd.run (.op [(⟨(f 0 0), (f 0 0)⟩ : Itv), (⟨(f (3602879701896397) (-55)), (f (3602879701896397) (-55))⟩ : Itv)]))),
    .call ((Cmd.run (.op [(⟨(f 0 0), (f 0 0)⟩ : Itv), (⟨(f (3602879701896397) (-55)), (f 1 0)⟩ : Itv)]))),
    .call ((Cmd.run (.op [(⟨(f 0 0), (f 0 0)⟩ : Itv), (⟨(f (3602879701896397) (-55)), (f (5) (-1))⟩ : Itv)]))),
    .call ((Cmd.run (.op [(⟨(f 0 0), (f 0 0)⟩ : Itv), (⟨(f (3602879701896397) (-55)), .pinf⟩ : Itv)]))),
    .call ((Cmd.run (.op [(⟨(f 0 0), (f 0 0)⟩ : Itv), (⟨(f 1 0), (f 1 0)⟩ : Itv)]))),
    .call ((Cmd.run (.op [(⟨(f 0 0), (f 0 0)⟩ : Itv), (⟨(f 1 0), (f (5) (-1))⟩ : Itv)]))),
    .call ((Cmd.run (.op [(⟨(f 0 0), (f 0 0)⟩ : Itv), (⟨(f 1 0), .pinf⟩ : Itv)]))),
    .call ((Cmd.run (.op [(⟨(f 0 0), (f 0 0)⟩ : Itv), (⟨(f (5) (-1)), (f (5) (-1))⟩ : Itv)]))),
    .call ((Cmd.run (.op [(⟨(f 0 0), (f 0 0)⟩ : Itv), (⟨(f (5) (-1)), .pinf⟩ : Itv)]))),
    .call ((Cmd.run (.op [(⟨(f 0 0), (f 0 0)⟩ : Itv), (⟨(f (-3602879701896397) (-55)), (f (3602879701896397) (-55))⟩ : Itv)]))),
    .call ((Cmd.run (.op [(⟨(f 0 0), (f 0 0)⟩ : Itv), (⟨(f (-3602879701896397) (-55)), (f 1 0)⟩ : Itv)]))),
    .call ((Cmd.run (.op [(⟨(f 0 0), (f 0 0)⟩ : Itv), (⟨(f (-3602879701896397) (-55)), (f (5) (-1))⟩ : Itv)]))),
    .call ((Cmd.run (.op [(⟨(f 0 0), (f 0 0)⟩ : Itv), (⟨(f (-3602879701896397) (-55)), .pinf⟩ : Itv)]))),
    .call ((Cmd.run (.op [(⟨(f 0 0), (f 0 0)⟩ : Itv), (⟨(f (-1) (0)), (f (3602879701896397) (-55))⟩ : Itv)]))),
    .call ((Cmd.run (.op [(⟨(f 0 0), (f 0 0)⟩ : Itv), (⟨(f (-1) (0)), (f 1 0)⟩ : Itv)]))),
    .call ((Cmd.run (.op [(⟨(f 0 0), (f 0 0)⟩ : Itv), (⟨(f (-1) (0)), (f (5) (-1))⟩ : Itv)]))),
    .call ((Cmd.run (.op [(⟨(f 0 0), (f 0 0)⟩ : Itv), (⟨(f (-1) (0)), .pinf⟩ : Itv)]))),
    .call ((Cmd.run (.op [(⟨(f 0 0), (f 0 0)⟩ : Itv), (⟨(f (-5) (-1)), (f (3602879701896397) (-55))⟩ : Itv)]))),
    .call ((Cmd.run (.op [(⟨(f 0 0), (f 0 0)⟩ : Itv), (⟨(f (-5) (-1)), (f 1 0)⟩ : Itv)]))),
    .call ((Cmd.run (.op [(⟨(f 0 0), (f 0 0)⟩ : Itv), (⟨(f (-5) (-1)), (f (5) (-1))⟩ : Itv)]))),
    .call ((Cmd.run (.op [(⟨(f 0 0), (f 0 0)⟩ : Itv), (⟨(f (-5) (-1)), .pinf⟩ : Itv)]))),
    .call ((Cmd.run (.op [(⟨(f 0 0), (f 0 0)⟩ : Itv), (⟨.ninf, (f (3602879701896397) (-55))⟩ : Itv)]))),
    .call ((Cmd.run (.op [(⟨(f 0 0), (f 0 0)⟩ : Itv), (⟨.ninf, (f 1 0)⟩ : Itv)]))),
    .call ((Cmd.run (.op [(⟨(f 0 0), (f 0 0)⟩ : Itv), (⟨.ninf, (f (5) (-1))⟩ : Itv)]))),
    .call ((Cmd.run (.op [(⟨(f 0 0), (f 0 0)⟩ : Itv), (Itv.entire : Itv)]))),
    .call (do (Cmd.run (.op [(⟨(f 0 0), (f 0 0)⟩ : Itv), (⟨(f (-1) (0)), (f 0 0)⟩ : Itv)])); (Cmd.run (.op [(Itv.empty : Itv)]))),
    .call (do (Cmd.run (.op [(⟨(f 0 0), (f 0 0)⟩ : Itv), (⟨(f (-1) (0)), .nzero⟩ : Itv)])); (Cmd.run (.op [(Itv.empty : Itv)]))),
    .call (do (Cmd.run (.op [(⟨(f 0 0), (f 0 0)⟩ : Itv), (⟨(f (-5) (-1)), (f 0 0)⟩ : Itv)])); (Cmd.run (.op [(Itv.empty : Itv)]))),
    .call (do (Cmd.run (.op [(⟨(f 0 0), (f 0 0)⟩ : Itv), (⟨(f (-5) (-1)), .nzero⟩ : Itv)])); (Cmd.run (.op [(Itv.empty : Itv)]))),
    .call (do (Cmd.run (.op [(⟨(f 0 0), (f 0 0)⟩ : Itv), (⟨.ninf, (f 0 0)⟩ : Itv)])); (Cmd.run (.op [(Itv.empty : Itv)]))),
    .call (do (Cmd.run (.op [(⟨(f 0 0), (f 0 0)⟩ : Itv), (⟨.ninf, .nzero⟩ : Itv)])); (Cmd.run (.op [(Itv.empty : Itv)]))),
    .call (do (Cmd.run (.op [(⟨(f 0 0), (f 0 0)⟩ : Itv), (⟨(f (-3602879701896397) (-55)), (f (-3602879701896397) (-55))⟩ : Itv)])); (Cmd.run (.op [(Itv.empty : Itv)]))),
    .call (do (Cmd.run (.op [(⟨(f 0 0), (f 0 0)⟩ : Itv), (⟨(f (-1) (0)), (f (-3602879701896397) (-55))⟩ : Itv)])); (Cmd.run (.op [(Itv.empty : Itv)]))),
    .call (do (Cmd.run (.op [(⟨(f 0 0), (f 0 0)⟩ : Itv), (⟨(f (-5) (-1)), (f (-3602879701896397) (-55))⟩ : Itv)])); (Cmd.run (.op [(Itv.empty : Itv)]))),
    .call (do (Cmd.run (.op [(⟨(f 0 0), (f 0 0)⟩ : Itv), (⟨.ninf, (f (-3602879701896397) (-55))⟩ : Itv)])); (Cmd.run (.op [(Itv.empty : Itv)]))),
    .call (do (Cmd.run (.op [(⟨(f 0 0), (f 0 0)⟩ : Itv), (⟨(f (-1) (0)), (f (-1) (0))⟩ : Itv)])); (Cmd.run (.op [(Itv.empty : Itv)]))),
    .call (do (Cmd.run (.op [(⟨(f 0 0), (f 0 0)⟩ : Itv), (⟨(f (-5) (-1)), (f (-1) (0))⟩ : Itv)])); (Cmd.run (.op [(Itv.empty : Itv)]))),
    .call (do (Cmd.run (.op [(⟨(f 0 0), (f 0 0)⟩ : Itv), (⟨.ninf, (f (-1) (0))⟩ : Itv)])); (Cmd.run (.op [(Itv.empty : Itv)]))),
    .call (do (Cmd.run (.op [(⟨(f 0 0), (f 0 0)⟩ : Itv), (⟨.ninf, (f (-5) (-1))⟩ : Itv)])); (Cmd.run (.op [(Itv.empty : Itv)]))),
    .call (do (Cmd.run (.op [(⟨(f 0 0), (f 0 0)⟩ : Itv), (⟨(f (-5) (-1)), (f (-5) (-1))⟩ : Itv)])); (Cmd.run (.op [(Itv.empty : Itv)]))),
    .call (do (Cmd.run (.op [(⟨.nzero, .nzero⟩ : Itv), (Itv.empty : Itv)])); (Cmd.run (.op [(Itv.empty : Itv)]))),
    .call (do (Cmd.run (.op [(⟨.nzero, .nzero⟩ : Itv), (⟨(f 0 0), (f 0 0)⟩ : Itv)])); (Cmd.run (.op [(Itv.empty : Itv)]))),
    .call (do (Cmd.run (.op [(⟨.nzero, .nzero⟩ : Itv), (⟨.nzero, .nzero⟩ : Itv)])); (Cmd.run (.op [(Itv.empty : Itv)]))),
    .call ((Cmd.run (.op [(⟨.nzero, .nzero⟩ : Itv), (⟨(f 0 0), (f 1 0)⟩ : Itv)]))),
    .call ((Cmd.run (.op [(⟨.nzero, .nzero⟩ : Itv), (⟨.nzero, (f 1 0)⟩ : Itv)]))),
    .call ((Cmd.run (.op [(⟨.nzero, .nzero⟩ : Itv), (⟨(f 0 0), (f (5) (-1))⟩ : Itv)]))),
    .call ((Cmd.run (.op [(⟨.nzero, .nzero⟩ : Itv), (⟨.nzero, (f (5) (-1))⟩ : Itv)]))),
    .call ((Cmd.run (.op [(⟨.nzero, .nzero⟩ : Itv), (⟨(f 0 0), .pinf⟩ : Itv)]))),
    .call ((Cmd.run (.op [(⟨.nzero, .nzero⟩ : Itv), (⟨.nzero, .pinf⟩ : Itv)]))),
    .call ((Cmd.run (.op [(⟨.nzero, .nzero⟩ : Itv), (⟨(f (3602879701896397) (-55)), (f (3602879701896397) (-55))⟩ : Itv)]))),
    .call ((Cmd.run (.op [(⟨.nzero, .nzero⟩ : Itv), (⟨(f (3602879701896397) (-55)), (f 1 0)⟩ : Itv)]))),
    .call ((Cmd.run (.op [(⟨.nzero, .nzero⟩ : Itv), (⟨(f (3602879701896397) (-55)), (f (5) (-1))⟩ : Itv)]))),
    .call ((Cmd.run (.op [(⟨.nzero, .nzero⟩ : Itv), (⟨(f (3602879701896397) (-55)), .pinf⟩ : Itv)]))),
    .call ((Cmd.run (.op [(⟨.nzero, .nzero⟩ : Itv), (⟨(f 1 0), (f 1 0)⟩ : Itv)]))),
    .call ((Cmd.run (.op [(⟨.nzero, .nzero⟩ : Itv), (⟨(f 1 0), (f (5) (-1))⟩ : Itv)]))),
    .call ((Cmd.run (.op [(⟨.nzero, .nzero⟩ : Itv), (⟨(f 1 0), .pinf⟩ : Itv)]))),
    .call ((Cmd.run (.op [(⟨.nzero, .nzero⟩ : Itv), (⟨(f (5) (-1)), (f (5) (-1))⟩ : Itv)]))),
    .call ((Cmd.run (.op [(⟨.nzero, .nzero⟩ : Itv), (⟨(f (5) (-1)), .pinf⟩ : Itv)]))),
    .call ((Cmd.run (.op [(⟨.nzero, .nzero⟩ : Itv), (⟨(f (-3602879701896397) (-55)), (f (3602879701896397) (-55))⟩ : Itv)]))),
    .call ((Cmd.run (.op [(⟨.nzero, .nzero⟩ : Itv), (⟨(f (-3602879701896397) (-55)), (f 1 0)⟩ : Itv)]))),
    .call ((Cmd.run (.op [(⟨.nzero, .nzero⟩ : Itv), (⟨(f (-3602879701896397) (-55)), (f (5) (-1))⟩ : Itv)]))),
    .call ((Cmd.run (.op [(⟨.nzero, .nzero⟩ : Itv), (⟨(f (-3602879701896397) (-55)), .pinf⟩ : Itv)]))),
    .call ((Cmd.run (.op [(⟨.nzero, .nzero⟩ : Itv), (⟨(f (-1) (0)), (f (3602879701896397) (-55))⟩ : Itv)]))),
    .call ((Cmd.run (.op [(⟨.nzero, .nzero⟩ : Itv), (⟨(f (-1) (0)), (f 1 0)⟩ : Itv)]))),
    .call ((Cmd.run (.op [(⟨.nzero, .nzero⟩ : Itv), (⟨(f (-1) (0)), (f (5) (-1))⟩ : Itv)]))),
    .call ((Cmd.run (.op [(⟨.nzero, .nzero⟩ : Itv), (⟨(f (-1) (0)), .pinf⟩ : Itv)]))),
    .call ((Cmd.run (.op [(⟨.nzero, .nzero⟩ : Itv), (⟨(f (-5) (-1)), (f (3602879701896397) (-55))⟩ : Itv)]))),
    .call ((Cmd.run (.op [(⟨.nzero, .nzero⟩ : Itv), (⟨(f (-5) (-1)), (f 1 0)⟩ : Itv)]))),
    .call ((Cmd.run (.op [(⟨.nzero, .nzero⟩ : Itv), (⟨(f (-5) (-1)), (f (5) (-1))⟩ : Itv)]))),
    .call ((Cmd.run (.op [(⟨.nzero, .nzero⟩ : Itv), (⟨(f (-5) (-1)), .pinf⟩ : Itv)]))),
    .call ((Cmd.run (.op [(⟨.nzero, .nzero⟩ : Itv), (⟨.ninf, (f (3602879701896397) (-55))⟩ : Itv)]))),
    .call ((Cmd.run (.op [(⟨.nzero, .nzero⟩ : Itv), (⟨.ninf, (f 1 0)⟩ : Itv)]))),
    .call ((Cmd.run (.op [(⟨.nzero, .nzero⟩ : Itv), (⟨.ninf, (f (5) (-1))⟩ : Itv)]))),
    .call ((Cmd.run (.op [(⟨.nzero, .nzero⟩ : Itv), (Itv.entire : Itv)]))),
    .call (do (Cmd.run (.op [(⟨.nzero, .nzero⟩ : Itv), (⟨(f (-1) (0)), (f 0 0)⟩ : Itv)])); (Cmd.run (.op [(Itv.empty : Itv)]))),
    .call (do (Cmd.run (.op [(⟨.nzero, .nzero⟩ : Itv), (⟨(f (-1) (0)), .nzero⟩ : Itv)])); (Cmd.run (.op [(Itv.empty : Itv)]))),
    .call (do (Cmd.run (.op [(⟨.nzero, .nzero⟩ : Itv), (⟨(f (-5) (-1)), (f 0 0)⟩ : Itv)])); (Cmd.run (.op [(Itv.empty : Itv)]))),
    .call (do (Cmd.run (.op [(⟨.nzero, .nzero⟩ : Itv), (⟨(f (-5) (-1)), .nzero⟩ : Itv)])); (Cmd.run (.op [(Itv.empty : Itv)]))),
    .call (do (Cmd.run (.op [(⟨.nzero, .nzero⟩ : Itv), (⟨.ninf, (f 0 0)⟩ : Itv)])); (Cmd.run (.op [(Itv.empty : Itv)]))),
    .call (do (Cmd.run (.op [(⟨.nzero, .nzero⟩ : Itv), (⟨.ninf, .nzero⟩ : Itv)])); (Cmd.run (.op [(Itv.empty : Itv)]))),
    .call (do (Cmd.run (.op [(⟨.nzero, .nzero⟩ : Itv), (⟨(f (-3602879701896397) (-55)), (f (-3602879701896397) (-55))⟩ : Itv)])); (Cmd.run (.op [(Itv.empty : Itv)]))),
    .call (do (Cmd.run (.op [(⟨.nzero, .nzero⟩ : Itv), (⟨(f (-1) (0)), (f (-3602879701896397) (-55))⟩ : Itv)])); (Cmd.run (.op [(Itv.empty : Itv)]))),
    .call (do (Cmd.run (.op [(⟨.nzero, .nzero⟩ : Itv), (⟨(f (-5) (-1)), (f (-3602879701896397) (-55))⟩ : Itv)])); (Cmd.run (.op [(Itv.empty : Itv)]))),
    .call (do (Cmd.run (.op [(⟨.nzero, .nzero⟩ : Itv), (⟨.ninf, (f (-3602879701896397) (-55))⟩ : Itv)])); (Cmd.run (.op [(Itv.empty : Itv)]))),
    .call (do (Cmd.run (.op [(⟨.nzero, .nzero⟩ : Itv), (⟨(f (-1) (0)), (f (-1) (0))⟩ : Itv)])); (Cmd.run (.op [(Itv.empty : Itv)]))),
    .call (do (Cmd.run (.op [(⟨.nzero, .nzero⟩ : Itv), (⟨(f (-5) (-1)), (f (-1) (0))⟩ : Itv)])); (Cmd.run (.op [(Itv.empty : Itv)]))),
    .call (do (Cmd.run (.op [(⟨.nzero, .nzero⟩ : Itv), (⟨.ninf, (f (-1) (0))⟩ : Itv)])); (Cmd.run (.op [(Itv.empty : Itv)]))),
    .call (do (Cmd.run (.op [(⟨.nzero, .nzero⟩ : Itv), (⟨.ninf, (f (-5) (-1))⟩ : Itv)])); (Cmd.run (.op [(Itv.empty : Itv)]))),
    .call (do (Cmd.run (.op [(⟨.nzero, .nzero⟩ : Itv), (⟨(f (-5) (-1)), (f (-5) (-1))⟩ : Itv)])); (Cmd.run (.op [(Itv.empty : Itv)]))),
    .call (do (Cmd.run (.op [(⟨.nzero, (f 0 0)⟩ : Itv), (Itv.empty : Itv)])); (Cmd.run (.op [(Itv.empty : Itv)]))),
    .call (do (Cmd.run (.op [(⟨.nzero, (f 0 0)⟩ : Itv), (⟨(f 0 0), (f 0 0)⟩ : Itv)])); (Cmd.run (.op [(Itv.empty : Itv)]))),
    .call (do (Cmd.run (.op [(⟨.nzero, (f 0 0)⟩ : Itv), (⟨.nzero, .nzero⟩ : Itv)])); (Cmd.run (.op [(Itv.empty : Itv)]))),
    .call ((Cmd.run (.op [(⟨.nzero, (f 0 0)⟩ : Itv), (⟨(f 0 0), (f 1 0)⟩ : Itv)]))),
    .call ((Cmd.run (.op [(⟨.nzero, (f 0 0)⟩ : Itv), (⟨.nzero, (f 1 0)⟩ : Itv)]))),
    .call ((Cmd.run (.op [(⟨.nzero, (f 0 0)⟩ : Itv), (⟨(f 0 0), (f (5) (-1))⟩ : Itv)]))),
    .call ((Cmd.run (.op [(⟨.nzero, (f 0 0)⟩ : Itv), (⟨.nzero, (f (5) (-1))⟩ : Itv)]))),
    .call ((Cmd.run (.op [(⟨.nzero, (f 0 0)⟩ : Itv), (⟨(f 0 0), .pinf⟩ : Itv)]))),
    .call ((Cmd.run (.op [(⟨.nzero, (f 0 0)⟩ : Itv), (⟨.nzero, .pinf⟩ : Itv)]))),
    .call ((Cmd.run (.op [(⟨.nzero, (f 0 0)⟩ : Itv), (⟨(f (3602879701896397) (-55)), (f (3602879701896397) (-55))⟩ : Itv)]))),
    .call ((Cmd.run (.op [(⟨.nzero, (f 0 0)⟩ : Itv), (⟨(f (3602879701896397) (-55)), (f 1 0)⟩ : Itv)]))),
    .call ((Cmd.run (.op [(⟨.nzero, (f 0 0)⟩ : Itv), (⟨(f (3602879701896397) (-55)), (f (5) (-1))⟩ : Itv)]))),
    .call ((Cmd.run (.op [(⟨.nzero, (f 0 0)⟩ : Itv), (⟨(f (3602879701896397) (-55)), .pinf⟩ : Itv)]))),
    .call ((Cmd.run (.op [(⟨.nzero, (f 0 0)⟩ : Itv), (⟨(f 1 0), (f 1 0)⟩ : Itv)]))),
    .call ((Cmd.run (.op [(⟨.nzero, (f 0 0)⟩ : Itv), (⟨(f 1 0), (f (5) (-1))⟩ : Itv)]))),
    .call ((Cmd.run (.op [(⟨.nzero, (f 0 0)⟩ : Itv), (⟨(f 1 0), .pinf⟩ : Itv)]))),
    .call ((Cmd.run (.op [(⟨.nzero, (f 0 0)⟩ : Itv), (⟨(f (5) (-1)), (f (5) (-1))⟩ : Itv)]))),
    .call ((Cmd.run (.op [(⟨.nzero, (f 0 0)⟩ : Itv), (⟨(f (5) (-1)), .pinf⟩ : Itv)]))),
    .call ((Cmd.run (.op [(⟨.nzero, (f 0 0)⟩ : Itv), (⟨(f (-3602879701896397) (-55)), (f (3602879701896397) (-55))⟩ : Itv)]))),
    .call ((Cmd.run (.op [(⟨.nzero, (f 0 0)⟩ : Itv), (⟨(f (-3602879701896397) (-55)), (f 1 0)⟩ : Itv)]))),
    .call ((Cmd.run (.op [(⟨.nzero, (f 0 0)⟩ : Itv), (⟨(f (-3602879701896397) (-55)), (f (5) (-1))⟩ : Itv)]))),
    .call ((Cmd.run (.op [(⟨.nzero, (f 0 0)⟩ : Itv), (⟨(f (-3602879701896397) (-55)), .pinf⟩ : Itv)]))),
    .call ((Cmd.run (.op [(⟨.nzero, (f 0 0)⟩ : Itv), (⟨(f (-1) (0)), (f (3602879701896397) (-55))⟩ : Itv)]))),
    .call ((Cmd.run (.op [(⟨.nzero, (f 0 0)⟩ : Itv), (⟨(f (-1) (0)), (f 1 0)⟩ : Itv)]))),
    .call ((Cmd.run (.op [(⟨.nzero, (f 0 0)⟩ : Itv), (⟨(f (-1) (0)), (f (5) (-1))⟩ : Itv)]))),
    .call ((Cmd.run (.op [(⟨.nzero, (f 0 0)⟩ : Itv), (⟨(f (-1) (0)), .pinf⟩ : Itv)]))),
    .call ((Cmd.run (.op [(⟨.nzero, (f 0 0)⟩ : Itv), (⟨(f (-5) (-1)), (f (3602879701896397) (-55))⟩ : Itv)]))),
    .call ((Cmd.run (.op [(⟨.nzero, (f 0 0)⟩ : Itv), (⟨(f (-5) (-1)), (f 1 0)⟩ : Itv)]))),
    .call ((Cmd.run (.op [(⟨.nzero, (f 0 0)⟩ : Itv), (⟨(f (-5) (-1)), (f (5) (-1))⟩ : Itv)]))),
    .call ((Cmd.run (.op [(⟨.nzero, (f 0 0)⟩ : Itv), (⟨(f (-5) (-1)), .pinf⟩ : Itv)]))),
    .call ((Cmd.run (.op [(⟨.nzero, (f 0 0)⟩ : Itv), (⟨.ninf, (f (3602879701896397) (-55))⟩ : Itv)]))),
    .call ((Cmd.run (.op [(⟨.nzero, (f 0 0)⟩ : Itv), (⟨.ninf, (f 1 0)⟩ : Itv)]))),
    .call ((Cmd.run (.op [(⟨.nzero, (f 0 0)⟩ : Itv), (⟨.ninf, (f (5) (-1))⟩ : Itv)]))),
    .call ((Cmd.run (.op [(⟨.nzero, (f 0 0)⟩ : Itv), (Itv.entire : Itv)]))),
    .call (do (Cmd.run (.op [(⟨.nzero, (f 0 0)⟩ : Itv), (⟨(f (-1) (0)), (f 0 0)⟩ : Itv)])); (Cmd.run (.op [(Itv.empty : Itv)]))),
    .call (do (Cmd.run (.op [(⟨.nzero, (f 0 0)⟩ : Itv), (⟨(f (-1) (0)), .nzero⟩ : Itv)])); (Cmd.run (.op [(Itv.empty : Itv)]))),
    .call (do (Cmd.run (.op [(⟨.nzero, (f 0 0)⟩ : Itv), (⟨(f (-5) (-1)), (f 0 0)⟩ : Itv)])); (Cmd.run (.op [(Itv.empty : Itv)]))),
    .call (do (Cmd.run (.op [(⟨.nzero, (f 0 0)⟩ : Itv), (⟨(f (-5) (-1)), .nzero⟩ : Itv)])); (Cmd.run (.op [(Itv.empty : Itv)]))),
    .call (do (Cmd.run (.op [(⟨.nzero, (f 0 0)⟩ : Itv), (⟨.ninf, (f 0 0)⟩ : Itv)])); (Cmd.run (.op [(Itv.empty : Itv)]))),
    .call (do (Cmd.run (.op [(⟨.nzero, (f 0 0)⟩ : Itv), (⟨.ninf, .nzero⟩ : Itv)])); (Cmd.run (.op [(Itv.empty : Itv)]))),
    .call (do (Cmd.run (.op [(⟨.nzero, (f 0 0)⟩ : Itv), (⟨(f (-3602879701896397) (-55)), (f (-3602879701896397) (-55))⟩ : Itv)])); (Cmd.run (.op [(Itv.empty : Itv)]))),
    .call (do (Cmd.run (.op [(⟨.nzero, (f 0 0)⟩ : Itv), (⟨(f (-1) (0)), (f (-3602879701896397) (-55))⟩ : Itv)])); (Cmd.run (.op [(Itv.empty : Itv)]))),
    .call (do (Cmd.run (.op [(⟨.nzero, (f 0 0)⟩ : Itv), (⟨(f (-5) (-1)), (f (-3602879701896397) (-55))⟩ : Itv)])); (Cmd.run (.op [(Itv.empty : Itv)]))),
    .call (do (Cmd.run (.op [(⟨.nzero, (f 0 0)⟩ : Itv), (⟨.ninf, (f (-3602879701896397) (-55))⟩ : Itv)])); (Cmd.run (.op [(Itv.empty : Itv)]))),
    .call (do (Cmd.run (.op [(⟨.nzero, (f 0 0)⟩ : Itv), (⟨(f (-1) (0)), (f (-1) (0))⟩ : Itv)])); (Cmd.run (.op [(Itv.empty : Itv)]))),
    .call (do (Cmd.run (.op [(⟨.nzero, (f 0 0)⟩ : Itv), (⟨(f (-5) (-1)), (f (-1) (0))⟩ : Itv)])); (Cmd.run (.op [(Itv.empty : Itv)]))),
    .call (do (Cmd.run (.op [(⟨.nzero, (f 0 0)⟩ : Itv), (⟨.ninf, (f (-1) (0))⟩ : Itv)])); (Cmd.run (.op [(Itv.empty : Itv)]))),
    .call (do (Cmd.run (.op [(⟨.nzero, (f 0 0)⟩ : Itv), (⟨.ninf, (f (-5) (-1))⟩ : Itv)])); (Cmd.run (.op [(Itv.empty : Itv)]))),
    .call (do (Cmd.run (.op [(⟨.nzero, (f 0 0)⟩ : Itv), (⟨(f (-5) (-1)), (f (-5) (-1))⟩ : Itv)])); (Cmd.run (.op [(Itv.empty : Itv)]))),
    .call (do (Cmd.run (.op [(⟨(f 0 0), .nzero⟩ : Itv), (Itv.empty : Itv)])); (Cmd.run (.op [(Itv.empty : Itv)]))),
    .call (do (Cmd.run (.op [(⟨(f 0 0), .nzero⟩ : Itv), (⟨(f 0 0), (f 0 0)⟩ : Itv)])); (Cmd.run (.op [(Itv.empty : Itv)]))),
    .call (do (Cmd.run (.op [(⟨(f 0 0), .nzero⟩ : Itv), (⟨.nzero, .nzero⟩ : Itv)])); (Cmd.run (.op [(Itv.empty : Itv)]))),
    .call ((Cmd.run (.op [(⟨(f 0 0), .nzero⟩ : Itv), (⟨(f 0 0), (f 1 0)⟩ : Itv)]))),
    .call ((Cmd.run (.op [(⟨(f 0 0), .nzero⟩ : Itv), (⟨.nzero, (f 1 0)⟩ : Itv)]))),
    .call ((Cmd.run (.op [(⟨(f 0 0), .nzero⟩ : Itv), (⟨(f 0 0), (f (5) (-1))⟩ : Itv)]))),
    .call ((Cmd.run (.op [(⟨(f 0 0), .nzero⟩ : Itv), (⟨.nzero, (f (5) (-1))⟩ : Itv)]))),
    .call ((Cmd.run (.op [(⟨(f 0 0), .nzero⟩ : Itv), (⟨(f 0 0), .pinf⟩ : Itv)]))),
    .call ((Cmd.run (.op [(⟨(f 0 0), .nzero⟩ : Itv), (⟨.nzero, .pinf⟩ : Itv)]))),
    .call ((Cmd.run (.op [(⟨(f 0 0), .nzero⟩ : Itv), (⟨(f (3602879701896397) (-55)), (f (3602879701896397) (-55))⟩ : Itv)]))),
    .call ((Cmd.run (.op [(⟨(f 0 0), .nzero⟩ : Itv), (⟨(f (3602879701896397) (-55)), (f 1 0)⟩ : Itv)]))),
    .call ((Cmd.run (.op [(⟨(f 0 0), .nzero⟩ : Itv), (⟨(f (3602879701896397) (-55)), (f (5) (-1))⟩ : Itv)]))),
    .call ((Cmd.run (.op [(⟨(f 0 0), .nzero⟩ : Itv), (⟨(f (3602879701896397) (-55)), .pinf⟩ : Itv)]))),
    .call ((Cmd.run (.op [(⟨(f 0 0), .nzero⟩ : Itv), (⟨(f 1 0), (f 1 0)⟩ : Itv)]))),
    .call ((Cmd.run (.op [(⟨(f 0 0), .nzero⟩ : Itv), (⟨(f 1 0), (f (5) (-1))⟩ : Itv)]))),
    .call ((Cmd.run (.op [(⟨(f 0 0), .nzero⟩ : Itv), (⟨(f 1 0), .pinf⟩ : Itv)]))),
    .call ((Cmd.run (.op [(⟨(f 0 0), .nzero⟩ : Itv), (⟨(f (5) (-1)), (f (5) (-1))⟩ : Itv)]))),
    .call ((Cmd.run (.op [(⟨(f 0 0), .nzero⟩ : Itv), (⟨(f (5) (-1)), .pinf⟩ : Itv)]))),
    .call ((Cmd.run (.op [(⟨(f 0 0), .nzero⟩ : Itv), (⟨(f (-3602879701896397) (-55)), (f (3602879701896397) (-55))⟩ : Itv)]))),
    .call ((Cmd.run (.op [(⟨(f 0 0), .nzero⟩ : Itv), (⟨(f (-3602879701896397) (-55)), (f 1 0)⟩ : Itv)]))),
    .call ((Cmd.run (.op [(⟨(f 0 0), .nzero⟩ : Itv), (⟨(f (-3602879701896397) (-55)), (f (5) (-1))⟩ : Itv)]))),
    .call ((Cmd.run (.op [(⟨(f 0 0), .nzero⟩ : Itv), (⟨(f (-3602879701896397) (-55)), .pinf⟩ : Itv)]))),
    .call ((Cmd.run (.op [(⟨(f 0 0), .nzero⟩ : Itv), (⟨(f (-1) (0)), (f (3602879701896397) (-55))⟩ : Itv)]))),
    .call ((Cmd.run (.op [(⟨(f 0 0), .nzero⟩ : Itv), (⟨(f (-1) (0)), (f 1 0)⟩ : Itv)]))),
    .call ((Cmd.run (.op [(⟨(f 0 0), .nzero⟩ : Itv), (⟨(f (-1) (0)), (f (5) (-1))⟩ : Itv)]))),
    .call ((Cmd.run (.op [(⟨(f 0 0), .nzero⟩ : Itv), (⟨(f (-1) (0)), .pinf⟩ : Itv)]))),
    .call ((Cmd.run (.op [(⟨(f 0 0), .nzero⟩ : Itv), (⟨(f (-5) (-1)), (f (3602879701896397) (-55))⟩ : Itv)]))),
    .call ((Cmd.run (.op [(⟨(f 0 0), .nzero⟩ : Itv), (⟨(f (-5) (-1)), (f 1 0)⟩ : Itv)]))),
    .call ((Cmd.run (.op [(⟨(f 0 0), .nzero⟩ : Itv), (⟨(f (-5) (-1)), (f (5) (-1))⟩ : Itv)]))),
    .call ((Cmd.run (.op [(⟨(f 0 0), .nzero⟩ : Itv), (⟨(f (-5) (-1)), .pinf⟩ : Itv)]))),
    .call ((Cmd.run (.op [(⟨(f 0 0), .nzero⟩ : Itv), (⟨.ninf, (f (3602879701896397) (-55))⟩ : Itv)]))),
    .call ((Cmd.run (.op [(⟨(f 0 0), .nzero⟩ : Itv), (⟨.ninf, (f 1 0)⟩ : Itv)]))),
    .call ((Cmd.run (.op [(⟨(f 0 0), .nzero⟩ : Itv), (⟨.ninf, (f (5) (-1))⟩ : Itv)]))),
    .call ((Cmd.run (.op [(⟨(f 0 0), .nzero⟩ : Itv), (Itv.entire : Itv)]))),
    .call (do (Cmd.run (.op [(⟨(f 0 0), .nzero⟩ : Itv), (⟨(f (-1) (0)), (f 0 0)⟩ : Itv)])); (Cmd.run (.op [(Itv.empty : Itv)]))),
    .call (do (Cmd.run (.op [(⟨(f 0 0), .nzero⟩ : Itv), (⟨(f (-1) (0)), .nzero⟩ : Itv)])); (Cmd.run (.op [(Itv.empty : Itv)]))),
    .call (do (Cmd.run (.op [(⟨(f 0 0), .nzero⟩ : Itv), (⟨(f (-5) (-1)), (f 0 0)⟩ : Itv)])); (Cmd.run (.op [(Itv.empty : Itv)]))),
    .call (do (Cmd.run (.op [(⟨(f 0 0), .nzero⟩ : Itv), (⟨(f (-5) (-1)), .nzero⟩ : Itv)])); (Cmd.run (.op [(Itv.empty : Itv)]))),
    .call (do (Cmd.run (.op [(⟨(f 0 0), .nzero⟩ : Itv), (⟨.ninf, (f 0 0)⟩ : Itv)])); (Cmd.run (.op [(Itv.empty : Itv)]))),
    .call (do (Cmd.run (.op [(⟨(f 0 0), .nzero⟩ : Itv), (⟨.ninf, .nzero⟩ : Itv)])); (Cmd.run (.op [(Itv.empty : Itv)]))),
    .call (do (Cmd.run (.op [(⟨(f 0 0), .nzero⟩ : Itv), (⟨(f (-3602879701896397) (-55)), (f (-3602879701896397) (-55))⟩ : Itv)])); (Cmd.run (.op [(Itv.empty : Itv)]))),
    .call (do (Cmd.run (.op [(⟨(f 0 0), .nzero⟩ : Itv), (⟨(f (-1) (0)), (f (-3602879701896397) (-55))⟩ : Itv)])); (Cmd.run (.op [(Itv.empty : Itv)]))),
    .call (do (Cmd.run (.op [(⟨(f 0 0), .nzero⟩ : Itv), (⟨(f (-5) (-1)), (f (-3602879701896397) (-55))⟩ : Itv)])); (Cmd.run (.op [(Itv.empty : Itv)]))),
    .call (do (Cmd.run (.op [(⟨(f 0 0), .nzero⟩ : Itv), (⟨.ninf, (f (-3602879701896397) (-55))⟩ : Itv)])); (Cmd.run (.op [(Itv.empty : Itv)]))),
    .call (do (Cmd.run (.op [(⟨(f 0 0), .nzero⟩ : Itv), (⟨(f (-1) (0)), (f (-1) (0))⟩ : Itv)])); (Cmd.run (.op [(Itv.empty : Itv)]))),
    .call (do (Cmd.run (.op [(⟨(f 0 0), .nzero⟩ : Itv), (⟨(f (-5) (-1)), (f (-1) (0))⟩ : Itv)])); (Cmd.run (.op [(Itv.empty : Itv)]))),
    .call (do (Cmd.run (.op [(⟨(f 0 0), .nzero⟩ : Itv), (⟨.ninf, (f (-1) (0))⟩ : Itv)])); (Cmd.run (.op [(Itv.empty : Itv)]))),
    .call (do (Cmd.run (.op [(⟨(f 0 0), .nzero⟩ : Itv), (⟨.ninf, (f (-5) (-1))⟩ : Itv)])); (Cmd.run (.op [(Itv.empty : Itv)]))),
    .call (do (Cmd.run (.op [(⟨(f 0 0), .nzero⟩ : Itv), (⟨(f (-5) (-1)), (f (-5) (-1))⟩ : Itv)])); (Cmd.run (.op [(Itv.empty : Itv)]))),
    .call (do (Cmd.run (.op [(⟨(f (-1) (0)), (f 0 0)⟩ : Itv), (Itv.empty : Itv)])); (Cmd.run (.op [(Itv.empty : Itv)]))),
    .call (do (Cmd.run (.op [(⟨(f (-1) (0)), (f 0 0)⟩ : Itv), (⟨(f 0 0), (f 0 0)⟩ : Itv)])); (Cmd.run (.op [(Itv.empty : Itv)]))),
    .call (do (Cmd.run (.op [(⟨(f (-1) (0)), (f 0 0)⟩ : Itv), (⟨.nzero, .nzero⟩ : Itv)])); (Cmd.run (.op [(Itv.empty : Itv)]))),
    .call ((Cmd.run (.op [(⟨(f (-1) (0)), (f 0 0)⟩ : Itv), (⟨(f 0 0), (f 1 0)⟩ : Itv)]))),
    .call ((Cmd.run (.op [(⟨(f (-1) (0)), (f 0 0)⟩ : Itv), (⟨.nzero, (f 1 0)⟩ : Itv)]))),
    .call ((Cmd.run (.op [(⟨(f (-1) (0)), (f 0 0)⟩ : Itv), (⟨(f 0 0), (f (5) (-1))⟩ : Itv)]))),
    .call ((Cmd.run (.op [(⟨(f (-1) (0)), (f 0 0)⟩ : Itv), (⟨.nzero, (f (5) (-1))⟩ : Itv)]))),
    .call ((Cmd.run (.op [(⟨(f (-1) (0)), (f 0 0)⟩ : Itv), (⟨(f 0 0), .pinf⟩ : Itv)]))),
    .call ((Cmd.run (.op [(⟨(f (-1) (0)), (f 0 0)⟩ : Itv), (⟨.nzero, .pinf⟩ : Itv)]))),
    .call ((Cmd.run (.op [(⟨(f (-1) (0)), (f 0 0)⟩ : Itv), (⟨(f (3602879701896397) (-55)), (f (3602879701896397) (-55))⟩ : Itv)]))),
    .call ((Cmd.run (.op [(⟨(f (-1) (0)), (f 0 0)⟩ : Itv), (⟨(f (3602879701896397) (-55)), (f 1 0)⟩ : Itv)]))),
    .call ((Cmd.run (.op [(⟨(f (-1) (0)), (f 0 0)⟩ : Itv), (⟨(f (3602879701896397) (-55)), (f (5) (-1))⟩ : Itv)]))),
    .call ((Cmd.run (.op [(⟨(f (-1) (0)), (f 0 0)⟩ : Itv), (⟨(f (3602879701896397) (-55)), .pinf⟩ : Itv)]))),
    .call ((Cmd.run (.op [(⟨(f (-1) (0)), (f 0 0)⟩ : Itv), (⟨(f 1 0), (f 1 0)⟩ : Itv)]))),
    .call ((Cmd.run (.op [(⟨(f (-1) (0)), (f 0 0)⟩ : Itv), (⟨(f 1 0), (f (5) (-1))⟩ : Itv)]))),
    .call ((Cmd.run (.op [(⟨(f (-1) (0)), (f 0 0)⟩ : Itv), (⟨(f 1 0), .pinf⟩ : Itv)]))),
    .call ((Cmd.run (.op [(⟨(f (-1) (0)), (f 0 0)⟩ : Itv), (⟨(f (5) (-1)), (f (5) (-1))⟩ : Itv)]))),
    .call ((Cmd.run (.op [(⟨(f (-1) (0)), (f 0 0)⟩ : Itv), (⟨(f (5) (-1)), .pinf⟩ : Itv)]))),
    .call ((Cmd.run (.op [(⟨(f (-1) (0)), (f 0 0)⟩ : Itv), (⟨(f (-3602879701896397) (-55)), (f (3602879701896397) (-55))⟩ : Itv)]))),
    .call ((Cmd.run (.op [(⟨(f (-1) (0)), (f 0 0)⟩ : Itv), (⟨(f (-3602879701896397) (-55)), (f 1 0)⟩ : Itv)]))),
    .call ((Cmd.run (.op [(⟨(f (-1) (0)), (f 0 0)⟩ : Itv), (⟨(f (-3602879701896397) (-55)), (f (5) (-1))⟩ : Itv)]))),
    .call ((Cmd.run (.op [(⟨(f (-1) (0)), (f 0 0)⟩ : Itv), (⟨(f (-3602879701896397) (-55)), .pinf⟩ : Itv)]))),
    .call ((Cmd.run (.op [(⟨(f (-1) (0)), (f 0 0)⟩ : Itv), (⟨(f (-1) (0)), (f (3602879701896397) (-55))⟩ : Itv)]))),
    .call ((Cmd.run (.op [(⟨(f (-1) (0)), (f 0 0)⟩ : Itv), (⟨(f (-1) (0)), (f 1 0)⟩ : Itv)]))),
    .call ((Cmd.run (.op [(⟨(f (-1) (0)), (f 0 0)⟩ : Itv), (⟨(f (-1) (0)), (f (5) (-1))⟩ : Itv)]))),
    .call ((Cmd.run (.op [(⟨(f (-1) (0)), (f 0 0)⟩ : Itv), (⟨(f (-1) (0)), .pinf⟩ : Itv)]))),
    .call ((Cmd.run (.op [(⟨(f (-1) (0)), (f 0 0)⟩ : Itv), (⟨(f (-5) (-1)), (f (3602879701896397) (-55))⟩ : Itv)]))),
    .call ((Cmd.run (.op [(⟨(f (-1) (0)), (f 0 0)⟩ : Itv), (⟨(f (-5) (-1)), (f 1 0)⟩ : Itv)]))),
    .call ((Cmd.run (.op [(⟨(f (-1) (0)), (f 0 0)⟩ : Itv), (⟨(f (-5) (-1)), (f (5) (-1))⟩ : Itv)]))),
    .call ((Cmd.run (.op [(⟨(f (-1) (0)), (f 0 0)⟩ : Itv), (⟨(f (-5) (-1)), .pinf⟩ : Itv)]))),
    .call ((Cmd.run (.op [(⟨(f (-1) (0)), (f 0 0)⟩ : Itv), (⟨.ninf, (f (3602879701896397) (-55))⟩ : Itv)]))),
    .call ((Cmd.run (.op [(⟨(f (-1) (0)), (f 0 0)⟩ : Itv), (⟨.ninf, (f 1 0)⟩ : Itv)]))),
    .call ((Cmd.run (.op [(⟨(f (-1) (0)), (f 0 0)⟩ : Itv), (⟨.ninf, (f (5) (-1))⟩ : Itv)]))),
    .call ((Cmd.run (.op [(⟨(f (-1) (0)), (f 0 0)⟩ : Itv), (Itv.entire : Itv)]))),
    .call (do (Cmd.run (.op [(⟨(f (-1) (0)), (f 0 0)⟩ : Itv), (⟨(f (-1) (0)), (f 0 0)⟩ : Itv)])); (Cmd.run (.op [(Itv.empty : Itv)]))),
    .call (do (Cmd.run (.op [(⟨(f (-1) (0)), (f 0 0)⟩ : Itv), (⟨(f (-1) (0)), .nzero⟩ : Itv)])); (Cmd.run (.op [(Itv.empty : Itv)]))),
    .call (do (Cmd.run (.op [(⟨(f (-1) (0)), (f 0 0)⟩ : Itv), (⟨(f (-5) (-1)), (f 0 0)⟩ : Itv)])); (Cmd.run (.op [(Itv.empty : Itv)]))),
    .call (do (Cmd.run (.op [(⟨(f (-1) (0)), (f 0 0)⟩ : Itv), (⟨(f (-5) (-1)), .nzero⟩ : Itv)])); (Cmd.run (.op [(Itv.empty : Itv)]))),
    .call (do (Cmd.run (.op [(⟨(f (-1) (0)), (f 0 0)⟩ : Itv), (⟨.ninf, (f 0 0)⟩ : Itv)])); (Cmd.run (.op [(Itv.empty : Itv)]))),
    .call (do (Cmd.run (.op [(⟨(f (-1) (0)), (f 0 0)⟩ : Itv), (⟨.ninf, .nzero⟩ : Itv)])); (Cmd.run (.op [(Itv.empty : Itv)]))),
    .call (do (Cmd.run (.op [(⟨(f (-1) (0)), (f 0 0)⟩ : Itv), (⟨(f (-3602879701896397) (-55)), (f (-3602879701896397) (-55))⟩ : Itv)])); (Cmd.run (.op [(Itv.empty : Itv)]))),
    .call (do (Cmd.run (.op [(⟨(f (-1) (0)), (f 0 0)⟩ : Itv), (⟨(f (-1) (0)), (f (-3602879701896397) (-55))⟩ : Itv)])); (Cmd.run (.op [(Itv.empty : Itv)]))),
    .call (do (Cmd.run (.op [(⟨(f (-1) (0)), (f 0 0)⟩ : Itv), (⟨(f (-5) (-1)), (f (-3602879701896397) (-55))⟩ : Itv)])); (Cmd.run (.op [(Itv.empty : Itv)]))),
    .call (do (Cmd.run (.op [(⟨(f (-1) (0)), (f 0 0)⟩ : Itv), (⟨.ninf, (f (-3602879701896397) (-55))⟩ : Itv)])); (Cmd.run (.op [(Itv.empty : Itv)]))),
    .call (do (Cmd.run (.op [(⟨(f (-1) (0)), (f 0 0)⟩ : Itv), (⟨(f (-1) (0)), (f (-1) (0))⟩ : Itv)])); (Cmd.run (.op [(Itv.empty : Itv)]))),
    .call (do (Cmd.run (.op [(⟨(f (-1) (0)), (f 0 0)⟩ : Itv), (⟨(f (-5) (-1)), (f (-1) (0))⟩ : Itv)])); (Cmd.run (.op [(Itv.empty : Itv)]))),
    .call (do (Cmd.run (.op [(⟨(f (-1) (0)), (f 0 0)⟩ : Itv), (⟨.ninf, (f (-1) (0))⟩ : Itv)])); (Cmd.run (.op [(Itv.empty : Itv)]))),
    .call (do (Cmd.run (.op [(⟨(f (-1) (0)), (f 0 0)⟩ : Itv), (⟨.ninf, (f (-5) (-1))⟩ : Itv)])); (Cmd.run (.op [(Itv.empty : Itv)]))),
    .call (do (Cmd.run (.op [(⟨(f (-1) (0)), (f 0 0)⟩ : Itv), (⟨(f (-5) (-1)), (f (-5) (-1))⟩ : Itv)])); (Cmd.run (.op [(Itv.empty : Itv)]))),
    .call (do (Cmd.run (.op [(⟨(f (-1) (0)), .nzero⟩ : Itv), (Itv.empty : Itv)])); (Cmd.run (.op [(Itv.empty : Itv)]))),
    .call (do (Cmd.run (.op [(⟨(f (-1) (0)), .nzero⟩ : Itv), (⟨(f 0 0), (f 0 0)⟩ : Itv)])); (Cmd.run (.op [(Itv.empty : Itv)]))),
    .call (do (Cmd.run (.op [(⟨(f (-1) (0)), .nzero⟩ : Itv), (⟨.nzero, .nzero⟩ : Itv)])); (Cmd.run (.op [(Itv.empty : Itv)]))),
    .call ((Cmd.run (.op [(⟨(f (-1) (0)), .nzero⟩ : Itv), (⟨(f 0 0), (f 1 0)⟩ : Itv)]))),
    .call ((Cmd.run (.op [(⟨(f (-1) (0)), .nzero⟩ : Itv), (⟨.nzero, (f 1 0)⟩ : Itv)]))),
    .call ((Cmd.run (.op [(⟨(f (-1) (0)), .nzero⟩ : Itv), (⟨(f 0 0), (f (5) (-1))⟩ : Itv)]))),
    .call ((Cmd.run (.op [(⟨(f (-1) (0)), .nzero⟩ : Itv), (⟨.nzero, (f (5) (-1))⟩ : Itv)]))),
    .call ((Cmd.run (.op [(⟨(f (-1) (0)), .nzero⟩ : Itv), (⟨(f 0 0), .pinf⟩ : Itv)]))),
    .call ((Cmd.run (.op [(⟨(f (-1) (0)), .nzero⟩ : Itv), (⟨.nzero, .pinf⟩ : Itv)]))),
    .call ((Cmd.run (.op [(⟨(f (-1) (0)), .nzero⟩ : Itv), (⟨(f (3602879701896397) (-55)), (f (3602879701896397) (-55))⟩ : Itv)]))),
    .call ((Cmd.run (.op [(⟨(f (-1) (0)), .nzero⟩ : Itv), (⟨(f (3602879701896397) (-55)), (f 1 0)⟩ : Itv)]))),
    .call ((Cmd.run (.op [(⟨(f (-1) (0)), .nzero⟩ : Itv), (⟨(f (3602879701896397) (-55)), (f (5) (-1))⟩ : Itv)]))),
    .call ((Cmd.run (.op [(⟨(f (-1) (0)), .nzero⟩ : Itv), (⟨(f (3602879701896397) (-55)), .pinf⟩ : Itv)]))),
    .call ((Cmd.run (.op [(⟨(f (-1) (0)), .nzero⟩ : Itv), (⟨(f 1 0), (f 1 0)⟩ : Itv)]))),
    .call ((Cmd.run (.op [(⟨(f (-1) (0)), .nzero⟩ : Itv), (⟨(f 1 0), (f (5) (-1))⟩ : Itv)]))),
    .call ((Cmd.run (.op [(⟨(f (-1) (0)), .nzero⟩ : Itv), (⟨(f 1 0), .pinf⟩ : Itv)]))),
    .call ((Cmd.run (.op [(⟨(f (-1) (0)), .nzero⟩ : Itv), (⟨(f (5) (-1)), (f (5) (-1))⟩ : Itv)]))),
    .call ((Cmd.run (.op [(⟨(f (-1) (0)), .nzero⟩ : Itv), (⟨(f (5) (-1)), .pinf⟩ : Itv)]))),
    .call ((Cmd.run (.op [(⟨(f (-1) (0)), .nzero⟩ : Itv), (⟨(f (-3602879701896397) (-55)), (f (3602879701896397) (-55))⟩ : Itv)]))),
    .call ((Cmd.run (.op [(⟨(f (-1) (0)), .nzero⟩ : Itv), (⟨(f (-3602879701896397) (-55)), (f 1 0)⟩ : Itv)]))),
    .call ((Cmd.run (.op [(⟨(f (-1) (0)), .nzero⟩ : Itv), (⟨(f (-3602879701896397) (-55)), (f (5) (-1))⟩ : Itv)]))),
    .call ((Cmd.run (.op [(⟨(f (-1) (0)), .nzero⟩ : Itv), (⟨(f (-3602879701896397) (-55)), .pinf⟩ : Itv)]))),
    .call ((Cmd.run (.op [(⟨(f (-1) (0)), .nzero⟩ : Itv), (⟨(f (-1) (0)), (f (3602879701896397) (-55))⟩ : Itv)]))),
    .call ((Cmd.run (.op [(⟨(f (-1) (0)), .nzero⟩ : Itv), (⟨(f (-1) (0)), (f 1 0)⟩ : Itv)]))),
    .call ((Cmd.run (.op [(⟨(f (-1) (0)), .nzero⟩ : Itv), (⟨(f (-1) (0)), (f (5) (-1))⟩ : Itv)]))),
    .call ((Cmd.run (.op [(⟨(f (-1) (0)), .nzero⟩ : Itv), (⟨(f (-1) (0)), .pinf⟩ : Itv)]))),
    .call ((Cmd.run (.op [(⟨(f (-1) (0)), .nzero⟩ : Itv), (⟨(f (-5) (-1)), (f (3602879701896397) (-55))⟩ : Itv)]))),
    .call ((Cmd.run (.op [(⟨(f (-1) (0)), .nzero⟩ : Itv), (⟨(f (-5) (-1)), (f 1 0)⟩ : Itv)]))),
    .call ((Cmd.run (.op [(⟨(f (-1) (0)), .nzero⟩ : Itv), (⟨(f (-5) (-1)), (f (5) (-1))⟩ : Itv)]))),
    .call ((Cmd.run (.op [(⟨(f (-1) (0)), .nzero⟩ : Itv), (⟨(f (-5) (-1)), .pinf⟩ : Itv)]))),
    .call ((Cmd.run (.op [(⟨(f (-1) (0)), .nzero⟩ : Itv), (⟨.ninf, (f (3602879701896397) (-55))⟩ : Itv)]))),
    .call ((Cmd.run (.op [(⟨(f (-1) (0)), .nzero⟩ : Itv), (⟨.ninf, (f 1 0)⟩ : Itv)]))),
    .call ((Cmd.run (.op [(⟨(f (-1) (0)), .nzero⟩ : Itv), (⟨.ninf, (f (5) (-1))⟩ : Itv)]))),
    .call ((Cmd.run (.op [(⟨(f (-1) (0)), .nzero⟩ : Itv), (Itv.entire : Itv)]))),
    .call (do (Cmd.run (.op [(⟨(f (-1) (0)), .nzero⟩ : Itv), (⟨(f (-1) (0)), (f 0 0)⟩ : Itv)])); (Cmd.run (.op [(Itv.empty : Itv)]))),
    .call (do (Cmd.run (.op [(⟨(f (-1) (0)), .nzero⟩ : Itv), (⟨(f (-1) (0)), .nzero⟩ : Itv)])); (Cmd.run (.op [(Itv.empty : Itv)]))),
    .call (do (Cmd.run (.op [(⟨(f (-1) (0)), .nzero⟩ : Itv), (⟨(f (-5) (-1)), (f 0 0)⟩ : Itv)])); (Cmd.run (.op [(Itv.empty : Itv)]))),
    .call (do (Cmd.run (.op [(⟨(f (-1) (0)), .nzero⟩ : Itv), (⟨(f (-5) (-1)), .nzero⟩ : Itv)])); (Cmd.run (.op [(Itv.empty : Itv)]))),
    .call (do (Cmd.run (.op [(⟨(f (-1) (0)), .nzero⟩ : Itv), (⟨.ninf, (f 0 0)⟩ : Itv)])); (Cmd.run (.op [(Itv.empty : Itv)]))),
    .call (do (Cmd.run (.op [(⟨(f (-1) (0)), .nzero⟩ : Itv), (⟨.ninf, .nzero⟩ : Itv)])); (Cmd.run (.op [(Itv.empty : Itv)]))),
    .call (do (Cmd.run (.op [(⟨(f (-1) (0)), .nzero⟩ : Itv), (⟨(f (-3602879701896397) (-55)), (f (-3602879701896397) (-55))⟩ : Itv)])); (Cmd.run (.op [(Itv.empty : Itv)]))),
    .call (do (Cmd.run (.op [(⟨(f (-1) (0)), .nzero⟩ : Itv), (⟨(f (-1) (0)), (f (-3602879701896397) (-55))⟩ : Itv)])); (Cmd.run (.op [(Itv.empty : Itv)]))),
    .call (do (Cmd.run (.op [(⟨(f (-1) (0)), .nzero⟩ : Itv), (⟨(f (-5) (-1)), (f (-3602879701896397) (-55))⟩ : Itv)])); (Cmd.run (.op [(Itv.empty : Itv)]))),
    .call (do (Cmd.run (.op [(⟨(f (-1) (0)), .nzero⟩ : Itv), (⟨.ninf, (f (-3602879701896397) (-55))⟩ : Itv)])); (Cmd.run (.op [(Itv.empty : Itv)]))),
    .call (do (Cmd.run (.op [(⟨(f (-1) (0)), .nzero⟩ : Itv), (⟨(f (-1) (0)), (f (-1) (0))⟩ : Itv)])); (Cmd.run (.op [(Itv.empty : Itv)]))),
    .call (do (Cmd.run (.op [(⟨(f (-1) (0)), .nzero⟩ : Itv), (⟨(f (-5) (-1)), (f (-1) (0))⟩ : Itv)])); (Cmd.run (.op [(Itv.empty : Itv)]))),
    .call (do (Cmd.run (.op [(⟨(f (-1) (0)), .nzero⟩ : Itv), (⟨.ninf, (f (-1) (0))⟩ : Itv)])); (Cmd.run (.op [(Itv.empty : Itv)]))),
    .call (do (Cmd.run (.op [(⟨(f (-1) (0)), .nzero⟩ : Itv), (⟨.ninf, (f (-5) (-1))⟩ : Itv)])); (Cmd.run (.op [(Itv.empty : Itv)]))),
    .call (do (Cmd.run (.op [(⟨(f (-1) (0)), .nzero⟩ : Itv), (⟨(f (-5) (-1)), (f (-5) (-1))⟩ : Itv)])); (Cmd.run (.op [(Itv.empty : Itv)]))),
    .call (do (Cmd.run (.op [(⟨(f (-1) (0)), (f (-3602879701896397) (-55))⟩ : Itv), (Itv.empty : Itv)])); (Cmd.run (.op [(Itv.empty : Itv)]))),
    .call (do (Cmd.run (.op [(⟨(f (-1) (0)), (f (-3602879701896397) (-55))⟩ : Itv), (⟨(f 0 0), (f 0 0)⟩ : Itv)])); (Cmd.run (.op [(Itv.empty : Itv)]))),
    .call (do (Cmd.run (.op [(⟨(f (-1) (0)), (f (-3602879701896397) (-55))⟩ : Itv), (⟨.nzero, .nzero⟩ : Itv)])); (Cmd.run (.op [(Itv.empty : Itv)]))),
    .call (do (Cmd.run (.op [(⟨(f (-1) (0)), (f (-3602879701896397) (-55))⟩ : Itv), (⟨(f 0 0), (f 1 0)⟩ : Itv)])); (Cmd.run (.op [(Itv.empty : Itv)]))),
    .call (do (Cmd.run (.op [(⟨(f (-1) (0)), (f (-3602879701896397) (-55))⟩ : Itv), (⟨.nzero, (f 1 0)⟩ : Itv)])); (Cmd.run (.op [(Itv.empty : Itv)]))),
    .call (do (Cmd.run (.op [(⟨(f (-1) (0)), (f (-3602879701896397) (-55))⟩ : Itv), (⟨(f 0 0), (f (5) (-1))⟩ : Itv)])); (Cmd.run (.op [(Itv.empty : Itv)]))),
    .call (do (Cmd.run (.op [(⟨(f (-1) (0)), (f (-3602879701896397) (-55))⟩ : Itv), (⟨.nzero, (f (5) (-1))⟩ : Itv)])); (Cmd.run (.op [(Itv.empty : Itv)]))),
    .call (do (Cmd.run (.op [(⟨(f (-1) (0)), (f (-3602879701896397) (-55))⟩ : Itv), (⟨(f 0 0), .pinf⟩ : Itv)])); (Cmd.run (.op [(Itv.empty : Itv)]))),
    .call (do (Cmd.run (.op [(⟨(f (-1) (0)), (f (-3602879701896397) (-55))⟩ : Itv), (⟨.nzero, .pinf⟩ : Itv)])); (Cmd.run (.op [(Itv.empty : Itv)]))),
    .call (do (Cmd.run (.op [(⟨(f (-1) (0)), (f (-3602879701896397) (-55))⟩ : Itv), (⟨(f (3602879701896397) (-55)), (f (3602879701896397) (-55))⟩ : Itv)])); (Cmd.run (.op [(Itv.empty : Itv)]))),
    .call (do (Cmd.run (.op [(⟨(f (-1) (0)), (f (-3602879701896397) (-55))⟩ : Itv), (⟨(f (3602879701896397) (-55)), (f 1 0)⟩ : Itv)])); (Cmd.run (.op [(Itv.empty : Itv)]))),
    .call (do (Cmd.run (.op [(⟨(f (-1) (0)), (f (-3602879701896397) (-55))⟩ : Itv), (⟨(f (3602879701896397) (-55)), (f (5) (-1))⟩ : Itv)])); (Cmd.run (.op [(Itv.empty : Itv)]))),
    .call (do (Cmd.run (.op [(⟨(f (-1) (0)), (f (-3602879701896397) (-55))⟩ : Itv), (⟨(f (3602879701896397) (-55)), .pinf⟩ : Itv)])); (Cmd.run (.op [(Itv.empty : Itv)]))),
    .call (do (Cmd.run (.op [(⟨(f (-1) (0)), (f (-3602879701896397) (-55))⟩ : Itv), (⟨(f 1 0), (f 1 0)⟩ : Itv)])); (Cmd.run (.op [(Itv.empty : Itv)]))),
    .call (do (Cmd.run (.op [(⟨(f (-1) (0)), (f (-3602879701896397) (-55))⟩ : Itv), (⟨(f 1 0), (f (5) (-1))⟩ : Itv)])); (Cmd.run (.op [(Itv.empty : Itv)]))),
    .call (do (Cmd.run (.op [(⟨(f (-1) (0)), (f (-3602879701896397) (-55))⟩ : Itv), (⟨(f 1 0), .pinf⟩ : Itv)])); (Cmd.run (.op [(Itv.empty : Itv)]))),
    .call (do (Cmd.run (.op [(⟨(f (-1) (0)), (f (-3602879701896397) (-55))⟩ : Itv), (⟨(f (5) (-1)), (f (5) (-1))⟩ : Itv)])); (Cmd.run (.op [(Itv.empty : Itv)]))),
    .call (do (Cmd.run (.op [(⟨(f (-1) (0)), (f (-3602879701896397) (-55))⟩ : Itv), (⟨(f (5) (-1)), .pinf⟩ : Itv)])); (Cmd.run (.op [(Itv.empty : Itv)]))),
    .call (do (Cmd.run (.op [(⟨(f (-1) (0)), (f (-3602879701896397) (-55))⟩ : Itv), (⟨(f (-3602879701896397) (-55)), (f (3602879701896397) (-55))⟩ : Itv)])); (Cmd.run (.op [(Itv.empty : Itv)]))),
    .call (do (Cmd.run (.op [(⟨(f (-1) (0)), (f (-3602879701896397) (-55))⟩ : Itv), (⟨(f (-3602879701896397) (-55)), (f 1 0)⟩ : Itv)])); (Cmd.run (.op [(Itv.empty : Itv)]))),
    .call (do (Cmd.run (.op [(⟨(f (-1) (0)), (f (-3602879701896397) (-55))⟩ : Itv), (⟨(f (-3602879701896397) (-55)), (f (5) (-1))⟩ : Itv)])); (Cmd.run (.op [(Itv.empty : Itv)]))),
    .call (do (Cmd.run (.op [(⟨(f (-1) (0)), (f (-3602879701896397) (-55))⟩ : Itv), (⟨(f (-3602879701896397) (-55)), .pinf⟩ : Itv)])); (Cmd.run (.op [(Itv.empty : Itv)]))),
    .call (do (Cmd.run (.op [(⟨(f (-1) (0)), (f (-3602879701896397) (-55))⟩ : Itv), (⟨(f (-1) (0)), (f (3602879701896397) (-55))⟩ : Itv)])); (Cmd.run (.op [(Itv.empty : Itv)]))),
    .call (do (Cmd.run (.op [(⟨(f (-1) (0)), (f (-3602879701896397) (-55))⟩ : Itv), (⟨(f (-1) (0)), (f 1 0)⟩ : Itv)])); (Cmd.run (.op [(Itv.empty : Itv)]))),
    .call (do (Cmd.run (.op [(⟨(f (-1) (0)), (f (-3602879701896397) (-55))⟩ : Itv), (⟨(f (-1) (0)), (f (5) (-1))⟩ : Itv)])); (Cmd.run (.op [(Itv.empty : Itv)]))),
    .call (do (Cmd.run (.op [(⟨(f (-1) (0)), (f (-3602879701896397) (-55))⟩ : Itv), (⟨(f (-1) (0)), .pinf⟩ : Itv)])); (Cmd.run (.op [(Itv.empty : Itv)]))),
    .call (do (Cmd.run (.op [(⟨(f (-1) (0)), (f (-3602879701896397) (-55))⟩ : Itv), (⟨(f (-5) (-1)), (f (3602879701896397) (-55))⟩ : Itv)])); (Cmd.run (.op [(Itv.empty : Itv)]))),
    .call (do (Cmd.run (.op [(⟨(f (-1) (0)), (f (-3602879701896397) (-55))⟩ : Itv), (⟨(f (-5) (-1)), (f 1 0)⟩ : Itv)])); (Cmd.run (.op [(Itv.empty : Itv)]))),
    .call (do (Cmd.run (.op [(⟨(f (-1) (0)), (f (-3602879701896397) (-55))⟩ : Itv), (⟨(f (-5) (-1)), (f (5) (-1))⟩ : Itv)])); (Cmd.run (.op [(Itv.empty : Itv)]))),
    .call (do (Cmd.run (.op [(⟨(f (-1) (0)), (f (-3602879701896397) (-55))⟩ : Itv), (⟨(f (-5) (-1)), .pinf⟩ : Itv)])); (Cmd.run (.op [(Itv.empty : Itv)]))),
    .call (do (Cmd.run (.op [(⟨(f (-1) (0)), (f (-3602879701896397) (-55))⟩ : Itv), (⟨.ninf, (f (3602879701896397) (-55))⟩ : Itv)])); (Cmd.run (.op [(Itv.empty : Itv)]))),
    .call (do (Cmd.run (.op [(⟨(f (-1) (0)), (f (-3602879701896397) (-55))⟩ : Itv), (⟨.ninf, (f 1 0)⟩ : Itv)])); (Cmd.run (.op [(Itv.empty : Itv)]))),
    .call (do (Cmd.run (.op [(⟨(f (-1) (0)), (f (-3602879701896397) (-55))⟩ : Itv), (⟨.ninf, (f (5) (-1))⟩ : Itv)])); (Cmd.run (.op [(Itv.empty : Itv)]))),
    .call (do (Cmd.run (.op [(⟨(f (-1) (0)), (f (-3602879701896397) (-55))⟩ : Itv), (Itv.entire : Itv)])); (Cmd.run (.op [(Itv.empty : Itv)]))),
    .call (do (Cmd.run (.op [(⟨(f (-1) (0)), (f (-3602879701896397) (-55))⟩ : Itv), (⟨(f (-1) (0)), (f 0 0)⟩ : Itv)])); (Cmd.run (.op [(Itv.empty : Itv)]))),
    .call (do (Cmd.run (.op [(⟨(f (-1) (0)), (f (-3602879701896397) (-55))⟩ : Itv), (⟨(f (-1) (0)), .nzero⟩ : Itv)])); (Cmd.run (.op [(Itv.empty : Itv)]))),
    .call (do (Cmd.run (.op [(⟨(f (-1) (0)), (f (-3602879701896397) (-55))⟩ : Itv), (⟨(f (-5) (-1)), (f 0 0)⟩ : Itv)])); (Cmd.run (.op [(Itv.empty : Itv)]))),
    .call (do (Cmd.run (.op [(⟨(f (-1) (0)), (f (-3602879701896397) (-55))⟩ : Itv), (⟨(f (-5) (-1)), .nzero⟩ : Itv)])); (Cmd.run (.op [(Itv.empty : Itv)]))),
    .call (do (Cmd.run (.op [(⟨(f (-1) (0)), (f (-3602879701896397) (-55))⟩ : Itv), (⟨.ninf, (f 0 0)⟩ : Itv)])); (Cmd.run (.op [(Itv.empty : Itv)]))),
    .call (do (Cmd.run (.op [(⟨(f (-1) (0)), (f (-3602879701896397) (-55))⟩ : Itv), (⟨.ninf, .nzero⟩ : Itv)])); (Cmd.run (.op [(Itv.empty : Itv)]))),
    .call (do (Cmd.run (.op [(⟨(f (-1) (0)), (f (-3602879701896397) (-55))⟩ : Itv), (⟨(f (-3602879701896397) (-55)), (f (-3602879701896397) (-55))⟩ : Itv)])); (Cmd.run (.op [(Itv.empty : Itv)]))),
    .call (do (Cmd.run (.op [(⟨(f (-1) (0)), (f (-3602879701896397) (-55))⟩ : Itv), (⟨(f (-1) (0)), (f (-3602879701896397) (-55))⟩ : Itv)])); (Cmd.run (.op [(Itv.empty : Itv)]))),
    .call (do (Cmd.run (.op [(⟨(f (-1) (0)), (f (-3602879701896397) (-55))⟩ : Itv), (⟨(f (-5) (-1)), (f (-3602879701896397) (-55))⟩ : Itv)])); (Cmd.run (.op [(Itv.empty : Itv)]))),
    .call (do (Cmd.run (.op [(⟨(f (-1) (0)), (f (-3602879701896397) (-55))⟩ : Itv), (⟨.ninf, (f (-3602879701896397) (-55))⟩ : Itv)])); (Cmd.run (.op [(Itv.empty : Itv)]))),
    .call (do (Cmd.run (.op [(⟨(f (-1) (0)), (f (-3602879701896397) (-55))⟩ : Itv), (⟨(f (-1) (0)), (f (-1) (0))⟩ : Itv)])); (Cmd.run (.op [(Itv.empty : Itv)]))),
    .call (do (Cmd.run (.op [(⟨(f (-1) (0)), (f (-3602879701896397) (-55))⟩ : Itv), (⟨(f (-5) (-1)), (f (-1) (0))⟩ : Itv)])); (Cmd.run (.op [(Itv.empty : Itv)]))),
    .call (do (Cmd.run (.op [(⟨(f (-1) (0)), (f (-3602879701896397) (-55))⟩ : Itv), (⟨.ninf, (f (-1) (0))⟩ : Itv)])); (Cmd.run (.op [(Itv.empty : Itv)]))),
    .call (do (Cmd.run (.op [(⟨(f (-1) (0)), (f (-3602879701896397) (-55))⟩ : Itv), (⟨.ninf, (f (-5) (-1))⟩ : Itv)])); (Cmd.run (.op [(Itv.empty : Itv)]))),
    .call (do (Cmd.run (.op [(⟨(f (-1) (0)), (f (-3602879701896397) (-55))⟩ : Itv), (⟨(f (-5) (-1)), (f (-5) (-1))⟩ : Itv)])); (Cmd.run (.op [(Itv.empty : Itv)]))),
    .state 3793 [],
    .call clearFlags,
    .call (do (Cmd.run (.op [(⟨(f 1 0), (f (-9007199254740991) (971))⟩ : Itv), (⟨(f 1 0), (f 2 0)⟩ : Itv)])); (Cmd.run (.op [(Itv.empty : Itv)]))),
    .state 3797 [.invalidOperand],
    .call clearFlags,
    .call (setCwd (bitsOf [.invalidOperand])),
    .throws 3800 ((Cmd.run (.op [(⟨(f 3 0), (f 4 0)⟩ : Itv), (⟨(f 1 0), (f (-3) (0))⟩ : Itv)]))) .invalidOperand,
    .state 3801 [.invalidOperand],
    .call clearFlags,
    .call (setCwd (bitsOf []))] ExSt.init = [] := by
  decide +kernel

/-- `minimal_pow_mixedtype_test` -/
example : failed [
    .call ((Cmd.run (.op [(⟨(f (3602879701896397) (-55)), (f (1) (-1))⟩ : Itv), (⟨(f (3602879701896397) (-55)), (f (3602879701896397) (-55))⟩ : Itv)]))),
    .call ((Cmd.run (.op [(⟨(f (13421773) (-27)), (f (1) (-1))⟩ : Itv), (⟨(f (-3602879701896397) (-55)), (f (-3602879701896397) (-55))⟩ : Itv)]))),
    .call ((Cmd.run (.op [(⟨(f (3602879701896397) (-55)), (f 1 0)⟩ : Itv), (⟨(f 0 0), (f 1 0)⟩ : Itv)]))),
    .call ((Cmd.run (.op [(⟨(f (3602879701896397) (-55)), (f 1 0)⟩ : Itv), (⟨(f (5) (-1)), (f (5) (-1))⟩ : Itv)]))),
    .call ((Cmd.run (.op [(⟨(f (1) (-1)), (f (3) (-1))⟩ : Itv), (⟨(f (-3602879701896397) (-55)), (f (3602879701896397) (-55))⟩ : Itv)]))),
    .call ((Cmd.run (.op [(⟨(f (1) (-1)), (f (3) (-1))⟩ : Itv), (⟨(f (-5) (-1)), (f (-5) (-1))⟩ : Itv)]))),
    .call ((Cmd.run (.op [(⟨(f (1) (-1)), .pinf⟩ : Itv), (⟨(f (5) (-1)), (f (5) (-1))⟩ : Itv)]))),
    .call ((Cmd.run (.op [(⟨(f (1) (-1)), .pinf⟩ : Itv), (⟨(f (-5) (-1)), (f (-5) (-1))⟩ : Itv)]))),
    .call ((Cmd.run (.op [(⟨(f 1 0), (f (3) (-1))⟩ : Itv), (⟨(f (-3602879701896397) (-55)), (f (3602879701896397) (-55))⟩ : Itv)]))),
    .call ((Cmd.run (.op [(⟨(f 1 0), (f (3) (-1))⟩ : Itv), (⟨(f (-5) (-1)), (f (-5) (-1))⟩ : Itv)]))),
    .call ((Cmd.run (.op [(⟨(f 1 0), .pinf⟩ : Itv), (⟨(f (-3602879701896397) (-55)), (f (3602879701896397) (-55))⟩ : Itv)]))),
    .call ((Cmd.run (.op [(⟨(f 1 0), .pinf⟩ : Itv), (⟨(f (-5) (-1)), (f 1 0)⟩ : Itv)]))),
    .call ((Cmd.run (.op [(⟨(f (2476979795053773) (-51)), (f (3) (-1))⟩ : Itv), (⟨(f (-1) (0)), (f (3602879701896397) (-55))⟩ : Itv)]))),
    .call ((Cmd.run (.op [(⟨(f (9227469) (-23)), (f (3) (-1))⟩ : Itv), (⟨(f (-5) (-1)), (f (-5) (-1))⟩ : Itv)]))),
    .call ((Cmd.run (.op [(⟨(f (2476979795053773) (-51)), .pinf⟩ : Itv), (⟨(f 1 0), .pinf⟩ : Itv)]))),
    .call ((Cmd.run (.op [(⟨(f (9227469) (-23)), .pinf⟩ : Itv), (⟨.ninf, (f (-5) (-1))⟩ : Itv)]))),
    .call ((Cmd.run (.op [(⟨(f 0 0), (f (1) (-1))⟩ : Itv), (⟨(f (5) (-1)), (f (5) (-1))⟩ : Itv)]))),
    .call ((Cmd.run (.op [(⟨(f 0 0), (f (1) (-1))⟩ : Itv), (⟨.ninf, (f (-5) (-1))⟩ : Itv)]))),
    .call ((Cmd.run (.op [(⟨(f 0 0), (f 1 0)⟩ : Itv), (⟨(f (-5) (-1)), .pinf⟩ : Itv)]))),
    .call ((Cmd.run (.op [(⟨(f 0 0), (f 1 0)⟩ : Itv), (⟨.ninf, (f (-5) (-1))⟩ : Itv)]))),
    .call ((Cmd.run (.op [(⟨(f 0 0), (f (3) (-1))⟩ : Itv), (⟨(f (-1) (0)), (f 0 0)⟩ : Itv)]))),
    .call ((Cmd.run (.op [(⟨(f 0 0), (f (3) (-1))⟩ : Itv), (⟨(f (-5) (-1)), (f (-5) (-1))⟩ : Itv)]))),
    .call ((Cmd.run (.op [(⟨(f 0 0), .pinf⟩ : Itv), (⟨(f (-3602879701896397) (-55)), .pinf⟩ : Itv)]))),
    .call ((Cmd.run (.op [(⟨(f 0 0), .pinf⟩ : Itv), (⟨(f (-5) (-1)), (f (-5) (-1))⟩ : Itv)]))),
    .call ((Cmd.run (.op [(⟨.nzero, (f (1) (-1))⟩ : Itv), (⟨(f (3602879701896397) (-55)), (f (3602879701896397) (-55))⟩ : Itv)]))),
    .call ((Cmd.run (.op [(⟨.nzero, (f (1) (-1))⟩ : Itv), (⟨.ninf, (f (-13421773) (-27))⟩ : Itv)]))),
    .call ((Cmd.run (.op [(⟨.nzero, (f 1 0)⟩ : Itv), (⟨(f (3602879701896397) (-55)), (f (5) (-1))⟩ : Itv)]))),
    .call ((Cmd.run (.op [(⟨.nzero, (f 1 0)⟩ : Itv), (⟨.ninf, (f (-5) (-1))⟩ : Itv)]))),
    .call ((Cmd.run (.op [(⟨.nzero, (f (3) (-1))⟩ : Itv), (⟨(f (-1) (0)), (f 0 0)⟩ : Itv)]))),
    .call ((Cmd.run (.op [(⟨.nzero, (f (3) (-1))⟩ : Itv), (⟨(f (-5) (-1)), (f (-1) (0))⟩ : Itv)]))),
    .call ((Cmd.run (.op [(⟨.nzero, .pinf⟩ : Itv), (⟨(f (-5) (-1)), .pinf⟩ : Itv)]))),
    .call ((Cmd.run (.op [(⟨.nzero, .pinf⟩ : Itv), (⟨(f (-5) (-1)), (f (-5) (-1))⟩ : Itv)]))),
    .call ((Cmd.run (.op [(⟨(f (-3602879701896397) (-55)), (f (1) (-1))⟩ : Itv), (⟨(f (3602879701896397) (-55)), .pinf⟩ : Itv)]))),
    .call ((Cmd.run (.op [(⟨(f (-13421773) (-27)), (f (1) (-1))⟩ : Itv), (⟨.ninf, (f (-5) (-1))⟩ : Itv)]))),
    .call ((Cmd.run (.op [(⟨(f (-3602879701896397) (-55)), (f 1 0)⟩ : Itv), (⟨(f (-5) (-1)), .pinf⟩ : Itv)]))),
    .call ((Cmd.run (.op [(⟨(f (-13421773) (-27)), (f 1 0)⟩ : Itv), (⟨.ninf, (f (-5) (-1))⟩ : Itv)]))),
    .call ((Cmd.run (.op [(⟨(f (-3602879701896397) (-55)), (f (3) (-1))⟩ : Itv), (⟨(f (5) (-1)), (f (5) (-1))⟩ : Itv)]))),
    .call ((Cmd.run (.op [(⟨(f (-13421773) (-27)), (f (3) (-1))⟩ : Itv), (⟨(f (-5) (-1)), (f (-5) (-1))⟩ : Itv)]))),
    .call ((Cmd.run (.op [(⟨(f (-3602879701896397) (-55)), .pinf⟩ : Itv), (⟨(f (-1) (0)), .pinf⟩ : Itv)]))),
    .call ((Cmd.run (.op [(⟨(f (-13421773) (-27)), .pinf⟩ : Itv), (⟨(f (-5) (-1)), (f (-5) (-1))⟩ : Itv)]))),
    .state 3868 [],
    .call clearFlags,
    .call (do (Cmd.run (.op [(⟨(f 1 0), (f (-9007199254740991) (971))⟩ : Itv), (⟨(f 1 0), (f 2 0)⟩ : Itv)])); (Cmd.run (.op [(Itv.empty : Itv)]))),
    .state 3872 [.invalidOperand],
    .call clearFlags,
    .call (setCwd (bitsOf [.invalidOperand])),
    .throws 3875 ((Cmd.run (.op [(⟨(f 3 0), (f 4 0)⟩ : Itv), (⟨(f 1 0), (f (-3) (0))⟩ : Itv)]))) .invalidOperand,
    .state 3876 [.invalidOperand],
    .call clearFlags,
    .call (setCwd (bitsOf []))] ExSt.init = [] := by
  decide +kernel

/-- `minimal_pow_dec_test` -/
example : failed [
    .call ((Cmd.run (.opD [(⟨⟨(f (3602879701896397) (-55)), (f (1) (-1))⟩, .com⟩ : DItv), (⟨⟨(f 0 0), (f 1 0)⟩, .com⟩ : DItv)]))),
    .call ((Cmd.run (.opD [(⟨⟨(f (3602879701896397) (-55)), (f (1) (-1))⟩, .com⟩ : DItv), (⟨⟨(f (3602879701896397) (-55)), (f (3602879701896397) (-55))⟩, .defd⟩ : DItv)]))),
    .call ((Cmd.run (.opD [(⟨⟨(f (3602879701896397) (-55)), (f (1) (-1))⟩, .trv⟩ : DItv), (⟨⟨(f (-5) (-1)), (f (5) (-1))⟩, .dac⟩ : DItv)]))),
    .call ((Cmd.run (.opD [(⟨⟨(f (3602879701896397) (-55)), (f (1) (-1))⟩, .com⟩ : DItv), (⟨⟨(f (-5) (-1)), .pinf⟩, .dac⟩ : DItv)]))),
    .call ((Cmd.run (.opD [(⟨⟨(f (3602879701896397) (-55)), (f (1) (-1))⟩, .trv⟩ : DItv), (⟨⟨.ninf, (f (3602879701896397) (-55))⟩, .dac⟩ : DItv)]))),
    .call ((Cmd.run (.opD [(⟨⟨(f (3602879701896397) (-55)), (f 1 0)⟩, .com⟩ : DItv), (⟨⟨(f 0 0), (f (5) (-1))⟩, .com⟩ : DItv)]))),
    .call ((Cmd.run (.opD [(⟨⟨(f (3602879701896397) (-55)), (f 1 0)⟩, .defd⟩ : DItv), (⟨⟨(f 1 0), (f 1 0)⟩, .dac⟩ : DItv)]))),
    .call ((Cmd.run (.opD [(⟨⟨(f (3602879701896397) (-55)), (f 1 0)⟩, .trv⟩ : DItv), (⟨⟨(f (-5) (-1)), (f 1 0)⟩, .defd⟩ : DItv)]))),
    .call ((Cmd.run (.opD [(⟨⟨(f (1) (-1)), (f (3) (-1))⟩, .dac⟩ : DItv), (⟨⟨(f (3602879701896397) (-55)), (f (3602879701896397) (-55))⟩, .com⟩ : DItv)]))),
    .call ((Cmd.run (.opD [(⟨⟨(f (1) (-1)), (f (3) (-1))⟩, .defd⟩ : DItv), (⟨⟨(f (-5) (-1)), (f (3602879701896397) (-55))⟩, .trv⟩ : DItv)]))),
    .call ((Cmd.run (.opD [(⟨⟨(f (1) (-1)), (f (3) (-1))⟩, .com⟩ : DItv), (⟨⟨(f (-5) (-1)), (f (-5) (-1))⟩, .com⟩ : DItv)]))),
    .call ((Cmd.run (.opD [(⟨⟨(f (1) (-1)), .pinf⟩, .dac⟩ : DItv), (⟨⟨(f (3602879701896397) (-55)), (f (3602879701896397) (-55))⟩, .com⟩ : DItv)]))),
    .call ((Cmd.run (.opD [(⟨⟨(f (1) (-1)), .pinf⟩, .defd⟩ : DItv), (⟨⟨(f (-5) (-1)), .nzero⟩, .com⟩ : DItv)]))),
    .call ((Cmd.run (.opD [(⟨⟨(f 1 0), (f (3) (-1))⟩, .com⟩ : DItv), (⟨⟨(f (-3602879701896397) (-55)), (f (3602879701896397) (-55))⟩, .defd⟩ : DItv)]))),
    .call ((Cmd.run (.opD [(⟨⟨(f 1 0), (f (3) (-1))⟩, .trv⟩ : DItv), (⟨⟨(f (-3602879701896397) (-55)), (f (-3602879701896397) (-55))⟩, .com⟩ : DItv)]))),
    .call ((Cmd.run (.opD [(⟨⟨(f 1 0), .pinf⟩, .dac⟩ : DItv), (⟨⟨(f 1 0), (f 1 0)⟩, .dac⟩ : DItv)]))),
    .call ((Cmd.run (.opD [(⟨⟨(f 1 0), .pinf⟩, .defd⟩ : DItv), (⟨⟨(f (-1) (0)), .nzero⟩, .dac⟩ : DItv)]))),
    .call ((Cmd.run (.opD [(⟨⟨(f (2476979795053773) (-51)), (f (3) (-1))⟩, .defd⟩ : DItv), (⟨⟨(f 1 0), (f (5) (-1))⟩, .com⟩ : DItv)]))),
    .call ((Cmd.run (.opD [(⟨⟨(f (2476979795053773) (-51)), (f (3) (-1))⟩, .com⟩ : DItv), (⟨⟨(f (-3602879701896397) (-55)), (f (-3602879701896397) (-55))⟩, .com⟩ : DItv)]))),
    .call ((Cmd.run (.opD [(⟨⟨(f (2476979795053773) (-51)), .pinf⟩, .dac⟩ : DItv), (⟨⟨(f (3602879701896397) (-55)), .pinf⟩, .dac⟩ : DItv)]))),
    .call ((Cmd.run (.opD [(⟨⟨(f (2476979795053773) (-51)), .pinf⟩, .defd⟩ : DItv), (⟨⟨(f (-5) (-1)), .pinf⟩, .dac⟩ : DItv)]))),
    .call ((Cmd.run (.opD [(⟨⟨(f (2476979795053773) (-51)), .pinf⟩, .trv⟩ : DItv), (⟨⟨.ninf, (f (-1) (0))⟩, .defd⟩ : DItv)]))),
    .call ((Cmd.run (.opD [(⟨⟨(f 0 0), (f (1) (-1))⟩, .com⟩ : DItv), (⟨⟨(f (3602879701896397) (-55)), (f (3602879701896397) (-55))⟩, .com⟩ : DItv)]))),
    .call ((Cmd.run (.opD [(⟨⟨(f 0 0), (f (1) (-1))⟩, .com⟩ : DItv), (⟨⟨(f (5) (-1)), .pinf⟩, .dac⟩ : DItv)]))),
    .call ((Cmd.run (.opD [(⟨⟨(f 0 0), (f (1) (-1))⟩, .com⟩ : DItv), (⟨⟨.ninf, (f (-5) (-1))⟩, .dac⟩ : DItv)]))),
    .call ((Cmd.run (.opD [(⟨⟨(f 0 0), (f 1 0)⟩, .com⟩ : DItv), (⟨⟨(f 0 0), (f 0 0)⟩, .com⟩ : DItv)]))),
    .call ((Cmd.run (.opD [(⟨⟨(f 0 0), (f 1 0)⟩, .defd⟩ : DItv), (⟨⟨(f 0 0), (f (5) (-1))⟩, .dac⟩ : DItv)]))),
    .call ((Cmd.run (.opD [(⟨⟨(f 0 0), (f 1 0)⟩, .dac⟩ : DItv), (⟨⟨(f 1 0), (f (5) (-1))⟩, .com⟩ : DItv)]))),
    .call ((Cmd.run (.opD [(⟨⟨(f 0 0), (f 1 0)⟩, .com⟩ : DItv), (⟨⟨(f (-5) (-1)), (f (3602879701896397) (-55))⟩, .dac⟩ : DItv)]))),
    .call ((Cmd.run (.opD [(⟨⟨(f 0 0), (f 1 0)⟩, .defd⟩ : DItv), (DItv.entire : DItv)]))),
    .call ((Cmd.run (.opD [(⟨⟨(f 0 0), (f 1 0)⟩, .dac⟩ : DItv), (⟨⟨(f (-3602879701896397) (-55)), (f 0 0)⟩, .com⟩ : DItv)]))),
    .call ((Cmd.run (.opD [(⟨⟨(f 0 0), (f 1 0)⟩, .com⟩ : DItv), (⟨⟨.ninf, (f 0 0)⟩, .dac⟩ : DItv)]))),
    .call ((Cmd.run (.opD [(⟨⟨(f 0 0), (f 1 0)⟩, .defd⟩ : DItv), (⟨⟨.ninf, (f (-5) (-1))⟩, .dac⟩ : DItv)]))),
    .call ((Cmd.run (.opD [(⟨⟨(f 0 0), (f (3) (-1))⟩, .com⟩ : DItv), (⟨⟨(f 0 0), (f (5) (-1))⟩, .com⟩ : DItv)]))),
    .call ((Cmd.run (.opD [(⟨⟨(f 0 0), (f (3) (-1))⟩, .defd⟩ : DItv), (⟨⟨(f (5) (-1)), (f (5) (-1))⟩, .dac⟩ : DItv)]))),
    .call ((Cmd.run (.opD [(⟨⟨(f 0 0), (f (3) (-1))⟩, .dac⟩ : DItv), (⟨⟨(f (-1) (0)), (f 0 0)⟩, .com⟩ : DItv)]))),
    .call ((Cmd.run (.opD [(⟨⟨(f 0 0), (f (3) (-1))⟩, .com⟩ : DItv), (⟨⟨(f (-5) (-1)), (f (-5) (-1))⟩, .defd⟩ : DItv)]))),
    .call ((Cmd.run (.opD [(⟨⟨(f 0 0), .pinf⟩, .dac⟩ : DItv), (⟨⟨(f (3602879701896397) (-55)), (f (3602879701896397) (-55))⟩, .com⟩ : DItv)]))),
    .call ((Cmd.run (.opD [(⟨⟨(f 0 0), .pinf⟩, .defd⟩ : DItv), (⟨⟨(f (-1) (0)), (f 1 0)⟩, .dac⟩ : DItv)]))),
    .call ((Cmd.run (.opD [(⟨⟨(f 0 0), .pinf⟩, .trv⟩ : DItv), (⟨⟨.ninf, (f (-1) (0))⟩, .defd⟩ : DItv)]))),
    .call ((Cmd.run (.opD [(⟨⟨(f 0 0), .pinf⟩, .dac⟩ : DItv), (⟨⟨(f (-5) (-1)), (f (-5) (-1))⟩, .dac⟩ : DItv)]))),
    .call ((Cmd.run (.opD [(⟨⟨.nzero, (f (1) (-1))⟩, .com⟩ : DItv), (⟨⟨(f 0 0), .pinf⟩, .dac⟩ : DItv)]))),
    .call ((Cmd.run (.opD [(⟨⟨.nzero, (f (1) (-1))⟩, .defd⟩ : DItv), (⟨⟨(f (3602879701896397) (-55)), .pinf⟩, .defd⟩ : DItv)]))),
    .call ((Cmd.run (.opD [(⟨⟨.nzero, (f (1) (-1))⟩, .dac⟩ : DItv), (⟨⟨(f (5) (-1)), (f (5) (-1))⟩, .com⟩ : DItv)]))),
    .call ((Cmd.run (.opD [(⟨⟨.nzero, (f (1) (-1))⟩, .trv⟩ : DItv), (⟨⟨(f (-5) (-1)), .nzero⟩, .dac⟩ : DItv)]))),
    .call ((Cmd.run (.opD [(⟨⟨.nzero, (f (1) (-1))⟩, .com⟩ : DItv), (⟨⟨.ninf, (f (-3602879701896397) (-55))⟩, .defd⟩ : DItv)]))),
    .call ((Cmd.run (.opD [(⟨⟨.nzero, (f (1) (-1))⟩, .defd⟩ : DItv), (⟨⟨.ninf, (f (-5) (-1))⟩, .dac⟩ : DItv)]))),
    .call ((Cmd.run (.opD [(⟨⟨.nzero, (f 1 0)⟩, .com⟩ : DItv), (⟨⟨(f (5) (-1)), (f (5) (-1))⟩, .dac⟩ : DItv)]))),
    .call ((Cmd.run (.opD [(⟨⟨.nzero, (f 1 0)⟩, .dac⟩ : DItv), (⟨⟨(f (-1) (0)), .pinf⟩, .defd⟩ : DItv)]))),
    .call ((Cmd.run (.opD [(⟨⟨.nzero, (f 1 0)⟩, .com⟩ : DItv), (DItv.entire : DItv)]))),
    .call ((Cmd.run (.opD [(⟨⟨.nzero, (f 1 0)⟩, .defd⟩ : DItv), (⟨⟨(f (-5) (-1)), (f (-5) (-1))⟩, .com⟩ : DItv)]))),
    .call ((Cmd.run (.opD [(⟨⟨.nzero, (f 1 0)⟩, .dac⟩ : DItv), (⟨⟨.ninf, (f (-5) (-1))⟩, .defd⟩ : DItv)]))),
    .call ((Cmd.run (.opD [(⟨⟨.nzero, (f (3) (-1))⟩, .com⟩ : DItv), (⟨⟨(f (3602879701896397) (-55)), (f (5) (-1))⟩, .dac⟩ : DItv)]))),
    .call ((Cmd.run (.opD [(⟨⟨.nzero, (f (3) (-1))⟩, .defd⟩ : DItv), (⟨⟨(f (-1) (0)), (f 0 0)⟩, .trv⟩ : DItv)]))),
    .call ((Cmd.run (.opD [(⟨⟨.nzero, (f (3) (-1))⟩, .dac⟩ : DItv), (⟨⟨(f (-5) (-1)), (f (-3602879701896397) (-55))⟩, .defd⟩ : DItv)]))),
    .call ((Cmd.run (.opD [(⟨⟨.nzero, (f (3) (-1))⟩, .com⟩ : DItv), (⟨⟨(f (-5) (-1)), (f (-5) (-1))⟩, .com⟩ : DItv)]))),
    .call ((Cmd.run (.opD [(⟨⟨.nzero, (f (3) (-1))⟩, .defd⟩ : DItv), (⟨⟨.ninf, (f (-5) (-1))⟩, .dac⟩ : DItv)]))),
    .call ((Cmd.run (.opD [(⟨⟨.nzero, .pinf⟩, .dac⟩ : DItv), (⟨⟨(f (-3602879701896397) (-55)), .pinf⟩, .dac⟩ : DItv)]))),
    .call ((Cmd.run (.opD [(⟨⟨.nzero, .pinf⟩, .defd⟩ : DItv), (⟨⟨(f (-5) (-1)), .nzero⟩, .com⟩ : DItv)]))),
    .call ((Cmd.run (.opD [(⟨⟨.nzero, .pinf⟩, .trv⟩ : DItv), (⟨⟨.ninf, (f 0 0)⟩, .defd⟩ : DItv)]))),
    .call ((Cmd.run (.opD [(⟨⟨.nzero, .pinf⟩, .dac⟩ : DItv), (⟨⟨.ninf, .nzero⟩, .trv⟩ : DItv)]))),
    .call ((Cmd.run (.opD [(⟨⟨.nzero, .pinf⟩, .defd⟩ : DItv), (⟨⟨.ninf, (f (-1) (0))⟩, .defd⟩ : DItv)]))),
    .call ((Cmd.run (.opD [(⟨⟨(f (-3602879701896397) (-55)), (f (1) (-1))⟩, .defd⟩ : DItv), (⟨⟨(f (3602879701896397) (-55)), .pinf⟩, .dac⟩ : DItv)]))),
    .call ((Cmd.run (.opD [(⟨⟨(f (-3602879701896397) (-55)), (f (1) (-1))⟩, .com⟩ : DItv), (⟨⟨(f (-3602879701896397) (-55)), (f (-3602879701896397) (-55))⟩, .com⟩ : DItv)]))),
    .call ((Cmd.run (.opD [(⟨⟨(f (-3602879701896397) (-55)), (f (1) (-1))⟩, .dac⟩ : DItv), (⟨⟨.ninf, (f (-5) (-1))⟩, .defd⟩ : DItv)]))),
    .call ((Cmd.run (.opD [(⟨⟨(f (-3602879701896397) (-55)), (f 1 0)⟩, .com⟩ : DItv), (⟨⟨(f 0 0), (f 0 0)⟩, .com⟩ : DItv)]))),
    .call ((Cmd.run (.opD [(⟨⟨(f (-3602879701896397) (-55)), (f 1 0)⟩, .dac⟩ : DItv), (⟨⟨.ninf, (f (5) (-1))⟩, .dac⟩ : DItv)]))),
    .call ((Cmd.run (.opD [(⟨⟨(f (-3602879701896397) (-55)), (f 1 0)⟩, .defd⟩ : DItv), (⟨⟨.ninf, (f (-1) (0))⟩, .defd⟩ : DItv)]))),
    .call ((Cmd.run (.opD [(⟨⟨(f (-3602879701896397) (-55)), (f 1 0)⟩, .com⟩ : DItv), (⟨⟨(f (-5) (-1)), (f (-5) (-1))⟩, .com⟩ : DItv)]))),
    .call ((Cmd.run (.opD [(⟨⟨(f (-3602879701896397) (-55)), (f 1 0)⟩, .trv⟩ : DItv), (⟨⟨.ninf, (f (-5) (-1))⟩, .trv⟩ : DItv)]))),
    .call ((Cmd.run (.opD [(⟨⟨(f (-3602879701896397) (-55)), (f (3) (-1))⟩, .trv⟩ : DItv), (⟨⟨(f 0 0), (f (5) (-1))⟩, .com⟩ : DItv)]))),
    .call ((Cmd.run (.opD [(⟨⟨(f (-3602879701896397) (-55)), (f (3) (-1))⟩, .com⟩ : DItv), (⟨⟨(f (5) (-1)), (f (5) (-1))⟩, .dac⟩ : DItv)]))),
    .call ((Cmd.run (.opD [(⟨⟨(f (-3602879701896397) (-55)), (f (3) (-1))⟩, .dac⟩ : DItv), (⟨⟨(f (-1) (0)), (f 0 0)⟩, .trv⟩ : DItv)]))),
    .call ((Cmd.run (.opD [(⟨⟨(f (-3602879701896397) (-55)), (f (3) (-1))⟩, .com⟩ : DItv), (⟨⟨(f (-3602879701896397) (-55)), (f (-3602879701896397) (-55))⟩, .com⟩ : DItv)]))),
    .call ((Cmd.run (.opD [(⟨⟨(f (-3602879701896397) (-55)), (f (3) (-1))⟩, .defd⟩ : DItv), (⟨⟨(f (-5) (-1)), (f (-5) (-1))⟩, .defd⟩ : DItv)]))),
    .call ((Cmd.run (.opD [(⟨⟨(f (-3602879701896397) (-55)), .pinf⟩, .dac⟩ : DItv), (⟨⟨(f (-3602879701896397) (-55)), (f (5) (-1))⟩, .com⟩ : DItv)]))),
    .call ((Cmd.run (.opD [(⟨⟨(f (-3602879701896397) (-55)), .pinf⟩, .defd⟩ : DItv), (⟨⟨(f (-5) (-1)), (f 0 0)⟩, .defd⟩ : DItv)]))),
    .call ((Cmd.run (.opD [(⟨⟨(f (-3602879701896397) (-55)), .pinf⟩, .dac⟩ : DItv), (⟨⟨(f (-5) (-1)), (f (-5) (-1))⟩, .trv⟩ : DItv)]))),
    .call ((Cmd.run (.opD [(⟨⟨(f 0 0), (f 0 0)⟩, .com⟩ : DItv), (⟨⟨(f 1 0), .pinf⟩, .dac⟩ : DItv)]))),
    .call ((Cmd.run (.opD [(⟨⟨(f 0 0), (f 0 0)⟩, .com⟩ : DItv), (⟨⟨(f (-5) (-1)), (f (3602879701896397) (-55))⟩, .com⟩ : DItv)]))),
    .call (do (Cmd.run (.opD [(⟨⟨(f 0 0), (f 0 0)⟩, .dac⟩ : DItv), (⟨⟨(f (-1) (0)), (f 0 0)⟩, .defd⟩ : DItv)])); (Cmd.run (.opD [(DItv.empty : DItv)]))),
    .call (do (Cmd.run (.opD [(⟨⟨(f (-1) (0)), (f (-3602879701896397) (-55))⟩, .com⟩ : DItv), (⟨⟨(f (-3602879701896397) (-55)), (f 1 0)⟩, .defd⟩ : DItv)])); (Cmd.run (.opD [(DItv.empty : DItv)]))),
    .call (do (Cmd.run (.opD [(⟨⟨(f (-1) (0)), (f (-3602879701896397) (-55))⟩, .dac⟩ : DItv), (⟨⟨(f (-3602879701896397) (-55)), (f (5) (-1))⟩, .com⟩ : DItv)])); (Cmd.run (.opD [(DItv.empty : DItv)]))),
    .call (do (Cmd.run (.opD [(⟨⟨(f (-1) (0)), (f (-3602879701896397) (-55))⟩, .defd⟩ : DItv), (⟨⟨(f (-3602879701896397) (-55)), .pinf⟩, .trv⟩ : DItv)])); (Cmd.run (.opD [(DItv.empty : DItv)]))),
    .state 3990 [],
    .call clearFlags,
    .call (do (Cmd.run (.opD [(⟨⟨(f 1 0), (f (-9007199254740991) (971))⟩, .com⟩ : DItv), (⟨⟨(f 1 0), (f 2 0)⟩, .trv⟩ : DItv)])); (Cmd.run (.opD [(DItv.empty : DItv)]))),
    .state 3994 [.invalidOperand],
    .call clearFlags,
    .call (setCwd (bitsOf [.invalidOperand])),
    .throws 3997 ((Cmd.run (.opD [(⟨⟨(f 3 0), (f 4 0)⟩, .trv⟩ : DItv), (⟨⟨(f 1 0), (f (-3) (0))⟩, .ill⟩ : DItv)]))) .invalidOperand,
    .state 3998 [.invalidOperand],
    .call clearFlags,
    .call (setCwd (bitsOf []))] ExSt.init = [] := by
  decide +kernel

/-- `minimal_pow_dec_mixedtype_test` -/
example : failed [
    .call ((Cmd.run (.opD [(⟨⟨(f (3602879701896397) (-55)), (f (1) (-1))⟩, .trv⟩ : DItv), (⟨⟨(f (3602879701896397) (-55)), (f (3602879701896397) (-55))⟩, .trv⟩ : DItv)]))),
    .call ((Cmd.run (.opD [(⟨⟨(f (13421773) (-27)), (f (1) (-1))⟩, .trv⟩ : DItv), (⟨⟨(f (-3602879701896397) (-55)), (f (-3602879701896397) (-55))⟩, .trv⟩ : DItv)]))),
    .call ((Cmd.run (.opD [(⟨⟨(f (3602879701896397) (-55)), (f 1 0)⟩, .com⟩ : DItv), (⟨⟨(f 0 0), (f 1 0)⟩, .com⟩ : DItv)]))),
    .call ((Cmd.run (.opD [(⟨⟨(f (3602879701896397) (-55)), (f 1 0)⟩, .defd⟩ : DItv), (⟨⟨(f (5) (-1)), (f (5) (-1))⟩, .trv⟩ : DItv)]))),
    .call ((Cmd.run (.opD [(⟨⟨(f (1) (-1)), (f (3) (-1))⟩, .dac⟩ : DItv), (⟨⟨(f (-3602879701896397) (-55)), (f (3602879701896397) (-55))⟩, .com⟩ : DItv)]))),
    .call ((Cmd.run (.opD [(⟨⟨(f (1) (-1)), (f (3) (-1))⟩, .defd⟩ : DItv), (⟨⟨(f (-5) (-1)), (f (-5) (-1))⟩, .dac⟩ : DItv)]))),
    .call ((Cmd.run (.opD [(⟨⟨(f (1) (-1)), .pinf⟩, .dac⟩ : DItv), (⟨⟨(f (5) (-1)), (f (5) (-1))⟩, .defd⟩ : DItv)]))),
    .call ((Cmd.run (.opD [(⟨⟨(f (1) (-1)), .pinf⟩, .trv⟩ : DItv), (⟨⟨(f (-5) (-1)), (f (-5) (-1))⟩, .defd⟩ : DItv)]))),
    .call ((Cmd.run (.opD [(⟨⟨(f 1 0), (f (3) (-1))⟩, .com⟩ : DItv), (⟨⟨(f (-3602879701896397) (-55)), (f (3602879701896397) (-55))⟩, .com⟩ : DItv)]))),
    .call ((Cmd.run (.opD [(⟨⟨(f 1 0), (f (3) (-1))⟩, .com⟩ : DItv), (⟨⟨(f (-5) (-1)), (f (-5) (-1))⟩, .trv⟩ : DItv)]))),
    .call ((Cmd.run (.opD [(⟨⟨(f 1 0), .pinf⟩, .dac⟩ : DItv), (⟨⟨(f (-3602879701896397) (-55)), (f (3602879701896397) (-55))⟩, .com⟩ : DItv)]))),
    .call ((Cmd.run (.opD [(⟨⟨(f 1 0), .pinf⟩, .dac⟩ : DItv), (⟨⟨(f (-5) (-1)), (f 1 0)⟩, .dac⟩ : DItv)]))),
    .call ((Cmd.run (.opD [(⟨⟨(f (2476979795053773) (-51)), (f (3) (-1))⟩, .com⟩ : DItv), (⟨⟨(f (-1) (0)), (f (3602879701896397) (-55))⟩, .defd⟩ : DItv)]))),
    .call ((Cmd.run (.opD [(⟨⟨(f (9227469) (-23)), (f (3) (-1))⟩, .defd⟩ : DItv), (⟨⟨(f (-5) (-1)), (f (-5) (-1))⟩, .defd⟩ : DItv)]))),
    .call ((Cmd.run (.opD [(⟨⟨(f (2476979795053773) (-51)), .pinf⟩, .dac⟩ : DItv), (⟨⟨(f 1 0), .pinf⟩, .dac⟩ : DItv)]))),
    .call ((Cmd.run (.opD [(⟨⟨(f (9227469) (-23)), .pinf⟩, .defd⟩ : DItv), (⟨⟨.ninf, (f (-5) (-1))⟩, .trv⟩ : DItv)]))),
    .call ((Cmd.run (.opD [(⟨⟨(f 0 0), (f (1) (-1))⟩, .com⟩ : DItv), (⟨⟨(f (5) (-1)), (f (5) (-1))⟩, .com⟩ : DItv)]))),
    .call ((Cmd.run (.opD [(⟨⟨(f 0 0), (f (1) (-1))⟩, .com⟩ : DItv), (⟨⟨.ninf, (f (-5) (-1))⟩, .dac⟩ : DItv)]))),
    .call ((Cmd.run (.opD [(⟨⟨(f 0 0), (f 1 0)⟩, .com⟩ : DItv), (⟨⟨(f (-5) (-1)), .pinf⟩, .dac⟩ : DItv)]))),
    .call ((Cmd.run (.opD [(⟨⟨(f 0 0), (f 1 0)⟩, .dac⟩ : DItv), (⟨⟨.ninf, (f (-5) (-1))⟩, .defd⟩ : DItv)]))),
    .call ((Cmd.run (.opD [(⟨⟨(f 0 0), (f (3) (-1))⟩, .com⟩ : DItv), (⟨⟨(f (-1) (0)), (f 0 0)⟩, .dac⟩ : DItv)]))),
    .call ((Cmd.run (.opD [(⟨⟨(f 0 0), (f (3) (-1))⟩, .dac⟩ : DItv), (⟨⟨(f (-5) (-1)), (f (-5) (-1))⟩, .com⟩ : DItv)]))),
    .call ((Cmd.run (.opD [(⟨⟨(f 0 0), .pinf⟩, .dac⟩ : DItv), (⟨⟨(f (-3602879701896397) (-55)), .pinf⟩, .dac⟩ : DItv)]))),
    .call ((Cmd.run (.opD [(⟨⟨(f 0 0), .pinf⟩, .defd⟩ : DItv), (⟨⟨(f (-5) (-1)), (f (-5) (-1))⟩, .defd⟩ : DItv)]))),
    .call ((Cmd.run (.opD [(⟨⟨.nzero, (f (1) (-1))⟩, .com⟩ : DItv), (⟨⟨(f (3602879701896397) (-55)), (f (3602879701896397) (-55))⟩, .dac⟩ : DItv)]))),
    .call ((Cmd.run (.opD [(⟨⟨.nzero, (f (1) (-1))⟩, .dac⟩ : DItv), (⟨⟨.ninf, (f (-13421773) (-27))⟩, .dac⟩ : DItv)]))),
    .call ((Cmd.run (.opD [(⟨⟨.nzero, (f 1 0)⟩, .defd⟩ : DItv), (⟨⟨(f (3602879701896397) (-55)), (f (5) (-1))⟩, .com⟩ : DItv)]))),
    .call ((Cmd.run (.opD [(⟨⟨.nzero, (f 1 0)⟩, .trv⟩ : DItv), (⟨⟨.ninf, (f (-5) (-1))⟩, .dac⟩ : DItv)]))),
    .call ((Cmd.run (.opD [(⟨⟨.nzero, (f (3) (-1))⟩, .com⟩ : DItv), (⟨⟨(f (-1) (0)), (f 0 0)⟩, .com⟩ : DItv)]))),
    .call ((Cmd.run (.opD [(⟨⟨.nzero, (f (3) (-1))⟩, .dac⟩ : DItv), (⟨⟨(f (-5) (-1)), (f (-1) (0))⟩, .defd⟩ : DItv)]))),
    .call ((Cmd.run (.opD [(⟨⟨.nzero, .pinf⟩, .dac⟩ : DItv), (⟨⟨(f (-5) (-1)), .pinf⟩, .defd⟩ : DItv)]))),
    .call ((Cmd.run (.opD [(⟨⟨.nzero, .pinf⟩, .dac⟩ : DItv), (⟨⟨(f (-5) (-1)), (f (-5) (-1))⟩, .dac⟩ : DItv)]))),
    .call ((Cmd.run (.opD [(⟨⟨(f (-3602879701896397) (-55)), (f (1) (-1))⟩, .defd⟩ : DItv), (⟨⟨(f (3602879701896397) (-55)), .pinf⟩, .dac⟩ : DItv)]))),
    .call ((Cmd.run (.opD [(⟨⟨(f (-13421773) (-27)), (f (1) (-1))⟩, .com⟩ : DItv), (⟨⟨.ninf, (f (-5) (-1))⟩, .defd⟩ : DItv)]))),
    .call ((Cmd.run (.opD [(⟨⟨(f (-3602879701896397) (-55)), (f 1 0)⟩, .dac⟩ : DItv), (⟨⟨(f (-5) (-1)), .pinf⟩, .defd⟩ : DItv)]))),
    .call ((Cmd.run (.opD [(⟨⟨(f (-13421773) (-27)), (f 1 0)⟩, .trv⟩ : DItv), (⟨⟨.ninf, (f (-5) (-1))⟩, .dac⟩ : DItv)]))),
    .call ((Cmd.run (.opD [(⟨⟨(f (-3602879701896397) (-55)), (f (3) (-1))⟩, .defd⟩ : DItv), (⟨⟨(f (5) (-1)), (f (5) (-1))⟩, .com⟩ : DItv)]))),
    .call ((Cmd.run (.opD [(⟨⟨(f (-13421773) (-27)), (f (3) (-1))⟩, .dac⟩ : DItv), (⟨⟨(f (-5) (-1)), (f (-5) (-1))⟩, .dac⟩ : DItv)]))),
    .call ((Cmd.run (.opD [(⟨⟨(f (-3602879701896397) (-55)), .pinf⟩, .dac⟩ : DItv), (⟨⟨(f (-1) (0)), .pinf⟩, .dac⟩ : DItv)]))),
    .call ((Cmd.run (.opD [(⟨⟨(f (-13421773) (-27)), .pinf⟩, .defd⟩ : DItv), (⟨⟨(f (-5) (-1)), (f (-5) (-1))⟩, .com⟩ : DItv)]))),
    .state 4065 [],
    .call clearFlags,
    .call (do (Cmd.run (.opD [(⟨⟨(f 1 0), (f (-9007199254740991) (971))⟩, .com⟩ : DItv), (⟨⟨(f 1 0), (f 2 0)⟩, .trv⟩ : DItv)])); (Cmd.run (.opD [(DItv.empty : DItv)]))),
    .state 4069 [.invalidOperand],
    .call clearFlags,
    .call (setCwd (bitsOf [.invalidOperand])),
    .throws 4072 ((Cmd.run (.opD [(⟨⟨(f 3 0), (f 4 0)⟩, .trv⟩ : DItv), (⟨⟨(f 1 0), (f (-3) (0))⟩, .ill⟩ : DItv)]))) .invalidOperand,
    .state 4073 [.invalidOperand],
    .call clearFlags,
    .call (setCwd (bitsOf []))] ExSt.init = [] := by
  decide +kernel

/-- `minimal_exp_test` -/
example : failed [
    .call (do (Cmd.run (.op [(Itv.empty : Itv)])); (Cmd.run (.op [(Itv.empty : Itv)]))),
    .call ((Cmd.run (.op [(⟨.ninf, (f 0 0)⟩ : Itv)]))),
    .call ((Cmd.run (.op [(⟨.ninf, .nzero⟩ : Itv)]))),
    .call ((Cmd.run (.op [(⟨(f 0 0), .pinf⟩ : Itv)]))),
    .call ((Cmd.run (.op [(⟨.nzero, .pinf⟩ : Itv)]))),
    .call ((Cmd.run (.op [(Itv.entire : Itv)]))),
    .call ((Cmd.run (.op [(⟨.ninf, (f (390207173010335) (-39))⟩ : Itv)]))),
    .call ((Cmd.run (.op [(⟨(f (390207173010335) (-39)), (f (390207173010335) (-39))⟩ : Itv)]))),
    .call ((Cmd.run (.op [(⟨(f 0 0), (f (195103586505167) (-38))⟩ : Itv)]))),
    .call ((Cmd.run (.op [(⟨.nzero, (f (195103586505167) (-38))⟩ : Itv)]))),
    .call ((Cmd.run (.op [(⟨(f (-6231120794008787) (-43)), (f (195103586505167) (-38))⟩ : Itv)]))),
    .call ((Cmd.run (.op [(⟨(f (-6231120794008787) (-44)), (f (195103586505167) (-38))⟩ : Itv)]))),
    .call ((Cmd.run (.op [(⟨(f (-6231120794008787) (-44)), (f 0 0)⟩ : Itv)]))),
    .call ((Cmd.run (.op [(⟨(f (-6231120794008787) (-44)), .nzero⟩ : Itv)]))),
    .call ((Cmd.run (.op [(⟨(f (-6231120794008787) (-44)), (f 1 0)⟩ : Itv)]))),
    .call ((Cmd.run (.op [(⟨(f 1 0), (f 5 0)⟩ : Itv)]))),
    .call ((Cmd.run (.op [(⟨(f (-3740158532571577) (-50)), (f (4069801476752429) (-51))⟩ : Itv)]))),
    .call ((Cmd.run (.op [(⟨(f (1723830999229735) (-51)), (f (6954774044934185) (-46))⟩ : Itv)]))),
    .call ((Cmd.run (.op [(⟨(f (6614824233729337) (-49)), (f (7315664758876059) (-48))⟩ : Itv)]))),
    .state 4108 [],
    .call clearFlags,
    .call (do (Cmd.run (.op [(⟨(f 1 0), (f (-9007199254740991) (971))⟩ : Itv)])); (Cmd.run (.op [(Itv.empty : Itv)]))),
    .state 4112 [.invalidOperand],
    .call clearFlags,
    .call (setCwd (bitsOf [.invalidOperand])),
    .throws 4115 ((Cmd.run (.op [(⟨(f 1 0), (f (-3) (0))⟩ : Itv)]))) .invalidOperand,
    .state 4116 [.invalidOperand],
    .call clearFlags,
    .call (setCwd (bitsOf []))] ExSt.init = [] := by
  decide +kernel

/-- `minimal_exp_mixedtype_test` -/
example : failed [
    .call ((Cmd.run (.op [(⟨(f (390207173010335) (-39)), (f (390207173010335) (-39))⟩ : Itv)]))),
    .call ((Cmd.run (.op [(⟨(f 0 0), (f (726817) (-10))⟩ : Itv)]))),
    .state 4126 [],
    .call clearFlags,
    .call (do (Cmd.run (.op [(⟨(f 1 0), (f (-9007199254740991) (971))⟩ : Itv)])); (Cmd.run (.op [(Itv.empty : Itv)]))),
    .state 4130 [.invalidOperand],
    .call clearFlags,
    .call (setCwd (bitsOf [.invalidOperand])),
    .throws 4133 ((Cmd.run (.op [(⟨(f 1 0), (f (-3) (0))⟩ : Itv)]))) .invalidOperand,
    .state 4134 [.invalidOperand],
    .call clearFlags,
    .call (setCwd (bitsOf []))] ExSt.init = [] := by
  decide +kernel

/-- `minimal_exp_dec_test` -/
example : failed [
    .call ((Cmd.run (.opD [(⟨⟨(f (390207173010335) (-39)), (f (390207173010335) (-39))⟩, .com⟩ : DItv)]))),
    .call ((Cmd.run (.opD [(⟨⟨(f 0 0), (f (195103586505167) (-38))⟩, .defd⟩ : DItv)]))),
    .state 4145 [],
    .call clearFlags,
    .call (do (Cmd.run (.opD [(⟨⟨(f 1 0), (f (-9007199254740991) (971))⟩, .com⟩ : DItv)])); (Cmd.run (.opD [(DItv.empty : DItv)]))),
    .state 4149 [.invalidOperand],
    .call clearFlags,
    .call (setCwd (bitsOf [.invalidOperand])),
    .throws 4152 ((Cmd.run (.opD [(⟨⟨(f 1 0), (f (-3) (0))⟩, .com⟩ : DItv)]))) .invalidOperand,
    .state 4153 [.invalidOperand],
    .call clearFlags,
    .call (setCwd (bitsOf []))] ExSt.init = [] := by
  decide +kernel

/-- `minimal_exp_dec_mixedtype_test` -/
example : failed [
    .call ((Cmd.run (.opD [(⟨⟨(f (390207173010335) (-39)), (f (390207173010335) (-39))⟩, .com⟩ : DItv)]))),
    .call ((Cmd.run (.opD [(⟨⟨(f 0 0), (f (726817) (-10))⟩, .trv⟩ : DItv)]))),
    .state 4163 [],
    .call clearFlags,
    .call (do (Cmd.run (.opD [(⟨⟨(f 1 0), (f (-9007199254740991) (971))⟩, .com⟩ : DItv)])); (Cmd.run (.opD [(DItv.empty : DItv)]))),
    .state 4167 [.invalidOperand],
    .call clearFlags,
    .call (setCwd (bitsOf [.invalidOperand])),
    .throws 4170 ((Cmd.run (.opD [(⟨⟨(f 1 0), (f (-3) (0))⟩, .com⟩ : DItv)]))) .invalidOperand,
    .state 4171 [.invalidOperand],
    .call clearFlags,
    .call (setCwd (bitsOf []))] ExSt.init = [] := by
  decide +kernel

/-- `minimal_exp2_test` -/
example : failed [
    .call (do (Cmd.run (.op [(Itv.empty : Itv)])); (Cmd.run (.op [(Itv.empty : Itv)]))),
    .call ((Cmd.run (.op [(⟨.ninf, (f 0 0)⟩ : Itv)]))),
    .call ((Cmd.run (.op [(⟨.ninf, .nzero⟩ : Itv)]))),
    .call ((Cmd.run (.op [(⟨(f 0 0), .pinf⟩ : Itv)]))),
    .call ((Cmd.run (.op [(⟨.nzero, .pinf⟩ : Itv)]))),
    .call ((Cmd.run (.op [(Itv.entire : Itv)]))),
    .call ((Cmd.run (.op [(⟨.ninf, (f 1024 0)⟩ : Itv)]))),
    .call ((Cmd.run (.op [(⟨(f 1024 0), (f 1024 0)⟩ : Itv)]))),
    .call ((Cmd.run (.op [(⟨(f 0 0), (f 1023 0)⟩ : Itv)]))),
    .call ((Cmd.run (.op [(⟨.nzero, (f 1023 0)⟩ : Itv)]))),
    .call ((Cmd.run (.op [(⟨(f (-1022) (0)), (f 1023 0)⟩ : Itv)]))),
    .call ((Cmd.run (.op [(⟨(f (-1022) (0)), (f 0 0)⟩ : Itv)]))),
    .call ((Cmd.run (.op [(⟨(f (-1022) (0)), .nzero⟩ : Itv)]))),
    .call ((Cmd.run (.op [(⟨(f (-1022) (0)), (f 1 0)⟩ : Itv)]))),
    .call ((Cmd.run (.op [(⟨(f 1 0), (f 5 0)⟩ : Itv)]))),
    .call ((Cmd.run (.op [(⟨(f (-3740158532571577) (-50)), (f (4069801476752429) (-51))⟩ : Itv)]))),
    .call ((Cmd.run (.op [(⟨(f (1723830999229735) (-51)), (f (6954774044934185) (-46))⟩ : Itv)]))),
    .call ((Cmd.run (.op [(⟨(f (6614824233729337) (-49)), (f (7315664758876059) (-48))⟩ : Itv)]))),
    .state 4205 [],
    .call clearFlags,
    .call (do (Cmd.run (.op [(⟨(f 1 0), (f (-9007199254740991) (971))⟩ : Itv)])); (Cmd.run (.op [(Itv.empty : Itv)]))),
    .state 4209 [.invalidOperand],
    .call clearFlags,
    .call (setCwd (bitsOf [.invalidOperand])),
    .throws 4212 ((Cmd.run (.op [(⟨(f 1 0), (f (-3) (0))⟩ : Itv)]))) .invalidOperand,
    .state 4213 [.invalidOperand],
    .call clearFlags,
    .call (setCwd (bitsOf []))] ExSt.init = [] := by
  decide +kernel

/-- `minimal_exp2_mixedtype_test` -/
example : failed [
    .call ((Cmd.run (.op [(⟨(f 1024 0), (f 1024 0)⟩ : Itv)]))),
    .call ((Cmd.run (.op [(⟨(f (12843541) (-24)), (f (3238569) (-15))⟩ : Itv)]))),
    .state 4223 [],
    .call clearFlags,
    .call (do (Cmd.run (.op [(⟨(f 1 0), (f (-9007199254740991) (971))⟩ : Itv)])); (Cmd.run (.op [(Itv.empty : Itv)]))),
    .state 4227 [.invalidOperand],
    .call clearFlags,
    .call (setCwd (bitsOf [.invalidOperand])),
    .throws 4230 ((Cmd.run (.op [(⟨(f 1 0), (f (-3) (0))⟩ : Itv)]))) .invalidOperand,
    .state 4231 [.invalidOperand],
    .call clearFlags,
    .call (setCwd (bitsOf []))] ExSt.init = [] := by
  decide +kernel

/-- `minimal_exp2_dec_test` -/
example : failed [
    .call ((Cmd.run (.opD [(⟨⟨(f 1024 0), (f 1024 0)⟩, .com⟩ : DItv)]))),
    .call ((Cmd.run (.opD [(⟨⟨(f (1723830999229735) (-51)), (f (6954774044934185) (-46))⟩, .defd⟩ : DItv)]))),
    .state 4242 [],
    .call clearFlags,
    .call (do (Cmd.run (.opD [(⟨⟨(f 1 0), (f (-9007199254740991) (971))⟩, .com⟩ : DItv)])); (Cmd.run (.opD [(DItv.empty : DItv)]))),
    .state 4246 [.invalidOperand],
    .call clearFlags,
    .call (setCwd (bitsOf [.invalidOperand])),
    .throws 4249 ((Cmd.run (.opD [(⟨⟨(f 1 0), (f (-3) (0))⟩, .com⟩ : DItv)]))) .invalidOperand,
    .state 4250 [.invalidOperand],
    .call clearFlags,
    .call (setCwd (bitsOf []))] ExSt.init = [] := by
  decide +kernel

/-- `minimal_exp2_dec_mixedtype_test` -/
example : failed [
    .call ((Cmd.run (.opD [(⟨⟨(f 1024 0), (f 1024 0)⟩, .com⟩ : DItv)]))),
    .call ((Cmd.run (.opD [(⟨⟨(f (12843541) (-24)), (f (3238569) (-15))⟩, .trv⟩ : DItv)]))),
    .state 4260 [],
    .call clearFlags,
    .call (do (Cmd.run (.opD [(⟨⟨(f 1 0), (f (-9007199254740991) (971))⟩, .com⟩ : DItv)])); (Cmd.run (.opD [(DItv.empty : DItv)]))),
    .state 4264 [.invalidOperand],
    .call clearFlags,
    .call (setCwd (bitsOf [.invalidOperand])),
    .throws 4267 ((Cmd.run (.opD [(⟨⟨(f 1 0), (f (-3) (0))⟩, .com⟩ : DItv)]))) .invalidOperand,
    .state 4268 [.invalidOperand],
    .call clearFlags,
    .call (setCwd (bitsOf []))] ExSt.init = [] := by
  decide +kernel

/-- `minimal_exp10_test` -/
example : failed [
    .call (do (Cmd.run (.op [(Itv.empty : Itv)])); (Cmd.run (.op [(Itv.empty : Itv)]))),
    .call ((Cmd.run (.op [(⟨.ninf, (f 0 0)⟩ : Itv)]))),
    .call ((Cmd.run (.op [(⟨.ninf, .nzero⟩ : Itv)]))),
    .call ((Cmd.run (.op [(⟨(f 0 0), .pinf⟩ : Itv)]))),
    .call ((Cmd.run (.op [(⟨.nzero, .pinf⟩ : Itv)]))),
    .call ((Cmd.run (.op [(Itv.entire : Itv)]))),
    .call ((Cmd.run (.op [(⟨.ninf, (f (5422874305198591) (-44))⟩ : Itv)]))),
    .call ((Cmd.run (.op [(⟨(f (5422874305198591) (-44)), (f (5422874305198591) (-44))⟩ : Itv)]))),
    .call ((Cmd.run (.op [(⟨(f 0 0), (f (2711437152599295) (-43))⟩ : Itv)]))),
    .call ((Cmd.run (.op [(⟨.nzero, (f (2711437152599295) (-43))⟩ : Itv)]))),
    .call ((Cmd.run (.op [(⟨(f (-2706141376910625) (-43)), (f (2711437152599295) (-43))⟩ : Itv)]))),
    .call ((Cmd.run (.op [(⟨(f (-145) (0)), (f (2711437152599295) (-43))⟩ : Itv)]))),
    .call ((Cmd.run (.op [(⟨(f (-145) (0)), (f 0 0)⟩ : Itv)]))),
    .call ((Cmd.run (.op [(⟨(f (-145) (0)), .nzero⟩ : Itv)]))),
    .call ((Cmd.run (.op [(⟨(f (-145) (0)), (f 1 0)⟩ : Itv)]))),
    .call ((Cmd.run (.op [(⟨(f 1 0), (f 5 0)⟩ : Itv)]))),
    .call ((Cmd.run (.op [(⟨(f (-3740158532571577) (-50)), (f (4069801476752429) (-51))⟩ : Itv)]))),
    .call ((Cmd.run (.op [(⟨(f (1723830999229735) (-51)), (f (6954774044934185) (-46))⟩ : Itv)]))),
    .call ((Cmd.run (.op [(⟨(f (6614824233729337) (-49)), (f (7315664758876059) (-48))⟩ : Itv)]))),
    .state 4304 [],
    .call clearFlags,
    .call (do (Cmd.run (.op [(⟨(f 1 0), (f (-9007199254740991) (971))⟩ : Itv)])); (Cmd.run (.op [(Itv.empty : Itv)]))),
    .state 4308 [.invalidOperand],
    .call clearFlags,
    .call (setCwd (bitsOf [.invalidOperand])),
    .throws 4311 ((Cmd.run (.op [(⟨(f 1 0), (f (-3) (0))⟩ : Itv)]))) .invalidOperand,
    .state 4312 [.invalidOperand],
    .call clearFlags,
    .call (setCwd (bitsOf []))] ExSt.init = [] := by
  decide +kernel

/-- `minimal_exp10_mixedtype_test` -/
example : failed [
    .call ((Cmd.run (.op [(⟨(f (5422874305198591) (-44)), (f (5422874305198591) (-44))⟩ : Itv)]))),
    .call ((Cmd.run (.op [(⟨(f (12843541) (-24)), (f (3238569) (-15))⟩ : Itv)]))),
    .state 4322 [],
    .call clearFlags,
    .call (do (Cmd.run (.op [(⟨(f 1 0), (f (-9007199254740991) (971))⟩ : Itv)])); (Cmd.run (.op [(Itv.empty : Itv)]))),
    .state 4326 [.invalidOperand],
    .call clearFlags,
    .call (setCwd (bitsOf [.invalidOperand])),
    .throws 4329 ((Cmd.run (.op [(⟨(f 1 0), (f (-3) (0))⟩ : Itv)]))) .invalidOperand,
    .state 4330 [.invalidOperand],
    .call clearFlags,
    .call (setCwd (bitsOf []))] ExSt.init = [] := by
  decide +kernel

/-- `minimal_exp10_dec_test` -/
example : failed [
    .call ((Cmd.run (.opD [(⟨⟨(f (5422874305198591) (-44)), (f (5422874305198591) (-44))⟩, .com⟩ : DItv)]))),
    .call ((Cmd.run (.opD [(⟨⟨(f (1723830999229735) (-51)), (f (6954774044934185) (-46))⟩, .defd⟩ : DItv)]))),
    .state 4341 [],
    .call clearFlags,
    .call (do (Cmd.run (.opD [(⟨⟨(f 1 0), (f (-9007199254740991) (971))⟩, .com⟩ : DItv)])); (Cmd.run (.opD [(DItv.empty : DItv)]))),
    .state 4345 [.invalidOperand],
    .call clearFlags,
    .call (setCwd (bitsOf [.invalidOperand])),
    .throws 4348 ((Cmd.run (.opD [(⟨⟨(f 1 0), (f (-3) (0))⟩, .com⟩ : DItv)]))) .invalidOperand,
    .state 4349 [.invalidOperand],
    .call clearFlags,
    .call (setCwd (bitsOf []))] ExSt.init = [] := by
  decide +kernel

/-- `minimal_exp10_dec_mixedtype_test` -/
example : failed [
    .call ((Cmd.run (.opD [(⟨⟨(f (5422874305198591) (-44)), (f (5422874305198591) (-44))⟩, .com⟩ : DItv)]))),
    .call ((Cmd.run (.opD [(⟨⟨(f (12843541) (-24)), (f (3238569) (-15))⟩, .trv⟩ : DItv)]))),
    .state 4359 [],
    .call clearFlags,
    .call (do (Cmd.run (.opD [(⟨⟨(f 1 0), (f (-9007199254740991) (971))⟩, .com⟩ : DItv)])); (Cmd.run (.opD [(DItv.empty : DItv)]))),
    .state 4363 [.invalidOperand],
    .call clearFlags,
    .call (setCwd (bitsOf [.invalidOperand])),
    .throws 4366 ((Cmd.run (.opD [(⟨⟨(f 1 0), (f (-3) (0))⟩, .com⟩ : DItv)]))) .invalidOperand,
    .state 4367 [.invalidOperand],
    .call clearFlags,
    .call (setCwd (bitsOf []))] ExSt.init = [] := by
  decide +kernel

/-- `minimal_log_test` -/
example : failed [
    .call (do (Cmd.run (.op [(Itv.empty : Itv)])); (Cmd.run (.op [(Itv.empty : Itv)]))),
    .call (do (Cmd.run (.op [(⟨.ninf, (f 0 0)⟩ : Itv)])); (Cmd.run (.op [(Itv.empty : Itv)]))),
    .call (do (Cmd.run (.op [(⟨.ninf, .nzero⟩ : Itv)])); (Cmd.run (.op [(Itv.empty : Itv)]))),
    .call ((Cmd.run (.op [(⟨(f 0 0), (f 1 0)⟩ : Itv)]))),
    .call ((Cmd.run (.op [(⟨.nzero, (f 1 0)⟩ : Itv)]))),
    .call ((Cmd.run (.op [(⟨(f 1 0), .pinf⟩ : Itv)]))),
    .call ((Cmd.run (.op [(⟨(f 0 0), .pinf⟩ : Itv)]))),
    .call ((Cmd.run (.op [(⟨.nzero, .pinf⟩ : Itv)]))),
    .call ((Cmd.run (.op [(Itv.entire : Itv)]))),
    .call ((Cmd.run (.op [(⟨(f 0 0), (f 9007199254740991 971)⟩ : Itv)]))),
    .call ((Cmd.run (.op [(⟨.nzero, (f 9007199254740991 971)⟩ : Itv)]))),
    .call ((Cmd.run (.op [(⟨(f 1 0), (f 9007199254740991 971)⟩ : Itv)]))),
    .call ((Cmd.run (.op [(⟨(f (1) (-1022)), (f 9007199254740991 971)⟩ : Itv)]))),
    .call ((Cmd.run (.op [(⟨(f (1) (-1022)), (f 1 0)⟩ : Itv)]))),
    .call ((Cmd.run (.op [(⟨(f (6121026514868073) (-51)), (f (6121026514868073) (-51))⟩ : Itv)]))),
    .call ((Cmd.run (.op [(⟨(f (3060513257434037) (-50)), (f (3060513257434037) (-50))⟩ : Itv)]))),
    .call ((Cmd.run (.op [(⟨(f (1) (-1022)), (f (3060513257434037) (-50))⟩ : Itv)]))),
    .call ((Cmd.run (.op [(⟨(f (6121026514868073) (-51)), (f 32 0)⟩ : Itv)]))),
    .call ((Cmd.run (.op [(⟨(f (3602879701896397) (-55)), (f (7) (-1))⟩ : Itv)]))),
    .call ((Cmd.run (.op [(⟨(f (7656119366529843) (-52)), (f 8024225258572591 46)⟩ : Itv)]))),
    .call ((Cmd.run (.op [(⟨(f (7575635122853985) (-41)), (f (2236962133333331) (-25))⟩ : Itv)]))),
    .state 4406 [],
    .call clearFlags,
    .call (do (Cmd.run (.op [(⟨(f 1 0), (f (-9007199254740991) (971))⟩ : Itv)])); (Cmd.run (.op [(Itv.empty : Itv)]))),
    .state 4410 [.invalidOperand],
    .call clearFlags,
    .call (setCwd (bitsOf [.invalidOperand])),
    .throws 4413 ((Cmd.run (.op [(⟨(f 1 0), (f (-3) (0))⟩ : Itv)]))) .invalidOperand,
    .state 4414 [.invalidOperand],
    .call clearFlags,
    .call (setCwd (bitsOf []))] ExSt.init = [] := by
  decide +kernel

/-- `minimal_log_mixedtype_test` -/
example : failed [
    .call ((Cmd.run (.op [(⟨(f (3602879701896397) (-55)), (f (7) (-1))⟩ : Itv)]))),
    .call ((Cmd.run (.op [(⟨(f (7130317) (-22)), (f 14946285 75)⟩ : Itv)]))),
    .state 4425 [],
    .call clearFlags,
    .call (do (Cmd.run (.op [(⟨(f 1 0), (f (-9007199254740991) (971))⟩ : Itv)])); (Cmd.run (.op [(Itv.empty : Itv)]))),
    .state 4429 [.invalidOperand],
    .call clearFlags,
    .call (setCwd (bitsOf [.invalidOperand])),
    .throws 4432 ((Cmd.run (.op [(⟨(f 1 0), (f (-3) (0))⟩ : Itv)]))) .invalidOperand,
    .state 4433 [.invalidOperand],
    .call clearFlags,
    .call (setCwd (bitsOf []))] ExSt.init = [] := by
  decide +kernel

/-- `minimal_log_dec_test` -/
example : failed [
    .call ((Cmd.run (.opD [(⟨⟨(f (1) (-1022)), (f 9007199254740991 971)⟩, .com⟩ : DItv)]))),
    .call ((Cmd.run (.opD [(⟨⟨(f 0 0), (f 1 0)⟩, .com⟩ : DItv)]))),
    .call ((Cmd.run (.opD [(⟨⟨(f (3060513257434037) (-50)), (f (3060513257434037) (-50))⟩, .defd⟩ : DItv)]))),
    .state 4444 [],
    .call clearFlags,
    .call (do (Cmd.run (.opD [(⟨⟨(f 1 0), (f (-9007199254740991) (971))⟩, .com⟩ : DItv)])); (Cmd.run (.opD [(DItv.empty : DItv)]))),
    .state 4448 [.invalidOperand],
    .call clearFlags,
    .call (setCwd (bitsOf [.invalidOperand])),
    .throws 4451 ((Cmd.run (.opD [(⟨⟨(f 1 0), (f (-3) (0))⟩, .com⟩ : DItv)]))) .invalidOperand,
    .state 4452 [.invalidOperand],
    .call clearFlags,
    .call (setCwd (bitsOf []))] ExSt.init = [] := by
  decide +kernel

/-- `minimal_log_dec_mixedtype_test` -/
example : failed [
    .call ((Cmd.run (.opD [(⟨⟨(f (3602879701896397) (-55)), (f (7) (-1))⟩, .com⟩ : DItv)]))),
    .call ((Cmd.run (.opD [(⟨⟨(f (7130317) (-22)), (f 14946285 75)⟩, .defd⟩ : DItv)]))),
    .state 4462 [],
    .call clearFlags,
    .call (do (Cmd.run (.opD [(⟨⟨(f 1 0), (f (-9007199254740991) (971))⟩, .com⟩ : DItv)])); (Cmd.run (.opD [(DItv.empty : DItv)]))),
    .state 4466 [.invalidOperand],
    .call clearFlags,
    .call (setCwd (bitsOf [.invalidOperand])),
    .throws 4469 ((Cmd.run (.opD [(⟨⟨(f 1 0), (f (-3) (0))⟩, .com⟩ : DItv)]))) .invalidOperand,
    .state 4470 [.invalidOperand],
    .call clearFlags,
    .call (setCwd (bitsOf []))] ExSt.init = [] := by
  decide +kernel

/-- `minimal_log2_test` -/
example : failed [
    .call (do (Cmd.run (.op [(Itv.empty : Itv)])); (Cmd.run (.op [(Itv.empty : Itv)]))),
    .call (do (Cmd.run (.op [(⟨.ninf, (f 0 0)⟩ : Itv)])); (Cmd.run (.op [(Itv.empty : Itv)]))),
    .call (do (Cmd.run (.op [(⟨.ninf, .nzero⟩ : Itv)])); (Cmd.run (.op [(Itv.empty : Itv)]))),
    .call ((Cmd.run (.op [(⟨(f 0 0), (f 1 0)⟩ : Itv)]))),
    .call ((Cmd.run (.op [(⟨.nzero, (f 1 0)⟩ : Itv)]))),
    .call ((Cmd.run (.op [(⟨(f 1 0), .pinf⟩ : Itv)]))),
    .call ((Cmd.run (.op [(⟨(f 0 0), .pinf⟩ : Itv)]))),
    .call ((Cmd.run (.op [(⟨.nzero, .pinf⟩ : Itv)]))),
    .call ((Cmd.run (.op [(Itv.entire : Itv)]))),
    .call ((Cmd.run (.op [(⟨(f 0 0), (f 9007199254740991 971)⟩ : Itv)]))),
    .call ((Cmd.run (.op [(⟨.nzero, (f 9007199254740991 971)⟩ : Itv)]))),
    .call ((Cmd.run (.op [(⟨(f 1 0), (f 9007199254740991 971)⟩ : Itv)]))),
    .call ((Cmd.run (.op [(⟨(f (1) (-1022)), (f 9007199254740991 971)⟩ : Itv)]))),
    .call ((Cmd.run (.op [(⟨(f (1) (-1022)), (f 1 0)⟩ : Itv)]))),
    .call ((Cmd.run (.op [(⟨(f (1) (-1022)), (f 2 0)⟩ : Itv)]))),
    .call ((Cmd.run (.op [(⟨(f 2 0), (f 32 0)⟩ : Itv)]))),
    .call ((Cmd.run (.op [(⟨(f (3602879701896397) (-55)), (f (7) (-1))⟩ : Itv)]))),
    .call ((Cmd.run (.op [(⟨(f (7656119366529843) (-52)), (f 8024225258572591 46)⟩ : Itv)]))),
    .call ((Cmd.run (.op [(⟨(f (7575635122853985) (-41)), (f (2236962133333331) (-25))⟩ : Itv)]))),
    .state 4504 [],
    .call clearFlags,
    .call (do (Cmd.run (.op [(⟨(f 1 0), (f (-9007199254740991) (971))⟩ : Itv)])); (Cmd.run (.op [(Itv.empty : Itv)]))),
    .state 4508 [.invalidOperand],
    .call clearFlags,
    .call (setCwd (bitsOf [.invalidOperand])),
    .throws 4511 ((Cmd.run (.op [(⟨(f 1 0), (f (-3) (0))⟩ : Itv)]))) .invalidOperand,
    .state 4512 [.invalidOperand],
    .call clearFlags,
    .call (setCwd (bitsOf []))] ExSt.init = [] := by
  decide +kernel

/-- `minimal_log2_mixedtype_test` -/
example : failed [
    .call ((Cmd.run (.op [(⟨(f (3602879701896397) (-55)), (f (7) (-1))⟩ : Itv)]))),
    .call ((Cmd.run (.op [(⟨(f (7130317) (-22)), (f 14946285 75)⟩ : Itv)]))),
    .state 4522 [],
    .call clearFlags,
    .call (do (Cmd.run (.op [(⟨(f 1 0), (f (-9007199254740991) (971))⟩ : Itv)])); (Cmd.run (.op [(Itv.empty : Itv)]))),
    .state 4526 [.invalidOperand],
    .call clearFlags,
    .call (setCwd (bitsOf [.invalidOperand])),
    .throws 4529 ((Cmd.run (.op [(⟨(f 1 0), (f (-3) (0))⟩ : Itv)]))) .invalidOperand,
    .state 4530 [.invalidOperand],
    .call clearFlags,
    .call (setCwd (bitsOf []))] ExSt.init = [] := by
  decide +kernel

/-- `minimal_log2_dec_test` -/
example : failed [
    .call ((Cmd.run (.opD [(⟨⟨(f (1) (-1022)), (f 9007199254740991 971)⟩, .com⟩ : DItv)]))),
    .call ((Cmd.run (.opD [(⟨⟨(f (1) (-1022)), .pinf⟩, .dac⟩ : DItv)]))),
    .call ((Cmd.run (.opD [(⟨⟨(f 2 0), (f 32 0)⟩, .defd⟩ : DItv)]))),
    .call ((Cmd.run (.opD [(⟨⟨(f 0 0), (f 9007199254740991 971)⟩, .com⟩ : DItv)]))),
    .state 4542 [],
    .call clearFlags,
    .call (do (Cmd.run (.opD [(⟨⟨(f 1 0), (f (-9007199254740991) (971))⟩, .com⟩ : DItv)])); (Cmd.run (.opD [(DItv.empty : DItv)]))),
    .state 4546 [.invalidOperand],
    .call clearFlags,
    .call (setCwd (bitsOf [.invalidOperand])),
    .throws 4549 ((Cmd.run (.opD [(⟨⟨(f 1 0), (f (-3) (0))⟩, .com⟩ : DItv)]))) .invalidOperand,
    .state 4550 [.invalidOperand],
    .call clearFlags,
    .call (setCwd (bitsOf []))] ExSt.init = [] := by
  decide +kernel

/-- `minimal_log2_dec_mixedtype_test` -/
example : failed [
    .call ((Cmd.run (.opD [(⟨⟨(f (3602879701896397) (-55)), (f (7) (-1))⟩, .com⟩ : DItv)]))),
    .call ((Cmd.run (.opD [(⟨⟨(f (7130317) (-22)), (f 14946285 75)⟩, .dac⟩ : DItv)]))),
    .state 4560 [],
    .call clearFlags,
    .call (do (Cmd.run (.opD [(⟨⟨(f 1 0), (f (-9007199254740991) (971))⟩, .com⟩ : DItv)])); (Cmd.run (.opD [(DItv.empty : DItv)]))),
    .state 4564 [.invalidOperand],
    .call clearFlags,
    .call (setCwd (bitsOf [.invalidOperand])),
    .throws 4567 ((Cmd.run (.opD [(⟨⟨(f 1 0), (f (-3) (0))⟩, .com⟩ : DItv)]))) .invalidOperand,
    .state 4568 [.invalidOperand],
    .call clearFlags,
    .call (setCwd (bitsOf []))] ExSt.init = [] := by
  decide +kernel

/-- `minimal_log10_test` -/
example : failed [
    .call (do (Cmd.run (.op [(Itv.empty : Itv)])); (Cmd.run (.op [(Itv.empty : Itv)]))),
    .call (do (Cmd.run (.op [(⟨.ninf, (f 0 0)⟩ : Itv)])); (Cmd.run (.op [(Itv.empty : Itv)]))),
    .call (do (Cmd.run (.op [(⟨.ninf, .nzero⟩ : Itv)])); (Cmd.run (.op [(Itv.empty : Itv)]))),
    .call ((Cmd.run (.op [(⟨(f 0 0), (f 1 0)⟩ : Itv)]))),
    .call ((Cmd.run (.op [(⟨.nzero, (f 1 0)⟩ : Itv)]))),
    .call ((Cmd.run (.op [(⟨(f 1 0), .pinf⟩ : Itv)]))),
    .call ((Cmd.run (.op [(⟨(f 0 0), .pinf⟩ : Itv)]))),
    .call ((Cmd.run (.op [(⟨.nzero, .pinf⟩ : Itv)]))),
    .call ((Cmd.run (.op [(Itv.entire : Itv)]))),
    .call ((Cmd.run (.op [(⟨(f 0 0), (f 9007199254740991 971)⟩ : Itv)]))),
    .call ((Cmd.run (.op [(⟨.nzero, (f 9007199254740991 971)⟩ : Itv)]))),
    .call ((Cmd.run (.op [(⟨(f 1 0), (f 9007199254740991 971)⟩ : Itv)]))),
    .call ((Cmd.run (.op [(⟨(f (1) (-1022)), (f 9007199254740991 971)⟩ : Itv)]))),
    .call ((Cmd.run (.op [(⟨(f (1) (-1022)), (f 1 0)⟩ : Itv)]))),
    .call ((Cmd.run (.op [(⟨(f (1) (-1022)), (f 10 0)⟩ : Itv)]))),
    .call ((Cmd.run (.op [(⟨(f 10 0), (f 100000 0)⟩ : Itv)]))),
    .call ((Cmd.run (.op [(⟨(f (3602879701896397) (-55)), (f (7) (-1))⟩ : Itv)]))),
    .call ((Cmd.run (.op [(⟨(f (3602879701896397) (-55)), (f (3602879701896397) (-55))⟩ : Itv)]))),
    .call ((Cmd.run (.op [(⟨(f (7656119366529843) (-52)), (f 8024225258572591 46)⟩ : Itv)]))),
    .call ((Cmd.run (.op [(⟨(f (7575635122853985) (-41)), (f (2236962133333331) (-25))⟩ : Itv)]))),
    .state 4604 [],
    .call clearFlags,
    .call (do (Cmd.run (.op [(⟨(f 1 0), (f (-9007199254740991) (971))⟩ : Itv)])); (Cmd.run (.op [(Itv.empty : Itv)]))),
    .state 4608 [.invalidOperand],
    .call clearFlags,
    .call (setCwd (bitsOf [.invalidOperand])),
    .throws 4611 ((Cmd.run (.op [(⟨(f 1 0), (f (-3) (0))⟩ : Itv)]))) .invalidOperand,
    .state 4612 [.invalidOperand],
    .call clearFlags,
    .call (setCwd (bitsOf []))] ExSt.init = [] := by
  decide +kernel

/-- `minimal_log10_mixedtype_test` -/
example : failed [
    .call ((Cmd.run (.op [(⟨(f (1) (-1022)), (f 9007199254740991 971)⟩ : Itv)]))),
    .call ((Cmd.run (.op [(⟨(f (7130317) (-22)), (f 14946285 75)⟩ : Itv)]))),
    .state 4622 [],
    .call clearFlags,
    .call (do (Cmd.run (.op [(⟨(f 1 0), (f (-9007199254740991) (971))⟩ : Itv)])); (Cmd.run (.op [(Itv.empty : Itv)]))),
    .state 4626 [.invalidOperand],
    .call clearFlags,
    .call (setCwd (bitsOf [.invalidOperand])),
    .throws 4629 ((Cmd.run (.op [(⟨(f 1 0), (f (-3) (0))⟩ : Itv)]))) .invalidOperand,
    .state 4630 [.invalidOperand],
    .call clearFlags,
    .call (setCwd (bitsOf []))] ExSt.init = [] := by
  decide +kernel

/-- `minimal_log10_dec_test` -/
example : failed [
    .call ((Cmd.run (.opD [(⟨⟨(f (1) (-1022)), (f 9007199254740991 971)⟩, .com⟩ : DItv)]))),
    .call ((Cmd.run (.opD [(⟨⟨(f 0 0), (f 9007199254740991 971)⟩, .dac⟩ : DItv)]))),
    .state 4640 [],
    .call clearFlags,
    .call (do (Cmd.run (.opD [(⟨⟨(f 1 0), (f (-9007199254740991) (971))⟩, .com⟩ : DItv)])); (Cmd.run (.opD [(DItv.empty : DItv)]))),
    .state 4644 [.invalidOperand],
    .call clearFlags,
    .call (setCwd (bitsOf [.invalidOperand])),
    .throws 4647 ((Cmd.run (.opD [(⟨⟨(f 1 0), (f (-3) (0))⟩, .com⟩ : DItv)]))) .invalidOperand,
    .state 4648 [.invalidOperand],
    .call clearFlags,
    .call (setCwd (bitsOf []))] ExSt.init = [] := by
  decide +kernel

/-- `minimal_log10_dec_mixedtype_test` -/
example : failed [
    .call ((Cmd.run (.opD [(⟨⟨(f (1) (-1022)), (f 9007199254740991 971)⟩, .com⟩ : DItv)]))),
    .call ((Cmd.run (.opD [(⟨⟨(f (7130317) (-22)), (f 14946285 75)⟩, .dac⟩ : DItv)]))),
    .state 4658 [],
    .call clearFlags,
    .call (do (Cmd.run (.opD [(⟨⟨(f 1 0), (f (-9007199254740991) (971))⟩, .com⟩ : DItv)])); (Cmd.run (.opD [(DItv.empty : DItv)]))),
    .state 4662 [.invalidOperand],
    .call clearFlags,
    .call (setCwd (bitsOf [.invalidOperand])),
    .throws 4665 ((Cmd.run (.opD [(⟨⟨(f 1 0), (f (-3) (0))⟩, .com⟩ : DItv)]))) .invalidOperand,
    .state 4666 [.invalidOperand],
    .call clearFlags,
    .call (setCwd (bitsOf []))] ExSt.init = [] := by
  decide +kernel

/-- `minimal_sin_test` -/
example : failed [
    .call (do (Cmd.run (.op [(Itv.empty : Itv)])); (Cmd.run (.op [(Itv.empty : Itv)]))),
    .call ((Cmd.run (.op [(⟨(f 0 0), .pinf⟩ : Itv)]))),
    .call ((Cmd.run (.op [(⟨.nzero, .pinf⟩ : Itv)]))),
    .call ((Cmd.run (.op [(⟨.ninf, (f 0 0)⟩ : Itv)]))),
    .call ((Cmd.run (.op [(⟨.ninf, .nzero⟩ : Itv)]))),
    .call ((Cmd.run (.op [(Itv.entire : Itv)]))),
    .call ((Cmd.run (.op [(⟨(f 0 0), (f 0 0)⟩ : Itv)]))),
    .call ((Cmd.run (.op [(⟨.nzero, .nzero⟩ : Itv)]))),
    .call ((Cmd.run (.op [(⟨(f (884279719003555) (-49)), (f (884279719003555) (-49))⟩ : Itv)]))),
    .call ((Cmd.run (.op [(⟨(f (7074237752028441) (-52)), (f (7074237752028441) (-52))⟩ : Itv)]))),
    .call ((Cmd.run (.op [(⟨(f (884279719003555) (-49)), (f (7074237752028441) (-52))⟩ : Itv)]))),
    .call ((Cmd.run (.op [(⟨(f 0 0), (f (884279719003555) (-49))⟩ : Itv)]))),
    .call ((Cmd.run (.op [(⟨.nzero, (f (884279719003555) (-49))⟩ : Itv)]))),
    .call ((Cmd.run (.op [(⟨(f 0 0), (f (7074237752028441) (-52))⟩ : Itv)]))),
    .call ((Cmd.run (.op [(⟨.nzero, (f (7074237752028441) (-52))⟩ : Itv)]))),
    .call ((Cmd.run (.op [(⟨(f (884279719003555) (-48)), (f (884279719003555) (-48))⟩ : Itv)]))),
    .call ((Cmd.run (.op [(⟨(f (7074237752028441) (-51)), (f (7074237752028441) (-51))⟩ : Itv)]))),
    .call ((Cmd.run (.op [(⟨(f (884279719003555) (-48)), (f (7074237752028441) (-51))⟩ : Itv)]))),
    .call ((Cmd.run (.op [(⟨(f 0 0), (f (884279719003555) (-48))⟩ : Itv)]))),
    .call ((Cmd.run (.op [(⟨.nzero, (f (884279719003555) (-48))⟩ : Itv)]))),
    .call ((Cmd.run (.op [(⟨(f 0 0), (f (7074237752028441) (-51))⟩ : Itv)]))),
    .call ((Cmd.run (.op [(⟨.nzero, (f (7074237752028441) (-51))⟩ : Itv)]))),
    .call ((Cmd.run (.op [(⟨(f (884279719003555) (-49)), (f (884279719003555) (-48))⟩ : Itv)]))),
    .call ((Cmd.run (.op [(⟨(f (884279719003555) (-49)), (f (7074237752028441) (-51))⟩ : Itv)]))),
    .call ((Cmd.run (.op [(⟨(f (7074237752028441) (-52)), (f (884279719003555) (-48))⟩ : Itv)]))),
    .call ((Cmd.run (.op [(⟨(f (7074237752028441) (-52)), (f (7074237752028441) (-51))⟩ : Itv)]))),
    .call ((Cmd.run (.op [(⟨(f (-884279719003555) (-49)), (f (-884279719003555) (-49))⟩ : Itv)]))),
    .call ((Cmd.run (.op [(⟨(f (-7074237752028441) (-52)), (f (-7074237752028441) (-52))⟩ : Itv)]))),
    .call ((Cmd.run (.op [(⟨(f (-7074237752028441) (-52)), (f (-884279719003555) (-49))⟩ : Itv)]))),
    .call ((Cmd.run (.op [(⟨(f (-884279719003555) (-49)), (f 0 0)⟩ : Itv)]))),
    .call ((Cmd.run (.op [(⟨(f (-884279719003555) (-49)), .nzero⟩ : Itv)]))),
    .call ((Cmd.run (.op [(⟨(f (-7074237752028441) (-52)), (f 0 0)⟩ : Itv)]))),
    .call ((Cmd.run (.op [(⟨(f (-7074237752028441) (-52)), .nzero⟩ : Itv)]))),
    .call ((Cmd.run (.op [(⟨(f (-884279719003555) (-48)), (f (-884279719003555) (-48))⟩ : Itv)]))),
    .call ((Cmd.run (.op [(⟨(f (-7074237752028441) (-51)), (f (-7074237752028441) (-51))⟩ : Itv)]))),
    .call ((Cmd.run (.op [(⟨(f (-7074237752028441) (-51)), (f (-884279719003555) (-48))⟩ : Itv)]))),
    .call ((Cmd.run (.op [(⟨(f (-884279719003555) (-48)), (f 0 0)⟩ : Itv)]))),
    .call ((Cmd.run (.op [(⟨(f (-884279719003555) (-48)), .nzero⟩ : Itv)]))),
    .call ((Cmd.run (.op [(⟨(f (-7074237752028441) (-51)), (f 0 0)⟩ : Itv)]))),
    .call ((Cmd.run (.op [(⟨(f (-7074237752028441) (-51)), .nzero⟩ : Itv)]))),
    .call ((Cmd.run (.op [(⟨(f (-884279719003555) (-48)), (f (-884279719003555) (-49))⟩ : Itv)]))),
    .call ((Cmd.run (.op [(⟨(f (-7074237752028441) (-51)), (f (-884279719003555) (-49))⟩ : Itv)]))),
    .call ((Cmd.run (.op [(⟨(f (-884279719003555) (-48)), (f (-7074237752028441) (-52))⟩ : Itv)]))),
    .call ((Cmd.run (.op [(⟨(f (-7074237752028441) (-51)), (f (-7074237752028441) (-52))⟩ : Itv)]))),
    .call ((Cmd.run (.op [(⟨(f (-884279719003555) (-49)), (f (884279719003555) (-49))⟩ : Itv)]))),
    .call ((Cmd.run (.op [(⟨(f (-884279719003555) (-49)), (f (7074237752028441) (-52))⟩ : Itv)]))),
    .call ((Cmd.run (.op [(⟨(f (-7074237752028441) (-52)), (f (884279719003555) (-49))⟩ : Itv)]))),
    .call ((Cmd.run (.op [(⟨(f (-7074237752028441) (-52)), (f (7074237752028441) (-52))⟩ : Itv)]))),
    .call ((Cmd.run (.op [(⟨(f (-3152519739159347) (-52)), (f (3602879701896397) (-55))⟩ : Itv)]))),
    .call ((Cmd.run (.op [(⟨(f 1 0), (f 2 0)⟩ : Itv)]))),
    .call ((Cmd.run (.op [(⟨(f (-3602879701896397) (-50)), (f (-6530219459687219) (-51))⟩ : Itv)]))),
    .call ((Cmd.run (.op [(⟨(f 2 0), (f 3 0)⟩ : Itv)]))),
    .state 4737 [],
    .call clearFlags,
    .call (do (Cmd.run (.op [(⟨(f 1 0), (f (-9007199254740991) (971))⟩ : Itv)])); (Cmd.run (.op [(Itv.empty : Itv)]))),
    .state 4741 [.invalidOperand],
    .call clearFlags,
    .call (setCwd (bitsOf [.invalidOperand])),
    .throws 4744 ((Cmd.run (.op [(⟨(f 1 0), (f (-3) (0))⟩ : Itv)]))) .invalidOperand,
    .state 4745 [.invalidOperand],
    .call clearFlags,
    .call (setCwd (bitsOf []))] ExSt.init = [] := by
  decide +kernel

/-- `minimal_sin_mixedtype_test` -/
example : failed [
    .call ((Cmd.run (.op [(⟨(f (6588397) (-21)), (f (13176795) (-22))⟩ : Itv)]))),
    .call ((Cmd.run (.op [(⟨(f (884279719003555) (-48)), (f (7074237752028441) (-51))⟩ : Itv)]))),
    .state 4755 [],
    .call clearFlags,
    .call (do (Cmd.run (.op [(⟨(f 1 0), (f (-9007199254740991) (971))⟩ : Itv)])); (Cmd.run (.op [(Itv.empty : Itv)]))),
    .state 4759 [.invalidOperand],
    .call clearFlags,
    .call (setCwd (bitsOf [.invalidOperand])),
    .throws 4762 ((Cmd.run (.op [(⟨(f 1 0), (f (-3) (0))⟩ : Itv)]))) .invalidOperand,
    .state 4763 [.invalidOperand],
    .call clearFlags,
    .call (setCwd (bitsOf []))] ExSt.init = [] := by
  decide +kernel

/-- `minimal_sin_dec_test` -/
example : failed [
    .call ((Cmd.run (.opD [(⟨⟨(f (-884279719003555) (-48)), (f (-884279719003555) (-49))⟩, .defd⟩ : DItv)]))),
    .call ((Cmd.run (.opD [(⟨⟨.ninf, .nzero⟩, .trv⟩ : DItv)]))),
    .call ((Cmd.run (.opD [(DItv.entire : DItv)]))),
    .state 4774 [],
    .call clearFlags,
    .call (do (Cmd.run (.opD [(⟨⟨(f 1 0), (f (-9007199254740991) (971))⟩, .dac⟩ : DItv)])); (Cmd.run (.opD [(DItv.empty : DItv)]))),
    .state 4778 [.invalidOperand],
    .call clearFlags,
    .call (setCwd (bitsOf [.invalidOperand])),
    .throws 4781 ((Cmd.run (.opD [(⟨⟨(f 1 0), (f (-3) (0))⟩, .defd⟩ : DItv)]))) .invalidOperand,
    .state 4782 [.invalidOperand],
    .call clearFlags,
    .call (setCwd (bitsOf []))] ExSt.init = [] := by
  decide +kernel

/-- `minimal_sin_dec_mixedtype_test` -/
example : failed [
    .call ((Cmd.run (.opD [(⟨⟨(f (6588397) (-21)), (f (13176795) (-22))⟩, .com⟩ : DItv)]))),
    .call ((Cmd.run (.opD [(⟨⟨(f (884279719003555) (-48)), (f (7074237752028441) (-51))⟩, .dac⟩ : DItv)]))),
    .state 4793 [],
    .call clearFlags,
    .call (do (Cmd.run (.opD [(⟨⟨(f 1 0), (f (-9007199254740991) (971))⟩, .trv⟩ : DItv)])); (Cmd.run (.opD [(DItv.empty : DItv)]))),
    .state 4797 [.invalidOperand],
    .call clearFlags,
    .call (setCwd (bitsOf [.invalidOperand])),
    .throws 4800 ((Cmd.run (.opD [(⟨⟨(f 1 0), (f (-3) (0))⟩, .com⟩ : DItv)]))) .invalidOperand,
    .state 4801 [.invalidOperand],
    .call clearFlags,
    .call (setCwd (bitsOf []))] ExSt.init = [] := by
  decide +kernel

/-- `minimal_cos_test` -/
example : failed [
    .call (do (Cmd.run (.op [(Itv.empty : Itv)])); (Cmd.run (.op [(Itv.empty : Itv)]))),
    .call ((Cmd.run (.op [(⟨(f 0 0), .pinf⟩ : Itv)]))),
    .call ((Cmd.run (.op [(⟨.nzero, .pinf⟩ : Itv)]))),
    .call ((Cmd.run (.op [(⟨.ninf, (f 0 0)⟩ : Itv)]))),
    .call ((Cmd.run (.op [(⟨.ninf, .nzero⟩ : Itv)]))),
    .call ((Cmd.run (.op [(Itv.entire : Itv)]))),
    .call ((Cmd.run (.op [(⟨(f 0 0), (f 0 0)⟩ : Itv)]))),
    .call ((Cmd.run (.op [(⟨.nzero, .nzero⟩ : Itv)]))),
    .call ((Cmd.run (.op [(⟨(f (884279719003555) (-49)), (f (884279719003555) (-49))⟩ : Itv)]))),
    .call ((Cmd.run (.op [(⟨(f (7074237752028441) (-52)), (f (7074237752028441) (-52))⟩ : Itv)]))),
    .call ((Cmd.run (.op [(⟨(f (884279719003555) (-49)), (f (7074237752028441) (-52))⟩ : Itv)]))),
    .call ((Cmd.run (.op [(⟨(f 0 0), (f (884279719003555) (-49))⟩ : Itv)]))),
    .call ((Cmd.run (.op [(⟨.nzero, (f (884279719003555) (-49))⟩ : Itv)]))),
    .call ((Cmd.run (.op [(⟨(f 0 0), (f (7074237752028441) (-52))⟩ : Itv)]))),
    .call ((Cmd.run (.op [(⟨.nzero, (f (7074237752028441) (-52))⟩ : Itv)]))),
    .call ((Cmd.run (.op [(⟨(f (884279719003555) (-48)), (f (884279719003555) (-48))⟩ : Itv)]))),
    .call ((Cmd.run (.op [(⟨(f (7074237752028441) (-51)), (f (7074237752028441) (-51))⟩ : Itv)]))),
    .call ((Cmd.run (.op [(⟨(f (884279719003555) (-48)), (f (7074237752028441) (-51))⟩ : Itv)]))),
    .call ((Cmd.run (.op [(⟨(f 0 0), (f (884279719003555) (-48))⟩ : Itv)]))),
    .call ((Cmd.run (.op [(⟨.nzero, (f (884279719003555) (-48))⟩ : Itv)]))),
    .call ((Cmd.run (.op [(⟨(f 0 0), (f (7074237752028441) (-51))⟩ : Itv)]))),
    .call ((Cmd.run (.op [(⟨.nzero, (f (7074237752028441) (-51))⟩ : Itv)]))),
    .call ((Cmd.run (.op [(⟨(f (884279719003555) (-49)), (f (884279719003555) (-48))⟩ : Itv)]))),
    .call ((Cmd.run (.op [(⟨(f (884279719003555) (-49)), (f (7074237752028441) (-51))⟩ : Itv)]))),
    .call ((Cmd.run (.op [(⟨(f (7074237752028441) (-52)), (f (884279719003555) (-48))⟩ : Itv)]))),
    .call ((Cmd.run (.op [(⟨(f (7074237752028441) (-52)), (f (7074237752028441) (-51))⟩ : Itv)]))),
    .call ((Cmd.run (.op [(⟨(f (-884279719003555) (-49)), (f (-884279719003555) (-49))⟩ : Itv)]))),
    .call ((Cmd.run (.op [(⟨(f (-7074237752028441) (-52)), (f (-7074237752028441) (-52))⟩ : Itv)]))),
    .call ((Cmd.run (.op [(⟨(f (-7074237752028441) (-52)), (f (-884279719003555) (-49))⟩ : Itv)]))),
    .call ((Cmd.run (.op [(⟨(f (-884279719003555) (-49)), (f 0 0)⟩ : Itv)]))),
    .call ((Cmd.run (.op [(⟨(f (-884279719003555) (-49)), .nzero⟩ : Itv)]))),
    .call ((Cmd.run (.op [(⟨(f (-7074237752028441) (-52)), (f 0 0)⟩ : Itv)]))),
    .call ((Cmd.run (.op [(⟨(f (-7074237752028441) (-52)), .nzero⟩ : Itv)]))),
    .call ((Cmd.run (.op [(⟨(f (-884279719003555) (-48)), (f (-884279719003555) (-48))⟩ : Itv)]))),
    .call ((Cmd.run (.op [(⟨(f (-7074237752028441) (-51)), (f (-7074237752028441) (-51))⟩ : Itv)]))),
    .call ((Cmd.run (.op [(⟨(f (-7074237752028441) (-51)), (f (-884279719003555) (-48))⟩ : Itv)]))),
    .call ((Cmd.run (.op [(⟨(f (-884279719003555) (-48)), (f 0 0)⟩ : Itv)]))),
    .call ((Cmd.run (.op [(⟨(f (-884279719003555) (-48)), .nzero⟩ : Itv)]))),
    .call ((Cmd.run (.op [(⟨(f (-7074237752028441) (-51)), (f 0 0)⟩ : Itv)]))),
    .call ((Cmd.run (.op [(⟨(f (-7074237752028441) (-51)), .nzero⟩ : Itv)]))),
    .call ((Cmd.run (.op [(⟨(f (-884279719003555) (-48)), (f (-884279719003555) (-49))⟩ : Itv)]))),
    .call ((Cmd.run (.op [(⟨(f (-7074237752028441) (-51)), (f (-884279719003555) (-49))⟩ : Itv)]))),
    .call ((Cmd.run (.op [(⟨(f (-884279719003555) (-48)), (f (-7074237752028441) (-52))⟩ : Itv)]))),
    .call ((Cmd.run (.op [(⟨(f (-7074237752028441) (-51)), (f (-7074237752028441) (-52))⟩ : Itv)]))),
    .call ((Cmd.run (.op [(⟨(f (-884279719003555) (-49)), (f (884279719003555) (-49))⟩ : Itv)]))),
    .call ((Cmd.run (.op [(⟨(f (-884279719003555) (-49)), (f (7074237752028441) (-52))⟩ : Itv)]))),
    .call ((Cmd.run (.op [(⟨(f (-7074237752028441) (-52)), (f (884279719003555) (-49))⟩ : Itv)]))),
    .call ((Cmd.run (.op [(⟨(f (-7074237752028441) (-52)), (f (7074237752028441) (-52))⟩ : Itv)]))),
    .call ((Cmd.run (.op [(⟨(f (-3152519739159347) (-52)), (f (3602879701896397) (-55))⟩ : Itv)]))),
    .call ((Cmd.run (.op [(⟨(f 1 0), (f 2 0)⟩ : Itv)]))),
    .call ((Cmd.run (.op [(⟨(f (-3602879701896397) (-50)), (f (-6530219459687219) (-51))⟩ : Itv)]))),
    .call ((Cmd.run (.op [(⟨(f 2 0), (f 3 0)⟩ : Itv)]))),
    .state 4873 [],
    .call clearFlags,
    .call (do (Cmd.run (.op [(⟨(f 1 0), (f (-9007199254740991) (971))⟩ : Itv)])); (Cmd.run (.op [(Itv.empty : Itv)]))),
    .state 4877 [.invalidOperand],
    .call clearFlags,
    .call (setCwd (bitsOf [.invalidOperand])),
    .throws 4880 ((Cmd.run (.op [(⟨(f 1 0), (f (-3) (0))⟩ : Itv)]))) .invalidOperand,
    .state 4881 [.invalidOperand],
    .call clearFlags,
    .call (setCwd (bitsOf []))] ExSt.init = [] := by
  decide +kernel

/-- `minimal_cos_mixedtype_test` -/
example : failed [
    .call ((Cmd.run (.op [(⟨(f (-884279719003555) (-49)), (f (-884279719003555) (-49))⟩ : Itv)]))),
    .call ((Cmd.run (.op [(⟨(f (-13176795) (-23)), (f (-6588397) (-22))⟩ : Itv)]))),
    .state 4892 [],
    .call clearFlags,
    .call (do (Cmd.run (.op [(⟨(f 1 0), (f (-9007199254740991) (971))⟩ : Itv)])); (Cmd.run (.op [(Itv.empty : Itv)]))),
    .state 4896 [.invalidOperand],
    .call clearFlags,
    .call (setCwd (bitsOf [.invalidOperand])),
    .throws 4899 ((Cmd.run (.op [(⟨(f 1 0), (f (-3) (0))⟩ : Itv)]))) .invalidOperand,
    .state 4900 [.invalidOperand],
    .call clearFlags,
    .call (setCwd (bitsOf []))] ExSt.init = [] := by
  decide +kernel

/-- `minimal_cos_dec_test` -/
example : failed [
    .call ((Cmd.run (.opD [(⟨⟨(f (-884279719003555) (-49)), (f (-884279719003555) (-49))⟩, .trv⟩ : DItv)]))),
    .call ((Cmd.run (.opD [(⟨⟨.ninf, .nzero⟩, .defd⟩ : DItv)]))),
    .call ((Cmd.run (.opD [(DItv.entire : DItv)]))),
    .state 4911 [],
    .call clearFlags,
    .call (do (Cmd.run (.opD [(⟨⟨(f 1 0), (f (-9007199254740991) (971))⟩, .dac⟩ : DItv)])); (Cmd.run (.opD [(DItv.empty : DItv)]))),
    .state 4915 [.invalidOperand],
    .call clearFlags,
    .call (setCwd (bitsOf [.invalidOperand])),
    .throws 4918 ((Cmd.run (.opD [(⟨⟨(f 1 0), (f (-3) (0))⟩, .defd⟩ : DItv)]))) .invalidOperand,
    .state 4919 [.invalidOperand],
    .call clearFlags,
    .call (setCwd (bitsOf []))] ExSt.init = [] := by
  decide +kernel

/-- `minimal_cos_dec_mixedtype_test` -/
example : failed [
    .call ((Cmd.run (.opD [(⟨⟨(f (-884279719003555) (-49)), (f (-884279719003555) (-49))⟩, .com⟩ : DItv)]))),
    .call ((Cmd.run (.opD [(⟨⟨(f (-13176795) (-23)), (f (-6588397) (-22))⟩, .dac⟩ : DItv)]))),
    .state 4930 [],
    .call clearFlags,
    .call (do (Cmd.run (.opD [(⟨⟨(f 1 0), (f (-9007199254740991) (971))⟩, .trv⟩ : DItv)])); (Cmd.run (.opD [(DItv.empty : DItv)]))),
    .state 4934 [.invalidOperand],
    .call clearFlags,
    .call (setCwd (bitsOf [.invalidOperand])),
    .throws 4937 ((Cmd.run (.opD [(⟨⟨(f 1 0), (f (-3) (0))⟩, .com⟩ : DItv)]))) .invalidOperand,
    .state 4938 [.invalidOperand],
    .call clearFlags,
    .call (setCwd (bitsOf []))] ExSt.init = [] := by
  decide +kernel

/-- `minimal_tan_test` -/
example : failed [
    .call (do (Cmd.run (.op [(Itv.empty : Itv)])); (Cmd.run (.op [(Itv.empty : Itv)]))),
    .call ((Cmd.run (.op [(⟨(f 0 0), .pinf⟩ : Itv)]))),
    .call ((Cmd.run (.op [(⟨.nzero, .pinf⟩ : Itv)]))),
    .call ((Cmd.run (.op [(⟨.ninf, (f 0 0)⟩ : Itv)]))),
    .call ((Cmd.run (.op [(⟨.ninf, .nzero⟩ : Itv)]))),
    .call ((Cmd.run (.op [(Itv.entire : Itv)]))),
    .call ((Cmd.run (.op [(⟨(f 0 0), (f 0 0)⟩ : Itv)]))),
    .call ((Cmd.run (.op [(⟨.nzero, .nzero⟩ : Itv)]))),
    .call ((Cmd.run (.op [(⟨(f (884279719003555) (-49)), (f (884279719003555) (-49))⟩ : Itv)]))),
    .call ((Cmd.run (.op [(⟨(f (7074237752028441) (-52)), (f (7074237752028441) (-52))⟩ : Itv)]))),
    .call ((Cmd.run (.op [(⟨(f (884279719003555) (-49)), (f (7074237752028441) (-52))⟩ : Itv)]))),
    .call ((Cmd.run (.op [(⟨(f (884279719003555) (-48)), (f (884279719003555) (-48))⟩ : Itv)]))),
    .call ((Cmd.run (.op [(⟨(f (7074237752028441) (-51)), (f (7074237752028441) (-51))⟩ : Itv)]))),
    .call ((Cmd.run (.op [(⟨(f 0 0), (f (884279719003555) (-49))⟩ : Itv)]))),
    .call ((Cmd.run (.op [(⟨.nzero, (f (884279719003555) (-49))⟩ : Itv)]))),
    .call ((Cmd.run (.op [(⟨(f 0 0), (f (7074237752028441) (-52))⟩ : Itv)]))),
    .call ((Cmd.run (.op [(⟨.nzero, (f (7074237752028441) (-52))⟩ : Itv)]))),
    .call ((Cmd.run (.op [(⟨(f 0 0), (f (884279719003555) (-48))⟩ : Itv)]))),
    .call ((Cmd.run (.op [(⟨.nzero, (f (884279719003555) (-48))⟩ : Itv)]))),
    .call ((Cmd.run (.op [(⟨(f 0 0), (f (7074237752028441) (-51))⟩ : Itv)]))),
    .call ((Cmd.run (.op [(⟨.nzero, (f (7074237752028441) (-51))⟩ : Itv)]))),
    .call ((Cmd.run (.op [(⟨(f (1) (-51)), (f (884279719003555) (-48))⟩ : Itv)]))),
    .call ((Cmd.run (.op [(⟨(f (1) (-51)), (f (7074237752028441) (-51))⟩ : Itv)]))),
    .call ((Cmd.run (.op [(⟨(f (1) (-52)), (f (884279719003555) (-48))⟩ : Itv)]))),
    .call ((Cmd.run (.op [(⟨(f (1) (-52)), (f (7074237752028441) (-51))⟩ : Itv)]))),
    .call ((Cmd.run (.op [(⟨(f (-884279719003555) (-49)), (f (884279719003555) (-49))⟩ : Itv)]))),
    .call ((Cmd.run (.op [(⟨(f (-884279719003555) (-49)), (f (7074237752028441) (-52))⟩ : Itv)]))),
    .call ((Cmd.run (.op [(⟨(f (-7074237752028441) (-52)), (f (884279719003555) (-49))⟩ : Itv)]))),
    .call ((Cmd.run (.op [(⟨(f (-7074237752028441) (-52)), (f (7074237752028441) (-52))⟩ : Itv)]))),
    .call ((Cmd.run (.op [(⟨(f (-3002369727582815) (-53)), (f (3602879701896397) (-55))⟩ : Itv)]))),
    .call ((Cmd.run (.op [(⟨(f (734687484927017) (-37)), (f (2939000078603387) (-39))⟩ : Itv)]))),
    .call ((Cmd.run (.op [(⟨(f (734687484927017) (-37)), (f (2993975659992187) (-39))⟩ : Itv)]))),
    .call ((Cmd.run (.op [(⟨(f (4458563631096791) (-52)), (f (4548635623644201) (-52))⟩ : Itv)]))),
    .state 4989 [],
    .call clearFlags,
    .call (do (Cmd.run (.op [(⟨(f 1 0), (f (-9007199254740991) (971))⟩ : Itv)])); (Cmd.run (.op [(Itv.empty : Itv)]))),
    .state 4993 [.invalidOperand],
    .call clearFlags,
    .call (setCwd (bitsOf [.invalidOperand])),
    .throws 4996 ((Cmd.run (.op [(⟨(f 1 0), (f (-3) (0))⟩ : Itv)]))) .invalidOperand,
    .state 4997 [.invalidOperand],
    .call clearFlags,
    .call (setCwd (bitsOf []))] ExSt.init = [] := by
  decide +kernel

/-- `minimal_tan_mixedtype_test` -/
example : failed [
    .call ((Cmd.run (.op [(⟨(f (6588397) (-22)), (f (13176795) (-23))⟩ : Itv)]))),
    .call ((Cmd.run (.op [(⟨(f (7074237752028441) (-52)), (f (7074237752028441) (-52))⟩ : Itv)]))),
    .state 5007 [],
    .call clearFlags,
    .call (do (Cmd.run (.op [(⟨(f 1 0), (f (-9007199254740991) (971))⟩ : Itv)])); (Cmd.run (.op [(Itv.empty : Itv)]))),
    .state 5011 [.invalidOperand],
    .call clearFlags,
    .call (setCwd (bitsOf [.invalidOperand])),
    .throws 5014 ((Cmd.run (.op [(⟨(f 1 0), (f (-3) (0))⟩ : Itv)]))) .invalidOperand,
    .state 5015 [.invalidOperand],
    .call clearFlags,
    .call (setCwd (bitsOf []))] ExSt.init = [] := by
  decide +kernel

/-- `minimal_tan_dec_test` -/
example : failed [
    .call (do (Cmd.run (.opD [(DItv.empty : DItv)])); (Cmd.run (.opD [(DItv.empty : DItv)]))),
    .call ((Cmd.run (.opD [(⟨⟨(f 0 0), .pinf⟩, .dac⟩ : DItv)]))),
    .call ((Cmd.run (.opD [(⟨⟨.nzero, .pinf⟩, .defd⟩ : DItv)]))),
    .call ((Cmd.run (.opD [(⟨⟨.ninf, (f 0 0)⟩, .trv⟩ : DItv)]))),
    .call ((Cmd.run (.opD [(⟨⟨.ninf, .nzero⟩, .dac⟩ : DItv)]))),
    .call ((Cmd.run (.opD [(DItv.entire : DItv)]))),
    .call ((Cmd.run (.opD [(⟨⟨(f 0 0), (f 0 0)⟩, .com⟩ : DItv)]))),
    .call ((Cmd.run (.opD [(⟨⟨.nzero, .nzero⟩, .defd⟩ : DItv)]))),
    .call ((Cmd.run (.opD [(⟨⟨(f (884279719003555) (-49)), (f (884279719003555) (-49))⟩, .com⟩ : DItv)]))),
    .call ((Cmd.run (.opD [(⟨⟨(f (7074237752028441) (-52)), (f (7074237752028441) (-52))⟩, .defd⟩ : DItv)]))),
    .call ((Cmd.run (.opD [(⟨⟨(f (884279719003555) (-49)), (f (7074237752028441) (-52))⟩, .dac⟩ : DItv)]))),
    .call ((Cmd.run (.opD [(⟨⟨(f (884279719003555) (-48)), (f (884279719003555) (-48))⟩, .trv⟩ : DItv)]))),
    .call ((Cmd.run (.opD [(⟨⟨(f (7074237752028441) (-51)), (f (7074237752028441) (-51))⟩, .com⟩ : DItv)]))),
    .call ((Cmd.run (.opD [(⟨⟨(f 0 0), (f (884279719003555) (-49))⟩, .dac⟩ : DItv)]))),
    .call ((Cmd.run (.opD [(⟨⟨.nzero, (f (884279719003555) (-49))⟩, .com⟩ : DItv)]))),
    .call ((Cmd.run (.opD [(⟨⟨(f 0 0), (f (7074237752028441) (-52))⟩, .trv⟩ : DItv)]))),
    .call ((Cmd.run (.opD [(⟨⟨.nzero, (f (7074237752028441) (-52))⟩, .defd⟩ : DItv)]))),
    .call ((Cmd.run (.opD [(⟨⟨(f 0 0), (f (884279719003555) (-48))⟩, .dac⟩ : DItv)]))),
    .call ((Cmd.run (.opD [(⟨⟨.nzero, (f (884279719003555) (-48))⟩, .com⟩ : DItv)]))),
    .call ((Cmd.run (.opD [(⟨⟨(f 0 0), (f (7074237752028441) (-51))⟩, .trv⟩ : DItv)]))),
    .call ((Cmd.run (.opD [(⟨⟨.nzero, (f (7074237752028441) (-51))⟩, .defd⟩ : DItv)]))),
    .call ((Cmd.run (.opD [(⟨⟨(f (1) (-51)), (f (884279719003555) (-48))⟩, .dac⟩ : DItv)]))),
    .call ((Cmd.run (.opD [(⟨⟨(f (1) (-51)), (f (7074237752028441) (-51))⟩, .com⟩ : DItv)]))),
    .call ((Cmd.run (.opD [(⟨⟨(f (1) (-52)), (f (884279719003555) (-48))⟩, .trv⟩ : DItv)]))),
    .call ((Cmd.run (.opD [(⟨⟨(f (1) (-52)), (f (7074237752028441) (-51))⟩, .defd⟩ : DItv)]))),
    .call ((Cmd.run (.opD [(⟨⟨(f (-884279719003555) (-49)), (f (884279719003555) (-49))⟩, .com⟩ : DItv)]))),
    .call ((Cmd.run (.opD [(⟨⟨(f (-884279719003555) (-49)), (f (7074237752028441) (-52))⟩, .trv⟩ : DItv)]))),
    .call ((Cmd.run (.opD [(⟨⟨(f (-7074237752028441) (-52)), (f (884279719003555) (-49))⟩, .defd⟩ : DItv)]))),
    .call ((Cmd.run (.opD [(⟨⟨(f (-7074237752028441) (-52)), (f (7074237752028441) (-52))⟩, .dac⟩ : DItv)]))),
    .call ((Cmd.run (.opD [(⟨⟨(f (-3002369727582815) (-53)), (f (3602879701896397) (-55))⟩, .com⟩ : DItv)]))),
    .call ((Cmd.run (.opD [(⟨⟨(f (734687484927017) (-37)), (f (2939000078603387) (-39))⟩, .dac⟩ : DItv)]))),
    .call ((Cmd.run (.opD [(⟨⟨(f (734687484927017) (-37)), (f (2993975659992187) (-39))⟩, .defd⟩ : DItv)]))),
    .call ((Cmd.run (.opD [(⟨⟨(f (4458563631096791) (-52)), (f (4548635623644201) (-52))⟩, .trv⟩ : DItv)]))),
    .state 5063 [],
    .call clearFlags,
    .call (do (Cmd.run (.opD [(⟨⟨(f 1 0), (f (-9007199254740991) (971))⟩, .trv⟩ : DItv)])); (Cmd.run (.opD [(DItv.empty : DItv)]))),
    .state 5067 [.invalidOperand],
    .call clearFlags,
    .call (setCwd (bitsOf [.invalidOperand])),
    .throws 5070 ((Cmd.run (.opD [(⟨⟨(f 1 0), (f (-3) (0))⟩, .trv⟩ : DItv)]))) .invalidOperand,
    .state 5071 [.invalidOperand],
    .call clearFlags,
    .call (setCwd (bitsOf []))] ExSt.init = [] := by
  decide +kernel

/-- `minimal_tan_dec_mixedtype_test` -/
example : failed [
    .call ((Cmd.run (.opD [(⟨⟨(f (6588397) (-22)), (f (13176795) (-23))⟩, .com⟩ : DItv)]))),
    .call ((Cmd.run (.opD [(⟨⟨(f (7074237752028441) (-52)), (f (7074237752028441) (-52))⟩, .defd⟩ : DItv)]))),
    .state 5082 [],
    .call clearFlags,
    .call (do (Cmd.run (.opD [(⟨⟨(f 1 0), (f (-9007199254740991) (971))⟩, .trv⟩ : DItv)])); (Cmd.run (.opD [(DItv.empty : DItv)]))),
    .state 5086 [.invalidOperand],
    .call clearFlags,
    .call (setCwd (bitsOf [.invalidOperand])),
    .throws 5089 ((Cmd.run (.opD [(⟨⟨(f 1 0), (f (-3) (0))⟩, .trv⟩ : DItv)]))) .invalidOperand,
    .state 5090 [.invalidOperand],
    .call clearFlags,
    .call (setCwd (bitsOf []))] ExSt.init = [] := by
  decide +kernel

/-- `minimal_asin_test` -/
example : failed [
    .call (do (Cmd.run (.op [(Itv.empty : Itv)])); (Cmd.run (.op [(Itv.empty : Itv)]))),
    .call ((Cmd.run (.op [(⟨(f 0 0), .pinf⟩ : Itv)]))),
    .call ((Cmd.run (.op [(⟨.nzero, .pinf⟩ : Itv)]))),
    .call ((Cmd.run (.op [(⟨.ninf, (f 0 0)⟩ : Itv)]))),
    .call ((Cmd.run (.op [(⟨.ninf, .nzero⟩ : Itv)]))),
    .call ((Cmd.run (.op [(Itv.entire : Itv)]))),
    .call ((Cmd.run (.op [(⟨(f (-1) (0)), (f 1 0)⟩ : Itv)]))),
    .call ((Cmd.run (.op [(⟨.ninf, (f (-1) (0))⟩ : Itv)]))),
    .call ((Cmd.run (.op [(⟨(f 1 0), .pinf⟩ : Itv)]))),
    .call ((Cmd.run (.op [(⟨(f (-1) (0)), (f (-1) (0))⟩ : Itv)]))),
    .call ((Cmd.run (.op [(⟨(f 1 0), (f 1 0)⟩ : Itv)]))),
    .call ((Cmd.run (.op [(⟨(f 0 0), (f 0 0)⟩ : Itv)]))),
    .call ((Cmd.run (.op [(⟨.nzero, .nzero⟩ : Itv)]))),
    .call (do (Cmd.run (.op [(⟨.ninf, (f (-4503599627370497) (-52))⟩ : Itv)])); (Cmd.run (.op [(Itv.empty : Itv)]))),
    .call (do (Cmd.run (.op [(⟨(f (4503599627370497) (-52)), .pinf⟩ : Itv)])); (Cmd.run (.op [(Itv.empty : Itv)]))),
    .call ((Cmd.run (.op [(⟨(f (-3602879701896397) (-55)), (f (3602879701896397) (-55))⟩ : Itv)]))),
    .call ((Cmd.run (.op [(⟨(f (-5944751508129055) (-54)), (f (9007199254740991) (-53))⟩ : Itv)]))),
    .call ((Cmd.run (.op [(⟨(f (-9007199254740991) (-53)), (f (9007199254740991) (-53))⟩ : Itv)]))),
    .state 5120 [],
    .call clearFlags,
    .call (do (Cmd.run (.op [(⟨(f 1 0), (f (-9007199254740991) (971))⟩ : Itv)])); (Cmd.run (.op [(Itv.empty : Itv)]))),
    .state 5124 [.invalidOperand],
    .call clearFlags,
    .call (setCwd (bitsOf [.invalidOperand])),
    .throws 5127 ((Cmd.run (.op [(⟨(f 1 0), (f (-3) (0))⟩ : Itv)]))) .invalidOperand,
    .state 5128 [.invalidOperand],
    .call clearFlags,
    .call (setCwd (bitsOf []))] ExSt.init = [] := by
  decide +kernel

/-- `minimal_asin_mixedtype_test` -/
example : failed [
    .call ((Cmd.run (.op [(⟨(f (-1) (0)), (f 1 0)⟩ : Itv)]))),
    .call ((Cmd.run (.op [(⟨.ninf, (f (-1) (0))⟩ : Itv)]))),
    .call ((Cmd.run (.op [(⟨(f (-13421773) (-27)), (f (13421773) (-27))⟩ : Itv)]))),
    .state 5139 [],
    .call clearFlags,
    .call (do (Cmd.run (.op [(⟨(f 1 0), (f (-9007199254740991) (971))⟩ : Itv)])); (Cmd.run (.op [(Itv.empty : Itv)]))),
    .state 5143 [.invalidOperand],
    .call clearFlags,
    .call (setCwd (bitsOf [.invalidOperand])),
    .throws 5146 ((Cmd.run (.op [(⟨(f 1 0), (f (-3) (0))⟩ : Itv)]))) .invalidOperand,
    .state 5147 [.invalidOperand],
    .call clearFlags,
    .call (setCwd (bitsOf []))] ExSt.init = [] := by
  decide +kernel

/-- `minimal_asin_dec_test` -/
example : failed [
    .call ((Cmd.run (.opD [(⟨⟨(f 0 0), .pinf⟩, .dac⟩ : DItv)]))),
    .call ((Cmd.run (.opD [(⟨⟨.ninf, (f 0 0)⟩, .defd⟩ : DItv)]))),
    .call ((Cmd.run (.opD [(⟨⟨(f (-1) (0)), (f 1 0)⟩, .com⟩ : DItv)]))),
    .call ((Cmd.run (.opD [(DItv.entire : DItv)]))),
    .call ((Cmd.run (.opD [(⟨⟨(f (-5944751508129055) (-54)), (f (9007199254740991) (-53))⟩, .defd⟩ : DItv)]))),
    .state 5161 [],
    .call clearFlags,
    .call (do (Cmd.run (.opD [(⟨⟨(f 1 0), (f (-9007199254740991) (971))⟩, .trv⟩ : DItv)])); (Cmd.run (.opD [(DItv.empty : DItv)]))),
    .state 5165 [.invalidOperand],
    .call clearFlags,
    .call (setCwd (bitsOf [.invalidOperand])),
    .throws 5168 ((Cmd.run (.opD [(⟨⟨(f 1 0), (f (-3) (0))⟩, .trv⟩ : DItv)]))) .invalidOperand,
    .state 5169 [.invalidOperand],
    .call clearFlags,
    .call (setCwd (bitsOf []))] ExSt.init = [] := by
  decide +kernel

/-- `minimal_asin_dec_mixedtype_test` -/
example : failed [
    .call ((Cmd.run (.opD [(⟨⟨(f (-1) (0)), (f 1 0)⟩, .com⟩ : DItv)]))),
    .call ((Cmd.run (.opD [(⟨⟨.ninf, (f (-1) (0))⟩, .dac⟩ : DItv)]))),
    .call ((Cmd.run (.opD [(⟨⟨(f (-13421773) (-27)), (f (13421773) (-27))⟩, .trv⟩ : DItv)]))),
    .state 5180 [],
    .call clearFlags,
    .call (do (Cmd.run (.opD [(⟨⟨(f 1 0), (f (-9007199254740991) (971))⟩, .trv⟩ : DItv)])); (Cmd.run (.opD [(DItv.empty : DItv)]))),
    .state 5184 [.invalidOperand],
    .call clearFlags,
    .call (setCwd (bitsOf [.invalidOperand])),
    .throws 5187 ((Cmd.run (.opD [(⟨⟨(f 1 0), (f (-3) (0))⟩, .trv⟩ : DItv)]))) .invalidOperand,
    .state 5188 [.invalidOperand],
    .call clearFlags,
    .call (setCwd (bitsOf []))] ExSt.init = [] := by
  decide +kernel

/-- `minimal_acos_test` -/
example : failed [
    .call (do (Cmd.run (.op [(Itv.empty : Itv)])); (Cmd.run (.op [(Itv.empty : Itv)]))),
    .call ((Cmd.run (.op [(⟨(f 0 0), .pinf⟩ : Itv)]))),
    .call ((Cmd.run (.op [(⟨.nzero, .pinf⟩ : Itv)]))),
    .call ((Cmd.run (.op [(⟨.ninf, (f 0 0)⟩ : Itv)]))),
    .call ((Cmd.run (.op [(⟨.ninf, .nzero⟩ : Itv)]))),
    .call ((Cmd.run (.op [(Itv.entire : Itv)]))),
    .call ((Cmd.run (.op [(⟨(f (-1) (0)), (f 1 0)⟩ : Itv)]))),
    .call ((Cmd.run (.op [(⟨.ninf, (f (-1) (0))⟩ : Itv)]))),
    .call ((Cmd.run (.op [(⟨(f 1 0), .pinf⟩ : Itv)]))),
    .call ((Cmd.run (.op [(⟨(f (-1) (0)), (f (-1) (0))⟩ : Itv)]))),
    .call ((Cmd.run (.op [(⟨(f 1 0), (f 1 0)⟩ : Itv)]))),
    .call ((Cmd.run (.op [(⟨(f 0 0), (f 0 0)⟩ : Itv)]))),
    .call ((Cmd.run (.op [(⟨.nzero, .nzero⟩ : Itv)]))),
    .call (do (Cmd.run (.op [(⟨.ninf, (f (-4503599627370497) (-52))⟩ : Itv)])); (Cmd.run (.op [(Itv.empty : Itv)]))),
    .call (do (Cmd.run (.op [(⟨(f (4503599627370497) (-52)), .pinf⟩ : Itv)])); (Cmd.run (.op [(Itv.empty : Itv)]))),
    .call ((Cmd.run (.op [(⟨(f (-3602879701896397) (-55)), (f (3602879701896397) (-55))⟩ : Itv)]))),
    .call ((Cmd.run (.op [(⟨(f (-5944751508129055) (-54)), (f (9007199254740991) (-53))⟩ : Itv)]))),
    .call ((Cmd.run (.op [(⟨(f (-9007199254740991) (-53)), (f (9007199254740991) (-53))⟩ : Itv)]))),
    .state 5218 [],
    .call clearFlags,
    .call (do (Cmd.run (.op [(⟨(f 1 0), (f (-9007199254740991) (971))⟩ : Itv)])); (Cmd.run (.op [(Itv.empty : Itv)]))),
    .state 5222 [.invalidOperand],
    .call clearFlags,
    .call (setCwd (bitsOf [.invalidOperand])),
    .throws 5225 ((Cmd.run (.op [(⟨(f 1 0), (f (-3) (0))⟩ : Itv)]))) .invalidOperand,
    .state 5226 [.invalidOperand],
    .call clearFlags,
    .call (setCwd (bitsOf []))] ExSt.init = [] := by
  decide +kernel

/-- `minimal_acos_mixedtype_test` -/
example : failed [
    .call ((Cmd.run (.op [(⟨(f (-1) (0)), (f 1 0)⟩ : Itv)]))),
    .call ((Cmd.run (.op [(⟨.ninf, (f (-1) (0))⟩ : Itv)]))),
    .call ((Cmd.run (.op [(⟨(f (-13421773) (-27)), (f (13421773) (-27))⟩ : Itv)]))),
    .state 5237 [],
    .call clearFlags,
    .call (do (Cmd.run (.op [(⟨(f 1 0), (f (-9007199254740991) (971))⟩ : Itv)])); (Cmd.run (.op [(Itv.empty : Itv)]))),
    .state 5241 [.invalidOperand],
    .call clearFlags,
    .call (setCwd (bitsOf [.invalidOperand])),
    .throws 5244 ((Cmd.run (.op [(⟨(f 1 0), (f (-3) (0))⟩ : Itv)]))) .invalidOperand,
    .state 5245 [.invalidOperand],
    .call clearFlags,
    .call (setCwd (bitsOf []))] ExSt.init = [] := by
  decide +kernel

/-- `minimal_acos_dec_test` -/
example : failed [
    .call ((Cmd.run (.opD [(⟨⟨(f 0 0), .pinf⟩, .dac⟩ : DItv)]))),
    .call ((Cmd.run (.opD [(⟨⟨.ninf, (f 0 0)⟩, .defd⟩ : DItv)]))),
    .call ((Cmd.run (.opD [(⟨⟨(f (-1) (0)), (f 1 0)⟩, .com⟩ : DItv)]))),
    .call ((Cmd.run (.opD [(DItv.entire : DItv)]))),
    .call ((Cmd.run (.opD [(⟨⟨(f (-5944751508129055) (-54)), (f (9007199254740991) (-53))⟩, .defd⟩ : DItv)]))),
    .state 5259 [],
    .call clearFlags,
    .call (do (Cmd.run (.opD [(⟨⟨(f 1 0), (f (-9007199254740991) (971))⟩, .trv⟩ : DItv)])); (Cmd.run (.opD [(DItv.empty : DItv)]))),
    .state 5263 [.invalidOperand],
    .call clearFlags,
    .call (setCwd (bitsOf [.invalidOperand])),
    .throws 5266 ((Cmd.run (.opD [(⟨⟨(f 1 0), (f (-3) (0))⟩, .trv⟩ : DItv)]))) .invalidOperand,
    .state 5267 [.invalidOperand],
    .call clearFlags,
    .call (setCwd (bitsOf []))] ExSt.init = [] := by
  decide +kernel

/-- `minimal_acos_dec_mixedtype_test` -/
example : failed [
    .call ((Cmd.run (.opD [(⟨⟨(f (-1) (0)), (f 1 0)⟩, .com⟩ : DItv)]))),
    .call ((Cmd.run (.opD [(⟨⟨.ninf, (f (-1) (0))⟩, .dac⟩ : DItv)]))),
    .call ((Cmd.run (.opD [(⟨⟨(f (-13421773) (-27)), (f (13421773) (-27))⟩, .trv⟩ : DItv)]))),
    .state 5278 [],
    .call clearFlags,
    .call (do (Cmd.run (.opD [(⟨⟨(f 1 0), (f (-9007199254740991) (971))⟩, .trv⟩ : DItv)])); (Cmd.run (.opD [(DItv.empty : DItv)]))),
    .state 5282 [.invalidOperand],
    .call clearFlags,
    .call (setCwd (bitsOf [.invalidOperand])),
    .throws 5285 ((Cmd.run (.opD [(⟨⟨(f 1 0), (f (-3) (0))⟩, .trv⟩ : DItv)]))) .invalidOperand,
    .state 5286 [.invalidOperand],
    .call clearFlags,
    .call (setCwd (bitsOf []))] ExSt.init = [] := by
  decide +kernel

/-- `minimal_atan_test` -/
example : failed [
    .call (do (Cmd.run (.op [(Itv.empty : Itv)])); (Cmd.run (.op [(Itv.empty : Itv)]))),
    .call ((Cmd.run (.op [(⟨(f 0 0), .pinf⟩ : Itv)]))),
    .call ((Cmd.run (.op [(⟨.nzero, .pinf⟩ : Itv)]))),
    .call ((Cmd.run (.op [(⟨.ninf, (f 0 0)⟩ : Itv)]))),
    .call ((Cmd.run (.op [(⟨.ninf, .nzero⟩ : Itv)]))),
    .call ((Cmd.run (.op [(Itv.entire : Itv)]))),
    .call ((Cmd.run (.op [(⟨(f 0 0), (f 0 0)⟩ : Itv)]))),
    .call ((Cmd.run (.op [(⟨.nzero, .nzero⟩ : Itv)]))),
    .call ((Cmd.run (.op [(⟨(f 1 0), (f (1460776583426411) (-25))⟩ : Itv)]))),
    .call ((Cmd.run (.op [(⟨(f (-8956730319743681) (-14)), (f (-4977612039712877) (-43))⟩ : Itv)]))),
    .state 5307 [],
    .call clearFlags,
    .call (do (Cmd.run (.op [(⟨(f 1 0), (f (-9007199254740991) (971))⟩ : Itv)])); (Cmd.run (.op [(Itv.empty : Itv)]))),
    .state 5311 [.invalidOperand],
    .call clearFlags,
    .call (setCwd (bitsOf [.invalidOperand])),
    .throws 5314 ((Cmd.run (.op [(⟨(f 1 0), (f (-3) (0))⟩ : Itv)]))) .invalidOperand,
    .state 5315 [.invalidOperand],
    .call clearFlags,
    .call (setCwd (bitsOf []))] ExSt.init = [] := by
  decide +kernel

/-- `minimal_atan_mixedtype_test` -/
example : failed [
    .call ((Cmd.run (.op [(Itv.entire : Itv)]))),
    .call ((Cmd.run (.op [(⟨(f 1 0), (f 5441817 3)⟩ : Itv)]))),
    .call ((Cmd.run (.op [(⟨(f (-16683211) (15)), (f (-2317881) (-21))⟩ : Itv)]))),
    .state 5327 [],
    .call clearFlags,
    .call (do (Cmd.run (.op [(⟨(f 1 0), (f (-9007199254740991) (971))⟩ : Itv)])); (Cmd.run (.op [(Itv.empty : Itv)]))),
    .state 5331 [.invalidOperand],
    .call clearFlags,
    .call (setCwd (bitsOf [.invalidOperand])),
    .throws 5334 ((Cmd.run (.op [(⟨(f 1 0), (f (-3) (0))⟩ : Itv)]))) .invalidOperand,
    .state 5335 [.invalidOperand],
    .call clearFlags,
    .call (setCwd (bitsOf []))] ExSt.init = [] := by
  decide +kernel

/-- `minimal_atan_dec_test` -/
example : failed [
    .call ((Cmd.run (.opD [(⟨⟨(f 0 0), .pinf⟩, .dac⟩ : DItv)]))),
    .call ((Cmd.run (.opD [(⟨⟨.ninf, (f 0 0)⟩, .defd⟩ : DItv)]))),
    .call ((Cmd.run (.opD [(DItv.entire : DItv)]))),
    .call ((Cmd.run (.opD [(⟨⟨(f 1 0), (f (1460776583426411) (-25))⟩, .trv⟩ : DItv)]))),
    .call ((Cmd.run (.opD [(⟨⟨(f (-8956730319743681) (-14)), (f (-4977612039712877) (-43))⟩, .com⟩ : DItv)]))),
    .state 5348 [],
    .call clearFlags,
    .call (do (Cmd.run (.opD [(⟨⟨(f 1 0), (f (-9007199254740991) (971))⟩, .trv⟩ : DItv)])); (Cmd.run (.opD [(DItv.empty : DItv)]))),
    .state 5352 [.invalidOperand],
    .call clearFlags,
    .call (setCwd (bitsOf [.invalidOperand])),
    .throws 5355 ((Cmd.run (.opD [(⟨⟨(f 1 0), (f (-3) (0))⟩, .trv⟩ : DItv)]))) .invalidOperand,
    .state 5356 [.invalidOperand],
    .call clearFlags,
    .call (setCwd (bitsOf []))] ExSt.init = [] := by
  decide +kernel

/-- `minimal_atan_dec_mixedtype_test` -/
example : failed [
    .call ((Cmd.run (.opD [(DItv.entire : DItv)]))),
    .call ((Cmd.run (.opD [(⟨⟨(f 1 0), (f 5441817 3)⟩, .com⟩ : DItv)]))),
    .call ((Cmd.run (.opD [(⟨⟨(f (-16683211) (15)), (f (-2317881) (-21))⟩, .trv⟩ : DItv)]))),
    .state 5367 [],
    .call clearFlags,
    .call (do (Cmd.run (.opD [(⟨⟨(f 1 0), (f (-9007199254740991) (971))⟩, .trv⟩ : DItv)])); (Cmd.run (.opD [(DItv.empty : DItv)]))),
    .state 5371 [.invalidOperand],
    .call clearFlags,
    .call (setCwd (bitsOf [.invalidOperand])),
    .throws 5374 ((Cmd.run (.opD [(⟨⟨(f 1 0), (f (-3) (0))⟩, .trv⟩ : DItv)]))) .invalidOperand,
    .state 5375 [.invalidOperand],
    .call clearFlags,
    .call (setCwd (bitsOf []))] ExSt.init = [] := by
  decide +kernel

/-- `minimal_atan2_test` -/
example : failed [
    .call (do (Cmd.run (.op [(Itv.empty : Itv), (Itv.empty : Itv)])); (Cmd.run (.op [(Itv.empty : Itv)]))),
    .call (do (Cmd.run (.op [(Itv.empty : Itv), (Itv.entire : Itv)])); (Cmd.run (.op [(Itv.empty : Itv)]))),
    .call (do (Cmd.run (.op [(Itv.empty : Itv), (⟨(f 0 0), (f 0 0)⟩ : Itv)])); (Cmd.run (.op [(Itv.empty : Itv)]))),
    .call (do (Cmd.run (.op [(Itv.empty : Itv), (⟨.nzero, (f 0 0)⟩ : Itv)])); (Cmd.run (.op [(Itv.empty : Itv)]))),
    .call (do (Cmd.run (.op [(Itv.empty : Itv), (⟨(f 0 0), .nzero⟩ : Itv)])); (Cmd.run (.op [(Itv.empty : Itv)]))),
    .call (do (Cmd.run (.op [(Itv.empty : Itv), (⟨.nzero, .nzero⟩ : Itv)])); (Cmd.run (.op [(Itv.empty : Itv)]))),
    .call (do (Cmd.run (.op [(Itv.empty : Itv), (⟨(f (-2) (0)), (f (-3602879701896397) (-55))⟩ : Itv)])); (Cmd.run (.op [(Itv.empty : Itv)]))),
    .call (do (Cmd.run (.op [(Itv.empty : Itv), (⟨(f (-2) (0)), (f 0 0)⟩ : Itv)])); (Cmd.run (.op [(Itv.empty : Itv)]))),
    .call (do (Cmd.run (.op [(Itv.empty : Itv), (⟨(f (-2) (0)), .nzero⟩ : Itv)])); (Cmd.run (.op [(Itv.empty : Itv)]))),
    .call (do (Cmd.run (.op [(Itv.empty : Itv), (⟨(f (-2) (0)), (f 1 0)⟩ : Itv)])); (Cmd.run (.op [(Itv.empty : Itv)]))),
    .call (do (Cmd.run (.op [(Itv.empty : Itv), (⟨(f 0 0), (f 1 0)⟩ : Itv)])); (Cmd.run (.op [(Itv.empty : Itv)]))),
    .call (do (Cmd.run (.op [(Itv.empty : Itv), (⟨.nzero, (f 1 0)⟩ : Itv)])); (Cmd.run (.op [(Itv.empty : Itv)]))),
    .call (do (Cmd.run (.op [(Itv.empty : Itv), (⟨(f (3602879701896397) (-55)), (f 1 0)⟩ : Itv)])); (Cmd.run (.op [(Itv.empty : Itv)]))),
    .call (do (Cmd.run (.op [(Itv.entire : Itv), (Itv.empty : Itv)])); (Cmd.run (.op [(Itv.empty : Itv)]))),
    .call ((Cmd.run (.op [(Itv.entire : Itv), (Itv.entire : Itv)]))),
    .call ((Cmd.run (.op [(Itv.entire : Itv), (⟨(f 0 0), (f 0 0)⟩ : Itv)]))),
    .call ((Cmd.run (.op [(Itv.entire : Itv), (⟨(f 0 0), .nzero⟩ : Itv)]))),
    .call ((Cmd.run (.op [(Itv.entire : Itv), (⟨.nzero, (f 0 0)⟩ : Itv)]))),
    .call ((Cmd.run (.op [(Itv.entire : Itv), (⟨.nzero, .nzero⟩ : Itv)]))),
    .call ((Cmd.run (.op [(Itv.entire : Itv), (⟨(f (-2) (0)), (f (-3602879701896397) (-55))⟩ : Itv)]))),
    .call ((Cmd.run (.op [(Itv.entire : Itv), (⟨(f (-2) (0)), (f 0 0)⟩ : Itv)]))),
    .call ((Cmd.run (.op [(Itv.entire : Itv), (⟨(f (-2) (0)), .nzero⟩ : Itv)]))),
    .call ((Cmd.run (.op [(Itv.entire : Itv), (⟨(f (-2) (0)), (f 1 0)⟩ : Itv)]))),
    .call ((Cmd.run (.op [(Itv.entire : Itv), (⟨(f 0 0), (f 1 0)⟩ : Itv)]))),
    .call ((Cmd.run (.op [(Itv.entire : Itv), (⟨.nzero, (f 1 0)⟩ : Itv)]))),
    .call ((Cmd.run (.op [(Itv.entire : Itv), (⟨(f (3602879701896397) (-55)), (f 1 0)⟩ : Itv)]))),
    .call (do (Cmd.run (.op [(⟨(f 0 0), (f 0 0)⟩ : Itv), (Itv.empty : Itv)])); (Cmd.run (.op [(Itv.empty : Itv)]))),
    .call ((Cmd.run (.op [(⟨(f 0 0), (f 0 0)⟩ : Itv), (Itv.entire : Itv)]))),
    .call (do (Cmd.run (.op [(⟨(f 0 0), (f 0 0)⟩ : Itv), (⟨(f 0 0), (f 0 0)⟩ : Itv)])); (Cmd.run (.op [(Itv.empty : Itv)]))),
    .call (do (Cmd.run (.op [(⟨(f 0 0), (f 0 0)⟩ : Itv), (⟨.nzero, (f 0 0)⟩ : Itv)])); (Cmd.run (.op [(Itv.empty : Itv)]))),
    .call (do (Cmd.run (.op [(⟨(f 0 0), (f 0 0)⟩ : Itv), (⟨(f 0 0), .nzero⟩ : Itv)])); (Cmd.run (.op [(Itv.empty : Itv)]))),
    .call (do (Cmd.run (.op [(⟨(f 0 0), (f 0 0)⟩ : Itv), (⟨.nzero, .nzero⟩ : Itv)])); (Cmd.run (.op [(Itv.empty : Itv)]))),
    .call ((Cmd.run (.op [(⟨(f 0 0), (f 0 0)⟩ : Itv), (⟨(f (-2) (0)), (f (-3602879701896397) (-55))⟩ : Itv)]))),
    .call ((Cmd.run (.op [(⟨(f 0 0), (f 0 0)⟩ : Itv), (⟨(f (-2) (0)), (f 0 0)⟩ : Itv)]))),
    .call ((Cmd.run (.op [(⟨(f 0 0), (f 0 0)⟩ : Itv), (⟨(f (-2) (0)), .nzero⟩ : Itv)]))),
    .call ((Cmd.run (.op [(⟨(f 0 0), (f 0 0)⟩ : Itv), (⟨(f (-2) (0)), (f 1 0)⟩ : Itv)]))),
    .call ((Cmd.run (.op [(⟨(f 0 0), (f 0 0)⟩ : Itv), (⟨(f 0 0), (f 1 0)⟩ : Itv)]))),
    .call ((Cmd.run (.op [(⟨(f 0 0), (f 0 0)⟩ : Itv), (⟨.nzero, (f 1 0)⟩ : Itv)]))),
    .call ((Cmd.run (.op [(⟨(f 0 0), (f 0 0)⟩ : Itv), (⟨(f (3602879701896397) (-55)), (f 1 0)⟩ : Itv)]))),
    .call (do (Cmd.run (.op [(⟨.nzero, (f 0 0)⟩ : Itv), (Itv.empty : Itv)])); (Cmd.run (.op [(Itv.empty : Itv)]))),
    .call ((Cmd.run (.op [(⟨.nzero, (f 0 0)⟩ : Itv), (Itv.entire : Itv)]))),
    .call (do (Cmd.run (.op [(⟨.nzero, (f 0 0)⟩ : Itv), (⟨(f 0 0), (f 0 0)⟩ : Itv)])); (Cmd.run (.op [(Itv.empty : Itv)]))),
    .call (do (Cmd.run (.op [(⟨.nzero, (f 0 0)⟩ : Itv), (⟨.nzero, (f 0 0)⟩ : Itv)])); (Cmd.run (.op [(Itv.empty : Itv)]))),
    .call (do (Cmd.run (.op [(⟨.nzero, (f 0 0)⟩ : Itv), (⟨(f 0 0), .nzero⟩ : Itv)])); (Cmd.run (.op [(Itv.empty : Itv)]))),
    .call (do (Cmd.run (.op [(⟨.nzero, (f 0 0)⟩ : Itv), (⟨.nzero, .nzero⟩ : Itv)])); (Cmd.run (.op [(Itv.empty : Itv)]))),
    .call ((Cmd.run (.op [(⟨.nzero, (f 0 0)⟩ : Itv), (⟨(f (-2) (0)), (f (-3602879701896397) (-55))⟩ : Itv)]))),
    .call ((Cmd.run (.op [(⟨.nzero, (f 0 0)⟩ : Itv), (⟨(f (-2) (0)), (f 0 0)⟩ : Itv)]))),
    .call ((Cmd.run (.op [(⟨.nzero, (f 0 0)⟩ : Itv), (⟨(f (-2) (0)), .nzero⟩ : Itv)]))),
    .call ((Cmd.run (.op [(⟨.nzero, (f 0 0)⟩ : Itv), (⟨(f (-2) (0)), (f 1 0)⟩ : Itv)]))),
    .call ((Cmd.run (.op [(⟨.nzero, (f 0 0)⟩ : Itv), (⟨(f 0 0), (f 1 0)⟩ : Itv)]))),
    .call ((Cmd.run (.op [(⟨.nzero, (f 0 0)⟩ : Itv), (⟨.nzero, (f 1 0)⟩ : Itv)]))),
    .call ((Cmd.run (.op [(⟨.nzero, (f 0 0)⟩ : Itv), (⟨(f (3602879701896397) (-55)), (f 1 0)⟩ : Itv)]))),
    .call (do (Cmd.run (.op [(⟨(f 0 0), .nzero⟩ : Itv), (Itv.empty : Itv)])); (Cmd.run (.op [(Itv.empty : Itv)]))),
    .call ((Cmd.run (.op [(⟨(f 0 0), .nzero⟩ : Itv), (Itv.entire : Itv)]))),
    .call (do (Cmd.run (.op [(⟨(f 0 0), .nzero⟩ : Itv), (⟨(f 0 0), (f 0 0)⟩ : Itv)])); (Cmd.run (.op [(Itv.empty : Itv)]))),
    .call (do (Cmd.run (.op [(⟨(f 0 0), .nzero⟩ : Itv), (⟨.nzero, (f 0 0)⟩ : Itv)])); (Cmd.run (.op [(Itv.empty : Itv)]))),
    .call (do (Cmd.run (.op [(⟨(f 0 0), .nzero⟩ : Itv), (⟨(f 0 0), .nzero⟩ : Itv)])); (Cmd.run (.op [(Itv.empty : Itv)]))),
    .call (do (Cmd.run (.op [(⟨(f 0 0), .nzero⟩ : Itv), (⟨.nzero, .nzero⟩ : Itv)])); (Cmd.run (.op [(Itv.empty : Itv)]))),
    .call ((Cmd.run (.op [(⟨(f 0 0), .nzero⟩ : Itv), (⟨(f (-2) (0)), (f (-3602879701896397) (-55))⟩ : Itv)]))),
    .call ((Cmd.run (.op [(⟨(f 0 0), .nzero⟩ : Itv), (⟨(f (-2) (0)), (f 0 0)⟩ : Itv)]))),
    .call ((Cmd.run (.op [(⟨(f 0 0), .nzero⟩ : Itv), (⟨(f (-2) (0)), .nzero⟩ : Itv)]))),
    .call ((Cmd.run (.op [(⟨(f 0 0), .nzero⟩ : Itv), (⟨(f (-2) (0)), (f 1 0)⟩ : Itv)]))),
    .call ((Cmd.run (.op [(⟨(f 0 0), .nzero⟩ : Itv), (⟨(f 0 0), (f 1 0)⟩ : Itv)]))),
    .call ((Cmd.run (.op [(⟨(f 0 0), .nzero⟩ : Itv), (⟨.nzero, (f 1 0)⟩ : Itv)]))),
    .call ((Cmd.run (.op [(⟨(f 0 0), .nzero⟩ : Itv), (⟨(f (3602879701896397) (-55)), (f 1 0)⟩ : Itv)]))),
    .call (do (Cmd.run (.op [(⟨.nzero, .nzero⟩ : Itv), (Itv.empty : Itv)])); (Cmd.run (.op [(Itv.empty : Itv)]))),
    .call ((Cmd.run (.op [(⟨.nzero, .nzero⟩ : Itv), (Itv.entire : Itv)]))),
    .call (do (Cmd.run (.op [(⟨.nzero, .nzero⟩ : Itv), (⟨(f 0 0), (f 0 0)⟩ : Itv)])); (Cmd.run (.op [(Itv.empty : Itv)]))),
    .call (do (Cmd.run (.op [(⟨.nzero, .nzero⟩ : Itv), (⟨.nzero, (f 0 0)⟩ : Itv)])); (Cmd.run (.op [(Itv.empty : Itv)]))),
    .call (do (Cmd.run (.op [(⟨.nzero, .nzero⟩ : Itv), (⟨(f 0 0), .nzero⟩ : Itv)])); (Cmd.run (.op [(Itv.empty : Itv)]))),
    .call (do (Cmd.run (.op [(⟨.nzero, .nzero⟩ : Itv), (⟨.nzero, .nzero⟩ : Itv)])); (Cmd.run (.op [(Itv.empty : Itv)]))),
    .call ((Cmd.run (.op [(⟨.nzero, .nzero⟩ : Itv), (⟨(f (-2) (0)), (f (-3602879701896397) (-55))⟩ : Itv)]))),
    .call ((Cmd.run (.op [(⟨.nzero, .nzero⟩ : Itv), (⟨(f (-2) (0)), (f 0 0)⟩ : Itv)]))),
    .call ((Cmd.run (.op [(⟨.nzero, .nzero⟩ : Itv), (⟨(f (-2) (0)), .nzero⟩ : Itv)]))),
    .call ((Cmd.run (.op [(⟨.nzero, .nzero⟩ : Itv), (⟨(f (-2) (0)), (f 1 0)⟩ : Itv)]))),
    .call ((Cmd.run (.op [(⟨.nzero, .nzero⟩ : Itv), (⟨(f 0 0), (f 1 0)⟩ : Itv)]))),
    .call ((Cmd.run (.op [(⟨.nzero, .nzero⟩ : Itv), (⟨.nzero, (f 1 0)⟩ : Itv)]))),
    .call ((Cmd.run (.op [(⟨.nzero, .nzero⟩ : Itv), (⟨(f (3602879701896397) (-55)), (f 1 0)⟩ : Itv)]))),
    .call (do (Cmd.run (.op [(⟨(f (-2) (0)), (f (-3602879701896397) (-55))⟩ : Itv), (Itv.empty : Itv)])); (Cmd.run (.op [(Itv.empty : Itv)]))),
    .call ((Cmd.run (.op [(⟨(f (-2) (0)), (f (-3602879701896397) (-55))⟩ : Itv), (Itv.entire : Itv)]))),
    .call ((Cmd.run (.op [(⟨(f (-2) (0)), (f (-3602879701896397) (-55))⟩ : Itv), (⟨(f 0 0), (f 0 0)⟩ : Itv)]))),
    .call ((Cmd.run (.op [(⟨(f (-2) (0)), (f (-3602879701896397) (-55))⟩ : Itv), (⟨(f 0 0), .nzero⟩ : Itv)]))),
    .call ((Cmd.run (.op [(⟨(f (-2) (0)), (f (-3602879701896397) (-55))⟩ : Itv), (⟨.nzero, (f 0 0)⟩ : Itv)]))),
    .call ((Cmd.run (.op [(⟨(f (-2) (0)), (f (-3602879701896397) (-55))⟩ : Itv), (⟨(f 0 0), .nzero⟩ : Itv)]))),
    .call ((Cmd.run (.op [(⟨(f (-2) (0)), (f (-3602879701896397) (-55))⟩ : Itv), (⟨(f (-2) (0)), (f (-3602879701896397) (-55))⟩ : Itv)]))),
    .call ((Cmd.run (.op [(⟨(f (-2) (0)), (f (-3602879701896397) (-55))⟩ : Itv), (⟨(f (-2) (0)), (f 0 0)⟩ : Itv)]))),
    .call ((Cmd.run (.op [(⟨(f (-2) (0)), (f (-3602879701896397) (-55))⟩ : Itv), (⟨(f (-2) (0)), .nzero⟩ : Itv)]))),
    .call ((Cmd.run (.op [(⟨(f (-2) (0)), (f (-3602879701896397) (-55))⟩ : Itv), (⟨(f (-2) (0)), (f 1 0)⟩ : Itv)]))),
    .call ((Cmd.run (.op [(⟨(f (-2) (0)), (f (-3602879701896397) (-55))⟩ : Itv), (⟨(f 0 0), (f 1 0)⟩ : Itv)]))),
    .call ((Cmd.run (.op [(⟨(f (-2) (0)), (f (-3602879701896397) (-55))⟩ : Itv), (⟨.nzero, (f 1 0)⟩ : Itv)]))),
    .call ((Cmd.run (.op [(⟨(f (-2) (0)), (f (-3602879701896397) (-55))⟩ : Itv), (⟨(f (3602879701896397) (-55)), (f 1 0)⟩ : Itv)]))),
    .call (do (Cmd.run (.op [(⟨(f (-2) (0)), (f 0 0)⟩ : Itv), (Itv.empty : Itv)])); (Cmd.run (.op [(Itv.empty : Itv)]))),
    .call ((Cmd.run (.op [(⟨(f (-2) (0)), (f 0 0)⟩ : Itv), (Itv.entire : Itv)]))),
    .call ((Cmd.run (.op [(⟨(f (-2) (0)), (f 0 0)⟩ : Itv), (⟨(f 0 0), (f 0 0)⟩ : Itv)]))),
    .call ((Cmd.run (.op [(⟨(f (-2) (0)), (f 0 0)⟩ : Itv), (⟨.nzero, (f 0 0)⟩ : Itv)]))),
    .call ((Cmd.run (.op [(⟨(f (-2) (0)), (f 0 0)⟩ : Itv), (⟨(f 0 0), .nzero⟩ : Itv)]))),
    .call ((Cmd.run (.op [(⟨(f (-2) (0)), (f 0 0)⟩ : Itv), (⟨.nzero, .nzero⟩ : Itv)]))),
    .call ((Cmd.run (.op [(⟨(f (-2) (0)), (f 0 0)⟩ : Itv), (⟨(f (-2) (0)), (f (-3602879701896397) (-55))⟩ : Itv)]))),
    .call ((Cmd.run (.op [(⟨(f (-2) (0)), (f 0 0)⟩ : Itv), (⟨(f (-2) (0)), (f 0 0)⟩ : Itv)]))),
    .call ((Cmd.run (.op [(⟨(f (-2) (0)), (f 0 0)⟩ : Itv), (⟨(f (-2) (0)), .nzero⟩ : Itv)]))),
    .call ((Cmd.run (.op [(⟨(f (-2) (0)), (f 0 0)⟩ : Itv), (⟨(f (-2) (0)), (f 1 0)⟩ : Itv)]))),
    .call ((Cmd.run (.op [(⟨(f (-2) (0)), (f 0 0)⟩ : Itv), (⟨(f 0 0), (f 1 0)⟩ : Itv)]))),
    .call ((Cmd.run (.op [(⟨(f (-2) (0)), (f 0 0)⟩ : Itv), (⟨.nzero, (f 1 0)⟩ : Itv)]))),
    .call ((Cmd.run (.op [(⟨(f (-2) (0)), (f 0 0)⟩ : Itv), (⟨(f (3602879701896397) (-55)), (f 1 0)⟩ : Itv)]))),
    .call (do (Cmd.run (.op [(⟨(f (-2) (0)), .nzero⟩ : Itv), (Itv.empty : Itv)])); (Cmd.run (.op [(Itv.empty : Itv)]))),
    .call ((Cmd.run (.op [(⟨(f (-2) (0)), .nzero⟩ : Itv), (Itv.entire : Itv)]))),
    .call ((Cmd.run (.op [(⟨(f (-2) (0)), .nzero⟩ : Itv), (⟨(f 0 0), (f 0 0)⟩ : Itv)]))),
    .call ((Cmd.run (.op [(⟨(f (-2) (0)), .nzero⟩ : Itv), (⟨.nzero, (f 0 0)⟩ : Itv)]))),
    .call ((Cmd.run (.op [(⟨(f (-2) (0)), .nzero⟩ : Itv), (⟨(f 0 0), .nzero⟩ : Itv)]))),
    .call ((Cmd.run (.op [(⟨(f (-2) (0)), .nzero⟩ : Itv), (⟨.nzero, .nzero⟩ : Itv)]))),
    .call ((Cmd.run (.op [(⟨(f (-2) (0)), .nzero⟩ : Itv), (⟨(f (-2) (0)), (f (-3602879701896397) (-55))⟩ : Itv)]))),
    .call ((Cmd.run (.op [(⟨(f (-2) (0)), .nzero⟩ : Itv), (⟨(f (-2) (0)), (f 0 0)⟩ : Itv)]))),
    .call ((Cmd.run (.op [(⟨(f (-2) (0)), .nzero⟩ : Itv), (⟨(f (-2) (0)), .nzero⟩ : Itv)]))),
    .call ((Cmd.run (.op [(⟨(f (-2) (0)), .nzero⟩ : Itv), (⟨(f (-2) (0)), (f 1 0)⟩ : Itv)]))),
    .call ((Cmd.run (.op [(⟨(f (-2) (0)), .nzero⟩ : Itv), (⟨(f 0 0), (f 1 0)⟩ : Itv)]))),
    .call ((Cmd.run (.op [(⟨(f (-2) (0)), .nzero⟩ : Itv), (⟨.nzero, (f 1 0)⟩ : Itv)]))),
    .call ((Cmd.run (.op [(⟨(f (-2) (0)), .nzero⟩ : Itv), (⟨(f (3602879701896397) (-55)), (f 1 0)⟩ : Itv)]))),
    .call (do (Cmd.run (.op [(⟨(f (-2) (0)), (f 1 0)⟩ : Itv), (Itv.empty : Itv)])); (Cmd.run (.op [(Itv.empty : Itv)]))),
    .call ((Cmd.run (.op [(⟨(f (-2) (0)), (f 1 0)⟩ : Itv), (Itv.entire : Itv)]))),
    .call ((Cmd.run (.op [(⟨(f (-2) (0)), (f 1 0)⟩ : Itv), (⟨(f 0 0), (f 0 0)⟩ : Itv)]))),
    .call ((Cmd.run (.op [(⟨(f (-2) (0)), (f 1 0)⟩ : Itv), (⟨.nzero, (f 0 0)⟩ : Itv)]))),
    .call ((Cmd.run (.op [(⟨(f (-2) (0)), (f 1 0)⟩ : Itv), (⟨(f 0 0), .nzero⟩ : Itv)]))),
    .call ((Cmd.run (.op [(⟨(f (-2) (0)), (f 1 0)⟩ : Itv), (⟨.nzero, .nzero⟩ : Itv)]))),
    .call ((Cmd.run (.op [(⟨(f (-2) (0)), (f 1 0)⟩ : Itv), (⟨(f (-2) (0)), (f (-3602879701896397) (-55))⟩ : Itv)]))),
    .call ((Cmd.run (.op [(⟨(f (-2) (0)), (f 1 0)⟩ : Itv), (⟨(f (-2) (0)), (f 0 0)⟩ : Itv)]))),
    .call ((Cmd.run (.op [(⟨(f (-2) (0)), (f 1 0)⟩ : Itv), (⟨(f (-2) (0)), .nzero⟩ : Itv)]))),
    .call ((Cmd.run (.op [(⟨(f (-2) (0)), (f 1 0)⟩ : Itv), (⟨(f (-2) (0)), (f 1 0)⟩ : Itv)]))),
    .call ((Cmd.run (.op [(⟨(f (-2) (0)), (f 1 0)⟩ : Itv), (⟨(f 0 0), (f 1 0)⟩ : Itv)]))),
    .call ((Cmd.run (.op [(⟨(f (-2) (0)), (f 1 0)⟩ : Itv), (⟨.nzero, (f 1 0)⟩ : Itv)]))),
    .call ((Cmd.run (.op [(⟨(f (-2) (0)), (f 1 0)⟩ : Itv), (⟨(f (3602879701896397) (-55)), (f 1 0)⟩ : Itv)]))),
    .call (do (Cmd.run (.op [(⟨.nzero, (f 1 0)⟩ : Itv), (Itv.empty : Itv)])); (Cmd.run (.op [(Itv.empty : Itv)]))),
    .call ((Cmd.run (.op [(⟨.nzero, (f 1 0)⟩ : Itv), (Itv.entire : Itv)]))),
    .call ((Cmd.run (.op [(⟨.nzero, (f 1 0)⟩ : Itv), (⟨(f 0 0), (f 0 0)⟩ : Itv)]))),
    .call ((Cmd.run (.op [(⟨.nzero, (f 1 0)⟩ : Itv), (⟨.nzero, (f 0 0)⟩ : Itv)]))),
    .call ((Cmd.run (.op [(⟨.nzero, (f 1 0)⟩ : Itv), (⟨(f 0 0), .nzero⟩ : Itv)]))),
    .call ((Cmd.run (.op [(⟨.nzero, (f 1 0)⟩ : Itv), (⟨.nzero, .nzero⟩ : Itv)]))),
    .call ((Cmd.run (.op [(⟨.nzero, (f 1 0)⟩ : Itv), (⟨(f (-2) (0)), (f (-3602879701896397) (-55))⟩ : Itv)]))),
    .call ((Cmd.run (.op [(⟨.nzero, (f 1 0)⟩ : Itv), (⟨(f (-2) (0)), (f 0 0)⟩ : Itv)]))),
    .call ((Cmd.run (.op [(⟨.nzero, (f 1 0)⟩ : Itv), (⟨(f (-2) (0)), .nzero⟩ : Itv)]))),
    .call ((Cmd.run (.op [(⟨.nzero, (f 1 0)⟩ : Itv), (⟨(f (-2) (0)), (f 1 0)⟩ : Itv)]))),
    .call ((Cmd.run (.op [(⟨.nzero, (f 1 0)⟩ : Itv), (⟨(f 0 0), (f 1 0)⟩ : Itv)]))),
    .call ((Cmd.run (.op [(⟨.nzero, (f 1 0)⟩ : Itv), (⟨.nzero, (f 1 0)⟩ : Itv)]))),
    .call ((Cmd.run (.op [(⟨.nzero, (f 1 0)⟩ : Itv), (⟨(f (3602879701896397) (-55)), (f 1 0)⟩ : Itv)]))),
    .call (do (Cmd.run (.op [(⟨(f 0 0), (f 1 0)⟩ : Itv), (Itv.empty : Itv)])); (Cmd.run (.op [(Itv.empty : Itv)]))),
    .call ((Cmd.run (.op [(⟨(f 0 0), (f 1 0)⟩ : Itv), (Itv.entire : Itv)]))),
    .call ((Cmd.run (.op [(⟨(f 0 0), (f 1 0)⟩ : Itv), (⟨(f 0 0), (f 0 0)⟩ : Itv)]))),
    .call ((Cmd.run (.op [(⟨(f 0 0), (f 1 0)⟩ : Itv), (⟨.nzero, (f 0 0)⟩ : Itv)]))),
    .call ((Cmd.run (.op [(⟨(f 0 0), (f 1 0)⟩ : Itv), (⟨(f 0 0), .nzero⟩ : Itv)]))),
    .call ((Cmd.run (.op [(⟨(f 0 0), (f 1 0)⟩ : Itv), (⟨.nzero, .nzero⟩ : Itv)]))),
    .call ((Cmd.run (.op [(⟨(f 0 0), (f 1 0)⟩ : Itv), (⟨(f (-2) (0)), (f (-3602879701896397) (-55))⟩ : Itv)]))),
    .call ((Cmd.run (.op [(⟨(f 0 0), (f 1 0)⟩ : Itv), (⟨(f (-2) (0)), (f 0 0)⟩ : Itv)]))),
    .call ((Cmd.run (.op [(⟨(f 0 0), (f 1 0)⟩ : Itv), (⟨(f (-2) (0)), .nzero⟩ : Itv)]))),
    .call ((Cmd.run (.op [(⟨(f 0 0), (f 1 0)⟩ : Itv), (⟨(f (-2) (0)), (f 1 0)⟩ : Itv)]))),
    .call ((Cmd.run (.op [(⟨(f 0 0), (f 1 0)⟩ : Itv), (⟨(f 0 0), (f 1 0)⟩ : Itv)]))),
    .call ((Cmd.run (.op [(⟨(f 0 0), (f 1 0)⟩ : Itv), (⟨.nzero, (f 1 0)⟩ : Itv)]))),
    .call ((Cmd.run (.op [(⟨(f 0 0), (f 1 0)⟩ : Itv), (⟨(f (3602879701896397) (-55)), (f 1 0)⟩ : Itv)]))),
    .call (do (Cmd.run (.op [(⟨(f (3602879701896397) (-55)), (f 1 0)⟩ : Itv), (Itv.empty : Itv)])); (Cmd.run (.op [(Itv.empty : Itv)]))),
    .call ((Cmd.run (.op [(⟨(f (3602879701896397) (-55)), (f 1 0)⟩ : Itv), (Itv.entire : Itv)]))),
    .call ((Cmd.run (.op [(⟨(f (3602879701896397) (-55)), (f 1 0)⟩ : Itv), (⟨(f 0 0), (f 0 0)⟩ : Itv)]))),
    .call ((Cmd.run (.op [(⟨(f (3602879701896397) (-55)), (f 1 0)⟩ : Itv), (⟨.nzero, (f 0 0)⟩ : Itv)]))),
    .call ((Cmd.run (.op [(⟨(f (3602879701896397) (-55)), (f 1 0)⟩ : Itv), (⟨(f 0 0), .nzero⟩ : Itv)]))),
    .call ((Cmd.run (.op [(⟨(f (3602879701896397) (-55)), (f 1 0)⟩ : Itv), (⟨.nzero, .nzero⟩ : Itv)]))),
    .call ((Cmd.run (.op [(⟨(f (3602879701896397) (-55)), (f 1 0)⟩ : Itv), (⟨(f (-2) (0)), (f (-3602879701896397) (-55))⟩ : Itv)]))),
    .call ((Cmd.run (.op [(⟨(f (3602879701896397) (-55)), (f 1 0)⟩ : Itv), (⟨(f (-2) (0)), (f 0 0)⟩ : Itv)]))),
    .call ((Cmd.run (.op [(⟨(f (3602879701896397) (-55)), (f 1 0)⟩ : Itv), (⟨(f (-2) (0)), .nzero⟩ : Itv)]))),
    .call ((Cmd.run (.op [(⟨(f (3602879701896397) (-55)), (f 1 0)⟩ : Itv), (⟨(f (-2) (0)), (f 1 0)⟩ : Itv)]))),
    .call ((Cmd.run (.op [(⟨(f (3602879701896397) (-55)), (f 1 0)⟩ : Itv), (⟨(f 0 0), (f 1 0)⟩ : Itv)]))),
    .call ((Cmd.run (.op [(⟨(f (3602879701896397) (-55)), (f 1 0)⟩ : Itv), (⟨.nzero, (f 1 0)⟩ : Itv)]))),
    .call ((Cmd.run (.op [(⟨(f (3602879701896397) (-55)), (f 1 0)⟩ : Itv), (⟨(f (3602879701896397) (-55)), (f 1 0)⟩ : Itv)]))),
    .state 5568 [],
    .call clearFlags,
    .call (do (Cmd.run (.op [(⟨(f (3602879701896397) (-55)), (f (-1) (0))⟩ : Itv), (⟨(f (-2) (0)), (f 1 0)⟩ : Itv)])); (Cmd.run (.op [(Itv.empty : Itv)]))),
    .state 5572 [.invalidOperand],
    .call clearFlags,
    .call (setCwd (bitsOf [.invalidOperand])),
    .throws 5575 ((Cmd.run (.op [(⟨(f (3602879701896397) (-55)), (f 1 0)⟩ : Itv), (⟨(f 2 0), (f 1 0)⟩ : Itv)]))) .invalidOperand,
    .state 5576 [.invalidOperand],
    .call clearFlags,
    .call (setCwd (bitsOf []))] ExSt.init = [] := by
  decide +kernel

/-- `minimal_atan2_mixedtype_test` -/
example : failed [
    .call ((Cmd.run (.op [(Itv.entire : Itv), (⟨.nzero, .nzero⟩ : Itv)]))),
    .call ((Cmd.run (.op [(Itv.entire : Itv), (⟨(f (-2) (0)), (f (-3602879701896397) (-55))⟩ : Itv)]))),
    .call ((Cmd.run (.op [(Itv.entire : Itv), (⟨(f (-2) (0)), (f 0 0)⟩ : Itv)]))),
    .call ((Cmd.run (.op [(⟨(f 0 0), (f 0 0)⟩ : Itv), (⟨(f (-2) (0)), (f (-3602879701896397) (-55))⟩ : Itv)]))),
    .call ((Cmd.run (.op [(⟨(f 0 0), (f 0 0)⟩ : Itv), (⟨(f (-2) (0)), (f 0 0)⟩ : Itv)]))),
    .call ((Cmd.run (.op [(⟨(f 0 0), (f 0 0)⟩ : Itv), (⟨(f (-2) (0)), .nzero⟩ : Itv)]))),
    .call ((Cmd.run (.op [(⟨.nzero, (f 0 0)⟩ : Itv), (⟨(f (-2) (0)), (f (-13421773) (-27))⟩ : Itv)]))),
    .call ((Cmd.run (.op [(⟨.nzero, (f 0 0)⟩ : Itv), (⟨(f (-2) (0)), (f 0 0)⟩ : Itv)]))),
    .call ((Cmd.run (.op [(⟨(f 0 0), .nzero⟩ : Itv), (⟨(f (-2) (0)), (f (-13421773) (-27))⟩ : Itv)]))),
    .call ((Cmd.run (.op [(⟨(f 0 0), .nzero⟩ : Itv), (⟨(f (-2) (0)), (f 0 0)⟩ : Itv)]))),
    .call ((Cmd.run (.op [(⟨.nzero, .nzero⟩ : Itv), (⟨(f (-2) (0)), (f (-3602879701896397) (-55))⟩ : Itv)]))),
    .call ((Cmd.run (.op [(⟨.nzero, .nzero⟩ : Itv), (⟨(f (-2) (0)), (f 0 0)⟩ : Itv)]))),
    .call ((Cmd.run (.op [(⟨(f (-2) (0)), (f (-3602879701896397) (-55))⟩ : Itv), (⟨(f (-2) (0)), (f (-13421773) (-27))⟩ : Itv)]))),
    .call ((Cmd.run (.op [(⟨(f (-2) (0)), (f (-3602879701896397) (-55))⟩ : Itv), (⟨(f (-2) (0)), (f 0 0)⟩ : Itv)]))),
    .call ((Cmd.run (.op [(⟨(f (-2) (0)), (f (-3602879701896397) (-55))⟩ : Itv), (⟨(f (-2) (0)), .nzero⟩ : Itv)]))),
    .call ((Cmd.run (.op [(⟨(f (-2) (0)), (f 0 0)⟩ : Itv), (⟨.nzero, .nzero⟩ : Itv)]))),
    .call ((Cmd.run (.op [(⟨(f (-2) (0)), (f 0 0)⟩ : Itv), (⟨(f (-2) (0)), (f (-3602879701896397) (-55))⟩ : Itv)]))),
    .call ((Cmd.run (.op [(⟨(f (-2) (0)), (f 0 0)⟩ : Itv), (⟨(f (-2) (0)), (f 0 0)⟩ : Itv)]))),
    .call ((Cmd.run (.op [(⟨(f (-2) (0)), .nzero⟩ : Itv), (⟨(f (-2) (0)), (f (-13421773) (-27))⟩ : Itv)]))),
    .call ((Cmd.run (.op [(⟨(f (-2) (0)), .nzero⟩ : Itv), (⟨(f (-2) (0)), (f 0 0)⟩ : Itv)]))),
    .call ((Cmd.run (.op [(⟨(f (-2) (0)), .nzero⟩ : Itv), (⟨(f (-2) (0)), .nzero⟩ : Itv)]))),
    .call ((Cmd.run (.op [(⟨(f (-2) (0)), .nzero⟩ : Itv), (⟨(f (-2) (0)), (f 1 0)⟩ : Itv)]))),
    .call ((Cmd.run (.op [(⟨(f (-2) (0)), (f 1 0)⟩ : Itv), (⟨(f (-2) (0)), (f 0 0)⟩ : Itv)]))),
    .call ((Cmd.run (.op [(⟨(f (-2) (0)), (f 1 0)⟩ : Itv), (⟨(f (-2) (0)), .nzero⟩ : Itv)]))),
    .call ((Cmd.run (.op [(⟨(f (-2) (0)), (f 1 0)⟩ : Itv), (⟨(f (-2) (0)), (f 1 0)⟩ : Itv)]))),
    .call ((Cmd.run (.op [(⟨.nzero, (f 1 0)⟩ : Itv), (⟨.nzero, .nzero⟩ : Itv)]))),
    .call ((Cmd.run (.op [(⟨.nzero, (f 1 0)⟩ : Itv), (⟨(f (-2) (0)), (f (-13421773) (-27))⟩ : Itv)]))),
    .call ((Cmd.run (.op [(⟨.nzero, (f 1 0)⟩ : Itv), (⟨(f (-2) (0)), (f 0 0)⟩ : Itv)]))),
    .call ((Cmd.run (.op [(⟨.nzero, (f 1 0)⟩ : Itv), (⟨(f (-2) (0)), .nzero⟩ : Itv)]))),
    .call ((Cmd.run (.op [(⟨(f 0 0), (f 1 0)⟩ : Itv), (⟨.nzero, .nzero⟩ : Itv)]))),
    .call ((Cmd.run (.op [(⟨(f 0 0), (f 1 0)⟩ : Itv), (⟨(f (-2) (0)), (f (-3602879701896397) (-55))⟩ : Itv)]))),
    .call ((Cmd.run (.op [(⟨(f 0 0), (f 1 0)⟩ : Itv), (⟨(f (-2) (0)), (f 0 0)⟩ : Itv)]))),
    .call ((Cmd.run (.op [(⟨(f 0 0), (f 1 0)⟩ : Itv), (⟨(f (-2) (0)), .nzero⟩ : Itv)]))),
    .call ((Cmd.run (.op [(⟨(f (13421773) (-27)), (f 1 0)⟩ : Itv), (⟨(f (-2) (0)), (f (-3602879701896397) (-55))⟩ : Itv)]))),
    .call ((Cmd.run (.op [(⟨(f (3602879701896397) (-55)), (f 1 0)⟩ : Itv), (⟨(f (-2) (0)), (f 0 0)⟩ : Itv)]))),
    .call ((Cmd.run (.op [(⟨(f (3602879701896397) (-55)), (f 1 0)⟩ : Itv), (⟨(f (-2) (0)), .nzero⟩ : Itv)]))),
    .call ((Cmd.run (.op [(⟨(f (3602879701896397) (-55)), (f 1 0)⟩ : Itv), (⟨(f (-2) (0)), (f 1 0)⟩ : Itv)]))),
    .state 5633 [],
    .call clearFlags,
    .call (do (Cmd.run (.op [(⟨(f (3602879701896397) (-55)), (f (-1) (0))⟩ : Itv), (⟨(f (-2) (0)), (f 1 0)⟩ : Itv)])); (Cmd.run (.op [(Itv.empty : Itv)]))),
    .state 5637 [.invalidOperand],
    .call clearFlags,
    .call (setCwd (bitsOf [.invalidOperand])),
    .throws 5640 ((Cmd.run (.op [(⟨(f (13421773) (-27)), (f (-1) (0))⟩ : Itv), (⟨(f 0 0), (f 1 0)⟩ : Itv)]))) .invalidOperand,
    .state 5641 [.invalidOperand],
    .call clearFlags,
    .call (setCwd (bitsOf []))] ExSt.init = [] := by
  decide +kernel

/-- `minimal_atan2_dec_test` -/
example : failed [
    .call (do (Cmd.run (.opD [(DItv.empty : DItv), (DItv.empty : DItv)])); (Cmd.run (.opD [(DItv.empty : DItv)]))),
    .call (do (Cmd.run (.opD [(DItv.empty : DItv), (DItv.entire : DItv)])); (Cmd.run (.opD [(DItv.empty : DItv)]))),
    .call (do (Cmd.run (.opD [(DItv.empty : DItv), (⟨⟨(f 0 0), (f 0 0)⟩, .com⟩ : DItv)])); (Cmd.run (.opD [(DItv.empty : DItv)]))),
    .call (do (Cmd.run (.opD [(DItv.empty : DItv), (⟨⟨.nzero, (f 0 0)⟩, .dac⟩ : DItv)])); (Cmd.run (.opD [(DItv.empty : DItv)]))),
    .call (do (Cmd.run (.opD [(DItv.empty : DItv), (⟨⟨(f 0 0), .nzero⟩, .defd⟩ : DItv)])); (Cmd.run (.opD [(DItv.empty : DItv)]))),
    .call (do (Cmd.run (.opD [(DItv.empty : DItv), (⟨⟨.nzero, .nzero⟩, .trv⟩ : DItv)])); (Cmd.run (.opD [(DItv.empty : DItv)]))),
    .call (do (Cmd.run (.opD [(DItv.empty : DItv), (⟨⟨(f (-2) (0)), (f (-3602879701896397) (-55))⟩, .com⟩ : DItv)])); (Cmd.run (.opD [(DItv.empty : DItv)]))),
    .call (do (Cmd.run (.opD [(DItv.empty : DItv), (⟨⟨(f (-2) (0)), (f 0 0)⟩, .dac⟩ : DItv)])); (Cmd.run (.opD [(DItv.empty : DItv)]))),
    .call (do (Cmd.run (.opD [(DItv.empty : DItv), (⟨⟨(f (-2) (0)), .nzero⟩, .defd⟩ : DItv)])); (Cmd.run (.opD [(DItv.empty : DItv)]))),
    .call (do (Cmd.run (.opD [(DItv.empty : DItv), (⟨⟨(f (-2) (0)), (f 1 0)⟩, .trv⟩ : DItv)])); (Cmd.run (.opD [(DItv.empty : DItv)]))),
    .call (do (Cmd.run (.opD [(DItv.empty : DItv), (⟨⟨(f 0 0), (f 1 0)⟩, .com⟩ : DItv)])); (Cmd.run (.opD [(DItv.empty : DItv)]))),
    .call (do (Cmd.run (.opD [(DItv.empty : DItv), (⟨⟨.nzero, (f 1 0)⟩, .dac⟩ : DItv)])); (Cmd.run (.opD [(DItv.empty : DItv)]))),
    .call (do (Cmd.run (.opD [(DItv.empty : DItv), (⟨⟨(f (3602879701896397) (-55)), (f 1 0)⟩, .defd⟩ : DItv)])); (Cmd.run (.opD [(DItv.empty : DItv)]))),
    .call (do (Cmd.run (.opD [(DItv.entire : DItv), (DItv.empty : DItv)])); (Cmd.run (.opD [(DItv.empty : DItv)]))),
    .call ((Cmd.run (.opD [(DItv.entire : DItv), (DItv.entire : DItv)]))),
    .call ((Cmd.run (.opD [(DItv.entire : DItv), (⟨⟨(f 0 0), (f 0 0)⟩, .com⟩ : DItv)]))),
    .call ((Cmd.run (.opD [(DItv.entire : DItv), (⟨⟨(f 0 0), .nzero⟩, .defd⟩ : DItv)]))),
    .call ((Cmd.run (.opD [(DItv.entire : DItv), (⟨⟨.nzero, (f 0 0)⟩, .dac⟩ : DItv)]))),
    .call ((Cmd.run (.opD [(DItv.entire : DItv), (⟨⟨.nzero, .nzero⟩, .trv⟩ : DItv)]))),
    .call ((Cmd.run (.opD [(DItv.entire : DItv), (⟨⟨(f (-2) (0)), (f (-3602879701896397) (-55))⟩, .com⟩ : DItv)]))),
    .call ((Cmd.run (.opD [(DItv.entire : DItv), (⟨⟨(f (-2) (0)), (f 0 0)⟩, .dac⟩ : DItv)]))),
    .call ((Cmd.run (.opD [(DItv.entire : DItv), (⟨⟨(f (-2) (0)), .nzero⟩, .defd⟩ : DItv)]))),
    .call ((Cmd.run (.opD [(DItv.entire : DItv), (⟨⟨(f (-2) (0)), (f 1 0)⟩, .trv⟩ : DItv)]))),
    .call ((Cmd.run (.opD [(DItv.entire : DItv), (⟨⟨(f 0 0), (f 1 0)⟩, .dac⟩ : DItv)]))),
    .call ((Cmd.run (.opD [(DItv.entire : DItv), (⟨⟨.nzero, (f 1 0)⟩, .defd⟩ : DItv)]))),
    .call ((Cmd.run (.opD [(DItv.entire : DItv), (⟨⟨(f (3602879701896397) (-55)), (f 1 0)⟩, .com⟩ : DItv)]))),
    .call (do (Cmd.run (.opD [(⟨⟨(f 0 0), (f 0 0)⟩, .com⟩ : DItv), (DItv.empty : DItv)])); (Cmd.run (.opD [(DItv.empty : DItv)]))),
    .call ((Cmd.run (.opD [(⟨⟨(f 0 0), (f 0 0)⟩, .dac⟩ : DItv), (DItv.entire : DItv)]))),
    .call (do (Cmd.run (.opD [(⟨⟨(f 0 0), (f 0 0)⟩, .defd⟩ : DItv), (⟨⟨(f 0 0), (f 0 0)⟩, .trv⟩ : DItv)])); (Cmd.run (.opD [(DItv.empty : DItv)]))),
    .call (do (Cmd.run (.opD [(⟨⟨(f 0 0), (f 0 0)⟩, .trv⟩ : DItv), (⟨⟨.nzero, (f 0 0)⟩, .dac⟩ : DItv)])); (Cmd.run (.opD [(DItv.empty : DItv)]))),
    .call (do (Cmd.run (.opD [(⟨⟨(f 0 0), (f 0 0)⟩, .com⟩ : DItv), (⟨⟨(f 0 0), .nzero⟩, .defd⟩ : DItv)])); (Cmd.run (.opD [(DItv.empty : DItv)]))),
    .call (do (Cmd.run (.opD [(⟨⟨(f 0 0), (f 0 0)⟩, .dac⟩ : DItv), (⟨⟨.nzero, .nzero⟩, .com⟩ : DItv)])); (Cmd.run (.opD [(DItv.empty : DItv)]))),
    .call ((Cmd.run (.opD [(⟨⟨(f 0 0), (f 0 0)⟩, .com⟩ : DItv), (⟨⟨(f (-2) (0)), (f (-3602879701896397) (-55))⟩, .dac⟩ : DItv)]))),
    .call ((Cmd.run (.opD [(⟨⟨(f 0 0), (f 0 0)⟩, .trv⟩ : DItv), (⟨⟨(f (-2) (0)), (f 0 0)⟩, .com⟩ : DItv)]))),
    .call ((Cmd.run (.opD [(⟨⟨(f 0 0), (f 0 0)⟩, .com⟩ : DItv), (⟨⟨(f (-2) (0)), .nzero⟩, .trv⟩ : DItv)]))),
    .call ((Cmd.run (.opD [(⟨⟨(f 0 0), (f 0 0)⟩, .dac⟩ : DItv), (⟨⟨(f (-2) (0)), (f 1 0)⟩, .defd⟩ : DItv)]))),
    .call ((Cmd.run (.opD [(⟨⟨(f 0 0), (f 0 0)⟩, .defd⟩ : DItv), (⟨⟨(f 0 0), (f 1 0)⟩, .com⟩ : DItv)]))),
    .call ((Cmd.run (.opD [(⟨⟨(f 0 0), (f 0 0)⟩, .trv⟩ : DItv), (⟨⟨.nzero, (f 1 0)⟩, .dac⟩ : DItv)]))),
    .call ((Cmd.run (.opD [(⟨⟨(f 0 0), (f 0 0)⟩, .com⟩ : DItv), (⟨⟨(f (3602879701896397) (-55)), (f 1 0)⟩, .com⟩ : DItv)]))),
    .call (do (Cmd.run (.opD [(⟨⟨.nzero, (f 0 0)⟩, .com⟩ : DItv), (DItv.empty : DItv)])); (Cmd.run (.opD [(DItv.empty : DItv)]))),
    .call ((Cmd.run (.opD [(⟨⟨.nzero, (f 0 0)⟩, .dac⟩ : DItv), (DItv.entire : DItv)]))),
    .call (do (Cmd.run (.opD [(⟨⟨.nzero, (f 0 0)⟩, .defd⟩ : DItv), (⟨⟨(f 0 0), (f 0 0)⟩, .com⟩ : DItv)])); (Cmd.run (.opD [(DItv.empty : DItv)]))),
    .call (do (Cmd.run (.opD [(⟨⟨.nzero, (f 0 0)⟩, .trv⟩ : DItv), (⟨⟨.nzero, (f 0 0)⟩, .trv⟩ : DItv)])); (Cmd.run (.opD [(DItv.empty : DItv)]))),
    .call (do (Cmd.run (.opD [(⟨⟨.nzero, (f 0 0)⟩, .com⟩ : DItv), (⟨⟨(f 0 0), .nzero⟩, .defd⟩ : DItv)])); (Cmd.run (.opD [(DItv.empty : DItv)]))),
    .call (do (Cmd.run (.opD [(⟨⟨.nzero, (f 0 0)⟩, .dac⟩ : DItv), (⟨⟨.nzero, .nzero⟩, .com⟩ : DItv)])); (Cmd.run (.opD [(DItv.empty : DItv)]))),
    .call ((Cmd.run (.opD [(⟨⟨.nzero, (f 0 0)⟩, .com⟩ : DItv), (⟨⟨(f (-2) (0)), (f (-3602879701896397) (-55))⟩, .com⟩ : DItv)]))),
    .call ((Cmd.run (.opD [(⟨⟨.nzero, (f 0 0)⟩, .trv⟩ : DItv), (⟨⟨(f (-2) (0)), (f 0 0)⟩, .com⟩ : DItv)]))),
    .call ((Cmd.run (.opD [(⟨⟨.nzero, (f 0 0)⟩, .com⟩ : DItv), (⟨⟨(f (-2) (0)), .nzero⟩, .trv⟩ : DItv)]))),
    .call ((Cmd.run (.opD [(⟨⟨.nzero, (f 0 0)⟩, .dac⟩ : DItv), (⟨⟨(f (-2) (0)), (f 1 0)⟩, .defd⟩ : DItv)]))),
    .call ((Cmd.run (.opD [(⟨⟨.nzero, (f 0 0)⟩, .com⟩ : DItv), (⟨⟨(f 0 0), (f 1 0)⟩, .com⟩ : DItv)]))),
    .call ((Cmd.run (.opD [(⟨⟨.nzero, (f 0 0)⟩, .defd⟩ : DItv), (⟨⟨.nzero, (f 1 0)⟩, .dac⟩ : DItv)]))),
    .call ((Cmd.run (.opD [(⟨⟨.nzero, (f 0 0)⟩, .com⟩ : DItv), (⟨⟨(f (3602879701896397) (-55)), (f 1 0)⟩, .com⟩ : DItv)]))),
    .call (do (Cmd.run (.opD [(⟨⟨(f 0 0), .nzero⟩, .com⟩ : DItv), (DItv.empty : DItv)])); (Cmd.run (.opD [(DItv.empty : DItv)]))),
    .call ((Cmd.run (.opD [(⟨⟨(f 0 0), .nzero⟩, .dac⟩ : DItv), (DItv.entire : DItv)]))),
    .call (do (Cmd.run (.opD [(⟨⟨(f 0 0), .nzero⟩, .defd⟩ : DItv), (⟨⟨(f 0 0), (f 0 0)⟩, .dac⟩ : DItv)])); (Cmd.run (.opD [(DItv.empty : DItv)]))),
    .call (do (Cmd.run (.opD [(⟨⟨(f 0 0), .nzero⟩, .trv⟩ : DItv), (⟨⟨.nzero, (f 0 0)⟩, .com⟩ : DItv)])); (Cmd.run (.opD [(DItv.empty : DItv)]))),
    .call (do (Cmd.run (.opD [(⟨⟨(f 0 0), .nzero⟩, .dac⟩ : DItv), (⟨⟨(f 0 0), .nzero⟩, .defd⟩ : DItv)])); (Cmd.run (.opD [(DItv.empty : DItv)]))),
    .call (do (Cmd.run (.opD [(⟨⟨(f 0 0), .nzero⟩, .com⟩ : DItv), (⟨⟨.nzero, .nzero⟩, .trv⟩ : DItv)])); (Cmd.run (.opD [(DItv.empty : DItv)]))),
    .call ((Cmd.run (.opD [(⟨⟨(f 0 0), .nzero⟩, .com⟩ : DItv), (⟨⟨(f (-2) (0)), (f (-3602879701896397) (-55))⟩, .dac⟩ : DItv)]))),
    .call ((Cmd.run (.opD [(⟨⟨(f 0 0), .nzero⟩, .defd⟩ : DItv), (⟨⟨(f (-2) (0)), (f 0 0)⟩, .com⟩ : DItv)]))),
    .call ((Cmd.run (.opD [(⟨⟨(f 0 0), .nzero⟩, .com⟩ : DItv), (⟨⟨(f (-2) (0)), .nzero⟩, .dac⟩ : DItv)]))),
    .call ((Cmd.run (.opD [(⟨⟨(f 0 0), .nzero⟩, .dac⟩ : DItv), (⟨⟨(f (-2) (0)), (f 1 0)⟩, .com⟩ : DItv)]))),
    .call ((Cmd.run (.opD [(⟨⟨(f 0 0), .nzero⟩, .com⟩ : DItv), (⟨⟨(f 0 0), (f 1 0)⟩, .trv⟩ : DItv)]))),
    .call ((Cmd.run (.opD [(⟨⟨(f 0 0), .nzero⟩, .defd⟩ : DItv), (⟨⟨.nzero, (f 1 0)⟩, .com⟩ : DItv)]))),
    .call ((Cmd.run (.opD [(⟨⟨(f 0 0), .nzero⟩, .com⟩ : DItv), (⟨⟨(f (3602879701896397) (-55)), (f 1 0)⟩, .defd⟩ : DItv)]))),
    .call (do (Cmd.run (.opD [(⟨⟨.nzero, .nzero⟩, .com⟩ : DItv), (DItv.empty : DItv)])); (Cmd.run (.opD [(DItv.empty : DItv)]))),
    .call ((Cmd.run (.opD [(⟨⟨.nzero, .nzero⟩, .defd⟩ : DItv), (DItv.entire : DItv)]))),
    .call (do (Cmd.run (.opD [(⟨⟨.nzero, .nzero⟩, .dac⟩ : DItv), (⟨⟨(f 0 0), (f 0 0)⟩, .com⟩ : DItv)])); (Cmd.run (.opD [(DItv.empty : DItv)]))),
    .call (do (Cmd.run (.opD [(⟨⟨.nzero, .nzero⟩, .trv⟩ : DItv), (⟨⟨.nzero, (f 0 0)⟩, .defd⟩ : DItv)])); (Cmd.run (.opD [(DItv.empty : DItv)]))),
    .call (do (Cmd.run (.opD [(⟨⟨.nzero, .nzero⟩, .com⟩ : DItv), (⟨⟨(f 0 0), .nzero⟩, .trv⟩ : DItv)])); (Cmd.run (.opD [(DItv.empty : DItv)]))),
    .call (do (Cmd.run (.opD [(⟨⟨.nzero, .nzero⟩, .dac⟩ : DItv), (⟨⟨.nzero, .nzero⟩, .com⟩ : DItv)])); (Cmd.run (.opD [(DItv.empty : DItv)]))),
    .call ((Cmd.run (.opD [(⟨⟨.nzero, .nzero⟩, .defd⟩ : DItv), (⟨⟨(f (-2) (0)), (f (-3602879701896397) (-55))⟩, .dac⟩ : DItv)]))),
    .call ((Cmd.run (.opD [(⟨⟨.nzero, .nzero⟩, .trv⟩ : DItv), (⟨⟨(f (-2) (0)), (f 0 0)⟩, .defd⟩ : DItv)]))),
    .call ((Cmd.run (.opD [(⟨⟨.nzero, .nzero⟩, .dac⟩ : DItv), (⟨⟨(f (-2) (0)), .nzero⟩, .trv⟩ : DItv)]))),
    .call ((Cmd.run (.opD [(⟨⟨.nzero, .nzero⟩, .defd⟩ : DItv), (⟨⟨(f (-2) (0)), (f 1 0)⟩, .com⟩ : DItv)]))),
    .call ((Cmd.run (.opD [(⟨⟨.nzero, .nzero⟩, .com⟩ : DItv), (⟨⟨(f 0 0), (f 1 0)⟩, .com⟩ : DItv)]))),
    .call ((Cmd.run (.opD [(⟨⟨.nzero, .nzero⟩, .trv⟩ : DItv), (⟨⟨.nzero, (f 1 0)⟩, .dac⟩ : DItv)]))),
    .call ((Cmd.run (.opD [(⟨⟨.nzero, .nzero⟩, .com⟩ : DItv), (⟨⟨(f (3602879701896397) (-55)), (f 1 0)⟩, .com⟩ : DItv)]))),
    .call (do (Cmd.run (.opD [(⟨⟨(f (-2) (0)), (f (-3602879701896397) (-55))⟩, .dac⟩ : DItv), (DItv.empty : DItv)])); (Cmd.run (.opD [(DItv.empty : DItv)]))),
    .call ((Cmd.run (.opD [(⟨⟨(f (-2) (0)), (f (-3602879701896397) (-55))⟩, .defd⟩ : DItv), (DItv.entire : DItv)]))),
    .call ((Cmd.run (.opD [(⟨⟨(f (-2) (0)), (f (-3602879701896397) (-55))⟩, .trv⟩ : DItv), (⟨⟨(f 0 0), (f 0 0)⟩, .com⟩ : DItv)]))),
    .call ((Cmd.run (.opD [(⟨⟨(f (-2) (0)), (f (-3602879701896397) (-55))⟩, .com⟩ : DItv), (⟨⟨(f 0 0), .nzero⟩, .dac⟩ : DItv)]))),
    .call ((Cmd.run (.opD [(⟨⟨(f (-2) (0)), (f (-3602879701896397) (-55))⟩, .dac⟩ : DItv), (⟨⟨.nzero, (f 0 0)⟩, .defd⟩ : DItv)]))),
    .call ((Cmd.run (.opD [(⟨⟨(f (-2) (0)), (f (-3602879701896397) (-55))⟩, .com⟩ : DItv), (⟨⟨(f 0 0), .nzero⟩, .trv⟩ : DItv)]))),
    .call ((Cmd.run (.opD [(⟨⟨(f (-2) (0)), (f (-3602879701896397) (-55))⟩, .defd⟩ : DItv), (⟨⟨(f (-2) (0)), (f (-3602879701896397) (-55))⟩, .com⟩ : DItv)]))),
    .call ((Cmd.run (.opD [(⟨⟨(f (-2) (0)), (f (-3602879701896397) (-55))⟩, .com⟩ : DItv), (⟨⟨(f (-2) (0)), (f 0 0)⟩, .defd⟩ : DItv)]))),
    .call ((Cmd.run (.opD [(⟨⟨(f (-2) (0)), (f (-3602879701896397) (-55))⟩, .trv⟩ : DItv), (⟨⟨(f (-2) (0)), .nzero⟩, .dac⟩ : DItv)]))),
    .call ((Cmd.run (.opD [(⟨⟨(f (-2) (0)), (f (-3602879701896397) (-55))⟩, .defd⟩ : DItv), (⟨⟨(f (-2) (0)), (f 1 0)⟩, .trv⟩ : DItv)]))),
    .call ((Cmd.run (.opD [(⟨⟨(f (-2) (0)), (f (-3602879701896397) (-55))⟩, .com⟩ : DItv), (⟨⟨(f 0 0), (f 1 0)⟩, .defd⟩ : DItv)]))),
    .call ((Cmd.run (.opD [(⟨⟨(f (-2) (0)), (f (-3602879701896397) (-55))⟩, .dac⟩ : DItv), (⟨⟨.nzero, (f 1 0)⟩, .com⟩ : DItv)]))),
    .call ((Cmd.run (.opD [(⟨⟨(f (-2) (0)), (f (-3602879701896397) (-55))⟩, .com⟩ : DItv), (⟨⟨(f (3602879701896397) (-55)), (f 1 0)⟩, .com⟩ : DItv)]))),
    .call (do (Cmd.run (.opD [(⟨⟨(f (-2) (0)), (f 0 0)⟩, .defd⟩ : DItv), (DItv.empty : DItv)])); (Cmd.run (.opD [(DItv.empty : DItv)]))),
    .call ((Cmd.run (.opD [(⟨⟨(f (-2) (0)), (f 0 0)⟩, .defd⟩ : DItv), (DItv.entire : DItv)]))),
    .call ((Cmd.run (.opD [(⟨⟨(f (-2) (0)), (f 0 0)⟩, .dac⟩ : DItv), (⟨⟨(f 0 0), (f 0 0)⟩, .dac⟩ : DItv)]))),
    .call ((Cmd.run (.opD [(⟨⟨(f (-2) (0)), (f 0 0)⟩, .trv⟩ : DItv), (⟨⟨.nzero, (f 0 0)⟩, .com⟩ : DItv)]))),
    .call ((Cmd.run (.opD [(⟨⟨(f (-2) (0)), (f 0 0)⟩, .com⟩ : DItv), (⟨⟨(f 0 0), .nzero⟩, .trv⟩ : DItv)]))),
    .call ((Cmd.run (.opD [(⟨⟨(f (-2) (0)), (f 0 0)⟩, .defd⟩ : DItv), (⟨⟨.nzero, .nzero⟩, .defd⟩ : DItv)]))),
    .call ((Cmd.run (.opD [(⟨⟨(f (-2) (0)), (f 0 0)⟩, .com⟩ : DItv), (⟨⟨(f (-2) (0)), (f (-3602879701896397) (-55))⟩, .dac⟩ : DItv)]))),
    .call ((Cmd.run (.opD [(⟨⟨(f (-2) (0)), (f 0 0)⟩, .dac⟩ : DItv), (⟨⟨(f (-2) (0)), (f 0 0)⟩, .com⟩ : DItv)]))),
    .call ((Cmd.run (.opD [(⟨⟨(f (-2) (0)), (f 0 0)⟩, .com⟩ : DItv), (⟨⟨(f (-2) (0)), .nzero⟩, .dac⟩ : DItv)]))),
    .call ((Cmd.run (.opD [(⟨⟨(f (-2) (0)), (f 0 0)⟩, .trv⟩ : DItv), (⟨⟨(f (-2) (0)), (f 1 0)⟩, .com⟩ : DItv)]))),
    .call ((Cmd.run (.opD [(⟨⟨(f (-2) (0)), (f 0 0)⟩, .defd⟩ : DItv), (⟨⟨(f 0 0), (f 1 0)⟩, .defd⟩ : DItv)]))),
    .call ((Cmd.run (.opD [(⟨⟨(f (-2) (0)), (f 0 0)⟩, .com⟩ : DItv), (⟨⟨.nzero, (f 1 0)⟩, .dac⟩ : DItv)]))),
    .call ((Cmd.run (.opD [(⟨⟨(f (-2) (0)), (f 0 0)⟩, .com⟩ : DItv), (⟨⟨(f (3602879701896397) (-55)), (f 1 0)⟩, .com⟩ : DItv)]))),
    .call (do (Cmd.run (.opD [(⟨⟨(f (-2) (0)), .nzero⟩, .trv⟩ : DItv), (DItv.empty : DItv)])); (Cmd.run (.opD [(DItv.empty : DItv)]))),
    .call ((Cmd.run (.opD [(⟨⟨(f (-2) (0)), .nzero⟩, .dac⟩ : DItv), (DItv.entire : DItv)]))),
    .call ((Cmd.run (.opD [(⟨⟨(f (-2) (0)), .nzero⟩, .com⟩ : DItv), (⟨⟨(f 0 0), (f 0 0)⟩, .com⟩ : DItv)]))),
    .call ((Cmd.run (.opD [(⟨⟨(f (-2) (0)), .nzero⟩, .defd⟩ : DItv), (⟨⟨.nzero, (f 0 0)⟩, .dac⟩ : DItv)]))),
    .call ((Cmd.run (.opD [(⟨⟨(f (-2) (0)), .nzero⟩, .dac⟩ : DItv), (⟨⟨(f 0 0), .nzero⟩, .defd⟩ : DItv)]))),
    .call ((Cmd.run (.opD [(⟨⟨(f (-2) (0)), .nzero⟩, .com⟩ : DItv), (⟨⟨.nzero, .nzero⟩, .trv⟩ : DItv)]))),
    .call ((Cmd.run (.opD [(⟨⟨(f (-2) (0)), .nzero⟩, .defd⟩ : DItv), (⟨⟨(f (-2) (0)), (f (-3602879701896397) (-55))⟩, .com⟩ : DItv)]))),
    .call ((Cmd.run (.opD [(⟨⟨(f (-2) (0)), .nzero⟩, .com⟩ : DItv), (⟨⟨(f (-2) (0)), (f 0 0)⟩, .dac⟩ : DItv)]))),
    .call ((Cmd.run (.opD [(⟨⟨(f (-2) (0)), .nzero⟩, .dac⟩ : DItv), (⟨⟨(f (-2) (0)), .nzero⟩, .defd⟩ : DItv)]))),
    .call ((Cmd.run (.opD [(⟨⟨(f (-2) (0)), .nzero⟩, .defd⟩ : DItv), (⟨⟨(f (-2) (0)), (f 1 0)⟩, .trv⟩ : DItv)]))),
    .call ((Cmd.run (.opD [(⟨⟨(f (-2) (0)), .nzero⟩, .trv⟩ : DItv), (⟨⟨(f 0 0), (f 1 0)⟩, .dac⟩ : DItv)]))),
    .call ((Cmd.run (.opD [(⟨⟨(f (-2) (0)), .nzero⟩, .com⟩ : DItv), (⟨⟨.nzero, (f 1 0)⟩, .com⟩ : DItv)]))),
    .call ((Cmd.run (.opD [(⟨⟨(f (-2) (0)), .nzero⟩, .com⟩ : DItv), (⟨⟨(f (3602879701896397) (-55)), (f 1 0)⟩, .com⟩ : DItv)]))),
    .call (do (Cmd.run (.opD [(⟨⟨(f (-2) (0)), (f 1 0)⟩, .defd⟩ : DItv), (DItv.empty : DItv)])); (Cmd.run (.opD [(DItv.empty : DItv)]))),
    .call ((Cmd.run (.opD [(⟨⟨(f (-2) (0)), (f 1 0)⟩, .dac⟩ : DItv), (DItv.entire : DItv)]))),
    .call ((Cmd.run (.opD [(⟨⟨(f (-2) (0)), (f 1 0)⟩, .defd⟩ : DItv), (⟨⟨(f 0 0), (f 0 0)⟩, .defd⟩ : DItv)]))),
    .call ((Cmd.run (.opD [(⟨⟨(f (-2) (0)), (f 1 0)⟩, .com⟩ : DItv), (⟨⟨.nzero, (f 0 0)⟩, .dac⟩ : DItv)]))),
    .call ((Cmd.run (.opD [(⟨⟨(f (-2) (0)), (f 1 0)⟩, .trv⟩ : DItv), (⟨⟨(f 0 0), .nzero⟩, .trv⟩ : DItv)]))),
    .call ((Cmd.run (.opD [(⟨⟨(f (-2) (0)), (f 1 0)⟩, .com⟩ : DItv), (⟨⟨.nzero, .nzero⟩, .com⟩ : DItv)]))),
    .call ((Cmd.run (.opD [(⟨⟨(f (-2) (0)), (f 1 0)⟩, .dac⟩ : DItv), (⟨⟨(f (-2) (0)), (f (-3602879701896397) (-55))⟩, .dac⟩ : DItv)]))),
    .call ((Cmd.run (.opD [(⟨⟨(f (-2) (0)), (f 1 0)⟩, .defd⟩ : DItv), (⟨⟨(f (-2) (0)), (f 0 0)⟩, .defd⟩ : DItv)]))),
    .call ((Cmd.run (.opD [(⟨⟨(f (-2) (0)), (f 1 0)⟩, .trv⟩ : DItv), (⟨⟨(f (-2) (0)), .nzero⟩, .trv⟩ : DItv)]))),
    .call ((Cmd.run (.opD [(⟨⟨(f (-2) (0)), (f 1 0)⟩, .dac⟩ : DItv), (⟨⟨(f (-2) (0)), (f 1 0)⟩, .com⟩ : DItv)]))),
    .call ((Cmd.run (.opD [(⟨⟨(f (-2) (0)), (f 1 0)⟩, .com⟩ : DItv), (⟨⟨(f 0 0), (f 1 0)⟩, .dac⟩ : DItv)]))),
    .call ((Cmd.run (.opD [(⟨⟨(f (-2) (0)), (f 1 0)⟩, .trv⟩ : DItv), (⟨⟨.nzero, (f 1 0)⟩, .dac⟩ : DItv)]))),
    .call ((Cmd.run (.opD [(⟨⟨(f (-2) (0)), (f 1 0)⟩, .com⟩ : DItv), (⟨⟨(f (3602879701896397) (-55)), (f 1 0)⟩, .com⟩ : DItv)]))),
    .call (do (Cmd.run (.opD [(⟨⟨.nzero, (f 1 0)⟩, .com⟩ : DItv), (DItv.empty : DItv)])); (Cmd.run (.opD [(DItv.empty : DItv)]))),
    .call ((Cmd.run (.opD [(⟨⟨.nzero, (f 1 0)⟩, .dac⟩ : DItv), (DItv.entire : DItv)]))),
    .call ((Cmd.run (.opD [(⟨⟨.nzero, (f 1 0)⟩, .defd⟩ : DItv), (⟨⟨(f 0 0), (f 0 0)⟩, .defd⟩ : DItv)]))),
    .call ((Cmd.run (.opD [(⟨⟨.nzero, (f 1 0)⟩, .trv⟩ : DItv), (⟨⟨.nzero, (f 0 0)⟩, .trv⟩ : DItv)]))),
    .call ((Cmd.run (.opD [(⟨⟨.nzero, (f 1 0)⟩, .dac⟩ : DItv), (⟨⟨(f 0 0), .nzero⟩, .dac⟩ : DItv)]))),
    .call ((Cmd.run (.opD [(⟨⟨.nzero, (f 1 0)⟩, .com⟩ : DItv), (⟨⟨.nzero, .nzero⟩, .defd⟩ : DItv)]))),
    .call ((Cmd.run (.opD [(⟨⟨.nzero, (f 1 0)⟩, .com⟩ : DItv), (⟨⟨(f (-2) (0)), (f (-3602879701896397) (-55))⟩, .com⟩ : DItv)]))),
    .call ((Cmd.run (.opD [(⟨⟨.nzero, (f 1 0)⟩, .defd⟩ : DItv), (⟨⟨(f (-2) (0)), (f 0 0)⟩, .com⟩ : DItv)]))),
    .call ((Cmd.run (.opD [(⟨⟨.nzero, (f 1 0)⟩, .defd⟩ : DItv), (⟨⟨(f (-2) (0)), .nzero⟩, .defd⟩ : DItv)]))),
    .call ((Cmd.run (.opD [(⟨⟨.nzero, (f 1 0)⟩, .dac⟩ : DItv), (⟨⟨(f (-2) (0)), (f 1 0)⟩, .dac⟩ : DItv)]))),
    .call ((Cmd.run (.opD [(⟨⟨.nzero, (f 1 0)⟩, .dac⟩ : DItv), (⟨⟨(f 0 0), (f 1 0)⟩, .dac⟩ : DItv)]))),
    .call ((Cmd.run (.opD [(⟨⟨.nzero, (f 1 0)⟩, .trv⟩ : DItv), (⟨⟨.nzero, (f 1 0)⟩, .com⟩ : DItv)]))),
    .call ((Cmd.run (.opD [(⟨⟨.nzero, (f 1 0)⟩, .trv⟩ : DItv), (⟨⟨(f (3602879701896397) (-55)), (f 1 0)⟩, .com⟩ : DItv)]))),
    .call (do (Cmd.run (.opD [(⟨⟨(f 0 0), (f 1 0)⟩, .defd⟩ : DItv), (DItv.empty : DItv)])); (Cmd.run (.opD [(DItv.empty : DItv)]))),
    .call ((Cmd.run (.opD [(⟨⟨(f 0 0), (f 1 0)⟩, .dac⟩ : DItv), (DItv.entire : DItv)]))),
    .call ((Cmd.run (.opD [(⟨⟨(f 0 0), (f 1 0)⟩, .dac⟩ : DItv), (⟨⟨(f 0 0), (f 0 0)⟩, .defd⟩ : DItv)]))),
    .call ((Cmd.run (.opD [(⟨⟨(f 0 0), (f 1 0)⟩, .trv⟩ : DItv), (⟨⟨.nzero, (f 0 0)⟩, .trv⟩ : DItv)]))),
    .call ((Cmd.run (.opD [(⟨⟨(f 0 0), (f 1 0)⟩, .trv⟩ : DItv), (⟨⟨(f 0 0), .nzero⟩, .dac⟩ : DItv)]))),
    .call ((Cmd.run (.opD [(⟨⟨(f 0 0), (f 1 0)⟩, .defd⟩ : DItv), (⟨⟨.nzero, .nzero⟩, .com⟩ : DItv)]))),
    .call ((Cmd.run (.opD [(⟨⟨(f 0 0), (f 1 0)⟩, .dac⟩ : DItv), (⟨⟨(f (-2) (0)), (f (-3602879701896397) (-55))⟩, .dac⟩ : DItv)]))),
    .call ((Cmd.run (.opD [(⟨⟨(f 0 0), (f 1 0)⟩, .defd⟩ : DItv), (⟨⟨(f (-2) (0)), (f 0 0)⟩, .trv⟩ : DItv)]))),
    .call ((Cmd.run (.opD [(⟨⟨(f 0 0), (f 1 0)⟩, .dac⟩ : DItv), (⟨⟨(f (-2) (0)), .nzero⟩, .dac⟩ : DItv)]))),
    .call ((Cmd.run (.opD [(⟨⟨(f 0 0), (f 1 0)⟩, .dac⟩ : DItv), (⟨⟨(f (-2) (0)), (f 1 0)⟩, .defd⟩ : DItv)]))),
    .call ((Cmd.run (.opD [(⟨⟨(f 0 0), (f 1 0)⟩, .dac⟩ : DItv), (⟨⟨(f 0 0), (f 1 0)⟩, .trv⟩ : DItv)]))),
    .call ((Cmd.run (.opD [(⟨⟨(f 0 0), (f 1 0)⟩, .dac⟩ : DItv), (⟨⟨.nzero, (f 1 0)⟩, .defd⟩ : DItv)]))),
    .call ((Cmd.run (.opD [(⟨⟨(f 0 0), (f 1 0)⟩, .com⟩ : DItv), (⟨⟨(f (3602879701896397) (-55)), (f 1 0)⟩, .com⟩ : DItv)]))),
    .call (do (Cmd.run (.opD [(⟨⟨(f (3602879701896397) (-55)), (f 1 0)⟩, .dac⟩ : DItv), (DItv.empty : DItv)])); (Cmd.run (.opD [(DItv.empty : DItv)]))),
    .call ((Cmd.run (.opD [(⟨⟨(f (3602879701896397) (-55)), (f 1 0)⟩, .dac⟩ : DItv), (DItv.entire : DItv)]))),
    .call ((Cmd.run (.opD [(⟨⟨(f (3602879701896397) (-55)), (f 1 0)⟩, .defd⟩ : DItv), (⟨⟨(f 0 0), (f 0 0)⟩, .com⟩ : DItv)]))),
    .call ((Cmd.run (.opD [(⟨⟨(f (3602879701896397) (-55)), (f 1 0)⟩, .trv⟩ : DItv), (⟨⟨.nzero, (f 0 0)⟩, .defd⟩ : DItv)]))),
    .call ((Cmd.run (.opD [(⟨⟨(f (3602879701896397) (-55)), (f 1 0)⟩, .trv⟩ : DItv), (⟨⟨(f 0 0), .nzero⟩, .defd⟩ : DItv)]))),
    .call ((Cmd.run (.opD [(⟨⟨(f (3602879701896397) (-55)), (f 1 0)⟩, .dac⟩ : DItv), (⟨⟨.nzero, .nzero⟩, .defd⟩ : DItv)]))),
    .call ((Cmd.run (.opD [(⟨⟨(f (3602879701896397) (-55)), (f 1 0)⟩, .com⟩ : DItv), (⟨⟨(f (-2) (0)), (f (-3602879701896397) (-55))⟩, .trv⟩ : DItv)]))),
    .call ((Cmd.run (.opD [(⟨⟨(f (3602879701896397) (-55)), (f 1 0)⟩, .com⟩ : DItv), (⟨⟨(f (-2) (0)), (f 0 0)⟩, .dac⟩ : DItv)]))),
    .call ((Cmd.run (.opD [(⟨⟨(f (3602879701896397) (-55)), (f 1 0)⟩, .com⟩ : DItv), (⟨⟨(f (-2) (0)), .nzero⟩, .dac⟩ : DItv)]))),
    .call ((Cmd.run (.opD [(⟨⟨(f (3602879701896397) (-55)), (f 1 0)⟩, .defd⟩ : DItv), (⟨⟨(f (-2) (0)), (f 1 0)⟩, .dac⟩ : DItv)]))),
    .call ((Cmd.run (.opD [(⟨⟨(f (3602879701896397) (-55)), (f 1 0)⟩, .defd⟩ : DItv), (⟨⟨(f 0 0), (f 1 0)⟩, .defd⟩ : DItv)]))),
    .call ((Cmd.run (.opD [(⟨⟨(f (3602879701896397) (-55)), (f 1 0)⟩, .dac⟩ : DItv), (⟨⟨.nzero, (f 1 0)⟩, .defd⟩ : DItv)]))),
    .call ((Cmd.run (.opD [(⟨⟨(f (3602879701896397) (-55)), (f 1 0)⟩, .dac⟩ : DItv), (⟨⟨(f (3602879701896397) (-55)), (f 1 0)⟩, .defd⟩ : DItv)]))),
    .state 5831 [],
    .call clearFlags,
    .call (do (Cmd.run (.opD [(⟨⟨(f (3602879701896397) (-55)), (f (-1) (0))⟩, .com⟩ : DItv), (⟨⟨(f (-2) (0)), (f 1 0)⟩, .com⟩ : DItv)])); (Cmd.run (.opD [(DItv.empty : DItv)]))),
    .state 5835 [.invalidOperand],
    .call clearFlags,
    .call (setCwd (bitsOf [.invalidOperand])),
    .throws 5838 ((Cmd.run (.opD [(⟨⟨(f (3602879701896397) (-55)), (f 1 0)⟩, .ill⟩ : DItv), (⟨⟨(f 0 0), (f 1 0)⟩, .com⟩ : DItv)]))) .invalidOperand,
    .state 5839 [.invalidOperand],
    .call clearFlags,
    .call (setCwd (bitsOf []))] ExSt.init = [] := by
  decide +kernel

/-- `minimal_atan2_dec_mixedtype_test` -/
example : failed [
    .call ((Cmd.run (.opD [(DItv.entire : DItv), (⟨⟨.nzero, .nzero⟩, .trv⟩ : DItv)]))),
    .call ((Cmd.run (.opD [(DItv.entire : DItv), (⟨⟨(f (-2) (0)), (f (-3602879701896397) (-55))⟩, .com⟩ : DItv)]))),
    .call ((Cmd.run (.opD [(DItv.entire : DItv), (⟨⟨(f (-2) (0)), (f 0 0)⟩, .dac⟩ : DItv)]))),
    .call ((Cmd.run (.opD [(⟨⟨(f 0 0), (f 0 0)⟩, .com⟩ : DItv), (⟨⟨(f (-2) (0)), (f (-3602879701896397) (-55))⟩, .com⟩ : DItv)]))),
    .call ((Cmd.run (.opD [(⟨⟨(f 0 0), (f 0 0)⟩, .trv⟩ : DItv), (⟨⟨(f (-2) (0)), (f 0 0)⟩, .com⟩ : DItv)]))),
    .call ((Cmd.run (.opD [(⟨⟨(f 0 0), (f 0 0)⟩, .com⟩ : DItv), (⟨⟨(f (-2) (0)), .nzero⟩, .trv⟩ : DItv)]))),
    .call ((Cmd.run (.opD [(⟨⟨.nzero, (f 0 0)⟩, .dac⟩ : DItv), (⟨⟨(f (-2) (0)), (f (-13421773) (-27))⟩, .dac⟩ : DItv)]))),
    .call ((Cmd.run (.opD [(⟨⟨.nzero, (f 0 0)⟩, .trv⟩ : DItv), (⟨⟨(f (-2) (0)), (f 0 0)⟩, .com⟩ : DItv)]))),
    .call ((Cmd.run (.opD [(⟨⟨(f 0 0), .nzero⟩, .com⟩ : DItv), (⟨⟨(f (-2) (0)), (f (-13421773) (-27))⟩, .dac⟩ : DItv)]))),
    .call ((Cmd.run (.opD [(⟨⟨(f 0 0), .nzero⟩, .defd⟩ : DItv), (⟨⟨(f (-2) (0)), (f 0 0)⟩, .com⟩ : DItv)]))),
    .call ((Cmd.run (.opD [(⟨⟨.nzero, .nzero⟩, .defd⟩ : DItv), (⟨⟨(f (-2) (0)), (f (-3602879701896397) (-55))⟩, .dac⟩ : DItv)]))),
    .call ((Cmd.run (.opD [(⟨⟨.nzero, .nzero⟩, .trv⟩ : DItv), (⟨⟨(f (-2) (0)), (f 0 0)⟩, .defd⟩ : DItv)]))),
    .call ((Cmd.run (.opD [(⟨⟨(f (-2) (0)), (f (-3602879701896397) (-55))⟩, .defd⟩ : DItv), (⟨⟨(f (-2) (0)), (f (-13421773) (-27))⟩, .com⟩ : DItv)]))),
    .call ((Cmd.run (.opD [(⟨⟨(f (-2) (0)), (f (-3602879701896397) (-55))⟩, .com⟩ : DItv), (⟨⟨(f (-2) (0)), (f 0 0)⟩, .defd⟩ : DItv)]))),
    .call ((Cmd.run (.opD [(⟨⟨(f (-2) (0)), (f (-3602879701896397) (-55))⟩, .trv⟩ : DItv), (⟨⟨(f (-2) (0)), .nzero⟩, .dac⟩ : DItv)]))),
    .call ((Cmd.run (.opD [(⟨⟨(f (-2) (0)), (f 0 0)⟩, .defd⟩ : DItv), (⟨⟨.nzero, .nzero⟩, .defd⟩ : DItv)]))),
    .call ((Cmd.run (.opD [(⟨⟨(f (-2) (0)), (f 0 0)⟩, .com⟩ : DItv), (⟨⟨(f (-2) (0)), (f (-3602879701896397) (-55))⟩, .dac⟩ : DItv)]))),
    .call ((Cmd.run (.opD [(⟨⟨(f (-2) (0)), (f 0 0)⟩, .dac⟩ : DItv), (⟨⟨(f (-2) (0)), (f 0 0)⟩, .com⟩ : DItv)]))),
    .call ((Cmd.run (.opD [(⟨⟨(f (-2) (0)), .nzero⟩, .defd⟩ : DItv), (⟨⟨(f (-2) (0)), (f (-13421773) (-27))⟩, .com⟩ : DItv)]))),
    .call ((Cmd.run (.opD [(⟨⟨(f (-2) (0)), .nzero⟩, .com⟩ : DItv), (⟨⟨(f (-2) (0)), (f 0 0)⟩, .dac⟩ : DItv)]))),
    .call ((Cmd.run (.opD [(⟨⟨(f (-2) (0)), .nzero⟩, .dac⟩ : DItv), (⟨⟨(f (-2) (0)), .nzero⟩, .defd⟩ : DItv)]))),
    .call ((Cmd.run (.opD [(⟨⟨(f (-2) (0)), .nzero⟩, .defd⟩ : DItv), (⟨⟨(f (-2) (0)), (f 1 0)⟩, .trv⟩ : DItv)]))),
    .call ((Cmd.run (.opD [(⟨⟨(f (-2) (0)), (f 1 0)⟩, .defd⟩ : DItv), (⟨⟨(f (-2) (0)), (f 0 0)⟩, .defd⟩ : DItv)]))),
    .call ((Cmd.run (.opD [(⟨⟨(f (-2) (0)), (f 1 0)⟩, .trv⟩ : DItv), (⟨⟨(f (-2) (0)), .nzero⟩, .trv⟩ : DItv)]))),
    .call ((Cmd.run (.opD [(⟨⟨(f (-2) (0)), (f 1 0)⟩, .dac⟩ : DItv), (⟨⟨(f (-2) (0)), (f 1 0)⟩, .com⟩ : DItv)]))),
    .call ((Cmd.run (.opD [(⟨⟨.nzero, (f 1 0)⟩, .com⟩ : DItv), (⟨⟨.nzero, .nzero⟩, .defd⟩ : DItv)]))),
    .call ((Cmd.run (.opD [(⟨⟨.nzero, (f 1 0)⟩, .com⟩ : DItv), (⟨⟨(f (-2) (0)), (f (-13421773) (-27))⟩, .com⟩ : DItv)]))),
    .call ((Cmd.run (.opD [(⟨⟨.nzero, (f 1 0)⟩, .defd⟩ : DItv), (⟨⟨(f (-2) (0)), (f 0 0)⟩, .com⟩ : DItv)]))),
    .call ((Cmd.run (.opD [(⟨⟨.nzero, (f 1 0)⟩, .defd⟩ : DItv), (⟨⟨(f (-2) (0)), .nzero⟩, .defd⟩ : DItv)]))),
    .call ((Cmd.run (.opD [(⟨⟨(f 0 0), (f 1 0)⟩, .defd⟩ : DItv), (⟨⟨.nzero, .nzero⟩, .com⟩ : DItv)]))),
    .call ((Cmd.run (.opD [(⟨⟨(f 0 0), (f 1 0)⟩, .dac⟩ : DItv), (⟨⟨(f (-2) (0)), (f (-3602879701896397) (-55))⟩, .dac⟩ : DItv)]))),
    .call ((Cmd.run (.opD [(⟨⟨(f 0 0), (f 1 0)⟩, .defd⟩ : DItv), (⟨⟨(f (-2) (0)), (f 0 0)⟩, .trv⟩ : DItv)]))),
    .call ((Cmd.run (.opD [(⟨⟨(f 0 0), (f 1 0)⟩, .dac⟩ : DItv), (⟨⟨(f (-2) (0)), .nzero⟩, .dac⟩ : DItv)]))),
    .call ((Cmd.run (.opD [(⟨⟨(f (13421773) (-27)), (f 1 0)⟩, .com⟩ : DItv), (⟨⟨(f (-2) (0)), (f (-3602879701896397) (-55))⟩, .trv⟩ : DItv)]))),
    .call ((Cmd.run (.opD [(⟨⟨(f (3602879701896397) (-55)), (f 1 0)⟩, .com⟩ : DItv), (⟨⟨(f (-2) (0)), (f 0 0)⟩, .dac⟩ : DItv)]))),
    .call ((Cmd.run (.opD [(⟨⟨(f (3602879701896397) (-55)), (f 1 0)⟩, .com⟩ : DItv), (⟨⟨(f (-2) (0)), .nzero⟩, .dac⟩ : DItv)]))),
    .call ((Cmd.run (.opD [(⟨⟨(f (3602879701896397) (-55)), (f 1 0)⟩, .defd⟩ : DItv), (⟨⟨(f (-2) (0)), (f 1 0)⟩, .dac⟩ : DItv)]))),
    .state 5896 [],
    .call clearFlags,
    .call (do (Cmd.run (.opD [(⟨⟨(f (3602879701896397) (-55)), (f (-1) (0))⟩, .com⟩ : DItv), (⟨⟨(f (-2) (0)), (f 1 0)⟩, .com⟩ : DItv)])); (Cmd.run (.opD [(DItv.empty : DItv)]))),
    .state 5900 [.invalidOperand],
    .call clearFlags,
    .call (setCwd (bitsOf [.invalidOperand])),
    .throws 5903 ((Cmd.run (.opD [(⟨⟨(f (13421773) (-27)), (f 1 0)⟩, .ill⟩ : DItv), (⟨⟨(f 0 0), (f 1 0)⟩, .com⟩ : DItv)]))) .invalidOperand,
    .state 5904 [.invalidOperand],
    .call clearFlags,
    .call (setCwd (bitsOf []))] ExSt.init = [] := by
  decide +kernel

/-- `minimal_sinh_test` -/
example : failed [
    .call (do (Cmd.run (.op [(Itv.empty : Itv)])); (Cmd.run (.op [(Itv.empty : Itv)]))),
    .call ((Cmd.run (.op [(⟨(f 0 0), .pinf⟩ : Itv)]))),
    .call ((Cmd.run (.op [(⟨.nzero, .pinf⟩ : Itv)]))),
    .call ((Cmd.run (.op [(⟨.ninf, (f 0 0)⟩ : Itv)]))),
    .call ((Cmd.run (.op [(⟨.ninf, .nzero⟩ : Itv)]))),
    .call ((Cmd.run (.op [(Itv.entire : Itv)]))),
    .call ((Cmd.run (.op [(⟨(f 0 0), (f 0 0)⟩ : Itv)]))),
    .call ((Cmd.run (.op [(⟨.nzero, .nzero⟩ : Itv)]))),
    .call ((Cmd.run (.op [(⟨(f 1 0), (f (2643782169717717) (-43))⟩ : Itv)]))),
    .call ((Cmd.run (.op [(⟨(f (-8956730319743681) (-14)), (f (-4977612039712877) (-43))⟩ : Itv)]))),
    .call ((Cmd.run (.op [(⟨(f (-2476979795053773) (-51)), (f (2589569785738035) (-50))⟩ : Itv)]))),
    .state 5925 [],
    .call clearFlags,
    .call (do (Cmd.run (.op [(⟨(f 1 0), (f (-9007199254740991) (971))⟩ : Itv)])); (Cmd.run (.op [(Itv.empty : Itv)]))),
    .state 5929 [.invalidOperand],
    .call clearFlags,
    .call (setCwd (bitsOf [.invalidOperand])),
    .throws 5932 ((Cmd.run (.op [(⟨(f 1 0), (f (-3) (0))⟩ : Itv)]))) .invalidOperand,
    .state 5933 [.invalidOperand],
    .call clearFlags,
    .call (setCwd (bitsOf []))] ExSt.init = [] := by
  decide +kernel

/-- `minimal_sinh_mixedtype_test` -/
example : failed [
    .call ((Cmd.run (.op [(⟨(f (-16683211) (15)), (f (-2317881) (-12))⟩ : Itv)]))),
    .call ((Cmd.run (.op [(⟨(f (-2476979795053773) (-51)), (f (2589569785738035) (-50))⟩ : Itv)]))),
    .state 5943 [],
    .call clearFlags,
    .call (do (Cmd.run (.op [(⟨(f 1 0), (f (-9007199254740991) (971))⟩ : Itv)])); (Cmd.run (.op [(Itv.empty : Itv)]))),
    .state 5947 [.invalidOperand],
    .call clearFlags,
    .call (setCwd (bitsOf [.invalidOperand])),
    .throws 5950 ((Cmd.run (.op [(⟨(f 1 0), (f (-3) (0))⟩ : Itv)]))) .invalidOperand,
    .state 5951 [.invalidOperand],
    .call clearFlags,
    .call (setCwd (bitsOf []))] ExSt.init = [] := by
  decide +kernel

/-- `minimal_sinh_dec_test` -/
example : failed [
    .call ((Cmd.run (.opD [(DItv.entire : DItv)]))),
    .call ((Cmd.run (.opD [(⟨⟨(f 0 0), .pinf⟩, .dac⟩ : DItv)]))),
    .call ((Cmd.run (.opD [(⟨⟨.ninf, (f 0 0)⟩, .defd⟩ : DItv)]))),
    .call ((Cmd.run (.opD [(⟨⟨(f 1 0), (f (2643782169717717) (-43))⟩, .com⟩ : DItv)]))),
    .call ((Cmd.run (.opD [(⟨⟨(f (-8956730319743681) (-14)), (f (-4977612039712877) (-43))⟩, .com⟩ : DItv)]))),
    .state 5964 [],
    .call clearFlags,
    .call (do (Cmd.run (.opD [(⟨⟨(f 1 0), (f (-9007199254740991) (971))⟩, .trv⟩ : DItv)])); (Cmd.run (.opD [(DItv.empty : DItv)]))),
    .state 5968 [.invalidOperand],
    .call clearFlags,
    .call (setCwd (bitsOf [.invalidOperand])),
    .throws 5971 ((Cmd.run (.opD [(⟨⟨(f 1 0), (f (-3) (0))⟩, .trv⟩ : DItv)]))) .invalidOperand,
    .state 5972 [.invalidOperand],
    .call clearFlags,
    .call (setCwd (bitsOf []))] ExSt.init = [] := by
  decide +kernel

/-- `minimal_sinh_dec_mixedtype_test` -/
example : failed [
    .call ((Cmd.run (.opD [(⟨⟨(f (-16683211) (15)), (f (-2317881) (-12))⟩, .com⟩ : DItv)]))),
    .call ((Cmd.run (.opD [(⟨⟨(f (-2476979795053773) (-51)), (f (2589569785738035) (-50))⟩, .trv⟩ : DItv)]))),
    .state 5982 [],
    .call clearFlags,
    .call (do (Cmd.run (.opD [(⟨⟨(f 1 0), (f (-9007199254740991) (971))⟩, .trv⟩ : DItv)])); (Cmd.run (.opD [(DItv.empty : DItv)]))),
    .state 5986 [.invalidOperand],
    .call clearFlags,
    .call (setCwd (bitsOf [.invalidOperand])),
    .throws 5989 ((Cmd.run (.opD [(⟨⟨(f 1 0), (f (-3) (0))⟩, .trv⟩ : DItv)]))) .invalidOperand,
    .state 5990 [.invalidOperand],
    .call clearFlags,
    .call (setCwd (bitsOf []))] ExSt.init = [] := by
  decide +kernel

/-- `minimal_cosh_test` -/
example : failed [
    .call (do (Cmd.run (.op [(Itv.empty : Itv)])); (Cmd.run (.op [(Itv.empty : Itv)]))),
    .call ((Cmd.run (.op [(⟨(f 0 0), .pinf⟩ : Itv)]))),
    .call ((Cmd.run (.op [(⟨.nzero, .pinf⟩ : Itv)]))),
    .call ((Cmd.run (.op [(⟨.ninf, (f 0 0)⟩ : Itv)]))),
    .call ((Cmd.run (.op [(⟨.ninf, .nzero⟩ : Itv)]))),
    .call ((Cmd.run (.op [(Itv.entire : Itv)]))),
    .call ((Cmd.run (.op [(⟨(f 0 0), (f 0 0)⟩ : Itv)]))),
    .call ((Cmd.run (.op [(⟨.nzero, .nzero⟩ : Itv)]))),
    .call ((Cmd.run (.op [(⟨(f 1 0), (f (2643782169717717) (-43))⟩ : Itv)]))),
    .call ((Cmd.run (.op [(⟨(f (-8956730319743681) (-14)), (f (-4977612039712877) (-43))⟩ : Itv)]))),
    .call ((Cmd.run (.op [(⟨(f (-2476979795053773) (-51)), (f (2589569785738035) (-50))⟩ : Itv)]))),
    .call clearFlags,
    .call (do (Cmd.run (.op [(⟨(f 1 0), (f (-9007199254740991) (971))⟩ : Itv)])); (Cmd.run (.op [(Itv.empty : Itv)]))),
    .state 6016 [.invalidOperand],
    .call clearFlags,
    .call (setCwd (bitsOf [.invalidOperand])),
    .throws 6019 ((Cmd.run (.op [(⟨(f 1 0), (f (-3) (0))⟩ : Itv)]))) .invalidOperand,
    .state 6020 [.invalidOperand],
    .call clearFlags,
    .call (setCwd (bitsOf []))] ExSt.init = [] := by
  decide +kernel

/-- `minimal_cosh_mixedtype_test` -/
example : failed [
    .call ((Cmd.run (.op [(⟨(f (-16683211) (15)), (f (-2317881) (-12))⟩ : Itv)]))),
    .call ((Cmd.run (.op [(⟨(f (-2476979795053773) (-51)), (f (2589569785738035) (-50))⟩ : Itv)]))),
    .state 6030 [],
    .call clearFlags,
    .call (do (Cmd.run (.op [(⟨(f 1 0), (f (-9007199254740991) (971))⟩ : Itv)])); (Cmd.run (.op [(Itv.empty : Itv)]))),
    .state 6034 [.invalidOperand],
    .call clearFlags,
    .call (setCwd (bitsOf [.invalidOperand])),
    .throws 6037 ((Cmd.run (.op [(⟨(f 1 0), (f (-3) (0))⟩ : Itv)]))) .invalidOperand,
    .state 6038 [.invalidOperand],
    .call clearFlags,
    .call (setCwd (bitsOf []))] ExSt.init = [] := by
  decide +kernel

/-- `minimal_cosh_dec_test` -/
example : failed [
    .call ((Cmd.run (.opD [(⟨⟨(f 0 0), .pinf⟩, .dac⟩ : DItv)]))),
    .call ((Cmd.run (.opD [(⟨⟨.ninf, (f 0 0)⟩, .defd⟩ : DItv)]))),
    .call ((Cmd.run (.opD [(DItv.entire : DItv)]))),
    .call ((Cmd.run (.opD [(⟨⟨(f 1 0), (f (2643782169717717) (-43))⟩, .defd⟩ : DItv)]))),
    .call ((Cmd.run (.opD [(⟨⟨(f (-8956730319743681) (-14)), (f (-4977612039712877) (-43))⟩, .com⟩ : DItv)]))),
    .state 6053 [],
    .call clearFlags,
    .call (do (Cmd.run (.opD [(⟨⟨(f 1 0), (f (-9007199254740991) (971))⟩, .trv⟩ : DItv)])); (Cmd.run (.opD [(DItv.empty : DItv)]))),
    .state 6057 [.invalidOperand],
    .call clearFlags,
    .call (setCwd (bitsOf [.invalidOperand])),
    .throws 6060 ((Cmd.run (.opD [(⟨⟨(f 1 0), (f (-3) (0))⟩, .trv⟩ : DItv)]))) .invalidOperand,
    .state 6061 [.invalidOperand],
    .call clearFlags,
    .call (setCwd (bitsOf []))] ExSt.init = [] := by
  decide +kernel

/-- `minimal_cosh_dec_mixedtype_test` -/
example : failed [
    .call ((Cmd.run (.opD [(⟨⟨(f (-16683211) (15)), (f (-2317881) (-12))⟩, .defd⟩ : DItv)]))),
    .call ((Cmd.run (.opD [(⟨⟨(f (-2476979795053773) (-51)), (f (2589569785738035) (-50))⟩, .com⟩ : DItv)]))),
    .state 6071 [],
    .call clearFlags,
    .call (do (Cmd.run (.opD [(⟨⟨(f 1 0), (f (-9007199254740991) (971))⟩, .trv⟩ : DItv)])); (Cmd.run (.opD [(DItv.empty : DItv)]))),
    .state 6075 [.invalidOperand],
    .call clearFlags,
    .call (setCwd (bitsOf [.invalidOperand])),
    .throws 6078 ((Cmd.run (.opD [(⟨⟨(f 1 0), (f (-3) (0))⟩, .trv⟩ : DItv)]))) .invalidOperand,
    .state 6079 [.invalidOperand],
    .call clearFlags,
    .call (setCwd (bitsOf []))] ExSt.init = [] := by
  decide +kernel

/-- `minimal_tanh_test` -/
example : failed [
    .call (do (Cmd.run (.op [(Itv.empty : Itv)])); (Cmd.run (.op [(Itv.empty : Itv)]))),
    .call ((Cmd.run (.op [(⟨(f 0 0), .pinf⟩ : Itv)]))),
    .call ((Cmd.run (.op [(⟨.nzero, .pinf⟩ : Itv)]))),
    .call ((Cmd.run (.op [(⟨.ninf, (f 0 0)⟩ : Itv)]))),
    .call ((Cmd.run (.op [(⟨.ninf, .nzero⟩ : Itv)]))),
    .call ((Cmd.run (.op [(Itv.entire : Itv)]))),
    .call ((Cmd.run (.op [(⟨(f 0 0), (f 0 0)⟩ : Itv)]))),
    .call ((Cmd.run (.op [(⟨.nzero, .nzero⟩ : Itv)]))),
    .call ((Cmd.run (.op [(⟨(f 1 0), (f (2643782169717717) (-43))⟩ : Itv)]))),
    .call ((Cmd.run (.op [(⟨(f (-8956730319743681) (-14)), (f (-4977612039712877) (-43))⟩ : Itv)]))),
    .call ((Cmd.run (.op [(⟨(f (-2476979795053773) (-51)), (f (2589569785738035) (-50))⟩ : Itv)]))),
    .call clearFlags,
    .call (do (Cmd.run (.op [(⟨(f 1 0), (f (-9007199254740991) (971))⟩ : Itv)])); (Cmd.run (.op [(Itv.empty : Itv)]))),
    .state 6104 [.invalidOperand],
    .call clearFlags,
    .call (setCwd (bitsOf [.invalidOperand])),
    .throws 6107 ((Cmd.run (.op [(⟨(f 1 0), (f (-3) (0))⟩ : Itv)]))) .invalidOperand,
    .state 6108 [.invalidOperand],
    .call clearFlags,
    .call (setCwd (bitsOf []))] ExSt.init = [] := by
  decide +kernel

/-- `minimal_tanh_mixedtype_test` -/
example : failed [
    .call ((Cmd.run (.op [(⟨(f (-16683211) (15)), (f (-2317881) (-12))⟩ : Itv)]))),
    .call ((Cmd.run (.op [(⟨(f (-2476979795053773) (-51)), (f (2589569785738035) (-50))⟩ : Itv)]))),
    .state 6118 [],
    .call clearFlags,
    .call (do (Cmd.run (.op [(⟨(f 1 0), (f (-9007199254740991) (971))⟩ : Itv)])); (Cmd.run (.op [(Itv.empty : Itv)]))),
    .state 6122 [.invalidOperand],
    .call clearFlags,
    .call (setCwd (bitsOf [.invalidOperand])),
    .throws 6125 ((Cmd.run (.op [(⟨(f 1 0), (f (-3) (0))⟩ : Itv)]))) .invalidOperand,
    .state 6126 [.invalidOperand],
    .call clearFlags,
    .call (setCwd (bitsOf []))] ExSt.init = [] := by
  decide +kernel

/-- `minimal_tanh_dec_test` -/
example : failed [
    .call ((Cmd.run (.opD [(⟨⟨(f 0 0), .pinf⟩, .dac⟩ : DItv)]))),
    .call ((Cmd.run (.opD [(⟨⟨.ninf, (f 0 0)⟩, .defd⟩ : DItv)]))),
    .call ((Cmd.run (.opD [(DItv.entire : DItv)]))),
    .call ((Cmd.run (.opD [(⟨⟨(f 1 0), (f (2643782169717717) (-43))⟩, .com⟩ : DItv)]))),
    .call ((Cmd.run (.opD [(⟨⟨(f (-8956730319743681) (-14)), (f (-4977612039712877) (-43))⟩, .trv⟩ : DItv)]))),
    .state 6140 [],
    .call clearFlags,
    .call (do (Cmd.run (.opD [(⟨⟨(f 1 0), (f (-9007199254740991) (971))⟩, .trv⟩ : DItv)])); (Cmd.run (.opD [(DItv.empty : DItv)]))),
    .state 6144 [.invalidOperand],
    .call clearFlags,
    .call (setCwd (bitsOf [.invalidOperand])),
    .throws 6147 ((Cmd.run (.opD [(⟨⟨(f 1 0), (f (-3) (0))⟩, .trv⟩ : DItv)]))) .invalidOperand,
    .state 6148 [.invalidOperand],
    .call clearFlags,
    .call (setCwd (bitsOf []))] ExSt.init = [] := by
  decide +kernel

/-- `minimal_tanh_dec_mixedtype_test` -/
example : failed [
    .call ((Cmd.run (.opD [(⟨⟨(f (-16683211) (15)), (f (-2317881) (-12))⟩, .com⟩ : DItv)]))),
    .call ((Cmd.run (.opD [(⟨⟨(f (-2476979795053773) (-51)), (f (2589569785738035) (-50))⟩, .dac⟩ : DItv)]))),
    .state 6159 [],
    .call clearFlags,
    .call (do (Cmd.run (.opD [(⟨⟨(f 1 0), (f (-9007199254740991) (971))⟩, .trv⟩ : DItv)])); (Cmd.run (.opD [(DItv.empty : DItv)]))),
    .state 6163 [.invalidOperand],
    .call clearFlags,
    .call (setCwd (bitsOf [.invalidOperand])),
    .throws 6166 ((Cmd.run (.opD [(⟨⟨(f 1 0), (f (-3) (0))⟩, .trv⟩ : DItv)]))) .invalidOperand,
    .state 6167 [.invalidOperand],
    .call clearFlags,
    .call (setCwd (bitsOf []))] ExSt.init = [] := by
  decide +kernel

/-- `minimal_asinh_test` -/
example : failed [
    .call (do (Cmd.run (.op [(Itv.empty : Itv)])); (Cmd.run (.op [(Itv.empty : Itv)]))),
    .call ((Cmd.run (.op [(⟨(f 0 0), .pinf⟩ : Itv)]))),
    .call ((Cmd.run (.op [(⟨.nzero, .pinf⟩ : Itv)]))),
    .call ((Cmd.run (.op [(⟨.ninf, (f 0 0)⟩ : Itv)]))),
    .call ((Cmd.run (.op [(⟨.ninf, .nzero⟩ : Itv)]))),
    .call ((Cmd.run (.op [(Itv.entire : Itv)]))),
    .call ((Cmd.run (.op [(⟨(f 0 0), (f 0 0)⟩ : Itv)]))),
    .call ((Cmd.run (.op [(⟨.nzero, .nzero⟩ : Itv)]))),
    .call ((Cmd.run (.op [(⟨(f 1 0), (f (2643782169717717) (-43))⟩ : Itv)]))),
    .call ((Cmd.run (.op [(⟨(f (-8956730319743681) (-14)), (f (-4977612039712877) (-43))⟩ : Itv)]))),
    .call ((Cmd.run (.op [(⟨(f (-2476979795053773) (-51)), (f (2589569785738035) (-50))⟩ : Itv)]))),
    .call clearFlags,
    .call (do (Cmd.run (.op [(⟨(f 1 0), (f (-9007199254740991) (971))⟩ : Itv)])); (Cmd.run (.op [(Itv.empty : Itv)]))),
    .state 6190 [.invalidOperand],
    .call clearFlags,
    .call (setCwd (bitsOf [.invalidOperand])),
    .throws 6193 ((Cmd.run (.op [(⟨(f 1 0), (f (-3) (0))⟩ : Itv)]))) .invalidOperand,
    .state 6194 [.invalidOperand],
    .call clearFlags,
    .call (setCwd (bitsOf []))] ExSt.init = [] := by
  decide +kernel

/-- `minimal_asinh_mixedtype_test` -/
example : failed [
    .call ((Cmd.run (.op [(⟨(f (-16683211) (15)), (f (-2317881) (-12))⟩ : Itv)]))),
    .call ((Cmd.run (.op [(⟨(f (-2476979795053773) (-51)), (f (2589569785738035) (-50))⟩ : Itv)]))),
    .state 6205 [],
    .call clearFlags,
    .call (do (Cmd.run (.op [(⟨(f 1 0), (f (-9007199254740991) (971))⟩ : Itv)])); (Cmd.run (.op [(Itv.empty : Itv)]))),
    .state 6209 [.invalidOperand],
    .call clearFlags,
    .call (setCwd (bitsOf [.invalidOperand])),
    .throws 6212 ((Cmd.run (.op [(⟨(f 1 0), (f (-3) (0))⟩ : Itv)]))) .invalidOperand,
    .state 6213 [.invalidOperand],
    .call clearFlags,
    .call (setCwd (bitsOf []))] ExSt.init = [] := by
  decide +kernel

/-- `minimal_asinh_dec_test` -/
example : failed [
    .call ((Cmd.run (.opD [(⟨⟨(f 0 0), .pinf⟩, .dac⟩ : DItv)]))),
    .call ((Cmd.run (.opD [(⟨⟨.ninf, (f 0 0)⟩, .trv⟩ : DItv)]))),
    .call ((Cmd.run (.opD [(DItv.entire : DItv)]))),
    .call ((Cmd.run (.opD [(⟨⟨(f 1 0), (f (2643782169717717) (-43))⟩, .com⟩ : DItv)]))),
    .call ((Cmd.run (.opD [(⟨⟨(f (-8956730319743681) (-14)), (f (-4977612039712877) (-43))⟩, .defd⟩ : DItv)]))),
    .state 6227 [],
    .call clearFlags,
    .call (do (Cmd.run (.opD [(⟨⟨(f 1 0), (f (-9007199254740991) (971))⟩, .trv⟩ : DItv)])); (Cmd.run (.opD [(DItv.empty : DItv)]))),
    .state 6231 [.invalidOperand],
    .call clearFlags,
    .call (setCwd (bitsOf [.invalidOperand])),
    .throws 6234 ((Cmd.run (.opD [(⟨⟨(f 1 0), (f (-3) (0))⟩, .trv⟩ : DItv)]))) .invalidOperand,
    .state 6235 [.invalidOperand],
    .call clearFlags,
    .call (setCwd (bitsOf []))] ExSt.init = [] := by
  decide +kernel

/-- `minimal_asinh_dec_mixedtype_test` -/
example : failed [
    .call ((Cmd.run (.opD [(⟨⟨(f (-16683211) (15)), (f (-2317881) (-12))⟩, .com⟩ : DItv)]))),
    .call ((Cmd.run (.opD [(⟨⟨(f (-2476979795053773) (-51)), (f (2589569785738035) (-50))⟩, .defd⟩ : DItv)]))),
    .state 6246 [],
    .call clearFlags,
    .call (do (Cmd.run (.opD [(⟨⟨(f 1 0), (f (-9007199254740991) (971))⟩, .trv⟩ : DItv)])); (Cmd.run (.opD [(DItv.empty : DItv)]))),
    .state 6250 [.invalidOperand],
    .call clearFlags,
    .call (setCwd (bitsOf [.invalidOperand])),
    .throws 6253 ((Cmd.run (.opD [(⟨⟨(f 1 0), (f (-3) (0))⟩, .trv⟩ : DItv)]))) .invalidOperand,
    .state 6254 [.invalidOperand],
    .call clearFlags,
    .call (setCwd (bitsOf []))] ExSt.init = [] := by
  decide +kernel

/-- `minimal_acosh_test` -/
example : failed [
    .call (do (Cmd.run (.op [(Itv.empty : Itv)])); (Cmd.run (.op [(Itv.empty : Itv)]))),
    .call ((Cmd.run (.op [(⟨(f 0 0), .pinf⟩ : Itv)]))),
    .call ((Cmd.run (.op [(⟨.nzero, .pinf⟩ : Itv)]))),
    .call ((Cmd.run (.op [(⟨(f 1 0), .pinf⟩ : Itv)]))),
    .call ((Cmd.run (.op [(⟨.ninf, (f 1 0)⟩ : Itv)]))),
    .call (do (Cmd.run (.op [(⟨.ninf, (f (9007199254740991) (-53))⟩ : Itv)])); (Cmd.run (.op [(Itv.empty : Itv)]))),
    .call ((Cmd.run (.op [(Itv.entire : Itv)]))),
    .call ((Cmd.run (.op [(⟨(f 1 0), (f 1 0)⟩ : Itv)]))),
    .call ((Cmd.run (.op [(⟨(f 1 0), (f (2643782169717717) (-43))⟩ : Itv)]))),
    .call ((Cmd.run (.op [(⟨(f (2476979795053773) (-51)), (f (2589569785738035) (-50))⟩ : Itv)]))),
    .call ((Cmd.run (.op [(⟨(f (4870074199618159) (-37)), (f (6524220977199029) (-23))⟩ : Itv)]))),
    .call clearFlags,
    .call (do (Cmd.run (.op [(⟨(f 1 0), (f (-9007199254740991) (971))⟩ : Itv)])); (Cmd.run (.op [(Itv.empty : Itv)]))),
    .state 6279 [.invalidOperand],
    .call clearFlags,
    .call (setCwd (bitsOf [.invalidOperand])),
    .throws 6282 ((Cmd.run (.op [(⟨(f 1 0), (f (-3) (0))⟩ : Itv)]))) .invalidOperand,
    .state 6283 [.invalidOperand],
    .call clearFlags,
    .call (setCwd (bitsOf []))] ExSt.init = [] := by
  decide +kernel

/-- `minimal_acosh_mixedtype_test` -/
example : failed [
    .call ((Cmd.run (.op [(⟨(f (2476979795053773) (-51)), (f (2589569785738035) (-50))⟩ : Itv)]))),
    .call ((Cmd.run (.op [(⟨(f (2267805) (-6)), (f 12152309 6)⟩ : Itv)]))),
    .state 6294 [],
    .call clearFlags,
    .call (do (Cmd.run (.op [(⟨(f 1 0), (f (-9007199254740991) (971))⟩ : Itv)])); (Cmd.run (.op [(Itv.empty : Itv)]))),
    .state 6298 [.invalidOperand],
    .call clearFlags,
    .call (setCwd (bitsOf [.invalidOperand])),
    .throws 6301 ((Cmd.run (.op [(⟨(f 1 0), (f (-3) (0))⟩ : Itv)]))) .invalidOperand,
    .state 6302 [.invalidOperand],
    .call clearFlags,
    .call (setCwd (bitsOf []))] ExSt.init = [] := by
  decide +kernel

/-- `minimal_acosh_dec_test` -/
example : failed [
    .call ((Cmd.run (.opD [(⟨⟨(f 0 0), .pinf⟩, .dac⟩ : DItv)]))),
    .call ((Cmd.run (.opD [(⟨⟨(f 1 0), .pinf⟩, .dac⟩ : DItv)]))),
    .call ((Cmd.run (.opD [(DItv.entire : DItv)]))),
    .call ((Cmd.run (.opD [(⟨⟨(f 1 0), (f 1 0)⟩, .com⟩ : DItv)]))),
    .call ((Cmd.run (.opD [(⟨⟨(f (8106479329266893) (-53)), (f 1 0)⟩, .com⟩ : DItv)]))),
    .call ((Cmd.run (.opD [(⟨⟨(f 1 0), (f (2643782169717717) (-43))⟩, .dac⟩ : DItv)]))),
    .call ((Cmd.run (.opD [(⟨⟨(f (8106479329266893) (-53)), (f (2643782169717717) (-43))⟩, .com⟩ : DItv)]))),
    .call ((Cmd.run (.opD [(⟨⟨(f (4870074199618159) (-37)), (f (6524220977199029) (-23))⟩, .defd⟩ : DItv)]))),
    .state 6319 [],
    .call clearFlags,
    .call (do (Cmd.run (.opD [(⟨⟨(f 1 0), (f (-9007199254740991) (971))⟩, .trv⟩ : DItv)])); (Cmd.run (.opD [(DItv.empty : DItv)]))),
    .state 6323 [.invalidOperand],
    .call clearFlags,
    .call (setCwd (bitsOf [.invalidOperand])),
    .throws 6326 ((Cmd.run (.opD [(⟨⟨(f 1 0), (f (-3) (0))⟩, .trv⟩ : DItv)]))) .invalidOperand,
    .state 6327 [.invalidOperand],
    .call clearFlags,
    .call (setCwd (bitsOf []))] ExSt.init = [] := by
  decide +kernel

/-- `minimal_acosh_dec_mixedtype_test` -/
example : failed [
    .call ((Cmd.run (.opD [(⟨⟨(f (2476979795053773) (-51)), (f (2589569785738035) (-50))⟩, .dac⟩ : DItv)]))),
    .call ((Cmd.run (.opD [(⟨⟨(f (2267805) (-6)), (f 12152309 6)⟩, .com⟩ : DItv)]))),
    .state 6337 [],
    .call clearFlags,
    .call (do (Cmd.run (.opD [(⟨⟨(f 1 0), (f (-9007199254740991) (971))⟩, .trv⟩ : DItv)])); (Cmd.run (.opD [(DItv.empty : DItv)]))),
    .state 6341 [.invalidOperand],
    .call clearFlags,
    .call (setCwd (bitsOf [.invalidOperand])),
    .throws 6344 ((Cmd.run (.opD [(⟨⟨(f 1 0), (f (-3) (0))⟩, .trv⟩ : DItv)]))) .invalidOperand,
    .state 6345 [.invalidOperand],
    .call clearFlags,
    .call (setCwd (bitsOf []))] ExSt.init = [] := by
  decide +kernel

/-- `minimal_atanh_test` -/
example : failed [
    .call (do (Cmd.run (.op [(Itv.empty : Itv)])); (Cmd.run (.op [(Itv.empty : Itv)]))),
    .call ((Cmd.run (.op [(⟨(f 0 0), .pinf⟩ : Itv)]))),
    .call ((Cmd.run (.op [(⟨.nzero, .pinf⟩ : Itv)]))),
    .call (do (Cmd.run (.op [(⟨(f 1 0), .pinf⟩ : Itv)])); (Cmd.run (.op [(Itv.empty : Itv)]))),
    .call ((Cmd.run (.op [(⟨.ninf, (f 0 0)⟩ : Itv)]))),
    .call ((Cmd.run (.op [(⟨.ninf, .nzero⟩ : Itv)]))),
    .call (do (Cmd.run (.op [(⟨.ninf, (f (-1) (0))⟩ : Itv)])); (Cmd.run (.op [(Itv.empty : Itv)]))),
    .call ((Cmd.run (.op [(⟨(f (-1) (0)), (f 1 0)⟩ : Itv)]))),
    .call ((Cmd.run (.op [(⟨(f 0 0), (f 0 0)⟩ : Itv)]))),
    .call ((Cmd.run (.op [(⟨.nzero, .nzero⟩ : Itv)]))),
    .call (do (Cmd.run (.op [(⟨(f (-1) (0)), (f (-1) (0))⟩ : Itv)])); (Cmd.run (.op [(Itv.empty : Itv)]))),
    .call (do (Cmd.run (.op [(⟨(f 1 0), (f 1 0)⟩ : Itv)])); (Cmd.run (.op [(Itv.empty : Itv)]))),
    .call ((Cmd.run (.op [(Itv.entire : Itv)]))),
    .call ((Cmd.run (.op [(⟨(f (1460222373380659) (-52)), (f (9007199254740991) (-53))⟩ : Itv)]))),
    .call ((Cmd.run (.op [(⟨(f (-9002289736672007) (-53)), (f (3602879701896397) (-55))⟩ : Itv)]))),
    .call clearFlags,
    .call (do (Cmd.run (.op [(⟨(f 1 0), (f (-9007199254740991) (971))⟩ : Itv)])); (Cmd.run (.op [(Itv.empty : Itv)]))),
    .state 6374 [.invalidOperand],
    .call clearFlags,
    .call (setCwd (bitsOf [.invalidOperand])),
    .throws 6377 ((Cmd.run (.op [(⟨(f 1 0), (f (-3) (0))⟩ : Itv)]))) .invalidOperand,
    .state 6378 [.invalidOperand],
    .call clearFlags,
    .call (setCwd (bitsOf []))] ExSt.init = [] := by
  decide +kernel

/-- `minimal_atanh_mixedtype_test` -/
example : failed [
    .call ((Cmd.run (.op [(⟨(f (1460222373380659) (-52)), (f (9007199254740991) (-53))⟩ : Itv)]))),
    .call ((Cmd.run (.op [(⟨(f (-1048005) (-20)), (f (13421773) (-27))⟩ : Itv)]))),
    .state 6389 [],
    .call clearFlags,
    .call (do (Cmd.run (.op [(⟨(f 1 0), (f (-9007199254740991) (971))⟩ : Itv)])); (Cmd.run (.op [(Itv.empty : Itv)]))),
    .state 6393 [.invalidOperand],
    .call clearFlags,
    .call (setCwd (bitsOf [.invalidOperand])),
    .throws 6396 ((Cmd.run (.op [(⟨(f 1 0), (f (-3) (0))⟩ : Itv)]))) .invalidOperand,
    .state 6397 [.invalidOperand],
    .call clearFlags,
    .call (setCwd (bitsOf []))] ExSt.init = [] := by
  decide +kernel

/-- `minimal_atanh_dec_test` -/
example : failed [
    .call ((Cmd.run (.opD [(⟨⟨(f 0 0), .pinf⟩, .dac⟩ : DItv)]))),
    .call ((Cmd.run (.opD [(⟨⟨.ninf, (f 0 0)⟩, .defd⟩ : DItv)]))),
    .call ((Cmd.run (.opD [(⟨⟨(f (-1) (0)), (f 1 0)⟩, .com⟩ : DItv)]))),
    .call ((Cmd.run (.opD [(⟨⟨(f 0 0), (f 0 0)⟩, .com⟩ : DItv)]))),
    .call (do (Cmd.run (.opD [(⟨⟨(f 1 0), (f 1 0)⟩, .defd⟩ : DItv)])); (Cmd.run (.opD [(DItv.empty : DItv)]))),
    .call ((Cmd.run (.opD [(⟨⟨(f (1460222373380659) (-52)), (f (9007199254740991) (-53))⟩, .com⟩ : DItv)]))),
    .call ((Cmd.run (.opD [(⟨⟨(f (-1) (0)), (f (9007199254740991) (-53))⟩, .com⟩ : DItv)]))),
    .call ((Cmd.run (.opD [(⟨⟨(f (-9002289736672007) (-53)), (f (3602879701896397) (-55))⟩, .defd⟩ : DItv)]))),
    .call ((Cmd.run (.opD [(⟨⟨(f (-9002289736672007) (-53)), (f 1 0)⟩, .com⟩ : DItv)]))),
    .state 6415 [],
    .call clearFlags,
    .call (do (Cmd.run (.opD [(⟨⟨(f 1 0), (f (-9007199254740991) (971))⟩, .trv⟩ : DItv)])); (Cmd.run (.opD [(DItv.empty : DItv)]))),
    .state 6419 [.invalidOperand],
    .call clearFlags,
    .call (setCwd (bitsOf [.invalidOperand])),
    .throws 6422 ((Cmd.run (.opD [(⟨⟨(f 1 0), (f (-3) (0))⟩, .trv⟩ : DItv)]))) .invalidOperand,
    .state 6423 [.invalidOperand],
    .call clearFlags,
    .call (setCwd (bitsOf []))] ExSt.init = [] := by
  decide +kernel

/-- `minimal_atanh_dec_mixedtype_test` -/
example : failed [
    .call ((Cmd.run (.opD [(⟨⟨(f (1460222373380659) (-52)), (f (9007199254740991) (-53))⟩, .com⟩ : DItv)]))),
    .call ((Cmd.run (.opD [(⟨⟨(f (-1048005) (-20)), (f (13421773) (-27))⟩, .trv⟩ : DItv)]))),
    .state 6434 [],
    .call clearFlags,
    .call (do (Cmd.run (.opD [(⟨⟨(f 1 0), (f (-9007199254740991) (971))⟩, .trv⟩ : DItv)])); (Cmd.run (.opD [(DItv.empty : DItv)]))),
    .state 6438 [.invalidOperand],
    .call clearFlags,
    .call (setCwd (bitsOf [.invalidOperand])),
    .throws 6441 ((Cmd.run (.opD [(⟨⟨(f 1 0), (f (-3) (0))⟩, .trv⟩ : DItv)]))) .invalidOperand,
    .state 6442 [.invalidOperand],
    .call clearFlags,
    .call (setCwd (bitsOf []))] ExSt.init = [] := by
  decide +kernel

/-- `minimal_sign_test` -/
example : failed [
    .call (do (Cmd.run (.op [(Itv.empty : Itv)])); (Cmd.run (.op [(Fmt.signI (Itv.empty : Itv) : Itv)]))),
    .call ((Cmd.run (.op [(⟨(f 1 0), (f 2 0)⟩ : Itv)]))),
    .call ((Cmd.run (.op [(⟨(f (-1) (0)), (f 2 0)⟩ : Itv)]))),
    .call ((Cmd.run (.op [(⟨(f (-1) (0)), (f 0 0)⟩ : Itv)]))),
    .call ((Cmd.run (.op [(⟨(f 0 0), (f 2 0)⟩ : Itv)]))),
    .call ((Cmd.run (.op [(⟨.nzero, (f 2 0)⟩ : Itv)]))),
    .call ((Cmd.run (.op [(⟨(f (-5) (0)), (f (-2) (0))⟩ : Itv)]))),
    .call ((Cmd.run (.op [(⟨(f 0 0), (f 0 0)⟩ : Itv)]))),
    .call ((Cmd.run (.op [(⟨.nzero, .nzero⟩ : Itv)]))),
    .call ((Cmd.run (.op [(⟨.nzero, (f 0 0)⟩ : Itv)]))),
    .call ((Cmd.run (.op [(Itv.entire : Itv)]))),
    .call clearFlags,
    .call (do (Cmd.run (.op [(⟨(f 1 0), (f (-9007199254740991) (971))⟩ : Itv)])); (Cmd.run (.op [(Fmt.signI (⟨(f 1 0), (f (-9007199254740991) (971))⟩ : Itv) : Itv)]))),
    .state 6466 [.invalidOperand],
    .call clearFlags,
    .call (setCwd (bitsOf [.invalidOperand])),
    .throws 6469 ((Cmd.run (.op [(⟨(f 1 0), (f (-3) (0))⟩ : Itv)]))) .invalidOperand,
    .state 6470 [.invalidOperand],
    .call clearFlags,
    .call (setCwd (bitsOf []))] ExSt.init = [] := by
  decide +kernel

/-- `minimal_sign_mixedtype_test` -/
example : failed [
    .call ((Cmd.run (.op [(⟨(f 1 0), (f 2 0)⟩ : Itv)]))),
    .call ((Cmd.run (.op [(⟨(f (-1) (0)), (f 2 0)⟩ : Itv)]))),
    .call ((Cmd.run (.op [(⟨(f 0 0), (f 2 0)⟩ : Itv)]))),
    .state 6482 [],
    .call clearFlags,
    .call (do (Cmd.run (.op [(⟨(f 1 0), (f (-9007199254740991) (971))⟩ : Itv)])); (Cmd.run (.op [(if !(⟨(f 1 0), (f (-9007199254740991) (971))⟩ : Itv).isValid then Itv.empty else Fmt.convertHull binary32 (Fmt.signI (Fmt.convertHull binary64 (⟨(f 1 0), (f (-9007199254740991) (971))⟩ : Itv))) : Itv)]))),
    .state 6486 [.invalidOperand],
    .call clearFlags,
    .call (setCwd (bitsOf [.invalidOperand])),
    .throws 6489 ((Cmd.run (.op [(⟨(f 1 0), (f (-3) (0))⟩ : Itv)]))) .invalidOperand,
    .state 6490 [.invalidOperand],
    .call clearFlags,
    .call (setCwd (bitsOf []))] ExSt.init = [] := by
  decide +kernel

/-- `minimal_sign_dec_test` -/
example : failed [
    .call ((Cmd.run (.opD [(⟨⟨(f 1 0), (f 2 0)⟩, .com⟩ : DItv)]))),
    .call ((Cmd.run (.opD [(⟨⟨(f (-1) (0)), (f 2 0)⟩, .com⟩ : DItv)]))),
    .call ((Cmd.run (.opD [(⟨⟨(f (-1) (0)), (f 0 0)⟩, .com⟩ : DItv)]))),
    .call ((Cmd.run (.opD [(⟨⟨(f 0 0), (f 2 0)⟩, .com⟩ : DItv)]))),
    .call ((Cmd.run (.opD [(⟨⟨.nzero, (f 2 0)⟩, .defd⟩ : DItv)]))),
    .call ((Cmd.run (.opD [(⟨⟨(f (-5) (0)), (f (-2) (0))⟩, .trv⟩ : DItv)]))),
    .call ((Cmd.run (.opD [(⟨⟨(f 0 0), (f 0 0)⟩, .dac⟩ : DItv)]))),
    .state 6505 [],
    .call clearFlags,
    .call (do (Cmd.run (.opD [(⟨⟨(f 1 0), (f (-9007199254740991) (971))⟩, .trv⟩ : DItv)])); (Cmd.run (.opD [(Fmt.signD (⟨⟨(f 1 0), (f (-9007199254740991) (971))⟩, .trv⟩ : DItv) : DItv)]))),
    .state 6509 [.invalidOperand],
    .call clearFlags,
    .call (setCwd (bitsOf [.invalidOperand])),
    .throws 6512 ((Cmd.run (.opD [(⟨⟨(f 1 0), (f (-3) (0))⟩, .trv⟩ : DItv)]))) .invalidOperand,
    .state 6513 [.invalidOperand],
    .call clearFlags,
    .call (setCwd (bitsOf []))] ExSt.init = [] := by
  decide +kernel

/-- `minimal_sign_dec_mixedtype_test` -/
example : failed [
    .call ((Cmd.run (.opD [(⟨⟨(f 1 0), (f 2 0)⟩, .com⟩ : DItv)]))),
    .call ((Cmd.run (.opD [(⟨⟨(f (-1) (0)), (f 2 0)⟩, .com⟩ : DItv)]))),
    .call ((Cmd.run (.opD [(⟨⟨(f 0 0), (f 2 0)⟩, .trv⟩ : DItv)]))),
    .state 6524 [],
    .call clearFlags,
    .call (do (Cmd.run (.opD [(⟨⟨(f 1 0), (f (-9007199254740991) (971))⟩, .trv⟩ : DItv)])); (Cmd.run (.opD [(if !(⟨⟨(f 1 0), (f (-9007199254740991) (971))⟩, .trv⟩ : DItv).isValid || (⟨⟨(f 1 0), (f (-9007199254740991) (971))⟩, .trv⟩ : DItv).isNai then DItv.nai else Fmt.convertHullD binary32 (Fmt.signD (Fmt.convertHullD binary64 (⟨⟨(f 1 0), (f (-9007199254740991) (971))⟩, .trv⟩ : DItv))) : DItv)]))),
    .state 6528 [.invalidOperand],
    .call clearFlags,
    .call (setCwd (bitsOf [.invalidOperand])),
    .throws 6531 ((Cmd.run (.opD [(⟨⟨(f 1 0), (f (-3) (0))⟩, .trv⟩ : DItv)]))) .invalidOperand,
    .state 6532 [.invalidOperand],
    .call clearFlags,
    .call (setCwd (bitsOf []))] ExSt.init = [] := by
  decide +kernel

/-- `minimal_ceil_test` -/
example : failed [
    .call (do (Cmd.run (.op [(Itv.empty : Itv)])); (Cmd.run (.op [(Fmt.ceilI (Itv.empty : Itv) : Itv)]))),
    .call ((Cmd.run (.op [(Itv.entire : Itv)]))),
    .call ((Cmd.run (.op [(⟨(f (2476979795053773) (-51)), (f 2 0)⟩ : Itv)]))),
    .call ((Cmd.run (.op [(⟨(f (-2476979795053773) (-51)), (f 2 0)⟩ : Itv)]))),
    .call ((Cmd.run (.op [(⟨(f (-2476979795053773) (-51)), (f 0 0)⟩ : Itv)]))),
    .call ((Cmd.run (.op [(⟨(f (-2476979795053773) (-51)), .nzero⟩ : Itv)]))),
    .call ((Cmd.run (.op [(⟨(f (-2476979795053773) (-51)), (f (-3602879701896397) (-53))⟩ : Itv)]))),
    .call ((Cmd.run (.op [(⟨(f (-4278419646001971) (-51)), (f (2476979795053773) (-50))⟩ : Itv)]))),
    .call ((Cmd.run (.op [(⟨(f (-1) (0)), (f (2476979795053773) (-50))⟩ : Itv)]))),
    .call ((Cmd.run (.op [(⟨(f 0 0), (f (2476979795053773) (-50))⟩ : Itv)]))),
    .call ((Cmd.run (.op [(⟨.nzero, (f (2476979795053773) (-50))⟩ : Itv)]))),
    .call ((Cmd.run (.op [(⟨(f (-3) (-1)), .pinf⟩ : Itv)]))),
    .call ((Cmd.run (.op [(⟨(f 9007199254740991 971), .pinf⟩ : Itv)]))),
    .call ((Cmd.run (.op [(⟨.ninf, (f (2476979795053773) (-50))⟩ : Itv)]))),
    .call ((Cmd.run (.op [(⟨.ninf, (f (-9007199254740991) (971))⟩ : Itv)]))),
    .call clearFlags,
    .call (do (Cmd.run (.op [(⟨(f 1 0), (f (-9007199254740991) (971))⟩ : Itv)])); (Cmd.run (.op [(Fmt.ceilI (⟨(f 1 0), (f (-9007199254740991) (971))⟩ : Itv) : Itv)]))),
    .state 6561 [.invalidOperand],
    .call clearFlags,
    .call (setCwd (bitsOf [.invalidOperand])),
    .throws 6564 ((Cmd.run (.op [(⟨(f 1 0), (f (-3) (0))⟩ : Itv)]))) .invalidOperand,
    .state 6565 [.invalidOperand],
    .call clearFlags,
    .call (setCwd (bitsOf []))] ExSt.init = [] := by
  decide +kernel

/-- `minimal_ceil_mixedtype_test` -/
example : failed [
    .call ((Cmd.run (.op [(⟨.nzero, (f (9227469) (-22))⟩ : Itv)]))),
    .call ((Cmd.run (.op [(⟨(f (-3) (-1)), .pinf⟩ : Itv)]))),
    .call ((Cmd.run (.op [(⟨(f 9007199254740991 971), .pinf⟩ : Itv)]))),
    .call ((Cmd.run (.op [(⟨(f 9007199254740991 971), (f 9007199254740991 971)⟩ : Itv)]))),
    .call ((Cmd.run (.op [(⟨.ninf, (f (2476979795053773) (-50))⟩ : Itv)]))),
    .call ((Cmd.run (.op [(⟨.ninf, (f (-9007199254740991) (971))⟩ : Itv)]))),
    .state 6579 [],
    .call clearFlags,
    .call (do (Cmd.run (.op [(⟨(f 1 0), (f (-9007199254740991) (971))⟩ : Itv)])); (Cmd.run (.op [(if !(⟨(f 1 0), (f (-9007199254740991) (971))⟩ : Itv).isValid then Itv.empty else Fmt.convertHull binary32 (Fmt.ceilI (Fmt.convertHull binary64 (⟨(f 1 0), (f (-9007199254740991) (971))⟩ : Itv))) : Itv)]))),
    .state 6583 [.invalidOperand],
    .call clearFlags,
    .call (setCwd (bitsOf [.invalidOperand])),
    .throws 6586 ((Cmd.run (.op [(⟨(f 1 0), (f (-3) (0))⟩ : Itv)]))) .invalidOperand,
    .state 6587 [.invalidOperand],
    .call clearFlags,
    .call (setCwd (bitsOf []))] ExSt.init = [] := by
  decide +kernel

/-- `minimal_ceil_dec_test` -/
example : failed [
    .call ((Cmd.run (.opD [(⟨⟨(f (2476979795053773) (-51)), (f (4278419646001971) (-51))⟩, .com⟩ : DItv)]))),
    .call ((Cmd.run (.opD [(⟨⟨(f (2476979795053773) (-51)), (f 2 0)⟩, .com⟩ : DItv)]))),
    .call ((Cmd.run (.opD [(⟨⟨(f (-2476979795053773) (-51)), (f 2 0)⟩, .com⟩ : DItv)]))),
    .call ((Cmd.run (.opD [(⟨⟨(f (-2476979795053773) (-51)), (f 0 0)⟩, .dac⟩ : DItv)]))),
    .call ((Cmd.run (.opD [(⟨⟨(f (-2476979795053773) (-51)), .nzero⟩, .trv⟩ : DItv)]))),
    .call ((Cmd.run (.opD [(⟨⟨(f (-2476979795053773) (-51)), (f (-3602879701896397) (-53))⟩, .dac⟩ : DItv)]))),
    .call ((Cmd.run (.opD [(⟨⟨(f (-4278419646001971) (-51)), (f (2476979795053773) (-50))⟩, .com⟩ : DItv)]))),
    .call ((Cmd.run (.opD [(⟨⟨(f (-1) (0)), (f (2476979795053773) (-50))⟩, .dac⟩ : DItv)]))),
    .call ((Cmd.run (.opD [(⟨⟨(f 0 0), (f (2476979795053773) (-50))⟩, .trv⟩ : DItv)]))),
    .call ((Cmd.run (.opD [(⟨⟨.nzero, (f (2476979795053773) (-50))⟩, .defd⟩ : DItv)]))),
    .call ((Cmd.run (.opD [(⟨⟨(f (-3) (-1)), .pinf⟩, .trv⟩ : DItv)]))),
    .call ((Cmd.run (.opD [(⟨⟨(f 9007199254740991 971), .pinf⟩, .dac⟩ : DItv)]))),
    .call ((Cmd.run (.opD [(⟨⟨(f 9007199254740991 971), (f 9007199254740991 971)⟩, .com⟩ : DItv)]))),
    .call ((Cmd.run (.opD [(⟨⟨.ninf, (f (2476979795053773) (-50))⟩, .trv⟩ : DItv)]))),
    .call ((Cmd.run (.opD [(⟨⟨.ninf, (f (-9007199254740991) (971))⟩, .dac⟩ : DItv)]))),
    .state 6610 [],
    .call clearFlags,
    .call (do (Cmd.run (.opD [(⟨⟨(f 1 0), (f (-9007199254740991) (971))⟩, .trv⟩ : DItv)])); (Cmd.run (.opD [(Fmt.ceilD (⟨⟨(f 1 0), (f (-9007199254740991) (971))⟩, .trv⟩ : DItv) : DItv)]))),
    .state 6614 [.invalidOperand],
    .call clearFlags,
    .call (setCwd (bitsOf [.invalidOperand])),
    .throws 6617 ((Cmd.run (.opD [(⟨⟨(f 1 0), (f (-3) (0))⟩, .trv⟩ : DItv)]))) .invalidOperand,
    .state 6618 [.invalidOperand],
    .call clearFlags,
    .call (setCwd (bitsOf []))] ExSt.init = [] := by
  decide +kernel

/-- `minimal_ceil_dec_mixedtype_test` -/
example : failed [
    .call ((Cmd.run (.opD [(⟨⟨.nzero, (f (9227469) (-22))⟩, .com⟩ : DItv)]))),
    .call ((Cmd.run (.opD [(⟨⟨(f (-3) (-1)), .pinf⟩, .dac⟩ : DItv)]))),
    .call ((Cmd.run (.opD [(⟨⟨(f 9007199254740991 971), .pinf⟩, .defd⟩ : DItv)]))),
    .call ((Cmd.run (.opD [(⟨⟨(f 9007199254740991 971), (f 9007199254740991 971)⟩, .com⟩ : DItv)]))),
    .call ((Cmd.run (.opD [(⟨⟨.ninf, (f (2476979795053773) (-50))⟩, .trv⟩ : DItv)]))),
    .call ((Cmd.run (.opD [(⟨⟨.ninf, (f (-9007199254740991) (971))⟩, .dac⟩ : DItv)]))),
    .state 6632 [],
    .call clearFlags,
    .call (do (Cmd.run (.opD [(⟨⟨(f 1 0), (f (-9007199254740991) (971))⟩, .trv⟩ : DItv)])); (Cmd.run (.opD [(if !(⟨⟨(f 1 0), (f (-9007199254740991) (971))⟩, .trv⟩ : DItv).isValid || (⟨⟨(f 1 0), (f (-9007199254740991) (971))⟩, .trv⟩ : DItv).isNai then DItv.nai else Fmt.convertHullD binary32 (Fmt.ceilD (Fmt.convertHullD binary64 (⟨⟨(f 1 0), (f (-9007199254740991) (971))⟩, .trv⟩ : DItv))) : DItv)]))),
    .state 6636 [.invalidOperand],
    .call clearFlags,
    .call (setCwd (bitsOf [.invalidOperand])),
    .throws 6639 ((Cmd.run (.opD [(⟨⟨(f 1 0), (f (-3) (0))⟩, .trv⟩ : DItv)]))) .invalidOperand,
    .state 6640 [.invalidOperand],
    .call clearFlags,
    .call (setCwd (bitsOf []))] ExSt.init = [] := by
  decide +kernel

/-- `minimal_floor_test` -/
example : failed [
    .call (do (Cmd.run (.op [(Itv.empty : Itv)])); (Cmd.run (.op [(Fmt.floorI (Itv.empty : Itv) : Itv)]))),
    .call ((Cmd.run (.op [(Itv.entire : Itv)]))),
    .call ((Cmd.run (.op [(⟨(f (2476979795053773) (-51)), (f 2 0)⟩ : Itv)]))),
    .call ((Cmd.run (.op [(⟨(f (-2476979795053773) (-51)), (f 2 0)⟩ : Itv)]))),
    .call ((Cmd.run (.op [(⟨(f (-2476979795053773) (-51)), (f 0 0)⟩ : Itv)]))),
    .call ((Cmd.run (.op [(⟨(f (-2476979795053773) (-51)), .nzero⟩ : Itv)]))),
    .call ((Cmd.run (.op [(⟨(f (-2476979795053773) (-51)), (f (-3602879701896397) (-53))⟩ : Itv)]))),
    .call ((Cmd.run (.op [(⟨(f (-4278419646001971) (-51)), (f (2476979795053773) (-50))⟩ : Itv)]))),
    .call ((Cmd.run (.op [(⟨(f (-1) (0)), (f (2476979795053773) (-50))⟩ : Itv)]))),
    .call ((Cmd.run (.op [(⟨(f 0 0), (f (2476979795053773) (-50))⟩ : Itv)]))),
    .call ((Cmd.run (.op [(⟨.nzero, (f (2476979795053773) (-50))⟩ : Itv)]))),
    .call ((Cmd.run (.op [(⟨(f (-3) (-1)), .pinf⟩ : Itv)]))),
    .call ((Cmd.run (.op [(⟨.ninf, (f (2476979795053773) (-50))⟩ : Itv)]))),
    .call clearFlags,
    .call (do (Cmd.run (.op [(⟨(f 1 0), (f (-9007199254740991) (971))⟩ : Itv)])); (Cmd.run (.op [(Fmt.floorI (⟨(f 1 0), (f (-9007199254740991) (971))⟩ : Itv) : Itv)]))),
    .state 6667 [.invalidOperand],
    .call clearFlags,
    .call (setCwd (bitsOf [.invalidOperand])),
    .throws 6670 ((Cmd.run (.op [(⟨(f 1 0), (f (-3) (0))⟩ : Itv)]))) .invalidOperand,
    .state 6671 [.invalidOperand],
    .call clearFlags,
    .call (setCwd (bitsOf []))] ExSt.init = [] := by
  decide +kernel

/-- `minimal_floor_mixedtype_test` -/
example : failed [
    .call ((Cmd.run (.op [(⟨.nzero, (f (9227469) (-22))⟩ : Itv)]))),
    .call ((Cmd.run (.op [(⟨(f (-3) (-1)), .pinf⟩ : Itv)]))),
    .call ((Cmd.run (.op [(⟨(f 9007199254740991 971), .pinf⟩ : Itv)]))),
    .call ((Cmd.run (.op [(⟨(f 9007199254740991 971), (f 9007199254740991 971)⟩ : Itv)]))),
    .call ((Cmd.run (.op [(⟨.ninf, (f (2476979795053773) (-50))⟩ : Itv)]))),
    .call ((Cmd.run (.op [(⟨.ninf, (f (-9007199254740991) (971))⟩ : Itv)]))),
    .state 6685 [],
    .call clearFlags,
    .call (do (Cmd.run (.op [(⟨(f 1 0), (f (-9007199254740991) (971))⟩ : Itv)])); (Cmd.run (.op [(if !(⟨(f 1 0), (f (-9007199254740991) (971))⟩ : Itv).isValid then Itv.empty else Fmt.convertHull binary32 (Fmt.floorI (Fmt.convertHull binary64 (⟨(f 1 0), (f (-9007199254740991) (971))⟩ : Itv))) : Itv)]))),
    .state 6689 [.invalidOperand],
    .call clearFlags,
    .call (setCwd (bitsOf [.invalidOperand])),
    .throws 6692 ((Cmd.run (.op [(⟨(f 1 0), (f (-3) (0))⟩ : Itv)]))) .invalidOperand,
    .state 6693 [.invalidOperand],
    .call clearFlags,
    .call (setCwd (bitsOf []))] ExSt.init = [] := by
  decide +kernel

/-- `minimal_floor_dec_test` -/
example : failed [
    .call ((Cmd.run (.opD [(⟨⟨(f (2476979795053773) (-51)), (f 2 0)⟩, .com⟩ : DItv)]))),
    .call ((Cmd.run (.opD [(⟨⟨(f (-2476979795053773) (-51)), (f 2 0)⟩, .defd⟩ : DItv)]))),
    .call ((Cmd.run (.opD [(⟨⟨(f (-2476979795053773) (-51)), (f 0 0)⟩, .dac⟩ : DItv)]))),
    .call ((Cmd.run (.opD [(⟨⟨(f (-5404319552844595) (-52)), (f (-2476979795053773) (-51))⟩, .com⟩ : DItv)]))),
    .call ((Cmd.run (.opD [(⟨⟨(f (-2) (0)), (f (-2476979795053773) (-51))⟩, .com⟩ : DItv)]))),
    .call ((Cmd.run (.opD [(⟨⟨(f (-2476979795053773) (-51)), (f (-3602879701896397) (-53))⟩, .defd⟩ : DItv)]))),
    .call ((Cmd.run (.opD [(⟨⟨(f (-4278419646001971) (-51)), (f (2476979795053773) (-50))⟩, .com⟩ : DItv)]))),
    .call ((Cmd.run (.opD [(⟨⟨(f (-1) (0)), (f (2476979795053773) (-50))⟩, .trv⟩ : DItv)]))),
    .call ((Cmd.run (.opD [(⟨⟨(f 0 0), (f (2476979795053773) (-50))⟩, .trv⟩ : DItv)]))),
    .call ((Cmd.run (.opD [(⟨⟨.nzero, (f (2476979795053773) (-50))⟩, .com⟩ : DItv)]))),
    .call ((Cmd.run (.opD [(⟨⟨(f (-3) (-1)), .pinf⟩, .dac⟩ : DItv)]))),
    .call ((Cmd.run (.opD [(⟨⟨.ninf, (f (2476979795053773) (-50))⟩, .trv⟩ : DItv)]))),
    .call ((Cmd.run (.opD [(⟨⟨(f (-9007199254740991) (971)), (f (-9007199254740991) (971))⟩, .com⟩ : DItv)]))),
    .state 6714 [],
    .call clearFlags,
    .call (do (Cmd.run (.opD [(⟨⟨(f 1 0), (f (-9007199254740991) (971))⟩, .trv⟩ : DItv)])); (Cmd.run (.opD [(Fmt.floorD (⟨⟨(f 1 0), (f (-9007199254740991) (971))⟩, .trv⟩ : DItv) : DItv)]))),
    .state 6718 [.invalidOperand],
    .call clearFlags,
    .call (setCwd (bitsOf [.invalidOperand])),
    .throws 6721 ((Cmd.run (.opD [(⟨⟨(f 1 0), (f (-3) (0))⟩, .trv⟩ : DItv)]))) .invalidOperand,
    .state 6722 [.invalidOperand],
    .call clearFlags,
    .call (setCwd (bitsOf []))] ExSt.init = [] := by
  decide +kernel

/-- `minimal_floor_dec_mixedtype_test` -/
example : failed [
    .call ((Cmd.run (.opD [(⟨⟨.nzero, (f (9227469) (-22))⟩, .com⟩ : DItv)]))),
    .call ((Cmd.run (.opD [(⟨⟨(f (-3) (-1)), .pinf⟩, .dac⟩ : DItv)]))),
    .call ((Cmd.run (.opD [(⟨⟨(f 9007199254740991 971), .pinf⟩, .dac⟩ : DItv)]))),
    .call ((Cmd.run (.opD [(⟨⟨(f 9007199254740991 971), (f 9007199254740991 971)⟩, .com⟩ : DItv)]))),
    .call ((Cmd.run (.opD [(⟨⟨.ninf, (f (2476979795053773) (-50))⟩, .trv⟩ : DItv)]))),
    .call ((Cmd.run (.opD [(⟨⟨.ninf, (f (-9007199254740991) (971))⟩, .dac⟩ : DItv)]))),
    .state 6736 [],
    .call clearFlags,
    .call (do (Cmd.run (.opD [(⟨⟨(f 1 0), (f (-9007199254740991) (971))⟩, .trv⟩ : DItv)])); (Cmd.run (.opD [(if !(⟨⟨(f 1 0), (f (-9007199254740991) (971))⟩, .trv⟩ : DItv).isValid || (⟨⟨(f 1 0), (f (-9007199254740991) (971))⟩, .trv⟩ : DItv).isNai then DItv.nai else Fmt.convertHullD binary32 (Fmt.floorD (Fmt.convertHullD binary64 (⟨⟨(f 1 0), (f (-9007199254740991) (971))⟩, .trv⟩ : DItv))) : DItv)]))),
    .state 6740 [.invalidOperand],
    .call clearFlags,
    .call (setCwd (bitsOf [.invalidOperand])),
    .throws 6743 ((Cmd.run (.opD [(⟨⟨(f 1 0), (f (-3) (0))⟩, .trv⟩ : DItv)]))) .invalidOperand,
    .state 6744 [.invalidOperand],
    .call clearFlags,
    .call (setCwd (bitsOf []))] ExSt.init = [] := by
  decide +kernel

/-- `minimal_trunc_test` -/
example : failed [
    .call (do (Cmd.run (.op [(Itv.empty : Itv)])); (Cmd.run (.op [(Fmt.truncI (Itv.empty : Itv) : Itv)]))),
    .call ((Cmd.run (.op [(Itv.entire : Itv)]))),
    .call ((Cmd.run (.op [(⟨(f (2476979795053773) (-51)), (f (4728779608739021) (-51))⟩ : Itv)]))),
    .call ((Cmd.run (.op [(⟨(f (-2476979795053773) (-51)), (f 2 0)⟩ : Itv)]))),
    .call ((Cmd.run (.op [(⟨(f (-2476979795053773) (-51)), (f 0 0)⟩ : Itv)]))),
    .call ((Cmd.run (.op [(⟨(f (-2476979795053773) (-51)), .nzero⟩ : Itv)]))),
    .call ((Cmd.run (.op [(⟨(f (-2476979795053773) (-51)), (f (-3602879701896397) (-53))⟩ : Itv)]))),
    .call ((Cmd.run (.op [(⟨(f (-4278419646001971) (-51)), (f (2476979795053773) (-50))⟩ : Itv)]))),
    .call ((Cmd.run (.op [(⟨(f (-1) (0)), (f (2476979795053773) (-50))⟩ : Itv)]))),
    .call ((Cmd.run (.op [(⟨(f 0 0), (f (2476979795053773) (-50))⟩ : Itv)]))),
    .call ((Cmd.run (.op [(⟨.nzero, (f (2476979795053773) (-50))⟩ : Itv)]))),
    .call ((Cmd.run (.op [(⟨(f (-3) (-1)), .pinf⟩ : Itv)]))),
    .call ((Cmd.run (.op [(⟨.ninf, (f (2476979795053773) (-50))⟩ : Itv)]))),
    .call clearFlags,
    .call (do (Cmd.run (.op [(⟨(f 1 0), (f (-9007199254740991) (971))⟩ : Itv)])); (Cmd.run (.op [(Fmt.truncI (⟨(f 1 0), (f (-9007199254740991) (971))⟩ : Itv) : Itv)]))),
    .state 6771 [.invalidOperand],
    .call clearFlags,
    .call (setCwd (bitsOf [.invalidOperand])),
    .throws 6774 ((Cmd.run (.op [(⟨(f 1 0), (f (-3) (0))⟩ : Itv)]))) .invalidOperand,
    .state 6775 [.invalidOperand],
    .call clearFlags,
    .call (setCwd (bitsOf []))] ExSt.init = [] := by
  decide +kernel

/-- `minimal_trunc_mixedtype_test` -/
example : failed [
    .call ((Cmd.run (.op [(⟨(f (9227469) (-23)), (f (4404019) (-21))⟩ : Itv)]))),
    .call ((Cmd.run (.op [(⟨(f (-2476979795053773) (-51)), (f (-3602879701896397) (-53))⟩ : Itv)]))),
    .call ((Cmd.run (.op [(⟨(f (-3) (-1)), .pinf⟩ : Itv)]))),
    .call ((Cmd.run (.op [(⟨.ninf, (f (2476979795053773) (-50))⟩ : Itv)]))),
    .state 6787 [],
    .call clearFlags,
    .call (do (Cmd.run (.op [(⟨(f 1 0), (f (-9007199254740991) (971))⟩ : Itv)])); (Cmd.run (.op [(if !(⟨(f 1 0), (f (-9007199254740991) (971))⟩ : Itv).isValid then Itv.empty else Fmt.convertHull binary32 (Fmt.truncI (Fmt.convertHull binary64 (⟨(f 1 0), (f (-9007199254740991) (971))⟩ : Itv))) : Itv)]))),
    .state 6791 [.invalidOperand],
    .call clearFlags,
    .call (setCwd (bitsOf [.invalidOperand])),
    .throws 6794 ((Cmd.run (.op [(⟨(f 1 0), (f (-3) (0))⟩ : Itv)]))) .invalidOperand,
    .state 6795 [.invalidOperand],
    .call clearFlags,
    .call (setCwd (bitsOf []))] ExSt.init = [] := by
  decide +kernel

/-- `minimal_trunc_dec_test` -/
example : failed [
    .call ((Cmd.run (.opD [(⟨⟨(f 1 0), (f (5404319552844595) (-52))⟩, .com⟩ : DItv)]))),
    .call ((Cmd.run (.opD [(⟨⟨(f (2476979795053773) (-51)), (f (5404319552844595) (-52))⟩, .com⟩ : DItv)]))),
    .call ((Cmd.run (.opD [(⟨⟨(f 0 0), (f (8106479329266893) (-53))⟩, .com⟩ : DItv)]))),
    .call ((Cmd.run (.opD [(⟨⟨(f (-5404319552844595) (-52)), (f (-2476979795053773) (-51))⟩, .com⟩ : DItv)]))),
    .call ((Cmd.run (.opD [(⟨⟨(f (-5404319552844595) (-52)), (f (-1) (0))⟩, .com⟩ : DItv)]))),
    .call ((Cmd.run (.opD [(⟨⟨(f (2476979795053773) (-51)), (f (4728779608739021) (-51))⟩, .com⟩ : DItv)]))),
    .call ((Cmd.run (.opD [(⟨⟨(f (2476979795053773) (-51)), (f (4278419646001971) (-51))⟩, .com⟩ : DItv)]))),
    .call ((Cmd.run (.opD [(⟨⟨(f (-2476979795053773) (-51)), (f 2 0)⟩, .dac⟩ : DItv)]))),
    .call ((Cmd.run (.opD [(⟨⟨(f (-2476979795053773) (-51)), (f 0 0)⟩, .trv⟩ : DItv)]))),
    .call ((Cmd.run (.opD [(⟨⟨(f (-2476979795053773) (-51)), .nzero⟩, .defd⟩ : DItv)]))),
    .call ((Cmd.run (.opD [(⟨⟨(f (-2476979795053773) (-51)), (f (-3602879701896397) (-53))⟩, .com⟩ : DItv)]))),
    .call ((Cmd.run (.opD [(⟨⟨(f (-4278419646001971) (-51)), (f (2476979795053773) (-50))⟩, .defd⟩ : DItv)]))),
    .call ((Cmd.run (.opD [(⟨⟨(f (-1) (0)), (f (2476979795053773) (-50))⟩, .dac⟩ : DItv)]))),
    .call ((Cmd.run (.opD [(⟨⟨(f (-3) (-1)), .pinf⟩, .dac⟩ : DItv)]))),
    .call ((Cmd.run (.opD [(⟨⟨.ninf, (f (2476979795053773) (-50))⟩, .trv⟩ : DItv)]))),
    .call ((Cmd.run (.opD [(⟨⟨(f 9007199254740991 971), (f 9007199254740991 971)⟩, .com⟩ : DItv)]))),
    .call ((Cmd.run (.opD [(⟨⟨(f 9007199254740991 971), .pinf⟩, .dac⟩ : DItv)]))),
    .state 6820 [],
    .call clearFlags,
    .call (do (Cmd.run (.opD [(⟨⟨(f 1 0), (f (-9007199254740991) (971))⟩, .trv⟩ : DItv)])); (Cmd.run (.opD [(Fmt.truncD (⟨⟨(f 1 0), (f (-9007199254740991) (971))⟩, .trv⟩ : DItv) : DItv)]))),
    .state 6824 [.invalidOperand],
    .call clearFlags,
    .call (setCwd (bitsOf [.invalidOperand])),
    .throws 6827 ((Cmd.run (.opD [(⟨⟨(f 1 0), (f (-3) (0))⟩, .trv⟩ : DItv)]))) .invalidOperand,
    .state 6828 [.invalidOperand],
    .call clearFlags,
    .call (setCwd (bitsOf []))] ExSt.init = [] := by
  decide +kernel

/-- `minimal_trunc_dec_mixedtype_test` -/
example : failed [
    .call ((Cmd.run (.opD [(⟨⟨(f (9227469) (-23)), (f (4404019) (-21))⟩, .com⟩ : DItv)]))),
    .call ((Cmd.run (.opD [(⟨⟨(f (-2476979795053773) (-51)), (f (-3602879701896397) (-53))⟩, .trv⟩ : DItv)]))),
    .call ((Cmd.run (.opD [(⟨⟨(f (-3) (-1)), .pinf⟩, .dac⟩ : DItv)]))),
    .call ((Cmd.run (.opD [(⟨⟨.ninf, (f (2476979795053773) (-50))⟩, .defd⟩ : DItv)]))),
    .call ((Cmd.run (.opD [(⟨⟨(f 9007199254740991 971), (f 9007199254740991 971)⟩, .com⟩ : DItv)]))),
    .call ((Cmd.run (.opD [(⟨⟨(f 9007199254740991 971), .pinf⟩, .dac⟩ : DItv)]))),
    .state 6842 [],
    .call clearFlags,
    .call (do (Cmd.run (.opD [(⟨⟨(f 1 0), (f (-9007199254740991) (971))⟩, .trv⟩ : DItv)])); (Cmd.run (.opD [(if !(⟨⟨(f 1 0), (f (-9007199254740991) (971))⟩, .trv⟩ : DItv).isValid || (⟨⟨(f 1 0), (f (-9007199254740991) (971))⟩, .trv⟩ : DItv).isNai then DItv.nai else Fmt.convertHullD binary32 (Fmt.truncD (Fmt.convertHullD binary64 (⟨⟨(f 1 0), (f (-9007199254740991) (971))⟩, .trv⟩ : DItv))) : DItv)]))),
    .state 6846 [.invalidOperand],
    .call clearFlags,
    .call (setCwd (bitsOf [.invalidOperand])),
    .throws 6849 ((Cmd.run (.opD [(⟨⟨(f 1 0), (f (-3) (0))⟩, .trv⟩ : DItv)]))) .invalidOperand,
    .state 6850 [.invalidOperand],
    .call clearFlags,
    .call (setCwd (bitsOf []))] ExSt.init = [] := by
  decide +kernel

/-- `minimal_round_ties_to_even_test` -/
example : failed [
    .call (do (Cmd.run (.op [(Itv.empty : Itv)])); (Cmd.run (.op [(Fmt.roundEvenI (Itv.empty : Itv) : Itv)]))),
    .call ((Cmd.run (.op [(Itv.entire : Itv)]))),
    .call ((Cmd.run (.op [(⟨(f (2476979795053773) (-51)), (f (4728779608739021) (-51))⟩ : Itv)]))),
    .call ((Cmd.run (.op [(⟨(f (-2476979795053773) (-51)), (f 2 0)⟩ : Itv)]))),
    .call ((Cmd.run (.op [(⟨(f (-2476979795053773) (-51)), (f (-3602879701896397) (-53))⟩ : Itv)]))),
    .call ((Cmd.run (.op [(⟨(f (-2476979795053773) (-51)), (f 0 0)⟩ : Itv)]))),
    .call ((Cmd.run (.op [(⟨(f (-2476979795053773) (-51)), .nzero⟩ : Itv)]))),
    .call ((Cmd.run (.op [(⟨(f (-4278419646001971) (-51)), (f (2476979795053773) (-50))⟩ : Itv)]))),
    .call ((Cmd.run (.op [(⟨(f (-1) (0)), (f (2476979795053773) (-50))⟩ : Itv)]))),
    .call ((Cmd.run (.op [(⟨(f (3) (-1)), (f (4728779608739021) (-51))⟩ : Itv)]))),
    .call ((Cmd.run (.op [(⟨(f (-3) (-1)), (f 2 0)⟩ : Itv)]))),
    .call ((Cmd.run (.op [(⟨(f (-2476979795053773) (-51)), (f (-1) (-1))⟩ : Itv)]))),
    .call ((Cmd.run (.op [(⟨(f (-4278419646001971) (-51)), (f (5) (-1))⟩ : Itv)]))),
    .call ((Cmd.run (.op [(⟨(f 0 0), (f (5) (-1))⟩ : Itv)]))),
    .call ((Cmd.run (.op [(⟨.nzero, (f (5) (-1))⟩ : Itv)]))),
    .call ((Cmd.run (.op [(⟨(f (-3) (-1)), (f (5) (-1))⟩ : Itv)]))),
    .call ((Cmd.run (.op [(⟨(f (-3) (-1)), .pinf⟩ : Itv)]))),
    .call ((Cmd.run (.op [(⟨.ninf, (f (2476979795053773) (-50))⟩ : Itv)]))),
    .call clearFlags,
    .call (do (Cmd.run (.op [(⟨(f 1 0), (f (-9007199254740991) (971))⟩ : Itv)])); (Cmd.run (.op [(Fmt.roundEvenI (⟨(f 1 0), (f (-9007199254740991) (971))⟩ : Itv) : Itv)]))),
    .state 6882 [.invalidOperand],
    .call clearFlags,
    .call (setCwd (bitsOf [.invalidOperand])),
    .throws 6885 ((Cmd.run (.op [(⟨(f 1 0), (f (-3) (0))⟩ : Itv)]))) .invalidOperand,
    .state 6886 [.invalidOperand],
    .call clearFlags,
    .call (setCwd (bitsOf []))] ExSt.init = [] := by
  decide +kernel

/-- `minimal_round_ties_to_even_mixedtype_test` -/
example : failed [
    .call ((Cmd.run (.op [(⟨(f (3) (-1)), (f (4404019) (-21))⟩ : Itv)]))),
    .call ((Cmd.run (.op [(⟨(f (-3) (-1)), (f (5) (-1))⟩ : Itv)]))),
    .call ((Cmd.run (.op [(⟨(f (-3) (-1)), .pinf⟩ : Itv)]))),
    .state 6898 [],
    .call clearFlags,
    .call (do (Cmd.run (.op [(⟨(f 1 0), (f (-9007199254740991) (971))⟩ : Itv)])); (Cmd.run (.op [(if !(⟨(f 1 0), (f (-9007199254740991) (971))⟩ : Itv).isValid then Itv.empty else Fmt.convertHull binary32 (Fmt.roundEvenI (Fmt.convertHull binary64 (⟨(f 1 0), (f (-9007199254740991) (971))⟩ : Itv))) : Itv)]))),
    .state 6902 [.invalidOperand],
    .call clearFlags,
    .call (setCwd (bitsOf [.invalidOperand])),
    .throws 6905 ((Cmd.run (.op [(⟨(f 1 0), (f (-3) (0))⟩ : Itv)]))) .invalidOperand,
    .state 6906 [.invalidOperand],
    .call clearFlags,
    .call (setCwd (bitsOf []))] ExSt.init = [] := by
  decide +kernel

/-- `minimal_round_ties_to_even_dec_test` -/
example : failed [
    .call ((Cmd.run (.opD [(⟨⟨(f (2476979795053773) (-51)), (f (4728779608739021) (-51))⟩, .com⟩ : DItv)]))),
    .call ((Cmd.run (.opD [(⟨⟨(f (-2476979795053773) (-51)), (f 2 0)⟩, .trv⟩ : DItv)]))),
    .call ((Cmd.run (.opD [(⟨⟨(f (-3602879701896397) (-51)), (f (-3) (-1))⟩, .com⟩ : DItv)]))),
    .call ((Cmd.run (.opD [(⟨⟨(f (-3602879701896397) (-51)), (f (-6980579422424269) (-52))⟩, .com⟩ : DItv)]))),
    .call ((Cmd.run (.opD [(⟨⟨(f (-3602879701896397) (-51)), (f (-3152519739159347) (-51))⟩, .com⟩ : DItv)]))),
    .call ((Cmd.run (.opD [(⟨⟨(f (-3) (-1)), .pinf⟩, .dac⟩ : DItv)]))),
    .call ((Cmd.run (.opD [(⟨⟨.ninf, (f (2476979795053773) (-50))⟩, .trv⟩ : DItv)]))),
    .state 6921 [],
    .call clearFlags,
    .call (do (Cmd.run (.opD [(⟨⟨(f 1 0), (f (-9007199254740991) (971))⟩, .trv⟩ : DItv)])); (Cmd.run (.opD [(Fmt.roundEvenD binary64 (⟨⟨(f 1 0), (f (-9007199254740991) (971))⟩, .trv⟩ : DItv) : DItv)]))),
    .state 6925 [.invalidOperand],
    .call clearFlags,
    .call (setCwd (bitsOf [.invalidOperand])),
    .throws 6928 ((Cmd.run (.opD [(⟨⟨(f 1 0), (f (-3) (0))⟩, .trv⟩ : DItv)]))) .invalidOperand,
    .state 6929 [.invalidOperand],
    .call clearFlags,
    .call (setCwd (bitsOf []))] ExSt.init = [] := by
  decide +kernel

/-- `minimal_round_ties_to_even_dec_mixedtype_test` -/
example : failed [
    .call ((Cmd.run (.opD [(⟨⟨(f (3) (-1)), (f (4404019) (-21))⟩, .com⟩ : DItv)]))),
    .call ((Cmd.run (.opD [(⟨⟨(f (-3) (-1)), (f (5) (-1))⟩, .com⟩ : DItv)]))),
    .call ((Cmd.run (.opD [(⟨⟨(f (-3) (-1)), .pinf⟩, .dac⟩ : DItv)]))),
    .state 6940 [],
    .call clearFlags,
    .call (do (Cmd.run (.opD [(⟨⟨(f 1 0), (f (-9007199254740991) (971))⟩, .trv⟩ : DItv)])); (Cmd.run (.opD [(if !(⟨⟨(f 1 0), (f (-9007199254740991) (971))⟩, .trv⟩ : DItv).isValid || (⟨⟨(f 1 0), (f (-9007199254740991) (971))⟩, .trv⟩ : DItv).isNai then DItv.nai else Fmt.convertHullD binary32 (Fmt.roundEvenD binary64 (Fmt.convertHullD binary64 (⟨⟨(f 1 0), (f (-9007199254740991) (971))⟩, .trv⟩ : DItv))) : DItv)]))),
    .state 6944 [.invalidOperand],
    .call clearFlags,
    .call (setCwd (bitsOf [.invalidOperand])),
    .throws 6947 ((Cmd.run (.opD [(⟨⟨(f 1 0), (f (-3) (0))⟩, .trv⟩ : DItv)]))) .invalidOperand,
    .state 6948 [.invalidOperand],
    .call clearFlags,
    .call (setCwd (bitsOf []))] ExSt.init = [] := by
  decide +kernel

/-- `minimal_round_ties_to_away_test` -/
example : failed [
    .call (do (Cmd.run (.op [(Itv.empty : Itv)])); (Cmd.run (.op [(Fmt.roundAwayI (Itv.empty : Itv) : Itv)]))),
    .call ((Cmd.run (.op [(Itv.entire : Itv)]))),
    .call ((Cmd.run (.op [(⟨(f (2476979795053773) (-51)), (f (4728779608739021) (-51))⟩ : Itv)]))),
    .call ((Cmd.run (.op [(⟨(f (-2476979795053773) (-51)), (f 2 0)⟩ : Itv)]))),
    .call ((Cmd.run (.op [(⟨(f (-2476979795053773) (-51)), (f 0 0)⟩ : Itv)]))),
    .call ((Cmd.run (.op [(⟨(f (-2476979795053773) (-51)), .nzero⟩ : Itv)]))),
    .call ((Cmd.run (.op [(⟨(f (-2476979795053773) (-51)), (f (-3602879701896397) (-53))⟩ : Itv)]))),
    .call ((Cmd.run (.op [(⟨(f (-4278419646001971) (-51)), (f (2476979795053773) (-50))⟩ : Itv)]))),
    .call ((Cmd.run (.op [(⟨(f (-1) (0)), (f (2476979795053773) (-50))⟩ : Itv)]))),
    .call ((Cmd.run (.op [(⟨(f (1) (-1)), (f (4728779608739021) (-51))⟩ : Itv)]))),
    .call ((Cmd.run (.op [(⟨(f (-5) (-1)), (f 2 0)⟩ : Itv)]))),
    .call ((Cmd.run (.op [(⟨(f (-2476979795053773) (-51)), (f (-1) (-1))⟩ : Itv)]))),
    .call ((Cmd.run (.op [(⟨(f (-4278419646001971) (-51)), (f (5) (-1))⟩ : Itv)]))),
    .call ((Cmd.run (.op [(⟨(f (-3) (-1)), (f (5) (-1))⟩ : Itv)]))),
    .call ((Cmd.run (.op [(⟨(f 0 0), (f (5) (-1))⟩ : Itv)]))),
    .call ((Cmd.run (.op [(⟨.nzero, (f (5) (-1))⟩ : Itv)]))),
    .call ((Cmd.run (.op [(⟨(f (-3) (-1)), .pinf⟩ : Itv)]))),
    .call ((Cmd.run (.op [(⟨.ninf, (f (2476979795053773) (-50))⟩ : Itv)]))),
    .call clearFlags,
    .call (do (Cmd.run (.op [(⟨(f 1 0), (f (-9007199254740991) (971))⟩ : Itv)])); (Cmd.run (.op [(Fmt.roundAwayI (⟨(f 1 0), (f (-9007199254740991) (971))⟩ : Itv) : Itv)]))),
    .state 6979 [.invalidOperand],
    .call clearFlags,
    .call (setCwd (bitsOf [.invalidOperand])),
    .throws 6982 ((Cmd.run (.op [(⟨(f 1 0), (f (-3) (0))⟩ : Itv)]))) .invalidOperand,
    .state 6983 [.invalidOperand],
    .call clearFlags,
    .call (setCwd (bitsOf []))] ExSt.init = [] := by
  decide +kernel

/-- `minimal_round_ties_to_away_mixedtype_test` -/
example : failed [
    .call ((Cmd.run (.op [(⟨(f (3) (-1)), (f (4404019) (-21))⟩ : Itv)]))),
    .call ((Cmd.run (.op [(⟨(f (-3) (-1)), (f (5) (-1))⟩ : Itv)]))),
    .call ((Cmd.run (.op [(⟨(f (-3) (-1)), .pinf⟩ : Itv)]))),
    .state 6994 [],
    .call clearFlags,
    .call (do (Cmd.run (.op [(⟨(f 1 0), (f (-9007199254740991) (971))⟩ : Itv)])); (Cmd.run (.op [(if !(⟨(f 1 0), (f (-9007199254740991) (971))⟩ : Itv).isValid then Itv.empty else Fmt.convertHull binary32 (Fmt.roundAwayI (Fmt.convertHull binary64 (⟨(f 1 0), (f (-9007199254740991) (971))⟩ : Itv))) : Itv)]))),
    .state 6998 [.invalidOperand],
    .call clearFlags,
    .call (setCwd (bitsOf [.invalidOperand])),
    .throws 7001 ((Cmd.run (.op [(⟨(f 1 0), (f (-3) (0))⟩ : Itv)]))) .invalidOperand,
    .state 7002 [.invalidOperand],
    .call clearFlags,
    .call (setCwd (bitsOf []))] ExSt.init = [] := by
  decide +kernel

/-- `minimal_round_ties_to_away_dec_test` -/
example : failed [
    .call ((Cmd.run (.opD [(⟨⟨(f (2476979795053773) (-51)), (f (4728779608739021) (-51))⟩, .com⟩ : DItv)]))),
    .call ((Cmd.run (.opD [(⟨⟨(f (-4278419646001971) (-51)), (f (2476979795053773) (-50))⟩, .com⟩ : DItv)]))),
    .call ((Cmd.run (.opD [(⟨⟨(f (4278419646001971) (-51)), (f (2476979795053773) (-50))⟩, .com⟩ : DItv)]))),
    .call ((Cmd.run (.opD [(⟨⟨(f (-1) (0)), (f (2476979795053773) (-50))⟩, .trv⟩ : DItv)]))),
    .call ((Cmd.run (.opD [(⟨⟨(f (5) (-1)), (f (5854679515581645) (-51))⟩, .com⟩ : DItv)]))),
    .call ((Cmd.run (.opD [(⟨⟨(f (-3) (-1)), .pinf⟩, .dac⟩ : DItv)]))),
    .call ((Cmd.run (.opD [(⟨⟨.ninf, (f (2476979795053773) (-50))⟩, .defd⟩ : DItv)]))),
    .state 7018 [],
    .call clearFlags,
    .call (do (Cmd.run (.opD [(⟨⟨(f 1 0), (f (-9007199254740991) (971))⟩, .trv⟩ : DItv)])); (Cmd.run (.opD [(Fmt.roundAwayD binary64 (⟨⟨(f 1 0), (f (-9007199254740991) (971))⟩, .trv⟩ : DItv) : DItv)]))),
    .state 7022 [.invalidOperand],
    .call clearFlags,
    .call (setCwd (bitsOf [.invalidOperand])),
    .throws 7025 ((Cmd.run (.opD [(⟨⟨(f 1 0), (f (-3) (0))⟩, .trv⟩ : DItv)]))) .invalidOperand,
    .state 7026 [.invalidOperand],
    .call clearFlags,
    .call (setCwd (bitsOf []))] ExSt.init = [] := by
  decide +kernel

/-- `minimal_round_ties_to_away_dec_mixedtype_test` -/
example : failed [
    .call ((Cmd.run (.opD [(⟨⟨(f (3) (-1)), (f (4404019) (-21))⟩, .com⟩ : DItv)]))),
    .call ((Cmd.run (.opD [(⟨⟨(f (-3) (-1)), (f (5) (-1))⟩, .com⟩ : DItv)]))),
    .call ((Cmd.run (.opD [(⟨⟨(f (-3) (-1)), .pinf⟩, .dac⟩ : DItv)]))),
    .state 7037 [],
    .call clearFlags,
    .call (do (Cmd.run (.opD [(⟨⟨(f 1 0), (f (-9007199254740991) (971))⟩, .trv⟩ : DItv)])); (Cmd.run (.opD [(if !(⟨⟨(f 1 0), (f (-9007199254740991) (971))⟩, .trv⟩ : DItv).isValid || (⟨⟨(f 1 0), (f (-9007199254740991) (971))⟩, .trv⟩ : DItv).isNai then DItv.nai else Fmt.convertHullD binary32 (Fmt.roundAwayD binary64 (Fmt.convertHullD binary64 (⟨⟨(f 1 0), (f (-9007199254740991) (971))⟩, .trv⟩ : DItv))) : DItv)]))),
    .state 7041 [.invalidOperand],
    .call clearFlags,
    .call (setCwd (bitsOf [.invalidOperand])),
    .throws 7044 ((Cmd.run (.opD [(⟨⟨(f 1 0), (f (-3) (0))⟩, .trv⟩ : DItv)]))) .invalidOperand,
    .state 7045 [.invalidOperand],
    .call clearFlags,
    .call (setCwd (bitsOf []))] ExSt.init = [] := by
  decide +kernel

/-- `minimal_abs_test` -/
example : failed [
    .call (do (Cmd.run (.op [(Itv.empty : Itv)])); (Cmd.run (.op [(Fmt.absI (Itv.empty : Itv) : Itv)]))),
    .call ((Cmd.run (.op [(Itv.entire : Itv)]))),
    .call ((Cmd.run (.op [(⟨(f (2476979795053773) (-51)), (f (4728779608739021) (-51))⟩ : Itv)]))),
    .call ((Cmd.run (.op [(⟨(f (-2476979795053773) (-51)), (f 2 0)⟩ : Itv)]))),
    .call ((Cmd.run (.op [(⟨(f (-2476979795053773) (-51)), (f 0 0)⟩ : Itv)]))),
    .call ((Cmd.run (.op [(⟨(f (-2476979795053773) (-51)), .nzero⟩ : Itv)]))),
    .call ((Cmd.run (.op [(⟨(f (-2476979795053773) (-51)), (f (-3602879701896397) (-53))⟩ : Itv)]))),
    .call ((Cmd.run (.op [(⟨(f (-4278419646001971) (-51)), (f (3602879701896397) (-54))⟩ : Itv)]))),
    .call ((Cmd.run (.op [(⟨(f 0 0), (f (3602879701896397) (-54))⟩ : Itv)]))),
    .call ((Cmd.run (.op [(⟨.nzero, (f (3602879701896397) (-54))⟩ : Itv)]))),
    .call ((Cmd.run (.op [(⟨(f (-3) (-1)), .pinf⟩ : Itv)]))),
    .call ((Cmd.run (.op [(⟨.ninf, (f (-2476979795053773) (-50))⟩ : Itv)]))),
    .call clearFlags,
    .call (do (Cmd.run (.op [(⟨(f 1 0), (f (-9007199254740991) (971))⟩ : Itv)])); (Cmd.run (.op [(Fmt.absI (⟨(f 1 0), (f (-9007199254740991) (971))⟩ : Itv) : Itv)]))),
    .state 7070 [.invalidOperand],
    .call clearFlags,
    .call (setCwd (bitsOf [.invalidOperand])),
    .throws 7073 ((Cmd.run (.op [(⟨(f 1 0), (f (-3) (0))⟩ : Itv)]))) .invalidOperand,
    .state 7074 [.invalidOperand],
    .call clearFlags,
    .call (setCwd (bitsOf []))] ExSt.init = [] := by
  decide +kernel

/-- `minimal_abs_mixedtype_test` -/
example : failed [
    .call ((Cmd.run (.op [(⟨(f (-2476979795053773) (-51)), (f (-3602879701896397) (-53))⟩ : Itv)]))),
    .call ((Cmd.run (.op [(⟨(f 0 0), (f (13421773) (-26))⟩ : Itv)]))),
    .call ((Cmd.run (.op [(⟨.nzero, (f (3602879701896397) (-54))⟩ : Itv)]))),
    .call ((Cmd.run (.op [(⟨(f (-3) (-1)), .pinf⟩ : Itv)]))),
    .state 7086 [],
    .call clearFlags,
    .call (do (Cmd.run (.op [(⟨(f 1 0), (f (-9007199254740991) (971))⟩ : Itv)])); (Cmd.run (.op [(if !(⟨(f 1 0), (f (-9007199254740991) (971))⟩ : Itv).isValid then Itv.empty else Fmt.convertHull binary32 (Fmt.absI (Fmt.convertHull binary64 (⟨(f 1 0), (f (-9007199254740991) (971))⟩ : Itv))) : Itv)]))),
    .state 7090 [.invalidOperand],
    .call clearFlags,
    .call (setCwd (bitsOf [.invalidOperand])),
    .throws 7093 ((Cmd.run (.op [(⟨(f 1 0), (f (-3) (0))⟩ : Itv)]))) .invalidOperand,
    .state 7094 [.invalidOperand],
    .call clearFlags,
    .call (setCwd (bitsOf []))] ExSt.init = [] := by
  decide +kernel

/-- `minimal_abs_dec_test` -/
example : failed [
    .call ((Cmd.run (.opD [(⟨⟨(f (-2476979795053773) (-51)), (f 2 0)⟩, .com⟩ : DItv)]))),
    .call ((Cmd.run (.opD [(⟨⟨(f (-2476979795053773) (-51)), (f 0 0)⟩, .dac⟩ : DItv)]))),
    .call ((Cmd.run (.opD [(⟨⟨(f (-2476979795053773) (-51)), .nzero⟩, .defd⟩ : DItv)]))),
    .call ((Cmd.run (.opD [(⟨⟨(f (-2476979795053773) (-51)), (f (-3602879701896397) (-53))⟩, .trv⟩ : DItv)]))),
    .call ((Cmd.run (.opD [(⟨⟨(f (-4278419646001971) (-51)), (f (3602879701896397) (-54))⟩, .dac⟩ : DItv)]))),
    .call ((Cmd.run (.opD [(⟨⟨(f 0 0), (f (3602879701896397) (-54))⟩, .defd⟩ : DItv)]))),
    .call ((Cmd.run (.opD [(⟨⟨.nzero, (f (3602879701896397) (-54))⟩, .com⟩ : DItv)]))),
    .call ((Cmd.run (.opD [(⟨⟨(f (-3) (-1)), .pinf⟩, .dac⟩ : DItv)]))),
    .state 7110 [],
    .call clearFlags,
    .call (do (Cmd.run (.opD [(⟨⟨(f 1 0), (f (-9007199254740991) (971))⟩, .trv⟩ : DItv)])); (Cmd.run (.opD [(Fmt.absD (⟨⟨(f 1 0), (f (-9007199254740991) (971))⟩, .trv⟩ : DItv) : DItv)]))),
    .state 7114 [.invalidOperand],
    .call clearFlags,
    .call (setCwd (bitsOf [.invalidOperand])),
    .throws 7117 ((Cmd.run (.opD [(⟨⟨(f 1 0), (f (-3) (0))⟩, .trv⟩ : DItv)]))) .invalidOperand,
    .state 7118 [.invalidOperand],
    .call clearFlags,
    .call (setCwd (bitsOf []))] ExSt.init = [] := by
  decide +kernel

/-- `minimal_abs_dec_mixedtype_test` -/
example : failed [
    .call ((Cmd.run (.opD [(⟨⟨(f (-2476979795053773) (-51)), (f (-3602879701896397) (-53))⟩, .com⟩ : DItv)]))),
    .call ((Cmd.run (.opD [(⟨⟨(f 0 0), (f (13421773) (-26))⟩, .defd⟩ : DItv)]))),
    .call ((Cmd.run (.opD [(⟨⟨.nzero, (f (3602879701896397) (-54))⟩, .dac⟩ : DItv)]))),
    .call ((Cmd.run (.opD [(⟨⟨(f (-3) (-1)), .pinf⟩, .trv⟩ : DItv)]))),
    .state 7130 [],
    .call clearFlags,
    .call (do (Cmd.run (.opD [(⟨⟨(f 1 0), (f (-9007199254740991) (971))⟩, .trv⟩ : DItv)])); (Cmd.run (.opD [(if !(⟨⟨(f 1 0), (f (-9007199254740991) (971))⟩, .trv⟩ : DItv).isValid || (⟨⟨(f 1 0), (f (-9007199254740991) (971))⟩, .trv⟩ : DItv).isNai then DItv.nai else Fmt.convertHullD binary32 (Fmt.absD (Fmt.convertHullD binary64 (⟨⟨(f 1 0), (f (-9007199254740991) (971))⟩, .trv⟩ : DItv))) : DItv)]))),
    .state 7134 [.invalidOperand],
    .call clearFlags,
    .call (setCwd (bitsOf [.invalidOperand])),
    .throws 7137 ((Cmd.run (.opD [(⟨⟨(f 1 0), (f (-3) (0))⟩, .trv⟩ : DItv)]))) .invalidOperand,
    .state 7138 [.invalidOperand],
    .call clearFlags,
    .call (setCwd (bitsOf []))] ExSt.init = [] := by
  decide +kernel

/-- `minimal_min_test` -/
example : failed [
    .call (do (Cmd.run (.op [(Itv.empty : Itv), (⟨(f 1 0), (f 2 0)⟩ : Itv)])); (Cmd.run (.op [(Fmt.minI (Itv.empty : Itv) (⟨(f 1 0), (f 2 0)⟩ : Itv) : Itv)]))),
    .call (do (Cmd.run (.op [(⟨(f 1 0), (f 2 0)⟩ : Itv), (Itv.empty : Itv)])); (Cmd.run (.op [(Fmt.minI (⟨(f 1 0), (f 2 0)⟩ : Itv) (Itv.empty : Itv) : Itv)]))),
    .call (do (Cmd.run (.op [(Itv.empty : Itv), (Itv.empty : Itv)])); (Cmd.run (.op [(Fmt.minI (Itv.empty : Itv) (Itv.empty : Itv) : Itv)]))),
    .call ((Cmd.run (.op [(Itv.entire : Itv), (⟨(f 1 0), (f 2 0)⟩ : Itv)]))),
    .call ((Cmd.run (.op [(⟨(f 1 0), (f 2 0)⟩ : Itv), (Itv.entire : Itv)]))),
    .call ((Cmd.run (.op [(Itv.entire : Itv), (Itv.entire : Itv)]))),
    .call (do (Cmd.run (.op [(Itv.empty : Itv), (Itv.entire : Itv)])); (Cmd.run (.op [(Fmt.minI (Itv.empty : Itv) (Itv.entire : Itv) : Itv)]))),
    .call ((Cmd.run (.op [(⟨(f 1 0), (f 5 0)⟩ : Itv), (⟨(f 2 0), (f 4 0)⟩ : Itv)]))),
    .call ((Cmd.run (.op [(⟨(f 0 0), (f 5 0)⟩ : Itv), (⟨(f 2 0), (f 4 0)⟩ : Itv)]))),
    .call ((Cmd.run (.op [(⟨.nzero, (f 5 0)⟩ : Itv), (⟨(f 2 0), (f 4 0)⟩ : Itv)]))),
    .call ((Cmd.run (.op [(⟨(f 1 0), (f 5 0)⟩ : Itv), (⟨(f 2 0), (f 8 0)⟩ : Itv)]))),
    .call ((Cmd.run (.op [(⟨(f 1 0), (f 5 0)⟩ : Itv), (Itv.entire : Itv)]))),
    .call ((Cmd.run (.op [(⟨(f (-7) (0)), (f (-5) (0))⟩ : Itv), (⟨(f 2 0), (f 4 0)⟩ : Itv)]))),
    .call ((Cmd.run (.op [(⟨(f (-7) (0)), (f 0 0)⟩ : Itv), (⟨(f 2 0), (f 4 0)⟩ : Itv)]))),
    .call ((Cmd.run (.op [(⟨(f (-7) (0)), .nzero⟩ : Itv), (⟨(f 2 0), (f 4 0)⟩ : Itv)]))),
    .call clearFlags,
    .call (do (Cmd.run (.op [(⟨(f 1 0), (f (-9007199254740991) (971))⟩ : Itv), (⟨(f 1 0), (f 2 0)⟩ : Itv)])); (Cmd.run (.op [(Fmt.minI (⟨(f 1 0), (f (-9007199254740991) (971))⟩ : Itv) (⟨(f 1 0), (f 2 0)⟩ : Itv) : Itv)]))),
    .state 7167 [.invalidOperand],
    .call clearFlags,
    .call (setCwd (bitsOf [.invalidOperand])),
    .throws 7170 ((Cmd.run (.op [(⟨(f 1 0), (f 3 0)⟩ : Itv), (⟨(f 1 0), (f (-3) (0))⟩ : Itv)]))) .invalidOperand,
    .state 7171 [.invalidOperand],
    .call clearFlags,
    .call (setCwd (bitsOf []))] ExSt.init = [] := by
  decide +kernel

/-- `minimal_min_mixedtype_test` -/
example : failed [
    .call ((Cmd.run (.op [(Itv.entire : Itv), (⟨(f 1 0), (f 2 0)⟩ : Itv)]))),
    .call ((Cmd.run (.op [(⟨(f (3602879701896397) (-55)), (f 5 0)⟩ : Itv), (⟨(f 2 0), (f (2308094809027379) (-49))⟩ : Itv)]))),
    .state 7182 [],
    .call clearFlags,
    .call (do (Cmd.run (.op [(⟨(f 1 0), (f (-9007199254740991) (971))⟩ : Itv), (⟨(f 1 0), (f 2 0)⟩ : Itv)])); (Cmd.run (.op [(if !(⟨(f 1 0), (f (-9007199254740991) (971))⟩ : Itv).isValid || !(⟨(f 1 0), (f 2 0)⟩ : Itv).isValid then Itv.empty else Fmt.convertHull binary32 (Fmt.minI (Fmt.convertHull binary64 (⟨(f 1 0), (f (-9007199254740991) (971))⟩ : Itv)) (Fmt.convertHull binary64 (⟨(f 1 0), (f 2 0)⟩ : Itv))) : Itv)]))),
    .state 7186 [.invalidOperand],
    .call clearFlags,
    .call (setCwd (bitsOf [.invalidOperand])),
    .throws 7189 ((Cmd.run (.op [(⟨(f 1 0), (f 3 0)⟩ : Itv), (⟨(f 1 0), (f (-3) (0))⟩ : Itv)]))) .invalidOperand,
    .state 7190 [.invalidOperand],
    .call clearFlags,
    .call (setCwd (bitsOf []))] ExSt.init = [] := by
  decide +kernel

/-- `minimal_min_dec_test` -/
example : failed [
    .call ((Cmd.run (.opD [(DItv.entire : DItv), (⟨⟨(f 1 0), (f 2 0)⟩, .com⟩ : DItv)]))),
    .call ((Cmd.run (.opD [(⟨⟨(f (-7) (0)), (f (-5) (0))⟩, .trv⟩ : DItv), (⟨⟨(f 2 0), (f 4 0)⟩, .defd⟩ : DItv)]))),
    .call ((Cmd.run (.opD [(⟨⟨(f (-7) (0)), (f 0 0)⟩, .dac⟩ : DItv), (⟨⟨(f 2 0), (f 4 0)⟩, .defd⟩ : DItv)]))),
    .call ((Cmd.run (.opD [(⟨⟨(f (-7) (0)), .nzero⟩, .com⟩ : DItv), (⟨⟨(f 2 0), (f 4 0)⟩, .com⟩ : DItv)]))),
    .state 7202 [],
    .call clearFlags,
    .call (do (Cmd.run (.opD [(⟨⟨(f 1 0), (f (-9007199254740991) (971))⟩, .trv⟩ : DItv), (⟨⟨(f 1 0), (f 2 0)⟩, .trv⟩ : DItv)])); (Cmd.run (.opD [(Fmt.minD (⟨⟨(f 1 0), (f (-9007199254740991) (971))⟩, .trv⟩ : DItv) (⟨⟨(f 1 0), (f 2 0)⟩, .trv⟩ : DItv) : DItv)]))),
    .state 7206 [.invalidOperand],
    .call clearFlags,
    .call (setCwd (bitsOf [.invalidOperand])),
    .throws 7209 ((Cmd.run (.opD [(⟨⟨(f 1 0), (f 3 0)⟩, .trv⟩ : DItv), (⟨⟨(f 1 0), (f (-3) (0))⟩, .trv⟩ : DItv)]))) .invalidOperand,
    .state 7210 [.invalidOperand],
    .call clearFlags,
    .call (setCwd (bitsOf []))] ExSt.init = [] := by
  decide +kernel

/-- `minimal_min_dec_mixedtype_test` -/
example : failed [
    .call ((Cmd.run (.opD [(DItv.entire : DItv), (⟨⟨(f 1 0), (f 2 0)⟩, .com⟩ : DItv)]))),
    .call ((Cmd.run (.opD [(⟨⟨(f (3602879701896397) (-55)), (f 5 0)⟩, .com⟩ : DItv), (⟨⟨(f 2 0), (f (2308094809027379) (-49))⟩, .com⟩ : DItv)]))),
    .state 7220 [],
    .call clearFlags,
    .call (do (Cmd.run (.opD [(⟨⟨(f 1 0), (f (-9007199254740991) (971))⟩, .trv⟩ : DItv), (⟨⟨(f 1 0), (f 2 0)⟩, .trv⟩ : DItv)])); (Cmd.run (.opD [(if !(⟨⟨(f 1 0), (f (-9007199254740991) (971))⟩, .trv⟩ : DItv).isValid || (⟨⟨(f 1 0), (f (-9007199254740991) (971))⟩, .trv⟩ : DItv).isNai || !(⟨⟨(f 1 0), (f 2 0)⟩, .trv⟩ : DItv).isValid || (⟨⟨(f 1 0), (f 2 0)⟩, .trv⟩ : DItv).isNai then DItv.nai else Fmt.convertHullD binary32 (Fmt.minD (Fmt.convertHullD binary64 (⟨⟨(f 1 0), (f (-9007199254740991) (971))⟩, .trv⟩ : DItv)) (Fmt.convertHullD binary64 (⟨⟨(f 1 0), (f 2 0)⟩, .trv⟩ : DItv))) : DItv)]))),
    .state 7224 [.invalidOperand],
    .call clearFlags,
    .call (setCwd (bitsOf [.invalidOperand])),
    .throws 7227 ((Cmd.run (.opD [(⟨⟨(f 1 0), (f 3 0)⟩, .trv⟩ : DItv), (⟨⟨(f 1 0), (f (-3) (0))⟩, .trv⟩ : DItv)]))) .invalidOperand,
    .state 7228 [.invalidOperand],
    .call clearFlags,
    .call (setCwd (bitsOf []))] ExSt.init = [] := by
  decide +kernel

/-- `minimal_max_test` -/
example : failed [
    .call (do (Cmd.run (.op [(Itv.empty : Itv), (⟨(f 1 0), (f 2 0)⟩ : Itv)])); (Cmd.run (.op [(Fmt.maxI (Itv.empty : Itv) (⟨(f 1 0), (f 2 0)⟩ : Itv) : Itv)]))),
    .call (do (Cmd.run (.op [(⟨(f 1 0), (f 2 0)⟩ : Itv), (Itv.empty : Itv)])); (Cmd.run (.op [(Fmt.maxI (⟨(f 1 0), (f 2 0)⟩ : Itv) (Itv.empty : Itv) : Itv)]))),
    .call (do (Cmd.run (.op [(Itv.empty : Itv), (Itv.empty : Itv)])); (Cmd.run (.op [(Fmt.maxI (Itv.empty : Itv) (Itv.empty : Itv) : Itv)]))),
    .call ((Cmd.run (.op [(Itv.entire : Itv), (⟨(f 1 0), (f 2 0)⟩ : Itv)]))),
    .call ((Cmd.run (.op [(⟨(f 1 0), (f 2 0)⟩ : Itv), (Itv.entire : Itv)]))),
    .call ((Cmd.run (.op [(Itv.entire : Itv), (Itv.entire : Itv)]))),
    .call (do (Cmd.run (.op [(Itv.empty : Itv), (Itv.entire : Itv)])); (Cmd.run (.op [(Fmt.maxI (Itv.empty : Itv) (Itv.entire : Itv) : Itv)]))),
    .call ((Cmd.run (.op [(⟨(f 1 0), (f 5 0)⟩ : Itv), (⟨(f 2 0), (f 4 0)⟩ : Itv)]))),
    .call ((Cmd.run (.op [(⟨(f 1 0), (f 5 0)⟩ : Itv), (⟨(f 2 0), (f 8 0)⟩ : Itv)]))),
    .call ((Cmd.run (.op [(⟨(f (-1) (0)), (f 5 0)⟩ : Itv), (Itv.entire : Itv)]))),
    .call ((Cmd.run (.op [(⟨(f (-7) (0)), (f (-5) (0))⟩ : Itv), (⟨(f 2 0), (f 4 0)⟩ : Itv)]))),
    .call ((Cmd.run (.op [(⟨(f (-7) (0)), (f (-5) (0))⟩ : Itv), (⟨(f 0 0), (f 4 0)⟩ : Itv)]))),
    .call ((Cmd.run (.op [(⟨(f (-7) (0)), (f (-5) (0))⟩ : Itv), (⟨.nzero, (f 4 0)⟩ : Itv)]))),
    .call ((Cmd.run (.op [(⟨(f (-7) (0)), (f (-5) (0))⟩ : Itv), (⟨(f (-2) (0)), (f 0 0)⟩ : Itv)]))),
    .call ((Cmd.run (.op [(⟨(f (-7) (0)), (f (-5) (0))⟩ : Itv), (⟨(f (-2) (0)), .nzero⟩ : Itv)]))),
    .call clearFlags,
    .call (do (Cmd.run (.op [(⟨(f 1 0), (f (-9007199254740991) (971))⟩ : Itv), (⟨(f 1 0), (f 2 0)⟩ : Itv)])); (Cmd.run (.op [(Fmt.maxI (⟨(f 1 0), (f (-9007199254740991) (971))⟩ : Itv) (⟨(f 1 0), (f 2 0)⟩ : Itv) : Itv)]))),
    .state 7257 [.invalidOperand],
    .call clearFlags,
    .call (setCwd (bitsOf [.invalidOperand])),
    .throws 7260 ((Cmd.run (.op [(⟨(f 1 0), (f 3 0)⟩ : Itv), (⟨(f 1 0), (f (-3) (0))⟩ : Itv)]))) .invalidOperand,
    .state 7261 [.invalidOperand],
    .call clearFlags,
    .call (setCwd (bitsOf []))] ExSt.init = [] := by
  decide +kernel

/-- `minimal_max_mixedtype_test` -/
example : failed [
    .call ((Cmd.run (.op [(Itv.entire : Itv), (⟨(f 1 0), (f 2 0)⟩ : Itv)]))),
    .call ((Cmd.run (.op [(⟨(f (3602879701896397) (-55)), (f 3 0)⟩ : Itv), (⟨(f (-2) (0)), (f (2308094809027379) (-49))⟩ : Itv)]))),
    .state 7271 [],
    .call clearFlags,
    .call (do (Cmd.run (.op [(⟨(f 1 0), (f (-9007199254740991) (971))⟩ : Itv), (⟨(f 1 0), (f 2 0)⟩ : Itv)])); (Cmd.run (.op [(if !(⟨(f 1 0), (f (-9007199254740991) (971))⟩ : Itv).isValid || !(⟨(f 1 0), (f 2 0)⟩ : Itv).isValid then Itv.empty else Fmt.convertHull binary32 (Fmt.maxI (Fmt.convertHull binary64 (⟨(f 1 0), (f (-9007199254740991) (971))⟩ : Itv)) (Fmt.convertHull binary64 (⟨(f 1 0), (f 2 0)⟩ : Itv))) : Itv)]))),
    .state 7275 [.invalidOperand],
    .call clearFlags,
    .call (setCwd (bitsOf [.invalidOperand])),
    .throws 7278 ((Cmd.run (.op [(⟨(f 1 0), (f 3 0)⟩ : Itv), (⟨(f 1 0), (f (-3) (0))⟩ : Itv)]))) .invalidOperand,
    .state 7279 [.invalidOperand],
    .call clearFlags,
    .call (setCwd (bitsOf []))] ExSt.init = [] := by
  decide +kernel

/-- `minimal_max_dec_test` -/
example : failed [
    .call ((Cmd.run (.opD [(DItv.entire : DItv), (⟨⟨(f 1 0), (f 2 0)⟩, .com⟩ : DItv)]))),
    .call ((Cmd.run (.opD [(⟨⟨(f (-7) (0)), (f (-5) (0))⟩, .trv⟩ : DItv), (⟨⟨(f 2 0), (f 4 0)⟩, .defd⟩ : DItv)]))),
    .call ((Cmd.run (.opD [(⟨⟨(f (-7) (0)), (f 5 0)⟩, .dac⟩ : DItv), (⟨⟨(f 2 0), (f 4 0)⟩, .defd⟩ : DItv)]))),
    .call ((Cmd.run (.opD [(⟨⟨(f 3 0), (f (7) (-1))⟩, .com⟩ : DItv), (⟨⟨(f 2 0), (f 4 0)⟩, .com⟩ : DItv)]))),
    .state 7291 [],
    .call clearFlags,
    .call (do (Cmd.run (.opD [(⟨⟨(f 1 0), (f (-9007199254740991) (971))⟩, .trv⟩ : DItv), (⟨⟨(f 1 0), (f 2 0)⟩, .trv⟩ : DItv)])); (Cmd.run (.opD [(Fmt.maxD (⟨⟨(f 1 0), (f (-9007199254740991) (971))⟩, .trv⟩ : DItv) (⟨⟨(f 1 0), (f 2 0)⟩, .trv⟩ : DItv) : DItv)]))),
    .state 7295 [.invalidOperand],
    .call clearFlags,
    .call (setCwd (bitsOf [.invalidOperand])),
    .throws 7298 ((Cmd.run (.opD [(⟨⟨(f 1 0), (f 3 0)⟩, .trv⟩ : DItv), (⟨⟨(f 1 0), (f (-3) (0))⟩, .trv⟩ : DItv)]))) .invalidOperand,
    .state 7299 [.invalidOperand],
    .call clearFlags,
    .call (setCwd (bitsOf []))] ExSt.init = [] := by
  decide +kernel

/-- `minimal_max_dec_mixedtype_test` -/
example : failed [
    .call ((Cmd.run (.opD [(DItv.entire : DItv), (⟨⟨(f 1 0), (f 2 0)⟩, .com⟩ : DItv)]))),
    .call ((Cmd.run (.opD [(⟨⟨(f (3602879701896397) (-55)), (f 3 0)⟩, .com⟩ : DItv), (⟨⟨(f (-2) (0)), (f (2308094809027379) (-49))⟩, .com⟩ : DItv)]))),
    .state 7309 [],
    .call clearFlags,
    .call (do (Cmd.run (.opD [(⟨⟨(f 1 0), (f (-9007199254740991) (971))⟩, .trv⟩ : DItv), (⟨⟨(f 1 0), (f 2 0)⟩, .trv⟩ : DItv)])); (Cmd.run (.opD [(if !(⟨⟨(f 1 0), (f (-9007199254740991) (971))⟩, .trv⟩ : DItv).isValid || (⟨⟨(f 1 0), (f (-9007199254740991) (971))⟩, .trv⟩ : DItv).isNai || !(⟨⟨(f 1 0), (f 2 0)⟩, .trv⟩ : DItv).isValid || (⟨⟨(f 1 0), (f 2 0)⟩, .trv⟩ : DItv).isNai then DItv.nai else Fmt.convertHullD binary32 (Fmt.maxD (Fmt.convertHullD binary64 (⟨⟨(f 1 0), (f (-9007199254740991) (971))⟩, .trv⟩ : DItv)) (Fmt.convertHullD binary64 (⟨⟨(f 1 0), (f 2 0)⟩, .trv⟩ : DItv))) : DItv)]))),
    .state 7313 [.invalidOperand],
    .call clearFlags,
    .call (setCwd (bitsOf [.invalidOperand])),
    .throws 7316 ((Cmd.run (.opD [(⟨⟨(f 1 0), (f 3 0)⟩, .trv⟩ : DItv), (⟨⟨(f 1 0), (f (-3) (0))⟩, .trv⟩ : DItv)]))) .invalidOperand,
    .state 7317 [.invalidOperand],
    .call clearFlags,
    .call (setCwd (bitsOf []))] ExSt.init = [] := by
  decide +kernel

end P1788.Conform
