import Verif.Conform.Basic

/-!
# Conformance: class, exceptions

Generated from `/repo/test/p1788/flavor/infsup/setbased/test_mpfr_bin_ieee754_flavor_class.cpp`: the assertions of the project's own test suite, evaluated in the
model by the kernel.  Each test case is the list of its calls and of its
assertions, with their lines, about the exception flags and about thrown exceptions.  These are tests of the model, not proofs of
properties.
-/

set_option maxRecDepth 100000

namespace P1788.Conform

/-- `minimal_empty_test` -/
example : failed [
    .call clearFlags,
    .state 67 []] ExSt.init = [] := by
  decide +kernel

/-- `minimal_empty_dec_test` -/
example : failed [
    .call clearFlags,
    .state 78 []] ExSt.init = [] := by
  decide +kernel

/-- `minimal_entire_test` -/
example : failed [
    .call clearFlags,
    .state 88 []] ExSt.init = [] := by
  decide +kernel

/-- `minimal_entire_dec_test` -/
example : failed [
    .call clearFlags,
    .state 100 []] ExSt.init = [] := by
  decide +kernel

/-- `minimal_nai_test` -/
example : failed [
    .call clearFlags,
    .state 112 []] ExSt.init = [] := by
  decide +kernel

/-- `minimal_nums_to_interval_test` -/
example : failed [
    .call clearFlags,
    .call ((Cmd.run (.nums (f (-1) (0)) (f 1 0)))),
    .call ((Cmd.run (.nums .ninf (f 1 0)))),
    .call ((Cmd.run (.nums (f (-1) (0)) .pinf))),
    .call ((Cmd.run (.nums .ninf .pinf))),
    .state 126 [],
    .call ((Cmd.run (.nums .nan .nan))),
    .state 129 [.undefinedOperation],
    .call clearFlags,
    .call ((Cmd.run (.nums .nan .nan))),
    .state 132 [.undefinedOperation],
    .call clearFlags,
    .call ((Cmd.run (.nums (f 1 0) (f (-1) (0))))),
    .state 135 [.undefinedOperation],
    .call clearFlags,
    .call ((Cmd.run (.nums (f 1 0) (f (-1) (0))))),
    .state 138 [.undefinedOperation],
    .call clearFlags,
    .call ((Cmd.run (.nums .ninf .ninf))),
    .state 141 [.undefinedOperation],
    .call clearFlags,
    .call ((Cmd.run (.nums .ninf .ninf))),
    .state 144 [.undefinedOperation],
    .call clearFlags,
    .call ((Cmd.run (.nums .pinf .pinf))),
    .state 147 [.undefinedOperation],
    .call clearFlags,
    .call ((Cmd.run (.nums .pinf .pinf))),
    .state 150 [.undefinedOperation],
    .call clearFlags,
    .call (setCwd (bitsOf [.undefinedOperation])),
    .throws 154 ((Cmd.run (.nums .pinf .pinf))) .undefinedOperation,
    .state 155 [.undefinedOperation],
    .call clearFlags,
    .call (setCwd (bitsOf []))] ExSt.init = [] := by
  decide +kernel

/-- `minimal_nums_to_decorated_interval_test` -/
example : failed [
    .call clearFlags,
    .call ((Cmd.run (.numsD (f (-1) (0)) (f 1 0)))),
    .call ((Cmd.run (.numsD .ninf (f 1 0)))),
    .call ((Cmd.run (.numsD (f (-1) (0)) .pinf))),
    .call ((Cmd.run (.numsD .ninf .pinf))),
    .state 169 [],
    .call ((Cmd.run (.numsD .nan .nan))),
    .state 172 [.undefinedOperation],
    .call clearFlags,
    .call ((Cmd.run (.numsD .nan .nan))),
    .state 175 [.undefinedOperation],
    .call clearFlags,
    .call ((Cmd.run (.numsD .nan .nan))),
    .state 178 [.undefinedOperation],
    .call clearFlags,
    .call ((Cmd.run (.numsD (f 1 0) (f (-1) (0))))),
    .state 181 [.undefinedOperation],
    .call clearFlags,
    .call ((Cmd.run (.numsD (f 1 0) (f (-1) (0))))),
    .state 184 [.undefinedOperation],
    .call clearFlags,
    .call ((Cmd.run (.numsD (f 1 0) (f (-1) (0))))),
    .state 187 [.undefinedOperation],
    .call clearFlags,
    .call ((Cmd.run (.numsD .ninf .ninf))),
    .state 190 [.undefinedOperation],
    .call clearFlags,
    .call ((Cmd.run (.numsD .ninf .ninf))),
    .state 193 [.undefinedOperation],
    .call clearFlags,
    .call ((Cmd.run (.numsD .ninf .ninf))),
    .state 196 [.undefinedOperation],
    .call clearFlags,
    .call ((Cmd.run (.numsD .pinf .pinf))),
    .state 199 [.undefinedOperation],
    .call clearFlags,
    .call ((Cmd.run (.numsD .pinf .pinf))),
    .state 202 [.undefinedOperation],
    .call clearFlags,
    .call ((Cmd.run (.numsD .pinf .pinf))),
    .state 205 [.undefinedOperation],
    .call clearFlags,
    .call (setCwd (bitsOf [.undefinedOperation])),
    .throws 209 ((Cmd.run (.numsD .pinf .pinf))) .undefinedOperation,
    .state 210 [.undefinedOperation],
    .call clearFlags,
    .call (setCwd (bitsOf []))] ExSt.init = [] := by
  decide +kernel

/-- `minimal_nums_to_interval_mixedtype_test` -/
example : failed [
    .call clearFlags,
    .call ((Cmd.run (.numsMixed binary32 (f (-1) (0)) (f 1 0)))),
    .call ((Cmd.run (.numsMixed binary32 .ninf (f 1 0)))),
    .call ((Cmd.run (.numsMixed binary32 (f (-1) (0)) .pinf))),
    .call ((Cmd.run (.numsMixed binary32 .ninf .pinf))),
    .call ((Cmd.run (.numsMixed binary32 (f (-9007199254740991) (971)) (f 9007199254740991 971)))),
    .call ((Cmd.run (.numsMixed binary32 (f (1) (-1074)) (f (1) (-1074))))),
    .call ((Cmd.run (.numsMixed binary32 (f (-1) (-1074)) (f (-1) (-1074))))),
    .call ((Cmd.run (.numsMixed binary32 (f (-1) (-1074)) (f (1) (-1074))))),
    .call ((Cmd.run (.numsMixed binary32 (f (-3602879824865869) (-47)) (f (7205759403792793) (-56))))),
    .call ((Cmd.run (.numsMixed binary64 (f (-6710887) (-18)) (f (13421773) (-27))))),
    .call ((Cmd.run (.numsMixed binary64 (f (-1) (0)) (f 1 0)))),
    .call ((Cmd.run (.numsMixed binary64 .ninf (f 1 0)))),
    .call ((Cmd.run (.numsMixed binary64 (f (-1) (0)) .pinf))),
    .call ((Cmd.run (.nums .ninf .pinf))),
    .state 235 [],
    .call (do (Cmd.run (.numsMixed binary32 (f (-1) (-1074)) (f (-1) (-149)))); (Cmd.run (.op [(ret <| Fmt.numsToIntervalMixed binary32 (f (-1) (-1074)) (f (-1) (-149)) : Itv)]))),
    .state 238 [.undefinedOperation],
    .call clearFlags,
    .call (do (Cmd.run (.numsMixed binary32 (f 1 0) (f (-1) (0)))); (Cmd.run (.op [(ret <| Fmt.numsToIntervalMixed binary32 (f 1 0) (f (-1) (0)) : Itv)]))),
    .state 241 [.undefinedOperation],
    .call clearFlags,
    .call (do (Cmd.run (.numsMixed binary32 .ninf .ninf)); (Cmd.run (.op [(ret <| Fmt.numsToIntervalMixed binary32 .ninf .ninf : Itv)]))),
    .state 244 [.undefinedOperation],
    .call clearFlags,
    .call (do (Cmd.run (.numsMixed binary32 .pinf .pinf)); (Cmd.run (.op [(ret <| Fmt.numsToIntervalMixed binary32 .pinf .pinf : Itv)]))),
    .state 247 [.undefinedOperation],
    .call clearFlags,
    .call (do (Cmd.run (.numsMixed binary64 (f 1 0) (f (-1) (0)))); (Cmd.run (.op [(ret <| Fmt.numsToIntervalMixed binary64 (f 1 0) (f (-1) (0)) : Itv)]))),
    .state 250 [.undefinedOperation],
    .call clearFlags,
    .call (do (Cmd.run (.nums .ninf .ninf)); (Cmd.run (.op [(ret <| numsToInterval .ninf .ninf : Itv)]))),
    .state 253 [.undefinedOperation],
    .call clearFlags,
    .call (do (Cmd.run (.nums .pinf .pinf)); (Cmd.run (.op [(ret <| numsToInterval .pinf .pinf : Itv)]))),
    .state 256 [.undefinedOperation],
    .call clearFlags,
    .call (setCwd (bitsOf [.undefinedOperation])),
    .throws 260 ((Cmd.run (.numsMixed binary32 (f 1 0) (f (-1) (0))))) .undefinedOperation,
    .state 261 [.undefinedOperation],
    .call clearFlags,
    .throws 263 ((Cmd.run (.nums .pinf .pinf))) .undefinedOperation,
    .state 264 [.undefinedOperation],
    .call clearFlags,
    .call (setCwd (bitsOf []))] ExSt.init = [] := by
  decide +kernel

/-- `minimal_nums_to_decorated_interval_mixedtype_test` -/
example : failed [
    .call clearFlags,
    .call ((Cmd.run (.numsMixedD binary32 (f (-1) (0)) (f 1 0)))),
    .call ((Cmd.run (.numsMixedD binary32 .ninf (f 1 0)))),
    .call ((Cmd.run (.numsMixedD binary32 (f (-1) (0)) .pinf))),
    .call ((Cmd.run (.numsMixedD binary32 .ninf .pinf))),
    .call ((Cmd.run (.numsMixedD binary32 (f (-9007199254740991) (971)) (f 9007199254740991 971)))),
    .call ((Cmd.run (.numsMixedD binary32 (f (1) (-1074)) (f (1) (-1074))))),
    .call ((Cmd.run (.numsMixedD binary32 (f (-1) (-1074)) (f (-1) (-1074))))),
    .call ((Cmd.run (.numsMixedD binary32 (f (-1) (-1074)) (f (1) (-1074))))),
    .call ((Cmd.run (.numsMixedD binary32 (f (-3602879824865869) (-47)) (f (7205759403792793) (-56))))),
    .call ((Cmd.run (.numsMixedD binary64 (f (-6710887) (-18)) (f (13421773) (-27))))),
    .call ((Cmd.run (.numsMixedD binary64 (f (-1) (0)) (f 1 0)))),
    .call ((Cmd.run (.numsMixedD binary64 .ninf (f 1 0)))),
    .call ((Cmd.run (.numsMixedD binary64 (f (-1) (0)) .pinf))),
    .call ((Cmd.run (.numsD .ninf .pinf))),
    .state 288 [],
    .call (do (Cmd.run (.numsMixedD binary32 (f (-1) (-1074)) (f (-1) (-149)))); (Cmd.run (.opD [(ret <| Fmt.numsToDecoratedMixed binary32 (f (-1) (-1074)) (f (-1) (-149)) : DItv)]))),
    .state 291 [.undefinedOperation],
    .call clearFlags,
    .call (do (Cmd.run (.numsMixedD binary32 (f 1 0) (f (-1) (0)))); (Cmd.run (.opD [(ret <| Fmt.numsToDecoratedMixed binary32 (f 1 0) (f (-1) (0)) : DItv)]))),
    .state 294 [.undefinedOperation],
    .call clearFlags,
    .call (do (Cmd.run (.numsMixedD binary32 .ninf .ninf)); (Cmd.run (.opD [(ret <| Fmt.numsToDecoratedMixed binary32 .ninf .ninf : DItv)]))),
    .state 297 [.undefinedOperation],
    .call clearFlags,
    .call (do (Cmd.run (.numsMixedD binary32 .pinf .pinf)); (Cmd.run (.opD [(ret <| Fmt.numsToDecoratedMixed binary32 .pinf .pinf : DItv)]))),
    .state 300 [.undefinedOperation],
    .call clearFlags,
    .call (do (Cmd.run (.numsMixedD binary64 (f 1 0) (f (-1) (0)))); (Cmd.run (.opD [(ret <| Fmt.numsToDecoratedMixed binary64 (f 1 0) (f (-1) (0)) : DItv)]))),
    .state 303 [.undefinedOperation],
    .call clearFlags,
    .call (do (Cmd.run (.numsD .ninf .ninf)); (Cmd.run (.opD [(ret <| numsToDecorated .ninf .ninf : DItv)]))),
    .state 306 [.undefinedOperation],
    .call clearFlags,
    .call (do (Cmd.run (.numsD .pinf .pinf)); (Cmd.run (.opD [(ret <| numsToDecorated .pinf .pinf : DItv)]))),
    .state 309 [.undefinedOperation],
    .call clearFlags,
    .call (setCwd (bitsOf [.undefinedOperation])),
    .throws 314 ((Cmd.run (.numsMixedD binary32 .ninf .ninf))) .undefinedOperation,
    .state 315 [.undefinedOperation],
    .call clearFlags,
    .throws 317 ((Cmd.run (.numsD .pinf .pinf))) .undefinedOperation,
    .state 318 [.undefinedOperation],
    .call clearFlags,
    .call (setCwd (bitsOf []))] ExSt.init = [] := by
  decide +kernel

/-- `minimal_nums_dec_to_decorated_interval_test` -/
example : failed [
    .call clearFlags,
    .call ((Cmd.run (.numsDec (f (-1) (0)) (f 1 0) (raw .trv)))),
    .call ((Cmd.run (.numsDec .ninf (f 1 0) (raw .defd)))),
    .call ((Cmd.run (.numsDec (f (-1) (0)) .pinf (raw .trv)))),
    .call ((Cmd.run (.numsDec .ninf .pinf (raw .dac)))),
    .state 333 [],
    .call ((Cmd.run (.numsDec .nan .nan (raw .ill)))),
    .state 336 [.undefinedOperation],
    .call clearFlags,
    .call ((Cmd.run (.numsDec .nan .nan (raw .ill)))),
    .state 339 [.undefinedOperation],
    .call clearFlags,
    .call ((Cmd.run (.numsDec .nan .nan (raw .ill)))),
    .state 342 [.undefinedOperation],
    .call clearFlags,
    .call ((Cmd.run (.numsDec .nan .nan (raw .trv)))),
    .state 345 [.undefinedOperation],
    .call clearFlags,
    .call ((Cmd.run (.numsDec .nan .nan (raw .trv)))),
    .state 348 [.undefinedOperation],
    .call clearFlags,
    .call ((Cmd.run (.numsDec .nan .nan (raw .trv)))),
    .state 351 [.undefinedOperation],
    .call clearFlags,
    .call ((Cmd.run (.numsDec (f 1 0) (f (-1) (0)) (raw .defd)))),
    .state 354 [.undefinedOperation],
    .call clearFlags,
    .call ((Cmd.run (.numsDec (f 1 0) (f (-1) (0)) (raw .defd)))),
    .state 357 [.undefinedOperation],
    .call clearFlags,
    .call ((Cmd.run (.numsDec (f 1 0) (f (-1) (0)) (raw .defd)))),
    .state 360 [.undefinedOperation],
    .call clearFlags,
    .call ((Cmd.run (.numsDec .ninf .ninf (raw .dac)))),
    .state 363 [.undefinedOperation],
    .call clearFlags,
    .call ((Cmd.run (.numsDec .ninf .ninf (raw .dac)))),
    .state 366 [.undefinedOperation],
    .call clearFlags,
    .call ((Cmd.run (.numsDec .ninf .ninf (raw .dac)))),
    .state 369 [.undefinedOperation],
    .call clearFlags,
    .call ((Cmd.run (.numsDec .pinf .pinf (raw .defd)))),
    .state 372 [.undefinedOperation],
    .call clearFlags,
    .call ((Cmd.run (.numsDec .pinf .pinf (raw .defd)))),
    .state 375 [.undefinedOperation],
    .call clearFlags,
    .call ((Cmd.run (.numsDec .pinf .pinf (raw .defd)))),
    .state 378 [.undefinedOperation],
    .call clearFlags,
    .call ((Cmd.run (.numsDec .ninf .pinf (raw .com)))),
    .state 381 [.undefinedOperation],
    .call clearFlags,
    .call ((Cmd.run (.numsDec .ninf .pinf (raw .com)))),
    .state 384 [.undefinedOperation],
    .call clearFlags,
    .call ((Cmd.run (.numsDec .ninf .pinf (raw .com)))),
    .state 387 [.undefinedOperation],
    .call clearFlags,
    .call ((Cmd.run (.numsDec (f 1 0) (f 2 0) 13))),
    .state 393 [.invalidOperand],
    .call clearFlags,
    .call ((Cmd.run (.numsDec (f 1 0) (f 2 0) 13))),
    .state 396 [.invalidOperand],
    .call clearFlags,
    .call ((Cmd.run (.numsDec (f 1 0) (f 2 0) 13))),
    .state 399 [.invalidOperand],
    .call clearFlags,
    .call (setCwd (bitsOf [.undefinedOperation])),
    .throws 403 ((Cmd.run (.numsDec .pinf .pinf (raw .trv)))) .undefinedOperation,
    .state 404 [.undefinedOperation],
    .call clearFlags,
    .call (setCwd (bitsOf [.invalidOperand])),
    .throws 408 ((Cmd.run (.numsDec (f 1 0) (f 2 0) 13))) .invalidOperand,
    .state 409 [.invalidOperand],
    .call clearFlags,
    .call (setCwd (bitsOf []))] ExSt.init = [] := by
  decide +kernel

/-- `minimal_nums_dec_to_decorated_interval_mixedtype_test` -/
example : failed [
    .call clearFlags,
    .call ((Cmd.run (.numsDecMixed binary32 (f (-1) (0)) (f 1 0) (raw .trv)))),
    .call ((Cmd.run (.numsDecMixed binary32 .ninf (f 1 0) (raw .defd)))),
    .call ((Cmd.run (.numsDecMixed binary32 (f (-1) (0)) .pinf (raw .defd)))),
    .call ((Cmd.run (.numsDecMixed binary32 .ninf .pinf (raw .dac)))),
    .call ((Cmd.run (.numsDecMixed binary32 (f (-9007199254740991) (971)) (f 9007199254740991 971) (raw .com)))),
    .call ((Cmd.run (.numsDecMixed binary32 (f (1) (-1074)) (f (1) (-1074)) (raw .defd)))),
    .call ((Cmd.run (.numsDecMixed binary32 (f (-1) (-1074)) (f (-1) (-1074)) (raw .com)))),
    .call ((Cmd.run (.numsDecMixed binary32 (f (-1) (-1074)) (f (1) (-1074)) (raw .defd)))),
    .call ((Cmd.run (.numsDecMixed binary32 (f (-3602879824865869) (-47)) (f (7205759403792793) (-56)) (raw .dac)))),
    .call ((Cmd.run (.numsDecMixed binary64 (f (-6710887) (-18)) (f (13421773) (-27)) (raw .com)))),
    .call ((Cmd.run (.numsDecMixed binary64 (f (-1) (0)) (f 1 0) (raw .trv)))),
    .call ((Cmd.run (.numsDecMixed binary64 .ninf (f 1 0) (raw .defd)))),
    .call ((Cmd.run (.numsDecMixed binary64 (f (-1) (0)) .pinf (raw .dac)))),
    .call ((Cmd.run (.numsDec .ninf .pinf (raw .trv)))),
    .state 433 [],
    .call (do (Cmd.run (.numsDecMixed binary32 (f (-1) (-1074)) (f (-1) (-149)) (raw .trv))); (Cmd.run (.opD [(ret <| Fmt.numsDecToDecoratedMixed binary32 (f (-1) (-1074)) (f (-1) (-149)) (raw .trv) : DItv)]))),
    .state 436 [.undefinedOperation],
    .call clearFlags,
    .call (do (Cmd.run (.numsDecMixed binary32 (f 1 0) (f (-1) (0)) (raw .dac))); (Cmd.run (.opD [(ret <| Fmt.numsDecToDecoratedMixed binary32 (f 1 0) (f (-1) (0)) (raw .dac) : DItv)]))),
    .state 439 [.undefinedOperation],
    .call clearFlags,
    .call (do (Cmd.run (.numsDecMixed binary32 .ninf .ninf (raw .defd))); (Cmd.run (.opD [(ret <| Fmt.numsDecToDecoratedMixed binary32 .ninf .ninf (raw .defd) : DItv)]))),
    .state 442 [.undefinedOperation],
    .call clearFlags,
    .call (do (Cmd.run (.numsDecMixed binary32 .pinf .pinf (raw .defd))); (Cmd.run (.opD [(ret <| Fmt.numsDecToDecoratedMixed binary32 .pinf .pinf (raw .defd) : DItv)]))),
    .state 445 [.undefinedOperation],
    .call clearFlags,
    .call (do (Cmd.run (.numsDecMixed binary64 (f 1 0) (f (-1) (0)) (raw .trv))); (Cmd.run (.opD [(ret <| Fmt.numsDecToDecoratedMixed binary64 (f 1 0) (f (-1) (0)) (raw .trv) : DItv)]))),
    .state 448 [.undefinedOperation],
    .call clearFlags,
    .call (do (Cmd.run (.numsDec .ninf .ninf (raw .defd))); (Cmd.run (.opD [(ret <| numsDecToDecorated .ninf .ninf (raw .defd) : DItv)]))),
    .state 451 [.undefinedOperation],
    .call clearFlags,
    .call (do (Cmd.run (.numsDec .pinf .pinf (raw .dac))); (Cmd.run (.opD [(ret <| numsDecToDecorated .pinf .pinf (raw .dac) : DItv)]))),
    .state 454 [.undefinedOperation],
    .call clearFlags,
    .call (do (Cmd.run (.numsDec .ninf .pinf (raw .com))); (Cmd.run (.opD [(ret <| numsDecToDecorated .ninf .pinf (raw .com) : DItv)]))),
    .state 457 [.undefinedOperation],
    .call clearFlags,
    .call ((Cmd.run (.numsDecMixed binary64 (f 1 0) (f 2 0) 13))),
    .state 463 [.invalidOperand],
    .call clearFlags,
    .call ((Cmd.run (.numsDecMixed binary64 (f 1 0) (f 2 0) 13))),
    .state 466 [.invalidOperand],
    .call clearFlags,
    .call ((Cmd.run (.numsDecMixed binary64 (f 1 0) (f 2 0) 13))),
    .state 469 [.invalidOperand],
    .call clearFlags,
    .call (setCwd (bitsOf [.undefinedOperation])),
    .throws 473 ((Cmd.run (.numsDecMixed binary32 .ninf .ninf (raw .trv)))) .undefinedOperation,
    .state 474 [.undefinedOperation],
    .call clearFlags,
    .throws 476 ((Cmd.run (.numsDec .pinf .pinf (raw .defd)))) .undefinedOperation,
    .state 477 [.undefinedOperation],
    .call clearFlags,
    .call (setCwd (bitsOf [.invalidOperand])),
    .throws 481 ((Cmd.run (.numsDecMixed binary64 (f 1 0) (f 2 0) 13))) .invalidOperand,
    .state 482 [.invalidOperand],
    .call clearFlags,
    .call (setCwd (bitsOf []))] ExSt.init = [] := by
  decide +kernel

/-- `minimal_text_to_interval_test` -/
example : failed [
    .call clearFlags,
    .call (do (runS <| Fmt.textToInterval binary64 ("[ Empty  ]" : String).toList); (Cmd.run (.op [(retS <| Fmt.textToInterval binary64 ("[ Empty  ]" : String).toList : Itv)]))),
    .call (do (runS <| Fmt.textToInterval binary64 ("[ Empty  ]_trv" : String).toList); (Cmd.run (.op [(retS <| Fmt.textToInterval binary64 ("[ Empty  ]_trv" : String).toList : Itv)]))),
    .call (do (runS <| Fmt.textToInterval binary64 ("[  ]" : String).toList); (Cmd.run (.op [(retS <| Fmt.textToInterval binary64 ("[  ]" : String).toList : Itv)]))),
    .call (do (runS <| Fmt.textToInterval binary64 ("[  ]_trv" : String).toList); (Cmd.run (.op [(retS <| Fmt.textToInterval binary64 ("[  ]_trv" : String).toList : Itv)]))),
    .call ((runS <| Fmt.textToInterval binary64 ("[,]" : String).toList)),
    .call ((runS <| Fmt.textToInterval binary64 ("[,]_trv" : String).toList)),
    .call ((runS <| Fmt.textToInterval binary64 ("[ entire  ]" : String).toList)),
    .call ((runS <| Fmt.textToInterval binary64 ("[ ENTIRE ]_dac" : String).toList)),
    .call ((runS <| Fmt.textToInterval binary64 ("[ -inf , INF  ]" : String).toList)),
    .call ((runS <| Fmt.textToInterval binary64 ("[ -inf, INF ]_def" : String).toList)),
    .call ((runS <| Fmt.textToInterval binary64 ("[-1.0,1.0]" : String).toList)),
    .call ((runS <| Fmt.textToInterval binary64 ("[  -1.0  ,  1.0  ]_com" : String).toList)),
    .call ((runS <| Fmt.textToInterval binary64 ("[  -1.0  , 1.0]_trv" : String).toList)),
    .call ((runS <| Fmt.textToInterval binary64 ("[-1,]" : String).toList)),
    .call ((runS <| Fmt.textToInterval binary64 ("[-1.0, +inf]_def" : String).toList)),
    .call ((runS <| Fmt.textToInterval binary64 ("[-1.0, +infinity]_def" : String).toList)),
    .call ((runS <| Fmt.textToInterval binary64 ("[-Inf, 1.000 ]" : String).toList)),
    .call ((runS <| Fmt.textToInterval binary64 ("[-Infinity, 1.000 ]_trv" : String).toList)),
    .call ((runS <| Fmt.textToInterval binary64 ("[1.0E+400 ]_com" : String).toList)),
    .call ((runS <| Fmt.textToInterval binary64 ("[ -4/2, 10/5 ]_com" : String).toList)),
    .call ((runS <| Fmt.textToInterval binary64 ("[ -1/10, 1/10 ]_com" : String).toList)),
    .call ((runS <| Fmt.textToInterval binary64 ("0.0?" : String).toList)),
    .call ((runS <| Fmt.textToInterval binary64 ("0.0?u_trv" : String).toList)),
    .call ((runS <| Fmt.textToInterval binary64 ("0.0?d_dac" : String).toList)),
    .call ((runS <| Fmt.textToInterval binary64 ("2.5?" : String).toList)),
    .call ((runS <| Fmt.textToInterval binary64 ("2.5?u" : String).toList)),
    .call ((runS <| Fmt.textToInterval binary64 ("2.5?d_trv" : String).toList)),
    .call ((runS <| Fmt.textToInterval binary64 ("0.000?5" : String).toList)),
    .call ((runS <| Fmt.textToInterval binary64 ("0.000?5u_def" : String).toList)),
    .call ((runS <| Fmt.textToInterval binary64 ("0.000?5d" : String).toList)),
    .call ((runS <| Fmt.textToInterval binary64 ("2.500?5" : String).toList)),
    .call ((runS <| Fmt.textToInterval binary64 ("2.500?5u" : String).toList)),
    .call ((runS <| Fmt.textToInterval binary64 ("2.500?5d" : String).toList)),
    .call ((runS <| Fmt.textToInterval binary64 ("0.0??_dac" : String).toList)),
    .call ((runS <| Fmt.textToInterval binary64 ("0.0??u_trv" : String).toList)),
    .call ((runS <| Fmt.textToInterval binary64 ("0.0??d" : String).toList)),
    .call ((runS <| Fmt.textToInterval binary64 ("2.5??" : String).toList)),
    .call ((runS <| Fmt.textToInterval binary64 ("2.5??u_def" : String).toList)),
    .call ((runS <| Fmt.textToInterval binary64 ("2.5??d_dac" : String).toList)),
    .call ((runS <| Fmt.textToInterval binary64 ("2.500?5e+27" : String).toList)),
    .call ((runS <| Fmt.textToInterval binary64 ("2.500?5ue4_def" : String).toList)),
    .call ((runS <| Fmt.textToInterval binary64 ("2.500?5de-5" : String).toList)),
    .call ((runS <| Fmt.textToInterval binary64 ("10?3_com" : String).toList)),
    .call ((runS <| Fmt.textToInterval binary64 ("10?3e380_com" : String).toList)),
    .call ((runS <| Fmt.textToInterval binary64 ("1.0000000000000001?1" : String).toList)),
    .call ((runS <| Fmt.textToInterval binary64 ("10?18" ++ String.ofList (List.replicate 308 '0') ++ "_com" : String).toList)),
    .state 558 [],
    .call (do (runS <| Fmt.textToInterval binary64 ("[ Nai  ]" : String).toList); (Cmd.run (.op [(retS <| Fmt.textToInterval binary64 ("[ Nai  ]" : String).toList : Itv)]))),
    .state 561 [.intervalPartOfNai],
    .call clearFlags,
    .call (do (runS <| Fmt.textToInterval binary64 ("[ Nai  ]_ill" : String).toList); (Cmd.run (.op [(retS <| Fmt.textToInterval binary64 ("[ Nai  ]_ill" : String).toList : Itv)]))),
    .state 565 [.undefinedOperation],
    .call clearFlags,
    .call (do (runS <| Fmt.textToInterval binary64 ("[ Nai  ]_trv" : String).toList); (Cmd.run (.op [(retS <| Fmt.textToInterval binary64 ("[ Nai  ]_trv" : String).toList : Itv)]))),
    .state 569 [.undefinedOperation],
    .call clearFlags,
    .call (do (runS <| Fmt.textToInterval binary64 ("[ Empty  ]_ill" : String).toList); (Cmd.run (.op [(retS <| Fmt.textToInterval binary64 ("[ Empty  ]_ill" : String).toList : Itv)]))),
    .state 573 [.undefinedOperation],
    .call clearFlags,
    .call (do (runS <| Fmt.textToInterval binary64 ("[  ]_com" : String).toList); (Cmd.run (.op [(retS <| Fmt.textToInterval binary64 ("[  ]_com" : String).toList : Itv)]))),
    .state 577 [.undefinedOperation],
    .call clearFlags,
    .call (do (runS <| Fmt.textToInterval binary64 ("[,]_com" : String).toList); (Cmd.run (.op [(retS <| Fmt.textToInterval binary64 ("[,]_com" : String).toList : Itv)]))),
    .state 581 [.undefinedOperation],
    .call clearFlags,
    .call (do (runS <| Fmt.textToInterval binary64 ("[   Entire ]_com" : String).toList); (Cmd.run (.op [(retS <| Fmt.textToInterval binary64 ("[   Entire ]_com" : String).toList : Itv)]))),
    .state 585 [.undefinedOperation],
    .call clearFlags,
    .call (do (runS <| Fmt.textToInterval binary64 ("[ -inf ,  INF ]_com" : String).toList); (Cmd.run (.op [(retS <| Fmt.textToInterval binary64 ("[ -inf ,  INF ]_com" : String).toList : Itv)]))),
    .state 589 [.undefinedOperation],
    .call clearFlags,
    .call (do (runS <| Fmt.textToInterval binary64 ("[  -1.0  , 1.0]_ill" : String).toList); (Cmd.run (.op [(retS <| Fmt.textToInterval binary64 ("[  -1.0  , 1.0]_ill" : String).toList : Itv)]))),
    .state 593 [.undefinedOperation],
    .call clearFlags,
    .call (do (runS <| Fmt.textToInterval binary64 ("[  -1.0  , 1.0]_fooo" : String).toList); (Cmd.run (.op [(retS <| Fmt.textToInterval binary64 ("[  -1.0  , 1.0]_fooo" : String).toList : Itv)]))),
    .state 597 [.undefinedOperation],
    .call clearFlags,
    .call (do (runS <| Fmt.textToInterval binary64 ("[  -1.0  , 1.0]_da c" : String).toList); (Cmd.run (.op [(retS <| Fmt.textToInterval binary64 ("[  -1.0  , 1.0]_da c" : String).toList : Itv)]))),
    .state 601 [.undefinedOperation],
    .call clearFlags,
    .call (do (runS <| Fmt.textToInterval binary64 ("[-1.0,]_com" : String).toList); (Cmd.run (.op [(retS <| Fmt.textToInterval binary64 ("[-1.0,]_com" : String).toList : Itv)]))),
    .state 605 [.undefinedOperation],
    .call clearFlags,
    .call (do (runS <| Fmt.textToInterval binary64 ("[-Inf, 1.000 ]_ill" : String).toList); (Cmd.run (.op [(retS <| Fmt.textToInterval binary64 ("[-Inf, 1.000 ]_ill" : String).toList : Itv)]))),
    .state 609 [.undefinedOperation],
    .call clearFlags,
    .call (do (runS <| Fmt.textToInterval binary64 ("[ 1/-10, 1/10 ]_com" : String).toList); (Cmd.run (.op [(retS <| Fmt.textToInterval binary64 ("[ 1/-10, 1/10 ]_com" : String).toList : Itv)]))),
    .state 613 [.undefinedOperation],
    .call clearFlags,
    .call (do (runS <| Fmt.textToInterval binary64 ("[-I  nf, 1.000 ]" : String).toList); (Cmd.run (.op [(retS <| Fmt.textToInterval binary64 ("[-I  nf, 1.000 ]" : String).toList : Itv)]))),
    .state 617 [.undefinedOperation],
    .call clearFlags,
    .call (do (runS <| Fmt.textToInterval binary64 ("[-Inf, 1.0  00 ]" : String).toList); (Cmd.run (.op [(retS <| Fmt.textToInterval binary64 ("[-Inf, 1.0  00 ]" : String).toList : Itv)]))),
    .state 621 [.undefinedOperation],
    .call clearFlags,
    .call (do (runS <| Fmt.textToInterval binary64 ("[-Inf ]" : String).toList); (Cmd.run (.op [(retS <| Fmt.textToInterval binary64 ("[-Inf ]" : String).toList : Itv)]))),
    .state 625 [.undefinedOperation],
    .call clearFlags,
    .call (do (runS <| Fmt.textToInterval binary64 ("[Inf , INF]" : String).toList); (Cmd.run (.op [(retS <| Fmt.textToInterval binary64 ("[Inf , INF]" : String).toList : Itv)]))),
    .state 629 [.undefinedOperation],
    .call clearFlags,
    .call (do (runS <| Fmt.textToInterval binary64 ("[ foo ]" : String).toList); (Cmd.run (.op [(retS <| Fmt.textToInterval binary64 ("[ foo ]" : String).toList : Itv)]))),
    .state 633 [.undefinedOperation],
    .call clearFlags,
    .call (do (runS <| Fmt.textToInterval binary64 ("0.0??_com" : String).toList); (Cmd.run (.op [(retS <| Fmt.textToInterval binary64 ("0.0??_com" : String).toList : Itv)]))),
    .state 637 [.undefinedOperation],
    .call clearFlags,
    .call (do (runS <| Fmt.textToInterval binary64 ("0.0??u_ill" : String).toList); (Cmd.run (.op [(retS <| Fmt.textToInterval binary64 ("0.0??u_ill" : String).toList : Itv)]))),
    .state 641 [.undefinedOperation],
    .call clearFlags,
    .call (do (runS <| Fmt.textToInterval binary64 ("0.0??d_com" : String).toList); (Cmd.run (.op [(retS <| Fmt.textToInterval binary64 ("0.0??d_com" : String).toList : Itv)]))),
    .state 645 [.undefinedOperation],
    .call clearFlags,
    .call (do (runS <| Fmt.textToInterval binary64 ("[1.0000000000000002,1.0000000000000001]" : String).toList); (Cmd.run (.op [(retS <| Fmt.textToInterval binary64 ("[1.0000000000000002,1.0000000000000001]" : String).toList : Itv)]))),
    .state 649 [.undefinedOperation],
    .call clearFlags,
    .call (do (runS <| Fmt.textToInterval binary64 ("[10000000000000001/10000000000000000,10000000000000002/10000000000000001]" : String).toList); (Cmd.run (.op [(retS <| Fmt.textToInterval binary64 ("[10000000000000001/10000000000000000,10000000000000002/10000000000000001]" : String).toList : Itv)]))),
    .state 653 [.undefinedOperation],
    .call clearFlags,
    .call (do (runS <| Fmt.textToInterval binary64 ("[0x1.00000000000002p0,0x1.00000000000001p0]" : String).toList); (Cmd.run (.op [(retS <| Fmt.textToInterval binary64 ("[0x1.00000000000002p0,0x1.00000000000001p0]" : String).toList : Itv)]))),
    .state 657 [.undefinedOperation]] ExSt.init = [] := by
  decide +kernel

/-- `minimal_text_to_decorated_interval_test` -/
example : failed [
    .call clearFlags,
    .call (do (runS <| Fmt.textToDecorated binary64 ("[ Empty  ]" : String).toList); (Cmd.run (.opD [(retS <| Fmt.textToDecorated binary64 ("[ Empty  ]" : String).toList : DItv)]))),
    .call (do (runS <| Fmt.textToDecorated binary64 ("[ Empty  ]_trv" : String).toList); (Cmd.run (.opD [(retS <| Fmt.textToDecorated binary64 ("[ Empty  ]_trv" : String).toList : DItv)]))),
    .call (do (runS <| Fmt.textToDecorated binary64 ("[  ]" : String).toList); (Cmd.run (.opD [(retS <| Fmt.textToDecorated binary64 ("[  ]" : String).toList : DItv)]))),
    .call (do (runS <| Fmt.textToDecorated binary64 ("[  ]_trv" : String).toList); (Cmd.run (.opD [(retS <| Fmt.textToDecorated binary64 ("[  ]_trv" : String).toList : DItv)]))),
    .call ((runS <| Fmt.textToDecorated binary64 ("[,]" : String).toList)),
    .call ((runS <| Fmt.textToDecorated binary64 ("[,]_trv" : String).toList)),
    .call ((runS <| Fmt.textToDecorated binary64 ("[ entire  ]" : String).toList)),
    .call ((runS <| Fmt.textToDecorated binary64 ("[ ENTIRE ]_dac" : String).toList)),
    .call ((runS <| Fmt.textToDecorated binary64 ("[ -inf , INF  ]" : String).toList)),
    .call ((runS <| Fmt.textToDecorated binary64 ("[ -inf, INF ]_def" : String).toList)),
    .call ((runS <| Fmt.textToDecorated binary64 ("[-1.0,1.0]" : String).toList)),
    .call ((runS <| Fmt.textToDecorated binary64 ("[  -1.0  ,  1.0  ]_com" : String).toList)),
    .call ((runS <| Fmt.textToDecorated binary64 ("[  -1.0  , 1.0]_trv" : String).toList)),
    .call ((runS <| Fmt.textToDecorated binary64 ("[-1,]" : String).toList)),
    .call ((runS <| Fmt.textToDecorated binary64 ("[-1.0, +inf]_def" : String).toList)),
    .call ((runS <| Fmt.textToDecorated binary64 ("[-1.0, +infinity]_def" : String).toList)),
    .call ((runS <| Fmt.textToDecorated binary64 ("[-Inf, 1.000 ]" : String).toList)),
    .call ((runS <| Fmt.textToDecorated binary64 ("[-Infinity, 1.000 ]_trv" : String).toList)),
    .call ((runS <| Fmt.textToDecorated binary64 ("[1.0E+400 ]_com" : String).toList)),
    .call ((runS <| Fmt.textToDecorated binary64 ("[ -4/2, 10/5 ]_com" : String).toList)),
    .call ((runS <| Fmt.textToDecorated binary64 ("[ -1/10, 1/10 ]_com" : String).toList)),
    .call ((runS <| Fmt.textToDecorated binary64 ("0.0?" : String).toList)),
    .call ((runS <| Fmt.textToDecorated binary64 ("0.0?u_trv" : String).toList)),
    .call ((runS <| Fmt.textToDecorated binary64 ("0.0?d_dac" : String).toList)),
    .call ((runS <| Fmt.textToDecorated binary64 ("2.5?" : String).toList)),
    .call ((runS <| Fmt.textToDecorated binary64 ("2.5?u" : String).toList)),
    .call ((runS <| Fmt.textToDecorated binary64 ("2.5?d_trv" : String).toList)),
    .call ((runS <| Fmt.textToDecorated binary64 ("0.000?5" : String).toList)),
    .call ((runS <| Fmt.textToDecorated binary64 ("0.000?5u_def" : String).toList)),
    .call ((runS <| Fmt.textToDecorated binary64 ("0.000?5d" : String).toList)),
    .call ((runS <| Fmt.textToDecorated binary64 ("2.500?5" : String).toList)),
    .call ((runS <| Fmt.textToDecorated binary64 ("2.500?5u" : String).toList)),
    .call ((runS <| Fmt.textToDecorated binary64 ("2.500?5d" : String).toList)),
    .call ((runS <| Fmt.textToDecorated binary64 ("0.0??_dac" : String).toList)),
    .call ((runS <| Fmt.textToDecorated binary64 ("0.0??u_trv" : String).toList)),
    .call ((runS <| Fmt.textToDecorated binary64 ("0.0??d" : String).toList)),
    .call ((runS <| Fmt.textToDecorated binary64 ("2.5??" : String).toList)),
    .call ((runS <| Fmt.textToDecorated binary64 ("2.5??u_def" : String).toList)),
    .call ((runS <| Fmt.textToDecorated binary64 ("2.5??d_dac" : String).toList)),
    .call ((runS <| Fmt.textToDecorated binary64 ("2.500?5e+27" : String).toList)),
    .call ((runS <| Fmt.textToDecorated binary64 ("2.500?5ue4_def" : String).toList)),
    .call ((runS <| Fmt.textToDecorated binary64 ("2.500?5de-5" : String).toList)),
    .call (do (runS <| Fmt.textToDecorated binary64 ("[ Nai  ]" : String).toList); (Cmd.run (.opD [(retS <| Fmt.textToDecorated binary64 ("[ Nai  ]" : String).toList : DItv)]))),
    .call ((runS <| Fmt.textToDecorated binary64 ("10?18" ++ String.ofList (List.replicate 308 '0') ++ "_com" : String).toList)),
    .call ((runS <| Fmt.textToDecorated binary64 ("10?3_com" : String).toList)),
    .call ((runS <| Fmt.textToDecorated binary64 ("10?3e380_com" : String).toList)),
    .state 731 [],
    .call (do (runS <| Fmt.textToDecorated binary64 ("[ Nai  ]_ill" : String).toList); (Cmd.run (.opD [(retS <| Fmt.textToDecorated binary64 ("[ Nai  ]_ill" : String).toList : DItv)]))),
    .state 735 [.undefinedOperation],
    .call clearFlags,
    .call (do (runS <| Fmt.textToDecorated binary64 ("[ Nai  ]_trv" : String).toList); (Cmd.run (.opD [(retS <| Fmt.textToDecorated binary64 ("[ Nai  ]_trv" : String).toList : DItv)]))),
    .state 739 [.undefinedOperation],
    .call clearFlags,
    .call (do (runS <| Fmt.textToDecorated binary64 ("[ Empty  ]_ill" : String).toList); (Cmd.run (.opD [(retS <| Fmt.textToDecorated binary64 ("[ Empty  ]_ill" : String).toList : DItv)]))),
    .state 743 [.undefinedOperation],
    .call clearFlags,
    .call (do (runS <| Fmt.textToDecorated binary64 ("[  ]_com" : String).toList); (Cmd.run (.opD [(retS <| Fmt.textToDecorated binary64 ("[  ]_com" : String).toList : DItv)]))),
    .state 747 [.undefinedOperation],
    .call clearFlags,
    .call (do (runS <| Fmt.textToDecorated binary64 ("[,]_com" : String).toList); (Cmd.run (.opD [(retS <| Fmt.textToDecorated binary64 ("[,]_com" : String).toList : DItv)]))),
    .state 751 [.undefinedOperation],
    .call clearFlags,
    .call (do (runS <| Fmt.textToDecorated binary64 ("[   Entire ]_com" : String).toList); (Cmd.run (.opD [(retS <| Fmt.textToDecorated binary64 ("[   Entire ]_com" : String).toList : DItv)]))),
    .state 755 [.undefinedOperation],
    .call clearFlags,
    .call (do (runS <| Fmt.textToDecorated binary64 ("[ -inf ,  INF ]_com" : String).toList); (Cmd.run (.opD [(retS <| Fmt.textToDecorated binary64 ("[ -inf ,  INF ]_com" : String).toList : DItv)]))),
    .state 759 [.undefinedOperation],
    .call clearFlags,
    .call (do (runS <| Fmt.textToDecorated binary64 ("[  -1.0  , 1.0]_ill" : String).toList); (Cmd.run (.opD [(retS <| Fmt.textToDecorated binary64 ("[  -1.0  , 1.0]_ill" : String).toList : DItv)]))),
    .state 763 [.undefinedOperation],
    .call clearFlags,
    .call (do (runS <| Fmt.textToDecorated binary64 ("[  -1.0  , 1.0]_fooo" : String).toList); (Cmd.run (.opD [(retS <| Fmt.textToDecorated binary64 ("[  -1.0  , 1.0]_fooo" : String).toList : DItv)]))),
    .state 767 [.undefinedOperation],
    .call clearFlags,
    .call (do (runS <| Fmt.textToDecorated binary64 ("[  -1.0  , 1.0]_da c" : String).toList); (Cmd.run (.opD [(retS <| Fmt.textToDecorated binary64 ("[  -1.0  , 1.0]_da c" : String).toList : DItv)]))),
    .state 771 [.undefinedOperation],
    .call clearFlags,
    .call (do (runS <| Fmt.textToDecorated binary64 ("[-1.0,]_com" : String).toList); (Cmd.run (.opD [(retS <| Fmt.textToDecorated binary64 ("[-1.0,]_com" : String).toList : DItv)]))),
    .state 775 [.undefinedOperation],
    .call clearFlags,
    .call (do (runS <| Fmt.textToDecorated binary64 ("[-Inf, 1.000 ]_ill" : String).toList); (Cmd.run (.opD [(retS <| Fmt.textToDecorated binary64 ("[-Inf, 1.000 ]_ill" : String).toList : DItv)]))),
    .state 779 [.undefinedOperation],
    .call clearFlags,
    .call (do (runS <| Fmt.textToDecorated binary64 ("[ 1/-10, 1/10 ]_com" : String).toList); (Cmd.run (.opD [(retS <| Fmt.textToDecorated binary64 ("[ 1/-10, 1/10 ]_com" : String).toList : DItv)]))),
    .state 783 [.undefinedOperation],
    .call clearFlags,
    .call (do (runS <| Fmt.textToDecorated binary64 ("[-I  nf, 1.000 ]" : String).toList); (Cmd.run (.opD [(retS <| Fmt.textToDecorated binary64 ("[-I  nf, 1.000 ]" : String).toList : DItv)]))),
    .state 787 [.undefinedOperation],
    .call clearFlags,
    .call (do (runS <| Fmt.textToDecorated binary64 ("[-Inf, 1.0  00 ]" : String).toList); (Cmd.run (.opD [(retS <| Fmt.textToDecorated binary64 ("[-Inf, 1.0  00 ]" : String).toList : DItv)]))),
    .state 791 [.undefinedOperation],
    .call clearFlags,
    .call (do (runS <| Fmt.textToDecorated binary64 ("[-Inf ]" : String).toList); (Cmd.run (.opD [(retS <| Fmt.textToDecorated binary64 ("[-Inf ]" : String).toList : DItv)]))),
    .state 795 [.undefinedOperation],
    .call clearFlags,
    .call (do (runS <| Fmt.textToDecorated binary64 ("[Inf , INF]" : String).toList); (Cmd.run (.opD [(retS <| Fmt.textToDecorated binary64 ("[Inf , INF]" : String).toList : DItv)]))),
    .state 799 [.undefinedOperation],
    .call clearFlags,
    .call (do (runS <| Fmt.textToDecorated binary64 ("[ foo ]" : String).toList); (Cmd.run (.opD [(retS <| Fmt.textToDecorated binary64 ("[ foo ]" : String).toList : DItv)]))),
    .state 803 [.undefinedOperation],
    .call clearFlags,
    .call (do (runS <| Fmt.textToDecorated binary64 ("0.0??_com" : String).toList); (Cmd.run (.opD [(retS <| Fmt.textToDecorated binary64 ("0.0??_com" : String).toList : DItv)]))),
    .state 807 [.undefinedOperation],
    .call clearFlags,
    .call (do (runS <| Fmt.textToDecorated binary64 ("0.0??u_ill" : String).toList); (Cmd.run (.opD [(retS <| Fmt.textToDecorated binary64 ("0.0??u_ill" : String).toList : DItv)]))),
    .state 811 [.undefinedOperation],
    .call clearFlags,
    .call (do (runS <| Fmt.textToDecorated binary64 ("0.0??d_com" : String).toList); (Cmd.run (.opD [(retS <| Fmt.textToDecorated binary64 ("0.0??d_com" : String).toList : DItv)]))),
    .state 815 [.undefinedOperation],
    .call (do (runS <| Fmt.textToDecorated binary64 ("0.0??_com" : String).toList); (Cmd.run (.opD [(retS <| Fmt.textToDecorated binary64 ("0.0??_com" : String).toList : DItv)]))),
    .state 818 [.undefinedOperation],
    .call clearFlags,
    .call (do (runS <| Fmt.textToDecorated binary64 ("5.0" : String).toList); (Cmd.run (.opD [(retS <| Fmt.textToDecorated binary64 ("5.0" : String).toList : DItv)]))),
    .state 822 [.undefinedOperation],
    .call clearFlags,
    .call (do (runS <| Fmt.textToDecorated binary64 ("[1.0,2.0" : String).toList); (Cmd.run (.opD [(retS <| Fmt.textToDecorated binary64 ("[1.0,2.0" : String).toList : DItv)]))),
    .state 826 [.undefinedOperation],
    .call clearFlags,
    .call (do (runS <| Fmt.textToDecorated binary64 ("[1.0000000000000002,1.0000000000000001]" : String).toList); (Cmd.run (.opD [(retS <| Fmt.textToDecorated binary64 ("[1.0000000000000002,1.0000000000000001]" : String).toList : DItv)]))),
    .state 830 [.undefinedOperation],
    .call clearFlags,
    .call (do (runS <| Fmt.textToDecorated binary64 ("[10000000000000001/10000000000000000,10000000000000002/10000000000000001]" : String).toList); (Cmd.run (.opD [(retS <| Fmt.textToDecorated binary64 ("[10000000000000001/10000000000000000,10000000000000002/10000000000000001]" : String).toList : DItv)]))),
    .state 834 [.undefinedOperation],
    .call clearFlags,
    .call (do (runS <| Fmt.textToDecorated binary64 ("[0x1.00000000000002p0,0x1.00000000000001p0]" : String).toList); (Cmd.run (.opD [(retS <| Fmt.textToDecorated binary64 ("[0x1.00000000000002p0,0x1.00000000000001p0]" : String).toList : DItv)]))),
    .state 838 [.undefinedOperation]] ExSt.init = [] := by
  decide +kernel

/-- `minimal_copy_test` -/
example : failed [
    .call clearFlags,
    .call ((Cmd.run (.copy (⟨(f (-3602879824865869) (-47)), (f (7205759403792793) (-56))⟩ : Itv)))),
    .call ((Cmd.run (.copy (⟨(f (-6710887) (-18)), (f (7205759403792793) (-56))⟩ : Itv)))),
    .call ((Cmd.run (.copy (⟨(f (-3602879824865869) (-47)), (f (13421773) (-27))⟩ : Itv)))),
    .call ((Cmd.run (.copy (⟨(f (-6710887) (-18)), (f (13421773) (-27))⟩ : Itv)))),
    .call ((Cmd.run (.copy (⟨(f (-1) (-1074)), (f (-1) (-1074))⟩ : Itv)))),
    .call ((Cmd.run (.copy (⟨(f (-1) (-1074)), (f (1) (-1074))⟩ : Itv)))),
    .call ((Cmd.run (.copy (⟨(f (1) (-1074)), (f (1) (-1074))⟩ : Itv)))),
    .call ((Cmd.run (.copy (⟨(f (-9007199254740991) (971)), (f (-9007199254740991) (971))⟩ : Itv)))),
    .call ((Cmd.run (.copy (⟨(f (-9007199254740991) (971)), (f 9007199254740991 971)⟩ : Itv)))),
    .call ((Cmd.run (.copy (⟨(f 9007199254740991 971), (f 9007199254740991 971)⟩ : Itv)))),
    .call ((Cmd.run (.copy (⟨.ninf, .pinf⟩ : Itv)))),
    .call (do (Cmd.run (.copy (⟨.nan, .nan⟩ : Itv))); (Cmd.run (.op [(ret <| copyM (⟨.nan, .nan⟩ : Itv) : Itv)]))),
    .state 859 [],
    .call (do (Cmd.run (.copy (⟨(f 7 0), .nan⟩ : Itv))); (Cmd.run (.op [(ret <| copyM (⟨(f 7 0), .nan⟩ : Itv) : Itv)]))),
    .state 862 [.invalidOperand],
    .call clearFlags,
    .call (do (Cmd.run (.copy (⟨(f 7 0), (f (-3) (0))⟩ : Itv))); (Cmd.run (.op [(ret <| copyM (⟨(f 7 0), (f (-3) (0))⟩ : Itv) : Itv)]))),
    .state 865 [.invalidOperand],
    .call clearFlags,
    .call (do (Cmd.run (.copy (⟨.ninf, .ninf⟩ : Itv))); (Cmd.run (.op [(ret <| copyM (⟨.ninf, .ninf⟩ : Itv) : Itv)]))),
    .state 868 [.invalidOperand],
    .call clearFlags,
    .call (do (Cmd.run (.copy (⟨.pinf, .pinf⟩ : Itv))); (Cmd.run (.op [(ret <| copyM (⟨.pinf, .pinf⟩ : Itv) : Itv)]))),
    .state 871 [.invalidOperand],
    .call clearFlags,
    .call (setCwd (bitsOf [.invalidOperand])),
    .throws 875 ((Cmd.run (.copy (⟨(f 7 0), (f (-3) (0))⟩ : Itv)))) .invalidOperand,
    .state 876 [.invalidOperand],
    .call clearFlags,
    .call (setCwd (bitsOf []))] ExSt.init = [] := by
  decide +kernel

/-- `minimal_copy_dec_test` -/
example : failed [
    .call clearFlags,
    .call ((Cmd.run (.copyD (⟨⟨(f (-3602879824865869) (-47)), (f (7205759403792793) (-56))⟩, .trv⟩ : DItv)))),
    .call ((Cmd.run (.copyD (⟨⟨(f (-6710887) (-18)), (f (7205759403792793) (-56))⟩, .com⟩ : DItv)))),
    .call ((Cmd.run (.copyD (⟨⟨(f (-3602879824865869) (-47)), (f (13421773) (-27))⟩, .dac⟩ : DItv)))),
    .call ((Cmd.run (.copyD (⟨⟨(f (-6710887) (-18)), (f (13421773) (-27))⟩, .defd⟩ : DItv)))),
    .call ((Cmd.run (.copyD (⟨⟨(f (-1) (-1074)), (f (-1) (-1074))⟩, .trv⟩ : DItv)))),
    .call ((Cmd.run (.copyD (⟨⟨(f (-1) (-1074)), (f (1) (-1074))⟩, .trv⟩ : DItv)))),
    .call ((Cmd.run (.copyD (⟨⟨(f (1) (-1074)), (f (1) (-1074))⟩, .trv⟩ : DItv)))),
    .call ((Cmd.run (.copyD (⟨⟨(f (-9007199254740991) (971)), (f (-9007199254740991) (971))⟩, .trv⟩ : DItv)))),
    .call ((Cmd.run (.copyD (⟨⟨(f (-9007199254740991) (971)), (f 9007199254740991 971)⟩, .trv⟩ : DItv)))),
    .call ((Cmd.run (.copyD (⟨⟨(f 9007199254740991 971), (f 9007199254740991 971)⟩, .trv⟩ : DItv)))),
    .call ((Cmd.run (.copyD (⟨⟨.ninf, .pinf⟩, .trv⟩ : DItv)))),
    .call (do (Cmd.run (.copyD (⟨⟨.nan, .nan⟩, .trv⟩ : DItv))); (Cmd.run (.opD [(ret <| copyDM (⟨⟨.nan, .nan⟩, .trv⟩ : DItv) : DItv)]))),
    .call ((Cmd.run (.copyD (⟨⟨(f (-6710887) (-18)), (f (7205759403792793) (-56))⟩, .com⟩ : DItv)))),
    .state 899 [],
    .call (do (Cmd.run (.copyD (⟨⟨(f 7 0), .nan⟩, .trv⟩ : DItv))); (Cmd.run (.opD [(ret <| copyDM (⟨⟨(f 7 0), .nan⟩, .trv⟩ : DItv) : DItv)]))),
    .state 902 [.invalidOperand],
    .call clearFlags,
    .call (do (Cmd.run (.copyD (⟨⟨(f 7 0), (f (-3) (0))⟩, .defd⟩ : DItv))); (Cmd.run (.opD [(ret <| copyDM (⟨⟨(f 7 0), (f (-3) (0))⟩, .defd⟩ : DItv) : DItv)]))),
    .state 905 [.invalidOperand],
    .call clearFlags,
    .call (do (Cmd.run (.copyD (⟨⟨.ninf, .ninf⟩, .com⟩ : DItv))); (Cmd.run (.opD [(ret <| copyDM (⟨⟨.ninf, .ninf⟩, .com⟩ : DItv) : DItv)]))),
    .state 908 [.invalidOperand],
    .call clearFlags,
    .call (do (Cmd.run (.copyD (⟨⟨.pinf, .pinf⟩, .dac⟩ : DItv))); (Cmd.run (.opD [(ret <| copyDM (⟨⟨.pinf, .pinf⟩, .dac⟩ : DItv) : DItv)]))),
    .state 911 [.invalidOperand],
    .call clearFlags,
    .call (setCwd (bitsOf [.invalidOperand])),
    .throws 915 ((Cmd.run (.copyD (⟨⟨(f (-7) (0)), (f (-3) (0))⟩, .ill⟩ : DItv)))) .invalidOperand,
    .state 916 [.invalidOperand],
    .call clearFlags,
    .call (setCwd (bitsOf []))] ExSt.init = [] := by
  decide +kernel

/-- `minimal_convert_type_test` -/
example : failed [
    .call clearFlags,
    .call ((Cmd.run (.convert binary32 (⟨(f (-3602879824865869) (-47)), (f (7205759403792793) (-56))⟩ : Itv)))),
    .call ((Cmd.run (.convert binary32 (⟨(f (-6710887) (-18)), (f (7205759403792793) (-56))⟩ : Itv)))),
    .call ((Cmd.run (.convert binary32 (⟨(f (-3602879824865869) (-47)), (f (13421773) (-27))⟩ : Itv)))),
    .call ((Cmd.run (.convert binary32 (⟨(f (-6710887) (-18)), (f (13421773) (-27))⟩ : Itv)))),
    .call ((Cmd.run (.convert binary64 (⟨(f (-6710887) (-18)), (f (13421773) (-27))⟩ : Itv)))),
    .call ((Cmd.run (.convert binary32 (⟨(f (-1) (-1074)), (f (-1) (-1074))⟩ : Itv)))),
    .call ((Cmd.run (.convert binary32 (⟨(f (-1) (-1074)), (f (-1) (-1074))⟩ : Itv)))),
    .call ((Cmd.run (.convert binary32 (⟨(f (-1) (-1074)), (f (1) (-1074))⟩ : Itv)))),
    .call ((Cmd.run (.convert binary32 (⟨(f (1) (-1074)), (f (1) (-1074))⟩ : Itv)))),
    .call ((Cmd.run (.convert binary32 (⟨(f (1) (-1074)), (f (1) (-1074))⟩ : Itv)))),
    .call ((Cmd.run (.convert binary64 (⟨(f (1) (-149)), (f (1) (-149))⟩ : Itv)))),
    .call ((Cmd.run (.convert binary32 (⟨(f (-9007199254740991) (971)), (f (-9007199254740991) (971))⟩ : Itv)))),
    .call ((Cmd.run (.convert binary32 (⟨(f (-9007199254740991) (971)), (f 9007199254740991 971)⟩ : Itv)))),
    .call ((Cmd.run (.convert binary32 (⟨(f 9007199254740991 971), (f 9007199254740991 971)⟩ : Itv)))),
    .call ((Cmd.run (.convert binary64 (⟨(f 16777215 104), (f 16777215 104)⟩ : Itv)))),
    .call ((Cmd.run (.convert binary32 (⟨.ninf, .pinf⟩ : Itv)))),
    .call ((Cmd.run (.convert binary64 (⟨.ninf, .pinf⟩ : Itv)))),
    .call (do (Cmd.run (.convert binary32 (⟨.nan, .nan⟩ : Itv))); (Cmd.run (.op [(ret <| Fmt.convertType binary32 (⟨.nan, .nan⟩ : Itv) : Itv)]))),
    .call (do (Cmd.run (.convert binary64 (⟨.nan, .nan⟩ : Itv))); (Cmd.run (.op [(ret <| Fmt.convertType binary64 (⟨.nan, .nan⟩ : Itv) : Itv)]))),
    .state 945 [],
    .call (do (Cmd.run (.convert binary32 (⟨(f (-1) (-1074)), (f (-1) (-149))⟩ : Itv))); (Cmd.run (.op [(ret <| Fmt.convertType binary32 (⟨(f (-1) (-1074)), (f (-1) (-149))⟩ : Itv) : Itv)]))),
    .state 948 [.invalidOperand],
    .call clearFlags,
    .call (do (Cmd.run (.convert binary32 (⟨(f 7 0), .nan⟩ : Itv))); (Cmd.run (.op [(ret <| Fmt.convertType binary32 (⟨(f 7 0), .nan⟩ : Itv) : Itv)]))),
    .state 951 [.invalidOperand],
    .call clearFlags,
    .call (do (Cmd.run (.convert binary32 (⟨(f 7 0), (f (-3) (0))⟩ : Itv))); (Cmd.run (.op [(ret <| Fmt.convertType binary32 (⟨(f 7 0), (f (-3) (0))⟩ : Itv) : Itv)]))),
    .state 954 [.invalidOperand],
    .call clearFlags,
    .call (do (Cmd.run (.convert binary64 (⟨.ninf, .ninf⟩ : Itv))); (Cmd.run (.op [(ret <| Fmt.convertType binary64 (⟨.ninf, .ninf⟩ : Itv) : Itv)]))),
    .state 957 [.invalidOperand],
    .call clearFlags,
    .call (do (Cmd.run (.convert binary64 (⟨.pinf, .pinf⟩ : Itv))); (Cmd.run (.op [(ret <| Fmt.convertType binary64 (⟨.pinf, .pinf⟩ : Itv) : Itv)]))),
    .state 960 [.invalidOperand],
    .call clearFlags,
    .call (setCwd (bitsOf [.invalidOperand])),
    .throws 964 ((Cmd.run (.convert binary32 (⟨(f 7 0), (f (-3) (0))⟩ : Itv)))) .invalidOperand,
    .state 965 [.invalidOperand],
    .call clearFlags,
    .call (setCwd (bitsOf []))] ExSt.init = [] := by
  decide +kernel

/-- `minimal_convert_type_dec_test` -/
example : failed [
    .call clearFlags,
    .call ((Cmd.run (.convertD binary32 (⟨⟨(f (-3602879824865869) (-47)), (f (7205759403792793) (-56))⟩, .trv⟩ : DItv)))),
    .call ((Cmd.run (.convertD binary32 (⟨⟨(f (-6710887) (-18)), (f (7205759403792793) (-56))⟩, .com⟩ : DItv)))),
    .call ((Cmd.run (.convertD binary32 (⟨⟨(f (-3602879824865869) (-47)), (f (13421773) (-27))⟩, .dac⟩ : DItv)))),
    .call ((Cmd.run (.convertD binary32 (⟨⟨(f (-6710887) (-18)), (f (13421773) (-27))⟩, .defd⟩ : DItv)))),
    .call ((Cmd.run (.convertD binary64 (⟨⟨(f (-6710887) (-18)), (f (13421773) (-27))⟩, .trv⟩ : DItv)))),
    .call ((Cmd.run (.convertD binary32 (⟨⟨(f (-1) (-1074)), (f (-1) (-1074))⟩, .trv⟩ : DItv)))),
    .call ((Cmd.run (.convertD binary32 (⟨⟨(f (-1) (-1074)), (f (-1) (-1074))⟩, .trv⟩ : DItv)))),
    .call ((Cmd.run (.convertD binary32 (⟨⟨(f (-1) (-1074)), (f (1) (-1074))⟩, .trv⟩ : DItv)))),
    .call ((Cmd.run (.convertD binary32 (⟨⟨(f (1) (-1074)), (f (1) (-1074))⟩, .trv⟩ : DItv)))),
    .call ((Cmd.run (.convertD binary32 (⟨⟨(f (1) (-1074)), (f (1) (-1074))⟩, .trv⟩ : DItv)))),
    .call ((Cmd.run (.convertD binary64 (⟨⟨(f (1) (-149)), (f (1) (-149))⟩, .trv⟩ : DItv)))),
    .call ((Cmd.run (.convertD binary32 (⟨⟨(f (-9007199254740991) (971)), (f (-9007199254740991) (971))⟩, .defd⟩ : DItv)))),
    .call ((Cmd.run (.convertD binary32 (⟨⟨(f (-9007199254740991) (971)), (f 9007199254740991 971)⟩, .trv⟩ : DItv)))),
    .call ((Cmd.run (.convertD binary32 (⟨⟨(f 9007199254740991 971), (f 9007199254740991 971)⟩, .dac⟩ : DItv)))),
    .call ((Cmd.run (.convertD binary64 (⟨⟨(f 16777215 104), (f 16777215 104)⟩, .trv⟩ : DItv)))),
    .call ((Cmd.run (.convertD binary32 (⟨⟨(f (-9007199254740991) (971)), (f (-9007199254740991) (971))⟩, .com⟩ : DItv)))),
    .call ((Cmd.run (.convertD binary32 (⟨⟨(f (-9007199254740991) (971)), (f 9007199254740991 971)⟩, .com⟩ : DItv)))),
    .call ((Cmd.run (.convertD binary32 (⟨⟨(f 9007199254740991 971), (f 9007199254740991 971)⟩, .com⟩ : DItv)))),
    .call ((Cmd.run (.convertD binary64 (⟨⟨.ninf, .pinf⟩, .trv⟩ : DItv)))),
    .call ((Cmd.run (.convertD binary32 (⟨⟨.ninf, .pinf⟩, .trv⟩ : DItv)))),
    .call ((Cmd.run (.convertD binary64 (⟨⟨.ninf, .pinf⟩, .trv⟩ : DItv)))),
    .call (do (Cmd.run (.convertD binary32 (⟨⟨.nan, .nan⟩, .trv⟩ : DItv))); (Cmd.run (.opD [(ret <| Fmt.convertTypeD binary32 (⟨⟨.nan, .nan⟩, .trv⟩ : DItv) : DItv)]))),
    .call (do (Cmd.run (.convertD binary64 (⟨⟨.nan, .nan⟩, .trv⟩ : DItv))); (Cmd.run (.opD [(ret <| Fmt.convertTypeD binary64 (⟨⟨.nan, .nan⟩, .trv⟩ : DItv) : DItv)]))),
    .state 1004 [],
    .call (do (Cmd.run (.convertD binary32 (⟨⟨(f (-1) (-1074)), (f (-1) (-149))⟩, .trv⟩ : DItv))); (Cmd.run (.opD [(ret <| Fmt.convertTypeD binary32 (⟨⟨(f (-1) (-1074)), (f (-1) (-149))⟩, .trv⟩ : DItv) : DItv)]))),
    .state 1007 [.invalidOperand],
    .call clearFlags,
    .call (do (Cmd.run (.convertD binary32 (⟨⟨(f 7 0), .nan⟩, .trv⟩ : DItv))); (Cmd.run (.opD [(ret <| Fmt.convertTypeD binary32 (⟨⟨(f 7 0), .nan⟩, .trv⟩ : DItv) : DItv)]))),
    .state 1010 [.invalidOperand],
    .call clearFlags,
    .call (do (Cmd.run (.convertD binary32 (⟨⟨(f 7 0), (f (-3) (0))⟩, .defd⟩ : DItv))); (Cmd.run (.opD [(ret <| Fmt.convertTypeD binary32 (⟨⟨(f 7 0), (f (-3) (0))⟩, .defd⟩ : DItv) : DItv)]))),
    .state 1013 [.invalidOperand],
    .call clearFlags,
    .call (do (Cmd.run (.convertD binary64 (⟨⟨.ninf, .ninf⟩, .com⟩ : DItv))); (Cmd.run (.opD [(ret <| Fmt.convertTypeD binary64 (⟨⟨.ninf, .ninf⟩, .com⟩ : DItv) : DItv)]))),
    .state 1016 [.invalidOperand],
    .call clearFlags,
    .call (do (Cmd.run (.convertD binary64 (⟨⟨.pinf, .pinf⟩, .dac⟩ : DItv))); (Cmd.run (.opD [(ret <| Fmt.convertTypeD binary64 (⟨⟨.pinf, .pinf⟩, .dac⟩ : DItv) : DItv)]))),
    .state 1019 [.invalidOperand],
    .call clearFlags,
    .call (setCwd (bitsOf [.invalidOperand])),
    .throws 1023 ((Cmd.run (.convertD binary32 (⟨⟨(f (-7) (0)), (f (-3) (0))⟩, .ill⟩ : DItv)))) .invalidOperand,
    .state 1024 [.invalidOperand],
    .call clearFlags,
    .call (setCwd (bitsOf []))] ExSt.init = [] := by
  decide +kernel

/-- `minimal_interval_part_test` -/
example : failed [
    .call clearFlags,
    .call ((Cmd.run (.intervalPart (⟨⟨(f (-3602879824865869) (-47)), (f (7205759403792793) (-56))⟩, .trv⟩ : DItv)))),
    .call ((Cmd.run (.intervalPart (⟨⟨(f (-6710887) (-18)), (f (7205759403792793) (-56))⟩, .com⟩ : DItv)))),
    .call ((Cmd.run (.intervalPart (⟨⟨(f (-3602879824865869) (-47)), (f (13421773) (-27))⟩, .dac⟩ : DItv)))),
    .call ((Cmd.run (.intervalPart (⟨⟨(f (-6710887) (-18)), (f (13421773) (-27))⟩, .defd⟩ : DItv)))),
    .call ((Cmd.run (.intervalPart (⟨⟨(f (-1) (-1074)), (f (-1) (-1074))⟩, .trv⟩ : DItv)))),
    .call ((Cmd.run (.intervalPart (⟨⟨(f (-1) (-1074)), (f (1) (-1074))⟩, .trv⟩ : DItv)))),
    .call ((Cmd.run (.intervalPart (⟨⟨(f (1) (-1074)), (f (1) (-1074))⟩, .trv⟩ : DItv)))),
    .call ((Cmd.run (.intervalPart (⟨⟨(f (-9007199254740991) (971)), (f (-9007199254740991) (971))⟩, .trv⟩ : DItv)))),
    .call ((Cmd.run (.intervalPart (⟨⟨(f (-9007199254740991) (971)), (f 9007199254740991 971)⟩, .trv⟩ : DItv)))),
    .call ((Cmd.run (.intervalPart (⟨⟨(f 9007199254740991 971), (f 9007199254740991 971)⟩, .trv⟩ : DItv)))),
    .call ((Cmd.run (.intervalPart (⟨⟨.ninf, .pinf⟩, .trv⟩ : DItv)))),
    .call (do (Cmd.run (.intervalPart (⟨⟨.nan, .nan⟩, .trv⟩ : DItv))); (Cmd.run (.op [(ret <| intervalPart (⟨⟨.nan, .nan⟩, .trv⟩ : DItv) : Itv)]))),
    .call ((Cmd.run (.intervalPart (⟨⟨(f (-6710887) (-18)), (f (7205759403792793) (-56))⟩, .com⟩ : DItv)))),
    .state 1047 [],
    .call (do (Cmd.run (.intervalPart (⟨⟨.nan, .nan⟩, .ill⟩ : DItv))); (Cmd.run (.op [(ret <| intervalPart (⟨⟨.nan, .nan⟩, .ill⟩ : DItv) : Itv)]))),
    .state 1050 [.intervalPartOfNai],
    .call clearFlags,
    .call (setCwd (bitsOf [.intervalPartOfNai])),
    .throws 1054 ((Cmd.run (.intervalPart (⟨⟨.nan, .nan⟩, .ill⟩ : DItv)))) .intervalPartOfNai,
    .state 1055 [.intervalPartOfNai],
    .call clearFlags,
    .call (setCwd (bitsOf [])),
    .call (do (Cmd.run (.intervalPart (⟨⟨(f 7 0), .nan⟩, .trv⟩ : DItv))); (Cmd.run (.op [(ret <| intervalPart (⟨⟨(f 7 0), .nan⟩, .trv⟩ : DItv) : Itv)]))),
    .state 1060 [.invalidOperand],
    .call clearFlags,
    .call (do (Cmd.run (.intervalPart (⟨⟨(f 7 0), (f (-3) (0))⟩, .defd⟩ : DItv))); (Cmd.run (.op [(ret <| intervalPart (⟨⟨(f 7 0), (f (-3) (0))⟩, .defd⟩ : DItv) : Itv)]))),
    .state 1063 [.invalidOperand],
    .call clearFlags,
    .call (do (Cmd.run (.intervalPart (⟨⟨.ninf, .ninf⟩, .com⟩ : DItv))); (Cmd.run (.op [(ret <| intervalPart (⟨⟨.ninf, .ninf⟩, .com⟩ : DItv) : Itv)]))),
    .state 1066 [.invalidOperand],
    .call clearFlags,
    .call (do (Cmd.run (.intervalPart (⟨⟨.pinf, .pinf⟩, .dac⟩ : DItv))); (Cmd.run (.op [(ret <| intervalPart (⟨⟨.pinf, .pinf⟩, .dac⟩ : DItv) : Itv)]))),
    .state 1069 [.invalidOperand],
    .call clearFlags,
    .call (setCwd (bitsOf [.invalidOperand])),
    .throws 1073 ((Cmd.run (.intervalPart (⟨⟨(f (-7) (0)), (f (-3) (0))⟩, .ill⟩ : DItv)))) .invalidOperand,
    .state 1074 [.invalidOperand],
    .call clearFlags,
    .call (setCwd (bitsOf [])),
    .state 1078 []] ExSt.init = [] := by
  decide +kernel

/-- `minimal_interval_part_mixedtype_test` -/
example : failed [
    .call clearFlags,
    .call ((Cmd.run (.intervalPartMixed binary32 (⟨⟨(f (-3602879824865869) (-47)), (f (7205759403792793) (-56))⟩, .trv⟩ : DItv)))),
    .call ((Cmd.run (.intervalPartMixed binary32 (⟨⟨(f (-6710887) (-18)), (f (7205759403792793) (-56))⟩, .com⟩ : DItv)))),
    .call ((Cmd.run (.intervalPartMixed binary32 (⟨⟨(f (-3602879824865869) (-47)), (f (13421773) (-27))⟩, .dac⟩ : DItv)))),
    .call ((Cmd.run (.intervalPartMixed binary32 (⟨⟨(f (-6710887) (-18)), (f (13421773) (-27))⟩, .defd⟩ : DItv)))),
    .call ((Cmd.run (.intervalPartMixed binary64 (⟨⟨(f (-6710887) (-18)), (f (13421773) (-27))⟩, .trv⟩ : DItv)))),
    .call ((Cmd.run (.intervalPartMixed binary32 (⟨⟨(f (-1) (-1074)), (f (-1) (-1074))⟩, .trv⟩ : DItv)))),
    .call ((Cmd.run (.intervalPartMixed binary32 (⟨⟨(f (-1) (-1074)), (f (-1) (-1074))⟩, .trv⟩ : DItv)))),
    .call ((Cmd.run (.intervalPartMixed binary32 (⟨⟨(f (-1) (-1074)), (f (1) (-1074))⟩, .trv⟩ : DItv)))),
    .call ((Cmd.run (.intervalPartMixed binary32 (⟨⟨(f (1) (-1074)), (f (1) (-1074))⟩, .trv⟩ : DItv)))),
    .call ((Cmd.run (.intervalPartMixed binary32 (⟨⟨(f (1) (-1074)), (f (1) (-1074))⟩, .trv⟩ : DItv)))),
    .call ((Cmd.run (.intervalPartMixed binary64 (⟨⟨(f (1) (-149)), (f (1) (-149))⟩, .trv⟩ : DItv)))),
    .call ((Cmd.run (.intervalPartMixed binary32 (⟨⟨(f (-9007199254740991) (971)), (f (-9007199254740991) (971))⟩, .defd⟩ : DItv)))),
    .call ((Cmd.run (.intervalPartMixed binary32 (⟨⟨(f (-9007199254740991) (971)), (f 9007199254740991 971)⟩, .trv⟩ : DItv)))),
    .call ((Cmd.run (.intervalPartMixed binary32 (⟨⟨(f 9007199254740991 971), (f 9007199254740991 971)⟩, .dac⟩ : DItv)))),
    .call ((Cmd.run (.intervalPartMixed binary64 (⟨⟨(f 16777215 104), (f 16777215 104)⟩, .trv⟩ : DItv)))),
    .call ((Cmd.run (.intervalPartMixed binary32 (⟨⟨(f (-9007199254740991) (971)), (f (-9007199254740991) (971))⟩, .com⟩ : DItv)))),
    .call ((Cmd.run (.intervalPartMixed binary32 (⟨⟨(f (-9007199254740991) (971)), (f 9007199254740991 971)⟩, .com⟩ : DItv)))),
    .call ((Cmd.run (.intervalPartMixed binary32 (⟨⟨(f 9007199254740991 971), (f 9007199254740991 971)⟩, .com⟩ : DItv)))),
    .call ((Cmd.run (.intervalPartMixed binary64 (⟨⟨.ninf, .pinf⟩, .trv⟩ : DItv)))),
    .call ((Cmd.run (.intervalPartMixed binary32 (⟨⟨.ninf, .pinf⟩, .trv⟩ : DItv)))),
    .call ((Cmd.run (.intervalPartMixed binary64 (⟨⟨.ninf, .pinf⟩, .trv⟩ : DItv)))),
    .call (do (Cmd.run (.intervalPartMixed binary32 (⟨⟨.nan, .nan⟩, .trv⟩ : DItv))); (Cmd.run (.op [(ret <| Fmt.intervalPartMixed binary32 (⟨⟨.nan, .nan⟩, .trv⟩ : DItv) : Itv)]))),
    .call (do (Cmd.run (.intervalPartMixed binary64 (⟨⟨.nan, .nan⟩, .trv⟩ : DItv))); (Cmd.run (.op [(ret <| Fmt.intervalPartMixed binary64 (⟨⟨.nan, .nan⟩, .trv⟩ : DItv) : Itv)]))),
    .state 1115 [],
    .call (do (Cmd.run (.intervalPartMixed binary32 (⟨⟨.nan, .nan⟩, .ill⟩ : DItv))); (Cmd.run (.op [(ret <| Fmt.intervalPartMixed binary32 (⟨⟨.nan, .nan⟩, .ill⟩ : DItv) : Itv)]))),
    .state 1118 [.intervalPartOfNai],
    .call clearFlags,
    .call (do (Cmd.run (.intervalPartMixed binary64 (⟨⟨.nan, .nan⟩, .ill⟩ : DItv))); (Cmd.run (.op [(ret <| Fmt.intervalPartMixed binary64 (⟨⟨.nan, .nan⟩, .ill⟩ : DItv) : Itv)]))),
    .state 1121 [.intervalPartOfNai],
    .call clearFlags,
    .call (setCwd (bitsOf [.intervalPartOfNai])),
    .throws 1125 ((Cmd.run (.intervalPartMixed binary64 (⟨⟨.nan, .nan⟩, .ill⟩ : DItv)))) .intervalPartOfNai,
    .state 1126 [.intervalPartOfNai],
    .call clearFlags,
    .throws 1128 ((Cmd.run (.intervalPartMixed binary32 (⟨⟨.nan, .nan⟩, .ill⟩ : DItv)))) .intervalPartOfNai,
    .state 1129 [.intervalPartOfNai],
    .call clearFlags,
    .call (setCwd (bitsOf [])),
    .call (do (Cmd.run (.intervalPartMixed binary32 (⟨⟨(f (-1) (-1074)), (f (-1) (-149))⟩, .trv⟩ : DItv))); (Cmd.run (.op [(ret <| Fmt.intervalPartMixed binary32 (⟨⟨(f (-1) (-1074)), (f (-1) (-149))⟩, .trv⟩ : DItv) : Itv)]))),
    .state 1134 [.invalidOperand],
    .call clearFlags,
    .call (do (Cmd.run (.intervalPartMixed binary32 (⟨⟨(f 7 0), .nan⟩, .trv⟩ : DItv))); (Cmd.run (.op [(ret <| Fmt.intervalPartMixed binary32 (⟨⟨(f 7 0), .nan⟩, .trv⟩ : DItv) : Itv)]))),
    .state 1137 [.invalidOperand],
    .call clearFlags,
    .call (do (Cmd.run (.intervalPartMixed binary32 (⟨⟨(f 7 0), (f (-3) (0))⟩, .defd⟩ : DItv))); (Cmd.run (.op [(ret <| Fmt.intervalPartMixed binary32 (⟨⟨(f 7 0), (f (-3) (0))⟩, .defd⟩ : DItv) : Itv)]))),
    .state 1140 [.invalidOperand],
    .call clearFlags,
    .call (do (Cmd.run (.intervalPartMixed binary64 (⟨⟨.ninf, .ninf⟩, .com⟩ : DItv))); (Cmd.run (.op [(ret <| Fmt.intervalPartMixed binary64 (⟨⟨.ninf, .ninf⟩, .com⟩ : DItv) : Itv)]))),
    .state 1143 [.invalidOperand],
    .call clearFlags,
    .call (do (Cmd.run (.intervalPartMixed binary64 (⟨⟨.pinf, .pinf⟩, .dac⟩ : DItv))); (Cmd.run (.op [(ret <| Fmt.intervalPartMixed binary64 (⟨⟨.pinf, .pinf⟩, .dac⟩ : DItv) : Itv)]))),
    .state 1146 [.invalidOperand],
    .call clearFlags,
    .call (setCwd (bitsOf [.invalidOperand])),
    .throws 1150 ((Cmd.run (.intervalPartMixed binary32 (⟨⟨(f (-7) (0)), (f (-3) (0))⟩, .ill⟩ : DItv)))) .invalidOperand,
    .state 1151 [.invalidOperand],
    .call clearFlags,
    .call (setCwd (bitsOf []))] ExSt.init = [] := by
  decide +kernel

/-- `minimal_new_dec_test` -/
example : failed [
    .call clearFlags,
    .call ((Cmd.run (.newDec (⟨(f (-3602879824865869) (-47)), (f (7205759403792793) (-56))⟩ : Itv)))),
    .call ((Cmd.run (.newDec (⟨(f (-6710887) (-18)), (f (7205759403792793) (-56))⟩ : Itv)))),
    .call ((Cmd.run (.newDec (⟨(f (-3602879824865869) (-47)), (f (13421773) (-27))⟩ : Itv)))),
    .call ((Cmd.run (.newDec (⟨(f (-6710887) (-18)), (f (13421773) (-27))⟩ : Itv)))),
    .call ((Cmd.run (.newDec (⟨(f (-1) (-1074)), (f (-1) (-1074))⟩ : Itv)))),
    .call ((Cmd.run (.newDec (⟨(f (-1) (-1074)), (f (1) (-1074))⟩ : Itv)))),
    .call ((Cmd.run (.newDec (⟨(f (1) (-1074)), (f (1) (-1074))⟩ : Itv)))),
    .call ((Cmd.run (.newDec (⟨(f (-9007199254740991) (971)), (f (-9007199254740991) (971))⟩ : Itv)))),
    .call ((Cmd.run (.newDec (⟨(f (-9007199254740991) (971)), (f 9007199254740991 971)⟩ : Itv)))),
    .call ((Cmd.run (.newDec (⟨(f 9007199254740991 971), (f 9007199254740991 971)⟩ : Itv)))),
    .call ((Cmd.run (.newDec (⟨.ninf, .pinf⟩ : Itv)))),
    .call (do (Cmd.run (.newDec (⟨.nan, .nan⟩ : Itv))); (Cmd.run (.opD [(ret <| newDecM (⟨.nan, .nan⟩ : Itv) : DItv)]))),
    .call ((Cmd.run (.newDec (⟨(f (-6710887) (-18)), (f (7205759403792793) (-56))⟩ : Itv)))),
    .state 1175 [],
    .call (do (Cmd.run (.newDec (⟨(f 7 0), .nan⟩ : Itv))); (Cmd.run (.opD [(ret <| newDecM (⟨(f 7 0), .nan⟩ : Itv) : DItv)]))),
    .state 1178 [.invalidOperand],
    .call clearFlags,
    .call (do (Cmd.run (.newDec (⟨(f 7 0), (f (-3) (0))⟩ : Itv))); (Cmd.run (.opD [(ret <| newDecM (⟨(f 7 0), (f (-3) (0))⟩ : Itv) : DItv)]))),
    .state 1181 [.invalidOperand],
    .call clearFlags,
    .call (do (Cmd.run (.newDec (⟨.ninf, .ninf⟩ : Itv))); (Cmd.run (.opD [(ret <| newDecM (⟨.ninf, .ninf⟩ : Itv) : DItv)]))),
    .state 1184 [.invalidOperand],
    .call clearFlags,
    .call (do (Cmd.run (.newDec (⟨.pinf, .pinf⟩ : Itv))); (Cmd.run (.opD [(ret <| newDecM (⟨.pinf, .pinf⟩ : Itv) : DItv)]))),
    .state 1187 [.invalidOperand],
    .call clearFlags,
    .call (setCwd (bitsOf [.invalidOperand])),
    .throws 1191 ((Cmd.run (.newDec (⟨(f 7 0), (f (-3) (0))⟩ : Itv)))) .invalidOperand,
    .state 1192 [.invalidOperand],
    .call clearFlags,
    .call (setCwd (bitsOf []))] ExSt.init = [] := by
  decide +kernel

/-- `minimal_new_dec_mixedtype_test` -/
example : failed [
    .call clearFlags,
    .call ((Cmd.run (.newDecMixed binary32 (⟨(f (-3602879824865869) (-47)), (f (7205759403792793) (-56))⟩ : Itv)))),
    .call ((Cmd.run (.newDecMixed binary32 (⟨(f (-6710887) (-18)), (f (7205759403792793) (-56))⟩ : Itv)))),
    .call ((Cmd.run (.newDecMixed binary32 (⟨(f (-3602879824865869) (-47)), (f (13421773) (-27))⟩ : Itv)))),
    .call ((Cmd.run (.newDecMixed binary32 (⟨(f (-6710887) (-18)), (f (13421773) (-27))⟩ : Itv)))),
    .call ((Cmd.run (.newDecMixed binary64 (⟨(f (-6710887) (-18)), (f (13421773) (-27))⟩ : Itv)))),
    .call ((Cmd.run (.newDecMixed binary32 (⟨(f (-1) (-1074)), (f (-1) (-1074))⟩ : Itv)))),
    .call ((Cmd.run (.newDecMixed binary32 (⟨(f (-1) (-1074)), (f (-1) (-1074))⟩ : Itv)))),
    .call ((Cmd.run (.newDecMixed binary32 (⟨(f (-1) (-1074)), (f (1) (-1074))⟩ : Itv)))),
    .call ((Cmd.run (.newDecMixed binary32 (⟨(f (1) (-1074)), (f (1) (-1074))⟩ : Itv)))),
    .call ((Cmd.run (.newDecMixed binary32 (⟨(f (1) (-1074)), (f (1) (-1074))⟩ : Itv)))),
    .call ((Cmd.run (.newDecMixed binary64 (⟨(f (1) (-149)), (f (1) (-149))⟩ : Itv)))),
    .call ((Cmd.run (.newDecMixed binary32 (⟨(f (-9007199254740991) (971)), (f (-9007199254740991) (971))⟩ : Itv)))),
    .call ((Cmd.run (.newDecMixed binary32 (⟨(f (-9007199254740991) (971)), (f 9007199254740991 971)⟩ : Itv)))),
    .call ((Cmd.run (.newDecMixed binary32 (⟨(f 9007199254740991 971), (f 9007199254740991 971)⟩ : Itv)))),
    .call ((Cmd.run (.newDecMixed binary64 (⟨(f 16777215 104), (f 16777215 104)⟩ : Itv)))),
    .call ((Cmd.run (.newDecMixed binary64 (⟨.ninf, .pinf⟩ : Itv)))),
    .call ((Cmd.run (.newDecMixed binary32 (⟨.ninf, .pinf⟩ : Itv)))),
    .call ((Cmd.run (.newDecMixed binary64 (⟨.ninf, .pinf⟩ : Itv)))),
    .call (do (Cmd.run (.newDecMixed binary32 (⟨.nan, .nan⟩ : Itv))); (Cmd.run (.opD [(ret <| Fmt.newDecMixed binary32 (⟨.nan, .nan⟩ : Itv) : DItv)]))),
    .call (do (Cmd.run (.newDecMixed binary64 (⟨.nan, .nan⟩ : Itv))); (Cmd.run (.opD [(ret <| Fmt.newDecMixed binary64 (⟨.nan, .nan⟩ : Itv) : DItv)]))),
    .state 1227 [],
    .call (do (Cmd.run (.newDecMixed binary32 (⟨(f (-1) (-1074)), (f (-1) (-149))⟩ : Itv))); (Cmd.run (.opD [(ret <| Fmt.newDecMixed binary32 (⟨(f (-1) (-1074)), (f (-1) (-149))⟩ : Itv) : DItv)]))),
    .state 1230 [.invalidOperand],
    .call clearFlags,
    .call (do (Cmd.run (.newDecMixed binary32 (⟨(f 7 0), .nan⟩ : Itv))); (Cmd.run (.opD [(ret <| Fmt.newDecMixed binary32 (⟨(f 7 0), .nan⟩ : Itv) : DItv)]))),
    .state 1233 [.invalidOperand],
    .call clearFlags,
    .call (do (Cmd.run (.newDecMixed binary32 (⟨(f 7 0), (f (-3) (0))⟩ : Itv))); (Cmd.run (.opD [(ret <| Fmt.newDecMixed binary32 (⟨(f 7 0), (f (-3) (0))⟩ : Itv) : DItv)]))),
    .state 1236 [.invalidOperand],
    .call clearFlags,
    .call (do (Cmd.run (.newDecMixed binary64 (⟨.ninf, .ninf⟩ : Itv))); (Cmd.run (.opD [(ret <| Fmt.newDecMixed binary64 (⟨.ninf, .ninf⟩ : Itv) : DItv)]))),
    .state 1239 [.invalidOperand],
    .call clearFlags,
    .call (do (Cmd.run (.newDecMixed binary64 (⟨.pinf, .pinf⟩ : Itv))); (Cmd.run (.opD [(ret <| Fmt.newDecMixed binary64 (⟨.pinf, .pinf⟩ : Itv) : DItv)]))),
    .state 1242 [.invalidOperand],
    .call clearFlags,
    .call (setCwd (bitsOf [.invalidOperand])),
    .throws 1246 ((Cmd.run (.newDecMixed binary32 (⟨(f 7 0), (f (-3) (0))⟩ : Itv)))) .invalidOperand,
    .state 1247 [.invalidOperand],
    .call clearFlags,
    .call (setCwd (bitsOf []))] ExSt.init = [] := by
  decide +kernel

/-- `minimal_set_dec_test` -/
example : failed [
    .call clearFlags,
    .call ((Cmd.run (.setDec (⟨(f (-3602879824865869) (-47)), (f (7205759403792793) (-56))⟩ : Itv) (raw .trv)))),
    .call ((Cmd.run (.setDec (⟨(f (-6710887) (-18)), (f (7205759403792793) (-56))⟩ : Itv) (raw .com)))),
    .call ((Cmd.run (.setDec (⟨(f (-3602879824865869) (-47)), (f (13421773) (-27))⟩ : Itv) (raw .dac)))),
    .call ((Cmd.run (.setDec (⟨(f (-6710887) (-18)), (f (13421773) (-27))⟩ : Itv) (raw .defd)))),
    .call ((Cmd.run (.setDec (⟨(f (-1) (-1074)), (f (-1) (-1074))⟩ : Itv) (raw .trv)))),
    .call ((Cmd.run (.setDec (⟨(f (-1) (-1074)), (f (1) (-1074))⟩ : Itv) (raw .defd)))),
    .call ((Cmd.run (.setDec (⟨(f (1) (-1074)), (f (1) (-1074))⟩ : Itv) (raw .dac)))),
    .call ((Cmd.run (.setDec (⟨(f (-9007199254740991) (971)), (f (-9007199254740991) (971))⟩ : Itv) (raw .com)))),
    .call ((Cmd.run (.setDec (⟨(f (-9007199254740991) (971)), (f 9007199254740991 971)⟩ : Itv) (raw .defd)))),
    .call ((Cmd.run (.setDec (⟨(f 9007199254740991 971), (f 9007199254740991 971)⟩ : Itv) (raw .trv)))),
    .call ((Cmd.run (.setDec (⟨.ninf, .pinf⟩ : Itv) (raw .dac)))),
    .call (do (Cmd.run (.setDec (⟨.nan, .nan⟩ : Itv) (raw .trv))); (Cmd.run (.opD [(ret <| setDec (⟨.nan, .nan⟩ : Itv) (raw .trv) : DItv)]))),
    .call ((Cmd.run (.setDec (⟨(f (-6710887) (-18)), (f (7205759403792793) (-56))⟩ : Itv) (raw .com)))),
    .call (do (Cmd.run (.setDec (⟨.nan, .nan⟩ : Itv) (raw .defd))); (Cmd.run (.opD [(ret <| setDec (⟨.nan, .nan⟩ : Itv) (raw .defd) : DItv)]))),
    .call (do (Cmd.run (.setDec (⟨.nan, .nan⟩ : Itv) (raw .dac))); (Cmd.run (.opD [(ret <| setDec (⟨.nan, .nan⟩ : Itv) (raw .dac) : DItv)]))),
    .call (do (Cmd.run (.setDec (⟨.nan, .nan⟩ : Itv) (raw .com))); (Cmd.run (.opD [(ret <| setDec (⟨.nan, .nan⟩ : Itv) (raw .com) : DItv)]))),
    .call ((Cmd.run (.setDec (⟨(f 1 0), .pinf⟩ : Itv) (raw .com)))),
    .call ((Cmd.run (.setDec (⟨.ninf, (f 3 0)⟩ : Itv) (raw .com)))),
    .call ((Cmd.run (.setDec (⟨.ninf, .pinf⟩ : Itv) (raw .com)))),
    .call (do (Cmd.run (.setDec (⟨.nan, .nan⟩ : Itv) (raw .ill))); (Cmd.run (.opD [(ret <| setDec (⟨.nan, .nan⟩ : Itv) (raw .ill) : DItv)]))),
    .call (do (Cmd.run (.setDec (⟨.ninf, (f 3 0)⟩ : Itv) (raw .ill))); (Cmd.run (.opD [(ret <| setDec (⟨.ninf, (f 3 0)⟩ : Itv) (raw .ill) : DItv)]))),
    .call (do (Cmd.run (.setDec (⟨(f (-1) (0)), (f 3 0)⟩ : Itv) (raw .ill))); (Cmd.run (.opD [(ret <| setDec (⟨(f (-1) (0)), (f 3 0)⟩ : Itv) (raw .ill) : DItv)]))),
    .state 1280 [],
    .call (do (Cmd.run (.setDec (⟨(f 7 0), .nan⟩ : Itv) (raw .trv))); (Cmd.run (.opD [(ret <| setDec (⟨(f 7 0), .nan⟩ : Itv) (raw .trv) : DItv)]))),
    .state 1283 [.invalidOperand],
    .call clearFlags,
    .call (do (Cmd.run (.setDec (⟨(f 7 0), (f (-3) (0))⟩ : Itv) (raw .defd))); (Cmd.run (.opD [(ret <| setDec (⟨(f 7 0), (f (-3) (0))⟩ : Itv) (raw .defd) : DItv)]))),
    .state 1286 [.invalidOperand],
    .call clearFlags,
    .call (do (Cmd.run (.setDec (⟨.ninf, .ninf⟩ : Itv) (raw .com))); (Cmd.run (.opD [(ret <| setDec (⟨.ninf, .ninf⟩ : Itv) (raw .com) : DItv)]))),
    .state 1289 [.invalidOperand],
    .call clearFlags,
    .call (do (Cmd.run (.setDec (⟨.pinf, .pinf⟩ : Itv) (raw .dac))); (Cmd.run (.opD [(ret <| setDec (⟨.pinf, .pinf⟩ : Itv) (raw .dac) : DItv)]))),
    .state 1292 [.invalidOperand],
    .call clearFlags,
    .call (do (Cmd.run (.setDec (⟨(f 1 0), (f 2 0)⟩ : Itv) 13)); (Cmd.run (.opD [(ret <| setDec (⟨(f 1 0), (f 2 0)⟩ : Itv) 13 : DItv)]))),
    .state 1298 [.invalidOperand],
    .call clearFlags,
    .call (setCwd (bitsOf [.invalidOperand])),
    .throws 1302 ((Cmd.run (.setDec (⟨(f 7 0), (f (-3) (0))⟩ : Itv) (raw .ill)))) .invalidOperand,
    .state 1303 [.invalidOperand],
    .call clearFlags,
    .throws 1306 ((Cmd.run (.setDec (⟨(f 1 0), (f 2 0)⟩ : Itv) 13))) .invalidOperand,
    .state 1307 [.invalidOperand],
    .call clearFlags,
    .call (setCwd (bitsOf []))] ExSt.init = [] := by
  decide +kernel

/-- `minimal_set_dec_mixedtype_test` -/
example : failed [
    .call clearFlags,
    .call ((Cmd.run (.setDecMixed binary32 (⟨(f (-3602879824865869) (-47)), (f (7205759403792793) (-56))⟩ : Itv) (raw .trv)))),
    .call ((Cmd.run (.setDecMixed binary32 (⟨(f (-6710887) (-18)), (f (7205759403792793) (-56))⟩ : Itv) (raw .com)))),
    .call ((Cmd.run (.setDecMixed binary32 (⟨(f (-3602879824865869) (-47)), (f (13421773) (-27))⟩ : Itv) (raw .dac)))),
    .call ((Cmd.run (.setDecMixed binary32 (⟨(f (-6710887) (-18)), (f (13421773) (-27))⟩ : Itv) (raw .defd)))),
    .call ((Cmd.run (.setDecMixed binary64 (⟨(f (-6710887) (-18)), (f (13421773) (-27))⟩ : Itv) (raw .trv)))),
    .call ((Cmd.run (.setDecMixed binary32 (⟨(f (-1) (-1074)), (f (-1) (-1074))⟩ : Itv) (raw .trv)))),
    .call ((Cmd.run (.setDecMixed binary32 (⟨(f (-1) (-1074)), (f (-1) (-1074))⟩ : Itv) (raw .trv)))),
    .call ((Cmd.run (.setDecMixed binary32 (⟨(f (-1) (-1074)), (f (1) (-1074))⟩ : Itv) (raw .trv)))),
    .call ((Cmd.run (.setDecMixed binary32 (⟨(f (1) (-1074)), (f (1) (-1074))⟩ : Itv) (raw .trv)))),
    .call ((Cmd.run (.setDecMixed binary32 (⟨(f (1) (-1074)), (f (1) (-1074))⟩ : Itv) (raw .trv)))),
    .call ((Cmd.run (.setDecMixed binary64 (⟨(f (1) (-149)), (f (1) (-149))⟩ : Itv) (raw .trv)))),
    .call ((Cmd.run (.setDecMixed binary32 (⟨(f (-9007199254740991) (971)), (f (-9007199254740991) (971))⟩ : Itv) (raw .defd)))),
    .call ((Cmd.run (.setDecMixed binary32 (⟨(f (-9007199254740991) (971)), (f 9007199254740991 971)⟩ : Itv) (raw .trv)))),
    .call ((Cmd.run (.setDecMixed binary32 (⟨(f 9007199254740991 971), (f 9007199254740991 971)⟩ : Itv) (raw .dac)))),
    .call ((Cmd.run (.setDecMixed binary64 (⟨(f 16777215 104), (f 16777215 104)⟩ : Itv) (raw .trv)))),
    .call ((Cmd.run (.setDecMixed binary32 (⟨(f (-9007199254740991) (971)), (f (-9007199254740991) (971))⟩ : Itv) (raw .com)))),
    .call ((Cmd.run (.setDecMixed binary32 (⟨(f (-9007199254740991) (971)), (f 9007199254740991 971)⟩ : Itv) (raw .com)))),
    .call ((Cmd.run (.setDecMixed binary32 (⟨(f 9007199254740991 971), (f 9007199254740991 971)⟩ : Itv) (raw .com)))),
    .call ((Cmd.run (.setDecMixed binary64 (⟨.ninf, .pinf⟩ : Itv) (raw .trv)))),
    .call ((Cmd.run (.setDecMixed binary32 (⟨.ninf, .pinf⟩ : Itv) (raw .trv)))),
    .call ((Cmd.run (.setDecMixed binary64 (⟨.ninf, .pinf⟩ : Itv) (raw .trv)))),
    .call (do (Cmd.run (.setDecMixed binary32 (⟨.nan, .nan⟩ : Itv) (raw .trv))); (Cmd.run (.opD [(ret <| Fmt.setDecMixed binary32 (⟨.nan, .nan⟩ : Itv) (raw .trv) : DItv)]))),
    .call (do (Cmd.run (.setDecMixed binary64 (⟨.nan, .nan⟩ : Itv) (raw .trv))); (Cmd.run (.opD [(ret <| Fmt.setDecMixed binary64 (⟨.nan, .nan⟩ : Itv) (raw .trv) : DItv)]))),
    .call (do (Cmd.run (.setDecMixed binary32 (⟨.nan, .nan⟩ : Itv) (raw .defd))); (Cmd.run (.opD [(ret <| Fmt.setDecMixed binary32 (⟨.nan, .nan⟩ : Itv) (raw .defd) : DItv)]))),
    .call (do (Cmd.run (.setDecMixed binary32 (⟨.nan, .nan⟩ : Itv) (raw .dac))); (Cmd.run (.opD [(ret <| Fmt.setDecMixed binary32 (⟨.nan, .nan⟩ : Itv) (raw .dac) : DItv)]))),
    .call (do (Cmd.run (.setDecMixed binary32 (⟨.nan, .nan⟩ : Itv) (raw .com))); (Cmd.run (.opD [(ret <| Fmt.setDecMixed binary32 (⟨.nan, .nan⟩ : Itv) (raw .com) : DItv)]))),
    .call ((Cmd.run (.setDecMixed binary64 (⟨(f 1 0), .pinf⟩ : Itv) (raw .com)))),
    .call ((Cmd.run (.setDecMixed binary64 (⟨.ninf, (f 3 0)⟩ : Itv) (raw .com)))),
    .call ((Cmd.run (.setDecMixed binary64 (⟨.ninf, .pinf⟩ : Itv) (raw .com)))),
    .call (do (Cmd.run (.setDecMixed binary64 (⟨.nan, .nan⟩ : Itv) (raw .ill))); (Cmd.run (.opD [(ret <| Fmt.setDecMixed binary64 (⟨.nan, .nan⟩ : Itv) (raw .ill) : DItv)]))),
    .call (do (Cmd.run (.setDecMixed binary64 (⟨.ninf, (f 3 0)⟩ : Itv) (raw .ill))); (Cmd.run (.opD [(ret <| Fmt.setDecMixed binary64 (⟨.ninf, (f 3 0)⟩ : Itv) (raw .ill) : DItv)]))),
    .call (do (Cmd.run (.setDecMixed binary64 (⟨(f (-1) (0)), (f 3 0)⟩ : Itv) (raw .ill))); (Cmd.run (.opD [(ret <| Fmt.setDecMixed binary64 (⟨(f (-1) (0)), (f 3 0)⟩ : Itv) (raw .ill) : DItv)]))),
    .state 1356 [],
    .call (do (Cmd.run (.setDecMixed binary32 (⟨(f 7 0), .nan⟩ : Itv) (raw .trv))); (Cmd.run (.opD [(ret <| Fmt.setDecMixed binary32 (⟨(f 7 0), .nan⟩ : Itv) (raw .trv) : DItv)]))),
    .state 1359 [.invalidOperand],
    .call clearFlags,
    .call (do (Cmd.run (.setDecMixed binary32 (⟨(f 7 0), (f (-3) (0))⟩ : Itv) (raw .defd))); (Cmd.run (.opD [(ret <| Fmt.setDecMixed binary32 (⟨(f 7 0), (f (-3) (0))⟩ : Itv) (raw .defd) : DItv)]))),
    .state 1362 [.invalidOperand],
    .call clearFlags,
    .call (do (Cmd.run (.setDecMixed binary64 (⟨.ninf, .ninf⟩ : Itv) (raw .com))); (Cmd.run (.opD [(ret <| Fmt.setDecMixed binary64 (⟨.ninf, .ninf⟩ : Itv) (raw .com) : DItv)]))),
    .state 1365 [.invalidOperand],
    .call clearFlags,
    .call (do (Cmd.run (.setDecMixed binary64 (⟨.pinf, .pinf⟩ : Itv) (raw .dac))); (Cmd.run (.opD [(ret <| Fmt.setDecMixed binary64 (⟨.pinf, .pinf⟩ : Itv) (raw .dac) : DItv)]))),
    .state 1368 [.invalidOperand],
    .call clearFlags,
    .call (do (Cmd.run (.setDec (⟨(f 1 0), (f 2 0)⟩ : Itv) 13)); (Cmd.run (.opD [(ret <| setDec (⟨(f 1 0), (f 2 0)⟩ : Itv) 13 : DItv)]))),
    .state 1374 [.invalidOperand],
    .call clearFlags,
    .call (setCwd (bitsOf [.invalidOperand])),
    .throws 1378 ((Cmd.run (.setDecMixed binary32 (⟨(f 7 0), (f (-3) (0))⟩ : Itv) (raw .ill)))) .invalidOperand,
    .state 1379 [.invalidOperand],
    .call clearFlags,
    .throws 1382 ((Cmd.run (.setDecMixed binary32 (⟨(f 1 0), (f 2 0)⟩ : Itv) 13))) .invalidOperand,
    .state 1383 [.invalidOperand],
    .call clearFlags,
    .call (setCwd (bitsOf []))] ExSt.init = [] := by
  decide +kernel

/-- `minimal_decoration_part_test` -/
example : failed [
    .call clearFlags,
    .call ((Cmd.run (.decorationPart (⟨⟨.nan, .nan⟩, .ill⟩ : DItv)))),
    .call ((Cmd.run (.decorationPart (⟨⟨.nan, .nan⟩, .trv⟩ : DItv)))),
    .call ((Cmd.run (.decorationPart (⟨⟨(f (-1) (0)), (f 3 0)⟩, .trv⟩ : DItv)))),
    .call ((Cmd.run (.decorationPart (⟨⟨(f (-1) (0)), (f 3 0)⟩, .defd⟩ : DItv)))),
    .call ((Cmd.run (.decorationPart (⟨⟨(f (-1) (0)), (f 3 0)⟩, .dac⟩ : DItv)))),
    .call ((Cmd.run (.decorationPart (⟨⟨(f (-1) (0)), (f 3 0)⟩, .com⟩ : DItv)))),
    .state 1400 [],
    .call ((Cmd.run (.decorationPart (⟨⟨(f 1 0), (f 17 0)⟩, .ill⟩ : DItv)))),
    .state 1404 [.invalidOperand],
    .call clearFlags,
    .call ((Cmd.run (.decorationPart (⟨⟨.nan, .nan⟩, .dac⟩ : DItv)))),
    .state 1407 [.invalidOperand],
    .call clearFlags,
    .call ((Cmd.run (.decorationPart (⟨⟨.ninf, (f 3 0)⟩, .com⟩ : DItv)))),
    .state 1410 [.invalidOperand],
    .call clearFlags,
    .call ((Cmd.run (.decorationPart (⟨⟨(f (-15) (0)), .pinf⟩, .com⟩ : DItv)))),
    .state 1413 [.invalidOperand],
    .call clearFlags,
    .call (setCwd (bitsOf [.invalidOperand])),
    .throws 1417 ((Cmd.run (.decorationPart (⟨⟨(f (-15) (0)), .pinf⟩, .com⟩ : DItv)))) .invalidOperand,
    .state 1418 [.invalidOperand],
    .call clearFlags,
    .call (setCwd (bitsOf []))] ExSt.init = [] := by
  decide +kernel

end P1788.Conform
