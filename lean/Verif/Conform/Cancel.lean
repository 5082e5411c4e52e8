import Verif.Conform.Basic

/-!
# Conformance: cancel_func

Generated from `/repo/test/p1788/flavor/infsup/setbased/test_mpfr_bin_ieee754_flavor_cancel_func.cpp`: the assertions of the project's own test suite, evaluated in the
model by the kernel.  Each entry is (line in that file, value of the assertion).  These are tests of the model, not proofs of
properties.
-/

set_option maxRecDepth 100000

namespace P1788.Conform

example : ([
    (58, eqB (Itv.cancelPlus binary64 (⟨.ninf, (f (-1) (0))⟩ : Itv) (Itv.empty : Itv)) (Itv.entire)),
    (59, eqB (Itv.cancelPlus binary64 (⟨(f (-1) (0)), .pinf⟩ : Itv) (Itv.empty : Itv)) (Itv.entire)),
    (60, eqB (Itv.cancelPlus binary64 (Itv.entire : Itv) (Itv.empty : Itv)) (Itv.entire)),
    (61, eqB (Itv.cancelPlus binary64 (⟨.ninf, (f (-1) (0))⟩ : Itv) (⟨(f (-5) (0)), (f 1 0)⟩ : Itv)) (Itv.entire)),
    (62, eqB (Itv.cancelPlus binary64 (⟨(f (-1) (0)), .pinf⟩ : Itv) (⟨(f (-5) (0)), (f 1 0)⟩ : Itv)) (Itv.entire)),
    (63, eqB (Itv.cancelPlus binary64 (Itv.entire : Itv) (⟨(f (-5) (0)), (f 1 0)⟩ : Itv)) (Itv.entire)),
    (64, eqB (Itv.cancelPlus binary64 (⟨.ninf, (f (-1) (0))⟩ : Itv) (Itv.entire : Itv)) (Itv.entire)),
    (65, eqB (Itv.cancelPlus binary64 (⟨(f (-1) (0)), .pinf⟩ : Itv) (Itv.entire : Itv)) (Itv.entire)),
    (66, eqB (Itv.cancelPlus binary64 (Itv.empty : Itv) (⟨(f 1 0), .pinf⟩ : Itv)) (Itv.entire)),
    (67, eqB (Itv.cancelPlus binary64 (Itv.empty : Itv) (⟨.ninf, (f 1 0)⟩ : Itv)) (Itv.entire)),
    (68, eqB (Itv.cancelPlus binary64 (Itv.empty : Itv) (Itv.entire : Itv)) (Itv.entire)),
    (69, eqB (Itv.cancelPlus binary64 (⟨(f (-1) (0)), (f 5 0)⟩ : Itv) (⟨(f 1 0), .pinf⟩ : Itv)) (Itv.entire)),
    (70, eqB (Itv.cancelPlus binary64 (⟨(f (-1) (0)), (f 5 0)⟩ : Itv) (⟨.ninf, (f 1 0)⟩ : Itv)) (Itv.entire)),
    (71, eqB (Itv.cancelPlus binary64 (⟨(f (-1) (0)), (f 5 0)⟩ : Itv) (Itv.entire : Itv)) (Itv.entire)),
    (72, eqB (Itv.cancelPlus binary64 (Itv.entire : Itv) (⟨(f 1 0), .pinf⟩ : Itv)) (Itv.entire)),
    (73, eqB (Itv.cancelPlus binary64 (Itv.entire : Itv) (⟨.ninf, (f 1 0)⟩ : Itv)) (Itv.entire)),
    (74, eqB (Itv.cancelPlus binary64 (Itv.entire : Itv) (Itv.entire : Itv)) (Itv.entire)),
    (76, eqB (Itv.cancelPlus binary64 (⟨(f (-5) (0)), (f (-1) (0))⟩ : Itv) (⟨(f 1 0), (f (2871044762448691) (-49))⟩ : Itv)) (Itv.entire)),
    (77, eqB (Itv.cancelPlus binary64 (⟨(f (-5) (0)), (f (-1) (0))⟩ : Itv) (⟨(f (8106479329266893) (-53)), (f 5 0)⟩ : Itv)) (Itv.entire)),
    (78, eqB (Itv.cancelPlus binary64 (⟨(f (-5) (0)), (f (-1) (0))⟩ : Itv) (⟨(f (8106479329266893) (-53)), (f (2871044762448691) (-49))⟩ : Itv)) (Itv.entire)),
    (79, eqB (Itv.cancelPlus binary64 (⟨(f (-10) (0)), (f 5 0)⟩ : Itv) (⟨(f (-5) (0)), (f (5685794529555251) (-49))⟩ : Itv)) (Itv.entire)),
    (80, eqB (Itv.cancelPlus binary64 (⟨(f (-10) (0)), (f 5 0)⟩ : Itv) (⟨(f (-2871044762448691) (-49)), (f 10 0)⟩ : Itv)) (Itv.entire)),
    (81, eqB (Itv.cancelPlus binary64 (⟨(f (-10) (0)), (f 5 0)⟩ : Itv) (⟨(f (-2871044762448691) (-49)), (f (5685794529555251) (-49))⟩ : Itv)) (Itv.entire)),
    (82, eqB (Itv.cancelPlus binary64 (⟨(f 1 0), (f 5 0)⟩ : Itv) (⟨(f (-5) (0)), (f (-8106479329266893) (-53))⟩ : Itv)) (Itv.entire)),
    (83, eqB (Itv.cancelPlus binary64 (⟨(f 1 0), (f 5 0)⟩ : Itv) (⟨(f (-2871044762448691) (-49)), (f (-1) (0))⟩ : Itv)) (Itv.entire)),
    (84, eqB (Itv.cancelPlus binary64 (⟨(f 1 0), (f 5 0)⟩ : Itv) (⟨(f (-2871044762448691) (-49)), (f (-8106479329266893) (-53))⟩ : Itv)) (Itv.entire)),
    (86, eqB (Itv.cancelPlus binary64 (⟨(f (-10) (0)), (f (-1) (0))⟩ : Itv) (Itv.empty : Itv)) (Itv.entire)),
    (87, eqB (Itv.cancelPlus binary64 (⟨(f (-10) (0)), (f 5 0)⟩ : Itv) (Itv.empty : Itv)) (Itv.entire)),
    (88, eqB (Itv.cancelPlus binary64 (⟨(f 1 0), (f 5 0)⟩ : Itv) (Itv.empty : Itv)) (Itv.entire)),
    (91, Itv.isEmpty (Itv.cancelPlus binary64 (Itv.empty : Itv) (Itv.empty : Itv) : Itv)),
    (92, Itv.isEmpty (Itv.cancelPlus binary64 (Itv.empty : Itv) (⟨(f 1 0), (f 10 0)⟩ : Itv) : Itv)),
    (93, Itv.isEmpty (Itv.cancelPlus binary64 (Itv.empty : Itv) (⟨(f (-5) (0)), (f 10 0)⟩ : Itv) : Itv)),
    (94, Itv.isEmpty (Itv.cancelPlus binary64 (Itv.empty : Itv) (⟨(f (-5) (0)), (f (-1) (0))⟩ : Itv) : Itv)),
    (96, eqB (Itv.cancelPlus binary64 (⟨(f (-2871044762448691) (-49)), .nzero⟩ : Itv) (⟨(f 0 0), (f 5 0)⟩ : Itv)) (⟨(f (-56294995342131) (-49)), (f 0 0)⟩)),
    (97, eqB (Itv.cancelPlus binary64 (⟨(f (-2871044762448691) (-49)), (f (-1) (0))⟩ : Itv) (⟨(f 1 0), (f 5 0)⟩ : Itv)) (⟨(f (-56294995342131) (-49)), (f 0 0)⟩)),
    (98, eqB (Itv.cancelPlus binary64 (⟨(f (-5) (0)), (f (-8106479329266893) (-53))⟩ : Itv) (⟨(f 1 0), (f 5 0)⟩ : Itv)) (⟨(f 0 0), (f (900719925474099) (-53))⟩)),
    (99, eqB (Itv.cancelPlus binary64 (⟨(f (-2871044762448691) (-49)), (f (-8106479329266893) (-53))⟩ : Itv) (⟨(f 1 0), (f 5 0)⟩ : Itv)) (⟨(f (-56294995342131) (-49)), (f (900719925474099) (-53))⟩)),
    (100, eqB (Itv.cancelPlus binary64 (⟨(f (-5) (0)), (f (-1) (0))⟩ : Itv) (⟨(f 1 0), (f 5 0)⟩ : Itv)) (⟨(f 0 0), (f 0 0)⟩)),
    (101, eqB (Itv.cancelPlus binary64 (⟨(f (-5685794529555251) (-49)), (f 5 0)⟩ : Itv) (⟨(f (-5) (0)), (f 10 0)⟩ : Itv)) (⟨(f (-56294995342131) (-49)), (f 0 0)⟩)),
    (102, eqB (Itv.cancelPlus binary64 (⟨(f (-10) (0)), (f (2871044762448691) (-49))⟩ : Itv) (⟨(f (-5) (0)), (f 10 0)⟩ : Itv)) (⟨(f 0 0), (f (56294995342131) (-49))⟩)),
    (103, eqB (Itv.cancelPlus binary64 (⟨(f (-5685794529555251) (-49)), (f (2871044762448691) (-49))⟩ : Itv) (⟨(f (-5) (0)), (f 10 0)⟩ : Itv)) (⟨(f (-56294995342131) (-49)), (f (56294995342131) (-49))⟩)),
    (104, eqB (Itv.cancelPlus binary64 (⟨(f (-10) (0)), (f 5 0)⟩ : Itv) (⟨(f (-5) (0)), (f 10 0)⟩ : Itv)) (⟨(f 0 0), (f 0 0)⟩)),
    (105, eqB (Itv.cancelPlus binary64 (⟨(f (8106479329266893) (-53)), (f 5 0)⟩ : Itv) (⟨(f (-5) (0)), (f (-1) (0))⟩ : Itv)) (⟨(f (-900719925474099) (-53)), (f 0 0)⟩)),
    (106, eqB (Itv.cancelPlus binary64 (⟨(f 1 0), (f (2871044762448691) (-49))⟩ : Itv) (⟨(f (-5) (0)), (f (-1) (0))⟩ : Itv)) (⟨(f 0 0), (f (56294995342131) (-49))⟩)),
    (107, eqB (Itv.cancelPlus binary64 (⟨(f 0 0), (f (2871044762448691) (-49))⟩ : Itv) (⟨(f (-5) (0)), .nzero⟩ : Itv)) (⟨(f 0 0), (f (56294995342131) (-49))⟩)),
    (108, eqB (Itv.cancelPlus binary64 (⟨(f (8106479329266893) (-53)), (f (2871044762448691) (-49))⟩ : Itv) (⟨(f (-5) (0)), (f (-1) (0))⟩ : Itv)) (⟨(f (-900719925474099) (-53)), (f (56294995342131) (-49))⟩)),
    (109, eqB (Itv.cancelPlus binary64 (⟨(f 1 0), (f 5 0)⟩ : Itv) (⟨(f (-5) (0)), (f (-1) (0))⟩ : Itv)) (⟨(f 0 0), (f 0 0)⟩)),
    (110, eqB (Itv.cancelPlus binary64 (⟨(f 0 0), (f 5 0)⟩ : Itv) (⟨(f (-5) (0)), .nzero⟩ : Itv)) (⟨(f 0 0), (f 0 0)⟩)),
    (112, eqB (Itv.cancelPlus binary64 (⟨(f (562949953421311) (-48)), (f (562949953421311) (-48))⟩ : Itv) (⟨(f (-3602879701896397) (-55)), (f (-3602879701896397) (-55))⟩ : Itv)) (⟨(f (4278419646001963) (-51)), (f (8556839292003927) (-52))⟩)),
    (113, eqB (Itv.cancelPlus binary64 (⟨(f (-3602879701896397) (-55)), (f (562949953421311) (-48))⟩ : Itv) (⟨(f (-3602879701896397) (-55)), (f (5764607523034235) (-59))⟩ : Itv)) (⟨(f (-6485183463413515) (-56)), (f (8556839292003927) (-52))⟩))] : List (ℕ × Bool)).all (·.2) = true := by
  decide +kernel

example : ([
    (115, eqB (Itv.cancelPlus binary64 (⟨(f 9007199254740991 971), (f 9007199254740991 971)⟩ : Itv) (⟨(f 9007199254740991 971), (f 9007199254740991 971)⟩ : Itv)) (⟨(f 9007199254740991 971), .pinf⟩)),
    (116, eqB (Itv.cancelPlus binary64 (⟨(f (-9007199254740991) (971)), (f 9007199254740991 971)⟩ : Itv) (⟨(f (-9007199254740991) (971)), (f 9007199254740991 971)⟩ : Itv)) (⟨(f 0 0), (f 0 0)⟩)),
    (117, eqB (Itv.cancelPlus binary64 (⟨(f (-9007199254740991) (971)), (f 9007199254740991 971)⟩ : Itv) (⟨(f (-4503599627370495) (972)), (f 9007199254740991 971)⟩ : Itv)) (⟨(f 0 0), (f 1048576 951)⟩)),
    (118, eqB (Itv.cancelPlus binary64 (⟨(f (-9007199254740991) (971)), (f 9007199254740991 971)⟩ : Itv) (⟨(f (-9007199254740991) (971)), (f 4503599627370495 972)⟩ : Itv)) (⟨(f (-1048576) (951)), (f 0 0)⟩)),
    (119, eqB (Itv.cancelPlus binary64 (⟨(f (-9007199254740991) (971)), (f 4503599627370495 972)⟩ : Itv) (⟨(f (-9007199254740991) (971)), (f 9007199254740991 971)⟩ : Itv)) (Itv.entire)),
    (120, eqB (Itv.cancelPlus binary64 (⟨(f (-4503599627370495) (972)), (f 9007199254740991 971)⟩ : Itv) (⟨(f (-9007199254740991) (971)), (f 9007199254740991 971)⟩ : Itv)) (Itv.entire)),
    (122, eqB (Itv.cancelPlus binary64 (⟨(f (-1) (0)), (f (9007199254740991) (-105))⟩ : Itv) (⟨(f (-1) (0)), (f (4503599627370495) (-104))⟩ : Itv)) (⟨(f (-9007199254740991) (-53)), (f (-4503599627370495) (-52))⟩)),
    (123, eqB (Itv.cancelPlus binary64 (⟨(f (-1) (0)), (f (4503599627370495) (-104))⟩ : Itv) (⟨(f (-1) (0)), (f (9007199254740991) (-105))⟩ : Itv)) (Itv.entire)),
    (129, Itv.isEmpty (Itv.cancelPlus binary64 (⟨(f 1 0), (f (-9007199254740991) (971))⟩ : Itv) (⟨(f 3 0), (f 4 0)⟩ : Itv) : Itv)),
    (142, eqB (Itv.cancelMinusMixed .float .double .float (⟨(f (-5) (0)), (f (-8106479329266893) (-53))⟩ : Itv) (if !(⟨(f 1 0), (f 5 0)⟩ : Itv).isValid then Itv.empty else Fmt.convertHull binary32 (Fmt.negI (⟨(f 1 0), (f 5 0)⟩ : Itv)) : Itv)) (⟨(f 0 0), (f (13421773) (-27))⟩)),
    (143, eqB (Itv.cancelMinusMixed .float .double .float (⟨(f (-2871044762448691) (-49)), (f (-8106479329266893) (-53))⟩ : Itv) (if !(⟨(f 1 0), (f 5 0)⟩ : Itv).isValid then Itv.empty else Fmt.convertHull binary32 (Fmt.negI (⟨(f 1 0), (f 5 0)⟩ : Itv)) : Itv)) (⟨(f (-13421773) (-27)), (f (13421773) (-27))⟩)),
    (144, eqB (Itv.cancelMinusMixed .double .float .double (⟨(f (-5295309) (-19)), (f (10695475) (-21))⟩ : Itv) (if !(⟨(f (-5) (0)), (f 10 0)⟩ : Itv).isValid then Itv.empty else Fmt.convertHull binary64 (Fmt.negI (⟨(f (-5) (0)), (f 10 0)⟩ : Itv)) : Itv)) (⟨(f (-52429) (-19)), (f (209715) (-21))⟩)),
    (145, eqB (Itv.cancelMinusMixed .double .float .double (⟨(f (-13421773) (-27)), (f 2 0)⟩ : Itv) (if !(⟨(f (-13421773) (-27)), (f (5368709) (-29))⟩ : Itv).isValid then Itv.empty else Fmt.convertHull binary64 (Fmt.negI (⟨(f (-13421773) (-27)), (f (5368709) (-29))⟩ : Itv)) : Itv)) (⟨(f (-48318383) (-29)), (f (255013683) (-27))⟩)),
    (146, eqB (Itv.cancelMinusMixed .double .float .double (⟨(f (-1) (0)), (f (8388607) (-75))⟩ : Itv) (if !(⟨(f (-1) (0)), (f (16777215) (-76))⟩ : Itv).isValid then Itv.empty else Fmt.convertHull binary64 (Fmt.negI (⟨(f (-1) (0)), (f (16777215) (-76))⟩ : Itv)) : Itv)) (Itv.entire)),
    (151, Itv.isEmpty (Itv.cancelMinusMixed .float .double .float (⟨(f 1 0), (f (-9007199254740991) (971))⟩ : Itv) (if !(⟨(f 3 0), (f 4 0)⟩ : Itv).isValid then Itv.empty else Fmt.convertHull binary32 (Fmt.negI (⟨(f 3 0), (f 4 0)⟩ : Itv)) : Itv) : Itv)),
    (164, eqD (DItv.cancelMinus binary64 (⟨⟨.ninf, (f (-1) (0))⟩, .dac⟩ : DItv) (Fmt.negD (DItv.empty : DItv))) (⟨⟨.ninf, .pinf⟩, .trv⟩)),
    (165, eqD (DItv.cancelMinus binary64 (⟨⟨(f (-1) (0)), .pinf⟩, .defd⟩ : DItv) (Fmt.negD (DItv.empty : DItv))) (⟨⟨.ninf, .pinf⟩, .trv⟩)),
    (166, eqD (DItv.cancelMinus binary64 (DItv.entire : DItv) (Fmt.negD (DItv.empty : DItv))) (⟨⟨.ninf, .pinf⟩, .trv⟩)),
    (167, eqD (DItv.cancelMinus binary64 (⟨⟨.ninf, (f (-1) (0))⟩, .dac⟩ : DItv) (Fmt.negD (⟨⟨(f (-5) (0)), (f 1 0)⟩, .com⟩ : DItv))) (⟨⟨.ninf, .pinf⟩, .trv⟩)),
    (168, eqD (DItv.cancelMinus binary64 (⟨⟨(f (-1) (0)), .pinf⟩, .trv⟩ : DItv) (Fmt.negD (⟨⟨(f (-5) (0)), (f 1 0)⟩, .defd⟩ : DItv))) (⟨⟨.ninf, .pinf⟩, .trv⟩)),
    (169, eqD (DItv.cancelMinus binary64 (DItv.entire : DItv) (Fmt.negD (⟨⟨(f (-5) (0)), (f 1 0)⟩, .defd⟩ : DItv))) (⟨⟨.ninf, .pinf⟩, .trv⟩)),
    (170, eqD (DItv.cancelMinus binary64 (⟨⟨.ninf, (f (-1) (0))⟩, .dac⟩ : DItv) (Fmt.negD (DItv.entire : DItv))) (⟨⟨.ninf, .pinf⟩, .trv⟩)),
    (171, eqD (DItv.cancelMinus binary64 (⟨⟨(f (-1) (0)), .pinf⟩, .defd⟩ : DItv) (Fmt.negD (DItv.entire : DItv))) (⟨⟨.ninf, .pinf⟩, .trv⟩)),
    (172, eqD (DItv.cancelMinus binary64 (DItv.empty : DItv) (Fmt.negD (⟨⟨(f 1 0), .pinf⟩, .defd⟩ : DItv))) (⟨⟨.ninf, .pinf⟩, .trv⟩)),
    (173, eqD (DItv.cancelMinus binary64 (DItv.empty : DItv) (Fmt.negD (⟨⟨.ninf, (f 1 0)⟩, .trv⟩ : DItv))) (⟨⟨.ninf, .pinf⟩, .trv⟩)),
    (174, eqD (DItv.cancelMinus binary64 (DItv.empty : DItv) (Fmt.negD (DItv.entire : DItv))) (⟨⟨.ninf, .pinf⟩, .trv⟩)),
    (175, eqD (DItv.cancelMinus binary64 (⟨⟨(f (-1) (0)), (f 5 0)⟩, .dac⟩ : DItv) (Fmt.negD (⟨⟨(f 1 0), .pinf⟩, .dac⟩ : DItv))) (⟨⟨.ninf, .pinf⟩, .trv⟩)),
    (176, eqD (DItv.cancelMinus binary64 (⟨⟨(f (-1) (0)), (f 5 0)⟩, .defd⟩ : DItv) (Fmt.negD (⟨⟨.ninf, (f 1 0)⟩, .dac⟩ : DItv))) (⟨⟨.ninf, .pinf⟩, .trv⟩)),
    (177, eqD (DItv.cancelMinus binary64 (⟨⟨(f (-1) (0)), (f 5 0)⟩, .com⟩ : DItv) (Fmt.negD (DItv.entire : DItv))) (⟨⟨.ninf, .pinf⟩, .trv⟩)),
    (178, eqD (DItv.cancelMinus binary64 (DItv.entire : DItv) (Fmt.negD (⟨⟨(f 1 0), .pinf⟩, .dac⟩ : DItv))) (⟨⟨.ninf, .pinf⟩, .trv⟩)),
    (179, eqD (DItv.cancelMinus binary64 (DItv.entire : DItv) (Fmt.negD (⟨⟨.ninf, (f 1 0)⟩, .defd⟩ : DItv))) (⟨⟨.ninf, .pinf⟩, .trv⟩)),
    (180, eqD (DItv.cancelMinus binary64 (DItv.entire : DItv) (Fmt.negD (DItv.entire : DItv))) (⟨⟨.ninf, .pinf⟩, .trv⟩)),
    (182, eqD (DItv.cancelMinus binary64 (⟨⟨(f (-5) (0)), (f (-1) (0))⟩, .com⟩ : DItv) (Fmt.negD (⟨⟨(f 1 0), (f (2871044762448691) (-49))⟩, .defd⟩ : DItv))) (⟨⟨.ninf, .pinf⟩, .trv⟩)),
    (183, eqD (DItv.cancelMinus binary64 (⟨⟨(f (-5) (0)), (f (-1) (0))⟩, .dac⟩ : DItv) (Fmt.negD (⟨⟨(f (8106479329266893) (-53)), (f 5 0)⟩, .defd⟩ : DItv))) (⟨⟨.ninf, .pinf⟩, .trv⟩)),
    (184, eqD (DItv.cancelMinus binary64 (⟨⟨(f (-5) (0)), (f (-1) (0))⟩, .defd⟩ : DItv) (Fmt.negD (⟨⟨(f (8106479329266893) (-53)), (f (2871044762448691) (-49))⟩, .defd⟩ : DItv))) (⟨⟨.ninf, .pinf⟩, .trv⟩)),
    (185, eqD (DItv.cancelMinus binary64 (⟨⟨(f (-10) (0)), (f 5 0)⟩, .trv⟩ : DItv) (Fmt.negD (⟨⟨(f (-5) (0)), (f (5685794529555251) (-49))⟩, .dac⟩ : DItv))) (⟨⟨.ninf, .pinf⟩, .trv⟩)),
    (186, eqD (DItv.cancelMinus binary64 (⟨⟨(f (-10) (0)), (f 5 0)⟩, .com⟩ : DItv) (Fmt.negD (⟨⟨(f (-2871044762448691) (-49)), (f 10 0)⟩, .dac⟩ : DItv))) (⟨⟨.ninf, .pinf⟩, .trv⟩)),
    (187, eqD (DItv.cancelMinus binary64 (⟨⟨(f (-10) (0)), (f 5 0)⟩, .dac⟩ : DItv) (Fmt.negD (⟨⟨(f (-2871044762448691) (-49)), (f (5685794529555251) (-49))⟩, .dac⟩ : DItv))) (⟨⟨.ninf, .pinf⟩, .trv⟩)),
    (188, eqD (DItv.cancelMinus binary64 (⟨⟨(f 1 0), (f 5 0)⟩, .defd⟩ : DItv) (Fmt.negD (⟨⟨(f (-5) (0)), (f (-8106479329266893) (-53))⟩, .com⟩ : DItv))) (⟨⟨.ninf, .pinf⟩, .trv⟩)),
    (189, eqD (DItv.cancelMinus binary64 (⟨⟨(f 1 0), (f 5 0)⟩, .trv⟩ : DItv) (Fmt.negD (⟨⟨(f (-2871044762448691) (-49)), (f (-1) (0))⟩, .com⟩ : DItv))) (⟨⟨.ninf, .pinf⟩, .trv⟩)),
    (190, eqD (DItv.cancelMinus binary64 (⟨⟨(f 1 0), (f 5 0)⟩, .dac⟩ : DItv) (Fmt.negD (⟨⟨(f (-2871044762448691) (-49)), (f (-8106479329266893) (-53))⟩, .com⟩ : DItv))) (⟨⟨.ninf, .pinf⟩, .trv⟩)),
    (192, eqD (DItv.cancelMinus binary64 (⟨⟨(f (-10) (0)), (f (-1) (0))⟩, .trv⟩ : DItv) (Fmt.negD (DItv.empty : DItv))) (⟨⟨.ninf, .pinf⟩, .trv⟩)),
    (193, eqD (DItv.cancelMinus binary64 (⟨⟨(f (-10) (0)), (f 5 0)⟩, .defd⟩ : DItv) (Fmt.negD (DItv.empty : DItv))) (⟨⟨.ninf, .pinf⟩, .trv⟩)),
    (194, eqD (DItv.cancelMinus binary64 (⟨⟨(f 1 0), (f 5 0)⟩, .com⟩ : DItv) (Fmt.negD (DItv.empty : DItv))) (⟨⟨.ninf, .pinf⟩, .trv⟩)),
    (197, DItv.pred Itv.isEmpty (DItv.cancelMinus binary64 (DItv.empty : DItv) (Fmt.negD (DItv.empty : DItv)) : DItv)),
    (198, DItv.pred Itv.isEmpty (DItv.cancelMinus binary64 (DItv.empty : DItv) (Fmt.negD (⟨⟨(f 1 0), (f 10 0)⟩, .dac⟩ : DItv)) : DItv)),
    (199, DItv.pred Itv.isEmpty (DItv.cancelMinus binary64 (DItv.empty : DItv) (Fmt.negD (⟨⟨(f (-5) (0)), (f 10 0)⟩, .defd⟩ : DItv)) : DItv)),
    (200, DItv.pred Itv.isEmpty (DItv.cancelMinus binary64 (DItv.empty : DItv) (Fmt.negD (⟨⟨(f (-5) (0)), (f (-1) (0))⟩, .com⟩ : DItv)) : DItv)),
    (202, eqD (DItv.cancelMinus binary64 (⟨⟨(f (-2871044762448691) (-49)), .nzero⟩, .com⟩ : DItv) (Fmt.negD (⟨⟨(f 0 0), (f 5 0)⟩, .com⟩ : DItv))) (⟨⟨(f (-56294995342131) (-49)), (f 0 0)⟩, .trv⟩)),
    (203, eqD (DItv.cancelMinus binary64 (⟨⟨(f (-2871044762448691) (-49)), (f (-1) (0))⟩, .com⟩ : DItv) (Fmt.negD (⟨⟨(f 1 0), (f 5 0)⟩, .dac⟩ : DItv))) (⟨⟨(f (-56294995342131) (-49)), (f 0 0)⟩, .trv⟩))] : List (ℕ × Bool)).all (·.2) = true := by
  decide +kernel

example : ([
    (204, eqD (DItv.cancelMinus binary64 (⟨⟨(f (-5) (0)), (f (-8106479329266893) (-53))⟩, .com⟩ : DItv) (Fmt.negD (⟨⟨(f 1 0), (f 5 0)⟩, .defd⟩ : DItv))) (⟨⟨(f 0 0), (f (900719925474099) (-53))⟩, .trv⟩)),
    (205, eqD (DItv.cancelMinus binary64 (⟨⟨(f (-2871044762448691) (-49)), (f (-8106479329266893) (-53))⟩, .dac⟩ : DItv) (Fmt.negD (⟨⟨(f 1 0), (f 5 0)⟩, .trv⟩ : DItv))) (⟨⟨(f (-56294995342131) (-49)), (f (900719925474099) (-53))⟩, .trv⟩)),
    (206, eqD (DItv.cancelMinus binary64 (⟨⟨(f (-5) (0)), (f (-1) (0))⟩, .dac⟩ : DItv) (Fmt.negD (⟨⟨(f 1 0), (f 5 0)⟩, .com⟩ : DItv))) (⟨⟨(f 0 0), (f 0 0)⟩, .trv⟩)),
    (207, eqD (DItv.cancelMinus binary64 (⟨⟨(f (-5685794529555251) (-49)), (f 5 0)⟩, .dac⟩ : DItv) (Fmt.negD (⟨⟨(f (-5) (0)), (f 10 0)⟩, .dac⟩ : DItv))) (⟨⟨(f (-56294995342131) (-49)), (f 0 0)⟩, .trv⟩)),
    (208, eqD (DItv.cancelMinus binary64 (⟨⟨(f (-10) (0)), (f (2871044762448691) (-49))⟩, .defd⟩ : DItv) (Fmt.negD (⟨⟨(f (-5) (0)), (f 10 0)⟩, .defd⟩ : DItv))) (⟨⟨(f 0 0), (f (56294995342131) (-49))⟩, .trv⟩)),
    (209, eqD (DItv.cancelMinus binary64 (⟨⟨(f (-5685794529555251) (-49)), (f (2871044762448691) (-49))⟩, .defd⟩ : DItv) (Fmt.negD (⟨⟨(f (-5) (0)), (f 10 0)⟩, .trv⟩ : DItv))) (⟨⟨(f (-56294995342131) (-49)), (f (56294995342131) (-49))⟩, .trv⟩)),
    (210, eqD (DItv.cancelMinus binary64 (⟨⟨(f (-10) (0)), (f 5 0)⟩, .defd⟩ : DItv) (Fmt.negD (⟨⟨(f (-5) (0)), (f 10 0)⟩, .com⟩ : DItv))) (⟨⟨(f 0 0), (f 0 0)⟩, .trv⟩)),
    (211, eqD (DItv.cancelMinus binary64 (⟨⟨(f (8106479329266893) (-53)), (f 5 0)⟩, .trv⟩ : DItv) (Fmt.negD (⟨⟨(f (-5) (0)), (f (-1) (0))⟩, .dac⟩ : DItv))) (⟨⟨(f (-900719925474099) (-53)), (f 0 0)⟩, .trv⟩)),
    (212, eqD (DItv.cancelMinus binary64 (⟨⟨(f 1 0), (f (2871044762448691) (-49))⟩, .trv⟩ : DItv) (Fmt.negD (⟨⟨(f (-5) (0)), (f (-1) (0))⟩, .defd⟩ : DItv))) (⟨⟨(f 0 0), (f (56294995342131) (-49))⟩, .trv⟩)),
    (213, eqD (DItv.cancelMinus binary64 (⟨⟨(f 0 0), (f (2871044762448691) (-49))⟩, .trv⟩ : DItv) (Fmt.negD (⟨⟨(f (-5) (0)), .nzero⟩, .trv⟩ : DItv))) (⟨⟨(f 0 0), (f (56294995342131) (-49))⟩, .trv⟩)),
    (214, eqD (DItv.cancelMinus binary64 (⟨⟨(f (8106479329266893) (-53)), (f (2871044762448691) (-49))⟩, .com⟩ : DItv) (Fmt.negD (⟨⟨(f (-5) (0)), (f (-1) (0))⟩, .com⟩ : DItv))) (⟨⟨(f (-900719925474099) (-53)), (f (56294995342131) (-49))⟩, .trv⟩)),
    (215, eqD (DItv.cancelMinus binary64 (⟨⟨(f 1 0), (f 5 0)⟩, .dac⟩ : DItv) (Fmt.negD (⟨⟨(f (-5) (0)), (f (-1) (0))⟩, .dac⟩ : DItv))) (⟨⟨(f 0 0), (f 0 0)⟩, .trv⟩)),
    (216, eqD (DItv.cancelMinus binary64 (⟨⟨(f 0 0), (f 5 0)⟩, .defd⟩ : DItv) (Fmt.negD (⟨⟨(f (-5) (0)), .nzero⟩, .trv⟩ : DItv))) (⟨⟨(f 0 0), (f 0 0)⟩, .trv⟩)),
    (218, eqD (DItv.cancelMinus binary64 (⟨⟨(f (562949953421311) (-48)), (f (562949953421311) (-48))⟩, .com⟩ : DItv) (Fmt.negD (⟨⟨(f (-3602879701896397) (-55)), (f (-3602879701896397) (-55))⟩, .com⟩ : DItv))) (⟨⟨(f (4278419646001963) (-51)), (f (8556839292003927) (-52))⟩, .trv⟩)),
    (219, eqD (DItv.cancelMinus binary64 (⟨⟨(f (-3602879701896397) (-55)), (f (562949953421311) (-48))⟩, .dac⟩ : DItv) (Fmt.negD (⟨⟨(f (-3602879701896397) (-55)), (f (5764607523034235) (-59))⟩, .com⟩ : DItv))) (⟨⟨(f (-6485183463413515) (-56)), (f (8556839292003927) (-52))⟩, .trv⟩)),
    (221, eqD (DItv.cancelMinus binary64 (⟨⟨(f 9007199254740991 971), (f 9007199254740991 971)⟩, .com⟩ : DItv) (Fmt.negD (⟨⟨(f 9007199254740991 971), (f 9007199254740991 971)⟩, .com⟩ : DItv))) (⟨⟨(f 9007199254740991 971), .pinf⟩, .trv⟩)),
    (222, eqD (DItv.cancelMinus binary64 (⟨⟨(f (-9007199254740991) (971)), (f 9007199254740991 971)⟩, .com⟩ : DItv) (Fmt.negD (⟨⟨(f (-9007199254740991) (971)), (f 9007199254740991 971)⟩, .com⟩ : DItv))) (⟨⟨(f 0 0), (f 0 0)⟩, .trv⟩)),
    (223, eqD (DItv.cancelMinus binary64 (⟨⟨(f (-9007199254740991) (971)), (f 9007199254740991 971)⟩, .dac⟩ : DItv) (Fmt.negD (⟨⟨(f (-4503599627370495) (972)), (f 9007199254740991 971)⟩, .com⟩ : DItv))) (⟨⟨(f 0 0), (f 1048576 951)⟩, .trv⟩)),
    (224, eqD (DItv.cancelMinus binary64 (⟨⟨(f (-9007199254740991) (971)), (f 9007199254740991 971)⟩, .dac⟩ : DItv) (Fmt.negD (⟨⟨(f (-9007199254740991) (971)), (f 4503599627370495 972)⟩, .com⟩ : DItv))) (⟨⟨(f (-1048576) (951)), (f 0 0)⟩, .trv⟩)),
    (225, eqD (DItv.cancelMinus binary64 (⟨⟨(f (-9007199254740991) (971)), (f 4503599627370495 972)⟩, .com⟩ : DItv) (Fmt.negD (⟨⟨(f (-9007199254740991) (971)), (f 9007199254740991 971)⟩, .com⟩ : DItv))) (⟨⟨.ninf, .pinf⟩, .trv⟩)),
    (226, eqD (DItv.cancelMinus binary64 (⟨⟨(f (-4503599627370495) (972)), (f 9007199254740991 971)⟩, .com⟩ : DItv) (Fmt.negD (⟨⟨(f (-9007199254740991) (971)), (f 9007199254740991 971)⟩, .com⟩ : DItv))) (⟨⟨.ninf, .pinf⟩, .trv⟩)),
    (228, eqD (DItv.cancelMinus binary64 (⟨⟨(f (-1) (0)), (f (9007199254740991) (-105))⟩, .dac⟩ : DItv) (Fmt.negD (⟨⟨(f (-1) (0)), (f (4503599627370495) (-104))⟩, .com⟩ : DItv))) (⟨⟨(f (-9007199254740991) (-53)), (f (-4503599627370495) (-52))⟩, .trv⟩)),
    (229, eqD (DItv.cancelMinus binary64 (⟨⟨(f (-1) (0)), (f (4503599627370495) (-104))⟩, .defd⟩ : DItv) (Fmt.negD (⟨⟨(f (-1) (0)), (f (9007199254740991) (-105))⟩, .com⟩ : DItv))) (⟨⟨.ninf, .pinf⟩, .trv⟩)),
    (236, DItv.isNai (DItv.cancelMinus binary64 (⟨⟨(f 1 0), (f (-9007199254740991) (971))⟩, .trv⟩ : DItv) (Fmt.negD (⟨⟨(f 3 0), (f 4 0)⟩, .trv⟩ : DItv)) : DItv)),
    (249, eqD (DItv.cancelMinusMixed .float .double .float (⟨⟨(f (-5) (0)), (f (-8106479329266893) (-53))⟩, .com⟩ : DItv) (if !(⟨⟨(f 1 0), (f 5 0)⟩, .com⟩ : DItv).isValid || (⟨⟨(f 1 0), (f 5 0)⟩, .com⟩ : DItv).isNai then DItv.nai else Fmt.convertHullD binary32 (Fmt.negD (⟨⟨(f 1 0), (f 5 0)⟩, .com⟩ : DItv)) : DItv)) (⟨⟨(f 0 0), (f (13421773) (-27))⟩, .trv⟩)),
    (250, eqD (DItv.cancelMinusMixed .float .double .float (⟨⟨(f (-2871044762448691) (-49)), (f (-8106479329266893) (-53))⟩, .dac⟩ : DItv) (if !(⟨⟨(f 1 0), (f 5 0)⟩, .defd⟩ : DItv).isValid || (⟨⟨(f 1 0), (f 5 0)⟩, .defd⟩ : DItv).isNai then DItv.nai else Fmt.convertHullD binary32 (Fmt.negD (⟨⟨(f 1 0), (f 5 0)⟩, .defd⟩ : DItv)) : DItv)) (⟨⟨(f (-13421773) (-27)), (f (13421773) (-27))⟩, .trv⟩)),
    (251, eqD (DItv.cancelMinusMixed .double .float .double (⟨⟨(f (-5295309) (-19)), (f (10695475) (-21))⟩, .defd⟩ : DItv) (if !(⟨⟨(f (-5) (0)), (f 10 0)⟩, .trv⟩ : DItv).isValid || (⟨⟨(f (-5) (0)), (f 10 0)⟩, .trv⟩ : DItv).isNai then DItv.nai else Fmt.convertHullD binary64 (Fmt.negD (⟨⟨(f (-5) (0)), (f 10 0)⟩, .trv⟩ : DItv)) : DItv)) (⟨⟨(f (-52429) (-19)), (f (209715) (-21))⟩, .trv⟩)),
    (252, eqD (DItv.cancelMinusMixed .double .float .double (⟨⟨(f (-13421773) (-27)), (f 2 0)⟩, .trv⟩ : DItv) (if !(⟨⟨(f (-13421773) (-27)), (f (5368709) (-29))⟩, .dac⟩ : DItv).isValid || (⟨⟨(f (-13421773) (-27)), (f (5368709) (-29))⟩, .dac⟩ : DItv).isNai then DItv.nai else Fmt.convertHullD binary64 (Fmt.negD (⟨⟨(f (-13421773) (-27)), (f (5368709) (-29))⟩, .dac⟩ : DItv)) : DItv)) (⟨⟨(f (-48318383) (-29)), (f (255013683) (-27))⟩, .trv⟩)),
    (253, eqD (DItv.cancelMinusMixed .double .float .double (⟨⟨(f (-1) (0)), (f (8388607) (-75))⟩, .com⟩ : DItv) (if !(⟨⟨(f (-1) (0)), (f (16777215) (-76))⟩, .defd⟩ : DItv).isValid || (⟨⟨(f (-1) (0)), (f (16777215) (-76))⟩, .defd⟩ : DItv).isNai then DItv.nai else Fmt.convertHullD binary64 (Fmt.negD (⟨⟨(f (-1) (0)), (f (16777215) (-76))⟩, .defd⟩ : DItv)) : DItv)) (⟨⟨.ninf, .pinf⟩, .trv⟩)),
    (259, DItv.isNai (DItv.cancelMinusMixed .float .double .float (⟨⟨(f 1 0), (f (-9007199254740991) (971))⟩, .trv⟩ : DItv) (if !(⟨⟨(f 3 0), (f 4 0)⟩, .trv⟩ : DItv).isValid || (⟨⟨(f 3 0), (f 4 0)⟩, .trv⟩ : DItv).isNai then DItv.nai else Fmt.convertHullD binary32 (Fmt.negD (⟨⟨(f 3 0), (f 4 0)⟩, .trv⟩ : DItv)) : DItv) : DItv)),
    (272, eqB (Itv.cancelMinus binary64 (⟨.ninf, (f (-1) (0))⟩ : Itv) (Itv.empty : Itv)) (Itv.entire)),
    (273, eqB (Itv.cancelMinus binary64 (⟨(f (-1) (0)), .pinf⟩ : Itv) (Itv.empty : Itv)) (Itv.entire)),
    (274, eqB (Itv.cancelMinus binary64 (Itv.entire : Itv) (Itv.empty : Itv)) (Itv.entire)),
    (275, eqB (Itv.cancelMinus binary64 (⟨.ninf, (f (-1) (0))⟩ : Itv) (⟨(f (-1) (0)), (f 5 0)⟩ : Itv)) (Itv.entire)),
    (276, eqB (Itv.cancelMinus binary64 (⟨(f (-1) (0)), .pinf⟩ : Itv) (⟨(f (-1) (0)), (f 5 0)⟩ : Itv)) (Itv.entire)),
    (277, eqB (Itv.cancelMinus binary64 (Itv.entire : Itv) (⟨(f (-1) (0)), (f 5 0)⟩ : Itv)) (Itv.entire)),
    (278, eqB (Itv.cancelMinus binary64 (⟨.ninf, (f (-1) (0))⟩ : Itv) (Itv.entire : Itv)) (Itv.entire)),
    (279, eqB (Itv.cancelMinus binary64 (⟨(f (-1) (0)), .pinf⟩ : Itv) (Itv.entire : Itv)) (Itv.entire)),
    (280, eqB (Itv.cancelMinus binary64 (Itv.empty : Itv) (⟨.ninf, (f (-1) (0))⟩ : Itv)) (Itv.entire)),
    (281, eqB (Itv.cancelMinus binary64 (Itv.empty : Itv) (⟨(f (-1) (0)), .pinf⟩ : Itv)) (Itv.entire)),
    (282, eqB (Itv.cancelMinus binary64 (Itv.empty : Itv) (Itv.entire : Itv)) (Itv.entire)),
    (283, eqB (Itv.cancelMinus binary64 (⟨(f (-1) (0)), (f 5 0)⟩ : Itv) (⟨.ninf, (f (-1) (0))⟩ : Itv)) (Itv.entire)),
    (284, eqB (Itv.cancelMinus binary64 (⟨(f (-1) (0)), (f 5 0)⟩ : Itv) (⟨(f (-1) (0)), .pinf⟩ : Itv)) (Itv.entire)),
    (285, eqB (Itv.cancelMinus binary64 (⟨(f (-1) (0)), (f 5 0)⟩ : Itv) (Itv.entire : Itv)) (Itv.entire)),
    (286, eqB (Itv.cancelMinus binary64 (Itv.entire : Itv) (⟨.ninf, (f (-1) (0))⟩ : Itv)) (Itv.entire)),
    (287, eqB (Itv.cancelMinus binary64 (Itv.entire : Itv) (⟨(f (-1) (0)), .pinf⟩ : Itv)) (Itv.entire)),
    (288, eqB (Itv.cancelMinus binary64 (Itv.entire : Itv) (Itv.entire : Itv)) (Itv.entire)),
    (290, eqB (Itv.cancelMinus binary64 (⟨(f (-5) (0)), (f (-1) (0))⟩ : Itv) (⟨(f (-2871044762448691) (-49)), (f (-1) (0))⟩ : Itv)) (Itv.entire)),
    (291, eqB (Itv.cancelMinus binary64 (⟨(f (-5) (0)), (f (-1) (0))⟩ : Itv) (⟨(f (-5) (0)), (f (-8106479329266893) (-53))⟩ : Itv)) (Itv.entire)),
    (292, eqB (Itv.cancelMinus binary64 (⟨(f (-5) (0)), (f (-1) (0))⟩ : Itv) (⟨(f (-2871044762448691) (-49)), (f (-8106479329266893) (-53))⟩ : Itv)) (Itv.entire))] : List (ℕ × Bool)).all (·.2) = true := by
  decide +kernel

example : ([
    (293, eqB (Itv.cancelMinus binary64 (⟨(f (-10) (0)), (f 5 0)⟩ : Itv) (⟨(f (-5685794529555251) (-49)), (f 5 0)⟩ : Itv)) (Itv.entire)),
    (294, eqB (Itv.cancelMinus binary64 (⟨(f (-10) (0)), (f 5 0)⟩ : Itv) (⟨(f (-10) (0)), (f (2871044762448691) (-49))⟩ : Itv)) (Itv.entire)),
    (295, eqB (Itv.cancelMinus binary64 (⟨(f (-10) (0)), (f 5 0)⟩ : Itv) (⟨(f (-5685794529555251) (-49)), (f (2871044762448691) (-49))⟩ : Itv)) (Itv.entire)),
    (296, eqB (Itv.cancelMinus binary64 (⟨(f 1 0), (f 5 0)⟩ : Itv) (⟨(f (8106479329266893) (-53)), (f 5 0)⟩ : Itv)) (Itv.entire)),
    (297, eqB (Itv.cancelMinus binary64 (⟨(f 1 0), (f 5 0)⟩ : Itv) (⟨(f 1 0), (f (2871044762448691) (-49))⟩ : Itv)) (Itv.entire)),
    (298, eqB (Itv.cancelMinus binary64 (⟨(f 1 0), (f 5 0)⟩ : Itv) (⟨(f (8106479329266893) (-53)), (f (2871044762448691) (-49))⟩ : Itv)) (Itv.entire)),
    (300, eqB (Itv.cancelMinus binary64 (⟨(f (-10) (0)), (f (-1) (0))⟩ : Itv) (Itv.empty : Itv)) (Itv.entire)),
    (301, eqB (Itv.cancelMinus binary64 (⟨(f (-10) (0)), (f 5 0)⟩ : Itv) (Itv.empty : Itv)) (Itv.entire)),
    (302, eqB (Itv.cancelMinus binary64 (⟨(f 1 0), (f 5 0)⟩ : Itv) (Itv.empty : Itv)) (Itv.entire)),
    (305, Itv.isEmpty (Itv.cancelMinus binary64 (Itv.empty : Itv) (Itv.empty : Itv) : Itv)),
    (306, Itv.isEmpty (Itv.cancelMinus binary64 (Itv.empty : Itv) (⟨(f (-10) (0)), (f (-1) (0))⟩ : Itv) : Itv)),
    (307, Itv.isEmpty (Itv.cancelMinus binary64 (Itv.empty : Itv) (⟨(f (-10) (0)), (f 5 0)⟩ : Itv) : Itv)),
    (308, Itv.isEmpty (Itv.cancelMinus binary64 (Itv.empty : Itv) (⟨(f 1 0), (f 5 0)⟩ : Itv) : Itv)),
    (310, eqB (Itv.cancelMinus binary64 (⟨(f (-2871044762448691) (-49)), .nzero⟩ : Itv) (⟨(f (-5) (0)), (f 0 0)⟩ : Itv)) (⟨(f (-56294995342131) (-49)), (f 0 0)⟩)),
    (311, eqB (Itv.cancelMinus binary64 (⟨(f (-2871044762448691) (-49)), (f (-1) (0))⟩ : Itv) (⟨(f (-5) (0)), (f (-1) (0))⟩ : Itv)) (⟨(f (-56294995342131) (-49)), (f 0 0)⟩)),
    (312, eqB (Itv.cancelMinus binary64 (⟨(f (-5) (0)), (f (-8106479329266893) (-53))⟩ : Itv) (⟨(f (-5) (0)), (f (-1) (0))⟩ : Itv)) (⟨(f 0 0), (f (900719925474099) (-53))⟩)),
    (313, eqB (Itv.cancelMinus binary64 (⟨(f (-2871044762448691) (-49)), (f (-8106479329266893) (-53))⟩ : Itv) (⟨(f (-5) (0)), (f (-1) (0))⟩ : Itv)) (⟨(f (-56294995342131) (-49)), (f (900719925474099) (-53))⟩)),
    (314, eqB (Itv.cancelMinus binary64 (⟨(f (-5) (0)), (f (-1) (0))⟩ : Itv) (⟨(f (-5) (0)), (f (-1) (0))⟩ : Itv)) (⟨(f 0 0), (f 0 0)⟩)),
    (315, eqB (Itv.cancelMinus binary64 (⟨(f (-5685794529555251) (-49)), (f 5 0)⟩ : Itv) (⟨(f (-10) (0)), (f 5 0)⟩ : Itv)) (⟨(f (-56294995342131) (-49)), (f 0 0)⟩)),
    (316, eqB (Itv.cancelMinus binary64 (⟨(f (-10) (0)), (f (2871044762448691) (-49))⟩ : Itv) (⟨(f (-10) (0)), (f 5 0)⟩ : Itv)) (⟨(f 0 0), (f (56294995342131) (-49))⟩)),
    (317, eqB (Itv.cancelMinus binary64 (⟨(f (-5685794529555251) (-49)), (f (2871044762448691) (-49))⟩ : Itv) (⟨(f (-10) (0)), (f 5 0)⟩ : Itv)) (⟨(f (-56294995342131) (-49)), (f (56294995342131) (-49))⟩)),
    (318, eqB (Itv.cancelMinus binary64 (⟨(f (-10) (0)), (f 5 0)⟩ : Itv) (⟨(f (-10) (0)), (f 5 0)⟩ : Itv)) (⟨(f 0 0), (f 0 0)⟩)),
    (319, eqB (Itv.cancelMinus binary64 (⟨(f (8106479329266893) (-53)), (f 5 0)⟩ : Itv) (⟨(f 1 0), (f 5 0)⟩ : Itv)) (⟨(f (-900719925474099) (-53)), (f 0 0)⟩)),
    (320, eqB (Itv.cancelMinus binary64 (⟨.nzero, (f (2871044762448691) (-49))⟩ : Itv) (⟨(f 0 0), (f 5 0)⟩ : Itv)) (⟨(f 0 0), (f (56294995342131) (-49))⟩)),
    (321, eqB (Itv.cancelMinus binary64 (⟨(f 1 0), (f (2871044762448691) (-49))⟩ : Itv) (⟨(f 1 0), (f 5 0)⟩ : Itv)) (⟨(f 0 0), (f (56294995342131) (-49))⟩)),
    (322, eqB (Itv.cancelMinus binary64 (⟨(f (8106479329266893) (-53)), (f (2871044762448691) (-49))⟩ : Itv) (⟨(f 1 0), (f 5 0)⟩ : Itv)) (⟨(f (-900719925474099) (-53)), (f (56294995342131) (-49))⟩)),
    (323, eqB (Itv.cancelMinus binary64 (⟨(f 1 0), (f 5 0)⟩ : Itv) (⟨(f 1 0), (f 5 0)⟩ : Itv)) (⟨(f 0 0), (f 0 0)⟩)),
    (324, eqB (Itv.cancelMinus binary64 (⟨(f (-5) (0)), (f 1 0)⟩ : Itv) (⟨(f (-1) (0)), (f 5 0)⟩ : Itv)) (⟨(f (-4) (0)), (f (-4) (0))⟩)),
    (325, eqB (Itv.cancelMinus binary64 (⟨(f (-5) (0)), (f 0 0)⟩ : Itv) (⟨.nzero, (f 5 0)⟩ : Itv)) (⟨(f (-5) (0)), (f (-5) (0))⟩)),
    (327, eqB (Itv.cancelMinus binary64 (⟨(f (562949953421311) (-48)), (f (562949953421311) (-48))⟩ : Itv) (⟨(f (3602879701896397) (-55)), (f (3602879701896397) (-55))⟩ : Itv)) (⟨(f (4278419646001963) (-51)), (f (8556839292003927) (-52))⟩)),
    (328, eqB (Itv.cancelMinus binary64 (⟨(f (-3602879701896397) (-55)), (f (562949953421311) (-48))⟩ : Itv) (⟨(f (-5764607523034235) (-59)), (f (3602879701896397) (-55))⟩ : Itv)) (⟨(f (-6485183463413515) (-56)), (f (8556839292003927) (-52))⟩)),
    (330, eqB (Itv.cancelMinus binary64 (⟨(f 9007199254740991 971), (f 9007199254740991 971)⟩ : Itv) (⟨(f (-9007199254740991) (971)), (f (-9007199254740991) (971))⟩ : Itv)) (⟨(f 9007199254740991 971), .pinf⟩)),
    (331, eqB (Itv.cancelMinus binary64 (⟨(f (-9007199254740991) (971)), (f 9007199254740991 971)⟩ : Itv) (⟨(f (-9007199254740991) (971)), (f 9007199254740991 971)⟩ : Itv)) (⟨(f 0 0), (f 0 0)⟩)),
    (332, eqB (Itv.cancelMinus binary64 (⟨(f (-9007199254740991) (971)), (f 9007199254740991 971)⟩ : Itv) (⟨(f (-9007199254740991) (971)), (f 4503599627370495 972)⟩ : Itv)) (⟨(f 0 0), (f 1048576 951)⟩)),
    (333, eqB (Itv.cancelMinus binary64 (⟨(f (-9007199254740991) (971)), (f 9007199254740991 971)⟩ : Itv) (⟨(f (-4503599627370495) (972)), (f 9007199254740991 971)⟩ : Itv)) (⟨(f (-1048576) (951)), (f 0 0)⟩)),
    (334, eqB (Itv.cancelMinus binary64 (⟨(f (-9007199254740991) (971)), (f 4503599627370495 972)⟩ : Itv) (⟨(f (-9007199254740991) (971)), (f 9007199254740991 971)⟩ : Itv)) (Itv.entire)),
    (335, eqB (Itv.cancelMinus binary64 (⟨(f (-4503599627370495) (972)), (f 9007199254740991 971)⟩ : Itv) (⟨(f (-9007199254740991) (971)), (f 9007199254740991 971)⟩ : Itv)) (Itv.entire)),
    (337, eqB (Itv.cancelMinus binary64 (⟨(f (1) (-1022)), (f (1) (-1022))⟩ : Itv) (⟨(f (1) (-1022)), (f (1) (-1022))⟩ : Itv)) (⟨(f 0 0), (f 0 0)⟩)),
    (338, eqB (Itv.cancelMinus binary64 (⟨(f (1) (-1022)), (f (1) (-1022))⟩ : Itv) (⟨(f (-1) (-1022)), (f (-1) (-1022))⟩ : Itv)) (⟨(f (1) (-1021)), (f (1) (-1021))⟩)),
    (339, eqB (Itv.cancelMinus binary64 (⟨(f (1) (-1022)), (f (2251799813685249) (-1073))⟩ : Itv) (⟨(f (1) (-1022)), (f (4503599627370497) (-1074))⟩ : Itv)) (⟨(f 0 0), (f (1) (-1074))⟩)),
    (340, eqB (Itv.cancelMinus binary64 (⟨(f (1) (-1022)), (f (4503599627370497) (-1074))⟩ : Itv) (⟨(f (1) (-1022)), (f (2251799813685249) (-1073))⟩ : Itv)) (Itv.entire)),
    (343, eqB (Itv.cancelMinus binary64 (⟨(f (-1) (0)), (f (9007199254740991) (-105))⟩ : Itv) (⟨(f (-4503599627370495) (-104)), (f 1 0)⟩ : Itv)) (⟨(f (-9007199254740991) (-53)), (f (-4503599627370495) (-52))⟩)),
    (344, eqB (Itv.cancelMinus binary64 (⟨(f (-1) (0)), (f (4503599627370495) (-104))⟩ : Itv) (⟨(f (-9007199254740991) (-105)), (f 1 0)⟩ : Itv)) (Itv.entire)),
    (350, Itv.isEmpty (Itv.cancelMinus binary64 (⟨(f 1 0), (f (-9007199254740991) (971))⟩ : Itv) (⟨(f 3 0), (f 4 0)⟩ : Itv) : Itv)),
    (363, eqB (Itv.cancelMinusMixed .float .double .double (⟨(f (-5) (0)), (f (-8106479329266893) (-53))⟩ : Itv) (⟨(f (-5) (0)), (f (-1) (0))⟩ : Itv)) (⟨(f 0 0), (f (13421773) (-27))⟩)),
    (364, eqB (Itv.cancelMinusMixed .float .double .double (⟨(f (-2871044762448691) (-49)), (f (-8106479329266893) (-53))⟩ : Itv) (⟨(f (-5) (0)), (f (-1) (0))⟩ : Itv)) (⟨(f (-13421773) (-27)), (f (13421773) (-27))⟩)),
    (365, eqB (Itv.cancelMinusMixed .double .float .float (⟨(f (-5295309) (-19)), (f (10695475) (-21))⟩ : Itv) (⟨(f (-10) (0)), (f 5 0)⟩ : Itv)) (⟨(f (-52429) (-19)), (f (209715) (-21))⟩)),
    (366, eqB (Itv.cancelMinusMixed .double .float .float (⟨(f (-13421773) (-27)), (f 2 0)⟩ : Itv) (⟨(f (-5368709) (-29)), (f (13421773) (-27))⟩ : Itv)) (⟨(f (-48318383) (-29)), (f (255013683) (-27))⟩)),
    (367, eqB (Itv.cancelMinusMixed .double .float .float (⟨(f (-1) (0)), (f (8388607) (-75))⟩ : Itv) (⟨(f (-16777215) (-76)), (f 1 0)⟩ : Itv)) (Itv.entire)),
    (373, Itv.isEmpty (Itv.cancelMinusMixed .float .double .double (⟨(f 1 0), (f (-9007199254740991) (971))⟩ : Itv) (⟨(f 3 0), (f 4 0)⟩ : Itv) : Itv))] : List (ℕ × Bool)).all (·.2) = true := by
  decide +kernel

example : ([
    (386, eqD (DItv.cancelMinus binary64 (⟨⟨.ninf, (f (-1) (0))⟩, .dac⟩ : DItv) (DItv.empty : DItv)) (⟨⟨.ninf, .pinf⟩, .trv⟩)),
    (387, eqD (DItv.cancelMinus binary64 (⟨⟨(f (-1) (0)), .pinf⟩, .defd⟩ : DItv) (DItv.empty : DItv)) (⟨⟨.ninf, .pinf⟩, .trv⟩)),
    (388, eqD (DItv.cancelMinus binary64 (DItv.entire : DItv) (DItv.empty : DItv)) (⟨⟨.ninf, .pinf⟩, .trv⟩)),
    (389, eqD (DItv.cancelMinus binary64 (⟨⟨.ninf, (f (-1) (0))⟩, .trv⟩ : DItv) (⟨⟨(f (-1) (0)), (f 5 0)⟩, .dac⟩ : DItv)) (⟨⟨.ninf, .pinf⟩, .trv⟩)),
    (390, eqD (DItv.cancelMinus binary64 (⟨⟨(f (-1) (0)), .pinf⟩, .dac⟩ : DItv) (⟨⟨(f (-1) (0)), (f 5 0)⟩, .com⟩ : DItv)) (⟨⟨.ninf, .pinf⟩, .trv⟩)),
    (391, eqD (DItv.cancelMinus binary64 (DItv.entire : DItv) (⟨⟨(f (-1) (0)), (f 5 0)⟩, .defd⟩ : DItv)) (⟨⟨.ninf, .pinf⟩, .trv⟩)),
    (392, eqD (DItv.cancelMinus binary64 (⟨⟨.ninf, (f (-1) (0))⟩, .defd⟩ : DItv) (DItv.entire : DItv)) (⟨⟨.ninf, .pinf⟩, .trv⟩)),
    (393, eqD (DItv.cancelMinus binary64 (⟨⟨(f (-1) (0)), .pinf⟩, .trv⟩ : DItv) (DItv.entire : DItv)) (⟨⟨.ninf, .pinf⟩, .trv⟩)),
    (394, eqD (DItv.cancelMinus binary64 (DItv.empty : DItv) (⟨⟨.ninf, (f (-1) (0))⟩, .dac⟩ : DItv)) (⟨⟨.ninf, .pinf⟩, .trv⟩)),
    (395, eqD (DItv.cancelMinus binary64 (DItv.empty : DItv) (⟨⟨(f (-1) (0)), .pinf⟩, .dac⟩ : DItv)) (⟨⟨.ninf, .pinf⟩, .trv⟩)),
    (396, eqD (DItv.cancelMinus binary64 (DItv.empty : DItv) (DItv.entire : DItv)) (⟨⟨.ninf, .pinf⟩, .trv⟩)),
    (397, eqD (DItv.cancelMinus binary64 (⟨⟨(f (-1) (0)), (f 5 0)⟩, .dac⟩ : DItv) (⟨⟨.ninf, (f (-1) (0))⟩, .defd⟩ : DItv)) (⟨⟨.ninf, .pinf⟩, .trv⟩)),
    (398, eqD (DItv.cancelMinus binary64 (⟨⟨(f (-1) (0)), (f 5 0)⟩, .defd⟩ : DItv) (⟨⟨(f (-1) (0)), .pinf⟩, .trv⟩ : DItv)) (⟨⟨.ninf, .pinf⟩, .trv⟩)),
    (399, eqD (DItv.cancelMinus binary64 (⟨⟨(f (-1) (0)), (f 5 0)⟩, .com⟩ : DItv) (DItv.entire : DItv)) (⟨⟨.ninf, .pinf⟩, .trv⟩)),
    (400, eqD (DItv.cancelMinus binary64 (DItv.entire : DItv) (⟨⟨.ninf, (f (-1) (0))⟩, .dac⟩ : DItv)) (⟨⟨.ninf, .pinf⟩, .trv⟩)),
    (401, eqD (DItv.cancelMinus binary64 (DItv.entire : DItv) (⟨⟨(f (-1) (0)), .pinf⟩, .defd⟩ : DItv)) (⟨⟨.ninf, .pinf⟩, .trv⟩)),
    (402, eqD (DItv.cancelMinus binary64 (DItv.entire : DItv) (DItv.entire : DItv)) (⟨⟨.ninf, .pinf⟩, .trv⟩)),
    (404, eqD (DItv.cancelMinus binary64 (⟨⟨(f (-5) (0)), (f (-1) (0))⟩, .com⟩ : DItv) (⟨⟨(f (-2871044762448691) (-49)), (f (-1) (0))⟩, .trv⟩ : DItv)) (⟨⟨.ninf, .pinf⟩, .trv⟩)),
    (405, eqD (DItv.cancelMinus binary64 (⟨⟨(f (-5) (0)), (f (-1) (0))⟩, .dac⟩ : DItv) (⟨⟨(f (-5) (0)), (f (-8106479329266893) (-53))⟩, .defd⟩ : DItv)) (⟨⟨.ninf, .pinf⟩, .trv⟩)),
    (406, eqD (DItv.cancelMinus binary64 (⟨⟨(f (-5) (0)), (f (-1) (0))⟩, .defd⟩ : DItv) (⟨⟨(f (-2871044762448691) (-49)), (f (-8106479329266893) (-53))⟩, .dac⟩ : DItv)) (⟨⟨.ninf, .pinf⟩, .trv⟩)),
    (407, eqD (DItv.cancelMinus binary64 (⟨⟨(f (-10) (0)), (f 5 0)⟩, .trv⟩ : DItv) (⟨⟨(f (-5685794529555251) (-49)), (f 5 0)⟩, .com⟩ : DItv)) (⟨⟨.ninf, .pinf⟩, .trv⟩)),
    (408, eqD (DItv.cancelMinus binary64 (⟨⟨(f (-10) (0)), (f 5 0)⟩, .com⟩ : DItv) (⟨⟨(f (-10) (0)), (f (2871044762448691) (-49))⟩, .com⟩ : DItv)) (⟨⟨.ninf, .pinf⟩, .trv⟩)),
    (409, eqD (DItv.cancelMinus binary64 (⟨⟨(f (-10) (0)), (f 5 0)⟩, .dac⟩ : DItv) (⟨⟨(f (-5685794529555251) (-49)), (f (2871044762448691) (-49))⟩, .trv⟩ : DItv)) (⟨⟨.ninf, .pinf⟩, .trv⟩)),
    (410, eqD (DItv.cancelMinus binary64 (⟨⟨(f 1 0), (f 5 0)⟩, .defd⟩ : DItv) (⟨⟨(f (8106479329266893) (-53)), (f 5 0)⟩, .defd⟩ : DItv)) (⟨⟨.ninf, .pinf⟩, .trv⟩)),
    (411, eqD (DItv.cancelMinus binary64 (⟨⟨(f 1 0), (f 5 0)⟩, .trv⟩ : DItv) (⟨⟨(f 1 0), (f (2871044762448691) (-49))⟩, .dac⟩ : DItv)) (⟨⟨.ninf, .pinf⟩, .trv⟩)),
    (412, eqD (DItv.cancelMinus binary64 (⟨⟨(f 1 0), (f 5 0)⟩, .com⟩ : DItv) (⟨⟨(f (8106479329266893) (-53)), (f (2871044762448691) (-49))⟩, .dac⟩ : DItv)) (⟨⟨.ninf, .pinf⟩, .trv⟩)),
    (414, eqD (DItv.cancelMinus binary64 (⟨⟨(f (-10) (0)), (f (-1) (0))⟩, .com⟩ : DItv) (DItv.empty : DItv)) (⟨⟨.ninf, .pinf⟩, .trv⟩)),
    (415, eqD (DItv.cancelMinus binary64 (⟨⟨(f (-10) (0)), (f 5 0)⟩, .dac⟩ : DItv) (DItv.empty : DItv)) (⟨⟨.ninf, .pinf⟩, .trv⟩)),
    (416, eqD (DItv.cancelMinus binary64 (⟨⟨(f 1 0), (f 5 0)⟩, .defd⟩ : DItv) (DItv.empty : DItv)) (⟨⟨.ninf, .pinf⟩, .trv⟩)),
    (419, DItv.pred Itv.isEmpty (DItv.cancelMinus binary64 (DItv.empty : DItv) (DItv.empty : DItv) : DItv)),
    (420, DItv.pred Itv.isEmpty (DItv.cancelMinus binary64 (DItv.empty : DItv) (⟨⟨(f (-10) (0)), (f (-1) (0))⟩, .com⟩ : DItv) : DItv)),
    (421, DItv.pred Itv.isEmpty (DItv.cancelMinus binary64 (DItv.empty : DItv) (⟨⟨(f (-10) (0)), (f 5 0)⟩, .dac⟩ : DItv) : DItv)),
    (422, DItv.pred Itv.isEmpty (DItv.cancelMinus binary64 (DItv.empty : DItv) (⟨⟨(f 1 0), (f 5 0)⟩, .defd⟩ : DItv) : DItv)),
    (424, eqD (DItv.cancelMinus binary64 (⟨⟨(f (-2871044762448691) (-49)), .nzero⟩, .com⟩ : DItv) (⟨⟨(f (-5) (0)), (f 0 0)⟩, .com⟩ : DItv)) (⟨⟨(f (-56294995342131) (-49)), (f 0 0)⟩, .trv⟩)),
    (425, eqD (DItv.cancelMinus binary64 (⟨⟨(f (-2871044762448691) (-49)), (f (-1) (0))⟩, .dac⟩ : DItv) (⟨⟨(f (-5) (0)), (f (-1) (0))⟩, .com⟩ : DItv)) (⟨⟨(f (-56294995342131) (-49)), (f 0 0)⟩, .trv⟩)),
    (426, eqD (DItv.cancelMinus binary64 (⟨⟨(f (-5) (0)), (f (-8106479329266893) (-53))⟩, .defd⟩ : DItv) (⟨⟨(f (-5) (0)), (f (-1) (0))⟩, .com⟩ : DItv)) (⟨⟨(f 0 0), (f (900719925474099) (-53))⟩, .trv⟩)),
    (427, eqD (DItv.cancelMinus binary64 (⟨⟨(f (-2871044762448691) (-49)), (f (-8106479329266893) (-53))⟩, .trv⟩ : DItv) (⟨⟨(f (-5) (0)), (f (-1) (0))⟩, .com⟩ : DItv)) (⟨⟨(f (-56294995342131) (-49)), (f (900719925474099) (-53))⟩, .trv⟩)),
    (428, eqD (DItv.cancelMinus binary64 (⟨⟨(f (-5) (0)), (f (-1) (0))⟩, .com⟩ : DItv) (⟨⟨(f (-5) (0)), (f (-1) (0))⟩, .dac⟩ : DItv)) (⟨⟨(f 0 0), (f 0 0)⟩, .trv⟩)),
    (429, eqD (DItv.cancelMinus binary64 (⟨⟨(f (-5685794529555251) (-49)), (f 5 0)⟩, .dac⟩ : DItv) (⟨⟨(f (-10) (0)), (f 5 0)⟩, .dac⟩ : DItv)) (⟨⟨(f (-56294995342131) (-49)), (f 0 0)⟩, .trv⟩)),
    (430, eqD (DItv.cancelMinus binary64 (⟨⟨(f (-10) (0)), (f (2871044762448691) (-49))⟩, .defd⟩ : DItv) (⟨⟨(f (-10) (0)), (f 5 0)⟩, .dac⟩ : DItv)) (⟨⟨(f 0 0), (f (56294995342131) (-49))⟩, .trv⟩)),
    (431, eqD (DItv.cancelMinus binary64 (⟨⟨(f (-5685794529555251) (-49)), (f (2871044762448691) (-49))⟩, .trv⟩ : DItv) (⟨⟨(f (-10) (0)), (f 5 0)⟩, .defd⟩ : DItv)) (⟨⟨(f (-56294995342131) (-49)), (f (56294995342131) (-49))⟩, .trv⟩)),
    (432, eqD (DItv.cancelMinus binary64 (⟨⟨(f (-10) (0)), (f 5 0)⟩, .com⟩ : DItv) (⟨⟨(f (-10) (0)), (f 5 0)⟩, .defd⟩ : DItv)) (⟨⟨(f 0 0), (f 0 0)⟩, .trv⟩)),
    (433, eqD (DItv.cancelMinus binary64 (⟨⟨(f (8106479329266893) (-53)), (f 5 0)⟩, .dac⟩ : DItv) (⟨⟨(f 1 0), (f 5 0)⟩, .defd⟩ : DItv)) (⟨⟨(f (-900719925474099) (-53)), (f 0 0)⟩, .trv⟩)),
    (434, eqD (DItv.cancelMinus binary64 (⟨⟨.nzero, (f (2871044762448691) (-49))⟩, .defd⟩ : DItv) (⟨⟨(f 0 0), (f 5 0)⟩, .defd⟩ : DItv)) (⟨⟨(f 0 0), (f (56294995342131) (-49))⟩, .trv⟩)),
    (435, eqD (DItv.cancelMinus binary64 (⟨⟨(f 1 0), (f (2871044762448691) (-49))⟩, .trv⟩ : DItv) (⟨⟨(f 1 0), (f 5 0)⟩, .trv⟩ : DItv)) (⟨⟨(f 0 0), (f (56294995342131) (-49))⟩, .trv⟩)),
    (436, eqD (DItv.cancelMinus binary64 (⟨⟨(f (8106479329266893) (-53)), (f (2871044762448691) (-49))⟩, .com⟩ : DItv) (⟨⟨(f 1 0), (f 5 0)⟩, .trv⟩ : DItv)) (⟨⟨(f (-900719925474099) (-53)), (f (56294995342131) (-49))⟩, .trv⟩)),
    (437, eqD (DItv.cancelMinus binary64 (⟨⟨(f 1 0), (f 5 0)⟩, .dac⟩ : DItv) (⟨⟨(f 1 0), (f 5 0)⟩, .com⟩ : DItv)) (⟨⟨(f 0 0), (f 0 0)⟩, .trv⟩)),
    (438, eqD (DItv.cancelMinus binary64 (⟨⟨(f (-5) (0)), (f 1 0)⟩, .defd⟩ : DItv) (⟨⟨(f (-1) (0)), (f 5 0)⟩, .defd⟩ : DItv)) (⟨⟨(f (-4) (0)), (f (-4) (0))⟩, .trv⟩)),
    (439, eqD (DItv.cancelMinus binary64 (⟨⟨(f (-5) (0)), (f 0 0)⟩, .trv⟩ : DItv) (⟨⟨.nzero, (f 5 0)⟩, .trv⟩ : DItv)) (⟨⟨(f (-5) (0)), (f (-5) (0))⟩, .trv⟩)),
    (441, eqD (DItv.cancelMinus binary64 (⟨⟨(f (562949953421311) (-48)), (f (562949953421311) (-48))⟩, .com⟩ : DItv) (⟨⟨(f (3602879701896397) (-55)), (f (3602879701896397) (-55))⟩, .com⟩ : DItv)) (⟨⟨(f (4278419646001963) (-51)), (f (8556839292003927) (-52))⟩, .trv⟩))] : List (ℕ × Bool)).all (·.2) = true := by
  decide +kernel

example : ([
    (442, eqD (DItv.cancelMinus binary64 (⟨⟨(f (-3602879701896397) (-55)), (f (562949953421311) (-48))⟩, .defd⟩ : DItv) (⟨⟨(f (-5764607523034235) (-59)), (f (3602879701896397) (-55))⟩, .dac⟩ : DItv)) (⟨⟨(f (-6485183463413515) (-56)), (f (8556839292003927) (-52))⟩, .trv⟩)),
    (444, eqD (DItv.cancelMinus binary64 (⟨⟨(f 9007199254740991 971), (f 9007199254740991 971)⟩, .com⟩ : DItv) (⟨⟨(f (-9007199254740991) (971)), (f (-9007199254740991) (971))⟩, .com⟩ : DItv)) (⟨⟨(f 9007199254740991 971), .pinf⟩, .trv⟩)),
    (445, eqD (DItv.cancelMinus binary64 (⟨⟨(f (-9007199254740991) (971)), (f 9007199254740991 971)⟩, .com⟩ : DItv) (⟨⟨(f (-9007199254740991) (971)), (f 9007199254740991 971)⟩, .com⟩ : DItv)) (⟨⟨(f 0 0), (f 0 0)⟩, .trv⟩)),
    (446, eqD (DItv.cancelMinus binary64 (⟨⟨(f (-9007199254740991) (971)), (f 9007199254740991 971)⟩, .com⟩ : DItv) (⟨⟨(f (-9007199254740991) (971)), (f 4503599627370495 972)⟩, .com⟩ : DItv)) (⟨⟨(f 0 0), (f 1048576 951)⟩, .trv⟩)),
    (447, eqD (DItv.cancelMinus binary64 (⟨⟨(f (-9007199254740991) (971)), (f 9007199254740991 971)⟩, .com⟩ : DItv) (⟨⟨(f (-4503599627370495) (972)), (f 9007199254740991 971)⟩, .com⟩ : DItv)) (⟨⟨(f (-1048576) (951)), (f 0 0)⟩, .trv⟩)),
    (448, eqD (DItv.cancelMinus binary64 (⟨⟨(f (-9007199254740991) (971)), (f 4503599627370495 972)⟩, .com⟩ : DItv) (⟨⟨(f (-9007199254740991) (971)), (f 9007199254740991 971)⟩, .com⟩ : DItv)) (⟨⟨.ninf, .pinf⟩, .trv⟩)),
    (449, eqD (DItv.cancelMinus binary64 (⟨⟨(f (-4503599627370495) (972)), (f 9007199254740991 971)⟩, .com⟩ : DItv) (⟨⟨(f (-9007199254740991) (971)), (f 9007199254740991 971)⟩, .com⟩ : DItv)) (⟨⟨.ninf, .pinf⟩, .trv⟩)),
    (451, eqD (DItv.cancelMinus binary64 (⟨⟨(f (1) (-1022)), (f (1) (-1022))⟩, .com⟩ : DItv) (⟨⟨(f (1) (-1022)), (f (1) (-1022))⟩, .com⟩ : DItv)) (⟨⟨(f 0 0), (f 0 0)⟩, .trv⟩)),
    (452, eqD (DItv.cancelMinus binary64 (⟨⟨(f (1) (-1022)), (f (1) (-1022))⟩, .com⟩ : DItv) (⟨⟨(f (-1) (-1022)), (f (-1) (-1022))⟩, .dac⟩ : DItv)) (⟨⟨(f (1) (-1021)), (f (1) (-1021))⟩, .trv⟩)),
    (453, eqD (DItv.cancelMinus binary64 (⟨⟨(f (1) (-1022)), (f (2251799813685249) (-1073))⟩, .dac⟩ : DItv) (⟨⟨(f (1) (-1022)), (f (4503599627370497) (-1074))⟩, .dac⟩ : DItv)) (⟨⟨(f 0 0), (f (1) (-1074))⟩, .trv⟩)),
    (454, eqD (DItv.cancelMinus binary64 (⟨⟨(f (1) (-1022)), (f (4503599627370497) (-1074))⟩, .defd⟩ : DItv) (⟨⟨(f (1) (-1022)), (f (2251799813685249) (-1073))⟩, .com⟩ : DItv)) (⟨⟨.ninf, .pinf⟩, .trv⟩)),
    (457, eqD (DItv.cancelMinus binary64 (⟨⟨(f (-1) (0)), (f (9007199254740991) (-105))⟩, .com⟩ : DItv) (⟨⟨(f (-4503599627370495) (-104)), (f 1 0)⟩, .dac⟩ : DItv)) (⟨⟨(f (-9007199254740991) (-53)), (f (-4503599627370495) (-52))⟩, .trv⟩)),
    (458, eqD (DItv.cancelMinus binary64 (⟨⟨(f (-1) (0)), (f (4503599627370495) (-104))⟩, .defd⟩ : DItv) (⟨⟨(f (-9007199254740991) (-105)), (f 1 0)⟩, .dac⟩ : DItv)) (⟨⟨.ninf, .pinf⟩, .trv⟩)),
    (465, DItv.isNai (DItv.cancelMinus binary64 (⟨⟨(f 1 0), (f (-9007199254740991) (971))⟩, .trv⟩ : DItv) (⟨⟨(f 3 0), (f 4 0)⟩, .trv⟩ : DItv) : DItv)),
    (478, eqD (DItv.cancelMinusMixed .float .double .double (⟨⟨(f (-5) (0)), (f (-8106479329266893) (-53))⟩, .com⟩ : DItv) (⟨⟨(f (-5) (0)), (f (-1) (0))⟩, .dac⟩ : DItv)) (⟨⟨(f 0 0), (f (13421773) (-27))⟩, .trv⟩)),
    (479, eqD (DItv.cancelMinusMixed .float .double .double (⟨⟨(f (-2871044762448691) (-49)), (f (-8106479329266893) (-53))⟩, .dac⟩ : DItv) (⟨⟨(f (-5) (0)), (f (-1) (0))⟩, .defd⟩ : DItv)) (⟨⟨(f (-13421773) (-27)), (f (13421773) (-27))⟩, .trv⟩)),
    (480, eqD (DItv.cancelMinusMixed .double .float .float (⟨⟨(f (-5295309) (-19)), (f (10695475) (-21))⟩, .defd⟩ : DItv) (⟨⟨(f (-10) (0)), (f 5 0)⟩, .dac⟩ : DItv)) (⟨⟨(f (-52429) (-19)), (f (209715) (-21))⟩, .trv⟩)),
    (481, eqD (DItv.cancelMinusMixed .double .float .float (⟨⟨(f (-13421773) (-27)), (f 2 0)⟩, .trv⟩ : DItv) (⟨⟨(f (-5368709) (-29)), (f (13421773) (-27))⟩, .com⟩ : DItv)) (⟨⟨(f (-48318383) (-29)), (f (255013683) (-27))⟩, .trv⟩)),
    (482, eqD (DItv.cancelMinusMixed .double .float .float (⟨⟨(f (-1) (0)), (f (8388607) (-75))⟩, .dac⟩ : DItv) (⟨⟨(f (-16777215) (-76)), (f 1 0)⟩, .defd⟩ : DItv)) (⟨⟨.ninf, .pinf⟩, .trv⟩)),
    (489, DItv.isNai (DItv.cancelMinusMixed .float .double .double (⟨⟨(f 1 0), (f (-9007199254740991) (971))⟩, .trv⟩ : DItv) (⟨⟨(f 3 0), (f 4 0)⟩, .trv⟩ : DItv) : DItv))] : List (ℕ × Bool)).all (·.2) = true := by
  decide +kernel

end P1788.Conform
