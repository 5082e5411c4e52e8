import Verif.Conform.Basic

/-!
# Conformance: elem_func

Generated from `/repo/test/p1788/flavor/infsup/setbased/test_mpfr_bin_ieee754_flavor_elem_func.cpp`: the assertions of the project's own test suite, evaluated in the
model by the kernel.  Each entry is (line in that file, value of the assertion).  These are tests of the model, not proofs of
properties.
-/

set_option maxRecDepth 100000

namespace P1788.Conform

example : ([
    (62, eqB (Fmt.posI (⟨(f 1 0), (f 2 0)⟩ : Itv)) (⟨(f 1 0), (f 2 0)⟩)),
    (63, Itv.isEmpty (Fmt.posI (Itv.empty : Itv) : Itv)),
    (64, eqB (Fmt.posI (Itv.entire : Itv)) (Itv.entire)),
    (65, eqB (Fmt.posI (⟨(f 1 0), .pinf⟩ : Itv)) (⟨(f 1 0), .pinf⟩)),
    (66, eqB (Fmt.posI (⟨.ninf, (f (-1) (0))⟩ : Itv)) (⟨.ninf, (f (-1) (0))⟩)),
    (67, eqB (Fmt.posI (⟨(f 0 0), (f 2 0)⟩ : Itv)) (⟨(f 0 0), (f 2 0)⟩)),
    (68, eqB (Fmt.posI (⟨.nzero, (f 2 0)⟩ : Itv)) (⟨(f 0 0), (f 2 0)⟩)),
    (69, eqB (Fmt.posI (⟨(f (-5) (-1)), .nzero⟩ : Itv)) (⟨(f (-5) (-1)), (f 0 0)⟩)),
    (70, eqB (Fmt.posI (⟨(f (-5) (-1)), (f 0 0)⟩ : Itv)) (⟨(f (-5) (-1)), (f 0 0)⟩)),
    (71, eqB (Fmt.posI (⟨.nzero, .nzero⟩ : Itv)) (⟨(f 0 0), (f 0 0)⟩)),
    (72, eqB (Fmt.posI (⟨(f 0 0), (f 0 0)⟩ : Itv)) (⟨(f 0 0), (f 0 0)⟩)),
    (78, Itv.isEmpty (Fmt.posI (⟨(f 1 0), (f (-2) (0))⟩ : Itv) : Itv)),
    (90, eqB (if !(⟨(f (-6710887) (-18)), (f (7205759403792793) (-56))⟩ : Itv).isValid then Itv.empty else Fmt.convertHull binary32 (⟨(f (-6710887) (-18)), (f (7205759403792793) (-56))⟩ : Itv)) (⟨(f (-6710887) (-18)), (f (13421773) (-27))⟩)),
    (91, eqB (if !(⟨(f (-6710887) (-18)), (f 9007199254740991 971)⟩ : Itv).isValid then Itv.empty else Fmt.convertHull binary32 (⟨(f (-6710887) (-18)), (f 9007199254740991 971)⟩ : Itv)) (⟨(f (-6710887) (-18)), .pinf⟩)),
    (96, Itv.isEmpty (if !(⟨(f 1 0), (f (-2) (0))⟩ : Itv).isValid then Itv.empty else Fmt.convertHull binary64 (⟨(f 1 0), (f (-2) (0))⟩ : Itv) : Itv)),
    (108, DItv.isNai (Fmt.posD (DItv.nai : DItv) : DItv)),
    (109, DItv.pred Itv.isEmpty (Fmt.posD (DItv.empty : DItv) : DItv)),
    (110, eqD (Fmt.posD (DItv.entire : DItv)) (DItv.entire)),
    (111, eqD (Fmt.posD (⟨⟨(f 1 0), (f 2 0)⟩, .com⟩ : DItv)) (⟨⟨(f 1 0), (f 2 0)⟩, .com⟩)),
    (116, DItv.isNai (Fmt.posD (⟨⟨(f 1 0), (f (-2) (0))⟩, .com⟩ : DItv) : DItv)),
    (128, eqD (if !(⟨⟨(f (-6710887) (-18)), (f (7205759403792793) (-56))⟩, .com⟩ : DItv).isValid || (⟨⟨(f (-6710887) (-18)), (f (7205759403792793) (-56))⟩, .com⟩ : DItv).isNai then DItv.nai else Fmt.convertHullD binary32 (⟨⟨(f (-6710887) (-18)), (f (7205759403792793) (-56))⟩, .com⟩ : DItv)) (⟨⟨(f (-6710887) (-18)), (f (13421773) (-27))⟩, .com⟩)),
    (129, eqD (if !(⟨⟨(f (-6710887) (-18)), (f 9007199254740991 971)⟩, .com⟩ : DItv).isValid || (⟨⟨(f (-6710887) (-18)), (f 9007199254740991 971)⟩, .com⟩ : DItv).isNai then DItv.nai else Fmt.convertHullD binary32 (⟨⟨(f (-6710887) (-18)), (f 9007199254740991 971)⟩, .com⟩ : DItv)) (⟨⟨(f (-6710887) (-18)), .pinf⟩, .dac⟩)),
    (134, DItv.isNai (if !(⟨⟨(f 1 0), (f (-2) (0))⟩, .com⟩ : DItv).isValid || (⟨⟨(f 1 0), (f (-2) (0))⟩, .com⟩ : DItv).isNai then DItv.nai else Fmt.convertHullD binary32 (⟨⟨(f 1 0), (f (-2) (0))⟩, .com⟩ : DItv) : DItv)),
    (148, eqB (Fmt.negI (⟨(f 1 0), (f 2 0)⟩ : Itv)) (⟨(f (-2) (0)), (f (-1) (0))⟩)),
    (149, Itv.isEmpty (Fmt.negI (Itv.empty : Itv) : Itv)),
    (150, eqB (Fmt.negI (Itv.entire : Itv)) (Itv.entire)),
    (151, eqB (Fmt.negI (⟨(f 1 0), .pinf⟩ : Itv)) (⟨.ninf, (f (-1) (0))⟩)),
    (152, eqB (Fmt.negI (⟨.ninf, (f 1 0)⟩ : Itv)) (⟨(f (-1) (0)), .pinf⟩)),
    (153, eqB (Fmt.negI (⟨(f 0 0), (f 2 0)⟩ : Itv)) (⟨(f (-2) (0)), (f 0 0)⟩)),
    (154, eqB (Fmt.negI (⟨.nzero, (f 2 0)⟩ : Itv)) (⟨(f (-2) (0)), (f 0 0)⟩)),
    (155, eqB (Fmt.negI (⟨(f (-2) (0)), (f 0 0)⟩ : Itv)) (⟨(f 0 0), (f 2 0)⟩)),
    (156, eqB (Fmt.negI (⟨(f (-2) (0)), .nzero⟩ : Itv)) (⟨(f 0 0), (f 2 0)⟩)),
    (157, eqB (Fmt.negI (⟨(f 0 0), .nzero⟩ : Itv)) (⟨(f 0 0), (f 0 0)⟩)),
    (158, eqB (Fmt.negI (⟨.nzero, .nzero⟩ : Itv)) (⟨(f 0 0), (f 0 0)⟩)),
    (163, Itv.isEmpty (Fmt.negI (⟨(f 1 0), (f (-2) (0))⟩ : Itv) : Itv)),
    (175, eqB (if !(⟨(f (-6710887) (-18)), (f (7205759403792793) (-56))⟩ : Itv).isValid then Itv.empty else Fmt.convertHull binary32 (Fmt.negI (⟨(f (-6710887) (-18)), (f (7205759403792793) (-56))⟩ : Itv))) (⟨(f (-13421773) (-27)), (f (6710887) (-18))⟩)),
    (176, eqB (if !(⟨(f (-6710887) (-18)), (f 9007199254740991 971)⟩ : Itv).isValid then Itv.empty else Fmt.convertHull binary32 (Fmt.negI (⟨(f (-6710887) (-18)), (f 9007199254740991 971)⟩ : Itv))) (⟨.ninf, (f (6710887) (-18))⟩)),
    (181, Itv.isEmpty (if !(⟨(f 1 0), (f (-2) (0))⟩ : Itv).isValid then Itv.empty else Fmt.convertHull binary64 (Fmt.negI (⟨(f 1 0), (f (-2) (0))⟩ : Itv)) : Itv)),
    (193, DItv.isNai (Fmt.negD (DItv.nai : DItv) : DItv)),
    (194, DItv.pred Itv.isEmpty (Fmt.negD (DItv.empty : DItv) : DItv)),
    (195, eqD (Fmt.negD (DItv.entire : DItv)) (DItv.entire)),
    (196, eqD (Fmt.negD (⟨⟨(f 1 0), (f 2 0)⟩, .com⟩ : DItv)) (⟨⟨(f (-2) (0)), (f (-1) (0))⟩, .com⟩)),
    (201, DItv.isNai (Fmt.negD (⟨⟨(f 1 0), (f (-2) (0))⟩, .com⟩ : DItv) : DItv)),
    (213, eqD (if !(⟨⟨(f (-6710887) (-18)), (f (7205759403792793) (-56))⟩, .com⟩ : DItv).isValid || (⟨⟨(f (-6710887) (-18)), (f (7205759403792793) (-56))⟩, .com⟩ : DItv).isNai then DItv.nai else Fmt.convertHullD binary32 (Fmt.negD (⟨⟨(f (-6710887) (-18)), (f (7205759403792793) (-56))⟩, .com⟩ : DItv))) (⟨⟨(f (-13421773) (-27)), (f (6710887) (-18))⟩, .com⟩)),
    (214, eqD (if !(⟨⟨(f (-6710887) (-18)), (f 9007199254740991 971)⟩, .com⟩ : DItv).isValid || (⟨⟨(f (-6710887) (-18)), (f 9007199254740991 971)⟩, .com⟩ : DItv).isNai then DItv.nai else Fmt.convertHullD binary32 (Fmt.negD (⟨⟨(f (-6710887) (-18)), (f 9007199254740991 971)⟩, .com⟩ : DItv))) (⟨⟨.ninf, (f (6710887) (-18))⟩, .dac⟩)),
    (219, DItv.isNai (if !(⟨⟨(f 1 0), (f (-2) (0))⟩, .com⟩ : DItv).isValid || (⟨⟨(f 1 0), (f (-2) (0))⟩, .com⟩ : DItv).isNai then DItv.nai else Fmt.convertHullD binary32 (Fmt.negD (⟨⟨(f 1 0), (f (-2) (0))⟩, .com⟩ : DItv)) : DItv)),
    (233, Itv.isEmpty (Fmt.addI binary64 (Itv.empty : Itv) (Itv.empty : Itv) : Itv)),
    (234, Itv.isEmpty (Fmt.addI binary64 (⟨(f (-1) (0)), (f 1 0)⟩ : Itv) (Itv.empty : Itv) : Itv)),
    (235, Itv.isEmpty (Fmt.addI binary64 (Itv.empty : Itv) (⟨(f (-1) (0)), (f 1 0)⟩ : Itv) : Itv)),
    (236, Itv.isEmpty (Fmt.addI binary64 (Itv.empty : Itv) (Itv.entire : Itv) : Itv))] : List (ℕ × Bool)).all (·.2) = true := by
  decide +kernel

example : ([
    (237, Itv.isEmpty (Fmt.addI binary64 (Itv.entire : Itv) (Itv.empty : Itv) : Itv)),
    (239, eqB (Fmt.addI binary64 (Itv.entire : Itv) (⟨.ninf, (f 1 0)⟩ : Itv)) (Itv.entire)),
    (240, eqB (Fmt.addI binary64 (Itv.entire : Itv) (⟨(f (-1) (0)), (f 1 0)⟩ : Itv)) (Itv.entire)),
    (242, eqB (Fmt.addI binary64 (Itv.entire : Itv) (⟨(f (-1) (0)), .pinf⟩ : Itv)) (Itv.entire)),
    (243, eqB (Fmt.addI binary64 (Itv.entire : Itv) (Itv.entire : Itv)) (Itv.entire)),
    (244, eqB (Fmt.addI binary64 (⟨.ninf, (f 1 0)⟩ : Itv) (Itv.entire : Itv)) (Itv.entire)),
    (245, eqB (Fmt.addI binary64 (⟨(f (-1) (0)), (f 1 0)⟩ : Itv) (Itv.entire : Itv)) (Itv.entire)),
    (246, eqB (Fmt.addI binary64 (⟨(f (-1) (0)), .pinf⟩ : Itv) (Itv.entire : Itv)) (Itv.entire)),
    (248, eqB (Fmt.addI binary64 (⟨.ninf, (f 2 0)⟩ : Itv) (⟨.ninf, (f 4 0)⟩ : Itv)) (⟨.ninf, (f 6 0)⟩)),
    (249, eqB (Fmt.addI binary64 (⟨.ninf, (f 2 0)⟩ : Itv) (⟨(f 3 0), (f 4 0)⟩ : Itv)) (⟨.ninf, (f 6 0)⟩)),
    (250, eqB (Fmt.addI binary64 (⟨.ninf, (f 2 0)⟩ : Itv) (⟨(f 3 0), .pinf⟩ : Itv)) (Itv.entire)),
    (252, eqB (Fmt.addI binary64 (⟨(f 1 0), (f 2 0)⟩ : Itv) (⟨.ninf, (f 4 0)⟩ : Itv)) (⟨.ninf, (f 6 0)⟩)),
    (253, eqB (Fmt.addI binary64 (⟨(f 1 0), (f 2 0)⟩ : Itv) (⟨(f 3 0), (f 4 0)⟩ : Itv)) (⟨(f 4 0), (f 6 0)⟩)),
    (254, eqB (Fmt.addI binary64 (⟨(f 1 0), (f 2 0)⟩ : Itv) (⟨(f 3 0), .pinf⟩ : Itv)) (⟨(f 4 0), .pinf⟩)),
    (256, eqB (Fmt.addI binary64 (⟨(f 1 0), .pinf⟩ : Itv) (⟨.ninf, (f 4 0)⟩ : Itv)) (Itv.entire)),
    (257, eqB (Fmt.addI binary64 (⟨(f 1 0), .pinf⟩ : Itv) (⟨(f 3 0), (f 4 0)⟩ : Itv)) (⟨(f 4 0), .pinf⟩)),
    (258, eqB (Fmt.addI binary64 (⟨(f 1 0), .pinf⟩ : Itv) (⟨(f 3 0), .pinf⟩ : Itv)) (⟨(f 4 0), .pinf⟩)),
    (260, eqB (Fmt.addI binary64 (⟨(f 1 0), (f 9007199254740991 971)⟩ : Itv) (⟨(f 3 0), (f 4 0)⟩ : Itv)) (⟨(f 4 0), .pinf⟩)),
    (261, eqB (Fmt.addI binary64 (⟨(f (-9007199254740991) (971)), (f 2 0)⟩ : Itv) (⟨(f (-3) (0)), (f 4 0)⟩ : Itv)) (⟨.ninf, (f 6 0)⟩)),
    (262, eqB (Fmt.addI binary64 (⟨(f (-9007199254740991) (971)), (f 2 0)⟩ : Itv) (⟨(f (-3) (0)), (f 9007199254740991 971)⟩ : Itv)) (Itv.entire)),
    (264, eqB (Fmt.addI binary64 (⟨(f 1 0), (f 9007199254740991 971)⟩ : Itv) (⟨(f 0 0), (f 0 0)⟩ : Itv)) (⟨(f 1 0), (f 9007199254740991 971)⟩)),
    (265, eqB (Fmt.addI binary64 (⟨(f 1 0), (f 9007199254740991 971)⟩ : Itv) (⟨.nzero, .nzero⟩ : Itv)) (⟨(f 1 0), (f 9007199254740991 971)⟩)),
    (266, eqB (Fmt.addI binary64 (⟨(f 0 0), (f 0 0)⟩ : Itv) (⟨(f (-3) (0)), (f 4 0)⟩ : Itv)) (⟨(f (-3) (0)), (f 4 0)⟩)),
    (267, eqB (Fmt.addI binary64 (⟨.nzero, .nzero⟩ : Itv) (⟨(f (-3) (0)), (f 9007199254740991 971)⟩ : Itv)) (⟨(f (-3) (0)), (f 9007199254740991 971)⟩)),
    (269, eqB (Fmt.addI binary64 (⟨(f (562949953421311) (-48)), (f (562949953421311) (-48))⟩ : Itv) (⟨(f (3602879701896397) (-55)), (f (3602879701896397) (-55))⟩ : Itv)) (⟨(f (1182194902184753) (-49)), (f (4728779608739013) (-51))⟩)),
    (270, eqB (Fmt.addI binary64 (⟨(f (562949953421311) (-48)), (f (562949953421311) (-48))⟩ : Itv) (⟨(f (-3602879701896397) (-55)), (f (-3602879701896397) (-55))⟩ : Itv)) (⟨(f (4278419646001963) (-51)), (f (8556839292003927) (-52))⟩)),
    (271, eqB (Fmt.addI binary64 (⟨(f (-562949953421311) (-48)), (f (562949953421311) (-48))⟩ : Itv) (⟨(f (3602879701896397) (-55)), (f (3602879701896397) (-55))⟩ : Itv)) (⟨(f (-8556839292003927) (-52)), (f (4728779608739013) (-51))⟩)),
    (277, Itv.isEmpty (Fmt.addI binary64 (⟨(f 1 0), (f (-9007199254740991) (971))⟩ : Itv) (⟨(f 3 0), (f 4 0)⟩ : Itv) : Itv)),
    (289, eqB (if !(⟨(f (562949953421311) (-48)), (f (562949953421311) (-48))⟩ : Itv).isValid || !(⟨(f (3602879701896397) (-55)), (f (3602879701896397) (-55))⟩ : Itv).isValid then Itv.empty else Fmt.convertHull binary32 (Fmt.addI binary64 (Fmt.convertHull binary64 (⟨(f (562949953421311) (-48)), (f (562949953421311) (-48))⟩ : Itv)) (Fmt.convertHull binary64 (⟨(f (3602879701896397) (-55)), (f (3602879701896397) (-55))⟩ : Itv)))) (⟨(f (4404019) (-21)), (f (8808039) (-22))⟩)),
    (290, eqB (if !(⟨(f (562949953421311) (-48)), (f (562949953421311) (-48))⟩ : Itv).isValid || !(⟨(f (-3602879701896397) (-55)), (f (-3602879701896397) (-55))⟩ : Itv).isValid then Itv.empty else Fmt.convertHull binary32 (Fmt.addI binary64 (Fmt.convertHull binary64 (⟨(f (562949953421311) (-48)), (f (562949953421311) (-48))⟩ : Itv)) (Fmt.convertHull binary64 (⟨(f (-3602879701896397) (-55)), (f (-3602879701896397) (-55))⟩ : Itv)))) (⟨(f (15938355) (-23)), (f (3984589) (-21))⟩)),
    (291, eqB (if !(⟨(f (-2) (0)), (f 2 0)⟩ : Itv).isValid || !(⟨(f (13421773) (-27)), (f (13421773) (-27))⟩ : Itv).isValid then Itv.empty else Fmt.convertHull binary64 (Fmt.addI binary64 (Fmt.convertHull binary64 (⟨(f (-2) (0)), (f 2 0)⟩ : Itv)) (Fmt.convertHull binary64 (⟨(f (13421773) (-27)), (f (13421773) (-27))⟩ : Itv)))) (⟨(f (-255013683) (-27)), (f (281857229) (-27))⟩)),
    (297, Itv.isEmpty (if !(⟨(f 1 0), (f (-9007199254740991) (971))⟩ : Itv).isValid || !(⟨(f 3 0), (f 4 0)⟩ : Itv).isValid then Itv.empty else Fmt.convertHull binary32 (Fmt.addI binary64 (Fmt.convertHull binary64 (⟨(f 1 0), (f (-9007199254740991) (971))⟩ : Itv)) (Fmt.convertHull binary64 (⟨(f 3 0), (f 4 0)⟩ : Itv))) : Itv)),
    (309, eqD (Fmt.addD binary64 (⟨⟨(f 1 0), (f 2 0)⟩, .com⟩ : DItv) (⟨⟨(f 5 0), (f 7 0)⟩, .com⟩ : DItv)) (⟨⟨(f 6 0), (f 9 0)⟩, .com⟩)),
    (310, eqD (Fmt.addD binary64 (⟨⟨(f 1 0), (f 2 0)⟩, .com⟩ : DItv) (⟨⟨(f 5 0), (f 7 0)⟩, .defd⟩ : DItv)) (⟨⟨(f 6 0), (f 9 0)⟩, .defd⟩)),
    (311, eqD (Fmt.addD binary64 (⟨⟨(f 1 0), (f 2 0)⟩, .com⟩ : DItv) (⟨⟨(f 5 0), (f 9007199254740991 971)⟩, .com⟩ : DItv)) (⟨⟨(f 6 0), .pinf⟩, .dac⟩)),
    (312, eqD (Fmt.addD binary64 (⟨⟨(f (-9007199254740991) (971)), (f 2 0)⟩, .com⟩ : DItv) (⟨⟨(f (-3602879701896397) (-55)), (f 5 0)⟩, .com⟩ : DItv)) (⟨⟨.ninf, (f 7 0)⟩, .dac⟩)),
    (313, DItv.pred Itv.isEmpty (Fmt.addD binary64 (⟨⟨(f 1 0), (f 2 0)⟩, .trv⟩ : DItv) (DItv.empty : DItv) : DItv)),
    (314, DItv.isNai (Fmt.addD binary64 (DItv.nai : DItv) (⟨⟨(f 1 0), (f 2 0)⟩, .trv⟩ : DItv) : DItv)),
    (320, DItv.isNai (Fmt.addD binary64 (⟨⟨(f 1 0), (f (-2) (0))⟩, .com⟩ : DItv) (⟨⟨(f 5 0), (f 7 0)⟩, .com⟩ : DItv) : DItv)),
    (332, eqD (if !(⟨⟨(f (562949953421311) (-48)), (f (562949953421311) (-48))⟩, .com⟩ : DItv).isValid || (⟨⟨(f (562949953421311) (-48)), (f (562949953421311) (-48))⟩, .com⟩ : DItv).isNai || !(⟨⟨(f (3602879701896397) (-55)), (f (3602879701896397) (-55))⟩, .com⟩ : DItv).isValid || (⟨⟨(f (3602879701896397) (-55)), (f (3602879701896397) (-55))⟩, .com⟩ : DItv).isNai then DItv.nai else Fmt.convertHullD binary32 (Fmt.addD binary64 (Fmt.convertHullD binary64 (⟨⟨(f (562949953421311) (-48)), (f (562949953421311) (-48))⟩, .com⟩ : DItv)) (Fmt.convertHullD binary64 (⟨⟨(f (3602879701896397) (-55)), (f (3602879701896397) (-55))⟩, .com⟩ : DItv)))) (⟨⟨(f (4404019) (-21)), (f (8808039) (-22))⟩, .com⟩)),
    (333, eqD (if !(⟨⟨(f (562949953421311) (-48)), (f (562949953421311) (-48))⟩, .defd⟩ : DItv).isValid || (⟨⟨(f (562949953421311) (-48)), (f (562949953421311) (-48))⟩, .defd⟩ : DItv).isNai || !(⟨⟨(f (3602879701896397) (-55)), (f (3602879701896397) (-55))⟩, .com⟩ : DItv).isValid || (⟨⟨(f (3602879701896397) (-55)), (f (3602879701896397) (-55))⟩, .com⟩ : DItv).isNai then DItv.nai else Fmt.convertHullD binary32 (Fmt.addD binary64 (Fmt.convertHullD binary64 (⟨⟨(f (562949953421311) (-48)), (f (562949953421311) (-48))⟩, .defd⟩ : DItv)) (Fmt.convertHullD binary64 (⟨⟨(f (3602879701896397) (-55)), (f (3602879701896397) (-55))⟩, .com⟩ : DItv)))) (⟨⟨(f (4404019) (-21)), (f (8808039) (-22))⟩, .defd⟩)),
    (338, DItv.isNai (if !(⟨⟨(f 1 0), (f (-2) (0))⟩, .com⟩ : DItv).isValid || (⟨⟨(f 1 0), (f (-2) (0))⟩, .com⟩ : DItv).isNai || !(⟨⟨(f 5 0), (f 7 0)⟩, .com⟩ : DItv).isValid || (⟨⟨(f 5 0), (f 7 0)⟩, .com⟩ : DItv).isNai then DItv.nai else Fmt.convertHullD binary64 (Fmt.addD binary64 (Fmt.convertHullD binary64 (⟨⟨(f 1 0), (f (-2) (0))⟩, .com⟩ : DItv)) (Fmt.convertHullD binary64 (⟨⟨(f 5 0), (f 7 0)⟩, .com⟩ : DItv))) : DItv)),
    (352, Itv.isEmpty (Fmt.subI binary64 (Itv.empty : Itv) (Itv.empty : Itv) : Itv)),
    (353, Itv.isEmpty (Fmt.subI binary64 (⟨(f (-1) (0)), (f 1 0)⟩ : Itv) (Itv.empty : Itv) : Itv)),
    (354, Itv.isEmpty (Fmt.subI binary64 (Itv.empty : Itv) (⟨(f (-1) (0)), (f 1 0)⟩ : Itv) : Itv)),
    (355, Itv.isEmpty (Fmt.subI binary64 (Itv.empty : Itv) (Itv.entire : Itv) : Itv)),
    (356, Itv.isEmpty (Fmt.subI binary64 (Itv.entire : Itv) (Itv.empty : Itv) : Itv)),
    (358, eqB (Fmt.subI binary64 (Itv.entire : Itv) (⟨.ninf, (f 1 0)⟩ : Itv)) (Itv.entire)),
    (359, eqB (Fmt.subI binary64 (Itv.entire : Itv) (⟨(f (-1) (0)), (f 1 0)⟩ : Itv)) (Itv.entire)),
    (360, eqB (Fmt.subI binary64 (Itv.entire : Itv) (⟨(f (-1) (0)), .pinf⟩ : Itv)) (Itv.entire))] : List (ℕ × Bool)).all (·.2) = true := by
  decide +kernel

example : ([
    (361, eqB (Fmt.subI binary64 (Itv.entire : Itv) (Itv.entire : Itv)) (Itv.entire)),
    (362, eqB (Fmt.subI binary64 (⟨.ninf, (f 1 0)⟩ : Itv) (Itv.entire : Itv)) (Itv.entire)),
    (363, eqB (Fmt.subI binary64 (⟨(f (-1) (0)), (f 1 0)⟩ : Itv) (Itv.entire : Itv)) (Itv.entire)),
    (364, eqB (Fmt.subI binary64 (⟨(f (-1) (0)), .pinf⟩ : Itv) (Itv.entire : Itv)) (Itv.entire)),
    (366, eqB (Fmt.subI binary64 (⟨.ninf, (f 2 0)⟩ : Itv) (⟨.ninf, (f 4 0)⟩ : Itv)) (Itv.entire)),
    (367, eqB (Fmt.subI binary64 (⟨.ninf, (f 2 0)⟩ : Itv) (⟨(f 3 0), (f 4 0)⟩ : Itv)) (⟨.ninf, (f (-1) (0))⟩)),
    (368, eqB (Fmt.subI binary64 (⟨.ninf, (f 2 0)⟩ : Itv) (⟨(f 3 0), .pinf⟩ : Itv)) (⟨.ninf, (f (-1) (0))⟩)),
    (370, eqB (Fmt.subI binary64 (⟨(f 1 0), (f 2 0)⟩ : Itv) (⟨.ninf, (f 4 0)⟩ : Itv)) (⟨(f (-3) (0)), .pinf⟩)),
    (371, eqB (Fmt.subI binary64 (⟨(f 1 0), (f 2 0)⟩ : Itv) (⟨(f 3 0), (f 4 0)⟩ : Itv)) (⟨(f (-3) (0)), (f (-1) (0))⟩)),
    (372, eqB (Fmt.subI binary64 (⟨(f 1 0), (f 2 0)⟩ : Itv) (⟨(f 3 0), .pinf⟩ : Itv)) (⟨.ninf, (f (-1) (0))⟩)),
    (374, eqB (Fmt.subI binary64 (⟨(f 1 0), .pinf⟩ : Itv) (⟨.ninf, (f 4 0)⟩ : Itv)) (⟨(f (-3) (0)), .pinf⟩)),
    (375, eqB (Fmt.subI binary64 (⟨(f 1 0), .pinf⟩ : Itv) (⟨(f 3 0), (f 4 0)⟩ : Itv)) (⟨(f (-3) (0)), .pinf⟩)),
    (376, eqB (Fmt.subI binary64 (⟨(f 1 0), .pinf⟩ : Itv) (⟨(f 3 0), .pinf⟩ : Itv)) (Itv.entire)),
    (378, eqB (Fmt.subI binary64 (⟨(f 1 0), (f 9007199254740991 971)⟩ : Itv) (⟨(f (-3) (0)), (f 4 0)⟩ : Itv)) (⟨(f (-3) (0)), .pinf⟩)),
    (379, eqB (Fmt.subI binary64 (⟨(f (-9007199254740991) (971)), (f 2 0)⟩ : Itv) (⟨(f 3 0), (f 4 0)⟩ : Itv)) (⟨.ninf, (f (-1) (0))⟩)),
    (380, eqB (Fmt.subI binary64 (⟨(f (-9007199254740991) (971)), (f 2 0)⟩ : Itv) (⟨(f (-9007199254740991) (971)), (f 4 0)⟩ : Itv)) (Itv.entire)),
    (382, eqB (Fmt.subI binary64 (⟨(f 1 0), (f 9007199254740991 971)⟩ : Itv) (⟨(f 0 0), (f 0 0)⟩ : Itv)) (⟨(f 1 0), (f 9007199254740991 971)⟩)),
    (383, eqB (Fmt.subI binary64 (⟨(f 1 0), (f 9007199254740991 971)⟩ : Itv) (⟨.nzero, .nzero⟩ : Itv)) (⟨(f 1 0), (f 9007199254740991 971)⟩)),
    (384, eqB (Fmt.subI binary64 (⟨(f 0 0), (f 0 0)⟩ : Itv) (⟨(f (-3) (0)), (f 4 0)⟩ : Itv)) (⟨(f (-4) (0)), (f 3 0)⟩)),
    (385, eqB (Fmt.subI binary64 (⟨.nzero, .nzero⟩ : Itv) (⟨(f (-3) (0)), (f 9007199254740991 971)⟩ : Itv)) (⟨(f (-9007199254740991) (971)), (f 3 0)⟩)),
    (387, eqB (Fmt.subI binary64 (⟨(f (562949953421311) (-48)), (f (562949953421311) (-48))⟩ : Itv) (⟨(f (3602879701896397) (-55)), (f (3602879701896397) (-55))⟩ : Itv)) (⟨(f (4278419646001963) (-51)), (f (8556839292003927) (-52))⟩)),
    (388, eqB (Fmt.subI binary64 (⟨(f (562949953421311) (-48)), (f (562949953421311) (-48))⟩ : Itv) (⟨(f (-3602879701896397) (-55)), (f (-3602879701896397) (-55))⟩ : Itv)) (⟨(f (1182194902184753) (-49)), (f (4728779608739013) (-51))⟩)),
    (389, eqB (Fmt.subI binary64 (⟨(f (-562949953421311) (-48)), (f (562949953421311) (-48))⟩ : Itv) (⟨(f (3602879701896397) (-55)), (f (3602879701896397) (-55))⟩ : Itv)) (⟨(f (-4728779608739013) (-51)), (f (8556839292003927) (-52))⟩)),
    (395, Itv.isEmpty (Fmt.subI binary64 (⟨(f 1 0), (f (-9007199254740991) (971))⟩ : Itv) (⟨(f 3 0), (f 4 0)⟩ : Itv) : Itv)),
    (407, eqB (if !(⟨(f (562949953421311) (-48)), (f (562949953421311) (-48))⟩ : Itv).isValid || !(⟨(f (3602879701896397) (-55)), (f (3602879701896397) (-55))⟩ : Itv).isValid then Itv.empty else Fmt.convertHull binary32 (Fmt.subI binary64 (Fmt.convertHull binary64 (⟨(f (562949953421311) (-48)), (f (562949953421311) (-48))⟩ : Itv)) (Fmt.convertHull binary64 (⟨(f (3602879701896397) (-55)), (f (3602879701896397) (-55))⟩ : Itv)))) (⟨(f (15938355) (-23)), (f (3984589) (-21))⟩)),
    (408, eqB (if !(⟨(f (562949953421311) (-48)), (f (562949953421311) (-48))⟩ : Itv).isValid || !(⟨(f (-3602879701896397) (-55)), (f (-3602879701896397) (-55))⟩ : Itv).isValid then Itv.empty else Fmt.convertHull binary32 (Fmt.subI binary64 (Fmt.convertHull binary64 (⟨(f (562949953421311) (-48)), (f (562949953421311) (-48))⟩ : Itv)) (Fmt.convertHull binary64 (⟨(f (-3602879701896397) (-55)), (f (-3602879701896397) (-55))⟩ : Itv)))) (⟨(f (4404019) (-21)), (f (8808039) (-22))⟩)),
    (409, eqB (if !(⟨(f (-2) (0)), (f 2 0)⟩ : Itv).isValid || !(⟨(f (13421773) (-27)), (f (13421773) (-27))⟩ : Itv).isValid then Itv.empty else Fmt.convertHull binary64 (Fmt.subI binary64 (Fmt.convertHull binary64 (⟨(f (-2) (0)), (f 2 0)⟩ : Itv)) (Fmt.convertHull binary64 (⟨(f (13421773) (-27)), (f (13421773) (-27))⟩ : Itv)))) (⟨(f (-281857229) (-27)), (f (255013683) (-27))⟩)),
    (414, Itv.isEmpty (if !(⟨(f 1 0), (f (-9007199254740991) (971))⟩ : Itv).isValid || !(⟨(f 3 0), (f 4 0)⟩ : Itv).isValid then Itv.empty else Fmt.convertHull binary32 (Fmt.subI binary64 (Fmt.convertHull binary64 (⟨(f 1 0), (f (-9007199254740991) (971))⟩ : Itv)) (Fmt.convertHull binary64 (⟨(f 3 0), (f 4 0)⟩ : Itv))) : Itv)),
    (426, eqD (Fmt.subD binary64 (⟨⟨(f 1 0), (f 2 0)⟩, .com⟩ : DItv) (⟨⟨(f 5 0), (f 7 0)⟩, .com⟩ : DItv)) (⟨⟨(f (-6) (0)), (f (-3) (0))⟩, .com⟩)),
    (427, eqD (Fmt.subD binary64 (⟨⟨(f 1 0), (f 2 0)⟩, .com⟩ : DItv) (⟨⟨(f 5 0), (f 7 0)⟩, .defd⟩ : DItv)) (⟨⟨(f (-6) (0)), (f (-3) (0))⟩, .defd⟩)),
    (428, eqD (Fmt.subD binary64 (⟨⟨(f (-1) (0)), (f 2 0)⟩, .com⟩ : DItv) (⟨⟨(f 5 0), (f 9007199254740991 971)⟩, .com⟩ : DItv)) (⟨⟨.ninf, (f (-3) (0))⟩, .dac⟩)),
    (429, eqD (Fmt.subD binary64 (⟨⟨(f (-9007199254740991) (971)), (f 2 0)⟩, .com⟩ : DItv) (⟨⟨(f (-1) (0)), (f 5 0)⟩, .com⟩ : DItv)) (⟨⟨.ninf, (f 3 0)⟩, .dac⟩)),
    (430, DItv.pred Itv.isEmpty (Fmt.subD binary64 (⟨⟨(f 1 0), (f 2 0)⟩, .trv⟩ : DItv) (DItv.empty : DItv) : DItv)),
    (431, DItv.isNai (Fmt.subD binary64 (DItv.nai : DItv) (⟨⟨(f 1 0), (f 2 0)⟩, .trv⟩ : DItv) : DItv)),
    (436, DItv.isNai (Fmt.subD binary64 (⟨⟨(f 1 0), (f (-2) (0))⟩, .com⟩ : DItv) (⟨⟨(f 5 0), (f 7 0)⟩, .com⟩ : DItv) : DItv)),
    (448, eqD (if !(⟨⟨(f (562949953421311) (-48)), (f (562949953421311) (-48))⟩, .com⟩ : DItv).isValid || (⟨⟨(f (562949953421311) (-48)), (f (562949953421311) (-48))⟩, .com⟩ : DItv).isNai || !(⟨⟨(f (3602879701896397) (-55)), (f (3602879701896397) (-55))⟩, .com⟩ : DItv).isValid || (⟨⟨(f (3602879701896397) (-55)), (f (3602879701896397) (-55))⟩, .com⟩ : DItv).isNai then DItv.nai else Fmt.convertHullD binary32 (Fmt.subD binary64 (Fmt.convertHullD binary64 (⟨⟨(f (562949953421311) (-48)), (f (562949953421311) (-48))⟩, .com⟩ : DItv)) (Fmt.convertHullD binary64 (⟨⟨(f (3602879701896397) (-55)), (f (3602879701896397) (-55))⟩, .com⟩ : DItv)))) (⟨⟨(f (15938355) (-23)), (f (3984589) (-21))⟩, .com⟩)),
    (449, eqD (if !(⟨⟨(f (562949953421311) (-48)), (f (562949953421311) (-48))⟩, .defd⟩ : DItv).isValid || (⟨⟨(f (562949953421311) (-48)), (f (562949953421311) (-48))⟩, .defd⟩ : DItv).isNai || !(⟨⟨(f (3602879701896397) (-55)), (f (3602879701896397) (-55))⟩, .com⟩ : DItv).isValid || (⟨⟨(f (3602879701896397) (-55)), (f (3602879701896397) (-55))⟩, .com⟩ : DItv).isNai then DItv.nai else Fmt.convertHullD binary32 (Fmt.subD binary64 (Fmt.convertHullD binary64 (⟨⟨(f (562949953421311) (-48)), (f (562949953421311) (-48))⟩, .defd⟩ : DItv)) (Fmt.convertHullD binary64 (⟨⟨(f (3602879701896397) (-55)), (f (3602879701896397) (-55))⟩, .com⟩ : DItv)))) (⟨⟨(f (15938355) (-23)), (f (3984589) (-21))⟩, .defd⟩)),
    (454, DItv.isNai (if !(⟨⟨(f 1 0), (f (-2) (0))⟩, .com⟩ : DItv).isValid || (⟨⟨(f 1 0), (f (-2) (0))⟩, .com⟩ : DItv).isNai || !(⟨⟨(f 5 0), (f 7 0)⟩, .com⟩ : DItv).isValid || (⟨⟨(f 5 0), (f 7 0)⟩, .com⟩ : DItv).isNai then DItv.nai else Fmt.convertHullD binary64 (Fmt.subD binary64 (Fmt.convertHullD binary64 (⟨⟨(f 1 0), (f (-2) (0))⟩, .com⟩ : DItv)) (Fmt.convertHullD binary64 (⟨⟨(f 5 0), (f 7 0)⟩, .com⟩ : DItv))) : DItv)),
    (469, Itv.isEmpty (Fmt.mulI binary64 (Itv.empty : Itv) (Itv.empty : Itv) : Itv)),
    (470, Itv.isEmpty (Fmt.mulI binary64 (⟨(f (-1) (0)), (f 1 0)⟩ : Itv) (Itv.empty : Itv) : Itv)),
    (471, Itv.isEmpty (Fmt.mulI binary64 (Itv.empty : Itv) (⟨(f (-1) (0)), (f 1 0)⟩ : Itv) : Itv)),
    (472, Itv.isEmpty (Fmt.mulI binary64 (Itv.empty : Itv) (Itv.entire : Itv) : Itv)),
    (473, Itv.isEmpty (Fmt.mulI binary64 (Itv.entire : Itv) (Itv.empty : Itv) : Itv)),
    (474, Itv.isEmpty (Fmt.mulI binary64 (⟨(f 0 0), (f 0 0)⟩ : Itv) (Itv.empty : Itv) : Itv)),
    (475, Itv.isEmpty (Fmt.mulI binary64 (Itv.empty : Itv) (⟨(f 0 0), (f 0 0)⟩ : Itv) : Itv)),
    (476, Itv.isEmpty (Fmt.mulI binary64 (⟨.nzero, .nzero⟩ : Itv) (Itv.empty : Itv) : Itv)),
    (477, Itv.isEmpty (Fmt.mulI binary64 (Itv.empty : Itv) (⟨.nzero, .nzero⟩ : Itv) : Itv)),
    (479, eqB (Fmt.mulI binary64 (Itv.entire : Itv) (⟨(f 0 0), (f 0 0)⟩ : Itv)) (⟨(f 0 0), (f 0 0)⟩)),
    (480, eqB (Fmt.mulI binary64 (Itv.entire : Itv) (⟨.nzero, .nzero⟩ : Itv)) (⟨(f 0 0), (f 0 0)⟩)),
    (481, eqB (Fmt.mulI binary64 (Itv.entire : Itv) (⟨(f (-5) (0)), (f (-1) (0))⟩ : Itv)) (Itv.entire))] : List (ℕ × Bool)).all (·.2) = true := by
  decide +kernel

example : ([
    (482, eqB (Fmt.mulI binary64 (Itv.entire : Itv) (⟨(f (-5) (0)), (f 3 0)⟩ : Itv)) (Itv.entire)),
    (483, eqB (Fmt.mulI binary64 (Itv.entire : Itv) (⟨(f 1 0), (f 3 0)⟩ : Itv)) (Itv.entire)),
    (484, eqB (Fmt.mulI binary64 (Itv.entire : Itv) (⟨.ninf, (f (-1) (0))⟩ : Itv)) (Itv.entire)),
    (485, eqB (Fmt.mulI binary64 (Itv.entire : Itv) (⟨.ninf, (f 3 0)⟩ : Itv)) (Itv.entire)),
    (486, eqB (Fmt.mulI binary64 (Itv.entire : Itv) (⟨(f (-5) (0)), .pinf⟩ : Itv)) (Itv.entire)),
    (487, eqB (Fmt.mulI binary64 (Itv.entire : Itv) (⟨(f 1 0), .pinf⟩ : Itv)) (Itv.entire)),
    (488, eqB (Fmt.mulI binary64 (Itv.entire : Itv) (Itv.entire : Itv)) (Itv.entire)),
    (490, eqB (Fmt.mulI binary64 (⟨(f 1 0), .pinf⟩ : Itv) (⟨(f 0 0), (f 0 0)⟩ : Itv)) (⟨(f 0 0), (f 0 0)⟩)),
    (491, eqB (Fmt.mulI binary64 (⟨(f 1 0), .pinf⟩ : Itv) (⟨.nzero, .nzero⟩ : Itv)) (⟨(f 0 0), (f 0 0)⟩)),
    (492, eqB (Fmt.mulI binary64 (⟨(f 1 0), .pinf⟩ : Itv) (⟨(f (-5) (0)), (f (-1) (0))⟩ : Itv)) (⟨.ninf, (f (-1) (0))⟩)),
    (493, eqB (Fmt.mulI binary64 (⟨(f 1 0), .pinf⟩ : Itv) (⟨(f (-5) (0)), (f 3 0)⟩ : Itv)) (Itv.entire)),
    (494, eqB (Fmt.mulI binary64 (⟨(f 1 0), .pinf⟩ : Itv) (⟨(f 1 0), (f 3 0)⟩ : Itv)) (⟨(f 1 0), .pinf⟩)),
    (495, eqB (Fmt.mulI binary64 (⟨(f 1 0), .pinf⟩ : Itv) (⟨.ninf, (f (-1) (0))⟩ : Itv)) (⟨.ninf, (f (-1) (0))⟩)),
    (496, eqB (Fmt.mulI binary64 (⟨(f 1 0), .pinf⟩ : Itv) (⟨.ninf, (f 3 0)⟩ : Itv)) (Itv.entire)),
    (497, eqB (Fmt.mulI binary64 (⟨(f 1 0), .pinf⟩ : Itv) (⟨(f (-5) (0)), .pinf⟩ : Itv)) (Itv.entire)),
    (498, eqB (Fmt.mulI binary64 (⟨(f 1 0), .pinf⟩ : Itv) (⟨(f 1 0), .pinf⟩ : Itv)) (⟨(f 1 0), .pinf⟩)),
    (499, eqB (Fmt.mulI binary64 (⟨(f 1 0), .pinf⟩ : Itv) (Itv.entire : Itv)) (Itv.entire)),
    (501, eqB (Fmt.mulI binary64 (⟨(f (-1) (0)), .pinf⟩ : Itv) (⟨(f 0 0), (f 0 0)⟩ : Itv)) (⟨(f 0 0), (f 0 0)⟩)),
    (502, eqB (Fmt.mulI binary64 (⟨(f (-1) (0)), .pinf⟩ : Itv) (⟨.nzero, .nzero⟩ : Itv)) (⟨(f 0 0), (f 0 0)⟩)),
    (503, eqB (Fmt.mulI binary64 (⟨(f (-1) (0)), .pinf⟩ : Itv) (⟨(f (-5) (0)), (f (-1) (0))⟩ : Itv)) (⟨.ninf, (f 5 0)⟩)),
    (504, eqB (Fmt.mulI binary64 (⟨(f (-1) (0)), .pinf⟩ : Itv) (⟨(f (-5) (0)), (f 3 0)⟩ : Itv)) (Itv.entire)),
    (505, eqB (Fmt.mulI binary64 (⟨(f (-1) (0)), .pinf⟩ : Itv) (⟨(f 1 0), (f 3 0)⟩ : Itv)) (⟨(f (-3) (0)), .pinf⟩)),
    (506, eqB (Fmt.mulI binary64 (⟨(f (-1) (0)), .pinf⟩ : Itv) (⟨.ninf, (f (-1) (0))⟩ : Itv)) (Itv.entire)),
    (507, eqB (Fmt.mulI binary64 (⟨(f (-1) (0)), .pinf⟩ : Itv) (⟨.ninf, (f 3 0)⟩ : Itv)) (Itv.entire)),
    (508, eqB (Fmt.mulI binary64 (⟨(f (-1) (0)), .pinf⟩ : Itv) (⟨(f (-5) (0)), .pinf⟩ : Itv)) (Itv.entire)),
    (509, eqB (Fmt.mulI binary64 (⟨(f (-1) (0)), .pinf⟩ : Itv) (⟨(f 1 0), .pinf⟩ : Itv)) (Itv.entire)),
    (510, eqB (Fmt.mulI binary64 (⟨(f (-1) (0)), .pinf⟩ : Itv) (Itv.entire : Itv)) (Itv.entire)),
    (512, eqB (Fmt.mulI binary64 (⟨.ninf, (f 3 0)⟩ : Itv) (⟨(f 0 0), (f 0 0)⟩ : Itv)) (⟨(f 0 0), (f 0 0)⟩)),
    (513, eqB (Fmt.mulI binary64 (⟨.ninf, (f 3 0)⟩ : Itv) (⟨.nzero, .nzero⟩ : Itv)) (⟨(f 0 0), (f 0 0)⟩)),
    (514, eqB (Fmt.mulI binary64 (⟨.ninf, (f 3 0)⟩ : Itv) (⟨(f (-5) (0)), (f (-1) (0))⟩ : Itv)) (⟨(f (-15) (0)), .pinf⟩)),
    (515, eqB (Fmt.mulI binary64 (⟨.ninf, (f 3 0)⟩ : Itv) (⟨(f (-5) (0)), (f 3 0)⟩ : Itv)) (Itv.entire)),
    (516, eqB (Fmt.mulI binary64 (⟨.ninf, (f 3 0)⟩ : Itv) (⟨(f 1 0), (f 3 0)⟩ : Itv)) (⟨.ninf, (f 9 0)⟩)),
    (517, eqB (Fmt.mulI binary64 (⟨.ninf, (f 3 0)⟩ : Itv) (⟨.ninf, (f (-1) (0))⟩ : Itv)) (Itv.entire)),
    (518, eqB (Fmt.mulI binary64 (⟨.ninf, (f 3 0)⟩ : Itv) (⟨.ninf, (f 3 0)⟩ : Itv)) (Itv.entire)),
    (519, eqB (Fmt.mulI binary64 (⟨.ninf, (f 3 0)⟩ : Itv) (⟨(f (-5) (0)), .pinf⟩ : Itv)) (Itv.entire)),
    (520, eqB (Fmt.mulI binary64 (⟨.ninf, (f 3 0)⟩ : Itv) (⟨(f 1 0), .pinf⟩ : Itv)) (Itv.entire)),
    (521, eqB (Fmt.mulI binary64 (⟨.ninf, (f 3 0)⟩ : Itv) (Itv.entire : Itv)) (Itv.entire)),
    (523, eqB (Fmt.mulI binary64 (⟨.ninf, (f (-3) (0))⟩ : Itv) (⟨(f 0 0), (f 0 0)⟩ : Itv)) (⟨(f 0 0), (f 0 0)⟩)),
    (524, eqB (Fmt.mulI binary64 (⟨.ninf, (f (-3) (0))⟩ : Itv) (⟨.nzero, .nzero⟩ : Itv)) (⟨(f 0 0), (f 0 0)⟩)),
    (525, eqB (Fmt.mulI binary64 (⟨.ninf, (f (-3) (0))⟩ : Itv) (⟨(f (-5) (0)), (f (-1) (0))⟩ : Itv)) (⟨(f 3 0), .pinf⟩)),
    (526, eqB (Fmt.mulI binary64 (⟨.ninf, (f (-3) (0))⟩ : Itv) (⟨(f (-5) (0)), (f 3 0)⟩ : Itv)) (Itv.entire)),
    (527, eqB (Fmt.mulI binary64 (⟨.ninf, (f (-3) (0))⟩ : Itv) (⟨(f 1 0), (f 3 0)⟩ : Itv)) (⟨.ninf, (f (-3) (0))⟩)),
    (528, eqB (Fmt.mulI binary64 (⟨.ninf, (f (-3) (0))⟩ : Itv) (⟨.ninf, (f (-1) (0))⟩ : Itv)) (⟨(f 3 0), .pinf⟩)),
    (529, eqB (Fmt.mulI binary64 (⟨.ninf, (f (-3) (0))⟩ : Itv) (⟨.ninf, (f 3 0)⟩ : Itv)) (Itv.entire)),
    (530, eqB (Fmt.mulI binary64 (⟨.ninf, (f (-3) (0))⟩ : Itv) (⟨(f (-5) (0)), .pinf⟩ : Itv)) (Itv.entire)),
    (531, eqB (Fmt.mulI binary64 (⟨.ninf, (f (-3) (0))⟩ : Itv) (⟨(f 1 0), .pinf⟩ : Itv)) (⟨.ninf, (f (-3) (0))⟩)),
    (532, eqB (Fmt.mulI binary64 (⟨.ninf, (f (-3) (0))⟩ : Itv) (Itv.entire : Itv)) (Itv.entire)),
    (534, eqB (Fmt.mulI binary64 (⟨(f 0 0), (f 0 0)⟩ : Itv) (⟨(f 0 0), (f 0 0)⟩ : Itv)) (⟨(f 0 0), (f 0 0)⟩)),
    (535, eqB (Fmt.mulI binary64 (⟨(f 0 0), (f 0 0)⟩ : Itv) (⟨.nzero, .nzero⟩ : Itv)) (⟨(f 0 0), (f 0 0)⟩)),
    (536, eqB (Fmt.mulI binary64 (⟨(f 0 0), (f 0 0)⟩ : Itv) (⟨(f (-5) (0)), (f (-1) (0))⟩ : Itv)) (⟨(f 0 0), (f 0 0)⟩))] : List (ℕ × Bool)).all (·.2) = true := by
  decide +kernel

example : ([
    (537, eqB (Fmt.mulI binary64 (⟨(f 0 0), (f 0 0)⟩ : Itv) (⟨(f (-5) (0)), (f 3 0)⟩ : Itv)) (⟨(f 0 0), (f 0 0)⟩)),
    (538, eqB (Fmt.mulI binary64 (⟨(f 0 0), (f 0 0)⟩ : Itv) (⟨(f 1 0), (f 3 0)⟩ : Itv)) (⟨(f 0 0), (f 0 0)⟩)),
    (539, eqB (Fmt.mulI binary64 (⟨(f 0 0), (f 0 0)⟩ : Itv) (⟨.ninf, (f (-1) (0))⟩ : Itv)) (⟨(f 0 0), (f 0 0)⟩)),
    (540, eqB (Fmt.mulI binary64 (⟨(f 0 0), (f 0 0)⟩ : Itv) (⟨.ninf, (f 3 0)⟩ : Itv)) (⟨(f 0 0), (f 0 0)⟩)),
    (541, eqB (Fmt.mulI binary64 (⟨(f 0 0), (f 0 0)⟩ : Itv) (⟨(f (-5) (0)), .pinf⟩ : Itv)) (⟨(f 0 0), (f 0 0)⟩)),
    (542, eqB (Fmt.mulI binary64 (⟨(f 0 0), (f 0 0)⟩ : Itv) (⟨(f 1 0), .pinf⟩ : Itv)) (⟨(f 0 0), (f 0 0)⟩)),
    (543, eqB (Fmt.mulI binary64 (⟨(f 0 0), (f 0 0)⟩ : Itv) (Itv.entire : Itv)) (⟨(f 0 0), (f 0 0)⟩)),
    (545, eqB (Fmt.mulI binary64 (⟨.nzero, .nzero⟩ : Itv) (⟨(f 0 0), (f 0 0)⟩ : Itv)) (⟨(f 0 0), (f 0 0)⟩)),
    (546, eqB (Fmt.mulI binary64 (⟨.nzero, .nzero⟩ : Itv) (⟨.nzero, .nzero⟩ : Itv)) (⟨(f 0 0), (f 0 0)⟩)),
    (547, eqB (Fmt.mulI binary64 (⟨.nzero, .nzero⟩ : Itv) (⟨(f (-5) (0)), (f (-1) (0))⟩ : Itv)) (⟨(f 0 0), (f 0 0)⟩)),
    (548, eqB (Fmt.mulI binary64 (⟨.nzero, .nzero⟩ : Itv) (⟨(f (-5) (0)), (f 3 0)⟩ : Itv)) (⟨(f 0 0), (f 0 0)⟩)),
    (549, eqB (Fmt.mulI binary64 (⟨.nzero, .nzero⟩ : Itv) (⟨(f 1 0), (f 3 0)⟩ : Itv)) (⟨(f 0 0), (f 0 0)⟩)),
    (550, eqB (Fmt.mulI binary64 (⟨.nzero, .nzero⟩ : Itv) (⟨.ninf, (f (-1) (0))⟩ : Itv)) (⟨(f 0 0), (f 0 0)⟩)),
    (551, eqB (Fmt.mulI binary64 (⟨.nzero, .nzero⟩ : Itv) (⟨.ninf, (f 3 0)⟩ : Itv)) (⟨(f 0 0), (f 0 0)⟩)),
    (552, eqB (Fmt.mulI binary64 (⟨.nzero, .nzero⟩ : Itv) (⟨(f (-5) (0)), .pinf⟩ : Itv)) (⟨(f 0 0), (f 0 0)⟩)),
    (553, eqB (Fmt.mulI binary64 (⟨.nzero, .nzero⟩ : Itv) (⟨(f 1 0), .pinf⟩ : Itv)) (⟨(f 0 0), (f 0 0)⟩)),
    (554, eqB (Fmt.mulI binary64 (⟨.nzero, .nzero⟩ : Itv) (Itv.entire : Itv)) (⟨(f 0 0), (f 0 0)⟩)),
    (556, eqB (Fmt.mulI binary64 (⟨(f 1 0), (f 5 0)⟩ : Itv) (⟨(f 0 0), (f 0 0)⟩ : Itv)) (⟨(f 0 0), (f 0 0)⟩)),
    (557, eqB (Fmt.mulI binary64 (⟨(f 1 0), (f 5 0)⟩ : Itv) (⟨.nzero, .nzero⟩ : Itv)) (⟨(f 0 0), (f 0 0)⟩)),
    (558, eqB (Fmt.mulI binary64 (⟨(f 1 0), (f 5 0)⟩ : Itv) (⟨(f (-5) (0)), (f (-1) (0))⟩ : Itv)) (⟨(f (-25) (0)), (f (-1) (0))⟩)),
    (559, eqB (Fmt.mulI binary64 (⟨(f 1 0), (f 5 0)⟩ : Itv) (⟨(f (-5) (0)), (f 3 0)⟩ : Itv)) (⟨(f (-25) (0)), (f 15 0)⟩)),
    (560, eqB (Fmt.mulI binary64 (⟨(f 1 0), (f 5 0)⟩ : Itv) (⟨(f 1 0), (f 3 0)⟩ : Itv)) (⟨(f 1 0), (f 15 0)⟩)),
    (561, eqB (Fmt.mulI binary64 (⟨(f 1 0), (f 5 0)⟩ : Itv) (⟨.ninf, (f (-1) (0))⟩ : Itv)) (⟨.ninf, (f (-1) (0))⟩)),
    (562, eqB (Fmt.mulI binary64 (⟨(f 1 0), (f 5 0)⟩ : Itv) (⟨.ninf, (f 3 0)⟩ : Itv)) (⟨.ninf, (f 15 0)⟩)),
    (563, eqB (Fmt.mulI binary64 (⟨(f 1 0), (f 5 0)⟩ : Itv) (⟨(f (-5) (0)), .pinf⟩ : Itv)) (⟨(f (-25) (0)), .pinf⟩)),
    (564, eqB (Fmt.mulI binary64 (⟨(f 1 0), (f 5 0)⟩ : Itv) (⟨(f 1 0), .pinf⟩ : Itv)) (⟨(f 1 0), .pinf⟩)),
    (565, eqB (Fmt.mulI binary64 (⟨(f 1 0), (f 5 0)⟩ : Itv) (Itv.entire : Itv)) (Itv.entire)),
    (568, eqB (Fmt.mulI binary64 (⟨(f (-1) (0)), (f 5 0)⟩ : Itv) (⟨(f 0 0), (f 0 0)⟩ : Itv)) (⟨(f 0 0), (f 0 0)⟩)),
    (569, eqB (Fmt.mulI binary64 (⟨(f (-1) (0)), (f 5 0)⟩ : Itv) (⟨.nzero, .nzero⟩ : Itv)) (⟨(f 0 0), (f 0 0)⟩)),
    (570, eqB (Fmt.mulI binary64 (⟨(f (-1) (0)), (f 5 0)⟩ : Itv) (⟨(f (-5) (0)), (f (-1) (0))⟩ : Itv)) (⟨(f (-25) (0)), (f 5 0)⟩)),
    (573, eqB (Fmt.mulI binary64 (⟨(f (-1) (0)), (f 5 0)⟩ : Itv) (⟨(f (-5) (0)), (f 3 0)⟩ : Itv)) (⟨(f (-25) (0)), (f 15 0)⟩)),
    (574, eqB (Fmt.mulI binary64 (⟨(f (-10) (0)), (f 2 0)⟩ : Itv) (⟨(f (-5) (0)), (f 3 0)⟩ : Itv)) (⟨(f (-30) (0)), (f 50 0)⟩)),
    (575, eqB (Fmt.mulI binary64 (⟨(f (-1) (0)), (f 5 0)⟩ : Itv) (⟨(f (-1) (0)), (f 10 0)⟩ : Itv)) (⟨(f (-10) (0)), (f 50 0)⟩)),
    (576, eqB (Fmt.mulI binary64 (⟨(f (-2) (0)), (f 2 0)⟩ : Itv) (⟨(f (-5) (0)), (f 3 0)⟩ : Itv)) (⟨(f (-10) (0)), (f 10 0)⟩)),
    (579, eqB (Fmt.mulI binary64 (⟨(f (-1) (0)), (f 5 0)⟩ : Itv) (⟨(f 1 0), (f 3 0)⟩ : Itv)) (⟨(f (-3) (0)), (f 15 0)⟩)),
    (580, eqB (Fmt.mulI binary64 (⟨(f (-1) (0)), (f 5 0)⟩ : Itv) (⟨.ninf, (f (-1) (0))⟩ : Itv)) (Itv.entire)),
    (581, eqB (Fmt.mulI binary64 (⟨(f (-1) (0)), (f 5 0)⟩ : Itv) (⟨.ninf, (f 3 0)⟩ : Itv)) (Itv.entire)),
    (582, eqB (Fmt.mulI binary64 (⟨(f (-1) (0)), (f 5 0)⟩ : Itv) (⟨(f (-5) (0)), .pinf⟩ : Itv)) (Itv.entire)),
    (583, eqB (Fmt.mulI binary64 (⟨(f (-1) (0)), (f 5 0)⟩ : Itv) (⟨(f 1 0), .pinf⟩ : Itv)) (Itv.entire)),
    (584, eqB (Fmt.mulI binary64 (⟨(f (-1) (0)), (f 5 0)⟩ : Itv) (Itv.entire : Itv)) (Itv.entire)),
    (586, eqB (Fmt.mulI binary64 (⟨(f (-10) (0)), (f (-5) (0))⟩ : Itv) (⟨(f 0 0), (f 0 0)⟩ : Itv)) (⟨(f 0 0), (f 0 0)⟩)),
    (587, eqB (Fmt.mulI binary64 (⟨(f (-10) (0)), (f (-5) (0))⟩ : Itv) (⟨.nzero, .nzero⟩ : Itv)) (⟨(f 0 0), (f 0 0)⟩)),
    (588, eqB (Fmt.mulI binary64 (⟨(f (-10) (0)), (f (-5) (0))⟩ : Itv) (⟨(f (-5) (0)), (f (-1) (0))⟩ : Itv)) (⟨(f 5 0), (f 50 0)⟩)),
    (589, eqB (Fmt.mulI binary64 (⟨(f (-10) (0)), (f (-5) (0))⟩ : Itv) (⟨(f (-5) (0)), (f 3 0)⟩ : Itv)) (⟨(f (-30) (0)), (f 50 0)⟩)),
    (590, eqB (Fmt.mulI binary64 (⟨(f (-10) (0)), (f (-5) (0))⟩ : Itv) (⟨(f 1 0), (f 3 0)⟩ : Itv)) (⟨(f (-30) (0)), (f (-5) (0))⟩)),
    (591, eqB (Fmt.mulI binary64 (⟨(f (-10) (0)), (f (-5) (0))⟩ : Itv) (⟨.ninf, (f (-1) (0))⟩ : Itv)) (⟨(f 5 0), .pinf⟩)),
    (592, eqB (Fmt.mulI binary64 (⟨(f (-10) (0)), (f (-5) (0))⟩ : Itv) (⟨.ninf, (f 3 0)⟩ : Itv)) (⟨(f (-30) (0)), .pinf⟩)),
    (593, eqB (Fmt.mulI binary64 (⟨(f (-10) (0)), (f (-5) (0))⟩ : Itv) (⟨(f (-5) (0)), .pinf⟩ : Itv)) (⟨.ninf, (f 50 0)⟩)),
    (594, eqB (Fmt.mulI binary64 (⟨(f (-10) (0)), (f (-5) (0))⟩ : Itv) (⟨(f 1 0), .pinf⟩ : Itv)) (⟨.ninf, (f (-5) (0))⟩)),
    (595, eqB (Fmt.mulI binary64 (⟨(f (-10) (0)), (f (-5) (0))⟩ : Itv) (Itv.entire : Itv)) (Itv.entire))] : List (ℕ × Bool)).all (·.2) = true := by
  decide +kernel

example : ([
    (597, eqB (Fmt.mulI binary64 (⟨(f (3602879701896397) (-55)), (f (562949953421311) (-48))⟩ : Itv) (⟨(f (-562949953421311) (-48)), .pinf⟩ : Itv)) (⟨(f (-9007199254740961) (-51)), .pinf⟩)),
    (598, eqB (Fmt.mulI binary64 (⟨(f (-3602879701896397) (-55)), (f (562949953421311) (-48))⟩ : Itv) (⟨(f (-562949953421311) (-48)), (f (-3602879701896397) (-55))⟩ : Itv)) (⟨(f (-9007199254740961) (-51)), (f (3602879701896391) (-54))⟩)),
    (599, eqB (Fmt.mulI binary64 (⟨(f (-3602879701896397) (-55)), (f (3602879701896397) (-55))⟩ : Itv) (⟨(f (-562949953421311) (-48)), (f (3602879701896397) (-55))⟩ : Itv)) (⟨(f (-3602879701896391) (-54)), (f (3602879701896391) (-54))⟩)),
    (600, eqB (Fmt.mulI binary64 (⟨(f (-562949953421311) (-48)), (f (-3602879701896397) (-55))⟩ : Itv) (⟨(f (3602879701896397) (-55)), (f (562949953421311) (-48))⟩ : Itv)) (⟨(f (-9007199254740961) (-51)), (f (-5764607523034235) (-59))⟩)),
    (606, Itv.isEmpty (Fmt.mulI binary64 (⟨(f 1 0), (f (-9007199254740991) (971))⟩ : Itv) (⟨(f 3 0), (f 4 0)⟩ : Itv) : Itv)),
    (618, eqB (if !(⟨(f (3602879701896397) (-55)), (f (562949953421311) (-48))⟩ : Itv).isValid || !(⟨(f (-562949953421311) (-48)), .pinf⟩ : Itv).isValid then Itv.empty else Fmt.convertHull binary32 (Fmt.mulI binary64 (Fmt.convertHull binary64 (⟨(f (3602879701896397) (-55)), (f (562949953421311) (-48))⟩ : Itv)) (Fmt.convertHull binary64 (⟨(f (-562949953421311) (-48)), .pinf⟩ : Itv)))) (⟨(f (-4) (0)), .pinf⟩)),
    (619, eqB (if !(⟨(f (3602879701896397) (-55)), (f (562949953421311) (-48))⟩ : Itv).isValid || !(⟨(f (-562949953421311) (-48)), (f (-3602879701896397) (-55))⟩ : Itv).isValid then Itv.empty else Fmt.convertHull binary32 (Fmt.mulI binary64 (Fmt.convertHull binary64 (⟨(f (3602879701896397) (-55)), (f (562949953421311) (-48))⟩ : Itv)) (Fmt.convertHull binary64 (⟨(f (-562949953421311) (-48)), (f (-3602879701896397) (-55))⟩ : Itv)))) (⟨(f (-4) (0)), (f (-5368709) (-29))⟩)),
    (620, eqB (if !(⟨(f (13421773) (-27)), (f 2 0)⟩ : Itv).isValid || !(⟨(f (-2) (0)), (f (-13421773) (-27))⟩ : Itv).isValid then Itv.empty else Fmt.convertHull binary64 (Fmt.mulI binary64 (Fmt.convertHull binary64 (⟨(f (13421773) (-27)), (f 2 0)⟩ : Itv)) (Fmt.convertHull binary64 (⟨(f (-2) (0)), (f (-13421773) (-27))⟩ : Itv)))) (⟨(f (-4) (0)), (f (-180143990463529) (-54))⟩)),
    (625, Itv.isEmpty (if !(⟨(f 1 0), (f (-9007199254740991) (971))⟩ : Itv).isValid || !(⟨(f 3 0), (f 4 0)⟩ : Itv).isValid then Itv.empty else Fmt.convertHull binary32 (Fmt.mulI binary64 (Fmt.convertHull binary64 (⟨(f 1 0), (f (-9007199254740991) (971))⟩ : Itv)) (Fmt.convertHull binary64 (⟨(f 3 0), (f 4 0)⟩ : Itv))) : Itv)),
    (637, eqD (Fmt.mulD binary64 (⟨⟨(f 1 0), (f 2 0)⟩, .com⟩ : DItv) (⟨⟨(f 5 0), (f 7 0)⟩, .com⟩ : DItv)) (⟨⟨(f 5 0), (f 14 0)⟩, .com⟩)),
    (638, eqD (Fmt.mulD binary64 (⟨⟨(f 1 0), (f 2 0)⟩, .com⟩ : DItv) (⟨⟨(f 5 0), (f 7 0)⟩, .defd⟩ : DItv)) (⟨⟨(f 5 0), (f 14 0)⟩, .defd⟩)),
    (639, eqD (Fmt.mulD binary64 (⟨⟨(f 1 0), (f 2 0)⟩, .com⟩ : DItv) (⟨⟨(f 5 0), (f 9007199254740991 971)⟩, .com⟩ : DItv)) (⟨⟨(f 5 0), .pinf⟩, .dac⟩)),
    (640, eqD (Fmt.mulD binary64 (⟨⟨(f (-9007199254740991) (971)), (f 2 0)⟩, .com⟩ : DItv) (⟨⟨(f (-1) (0)), (f 5 0)⟩, .com⟩ : DItv)) (⟨⟨.ninf, (f 9007199254740991 971)⟩, .dac⟩)),
    (641, DItv.pred Itv.isEmpty (Fmt.mulD binary64 (⟨⟨(f 1 0), (f 2 0)⟩, .trv⟩ : DItv) (DItv.empty : DItv) : DItv)),
    (642, DItv.isNai (Fmt.mulD binary64 (DItv.nai : DItv) (⟨⟨(f 1 0), (f 2 0)⟩, .trv⟩ : DItv) : DItv)),
    (647, DItv.isNai (Fmt.mulD binary64 (⟨⟨(f 1 0), (f (-2) (0))⟩, .com⟩ : DItv) (⟨⟨(f 5 0), (f 7 0)⟩, .com⟩ : DItv) : DItv)),
    (659, eqD (if !(⟨⟨(f (3602879701896397) (-55)), (f (562949953421311) (-48))⟩, .com⟩ : DItv).isValid || (⟨⟨(f (3602879701896397) (-55)), (f (562949953421311) (-48))⟩, .com⟩ : DItv).isNai || !(⟨⟨(f (-562949953421311) (-48)), (f (-3602879701896397) (-55))⟩, .com⟩ : DItv).isValid || (⟨⟨(f (-562949953421311) (-48)), (f (-3602879701896397) (-55))⟩, .com⟩ : DItv).isNai then DItv.nai else Fmt.convertHullD binary32 (Fmt.mulD binary64 (Fmt.convertHullD binary64 (⟨⟨(f (3602879701896397) (-55)), (f (562949953421311) (-48))⟩, .com⟩ : DItv)) (Fmt.convertHullD binary64 (⟨⟨(f (-562949953421311) (-48)), (f (-3602879701896397) (-55))⟩, .com⟩ : DItv)))) (⟨⟨(f (-4) (0)), (f (-5368709) (-29))⟩, .com⟩)),
    (660, eqD (if !(⟨⟨(f (13421773) (-27)), (f 2 0)⟩, .defd⟩ : DItv).isValid || (⟨⟨(f (13421773) (-27)), (f 2 0)⟩, .defd⟩ : DItv).isNai || !(⟨⟨(f (-2) (0)), (f (-13421773) (-27))⟩, .com⟩ : DItv).isValid || (⟨⟨(f (-2) (0)), (f (-13421773) (-27))⟩, .com⟩ : DItv).isNai then DItv.nai else Fmt.convertHullD binary64 (Fmt.mulD binary64 (Fmt.convertHullD binary64 (⟨⟨(f (13421773) (-27)), (f 2 0)⟩, .defd⟩ : DItv)) (Fmt.convertHullD binary64 (⟨⟨(f (-2) (0)), (f (-13421773) (-27))⟩, .com⟩ : DItv)))) (⟨⟨(f (-4) (0)), (f (-180143990463529) (-54))⟩, .defd⟩)),
    (665, DItv.isNai (if !(⟨⟨(f 1 0), (f (-2) (0))⟩, .com⟩ : DItv).isValid || (⟨⟨(f 1 0), (f (-2) (0))⟩, .com⟩ : DItv).isNai || !(⟨⟨(f 5 0), (f 7 0)⟩, .com⟩ : DItv).isValid || (⟨⟨(f 5 0), (f 7 0)⟩, .com⟩ : DItv).isNai then DItv.nai else Fmt.convertHullD binary64 (Fmt.mulD binary64 (Fmt.convertHullD binary64 (⟨⟨(f 1 0), (f (-2) (0))⟩, .com⟩ : DItv)) (Fmt.convertHullD binary64 (⟨⟨(f 5 0), (f 7 0)⟩, .com⟩ : DItv))) : DItv)),
    (680, Itv.isEmpty (Fmt.divI binary64 (Itv.empty : Itv) (Itv.empty : Itv) : Itv)),
    (681, Itv.isEmpty (Fmt.divI binary64 (⟨(f (-1) (0)), (f 1 0)⟩ : Itv) (Itv.empty : Itv) : Itv)),
    (682, Itv.isEmpty (Fmt.divI binary64 (Itv.empty : Itv) (⟨(f (-1) (0)), (f 1 0)⟩ : Itv) : Itv)),
    (683, Itv.isEmpty (Fmt.divI binary64 (Itv.empty : Itv) (⟨(f (3602879701896397) (-55)), (f 1 0)⟩ : Itv) : Itv)),
    (684, Itv.isEmpty (Fmt.divI binary64 (Itv.empty : Itv) (⟨(f (-1) (0)), (f (-3602879701896397) (-55))⟩ : Itv) : Itv)),
    (685, Itv.isEmpty (Fmt.divI binary64 (Itv.empty : Itv) (Itv.entire : Itv) : Itv)),
    (686, Itv.isEmpty (Fmt.divI binary64 (Itv.entire : Itv) (Itv.empty : Itv) : Itv)),
    (687, Itv.isEmpty (Fmt.divI binary64 (⟨(f 0 0), (f 0 0)⟩ : Itv) (Itv.empty : Itv) : Itv)),
    (688, Itv.isEmpty (Fmt.divI binary64 (Itv.empty : Itv) (⟨(f 0 0), (f 0 0)⟩ : Itv) : Itv)),
    (689, Itv.isEmpty (Fmt.divI binary64 (⟨.nzero, .nzero⟩ : Itv) (Itv.empty : Itv) : Itv)),
    (690, Itv.isEmpty (Fmt.divI binary64 (Itv.empty : Itv) (⟨.nzero, .nzero⟩ : Itv) : Itv)),
    (692, eqB (Fmt.divI binary64 (Itv.entire : Itv) (⟨(f (-5) (0)), (f (-3) (0))⟩ : Itv)) (Itv.entire)),
    (693, eqB (Fmt.divI binary64 (Itv.entire : Itv) (⟨(f 3 0), (f 5 0)⟩ : Itv)) (Itv.entire)),
    (694, eqB (Fmt.divI binary64 (Itv.entire : Itv) (⟨.ninf, (f (-3) (0))⟩ : Itv)) (Itv.entire)),
    (695, eqB (Fmt.divI binary64 (Itv.entire : Itv) (⟨(f 3 0), .pinf⟩ : Itv)) (Itv.entire)),
    (696, Itv.isEmpty (Fmt.divI binary64 (Itv.entire : Itv) (⟨(f 0 0), (f 0 0)⟩ : Itv) : Itv)),
    (697, Itv.isEmpty (Fmt.divI binary64 (Itv.entire : Itv) (⟨.nzero, .nzero⟩ : Itv) : Itv)),
    (698, eqB (Fmt.divI binary64 (Itv.entire : Itv) (⟨(f (-3) (0)), (f 0 0)⟩ : Itv)) (Itv.entire)),
    (699, eqB (Fmt.divI binary64 (Itv.entire : Itv) (⟨(f (-3) (0)), .nzero⟩ : Itv)) (Itv.entire)),
    (700, eqB (Fmt.divI binary64 (Itv.entire : Itv) (⟨(f (-3) (0)), (f 3 0)⟩ : Itv)) (Itv.entire)),
    (701, eqB (Fmt.divI binary64 (Itv.entire : Itv) (⟨(f 0 0), (f 3 0)⟩ : Itv)) (Itv.entire)),
    (702, eqB (Fmt.divI binary64 (Itv.entire : Itv) (⟨.ninf, (f 0 0)⟩ : Itv)) (Itv.entire)),
    (703, eqB (Fmt.divI binary64 (Itv.entire : Itv) (⟨.nzero, (f 3 0)⟩ : Itv)) (Itv.entire)),
    (704, eqB (Fmt.divI binary64 (Itv.entire : Itv) (⟨.ninf, .nzero⟩ : Itv)) (Itv.entire)),
    (705, eqB (Fmt.divI binary64 (Itv.entire : Itv) (⟨.ninf, (f 3 0)⟩ : Itv)) (Itv.entire)),
    (706, eqB (Fmt.divI binary64 (Itv.entire : Itv) (⟨(f (-3) (0)), .pinf⟩ : Itv)) (Itv.entire)),
    (707, eqB (Fmt.divI binary64 (Itv.entire : Itv) (⟨(f 0 0), .pinf⟩ : Itv)) (Itv.entire)),
    (708, eqB (Fmt.divI binary64 (Itv.entire : Itv) (⟨.nzero, .pinf⟩ : Itv)) (Itv.entire)),
    (709, eqB (Fmt.divI binary64 (Itv.entire : Itv) (Itv.entire : Itv)) (Itv.entire)),
    (711, eqB (Fmt.divI binary64 (⟨(f (-30) (0)), (f (-15) (0))⟩ : Itv) (⟨(f (-5) (0)), (f (-3) (0))⟩ : Itv)) (⟨(f 3 0), (f 10 0)⟩)),
    (712, eqB (Fmt.divI binary64 (⟨(f (-30) (0)), (f (-15) (0))⟩ : Itv) (⟨(f 3 0), (f 5 0)⟩ : Itv)) (⟨(f (-10) (0)), (f (-3) (0))⟩))] : List (ℕ × Bool)).all (·.2) = true := by
  decide +kernel

example : ([
    (713, eqB (Fmt.divI binary64 (⟨(f (-30) (0)), (f (-15) (0))⟩ : Itv) (⟨.ninf, (f (-3) (0))⟩ : Itv)) (⟨(f 0 0), (f 10 0)⟩)),
    (714, eqB (Fmt.divI binary64 (⟨(f (-30) (0)), (f (-15) (0))⟩ : Itv) (⟨(f 3 0), .pinf⟩ : Itv)) (⟨(f (-10) (0)), (f 0 0)⟩)),
    (715, Itv.isEmpty (Fmt.divI binary64 (⟨(f (-30) (0)), (f (-15) (0))⟩ : Itv) (⟨(f 0 0), (f 0 0)⟩ : Itv) : Itv)),
    (716, eqB (Fmt.divI binary64 (⟨(f (-30) (0)), (f (-15) (0))⟩ : Itv) (⟨(f (-3) (0)), (f 0 0)⟩ : Itv)) (⟨(f 5 0), .pinf⟩)),
    (717, Itv.isEmpty (Fmt.divI binary64 (⟨(f (-30) (0)), (f (-15) (0))⟩ : Itv) (⟨.nzero, .nzero⟩ : Itv) : Itv)),
    (718, eqB (Fmt.divI binary64 (⟨(f (-30) (0)), (f (-15) (0))⟩ : Itv) (⟨(f (-3) (0)), .nzero⟩ : Itv)) (⟨(f 5 0), .pinf⟩)),
    (719, eqB (Fmt.divI binary64 (⟨(f (-30) (0)), (f (-15) (0))⟩ : Itv) (⟨(f (-3) (0)), (f 3 0)⟩ : Itv)) (Itv.entire)),
    (720, eqB (Fmt.divI binary64 (⟨(f (-30) (0)), (f (-15) (0))⟩ : Itv) (⟨(f 0 0), (f 3 0)⟩ : Itv)) (⟨.ninf, (f (-5) (0))⟩)),
    (721, eqB (Fmt.divI binary64 (⟨(f (-30) (0)), (f (-15) (0))⟩ : Itv) (⟨.ninf, (f 0 0)⟩ : Itv)) (⟨(f 0 0), .pinf⟩)),
    (722, eqB (Fmt.divI binary64 (⟨(f (-30) (0)), (f (-15) (0))⟩ : Itv) (⟨.nzero, (f 3 0)⟩ : Itv)) (⟨.ninf, (f (-5) (0))⟩)),
    (723, eqB (Fmt.divI binary64 (⟨(f (-30) (0)), (f (-15) (0))⟩ : Itv) (⟨.ninf, .nzero⟩ : Itv)) (⟨(f 0 0), .pinf⟩)),
    (724, eqB (Fmt.divI binary64 (⟨(f (-30) (0)), (f (-15) (0))⟩ : Itv) (⟨.ninf, (f 3 0)⟩ : Itv)) (Itv.entire)),
    (725, eqB (Fmt.divI binary64 (⟨(f (-30) (0)), (f (-15) (0))⟩ : Itv) (⟨(f (-3) (0)), .pinf⟩ : Itv)) (Itv.entire)),
    (726, eqB (Fmt.divI binary64 (⟨(f (-30) (0)), (f (-15) (0))⟩ : Itv) (⟨(f 0 0), .pinf⟩ : Itv)) (⟨.ninf, (f 0 0)⟩)),
    (727, eqB (Fmt.divI binary64 (⟨(f (-30) (0)), (f (-15) (0))⟩ : Itv) (⟨.nzero, .pinf⟩ : Itv)) (⟨.ninf, (f 0 0)⟩)),
    (728, eqB (Fmt.divI binary64 (⟨(f (-30) (0)), (f (-15) (0))⟩ : Itv) (Itv.entire : Itv)) (Itv.entire)),
    (730, eqB (Fmt.divI binary64 (⟨(f (-30) (0)), (f 15 0)⟩ : Itv) (⟨(f (-5) (0)), (f (-3) (0))⟩ : Itv)) (⟨(f (-5) (0)), (f 10 0)⟩)),
    (731, eqB (Fmt.divI binary64 (⟨(f (-30) (0)), (f 15 0)⟩ : Itv) (⟨(f 3 0), (f 5 0)⟩ : Itv)) (⟨(f (-10) (0)), (f 5 0)⟩)),
    (732, eqB (Fmt.divI binary64 (⟨(f (-30) (0)), (f 15 0)⟩ : Itv) (⟨.ninf, (f (-3) (0))⟩ : Itv)) (⟨(f (-5) (0)), (f 10 0)⟩)),
    (733, eqB (Fmt.divI binary64 (⟨(f (-30) (0)), (f 15 0)⟩ : Itv) (⟨(f 3 0), .pinf⟩ : Itv)) (⟨(f (-10) (0)), (f 5 0)⟩)),
    (734, Itv.isEmpty (Fmt.divI binary64 (⟨(f (-30) (0)), (f 15 0)⟩ : Itv) (⟨(f 0 0), (f 0 0)⟩ : Itv) : Itv)),
    (735, Itv.isEmpty (Fmt.divI binary64 (⟨(f (-30) (0)), (f 15 0)⟩ : Itv) (⟨.nzero, .nzero⟩ : Itv) : Itv)),
    (736, eqB (Fmt.divI binary64 (⟨(f (-30) (0)), (f 15 0)⟩ : Itv) (⟨(f (-3) (0)), (f 0 0)⟩ : Itv)) (Itv.entire)),
    (737, eqB (Fmt.divI binary64 (⟨(f (-30) (0)), (f 15 0)⟩ : Itv) (⟨(f (-3) (0)), .nzero⟩ : Itv)) (Itv.entire)),
    (738, eqB (Fmt.divI binary64 (⟨(f (-30) (0)), (f 15 0)⟩ : Itv) (⟨(f (-3) (0)), (f 3 0)⟩ : Itv)) (Itv.entire)),
    (739, eqB (Fmt.divI binary64 (⟨(f (-30) (0)), (f 15 0)⟩ : Itv) (⟨(f 0 0), (f 3 0)⟩ : Itv)) (Itv.entire)),
    (740, eqB (Fmt.divI binary64 (⟨(f (-30) (0)), (f 15 0)⟩ : Itv) (⟨.ninf, (f 0 0)⟩ : Itv)) (Itv.entire)),
    (741, eqB (Fmt.divI binary64 (⟨(f (-30) (0)), (f 15 0)⟩ : Itv) (⟨.nzero, (f 3 0)⟩ : Itv)) (Itv.entire)),
    (742, eqB (Fmt.divI binary64 (⟨(f (-30) (0)), (f 15 0)⟩ : Itv) (⟨.ninf, .nzero⟩ : Itv)) (Itv.entire)),
    (743, eqB (Fmt.divI binary64 (⟨(f (-30) (0)), (f 15 0)⟩ : Itv) (⟨.ninf, (f 3 0)⟩ : Itv)) (Itv.entire)),
    (744, eqB (Fmt.divI binary64 (⟨(f (-30) (0)), (f 15 0)⟩ : Itv) (⟨(f (-3) (0)), .pinf⟩ : Itv)) (Itv.entire)),
    (745, eqB (Fmt.divI binary64 (⟨(f (-30) (0)), (f 15 0)⟩ : Itv) (⟨(f 0 0), .pinf⟩ : Itv)) (Itv.entire)),
    (746, eqB (Fmt.divI binary64 (⟨(f (-30) (0)), (f 15 0)⟩ : Itv) (⟨.nzero, .pinf⟩ : Itv)) (Itv.entire)),
    (747, eqB (Fmt.divI binary64 (⟨(f (-30) (0)), (f 15 0)⟩ : Itv) (Itv.entire : Itv)) (Itv.entire)),
    (749, eqB (Fmt.divI binary64 (⟨(f 15 0), (f 30 0)⟩ : Itv) (⟨(f (-5) (0)), (f (-3) (0))⟩ : Itv)) (⟨(f (-10) (0)), (f (-3) (0))⟩)),
    (750, eqB (Fmt.divI binary64 (⟨(f 15 0), (f 30 0)⟩ : Itv) (⟨(f 3 0), (f 5 0)⟩ : Itv)) (⟨(f 3 0), (f 10 0)⟩)),
    (751, eqB (Fmt.divI binary64 (⟨(f 15 0), (f 30 0)⟩ : Itv) (⟨.ninf, (f (-3) (0))⟩ : Itv)) (⟨(f (-10) (0)), (f 0 0)⟩)),
    (752, eqB (Fmt.divI binary64 (⟨(f 15 0), (f 30 0)⟩ : Itv) (⟨(f 3 0), .pinf⟩ : Itv)) (⟨(f 0 0), (f 10 0)⟩)),
    (753, Itv.isEmpty (Fmt.divI binary64 (⟨(f 15 0), (f 30 0)⟩ : Itv) (⟨(f 0 0), (f 0 0)⟩ : Itv) : Itv)),
    (754, eqB (Fmt.divI binary64 (⟨(f 15 0), (f 30 0)⟩ : Itv) (⟨(f (-3) (0)), (f 0 0)⟩ : Itv)) (⟨.ninf, (f (-5) (0))⟩)),
    (755, Itv.isEmpty (Fmt.divI binary64 (⟨(f 15 0), (f 30 0)⟩ : Itv) (⟨.nzero, .nzero⟩ : Itv) : Itv)),
    (756, eqB (Fmt.divI binary64 (⟨(f 15 0), (f 30 0)⟩ : Itv) (⟨(f (-3) (0)), .nzero⟩ : Itv)) (⟨.ninf, (f (-5) (0))⟩)),
    (757, eqB (Fmt.divI binary64 (⟨(f 15 0), (f 30 0)⟩ : Itv) (⟨(f (-3) (0)), (f 3 0)⟩ : Itv)) (Itv.entire)),
    (758, eqB (Fmt.divI binary64 (⟨(f 15 0), (f 30 0)⟩ : Itv) (⟨(f 0 0), (f 3 0)⟩ : Itv)) (⟨(f 5 0), .pinf⟩)),
    (759, eqB (Fmt.divI binary64 (⟨(f 15 0), (f 30 0)⟩ : Itv) (⟨.ninf, (f 0 0)⟩ : Itv)) (⟨.ninf, (f 0 0)⟩)),
    (760, eqB (Fmt.divI binary64 (⟨(f 15 0), (f 30 0)⟩ : Itv) (⟨.nzero, (f 3 0)⟩ : Itv)) (⟨(f 5 0), .pinf⟩)),
    (761, eqB (Fmt.divI binary64 (⟨(f 15 0), (f 30 0)⟩ : Itv) (⟨.ninf, .nzero⟩ : Itv)) (⟨.ninf, (f 0 0)⟩)),
    (762, eqB (Fmt.divI binary64 (⟨(f 15 0), (f 30 0)⟩ : Itv) (⟨.ninf, (f 3 0)⟩ : Itv)) (Itv.entire)),
    (763, eqB (Fmt.divI binary64 (⟨(f 15 0), (f 30 0)⟩ : Itv) (⟨(f (-3) (0)), .pinf⟩ : Itv)) (Itv.entire)),
    (764, eqB (Fmt.divI binary64 (⟨(f 15 0), (f 30 0)⟩ : Itv) (⟨(f 0 0), .pinf⟩ : Itv)) (⟨(f 0 0), .pinf⟩))] : List (ℕ × Bool)).all (·.2) = true := by
  decide +kernel

example : ([
    (765, eqB (Fmt.divI binary64 (⟨(f 15 0), (f 30 0)⟩ : Itv) (⟨.nzero, .pinf⟩ : Itv)) (⟨(f 0 0), .pinf⟩)),
    (766, eqB (Fmt.divI binary64 (⟨(f 15 0), (f 30 0)⟩ : Itv) (Itv.entire : Itv)) (Itv.entire)),
    (768, eqB (Fmt.divI binary64 (⟨(f 0 0), (f 0 0)⟩ : Itv) (⟨(f (-5) (0)), (f (-3) (0))⟩ : Itv)) (⟨(f 0 0), (f 0 0)⟩)),
    (769, eqB (Fmt.divI binary64 (⟨(f 0 0), (f 0 0)⟩ : Itv) (⟨(f 3 0), (f 5 0)⟩ : Itv)) (⟨(f 0 0), (f 0 0)⟩)),
    (770, eqB (Fmt.divI binary64 (⟨(f 0 0), (f 0 0)⟩ : Itv) (⟨.ninf, (f (-3) (0))⟩ : Itv)) (⟨(f 0 0), (f 0 0)⟩)),
    (771, eqB (Fmt.divI binary64 (⟨(f 0 0), (f 0 0)⟩ : Itv) (⟨(f 3 0), .pinf⟩ : Itv)) (⟨(f 0 0), (f 0 0)⟩)),
    (772, Itv.isEmpty (Fmt.divI binary64 (⟨(f 0 0), (f 0 0)⟩ : Itv) (⟨(f 0 0), (f 0 0)⟩ : Itv) : Itv)),
    (773, eqB (Fmt.divI binary64 (⟨(f 0 0), (f 0 0)⟩ : Itv) (⟨(f (-3) (0)), (f 0 0)⟩ : Itv)) (⟨(f 0 0), (f 0 0)⟩)),
    (774, Itv.isEmpty (Fmt.divI binary64 (⟨(f 0 0), (f 0 0)⟩ : Itv) (⟨.nzero, .nzero⟩ : Itv) : Itv)),
    (775, eqB (Fmt.divI binary64 (⟨(f 0 0), (f 0 0)⟩ : Itv) (⟨(f (-3) (0)), .nzero⟩ : Itv)) (⟨(f 0 0), (f 0 0)⟩)),
    (776, eqB (Fmt.divI binary64 (⟨(f 0 0), (f 0 0)⟩ : Itv) (⟨(f (-3) (0)), (f 3 0)⟩ : Itv)) (⟨(f 0 0), (f 0 0)⟩)),
    (777, eqB (Fmt.divI binary64 (⟨(f 0 0), (f 0 0)⟩ : Itv) (⟨(f 0 0), (f 3 0)⟩ : Itv)) (⟨(f 0 0), (f 0 0)⟩)),
    (778, eqB (Fmt.divI binary64 (⟨(f 0 0), (f 0 0)⟩ : Itv) (⟨.ninf, (f 0 0)⟩ : Itv)) (⟨(f 0 0), (f 0 0)⟩)),
    (779, eqB (Fmt.divI binary64 (⟨(f 0 0), (f 0 0)⟩ : Itv) (⟨.nzero, (f 3 0)⟩ : Itv)) (⟨(f 0 0), (f 0 0)⟩)),
    (780, eqB (Fmt.divI binary64 (⟨(f 0 0), (f 0 0)⟩ : Itv) (⟨.ninf, .nzero⟩ : Itv)) (⟨(f 0 0), (f 0 0)⟩)),
    (781, eqB (Fmt.divI binary64 (⟨(f 0 0), (f 0 0)⟩ : Itv) (⟨.ninf, (f 3 0)⟩ : Itv)) (⟨(f 0 0), (f 0 0)⟩)),
    (782, eqB (Fmt.divI binary64 (⟨(f 0 0), (f 0 0)⟩ : Itv) (⟨(f (-3) (0)), .pinf⟩ : Itv)) (⟨(f 0 0), (f 0 0)⟩)),
    (783, eqB (Fmt.divI binary64 (⟨(f 0 0), (f 0 0)⟩ : Itv) (⟨(f 0 0), .pinf⟩ : Itv)) (⟨(f 0 0), (f 0 0)⟩)),
    (784, eqB (Fmt.divI binary64 (⟨(f 0 0), (f 0 0)⟩ : Itv) (⟨.nzero, .pinf⟩ : Itv)) (⟨(f 0 0), (f 0 0)⟩)),
    (785, eqB (Fmt.divI binary64 (⟨(f 0 0), (f 0 0)⟩ : Itv) (Itv.entire : Itv)) (⟨(f 0 0), (f 0 0)⟩)),
    (787, eqB (Fmt.divI binary64 (⟨.nzero, .nzero⟩ : Itv) (⟨(f (-5) (0)), (f (-3) (0))⟩ : Itv)) (⟨(f 0 0), (f 0 0)⟩)),
    (788, eqB (Fmt.divI binary64 (⟨.nzero, .nzero⟩ : Itv) (⟨(f 3 0), (f 5 0)⟩ : Itv)) (⟨(f 0 0), (f 0 0)⟩)),
    (789, eqB (Fmt.divI binary64 (⟨.nzero, .nzero⟩ : Itv) (⟨.ninf, (f (-3) (0))⟩ : Itv)) (⟨(f 0 0), (f 0 0)⟩)),
    (790, eqB (Fmt.divI binary64 (⟨.nzero, .nzero⟩ : Itv) (⟨(f 3 0), .pinf⟩ : Itv)) (⟨(f 0 0), (f 0 0)⟩)),
    (791, Itv.isEmpty (Fmt.divI binary64 (⟨.nzero, .nzero⟩ : Itv) (⟨(f 0 0), (f 0 0)⟩ : Itv) : Itv)),
    (792, eqB (Fmt.divI binary64 (⟨.nzero, .nzero⟩ : Itv) (⟨(f (-3) (0)), (f 0 0)⟩ : Itv)) (⟨(f 0 0), (f 0 0)⟩)),
    (793, Itv.isEmpty (Fmt.divI binary64 (⟨.nzero, .nzero⟩ : Itv) (⟨.nzero, .nzero⟩ : Itv) : Itv)),
    (794, eqB (Fmt.divI binary64 (⟨.nzero, .nzero⟩ : Itv) (⟨(f (-3) (0)), .nzero⟩ : Itv)) (⟨(f 0 0), (f 0 0)⟩)),
    (795, eqB (Fmt.divI binary64 (⟨.nzero, .nzero⟩ : Itv) (⟨(f (-3) (0)), (f 3 0)⟩ : Itv)) (⟨(f 0 0), (f 0 0)⟩)),
    (796, eqB (Fmt.divI binary64 (⟨.nzero, .nzero⟩ : Itv) (⟨(f 0 0), (f 3 0)⟩ : Itv)) (⟨(f 0 0), (f 0 0)⟩)),
    (797, eqB (Fmt.divI binary64 (⟨.nzero, .nzero⟩ : Itv) (⟨.ninf, (f 0 0)⟩ : Itv)) (⟨(f 0 0), (f 0 0)⟩)),
    (798, eqB (Fmt.divI binary64 (⟨.nzero, .nzero⟩ : Itv) (⟨.nzero, (f 3 0)⟩ : Itv)) (⟨(f 0 0), (f 0 0)⟩)),
    (799, eqB (Fmt.divI binary64 (⟨.nzero, .nzero⟩ : Itv) (⟨.ninf, .nzero⟩ : Itv)) (⟨(f 0 0), (f 0 0)⟩)),
    (800, eqB (Fmt.divI binary64 (⟨.nzero, .nzero⟩ : Itv) (⟨.ninf, (f 3 0)⟩ : Itv)) (⟨(f 0 0), (f 0 0)⟩)),
    (801, eqB (Fmt.divI binary64 (⟨.nzero, .nzero⟩ : Itv) (⟨(f (-3) (0)), .pinf⟩ : Itv)) (⟨(f 0 0), (f 0 0)⟩)),
    (802, eqB (Fmt.divI binary64 (⟨.nzero, .nzero⟩ : Itv) (⟨(f 0 0), .pinf⟩ : Itv)) (⟨(f 0 0), (f 0 0)⟩)),
    (803, eqB (Fmt.divI binary64 (⟨.nzero, .nzero⟩ : Itv) (⟨.nzero, .pinf⟩ : Itv)) (⟨(f 0 0), (f 0 0)⟩)),
    (804, eqB (Fmt.divI binary64 (⟨.nzero, .nzero⟩ : Itv) (Itv.entire : Itv)) (⟨(f 0 0), (f 0 0)⟩)),
    (806, eqB (Fmt.divI binary64 (⟨.ninf, (f (-15) (0))⟩ : Itv) (⟨(f (-5) (0)), (f (-3) (0))⟩ : Itv)) (⟨(f 3 0), .pinf⟩)),
    (807, eqB (Fmt.divI binary64 (⟨.ninf, (f (-15) (0))⟩ : Itv) (⟨(f 3 0), (f 5 0)⟩ : Itv)) (⟨.ninf, (f (-3) (0))⟩)),
    (808, eqB (Fmt.divI binary64 (⟨.ninf, (f (-15) (0))⟩ : Itv) (⟨.ninf, (f (-3) (0))⟩ : Itv)) (⟨(f 0 0), .pinf⟩)),
    (809, eqB (Fmt.divI binary64 (⟨.ninf, (f (-15) (0))⟩ : Itv) (⟨(f 3 0), .pinf⟩ : Itv)) (⟨.ninf, (f 0 0)⟩)),
    (810, Itv.isEmpty (Fmt.divI binary64 (⟨.ninf, (f (-15) (0))⟩ : Itv) (⟨(f 0 0), (f 0 0)⟩ : Itv) : Itv)),
    (811, eqB (Fmt.divI binary64 (⟨.ninf, (f (-15) (0))⟩ : Itv) (⟨(f (-3) (0)), (f 0 0)⟩ : Itv)) (⟨(f 5 0), .pinf⟩)),
    (812, Itv.isEmpty (Fmt.divI binary64 (⟨.ninf, (f (-15) (0))⟩ : Itv) (⟨.nzero, .nzero⟩ : Itv) : Itv)),
    (813, eqB (Fmt.divI binary64 (⟨.ninf, (f (-15) (0))⟩ : Itv) (⟨(f (-3) (0)), .nzero⟩ : Itv)) (⟨(f 5 0), .pinf⟩)),
    (814, eqB (Fmt.divI binary64 (⟨.ninf, (f (-15) (0))⟩ : Itv) (⟨(f (-3) (0)), (f 3 0)⟩ : Itv)) (Itv.entire)),
    (815, eqB (Fmt.divI binary64 (⟨.ninf, (f (-15) (0))⟩ : Itv) (⟨(f 0 0), (f 3 0)⟩ : Itv)) (⟨.ninf, (f (-5) (0))⟩)),
    (816, eqB (Fmt.divI binary64 (⟨.ninf, (f (-15) (0))⟩ : Itv) (⟨.ninf, (f 0 0)⟩ : Itv)) (⟨(f 0 0), .pinf⟩)),
    (817, eqB (Fmt.divI binary64 (⟨.ninf, (f (-15) (0))⟩ : Itv) (⟨.nzero, (f 3 0)⟩ : Itv)) (⟨.ninf, (f (-5) (0))⟩))] : List (ℕ × Bool)).all (·.2) = true := by
  decide +kernel

example : ([
    (818, eqB (Fmt.divI binary64 (⟨.ninf, (f (-15) (0))⟩ : Itv) (⟨.ninf, .nzero⟩ : Itv)) (⟨(f 0 0), .pinf⟩)),
    (819, eqB (Fmt.divI binary64 (⟨.ninf, (f (-15) (0))⟩ : Itv) (⟨.ninf, (f 3 0)⟩ : Itv)) (Itv.entire)),
    (820, eqB (Fmt.divI binary64 (⟨.ninf, (f (-15) (0))⟩ : Itv) (⟨(f (-3) (0)), .pinf⟩ : Itv)) (Itv.entire)),
    (821, eqB (Fmt.divI binary64 (⟨.ninf, (f (-15) (0))⟩ : Itv) (⟨(f 0 0), .pinf⟩ : Itv)) (⟨.ninf, (f 0 0)⟩)),
    (822, eqB (Fmt.divI binary64 (⟨.ninf, (f (-15) (0))⟩ : Itv) (⟨.nzero, .pinf⟩ : Itv)) (⟨.ninf, (f 0 0)⟩)),
    (823, eqB (Fmt.divI binary64 (⟨.ninf, (f (-15) (0))⟩ : Itv) (Itv.entire : Itv)) (Itv.entire)),
    (825, eqB (Fmt.divI binary64 (⟨.ninf, (f 15 0)⟩ : Itv) (⟨(f (-5) (0)), (f (-3) (0))⟩ : Itv)) (⟨(f (-5) (0)), .pinf⟩)),
    (826, eqB (Fmt.divI binary64 (⟨.ninf, (f 15 0)⟩ : Itv) (⟨(f 3 0), (f 5 0)⟩ : Itv)) (⟨.ninf, (f 5 0)⟩)),
    (827, eqB (Fmt.divI binary64 (⟨.ninf, (f 15 0)⟩ : Itv) (⟨.ninf, (f (-3) (0))⟩ : Itv)) (⟨(f (-5) (0)), .pinf⟩)),
    (828, eqB (Fmt.divI binary64 (⟨.ninf, (f 15 0)⟩ : Itv) (⟨(f 3 0), .pinf⟩ : Itv)) (⟨.ninf, (f 5 0)⟩)),
    (829, Itv.isEmpty (Fmt.divI binary64 (⟨.ninf, (f 15 0)⟩ : Itv) (⟨(f 0 0), (f 0 0)⟩ : Itv) : Itv)),
    (830, eqB (Fmt.divI binary64 (⟨.ninf, (f 15 0)⟩ : Itv) (⟨(f (-3) (0)), (f 0 0)⟩ : Itv)) (Itv.entire)),
    (831, Itv.isEmpty (Fmt.divI binary64 (⟨.ninf, (f 15 0)⟩ : Itv) (⟨.nzero, .nzero⟩ : Itv) : Itv)),
    (832, eqB (Fmt.divI binary64 (⟨.ninf, (f 15 0)⟩ : Itv) (⟨(f (-3) (0)), .nzero⟩ : Itv)) (Itv.entire)),
    (833, eqB (Fmt.divI binary64 (⟨.ninf, (f 15 0)⟩ : Itv) (⟨(f (-3) (0)), (f 3 0)⟩ : Itv)) (Itv.entire)),
    (834, eqB (Fmt.divI binary64 (⟨.ninf, (f 15 0)⟩ : Itv) (⟨(f 0 0), (f 3 0)⟩ : Itv)) (Itv.entire)),
    (835, eqB (Fmt.divI binary64 (⟨.ninf, (f 15 0)⟩ : Itv) (⟨.ninf, (f 0 0)⟩ : Itv)) (Itv.entire)),
    (836, eqB (Fmt.divI binary64 (⟨.ninf, (f 15 0)⟩ : Itv) (⟨.nzero, (f 3 0)⟩ : Itv)) (Itv.entire)),
    (837, eqB (Fmt.divI binary64 (⟨.ninf, (f 15 0)⟩ : Itv) (⟨.ninf, .nzero⟩ : Itv)) (Itv.entire)),
    (838, eqB (Fmt.divI binary64 (⟨.ninf, (f 15 0)⟩ : Itv) (⟨.ninf, (f 3 0)⟩ : Itv)) (Itv.entire)),
    (839, eqB (Fmt.divI binary64 (⟨.ninf, (f 15 0)⟩ : Itv) (⟨(f (-3) (0)), .pinf⟩ : Itv)) (Itv.entire)),
    (840, eqB (Fmt.divI binary64 (⟨.ninf, (f 15 0)⟩ : Itv) (⟨(f 0 0), .pinf⟩ : Itv)) (Itv.entire)),
    (841, eqB (Fmt.divI binary64 (⟨.ninf, (f 15 0)⟩ : Itv) (⟨.nzero, .pinf⟩ : Itv)) (Itv.entire)),
    (842, eqB (Fmt.divI binary64 (⟨.ninf, (f 15 0)⟩ : Itv) (Itv.entire : Itv)) (Itv.entire)),
    (844, eqB (Fmt.divI binary64 (⟨(f (-15) (0)), .pinf⟩ : Itv) (⟨(f (-5) (0)), (f (-3) (0))⟩ : Itv)) (⟨.ninf, (f 5 0)⟩)),
    (845, eqB (Fmt.divI binary64 (⟨(f (-15) (0)), .pinf⟩ : Itv) (⟨(f 3 0), (f 5 0)⟩ : Itv)) (⟨(f (-5) (0)), .pinf⟩)),
    (846, eqB (Fmt.divI binary64 (⟨(f (-15) (0)), .pinf⟩ : Itv) (⟨.ninf, (f (-3) (0))⟩ : Itv)) (⟨.ninf, (f 5 0)⟩)),
    (847, eqB (Fmt.divI binary64 (⟨(f (-15) (0)), .pinf⟩ : Itv) (⟨(f 3 0), .pinf⟩ : Itv)) (⟨(f (-5) (0)), .pinf⟩)),
    (848, Itv.isEmpty (Fmt.divI binary64 (⟨(f (-15) (0)), .pinf⟩ : Itv) (⟨(f 0 0), (f 0 0)⟩ : Itv) : Itv)),
    (849, eqB (Fmt.divI binary64 (⟨(f (-15) (0)), .pinf⟩ : Itv) (⟨(f (-3) (0)), (f 0 0)⟩ : Itv)) (Itv.entire)),
    (850, Itv.isEmpty (Fmt.divI binary64 (⟨(f (-15) (0)), .pinf⟩ : Itv) (⟨.nzero, .nzero⟩ : Itv) : Itv)),
    (851, eqB (Fmt.divI binary64 (⟨(f (-15) (0)), .pinf⟩ : Itv) (⟨(f (-3) (0)), .nzero⟩ : Itv)) (Itv.entire)),
    (852, eqB (Fmt.divI binary64 (⟨(f (-15) (0)), .pinf⟩ : Itv) (⟨(f (-3) (0)), (f 3 0)⟩ : Itv)) (Itv.entire)),
    (853, eqB (Fmt.divI binary64 (⟨(f (-15) (0)), .pinf⟩ : Itv) (⟨(f 0 0), (f 3 0)⟩ : Itv)) (Itv.entire)),
    (854, eqB (Fmt.divI binary64 (⟨(f (-15) (0)), .pinf⟩ : Itv) (⟨.ninf, (f 0 0)⟩ : Itv)) (Itv.entire)),
    (855, eqB (Fmt.divI binary64 (⟨(f (-15) (0)), .pinf⟩ : Itv) (⟨.nzero, (f 3 0)⟩ : Itv)) (Itv.entire)),
    (856, eqB (Fmt.divI binary64 (⟨(f (-15) (0)), .pinf⟩ : Itv) (⟨.ninf, .nzero⟩ : Itv)) (Itv.entire)),
    (857, eqB (Fmt.divI binary64 (⟨(f (-15) (0)), .pinf⟩ : Itv) (⟨.ninf, (f 3 0)⟩ : Itv)) (Itv.entire)),
    (858, eqB (Fmt.divI binary64 (⟨(f (-15) (0)), .pinf⟩ : Itv) (⟨(f (-3) (0)), .pinf⟩ : Itv)) (Itv.entire)),
    (859, eqB (Fmt.divI binary64 (⟨(f (-15) (0)), .pinf⟩ : Itv) (⟨(f 0 0), .pinf⟩ : Itv)) (Itv.entire)),
    (860, eqB (Fmt.divI binary64 (⟨(f (-15) (0)), .pinf⟩ : Itv) (⟨.nzero, .pinf⟩ : Itv)) (Itv.entire)),
    (861, eqB (Fmt.divI binary64 (⟨(f (-15) (0)), .pinf⟩ : Itv) (Itv.entire : Itv)) (Itv.entire)),
    (863, eqB (Fmt.divI binary64 (⟨(f 15 0), .pinf⟩ : Itv) (⟨(f (-5) (0)), (f (-3) (0))⟩ : Itv)) (⟨.ninf, (f (-3) (0))⟩)),
    (864, eqB (Fmt.divI binary64 (⟨(f 15 0), .pinf⟩ : Itv) (⟨(f 3 0), (f 5 0)⟩ : Itv)) (⟨(f 3 0), .pinf⟩)),
    (865, eqB (Fmt.divI binary64 (⟨(f 15 0), .pinf⟩ : Itv) (⟨.ninf, (f (-3) (0))⟩ : Itv)) (⟨.ninf, (f 0 0)⟩)),
    (866, eqB (Fmt.divI binary64 (⟨(f 15 0), .pinf⟩ : Itv) (⟨(f 3 0), .pinf⟩ : Itv)) (⟨(f 0 0), .pinf⟩)),
    (867, Itv.isEmpty (Fmt.divI binary64 (⟨(f 15 0), .pinf⟩ : Itv) (⟨(f 0 0), (f 0 0)⟩ : Itv) : Itv)),
    (868, eqB (Fmt.divI binary64 (⟨(f 15 0), .pinf⟩ : Itv) (⟨(f (-3) (0)), (f 0 0)⟩ : Itv)) (⟨.ninf, (f (-5) (0))⟩)),
    (869, Itv.isEmpty (Fmt.divI binary64 (⟨(f 15 0), .pinf⟩ : Itv) (⟨.nzero, .nzero⟩ : Itv) : Itv)),
    (870, eqB (Fmt.divI binary64 (⟨(f 15 0), .pinf⟩ : Itv) (⟨(f (-3) (0)), .nzero⟩ : Itv)) (⟨.ninf, (f (-5) (0))⟩))] : List (ℕ × Bool)).all (·.2) = true := by
  decide +kernel

example : ([
    (871, eqB (Fmt.divI binary64 (⟨(f 15 0), .pinf⟩ : Itv) (⟨(f (-3) (0)), (f 3 0)⟩ : Itv)) (Itv.entire)),
    (872, eqB (Fmt.divI binary64 (⟨(f 15 0), .pinf⟩ : Itv) (⟨(f 0 0), (f 3 0)⟩ : Itv)) (⟨(f 5 0), .pinf⟩)),
    (873, eqB (Fmt.divI binary64 (⟨(f 15 0), .pinf⟩ : Itv) (⟨.ninf, (f 0 0)⟩ : Itv)) (⟨.ninf, (f 0 0)⟩)),
    (874, eqB (Fmt.divI binary64 (⟨(f 15 0), .pinf⟩ : Itv) (⟨.nzero, (f 3 0)⟩ : Itv)) (⟨(f 5 0), .pinf⟩)),
    (875, eqB (Fmt.divI binary64 (⟨(f 15 0), .pinf⟩ : Itv) (⟨.ninf, .nzero⟩ : Itv)) (⟨.ninf, (f 0 0)⟩)),
    (876, eqB (Fmt.divI binary64 (⟨(f 15 0), .pinf⟩ : Itv) (⟨.ninf, (f 3 0)⟩ : Itv)) (Itv.entire)),
    (877, eqB (Fmt.divI binary64 (⟨(f 15 0), .pinf⟩ : Itv) (⟨(f (-3) (0)), .pinf⟩ : Itv)) (Itv.entire)),
    (878, eqB (Fmt.divI binary64 (⟨(f 15 0), .pinf⟩ : Itv) (⟨(f 0 0), .pinf⟩ : Itv)) (⟨(f 0 0), .pinf⟩)),
    (879, eqB (Fmt.divI binary64 (⟨(f 15 0), .pinf⟩ : Itv) (⟨.nzero, .pinf⟩ : Itv)) (⟨(f 0 0), .pinf⟩)),
    (880, eqB (Fmt.divI binary64 (⟨(f 15 0), .pinf⟩ : Itv) (Itv.entire : Itv)) (Itv.entire)),
    (882, eqB (Fmt.divI binary64 (⟨(f (-30) (0)), (f 0 0)⟩ : Itv) (⟨(f (-5) (0)), (f (-3) (0))⟩ : Itv)) (⟨(f 0 0), (f 10 0)⟩)),
    (883, eqB (Fmt.divI binary64 (⟨(f (-30) (0)), (f 0 0)⟩ : Itv) (⟨(f 3 0), (f 5 0)⟩ : Itv)) (⟨(f (-10) (0)), (f 0 0)⟩)),
    (884, eqB (Fmt.divI binary64 (⟨(f (-30) (0)), (f 0 0)⟩ : Itv) (⟨.ninf, (f (-3) (0))⟩ : Itv)) (⟨(f 0 0), (f 10 0)⟩)),
    (885, eqB (Fmt.divI binary64 (⟨(f (-30) (0)), (f 0 0)⟩ : Itv) (⟨(f 3 0), .pinf⟩ : Itv)) (⟨(f (-10) (0)), (f 0 0)⟩)),
    (886, Itv.isEmpty (Fmt.divI binary64 (⟨(f (-30) (0)), (f 0 0)⟩ : Itv) (⟨(f 0 0), (f 0 0)⟩ : Itv) : Itv)),
    (887, eqB (Fmt.divI binary64 (⟨(f (-30) (0)), (f 0 0)⟩ : Itv) (⟨(f (-3) (0)), (f 0 0)⟩ : Itv)) (⟨(f 0 0), .pinf⟩)),
    (888, Itv.isEmpty (Fmt.divI binary64 (⟨(f (-30) (0)), (f 0 0)⟩ : Itv) (⟨.nzero, .nzero⟩ : Itv) : Itv)),
    (889, eqB (Fmt.divI binary64 (⟨(f (-30) (0)), (f 0 0)⟩ : Itv) (⟨(f (-3) (0)), .nzero⟩ : Itv)) (⟨(f 0 0), .pinf⟩)),
    (890, eqB (Fmt.divI binary64 (⟨(f (-30) (0)), (f 0 0)⟩ : Itv) (⟨(f (-3) (0)), (f 3 0)⟩ : Itv)) (Itv.entire)),
    (891, eqB (Fmt.divI binary64 (⟨(f (-30) (0)), (f 0 0)⟩ : Itv) (⟨(f 0 0), (f 3 0)⟩ : Itv)) (⟨.ninf, (f 0 0)⟩)),
    (892, eqB (Fmt.divI binary64 (⟨(f (-30) (0)), (f 0 0)⟩ : Itv) (⟨.ninf, (f 0 0)⟩ : Itv)) (⟨(f 0 0), .pinf⟩)),
    (893, eqB (Fmt.divI binary64 (⟨(f (-30) (0)), (f 0 0)⟩ : Itv) (⟨.nzero, (f 3 0)⟩ : Itv)) (⟨.ninf, (f 0 0)⟩)),
    (894, eqB (Fmt.divI binary64 (⟨(f (-30) (0)), (f 0 0)⟩ : Itv) (⟨.ninf, .nzero⟩ : Itv)) (⟨(f 0 0), .pinf⟩)),
    (895, eqB (Fmt.divI binary64 (⟨(f (-30) (0)), (f 0 0)⟩ : Itv) (⟨.ninf, (f 3 0)⟩ : Itv)) (Itv.entire)),
    (896, eqB (Fmt.divI binary64 (⟨(f (-30) (0)), (f 0 0)⟩ : Itv) (⟨(f (-3) (0)), .pinf⟩ : Itv)) (Itv.entire)),
    (897, eqB (Fmt.divI binary64 (⟨(f (-30) (0)), (f 0 0)⟩ : Itv) (⟨(f 0 0), .pinf⟩ : Itv)) (⟨.ninf, (f 0 0)⟩)),
    (898, eqB (Fmt.divI binary64 (⟨(f (-30) (0)), (f 0 0)⟩ : Itv) (⟨.nzero, .pinf⟩ : Itv)) (⟨.ninf, (f 0 0)⟩)),
    (899, eqB (Fmt.divI binary64 (⟨(f (-30) (0)), (f 0 0)⟩ : Itv) (Itv.entire : Itv)) (Itv.entire)),
    (901, eqB (Fmt.divI binary64 (⟨(f (-30) (0)), .nzero⟩ : Itv) (⟨(f (-5) (0)), (f (-3) (0))⟩ : Itv)) (⟨(f 0 0), (f 10 0)⟩)),
    (902, eqB (Fmt.divI binary64 (⟨(f (-30) (0)), .nzero⟩ : Itv) (⟨(f 3 0), (f 5 0)⟩ : Itv)) (⟨(f (-10) (0)), (f 0 0)⟩)),
    (903, eqB (Fmt.divI binary64 (⟨(f (-30) (0)), .nzero⟩ : Itv) (⟨.ninf, (f (-3) (0))⟩ : Itv)) (⟨(f 0 0), (f 10 0)⟩)),
    (904, eqB (Fmt.divI binary64 (⟨(f (-30) (0)), .nzero⟩ : Itv) (⟨(f 3 0), .pinf⟩ : Itv)) (⟨(f (-10) (0)), (f 0 0)⟩)),
    (905, Itv.isEmpty (Fmt.divI binary64 (⟨(f (-30) (0)), .nzero⟩ : Itv) (⟨(f 0 0), (f 0 0)⟩ : Itv) : Itv)),
    (906, eqB (Fmt.divI binary64 (⟨(f (-30) (0)), .nzero⟩ : Itv) (⟨(f (-3) (0)), (f 0 0)⟩ : Itv)) (⟨(f 0 0), .pinf⟩)),
    (907, Itv.isEmpty (Fmt.divI binary64 (⟨(f (-30) (0)), .nzero⟩ : Itv) (⟨.nzero, .nzero⟩ : Itv) : Itv)),
    (908, eqB (Fmt.divI binary64 (⟨(f (-30) (0)), .nzero⟩ : Itv) (⟨(f (-3) (0)), .nzero⟩ : Itv)) (⟨(f 0 0), .pinf⟩)),
    (909, eqB (Fmt.divI binary64 (⟨(f (-30) (0)), .nzero⟩ : Itv) (⟨(f (-3) (0)), (f 3 0)⟩ : Itv)) (Itv.entire)),
    (910, eqB (Fmt.divI binary64 (⟨(f (-30) (0)), .nzero⟩ : Itv) (⟨(f 0 0), (f 3 0)⟩ : Itv)) (⟨.ninf, (f 0 0)⟩)),
    (911, eqB (Fmt.divI binary64 (⟨(f (-30) (0)), .nzero⟩ : Itv) (⟨.ninf, (f 0 0)⟩ : Itv)) (⟨(f 0 0), .pinf⟩)),
    (912, eqB (Fmt.divI binary64 (⟨(f (-30) (0)), .nzero⟩ : Itv) (⟨.nzero, (f 3 0)⟩ : Itv)) (⟨.ninf, (f 0 0)⟩)),
    (913, eqB (Fmt.divI binary64 (⟨(f (-30) (0)), .nzero⟩ : Itv) (⟨.ninf, .nzero⟩ : Itv)) (⟨(f 0 0), .pinf⟩)),
    (914, eqB (Fmt.divI binary64 (⟨(f (-30) (0)), .nzero⟩ : Itv) (⟨.ninf, (f 3 0)⟩ : Itv)) (Itv.entire)),
    (915, eqB (Fmt.divI binary64 (⟨(f (-30) (0)), .nzero⟩ : Itv) (⟨(f (-3) (0)), .pinf⟩ : Itv)) (Itv.entire)),
    (916, eqB (Fmt.divI binary64 (⟨(f (-30) (0)), .nzero⟩ : Itv) (⟨(f 0 0), .pinf⟩ : Itv)) (⟨.ninf, (f 0 0)⟩)),
    (917, eqB (Fmt.divI binary64 (⟨(f (-30) (0)), .nzero⟩ : Itv) (⟨.nzero, .pinf⟩ : Itv)) (⟨.ninf, (f 0 0)⟩)),
    (918, eqB (Fmt.divI binary64 (⟨(f (-30) (0)), .nzero⟩ : Itv) (Itv.entire : Itv)) (Itv.entire)),
    (920, eqB (Fmt.divI binary64 (⟨(f 0 0), (f 30 0)⟩ : Itv) (⟨(f (-5) (0)), (f (-3) (0))⟩ : Itv)) (⟨(f (-10) (0)), (f 0 0)⟩)),
    (921, eqB (Fmt.divI binary64 (⟨(f 0 0), (f 30 0)⟩ : Itv) (⟨(f 3 0), (f 5 0)⟩ : Itv)) (⟨(f 0 0), (f 10 0)⟩)),
    (922, eqB (Fmt.divI binary64 (⟨(f 0 0), (f 30 0)⟩ : Itv) (⟨.ninf, (f (-3) (0))⟩ : Itv)) (⟨(f (-10) (0)), (f 0 0)⟩)),
    (923, eqB (Fmt.divI binary64 (⟨(f 0 0), (f 30 0)⟩ : Itv) (⟨(f 3 0), .pinf⟩ : Itv)) (⟨(f 0 0), (f 10 0)⟩))] : List (ℕ × Bool)).all (·.2) = true := by
  decide +kernel

example : ([
    (924, Itv.isEmpty (Fmt.divI binary64 (⟨(f 0 0), (f 30 0)⟩ : Itv) (⟨(f 0 0), (f 0 0)⟩ : Itv) : Itv)),
    (925, eqB (Fmt.divI binary64 (⟨(f 0 0), (f 30 0)⟩ : Itv) (⟨(f (-3) (0)), (f 0 0)⟩ : Itv)) (⟨.ninf, (f 0 0)⟩)),
    (926, Itv.isEmpty (Fmt.divI binary64 (⟨(f 0 0), (f 30 0)⟩ : Itv) (⟨.nzero, .nzero⟩ : Itv) : Itv)),
    (927, eqB (Fmt.divI binary64 (⟨(f 0 0), (f 30 0)⟩ : Itv) (⟨(f (-3) (0)), .nzero⟩ : Itv)) (⟨.ninf, (f 0 0)⟩)),
    (928, eqB (Fmt.divI binary64 (⟨(f 0 0), (f 30 0)⟩ : Itv) (⟨(f (-3) (0)), (f 3 0)⟩ : Itv)) (Itv.entire)),
    (929, eqB (Fmt.divI binary64 (⟨(f 0 0), (f 30 0)⟩ : Itv) (⟨(f 0 0), (f 3 0)⟩ : Itv)) (⟨(f 0 0), .pinf⟩)),
    (930, eqB (Fmt.divI binary64 (⟨(f 0 0), (f 30 0)⟩ : Itv) (⟨.ninf, (f 0 0)⟩ : Itv)) (⟨.ninf, (f 0 0)⟩)),
    (931, eqB (Fmt.divI binary64 (⟨(f 0 0), (f 30 0)⟩ : Itv) (⟨.nzero, (f 3 0)⟩ : Itv)) (⟨(f 0 0), .pinf⟩)),
    (932, eqB (Fmt.divI binary64 (⟨(f 0 0), (f 30 0)⟩ : Itv) (⟨.ninf, .nzero⟩ : Itv)) (⟨.ninf, (f 0 0)⟩)),
    (933, eqB (Fmt.divI binary64 (⟨(f 0 0), (f 30 0)⟩ : Itv) (⟨.ninf, (f 3 0)⟩ : Itv)) (Itv.entire)),
    (934, eqB (Fmt.divI binary64 (⟨(f 0 0), (f 30 0)⟩ : Itv) (⟨(f (-3) (0)), .pinf⟩ : Itv)) (Itv.entire)),
    (935, eqB (Fmt.divI binary64 (⟨(f 0 0), (f 30 0)⟩ : Itv) (⟨(f 0 0), .pinf⟩ : Itv)) (⟨(f 0 0), .pinf⟩)),
    (936, eqB (Fmt.divI binary64 (⟨(f 0 0), (f 30 0)⟩ : Itv) (⟨.nzero, .pinf⟩ : Itv)) (⟨(f 0 0), .pinf⟩)),
    (937, eqB (Fmt.divI binary64 (⟨(f 0 0), (f 30 0)⟩ : Itv) (Itv.entire : Itv)) (Itv.entire)),
    (939, eqB (Fmt.divI binary64 (⟨.nzero, (f 30 0)⟩ : Itv) (⟨(f (-5) (0)), (f (-3) (0))⟩ : Itv)) (⟨(f (-10) (0)), (f 0 0)⟩)),
    (940, eqB (Fmt.divI binary64 (⟨.nzero, (f 30 0)⟩ : Itv) (⟨(f 3 0), (f 5 0)⟩ : Itv)) (⟨(f 0 0), (f 10 0)⟩)),
    (941, eqB (Fmt.divI binary64 (⟨.nzero, (f 30 0)⟩ : Itv) (⟨.ninf, (f (-3) (0))⟩ : Itv)) (⟨(f (-10) (0)), (f 0 0)⟩)),
    (942, eqB (Fmt.divI binary64 (⟨.nzero, (f 30 0)⟩ : Itv) (⟨(f 3 0), .pinf⟩ : Itv)) (⟨(f 0 0), (f 10 0)⟩)),
    (943, Itv.isEmpty (Fmt.divI binary64 (⟨.nzero, (f 30 0)⟩ : Itv) (⟨(f 0 0), (f 0 0)⟩ : Itv) : Itv)),
    (944, eqB (Fmt.divI binary64 (⟨.nzero, (f 30 0)⟩ : Itv) (⟨(f (-3) (0)), (f 0 0)⟩ : Itv)) (⟨.ninf, (f 0 0)⟩)),
    (945, Itv.isEmpty (Fmt.divI binary64 (⟨.nzero, (f 30 0)⟩ : Itv) (⟨.nzero, .nzero⟩ : Itv) : Itv)),
    (946, eqB (Fmt.divI binary64 (⟨.nzero, (f 30 0)⟩ : Itv) (⟨(f (-3) (0)), .nzero⟩ : Itv)) (⟨.ninf, (f 0 0)⟩)),
    (947, eqB (Fmt.divI binary64 (⟨.nzero, (f 30 0)⟩ : Itv) (⟨(f (-3) (0)), (f 3 0)⟩ : Itv)) (Itv.entire)),
    (948, eqB (Fmt.divI binary64 (⟨.nzero, (f 30 0)⟩ : Itv) (⟨(f 0 0), (f 3 0)⟩ : Itv)) (⟨(f 0 0), .pinf⟩)),
    (949, eqB (Fmt.divI binary64 (⟨.nzero, (f 30 0)⟩ : Itv) (⟨.ninf, (f 0 0)⟩ : Itv)) (⟨.ninf, (f 0 0)⟩)),
    (950, eqB (Fmt.divI binary64 (⟨.nzero, (f 30 0)⟩ : Itv) (⟨.nzero, (f 3 0)⟩ : Itv)) (⟨(f 0 0), .pinf⟩)),
    (951, eqB (Fmt.divI binary64 (⟨.nzero, (f 30 0)⟩ : Itv) (⟨.ninf, .nzero⟩ : Itv)) (⟨.ninf, (f 0 0)⟩)),
    (952, eqB (Fmt.divI binary64 (⟨.nzero, (f 30 0)⟩ : Itv) (⟨.ninf, (f 3 0)⟩ : Itv)) (Itv.entire)),
    (953, eqB (Fmt.divI binary64 (⟨.nzero, (f 30 0)⟩ : Itv) (⟨(f (-3) (0)), .pinf⟩ : Itv)) (Itv.entire)),
    (954, eqB (Fmt.divI binary64 (⟨.nzero, (f 30 0)⟩ : Itv) (⟨(f 0 0), .pinf⟩ : Itv)) (⟨(f 0 0), .pinf⟩)),
    (955, eqB (Fmt.divI binary64 (⟨.nzero, (f 30 0)⟩ : Itv) (⟨.nzero, .pinf⟩ : Itv)) (⟨(f 0 0), .pinf⟩)),
    (956, eqB (Fmt.divI binary64 (⟨.nzero, (f 30 0)⟩ : Itv) (Itv.entire : Itv)) (Itv.entire)),
    (958, eqB (Fmt.divI binary64 (⟨.ninf, (f 0 0)⟩ : Itv) (⟨(f (-5) (0)), (f (-3) (0))⟩ : Itv)) (⟨(f 0 0), .pinf⟩)),
    (959, eqB (Fmt.divI binary64 (⟨.ninf, (f 0 0)⟩ : Itv) (⟨(f 3 0), (f 5 0)⟩ : Itv)) (⟨.ninf, (f 0 0)⟩)),
    (960, eqB (Fmt.divI binary64 (⟨.ninf, (f 0 0)⟩ : Itv) (⟨.ninf, (f (-3) (0))⟩ : Itv)) (⟨(f 0 0), .pinf⟩)),
    (961, eqB (Fmt.divI binary64 (⟨.ninf, (f 0 0)⟩ : Itv) (⟨(f 3 0), .pinf⟩ : Itv)) (⟨.ninf, (f 0 0)⟩)),
    (962, Itv.isEmpty (Fmt.divI binary64 (⟨.ninf, (f 0 0)⟩ : Itv) (⟨(f 0 0), (f 0 0)⟩ : Itv) : Itv)),
    (963, eqB (Fmt.divI binary64 (⟨.ninf, (f 0 0)⟩ : Itv) (⟨(f (-3) (0)), (f 0 0)⟩ : Itv)) (⟨(f 0 0), .pinf⟩)),
    (964, Itv.isEmpty (Fmt.divI binary64 (⟨.ninf, (f 0 0)⟩ : Itv) (⟨.nzero, .nzero⟩ : Itv) : Itv)),
    (965, eqB (Fmt.divI binary64 (⟨.ninf, (f 0 0)⟩ : Itv) (⟨(f (-3) (0)), .nzero⟩ : Itv)) (⟨(f 0 0), .pinf⟩)),
    (966, eqB (Fmt.divI binary64 (⟨.ninf, (f 0 0)⟩ : Itv) (⟨(f (-3) (0)), (f 3 0)⟩ : Itv)) (Itv.entire)),
    (967, eqB (Fmt.divI binary64 (⟨.ninf, (f 0 0)⟩ : Itv) (⟨(f 0 0), (f 3 0)⟩ : Itv)) (⟨.ninf, (f 0 0)⟩)),
    (968, eqB (Fmt.divI binary64 (⟨.ninf, (f 0 0)⟩ : Itv) (⟨.ninf, (f 0 0)⟩ : Itv)) (⟨(f 0 0), .pinf⟩)),
    (969, eqB (Fmt.divI binary64 (⟨.ninf, (f 0 0)⟩ : Itv) (⟨.nzero, (f 3 0)⟩ : Itv)) (⟨.ninf, (f 0 0)⟩)),
    (970, eqB (Fmt.divI binary64 (⟨.ninf, (f 0 0)⟩ : Itv) (⟨.ninf, .nzero⟩ : Itv)) (⟨(f 0 0), .pinf⟩)),
    (971, eqB (Fmt.divI binary64 (⟨.ninf, (f 0 0)⟩ : Itv) (⟨.ninf, (f 3 0)⟩ : Itv)) (Itv.entire)),
    (972, eqB (Fmt.divI binary64 (⟨.ninf, (f 0 0)⟩ : Itv) (⟨(f (-3) (0)), .pinf⟩ : Itv)) (Itv.entire)),
    (973, eqB (Fmt.divI binary64 (⟨.ninf, (f 0 0)⟩ : Itv) (⟨(f 0 0), .pinf⟩ : Itv)) (⟨.ninf, (f 0 0)⟩)),
    (974, eqB (Fmt.divI binary64 (⟨.ninf, (f 0 0)⟩ : Itv) (⟨.nzero, .pinf⟩ : Itv)) (⟨.ninf, (f 0 0)⟩)),
    (975, eqB (Fmt.divI binary64 (⟨.ninf, (f 0 0)⟩ : Itv) (Itv.entire : Itv)) (Itv.entire))] : List (ℕ × Bool)).all (·.2) = true := by
  decide +kernel

example : ([
    (977, eqB (Fmt.divI binary64 (⟨.ninf, .nzero⟩ : Itv) (⟨(f (-5) (0)), (f (-3) (0))⟩ : Itv)) (⟨(f 0 0), .pinf⟩)),
    (978, eqB (Fmt.divI binary64 (⟨.ninf, .nzero⟩ : Itv) (⟨(f 3 0), (f 5 0)⟩ : Itv)) (⟨.ninf, (f 0 0)⟩)),
    (979, eqB (Fmt.divI binary64 (⟨.ninf, .nzero⟩ : Itv) (⟨.ninf, (f (-3) (0))⟩ : Itv)) (⟨(f 0 0), .pinf⟩)),
    (980, eqB (Fmt.divI binary64 (⟨.ninf, .nzero⟩ : Itv) (⟨(f 3 0), .pinf⟩ : Itv)) (⟨.ninf, (f 0 0)⟩)),
    (981, Itv.isEmpty (Fmt.divI binary64 (⟨.ninf, .nzero⟩ : Itv) (⟨(f 0 0), (f 0 0)⟩ : Itv) : Itv)),
    (982, eqB (Fmt.divI binary64 (⟨.ninf, .nzero⟩ : Itv) (⟨(f (-3) (0)), (f 0 0)⟩ : Itv)) (⟨(f 0 0), .pinf⟩)),
    (983, Itv.isEmpty (Fmt.divI binary64 (⟨.ninf, .nzero⟩ : Itv) (⟨.nzero, .nzero⟩ : Itv) : Itv)),
    (984, eqB (Fmt.divI binary64 (⟨.ninf, .nzero⟩ : Itv) (⟨(f (-3) (0)), .nzero⟩ : Itv)) (⟨(f 0 0), .pinf⟩)),
    (985, eqB (Fmt.divI binary64 (⟨.ninf, .nzero⟩ : Itv) (⟨(f (-3) (0)), (f 3 0)⟩ : Itv)) (Itv.entire)),
    (986, eqB (Fmt.divI binary64 (⟨.ninf, .nzero⟩ : Itv) (⟨(f 0 0), (f 3 0)⟩ : Itv)) (⟨.ninf, (f 0 0)⟩)),
    (987, eqB (Fmt.divI binary64 (⟨.ninf, .nzero⟩ : Itv) (⟨.ninf, (f 0 0)⟩ : Itv)) (⟨(f 0 0), .pinf⟩)),
    (988, eqB (Fmt.divI binary64 (⟨.ninf, .nzero⟩ : Itv) (⟨.nzero, (f 3 0)⟩ : Itv)) (⟨.ninf, (f 0 0)⟩)),
    (989, eqB (Fmt.divI binary64 (⟨.ninf, .nzero⟩ : Itv) (⟨.ninf, .nzero⟩ : Itv)) (⟨(f 0 0), .pinf⟩)),
    (990, eqB (Fmt.divI binary64 (⟨.ninf, .nzero⟩ : Itv) (⟨.ninf, (f 3 0)⟩ : Itv)) (Itv.entire)),
    (991, eqB (Fmt.divI binary64 (⟨.ninf, .nzero⟩ : Itv) (⟨(f (-3) (0)), .pinf⟩ : Itv)) (Itv.entire)),
    (992, eqB (Fmt.divI binary64 (⟨.ninf, .nzero⟩ : Itv) (⟨(f 0 0), .pinf⟩ : Itv)) (⟨.ninf, (f 0 0)⟩)),
    (993, eqB (Fmt.divI binary64 (⟨.ninf, .nzero⟩ : Itv) (⟨.nzero, .pinf⟩ : Itv)) (⟨.ninf, (f 0 0)⟩)),
    (994, eqB (Fmt.divI binary64 (⟨.ninf, .nzero⟩ : Itv) (Itv.entire : Itv)) (Itv.entire)),
    (996, eqB (Fmt.divI binary64 (⟨(f 0 0), .pinf⟩ : Itv) (⟨(f (-5) (0)), (f (-3) (0))⟩ : Itv)) (⟨.ninf, (f 0 0)⟩)),
    (997, eqB (Fmt.divI binary64 (⟨(f 0 0), .pinf⟩ : Itv) (⟨(f 3 0), (f 5 0)⟩ : Itv)) (⟨(f 0 0), .pinf⟩)),
    (998, eqB (Fmt.divI binary64 (⟨(f 0 0), .pinf⟩ : Itv) (⟨.ninf, (f (-3) (0))⟩ : Itv)) (⟨.ninf, (f 0 0)⟩)),
    (999, eqB (Fmt.divI binary64 (⟨(f 0 0), .pinf⟩ : Itv) (⟨(f 3 0), .pinf⟩ : Itv)) (⟨(f 0 0), .pinf⟩)),
    (1000, Itv.isEmpty (Fmt.divI binary64 (⟨(f 0 0), .pinf⟩ : Itv) (⟨(f 0 0), (f 0 0)⟩ : Itv) : Itv)),
    (1001, eqB (Fmt.divI binary64 (⟨(f 0 0), .pinf⟩ : Itv) (⟨(f (-3) (0)), (f 0 0)⟩ : Itv)) (⟨.ninf, (f 0 0)⟩)),
    (1002, Itv.isEmpty (Fmt.divI binary64 (⟨(f 0 0), .pinf⟩ : Itv) (⟨.nzero, .nzero⟩ : Itv) : Itv)),
    (1003, eqB (Fmt.divI binary64 (⟨(f 0 0), .pinf⟩ : Itv) (⟨(f (-3) (0)), .nzero⟩ : Itv)) (⟨.ninf, (f 0 0)⟩)),
    (1004, eqB (Fmt.divI binary64 (⟨(f 0 0), .pinf⟩ : Itv) (⟨(f (-3) (0)), (f 3 0)⟩ : Itv)) (Itv.entire)),
    (1005, eqB (Fmt.divI binary64 (⟨(f 0 0), .pinf⟩ : Itv) (⟨(f 0 0), (f 3 0)⟩ : Itv)) (⟨(f 0 0), .pinf⟩)),
    (1006, eqB (Fmt.divI binary64 (⟨(f 0 0), .pinf⟩ : Itv) (⟨.ninf, (f 0 0)⟩ : Itv)) (⟨.ninf, (f 0 0)⟩)),
    (1007, eqB (Fmt.divI binary64 (⟨(f 0 0), .pinf⟩ : Itv) (⟨.nzero, (f 3 0)⟩ : Itv)) (⟨(f 0 0), .pinf⟩)),
    (1008, eqB (Fmt.divI binary64 (⟨(f 0 0), .pinf⟩ : Itv) (⟨.ninf, .nzero⟩ : Itv)) (⟨.ninf, (f 0 0)⟩)),
    (1009, eqB (Fmt.divI binary64 (⟨(f 0 0), .pinf⟩ : Itv) (⟨.ninf, (f 3 0)⟩ : Itv)) (Itv.entire)),
    (1010, eqB (Fmt.divI binary64 (⟨(f 0 0), .pinf⟩ : Itv) (⟨(f (-3) (0)), .pinf⟩ : Itv)) (Itv.entire)),
    (1011, eqB (Fmt.divI binary64 (⟨(f 0 0), .pinf⟩ : Itv) (⟨(f 0 0), .pinf⟩ : Itv)) (⟨(f 0 0), .pinf⟩)),
    (1012, eqB (Fmt.divI binary64 (⟨(f 0 0), .pinf⟩ : Itv) (⟨.nzero, .pinf⟩ : Itv)) (⟨(f 0 0), .pinf⟩)),
    (1013, eqB (Fmt.divI binary64 (⟨(f 0 0), .pinf⟩ : Itv) (Itv.entire : Itv)) (Itv.entire)),
    (1015, eqB (Fmt.divI binary64 (⟨.nzero, .pinf⟩ : Itv) (⟨(f (-5) (0)), (f (-3) (0))⟩ : Itv)) (⟨.ninf, (f 0 0)⟩)),
    (1016, eqB (Fmt.divI binary64 (⟨.nzero, .pinf⟩ : Itv) (⟨(f 3 0), (f 5 0)⟩ : Itv)) (⟨(f 0 0), .pinf⟩)),
    (1017, eqB (Fmt.divI binary64 (⟨.nzero, .pinf⟩ : Itv) (⟨.ninf, (f (-3) (0))⟩ : Itv)) (⟨.ninf, (f 0 0)⟩)),
    (1018, eqB (Fmt.divI binary64 (⟨.nzero, .pinf⟩ : Itv) (⟨(f 3 0), .pinf⟩ : Itv)) (⟨(f 0 0), .pinf⟩)),
    (1019, Itv.isEmpty (Fmt.divI binary64 (⟨.nzero, .pinf⟩ : Itv) (⟨(f 0 0), (f 0 0)⟩ : Itv) : Itv)),
    (1020, eqB (Fmt.divI binary64 (⟨.nzero, .pinf⟩ : Itv) (⟨(f (-3) (0)), (f 0 0)⟩ : Itv)) (⟨.ninf, (f 0 0)⟩)),
    (1021, Itv.isEmpty (Fmt.divI binary64 (⟨.nzero, .pinf⟩ : Itv) (⟨.nzero, .nzero⟩ : Itv) : Itv)),
    (1022, eqB (Fmt.divI binary64 (⟨.nzero, .pinf⟩ : Itv) (⟨(f (-3) (0)), .nzero⟩ : Itv)) (⟨.ninf, (f 0 0)⟩)),
    (1023, eqB (Fmt.divI binary64 (⟨.nzero, .pinf⟩ : Itv) (⟨(f (-3) (0)), (f 3 0)⟩ : Itv)) (Itv.entire)),
    (1024, eqB (Fmt.divI binary64 (⟨.nzero, .pinf⟩ : Itv) (⟨(f 0 0), (f 3 0)⟩ : Itv)) (⟨(f 0 0), .pinf⟩)),
    (1025, eqB (Fmt.divI binary64 (⟨.nzero, .pinf⟩ : Itv) (⟨.ninf, (f 0 0)⟩ : Itv)) (⟨.ninf, (f 0 0)⟩)),
    (1026, eqB (Fmt.divI binary64 (⟨.nzero, .pinf⟩ : Itv) (⟨.nzero, (f 3 0)⟩ : Itv)) (⟨(f 0 0), .pinf⟩)),
    (1027, eqB (Fmt.divI binary64 (⟨.nzero, .pinf⟩ : Itv) (⟨.ninf, .nzero⟩ : Itv)) (⟨.ninf, (f 0 0)⟩)),
    (1028, eqB (Fmt.divI binary64 (⟨.nzero, .pinf⟩ : Itv) (⟨.ninf, (f 3 0)⟩ : Itv)) (Itv.entire))] : List (ℕ × Bool)).all (·.2) = true := by
  decide +kernel

example : ([
    (1029, eqB (Fmt.divI binary64 (⟨.nzero, .pinf⟩ : Itv) (⟨(f (-3) (0)), .pinf⟩ : Itv)) (Itv.entire)),
    (1030, eqB (Fmt.divI binary64 (⟨.nzero, .pinf⟩ : Itv) (⟨(f 0 0), .pinf⟩ : Itv)) (⟨(f 0 0), .pinf⟩)),
    (1031, eqB (Fmt.divI binary64 (⟨.nzero, .pinf⟩ : Itv) (⟨.nzero, .pinf⟩ : Itv)) (⟨(f 0 0), .pinf⟩)),
    (1032, eqB (Fmt.divI binary64 (⟨.nzero, .pinf⟩ : Itv) (Itv.entire : Itv)) (Itv.entire)),
    (1034, eqB (Fmt.divI binary64 (⟨(f (-2) (0)), (f (-1) (0))⟩ : Itv) (⟨(f (-10) (0)), (f (-3) (0))⟩ : Itv)) (⟨(f (7205759403792793) (-56)), (f (3002399751580331) (-52))⟩)),
    (1035, eqB (Fmt.divI binary64 (⟨(f (-2) (0)), (f (-1) (0))⟩ : Itv) (⟨(f 0 0), (f 10 0)⟩ : Itv)) (⟨.ninf, (f (-7205759403792793) (-56))⟩)),
    (1036, eqB (Fmt.divI binary64 (⟨(f (-2) (0)), (f (-1) (0))⟩ : Itv) (⟨.nzero, (f 10 0)⟩ : Itv)) (⟨.ninf, (f (-7205759403792793) (-56))⟩)),
    (1037, eqB (Fmt.divI binary64 (⟨(f (-1) (0)), (f 2 0)⟩ : Itv) (⟨(f 10 0), .pinf⟩ : Itv)) (⟨(f (-3602879701896397) (-55)), (f (3602879701896397) (-54))⟩)),
    (1038, eqB (Fmt.divI binary64 (⟨(f 1 0), (f 3 0)⟩ : Itv) (⟨.ninf, (f (-10) (0))⟩ : Itv)) (⟨(f (-1351079888211149) (-52)), (f 0 0)⟩)),
    (1039, eqB (Fmt.divI binary64 (⟨.ninf, (f (-1) (0))⟩ : Itv) (⟨(f 1 0), (f 3 0)⟩ : Itv)) (⟨.ninf, (f (-6004799503160661) (-54))⟩)),
    (1044, Itv.isEmpty (Fmt.divI binary64 (⟨(f 1 0), (f (-9007199254740991) (971))⟩ : Itv) (⟨(f 3 0), (f 4 0)⟩ : Itv) : Itv)),
    (1056, eqB (if !(⟨(f (-2) (0)), (f (-1) (0))⟩ : Itv).isValid || !(⟨(f (-10) (0)), (f (-3) (0))⟩ : Itv).isValid then Itv.empty else Fmt.convertHull binary32 (Fmt.divI binary64 (Fmt.convertHull binary64 (⟨(f (-2) (0)), (f (-1) (0))⟩ : Itv)) (Fmt.convertHull binary64 (⟨(f (-10) (0)), (f (-3) (0))⟩ : Itv)))) (⟨(f (3355443) (-25)), (f (11184811) (-24))⟩)),
    (1057, eqB (if !(⟨(f (-2) (0)), (f (-1) (0))⟩ : Itv).isValid || !(⟨(f 0 0), (f 10 0)⟩ : Itv).isValid then Itv.empty else Fmt.convertHull binary64 (Fmt.divI binary64 (Fmt.convertHull binary64 (⟨(f (-2) (0)), (f (-1) (0))⟩ : Itv)) (Fmt.convertHull binary64 (⟨(f 0 0), (f 10 0)⟩ : Itv)))) (⟨.ninf, (f (-7205759403792793) (-56))⟩)),
    (1058, eqB (if !(⟨(f (-2) (0)), (f (-1) (0))⟩ : Itv).isValid || !(⟨.nzero, (f 10 0)⟩ : Itv).isValid then Itv.empty else Fmt.convertHull binary64 (Fmt.divI binary64 (Fmt.convertHull binary64 (⟨(f (-2) (0)), (f (-1) (0))⟩ : Itv)) (Fmt.convertHull binary64 (⟨.nzero, (f 10 0)⟩ : Itv)))) (⟨.ninf, (f (-7205759403792793) (-56))⟩)),
    (1059, eqB (if !(⟨(f (-1) (0)), (f 2 0)⟩ : Itv).isValid || !(⟨(f 10 0), .pinf⟩ : Itv).isValid then Itv.empty else Fmt.convertHull binary32 (Fmt.divI binary64 (Fmt.convertHull binary64 (⟨(f (-1) (0)), (f 2 0)⟩ : Itv)) (Fmt.convertHull binary64 (⟨(f 10 0), .pinf⟩ : Itv)))) (⟨(f (-13421773) (-27)), (f (13421773) (-26))⟩)),
    (1065, Itv.isEmpty (if !(⟨(f 1 0), (f (-9007199254740991) (971))⟩ : Itv).isValid || !(⟨(f 3 0), (f 4 0)⟩ : Itv).isValid then Itv.empty else Fmt.convertHull binary32 (Fmt.divI binary64 (Fmt.convertHull binary64 (⟨(f 1 0), (f (-9007199254740991) (971))⟩ : Itv)) (Fmt.convertHull binary64 (⟨(f 3 0), (f 4 0)⟩ : Itv))) : Itv)),
    (1077, eqD (Fmt.divD binary64 (⟨⟨(f (-2) (0)), (f (-1) (0))⟩, .com⟩ : DItv) (⟨⟨(f (-10) (0)), (f (-3) (0))⟩, .com⟩ : DItv)) (⟨⟨(f (7205759403792793) (-56)), (f (3002399751580331) (-52))⟩, .com⟩)),
    (1078, eqD (Fmt.divD binary64 (⟨⟨(f (-200) (0)), (f (-1) (0))⟩, .com⟩ : DItv) (⟨⟨(f (1) (-1022)), (f 10 0)⟩, .com⟩ : DItv)) (⟨⟨.ninf, (f (-7205759403792793) (-56))⟩, .dac⟩)),
    (1079, eqD (Fmt.divD binary64 (⟨⟨(f (-2) (0)), (f (-1) (0))⟩, .com⟩ : DItv) (⟨⟨(f 0 0), (f 10 0)⟩, .com⟩ : DItv)) (⟨⟨.ninf, (f (-7205759403792793) (-56))⟩, .trv⟩)),
    (1080, eqD (Fmt.divD binary64 (⟨⟨(f 1 0), (f 3 0)⟩, .defd⟩ : DItv) (⟨⟨.ninf, (f (-10) (0))⟩, .dac⟩ : DItv)) (⟨⟨(f (-1351079888211149) (-52)), (f 0 0)⟩, .defd⟩)),
    (1081, DItv.pred Itv.isEmpty (Fmt.divD binary64 (⟨⟨(f 1 0), (f 2 0)⟩, .trv⟩ : DItv) (DItv.empty : DItv) : DItv)),
    (1082, DItv.isNai (Fmt.divD binary64 (DItv.nai : DItv) (⟨⟨(f 1 0), (f 2 0)⟩, .trv⟩ : DItv) : DItv)),
    (1087, DItv.isNai (Fmt.divD binary64 (⟨⟨(f 1 0), (f (-2) (0))⟩, .com⟩ : DItv) (⟨⟨(f 5 0), (f 7 0)⟩, .com⟩ : DItv) : DItv)),
    (1099, eqD (if !(⟨⟨(f (-2) (0)), (f (-1) (0))⟩, .com⟩ : DItv).isValid || (⟨⟨(f (-2) (0)), (f (-1) (0))⟩, .com⟩ : DItv).isNai || !(⟨⟨(f (-10) (0)), (f (-3) (0))⟩, .com⟩ : DItv).isValid || (⟨⟨(f (-10) (0)), (f (-3) (0))⟩, .com⟩ : DItv).isNai then DItv.nai else Fmt.convertHullD binary32 (Fmt.divD binary64 (Fmt.convertHullD binary64 (⟨⟨(f (-2) (0)), (f (-1) (0))⟩, .com⟩ : DItv)) (Fmt.convertHullD binary64 (⟨⟨(f (-10) (0)), (f (-3) (0))⟩, .com⟩ : DItv)))) (⟨⟨(f (3355443) (-25)), (f (11184811) (-24))⟩, .com⟩)),
    (1100, eqD (if !(⟨⟨(f (-200) (0)), (f (-1) (0))⟩, .com⟩ : DItv).isValid || (⟨⟨(f (-200) (0)), (f (-1) (0))⟩, .com⟩ : DItv).isNai || !(⟨⟨(f (1) (-1022)), (f 10 0)⟩, .com⟩ : DItv).isValid || (⟨⟨(f (1) (-1022)), (f 10 0)⟩, .com⟩ : DItv).isNai then DItv.nai else Fmt.convertHullD binary64 (Fmt.divD binary64 (Fmt.convertHullD binary64 (⟨⟨(f (-200) (0)), (f (-1) (0))⟩, .com⟩ : DItv)) (Fmt.convertHullD binary64 (⟨⟨(f (1) (-1022)), (f 10 0)⟩, .com⟩ : DItv)))) (⟨⟨.ninf, (f (-7205759403792793) (-56))⟩, .dac⟩)),
    (1101, eqD (if !(⟨⟨(f (-2) (0)), (f (-1) (0))⟩, .com⟩ : DItv).isValid || (⟨⟨(f (-2) (0)), (f (-1) (0))⟩, .com⟩ : DItv).isNai || !(⟨⟨(f 0 0), (f 10 0)⟩, .com⟩ : DItv).isValid || (⟨⟨(f 0 0), (f 10 0)⟩, .com⟩ : DItv).isNai then DItv.nai else Fmt.convertHullD binary64 (Fmt.divD binary64 (Fmt.convertHullD binary64 (⟨⟨(f (-2) (0)), (f (-1) (0))⟩, .com⟩ : DItv)) (Fmt.convertHullD binary64 (⟨⟨(f 0 0), (f 10 0)⟩, .com⟩ : DItv)))) (⟨⟨.ninf, (f (-7205759403792793) (-56))⟩, .trv⟩)),
    (1102, eqD (if !(⟨⟨(f 1 0), (f 3 0)⟩, .defd⟩ : DItv).isValid || (⟨⟨(f 1 0), (f 3 0)⟩, .defd⟩ : DItv).isNai || !(⟨⟨.ninf, (f (-10) (0))⟩, .dac⟩ : DItv).isValid || (⟨⟨.ninf, (f (-10) (0))⟩, .dac⟩ : DItv).isNai then DItv.nai else Fmt.convertHullD binary32 (Fmt.divD binary64 (Fmt.convertHullD binary64 (⟨⟨(f 1 0), (f 3 0)⟩, .defd⟩ : DItv)) (Fmt.convertHullD binary64 (⟨⟨.ninf, (f (-10) (0))⟩, .dac⟩ : DItv)))) (⟨⟨(f (-5033165) (-24)), (f 0 0)⟩, .defd⟩)),
    (1103, DItv.pred Itv.isEmpty (if !(⟨⟨(f 1 0), (f 2 0)⟩, .trv⟩ : DItv).isValid || (⟨⟨(f 1 0), (f 2 0)⟩, .trv⟩ : DItv).isNai || !(DItv.empty : DItv).isValid || (DItv.empty : DItv).isNai then DItv.nai else Fmt.convertHullD binary64 (Fmt.divD binary64 (Fmt.convertHullD binary64 (⟨⟨(f 1 0), (f 2 0)⟩, .trv⟩ : DItv)) (Fmt.convertHullD binary64 (DItv.empty : DItv))) : DItv)),
    (1104, DItv.isNai (if !(DItv.nai : DItv).isValid || (DItv.nai : DItv).isNai || !(⟨⟨(f 1 0), (f 2 0)⟩, .trv⟩ : DItv).isValid || (⟨⟨(f 1 0), (f 2 0)⟩, .trv⟩ : DItv).isNai then DItv.nai else Fmt.convertHullD binary32 (Fmt.divD binary64 (Fmt.convertHullD binary64 (DItv.nai : DItv)) (Fmt.convertHullD binary64 (⟨⟨(f 1 0), (f 2 0)⟩, .trv⟩ : DItv))) : DItv)),
    (1109, DItv.isNai (if !(⟨⟨(f 1 0), (f (-2) (0))⟩, .com⟩ : DItv).isValid || (⟨⟨(f 1 0), (f (-2) (0))⟩, .com⟩ : DItv).isNai || !(⟨⟨(f 5 0), (f 7 0)⟩, .com⟩ : DItv).isValid || (⟨⟨(f 5 0), (f 7 0)⟩, .com⟩ : DItv).isNai then DItv.nai else Fmt.convertHullD binary32 (Fmt.divD binary64 (Fmt.convertHullD binary64 (⟨⟨(f 1 0), (f (-2) (0))⟩, .com⟩ : DItv)) (Fmt.convertHullD binary64 (⟨⟨(f 5 0), (f 7 0)⟩, .com⟩ : DItv))) : DItv)),
    (1123, eqB (Fmt.recipI binary64 (⟨(f (-50) (0)), (f (-10) (0))⟩ : Itv)) (⟨(f (-3602879701896397) (-55)), (f (-2882303761517117) (-57))⟩)),
    (1124, eqB (Fmt.recipI binary64 (⟨(f 10 0), (f 50 0)⟩ : Itv)) (⟨(f (2882303761517117) (-57)), (f (3602879701896397) (-55))⟩)),
    (1125, eqB (Fmt.recipI binary64 (⟨.ninf, (f (-10) (0))⟩ : Itv)) (⟨(f (-3602879701896397) (-55)), (f 0 0)⟩)),
    (1126, eqB (Fmt.recipI binary64 (⟨(f 10 0), .pinf⟩ : Itv)) (⟨(f 0 0), (f (3602879701896397) (-55))⟩)),
    (1127, Itv.isEmpty (Fmt.recipI binary64 (⟨(f 0 0), (f 0 0)⟩ : Itv) : Itv)),
    (1128, Itv.isEmpty (Fmt.recipI binary64 (⟨.nzero, .nzero⟩ : Itv) : Itv)),
    (1129, eqB (Fmt.recipI binary64 (⟨(f (-10) (0)), (f 0 0)⟩ : Itv)) (⟨.ninf, (f (-7205759403792793) (-56))⟩)),
    (1130, eqB (Fmt.recipI binary64 (⟨(f (-10) (0)), .nzero⟩ : Itv)) (⟨.ninf, (f (-7205759403792793) (-56))⟩)),
    (1131, eqB (Fmt.recipI binary64 (⟨(f (-10) (0)), (f 10 0)⟩ : Itv)) (Itv.entire)),
    (1132, eqB (Fmt.recipI binary64 (⟨(f 0 0), (f 10 0)⟩ : Itv)) (⟨(f (7205759403792793) (-56)), .pinf⟩)),
    (1133, eqB (Fmt.recipI binary64 (⟨.nzero, (f 10 0)⟩ : Itv)) (⟨(f (7205759403792793) (-56)), .pinf⟩)),
    (1134, eqB (Fmt.recipI binary64 (⟨.ninf, (f 0 0)⟩ : Itv)) (⟨.ninf, (f 0 0)⟩)),
    (1135, eqB (Fmt.recipI binary64 (⟨.ninf, .nzero⟩ : Itv)) (⟨.ninf, (f 0 0)⟩)),
    (1136, eqB (Fmt.recipI binary64 (⟨.ninf, (f 10 0)⟩ : Itv)) (Itv.entire)),
    (1137, eqB (Fmt.recipI binary64 (⟨(f (-10) (0)), .pinf⟩ : Itv)) (Itv.entire)),
    (1138, eqB (Fmt.recipI binary64 (⟨(f 0 0), .pinf⟩ : Itv)) (⟨(f 0 0), .pinf⟩)),
    (1139, eqB (Fmt.recipI binary64 (⟨.nzero, .pinf⟩ : Itv)) (⟨(f 0 0), .pinf⟩)),
    (1140, eqB (Fmt.recipI binary64 (Itv.entire : Itv)) (Itv.entire)),
    (1145, Itv.isEmpty (Fmt.recipI binary64 (⟨(f 1 0), (f (-9007199254740991) (971))⟩ : Itv) : Itv)),
    (1157, eqB (if !(⟨(f (-50) (0)), (f (-10) (0))⟩ : Itv).isValid then Itv.empty else Fmt.convertHull binary32 (Fmt.recipI binary64 (Fmt.convertHull binary64 (⟨(f (-50) (0)), (f (-10) (0))⟩ : Itv)))) (⟨(f (-13421773) (-27)), (f (-5368709) (-28))⟩))] : List (ℕ × Bool)).all (·.2) = true := by
  decide +kernel

example : ([
    (1158, eqB (if !(⟨(f 10 0), (f 50 0)⟩ : Itv).isValid then Itv.empty else Fmt.convertHull binary64 (Fmt.recipI binary64 (Fmt.convertHull binary64 (⟨(f 10 0), (f 50 0)⟩ : Itv)))) (⟨(f (2882303761517117) (-57)), (f (3602879701896397) (-55))⟩)),
    (1159, eqB (if !(⟨.ninf, (f (-10) (0))⟩ : Itv).isValid then Itv.empty else Fmt.convertHull binary32 (Fmt.recipI binary64 (Fmt.convertHull binary64 (⟨.ninf, (f (-10) (0))⟩ : Itv)))) (⟨(f (-13421773) (-27)), (f 0 0)⟩)),
    (1164, Itv.isEmpty (if !(⟨(f 1 0), (f (-9007199254740991) (971))⟩ : Itv).isValid then Itv.empty else Fmt.convertHull binary32 (Fmt.recipI binary64 (Fmt.convertHull binary64 (⟨(f 1 0), (f (-9007199254740991) (971))⟩ : Itv))) : Itv)),
    (1176, eqD (Fmt.recipD binary64 (⟨⟨(f 10 0), (f 50 0)⟩, .com⟩ : DItv)) (⟨⟨(f (2882303761517117) (-57)), (f (3602879701896397) (-55))⟩, .com⟩)),
    (1177, eqD (Fmt.recipD binary64 (⟨⟨.ninf, (f (-10) (0))⟩, .dac⟩ : DItv)) (⟨⟨(f (-3602879701896397) (-55)), (f 0 0)⟩, .dac⟩)),
    (1178, eqD (Fmt.recipD binary64 (⟨⟨(f (-9007199254740991) (971)), (f (-1) (-1022))⟩, .defd⟩ : DItv)) (⟨⟨(f (-1048576) (1002)), (f (-1) (-1024))⟩, .defd⟩)),
    (1179, DItv.pred Itv.isEmpty (Fmt.recipD binary64 (⟨⟨(f 0 0), (f 0 0)⟩, .com⟩ : DItv) : DItv)),
    (1180, eqD (Fmt.recipD binary64 (⟨⟨(f (-10) (0)), (f 0 0)⟩, .com⟩ : DItv)) (⟨⟨.ninf, (f (-7205759403792793) (-56))⟩, .trv⟩)),
    (1181, eqD (Fmt.recipD binary64 (⟨⟨(f (-10) (0)), .pinf⟩, .dac⟩ : DItv)) (⟨⟨.ninf, .pinf⟩, .trv⟩)),
    (1182, eqD (Fmt.recipD binary64 (⟨⟨.nzero, .pinf⟩, .dac⟩ : DItv)) (⟨⟨(f 0 0), .pinf⟩, .trv⟩)),
    (1183, eqD (Fmt.recipD binary64 (DItv.entire : DItv)) (⟨⟨.ninf, .pinf⟩, .trv⟩)),
    (1188, DItv.isNai (Fmt.recipD binary64 (⟨⟨(f 1 0), (f (-9007199254740991) (971))⟩, .com⟩ : DItv) : DItv)),
    (1200, eqD (if !(⟨⟨(f 10 0), (f 50 0)⟩, .com⟩ : DItv).isValid || (⟨⟨(f 10 0), (f 50 0)⟩, .com⟩ : DItv).isNai then DItv.nai else Fmt.convertHullD binary64 (Fmt.recipD binary64 (Fmt.convertHullD binary64 (⟨⟨(f 10 0), (f 50 0)⟩, .com⟩ : DItv)))) (⟨⟨(f (2882303761517117) (-57)), (f (3602879701896397) (-55))⟩, .com⟩)),
    (1201, eqD (if !(⟨⟨.ninf, (f (-10) (0))⟩, .dac⟩ : DItv).isValid || (⟨⟨.ninf, (f (-10) (0))⟩, .dac⟩ : DItv).isNai then DItv.nai else Fmt.convertHullD binary64 (Fmt.recipD binary64 (Fmt.convertHullD binary64 (⟨⟨.ninf, (f (-10) (0))⟩, .dac⟩ : DItv)))) (⟨⟨(f (-3602879701896397) (-55)), (f 0 0)⟩, .dac⟩)),
    (1202, eqD (if !(⟨⟨(f (-9007199254740991) (971)), (f (-1) (-1022))⟩, .com⟩ : DItv).isValid || (⟨⟨(f (-9007199254740991) (971)), (f (-1) (-1022))⟩, .com⟩ : DItv).isNai then DItv.nai else Fmt.convertHullD binary32 (Fmt.recipD binary64 (Fmt.convertHullD binary64 (⟨⟨(f (-9007199254740991) (971)), (f (-1) (-1022))⟩, .com⟩ : DItv)))) (⟨⟨.ninf, (f 0 0)⟩, .dac⟩)),
    (1208, DItv.isNai (if !(⟨⟨(f 1 0), (f (-9007199254740991) (971))⟩, .com⟩ : DItv).isValid || (⟨⟨(f 1 0), (f (-9007199254740991) (971))⟩, .com⟩ : DItv).isNai then DItv.nai else Fmt.convertHullD binary32 (Fmt.recipD binary64 (Fmt.convertHullD binary64 (⟨⟨(f 1 0), (f (-9007199254740991) (971))⟩, .com⟩ : DItv))) : DItv)),
    (1223, Itv.isEmpty (Fmt.sqrI binary64 (Itv.empty : Itv) : Itv)),
    (1224, eqB (Fmt.sqrI binary64 (Itv.entire : Itv)) (⟨(f 0 0), .pinf⟩)),
    (1225, eqB (Fmt.sqrI binary64 (⟨.ninf, (f (-1) (-1022))⟩ : Itv)) (⟨(f 0 0), .pinf⟩)),
    (1226, eqB (Fmt.sqrI binary64 (⟨(f (-1) (0)), (f 1 0)⟩ : Itv)) (⟨(f 0 0), (f 1 0)⟩)),
    (1227, eqB (Fmt.sqrI binary64 (⟨(f 0 0), (f 1 0)⟩ : Itv)) (⟨(f 0 0), (f 1 0)⟩)),
    (1228, eqB (Fmt.sqrI binary64 (⟨.nzero, (f 1 0)⟩ : Itv)) (⟨(f 0 0), (f 1 0)⟩)),
    (1229, eqB (Fmt.sqrI binary64 (⟨(f (-5) (0)), (f 3 0)⟩ : Itv)) (⟨(f 0 0), (f 25 0)⟩)),
    (1230, eqB (Fmt.sqrI binary64 (⟨(f (-5) (0)), (f 0 0)⟩ : Itv)) (⟨(f 0 0), (f 25 0)⟩)),
    (1231, eqB (Fmt.sqrI binary64 (⟨(f (-5) (0)), .nzero⟩ : Itv)) (⟨(f 0 0), (f 25 0)⟩)),
    (1232, eqB (Fmt.sqrI binary64 (⟨(f (3602879701896397) (-55)), (f (3602879701896397) (-55))⟩ : Itv)) (⟨(f (5764607523034235) (-59)), (f (1441151880758559) (-57))⟩)),
    (1233, eqB (Fmt.sqrI binary64 (⟨(f (-562949953421311) (-48)), (f (3602879701896397) (-55))⟩ : Itv)) (⟨(f 0 0), (f (9007199254740961) (-51))⟩)),
    (1234, eqB (Fmt.sqrI binary64 (⟨(f (-562949953421311) (-48)), (f (-562949953421311) (-48))⟩ : Itv)) (⟨(f (281474976710655) (-46)), (f (9007199254740961) (-51))⟩)),
    (1240, Itv.isEmpty (Fmt.sqrI binary64 (⟨(f 1 0), (f (-9007199254740991) (971))⟩ : Itv) : Itv)),
    (1252, eqB (if !(⟨.ninf, (f (-1) (-126))⟩ : Itv).isValid then Itv.empty else Fmt.convertHull binary64 (Fmt.sqrI binary64 (Fmt.convertHull binary64 (⟨.ninf, (f (-1) (-126))⟩ : Itv)))) (⟨(f (1) (-252)), .pinf⟩)),
    (1253, eqB (if !(⟨(f (-1) (0)), (f 1 0)⟩ : Itv).isValid then Itv.empty else Fmt.convertHull binary64 (Fmt.sqrI binary64 (Fmt.convertHull binary64 (⟨(f (-1) (0)), (f 1 0)⟩ : Itv)))) (⟨(f 0 0), (f 1 0)⟩)),
    (1254, eqB (if !(⟨(f (-562949953421311) (-48)), (f (3602879701896397) (-55))⟩ : Itv).isValid then Itv.empty else Fmt.convertHull binary32 (Fmt.sqrI binary64 (Fmt.convertHull binary64 (⟨(f (-562949953421311) (-48)), (f (3602879701896397) (-55))⟩ : Itv)))) (⟨(f 0 0), (f 4 0)⟩)),
    (1259, Itv.isEmpty (if !(⟨(f 1 0), (f (-9007199254740991) (971))⟩ : Itv).isValid then Itv.empty else Fmt.convertHull binary32 (Fmt.sqrI binary64 (Fmt.convertHull binary64 (⟨(f 1 0), (f (-9007199254740991) (971))⟩ : Itv))) : Itv)),
    (1271, eqD (Fmt.sqrD binary64 (⟨⟨(f (-9007199254740991) (971)), (f (-1) (-1022))⟩, .com⟩ : DItv)) (⟨⟨(f 0 0), .pinf⟩, .dac⟩)),
    (1272, eqD (Fmt.sqrD binary64 (⟨⟨(f (-1) (0)), (f 1 0)⟩, .defd⟩ : DItv)) (⟨⟨(f 0 0), (f 1 0)⟩, .defd⟩)),
    (1273, eqD (Fmt.sqrD binary64 (⟨⟨(f (-5) (0)), (f 3 0)⟩, .com⟩ : DItv)) (⟨⟨(f 0 0), (f 25 0)⟩, .com⟩)),
    (1274, eqD (Fmt.sqrD binary64 (⟨⟨(f (3602879701896397) (-55)), (f (3602879701896397) (-55))⟩, .com⟩ : DItv)) (⟨⟨(f (5764607523034235) (-59)), (f (1441151880758559) (-57))⟩, .com⟩)),
    (1280, DItv.isNai (Fmt.sqrD binary64 (⟨⟨(f 1 0), (f (-9007199254740991) (971))⟩, .com⟩ : DItv) : DItv)),
    (1292, eqD (if !(⟨⟨(f (-16777215) (104)), (f (-1) (-126))⟩, .com⟩ : DItv).isValid || (⟨⟨(f (-16777215) (104)), (f (-1) (-126))⟩, .com⟩ : DItv).isNai then DItv.nai else Fmt.convertHullD binary64 (Fmt.sqrD binary64 (Fmt.convertHullD binary64 (⟨⟨(f (-16777215) (104)), (f (-1) (-126))⟩, .com⟩ : DItv)))) (⟨⟨(f (1) (-252)), (f 281474943156225 208)⟩, .com⟩)),
    (1293, eqD (if !(⟨⟨(f (-562949953421311) (-48)), (f (3602879701896397) (-55))⟩, .com⟩ : DItv).isValid || (⟨⟨(f (-562949953421311) (-48)), (f (3602879701896397) (-55))⟩, .com⟩ : DItv).isNai then DItv.nai else Fmt.convertHullD binary32 (Fmt.sqrD binary64 (Fmt.convertHullD binary64 (⟨⟨(f (-562949953421311) (-48)), (f (3602879701896397) (-55))⟩, .com⟩ : DItv)))) (⟨⟨(f 0 0), (f 4 0)⟩, .com⟩)),
    (1294, eqD (if !(⟨⟨(f (-9007199254740991) (971)), (f (-1) (-1022))⟩, .com⟩ : DItv).isValid || (⟨⟨(f (-9007199254740991) (971)), (f (-1) (-1022))⟩, .com⟩ : DItv).isNai then DItv.nai else Fmt.convertHullD binary32 (Fmt.sqrD binary64 (Fmt.convertHullD binary64 (⟨⟨(f (-9007199254740991) (971)), (f (-1) (-1022))⟩, .com⟩ : DItv)))) (⟨⟨(f 0 0), .pinf⟩, .dac⟩)),
    (1300, DItv.isNai (if !(⟨⟨(f 1 0), (f (-9007199254740991) (971))⟩, .com⟩ : DItv).isValid || (⟨⟨(f 1 0), (f (-9007199254740991) (971))⟩, .com⟩ : DItv).isNai then DItv.nai else Fmt.convertHullD binary32 (Fmt.sqrD binary64 (Fmt.convertHullD binary64 (⟨⟨(f 1 0), (f (-9007199254740991) (971))⟩, .com⟩ : DItv))) : DItv)),
    (1405, Itv.isEmpty (Fmt.fmaI binary64 (Itv.empty : Itv) (Itv.empty : Itv) (Itv.empty : Itv) : Itv)),
    (1406, Itv.isEmpty (Fmt.fmaI binary64 (⟨(f (-1) (0)), (f 1 0)⟩ : Itv) (Itv.empty : Itv) (Itv.empty : Itv) : Itv)),
    (1407, Itv.isEmpty (Fmt.fmaI binary64 (Itv.empty : Itv) (⟨(f (-1) (0)), (f 1 0)⟩ : Itv) (Itv.empty : Itv) : Itv)),
    (1408, Itv.isEmpty (Fmt.fmaI binary64 (Itv.empty : Itv) (Itv.entire : Itv) (Itv.empty : Itv) : Itv)),
    (1409, Itv.isEmpty (Fmt.fmaI binary64 (Itv.entire : Itv) (Itv.empty : Itv) (Itv.empty : Itv) : Itv)),
    (1410, Itv.isEmpty (Fmt.fmaI binary64 (⟨(f 0 0), (f 0 0)⟩ : Itv) (Itv.empty : Itv) (Itv.empty : Itv) : Itv)),
    (1411, Itv.isEmpty (Fmt.fmaI binary64 (⟨.nzero, .nzero⟩ : Itv) (Itv.empty : Itv) (Itv.empty : Itv) : Itv)),
    (1412, Itv.isEmpty (Fmt.fmaI binary64 (Itv.empty : Itv) (⟨(f 0 0), (f 0 0)⟩ : Itv) (Itv.empty : Itv) : Itv))] : List (ℕ × Bool)).all (·.2) = true := by
  decide +kernel

example : ([
    (1413, Itv.isEmpty (Fmt.fmaI binary64 (Itv.empty : Itv) (⟨.nzero, .nzero⟩ : Itv) (Itv.empty : Itv) : Itv)),
    (1415, Itv.isEmpty (Fmt.fmaI binary64 (Itv.entire : Itv) (⟨(f 0 0), (f 0 0)⟩ : Itv) (Itv.empty : Itv) : Itv)),
    (1416, Itv.isEmpty (Fmt.fmaI binary64 (Itv.entire : Itv) (⟨.nzero, .nzero⟩ : Itv) (Itv.empty : Itv) : Itv)),
    (1417, Itv.isEmpty (Fmt.fmaI binary64 (Itv.entire : Itv) (⟨(f (-5) (0)), (f (-1) (0))⟩ : Itv) (Itv.empty : Itv) : Itv)),
    (1418, Itv.isEmpty (Fmt.fmaI binary64 (Itv.entire : Itv) (⟨(f (-5) (0)), (f 3 0)⟩ : Itv) (Itv.empty : Itv) : Itv)),
    (1419, Itv.isEmpty (Fmt.fmaI binary64 (Itv.entire : Itv) (⟨(f 1 0), (f 3 0)⟩ : Itv) (Itv.empty : Itv) : Itv)),
    (1420, Itv.isEmpty (Fmt.fmaI binary64 (Itv.entire : Itv) (⟨.ninf, (f (-1) (0))⟩ : Itv) (Itv.empty : Itv) : Itv)),
    (1421, Itv.isEmpty (Fmt.fmaI binary64 (Itv.entire : Itv) (⟨.ninf, (f 3 0)⟩ : Itv) (Itv.empty : Itv) : Itv)),
    (1422, Itv.isEmpty (Fmt.fmaI binary64 (Itv.entire : Itv) (⟨(f (-5) (0)), .pinf⟩ : Itv) (Itv.empty : Itv) : Itv)),
    (1423, Itv.isEmpty (Fmt.fmaI binary64 (Itv.entire : Itv) (⟨(f 1 0), .pinf⟩ : Itv) (Itv.empty : Itv) : Itv)),
    (1424, Itv.isEmpty (Fmt.fmaI binary64 (Itv.entire : Itv) (Itv.entire : Itv) (Itv.empty : Itv) : Itv)),
    (1426, Itv.isEmpty (Fmt.fmaI binary64 (⟨(f 1 0), .pinf⟩ : Itv) (⟨(f 0 0), (f 0 0)⟩ : Itv) (Itv.empty : Itv) : Itv)),
    (1427, Itv.isEmpty (Fmt.fmaI binary64 (⟨(f 1 0), .pinf⟩ : Itv) (⟨.nzero, .nzero⟩ : Itv) (Itv.empty : Itv) : Itv)),
    (1428, Itv.isEmpty (Fmt.fmaI binary64 (⟨(f 1 0), .pinf⟩ : Itv) (⟨(f (-5) (0)), (f (-1) (0))⟩ : Itv) (Itv.empty : Itv) : Itv)),
    (1429, Itv.isEmpty (Fmt.fmaI binary64 (⟨(f 1 0), .pinf⟩ : Itv) (⟨(f (-5) (0)), (f 3 0)⟩ : Itv) (Itv.empty : Itv) : Itv)),
    (1430, Itv.isEmpty (Fmt.fmaI binary64 (⟨(f 1 0), .pinf⟩ : Itv) (⟨(f 1 0), (f 3 0)⟩ : Itv) (Itv.empty : Itv) : Itv)),
    (1431, Itv.isEmpty (Fmt.fmaI binary64 (⟨(f 1 0), .pinf⟩ : Itv) (⟨.ninf, (f (-1) (0))⟩ : Itv) (Itv.empty : Itv) : Itv)),
    (1432, Itv.isEmpty (Fmt.fmaI binary64 (⟨(f 1 0), .pinf⟩ : Itv) (⟨.ninf, (f 3 0)⟩ : Itv) (Itv.empty : Itv) : Itv)),
    (1433, Itv.isEmpty (Fmt.fmaI binary64 (⟨(f 1 0), .pinf⟩ : Itv) (⟨(f (-5) (0)), .pinf⟩ : Itv) (Itv.empty : Itv) : Itv)),
    (1434, Itv.isEmpty (Fmt.fmaI binary64 (⟨(f 1 0), .pinf⟩ : Itv) (⟨(f 1 0), .pinf⟩ : Itv) (Itv.empty : Itv) : Itv)),
    (1435, Itv.isEmpty (Fmt.fmaI binary64 (⟨(f 1 0), .pinf⟩ : Itv) (Itv.entire : Itv) (Itv.empty : Itv) : Itv)),
    (1437, Itv.isEmpty (Fmt.fmaI binary64 (⟨(f (-1) (0)), .pinf⟩ : Itv) (⟨(f 0 0), (f 0 0)⟩ : Itv) (Itv.empty : Itv) : Itv)),
    (1438, Itv.isEmpty (Fmt.fmaI binary64 (⟨(f (-1) (0)), .pinf⟩ : Itv) (⟨.nzero, .nzero⟩ : Itv) (Itv.empty : Itv) : Itv)),
    (1439, Itv.isEmpty (Fmt.fmaI binary64 (⟨(f (-1) (0)), .pinf⟩ : Itv) (⟨(f (-5) (0)), (f (-1) (0))⟩ : Itv) (Itv.empty : Itv) : Itv)),
    (1440, Itv.isEmpty (Fmt.fmaI binary64 (⟨(f (-1) (0)), .pinf⟩ : Itv) (⟨(f (-5) (0)), (f 3 0)⟩ : Itv) (Itv.empty : Itv) : Itv)),
    (1441, Itv.isEmpty (Fmt.fmaI binary64 (⟨(f (-1) (0)), .pinf⟩ : Itv) (⟨(f 1 0), (f 3 0)⟩ : Itv) (Itv.empty : Itv) : Itv)),
    (1442, Itv.isEmpty (Fmt.fmaI binary64 (⟨(f (-1) (0)), .pinf⟩ : Itv) (⟨.ninf, (f (-1) (0))⟩ : Itv) (Itv.empty : Itv) : Itv)),
    (1443, Itv.isEmpty (Fmt.fmaI binary64 (⟨(f (-1) (0)), .pinf⟩ : Itv) (⟨.ninf, (f 3 0)⟩ : Itv) (Itv.empty : Itv) : Itv)),
    (1444, Itv.isEmpty (Fmt.fmaI binary64 (⟨(f (-1) (0)), .pinf⟩ : Itv) (⟨(f (-5) (0)), .pinf⟩ : Itv) (Itv.empty : Itv) : Itv)),
    (1445, Itv.isEmpty (Fmt.fmaI binary64 (⟨(f (-1) (0)), .pinf⟩ : Itv) (⟨(f 1 0), .pinf⟩ : Itv) (Itv.empty : Itv) : Itv)),
    (1446, Itv.isEmpty (Fmt.fmaI binary64 (⟨(f (-1) (0)), .pinf⟩ : Itv) (Itv.entire : Itv) (Itv.empty : Itv) : Itv)),
    (1448, Itv.isEmpty (Fmt.fmaI binary64 (⟨.ninf, (f 3 0)⟩ : Itv) (⟨(f 0 0), (f 0 0)⟩ : Itv) (Itv.empty : Itv) : Itv)),
    (1449, Itv.isEmpty (Fmt.fmaI binary64 (⟨.ninf, (f 3 0)⟩ : Itv) (⟨.nzero, .nzero⟩ : Itv) (Itv.empty : Itv) : Itv)),
    (1450, Itv.isEmpty (Fmt.fmaI binary64 (⟨.ninf, (f 3 0)⟩ : Itv) (⟨(f (-5) (0)), (f (-1) (0))⟩ : Itv) (Itv.empty : Itv) : Itv)),
    (1451, Itv.isEmpty (Fmt.fmaI binary64 (⟨.ninf, (f 3 0)⟩ : Itv) (⟨(f (-5) (0)), (f 3 0)⟩ : Itv) (Itv.empty : Itv) : Itv)),
    (1452, Itv.isEmpty (Fmt.fmaI binary64 (⟨.ninf, (f 3 0)⟩ : Itv) (⟨(f 1 0), (f 3 0)⟩ : Itv) (Itv.empty : Itv) : Itv)),
    (1453, Itv.isEmpty (Fmt.fmaI binary64 (⟨.ninf, (f 3 0)⟩ : Itv) (⟨.ninf, (f (-1) (0))⟩ : Itv) (Itv.empty : Itv) : Itv)),
    (1454, Itv.isEmpty (Fmt.fmaI binary64 (⟨.ninf, (f 3 0)⟩ : Itv) (⟨.ninf, (f 3 0)⟩ : Itv) (Itv.empty : Itv) : Itv)),
    (1455, Itv.isEmpty (Fmt.fmaI binary64 (⟨.ninf, (f 3 0)⟩ : Itv) (⟨(f (-5) (0)), .pinf⟩ : Itv) (Itv.empty : Itv) : Itv)),
    (1456, Itv.isEmpty (Fmt.fmaI binary64 (⟨.ninf, (f 3 0)⟩ : Itv) (⟨(f 1 0), .pinf⟩ : Itv) (Itv.empty : Itv) : Itv)),
    (1457, Itv.isEmpty (Fmt.fmaI binary64 (⟨.ninf, (f 3 0)⟩ : Itv) (Itv.entire : Itv) (Itv.empty : Itv) : Itv)),
    (1459, Itv.isEmpty (Fmt.fmaI binary64 (⟨.ninf, (f (-3) (0))⟩ : Itv) (⟨(f 0 0), (f 0 0)⟩ : Itv) (Itv.empty : Itv) : Itv)),
    (1460, Itv.isEmpty (Fmt.fmaI binary64 (⟨.ninf, (f (-3) (0))⟩ : Itv) (⟨.nzero, .nzero⟩ : Itv) (Itv.empty : Itv) : Itv)),
    (1461, Itv.isEmpty (Fmt.fmaI binary64 (⟨.ninf, (f (-3) (0))⟩ : Itv) (⟨(f (-5) (0)), (f (-1) (0))⟩ : Itv) (Itv.empty : Itv) : Itv)),
    (1462, Itv.isEmpty (Fmt.fmaI binary64 (⟨.ninf, (f (-3) (0))⟩ : Itv) (⟨(f (-5) (0)), (f 3 0)⟩ : Itv) (Itv.empty : Itv) : Itv)),
    (1463, Itv.isEmpty (Fmt.fmaI binary64 (⟨.ninf, (f (-3) (0))⟩ : Itv) (⟨(f 1 0), (f 3 0)⟩ : Itv) (Itv.empty : Itv) : Itv)),
    (1464, Itv.isEmpty (Fmt.fmaI binary64 (⟨.ninf, (f (-3) (0))⟩ : Itv) (⟨.ninf, (f (-1) (0))⟩ : Itv) (Itv.empty : Itv) : Itv)),
    (1465, Itv.isEmpty (Fmt.fmaI binary64 (⟨.ninf, (f (-3) (0))⟩ : Itv) (⟨.ninf, (f 3 0)⟩ : Itv) (Itv.empty : Itv) : Itv)),
    (1466, Itv.isEmpty (Fmt.fmaI binary64 (⟨.ninf, (f (-3) (0))⟩ : Itv) (⟨(f (-5) (0)), .pinf⟩ : Itv) (Itv.empty : Itv) : Itv)),
    (1467, Itv.isEmpty (Fmt.fmaI binary64 (⟨.ninf, (f (-3) (0))⟩ : Itv) (⟨(f 1 0), .pinf⟩ : Itv) (Itv.empty : Itv) : Itv))] : List (ℕ × Bool)).all (·.2) = true := by
  decide +kernel

example : ([
    (1468, Itv.isEmpty (Fmt.fmaI binary64 (⟨.ninf, (f (-3) (0))⟩ : Itv) (Itv.entire : Itv) (Itv.empty : Itv) : Itv)),
    (1470, Itv.isEmpty (Fmt.fmaI binary64 (⟨(f 0 0), (f 0 0)⟩ : Itv) (⟨(f 0 0), (f 0 0)⟩ : Itv) (Itv.empty : Itv) : Itv)),
    (1471, Itv.isEmpty (Fmt.fmaI binary64 (⟨(f 0 0), (f 0 0)⟩ : Itv) (⟨.nzero, .nzero⟩ : Itv) (Itv.empty : Itv) : Itv)),
    (1472, Itv.isEmpty (Fmt.fmaI binary64 (⟨(f 0 0), (f 0 0)⟩ : Itv) (⟨(f (-5) (0)), (f (-1) (0))⟩ : Itv) (Itv.empty : Itv) : Itv)),
    (1473, Itv.isEmpty (Fmt.fmaI binary64 (⟨(f 0 0), (f 0 0)⟩ : Itv) (⟨(f (-5) (0)), (f 3 0)⟩ : Itv) (Itv.empty : Itv) : Itv)),
    (1474, Itv.isEmpty (Fmt.fmaI binary64 (⟨(f 0 0), (f 0 0)⟩ : Itv) (⟨(f 1 0), (f 3 0)⟩ : Itv) (Itv.empty : Itv) : Itv)),
    (1475, Itv.isEmpty (Fmt.fmaI binary64 (⟨(f 0 0), (f 0 0)⟩ : Itv) (⟨.ninf, (f (-1) (0))⟩ : Itv) (Itv.empty : Itv) : Itv)),
    (1476, Itv.isEmpty (Fmt.fmaI binary64 (⟨(f 0 0), (f 0 0)⟩ : Itv) (⟨.ninf, (f 3 0)⟩ : Itv) (Itv.empty : Itv) : Itv)),
    (1477, Itv.isEmpty (Fmt.fmaI binary64 (⟨(f 0 0), (f 0 0)⟩ : Itv) (⟨(f (-5) (0)), .pinf⟩ : Itv) (Itv.empty : Itv) : Itv)),
    (1478, Itv.isEmpty (Fmt.fmaI binary64 (⟨(f 0 0), (f 0 0)⟩ : Itv) (⟨(f 1 0), .pinf⟩ : Itv) (Itv.empty : Itv) : Itv)),
    (1479, Itv.isEmpty (Fmt.fmaI binary64 (⟨(f 0 0), (f 0 0)⟩ : Itv) (Itv.entire : Itv) (Itv.empty : Itv) : Itv)),
    (1481, Itv.isEmpty (Fmt.fmaI binary64 (⟨.nzero, .nzero⟩ : Itv) (⟨(f 0 0), (f 0 0)⟩ : Itv) (Itv.empty : Itv) : Itv)),
    (1482, Itv.isEmpty (Fmt.fmaI binary64 (⟨.nzero, .nzero⟩ : Itv) (⟨.nzero, .nzero⟩ : Itv) (Itv.empty : Itv) : Itv)),
    (1483, Itv.isEmpty (Fmt.fmaI binary64 (⟨.nzero, .nzero⟩ : Itv) (⟨(f (-5) (0)), (f (-1) (0))⟩ : Itv) (Itv.empty : Itv) : Itv)),
    (1484, Itv.isEmpty (Fmt.fmaI binary64 (⟨.nzero, .nzero⟩ : Itv) (⟨(f (-5) (0)), (f 3 0)⟩ : Itv) (Itv.empty : Itv) : Itv)),
    (1485, Itv.isEmpty (Fmt.fmaI binary64 (⟨.nzero, .nzero⟩ : Itv) (⟨(f 1 0), (f 3 0)⟩ : Itv) (Itv.empty : Itv) : Itv)),
    (1486, Itv.isEmpty (Fmt.fmaI binary64 (⟨.nzero, .nzero⟩ : Itv) (⟨.ninf, (f (-1) (0))⟩ : Itv) (Itv.empty : Itv) : Itv)),
    (1487, Itv.isEmpty (Fmt.fmaI binary64 (⟨.nzero, .nzero⟩ : Itv) (⟨.ninf, (f 3 0)⟩ : Itv) (Itv.empty : Itv) : Itv)),
    (1488, Itv.isEmpty (Fmt.fmaI binary64 (⟨.nzero, .nzero⟩ : Itv) (⟨(f (-5) (0)), .pinf⟩ : Itv) (Itv.empty : Itv) : Itv)),
    (1489, Itv.isEmpty (Fmt.fmaI binary64 (⟨.nzero, .nzero⟩ : Itv) (⟨(f 1 0), .pinf⟩ : Itv) (Itv.empty : Itv) : Itv)),
    (1490, Itv.isEmpty (Fmt.fmaI binary64 (⟨.nzero, .nzero⟩ : Itv) (Itv.entire : Itv) (Itv.empty : Itv) : Itv)),
    (1492, Itv.isEmpty (Fmt.fmaI binary64 (⟨(f 1 0), (f 5 0)⟩ : Itv) (⟨(f 0 0), (f 0 0)⟩ : Itv) (Itv.empty : Itv) : Itv)),
    (1493, Itv.isEmpty (Fmt.fmaI binary64 (⟨(f 1 0), (f 5 0)⟩ : Itv) (⟨.nzero, .nzero⟩ : Itv) (Itv.empty : Itv) : Itv)),
    (1494, Itv.isEmpty (Fmt.fmaI binary64 (⟨(f 1 0), (f 5 0)⟩ : Itv) (⟨(f (-5) (0)), (f (-1) (0))⟩ : Itv) (Itv.empty : Itv) : Itv)),
    (1495, Itv.isEmpty (Fmt.fmaI binary64 (⟨(f 1 0), (f 5 0)⟩ : Itv) (⟨(f (-5) (0)), (f 3 0)⟩ : Itv) (Itv.empty : Itv) : Itv)),
    (1496, Itv.isEmpty (Fmt.fmaI binary64 (⟨(f 1 0), (f 5 0)⟩ : Itv) (⟨(f 1 0), (f 3 0)⟩ : Itv) (Itv.empty : Itv) : Itv)),
    (1497, Itv.isEmpty (Fmt.fmaI binary64 (⟨(f 1 0), (f 5 0)⟩ : Itv) (⟨.ninf, (f (-1) (0))⟩ : Itv) (Itv.empty : Itv) : Itv)),
    (1498, Itv.isEmpty (Fmt.fmaI binary64 (⟨(f 1 0), (f 5 0)⟩ : Itv) (⟨.ninf, (f 3 0)⟩ : Itv) (Itv.empty : Itv) : Itv)),
    (1499, Itv.isEmpty (Fmt.fmaI binary64 (⟨(f 1 0), (f 5 0)⟩ : Itv) (⟨(f (-5) (0)), .pinf⟩ : Itv) (Itv.empty : Itv) : Itv)),
    (1500, Itv.isEmpty (Fmt.fmaI binary64 (⟨(f 1 0), (f 5 0)⟩ : Itv) (⟨(f 1 0), .pinf⟩ : Itv) (Itv.empty : Itv) : Itv)),
    (1501, Itv.isEmpty (Fmt.fmaI binary64 (⟨(f 1 0), (f 5 0)⟩ : Itv) (Itv.entire : Itv) (Itv.empty : Itv) : Itv)),
    (1503, Itv.isEmpty (Fmt.fmaI binary64 (⟨(f (-1) (0)), (f 5 0)⟩ : Itv) (⟨(f 0 0), (f 0 0)⟩ : Itv) (Itv.empty : Itv) : Itv)),
    (1504, Itv.isEmpty (Fmt.fmaI binary64 (⟨(f (-1) (0)), (f 5 0)⟩ : Itv) (⟨.nzero, .nzero⟩ : Itv) (Itv.empty : Itv) : Itv)),
    (1505, Itv.isEmpty (Fmt.fmaI binary64 (⟨(f (-1) (0)), (f 5 0)⟩ : Itv) (⟨(f (-5) (0)), (f (-1) (0))⟩ : Itv) (Itv.empty : Itv) : Itv)),
    (1507, Itv.isEmpty (Fmt.fmaI binary64 (⟨(f (-1) (0)), (f 5 0)⟩ : Itv) (⟨(f (-5) (0)), (f 3 0)⟩ : Itv) (Itv.empty : Itv) : Itv)),
    (1508, Itv.isEmpty (Fmt.fmaI binary64 (⟨(f (-10) (0)), (f 2 0)⟩ : Itv) (⟨(f (-5) (0)), (f 3 0)⟩ : Itv) (Itv.empty : Itv) : Itv)),
    (1509, Itv.isEmpty (Fmt.fmaI binary64 (⟨(f (-1) (0)), (f 5 0)⟩ : Itv) (⟨(f (-1) (0)), (f 10 0)⟩ : Itv) (Itv.empty : Itv) : Itv)),
    (1510, Itv.isEmpty (Fmt.fmaI binary64 (⟨(f (-2) (0)), (f 2 0)⟩ : Itv) (⟨(f (-5) (0)), (f 3 0)⟩ : Itv) (Itv.empty : Itv) : Itv)),
    (1512, Itv.isEmpty (Fmt.fmaI binary64 (⟨(f (-1) (0)), (f 5 0)⟩ : Itv) (⟨(f 1 0), (f 3 0)⟩ : Itv) (Itv.empty : Itv) : Itv)),
    (1513, Itv.isEmpty (Fmt.fmaI binary64 (⟨(f (-1) (0)), (f 5 0)⟩ : Itv) (⟨.ninf, (f (-1) (0))⟩ : Itv) (Itv.empty : Itv) : Itv)),
    (1514, Itv.isEmpty (Fmt.fmaI binary64 (⟨(f (-1) (0)), (f 5 0)⟩ : Itv) (⟨.ninf, (f 3 0)⟩ : Itv) (Itv.empty : Itv) : Itv)),
    (1515, Itv.isEmpty (Fmt.fmaI binary64 (⟨(f (-1) (0)), (f 5 0)⟩ : Itv) (⟨(f (-5) (0)), .pinf⟩ : Itv) (Itv.empty : Itv) : Itv)),
    (1516, Itv.isEmpty (Fmt.fmaI binary64 (⟨(f (-1) (0)), (f 5 0)⟩ : Itv) (⟨(f 1 0), .pinf⟩ : Itv) (Itv.empty : Itv) : Itv)),
    (1517, Itv.isEmpty (Fmt.fmaI binary64 (⟨(f (-1) (0)), (f 5 0)⟩ : Itv) (Itv.entire : Itv) (Itv.empty : Itv) : Itv)),
    (1519, Itv.isEmpty (Fmt.fmaI binary64 (⟨(f (-10) (0)), (f (-5) (0))⟩ : Itv) (⟨(f 0 0), (f 0 0)⟩ : Itv) (Itv.empty : Itv) : Itv)),
    (1520, Itv.isEmpty (Fmt.fmaI binary64 (⟨(f (-10) (0)), (f (-5) (0))⟩ : Itv) (⟨.nzero, .nzero⟩ : Itv) (Itv.empty : Itv) : Itv)),
    (1521, Itv.isEmpty (Fmt.fmaI binary64 (⟨(f (-10) (0)), (f (-5) (0))⟩ : Itv) (⟨(f (-5) (0)), (f (-1) (0))⟩ : Itv) (Itv.empty : Itv) : Itv)),
    (1522, Itv.isEmpty (Fmt.fmaI binary64 (⟨(f (-10) (0)), (f (-5) (0))⟩ : Itv) (⟨(f (-5) (0)), (f 3 0)⟩ : Itv) (Itv.empty : Itv) : Itv)),
    (1523, Itv.isEmpty (Fmt.fmaI binary64 (⟨(f (-10) (0)), (f (-5) (0))⟩ : Itv) (⟨(f 1 0), (f 3 0)⟩ : Itv) (Itv.empty : Itv) : Itv)),
    (1524, Itv.isEmpty (Fmt.fmaI binary64 (⟨(f (-10) (0)), (f (-5) (0))⟩ : Itv) (⟨.ninf, (f (-1) (0))⟩ : Itv) (Itv.empty : Itv) : Itv))] : List (ℕ × Bool)).all (·.2) = true := by
  decide +kernel

example : ([
    (1525, Itv.isEmpty (Fmt.fmaI binary64 (⟨(f (-10) (0)), (f (-5) (0))⟩ : Itv) (⟨.ninf, (f 3 0)⟩ : Itv) (Itv.empty : Itv) : Itv)),
    (1526, Itv.isEmpty (Fmt.fmaI binary64 (⟨(f (-10) (0)), (f (-5) (0))⟩ : Itv) (⟨(f (-5) (0)), .pinf⟩ : Itv) (Itv.empty : Itv) : Itv)),
    (1527, Itv.isEmpty (Fmt.fmaI binary64 (⟨(f (-10) (0)), (f (-5) (0))⟩ : Itv) (⟨(f 1 0), .pinf⟩ : Itv) (Itv.empty : Itv) : Itv)),
    (1528, Itv.isEmpty (Fmt.fmaI binary64 (⟨(f (-10) (0)), (f (-5) (0))⟩ : Itv) (Itv.entire : Itv) (Itv.empty : Itv) : Itv)),
    (1532, Itv.isEmpty (Fmt.fmaI binary64 (Itv.empty : Itv) (Itv.empty : Itv) (⟨.ninf, (f 2 0)⟩ : Itv) : Itv)),
    (1533, Itv.isEmpty (Fmt.fmaI binary64 (⟨(f (-1) (0)), (f 1 0)⟩ : Itv) (Itv.empty : Itv) (⟨.ninf, (f 2 0)⟩ : Itv) : Itv)),
    (1534, Itv.isEmpty (Fmt.fmaI binary64 (Itv.empty : Itv) (⟨(f (-1) (0)), (f 1 0)⟩ : Itv) (⟨.ninf, (f 2 0)⟩ : Itv) : Itv)),
    (1535, Itv.isEmpty (Fmt.fmaI binary64 (Itv.empty : Itv) (Itv.entire : Itv) (⟨.ninf, (f 2 0)⟩ : Itv) : Itv)),
    (1536, Itv.isEmpty (Fmt.fmaI binary64 (Itv.entire : Itv) (Itv.empty : Itv) (⟨.ninf, (f 2 0)⟩ : Itv) : Itv)),
    (1537, Itv.isEmpty (Fmt.fmaI binary64 (⟨(f 0 0), (f 0 0)⟩ : Itv) (Itv.empty : Itv) (⟨.ninf, (f 2 0)⟩ : Itv) : Itv)),
    (1538, Itv.isEmpty (Fmt.fmaI binary64 (⟨.nzero, .nzero⟩ : Itv) (Itv.empty : Itv) (⟨.ninf, (f 2 0)⟩ : Itv) : Itv)),
    (1539, Itv.isEmpty (Fmt.fmaI binary64 (Itv.empty : Itv) (⟨(f 0 0), (f 0 0)⟩ : Itv) (⟨.ninf, (f 2 0)⟩ : Itv) : Itv)),
    (1540, Itv.isEmpty (Fmt.fmaI binary64 (Itv.empty : Itv) (⟨.nzero, .nzero⟩ : Itv) (⟨.ninf, (f 2 0)⟩ : Itv) : Itv)),
    (1542, eqB (Fmt.fmaI binary64 (Itv.entire : Itv) (⟨(f 0 0), (f 0 0)⟩ : Itv) (⟨.ninf, (f 2 0)⟩ : Itv)) (⟨.ninf, (f 2 0)⟩)),
    (1543, eqB (Fmt.fmaI binary64 (Itv.entire : Itv) (⟨.nzero, .nzero⟩ : Itv) (⟨.ninf, (f 2 0)⟩ : Itv)) (⟨.ninf, (f 2 0)⟩)),
    (1544, eqB (Fmt.fmaI binary64 (Itv.entire : Itv) (⟨(f (-5) (0)), (f (-1) (0))⟩ : Itv) (⟨.ninf, (f 2 0)⟩ : Itv)) (Itv.entire)),
    (1545, eqB (Fmt.fmaI binary64 (Itv.entire : Itv) (⟨(f (-5) (0)), (f 3 0)⟩ : Itv) (⟨.ninf, (f 2 0)⟩ : Itv)) (Itv.entire)),
    (1546, eqB (Fmt.fmaI binary64 (Itv.entire : Itv) (⟨(f 1 0), (f 3 0)⟩ : Itv) (⟨.ninf, (f 2 0)⟩ : Itv)) (Itv.entire)),
    (1547, eqB (Fmt.fmaI binary64 (Itv.entire : Itv) (⟨.ninf, (f (-1) (0))⟩ : Itv) (⟨.ninf, (f 2 0)⟩ : Itv)) (Itv.entire)),
    (1548, eqB (Fmt.fmaI binary64 (Itv.entire : Itv) (⟨.ninf, (f 3 0)⟩ : Itv) (⟨.ninf, (f 2 0)⟩ : Itv)) (Itv.entire)),
    (1549, eqB (Fmt.fmaI binary64 (Itv.entire : Itv) (⟨(f (-5) (0)), .pinf⟩ : Itv) (⟨.ninf, (f 2 0)⟩ : Itv)) (Itv.entire)),
    (1550, eqB (Fmt.fmaI binary64 (Itv.entire : Itv) (⟨(f 1 0), .pinf⟩ : Itv) (⟨.ninf, (f 2 0)⟩ : Itv)) (Itv.entire)),
    (1551, eqB (Fmt.fmaI binary64 (Itv.entire : Itv) (Itv.entire : Itv) (⟨.ninf, (f 2 0)⟩ : Itv)) (Itv.entire)),
    (1553, eqB (Fmt.fmaI binary64 (⟨(f 1 0), .pinf⟩ : Itv) (⟨(f 0 0), (f 0 0)⟩ : Itv) (⟨.ninf, (f 2 0)⟩ : Itv)) (⟨.ninf, (f 2 0)⟩)),
    (1554, eqB (Fmt.fmaI binary64 (⟨(f 1 0), .pinf⟩ : Itv) (⟨.nzero, .nzero⟩ : Itv) (⟨.ninf, (f 2 0)⟩ : Itv)) (⟨.ninf, (f 2 0)⟩)),
    (1555, eqB (Fmt.fmaI binary64 (⟨(f 1 0), .pinf⟩ : Itv) (⟨(f (-5) (0)), (f (-1) (0))⟩ : Itv) (⟨.ninf, (f 2 0)⟩ : Itv)) (⟨.ninf, (f 1 0)⟩)),
    (1556, eqB (Fmt.fmaI binary64 (⟨(f 1 0), .pinf⟩ : Itv) (⟨(f (-5) (0)), (f 3 0)⟩ : Itv) (⟨.ninf, (f 2 0)⟩ : Itv)) (Itv.entire)),
    (1557, eqB (Fmt.fmaI binary64 (⟨(f 1 0), .pinf⟩ : Itv) (⟨(f 1 0), (f 3 0)⟩ : Itv) (⟨.ninf, (f 2 0)⟩ : Itv)) (Itv.entire)),
    (1558, eqB (Fmt.fmaI binary64 (⟨(f 1 0), .pinf⟩ : Itv) (⟨.ninf, (f (-1) (0))⟩ : Itv) (⟨.ninf, (f 2 0)⟩ : Itv)) (⟨.ninf, (f 1 0)⟩)),
    (1559, eqB (Fmt.fmaI binary64 (⟨(f 1 0), .pinf⟩ : Itv) (⟨.ninf, (f 3 0)⟩ : Itv) (⟨.ninf, (f 2 0)⟩ : Itv)) (Itv.entire)),
    (1560, eqB (Fmt.fmaI binary64 (⟨(f 1 0), .pinf⟩ : Itv) (⟨(f (-5) (0)), .pinf⟩ : Itv) (⟨.ninf, (f 2 0)⟩ : Itv)) (Itv.entire)),
    (1561, eqB (Fmt.fmaI binary64 (⟨(f 1 0), .pinf⟩ : Itv) (⟨(f 1 0), .pinf⟩ : Itv) (⟨.ninf, (f 2 0)⟩ : Itv)) (Itv.entire)),
    (1562, eqB (Fmt.fmaI binary64 (⟨(f 1 0), .pinf⟩ : Itv) (Itv.entire : Itv) (⟨.ninf, (f 2 0)⟩ : Itv)) (Itv.entire)),
    (1564, eqB (Fmt.fmaI binary64 (⟨(f (-1) (0)), .pinf⟩ : Itv) (⟨(f 0 0), (f 0 0)⟩ : Itv) (⟨.ninf, (f 2 0)⟩ : Itv)) (⟨.ninf, (f 2 0)⟩)),
    (1565, eqB (Fmt.fmaI binary64 (⟨(f (-1) (0)), .pinf⟩ : Itv) (⟨.nzero, .nzero⟩ : Itv) (⟨.ninf, (f 2 0)⟩ : Itv)) (⟨.ninf, (f 2 0)⟩)),
    (1566, eqB (Fmt.fmaI binary64 (⟨(f (-1) (0)), .pinf⟩ : Itv) (⟨(f (-5) (0)), (f (-1) (0))⟩ : Itv) (⟨.ninf, (f 2 0)⟩ : Itv)) (⟨.ninf, (f 7 0)⟩)),
    (1567, eqB (Fmt.fmaI binary64 (⟨(f (-1) (0)), .pinf⟩ : Itv) (⟨(f (-5) (0)), (f 3 0)⟩ : Itv) (⟨.ninf, (f 2 0)⟩ : Itv)) (Itv.entire)),
    (1568, eqB (Fmt.fmaI binary64 (⟨(f (-1) (0)), .pinf⟩ : Itv) (⟨(f 1 0), (f 3 0)⟩ : Itv) (⟨.ninf, (f 2 0)⟩ : Itv)) (Itv.entire)),
    (1569, eqB (Fmt.fmaI binary64 (⟨(f (-1) (0)), .pinf⟩ : Itv) (⟨.ninf, (f (-1) (0))⟩ : Itv) (⟨.ninf, (f 2 0)⟩ : Itv)) (Itv.entire)),
    (1570, eqB (Fmt.fmaI binary64 (⟨(f (-1) (0)), .pinf⟩ : Itv) (⟨.ninf, (f 3 0)⟩ : Itv) (⟨.ninf, (f 2 0)⟩ : Itv)) (Itv.entire)),
    (1571, eqB (Fmt.fmaI binary64 (⟨(f (-1) (0)), .pinf⟩ : Itv) (⟨(f (-5) (0)), .pinf⟩ : Itv) (⟨.ninf, (f 2 0)⟩ : Itv)) (Itv.entire)),
    (1572, eqB (Fmt.fmaI binary64 (⟨(f (-1) (0)), .pinf⟩ : Itv) (⟨(f 1 0), .pinf⟩ : Itv) (⟨.ninf, (f 2 0)⟩ : Itv)) (Itv.entire)),
    (1573, eqB (Fmt.fmaI binary64 (⟨(f (-1) (0)), .pinf⟩ : Itv) (Itv.entire : Itv) (⟨.ninf, (f 2 0)⟩ : Itv)) (Itv.entire)),
    (1575, eqB (Fmt.fmaI binary64 (⟨.ninf, (f 3 0)⟩ : Itv) (⟨(f 0 0), (f 0 0)⟩ : Itv) (⟨.ninf, (f 2 0)⟩ : Itv)) (⟨.ninf, (f 2 0)⟩)),
    (1576, eqB (Fmt.fmaI binary64 (⟨.ninf, (f 3 0)⟩ : Itv) (⟨.nzero, .nzero⟩ : Itv) (⟨.ninf, (f 2 0)⟩ : Itv)) (⟨.ninf, (f 2 0)⟩)),
    (1577, eqB (Fmt.fmaI binary64 (⟨.ninf, (f 3 0)⟩ : Itv) (⟨(f (-5) (0)), (f (-1) (0))⟩ : Itv) (⟨.ninf, (f 2 0)⟩ : Itv)) (Itv.entire)),
    (1578, eqB (Fmt.fmaI binary64 (⟨.ninf, (f 3 0)⟩ : Itv) (⟨(f (-5) (0)), (f 3 0)⟩ : Itv) (⟨.ninf, (f 2 0)⟩ : Itv)) (Itv.entire)),
    (1579, eqB (Fmt.fmaI binary64 (⟨.ninf, (f 3 0)⟩ : Itv) (⟨(f 1 0), (f 3 0)⟩ : Itv) (⟨.ninf, (f 2 0)⟩ : Itv)) (⟨.ninf, (f 11 0)⟩)),
    (1580, eqB (Fmt.fmaI binary64 (⟨.ninf, (f 3 0)⟩ : Itv) (⟨.ninf, (f (-1) (0))⟩ : Itv) (⟨.ninf, (f 2 0)⟩ : Itv)) (Itv.entire)),
    (1581, eqB (Fmt.fmaI binary64 (⟨.ninf, (f 3 0)⟩ : Itv) (⟨.ninf, (f 3 0)⟩ : Itv) (⟨.ninf, (f 2 0)⟩ : Itv)) (Itv.entire))] : List (ℕ × Bool)).all (·.2) = true := by
  decide +kernel

example : ([
    (1582, eqB (Fmt.fmaI binary64 (⟨.ninf, (f 3 0)⟩ : Itv) (⟨(f (-5) (0)), .pinf⟩ : Itv) (⟨.ninf, (f 2 0)⟩ : Itv)) (Itv.entire)),
    (1583, eqB (Fmt.fmaI binary64 (⟨.ninf, (f 3 0)⟩ : Itv) (⟨(f 1 0), .pinf⟩ : Itv) (⟨.ninf, (f 2 0)⟩ : Itv)) (Itv.entire)),
    (1584, eqB (Fmt.fmaI binary64 (⟨.ninf, (f 3 0)⟩ : Itv) (Itv.entire : Itv) (⟨.ninf, (f 2 0)⟩ : Itv)) (Itv.entire)),
    (1586, eqB (Fmt.fmaI binary64 (⟨.ninf, (f (-3) (0))⟩ : Itv) (⟨(f 0 0), (f 0 0)⟩ : Itv) (⟨.ninf, (f 2 0)⟩ : Itv)) (⟨.ninf, (f 2 0)⟩)),
    (1587, eqB (Fmt.fmaI binary64 (⟨.ninf, (f (-3) (0))⟩ : Itv) (⟨.nzero, .nzero⟩ : Itv) (⟨.ninf, (f 2 0)⟩ : Itv)) (⟨.ninf, (f 2 0)⟩)),
    (1588, eqB (Fmt.fmaI binary64 (⟨.ninf, (f (-3) (0))⟩ : Itv) (⟨(f (-5) (0)), (f (-1) (0))⟩ : Itv) (⟨.ninf, (f 2 0)⟩ : Itv)) (Itv.entire)),
    (1589, eqB (Fmt.fmaI binary64 (⟨.ninf, (f (-3) (0))⟩ : Itv) (⟨(f (-5) (0)), (f 3 0)⟩ : Itv) (⟨.ninf, (f 2 0)⟩ : Itv)) (Itv.entire)),
    (1590, eqB (Fmt.fmaI binary64 (⟨.ninf, (f (-3) (0))⟩ : Itv) (⟨(f 1 0), (f 3 0)⟩ : Itv) (⟨.ninf, (f 2 0)⟩ : Itv)) (⟨.ninf, (f (-1) (0))⟩)),
    (1591, eqB (Fmt.fmaI binary64 (⟨.ninf, (f (-3) (0))⟩ : Itv) (⟨.ninf, (f (-1) (0))⟩ : Itv) (⟨.ninf, (f 2 0)⟩ : Itv)) (Itv.entire)),
    (1592, eqB (Fmt.fmaI binary64 (⟨.ninf, (f (-3) (0))⟩ : Itv) (⟨.ninf, (f 3 0)⟩ : Itv) (⟨.ninf, (f 2 0)⟩ : Itv)) (Itv.entire)),
    (1593, eqB (Fmt.fmaI binary64 (⟨.ninf, (f (-3) (0))⟩ : Itv) (⟨(f (-5) (0)), .pinf⟩ : Itv) (⟨.ninf, (f 2 0)⟩ : Itv)) (Itv.entire)),
    (1594, eqB (Fmt.fmaI binary64 (⟨.ninf, (f (-3) (0))⟩ : Itv) (⟨(f 1 0), .pinf⟩ : Itv) (⟨.ninf, (f 2 0)⟩ : Itv)) (⟨.ninf, (f (-1) (0))⟩)),
    (1595, eqB (Fmt.fmaI binary64 (⟨.ninf, (f (-3) (0))⟩ : Itv) (Itv.entire : Itv) (⟨.ninf, (f 2 0)⟩ : Itv)) (Itv.entire)),
    (1597, eqB (Fmt.fmaI binary64 (⟨(f 0 0), (f 0 0)⟩ : Itv) (⟨(f 0 0), (f 0 0)⟩ : Itv) (⟨.ninf, (f 2 0)⟩ : Itv)) (⟨.ninf, (f 2 0)⟩)),
    (1598, eqB (Fmt.fmaI binary64 (⟨(f 0 0), (f 0 0)⟩ : Itv) (⟨.nzero, .nzero⟩ : Itv) (⟨.ninf, (f 2 0)⟩ : Itv)) (⟨.ninf, (f 2 0)⟩)),
    (1599, eqB (Fmt.fmaI binary64 (⟨(f 0 0), (f 0 0)⟩ : Itv) (⟨(f (-5) (0)), (f (-1) (0))⟩ : Itv) (⟨.ninf, (f 2 0)⟩ : Itv)) (⟨.ninf, (f 2 0)⟩)),
    (1600, eqB (Fmt.fmaI binary64 (⟨(f 0 0), (f 0 0)⟩ : Itv) (⟨(f (-5) (0)), (f 3 0)⟩ : Itv) (⟨.ninf, (f 2 0)⟩ : Itv)) (⟨.ninf, (f 2 0)⟩)),
    (1601, eqB (Fmt.fmaI binary64 (⟨(f 0 0), (f 0 0)⟩ : Itv) (⟨(f 1 0), (f 3 0)⟩ : Itv) (⟨.ninf, (f 2 0)⟩ : Itv)) (⟨.ninf, (f 2 0)⟩)),
    (1602, eqB (Fmt.fmaI binary64 (⟨(f 0 0), (f 0 0)⟩ : Itv) (⟨.ninf, (f (-1) (0))⟩ : Itv) (⟨.ninf, (f 2 0)⟩ : Itv)) (⟨.ninf, (f 2 0)⟩)),
    (1603, eqB (Fmt.fmaI binary64 (⟨(f 0 0), (f 0 0)⟩ : Itv) (⟨.ninf, (f 3 0)⟩ : Itv) (⟨.ninf, (f 2 0)⟩ : Itv)) (⟨.ninf, (f 2 0)⟩)),
    (1604, eqB (Fmt.fmaI binary64 (⟨(f 0 0), (f 0 0)⟩ : Itv) (⟨(f (-5) (0)), .pinf⟩ : Itv) (⟨.ninf, (f 2 0)⟩ : Itv)) (⟨.ninf, (f 2 0)⟩)),
    (1605, eqB (Fmt.fmaI binary64 (⟨(f 0 0), (f 0 0)⟩ : Itv) (⟨(f 1 0), .pinf⟩ : Itv) (⟨.ninf, (f 2 0)⟩ : Itv)) (⟨.ninf, (f 2 0)⟩)),
    (1606, eqB (Fmt.fmaI binary64 (⟨(f 0 0), (f 0 0)⟩ : Itv) (Itv.entire : Itv) (⟨.ninf, (f 2 0)⟩ : Itv)) (⟨.ninf, (f 2 0)⟩)),
    (1608, eqB (Fmt.fmaI binary64 (⟨.nzero, .nzero⟩ : Itv) (⟨(f 0 0), (f 0 0)⟩ : Itv) (⟨.ninf, (f 2 0)⟩ : Itv)) (⟨.ninf, (f 2 0)⟩)),
    (1609, eqB (Fmt.fmaI binary64 (⟨.nzero, .nzero⟩ : Itv) (⟨.nzero, .nzero⟩ : Itv) (⟨.ninf, (f 2 0)⟩ : Itv)) (⟨.ninf, (f 2 0)⟩)),
    (1610, eqB (Fmt.fmaI binary64 (⟨.nzero, .nzero⟩ : Itv) (⟨(f (-5) (0)), (f (-1) (0))⟩ : Itv) (⟨.ninf, (f 2 0)⟩ : Itv)) (⟨.ninf, (f 2 0)⟩)),
    (1611, eqB (Fmt.fmaI binary64 (⟨.nzero, .nzero⟩ : Itv) (⟨(f (-5) (0)), (f 3 0)⟩ : Itv) (⟨.ninf, (f 2 0)⟩ : Itv)) (⟨.ninf, (f 2 0)⟩)),
    (1612, eqB (Fmt.fmaI binary64 (⟨.nzero, .nzero⟩ : Itv) (⟨(f 1 0), (f 3 0)⟩ : Itv) (⟨.ninf, (f 2 0)⟩ : Itv)) (⟨.ninf, (f 2 0)⟩)),
    (1613, eqB (Fmt.fmaI binary64 (⟨.nzero, .nzero⟩ : Itv) (⟨.ninf, (f (-1) (0))⟩ : Itv) (⟨.ninf, (f 2 0)⟩ : Itv)) (⟨.ninf, (f 2 0)⟩)),
    (1614, eqB (Fmt.fmaI binary64 (⟨.nzero, .nzero⟩ : Itv) (⟨.ninf, (f 3 0)⟩ : Itv) (⟨.ninf, (f 2 0)⟩ : Itv)) (⟨.ninf, (f 2 0)⟩)),
    (1615, eqB (Fmt.fmaI binary64 (⟨.nzero, .nzero⟩ : Itv) (⟨(f (-5) (0)), .pinf⟩ : Itv) (⟨.ninf, (f 2 0)⟩ : Itv)) (⟨.ninf, (f 2 0)⟩)),
    (1616, eqB (Fmt.fmaI binary64 (⟨.nzero, .nzero⟩ : Itv) (⟨(f 1 0), .pinf⟩ : Itv) (⟨.ninf, (f 2 0)⟩ : Itv)) (⟨.ninf, (f 2 0)⟩)),
    (1617, eqB (Fmt.fmaI binary64 (⟨.nzero, .nzero⟩ : Itv) (Itv.entire : Itv) (⟨.ninf, (f 2 0)⟩ : Itv)) (⟨.ninf, (f 2 0)⟩)),
    (1619, eqB (Fmt.fmaI binary64 (⟨(f 1 0), (f 5 0)⟩ : Itv) (⟨(f 0 0), (f 0 0)⟩ : Itv) (⟨.ninf, (f 2 0)⟩ : Itv)) (⟨.ninf, (f 2 0)⟩)),
    (1620, eqB (Fmt.fmaI binary64 (⟨(f 1 0), (f 5 0)⟩ : Itv) (⟨.nzero, .nzero⟩ : Itv) (⟨.ninf, (f 2 0)⟩ : Itv)) (⟨.ninf, (f 2 0)⟩)),
    (1621, eqB (Fmt.fmaI binary64 (⟨(f 1 0), (f 5 0)⟩ : Itv) (⟨(f (-5) (0)), (f (-1) (0))⟩ : Itv) (⟨.ninf, (f 2 0)⟩ : Itv)) (⟨.ninf, (f 1 0)⟩)),
    (1622, eqB (Fmt.fmaI binary64 (⟨(f 1 0), (f 5 0)⟩ : Itv) (⟨(f (-5) (0)), (f 3 0)⟩ : Itv) (⟨.ninf, (f 2 0)⟩ : Itv)) (⟨.ninf, (f 17 0)⟩)),
    (1623, eqB (Fmt.fmaI binary64 (⟨(f 1 0), (f 5 0)⟩ : Itv) (⟨(f 1 0), (f 3 0)⟩ : Itv) (⟨.ninf, (f 2 0)⟩ : Itv)) (⟨.ninf, (f 17 0)⟩)),
    (1624, eqB (Fmt.fmaI binary64 (⟨(f 1 0), (f 5 0)⟩ : Itv) (⟨.ninf, (f (-1) (0))⟩ : Itv) (⟨.ninf, (f 2 0)⟩ : Itv)) (⟨.ninf, (f 1 0)⟩)),
    (1625, eqB (Fmt.fmaI binary64 (⟨(f 1 0), (f 5 0)⟩ : Itv) (⟨.ninf, (f 3 0)⟩ : Itv) (⟨.ninf, (f 2 0)⟩ : Itv)) (⟨.ninf, (f 17 0)⟩)),
    (1626, eqB (Fmt.fmaI binary64 (⟨(f 1 0), (f 5 0)⟩ : Itv) (⟨(f (-5) (0)), .pinf⟩ : Itv) (⟨.ninf, (f 2 0)⟩ : Itv)) (Itv.entire)),
    (1627, eqB (Fmt.fmaI binary64 (⟨(f 1 0), (f 5 0)⟩ : Itv) (⟨(f 1 0), .pinf⟩ : Itv) (⟨.ninf, (f 2 0)⟩ : Itv)) (Itv.entire)),
    (1628, eqB (Fmt.fmaI binary64 (⟨(f 1 0), (f 5 0)⟩ : Itv) (Itv.entire : Itv) (⟨.ninf, (f 2 0)⟩ : Itv)) (Itv.entire)),
    (1630, eqB (Fmt.fmaI binary64 (⟨(f (-1) (0)), (f 5 0)⟩ : Itv) (⟨(f 0 0), (f 0 0)⟩ : Itv) (⟨.ninf, (f 2 0)⟩ : Itv)) (⟨.ninf, (f 2 0)⟩)),
    (1631, eqB (Fmt.fmaI binary64 (⟨(f (-1) (0)), (f 5 0)⟩ : Itv) (⟨.nzero, .nzero⟩ : Itv) (⟨.ninf, (f 2 0)⟩ : Itv)) (⟨.ninf, (f 2 0)⟩)),
    (1632, eqB (Fmt.fmaI binary64 (⟨(f (-1) (0)), (f 5 0)⟩ : Itv) (⟨(f (-5) (0)), (f (-1) (0))⟩ : Itv) (⟨.ninf, (f 2 0)⟩ : Itv)) (⟨.ninf, (f 7 0)⟩)),
    (1634, eqB (Fmt.fmaI binary64 (⟨(f (-1) (0)), (f 5 0)⟩ : Itv) (⟨(f (-5) (0)), (f 3 0)⟩ : Itv) (⟨.ninf, (f 2 0)⟩ : Itv)) (⟨.ninf, (f 17 0)⟩)),
    (1635, eqB (Fmt.fmaI binary64 (⟨(f (-10) (0)), (f 2 0)⟩ : Itv) (⟨(f (-5) (0)), (f 3 0)⟩ : Itv) (⟨.ninf, (f 2 0)⟩ : Itv)) (⟨.ninf, (f 52 0)⟩)),
    (1636, eqB (Fmt.fmaI binary64 (⟨(f (-1) (0)), (f 5 0)⟩ : Itv) (⟨(f (-1) (0)), (f 10 0)⟩ : Itv) (⟨.ninf, (f 2 0)⟩ : Itv)) (⟨.ninf, (f 52 0)⟩)),
    (1637, eqB (Fmt.fmaI binary64 (⟨(f (-2) (0)), (f 2 0)⟩ : Itv) (⟨(f (-5) (0)), (f 3 0)⟩ : Itv) (⟨.ninf, (f 2 0)⟩ : Itv)) (⟨.ninf, (f 12 0)⟩))] : List (ℕ × Bool)).all (·.2) = true := by
  decide +kernel

example : ([
    (1639, eqB (Fmt.fmaI binary64 (⟨(f (-1) (0)), (f 5 0)⟩ : Itv) (⟨(f 1 0), (f 3 0)⟩ : Itv) (⟨.ninf, (f 2 0)⟩ : Itv)) (⟨.ninf, (f 17 0)⟩)),
    (1640, eqB (Fmt.fmaI binary64 (⟨(f (-1) (0)), (f 5 0)⟩ : Itv) (⟨.ninf, (f (-1) (0))⟩ : Itv) (⟨.ninf, (f 2 0)⟩ : Itv)) (Itv.entire)),
    (1641, eqB (Fmt.fmaI binary64 (⟨(f (-1) (0)), (f 5 0)⟩ : Itv) (⟨.ninf, (f 3 0)⟩ : Itv) (⟨.ninf, (f 2 0)⟩ : Itv)) (Itv.entire)),
    (1642, eqB (Fmt.fmaI binary64 (⟨(f (-1) (0)), (f 5 0)⟩ : Itv) (⟨(f (-5) (0)), .pinf⟩ : Itv) (⟨.ninf, (f 2 0)⟩ : Itv)) (Itv.entire)),
    (1643, eqB (Fmt.fmaI binary64 (⟨(f (-1) (0)), (f 5 0)⟩ : Itv) (⟨(f 1 0), .pinf⟩ : Itv) (⟨.ninf, (f 2 0)⟩ : Itv)) (Itv.entire)),
    (1644, eqB (Fmt.fmaI binary64 (⟨(f (-1) (0)), (f 5 0)⟩ : Itv) (Itv.entire : Itv) (⟨.ninf, (f 2 0)⟩ : Itv)) (Itv.entire)),
    (1646, eqB (Fmt.fmaI binary64 (⟨(f (-10) (0)), (f (-5) (0))⟩ : Itv) (⟨(f 0 0), (f 0 0)⟩ : Itv) (⟨.ninf, (f 2 0)⟩ : Itv)) (⟨.ninf, (f 2 0)⟩)),
    (1647, eqB (Fmt.fmaI binary64 (⟨(f (-10) (0)), (f (-5) (0))⟩ : Itv) (⟨.nzero, .nzero⟩ : Itv) (⟨.ninf, (f 2 0)⟩ : Itv)) (⟨.ninf, (f 2 0)⟩)),
    (1648, eqB (Fmt.fmaI binary64 (⟨(f (-10) (0)), (f (-5) (0))⟩ : Itv) (⟨(f (-5) (0)), (f (-1) (0))⟩ : Itv) (⟨.ninf, (f 2 0)⟩ : Itv)) (⟨.ninf, (f 52 0)⟩)),
    (1649, eqB (Fmt.fmaI binary64 (⟨(f (-10) (0)), (f (-5) (0))⟩ : Itv) (⟨(f (-5) (0)), (f 3 0)⟩ : Itv) (⟨.ninf, (f 2 0)⟩ : Itv)) (⟨.ninf, (f 52 0)⟩)),
    (1650, eqB (Fmt.fmaI binary64 (⟨(f (-10) (0)), (f (-5) (0))⟩ : Itv) (⟨(f 1 0), (f 3 0)⟩ : Itv) (⟨.ninf, (f 2 0)⟩ : Itv)) (⟨.ninf, (f (-3) (0))⟩)),
    (1651, eqB (Fmt.fmaI binary64 (⟨(f (-10) (0)), (f (-5) (0))⟩ : Itv) (⟨.ninf, (f (-1) (0))⟩ : Itv) (⟨.ninf, (f 2 0)⟩ : Itv)) (Itv.entire)),
    (1652, eqB (Fmt.fmaI binary64 (⟨(f (-10) (0)), (f (-5) (0))⟩ : Itv) (⟨.ninf, (f 3 0)⟩ : Itv) (⟨.ninf, (f 2 0)⟩ : Itv)) (Itv.entire)),
    (1653, eqB (Fmt.fmaI binary64 (⟨(f (-10) (0)), (f (-5) (0))⟩ : Itv) (⟨(f (-5) (0)), .pinf⟩ : Itv) (⟨.ninf, (f 2 0)⟩ : Itv)) (⟨.ninf, (f 52 0)⟩)),
    (1654, eqB (Fmt.fmaI binary64 (⟨(f (-10) (0)), (f (-5) (0))⟩ : Itv) (⟨(f 1 0), .pinf⟩ : Itv) (⟨.ninf, (f 2 0)⟩ : Itv)) (⟨.ninf, (f (-3) (0))⟩)),
    (1655, eqB (Fmt.fmaI binary64 (⟨(f (-10) (0)), (f (-5) (0))⟩ : Itv) (Itv.entire : Itv) (⟨.ninf, (f 2 0)⟩ : Itv)) (Itv.entire)),
    (1659, Itv.isEmpty (Fmt.fmaI binary64 (Itv.empty : Itv) (Itv.empty : Itv) (⟨(f (-2) (0)), (f 2 0)⟩ : Itv) : Itv)),
    (1660, Itv.isEmpty (Fmt.fmaI binary64 (⟨(f (-1) (0)), (f 1 0)⟩ : Itv) (Itv.empty : Itv) (⟨(f (-2) (0)), (f 2 0)⟩ : Itv) : Itv)),
    (1661, Itv.isEmpty (Fmt.fmaI binary64 (Itv.empty : Itv) (⟨(f (-1) (0)), (f 1 0)⟩ : Itv) (⟨(f (-2) (0)), (f 2 0)⟩ : Itv) : Itv)),
    (1662, Itv.isEmpty (Fmt.fmaI binary64 (Itv.empty : Itv) (Itv.entire : Itv) (⟨(f (-2) (0)), (f 2 0)⟩ : Itv) : Itv)),
    (1663, Itv.isEmpty (Fmt.fmaI binary64 (Itv.entire : Itv) (Itv.empty : Itv) (⟨(f (-2) (0)), (f 2 0)⟩ : Itv) : Itv)),
    (1664, Itv.isEmpty (Fmt.fmaI binary64 (⟨(f 0 0), (f 0 0)⟩ : Itv) (Itv.empty : Itv) (⟨(f (-2) (0)), (f 2 0)⟩ : Itv) : Itv)),
    (1665, Itv.isEmpty (Fmt.fmaI binary64 (⟨.nzero, .nzero⟩ : Itv) (Itv.empty : Itv) (⟨(f (-2) (0)), (f 2 0)⟩ : Itv) : Itv)),
    (1666, Itv.isEmpty (Fmt.fmaI binary64 (Itv.empty : Itv) (⟨(f 0 0), (f 0 0)⟩ : Itv) (⟨(f (-2) (0)), (f 2 0)⟩ : Itv) : Itv)),
    (1667, Itv.isEmpty (Fmt.fmaI binary64 (Itv.empty : Itv) (⟨.nzero, .nzero⟩ : Itv) (⟨(f (-2) (0)), (f 2 0)⟩ : Itv) : Itv)),
    (1669, eqB (Fmt.fmaI binary64 (Itv.entire : Itv) (⟨(f 0 0), (f 0 0)⟩ : Itv) (⟨(f (-2) (0)), (f 2 0)⟩ : Itv)) (⟨(f (-2) (0)), (f 2 0)⟩)),
    (1670, eqB (Fmt.fmaI binary64 (Itv.entire : Itv) (⟨.nzero, .nzero⟩ : Itv) (⟨(f (-2) (0)), (f 2 0)⟩ : Itv)) (⟨(f (-2) (0)), (f 2 0)⟩)),
    (1671, eqB (Fmt.fmaI binary64 (Itv.entire : Itv) (⟨(f (-5) (0)), (f (-1) (0))⟩ : Itv) (⟨(f (-2) (0)), (f 2 0)⟩ : Itv)) (Itv.entire)),
    (1672, eqB (Fmt.fmaI binary64 (Itv.entire : Itv) (⟨(f (-5) (0)), (f 3 0)⟩ : Itv) (⟨(f (-2) (0)), (f 2 0)⟩ : Itv)) (Itv.entire)),
    (1673, eqB (Fmt.fmaI binary64 (Itv.entire : Itv) (⟨(f 1 0), (f 3 0)⟩ : Itv) (⟨(f (-2) (0)), (f 2 0)⟩ : Itv)) (Itv.entire)),
    (1674, eqB (Fmt.fmaI binary64 (Itv.entire : Itv) (⟨.ninf, (f (-1) (0))⟩ : Itv) (⟨(f (-2) (0)), (f 2 0)⟩ : Itv)) (Itv.entire)),
    (1675, eqB (Fmt.fmaI binary64 (Itv.entire : Itv) (⟨.ninf, (f 3 0)⟩ : Itv) (⟨(f (-2) (0)), (f 2 0)⟩ : Itv)) (Itv.entire)),
    (1676, eqB (Fmt.fmaI binary64 (Itv.entire : Itv) (⟨(f (-5) (0)), .pinf⟩ : Itv) (⟨(f (-2) (0)), (f 2 0)⟩ : Itv)) (Itv.entire)),
    (1677, eqB (Fmt.fmaI binary64 (Itv.entire : Itv) (⟨(f 1 0), .pinf⟩ : Itv) (⟨(f (-2) (0)), (f 2 0)⟩ : Itv)) (Itv.entire)),
    (1678, eqB (Fmt.fmaI binary64 (Itv.entire : Itv) (Itv.entire : Itv) (⟨(f (-2) (0)), (f 2 0)⟩ : Itv)) (Itv.entire)),
    (1680, eqB (Fmt.fmaI binary64 (⟨(f 1 0), .pinf⟩ : Itv) (⟨(f 0 0), (f 0 0)⟩ : Itv) (⟨(f (-2) (0)), (f 2 0)⟩ : Itv)) (⟨(f (-2) (0)), (f 2 0)⟩)),
    (1681, eqB (Fmt.fmaI binary64 (⟨(f 1 0), .pinf⟩ : Itv) (⟨.nzero, .nzero⟩ : Itv) (⟨(f (-2) (0)), (f 2 0)⟩ : Itv)) (⟨(f (-2) (0)), (f 2 0)⟩)),
    (1682, eqB (Fmt.fmaI binary64 (⟨(f 1 0), .pinf⟩ : Itv) (⟨(f (-5) (0)), (f (-1) (0))⟩ : Itv) (⟨(f (-2) (0)), (f 2 0)⟩ : Itv)) (⟨.ninf, (f 1 0)⟩)),
    (1683, eqB (Fmt.fmaI binary64 (⟨(f 1 0), .pinf⟩ : Itv) (⟨(f (-5) (0)), (f 3 0)⟩ : Itv) (⟨(f (-2) (0)), (f 2 0)⟩ : Itv)) (Itv.entire)),
    (1684, eqB (Fmt.fmaI binary64 (⟨(f 1 0), .pinf⟩ : Itv) (⟨(f 1 0), (f 3 0)⟩ : Itv) (⟨(f (-2) (0)), (f 2 0)⟩ : Itv)) (⟨(f (-1) (0)), .pinf⟩)),
    (1685, eqB (Fmt.fmaI binary64 (⟨(f 1 0), .pinf⟩ : Itv) (⟨.ninf, (f (-1) (0))⟩ : Itv) (⟨(f (-2) (0)), (f 2 0)⟩ : Itv)) (⟨.ninf, (f 1 0)⟩)),
    (1686, eqB (Fmt.fmaI binary64 (⟨(f 1 0), .pinf⟩ : Itv) (⟨.ninf, (f 3 0)⟩ : Itv) (⟨(f (-2) (0)), (f 2 0)⟩ : Itv)) (Itv.entire)),
    (1687, eqB (Fmt.fmaI binary64 (⟨(f 1 0), .pinf⟩ : Itv) (⟨(f (-5) (0)), .pinf⟩ : Itv) (⟨(f (-2) (0)), (f 2 0)⟩ : Itv)) (Itv.entire)),
    (1688, eqB (Fmt.fmaI binary64 (⟨(f 1 0), .pinf⟩ : Itv) (⟨(f 1 0), .pinf⟩ : Itv) (⟨(f (-2) (0)), (f 2 0)⟩ : Itv)) (⟨(f (-1) (0)), .pinf⟩)),
    (1689, eqB (Fmt.fmaI binary64 (⟨(f 1 0), .pinf⟩ : Itv) (Itv.entire : Itv) (⟨(f (-2) (0)), (f 2 0)⟩ : Itv)) (Itv.entire)),
    (1691, eqB (Fmt.fmaI binary64 (⟨(f (-1) (0)), .pinf⟩ : Itv) (⟨(f 0 0), (f 0 0)⟩ : Itv) (⟨(f (-2) (0)), (f 2 0)⟩ : Itv)) (⟨(f (-2) (0)), (f 2 0)⟩)),
    (1692, eqB (Fmt.fmaI binary64 (⟨(f (-1) (0)), .pinf⟩ : Itv) (⟨.nzero, .nzero⟩ : Itv) (⟨(f (-2) (0)), (f 2 0)⟩ : Itv)) (⟨(f (-2) (0)), (f 2 0)⟩)),
    (1693, eqB (Fmt.fmaI binary64 (⟨(f (-1) (0)), .pinf⟩ : Itv) (⟨(f (-5) (0)), (f (-1) (0))⟩ : Itv) (⟨(f (-2) (0)), (f 2 0)⟩ : Itv)) (⟨.ninf, (f 7 0)⟩)),
    (1694, eqB (Fmt.fmaI binary64 (⟨(f (-1) (0)), .pinf⟩ : Itv) (⟨(f (-5) (0)), (f 3 0)⟩ : Itv) (⟨(f (-2) (0)), (f 2 0)⟩ : Itv)) (Itv.entire)),
    (1695, eqB (Fmt.fmaI binary64 (⟨(f (-1) (0)), .pinf⟩ : Itv) (⟨(f 1 0), (f 3 0)⟩ : Itv) (⟨(f (-2) (0)), (f 2 0)⟩ : Itv)) (⟨(f (-5) (0)), .pinf⟩))] : List (ℕ × Bool)).all (·.2) = true := by
  decide +kernel

example : ([
    (1696, eqB (Fmt.fmaI binary64 (⟨(f (-1) (0)), .pinf⟩ : Itv) (⟨.ninf, (f (-1) (0))⟩ : Itv) (⟨(f (-2) (0)), (f 2 0)⟩ : Itv)) (Itv.entire)),
    (1697, eqB (Fmt.fmaI binary64 (⟨(f (-1) (0)), .pinf⟩ : Itv) (⟨.ninf, (f 3 0)⟩ : Itv) (⟨(f (-2) (0)), (f 2 0)⟩ : Itv)) (Itv.entire)),
    (1698, eqB (Fmt.fmaI binary64 (⟨(f (-1) (0)), .pinf⟩ : Itv) (⟨(f (-5) (0)), .pinf⟩ : Itv) (⟨(f (-2) (0)), (f 2 0)⟩ : Itv)) (Itv.entire)),
    (1699, eqB (Fmt.fmaI binary64 (⟨(f (-1) (0)), .pinf⟩ : Itv) (⟨(f 1 0), .pinf⟩ : Itv) (⟨(f (-2) (0)), (f 2 0)⟩ : Itv)) (Itv.entire)),
    (1700, eqB (Fmt.fmaI binary64 (⟨(f (-1) (0)), .pinf⟩ : Itv) (Itv.entire : Itv) (⟨(f (-2) (0)), (f 2 0)⟩ : Itv)) (Itv.entire)),
    (1702, eqB (Fmt.fmaI binary64 (⟨.ninf, (f 3 0)⟩ : Itv) (⟨(f 0 0), (f 0 0)⟩ : Itv) (⟨(f (-2) (0)), (f 2 0)⟩ : Itv)) (⟨(f (-2) (0)), (f 2 0)⟩)),
    (1703, eqB (Fmt.fmaI binary64 (⟨.ninf, (f 3 0)⟩ : Itv) (⟨.nzero, .nzero⟩ : Itv) (⟨(f (-2) (0)), (f 2 0)⟩ : Itv)) (⟨(f (-2) (0)), (f 2 0)⟩)),
    (1704, eqB (Fmt.fmaI binary64 (⟨.ninf, (f 3 0)⟩ : Itv) (⟨(f (-5) (0)), (f (-1) (0))⟩ : Itv) (⟨(f (-2) (0)), (f 2 0)⟩ : Itv)) (⟨(f (-17) (0)), .pinf⟩)),
    (1705, eqB (Fmt.fmaI binary64 (⟨.ninf, (f 3 0)⟩ : Itv) (⟨(f (-5) (0)), (f 3 0)⟩ : Itv) (⟨(f (-2) (0)), (f 2 0)⟩ : Itv)) (Itv.entire)),
    (1706, eqB (Fmt.fmaI binary64 (⟨.ninf, (f 3 0)⟩ : Itv) (⟨(f 1 0), (f 3 0)⟩ : Itv) (⟨(f (-2) (0)), (f 2 0)⟩ : Itv)) (⟨.ninf, (f 11 0)⟩)),
    (1707, eqB (Fmt.fmaI binary64 (⟨.ninf, (f 3 0)⟩ : Itv) (⟨.ninf, (f (-1) (0))⟩ : Itv) (⟨(f (-2) (0)), (f 2 0)⟩ : Itv)) (Itv.entire)),
    (1708, eqB (Fmt.fmaI binary64 (⟨.ninf, (f 3 0)⟩ : Itv) (⟨.ninf, (f 3 0)⟩ : Itv) (⟨(f (-2) (0)), (f 2 0)⟩ : Itv)) (Itv.entire)),
    (1709, eqB (Fmt.fmaI binary64 (⟨.ninf, (f 3 0)⟩ : Itv) (⟨(f (-5) (0)), .pinf⟩ : Itv) (⟨(f (-2) (0)), (f 2 0)⟩ : Itv)) (Itv.entire)),
    (1710, eqB (Fmt.fmaI binary64 (⟨.ninf, (f 3 0)⟩ : Itv) (⟨(f 1 0), .pinf⟩ : Itv) (⟨(f (-2) (0)), (f 2 0)⟩ : Itv)) (Itv.entire)),
    (1711, eqB (Fmt.fmaI binary64 (⟨.ninf, (f 3 0)⟩ : Itv) (Itv.entire : Itv) (⟨(f (-2) (0)), (f 2 0)⟩ : Itv)) (Itv.entire)),
    (1713, eqB (Fmt.fmaI binary64 (⟨.ninf, (f (-3) (0))⟩ : Itv) (⟨(f 0 0), (f 0 0)⟩ : Itv) (⟨(f (-2) (0)), (f 2 0)⟩ : Itv)) (⟨(f (-2) (0)), (f 2 0)⟩)),
    (1714, eqB (Fmt.fmaI binary64 (⟨.ninf, (f (-3) (0))⟩ : Itv) (⟨.nzero, .nzero⟩ : Itv) (⟨(f (-2) (0)), (f 2 0)⟩ : Itv)) (⟨(f (-2) (0)), (f 2 0)⟩)),
    (1715, eqB (Fmt.fmaI binary64 (⟨.ninf, (f (-3) (0))⟩ : Itv) (⟨(f (-5) (0)), (f (-1) (0))⟩ : Itv) (⟨(f (-2) (0)), (f 2 0)⟩ : Itv)) (⟨(f 1 0), .pinf⟩)),
    (1716, eqB (Fmt.fmaI binary64 (⟨.ninf, (f (-3) (0))⟩ : Itv) (⟨(f (-5) (0)), (f 3 0)⟩ : Itv) (⟨(f (-2) (0)), (f 2 0)⟩ : Itv)) (Itv.entire)),
    (1717, eqB (Fmt.fmaI binary64 (⟨.ninf, (f (-3) (0))⟩ : Itv) (⟨(f 1 0), (f 3 0)⟩ : Itv) (⟨(f (-2) (0)), (f 2 0)⟩ : Itv)) (⟨.ninf, (f (-1) (0))⟩)),
    (1718, eqB (Fmt.fmaI binary64 (⟨.ninf, (f (-3) (0))⟩ : Itv) (⟨.ninf, (f (-1) (0))⟩ : Itv) (⟨(f (-2) (0)), (f 2 0)⟩ : Itv)) (⟨(f 1 0), .pinf⟩)),
    (1719, eqB (Fmt.fmaI binary64 (⟨.ninf, (f (-3) (0))⟩ : Itv) (⟨.ninf, (f 3 0)⟩ : Itv) (⟨(f (-2) (0)), (f 2 0)⟩ : Itv)) (Itv.entire)),
    (1720, eqB (Fmt.fmaI binary64 (⟨.ninf, (f (-3) (0))⟩ : Itv) (⟨(f (-5) (0)), .pinf⟩ : Itv) (⟨(f (-2) (0)), (f 2 0)⟩ : Itv)) (Itv.entire)),
    (1721, eqB (Fmt.fmaI binary64 (⟨.ninf, (f (-3) (0))⟩ : Itv) (⟨(f 1 0), .pinf⟩ : Itv) (⟨(f (-2) (0)), (f 2 0)⟩ : Itv)) (⟨.ninf, (f (-1) (0))⟩)),
    (1722, eqB (Fmt.fmaI binary64 (⟨.ninf, (f (-3) (0))⟩ : Itv) (Itv.entire : Itv) (⟨(f (-2) (0)), (f 2 0)⟩ : Itv)) (Itv.entire)),
    (1724, eqB (Fmt.fmaI binary64 (⟨(f 0 0), (f 0 0)⟩ : Itv) (⟨(f 0 0), (f 0 0)⟩ : Itv) (⟨(f (-2) (0)), (f 2 0)⟩ : Itv)) (⟨(f (-2) (0)), (f 2 0)⟩)),
    (1725, eqB (Fmt.fmaI binary64 (⟨(f 0 0), (f 0 0)⟩ : Itv) (⟨.nzero, .nzero⟩ : Itv) (⟨(f (-2) (0)), (f 2 0)⟩ : Itv)) (⟨(f (-2) (0)), (f 2 0)⟩)),
    (1726, eqB (Fmt.fmaI binary64 (⟨(f 0 0), (f 0 0)⟩ : Itv) (⟨(f (-5) (0)), (f (-1) (0))⟩ : Itv) (⟨(f (-2) (0)), (f 2 0)⟩ : Itv)) (⟨(f (-2) (0)), (f 2 0)⟩)),
    (1727, eqB (Fmt.fmaI binary64 (⟨(f 0 0), (f 0 0)⟩ : Itv) (⟨(f (-5) (0)), (f 3 0)⟩ : Itv) (⟨(f (-2) (0)), (f 2 0)⟩ : Itv)) (⟨(f (-2) (0)), (f 2 0)⟩)),
    (1728, eqB (Fmt.fmaI binary64 (⟨(f 0 0), (f 0 0)⟩ : Itv) (⟨(f 1 0), (f 3 0)⟩ : Itv) (⟨(f (-2) (0)), (f 2 0)⟩ : Itv)) (⟨(f (-2) (0)), (f 2 0)⟩)),
    (1729, eqB (Fmt.fmaI binary64 (⟨(f 0 0), (f 0 0)⟩ : Itv) (⟨.ninf, (f (-1) (0))⟩ : Itv) (⟨(f (-2) (0)), (f 2 0)⟩ : Itv)) (⟨(f (-2) (0)), (f 2 0)⟩)),
    (1730, eqB (Fmt.fmaI binary64 (⟨(f 0 0), (f 0 0)⟩ : Itv) (⟨.ninf, (f 3 0)⟩ : Itv) (⟨(f (-2) (0)), (f 2 0)⟩ : Itv)) (⟨(f (-2) (0)), (f 2 0)⟩)),
    (1731, eqB (Fmt.fmaI binary64 (⟨(f 0 0), (f 0 0)⟩ : Itv) (⟨(f (-5) (0)), .pinf⟩ : Itv) (⟨(f (-2) (0)), (f 2 0)⟩ : Itv)) (⟨(f (-2) (0)), (f 2 0)⟩)),
    (1732, eqB (Fmt.fmaI binary64 (⟨(f 0 0), (f 0 0)⟩ : Itv) (⟨(f 1 0), .pinf⟩ : Itv) (⟨(f (-2) (0)), (f 2 0)⟩ : Itv)) (⟨(f (-2) (0)), (f 2 0)⟩)),
    (1733, eqB (Fmt.fmaI binary64 (⟨(f 0 0), (f 0 0)⟩ : Itv) (Itv.entire : Itv) (⟨(f (-2) (0)), (f 2 0)⟩ : Itv)) (⟨(f (-2) (0)), (f 2 0)⟩)),
    (1735, eqB (Fmt.fmaI binary64 (⟨.nzero, .nzero⟩ : Itv) (⟨(f 0 0), (f 0 0)⟩ : Itv) (⟨(f (-2) (0)), (f 2 0)⟩ : Itv)) (⟨(f (-2) (0)), (f 2 0)⟩)),
    (1736, eqB (Fmt.fmaI binary64 (⟨.nzero, .nzero⟩ : Itv) (⟨.nzero, .nzero⟩ : Itv) (⟨(f (-2) (0)), (f 2 0)⟩ : Itv)) (⟨(f (-2) (0)), (f 2 0)⟩)),
    (1737, eqB (Fmt.fmaI binary64 (⟨.nzero, .nzero⟩ : Itv) (⟨(f (-5) (0)), (f (-1) (0))⟩ : Itv) (⟨(f (-2) (0)), (f 2 0)⟩ : Itv)) (⟨(f (-2) (0)), (f 2 0)⟩)),
    (1738, eqB (Fmt.fmaI binary64 (⟨.nzero, .nzero⟩ : Itv) (⟨(f (-5) (0)), (f 3 0)⟩ : Itv) (⟨(f (-2) (0)), (f 2 0)⟩ : Itv)) (⟨(f (-2) (0)), (f 2 0)⟩)),
    (1739, eqB (Fmt.fmaI binary64 (⟨.nzero, .nzero⟩ : Itv) (⟨(f 1 0), (f 3 0)⟩ : Itv) (⟨(f (-2) (0)), (f 2 0)⟩ : Itv)) (⟨(f (-2) (0)), (f 2 0)⟩)),
    (1740, eqB (Fmt.fmaI binary64 (⟨.nzero, .nzero⟩ : Itv) (⟨.ninf, (f (-1) (0))⟩ : Itv) (⟨(f (-2) (0)), (f 2 0)⟩ : Itv)) (⟨(f (-2) (0)), (f 2 0)⟩)),
    (1741, eqB (Fmt.fmaI binary64 (⟨.nzero, .nzero⟩ : Itv) (⟨.ninf, (f 3 0)⟩ : Itv) (⟨(f (-2) (0)), (f 2 0)⟩ : Itv)) (⟨(f (-2) (0)), (f 2 0)⟩)),
    (1742, eqB (Fmt.fmaI binary64 (⟨.nzero, .nzero⟩ : Itv) (⟨(f (-5) (0)), .pinf⟩ : Itv) (⟨(f (-2) (0)), (f 2 0)⟩ : Itv)) (⟨(f (-2) (0)), (f 2 0)⟩)),
    (1743, eqB (Fmt.fmaI binary64 (⟨.nzero, .nzero⟩ : Itv) (⟨(f 1 0), .pinf⟩ : Itv) (⟨(f (-2) (0)), (f 2 0)⟩ : Itv)) (⟨(f (-2) (0)), (f 2 0)⟩)),
    (1744, eqB (Fmt.fmaI binary64 (⟨.nzero, .nzero⟩ : Itv) (Itv.entire : Itv) (⟨(f (-2) (0)), (f 2 0)⟩ : Itv)) (⟨(f (-2) (0)), (f 2 0)⟩)),
    (1746, eqB (Fmt.fmaI binary64 (⟨(f 1 0), (f 5 0)⟩ : Itv) (⟨(f 0 0), (f 0 0)⟩ : Itv) (⟨(f (-2) (0)), (f 2 0)⟩ : Itv)) (⟨(f (-2) (0)), (f 2 0)⟩)),
    (1747, eqB (Fmt.fmaI binary64 (⟨(f 1 0), (f 5 0)⟩ : Itv) (⟨.nzero, .nzero⟩ : Itv) (⟨(f (-2) (0)), (f 2 0)⟩ : Itv)) (⟨(f (-2) (0)), (f 2 0)⟩)),
    (1748, eqB (Fmt.fmaI binary64 (⟨(f 1 0), (f 5 0)⟩ : Itv) (⟨(f (-5) (0)), (f (-1) (0))⟩ : Itv) (⟨(f (-2) (0)), (f 2 0)⟩ : Itv)) (⟨(f (-27) (0)), (f 1 0)⟩)),
    (1749, eqB (Fmt.fmaI binary64 (⟨(f 1 0), (f 5 0)⟩ : Itv) (⟨(f (-5) (0)), (f 3 0)⟩ : Itv) (⟨(f (-2) (0)), (f 2 0)⟩ : Itv)) (⟨(f (-27) (0)), (f 17 0)⟩)),
    (1750, eqB (Fmt.fmaI binary64 (⟨(f 1 0), (f 5 0)⟩ : Itv) (⟨(f 1 0), (f 3 0)⟩ : Itv) (⟨(f (-2) (0)), (f 2 0)⟩ : Itv)) (⟨(f (-1) (0)), (f 17 0)⟩))] : List (ℕ × Bool)).all (·.2) = true := by
  decide +kernel

end P1788.Conform
