import Verif.Conform.Basic

/-!
# Conformance: util_func

Generated from `/repo/test/p1788/flavor/infsup/setbased/test_mpfr_bin_ieee754_flavor_util_func.cpp`: the assertions of the project's own test suite, evaluated in the
model by the kernel.  Each entry is (line in that file, value of the assertion).  These are tests of the model, not proofs of
properties.
-/

set_option maxRecDepth 100000

namespace P1788.Conform

example : ([
    (60, FP.feq (Fmt.convertRndd binary64 (f (7205759403792793) (-56))) (f (7205759403792793) (-56))),
    (61, FP.feq (Fmt.convertRndd binary32 (f (7205759403792793) (-56))) (f (3355443) (-25))),
    (62, FP.feq (Fmt.convertRndd binary64 (f (13421773) (-27))) (f (13421773) (-27))),
    (63, FP.feq (Fmt.convertRndd binary64 (f (13421773) (-27))) (f (13421773) (-27))),
    (64, FP.feq (Fmt.convertRndd binary32 (f (13421773) (-27))) (f (13421773) (-27))),
    (66, FP.feq (Fmt.convertRndd binary64 (f (-3602879824865869) (-47))) (f (-3602879824865869) (-47))),
    (67, FP.feq (Fmt.convertRndd binary32 (f (-3602879824865869) (-47))) (f (-6710887) (-18))),
    (68, FP.feq (Fmt.convertRndd binary64 (f (-6710887) (-18))) (f (-6710887) (-18))),
    (69, FP.feq (Fmt.convertRndd binary64 (f (-6710887) (-18))) (f (-6710887) (-18))),
    (70, FP.feq (Fmt.convertRndd binary32 (f (-6710887) (-18))) (f (-6710887) (-18))),
    (73, FP.feq (Fmt.convertRndd binary64 (f (1) (-1074))) (f (1) (-1074))),
    (74, FP.feq (Fmt.convertRndd binary32 (f (1) (-1074))) .nzero),
    (75, sgn (Fmt.convertRndd binary32 (f (1) (-1074)))),
    (76, FP.feq (Fmt.convertRndd binary64 (f (-1) (-1074))) (f (-1) (-1074))),
    (77, FP.feq (Fmt.convertRndd binary32 (f (-1) (-1074))) (f (-1) (-149))),
    (79, FP.feq (Fmt.convertRndd binary64 (f 9007199254740991 971)) (f 9007199254740991 971)),
    (80, FP.feq (Fmt.convertRndd binary32 (f 9007199254740991 971)) (f 16777215 104)),
    (81, FP.feq (Fmt.convertRndd binary64 (f (-9007199254740991) (971))) (f (-9007199254740991) (971))),
    (82, FP.feq (Fmt.convertRndd binary32 (f (-9007199254740991) (971))) .ninf),
    (84, FP.feq (Fmt.convertRndd binary64 .pinf) .pinf),
    (85, FP.feq (Fmt.convertRndd binary32 .pinf) .pinf),
    (86, FP.feq (Fmt.convertRndd binary64 .ninf) .ninf),
    (87, FP.feq (Fmt.convertRndd binary32 .ninf) .ninf),
    (88, FP.feq (Fmt.convertRndd binary64 .pinf) .pinf),
    (89, FP.feq (Fmt.convertRndd binary32 .pinf) .pinf),
    (90, FP.feq (Fmt.convertRndd binary64 .ninf) .ninf),
    (91, FP.feq (Fmt.convertRndd binary32 .ninf) .ninf),
    (93, (Fmt.convertRndd binary64 .nan).isNaN),
    (94, (Fmt.convertRndd binary32 .nan).isNaN),
    (95, (Fmt.convertRndd binary64 .nan).isNaN),
    (96, (Fmt.convertRndd binary32 .nan).isNaN),
    (102, FP.feq (Fmt.convertRndn binary64 (f (7205759403792793) (-56))) (f (7205759403792793) (-56))),
    (103, FP.feq (Fmt.convertRndn binary32 (f (7205759403792793) (-56))) (f (13421773) (-27))),
    (104, FP.feq (Fmt.convertRndn binary64 (f (13421773) (-27))) (f (13421773) (-27))),
    (105, FP.feq (Fmt.convertRndn binary64 (f (13421773) (-27))) (f (13421773) (-27))),
    (106, FP.feq (Fmt.convertRndn binary32 (f (13421773) (-27))) (f (13421773) (-27))),
    (108, FP.feq (Fmt.convertRndn binary64 (f (-3602879824865869) (-47))) (f (-3602879824865869) (-47))),
    (109, FP.feq (Fmt.convertRndn binary32 (f (-3602879824865869) (-47))) (f (-13421773) (-19))),
    (110, FP.feq (Fmt.convertRndn binary64 (f (-6710887) (-18))) (f (-6710887) (-18))),
    (111, FP.feq (Fmt.convertRndn binary64 (f (-6710887) (-18))) (f (-6710887) (-18))),
    (112, FP.feq (Fmt.convertRndn binary32 (f (-6710887) (-18))) (f (-6710887) (-18))),
    (114, FP.feq (Fmt.convertRndn binary64 (f (1) (-1074))) (f (1) (-1074))),
    (115, FP.feq (Fmt.convertRndn binary32 (f (1) (-1074))) (f 0 0)),
    (116, !sgn (Fmt.convertRndn binary32 (f (1) (-1074)))),
    (117, FP.feq (Fmt.convertRndn binary64 (f (-1) (-1074))) (f (-1) (-1074))),
    (118, FP.feq (Fmt.convertRndn binary32 (f (-1) (-1074))) (f 0 0)),
    (119, !sgn (Fmt.convertRndn binary32 (f (-1) (-1074)))),
    (121, FP.feq (Fmt.convertRndn binary64 (f 9007199254740991 971)) (f 9007199254740991 971)),
    (122, FP.feq (Fmt.convertRndn binary32 (f 9007199254740991 971)) .pinf),
    (123, FP.feq (Fmt.convertRndn binary64 (f (-9007199254740991) (971))) (f (-9007199254740991) (971)))] : List (ℕ × Bool)).all (·.2) = true := by
  decide +kernel

example : ([
    (124, FP.feq (Fmt.convertRndn binary32 (f (-9007199254740991) (971))) .ninf),
    (126, FP.feq (Fmt.convertRndn binary64 .pinf) .pinf),
    (127, FP.feq (Fmt.convertRndn binary32 .pinf) .pinf),
    (128, FP.feq (Fmt.convertRndn binary64 .ninf) .ninf),
    (129, FP.feq (Fmt.convertRndn binary32 .ninf) .ninf),
    (130, FP.feq (Fmt.convertRndn binary64 .pinf) .pinf),
    (131, FP.feq (Fmt.convertRndn binary32 .pinf) .pinf),
    (132, FP.feq (Fmt.convertRndn binary64 .ninf) .ninf),
    (133, FP.feq (Fmt.convertRndn binary32 .ninf) .ninf),
    (135, (Fmt.convertRndn binary64 .nan).isNaN),
    (136, (Fmt.convertRndn binary32 .nan).isNaN),
    (137, (Fmt.convertRndn binary64 .nan).isNaN),
    (138, (Fmt.convertRndn binary32 .nan).isNaN),
    (144, FP.feq (Fmt.convertRndu binary64 (f (7205759403792793) (-56))) (f (7205759403792793) (-56))),
    (145, FP.feq (Fmt.convertRndu binary32 (f (7205759403792793) (-56))) (f (13421773) (-27))),
    (146, FP.feq (Fmt.convertRndu binary64 (f (13421773) (-27))) (f (13421773) (-27))),
    (147, FP.feq (Fmt.convertRndu binary64 (f (13421773) (-27))) (f (13421773) (-27))),
    (148, FP.feq (Fmt.convertRndu binary32 (f (13421773) (-27))) (f (13421773) (-27))),
    (150, FP.feq (Fmt.convertRndu binary64 (f (-3602879824865869) (-47))) (f (-3602879824865869) (-47))),
    (151, FP.feq (Fmt.convertRndu binary32 (f (-3602879824865869) (-47))) (f (-13421773) (-19))),
    (152, FP.feq (Fmt.convertRndu binary64 (f (-6710887) (-18))) (f (-6710887) (-18))),
    (153, FP.feq (Fmt.convertRndu binary64 (f (-6710887) (-18))) (f (-6710887) (-18))),
    (154, FP.feq (Fmt.convertRndu binary32 (f (-6710887) (-18))) (f (-6710887) (-18))),
    (156, FP.feq (Fmt.convertRndu binary64 (f (1) (-1074))) (f (1) (-1074))),
    (157, FP.feq (Fmt.convertRndu binary32 (f (1) (-1074))) (f (1) (-149))),
    (158, FP.feq (Fmt.convertRndu binary64 (f (-1) (-1074))) (f (-1) (-1074))),
    (159, FP.feq (Fmt.convertRndu binary32 (f (-1) (-1074))) (f 0 0)),
    (160, !sgn (Fmt.convertRndu binary32 (f (-1) (-1074)))),
    (162, FP.feq (Fmt.convertRndu binary64 (f 9007199254740991 971)) (f 9007199254740991 971)),
    (163, FP.feq (Fmt.convertRndu binary32 (f 9007199254740991 971)) .pinf),
    (164, FP.feq (Fmt.convertRndu binary64 (f (-9007199254740991) (971))) (f (-9007199254740991) (971))),
    (165, FP.feq (Fmt.convertRndu binary32 (f (-9007199254740991) (971))) (f (-16777215) (104))),
    (167, FP.feq (Fmt.convertRndu binary64 .pinf) .pinf),
    (168, FP.feq (Fmt.convertRndu binary32 .pinf) .pinf),
    (169, FP.feq (Fmt.convertRndu binary64 .ninf) .ninf),
    (170, FP.feq (Fmt.convertRndu binary32 .ninf) .ninf),
    (171, FP.feq (Fmt.convertRndu binary64 .pinf) .pinf),
    (172, FP.feq (Fmt.convertRndu binary32 .pinf) .pinf),
    (173, FP.feq (Fmt.convertRndu binary64 .ninf) .ninf),
    (174, FP.feq (Fmt.convertRndu binary32 .ninf) .ninf),
    (176, (Fmt.convertRndu binary64 .nan).isNaN),
    (177, (Fmt.convertRndu binary32 .nan).isNaN),
    (178, (Fmt.convertRndu binary64 .nan).isNaN),
    (179, (Fmt.convertRndu binary32 .nan).isNaN),
    (185, eqB (Fmt.convertHull binary64 (⟨(f (-3602879824865869) (-47)), (f (7205759403792793) (-56))⟩ : Itv)) (⟨(f (-3602879824865869) (-47)), (f (7205759403792793) (-56))⟩)),
    (186, eqB (Fmt.convertHull binary64 (⟨(f (-6710887) (-18)), (f (7205759403792793) (-56))⟩ : Itv)) (⟨(f (-6710887) (-18)), (f (7205759403792793) (-56))⟩)),
    (187, eqB (Fmt.convertHull binary64 (⟨(f (-3602879824865869) (-47)), (f (13421773) (-27))⟩ : Itv)) (⟨(f (-3602879824865869) (-47)), (f (13421773) (-27))⟩)),
    (188, eqB (Fmt.convertHull binary64 (⟨(f (-6710887) (-18)), (f (13421773) (-27))⟩ : Itv)) (⟨(f (-6710887) (-18)), (f (13421773) (-27))⟩)),
    (189, eqB (Fmt.convertHull binary64 (⟨(f (-6710887) (-18)), (f (13421773) (-27))⟩ : Itv)) (⟨(f (-6710887) (-18)), (f (13421773) (-27))⟩)),
    (191, eqB (Fmt.convertHull binary64 (⟨(f (-1) (-1074)), (f (-1) (-1074))⟩ : Itv)) (⟨(f (-1) (-1074)), (f (-1) (-1074))⟩))] : List (ℕ × Bool)).all (·.2) = true := by
  decide +kernel

example : ([
    (192, eqB (Fmt.convertHull binary64 (⟨(f (-1) (-1074)), (f (1) (-1074))⟩ : Itv)) (⟨(f (-1) (-1074)), (f (1) (-1074))⟩)),
    (193, eqB (Fmt.convertHull binary64 (⟨(f (1) (-1074)), (f (1) (-1074))⟩ : Itv)) (⟨(f (1) (-1074)), (f (1) (-1074))⟩)),
    (194, eqB (Fmt.convertHull binary64 (⟨(f (1) (-149)), (f (1) (-149))⟩ : Itv)) (⟨(f (1) (-149)), (f (1) (-149))⟩)),
    (196, eqB (Fmt.convertHull binary64 (⟨(f (-9007199254740991) (971)), (f (-9007199254740991) (971))⟩ : Itv)) (⟨(f (-9007199254740991) (971)), (f (-9007199254740991) (971))⟩)),
    (197, eqB (Fmt.convertHull binary64 (⟨(f (-9007199254740991) (971)), (f 9007199254740991 971)⟩ : Itv)) (⟨(f (-9007199254740991) (971)), (f 9007199254740991 971)⟩)),
    (198, eqB (Fmt.convertHull binary64 (⟨(f 9007199254740991 971), (f 9007199254740991 971)⟩ : Itv)) (⟨(f 9007199254740991 971), (f 9007199254740991 971)⟩)),
    (199, eqB (Fmt.convertHull binary64 (⟨(f 16777215 104), (f 16777215 104)⟩ : Itv)) (⟨(f 16777215 104), (f 16777215 104)⟩)),
    (201, eqB (Fmt.convertHull binary64 (⟨.ninf, .pinf⟩ : Itv)) (⟨.ninf, .pinf⟩)),
    (202, eqB (Fmt.convertHull binary64 (⟨.ninf, .pinf⟩ : Itv)) (⟨.ninf, .pinf⟩)),
    (204, Itv.isEmpty (Fmt.convertHull binary64 (⟨.nan, .nan⟩ : Itv) : Itv)),
    (205, Itv.isEmpty (Fmt.convertHull binary64 (⟨.nan, .nan⟩ : Itv) : Itv)),
    (207, eqB (Fmt.convertHull binary32 (⟨(f (-3602879824865869) (-47)), (f (7205759403792793) (-56))⟩ : Itv)) (⟨(f (-6710887) (-18)), (f (13421773) (-27))⟩)),
    (208, eqB (Fmt.convertHull binary32 (⟨(f (-6710887) (-18)), (f (7205759403792793) (-56))⟩ : Itv)) (⟨(f (-6710887) (-18)), (f (13421773) (-27))⟩)),
    (209, eqB (Fmt.convertHull binary32 (⟨(f (-3602879824865869) (-47)), (f (13421773) (-27))⟩ : Itv)) (⟨(f (-6710887) (-18)), (f (13421773) (-27))⟩)),
    (210, eqB (Fmt.convertHull binary32 (⟨(f (-6710887) (-18)), (f (13421773) (-27))⟩ : Itv)) (⟨(f (-6710887) (-18)), (f (13421773) (-27))⟩)),
    (211, eqB (Fmt.convertHull binary32 (⟨(f (-6710887) (-18)), (f (13421773) (-27))⟩ : Itv)) (⟨(f (-6710887) (-18)), (f (13421773) (-27))⟩)),
    (213, eqB (Fmt.convertHull binary32 (⟨(f (-1) (-1074)), (f (-1) (-1074))⟩ : Itv)) (⟨(f (-1) (-149)), (f 0 0)⟩)),
    (214, !sgn ((Fmt.convertHull binary32 (⟨(f (-1) (-1074)), (f (-1) (-1074))⟩ : Itv) : Itv).hi)),
    (215, eqB (Fmt.convertHull binary32 (⟨(f (-1) (-1074)), (f (1) (-1074))⟩ : Itv)) (⟨(f (-1) (-149)), (f (1) (-149))⟩)),
    (216, eqB (Fmt.convertHull binary32 (⟨(f (1) (-1074)), (f (1) (-1074))⟩ : Itv)) (⟨.nzero, (f (1) (-149))⟩)),
    (217, sgn ((Fmt.convertHull binary32 (⟨(f (1) (-1074)), (f (1) (-1074))⟩ : Itv) : Itv).lo)),
    (218, eqB (Fmt.convertHull binary32 (⟨(f (1) (-149)), (f (1) (-149))⟩ : Itv)) (⟨(f (1) (-149)), (f (1) (-149))⟩)),
    (220, eqB (Fmt.convertHull binary32 (⟨(f (-9007199254740991) (971)), (f (-9007199254740991) (971))⟩ : Itv)) (⟨.ninf, (f (-16777215) (104))⟩)),
    (221, eqB (Fmt.convertHull binary32 (⟨(f (-9007199254740991) (971)), (f 9007199254740991 971)⟩ : Itv)) (⟨.ninf, .pinf⟩)),
    (222, eqB (Fmt.convertHull binary32 (⟨(f 9007199254740991 971), (f 9007199254740991 971)⟩ : Itv)) (⟨(f 16777215 104), .pinf⟩)),
    (223, eqB (Fmt.convertHull binary32 (⟨(f 16777215 104), (f 16777215 104)⟩ : Itv)) (⟨(f 16777215 104), (f 16777215 104)⟩)),
    (225, eqB (Fmt.convertHull binary32 (⟨.ninf, .pinf⟩ : Itv)) (⟨.ninf, .pinf⟩)),
    (226, eqB (Fmt.convertHull binary32 (⟨.ninf, .pinf⟩ : Itv)) (⟨.ninf, .pinf⟩)),
    (228, Itv.isEmpty (Fmt.convertHull binary32 (⟨.nan, .nan⟩ : Itv) : Itv)),
    (229, Itv.isEmpty (Fmt.convertHull binary32 (⟨.nan, .nan⟩ : Itv) : Itv)),
    (235, eqD (Fmt.convertHullD binary64 (⟨⟨(f (-3602879824865869) (-47)), (f (7205759403792793) (-56))⟩, .trv⟩ : DItv)) (⟨⟨(f (-3602879824865869) (-47)), (f (7205759403792793) (-56))⟩, .trv⟩)),
    (236, eqD (Fmt.convertHullD binary64 (⟨⟨(f (-6710887) (-18)), (f (7205759403792793) (-56))⟩, .com⟩ : DItv)) (⟨⟨(f (-6710887) (-18)), (f (7205759403792793) (-56))⟩, .com⟩)),
    (237, eqD (Fmt.convertHullD binary64 (⟨⟨(f (-3602879824865869) (-47)), (f (13421773) (-27))⟩, .dac⟩ : DItv)) (⟨⟨(f (-3602879824865869) (-47)), (f (13421773) (-27))⟩, .dac⟩)),
    (238, eqD (Fmt.convertHullD binary64 (⟨⟨(f (-6710887) (-18)), (f (13421773) (-27))⟩, .defd⟩ : DItv)) (⟨⟨(f (-6710887) (-18)), (f (13421773) (-27))⟩, .defd⟩)),
    (239, eqD (Fmt.convertHullD binary64 (⟨⟨(f (-6710887) (-18)), (f (13421773) (-27))⟩, .trv⟩ : DItv)) (⟨⟨(f (-6710887) (-18)), (f (13421773) (-27))⟩, .trv⟩)),
    (241, eqD (Fmt.convertHullD binary64 (⟨⟨(f (-1) (-1074)), (f (-1) (-1074))⟩, .trv⟩ : DItv)) (⟨⟨(f (-1) (-1074)), (f (-1) (-1074))⟩, .trv⟩)),
    (242, eqD (Fmt.convertHullD binary64 (⟨⟨(f (-1) (-1074)), (f (1) (-1074))⟩, .trv⟩ : DItv)) (⟨⟨(f (-1) (-1074)), (f (1) (-1074))⟩, .trv⟩)),
    (243, eqD (Fmt.convertHullD binary64 (⟨⟨(f (1) (-1074)), (f (1) (-1074))⟩, .trv⟩ : DItv)) (⟨⟨(f (1) (-1074)), (f (1) (-1074))⟩, .trv⟩)),
    (244, eqD (Fmt.convertHullD binary64 (⟨⟨(f (1) (-149)), (f (1) (-149))⟩, .trv⟩ : DItv)) (⟨⟨(f (1) (-149)), (f (1) (-149))⟩, .trv⟩)),
    (246, eqD (Fmt.convertHullD binary64 (⟨⟨(f (-9007199254740991) (971)), (f (-9007199254740991) (971))⟩, .trv⟩ : DItv)) (⟨⟨(f (-9007199254740991) (971)), (f (-9007199254740991) (971))⟩, .trv⟩)),
    (247, eqD (Fmt.convertHullD binary64 (⟨⟨(f (-9007199254740991) (971)), (f 9007199254740991 971)⟩, .trv⟩ : DItv)) (⟨⟨(f (-9007199254740991) (971)), (f 9007199254740991 971)⟩, .trv⟩)),
    (248, eqD (Fmt.convertHullD binary64 (⟨⟨(f 9007199254740991 971), (f 9007199254740991 971)⟩, .trv⟩ : DItv)) (⟨⟨(f 9007199254740991 971), (f 9007199254740991 971)⟩, .trv⟩)),
    (249, eqD (Fmt.convertHullD binary64 (⟨⟨(f 16777215 104), (f 16777215 104)⟩, .trv⟩ : DItv)) (⟨⟨(f 16777215 104), (f 16777215 104)⟩, .trv⟩)),
    (251, eqD (Fmt.convertHullD binary64 (⟨⟨.ninf, .pinf⟩, .trv⟩ : DItv)) (⟨⟨.ninf, .pinf⟩, .trv⟩)),
    (252, eqD (Fmt.convertHullD binary64 (⟨⟨.ninf, .pinf⟩, .trv⟩ : DItv)) (⟨⟨.ninf, .pinf⟩, .trv⟩)),
    (254, DItv.pred Itv.isEmpty (Fmt.convertHullD binary64 (⟨⟨.nan, .nan⟩, .trv⟩ : DItv) : DItv)),
    (255, DItv.pred Itv.isEmpty (Fmt.convertHullD binary64 (⟨⟨.nan, .nan⟩, .trv⟩ : DItv) : DItv)),
    (257, eqD (Fmt.convertHullD binary32 (⟨⟨(f (-3602879824865869) (-47)), (f (7205759403792793) (-56))⟩, .trv⟩ : DItv)) (⟨⟨(f (-6710887) (-18)), (f (13421773) (-27))⟩, .trv⟩)),
    (258, eqD (Fmt.convertHullD binary32 (⟨⟨(f (-6710887) (-18)), (f (7205759403792793) (-56))⟩, .com⟩ : DItv)) (⟨⟨(f (-6710887) (-18)), (f (13421773) (-27))⟩, .com⟩)),
    (259, eqD (Fmt.convertHullD binary32 (⟨⟨(f (-3602879824865869) (-47)), (f (13421773) (-27))⟩, .dac⟩ : DItv)) (⟨⟨(f (-6710887) (-18)), (f (13421773) (-27))⟩, .dac⟩))] : List (ℕ × Bool)).all (·.2) = true := by
  decide +kernel

example : ([
    (260, eqD (Fmt.convertHullD binary32 (⟨⟨(f (-6710887) (-18)), (f (13421773) (-27))⟩, .defd⟩ : DItv)) (⟨⟨(f (-6710887) (-18)), (f (13421773) (-27))⟩, .defd⟩)),
    (261, eqD (Fmt.convertHullD binary32 (⟨⟨(f (-6710887) (-18)), (f (13421773) (-27))⟩, .trv⟩ : DItv)) (⟨⟨(f (-6710887) (-18)), (f (13421773) (-27))⟩, .trv⟩)),
    (263, eqD (Fmt.convertHullD binary32 (⟨⟨(f (-1) (-1074)), (f (-1) (-1074))⟩, .trv⟩ : DItv)) (⟨⟨(f (-1) (-149)), (f 0 0)⟩, .trv⟩)),
    (264, !sgn (((Fmt.convertHullD binary32 (⟨⟨(f (-1) (-1074)), (f (-1) (-1074))⟩, .trv⟩ : DItv) : DItv).itv : Itv).hi)),
    (265, eqD (Fmt.convertHullD binary32 (⟨⟨(f (-1) (-1074)), (f (1) (-1074))⟩, .trv⟩ : DItv)) (⟨⟨(f (-1) (-149)), (f (1) (-149))⟩, .trv⟩)),
    (266, eqD (Fmt.convertHullD binary32 (⟨⟨(f (1) (-1074)), (f (1) (-1074))⟩, .trv⟩ : DItv)) (⟨⟨.nzero, (f (1) (-149))⟩, .trv⟩)),
    (267, sgn (((Fmt.convertHullD binary32 (⟨⟨(f (1) (-1074)), (f (1) (-1074))⟩, .trv⟩ : DItv) : DItv).itv : Itv).lo)),
    (268, eqD (Fmt.convertHullD binary32 (⟨⟨(f (1) (-149)), (f (1) (-149))⟩, .trv⟩ : DItv)) (⟨⟨(f (1) (-149)), (f (1) (-149))⟩, .trv⟩)),
    (270, eqD (Fmt.convertHullD binary32 (⟨⟨(f (-9007199254740991) (971)), (f (-9007199254740991) (971))⟩, .defd⟩ : DItv)) (⟨⟨.ninf, (f (-16777215) (104))⟩, .defd⟩)),
    (271, eqD (Fmt.convertHullD binary32 (⟨⟨(f (-9007199254740991) (971)), (f 9007199254740991 971)⟩, .trv⟩ : DItv)) (⟨⟨.ninf, .pinf⟩, .trv⟩)),
    (272, eqD (Fmt.convertHullD binary32 (⟨⟨(f 9007199254740991 971), (f 9007199254740991 971)⟩, .dac⟩ : DItv)) (⟨⟨(f 16777215 104), .pinf⟩, .dac⟩)),
    (273, eqD (Fmt.convertHullD binary32 (⟨⟨(f 16777215 104), (f 16777215 104)⟩, .trv⟩ : DItv)) (⟨⟨(f 16777215 104), (f 16777215 104)⟩, .trv⟩)),
    (275, eqD (Fmt.convertHullD binary32 (⟨⟨(f (-9007199254740991) (971)), (f (-9007199254740991) (971))⟩, .com⟩ : DItv)) (⟨⟨.ninf, (f (-16777215) (104))⟩, .dac⟩)),
    (276, eqD (Fmt.convertHullD binary32 (⟨⟨(f (-9007199254740991) (971)), (f 9007199254740991 971)⟩, .com⟩ : DItv)) (⟨⟨.ninf, .pinf⟩, .dac⟩)),
    (277, eqD (Fmt.convertHullD binary32 (⟨⟨(f 9007199254740991 971), (f 9007199254740991 971)⟩, .com⟩ : DItv)) (⟨⟨(f 16777215 104), .pinf⟩, .dac⟩)),
    (278, eqD (Fmt.convertHullD binary32 (⟨⟨(f 16777215 104), (f 16777215 104)⟩, .com⟩ : DItv)) (⟨⟨(f 16777215 104), (f 16777215 104)⟩, .com⟩)),
    (280, eqD (Fmt.convertHullD binary32 (⟨⟨.ninf, .pinf⟩, .trv⟩ : DItv)) (⟨⟨.ninf, .pinf⟩, .trv⟩)),
    (281, eqD (Fmt.convertHullD binary32 (⟨⟨.ninf, .pinf⟩, .trv⟩ : DItv)) (⟨⟨.ninf, .pinf⟩, .trv⟩)),
    (283, DItv.pred Itv.isEmpty (Fmt.convertHullD binary32 (⟨⟨.nan, .nan⟩, .trv⟩ : DItv) : DItv)),
    (284, DItv.pred Itv.isEmpty (Fmt.convertHullD binary32 (⟨⟨.nan, .nan⟩, .trv⟩ : DItv) : DItv)),
    (286, eqD (Fmt.convertHullD binary64 (⟨⟨(f (-6710887) (-18)), (f (7205759403792793) (-56))⟩, .com⟩ : DItv)) (⟨⟨(f (-6710887) (-18)), (f (7205759403792793) (-56))⟩, .com⟩))] : List (ℕ × Bool)).all (·.2) = true := by
  decide +kernel

end P1788.Conform
