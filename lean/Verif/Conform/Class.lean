import Verif.Conform.Basic

/-!
# Conformance: class

Generated from `/repo/test/p1788/flavor/infsup/setbased/test_mpfr_bin_ieee754_flavor_class.cpp`: the assertions of the project's own test suite, evaluated in the
model by the kernel.  Each entry is (line in that file, value of the assertion).  These are tests of the model, not proofs of
properties.
-/

set_option maxRecDepth 100000

namespace P1788.Conform

example : ([
    (64, ((Itv.empty : Itv).lo).isNaN),
    (65, ((Itv.empty : Itv).hi).isNaN),
    (74, (((DItv.empty : DItv).itv : Itv).lo).isNaN),
    (75, (((DItv.empty : DItv).itv : Itv).hi).isNaN),
    (76, decide (((DItv.empty : DItv).dec : Dec) = .trv)),
    (85, FP.feq ((Itv.entire : Itv).lo) .ninf),
    (86, FP.feq ((Itv.entire : Itv).hi) .pinf),
    (96, FP.feq (((DItv.entire : DItv).itv : Itv).lo) .ninf),
    (97, FP.feq (((DItv.entire : DItv).itv : Itv).hi) .pinf),
    (98, decide (((DItv.entire : DItv).dec : Dec) = .dac)),
    (108, (((DItv.nai : DItv).itv : Itv).lo).isNaN),
    (109, (((DItv.nai : DItv).itv : Itv).hi).isNaN),
    (110, decide (((DItv.nai : DItv).dec : Dec) = .ill)),
    (121, eqB (ret <| numsToInterval (f (-1) (0)) (f 1 0)) (⟨(f (-1) (0)), (f 1 0)⟩)),
    (122, eqB (ret <| numsToInterval .ninf (f 1 0)) (⟨.ninf, (f 1 0)⟩)),
    (123, eqB (ret <| numsToInterval (f (-1) (0)) .pinf) (⟨(f (-1) (0)), .pinf⟩)),
    (124, eqB (ret <| numsToInterval .ninf .pinf) (⟨.ninf, .pinf⟩)),
    (128, ((ret <| numsToInterval .nan .nan : Itv).lo).isNaN),
    (131, ((ret <| numsToInterval .nan .nan : Itv).hi).isNaN),
    (134, ((ret <| numsToInterval (f 1 0) (f (-1) (0)) : Itv).lo).isNaN),
    (137, ((ret <| numsToInterval (f 1 0) (f (-1) (0)) : Itv).hi).isNaN),
    (140, ((ret <| numsToInterval .ninf .ninf : Itv).lo).isNaN),
    (143, ((ret <| numsToInterval .ninf .ninf : Itv).hi).isNaN),
    (146, ((ret <| numsToInterval .pinf .pinf : Itv).lo).isNaN),
    (149, ((ret <| numsToInterval .pinf .pinf : Itv).hi).isNaN),
    (164, eqD (ret <| numsToDecorated (f (-1) (0)) (f 1 0)) (⟨⟨(f (-1) (0)), (f 1 0)⟩, .com⟩)),
    (165, eqD (ret <| numsToDecorated .ninf (f 1 0)) (⟨⟨.ninf, (f 1 0)⟩, .dac⟩)),
    (166, eqD (ret <| numsToDecorated (f (-1) (0)) .pinf) (⟨⟨(f (-1) (0)), .pinf⟩, .dac⟩)),
    (167, eqD (ret <| numsToDecorated .ninf .pinf) (⟨⟨.ninf, .pinf⟩, .dac⟩)),
    (171, (((ret <| numsToDecorated .nan .nan : DItv).itv : Itv).lo).isNaN),
    (174, (((ret <| numsToDecorated .nan .nan : DItv).itv : Itv).hi).isNaN),
    (177, decide (((ret <| numsToDecorated .nan .nan : DItv).dec : Dec) = .ill)),
    (180, (((ret <| numsToDecorated (f 1 0) (f (-1) (0)) : DItv).itv : Itv).lo).isNaN),
    (183, (((ret <| numsToDecorated (f 1 0) (f (-1) (0)) : DItv).itv : Itv).hi).isNaN),
    (186, decide (((ret <| numsToDecorated (f 1 0) (f (-1) (0)) : DItv).dec : Dec) = .ill)),
    (189, (((ret <| numsToDecorated .ninf .ninf : DItv).itv : Itv).lo).isNaN),
    (192, (((ret <| numsToDecorated .ninf .ninf : DItv).itv : Itv).hi).isNaN),
    (195, decide (((ret <| numsToDecorated .ninf .ninf : DItv).dec : Dec) = .ill)),
    (198, (((ret <| numsToDecorated .pinf .pinf : DItv).itv : Itv).lo).isNaN),
    (201, (((ret <| numsToDecorated .pinf .pinf : DItv).itv : Itv).hi).isNaN),
    (204, decide (((ret <| numsToDecorated .pinf .pinf : DItv).dec : Dec) = .ill)),
    (220, eqB (ret <| Fmt.numsToIntervalMixed binary32 (f (-1) (0)) (f 1 0)) (⟨(f (-1) (0)), (f 1 0)⟩)),
    (221, eqB (ret <| Fmt.numsToIntervalMixed binary32 .ninf (f 1 0)) (⟨.ninf, (f 1 0)⟩)),
    (222, eqB (ret <| Fmt.numsToIntervalMixed binary32 (f (-1) (0)) .pinf) (⟨(f (-1) (0)), .pinf⟩)),
    (223, eqB (ret <| Fmt.numsToIntervalMixed binary32 .ninf .pinf) (⟨.ninf, .pinf⟩)),
    (224, eqB (ret <| Fmt.numsToIntervalMixed binary32 (f (-9007199254740991) (971)) (f 9007199254740991 971)) (⟨.ninf, .pinf⟩)),
    (225, eqB (ret <| Fmt.numsToIntervalMixed binary32 (f (1) (-1074)) (f (1) (-1074))) (⟨(f 0 0), (f (1) (-149))⟩)),
    (226, eqB (ret <| Fmt.numsToIntervalMixed binary32 (f (-1) (-1074)) (f (-1) (-1074))) (⟨(f (-1) (-149)), (f 0 0)⟩)),
    (227, eqB (ret <| Fmt.numsToIntervalMixed binary32 (f (-1) (-1074)) (f (1) (-1074))) (⟨(f (-1) (-149)), (f (1) (-149))⟩)),
    (228, eqB (ret <| Fmt.numsToIntervalMixed binary32 (f (-3602879824865869) (-47)) (f (7205759403792793) (-56))) (⟨(f (-6710887) (-18)), (f (13421773) (-27))⟩))] : List (ℕ × Bool)).all (·.2) = true := by
  decide +kernel

example : ([
    (229, eqB (ret <| Fmt.numsToIntervalMixed binary64 (f (-6710887) (-18)) (f (13421773) (-27))) (⟨(f (-6710887) (-18)), (f (13421773) (-27))⟩)),
    (230, eqB (ret <| Fmt.numsToIntervalMixed binary64 (f (-1) (0)) (f 1 0)) (⟨(f (-1) (0)), (f 1 0)⟩)),
    (231, eqB (ret <| Fmt.numsToIntervalMixed binary64 .ninf (f 1 0)) (⟨.ninf, (f 1 0)⟩)),
    (232, eqB (ret <| Fmt.numsToIntervalMixed binary64 (f (-1) (0)) .pinf) (⟨(f (-1) (0)), .pinf⟩)),
    (233, eqB (ret <| numsToInterval .ninf .pinf) (⟨.ninf, .pinf⟩)),
    (237, Itv.isEmpty (ret <| Fmt.numsToIntervalMixed binary32 (f (-1) (-1074)) (f (-1) (-149)) : Itv)),
    (240, Itv.isEmpty (ret <| Fmt.numsToIntervalMixed binary32 (f 1 0) (f (-1) (0)) : Itv)),
    (243, Itv.isEmpty (ret <| Fmt.numsToIntervalMixed binary32 .ninf .ninf : Itv)),
    (246, Itv.isEmpty (ret <| Fmt.numsToIntervalMixed binary32 .pinf .pinf : Itv)),
    (249, Itv.isEmpty (ret <| Fmt.numsToIntervalMixed binary64 (f 1 0) (f (-1) (0)) : Itv)),
    (252, Itv.isEmpty (ret <| numsToInterval .ninf .ninf : Itv)),
    (255, Itv.isEmpty (ret <| numsToInterval .pinf .pinf : Itv)),
    (273, eqD (ret <| Fmt.numsToDecoratedMixed binary32 (f (-1) (0)) (f 1 0)) (⟨⟨(f (-1) (0)), (f 1 0)⟩, .com⟩)),
    (274, eqD (ret <| Fmt.numsToDecoratedMixed binary32 .ninf (f 1 0)) (⟨⟨.ninf, (f 1 0)⟩, .dac⟩)),
    (275, eqD (ret <| Fmt.numsToDecoratedMixed binary32 (f (-1) (0)) .pinf) (⟨⟨(f (-1) (0)), .pinf⟩, .dac⟩)),
    (276, eqD (ret <| Fmt.numsToDecoratedMixed binary32 .ninf .pinf) (⟨⟨.ninf, .pinf⟩, .dac⟩)),
    (277, eqD (ret <| Fmt.numsToDecoratedMixed binary32 (f (-9007199254740991) (971)) (f 9007199254740991 971)) (⟨⟨.ninf, .pinf⟩, .dac⟩)),
    (278, eqD (ret <| Fmt.numsToDecoratedMixed binary32 (f (1) (-1074)) (f (1) (-1074))) (⟨⟨(f 0 0), (f (1) (-149))⟩, .com⟩)),
    (279, eqD (ret <| Fmt.numsToDecoratedMixed binary32 (f (-1) (-1074)) (f (-1) (-1074))) (⟨⟨(f (-1) (-149)), (f 0 0)⟩, .com⟩)),
    (280, eqD (ret <| Fmt.numsToDecoratedMixed binary32 (f (-1) (-1074)) (f (1) (-1074))) (⟨⟨(f (-1) (-149)), (f (1) (-149))⟩, .com⟩)),
    (281, eqD (ret <| Fmt.numsToDecoratedMixed binary32 (f (-3602879824865869) (-47)) (f (7205759403792793) (-56))) (⟨⟨(f (-6710887) (-18)), (f (13421773) (-27))⟩, .com⟩)),
    (282, eqD (ret <| Fmt.numsToDecoratedMixed binary64 (f (-6710887) (-18)) (f (13421773) (-27))) (⟨⟨(f (-6710887) (-18)), (f (13421773) (-27))⟩, .com⟩)),
    (283, eqD (ret <| Fmt.numsToDecoratedMixed binary64 (f (-1) (0)) (f 1 0)) (⟨⟨(f (-1) (0)), (f 1 0)⟩, .com⟩)),
    (284, eqD (ret <| Fmt.numsToDecoratedMixed binary64 .ninf (f 1 0)) (⟨⟨.ninf, (f 1 0)⟩, .dac⟩)),
    (285, eqD (ret <| Fmt.numsToDecoratedMixed binary64 (f (-1) (0)) .pinf) (⟨⟨(f (-1) (0)), .pinf⟩, .dac⟩)),
    (286, eqD (ret <| numsToDecorated .ninf .pinf) (⟨⟨.ninf, .pinf⟩, .dac⟩)),
    (290, DItv.isNai (ret <| Fmt.numsToDecoratedMixed binary32 (f (-1) (-1074)) (f (-1) (-149)) : DItv)),
    (293, DItv.isNai (ret <| Fmt.numsToDecoratedMixed binary32 (f 1 0) (f (-1) (0)) : DItv)),
    (296, DItv.isNai (ret <| Fmt.numsToDecoratedMixed binary32 .ninf .ninf : DItv)),
    (299, DItv.isNai (ret <| Fmt.numsToDecoratedMixed binary32 .pinf .pinf : DItv)),
    (302, DItv.isNai (ret <| Fmt.numsToDecoratedMixed binary64 (f 1 0) (f (-1) (0)) : DItv)),
    (305, DItv.isNai (ret <| numsToDecorated .ninf .ninf : DItv)),
    (308, DItv.isNai (ret <| numsToDecorated .pinf .pinf : DItv)),
    (328, eqD (ret <| numsDecToDecorated (f (-1) (0)) (f 1 0) (raw .trv)) (⟨⟨(f (-1) (0)), (f 1 0)⟩, .trv⟩)),
    (329, eqD (ret <| numsDecToDecorated .ninf (f 1 0) (raw .defd)) (⟨⟨.ninf, (f 1 0)⟩, .defd⟩)),
    (330, eqD (ret <| numsDecToDecorated (f (-1) (0)) .pinf (raw .trv)) (⟨⟨(f (-1) (0)), .pinf⟩, .trv⟩)),
    (331, eqD (ret <| numsDecToDecorated .ninf .pinf (raw .dac)) (⟨⟨.ninf, .pinf⟩, .dac⟩)),
    (335, (((ret <| numsDecToDecorated .nan .nan (raw .ill) : DItv).itv : Itv).lo).isNaN),
    (338, (((ret <| numsDecToDecorated .nan .nan (raw .ill) : DItv).itv : Itv).hi).isNaN),
    (341, decide (((ret <| numsDecToDecorated .nan .nan (raw .ill) : DItv).dec : Dec) = .ill)),
    (344, (((ret <| numsDecToDecorated .nan .nan (raw .trv) : DItv).itv : Itv).lo).isNaN),
    (347, (((ret <| numsDecToDecorated .nan .nan (raw .trv) : DItv).itv : Itv).hi).isNaN),
    (350, decide (((ret <| numsDecToDecorated .nan .nan (raw .trv) : DItv).dec : Dec) = .ill)),
    (353, (((ret <| numsDecToDecorated (f 1 0) (f (-1) (0)) (raw .defd) : DItv).itv : Itv).lo).isNaN),
    (356, (((ret <| numsDecToDecorated (f 1 0) (f (-1) (0)) (raw .defd) : DItv).itv : Itv).hi).isNaN),
    (359, decide (((ret <| numsDecToDecorated (f 1 0) (f (-1) (0)) (raw .defd) : DItv).dec : Dec) = .ill)),
    (362, (((ret <| numsDecToDecorated .ninf .ninf (raw .dac) : DItv).itv : Itv).lo).isNaN),
    (365, (((ret <| numsDecToDecorated .ninf .ninf (raw .dac) : DItv).itv : Itv).hi).isNaN),
    (368, decide (((ret <| numsDecToDecorated .ninf .ninf (raw .dac) : DItv).dec : Dec) = .ill)),
    (371, (((ret <| numsDecToDecorated .pinf .pinf (raw .defd) : DItv).itv : Itv).lo).isNaN)] : List (ℕ × Bool)).all (·.2) = true := by
  decide +kernel

example : ([
    (374, (((ret <| numsDecToDecorated .pinf .pinf (raw .defd) : DItv).itv : Itv).hi).isNaN),
    (377, decide (((ret <| numsDecToDecorated .pinf .pinf (raw .defd) : DItv).dec : Dec) = .ill)),
    (380, (((ret <| numsDecToDecorated .ninf .pinf (raw .com) : DItv).itv : Itv).lo).isNaN),
    (383, (((ret <| numsDecToDecorated .ninf .pinf (raw .com) : DItv).itv : Itv).hi).isNaN),
    (386, decide (((ret <| numsDecToDecorated .ninf .pinf (raw .com) : DItv).dec : Dec) = .ill)),
    (392, (((ret <| numsDecToDecorated (f 1 0) (f 2 0) 13 : DItv).itv : Itv).lo).isNaN),
    (395, (((ret <| numsDecToDecorated (f 1 0) (f 2 0) 13 : DItv).itv : Itv).hi).isNaN),
    (398, decide (((ret <| numsDecToDecorated (f 1 0) (f 2 0) 13 : DItv).dec : Dec) = .ill)),
    (418, eqD (ret <| Fmt.numsDecToDecoratedMixed binary32 (f (-1) (0)) (f 1 0) (raw .trv)) (⟨⟨(f (-1) (0)), (f 1 0)⟩, .trv⟩)),
    (419, eqD (ret <| Fmt.numsDecToDecoratedMixed binary32 .ninf (f 1 0) (raw .defd)) (⟨⟨.ninf, (f 1 0)⟩, .defd⟩)),
    (420, eqD (ret <| Fmt.numsDecToDecoratedMixed binary32 (f (-1) (0)) .pinf (raw .defd)) (⟨⟨(f (-1) (0)), .pinf⟩, .defd⟩)),
    (421, eqD (ret <| Fmt.numsDecToDecoratedMixed binary32 .ninf .pinf (raw .dac)) (⟨⟨.ninf, .pinf⟩, .dac⟩)),
    (422, eqD (ret <| Fmt.numsDecToDecoratedMixed binary32 (f (-9007199254740991) (971)) (f 9007199254740991 971) (raw .com)) (⟨⟨.ninf, .pinf⟩, .dac⟩)),
    (423, eqD (ret <| Fmt.numsDecToDecoratedMixed binary32 (f (1) (-1074)) (f (1) (-1074)) (raw .defd)) (⟨⟨(f 0 0), (f (1) (-149))⟩, .defd⟩)),
    (424, eqD (ret <| Fmt.numsDecToDecoratedMixed binary32 (f (-1) (-1074)) (f (-1) (-1074)) (raw .com)) (⟨⟨(f (-1) (-149)), (f 0 0)⟩, .com⟩)),
    (425, eqD (ret <| Fmt.numsDecToDecoratedMixed binary32 (f (-1) (-1074)) (f (1) (-1074)) (raw .defd)) (⟨⟨(f (-1) (-149)), (f (1) (-149))⟩, .defd⟩)),
    (426, eqD (ret <| Fmt.numsDecToDecoratedMixed binary32 (f (-3602879824865869) (-47)) (f (7205759403792793) (-56)) (raw .dac)) (⟨⟨(f (-6710887) (-18)), (f (13421773) (-27))⟩, .dac⟩)),
    (427, eqD (ret <| Fmt.numsDecToDecoratedMixed binary64 (f (-6710887) (-18)) (f (13421773) (-27)) (raw .com)) (⟨⟨(f (-6710887) (-18)), (f (13421773) (-27))⟩, .com⟩)),
    (428, eqD (ret <| Fmt.numsDecToDecoratedMixed binary64 (f (-1) (0)) (f 1 0) (raw .trv)) (⟨⟨(f (-1) (0)), (f 1 0)⟩, .trv⟩)),
    (429, eqD (ret <| Fmt.numsDecToDecoratedMixed binary64 .ninf (f 1 0) (raw .defd)) (⟨⟨.ninf, (f 1 0)⟩, .defd⟩)),
    (430, eqD (ret <| Fmt.numsDecToDecoratedMixed binary64 (f (-1) (0)) .pinf (raw .dac)) (⟨⟨(f (-1) (0)), .pinf⟩, .dac⟩)),
    (431, eqD (ret <| numsDecToDecorated .ninf .pinf (raw .trv)) (⟨⟨.ninf, .pinf⟩, .trv⟩)),
    (435, DItv.isNai (ret <| Fmt.numsDecToDecoratedMixed binary32 (f (-1) (-1074)) (f (-1) (-149)) (raw .trv) : DItv)),
    (438, DItv.isNai (ret <| Fmt.numsDecToDecoratedMixed binary32 (f 1 0) (f (-1) (0)) (raw .dac) : DItv)),
    (441, DItv.isNai (ret <| Fmt.numsDecToDecoratedMixed binary32 .ninf .ninf (raw .defd) : DItv)),
    (444, DItv.isNai (ret <| Fmt.numsDecToDecoratedMixed binary32 .pinf .pinf (raw .defd) : DItv)),
    (447, DItv.isNai (ret <| Fmt.numsDecToDecoratedMixed binary64 (f 1 0) (f (-1) (0)) (raw .trv) : DItv)),
    (450, DItv.isNai (ret <| numsDecToDecorated .ninf .ninf (raw .defd) : DItv)),
    (453, DItv.isNai (ret <| numsDecToDecorated .pinf .pinf (raw .dac) : DItv)),
    (456, DItv.isNai (ret <| numsDecToDecorated .ninf .pinf (raw .com) : DItv)),
    (462, (((ret <| Fmt.numsDecToDecoratedMixed binary64 (f 1 0) (f 2 0) 13 : DItv).itv : Itv).lo).isNaN),
    (465, (((ret <| Fmt.numsDecToDecoratedMixed binary64 (f 1 0) (f 2 0) 13 : DItv).itv : Itv).hi).isNaN),
    (468, decide (((ret <| Fmt.numsDecToDecoratedMixed binary64 (f 1 0) (f 2 0) 13 : DItv).dec : Dec) = .ill)),
    (492, Itv.isEmpty (retS <| Fmt.textToInterval binary64 ("[ Empty  ]" : String).toList : Itv)),
    (493, Itv.isEmpty (retS <| Fmt.textToInterval binary64 ("[ Empty  ]_trv" : String).toList : Itv)),
    (494, Itv.isEmpty (retS <| Fmt.textToInterval binary64 ("[  ]" : String).toList : Itv)),
    (495, Itv.isEmpty (retS <| Fmt.textToInterval binary64 ("[  ]_trv" : String).toList : Itv)),
    (497, eqB (retS <| Fmt.textToInterval binary64 ("[,]" : String).toList) (⟨.ninf, .pinf⟩)),
    (498, eqB (retS <| Fmt.textToInterval binary64 ("[,]_trv" : String).toList) (⟨.ninf, .pinf⟩)),
    (499, eqB (retS <| Fmt.textToInterval binary64 ("[ entire  ]" : String).toList) (⟨.ninf, .pinf⟩)),
    (500, eqB (retS <| Fmt.textToInterval binary64 ("[ ENTIRE ]_dac" : String).toList) (⟨.ninf, .pinf⟩)),
    (501, eqB (retS <| Fmt.textToInterval binary64 ("[ -inf , INF  ]" : String).toList) (⟨.ninf, .pinf⟩)),
    (502, eqB (retS <| Fmt.textToInterval binary64 ("[ -inf, INF ]_def" : String).toList) (⟨.ninf, .pinf⟩)),
    (504, eqB (retS <| Fmt.textToInterval binary64 ("[-1.0,1.0]" : String).toList) (⟨(f (-1) (0)), (f 1 0)⟩)),
    (505, eqB (retS <| Fmt.textToInterval binary64 ("[  -1.0  ,  1.0  ]_com" : String).toList) (⟨(f (-1) (0)), (f 1 0)⟩)),
    (506, eqB (retS <| Fmt.textToInterval binary64 ("[  -1.0  , 1.0]_trv" : String).toList) (⟨(f (-1) (0)), (f 1 0)⟩)),
    (508, eqB (retS <| Fmt.textToInterval binary64 ("[-1,]" : String).toList) (⟨(f (-1) (0)), .pinf⟩)),
    (509, eqB (retS <| Fmt.textToInterval binary64 ("[-1.0, +inf]_def" : String).toList) (⟨(f (-1) (0)), .pinf⟩)),
    (510, eqB (retS <| Fmt.textToInterval binary64 ("[-1.0, +infinity]_def" : String).toList) (⟨(f (-1) (0)), .pinf⟩)),
    (512, eqB (retS <| Fmt.textToInterval binary64 ("[-Inf, 1.000 ]" : String).toList) (⟨.ninf, (f 1 0)⟩))] : List (ℕ × Bool)).all (·.2) = true := by
  decide +kernel

example : ([
    (513, eqB (retS <| Fmt.textToInterval binary64 ("[-Infinity, 1.000 ]_trv" : String).toList) (⟨.ninf, (f 1 0)⟩)),
    (515, eqB (retS <| Fmt.textToInterval binary64 ("[1.0E+400 ]_com" : String).toList) (⟨(f 9007199254740991 971), .pinf⟩)),
    (517, eqB (retS <| Fmt.textToInterval binary64 ("[ -4/2, 10/5 ]_com" : String).toList) (⟨(f (-2) (0)), (f 2 0)⟩)),
    (518, eqB (retS <| Fmt.textToInterval binary64 ("[ -1/10, 1/10 ]_com" : String).toList) (⟨(f (-3602879701896397) (-55)), (f (3602879701896397) (-55))⟩)),
    (520, eqB (retS <| Fmt.textToInterval binary64 ("0.0?" : String).toList) (⟨(f (-3602879701896397) (-56)), (f (3602879701896397) (-56))⟩)),
    (521, eqB (retS <| Fmt.textToInterval binary64 ("0.0?u_trv" : String).toList) (⟨(f 0 0), (f (3602879701896397) (-56))⟩)),
    (522, eqB (retS <| Fmt.textToInterval binary64 ("0.0?d_dac" : String).toList) (⟨(f (-3602879701896397) (-56)), (f 0 0)⟩)),
    (524, eqB (retS <| Fmt.textToInterval binary64 ("2.5?" : String).toList) (⟨(f (5516909543528857) (-51)), (f (5742089524897383) (-51))⟩)),
    (525, eqB (retS <| Fmt.textToInterval binary64 ("2.5?u" : String).toList) (⟨(f (5) (-1)), (f (5742089524897383) (-51))⟩)),
    (526, eqB (retS <| Fmt.textToInterval binary64 ("2.5?d_trv" : String).toList) (⟨(f (5516909543528857) (-51)), (f (5) (-1))⟩)),
    (528, eqB (retS <| Fmt.textToInterval binary64 ("0.000?5" : String).toList) (⟨(f (-5764607523034235) (-60)), (f (5764607523034235) (-60))⟩)),
    (529, eqB (retS <| Fmt.textToInterval binary64 ("0.000?5u_def" : String).toList) (⟨(f 0 0), (f (5764607523034235) (-60))⟩)),
    (530, eqB (retS <| Fmt.textToInterval binary64 ("0.000?5d" : String).toList) (⟨(f (-5764607523034235) (-60)), (f 0 0)⟩)),
    (532, eqB (retS <| Fmt.textToInterval binary64 ("2.500?5" : String).toList) (⟨(f (5618240535144693) (-51)), (f (5640758533281547) (-51))⟩)),
    (533, eqB (retS <| Fmt.textToInterval binary64 ("2.500?5u" : String).toList) (⟨(f (5) (-1)), (f (5640758533281547) (-51))⟩)),
    (534, eqB (retS <| Fmt.textToInterval binary64 ("2.500?5d" : String).toList) (⟨(f (5618240535144693) (-51)), (f (5) (-1))⟩)),
    (536, eqB (retS <| Fmt.textToInterval binary64 ("0.0??_dac" : String).toList) (⟨.ninf, .pinf⟩)),
    (537, eqB (retS <| Fmt.textToInterval binary64 ("0.0??u_trv" : String).toList) (⟨(f 0 0), .pinf⟩)),
    (538, eqB (retS <| Fmt.textToInterval binary64 ("0.0??d" : String).toList) (⟨.ninf, (f 0 0)⟩)),
    (540, eqB (retS <| Fmt.textToInterval binary64 ("2.5??" : String).toList) (⟨.ninf, .pinf⟩)),
    (541, eqB (retS <| Fmt.textToInterval binary64 ("2.5??u_def" : String).toList) (⟨(f (5) (-1)), .pinf⟩)),
    (542, eqB (retS <| Fmt.textToInterval binary64 ("2.5??d_dac" : String).toList) (⟨.ninf, (f (5) (-1))⟩)),
    (544, eqB (retS <| Fmt.textToInterval binary64 ("2.500?5e+27" : String).toList) (⟨(f 4538378561846911 39), (f 4556568455882371 39)⟩)),
    (545, eqB (retS <| Fmt.textToInterval binary64 ("2.500?5ue4_def" : String).toList) (⟨(f 25000 0), (f 25050 0)⟩)),
    (546, eqB (retS <| Fmt.textToInterval binary64 ("2.500?5de-5" : String).toList) (⟨(f (7363940234224853) (-68)), (f (7378697629483821) (-68))⟩)),
    (548, eqB (retS <| Fmt.textToInterval binary64 ("10?3_com" : String).toList) (⟨(f 7 0), (f 13 0)⟩)),
    (549, eqB (retS <| Fmt.textToInterval binary64 ("10?3e380_com" : String).toList) (⟨(f 9007199254740991 971), .pinf⟩)),
    (551, eqB (retS <| Fmt.textToInterval binary64 ("1.0000000000000001?1" : String).toList) (⟨(f 1 0), (f (4503599627370497) (-52))⟩)),
    (556, eqB (retS <| Fmt.textToInterval binary64 ("10?18" ++ String.ofList (List.replicate 308 '0') ++ "_com" : String).toList) (⟨.ninf, .pinf⟩)),
    (560, Itv.isEmpty (retS <| Fmt.textToInterval binary64 ("[ Nai  ]" : String).toList : Itv)),
    (564, Itv.isEmpty (retS <| Fmt.textToInterval binary64 ("[ Nai  ]_ill" : String).toList : Itv)),
    (568, Itv.isEmpty (retS <| Fmt.textToInterval binary64 ("[ Nai  ]_trv" : String).toList : Itv)),
    (572, Itv.isEmpty (retS <| Fmt.textToInterval binary64 ("[ Empty  ]_ill" : String).toList : Itv)),
    (576, Itv.isEmpty (retS <| Fmt.textToInterval binary64 ("[  ]_com" : String).toList : Itv)),
    (580, Itv.isEmpty (retS <| Fmt.textToInterval binary64 ("[,]_com" : String).toList : Itv)),
    (584, Itv.isEmpty (retS <| Fmt.textToInterval binary64 ("[   Entire ]_com" : String).toList : Itv)),
    (588, Itv.isEmpty (retS <| Fmt.textToInterval binary64 ("[ -inf ,  INF ]_com" : String).toList : Itv)),
    (592, Itv.isEmpty (retS <| Fmt.textToInterval binary64 ("[  -1.0  , 1.0]_ill" : String).toList : Itv)),
    (596, Itv.isEmpty (retS <| Fmt.textToInterval binary64 ("[  -1.0  , 1.0]_fooo" : String).toList : Itv)),
    (600, Itv.isEmpty (retS <| Fmt.textToInterval binary64 ("[  -1.0  , 1.0]_da c" : String).toList : Itv)),
    (604, Itv.isEmpty (retS <| Fmt.textToInterval binary64 ("[-1.0,]_com" : String).toList : Itv)),
    (608, Itv.isEmpty (retS <| Fmt.textToInterval binary64 ("[-Inf, 1.000 ]_ill" : String).toList : Itv)),
    (612, Itv.isEmpty (retS <| Fmt.textToInterval binary64 ("[ 1/-10, 1/10 ]_com" : String).toList : Itv)),
    (616, Itv.isEmpty (retS <| Fmt.textToInterval binary64 ("[-I  nf, 1.000 ]" : String).toList : Itv)),
    (620, Itv.isEmpty (retS <| Fmt.textToInterval binary64 ("[-Inf, 1.0  00 ]" : String).toList : Itv)),
    (624, Itv.isEmpty (retS <| Fmt.textToInterval binary64 ("[-Inf ]" : String).toList : Itv)),
    (628, Itv.isEmpty (retS <| Fmt.textToInterval binary64 ("[Inf , INF]" : String).toList : Itv)),
    (632, Itv.isEmpty (retS <| Fmt.textToInterval binary64 ("[ foo ]" : String).toList : Itv)),
    (636, Itv.isEmpty (retS <| Fmt.textToInterval binary64 ("0.0??_com" : String).toList : Itv)),
    (640, Itv.isEmpty (retS <| Fmt.textToInterval binary64 ("0.0??u_ill" : String).toList : Itv))] : List (ℕ × Bool)).all (·.2) = true := by
  decide +kernel

example : ([
    (644, Itv.isEmpty (retS <| Fmt.textToInterval binary64 ("0.0??d_com" : String).toList : Itv)),
    (648, Itv.isEmpty (retS <| Fmt.textToInterval binary64 ("[1.0000000000000002,1.0000000000000001]" : String).toList : Itv)),
    (652, Itv.isEmpty (retS <| Fmt.textToInterval binary64 ("[10000000000000001/10000000000000000,10000000000000002/10000000000000001]" : String).toList : Itv)),
    (656, Itv.isEmpty (retS <| Fmt.textToInterval binary64 ("[0x1.00000000000002p0,0x1.00000000000001p0]" : String).toList : Itv)),
    (664, DItv.pred Itv.isEmpty (retS <| Fmt.textToDecorated binary64 ("[ Empty  ]" : String).toList : DItv)),
    (665, DItv.pred Itv.isEmpty (retS <| Fmt.textToDecorated binary64 ("[ Empty  ]_trv" : String).toList : DItv)),
    (666, DItv.pred Itv.isEmpty (retS <| Fmt.textToDecorated binary64 ("[  ]" : String).toList : DItv)),
    (667, DItv.pred Itv.isEmpty (retS <| Fmt.textToDecorated binary64 ("[  ]_trv" : String).toList : DItv)),
    (669, eqD (retS <| Fmt.textToDecorated binary64 ("[,]" : String).toList) (⟨⟨.ninf, .pinf⟩, .dac⟩)),
    (670, eqD (retS <| Fmt.textToDecorated binary64 ("[,]_trv" : String).toList) (⟨⟨.ninf, .pinf⟩, .trv⟩)),
    (671, eqD (retS <| Fmt.textToDecorated binary64 ("[ entire  ]" : String).toList) (DItv.entire)),
    (672, eqD (retS <| Fmt.textToDecorated binary64 ("[ ENTIRE ]_dac" : String).toList) (⟨⟨.ninf, .pinf⟩, .dac⟩)),
    (673, eqD (retS <| Fmt.textToDecorated binary64 ("[ -inf , INF  ]" : String).toList) (DItv.entire)),
    (674, eqD (retS <| Fmt.textToDecorated binary64 ("[ -inf, INF ]_def" : String).toList) (⟨⟨.ninf, .pinf⟩, .defd⟩)),
    (676, eqD (retS <| Fmt.textToDecorated binary64 ("[-1.0,1.0]" : String).toList) (⟨⟨(f (-1) (0)), (f 1 0)⟩, .com⟩)),
    (677, eqD (retS <| Fmt.textToDecorated binary64 ("[  -1.0  ,  1.0  ]_com" : String).toList) (⟨⟨(f (-1) (0)), (f 1 0)⟩, .com⟩)),
    (678, eqD (retS <| Fmt.textToDecorated binary64 ("[  -1.0  , 1.0]_trv" : String).toList) (⟨⟨(f (-1) (0)), (f 1 0)⟩, .trv⟩)),
    (680, eqD (retS <| Fmt.textToDecorated binary64 ("[-1,]" : String).toList) (⟨⟨(f (-1) (0)), .pinf⟩, .dac⟩)),
    (681, eqD (retS <| Fmt.textToDecorated binary64 ("[-1.0, +inf]_def" : String).toList) (⟨⟨(f (-1) (0)), .pinf⟩, .defd⟩)),
    (682, eqD (retS <| Fmt.textToDecorated binary64 ("[-1.0, +infinity]_def" : String).toList) (⟨⟨(f (-1) (0)), .pinf⟩, .defd⟩)),
    (684, eqD (retS <| Fmt.textToDecorated binary64 ("[-Inf, 1.000 ]" : String).toList) (⟨⟨.ninf, (f 1 0)⟩, .dac⟩)),
    (685, eqD (retS <| Fmt.textToDecorated binary64 ("[-Infinity, 1.000 ]_trv" : String).toList) (⟨⟨.ninf, (f 1 0)⟩, .trv⟩)),
    (687, eqD (retS <| Fmt.textToDecorated binary64 ("[1.0E+400 ]_com" : String).toList) (⟨⟨(f 9007199254740991 971), .pinf⟩, .dac⟩)),
    (689, eqD (retS <| Fmt.textToDecorated binary64 ("[ -4/2, 10/5 ]_com" : String).toList) (⟨⟨(f (-2) (0)), (f 2 0)⟩, .com⟩)),
    (690, eqD (retS <| Fmt.textToDecorated binary64 ("[ -1/10, 1/10 ]_com" : String).toList) (⟨⟨(f (-3602879701896397) (-55)), (f (3602879701896397) (-55))⟩, .com⟩)),
    (692, eqD (retS <| Fmt.textToDecorated binary64 ("0.0?" : String).toList) (⟨⟨(f (-3602879701896397) (-56)), (f (3602879701896397) (-56))⟩, .com⟩)),
    (693, eqD (retS <| Fmt.textToDecorated binary64 ("0.0?u_trv" : String).toList) (⟨⟨(f 0 0), (f (3602879701896397) (-56))⟩, .trv⟩)),
    (694, eqD (retS <| Fmt.textToDecorated binary64 ("0.0?d_dac" : String).toList) (⟨⟨(f (-3602879701896397) (-56)), (f 0 0)⟩, .dac⟩)),
    (696, eqD (retS <| Fmt.textToDecorated binary64 ("2.5?" : String).toList) (⟨⟨(f (5516909543528857) (-51)), (f (5742089524897383) (-51))⟩, .com⟩)),
    (697, eqD (retS <| Fmt.textToDecorated binary64 ("2.5?u" : String).toList) (⟨⟨(f (5) (-1)), (f (5742089524897383) (-51))⟩, .com⟩)),
    (698, eqD (retS <| Fmt.textToDecorated binary64 ("2.5?d_trv" : String).toList) (⟨⟨(f (5516909543528857) (-51)), (f (5) (-1))⟩, .trv⟩)),
    (700, eqD (retS <| Fmt.textToDecorated binary64 ("0.000?5" : String).toList) (⟨⟨(f (-5764607523034235) (-60)), (f (5764607523034235) (-60))⟩, .com⟩)),
    (701, eqD (retS <| Fmt.textToDecorated binary64 ("0.000?5u_def" : String).toList) (⟨⟨(f 0 0), (f (5764607523034235) (-60))⟩, .defd⟩)),
    (702, eqD (retS <| Fmt.textToDecorated binary64 ("0.000?5d" : String).toList) (⟨⟨(f (-5764607523034235) (-60)), (f 0 0)⟩, .com⟩)),
    (704, eqD (retS <| Fmt.textToDecorated binary64 ("2.500?5" : String).toList) (⟨⟨(f (5618240535144693) (-51)), (f (5640758533281547) (-51))⟩, .com⟩)),
    (705, eqD (retS <| Fmt.textToDecorated binary64 ("2.500?5u" : String).toList) (⟨⟨(f (5) (-1)), (f (5640758533281547) (-51))⟩, .com⟩)),
    (706, eqD (retS <| Fmt.textToDecorated binary64 ("2.500?5d" : String).toList) (⟨⟨(f (5618240535144693) (-51)), (f (5) (-1))⟩, .com⟩)),
    (708, eqD (retS <| Fmt.textToDecorated binary64 ("0.0??_dac" : String).toList) (⟨⟨.ninf, .pinf⟩, .dac⟩)),
    (709, eqD (retS <| Fmt.textToDecorated binary64 ("0.0??u_trv" : String).toList) (⟨⟨(f 0 0), .pinf⟩, .trv⟩)),
    (710, eqD (retS <| Fmt.textToDecorated binary64 ("0.0??d" : String).toList) (⟨⟨.ninf, (f 0 0)⟩, .dac⟩)),
    (712, eqD (retS <| Fmt.textToDecorated binary64 ("2.5??" : String).toList) (⟨⟨.ninf, .pinf⟩, .dac⟩)),
    (713, eqD (retS <| Fmt.textToDecorated binary64 ("2.5??u_def" : String).toList) (⟨⟨(f (5) (-1)), .pinf⟩, .defd⟩)),
    (714, eqD (retS <| Fmt.textToDecorated binary64 ("2.5??d_dac" : String).toList) (⟨⟨.ninf, (f (5) (-1))⟩, .dac⟩)),
    (716, eqD (retS <| Fmt.textToDecorated binary64 ("2.500?5e+27" : String).toList) (⟨⟨(f 4538378561846911 39), (f 4556568455882371 39)⟩, .com⟩)),
    (717, eqD (retS <| Fmt.textToDecorated binary64 ("2.500?5ue4_def" : String).toList) (⟨⟨(f 25000 0), (f 25050 0)⟩, .defd⟩)),
    (718, eqD (retS <| Fmt.textToDecorated binary64 ("2.500?5de-5" : String).toList) (⟨⟨(f (7363940234224853) (-68)), (f (7378697629483821) (-68))⟩, .com⟩)),
    (720, DItv.isNai (retS <| Fmt.textToDecorated binary64 ("[ Nai  ]" : String).toList : DItv)),
    (725, eqD (retS <| Fmt.textToDecorated binary64 ("10?18" ++ String.ofList (List.replicate 308 '0') ++ "_com" : String).toList) (⟨⟨.ninf, .pinf⟩, .dac⟩)),
    (727, eqD (retS <| Fmt.textToDecorated binary64 ("10?3_com" : String).toList) (⟨⟨(f 7 0), (f 13 0)⟩, .com⟩)),
    (728, eqD (retS <| Fmt.textToDecorated binary64 ("10?3e380_com" : String).toList) (⟨⟨(f 9007199254740991 971), .pinf⟩, .dac⟩))] : List (ℕ × Bool)).all (·.2) = true := by
  decide +kernel

example : ([
    (734, DItv.isNai (retS <| Fmt.textToDecorated binary64 ("[ Nai  ]_ill" : String).toList : DItv)),
    (738, DItv.isNai (retS <| Fmt.textToDecorated binary64 ("[ Nai  ]_trv" : String).toList : DItv)),
    (742, DItv.isNai (retS <| Fmt.textToDecorated binary64 ("[ Empty  ]_ill" : String).toList : DItv)),
    (746, DItv.isNai (retS <| Fmt.textToDecorated binary64 ("[  ]_com" : String).toList : DItv)),
    (750, DItv.isNai (retS <| Fmt.textToDecorated binary64 ("[,]_com" : String).toList : DItv)),
    (754, DItv.isNai (retS <| Fmt.textToDecorated binary64 ("[   Entire ]_com" : String).toList : DItv)),
    (758, DItv.isNai (retS <| Fmt.textToDecorated binary64 ("[ -inf ,  INF ]_com" : String).toList : DItv)),
    (762, DItv.isNai (retS <| Fmt.textToDecorated binary64 ("[  -1.0  , 1.0]_ill" : String).toList : DItv)),
    (766, DItv.isNai (retS <| Fmt.textToDecorated binary64 ("[  -1.0  , 1.0]_fooo" : String).toList : DItv)),
    (770, DItv.isNai (retS <| Fmt.textToDecorated binary64 ("[  -1.0  , 1.0]_da c" : String).toList : DItv)),
    (774, DItv.isNai (retS <| Fmt.textToDecorated binary64 ("[-1.0,]_com" : String).toList : DItv)),
    (778, DItv.isNai (retS <| Fmt.textToDecorated binary64 ("[-Inf, 1.000 ]_ill" : String).toList : DItv)),
    (782, DItv.isNai (retS <| Fmt.textToDecorated binary64 ("[ 1/-10, 1/10 ]_com" : String).toList : DItv)),
    (786, DItv.isNai (retS <| Fmt.textToDecorated binary64 ("[-I  nf, 1.000 ]" : String).toList : DItv)),
    (790, DItv.isNai (retS <| Fmt.textToDecorated binary64 ("[-Inf, 1.0  00 ]" : String).toList : DItv)),
    (794, DItv.isNai (retS <| Fmt.textToDecorated binary64 ("[-Inf ]" : String).toList : DItv)),
    (798, DItv.isNai (retS <| Fmt.textToDecorated binary64 ("[Inf , INF]" : String).toList : DItv)),
    (802, DItv.isNai (retS <| Fmt.textToDecorated binary64 ("[ foo ]" : String).toList : DItv)),
    (806, DItv.isNai (retS <| Fmt.textToDecorated binary64 ("0.0??_com" : String).toList : DItv)),
    (810, DItv.isNai (retS <| Fmt.textToDecorated binary64 ("0.0??u_ill" : String).toList : DItv)),
    (814, DItv.isNai (retS <| Fmt.textToDecorated binary64 ("0.0??d_com" : String).toList : DItv)),
    (817, DItv.isNai (retS <| Fmt.textToDecorated binary64 ("0.0??_com" : String).toList : DItv)),
    (821, DItv.isNai (retS <| Fmt.textToDecorated binary64 ("5.0" : String).toList : DItv)),
    (825, DItv.isNai (retS <| Fmt.textToDecorated binary64 ("[1.0,2.0" : String).toList : DItv)),
    (829, DItv.isNai (retS <| Fmt.textToDecorated binary64 ("[1.0000000000000002,1.0000000000000001]" : String).toList : DItv)),
    (833, DItv.isNai (retS <| Fmt.textToDecorated binary64 ("[10000000000000001/10000000000000000,10000000000000002/10000000000000001]" : String).toList : DItv)),
    (837, DItv.isNai (retS <| Fmt.textToDecorated binary64 ("[0x1.00000000000002p0,0x1.00000000000001p0]" : String).toList : DItv)),
    (846, eqB (ret <| copyM (⟨(f (-3602879824865869) (-47)), (f (7205759403792793) (-56))⟩ : Itv)) (⟨(f (-3602879824865869) (-47)), (f (7205759403792793) (-56))⟩)),
    (847, eqB (ret <| copyM (⟨(f (-6710887) (-18)), (f (7205759403792793) (-56))⟩ : Itv)) (⟨(f (-6710887) (-18)), (f (7205759403792793) (-56))⟩)),
    (848, eqB (ret <| copyM (⟨(f (-3602879824865869) (-47)), (f (13421773) (-27))⟩ : Itv)) (⟨(f (-3602879824865869) (-47)), (f (13421773) (-27))⟩)),
    (849, eqB (ret <| copyM (⟨(f (-6710887) (-18)), (f (13421773) (-27))⟩ : Itv)) (⟨(f (-6710887) (-18)), (f (13421773) (-27))⟩)),
    (850, eqB (ret <| copyM (⟨(f (-1) (-1074)), (f (-1) (-1074))⟩ : Itv)) (⟨(f (-1) (-1074)), (f (-1) (-1074))⟩)),
    (851, eqB (ret <| copyM (⟨(f (-1) (-1074)), (f (1) (-1074))⟩ : Itv)) (⟨(f (-1) (-1074)), (f (1) (-1074))⟩)),
    (852, eqB (ret <| copyM (⟨(f (1) (-1074)), (f (1) (-1074))⟩ : Itv)) (⟨(f (1) (-1074)), (f (1) (-1074))⟩)),
    (853, eqB (ret <| copyM (⟨(f (-9007199254740991) (971)), (f (-9007199254740991) (971))⟩ : Itv)) (⟨(f (-9007199254740991) (971)), (f (-9007199254740991) (971))⟩)),
    (854, eqB (ret <| copyM (⟨(f (-9007199254740991) (971)), (f 9007199254740991 971)⟩ : Itv)) (⟨(f (-9007199254740991) (971)), (f 9007199254740991 971)⟩)),
    (855, eqB (ret <| copyM (⟨(f 9007199254740991 971), (f 9007199254740991 971)⟩ : Itv)) (⟨(f 9007199254740991 971), (f 9007199254740991 971)⟩)),
    (856, eqB (ret <| copyM (⟨.ninf, .pinf⟩ : Itv)) (⟨.ninf, .pinf⟩)),
    (857, Itv.isEmpty (ret <| copyM (⟨.nan, .nan⟩ : Itv) : Itv)),
    (861, Itv.isEmpty (ret <| copyM (⟨(f 7 0), .nan⟩ : Itv) : Itv)),
    (864, Itv.isEmpty (ret <| copyM (⟨(f 7 0), (f (-3) (0))⟩ : Itv) : Itv)),
    (867, Itv.isEmpty (ret <| copyM (⟨.ninf, .ninf⟩ : Itv) : Itv)),
    (870, Itv.isEmpty (ret <| copyM (⟨.pinf, .pinf⟩ : Itv) : Itv)),
    (885, eqD (ret <| copyDM (⟨⟨(f (-3602879824865869) (-47)), (f (7205759403792793) (-56))⟩, .trv⟩ : DItv)) (⟨⟨(f (-3602879824865869) (-47)), (f (7205759403792793) (-56))⟩, .trv⟩)),
    (886, eqD (ret <| copyDM (⟨⟨(f (-6710887) (-18)), (f (7205759403792793) (-56))⟩, .com⟩ : DItv)) (⟨⟨(f (-6710887) (-18)), (f (7205759403792793) (-56))⟩, .com⟩)),
    (887, eqD (ret <| copyDM (⟨⟨(f (-3602879824865869) (-47)), (f (13421773) (-27))⟩, .dac⟩ : DItv)) (⟨⟨(f (-3602879824865869) (-47)), (f (13421773) (-27))⟩, .dac⟩)),
    (888, eqD (ret <| copyDM (⟨⟨(f (-6710887) (-18)), (f (13421773) (-27))⟩, .defd⟩ : DItv)) (⟨⟨(f (-6710887) (-18)), (f (13421773) (-27))⟩, .defd⟩)),
    (889, eqD (ret <| copyDM (⟨⟨(f (-1) (-1074)), (f (-1) (-1074))⟩, .trv⟩ : DItv)) (⟨⟨(f (-1) (-1074)), (f (-1) (-1074))⟩, .trv⟩)),
    (890, eqD (ret <| copyDM (⟨⟨(f (-1) (-1074)), (f (1) (-1074))⟩, .trv⟩ : DItv)) (⟨⟨(f (-1) (-1074)), (f (1) (-1074))⟩, .trv⟩)),
    (891, eqD (ret <| copyDM (⟨⟨(f (1) (-1074)), (f (1) (-1074))⟩, .trv⟩ : DItv)) (⟨⟨(f (1) (-1074)), (f (1) (-1074))⟩, .trv⟩))] : List (ℕ × Bool)).all (·.2) = true := by
  decide +kernel

example : ([
    (892, eqD (ret <| copyDM (⟨⟨(f (-9007199254740991) (971)), (f (-9007199254740991) (971))⟩, .trv⟩ : DItv)) (⟨⟨(f (-9007199254740991) (971)), (f (-9007199254740991) (971))⟩, .trv⟩)),
    (893, eqD (ret <| copyDM (⟨⟨(f (-9007199254740991) (971)), (f 9007199254740991 971)⟩, .trv⟩ : DItv)) (⟨⟨(f (-9007199254740991) (971)), (f 9007199254740991 971)⟩, .trv⟩)),
    (894, eqD (ret <| copyDM (⟨⟨(f 9007199254740991 971), (f 9007199254740991 971)⟩, .trv⟩ : DItv)) (⟨⟨(f 9007199254740991 971), (f 9007199254740991 971)⟩, .trv⟩)),
    (895, eqD (ret <| copyDM (⟨⟨.ninf, .pinf⟩, .trv⟩ : DItv)) (⟨⟨.ninf, .pinf⟩, .trv⟩)),
    (896, DItv.pred Itv.isEmpty (ret <| copyDM (⟨⟨.nan, .nan⟩, .trv⟩ : DItv) : DItv)),
    (897, eqD (ret <| copyDM (⟨⟨(f (-6710887) (-18)), (f (7205759403792793) (-56))⟩, .com⟩ : DItv)) (⟨⟨(f (-6710887) (-18)), (f (7205759403792793) (-56))⟩, .com⟩)),
    (901, DItv.isNai (ret <| copyDM (⟨⟨(f 7 0), .nan⟩, .trv⟩ : DItv) : DItv)),
    (904, DItv.isNai (ret <| copyDM (⟨⟨(f 7 0), (f (-3) (0))⟩, .defd⟩ : DItv) : DItv)),
    (907, DItv.isNai (ret <| copyDM (⟨⟨.ninf, .ninf⟩, .com⟩ : DItv) : DItv)),
    (910, DItv.isNai (ret <| copyDM (⟨⟨.pinf, .pinf⟩, .dac⟩ : DItv) : DItv)),
    (925, eqB (ret <| Fmt.convertType binary32 (⟨(f (-3602879824865869) (-47)), (f (7205759403792793) (-56))⟩ : Itv)) (⟨(f (-6710887) (-18)), (f (13421773) (-27))⟩)),
    (926, eqB (ret <| Fmt.convertType binary32 (⟨(f (-6710887) (-18)), (f (7205759403792793) (-56))⟩ : Itv)) (⟨(f (-6710887) (-18)), (f (13421773) (-27))⟩)),
    (927, eqB (ret <| Fmt.convertType binary32 (⟨(f (-3602879824865869) (-47)), (f (13421773) (-27))⟩ : Itv)) (⟨(f (-6710887) (-18)), (f (13421773) (-27))⟩)),
    (928, eqB (ret <| Fmt.convertType binary32 (⟨(f (-6710887) (-18)), (f (13421773) (-27))⟩ : Itv)) (⟨(f (-6710887) (-18)), (f (13421773) (-27))⟩)),
    (929, eqB (ret <| Fmt.convertType binary64 (⟨(f (-6710887) (-18)), (f (13421773) (-27))⟩ : Itv)) (⟨(f (-6710887) (-18)), (f (13421773) (-27))⟩)),
    (930, eqB (ret <| Fmt.convertType binary32 (⟨(f (-1) (-1074)), (f (-1) (-1074))⟩ : Itv)) (⟨(f (-1) (-149)), (f 0 0)⟩)),
    (931, !sgn ((ret <| Fmt.convertType binary32 (⟨(f (-1) (-1074)), (f (-1) (-1074))⟩ : Itv) : Itv).hi)),
    (932, eqB (ret <| Fmt.convertType binary32 (⟨(f (-1) (-1074)), (f (1) (-1074))⟩ : Itv)) (⟨(f (-1) (-149)), (f (1) (-149))⟩)),
    (933, eqB (ret <| Fmt.convertType binary32 (⟨(f (1) (-1074)), (f (1) (-1074))⟩ : Itv)) (⟨.nzero, (f (1) (-149))⟩)),
    (934, sgn ((ret <| Fmt.convertType binary32 (⟨(f (1) (-1074)), (f (1) (-1074))⟩ : Itv) : Itv).lo)),
    (935, eqB (ret <| Fmt.convertType binary64 (⟨(f (1) (-149)), (f (1) (-149))⟩ : Itv)) (⟨(f (1) (-149)), (f (1) (-149))⟩)),
    (936, eqB (ret <| Fmt.convertType binary32 (⟨(f (-9007199254740991) (971)), (f (-9007199254740991) (971))⟩ : Itv)) (⟨.ninf, (f (-16777215) (104))⟩)),
    (937, eqB (ret <| Fmt.convertType binary32 (⟨(f (-9007199254740991) (971)), (f 9007199254740991 971)⟩ : Itv)) (⟨.ninf, .pinf⟩)),
    (938, eqB (ret <| Fmt.convertType binary32 (⟨(f 9007199254740991 971), (f 9007199254740991 971)⟩ : Itv)) (⟨(f 16777215 104), .pinf⟩)),
    (939, eqB (ret <| Fmt.convertType binary64 (⟨(f 16777215 104), (f 16777215 104)⟩ : Itv)) (⟨(f 16777215 104), (f 16777215 104)⟩)),
    (940, eqB (ret <| Fmt.convertType binary32 (⟨.ninf, .pinf⟩ : Itv)) (⟨.ninf, .pinf⟩)),
    (941, eqB (ret <| Fmt.convertType binary64 (⟨.ninf, .pinf⟩ : Itv)) (⟨.ninf, .pinf⟩)),
    (942, Itv.isEmpty (ret <| Fmt.convertType binary32 (⟨.nan, .nan⟩ : Itv) : Itv)),
    (943, Itv.isEmpty (ret <| Fmt.convertType binary64 (⟨.nan, .nan⟩ : Itv) : Itv)),
    (947, Itv.isEmpty (ret <| Fmt.convertType binary32 (⟨(f (-1) (-1074)), (f (-1) (-149))⟩ : Itv) : Itv)),
    (950, Itv.isEmpty (ret <| Fmt.convertType binary32 (⟨(f 7 0), .nan⟩ : Itv) : Itv)),
    (953, Itv.isEmpty (ret <| Fmt.convertType binary32 (⟨(f 7 0), (f (-3) (0))⟩ : Itv) : Itv)),
    (956, Itv.isEmpty (ret <| Fmt.convertType binary64 (⟨.ninf, .ninf⟩ : Itv) : Itv)),
    (959, Itv.isEmpty (ret <| Fmt.convertType binary64 (⟨.pinf, .pinf⟩ : Itv) : Itv)),
    (975, eqD (ret <| Fmt.convertTypeD binary32 (⟨⟨(f (-3602879824865869) (-47)), (f (7205759403792793) (-56))⟩, .trv⟩ : DItv)) (⟨⟨(f (-6710887) (-18)), (f (13421773) (-27))⟩, .trv⟩)),
    (976, eqD (ret <| Fmt.convertTypeD binary32 (⟨⟨(f (-6710887) (-18)), (f (7205759403792793) (-56))⟩, .com⟩ : DItv)) (⟨⟨(f (-6710887) (-18)), (f (13421773) (-27))⟩, .com⟩)),
    (977, eqD (ret <| Fmt.convertTypeD binary32 (⟨⟨(f (-3602879824865869) (-47)), (f (13421773) (-27))⟩, .dac⟩ : DItv)) (⟨⟨(f (-6710887) (-18)), (f (13421773) (-27))⟩, .dac⟩)),
    (978, eqD (ret <| Fmt.convertTypeD binary32 (⟨⟨(f (-6710887) (-18)), (f (13421773) (-27))⟩, .defd⟩ : DItv)) (⟨⟨(f (-6710887) (-18)), (f (13421773) (-27))⟩, .defd⟩)),
    (979, eqD (ret <| Fmt.convertTypeD binary64 (⟨⟨(f (-6710887) (-18)), (f (13421773) (-27))⟩, .trv⟩ : DItv)) (⟨⟨(f (-6710887) (-18)), (f (13421773) (-27))⟩, .trv⟩)),
    (981, eqD (ret <| Fmt.convertTypeD binary32 (⟨⟨(f (-1) (-1074)), (f (-1) (-1074))⟩, .trv⟩ : DItv)) (⟨⟨(f (-1) (-149)), (f 0 0)⟩, .trv⟩)),
    (982, !sgn (((ret <| Fmt.convertTypeD binary32 (⟨⟨(f (-1) (-1074)), (f (-1) (-1074))⟩, .trv⟩ : DItv) : DItv).itv : Itv).hi)),
    (983, eqD (ret <| Fmt.convertTypeD binary32 (⟨⟨(f (-1) (-1074)), (f (1) (-1074))⟩, .trv⟩ : DItv)) (⟨⟨(f (-1) (-149)), (f (1) (-149))⟩, .trv⟩)),
    (984, eqD (ret <| Fmt.convertTypeD binary32 (⟨⟨(f (1) (-1074)), (f (1) (-1074))⟩, .trv⟩ : DItv)) (⟨⟨.nzero, (f (1) (-149))⟩, .trv⟩)),
    (985, sgn (((ret <| Fmt.convertTypeD binary32 (⟨⟨(f (1) (-1074)), (f (1) (-1074))⟩, .trv⟩ : DItv) : DItv).itv : Itv).lo)),
    (986, eqD (ret <| Fmt.convertTypeD binary64 (⟨⟨(f (1) (-149)), (f (1) (-149))⟩, .trv⟩ : DItv)) (⟨⟨(f (1) (-149)), (f (1) (-149))⟩, .trv⟩)),
    (988, eqD (ret <| Fmt.convertTypeD binary32 (⟨⟨(f (-9007199254740991) (971)), (f (-9007199254740991) (971))⟩, .defd⟩ : DItv)) (⟨⟨.ninf, (f (-16777215) (104))⟩, .defd⟩)),
    (989, eqD (ret <| Fmt.convertTypeD binary32 (⟨⟨(f (-9007199254740991) (971)), (f 9007199254740991 971)⟩, .trv⟩ : DItv)) (⟨⟨.ninf, .pinf⟩, .trv⟩)),
    (990, eqD (ret <| Fmt.convertTypeD binary32 (⟨⟨(f 9007199254740991 971), (f 9007199254740991 971)⟩, .dac⟩ : DItv)) (⟨⟨(f 16777215 104), .pinf⟩, .dac⟩)),
    (991, eqD (ret <| Fmt.convertTypeD binary64 (⟨⟨(f 16777215 104), (f 16777215 104)⟩, .trv⟩ : DItv)) (⟨⟨(f 16777215 104), (f 16777215 104)⟩, .trv⟩)),
    (993, eqD (ret <| Fmt.convertTypeD binary32 (⟨⟨(f (-9007199254740991) (971)), (f (-9007199254740991) (971))⟩, .com⟩ : DItv)) (⟨⟨.ninf, (f (-16777215) (104))⟩, .dac⟩))] : List (ℕ × Bool)).all (·.2) = true := by
  decide +kernel

example : ([
    (994, eqD (ret <| Fmt.convertTypeD binary32 (⟨⟨(f (-9007199254740991) (971)), (f 9007199254740991 971)⟩, .com⟩ : DItv)) (⟨⟨.ninf, .pinf⟩, .dac⟩)),
    (995, eqD (ret <| Fmt.convertTypeD binary32 (⟨⟨(f 9007199254740991 971), (f 9007199254740991 971)⟩, .com⟩ : DItv)) (⟨⟨(f 16777215 104), .pinf⟩, .dac⟩)),
    (996, eqD (ret <| Fmt.convertTypeD binary64 (⟨⟨.ninf, .pinf⟩, .trv⟩ : DItv)) (⟨⟨.ninf, .pinf⟩, .trv⟩)),
    (998, eqD (ret <| Fmt.convertTypeD binary32 (⟨⟨.ninf, .pinf⟩, .trv⟩ : DItv)) (⟨⟨.ninf, .pinf⟩, .trv⟩)),
    (999, eqD (ret <| Fmt.convertTypeD binary64 (⟨⟨.ninf, .pinf⟩, .trv⟩ : DItv)) (⟨⟨.ninf, .pinf⟩, .trv⟩)),
    (1001, DItv.pred Itv.isEmpty (ret <| Fmt.convertTypeD binary32 (⟨⟨.nan, .nan⟩, .trv⟩ : DItv) : DItv)),
    (1002, DItv.pred Itv.isEmpty (ret <| Fmt.convertTypeD binary64 (⟨⟨.nan, .nan⟩, .trv⟩ : DItv) : DItv)),
    (1006, DItv.isNai (ret <| Fmt.convertTypeD binary32 (⟨⟨(f (-1) (-1074)), (f (-1) (-149))⟩, .trv⟩ : DItv) : DItv)),
    (1009, DItv.isNai (ret <| Fmt.convertTypeD binary32 (⟨⟨(f 7 0), .nan⟩, .trv⟩ : DItv) : DItv)),
    (1012, DItv.isNai (ret <| Fmt.convertTypeD binary32 (⟨⟨(f 7 0), (f (-3) (0))⟩, .defd⟩ : DItv) : DItv)),
    (1015, DItv.isNai (ret <| Fmt.convertTypeD binary64 (⟨⟨.ninf, .ninf⟩, .com⟩ : DItv) : DItv)),
    (1018, DItv.isNai (ret <| Fmt.convertTypeD binary64 (⟨⟨.pinf, .pinf⟩, .dac⟩ : DItv) : DItv)),
    (1033, eqB (ret <| intervalPart (⟨⟨(f (-3602879824865869) (-47)), (f (7205759403792793) (-56))⟩, .trv⟩ : DItv)) (⟨(f (-3602879824865869) (-47)), (f (7205759403792793) (-56))⟩)),
    (1034, eqB (ret <| intervalPart (⟨⟨(f (-6710887) (-18)), (f (7205759403792793) (-56))⟩, .com⟩ : DItv)) (⟨(f (-6710887) (-18)), (f (7205759403792793) (-56))⟩)),
    (1035, eqB (ret <| intervalPart (⟨⟨(f (-3602879824865869) (-47)), (f (13421773) (-27))⟩, .dac⟩ : DItv)) (⟨(f (-3602879824865869) (-47)), (f (13421773) (-27))⟩)),
    (1036, eqB (ret <| intervalPart (⟨⟨(f (-6710887) (-18)), (f (13421773) (-27))⟩, .defd⟩ : DItv)) (⟨(f (-6710887) (-18)), (f (13421773) (-27))⟩)),
    (1037, eqB (ret <| intervalPart (⟨⟨(f (-1) (-1074)), (f (-1) (-1074))⟩, .trv⟩ : DItv)) (⟨(f (-1) (-1074)), (f (-1) (-1074))⟩)),
    (1038, eqB (ret <| intervalPart (⟨⟨(f (-1) (-1074)), (f (1) (-1074))⟩, .trv⟩ : DItv)) (⟨(f (-1) (-1074)), (f (1) (-1074))⟩)),
    (1039, eqB (ret <| intervalPart (⟨⟨(f (1) (-1074)), (f (1) (-1074))⟩, .trv⟩ : DItv)) (⟨(f (1) (-1074)), (f (1) (-1074))⟩)),
    (1040, eqB (ret <| intervalPart (⟨⟨(f (-9007199254740991) (971)), (f (-9007199254740991) (971))⟩, .trv⟩ : DItv)) (⟨(f (-9007199254740991) (971)), (f (-9007199254740991) (971))⟩)),
    (1041, eqB (ret <| intervalPart (⟨⟨(f (-9007199254740991) (971)), (f 9007199254740991 971)⟩, .trv⟩ : DItv)) (⟨(f (-9007199254740991) (971)), (f 9007199254740991 971)⟩)),
    (1042, eqB (ret <| intervalPart (⟨⟨(f 9007199254740991 971), (f 9007199254740991 971)⟩, .trv⟩ : DItv)) (⟨(f 9007199254740991 971), (f 9007199254740991 971)⟩)),
    (1043, eqB (ret <| intervalPart (⟨⟨.ninf, .pinf⟩, .trv⟩ : DItv)) (⟨.ninf, .pinf⟩)),
    (1044, Itv.isEmpty (ret <| intervalPart (⟨⟨.nan, .nan⟩, .trv⟩ : DItv) : Itv)),
    (1045, eqB (ret <| intervalPart (⟨⟨(f (-6710887) (-18)), (f (7205759403792793) (-56))⟩, .com⟩ : DItv)) (⟨(f (-6710887) (-18)), (f (7205759403792793) (-56))⟩)),
    (1049, Itv.isEmpty (ret <| intervalPart (⟨⟨.nan, .nan⟩, .ill⟩ : DItv) : Itv)),
    (1059, Itv.isEmpty (ret <| intervalPart (⟨⟨(f 7 0), .nan⟩, .trv⟩ : DItv) : Itv)),
    (1062, Itv.isEmpty (ret <| intervalPart (⟨⟨(f 7 0), (f (-3) (0))⟩, .defd⟩ : DItv) : Itv)),
    (1065, Itv.isEmpty (ret <| intervalPart (⟨⟨.ninf, .ninf⟩, .com⟩ : DItv) : Itv)),
    (1068, Itv.isEmpty (ret <| intervalPart (⟨⟨.pinf, .pinf⟩, .dac⟩ : DItv) : Itv)),
    (1086, eqB (ret <| Fmt.intervalPartMixed binary32 (⟨⟨(f (-3602879824865869) (-47)), (f (7205759403792793) (-56))⟩, .trv⟩ : DItv)) (⟨(f (-6710887) (-18)), (f (13421773) (-27))⟩)),
    (1087, eqB (ret <| Fmt.intervalPartMixed binary32 (⟨⟨(f (-6710887) (-18)), (f (7205759403792793) (-56))⟩, .com⟩ : DItv)) (⟨(f (-6710887) (-18)), (f (13421773) (-27))⟩)),
    (1088, eqB (ret <| Fmt.intervalPartMixed binary32 (⟨⟨(f (-3602879824865869) (-47)), (f (13421773) (-27))⟩, .dac⟩ : DItv)) (⟨(f (-6710887) (-18)), (f (13421773) (-27))⟩)),
    (1089, eqB (ret <| Fmt.intervalPartMixed binary32 (⟨⟨(f (-6710887) (-18)), (f (13421773) (-27))⟩, .defd⟩ : DItv)) (⟨(f (-6710887) (-18)), (f (13421773) (-27))⟩)),
    (1090, eqB (ret <| Fmt.intervalPartMixed binary64 (⟨⟨(f (-6710887) (-18)), (f (13421773) (-27))⟩, .trv⟩ : DItv)) (⟨(f (-6710887) (-18)), (f (13421773) (-27))⟩)),
    (1092, eqB (ret <| Fmt.intervalPartMixed binary32 (⟨⟨(f (-1) (-1074)), (f (-1) (-1074))⟩, .trv⟩ : DItv)) (⟨(f (-1) (-149)), (f 0 0)⟩)),
    (1093, !sgn ((ret <| Fmt.intervalPartMixed binary32 (⟨⟨(f (-1) (-1074)), (f (-1) (-1074))⟩, .trv⟩ : DItv) : Itv).hi)),
    (1094, eqB (ret <| Fmt.intervalPartMixed binary32 (⟨⟨(f (-1) (-1074)), (f (1) (-1074))⟩, .trv⟩ : DItv)) (⟨(f (-1) (-149)), (f (1) (-149))⟩)),
    (1095, eqB (ret <| Fmt.intervalPartMixed binary32 (⟨⟨(f (1) (-1074)), (f (1) (-1074))⟩, .trv⟩ : DItv)) (⟨.nzero, (f (1) (-149))⟩)),
    (1096, sgn ((ret <| Fmt.intervalPartMixed binary32 (⟨⟨(f (1) (-1074)), (f (1) (-1074))⟩, .trv⟩ : DItv) : Itv).lo)),
    (1097, eqB (ret <| Fmt.intervalPartMixed binary64 (⟨⟨(f (1) (-149)), (f (1) (-149))⟩, .trv⟩ : DItv)) (⟨(f (1) (-149)), (f (1) (-149))⟩)),
    (1099, eqB (ret <| Fmt.intervalPartMixed binary32 (⟨⟨(f (-9007199254740991) (971)), (f (-9007199254740991) (971))⟩, .defd⟩ : DItv)) (⟨.ninf, (f (-16777215) (104))⟩)),
    (1100, eqB (ret <| Fmt.intervalPartMixed binary32 (⟨⟨(f (-9007199254740991) (971)), (f 9007199254740991 971)⟩, .trv⟩ : DItv)) (⟨.ninf, .pinf⟩)),
    (1101, eqB (ret <| Fmt.intervalPartMixed binary32 (⟨⟨(f 9007199254740991 971), (f 9007199254740991 971)⟩, .dac⟩ : DItv)) (⟨(f 16777215 104), .pinf⟩)),
    (1102, eqB (ret <| Fmt.intervalPartMixed binary64 (⟨⟨(f 16777215 104), (f 16777215 104)⟩, .trv⟩ : DItv)) (⟨(f 16777215 104), (f 16777215 104)⟩)),
    (1104, eqB (ret <| Fmt.intervalPartMixed binary32 (⟨⟨(f (-9007199254740991) (971)), (f (-9007199254740991) (971))⟩, .com⟩ : DItv)) (⟨.ninf, (f (-16777215) (104))⟩)),
    (1105, eqB (ret <| Fmt.intervalPartMixed binary32 (⟨⟨(f (-9007199254740991) (971)), (f 9007199254740991 971)⟩, .com⟩ : DItv)) (⟨.ninf, .pinf⟩)),
    (1106, eqB (ret <| Fmt.intervalPartMixed binary32 (⟨⟨(f 9007199254740991 971), (f 9007199254740991 971)⟩, .com⟩ : DItv)) (⟨(f 16777215 104), .pinf⟩)),
    (1107, eqB (ret <| Fmt.intervalPartMixed binary64 (⟨⟨.ninf, .pinf⟩, .trv⟩ : DItv)) (⟨.ninf, .pinf⟩)),
    (1109, eqB (ret <| Fmt.intervalPartMixed binary32 (⟨⟨.ninf, .pinf⟩, .trv⟩ : DItv)) (⟨.ninf, .pinf⟩))] : List (ℕ × Bool)).all (·.2) = true := by
  decide +kernel

example : ([
    (1110, eqB (ret <| Fmt.intervalPartMixed binary64 (⟨⟨.ninf, .pinf⟩, .trv⟩ : DItv)) (⟨.ninf, .pinf⟩)),
    (1112, Itv.isEmpty (ret <| Fmt.intervalPartMixed binary32 (⟨⟨.nan, .nan⟩, .trv⟩ : DItv) : Itv)),
    (1113, Itv.isEmpty (ret <| Fmt.intervalPartMixed binary64 (⟨⟨.nan, .nan⟩, .trv⟩ : DItv) : Itv)),
    (1117, Itv.isEmpty (ret <| Fmt.intervalPartMixed binary32 (⟨⟨.nan, .nan⟩, .ill⟩ : DItv) : Itv)),
    (1120, Itv.isEmpty (ret <| Fmt.intervalPartMixed binary64 (⟨⟨.nan, .nan⟩, .ill⟩ : DItv) : Itv)),
    (1133, Itv.isEmpty (ret <| Fmt.intervalPartMixed binary32 (⟨⟨(f (-1) (-1074)), (f (-1) (-149))⟩, .trv⟩ : DItv) : Itv)),
    (1136, Itv.isEmpty (ret <| Fmt.intervalPartMixed binary32 (⟨⟨(f 7 0), .nan⟩, .trv⟩ : DItv) : Itv)),
    (1139, Itv.isEmpty (ret <| Fmt.intervalPartMixed binary32 (⟨⟨(f 7 0), (f (-3) (0))⟩, .defd⟩ : DItv) : Itv)),
    (1142, Itv.isEmpty (ret <| Fmt.intervalPartMixed binary64 (⟨⟨.ninf, .ninf⟩, .com⟩ : DItv) : Itv)),
    (1145, Itv.isEmpty (ret <| Fmt.intervalPartMixed binary64 (⟨⟨.pinf, .pinf⟩, .dac⟩ : DItv) : Itv)),
    (1161, eqD (ret <| newDecM (⟨(f (-3602879824865869) (-47)), (f (7205759403792793) (-56))⟩ : Itv)) (⟨⟨(f (-3602879824865869) (-47)), (f (7205759403792793) (-56))⟩, .com⟩)),
    (1162, eqD (ret <| newDecM (⟨(f (-6710887) (-18)), (f (7205759403792793) (-56))⟩ : Itv)) (⟨⟨(f (-6710887) (-18)), (f (7205759403792793) (-56))⟩, .com⟩)),
    (1163, eqD (ret <| newDecM (⟨(f (-3602879824865869) (-47)), (f (13421773) (-27))⟩ : Itv)) (⟨⟨(f (-3602879824865869) (-47)), (f (13421773) (-27))⟩, .com⟩)),
    (1164, eqD (ret <| newDecM (⟨(f (-6710887) (-18)), (f (13421773) (-27))⟩ : Itv)) (⟨⟨(f (-6710887) (-18)), (f (13421773) (-27))⟩, .com⟩)),
    (1165, eqD (ret <| newDecM (⟨(f (-1) (-1074)), (f (-1) (-1074))⟩ : Itv)) (⟨⟨(f (-1) (-1074)), (f (-1) (-1074))⟩, .com⟩)),
    (1166, eqD (ret <| newDecM (⟨(f (-1) (-1074)), (f (1) (-1074))⟩ : Itv)) (⟨⟨(f (-1) (-1074)), (f (1) (-1074))⟩, .com⟩)),
    (1167, eqD (ret <| newDecM (⟨(f (1) (-1074)), (f (1) (-1074))⟩ : Itv)) (⟨⟨(f (1) (-1074)), (f (1) (-1074))⟩, .com⟩)),
    (1168, eqD (ret <| newDecM (⟨(f (-9007199254740991) (971)), (f (-9007199254740991) (971))⟩ : Itv)) (⟨⟨(f (-9007199254740991) (971)), (f (-9007199254740991) (971))⟩, .com⟩)),
    (1169, eqD (ret <| newDecM (⟨(f (-9007199254740991) (971)), (f 9007199254740991 971)⟩ : Itv)) (⟨⟨(f (-9007199254740991) (971)), (f 9007199254740991 971)⟩, .com⟩)),
    (1170, eqD (ret <| newDecM (⟨(f 9007199254740991 971), (f 9007199254740991 971)⟩ : Itv)) (⟨⟨(f 9007199254740991 971), (f 9007199254740991 971)⟩, .com⟩)),
    (1171, eqD (ret <| newDecM (⟨.ninf, .pinf⟩ : Itv)) (⟨⟨.ninf, .pinf⟩, .dac⟩)),
    (1172, DItv.pred Itv.isEmpty (ret <| newDecM (⟨.nan, .nan⟩ : Itv) : DItv)),
    (1173, eqD (ret <| newDecM (⟨(f (-6710887) (-18)), (f (7205759403792793) (-56))⟩ : Itv)) (⟨⟨(f (-6710887) (-18)), (f (7205759403792793) (-56))⟩, .com⟩)),
    (1177, DItv.isNai (ret <| newDecM (⟨(f 7 0), .nan⟩ : Itv) : DItv)),
    (1180, DItv.isNai (ret <| newDecM (⟨(f 7 0), (f (-3) (0))⟩ : Itv) : DItv)),
    (1183, DItv.isNai (ret <| newDecM (⟨.ninf, .ninf⟩ : Itv) : DItv)),
    (1186, DItv.isNai (ret <| newDecM (⟨.pinf, .pinf⟩ : Itv) : DItv)),
    (1202, eqD (ret <| Fmt.newDecMixed binary32 (⟨(f (-3602879824865869) (-47)), (f (7205759403792793) (-56))⟩ : Itv)) (⟨⟨(f (-6710887) (-18)), (f (13421773) (-27))⟩, .com⟩)),
    (1203, eqD (ret <| Fmt.newDecMixed binary32 (⟨(f (-6710887) (-18)), (f (7205759403792793) (-56))⟩ : Itv)) (⟨⟨(f (-6710887) (-18)), (f (13421773) (-27))⟩, .com⟩)),
    (1204, eqD (ret <| Fmt.newDecMixed binary32 (⟨(f (-3602879824865869) (-47)), (f (13421773) (-27))⟩ : Itv)) (⟨⟨(f (-6710887) (-18)), (f (13421773) (-27))⟩, .com⟩)),
    (1205, eqD (ret <| Fmt.newDecMixed binary32 (⟨(f (-6710887) (-18)), (f (13421773) (-27))⟩ : Itv)) (⟨⟨(f (-6710887) (-18)), (f (13421773) (-27))⟩, .com⟩)),
    (1206, eqD (ret <| Fmt.newDecMixed binary64 (⟨(f (-6710887) (-18)), (f (13421773) (-27))⟩ : Itv)) (⟨⟨(f (-6710887) (-18)), (f (13421773) (-27))⟩, .com⟩)),
    (1208, eqD (ret <| Fmt.newDecMixed binary32 (⟨(f (-1) (-1074)), (f (-1) (-1074))⟩ : Itv)) (⟨⟨(f (-1) (-149)), (f 0 0)⟩, .com⟩)),
    (1209, !sgn (((ret <| Fmt.newDecMixed binary32 (⟨(f (-1) (-1074)), (f (-1) (-1074))⟩ : Itv) : DItv).itv : Itv).hi)),
    (1210, eqD (ret <| Fmt.newDecMixed binary32 (⟨(f (-1) (-1074)), (f (1) (-1074))⟩ : Itv)) (⟨⟨(f (-1) (-149)), (f (1) (-149))⟩, .com⟩)),
    (1211, eqD (ret <| Fmt.newDecMixed binary32 (⟨(f (1) (-1074)), (f (1) (-1074))⟩ : Itv)) (⟨⟨.nzero, (f (1) (-149))⟩, .com⟩)),
    (1212, sgn (((ret <| Fmt.newDecMixed binary32 (⟨(f (1) (-1074)), (f (1) (-1074))⟩ : Itv) : DItv).itv : Itv).lo)),
    (1213, eqD (ret <| Fmt.newDecMixed binary64 (⟨(f (1) (-149)), (f (1) (-149))⟩ : Itv)) (⟨⟨(f (1) (-149)), (f (1) (-149))⟩, .com⟩)),
    (1215, eqD (ret <| Fmt.newDecMixed binary32 (⟨(f (-9007199254740991) (971)), (f (-9007199254740991) (971))⟩ : Itv)) (⟨⟨.ninf, (f (-16777215) (104))⟩, .dac⟩)),
    (1216, eqD (ret <| Fmt.newDecMixed binary32 (⟨(f (-9007199254740991) (971)), (f 9007199254740991 971)⟩ : Itv)) (⟨⟨.ninf, .pinf⟩, .dac⟩)),
    (1217, eqD (ret <| Fmt.newDecMixed binary32 (⟨(f 9007199254740991 971), (f 9007199254740991 971)⟩ : Itv)) (⟨⟨(f 16777215 104), .pinf⟩, .dac⟩)),
    (1218, eqD (ret <| Fmt.newDecMixed binary64 (⟨(f 16777215 104), (f 16777215 104)⟩ : Itv)) (⟨⟨(f 16777215 104), (f 16777215 104)⟩, .com⟩)),
    (1219, eqD (ret <| Fmt.newDecMixed binary64 (⟨.ninf, .pinf⟩ : Itv)) (⟨⟨.ninf, .pinf⟩, .dac⟩)),
    (1221, eqD (ret <| Fmt.newDecMixed binary32 (⟨.ninf, .pinf⟩ : Itv)) (⟨⟨.ninf, .pinf⟩, .dac⟩)),
    (1222, eqD (ret <| Fmt.newDecMixed binary64 (⟨.ninf, .pinf⟩ : Itv)) (⟨⟨.ninf, .pinf⟩, .dac⟩)),
    (1224, DItv.pred Itv.isEmpty (ret <| Fmt.newDecMixed binary32 (⟨.nan, .nan⟩ : Itv) : DItv)),
    (1225, DItv.pred Itv.isEmpty (ret <| Fmt.newDecMixed binary64 (⟨.nan, .nan⟩ : Itv) : DItv)),
    (1229, DItv.isNai (ret <| Fmt.newDecMixed binary32 (⟨(f (-1) (-1074)), (f (-1) (-149))⟩ : Itv) : DItv)),
    (1232, DItv.isNai (ret <| Fmt.newDecMixed binary32 (⟨(f 7 0), .nan⟩ : Itv) : DItv)),
    (1235, DItv.isNai (ret <| Fmt.newDecMixed binary32 (⟨(f 7 0), (f (-3) (0))⟩ : Itv) : DItv))] : List (ℕ × Bool)).all (·.2) = true := by
  decide +kernel

example : ([
    (1238, DItv.isNai (ret <| Fmt.newDecMixed binary64 (⟨.ninf, .ninf⟩ : Itv) : DItv)),
    (1241, DItv.isNai (ret <| Fmt.newDecMixed binary64 (⟨.pinf, .pinf⟩ : Itv) : DItv)),
    (1256, eqD (ret <| setDec (⟨(f (-3602879824865869) (-47)), (f (7205759403792793) (-56))⟩ : Itv) (raw .trv)) (⟨⟨(f (-3602879824865869) (-47)), (f (7205759403792793) (-56))⟩, .trv⟩)),
    (1257, eqD (ret <| setDec (⟨(f (-6710887) (-18)), (f (7205759403792793) (-56))⟩ : Itv) (raw .com)) (⟨⟨(f (-6710887) (-18)), (f (7205759403792793) (-56))⟩, .com⟩)),
    (1258, eqD (ret <| setDec (⟨(f (-3602879824865869) (-47)), (f (13421773) (-27))⟩ : Itv) (raw .dac)) (⟨⟨(f (-3602879824865869) (-47)), (f (13421773) (-27))⟩, .dac⟩)),
    (1259, eqD (ret <| setDec (⟨(f (-6710887) (-18)), (f (13421773) (-27))⟩ : Itv) (raw .defd)) (⟨⟨(f (-6710887) (-18)), (f (13421773) (-27))⟩, .defd⟩)),
    (1260, eqD (ret <| setDec (⟨(f (-1) (-1074)), (f (-1) (-1074))⟩ : Itv) (raw .trv)) (⟨⟨(f (-1) (-1074)), (f (-1) (-1074))⟩, .trv⟩)),
    (1261, eqD (ret <| setDec (⟨(f (-1) (-1074)), (f (1) (-1074))⟩ : Itv) (raw .defd)) (⟨⟨(f (-1) (-1074)), (f (1) (-1074))⟩, .defd⟩)),
    (1262, eqD (ret <| setDec (⟨(f (1) (-1074)), (f (1) (-1074))⟩ : Itv) (raw .dac)) (⟨⟨(f (1) (-1074)), (f (1) (-1074))⟩, .dac⟩)),
    (1263, eqD (ret <| setDec (⟨(f (-9007199254740991) (971)), (f (-9007199254740991) (971))⟩ : Itv) (raw .com)) (⟨⟨(f (-9007199254740991) (971)), (f (-9007199254740991) (971))⟩, .com⟩)),
    (1264, eqD (ret <| setDec (⟨(f (-9007199254740991) (971)), (f 9007199254740991 971)⟩ : Itv) (raw .defd)) (⟨⟨(f (-9007199254740991) (971)), (f 9007199254740991 971)⟩, .defd⟩)),
    (1265, eqD (ret <| setDec (⟨(f 9007199254740991 971), (f 9007199254740991 971)⟩ : Itv) (raw .trv)) (⟨⟨(f 9007199254740991 971), (f 9007199254740991 971)⟩, .trv⟩)),
    (1266, eqD (ret <| setDec (⟨.ninf, .pinf⟩ : Itv) (raw .dac)) (⟨⟨.ninf, .pinf⟩, .dac⟩)),
    (1267, DItv.pred Itv.isEmpty (ret <| setDec (⟨.nan, .nan⟩ : Itv) (raw .trv) : DItv)),
    (1268, eqD (ret <| setDec (⟨(f (-6710887) (-18)), (f (7205759403792793) (-56))⟩ : Itv) (raw .com)) (⟨⟨(f (-6710887) (-18)), (f (7205759403792793) (-56))⟩, .com⟩)),
    (1270, DItv.pred Itv.isEmpty (ret <| setDec (⟨.nan, .nan⟩ : Itv) (raw .defd) : DItv)),
    (1271, DItv.pred Itv.isEmpty (ret <| setDec (⟨.nan, .nan⟩ : Itv) (raw .dac) : DItv)),
    (1272, DItv.pred Itv.isEmpty (ret <| setDec (⟨.nan, .nan⟩ : Itv) (raw .com) : DItv)),
    (1273, eqD (ret <| setDec (⟨(f 1 0), .pinf⟩ : Itv) (raw .com)) (⟨⟨(f 1 0), .pinf⟩, .dac⟩)),
    (1274, eqD (ret <| setDec (⟨.ninf, (f 3 0)⟩ : Itv) (raw .com)) (⟨⟨.ninf, (f 3 0)⟩, .dac⟩)),
    (1275, eqD (ret <| setDec (⟨.ninf, .pinf⟩ : Itv) (raw .com)) (⟨⟨.ninf, .pinf⟩, .dac⟩)),
    (1276, DItv.isNai (ret <| setDec (⟨.nan, .nan⟩ : Itv) (raw .ill) : DItv)),
    (1277, DItv.isNai (ret <| setDec (⟨.ninf, (f 3 0)⟩ : Itv) (raw .ill) : DItv)),
    (1278, DItv.isNai (ret <| setDec (⟨(f (-1) (0)), (f 3 0)⟩ : Itv) (raw .ill) : DItv)),
    (1282, DItv.isNai (ret <| setDec (⟨(f 7 0), .nan⟩ : Itv) (raw .trv) : DItv)),
    (1285, DItv.isNai (ret <| setDec (⟨(f 7 0), (f (-3) (0))⟩ : Itv) (raw .defd) : DItv)),
    (1288, DItv.isNai (ret <| setDec (⟨.ninf, .ninf⟩ : Itv) (raw .com) : DItv)),
    (1291, DItv.isNai (ret <| setDec (⟨.pinf, .pinf⟩ : Itv) (raw .dac) : DItv)),
    (1297, DItv.isNai (ret <| setDec (⟨(f 1 0), (f 2 0)⟩ : Itv) 13 : DItv)),
    (1316, eqD (ret <| Fmt.setDecMixed binary32 (⟨(f (-3602879824865869) (-47)), (f (7205759403792793) (-56))⟩ : Itv) (raw .trv)) (⟨⟨(f (-6710887) (-18)), (f (13421773) (-27))⟩, .trv⟩)),
    (1317, eqD (ret <| Fmt.setDecMixed binary32 (⟨(f (-6710887) (-18)), (f (7205759403792793) (-56))⟩ : Itv) (raw .com)) (⟨⟨(f (-6710887) (-18)), (f (13421773) (-27))⟩, .com⟩)),
    (1318, eqD (ret <| Fmt.setDecMixed binary32 (⟨(f (-3602879824865869) (-47)), (f (13421773) (-27))⟩ : Itv) (raw .dac)) (⟨⟨(f (-6710887) (-18)), (f (13421773) (-27))⟩, .dac⟩)),
    (1319, eqD (ret <| Fmt.setDecMixed binary32 (⟨(f (-6710887) (-18)), (f (13421773) (-27))⟩ : Itv) (raw .defd)) (⟨⟨(f (-6710887) (-18)), (f (13421773) (-27))⟩, .defd⟩)),
    (1320, eqD (ret <| Fmt.setDecMixed binary64 (⟨(f (-6710887) (-18)), (f (13421773) (-27))⟩ : Itv) (raw .trv)) (⟨⟨(f (-6710887) (-18)), (f (13421773) (-27))⟩, .trv⟩)),
    (1322, eqD (ret <| Fmt.setDecMixed binary32 (⟨(f (-1) (-1074)), (f (-1) (-1074))⟩ : Itv) (raw .trv)) (⟨⟨(f (-1) (-149)), (f 0 0)⟩, .trv⟩)),
    (1323, !sgn (((ret <| Fmt.setDecMixed binary32 (⟨(f (-1) (-1074)), (f (-1) (-1074))⟩ : Itv) (raw .trv) : DItv).itv : Itv).hi)),
    (1324, eqD (ret <| Fmt.setDecMixed binary32 (⟨(f (-1) (-1074)), (f (1) (-1074))⟩ : Itv) (raw .trv)) (⟨⟨(f (-1) (-149)), (f (1) (-149))⟩, .trv⟩)),
    (1325, eqD (ret <| Fmt.setDecMixed binary32 (⟨(f (1) (-1074)), (f (1) (-1074))⟩ : Itv) (raw .trv)) (⟨⟨.nzero, (f (1) (-149))⟩, .trv⟩)),
    (1326, sgn (((ret <| Fmt.setDecMixed binary32 (⟨(f (1) (-1074)), (f (1) (-1074))⟩ : Itv) (raw .trv) : DItv).itv : Itv).lo)),
    (1327, eqD (ret <| Fmt.setDecMixed binary64 (⟨(f (1) (-149)), (f (1) (-149))⟩ : Itv) (raw .trv)) (⟨⟨(f (1) (-149)), (f (1) (-149))⟩, .trv⟩)),
    (1329, eqD (ret <| Fmt.setDecMixed binary32 (⟨(f (-9007199254740991) (971)), (f (-9007199254740991) (971))⟩ : Itv) (raw .defd)) (⟨⟨.ninf, (f (-16777215) (104))⟩, .defd⟩)),
    (1330, eqD (ret <| Fmt.setDecMixed binary32 (⟨(f (-9007199254740991) (971)), (f 9007199254740991 971)⟩ : Itv) (raw .trv)) (⟨⟨.ninf, .pinf⟩, .trv⟩)),
    (1331, eqD (ret <| Fmt.setDecMixed binary32 (⟨(f 9007199254740991 971), (f 9007199254740991 971)⟩ : Itv) (raw .dac)) (⟨⟨(f 16777215 104), .pinf⟩, .dac⟩)),
    (1332, eqD (ret <| Fmt.setDecMixed binary64 (⟨(f 16777215 104), (f 16777215 104)⟩ : Itv) (raw .trv)) (⟨⟨(f 16777215 104), (f 16777215 104)⟩, .trv⟩)),
    (1334, eqD (ret <| Fmt.setDecMixed binary32 (⟨(f (-9007199254740991) (971)), (f (-9007199254740991) (971))⟩ : Itv) (raw .com)) (⟨⟨.ninf, (f (-16777215) (104))⟩, .dac⟩)),
    (1335, eqD (ret <| Fmt.setDecMixed binary32 (⟨(f (-9007199254740991) (971)), (f 9007199254740991 971)⟩ : Itv) (raw .com)) (⟨⟨.ninf, .pinf⟩, .dac⟩)),
    (1336, eqD (ret <| Fmt.setDecMixed binary32 (⟨(f 9007199254740991 971), (f 9007199254740991 971)⟩ : Itv) (raw .com)) (⟨⟨(f 16777215 104), .pinf⟩, .dac⟩)),
    (1337, eqD (ret <| Fmt.setDecMixed binary64 (⟨.ninf, .pinf⟩ : Itv) (raw .trv)) (⟨⟨.ninf, .pinf⟩, .trv⟩)),
    (1339, eqD (ret <| Fmt.setDecMixed binary32 (⟨.ninf, .pinf⟩ : Itv) (raw .trv)) (⟨⟨.ninf, .pinf⟩, .trv⟩)),
    (1340, eqD (ret <| Fmt.setDecMixed binary64 (⟨.ninf, .pinf⟩ : Itv) (raw .trv)) (⟨⟨.ninf, .pinf⟩, .trv⟩))] : List (ℕ × Bool)).all (·.2) = true := by
  decide +kernel

example : ([
    (1342, DItv.pred Itv.isEmpty (ret <| Fmt.setDecMixed binary32 (⟨.nan, .nan⟩ : Itv) (raw .trv) : DItv)),
    (1343, DItv.pred Itv.isEmpty (ret <| Fmt.setDecMixed binary64 (⟨.nan, .nan⟩ : Itv) (raw .trv) : DItv)),
    (1346, DItv.pred Itv.isEmpty (ret <| Fmt.setDecMixed binary32 (⟨.nan, .nan⟩ : Itv) (raw .defd) : DItv)),
    (1347, DItv.pred Itv.isEmpty (ret <| Fmt.setDecMixed binary32 (⟨.nan, .nan⟩ : Itv) (raw .dac) : DItv)),
    (1348, DItv.pred Itv.isEmpty (ret <| Fmt.setDecMixed binary32 (⟨.nan, .nan⟩ : Itv) (raw .com) : DItv)),
    (1349, eqD (ret <| Fmt.setDecMixed binary64 (⟨(f 1 0), .pinf⟩ : Itv) (raw .com)) (⟨⟨(f 1 0), .pinf⟩, .dac⟩)),
    (1350, eqD (ret <| Fmt.setDecMixed binary64 (⟨.ninf, (f 3 0)⟩ : Itv) (raw .com)) (⟨⟨.ninf, (f 3 0)⟩, .dac⟩)),
    (1351, eqD (ret <| Fmt.setDecMixed binary64 (⟨.ninf, .pinf⟩ : Itv) (raw .com)) (⟨⟨.ninf, .pinf⟩, .dac⟩)),
    (1352, DItv.isNai (ret <| Fmt.setDecMixed binary64 (⟨.nan, .nan⟩ : Itv) (raw .ill) : DItv)),
    (1353, DItv.isNai (ret <| Fmt.setDecMixed binary64 (⟨.ninf, (f 3 0)⟩ : Itv) (raw .ill) : DItv)),
    (1354, DItv.isNai (ret <| Fmt.setDecMixed binary64 (⟨(f (-1) (0)), (f 3 0)⟩ : Itv) (raw .ill) : DItv)),
    (1358, DItv.isNai (ret <| Fmt.setDecMixed binary32 (⟨(f 7 0), .nan⟩ : Itv) (raw .trv) : DItv)),
    (1361, DItv.isNai (ret <| Fmt.setDecMixed binary32 (⟨(f 7 0), (f (-3) (0))⟩ : Itv) (raw .defd) : DItv)),
    (1364, DItv.isNai (ret <| Fmt.setDecMixed binary64 (⟨.ninf, .ninf⟩ : Itv) (raw .com) : DItv)),
    (1367, DItv.isNai (ret <| Fmt.setDecMixed binary64 (⟨.pinf, .pinf⟩ : Itv) (raw .dac) : DItv)),
    (1373, DItv.isNai (ret <| setDec (⟨(f 1 0), (f 2 0)⟩ : Itv) 13 : DItv)),
    (1393, decide (((ret <| decorationPart (⟨⟨.nan, .nan⟩, .ill⟩ : DItv)) : Dec) = .ill)),
    (1394, decide (((ret <| decorationPart (⟨⟨.nan, .nan⟩, .trv⟩ : DItv)) : Dec) = .trv)),
    (1395, decide (((ret <| decorationPart (⟨⟨(f (-1) (0)), (f 3 0)⟩, .trv⟩ : DItv)) : Dec) = .trv)),
    (1396, decide (((ret <| decorationPart (⟨⟨(f (-1) (0)), (f 3 0)⟩, .defd⟩ : DItv)) : Dec) = .defd)),
    (1397, decide (((ret <| decorationPart (⟨⟨(f (-1) (0)), (f 3 0)⟩, .dac⟩ : DItv)) : Dec) = .dac)),
    (1398, decide (((ret <| decorationPart (⟨⟨(f (-1) (0)), (f 3 0)⟩, .com⟩ : DItv)) : Dec) = .com)),
    (1403, decide (((ret <| decorationPart (⟨⟨(f 1 0), (f 17 0)⟩, .ill⟩ : DItv)) : Dec) = .ill)),
    (1406, decide (((ret <| decorationPart (⟨⟨.nan, .nan⟩, .dac⟩ : DItv)) : Dec) = .ill)),
    (1409, decide (((ret <| decorationPart (⟨⟨.ninf, (f 3 0)⟩, .com⟩ : DItv)) : Dec) = .ill)),
    (1412, decide (((ret <| decorationPart (⟨⟨(f (-15) (0)), .pinf⟩, .com⟩ : DItv)) : Dec) = .ill))] : List (ℕ × Bool)).all (·.2) = true := by
  decide +kernel

end P1788.Conform
