import Verif.Conform.Basic
import Verif.Model.Reduction

/-!
# Conformance: decorations, overlap states, reductions

Generated from `/repo/test/p1788/{decoration/test_decoration,overlapping/test_overlapping,reduction/test_reduction}.cpp`: the
assertions of the project's own test suite, evaluated in the model by the kernel.  These are tests of the model, not proofs of
properties.
-/

set_option maxRecDepth 100000

namespace P1788.Conform

/-- Read decorations one after the other; each with the variable afterwards and whether the stream is still good. -/
def checkDec (s : IStr) (d : Dec) : List (Dec × Bool) → Bool
  | [] => true
  | (e, ok) :: l => let r := Dec.read s d; decide (r.1 = e) && r.2.ok == ok && checkDec r.2 r.1 l

example : ([
    (42, decide ((.trv : Dec) = .trv)),
    (43, !decide ((.trv : Dec) = .defd)),
    (44, !decide ((.trv : Dec) = .dac)),
    (45, !decide ((.trv : Dec) = .com)),
    (46, !decide ((.trv : Dec) = .ill)),
    (48, !decide ((.defd : Dec) = .trv)),
    (49, decide ((.defd : Dec) = .defd)),
    (50, !decide ((.defd : Dec) = .dac)),
    (51, !decide ((.defd : Dec) = .com)),
    (52, !decide ((.defd : Dec) = .ill)),
    (54, !decide ((.dac : Dec) = .trv)),
    (55, !decide ((.dac : Dec) = .defd)),
    (56, decide ((.dac : Dec) = .dac)),
    (57, !decide ((.dac : Dec) = .com)),
    (58, !decide ((.dac : Dec) = .ill)),
    (60, !decide ((.com : Dec) = .trv)),
    (61, !decide ((.com : Dec) = .defd)),
    (62, !decide ((.com : Dec) = .dac)),
    (63, decide ((.com : Dec) = .com)),
    (64, !decide ((.com : Dec) = .ill)),
    (66, !decide ((.ill : Dec) = .trv)),
    (67, !decide ((.ill : Dec) = .defd)),
    (68, !decide ((.ill : Dec) = .dac)),
    (69, !decide ((.ill : Dec) = .com)),
    (70, decide ((.ill : Dec) = .ill)),
    (75, !decide ((.trv : Dec) ≠ .trv)),
    (76, decide ((.trv : Dec) ≠ .defd)),
    (77, decide ((.trv : Dec) ≠ .dac)),
    (78, decide ((.trv : Dec) ≠ .com)),
    (79, decide ((.trv : Dec) ≠ .ill)),
    (81, decide ((.defd : Dec) ≠ .trv)),
    (82, !decide ((.defd : Dec) ≠ .defd)),
    (83, decide ((.defd : Dec) ≠ .dac)),
    (84, decide ((.defd : Dec) ≠ .com)),
    (85, decide ((.defd : Dec) ≠ .ill)),
    (87, decide ((.dac : Dec) ≠ .trv)),
    (88, decide ((.dac : Dec) ≠ .defd)),
    (89, !decide ((.dac : Dec) ≠ .dac)),
    (90, decide ((.dac : Dec) ≠ .com)),
    (91, decide ((.dac : Dec) ≠ .ill)),
    (93, decide ((.com : Dec) ≠ .trv)),
    (94, decide ((.com : Dec) ≠ .defd)),
    (95, decide ((.com : Dec) ≠ .dac)),
    (96, !decide ((.com : Dec) ≠ .com)),
    (97, decide ((.com : Dec) ≠ .ill)),
    (99, decide ((.ill : Dec) ≠ .trv)),
    (100, decide ((.ill : Dec) ≠ .defd)),
    (101, decide ((.ill : Dec) ≠ .dac)),
    (102, decide ((.ill : Dec) ≠ .com)),
    (103, !decide ((.ill : Dec) ≠ .ill)),
    (108, !decide ((.trv : Dec) < .trv)),
    (109, decide ((.trv : Dec) < .defd)),
    (110, decide ((.trv : Dec) < .dac)),
    (111, decide ((.trv : Dec) < .com)),
    (112, !decide ((.trv : Dec) < .ill)),
    (114, !decide ((.defd : Dec) < .trv)),
    (115, !decide ((.defd : Dec) < .defd)),
    (116, decide ((.defd : Dec) < .dac)),
    (117, decide ((.defd : Dec) < .com)),
    (118, !decide ((.defd : Dec) < .ill)),
    (120, !decide ((.dac : Dec) < .trv)),
    (121, !decide ((.dac : Dec) < .defd)),
    (122, !decide ((.dac : Dec) < .dac)),
    (123, decide ((.dac : Dec) < .com)),
    (124, !decide ((.dac : Dec) < .ill)),
    (126, !decide ((.com : Dec) < .trv)),
    (127, !decide ((.com : Dec) < .defd)),
    (128, !decide ((.com : Dec) < .dac)),
    (129, !decide ((.com : Dec) < .com)),
    (130, !decide ((.com : Dec) < .ill)),
    (132, decide ((.ill : Dec) < .trv)),
    (133, decide ((.ill : Dec) < .defd)),
    (134, decide ((.ill : Dec) < .dac)),
    (135, decide ((.ill : Dec) < .com)),
    (136, !decide ((.ill : Dec) < .ill)),
    (141, decide ((.trv : Dec) ≤ .trv)),
    (142, decide ((.trv : Dec) ≤ .defd)),
    (143, decide ((.trv : Dec) ≤ .dac)),
    (144, decide ((.trv : Dec) ≤ .com)),
    (145, !decide ((.trv : Dec) ≤ .ill)),
    (147, !decide ((.defd : Dec) ≤ .trv)),
    (148, decide ((.defd : Dec) ≤ .defd)),
    (149, decide ((.defd : Dec) ≤ .dac)),
    (150, decide ((.defd : Dec) ≤ .com)),
    (151, !decide ((.defd : Dec) ≤ .ill)),
    (153, !decide ((.dac : Dec) ≤ .trv)),
    (154, !decide ((.dac : Dec) ≤ .defd)),
    (155, decide ((.dac : Dec) ≤ .dac)),
    (156, decide ((.dac : Dec) ≤ .com)),
    (157, !decide ((.dac : Dec) ≤ .ill)),
    (159, !decide ((.com : Dec) ≤ .trv)),
    (160, !decide ((.com : Dec) ≤ .defd)),
    (161, !decide ((.com : Dec) ≤ .dac)),
    (162, decide ((.com : Dec) ≤ .com)),
    (163, !decide ((.com : Dec) ≤ .ill)),
    (165, decide ((.ill : Dec) ≤ .trv)),
    (166, decide ((.ill : Dec) ≤ .defd)),
    (167, decide ((.ill : Dec) ≤ .dac)),
    (168, decide ((.ill : Dec) ≤ .com)),
    (169, decide ((.ill : Dec) ≤ .ill)),
    (174, !decide ((.trv : Dec) > .trv)),
    (175, !decide ((.trv : Dec) > .defd)),
    (176, !decide ((.trv : Dec) > .dac)),
    (177, !decide ((.trv : Dec) > .com)),
    (178, decide ((.trv : Dec) > .ill)),
    (180, decide ((.defd : Dec) > .trv)),
    (181, !decide ((.defd : Dec) > .defd)),
    (182, !decide ((.defd : Dec) > .dac)),
    (183, !decide ((.defd : Dec) > .com)),
    (184, decide ((.defd : Dec) > .ill)),
    (186, decide ((.dac : Dec) > .trv)),
    (187, decide ((.dac : Dec) > .defd)),
    (188, !decide ((.dac : Dec) > .dac)),
    (189, !decide ((.dac : Dec) > .com)),
    (190, decide ((.dac : Dec) > .ill)),
    (192, decide ((.com : Dec) > .trv)),
    (193, decide ((.com : Dec) > .defd)),
    (194, decide ((.com : Dec) > .dac)),
    (195, !decide ((.com : Dec) > .com)),
    (196, decide ((.com : Dec) > .ill)),
    (198, !decide ((.ill : Dec) > .trv)),
    (199, !decide ((.ill : Dec) > .defd)),
    (200, !decide ((.ill : Dec) > .dac)),
    (201, !decide ((.ill : Dec) > .com)),
    (202, !decide ((.ill : Dec) > .ill)),
    (207, decide ((.trv : Dec) ≥ .trv)),
    (208, !decide ((.trv : Dec) ≥ .defd)),
    (209, !decide ((.trv : Dec) ≥ .dac)),
    (210, !decide ((.trv : Dec) ≥ .com)),
    (211, decide ((.trv : Dec) ≥ .ill)),
    (213, decide ((.defd : Dec) ≥ .trv)),
    (214, decide ((.defd : Dec) ≥ .defd)),
    (215, !decide ((.defd : Dec) ≥ .dac)),
    (216, !decide ((.defd : Dec) ≥ .com)),
    (217, decide ((.defd : Dec) ≥ .ill)),
    (219, decide ((.dac : Dec) ≥ .trv)),
    (220, decide ((.dac : Dec) ≥ .defd)),
    (221, decide ((.dac : Dec) ≥ .dac)),
    (222, !decide ((.dac : Dec) ≥ .com)),
    (223, decide ((.dac : Dec) ≥ .ill)),
    (225, decide ((.com : Dec) ≥ .trv)),
    (226, decide ((.com : Dec) ≥ .defd)),
    (227, decide ((.com : Dec) ≥ .dac)),
    (228, decide ((.com : Dec) ≥ .com)),
    (229, decide ((.com : Dec) ≥ .ill)),
    (231, !decide ((.ill : Dec) ≥ .trv)),
    (232, !decide ((.ill : Dec) ≥ .defd)),
    (233, !decide ((.ill : Dec) ≥ .dac)),
    (234, !decide ((.ill : Dec) ≥ .com)),
    (235, decide ((.ill : Dec) ≥ .ill))] : List (ℕ × Bool)).all (·.2) = true := by
  decide +kernel

example : ([0, 4, 8, 12, 16].map Dec.ofRaw).all Option.isSome = true ∧ Dec.ofRaw 13 = none := by
  decide +kernel

example : (checkOut {} [
    ([.putDec (raw .trv)], "trv"),
    ([.putDec (raw .defd)], "def"),
    ([.putDec (raw .dac)], "dac"),
    ([.putDec (raw .com)], "com"),
    ([.putDec (raw .ill)], "ill"),
    ([.dec true, .putDec (raw .trv)], "4"),
    ([.putDec (raw .defd)], "8"),
    ([.putDec (raw .dac)], "12"),
    ([.putDec (raw .com)], "16"),
    ([.putDec (raw .ill)], "0"),
    ([.dec false, .case true, .putDec (raw .com)], "COM"),
    ([.putDec (raw .ill)], "ILL"),
    ([.putDec (raw .trv)], "TRV"),
    ([.putDec (raw .defd)], "DEF"),
    ([.putDec (raw .dac)], "DAC"),
    ([.case false, .putDec (raw .com)], "com"),
    ([.putDec (raw .ill)], "ill")]).all id = true := by
  decide +kernel

example : (checkOut {} [
    ([.putOverlap .undefined], "undefined"),
    ([.putOverlap .bothEmpty], "both_empty"),
    ([.putOverlap .firstEmpty], "first_empty"),
    ([.putOverlap .secondEmpty], "second_empty"),
    ([.putOverlap .before], "before"),
    ([.putOverlap .meets], "meets"),
    ([.putOverlap .overlaps], "overlaps"),
    ([.putOverlap .starts], "starts"),
    ([.putOverlap .containedBy], "contained_by"),
    ([.putOverlap .finishes], "finishes"),
    ([.putOverlap .equal], "equal"),
    ([.putOverlap .finishedBy], "finished_by"),
    ([.putOverlap .contains], "contains"),
    ([.putOverlap .startedBy], "started_by"),
    ([.putOverlap .overlappedBy], "overlapped_by"),
    ([.putOverlap .metBy], "met_by"),
    ([.putOverlap .after], "after"),
    ([.overlap true, .putOverlap .undefined], "0"),
    ([.putOverlap .bothEmpty], "1"),
    ([.putOverlap .firstEmpty], "2"),
    ([.putOverlap .secondEmpty], "4"),
    ([.putOverlap .before], "8"),
    ([.putOverlap .meets], "16"),
    ([.putOverlap .overlaps], "32"),
    ([.putOverlap .starts], "64"),
    ([.putOverlap .containedBy], "128"),
    ([.putOverlap .finishes], "256"),
    ([.putOverlap .equal], "512"),
    ([.putOverlap .finishedBy], "1024"),
    ([.putOverlap .contains], "2048"),
    ([.putOverlap .startedBy], "4096"),
    ([.putOverlap .overlappedBy], "8192"),
    ([.putOverlap .metBy], "16384"),
    ([.putOverlap .after], "32768"),
    ([.overlap false, .case true, .putOverlap .undefined], "UNDEFINED"),
    ([.putOverlap .bothEmpty], "BOTH_EMPTY"),
    ([.putOverlap .firstEmpty], "FIRST_EMPTY"),
    ([.putOverlap .secondEmpty], "SECOND_EMPTY"),
    ([.putOverlap .before], "BEFORE"),
    ([.putOverlap .meets], "MEETS"),
    ([.putOverlap .overlaps], "OVERLAPS"),
    ([.putOverlap .starts], "STARTS"),
    ([.putOverlap .containedBy], "CONTAINED_BY"),
    ([.putOverlap .finishes], "FINISHES"),
    ([.putOverlap .equal], "EQUAL"),
    ([.putOverlap .finishedBy], "FINISHED_BY"),
    ([.putOverlap .contains], "CONTAINS"),
    ([.putOverlap .startedBy], "STARTED_BY"),
    ([.putOverlap .overlappedBy], "OVERLAPPED_BY"),
    ([.putOverlap .metBy], "MET_BY"),
    ([.putOverlap .after], "AFTER")]).all id = true := by
  decide +kernel

example : [
    checkDec { rest := "ill".toList } .ill [(.ill, true)],
    checkDec { rest := "0".toList } .ill [(.ill, true)],
    checkDec { rest := "trv".toList } .ill [(.trv, true)],
    checkDec { rest := "4".toList } .ill [(.trv, true)],
    checkDec { rest := "def".toList } .ill [(.defd, true)],
    checkDec { rest := "8".toList } .ill [(.defd, true)],
    checkDec { rest := "dac".toList } .ill [(.dac, true)],
    checkDec { rest := "12".toList } .ill [(.dac, true)],
    checkDec { rest := "com".toList } .ill [(.com, true)],
    checkDec { rest := "16".toList } .ill [(.com, true)],
    checkDec { rest := "dac4".toList } .ill [(.dac, true), (.trv, true)],
    checkDec { rest := "8 dac 4".toList } .ill [(.defd, true), (.dac, true), (.trv, true)],
    checkDec { rest := "  DAC  16".toList } .ill [(.dac, true), (.com, true)],
    checkDec { rest := "  def".toList, skipws := false } .com [(.com, false)],
    checkDec { rest := "  12".toList, skipws := false } .trv [(.trv, false)],
    checkDec { rest := "\n 4 \t DEF \n".toList } .ill [(.trv, true), (.defd, true)],
    checkDec { rest := "foo com".toList } .trv [(.trv, false)],
    checkDec { rest := " \t \n \t ".toList } .dac [(.dac, false)],
    checkDec { rest := "7".toList } .com [(.com, false)],
    checkDec { rest := "-2".toList } .defd [(.defd, false)]].all id = true := by
  decide +kernel

example : ([
    (48, FP.feq (Fmt.sum binary64 .toNearest [(f 1 0), (f 2 0), (f 3 0)]) (f 6 0)),
    (49, FP.feq (Fmt.sum binary64 .toNearest [(f 1 0), (f 2 0), (f 3 0)]) (f 6 0)),
    (50, FP.feq (Fmt.sum binary64 .toNearest [(f 1 0), (f 2 0), (f 3 0)]) (f 6 0)),
    (52, FP.isNaN (Fmt.sum binary64 .toNearest [(f 1 0), (f 2 0), .nan, (f 3 0)])),
    (54, FP.isNaN (Fmt.sum binary64 .toNearest [(f 1 0), .ninf, (f 2 0), .pinf, (f 3 0)])),
    (62, FP.feq (Fmt.sumAbs binary64 .toNearest [(f 1 0), (f (-2) (0)), (f 3 0)]) (f 6 0)),
    (63, FP.feq (Fmt.sumAbs binary64 .toNearest [(f 1 0), (f (-2) (0)), (f 3 0)]) (f 6 0)),
    (64, FP.feq (Fmt.sumAbs binary64 .toNearest [(f 1 0), (f (-2) (0)), (f 3 0)]) (f 6 0)),
    (66, FP.isNaN (Fmt.sumAbs binary64 .toNearest [(f 1 0), (f (-2) (0)), .nan, (f 3 0)])),
    (68, FP.feq (Fmt.sumAbs binary64 .toNearest [(f 1 0), .ninf, (f 2 0), .pinf, (f 3 0)]) .pinf),
    (76, FP.feq (Fmt.sumSqr binary64 .toNearest [(f 1 0), (f 2 0), (f 3 0)]) (f 14 0)),
    (77, FP.feq (Fmt.sumSqr binary64 .toNearest [(f 1 0), (f 2 0), (f 3 0)]) (f 14 0)),
    (78, FP.feq (Fmt.sumSqr binary64 .toNearest [(f 1 0), (f 2 0), (f 3 0)]) (f 14 0)),
    (80, FP.isNaN (Fmt.sumSqr binary64 .toNearest [(f 1 0), (f 2 0), .nan, (f 3 0)])),
    (82, FP.feq (Fmt.sumSqr binary64 .toNearest [(f 1 0), .ninf, (f 2 0), .pinf, (f 3 0)]) .pinf),
    (91, FP.feq ((Fmt.dot binary64 .toNearest [(f 1 0), (f 2 0), (f 3 0)] [(f 1 0), (f 2 0), (f 3 0)]).getD .ninf) (f 14 0)),
    (92, FP.feq ((Fmt.dot binary64 .toNearest [(f 1 0), (f 2 0), (f 3 0)] [(f 1 0), (f 2 0), (f 3 0)]).getD .ninf) (f 14 0)),
    (93, FP.feq ((Fmt.dot binary64 .toNearest [(f 1 0), (f 2 0), (f 3 0)] [(f 1 0), (f 2 0), (f 3 0)]).getD .ninf) (f 14 0)),
    (95, FP.feq ((Fmt.dot binary64 .toNearest [(f 4503599627370497 0), (f 1048576 84)] [(f 4503599627370495 0), (f (-1) (0))]).getD .ninf) (f (-1) (0))),
    (97, FP.isNaN ((Fmt.dot binary64 .toNearest [(f 1 0), (f 2 0), .nan, (f 3 0)] [(f 1 0), (f 2 0), (f 3 0), (f 4 0)]).getD .ninf)),
    (98, FP.isNaN ((Fmt.dot binary64 .toNearest [(f 1 0), (f 2 0), (f 3 0), (f 4 0)] [(f 1 0), (f 2 0), .nan, (f 3 0)]).getD .ninf)),
    (100, FP.isNaN ((Fmt.dot binary64 .toNearest [(f 1 0), (f 2 0), (f 0 0), (f 4 0)] [(f 1 0), (f 2 0), .pinf, (f 3 0)]).getD .ninf)),
    (101, FP.isNaN ((Fmt.dot binary64 .toNearest [(f 1 0), (f 2 0), .ninf, (f 4 0)] [(f 1 0), (f 2 0), (f 0 0), (f 3 0)]).getD .ninf))] : List (ℕ × Bool)).all (·.2) = true := by
  decide +kernel

end P1788.Conform
