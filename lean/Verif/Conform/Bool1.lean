import Verif.Conform.Basic

/-!
# Conformance: bool_func

Generated from `/repo/test/p1788/flavor/infsup/setbased/test_mpfr_bin_ieee754_flavor_bool_func.cpp`: the assertions of the project's own test suite, evaluated in the
model by the kernel.  Each entry is (line in that file, value of the assertion).  These are tests of the model, not proofs of
properties.
-/

set_option maxRecDepth 100000

namespace P1788.Conform

example : ([
    (56, Itv.isEmpty (⟨.nan, .nan⟩ : Itv)),
    (57, !Itv.isEmpty (⟨.ninf, .pinf⟩ : Itv)),
    (58, !Itv.isEmpty (⟨(f 1 0), (f 2 0)⟩ : Itv)),
    (59, !Itv.isEmpty (⟨(f (-1) (0)), (f 2 0)⟩ : Itv)),
    (60, !Itv.isEmpty (⟨(f (-3) (0)), (f (-2) (0))⟩ : Itv)),
    (61, !Itv.isEmpty (⟨.ninf, (f 2 0)⟩ : Itv)),
    (62, !Itv.isEmpty (⟨.ninf, (f 0 0)⟩ : Itv)),
    (63, !Itv.isEmpty (⟨.ninf, .nzero⟩ : Itv)),
    (64, !Itv.isEmpty (⟨(f 0 0), .pinf⟩ : Itv)),
    (65, !Itv.isEmpty (⟨.nzero, .pinf⟩ : Itv)),
    (66, !Itv.isEmpty (⟨.nzero, (f 0 0)⟩ : Itv)),
    (67, !Itv.isEmpty (⟨(f 0 0), .nzero⟩ : Itv)),
    (68, !Itv.isEmpty (⟨(f 0 0), (f 0 0)⟩ : Itv)),
    (69, !Itv.isEmpty (⟨.nzero, .nzero⟩ : Itv)),
    (74, !Itv.isEmpty (⟨(f 1 0), (f (-2) (0))⟩ : Itv)),
    (88, !DItv.pred Itv.isEmpty (⟨⟨.nan, .nan⟩, .ill⟩ : DItv)),
    (89, DItv.pred Itv.isEmpty (⟨⟨.nan, .nan⟩, .trv⟩ : DItv)),
    (90, !DItv.pred Itv.isEmpty (⟨⟨.ninf, .pinf⟩, .defd⟩ : DItv)),
    (91, !DItv.pred Itv.isEmpty (⟨⟨(f 1 0), (f 2 0)⟩, .com⟩ : DItv)),
    (92, !DItv.pred Itv.isEmpty (⟨⟨(f (-1) (0)), (f 2 0)⟩, .trv⟩ : DItv)),
    (93, !DItv.pred Itv.isEmpty (⟨⟨(f (-3) (0)), (f (-2) (0))⟩, .dac⟩ : DItv)),
    (94, !DItv.pred Itv.isEmpty (⟨⟨.ninf, (f 2 0)⟩, .trv⟩ : DItv)),
    (95, !DItv.pred Itv.isEmpty (⟨⟨.ninf, (f 0 0)⟩, .trv⟩ : DItv)),
    (96, !DItv.pred Itv.isEmpty (⟨⟨.ninf, .nzero⟩, .trv⟩ : DItv)),
    (97, !DItv.pred Itv.isEmpty (⟨⟨(f 0 0), .pinf⟩, .defd⟩ : DItv)),
    (98, !DItv.pred Itv.isEmpty (⟨⟨.nzero, .pinf⟩, .trv⟩ : DItv)),
    (99, !DItv.pred Itv.isEmpty (⟨⟨.nzero, (f 0 0)⟩, .com⟩ : DItv)),
    (100, !DItv.pred Itv.isEmpty (⟨⟨(f 0 0), .nzero⟩, .trv⟩ : DItv)),
    (101, !DItv.pred Itv.isEmpty (⟨⟨(f 0 0), (f 0 0)⟩, .trv⟩ : DItv)),
    (102, !DItv.pred Itv.isEmpty (⟨⟨.nzero, .nzero⟩, .trv⟩ : DItv)),
    (107, !DItv.pred Itv.isEmpty (⟨⟨(f 1 0), (f (-2) (0))⟩, .com⟩ : DItv)),
    (121, !Itv.isEntire (⟨.nan, .nan⟩ : Itv)),
    (122, Itv.isEntire (⟨.ninf, .pinf⟩ : Itv)),
    (123, !Itv.isEntire (⟨(f 1 0), (f 2 0)⟩ : Itv)),
    (124, !Itv.isEntire (⟨(f (-1) (0)), (f 2 0)⟩ : Itv)),
    (125, !Itv.isEntire (⟨(f (-3) (0)), (f (-2) (0))⟩ : Itv)),
    (126, !Itv.isEntire (⟨.ninf, (f 2 0)⟩ : Itv)),
    (127, !Itv.isEntire (⟨.ninf, (f 0 0)⟩ : Itv)),
    (128, !Itv.isEntire (⟨.ninf, .nzero⟩ : Itv)),
    (129, !Itv.isEntire (⟨(f 0 0), .pinf⟩ : Itv)),
    (130, !Itv.isEntire (⟨.nzero, .pinf⟩ : Itv)),
    (131, !Itv.isEntire (⟨.nzero, (f 0 0)⟩ : Itv)),
    (132, !Itv.isEntire (⟨(f 0 0), .nzero⟩ : Itv)),
    (133, !Itv.isEntire (⟨(f 0 0), (f 0 0)⟩ : Itv)),
    (134, !Itv.isEntire (⟨.nzero, .nzero⟩ : Itv)),
    (139, !Itv.isEntire (⟨(f (-1) (0)), (f (-2) (0))⟩ : Itv)),
    (153, !DItv.pred Itv.isEntire (⟨⟨.nan, .nan⟩, .ill⟩ : DItv)),
    (154, !DItv.pred Itv.isEntire (⟨⟨.nan, .nan⟩, .trv⟩ : DItv)),
    (155, DItv.pred Itv.isEntire (⟨⟨.ninf, .pinf⟩, .trv⟩ : DItv)),
    (156, DItv.pred Itv.isEntire (⟨⟨.ninf, .pinf⟩, .defd⟩ : DItv))] : List (ℕ × Bool)).all (·.2) = true := by
  decide +kernel

example : ([
    (157, DItv.pred Itv.isEntire (⟨⟨.ninf, .pinf⟩, .dac⟩ : DItv)),
    (158, !DItv.pred Itv.isEntire (⟨⟨(f 1 0), (f 2 0)⟩, .com⟩ : DItv)),
    (159, !DItv.pred Itv.isEntire (⟨⟨(f (-1) (0)), (f 2 0)⟩, .trv⟩ : DItv)),
    (160, !DItv.pred Itv.isEntire (⟨⟨(f (-3) (0)), (f (-2) (0))⟩, .dac⟩ : DItv)),
    (161, !DItv.pred Itv.isEntire (⟨⟨.ninf, (f 2 0)⟩, .trv⟩ : DItv)),
    (162, !DItv.pred Itv.isEntire (⟨⟨.ninf, (f 0 0)⟩, .trv⟩ : DItv)),
    (163, !DItv.pred Itv.isEntire (⟨⟨.ninf, .nzero⟩, .trv⟩ : DItv)),
    (164, !DItv.pred Itv.isEntire (⟨⟨(f 0 0), .pinf⟩, .defd⟩ : DItv)),
    (165, !DItv.pred Itv.isEntire (⟨⟨.nzero, .pinf⟩, .trv⟩ : DItv)),
    (166, !DItv.pred Itv.isEntire (⟨⟨.nzero, (f 0 0)⟩, .com⟩ : DItv)),
    (167, !DItv.pred Itv.isEntire (⟨⟨(f 0 0), .nzero⟩, .trv⟩ : DItv)),
    (168, !DItv.pred Itv.isEntire (⟨⟨(f 0 0), (f 0 0)⟩, .trv⟩ : DItv)),
    (169, !DItv.pred Itv.isEntire (⟨⟨.nzero, .nzero⟩, .trv⟩ : DItv)),
    (174, !DItv.pred Itv.isEntire (⟨⟨(f 1 0), (f (-2) (0))⟩, .com⟩ : DItv)),
    (188, DItv.isNai (⟨⟨.nan, .nan⟩, .ill⟩ : DItv)),
    (189, !DItv.isNai (⟨⟨.nan, .nan⟩, .trv⟩ : DItv)),
    (190, !DItv.isNai (⟨⟨.ninf, .pinf⟩, .trv⟩ : DItv)),
    (191, !DItv.isNai (⟨⟨.ninf, .pinf⟩, .defd⟩ : DItv)),
    (192, !DItv.isNai (⟨⟨.ninf, .pinf⟩, .dac⟩ : DItv)),
    (193, !DItv.isNai (⟨⟨(f 1 0), (f 2 0)⟩, .com⟩ : DItv)),
    (194, !DItv.isNai (⟨⟨(f (-1) (0)), (f 2 0)⟩, .trv⟩ : DItv)),
    (195, !DItv.isNai (⟨⟨(f (-3) (0)), (f (-2) (0))⟩, .dac⟩ : DItv)),
    (196, !DItv.isNai (⟨⟨.ninf, (f 2 0)⟩, .trv⟩ : DItv)),
    (197, !DItv.isNai (⟨⟨.ninf, (f 0 0)⟩, .trv⟩ : DItv)),
    (198, !DItv.isNai (⟨⟨.ninf, .nzero⟩, .trv⟩ : DItv)),
    (199, !DItv.isNai (⟨⟨(f 0 0), .pinf⟩, .defd⟩ : DItv)),
    (200, !DItv.isNai (⟨⟨.nzero, .pinf⟩, .trv⟩ : DItv)),
    (201, !DItv.isNai (⟨⟨.nzero, (f 0 0)⟩, .com⟩ : DItv)),
    (202, !DItv.isNai (⟨⟨(f 0 0), .nzero⟩, .trv⟩ : DItv)),
    (203, !DItv.isNai (⟨⟨(f 0 0), (f 0 0)⟩, .trv⟩ : DItv)),
    (204, !DItv.isNai (⟨⟨.nzero, .nzero⟩, .trv⟩ : DItv)),
    (209, !DItv.isNai (⟨⟨(f (-1) (0)), (f (-2) (0))⟩, .trv⟩ : DItv)),
    (223, Itv.equal (⟨(f 1 0), (f 2 0)⟩ : Itv) (⟨(f 1 0), (f 2 0)⟩ : Itv)),
    (224, !Itv.equal (⟨(f 1 0), (f (4728779608739021) (-51))⟩ : Itv) (⟨(f 1 0), (f 2 0)⟩ : Itv)),
    (225, Itv.equal (⟨.nan, .nan⟩ : Itv) (⟨.nan, .nan⟩ : Itv)),
    (226, !Itv.equal (⟨.nan, .nan⟩ : Itv) (⟨(f 1 0), (f 2 0)⟩ : Itv)),
    (227, Itv.equal (⟨.ninf, .pinf⟩ : Itv) (⟨.ninf, .pinf⟩ : Itv)),
    (228, !Itv.equal (⟨(f 1 0), (f (5404319552844595) (-51))⟩ : Itv) (⟨.ninf, .pinf⟩ : Itv)),
    (229, Itv.equal (⟨(f 1 0), .pinf⟩ : Itv) (⟨(f 1 0), .pinf⟩ : Itv)),
    (230, !Itv.equal (⟨(f 1 0), (f (5404319552844595) (-51))⟩ : Itv) (⟨(f 1 0), .pinf⟩ : Itv)),
    (231, Itv.equal (⟨.ninf, (f 2 0)⟩ : Itv) (⟨.ninf, (f 2 0)⟩ : Itv)),
    (232, !Itv.equal (⟨.ninf, (f (5404319552844595) (-51))⟩ : Itv) (⟨.ninf, (f 2 0)⟩ : Itv)),
    (233, Itv.equal (⟨(f (-2) (0)), (f 0 0)⟩ : Itv) (⟨(f (-2) (0)), (f 0 0)⟩ : Itv)),
    (234, Itv.equal (⟨.nzero, (f 2 0)⟩ : Itv) (⟨(f 0 0), (f 2 0)⟩ : Itv)),
    (235, Itv.equal (⟨.nzero, .nzero⟩ : Itv) (⟨(f 0 0), (f 0 0)⟩ : Itv)),
    (236, Itv.equal (⟨.nzero, (f 0 0)⟩ : Itv) (⟨(f 0 0), (f 0 0)⟩ : Itv)),
    (237, Itv.equal (⟨(f 0 0), .nzero⟩ : Itv) (⟨(f 0 0), (f 0 0)⟩ : Itv)),
    (242, !Itv.equal (⟨(f 1 0), (f (-5404319552844595) (-51))⟩ : Itv) (⟨.ninf, .pinf⟩ : Itv)),
    (256, Itv.equal (⟨(f 1 0), (f 2 0)⟩ : Itv) (⟨(f 1 0), (f 2 0)⟩ : Itv)),
    (257, !Itv.equal (⟨(f 1 0), (f (4728779608739021) (-51))⟩ : Itv) (⟨(f 1 0), (f 2 0)⟩ : Itv))] : List (ℕ × Bool)).all (·.2) = true := by
  decide +kernel

example : ([
    (258, Itv.equal (⟨.nan, .nan⟩ : Itv) (⟨.nan, .nan⟩ : Itv)),
    (259, !Itv.equal (⟨.nan, .nan⟩ : Itv) (⟨(f 1 0), (f 2 0)⟩ : Itv)),
    (260, Itv.equal (⟨.ninf, .pinf⟩ : Itv) (⟨.ninf, .pinf⟩ : Itv)),
    (261, !Itv.equal (⟨(f 1 0), (f (5404319552844595) (-51))⟩ : Itv) (⟨.ninf, .pinf⟩ : Itv)),
    (262, Itv.equal (⟨(f 1 0), .pinf⟩ : Itv) (⟨(f 1 0), .pinf⟩ : Itv)),
    (263, !Itv.equal (⟨(f 1 0), (f (5404319552844595) (-51))⟩ : Itv) (⟨(f 1 0), .pinf⟩ : Itv)),
    (264, Itv.equal (⟨.ninf, (f 2 0)⟩ : Itv) (⟨.ninf, (f 2 0)⟩ : Itv)),
    (265, !Itv.equal (⟨.ninf, (f (5404319552844595) (-51))⟩ : Itv) (⟨.ninf, (f 2 0)⟩ : Itv)),
    (266, Itv.equal (⟨(f (-2) (0)), (f 0 0)⟩ : Itv) (⟨(f (-2) (0)), (f 0 0)⟩ : Itv)),
    (267, Itv.equal (⟨.nzero, (f 2 0)⟩ : Itv) (⟨(f 0 0), (f 2 0)⟩ : Itv)),
    (268, Itv.equal (⟨.nzero, .nzero⟩ : Itv) (⟨(f 0 0), (f 0 0)⟩ : Itv)),
    (269, Itv.equal (⟨.nzero, (f 0 0)⟩ : Itv) (⟨(f 0 0), (f 0 0)⟩ : Itv)),
    (270, Itv.equal (⟨(f 0 0), .nzero⟩ : Itv) (⟨(f 0 0), (f 0 0)⟩ : Itv)),
    (275, !Itv.equal (⟨(f 1 0), (f (-5404319552844595) (-51))⟩ : Itv) (⟨.ninf, .pinf⟩ : Itv)),
    (284, Itv.equal (⟨(f 1 0), (f 2 0)⟩ : Itv) (⟨(f 1 0), (f 2 0)⟩ : Itv)),
    (285, !Itv.equal (⟨(f 1 0), (f (4404019) (-21))⟩ : Itv) (⟨(f 1 0), (f 2 0)⟩ : Itv)),
    (286, Itv.equal (⟨.nan, .nan⟩ : Itv) (⟨.nan, .nan⟩ : Itv)),
    (287, !Itv.equal (⟨.nan, .nan⟩ : Itv) (⟨(f 1 0), (f 2 0)⟩ : Itv)),
    (288, Itv.equal (⟨.ninf, .pinf⟩ : Itv) (⟨.ninf, .pinf⟩ : Itv)),
    (289, !Itv.equal (⟨(f 1 0), (f (5033165) (-21))⟩ : Itv) (⟨.ninf, .pinf⟩ : Itv)),
    (290, Itv.equal (⟨(f 1 0), .pinf⟩ : Itv) (⟨(f 1 0), .pinf⟩ : Itv)),
    (291, !Itv.equal (⟨(f 1 0), (f (5033165) (-21))⟩ : Itv) (⟨(f 1 0), .pinf⟩ : Itv)),
    (292, Itv.equal (⟨.ninf, (f 2 0)⟩ : Itv) (⟨.ninf, (f 2 0)⟩ : Itv)),
    (293, !Itv.equal (⟨.ninf, (f (5033165) (-21))⟩ : Itv) (⟨.ninf, (f 2 0)⟩ : Itv)),
    (294, Itv.equal (⟨(f (-2) (0)), (f 0 0)⟩ : Itv) (⟨(f (-2) (0)), (f 0 0)⟩ : Itv)),
    (295, Itv.equal (⟨.nzero, (f 2 0)⟩ : Itv) (⟨(f 0 0), (f 2 0)⟩ : Itv)),
    (296, Itv.equal (⟨.nzero, .nzero⟩ : Itv) (⟨(f 0 0), (f 0 0)⟩ : Itv)),
    (297, Itv.equal (⟨.nzero, (f 0 0)⟩ : Itv) (⟨(f 0 0), (f 0 0)⟩ : Itv)),
    (298, Itv.equal (⟨(f 0 0), .nzero⟩ : Itv) (⟨(f 0 0), (f 0 0)⟩ : Itv)),
    (303, !Itv.equal (⟨.pinf, (f (-5033165) (-21))⟩ : Itv) (⟨.ninf, (f 2 0)⟩ : Itv)),
    (317, DItv.rel Itv.equal (⟨⟨(f 1 0), (f 2 0)⟩, .defd⟩ : DItv) (⟨⟨(f 1 0), (f 2 0)⟩, .trv⟩ : DItv)),
    (318, !DItv.rel Itv.equal (⟨⟨(f 1 0), (f (4728779608739021) (-51))⟩, .trv⟩ : DItv) (⟨⟨(f 1 0), (f 2 0)⟩, .trv⟩ : DItv)),
    (319, DItv.rel Itv.equal (⟨⟨.nan, .nan⟩, .trv⟩ : DItv) (⟨⟨.nan, .nan⟩, .trv⟩ : DItv)),
    (320, !DItv.rel Itv.equal (⟨⟨.nan, .nan⟩, .trv⟩ : DItv) (⟨⟨.nan, .nan⟩, .ill⟩ : DItv)),
    (321, !DItv.rel Itv.equal (⟨⟨.nan, .nan⟩, .ill⟩ : DItv) (⟨⟨.nan, .nan⟩, .trv⟩ : DItv)),
    (322, !DItv.rel Itv.equal (⟨⟨.nan, .nan⟩, .ill⟩ : DItv) (⟨⟨.nan, .nan⟩, .ill⟩ : DItv)),
    (323, !DItv.rel Itv.equal (⟨⟨.nan, .nan⟩, .trv⟩ : DItv) (⟨⟨(f 1 0), (f 2 0)⟩, .trv⟩ : DItv)),
    (324, !DItv.rel Itv.equal (⟨⟨.nan, .nan⟩, .ill⟩ : DItv) (⟨⟨(f 1 0), (f 2 0)⟩, .trv⟩ : DItv)),
    (325, DItv.rel Itv.equal (⟨⟨.ninf, .pinf⟩, .defd⟩ : DItv) (⟨⟨.ninf, .pinf⟩, .trv⟩ : DItv)),
    (326, !DItv.rel Itv.equal (⟨⟨(f 1 0), (f (5404319552844595) (-51))⟩, .trv⟩ : DItv) (⟨⟨.ninf, .pinf⟩, .trv⟩ : DItv)),
    (327, DItv.rel Itv.equal (⟨⟨(f 1 0), .pinf⟩, .trv⟩ : DItv) (⟨⟨(f 1 0), .pinf⟩, .trv⟩ : DItv)),
    (328, !DItv.rel Itv.equal (⟨⟨(f 1 0), (f (5404319552844595) (-51))⟩, .defd⟩ : DItv) (⟨⟨(f 1 0), .pinf⟩, .trv⟩ : DItv)),
    (329, DItv.rel Itv.equal (⟨⟨.ninf, (f 2 0)⟩, .trv⟩ : DItv) (⟨⟨.ninf, (f 2 0)⟩, .trv⟩ : DItv)),
    (330, !DItv.rel Itv.equal (⟨⟨.ninf, (f (5404319552844595) (-51))⟩, .defd⟩ : DItv) (⟨⟨.ninf, (f 2 0)⟩, .trv⟩ : DItv)),
    (331, DItv.rel Itv.equal (⟨⟨(f (-2) (0)), (f 0 0)⟩, .trv⟩ : DItv) (⟨⟨(f (-2) (0)), (f 0 0)⟩, .trv⟩ : DItv)),
    (332, DItv.rel Itv.equal (⟨⟨.nzero, (f 2 0)⟩, .defd⟩ : DItv) (⟨⟨(f 0 0), (f 2 0)⟩, .trv⟩ : DItv)),
    (333, DItv.rel Itv.equal (⟨⟨.nzero, .nzero⟩, .trv⟩ : DItv) (⟨⟨(f 0 0), (f 0 0)⟩, .trv⟩ : DItv)),
    (334, DItv.rel Itv.equal (⟨⟨.nzero, (f 0 0)⟩, .defd⟩ : DItv) (⟨⟨(f 0 0), (f 0 0)⟩, .trv⟩ : DItv)),
    (335, DItv.rel Itv.equal (⟨⟨(f 0 0), .nzero⟩, .trv⟩ : DItv) (⟨⟨(f 0 0), (f 0 0)⟩, .trv⟩ : DItv)),
    (340, !DItv.rel Itv.equal (⟨⟨.ninf, (f (5404319552844595) (-51))⟩, .defd⟩ : DItv) (⟨⟨.pinf, (f 2 0)⟩, .trv⟩ : DItv))] : List (ℕ × Bool)).all (·.2) = true := by
  decide +kernel

example : ([
    (354, DItv.rel Itv.equal (⟨⟨(f 1 0), (f 2 0)⟩, .com⟩ : DItv) (⟨⟨(f 1 0), (f 2 0)⟩, .trv⟩ : DItv)),
    (355, !DItv.rel Itv.equal (⟨⟨(f 1 0), (f (4728779608739021) (-51))⟩, .trv⟩ : DItv) (⟨⟨(f 1 0), (f 2 0)⟩, .trv⟩ : DItv)),
    (356, DItv.rel Itv.equal (⟨⟨.nan, .nan⟩, .trv⟩ : DItv) (⟨⟨.nan, .nan⟩, .trv⟩ : DItv)),
    (357, !DItv.rel Itv.equal (⟨⟨.nan, .nan⟩, .trv⟩ : DItv) (⟨⟨.nan, .nan⟩, .ill⟩ : DItv)),
    (358, !DItv.rel Itv.equal (⟨⟨.nan, .nan⟩, .ill⟩ : DItv) (⟨⟨.nan, .nan⟩, .trv⟩ : DItv)),
    (359, !DItv.rel Itv.equal (⟨⟨.nan, .nan⟩, .ill⟩ : DItv) (⟨⟨.nan, .nan⟩, .ill⟩ : DItv)),
    (360, !DItv.rel Itv.equal (⟨⟨.nan, .nan⟩, .trv⟩ : DItv) (⟨⟨(f 1 0), (f 2 0)⟩, .trv⟩ : DItv)),
    (361, !DItv.rel Itv.equal (⟨⟨.nan, .nan⟩, .ill⟩ : DItv) (⟨⟨(f 1 0), (f 2 0)⟩, .trv⟩ : DItv)),
    (362, DItv.rel Itv.equal (⟨⟨.ninf, .pinf⟩, .trv⟩ : DItv) (⟨⟨.ninf, .pinf⟩, .defd⟩ : DItv)),
    (363, !DItv.rel Itv.equal (⟨⟨(f 1 0), (f (5404319552844595) (-51))⟩, .defd⟩ : DItv) (⟨⟨.ninf, .pinf⟩, .trv⟩ : DItv)),
    (364, DItv.rel Itv.equal (⟨⟨(f 1 0), .pinf⟩, .trv⟩ : DItv) (⟨⟨(f 1 0), .pinf⟩, .trv⟩ : DItv)),
    (365, !DItv.rel Itv.equal (⟨⟨(f 1 0), (f (5404319552844595) (-51))⟩, .trv⟩ : DItv) (⟨⟨(f 1 0), .pinf⟩, .trv⟩ : DItv)),
    (366, DItv.rel Itv.equal (⟨⟨.ninf, (f 2 0)⟩, .trv⟩ : DItv) (⟨⟨.ninf, (f 2 0)⟩, .trv⟩ : DItv)),
    (367, !DItv.rel Itv.equal (⟨⟨.ninf, (f (5404319552844595) (-51))⟩, .trv⟩ : DItv) (⟨⟨.ninf, (f 2 0)⟩, .trv⟩ : DItv)),
    (368, DItv.rel Itv.equal (⟨⟨(f (-2) (0)), (f 0 0)⟩, .trv⟩ : DItv) (⟨⟨(f (-2) (0)), (f 0 0)⟩, .trv⟩ : DItv)),
    (369, DItv.rel Itv.equal (⟨⟨.nzero, (f 2 0)⟩, .trv⟩ : DItv) (⟨⟨(f 0 0), (f 2 0)⟩, .trv⟩ : DItv)),
    (370, DItv.rel Itv.equal (⟨⟨.nzero, .nzero⟩, .defd⟩ : DItv) (⟨⟨(f 0 0), (f 0 0)⟩, .trv⟩ : DItv)),
    (371, DItv.rel Itv.equal (⟨⟨.nzero, (f 0 0)⟩, .trv⟩ : DItv) (⟨⟨(f 0 0), (f 0 0)⟩, .dac⟩ : DItv)),
    (372, DItv.rel Itv.equal (⟨⟨(f 0 0), .nzero⟩, .com⟩ : DItv) (⟨⟨(f 0 0), (f 0 0)⟩, .defd⟩ : DItv)),
    (377, !DItv.rel Itv.equal (⟨⟨.pinf, (f (5404319552844595) (-51))⟩, .trv⟩ : DItv) (⟨⟨.ninf, (f 2 0)⟩, .trv⟩ : DItv)),
    (386, DItv.rel Itv.equal (⟨⟨(f 1 0), (f 2 0)⟩, .com⟩ : DItv) (⟨⟨(f 1 0), (f 2 0)⟩, .trv⟩ : DItv)),
    (387, !DItv.rel Itv.equal (⟨⟨(f 1 0), (f (4404019) (-21))⟩, .trv⟩ : DItv) (⟨⟨(f 1 0), (f 2 0)⟩, .trv⟩ : DItv)),
    (388, DItv.rel Itv.equal (⟨⟨.nan, .nan⟩, .trv⟩ : DItv) (⟨⟨.nan, .nan⟩, .trv⟩ : DItv)),
    (389, !DItv.rel Itv.equal (⟨⟨.nan, .nan⟩, .ill⟩ : DItv) (⟨⟨.nan, .nan⟩, .trv⟩ : DItv)),
    (390, !DItv.rel Itv.equal (⟨⟨.nan, .nan⟩, .ill⟩ : DItv) (⟨⟨.nan, .nan⟩, .ill⟩ : DItv)),
    (391, !DItv.rel Itv.equal (⟨⟨.nan, .nan⟩, .ill⟩ : DItv) (⟨⟨.nan, .nan⟩, .ill⟩ : DItv)),
    (392, !DItv.rel Itv.equal (⟨⟨.nan, .nan⟩, .trv⟩ : DItv) (⟨⟨(f 1 0), (f 2 0)⟩, .trv⟩ : DItv)),
    (393, DItv.rel Itv.equal (⟨⟨.ninf, .pinf⟩, .trv⟩ : DItv) (⟨⟨.ninf, .pinf⟩, .defd⟩ : DItv)),
    (394, !DItv.rel Itv.equal (⟨⟨(f 1 0), (f (5033165) (-21))⟩, .trv⟩ : DItv) (⟨⟨.ninf, .pinf⟩, .trv⟩ : DItv)),
    (395, DItv.rel Itv.equal (⟨⟨(f 1 0), .pinf⟩, .dac⟩ : DItv) (⟨⟨(f 1 0), .pinf⟩, .trv⟩ : DItv)),
    (396, !DItv.rel Itv.equal (⟨⟨(f 1 0), (f (5033165) (-21))⟩, .trv⟩ : DItv) (⟨⟨(f 1 0), .pinf⟩, .trv⟩ : DItv)),
    (397, DItv.rel Itv.equal (⟨⟨.ninf, (f 2 0)⟩, .trv⟩ : DItv) (⟨⟨.ninf, (f 2 0)⟩, .trv⟩ : DItv)),
    (398, !DItv.rel Itv.equal (⟨⟨.ninf, (f (5033165) (-21))⟩, .defd⟩ : DItv) (⟨⟨.ninf, (f 2 0)⟩, .trv⟩ : DItv)),
    (399, DItv.rel Itv.equal (⟨⟨(f (-2) (0)), (f 0 0)⟩, .trv⟩ : DItv) (⟨⟨(f (-2) (0)), (f 0 0)⟩, .trv⟩ : DItv)),
    (400, DItv.rel Itv.equal (⟨⟨.nzero, (f 2 0)⟩, .trv⟩ : DItv) (⟨⟨(f 0 0), (f 2 0)⟩, .trv⟩ : DItv)),
    (401, DItv.rel Itv.equal (⟨⟨.nzero, .nzero⟩, .trv⟩ : DItv) (⟨⟨(f 0 0), (f 0 0)⟩, .trv⟩ : DItv)),
    (402, DItv.rel Itv.equal (⟨⟨.nzero, (f 0 0)⟩, .com⟩ : DItv) (⟨⟨(f 0 0), (f 0 0)⟩, .defd⟩ : DItv)),
    (403, DItv.rel Itv.equal (⟨⟨(f 0 0), .nzero⟩, .trv⟩ : DItv) (⟨⟨(f 0 0), (f 0 0)⟩, .trv⟩ : DItv)),
    (408, !DItv.rel Itv.equal (⟨⟨(f 1 0), (f (-5033165) (-21))⟩, .trv⟩ : DItv) (⟨⟨.ninf, .pinf⟩, .trv⟩ : DItv)),
    (423, Itv.subset (⟨.nan, .nan⟩ : Itv) (⟨.nan, .nan⟩ : Itv)),
    (424, Itv.subset (⟨.nan, .nan⟩ : Itv) (⟨(f 0 0), (f 4 0)⟩ : Itv)),
    (425, Itv.subset (⟨.nan, .nan⟩ : Itv) (⟨.nzero, (f 4 0)⟩ : Itv)),
    (426, Itv.subset (⟨.nan, .nan⟩ : Itv) (⟨(f (-3602879701896397) (-55)), (f 1 0)⟩ : Itv)),
    (427, Itv.subset (⟨.nan, .nan⟩ : Itv) (⟨(f (-3602879701896397) (-55)), (f 0 0)⟩ : Itv)),
    (428, Itv.subset (⟨.nan, .nan⟩ : Itv) (⟨(f (-3602879701896397) (-55)), .nzero⟩ : Itv)),
    (429, Itv.subset (⟨.nan, .nan⟩ : Itv) (⟨.ninf, .pinf⟩ : Itv)),
    (431, !Itv.subset (⟨(f 0 0), (f 4 0)⟩ : Itv) (⟨.nan, .nan⟩ : Itv)),
    (432, !Itv.subset (⟨.nzero, (f 4 0)⟩ : Itv) (⟨.nan, .nan⟩ : Itv)),
    (433, !Itv.subset (⟨(f (-3602879701896397) (-55)), (f 1 0)⟩ : Itv) (⟨.nan, .nan⟩ : Itv)),
    (434, !Itv.subset (⟨.ninf, .pinf⟩ : Itv) (⟨.nan, .nan⟩ : Itv))] : List (ℕ × Bool)).all (·.2) = true := by
  decide +kernel

example : ([
    (436, Itv.subset (⟨(f 0 0), (f 4 0)⟩ : Itv) (⟨.ninf, .pinf⟩ : Itv)),
    (437, Itv.subset (⟨.nzero, (f 4 0)⟩ : Itv) (⟨.ninf, .pinf⟩ : Itv)),
    (438, Itv.subset (⟨(f (-3602879701896397) (-55)), (f 1 0)⟩ : Itv) (⟨.ninf, .pinf⟩ : Itv)),
    (439, Itv.subset (⟨.ninf, .pinf⟩ : Itv) (⟨.ninf, .pinf⟩ : Itv)),
    (441, Itv.subset (⟨(f 1 0), (f 2 0)⟩ : Itv) (⟨(f 1 0), (f 2 0)⟩ : Itv)),
    (442, Itv.subset (⟨(f 1 0), (f 2 0)⟩ : Itv) (⟨(f 0 0), (f 4 0)⟩ : Itv)),
    (443, Itv.subset (⟨(f 1 0), (f 2 0)⟩ : Itv) (⟨.nzero, (f 4 0)⟩ : Itv)),
    (444, Itv.subset (⟨(f (3602879701896397) (-55)), (f (3602879701896397) (-54))⟩ : Itv) (⟨(f 0 0), (f 4 0)⟩ : Itv)),
    (445, Itv.subset (⟨(f (3602879701896397) (-55)), (f (3602879701896397) (-54))⟩ : Itv) (⟨.nzero, (f 4 0)⟩ : Itv)),
    (446, Itv.subset (⟨(f (-3602879701896397) (-55)), (f (-3602879701896397) (-55))⟩ : Itv) (⟨(f (-4) (0)), (f (7656119366529843) (-51))⟩ : Itv)),
    (448, Itv.subset (⟨(f 0 0), (f 0 0)⟩ : Itv) (⟨.nzero, .nzero⟩ : Itv)),
    (449, Itv.subset (⟨.nzero, .nzero⟩ : Itv) (⟨(f 0 0), (f 0 0)⟩ : Itv)),
    (450, Itv.subset (⟨.nzero, (f 0 0)⟩ : Itv) (⟨(f 0 0), (f 0 0)⟩ : Itv)),
    (451, Itv.subset (⟨.nzero, (f 0 0)⟩ : Itv) (⟨(f 0 0), .nzero⟩ : Itv)),
    (452, Itv.subset (⟨(f 0 0), .nzero⟩ : Itv) (⟨(f 0 0), (f 0 0)⟩ : Itv)),
    (453, Itv.subset (⟨(f 0 0), .nzero⟩ : Itv) (⟨.nzero, (f 0 0)⟩ : Itv)),
    (458, !Itv.subset (⟨(f 1 0), (f (-2) (0))⟩ : Itv) (⟨.nzero, (f 4 0)⟩ : Itv)),
    (473, Itv.subset (⟨.nan, .nan⟩ : Itv) (⟨.nan, .nan⟩ : Itv)),
    (474, Itv.subset (⟨.nan, .nan⟩ : Itv) (⟨(f 0 0), (f 4 0)⟩ : Itv)),
    (475, Itv.subset (⟨.nan, .nan⟩ : Itv) (⟨.nzero, (f 4 0)⟩ : Itv)),
    (476, Itv.subset (⟨.nan, .nan⟩ : Itv) (⟨(f (-13421773) (-27)), (f 1 0)⟩ : Itv)),
    (477, Itv.subset (⟨.nan, .nan⟩ : Itv) (⟨(f (-13421773) (-27)), (f 0 0)⟩ : Itv)),
    (478, Itv.subset (⟨.nan, .nan⟩ : Itv) (⟨(f (-13421773) (-27)), .nzero⟩ : Itv)),
    (479, Itv.subset (⟨.nan, .nan⟩ : Itv) (⟨.ninf, .pinf⟩ : Itv)),
    (481, !Itv.subset (⟨(f 0 0), (f 4 0)⟩ : Itv) (⟨.nan, .nan⟩ : Itv)),
    (482, !Itv.subset (⟨.nzero, (f 4 0)⟩ : Itv) (⟨.nan, .nan⟩ : Itv)),
    (483, !Itv.subset (⟨(f (-3602879701896397) (-55)), (f 1 0)⟩ : Itv) (⟨.nan, .nan⟩ : Itv)),
    (484, !Itv.subset (⟨.ninf, .pinf⟩ : Itv) (⟨.nan, .nan⟩ : Itv)),
    (486, Itv.subset (⟨(f 0 0), (f 4 0)⟩ : Itv) (⟨.ninf, .pinf⟩ : Itv)),
    (487, Itv.subset (⟨.nzero, (f 4 0)⟩ : Itv) (⟨.ninf, .pinf⟩ : Itv)),
    (488, Itv.subset (⟨(f (-3602879701896397) (-55)), (f 1 0)⟩ : Itv) (⟨.ninf, .pinf⟩ : Itv)),
    (489, Itv.subset (⟨.ninf, .pinf⟩ : Itv) (⟨.ninf, .pinf⟩ : Itv)),
    (491, Itv.subset (⟨(f 1 0), (f 2 0)⟩ : Itv) (⟨(f 1 0), (f 2 0)⟩ : Itv)),
    (492, Itv.subset (⟨(f 1 0), (f 2 0)⟩ : Itv) (⟨(f 0 0), (f 4 0)⟩ : Itv)),
    (493, Itv.subset (⟨(f 1 0), (f 2 0)⟩ : Itv) (⟨.nzero, (f 4 0)⟩ : Itv)),
    (494, Itv.subset (⟨(f (3602879701896397) (-55)), (f (3602879701896397) (-54))⟩ : Itv) (⟨(f 0 0), (f 4 0)⟩ : Itv)),
    (495, Itv.subset (⟨(f (3602879701896397) (-55)), (f (3602879701896397) (-54))⟩ : Itv) (⟨.nzero, (f 4 0)⟩ : Itv)),
    (496, Itv.subset (⟨(f (-3602879701896397) (-55)), (f (-3602879701896397) (-55))⟩ : Itv) (⟨(f (-4) (0)), (f (7130317) (-21))⟩ : Itv)),
    (498, Itv.subset (⟨(f 0 0), (f 0 0)⟩ : Itv) (⟨.nzero, .nzero⟩ : Itv)),
    (499, Itv.subset (⟨.nzero, .nzero⟩ : Itv) (⟨(f 0 0), (f 0 0)⟩ : Itv)),
    (500, Itv.subset (⟨.nzero, (f 0 0)⟩ : Itv) (⟨(f 0 0), (f 0 0)⟩ : Itv)),
    (501, Itv.subset (⟨.nzero, (f 0 0)⟩ : Itv) (⟨(f 0 0), .nzero⟩ : Itv)),
    (502, Itv.subset (⟨(f 0 0), .nzero⟩ : Itv) (⟨(f 0 0), (f 0 0)⟩ : Itv)),
    (503, Itv.subset (⟨(f 0 0), .nzero⟩ : Itv) (⟨.nzero, (f 0 0)⟩ : Itv)),
    (506, Itv.subset (⟨.nan, .nan⟩ : Itv) (⟨.nan, .nan⟩ : Itv)),
    (507, Itv.subset (⟨.nan, .nan⟩ : Itv) (⟨(f 0 0), (f 4 0)⟩ : Itv)),
    (508, Itv.subset (⟨.nan, .nan⟩ : Itv) (⟨.nzero, (f 4 0)⟩ : Itv)),
    (509, Itv.subset (⟨.nan, .nan⟩ : Itv) (⟨(f (-3602879701896397) (-55)), (f 1 0)⟩ : Itv)),
    (510, Itv.subset (⟨.nan, .nan⟩ : Itv) (⟨(f (-3602879701896397) (-55)), (f 0 0)⟩ : Itv)),
    (511, Itv.subset (⟨.nan, .nan⟩ : Itv) (⟨(f (-3602879701896397) (-55)), .nzero⟩ : Itv))] : List (ℕ × Bool)).all (·.2) = true := by
  decide +kernel

example : ([
    (512, Itv.subset (⟨.nan, .nan⟩ : Itv) (⟨.ninf, .pinf⟩ : Itv)),
    (514, !Itv.subset (⟨(f 0 0), (f 4 0)⟩ : Itv) (⟨.nan, .nan⟩ : Itv)),
    (515, !Itv.subset (⟨.nzero, (f 4 0)⟩ : Itv) (⟨.nan, .nan⟩ : Itv)),
    (516, !Itv.subset (⟨(f (-13421773) (-27)), (f 1 0)⟩ : Itv) (⟨.nan, .nan⟩ : Itv)),
    (517, !Itv.subset (⟨.ninf, .pinf⟩ : Itv) (⟨.nan, .nan⟩ : Itv)),
    (519, Itv.subset (⟨(f 0 0), (f 4 0)⟩ : Itv) (⟨.ninf, .pinf⟩ : Itv)),
    (520, Itv.subset (⟨.nzero, (f 4 0)⟩ : Itv) (⟨.ninf, .pinf⟩ : Itv)),
    (521, Itv.subset (⟨(f (-13421773) (-27)), (f 1 0)⟩ : Itv) (⟨.ninf, .pinf⟩ : Itv)),
    (522, Itv.subset (⟨.ninf, .pinf⟩ : Itv) (⟨.ninf, .pinf⟩ : Itv)),
    (524, Itv.subset (⟨(f 1 0), (f 2 0)⟩ : Itv) (⟨(f 1 0), (f 2 0)⟩ : Itv)),
    (525, Itv.subset (⟨(f 1 0), (f 2 0)⟩ : Itv) (⟨(f 0 0), (f 4 0)⟩ : Itv)),
    (526, Itv.subset (⟨(f 1 0), (f 2 0)⟩ : Itv) (⟨.nzero, (f 4 0)⟩ : Itv)),
    (527, Itv.subset (⟨(f (13421773) (-27)), (f (13421773) (-26))⟩ : Itv) (⟨(f 0 0), (f 4 0)⟩ : Itv)),
    (528, Itv.subset (⟨(f (13421773) (-27)), (f (13421773) (-26))⟩ : Itv) (⟨.nzero, (f 4 0)⟩ : Itv)),
    (529, Itv.subset (⟨(f (-13421773) (-27)), (f (-13421773) (-27))⟩ : Itv) (⟨(f (-4) (0)), (f (7656119366529843) (-51))⟩ : Itv)),
    (531, Itv.subset (⟨(f 0 0), (f 0 0)⟩ : Itv) (⟨.nzero, .nzero⟩ : Itv)),
    (532, Itv.subset (⟨.nzero, .nzero⟩ : Itv) (⟨(f 0 0), (f 0 0)⟩ : Itv)),
    (533, Itv.subset (⟨.nzero, (f 0 0)⟩ : Itv) (⟨(f 0 0), (f 0 0)⟩ : Itv)),
    (534, Itv.subset (⟨.nzero, (f 0 0)⟩ : Itv) (⟨(f 0 0), .nzero⟩ : Itv)),
    (535, Itv.subset (⟨(f 0 0), .nzero⟩ : Itv) (⟨(f 0 0), (f 0 0)⟩ : Itv)),
    (536, Itv.subset (⟨(f 0 0), .nzero⟩ : Itv) (⟨.nzero, (f 0 0)⟩ : Itv)),
    (541, !Itv.subset (⟨(f 1 0), (f (-2) (0))⟩ : Itv) (⟨(f 0 0), (f 4 0)⟩ : Itv)),
    (556, !DItv.rel Itv.subset (⟨⟨.nan, .nan⟩, .ill⟩ : DItv) (⟨⟨.nan, .nan⟩, .ill⟩ : DItv)),
    (557, !DItv.rel Itv.subset (⟨⟨.nan, .nan⟩, .ill⟩ : DItv) (⟨⟨.nan, .nan⟩, .trv⟩ : DItv)),
    (558, !DItv.rel Itv.subset (⟨⟨.nan, .nan⟩, .ill⟩ : DItv) (⟨⟨(f 0 0), (f 4 0)⟩, .trv⟩ : DItv)),
    (560, DItv.rel Itv.subset (⟨⟨.nan, .nan⟩, .trv⟩ : DItv) (⟨⟨.nan, .nan⟩, .trv⟩ : DItv)),
    (561, DItv.rel Itv.subset (⟨⟨.nan, .nan⟩, .trv⟩ : DItv) (⟨⟨(f 0 0), (f 4 0)⟩, .trv⟩ : DItv)),
    (562, DItv.rel Itv.subset (⟨⟨.nan, .nan⟩, .trv⟩ : DItv) (⟨⟨.nzero, (f 4 0)⟩, .defd⟩ : DItv)),
    (563, DItv.rel Itv.subset (⟨⟨.nan, .nan⟩, .trv⟩ : DItv) (⟨⟨(f (-3602879701896397) (-55)), (f 1 0)⟩, .trv⟩ : DItv)),
    (564, DItv.rel Itv.subset (⟨⟨.nan, .nan⟩, .trv⟩ : DItv) (⟨⟨(f (-3602879701896397) (-55)), (f 0 0)⟩, .trv⟩ : DItv)),
    (565, DItv.rel Itv.subset (⟨⟨.nan, .nan⟩, .trv⟩ : DItv) (⟨⟨(f (-3602879701896397) (-55)), .nzero⟩, .trv⟩ : DItv)),
    (566, DItv.rel Itv.subset (⟨⟨.nan, .nan⟩, .trv⟩ : DItv) (⟨⟨.ninf, .pinf⟩, .trv⟩ : DItv)),
    (568, !DItv.rel Itv.subset (⟨⟨(f 0 0), (f 4 0)⟩, .trv⟩ : DItv) (⟨⟨.nan, .nan⟩, .trv⟩ : DItv)),
    (569, !DItv.rel Itv.subset (⟨⟨.nzero, (f 4 0)⟩, .defd⟩ : DItv) (⟨⟨.nan, .nan⟩, .trv⟩ : DItv)),
    (570, !DItv.rel Itv.subset (⟨⟨(f (-3602879701896397) (-55)), (f 1 0)⟩, .trv⟩ : DItv) (⟨⟨.nan, .nan⟩, .trv⟩ : DItv)),
    (571, !DItv.rel Itv.subset (⟨⟨.ninf, .pinf⟩, .trv⟩ : DItv) (⟨⟨.nan, .nan⟩, .trv⟩ : DItv)),
    (573, DItv.rel Itv.subset (⟨⟨(f 0 0), (f 4 0)⟩, .trv⟩ : DItv) (⟨⟨.ninf, .pinf⟩, .trv⟩ : DItv)),
    (574, DItv.rel Itv.subset (⟨⟨.nzero, (f 4 0)⟩, .trv⟩ : DItv) (⟨⟨.ninf, .pinf⟩, .trv⟩ : DItv)),
    (575, DItv.rel Itv.subset (⟨⟨(f (-3602879701896397) (-55)), (f 1 0)⟩, .trv⟩ : DItv) (⟨⟨.ninf, .pinf⟩, .trv⟩ : DItv)),
    (576, DItv.rel Itv.subset (⟨⟨.ninf, .pinf⟩, .trv⟩ : DItv) (⟨⟨.ninf, .pinf⟩, .trv⟩ : DItv)),
    (578, DItv.rel Itv.subset (⟨⟨(f 1 0), (f 2 0)⟩, .trv⟩ : DItv) (⟨⟨(f 1 0), (f 2 0)⟩, .trv⟩ : DItv)),
    (579, DItv.rel Itv.subset (⟨⟨(f 1 0), (f 2 0)⟩, .trv⟩ : DItv) (⟨⟨(f 0 0), (f 4 0)⟩, .trv⟩ : DItv)),
    (580, DItv.rel Itv.subset (⟨⟨(f 1 0), (f 2 0)⟩, .defd⟩ : DItv) (⟨⟨.nzero, (f 4 0)⟩, .defd⟩ : DItv)),
    (581, DItv.rel Itv.subset (⟨⟨(f (3602879701896397) (-55)), (f (3602879701896397) (-54))⟩, .trv⟩ : DItv) (⟨⟨(f 0 0), (f 4 0)⟩, .trv⟩ : DItv)),
    (582, DItv.rel Itv.subset (⟨⟨(f (3602879701896397) (-55)), (f (3602879701896397) (-54))⟩, .trv⟩ : DItv) (⟨⟨.nzero, (f 4 0)⟩, .defd⟩ : DItv)),
    (583, DItv.rel Itv.subset (⟨⟨(f (-3602879701896397) (-55)), (f (-3602879701896397) (-55))⟩, .trv⟩ : DItv) (⟨⟨(f (-4) (0)), (f (7656119366529843) (-51))⟩, .trv⟩ : DItv)),
    (585, DItv.rel Itv.subset (⟨⟨(f 0 0), (f 0 0)⟩, .trv⟩ : DItv) (⟨⟨.nzero, .nzero⟩, .trv⟩ : DItv)),
    (586, DItv.rel Itv.subset (⟨⟨.nzero, .nzero⟩, .trv⟩ : DItv) (⟨⟨(f 0 0), (f 0 0)⟩, .defd⟩ : DItv)),
    (587, DItv.rel Itv.subset (⟨⟨.nzero, (f 0 0)⟩, .trv⟩ : DItv) (⟨⟨(f 0 0), (f 0 0)⟩, .trv⟩ : DItv)),
    (588, DItv.rel Itv.subset (⟨⟨.nzero, (f 0 0)⟩, .trv⟩ : DItv) (⟨⟨(f 0 0), .nzero⟩, .trv⟩ : DItv))] : List (ℕ × Bool)).all (·.2) = true := by
  decide +kernel

example : ([
    (589, DItv.rel Itv.subset (⟨⟨(f 0 0), .nzero⟩, .defd⟩ : DItv) (⟨⟨(f 0 0), (f 0 0)⟩, .trv⟩ : DItv)),
    (590, DItv.rel Itv.subset (⟨⟨(f 0 0), .nzero⟩, .trv⟩ : DItv) (⟨⟨.nzero, (f 0 0)⟩, .trv⟩ : DItv)),
    (595, !DItv.rel Itv.subset (⟨⟨(f 1 0), (f (-2) (0))⟩, .trv⟩ : DItv) (⟨⟨(f 1 0), (f 2 0)⟩, .trv⟩ : DItv)),
    (610, !DItv.rel Itv.subset (⟨⟨.nan, .nan⟩, .ill⟩ : DItv) (⟨⟨.nan, .nan⟩, .ill⟩ : DItv)),
    (611, !DItv.rel Itv.subset (⟨⟨.nan, .nan⟩, .ill⟩ : DItv) (⟨⟨.nan, .nan⟩, .trv⟩ : DItv)),
    (612, !DItv.rel Itv.subset (⟨⟨.nan, .nan⟩, .ill⟩ : DItv) (⟨⟨(f 0 0), (f 4 0)⟩, .trv⟩ : DItv)),
    (614, DItv.rel Itv.subset (⟨⟨.nan, .nan⟩, .trv⟩ : DItv) (⟨⟨.nan, .nan⟩, .trv⟩ : DItv)),
    (615, DItv.rel Itv.subset (⟨⟨.nan, .nan⟩, .trv⟩ : DItv) (⟨⟨(f 0 0), (f 4 0)⟩, .trv⟩ : DItv)),
    (616, DItv.rel Itv.subset (⟨⟨.nan, .nan⟩, .trv⟩ : DItv) (⟨⟨.nzero, (f 4 0)⟩, .defd⟩ : DItv)),
    (617, DItv.rel Itv.subset (⟨⟨.nan, .nan⟩, .trv⟩ : DItv) (⟨⟨(f (-13421773) (-27)), (f 1 0)⟩, .trv⟩ : DItv)),
    (618, DItv.rel Itv.subset (⟨⟨.nan, .nan⟩, .trv⟩ : DItv) (⟨⟨(f (-13421773) (-27)), (f 0 0)⟩, .trv⟩ : DItv)),
    (619, DItv.rel Itv.subset (⟨⟨.nan, .nan⟩, .trv⟩ : DItv) (⟨⟨(f (-13421773) (-27)), .nzero⟩, .trv⟩ : DItv)),
    (620, DItv.rel Itv.subset (⟨⟨.nan, .nan⟩, .trv⟩ : DItv) (⟨⟨.ninf, .pinf⟩, .trv⟩ : DItv)),
    (622, !DItv.rel Itv.subset (⟨⟨(f 0 0), (f 4 0)⟩, .trv⟩ : DItv) (⟨⟨.nan, .nan⟩, .trv⟩ : DItv)),
    (623, !DItv.rel Itv.subset (⟨⟨.nzero, (f 4 0)⟩, .defd⟩ : DItv) (⟨⟨.nan, .nan⟩, .trv⟩ : DItv)),
    (624, !DItv.rel Itv.subset (⟨⟨(f (-3602879701896397) (-55)), (f 1 0)⟩, .trv⟩ : DItv) (⟨⟨.nan, .nan⟩, .trv⟩ : DItv)),
    (625, !DItv.rel Itv.subset (⟨⟨.ninf, .pinf⟩, .trv⟩ : DItv) (⟨⟨.nan, .nan⟩, .trv⟩ : DItv)),
    (627, DItv.rel Itv.subset (⟨⟨(f 0 0), (f 4 0)⟩, .trv⟩ : DItv) (⟨⟨.ninf, .pinf⟩, .trv⟩ : DItv)),
    (628, DItv.rel Itv.subset (⟨⟨.nzero, (f 4 0)⟩, .trv⟩ : DItv) (⟨⟨.ninf, .pinf⟩, .trv⟩ : DItv)),
    (629, DItv.rel Itv.subset (⟨⟨(f (-3602879701896397) (-55)), (f 1 0)⟩, .trv⟩ : DItv) (⟨⟨.ninf, .pinf⟩, .trv⟩ : DItv)),
    (630, DItv.rel Itv.subset (⟨⟨.ninf, .pinf⟩, .trv⟩ : DItv) (⟨⟨.ninf, .pinf⟩, .trv⟩ : DItv)),
    (632, DItv.rel Itv.subset (⟨⟨(f 1 0), (f 2 0)⟩, .trv⟩ : DItv) (⟨⟨(f 1 0), (f 2 0)⟩, .trv⟩ : DItv)),
    (633, DItv.rel Itv.subset (⟨⟨(f 1 0), (f 2 0)⟩, .trv⟩ : DItv) (⟨⟨(f 0 0), (f 4 0)⟩, .trv⟩ : DItv)),
    (634, DItv.rel Itv.subset (⟨⟨(f 1 0), (f 2 0)⟩, .defd⟩ : DItv) (⟨⟨.nzero, (f 4 0)⟩, .defd⟩ : DItv)),
    (635, DItv.rel Itv.subset (⟨⟨(f (3602879701896397) (-55)), (f (3602879701896397) (-54))⟩, .trv⟩ : DItv) (⟨⟨(f 0 0), (f 4 0)⟩, .trv⟩ : DItv)),
    (636, DItv.rel Itv.subset (⟨⟨(f (3602879701896397) (-55)), (f (3602879701896397) (-54))⟩, .trv⟩ : DItv) (⟨⟨.nzero, (f 4 0)⟩, .defd⟩ : DItv)),
    (637, DItv.rel Itv.subset (⟨⟨(f (-3602879701896397) (-55)), (f (-3602879701896397) (-55))⟩, .trv⟩ : DItv) (⟨⟨(f (-4) (0)), (f (7130317) (-21))⟩, .trv⟩ : DItv)),
    (639, DItv.rel Itv.subset (⟨⟨(f 0 0), (f 0 0)⟩, .trv⟩ : DItv) (⟨⟨.nzero, .nzero⟩, .trv⟩ : DItv)),
    (640, DItv.rel Itv.subset (⟨⟨.nzero, .nzero⟩, .trv⟩ : DItv) (⟨⟨(f 0 0), (f 0 0)⟩, .trv⟩ : DItv)),
    (641, DItv.rel Itv.subset (⟨⟨.nzero, (f 0 0)⟩, .defd⟩ : DItv) (⟨⟨(f 0 0), (f 0 0)⟩, .trv⟩ : DItv)),
    (642, DItv.rel Itv.subset (⟨⟨.nzero, (f 0 0)⟩, .trv⟩ : DItv) (⟨⟨(f 0 0), .nzero⟩, .trv⟩ : DItv)),
    (643, DItv.rel Itv.subset (⟨⟨(f 0 0), .nzero⟩, .trv⟩ : DItv) (⟨⟨(f 0 0), (f 0 0)⟩, .defd⟩ : DItv)),
    (644, DItv.rel Itv.subset (⟨⟨(f 0 0), .nzero⟩, .trv⟩ : DItv) (⟨⟨.nzero, (f 0 0)⟩, .trv⟩ : DItv)),
    (646, !DItv.rel Itv.subset (⟨⟨.nan, .nan⟩, .ill⟩ : DItv) (⟨⟨.nan, .nan⟩, .ill⟩ : DItv)),
    (647, !DItv.rel Itv.subset (⟨⟨.nan, .nan⟩, .ill⟩ : DItv) (⟨⟨.nan, .nan⟩, .trv⟩ : DItv)),
    (648, !DItv.rel Itv.subset (⟨⟨.nan, .nan⟩, .ill⟩ : DItv) (⟨⟨(f 0 0), (f 4 0)⟩, .trv⟩ : DItv)),
    (650, DItv.rel Itv.subset (⟨⟨.nan, .nan⟩, .trv⟩ : DItv) (⟨⟨.nan, .nan⟩, .trv⟩ : DItv)),
    (651, DItv.rel Itv.subset (⟨⟨.nan, .nan⟩, .trv⟩ : DItv) (⟨⟨(f 0 0), (f 4 0)⟩, .trv⟩ : DItv)),
    (652, DItv.rel Itv.subset (⟨⟨.nan, .nan⟩, .trv⟩ : DItv) (⟨⟨.nzero, (f 4 0)⟩, .trv⟩ : DItv)),
    (653, DItv.rel Itv.subset (⟨⟨.nan, .nan⟩, .trv⟩ : DItv) (⟨⟨(f (-3602879701896397) (-55)), (f 1 0)⟩, .defd⟩ : DItv)),
    (654, DItv.rel Itv.subset (⟨⟨.nan, .nan⟩, .trv⟩ : DItv) (⟨⟨(f (-3602879701896397) (-55)), (f 0 0)⟩, .trv⟩ : DItv)),
    (655, DItv.rel Itv.subset (⟨⟨.nan, .nan⟩, .trv⟩ : DItv) (⟨⟨(f (-3602879701896397) (-55)), .nzero⟩, .trv⟩ : DItv)),
    (656, DItv.rel Itv.subset (⟨⟨.nan, .nan⟩, .trv⟩ : DItv) (⟨⟨.ninf, .pinf⟩, .trv⟩ : DItv)),
    (658, !DItv.rel Itv.subset (⟨⟨(f 0 0), (f 4 0)⟩, .trv⟩ : DItv) (⟨⟨.nan, .nan⟩, .trv⟩ : DItv)),
    (659, !DItv.rel Itv.subset (⟨⟨.nzero, (f 4 0)⟩, .defd⟩ : DItv) (⟨⟨.nan, .nan⟩, .trv⟩ : DItv)),
    (660, !DItv.rel Itv.subset (⟨⟨(f (-13421773) (-27)), (f 1 0)⟩, .trv⟩ : DItv) (⟨⟨.nan, .nan⟩, .trv⟩ : DItv)),
    (661, !DItv.rel Itv.subset (⟨⟨.ninf, .pinf⟩, .trv⟩ : DItv) (⟨⟨.nan, .nan⟩, .trv⟩ : DItv)),
    (663, DItv.rel Itv.subset (⟨⟨(f 0 0), (f 4 0)⟩, .trv⟩ : DItv) (⟨⟨.ninf, .pinf⟩, .trv⟩ : DItv)),
    (664, DItv.rel Itv.subset (⟨⟨.nzero, (f 4 0)⟩, .trv⟩ : DItv) (⟨⟨.ninf, .pinf⟩, .trv⟩ : DItv)),
    (665, DItv.rel Itv.subset (⟨⟨(f (-13421773) (-27)), (f 1 0)⟩, .trv⟩ : DItv) (⟨⟨.ninf, .pinf⟩, .trv⟩ : DItv))] : List (ℕ × Bool)).all (·.2) = true := by
  decide +kernel

example : ([
    (666, DItv.rel Itv.subset (⟨⟨.ninf, .pinf⟩, .trv⟩ : DItv) (⟨⟨.ninf, .pinf⟩, .trv⟩ : DItv)),
    (668, DItv.rel Itv.subset (⟨⟨(f 1 0), (f 2 0)⟩, .trv⟩ : DItv) (⟨⟨(f 1 0), (f 2 0)⟩, .trv⟩ : DItv)),
    (669, DItv.rel Itv.subset (⟨⟨(f 1 0), (f 2 0)⟩, .trv⟩ : DItv) (⟨⟨(f 0 0), (f 4 0)⟩, .trv⟩ : DItv)),
    (670, DItv.rel Itv.subset (⟨⟨(f 1 0), (f 2 0)⟩, .defd⟩ : DItv) (⟨⟨.nzero, (f 4 0)⟩, .trv⟩ : DItv)),
    (671, DItv.rel Itv.subset (⟨⟨(f (13421773) (-27)), (f (13421773) (-26))⟩, .trv⟩ : DItv) (⟨⟨(f 0 0), (f 4 0)⟩, .trv⟩ : DItv)),
    (672, DItv.rel Itv.subset (⟨⟨(f (13421773) (-27)), (f (13421773) (-26))⟩, .trv⟩ : DItv) (⟨⟨.nzero, (f 4 0)⟩, .defd⟩ : DItv)),
    (673, DItv.rel Itv.subset (⟨⟨(f (-13421773) (-27)), (f (-13421773) (-27))⟩, .trv⟩ : DItv) (⟨⟨(f (-4) (0)), (f (7656119366529843) (-51))⟩, .trv⟩ : DItv)),
    (675, DItv.rel Itv.subset (⟨⟨(f 0 0), (f 0 0)⟩, .trv⟩ : DItv) (⟨⟨.nzero, .nzero⟩, .trv⟩ : DItv)),
    (676, DItv.rel Itv.subset (⟨⟨.nzero, .nzero⟩, .trv⟩ : DItv) (⟨⟨(f 0 0), (f 0 0)⟩, .trv⟩ : DItv)),
    (677, DItv.rel Itv.subset (⟨⟨.nzero, (f 0 0)⟩, .trv⟩ : DItv) (⟨⟨(f 0 0), (f 0 0)⟩, .trv⟩ : DItv)),
    (678, DItv.rel Itv.subset (⟨⟨.nzero, (f 0 0)⟩, .trv⟩ : DItv) (⟨⟨(f 0 0), .nzero⟩, .defd⟩ : DItv)),
    (679, DItv.rel Itv.subset (⟨⟨(f 0 0), .nzero⟩, .trv⟩ : DItv) (⟨⟨(f 0 0), (f 0 0)⟩, .trv⟩ : DItv)),
    (680, DItv.rel Itv.subset (⟨⟨(f 0 0), .nzero⟩, .trv⟩ : DItv) (⟨⟨.nzero, (f 0 0)⟩, .trv⟩ : DItv)),
    (685, !DItv.rel Itv.subset (⟨⟨(f 0 0), (f 4 0)⟩, .trv⟩ : DItv) (⟨⟨.nan, .nan⟩, .defd⟩ : DItv)),
    (700, Itv.less (⟨.nan, .nan⟩ : Itv) (⟨.nan, .nan⟩ : Itv)),
    (701, !Itv.less (⟨(f 1 0), (f 2 0)⟩ : Itv) (⟨.nan, .nan⟩ : Itv)),
    (702, !Itv.less (⟨.nan, .nan⟩ : Itv) (⟨(f 1 0), (f 2 0)⟩ : Itv)),
    (704, Itv.less (⟨.ninf, .pinf⟩ : Itv) (⟨.ninf, .pinf⟩ : Itv)),
    (705, !Itv.less (⟨(f 1 0), (f 2 0)⟩ : Itv) (⟨.ninf, .pinf⟩ : Itv)),
    (706, !Itv.less (⟨(f 0 0), (f 2 0)⟩ : Itv) (⟨.ninf, .pinf⟩ : Itv)),
    (707, !Itv.less (⟨.nzero, (f 2 0)⟩ : Itv) (⟨.ninf, .pinf⟩ : Itv)),
    (708, !Itv.less (⟨.ninf, .pinf⟩ : Itv) (⟨(f 1 0), (f 2 0)⟩ : Itv)),
    (709, !Itv.less (⟨.ninf, .pinf⟩ : Itv) (⟨(f 0 0), (f 2 0)⟩ : Itv)),
    (710, !Itv.less (⟨.ninf, .pinf⟩ : Itv) (⟨.nzero, (f 2 0)⟩ : Itv)),
    (712, Itv.less (⟨(f 0 0), (f 2 0)⟩ : Itv) (⟨(f 0 0), (f 2 0)⟩ : Itv)),
    (713, Itv.less (⟨(f 0 0), (f 2 0)⟩ : Itv) (⟨.nzero, (f 2 0)⟩ : Itv)),
    (714, Itv.less (⟨(f 0 0), (f 2 0)⟩ : Itv) (⟨(f 1 0), (f 2 0)⟩ : Itv)),
    (715, Itv.less (⟨.nzero, (f 2 0)⟩ : Itv) (⟨(f 1 0), (f 2 0)⟩ : Itv)),
    (716, Itv.less (⟨(f 1 0), (f 2 0)⟩ : Itv) (⟨(f 1 0), (f 2 0)⟩ : Itv)),
    (717, Itv.less (⟨(f 1 0), (f 2 0)⟩ : Itv) (⟨(f 3 0), (f 4 0)⟩ : Itv)),
    (718, Itv.less (⟨(f 1 0), (f (7) (-1))⟩ : Itv) (⟨(f 3 0), (f 4 0)⟩ : Itv)),
    (719, Itv.less (⟨(f 1 0), (f 4 0)⟩ : Itv) (⟨(f 3 0), (f 4 0)⟩ : Itv)),
    (721, Itv.less (⟨(f (-2) (0)), (f (-1) (0))⟩ : Itv) (⟨(f (-2) (0)), (f (-1) (0))⟩ : Itv)),
    (722, Itv.less (⟨(f (-3) (0)), (f (-3) (-1))⟩ : Itv) (⟨(f (-2) (0)), (f (-1) (0))⟩ : Itv)),
    (724, Itv.less (⟨(f 0 0), (f 0 0)⟩ : Itv) (⟨.nzero, .nzero⟩ : Itv)),
    (725, Itv.less (⟨.nzero, .nzero⟩ : Itv) (⟨(f 0 0), (f 0 0)⟩ : Itv)),
    (726, Itv.less (⟨.nzero, (f 0 0)⟩ : Itv) (⟨(f 0 0), (f 0 0)⟩ : Itv)),
    (727, Itv.less (⟨.nzero, (f 0 0)⟩ : Itv) (⟨(f 0 0), .nzero⟩ : Itv)),
    (728, Itv.less (⟨(f 0 0), .nzero⟩ : Itv) (⟨(f 0 0), (f 0 0)⟩ : Itv)),
    (729, Itv.less (⟨(f 0 0), .nzero⟩ : Itv) (⟨.nzero, (f 0 0)⟩ : Itv)),
    (734, !Itv.less (⟨(f 0 0), (f 2 0)⟩ : Itv) (⟨(f 1 0), (f (-2) (0))⟩ : Itv)),
    (749, Itv.less (⟨.nan, .nan⟩ : Itv) (⟨.nan, .nan⟩ : Itv)),
    (750, !Itv.less (⟨(f 1 0), (f 2 0)⟩ : Itv) (⟨.nan, .nan⟩ : Itv)),
    (751, !Itv.less (⟨.nan, .nan⟩ : Itv) (⟨(f 1 0), (f 2 0)⟩ : Itv)),
    (753, Itv.less (⟨.ninf, .pinf⟩ : Itv) (⟨.ninf, .pinf⟩ : Itv)),
    (754, !Itv.less (⟨(f 1 0), (f 2 0)⟩ : Itv) (⟨.ninf, .pinf⟩ : Itv)),
    (755, !Itv.less (⟨(f 0 0), (f 2 0)⟩ : Itv) (⟨.ninf, .pinf⟩ : Itv)),
    (756, !Itv.less (⟨.nzero, (f 2 0)⟩ : Itv) (⟨.ninf, .pinf⟩ : Itv)),
    (757, !Itv.less (⟨.ninf, .pinf⟩ : Itv) (⟨(f 1 0), (f 2 0)⟩ : Itv)),
    (758, !Itv.less (⟨.ninf, .pinf⟩ : Itv) (⟨(f 0 0), (f 2 0)⟩ : Itv))] : List (ℕ × Bool)).all (·.2) = true := by
  decide +kernel

example : ([
    (759, !Itv.less (⟨.ninf, .pinf⟩ : Itv) (⟨.nzero, (f 2 0)⟩ : Itv)),
    (761, Itv.less (⟨(f 0 0), (f 2 0)⟩ : Itv) (⟨(f 0 0), (f 2 0)⟩ : Itv)),
    (762, Itv.less (⟨(f 0 0), (f 2 0)⟩ : Itv) (⟨.nzero, (f 2 0)⟩ : Itv)),
    (763, Itv.less (⟨(f 0 0), (f 2 0)⟩ : Itv) (⟨(f 1 0), (f 2 0)⟩ : Itv)),
    (764, Itv.less (⟨.nzero, (f 2 0)⟩ : Itv) (⟨(f 1 0), (f 2 0)⟩ : Itv)),
    (765, Itv.less (⟨(f 1 0), (f 2 0)⟩ : Itv) (⟨(f 1 0), (f 2 0)⟩ : Itv)),
    (766, Itv.less (⟨(f 1 0), (f 2 0)⟩ : Itv) (⟨(f 3 0), (f 4 0)⟩ : Itv)),
    (767, Itv.less (⟨(f 1 0), (f (7) (-1))⟩ : Itv) (⟨(f 3 0), (f 4 0)⟩ : Itv)),
    (768, Itv.less (⟨(f 1 0), (f 4 0)⟩ : Itv) (⟨(f 3 0), (f 4 0)⟩ : Itv)),
    (770, Itv.less (⟨(f (-2) (0)), (f (-1) (0))⟩ : Itv) (⟨(f (-2) (0)), (f (-1) (0))⟩ : Itv)),
    (771, Itv.less (⟨(f (-3) (0)), (f (-3) (-1))⟩ : Itv) (⟨(f (-2) (0)), (f (-1) (0))⟩ : Itv)),
    (773, Itv.less (⟨(f 0 0), (f 0 0)⟩ : Itv) (⟨.nzero, .nzero⟩ : Itv)),
    (774, Itv.less (⟨.nzero, .nzero⟩ : Itv) (⟨(f 0 0), (f 0 0)⟩ : Itv)),
    (775, Itv.less (⟨.nzero, (f 0 0)⟩ : Itv) (⟨(f 0 0), (f 0 0)⟩ : Itv)),
    (776, Itv.less (⟨.nzero, (f 0 0)⟩ : Itv) (⟨(f 0 0), .nzero⟩ : Itv)),
    (777, Itv.less (⟨(f 0 0), .nzero⟩ : Itv) (⟨(f 0 0), (f 0 0)⟩ : Itv)),
    (778, Itv.less (⟨(f 0 0), .nzero⟩ : Itv) (⟨.nzero, (f 0 0)⟩ : Itv)),
    (781, Itv.less (⟨.nan, .nan⟩ : Itv) (⟨.nan, .nan⟩ : Itv)),
    (782, !Itv.less (⟨(f 1 0), (f 2 0)⟩ : Itv) (⟨.nan, .nan⟩ : Itv)),
    (783, !Itv.less (⟨.nan, .nan⟩ : Itv) (⟨(f 1 0), (f 2 0)⟩ : Itv)),
    (785, Itv.less (⟨.ninf, .pinf⟩ : Itv) (⟨.ninf, .pinf⟩ : Itv)),
    (786, !Itv.less (⟨(f 1 0), (f 2 0)⟩ : Itv) (⟨.ninf, .pinf⟩ : Itv)),
    (787, !Itv.less (⟨(f 0 0), (f 2 0)⟩ : Itv) (⟨.ninf, .pinf⟩ : Itv)),
    (788, !Itv.less (⟨.nzero, (f 2 0)⟩ : Itv) (⟨.ninf, .pinf⟩ : Itv)),
    (789, !Itv.less (⟨.ninf, .pinf⟩ : Itv) (⟨(f 1 0), (f 2 0)⟩ : Itv)),
    (790, !Itv.less (⟨.ninf, .pinf⟩ : Itv) (⟨(f 0 0), (f 2 0)⟩ : Itv)),
    (791, !Itv.less (⟨.ninf, .pinf⟩ : Itv) (⟨.nzero, (f 2 0)⟩ : Itv)),
    (793, Itv.less (⟨(f 0 0), (f 2 0)⟩ : Itv) (⟨(f 0 0), (f 2 0)⟩ : Itv)),
    (794, Itv.less (⟨(f 0 0), (f 2 0)⟩ : Itv) (⟨.nzero, (f 2 0)⟩ : Itv)),
    (795, Itv.less (⟨(f 0 0), (f 2 0)⟩ : Itv) (⟨(f 1 0), (f 2 0)⟩ : Itv)),
    (796, Itv.less (⟨.nzero, (f 2 0)⟩ : Itv) (⟨(f 1 0), (f 2 0)⟩ : Itv)),
    (797, Itv.less (⟨(f 1 0), (f 2 0)⟩ : Itv) (⟨(f 1 0), (f 2 0)⟩ : Itv)),
    (798, Itv.less (⟨(f 1 0), (f 2 0)⟩ : Itv) (⟨(f 3 0), (f 4 0)⟩ : Itv)),
    (799, Itv.less (⟨(f 1 0), (f (7) (-1))⟩ : Itv) (⟨(f 3 0), (f 4 0)⟩ : Itv)),
    (800, Itv.less (⟨(f 1 0), (f 4 0)⟩ : Itv) (⟨(f 3 0), (f 4 0)⟩ : Itv)),
    (802, Itv.less (⟨(f (-2) (0)), (f (-1) (0))⟩ : Itv) (⟨(f (-2) (0)), (f (-1) (0))⟩ : Itv)),
    (803, Itv.less (⟨(f (-3) (0)), (f (-3) (-1))⟩ : Itv) (⟨(f (-2) (0)), (f (-1) (0))⟩ : Itv)),
    (805, Itv.less (⟨(f 0 0), (f 0 0)⟩ : Itv) (⟨.nzero, .nzero⟩ : Itv)),
    (806, Itv.less (⟨.nzero, .nzero⟩ : Itv) (⟨(f 0 0), (f 0 0)⟩ : Itv)),
    (807, Itv.less (⟨.nzero, (f 0 0)⟩ : Itv) (⟨(f 0 0), (f 0 0)⟩ : Itv)),
    (808, Itv.less (⟨.nzero, (f 0 0)⟩ : Itv) (⟨(f 0 0), .nzero⟩ : Itv)),
    (809, Itv.less (⟨(f 0 0), .nzero⟩ : Itv) (⟨(f 0 0), (f 0 0)⟩ : Itv)),
    (810, Itv.less (⟨(f 0 0), .nzero⟩ : Itv) (⟨.nzero, (f 0 0)⟩ : Itv)),
    (815, !Itv.less (⟨(f 1 0), (f 2 0)⟩ : Itv) (⟨(f 1 0), (f (-2) (0))⟩ : Itv)),
    (829, !DItv.rel Itv.less (⟨⟨.nan, .nan⟩, .ill⟩ : DItv) (⟨⟨.nan, .nan⟩, .ill⟩ : DItv)),
    (830, !DItv.rel Itv.less (⟨⟨.nan, .nan⟩, .trv⟩ : DItv) (⟨⟨.nan, .nan⟩, .ill⟩ : DItv)),
    (831, !DItv.rel Itv.less (⟨⟨(f 1 0), (f 2 0)⟩, .trv⟩ : DItv) (⟨⟨.nan, .nan⟩, .ill⟩ : DItv)),
    (832, !DItv.rel Itv.less (⟨⟨.nan, .nan⟩, .ill⟩ : DItv) (⟨⟨(f 1 0), (f 2 0)⟩, .defd⟩ : DItv)),
    (834, DItv.rel Itv.less (⟨⟨.nan, .nan⟩, .trv⟩ : DItv) (⟨⟨.nan, .nan⟩, .trv⟩ : DItv)),
    (835, !DItv.rel Itv.less (⟨⟨(f 1 0), (f 2 0)⟩, .trv⟩ : DItv) (⟨⟨.nan, .nan⟩, .trv⟩ : DItv))] : List (ℕ × Bool)).all (·.2) = true := by
  decide +kernel

example : ([
    (836, !DItv.rel Itv.less (⟨⟨.nan, .nan⟩, .trv⟩ : DItv) (⟨⟨(f 1 0), (f 2 0)⟩, .trv⟩ : DItv)),
    (838, DItv.rel Itv.less (⟨⟨.ninf, .pinf⟩, .trv⟩ : DItv) (⟨⟨.ninf, .pinf⟩, .trv⟩ : DItv)),
    (839, !DItv.rel Itv.less (⟨⟨(f 1 0), (f 2 0)⟩, .defd⟩ : DItv) (⟨⟨.ninf, .pinf⟩, .trv⟩ : DItv)),
    (840, !DItv.rel Itv.less (⟨⟨(f 0 0), (f 2 0)⟩, .trv⟩ : DItv) (⟨⟨.ninf, .pinf⟩, .trv⟩ : DItv)),
    (841, !DItv.rel Itv.less (⟨⟨.nzero, (f 2 0)⟩, .trv⟩ : DItv) (⟨⟨.ninf, .pinf⟩, .trv⟩ : DItv)),
    (842, !DItv.rel Itv.less (⟨⟨.ninf, .pinf⟩, .trv⟩ : DItv) (⟨⟨(f 1 0), (f 2 0)⟩, .trv⟩ : DItv)),
    (843, !DItv.rel Itv.less (⟨⟨.ninf, .pinf⟩, .trv⟩ : DItv) (⟨⟨(f 0 0), (f 2 0)⟩, .defd⟩ : DItv)),
    (844, !DItv.rel Itv.less (⟨⟨.ninf, .pinf⟩, .trv⟩ : DItv) (⟨⟨.nzero, (f 2 0)⟩, .trv⟩ : DItv)),
    (846, DItv.rel Itv.less (⟨⟨(f 0 0), (f 2 0)⟩, .trv⟩ : DItv) (⟨⟨(f 0 0), (f 2 0)⟩, .trv⟩ : DItv)),
    (847, DItv.rel Itv.less (⟨⟨(f 0 0), (f 2 0)⟩, .trv⟩ : DItv) (⟨⟨.nzero, (f 2 0)⟩, .trv⟩ : DItv)),
    (848, DItv.rel Itv.less (⟨⟨(f 0 0), (f 2 0)⟩, .defd⟩ : DItv) (⟨⟨(f 1 0), (f 2 0)⟩, .defd⟩ : DItv)),
    (849, DItv.rel Itv.less (⟨⟨.nzero, (f 2 0)⟩, .trv⟩ : DItv) (⟨⟨(f 1 0), (f 2 0)⟩, .trv⟩ : DItv)),
    (850, DItv.rel Itv.less (⟨⟨(f 1 0), (f 2 0)⟩, .trv⟩ : DItv) (⟨⟨(f 1 0), (f 2 0)⟩, .trv⟩ : DItv)),
    (851, DItv.rel Itv.less (⟨⟨(f 1 0), (f 2 0)⟩, .trv⟩ : DItv) (⟨⟨(f 3 0), (f 4 0)⟩, .defd⟩ : DItv)),
    (852, DItv.rel Itv.less (⟨⟨(f 1 0), (f (7) (-1))⟩, .trv⟩ : DItv) (⟨⟨(f 3 0), (f 4 0)⟩, .trv⟩ : DItv)),
    (853, DItv.rel Itv.less (⟨⟨(f 1 0), (f 4 0)⟩, .trv⟩ : DItv) (⟨⟨(f 3 0), (f 4 0)⟩, .trv⟩ : DItv)),
    (855, DItv.rel Itv.less (⟨⟨(f (-2) (0)), (f (-1) (0))⟩, .trv⟩ : DItv) (⟨⟨(f (-2) (0)), (f (-1) (0))⟩, .trv⟩ : DItv)),
    (856, DItv.rel Itv.less (⟨⟨(f (-3) (0)), (f (-3) (-1))⟩, .trv⟩ : DItv) (⟨⟨(f (-2) (0)), (f (-1) (0))⟩, .trv⟩ : DItv)),
    (858, DItv.rel Itv.less (⟨⟨(f 0 0), (f 0 0)⟩, .trv⟩ : DItv) (⟨⟨.nzero, .nzero⟩, .trv⟩ : DItv)),
    (859, DItv.rel Itv.less (⟨⟨.nzero, .nzero⟩, .trv⟩ : DItv) (⟨⟨(f 0 0), (f 0 0)⟩, .defd⟩ : DItv)),
    (860, DItv.rel Itv.less (⟨⟨.nzero, (f 0 0)⟩, .trv⟩ : DItv) (⟨⟨(f 0 0), (f 0 0)⟩, .trv⟩ : DItv)),
    (861, DItv.rel Itv.less (⟨⟨.nzero, (f 0 0)⟩, .trv⟩ : DItv) (⟨⟨(f 0 0), .nzero⟩, .trv⟩ : DItv)),
    (862, DItv.rel Itv.less (⟨⟨(f 0 0), .nzero⟩, .defd⟩ : DItv) (⟨⟨(f 0 0), (f 0 0)⟩, .trv⟩ : DItv)),
    (863, DItv.rel Itv.less (⟨⟨(f 0 0), .nzero⟩, .trv⟩ : DItv) (⟨⟨.nzero, (f 0 0)⟩, .trv⟩ : DItv)),
    (868, !DItv.rel Itv.less (⟨⟨(f 1 0), (f (-2) (0))⟩, .trv⟩ : DItv) (⟨⟨(f 3 0), (f 4 0)⟩, .defd⟩ : DItv)),
    (883, !DItv.rel Itv.less (⟨⟨.nan, .nan⟩, .ill⟩ : DItv) (⟨⟨.nan, .nan⟩, .ill⟩ : DItv)),
    (884, !DItv.rel Itv.less (⟨⟨.nan, .nan⟩, .trv⟩ : DItv) (⟨⟨.nan, .nan⟩, .ill⟩ : DItv)),
    (885, !DItv.rel Itv.less (⟨⟨(f 1 0), (f 2 0)⟩, .trv⟩ : DItv) (⟨⟨.nan, .nan⟩, .ill⟩ : DItv)),
    (886, !DItv.rel Itv.less (⟨⟨.nan, .nan⟩, .ill⟩ : DItv) (⟨⟨(f 1 0), (f 2 0)⟩, .trv⟩ : DItv)),
    (888, DItv.rel Itv.less (⟨⟨.nan, .nan⟩, .trv⟩ : DItv) (⟨⟨.nan, .nan⟩, .trv⟩ : DItv)),
    (889, !DItv.rel Itv.less (⟨⟨(f 1 0), (f 2 0)⟩, .trv⟩ : DItv) (⟨⟨.nan, .nan⟩, .trv⟩ : DItv)),
    (890, !DItv.rel Itv.less (⟨⟨.nan, .nan⟩, .trv⟩ : DItv) (⟨⟨(f 1 0), (f 2 0)⟩, .trv⟩ : DItv)),
    (892, DItv.rel Itv.less (⟨⟨.ninf, .pinf⟩, .trv⟩ : DItv) (⟨⟨.ninf, .pinf⟩, .defd⟩ : DItv)),
    (893, !DItv.rel Itv.less (⟨⟨(f 1 0), (f 2 0)⟩, .trv⟩ : DItv) (⟨⟨.ninf, .pinf⟩, .trv⟩ : DItv)),
    (894, !DItv.rel Itv.less (⟨⟨(f 0 0), (f 2 0)⟩, .defd⟩ : DItv) (⟨⟨.ninf, .pinf⟩, .trv⟩ : DItv)),
    (895, !DItv.rel Itv.less (⟨⟨.nzero, (f 2 0)⟩, .trv⟩ : DItv) (⟨⟨.ninf, .pinf⟩, .trv⟩ : DItv)),
    (896, !DItv.rel Itv.less (⟨⟨.ninf, .pinf⟩, .trv⟩ : DItv) (⟨⟨(f 1 0), (f 2 0)⟩, .trv⟩ : DItv)),
    (897, !DItv.rel Itv.less (⟨⟨.ninf, .pinf⟩, .trv⟩ : DItv) (⟨⟨(f 0 0), (f 2 0)⟩, .defd⟩ : DItv)),
    (898, !DItv.rel Itv.less (⟨⟨.ninf, .pinf⟩, .trv⟩ : DItv) (⟨⟨.nzero, (f 2 0)⟩, .trv⟩ : DItv)),
    (900, DItv.rel Itv.less (⟨⟨(f 0 0), (f 2 0)⟩, .trv⟩ : DItv) (⟨⟨(f 0 0), (f 2 0)⟩, .trv⟩ : DItv)),
    (901, DItv.rel Itv.less (⟨⟨(f 0 0), (f 2 0)⟩, .trv⟩ : DItv) (⟨⟨.nzero, (f 2 0)⟩, .trv⟩ : DItv)),
    (902, DItv.rel Itv.less (⟨⟨(f 0 0), (f 2 0)⟩, .defd⟩ : DItv) (⟨⟨(f 1 0), (f 2 0)⟩, .defd⟩ : DItv)),
    (903, DItv.rel Itv.less (⟨⟨.nzero, (f 2 0)⟩, .trv⟩ : DItv) (⟨⟨(f 1 0), (f 2 0)⟩, .trv⟩ : DItv)),
    (904, DItv.rel Itv.less (⟨⟨(f 1 0), (f 2 0)⟩, .trv⟩ : DItv) (⟨⟨(f 1 0), (f 2 0)⟩, .trv⟩ : DItv)),
    (905, DItv.rel Itv.less (⟨⟨(f 1 0), (f 2 0)⟩, .trv⟩ : DItv) (⟨⟨(f 3 0), (f 4 0)⟩, .defd⟩ : DItv)),
    (906, DItv.rel Itv.less (⟨⟨(f 1 0), (f (7) (-1))⟩, .trv⟩ : DItv) (⟨⟨(f 3 0), (f 4 0)⟩, .trv⟩ : DItv)),
    (907, DItv.rel Itv.less (⟨⟨(f 1 0), (f 4 0)⟩, .trv⟩ : DItv) (⟨⟨(f 3 0), (f 4 0)⟩, .trv⟩ : DItv)),
    (909, DItv.rel Itv.less (⟨⟨(f (-2) (0)), (f (-1) (0))⟩, .trv⟩ : DItv) (⟨⟨(f (-2) (0)), (f (-1) (0))⟩, .trv⟩ : DItv)),
    (910, DItv.rel Itv.less (⟨⟨(f (-3) (0)), (f (-3) (-1))⟩, .trv⟩ : DItv) (⟨⟨(f (-2) (0)), (f (-1) (0))⟩, .trv⟩ : DItv)),
    (912, DItv.rel Itv.less (⟨⟨(f 0 0), (f 0 0)⟩, .trv⟩ : DItv) (⟨⟨.nzero, .nzero⟩, .trv⟩ : DItv))] : List (ℕ × Bool)).all (·.2) = true := by
  decide +kernel

example : ([
    (913, DItv.rel Itv.less (⟨⟨.nzero, .nzero⟩, .trv⟩ : DItv) (⟨⟨(f 0 0), (f 0 0)⟩, .trv⟩ : DItv)),
    (914, DItv.rel Itv.less (⟨⟨.nzero, (f 0 0)⟩, .defd⟩ : DItv) (⟨⟨(f 0 0), (f 0 0)⟩, .trv⟩ : DItv)),
    (915, DItv.rel Itv.less (⟨⟨.nzero, (f 0 0)⟩, .trv⟩ : DItv) (⟨⟨(f 0 0), .nzero⟩, .defd⟩ : DItv)),
    (916, DItv.rel Itv.less (⟨⟨(f 0 0), .nzero⟩, .trv⟩ : DItv) (⟨⟨(f 0 0), (f 0 0)⟩, .trv⟩ : DItv)),
    (917, DItv.rel Itv.less (⟨⟨(f 0 0), .nzero⟩, .trv⟩ : DItv) (⟨⟨.nzero, (f 0 0)⟩, .trv⟩ : DItv)),
    (920, !DItv.rel Itv.less (⟨⟨.nan, .nan⟩, .ill⟩ : DItv) (⟨⟨.nan, .nan⟩, .ill⟩ : DItv)),
    (921, !DItv.rel Itv.less (⟨⟨.nan, .nan⟩, .trv⟩ : DItv) (⟨⟨.nan, .nan⟩, .ill⟩ : DItv)),
    (922, !DItv.rel Itv.less (⟨⟨(f 1 0), (f 2 0)⟩, .trv⟩ : DItv) (⟨⟨.nan, .nan⟩, .ill⟩ : DItv)),
    (923, !DItv.rel Itv.less (⟨⟨.nan, .nan⟩, .ill⟩ : DItv) (⟨⟨(f 1 0), (f 2 0)⟩, .trv⟩ : DItv)),
    (925, DItv.rel Itv.less (⟨⟨.nan, .nan⟩, .trv⟩ : DItv) (⟨⟨.nan, .nan⟩, .trv⟩ : DItv)),
    (926, !DItv.rel Itv.less (⟨⟨(f 1 0), (f 2 0)⟩, .trv⟩ : DItv) (⟨⟨.nan, .nan⟩, .trv⟩ : DItv)),
    (927, !DItv.rel Itv.less (⟨⟨.nan, .nan⟩, .trv⟩ : DItv) (⟨⟨(f 1 0), (f 2 0)⟩, .trv⟩ : DItv)),
    (929, DItv.rel Itv.less (⟨⟨.ninf, .pinf⟩, .trv⟩ : DItv) (⟨⟨.ninf, .pinf⟩, .trv⟩ : DItv)),
    (930, !DItv.rel Itv.less (⟨⟨(f 1 0), (f 2 0)⟩, .trv⟩ : DItv) (⟨⟨.ninf, .pinf⟩, .trv⟩ : DItv)),
    (931, !DItv.rel Itv.less (⟨⟨(f 0 0), (f 2 0)⟩, .defd⟩ : DItv) (⟨⟨.ninf, .pinf⟩, .trv⟩ : DItv)),
    (932, !DItv.rel Itv.less (⟨⟨.nzero, (f 2 0)⟩, .trv⟩ : DItv) (⟨⟨.ninf, .pinf⟩, .trv⟩ : DItv)),
    (933, !DItv.rel Itv.less (⟨⟨.ninf, .pinf⟩, .trv⟩ : DItv) (⟨⟨(f 1 0), (f 2 0)⟩, .trv⟩ : DItv)),
    (934, !DItv.rel Itv.less (⟨⟨.ninf, .pinf⟩, .trv⟩ : DItv) (⟨⟨(f 0 0), (f 2 0)⟩, .defd⟩ : DItv)),
    (935, !DItv.rel Itv.less (⟨⟨.ninf, .pinf⟩, .trv⟩ : DItv) (⟨⟨.nzero, (f 2 0)⟩, .trv⟩ : DItv)),
    (937, DItv.rel Itv.less (⟨⟨(f 0 0), (f 2 0)⟩, .trv⟩ : DItv) (⟨⟨(f 0 0), (f 2 0)⟩, .trv⟩ : DItv)),
    (938, DItv.rel Itv.less (⟨⟨(f 0 0), (f 2 0)⟩, .trv⟩ : DItv) (⟨⟨.nzero, (f 2 0)⟩, .trv⟩ : DItv)),
    (939, DItv.rel Itv.less (⟨⟨(f 0 0), (f 2 0)⟩, .trv⟩ : DItv) (⟨⟨(f 1 0), (f 2 0)⟩, .trv⟩ : DItv)),
    (940, DItv.rel Itv.less (⟨⟨.nzero, (f 2 0)⟩, .defd⟩ : DItv) (⟨⟨(f 1 0), (f 2 0)⟩, .defd⟩ : DItv)),
    (941, DItv.rel Itv.less (⟨⟨(f 1 0), (f 2 0)⟩, .trv⟩ : DItv) (⟨⟨(f 1 0), (f 2 0)⟩, .trv⟩ : DItv)),
    (942, DItv.rel Itv.less (⟨⟨(f 1 0), (f 2 0)⟩, .trv⟩ : DItv) (⟨⟨(f 3 0), (f 4 0)⟩, .trv⟩ : DItv)),
    (943, DItv.rel Itv.less (⟨⟨(f 1 0), (f (7) (-1))⟩, .trv⟩ : DItv) (⟨⟨(f 3 0), (f 4 0)⟩, .defd⟩ : DItv)),
    (944, DItv.rel Itv.less (⟨⟨(f 1 0), (f 4 0)⟩, .trv⟩ : DItv) (⟨⟨(f 3 0), (f 4 0)⟩, .trv⟩ : DItv)),
    (946, DItv.rel Itv.less (⟨⟨(f (-2) (0)), (f (-1) (0))⟩, .trv⟩ : DItv) (⟨⟨(f (-2) (0)), (f (-1) (0))⟩, .trv⟩ : DItv)),
    (947, DItv.rel Itv.less (⟨⟨(f (-3) (0)), (f (-3) (-1))⟩, .trv⟩ : DItv) (⟨⟨(f (-2) (0)), (f (-1) (0))⟩, .trv⟩ : DItv)),
    (949, DItv.rel Itv.less (⟨⟨(f 0 0), (f 0 0)⟩, .trv⟩ : DItv) (⟨⟨.nzero, .nzero⟩, .trv⟩ : DItv)),
    (950, DItv.rel Itv.less (⟨⟨.nzero, .nzero⟩, .trv⟩ : DItv) (⟨⟨(f 0 0), (f 0 0)⟩, .trv⟩ : DItv)),
    (951, DItv.rel Itv.less (⟨⟨.nzero, (f 0 0)⟩, .trv⟩ : DItv) (⟨⟨(f 0 0), (f 0 0)⟩, .defd⟩ : DItv)),
    (952, DItv.rel Itv.less (⟨⟨.nzero, (f 0 0)⟩, .trv⟩ : DItv) (⟨⟨(f 0 0), .nzero⟩, .trv⟩ : DItv)),
    (953, DItv.rel Itv.less (⟨⟨(f 0 0), .nzero⟩, .defd⟩ : DItv) (⟨⟨(f 0 0), (f 0 0)⟩, .trv⟩ : DItv)),
    (954, DItv.rel Itv.less (⟨⟨(f 0 0), .nzero⟩, .trv⟩ : DItv) (⟨⟨.nzero, (f 0 0)⟩, .trv⟩ : DItv)),
    (959, !DItv.rel Itv.less (⟨⟨(f 1 0), (f (-2) (0))⟩, .trv⟩ : DItv) (⟨⟨(f 1 0), (f 2 0)⟩, .trv⟩ : DItv)),
    (974, Itv.precedes (⟨.nan, .nan⟩ : Itv) (⟨(f 3 0), (f 4 0)⟩ : Itv)),
    (975, Itv.precedes (⟨(f 3 0), (f 4 0)⟩ : Itv) (⟨.nan, .nan⟩ : Itv)),
    (976, Itv.precedes (⟨.nan, .nan⟩ : Itv) (⟨.nan, .nan⟩ : Itv)),
    (979, !Itv.precedes (⟨(f 1 0), (f 2 0)⟩ : Itv) (⟨.ninf, .pinf⟩ : Itv)),
    (980, !Itv.precedes (⟨(f 0 0), (f 2 0)⟩ : Itv) (⟨.ninf, .pinf⟩ : Itv)),
    (981, !Itv.precedes (⟨.nzero, (f 2 0)⟩ : Itv) (⟨.ninf, .pinf⟩ : Itv)),
    (982, !Itv.precedes (⟨.ninf, .pinf⟩ : Itv) (⟨(f 1 0), (f 2 0)⟩ : Itv)),
    (983, !Itv.precedes (⟨.ninf, .pinf⟩ : Itv) (⟨.ninf, .pinf⟩ : Itv)),
    (985, Itv.precedes (⟨(f 1 0), (f 2 0)⟩ : Itv) (⟨(f 3 0), (f 4 0)⟩ : Itv)),
    (986, Itv.precedes (⟨(f 1 0), (f 3 0)⟩ : Itv) (⟨(f 3 0), (f 4 0)⟩ : Itv)),
    (987, Itv.precedes (⟨(f (-3) (0)), (f (-1) (0))⟩ : Itv) (⟨(f (-1) (0)), (f 0 0)⟩ : Itv)),
    (988, Itv.precedes (⟨(f (-3) (0)), (f (-1) (0))⟩ : Itv) (⟨(f (-1) (0)), .nzero⟩ : Itv)),
    (990, !Itv.precedes (⟨(f 1 0), (f (7) (-1))⟩ : Itv) (⟨(f 3 0), (f 4 0)⟩ : Itv)),
    (991, !Itv.precedes (⟨(f 1 0), (f 4 0)⟩ : Itv) (⟨(f 3 0), (f 4 0)⟩ : Itv))] : List (ℕ × Bool)).all (·.2) = true := by
  decide +kernel

example : ([
    (992, !Itv.precedes (⟨(f (-3) (0)), (f (-3602879701896397) (-55))⟩ : Itv) (⟨(f (-1) (0)), (f 0 0)⟩ : Itv)),
    (994, Itv.precedes (⟨(f 0 0), (f 0 0)⟩ : Itv) (⟨.nzero, .nzero⟩ : Itv)),
    (995, Itv.precedes (⟨.nzero, .nzero⟩ : Itv) (⟨(f 0 0), (f 0 0)⟩ : Itv)),
    (996, Itv.precedes (⟨.nzero, (f 0 0)⟩ : Itv) (⟨(f 0 0), (f 0 0)⟩ : Itv)),
    (997, Itv.precedes (⟨.nzero, (f 0 0)⟩ : Itv) (⟨(f 0 0), .nzero⟩ : Itv)),
    (998, Itv.precedes (⟨(f 0 0), .nzero⟩ : Itv) (⟨(f 0 0), (f 0 0)⟩ : Itv)),
    (999, Itv.precedes (⟨(f 0 0), .nzero⟩ : Itv) (⟨.nzero, (f 0 0)⟩ : Itv)),
    (1004, !Itv.precedes (⟨(f (-3) (0)), (f (-1) (0))⟩ : Itv) (⟨(f 1 0), (f 0 0)⟩ : Itv)),
    (1018, Itv.precedes (⟨.nan, .nan⟩ : Itv) (⟨(f 3 0), (f 4 0)⟩ : Itv)),
    (1019, Itv.precedes (⟨(f 3 0), (f 4 0)⟩ : Itv) (⟨.nan, .nan⟩ : Itv)),
    (1020, Itv.precedes (⟨.nan, .nan⟩ : Itv) (⟨.nan, .nan⟩ : Itv)),
    (1022, !Itv.precedes (⟨(f 1 0), (f 2 0)⟩ : Itv) (⟨.ninf, .pinf⟩ : Itv)),
    (1023, !Itv.precedes (⟨(f 0 0), (f 2 0)⟩ : Itv) (⟨.ninf, .pinf⟩ : Itv)),
    (1024, !Itv.precedes (⟨.nzero, (f 2 0)⟩ : Itv) (⟨.ninf, .pinf⟩ : Itv)),
    (1025, !Itv.precedes (⟨.ninf, .pinf⟩ : Itv) (⟨(f 1 0), (f 2 0)⟩ : Itv)),
    (1026, !Itv.precedes (⟨.ninf, .pinf⟩ : Itv) (⟨.ninf, .pinf⟩ : Itv)),
    (1028, Itv.precedes (⟨(f 1 0), (f 2 0)⟩ : Itv) (⟨(f 3 0), (f 4 0)⟩ : Itv)),
    (1029, Itv.precedes (⟨(f 1 0), (f 3 0)⟩ : Itv) (⟨(f 3 0), (f 4 0)⟩ : Itv)),
    (1030, Itv.precedes (⟨(f (-3) (0)), (f (-1) (0))⟩ : Itv) (⟨(f (-1) (0)), (f 0 0)⟩ : Itv)),
    (1031, Itv.precedes (⟨(f (-3) (0)), (f (-1) (0))⟩ : Itv) (⟨(f (-1) (0)), .nzero⟩ : Itv)),
    (1033, !Itv.precedes (⟨(f 1 0), (f (7) (-1))⟩ : Itv) (⟨(f 3 0), (f 4 0)⟩ : Itv)),
    (1034, !Itv.precedes (⟨(f 1 0), (f 4 0)⟩ : Itv) (⟨(f 3 0), (f 4 0)⟩ : Itv)),
    (1035, !Itv.precedes (⟨(f (-3) (0)), (f (-3602879701896397) (-55))⟩ : Itv) (⟨(f (-1) (0)), (f 0 0)⟩ : Itv)),
    (1037, Itv.precedes (⟨(f 0 0), (f 0 0)⟩ : Itv) (⟨.nzero, .nzero⟩ : Itv)),
    (1038, Itv.precedes (⟨.nzero, .nzero⟩ : Itv) (⟨(f 0 0), (f 0 0)⟩ : Itv)),
    (1039, Itv.precedes (⟨.nzero, (f 0 0)⟩ : Itv) (⟨(f 0 0), (f 0 0)⟩ : Itv)),
    (1040, Itv.precedes (⟨.nzero, (f 0 0)⟩ : Itv) (⟨(f 0 0), .nzero⟩ : Itv)),
    (1041, Itv.precedes (⟨(f 0 0), .nzero⟩ : Itv) (⟨(f 0 0), (f 0 0)⟩ : Itv)),
    (1042, Itv.precedes (⟨(f 0 0), .nzero⟩ : Itv) (⟨.nzero, (f 0 0)⟩ : Itv)),
    (1044, Itv.precedes (⟨.nan, .nan⟩ : Itv) (⟨(f 3 0), (f 4 0)⟩ : Itv)),
    (1045, Itv.precedes (⟨(f 3 0), (f 4 0)⟩ : Itv) (⟨.nan, .nan⟩ : Itv)),
    (1046, Itv.precedes (⟨.nan, .nan⟩ : Itv) (⟨.nan, .nan⟩ : Itv)),
    (1048, !Itv.precedes (⟨(f 1 0), (f 2 0)⟩ : Itv) (⟨.ninf, .pinf⟩ : Itv)),
    (1049, !Itv.precedes (⟨(f 0 0), (f 2 0)⟩ : Itv) (⟨.ninf, .pinf⟩ : Itv)),
    (1050, !Itv.precedes (⟨.nzero, (f 2 0)⟩ : Itv) (⟨.ninf, .pinf⟩ : Itv)),
    (1051, !Itv.precedes (⟨.ninf, .pinf⟩ : Itv) (⟨(f 1 0), (f 2 0)⟩ : Itv)),
    (1052, !Itv.precedes (⟨.ninf, .pinf⟩ : Itv) (⟨.ninf, .pinf⟩ : Itv)),
    (1054, Itv.precedes (⟨(f 1 0), (f 2 0)⟩ : Itv) (⟨(f 3 0), (f 4 0)⟩ : Itv)),
    (1055, Itv.precedes (⟨(f 1 0), (f 3 0)⟩ : Itv) (⟨(f 3 0), (f 4 0)⟩ : Itv)),
    (1056, Itv.precedes (⟨(f (-3) (0)), (f (-1) (0))⟩ : Itv) (⟨(f (-1) (0)), (f 0 0)⟩ : Itv)),
    (1057, Itv.precedes (⟨(f (-3) (0)), (f (-1) (0))⟩ : Itv) (⟨(f (-1) (0)), .nzero⟩ : Itv)),
    (1059, !Itv.precedes (⟨(f 1 0), (f (7) (-1))⟩ : Itv) (⟨(f 3 0), (f 4 0)⟩ : Itv)),
    (1060, !Itv.precedes (⟨(f 1 0), (f 4 0)⟩ : Itv) (⟨(f 3 0), (f 4 0)⟩ : Itv)),
    (1061, !Itv.precedes (⟨(f (-3) (0)), (f (-13421773) (-27))⟩ : Itv) (⟨(f (-1) (0)), (f 0 0)⟩ : Itv)),
    (1063, Itv.precedes (⟨(f 0 0), (f 0 0)⟩ : Itv) (⟨.nzero, .nzero⟩ : Itv)),
    (1064, Itv.precedes (⟨.nzero, .nzero⟩ : Itv) (⟨(f 0 0), (f 0 0)⟩ : Itv)),
    (1065, Itv.precedes (⟨.nzero, (f 0 0)⟩ : Itv) (⟨(f 0 0), (f 0 0)⟩ : Itv)),
    (1066, Itv.precedes (⟨.nzero, (f 0 0)⟩ : Itv) (⟨(f 0 0), .nzero⟩ : Itv)),
    (1067, Itv.precedes (⟨(f 0 0), .nzero⟩ : Itv) (⟨(f 0 0), (f 0 0)⟩ : Itv)),
    (1068, Itv.precedes (⟨(f 0 0), .nzero⟩ : Itv) (⟨.nzero, (f 0 0)⟩ : Itv))] : List (ℕ × Bool)).all (·.2) = true := by
  decide +kernel

example : ([
    (1073, !Itv.precedes (⟨(f 1 0), (f (7) (-1))⟩ : Itv) (⟨(f 3 0), (f (-4) (0))⟩ : Itv)),
    (1088, !DItv.rel Itv.precedes (⟨⟨.nan, .nan⟩, .ill⟩ : DItv) (⟨⟨(f 3 0), (f 4 0)⟩, .defd⟩ : DItv)),
    (1089, !DItv.rel Itv.precedes (⟨⟨(f 3 0), (f 4 0)⟩, .trv⟩ : DItv) (⟨⟨.nan, .nan⟩, .ill⟩ : DItv)),
    (1090, !DItv.rel Itv.precedes (⟨⟨.nan, .nan⟩, .ill⟩ : DItv) (⟨⟨.nan, .nan⟩, .trv⟩ : DItv)),
    (1091, !DItv.rel Itv.precedes (⟨⟨.nan, .nan⟩, .ill⟩ : DItv) (⟨⟨.nan, .nan⟩, .ill⟩ : DItv)),
    (1093, DItv.rel Itv.precedes (⟨⟨.nan, .nan⟩, .trv⟩ : DItv) (⟨⟨(f 3 0), (f 4 0)⟩, .trv⟩ : DItv)),
    (1094, DItv.rel Itv.precedes (⟨⟨(f 3 0), (f 4 0)⟩, .trv⟩ : DItv) (⟨⟨.nan, .nan⟩, .trv⟩ : DItv)),
    (1095, DItv.rel Itv.precedes (⟨⟨.nan, .nan⟩, .trv⟩ : DItv) (⟨⟨.nan, .nan⟩, .trv⟩ : DItv)),
    (1098, !DItv.rel Itv.precedes (⟨⟨(f 1 0), (f 2 0)⟩, .trv⟩ : DItv) (⟨⟨.ninf, .pinf⟩, .trv⟩ : DItv)),
    (1099, !DItv.rel Itv.precedes (⟨⟨(f 0 0), (f 2 0)⟩, .trv⟩ : DItv) (⟨⟨.ninf, .pinf⟩, .trv⟩ : DItv)),
    (1100, !DItv.rel Itv.precedes (⟨⟨.nzero, (f 2 0)⟩, .trv⟩ : DItv) (⟨⟨.ninf, .pinf⟩, .trv⟩ : DItv)),
    (1101, !DItv.rel Itv.precedes (⟨⟨.ninf, .pinf⟩, .trv⟩ : DItv) (⟨⟨(f 1 0), (f 2 0)⟩, .trv⟩ : DItv)),
    (1102, !DItv.rel Itv.precedes (⟨⟨.ninf, .pinf⟩, .trv⟩ : DItv) (⟨⟨.ninf, .pinf⟩, .trv⟩ : DItv)),
    (1104, DItv.rel Itv.precedes (⟨⟨(f 1 0), (f 2 0)⟩, .trv⟩ : DItv) (⟨⟨(f 3 0), (f 4 0)⟩, .trv⟩ : DItv)),
    (1105, DItv.rel Itv.precedes (⟨⟨(f 1 0), (f 3 0)⟩, .trv⟩ : DItv) (⟨⟨(f 3 0), (f 4 0)⟩, .defd⟩ : DItv)),
    (1106, DItv.rel Itv.precedes (⟨⟨(f (-3) (0)), (f (-1) (0))⟩, .defd⟩ : DItv) (⟨⟨(f (-1) (0)), (f 0 0)⟩, .trv⟩ : DItv)),
    (1107, DItv.rel Itv.precedes (⟨⟨(f (-3) (0)), (f (-1) (0))⟩, .trv⟩ : DItv) (⟨⟨(f (-1) (0)), .nzero⟩, .trv⟩ : DItv)),
    (1109, !DItv.rel Itv.precedes (⟨⟨(f 1 0), (f (7) (-1))⟩, .trv⟩ : DItv) (⟨⟨(f 3 0), (f 4 0)⟩, .trv⟩ : DItv)),
    (1110, !DItv.rel Itv.precedes (⟨⟨(f 1 0), (f 4 0)⟩, .trv⟩ : DItv) (⟨⟨(f 3 0), (f 4 0)⟩, .trv⟩ : DItv)),
    (1111, !DItv.rel Itv.precedes (⟨⟨(f (-3) (0)), (f (-3602879701896397) (-55))⟩, .trv⟩ : DItv) (⟨⟨(f (-1) (0)), (f 0 0)⟩, .trv⟩ : DItv)),
    (1113, DItv.rel Itv.precedes (⟨⟨(f 0 0), (f 0 0)⟩, .trv⟩ : DItv) (⟨⟨.nzero, .nzero⟩, .trv⟩ : DItv)),
    (1114, DItv.rel Itv.precedes (⟨⟨.nzero, .nzero⟩, .trv⟩ : DItv) (⟨⟨(f 0 0), (f 0 0)⟩, .defd⟩ : DItv)),
    (1115, DItv.rel Itv.precedes (⟨⟨.nzero, (f 0 0)⟩, .trv⟩ : DItv) (⟨⟨(f 0 0), (f 0 0)⟩, .trv⟩ : DItv)),
    (1116, DItv.rel Itv.precedes (⟨⟨.nzero, (f 0 0)⟩, .defd⟩ : DItv) (⟨⟨(f 0 0), .nzero⟩, .trv⟩ : DItv)),
    (1117, DItv.rel Itv.precedes (⟨⟨(f 0 0), .nzero⟩, .trv⟩ : DItv) (⟨⟨(f 0 0), (f 0 0)⟩, .trv⟩ : DItv)),
    (1118, DItv.rel Itv.precedes (⟨⟨(f 0 0), .nzero⟩, .trv⟩ : DItv) (⟨⟨.nzero, (f 0 0)⟩, .trv⟩ : DItv)),
    (1123, !DItv.rel Itv.precedes (⟨⟨(f 1 0), (f (7) (-1))⟩, .ill⟩ : DItv) (⟨⟨(f 3 0), (f 4 0)⟩, .trv⟩ : DItv)),
    (1137, !DItv.rel Itv.precedes (⟨⟨.nan, .nan⟩, .ill⟩ : DItv) (⟨⟨(f 3 0), (f 4 0)⟩, .trv⟩ : DItv)),
    (1138, !DItv.rel Itv.precedes (⟨⟨(f 3 0), (f 4 0)⟩, .trv⟩ : DItv) (⟨⟨.nan, .nan⟩, .ill⟩ : DItv)),
    (1139, !DItv.rel Itv.precedes (⟨⟨.nan, .nan⟩, .trv⟩ : DItv) (⟨⟨.nan, .nan⟩, .ill⟩ : DItv)),
    (1140, !DItv.rel Itv.precedes (⟨⟨.nan, .nan⟩, .ill⟩ : DItv) (⟨⟨.nan, .nan⟩, .ill⟩ : DItv)),
    (1142, DItv.rel Itv.precedes (⟨⟨.nan, .nan⟩, .trv⟩ : DItv) (⟨⟨(f 3 0), (f 4 0)⟩, .trv⟩ : DItv)),
    (1143, DItv.rel Itv.precedes (⟨⟨(f 3 0), (f 4 0)⟩, .trv⟩ : DItv) (⟨⟨.nan, .nan⟩, .trv⟩ : DItv)),
    (1144, DItv.rel Itv.precedes (⟨⟨.nan, .nan⟩, .trv⟩ : DItv) (⟨⟨.nan, .nan⟩, .trv⟩ : DItv)),
    (1146, !DItv.rel Itv.precedes (⟨⟨(f 1 0), (f 2 0)⟩, .trv⟩ : DItv) (⟨⟨.ninf, .pinf⟩, .trv⟩ : DItv)),
    (1147, !DItv.rel Itv.precedes (⟨⟨(f 0 0), (f 2 0)⟩, .defd⟩ : DItv) (⟨⟨.ninf, .pinf⟩, .trv⟩ : DItv)),
    (1148, !DItv.rel Itv.precedes (⟨⟨.nzero, (f 2 0)⟩, .trv⟩ : DItv) (⟨⟨.ninf, .pinf⟩, .trv⟩ : DItv)),
    (1149, !DItv.rel Itv.precedes (⟨⟨.ninf, .pinf⟩, .trv⟩ : DItv) (⟨⟨(f 1 0), (f 2 0)⟩, .trv⟩ : DItv)),
    (1150, !DItv.rel Itv.precedes (⟨⟨.ninf, .pinf⟩, .trv⟩ : DItv) (⟨⟨.ninf, .pinf⟩, .trv⟩ : DItv)),
    (1152, DItv.rel Itv.precedes (⟨⟨(f 1 0), (f 2 0)⟩, .trv⟩ : DItv) (⟨⟨(f 3 0), (f 4 0)⟩, .trv⟩ : DItv)),
    (1153, DItv.rel Itv.precedes (⟨⟨(f 1 0), (f 3 0)⟩, .trv⟩ : DItv) (⟨⟨(f 3 0), (f 4 0)⟩, .trv⟩ : DItv)),
    (1154, DItv.rel Itv.precedes (⟨⟨(f (-3) (0)), (f (-1) (0))⟩, .trv⟩ : DItv) (⟨⟨(f (-1) (0)), (f 0 0)⟩, .defd⟩ : DItv)),
    (1155, DItv.rel Itv.precedes (⟨⟨(f (-3) (0)), (f (-1) (0))⟩, .trv⟩ : DItv) (⟨⟨(f (-1) (0)), .nzero⟩, .trv⟩ : DItv)),
    (1157, !DItv.rel Itv.precedes (⟨⟨(f 1 0), (f (7) (-1))⟩, .trv⟩ : DItv) (⟨⟨(f 3 0), (f 4 0)⟩, .trv⟩ : DItv)),
    (1158, !DItv.rel Itv.precedes (⟨⟨(f 1 0), (f 4 0)⟩, .defd⟩ : DItv) (⟨⟨(f 3 0), (f 4 0)⟩, .trv⟩ : DItv)),
    (1159, !DItv.rel Itv.precedes (⟨⟨(f (-3) (0)), (f (-3602879701896397) (-55))⟩, .trv⟩ : DItv) (⟨⟨(f (-1) (0)), (f 0 0)⟩, .trv⟩ : DItv)),
    (1161, DItv.rel Itv.precedes (⟨⟨(f 0 0), (f 0 0)⟩, .trv⟩ : DItv) (⟨⟨.nzero, .nzero⟩, .trv⟩ : DItv)),
    (1162, DItv.rel Itv.precedes (⟨⟨.nzero, .nzero⟩, .trv⟩ : DItv) (⟨⟨(f 0 0), (f 0 0)⟩, .trv⟩ : DItv)),
    (1163, DItv.rel Itv.precedes (⟨⟨.nzero, (f 0 0)⟩, .defd⟩ : DItv) (⟨⟨(f 0 0), (f 0 0)⟩, .defd⟩ : DItv)),
    (1164, DItv.rel Itv.precedes (⟨⟨.nzero, (f 0 0)⟩, .trv⟩ : DItv) (⟨⟨(f 0 0), .nzero⟩, .trv⟩ : DItv))] : List (ℕ × Bool)).all (·.2) = true := by
  decide +kernel

example : ([
    (1165, DItv.rel Itv.precedes (⟨⟨(f 0 0), .nzero⟩, .trv⟩ : DItv) (⟨⟨(f 0 0), (f 0 0)⟩, .trv⟩ : DItv)),
    (1166, DItv.rel Itv.precedes (⟨⟨(f 0 0), .nzero⟩, .trv⟩ : DItv) (⟨⟨.nzero, (f 0 0)⟩, .trv⟩ : DItv)),
    (1168, !DItv.rel Itv.precedes (⟨⟨.nan, .nan⟩, .ill⟩ : DItv) (⟨⟨(f 3 0), (f 4 0)⟩, .trv⟩ : DItv)),
    (1169, !DItv.rel Itv.precedes (⟨⟨(f 3 0), (f 4 0)⟩, .trv⟩ : DItv) (⟨⟨.nan, .nan⟩, .ill⟩ : DItv)),
    (1170, !DItv.rel Itv.precedes (⟨⟨.nan, .nan⟩, .trv⟩ : DItv) (⟨⟨.nan, .nan⟩, .ill⟩ : DItv)),
    (1171, !DItv.rel Itv.precedes (⟨⟨.nan, .nan⟩, .ill⟩ : DItv) (⟨⟨.nan, .nan⟩, .ill⟩ : DItv)),
    (1173, DItv.rel Itv.precedes (⟨⟨.nan, .nan⟩, .trv⟩ : DItv) (⟨⟨(f 3 0), (f 4 0)⟩, .trv⟩ : DItv)),
    (1174, DItv.rel Itv.precedes (⟨⟨(f 3 0), (f 4 0)⟩, .trv⟩ : DItv) (⟨⟨.nan, .nan⟩, .trv⟩ : DItv)),
    (1175, DItv.rel Itv.precedes (⟨⟨.nan, .nan⟩, .trv⟩ : DItv) (⟨⟨.nan, .nan⟩, .trv⟩ : DItv)),
    (1177, !DItv.rel Itv.precedes (⟨⟨(f 1 0), (f 2 0)⟩, .trv⟩ : DItv) (⟨⟨.ninf, .pinf⟩, .trv⟩ : DItv)),
    (1178, !DItv.rel Itv.precedes (⟨⟨(f 0 0), (f 2 0)⟩, .trv⟩ : DItv) (⟨⟨.ninf, .pinf⟩, .trv⟩ : DItv)),
    (1179, !DItv.rel Itv.precedes (⟨⟨.nzero, (f 2 0)⟩, .trv⟩ : DItv) (⟨⟨.ninf, .pinf⟩, .trv⟩ : DItv)),
    (1180, !DItv.rel Itv.precedes (⟨⟨.ninf, .pinf⟩, .trv⟩ : DItv) (⟨⟨(f 1 0), (f 2 0)⟩, .trv⟩ : DItv)),
    (1181, !DItv.rel Itv.precedes (⟨⟨.ninf, .pinf⟩, .trv⟩ : DItv) (⟨⟨.ninf, .pinf⟩, .trv⟩ : DItv)),
    (1183, DItv.rel Itv.precedes (⟨⟨(f 1 0), (f 2 0)⟩, .trv⟩ : DItv) (⟨⟨(f 3 0), (f 4 0)⟩, .trv⟩ : DItv)),
    (1184, DItv.rel Itv.precedes (⟨⟨(f 1 0), (f 3 0)⟩, .trv⟩ : DItv) (⟨⟨(f 3 0), (f 4 0)⟩, .defd⟩ : DItv)),
    (1185, DItv.rel Itv.precedes (⟨⟨(f (-3) (0)), (f (-1) (0))⟩, .defd⟩ : DItv) (⟨⟨(f (-1) (0)), (f 0 0)⟩, .trv⟩ : DItv)),
    (1186, DItv.rel Itv.precedes (⟨⟨(f (-3) (0)), (f (-1) (0))⟩, .defd⟩ : DItv) (⟨⟨(f (-1) (0)), .nzero⟩, .defd⟩ : DItv)),
    (1188, !DItv.rel Itv.precedes (⟨⟨(f 1 0), (f (7) (-1))⟩, .trv⟩ : DItv) (⟨⟨(f 3 0), (f 4 0)⟩, .trv⟩ : DItv)),
    (1189, !DItv.rel Itv.precedes (⟨⟨(f 1 0), (f 4 0)⟩, .trv⟩ : DItv) (⟨⟨(f 3 0), (f 4 0)⟩, .trv⟩ : DItv)),
    (1190, !DItv.rel Itv.precedes (⟨⟨(f (-3) (0)), (f (-13421773) (-27))⟩, .trv⟩ : DItv) (⟨⟨(f (-1) (0)), (f 0 0)⟩, .trv⟩ : DItv)),
    (1192, DItv.rel Itv.precedes (⟨⟨(f 0 0), (f 0 0)⟩, .trv⟩ : DItv) (⟨⟨.nzero, .nzero⟩, .trv⟩ : DItv)),
    (1193, DItv.rel Itv.precedes (⟨⟨.nzero, .nzero⟩, .defd⟩ : DItv) (⟨⟨(f 0 0), (f 0 0)⟩, .defd⟩ : DItv)),
    (1194, DItv.rel Itv.precedes (⟨⟨.nzero, (f 0 0)⟩, .trv⟩ : DItv) (⟨⟨(f 0 0), (f 0 0)⟩, .defd⟩ : DItv)),
    (1195, DItv.rel Itv.precedes (⟨⟨.nzero, (f 0 0)⟩, .trv⟩ : DItv) (⟨⟨(f 0 0), .nzero⟩, .trv⟩ : DItv)),
    (1196, DItv.rel Itv.precedes (⟨⟨(f 0 0), .nzero⟩, .trv⟩ : DItv) (⟨⟨(f 0 0), (f 0 0)⟩, .trv⟩ : DItv)),
    (1197, DItv.rel Itv.precedes (⟨⟨(f 0 0), .nzero⟩, .trv⟩ : DItv) (⟨⟨.nzero, (f 0 0)⟩, .trv⟩ : DItv)),
    (1202, !DItv.rel Itv.precedes (⟨⟨(f 1 0), (f (-4) (0))⟩, .defd⟩ : DItv) (⟨⟨(f 3 0), (f 4 0)⟩, .trv⟩ : DItv)),
    (1217, Itv.interior (⟨.nan, .nan⟩ : Itv) (⟨.nan, .nan⟩ : Itv)),
    (1218, Itv.interior (⟨.nan, .nan⟩ : Itv) (⟨(f 0 0), (f 4 0)⟩ : Itv)),
    (1219, !Itv.interior (⟨(f 0 0), (f 4 0)⟩ : Itv) (⟨.nan, .nan⟩ : Itv)),
    (1221, Itv.interior (⟨.ninf, .pinf⟩ : Itv) (⟨.ninf, .pinf⟩ : Itv)),
    (1222, Itv.interior (⟨(f 0 0), (f 4 0)⟩ : Itv) (⟨.ninf, .pinf⟩ : Itv)),
    (1223, Itv.interior (⟨.nan, .nan⟩ : Itv) (⟨.ninf, .pinf⟩ : Itv)),
    (1224, !Itv.interior (⟨.ninf, .pinf⟩ : Itv) (⟨(f 0 0), (f 4 0)⟩ : Itv)),
    (1226, !Itv.interior (⟨(f 0 0), (f 4 0)⟩ : Itv) (⟨(f 0 0), (f 4 0)⟩ : Itv)),
    (1227, Itv.interior (⟨(f 1 0), (f 2 0)⟩ : Itv) (⟨(f 0 0), (f 4 0)⟩ : Itv)),
    (1228, !Itv.interior (⟨(f (-2) (0)), (f 2 0)⟩ : Itv) (⟨(f (-2) (0)), (f 4 0)⟩ : Itv)),
    (1229, Itv.interior (⟨.nzero, .nzero⟩ : Itv) (⟨(f (-2) (0)), (f 4 0)⟩ : Itv)),
    (1230, Itv.interior (⟨(f 0 0), (f 0 0)⟩ : Itv) (⟨(f (-2) (0)), (f 4 0)⟩ : Itv)),
    (1231, !Itv.interior (⟨(f 0 0), (f 0 0)⟩ : Itv) (⟨.nzero, .nzero⟩ : Itv)),
    (1233, !Itv.interior (⟨(f 0 0), (f (2476979795053773) (-49))⟩ : Itv) (⟨(f 0 0), (f 4 0)⟩ : Itv)),
    (1234, !Itv.interior (⟨(f (-1) (0)), (f (-1) (0))⟩ : Itv) (⟨(f 0 0), (f 4 0)⟩ : Itv)),
    (1235, !Itv.interior (⟨(f 2 0), (f 2 0)⟩ : Itv) (⟨(f (-2) (0)), (f (-1) (0))⟩ : Itv)),
    (1240, !Itv.interior (⟨.nzero, (f (-1) (0))⟩ : Itv) (⟨(f (-2) (0)), (f 4 0)⟩ : Itv)),
    (1254, Itv.interior (⟨.nan, .nan⟩ : Itv) (⟨.nan, .nan⟩ : Itv)),
    (1255, Itv.interior (⟨.nan, .nan⟩ : Itv) (⟨(f 0 0), (f 4 0)⟩ : Itv)),
    (1256, !Itv.interior (⟨(f 0 0), (f 4 0)⟩ : Itv) (⟨.nan, .nan⟩ : Itv)),
    (1258, Itv.interior (⟨.ninf, .pinf⟩ : Itv) (⟨.ninf, .pinf⟩ : Itv)),
    (1259, Itv.interior (⟨(f 0 0), (f 4 0)⟩ : Itv) (⟨.ninf, .pinf⟩ : Itv))] : List (ℕ × Bool)).all (·.2) = true := by
  decide +kernel

example : ([
    (1260, Itv.interior (⟨.nan, .nan⟩ : Itv) (⟨.ninf, .pinf⟩ : Itv)),
    (1261, !Itv.interior (⟨.ninf, .pinf⟩ : Itv) (⟨(f 0 0), (f 4 0)⟩ : Itv)),
    (1263, !Itv.interior (⟨(f 0 0), (f 4 0)⟩ : Itv) (⟨(f 0 0), (f 4 0)⟩ : Itv)),
    (1264, Itv.interior (⟨(f 1 0), (f 2 0)⟩ : Itv) (⟨(f 0 0), (f 4 0)⟩ : Itv)),
    (1265, !Itv.interior (⟨(f (-2) (0)), (f 2 0)⟩ : Itv) (⟨(f (-2) (0)), (f 4 0)⟩ : Itv)),
    (1266, Itv.interior (⟨.nzero, .nzero⟩ : Itv) (⟨(f (-2) (0)), (f 4 0)⟩ : Itv)),
    (1267, Itv.interior (⟨(f 0 0), (f 0 0)⟩ : Itv) (⟨(f (-2) (0)), (f 4 0)⟩ : Itv)),
    (1268, !Itv.interior (⟨(f 0 0), (f 0 0)⟩ : Itv) (⟨.nzero, .nzero⟩ : Itv)),
    (1270, !Itv.interior (⟨(f 0 0), (f (2476979795053773) (-49))⟩ : Itv) (⟨(f 0 0), (f 4 0)⟩ : Itv)),
    (1271, !Itv.interior (⟨(f (-1) (0)), (f (-1) (0))⟩ : Itv) (⟨(f 0 0), (f 4 0)⟩ : Itv)),
    (1272, !Itv.interior (⟨(f 2 0), (f 2 0)⟩ : Itv) (⟨(f (-2) (0)), (f (-1) (0))⟩ : Itv)),
    (1274, Itv.interior (⟨.nan, .nan⟩ : Itv) (⟨.nan, .nan⟩ : Itv)),
    (1275, Itv.interior (⟨.nan, .nan⟩ : Itv) (⟨(f 0 0), (f 4 0)⟩ : Itv)),
    (1276, !Itv.interior (⟨(f 0 0), (f 4 0)⟩ : Itv) (⟨.nan, .nan⟩ : Itv)),
    (1278, Itv.interior (⟨.ninf, .pinf⟩ : Itv) (⟨.ninf, .pinf⟩ : Itv)),
    (1279, Itv.interior (⟨(f 0 0), (f 4 0)⟩ : Itv) (⟨.ninf, .pinf⟩ : Itv)),
    (1280, Itv.interior (⟨.nan, .nan⟩ : Itv) (⟨.ninf, .pinf⟩ : Itv)),
    (1281, !Itv.interior (⟨.ninf, .pinf⟩ : Itv) (⟨(f 0 0), (f 4 0)⟩ : Itv)),
    (1283, !Itv.interior (⟨(f 0 0), (f 4 0)⟩ : Itv) (⟨(f 0 0), (f 4 0)⟩ : Itv)),
    (1284, Itv.interior (⟨(f 1 0), (f 2 0)⟩ : Itv) (⟨(f 0 0), (f 4 0)⟩ : Itv)),
    (1285, !Itv.interior (⟨(f (-2) (0)), (f 2 0)⟩ : Itv) (⟨(f (-2) (0)), (f 4 0)⟩ : Itv)),
    (1286, Itv.interior (⟨.nzero, .nzero⟩ : Itv) (⟨(f (-2) (0)), (f 4 0)⟩ : Itv)),
    (1287, Itv.interior (⟨(f 0 0), (f 0 0)⟩ : Itv) (⟨(f (-2) (0)), (f 4 0)⟩ : Itv)),
    (1288, !Itv.interior (⟨(f 0 0), (f 0 0)⟩ : Itv) (⟨.nzero, .nzero⟩ : Itv)),
    (1290, !Itv.interior (⟨(f 0 0), (f (9227469) (-21))⟩ : Itv) (⟨(f 0 0), (f 4 0)⟩ : Itv)),
    (1291, !Itv.interior (⟨(f (-1) (0)), (f (-1) (0))⟩ : Itv) (⟨(f 0 0), (f 4 0)⟩ : Itv)),
    (1292, !Itv.interior (⟨(f 2 0), (f 2 0)⟩ : Itv) (⟨(f (-2) (0)), (f (-1) (0))⟩ : Itv)),
    (1297, !Itv.interior (⟨(f 1 0), (f (-1) (0))⟩ : Itv) (⟨(f 0 0), (f 4 0)⟩ : Itv)),
    (1312, !DItv.rel Itv.interior (⟨⟨.nan, .nan⟩, .ill⟩ : DItv) (⟨⟨.nan, .nan⟩, .ill⟩ : DItv)),
    (1313, !DItv.rel Itv.interior (⟨⟨.nan, .nan⟩, .ill⟩ : DItv) (⟨⟨.nan, .nan⟩, .trv⟩ : DItv)),
    (1314, !DItv.rel Itv.interior (⟨⟨.nan, .nan⟩, .ill⟩ : DItv) (⟨⟨(f 0 0), (f 4 0)⟩, .trv⟩ : DItv)),
    (1315, !DItv.rel Itv.interior (⟨⟨(f 0 0), (f 4 0)⟩, .defd⟩ : DItv) (⟨⟨.nan, .nan⟩, .ill⟩ : DItv)),
    (1317, DItv.rel Itv.interior (⟨⟨.nan, .nan⟩, .trv⟩ : DItv) (⟨⟨.nan, .nan⟩, .trv⟩ : DItv)),
    (1318, DItv.rel Itv.interior (⟨⟨.nan, .nan⟩, .trv⟩ : DItv) (⟨⟨(f 0 0), (f 4 0)⟩, .trv⟩ : DItv)),
    (1319, !DItv.rel Itv.interior (⟨⟨(f 0 0), (f 4 0)⟩, .trv⟩ : DItv) (⟨⟨.nan, .nan⟩, .trv⟩ : DItv)),
    (1321, DItv.rel Itv.interior (⟨⟨.ninf, .pinf⟩, .trv⟩ : DItv) (⟨⟨.ninf, .pinf⟩, .trv⟩ : DItv)),
    (1322, DItv.rel Itv.interior (⟨⟨(f 0 0), (f 4 0)⟩, .trv⟩ : DItv) (⟨⟨.ninf, .pinf⟩, .trv⟩ : DItv)),
    (1323, DItv.rel Itv.interior (⟨⟨.nan, .nan⟩, .trv⟩ : DItv) (⟨⟨.ninf, .pinf⟩, .trv⟩ : DItv)),
    (1324, !DItv.rel Itv.interior (⟨⟨.ninf, .pinf⟩, .trv⟩ : DItv) (⟨⟨(f 0 0), (f 4 0)⟩, .trv⟩ : DItv)),
    (1326, !DItv.rel Itv.interior (⟨⟨(f 0 0), (f 4 0)⟩, .trv⟩ : DItv) (⟨⟨(f 0 0), (f 4 0)⟩, .trv⟩ : DItv)),
    (1327, DItv.rel Itv.interior (⟨⟨(f 1 0), (f 2 0)⟩, .defd⟩ : DItv) (⟨⟨(f 0 0), (f 4 0)⟩, .trv⟩ : DItv)),
    (1328, !DItv.rel Itv.interior (⟨⟨(f (-2) (0)), (f 2 0)⟩, .trv⟩ : DItv) (⟨⟨(f (-2) (0)), (f 4 0)⟩, .defd⟩ : DItv)),
    (1329, DItv.rel Itv.interior (⟨⟨.nzero, .nzero⟩, .trv⟩ : DItv) (⟨⟨(f (-2) (0)), (f 4 0)⟩, .trv⟩ : DItv)),
    (1330, DItv.rel Itv.interior (⟨⟨(f 0 0), (f 0 0)⟩, .defd⟩ : DItv) (⟨⟨(f (-2) (0)), (f 4 0)⟩, .trv⟩ : DItv)),
    (1331, !DItv.rel Itv.interior (⟨⟨(f 0 0), (f 0 0)⟩, .trv⟩ : DItv) (⟨⟨.nzero, .nzero⟩, .trv⟩ : DItv)),
    (1333, !DItv.rel Itv.interior (⟨⟨(f 0 0), (f (2476979795053773) (-49))⟩, .trv⟩ : DItv) (⟨⟨(f 0 0), (f 4 0)⟩, .trv⟩ : DItv)),
    (1334, !DItv.rel Itv.interior (⟨⟨(f (-1) (0)), (f (-1) (0))⟩, .trv⟩ : DItv) (⟨⟨(f 0 0), (f 4 0)⟩, .defd⟩ : DItv)),
    (1335, !DItv.rel Itv.interior (⟨⟨(f 2 0), (f 2 0)⟩, .defd⟩ : DItv) (⟨⟨(f (-2) (0)), (f (-1) (0))⟩, .trv⟩ : DItv)),
    (1340, !DItv.rel Itv.interior (⟨⟨(f (-2) (0)), (f (-14) (0))⟩, .trv⟩ : DItv) (⟨⟨(f (-2) (0)), (f 4 0)⟩, .defd⟩ : DItv)),
    (1354, !DItv.rel Itv.interior (⟨⟨.nan, .nan⟩, .ill⟩ : DItv) (⟨⟨.nan, .nan⟩, .ill⟩ : DItv))] : List (ℕ × Bool)).all (·.2) = true := by
  decide +kernel

example : ([
    (1355, !DItv.rel Itv.interior (⟨⟨.nan, .nan⟩, .trv⟩ : DItv) (⟨⟨.nan, .nan⟩, .ill⟩ : DItv)),
    (1356, !DItv.rel Itv.interior (⟨⟨.nan, .nan⟩, .ill⟩ : DItv) (⟨⟨(f 0 0), (f 4 0)⟩, .trv⟩ : DItv)),
    (1357, !DItv.rel Itv.interior (⟨⟨(f 0 0), (f 4 0)⟩, .trv⟩ : DItv) (⟨⟨.nan, .nan⟩, .ill⟩ : DItv)),
    (1359, DItv.rel Itv.interior (⟨⟨.nan, .nan⟩, .trv⟩ : DItv) (⟨⟨.nan, .nan⟩, .trv⟩ : DItv)),
    (1360, DItv.rel Itv.interior (⟨⟨.nan, .nan⟩, .trv⟩ : DItv) (⟨⟨(f 0 0), (f 4 0)⟩, .trv⟩ : DItv)),
    (1361, !DItv.rel Itv.interior (⟨⟨(f 0 0), (f 4 0)⟩, .trv⟩ : DItv) (⟨⟨.nan, .nan⟩, .trv⟩ : DItv)),
    (1363, DItv.rel Itv.interior (⟨⟨.ninf, .pinf⟩, .trv⟩ : DItv) (⟨⟨.ninf, .pinf⟩, .trv⟩ : DItv)),
    (1364, DItv.rel Itv.interior (⟨⟨(f 0 0), (f 4 0)⟩, .trv⟩ : DItv) (⟨⟨.ninf, .pinf⟩, .trv⟩ : DItv)),
    (1365, DItv.rel Itv.interior (⟨⟨.nan, .nan⟩, .trv⟩ : DItv) (⟨⟨.ninf, .pinf⟩, .trv⟩ : DItv)),
    (1366, !DItv.rel Itv.interior (⟨⟨.ninf, .pinf⟩, .trv⟩ : DItv) (⟨⟨(f 0 0), (f 4 0)⟩, .trv⟩ : DItv)),
    (1368, !DItv.rel Itv.interior (⟨⟨(f 0 0), (f 4 0)⟩, .trv⟩ : DItv) (⟨⟨(f 0 0), (f 4 0)⟩, .trv⟩ : DItv)),
    (1369, DItv.rel Itv.interior (⟨⟨(f 1 0), (f 2 0)⟩, .defd⟩ : DItv) (⟨⟨(f 0 0), (f 4 0)⟩, .trv⟩ : DItv)),
    (1370, !DItv.rel Itv.interior (⟨⟨(f (-2) (0)), (f 2 0)⟩, .trv⟩ : DItv) (⟨⟨(f (-2) (0)), (f 4 0)⟩, .defd⟩ : DItv)),
    (1371, DItv.rel Itv.interior (⟨⟨.nzero, .nzero⟩, .trv⟩ : DItv) (⟨⟨(f (-2) (0)), (f 4 0)⟩, .trv⟩ : DItv)),
    (1372, DItv.rel Itv.interior (⟨⟨(f 0 0), (f 0 0)⟩, .defd⟩ : DItv) (⟨⟨(f (-2) (0)), (f 4 0)⟩, .trv⟩ : DItv)),
    (1373, !DItv.rel Itv.interior (⟨⟨(f 0 0), (f 0 0)⟩, .trv⟩ : DItv) (⟨⟨.nzero, .nzero⟩, .trv⟩ : DItv)),
    (1375, !DItv.rel Itv.interior (⟨⟨(f 0 0), (f (2476979795053773) (-49))⟩, .trv⟩ : DItv) (⟨⟨(f 0 0), (f 4 0)⟩, .trv⟩ : DItv)),
    (1376, !DItv.rel Itv.interior (⟨⟨(f (-1) (0)), (f (-1) (0))⟩, .defd⟩ : DItv) (⟨⟨(f 0 0), (f 4 0)⟩, .defd⟩ : DItv)),
    (1377, !DItv.rel Itv.interior (⟨⟨(f 2 0), (f 2 0)⟩, .trv⟩ : DItv) (⟨⟨(f (-2) (0)), (f (-1) (0))⟩, .trv⟩ : DItv)),
    (1379, !DItv.rel Itv.interior (⟨⟨.nan, .nan⟩, .ill⟩ : DItv) (⟨⟨.nan, .nan⟩, .ill⟩ : DItv)),
    (1380, !DItv.rel Itv.interior (⟨⟨.nan, .nan⟩, .ill⟩ : DItv) (⟨⟨.nan, .nan⟩, .trv⟩ : DItv)),
    (1381, !DItv.rel Itv.interior (⟨⟨.nan, .nan⟩, .ill⟩ : DItv) (⟨⟨(f 0 0), (f 4 0)⟩, .trv⟩ : DItv)),
    (1382, !DItv.rel Itv.interior (⟨⟨(f 0 0), (f 4 0)⟩, .trv⟩ : DItv) (⟨⟨.nan, .nan⟩, .ill⟩ : DItv)),
    (1384, DItv.rel Itv.interior (⟨⟨.nan, .nan⟩, .trv⟩ : DItv) (⟨⟨.nan, .nan⟩, .trv⟩ : DItv)),
    (1385, DItv.rel Itv.interior (⟨⟨.nan, .nan⟩, .trv⟩ : DItv) (⟨⟨(f 0 0), (f 4 0)⟩, .trv⟩ : DItv)),
    (1386, !DItv.rel Itv.interior (⟨⟨(f 0 0), (f 4 0)⟩, .defd⟩ : DItv) (⟨⟨.nan, .nan⟩, .trv⟩ : DItv)),
    (1388, DItv.rel Itv.interior (⟨⟨.ninf, .pinf⟩, .trv⟩ : DItv) (⟨⟨.ninf, .pinf⟩, .trv⟩ : DItv)),
    (1389, DItv.rel Itv.interior (⟨⟨(f 0 0), (f 4 0)⟩, .trv⟩ : DItv) (⟨⟨.ninf, .pinf⟩, .trv⟩ : DItv)),
    (1390, DItv.rel Itv.interior (⟨⟨.nan, .nan⟩, .trv⟩ : DItv) (⟨⟨.ninf, .pinf⟩, .trv⟩ : DItv)),
    (1391, !DItv.rel Itv.interior (⟨⟨.ninf, .pinf⟩, .trv⟩ : DItv) (⟨⟨(f 0 0), (f 4 0)⟩, .trv⟩ : DItv)),
    (1393, !DItv.rel Itv.interior (⟨⟨(f 0 0), (f 4 0)⟩, .trv⟩ : DItv) (⟨⟨(f 0 0), (f 4 0)⟩, .trv⟩ : DItv)),
    (1394, DItv.rel Itv.interior (⟨⟨(f 1 0), (f 2 0)⟩, .defd⟩ : DItv) (⟨⟨(f 0 0), (f 4 0)⟩, .defd⟩ : DItv)),
    (1395, !DItv.rel Itv.interior (⟨⟨(f (-2) (0)), (f 2 0)⟩, .trv⟩ : DItv) (⟨⟨(f (-2) (0)), (f 4 0)⟩, .defd⟩ : DItv)),
    (1396, DItv.rel Itv.interior (⟨⟨.nzero, .nzero⟩, .trv⟩ : DItv) (⟨⟨(f (-2) (0)), (f 4 0)⟩, .trv⟩ : DItv)),
    (1397, DItv.rel Itv.interior (⟨⟨(f 0 0), (f 0 0)⟩, .trv⟩ : DItv) (⟨⟨(f (-2) (0)), (f 4 0)⟩, .trv⟩ : DItv)),
    (1398, !DItv.rel Itv.interior (⟨⟨(f 0 0), (f 0 0)⟩, .trv⟩ : DItv) (⟨⟨.nzero, .nzero⟩, .trv⟩ : DItv)),
    (1400, !DItv.rel Itv.interior (⟨⟨(f 0 0), (f (9227469) (-21))⟩, .trv⟩ : DItv) (⟨⟨(f 0 0), (f 4 0)⟩, .trv⟩ : DItv)),
    (1401, !DItv.rel Itv.interior (⟨⟨(f (-1) (0)), (f (-1) (0))⟩, .trv⟩ : DItv) (⟨⟨(f 0 0), (f 4 0)⟩, .trv⟩ : DItv)),
    (1402, !DItv.rel Itv.interior (⟨⟨(f 2 0), (f 2 0)⟩, .trv⟩ : DItv) (⟨⟨(f (-2) (0)), (f (-1) (0))⟩, .trv⟩ : DItv)),
    (1407, !DItv.rel Itv.interior (⟨⟨(f 0 0), (f 4 0)⟩, .trv⟩ : DItv) (⟨⟨.nan, .nan⟩, .com⟩ : DItv)),
    (1422, Itv.strictlyLess (⟨.nan, .nan⟩ : Itv) (⟨.nan, .nan⟩ : Itv)),
    (1423, !Itv.strictlyLess (⟨(f 1 0), (f 2 0)⟩ : Itv) (⟨.nan, .nan⟩ : Itv)),
    (1424, !Itv.strictlyLess (⟨.nan, .nan⟩ : Itv) (⟨(f 1 0), (f 2 0)⟩ : Itv)),
    (1426, Itv.strictlyLess (⟨.ninf, .pinf⟩ : Itv) (⟨.ninf, .pinf⟩ : Itv)),
    (1427, !Itv.strictlyLess (⟨(f 1 0), (f 2 0)⟩ : Itv) (⟨.ninf, .pinf⟩ : Itv)),
    (1428, !Itv.strictlyLess (⟨.ninf, .pinf⟩ : Itv) (⟨(f 1 0), (f 2 0)⟩ : Itv)),
    (1430, !Itv.strictlyLess (⟨(f 1 0), (f 2 0)⟩ : Itv) (⟨(f 1 0), (f 2 0)⟩ : Itv)),
    (1431, Itv.strictlyLess (⟨(f 1 0), (f 2 0)⟩ : Itv) (⟨(f 3 0), (f 4 0)⟩ : Itv)),
    (1432, Itv.strictlyLess (⟨(f 1 0), (f (7) (-1))⟩ : Itv) (⟨(f 3 0), (f 4 0)⟩ : Itv)),
    (1433, !Itv.strictlyLess (⟨(f 1 0), (f 4 0)⟩ : Itv) (⟨(f 3 0), (f 4 0)⟩ : Itv))] : List (ℕ × Bool)).all (·.2) = true := by
  decide +kernel

example : ([
    (1434, !Itv.strictlyLess (⟨(f 0 0), (f 4 0)⟩ : Itv) (⟨(f 0 0), (f 4 0)⟩ : Itv)),
    (1435, !Itv.strictlyLess (⟨.nzero, (f 4 0)⟩ : Itv) (⟨(f 0 0), (f 4 0)⟩ : Itv)),
    (1437, !Itv.strictlyLess (⟨(f (-2) (0)), (f (-1) (0))⟩ : Itv) (⟨(f (-2) (0)), (f (-1) (0))⟩ : Itv)),
    (1438, Itv.strictlyLess (⟨(f (-3) (0)), (f (-3) (-1))⟩ : Itv) (⟨(f (-2) (0)), (f (-1) (0))⟩ : Itv)),
    (1443, !Itv.strictlyLess (⟨(f 1 0), (f 4 0)⟩ : Itv) (⟨(f 3 0), (f (-4) (0))⟩ : Itv)),
    (1457, Itv.strictlyLess (⟨.nan, .nan⟩ : Itv) (⟨.nan, .nan⟩ : Itv)),
    (1458, !Itv.strictlyLess (⟨(f 1 0), (f 2 0)⟩ : Itv) (⟨.nan, .nan⟩ : Itv)),
    (1459, !Itv.strictlyLess (⟨.nan, .nan⟩ : Itv) (⟨(f 1 0), (f 2 0)⟩ : Itv)),
    (1461, Itv.strictlyLess (⟨.ninf, .pinf⟩ : Itv) (⟨.ninf, .pinf⟩ : Itv)),
    (1462, !Itv.strictlyLess (⟨(f 1 0), (f 2 0)⟩ : Itv) (⟨.ninf, .pinf⟩ : Itv)),
    (1463, !Itv.strictlyLess (⟨.ninf, .pinf⟩ : Itv) (⟨(f 1 0), (f 2 0)⟩ : Itv)),
    (1465, !Itv.strictlyLess (⟨(f 1 0), (f 2 0)⟩ : Itv) (⟨(f 1 0), (f 2 0)⟩ : Itv)),
    (1466, Itv.strictlyLess (⟨(f 1 0), (f 2 0)⟩ : Itv) (⟨(f 3 0), (f 4 0)⟩ : Itv)),
    (1467, Itv.strictlyLess (⟨(f 1 0), (f (7) (-1))⟩ : Itv) (⟨(f 3 0), (f 4 0)⟩ : Itv)),
    (1468, !Itv.strictlyLess (⟨(f 1 0), (f 4 0)⟩ : Itv) (⟨(f 3 0), (f 4 0)⟩ : Itv)),
    (1469, !Itv.strictlyLess (⟨(f 0 0), (f 4 0)⟩ : Itv) (⟨(f 0 0), (f 4 0)⟩ : Itv)),
    (1470, !Itv.strictlyLess (⟨.nzero, (f 4 0)⟩ : Itv) (⟨(f 0 0), (f 4 0)⟩ : Itv)),
    (1472, !Itv.strictlyLess (⟨(f (-2) (0)), (f (-1) (0))⟩ : Itv) (⟨(f (-2) (0)), (f (-1) (0))⟩ : Itv)),
    (1473, Itv.strictlyLess (⟨(f (-3) (0)), (f (-3) (-1))⟩ : Itv) (⟨(f (-2) (0)), (f (-1) (0))⟩ : Itv)),
    (1475, Itv.strictlyLess (⟨.nan, .nan⟩ : Itv) (⟨.nan, .nan⟩ : Itv)),
    (1476, !Itv.strictlyLess (⟨(f 1 0), (f 2 0)⟩ : Itv) (⟨.nan, .nan⟩ : Itv)),
    (1477, !Itv.strictlyLess (⟨.nan, .nan⟩ : Itv) (⟨(f 1 0), (f 2 0)⟩ : Itv)),
    (1479, Itv.strictlyLess (⟨.ninf, .pinf⟩ : Itv) (⟨.ninf, .pinf⟩ : Itv)),
    (1480, !Itv.strictlyLess (⟨(f 1 0), (f 2 0)⟩ : Itv) (⟨.ninf, .pinf⟩ : Itv)),
    (1481, !Itv.strictlyLess (⟨.ninf, .pinf⟩ : Itv) (⟨(f 1 0), (f 2 0)⟩ : Itv)),
    (1483, !Itv.strictlyLess (⟨(f 1 0), (f 2 0)⟩ : Itv) (⟨(f 1 0), (f 2 0)⟩ : Itv)),
    (1484, Itv.strictlyLess (⟨(f 1 0), (f 2 0)⟩ : Itv) (⟨(f 3 0), (f 4 0)⟩ : Itv)),
    (1485, Itv.strictlyLess (⟨(f 1 0), (f (7) (-1))⟩ : Itv) (⟨(f 3 0), (f 4 0)⟩ : Itv)),
    (1486, !Itv.strictlyLess (⟨(f 1 0), (f 4 0)⟩ : Itv) (⟨(f 3 0), (f 4 0)⟩ : Itv)),
    (1487, !Itv.strictlyLess (⟨(f 0 0), (f 4 0)⟩ : Itv) (⟨(f 0 0), (f 4 0)⟩ : Itv)),
    (1488, !Itv.strictlyLess (⟨.nzero, (f 4 0)⟩ : Itv) (⟨(f 0 0), (f 4 0)⟩ : Itv)),
    (1490, !Itv.strictlyLess (⟨(f (-2) (0)), (f (-1) (0))⟩ : Itv) (⟨(f (-2) (0)), (f (-1) (0))⟩ : Itv)),
    (1491, Itv.strictlyLess (⟨(f (-3) (0)), (f (-3) (-1))⟩ : Itv) (⟨(f (-2) (0)), (f (-1) (0))⟩ : Itv)),
    (1496, !Itv.strictlyLess (⟨(f 1 0), (f (7) (-1))⟩ : Itv) (⟨(f 3 0), (f (-4) (0))⟩ : Itv)),
    (1511, !DItv.rel Itv.strictlyLess (⟨⟨.nan, .nan⟩, .ill⟩ : DItv) (⟨⟨.nan, .nan⟩, .ill⟩ : DItv)),
    (1512, !DItv.rel Itv.strictlyLess (⟨⟨.nan, .nan⟩, .trv⟩ : DItv) (⟨⟨.nan, .nan⟩, .ill⟩ : DItv)),
    (1513, !DItv.rel Itv.strictlyLess (⟨⟨(f 1 0), (f 2 0)⟩, .trv⟩ : DItv) (⟨⟨.nan, .nan⟩, .ill⟩ : DItv)),
    (1514, !DItv.rel Itv.strictlyLess (⟨⟨.nan, .nan⟩, .ill⟩ : DItv) (⟨⟨(f 1 0), (f 2 0)⟩, .defd⟩ : DItv)),
    (1516, DItv.rel Itv.strictlyLess (⟨⟨.nan, .nan⟩, .trv⟩ : DItv) (⟨⟨.nan, .nan⟩, .trv⟩ : DItv)),
    (1517, !DItv.rel Itv.strictlyLess (⟨⟨(f 1 0), (f 2 0)⟩, .defd⟩ : DItv) (⟨⟨.nan, .nan⟩, .trv⟩ : DItv)),
    (1518, !DItv.rel Itv.strictlyLess (⟨⟨.nan, .nan⟩, .trv⟩ : DItv) (⟨⟨(f 1 0), (f 2 0)⟩, .defd⟩ : DItv)),
    (1520, DItv.rel Itv.strictlyLess (⟨⟨.ninf, .pinf⟩, .trv⟩ : DItv) (⟨⟨.ninf, .pinf⟩, .trv⟩ : DItv)),
    (1521, !DItv.rel Itv.strictlyLess (⟨⟨(f 1 0), (f 2 0)⟩, .trv⟩ : DItv) (⟨⟨.ninf, .pinf⟩, .trv⟩ : DItv)),
    (1522, !DItv.rel Itv.strictlyLess (⟨⟨.ninf, .pinf⟩, .trv⟩ : DItv) (⟨⟨(f 1 0), (f 2 0)⟩, .trv⟩ : DItv)),
    (1524, !DItv.rel Itv.strictlyLess (⟨⟨(f 1 0), (f 2 0)⟩, .trv⟩ : DItv) (⟨⟨(f 1 0), (f 2 0)⟩, .trv⟩ : DItv)),
    (1525, DItv.rel Itv.strictlyLess (⟨⟨(f 1 0), (f 2 0)⟩, .trv⟩ : DItv) (⟨⟨(f 3 0), (f 4 0)⟩, .trv⟩ : DItv)),
    (1526, DItv.rel Itv.strictlyLess (⟨⟨(f 1 0), (f (7) (-1))⟩, .defd⟩ : DItv) (⟨⟨(f 3 0), (f 4 0)⟩, .trv⟩ : DItv)),
    (1527, !DItv.rel Itv.strictlyLess (⟨⟨(f 1 0), (f 4 0)⟩, .trv⟩ : DItv) (⟨⟨(f 3 0), (f 4 0)⟩, .defd⟩ : DItv)),
    (1528, !DItv.rel Itv.strictlyLess (⟨⟨(f 0 0), (f 4 0)⟩, .trv⟩ : DItv) (⟨⟨(f 0 0), (f 4 0)⟩, .defd⟩ : DItv)),
    (1529, !DItv.rel Itv.strictlyLess (⟨⟨.nzero, (f 4 0)⟩, .defd⟩ : DItv) (⟨⟨(f 0 0), (f 4 0)⟩, .trv⟩ : DItv))] : List (ℕ × Bool)).all (·.2) = true := by
  decide +kernel

example : ([
    (1531, !DItv.rel Itv.strictlyLess (⟨⟨(f (-2) (0)), (f (-1) (0))⟩, .defd⟩ : DItv) (⟨⟨(f (-2) (0)), (f (-1) (0))⟩, .defd⟩ : DItv)),
    (1532, DItv.rel Itv.strictlyLess (⟨⟨(f (-3) (0)), (f (-3) (-1))⟩, .trv⟩ : DItv) (⟨⟨(f (-2) (0)), (f (-1) (0))⟩, .trv⟩ : DItv)),
    (1537, !DItv.rel Itv.strictlyLess (⟨⟨(f 1 0), (f 2 0)⟩, .trv⟩ : DItv) (⟨⟨(f 3 0), (f (-4) (0))⟩, .trv⟩ : DItv)),
    (1551, !DItv.rel Itv.strictlyLess (⟨⟨.nan, .nan⟩, .ill⟩ : DItv) (⟨⟨.nan, .nan⟩, .ill⟩ : DItv)),
    (1552, !DItv.rel Itv.strictlyLess (⟨⟨.nan, .nan⟩, .ill⟩ : DItv) (⟨⟨.nan, .nan⟩, .trv⟩ : DItv)),
    (1553, !DItv.rel Itv.strictlyLess (⟨⟨(f 1 0), (f 2 0)⟩, .trv⟩ : DItv) (⟨⟨.nan, .nan⟩, .ill⟩ : DItv)),
    (1554, !DItv.rel Itv.strictlyLess (⟨⟨.nan, .nan⟩, .ill⟩ : DItv) (⟨⟨(f 1 0), (f 2 0)⟩, .trv⟩ : DItv)),
    (1556, DItv.rel Itv.strictlyLess (⟨⟨.nan, .nan⟩, .trv⟩ : DItv) (⟨⟨.nan, .nan⟩, .trv⟩ : DItv)),
    (1557, !DItv.rel Itv.strictlyLess (⟨⟨(f 1 0), (f 2 0)⟩, .trv⟩ : DItv) (⟨⟨.nan, .nan⟩, .trv⟩ : DItv)),
    (1558, !DItv.rel Itv.strictlyLess (⟨⟨.nan, .nan⟩, .trv⟩ : DItv) (⟨⟨(f 1 0), (f 2 0)⟩, .defd⟩ : DItv)),
    (1560, DItv.rel Itv.strictlyLess (⟨⟨.ninf, .pinf⟩, .trv⟩ : DItv) (⟨⟨.ninf, .pinf⟩, .trv⟩ : DItv)),
    (1561, !DItv.rel Itv.strictlyLess (⟨⟨(f 1 0), (f 2 0)⟩, .trv⟩ : DItv) (⟨⟨.ninf, .pinf⟩, .trv⟩ : DItv)),
    (1562, !DItv.rel Itv.strictlyLess (⟨⟨.ninf, .pinf⟩, .trv⟩ : DItv) (⟨⟨(f 1 0), (f 2 0)⟩, .trv⟩ : DItv)),
    (1564, !DItv.rel Itv.strictlyLess (⟨⟨(f 1 0), (f 2 0)⟩, .defd⟩ : DItv) (⟨⟨(f 1 0), (f 2 0)⟩, .defd⟩ : DItv)),
    (1565, DItv.rel Itv.strictlyLess (⟨⟨(f 1 0), (f 2 0)⟩, .trv⟩ : DItv) (⟨⟨(f 3 0), (f 4 0)⟩, .trv⟩ : DItv)),
    (1566, DItv.rel Itv.strictlyLess (⟨⟨(f 1 0), (f (7) (-1))⟩, .defd⟩ : DItv) (⟨⟨(f 3 0), (f 4 0)⟩, .trv⟩ : DItv)),
    (1567, !DItv.rel Itv.strictlyLess (⟨⟨(f 1 0), (f 4 0)⟩, .trv⟩ : DItv) (⟨⟨(f 3 0), (f 4 0)⟩, .trv⟩ : DItv)),
    (1568, !DItv.rel Itv.strictlyLess (⟨⟨(f 0 0), (f 4 0)⟩, .trv⟩ : DItv) (⟨⟨(f 0 0), (f 4 0)⟩, .trv⟩ : DItv)),
    (1569, !DItv.rel Itv.strictlyLess (⟨⟨.nzero, (f 4 0)⟩, .trv⟩ : DItv) (⟨⟨(f 0 0), (f 4 0)⟩, .trv⟩ : DItv)),
    (1571, !DItv.rel Itv.strictlyLess (⟨⟨(f (-2) (0)), (f (-1) (0))⟩, .trv⟩ : DItv) (⟨⟨(f (-2) (0)), (f (-1) (0))⟩, .trv⟩ : DItv)),
    (1572, DItv.rel Itv.strictlyLess (⟨⟨(f (-3) (0)), (f (-3) (-1))⟩, .trv⟩ : DItv) (⟨⟨(f (-2) (0)), (f (-1) (0))⟩, .trv⟩ : DItv)),
    (1574, !DItv.rel Itv.strictlyLess (⟨⟨.nan, .nan⟩, .ill⟩ : DItv) (⟨⟨.nan, .nan⟩, .ill⟩ : DItv)),
    (1575, !DItv.rel Itv.strictlyLess (⟨⟨.nan, .nan⟩, .ill⟩ : DItv) (⟨⟨.nan, .nan⟩, .trv⟩ : DItv)),
    (1576, !DItv.rel Itv.strictlyLess (⟨⟨(f 1 0), (f 2 0)⟩, .defd⟩ : DItv) (⟨⟨.nan, .nan⟩, .ill⟩ : DItv)),
    (1577, !DItv.rel Itv.strictlyLess (⟨⟨.nan, .nan⟩, .ill⟩ : DItv) (⟨⟨(f 1 0), (f 2 0)⟩, .trv⟩ : DItv)),
    (1579, DItv.rel Itv.strictlyLess (⟨⟨.nan, .nan⟩, .trv⟩ : DItv) (⟨⟨.nan, .nan⟩, .trv⟩ : DItv)),
    (1580, !DItv.rel Itv.strictlyLess (⟨⟨(f 1 0), (f 2 0)⟩, .trv⟩ : DItv) (⟨⟨.nan, .nan⟩, .trv⟩ : DItv)),
    (1581, !DItv.rel Itv.strictlyLess (⟨⟨.nan, .nan⟩, .trv⟩ : DItv) (⟨⟨(f 1 0), (f 2 0)⟩, .trv⟩ : DItv)),
    (1583, DItv.rel Itv.strictlyLess (⟨⟨.ninf, .pinf⟩, .trv⟩ : DItv) (⟨⟨.ninf, .pinf⟩, .trv⟩ : DItv)),
    (1584, !DItv.rel Itv.strictlyLess (⟨⟨(f 1 0), (f 2 0)⟩, .trv⟩ : DItv) (⟨⟨.ninf, .pinf⟩, .trv⟩ : DItv)),
    (1585, !DItv.rel Itv.strictlyLess (⟨⟨.ninf, .pinf⟩, .trv⟩ : DItv) (⟨⟨(f 1 0), (f 2 0)⟩, .trv⟩ : DItv)),
    (1587, !DItv.rel Itv.strictlyLess (⟨⟨(f 1 0), (f 2 0)⟩, .trv⟩ : DItv) (⟨⟨(f 1 0), (f 2 0)⟩, .trv⟩ : DItv)),
    (1588, DItv.rel Itv.strictlyLess (⟨⟨(f 1 0), (f 2 0)⟩, .defd⟩ : DItv) (⟨⟨(f 3 0), (f 4 0)⟩, .trv⟩ : DItv)),
    (1589, DItv.rel Itv.strictlyLess (⟨⟨(f 1 0), (f (7) (-1))⟩, .trv⟩ : DItv) (⟨⟨(f 3 0), (f 4 0)⟩, .trv⟩ : DItv)),
    (1590, !DItv.rel Itv.strictlyLess (⟨⟨(f 1 0), (f 4 0)⟩, .trv⟩ : DItv) (⟨⟨(f 3 0), (f 4 0)⟩, .defd⟩ : DItv)),
    (1591, !DItv.rel Itv.strictlyLess (⟨⟨(f 0 0), (f 4 0)⟩, .trv⟩ : DItv) (⟨⟨(f 0 0), (f 4 0)⟩, .trv⟩ : DItv)),
    (1592, !DItv.rel Itv.strictlyLess (⟨⟨.nzero, (f 4 0)⟩, .trv⟩ : DItv) (⟨⟨(f 0 0), (f 4 0)⟩, .trv⟩ : DItv)),
    (1594, !DItv.rel Itv.strictlyLess (⟨⟨(f (-2) (0)), (f (-1) (0))⟩, .trv⟩ : DItv) (⟨⟨(f (-2) (0)), (f (-1) (0))⟩, .trv⟩ : DItv)),
    (1595, DItv.rel Itv.strictlyLess (⟨⟨(f (-3) (0)), (f (-3) (-1))⟩, .trv⟩ : DItv) (⟨⟨(f (-2) (0)), (f (-1) (0))⟩, .trv⟩ : DItv)),
    (1600, !DItv.rel Itv.strictlyLess (⟨⟨.ninf, .pinf⟩, .trv⟩ : DItv) (⟨⟨.ninf, .pinf⟩, .com⟩ : DItv)),
    (1616, Itv.strictlyPrecedes (⟨.nan, .nan⟩ : Itv) (⟨(f 3 0), (f 4 0)⟩ : Itv)),
    (1617, Itv.strictlyPrecedes (⟨(f 3 0), (f 4 0)⟩ : Itv) (⟨.nan, .nan⟩ : Itv)),
    (1618, Itv.strictlyPrecedes (⟨.nan, .nan⟩ : Itv) (⟨.nan, .nan⟩ : Itv)),
    (1621, !Itv.strictlyPrecedes (⟨(f 1 0), (f 2 0)⟩ : Itv) (⟨.ninf, .pinf⟩ : Itv)),
    (1622, !Itv.strictlyPrecedes (⟨.ninf, .pinf⟩ : Itv) (⟨(f 1 0), (f 2 0)⟩ : Itv)),
    (1623, !Itv.strictlyPrecedes (⟨.ninf, .pinf⟩ : Itv) (⟨.ninf, .pinf⟩ : Itv)),
    (1625, Itv.strictlyPrecedes (⟨(f 1 0), (f 2 0)⟩ : Itv) (⟨(f 3 0), (f 4 0)⟩ : Itv)),
    (1626, !Itv.strictlyPrecedes (⟨(f 1 0), (f 3 0)⟩ : Itv) (⟨(f 3 0), (f 4 0)⟩ : Itv)),
    (1627, !Itv.strictlyPrecedes (⟨(f (-3) (0)), (f (-1) (0))⟩ : Itv) (⟨(f (-1) (0)), (f 0 0)⟩ : Itv)),
    (1628, !Itv.strictlyPrecedes (⟨(f (-3) (0)), .nzero⟩ : Itv) (⟨(f 0 0), (f 1 0)⟩ : Itv))] : List (ℕ × Bool)).all (·.2) = true := by
  decide +kernel

example : ([
    (1629, !Itv.strictlyPrecedes (⟨(f (-3) (0)), (f 0 0)⟩ : Itv) (⟨.nzero, (f 1 0)⟩ : Itv)),
    (1631, !Itv.strictlyPrecedes (⟨(f 1 0), (f (7) (-1))⟩ : Itv) (⟨(f 3 0), (f 4 0)⟩ : Itv)),
    (1632, !Itv.strictlyPrecedes (⟨(f 1 0), (f 4 0)⟩ : Itv) (⟨(f 3 0), (f 4 0)⟩ : Itv)),
    (1633, !Itv.strictlyPrecedes (⟨(f (-3) (0)), (f (-3602879701896397) (-55))⟩ : Itv) (⟨(f (-1) (0)), (f 0 0)⟩ : Itv)),
    (1638, !Itv.strictlyPrecedes (⟨(f 1 0), (f 3 0)⟩ : Itv) (⟨(f 3 0), (f (-4) (0))⟩ : Itv)),
    (1653, Itv.strictlyPrecedes (⟨.nan, .nan⟩ : Itv) (⟨(f 3 0), (f 4 0)⟩ : Itv)),
    (1654, Itv.strictlyPrecedes (⟨(f 3 0), (f 4 0)⟩ : Itv) (⟨.nan, .nan⟩ : Itv)),
    (1655, Itv.strictlyPrecedes (⟨.nan, .nan⟩ : Itv) (⟨.nan, .nan⟩ : Itv)),
    (1658, !Itv.strictlyPrecedes (⟨(f 1 0), (f 2 0)⟩ : Itv) (⟨.ninf, .pinf⟩ : Itv)),
    (1659, !Itv.strictlyPrecedes (⟨.ninf, .pinf⟩ : Itv) (⟨(f 1 0), (f 2 0)⟩ : Itv)),
    (1660, !Itv.strictlyPrecedes (⟨.ninf, .pinf⟩ : Itv) (⟨.ninf, .pinf⟩ : Itv)),
    (1662, Itv.strictlyPrecedes (⟨(f 1 0), (f 2 0)⟩ : Itv) (⟨(f 3 0), (f 4 0)⟩ : Itv)),
    (1663, !Itv.strictlyPrecedes (⟨(f 1 0), (f 3 0)⟩ : Itv) (⟨(f 3 0), (f 4 0)⟩ : Itv)),
    (1664, !Itv.strictlyPrecedes (⟨(f (-3) (0)), (f (-1) (0))⟩ : Itv) (⟨(f (-1) (0)), (f 0 0)⟩ : Itv)),
    (1665, !Itv.strictlyPrecedes (⟨(f (-3) (0)), .nzero⟩ : Itv) (⟨(f 0 0), (f 1 0)⟩ : Itv)),
    (1666, !Itv.strictlyPrecedes (⟨(f (-3) (0)), (f 0 0)⟩ : Itv) (⟨.nzero, (f 1 0)⟩ : Itv)),
    (1668, !Itv.strictlyPrecedes (⟨(f 1 0), (f (7) (-1))⟩ : Itv) (⟨(f 3 0), (f 4 0)⟩ : Itv)),
    (1669, !Itv.strictlyPrecedes (⟨(f 1 0), (f 4 0)⟩ : Itv) (⟨(f 3 0), (f 4 0)⟩ : Itv)),
    (1670, !Itv.strictlyPrecedes (⟨(f (-3) (0)), (f (-3602879701896397) (-55))⟩ : Itv) (⟨(f (-1) (0)), (f 0 0)⟩ : Itv)),
    (1672, Itv.strictlyPrecedes (⟨.nan, .nan⟩ : Itv) (⟨(f 3 0), (f 4 0)⟩ : Itv)),
    (1673, Itv.strictlyPrecedes (⟨(f 3 0), (f 4 0)⟩ : Itv) (⟨.nan, .nan⟩ : Itv)),
    (1674, Itv.strictlyPrecedes (⟨.nan, .nan⟩ : Itv) (⟨.nan, .nan⟩ : Itv)),
    (1677, !Itv.strictlyPrecedes (⟨(f 1 0), (f 2 0)⟩ : Itv) (⟨.ninf, .pinf⟩ : Itv)),
    (1678, !Itv.strictlyPrecedes (⟨.ninf, .pinf⟩ : Itv) (⟨(f 1 0), (f 2 0)⟩ : Itv)),
    (1679, !Itv.strictlyPrecedes (⟨.ninf, .pinf⟩ : Itv) (⟨.ninf, .pinf⟩ : Itv)),
    (1681, Itv.strictlyPrecedes (⟨(f 1 0), (f 2 0)⟩ : Itv) (⟨(f 3 0), (f 4 0)⟩ : Itv)),
    (1682, !Itv.strictlyPrecedes (⟨(f 1 0), (f 3 0)⟩ : Itv) (⟨(f 3 0), (f 4 0)⟩ : Itv)),
    (1683, !Itv.strictlyPrecedes (⟨(f (-3) (0)), (f (-1) (0))⟩ : Itv) (⟨(f (-1) (0)), (f 0 0)⟩ : Itv)),
    (1684, !Itv.strictlyPrecedes (⟨(f (-3) (0)), .nzero⟩ : Itv) (⟨(f 0 0), (f 1 0)⟩ : Itv)),
    (1685, !Itv.strictlyPrecedes (⟨(f (-3) (0)), (f 0 0)⟩ : Itv) (⟨.nzero, (f 1 0)⟩ : Itv)),
    (1687, !Itv.strictlyPrecedes (⟨(f 1 0), (f (7) (-1))⟩ : Itv) (⟨(f 3 0), (f 4 0)⟩ : Itv)),
    (1688, !Itv.strictlyPrecedes (⟨(f 1 0), (f 4 0)⟩ : Itv) (⟨(f 3 0), (f 4 0)⟩ : Itv)),
    (1689, !Itv.strictlyPrecedes (⟨(f (-3) (0)), (f (-13421773) (-27))⟩ : Itv) (⟨(f (-1) (0)), (f 0 0)⟩ : Itv)),
    (1694, !Itv.strictlyPrecedes (⟨(f 1 0), (f 2 0)⟩ : Itv) (⟨.ninf, .ninf⟩ : Itv)),
    (1709, !DItv.rel Itv.strictlyPrecedes (⟨⟨.nan, .nan⟩, .ill⟩ : DItv) (⟨⟨(f 3 0), (f 4 0)⟩, .trv⟩ : DItv)),
    (1710, !DItv.rel Itv.strictlyPrecedes (⟨⟨(f 3 0), (f 4 0)⟩, .defd⟩ : DItv) (⟨⟨.nan, .nan⟩, .ill⟩ : DItv)),
    (1711, !DItv.rel Itv.strictlyPrecedes (⟨⟨.nan, .nan⟩, .ill⟩ : DItv) (⟨⟨.nan, .nan⟩, .trv⟩ : DItv)),
    (1712, !DItv.rel Itv.strictlyPrecedes (⟨⟨.nan, .nan⟩, .ill⟩ : DItv) (⟨⟨.nan, .nan⟩, .ill⟩ : DItv)),
    (1714, DItv.rel Itv.strictlyPrecedes (⟨⟨.nan, .nan⟩, .trv⟩ : DItv) (⟨⟨(f 3 0), (f 4 0)⟩, .trv⟩ : DItv)),
    (1715, DItv.rel Itv.strictlyPrecedes (⟨⟨(f 3 0), (f 4 0)⟩, .defd⟩ : DItv) (⟨⟨.nan, .nan⟩, .trv⟩ : DItv)),
    (1716, DItv.rel Itv.strictlyPrecedes (⟨⟨.nan, .nan⟩, .trv⟩ : DItv) (⟨⟨.nan, .nan⟩, .trv⟩ : DItv)),
    (1718, !DItv.rel Itv.strictlyPrecedes (⟨⟨(f 1 0), (f 2 0)⟩, .trv⟩ : DItv) (⟨⟨.ninf, .pinf⟩, .trv⟩ : DItv)),
    (1719, !DItv.rel Itv.strictlyPrecedes (⟨⟨.ninf, .pinf⟩, .trv⟩ : DItv) (⟨⟨(f 1 0), (f 2 0)⟩, .trv⟩ : DItv)),
    (1720, !DItv.rel Itv.strictlyPrecedes (⟨⟨.ninf, .pinf⟩, .trv⟩ : DItv) (⟨⟨.ninf, .pinf⟩, .trv⟩ : DItv)),
    (1722, DItv.rel Itv.strictlyPrecedes (⟨⟨(f 1 0), (f 2 0)⟩, .trv⟩ : DItv) (⟨⟨(f 3 0), (f 4 0)⟩, .trv⟩ : DItv)),
    (1723, !DItv.rel Itv.strictlyPrecedes (⟨⟨(f 1 0), (f 3 0)⟩, .defd⟩ : DItv) (⟨⟨(f 3 0), (f 4 0)⟩, .trv⟩ : DItv)),
    (1724, !DItv.rel Itv.strictlyPrecedes (⟨⟨(f (-3) (0)), (f (-1) (0))⟩, .trv⟩ : DItv) (⟨⟨(f (-1) (0)), (f 0 0)⟩, .defd⟩ : DItv)),
    (1725, !DItv.rel Itv.strictlyPrecedes (⟨⟨(f (-3) (0)), .nzero⟩, .defd⟩ : DItv) (⟨⟨(f 0 0), (f 1 0)⟩, .trv⟩ : DItv)),
    (1726, !DItv.rel Itv.strictlyPrecedes (⟨⟨(f (-3) (0)), (f 0 0)⟩, .trv⟩ : DItv) (⟨⟨.nzero, (f 1 0)⟩, .trv⟩ : DItv)),
    (1728, !DItv.rel Itv.strictlyPrecedes (⟨⟨(f 1 0), (f (7) (-1))⟩, .trv⟩ : DItv) (⟨⟨(f 3 0), (f 4 0)⟩, .trv⟩ : DItv))] : List (ℕ × Bool)).all (·.2) = true := by
  decide +kernel

example : ([
    (1729, !DItv.rel Itv.strictlyPrecedes (⟨⟨(f 1 0), (f 4 0)⟩, .trv⟩ : DItv) (⟨⟨(f 3 0), (f 4 0)⟩, .defd⟩ : DItv)),
    (1730, !DItv.rel Itv.strictlyPrecedes (⟨⟨(f (-3) (0)), (f (-3602879701896397) (-55))⟩, .trv⟩ : DItv) (⟨⟨(f (-1) (0)), (f 0 0)⟩, .trv⟩ : DItv)),
    (1735, !DItv.rel Itv.strictlyPrecedes (⟨⟨(f 1 0), (f (-2) (0))⟩, .trv⟩ : DItv) (⟨⟨(f 3 0), (f 4 0)⟩, .ill⟩ : DItv)),
    (1750, !DItv.rel Itv.strictlyPrecedes (⟨⟨.nan, .nan⟩, .ill⟩ : DItv) (⟨⟨(f 3 0), (f 4 0)⟩, .trv⟩ : DItv)),
    (1751, !DItv.rel Itv.strictlyPrecedes (⟨⟨(f 3 0), (f 4 0)⟩, .trv⟩ : DItv) (⟨⟨.nan, .nan⟩, .ill⟩ : DItv)),
    (1752, !DItv.rel Itv.strictlyPrecedes (⟨⟨.nan, .nan⟩, .ill⟩ : DItv) (⟨⟨.nan, .nan⟩, .trv⟩ : DItv)),
    (1753, !DItv.rel Itv.strictlyPrecedes (⟨⟨.nan, .nan⟩, .ill⟩ : DItv) (⟨⟨.nan, .nan⟩, .ill⟩ : DItv)),
    (1755, DItv.rel Itv.strictlyPrecedes (⟨⟨.nan, .nan⟩, .trv⟩ : DItv) (⟨⟨(f 3 0), (f 4 0)⟩, .trv⟩ : DItv)),
    (1756, DItv.rel Itv.strictlyPrecedes (⟨⟨(f 3 0), (f 4 0)⟩, .trv⟩ : DItv) (⟨⟨.nan, .nan⟩, .trv⟩ : DItv)),
    (1757, DItv.rel Itv.strictlyPrecedes (⟨⟨.nan, .nan⟩, .trv⟩ : DItv) (⟨⟨.nan, .nan⟩, .trv⟩ : DItv)),
    (1759, !DItv.rel Itv.strictlyPrecedes (⟨⟨(f 1 0), (f 2 0)⟩, .trv⟩ : DItv) (⟨⟨.ninf, .pinf⟩, .defd⟩ : DItv)),
    (1760, !DItv.rel Itv.strictlyPrecedes (⟨⟨.ninf, .pinf⟩, .trv⟩ : DItv) (⟨⟨(f 1 0), (f 2 0)⟩, .defd⟩ : DItv)),
    (1761, !DItv.rel Itv.strictlyPrecedes (⟨⟨.ninf, .pinf⟩, .trv⟩ : DItv) (⟨⟨.ninf, .pinf⟩, .trv⟩ : DItv)),
    (1763, DItv.rel Itv.strictlyPrecedes (⟨⟨(f 1 0), (f 2 0)⟩, .trv⟩ : DItv) (⟨⟨(f 3 0), (f 4 0)⟩, .trv⟩ : DItv)),
    (1764, !DItv.rel Itv.strictlyPrecedes (⟨⟨(f 1 0), (f 3 0)⟩, .trv⟩ : DItv) (⟨⟨(f 3 0), (f 4 0)⟩, .trv⟩ : DItv)),
    (1765, !DItv.rel Itv.strictlyPrecedes (⟨⟨(f (-3) (0)), (f (-1) (0))⟩, .defd⟩ : DItv) (⟨⟨(f (-1) (0)), (f 0 0)⟩, .trv⟩ : DItv)),
    (1766, !DItv.rel Itv.strictlyPrecedes (⟨⟨(f (-3) (0)), .nzero⟩, .trv⟩ : DItv) (⟨⟨(f 0 0), (f 1 0)⟩, .defd⟩ : DItv)),
    (1767, !DItv.rel Itv.strictlyPrecedes (⟨⟨(f (-3) (0)), (f 0 0)⟩, .trv⟩ : DItv) (⟨⟨.nzero, (f 1 0)⟩, .trv⟩ : DItv)),
    (1769, !DItv.rel Itv.strictlyPrecedes (⟨⟨(f 1 0), (f (7) (-1))⟩, .trv⟩ : DItv) (⟨⟨(f 3 0), (f 4 0)⟩, .trv⟩ : DItv)),
    (1770, !DItv.rel Itv.strictlyPrecedes (⟨⟨(f 1 0), (f 4 0)⟩, .defd⟩ : DItv) (⟨⟨(f 3 0), (f 4 0)⟩, .defd⟩ : DItv)),
    (1771, !DItv.rel Itv.strictlyPrecedes (⟨⟨(f (-3) (0)), (f (-3602879701896397) (-55))⟩, .trv⟩ : DItv) (⟨⟨(f (-1) (0)), (f 0 0)⟩, .trv⟩ : DItv)),
    (1773, !DItv.rel Itv.strictlyPrecedes (⟨⟨.nan, .nan⟩, .ill⟩ : DItv) (⟨⟨(f 3 0), (f 4 0)⟩, .trv⟩ : DItv)),
    (1774, !DItv.rel Itv.strictlyPrecedes (⟨⟨(f 3 0), (f 4 0)⟩, .trv⟩ : DItv) (⟨⟨.nan, .nan⟩, .ill⟩ : DItv)),
    (1775, !DItv.rel Itv.strictlyPrecedes (⟨⟨.nan, .nan⟩, .ill⟩ : DItv) (⟨⟨.nan, .nan⟩, .trv⟩ : DItv)),
    (1776, !DItv.rel Itv.strictlyPrecedes (⟨⟨.nan, .nan⟩, .ill⟩ : DItv) (⟨⟨.nan, .nan⟩, .ill⟩ : DItv)),
    (1778, DItv.rel Itv.strictlyPrecedes (⟨⟨.nan, .nan⟩, .trv⟩ : DItv) (⟨⟨(f 3 0), (f 4 0)⟩, .trv⟩ : DItv)),
    (1779, DItv.rel Itv.strictlyPrecedes (⟨⟨(f 3 0), (f 4 0)⟩, .trv⟩ : DItv) (⟨⟨.nan, .nan⟩, .trv⟩ : DItv)),
    (1780, DItv.rel Itv.strictlyPrecedes (⟨⟨.nan, .nan⟩, .trv⟩ : DItv) (⟨⟨.nan, .nan⟩, .trv⟩ : DItv)),
    (1782, !DItv.rel Itv.strictlyPrecedes (⟨⟨(f 1 0), (f 2 0)⟩, .trv⟩ : DItv) (⟨⟨.ninf, .pinf⟩, .trv⟩ : DItv)),
    (1783, !DItv.rel Itv.strictlyPrecedes (⟨⟨.ninf, .pinf⟩, .trv⟩ : DItv) (⟨⟨(f 1 0), (f 2 0)⟩, .trv⟩ : DItv)),
    (1784, !DItv.rel Itv.strictlyPrecedes (⟨⟨.ninf, .pinf⟩, .trv⟩ : DItv) (⟨⟨.ninf, .pinf⟩, .trv⟩ : DItv)),
    (1786, DItv.rel Itv.strictlyPrecedes (⟨⟨(f 1 0), (f 2 0)⟩, .trv⟩ : DItv) (⟨⟨(f 3 0), (f 4 0)⟩, .trv⟩ : DItv)),
    (1787, !DItv.rel Itv.strictlyPrecedes (⟨⟨(f 1 0), (f 3 0)⟩, .trv⟩ : DItv) (⟨⟨(f 3 0), (f 4 0)⟩, .trv⟩ : DItv)),
    (1788, !DItv.rel Itv.strictlyPrecedes (⟨⟨(f (-3) (0)), (f (-1) (0))⟩, .defd⟩ : DItv) (⟨⟨(f (-1) (0)), (f 0 0)⟩, .trv⟩ : DItv)),
    (1789, !DItv.rel Itv.strictlyPrecedes (⟨⟨(f (-3) (0)), .nzero⟩, .trv⟩ : DItv) (⟨⟨(f 0 0), (f 1 0)⟩, .defd⟩ : DItv)),
    (1790, !DItv.rel Itv.strictlyPrecedes (⟨⟨(f (-3) (0)), (f 0 0)⟩, .trv⟩ : DItv) (⟨⟨.nzero, (f 1 0)⟩, .trv⟩ : DItv)),
    (1792, !DItv.rel Itv.strictlyPrecedes (⟨⟨(f 1 0), (f (7) (-1))⟩, .trv⟩ : DItv) (⟨⟨(f 3 0), (f 4 0)⟩, .trv⟩ : DItv)),
    (1793, !DItv.rel Itv.strictlyPrecedes (⟨⟨(f 1 0), (f 4 0)⟩, .trv⟩ : DItv) (⟨⟨(f 3 0), (f 4 0)⟩, .trv⟩ : DItv)),
    (1794, !DItv.rel Itv.strictlyPrecedes (⟨⟨(f (-3) (0)), (f (-13421773) (-27))⟩, .trv⟩ : DItv) (⟨⟨(f (-1) (0)), (f 0 0)⟩, .trv⟩ : DItv)),
    (1799, !DItv.rel Itv.strictlyPrecedes (⟨⟨(f 1 0), (f (7) (-1))⟩, .trv⟩ : DItv) (⟨⟨(f 3 0), (f (-4) (0))⟩, .trv⟩ : DItv)),
    (1814, Itv.disjoint (⟨.nan, .nan⟩ : Itv) (⟨(f 3 0), (f 4 0)⟩ : Itv)),
    (1815, Itv.disjoint (⟨(f 3 0), (f 4 0)⟩ : Itv) (⟨.nan, .nan⟩ : Itv)),
    (1816, Itv.disjoint (⟨.nan, .nan⟩ : Itv) (⟨.nan, .nan⟩ : Itv)),
    (1818, Itv.disjoint (⟨(f 3 0), (f 4 0)⟩ : Itv) (⟨(f 1 0), (f 2 0)⟩ : Itv)),
    (1820, !Itv.disjoint (⟨(f 0 0), (f 0 0)⟩ : Itv) (⟨.nzero, .nzero⟩ : Itv)),
    (1821, !Itv.disjoint (⟨(f 0 0), .nzero⟩ : Itv) (⟨.nzero, (f 0 0)⟩ : Itv)),
    (1822, !Itv.disjoint (⟨(f 3 0), (f 4 0)⟩ : Itv) (⟨(f 1 0), (f 7 0)⟩ : Itv)),
    (1823, !Itv.disjoint (⟨(f 3 0), (f 4 0)⟩ : Itv) (⟨.ninf, .pinf⟩ : Itv)),
    (1824, !Itv.disjoint (⟨.ninf, .pinf⟩ : Itv) (⟨(f 1 0), (f 7 0)⟩ : Itv)),
    (1825, !Itv.disjoint (⟨.ninf, .pinf⟩ : Itv) (⟨.ninf, .pinf⟩ : Itv))] : List (ℕ × Bool)).all (·.2) = true := by
  decide +kernel

end P1788.Conform
