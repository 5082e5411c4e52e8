import Verif.Conform.Basic

/-!
# Conformance: rec_bool_func

Generated from `/repo/test/p1788/flavor/infsup/setbased/test_mpfr_bin_ieee754_flavor_rec_bool_func.cpp`: the assertions of the project's own test suite, evaluated in the
model by the kernel.  Each entry is (line in that file, value of the assertion).  These are tests of the model, not proofs of
properties.
-/

set_option maxRecDepth 100000

namespace P1788.Conform

example : ([
    (61, Itv.isCommon (⟨(f (-27) (0)), (f (-27) (0))⟩ : Itv)),
    (62, Itv.isCommon (⟨(f (-27) (0)), (f 0 0)⟩ : Itv)),
    (63, Itv.isCommon (⟨(f 0 0), (f 0 0)⟩ : Itv)),
    (64, Itv.isCommon (⟨.nzero, .nzero⟩ : Itv)),
    (65, Itv.isCommon (⟨.nzero, (f 0 0)⟩ : Itv)),
    (66, Itv.isCommon (⟨(f 0 0), .nzero⟩ : Itv)),
    (67, Itv.isCommon (⟨(f 5 0), (f (6980579422424269) (-49))⟩ : Itv)),
    (68, Itv.isCommon (⟨(f (-9007199254740991) (971)), (f 9007199254740991 971)⟩ : Itv)),
    (70, !Itv.isCommon (⟨.ninf, .pinf⟩ : Itv)),
    (71, !Itv.isCommon (⟨.nan, .nan⟩ : Itv)),
    (72, !Itv.isCommon (⟨.ninf, (f 0 0)⟩ : Itv)),
    (73, !Itv.isCommon (⟨(f 0 0), .pinf⟩ : Itv)),
    (78, !Itv.isCommon (⟨(f 0 0), .ninf⟩ : Itv)),
    (92, DItv.pred Itv.isCommon (⟨⟨(f (-27) (0)), (f (-27) (0))⟩, .com⟩ : DItv)),
    (93, DItv.pred Itv.isCommon (⟨⟨(f (-27) (0)), (f 0 0)⟩, .com⟩ : DItv)),
    (94, DItv.pred Itv.isCommon (⟨⟨(f 0 0), (f 0 0)⟩, .com⟩ : DItv)),
    (95, DItv.pred Itv.isCommon (⟨⟨.nzero, .nzero⟩, .com⟩ : DItv)),
    (96, DItv.pred Itv.isCommon (⟨⟨.nzero, (f 0 0)⟩, .com⟩ : DItv)),
    (97, DItv.pred Itv.isCommon (⟨⟨(f 0 0), .nzero⟩, .com⟩ : DItv)),
    (98, DItv.pred Itv.isCommon (⟨⟨(f 5 0), (f (6980579422424269) (-49))⟩, .com⟩ : DItv)),
    (99, DItv.pred Itv.isCommon (⟨⟨(f (-9007199254740991) (971)), (f 9007199254740991 971)⟩, .com⟩ : DItv)),
    (101, DItv.pred Itv.isCommon (⟨⟨(f (-27) (0)), (f (-27) (0))⟩, .trv⟩ : DItv)),
    (102, DItv.pred Itv.isCommon (⟨⟨(f (-27) (0)), (f 0 0)⟩, .defd⟩ : DItv)),
    (103, DItv.pred Itv.isCommon (⟨⟨(f 0 0), (f 0 0)⟩, .dac⟩ : DItv)),
    (104, DItv.pred Itv.isCommon (⟨⟨.nzero, .nzero⟩, .trv⟩ : DItv)),
    (105, DItv.pred Itv.isCommon (⟨⟨.nzero, (f 0 0)⟩, .defd⟩ : DItv)),
    (106, DItv.pred Itv.isCommon (⟨⟨(f 0 0), .nzero⟩, .dac⟩ : DItv)),
    (107, DItv.pred Itv.isCommon (⟨⟨(f 5 0), (f (6980579422424269) (-49))⟩, .defd⟩ : DItv)),
    (108, DItv.pred Itv.isCommon (⟨⟨(f (-9007199254740991) (971)), (f 9007199254740991 971)⟩, .trv⟩ : DItv)),
    (110, !DItv.pred Itv.isCommon (⟨⟨.ninf, .pinf⟩, .dac⟩ : DItv)),
    (111, !DItv.pred Itv.isCommon (⟨⟨.nan, .nan⟩, .ill⟩ : DItv)),
    (112, !DItv.pred Itv.isCommon (⟨⟨.nan, .nan⟩, .trv⟩ : DItv)),
    (113, !DItv.pred Itv.isCommon (⟨⟨.ninf, (f 0 0)⟩, .trv⟩ : DItv)),
    (114, !DItv.pred Itv.isCommon (⟨⟨(f 0 0), .pinf⟩, .defd⟩ : DItv)),
    (119, !DItv.pred Itv.isCommon (⟨⟨(f 27 0), (f (-27) (0))⟩, .com⟩ : DItv)),
    (133, Itv.isSingleton (⟨(f (-27) (0)), (f (-27) (0))⟩ : Itv)),
    (134, Itv.isSingleton (⟨(f (-2) (0)), (f (-2) (0))⟩ : Itv)),
    (135, Itv.isSingleton (⟨(f 12 0), (f 12 0)⟩ : Itv)),
    (136, Itv.isSingleton (⟨(f (2406611050876109) (-47)), (f (2406611050876109) (-47))⟩ : Itv)),
    (137, Itv.isSingleton (⟨.nzero, .nzero⟩ : Itv)),
    (138, Itv.isSingleton (⟨(f 0 0), (f 0 0)⟩ : Itv)),
    (139, Itv.isSingleton (⟨.nzero, (f 0 0)⟩ : Itv)),
    (140, Itv.isSingleton (⟨(f 0 0), .nzero⟩ : Itv)),
    (142, !Itv.isSingleton (⟨.nan, .nan⟩ : Itv)),
    (143, !Itv.isSingleton (⟨.ninf, .pinf⟩ : Itv)),
    (144, !Itv.isSingleton (⟨(f (-1) (0)), (f 0 0)⟩ : Itv)),
    (145, !Itv.isSingleton (⟨(f (-1) (0)), (f (-1) (-1))⟩ : Itv)),
    (146, !Itv.isSingleton (⟨(f 1 0), (f 2 0)⟩ : Itv)),
    (147, !Itv.isSingleton (⟨.ninf, (f (-9007199254740991) (971))⟩ : Itv)),
    (148, !Itv.isSingleton (⟨(f (-1) (0)), .pinf⟩ : Itv))] : List (ℕ × Bool)).all (·.2) = true := by
  decide +kernel

example : ([
    (153, !Itv.isSingleton (⟨(f 1 0), (f 0 0)⟩ : Itv)),
    (167, DItv.pred Itv.isSingleton (⟨⟨(f (-27) (0)), (f (-27) (0))⟩, .defd⟩ : DItv)),
    (168, DItv.pred Itv.isSingleton (⟨⟨(f (-2) (0)), (f (-2) (0))⟩, .trv⟩ : DItv)),
    (169, DItv.pred Itv.isSingleton (⟨⟨(f 12 0), (f 12 0)⟩, .dac⟩ : DItv)),
    (170, DItv.pred Itv.isSingleton (⟨⟨(f (2406611050876109) (-47)), (f (2406611050876109) (-47))⟩, .com⟩ : DItv)),
    (171, DItv.pred Itv.isSingleton (⟨⟨.nzero, .nzero⟩, .defd⟩ : DItv)),
    (172, DItv.pred Itv.isSingleton (⟨⟨(f 0 0), (f 0 0)⟩, .com⟩ : DItv)),
    (173, DItv.pred Itv.isSingleton (⟨⟨.nzero, (f 0 0)⟩, .defd⟩ : DItv)),
    (174, DItv.pred Itv.isSingleton (⟨⟨(f 0 0), .nzero⟩, .dac⟩ : DItv)),
    (176, !DItv.pred Itv.isSingleton (⟨⟨.nan, .nan⟩, .trv⟩ : DItv)),
    (177, !DItv.pred Itv.isSingleton (⟨⟨.nan, .nan⟩, .ill⟩ : DItv)),
    (178, !DItv.pred Itv.isSingleton (⟨⟨.ninf, .pinf⟩, .defd⟩ : DItv)),
    (179, !DItv.pred Itv.isSingleton (⟨⟨(f (-1) (0)), (f 0 0)⟩, .dac⟩ : DItv)),
    (180, !DItv.pred Itv.isSingleton (⟨⟨(f (-1) (0)), (f (-1) (-1))⟩, .com⟩ : DItv)),
    (181, !DItv.pred Itv.isSingleton (⟨⟨(f 1 0), (f 2 0)⟩, .defd⟩ : DItv)),
    (182, !DItv.pred Itv.isSingleton (⟨⟨.ninf, (f (-9007199254740991) (971))⟩, .dac⟩ : DItv)),
    (183, !DItv.pred Itv.isSingleton (⟨⟨(f (-1) (0)), .pinf⟩, .trv⟩ : DItv)),
    (188, !DItv.pred Itv.isSingleton (⟨⟨(f 1 0), (f (-1) (-1))⟩, .com⟩ : DItv)),
    (202, Itv.isMember (f (-27) (0)) (⟨(f (-27) (0)), (f (-27) (0))⟩ : Itv)),
    (203, Itv.isMember (f (-27) (0)) (⟨(f (-27) (0)), (f 0 0)⟩ : Itv)),
    (204, Itv.isMember (f (-7) (0)) (⟨(f (-27) (0)), (f 0 0)⟩ : Itv)),
    (205, Itv.isMember (f 0 0) (⟨(f (-27) (0)), (f 0 0)⟩ : Itv)),
    (206, Itv.isMember .nzero (⟨(f 0 0), (f 0 0)⟩ : Itv)),
    (207, Itv.isMember (f 0 0) (⟨(f 0 0), (f 0 0)⟩ : Itv)),
    (208, Itv.isMember (f 0 0) (⟨.nzero, .nzero⟩ : Itv)),
    (209, Itv.isMember (f 0 0) (⟨.nzero, (f 0 0)⟩ : Itv)),
    (210, Itv.isMember (f 0 0) (⟨(f 0 0), .nzero⟩ : Itv)),
    (211, Itv.isMember (f 5 0) (⟨(f 5 0), (f (6980579422424269) (-49))⟩ : Itv)),
    (212, Itv.isMember (f (7093169413108531) (-50)) (⟨(f 5 0), (f (6980579422424269) (-49))⟩ : Itv)),
    (213, Itv.isMember (f (6980579422424269) (-49)) (⟨(f 5 0), (f (6980579422424269) (-49))⟩ : Itv)),
    (214, Itv.isMember (f 0 0) (⟨.ninf, .pinf⟩ : Itv)),
    (215, Itv.isMember (f 5 0) (⟨.ninf, .pinf⟩ : Itv)),
    (216, Itv.isMember (f (7093169413108531) (-50)) (⟨.ninf, .pinf⟩ : Itv)),
    (217, Itv.isMember (f (6980579422424269) (-49)) (⟨.ninf, .pinf⟩ : Itv)),
    (218, Itv.isMember (f 9007199254740991 971) (⟨.ninf, .pinf⟩ : Itv)),
    (219, Itv.isMember (f (-9007199254740991) (971)) (⟨.ninf, .pinf⟩ : Itv)),
    (220, Itv.isMember (f (1) (-1022)) (⟨.ninf, .pinf⟩ : Itv)),
    (221, Itv.isMember (f (-1) (-1022)) (⟨.ninf, .pinf⟩ : Itv)),
    (223, !Itv.isMember (f (-71) (0)) (⟨(f (-27) (0)), (f 0 0)⟩ : Itv)),
    (224, !Itv.isMember (f (3602879701896397) (-55)) (⟨(f (-27) (0)), (f 0 0)⟩ : Itv)),
    (225, !Itv.isMember (f (-5764607523034235) (-59)) (⟨(f 0 0), (f 0 0)⟩ : Itv)),
    (226, !Itv.isMember (f (4722366482869645) (-72)) (⟨(f 0 0), (f 0 0)⟩ : Itv)),
    (227, !Itv.isMember (f 111110 0) (⟨.nzero, .nzero⟩ : Itv)),
    (228, !Itv.isMember (f (2758454771764429) (-49)) (⟨(f 5 0), (f (6980579422424269) (-49))⟩ : Itv)),
    (229, !Itv.isMember (f (-7093169413108531) (-50)) (⟨(f 5 0), (f (6980579422424269) (-49))⟩ : Itv)),
    (230, !Itv.isMember (f 0 0) (⟨.nan, .nan⟩ : Itv)),
    (231, !Itv.isMember (f (-4986615085452493) (-40)) (⟨.nan, .nan⟩ : Itv)),
    (232, !Itv.isMember .ninf (⟨.nan, .nan⟩ : Itv)),
    (233, !Itv.isMember .pinf (⟨.nan, .nan⟩ : Itv)),
    (234, !Itv.isMember .nan (⟨.nan, .nan⟩ : Itv))] : List (ℕ × Bool)).all (·.2) = true := by
  decide +kernel

example : ([
    (235, !Itv.isMember .ninf (⟨.ninf, .pinf⟩ : Itv)),
    (236, !Itv.isMember .pinf (⟨.ninf, .pinf⟩ : Itv)),
    (237, !Itv.isMember .nan (⟨.ninf, .pinf⟩ : Itv)),
    (242, !Itv.isMember (f (2758454771764429) (-49)) (⟨(f 5 0), (f (-6980579422424269) (-49))⟩ : Itv)),
    (256, DItv.isMember (f (-27) (0)) (⟨⟨(f (-27) (0)), (f (-27) (0))⟩, .trv⟩ : DItv)),
    (257, DItv.isMember (f (-27) (0)) (⟨⟨(f (-27) (0)), (f 0 0)⟩, .defd⟩ : DItv)),
    (258, DItv.isMember (f (-7) (0)) (⟨⟨(f (-27) (0)), (f 0 0)⟩, .dac⟩ : DItv)),
    (259, DItv.isMember (f 0 0) (⟨⟨(f (-27) (0)), (f 0 0)⟩, .com⟩ : DItv)),
    (260, DItv.isMember .nzero (⟨⟨(f 0 0), (f 0 0)⟩, .trv⟩ : DItv)),
    (261, DItv.isMember (f 0 0) (⟨⟨(f 0 0), (f 0 0)⟩, .defd⟩ : DItv)),
    (262, DItv.isMember (f 0 0) (⟨⟨.nzero, .nzero⟩, .dac⟩ : DItv)),
    (263, DItv.isMember (f 0 0) (⟨⟨.nzero, (f 0 0)⟩, .com⟩ : DItv)),
    (264, DItv.isMember (f 0 0) (⟨⟨(f 0 0), .nzero⟩, .trv⟩ : DItv)),
    (265, DItv.isMember (f 5 0) (⟨⟨(f 5 0), (f (6980579422424269) (-49))⟩, .defd⟩ : DItv)),
    (266, DItv.isMember (f (7093169413108531) (-50)) (⟨⟨(f 5 0), (f (6980579422424269) (-49))⟩, .dac⟩ : DItv)),
    (267, DItv.isMember (f (6980579422424269) (-49)) (⟨⟨(f 5 0), (f (6980579422424269) (-49))⟩, .com⟩ : DItv)),
    (268, DItv.isMember (f 0 0) (⟨⟨.ninf, .pinf⟩, .trv⟩ : DItv)),
    (269, DItv.isMember (f 5 0) (⟨⟨.ninf, .pinf⟩, .defd⟩ : DItv)),
    (270, DItv.isMember (f (7093169413108531) (-50)) (⟨⟨.ninf, .pinf⟩, .dac⟩ : DItv)),
    (271, DItv.isMember (f (6980579422424269) (-49)) (⟨⟨.ninf, .pinf⟩, .trv⟩ : DItv)),
    (272, DItv.isMember (f 9007199254740991 971) (⟨⟨.ninf, .pinf⟩, .defd⟩ : DItv)),
    (273, DItv.isMember (f (-9007199254740991) (971)) (⟨⟨.ninf, .pinf⟩, .dac⟩ : DItv)),
    (274, DItv.isMember (f (1) (-1022)) (⟨⟨.ninf, .pinf⟩, .trv⟩ : DItv)),
    (275, DItv.isMember (f (-1) (-1022)) (⟨⟨.ninf, .pinf⟩, .defd⟩ : DItv)),
    (277, !DItv.isMember (f (-71) (0)) (⟨⟨(f (-27) (0)), (f 0 0)⟩, .trv⟩ : DItv)),
    (278, !DItv.isMember (f (3602879701896397) (-55)) (⟨⟨(f (-27) (0)), (f 0 0)⟩, .defd⟩ : DItv)),
    (279, !DItv.isMember (f (-5764607523034235) (-59)) (⟨⟨(f 0 0), (f 0 0)⟩, .dac⟩ : DItv)),
    (280, !DItv.isMember (f (4722366482869645) (-72)) (⟨⟨(f 0 0), (f 0 0)⟩, .com⟩ : DItv)),
    (281, !DItv.isMember (f 111110 0) (⟨⟨.nzero, .nzero⟩, .trv⟩ : DItv)),
    (282, !DItv.isMember (f (2758454771764429) (-49)) (⟨⟨(f 5 0), (f (6980579422424269) (-49))⟩, .defd⟩ : DItv)),
    (283, !DItv.isMember (f (-7093169413108531) (-50)) (⟨⟨(f 5 0), (f (6980579422424269) (-49))⟩, .dac⟩ : DItv)),
    (284, !DItv.isMember (f 0 0) (⟨⟨.nan, .nan⟩, .ill⟩ : DItv)),
    (285, !DItv.isMember (f 0 0) (⟨⟨.nan, .nan⟩, .trv⟩ : DItv)),
    (286, !DItv.isMember (f (-4986615085452493) (-40)) (⟨⟨.nan, .nan⟩, .trv⟩ : DItv)),
    (287, !DItv.isMember (f (-4986615085452493) (-40)) (⟨⟨.nan, .nan⟩, .ill⟩ : DItv)),
    (288, !DItv.isMember .ninf (⟨⟨.nan, .nan⟩, .trv⟩ : DItv)),
    (289, !DItv.isMember .ninf (⟨⟨.nan, .nan⟩, .ill⟩ : DItv)),
    (290, !DItv.isMember .pinf (⟨⟨.nan, .nan⟩, .trv⟩ : DItv)),
    (291, !DItv.isMember .pinf (⟨⟨.nan, .nan⟩, .ill⟩ : DItv)),
    (292, !DItv.isMember .nan (⟨⟨.nan, .nan⟩, .trv⟩ : DItv)),
    (293, !DItv.isMember .nan (⟨⟨.nan, .nan⟩, .ill⟩ : DItv)),
    (294, !DItv.isMember .ninf (⟨⟨.ninf, .pinf⟩, .trv⟩ : DItv)),
    (295, !DItv.isMember .pinf (⟨⟨.ninf, .pinf⟩, .defd⟩ : DItv)),
    (296, !DItv.isMember .nan (⟨⟨.ninf, .pinf⟩, .dac⟩ : DItv)),
    (301, !DItv.isMember (f (-5764607523034235) (-59)) (⟨⟨(f 10 0), (f 0 0)⟩, .dac⟩ : DItv)),
    (315, Itv.isMember (f (-27) (0)) (⟨(f (-27) (0)), (f (-27) (0))⟩ : Itv)),
    (316, Itv.isMember (f (-27) (0)) (⟨(f (-27) (0)), (f 0 0)⟩ : Itv)),
    (317, Itv.isMember (f (-7) (0)) (⟨(f (-27) (0)), (f 0 0)⟩ : Itv)),
    (318, Itv.isMember (f 0 0) (⟨(f (-27) (0)), (f 0 0)⟩ : Itv)),
    (319, Itv.isMember .nzero (⟨(f 0 0), (f 0 0)⟩ : Itv))] : List (ℕ × Bool)).all (·.2) = true := by
  decide +kernel

example : ([
    (320, Itv.isMember (f 0 0) (⟨(f 0 0), (f 0 0)⟩ : Itv)),
    (321, Itv.isMember (f 0 0) (⟨.nzero, .nzero⟩ : Itv)),
    (322, Itv.isMember (f 0 0) (⟨.nzero, (f 0 0)⟩ : Itv)),
    (323, Itv.isMember (f 0 0) (⟨(f 0 0), .nzero⟩ : Itv)),
    (324, Itv.isMember (f 5 0) (⟨(f 5 0), (f (6501171) (-19))⟩ : Itv)),
    (325, Itv.isMember (f (7093169413108531) (-50)) (⟨(f 5 0), (f (6501171) (-19))⟩ : Itv)),
    (326, Itv.isMember (f 0 0) (⟨.ninf, .pinf⟩ : Itv)),
    (327, Itv.isMember (f 5 0) (⟨.ninf, .pinf⟩ : Itv)),
    (328, Itv.isMember (f (7093169413108531) (-50)) (⟨.ninf, .pinf⟩ : Itv)),
    (329, Itv.isMember (f (6980579422424269) (-49)) (⟨.ninf, .pinf⟩ : Itv)),
    (330, Itv.isMember (f 9007199254740991 971) (⟨.ninf, .pinf⟩ : Itv)),
    (331, Itv.isMember (f (-9007199254740991) (971)) (⟨.ninf, .pinf⟩ : Itv)),
    (332, Itv.isMember (f (1) (-1022)) (⟨.ninf, .pinf⟩ : Itv)),
    (333, Itv.isMember (f (-1) (-1022)) (⟨.ninf, .pinf⟩ : Itv)),
    (335, !Itv.isMember (f (6980579422424269) (-49)) (⟨(f 5 0), (f (6501171) (-19))⟩ : Itv)),
    (336, !Itv.isMember (f (-71) (0)) (⟨(f (-27) (0)), (f 0 0)⟩ : Itv)),
    (337, !Itv.isMember (f (13421773) (-27)) (⟨(f (-27) (0)), (f 0 0)⟩ : Itv)),
    (338, !Itv.isMember (f (-5368709) (-29)) (⟨(f 0 0), (f 0 0)⟩ : Itv)),
    (339, !Itv.isMember (f (8796093) (-43)) (⟨(f 0 0), (f 0 0)⟩ : Itv)),
    (340, !Itv.isMember (f 111110 0) (⟨.nzero, .nzero⟩ : Itv)),
    (341, !Itv.isMember (f (10276045) (-21)) (⟨(f 5 0), (f (6980579422424269) (-49))⟩ : Itv)),
    (342, !Itv.isMember (f (-6606029) (-20)) (⟨(f 5 0), (f (6980579422424269) (-49))⟩ : Itv)),
    (343, !Itv.isMember (f 0 0) (⟨.nan, .nan⟩ : Itv)),
    (344, !Itv.isMember (f (-4644147) (-10)) (⟨.nan, .nan⟩ : Itv)),
    (345, !Itv.isMember .ninf (⟨.nan, .nan⟩ : Itv)),
    (346, !Itv.isMember .pinf (⟨.nan, .nan⟩ : Itv)),
    (347, !Itv.isMember .nan (⟨.nan, .nan⟩ : Itv)),
    (348, !Itv.isMember .ninf (⟨.ninf, .pinf⟩ : Itv)),
    (349, !Itv.isMember .pinf (⟨.ninf, .pinf⟩ : Itv)),
    (350, !Itv.isMember .nan (⟨.ninf, .pinf⟩ : Itv)),
    (355, !Itv.isMember (f (-71) (0)) (⟨(f 27 0), (f 0 0)⟩ : Itv)),
    (369, DItv.isMember (f (-27) (0)) (⟨⟨(f (-27) (0)), (f (-27) (0))⟩, .trv⟩ : DItv)),
    (370, DItv.isMember (f (-27) (0)) (⟨⟨(f (-27) (0)), (f 0 0)⟩, .defd⟩ : DItv)),
    (371, DItv.isMember (f (-7) (0)) (⟨⟨(f (-27) (0)), (f 0 0)⟩, .dac⟩ : DItv)),
    (372, DItv.isMember (f 0 0) (⟨⟨(f (-27) (0)), (f 0 0)⟩, .com⟩ : DItv)),
    (373, DItv.isMember .nzero (⟨⟨(f 0 0), (f 0 0)⟩, .trv⟩ : DItv)),
    (374, DItv.isMember (f 0 0) (⟨⟨(f 0 0), (f 0 0)⟩, .defd⟩ : DItv)),
    (375, DItv.isMember (f 0 0) (⟨⟨.nzero, .nzero⟩, .dac⟩ : DItv)),
    (376, DItv.isMember (f 0 0) (⟨⟨.nzero, (f 0 0)⟩, .com⟩ : DItv)),
    (377, DItv.isMember (f 0 0) (⟨⟨(f 0 0), .nzero⟩, .trv⟩ : DItv)),
    (378, DItv.isMember (f 5 0) (⟨⟨(f 5 0), (f (6501171) (-19))⟩, .defd⟩ : DItv)),
    (379, DItv.isMember (f (7093169413108531) (-50)) (⟨⟨(f 5 0), (f (6501171) (-19))⟩, .dac⟩ : DItv)),
    (380, DItv.isMember (f 0 0) (⟨⟨.ninf, .pinf⟩, .trv⟩ : DItv)),
    (381, DItv.isMember (f 5 0) (⟨⟨.ninf, .pinf⟩, .defd⟩ : DItv)),
    (382, DItv.isMember (f (7093169413108531) (-50)) (⟨⟨.ninf, .pinf⟩, .dac⟩ : DItv)),
    (383, DItv.isMember (f (6980579422424269) (-49)) (⟨⟨.ninf, .pinf⟩, .trv⟩ : DItv)),
    (384, DItv.isMember (f 9007199254740991 971) (⟨⟨.ninf, .pinf⟩, .defd⟩ : DItv)),
    (385, DItv.isMember (f (-9007199254740991) (971)) (⟨⟨.ninf, .pinf⟩, .dac⟩ : DItv)),
    (386, DItv.isMember (f (1) (-1022)) (⟨⟨.ninf, .pinf⟩, .trv⟩ : DItv)),
    (387, DItv.isMember (f (-1) (-1022)) (⟨⟨.ninf, .pinf⟩, .defd⟩ : DItv))] : List (ℕ × Bool)).all (·.2) = true := by
  decide +kernel

example : ([
    (389, !DItv.isMember (f (6980579422424269) (-49)) (⟨⟨(f 5 0), (f (6501171) (-19))⟩, .trv⟩ : DItv)),
    (390, !DItv.isMember (f (-71) (0)) (⟨⟨(f (-27) (0)), (f 0 0)⟩, .defd⟩ : DItv)),
    (391, !DItv.isMember (f (13421773) (-27)) (⟨⟨(f (-27) (0)), (f 0 0)⟩, .dac⟩ : DItv)),
    (392, !DItv.isMember (f (-5368709) (-29)) (⟨⟨(f 0 0), (f 0 0)⟩, .com⟩ : DItv)),
    (393, !DItv.isMember (f (8796093) (-43)) (⟨⟨(f 0 0), (f 0 0)⟩, .trv⟩ : DItv)),
    (394, !DItv.isMember (f 111110 0) (⟨⟨.nzero, .nzero⟩, .defd⟩ : DItv)),
    (395, !DItv.isMember (f (10276045) (-21)) (⟨⟨(f 5 0), (f (6980579422424269) (-49))⟩, .dac⟩ : DItv)),
    (396, !DItv.isMember (f (-6606029) (-20)) (⟨⟨(f 5 0), (f (6980579422424269) (-49))⟩, .com⟩ : DItv)),
    (397, !DItv.isMember (f 0 0) (⟨⟨.nan, .nan⟩, .trv⟩ : DItv)),
    (398, !DItv.isMember (f 0 0) (⟨⟨.nan, .nan⟩, .ill⟩ : DItv)),
    (399, !DItv.isMember (f (-4644147) (-10)) (⟨⟨.nan, .nan⟩, .trv⟩ : DItv)),
    (400, !DItv.isMember (f (-4644147) (-10)) (⟨⟨.nan, .nan⟩, .ill⟩ : DItv)),
    (401, !DItv.isMember .ninf (⟨⟨.nan, .nan⟩, .trv⟩ : DItv)),
    (402, !DItv.isMember .ninf (⟨⟨.nan, .nan⟩, .ill⟩ : DItv)),
    (403, !DItv.isMember .pinf (⟨⟨.nan, .nan⟩, .trv⟩ : DItv)),
    (404, !DItv.isMember .pinf (⟨⟨.nan, .nan⟩, .ill⟩ : DItv)),
    (405, !DItv.isMember .nan (⟨⟨.nan, .nan⟩, .trv⟩ : DItv)),
    (406, !DItv.isMember .nan (⟨⟨.nan, .nan⟩, .ill⟩ : DItv)),
    (407, !DItv.isMember .ninf (⟨⟨.ninf, .pinf⟩, .trv⟩ : DItv)),
    (408, !DItv.isMember .pinf (⟨⟨.ninf, .pinf⟩, .defd⟩ : DItv)),
    (409, !DItv.isMember .nan (⟨⟨.ninf, .pinf⟩, .dac⟩ : DItv)),
    (414, !DItv.isMember (f (13421773) (-27)) (⟨⟨(f (-27) (0)), (f 0 0)⟩, .ill⟩ : DItv))] : List (ℕ × Bool)).all (·.2) = true := by
  decide +kernel

end P1788.Conform
