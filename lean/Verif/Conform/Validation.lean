import Verif.Conform.Basic

/-!
# Conformance: validation_func

Generated from `/repo/test/p1788/flavor/infsup/setbased/test_mpfr_bin_ieee754_flavor_validation_func.cpp`: the assertions of the project's own test suite, evaluated in the
model by the kernel.  Each entry is (line in that file, value of the assertion).  These are tests of the model, not proofs of
properties.
-/

set_option maxRecDepth 100000

namespace P1788.Conform

example : ([
    (62, Itv.isValid (⟨.nan, .nan⟩ : Itv)),
    (63, Itv.isValid (⟨.ninf, (f (-9007199254740991) (971))⟩ : Itv)),
    (64, Itv.isValid (⟨.ninf, (f (-1) (0))⟩ : Itv)),
    (65, Itv.isValid (⟨.ninf, (f 0 0)⟩ : Itv)),
    (66, Itv.isValid (⟨.ninf, (f 1 0)⟩ : Itv)),
    (67, Itv.isValid (⟨.ninf, (f 9007199254740991 971)⟩ : Itv)),
    (68, Itv.isValid (⟨.ninf, .pinf⟩ : Itv)),
    (69, Itv.isValid (⟨(f (-9007199254740991) (971)), (f (-1) (0))⟩ : Itv)),
    (70, Itv.isValid (⟨(f (-9007199254740991) (971)), (f 0 0)⟩ : Itv)),
    (71, Itv.isValid (⟨(f (-9007199254740991) (971)), (f 1 0)⟩ : Itv)),
    (72, Itv.isValid (⟨(f (-9007199254740991) (971)), (f 9007199254740991 971)⟩ : Itv)),
    (73, Itv.isValid (⟨(f (-9007199254740991) (971)), .pinf⟩ : Itv)),
    (74, Itv.isValid (⟨(f (-1) (0)), (f (-1) (0))⟩ : Itv)),
    (75, Itv.isValid (⟨(f (-1) (0)), (f 0 0)⟩ : Itv)),
    (76, Itv.isValid (⟨(f (-1) (0)), (f 1 0)⟩ : Itv)),
    (77, Itv.isValid (⟨(f (-1) (0)), (f 9007199254740991 971)⟩ : Itv)),
    (78, Itv.isValid (⟨(f (-1) (0)), .pinf⟩ : Itv)),
    (79, Itv.isValid (⟨(f 0 0), (f 0 0)⟩ : Itv)),
    (80, Itv.isValid (⟨.nzero, .nzero⟩ : Itv)),
    (81, Itv.isValid (⟨(f 0 0), .nzero⟩ : Itv)),
    (82, Itv.isValid (⟨.nzero, (f 0 0)⟩ : Itv)),
    (83, Itv.isValid (⟨(f 0 0), (f 1 0)⟩ : Itv)),
    (84, Itv.isValid (⟨(f 0 0), (f 9007199254740991 971)⟩ : Itv)),
    (85, Itv.isValid (⟨(f 0 0), .pinf⟩ : Itv)),
    (86, Itv.isValid (⟨(f 1 0), (f 1 0)⟩ : Itv)),
    (87, Itv.isValid (⟨(f 1 0), (f 9007199254740991 971)⟩ : Itv)),
    (88, Itv.isValid (⟨(f 1 0), .pinf⟩ : Itv)),
    (89, Itv.isValid (⟨(f 9007199254740991 971), (f 9007199254740991 971)⟩ : Itv)),
    (90, Itv.isValid (⟨(f 9007199254740991 971), .pinf⟩ : Itv)),
    (94, !Itv.isValid (⟨.ninf, .ninf⟩ : Itv)),
    (98, !Itv.isValid (⟨(f (-1) (0)), (f (-3) (0))⟩ : Itv)),
    (102, !Itv.isValid (⟨(f 0 0), (f (-3) (0))⟩ : Itv)),
    (106, !Itv.isValid (⟨(f 1 0), (f (-3) (0))⟩ : Itv)),
    (110, !Itv.isValid (⟨.pinf, .pinf⟩ : Itv)),
    (114, !Itv.isValid (⟨.nan, .ninf⟩ : Itv)),
    (118, !Itv.isValid (⟨.nan, (f (-3) (0))⟩ : Itv)),
    (122, !Itv.isValid (⟨.nan, (f (-3) (0))⟩ : Itv)),
    (126, !Itv.isValid (⟨.nan, (f (-3) (0))⟩ : Itv)),
    (130, !Itv.isValid (⟨.nan, .pinf⟩ : Itv)),
    (134, !Itv.isValid (⟨.ninf, .nan⟩ : Itv)),
    (138, !Itv.isValid (⟨(f (-1) (0)), .nan⟩ : Itv)),
    (142, !Itv.isValid (⟨(f 0 0), .nan⟩ : Itv)),
    (146, !Itv.isValid (⟨(f 1 0), .nan⟩ : Itv)),
    (150, !Itv.isValid (⟨.pinf, .nan⟩ : Itv)),
    (167, DItv.isValid (⟨⟨.nan, .nan⟩, .ill⟩ : DItv)),
    (168, DItv.isValid (⟨⟨.nan, .nan⟩, .trv⟩ : DItv)),
    (169, DItv.isValid (⟨⟨.ninf, (f (-9007199254740991) (971))⟩, .trv⟩ : DItv)),
    (170, DItv.isValid (⟨⟨.ninf, (f (-9007199254740991) (971))⟩, .defd⟩ : DItv)),
    (171, DItv.isValid (⟨⟨.ninf, (f (-9007199254740991) (971))⟩, .dac⟩ : DItv)),
    (172, DItv.isValid (⟨⟨.ninf, (f (-1) (0))⟩, .trv⟩ : DItv))] : List (ℕ × Bool)).all (·.2) = true := by
  decide +kernel

example : ([
    (173, DItv.isValid (⟨⟨.ninf, (f (-1) (0))⟩, .defd⟩ : DItv)),
    (174, DItv.isValid (⟨⟨.ninf, (f (-1) (0))⟩, .dac⟩ : DItv)),
    (175, DItv.isValid (⟨⟨.ninf, (f 0 0)⟩, .trv⟩ : DItv)),
    (176, DItv.isValid (⟨⟨.ninf, (f 0 0)⟩, .defd⟩ : DItv)),
    (177, DItv.isValid (⟨⟨.ninf, (f 0 0)⟩, .dac⟩ : DItv)),
    (178, DItv.isValid (⟨⟨.ninf, (f 1 0)⟩, .trv⟩ : DItv)),
    (179, DItv.isValid (⟨⟨.ninf, (f 1 0)⟩, .defd⟩ : DItv)),
    (180, DItv.isValid (⟨⟨.ninf, (f 1 0)⟩, .dac⟩ : DItv)),
    (181, DItv.isValid (⟨⟨.ninf, (f 9007199254740991 971)⟩, .trv⟩ : DItv)),
    (182, DItv.isValid (⟨⟨.ninf, (f 9007199254740991 971)⟩, .defd⟩ : DItv)),
    (183, DItv.isValid (⟨⟨.ninf, (f 9007199254740991 971)⟩, .dac⟩ : DItv)),
    (184, DItv.isValid (⟨⟨.ninf, .pinf⟩, .trv⟩ : DItv)),
    (185, DItv.isValid (⟨⟨.ninf, .pinf⟩, .defd⟩ : DItv)),
    (186, DItv.isValid (⟨⟨.ninf, .pinf⟩, .dac⟩ : DItv)),
    (187, DItv.isValid (⟨⟨(f (-9007199254740991) (971)), (f (-1) (0))⟩, .trv⟩ : DItv)),
    (188, DItv.isValid (⟨⟨(f (-9007199254740991) (971)), (f (-1) (0))⟩, .defd⟩ : DItv)),
    (189, DItv.isValid (⟨⟨(f (-9007199254740991) (971)), (f (-1) (0))⟩, .dac⟩ : DItv)),
    (190, DItv.isValid (⟨⟨(f (-9007199254740991) (971)), (f (-1) (0))⟩, .com⟩ : DItv)),
    (191, DItv.isValid (⟨⟨(f (-9007199254740991) (971)), (f 0 0)⟩, .trv⟩ : DItv)),
    (192, DItv.isValid (⟨⟨(f (-9007199254740991) (971)), (f 0 0)⟩, .defd⟩ : DItv)),
    (193, DItv.isValid (⟨⟨(f (-9007199254740991) (971)), (f 0 0)⟩, .dac⟩ : DItv)),
    (194, DItv.isValid (⟨⟨(f (-9007199254740991) (971)), (f 0 0)⟩, .com⟩ : DItv)),
    (195, DItv.isValid (⟨⟨(f (-9007199254740991) (971)), (f 1 0)⟩, .trv⟩ : DItv)),
    (196, DItv.isValid (⟨⟨(f (-9007199254740991) (971)), (f 1 0)⟩, .defd⟩ : DItv)),
    (197, DItv.isValid (⟨⟨(f (-9007199254740991) (971)), (f 1 0)⟩, .dac⟩ : DItv)),
    (198, DItv.isValid (⟨⟨(f (-9007199254740991) (971)), (f 1 0)⟩, .com⟩ : DItv)),
    (199, DItv.isValid (⟨⟨(f (-9007199254740991) (971)), (f 9007199254740991 971)⟩, .trv⟩ : DItv)),
    (200, DItv.isValid (⟨⟨(f (-9007199254740991) (971)), (f 9007199254740991 971)⟩, .defd⟩ : DItv)),
    (201, DItv.isValid (⟨⟨(f (-9007199254740991) (971)), (f 9007199254740991 971)⟩, .dac⟩ : DItv)),
    (202, DItv.isValid (⟨⟨(f (-9007199254740991) (971)), (f 9007199254740991 971)⟩, .com⟩ : DItv)),
    (203, DItv.isValid (⟨⟨(f (-9007199254740991) (971)), .pinf⟩, .trv⟩ : DItv)),
    (204, DItv.isValid (⟨⟨(f (-9007199254740991) (971)), .pinf⟩, .defd⟩ : DItv)),
    (205, DItv.isValid (⟨⟨(f (-9007199254740991) (971)), .pinf⟩, .dac⟩ : DItv)),
    (206, DItv.isValid (⟨⟨(f (-1) (0)), (f (-1) (0))⟩, .trv⟩ : DItv)),
    (207, DItv.isValid (⟨⟨(f (-1) (0)), (f (-1) (0))⟩, .defd⟩ : DItv)),
    (208, DItv.isValid (⟨⟨(f (-1) (0)), (f (-1) (0))⟩, .dac⟩ : DItv)),
    (209, DItv.isValid (⟨⟨(f (-1) (0)), (f (-1) (0))⟩, .com⟩ : DItv)),
    (210, DItv.isValid (⟨⟨(f (-1) (0)), (f 0 0)⟩, .trv⟩ : DItv)),
    (211, DItv.isValid (⟨⟨(f (-1) (0)), (f 0 0)⟩, .defd⟩ : DItv)),
    (212, DItv.isValid (⟨⟨(f (-1) (0)), (f 0 0)⟩, .dac⟩ : DItv)),
    (213, DItv.isValid (⟨⟨(f (-1) (0)), (f 0 0)⟩, .com⟩ : DItv)),
    (214, DItv.isValid (⟨⟨(f (-1) (0)), (f 1 0)⟩, .trv⟩ : DItv)),
    (215, DItv.isValid (⟨⟨(f (-1) (0)), (f 1 0)⟩, .defd⟩ : DItv)),
    (216, DItv.isValid (⟨⟨(f (-1) (0)), (f 1 0)⟩, .dac⟩ : DItv)),
    (217, DItv.isValid (⟨⟨(f (-1) (0)), (f 1 0)⟩, .com⟩ : DItv)),
    (218, DItv.isValid (⟨⟨(f (-1) (0)), (f 9007199254740991 971)⟩, .trv⟩ : DItv)),
    (219, DItv.isValid (⟨⟨(f (-1) (0)), (f 9007199254740991 971)⟩, .defd⟩ : DItv)),
    (220, DItv.isValid (⟨⟨(f (-1) (0)), (f 9007199254740991 971)⟩, .dac⟩ : DItv)),
    (221, DItv.isValid (⟨⟨(f (-1) (0)), (f 9007199254740991 971)⟩, .com⟩ : DItv)),
    (222, DItv.isValid (⟨⟨(f (-1) (0)), .pinf⟩, .trv⟩ : DItv))] : List (ℕ × Bool)).all (·.2) = true := by
  decide +kernel

example : ([
    (223, DItv.isValid (⟨⟨(f (-1) (0)), .pinf⟩, .dac⟩ : DItv)),
    (224, DItv.isValid (⟨⟨(f 0 0), (f 0 0)⟩, .trv⟩ : DItv)),
    (225, DItv.isValid (⟨⟨(f 0 0), (f 0 0)⟩, .defd⟩ : DItv)),
    (226, DItv.isValid (⟨⟨(f 0 0), (f 0 0)⟩, .dac⟩ : DItv)),
    (227, DItv.isValid (⟨⟨(f 0 0), (f 0 0)⟩, .com⟩ : DItv)),
    (228, DItv.isValid (⟨⟨.nzero, .nzero⟩, .trv⟩ : DItv)),
    (229, DItv.isValid (⟨⟨.nzero, .nzero⟩, .defd⟩ : DItv)),
    (230, DItv.isValid (⟨⟨.nzero, .nzero⟩, .dac⟩ : DItv)),
    (231, DItv.isValid (⟨⟨.nzero, .nzero⟩, .com⟩ : DItv)),
    (232, DItv.isValid (⟨⟨(f 0 0), .nzero⟩, .trv⟩ : DItv)),
    (233, DItv.isValid (⟨⟨(f 0 0), .nzero⟩, .defd⟩ : DItv)),
    (234, DItv.isValid (⟨⟨(f 0 0), .nzero⟩, .dac⟩ : DItv)),
    (235, DItv.isValid (⟨⟨(f 0 0), .nzero⟩, .com⟩ : DItv)),
    (236, DItv.isValid (⟨⟨.nzero, (f 0 0)⟩, .trv⟩ : DItv)),
    (237, DItv.isValid (⟨⟨.nzero, (f 0 0)⟩, .defd⟩ : DItv)),
    (238, DItv.isValid (⟨⟨.nzero, (f 0 0)⟩, .dac⟩ : DItv)),
    (239, DItv.isValid (⟨⟨.nzero, (f 0 0)⟩, .com⟩ : DItv)),
    (240, DItv.isValid (⟨⟨(f 0 0), (f 1 0)⟩, .trv⟩ : DItv)),
    (241, DItv.isValid (⟨⟨(f 0 0), (f 1 0)⟩, .defd⟩ : DItv)),
    (242, DItv.isValid (⟨⟨(f 0 0), (f 1 0)⟩, .dac⟩ : DItv)),
    (243, DItv.isValid (⟨⟨(f 0 0), (f 1 0)⟩, .com⟩ : DItv)),
    (244, DItv.isValid (⟨⟨(f 0 0), (f 9007199254740991 971)⟩, .trv⟩ : DItv)),
    (245, DItv.isValid (⟨⟨(f 0 0), (f 9007199254740991 971)⟩, .defd⟩ : DItv)),
    (246, DItv.isValid (⟨⟨(f 0 0), (f 9007199254740991 971)⟩, .dac⟩ : DItv)),
    (247, DItv.isValid (⟨⟨(f 0 0), (f 9007199254740991 971)⟩, .com⟩ : DItv)),
    (248, DItv.isValid (⟨⟨(f 0 0), .pinf⟩, .trv⟩ : DItv)),
    (249, DItv.isValid (⟨⟨(f 0 0), .pinf⟩, .defd⟩ : DItv)),
    (250, DItv.isValid (⟨⟨(f 0 0), .pinf⟩, .dac⟩ : DItv)),
    (251, DItv.isValid (⟨⟨(f 1 0), (f 1 0)⟩, .trv⟩ : DItv)),
    (252, DItv.isValid (⟨⟨(f 1 0), (f 1 0)⟩, .defd⟩ : DItv)),
    (253, DItv.isValid (⟨⟨(f 1 0), (f 1 0)⟩, .dac⟩ : DItv)),
    (254, DItv.isValid (⟨⟨(f 1 0), (f 1 0)⟩, .com⟩ : DItv)),
    (255, DItv.isValid (⟨⟨(f 1 0), (f 9007199254740991 971)⟩, .trv⟩ : DItv)),
    (256, DItv.isValid (⟨⟨(f 1 0), (f 9007199254740991 971)⟩, .defd⟩ : DItv)),
    (257, DItv.isValid (⟨⟨(f 1 0), (f 9007199254740991 971)⟩, .dac⟩ : DItv)),
    (258, DItv.isValid (⟨⟨(f 1 0), (f 9007199254740991 971)⟩, .com⟩ : DItv)),
    (259, DItv.isValid (⟨⟨(f 1 0), .pinf⟩, .trv⟩ : DItv)),
    (260, DItv.isValid (⟨⟨(f 1 0), .pinf⟩, .defd⟩ : DItv)),
    (261, DItv.isValid (⟨⟨(f 1 0), .pinf⟩, .dac⟩ : DItv)),
    (262, DItv.isValid (⟨⟨(f 9007199254740991 971), (f 9007199254740991 971)⟩, .trv⟩ : DItv)),
    (263, DItv.isValid (⟨⟨(f 9007199254740991 971), (f 9007199254740991 971)⟩, .defd⟩ : DItv)),
    (264, DItv.isValid (⟨⟨(f 9007199254740991 971), (f 9007199254740991 971)⟩, .dac⟩ : DItv)),
    (265, DItv.isValid (⟨⟨(f 9007199254740991 971), (f 9007199254740991 971)⟩, .com⟩ : DItv)),
    (266, DItv.isValid (⟨⟨(f 9007199254740991 971), .pinf⟩, .trv⟩ : DItv)),
    (267, DItv.isValid (⟨⟨(f 9007199254740991 971), .pinf⟩, .defd⟩ : DItv)),
    (268, DItv.isValid (⟨⟨(f 9007199254740991 971), .pinf⟩, .dac⟩ : DItv)),
    (272, !DItv.isValid (⟨⟨.nan, .nan⟩, .defd⟩ : DItv)),
    (275, !DItv.isValid (⟨⟨.nan, .nan⟩, .dac⟩ : DItv)),
    (278, !DItv.isValid (⟨⟨.nan, .nan⟩, .com⟩ : DItv)),
    (281, !DItv.isValid (⟨⟨.ninf, (f (-9007199254740991) (971))⟩, .ill⟩ : DItv))] : List (ℕ × Bool)).all (·.2) = true := by
  decide +kernel

example : ([
    (284, !DItv.isValid (⟨⟨.ninf, (f (-9007199254740991) (971))⟩, .com⟩ : DItv)),
    (287, !DItv.isValid (⟨⟨.ninf, (f (-1) (0))⟩, .ill⟩ : DItv)),
    (290, !DItv.isValid (⟨⟨.ninf, (f (-1) (0))⟩, .com⟩ : DItv)),
    (293, !DItv.isValid (⟨⟨.ninf, (f 0 0)⟩, .ill⟩ : DItv)),
    (296, !DItv.isValid (⟨⟨.ninf, (f 0 0)⟩, .com⟩ : DItv)),
    (299, !DItv.isValid (⟨⟨.ninf, (f 1 0)⟩, .ill⟩ : DItv)),
    (302, !DItv.isValid (⟨⟨.ninf, (f 1 0)⟩, .com⟩ : DItv)),
    (305, !DItv.isValid (⟨⟨.ninf, (f 9007199254740991 971)⟩, .ill⟩ : DItv)),
    (308, !DItv.isValid (⟨⟨.ninf, (f 9007199254740991 971)⟩, .com⟩ : DItv)),
    (311, !DItv.isValid (⟨⟨.ninf, .pinf⟩, .ill⟩ : DItv)),
    (314, !DItv.isValid (⟨⟨.ninf, .pinf⟩, .com⟩ : DItv)),
    (317, !DItv.isValid (⟨⟨(f (-9007199254740991) (971)), (f (-1) (0))⟩, .ill⟩ : DItv)),
    (320, !DItv.isValid (⟨⟨(f (-9007199254740991) (971)), (f 0 0)⟩, .ill⟩ : DItv)),
    (323, !DItv.isValid (⟨⟨(f (-9007199254740991) (971)), (f 1 0)⟩, .ill⟩ : DItv)),
    (326, !DItv.isValid (⟨⟨(f (-9007199254740991) (971)), (f 9007199254740991 971)⟩, .ill⟩ : DItv)),
    (329, !DItv.isValid (⟨⟨(f (-9007199254740991) (971)), .pinf⟩, .ill⟩ : DItv)),
    (332, !DItv.isValid (⟨⟨(f (-9007199254740991) (971)), .pinf⟩, .com⟩ : DItv)),
    (335, !DItv.isValid (⟨⟨(f (-1) (0)), (f (-1) (0))⟩, .ill⟩ : DItv)),
    (338, !DItv.isValid (⟨⟨(f (-1) (0)), (f 0 0)⟩, .ill⟩ : DItv)),
    (341, !DItv.isValid (⟨⟨(f (-1) (0)), (f 1 0)⟩, .ill⟩ : DItv)),
    (344, !DItv.isValid (⟨⟨(f (-1) (0)), (f 9007199254740991 971)⟩, .ill⟩ : DItv)),
    (347, !DItv.isValid (⟨⟨(f (-1) (0)), .pinf⟩, .ill⟩ : DItv)),
    (350, !DItv.isValid (⟨⟨(f (-1) (0)), .pinf⟩, .com⟩ : DItv)),
    (353, !DItv.isValid (⟨⟨(f 0 0), (f 0 0)⟩, .ill⟩ : DItv)),
    (356, !DItv.isValid (⟨⟨.nzero, .nzero⟩, .ill⟩ : DItv)),
    (359, !DItv.isValid (⟨⟨(f 0 0), .nzero⟩, .ill⟩ : DItv)),
    (362, !DItv.isValid (⟨⟨.nzero, (f 0 0)⟩, .ill⟩ : DItv)),
    (365, !DItv.isValid (⟨⟨(f 0 0), (f 1 0)⟩, .ill⟩ : DItv)),
    (368, !DItv.isValid (⟨⟨(f 0 0), (f 9007199254740991 971)⟩, .ill⟩ : DItv)),
    (371, !DItv.isValid (⟨⟨(f 0 0), .pinf⟩, .ill⟩ : DItv)),
    (374, !DItv.isValid (⟨⟨(f 0 0), .pinf⟩, .com⟩ : DItv)),
    (377, !DItv.isValid (⟨⟨(f 1 0), (f 1 0)⟩, .ill⟩ : DItv)),
    (380, !DItv.isValid (⟨⟨(f 1 0), (f 9007199254740991 971)⟩, .ill⟩ : DItv)),
    (383, !DItv.isValid (⟨⟨(f 1 0), .pinf⟩, .ill⟩ : DItv)),
    (386, !DItv.isValid (⟨⟨(f 1 0), .pinf⟩, .com⟩ : DItv)),
    (389, !DItv.isValid (⟨⟨(f 9007199254740991 971), (f 9007199254740991 971)⟩, .ill⟩ : DItv)),
    (392, !DItv.isValid (⟨⟨(f 9007199254740991 971), .pinf⟩, .ill⟩ : DItv)),
    (395, !DItv.isValid (⟨⟨(f 9007199254740991 971), .pinf⟩, .com⟩ : DItv)),
    (398, !DItv.isValid (⟨⟨.ninf, .ninf⟩, .trv⟩ : DItv)),
    (402, !DItv.isValid (⟨⟨(f (-1) (0)), (f (-3) (0))⟩, .ill⟩ : DItv)),
    (406, !DItv.isValid (⟨⟨(f 0 0), (f (-3) (0))⟩, .defd⟩ : DItv)),
    (410, !DItv.isValid (⟨⟨(f 1 0), (f (-3) (0))⟩, .com⟩ : DItv)),
    (414, !DItv.isValid (⟨⟨.pinf, .pinf⟩, .dac⟩ : DItv)),
    (418, !DItv.isValid (⟨⟨.nan, .ninf⟩, .ill⟩ : DItv)),
    (422, !DItv.isValid (⟨⟨.nan, (f (-3) (0))⟩, .trv⟩ : DItv)),
    (426, !DItv.isValid (⟨⟨.nan, (f (-3) (0))⟩, .defd⟩ : DItv)),
    (430, !DItv.isValid (⟨⟨.nan, (f (-3) (0))⟩, .dac⟩ : DItv)),
    (434, !DItv.isValid (⟨⟨.nan, .pinf⟩, .com⟩ : DItv)),
    (438, !DItv.isValid (⟨⟨.ninf, .nan⟩, .ill⟩ : DItv)),
    (442, !DItv.isValid (⟨⟨(f (-1) (0)), .nan⟩, .defd⟩ : DItv))] : List (ℕ × Bool)).all (·.2) = true := by
  decide +kernel

example : ([
    (446, !DItv.isValid (⟨⟨(f 0 0), .nan⟩, .trv⟩ : DItv)),
    (450, !DItv.isValid (⟨⟨(f 1 0), .nan⟩, .dac⟩ : DItv)),
    (454, !DItv.isValid (⟨⟨.pinf, .nan⟩, .com⟩ : DItv))] : List (ℕ × Bool)).all (·.2) = true := by
  decide +kernel

end P1788.Conform
