import Verif.Conform.Basic

/-!
# Conformance: num_func

Generated from `/repo/test/p1788/flavor/infsup/setbased/test_mpfr_bin_ieee754_flavor_num_func.cpp`: the assertions of the project's own test suite, evaluated in the
model by the kernel.  Each entry is (line in that file, value of the assertion).  These are tests of the model, not proofs of
properties.
-/

set_option maxRecDepth 100000

namespace P1788.Conform

example : ([
    (63, FP.feq (Itv.inf (⟨.nan, .nan⟩ : Itv)) .pinf),
    (64, FP.feq (Itv.inf (⟨.ninf, .pinf⟩ : Itv)) .ninf),
    (65, FP.feq (Itv.inf (⟨(f 1 0), (f 2 0)⟩ : Itv)) (f 1 0)),
    (66, FP.feq (Itv.inf (⟨(f (-3) (0)), (f (-2) (0))⟩ : Itv)) (f (-3) (0))),
    (67, FP.feq (Itv.inf (⟨.ninf, (f 2 0)⟩ : Itv)) .ninf),
    (68, FP.feq (Itv.inf (⟨.ninf, (f 0 0)⟩ : Itv)) .ninf),
    (69, FP.feq (Itv.inf (⟨.ninf, .nzero⟩ : Itv)) .ninf),
    (70, FP.feq (Itv.inf (⟨(f (-2) (0)), .pinf⟩ : Itv)) (f (-2) (0))),
    (71, FP.feq (Itv.inf (⟨(f 0 0), .pinf⟩ : Itv)) .nzero),
    (72, sgn (Itv.inf (⟨(f 0 0), .pinf⟩ : Itv))),
    (73, FP.feq (Itv.inf (⟨.nzero, .pinf⟩ : Itv)) .nzero),
    (74, sgn (Itv.inf (⟨.nzero, .pinf⟩ : Itv))),
    (75, FP.feq (Itv.inf (⟨.nzero, (f 0 0)⟩ : Itv)) .nzero),
    (76, sgn (Itv.inf (⟨.nzero, (f 0 0)⟩ : Itv))),
    (77, FP.feq (Itv.inf (⟨(f 0 0), .nzero⟩ : Itv)) .nzero),
    (78, sgn (Itv.inf (⟨(f 0 0), .nzero⟩ : Itv))),
    (79, FP.feq (Itv.inf (⟨(f 0 0), (f 0 0)⟩ : Itv)) .nzero),
    (80, sgn (Itv.inf (⟨(f 0 0), (f 0 0)⟩ : Itv))),
    (81, FP.feq (Itv.inf (⟨.nzero, .nzero⟩ : Itv)) .nzero),
    (82, sgn (Itv.inf (⟨.nzero, .nzero⟩ : Itv))),
    (87, (Itv.inf (⟨(f 1 0), (f (-2) (0))⟩ : Itv)).isNaN),
    (101, FP.feq (Itv.infMixed .float .double (⟨.nan, .nan⟩ : Itv)) .pinf),
    (102, FP.feq (Itv.infMixed .float .double (⟨.ninf, .pinf⟩ : Itv)) .ninf),
    (103, FP.feq (Itv.infMixed .float .double (⟨(f 1 0), (f 2 0)⟩ : Itv)) (f 1 0)),
    (104, FP.feq (Itv.infMixed .float .double (⟨(f (-3) (0)), (f (-2) (0))⟩ : Itv)) (f (-3) (0))),
    (105, FP.feq (Itv.infMixed .float .double (⟨.ninf, (f 2 0)⟩ : Itv)) .ninf),
    (106, FP.feq (Itv.infMixed .float .double (⟨.ninf, (f 0 0)⟩ : Itv)) .ninf),
    (107, FP.feq (Itv.infMixed .float .double (⟨.ninf, .nzero⟩ : Itv)) .ninf),
    (108, FP.feq (Itv.infMixed .float .double (⟨(f (-2) (0)), .pinf⟩ : Itv)) (f (-2) (0))),
    (109, FP.feq (Itv.infMixed .float .double (⟨(f 0 0), .pinf⟩ : Itv)) .nzero),
    (110, sgn (Itv.infMixed .float .double (⟨(f 0 0), .pinf⟩ : Itv))),
    (111, FP.feq (Itv.infMixed .float .double (⟨.nzero, .pinf⟩ : Itv)) .nzero),
    (112, sgn (Itv.infMixed .float .double (⟨.nzero, .pinf⟩ : Itv))),
    (113, FP.feq (Itv.infMixed .float .double (⟨.nzero, (f 0 0)⟩ : Itv)) .nzero),
    (114, sgn (Itv.infMixed .float .double (⟨.nzero, (f 0 0)⟩ : Itv))),
    (115, FP.feq (Itv.infMixed .float .double (⟨(f 0 0), .nzero⟩ : Itv)) .nzero),
    (116, sgn (Itv.infMixed .float .double (⟨(f 0 0), .nzero⟩ : Itv))),
    (117, FP.feq (Itv.infMixed .float .double (⟨(f 0 0), (f 0 0)⟩ : Itv)) .nzero),
    (118, sgn (Itv.infMixed .float .double (⟨(f 0 0), (f 0 0)⟩ : Itv))),
    (119, FP.feq (Itv.infMixed .float .double (⟨.nzero, .nzero⟩ : Itv)) .nzero),
    (120, sgn (Itv.infMixed .float .double (⟨.nzero, .nzero⟩ : Itv))),
    (122, FP.feq (Itv.infMixed .float .double (⟨(f (-1) (-1074)), (f (1) (-1074))⟩ : Itv)) (f (-1) (-149))),
    (123, FP.feq (Itv.infMixed .float .double (⟨(f (-1) (-1074)), (f (-1) (-1074))⟩ : Itv)) (f (-1) (-149))),
    (124, FP.feq (Itv.infMixed .float .double (⟨(f (1) (-1074)), (f (1) (-1074))⟩ : Itv)) .nzero),
    (125, sgn (Itv.infMixed .float .double (⟨(f (1) (-1074)), (f (1) (-1074))⟩ : Itv))),
    (126, FP.feq (Itv.infMixed .float .double (⟨(f (-9007199254740991) (971)), (f 9007199254740991 971)⟩ : Itv)) .ninf),
    (131, (Itv.infMixed .float .double (⟨(f 1 0), (f (-2) (0))⟩ : Itv)).isNaN),
    (141, FP.feq (Itv.infMixed .double .float (⟨.nan, .nan⟩ : Itv)) .pinf),
    (142, FP.feq (Itv.infMixed .double .float (⟨.ninf, .pinf⟩ : Itv)) .ninf),
    (143, FP.feq (Itv.infMixed .double .float (⟨(f 1 0), (f 2 0)⟩ : Itv)) (f 1 0))] : List (ℕ × Bool)).all (·.2) = true := by
  decide +kernel

example : ([
    (144, FP.feq (Itv.infMixed .double .float (⟨(f (-3) (0)), (f (-2) (0))⟩ : Itv)) (f (-3) (0))),
    (145, FP.feq (Itv.infMixed .double .float (⟨.ninf, (f 2 0)⟩ : Itv)) .ninf),
    (146, FP.feq (Itv.infMixed .double .float (⟨.ninf, (f 0 0)⟩ : Itv)) .ninf),
    (147, FP.feq (Itv.infMixed .double .float (⟨.ninf, .nzero⟩ : Itv)) .ninf),
    (148, FP.feq (Itv.infMixed .double .float (⟨(f (-2) (0)), .pinf⟩ : Itv)) (f (-2) (0))),
    (149, FP.feq (Itv.infMixed .double .float (⟨(f 0 0), .pinf⟩ : Itv)) .nzero),
    (150, sgn (Itv.infMixed .double .float (⟨(f 0 0), .pinf⟩ : Itv))),
    (151, FP.feq (Itv.infMixed .double .float (⟨.nzero, .pinf⟩ : Itv)) .nzero),
    (152, sgn (Itv.infMixed .double .float (⟨.nzero, .pinf⟩ : Itv))),
    (153, FP.feq (Itv.infMixed .double .float (⟨.nzero, (f 0 0)⟩ : Itv)) .nzero),
    (154, sgn (Itv.infMixed .double .float (⟨.nzero, (f 0 0)⟩ : Itv))),
    (155, FP.feq (Itv.infMixed .double .float (⟨(f 0 0), .nzero⟩ : Itv)) .nzero),
    (156, sgn (Itv.infMixed .double .float (⟨(f 0 0), .nzero⟩ : Itv))),
    (157, FP.feq (Itv.infMixed .double .float (⟨(f 0 0), (f 0 0)⟩ : Itv)) .nzero),
    (158, sgn (Itv.infMixed .double .float (⟨(f 0 0), (f 0 0)⟩ : Itv))),
    (159, FP.feq (Itv.infMixed .double .float (⟨.nzero, .nzero⟩ : Itv)) .nzero),
    (160, sgn (Itv.infMixed .double .float (⟨.nzero, .nzero⟩ : Itv))),
    (162, FP.feq (Itv.infMixed .double .float (⟨(f (-1) (-149)), (f (1) (-149))⟩ : Itv)) (f (-1) (-149))),
    (163, FP.feq (Itv.infMixed .double .float (⟨(f (-1) (-149)), (f (-1) (-149))⟩ : Itv)) (f (-1) (-149))),
    (164, FP.feq (Itv.infMixed .double .float (⟨(f (1) (-149)), (f (1) (-149))⟩ : Itv)) (f (1) (-149))),
    (165, FP.feq (Itv.infMixed .double .float (⟨(f (-16777215) (104)), (f 16777215 104)⟩ : Itv)) (f (-16777215) (104))),
    (170, (Itv.infMixed .double .float (⟨(f 1 0), (f (-2) (0))⟩ : Itv)).isNaN),
    (184, (DItv.num (Itv.inf) (⟨⟨.nan, .nan⟩, .ill⟩ : DItv)).isNaN),
    (186, FP.feq (DItv.num (Itv.inf) (⟨⟨.nan, .nan⟩, .trv⟩ : DItv)) .pinf),
    (187, FP.feq (DItv.num (Itv.inf) (⟨⟨.ninf, .pinf⟩, .defd⟩ : DItv)) .ninf),
    (188, FP.feq (DItv.num (Itv.inf) (⟨⟨(f 1 0), (f 2 0)⟩, .com⟩ : DItv)) (f 1 0)),
    (189, FP.feq (DItv.num (Itv.inf) (⟨⟨(f (-3) (0)), (f (-2) (0))⟩, .trv⟩ : DItv)) (f (-3) (0))),
    (190, FP.feq (DItv.num (Itv.inf) (⟨⟨.ninf, (f 2 0)⟩, .dac⟩ : DItv)) .ninf),
    (191, FP.feq (DItv.num (Itv.inf) (⟨⟨.ninf, (f 0 0)⟩, .defd⟩ : DItv)) .ninf),
    (192, FP.feq (DItv.num (Itv.inf) (⟨⟨.ninf, .nzero⟩, .trv⟩ : DItv)) .ninf),
    (193, FP.feq (DItv.num (Itv.inf) (⟨⟨(f (-2) (0)), .pinf⟩, .trv⟩ : DItv)) (f (-2) (0))),
    (194, FP.feq (DItv.num (Itv.inf) (⟨⟨(f 0 0), .pinf⟩, .defd⟩ : DItv)) .nzero),
    (195, sgn (DItv.num (Itv.inf) (⟨⟨(f 0 0), .pinf⟩, .defd⟩ : DItv))),
    (196, FP.feq (DItv.num (Itv.inf) (⟨⟨.nzero, .pinf⟩, .trv⟩ : DItv)) .nzero),
    (197, sgn (DItv.num (Itv.inf) (⟨⟨.nzero, .pinf⟩, .trv⟩ : DItv))),
    (198, FP.feq (DItv.num (Itv.inf) (⟨⟨.nzero, (f 0 0)⟩, .dac⟩ : DItv)) .nzero),
    (199, sgn (DItv.num (Itv.inf) (⟨⟨.nzero, (f 0 0)⟩, .trv⟩ : DItv))),
    (200, FP.feq (DItv.num (Itv.inf) (⟨⟨(f 0 0), .nzero⟩, .trv⟩ : DItv)) .nzero),
    (201, sgn (DItv.num (Itv.inf) (⟨⟨(f 0 0), .nzero⟩, .trv⟩ : DItv))),
    (202, FP.feq (DItv.num (Itv.inf) (⟨⟨(f 0 0), (f 0 0)⟩, .trv⟩ : DItv)) .nzero),
    (203, sgn (DItv.num (Itv.inf) (⟨⟨(f 0 0), (f 0 0)⟩, .trv⟩ : DItv))),
    (204, FP.feq (DItv.num (Itv.inf) (⟨⟨.nzero, .nzero⟩, .trv⟩ : DItv)) .nzero),
    (205, sgn (DItv.num (Itv.inf) (⟨⟨.nzero, .nzero⟩, .trv⟩ : DItv))),
    (211, (DItv.num (Itv.inf) (⟨⟨(f 1 0), (f (-2) (0))⟩, .com⟩ : DItv)).isNaN),
    (225, (DItv.num (Itv.infMixed .float .double) (⟨⟨.nan, .nan⟩, .ill⟩ : DItv)).isNaN),
    (227, FP.feq (DItv.num (Itv.infMixed .float .double) (⟨⟨.nan, .nan⟩, .trv⟩ : DItv)) .pinf),
    (228, FP.feq (DItv.num (Itv.infMixed .float .double) (⟨⟨.ninf, .pinf⟩, .defd⟩ : DItv)) .ninf),
    (229, FP.feq (DItv.num (Itv.infMixed .float .double) (⟨⟨(f 1 0), (f 2 0)⟩, .com⟩ : DItv)) (f 1 0)),
    (230, FP.feq (DItv.num (Itv.infMixed .float .double) (⟨⟨(f (-3) (0)), (f (-2) (0))⟩, .trv⟩ : DItv)) (f (-3) (0))),
    (231, FP.feq (DItv.num (Itv.infMixed .float .double) (⟨⟨.ninf, (f 2 0)⟩, .dac⟩ : DItv)) .ninf)] : List (ℕ × Bool)).all (·.2) = true := by
  decide +kernel

example : ([
    (232, FP.feq (DItv.num (Itv.infMixed .float .double) (⟨⟨.ninf, (f 0 0)⟩, .defd⟩ : DItv)) .ninf),
    (233, FP.feq (DItv.num (Itv.infMixed .float .double) (⟨⟨.ninf, .nzero⟩, .trv⟩ : DItv)) .ninf),
    (234, FP.feq (DItv.num (Itv.infMixed .float .double) (⟨⟨(f (-2) (0)), .pinf⟩, .trv⟩ : DItv)) (f (-2) (0))),
    (235, FP.feq (DItv.num (Itv.infMixed .float .double) (⟨⟨(f 0 0), .pinf⟩, .defd⟩ : DItv)) .nzero),
    (236, sgn (DItv.num (Itv.infMixed .float .double) (⟨⟨(f 0 0), .pinf⟩, .defd⟩ : DItv))),
    (237, FP.feq (DItv.num (Itv.infMixed .float .double) (⟨⟨.nzero, .pinf⟩, .trv⟩ : DItv)) .nzero),
    (238, sgn (DItv.num (Itv.infMixed .float .double) (⟨⟨.nzero, .pinf⟩, .trv⟩ : DItv))),
    (239, FP.feq (DItv.num (Itv.infMixed .float .double) (⟨⟨.nzero, (f 0 0)⟩, .dac⟩ : DItv)) .nzero),
    (240, sgn (DItv.num (Itv.infMixed .float .double) (⟨⟨.nzero, (f 0 0)⟩, .trv⟩ : DItv))),
    (241, FP.feq (DItv.num (Itv.infMixed .float .double) (⟨⟨(f 0 0), .nzero⟩, .trv⟩ : DItv)) .nzero),
    (242, sgn (DItv.num (Itv.infMixed .float .double) (⟨⟨(f 0 0), .nzero⟩, .trv⟩ : DItv))),
    (243, FP.feq (DItv.num (Itv.infMixed .float .double) (⟨⟨(f 0 0), (f 0 0)⟩, .trv⟩ : DItv)) .nzero),
    (244, sgn (DItv.num (Itv.infMixed .float .double) (⟨⟨(f 0 0), (f 0 0)⟩, .trv⟩ : DItv))),
    (245, FP.feq (DItv.num (Itv.infMixed .float .double) (⟨⟨.nzero, .nzero⟩, .trv⟩ : DItv)) .nzero),
    (246, sgn (DItv.num (Itv.infMixed .float .double) (⟨⟨.nzero, .nzero⟩, .trv⟩ : DItv))),
    (248, FP.feq (DItv.num (Itv.infMixed .float .double) (⟨⟨(f (-1) (-1074)), (f (1) (-1074))⟩, .com⟩ : DItv)) (f (-1) (-149))),
    (249, FP.feq (DItv.num (Itv.infMixed .float .double) (⟨⟨(f (-1) (-1074)), (f (-1) (-1074))⟩, .trv⟩ : DItv)) (f (-1) (-149))),
    (250, FP.feq (DItv.num (Itv.infMixed .float .double) (⟨⟨(f (1) (-1074)), (f (1) (-1074))⟩, .defd⟩ : DItv)) .nzero),
    (251, sgn (DItv.num (Itv.infMixed .float .double) (⟨⟨(f (1) (-1074)), (f (1) (-1074))⟩, .dac⟩ : DItv))),
    (252, FP.feq (DItv.num (Itv.infMixed .float .double) (⟨⟨(f (-9007199254740991) (971)), (f 9007199254740991 971)⟩, .trv⟩ : DItv)) .ninf),
    (258, (DItv.num (Itv.infMixed .float .double) (⟨⟨(f 1 0), (f (-2) (0))⟩, .com⟩ : DItv)).isNaN),
    (267, (DItv.num (Itv.infMixed .double .float) (⟨⟨.nan, .nan⟩, .ill⟩ : DItv)).isNaN),
    (269, FP.feq (DItv.num (Itv.infMixed .double .float) (⟨⟨.nan, .nan⟩, .trv⟩ : DItv)) .pinf),
    (270, FP.feq (DItv.num (Itv.infMixed .double .float) (⟨⟨.ninf, .pinf⟩, .defd⟩ : DItv)) .ninf),
    (271, FP.feq (DItv.num (Itv.infMixed .double .float) (⟨⟨(f 1 0), (f 2 0)⟩, .com⟩ : DItv)) (f 1 0)),
    (272, FP.feq (DItv.num (Itv.infMixed .double .float) (⟨⟨(f (-3) (0)), (f (-2) (0))⟩, .trv⟩ : DItv)) (f (-3) (0))),
    (273, FP.feq (DItv.num (Itv.infMixed .double .float) (⟨⟨.ninf, (f 2 0)⟩, .dac⟩ : DItv)) .ninf),
    (274, FP.feq (DItv.num (Itv.infMixed .double .float) (⟨⟨.ninf, (f 0 0)⟩, .defd⟩ : DItv)) .ninf),
    (275, FP.feq (DItv.num (Itv.infMixed .double .float) (⟨⟨.ninf, .nzero⟩, .trv⟩ : DItv)) .ninf),
    (276, FP.feq (DItv.num (Itv.infMixed .double .float) (⟨⟨(f (-2) (0)), .pinf⟩, .trv⟩ : DItv)) (f (-2) (0))),
    (277, FP.feq (DItv.num (Itv.infMixed .double .float) (⟨⟨(f 0 0), .pinf⟩, .defd⟩ : DItv)) .nzero),
    (278, sgn (DItv.num (Itv.infMixed .double .float) (⟨⟨(f 0 0), .pinf⟩, .defd⟩ : DItv))),
    (279, FP.feq (DItv.num (Itv.infMixed .double .float) (⟨⟨.nzero, .pinf⟩, .trv⟩ : DItv)) .nzero),
    (280, sgn (DItv.num (Itv.infMixed .double .float) (⟨⟨.nzero, .pinf⟩, .trv⟩ : DItv))),
    (281, FP.feq (DItv.num (Itv.infMixed .double .float) (⟨⟨.nzero, (f 0 0)⟩, .dac⟩ : DItv)) .nzero),
    (282, sgn (DItv.num (Itv.infMixed .double .float) (⟨⟨.nzero, (f 0 0)⟩, .trv⟩ : DItv))),
    (283, FP.feq (DItv.num (Itv.infMixed .double .float) (⟨⟨(f 0 0), .nzero⟩, .trv⟩ : DItv)) .nzero),
    (284, sgn (DItv.num (Itv.infMixed .double .float) (⟨⟨(f 0 0), .nzero⟩, .trv⟩ : DItv))),
    (285, FP.feq (DItv.num (Itv.infMixed .double .float) (⟨⟨(f 0 0), (f 0 0)⟩, .trv⟩ : DItv)) .nzero),
    (286, sgn (DItv.num (Itv.infMixed .double .float) (⟨⟨(f 0 0), (f 0 0)⟩, .trv⟩ : DItv))),
    (287, FP.feq (DItv.num (Itv.infMixed .double .float) (⟨⟨.nzero, .nzero⟩, .trv⟩ : DItv)) .nzero),
    (288, sgn (DItv.num (Itv.infMixed .double .float) (⟨⟨.nzero, .nzero⟩, .trv⟩ : DItv))),
    (290, FP.feq (DItv.num (Itv.infMixed .double .float) (⟨⟨(f (-1) (-149)), (f (1) (-149))⟩, .com⟩ : DItv)) (f (-1) (-149))),
    (291, FP.feq (DItv.num (Itv.infMixed .double .float) (⟨⟨(f (-1) (-149)), (f (-1) (-149))⟩, .trv⟩ : DItv)) (f (-1) (-149))),
    (292, FP.feq (DItv.num (Itv.infMixed .double .float) (⟨⟨(f (1) (-149)), (f (1) (-149))⟩, .defd⟩ : DItv)) (f (1) (-149))),
    (293, FP.feq (DItv.num (Itv.infMixed .double .float) (⟨⟨(f (-16777215) (104)), (f 16777215 104)⟩, .trv⟩ : DItv)) (f (-16777215) (104))),
    (298, (DItv.num (Itv.infMixed .double .float) (⟨⟨(f 1 0), (f (-2) (0))⟩, .com⟩ : DItv)).isNaN),
    (314, FP.feq (Itv.sup (⟨.nan, .nan⟩ : Itv)) .ninf),
    (315, FP.feq (Itv.sup (⟨.ninf, .pinf⟩ : Itv)) .pinf),
    (316, FP.feq (Itv.sup (⟨(f 1 0), (f 2 0)⟩ : Itv)) (f 2 0))] : List (ℕ × Bool)).all (·.2) = true := by
  decide +kernel

example : ([
    (317, FP.feq (Itv.sup (⟨(f (-3) (0)), (f (-2) (0))⟩ : Itv)) (f (-2) (0))),
    (318, FP.feq (Itv.sup (⟨.ninf, (f 2 0)⟩ : Itv)) (f 2 0)),
    (319, FP.feq (Itv.sup (⟨.ninf, (f 0 0)⟩ : Itv)) (f 0 0)),
    (320, !sgn (Itv.sup (⟨.ninf, (f 0 0)⟩ : Itv))),
    (321, FP.feq (Itv.sup (⟨.ninf, .nzero⟩ : Itv)) (f 0 0)),
    (322, !sgn (Itv.sup (⟨.ninf, .nzero⟩ : Itv))),
    (323, FP.feq (Itv.sup (⟨(f (-2) (0)), .pinf⟩ : Itv)) .pinf),
    (324, FP.feq (Itv.sup (⟨(f 0 0), .pinf⟩ : Itv)) .pinf),
    (325, FP.feq (Itv.sup (⟨.nzero, .pinf⟩ : Itv)) .pinf),
    (326, FP.feq (Itv.sup (⟨.nzero, (f 0 0)⟩ : Itv)) (f 0 0)),
    (327, !sgn (Itv.sup (⟨.nzero, (f 0 0)⟩ : Itv))),
    (328, FP.feq (Itv.sup (⟨(f 0 0), .nzero⟩ : Itv)) (f 0 0)),
    (329, !sgn (Itv.sup (⟨(f 0 0), .nzero⟩ : Itv))),
    (330, FP.feq (Itv.sup (⟨(f 0 0), (f 0 0)⟩ : Itv)) (f 0 0)),
    (331, !sgn (Itv.sup (⟨(f 0 0), (f 0 0)⟩ : Itv))),
    (332, FP.feq (Itv.sup (⟨.nzero, .nzero⟩ : Itv)) (f 0 0)),
    (333, !sgn (Itv.sup (⟨.nzero, .nzero⟩ : Itv))),
    (338, (Itv.sup (⟨(f 1 0), (f (-2) (0))⟩ : Itv)).isNaN),
    (352, FP.feq (Itv.supMixed .float .double (⟨.nan, .nan⟩ : Itv)) .ninf),
    (353, FP.feq (Itv.supMixed .float .double (⟨.ninf, .pinf⟩ : Itv)) .pinf),
    (354, FP.feq (Itv.supMixed .float .double (⟨(f 1 0), (f 2 0)⟩ : Itv)) (f 2 0)),
    (355, FP.feq (Itv.supMixed .float .double (⟨(f (-3) (0)), (f (-2) (0))⟩ : Itv)) (f (-2) (0))),
    (356, FP.feq (Itv.supMixed .float .double (⟨.ninf, (f 2 0)⟩ : Itv)) (f 2 0)),
    (357, FP.feq (Itv.supMixed .float .double (⟨.ninf, (f 0 0)⟩ : Itv)) (f 0 0)),
    (358, !sgn (Itv.supMixed .float .double (⟨.ninf, (f 0 0)⟩ : Itv))),
    (359, FP.feq (Itv.supMixed .float .double (⟨.ninf, .nzero⟩ : Itv)) (f 0 0)),
    (360, !sgn (Itv.supMixed .float .double (⟨.ninf, .nzero⟩ : Itv))),
    (361, FP.feq (Itv.supMixed .float .double (⟨(f (-2) (0)), .pinf⟩ : Itv)) .pinf),
    (362, FP.feq (Itv.supMixed .float .double (⟨(f 0 0), .pinf⟩ : Itv)) .pinf),
    (363, FP.feq (Itv.supMixed .float .double (⟨.nzero, .pinf⟩ : Itv)) .pinf),
    (364, FP.feq (Itv.supMixed .float .double (⟨.nzero, (f 0 0)⟩ : Itv)) (f 0 0)),
    (365, !sgn (Itv.supMixed .float .double (⟨.nzero, (f 0 0)⟩ : Itv))),
    (366, FP.feq (Itv.supMixed .float .double (⟨(f 0 0), .nzero⟩ : Itv)) (f 0 0)),
    (367, !sgn (Itv.supMixed .float .double (⟨(f 0 0), .nzero⟩ : Itv))),
    (368, FP.feq (Itv.supMixed .float .double (⟨(f 0 0), (f 0 0)⟩ : Itv)) (f 0 0)),
    (369, !sgn (Itv.supMixed .float .double (⟨(f 0 0), (f 0 0)⟩ : Itv))),
    (370, FP.feq (Itv.supMixed .float .double (⟨.nzero, .nzero⟩ : Itv)) (f 0 0)),
    (371, !sgn (Itv.supMixed .float .double (⟨.nzero, .nzero⟩ : Itv))),
    (373, FP.feq (Itv.supMixed .float .double (⟨(f (-1) (-1074)), (f (1) (-1074))⟩ : Itv)) (f (1) (-149))),
    (374, FP.feq (Itv.supMixed .float .double (⟨(f (-1) (-1074)), (f (-1) (-1074))⟩ : Itv)) (f 0 0)),
    (375, !sgn (Itv.supMixed .float .double (⟨(f (-1) (-1074)), (f (-1) (-1074))⟩ : Itv))),
    (376, FP.feq (Itv.supMixed .float .double (⟨(f (1) (-1074)), (f (1) (-1074))⟩ : Itv)) (f (1) (-149))),
    (377, FP.feq (Itv.supMixed .float .double (⟨(f (-9007199254740991) (971)), (f 9007199254740991 971)⟩ : Itv)) .pinf),
    (382, (Itv.supMixed .float .double (⟨(f 1 0), (f (-2) (0))⟩ : Itv)).isNaN),
    (391, FP.feq (Itv.supMixed .double .float (⟨.nan, .nan⟩ : Itv)) .ninf),
    (392, FP.feq (Itv.supMixed .double .float (⟨.ninf, .pinf⟩ : Itv)) .pinf),
    (393, FP.feq (Itv.supMixed .double .float (⟨(f 1 0), (f 2 0)⟩ : Itv)) (f 2 0)),
    (394, FP.feq (Itv.supMixed .double .float (⟨(f (-3) (0)), (f (-2) (0))⟩ : Itv)) (f (-2) (0))),
    (395, FP.feq (Itv.supMixed .double .float (⟨.ninf, (f 2 0)⟩ : Itv)) (f 2 0)),
    (396, FP.feq (Itv.supMixed .double .float (⟨.ninf, (f 0 0)⟩ : Itv)) (f 0 0))] : List (ℕ × Bool)).all (·.2) = true := by
  decide +kernel

example : ([
    (397, !sgn (Itv.supMixed .double .float (⟨.ninf, (f 0 0)⟩ : Itv))),
    (398, FP.feq (Itv.supMixed .double .float (⟨.ninf, .nzero⟩ : Itv)) (f 0 0)),
    (399, !sgn (Itv.supMixed .double .float (⟨.ninf, .nzero⟩ : Itv))),
    (400, FP.feq (Itv.supMixed .double .float (⟨(f (-2) (0)), .pinf⟩ : Itv)) .pinf),
    (401, FP.feq (Itv.supMixed .double .float (⟨(f 0 0), .pinf⟩ : Itv)) .pinf),
    (402, FP.feq (Itv.supMixed .double .float (⟨.nzero, .pinf⟩ : Itv)) .pinf),
    (403, FP.feq (Itv.supMixed .double .float (⟨.nzero, (f 0 0)⟩ : Itv)) (f 0 0)),
    (404, !sgn (Itv.supMixed .double .float (⟨.nzero, (f 0 0)⟩ : Itv))),
    (405, FP.feq (Itv.supMixed .double .float (⟨(f 0 0), .nzero⟩ : Itv)) (f 0 0)),
    (406, !sgn (Itv.supMixed .double .float (⟨(f 0 0), .nzero⟩ : Itv))),
    (407, FP.feq (Itv.supMixed .double .float (⟨(f 0 0), (f 0 0)⟩ : Itv)) (f 0 0)),
    (408, !sgn (Itv.supMixed .double .float (⟨(f 0 0), (f 0 0)⟩ : Itv))),
    (409, FP.feq (Itv.supMixed .double .float (⟨.nzero, .nzero⟩ : Itv)) (f 0 0)),
    (410, !sgn (Itv.supMixed .double .float (⟨.nzero, .nzero⟩ : Itv))),
    (412, FP.feq (Itv.supMixed .double .float (⟨(f (-1) (-149)), (f (1) (-149))⟩ : Itv)) (f (1) (-149))),
    (413, FP.feq (Itv.supMixed .double .float (⟨(f (-1) (-149)), (f (-1) (-149))⟩ : Itv)) (f (-1) (-149))),
    (414, FP.feq (Itv.supMixed .double .float (⟨(f (1) (-149)), (f (1) (-149))⟩ : Itv)) (f (1) (-149))),
    (415, FP.feq (Itv.supMixed .double .float (⟨(f (-16777215) (104)), (f 16777215 104)⟩ : Itv)) (f 16777215 104)),
    (421, (Itv.supMixed .double .float (⟨(f 1 0), (f (-2) (0))⟩ : Itv)).isNaN),
    (435, (DItv.num (Itv.sup) (⟨⟨.nan, .nan⟩, .ill⟩ : DItv)).isNaN),
    (437, FP.feq (DItv.num (Itv.sup) (⟨⟨.nan, .nan⟩, .trv⟩ : DItv)) .ninf),
    (438, FP.feq (DItv.num (Itv.sup) (⟨⟨.ninf, .pinf⟩, .defd⟩ : DItv)) .pinf),
    (439, FP.feq (DItv.num (Itv.sup) (⟨⟨(f 1 0), (f 2 0)⟩, .com⟩ : DItv)) (f 2 0)),
    (440, FP.feq (DItv.num (Itv.sup) (⟨⟨(f (-3) (0)), (f (-2) (0))⟩, .trv⟩ : DItv)) (f (-2) (0))),
    (441, FP.feq (DItv.num (Itv.sup) (⟨⟨.ninf, (f 2 0)⟩, .dac⟩ : DItv)) (f 2 0)),
    (442, FP.feq (DItv.num (Itv.sup) (⟨⟨.ninf, (f 0 0)⟩, .defd⟩ : DItv)) (f 0 0)),
    (443, !sgn (DItv.num (Itv.sup) (⟨⟨.ninf, (f 0 0)⟩, .trv⟩ : DItv))),
    (444, FP.feq (DItv.num (Itv.sup) (⟨⟨.ninf, .nzero⟩, .trv⟩ : DItv)) (f 0 0)),
    (445, !sgn (DItv.num (Itv.sup) (⟨⟨.ninf, (f 0 0)⟩, .trv⟩ : DItv))),
    (446, FP.feq (DItv.num (Itv.sup) (⟨⟨(f (-2) (0)), .pinf⟩, .trv⟩ : DItv)) .pinf),
    (447, FP.feq (DItv.num (Itv.sup) (⟨⟨(f 0 0), .pinf⟩, .defd⟩ : DItv)) .pinf),
    (448, FP.feq (DItv.num (Itv.sup) (⟨⟨.nzero, .pinf⟩, .trv⟩ : DItv)) .pinf),
    (449, FP.feq (DItv.num (Itv.sup) (⟨⟨.nzero, (f 0 0)⟩, .dac⟩ : DItv)) (f 0 0)),
    (450, !sgn (DItv.num (Itv.sup) (⟨⟨.nzero, (f 0 0)⟩, .trv⟩ : DItv))),
    (451, FP.feq (DItv.num (Itv.sup) (⟨⟨(f 0 0), .nzero⟩, .trv⟩ : DItv)) (f 0 0)),
    (452, !sgn (DItv.num (Itv.sup) (⟨⟨(f 0 0), .nzero⟩, .trv⟩ : DItv))),
    (453, FP.feq (DItv.num (Itv.sup) (⟨⟨(f 0 0), (f 0 0)⟩, .trv⟩ : DItv)) (f 0 0)),
    (454, !sgn (DItv.num (Itv.sup) (⟨⟨(f 0 0), (f 0 0)⟩, .trv⟩ : DItv))),
    (455, FP.feq (DItv.num (Itv.sup) (⟨⟨.nzero, .nzero⟩, .trv⟩ : DItv)) (f 0 0)),
    (456, !sgn (DItv.num (Itv.sup) (⟨⟨.nzero, .nzero⟩, .trv⟩ : DItv))),
    (461, (DItv.num (Itv.sup) (⟨⟨(f 1 0), (f (-2) (0))⟩, .com⟩ : DItv)).isNaN),
    (475, (DItv.num (Itv.supMixed .float .double) (⟨⟨.nan, .nan⟩, .ill⟩ : DItv)).isNaN),
    (477, FP.feq (DItv.num (Itv.supMixed .float .double) (⟨⟨.nan, .nan⟩, .trv⟩ : DItv)) .ninf),
    (478, FP.feq (DItv.num (Itv.supMixed .float .double) (⟨⟨.ninf, .pinf⟩, .defd⟩ : DItv)) .pinf),
    (479, FP.feq (DItv.num (Itv.supMixed .float .double) (⟨⟨(f 1 0), (f 2 0)⟩, .com⟩ : DItv)) (f 2 0)),
    (480, FP.feq (DItv.num (Itv.supMixed .float .double) (⟨⟨(f (-3) (0)), (f (-2) (0))⟩, .trv⟩ : DItv)) (f (-2) (0))),
    (481, FP.feq (DItv.num (Itv.supMixed .float .double) (⟨⟨.ninf, (f 2 0)⟩, .dac⟩ : DItv)) (f 2 0)),
    (482, FP.feq (DItv.num (Itv.supMixed .float .double) (⟨⟨.ninf, (f 0 0)⟩, .defd⟩ : DItv)) (f 0 0)),
    (483, !sgn (DItv.num (Itv.supMixed .float .double) (⟨⟨.ninf, (f 0 0)⟩, .defd⟩ : DItv))),
    (484, FP.feq (DItv.num (Itv.supMixed .float .double) (⟨⟨.ninf, .nzero⟩, .trv⟩ : DItv)) (f 0 0))] : List (ℕ × Bool)).all (·.2) = true := by
  decide +kernel

example : ([
    (485, !sgn (DItv.num (Itv.supMixed .float .double) (⟨⟨.ninf, .nzero⟩, .trv⟩ : DItv))),
    (486, FP.feq (DItv.num (Itv.supMixed .float .double) (⟨⟨(f (-2) (0)), .pinf⟩, .trv⟩ : DItv)) .pinf),
    (487, FP.feq (DItv.num (Itv.supMixed .float .double) (⟨⟨(f 0 0), .pinf⟩, .defd⟩ : DItv)) .pinf),
    (488, FP.feq (DItv.num (Itv.supMixed .float .double) (⟨⟨.nzero, .pinf⟩, .trv⟩ : DItv)) .pinf),
    (489, FP.feq (DItv.num (Itv.supMixed .float .double) (⟨⟨.nzero, (f 0 0)⟩, .dac⟩ : DItv)) (f 0 0)),
    (490, !sgn (DItv.num (Itv.supMixed .float .double) (⟨⟨.nzero, (f 0 0)⟩, .trv⟩ : DItv))),
    (491, FP.feq (DItv.num (Itv.supMixed .float .double) (⟨⟨(f 0 0), .nzero⟩, .trv⟩ : DItv)) (f 0 0)),
    (492, !sgn (DItv.num (Itv.supMixed .float .double) (⟨⟨(f 0 0), .nzero⟩, .trv⟩ : DItv))),
    (493, FP.feq (DItv.num (Itv.supMixed .float .double) (⟨⟨(f 0 0), (f 0 0)⟩, .trv⟩ : DItv)) (f 0 0)),
    (494, !sgn (DItv.num (Itv.supMixed .float .double) (⟨⟨(f 0 0), (f 0 0)⟩, .trv⟩ : DItv))),
    (495, FP.feq (DItv.num (Itv.supMixed .float .double) (⟨⟨.nzero, .nzero⟩, .trv⟩ : DItv)) (f 0 0)),
    (496, !sgn (DItv.num (Itv.supMixed .float .double) (⟨⟨.nzero, .nzero⟩, .trv⟩ : DItv))),
    (498, FP.feq (DItv.num (Itv.supMixed .float .double) (⟨⟨(f (-1) (-1074)), (f (1) (-1074))⟩, .com⟩ : DItv)) (f (1) (-149))),
    (499, FP.feq (DItv.num (Itv.supMixed .float .double) (⟨⟨(f (-1) (-1074)), (f (-1) (-1074))⟩, .trv⟩ : DItv)) (f 0 0)),
    (500, !sgn (DItv.num (Itv.supMixed .float .double) (⟨⟨(f (-1) (-1074)), (f (-1) (-1074))⟩, .trv⟩ : DItv))),
    (501, FP.feq (DItv.num (Itv.supMixed .float .double) (⟨⟨(f (1) (-1074)), (f (1) (-1074))⟩, .defd⟩ : DItv)) (f (1) (-149))),
    (502, FP.feq (DItv.num (Itv.supMixed .float .double) (⟨⟨(f (-9007199254740991) (971)), (f 9007199254740991 971)⟩, .trv⟩ : DItv)) .pinf),
    (507, (DItv.num (Itv.supMixed .float .double) (⟨⟨(f 1 0), (f (-2) (0))⟩, .com⟩ : DItv)).isNaN),
    (517, (DItv.num (Itv.supMixed .double .float) (⟨⟨.nan, .nan⟩, .ill⟩ : DItv)).isNaN),
    (519, FP.feq (DItv.num (Itv.supMixed .double .float) (⟨⟨.nan, .nan⟩, .trv⟩ : DItv)) .ninf),
    (520, FP.feq (DItv.num (Itv.supMixed .double .float) (⟨⟨.ninf, .pinf⟩, .defd⟩ : DItv)) .pinf),
    (521, FP.feq (DItv.num (Itv.supMixed .double .float) (⟨⟨(f 1 0), (f 2 0)⟩, .com⟩ : DItv)) (f 2 0)),
    (522, FP.feq (DItv.num (Itv.supMixed .double .float) (⟨⟨(f (-3) (0)), (f (-2) (0))⟩, .trv⟩ : DItv)) (f (-2) (0))),
    (523, FP.feq (DItv.num (Itv.supMixed .double .float) (⟨⟨.ninf, (f 2 0)⟩, .dac⟩ : DItv)) (f 2 0)),
    (524, FP.feq (DItv.num (Itv.supMixed .double .float) (⟨⟨.ninf, (f 0 0)⟩, .defd⟩ : DItv)) (f 0 0)),
    (525, !sgn (DItv.num (Itv.supMixed .double .float) (⟨⟨.ninf, (f 0 0)⟩, .trv⟩ : DItv))),
    (526, FP.feq (DItv.num (Itv.supMixed .double .float) (⟨⟨.ninf, .nzero⟩, .trv⟩ : DItv)) (f 0 0)),
    (527, !sgn (DItv.num (Itv.supMixed .double .float) (⟨⟨.ninf, .nzero⟩, .trv⟩ : DItv))),
    (528, FP.feq (DItv.num (Itv.supMixed .double .float) (⟨⟨(f (-2) (0)), .pinf⟩, .trv⟩ : DItv)) .pinf),
    (529, FP.feq (DItv.num (Itv.supMixed .double .float) (⟨⟨(f 0 0), .pinf⟩, .defd⟩ : DItv)) .pinf),
    (530, FP.feq (DItv.num (Itv.supMixed .double .float) (⟨⟨.nzero, .pinf⟩, .trv⟩ : DItv)) .pinf),
    (531, FP.feq (DItv.num (Itv.supMixed .double .float) (⟨⟨.nzero, (f 0 0)⟩, .dac⟩ : DItv)) (f 0 0)),
    (532, !sgn (DItv.num (Itv.supMixed .double .float) (⟨⟨.nzero, (f 0 0)⟩, .trv⟩ : DItv))),
    (533, FP.feq (DItv.num (Itv.supMixed .double .float) (⟨⟨(f 0 0), .nzero⟩, .trv⟩ : DItv)) (f 0 0)),
    (534, !sgn (DItv.num (Itv.supMixed .double .float) (⟨⟨(f 0 0), .nzero⟩, .trv⟩ : DItv))),
    (535, FP.feq (DItv.num (Itv.supMixed .double .float) (⟨⟨(f 0 0), (f 0 0)⟩, .trv⟩ : DItv)) (f 0 0)),
    (536, !sgn (DItv.num (Itv.supMixed .double .float) (⟨⟨(f 0 0), (f 0 0)⟩, .trv⟩ : DItv))),
    (537, FP.feq (DItv.num (Itv.supMixed .double .float) (⟨⟨.nzero, .nzero⟩, .trv⟩ : DItv)) (f 0 0)),
    (538, !sgn (DItv.num (Itv.supMixed .double .float) (⟨⟨.nzero, .nzero⟩, .trv⟩ : DItv))),
    (540, FP.feq (DItv.num (Itv.supMixed .double .float) (⟨⟨(f (-1) (-149)), (f (1) (-149))⟩, .com⟩ : DItv)) (f (1) (-149))),
    (541, FP.feq (DItv.num (Itv.supMixed .double .float) (⟨⟨(f (-1) (-149)), (f (-1) (-149))⟩, .trv⟩ : DItv)) (f (-1) (-149))),
    (542, FP.feq (DItv.num (Itv.supMixed .double .float) (⟨⟨(f (1) (-149)), (f (1) (-149))⟩, .defd⟩ : DItv)) (f (1) (-149))),
    (543, FP.feq (DItv.num (Itv.supMixed .double .float) (⟨⟨(f (-16777215) (104)), (f 16777215 104)⟩, .trv⟩ : DItv)) (f 16777215 104)),
    (548, (DItv.num (Itv.supMixed .double .float) (⟨⟨(f 1 0), (f (-2) (0))⟩, .com⟩ : DItv)).isNaN),
    (564, (Itv.mid binary64 (⟨.nan, .nan⟩ : Itv)).isNaN),
    (565, FP.feq (Itv.mid binary64 (⟨.ninf, .pinf⟩ : Itv)) (f 0 0)),
    (566, !sgn (Itv.mid binary64 (⟨.ninf, .pinf⟩ : Itv))),
    (567, FP.feq (Itv.mid binary64 (⟨(f (-9007199254740991) (971)), (f 9007199254740991 971)⟩ : Itv)) (f 0 0)),
    (568, !sgn (Itv.mid binary64 (⟨(f (-9007199254740991) (971)), (f 9007199254740991 971)⟩ : Itv))),
    (569, FP.feq (Itv.mid binary64 (⟨(f 0 0), (f 2 0)⟩ : Itv)) (f 1 0))] : List (ℕ × Bool)).all (·.2) = true := by
  decide +kernel

example : ([
    (570, FP.feq (Itv.mid binary64 (⟨(f 2 0), (f 2 0)⟩ : Itv)) (f 2 0)),
    (571, FP.feq (Itv.mid binary64 (⟨(f (-2) (0)), (f 2 0)⟩ : Itv)) (f 0 0)),
    (572, !sgn (Itv.mid binary64 (⟨(f (-2) (0)), (f 2 0)⟩ : Itv))),
    (573, FP.feq (Itv.mid binary64 (⟨(f 0 0), .pinf⟩ : Itv)) (f 9007199254740991 971)),
    (574, FP.feq (Itv.mid binary64 (⟨.ninf, (f (5404319552844595) (-52))⟩ : Itv)) (f (-9007199254740991) (971))),
    (575, FP.feq (Itv.mid binary64 (⟨(f (-1) (-1073)), (f (1) (-1074))⟩ : Itv)) (f 0 0)),
    (576, !sgn (Itv.mid binary64 (⟨(f (-1) (-1073)), (f (1) (-1074))⟩ : Itv))),
    (577, FP.feq (Itv.mid binary64 (⟨(f (-1) (-1074)), (f (1) (-1073))⟩ : Itv)) (f 0 0)),
    (578, !sgn (Itv.mid binary64 (⟨(f (-1) (-1074)), (f (1) (-1073))⟩ : Itv))),
    (579, FP.feq (Itv.mid binary64 (⟨(f 9007199254740991 970), (f 9007199254740991 971)⟩ : Itv)) (f 6755399441055743 971)),
    (580, FP.feq (Itv.mid binary64 (⟨(f (1) (-1074)), (f (3) (-1074))⟩ : Itv)) (f (1) (-1073))),
    (581, FP.feq (Itv.mid binary64 (⟨(f (1) (-1074)), (f (1) (-1073))⟩ : Itv)) (f (1) (-1073))),
    (587, (Itv.mid binary64 (⟨(f (3) (-1)), (f (3152519739159347) (-52))⟩ : Itv)).isNaN),
    (601, (Itv.midMixed .float (⟨.nan, .nan⟩ : Itv)).isNaN),
    (602, FP.feq (Itv.midMixed .float (⟨.ninf, .pinf⟩ : Itv)) (f 0 0)),
    (603, !sgn (Itv.midMixed .float (⟨.ninf, .pinf⟩ : Itv))),
    (604, FP.feq (Itv.midMixed .float (⟨(f (-9007199254740991) (971)), (f 9007199254740991 971)⟩ : Itv)) (f 0 0)),
    (605, !sgn (Itv.midMixed .float (⟨(f (-9007199254740991) (971)), (f 9007199254740991 971)⟩ : Itv))),
    (606, FP.feq (Itv.midMixed .float (⟨(f 0 0), (f 2 0)⟩ : Itv)) (f 1 0)),
    (607, FP.feq (Itv.midMixed .float (⟨(f 2 0), (f 2 0)⟩ : Itv)) (f 2 0)),
    (608, FP.feq (Itv.midMixed .float (⟨(f (-2) (0)), (f 2 0)⟩ : Itv)) (f 0 0)),
    (609, !sgn (Itv.midMixed .float (⟨(f (-2) (0)), (f 2 0)⟩ : Itv))),
    (610, FP.feq (Itv.midMixed .float (⟨(f 0 0), .pinf⟩ : Itv)) (f 16777215 104)),
    (611, FP.feq (Itv.midMixed .float (⟨.ninf, (f (5404319552844595) (-52))⟩ : Itv)) (f (-16777215) (104))),
    (612, FP.feq (Itv.midMixed .float (⟨(f (-1) (-1073)), (f (1) (-1074))⟩ : Itv)) (f 0 0)),
    (613, !sgn (Itv.midMixed .float (⟨(f (-1) (-1073)), (f (1) (-1074))⟩ : Itv))),
    (614, FP.feq (Itv.midMixed .float (⟨(f (-1) (-1074)), (f (1) (-1073))⟩ : Itv)) (f 0 0)),
    (615, !sgn (Itv.midMixed .float (⟨(f (-1) (-1074)), (f (1) (-1073))⟩ : Itv))),
    (616, FP.feq (Itv.midMixed .float (⟨(f (33554393) (-24)), (f (9007188785758209) (-52))⟩ : Itv)) (f (16777197) (-23))),
    (617, FP.feq (Itv.midMixed .float (⟨(f (1) (-1074)), (f (3) (-1074))⟩ : Itv)) (f 0 0)),
    (618, !sgn (Itv.midMixed .float (⟨(f (1) (-1074)), (f (3) (-1074))⟩ : Itv))),
    (623, (Itv.midMixed .float (⟨(f (3) (-1)), (f (3152519739159347) (-52))⟩ : Itv)).isNaN),
    (637, (DItv.num (Itv.mid binary64) (⟨⟨.nan, .nan⟩, .trv⟩ : DItv)).isNaN),
    (638, (DItv.num (Itv.mid binary64) (⟨⟨.nan, .nan⟩, .ill⟩ : DItv)).isNaN),
    (639, FP.feq (DItv.num (Itv.mid binary64) (⟨⟨.ninf, .pinf⟩, .defd⟩ : DItv)) (f 0 0)),
    (640, !sgn (DItv.num (Itv.mid binary64) (⟨⟨.ninf, .pinf⟩, .defd⟩ : DItv))),
    (641, FP.feq (DItv.num (Itv.mid binary64) (⟨⟨(f (-9007199254740991) (971)), (f 9007199254740991 971)⟩, .trv⟩ : DItv)) (f 0 0)),
    (642, !sgn (DItv.num (Itv.mid binary64) (⟨⟨(f (-9007199254740991) (971)), (f 9007199254740991 971)⟩, .trv⟩ : DItv))),
    (643, FP.feq (DItv.num (Itv.mid binary64) (⟨⟨(f 0 0), (f 2 0)⟩, .com⟩ : DItv)) (f 1 0)),
    (644, FP.feq (DItv.num (Itv.mid binary64) (⟨⟨(f 2 0), (f 2 0)⟩, .dac⟩ : DItv)) (f 2 0)),
    (645, FP.feq (DItv.num (Itv.mid binary64) (⟨⟨(f (-2) (0)), (f 2 0)⟩, .trv⟩ : DItv)) (f 0 0)),
    (646, !sgn (DItv.num (Itv.mid binary64) (⟨⟨(f (-2) (0)), (f 2 0)⟩, .trv⟩ : DItv))),
    (647, FP.feq (DItv.num (Itv.mid binary64) (⟨⟨(f 0 0), .pinf⟩, .trv⟩ : DItv)) (f 9007199254740991 971)),
    (648, FP.feq (DItv.num (Itv.mid binary64) (⟨⟨.ninf, (f (5404319552844595) (-52))⟩, .trv⟩ : DItv)) (f (-9007199254740991) (971))),
    (649, FP.feq (DItv.num (Itv.mid binary64) (⟨⟨(f (-1) (-1073)), (f (1) (-1074))⟩, .trv⟩ : DItv)) (f 0 0)),
    (650, !sgn (DItv.num (Itv.mid binary64) (⟨⟨(f (-1) (-1073)), (f (1) (-1074))⟩, .trv⟩ : DItv))),
    (651, FP.feq (DItv.num (Itv.mid binary64) (⟨⟨(f (-1) (-1074)), (f (1) (-1073))⟩, .trv⟩ : DItv)) (f 0 0)),
    (652, !sgn (DItv.num (Itv.mid binary64) (⟨⟨(f (-1) (-1074)), (f (1) (-1073))⟩, .trv⟩ : DItv))),
    (653, FP.feq (DItv.num (Itv.mid binary64) (⟨⟨(f 9007199254740991 970), (f 9007199254740991 971)⟩, .trv⟩ : DItv)) (f 6755399441055743 971)),
    (654, FP.feq (DItv.num (Itv.mid binary64) (⟨⟨(f (1) (-1074)), (f (3) (-1074))⟩, .trv⟩ : DItv)) (f (1) (-1073)))] : List (ℕ × Bool)).all (·.2) = true := by
  decide +kernel

example : ([
    (655, FP.feq (DItv.num (Itv.mid binary64) (⟨⟨(f (1) (-1074)), (f (1) (-1073))⟩, .trv⟩ : DItv)) (f (1) (-1073))),
    (660, (DItv.num (Itv.mid binary64) (⟨⟨(f (3) (-1)), (f (3152519739159347) (-52))⟩, .trv⟩ : DItv)).isNaN),
    (674, (DItv.num (Itv.midMixed .float) (⟨⟨.nan, .nan⟩, .trv⟩ : DItv)).isNaN),
    (675, (DItv.num (Itv.midMixed .float) (⟨⟨.nan, .nan⟩, .ill⟩ : DItv)).isNaN),
    (676, FP.feq (DItv.num (Itv.midMixed .float) (⟨⟨.ninf, .pinf⟩, .defd⟩ : DItv)) (f 0 0)),
    (677, !sgn (DItv.num (Itv.midMixed .float) (⟨⟨.ninf, .pinf⟩, .trv⟩ : DItv))),
    (678, FP.feq (DItv.num (Itv.midMixed .float) (⟨⟨(f (-9007199254740991) (971)), (f 9007199254740991 971)⟩, .trv⟩ : DItv)) (f 0 0)),
    (679, !sgn (DItv.num (Itv.midMixed .float) (⟨⟨(f (-9007199254740991) (971)), (f 9007199254740991 971)⟩, .trv⟩ : DItv))),
    (680, FP.feq (DItv.num (Itv.midMixed .float) (⟨⟨(f 0 0), (f 2 0)⟩, .com⟩ : DItv)) (f 1 0)),
    (681, FP.feq (DItv.num (Itv.midMixed .float) (⟨⟨(f 2 0), (f 2 0)⟩, .trv⟩ : DItv)) (f 2 0)),
    (682, FP.feq (DItv.num (Itv.midMixed .float) (⟨⟨(f (-2) (0)), (f 2 0)⟩, .trv⟩ : DItv)) (f 0 0)),
    (683, !sgn (DItv.num (Itv.midMixed .float) (⟨⟨(f (-2) (0)), (f 2 0)⟩, .trv⟩ : DItv))),
    (684, FP.feq (DItv.num (Itv.midMixed .float) (⟨⟨(f 0 0), .pinf⟩, .trv⟩ : DItv)) (f 16777215 104)),
    (685, FP.feq (DItv.num (Itv.midMixed .float) (⟨⟨.ninf, (f (5404319552844595) (-52))⟩, .trv⟩ : DItv)) (f (-16777215) (104))),
    (686, FP.feq (DItv.num (Itv.midMixed .float) (⟨⟨(f (-1) (-1073)), (f (1) (-1074))⟩, .trv⟩ : DItv)) (f 0 0)),
    (687, !sgn (DItv.num (Itv.midMixed .float) (⟨⟨(f (-1) (-1073)), (f (1) (-1074))⟩, .trv⟩ : DItv))),
    (688, FP.feq (DItv.num (Itv.midMixed .float) (⟨⟨(f (-1) (-1074)), (f (1) (-1073))⟩, .trv⟩ : DItv)) (f 0 0)),
    (689, !sgn (DItv.num (Itv.midMixed .float) (⟨⟨(f (-1) (-1074)), (f (1) (-1073))⟩, .trv⟩ : DItv))),
    (690, FP.feq (DItv.num (Itv.midMixed .float) (⟨⟨(f (33554393) (-24)), (f (9007188785758209) (-52))⟩, .trv⟩ : DItv)) (f (16777197) (-23))),
    (691, FP.feq (DItv.num (Itv.midMixed .float) (⟨⟨(f (1) (-1074)), (f (3) (-1074))⟩, .trv⟩ : DItv)) (f 0 0)),
    (692, !sgn (DItv.num (Itv.midMixed .float) (⟨⟨(f (1) (-1074)), (f (3) (-1074))⟩, .trv⟩ : DItv))),
    (697, (DItv.num (Itv.midMixed .float) (⟨⟨(f (3) (-1)), (f (3152519739159347) (-52))⟩, .trv⟩ : DItv)).isNaN),
    (713, FP.feq (Itv.rad binary64 (⟨(f 0 0), (f 2 0)⟩ : Itv)) (f 1 0)),
    (714, FP.feq (Itv.rad binary64 (⟨(f 2 0), (f 2 0)⟩ : Itv)) (f 0 0)),
    (715, !sgn (Itv.rad binary64 (⟨(f 2 0), (f 2 0)⟩ : Itv))),
    (716, (Itv.rad binary64 (⟨.nan, .nan⟩ : Itv)).isNaN),
    (717, FP.feq (Itv.rad binary64 (⟨.ninf, .pinf⟩ : Itv)) .pinf),
    (718, FP.feq (Itv.rad binary64 (⟨(f 0 0), .pinf⟩ : Itv)) .pinf),
    (719, FP.feq (Itv.rad binary64 (⟨.ninf, (f (5404319552844595) (-52))⟩ : Itv)) .pinf),
    (720, FP.feq (Itv.rad binary64 (⟨(f (-1) (-1073)), (f (1) (-1074))⟩ : Itv)) (f (1) (-1073))),
    (721, FP.feq (Itv.rad binary64 (⟨(f (1) (-1074)), (f (1) (-1073))⟩ : Itv)) (f (1) (-1074))),
    (722, FP.feq (Itv.rad binary64 (⟨(f 1 0), (f (4503599627370499) (-52))⟩ : Itv)) (f (1) (-51))),
    (727, (Itv.rad binary64 (⟨(f (3) (-1)), (f (3152519739159347) (-52))⟩ : Itv)).isNaN),
    (741, FP.feq (Itv.radMixed .float .double (⟨(f 0 0), (f 2 0)⟩ : Itv)) (f 1 0)),
    (742, FP.feq (Itv.radMixed .float .double (⟨(f 2 0), (f 2 0)⟩ : Itv)) (f 0 0)),
    (743, !sgn (Itv.radMixed .float .double (⟨(f 2 0), (f 2 0)⟩ : Itv))),
    (744, (Itv.radMixed .float .double (⟨.nan, .nan⟩ : Itv)).isNaN),
    (745, FP.feq (Itv.radMixed .float .double (⟨.ninf, .pinf⟩ : Itv)) .pinf),
    (746, FP.feq (Itv.radMixed .float .double (⟨(f 0 0), .pinf⟩ : Itv)) .pinf),
    (747, FP.feq (Itv.radMixed .float .double (⟨.ninf, (f (5404319552844595) (-52))⟩ : Itv)) .pinf),
    (748, FP.feq (Itv.radMixed .float .double (⟨(f 8388607 105), (f 33554431 103)⟩ : Itv)) (f 1048576 84)),
    (753, (Itv.radMixed .float .double (⟨(f (3) (-1)), (f (3152519739159347) (-52))⟩ : Itv)).isNaN),
    (767, FP.feq (DItv.num (Itv.rad binary64) (⟨⟨(f 0 0), (f 2 0)⟩, .trv⟩ : DItv)) (f 1 0)),
    (768, FP.feq (DItv.num (Itv.rad binary64) (⟨⟨(f 2 0), (f 2 0)⟩, .com⟩ : DItv)) (f 0 0)),
    (769, !sgn (DItv.num (Itv.rad binary64) (⟨⟨(f 2 0), (f 2 0)⟩, .trv⟩ : DItv))),
    (770, (DItv.num (Itv.rad binary64) (⟨⟨.nan, .nan⟩, .trv⟩ : DItv)).isNaN),
    (771, (DItv.num (Itv.rad binary64) (⟨⟨.nan, .nan⟩, .ill⟩ : DItv)).isNaN),
    (772, FP.feq (DItv.num (Itv.rad binary64) (⟨⟨.ninf, .pinf⟩, .trv⟩ : DItv)) .pinf),
    (773, FP.feq (DItv.num (Itv.rad binary64) (⟨⟨(f 0 0), .pinf⟩, .defd⟩ : DItv)) .pinf),
    (774, FP.feq (DItv.num (Itv.rad binary64) (⟨⟨.ninf, (f (5404319552844595) (-52))⟩, .trv⟩ : DItv)) .pinf)] : List (ℕ × Bool)).all (·.2) = true := by
  decide +kernel

example : ([
    (775, FP.feq (DItv.num (Itv.rad binary64) (⟨⟨(f (-1) (-1073)), (f (1) (-1074))⟩, .trv⟩ : DItv)) (f (1) (-1073))),
    (776, FP.feq (DItv.num (Itv.rad binary64) (⟨⟨(f (1) (-1074)), (f (1) (-1073))⟩, .trv⟩ : DItv)) (f (1) (-1074))),
    (777, FP.feq (DItv.num (Itv.rad binary64) (⟨⟨(f 1 0), (f (4503599627370499) (-52))⟩, .trv⟩ : DItv)) (f (1) (-51))),
    (782, (DItv.num (Itv.mid binary64) (⟨⟨(f (3) (-1)), (f (3152519739159347) (-52))⟩, .trv⟩ : DItv)).isNaN),
    (796, FP.feq (DItv.num (Itv.radMixed .float .double) (⟨⟨(f 0 0), (f 2 0)⟩, .trv⟩ : DItv)) (f 1 0)),
    (797, FP.feq (DItv.num (Itv.radMixed .float .double) (⟨⟨(f 2 0), (f 2 0)⟩, .com⟩ : DItv)) (f 0 0)),
    (798, !sgn (DItv.num (Itv.radMixed .float .double) (⟨⟨(f 2 0), (f 2 0)⟩, .trv⟩ : DItv))),
    (799, (DItv.num (Itv.radMixed .float .double) (⟨⟨.nan, .nan⟩, .trv⟩ : DItv)).isNaN),
    (800, (DItv.num (Itv.radMixed .float .double) (⟨⟨.nan, .nan⟩, .ill⟩ : DItv)).isNaN),
    (801, FP.feq (DItv.num (Itv.radMixed .float .double) (⟨⟨.ninf, .pinf⟩, .defd⟩ : DItv)) .pinf),
    (802, FP.feq (DItv.num (Itv.radMixed .float .double) (⟨⟨(f 0 0), .pinf⟩, .trv⟩ : DItv)) .pinf),
    (803, FP.feq (DItv.num (Itv.radMixed .float .double) (⟨⟨.ninf, (f (5404319552844595) (-52))⟩, .trv⟩ : DItv)) .pinf),
    (804, FP.feq (DItv.num (Itv.radMixed .float .double) (⟨⟨(f 8388607 105), (f 33554431 103)⟩, .trv⟩ : DItv)) (f 1048576 84)),
    (809, (DItv.num (Itv.midMixed .float) (⟨⟨(f (3) (-1)), (f (3152519739159347) (-52))⟩, .trv⟩ : DItv)).isNaN),
    (824, ((Itv.midRad binary64 (⟨.nan, .nan⟩ : Itv)).1).isNaN),
    (825, FP.feq ((Itv.midRad binary64 (⟨.ninf, .pinf⟩ : Itv)).1) (f 0 0)),
    (826, !sgn ((Itv.midRad binary64 (⟨.ninf, .pinf⟩ : Itv)).1)),
    (827, FP.feq ((Itv.midRad binary64 (⟨(f (-9007199254740991) (971)), (f 9007199254740991 971)⟩ : Itv)).1) (f 0 0)),
    (828, !sgn ((Itv.midRad binary64 (⟨(f (-9007199254740991) (971)), (f 9007199254740991 971)⟩ : Itv)).1)),
    (829, FP.feq ((Itv.midRad binary64 (⟨(f 0 0), (f 2 0)⟩ : Itv)).1) (f 1 0)),
    (830, FP.feq ((Itv.midRad binary64 (⟨(f 2 0), (f 2 0)⟩ : Itv)).1) (f 2 0)),
    (831, FP.feq ((Itv.midRad binary64 (⟨(f (-2) (0)), (f 2 0)⟩ : Itv)).1) (f 0 0)),
    (832, !sgn ((Itv.midRad binary64 (⟨(f (-2) (0)), (f 2 0)⟩ : Itv)).1)),
    (833, FP.feq ((Itv.midRad binary64 (⟨(f 0 0), .pinf⟩ : Itv)).1) (f 9007199254740991 971)),
    (834, FP.feq ((Itv.midRad binary64 (⟨.ninf, (f (5404319552844595) (-52))⟩ : Itv)).1) (f (-9007199254740991) (971))),
    (835, FP.feq ((Itv.midRad binary64 (⟨(f (-1) (-1073)), (f (1) (-1074))⟩ : Itv)).1) (f 0 0)),
    (836, !sgn ((Itv.midRad binary64 (⟨(f (-1) (-1073)), (f (1) (-1074))⟩ : Itv)).1)),
    (837, FP.feq ((Itv.midRad binary64 (⟨(f (-1) (-1074)), (f (1) (-1073))⟩ : Itv)).1) (f 0 0)),
    (838, !sgn ((Itv.midRad binary64 (⟨(f (-1) (-1074)), (f (1) (-1073))⟩ : Itv)).1)),
    (839, FP.feq ((Itv.midRad binary64 (⟨(f 9007199254740991 970), (f 9007199254740991 971)⟩ : Itv)).1) (f 6755399441055743 971)),
    (840, FP.feq ((Itv.midRad binary64 (⟨(f (1) (-1074)), (f (3) (-1074))⟩ : Itv)).1) (f (1) (-1073))),
    (841, FP.feq ((Itv.midRad binary64 (⟨(f (1) (-1074)), (f (1) (-1073))⟩ : Itv)).1) (f (1) (-1073))),
    (847, ((Itv.midRad binary64 (⟨(f (3) (-1)), (f (3152519739159347) (-52))⟩ : Itv)).1).isNaN),
    (848, ((Itv.midRad binary64 (⟨(f (3) (-1)), (f (3152519739159347) (-52))⟩ : Itv)).2).isNaN),
    (857, FP.feq ((Itv.midRad binary64 (⟨(f 0 0), (f 2 0)⟩ : Itv)).2) (f 1 0)),
    (858, FP.feq ((Itv.midRad binary64 (⟨(f 2 0), (f 2 0)⟩ : Itv)).2) (f 0 0)),
    (859, !sgn ((Itv.midRad binary64 (⟨(f 2 0), (f 2 0)⟩ : Itv)).2)),
    (860, ((Itv.midRad binary64 (⟨.nan, .nan⟩ : Itv)).2).isNaN),
    (861, FP.feq ((Itv.midRad binary64 (⟨.ninf, .pinf⟩ : Itv)).2) .pinf),
    (862, FP.feq ((Itv.midRad binary64 (⟨(f 0 0), .pinf⟩ : Itv)).2) .pinf),
    (863, FP.feq ((Itv.midRad binary64 (⟨.ninf, (f (5404319552844595) (-52))⟩ : Itv)).2) .pinf),
    (864, FP.feq ((Itv.midRad binary64 (⟨(f (-1) (-1073)), (f (1) (-1074))⟩ : Itv)).2) (f (1) (-1073))),
    (865, FP.feq ((Itv.midRad binary64 (⟨(f (1) (-1074)), (f (1) (-1073))⟩ : Itv)).2) (f (1) (-1074))),
    (866, FP.feq ((Itv.midRad binary64 (⟨(f 1 0), (f (4503599627370499) (-52))⟩ : Itv)).2) (f (1) (-51))),
    (876, ((Itv.midRadMixed .float .double (⟨.nan, .nan⟩ : Itv)).1).isNaN),
    (877, FP.feq ((Itv.midRadMixed .float .double (⟨.ninf, .pinf⟩ : Itv)).1) (f 0 0)),
    (878, !sgn ((Itv.midRadMixed .float .double (⟨.ninf, .pinf⟩ : Itv)).1)),
    (879, FP.feq ((Itv.midRadMixed .float .double (⟨(f (-9007199254740991) (971)), (f 9007199254740991 971)⟩ : Itv)).1) (f 0 0)),
    (880, !sgn ((Itv.midRadMixed .float .double (⟨(f (-9007199254740991) (971)), (f 9007199254740991 971)⟩ : Itv)).1)),
    (881, FP.feq ((Itv.midRadMixed .float .double (⟨(f 0 0), (f 2 0)⟩ : Itv)).1) (f 1 0))] : List (ℕ × Bool)).all (·.2) = true := by
  decide +kernel

example : ([
    (882, FP.feq ((Itv.midRadMixed .float .double (⟨(f 2 0), (f 2 0)⟩ : Itv)).1) (f 2 0)),
    (883, FP.feq ((Itv.midRadMixed .float .double (⟨(f (-2) (0)), (f 2 0)⟩ : Itv)).1) (f 0 0)),
    (884, !sgn ((Itv.midRadMixed .float .double (⟨(f (-2) (0)), (f 2 0)⟩ : Itv)).1)),
    (885, FP.feq ((Itv.midRadMixed .float .double (⟨(f 0 0), .pinf⟩ : Itv)).1) (f 16777215 104)),
    (886, FP.feq ((Itv.midRadMixed .float .double (⟨.ninf, (f (5404319552844595) (-52))⟩ : Itv)).1) (f (-16777215) (104))),
    (887, FP.feq ((Itv.midRadMixed .float .double (⟨(f (-1) (-1073)), (f (1) (-1074))⟩ : Itv)).1) (f 0 0)),
    (888, !sgn ((Itv.midRadMixed .float .double (⟨(f (-1) (-1073)), (f (1) (-1074))⟩ : Itv)).1)),
    (889, FP.feq ((Itv.midRadMixed .float .double (⟨(f (-1) (-1074)), (f (1) (-1073))⟩ : Itv)).1) (f 0 0)),
    (890, !sgn ((Itv.midRadMixed .float .double (⟨(f (-1) (-1074)), (f (1) (-1073))⟩ : Itv)).1)),
    (891, FP.feq ((Itv.midRadMixed .float .double (⟨(f (33554393) (-24)), (f (9007188785758209) (-52))⟩ : Itv)).1) (f (16777197) (-23))),
    (892, FP.feq ((Itv.midRadMixed .float .double (⟨(f (1) (-1074)), (f (3) (-1074))⟩ : Itv)).1) (f 0 0)),
    (893, !sgn ((Itv.midRadMixed .float .double (⟨(f (1) (-1074)), (f (3) (-1074))⟩ : Itv)).1)),
    (898, ((Itv.midRadMixed .float .double (⟨(f (3) (-1)), (f (3152519739159347) (-52))⟩ : Itv)).1).isNaN),
    (899, ((Itv.midRadMixed .float .double (⟨(f (3) (-1)), (f (3152519739159347) (-52))⟩ : Itv)).2).isNaN),
    (908, FP.feq ((Itv.midRadMixed .float .double (⟨(f 0 0), (f 2 0)⟩ : Itv)).2) (f 1 0)),
    (909, FP.feq ((Itv.midRadMixed .float .double (⟨(f 2 0), (f 2 0)⟩ : Itv)).2) (f 0 0)),
    (910, !sgn ((Itv.midRadMixed .float .double (⟨(f 2 0), (f 2 0)⟩ : Itv)).2)),
    (911, ((Itv.midRadMixed .float .double (⟨.nan, .nan⟩ : Itv)).2).isNaN),
    (912, FP.feq ((Itv.midRadMixed .float .double (⟨.ninf, .pinf⟩ : Itv)).2) .pinf),
    (913, FP.feq ((Itv.midRadMixed .float .double (⟨(f 0 0), .pinf⟩ : Itv)).2) .pinf),
    (914, FP.feq ((Itv.midRadMixed .float .double (⟨.ninf, (f (5404319552844595) (-52))⟩ : Itv)).2) .pinf),
    (915, FP.feq ((Itv.midRadMixed .float .double (⟨(f 8388607 105), (f 33554431 103)⟩ : Itv)).2) (f 1048576 84)),
    (925, ((DItv.num2 (Itv.midRad binary64) (⟨⟨.nan, .nan⟩, .trv⟩ : DItv)).1).isNaN),
    (926, ((DItv.num2 (Itv.midRad binary64) (⟨⟨.nan, .nan⟩, .ill⟩ : DItv)).1).isNaN),
    (927, FP.feq ((DItv.num2 (Itv.midRad binary64) (⟨⟨.ninf, .pinf⟩, .defd⟩ : DItv)).1) (f 0 0)),
    (928, !sgn ((DItv.num2 (Itv.midRad binary64) (⟨⟨.ninf, .pinf⟩, .defd⟩ : DItv)).1)),
    (929, FP.feq ((DItv.num2 (Itv.midRad binary64) (⟨⟨(f (-9007199254740991) (971)), (f 9007199254740991 971)⟩, .trv⟩ : DItv)).1) (f 0 0)),
    (930, !sgn ((DItv.num2 (Itv.midRad binary64) (⟨⟨(f (-9007199254740991) (971)), (f 9007199254740991 971)⟩, .trv⟩ : DItv)).1)),
    (931, FP.feq ((DItv.num2 (Itv.midRad binary64) (⟨⟨(f 0 0), (f 2 0)⟩, .com⟩ : DItv)).1) (f 1 0)),
    (932, FP.feq ((DItv.num2 (Itv.midRad binary64) (⟨⟨(f 2 0), (f 2 0)⟩, .dac⟩ : DItv)).1) (f 2 0)),
    (933, FP.feq ((DItv.num2 (Itv.midRad binary64) (⟨⟨(f (-2) (0)), (f 2 0)⟩, .trv⟩ : DItv)).1) (f 0 0)),
    (934, !sgn ((DItv.num2 (Itv.midRad binary64) (⟨⟨(f (-2) (0)), (f 2 0)⟩, .trv⟩ : DItv)).1)),
    (935, FP.feq ((DItv.num2 (Itv.midRad binary64) (⟨⟨(f 0 0), .pinf⟩, .trv⟩ : DItv)).1) (f 9007199254740991 971)),
    (936, FP.feq ((DItv.num2 (Itv.midRad binary64) (⟨⟨.ninf, (f (5404319552844595) (-52))⟩, .trv⟩ : DItv)).1) (f (-9007199254740991) (971))),
    (937, FP.feq ((DItv.num2 (Itv.midRad binary64) (⟨⟨(f (-1) (-1073)), (f (1) (-1074))⟩, .trv⟩ : DItv)).1) (f 0 0)),
    (938, !sgn ((DItv.num2 (Itv.midRad binary64) (⟨⟨(f (-1) (-1073)), (f (1) (-1074))⟩, .trv⟩ : DItv)).1)),
    (939, FP.feq ((DItv.num2 (Itv.midRad binary64) (⟨⟨(f (-1) (-1074)), (f (1) (-1073))⟩, .trv⟩ : DItv)).1) (f 0 0)),
    (940, !sgn ((DItv.num2 (Itv.midRad binary64) (⟨⟨(f (-1) (-1074)), (f (1) (-1073))⟩, .trv⟩ : DItv)).1)),
    (941, FP.feq ((DItv.num2 (Itv.midRad binary64) (⟨⟨(f 9007199254740991 970), (f 9007199254740991 971)⟩, .trv⟩ : DItv)).1) (f 6755399441055743 971)),
    (942, FP.feq ((DItv.num2 (Itv.midRad binary64) (⟨⟨(f (1) (-1074)), (f (3) (-1074))⟩, .trv⟩ : DItv)).1) (f (1) (-1073))),
    (943, FP.feq ((DItv.num2 (Itv.midRad binary64) (⟨⟨(f (1) (-1074)), (f (1) (-1073))⟩, .trv⟩ : DItv)).1) (f (1) (-1073))),
    (950, ((DItv.num2 (Itv.midRad binary64) (⟨⟨(f (3) (-1)), (f (3152519739159347) (-52))⟩, .trv⟩ : DItv)).1).isNaN),
    (951, ((DItv.num2 (Itv.midRad binary64) (⟨⟨(f (3) (-1)), (f (3152519739159347) (-52))⟩, .trv⟩ : DItv)).2).isNaN),
    (960, FP.feq ((DItv.num2 (Itv.midRad binary64) (⟨⟨(f 0 0), (f 2 0)⟩, .trv⟩ : DItv)).2) (f 1 0)),
    (961, FP.feq ((DItv.num2 (Itv.midRad binary64) (⟨⟨(f 2 0), (f 2 0)⟩, .com⟩ : DItv)).2) (f 0 0)),
    (962, !sgn ((DItv.num2 (Itv.midRad binary64) (⟨⟨(f 2 0), (f 2 0)⟩, .trv⟩ : DItv)).2)),
    (963, ((DItv.num2 (Itv.midRad binary64) (⟨⟨.nan, .nan⟩, .trv⟩ : DItv)).2).isNaN),
    (964, ((DItv.num2 (Itv.midRad binary64) (⟨⟨.nan, .nan⟩, .ill⟩ : DItv)).2).isNaN),
    (965, FP.feq ((DItv.num2 (Itv.midRad binary64) (⟨⟨.ninf, .pinf⟩, .trv⟩ : DItv)).2) .pinf),
    (966, FP.feq ((DItv.num2 (Itv.midRad binary64) (⟨⟨(f 0 0), .pinf⟩, .defd⟩ : DItv)).2) .pinf)] : List (ℕ × Bool)).all (·.2) = true := by
  decide +kernel

example : ([
    (967, FP.feq ((DItv.num2 (Itv.midRad binary64) (⟨⟨.ninf, (f (5404319552844595) (-52))⟩, .trv⟩ : DItv)).2) .pinf),
    (968, FP.feq ((DItv.num2 (Itv.midRad binary64) (⟨⟨(f (-1) (-1073)), (f (1) (-1074))⟩, .trv⟩ : DItv)).2) (f (1) (-1073))),
    (969, FP.feq ((DItv.num2 (Itv.midRad binary64) (⟨⟨(f (1) (-1074)), (f (1) (-1073))⟩, .trv⟩ : DItv)).2) (f (1) (-1074))),
    (970, FP.feq ((DItv.num2 (Itv.midRad binary64) (⟨⟨(f 1 0), (f (4503599627370499) (-52))⟩, .trv⟩ : DItv)).2) (f (1) (-51))),
    (980, ((DItv.num2 (Itv.midRadMixed .float .double) (⟨⟨.nan, .nan⟩, .trv⟩ : DItv)).1).isNaN),
    (981, ((DItv.num2 (Itv.midRadMixed .float .double) (⟨⟨.nan, .nan⟩, .ill⟩ : DItv)).1).isNaN),
    (982, FP.feq ((DItv.num2 (Itv.midRadMixed .float .double) (⟨⟨.ninf, .pinf⟩, .defd⟩ : DItv)).1) (f 0 0)),
    (983, !sgn ((DItv.num2 (Itv.midRadMixed .float .double) (⟨⟨.ninf, .pinf⟩, .trv⟩ : DItv)).1)),
    (984, FP.feq ((DItv.num2 (Itv.midRadMixed .float .double) (⟨⟨(f (-9007199254740991) (971)), (f 9007199254740991 971)⟩, .trv⟩ : DItv)).1) (f 0 0)),
    (985, !sgn ((DItv.num2 (Itv.midRadMixed .float .double) (⟨⟨(f (-9007199254740991) (971)), (f 9007199254740991 971)⟩, .trv⟩ : DItv)).1)),
    (986, FP.feq ((DItv.num2 (Itv.midRadMixed .float .double) (⟨⟨(f 0 0), (f 2 0)⟩, .com⟩ : DItv)).1) (f 1 0)),
    (987, FP.feq ((DItv.num2 (Itv.midRadMixed .float .double) (⟨⟨(f 2 0), (f 2 0)⟩, .trv⟩ : DItv)).1) (f 2 0)),
    (988, FP.feq ((DItv.num2 (Itv.midRadMixed .float .double) (⟨⟨(f (-2) (0)), (f 2 0)⟩, .trv⟩ : DItv)).1) (f 0 0)),
    (989, !sgn ((DItv.num2 (Itv.midRadMixed .float .double) (⟨⟨(f (-2) (0)), (f 2 0)⟩, .trv⟩ : DItv)).1)),
    (990, FP.feq ((DItv.num2 (Itv.midRadMixed .float .double) (⟨⟨(f 0 0), .pinf⟩, .trv⟩ : DItv)).1) (f 16777215 104)),
    (991, FP.feq ((DItv.num2 (Itv.midRadMixed .float .double) (⟨⟨.ninf, (f (5404319552844595) (-52))⟩, .trv⟩ : DItv)).1) (f (-16777215) (104))),
    (992, FP.feq ((DItv.num2 (Itv.midRadMixed .float .double) (⟨⟨(f (-1) (-1073)), (f (1) (-1074))⟩, .trv⟩ : DItv)).1) (f 0 0)),
    (993, !sgn ((DItv.num2 (Itv.midRadMixed .float .double) (⟨⟨(f (-1) (-1073)), (f (1) (-1074))⟩, .trv⟩ : DItv)).1)),
    (994, FP.feq ((DItv.num2 (Itv.midRadMixed .float .double) (⟨⟨(f (-1) (-1074)), (f (1) (-1073))⟩, .trv⟩ : DItv)).1) (f 0 0)),
    (995, !sgn ((DItv.num2 (Itv.midRadMixed .float .double) (⟨⟨(f (-1) (-1074)), (f (1) (-1073))⟩, .trv⟩ : DItv)).1)),
    (996, FP.feq ((DItv.num2 (Itv.midRadMixed .float .double) (⟨⟨(f (33554393) (-24)), (f (9007188785758209) (-52))⟩, .trv⟩ : DItv)).1) (f (16777197) (-23))),
    (997, FP.feq ((DItv.num2 (Itv.midRadMixed .float .double) (⟨⟨(f (1) (-1074)), (f (3) (-1074))⟩, .trv⟩ : DItv)).1) (f 0 0)),
    (998, !sgn ((DItv.num2 (Itv.midRadMixed .float .double) (⟨⟨(f (1) (-1074)), (f (3) (-1074))⟩, .trv⟩ : DItv)).1)),
    (1004, ((DItv.num2 (Itv.midRadMixed .float .double) (⟨⟨(f (3) (-1)), (f (3152519739159347) (-52))⟩, .trv⟩ : DItv)).1).isNaN),
    (1005, ((DItv.num2 (Itv.midRadMixed .float .double) (⟨⟨(f (3) (-1)), (f (3152519739159347) (-52))⟩, .trv⟩ : DItv)).2).isNaN),
    (1014, FP.feq ((DItv.num2 (Itv.midRadMixed .float .double) (⟨⟨(f 0 0), (f 2 0)⟩, .trv⟩ : DItv)).2) (f 1 0)),
    (1015, FP.feq ((DItv.num2 (Itv.midRadMixed .float .double) (⟨⟨(f 2 0), (f 2 0)⟩, .com⟩ : DItv)).2) (f 0 0)),
    (1016, !sgn ((DItv.num2 (Itv.midRadMixed .float .double) (⟨⟨(f 2 0), (f 2 0)⟩, .trv⟩ : DItv)).2)),
    (1017, ((DItv.num2 (Itv.midRadMixed .float .double) (⟨⟨.nan, .nan⟩, .trv⟩ : DItv)).2).isNaN),
    (1018, ((DItv.num2 (Itv.midRadMixed .float .double) (⟨⟨.nan, .nan⟩, .ill⟩ : DItv)).2).isNaN),
    (1019, FP.feq ((DItv.num2 (Itv.midRadMixed .float .double) (⟨⟨.ninf, .pinf⟩, .defd⟩ : DItv)).2) .pinf),
    (1020, FP.feq ((DItv.num2 (Itv.midRadMixed .float .double) (⟨⟨(f 0 0), .pinf⟩, .trv⟩ : DItv)).2) .pinf),
    (1021, FP.feq ((DItv.num2 (Itv.midRadMixed .float .double) (⟨⟨.ninf, (f (5404319552844595) (-52))⟩, .trv⟩ : DItv)).2) .pinf),
    (1022, FP.feq ((DItv.num2 (Itv.midRadMixed .float .double) (⟨⟨(f 8388607 105), (f 33554431 103)⟩, .trv⟩ : DItv)).2) (f 1048576 84)),
    (1033, FP.feq (Itv.wid binary64 (⟨(f 2 0), (f 2 0)⟩ : Itv)) (f 0 0)),
    (1034, !sgn (Itv.wid binary64 (⟨(f 2 0), (f 2 0)⟩ : Itv))),
    (1035, FP.feq (Itv.wid binary64 (⟨(f 1 0), (f 2 0)⟩ : Itv)) (f 1 0)),
    (1036, FP.feq (Itv.wid binary64 (⟨(f 1 0), .pinf⟩ : Itv)) .pinf),
    (1037, FP.feq (Itv.wid binary64 (⟨.ninf, (f 2 0)⟩ : Itv)) .pinf),
    (1038, FP.feq (Itv.wid binary64 (⟨.ninf, .pinf⟩ : Itv)) .pinf),
    (1039, (Itv.wid binary64 (⟨.nan, .nan⟩ : Itv)).isNaN),
    (1040, FP.feq (Itv.wid binary64 (⟨(f 1 0), (f (4503599627370497) (-52))⟩ : Itv)) (f (1) (-52))),
    (1041, FP.feq (Itv.wid binary64 (⟨(f (1) (-1022)), (f (4503599627370497) (-1074))⟩ : Itv)) (f (1) (-1074))),
    (1046, (Itv.wid binary64 (⟨(f 1 0), (f (-2) (0))⟩ : Itv)).isNaN),
    (1060, FP.feq (Itv.widMixed .float .double (⟨(f 2 0), (f 2 0)⟩ : Itv)) (f 0 0)),
    (1061, !sgn (Itv.widMixed .float .double (⟨(f 2 0), (f 2 0)⟩ : Itv))),
    (1062, FP.feq (Itv.widMixed .float .double (⟨(f 1 0), (f 2 0)⟩ : Itv)) (f 1 0)),
    (1063, FP.feq (Itv.widMixed .float .double (⟨(f 1 0), .pinf⟩ : Itv)) .pinf),
    (1064, FP.feq (Itv.widMixed .float .double (⟨.ninf, (f 2 0)⟩ : Itv)) .pinf),
    (1065, FP.feq (Itv.widMixed .float .double (⟨.ninf, .pinf⟩ : Itv)) .pinf)] : List (ℕ × Bool)).all (·.2) = true := by
  decide +kernel

example : ([
    (1066, (Itv.widMixed .float .double (⟨.nan, .nan⟩ : Itv)).isNaN),
    (1067, FP.feq (Itv.widMixed .float .double (⟨(f (1) (-1022)), (f (4503599627370497) (-1074))⟩ : Itv)) (f (1) (-149))),
    (1073, (Itv.widMixed .float .double (⟨(f 1 0), (f (-2) (0))⟩ : Itv)).isNaN),
    (1087, FP.feq (DItv.num (Itv.wid binary64) (⟨⟨(f 2 0), (f 2 0)⟩, .com⟩ : DItv)) (f 0 0)),
    (1088, !sgn (DItv.num (Itv.wid binary64) (⟨⟨(f 2 0), (f 2 0)⟩, .trv⟩ : DItv))),
    (1089, FP.feq (DItv.num (Itv.wid binary64) (⟨⟨(f 1 0), (f 2 0)⟩, .trv⟩ : DItv)) (f 1 0)),
    (1090, FP.feq (DItv.num (Itv.wid binary64) (⟨⟨(f 1 0), .pinf⟩, .trv⟩ : DItv)) .pinf),
    (1091, FP.feq (DItv.num (Itv.wid binary64) (⟨⟨.ninf, (f 2 0)⟩, .defd⟩ : DItv)) .pinf),
    (1092, FP.feq (DItv.num (Itv.wid binary64) (⟨⟨.ninf, .pinf⟩, .trv⟩ : DItv)) .pinf),
    (1093, (DItv.num (Itv.wid binary64) (⟨⟨.nan, .nan⟩, .trv⟩ : DItv)).isNaN),
    (1094, (DItv.num (Itv.wid binary64) (⟨⟨.nan, .nan⟩, .ill⟩ : DItv)).isNaN),
    (1095, FP.feq (DItv.num (Itv.wid binary64) (⟨⟨(f 1 0), (f (4503599627370497) (-52))⟩, .trv⟩ : DItv)) (f (1) (-52))),
    (1096, FP.feq (DItv.num (Itv.wid binary64) (⟨⟨(f (1) (-1022)), (f (4503599627370497) (-1074))⟩, .trv⟩ : DItv)) (f (1) (-1074))),
    (1102, (DItv.num (Itv.wid binary64) (⟨⟨(f 1 0), (f (-2) (0))⟩, .trv⟩ : DItv)).isNaN),
    (1116, FP.feq (DItv.num (Itv.widMixed .float .double) (⟨⟨(f 2 0), (f 2 0)⟩, .com⟩ : DItv)) (f 0 0)),
    (1117, !sgn (DItv.num (Itv.widMixed .float .double) (⟨⟨(f 2 0), (f 2 0)⟩, .trv⟩ : DItv))),
    (1118, FP.feq (DItv.num (Itv.widMixed .float .double) (⟨⟨(f 1 0), (f 2 0)⟩, .trv⟩ : DItv)) (f 1 0)),
    (1119, FP.feq (DItv.num (Itv.widMixed .float .double) (⟨⟨(f 1 0), .pinf⟩, .trv⟩ : DItv)) .pinf),
    (1120, FP.feq (DItv.num (Itv.widMixed .float .double) (⟨⟨.ninf, (f 2 0)⟩, .defd⟩ : DItv)) .pinf),
    (1121, FP.feq (DItv.num (Itv.widMixed .float .double) (⟨⟨.ninf, .pinf⟩, .trv⟩ : DItv)) .pinf),
    (1122, (DItv.num (Itv.widMixed .float .double) (⟨⟨.nan, .nan⟩, .trv⟩ : DItv)).isNaN),
    (1123, (DItv.num (Itv.widMixed .float .double) (⟨⟨.nan, .nan⟩, .ill⟩ : DItv)).isNaN),
    (1124, FP.feq (DItv.num (Itv.widMixed .float .double) (⟨⟨(f (1) (-1022)), (f (4503599627370497) (-1074))⟩, .trv⟩ : DItv)) (f (1) (-149))),
    (1129, (DItv.num (Itv.widMixed .float .double) (⟨⟨(f 1 0), (f (-2) (0))⟩, .trv⟩ : DItv)).isNaN),
    (1144, FP.feq (Itv.mag (⟨(f 1 0), (f 2 0)⟩ : Itv)) (f 2 0)),
    (1145, FP.feq (Itv.mag (⟨(f (-4) (0)), (f 2 0)⟩ : Itv)) (f 4 0)),
    (1146, FP.feq (Itv.mag (⟨.ninf, (f 2 0)⟩ : Itv)) .pinf),
    (1147, FP.feq (Itv.mag (⟨(f 1 0), .pinf⟩ : Itv)) .pinf),
    (1148, FP.feq (Itv.mag (⟨.ninf, .pinf⟩ : Itv)) .pinf),
    (1149, (Itv.mag (⟨.nan, .nan⟩ : Itv)).isNaN),
    (1150, FP.feq (Itv.mag (⟨.nzero, (f 0 0)⟩ : Itv)) (f 0 0)),
    (1151, !sgn (Itv.mag (⟨.nzero, (f 0 0)⟩ : Itv))),
    (1152, FP.feq (Itv.mag (⟨.nzero, .nzero⟩ : Itv)) (f 0 0)),
    (1153, !sgn (Itv.mag (⟨.nzero, .nzero⟩ : Itv))),
    (1158, (Itv.mag (⟨(f 1 0), (f (-2) (0))⟩ : Itv)).isNaN),
    (1172, FP.feq (Itv.magMixed .float .double (⟨(f 1 0), (f 2 0)⟩ : Itv)) (f 2 0)),
    (1173, FP.feq (Itv.magMixed .float .double (⟨(f (-4) (0)), (f 2 0)⟩ : Itv)) (f 4 0)),
    (1174, FP.feq (Itv.magMixed .float .double (⟨.ninf, (f 2 0)⟩ : Itv)) .pinf),
    (1175, FP.feq (Itv.magMixed .float .double (⟨(f 1 0), .pinf⟩ : Itv)) .pinf),
    (1176, FP.feq (Itv.magMixed .float .double (⟨.ninf, .pinf⟩ : Itv)) .pinf),
    (1177, (Itv.magMixed .float .double (⟨.nan, .nan⟩ : Itv)).isNaN),
    (1178, FP.feq (Itv.magMixed .float .double (⟨.nzero, (f 0 0)⟩ : Itv)) (f 0 0)),
    (1179, !sgn (Itv.magMixed .float .double (⟨.nzero, (f 0 0)⟩ : Itv))),
    (1180, FP.feq (Itv.magMixed .float .double (⟨.nzero, .nzero⟩ : Itv)) (f 0 0)),
    (1181, !sgn (Itv.magMixed .float .double (⟨.nzero, .nzero⟩ : Itv))),
    (1182, FP.feq (Itv.magMixed .float .double (⟨(f (1) (-1022)), (f (4503599627370497) (-1074))⟩ : Itv)) (f (1) (-149))),
    (1183, FP.feq (Itv.magMixed .float .double (⟨(f (-2476979795053773) (-51)), (f (3152519739159347) (-52))⟩ : Itv)) (f (9227469) (-23))),
    (1189, (Itv.magMixed .float .double (⟨(f 1 0), (f (-2) (0))⟩ : Itv)).isNaN),
    (1203, FP.feq (DItv.num (Itv.mag) (⟨⟨(f 1 0), (f 2 0)⟩, .com⟩ : DItv)) (f 2 0)),
    (1204, FP.feq (DItv.num (Itv.mag) (⟨⟨(f (-4) (0)), (f 2 0)⟩, .trv⟩ : DItv)) (f 4 0))] : List (ℕ × Bool)).all (·.2) = true := by
  decide +kernel

example : ([
    (1205, FP.feq (DItv.num (Itv.mag) (⟨⟨.ninf, (f 2 0)⟩, .trv⟩ : DItv)) .pinf),
    (1206, FP.feq (DItv.num (Itv.mag) (⟨⟨(f 1 0), .pinf⟩, .defd⟩ : DItv)) .pinf),
    (1207, FP.feq (DItv.num (Itv.mag) (⟨⟨.ninf, .pinf⟩, .trv⟩ : DItv)) .pinf),
    (1208, (DItv.num (Itv.mag) (⟨⟨.nan, .nan⟩, .trv⟩ : DItv)).isNaN),
    (1209, (DItv.num (Itv.mag) (⟨⟨.nan, .nan⟩, .ill⟩ : DItv)).isNaN),
    (1210, FP.feq (DItv.num (Itv.mag) (⟨⟨.nzero, (f 0 0)⟩, .trv⟩ : DItv)) (f 0 0)),
    (1211, !sgn (DItv.num (Itv.mag) (⟨⟨.nzero, (f 0 0)⟩, .trv⟩ : DItv))),
    (1212, FP.feq (DItv.num (Itv.mag) (⟨⟨.nzero, .nzero⟩, .trv⟩ : DItv)) (f 0 0)),
    (1213, !sgn (DItv.num (Itv.mag) (⟨⟨.nzero, .nzero⟩, .trv⟩ : DItv))),
    (1219, (DItv.num (Itv.mag) (⟨⟨(f 1 0), (f (-2) (0))⟩, .trv⟩ : DItv)).isNaN),
    (1233, FP.feq (DItv.num (Itv.magMixed .float .double) (⟨⟨(f 1 0), (f 2 0)⟩, .com⟩ : DItv)) (f 2 0)),
    (1234, FP.feq (DItv.num (Itv.magMixed .float .double) (⟨⟨(f (-4) (0)), (f 2 0)⟩, .trv⟩ : DItv)) (f 4 0)),
    (1235, FP.feq (DItv.num (Itv.magMixed .float .double) (⟨⟨.ninf, (f 2 0)⟩, .trv⟩ : DItv)) .pinf),
    (1236, FP.feq (DItv.num (Itv.magMixed .float .double) (⟨⟨(f 1 0), .pinf⟩, .defd⟩ : DItv)) .pinf),
    (1237, FP.feq (DItv.num (Itv.magMixed .float .double) (⟨⟨.ninf, .pinf⟩, .trv⟩ : DItv)) .pinf),
    (1238, (DItv.num (Itv.magMixed .float .double) (⟨⟨.nan, .nan⟩, .trv⟩ : DItv)).isNaN),
    (1239, (DItv.num (Itv.magMixed .float .double) (⟨⟨.nan, .nan⟩, .ill⟩ : DItv)).isNaN),
    (1240, FP.feq (DItv.num (Itv.magMixed .float .double) (⟨⟨.nzero, (f 0 0)⟩, .trv⟩ : DItv)) (f 0 0)),
    (1241, !sgn (DItv.num (Itv.magMixed .float .double) (⟨⟨.nzero, (f 0 0)⟩, .trv⟩ : DItv))),
    (1242, FP.feq (DItv.num (Itv.magMixed .float .double) (⟨⟨.nzero, .nzero⟩, .trv⟩ : DItv)) (f 0 0)),
    (1243, !sgn (DItv.num (Itv.magMixed .float .double) (⟨⟨.nzero, .nzero⟩, .trv⟩ : DItv))),
    (1244, FP.feq (DItv.num (Itv.magMixed .float .double) (⟨⟨(f (1) (-1022)), (f (4503599627370497) (-1074))⟩, .trv⟩ : DItv)) (f (1) (-149))),
    (1245, FP.feq (DItv.num (Itv.magMixed .float .double) (⟨⟨(f (-2476979795053773) (-51)), (f (3152519739159347) (-52))⟩, .trv⟩ : DItv)) (f (9227469) (-23))),
    (1251, (DItv.num (Itv.magMixed .float .double) (⟨⟨(f 1 0), (f (-2) (0))⟩, .trv⟩ : DItv)).isNaN),
    (1266, FP.feq (Itv.mig (⟨(f 1 0), (f 2 0)⟩ : Itv)) (f 1 0)),
    (1267, FP.feq (Itv.mig (⟨(f (-4) (0)), (f 2 0)⟩ : Itv)) (f 0 0)),
    (1268, !sgn (Itv.mig (⟨(f (-4) (0)), (f 2 0)⟩ : Itv))),
    (1269, FP.feq (Itv.mig (⟨(f (-4) (0)), (f (-2) (0))⟩ : Itv)) (f 2 0)),
    (1270, FP.feq (Itv.mig (⟨.ninf, (f 2 0)⟩ : Itv)) (f 0 0)),
    (1271, FP.feq (Itv.mig (⟨.ninf, (f (-2) (0))⟩ : Itv)) (f 2 0)),
    (1272, FP.feq (Itv.mig (⟨(f (-1) (0)), .pinf⟩ : Itv)) (f 0 0)),
    (1273, FP.feq (Itv.mig (⟨(f 1 0), .pinf⟩ : Itv)) (f 1 0)),
    (1274, FP.feq (Itv.mig (⟨.ninf, .pinf⟩ : Itv)) (f 0 0)),
    (1275, !sgn (Itv.mig (⟨.ninf, .pinf⟩ : Itv))),
    (1276, (Itv.mig (⟨.nan, .nan⟩ : Itv)).isNaN),
    (1277, FP.feq (Itv.mig (⟨.nzero, (f 0 0)⟩ : Itv)) (f 0 0)),
    (1278, !sgn (Itv.mig (⟨.nzero, (f 0 0)⟩ : Itv))),
    (1279, FP.feq (Itv.mig (⟨.nzero, .nzero⟩ : Itv)) (f 0 0)),
    (1280, !sgn (Itv.mig (⟨.nzero, .nzero⟩ : Itv))),
    (1285, (Itv.mig (⟨(f 1 0), (f (-2) (0))⟩ : Itv)).isNaN),
    (1299, FP.feq (Itv.migMixed .float .double (⟨(f 1 0), (f 2 0)⟩ : Itv)) (f 1 0)),
    (1300, FP.feq (Itv.migMixed .float .double (⟨(f (-4) (0)), (f 2 0)⟩ : Itv)) (f 0 0)),
    (1301, !sgn (Itv.migMixed .float .double (⟨(f (-4) (0)), (f 2 0)⟩ : Itv))),
    (1302, FP.feq (Itv.migMixed .float .double (⟨(f (-4) (0)), (f (-2) (0))⟩ : Itv)) (f 2 0)),
    (1303, FP.feq (Itv.migMixed .float .double (⟨.ninf, (f 2 0)⟩ : Itv)) (f 0 0)),
    (1304, FP.feq (Itv.migMixed .float .double (⟨.ninf, (f (-2) (0))⟩ : Itv)) (f 2 0)),
    (1305, FP.feq (Itv.migMixed .float .double (⟨(f (-1) (0)), .pinf⟩ : Itv)) (f 0 0)),
    (1306, FP.feq (Itv.migMixed .float .double (⟨(f 1 0), .pinf⟩ : Itv)) (f 1 0)),
    (1307, FP.feq (Itv.migMixed .float .double (⟨.ninf, .pinf⟩ : Itv)) (f 0 0)),
    (1308, !sgn (Itv.migMixed .float .double (⟨.ninf, .pinf⟩ : Itv)))] : List (ℕ × Bool)).all (·.2) = true := by
  decide +kernel

example : ([
    (1309, (Itv.migMixed .float .double (⟨.nan, .nan⟩ : Itv)).isNaN),
    (1310, FP.feq (Itv.migMixed .float .double (⟨.nzero, (f 0 0)⟩ : Itv)) (f 0 0)),
    (1311, !sgn (Itv.migMixed .float .double (⟨.nzero, (f 0 0)⟩ : Itv))),
    (1312, FP.feq (Itv.migMixed .float .double (⟨.nzero, .nzero⟩ : Itv)) (f 0 0)),
    (1313, !sgn (Itv.migMixed .float .double (⟨.nzero, .nzero⟩ : Itv))),
    (1314, FP.feq (Itv.migMixed .float .double (⟨(f (2476979795053773) (-51)), (f (3152519739159347) (-50))⟩ : Itv)) (f (2306867) (-21))),
    (1320, (Itv.migMixed .float .double (⟨(f 1 0), (f (-2) (0))⟩ : Itv)).isNaN),
    (1334, FP.feq (DItv.num (Itv.mig) (⟨⟨(f 1 0), (f 2 0)⟩, .com⟩ : DItv)) (f 1 0)),
    (1335, FP.feq (DItv.num (Itv.mig) (⟨⟨(f (-4) (0)), (f 2 0)⟩, .trv⟩ : DItv)) (f 0 0)),
    (1336, !sgn (DItv.num (Itv.mig) (⟨⟨(f (-4) (0)), (f 2 0)⟩, .trv⟩ : DItv))),
    (1337, FP.feq (DItv.num (Itv.mig) (⟨⟨(f (-4) (0)), (f (-2) (0))⟩, .trv⟩ : DItv)) (f 2 0)),
    (1338, FP.feq (DItv.num (Itv.mig) (⟨⟨.ninf, (f 2 0)⟩, .defd⟩ : DItv)) (f 0 0)),
    (1339, FP.feq (DItv.num (Itv.mig) (⟨⟨.ninf, (f (-2) (0))⟩, .trv⟩ : DItv)) (f 2 0)),
    (1340, FP.feq (DItv.num (Itv.mig) (⟨⟨(f (-1) (0)), .pinf⟩, .trv⟩ : DItv)) (f 0 0)),
    (1341, FP.feq (DItv.num (Itv.mig) (⟨⟨(f 1 0), .pinf⟩, .trv⟩ : DItv)) (f 1 0)),
    (1342, FP.feq (DItv.num (Itv.mig) (⟨⟨.ninf, .pinf⟩, .trv⟩ : DItv)) (f 0 0)),
    (1343, !sgn (DItv.num (Itv.mig) (⟨⟨.ninf, .pinf⟩, .trv⟩ : DItv))),
    (1344, (DItv.num (Itv.mig) (⟨⟨.nan, .nan⟩, .trv⟩ : DItv)).isNaN),
    (1345, (DItv.num (Itv.mig) (⟨⟨.nan, .nan⟩, .ill⟩ : DItv)).isNaN),
    (1346, FP.feq (DItv.num (Itv.mig) (⟨⟨.nzero, (f 0 0)⟩, .trv⟩ : DItv)) (f 0 0)),
    (1347, !sgn (DItv.num (Itv.mig) (⟨⟨.nzero, (f 0 0)⟩, .trv⟩ : DItv))),
    (1348, FP.feq (DItv.num (Itv.mig) (⟨⟨.nzero, .nzero⟩, .trv⟩ : DItv)) (f 0 0)),
    (1349, !sgn (DItv.num (Itv.mig) (⟨⟨.nzero, .nzero⟩, .trv⟩ : DItv))),
    (1354, (DItv.num (Itv.mig) (⟨⟨(f 1 0), (f (-2) (0))⟩, .trv⟩ : DItv)).isNaN),
    (1368, FP.feq (DItv.num (Itv.migMixed .float .double) (⟨⟨(f 1 0), (f 2 0)⟩, .com⟩ : DItv)) (f 1 0)),
    (1369, FP.feq (DItv.num (Itv.migMixed .float .double) (⟨⟨(f (-4) (0)), (f 2 0)⟩, .trv⟩ : DItv)) (f 0 0)),
    (1370, !sgn (DItv.num (Itv.migMixed .float .double) (⟨⟨(f (-4) (0)), (f 2 0)⟩, .trv⟩ : DItv))),
    (1371, FP.feq (DItv.num (Itv.migMixed .float .double) (⟨⟨(f (-4) (0)), (f (-2) (0))⟩, .trv⟩ : DItv)) (f 2 0)),
    (1372, FP.feq (DItv.num (Itv.migMixed .float .double) (⟨⟨.ninf, (f 2 0)⟩, .trv⟩ : DItv)) (f 0 0)),
    (1373, FP.feq (DItv.num (Itv.migMixed .float .double) (⟨⟨.ninf, (f (-2) (0))⟩, .defd⟩ : DItv)) (f 2 0)),
    (1374, FP.feq (DItv.num (Itv.migMixed .float .double) (⟨⟨(f (-1) (0)), .pinf⟩, .trv⟩ : DItv)) (f 0 0)),
    (1375, FP.feq (DItv.num (Itv.migMixed .float .double) (⟨⟨(f 1 0), .pinf⟩, .trv⟩ : DItv)) (f 1 0)),
    (1376, FP.feq (DItv.num (Itv.migMixed .float .double) (⟨⟨.ninf, .pinf⟩, .trv⟩ : DItv)) (f 0 0)),
    (1377, !sgn (DItv.num (Itv.migMixed .float .double) (⟨⟨.ninf, .pinf⟩, .trv⟩ : DItv))),
    (1378, (DItv.num (Itv.migMixed .float .double) (⟨⟨.nan, .nan⟩, .trv⟩ : DItv)).isNaN),
    (1379, (DItv.num (Itv.migMixed .float .double) (⟨⟨.nan, .nan⟩, .ill⟩ : DItv)).isNaN),
    (1380, FP.feq (DItv.num (Itv.migMixed .float .double) (⟨⟨.nzero, (f 0 0)⟩, .trv⟩ : DItv)) (f 0 0)),
    (1381, !sgn (DItv.num (Itv.migMixed .float .double) (⟨⟨.nzero, (f 0 0)⟩, .trv⟩ : DItv))),
    (1382, FP.feq (DItv.num (Itv.migMixed .float .double) (⟨⟨.nzero, .nzero⟩, .trv⟩ : DItv)) (f 0 0)),
    (1383, !sgn (DItv.num (Itv.migMixed .float .double) (⟨⟨.nzero, .nzero⟩, .trv⟩ : DItv))),
    (1384, FP.feq (DItv.num (Itv.migMixed .float .double) (⟨⟨(f (2476979795053773) (-51)), (f (3152519739159347) (-50))⟩, .trv⟩ : DItv)) (f (2306867) (-21))),
    (1389, (DItv.num (Itv.migMixed .float .double) (⟨⟨(f 1 0), (f (-2) (0))⟩, .trv⟩ : DItv)).isNaN)] : List (ℕ × Bool)).all (·.2) = true := by
  decide +kernel

end P1788.Conform
