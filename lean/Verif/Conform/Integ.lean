import Verif.Conform.Basic

/-!
# Conformance: the classes `interval` and `decorated_interval`

Generated from `/repo/test/p1788/infsup/*.cpp`: the assertions of the project's own integration tests, evaluated in the model by
the kernel.  Objects are built by the constructors and compared with `operator==`, as the tests do.  Each entry is (line in the
file, value of the assertion).  These are tests of the model, not proofs of properties.
-/

set_option maxRecDepth 100000

namespace P1788.Conform

/-- `test_integration_mpfr_bin_ieee754_flavor_bool.cpp` -/
example : ([
    (43, Itv.isEmpty (Itv.empty : Itv)),
    (44, !Itv.isEmpty (Itv.entire : Itv)),
    (45, Itv.isEmpty (Itv.empty : Itv)),
    (46, !Itv.isEmpty (Itv.entire : Itv)),
    (48, DItv.pred Itv.isEmpty (DItv.empty : DItv)),
    (49, !DItv.pred Itv.isEmpty (DItv.entire : DItv)),
    (50, DItv.pred Itv.isEmpty (DItv.empty : DItv)),
    (51, !DItv.pred Itv.isEmpty (DItv.entire : DItv)),
    (56, !Itv.isEntire (Itv.empty : Itv)),
    (57, Itv.isEntire (Itv.entire : Itv)),
    (58, !Itv.isEntire (Itv.empty : Itv)),
    (59, Itv.isEntire (Itv.entire : Itv)),
    (61, !DItv.pred Itv.isEntire (DItv.empty : DItv)),
    (62, DItv.pred Itv.isEntire (DItv.entire : DItv)),
    (63, !DItv.pred Itv.isEntire (DItv.empty : DItv)),
    (64, DItv.pred Itv.isEntire (DItv.entire : DItv)),
    (69, !DItv.isNai (DItv.empty : DItv)),
    (70, !DItv.isNai (DItv.entire : DItv)),
    (71, DItv.isNai (DItv.nai : DItv)),
    (72, !DItv.isNai (DItv.empty : DItv)),
    (73, !DItv.isNai (DItv.entire : DItv)),
    (74, DItv.isNai (DItv.nai : DItv)),
    (80, Itv.equal (Itv.empty : Itv) (Itv.empty : Itv)),
    (81, Itv.equal (Itv.empty : Itv) (Itv.empty : Itv)),
    (82, !Itv.equal (Itv.entire : Itv) (Itv.empty : Itv)),
    (83, !Itv.equal (Itv.entire : Itv) (Itv.empty : Itv)),
    (84, Itv.equal (Itv.entire : Itv) (Itv.entire : Itv)),
    (85, Itv.equal (Itv.entire : Itv) (Itv.entire : Itv)),
    (86, Itv.neOp (Itv.entire : Itv) (Itv.empty : Itv)),
    (87, Itv.neOp (Itv.entire : Itv) (Itv.empty : Itv)),
    (88, Itv.eqOp (Itv.entire : Itv) (Itv.entire : Itv)),
    (89, Itv.eqOp (Itv.entire : Itv) (Itv.entire : Itv)),
    (90, Itv.equal (Itv.empty : Itv) (Itv.empty : Itv)),
    (91, Itv.equal (Itv.empty : Itv) (Itv.empty : Itv)),
    (92, !Itv.equal (Itv.entire : Itv) (Itv.empty : Itv)),
    (93, !Itv.equal (Itv.entire : Itv) (Itv.empty : Itv)),
    (94, Itv.equal (Itv.entire : Itv) (Itv.entire : Itv)),
    (95, Itv.equal (Itv.entire : Itv) (Itv.entire : Itv)),
    (97, DItv.rel Itv.equal (DItv.empty : DItv) (DItv.empty : DItv)),
    (98, DItv.rel Itv.equal (DItv.empty : DItv) (DItv.empty : DItv)),
    (99, !DItv.rel Itv.equal (DItv.entire : DItv) (DItv.empty : DItv)),
    (100, !DItv.rel Itv.equal (DItv.entire : DItv) (DItv.empty : DItv)),
    (101, DItv.rel Itv.equal (DItv.entire : DItv) (DItv.entire : DItv)),
    (102, DItv.rel Itv.equal (DItv.entire : DItv) (DItv.entire : DItv)),
    (103, DItv.neOp (DItv.entire : DItv) (DItv.empty : DItv)),
    (104, DItv.neOp (DItv.entire : DItv) (DItv.empty : DItv)),
    (105, DItv.eqOp (DItv.entire : DItv) (DItv.entire : DItv)),
    (106, DItv.eqOp (DItv.entire : DItv) (DItv.entire : DItv)),
    (107, DItv.rel Itv.equal (DItv.empty : DItv) (DItv.empty : DItv)),
    (108, DItv.rel Itv.equal (DItv.empty : DItv) (DItv.empty : DItv))] : List (ℕ × Bool)).all (·.2) = true := by
  decide +kernel

/-- `test_integration_mpfr_bin_ieee754_flavor_bool.cpp` -/
example : ([
    (109, !DItv.rel Itv.equal (DItv.entire : DItv) (DItv.empty : DItv)),
    (110, !DItv.rel Itv.equal (DItv.entire : DItv) (DItv.empty : DItv)),
    (111, DItv.rel Itv.equal (DItv.entire : DItv) (DItv.entire : DItv)),
    (112, DItv.rel Itv.equal (DItv.entire : DItv) (DItv.entire : DItv)),
    (117, Itv.subset (ret <| numsToInterval (f 2 0) (f 3 0) : Itv) (ret <| numsToInterval (f 1 0) (f 3 0) : Itv)),
    (118, Itv.subset (ret <| numsToInterval (f 2 0) (f 3 0) : Itv) (ret <| numsToInterval (f 1 0) (f 3 0) : Itv)),
    (119, !Itv.subset (ret <| numsToInterval (f (-1) (0)) (f 3 0) : Itv) (ret <| numsToInterval (f 2 0) (f 3 0) : Itv)),
    (120, !Itv.subset (ret <| numsToInterval (f (-1) (0)) (f 3 0) : Itv) (ret <| numsToInterval (f 2 0) (f 3 0) : Itv)),
    (121, Itv.subset (ret <| numsToInterval (f 2 0) (f 3 0) : Itv) (ret <| numsToInterval (f 1 0) (f 3 0) : Itv)),
    (122, Itv.subset (ret <| numsToInterval (f 2 0) (f 3 0) : Itv) (ret <| numsToInterval (f 1 0) (f 3 0) : Itv)),
    (123, !Itv.subset (ret <| numsToInterval (f (-1) (0)) (f 3 0) : Itv) (ret <| numsToInterval (f 2 0) (f 3 0) : Itv)),
    (124, !Itv.subset (ret <| numsToInterval (f (-1) (0)) (f 3 0) : Itv) (ret <| numsToInterval (f 2 0) (f 3 0) : Itv)),
    (126, DItv.rel Itv.subset (ret <| numsToDecorated (f 2 0) (f 3 0) : DItv) (ret <| numsToDecorated (f 1 0) (f 3 0) : DItv)),
    (127, DItv.rel Itv.subset (ret <| numsToDecorated (f 2 0) (f 3 0) : DItv) (ret <| numsToDecorated (f 1 0) (f 3 0) : DItv)),
    (128, !DItv.rel Itv.subset (ret <| numsToDecorated (f (-1) (0)) (f 3 0) : DItv) (ret <| numsToDecorated (f 2 0) (f 3 0) : DItv)),
    (129, !DItv.rel Itv.subset (ret <| numsToDecorated (f (-1) (0)) (f 3 0) : DItv) (ret <| numsToDecorated (f 2 0) (f 3 0) : DItv)),
    (130, DItv.rel Itv.subset (ret <| numsToDecorated (f 2 0) (f 3 0) : DItv) (ret <| numsToDecorated (f 1 0) (f 3 0) : DItv)),
    (131, DItv.rel Itv.subset (ret <| numsToDecorated (f 2 0) (f 3 0) : DItv) (ret <| numsToDecorated (f 1 0) (f 3 0) : DItv)),
    (132, !DItv.rel Itv.subset (ret <| numsToDecorated (f (-1) (0)) (f 3 0) : DItv) (ret <| numsToDecorated (f 2 0) (f 3 0) : DItv)),
    (133, !DItv.rel Itv.subset (ret <| numsToDecorated (f (-1) (0)) (f 3 0) : DItv) (ret <| numsToDecorated (f 2 0) (f 3 0) : DItv)),
    (138, !Itv.superset (ret <| numsToInterval (f 2 0) (f 3 0) : Itv) (ret <| numsToInterval (f 1 0) (f 3 0) : Itv)),
    (139, !Itv.superset (ret <| numsToInterval (f 2 0) (f 3 0) : Itv) (ret <| numsToInterval (f 1 0) (f 3 0) : Itv)),
    (140, Itv.superset (ret <| numsToInterval (f (-1) (0)) (f 3 0) : Itv) (ret <| numsToInterval (f 2 0) (f 3 0) : Itv)),
    (141, Itv.superset (ret <| numsToInterval (f (-1) (0)) (f 3 0) : Itv) (ret <| numsToInterval (f 2 0) (f 3 0) : Itv)),
    (142, !Itv.superset (ret <| numsToInterval (f 2 0) (f 3 0) : Itv) (ret <| numsToInterval (f 1 0) (f 3 0) : Itv)),
    (143, !Itv.superset (ret <| numsToInterval (f 2 0) (f 3 0) : Itv) (ret <| numsToInterval (f 1 0) (f 3 0) : Itv)),
    (144, Itv.superset (ret <| numsToInterval (f (-1) (0)) (f 3 0) : Itv) (ret <| numsToInterval (f 2 0) (f 3 0) : Itv)),
    (145, Itv.superset (ret <| numsToInterval (f (-1) (0)) (f 3 0) : Itv) (ret <| numsToInterval (f 2 0) (f 3 0) : Itv)),
    (147, !DItv.rel Itv.superset (ret <| numsToDecorated (f 2 0) (f 3 0) : DItv) (ret <| numsToDecorated (f 1 0) (f 3 0) : DItv)),
    (148, !DItv.rel Itv.superset (ret <| numsToDecorated (f 2 0) (f 3 0) : DItv) (ret <| numsToDecorated (f 1 0) (f 3 0) : DItv)),
    (149, DItv.rel Itv.superset (ret <| numsToDecorated (f (-1) (0)) (f 3 0) : DItv) (ret <| numsToDecorated (f 2 0) (f 3 0) : DItv)),
    (150, DItv.rel Itv.superset (ret <| numsToDecorated (f (-1) (0)) (f 3 0) : DItv) (ret <| numsToDecorated (f 2 0) (f 3 0) : DItv)),
    (151, !DItv.rel Itv.superset (ret <| numsToDecorated (f 2 0) (f 3 0) : DItv) (ret <| numsToDecorated (f 1 0) (f 3 0) : DItv)),
    (152, !DItv.rel Itv.superset (ret <| numsToDecorated (f 2 0) (f 3 0) : DItv) (ret <| numsToDecorated (f 1 0) (f 3 0) : DItv)),
    (153, DItv.rel Itv.superset (ret <| numsToDecorated (f (-1) (0)) (f 3 0) : DItv) (ret <| numsToDecorated (f 2 0) (f 3 0) : DItv)),
    (154, DItv.rel Itv.superset (ret <| numsToDecorated (f (-1) (0)) (f 3 0) : DItv) (ret <| numsToDecorated (f 2 0) (f 3 0) : DItv)),
    (159, Itv.less (ret <| numsToInterval (f 2 0) (f (9) (-1)) : Itv) (ret <| numsToInterval (f 4 0) (f 5 0) : Itv)),
    (160, Itv.less (ret <| numsToInterval (f 2 0) (f (9) (-1)) : Itv) (ret <| numsToInterval (f 4 0) (f 5 0) : Itv)),
    (161, !Itv.less (ret <| numsToInterval (f (-1) (0)) (f 3 0) : Itv) (ret <| numsToInterval (f (-5) (0)) (f (-3) (0)) : Itv)),
    (162, !Itv.less (ret <| numsToInterval (f (-1) (0)) (f 3 0) : Itv) (ret <| numsToInterval (f (-5) (0)) (f (-3) (0)) : Itv)),
    (163, Itv.less (ret <| numsToInterval (f 2 0) (f (9) (-1)) : Itv) (ret <| numsToInterval (f 4 0) (f 5 0) : Itv)),
    (164, Itv.less (ret <| numsToInterval (f 2 0) (f (9) (-1)) : Itv) (ret <| numsToInterval (f 4 0) (f 5 0) : Itv)),
    (165, !Itv.less (ret <| numsToInterval (f (-1) (0)) (f 3 0) : Itv) (ret <| numsToInterval (f (-5) (0)) (f (-3) (0)) : Itv)),
    (166, !Itv.less (ret <| numsToInterval (f (-1) (0)) (f 3 0) : Itv) (ret <| numsToInterval (f (-5) (0)) (f (-3) (0)) : Itv)),
    (168, DItv.rel Itv.less (ret <| numsToDecorated (f 2 0) (f (9) (-1)) : DItv) (ret <| numsToDecorated (f 4 0) (f 5 0) : DItv)),
    (169, DItv.rel Itv.less (ret <| numsToDecorated (f 2 0) (f (9) (-1)) : DItv) (ret <| numsToDecorated (f 4 0) (f 5 0) : DItv)),
    (170, !DItv.rel Itv.less (ret <| numsToDecorated (f (-1) (0)) (f 3 0) : DItv) (ret <| numsToDecorated (f (-5) (0)) (f (-3) (0)) : DItv)),
    (171, !DItv.rel Itv.less (ret <| numsToDecorated (f (-1) (0)) (f 3 0) : DItv) (ret <| numsToDecorated (f (-5) (0)) (f (-3) (0)) : DItv)),
    (172, DItv.rel Itv.less (ret <| numsToDecorated (f 2 0) (f (9) (-1)) : DItv) (ret <| numsToDecorated (f 4 0) (f 5 0) : DItv)),
    (173, DItv.rel Itv.less (ret <| numsToDecorated (f 2 0) (f (9) (-1)) : DItv) (ret <| numsToDecorated (f 4 0) (f 5 0) : DItv))] : List (ℕ × Bool)).all (·.2) = true := by
  decide +kernel

/-- `test_integration_mpfr_bin_ieee754_flavor_bool.cpp` -/
example : ([
    (174, !DItv.rel Itv.less (ret <| numsToDecorated (f (-1) (0)) (f 3 0) : DItv) (ret <| numsToDecorated (f (-5) (0)) (f (-3) (0)) : DItv)),
    (175, !DItv.rel Itv.less (ret <| numsToDecorated (f (-1) (0)) (f 3 0) : DItv) (ret <| numsToDecorated (f (-5) (0)) (f (-3) (0)) : DItv)),
    (180, !Itv.greater (ret <| numsToInterval (f 2 0) (f 3 0) : Itv) (ret <| numsToInterval (f 4 0) (f 5 0) : Itv)),
    (181, !Itv.greater (ret <| numsToInterval (f 2 0) (f 3 0) : Itv) (ret <| numsToInterval (f 4 0) (f 5 0) : Itv)),
    (182, Itv.greater (ret <| numsToInterval (f (-1) (0)) (f 3 0) : Itv) (ret <| numsToInterval (f (-5) (0)) (f (-3) (0)) : Itv)),
    (183, Itv.greater (ret <| numsToInterval (f (-1) (0)) (f 3 0) : Itv) (ret <| numsToInterval (f (-5) (0)) (f (-3) (0)) : Itv)),
    (184, !Itv.greater (ret <| numsToInterval (f 2 0) (f 3 0) : Itv) (ret <| numsToInterval (f 4 0) (f 5 0) : Itv)),
    (185, !Itv.greater (ret <| numsToInterval (f 2 0) (f 3 0) : Itv) (ret <| numsToInterval (f 4 0) (f 5 0) : Itv)),
    (186, Itv.greater (ret <| numsToInterval (f (-1) (0)) (f 3 0) : Itv) (ret <| numsToInterval (f (-5) (0)) (f (-3) (0)) : Itv)),
    (187, Itv.greater (ret <| numsToInterval (f (-1) (0)) (f 3 0) : Itv) (ret <| numsToInterval (f (-5) (0)) (f (-3) (0)) : Itv)),
    (189, !DItv.rel Itv.greater (ret <| numsToDecorated (f 2 0) (f 3 0) : DItv) (ret <| numsToDecorated (f 4 0) (f 5 0) : DItv)),
    (190, !DItv.rel Itv.greater (ret <| numsToDecorated (f 2 0) (f 3 0) : DItv) (ret <| numsToDecorated (f 4 0) (f 5 0) : DItv)),
    (191, DItv.rel Itv.greater (ret <| numsToDecorated (f (-1) (0)) (f 3 0) : DItv) (ret <| numsToDecorated (f (-5) (0)) (f (-3) (0)) : DItv)),
    (192, DItv.rel Itv.greater (ret <| numsToDecorated (f (-1) (0)) (f 3 0) : DItv) (ret <| numsToDecorated (f (-5) (0)) (f (-3) (0)) : DItv)),
    (193, !DItv.rel Itv.greater (ret <| numsToDecorated (f 2 0) (f 3 0) : DItv) (ret <| numsToDecorated (f 4 0) (f 5 0) : DItv)),
    (194, !DItv.rel Itv.greater (ret <| numsToDecorated (f 2 0) (f 3 0) : DItv) (ret <| numsToDecorated (f 4 0) (f 5 0) : DItv)),
    (195, DItv.rel Itv.greater (ret <| numsToDecorated (f (-1) (0)) (f 3 0) : DItv) (ret <| numsToDecorated (f (-5) (0)) (f (-3) (0)) : DItv)),
    (196, DItv.rel Itv.greater (ret <| numsToDecorated (f (-1) (0)) (f 3 0) : DItv) (ret <| numsToDecorated (f (-5) (0)) (f (-3) (0)) : DItv)),
    (201, Itv.precedes (ret <| numsToInterval (f 2 0) (f 4 0) : Itv) (ret <| numsToInterval (f 4 0) (f 5 0) : Itv)),
    (202, Itv.precedes (ret <| numsToInterval (f 2 0) (f 4 0) : Itv) (ret <| numsToInterval (f 4 0) (f 5 0) : Itv)),
    (203, !Itv.precedes (ret <| numsToInterval (f (-1) (0)) (f 3 0) : Itv) (ret <| numsToInterval (f (-5) (0)) (f (-3) (0)) : Itv)),
    (204, !Itv.precedes (ret <| numsToInterval (f (-1) (0)) (f 3 0) : Itv) (ret <| numsToInterval (f (-5) (0)) (f (-3) (0)) : Itv)),
    (205, Itv.precedes (ret <| numsToInterval (f 2 0) (f 4 0) : Itv) (ret <| numsToInterval (f 4 0) (f 5 0) : Itv)),
    (206, Itv.precedes (ret <| numsToInterval (f 2 0) (f 4 0) : Itv) (ret <| numsToInterval (f 4 0) (f 5 0) : Itv)),
    (207, !Itv.precedes (ret <| numsToInterval (f (-1) (0)) (f 3 0) : Itv) (ret <| numsToInterval (f (-5) (0)) (f (-3) (0)) : Itv)),
    (208, !Itv.precedes (ret <| numsToInterval (f (-1) (0)) (f 3 0) : Itv) (ret <| numsToInterval (f (-5) (0)) (f (-3) (0)) : Itv)),
    (210, DItv.rel Itv.precedes (ret <| numsToDecorated (f 2 0) (f 4 0) : DItv) (ret <| numsToDecorated (f 4 0) (f 5 0) : DItv)),
    (211, DItv.rel Itv.precedes (ret <| numsToDecorated (f 2 0) (f 4 0) : DItv) (ret <| numsToDecorated (f 4 0) (f 5 0) : DItv)),
    (212, !DItv.rel Itv.precedes (ret <| numsToDecorated (f (-1) (0)) (f 3 0) : DItv) (ret <| numsToDecorated (f (-5) (0)) (f (-3) (0)) : DItv)),
    (213, !DItv.rel Itv.precedes (ret <| numsToDecorated (f (-1) (0)) (f 3 0) : DItv) (ret <| numsToDecorated (f (-5) (0)) (f (-3) (0)) : DItv)),
    (214, DItv.rel Itv.precedes (ret <| numsToDecorated (f 2 0) (f 4 0) : DItv) (ret <| numsToDecorated (f 4 0) (f 5 0) : DItv)),
    (215, DItv.rel Itv.precedes (ret <| numsToDecorated (f 2 0) (f 4 0) : DItv) (ret <| numsToDecorated (f 4 0) (f 5 0) : DItv)),
    (216, !DItv.rel Itv.precedes (ret <| numsToDecorated (f (-1) (0)) (f 3 0) : DItv) (ret <| numsToDecorated (f (-5) (0)) (f (-3) (0)) : DItv)),
    (217, !DItv.rel Itv.precedes (ret <| numsToDecorated (f (-1) (0)) (f 3 0) : DItv) (ret <| numsToDecorated (f (-5) (0)) (f (-3) (0)) : DItv)),
    (222, !Itv.succeeds (ret <| numsToInterval (f 2 0) (f 3 0) : Itv) (ret <| numsToInterval (f 4 0) (f 5 0) : Itv)),
    (223, !Itv.succeeds (ret <| numsToInterval (f 2 0) (f 3 0) : Itv) (ret <| numsToInterval (f 4 0) (f 5 0) : Itv)),
    (224, Itv.succeeds (ret <| numsToInterval (f (-1) (0)) (f 3 0) : Itv) (ret <| numsToInterval (f (-5) (0)) (f (-1) (0)) : Itv)),
    (225, Itv.succeeds (ret <| numsToInterval (f (-1) (0)) (f 3 0) : Itv) (ret <| numsToInterval (f (-5) (0)) (f (-1) (0)) : Itv)),
    (226, !Itv.succeeds (ret <| numsToInterval (f 2 0) (f 3 0) : Itv) (ret <| numsToInterval (f 4 0) (f 5 0) : Itv)),
    (227, !Itv.succeeds (ret <| numsToInterval (f 2 0) (f 3 0) : Itv) (ret <| numsToInterval (f 4 0) (f 5 0) : Itv)),
    (228, Itv.succeeds (ret <| numsToInterval (f (-1) (0)) (f 3 0) : Itv) (ret <| numsToInterval (f (-5) (0)) (f (-1) (0)) : Itv)),
    (229, Itv.succeeds (ret <| numsToInterval (f (-1) (0)) (f 3 0) : Itv) (ret <| numsToInterval (f (-5) (0)) (f (-1) (0)) : Itv)),
    (231, !DItv.rel Itv.succeeds (ret <| numsToDecorated (f 2 0) (f 3 0) : DItv) (ret <| numsToDecorated (f 4 0) (f 5 0) : DItv)),
    (232, !DItv.rel Itv.succeeds (ret <| numsToDecorated (f 2 0) (f 3 0) : DItv) (ret <| numsToDecorated (f 4 0) (f 5 0) : DItv)),
    (233, DItv.rel Itv.succeeds (ret <| numsToDecorated (f (-1) (0)) (f 3 0) : DItv) (ret <| numsToDecorated (f (-5) (0)) (f (-1) (0)) : DItv)),
    (234, DItv.rel Itv.succeeds (ret <| numsToDecorated (f (-1) (0)) (f 3 0) : DItv) (ret <| numsToDecorated (f (-5) (0)) (f (-1) (0)) : DItv)),
    (235, !DItv.rel Itv.succeeds (ret <| numsToDecorated (f 2 0) (f 3 0) : DItv) (ret <| numsToDecorated (f 4 0) (f 5 0) : DItv)),
    (236, !DItv.rel Itv.succeeds (ret <| numsToDecorated (f 2 0) (f 3 0) : DItv) (ret <| numsToDecorated (f 4 0) (f 5 0) : DItv)),
    (237, DItv.rel Itv.succeeds (ret <| numsToDecorated (f (-1) (0)) (f 3 0) : DItv) (ret <| numsToDecorated (f (-5) (0)) (f (-1) (0)) : DItv)),
    (238, DItv.rel Itv.succeeds (ret <| numsToDecorated (f (-1) (0)) (f 3 0) : DItv) (ret <| numsToDecorated (f (-5) (0)) (f (-1) (0)) : DItv))] : List (ℕ × Bool)).all (·.2) = true := by
  decide +kernel

/-- `test_integration_mpfr_bin_ieee754_flavor_bool.cpp` -/
example : ([
    (243, Itv.interior (ret <| numsToInterval (f 2 0) (f 3 0) : Itv) (ret <| numsToInterval (f 0 0) (f 5 0) : Itv)),
    (244, Itv.interior (ret <| numsToInterval (f 2 0) (f 3 0) : Itv) (ret <| numsToInterval (f 0 0) (f 5 0) : Itv)),
    (245, !Itv.interior (ret <| numsToInterval (f (-1) (0)) (f 3 0) : Itv) (ret <| numsToInterval (f (-5) (0)) (f (-3) (0)) : Itv)),
    (246, !Itv.interior (ret <| numsToInterval (f (-1) (0)) (f 3 0) : Itv) (ret <| numsToInterval (f (-5) (0)) (f (-3) (0)) : Itv)),
    (247, Itv.interior (ret <| numsToInterval (f 2 0) (f 3 0) : Itv) (ret <| numsToInterval (f 0 0) (f 5 0) : Itv)),
    (248, Itv.interior (ret <| numsToInterval (f 2 0) (f 3 0) : Itv) (ret <| numsToInterval (f 0 0) (f 5 0) : Itv)),
    (249, !Itv.interior (ret <| numsToInterval (f (-1) (0)) (f 3 0) : Itv) (ret <| numsToInterval (f (-5) (0)) (f (-3) (0)) : Itv)),
    (250, !Itv.interior (ret <| numsToInterval (f (-1) (0)) (f 3 0) : Itv) (ret <| numsToInterval (f (-5) (0)) (f (-3) (0)) : Itv)),
    (252, DItv.rel Itv.interior (ret <| numsToDecorated (f 2 0) (f 3 0) : DItv) (ret <| numsToDecorated (f 0 0) (f 5 0) : DItv)),
    (253, DItv.rel Itv.interior (ret <| numsToDecorated (f 2 0) (f 3 0) : DItv) (ret <| numsToDecorated (f 0 0) (f 5 0) : DItv)),
    (254, !DItv.rel Itv.interior (ret <| numsToDecorated (f (-1) (0)) (f 3 0) : DItv) (ret <| numsToDecorated (f (-5) (0)) (f (-3) (0)) : DItv)),
    (255, !DItv.rel Itv.interior (ret <| numsToDecorated (f (-1) (0)) (f 3 0) : DItv) (ret <| numsToDecorated (f (-5) (0)) (f (-3) (0)) : DItv)),
    (256, DItv.rel Itv.interior (ret <| numsToDecorated (f 2 0) (f 3 0) : DItv) (ret <| numsToDecorated (f 0 0) (f 5 0) : DItv)),
    (257, DItv.rel Itv.interior (ret <| numsToDecorated (f 2 0) (f 3 0) : DItv) (ret <| numsToDecorated (f 0 0) (f 5 0) : DItv)),
    (258, !DItv.rel Itv.interior (ret <| numsToDecorated (f (-1) (0)) (f 3 0) : DItv) (ret <| numsToDecorated (f (-5) (0)) (f (-3) (0)) : DItv)),
    (259, !DItv.rel Itv.interior (ret <| numsToDecorated (f (-1) (0)) (f 3 0) : DItv) (ret <| numsToDecorated (f (-5) (0)) (f (-3) (0)) : DItv)),
    (264, Itv.containsInterior (ret <| numsToInterval (f (-2) (0)) (f 13 0) : Itv) (ret <| numsToInterval (f 0 0) (f 5 0) : Itv)),
    (265, Itv.containsInterior (ret <| numsToInterval (f (-2) (0)) (f 13 0) : Itv) (ret <| numsToInterval (f 0 0) (f 5 0) : Itv)),
    (266, !Itv.containsInterior (ret <| numsToInterval (f (-1) (0)) (f 3 0) : Itv) (ret <| numsToInterval (f (-5) (0)) (f (-3) (0)) : Itv)),
    (267, !Itv.containsInterior (ret <| numsToInterval (f (-1) (0)) (f 3 0) : Itv) (ret <| numsToInterval (f (-5) (0)) (f (-3) (0)) : Itv)),
    (268, Itv.containsInterior (ret <| numsToInterval (f (-2) (0)) (f 13 0) : Itv) (ret <| numsToInterval (f 0 0) (f 5 0) : Itv)),
    (269, Itv.containsInterior (ret <| numsToInterval (f (-2) (0)) (f 13 0) : Itv) (ret <| numsToInterval (f 0 0) (f 5 0) : Itv)),
    (270, !Itv.containsInterior (ret <| numsToInterval (f (-1) (0)) (f 3 0) : Itv) (ret <| numsToInterval (f (-5) (0)) (f (-3) (0)) : Itv)),
    (271, !Itv.containsInterior (ret <| numsToInterval (f (-1) (0)) (f 3 0) : Itv) (ret <| numsToInterval (f (-5) (0)) (f (-3) (0)) : Itv)),
    (273, DItv.rel Itv.containsInterior (ret <| numsToDecorated (f (-2) (0)) (f 13 0) : DItv) (ret <| numsToDecorated (f 0 0) (f 5 0) : DItv)),
    (274, DItv.rel Itv.containsInterior (ret <| numsToDecorated (f (-2) (0)) (f 13 0) : DItv) (ret <| numsToDecorated (f 0 0) (f 5 0) : DItv)),
    (275, !DItv.rel Itv.containsInterior (ret <| numsToDecorated (f (-1) (0)) (f 3 0) : DItv) (ret <| numsToDecorated (f (-5) (0)) (f (-3) (0)) : DItv)),
    (276, !DItv.rel Itv.containsInterior (ret <| numsToDecorated (f (-1) (0)) (f 3 0) : DItv) (ret <| numsToDecorated (f (-5) (0)) (f (-3) (0)) : DItv)),
    (277, DItv.rel Itv.containsInterior (ret <| numsToDecorated (f (-2) (0)) (f 13 0) : DItv) (ret <| numsToDecorated (f 0 0) (f 5 0) : DItv)),
    (278, DItv.rel Itv.containsInterior (ret <| numsToDecorated (f (-2) (0)) (f 13 0) : DItv) (ret <| numsToDecorated (f 0 0) (f 5 0) : DItv)),
    (279, !DItv.rel Itv.containsInterior (ret <| numsToDecorated (f (-1) (0)) (f 3 0) : DItv) (ret <| numsToDecorated (f (-5) (0)) (f (-3) (0)) : DItv)),
    (280, !DItv.rel Itv.containsInterior (ret <| numsToDecorated (f (-1) (0)) (f 3 0) : DItv) (ret <| numsToDecorated (f (-5) (0)) (f (-3) (0)) : DItv)),
    (285, Itv.strictlyLess (ret <| numsToInterval (f 2 0) (f 3 0) : Itv) (ret <| numsToInterval (f 4 0) (f 5 0) : Itv)),
    (286, Itv.strictlyLess (ret <| numsToInterval (f 2 0) (f 3 0) : Itv) (ret <| numsToInterval (f 4 0) (f 5 0) : Itv)),
    (287, !Itv.strictlyLess (ret <| numsToInterval (f (-1) (0)) (f 3 0) : Itv) (ret <| numsToInterval (f (-5) (0)) (f (-3) (0)) : Itv)),
    (288, !Itv.strictlyLess (ret <| numsToInterval (f (-1) (0)) (f 3 0) : Itv) (ret <| numsToInterval (f (-5) (0)) (f (-3) (0)) : Itv)),
    (289, Itv.strictlyLess (ret <| numsToInterval (f 2 0) (f 3 0) : Itv) (ret <| numsToInterval (f 4 0) (f 5 0) : Itv)),
    (290, Itv.strictlyLess (ret <| numsToInterval (f 2 0) (f 3 0) : Itv) (ret <| numsToInterval (f 4 0) (f 5 0) : Itv)),
    (291, !Itv.strictlyLess (ret <| numsToInterval (f (-1) (0)) (f 3 0) : Itv) (ret <| numsToInterval (f (-5) (0)) (f (-3) (0)) : Itv)),
    (292, !Itv.strictlyLess (ret <| numsToInterval (f (-1) (0)) (f 3 0) : Itv) (ret <| numsToInterval (f (-5) (0)) (f (-3) (0)) : Itv)),
    (294, DItv.rel Itv.strictlyLess (ret <| numsToDecorated (f 2 0) (f 3 0) : DItv) (ret <| numsToDecorated (f 4 0) (f 5 0) : DItv)),
    (295, DItv.rel Itv.strictlyLess (ret <| numsToDecorated (f 2 0) (f 3 0) : DItv) (ret <| numsToDecorated (f 4 0) (f 5 0) : DItv)),
    (296, !DItv.rel Itv.strictlyLess (ret <| numsToDecorated (f (-1) (0)) (f 3 0) : DItv) (ret <| numsToDecorated (f (-5) (0)) (f (-3) (0)) : DItv)),
    (297, !DItv.rel Itv.strictlyLess (ret <| numsToDecorated (f (-1) (0)) (f 3 0) : DItv) (ret <| numsToDecorated (f (-5) (0)) (f (-3) (0)) : DItv)),
    (298, DItv.rel Itv.strictlyLess (ret <| numsToDecorated (f 2 0) (f 3 0) : DItv) (ret <| numsToDecorated (f 4 0) (f 5 0) : DItv)),
    (299, DItv.rel Itv.strictlyLess (ret <| numsToDecorated (f 2 0) (f 3 0) : DItv) (ret <| numsToDecorated (f 4 0) (f 5 0) : DItv)),
    (300, !DItv.rel Itv.strictlyLess (ret <| numsToDecorated (f (-1) (0)) (f 3 0) : DItv) (ret <| numsToDecorated (f (-5) (0)) (f (-3) (0)) : DItv)),
    (301, !DItv.rel Itv.strictlyLess (ret <| numsToDecorated (f (-1) (0)) (f 3 0) : DItv) (ret <| numsToDecorated (f (-5) (0)) (f (-3) (0)) : DItv)),
    (306, !Itv.strictlyGreater (ret <| numsToInterval (f 2 0) (f 3 0) : Itv) (ret <| numsToInterval (f 4 0) (f 5 0) : Itv)),
    (307, !Itv.strictlyGreater (ret <| numsToInterval (f 2 0) (f 3 0) : Itv) (ret <| numsToInterval (f 4 0) (f 5 0) : Itv))] : List (ℕ × Bool)).all (·.2) = true := by
  decide +kernel

/-- `test_integration_mpfr_bin_ieee754_flavor_bool.cpp` -/
example : ([
    (308, Itv.strictlyGreater (ret <| numsToInterval (f (-1) (0)) (f 3 0) : Itv) (ret <| numsToInterval (f (-5) (0)) (f (-3) (0)) : Itv)),
    (309, Itv.strictlyGreater (ret <| numsToInterval (f (-1) (0)) (f 3 0) : Itv) (ret <| numsToInterval (f (-5) (0)) (f (-3) (0)) : Itv)),
    (310, !Itv.strictlyGreater (ret <| numsToInterval (f 2 0) (f 3 0) : Itv) (ret <| numsToInterval (f 4 0) (f 5 0) : Itv)),
    (311, !Itv.strictlyGreater (ret <| numsToInterval (f 2 0) (f 3 0) : Itv) (ret <| numsToInterval (f 4 0) (f 5 0) : Itv)),
    (312, Itv.strictlyGreater (ret <| numsToInterval (f (-1) (0)) (f 3 0) : Itv) (ret <| numsToInterval (f (-5) (0)) (f (-3) (0)) : Itv)),
    (313, Itv.strictlyGreater (ret <| numsToInterval (f (-1) (0)) (f 3 0) : Itv) (ret <| numsToInterval (f (-5) (0)) (f (-3) (0)) : Itv)),
    (315, !DItv.rel Itv.strictlyGreater (ret <| numsToDecorated (f 2 0) (f 3 0) : DItv) (ret <| numsToDecorated (f 4 0) (f 5 0) : DItv)),
    (316, !DItv.rel Itv.strictlyGreater (ret <| numsToDecorated (f 2 0) (f 3 0) : DItv) (ret <| numsToDecorated (f 4 0) (f 5 0) : DItv)),
    (317, DItv.rel Itv.strictlyGreater (ret <| numsToDecorated (f (-1) (0)) (f 3 0) : DItv) (ret <| numsToDecorated (f (-5) (0)) (f (-3) (0)) : DItv)),
    (318, DItv.rel Itv.strictlyGreater (ret <| numsToDecorated (f (-1) (0)) (f 3 0) : DItv) (ret <| numsToDecorated (f (-5) (0)) (f (-3) (0)) : DItv)),
    (319, !DItv.rel Itv.strictlyGreater (ret <| numsToDecorated (f 2 0) (f 3 0) : DItv) (ret <| numsToDecorated (f 4 0) (f 5 0) : DItv)),
    (320, !DItv.rel Itv.strictlyGreater (ret <| numsToDecorated (f 2 0) (f 3 0) : DItv) (ret <| numsToDecorated (f 4 0) (f 5 0) : DItv)),
    (321, DItv.rel Itv.strictlyGreater (ret <| numsToDecorated (f (-1) (0)) (f 3 0) : DItv) (ret <| numsToDecorated (f (-5) (0)) (f (-3) (0)) : DItv)),
    (322, DItv.rel Itv.strictlyGreater (ret <| numsToDecorated (f (-1) (0)) (f 3 0) : DItv) (ret <| numsToDecorated (f (-5) (0)) (f (-3) (0)) : DItv)),
    (327, Itv.strictlyPrecedes (ret <| numsToInterval (f 2 0) (f 3 0) : Itv) (ret <| numsToInterval (f 4 0) (f 5 0) : Itv)),
    (328, Itv.strictlyPrecedes (ret <| numsToInterval (f 2 0) (f 3 0) : Itv) (ret <| numsToInterval (f 4 0) (f 5 0) : Itv)),
    (329, !Itv.strictlyPrecedes (ret <| numsToInterval (f (-1) (0)) (f 3 0) : Itv) (ret <| numsToInterval (f (-5) (0)) (f (-3) (0)) : Itv)),
    (330, !Itv.strictlyPrecedes (ret <| numsToInterval (f (-1) (0)) (f 3 0) : Itv) (ret <| numsToInterval (f (-5) (0)) (f (-3) (0)) : Itv)),
    (331, Itv.strictlyPrecedes (ret <| numsToInterval (f 2 0) (f 3 0) : Itv) (ret <| numsToInterval (f 4 0) (f 5 0) : Itv)),
    (332, Itv.strictlyPrecedes (ret <| numsToInterval (f 2 0) (f 3 0) : Itv) (ret <| numsToInterval (f 4 0) (f 5 0) : Itv)),
    (333, !Itv.strictlyPrecedes (ret <| numsToInterval (f (-1) (0)) (f 3 0) : Itv) (ret <| numsToInterval (f (-5) (0)) (f (-3) (0)) : Itv)),
    (334, !Itv.strictlyPrecedes (ret <| numsToInterval (f (-1) (0)) (f 3 0) : Itv) (ret <| numsToInterval (f (-5) (0)) (f (-3) (0)) : Itv)),
    (336, DItv.rel Itv.strictlyPrecedes (ret <| numsToDecorated (f 2 0) (f 3 0) : DItv) (ret <| numsToDecorated (f 4 0) (f 5 0) : DItv)),
    (337, DItv.rel Itv.strictlyPrecedes (ret <| numsToDecorated (f 2 0) (f 3 0) : DItv) (ret <| numsToDecorated (f 4 0) (f 5 0) : DItv)),
    (338, !DItv.rel Itv.strictlyPrecedes (ret <| numsToDecorated (f (-1) (0)) (f 3 0) : DItv) (ret <| numsToDecorated (f (-5) (0)) (f (-3) (0)) : DItv)),
    (339, !DItv.rel Itv.strictlyPrecedes (ret <| numsToDecorated (f (-1) (0)) (f 3 0) : DItv) (ret <| numsToDecorated (f (-5) (0)) (f (-3) (0)) : DItv)),
    (340, DItv.rel Itv.strictlyPrecedes (ret <| numsToDecorated (f 2 0) (f 3 0) : DItv) (ret <| numsToDecorated (f 4 0) (f 5 0) : DItv)),
    (341, DItv.rel Itv.strictlyPrecedes (ret <| numsToDecorated (f 2 0) (f 3 0) : DItv) (ret <| numsToDecorated (f 4 0) (f 5 0) : DItv)),
    (342, !DItv.rel Itv.strictlyPrecedes (ret <| numsToDecorated (f (-1) (0)) (f 3 0) : DItv) (ret <| numsToDecorated (f (-5) (0)) (f (-3) (0)) : DItv)),
    (343, !DItv.rel Itv.strictlyPrecedes (ret <| numsToDecorated (f (-1) (0)) (f 3 0) : DItv) (ret <| numsToDecorated (f (-5) (0)) (f (-3) (0)) : DItv)),
    (348, !Itv.strictlySucceeds (ret <| numsToInterval (f 2 0) (f 3 0) : Itv) (ret <| numsToInterval (f 4 0) (f 5 0) : Itv)),
    (349, !Itv.strictlySucceeds (ret <| numsToInterval (f 2 0) (f 3 0) : Itv) (ret <| numsToInterval (f 4 0) (f 5 0) : Itv)),
    (350, Itv.strictlySucceeds (ret <| numsToInterval (f (-1) (0)) (f 3 0) : Itv) (ret <| numsToInterval (f (-5) (0)) (f (-3) (0)) : Itv)),
    (351, Itv.strictlySucceeds (ret <| numsToInterval (f (-1) (0)) (f 3 0) : Itv) (ret <| numsToInterval (f (-5) (0)) (f (-3) (0)) : Itv)),
    (352, !Itv.strictlySucceeds (ret <| numsToInterval (f 2 0) (f 3 0) : Itv) (ret <| numsToInterval (f 4 0) (f 5 0) : Itv)),
    (353, !Itv.strictlySucceeds (ret <| numsToInterval (f 2 0) (f 3 0) : Itv) (ret <| numsToInterval (f 4 0) (f 5 0) : Itv)),
    (354, Itv.strictlySucceeds (ret <| numsToInterval (f (-1) (0)) (f 3 0) : Itv) (ret <| numsToInterval (f (-5) (0)) (f (-3) (0)) : Itv)),
    (355, Itv.strictlySucceeds (ret <| numsToInterval (f (-1) (0)) (f 3 0) : Itv) (ret <| numsToInterval (f (-5) (0)) (f (-3) (0)) : Itv)),
    (357, !DItv.rel Itv.strictlySucceeds (ret <| numsToDecorated (f 2 0) (f 3 0) : DItv) (ret <| numsToDecorated (f 4 0) (f 5 0) : DItv)),
    (358, !DItv.rel Itv.strictlySucceeds (ret <| numsToDecorated (f 2 0) (f 3 0) : DItv) (ret <| numsToDecorated (f 4 0) (f 5 0) : DItv)),
    (359, DItv.rel Itv.strictlySucceeds (ret <| numsToDecorated (f (-1) (0)) (f 3 0) : DItv) (ret <| numsToDecorated (f (-5) (0)) (f (-3) (0)) : DItv)),
    (360, DItv.rel Itv.strictlySucceeds (ret <| numsToDecorated (f (-1) (0)) (f 3 0) : DItv) (ret <| numsToDecorated (f (-5) (0)) (f (-3) (0)) : DItv)),
    (361, !DItv.rel Itv.strictlySucceeds (ret <| numsToDecorated (f 2 0) (f 3 0) : DItv) (ret <| numsToDecorated (f 4 0) (f 5 0) : DItv)),
    (362, !DItv.rel Itv.strictlySucceeds (ret <| numsToDecorated (f 2 0) (f 3 0) : DItv) (ret <| numsToDecorated (f 4 0) (f 5 0) : DItv)),
    (363, DItv.rel Itv.strictlySucceeds (ret <| numsToDecorated (f (-1) (0)) (f 3 0) : DItv) (ret <| numsToDecorated (f (-5) (0)) (f (-3) (0)) : DItv)),
    (364, DItv.rel Itv.strictlySucceeds (ret <| numsToDecorated (f (-1) (0)) (f 3 0) : DItv) (ret <| numsToDecorated (f (-5) (0)) (f (-3) (0)) : DItv)),
    (369, Itv.disjoint (ret <| numsToInterval (f 2 0) (f 3 0) : Itv) (ret <| numsToInterval (f 4 0) (f 5 0) : Itv)),
    (370, Itv.disjoint (ret <| numsToInterval (f 2 0) (f 3 0) : Itv) (ret <| numsToInterval (f 4 0) (f 5 0) : Itv)),
    (371, !Itv.disjoint (ret <| numsToInterval (f (-1) (0)) (f 3 0) : Itv) (ret <| numsToInterval (f (-5) (0)) (f 0 0) : Itv)),
    (372, !Itv.disjoint (ret <| numsToInterval (f (-1) (0)) (f 3 0) : Itv) (ret <| numsToInterval (f (-5) (0)) (f 0 0) : Itv))] : List (ℕ × Bool)).all (·.2) = true := by
  decide +kernel

/-- `test_integration_mpfr_bin_ieee754_flavor_bool.cpp` -/
example : ([
    (373, Itv.disjoint (ret <| numsToInterval (f 2 0) (f 3 0) : Itv) (ret <| numsToInterval (f 4 0) (f 5 0) : Itv)),
    (374, Itv.disjoint (ret <| numsToInterval (f 2 0) (f 3 0) : Itv) (ret <| numsToInterval (f 4 0) (f 5 0) : Itv)),
    (375, !Itv.disjoint (ret <| numsToInterval (f (-1) (0)) (f 3 0) : Itv) (ret <| numsToInterval (f (-5) (0)) (f 0 0) : Itv)),
    (376, !Itv.disjoint (ret <| numsToInterval (f (-1) (0)) (f 3 0) : Itv) (ret <| numsToInterval (f (-5) (0)) (f 0 0) : Itv)),
    (378, DItv.rel Itv.disjoint (ret <| numsToDecorated (f 2 0) (f 3 0) : DItv) (ret <| numsToDecorated (f 4 0) (f 5 0) : DItv)),
    (379, DItv.rel Itv.disjoint (ret <| numsToDecorated (f 2 0) (f 3 0) : DItv) (ret <| numsToDecorated (f 4 0) (f 5 0) : DItv)),
    (380, !DItv.rel Itv.disjoint (ret <| numsToDecorated (f (-1) (0)) (f 3 0) : DItv) (ret <| numsToDecorated (f (-5) (0)) (f 0 0) : DItv)),
    (381, !DItv.rel Itv.disjoint (ret <| numsToDecorated (f (-1) (0)) (f 3 0) : DItv) (ret <| numsToDecorated (f (-5) (0)) (f 0 0) : DItv)),
    (382, DItv.rel Itv.disjoint (ret <| numsToDecorated (f 2 0) (f 3 0) : DItv) (ret <| numsToDecorated (f 4 0) (f 5 0) : DItv)),
    (383, DItv.rel Itv.disjoint (ret <| numsToDecorated (f 2 0) (f 3 0) : DItv) (ret <| numsToDecorated (f 4 0) (f 5 0) : DItv)),
    (384, !DItv.rel Itv.disjoint (ret <| numsToDecorated (f (-1) (0)) (f 3 0) : DItv) (ret <| numsToDecorated (f (-5) (0)) (f 0 0) : DItv)),
    (385, !DItv.rel Itv.disjoint (ret <| numsToDecorated (f (-1) (0)) (f 3 0) : DItv) (ret <| numsToDecorated (f (-5) (0)) (f 0 0) : DItv))] : List (ℕ × Bool)).all (·.2) = true := by
  decide +kernel

/-- `test_integration_mpfr_bin_ieee754_flavor_cancel.cpp` -/
example : ([
    (43, Itv.eqOp (Itv.cancelPlus binary64 (ret <| numsToInterval (f (-2871044762448691) (-49)) (f (-8106479329266893) (-53)) : Itv) (ret <| numsToInterval (f 1 0) (f 5 0) : Itv) : Itv) (ret <| numsToInterval (f (-56294995342131) (-49)) (f (900719925474099) (-53)) : Itv)),
    (44, Itv.eqOp (Itv.cancelPlus binary64 (ret <| numsToInterval (f (-1) (0)) (f (9007199254740991) (-105)) : Itv) (ret <| numsToInterval (f (-1) (0)) (f (4503599627370495) (-104)) : Itv) : Itv) (ret <| numsToInterval (f (-9007199254740991) (-53)) (f (-4503599627370495) (-52)) : Itv)),
    (45, Itv.eqOp (Itv.cancelMinusMixed .float .double .float (ret <| numsToInterval (f (-5) (0)) (f (-8106479329266893) (-53)) : Itv) (if !(ret <| numsToInterval (f 1 0) (f 5 0) : Itv).isValid then Itv.empty else Fmt.convertHull binary32 (Fmt.negI (ret <| numsToInterval (f 1 0) (f 5 0) : Itv)) : Itv) : Itv) (ret <| numsToInterval (f 0 0) (f (13421773) (-27)) : Itv)),
    (47, DItv.eqOp (DItv.cancelMinus binary64 (ret <| numsDecToDecorated (f (-2871044762448691) (-49)) (f 0 0) (raw .com) : DItv) (Fmt.negD (ret <| numsDecToDecorated (f 0 0) (f 5 0) (raw .com) : DItv)) : DItv) (ret <| numsDecToDecorated (f (-56294995342131) (-49)) (f 0 0) (raw .trv) : DItv)),
    (48, decide (((ret <| decorationPart (DItv.cancelMinus binary64 (ret <| numsDecToDecorated (f (-2871044762448691) (-49)) (f 0 0) (raw .com) : DItv) (Fmt.negD (ret <| numsDecToDecorated (f 0 0) (f 5 0) (raw .com) : DItv)) : DItv)) : Dec) = .trv)),
    (49, DItv.eqOp (DItv.cancelMinus binary64 (ret <| numsDecToDecorated (f (8106479329266893) (-53)) (f (2871044762448691) (-49)) (raw .dac) : DItv) (Fmt.negD (ret <| numsDecToDecorated (f (-5) (0)) (f (-1) (0)) (raw .com) : DItv)) : DItv) (ret <| numsDecToDecorated (f (-900719925474099) (-53)) (f (56294995342131) (-49)) (raw .trv) : DItv)),
    (50, decide (((ret <| decorationPart (DItv.cancelMinus binary64 (ret <| numsDecToDecorated (f (8106479329266893) (-53)) (f (2871044762448691) (-49)) (raw .dac) : DItv) (Fmt.negD (ret <| numsDecToDecorated (f (-5) (0)) (f (-1) (0)) (raw .com) : DItv)) : DItv)) : Dec) = .trv)),
    (51, DItv.eqOp (DItv.cancelMinusMixed .float .double .float (ret <| numsToDecorated (f (-5) (0)) (f (-8106479329266893) (-53)) : DItv) (if !(ret <| numsToDecorated (f 1 0) (f 5 0) : DItv).isValid || (ret <| numsToDecorated (f 1 0) (f 5 0) : DItv).isNai then DItv.nai else Fmt.convertHullD binary32 (Fmt.negD (ret <| numsToDecorated (f 1 0) (f 5 0) : DItv)) : DItv) : DItv) (ret <| numsDecToDecorated (f 0 0) (f (13421773) (-27)) (raw .trv) : DItv)),
    (52, decide (((ret <| decorationPart (DItv.cancelMinusMixed .float .double .float (ret <| numsToDecorated (f (-5) (0)) (f (-8106479329266893) (-53)) : DItv) (if !(ret <| numsToDecorated (f 1 0) (f 5 0) : DItv).isValid || (ret <| numsToDecorated (f 1 0) (f 5 0) : DItv).isNai then DItv.nai else Fmt.convertHullD binary32 (Fmt.negD (ret <| numsToDecorated (f 1 0) (f 5 0) : DItv)) : DItv) : DItv)) : Dec) = .trv)),
    (57, Itv.eqOp (Itv.cancelMinus binary64 (ret <| numsToInterval (f (-2871044762448691) (-49)) (f (-8106479329266893) (-53)) : Itv) (ret <| numsToInterval (f (-5) (0)) (f (-1) (0)) : Itv) : Itv) (ret <| numsToInterval (f (-56294995342131) (-49)) (f (900719925474099) (-53)) : Itv)),
    (58, Itv.eqOp (Itv.cancelMinus binary64 (ret <| numsToInterval (f (-1) (0)) (f (9007199254740991) (-105)) : Itv) (ret <| numsToInterval (f (-4503599627370495) (-104)) (f 1 0) : Itv) : Itv) (ret <| numsToInterval (f (-9007199254740991) (-53)) (f (-4503599627370495) (-52)) : Itv)),
    (59, Itv.eqOp (Itv.cancelMinusMixed .float .double .double (ret <| numsToInterval (f (-5) (0)) (f (-8106479329266893) (-53)) : Itv) (ret <| numsToInterval (f (-5) (0)) (f (-1) (0)) : Itv) : Itv) (ret <| numsToInterval (f 0 0) (f (13421773) (-27)) : Itv)),
    (61, DItv.eqOp (DItv.cancelMinus binary64 (ret <| numsDecToDecorated (f (-2871044762448691) (-49)) (f 0 0) (raw .com) : DItv) (ret <| numsDecToDecorated (f (-5) (0)) (f 0 0) (raw .com) : DItv) : DItv) (ret <| numsDecToDecorated (f (-56294995342131) (-49)) (f 0 0) (raw .trv) : DItv)),
    (62, decide (((ret <| decorationPart (DItv.cancelMinus binary64 (ret <| numsDecToDecorated (f (-2871044762448691) (-49)) (f 0 0) (raw .com) : DItv) (ret <| numsDecToDecorated (f (-5) (0)) (f 0 0) (raw .com) : DItv) : DItv)) : Dec) = .trv)),
    (63, DItv.eqOp (DItv.cancelMinus binary64 (ret <| numsDecToDecorated (f (8106479329266893) (-53)) (f (2871044762448691) (-49)) (raw .dac) : DItv) (ret <| numsDecToDecorated (f 1 0) (f 5 0) (raw .com) : DItv) : DItv) (ret <| numsDecToDecorated (f (-900719925474099) (-53)) (f (56294995342131) (-49)) (raw .trv) : DItv)),
    (64, decide (((ret <| decorationPart (DItv.cancelMinus binary64 (ret <| numsDecToDecorated (f (8106479329266893) (-53)) (f (2871044762448691) (-49)) (raw .dac) : DItv) (ret <| numsDecToDecorated (f 1 0) (f 5 0) (raw .com) : DItv) : DItv)) : Dec) = .trv)),
    (65, DItv.eqOp (DItv.cancelMinusMixed .float .double .double (ret <| numsToDecorated (f (-5) (0)) (f (-8106479329266893) (-53)) : DItv) (ret <| numsToDecorated (f (-5) (0)) (f (-1) (0)) : DItv) : DItv) (ret <| numsDecToDecorated (f 0 0) (f (13421773) (-27)) (raw .trv) : DItv)),
    (66, decide (((ret <| decorationPart (DItv.cancelMinusMixed .float .double .double (ret <| numsToDecorated (f (-5) (0)) (f (-8106479329266893) (-53)) : DItv) (ret <| numsToDecorated (f (-5) (0)) (f (-1) (0)) : DItv) : DItv)) : Dec) = .trv))] : List (ℕ × Bool)).all (·.2) = true := by
  decide +kernel

/-- `test_integration_mpfr_bin_ieee754_flavor_class.cpp` -/
example : ([
    (49, Itv.isEmpty (Itv.default : Itv)),
    (58, DItv.pred Itv.isEmpty (DItv.default : DItv)),
    (68, FP.feq (Itv.inf (ret <| numsToInterval (f (-1) (0)) (f 2 0) : Itv)) (f (-1) (0))),
    (69, FP.feq (Itv.sup (ret <| numsToInterval (f (-1) (0)) (f 2 0) : Itv)) (f 2 0)),
    (73, Itv.isEmpty (ret <| numsToInterval (f (-1) (0)) (f (-2) (0)) : Itv)),
    (82, FP.feq (DItv.num (Itv.inf) (ret <| numsToDecorated (f (-1) (0)) (f 2 0) : DItv)) (f (-1) (0))),
    (83, FP.feq (DItv.num (Itv.sup) (ret <| numsToDecorated (f (-1) (0)) (f 2 0) : DItv)) (f 2 0)),
    (84, decide (((ret <| decorationPart (ret <| numsToDecorated (f (-1) (0)) (f 2 0) : DItv)) : Dec) = .com)),
    (88, DItv.isNai (ret <| numsToDecorated (f (-1) (0)) (f (-2) (0)) : DItv)),
    (98, FP.feq (Itv.inf (ret <| Fmt.numsToIntervalMixed binary32 (f (3602879701896397) (-55)) (f (4404019) (-21)) : Itv)) (f (3355443) (-25))),
    (99, FP.feq (Itv.sup (ret <| Fmt.numsToIntervalMixed binary32 (f (3602879701896397) (-55)) (f (4404019) (-21)) : Itv)) (f (4404019) (-21))),
    (103, Itv.isEmpty (ret <| Fmt.numsToIntervalMixed binary32 (f (-1) (0)) (f (-2) (0)) : Itv)),
    (112, FP.feq (DItv.num (Itv.inf) (ret <| Fmt.numsToDecoratedMixed binary32 (f (3602879701896397) (-55)) (f (4404019) (-21)) : DItv)) (f (3355443) (-25))),
    (113, FP.feq (DItv.num (Itv.sup) (ret <| Fmt.numsToDecoratedMixed binary32 (f (3602879701896397) (-55)) (f (4404019) (-21)) : DItv)) (f (4404019) (-21))),
    (114, decide (((ret <| decorationPart (ret <| Fmt.numsToDecoratedMixed binary32 (f (3602879701896397) (-55)) (f (4404019) (-21)) : DItv)) : Dec) = .com)),
    (118, DItv.isNai (ret <| Fmt.numsToDecoratedMixed binary32 (f (-1) (0)) (f (-2) (0)) : DItv)),
    (127, FP.feq (DItv.num (Itv.inf) (ret <| numsDecToDecorated (f (-1) (0)) (f 2 0) (raw .defd) : DItv)) (f (-1) (0))),
    (128, FP.feq (DItv.num (Itv.sup) (ret <| numsDecToDecorated (f (-1) (0)) (f 2 0) (raw .defd) : DItv)) (f 2 0)),
    (129, decide (((ret <| decorationPart (ret <| numsDecToDecorated (f (-1) (0)) (f 2 0) (raw .defd) : DItv)) : Dec) = .defd)),
    (133, DItv.isNai (ret <| numsDecToDecorated .ninf (f 2 0) (raw .com) : DItv)),
    (138, DItv.isNai (ret <| numsDecToDecorated .ninf (f 2 0) 13 : DItv)),
    (147, FP.feq (DItv.num (Itv.inf) (ret <| Fmt.numsDecToDecoratedMixed binary32 (f (3602879701896397) (-55)) (f (4404019) (-21)) (raw .defd) : DItv)) (f (3355443) (-25))),
    (148, FP.feq (DItv.num (Itv.sup) (ret <| Fmt.numsDecToDecoratedMixed binary32 (f (3602879701896397) (-55)) (f (4404019) (-21)) (raw .defd) : DItv)) (f (4404019) (-21))),
    (149, decide (((ret <| decorationPart (ret <| Fmt.numsDecToDecoratedMixed binary32 (f (3602879701896397) (-55)) (f (4404019) (-21)) (raw .defd) : DItv)) : Dec) = .defd)),
    (153, DItv.isNai (ret <| Fmt.numsDecToDecoratedMixed binary32 .ninf (f 2 0) (raw .com) : DItv)),
    (158, DItv.isNai (ret <| Fmt.numsDecToDecoratedMixed binary32 .ninf (f 2 0) 13 : DItv)),
    (167, FP.feq (Itv.inf (retS <| Fmt.textToInterval binary64 ("[0.1, 2.1]_def" : String).toList : Itv)) (f (7205759403792793) (-56))),
    (168, FP.feq (Itv.sup (retS <| Fmt.textToInterval binary64 ("[0.1, 2.1]_def" : String).toList : Itv)) (f (4728779608739021) (-51))),
    (170, FP.feq (Itv.inf (retS <| Fmt.textToInterval binary64 ("[0.1]" : String).toList : Itv)) (f (7205759403792793) (-56))),
    (171, FP.feq (Itv.sup (retS <| Fmt.textToInterval binary64 ("[0.1]" : String).toList : Itv)) (f (3602879701896397) (-55))),
    (173, FP.feq (Itv.inf (retS <| Fmt.textToInterval binary64 ("2.500?5" : String).toList : Itv)) (f (5618240535144693) (-51))),
    (174, FP.feq (Itv.sup (retS <| Fmt.textToInterval binary64 ("2.500?5" : String).toList : Itv)) (f (5640758533281547) (-51))),
    (178, Itv.isEmpty (retS <| Fmt.textToInterval binary32 ("[3.0,-1.0]" : String).toList : Itv)),
    (187, FP.feq (DItv.num (Itv.inf) (retS <| Fmt.textToDecorated binary64 ("[0.1, 2.1]_def" : String).toList : DItv)) (f (7205759403792793) (-56))),
    (188, FP.feq (DItv.num (Itv.sup) (retS <| Fmt.textToDecorated binary64 ("[0.1, 2.1]_def" : String).toList : DItv)) (f (4728779608739021) (-51))),
    (189, decide (((ret <| decorationPart (retS <| Fmt.textToDecorated binary32 ("[0.1, 2.1]_def" : String).toList : DItv)) : Dec) = .defd)),
    (191, FP.feq (DItv.num (Itv.inf) (retS <| Fmt.textToDecorated binary64 ("[0.1]" : String).toList : DItv)) (f (7205759403792793) (-56))),
    (192, FP.feq (DItv.num (Itv.sup) (retS <| Fmt.textToDecorated binary64 ("[0.1]" : String).toList : DItv)) (f (3602879701896397) (-55))),
    (193, decide (((ret <| decorationPart (retS <| Fmt.textToDecorated binary32 ("[0.1]" : String).toList : DItv)) : Dec) = .com)),
    (195, FP.feq (DItv.num (Itv.inf) (retS <| Fmt.textToDecorated binary64 ("2.500?5" : String).toList : DItv)) (f (5618240535144693) (-51))),
    (196, FP.feq (DItv.num (Itv.sup) (retS <| Fmt.textToDecorated binary64 ("2.500?5" : String).toList : DItv)) (f (5640758533281547) (-51))),
    (197, decide (((ret <| decorationPart (retS <| Fmt.textToDecorated binary32 ("2.500?5" : String).toList : DItv)) : Dec) = .com)),
    (201, DItv.isNai (retS <| Fmt.textToDecorated binary32 ("[3.0,-1.0]" : String).toList : DItv)),
    (213, FP.feq (Itv.inf (ret <| copyM (ret <| numsToInterval (f (-1) (0)) (f 2 0) : Itv) : Itv)) (f (-1) (0))),
    (214, FP.feq (Itv.sup (ret <| copyM (ret <| numsToInterval (f (-1) (0)) (f 2 0) : Itv) : Itv)) (f 2 0)),
    (225, FP.feq (DItv.num (Itv.inf) (ret <| copyDM (ret <| numsToDecorated (f (-1) (0)) (f 2 0) : DItv) : DItv)) (f (-1) (0))),
    (226, FP.feq (DItv.num (Itv.sup) (ret <| copyDM (ret <| numsToDecorated (f (-1) (0)) (f 2 0) : DItv) : DItv)) (f 2 0)),
    (227, decide (((ret <| decorationPart (ret <| copyDM (ret <| numsToDecorated (f (-1) (0)) (f 2 0) : DItv) : DItv)) : Dec) = .com)),
    (238, FP.feq (Itv.inf (ret <| Fmt.convertType binary32 (ret <| numsToInterval (f (3602879701896397) (-55)) (f (4728779608739021) (-51)) : Itv) : Itv)) (f (3355443) (-25))),
    (239, FP.feq (Itv.sup (ret <| Fmt.convertType binary32 (ret <| numsToInterval (f (3602879701896397) (-55)) (f (4728779608739021) (-51)) : Itv) : Itv)) (f (8808039) (-22)))] : List (ℕ × Bool)).all (·.2) = true := by
  decide +kernel

/-- `test_integration_mpfr_bin_ieee754_flavor_class.cpp` -/
example : ([
    (250, FP.feq (DItv.num (Itv.inf) (ret <| Fmt.convertTypeD binary32 (ret <| numsToDecorated (f (3602879701896397) (-55)) (f (4728779608739021) (-51)) : DItv) : DItv)) (f (3355443) (-25))),
    (251, FP.feq (DItv.num (Itv.sup) (ret <| Fmt.convertTypeD binary32 (ret <| numsToDecorated (f (3602879701896397) (-55)) (f (4728779608739021) (-51)) : DItv) : DItv)) (f (8808039) (-22))),
    (252, decide (((ret <| decorationPart (ret <| Fmt.convertTypeD binary32 (ret <| numsToDecorated (f (3602879701896397) (-55)) (f (4728779608739021) (-51)) : DItv) : DItv)) : Dec) = .com)),
    (263, Itv.eqOp (ret <| intervalPart (ret <| numsToDecorated (f (3602879701896397) (-55)) (f (4728779608739021) (-51)) : DItv) : Itv) (ret <| numsToInterval (f (3602879701896397) (-55)) (f (4728779608739021) (-51)) : Itv)),
    (266, Itv.isEmpty (ret <| intervalPart (DItv.nai : DItv) : Itv)),
    (275, Itv.eqOp (ret <| Fmt.intervalPartMixed binary32 (ret <| numsToDecorated (f (3602879701896397) (-55)) (f (4728779608739021) (-51)) : DItv) : Itv) (ret <| numsToInterval (f (3355443) (-25)) (f (8808039) (-22)) : Itv)),
    (278, Itv.isEmpty (ret <| Fmt.intervalPartMixed binary32 (DItv.nai : DItv) : Itv)),
    (287, DItv.eqOp (ret <| newDecM (ret <| numsToInterval (f (3602879701896397) (-55)) (f (4728779608739021) (-51)) : Itv) : DItv) (ret <| numsToDecorated (f (3602879701896397) (-55)) (f (4728779608739021) (-51)) : DItv)),
    (297, DItv.eqOp (ret <| Fmt.newDecMixed binary32 (ret <| numsToInterval (f (3602879701896397) (-55)) (f (4728779608739021) (-51)) : Itv) : DItv) (ret <| numsToDecorated (f (3355443) (-25)) (f (8808039) (-22)) : DItv)),
    (306, DItv.eqOp (ret <| setDec (ret <| numsToInterval (f (3602879701896397) (-55)) (f (4728779608739021) (-51)) : Itv) (raw .defd) : DItv) (ret <| numsDecToDecorated (f (3602879701896397) (-55)) (f (4728779608739021) (-51)) (raw .defd) : DItv)),
    (309, DItv.isNai (ret <| setDec (ret <| numsToInterval (f (3602879701896397) (-55)) (f (4728779608739021) (-51)) : Itv) 13 : DItv)),
    (319, DItv.eqOp (ret <| Fmt.setDecMixed binary32 (ret <| numsToInterval (f (3602879701896397) (-55)) (f (4728779608739021) (-51)) : Itv) (raw .defd) : DItv) (ret <| numsDecToDecorated (f (3355443) (-25)) (f (8808039) (-22)) (raw .defd) : DItv)),
    (322, DItv.isNai (ret <| Fmt.setDecMixed binary32 (ret <| numsToInterval (f (3602879701896397) (-55)) (f (4728779608739021) (-51)) : Itv) 13 : DItv)),
    (331, Itv.isEmpty (Itv.empty : Itv)),
    (340, DItv.pred Itv.isEmpty (DItv.empty : DItv)),
    (350, Itv.isEntire (Itv.entire : Itv)),
    (359, DItv.pred Itv.isEntire (DItv.entire : DItv)),
    (368, DItv.isNai (DItv.nai : DItv))] : List (ℕ × Bool)).all (·.2) = true := by
  decide +kernel

/-- `test_integration_mpfr_bin_ieee754_flavor_elem.cpp` -/
example : ([
    (56, Itv.eqOp (Fmt.posI (ret <| numsToInterval (f (1) (-1022)) (f 2 0) : Itv) : Itv) (ret <| numsToInterval (f (1) (-1022)) (f 2 0) : Itv)),
    (57, Itv.eqOp (Fmt.posI (ret <| numsToInterval (f (1) (-1022)) (f 2 0) : Itv) : Itv) (ret <| numsToInterval (f (1) (-1022)) (f 2 0) : Itv)),
    (58, Itv.eqOp (Fmt.posI (ret <| numsToInterval (f (1) (-1022)) (f 2 0) : Itv) : Itv) (ret <| numsToInterval (f (1) (-1022)) (f 2 0) : Itv)),
    (59, Itv.eqOp (if !(ret <| numsToInterval (f (-6710887) (-18)) (f 9007199254740991 971) : Itv).isValid then Itv.empty else Fmt.convertHull binary32 (ret <| numsToInterval (f (-6710887) (-18)) (f 9007199254740991 971) : Itv) : Itv) (ret <| Fmt.numsToIntervalMixed binary32 (f (-6710887) (-18)) .pinf : Itv)),
    (62, DItv.eqOp (Fmt.posD (ret <| numsToDecorated (f (1) (-1022)) (f 2 0) : DItv) : DItv) (ret <| numsToDecorated (f (1) (-1022)) (f 2 0) : DItv)),
    (63, decide (((ret <| decorationPart (Fmt.posD (ret <| numsToDecorated (f (1) (-1022)) (f 2 0) : DItv) : DItv)) : Dec) = .com)),
    (64, DItv.eqOp (Fmt.posD (ret <| numsDecToDecorated (f (1) (-1022)) (f 2 0) (raw .defd) : DItv) : DItv) (ret <| numsDecToDecorated (f (1) (-1022)) (f 2 0) (raw .defd) : DItv)),
    (65, decide (((ret <| decorationPart (Fmt.posD (ret <| numsDecToDecorated (f (1) (-1022)) (f 2 0) (raw .defd) : DItv) : DItv)) : Dec) = .defd)),
    (66, DItv.eqOp (Fmt.posD (ret <| numsToDecorated (f (1) (-1022)) (f 2 0) : DItv) : DItv) (ret <| numsToDecorated (f (1) (-1022)) (f 2 0) : DItv)),
    (67, decide (((ret <| decorationPart (Fmt.posD (ret <| numsToDecorated (f (1) (-1022)) (f 2 0) : DItv) : DItv)) : Dec) = .com)),
    (68, decide (((ret <| decorationPart (if !(ret <| numsDecToDecorated (f (-6710887) (-18)) (f 9007199254740991 971) (raw .com) : DItv).isValid || (ret <| numsDecToDecorated (f (-6710887) (-18)) (f 9007199254740991 971) (raw .com) : DItv).isNai then DItv.nai else Fmt.convertHullD binary32 (ret <| numsDecToDecorated (f (-6710887) (-18)) (f 9007199254740991 971) (raw .com) : DItv) : DItv)) : Dec) = .dac)),
    (74, Itv.eqOp (Fmt.negI (ret <| numsToInterval (f (1) (-1022)) (f 2 0) : Itv) : Itv) (ret <| numsToInterval (f (-2) (0)) (f (-1) (-1022)) : Itv)),
    (75, Itv.eqOp (Fmt.negI (ret <| numsToInterval (f (1) (-1022)) (f 2 0) : Itv) : Itv) (ret <| numsToInterval (f (-2) (0)) (f (-1) (-1022)) : Itv)),
    (76, Itv.eqOp (Fmt.negI (ret <| numsToInterval (f (1) (-1022)) (f 2 0) : Itv) : Itv) (ret <| numsToInterval (f (-2) (0)) (f (-1) (-1022)) : Itv)),
    (77, Itv.eqOp (if !(ret <| numsToInterval (f (-6710887) (-18)) (f 9007199254740991 971) : Itv).isValid then Itv.empty else Fmt.convertHull binary32 (Fmt.negI (ret <| numsToInterval (f (-6710887) (-18)) (f 9007199254740991 971) : Itv)) : Itv) (ret <| Fmt.numsToIntervalMixed binary32 .ninf (f (6710887) (-18)) : Itv)),
    (80, DItv.eqOp (Fmt.negD (ret <| numsToDecorated (f (1) (-1022)) (f 2 0) : DItv) : DItv) (ret <| numsToDecorated (f (-2) (0)) (f (-1) (-1022)) : DItv)),
    (81, decide (((ret <| decorationPart (Fmt.negD (ret <| numsToDecorated (f (1) (-1022)) (f 2 0) : DItv) : DItv)) : Dec) = .com)),
    (82, DItv.eqOp (Fmt.negD (ret <| numsDecToDecorated (f (1) (-1022)) (f 2 0) (raw .defd) : DItv) : DItv) (ret <| numsDecToDecorated (f (-2) (0)) (f (-1) (-1022)) (raw .defd) : DItv)),
    (83, decide (((ret <| decorationPart (Fmt.negD (ret <| numsDecToDecorated (f (1) (-1022)) (f 2 0) (raw .defd) : DItv) : DItv)) : Dec) = .defd)),
    (84, DItv.eqOp (Fmt.negD (ret <| numsToDecorated (f (1) (-1022)) (f 2 0) : DItv) : DItv) (ret <| numsToDecorated (f (-2) (0)) (f (-1) (-1022)) : DItv)),
    (85, decide (((ret <| decorationPart (Fmt.negD (ret <| numsToDecorated (f (1) (-1022)) (f 2 0) : DItv) : DItv)) : Dec) = .com)),
    (86, DItv.eqOp (if !(ret <| numsDecToDecorated (f (-6710887) (-18)) (f 9007199254740991 971) (raw .com) : DItv).isValid || (ret <| numsDecToDecorated (f (-6710887) (-18)) (f 9007199254740991 971) (raw .com) : DItv).isNai then DItv.nai else Fmt.convertHullD binary32 (Fmt.negD (ret <| numsDecToDecorated (f (-6710887) (-18)) (f 9007199254740991 971) (raw .com) : DItv)) : DItv) (ret <| Fmt.numsDecToDecoratedMixed binary32 .ninf (f (6710887) (-18)) (raw .dac) : DItv)),
    (87, decide (((ret <| decorationPart (if !(ret <| numsDecToDecorated (f (-6710887) (-18)) (f 9007199254740991 971) (raw .com) : DItv).isValid || (ret <| numsDecToDecorated (f (-6710887) (-18)) (f 9007199254740991 971) (raw .com) : DItv).isNai then DItv.nai else Fmt.convertHullD binary32 (Fmt.negD (ret <| numsDecToDecorated (f (-6710887) (-18)) (f 9007199254740991 971) (raw .com) : DItv)) : DItv)) : Dec) = .dac)),
    (93, Itv.eqOp (Fmt.addI binary64 (ret <| numsToInterval (f 1 0) (f 2 0) : Itv) (ret <| numsToInterval (f 3 0) (f 4 0) : Itv) : Itv) (ret <| numsToInterval (f 4 0) (f 6 0) : Itv)),
    (94, Itv.eqOp (Fmt.addI binary64 (ret <| numsToInterval (f (-1) (0)) (f 2 0) : Itv) (ret <| numsToInterval (f (-3) (0)) (f 4 0) : Itv) : Itv) (ret <| numsToInterval (f (-4) (0)) (f 6 0) : Itv)),
    (95, Itv.eqOp (Fmt.addI binary64 (ret <| numsToInterval (f 10 0) (f 12 0) : Itv) (ret <| numsToInterval (f (-3) (0)) (f (-1) (0)) : Itv) : Itv) (ret <| numsToInterval (f 7 0) (f 11 0) : Itv)),
    (96, Itv.eqOp (if !(ret <| numsToInterval (f 10 0) (f 12 0) : Itv).isValid || !(ret <| numsToInterval (f (-3) (0)) (f (-1) (0)) : Itv).isValid then Itv.empty else Fmt.convertHull binary32 (Fmt.addI binary64 (Fmt.convertHull binary64 (ret <| numsToInterval (f 10 0) (f 12 0) : Itv)) (Fmt.convertHull binary64 (ret <| numsToInterval (f (-3) (0)) (f (-1) (0)) : Itv))) : Itv) (ret <| numsToInterval (f 7 0) (f 11 0) : Itv)),
    (98, DItv.eqOp (Fmt.addD binary64 (ret <| numsToDecorated (f 1 0) (f 2 0) : DItv) (ret <| numsToDecorated (f 3 0) (f 4 0) : DItv) : DItv) (ret <| numsDecToDecorated (f 4 0) (f 6 0) (raw .com) : DItv)),
    (99, decide (((ret <| decorationPart (Fmt.addD binary64 (ret <| numsToDecorated (f 1 0) (f 2 0) : DItv) (ret <| numsToDecorated (f 3 0) (f 4 0) : DItv) : DItv)) : Dec) = .com)),
    (100, DItv.eqOp (Fmt.addD binary64 (ret <| numsToDecorated (f (-1) (0)) (f 2 0) : DItv) (ret <| numsToDecorated (f (-9007199254740991) (971)) (f 4 0) : DItv) : DItv) (ret <| numsDecToDecorated .ninf (f 6 0) (raw .dac) : DItv)),
    (101, decide (((ret <| decorationPart (Fmt.addD binary64 (ret <| numsToDecorated (f (-1) (0)) (f 2 0) : DItv) (ret <| numsToDecorated (f (-9007199254740991) (971)) (f 4 0) : DItv) : DItv)) : Dec) = .dac)),
    (102, DItv.eqOp (Fmt.addD binary64 (ret <| numsDecToDecorated (f 10 0) (f 12 0) (raw .defd) : DItv) (ret <| numsDecToDecorated (f (-3) (0)) (f (-1) (0)) (raw .dac) : DItv) : DItv) (ret <| numsDecToDecorated (f 7 0) (f 11 0) (raw .defd) : DItv)),
    (103, decide (((ret <| decorationPart (Fmt.addD binary64 (ret <| numsDecToDecorated (f 10 0) (f 12 0) (raw .defd) : DItv) (ret <| numsDecToDecorated (f (-3) (0)) (f (-1) (0)) (raw .dac) : DItv) : DItv)) : Dec) = .defd)),
    (104, DItv.eqOp (if !(ret <| numsToDecorated (f 10 0) (f 12 0) : DItv).isValid || (ret <| numsToDecorated (f 10 0) (f 12 0) : DItv).isNai || !(ret <| numsToDecorated (f (-3) (0)) (f (-1) (0)) : DItv).isValid || (ret <| numsToDecorated (f (-3) (0)) (f (-1) (0)) : DItv).isNai then DItv.nai else Fmt.convertHullD binary32 (Fmt.addD binary64 (Fmt.convertHullD binary64 (ret <| numsToDecorated (f 10 0) (f 12 0) : DItv)) (Fmt.convertHullD binary64 (ret <| numsToDecorated (f (-3) (0)) (f (-1) (0)) : DItv))) : DItv) (ret <| numsDecToDecorated (f 7 0) (f 11 0) (raw .com) : DItv)),
    (105, decide (((ret <| decorationPart (if !(ret <| numsToDecorated (f 10 0) (f 12 0) : DItv).isValid || (ret <| numsToDecorated (f 10 0) (f 12 0) : DItv).isNai || !(ret <| numsToDecorated (f (-3) (0)) (f (-1) (0)) : DItv).isValid || (ret <| numsToDecorated (f (-3) (0)) (f (-1) (0)) : DItv).isNai then DItv.nai else Fmt.convertHullD binary32 (Fmt.addD binary64 (Fmt.convertHullD binary64 (ret <| numsToDecorated (f 10 0) (f 12 0) : DItv)) (Fmt.convertHullD binary64 (ret <| numsToDecorated (f (-3) (0)) (f (-1) (0)) : DItv))) : DItv)) : Dec) = .com)),
    (110, Itv.eqOp (Fmt.subI binary64 (ret <| numsToInterval (f 1 0) (f 2 0) : Itv) (ret <| numsToInterval (f 3 0) (f 4 0) : Itv) : Itv) (ret <| numsToInterval (f (-3) (0)) (f (-1) (0)) : Itv)),
    (111, Itv.eqOp (Fmt.subI binary64 (ret <| numsToInterval (f (-1) (0)) (f 2 0) : Itv) (ret <| numsToInterval (f (-3) (0)) (f 4 0) : Itv) : Itv) (ret <| numsToInterval (f (-5) (0)) (f 5 0) : Itv)),
    (112, Itv.eqOp (Fmt.subI binary64 (ret <| numsToInterval (f 10 0) (f 12 0) : Itv) (ret <| numsToInterval (f (-3) (0)) (f (-1) (0)) : Itv) : Itv) (ret <| numsToInterval (f 11 0) (f 15 0) : Itv)),
    (113, Itv.eqOp (if !(ret <| numsToInterval (f 10 0) (f 12 0) : Itv).isValid || !(ret <| numsToInterval (f (-3) (0)) (f (-1) (0)) : Itv).isValid then Itv.empty else Fmt.convertHull binary32 (Fmt.subI binary64 (Fmt.convertHull binary64 (ret <| numsToInterval (f 10 0) (f 12 0) : Itv)) (Fmt.convertHull binary64 (ret <| numsToInterval (f (-3) (0)) (f (-1) (0)) : Itv))) : Itv) (ret <| numsToInterval (f 11 0) (f 15 0) : Itv)),
    (115, DItv.eqOp (Fmt.subD binary64 (ret <| numsToDecorated (f 1 0) (f 2 0) : DItv) (ret <| numsToDecorated (f 3 0) (f 4 0) : DItv) : DItv) (ret <| numsDecToDecorated (f (-3) (0)) (f (-1) (0)) (raw .com) : DItv)),
    (116, decide (((ret <| decorationPart (Fmt.subD binary64 (ret <| numsToDecorated (f 1 0) (f 2 0) : DItv) (ret <| numsToDecorated (f 3 0) (f 4 0) : DItv) : DItv)) : Dec) = .com)),
    (117, DItv.eqOp (Fmt.subD binary64 (ret <| numsToDecorated (f (-1) (0)) (f 2 0) : DItv) (ret <| numsToDecorated (f (-9007199254740991) (971)) (f 4 0) : DItv) : DItv) (ret <| numsDecToDecorated (f (-5) (0)) .pinf (raw .dac) : DItv)),
    (118, decide (((ret <| decorationPart (Fmt.subD binary64 (ret <| numsToDecorated (f (-1) (0)) (f 2 0) : DItv) (ret <| numsToDecorated (f (-9007199254740991) (971)) (f 4 0) : DItv) : DItv)) : Dec) = .dac)),
    (119, DItv.eqOp (Fmt.subD binary64 (ret <| numsDecToDecorated (f 10 0) (f 12 0) (raw .defd) : DItv) (ret <| numsDecToDecorated (f (-3) (0)) (f (-1) (0)) (raw .dac) : DItv) : DItv) (ret <| numsDecToDecorated (f 11 0) (f 15 0) (raw .defd) : DItv)),
    (120, decide (((ret <| decorationPart (Fmt.subD binary64 (ret <| numsDecToDecorated (f 10 0) (f 12 0) (raw .defd) : DItv) (ret <| numsDecToDecorated (f (-3) (0)) (f (-1) (0)) (raw .dac) : DItv) : DItv)) : Dec) = .defd)),
    (121, DItv.eqOp (if !(ret <| numsToDecorated (f 10 0) (f 12 0) : DItv).isValid || (ret <| numsToDecorated (f 10 0) (f 12 0) : DItv).isNai || !(ret <| numsToDecorated (f (-3) (0)) (f (-1) (0)) : DItv).isValid || (ret <| numsToDecorated (f (-3) (0)) (f (-1) (0)) : DItv).isNai then DItv.nai else Fmt.convertHullD binary32 (Fmt.subD binary64 (Fmt.convertHullD binary64 (ret <| numsToDecorated (f 10 0) (f 12 0) : DItv)) (Fmt.convertHullD binary64 (ret <| numsToDecorated (f (-3) (0)) (f (-1) (0)) : DItv))) : DItv) (ret <| numsDecToDecorated (f 11 0) (f 15 0) (raw .com) : DItv)),
    (122, decide (((ret <| decorationPart (if !(ret <| numsToDecorated (f 10 0) (f 12 0) : DItv).isValid || (ret <| numsToDecorated (f 10 0) (f 12 0) : DItv).isNai || !(ret <| numsToDecorated (f (-3) (0)) (f (-1) (0)) : DItv).isValid || (ret <| numsToDecorated (f (-3) (0)) (f (-1) (0)) : DItv).isNai then DItv.nai else Fmt.convertHullD binary32 (Fmt.subD binary64 (Fmt.convertHullD binary64 (ret <| numsToDecorated (f 10 0) (f 12 0) : DItv)) (Fmt.convertHullD binary64 (ret <| numsToDecorated (f (-3) (0)) (f (-1) (0)) : DItv))) : DItv)) : Dec) = .com)),
    (127, Itv.eqOp (Fmt.mulI binary64 (ret <| numsToInterval (f 1 0) (f 2 0) : Itv) (ret <| numsToInterval (f 3 0) (f 4 0) : Itv) : Itv) (ret <| numsToInterval (f 3 0) (f 8 0) : Itv)),
    (128, Itv.eqOp (Fmt.mulI binary64 (ret <| numsToInterval (f (-1) (0)) (f 2 0) : Itv) (ret <| numsToInterval (f (-3) (0)) (f 4 0) : Itv) : Itv) (ret <| numsToInterval (f (-6) (0)) (f 8 0) : Itv)),
    (129, Itv.eqOp (Fmt.mulI binary64 (ret <| numsToInterval (f 10 0) (f 12 0) : Itv) (ret <| numsToInterval (f (-3) (0)) (f (-1) (0)) : Itv) : Itv) (ret <| numsToInterval (f (-36) (0)) (f (-10) (0)) : Itv))] : List (ℕ × Bool)).all (·.2) = true := by
  decide +kernel

/-- `test_integration_mpfr_bin_ieee754_flavor_elem.cpp` -/
example : ([
    (130, Itv.eqOp (if !(ret <| numsToInterval (f 10 0) (f 12 0) : Itv).isValid || !(ret <| numsToInterval (f (-3) (0)) (f (-1) (0)) : Itv).isValid then Itv.empty else Fmt.convertHull binary32 (Fmt.mulI binary64 (Fmt.convertHull binary64 (ret <| numsToInterval (f 10 0) (f 12 0) : Itv)) (Fmt.convertHull binary64 (ret <| numsToInterval (f (-3) (0)) (f (-1) (0)) : Itv))) : Itv) (ret <| numsToInterval (f (-36) (0)) (f (-10) (0)) : Itv)),
    (132, DItv.eqOp (Fmt.mulD binary64 (ret <| numsToDecorated (f 1 0) (f 2 0) : DItv) (ret <| numsToDecorated (f 3 0) (f 4 0) : DItv) : DItv) (ret <| numsDecToDecorated (f 3 0) (f 8 0) (raw .com) : DItv)),
    (133, decide (((ret <| decorationPart (Fmt.mulD binary64 (ret <| numsToDecorated (f 1 0) (f 2 0) : DItv) (ret <| numsToDecorated (f 3 0) (f 4 0) : DItv) : DItv)) : Dec) = .com)),
    (134, DItv.eqOp (Fmt.mulD binary64 (ret <| numsToDecorated (f (-1) (0)) (f 2 0) : DItv) (ret <| numsToDecorated (f (-9007199254740991) (971)) (f 4 0) : DItv) : DItv) (ret <| numsDecToDecorated .ninf (f 9007199254740991 971) (raw .dac) : DItv)),
    (135, decide (((ret <| decorationPart (Fmt.mulD binary64 (ret <| numsToDecorated (f (-1) (0)) (f 2 0) : DItv) (ret <| numsToDecorated (f (-9007199254740991) (971)) (f 4 0) : DItv) : DItv)) : Dec) = .dac)),
    (136, DItv.eqOp (Fmt.mulD binary64 (ret <| numsDecToDecorated (f 10 0) (f 12 0) (raw .defd) : DItv) (ret <| numsDecToDecorated (f (-3) (0)) (f (-1) (0)) (raw .dac) : DItv) : DItv) (ret <| numsDecToDecorated (f (-36) (0)) (f (-10) (0)) (raw .defd) : DItv)),
    (137, decide (((ret <| decorationPart (Fmt.mulD binary64 (ret <| numsDecToDecorated (f 10 0) (f 12 0) (raw .defd) : DItv) (ret <| numsDecToDecorated (f (-3) (0)) (f (-1) (0)) (raw .dac) : DItv) : DItv)) : Dec) = .defd)),
    (138, DItv.eqOp (if !(ret <| numsToDecorated (f 10 0) (f 12 0) : DItv).isValid || (ret <| numsToDecorated (f 10 0) (f 12 0) : DItv).isNai || !(ret <| numsToDecorated (f (-3) (0)) (f (-1) (0)) : DItv).isValid || (ret <| numsToDecorated (f (-3) (0)) (f (-1) (0)) : DItv).isNai then DItv.nai else Fmt.convertHullD binary32 (Fmt.mulD binary64 (Fmt.convertHullD binary64 (ret <| numsToDecorated (f 10 0) (f 12 0) : DItv)) (Fmt.convertHullD binary64 (ret <| numsToDecorated (f (-3) (0)) (f (-1) (0)) : DItv))) : DItv) (ret <| numsDecToDecorated (f (-36) (0)) (f (-10) (0)) (raw .com) : DItv)),
    (139, decide (((ret <| decorationPart (if !(ret <| numsToDecorated (f 10 0) (f 12 0) : DItv).isValid || (ret <| numsToDecorated (f 10 0) (f 12 0) : DItv).isNai || !(ret <| numsToDecorated (f (-3) (0)) (f (-1) (0)) : DItv).isValid || (ret <| numsToDecorated (f (-3) (0)) (f (-1) (0)) : DItv).isNai then DItv.nai else Fmt.convertHullD binary32 (Fmt.mulD binary64 (Fmt.convertHullD binary64 (ret <| numsToDecorated (f 10 0) (f 12 0) : DItv)) (Fmt.convertHullD binary64 (ret <| numsToDecorated (f (-3) (0)) (f (-1) (0)) : DItv))) : DItv)) : Dec) = .com)),
    (144, Itv.eqOp (Fmt.divI binary64 (ret <| numsToInterval .nzero (f 30 0) : Itv) (ret <| numsToInterval (f (-5) (0)) (f (-3) (0)) : Itv) : Itv) (ret <| numsToInterval (f (-10) (0)) (f 0 0) : Itv)),
    (145, Itv.eqOp (Fmt.divI binary64 (ret <| numsToInterval (f (-30) (0)) (f 0 0) : Itv) (ret <| numsToInterval (f 0 0) (f 3 0) : Itv) : Itv) (ret <| numsToInterval .ninf (f 0 0) : Itv)),
    (146, Itv.eqOp (Fmt.divI binary64 (ret <| numsToInterval (f (-2) (0)) (f (-1) (0)) : Itv) (ret <| numsToInterval (f (-10) (0)) (f (-3) (0)) : Itv) : Itv) (ret <| numsToInterval (f (7205759403792793) (-56)) (f (3002399751580331) (-52)) : Itv)),
    (147, Itv.eqOp (if !(ret <| numsToInterval (f (-2) (0)) (f (-1) (0)) : Itv).isValid || !(ret <| numsToInterval (f (-10) (0)) (f (-3) (0)) : Itv).isValid then Itv.empty else Fmt.convertHull binary32 (Fmt.divI binary64 (Fmt.convertHull binary64 (ret <| numsToInterval (f (-2) (0)) (f (-1) (0)) : Itv)) (Fmt.convertHull binary64 (ret <| numsToInterval (f (-10) (0)) (f (-3) (0)) : Itv))) : Itv) (ret <| numsToInterval (f (3355443) (-25)) (f (11184811) (-24)) : Itv)),
    (149, DItv.eqOp (Fmt.divD binary64 (ret <| numsToDecorated .nzero (f 30 0) : DItv) (ret <| numsToDecorated (f (-5) (0)) (f (-3) (0)) : DItv) : DItv) (ret <| numsDecToDecorated (f (-10) (0)) (f 0 0) (raw .com) : DItv)),
    (150, decide (((ret <| decorationPart (Fmt.divD binary64 (ret <| numsToDecorated .nzero (f 30 0) : DItv) (ret <| numsToDecorated (f (-5) (0)) (f (-3) (0)) : DItv) : DItv)) : Dec) = .com)),
    (151, DItv.eqOp (Fmt.divD binary64 (ret <| numsToDecorated .nzero (f 30 0) : DItv) (ret <| numsToDecorated (f (-5) (0)) (f (-1) (-1022)) : DItv) : DItv) (ret <| numsDecToDecorated .ninf (f 0 0) (raw .dac) : DItv)),
    (152, decide (((ret <| decorationPart (Fmt.divD binary64 (ret <| numsToDecorated .nzero (f 30 0) : DItv) (ret <| numsToDecorated (f (-5) (0)) (f (-1) (-1022)) : DItv) : DItv)) : Dec) = .dac)),
    (153, DItv.eqOp (Fmt.divD binary64 (ret <| numsToDecorated (f (-30) (0)) (f 0 0) : DItv) (ret <| numsToDecorated (f 0 0) (f 3 0) : DItv) : DItv) (ret <| numsDecToDecorated .ninf (f 0 0) (raw .trv) : DItv)),
    (154, decide (((ret <| decorationPart (Fmt.divD binary64 (ret <| numsToDecorated (f (-30) (0)) (f 0 0) : DItv) (ret <| numsToDecorated (f 0 0) (f 3 0) : DItv) : DItv)) : Dec) = .trv)),
    (155, DItv.eqOp (Fmt.divD binary64 (ret <| numsDecToDecorated (f (-2) (0)) (f (-1) (0)) (raw .defd) : DItv) (ret <| numsDecToDecorated (f (-10) (0)) (f (-3) (0)) (raw .dac) : DItv) : DItv) (ret <| numsDecToDecorated (f (7205759403792793) (-56)) (f (3002399751580331) (-52)) (raw .defd) : DItv)),
    (156, decide (((ret <| decorationPart (Fmt.divD binary64 (ret <| numsDecToDecorated (f (-2) (0)) (f (-1) (0)) (raw .defd) : DItv) (ret <| numsDecToDecorated (f (-10) (0)) (f (-3) (0)) (raw .dac) : DItv) : DItv)) : Dec) = .defd)),
    (157, DItv.eqOp (if !(ret <| numsToDecorated (f (-2) (0)) (f (-1) (0)) : DItv).isValid || (ret <| numsToDecorated (f (-2) (0)) (f (-1) (0)) : DItv).isNai || !(ret <| numsToDecorated (f (-10) (0)) (f (-3) (0)) : DItv).isValid || (ret <| numsToDecorated (f (-10) (0)) (f (-3) (0)) : DItv).isNai then DItv.nai else Fmt.convertHullD binary32 (Fmt.divD binary64 (Fmt.convertHullD binary64 (ret <| numsToDecorated (f (-2) (0)) (f (-1) (0)) : DItv)) (Fmt.convertHullD binary64 (ret <| numsToDecorated (f (-10) (0)) (f (-3) (0)) : DItv))) : DItv) (ret <| numsDecToDecorated (f (3355443) (-25)) (f (11184811) (-24)) (raw .com) : DItv)),
    (158, decide (((ret <| decorationPart (if !(ret <| numsToDecorated (f (-2) (0)) (f (-1) (0)) : DItv).isValid || (ret <| numsToDecorated (f (-2) (0)) (f (-1) (0)) : DItv).isNai || !(ret <| numsToDecorated (f (-10) (0)) (f (-3) (0)) : DItv).isValid || (ret <| numsToDecorated (f (-10) (0)) (f (-3) (0)) : DItv).isNai then DItv.nai else Fmt.convertHullD binary32 (Fmt.divD binary64 (Fmt.convertHullD binary64 (ret <| numsToDecorated (f (-2) (0)) (f (-1) (0)) : DItv)) (Fmt.convertHullD binary64 (ret <| numsToDecorated (f (-10) (0)) (f (-3) (0)) : DItv))) : DItv)) : Dec) = .com)),
    (164, Itv.eqOp (Fmt.recipI binary64 (ret <| numsToInterval (f (-50) (0)) (f (-10) (0)) : Itv) : Itv) (ret <| numsToInterval (f (-3602879701896397) (-55)) (f (-2882303761517117) (-57)) : Itv)),
    (165, Itv.eqOp (Fmt.recipI binary64 (ret <| numsToInterval (f (-10) (0)) (f 0 0) : Itv) : Itv) (ret <| numsToInterval .ninf (f (-7205759403792793) (-56)) : Itv)),
    (166, Itv.eqOp (if !(ret <| numsToInterval .ninf (f (-10) (0)) : Itv).isValid then Itv.empty else Fmt.convertHull binary32 (Fmt.recipI binary64 (Fmt.convertHull binary64 (ret <| numsToInterval .ninf (f (-10) (0)) : Itv))) : Itv) (ret <| numsToInterval (f (-13421773) (-27)) (f 0 0) : Itv)),
    (168, DItv.eqOp (Fmt.recipD binary64 (ret <| numsToDecorated (f (-10) (0)) (f 0 0) : DItv) : DItv) (ret <| numsDecToDecorated .ninf (f (-7205759403792793) (-56)) (raw .trv) : DItv)),
    (169, decide (((ret <| decorationPart (Fmt.recipD binary64 (ret <| numsToDecorated (f (-10) (0)) (f 0 0) : DItv) : DItv)) : Dec) = .trv)),
    (170, DItv.eqOp (Fmt.recipD binary64 (ret <| numsToDecorated (f (-9007199254740991) (971)) (f (-1) (-1022)) : DItv) : DItv) (ret <| numsDecToDecorated (f (-1048576) (1002)) (f (-1) (-1024)) (raw .com) : DItv)),
    (171, decide (((ret <| decorationPart (Fmt.recipD binary64 (ret <| numsToDecorated (f (-9007199254740991) (971)) (f (-1) (-1022)) : DItv) : DItv)) : Dec) = .com)),
    (172, DItv.eqOp (if !(ret <| numsToDecorated (f (-9007199254740991) (971)) (f (-1) (-1022)) : DItv).isValid || (ret <| numsToDecorated (f (-9007199254740991) (971)) (f (-1) (-1022)) : DItv).isNai then DItv.nai else Fmt.convertHullD binary32 (Fmt.recipD binary64 (Fmt.convertHullD binary64 (ret <| numsToDecorated (f (-9007199254740991) (971)) (f (-1) (-1022)) : DItv))) : DItv) (ret <| Fmt.numsDecToDecoratedMixed binary32 .ninf (f 0 0) (raw .dac) : DItv)),
    (173, decide (((ret <| decorationPart (if !(ret <| numsToDecorated (f (-9007199254740991) (971)) (f (-1) (-1022)) : DItv).isValid || (ret <| numsToDecorated (f (-9007199254740991) (971)) (f (-1) (-1022)) : DItv).isNai then DItv.nai else Fmt.convertHullD binary32 (Fmt.recipD binary64 (Fmt.convertHullD binary64 (ret <| numsToDecorated (f (-9007199254740991) (971)) (f (-1) (-1022)) : DItv))) : DItv)) : Dec) = .dac)),
    (178, Itv.eqOp (Fmt.sqrI binary64 (ret <| numsToInterval (f (-5) (0)) (f (-1) (0)) : Itv) : Itv) (ret <| numsToInterval (f 1 0) (f 25 0) : Itv)),
    (179, Itv.eqOp (Fmt.sqrI binary64 (ret <| numsToInterval (f (-10) (0)) (f 0 0) : Itv) : Itv) (ret <| numsToInterval (f 0 0) (f 100 0) : Itv)),
    (180, Itv.eqOp (if !(ret <| numsToInterval (f 5 0) (f 19073486328125 20) : Itv).isValid then Itv.empty else Fmt.convertHull binary32 (Fmt.sqrI binary64 (Fmt.convertHull binary64 (ret <| numsToInterval (f 5 0) (f 19073486328125 20) : Itv))) : Itv) (ret <| Fmt.numsToIntervalMixed binary32 (f 25 0) .pinf : Itv)),
    (182, DItv.eqOp (Fmt.sqrD binary64 (ret <| numsToDecorated (f (-5) (0)) (f (-1) (0)) : DItv) : DItv) (ret <| numsDecToDecorated (f 1 0) (f 25 0) (raw .com) : DItv)),
    (183, decide (((ret <| decorationPart (Fmt.sqrD binary64 (ret <| numsToDecorated (f (-5) (0)) (f (-1) (0)) : DItv) : DItv)) : Dec) = .com)),
    (184, DItv.eqOp (Fmt.sqrD binary64 (ret <| numsDecToDecorated (f (-10) (0)) (f 0 0) (raw .defd) : DItv) : DItv) (ret <| numsDecToDecorated (f 0 0) (f 100 0) (raw .defd) : DItv)),
    (185, decide (((ret <| decorationPart (Fmt.sqrD binary64 (ret <| numsDecToDecorated (f (-10) (0)) (f 0 0) (raw .defd) : DItv) : DItv)) : Dec) = .defd)),
    (186, DItv.eqOp (if !(ret <| numsToDecorated (f 5 0) (f 19073486328125 20) : DItv).isValid || (ret <| numsToDecorated (f 5 0) (f 19073486328125 20) : DItv).isNai then DItv.nai else Fmt.convertHullD binary32 (Fmt.sqrD binary64 (Fmt.convertHullD binary64 (ret <| numsToDecorated (f 5 0) (f 19073486328125 20) : DItv))) : DItv) (ret <| Fmt.numsDecToDecoratedMixed binary32 (f 25 0) .pinf (raw .dac) : DItv)),
    (187, decide (((ret <| decorationPart (if !(ret <| numsToDecorated (f 5 0) (f 19073486328125 20) : DItv).isValid || (ret <| numsToDecorated (f 5 0) (f 19073486328125 20) : DItv).isNai then DItv.nai else Fmt.convertHullD binary32 (Fmt.sqrD binary64 (Fmt.convertHullD binary64 (ret <| numsToDecorated (f 5 0) (f 19073486328125 20) : DItv))) : DItv)) : Dec) = .dac)),
    (207, Itv.eqOp (Fmt.fmaI binary64 (ret <| numsToInterval (f (-1) (-1)) (f (-3602879701896397) (-55)) : Itv) (ret <| numsToInterval .ninf (f 3 0) : Itv) (ret <| numsToInterval (f (-3602879701896397) (-55)) (f (3602879701896397) (-55)) : Itv) : Itv) (ret <| numsToInterval (f (-3602879701896397) (-51)) .pinf : Itv)),
    (208, Itv.eqOp (Fmt.fmaI binary64 (ret <| numsToInterval (f 1 0) (f 2 0) : Itv) (ret <| numsToInterval (f 1 0) (f 9007199254740991 971) : Itv) (ret <| numsToInterval (f 0 0) (f 1 0) : Itv) : Itv) (ret <| numsToInterval (f 1 0) .pinf : Itv)),
    (209, Itv.eqOp (fmaMixed .float .double .double .double (ret <| numsToInterval (f (3602879701896397) (-55)) (f (1) (-1)) : Itv) (ret <| numsToInterval (f (-5) (0)) (f 3 0) : Itv) (ret <| numsToInterval (f (-3602879701896397) (-55)) (f (3602879701896397) (-55)) : Itv) : Itv) (ret <| numsToInterval (f (-10905191) (-22)) (f (13421773) (-23)) : Itv)),
    (211, DItv.eqOp (Fmt.fmaD binary64 (ret <| numsDecToDecorated (f (-1) (-1)) (f (-3602879701896397) (-55)) (raw .com) : DItv) (ret <| numsDecToDecorated .ninf (f 3 0) (raw .dac) : DItv) (ret <| numsDecToDecorated (f (-3602879701896397) (-55)) (f (3602879701896397) (-55)) (raw .com) : DItv) : DItv) (ret <| numsDecToDecorated (f (-3602879701896397) (-51)) .pinf (raw .dac) : DItv)),
    (212, decide (((ret <| decorationPart (Fmt.fmaD binary64 (ret <| numsDecToDecorated (f (-1) (-1)) (f (-3602879701896397) (-55)) (raw .com) : DItv) (ret <| numsDecToDecorated .ninf (f 3 0) (raw .dac) : DItv) (ret <| numsDecToDecorated (f (-3602879701896397) (-55)) (f (3602879701896397) (-55)) (raw .com) : DItv) : DItv)) : Dec) = .dac)),
    (213, DItv.eqOp (Fmt.fmaD binary64 (ret <| numsDecToDecorated (f 1 0) (f 2 0) (raw .com) : DItv) (ret <| numsDecToDecorated (f 1 0) (f 9007199254740991 971) (raw .com) : DItv) (ret <| numsDecToDecorated (f 0 0) (f 1 0) (raw .com) : DItv) : DItv) (ret <| numsDecToDecorated (f 1 0) .pinf (raw .dac) : DItv)),
    (214, decide (((ret <| decorationPart (Fmt.fmaD binary64 (ret <| numsDecToDecorated (f 1 0) (f 2 0) (raw .com) : DItv) (ret <| numsDecToDecorated (f 1 0) (f 9007199254740991 971) (raw .com) : DItv) (ret <| numsDecToDecorated (f 0 0) (f 1 0) (raw .com) : DItv) : DItv)) : Dec) = .dac)),
    (215, DItv.eqOp (fmaMixedD .float .double .double .double (ret <| numsDecToDecorated (f (3602879701896397) (-55)) (f (1) (-1)) (raw .com) : DItv) (ret <| numsDecToDecorated (f (-5) (0)) (f 3 0) (raw .dac) : DItv) (ret <| numsDecToDecorated (f (-3602879701896397) (-55)) (f (3602879701896397) (-55)) (raw .defd) : DItv) : DItv) (ret <| numsDecToDecorated (f (-10905191) (-22)) (f (13421773) (-23)) (raw .defd) : DItv)),
    (216, decide (((ret <| decorationPart (fmaMixedD .float .double .double .double (ret <| numsDecToDecorated (f (3602879701896397) (-55)) (f (1) (-1)) (raw .com) : DItv) (ret <| numsDecToDecorated (f (-5) (0)) (f 3 0) (raw .dac) : DItv) (ret <| numsDecToDecorated (f (-3602879701896397) (-55)) (f (3602879701896397) (-55)) (raw .defd) : DItv) : DItv)) : Dec) = .defd))] : List (ℕ × Bool)).all (·.2) = true := by
  decide +kernel

/-- `test_integration_mpfr_bin_ieee754_flavor_elem.cpp` -/
example : ([
    (222, Itv.eqOp (Fmt.pownI binary64 (ret <| numsToInterval (f 1 0) (f 5 0) : Itv) (3) : Itv) (ret <| numsToInterval (f 1 0) (f 125 0) : Itv)),
    (223, Itv.eqOp (Fmt.pownI binary64 (ret <| numsToInterval (f (-1) (0)) (f 100 0) : Itv) (-7) : Itv) (ret <| numsToInterval .ninf .pinf : Itv)),
    (224, Itv.eqOp (if !(ret <| numsToInterval (f (5764607523034235) (-59)) (f (1311673391471657) (-49)) : Itv).isValid then Itv.empty else Fmt.convertHull binary32 (Fmt.pownI binary64 (Fmt.convertHull binary64 (ret <| numsToInterval (f (5764607523034235) (-59)) (f (1311673391471657) (-49)) : Itv)) (2)) : Itv) (ret <| numsToInterval (f (13743895) (-37)) (f (11385229) (-21)) : Itv)),
    (226, DItv.eqOp (Fmt.pownD binary64 (ret <| numsDecToDecorated (f (-5) (0)) (f 25 0) (raw .defd) : DItv) (2) : DItv) (ret <| numsDecToDecorated (f 0 0) (f 625 0) (raw .defd) : DItv)),
    (227, decide (((ret <| decorationPart (Fmt.pownD binary64 (ret <| numsDecToDecorated (f (-5) (0)) (f 25 0) (raw .defd) : DItv) (2) : DItv)) : Dec) = .defd)),
    (228, DItv.eqOp (Fmt.pownD binary64 (ret <| numsDecToDecorated (f (1) (-1022)) (f 1 0) (raw .com) : DItv) (-8) : DItv) (ret <| numsDecToDecorated (f 1 0) .pinf (raw .dac) : DItv)),
    (229, decide (((ret <| decorationPart (Fmt.pownD binary64 (ret <| numsDecToDecorated (f (1) (-1022)) (f 1 0) (raw .com) : DItv) (-8) : DItv)) : Dec) = .dac)),
    (230, DItv.eqOp (if !(ret <| numsToDecorated (f (-1) (0)) (f 1 0) : DItv).isValid || (ret <| numsToDecorated (f (-1) (0)) (f 1 0) : DItv).isNai then DItv.nai else Fmt.convertHullD binary32 (Fmt.pownD binary64 (Fmt.convertHullD binary64 (ret <| numsToDecorated (f (-1) (0)) (f 1 0) : DItv)) (-3)) : DItv) (ret <| Fmt.numsDecToDecoratedMixed binary32 .ninf .pinf (raw .trv) : DItv)),
    (231, decide (((ret <| decorationPart (if !(ret <| numsToDecorated (f (-1) (0)) (f 1 0) : DItv).isValid || (ret <| numsToDecorated (f (-1) (0)) (f 1 0) : DItv).isNai then DItv.nai else Fmt.convertHullD binary32 (Fmt.pownD binary64 (Fmt.convertHullD binary64 (ret <| numsToDecorated (f (-1) (0)) (f 1 0) : DItv)) (-3)) : DItv)) : Dec) = .trv)),
    (535, Itv.eqOp (Fmt.signI (ret <| numsToInterval (f 1 0) (f 2 0) : Itv) : Itv) (ret <| numsToInterval (f 1 0) (f 1 0) : Itv)),
    (536, Itv.eqOp (Fmt.signI (ret <| numsToInterval .nzero (f 2 0) : Itv) : Itv) (ret <| numsToInterval (f 0 0) (f 1 0) : Itv)),
    (537, Itv.eqOp (if !(ret <| numsToInterval (f (-1) (0)) (f 2 0) : Itv).isValid then Itv.empty else Fmt.convertHull binary32 (Fmt.signI (Fmt.convertHull binary64 (ret <| numsToInterval (f (-1) (0)) (f 2 0) : Itv))) : Itv) (ret <| numsToInterval (f (-1) (0)) (f 1 0) : Itv)),
    (539, DItv.eqOp (Fmt.signD (ret <| numsDecToDecorated (f 1 0) (f 2 0) (raw .com) : DItv) : DItv) (ret <| numsDecToDecorated (f 1 0) (f 1 0) (raw .com) : DItv)),
    (540, decide (((ret <| decorationPart (Fmt.signD (ret <| numsDecToDecorated (f 1 0) (f 2 0) (raw .com) : DItv) : DItv)) : Dec) = .com)),
    (541, DItv.eqOp (Fmt.signD (ret <| numsDecToDecorated .nzero (f 2 0) (raw .dac) : DItv) : DItv) (ret <| numsDecToDecorated (f 0 0) (f 1 0) (raw .defd) : DItv)),
    (542, decide (((ret <| decorationPart (Fmt.signD (ret <| numsDecToDecorated .nzero (f 2 0) (raw .dac) : DItv) : DItv)) : Dec) = .defd)),
    (543, DItv.eqOp (if !(ret <| numsToDecorated (f (-1) (0)) (f 2 0) : DItv).isValid || (ret <| numsToDecorated (f (-1) (0)) (f 2 0) : DItv).isNai then DItv.nai else Fmt.convertHullD binary32 (Fmt.signD (Fmt.convertHullD binary64 (ret <| numsToDecorated (f (-1) (0)) (f 2 0) : DItv))) : DItv) (ret <| numsDecToDecorated (f (-1) (0)) (f 1 0) (raw .defd) : DItv)),
    (544, decide (((ret <| decorationPart (if !(ret <| numsToDecorated (f (-1) (0)) (f 2 0) : DItv).isValid || (ret <| numsToDecorated (f (-1) (0)) (f 2 0) : DItv).isNai then DItv.nai else Fmt.convertHullD binary32 (Fmt.signD (Fmt.convertHullD binary64 (ret <| numsToDecorated (f (-1) (0)) (f 2 0) : DItv))) : DItv)) : Dec) = .defd)),
    (549, Itv.eqOp (Fmt.ceilI (ret <| numsToInterval (f (2476979795053773) (-51)) (f 2 0) : Itv) : Itv) (ret <| numsToInterval (f 2 0) (f 2 0) : Itv)),
    (550, Itv.eqOp (Fmt.ceilI (ret <| numsToInterval (f (-4278419646001971) (-51)) (f (4728779608739021) (-51)) : Itv) : Itv) (ret <| numsToInterval (f (-1) (0)) (f 3 0) : Itv)),
    (551, Itv.eqOp (if !(ret <| numsToInterval (f (-3) (-1)) (f (2476979795053773) (-50)) : Itv).isValid then Itv.empty else Fmt.convertHull binary32 (Fmt.ceilI (Fmt.convertHull binary64 (ret <| numsToInterval (f (-3) (-1)) (f (2476979795053773) (-50)) : Itv))) : Itv) (ret <| numsToInterval (f (-1) (0)) (f 3 0) : Itv)),
    (553, DItv.eqOp (Fmt.ceilD (ret <| numsDecToDecorated (f (2476979795053773) (-51)) (f 2 0) (raw .com) : DItv) : DItv) (ret <| numsDecToDecorated (f 2 0) (f 2 0) (raw .dac) : DItv)),
    (554, decide (((ret <| decorationPart (Fmt.ceilD (ret <| numsDecToDecorated (f (2476979795053773) (-51)) (f 2 0) (raw .com) : DItv) : DItv)) : Dec) = .dac)),
    (555, DItv.eqOp (Fmt.ceilD (ret <| numsDecToDecorated (f (-3602879701896397) (-55)) (f (4728779608739021) (-51)) (raw .dac) : DItv) : DItv) (ret <| numsDecToDecorated (f 0 0) (f 3 0) (raw .defd) : DItv)),
    (556, decide (((ret <| decorationPart (Fmt.ceilD (ret <| numsDecToDecorated (f (-3602879701896397) (-55)) (f (4728779608739021) (-51)) (raw .dac) : DItv) : DItv)) : Dec) = .defd)),
    (557, DItv.eqOp (if !(ret <| numsToDecorated (f (-3) (-1)) (f (3602879701896397) (-55)) : DItv).isValid || (ret <| numsToDecorated (f (-3) (-1)) (f (3602879701896397) (-55)) : DItv).isNai then DItv.nai else Fmt.convertHullD binary32 (Fmt.ceilD (Fmt.convertHullD binary64 (ret <| numsToDecorated (f (-3) (-1)) (f (3602879701896397) (-55)) : DItv))) : DItv) (ret <| numsDecToDecorated (f (-1) (0)) (f 1 0) (raw .defd) : DItv)),
    (558, decide (((ret <| decorationPart (if !(ret <| numsToDecorated (f (-3) (-1)) (f (3602879701896397) (-55)) : DItv).isValid || (ret <| numsToDecorated (f (-3) (-1)) (f (3602879701896397) (-55)) : DItv).isNai then DItv.nai else Fmt.convertHullD binary32 (Fmt.ceilD (Fmt.convertHullD binary64 (ret <| numsToDecorated (f (-3) (-1)) (f (3602879701896397) (-55)) : DItv))) : DItv)) : Dec) = .defd)),
    (563, Itv.eqOp (Fmt.floorI (ret <| numsToInterval (f (2476979795053773) (-51)) (f 2 0) : Itv) : Itv) (ret <| numsToInterval (f 1 0) (f 2 0) : Itv)),
    (564, Itv.eqOp (Fmt.floorI (ret <| numsToInterval (f (-4278419646001971) (-51)) (f (4728779608739021) (-51)) : Itv) : Itv) (ret <| numsToInterval (f (-2) (0)) (f 2 0) : Itv)),
    (565, Itv.eqOp (if !(ret <| numsToInterval (f (-3) (-1)) (f (2476979795053773) (-50)) : Itv).isValid then Itv.empty else Fmt.convertHull binary32 (Fmt.floorI (Fmt.convertHull binary64 (ret <| numsToInterval (f (-3) (-1)) (f (2476979795053773) (-50)) : Itv))) : Itv) (ret <| numsToInterval (f (-2) (0)) (f 2 0) : Itv)),
    (567, DItv.eqOp (Fmt.floorD (ret <| numsDecToDecorated (f (2476979795053773) (-51)) (f (4278419646001971) (-51)) (raw .com) : DItv) : DItv) (ret <| numsDecToDecorated (f 1 0) (f 1 0) (raw .com) : DItv)),
    (568, decide (((ret <| decorationPart (Fmt.floorD (ret <| numsDecToDecorated (f (2476979795053773) (-51)) (f (4278419646001971) (-51)) (raw .com) : DItv) : DItv)) : Dec) = .com)),
    (569, DItv.eqOp (Fmt.floorD (ret <| numsDecToDecorated (f (-3602879701896397) (-55)) (f (4728779608739021) (-51)) (raw .dac) : DItv) : DItv) (ret <| numsDecToDecorated (f (-1) (0)) (f 2 0) (raw .defd) : DItv)),
    (570, decide (((ret <| decorationPart (Fmt.floorD (ret <| numsDecToDecorated (f (-3602879701896397) (-55)) (f (4728779608739021) (-51)) (raw .dac) : DItv) : DItv)) : Dec) = .defd)),
    (571, DItv.eqOp (if !(ret <| numsToDecorated (f (-3) (-1)) (f (3602879701896397) (-55)) : DItv).isValid || (ret <| numsToDecorated (f (-3) (-1)) (f (3602879701896397) (-55)) : DItv).isNai then DItv.nai else Fmt.convertHullD binary32 (Fmt.floorD (Fmt.convertHullD binary64 (ret <| numsToDecorated (f (-3) (-1)) (f (3602879701896397) (-55)) : DItv))) : DItv) (ret <| numsDecToDecorated (f (-2) (0)) (f 0 0) (raw .defd) : DItv)),
    (572, decide (((ret <| decorationPart (if !(ret <| numsToDecorated (f (-3) (-1)) (f (3602879701896397) (-55)) : DItv).isValid || (ret <| numsToDecorated (f (-3) (-1)) (f (3602879701896397) (-55)) : DItv).isNai then DItv.nai else Fmt.convertHullD binary32 (Fmt.floorD (Fmt.convertHullD binary64 (ret <| numsToDecorated (f (-3) (-1)) (f (3602879701896397) (-55)) : DItv))) : DItv)) : Dec) = .defd)),
    (577, Itv.eqOp (Fmt.truncI (ret <| numsToInterval (f (2476979795053773) (-51)) (f (2476979795053773) (-50)) : Itv) : Itv) (ret <| numsToInterval (f 1 0) (f 2 0) : Itv)),
    (578, Itv.eqOp (Fmt.truncI (ret <| numsToInterval (f (-4278419646001971) (-51)) (f (4728779608739021) (-51)) : Itv) : Itv) (ret <| numsToInterval (f (-1) (0)) (f 2 0) : Itv)),
    (579, Itv.eqOp (if !(ret <| numsToInterval (f (-3) (-1)) (f (2476979795053773) (-50)) : Itv).isValid then Itv.empty else Fmt.convertHull binary32 (Fmt.truncI (Fmt.convertHull binary64 (ret <| numsToInterval (f (-3) (-1)) (f (2476979795053773) (-50)) : Itv))) : Itv) (ret <| numsToInterval (f (-1) (0)) (f 2 0) : Itv)),
    (581, DItv.eqOp (Fmt.truncD (ret <| numsDecToDecorated (f (2476979795053773) (-51)) (f (4278419646001971) (-51)) (raw .com) : DItv) : DItv) (ret <| numsDecToDecorated (f 1 0) (f 1 0) (raw .com) : DItv)),
    (582, decide (((ret <| decorationPart (Fmt.truncD (ret <| numsDecToDecorated (f (2476979795053773) (-51)) (f (4278419646001971) (-51)) (raw .com) : DItv) : DItv)) : Dec) = .com)),
    (583, DItv.eqOp (Fmt.truncD (ret <| numsDecToDecorated (f (-3602879701896397) (-55)) (f (4728779608739021) (-51)) (raw .dac) : DItv) : DItv) (ret <| numsDecToDecorated (f 0 0) (f 2 0) (raw .defd) : DItv)),
    (584, decide (((ret <| decorationPart (Fmt.truncD (ret <| numsDecToDecorated (f (-3602879701896397) (-55)) (f (4728779608739021) (-51)) (raw .dac) : DItv) : DItv)) : Dec) = .defd)),
    (585, DItv.eqOp (if !(ret <| numsToDecorated (f (-3) (-1)) (f (3602879701896397) (-55)) : DItv).isValid || (ret <| numsToDecorated (f (-3) (-1)) (f (3602879701896397) (-55)) : DItv).isNai then DItv.nai else Fmt.convertHullD binary32 (Fmt.truncD (Fmt.convertHullD binary64 (ret <| numsToDecorated (f (-3) (-1)) (f (3602879701896397) (-55)) : DItv))) : DItv) (ret <| numsDecToDecorated (f (-1) (0)) (f 0 0) (raw .defd) : DItv)),
    (586, decide (((ret <| decorationPart (if !(ret <| numsToDecorated (f (-3) (-1)) (f (3602879701896397) (-55)) : DItv).isValid || (ret <| numsToDecorated (f (-3) (-1)) (f (3602879701896397) (-55)) : DItv).isNai then DItv.nai else Fmt.convertHullD binary32 (Fmt.truncD (Fmt.convertHullD binary64 (ret <| numsToDecorated (f (-3) (-1)) (f (3602879701896397) (-55)) : DItv))) : DItv)) : Dec) = .defd)),
    (591, Itv.eqOp (Fmt.roundEvenI (ret <| numsToInterval (f (2476979795053773) (-51)) (f (2476979795053773) (-50)) : Itv) : Itv) (ret <| numsToInterval (f 1 0) (f 2 0) : Itv)),
    (592, Itv.eqOp (Fmt.roundEvenI (ret <| numsToInterval (f (-4278419646001971) (-51)) (f (5) (-1)) : Itv) : Itv) (ret <| numsToInterval (f (-2) (0)) (f 2 0) : Itv)),
    (593, Itv.eqOp (if !(ret <| numsToInterval (f (-3) (-1)) (f (2476979795053773) (-50)) : Itv).isValid then Itv.empty else Fmt.convertHull binary32 (Fmt.roundEvenI (Fmt.convertHull binary64 (ret <| numsToInterval (f (-3) (-1)) (f (2476979795053773) (-50)) : Itv))) : Itv) (ret <| numsToInterval (f (-2) (0)) (f 2 0) : Itv)),
    (595, DItv.eqOp (Fmt.roundEvenD binary64 (ret <| numsDecToDecorated (f (3) (-1)) (f (4278419646001971) (-51)) (raw .com) : DItv) : DItv) (ret <| numsDecToDecorated (f 2 0) (f 2 0) (raw .dac) : DItv)),
    (596, decide (((ret <| decorationPart (Fmt.roundEvenD binary64 (ret <| numsDecToDecorated (f (3) (-1)) (f (4278419646001971) (-51)) (raw .com) : DItv) : DItv)) : Dec) = .dac))] : List (ℕ × Bool)).all (·.2) = true := by
  decide +kernel

/-- `test_integration_mpfr_bin_ieee754_flavor_elem.cpp` -/
example : ([
    (597, DItv.eqOp (Fmt.roundEvenD binary64 (ret <| numsDecToDecorated (f (-3602879701896397) (-55)) (f (4728779608739021) (-51)) (raw .dac) : DItv) : DItv) (ret <| numsDecToDecorated (f 0 0) (f 2 0) (raw .defd) : DItv)),
    (598, decide (((ret <| decorationPart (Fmt.roundEvenD binary64 (ret <| numsDecToDecorated (f (-3602879701896397) (-55)) (f (4728779608739021) (-51)) (raw .dac) : DItv) : DItv)) : Dec) = .defd)),
    (599, DItv.eqOp (if !(ret <| numsToDecorated (f (-3) (-1)) (f (3602879701896397) (-55)) : DItv).isValid || (ret <| numsToDecorated (f (-3) (-1)) (f (3602879701896397) (-55)) : DItv).isNai then DItv.nai else Fmt.convertHullD binary32 (Fmt.roundEvenD binary64 (Fmt.convertHullD binary64 (ret <| numsToDecorated (f (-3) (-1)) (f (3602879701896397) (-55)) : DItv))) : DItv) (ret <| numsDecToDecorated (f (-2) (0)) (f 0 0) (raw .defd) : DItv)),
    (600, decide (((ret <| decorationPart (if !(ret <| numsToDecorated (f (-3) (-1)) (f (3602879701896397) (-55)) : DItv).isValid || (ret <| numsToDecorated (f (-3) (-1)) (f (3602879701896397) (-55)) : DItv).isNai then DItv.nai else Fmt.convertHullD binary32 (Fmt.roundEvenD binary64 (Fmt.convertHullD binary64 (ret <| numsToDecorated (f (-3) (-1)) (f (3602879701896397) (-55)) : DItv))) : DItv)) : Dec) = .defd)),
    (605, Itv.eqOp (Fmt.roundAwayI (ret <| numsToInterval (f (2476979795053773) (-51)) (f (2476979795053773) (-50)) : Itv) : Itv) (ret <| numsToInterval (f 1 0) (f 2 0) : Itv)),
    (606, Itv.eqOp (Fmt.roundAwayI (ret <| numsToInterval (f (-4278419646001971) (-51)) (f (5) (-1)) : Itv) : Itv) (ret <| numsToInterval (f (-2) (0)) (f 3 0) : Itv)),
    (607, Itv.eqOp (if !(ret <| numsToInterval (f (-3) (-1)) (f (2476979795053773) (-50)) : Itv).isValid then Itv.empty else Fmt.convertHull binary32 (Fmt.roundAwayI (Fmt.convertHull binary64 (ret <| numsToInterval (f (-3) (-1)) (f (2476979795053773) (-50)) : Itv))) : Itv) (ret <| numsToInterval (f (-2) (0)) (f 2 0) : Itv)),
    (609, DItv.eqOp (Fmt.roundAwayD binary64 (ret <| numsDecToDecorated (f (3) (-1)) (f (4278419646001971) (-51)) (raw .com) : DItv) : DItv) (ret <| numsDecToDecorated (f 2 0) (f 2 0) (raw .dac) : DItv)),
    (610, decide (((ret <| decorationPart (Fmt.roundAwayD binary64 (ret <| numsDecToDecorated (f (3) (-1)) (f (4278419646001971) (-51)) (raw .com) : DItv) : DItv)) : Dec) = .dac)),
    (611, DItv.eqOp (Fmt.roundAwayD binary64 (ret <| numsDecToDecorated (f (-3602879701896397) (-55)) (f (4728779608739021) (-51)) (raw .dac) : DItv) : DItv) (ret <| numsDecToDecorated (f 0 0) (f 2 0) (raw .defd) : DItv)),
    (612, decide (((ret <| decorationPart (Fmt.roundAwayD binary64 (ret <| numsDecToDecorated (f (-3602879701896397) (-55)) (f (4728779608739021) (-51)) (raw .dac) : DItv) : DItv)) : Dec) = .defd)),
    (613, DItv.eqOp (if !(ret <| numsToDecorated (f (-5) (-1)) (f (3602879701896397) (-55)) : DItv).isValid || (ret <| numsToDecorated (f (-5) (-1)) (f (3602879701896397) (-55)) : DItv).isNai then DItv.nai else Fmt.convertHullD binary32 (Fmt.roundAwayD binary64 (Fmt.convertHullD binary64 (ret <| numsToDecorated (f (-5) (-1)) (f (3602879701896397) (-55)) : DItv))) : DItv) (ret <| numsDecToDecorated (f (-3) (0)) (f 0 0) (raw .defd) : DItv)),
    (614, decide (((ret <| decorationPart (if !(ret <| numsToDecorated (f (-5) (-1)) (f (3602879701896397) (-55)) : DItv).isValid || (ret <| numsToDecorated (f (-5) (-1)) (f (3602879701896397) (-55)) : DItv).isNai then DItv.nai else Fmt.convertHullD binary32 (Fmt.roundAwayD binary64 (Fmt.convertHullD binary64 (ret <| numsToDecorated (f (-5) (-1)) (f (3602879701896397) (-55)) : DItv))) : DItv)) : Dec) = .defd)),
    (619, Itv.eqOp (Fmt.absI (ret <| numsToInterval (f (2476979795053773) (-51)) (f (2476979795053773) (-50)) : Itv) : Itv) (ret <| numsToInterval (f (2476979795053773) (-51)) (f (2476979795053773) (-50)) : Itv)),
    (620, Itv.eqOp (Fmt.absI (ret <| numsToInterval (f (-4278419646001971) (-51)) (f (1) (-1)) : Itv) : Itv) (ret <| numsToInterval (f 0 0) (f (4278419646001971) (-51)) : Itv)),
    (621, Itv.eqOp (if !(ret <| numsToInterval (f (-3) (-1)) (f (2476979795053773) (-50)) : Itv).isValid then Itv.empty else Fmt.convertHull binary32 (Fmt.absI (Fmt.convertHull binary64 (ret <| numsToInterval (f (-3) (-1)) (f (2476979795053773) (-50)) : Itv))) : Itv) (ret <| Fmt.numsToIntervalMixed binary32 (f 0 0) (f (2476979795053773) (-50)) : Itv)),
    (623, DItv.eqOp (Fmt.absD (ret <| numsDecToDecorated (f (3) (-1)) (f (4278419646001971) (-51)) (raw .com) : DItv) : DItv) (ret <| numsDecToDecorated (f (3) (-1)) (f (4278419646001971) (-51)) (raw .com) : DItv)),
    (624, decide (((ret <| decorationPart (Fmt.absD (ret <| numsDecToDecorated (f (3) (-1)) (f (4278419646001971) (-51)) (raw .com) : DItv) : DItv)) : Dec) = .com)),
    (625, DItv.eqOp (Fmt.absD (ret <| numsDecToDecorated (f (-3602879701896397) (-55)) (f (4728779608739021) (-51)) (raw .dac) : DItv) : DItv) (ret <| numsDecToDecorated (f 0 0) (f (4728779608739021) (-51)) (raw .dac) : DItv)),
    (626, decide (((ret <| decorationPart (Fmt.absD (ret <| numsDecToDecorated (f (-3602879701896397) (-55)) (f (4728779608739021) (-51)) (raw .dac) : DItv) : DItv)) : Dec) = .dac)),
    (627, DItv.eqOp (if !(ret <| numsToDecorated (f (-5) (-1)) (f (3602879701896397) (-55)) : DItv).isValid || (ret <| numsToDecorated (f (-5) (-1)) (f (3602879701896397) (-55)) : DItv).isNai then DItv.nai else Fmt.convertHullD binary32 (Fmt.absD (Fmt.convertHullD binary64 (ret <| numsToDecorated (f (-5) (-1)) (f (3602879701896397) (-55)) : DItv))) : DItv) (ret <| numsDecToDecorated (f 0 0) (f (5) (-1)) (raw .com) : DItv)),
    (628, decide (((ret <| decorationPart (if !(ret <| numsToDecorated (f (-5) (-1)) (f (3602879701896397) (-55)) : DItv).isValid || (ret <| numsToDecorated (f (-5) (-1)) (f (3602879701896397) (-55)) : DItv).isNai then DItv.nai else Fmt.convertHullD binary32 (Fmt.absD (Fmt.convertHullD binary64 (ret <| numsToDecorated (f (-5) (-1)) (f (3602879701896397) (-55)) : DItv))) : DItv)) : Dec) = .com)),
    (633, Itv.eqOp (Fmt.minI (ret <| numsToInterval (f (2476979795053773) (-51)) (f (2476979795053773) (-50)) : Itv) (ret <| numsToInterval (f (4278419646001971) (-51)) (f 2 0) : Itv) : Itv) (ret <| numsToInterval (f (2476979795053773) (-51)) (f 2 0) : Itv)),
    (634, Itv.eqOp (Fmt.minI (ret <| numsToInterval (f (-4278419646001971) (-51)) (f (1) (-1)) : Itv) (ret <| numsToInterval (f (-6530219459687219) (-51)) (f 2 0) : Itv) : Itv) (ret <| numsToInterval (f (-6530219459687219) (-51)) (f (1) (-1)) : Itv)),
    (635, Itv.eqOp (if !(ret <| numsToInterval (f (-3) (-1)) (f (2476979795053773) (-50)) : Itv).isValid || !(ret <| numsToInterval (f (8106479329266893) (-53)) (f (4278419646001971) (-51)) : Itv).isValid then Itv.empty else Fmt.convertHull binary32 (Fmt.minI (Fmt.convertHull binary64 (ret <| numsToInterval (f (-3) (-1)) (f (2476979795053773) (-50)) : Itv)) (Fmt.convertHull binary64 (ret <| numsToInterval (f (8106479329266893) (-53)) (f (4278419646001971) (-51)) : Itv))) : Itv) (ret <| Fmt.numsToIntervalMixed binary32 (f (-3) (-1)) (f (4278419646001971) (-51)) : Itv)),
    (637, DItv.eqOp (Fmt.minD (ret <| numsDecToDecorated (f (3) (-1)) (f (4278419646001971) (-51)) (raw .com) : DItv) (ret <| numsDecToDecorated (f 1 0) (f (3321404725185741) (-49)) (raw .com) : DItv) : DItv) (ret <| numsDecToDecorated (f 1 0) (f (4278419646001971) (-51)) (raw .com) : DItv)),
    (638, decide (((ret <| decorationPart (Fmt.minD (ret <| numsDecToDecorated (f (3) (-1)) (f (4278419646001971) (-51)) (raw .com) : DItv) (ret <| numsDecToDecorated (f 1 0) (f (3321404725185741) (-49)) (raw .com) : DItv) : DItv)) : Dec) = .com)),
    (639, DItv.eqOp (Fmt.minD (ret <| numsDecToDecorated (f (-3602879701896397) (-55)) (f (4728779608739021) (-51)) (raw .dac) : DItv) (ret <| numsDecToDecorated (f 1 0) (f (3321404725185741) (-49)) (raw .com) : DItv) : DItv) (ret <| numsDecToDecorated (f (-3602879701896397) (-55)) (f (4728779608739021) (-51)) (raw .dac) : DItv)),
    (640, decide (((ret <| decorationPart (Fmt.minD (ret <| numsDecToDecorated (f (-3602879701896397) (-55)) (f (4728779608739021) (-51)) (raw .dac) : DItv) (ret <| numsDecToDecorated (f 1 0) (f (3321404725185741) (-49)) (raw .com) : DItv) : DItv)) : Dec) = .dac)),
    (641, DItv.eqOp (if !(ret <| numsToDecorated (f (-5) (-1)) (f (6980579422424269) (-51)) : DItv).isValid || (ret <| numsToDecorated (f (-5) (-1)) (f (6980579422424269) (-51)) : DItv).isNai || !(ret <| numsDecToDecorated (f 1 0) (f (3) (-1)) (raw .defd) : DItv).isValid || (ret <| numsDecToDecorated (f 1 0) (f (3) (-1)) (raw .defd) : DItv).isNai then DItv.nai else Fmt.convertHullD binary32 (Fmt.minD (Fmt.convertHullD binary64 (ret <| numsToDecorated (f (-5) (-1)) (f (6980579422424269) (-51)) : DItv)) (Fmt.convertHullD binary64 (ret <| numsDecToDecorated (f 1 0) (f (3) (-1)) (raw .defd) : DItv))) : DItv) (ret <| numsDecToDecorated (f (-5) (-1)) (f (3) (-1)) (raw .defd) : DItv)),
    (642, decide (((ret <| decorationPart (if !(ret <| numsToDecorated (f (-5) (-1)) (f (6980579422424269) (-51)) : DItv).isValid || (ret <| numsToDecorated (f (-5) (-1)) (f (6980579422424269) (-51)) : DItv).isNai || !(ret <| numsDecToDecorated (f 1 0) (f (3) (-1)) (raw .defd) : DItv).isValid || (ret <| numsDecToDecorated (f 1 0) (f (3) (-1)) (raw .defd) : DItv).isNai then DItv.nai else Fmt.convertHullD binary32 (Fmt.minD (Fmt.convertHullD binary64 (ret <| numsToDecorated (f (-5) (-1)) (f (6980579422424269) (-51)) : DItv)) (Fmt.convertHullD binary64 (ret <| numsDecToDecorated (f 1 0) (f (3) (-1)) (raw .defd) : DItv))) : DItv)) : Dec) = .defd)),
    (647, Itv.eqOp (Fmt.maxI (ret <| numsToInterval (f (2476979795053773) (-51)) (f (2476979795053773) (-50)) : Itv) (ret <| numsToInterval (f (4278419646001971) (-51)) (f 2 0) : Itv) : Itv) (ret <| numsToInterval (f (4278419646001971) (-51)) (f (2476979795053773) (-50)) : Itv)),
    (648, Itv.eqOp (Fmt.maxI (ret <| numsToInterval (f (-4278419646001971) (-51)) (f (1) (-1)) : Itv) (ret <| numsToInterval (f (-6530219459687219) (-51)) (f 2 0) : Itv) : Itv) (ret <| numsToInterval (f (-4278419646001971) (-51)) (f 2 0) : Itv)),
    (649, Itv.eqOp (if !(ret <| numsToInterval (f (-3) (-1)) (f (2476979795053773) (-50)) : Itv).isValid || !(ret <| numsToInterval (f (8106479329266893) (-53)) (f (4278419646001971) (-51)) : Itv).isValid then Itv.empty else Fmt.convertHull binary32 (Fmt.maxI (Fmt.convertHull binary64 (ret <| numsToInterval (f (-3) (-1)) (f (2476979795053773) (-50)) : Itv)) (Fmt.convertHull binary64 (ret <| numsToInterval (f (8106479329266893) (-53)) (f (4278419646001971) (-51)) : Itv))) : Itv) (ret <| Fmt.numsToIntervalMixed binary32 (f (8106479329266893) (-53)) (f (2476979795053773) (-50)) : Itv)),
    (651, DItv.eqOp (Fmt.maxD (ret <| numsDecToDecorated (f (3) (-1)) (f (4278419646001971) (-51)) (raw .com) : DItv) (ret <| numsDecToDecorated (f 1 0) (f (3321404725185741) (-49)) (raw .com) : DItv) : DItv) (ret <| numsDecToDecorated (f (3) (-1)) (f (3321404725185741) (-49)) (raw .com) : DItv)),
    (652, decide (((ret <| decorationPart (Fmt.maxD (ret <| numsDecToDecorated (f (3) (-1)) (f (4278419646001971) (-51)) (raw .com) : DItv) (ret <| numsDecToDecorated (f 1 0) (f (3321404725185741) (-49)) (raw .com) : DItv) : DItv)) : Dec) = .com)),
    (653, DItv.eqOp (Fmt.maxD (ret <| numsDecToDecorated (f (-3602879701896397) (-55)) (f (4728779608739021) (-51)) (raw .dac) : DItv) (ret <| numsDecToDecorated (f 1 0) (f (3321404725185741) (-49)) (raw .com) : DItv) : DItv) (ret <| numsDecToDecorated (f 1 0) (f (3321404725185741) (-49)) (raw .dac) : DItv)),
    (654, decide (((ret <| decorationPart (Fmt.maxD (ret <| numsDecToDecorated (f (-3602879701896397) (-55)) (f (4728779608739021) (-51)) (raw .dac) : DItv) (ret <| numsDecToDecorated (f 1 0) (f (3321404725185741) (-49)) (raw .com) : DItv) : DItv)) : Dec) = .dac)),
    (655, DItv.eqOp (if !(ret <| numsToDecorated (f (-5) (-1)) (f (7) (-1)) : DItv).isValid || (ret <| numsToDecorated (f (-5) (-1)) (f (7) (-1)) : DItv).isNai || !(ret <| numsDecToDecorated (f 1 0) (f (3) (-1)) (raw .defd) : DItv).isValid || (ret <| numsDecToDecorated (f 1 0) (f (3) (-1)) (raw .defd) : DItv).isNai then DItv.nai else Fmt.convertHullD binary32 (Fmt.maxD (Fmt.convertHullD binary64 (ret <| numsToDecorated (f (-5) (-1)) (f (7) (-1)) : DItv)) (Fmt.convertHullD binary64 (ret <| numsDecToDecorated (f 1 0) (f (3) (-1)) (raw .defd) : DItv))) : DItv) (ret <| numsDecToDecorated (f 1 0) (f (7) (-1)) (raw .defd) : DItv)),
    (656, decide (((ret <| decorationPart (if !(ret <| numsToDecorated (f (-5) (-1)) (f (7) (-1)) : DItv).isValid || (ret <| numsToDecorated (f (-5) (-1)) (f (7) (-1)) : DItv).isNai || !(ret <| numsDecToDecorated (f 1 0) (f (3) (-1)) (raw .defd) : DItv).isValid || (ret <| numsDecToDecorated (f 1 0) (f (3) (-1)) (raw .defd) : DItv).isNai then DItv.nai else Fmt.convertHullD binary32 (Fmt.maxD (Fmt.convertHullD binary64 (ret <| numsToDecorated (f (-5) (-1)) (f (7) (-1)) : DItv)) (Fmt.convertHullD binary64 (ret <| numsDecToDecorated (f 1 0) (f (3) (-1)) (raw .defd) : DItv))) : DItv)) : Dec) = .defd))] : List (ℕ × Bool)).all (·.2) = true := by
  decide +kernel

/-- `test_integration_mpfr_bin_ieee754_flavor_mul_rev_to_pair.cpp` -/
example : ([
    (45, Itv.eqOp ((Itv.mulRevToPair binary64 (ret <| numsToInterval (f (-2) (0)) (f (-3602879701896397) (-55)) : Itv) (ret <| numsToInterval (f (-4728779608739021) (-51)) (f (-3602879701896397) (-53)) : Itv)).1 : Itv) (ret <| numsToInterval (f (3602879701896397) (-54)) (f 21 0) : Itv)),
    (46, Itv.isEmpty ((Itv.mulRevToPair binary64 (ret <| numsToInterval (f (-2) (0)) (f (-3602879701896397) (-55)) : Itv) (ret <| numsToInterval (f (-4728779608739021) (-51)) (f (-3602879701896397) (-53)) : Itv)).2 : Itv)),
    (48, Itv.eqOp ((Itv.mulRevToPair binary64 (ret <| numsToInterval (f (-2) (0)) (f (2476979795053773) (-51)) : Itv) (ret <| numsToInterval (f (-4728779608739021) (-51)) (f (-3602879701896397) (-53)) : Itv)).1 : Itv) (ret <| numsToInterval .ninf (f (-6550690367084357) (-54)) : Itv)),
    (49, Itv.eqOp ((Itv.mulRevToPair binary64 (ret <| numsToInterval (f (-2) (0)) (f (2476979795053773) (-51)) : Itv) (ret <| numsToInterval (f (-4728779608739021) (-51)) (f (-3602879701896397) (-53)) : Itv)).2 : Itv) (ret <| numsToInterval (f (3602879701896397) (-54)) .pinf : Itv)),
    (51, Itv.eqOp ((Itv.mulRevToPairMixed .float .double .double (ret <| numsToInterval (f (-2) (0)) (f (-3602879701896397) (-55)) : Itv) (ret <| numsToInterval (f (-4728779608739021) (-51)) (f (-3602879701896397) (-53)) : Itv)).1 : Itv) (ret <| numsToInterval (f (3355443) (-24)) (f 21 0) : Itv)),
    (52, Itv.isEmpty ((Itv.mulRevToPairMixed .float .double .double (ret <| numsToInterval (f (-2) (0)) (f (-3602879701896397) (-55)) : Itv) (ret <| numsToInterval (f (-4728779608739021) (-51)) (f (-3602879701896397) (-53)) : Itv)).2 : Itv)),
    (55, DItv.eqOp ((DItv.mulRevToPair binary64 (ret <| numsDecToDecorated (f (-2) (0)) (f (-3602879701896397) (-55)) (raw .com) : DItv) (ret <| numsDecToDecorated (f (-4728779608739021) (-51)) (f (-3602879701896397) (-53)) (raw .com) : DItv)).1 : DItv) (ret <| numsDecToDecorated (f (3602879701896397) (-54)) (f 21 0) (raw .com) : DItv)),
    (56, decide (((ret <| decorationPart ((DItv.mulRevToPair binary64 (ret <| numsDecToDecorated (f (-2) (0)) (f (-3602879701896397) (-55)) (raw .com) : DItv) (ret <| numsDecToDecorated (f (-4728779608739021) (-51)) (f (-3602879701896397) (-53)) (raw .com) : DItv)).1 : DItv)) : Dec) = .com)),
    (57, DItv.pred Itv.isEmpty ((DItv.mulRevToPair binary64 (ret <| numsDecToDecorated (f (-2) (0)) (f (-3602879701896397) (-55)) (raw .com) : DItv) (ret <| numsDecToDecorated (f (-4728779608739021) (-51)) (f (-3602879701896397) (-53)) (raw .com) : DItv)).2 : DItv)),
    (59, DItv.eqOp ((DItv.mulRevToPair binary64 (ret <| numsDecToDecorated (f (-2) (0)) (f (2476979795053773) (-51)) (raw .com) : DItv) (ret <| numsDecToDecorated (f (-4728779608739021) (-51)) (f (-3602879701896397) (-53)) (raw .dac) : DItv)).1 : DItv) (ret <| numsDecToDecorated .ninf (f (-6550690367084357) (-54)) (raw .trv) : DItv)),
    (60, decide (((ret <| decorationPart ((DItv.mulRevToPair binary64 (ret <| numsDecToDecorated (f (-2) (0)) (f (2476979795053773) (-51)) (raw .com) : DItv) (ret <| numsDecToDecorated (f (-4728779608739021) (-51)) (f (-3602879701896397) (-53)) (raw .dac) : DItv)).1 : DItv)) : Dec) = .trv)),
    (61, DItv.eqOp ((DItv.mulRevToPair binary64 (ret <| numsDecToDecorated (f (-2) (0)) (f (2476979795053773) (-51)) (raw .com) : DItv) (ret <| numsDecToDecorated (f (-4728779608739021) (-51)) (f (-3602879701896397) (-53)) (raw .dac) : DItv)).2 : DItv) (ret <| numsDecToDecorated (f (3602879701896397) (-54)) .pinf (raw .trv) : DItv)),
    (62, decide (((ret <| decorationPart ((DItv.mulRevToPair binary64 (ret <| numsDecToDecorated (f (-2) (0)) (f (2476979795053773) (-51)) (raw .com) : DItv) (ret <| numsDecToDecorated (f (-4728779608739021) (-51)) (f (-3602879701896397) (-53)) (raw .dac) : DItv)).2 : DItv)) : Dec) = .trv)),
    (64, DItv.eqOp ((DItv.mulRevToPairMixed .float .double .double (ret <| numsDecToDecorated (f (-2) (0)) (f (-3602879701896397) (-55)) (raw .com) : DItv) (ret <| numsDecToDecorated (f (-4728779608739021) (-51)) (f (-3602879701896397) (-53)) (raw .defd) : DItv)).1 : DItv) (ret <| numsDecToDecorated (f (3355443) (-24)) (f 21 0) (raw .defd) : DItv)),
    (65, decide (((ret <| decorationPart ((DItv.mulRevToPairMixed .float .double .double (ret <| numsDecToDecorated (f (-2) (0)) (f (-3602879701896397) (-55)) (raw .com) : DItv) (ret <| numsDecToDecorated (f (-4728779608739021) (-51)) (f (-3602879701896397) (-53)) (raw .defd) : DItv)).1 : DItv)) : Dec) = .defd)),
    (66, DItv.pred Itv.isEmpty ((DItv.mulRevToPairMixed .float .double .double (ret <| numsDecToDecorated (f (-2) (0)) (f (-3602879701896397) (-55)) (raw .com) : DItv) (ret <| numsDecToDecorated (f (-4728779608739021) (-51)) (f (-3602879701896397) (-53)) (raw .defd) : DItv)).2 : DItv))] : List (ℕ × Bool)).all (·.2) = true := by
  decide +kernel

/-- `test_integration_mpfr_bin_ieee754_flavor_num.cpp` -/
example : ([
    (48, FP.feq (Itv.inf (ret <| numsToInterval (f (1) (-1074)) (f 2 0) : Itv)) (f (1) (-1074))),
    (49, FP.feq (Itv.inf (ret <| numsToInterval (f (1) (-1074)) (f 2 0) : Itv)) (f (1) (-1074))),
    (50, FP.feq (Itv.infMixed .float .double (ret <| numsToInterval (f (1) (-1074)) (f 2 0) : Itv)) (f 0 0)),
    (52, FP.feq (DItv.num (Itv.inf) (ret <| numsToDecorated (f (1) (-1074)) (f 2 0) : DItv)) (f (1) (-1074))),
    (53, FP.feq (DItv.num (Itv.inf) (ret <| numsToDecorated (f (1) (-1074)) (f 2 0) : DItv)) (f (1) (-1074))),
    (54, FP.feq (DItv.num (Itv.infMixed .float .double) (ret <| numsToDecorated (f (1) (-1074)) (f 2 0) : DItv)) (f 0 0)),
    (59, FP.feq (Itv.sup (ret <| numsToInterval (f 0 0) (f 9007199254740991 971) : Itv)) (f 9007199254740991 971)),
    (60, FP.feq (Itv.sup (ret <| numsToInterval (f 0 0) (f 9007199254740991 971) : Itv)) (f 9007199254740991 971)),
    (61, FP.feq (Itv.supMixed .float .double (ret <| numsToInterval (f 0 0) (f 9007199254740991 971) : Itv)) .pinf),
    (63, FP.feq (DItv.num (Itv.sup) (ret <| numsToDecorated (f 0 0) (f 9007199254740991 971) : DItv)) (f 9007199254740991 971)),
    (64, FP.feq (DItv.num (Itv.sup) (ret <| numsToDecorated (f 0 0) (f 9007199254740991 971) : DItv)) (f 9007199254740991 971)),
    (65, FP.feq (DItv.num (Itv.supMixed .float .double) (ret <| numsToDecorated (f 0 0) (f 9007199254740991 971) : DItv)) .pinf),
    (70, FP.feq (Itv.mid binary64 (ret <| numsToInterval (f 0 0) (f 2 0) : Itv)) (f 1 0)),
    (71, FP.feq (Itv.mid binary64 (ret <| numsToInterval (f 0 0) (f 2 0) : Itv)) (f 1 0)),
    (72, FP.feq (Itv.midMixed .float (ret <| numsToInterval (f (33554393) (-24)) (f (9007188785758209) (-52)) : Itv)) (f (16777197) (-23))),
    (74, FP.feq (DItv.num (Itv.mid binary64) (ret <| numsToDecorated (f 0 0) (f 2 0) : DItv)) (f 1 0)),
    (75, FP.feq (DItv.num (Itv.mid binary64) (ret <| numsToDecorated (f 0 0) (f 2 0) : DItv)) (f 1 0)),
    (76, FP.feq (DItv.num (Itv.midMixed .float) (ret <| numsToDecorated (f (33554393) (-24)) (f (9007188785758209) (-52)) : DItv)) (f (16777197) (-23))),
    (81, FP.feq (Itv.rad binary64 (ret <| numsToInterval (f 0 0) (f 2 0) : Itv)) (f 1 0)),
    (82, FP.feq (Itv.rad binary64 (ret <| numsToInterval (f 0 0) (f 2 0) : Itv)) (f 1 0)),
    (83, FP.feq (Itv.radMixed .float .double (ret <| numsToInterval (f 8388607 105) (f 33554431 103) : Itv)) (f 1048576 84)),
    (85, FP.feq (DItv.num (Itv.rad binary64) (ret <| numsToDecorated (f 0 0) (f 2 0) : DItv)) (f 1 0)),
    (86, FP.feq (DItv.num (Itv.rad binary64) (ret <| numsToDecorated (f 0 0) (f 2 0) : DItv)) (f 1 0)),
    (87, FP.feq (DItv.num (Itv.radMixed .float .double) (ret <| numsToDecorated (f 8388607 105) (f 33554431 103) : DItv)) (f 1048576 84)),
    (92, FP.feq ((Itv.midRad binary64 (ret <| numsToInterval (f 0 0) (f 2 0) : Itv)).1) (f 1 0)),
    (93, FP.feq ((Itv.midRad binary64 (ret <| numsToInterval (f 0 0) (f 2 0) : Itv)).2) (f 1 0)),
    (94, FP.feq ((Itv.midRad binary64 (ret <| numsToInterval (f 0 0) (f 2 0) : Itv)).1) (f 1 0)),
    (95, FP.feq ((Itv.midRad binary64 (ret <| numsToInterval (f 0 0) (f 2 0) : Itv)).2) (f 1 0)),
    (96, FP.feq ((Itv.midRadMixed .float .double (ret <| numsToInterval (f (33554393) (-24)) (f (9007188785758209) (-52)) : Itv)).1) (f (16777197) (-23))),
    (97, FP.feq ((Itv.midRadMixed .float .double (ret <| numsToInterval (f 8388607 105) (f 33554431 103) : Itv)).2) (f 1048576 84)),
    (99, FP.feq ((DItv.num2 (Itv.midRad binary64) (ret <| numsToDecorated (f 0 0) (f 2 0) : DItv)).1) (f 1 0)),
    (100, FP.feq ((DItv.num2 (Itv.midRad binary64) (ret <| numsToDecorated (f 0 0) (f 2 0) : DItv)).2) (f 1 0)),
    (101, FP.feq ((DItv.num2 (Itv.midRad binary64) (ret <| numsToDecorated (f 0 0) (f 2 0) : DItv)).1) (f 1 0)),
    (102, FP.feq ((DItv.num2 (Itv.midRad binary64) (ret <| numsToDecorated (f 0 0) (f 2 0) : DItv)).2) (f 1 0)),
    (103, FP.feq ((DItv.num2 (Itv.midRadMixed .float .double) (ret <| numsToDecorated (f (33554393) (-24)) (f (9007188785758209) (-52)) : DItv)).1) (f (16777197) (-23))),
    (104, FP.feq ((DItv.num2 (Itv.midRadMixed .float .double) (ret <| numsToDecorated (f 8388607 105) (f 33554431 103) : DItv)).2) (f 1048576 84)),
    (109, FP.feq (Itv.wid binary64 (ret <| numsToInterval (f 0 0) (f 2 0) : Itv)) (f 2 0)),
    (110, FP.feq (Itv.wid binary64 (ret <| numsToInterval (f 0 0) (f 2 0) : Itv)) (f 2 0)),
    (111, FP.feq (Itv.widMixed .float .double (ret <| numsToInterval (f (1) (-1022)) (f (4503599627370497) (-1074)) : Itv)) (f (1) (-149))),
    (113, FP.feq (DItv.num (Itv.wid binary64) (ret <| numsToDecorated (f 0 0) (f 2 0) : DItv)) (f 2 0)),
    (114, FP.feq (DItv.num (Itv.wid binary64) (ret <| numsToDecorated (f 0 0) (f 2 0) : DItv)) (f 2 0)),
    (115, FP.feq (DItv.num (Itv.widMixed .float .double) (ret <| numsToDecorated (f (1) (-1022)) (f (4503599627370497) (-1074)) : DItv)) (f (1) (-149))),
    (120, FP.feq (Itv.mag (ret <| numsToInterval (f 0 0) (f 2 0) : Itv)) (f 2 0)),
    (121, FP.feq (Itv.mag (ret <| numsToInterval (f 0 0) (f 2 0) : Itv)) (f 2 0)),
    (122, FP.feq (Itv.magMixed .float .double (ret <| numsToInterval (f (1) (-1022)) (f (4503599627370497) (-1074)) : Itv)) (f (1) (-149))),
    (124, FP.feq (DItv.num (Itv.mag) (ret <| numsToDecorated (f 0 0) (f 2 0) : DItv)) (f 2 0)),
    (125, FP.feq (DItv.num (Itv.mag) (ret <| numsToDecorated (f 0 0) (f 2 0) : DItv)) (f 2 0)),
    (126, FP.feq (DItv.num (Itv.magMixed .float .double) (ret <| numsToDecorated (f (1) (-1022)) (f (4503599627370497) (-1074)) : DItv)) (f (1) (-149))),
    (131, FP.feq (Itv.mig (ret <| numsToInterval (f 0 0) (f 2 0) : Itv)) (f 0 0)),
    (132, FP.feq (Itv.mig (ret <| numsToInterval (f 0 0) (f 2 0) : Itv)) (f 0 0))] : List (ℕ × Bool)).all (·.2) = true := by
  decide +kernel

/-- `test_integration_mpfr_bin_ieee754_flavor_num.cpp` -/
example : ([
    (133, FP.feq (Itv.migMixed .float .double (ret <| numsToInterval (f (1) (-1022)) (f (4503599627370497) (-1074)) : Itv)) (f 0 0)),
    (135, FP.feq (DItv.num (Itv.mig) (ret <| numsToDecorated (f 0 0) (f 2 0) : DItv)) (f 0 0)),
    (136, FP.feq (DItv.num (Itv.mig) (ret <| numsToDecorated (f 0 0) (f 2 0) : DItv)) (f 0 0)),
    (137, FP.feq (DItv.num (Itv.migMixed .float .double) (ret <| numsToDecorated (f (1) (-1022)) (f (4503599627370497) (-1074)) : DItv)) (f 0 0))] : List (ℕ × Bool)).all (·.2) = true := by
  decide +kernel

/-- `test_integration_mpfr_bin_ieee754_flavor_rec_bool.cpp` -/
example : ([
    (43, !Itv.isCommon (Itv.empty : Itv)),
    (44, Itv.isCommon (ret <| numsToInterval (f 1 0) (f 2 0) : Itv)),
    (45, !Itv.isCommon (Itv.entire : Itv)),
    (46, !Itv.isCommon (Itv.empty : Itv)),
    (47, Itv.isCommon (ret <| numsToInterval (f 1 0) (f 2 0) : Itv)),
    (48, !Itv.isCommon (Itv.entire : Itv)),
    (50, !DItv.pred Itv.isCommon (DItv.empty : DItv)),
    (51, !DItv.pred Itv.isCommon (DItv.nai : DItv)),
    (52, DItv.pred Itv.isCommon (ret <| numsToDecorated (f (-6417629469002957) (-50)) (f (2336242306698445) (-48)) : DItv)),
    (53, DItv.pred Itv.isCommon (ret <| numsDecToDecorated (f (-6417629469002957) (-50)) (f (2336242306698445) (-48)) (raw .com) : DItv)),
    (54, DItv.pred Itv.isCommon (ret <| numsDecToDecorated (f (-6417629469002957) (-50)) (f (2336242306698445) (-48)) (raw .dac) : DItv)),
    (55, !DItv.pred Itv.isCommon (DItv.entire : DItv)),
    (56, !DItv.pred Itv.isCommon (DItv.empty : DItv)),
    (57, !DItv.pred Itv.isCommon (DItv.nai : DItv)),
    (58, DItv.pred Itv.isCommon (ret <| numsToDecorated (f (-6417629469002957) (-50)) (f (2336242306698445) (-48)) : DItv)),
    (59, DItv.pred Itv.isCommon (ret <| numsDecToDecorated (f (-6417629469002957) (-50)) (f (2336242306698445) (-48)) (raw .com) : DItv)),
    (60, DItv.pred Itv.isCommon (ret <| numsDecToDecorated (f (-6417629469002957) (-50)) (f (2336242306698445) (-48)) (raw .dac) : DItv)),
    (61, !DItv.pred Itv.isCommon (DItv.entire : DItv)),
    (66, Itv.isSingleton (ret <| numsToInterval (f 1 0) (f 1 0) : Itv)),
    (67, Itv.isSingleton (ret <| numsToInterval (f 0 0) (f 0 0) : Itv)),
    (68, Itv.isSingleton (ret <| numsToInterval (f (-7) (0)) (f (-7) (0)) : Itv)),
    (69, !Itv.isSingleton (ret <| numsToInterval (f (-7) (0)) (f 7 0) : Itv)),
    (70, !Itv.isSingleton (Itv.empty : Itv)),
    (71, !Itv.isSingleton (Itv.entire : Itv)),
    (72, Itv.isSingleton (ret <| numsToInterval (f 1 0) (f 1 0) : Itv)),
    (73, Itv.isSingleton (ret <| numsToInterval (f 0 0) (f 0 0) : Itv)),
    (74, Itv.isSingleton (ret <| numsToInterval (f (-7) (0)) (f (-7) (0)) : Itv)),
    (75, !Itv.isSingleton (ret <| numsToInterval (f (-7) (0)) (f 7 0) : Itv)),
    (76, !Itv.isSingleton (Itv.empty : Itv)),
    (77, !Itv.isSingleton (Itv.entire : Itv)),
    (79, DItv.pred Itv.isSingleton (ret <| numsToDecorated (f 1 0) (f 1 0) : DItv)),
    (80, DItv.pred Itv.isSingleton (ret <| numsToDecorated (f 0 0) (f 0 0) : DItv)),
    (81, DItv.pred Itv.isSingleton (ret <| numsToDecorated (f (-7) (0)) (f (-7) (0)) : DItv)),
    (82, !DItv.pred Itv.isSingleton (ret <| numsToDecorated (f (-7) (0)) (f 7 0) : DItv)),
    (83, !DItv.pred Itv.isSingleton (DItv.empty : DItv)),
    (84, !DItv.pred Itv.isSingleton (DItv.nai : DItv)),
    (85, !DItv.pred Itv.isSingleton (DItv.entire : DItv)),
    (86, DItv.pred Itv.isSingleton (ret <| numsToDecorated (f 1 0) (f 1 0) : DItv)),
    (87, DItv.pred Itv.isSingleton (ret <| numsToDecorated (f 0 0) (f 0 0) : DItv)),
    (88, DItv.pred Itv.isSingleton (ret <| numsToDecorated (f (-7) (0)) (f (-7) (0)) : DItv)),
    (89, !DItv.pred Itv.isSingleton (ret <| numsToDecorated (f (-7) (0)) (f 7 0) : DItv)),
    (90, !DItv.pred Itv.isSingleton (DItv.empty : DItv)),
    (91, !DItv.pred Itv.isSingleton (DItv.nai : DItv)),
    (92, !DItv.pred Itv.isSingleton (DItv.entire : DItv)),
    (97, !Itv.isMember (f 7 0) (Itv.empty : Itv)),
    (98, !Itv.isMember (f 7 0) (Itv.empty : Itv)),
    (99, Itv.isMember (f 5 0) (Itv.entire : Itv)),
    (100, Itv.isMember (f 5 0) (Itv.entire : Itv)),
    (101, Itv.isMember (f 5 0) (ret <| numsToInterval (f (-8) (0)) (f (5685794529555251) (-49)) : Itv)),
    (102, Itv.isMember (f 5 0) (ret <| numsToInterval (f (-8) (0)) (f (5685794529555251) (-49)) : Itv))] : List (ℕ × Bool)).all (·.2) = true := by
  decide +kernel

/-- `test_integration_mpfr_bin_ieee754_flavor_rec_bool.cpp` -/
example : ([
    (103, !Itv.isMember (f 7 0) (Itv.empty : Itv)),
    (104, !Itv.isMember (f 7 0) (Itv.empty : Itv)),
    (105, Itv.isMember (f 5 0) (Itv.entire : Itv)),
    (106, Itv.isMember (f 5 0) (Itv.entire : Itv)),
    (107, Itv.isMember (f 5 0) (ret <| numsToInterval (f (-8) (0)) (f (5685794529555251) (-49)) : Itv)),
    (108, Itv.isMember (f 5 0) (ret <| numsToInterval (f (-8) (0)) (f (5685794529555251) (-49)) : Itv)),
    (110, !DItv.isMember (f 7 0) (DItv.empty : DItv)),
    (111, !DItv.isMember (f 7 0) (DItv.empty : DItv)),
    (112, !DItv.isMember (f 7 0) (DItv.nai : DItv)),
    (113, !DItv.isMember (f 7 0) (DItv.nai : DItv)),
    (114, DItv.isMember (f 5 0) (DItv.entire : DItv)),
    (115, DItv.isMember (f 5 0) (DItv.entire : DItv)),
    (116, DItv.isMember (f 5 0) (ret <| numsToDecorated (f (-8) (0)) (f (5685794529555251) (-49)) : DItv)),
    (117, DItv.isMember (f 5 0) (ret <| numsToDecorated (f (-8) (0)) (f (5685794529555251) (-49)) : DItv)),
    (118, !DItv.isMember (f 7 0) (DItv.empty : DItv)),
    (119, !DItv.isMember (f 7 0) (DItv.empty : DItv)),
    (120, !DItv.isMember (f 7 0) (DItv.nai : DItv)),
    (121, !DItv.isMember (f 7 0) (DItv.nai : DItv)),
    (122, DItv.isMember (f 5 0) (DItv.entire : DItv)),
    (123, DItv.isMember (f 5 0) (DItv.entire : DItv)),
    (124, DItv.isMember (f 5 0) (ret <| numsToDecorated (f (-8) (0)) (f (5685794529555251) (-49)) : DItv)),
    (125, DItv.isMember (f 5 0) (ret <| numsToDecorated (f (-8) (0)) (f (5685794529555251) (-49)) : DItv))] : List (ℕ × Bool)).all (·.2) = true := by
  decide +kernel

/-- `test_integration_mpfr_bin_ieee754_flavor_rec_overlap.cpp` -/
example : ([
    (46, decide (Itv.overlap (ret <| numsToInterval (f 1 0) (f 2 0) : Itv) (ret <| numsToInterval (f (3) (-1)) (f (5) (-1)) : Itv) = Overlap.overlaps)),
    (47, decide (Itv.overlap (ret <| numsToInterval (f 1 0) (f 2 0) : Itv) (ret <| numsToInterval (f 2 0) (f (5) (-1)) : Itv) = Overlap.meets)),
    (48, decide (Itv.overlap (ret <| numsToInterval (f 1 0) (f 2 0) : Itv) (ret <| numsToInterval (f (3) (-1)) (f (3) (-1)) : Itv) = Overlap.contains)),
    (49, decide (Itv.overlap (ret <| numsToInterval (f 1 0) (f 2 0) : Itv) (ret <| numsToInterval (f (5) (-1)) (f (5) (-1)) : Itv) = Overlap.before)),
    (52, decide (DItv.overlap (ret <| numsDecToDecorated (f 1 0) (f 2 0) (raw .trv) : DItv) (ret <| numsDecToDecorated (f (3) (-1)) (f (5) (-1)) (raw .defd) : DItv) = Overlap.overlaps)),
    (53, decide (DItv.overlap (ret <| numsDecToDecorated (f 1 0) (f 2 0) (raw .dac) : DItv) (ret <| numsDecToDecorated (f 2 0) (f (5) (-1)) (raw .com) : DItv) = Overlap.meets)),
    (54, decide (DItv.overlap (ret <| numsDecToDecorated (f 1 0) (f 2 0) (raw .defd) : DItv) (ret <| numsDecToDecorated (f (3) (-1)) (f (3) (-1)) (raw .trv) : DItv) = Overlap.contains)),
    (55, decide (DItv.overlap (ret <| numsDecToDecorated (f 1 0) (f 2 0) (raw .com) : DItv) (ret <| numsDecToDecorated (f (5) (-1)) (f (5) (-1)) (raw .defd) : DItv) = Overlap.before))] : List (ℕ × Bool)).all (·.2) = true := by
  decide +kernel

/-- `test_integration_mpfr_bin_ieee754_flavor_rev.cpp` -/
example : ([
    (76, Itv.eqOp (Itv.absRev (ret <| numsToInterval (f (-2476979795053773) (-51)) (f 2 0) : Itv) (Itv.entire : Itv) : Itv) (ret <| numsToInterval (f (-2) (0)) (f 2 0) : Itv)),
    (77, Itv.eqOp (Itv.absRev (ret <| numsToInterval (f (-3) (-1)) .pinf : Itv) (Itv.entire : Itv) : Itv) (ret <| numsToInterval .ninf .pinf : Itv)),
    (78, Itv.eqOp (Itv.revMixed (fun _ => Itv.absRev) .float .double .float (ret <| numsToInterval (f (-4278419646001971) (-51)) (f (3602879701896397) (-54)) : Itv) (Itv.entire : Itv) : Itv) (ret <| numsToInterval (f (-13421773) (-26)) (f (13421773) (-26)) : Itv)),
    (80, Itv.eqOp (Itv.absRev (ret <| numsToInterval (f (-2476979795053773) (-51)) (f 2 0) : Itv) (ret <| numsToInterval (f (-2476979795053773) (-51)) (f 5 0) : Itv) : Itv) (ret <| numsToInterval (f (-2476979795053773) (-51)) (f 2 0) : Itv)),
    (81, Itv.eqOp (Itv.absRev (ret <| numsToInterval (f (-4278419646001971) (-51)) (f (3602879701896397) (-54)) : Itv) (ret <| numsToInterval (f (-2476979795053773) (-51)) (f 5 0) : Itv) : Itv) (ret <| numsToInterval (f (-3602879701896397) (-54)) (f (3602879701896397) (-54)) : Itv)),
    (82, Itv.eqOp (Itv.revMixed (fun _ => Itv.absRev) .float .double .double (ret <| numsToInterval (f (-2476979795053773) (-51)) (f 0 0) : Itv) (ret <| numsToInterval (f (-2476979795053773) (-51)) (f 5 0) : Itv) : Itv) (ret <| numsToInterval (f 0 0) (f 0 0) : Itv)),
    (84, DItv.eqOp (DItv.rev Itv.absRev (ret <| numsDecToDecorated (f (-2476979795053773) (-51)) (f 2 0) (raw .defd) : DItv) (DItv.entire : DItv) : DItv) (ret <| numsDecToDecorated (f (-2) (0)) (f 2 0) (raw .trv) : DItv)),
    (85, decide (((ret <| decorationPart (DItv.rev Itv.absRev (ret <| numsDecToDecorated (f (-2476979795053773) (-51)) (f 2 0) (raw .defd) : DItv) (DItv.entire : DItv) : DItv)) : Dec) = .trv)),
    (86, DItv.eqOp (DItv.rev Itv.absRev (ret <| numsDecToDecorated (f (-4278419646001971) (-51)) (f (3602879701896397) (-54)) (raw .com) : DItv) (DItv.entire : DItv) : DItv) (ret <| numsDecToDecorated (f (-3602879701896397) (-54)) (f (3602879701896397) (-54)) (raw .trv) : DItv)),
    (87, decide (((ret <| decorationPart (DItv.rev Itv.absRev (ret <| numsDecToDecorated (f (-4278419646001971) (-51)) (f (3602879701896397) (-54)) (raw .com) : DItv) (DItv.entire : DItv) : DItv)) : Dec) = .trv)),
    (88, DItv.eqOp (DItv.revMixed (fun _ => Itv.absRev) .float .double .float (ret <| numsDecToDecorated (f 0 0) (f (3602879701896397) (-54)) (raw .com) : DItv) (DItv.entire : DItv) : DItv) (ret <| numsDecToDecorated (f (-13421773) (-26)) (f (13421773) (-26)) (raw .trv) : DItv)),
    (89, decide (((ret <| decorationPart (DItv.revMixed (fun _ => Itv.absRev) .float .double .float (ret <| numsDecToDecorated (f 0 0) (f (3602879701896397) (-54)) (raw .com) : DItv) (DItv.entire : DItv) : DItv)) : Dec) = .trv)),
    (91, DItv.eqOp (DItv.rev Itv.absRev (ret <| numsDecToDecorated (f (2476979795053773) (-51)) (f (4728779608739021) (-51)) (raw .dac) : DItv) (ret <| numsDecToDecorated (f (-1) (0)) (f 5 0) (raw .defd) : DItv) : DItv) (ret <| numsDecToDecorated (f (2476979795053773) (-51)) (f (4728779608739021) (-51)) (raw .trv) : DItv)),
    (92, decide (((ret <| decorationPart (DItv.rev Itv.absRev (ret <| numsDecToDecorated (f (2476979795053773) (-51)) (f (4728779608739021) (-51)) (raw .dac) : DItv) (ret <| numsDecToDecorated (f (-1) (0)) (f 5 0) (raw .defd) : DItv) : DItv)) : Dec) = .trv)),
    (93, DItv.eqOp (DItv.rev Itv.absRev (ret <| numsDecToDecorated (f (-2476979795053773) (-51)) (f 0 0) (raw .defd) : DItv) (ret <| numsDecToDecorated (f (-2476979795053773) (-51)) (f 5 0) (raw .defd) : DItv) : DItv) (ret <| numsDecToDecorated (f 0 0) (f 0 0) (raw .trv) : DItv)),
    (94, decide (((ret <| decorationPart (DItv.rev Itv.absRev (ret <| numsDecToDecorated (f (-2476979795053773) (-51)) (f 0 0) (raw .defd) : DItv) (ret <| numsDecToDecorated (f (-2476979795053773) (-51)) (f 5 0) (raw .defd) : DItv) : DItv)) : Dec) = .trv)),
    (95, DItv.eqOp (DItv.revMixed (fun _ => Itv.absRev) .float .double .double (ret <| numsDecToDecorated (f (-2476979795053773) (-51)) (f 0 0) (raw .com) : DItv) (ret <| numsDecToDecorated (f (-2476979795053773) (-51)) (f 5 0) (raw .dac) : DItv) : DItv) (ret <| numsDecToDecorated (f 0 0) (f 0 0) (raw .trv) : DItv)),
    (96, decide (((ret <| decorationPart (DItv.revMixed (fun _ => Itv.absRev) .float .double .double (ret <| numsDecToDecorated (f (-2476979795053773) (-51)) (f 0 0) (raw .com) : DItv) (ret <| numsDecToDecorated (f (-2476979795053773) (-51)) (f 5 0) (raw .dac) : DItv) : DItv)) : Dec) = .trv)),
    (227, Itv.eqOp (Itv.mulRev2 binary64 (ret <| numsToInterval (f (5764607523034235) (-59)) (f (2476979795053773) (-51)) : Itv) (ret <| numsToInterval (f (-4728779608739021) (-51)) (f 0 0) : Itv) : Itv) (ret <| numsToInterval (f (-7388718138654721) (-45)) (f 0 0) : Itv)),
    (228, Itv.eqOp (Itv.mulRev2 binary64 (ret <| numsToInterval (f (-2) (0)) (f (-3602879701896397) (-55)) : Itv) (ret <| numsToInterval (f (5764607523034235) (-59)) (f (1080863910568919) (-53)) : Itv) : Itv) (ret <| numsToInterval (f (-5404319552844595) (-52)) (f (-5764607523034235) (-60)) : Itv)),
    (229, Itv.eqOp (Itv.mulRev2Mixed .float .double .double (ret <| numsToInterval (f (-2) (0)) (f (-3602879701896397) (-55)) : Itv) (ret <| numsToInterval (f (-4728779608739021) (-51)) (f (-3602879701896397) (-53)) : Itv) : Itv) (ret <| numsToInterval (f (3355443) (-24)) (f 21 0) : Itv)),
    (231, Itv.eqOp (Itv.mulRev binary64 (ret <| numsToInterval (f (-2) (0)) (f (-3602879701896397) (-55)) : Itv) (ret <| numsToInterval (f (-4728779608739021) (-51)) (f (-3602879701896397) (-53)) : Itv) (ret <| numsToInterval (f (3602879701896397) (-55)) (f 15 0) : Itv) : Itv) (ret <| numsToInterval (f (3602879701896397) (-54)) (f 15 0) : Itv)),
    (232, Itv.eqOp (Itv.mulRev binary64 (ret <| numsToInterval (f (-2) (0)) (f (2476979795053773) (-51)) : Itv) (ret <| numsToInterval (f (5764607523034235) (-57)) .pinf : Itv) (ret <| numsToInterval (f 0 0) .pinf : Itv) : Itv) (ret <| numsToInterval (f (5240552293667485) (-57)) .pinf : Itv)),
    (233, Itv.eqOp (Itv.mulRevMixed .float .double .double .double (ret <| numsToInterval (f (-2) (0)) (f (-3602879701896397) (-55)) : Itv) (ret <| numsToInterval (f (-4728779608739021) (-51)) (f (-3602879701896397) (-53)) : Itv) (ret <| numsToInterval (f (3602879701896397) (-55)) (f 15 0) : Itv) : Itv) (ret <| numsToInterval (f (3355443) (-24)) (f 15 0) : Itv)),
    (235, DItv.eqOp (DItv.mulRev2 binary64 (ret <| numsDecToDecorated (f (-2) (0)) (f (-3602879701896397) (-55)) (raw .dac) : DItv) (ret <| numsDecToDecorated (f (-4728779608739021) (-51)) (f (-3602879701896397) (-53)) (raw .dac) : DItv) : DItv) (ret <| numsDecToDecorated (f (3602879701896397) (-54)) (f 21 0) (raw .trv) : DItv)),
    (236, decide (((ret <| decorationPart (DItv.mulRev2 binary64 (ret <| numsDecToDecorated (f (-2) (0)) (f (-3602879701896397) (-55)) (raw .dac) : DItv) (ret <| numsDecToDecorated (f (-4728779608739021) (-51)) (f (-3602879701896397) (-53)) (raw .dac) : DItv) : DItv)) : Dec) = .trv)),
    (237, DItv.eqOp (DItv.mulRev2 binary64 (ret <| numsDecToDecorated (f (-2) (0)) (f (-3602879701896397) (-55)) (raw .com) : DItv) (ret <| numsDecToDecorated (f (-4728779608739021) (-51)) (f (1080863910568919) (-53)) (raw .dac) : DItv) : DItv) (ret <| numsDecToDecorated (f (-5404319552844595) (-52)) (f 21 0) (raw .trv) : DItv)),
    (238, decide (((ret <| decorationPart (DItv.mulRev2 binary64 (ret <| numsDecToDecorated (f (-2) (0)) (f (-3602879701896397) (-55)) (raw .com) : DItv) (ret <| numsDecToDecorated (f (-4728779608739021) (-51)) (f (1080863910568919) (-53)) (raw .dac) : DItv) : DItv)) : Dec) = .trv)),
    (239, DItv.eqOp (DItv.mulRev2Mixed .float .double .double (ret <| numsDecToDecorated (f (-2) (0)) (f (-3602879701896397) (-55)) (raw .dac) : DItv) (ret <| numsDecToDecorated (f (-4728779608739021) (-51)) (f (-3602879701896397) (-53)) (raw .dac) : DItv) : DItv) (ret <| numsDecToDecorated (f (3355443) (-24)) (f 21 0) (raw .trv) : DItv)),
    (240, decide (((ret <| decorationPart (DItv.mulRev2Mixed .float .double .double (ret <| numsDecToDecorated (f (-2) (0)) (f (-3602879701896397) (-55)) (raw .dac) : DItv) (ret <| numsDecToDecorated (f (-4728779608739021) (-51)) (f (-3602879701896397) (-53)) (raw .dac) : DItv) : DItv)) : Dec) = .trv)),
    (242, DItv.eqOp (DItv.mulRev binary64 (ret <| numsDecToDecorated (f (-2) (0)) (f (-3602879701896397) (-55)) (raw .dac) : DItv) (ret <| numsDecToDecorated (f (-4728779608739021) (-51)) (f (-3602879701896397) (-53)) (raw .dac) : DItv) (ret <| numsDecToDecorated (f (3602879701896397) (-55)) (f 15 0) (raw .dac) : DItv) : DItv) (ret <| numsDecToDecorated (f (3602879701896397) (-54)) (f 15 0) (raw .trv) : DItv)),
    (243, decide (((ret <| decorationPart (DItv.mulRev binary64 (ret <| numsDecToDecorated (f (-2) (0)) (f (-3602879701896397) (-55)) (raw .dac) : DItv) (ret <| numsDecToDecorated (f (-4728779608739021) (-51)) (f (-3602879701896397) (-53)) (raw .dac) : DItv) (ret <| numsDecToDecorated (f (3602879701896397) (-55)) (f 15 0) (raw .dac) : DItv) : DItv)) : Dec) = .trv)),
    (244, DItv.eqOp (DItv.mulRev binary64 (ret <| numsDecToDecorated (f (5764607523034235) (-59)) (f (2476979795053773) (-51)) (raw .com) : DItv) (ret <| numsDecToDecorated (f (-4728779608739021) (-51)) (f 0 0) (raw .dac) : DItv) (ret <| numsDecToDecorated (f (-22) (0)) (f (-1) (0)) (raw .dac) : DItv) : DItv) (ret <| numsDecToDecorated (f (-22) (0)) (f (-1) (0)) (raw .trv) : DItv)),
    (245, decide (((ret <| decorationPart (DItv.mulRev binary64 (ret <| numsDecToDecorated (f (5764607523034235) (-59)) (f (2476979795053773) (-51)) (raw .com) : DItv) (ret <| numsDecToDecorated (f (-4728779608739021) (-51)) (f 0 0) (raw .dac) : DItv) (ret <| numsDecToDecorated (f (-22) (0)) (f (-1) (0)) (raw .dac) : DItv) : DItv)) : Dec) = .trv)),
    (246, DItv.eqOp (DItv.mulRevMixed .float .double .double .double (ret <| numsDecToDecorated (f (-2) (0)) (f (-3602879701896397) (-55)) (raw .defd) : DItv) (ret <| numsDecToDecorated (f (-4728779608739021) (-51)) (f (-3602879701896397) (-53)) (raw .defd) : DItv) (ret <| numsDecToDecorated (f (3602879701896397) (-55)) (f 15 0) (raw .defd) : DItv) : DItv) (ret <| numsDecToDecorated (f (3355443) (-24)) (f 15 0) (raw .trv) : DItv)),
    (247, decide (((ret <| decorationPart (DItv.mulRevMixed .float .double .double .double (ret <| numsDecToDecorated (f (-2) (0)) (f (-3602879701896397) (-55)) (raw .defd) : DItv) (ret <| numsDecToDecorated (f (-4728779608739021) (-51)) (f (-3602879701896397) (-53)) (raw .defd) : DItv) (ret <| numsDecToDecorated (f (3602879701896397) (-55)) (f 15 0) (raw .defd) : DItv) : DItv)) : Dec) = .trv))] : List (ℕ × Bool)).all (·.2) = true := by
  decide +kernel

/-- `test_integration_mpfr_bin_ieee754_flavor_set_op.cpp` -/
example : ([
    (43, Itv.eqOp (Itv.inter (ret <| numsToInterval (f 1 0) (f 3 0) : Itv) (ret <| numsToInterval (f (4728779608739021) (-51)) (f 4 0) : Itv) : Itv) (ret <| numsToInterval (f (4728779608739021) (-51)) (f 3 0) : Itv)),
    (44, Itv.eqOp (Itv.inter (ret <| numsToInterval (f 1 0) (f 3 0) : Itv) (ret <| numsToInterval (f 3 0) (f 4 0) : Itv) : Itv) (ret <| numsToInterval (f 3 0) (f 3 0) : Itv)),
    (45, Itv.eqOp (Itv.interMixed .double .float .longDouble (ret <| numsToInterval (f 1 0) (f 3 0) : Itv) (Itv.empty : Itv) : Itv) (Itv.empty : Itv)),
    (47, DItv.eqOp (DItv.inter (ret <| numsToDecorated (f 1 0) (f 3 0) : DItv) (ret <| numsToDecorated (f (4728779608739021) (-51)) (f 4 0) : DItv) : DItv) (ret <| numsDecToDecorated (f (4728779608739021) (-51)) (f 3 0) (raw .trv) : DItv)),
    (48, DItv.eqOp (DItv.inter (ret <| numsToDecorated (f 1 0) (f 3 0) : DItv) (ret <| numsToDecorated (f 3 0) (f 4 0) : DItv) : DItv) (ret <| numsDecToDecorated (f 3 0) (f 3 0) (raw .trv) : DItv)),
    (49, DItv.eqOp (DItv.interMixed .double .float .longDouble (ret <| numsToDecorated (f 1 0) (f 3 0) : DItv) (DItv.empty : DItv) : DItv) (DItv.empty : DItv)),
    (54, Itv.eqOp (Itv.hull (ret <| numsToInterval (f 1 0) (f 3 0) : Itv) (ret <| numsToInterval (f (4728779608739021) (-51)) (f 4 0) : Itv) : Itv) (ret <| numsToInterval (f 1 0) (f 4 0) : Itv)),
    (55, Itv.eqOp (Itv.hull (ret <| numsToInterval (f 1 0) (f 3 0) : Itv) (ret <| numsToInterval (f 3 0) (f 4 0) : Itv) : Itv) (ret <| numsToInterval (f 1 0) (f 4 0) : Itv)),
    (56, Itv.eqOp (Itv.hullMixed .double .float .longDouble (ret <| numsToInterval (f 1 0) (f 3 0) : Itv) (Itv.empty : Itv) : Itv) (ret <| numsToInterval (f 1 0) (f 3 0) : Itv)),
    (58, DItv.eqOp (DItv.hull (ret <| numsToDecorated (f 1 0) (f 3 0) : DItv) (ret <| numsToDecorated (f (4728779608739021) (-51)) (f 4 0) : DItv) : DItv) (ret <| numsDecToDecorated (f 1 0) (f 4 0) (raw .trv) : DItv)),
    (59, DItv.eqOp (DItv.hull (ret <| numsToDecorated (f 1 0) (f 3 0) : DItv) (ret <| numsToDecorated (f 3 0) (f 4 0) : DItv) : DItv) (ret <| numsDecToDecorated (f 1 0) (f 4 0) (raw .trv) : DItv)),
    (60, DItv.eqOp (DItv.hullMixed .double .float .longDouble (ret <| numsToDecorated (f 1 0) (f 3 0) : DItv) (DItv.empty : DItv) : DItv) (ret <| numsDecToDecorated (f 1 0) (f 3 0) (raw .trv) : DItv))] : List (ℕ × Bool)).all (·.2) = true := by
  decide +kernel

/-- `test_integration_mpfr_bin_ieee754_flavor_io.cpp`, output -/
example : (checkOut {} [
    ([.putItv (Itv.empty)],
      "[empty]"),
    ([.putItv (Itv.entire)],
      "[entire]"),
    ([.putItv (ret <| Fmt.numsToIntervalMixed binary32 (f 1 0) (f (4728779608739021) (-51)))],
      "[1,2.10001]"),
    ([.putItv (ret <| numsToInterval (f 0 0) .nzero)],
      "[-0,0]"),
    ([.putDItv (DItv.nai)],
      "[nai]"),
    ([.putDItv (DItv.empty)],
      "[empty]"),
    ([.putDItv (DItv.entire)],
      "[entire]_dac"),
    ([.putDItv (ret <| numsToDecorated (f 1 0) (f (4728779608739021) (-51)))],
      "[1,2.10001]_com"),
    ([.form .uncertain, .putItv (Itv.entire)],
      "0.000000??"),
    ([.putDItv (DItv.entire)],
      "0.000000??_dac")]).all id = true := by
  decide +kernel

/-- `test_integration_mpfr_bin_ieee754_flavor_io.cpp`, input -/
example : [
    checkInB "[empty]" Itv.default (fun x ok => Itv.isEmpty x && ok),
    checkInB "[entire]" Itv.default (fun x ok => Itv.isEntire x && ok),
    checkInB "[1,2.1]" Itv.default (fun x ok => Itv.eqOp x (ret <| numsToInterval (f 1 0) (f (4728779608739021) (-51))) && ok),
    checkInB "0.000000??" Itv.default (fun x ok => Itv.isEntire x && ok),
    checkIn "[nai]" DItv.default (fun x ok => DItv.isNai x && ok),
    checkIn "[empty]" DItv.default (fun x ok => DItv.pred Itv.isEmpty x && ok),
    checkIn "[entire]_def" DItv.default (fun x ok => DItv.eqOp x (ret <| numsDecToDecorated .ninf .pinf (raw .defd)) && ok),
    checkIn "[1,2.1]_trv" DItv.default (fun x ok => DItv.eqOp x (ret <| numsDecToDecorated (f 1 0) (f (4728779608739021) (-51)) (raw .trv)) && ok),
    checkIn "0.000000??" DItv.default (fun x ok => DItv.eqOp x (ret <| numsDecToDecorated .ninf .pinf (raw .dac)) && ok)].all id = true := by
  decide +kernel

end P1788.Conform
