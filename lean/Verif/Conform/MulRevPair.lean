import Verif.Conform.Basic

/-!
# Conformance: mul_rev_to_pair_func

Generated from `/repo/test/p1788/flavor/infsup/setbased/test_mpfr_bin_ieee754_flavor_mul_rev_to_pair_func.cpp`: the assertions of the project's own test suite, evaluated in the
model by the kernel.  Each entry is (line in that file, value of the assertion).  These are tests of the model, not proofs of
properties.
-/

set_option maxRecDepth 100000

namespace P1788.Conform

example : ([
    (57, Itv.isEmpty ((Itv.mulRevToPair binary64 (Itv.empty : Itv) (⟨(f 1 0), (f 2 0)⟩ : Itv)).1 : Itv)),
    (58, Itv.isEmpty ((Itv.mulRevToPair binary64 (Itv.empty : Itv) (⟨(f 1 0), (f 2 0)⟩ : Itv)).2 : Itv)),
    (59, Itv.isEmpty ((Itv.mulRevToPair binary64 (⟨(f 1 0), (f 2 0)⟩ : Itv) (Itv.empty : Itv)).1 : Itv)),
    (60, Itv.isEmpty ((Itv.mulRevToPair binary64 (⟨(f 1 0), (f 2 0)⟩ : Itv) (Itv.empty : Itv)).2 : Itv)),
    (61, Itv.isEmpty ((Itv.mulRevToPair binary64 (Itv.empty : Itv) (Itv.empty : Itv)).1 : Itv)),
    (62, Itv.isEmpty ((Itv.mulRevToPair binary64 (Itv.empty : Itv) (Itv.empty : Itv)).2 : Itv)),
    (65, eqB ((Itv.mulRevToPair binary64 (⟨(f (-2) (0)), (f (-3602879701896397) (-55))⟩ : Itv) (⟨(f (-4728779608739021) (-51)), (f (-3602879701896397) (-53))⟩ : Itv)).1) (⟨(f (3602879701896397) (-54)), (f 21 0)⟩)),
    (66, Itv.isEmpty ((Itv.mulRevToPair binary64 (⟨(f (-2) (0)), (f (-3602879701896397) (-55))⟩ : Itv) (⟨(f (-4728779608739021) (-51)), (f (-3602879701896397) (-53))⟩ : Itv)).2 : Itv)),
    (67, eqB ((Itv.mulRevToPair binary64 (⟨(f (-2) (0)), (f 0 0)⟩ : Itv) (⟨(f (-4728779608739021) (-51)), (f (-3602879701896397) (-53))⟩ : Itv)).1) (⟨(f (3602879701896397) (-54)), .pinf⟩)),
    (68, Itv.isEmpty ((Itv.mulRevToPair binary64 (⟨(f (-2) (0)), (f 0 0)⟩ : Itv) (⟨(f (-4728779608739021) (-51)), (f (-3602879701896397) (-53))⟩ : Itv)).2 : Itv)),
    (69, eqB ((Itv.mulRevToPair binary64 (⟨(f (-2) (0)), (f (2476979795053773) (-51))⟩ : Itv) (⟨(f (-4728779608739021) (-51)), (f (-3602879701896397) (-53))⟩ : Itv)).1) (⟨.ninf, (f (-6550690367084357) (-54))⟩)),
    (70, eqB ((Itv.mulRevToPair binary64 (⟨(f (-2) (0)), (f (2476979795053773) (-51))⟩ : Itv) (⟨(f (-4728779608739021) (-51)), (f (-3602879701896397) (-53))⟩ : Itv)).2) (⟨(f (3602879701896397) (-54)), .pinf⟩)),
    (71, eqB ((Itv.mulRevToPair binary64 (⟨(f 0 0), (f (2476979795053773) (-51))⟩ : Itv) (⟨(f (-4728779608739021) (-51)), (f (-3602879701896397) (-53))⟩ : Itv)).1) (⟨.ninf, (f (-6550690367084357) (-54))⟩)),
    (72, Itv.isEmpty ((Itv.mulRevToPair binary64 (⟨(f 0 0), (f (2476979795053773) (-51))⟩ : Itv) (⟨(f (-4728779608739021) (-51)), (f (-3602879701896397) (-53))⟩ : Itv)).2 : Itv)),
    (73, eqB ((Itv.mulRevToPair binary64 (⟨(f (5764607523034235) (-59)), (f (2476979795053773) (-51))⟩ : Itv) (⟨(f (-4728779608739021) (-51)), (f (-3602879701896397) (-53))⟩ : Itv)).1) (⟨(f (-7388718138654721) (-45)), (f (-6550690367084357) (-54))⟩)),
    (74, Itv.isEmpty ((Itv.mulRevToPair binary64 (⟨(f (5764607523034235) (-59)), (f (2476979795053773) (-51))⟩ : Itv) (⟨(f (-4728779608739021) (-51)), (f (-3602879701896397) (-53))⟩ : Itv)).2 : Itv)),
    (75, Itv.isEmpty ((Itv.mulRevToPair binary64 (⟨(f 0 0), (f 0 0)⟩ : Itv) (⟨(f (-4728779608739021) (-51)), (f (-3602879701896397) (-53))⟩ : Itv)).1 : Itv)),
    (76, Itv.isEmpty ((Itv.mulRevToPair binary64 (⟨(f 0 0), (f 0 0)⟩ : Itv) (⟨(f (-4728779608739021) (-51)), (f (-3602879701896397) (-53))⟩ : Itv)).2 : Itv)),
    (77, eqB ((Itv.mulRevToPair binary64 (⟨.ninf, (f (-3602879701896397) (-55))⟩ : Itv) (⟨(f (-4728779608739021) (-51)), (f (-3602879701896397) (-53))⟩ : Itv)).1) (⟨(f 0 0), (f 21 0)⟩)),
    (78, Itv.isEmpty ((Itv.mulRevToPair binary64 (⟨.ninf, (f (-3602879701896397) (-55))⟩ : Itv) (⟨(f (-4728779608739021) (-51)), (f (-3602879701896397) (-53))⟩ : Itv)).2 : Itv)),
    (79, eqB ((Itv.mulRevToPair binary64 (⟨.ninf, (f 0 0)⟩ : Itv) (⟨(f (-4728779608739021) (-51)), (f (-3602879701896397) (-53))⟩ : Itv)).1) (⟨(f 0 0), .pinf⟩)),
    (80, Itv.isEmpty ((Itv.mulRevToPair binary64 (⟨.ninf, (f 0 0)⟩ : Itv) (⟨(f (-4728779608739021) (-51)), (f (-3602879701896397) (-53))⟩ : Itv)).2 : Itv)),
    (81, eqB ((Itv.mulRevToPair binary64 (⟨.ninf, (f (2476979795053773) (-51))⟩ : Itv) (⟨(f (-4728779608739021) (-51)), (f (-3602879701896397) (-53))⟩ : Itv)).1) (⟨.ninf, (f (-6550690367084357) (-54))⟩)),
    (82, eqB ((Itv.mulRevToPair binary64 (⟨.ninf, (f (2476979795053773) (-51))⟩ : Itv) (⟨(f (-4728779608739021) (-51)), (f (-3602879701896397) (-53))⟩ : Itv)).2) (⟨(f 0 0), .pinf⟩)),
    (83, eqB ((Itv.mulRevToPair binary64 (⟨(f (-2) (0)), .pinf⟩ : Itv) (⟨(f (-4728779608739021) (-51)), (f (-3602879701896397) (-53))⟩ : Itv)).1) (⟨.ninf, (f 0 0)⟩)),
    (84, eqB ((Itv.mulRevToPair binary64 (⟨(f (-2) (0)), .pinf⟩ : Itv) (⟨(f (-4728779608739021) (-51)), (f (-3602879701896397) (-53))⟩ : Itv)).2) (⟨(f (3602879701896397) (-54)), .pinf⟩)),
    (85, eqB ((Itv.mulRevToPair binary64 (⟨(f 0 0), .pinf⟩ : Itv) (⟨(f (-4728779608739021) (-51)), (f (-3602879701896397) (-53))⟩ : Itv)).1) (⟨.ninf, (f 0 0)⟩)),
    (86, Itv.isEmpty ((Itv.mulRevToPair binary64 (⟨(f 0 0), .pinf⟩ : Itv) (⟨(f (-4728779608739021) (-51)), (f (-3602879701896397) (-53))⟩ : Itv)).2 : Itv)),
    (87, eqB ((Itv.mulRevToPair binary64 (⟨(f (5764607523034235) (-59)), .pinf⟩ : Itv) (⟨(f (-4728779608739021) (-51)), (f (-3602879701896397) (-53))⟩ : Itv)).1) (⟨(f (-7388718138654721) (-45)), (f 0 0)⟩)),
    (88, Itv.isEmpty ((Itv.mulRevToPair binary64 (⟨(f (5764607523034235) (-59)), .pinf⟩ : Itv) (⟨(f (-4728779608739021) (-51)), (f (-3602879701896397) (-53))⟩ : Itv)).2 : Itv)),
    (89, eqB ((Itv.mulRevToPair binary64 (⟨.ninf, .pinf⟩ : Itv) (⟨(f (-4728779608739021) (-51)), (f (-3602879701896397) (-53))⟩ : Itv)).1) (⟨.ninf, (f 0 0)⟩)),
    (90, eqB ((Itv.mulRevToPair binary64 (⟨.ninf, .pinf⟩ : Itv) (⟨(f (-4728779608739021) (-51)), (f (-3602879701896397) (-53))⟩ : Itv)).2) (⟨(f 0 0), .pinf⟩)),
    (92, eqB ((Itv.mulRevToPair binary64 (⟨(f (-2) (0)), (f (-3602879701896397) (-55))⟩ : Itv) (⟨(f (-4728779608739021) (-51)), (f 0 0)⟩ : Itv)).1) (⟨(f 0 0), (f 21 0)⟩)),
    (93, Itv.isEmpty ((Itv.mulRevToPair binary64 (⟨(f (-2) (0)), (f (-3602879701896397) (-55))⟩ : Itv) (⟨(f (-4728779608739021) (-51)), (f 0 0)⟩ : Itv)).2 : Itv)),
    (94, eqB ((Itv.mulRevToPair binary64 (⟨(f (-2) (0)), (f 0 0)⟩ : Itv) (⟨(f (-4728779608739021) (-51)), (f 0 0)⟩ : Itv)).1) (⟨.ninf, .pinf⟩)),
    (95, Itv.isEmpty ((Itv.mulRevToPair binary64 (⟨(f (-2) (0)), (f 0 0)⟩ : Itv) (⟨(f (-4728779608739021) (-51)), (f 0 0)⟩ : Itv)).2 : Itv)),
    (96, eqB ((Itv.mulRevToPair binary64 (⟨(f (-2) (0)), (f (2476979795053773) (-51))⟩ : Itv) (⟨(f (-4728779608739021) (-51)), (f 0 0)⟩ : Itv)).1) (⟨.ninf, .pinf⟩)),
    (97, Itv.isEmpty ((Itv.mulRevToPair binary64 (⟨(f (-2) (0)), (f (2476979795053773) (-51))⟩ : Itv) (⟨(f (-4728779608739021) (-51)), (f 0 0)⟩ : Itv)).2 : Itv)),
    (98, eqB ((Itv.mulRevToPair binary64 (⟨(f 0 0), (f (2476979795053773) (-51))⟩ : Itv) (⟨(f (-4728779608739021) (-51)), (f 0 0)⟩ : Itv)).1) (⟨.ninf, .pinf⟩)),
    (99, Itv.isEmpty ((Itv.mulRevToPair binary64 (⟨(f 0 0), (f (2476979795053773) (-51))⟩ : Itv) (⟨(f (-4728779608739021) (-51)), (f 0 0)⟩ : Itv)).2 : Itv)),
    (100, eqB ((Itv.mulRevToPair binary64 (⟨(f (5764607523034235) (-59)), (f (2476979795053773) (-51))⟩ : Itv) (⟨(f (-4728779608739021) (-51)), (f 0 0)⟩ : Itv)).1) (⟨(f (-7388718138654721) (-45)), (f 0 0)⟩)),
    (101, Itv.isEmpty ((Itv.mulRevToPair binary64 (⟨(f (5764607523034235) (-59)), (f (2476979795053773) (-51))⟩ : Itv) (⟨(f (-4728779608739021) (-51)), (f 0 0)⟩ : Itv)).2 : Itv)),
    (102, eqB ((Itv.mulRevToPair binary64 (⟨(f 0 0), (f 0 0)⟩ : Itv) (⟨(f (-4728779608739021) (-51)), (f 0 0)⟩ : Itv)).1) (⟨.ninf, .pinf⟩)),
    (103, Itv.isEmpty ((Itv.mulRevToPair binary64 (⟨(f 0 0), (f 0 0)⟩ : Itv) (⟨(f (-4728779608739021) (-51)), (f 0 0)⟩ : Itv)).2 : Itv)),
    (104, eqB ((Itv.mulRevToPair binary64 (⟨.ninf, (f (-3602879701896397) (-55))⟩ : Itv) (⟨(f (-4728779608739021) (-51)), (f 0 0)⟩ : Itv)).1) (⟨(f 0 0), (f 21 0)⟩)),
    (105, Itv.isEmpty ((Itv.mulRevToPair binary64 (⟨.ninf, (f (-3602879701896397) (-55))⟩ : Itv) (⟨(f (-4728779608739021) (-51)), (f 0 0)⟩ : Itv)).2 : Itv)),
    (106, eqB ((Itv.mulRevToPair binary64 (⟨.ninf, (f 0 0)⟩ : Itv) (⟨(f (-4728779608739021) (-51)), (f 0 0)⟩ : Itv)).1) (⟨.ninf, .pinf⟩)),
    (107, Itv.isEmpty ((Itv.mulRevToPair binary64 (⟨.ninf, (f 0 0)⟩ : Itv) (⟨(f (-4728779608739021) (-51)), (f 0 0)⟩ : Itv)).2 : Itv)),
    (108, eqB ((Itv.mulRevToPair binary64 (⟨.ninf, (f (2476979795053773) (-51))⟩ : Itv) (⟨(f (-4728779608739021) (-51)), (f 0 0)⟩ : Itv)).1) (⟨.ninf, .pinf⟩)),
    (109, Itv.isEmpty ((Itv.mulRevToPair binary64 (⟨.ninf, (f (2476979795053773) (-51))⟩ : Itv) (⟨(f (-4728779608739021) (-51)), (f 0 0)⟩ : Itv)).2 : Itv))] : List (ℕ × Bool)).all (·.2) = true := by
  decide +kernel

example : ([
    (110, eqB ((Itv.mulRevToPair binary64 (⟨(f (-2) (0)), .pinf⟩ : Itv) (⟨(f (-4728779608739021) (-51)), (f 0 0)⟩ : Itv)).1) (⟨.ninf, .pinf⟩)),
    (111, Itv.isEmpty ((Itv.mulRevToPair binary64 (⟨(f (-2) (0)), .pinf⟩ : Itv) (⟨(f (-4728779608739021) (-51)), (f 0 0)⟩ : Itv)).2 : Itv)),
    (112, eqB ((Itv.mulRevToPair binary64 (⟨(f 0 0), .pinf⟩ : Itv) (⟨(f (-4728779608739021) (-51)), (f 0 0)⟩ : Itv)).1) (⟨.ninf, .pinf⟩)),
    (113, Itv.isEmpty ((Itv.mulRevToPair binary64 (⟨(f 0 0), .pinf⟩ : Itv) (⟨(f (-4728779608739021) (-51)), (f 0 0)⟩ : Itv)).2 : Itv)),
    (114, eqB ((Itv.mulRevToPair binary64 (⟨(f (5764607523034235) (-59)), .pinf⟩ : Itv) (⟨(f (-4728779608739021) (-51)), (f 0 0)⟩ : Itv)).1) (⟨(f (-7388718138654721) (-45)), (f 0 0)⟩)),
    (115, Itv.isEmpty ((Itv.mulRevToPair binary64 (⟨(f (5764607523034235) (-59)), .pinf⟩ : Itv) (⟨(f (-4728779608739021) (-51)), (f 0 0)⟩ : Itv)).2 : Itv)),
    (116, eqB ((Itv.mulRevToPair binary64 (⟨.ninf, .pinf⟩ : Itv) (⟨(f (-4728779608739021) (-51)), (f 0 0)⟩ : Itv)).1) (⟨.ninf, .pinf⟩)),
    (117, Itv.isEmpty ((Itv.mulRevToPair binary64 (⟨.ninf, .pinf⟩ : Itv) (⟨(f (-4728779608739021) (-51)), (f 0 0)⟩ : Itv)).2 : Itv)),
    (119, eqB ((Itv.mulRevToPair binary64 (⟨(f (-2) (0)), (f (-3602879701896397) (-55))⟩ : Itv) (⟨(f (-4728779608739021) (-51)), (f (1080863910568919) (-53))⟩ : Itv)).1) (⟨(f (-5404319552844595) (-52)), (f 21 0)⟩)),
    (120, Itv.isEmpty ((Itv.mulRevToPair binary64 (⟨(f (-2) (0)), (f (-3602879701896397) (-55))⟩ : Itv) (⟨(f (-4728779608739021) (-51)), (f (1080863910568919) (-53))⟩ : Itv)).2 : Itv)),
    (121, eqB ((Itv.mulRevToPair binary64 (⟨(f (-2) (0)), (f 0 0)⟩ : Itv) (⟨(f (-4728779608739021) (-51)), (f (1080863910568919) (-53))⟩ : Itv)).1) (⟨.ninf, .pinf⟩)),
    (122, Itv.isEmpty ((Itv.mulRevToPair binary64 (⟨(f (-2) (0)), (f 0 0)⟩ : Itv) (⟨(f (-4728779608739021) (-51)), (f (1080863910568919) (-53))⟩ : Itv)).2 : Itv)),
    (123, eqB ((Itv.mulRevToPair binary64 (⟨(f (-2) (0)), (f (2476979795053773) (-51))⟩ : Itv) (⟨(f (-4728779608739021) (-51)), (f (1080863910568919) (-53))⟩ : Itv)).1) (⟨.ninf, .pinf⟩)),
    (124, Itv.isEmpty ((Itv.mulRevToPair binary64 (⟨(f (-2) (0)), (f (2476979795053773) (-51))⟩ : Itv) (⟨(f (-4728779608739021) (-51)), (f (1080863910568919) (-53))⟩ : Itv)).2 : Itv)),
    (125, eqB ((Itv.mulRevToPair binary64 (⟨(f 0 0), (f (2476979795053773) (-51))⟩ : Itv) (⟨(f (-4728779608739021) (-51)), (f (1080863910568919) (-53))⟩ : Itv)).1) (⟨.ninf, .pinf⟩)),
    (126, Itv.isEmpty ((Itv.mulRevToPair binary64 (⟨(f 0 0), (f (2476979795053773) (-51))⟩ : Itv) (⟨(f (-4728779608739021) (-51)), (f (1080863910568919) (-53))⟩ : Itv)).2 : Itv)),
    (127, eqB ((Itv.mulRevToPair binary64 (⟨(f (5764607523034235) (-59)), (f (2476979795053773) (-51))⟩ : Itv) (⟨(f (-4728779608739021) (-51)), (f (1080863910568919) (-53))⟩ : Itv)).1) (⟨(f (-7388718138654721) (-45)), (f 12 0)⟩)),
    (128, Itv.isEmpty ((Itv.mulRevToPair binary64 (⟨(f (5764607523034235) (-59)), (f (2476979795053773) (-51))⟩ : Itv) (⟨(f (-4728779608739021) (-51)), (f (1080863910568919) (-53))⟩ : Itv)).2 : Itv)),
    (129, eqB ((Itv.mulRevToPair binary64 (⟨(f 0 0), (f 0 0)⟩ : Itv) (⟨(f (-4728779608739021) (-51)), (f (1080863910568919) (-53))⟩ : Itv)).1) (⟨.ninf, .pinf⟩)),
    (130, Itv.isEmpty ((Itv.mulRevToPair binary64 (⟨(f 0 0), (f 0 0)⟩ : Itv) (⟨(f (-4728779608739021) (-51)), (f (1080863910568919) (-53))⟩ : Itv)).2 : Itv)),
    (131, eqB ((Itv.mulRevToPair binary64 (⟨.ninf, (f (-3602879701896397) (-55))⟩ : Itv) (⟨(f (-4728779608739021) (-51)), (f (1080863910568919) (-53))⟩ : Itv)).1) (⟨(f (-5404319552844595) (-52)), (f 21 0)⟩)),
    (132, Itv.isEmpty ((Itv.mulRevToPair binary64 (⟨.ninf, (f (-3602879701896397) (-55))⟩ : Itv) (⟨(f (-4728779608739021) (-51)), (f (1080863910568919) (-53))⟩ : Itv)).2 : Itv)),
    (133, eqB ((Itv.mulRevToPair binary64 (⟨.ninf, (f 0 0)⟩ : Itv) (⟨(f (-4728779608739021) (-51)), (f (1080863910568919) (-53))⟩ : Itv)).1) (⟨.ninf, .pinf⟩)),
    (134, Itv.isEmpty ((Itv.mulRevToPair binary64 (⟨.ninf, (f 0 0)⟩ : Itv) (⟨(f (-4728779608739021) (-51)), (f (1080863910568919) (-53))⟩ : Itv)).2 : Itv)),
    (135, eqB ((Itv.mulRevToPair binary64 (⟨.ninf, (f (2476979795053773) (-51))⟩ : Itv) (⟨(f (-4728779608739021) (-51)), (f (1080863910568919) (-53))⟩ : Itv)).1) (⟨.ninf, .pinf⟩)),
    (136, Itv.isEmpty ((Itv.mulRevToPair binary64 (⟨.ninf, (f (2476979795053773) (-51))⟩ : Itv) (⟨(f (-4728779608739021) (-51)), (f (1080863910568919) (-53))⟩ : Itv)).2 : Itv)),
    (137, eqB ((Itv.mulRevToPair binary64 (⟨(f (-2) (0)), .pinf⟩ : Itv) (⟨(f (-4728779608739021) (-51)), (f (1080863910568919) (-53))⟩ : Itv)).1) (⟨.ninf, .pinf⟩)),
    (138, Itv.isEmpty ((Itv.mulRevToPair binary64 (⟨(f (-2) (0)), .pinf⟩ : Itv) (⟨(f (-4728779608739021) (-51)), (f (1080863910568919) (-53))⟩ : Itv)).2 : Itv)),
    (139, eqB ((Itv.mulRevToPair binary64 (⟨(f 0 0), .pinf⟩ : Itv) (⟨(f (-4728779608739021) (-51)), (f (1080863910568919) (-53))⟩ : Itv)).1) (⟨.ninf, .pinf⟩)),
    (140, Itv.isEmpty ((Itv.mulRevToPair binary64 (⟨(f 0 0), .pinf⟩ : Itv) (⟨(f (-4728779608739021) (-51)), (f (1080863910568919) (-53))⟩ : Itv)).2 : Itv)),
    (141, eqB ((Itv.mulRevToPair binary64 (⟨(f (5764607523034235) (-59)), .pinf⟩ : Itv) (⟨(f (-4728779608739021) (-51)), (f (1080863910568919) (-53))⟩ : Itv)).1) (⟨(f (-7388718138654721) (-45)), (f 12 0)⟩)),
    (142, Itv.isEmpty ((Itv.mulRevToPair binary64 (⟨(f (5764607523034235) (-59)), .pinf⟩ : Itv) (⟨(f (-4728779608739021) (-51)), (f (1080863910568919) (-53))⟩ : Itv)).2 : Itv)),
    (143, eqB ((Itv.mulRevToPair binary64 (⟨.ninf, .pinf⟩ : Itv) (⟨(f (-4728779608739021) (-51)), (f (1080863910568919) (-53))⟩ : Itv)).1) (⟨.ninf, .pinf⟩)),
    (144, Itv.isEmpty ((Itv.mulRevToPair binary64 (⟨.ninf, .pinf⟩ : Itv) (⟨(f (-4728779608739021) (-51)), (f (1080863910568919) (-53))⟩ : Itv)).2 : Itv)),
    (146, eqB ((Itv.mulRevToPair binary64 (⟨(f (-2) (0)), (f (-3602879701896397) (-55))⟩ : Itv) (⟨(f 0 0), (f (1080863910568919) (-53))⟩ : Itv)).1) (⟨(f (-5404319552844595) (-52)), (f 0 0)⟩)),
    (147, Itv.isEmpty ((Itv.mulRevToPair binary64 (⟨(f (-2) (0)), (f (-3602879701896397) (-55))⟩ : Itv) (⟨(f 0 0), (f (1080863910568919) (-53))⟩ : Itv)).2 : Itv)),
    (148, eqB ((Itv.mulRevToPair binary64 (⟨(f (-2) (0)), (f 0 0)⟩ : Itv) (⟨(f 0 0), (f (1080863910568919) (-53))⟩ : Itv)).1) (⟨.ninf, .pinf⟩)),
    (149, Itv.isEmpty ((Itv.mulRevToPair binary64 (⟨(f (-2) (0)), (f 0 0)⟩ : Itv) (⟨(f 0 0), (f (1080863910568919) (-53))⟩ : Itv)).2 : Itv)),
    (150, eqB ((Itv.mulRevToPair binary64 (⟨(f (-2) (0)), (f (2476979795053773) (-51))⟩ : Itv) (⟨(f 0 0), (f (1080863910568919) (-53))⟩ : Itv)).1) (⟨.ninf, .pinf⟩)),
    (151, Itv.isEmpty ((Itv.mulRevToPair binary64 (⟨(f (-2) (0)), (f (2476979795053773) (-51))⟩ : Itv) (⟨(f 0 0), (f (1080863910568919) (-53))⟩ : Itv)).2 : Itv)),
    (152, eqB ((Itv.mulRevToPair binary64 (⟨(f 0 0), (f (2476979795053773) (-51))⟩ : Itv) (⟨(f 0 0), (f (1080863910568919) (-53))⟩ : Itv)).1) (⟨.ninf, .pinf⟩)),
    (153, Itv.isEmpty ((Itv.mulRevToPair binary64 (⟨(f 0 0), (f (2476979795053773) (-51))⟩ : Itv) (⟨(f 0 0), (f (1080863910568919) (-53))⟩ : Itv)).2 : Itv)),
    (154, eqB ((Itv.mulRevToPair binary64 (⟨(f (5764607523034235) (-59)), (f (2476979795053773) (-51))⟩ : Itv) (⟨(f 0 0), (f (1080863910568919) (-53))⟩ : Itv)).1) (⟨(f 0 0), (f 12 0)⟩)),
    (155, Itv.isEmpty ((Itv.mulRevToPair binary64 (⟨(f (5764607523034235) (-59)), (f (2476979795053773) (-51))⟩ : Itv) (⟨(f 0 0), (f (1080863910568919) (-53))⟩ : Itv)).2 : Itv)),
    (156, eqB ((Itv.mulRevToPair binary64 (⟨(f 0 0), (f 0 0)⟩ : Itv) (⟨(f 0 0), (f (1080863910568919) (-53))⟩ : Itv)).1) (⟨.ninf, .pinf⟩)),
    (157, Itv.isEmpty ((Itv.mulRevToPair binary64 (⟨(f 0 0), (f 0 0)⟩ : Itv) (⟨(f 0 0), (f (1080863910568919) (-53))⟩ : Itv)).2 : Itv)),
    (158, eqB ((Itv.mulRevToPair binary64 (⟨.ninf, (f (-3602879701896397) (-55))⟩ : Itv) (⟨(f 0 0), (f (1080863910568919) (-53))⟩ : Itv)).1) (⟨(f (-5404319552844595) (-52)), (f 0 0)⟩)),
    (159, Itv.isEmpty ((Itv.mulRevToPair binary64 (⟨.ninf, (f (-3602879701896397) (-55))⟩ : Itv) (⟨(f 0 0), (f (1080863910568919) (-53))⟩ : Itv)).2 : Itv)),
    (160, eqB ((Itv.mulRevToPair binary64 (⟨.ninf, (f 0 0)⟩ : Itv) (⟨(f 0 0), (f (1080863910568919) (-53))⟩ : Itv)).1) (⟨.ninf, .pinf⟩)),
    (161, Itv.isEmpty ((Itv.mulRevToPair binary64 (⟨.ninf, (f 0 0)⟩ : Itv) (⟨(f 0 0), (f (1080863910568919) (-53))⟩ : Itv)).2 : Itv))] : List (ℕ × Bool)).all (·.2) = true := by
  decide +kernel

example : ([
    (162, eqB ((Itv.mulRevToPair binary64 (⟨.ninf, (f (2476979795053773) (-51))⟩ : Itv) (⟨(f 0 0), (f (1080863910568919) (-53))⟩ : Itv)).1) (⟨.ninf, .pinf⟩)),
    (163, Itv.isEmpty ((Itv.mulRevToPair binary64 (⟨.ninf, (f (2476979795053773) (-51))⟩ : Itv) (⟨(f 0 0), (f (1080863910568919) (-53))⟩ : Itv)).2 : Itv)),
    (164, eqB ((Itv.mulRevToPair binary64 (⟨(f (-2) (0)), .pinf⟩ : Itv) (⟨(f 0 0), (f (1080863910568919) (-53))⟩ : Itv)).1) (⟨.ninf, .pinf⟩)),
    (165, Itv.isEmpty ((Itv.mulRevToPair binary64 (⟨(f (-2) (0)), .pinf⟩ : Itv) (⟨(f 0 0), (f (1080863910568919) (-53))⟩ : Itv)).2 : Itv)),
    (166, eqB ((Itv.mulRevToPair binary64 (⟨(f 0 0), .pinf⟩ : Itv) (⟨(f 0 0), (f (1080863910568919) (-53))⟩ : Itv)).1) (⟨.ninf, .pinf⟩)),
    (167, Itv.isEmpty ((Itv.mulRevToPair binary64 (⟨(f 0 0), .pinf⟩ : Itv) (⟨(f 0 0), (f (1080863910568919) (-53))⟩ : Itv)).2 : Itv)),
    (168, eqB ((Itv.mulRevToPair binary64 (⟨(f (5764607523034235) (-59)), .pinf⟩ : Itv) (⟨(f 0 0), (f (1080863910568919) (-53))⟩ : Itv)).1) (⟨(f 0 0), (f 12 0)⟩)),
    (169, Itv.isEmpty ((Itv.mulRevToPair binary64 (⟨(f (5764607523034235) (-59)), .pinf⟩ : Itv) (⟨(f 0 0), (f (1080863910568919) (-53))⟩ : Itv)).2 : Itv)),
    (170, eqB ((Itv.mulRevToPair binary64 (⟨.ninf, .pinf⟩ : Itv) (⟨(f 0 0), (f (1080863910568919) (-53))⟩ : Itv)).1) (⟨.ninf, .pinf⟩)),
    (171, Itv.isEmpty ((Itv.mulRevToPair binary64 (⟨.ninf, .pinf⟩ : Itv) (⟨(f 0 0), (f (1080863910568919) (-53))⟩ : Itv)).2 : Itv)),
    (173, eqB ((Itv.mulRevToPair binary64 (⟨(f (-2) (0)), (f (-3602879701896397) (-55))⟩ : Itv) (⟨(f (5764607523034235) (-59)), (f (1080863910568919) (-53))⟩ : Itv)).1) (⟨(f (-5404319552844595) (-52)), (f (-5764607523034235) (-60))⟩)),
    (174, Itv.isEmpty ((Itv.mulRevToPair binary64 (⟨(f (-2) (0)), (f (-3602879701896397) (-55))⟩ : Itv) (⟨(f (5764607523034235) (-59)), (f (1080863910568919) (-53))⟩ : Itv)).2 : Itv)),
    (175, eqB ((Itv.mulRevToPair binary64 (⟨(f (-2) (0)), (f 0 0)⟩ : Itv) (⟨(f (5764607523034235) (-59)), (f (1080863910568919) (-53))⟩ : Itv)).1) (⟨.ninf, (f (-5764607523034235) (-60))⟩)),
    (176, Itv.isEmpty ((Itv.mulRevToPair binary64 (⟨(f (-2) (0)), (f 0 0)⟩ : Itv) (⟨(f (5764607523034235) (-59)), (f (1080863910568919) (-53))⟩ : Itv)).2 : Itv)),
    (177, eqB ((Itv.mulRevToPair binary64 (⟨(f (-2) (0)), (f (2476979795053773) (-51))⟩ : Itv) (⟨(f (5764607523034235) (-59)), (f (1080863910568919) (-53))⟩ : Itv)).1) (⟨.ninf, (f (-5764607523034235) (-60))⟩)),
    (178, eqB ((Itv.mulRevToPair binary64 (⟨(f (-2) (0)), (f (2476979795053773) (-51))⟩ : Itv) (⟨(f (5764607523034235) (-59)), (f (1080863910568919) (-53))⟩ : Itv)).2) (⟨(f (5240552293667485) (-59)), .pinf⟩)),
    (179, eqB ((Itv.mulRevToPair binary64 (⟨(f 0 0), (f (2476979795053773) (-51))⟩ : Itv) (⟨(f (5764607523034235) (-59)), (f (1080863910568919) (-53))⟩ : Itv)).1) (⟨(f (5240552293667485) (-59)), .pinf⟩)),
    (180, Itv.isEmpty ((Itv.mulRevToPair binary64 (⟨(f 0 0), (f (2476979795053773) (-51))⟩ : Itv) (⟨(f (5764607523034235) (-59)), (f (1080863910568919) (-53))⟩ : Itv)).2 : Itv)),
    (181, eqB ((Itv.mulRevToPair binary64 (⟨(f (5764607523034235) (-59)), (f (2476979795053773) (-51))⟩ : Itv) (⟨(f (5764607523034235) (-59)), (f (1080863910568919) (-53))⟩ : Itv)).1) (⟨(f (5240552293667485) (-59)), (f 12 0)⟩)),
    (182, Itv.isEmpty ((Itv.mulRevToPair binary64 (⟨(f (5764607523034235) (-59)), (f (2476979795053773) (-51))⟩ : Itv) (⟨(f (5764607523034235) (-59)), (f (1080863910568919) (-53))⟩ : Itv)).2 : Itv)),
    (183, Itv.isEmpty ((Itv.mulRevToPair binary64 (⟨(f 0 0), (f 0 0)⟩ : Itv) (⟨(f (5764607523034235) (-59)), (f (1080863910568919) (-53))⟩ : Itv)).1 : Itv)),
    (184, Itv.isEmpty ((Itv.mulRevToPair binary64 (⟨(f 0 0), (f 0 0)⟩ : Itv) (⟨(f (5764607523034235) (-59)), (f (1080863910568919) (-53))⟩ : Itv)).2 : Itv)),
    (185, eqB ((Itv.mulRevToPair binary64 (⟨.ninf, (f (-3602879701896397) (-55))⟩ : Itv) (⟨(f (5764607523034235) (-59)), (f (1080863910568919) (-53))⟩ : Itv)).1) (⟨(f (-5404319552844595) (-52)), (f 0 0)⟩)),
    (186, Itv.isEmpty ((Itv.mulRevToPair binary64 (⟨.ninf, (f (-3602879701896397) (-55))⟩ : Itv) (⟨(f (5764607523034235) (-59)), (f (1080863910568919) (-53))⟩ : Itv)).2 : Itv)),
    (187, eqB ((Itv.mulRevToPair binary64 (⟨.ninf, (f 0 0)⟩ : Itv) (⟨(f (5764607523034235) (-59)), (f (1080863910568919) (-53))⟩ : Itv)).1) (⟨.ninf, (f 0 0)⟩)),
    (188, Itv.isEmpty ((Itv.mulRevToPair binary64 (⟨.ninf, (f 0 0)⟩ : Itv) (⟨(f (5764607523034235) (-59)), (f (1080863910568919) (-53))⟩ : Itv)).2 : Itv)),
    (189, eqB ((Itv.mulRevToPair binary64 (⟨.ninf, (f (2476979795053773) (-51))⟩ : Itv) (⟨(f (5764607523034235) (-59)), (f (1080863910568919) (-53))⟩ : Itv)).1) (⟨.ninf, (f 0 0)⟩)),
    (190, eqB ((Itv.mulRevToPair binary64 (⟨.ninf, (f (2476979795053773) (-51))⟩ : Itv) (⟨(f (5764607523034235) (-59)), (f (1080863910568919) (-53))⟩ : Itv)).2) (⟨(f (5240552293667485) (-59)), .pinf⟩)),
    (191, eqB ((Itv.mulRevToPair binary64 (⟨(f (-2) (0)), .pinf⟩ : Itv) (⟨(f (5764607523034235) (-59)), (f (1080863910568919) (-53))⟩ : Itv)).1) (⟨.ninf, (f (-5764607523034235) (-60))⟩)),
    (192, eqB ((Itv.mulRevToPair binary64 (⟨(f (-2) (0)), .pinf⟩ : Itv) (⟨(f (5764607523034235) (-59)), (f (1080863910568919) (-53))⟩ : Itv)).2) (⟨(f 0 0), .pinf⟩)),
    (193, eqB ((Itv.mulRevToPair binary64 (⟨(f 0 0), .pinf⟩ : Itv) (⟨(f (5764607523034235) (-59)), (f (1080863910568919) (-53))⟩ : Itv)).1) (⟨(f 0 0), .pinf⟩)),
    (194, Itv.isEmpty ((Itv.mulRevToPair binary64 (⟨(f 0 0), .pinf⟩ : Itv) (⟨(f (5764607523034235) (-59)), (f (1080863910568919) (-53))⟩ : Itv)).2 : Itv)),
    (195, eqB ((Itv.mulRevToPair binary64 (⟨(f (5764607523034235) (-59)), .pinf⟩ : Itv) (⟨(f (5764607523034235) (-59)), (f (1080863910568919) (-53))⟩ : Itv)).1) (⟨(f 0 0), (f 12 0)⟩)),
    (196, Itv.isEmpty ((Itv.mulRevToPair binary64 (⟨(f (5764607523034235) (-59)), .pinf⟩ : Itv) (⟨(f (5764607523034235) (-59)), (f (1080863910568919) (-53))⟩ : Itv)).2 : Itv)),
    (197, eqB ((Itv.mulRevToPair binary64 (⟨.ninf, .pinf⟩ : Itv) (⟨(f (5764607523034235) (-59)), (f (1080863910568919) (-53))⟩ : Itv)).1) (⟨.ninf, (f 0 0)⟩)),
    (198, eqB ((Itv.mulRevToPair binary64 (⟨.ninf, .pinf⟩ : Itv) (⟨(f (5764607523034235) (-59)), (f (1080863910568919) (-53))⟩ : Itv)).2) (⟨(f 0 0), .pinf⟩)),
    (200, eqB ((Itv.mulRevToPair binary64 (⟨(f (-2) (0)), (f (-3602879701896397) (-55))⟩ : Itv) (⟨(f 0 0), (f 0 0)⟩ : Itv)).1) (⟨(f 0 0), (f 0 0)⟩)),
    (201, Itv.isEmpty ((Itv.mulRevToPair binary64 (⟨(f (-2) (0)), (f (-3602879701896397) (-55))⟩ : Itv) (⟨(f 0 0), (f 0 0)⟩ : Itv)).2 : Itv)),
    (202, eqB ((Itv.mulRevToPair binary64 (⟨(f (-2) (0)), (f 0 0)⟩ : Itv) (⟨(f 0 0), (f 0 0)⟩ : Itv)).1) (⟨.ninf, .pinf⟩)),
    (203, Itv.isEmpty ((Itv.mulRevToPair binary64 (⟨(f (-2) (0)), (f 0 0)⟩ : Itv) (⟨(f 0 0), (f 0 0)⟩ : Itv)).2 : Itv)),
    (204, eqB ((Itv.mulRevToPair binary64 (⟨(f (-2) (0)), (f (2476979795053773) (-51))⟩ : Itv) (⟨(f 0 0), (f 0 0)⟩ : Itv)).1) (⟨.ninf, .pinf⟩)),
    (205, Itv.isEmpty ((Itv.mulRevToPair binary64 (⟨(f (-2) (0)), (f (2476979795053773) (-51))⟩ : Itv) (⟨(f 0 0), (f 0 0)⟩ : Itv)).2 : Itv)),
    (206, eqB ((Itv.mulRevToPair binary64 (⟨(f 0 0), (f (2476979795053773) (-51))⟩ : Itv) (⟨(f 0 0), (f 0 0)⟩ : Itv)).1) (⟨.ninf, .pinf⟩)),
    (207, Itv.isEmpty ((Itv.mulRevToPair binary64 (⟨(f 0 0), (f (2476979795053773) (-51))⟩ : Itv) (⟨(f 0 0), (f 0 0)⟩ : Itv)).2 : Itv)),
    (208, eqB ((Itv.mulRevToPair binary64 (⟨(f (5764607523034235) (-59)), (f (2476979795053773) (-51))⟩ : Itv) (⟨(f 0 0), (f 0 0)⟩ : Itv)).1) (⟨(f 0 0), (f 0 0)⟩)),
    (209, Itv.isEmpty ((Itv.mulRevToPair binary64 (⟨(f (5764607523034235) (-59)), (f (2476979795053773) (-51))⟩ : Itv) (⟨(f 0 0), (f 0 0)⟩ : Itv)).2 : Itv)),
    (210, eqB ((Itv.mulRevToPair binary64 (⟨(f 0 0), (f 0 0)⟩ : Itv) (⟨(f 0 0), (f 0 0)⟩ : Itv)).1) (⟨.ninf, .pinf⟩)),
    (211, Itv.isEmpty ((Itv.mulRevToPair binary64 (⟨(f 0 0), (f 0 0)⟩ : Itv) (⟨(f 0 0), (f 0 0)⟩ : Itv)).2 : Itv)),
    (212, eqB ((Itv.mulRevToPair binary64 (⟨.ninf, (f (-3602879701896397) (-55))⟩ : Itv) (⟨(f 0 0), (f 0 0)⟩ : Itv)).1) (⟨(f 0 0), (f 0 0)⟩)),
    (213, Itv.isEmpty ((Itv.mulRevToPair binary64 (⟨.ninf, (f (-3602879701896397) (-55))⟩ : Itv) (⟨(f 0 0), (f 0 0)⟩ : Itv)).2 : Itv))] : List (ℕ × Bool)).all (·.2) = true := by
  decide +kernel

example : ([
    (214, eqB ((Itv.mulRevToPair binary64 (⟨.ninf, (f 0 0)⟩ : Itv) (⟨(f 0 0), (f 0 0)⟩ : Itv)).1) (⟨.ninf, .pinf⟩)),
    (215, Itv.isEmpty ((Itv.mulRevToPair binary64 (⟨.ninf, (f 0 0)⟩ : Itv) (⟨(f 0 0), (f 0 0)⟩ : Itv)).2 : Itv)),
    (216, eqB ((Itv.mulRevToPair binary64 (⟨.ninf, (f (2476979795053773) (-51))⟩ : Itv) (⟨(f 0 0), (f 0 0)⟩ : Itv)).1) (⟨.ninf, .pinf⟩)),
    (217, Itv.isEmpty ((Itv.mulRevToPair binary64 (⟨.ninf, (f (2476979795053773) (-51))⟩ : Itv) (⟨(f 0 0), (f 0 0)⟩ : Itv)).2 : Itv)),
    (218, eqB ((Itv.mulRevToPair binary64 (⟨(f (-2) (0)), .pinf⟩ : Itv) (⟨(f 0 0), (f 0 0)⟩ : Itv)).1) (⟨.ninf, .pinf⟩)),
    (219, Itv.isEmpty ((Itv.mulRevToPair binary64 (⟨(f (-2) (0)), .pinf⟩ : Itv) (⟨(f 0 0), (f 0 0)⟩ : Itv)).2 : Itv)),
    (220, eqB ((Itv.mulRevToPair binary64 (⟨(f 0 0), .pinf⟩ : Itv) (⟨(f 0 0), (f 0 0)⟩ : Itv)).1) (⟨.ninf, .pinf⟩)),
    (221, Itv.isEmpty ((Itv.mulRevToPair binary64 (⟨(f 0 0), .pinf⟩ : Itv) (⟨(f 0 0), (f 0 0)⟩ : Itv)).2 : Itv)),
    (222, eqB ((Itv.mulRevToPair binary64 (⟨(f (5764607523034235) (-59)), .pinf⟩ : Itv) (⟨(f 0 0), (f 0 0)⟩ : Itv)).1) (⟨(f 0 0), (f 0 0)⟩)),
    (223, Itv.isEmpty ((Itv.mulRevToPair binary64 (⟨(f (5764607523034235) (-59)), .pinf⟩ : Itv) (⟨(f 0 0), (f 0 0)⟩ : Itv)).2 : Itv)),
    (224, eqB ((Itv.mulRevToPair binary64 (⟨.ninf, .pinf⟩ : Itv) (⟨(f 0 0), (f 0 0)⟩ : Itv)).1) (⟨.ninf, .pinf⟩)),
    (225, Itv.isEmpty ((Itv.mulRevToPair binary64 (⟨.ninf, .pinf⟩ : Itv) (⟨(f 0 0), (f 0 0)⟩ : Itv)).2 : Itv)),
    (228, eqB ((Itv.mulRevToPair binary64 (⟨(f (-2) (0)), (f (-3602879701896397) (-55))⟩ : Itv) (⟨.ninf, (f (-3602879701896397) (-55))⟩ : Itv)).1) (⟨(f (3602879701896397) (-56)), .pinf⟩)),
    (229, Itv.isEmpty ((Itv.mulRevToPair binary64 (⟨(f (-2) (0)), (f (-3602879701896397) (-55))⟩ : Itv) (⟨.ninf, (f (-3602879701896397) (-55))⟩ : Itv)).2 : Itv)),
    (230, eqB ((Itv.mulRevToPair binary64 (⟨(f (-2) (0)), (f 0 0)⟩ : Itv) (⟨.ninf, (f (-3602879701896397) (-55))⟩ : Itv)).1) (⟨(f (3602879701896397) (-56)), .pinf⟩)),
    (231, Itv.isEmpty ((Itv.mulRevToPair binary64 (⟨(f (-2) (0)), (f 0 0)⟩ : Itv) (⟨.ninf, (f (-3602879701896397) (-55))⟩ : Itv)).2 : Itv)),
    (232, eqB ((Itv.mulRevToPair binary64 (⟨(f (-2) (0)), (f (2476979795053773) (-51))⟩ : Itv) (⟨.ninf, (f (-3602879701896397) (-55))⟩ : Itv)).1) (⟨.ninf, (f (-6550690367084357) (-56))⟩)),
    (233, eqB ((Itv.mulRevToPair binary64 (⟨(f (-2) (0)), (f (2476979795053773) (-51))⟩ : Itv) (⟨.ninf, (f (-3602879701896397) (-55))⟩ : Itv)).2) (⟨(f (3602879701896397) (-56)), .pinf⟩)),
    (234, eqB ((Itv.mulRevToPair binary64 (⟨(f 0 0), (f (2476979795053773) (-51))⟩ : Itv) (⟨.ninf, (f (-3602879701896397) (-55))⟩ : Itv)).1) (⟨.ninf, (f (-6550690367084357) (-56))⟩)),
    (235, Itv.isEmpty ((Itv.mulRevToPair binary64 (⟨(f 0 0), (f (2476979795053773) (-51))⟩ : Itv) (⟨.ninf, (f (-3602879701896397) (-55))⟩ : Itv)).2 : Itv)),
    (236, eqB ((Itv.mulRevToPair binary64 (⟨(f (5764607523034235) (-59)), (f (2476979795053773) (-51))⟩ : Itv) (⟨.ninf, (f (-3602879701896397) (-55))⟩ : Itv)).1) (⟨.ninf, (f (-6550690367084357) (-56))⟩)),
    (237, Itv.isEmpty ((Itv.mulRevToPair binary64 (⟨(f (5764607523034235) (-59)), (f (2476979795053773) (-51))⟩ : Itv) (⟨.ninf, (f (-3602879701896397) (-55))⟩ : Itv)).2 : Itv)),
    (238, Itv.isEmpty ((Itv.mulRevToPair binary64 (⟨(f 0 0), (f 0 0)⟩ : Itv) (⟨.ninf, (f (-3602879701896397) (-55))⟩ : Itv)).1 : Itv)),
    (239, Itv.isEmpty ((Itv.mulRevToPair binary64 (⟨(f 0 0), (f 0 0)⟩ : Itv) (⟨.ninf, (f (-3602879701896397) (-55))⟩ : Itv)).2 : Itv)),
    (240, eqB ((Itv.mulRevToPair binary64 (⟨.ninf, (f (-3602879701896397) (-55))⟩ : Itv) (⟨.ninf, (f (-3602879701896397) (-55))⟩ : Itv)).1) (⟨(f 0 0), .pinf⟩)),
    (241, Itv.isEmpty ((Itv.mulRevToPair binary64 (⟨.ninf, (f (-3602879701896397) (-55))⟩ : Itv) (⟨.ninf, (f (-3602879701896397) (-55))⟩ : Itv)).2 : Itv)),
    (242, eqB ((Itv.mulRevToPair binary64 (⟨.ninf, (f 0 0)⟩ : Itv) (⟨.ninf, (f (-3602879701896397) (-55))⟩ : Itv)).1) (⟨(f 0 0), .pinf⟩)),
    (243, Itv.isEmpty ((Itv.mulRevToPair binary64 (⟨.ninf, (f 0 0)⟩ : Itv) (⟨.ninf, (f (-3602879701896397) (-55))⟩ : Itv)).2 : Itv)),
    (244, eqB ((Itv.mulRevToPair binary64 (⟨.ninf, (f (2476979795053773) (-51))⟩ : Itv) (⟨.ninf, (f (-3602879701896397) (-55))⟩ : Itv)).1) (⟨.ninf, (f (-6550690367084357) (-56))⟩)),
    (245, eqB ((Itv.mulRevToPair binary64 (⟨.ninf, (f (2476979795053773) (-51))⟩ : Itv) (⟨.ninf, (f (-3602879701896397) (-55))⟩ : Itv)).2) (⟨(f 0 0), .pinf⟩)),
    (246, eqB ((Itv.mulRevToPair binary64 (⟨(f (-2) (0)), .pinf⟩ : Itv) (⟨.ninf, (f (-3602879701896397) (-55))⟩ : Itv)).1) (⟨.ninf, (f 0 0)⟩)),
    (247, eqB ((Itv.mulRevToPair binary64 (⟨(f (-2) (0)), .pinf⟩ : Itv) (⟨.ninf, (f (-3602879701896397) (-55))⟩ : Itv)).2) (⟨(f (3602879701896397) (-56)), .pinf⟩)),
    (248, eqB ((Itv.mulRevToPair binary64 (⟨(f 0 0), .pinf⟩ : Itv) (⟨.ninf, (f (-3602879701896397) (-55))⟩ : Itv)).1) (⟨.ninf, (f 0 0)⟩)),
    (249, Itv.isEmpty ((Itv.mulRevToPair binary64 (⟨(f 0 0), .pinf⟩ : Itv) (⟨.ninf, (f (-3602879701896397) (-55))⟩ : Itv)).2 : Itv)),
    (250, eqB ((Itv.mulRevToPair binary64 (⟨(f (5764607523034235) (-59)), .pinf⟩ : Itv) (⟨.ninf, (f (-3602879701896397) (-55))⟩ : Itv)).1) (⟨.ninf, (f 0 0)⟩)),
    (251, Itv.isEmpty ((Itv.mulRevToPair binary64 (⟨(f (5764607523034235) (-59)), .pinf⟩ : Itv) (⟨.ninf, (f (-3602879701896397) (-55))⟩ : Itv)).2 : Itv)),
    (252, eqB ((Itv.mulRevToPair binary64 (⟨.ninf, .pinf⟩ : Itv) (⟨.ninf, (f (-3602879701896397) (-55))⟩ : Itv)).1) (⟨.ninf, (f 0 0)⟩)),
    (253, eqB ((Itv.mulRevToPair binary64 (⟨.ninf, .pinf⟩ : Itv) (⟨.ninf, (f (-3602879701896397) (-55))⟩ : Itv)).2) (⟨(f 0 0), .pinf⟩)),
    (255, eqB ((Itv.mulRevToPair binary64 (⟨(f (-2) (0)), (f (-3602879701896397) (-55))⟩ : Itv) (⟨.ninf, (f 0 0)⟩ : Itv)).1) (⟨(f 0 0), .pinf⟩)),
    (256, Itv.isEmpty ((Itv.mulRevToPair binary64 (⟨(f (-2) (0)), (f (-3602879701896397) (-55))⟩ : Itv) (⟨.ninf, (f 0 0)⟩ : Itv)).2 : Itv)),
    (257, eqB ((Itv.mulRevToPair binary64 (⟨(f (-2) (0)), (f 0 0)⟩ : Itv) (⟨.ninf, (f 0 0)⟩ : Itv)).1) (⟨.ninf, .pinf⟩)),
    (258, Itv.isEmpty ((Itv.mulRevToPair binary64 (⟨(f (-2) (0)), (f 0 0)⟩ : Itv) (⟨.ninf, (f 0 0)⟩ : Itv)).2 : Itv)),
    (259, eqB ((Itv.mulRevToPair binary64 (⟨(f (-2) (0)), (f (2476979795053773) (-51))⟩ : Itv) (⟨.ninf, (f 0 0)⟩ : Itv)).1) (⟨.ninf, .pinf⟩)),
    (260, Itv.isEmpty ((Itv.mulRevToPair binary64 (⟨(f (-2) (0)), (f (2476979795053773) (-51))⟩ : Itv) (⟨.ninf, (f 0 0)⟩ : Itv)).2 : Itv)),
    (261, eqB ((Itv.mulRevToPair binary64 (⟨(f 0 0), (f (2476979795053773) (-51))⟩ : Itv) (⟨.ninf, (f 0 0)⟩ : Itv)).1) (⟨.ninf, .pinf⟩)),
    (262, Itv.isEmpty ((Itv.mulRevToPair binary64 (⟨(f 0 0), (f (2476979795053773) (-51))⟩ : Itv) (⟨.ninf, (f 0 0)⟩ : Itv)).2 : Itv)),
    (263, eqB ((Itv.mulRevToPair binary64 (⟨(f (5764607523034235) (-59)), (f (2476979795053773) (-51))⟩ : Itv) (⟨.ninf, (f 0 0)⟩ : Itv)).1) (⟨.ninf, (f 0 0)⟩)),
    (264, Itv.isEmpty ((Itv.mulRevToPair binary64 (⟨(f (5764607523034235) (-59)), (f (2476979795053773) (-51))⟩ : Itv) (⟨.ninf, (f 0 0)⟩ : Itv)).2 : Itv)),
    (265, eqB ((Itv.mulRevToPair binary64 (⟨(f 0 0), (f 0 0)⟩ : Itv) (⟨.ninf, (f 0 0)⟩ : Itv)).1) (⟨.ninf, .pinf⟩)),
    (266, Itv.isEmpty ((Itv.mulRevToPair binary64 (⟨(f 0 0), (f 0 0)⟩ : Itv) (⟨.ninf, (f 0 0)⟩ : Itv)).2 : Itv))] : List (ℕ × Bool)).all (·.2) = true := by
  decide +kernel

example : ([
    (267, eqB ((Itv.mulRevToPair binary64 (⟨.ninf, (f (-3602879701896397) (-55))⟩ : Itv) (⟨.ninf, (f 0 0)⟩ : Itv)).1) (⟨(f 0 0), .pinf⟩)),
    (268, Itv.isEmpty ((Itv.mulRevToPair binary64 (⟨.ninf, (f (-3602879701896397) (-55))⟩ : Itv) (⟨.ninf, (f 0 0)⟩ : Itv)).2 : Itv)),
    (269, eqB ((Itv.mulRevToPair binary64 (⟨.ninf, (f 0 0)⟩ : Itv) (⟨.ninf, (f 0 0)⟩ : Itv)).1) (⟨.ninf, .pinf⟩)),
    (270, Itv.isEmpty ((Itv.mulRevToPair binary64 (⟨.ninf, (f 0 0)⟩ : Itv) (⟨.ninf, (f 0 0)⟩ : Itv)).2 : Itv)),
    (271, eqB ((Itv.mulRevToPair binary64 (⟨.ninf, (f (2476979795053773) (-51))⟩ : Itv) (⟨.ninf, (f 0 0)⟩ : Itv)).1) (⟨.ninf, .pinf⟩)),
    (272, Itv.isEmpty ((Itv.mulRevToPair binary64 (⟨.ninf, (f (2476979795053773) (-51))⟩ : Itv) (⟨.ninf, (f 0 0)⟩ : Itv)).2 : Itv)),
    (273, eqB ((Itv.mulRevToPair binary64 (⟨(f (-2) (0)), .pinf⟩ : Itv) (⟨.ninf, (f 0 0)⟩ : Itv)).1) (⟨.ninf, .pinf⟩)),
    (274, Itv.isEmpty ((Itv.mulRevToPair binary64 (⟨(f (-2) (0)), .pinf⟩ : Itv) (⟨.ninf, (f 0 0)⟩ : Itv)).2 : Itv)),
    (275, eqB ((Itv.mulRevToPair binary64 (⟨(f 0 0), .pinf⟩ : Itv) (⟨.ninf, (f 0 0)⟩ : Itv)).1) (⟨.ninf, .pinf⟩)),
    (276, Itv.isEmpty ((Itv.mulRevToPair binary64 (⟨(f 0 0), .pinf⟩ : Itv) (⟨.ninf, (f 0 0)⟩ : Itv)).2 : Itv)),
    (277, eqB ((Itv.mulRevToPair binary64 (⟨(f (5764607523034235) (-59)), .pinf⟩ : Itv) (⟨.ninf, (f 0 0)⟩ : Itv)).1) (⟨.ninf, (f 0 0)⟩)),
    (278, Itv.isEmpty ((Itv.mulRevToPair binary64 (⟨(f (5764607523034235) (-59)), .pinf⟩ : Itv) (⟨.ninf, (f 0 0)⟩ : Itv)).2 : Itv)),
    (279, eqB ((Itv.mulRevToPair binary64 (⟨.ninf, .pinf⟩ : Itv) (⟨.ninf, (f 0 0)⟩ : Itv)).1) (⟨.ninf, .pinf⟩)),
    (280, Itv.isEmpty ((Itv.mulRevToPair binary64 (⟨.ninf, .pinf⟩ : Itv) (⟨.ninf, (f 0 0)⟩ : Itv)).2 : Itv)),
    (282, eqB ((Itv.mulRevToPair binary64 (⟨(f (-2) (0)), (f (-3602879701896397) (-55))⟩ : Itv) (⟨.ninf, (f (5404319552844595) (-54))⟩ : Itv)).1) (⟨(f (-3) (0)), .pinf⟩)),
    (283, Itv.isEmpty ((Itv.mulRevToPair binary64 (⟨(f (-2) (0)), (f (-3602879701896397) (-55))⟩ : Itv) (⟨.ninf, (f (5404319552844595) (-54))⟩ : Itv)).2 : Itv)),
    (284, eqB ((Itv.mulRevToPair binary64 (⟨(f (-2) (0)), (f 0 0)⟩ : Itv) (⟨.ninf, (f (5404319552844595) (-54))⟩ : Itv)).1) (⟨.ninf, .pinf⟩)),
    (285, Itv.isEmpty ((Itv.mulRevToPair binary64 (⟨(f (-2) (0)), (f 0 0)⟩ : Itv) (⟨.ninf, (f (5404319552844595) (-54))⟩ : Itv)).2 : Itv)),
    (286, eqB ((Itv.mulRevToPair binary64 (⟨(f (-2) (0)), (f (2476979795053773) (-51))⟩ : Itv) (⟨.ninf, (f (5404319552844595) (-54))⟩ : Itv)).1) (⟨.ninf, .pinf⟩)),
    (287, Itv.isEmpty ((Itv.mulRevToPair binary64 (⟨(f (-2) (0)), (f (2476979795053773) (-51))⟩ : Itv) (⟨.ninf, (f (5404319552844595) (-54))⟩ : Itv)).2 : Itv)),
    (288, eqB ((Itv.mulRevToPair binary64 (⟨(f 0 0), (f (2476979795053773) (-51))⟩ : Itv) (⟨.ninf, (f (5404319552844595) (-54))⟩ : Itv)).1) (⟨.ninf, .pinf⟩)),
    (289, Itv.isEmpty ((Itv.mulRevToPair binary64 (⟨(f 0 0), (f (2476979795053773) (-51))⟩ : Itv) (⟨.ninf, (f (5404319552844595) (-54))⟩ : Itv)).2 : Itv)),
    (290, eqB ((Itv.mulRevToPair binary64 (⟨(f (5764607523034235) (-59)), (f (2476979795053773) (-51))⟩ : Itv) (⟨.ninf, (f (5404319552844595) (-54))⟩ : Itv)).1) (⟨.ninf, (f 30 0)⟩)),
    (291, Itv.isEmpty ((Itv.mulRevToPair binary64 (⟨(f (5764607523034235) (-59)), (f (2476979795053773) (-51))⟩ : Itv) (⟨.ninf, (f (5404319552844595) (-54))⟩ : Itv)).2 : Itv)),
    (292, eqB ((Itv.mulRevToPair binary64 (⟨(f 0 0), (f 0 0)⟩ : Itv) (⟨.ninf, (f (5404319552844595) (-54))⟩ : Itv)).1) (⟨.ninf, .pinf⟩)),
    (293, Itv.isEmpty ((Itv.mulRevToPair binary64 (⟨(f 0 0), (f 0 0)⟩ : Itv) (⟨.ninf, (f (5404319552844595) (-54))⟩ : Itv)).2 : Itv)),
    (294, eqB ((Itv.mulRevToPair binary64 (⟨.ninf, (f (-3602879701896397) (-55))⟩ : Itv) (⟨.ninf, (f (5404319552844595) (-54))⟩ : Itv)).1) (⟨(f (-3) (0)), .pinf⟩)),
    (295, Itv.isEmpty ((Itv.mulRevToPair binary64 (⟨.ninf, (f (-3602879701896397) (-55))⟩ : Itv) (⟨.ninf, (f (5404319552844595) (-54))⟩ : Itv)).2 : Itv)),
    (296, eqB ((Itv.mulRevToPair binary64 (⟨.ninf, (f 0 0)⟩ : Itv) (⟨.ninf, (f (5404319552844595) (-54))⟩ : Itv)).1) (⟨.ninf, .pinf⟩)),
    (297, Itv.isEmpty ((Itv.mulRevToPair binary64 (⟨.ninf, (f 0 0)⟩ : Itv) (⟨.ninf, (f (5404319552844595) (-54))⟩ : Itv)).2 : Itv)),
    (298, eqB ((Itv.mulRevToPair binary64 (⟨.ninf, (f (2476979795053773) (-51))⟩ : Itv) (⟨.ninf, (f (5404319552844595) (-54))⟩ : Itv)).1) (⟨.ninf, .pinf⟩)),
    (299, Itv.isEmpty ((Itv.mulRevToPair binary64 (⟨.ninf, (f (2476979795053773) (-51))⟩ : Itv) (⟨.ninf, (f (5404319552844595) (-54))⟩ : Itv)).2 : Itv)),
    (300, eqB ((Itv.mulRevToPair binary64 (⟨(f (-2) (0)), .pinf⟩ : Itv) (⟨.ninf, (f (5404319552844595) (-54))⟩ : Itv)).1) (⟨.ninf, .pinf⟩)),
    (301, Itv.isEmpty ((Itv.mulRevToPair binary64 (⟨(f (-2) (0)), .pinf⟩ : Itv) (⟨.ninf, (f (5404319552844595) (-54))⟩ : Itv)).2 : Itv)),
    (302, eqB ((Itv.mulRevToPair binary64 (⟨(f 0 0), .pinf⟩ : Itv) (⟨.ninf, (f (5404319552844595) (-54))⟩ : Itv)).1) (⟨.ninf, .pinf⟩)),
    (303, Itv.isEmpty ((Itv.mulRevToPair binary64 (⟨(f 0 0), .pinf⟩ : Itv) (⟨.ninf, (f (5404319552844595) (-54))⟩ : Itv)).2 : Itv)),
    (304, eqB ((Itv.mulRevToPair binary64 (⟨(f (5764607523034235) (-59)), .pinf⟩ : Itv) (⟨.ninf, (f (5404319552844595) (-54))⟩ : Itv)).1) (⟨.ninf, (f 30 0)⟩)),
    (305, Itv.isEmpty ((Itv.mulRevToPair binary64 (⟨(f (5764607523034235) (-59)), .pinf⟩ : Itv) (⟨.ninf, (f (5404319552844595) (-54))⟩ : Itv)).2 : Itv)),
    (306, eqB ((Itv.mulRevToPair binary64 (⟨.ninf, .pinf⟩ : Itv) (⟨.ninf, (f (5404319552844595) (-54))⟩ : Itv)).1) (⟨.ninf, .pinf⟩)),
    (307, Itv.isEmpty ((Itv.mulRevToPair binary64 (⟨.ninf, .pinf⟩ : Itv) (⟨.ninf, (f (5404319552844595) (-54))⟩ : Itv)).2 : Itv)),
    (309, eqB ((Itv.mulRevToPair binary64 (⟨(f (-2) (0)), (f (-3602879701896397) (-55))⟩ : Itv) (⟨(f (-7566047373982433) (-55)), .pinf⟩ : Itv)).1) (⟨.ninf, (f (4728779608739021) (-51))⟩)),
    (310, Itv.isEmpty ((Itv.mulRevToPair binary64 (⟨(f (-2) (0)), (f (-3602879701896397) (-55))⟩ : Itv) (⟨(f (-7566047373982433) (-55)), .pinf⟩ : Itv)).2 : Itv)),
    (311, eqB ((Itv.mulRevToPair binary64 (⟨(f (-2) (0)), (f 0 0)⟩ : Itv) (⟨(f (-7566047373982433) (-55)), .pinf⟩ : Itv)).1) (⟨.ninf, .pinf⟩)),
    (312, Itv.isEmpty ((Itv.mulRevToPair binary64 (⟨(f (-2) (0)), (f 0 0)⟩ : Itv) (⟨(f (-7566047373982433) (-55)), .pinf⟩ : Itv)).2 : Itv)),
    (313, eqB ((Itv.mulRevToPair binary64 (⟨(f (-2) (0)), (f (2476979795053773) (-51))⟩ : Itv) (⟨(f (-7566047373982433) (-55)), .pinf⟩ : Itv)).1) (⟨.ninf, .pinf⟩)),
    (314, Itv.isEmpty ((Itv.mulRevToPair binary64 (⟨(f (-2) (0)), (f (2476979795053773) (-51))⟩ : Itv) (⟨(f (-7566047373982433) (-55)), .pinf⟩ : Itv)).2 : Itv)),
    (315, eqB ((Itv.mulRevToPair binary64 (⟨(f 0 0), (f (2476979795053773) (-51))⟩ : Itv) (⟨(f (-7566047373982433) (-55)), .pinf⟩ : Itv)).1) (⟨.ninf, .pinf⟩)),
    (316, Itv.isEmpty ((Itv.mulRevToPair binary64 (⟨(f 0 0), (f (2476979795053773) (-51))⟩ : Itv) (⟨(f (-7566047373982433) (-55)), .pinf⟩ : Itv)).2 : Itv)),
    (317, eqB ((Itv.mulRevToPair binary64 (⟨(f (5764607523034235) (-59)), (f (2476979795053773) (-51))⟩ : Itv) (⟨(f (-7566047373982433) (-55)), .pinf⟩ : Itv)).1) (⟨(f (-21) (0)), .pinf⟩)),
    (318, Itv.isEmpty ((Itv.mulRevToPair binary64 (⟨(f (5764607523034235) (-59)), (f (2476979795053773) (-51))⟩ : Itv) (⟨(f (-7566047373982433) (-55)), .pinf⟩ : Itv)).2 : Itv))] : List (ℕ × Bool)).all (·.2) = true := by
  decide +kernel

example : ([
    (319, eqB ((Itv.mulRevToPair binary64 (⟨(f 0 0), (f 0 0)⟩ : Itv) (⟨(f (-7566047373982433) (-55)), .pinf⟩ : Itv)).1) (⟨.ninf, .pinf⟩)),
    (320, Itv.isEmpty ((Itv.mulRevToPair binary64 (⟨(f 0 0), (f 0 0)⟩ : Itv) (⟨(f (-7566047373982433) (-55)), .pinf⟩ : Itv)).2 : Itv)),
    (321, eqB ((Itv.mulRevToPair binary64 (⟨.ninf, (f (-3602879701896397) (-55))⟩ : Itv) (⟨(f (-7566047373982433) (-55)), .pinf⟩ : Itv)).1) (⟨.ninf, (f (4728779608739021) (-51))⟩)),
    (322, Itv.isEmpty ((Itv.mulRevToPair binary64 (⟨.ninf, (f (-3602879701896397) (-55))⟩ : Itv) (⟨(f (-7566047373982433) (-55)), .pinf⟩ : Itv)).2 : Itv)),
    (323, eqB ((Itv.mulRevToPair binary64 (⟨.ninf, (f 0 0)⟩ : Itv) (⟨(f (-7566047373982433) (-55)), .pinf⟩ : Itv)).1) (⟨.ninf, .pinf⟩)),
    (324, Itv.isEmpty ((Itv.mulRevToPair binary64 (⟨.ninf, (f 0 0)⟩ : Itv) (⟨(f (-7566047373982433) (-55)), .pinf⟩ : Itv)).2 : Itv)),
    (325, eqB ((Itv.mulRevToPair binary64 (⟨.ninf, (f (2476979795053773) (-51))⟩ : Itv) (⟨(f (-7566047373982433) (-55)), .pinf⟩ : Itv)).1) (⟨.ninf, .pinf⟩)),
    (326, Itv.isEmpty ((Itv.mulRevToPair binary64 (⟨.ninf, (f (2476979795053773) (-51))⟩ : Itv) (⟨(f (-7566047373982433) (-55)), .pinf⟩ : Itv)).2 : Itv)),
    (327, eqB ((Itv.mulRevToPair binary64 (⟨(f (-2) (0)), .pinf⟩ : Itv) (⟨(f (-7566047373982433) (-55)), .pinf⟩ : Itv)).1) (⟨.ninf, .pinf⟩)),
    (328, Itv.isEmpty ((Itv.mulRevToPair binary64 (⟨(f (-2) (0)), .pinf⟩ : Itv) (⟨(f (-7566047373982433) (-55)), .pinf⟩ : Itv)).2 : Itv)),
    (329, eqB ((Itv.mulRevToPair binary64 (⟨(f 0 0), .pinf⟩ : Itv) (⟨(f (-7566047373982433) (-55)), .pinf⟩ : Itv)).1) (⟨.ninf, .pinf⟩)),
    (330, Itv.isEmpty ((Itv.mulRevToPair binary64 (⟨(f 0 0), .pinf⟩ : Itv) (⟨(f (-7566047373982433) (-55)), .pinf⟩ : Itv)).2 : Itv)),
    (331, eqB ((Itv.mulRevToPair binary64 (⟨(f (5764607523034235) (-59)), .pinf⟩ : Itv) (⟨(f (-7566047373982433) (-55)), .pinf⟩ : Itv)).1) (⟨(f (-21) (0)), .pinf⟩)),
    (332, Itv.isEmpty ((Itv.mulRevToPair binary64 (⟨(f (5764607523034235) (-59)), .pinf⟩ : Itv) (⟨(f (-7566047373982433) (-55)), .pinf⟩ : Itv)).2 : Itv)),
    (333, eqB ((Itv.mulRevToPair binary64 (⟨.ninf, .pinf⟩ : Itv) (⟨(f (-7566047373982433) (-55)), .pinf⟩ : Itv)).1) (⟨.ninf, .pinf⟩)),
    (334, Itv.isEmpty ((Itv.mulRevToPair binary64 (⟨.ninf, .pinf⟩ : Itv) (⟨(f (-7566047373982433) (-55)), .pinf⟩ : Itv)).2 : Itv)),
    (336, eqB ((Itv.mulRevToPair binary64 (⟨(f (-2) (0)), (f (-3602879701896397) (-55))⟩ : Itv) (⟨(f 0 0), .pinf⟩ : Itv)).1) (⟨.ninf, (f 0 0)⟩)),
    (337, Itv.isEmpty ((Itv.mulRevToPair binary64 (⟨(f (-2) (0)), (f (-3602879701896397) (-55))⟩ : Itv) (⟨(f 0 0), .pinf⟩ : Itv)).2 : Itv)),
    (338, eqB ((Itv.mulRevToPair binary64 (⟨(f (-2) (0)), (f 0 0)⟩ : Itv) (⟨(f 0 0), .pinf⟩ : Itv)).1) (⟨.ninf, .pinf⟩)),
    (339, Itv.isEmpty ((Itv.mulRevToPair binary64 (⟨(f (-2) (0)), (f 0 0)⟩ : Itv) (⟨(f 0 0), .pinf⟩ : Itv)).2 : Itv)),
    (340, eqB ((Itv.mulRevToPair binary64 (⟨(f (-2) (0)), (f (2476979795053773) (-51))⟩ : Itv) (⟨(f 0 0), .pinf⟩ : Itv)).1) (⟨.ninf, .pinf⟩)),
    (341, Itv.isEmpty ((Itv.mulRevToPair binary64 (⟨(f (-2) (0)), (f (2476979795053773) (-51))⟩ : Itv) (⟨(f 0 0), .pinf⟩ : Itv)).2 : Itv)),
    (342, eqB ((Itv.mulRevToPair binary64 (⟨(f 0 0), (f (2476979795053773) (-51))⟩ : Itv) (⟨(f 0 0), .pinf⟩ : Itv)).1) (⟨.ninf, .pinf⟩)),
    (343, Itv.isEmpty ((Itv.mulRevToPair binary64 (⟨(f 0 0), (f (2476979795053773) (-51))⟩ : Itv) (⟨(f 0 0), .pinf⟩ : Itv)).2 : Itv)),
    (344, eqB ((Itv.mulRevToPair binary64 (⟨(f (5764607523034235) (-59)), (f (2476979795053773) (-51))⟩ : Itv) (⟨(f 0 0), .pinf⟩ : Itv)).1) (⟨(f 0 0), .pinf⟩)),
    (345, Itv.isEmpty ((Itv.mulRevToPair binary64 (⟨(f (5764607523034235) (-59)), (f (2476979795053773) (-51))⟩ : Itv) (⟨(f 0 0), .pinf⟩ : Itv)).2 : Itv)),
    (346, eqB ((Itv.mulRevToPair binary64 (⟨(f 0 0), (f 0 0)⟩ : Itv) (⟨(f 0 0), .pinf⟩ : Itv)).1) (⟨.ninf, .pinf⟩)),
    (347, Itv.isEmpty ((Itv.mulRevToPair binary64 (⟨(f 0 0), (f 0 0)⟩ : Itv) (⟨(f 0 0), .pinf⟩ : Itv)).2 : Itv)),
    (348, eqB ((Itv.mulRevToPair binary64 (⟨.ninf, (f (-3602879701896397) (-55))⟩ : Itv) (⟨(f 0 0), .pinf⟩ : Itv)).1) (⟨.ninf, (f 0 0)⟩)),
    (349, Itv.isEmpty ((Itv.mulRevToPair binary64 (⟨.ninf, (f (-3602879701896397) (-55))⟩ : Itv) (⟨(f 0 0), .pinf⟩ : Itv)).2 : Itv)),
    (350, eqB ((Itv.mulRevToPair binary64 (⟨.ninf, (f 0 0)⟩ : Itv) (⟨(f 0 0), .pinf⟩ : Itv)).1) (⟨.ninf, .pinf⟩)),
    (351, Itv.isEmpty ((Itv.mulRevToPair binary64 (⟨.ninf, (f 0 0)⟩ : Itv) (⟨(f 0 0), .pinf⟩ : Itv)).2 : Itv)),
    (352, eqB ((Itv.mulRevToPair binary64 (⟨.ninf, (f (2476979795053773) (-51))⟩ : Itv) (⟨(f 0 0), .pinf⟩ : Itv)).1) (⟨.ninf, .pinf⟩)),
    (353, Itv.isEmpty ((Itv.mulRevToPair binary64 (⟨.ninf, (f (2476979795053773) (-51))⟩ : Itv) (⟨(f 0 0), .pinf⟩ : Itv)).2 : Itv)),
    (354, eqB ((Itv.mulRevToPair binary64 (⟨(f (-2) (0)), .pinf⟩ : Itv) (⟨(f 0 0), .pinf⟩ : Itv)).1) (⟨.ninf, .pinf⟩)),
    (355, Itv.isEmpty ((Itv.mulRevToPair binary64 (⟨(f (-2) (0)), .pinf⟩ : Itv) (⟨(f 0 0), .pinf⟩ : Itv)).2 : Itv)),
    (356, eqB ((Itv.mulRevToPair binary64 (⟨(f 0 0), .pinf⟩ : Itv) (⟨(f 0 0), .pinf⟩ : Itv)).1) (⟨.ninf, .pinf⟩)),
    (357, Itv.isEmpty ((Itv.mulRevToPair binary64 (⟨(f 0 0), .pinf⟩ : Itv) (⟨(f 0 0), .pinf⟩ : Itv)).2 : Itv)),
    (358, eqB ((Itv.mulRevToPair binary64 (⟨(f (5764607523034235) (-59)), .pinf⟩ : Itv) (⟨(f 0 0), .pinf⟩ : Itv)).1) (⟨(f 0 0), .pinf⟩)),
    (359, Itv.isEmpty ((Itv.mulRevToPair binary64 (⟨(f (5764607523034235) (-59)), .pinf⟩ : Itv) (⟨(f 0 0), .pinf⟩ : Itv)).2 : Itv)),
    (360, eqB ((Itv.mulRevToPair binary64 (⟨.ninf, .pinf⟩ : Itv) (⟨(f 0 0), .pinf⟩ : Itv)).1) (⟨.ninf, .pinf⟩)),
    (361, Itv.isEmpty ((Itv.mulRevToPair binary64 (⟨.ninf, .pinf⟩ : Itv) (⟨(f 0 0), .pinf⟩ : Itv)).2 : Itv)),
    (363, eqB ((Itv.mulRevToPair binary64 (⟨(f (-2) (0)), (f (-3602879701896397) (-55))⟩ : Itv) (⟨(f (5764607523034235) (-57)), .pinf⟩ : Itv)).1) (⟨.ninf, (f (-5764607523034235) (-58))⟩)),
    (364, Itv.isEmpty ((Itv.mulRevToPair binary64 (⟨(f (-2) (0)), (f (-3602879701896397) (-55))⟩ : Itv) (⟨(f (5764607523034235) (-57)), .pinf⟩ : Itv)).2 : Itv)),
    (365, eqB ((Itv.mulRevToPair binary64 (⟨(f (-2) (0)), (f 0 0)⟩ : Itv) (⟨(f (5764607523034235) (-57)), .pinf⟩ : Itv)).1) (⟨.ninf, (f (-5764607523034235) (-58))⟩)),
    (366, Itv.isEmpty ((Itv.mulRevToPair binary64 (⟨(f (-2) (0)), (f 0 0)⟩ : Itv) (⟨(f (5764607523034235) (-57)), .pinf⟩ : Itv)).2 : Itv)),
    (367, eqB ((Itv.mulRevToPair binary64 (⟨(f (-2) (0)), (f (2476979795053773) (-51))⟩ : Itv) (⟨(f (5764607523034235) (-57)), .pinf⟩ : Itv)).1) (⟨.ninf, (f (-5764607523034235) (-58))⟩)),
    (368, eqB ((Itv.mulRevToPair binary64 (⟨(f (-2) (0)), (f (2476979795053773) (-51))⟩ : Itv) (⟨(f (5764607523034235) (-57)), .pinf⟩ : Itv)).2) (⟨(f (5240552293667485) (-57)), .pinf⟩)),
    (369, eqB ((Itv.mulRevToPair binary64 (⟨(f 0 0), (f (2476979795053773) (-51))⟩ : Itv) (⟨(f (5764607523034235) (-57)), .pinf⟩ : Itv)).1) (⟨(f (5240552293667485) (-57)), .pinf⟩)),
    (370, Itv.isEmpty ((Itv.mulRevToPair binary64 (⟨(f 0 0), (f (2476979795053773) (-51))⟩ : Itv) (⟨(f (5764607523034235) (-57)), .pinf⟩ : Itv)).2 : Itv))] : List (ℕ × Bool)).all (·.2) = true := by
  decide +kernel

example : ([
    (371, eqB ((Itv.mulRevToPair binary64 (⟨(f (5764607523034235) (-59)), (f (2476979795053773) (-51))⟩ : Itv) (⟨(f (5764607523034235) (-57)), .pinf⟩ : Itv)).1) (⟨(f (5240552293667485) (-57)), .pinf⟩)),
    (372, Itv.isEmpty ((Itv.mulRevToPair binary64 (⟨(f (5764607523034235) (-59)), (f (2476979795053773) (-51))⟩ : Itv) (⟨(f (5764607523034235) (-57)), .pinf⟩ : Itv)).2 : Itv)),
    (373, Itv.isEmpty ((Itv.mulRevToPair binary64 (⟨(f 0 0), (f 0 0)⟩ : Itv) (⟨(f (5764607523034235) (-57)), .pinf⟩ : Itv)).1 : Itv)),
    (374, Itv.isEmpty ((Itv.mulRevToPair binary64 (⟨(f 0 0), (f 0 0)⟩ : Itv) (⟨(f (5764607523034235) (-57)), .pinf⟩ : Itv)).2 : Itv)),
    (375, eqB ((Itv.mulRevToPair binary64 (⟨.ninf, (f (-3602879701896397) (-55))⟩ : Itv) (⟨(f (5764607523034235) (-57)), .pinf⟩ : Itv)).1) (⟨.ninf, (f 0 0)⟩)),
    (376, Itv.isEmpty ((Itv.mulRevToPair binary64 (⟨.ninf, (f (-3602879701896397) (-55))⟩ : Itv) (⟨(f (5764607523034235) (-57)), .pinf⟩ : Itv)).2 : Itv)),
    (377, eqB ((Itv.mulRevToPair binary64 (⟨.ninf, (f 0 0)⟩ : Itv) (⟨(f (5764607523034235) (-57)), .pinf⟩ : Itv)).1) (⟨.ninf, (f 0 0)⟩)),
    (378, Itv.isEmpty ((Itv.mulRevToPair binary64 (⟨.ninf, (f 0 0)⟩ : Itv) (⟨(f (5764607523034235) (-57)), .pinf⟩ : Itv)).2 : Itv)),
    (379, eqB ((Itv.mulRevToPair binary64 (⟨.ninf, (f (2476979795053773) (-51))⟩ : Itv) (⟨(f (5764607523034235) (-57)), .pinf⟩ : Itv)).1) (⟨.ninf, (f 0 0)⟩)),
    (380, eqB ((Itv.mulRevToPair binary64 (⟨.ninf, (f (2476979795053773) (-51))⟩ : Itv) (⟨(f (5764607523034235) (-57)), .pinf⟩ : Itv)).2) (⟨(f (5240552293667485) (-57)), .pinf⟩)),
    (381, eqB ((Itv.mulRevToPair binary64 (⟨(f (-2) (0)), .pinf⟩ : Itv) (⟨(f (5764607523034235) (-57)), .pinf⟩ : Itv)).1) (⟨.ninf, (f (-5764607523034235) (-58))⟩)),
    (382, eqB ((Itv.mulRevToPair binary64 (⟨(f (-2) (0)), .pinf⟩ : Itv) (⟨(f (5764607523034235) (-57)), .pinf⟩ : Itv)).2) (⟨(f 0 0), .pinf⟩)),
    (383, eqB ((Itv.mulRevToPair binary64 (⟨(f 0 0), .pinf⟩ : Itv) (⟨(f (5764607523034235) (-57)), .pinf⟩ : Itv)).1) (⟨(f 0 0), .pinf⟩)),
    (384, Itv.isEmpty ((Itv.mulRevToPair binary64 (⟨(f 0 0), .pinf⟩ : Itv) (⟨(f (5764607523034235) (-57)), .pinf⟩ : Itv)).2 : Itv)),
    (385, eqB ((Itv.mulRevToPair binary64 (⟨(f (5764607523034235) (-59)), .pinf⟩ : Itv) (⟨(f (5764607523034235) (-57)), .pinf⟩ : Itv)).1) (⟨(f 0 0), .pinf⟩)),
    (386, Itv.isEmpty ((Itv.mulRevToPair binary64 (⟨(f (5764607523034235) (-59)), .pinf⟩ : Itv) (⟨(f (5764607523034235) (-57)), .pinf⟩ : Itv)).2 : Itv)),
    (387, eqB ((Itv.mulRevToPair binary64 (⟨.ninf, .pinf⟩ : Itv) (⟨(f (5764607523034235) (-57)), .pinf⟩ : Itv)).1) (⟨.ninf, (f 0 0)⟩)),
    (388, eqB ((Itv.mulRevToPair binary64 (⟨.ninf, .pinf⟩ : Itv) (⟨(f (5764607523034235) (-57)), .pinf⟩ : Itv)).2) (⟨(f 0 0), .pinf⟩)),
    (390, eqB ((Itv.mulRevToPair binary64 (⟨(f (-2) (0)), (f (-3602879701896397) (-55))⟩ : Itv) (⟨.ninf, .pinf⟩ : Itv)).1) (⟨.ninf, .pinf⟩)),
    (391, Itv.isEmpty ((Itv.mulRevToPair binary64 (⟨(f (-2) (0)), (f (-3602879701896397) (-55))⟩ : Itv) (⟨.ninf, .pinf⟩ : Itv)).2 : Itv)),
    (392, eqB ((Itv.mulRevToPair binary64 (⟨(f (-2) (0)), (f 0 0)⟩ : Itv) (⟨.ninf, .pinf⟩ : Itv)).1) (⟨.ninf, .pinf⟩)),
    (393, Itv.isEmpty ((Itv.mulRevToPair binary64 (⟨(f (-2) (0)), (f 0 0)⟩ : Itv) (⟨.ninf, .pinf⟩ : Itv)).2 : Itv)),
    (394, eqB ((Itv.mulRevToPair binary64 (⟨(f (-2) (0)), (f (2476979795053773) (-51))⟩ : Itv) (⟨.ninf, .pinf⟩ : Itv)).1) (⟨.ninf, .pinf⟩)),
    (395, Itv.isEmpty ((Itv.mulRevToPair binary64 (⟨(f (-2) (0)), (f (2476979795053773) (-51))⟩ : Itv) (⟨.ninf, .pinf⟩ : Itv)).2 : Itv)),
    (396, eqB ((Itv.mulRevToPair binary64 (⟨(f 0 0), (f (2476979795053773) (-51))⟩ : Itv) (⟨.ninf, .pinf⟩ : Itv)).1) (⟨.ninf, .pinf⟩)),
    (397, Itv.isEmpty ((Itv.mulRevToPair binary64 (⟨(f 0 0), (f (2476979795053773) (-51))⟩ : Itv) (⟨.ninf, .pinf⟩ : Itv)).2 : Itv)),
    (398, eqB ((Itv.mulRevToPair binary64 (⟨(f (5764607523034235) (-59)), (f (2476979795053773) (-51))⟩ : Itv) (⟨.ninf, .pinf⟩ : Itv)).1) (⟨.ninf, .pinf⟩)),
    (399, Itv.isEmpty ((Itv.mulRevToPair binary64 (⟨(f (5764607523034235) (-59)), (f (2476979795053773) (-51))⟩ : Itv) (⟨.ninf, .pinf⟩ : Itv)).2 : Itv)),
    (400, eqB ((Itv.mulRevToPair binary64 (⟨(f 0 0), (f 0 0)⟩ : Itv) (⟨.ninf, .pinf⟩ : Itv)).1) (⟨.ninf, .pinf⟩)),
    (401, Itv.isEmpty ((Itv.mulRevToPair binary64 (⟨(f 0 0), (f 0 0)⟩ : Itv) (⟨.ninf, .pinf⟩ : Itv)).2 : Itv)),
    (402, eqB ((Itv.mulRevToPair binary64 (⟨.ninf, (f (-3602879701896397) (-55))⟩ : Itv) (⟨.ninf, .pinf⟩ : Itv)).1) (⟨.ninf, .pinf⟩)),
    (403, Itv.isEmpty ((Itv.mulRevToPair binary64 (⟨.ninf, (f (-3602879701896397) (-55))⟩ : Itv) (⟨.ninf, .pinf⟩ : Itv)).2 : Itv)),
    (404, eqB ((Itv.mulRevToPair binary64 (⟨.ninf, (f 0 0)⟩ : Itv) (⟨.ninf, .pinf⟩ : Itv)).1) (⟨.ninf, .pinf⟩)),
    (405, Itv.isEmpty ((Itv.mulRevToPair binary64 (⟨.ninf, (f 0 0)⟩ : Itv) (⟨.ninf, .pinf⟩ : Itv)).2 : Itv)),
    (406, eqB ((Itv.mulRevToPair binary64 (⟨.ninf, (f (2476979795053773) (-51))⟩ : Itv) (⟨.ninf, .pinf⟩ : Itv)).1) (⟨.ninf, .pinf⟩)),
    (407, Itv.isEmpty ((Itv.mulRevToPair binary64 (⟨.ninf, (f (2476979795053773) (-51))⟩ : Itv) (⟨.ninf, .pinf⟩ : Itv)).2 : Itv)),
    (408, eqB ((Itv.mulRevToPair binary64 (⟨(f (-2) (0)), .pinf⟩ : Itv) (⟨.ninf, .pinf⟩ : Itv)).1) (⟨.ninf, .pinf⟩)),
    (409, Itv.isEmpty ((Itv.mulRevToPair binary64 (⟨(f (-2) (0)), .pinf⟩ : Itv) (⟨.ninf, .pinf⟩ : Itv)).2 : Itv)),
    (410, eqB ((Itv.mulRevToPair binary64 (⟨(f 0 0), .pinf⟩ : Itv) (⟨.ninf, .pinf⟩ : Itv)).1) (⟨.ninf, .pinf⟩)),
    (411, Itv.isEmpty ((Itv.mulRevToPair binary64 (⟨(f 0 0), .pinf⟩ : Itv) (⟨.ninf, .pinf⟩ : Itv)).2 : Itv)),
    (412, eqB ((Itv.mulRevToPair binary64 (⟨(f (5764607523034235) (-59)), .pinf⟩ : Itv) (⟨.ninf, .pinf⟩ : Itv)).1) (⟨.ninf, .pinf⟩)),
    (413, Itv.isEmpty ((Itv.mulRevToPair binary64 (⟨(f (5764607523034235) (-59)), .pinf⟩ : Itv) (⟨.ninf, .pinf⟩ : Itv)).2 : Itv)),
    (414, eqB ((Itv.mulRevToPair binary64 (⟨.ninf, .pinf⟩ : Itv) (⟨.ninf, .pinf⟩ : Itv)).1) (⟨.ninf, .pinf⟩)),
    (415, Itv.isEmpty ((Itv.mulRevToPair binary64 (⟨.ninf, .pinf⟩ : Itv) (⟨.ninf, .pinf⟩ : Itv)).2 : Itv)),
    (421, Itv.isEmpty ((Itv.mulRevToPair binary64 (⟨(f 1 0), (f (-2) (0))⟩ : Itv) (⟨(f 1 0), (f 2 0)⟩ : Itv)).1 : Itv)),
    (422, Itv.isEmpty ((Itv.mulRevToPair binary64 (⟨(f 1 0), (f (-2) (0))⟩ : Itv) (⟨(f 1 0), (f 2 0)⟩ : Itv)).2 : Itv)),
    (437, Itv.isEmpty ((Itv.mulRevToPairMixed .double .float .double (Itv.empty : Itv) (⟨(f 1 0), (f 2 0)⟩ : Itv)).1 : Itv)),
    (438, Itv.isEmpty ((Itv.mulRevToPairMixed .double .float .double (Itv.empty : Itv) (⟨(f 1 0), (f 2 0)⟩ : Itv)).2 : Itv)),
    (439, Itv.isEmpty ((Itv.mulRevToPairMixed .float .double .double (⟨(f 1 0), (f 2 0)⟩ : Itv) (Itv.empty : Itv)).1 : Itv)),
    (440, Itv.isEmpty ((Itv.mulRevToPairMixed .float .double .double (⟨(f 1 0), (f 2 0)⟩ : Itv) (Itv.empty : Itv)).2 : Itv))] : List (ℕ × Bool)).all (·.2) = true := by
  decide +kernel

example : ([
    (442, eqB ((Itv.mulRevToPairMixed .float .double .double (⟨(f (-2) (0)), (f (-3602879701896397) (-55))⟩ : Itv) (⟨(f (-4728779608739021) (-51)), (f (-3602879701896397) (-53))⟩ : Itv)).1) (⟨(f (3355443) (-24)), (f 21 0)⟩)),
    (443, Itv.isEmpty ((Itv.mulRevToPairMixed .float .double .double (⟨(f (-2) (0)), (f (-3602879701896397) (-55))⟩ : Itv) (⟨(f (-4728779608739021) (-51)), (f (-3602879701896397) (-53))⟩ : Itv)).2 : Itv)),
    (445, eqB ((Itv.mulRevToPairMixed .float .double .double (⟨(f (5764607523034235) (-59)), (f (2476979795053773) (-51))⟩ : Itv) (⟨(f (-4728779608739021) (-51)), (f 0 0)⟩ : Itv)).1) (⟨(f (-13762561) (-16)), (f 0 0)⟩)),
    (446, Itv.isEmpty ((Itv.mulRevToPairMixed .float .double .double (⟨(f (5764607523034235) (-59)), (f (2476979795053773) (-51))⟩ : Itv) (⟨(f (-4728779608739021) (-51)), (f 0 0)⟩ : Itv)).2 : Itv)),
    (448, eqB ((Itv.mulRevToPairMixed .float .double .double (⟨(f (5764607523034235) (-59)), (f (2476979795053773) (-51))⟩ : Itv) (⟨(f (-4728779608739021) (-51)), (f (1080863910568919) (-53))⟩ : Itv)).1) (⟨(f (-13762561) (-16)), (f 12 0)⟩)),
    (449, Itv.isEmpty ((Itv.mulRevToPairMixed .float .double .double (⟨(f (5764607523034235) (-59)), (f (2476979795053773) (-51))⟩ : Itv) (⟨(f (-4728779608739021) (-51)), (f (1080863910568919) (-53))⟩ : Itv)).2 : Itv)),
    (451, eqB ((Itv.mulRevToPairMixed .double .float .float (⟨(f (5368709) (-29)), .pinf⟩ : Itv) (⟨(f 0 0), (f (16106127) (-27))⟩ : Itv)).1) (⟨(f 0 0), (f 12 0)⟩)),
    (452, Itv.isEmpty ((Itv.mulRevToPairMixed .double .float .float (⟨(f (5368709) (-29)), .pinf⟩ : Itv) (⟨(f 0 0), (f (16106127) (-27))⟩ : Itv)).2 : Itv)),
    (454, eqB ((Itv.mulRevToPairMixed .double .float .float (⟨(f (-2) (0)), (f (9227469) (-23))⟩ : Itv) (⟨(f (5368709) (-29)), (f (16106127) (-27))⟩ : Itv)).1) (⟨.ninf, (f (-5368709) (-30))⟩)),
    (455, eqB ((Itv.mulRevToPairMixed .double .float .float (⟨(f (-2) (0)), (f (9227469) (-23))⟩ : Itv) (⟨(f (5368709) (-29)), (f (16106127) (-27))⟩ : Itv)).2) (⟨(f (5240552062946107) (-59)), .pinf⟩)),
    (458, eqB ((Itv.mulRevToPairMixed .double .float .double (⟨(f (-2) (0)), (f (9227469) (-23))⟩ : Itv) (⟨.ninf, (f (-3602879701896397) (-55))⟩ : Itv)).1) (⟨.ninf, (f (-6550690225101971) (-56))⟩)),
    (459, eqB ((Itv.mulRevToPairMixed .double .float .double (⟨(f (-2) (0)), (f (9227469) (-23))⟩ : Itv) (⟨.ninf, (f (-3602879701896397) (-55))⟩ : Itv)).2) (⟨(f (3602879701896397) (-56)), .pinf⟩)),
    (462, eqB ((Itv.mulRevToPairMixed .float .double .double (⟨(f (-2) (0)), (f (2476979795053773) (-51))⟩ : Itv) (⟨(f (5764607523034235) (-57)), .pinf⟩ : Itv)).1) (⟨.ninf, (f (-5368709) (-28))⟩)),
    (463, eqB ((Itv.mulRevToPairMixed .float .double .double (⟨(f (-2) (0)), (f (2476979795053773) (-51))⟩ : Itv) (⟨(f (5764607523034235) (-57)), .pinf⟩ : Itv)).2) (⟨(f (9761289) (-28)), .pinf⟩)),
    (469, Itv.isEmpty ((Itv.mulRevToPairMixed .float .double .double (⟨(f 1 0), (f (-2) (0))⟩ : Itv) (⟨(f 1 0), (f 2 0)⟩ : Itv)).1 : Itv)),
    (470, Itv.isEmpty ((Itv.mulRevToPairMixed .float .double .double (⟨(f 1 0), (f (-2) (0))⟩ : Itv) (⟨(f 1 0), (f 2 0)⟩ : Itv)).2 : Itv)),
    (485, DItv.isNai ((DItv.mulRevToPair binary64 (DItv.nai : DItv) (⟨⟨(f 1 0), (f 2 0)⟩, .defd⟩ : DItv)).1 : DItv)),
    (486, DItv.isNai ((DItv.mulRevToPair binary64 (DItv.nai : DItv) (⟨⟨(f 1 0), (f 2 0)⟩, .defd⟩ : DItv)).2 : DItv)),
    (487, DItv.isNai ((DItv.mulRevToPair binary64 (⟨⟨(f 1 0), (f 2 0)⟩, .com⟩ : DItv) (DItv.nai : DItv)).1 : DItv)),
    (488, DItv.isNai ((DItv.mulRevToPair binary64 (⟨⟨(f 1 0), (f 2 0)⟩, .com⟩ : DItv) (DItv.nai : DItv)).2 : DItv)),
    (489, DItv.isNai ((DItv.mulRevToPair binary64 (DItv.nai : DItv) (DItv.nai : DItv)).1 : DItv)),
    (490, DItv.isNai ((DItv.mulRevToPair binary64 (DItv.nai : DItv) (DItv.nai : DItv)).2 : DItv)),
    (493, DItv.pred Itv.isEmpty ((DItv.mulRevToPair binary64 (DItv.empty : DItv) (⟨⟨(f 1 0), (f 2 0)⟩, .defd⟩ : DItv)).1 : DItv)),
    (494, DItv.pred Itv.isEmpty ((DItv.mulRevToPair binary64 (DItv.empty : DItv) (⟨⟨(f 1 0), (f 2 0)⟩, .defd⟩ : DItv)).2 : DItv)),
    (495, DItv.pred Itv.isEmpty ((DItv.mulRevToPair binary64 (⟨⟨(f 1 0), (f 2 0)⟩, .com⟩ : DItv) (DItv.empty : DItv)).1 : DItv)),
    (496, DItv.pred Itv.isEmpty ((DItv.mulRevToPair binary64 (⟨⟨(f 1 0), (f 2 0)⟩, .com⟩ : DItv) (DItv.empty : DItv)).2 : DItv)),
    (497, DItv.pred Itv.isEmpty ((DItv.mulRevToPair binary64 (DItv.empty : DItv) (DItv.empty : DItv)).1 : DItv)),
    (498, DItv.pred Itv.isEmpty ((DItv.mulRevToPair binary64 (DItv.empty : DItv) (DItv.empty : DItv)).2 : DItv)),
    (501, eqD ((DItv.mulRevToPair binary64 (⟨⟨(f (-2) (0)), (f (-3602879701896397) (-55))⟩, .com⟩ : DItv) (⟨⟨(f (-4728779608739021) (-51)), (f (-3602879701896397) (-53))⟩, .com⟩ : DItv)).1) (⟨⟨(f (3602879701896397) (-54)), (f 21 0)⟩, .com⟩)),
    (502, DItv.pred Itv.isEmpty ((DItv.mulRevToPair binary64 (⟨⟨(f (-2) (0)), (f (-3602879701896397) (-55))⟩, .com⟩ : DItv) (⟨⟨(f (-4728779608739021) (-51)), (f (-3602879701896397) (-53))⟩, .com⟩ : DItv)).2 : DItv)),
    (503, eqD ((DItv.mulRevToPair binary64 (⟨⟨(f (-2) (0)), (f 0 0)⟩, .dac⟩ : DItv) (⟨⟨(f (-4728779608739021) (-51)), (f (-3602879701896397) (-53))⟩, .com⟩ : DItv)).1) (⟨⟨(f (3602879701896397) (-54)), .pinf⟩, .trv⟩)),
    (504, DItv.pred Itv.isEmpty ((DItv.mulRevToPair binary64 (⟨⟨(f (-2) (0)), (f 0 0)⟩, .dac⟩ : DItv) (⟨⟨(f (-4728779608739021) (-51)), (f (-3602879701896397) (-53))⟩, .com⟩ : DItv)).2 : DItv)),
    (505, eqD ((DItv.mulRevToPair binary64 (⟨⟨(f (-2) (0)), (f (2476979795053773) (-51))⟩, .com⟩ : DItv) (⟨⟨(f (-4728779608739021) (-51)), (f (-3602879701896397) (-53))⟩, .dac⟩ : DItv)).1) (⟨⟨.ninf, (f (-6550690367084357) (-54))⟩, .trv⟩)),
    (506, eqD ((DItv.mulRevToPair binary64 (⟨⟨(f (-2) (0)), (f (2476979795053773) (-51))⟩, .com⟩ : DItv) (⟨⟨(f (-4728779608739021) (-51)), (f (-3602879701896397) (-53))⟩, .dac⟩ : DItv)).2) (⟨⟨(f (3602879701896397) (-54)), .pinf⟩, .trv⟩)),
    (507, eqD ((DItv.mulRevToPair binary64 (⟨⟨(f 0 0), (f (2476979795053773) (-51))⟩, .trv⟩ : DItv) (⟨⟨(f (-4728779608739021) (-51)), (f (-3602879701896397) (-53))⟩, .defd⟩ : DItv)).1) (⟨⟨.ninf, (f (-6550690367084357) (-54))⟩, .trv⟩)),
    (508, DItv.pred Itv.isEmpty ((DItv.mulRevToPair binary64 (⟨⟨(f 0 0), (f (2476979795053773) (-51))⟩, .trv⟩ : DItv) (⟨⟨(f (-4728779608739021) (-51)), (f (-3602879701896397) (-53))⟩, .defd⟩ : DItv)).2 : DItv)),
    (509, eqD ((DItv.mulRevToPair binary64 (⟨⟨(f (5764607523034235) (-59)), (f (2476979795053773) (-51))⟩, .com⟩ : DItv) (⟨⟨(f (-4728779608739021) (-51)), (f (-3602879701896397) (-53))⟩, .com⟩ : DItv)).1) (⟨⟨(f (-7388718138654721) (-45)), (f (-6550690367084357) (-54))⟩, .com⟩)),
    (510, DItv.pred Itv.isEmpty ((DItv.mulRevToPair binary64 (⟨⟨(f (5764607523034235) (-59)), (f (2476979795053773) (-51))⟩, .com⟩ : DItv) (⟨⟨(f (-4728779608739021) (-51)), (f (-3602879701896397) (-53))⟩, .com⟩ : DItv)).2 : DItv)),
    (511, DItv.pred Itv.isEmpty ((DItv.mulRevToPair binary64 (⟨⟨(f 0 0), (f 0 0)⟩, .dac⟩ : DItv) (⟨⟨(f (-4728779608739021) (-51)), (f (-3602879701896397) (-53))⟩, .defd⟩ : DItv)).1 : DItv)),
    (512, DItv.pred Itv.isEmpty ((DItv.mulRevToPair binary64 (⟨⟨(f 0 0), (f 0 0)⟩, .dac⟩ : DItv) (⟨⟨(f (-4728779608739021) (-51)), (f (-3602879701896397) (-53))⟩, .defd⟩ : DItv)).2 : DItv)),
    (513, eqD ((DItv.mulRevToPair binary64 (⟨⟨.ninf, (f (-3602879701896397) (-55))⟩, .dac⟩ : DItv) (⟨⟨(f (-4728779608739021) (-51)), (f (-3602879701896397) (-53))⟩, .dac⟩ : DItv)).1) (⟨⟨(f 0 0), (f 21 0)⟩, .dac⟩)),
    (514, DItv.pred Itv.isEmpty ((DItv.mulRevToPair binary64 (⟨⟨.ninf, (f (-3602879701896397) (-55))⟩, .dac⟩ : DItv) (⟨⟨(f (-4728779608739021) (-51)), (f (-3602879701896397) (-53))⟩, .dac⟩ : DItv)).2 : DItv)),
    (515, eqD ((DItv.mulRevToPair binary64 (⟨⟨.ninf, (f 0 0)⟩, .defd⟩ : DItv) (⟨⟨(f (-4728779608739021) (-51)), (f (-3602879701896397) (-53))⟩, .com⟩ : DItv)).1) (⟨⟨(f 0 0), .pinf⟩, .trv⟩)),
    (516, DItv.pred Itv.isEmpty ((DItv.mulRevToPair binary64 (⟨⟨.ninf, (f 0 0)⟩, .defd⟩ : DItv) (⟨⟨(f (-4728779608739021) (-51)), (f (-3602879701896397) (-53))⟩, .com⟩ : DItv)).2 : DItv)),
    (517, eqD ((DItv.mulRevToPair binary64 (⟨⟨.ninf, (f (2476979795053773) (-51))⟩, .trv⟩ : DItv) (⟨⟨(f (-4728779608739021) (-51)), (f (-3602879701896397) (-53))⟩, .defd⟩ : DItv)).1) (⟨⟨.ninf, (f (-6550690367084357) (-54))⟩, .trv⟩)),
    (518, eqD ((DItv.mulRevToPair binary64 (⟨⟨.ninf, (f (2476979795053773) (-51))⟩, .trv⟩ : DItv) (⟨⟨(f (-4728779608739021) (-51)), (f (-3602879701896397) (-53))⟩, .defd⟩ : DItv)).2) (⟨⟨(f 0 0), .pinf⟩, .trv⟩)),
    (519, eqD ((DItv.mulRevToPair binary64 (⟨⟨(f (-2) (0)), .pinf⟩, .dac⟩ : DItv) (⟨⟨(f (-4728779608739021) (-51)), (f (-3602879701896397) (-53))⟩, .dac⟩ : DItv)).1) (⟨⟨.ninf, (f 0 0)⟩, .trv⟩)),
    (520, eqD ((DItv.mulRevToPair binary64 (⟨⟨(f (-2) (0)), .pinf⟩, .dac⟩ : DItv) (⟨⟨(f (-4728779608739021) (-51)), (f (-3602879701896397) (-53))⟩, .dac⟩ : DItv)).2) (⟨⟨(f (3602879701896397) (-54)), .pinf⟩, .trv⟩)),
    (521, eqD ((DItv.mulRevToPair binary64 (⟨⟨(f 0 0), .pinf⟩, .defd⟩ : DItv) (⟨⟨(f (-4728779608739021) (-51)), (f (-3602879701896397) (-53))⟩, .com⟩ : DItv)).1) (⟨⟨.ninf, (f 0 0)⟩, .trv⟩)),
    (522, DItv.pred Itv.isEmpty ((DItv.mulRevToPair binary64 (⟨⟨(f 0 0), .pinf⟩, .defd⟩ : DItv) (⟨⟨(f (-4728779608739021) (-51)), (f (-3602879701896397) (-53))⟩, .com⟩ : DItv)).2 : DItv))] : List (ℕ × Bool)).all (·.2) = true := by
  decide +kernel

example : ([
    (523, eqD ((DItv.mulRevToPair binary64 (⟨⟨(f (5764607523034235) (-59)), .pinf⟩, .defd⟩ : DItv) (⟨⟨(f (-4728779608739021) (-51)), (f (-3602879701896397) (-53))⟩, .defd⟩ : DItv)).1) (⟨⟨(f (-7388718138654721) (-45)), (f 0 0)⟩, .defd⟩)),
    (524, DItv.pred Itv.isEmpty ((DItv.mulRevToPair binary64 (⟨⟨(f (5764607523034235) (-59)), .pinf⟩, .defd⟩ : DItv) (⟨⟨(f (-4728779608739021) (-51)), (f (-3602879701896397) (-53))⟩, .defd⟩ : DItv)).2 : DItv)),
    (525, eqD ((DItv.mulRevToPair binary64 (⟨⟨.ninf, .pinf⟩, .dac⟩ : DItv) (⟨⟨(f (-4728779608739021) (-51)), (f (-3602879701896397) (-53))⟩, .dac⟩ : DItv)).1) (⟨⟨.ninf, (f 0 0)⟩, .trv⟩)),
    (526, eqD ((DItv.mulRevToPair binary64 (⟨⟨.ninf, .pinf⟩, .dac⟩ : DItv) (⟨⟨(f (-4728779608739021) (-51)), (f (-3602879701896397) (-53))⟩, .dac⟩ : DItv)).2) (⟨⟨(f 0 0), .pinf⟩, .trv⟩)),
    (528, eqD ((DItv.mulRevToPair binary64 (⟨⟨(f (-2) (0)), (f (-3602879701896397) (-55))⟩, .dac⟩ : DItv) (⟨⟨(f (-4728779608739021) (-51)), (f 0 0)⟩, .com⟩ : DItv)).1) (⟨⟨(f 0 0), (f 21 0)⟩, .dac⟩)),
    (529, DItv.pred Itv.isEmpty ((DItv.mulRevToPair binary64 (⟨⟨(f (-2) (0)), (f (-3602879701896397) (-55))⟩, .dac⟩ : DItv) (⟨⟨(f (-4728779608739021) (-51)), (f 0 0)⟩, .com⟩ : DItv)).2 : DItv)),
    (530, eqD ((DItv.mulRevToPair binary64 (⟨⟨(f (-2) (0)), (f 0 0)⟩, .dac⟩ : DItv) (⟨⟨(f (-4728779608739021) (-51)), (f 0 0)⟩, .com⟩ : DItv)).1) (⟨⟨.ninf, .pinf⟩, .trv⟩)),
    (531, DItv.pred Itv.isEmpty ((DItv.mulRevToPair binary64 (⟨⟨(f (-2) (0)), (f 0 0)⟩, .dac⟩ : DItv) (⟨⟨(f (-4728779608739021) (-51)), (f 0 0)⟩, .com⟩ : DItv)).2 : DItv)),
    (532, eqD ((DItv.mulRevToPair binary64 (⟨⟨(f (-2) (0)), (f (2476979795053773) (-51))⟩, .dac⟩ : DItv) (⟨⟨(f (-4728779608739021) (-51)), (f 0 0)⟩, .com⟩ : DItv)).1) (⟨⟨.ninf, .pinf⟩, .trv⟩)),
    (533, DItv.pred Itv.isEmpty ((DItv.mulRevToPair binary64 (⟨⟨(f (-2) (0)), (f (2476979795053773) (-51))⟩, .dac⟩ : DItv) (⟨⟨(f (-4728779608739021) (-51)), (f 0 0)⟩, .com⟩ : DItv)).2 : DItv)),
    (534, eqD ((DItv.mulRevToPair binary64 (⟨⟨(f 0 0), (f (2476979795053773) (-51))⟩, .dac⟩ : DItv) (⟨⟨(f (-4728779608739021) (-51)), (f 0 0)⟩, .com⟩ : DItv)).1) (⟨⟨.ninf, .pinf⟩, .trv⟩)),
    (535, DItv.pred Itv.isEmpty ((DItv.mulRevToPair binary64 (⟨⟨(f 0 0), (f (2476979795053773) (-51))⟩, .dac⟩ : DItv) (⟨⟨(f (-4728779608739021) (-51)), (f 0 0)⟩, .com⟩ : DItv)).2 : DItv)),
    (536, eqD ((DItv.mulRevToPair binary64 (⟨⟨(f (5764607523034235) (-59)), (f (2476979795053773) (-51))⟩, .dac⟩ : DItv) (⟨⟨(f (-4728779608739021) (-51)), (f 0 0)⟩, .com⟩ : DItv)).1) (⟨⟨(f (-7388718138654721) (-45)), (f 0 0)⟩, .dac⟩)),
    (537, DItv.pred Itv.isEmpty ((DItv.mulRevToPair binary64 (⟨⟨(f (5764607523034235) (-59)), (f (2476979795053773) (-51))⟩, .dac⟩ : DItv) (⟨⟨(f (-4728779608739021) (-51)), (f 0 0)⟩, .com⟩ : DItv)).2 : DItv)),
    (538, eqD ((DItv.mulRevToPair binary64 (⟨⟨(f 0 0), (f 0 0)⟩, .dac⟩ : DItv) (⟨⟨(f (-4728779608739021) (-51)), (f 0 0)⟩, .com⟩ : DItv)).1) (⟨⟨.ninf, .pinf⟩, .trv⟩)),
    (539, DItv.pred Itv.isEmpty ((DItv.mulRevToPair binary64 (⟨⟨(f 0 0), (f 0 0)⟩, .dac⟩ : DItv) (⟨⟨(f (-4728779608739021) (-51)), (f 0 0)⟩, .com⟩ : DItv)).2 : DItv)),
    (540, eqD ((DItv.mulRevToPair binary64 (⟨⟨.ninf, (f (-3602879701896397) (-55))⟩, .dac⟩ : DItv) (⟨⟨(f (-4728779608739021) (-51)), (f 0 0)⟩, .com⟩ : DItv)).1) (⟨⟨(f 0 0), (f 21 0)⟩, .dac⟩)),
    (541, DItv.pred Itv.isEmpty ((DItv.mulRevToPair binary64 (⟨⟨.ninf, (f (-3602879701896397) (-55))⟩, .dac⟩ : DItv) (⟨⟨(f (-4728779608739021) (-51)), (f 0 0)⟩, .com⟩ : DItv)).2 : DItv)),
    (542, eqD ((DItv.mulRevToPair binary64 (⟨⟨.ninf, (f 0 0)⟩, .dac⟩ : DItv) (⟨⟨(f (-4728779608739021) (-51)), (f 0 0)⟩, .com⟩ : DItv)).1) (⟨⟨.ninf, .pinf⟩, .trv⟩)),
    (543, DItv.pred Itv.isEmpty ((DItv.mulRevToPair binary64 (⟨⟨.ninf, (f 0 0)⟩, .dac⟩ : DItv) (⟨⟨(f (-4728779608739021) (-51)), (f 0 0)⟩, .com⟩ : DItv)).2 : DItv)),
    (544, eqD ((DItv.mulRevToPair binary64 (⟨⟨.ninf, (f (2476979795053773) (-51))⟩, .dac⟩ : DItv) (⟨⟨(f (-4728779608739021) (-51)), (f 0 0)⟩, .com⟩ : DItv)).1) (⟨⟨.ninf, .pinf⟩, .trv⟩)),
    (545, DItv.pred Itv.isEmpty ((DItv.mulRevToPair binary64 (⟨⟨.ninf, (f (2476979795053773) (-51))⟩, .dac⟩ : DItv) (⟨⟨(f (-4728779608739021) (-51)), (f 0 0)⟩, .com⟩ : DItv)).2 : DItv)),
    (546, eqD ((DItv.mulRevToPair binary64 (⟨⟨(f (-2) (0)), .pinf⟩, .dac⟩ : DItv) (⟨⟨(f (-4728779608739021) (-51)), (f 0 0)⟩, .com⟩ : DItv)).1) (⟨⟨.ninf, .pinf⟩, .trv⟩)),
    (547, DItv.pred Itv.isEmpty ((DItv.mulRevToPair binary64 (⟨⟨(f (-2) (0)), .pinf⟩, .dac⟩ : DItv) (⟨⟨(f (-4728779608739021) (-51)), (f 0 0)⟩, .com⟩ : DItv)).2 : DItv)),
    (548, eqD ((DItv.mulRevToPair binary64 (⟨⟨(f 0 0), .pinf⟩, .dac⟩ : DItv) (⟨⟨(f (-4728779608739021) (-51)), (f 0 0)⟩, .com⟩ : DItv)).1) (⟨⟨.ninf, .pinf⟩, .trv⟩)),
    (549, DItv.pred Itv.isEmpty ((DItv.mulRevToPair binary64 (⟨⟨(f 0 0), .pinf⟩, .dac⟩ : DItv) (⟨⟨(f (-4728779608739021) (-51)), (f 0 0)⟩, .com⟩ : DItv)).2 : DItv)),
    (550, eqD ((DItv.mulRevToPair binary64 (⟨⟨(f (5764607523034235) (-59)), .pinf⟩, .dac⟩ : DItv) (⟨⟨(f (-4728779608739021) (-51)), (f 0 0)⟩, .com⟩ : DItv)).1) (⟨⟨(f (-7388718138654721) (-45)), (f 0 0)⟩, .dac⟩)),
    (551, DItv.pred Itv.isEmpty ((DItv.mulRevToPair binary64 (⟨⟨(f (5764607523034235) (-59)), .pinf⟩, .dac⟩ : DItv) (⟨⟨(f (-4728779608739021) (-51)), (f 0 0)⟩, .com⟩ : DItv)).2 : DItv)),
    (552, eqD ((DItv.mulRevToPair binary64 (⟨⟨.ninf, .pinf⟩, .dac⟩ : DItv) (⟨⟨(f (-4728779608739021) (-51)), (f 0 0)⟩, .com⟩ : DItv)).1) (⟨⟨.ninf, .pinf⟩, .trv⟩)),
    (553, DItv.pred Itv.isEmpty ((DItv.mulRevToPair binary64 (⟨⟨.ninf, .pinf⟩, .dac⟩ : DItv) (⟨⟨(f (-4728779608739021) (-51)), (f 0 0)⟩, .com⟩ : DItv)).2 : DItv)),
    (555, eqD ((DItv.mulRevToPair binary64 (⟨⟨(f (-2) (0)), (f (-3602879701896397) (-55))⟩, .defd⟩ : DItv) (⟨⟨(f (-4728779608739021) (-51)), (f (1080863910568919) (-53))⟩, .dac⟩ : DItv)).1) (⟨⟨(f (-5404319552844595) (-52)), (f 21 0)⟩, .defd⟩)),
    (556, DItv.pred Itv.isEmpty ((DItv.mulRevToPair binary64 (⟨⟨(f (-2) (0)), (f (-3602879701896397) (-55))⟩, .defd⟩ : DItv) (⟨⟨(f (-4728779608739021) (-51)), (f (1080863910568919) (-53))⟩, .dac⟩ : DItv)).2 : DItv)),
    (557, eqD ((DItv.mulRevToPair binary64 (⟨⟨(f (-2) (0)), (f 0 0)⟩, .defd⟩ : DItv) (⟨⟨(f (-4728779608739021) (-51)), (f (1080863910568919) (-53))⟩, .dac⟩ : DItv)).1) (⟨⟨.ninf, .pinf⟩, .trv⟩)),
    (558, DItv.pred Itv.isEmpty ((DItv.mulRevToPair binary64 (⟨⟨(f (-2) (0)), (f 0 0)⟩, .defd⟩ : DItv) (⟨⟨(f (-4728779608739021) (-51)), (f (1080863910568919) (-53))⟩, .dac⟩ : DItv)).2 : DItv)),
    (559, eqD ((DItv.mulRevToPair binary64 (⟨⟨(f (-2) (0)), (f (2476979795053773) (-51))⟩, .defd⟩ : DItv) (⟨⟨(f (-4728779608739021) (-51)), (f (1080863910568919) (-53))⟩, .dac⟩ : DItv)).1) (⟨⟨.ninf, .pinf⟩, .trv⟩)),
    (560, DItv.pred Itv.isEmpty ((DItv.mulRevToPair binary64 (⟨⟨(f (-2) (0)), (f (2476979795053773) (-51))⟩, .defd⟩ : DItv) (⟨⟨(f (-4728779608739021) (-51)), (f (1080863910568919) (-53))⟩, .dac⟩ : DItv)).2 : DItv)),
    (561, eqD ((DItv.mulRevToPair binary64 (⟨⟨(f 0 0), (f (2476979795053773) (-51))⟩, .defd⟩ : DItv) (⟨⟨(f (-4728779608739021) (-51)), (f (1080863910568919) (-53))⟩, .dac⟩ : DItv)).1) (⟨⟨.ninf, .pinf⟩, .trv⟩)),
    (562, DItv.pred Itv.isEmpty ((DItv.mulRevToPair binary64 (⟨⟨(f 0 0), (f (2476979795053773) (-51))⟩, .defd⟩ : DItv) (⟨⟨(f (-4728779608739021) (-51)), (f (1080863910568919) (-53))⟩, .dac⟩ : DItv)).2 : DItv)),
    (563, eqD ((DItv.mulRevToPair binary64 (⟨⟨(f (5764607523034235) (-59)), (f (2476979795053773) (-51))⟩, .defd⟩ : DItv) (⟨⟨(f (-4728779608739021) (-51)), (f (1080863910568919) (-53))⟩, .dac⟩ : DItv)).1) (⟨⟨(f (-7388718138654721) (-45)), (f 12 0)⟩, .defd⟩)),
    (564, DItv.pred Itv.isEmpty ((DItv.mulRevToPair binary64 (⟨⟨(f (5764607523034235) (-59)), (f (2476979795053773) (-51))⟩, .defd⟩ : DItv) (⟨⟨(f (-4728779608739021) (-51)), (f (1080863910568919) (-53))⟩, .dac⟩ : DItv)).2 : DItv)),
    (565, eqD ((DItv.mulRevToPair binary64 (⟨⟨(f 0 0), (f 0 0)⟩, .defd⟩ : DItv) (⟨⟨(f (-4728779608739021) (-51)), (f (1080863910568919) (-53))⟩, .dac⟩ : DItv)).1) (⟨⟨.ninf, .pinf⟩, .trv⟩)),
    (566, DItv.pred Itv.isEmpty ((DItv.mulRevToPair binary64 (⟨⟨(f 0 0), (f 0 0)⟩, .defd⟩ : DItv) (⟨⟨(f (-4728779608739021) (-51)), (f (1080863910568919) (-53))⟩, .dac⟩ : DItv)).2 : DItv)),
    (567, eqD ((DItv.mulRevToPair binary64 (⟨⟨.ninf, (f (-3602879701896397) (-55))⟩, .defd⟩ : DItv) (⟨⟨(f (-4728779608739021) (-51)), (f (1080863910568919) (-53))⟩, .dac⟩ : DItv)).1) (⟨⟨(f (-5404319552844595) (-52)), (f 21 0)⟩, .defd⟩)),
    (568, DItv.pred Itv.isEmpty ((DItv.mulRevToPair binary64 (⟨⟨.ninf, (f (-3602879701896397) (-55))⟩, .defd⟩ : DItv) (⟨⟨(f (-4728779608739021) (-51)), (f (1080863910568919) (-53))⟩, .dac⟩ : DItv)).2 : DItv)),
    (569, eqD ((DItv.mulRevToPair binary64 (⟨⟨.ninf, (f 0 0)⟩, .defd⟩ : DItv) (⟨⟨(f (-4728779608739021) (-51)), (f (1080863910568919) (-53))⟩, .dac⟩ : DItv)).1) (⟨⟨.ninf, .pinf⟩, .trv⟩)),
    (570, DItv.pred Itv.isEmpty ((DItv.mulRevToPair binary64 (⟨⟨.ninf, (f 0 0)⟩, .defd⟩ : DItv) (⟨⟨(f (-4728779608739021) (-51)), (f (1080863910568919) (-53))⟩, .dac⟩ : DItv)).2 : DItv)),
    (571, eqD ((DItv.mulRevToPair binary64 (⟨⟨.ninf, (f (2476979795053773) (-51))⟩, .defd⟩ : DItv) (⟨⟨(f (-4728779608739021) (-51)), (f (1080863910568919) (-53))⟩, .dac⟩ : DItv)).1) (⟨⟨.ninf, .pinf⟩, .trv⟩)),
    (572, DItv.pred Itv.isEmpty ((DItv.mulRevToPair binary64 (⟨⟨.ninf, (f (2476979795053773) (-51))⟩, .defd⟩ : DItv) (⟨⟨(f (-4728779608739021) (-51)), (f (1080863910568919) (-53))⟩, .dac⟩ : DItv)).2 : DItv)),
    (573, eqD ((DItv.mulRevToPair binary64 (⟨⟨(f (-2) (0)), .pinf⟩, .defd⟩ : DItv) (⟨⟨(f (-4728779608739021) (-51)), (f (1080863910568919) (-53))⟩, .dac⟩ : DItv)).1) (⟨⟨.ninf, .pinf⟩, .trv⟩)),
    (574, DItv.pred Itv.isEmpty ((DItv.mulRevToPair binary64 (⟨⟨(f (-2) (0)), .pinf⟩, .defd⟩ : DItv) (⟨⟨(f (-4728779608739021) (-51)), (f (1080863910568919) (-53))⟩, .dac⟩ : DItv)).2 : DItv))] : List (ℕ × Bool)).all (·.2) = true := by
  decide +kernel

example : ([
    (575, eqD ((DItv.mulRevToPair binary64 (⟨⟨(f 0 0), .pinf⟩, .defd⟩ : DItv) (⟨⟨(f (-4728779608739021) (-51)), (f (1080863910568919) (-53))⟩, .dac⟩ : DItv)).1) (⟨⟨.ninf, .pinf⟩, .trv⟩)),
    (576, DItv.pred Itv.isEmpty ((DItv.mulRevToPair binary64 (⟨⟨(f 0 0), .pinf⟩, .defd⟩ : DItv) (⟨⟨(f (-4728779608739021) (-51)), (f (1080863910568919) (-53))⟩, .dac⟩ : DItv)).2 : DItv)),
    (577, eqD ((DItv.mulRevToPair binary64 (⟨⟨(f (5764607523034235) (-59)), .pinf⟩, .defd⟩ : DItv) (⟨⟨(f (-4728779608739021) (-51)), (f (1080863910568919) (-53))⟩, .dac⟩ : DItv)).1) (⟨⟨(f (-7388718138654721) (-45)), (f 12 0)⟩, .defd⟩)),
    (578, DItv.pred Itv.isEmpty ((DItv.mulRevToPair binary64 (⟨⟨(f (5764607523034235) (-59)), .pinf⟩, .defd⟩ : DItv) (⟨⟨(f (-4728779608739021) (-51)), (f (1080863910568919) (-53))⟩, .dac⟩ : DItv)).2 : DItv)),
    (579, eqD ((DItv.mulRevToPair binary64 (⟨⟨.ninf, .pinf⟩, .defd⟩ : DItv) (⟨⟨(f (-4728779608739021) (-51)), (f (1080863910568919) (-53))⟩, .dac⟩ : DItv)).1) (⟨⟨.ninf, .pinf⟩, .trv⟩)),
    (580, DItv.pred Itv.isEmpty ((DItv.mulRevToPair binary64 (⟨⟨.ninf, .pinf⟩, .defd⟩ : DItv) (⟨⟨(f (-4728779608739021) (-51)), (f (1080863910568919) (-53))⟩, .dac⟩ : DItv)).2 : DItv)),
    (582, eqD ((DItv.mulRevToPair binary64 (⟨⟨(f (-2) (0)), (f (-3602879701896397) (-55))⟩, .com⟩ : DItv) (⟨⟨(f 0 0), (f (1080863910568919) (-53))⟩, .com⟩ : DItv)).1) (⟨⟨(f (-5404319552844595) (-52)), (f 0 0)⟩, .com⟩)),
    (583, DItv.pred Itv.isEmpty ((DItv.mulRevToPair binary64 (⟨⟨(f (-2) (0)), (f (-3602879701896397) (-55))⟩, .com⟩ : DItv) (⟨⟨(f 0 0), (f (1080863910568919) (-53))⟩, .com⟩ : DItv)).2 : DItv)),
    (584, eqD ((DItv.mulRevToPair binary64 (⟨⟨(f (-2) (0)), (f 0 0)⟩, .com⟩ : DItv) (⟨⟨(f 0 0), (f (1080863910568919) (-53))⟩, .com⟩ : DItv)).1) (⟨⟨.ninf, .pinf⟩, .trv⟩)),
    (585, DItv.pred Itv.isEmpty ((DItv.mulRevToPair binary64 (⟨⟨(f (-2) (0)), (f 0 0)⟩, .com⟩ : DItv) (⟨⟨(f 0 0), (f (1080863910568919) (-53))⟩, .com⟩ : DItv)).2 : DItv)),
    (586, eqD ((DItv.mulRevToPair binary64 (⟨⟨(f (-2) (0)), (f (2476979795053773) (-51))⟩, .com⟩ : DItv) (⟨⟨(f 0 0), (f (1080863910568919) (-53))⟩, .com⟩ : DItv)).1) (⟨⟨.ninf, .pinf⟩, .trv⟩)),
    (587, DItv.pred Itv.isEmpty ((DItv.mulRevToPair binary64 (⟨⟨(f (-2) (0)), (f (2476979795053773) (-51))⟩, .com⟩ : DItv) (⟨⟨(f 0 0), (f (1080863910568919) (-53))⟩, .com⟩ : DItv)).2 : DItv)),
    (588, eqD ((DItv.mulRevToPair binary64 (⟨⟨(f 0 0), (f (2476979795053773) (-51))⟩, .com⟩ : DItv) (⟨⟨(f 0 0), (f (1080863910568919) (-53))⟩, .com⟩ : DItv)).1) (⟨⟨.ninf, .pinf⟩, .trv⟩)),
    (589, DItv.pred Itv.isEmpty ((DItv.mulRevToPair binary64 (⟨⟨(f 0 0), (f (2476979795053773) (-51))⟩, .com⟩ : DItv) (⟨⟨(f 0 0), (f (1080863910568919) (-53))⟩, .com⟩ : DItv)).2 : DItv)),
    (590, eqD ((DItv.mulRevToPair binary64 (⟨⟨(f (5764607523034235) (-59)), (f (2476979795053773) (-51))⟩, .com⟩ : DItv) (⟨⟨(f 0 0), (f (1080863910568919) (-53))⟩, .com⟩ : DItv)).1) (⟨⟨(f 0 0), (f 12 0)⟩, .com⟩)),
    (591, DItv.pred Itv.isEmpty ((DItv.mulRevToPair binary64 (⟨⟨(f (5764607523034235) (-59)), (f (2476979795053773) (-51))⟩, .com⟩ : DItv) (⟨⟨(f 0 0), (f (1080863910568919) (-53))⟩, .com⟩ : DItv)).2 : DItv)),
    (592, eqD ((DItv.mulRevToPair binary64 (⟨⟨(f 0 0), (f 0 0)⟩, .com⟩ : DItv) (⟨⟨(f 0 0), (f (1080863910568919) (-53))⟩, .com⟩ : DItv)).1) (⟨⟨.ninf, .pinf⟩, .trv⟩)),
    (593, DItv.pred Itv.isEmpty ((DItv.mulRevToPair binary64 (⟨⟨(f 0 0), (f 0 0)⟩, .com⟩ : DItv) (⟨⟨(f 0 0), (f (1080863910568919) (-53))⟩, .com⟩ : DItv)).2 : DItv)),
    (594, eqD ((DItv.mulRevToPair binary64 (⟨⟨.ninf, (f (-3602879701896397) (-55))⟩, .dac⟩ : DItv) (⟨⟨(f 0 0), (f (1080863910568919) (-53))⟩, .com⟩ : DItv)).1) (⟨⟨(f (-5404319552844595) (-52)), (f 0 0)⟩, .dac⟩)),
    (595, DItv.pred Itv.isEmpty ((DItv.mulRevToPair binary64 (⟨⟨.ninf, (f (-3602879701896397) (-55))⟩, .dac⟩ : DItv) (⟨⟨(f 0 0), (f (1080863910568919) (-53))⟩, .com⟩ : DItv)).2 : DItv)),
    (596, eqD ((DItv.mulRevToPair binary64 (⟨⟨.ninf, (f 0 0)⟩, .dac⟩ : DItv) (⟨⟨(f 0 0), (f (1080863910568919) (-53))⟩, .com⟩ : DItv)).1) (⟨⟨.ninf, .pinf⟩, .trv⟩)),
    (597, DItv.pred Itv.isEmpty ((DItv.mulRevToPair binary64 (⟨⟨.ninf, (f 0 0)⟩, .dac⟩ : DItv) (⟨⟨(f 0 0), (f (1080863910568919) (-53))⟩, .com⟩ : DItv)).2 : DItv)),
    (598, eqD ((DItv.mulRevToPair binary64 (⟨⟨.ninf, (f (2476979795053773) (-51))⟩, .dac⟩ : DItv) (⟨⟨(f 0 0), (f (1080863910568919) (-53))⟩, .com⟩ : DItv)).1) (⟨⟨.ninf, .pinf⟩, .trv⟩)),
    (599, DItv.pred Itv.isEmpty ((DItv.mulRevToPair binary64 (⟨⟨.ninf, (f (2476979795053773) (-51))⟩, .dac⟩ : DItv) (⟨⟨(f 0 0), (f (1080863910568919) (-53))⟩, .com⟩ : DItv)).2 : DItv)),
    (600, eqD ((DItv.mulRevToPair binary64 (⟨⟨(f (-2) (0)), .pinf⟩, .dac⟩ : DItv) (⟨⟨(f 0 0), (f (1080863910568919) (-53))⟩, .com⟩ : DItv)).1) (⟨⟨.ninf, .pinf⟩, .trv⟩)),
    (601, DItv.pred Itv.isEmpty ((DItv.mulRevToPair binary64 (⟨⟨(f (-2) (0)), .pinf⟩, .dac⟩ : DItv) (⟨⟨(f 0 0), (f (1080863910568919) (-53))⟩, .com⟩ : DItv)).2 : DItv)),
    (602, eqD ((DItv.mulRevToPair binary64 (⟨⟨(f 0 0), .pinf⟩, .dac⟩ : DItv) (⟨⟨(f 0 0), (f (1080863910568919) (-53))⟩, .com⟩ : DItv)).1) (⟨⟨.ninf, .pinf⟩, .trv⟩)),
    (603, DItv.pred Itv.isEmpty ((DItv.mulRevToPair binary64 (⟨⟨(f 0 0), .pinf⟩, .dac⟩ : DItv) (⟨⟨(f 0 0), (f (1080863910568919) (-53))⟩, .com⟩ : DItv)).2 : DItv)),
    (604, eqD ((DItv.mulRevToPair binary64 (⟨⟨(f (5764607523034235) (-59)), .pinf⟩, .dac⟩ : DItv) (⟨⟨(f 0 0), (f (1080863910568919) (-53))⟩, .com⟩ : DItv)).1) (⟨⟨(f 0 0), (f 12 0)⟩, .dac⟩)),
    (605, DItv.pred Itv.isEmpty ((DItv.mulRevToPair binary64 (⟨⟨(f (5764607523034235) (-59)), .pinf⟩, .dac⟩ : DItv) (⟨⟨(f 0 0), (f (1080863910568919) (-53))⟩, .com⟩ : DItv)).2 : DItv)),
    (606, eqD ((DItv.mulRevToPair binary64 (⟨⟨.ninf, .pinf⟩, .dac⟩ : DItv) (⟨⟨(f 0 0), (f (1080863910568919) (-53))⟩, .com⟩ : DItv)).1) (⟨⟨.ninf, .pinf⟩, .trv⟩)),
    (607, DItv.pred Itv.isEmpty ((DItv.mulRevToPair binary64 (⟨⟨.ninf, .pinf⟩, .dac⟩ : DItv) (⟨⟨(f 0 0), (f (1080863910568919) (-53))⟩, .com⟩ : DItv)).2 : DItv)),
    (609, eqD ((DItv.mulRevToPair binary64 (⟨⟨(f (-2) (0)), (f (-3602879701896397) (-55))⟩, .dac⟩ : DItv) (⟨⟨(f (5764607523034235) (-59)), (f (1080863910568919) (-53))⟩, .dac⟩ : DItv)).1) (⟨⟨(f (-5404319552844595) (-52)), (f (-5764607523034235) (-60))⟩, .dac⟩)),
    (610, DItv.pred Itv.isEmpty ((DItv.mulRevToPair binary64 (⟨⟨(f (-2) (0)), (f (-3602879701896397) (-55))⟩, .dac⟩ : DItv) (⟨⟨(f (5764607523034235) (-59)), (f (1080863910568919) (-53))⟩, .dac⟩ : DItv)).2 : DItv)),
    (611, eqD ((DItv.mulRevToPair binary64 (⟨⟨(f (-2) (0)), (f 0 0)⟩, .dac⟩ : DItv) (⟨⟨(f (5764607523034235) (-59)), (f (1080863910568919) (-53))⟩, .dac⟩ : DItv)).1) (⟨⟨.ninf, (f (-5764607523034235) (-60))⟩, .trv⟩)),
    (612, DItv.pred Itv.isEmpty ((DItv.mulRevToPair binary64 (⟨⟨(f (-2) (0)), (f 0 0)⟩, .dac⟩ : DItv) (⟨⟨(f (5764607523034235) (-59)), (f (1080863910568919) (-53))⟩, .dac⟩ : DItv)).2 : DItv)),
    (613, eqD ((DItv.mulRevToPair binary64 (⟨⟨(f (-2) (0)), (f (2476979795053773) (-51))⟩, .dac⟩ : DItv) (⟨⟨(f (5764607523034235) (-59)), (f (1080863910568919) (-53))⟩, .dac⟩ : DItv)).1) (⟨⟨.ninf, (f (-5764607523034235) (-60))⟩, .trv⟩)),
    (614, eqD ((DItv.mulRevToPair binary64 (⟨⟨(f (-2) (0)), (f (2476979795053773) (-51))⟩, .dac⟩ : DItv) (⟨⟨(f (5764607523034235) (-59)), (f (1080863910568919) (-53))⟩, .dac⟩ : DItv)).2) (⟨⟨(f (5240552293667485) (-59)), .pinf⟩, .trv⟩)),
    (615, eqD ((DItv.mulRevToPair binary64 (⟨⟨(f 0 0), (f (2476979795053773) (-51))⟩, .dac⟩ : DItv) (⟨⟨(f (5764607523034235) (-59)), (f (1080863910568919) (-53))⟩, .dac⟩ : DItv)).1) (⟨⟨(f (5240552293667485) (-59)), .pinf⟩, .trv⟩)),
    (616, DItv.pred Itv.isEmpty ((DItv.mulRevToPair binary64 (⟨⟨(f 0 0), (f (2476979795053773) (-51))⟩, .dac⟩ : DItv) (⟨⟨(f (5764607523034235) (-59)), (f (1080863910568919) (-53))⟩, .dac⟩ : DItv)).2 : DItv)),
    (617, eqD ((DItv.mulRevToPair binary64 (⟨⟨(f (5764607523034235) (-59)), (f (2476979795053773) (-51))⟩, .dac⟩ : DItv) (⟨⟨(f (5764607523034235) (-59)), (f (1080863910568919) (-53))⟩, .dac⟩ : DItv)).1) (⟨⟨(f (5240552293667485) (-59)), (f 12 0)⟩, .dac⟩)),
    (618, DItv.pred Itv.isEmpty ((DItv.mulRevToPair binary64 (⟨⟨(f (5764607523034235) (-59)), (f (2476979795053773) (-51))⟩, .dac⟩ : DItv) (⟨⟨(f (5764607523034235) (-59)), (f (1080863910568919) (-53))⟩, .dac⟩ : DItv)).2 : DItv)),
    (619, DItv.pred Itv.isEmpty ((DItv.mulRevToPair binary64 (⟨⟨(f 0 0), (f 0 0)⟩, .dac⟩ : DItv) (⟨⟨(f (5764607523034235) (-59)), (f (1080863910568919) (-53))⟩, .dac⟩ : DItv)).1 : DItv)),
    (620, DItv.pred Itv.isEmpty ((DItv.mulRevToPair binary64 (⟨⟨(f 0 0), (f 0 0)⟩, .dac⟩ : DItv) (⟨⟨(f (5764607523034235) (-59)), (f (1080863910568919) (-53))⟩, .dac⟩ : DItv)).2 : DItv)),
    (621, eqD ((DItv.mulRevToPair binary64 (⟨⟨.ninf, (f (-3602879701896397) (-55))⟩, .dac⟩ : DItv) (⟨⟨(f (5764607523034235) (-59)), (f (1080863910568919) (-53))⟩, .dac⟩ : DItv)).1) (⟨⟨(f (-5404319552844595) (-52)), (f 0 0)⟩, .dac⟩)),
    (622, DItv.pred Itv.isEmpty ((DItv.mulRevToPair binary64 (⟨⟨.ninf, (f (-3602879701896397) (-55))⟩, .dac⟩ : DItv) (⟨⟨(f (5764607523034235) (-59)), (f (1080863910568919) (-53))⟩, .dac⟩ : DItv)).2 : DItv)),
    (623, eqD ((DItv.mulRevToPair binary64 (⟨⟨.ninf, (f 0 0)⟩, .dac⟩ : DItv) (⟨⟨(f (5764607523034235) (-59)), (f (1080863910568919) (-53))⟩, .dac⟩ : DItv)).1) (⟨⟨.ninf, (f 0 0)⟩, .trv⟩)),
    (624, DItv.pred Itv.isEmpty ((DItv.mulRevToPair binary64 (⟨⟨.ninf, (f 0 0)⟩, .dac⟩ : DItv) (⟨⟨(f (5764607523034235) (-59)), (f (1080863910568919) (-53))⟩, .dac⟩ : DItv)).2 : DItv)),
    (625, eqD ((DItv.mulRevToPair binary64 (⟨⟨.ninf, (f (2476979795053773) (-51))⟩, .dac⟩ : DItv) (⟨⟨(f (5764607523034235) (-59)), (f (1080863910568919) (-53))⟩, .dac⟩ : DItv)).1) (⟨⟨.ninf, (f 0 0)⟩, .trv⟩)),
    (626, eqD ((DItv.mulRevToPair binary64 (⟨⟨.ninf, (f (2476979795053773) (-51))⟩, .dac⟩ : DItv) (⟨⟨(f (5764607523034235) (-59)), (f (1080863910568919) (-53))⟩, .dac⟩ : DItv)).2) (⟨⟨(f (5240552293667485) (-59)), .pinf⟩, .trv⟩))] : List (ℕ × Bool)).all (·.2) = true := by
  decide +kernel

example : ([
    (627, eqD ((DItv.mulRevToPair binary64 (⟨⟨(f (-2) (0)), .pinf⟩, .dac⟩ : DItv) (⟨⟨(f (5764607523034235) (-59)), (f (1080863910568919) (-53))⟩, .dac⟩ : DItv)).1) (⟨⟨.ninf, (f (-5764607523034235) (-60))⟩, .trv⟩)),
    (628, eqD ((DItv.mulRevToPair binary64 (⟨⟨(f (-2) (0)), .pinf⟩, .dac⟩ : DItv) (⟨⟨(f (5764607523034235) (-59)), (f (1080863910568919) (-53))⟩, .dac⟩ : DItv)).2) (⟨⟨(f 0 0), .pinf⟩, .trv⟩)),
    (629, eqD ((DItv.mulRevToPair binary64 (⟨⟨(f 0 0), .pinf⟩, .dac⟩ : DItv) (⟨⟨(f (5764607523034235) (-59)), (f (1080863910568919) (-53))⟩, .dac⟩ : DItv)).1) (⟨⟨(f 0 0), .pinf⟩, .trv⟩)),
    (630, DItv.pred Itv.isEmpty ((DItv.mulRevToPair binary64 (⟨⟨(f 0 0), .pinf⟩, .dac⟩ : DItv) (⟨⟨(f (5764607523034235) (-59)), (f (1080863910568919) (-53))⟩, .dac⟩ : DItv)).2 : DItv)),
    (631, eqD ((DItv.mulRevToPair binary64 (⟨⟨(f (5764607523034235) (-59)), .pinf⟩, .dac⟩ : DItv) (⟨⟨(f (5764607523034235) (-59)), (f (1080863910568919) (-53))⟩, .dac⟩ : DItv)).1) (⟨⟨(f 0 0), (f 12 0)⟩, .dac⟩)),
    (632, DItv.pred Itv.isEmpty ((DItv.mulRevToPair binary64 (⟨⟨(f (5764607523034235) (-59)), .pinf⟩, .dac⟩ : DItv) (⟨⟨(f (5764607523034235) (-59)), (f (1080863910568919) (-53))⟩, .dac⟩ : DItv)).2 : DItv)),
    (633, eqD ((DItv.mulRevToPair binary64 (⟨⟨.ninf, .pinf⟩, .dac⟩ : DItv) (⟨⟨(f (5764607523034235) (-59)), (f (1080863910568919) (-53))⟩, .dac⟩ : DItv)).1) (⟨⟨.ninf, (f 0 0)⟩, .trv⟩)),
    (634, eqD ((DItv.mulRevToPair binary64 (⟨⟨.ninf, .pinf⟩, .dac⟩ : DItv) (⟨⟨(f (5764607523034235) (-59)), (f (1080863910568919) (-53))⟩, .dac⟩ : DItv)).2) (⟨⟨(f 0 0), .pinf⟩, .trv⟩)),
    (636, eqD ((DItv.mulRevToPair binary64 (⟨⟨(f (-2) (0)), (f (-3602879701896397) (-55))⟩, .com⟩ : DItv) (⟨⟨(f 0 0), (f 0 0)⟩, .com⟩ : DItv)).1) (⟨⟨(f 0 0), (f 0 0)⟩, .com⟩)),
    (637, DItv.pred Itv.isEmpty ((DItv.mulRevToPair binary64 (⟨⟨(f (-2) (0)), (f (-3602879701896397) (-55))⟩, .com⟩ : DItv) (⟨⟨(f 0 0), (f 0 0)⟩, .com⟩ : DItv)).2 : DItv)),
    (638, eqD ((DItv.mulRevToPair binary64 (⟨⟨(f (-2) (0)), (f 0 0)⟩, .com⟩ : DItv) (⟨⟨(f 0 0), (f 0 0)⟩, .com⟩ : DItv)).1) (⟨⟨.ninf, .pinf⟩, .trv⟩)),
    (639, DItv.pred Itv.isEmpty ((DItv.mulRevToPair binary64 (⟨⟨(f (-2) (0)), (f 0 0)⟩, .com⟩ : DItv) (⟨⟨(f 0 0), (f 0 0)⟩, .com⟩ : DItv)).2 : DItv)),
    (640, eqD ((DItv.mulRevToPair binary64 (⟨⟨(f (-2) (0)), (f (2476979795053773) (-51))⟩, .com⟩ : DItv) (⟨⟨(f 0 0), (f 0 0)⟩, .com⟩ : DItv)).1) (⟨⟨.ninf, .pinf⟩, .trv⟩)),
    (641, DItv.pred Itv.isEmpty ((DItv.mulRevToPair binary64 (⟨⟨(f (-2) (0)), (f (2476979795053773) (-51))⟩, .com⟩ : DItv) (⟨⟨(f 0 0), (f 0 0)⟩, .com⟩ : DItv)).2 : DItv)),
    (642, eqD ((DItv.mulRevToPair binary64 (⟨⟨(f 0 0), (f (2476979795053773) (-51))⟩, .com⟩ : DItv) (⟨⟨(f 0 0), (f 0 0)⟩, .com⟩ : DItv)).1) (⟨⟨.ninf, .pinf⟩, .trv⟩)),
    (643, DItv.pred Itv.isEmpty ((DItv.mulRevToPair binary64 (⟨⟨(f 0 0), (f (2476979795053773) (-51))⟩, .com⟩ : DItv) (⟨⟨(f 0 0), (f 0 0)⟩, .com⟩ : DItv)).2 : DItv)),
    (644, eqD ((DItv.mulRevToPair binary64 (⟨⟨(f (5764607523034235) (-59)), (f (2476979795053773) (-51))⟩, .com⟩ : DItv) (⟨⟨(f 0 0), (f 0 0)⟩, .com⟩ : DItv)).1) (⟨⟨(f 0 0), (f 0 0)⟩, .com⟩)),
    (645, DItv.pred Itv.isEmpty ((DItv.mulRevToPair binary64 (⟨⟨(f (5764607523034235) (-59)), (f (2476979795053773) (-51))⟩, .com⟩ : DItv) (⟨⟨(f 0 0), (f 0 0)⟩, .com⟩ : DItv)).2 : DItv)),
    (646, eqD ((DItv.mulRevToPair binary64 (⟨⟨(f 0 0), (f 0 0)⟩, .com⟩ : DItv) (⟨⟨(f 0 0), (f 0 0)⟩, .com⟩ : DItv)).1) (⟨⟨.ninf, .pinf⟩, .trv⟩)),
    (647, DItv.pred Itv.isEmpty ((DItv.mulRevToPair binary64 (⟨⟨(f 0 0), (f 0 0)⟩, .com⟩ : DItv) (⟨⟨(f 0 0), (f 0 0)⟩, .com⟩ : DItv)).2 : DItv)),
    (648, eqD ((DItv.mulRevToPair binary64 (⟨⟨.ninf, (f (-3602879701896397) (-55))⟩, .dac⟩ : DItv) (⟨⟨(f 0 0), (f 0 0)⟩, .com⟩ : DItv)).1) (⟨⟨(f 0 0), (f 0 0)⟩, .dac⟩)),
    (649, DItv.pred Itv.isEmpty ((DItv.mulRevToPair binary64 (⟨⟨.ninf, (f (-3602879701896397) (-55))⟩, .dac⟩ : DItv) (⟨⟨(f 0 0), (f 0 0)⟩, .com⟩ : DItv)).2 : DItv)),
    (650, eqD ((DItv.mulRevToPair binary64 (⟨⟨.ninf, (f 0 0)⟩, .dac⟩ : DItv) (⟨⟨(f 0 0), (f 0 0)⟩, .com⟩ : DItv)).1) (⟨⟨.ninf, .pinf⟩, .trv⟩)),
    (651, DItv.pred Itv.isEmpty ((DItv.mulRevToPair binary64 (⟨⟨.ninf, (f 0 0)⟩, .dac⟩ : DItv) (⟨⟨(f 0 0), (f 0 0)⟩, .com⟩ : DItv)).2 : DItv)),
    (652, eqD ((DItv.mulRevToPair binary64 (⟨⟨.ninf, (f (2476979795053773) (-51))⟩, .dac⟩ : DItv) (⟨⟨(f 0 0), (f 0 0)⟩, .com⟩ : DItv)).1) (⟨⟨.ninf, .pinf⟩, .trv⟩)),
    (653, DItv.pred Itv.isEmpty ((DItv.mulRevToPair binary64 (⟨⟨.ninf, (f (2476979795053773) (-51))⟩, .dac⟩ : DItv) (⟨⟨(f 0 0), (f 0 0)⟩, .com⟩ : DItv)).2 : DItv)),
    (654, eqD ((DItv.mulRevToPair binary64 (⟨⟨(f (-2) (0)), .pinf⟩, .dac⟩ : DItv) (⟨⟨(f 0 0), (f 0 0)⟩, .com⟩ : DItv)).1) (⟨⟨.ninf, .pinf⟩, .trv⟩)),
    (655, DItv.pred Itv.isEmpty ((DItv.mulRevToPair binary64 (⟨⟨(f (-2) (0)), .pinf⟩, .dac⟩ : DItv) (⟨⟨(f 0 0), (f 0 0)⟩, .com⟩ : DItv)).2 : DItv)),
    (656, eqD ((DItv.mulRevToPair binary64 (⟨⟨(f 0 0), .pinf⟩, .dac⟩ : DItv) (⟨⟨(f 0 0), (f 0 0)⟩, .com⟩ : DItv)).1) (⟨⟨.ninf, .pinf⟩, .trv⟩)),
    (657, DItv.pred Itv.isEmpty ((DItv.mulRevToPair binary64 (⟨⟨(f 0 0), .pinf⟩, .dac⟩ : DItv) (⟨⟨(f 0 0), (f 0 0)⟩, .com⟩ : DItv)).2 : DItv)),
    (658, eqD ((DItv.mulRevToPair binary64 (⟨⟨(f (5764607523034235) (-59)), .pinf⟩, .dac⟩ : DItv) (⟨⟨(f 0 0), (f 0 0)⟩, .com⟩ : DItv)).1) (⟨⟨(f 0 0), (f 0 0)⟩, .dac⟩)),
    (659, DItv.pred Itv.isEmpty ((DItv.mulRevToPair binary64 (⟨⟨(f (5764607523034235) (-59)), .pinf⟩, .dac⟩ : DItv) (⟨⟨(f 0 0), (f 0 0)⟩, .com⟩ : DItv)).2 : DItv)),
    (660, eqD ((DItv.mulRevToPair binary64 (⟨⟨.ninf, .pinf⟩, .dac⟩ : DItv) (⟨⟨(f 0 0), (f 0 0)⟩, .com⟩ : DItv)).1) (⟨⟨.ninf, .pinf⟩, .trv⟩)),
    (661, DItv.pred Itv.isEmpty ((DItv.mulRevToPair binary64 (⟨⟨.ninf, .pinf⟩, .dac⟩ : DItv) (⟨⟨(f 0 0), (f 0 0)⟩, .com⟩ : DItv)).2 : DItv)),
    (665, eqD ((DItv.mulRevToPair binary64 (⟨⟨(f (-2) (0)), (f (-3602879701896397) (-55))⟩, .dac⟩ : DItv) (⟨⟨.ninf, (f (-3602879701896397) (-55))⟩, .dac⟩ : DItv)).1) (⟨⟨(f (3602879701896397) (-56)), .pinf⟩, .dac⟩)),
    (666, DItv.pred Itv.isEmpty ((DItv.mulRevToPair binary64 (⟨⟨(f (-2) (0)), (f (-3602879701896397) (-55))⟩, .dac⟩ : DItv) (⟨⟨.ninf, (f (-3602879701896397) (-55))⟩, .dac⟩ : DItv)).2 : DItv)),
    (667, eqD ((DItv.mulRevToPair binary64 (⟨⟨(f (-2) (0)), (f 0 0)⟩, .dac⟩ : DItv) (⟨⟨.ninf, (f (-3602879701896397) (-55))⟩, .dac⟩ : DItv)).1) (⟨⟨(f (3602879701896397) (-56)), .pinf⟩, .trv⟩)),
    (668, DItv.pred Itv.isEmpty ((DItv.mulRevToPair binary64 (⟨⟨(f (-2) (0)), (f 0 0)⟩, .dac⟩ : DItv) (⟨⟨.ninf, (f (-3602879701896397) (-55))⟩, .dac⟩ : DItv)).2 : DItv)),
    (669, eqD ((DItv.mulRevToPair binary64 (⟨⟨(f (-2) (0)), (f (2476979795053773) (-51))⟩, .dac⟩ : DItv) (⟨⟨.ninf, (f (-3602879701896397) (-55))⟩, .dac⟩ : DItv)).1) (⟨⟨.ninf, (f (-6550690367084357) (-56))⟩, .trv⟩)),
    (670, eqD ((DItv.mulRevToPair binary64 (⟨⟨(f (-2) (0)), (f (2476979795053773) (-51))⟩, .dac⟩ : DItv) (⟨⟨.ninf, (f (-3602879701896397) (-55))⟩, .dac⟩ : DItv)).2) (⟨⟨(f (3602879701896397) (-56)), .pinf⟩, .trv⟩)),
    (671, eqD ((DItv.mulRevToPair binary64 (⟨⟨(f 0 0), (f (2476979795053773) (-51))⟩, .dac⟩ : DItv) (⟨⟨.ninf, (f (-3602879701896397) (-55))⟩, .dac⟩ : DItv)).1) (⟨⟨.ninf, (f (-6550690367084357) (-56))⟩, .trv⟩)),
    (672, DItv.pred Itv.isEmpty ((DItv.mulRevToPair binary64 (⟨⟨(f 0 0), (f (2476979795053773) (-51))⟩, .dac⟩ : DItv) (⟨⟨.ninf, (f (-3602879701896397) (-55))⟩, .dac⟩ : DItv)).2 : DItv)),
    (673, eqD ((DItv.mulRevToPair binary64 (⟨⟨(f (5764607523034235) (-59)), (f (2476979795053773) (-51))⟩, .dac⟩ : DItv) (⟨⟨.ninf, (f (-3602879701896397) (-55))⟩, .dac⟩ : DItv)).1) (⟨⟨.ninf, (f (-6550690367084357) (-56))⟩, .dac⟩)),
    (674, DItv.pred Itv.isEmpty ((DItv.mulRevToPair binary64 (⟨⟨(f (5764607523034235) (-59)), (f (2476979795053773) (-51))⟩, .dac⟩ : DItv) (⟨⟨.ninf, (f (-3602879701896397) (-55))⟩, .dac⟩ : DItv)).2 : DItv)),
    (675, DItv.pred Itv.isEmpty ((DItv.mulRevToPair binary64 (⟨⟨(f 0 0), (f 0 0)⟩, .dac⟩ : DItv) (⟨⟨.ninf, (f (-3602879701896397) (-55))⟩, .dac⟩ : DItv)).1 : DItv)),
    (676, DItv.pred Itv.isEmpty ((DItv.mulRevToPair binary64 (⟨⟨(f 0 0), (f 0 0)⟩, .dac⟩ : DItv) (⟨⟨.ninf, (f (-3602879701896397) (-55))⟩, .dac⟩ : DItv)).2 : DItv)),
    (677, eqD ((DItv.mulRevToPair binary64 (⟨⟨.ninf, (f (-3602879701896397) (-55))⟩, .dac⟩ : DItv) (⟨⟨.ninf, (f (-3602879701896397) (-55))⟩, .dac⟩ : DItv)).1) (⟨⟨(f 0 0), .pinf⟩, .dac⟩)),
    (678, DItv.pred Itv.isEmpty ((DItv.mulRevToPair binary64 (⟨⟨.ninf, (f (-3602879701896397) (-55))⟩, .dac⟩ : DItv) (⟨⟨.ninf, (f (-3602879701896397) (-55))⟩, .dac⟩ : DItv)).2 : DItv)),
    (679, eqD ((DItv.mulRevToPair binary64 (⟨⟨.ninf, (f 0 0)⟩, .dac⟩ : DItv) (⟨⟨.ninf, (f (-3602879701896397) (-55))⟩, .dac⟩ : DItv)).1) (⟨⟨(f 0 0), .pinf⟩, .trv⟩)),
    (680, DItv.pred Itv.isEmpty ((DItv.mulRevToPair binary64 (⟨⟨.ninf, (f 0 0)⟩, .dac⟩ : DItv) (⟨⟨.ninf, (f (-3602879701896397) (-55))⟩, .dac⟩ : DItv)).2 : DItv))] : List (ℕ × Bool)).all (·.2) = true := by
  decide +kernel

example : ([
    (681, eqD ((DItv.mulRevToPair binary64 (⟨⟨.ninf, (f (2476979795053773) (-51))⟩, .dac⟩ : DItv) (⟨⟨.ninf, (f (-3602879701896397) (-55))⟩, .dac⟩ : DItv)).1) (⟨⟨.ninf, (f (-6550690367084357) (-56))⟩, .trv⟩)),
    (682, eqD ((DItv.mulRevToPair binary64 (⟨⟨.ninf, (f (2476979795053773) (-51))⟩, .dac⟩ : DItv) (⟨⟨.ninf, (f (-3602879701896397) (-55))⟩, .dac⟩ : DItv)).2) (⟨⟨(f 0 0), .pinf⟩, .trv⟩)),
    (683, eqD ((DItv.mulRevToPair binary64 (⟨⟨(f (-2) (0)), .pinf⟩, .dac⟩ : DItv) (⟨⟨.ninf, (f (-3602879701896397) (-55))⟩, .dac⟩ : DItv)).1) (⟨⟨.ninf, (f 0 0)⟩, .trv⟩)),
    (684, eqD ((DItv.mulRevToPair binary64 (⟨⟨(f (-2) (0)), .pinf⟩, .dac⟩ : DItv) (⟨⟨.ninf, (f (-3602879701896397) (-55))⟩, .dac⟩ : DItv)).2) (⟨⟨(f (3602879701896397) (-56)), .pinf⟩, .trv⟩)),
    (685, eqD ((DItv.mulRevToPair binary64 (⟨⟨(f 0 0), .pinf⟩, .dac⟩ : DItv) (⟨⟨.ninf, (f (-3602879701896397) (-55))⟩, .dac⟩ : DItv)).1) (⟨⟨.ninf, (f 0 0)⟩, .trv⟩)),
    (686, DItv.pred Itv.isEmpty ((DItv.mulRevToPair binary64 (⟨⟨(f 0 0), .pinf⟩, .dac⟩ : DItv) (⟨⟨.ninf, (f (-3602879701896397) (-55))⟩, .dac⟩ : DItv)).2 : DItv)),
    (687, eqD ((DItv.mulRevToPair binary64 (⟨⟨(f (5764607523034235) (-59)), .pinf⟩, .dac⟩ : DItv) (⟨⟨.ninf, (f (-3602879701896397) (-55))⟩, .dac⟩ : DItv)).1) (⟨⟨.ninf, (f 0 0)⟩, .dac⟩)),
    (688, DItv.pred Itv.isEmpty ((DItv.mulRevToPair binary64 (⟨⟨(f (5764607523034235) (-59)), .pinf⟩, .dac⟩ : DItv) (⟨⟨.ninf, (f (-3602879701896397) (-55))⟩, .dac⟩ : DItv)).2 : DItv)),
    (689, eqD ((DItv.mulRevToPair binary64 (⟨⟨.ninf, .pinf⟩, .dac⟩ : DItv) (⟨⟨.ninf, (f (-3602879701896397) (-55))⟩, .dac⟩ : DItv)).1) (⟨⟨.ninf, (f 0 0)⟩, .trv⟩)),
    (690, eqD ((DItv.mulRevToPair binary64 (⟨⟨.ninf, .pinf⟩, .dac⟩ : DItv) (⟨⟨.ninf, (f (-3602879701896397) (-55))⟩, .dac⟩ : DItv)).2) (⟨⟨(f 0 0), .pinf⟩, .trv⟩)),
    (692, eqD ((DItv.mulRevToPair binary64 (⟨⟨(f (-2) (0)), (f (-3602879701896397) (-55))⟩, .dac⟩ : DItv) (⟨⟨.ninf, (f 0 0)⟩, .dac⟩ : DItv)).1) (⟨⟨(f 0 0), .pinf⟩, .dac⟩)),
    (693, DItv.pred Itv.isEmpty ((DItv.mulRevToPair binary64 (⟨⟨(f (-2) (0)), (f (-3602879701896397) (-55))⟩, .dac⟩ : DItv) (⟨⟨.ninf, (f 0 0)⟩, .dac⟩ : DItv)).2 : DItv)),
    (694, eqD ((DItv.mulRevToPair binary64 (⟨⟨(f (-2) (0)), (f 0 0)⟩, .dac⟩ : DItv) (⟨⟨.ninf, (f 0 0)⟩, .dac⟩ : DItv)).1) (⟨⟨.ninf, .pinf⟩, .trv⟩)),
    (695, DItv.pred Itv.isEmpty ((DItv.mulRevToPair binary64 (⟨⟨(f (-2) (0)), (f 0 0)⟩, .dac⟩ : DItv) (⟨⟨.ninf, (f 0 0)⟩, .dac⟩ : DItv)).2 : DItv)),
    (696, eqD ((DItv.mulRevToPair binary64 (⟨⟨(f (-2) (0)), (f (2476979795053773) (-51))⟩, .dac⟩ : DItv) (⟨⟨.ninf, (f 0 0)⟩, .dac⟩ : DItv)).1) (⟨⟨.ninf, .pinf⟩, .trv⟩)),
    (697, DItv.pred Itv.isEmpty ((DItv.mulRevToPair binary64 (⟨⟨(f (-2) (0)), (f (2476979795053773) (-51))⟩, .dac⟩ : DItv) (⟨⟨.ninf, (f 0 0)⟩, .dac⟩ : DItv)).2 : DItv)),
    (698, eqD ((DItv.mulRevToPair binary64 (⟨⟨(f 0 0), (f (2476979795053773) (-51))⟩, .dac⟩ : DItv) (⟨⟨.ninf, (f 0 0)⟩, .dac⟩ : DItv)).1) (⟨⟨.ninf, .pinf⟩, .trv⟩)),
    (699, DItv.pred Itv.isEmpty ((DItv.mulRevToPair binary64 (⟨⟨(f 0 0), (f (2476979795053773) (-51))⟩, .dac⟩ : DItv) (⟨⟨.ninf, (f 0 0)⟩, .dac⟩ : DItv)).2 : DItv)),
    (700, eqD ((DItv.mulRevToPair binary64 (⟨⟨(f (5764607523034235) (-59)), (f (2476979795053773) (-51))⟩, .dac⟩ : DItv) (⟨⟨.ninf, (f 0 0)⟩, .dac⟩ : DItv)).1) (⟨⟨.ninf, (f 0 0)⟩, .dac⟩)),
    (701, DItv.pred Itv.isEmpty ((DItv.mulRevToPair binary64 (⟨⟨(f (5764607523034235) (-59)), (f (2476979795053773) (-51))⟩, .dac⟩ : DItv) (⟨⟨.ninf, (f 0 0)⟩, .dac⟩ : DItv)).2 : DItv)),
    (702, eqD ((DItv.mulRevToPair binary64 (⟨⟨(f 0 0), (f 0 0)⟩, .dac⟩ : DItv) (⟨⟨.ninf, (f 0 0)⟩, .dac⟩ : DItv)).1) (⟨⟨.ninf, .pinf⟩, .trv⟩)),
    (703, DItv.pred Itv.isEmpty ((DItv.mulRevToPair binary64 (⟨⟨(f 0 0), (f 0 0)⟩, .dac⟩ : DItv) (⟨⟨.ninf, (f 0 0)⟩, .dac⟩ : DItv)).2 : DItv)),
    (704, eqD ((DItv.mulRevToPair binary64 (⟨⟨.ninf, (f (-3602879701896397) (-55))⟩, .dac⟩ : DItv) (⟨⟨.ninf, (f 0 0)⟩, .dac⟩ : DItv)).1) (⟨⟨(f 0 0), .pinf⟩, .dac⟩)),
    (705, DItv.pred Itv.isEmpty ((DItv.mulRevToPair binary64 (⟨⟨.ninf, (f (-3602879701896397) (-55))⟩, .dac⟩ : DItv) (⟨⟨.ninf, (f 0 0)⟩, .dac⟩ : DItv)).2 : DItv)),
    (706, eqD ((DItv.mulRevToPair binary64 (⟨⟨.ninf, (f 0 0)⟩, .dac⟩ : DItv) (⟨⟨.ninf, (f 0 0)⟩, .dac⟩ : DItv)).1) (⟨⟨.ninf, .pinf⟩, .trv⟩)),
    (707, DItv.pred Itv.isEmpty ((DItv.mulRevToPair binary64 (⟨⟨.ninf, (f 0 0)⟩, .dac⟩ : DItv) (⟨⟨.ninf, (f 0 0)⟩, .dac⟩ : DItv)).2 : DItv)),
    (708, eqD ((DItv.mulRevToPair binary64 (⟨⟨.ninf, (f (2476979795053773) (-51))⟩, .dac⟩ : DItv) (⟨⟨.ninf, (f 0 0)⟩, .dac⟩ : DItv)).1) (⟨⟨.ninf, .pinf⟩, .trv⟩)),
    (709, DItv.pred Itv.isEmpty ((DItv.mulRevToPair binary64 (⟨⟨.ninf, (f (2476979795053773) (-51))⟩, .dac⟩ : DItv) (⟨⟨.ninf, (f 0 0)⟩, .dac⟩ : DItv)).2 : DItv)),
    (710, eqD ((DItv.mulRevToPair binary64 (⟨⟨(f (-2) (0)), .pinf⟩, .dac⟩ : DItv) (⟨⟨.ninf, (f 0 0)⟩, .dac⟩ : DItv)).1) (⟨⟨.ninf, .pinf⟩, .trv⟩)),
    (711, DItv.pred Itv.isEmpty ((DItv.mulRevToPair binary64 (⟨⟨(f (-2) (0)), .pinf⟩, .dac⟩ : DItv) (⟨⟨.ninf, (f 0 0)⟩, .dac⟩ : DItv)).2 : DItv)),
    (712, eqD ((DItv.mulRevToPair binary64 (⟨⟨(f 0 0), .pinf⟩, .dac⟩ : DItv) (⟨⟨.ninf, (f 0 0)⟩, .dac⟩ : DItv)).1) (⟨⟨.ninf, .pinf⟩, .trv⟩)),
    (713, DItv.pred Itv.isEmpty ((DItv.mulRevToPair binary64 (⟨⟨(f 0 0), .pinf⟩, .dac⟩ : DItv) (⟨⟨.ninf, (f 0 0)⟩, .dac⟩ : DItv)).2 : DItv)),
    (714, eqD ((DItv.mulRevToPair binary64 (⟨⟨(f (5764607523034235) (-59)), .pinf⟩, .dac⟩ : DItv) (⟨⟨.ninf, (f 0 0)⟩, .dac⟩ : DItv)).1) (⟨⟨.ninf, (f 0 0)⟩, .dac⟩)),
    (715, DItv.pred Itv.isEmpty ((DItv.mulRevToPair binary64 (⟨⟨(f (5764607523034235) (-59)), .pinf⟩, .dac⟩ : DItv) (⟨⟨.ninf, (f 0 0)⟩, .dac⟩ : DItv)).2 : DItv)),
    (716, eqD ((DItv.mulRevToPair binary64 (⟨⟨.ninf, .pinf⟩, .dac⟩ : DItv) (⟨⟨.ninf, (f 0 0)⟩, .dac⟩ : DItv)).1) (⟨⟨.ninf, .pinf⟩, .trv⟩)),
    (717, DItv.pred Itv.isEmpty ((DItv.mulRevToPair binary64 (⟨⟨.ninf, .pinf⟩, .dac⟩ : DItv) (⟨⟨.ninf, (f 0 0)⟩, .dac⟩ : DItv)).2 : DItv)),
    (719, eqD ((DItv.mulRevToPair binary64 (⟨⟨(f (-2) (0)), (f (-3602879701896397) (-55))⟩, .dac⟩ : DItv) (⟨⟨.ninf, (f (5404319552844595) (-54))⟩, .dac⟩ : DItv)).1) (⟨⟨(f (-3) (0)), .pinf⟩, .dac⟩)),
    (720, DItv.pred Itv.isEmpty ((DItv.mulRevToPair binary64 (⟨⟨(f (-2) (0)), (f (-3602879701896397) (-55))⟩, .dac⟩ : DItv) (⟨⟨.ninf, (f (5404319552844595) (-54))⟩, .dac⟩ : DItv)).2 : DItv)),
    (721, eqD ((DItv.mulRevToPair binary64 (⟨⟨(f (-2) (0)), (f 0 0)⟩, .dac⟩ : DItv) (⟨⟨.ninf, (f (5404319552844595) (-54))⟩, .dac⟩ : DItv)).1) (⟨⟨.ninf, .pinf⟩, .trv⟩)),
    (722, DItv.pred Itv.isEmpty ((DItv.mulRevToPair binary64 (⟨⟨(f (-2) (0)), (f 0 0)⟩, .dac⟩ : DItv) (⟨⟨.ninf, (f (5404319552844595) (-54))⟩, .dac⟩ : DItv)).2 : DItv)),
    (723, eqD ((DItv.mulRevToPair binary64 (⟨⟨(f (-2) (0)), (f (2476979795053773) (-51))⟩, .dac⟩ : DItv) (⟨⟨.ninf, (f (5404319552844595) (-54))⟩, .dac⟩ : DItv)).1) (⟨⟨.ninf, .pinf⟩, .trv⟩)),
    (724, DItv.pred Itv.isEmpty ((DItv.mulRevToPair binary64 (⟨⟨(f (-2) (0)), (f (2476979795053773) (-51))⟩, .dac⟩ : DItv) (⟨⟨.ninf, (f (5404319552844595) (-54))⟩, .dac⟩ : DItv)).2 : DItv)),
    (725, eqD ((DItv.mulRevToPair binary64 (⟨⟨(f 0 0), (f (2476979795053773) (-51))⟩, .dac⟩ : DItv) (⟨⟨.ninf, (f (5404319552844595) (-54))⟩, .dac⟩ : DItv)).1) (⟨⟨.ninf, .pinf⟩, .trv⟩)),
    (726, DItv.pred Itv.isEmpty ((DItv.mulRevToPair binary64 (⟨⟨(f 0 0), (f (2476979795053773) (-51))⟩, .dac⟩ : DItv) (⟨⟨.ninf, (f (5404319552844595) (-54))⟩, .dac⟩ : DItv)).2 : DItv)),
    (727, eqD ((DItv.mulRevToPair binary64 (⟨⟨(f (5764607523034235) (-59)), (f (2476979795053773) (-51))⟩, .dac⟩ : DItv) (⟨⟨.ninf, (f (5404319552844595) (-54))⟩, .dac⟩ : DItv)).1) (⟨⟨.ninf, (f 30 0)⟩, .dac⟩)),
    (728, DItv.pred Itv.isEmpty ((DItv.mulRevToPair binary64 (⟨⟨(f (5764607523034235) (-59)), (f (2476979795053773) (-51))⟩, .dac⟩ : DItv) (⟨⟨.ninf, (f (5404319552844595) (-54))⟩, .dac⟩ : DItv)).2 : DItv)),
    (729, eqD ((DItv.mulRevToPair binary64 (⟨⟨(f 0 0), (f 0 0)⟩, .dac⟩ : DItv) (⟨⟨.ninf, (f (5404319552844595) (-54))⟩, .dac⟩ : DItv)).1) (⟨⟨.ninf, .pinf⟩, .trv⟩)),
    (730, DItv.pred Itv.isEmpty ((DItv.mulRevToPair binary64 (⟨⟨(f 0 0), (f 0 0)⟩, .dac⟩ : DItv) (⟨⟨.ninf, (f (5404319552844595) (-54))⟩, .dac⟩ : DItv)).2 : DItv)),
    (731, eqD ((DItv.mulRevToPair binary64 (⟨⟨.ninf, (f (-3602879701896397) (-55))⟩, .dac⟩ : DItv) (⟨⟨.ninf, (f (5404319552844595) (-54))⟩, .dac⟩ : DItv)).1) (⟨⟨(f (-3) (0)), .pinf⟩, .dac⟩)),
    (732, DItv.pred Itv.isEmpty ((DItv.mulRevToPair binary64 (⟨⟨.ninf, (f (-3602879701896397) (-55))⟩, .dac⟩ : DItv) (⟨⟨.ninf, (f (5404319552844595) (-54))⟩, .dac⟩ : DItv)).2 : DItv))] : List (ℕ × Bool)).all (·.2) = true := by
  decide +kernel

example : ([
    (733, eqD ((DItv.mulRevToPair binary64 (⟨⟨.ninf, (f 0 0)⟩, .dac⟩ : DItv) (⟨⟨.ninf, (f (5404319552844595) (-54))⟩, .dac⟩ : DItv)).1) (⟨⟨.ninf, .pinf⟩, .trv⟩)),
    (734, DItv.pred Itv.isEmpty ((DItv.mulRevToPair binary64 (⟨⟨.ninf, (f 0 0)⟩, .dac⟩ : DItv) (⟨⟨.ninf, (f (5404319552844595) (-54))⟩, .dac⟩ : DItv)).2 : DItv)),
    (735, eqD ((DItv.mulRevToPair binary64 (⟨⟨.ninf, (f (2476979795053773) (-51))⟩, .dac⟩ : DItv) (⟨⟨.ninf, (f (5404319552844595) (-54))⟩, .dac⟩ : DItv)).1) (⟨⟨.ninf, .pinf⟩, .trv⟩)),
    (736, DItv.pred Itv.isEmpty ((DItv.mulRevToPair binary64 (⟨⟨.ninf, (f (2476979795053773) (-51))⟩, .dac⟩ : DItv) (⟨⟨.ninf, (f (5404319552844595) (-54))⟩, .dac⟩ : DItv)).2 : DItv)),
    (737, eqD ((DItv.mulRevToPair binary64 (⟨⟨(f (-2) (0)), .pinf⟩, .dac⟩ : DItv) (⟨⟨.ninf, (f (5404319552844595) (-54))⟩, .dac⟩ : DItv)).1) (⟨⟨.ninf, .pinf⟩, .trv⟩)),
    (738, DItv.pred Itv.isEmpty ((DItv.mulRevToPair binary64 (⟨⟨(f (-2) (0)), .pinf⟩, .dac⟩ : DItv) (⟨⟨.ninf, (f (5404319552844595) (-54))⟩, .dac⟩ : DItv)).2 : DItv)),
    (739, eqD ((DItv.mulRevToPair binary64 (⟨⟨(f 0 0), .pinf⟩, .dac⟩ : DItv) (⟨⟨.ninf, (f (5404319552844595) (-54))⟩, .dac⟩ : DItv)).1) (⟨⟨.ninf, .pinf⟩, .trv⟩)),
    (740, DItv.pred Itv.isEmpty ((DItv.mulRevToPair binary64 (⟨⟨(f 0 0), .pinf⟩, .dac⟩ : DItv) (⟨⟨.ninf, (f (5404319552844595) (-54))⟩, .dac⟩ : DItv)).2 : DItv)),
    (741, eqD ((DItv.mulRevToPair binary64 (⟨⟨(f (5764607523034235) (-59)), .pinf⟩, .dac⟩ : DItv) (⟨⟨.ninf, (f (5404319552844595) (-54))⟩, .dac⟩ : DItv)).1) (⟨⟨.ninf, (f 30 0)⟩, .dac⟩)),
    (742, DItv.pred Itv.isEmpty ((DItv.mulRevToPair binary64 (⟨⟨(f (5764607523034235) (-59)), .pinf⟩, .dac⟩ : DItv) (⟨⟨.ninf, (f (5404319552844595) (-54))⟩, .dac⟩ : DItv)).2 : DItv)),
    (743, eqD ((DItv.mulRevToPair binary64 (⟨⟨.ninf, .pinf⟩, .dac⟩ : DItv) (⟨⟨.ninf, (f (5404319552844595) (-54))⟩, .dac⟩ : DItv)).1) (⟨⟨.ninf, .pinf⟩, .trv⟩)),
    (744, DItv.pred Itv.isEmpty ((DItv.mulRevToPair binary64 (⟨⟨.ninf, .pinf⟩, .dac⟩ : DItv) (⟨⟨.ninf, (f (5404319552844595) (-54))⟩, .dac⟩ : DItv)).2 : DItv)),
    (746, eqD ((DItv.mulRevToPair binary64 (⟨⟨(f (-2) (0)), (f (-3602879701896397) (-55))⟩, .dac⟩ : DItv) (⟨⟨(f (-7566047373982433) (-55)), .pinf⟩, .dac⟩ : DItv)).1) (⟨⟨.ninf, (f (4728779608739021) (-51))⟩, .dac⟩)),
    (747, DItv.pred Itv.isEmpty ((DItv.mulRevToPair binary64 (⟨⟨(f (-2) (0)), (f (-3602879701896397) (-55))⟩, .dac⟩ : DItv) (⟨⟨(f (-7566047373982433) (-55)), .pinf⟩, .dac⟩ : DItv)).2 : DItv)),
    (748, eqD ((DItv.mulRevToPair binary64 (⟨⟨(f (-2) (0)), (f 0 0)⟩, .dac⟩ : DItv) (⟨⟨(f (-7566047373982433) (-55)), .pinf⟩, .dac⟩ : DItv)).1) (⟨⟨.ninf, .pinf⟩, .trv⟩)),
    (749, DItv.pred Itv.isEmpty ((DItv.mulRevToPair binary64 (⟨⟨(f (-2) (0)), (f 0 0)⟩, .dac⟩ : DItv) (⟨⟨(f (-7566047373982433) (-55)), .pinf⟩, .dac⟩ : DItv)).2 : DItv)),
    (750, eqD ((DItv.mulRevToPair binary64 (⟨⟨(f (-2) (0)), (f (2476979795053773) (-51))⟩, .dac⟩ : DItv) (⟨⟨(f (-7566047373982433) (-55)), .pinf⟩, .dac⟩ : DItv)).1) (⟨⟨.ninf, .pinf⟩, .trv⟩)),
    (751, DItv.pred Itv.isEmpty ((DItv.mulRevToPair binary64 (⟨⟨(f (-2) (0)), (f (2476979795053773) (-51))⟩, .dac⟩ : DItv) (⟨⟨(f (-7566047373982433) (-55)), .pinf⟩, .dac⟩ : DItv)).2 : DItv)),
    (752, eqD ((DItv.mulRevToPair binary64 (⟨⟨(f 0 0), (f (2476979795053773) (-51))⟩, .dac⟩ : DItv) (⟨⟨(f (-7566047373982433) (-55)), .pinf⟩, .dac⟩ : DItv)).1) (⟨⟨.ninf, .pinf⟩, .trv⟩)),
    (753, DItv.pred Itv.isEmpty ((DItv.mulRevToPair binary64 (⟨⟨(f 0 0), (f (2476979795053773) (-51))⟩, .dac⟩ : DItv) (⟨⟨(f (-7566047373982433) (-55)), .pinf⟩, .dac⟩ : DItv)).2 : DItv)),
    (754, eqD ((DItv.mulRevToPair binary64 (⟨⟨(f (5764607523034235) (-59)), (f (2476979795053773) (-51))⟩, .dac⟩ : DItv) (⟨⟨(f (-7566047373982433) (-55)), .pinf⟩, .dac⟩ : DItv)).1) (⟨⟨(f (-21) (0)), .pinf⟩, .dac⟩)),
    (755, DItv.pred Itv.isEmpty ((DItv.mulRevToPair binary64 (⟨⟨(f (5764607523034235) (-59)), (f (2476979795053773) (-51))⟩, .dac⟩ : DItv) (⟨⟨(f (-7566047373982433) (-55)), .pinf⟩, .dac⟩ : DItv)).2 : DItv)),
    (756, eqD ((DItv.mulRevToPair binary64 (⟨⟨(f 0 0), (f 0 0)⟩, .dac⟩ : DItv) (⟨⟨(f (-7566047373982433) (-55)), .pinf⟩, .dac⟩ : DItv)).1) (⟨⟨.ninf, .pinf⟩, .trv⟩)),
    (757, DItv.pred Itv.isEmpty ((DItv.mulRevToPair binary64 (⟨⟨(f 0 0), (f 0 0)⟩, .dac⟩ : DItv) (⟨⟨(f (-7566047373982433) (-55)), .pinf⟩, .dac⟩ : DItv)).2 : DItv)),
    (758, eqD ((DItv.mulRevToPair binary64 (⟨⟨.ninf, (f (-3602879701896397) (-55))⟩, .dac⟩ : DItv) (⟨⟨(f (-7566047373982433) (-55)), .pinf⟩, .dac⟩ : DItv)).1) (⟨⟨.ninf, (f (4728779608739021) (-51))⟩, .dac⟩)),
    (759, DItv.pred Itv.isEmpty ((DItv.mulRevToPair binary64 (⟨⟨.ninf, (f (-3602879701896397) (-55))⟩, .dac⟩ : DItv) (⟨⟨(f (-7566047373982433) (-55)), .pinf⟩, .dac⟩ : DItv)).2 : DItv)),
    (760, eqD ((DItv.mulRevToPair binary64 (⟨⟨.ninf, (f 0 0)⟩, .dac⟩ : DItv) (⟨⟨(f (-7566047373982433) (-55)), .pinf⟩, .dac⟩ : DItv)).1) (⟨⟨.ninf, .pinf⟩, .trv⟩)),
    (761, DItv.pred Itv.isEmpty ((DItv.mulRevToPair binary64 (⟨⟨.ninf, (f 0 0)⟩, .dac⟩ : DItv) (⟨⟨(f (-7566047373982433) (-55)), .pinf⟩, .dac⟩ : DItv)).2 : DItv)),
    (762, eqD ((DItv.mulRevToPair binary64 (⟨⟨.ninf, (f (2476979795053773) (-51))⟩, .dac⟩ : DItv) (⟨⟨(f (-7566047373982433) (-55)), .pinf⟩, .dac⟩ : DItv)).1) (⟨⟨.ninf, .pinf⟩, .trv⟩)),
    (763, DItv.pred Itv.isEmpty ((DItv.mulRevToPair binary64 (⟨⟨.ninf, (f (2476979795053773) (-51))⟩, .dac⟩ : DItv) (⟨⟨(f (-7566047373982433) (-55)), .pinf⟩, .dac⟩ : DItv)).2 : DItv)),
    (764, eqD ((DItv.mulRevToPair binary64 (⟨⟨(f (-2) (0)), .pinf⟩, .dac⟩ : DItv) (⟨⟨(f (-7566047373982433) (-55)), .pinf⟩, .dac⟩ : DItv)).1) (⟨⟨.ninf, .pinf⟩, .trv⟩)),
    (765, DItv.pred Itv.isEmpty ((DItv.mulRevToPair binary64 (⟨⟨(f (-2) (0)), .pinf⟩, .dac⟩ : DItv) (⟨⟨(f (-7566047373982433) (-55)), .pinf⟩, .dac⟩ : DItv)).2 : DItv)),
    (766, eqD ((DItv.mulRevToPair binary64 (⟨⟨(f 0 0), .pinf⟩, .dac⟩ : DItv) (⟨⟨(f (-7566047373982433) (-55)), .pinf⟩, .dac⟩ : DItv)).1) (⟨⟨.ninf, .pinf⟩, .trv⟩)),
    (767, DItv.pred Itv.isEmpty ((DItv.mulRevToPair binary64 (⟨⟨(f 0 0), .pinf⟩, .dac⟩ : DItv) (⟨⟨(f (-7566047373982433) (-55)), .pinf⟩, .dac⟩ : DItv)).2 : DItv)),
    (768, eqD ((DItv.mulRevToPair binary64 (⟨⟨(f (5764607523034235) (-59)), .pinf⟩, .dac⟩ : DItv) (⟨⟨(f (-7566047373982433) (-55)), .pinf⟩, .dac⟩ : DItv)).1) (⟨⟨(f (-21) (0)), .pinf⟩, .dac⟩)),
    (769, DItv.pred Itv.isEmpty ((DItv.mulRevToPair binary64 (⟨⟨(f (5764607523034235) (-59)), .pinf⟩, .dac⟩ : DItv) (⟨⟨(f (-7566047373982433) (-55)), .pinf⟩, .dac⟩ : DItv)).2 : DItv)),
    (770, eqD ((DItv.mulRevToPair binary64 (⟨⟨.ninf, .pinf⟩, .dac⟩ : DItv) (⟨⟨(f (-7566047373982433) (-55)), .pinf⟩, .dac⟩ : DItv)).1) (⟨⟨.ninf, .pinf⟩, .trv⟩)),
    (771, DItv.pred Itv.isEmpty ((DItv.mulRevToPair binary64 (⟨⟨.ninf, .pinf⟩, .dac⟩ : DItv) (⟨⟨(f (-7566047373982433) (-55)), .pinf⟩, .dac⟩ : DItv)).2 : DItv)),
    (773, eqD ((DItv.mulRevToPair binary64 (⟨⟨(f (-2) (0)), (f (-3602879701896397) (-55))⟩, .dac⟩ : DItv) (⟨⟨(f 0 0), .pinf⟩, .dac⟩ : DItv)).1) (⟨⟨.ninf, (f 0 0)⟩, .dac⟩)),
    (774, DItv.pred Itv.isEmpty ((DItv.mulRevToPair binary64 (⟨⟨(f (-2) (0)), (f (-3602879701896397) (-55))⟩, .dac⟩ : DItv) (⟨⟨(f 0 0), .pinf⟩, .dac⟩ : DItv)).2 : DItv)),
    (775, eqD ((DItv.mulRevToPair binary64 (⟨⟨(f (-2) (0)), (f 0 0)⟩, .dac⟩ : DItv) (⟨⟨(f 0 0), .pinf⟩, .dac⟩ : DItv)).1) (⟨⟨.ninf, .pinf⟩, .trv⟩)),
    (776, DItv.pred Itv.isEmpty ((DItv.mulRevToPair binary64 (⟨⟨(f (-2) (0)), (f 0 0)⟩, .dac⟩ : DItv) (⟨⟨(f 0 0), .pinf⟩, .dac⟩ : DItv)).2 : DItv)),
    (777, eqD ((DItv.mulRevToPair binary64 (⟨⟨(f (-2) (0)), (f (2476979795053773) (-51))⟩, .dac⟩ : DItv) (⟨⟨(f 0 0), .pinf⟩, .dac⟩ : DItv)).1) (⟨⟨.ninf, .pinf⟩, .trv⟩)),
    (778, DItv.pred Itv.isEmpty ((DItv.mulRevToPair binary64 (⟨⟨(f (-2) (0)), (f (2476979795053773) (-51))⟩, .dac⟩ : DItv) (⟨⟨(f 0 0), .pinf⟩, .dac⟩ : DItv)).2 : DItv)),
    (779, eqD ((DItv.mulRevToPair binary64 (⟨⟨(f 0 0), (f (2476979795053773) (-51))⟩, .dac⟩ : DItv) (⟨⟨(f 0 0), .pinf⟩, .dac⟩ : DItv)).1) (⟨⟨.ninf, .pinf⟩, .trv⟩)),
    (780, DItv.pred Itv.isEmpty ((DItv.mulRevToPair binary64 (⟨⟨(f 0 0), (f (2476979795053773) (-51))⟩, .dac⟩ : DItv) (⟨⟨(f 0 0), .pinf⟩, .dac⟩ : DItv)).2 : DItv)),
    (781, eqD ((DItv.mulRevToPair binary64 (⟨⟨(f (5764607523034235) (-59)), (f (2476979795053773) (-51))⟩, .dac⟩ : DItv) (⟨⟨(f 0 0), .pinf⟩, .dac⟩ : DItv)).1) (⟨⟨(f 0 0), .pinf⟩, .dac⟩)),
    (782, DItv.pred Itv.isEmpty ((DItv.mulRevToPair binary64 (⟨⟨(f (5764607523034235) (-59)), (f (2476979795053773) (-51))⟩, .dac⟩ : DItv) (⟨⟨(f 0 0), .pinf⟩, .dac⟩ : DItv)).2 : DItv)),
    (783, eqD ((DItv.mulRevToPair binary64 (⟨⟨(f 0 0), (f 0 0)⟩, .dac⟩ : DItv) (⟨⟨(f 0 0), .pinf⟩, .dac⟩ : DItv)).1) (⟨⟨.ninf, .pinf⟩, .trv⟩)),
    (784, DItv.pred Itv.isEmpty ((DItv.mulRevToPair binary64 (⟨⟨(f 0 0), (f 0 0)⟩, .dac⟩ : DItv) (⟨⟨(f 0 0), .pinf⟩, .dac⟩ : DItv)).2 : DItv))] : List (ℕ × Bool)).all (·.2) = true := by
  decide +kernel

example : ([
    (785, eqD ((DItv.mulRevToPair binary64 (⟨⟨.ninf, (f (-3602879701896397) (-55))⟩, .dac⟩ : DItv) (⟨⟨(f 0 0), .pinf⟩, .dac⟩ : DItv)).1) (⟨⟨.ninf, (f 0 0)⟩, .dac⟩)),
    (786, DItv.pred Itv.isEmpty ((DItv.mulRevToPair binary64 (⟨⟨.ninf, (f (-3602879701896397) (-55))⟩, .dac⟩ : DItv) (⟨⟨(f 0 0), .pinf⟩, .dac⟩ : DItv)).2 : DItv)),
    (787, eqD ((DItv.mulRevToPair binary64 (⟨⟨.ninf, (f 0 0)⟩, .dac⟩ : DItv) (⟨⟨(f 0 0), .pinf⟩, .dac⟩ : DItv)).1) (⟨⟨.ninf, .pinf⟩, .trv⟩)),
    (788, DItv.pred Itv.isEmpty ((DItv.mulRevToPair binary64 (⟨⟨.ninf, (f 0 0)⟩, .dac⟩ : DItv) (⟨⟨(f 0 0), .pinf⟩, .dac⟩ : DItv)).2 : DItv)),
    (789, eqD ((DItv.mulRevToPair binary64 (⟨⟨.ninf, (f (2476979795053773) (-51))⟩, .dac⟩ : DItv) (⟨⟨(f 0 0), .pinf⟩, .dac⟩ : DItv)).1) (⟨⟨.ninf, .pinf⟩, .trv⟩)),
    (790, DItv.pred Itv.isEmpty ((DItv.mulRevToPair binary64 (⟨⟨.ninf, (f (2476979795053773) (-51))⟩, .dac⟩ : DItv) (⟨⟨(f 0 0), .pinf⟩, .dac⟩ : DItv)).2 : DItv)),
    (791, eqD ((DItv.mulRevToPair binary64 (⟨⟨(f (-2) (0)), .pinf⟩, .dac⟩ : DItv) (⟨⟨(f 0 0), .pinf⟩, .dac⟩ : DItv)).1) (⟨⟨.ninf, .pinf⟩, .trv⟩)),
    (792, DItv.pred Itv.isEmpty ((DItv.mulRevToPair binary64 (⟨⟨(f (-2) (0)), .pinf⟩, .dac⟩ : DItv) (⟨⟨(f 0 0), .pinf⟩, .dac⟩ : DItv)).2 : DItv)),
    (793, eqD ((DItv.mulRevToPair binary64 (⟨⟨(f 0 0), .pinf⟩, .dac⟩ : DItv) (⟨⟨(f 0 0), .pinf⟩, .dac⟩ : DItv)).1) (⟨⟨.ninf, .pinf⟩, .trv⟩)),
    (794, DItv.pred Itv.isEmpty ((DItv.mulRevToPair binary64 (⟨⟨(f 0 0), .pinf⟩, .dac⟩ : DItv) (⟨⟨(f 0 0), .pinf⟩, .dac⟩ : DItv)).2 : DItv)),
    (795, eqD ((DItv.mulRevToPair binary64 (⟨⟨(f (5764607523034235) (-59)), .pinf⟩, .dac⟩ : DItv) (⟨⟨(f 0 0), .pinf⟩, .dac⟩ : DItv)).1) (⟨⟨(f 0 0), .pinf⟩, .dac⟩)),
    (796, DItv.pred Itv.isEmpty ((DItv.mulRevToPair binary64 (⟨⟨(f (5764607523034235) (-59)), .pinf⟩, .dac⟩ : DItv) (⟨⟨(f 0 0), .pinf⟩, .dac⟩ : DItv)).2 : DItv)),
    (797, eqD ((DItv.mulRevToPair binary64 (⟨⟨.ninf, .pinf⟩, .dac⟩ : DItv) (⟨⟨(f 0 0), .pinf⟩, .dac⟩ : DItv)).1) (⟨⟨.ninf, .pinf⟩, .trv⟩)),
    (798, DItv.pred Itv.isEmpty ((DItv.mulRevToPair binary64 (⟨⟨.ninf, .pinf⟩, .dac⟩ : DItv) (⟨⟨(f 0 0), .pinf⟩, .dac⟩ : DItv)).2 : DItv)),
    (800, eqD ((DItv.mulRevToPair binary64 (⟨⟨(f (-2) (0)), (f (-3602879701896397) (-55))⟩, .dac⟩ : DItv) (⟨⟨(f (5764607523034235) (-57)), .pinf⟩, .dac⟩ : DItv)).1) (⟨⟨.ninf, (f (-5764607523034235) (-58))⟩, .dac⟩)),
    (801, DItv.pred Itv.isEmpty ((DItv.mulRevToPair binary64 (⟨⟨(f (-2) (0)), (f (-3602879701896397) (-55))⟩, .dac⟩ : DItv) (⟨⟨(f (5764607523034235) (-57)), .pinf⟩, .dac⟩ : DItv)).2 : DItv)),
    (802, eqD ((DItv.mulRevToPair binary64 (⟨⟨(f (-2) (0)), (f 0 0)⟩, .dac⟩ : DItv) (⟨⟨(f (5764607523034235) (-57)), .pinf⟩, .dac⟩ : DItv)).1) (⟨⟨.ninf, (f (-5764607523034235) (-58))⟩, .trv⟩)),
    (803, DItv.pred Itv.isEmpty ((DItv.mulRevToPair binary64 (⟨⟨(f (-2) (0)), (f 0 0)⟩, .dac⟩ : DItv) (⟨⟨(f (5764607523034235) (-57)), .pinf⟩, .dac⟩ : DItv)).2 : DItv)),
    (804, eqD ((DItv.mulRevToPair binary64 (⟨⟨(f (-2) (0)), (f (2476979795053773) (-51))⟩, .dac⟩ : DItv) (⟨⟨(f (5764607523034235) (-57)), .pinf⟩, .dac⟩ : DItv)).1) (⟨⟨.ninf, (f (-5764607523034235) (-58))⟩, .trv⟩)),
    (805, eqD ((DItv.mulRevToPair binary64 (⟨⟨(f (-2) (0)), (f (2476979795053773) (-51))⟩, .dac⟩ : DItv) (⟨⟨(f (5764607523034235) (-57)), .pinf⟩, .dac⟩ : DItv)).2) (⟨⟨(f (5240552293667485) (-57)), .pinf⟩, .trv⟩)),
    (806, eqD ((DItv.mulRevToPair binary64 (⟨⟨(f 0 0), (f (2476979795053773) (-51))⟩, .dac⟩ : DItv) (⟨⟨(f (5764607523034235) (-57)), .pinf⟩, .dac⟩ : DItv)).1) (⟨⟨(f (5240552293667485) (-57)), .pinf⟩, .trv⟩)),
    (807, DItv.pred Itv.isEmpty ((DItv.mulRevToPair binary64 (⟨⟨(f 0 0), (f (2476979795053773) (-51))⟩, .dac⟩ : DItv) (⟨⟨(f (5764607523034235) (-57)), .pinf⟩, .dac⟩ : DItv)).2 : DItv)),
    (808, eqD ((DItv.mulRevToPair binary64 (⟨⟨(f (5764607523034235) (-59)), (f (2476979795053773) (-51))⟩, .dac⟩ : DItv) (⟨⟨(f (5764607523034235) (-57)), .pinf⟩, .dac⟩ : DItv)).1) (⟨⟨(f (5240552293667485) (-57)), .pinf⟩, .dac⟩)),
    (809, DItv.pred Itv.isEmpty ((DItv.mulRevToPair binary64 (⟨⟨(f (5764607523034235) (-59)), (f (2476979795053773) (-51))⟩, .dac⟩ : DItv) (⟨⟨(f (5764607523034235) (-57)), .pinf⟩, .dac⟩ : DItv)).2 : DItv)),
    (810, DItv.pred Itv.isEmpty ((DItv.mulRevToPair binary64 (⟨⟨(f 0 0), (f 0 0)⟩, .dac⟩ : DItv) (⟨⟨(f (5764607523034235) (-57)), .pinf⟩, .dac⟩ : DItv)).1 : DItv)),
    (811, DItv.pred Itv.isEmpty ((DItv.mulRevToPair binary64 (⟨⟨(f 0 0), (f 0 0)⟩, .dac⟩ : DItv) (⟨⟨(f (5764607523034235) (-57)), .pinf⟩, .dac⟩ : DItv)).2 : DItv)),
    (812, eqD ((DItv.mulRevToPair binary64 (⟨⟨.ninf, (f (-3602879701896397) (-55))⟩, .dac⟩ : DItv) (⟨⟨(f (5764607523034235) (-57)), .pinf⟩, .dac⟩ : DItv)).1) (⟨⟨.ninf, (f 0 0)⟩, .dac⟩)),
    (813, DItv.pred Itv.isEmpty ((DItv.mulRevToPair binary64 (⟨⟨.ninf, (f (-3602879701896397) (-55))⟩, .dac⟩ : DItv) (⟨⟨(f (5764607523034235) (-57)), .pinf⟩, .dac⟩ : DItv)).2 : DItv)),
    (814, eqD ((DItv.mulRevToPair binary64 (⟨⟨.ninf, (f 0 0)⟩, .dac⟩ : DItv) (⟨⟨(f (5764607523034235) (-57)), .pinf⟩, .dac⟩ : DItv)).1) (⟨⟨.ninf, (f 0 0)⟩, .trv⟩)),
    (815, DItv.pred Itv.isEmpty ((DItv.mulRevToPair binary64 (⟨⟨.ninf, (f 0 0)⟩, .dac⟩ : DItv) (⟨⟨(f (5764607523034235) (-57)), .pinf⟩, .dac⟩ : DItv)).2 : DItv)),
    (816, eqD ((DItv.mulRevToPair binary64 (⟨⟨.ninf, (f (2476979795053773) (-51))⟩, .dac⟩ : DItv) (⟨⟨(f (5764607523034235) (-57)), .pinf⟩, .dac⟩ : DItv)).1) (⟨⟨.ninf, (f 0 0)⟩, .trv⟩)),
    (817, eqD ((DItv.mulRevToPair binary64 (⟨⟨.ninf, (f (2476979795053773) (-51))⟩, .dac⟩ : DItv) (⟨⟨(f (5764607523034235) (-57)), .pinf⟩, .dac⟩ : DItv)).2) (⟨⟨(f (5240552293667485) (-57)), .pinf⟩, .trv⟩)),
    (818, eqD ((DItv.mulRevToPair binary64 (⟨⟨(f (-2) (0)), .pinf⟩, .dac⟩ : DItv) (⟨⟨(f (5764607523034235) (-57)), .pinf⟩, .dac⟩ : DItv)).1) (⟨⟨.ninf, (f (-5764607523034235) (-58))⟩, .trv⟩)),
    (819, eqD ((DItv.mulRevToPair binary64 (⟨⟨(f (-2) (0)), .pinf⟩, .dac⟩ : DItv) (⟨⟨(f (5764607523034235) (-57)), .pinf⟩, .dac⟩ : DItv)).2) (⟨⟨(f 0 0), .pinf⟩, .trv⟩)),
    (820, eqD ((DItv.mulRevToPair binary64 (⟨⟨(f 0 0), .pinf⟩, .dac⟩ : DItv) (⟨⟨(f (5764607523034235) (-57)), .pinf⟩, .dac⟩ : DItv)).1) (⟨⟨(f 0 0), .pinf⟩, .trv⟩)),
    (821, DItv.pred Itv.isEmpty ((DItv.mulRevToPair binary64 (⟨⟨(f 0 0), .pinf⟩, .dac⟩ : DItv) (⟨⟨(f (5764607523034235) (-57)), .pinf⟩, .dac⟩ : DItv)).2 : DItv)),
    (822, eqD ((DItv.mulRevToPair binary64 (⟨⟨(f (5764607523034235) (-59)), .pinf⟩, .dac⟩ : DItv) (⟨⟨(f (5764607523034235) (-57)), .pinf⟩, .dac⟩ : DItv)).1) (⟨⟨(f 0 0), .pinf⟩, .dac⟩)),
    (823, DItv.pred Itv.isEmpty ((DItv.mulRevToPair binary64 (⟨⟨(f (5764607523034235) (-59)), .pinf⟩, .dac⟩ : DItv) (⟨⟨(f (5764607523034235) (-57)), .pinf⟩, .dac⟩ : DItv)).2 : DItv)),
    (824, eqD ((DItv.mulRevToPair binary64 (⟨⟨.ninf, .pinf⟩, .dac⟩ : DItv) (⟨⟨(f (5764607523034235) (-57)), .pinf⟩, .dac⟩ : DItv)).1) (⟨⟨.ninf, (f 0 0)⟩, .trv⟩)),
    (825, eqD ((DItv.mulRevToPair binary64 (⟨⟨.ninf, .pinf⟩, .dac⟩ : DItv) (⟨⟨(f (5764607523034235) (-57)), .pinf⟩, .dac⟩ : DItv)).2) (⟨⟨(f 0 0), .pinf⟩, .trv⟩)),
    (827, eqD ((DItv.mulRevToPair binary64 (⟨⟨(f (-2) (0)), (f (-3602879701896397) (-55))⟩, .dac⟩ : DItv) (⟨⟨.ninf, .pinf⟩, .dac⟩ : DItv)).1) (⟨⟨.ninf, .pinf⟩, .dac⟩)),
    (828, DItv.pred Itv.isEmpty ((DItv.mulRevToPair binary64 (⟨⟨(f (-2) (0)), (f (-3602879701896397) (-55))⟩, .dac⟩ : DItv) (⟨⟨.ninf, .pinf⟩, .dac⟩ : DItv)).2 : DItv)),
    (829, eqD ((DItv.mulRevToPair binary64 (⟨⟨(f (-2) (0)), (f 0 0)⟩, .dac⟩ : DItv) (⟨⟨.ninf, .pinf⟩, .dac⟩ : DItv)).1) (⟨⟨.ninf, .pinf⟩, .trv⟩)),
    (830, DItv.pred Itv.isEmpty ((DItv.mulRevToPair binary64 (⟨⟨(f (-2) (0)), (f 0 0)⟩, .dac⟩ : DItv) (⟨⟨.ninf, .pinf⟩, .dac⟩ : DItv)).2 : DItv)),
    (831, eqD ((DItv.mulRevToPair binary64 (⟨⟨(f (-2) (0)), (f (2476979795053773) (-51))⟩, .dac⟩ : DItv) (⟨⟨.ninf, .pinf⟩, .dac⟩ : DItv)).1) (⟨⟨.ninf, .pinf⟩, .trv⟩)),
    (832, DItv.pred Itv.isEmpty ((DItv.mulRevToPair binary64 (⟨⟨(f (-2) (0)), (f (2476979795053773) (-51))⟩, .dac⟩ : DItv) (⟨⟨.ninf, .pinf⟩, .dac⟩ : DItv)).2 : DItv)),
    (833, eqD ((DItv.mulRevToPair binary64 (⟨⟨(f 0 0), (f (2476979795053773) (-51))⟩, .dac⟩ : DItv) (⟨⟨.ninf, .pinf⟩, .dac⟩ : DItv)).1) (⟨⟨.ninf, .pinf⟩, .trv⟩)),
    (834, DItv.pred Itv.isEmpty ((DItv.mulRevToPair binary64 (⟨⟨(f 0 0), (f (2476979795053773) (-51))⟩, .dac⟩ : DItv) (⟨⟨.ninf, .pinf⟩, .dac⟩ : DItv)).2 : DItv)),
    (835, eqD ((DItv.mulRevToPair binary64 (⟨⟨(f (5764607523034235) (-59)), (f (2476979795053773) (-51))⟩, .dac⟩ : DItv) (⟨⟨.ninf, .pinf⟩, .dac⟩ : DItv)).1) (⟨⟨.ninf, .pinf⟩, .dac⟩)),
    (836, DItv.pred Itv.isEmpty ((DItv.mulRevToPair binary64 (⟨⟨(f (5764607523034235) (-59)), (f (2476979795053773) (-51))⟩, .dac⟩ : DItv) (⟨⟨.ninf, .pinf⟩, .dac⟩ : DItv)).2 : DItv))] : List (ℕ × Bool)).all (·.2) = true := by
  decide +kernel

example : ([
    (837, eqD ((DItv.mulRevToPair binary64 (⟨⟨(f 0 0), (f 0 0)⟩, .dac⟩ : DItv) (⟨⟨.ninf, .pinf⟩, .dac⟩ : DItv)).1) (⟨⟨.ninf, .pinf⟩, .trv⟩)),
    (838, DItv.pred Itv.isEmpty ((DItv.mulRevToPair binary64 (⟨⟨(f 0 0), (f 0 0)⟩, .dac⟩ : DItv) (⟨⟨.ninf, .pinf⟩, .dac⟩ : DItv)).2 : DItv)),
    (839, eqD ((DItv.mulRevToPair binary64 (⟨⟨.ninf, (f (-3602879701896397) (-55))⟩, .dac⟩ : DItv) (⟨⟨.ninf, .pinf⟩, .dac⟩ : DItv)).1) (⟨⟨.ninf, .pinf⟩, .dac⟩)),
    (840, DItv.pred Itv.isEmpty ((DItv.mulRevToPair binary64 (⟨⟨.ninf, (f (-3602879701896397) (-55))⟩, .dac⟩ : DItv) (⟨⟨.ninf, .pinf⟩, .dac⟩ : DItv)).2 : DItv)),
    (841, eqD ((DItv.mulRevToPair binary64 (⟨⟨.ninf, (f 0 0)⟩, .dac⟩ : DItv) (⟨⟨.ninf, .pinf⟩, .dac⟩ : DItv)).1) (⟨⟨.ninf, .pinf⟩, .trv⟩)),
    (842, DItv.pred Itv.isEmpty ((DItv.mulRevToPair binary64 (⟨⟨.ninf, (f 0 0)⟩, .dac⟩ : DItv) (⟨⟨.ninf, .pinf⟩, .dac⟩ : DItv)).2 : DItv)),
    (843, eqD ((DItv.mulRevToPair binary64 (⟨⟨.ninf, (f (2476979795053773) (-51))⟩, .dac⟩ : DItv) (⟨⟨.ninf, .pinf⟩, .dac⟩ : DItv)).1) (⟨⟨.ninf, .pinf⟩, .trv⟩)),
    (844, DItv.pred Itv.isEmpty ((DItv.mulRevToPair binary64 (⟨⟨.ninf, (f (2476979795053773) (-51))⟩, .dac⟩ : DItv) (⟨⟨.ninf, .pinf⟩, .dac⟩ : DItv)).2 : DItv)),
    (845, eqD ((DItv.mulRevToPair binary64 (⟨⟨(f (-2) (0)), .pinf⟩, .dac⟩ : DItv) (⟨⟨.ninf, .pinf⟩, .dac⟩ : DItv)).1) (⟨⟨.ninf, .pinf⟩, .trv⟩)),
    (846, DItv.pred Itv.isEmpty ((DItv.mulRevToPair binary64 (⟨⟨(f (-2) (0)), .pinf⟩, .dac⟩ : DItv) (⟨⟨.ninf, .pinf⟩, .dac⟩ : DItv)).2 : DItv)),
    (847, eqD ((DItv.mulRevToPair binary64 (⟨⟨(f 0 0), .pinf⟩, .dac⟩ : DItv) (⟨⟨.ninf, .pinf⟩, .dac⟩ : DItv)).1) (⟨⟨.ninf, .pinf⟩, .trv⟩)),
    (848, DItv.pred Itv.isEmpty ((DItv.mulRevToPair binary64 (⟨⟨(f 0 0), .pinf⟩, .dac⟩ : DItv) (⟨⟨.ninf, .pinf⟩, .dac⟩ : DItv)).2 : DItv)),
    (849, eqD ((DItv.mulRevToPair binary64 (⟨⟨(f (5764607523034235) (-59)), .pinf⟩, .dac⟩ : DItv) (⟨⟨.ninf, .pinf⟩, .dac⟩ : DItv)).1) (⟨⟨.ninf, .pinf⟩, .dac⟩)),
    (850, DItv.pred Itv.isEmpty ((DItv.mulRevToPair binary64 (⟨⟨(f (5764607523034235) (-59)), .pinf⟩, .dac⟩ : DItv) (⟨⟨.ninf, .pinf⟩, .dac⟩ : DItv)).2 : DItv)),
    (851, eqD ((DItv.mulRevToPair binary64 (⟨⟨.ninf, .pinf⟩, .dac⟩ : DItv) (⟨⟨.ninf, .pinf⟩, .dac⟩ : DItv)).1) (⟨⟨.ninf, .pinf⟩, .trv⟩)),
    (852, DItv.pred Itv.isEmpty ((DItv.mulRevToPair binary64 (⟨⟨.ninf, .pinf⟩, .dac⟩ : DItv) (⟨⟨.ninf, .pinf⟩, .dac⟩ : DItv)).2 : DItv)),
    (858, DItv.isNai ((DItv.mulRevToPair binary64 (⟨⟨(f 1 0), (f (-2) (0))⟩, .trv⟩ : DItv) (⟨⟨(f 1 0), (f 2 0)⟩, .com⟩ : DItv)).1 : DItv)),
    (859, DItv.isNai ((DItv.mulRevToPair binary64 (⟨⟨(f 1 0), (f (-2) (0))⟩, .dac⟩ : DItv) (⟨⟨(f 1 0), (f 2 0)⟩, .trv⟩ : DItv)).2 : DItv)),
    (873, DItv.isNai ((DItv.mulRevToPairMixed .double .float .double (DItv.nai : DItv) (⟨⟨(f 1 0), (f 2 0)⟩, .dac⟩ : DItv)).1 : DItv)),
    (874, DItv.isNai ((DItv.mulRevToPairMixed .double .float .double (DItv.nai : DItv) (⟨⟨(f 1 0), (f 2 0)⟩, .dac⟩ : DItv)).2 : DItv)),
    (875, DItv.isNai ((DItv.mulRevToPairMixed .float .double .double (⟨⟨(f 1 0), (f 2 0)⟩, .dac⟩ : DItv) (DItv.nai : DItv)).1 : DItv)),
    (876, DItv.isNai ((DItv.mulRevToPairMixed .float .double .double (⟨⟨(f 1 0), (f 2 0)⟩, .dac⟩ : DItv) (DItv.nai : DItv)).2 : DItv)),
    (879, DItv.pred Itv.isEmpty ((DItv.mulRevToPairMixed .double .float .double (DItv.empty : DItv) (⟨⟨(f 1 0), (f 2 0)⟩, .dac⟩ : DItv)).1 : DItv)),
    (880, DItv.pred Itv.isEmpty ((DItv.mulRevToPairMixed .double .float .double (DItv.empty : DItv) (⟨⟨(f 1 0), (f 2 0)⟩, .dac⟩ : DItv)).2 : DItv)),
    (881, DItv.pred Itv.isEmpty ((DItv.mulRevToPairMixed .float .double .double (⟨⟨(f 1 0), (f 2 0)⟩, .dac⟩ : DItv) (DItv.empty : DItv)).1 : DItv)),
    (882, DItv.pred Itv.isEmpty ((DItv.mulRevToPairMixed .float .double .double (⟨⟨(f 1 0), (f 2 0)⟩, .dac⟩ : DItv) (DItv.empty : DItv)).2 : DItv)),
    (884, eqD ((DItv.mulRevToPairMixed .float .double .double (⟨⟨(f (-2) (0)), (f (-3602879701896397) (-55))⟩, .dac⟩ : DItv) (⟨⟨(f (-4728779608739021) (-51)), (f (-3602879701896397) (-53))⟩, .dac⟩ : DItv)).1) (⟨⟨(f (3355443) (-24)), (f 21 0)⟩, .dac⟩)),
    (885, DItv.pred Itv.isEmpty ((DItv.mulRevToPairMixed .float .double .double (⟨⟨(f (-2) (0)), (f (-3602879701896397) (-55))⟩, .dac⟩ : DItv) (⟨⟨(f (-4728779608739021) (-51)), (f (-3602879701896397) (-53))⟩, .dac⟩ : DItv)).2 : DItv)),
    (887, eqD ((DItv.mulRevToPairMixed .float .double .double (⟨⟨(f (5764607523034235) (-59)), (f (2476979795053773) (-51))⟩, .dac⟩ : DItv) (⟨⟨(f (-4728779608739021) (-51)), (f 0 0)⟩, .dac⟩ : DItv)).1) (⟨⟨(f (-13762561) (-16)), (f 0 0)⟩, .dac⟩)),
    (888, DItv.pred Itv.isEmpty ((DItv.mulRevToPairMixed .float .double .double (⟨⟨(f (5764607523034235) (-59)), (f (2476979795053773) (-51))⟩, .dac⟩ : DItv) (⟨⟨(f (-4728779608739021) (-51)), (f 0 0)⟩, .dac⟩ : DItv)).2 : DItv)),
    (890, eqD ((DItv.mulRevToPairMixed .float .double .double (⟨⟨(f (5764607523034235) (-59)), (f (2476979795053773) (-51))⟩, .dac⟩ : DItv) (⟨⟨(f (-4728779608739021) (-51)), (f (1080863910568919) (-53))⟩, .dac⟩ : DItv)).1) (⟨⟨(f (-13762561) (-16)), (f 12 0)⟩, .dac⟩)),
    (891, DItv.pred Itv.isEmpty ((DItv.mulRevToPairMixed .float .double .double (⟨⟨(f (5764607523034235) (-59)), (f (2476979795053773) (-51))⟩, .dac⟩ : DItv) (⟨⟨(f (-4728779608739021) (-51)), (f (1080863910568919) (-53))⟩, .dac⟩ : DItv)).2 : DItv)),
    (893, eqD ((DItv.mulRevToPairMixed .double .float .float (⟨⟨(f (5368709) (-29)), .pinf⟩, .dac⟩ : DItv) (⟨⟨(f 0 0), (f (16106127) (-27))⟩, .dac⟩ : DItv)).1) (⟨⟨(f 0 0), (f 12 0)⟩, .dac⟩)),
    (894, DItv.pred Itv.isEmpty ((DItv.mulRevToPairMixed .double .float .float (⟨⟨(f (5368709) (-29)), .pinf⟩, .dac⟩ : DItv) (⟨⟨(f 0 0), (f (16106127) (-27))⟩, .dac⟩ : DItv)).2 : DItv)),
    (896, eqD ((DItv.mulRevToPairMixed .double .float .float (⟨⟨(f (-2) (0)), (f (9227469) (-23))⟩, .dac⟩ : DItv) (⟨⟨(f (5368709) (-29)), (f (16106127) (-27))⟩, .dac⟩ : DItv)).1) (⟨⟨.ninf, (f (-5368709) (-30))⟩, .trv⟩)),
    (897, eqD ((DItv.mulRevToPairMixed .double .float .float (⟨⟨(f (-2) (0)), (f (9227469) (-23))⟩, .dac⟩ : DItv) (⟨⟨(f (5368709) (-29)), (f (16106127) (-27))⟩, .dac⟩ : DItv)).2) (⟨⟨(f (5240552062946107) (-59)), .pinf⟩, .trv⟩)),
    (900, eqD ((DItv.mulRevToPairMixed .double .float .double (⟨⟨(f (-2) (0)), (f (9227469) (-23))⟩, .dac⟩ : DItv) (⟨⟨.ninf, (f (-3602879701896397) (-55))⟩, .dac⟩ : DItv)).1) (⟨⟨.ninf, (f (-6550690225101971) (-56))⟩, .trv⟩)),
    (901, eqD ((DItv.mulRevToPairMixed .double .float .double (⟨⟨(f (-2) (0)), (f (9227469) (-23))⟩, .dac⟩ : DItv) (⟨⟨.ninf, (f (-3602879701896397) (-55))⟩, .dac⟩ : DItv)).2) (⟨⟨(f (3602879701896397) (-56)), .pinf⟩, .trv⟩)),
    (904, eqD ((DItv.mulRevToPairMixed .float .double .double (⟨⟨(f (-2) (0)), (f (2476979795053773) (-51))⟩, .dac⟩ : DItv) (⟨⟨(f (5764607523034235) (-57)), .pinf⟩, .dac⟩ : DItv)).1) (⟨⟨.ninf, (f (-5368709) (-28))⟩, .trv⟩)),
    (905, eqD ((DItv.mulRevToPairMixed .float .double .double (⟨⟨(f (-2) (0)), (f (2476979795053773) (-51))⟩, .dac⟩ : DItv) (⟨⟨(f (5764607523034235) (-57)), .pinf⟩, .dac⟩ : DItv)).2) (⟨⟨(f (9761289) (-28)), .pinf⟩, .trv⟩)),
    (911, DItv.isNai ((DItv.mulRevToPairMixed .float .double .double (⟨⟨(f 1 0), (f (-2) (0))⟩, .dac⟩ : DItv) (⟨⟨(f 1 0), (f 2 0)⟩, .dac⟩ : DItv)).1 : DItv)),
    (912, DItv.isNai ((DItv.mulRevToPairMixed .float .double .double (⟨⟨(f 1 0), (f (-2) (0))⟩, .dac⟩ : DItv) (⟨⟨(f 1 0), (f 2 0)⟩, .dac⟩ : DItv)).2 : DItv))] : List (ℕ × Bool)).all (·.2) = true := by
  decide +kernel

end P1788.Conform
