import Verif.Conform.Basic

/-!
# Conformance: rec_overlap

Generated from `/repo/test/p1788/flavor/infsup/setbased/test_mpfr_bin_ieee754_flavor_rec_overlap.cpp`: the assertions of the project's own test suite, evaluated in the
model by the kernel.  Each entry is (line in that file, value of the assertion).  These are tests of the model, not proofs of
properties.
-/

set_option maxRecDepth 100000

namespace P1788.Conform

example : ([
    (59, decide (Itv.overlap (Itv.empty : Itv) (Itv.empty : Itv) = Overlap.bothEmpty)),
    (60, decide (Itv.overlap (Itv.empty : Itv) (⟨(f 1 0), (f 2 0)⟩ : Itv) = Overlap.firstEmpty)),
    (61, decide (Itv.overlap (⟨(f 1 0), (f 2 0)⟩ : Itv) (Itv.empty : Itv) = Overlap.secondEmpty)),
    (63, decide (Itv.overlap (⟨.ninf, (f 2 0)⟩ : Itv) (⟨(f 3 0), .pinf⟩ : Itv) = Overlap.before)),
    (64, decide (Itv.overlap (⟨.ninf, (f 2 0)⟩ : Itv) (⟨(f 3 0), (f 4 0)⟩ : Itv) = Overlap.before)),
    (65, decide (Itv.overlap (⟨(f 2 0), (f 2 0)⟩ : Itv) (⟨(f 3 0), (f 4 0)⟩ : Itv) = Overlap.before)),
    (66, decide (Itv.overlap (⟨(f 1 0), (f 2 0)⟩ : Itv) (⟨(f 3 0), (f 4 0)⟩ : Itv) = Overlap.before)),
    (67, decide (Itv.overlap (⟨(f 1 0), (f 2 0)⟩ : Itv) (⟨(f 3 0), (f 3 0)⟩ : Itv) = Overlap.before)),
    (68, decide (Itv.overlap (⟨(f 2 0), (f 2 0)⟩ : Itv) (⟨(f 3 0), (f 3 0)⟩ : Itv) = Overlap.before)),
    (69, decide (Itv.overlap (⟨(f 2 0), (f 2 0)⟩ : Itv) (⟨(f 3 0), .pinf⟩ : Itv) = Overlap.before)),
    (71, decide (Itv.overlap (⟨.ninf, (f 2 0)⟩ : Itv) (⟨(f 2 0), (f 3 0)⟩ : Itv) = Overlap.meets)),
    (72, decide (Itv.overlap (⟨(f 1 0), (f 2 0)⟩ : Itv) (⟨(f 2 0), (f 3 0)⟩ : Itv) = Overlap.meets)),
    (73, decide (Itv.overlap (⟨(f 1 0), (f 2 0)⟩ : Itv) (⟨(f 2 0), .pinf⟩ : Itv) = Overlap.meets)),
    (75, decide (Itv.overlap (⟨(f 1 0), (f 2 0)⟩ : Itv) (⟨(f (3) (-1)), (f (5) (-1))⟩ : Itv) = Overlap.overlaps)),
    (77, decide (Itv.overlap (⟨(f 1 0), (f 2 0)⟩ : Itv) (⟨(f 1 0), .pinf⟩ : Itv) = Overlap.starts)),
    (78, decide (Itv.overlap (⟨(f 1 0), (f 2 0)⟩ : Itv) (⟨(f 1 0), (f 3 0)⟩ : Itv) = Overlap.starts)),
    (79, decide (Itv.overlap (⟨(f 1 0), (f 1 0)⟩ : Itv) (⟨(f 1 0), (f 3 0)⟩ : Itv) = Overlap.starts)),
    (81, decide (Itv.overlap (⟨(f 1 0), (f 2 0)⟩ : Itv) (⟨.ninf, .pinf⟩ : Itv) = Overlap.containedBy)),
    (82, decide (Itv.overlap (⟨(f 1 0), (f 2 0)⟩ : Itv) (⟨.ninf, (f 3 0)⟩ : Itv) = Overlap.containedBy)),
    (83, decide (Itv.overlap (⟨(f 1 0), (f 2 0)⟩ : Itv) (⟨(f 0 0), (f 3 0)⟩ : Itv) = Overlap.containedBy)),
    (84, decide (Itv.overlap (⟨(f 2 0), (f 2 0)⟩ : Itv) (⟨(f 0 0), (f 3 0)⟩ : Itv) = Overlap.containedBy)),
    (85, decide (Itv.overlap (⟨(f 2 0), (f 2 0)⟩ : Itv) (⟨(f 0 0), .pinf⟩ : Itv) = Overlap.containedBy)),
    (87, decide (Itv.overlap (⟨(f 1 0), (f 2 0)⟩ : Itv) (⟨.ninf, (f 2 0)⟩ : Itv) = Overlap.finishes)),
    (88, decide (Itv.overlap (⟨(f 1 0), (f 2 0)⟩ : Itv) (⟨(f 0 0), (f 2 0)⟩ : Itv) = Overlap.finishes)),
    (89, decide (Itv.overlap (⟨(f 2 0), (f 2 0)⟩ : Itv) (⟨(f 0 0), (f 2 0)⟩ : Itv) = Overlap.finishes)),
    (91, decide (Itv.overlap (⟨(f 1 0), (f 2 0)⟩ : Itv) (⟨(f 1 0), (f 2 0)⟩ : Itv) = Overlap.equal)),
    (92, decide (Itv.overlap (⟨(f 1 0), (f 1 0)⟩ : Itv) (⟨(f 1 0), (f 1 0)⟩ : Itv) = Overlap.equal)),
    (93, decide (Itv.overlap (⟨.ninf, (f 1 0)⟩ : Itv) (⟨.ninf, (f 1 0)⟩ : Itv) = Overlap.equal)),
    (94, decide (Itv.overlap (⟨.ninf, .pinf⟩ : Itv) (⟨.ninf, .pinf⟩ : Itv) = Overlap.equal)),
    (96, decide (Itv.overlap (⟨(f 3 0), (f 4 0)⟩ : Itv) (⟨(f 2 0), (f 2 0)⟩ : Itv) = Overlap.after)),
    (97, decide (Itv.overlap (⟨(f 3 0), (f 4 0)⟩ : Itv) (⟨(f 1 0), (f 2 0)⟩ : Itv) = Overlap.after)),
    (98, decide (Itv.overlap (⟨(f 3 0), (f 3 0)⟩ : Itv) (⟨(f 1 0), (f 2 0)⟩ : Itv) = Overlap.after)),
    (99, decide (Itv.overlap (⟨(f 3 0), (f 3 0)⟩ : Itv) (⟨(f 2 0), (f 2 0)⟩ : Itv) = Overlap.after)),
    (100, decide (Itv.overlap (⟨(f 3 0), .pinf⟩ : Itv) (⟨(f 2 0), (f 2 0)⟩ : Itv) = Overlap.after)),
    (102, decide (Itv.overlap (⟨(f 2 0), (f 3 0)⟩ : Itv) (⟨(f 1 0), (f 2 0)⟩ : Itv) = Overlap.metBy)),
    (103, decide (Itv.overlap (⟨(f 2 0), (f 3 0)⟩ : Itv) (⟨.ninf, (f 2 0)⟩ : Itv) = Overlap.metBy)),
    (105, decide (Itv.overlap (⟨(f (3) (-1)), (f (5) (-1))⟩ : Itv) (⟨(f 1 0), (f 2 0)⟩ : Itv) = Overlap.overlappedBy)),
    (106, decide (Itv.overlap (⟨(f (3) (-1)), (f (5) (-1))⟩ : Itv) (⟨.ninf, (f 2 0)⟩ : Itv) = Overlap.overlappedBy)),
    (108, decide (Itv.overlap (⟨(f 1 0), .pinf⟩ : Itv) (⟨(f 1 0), (f 2 0)⟩ : Itv) = Overlap.startedBy)),
    (109, decide (Itv.overlap (⟨(f 1 0), (f 3 0)⟩ : Itv) (⟨(f 1 0), (f 2 0)⟩ : Itv) = Overlap.startedBy)),
    (110, decide (Itv.overlap (⟨(f 1 0), (f 3 0)⟩ : Itv) (⟨(f 1 0), (f 1 0)⟩ : Itv) = Overlap.startedBy)),
    (112, decide (Itv.overlap (⟨.ninf, (f 3 0)⟩ : Itv) (⟨(f 1 0), (f 2 0)⟩ : Itv) = Overlap.contains)),
    (113, decide (Itv.overlap (⟨.ninf, .pinf⟩ : Itv) (⟨(f 1 0), (f 2 0)⟩ : Itv) = Overlap.contains)),
    (114, decide (Itv.overlap (⟨(f 0 0), (f 3 0)⟩ : Itv) (⟨(f 1 0), (f 2 0)⟩ : Itv) = Overlap.contains)),
    (115, decide (Itv.overlap (⟨(f 0 0), (f 3 0)⟩ : Itv) (⟨(f 2 0), (f 2 0)⟩ : Itv) = Overlap.contains)),
    (117, decide (Itv.overlap (⟨.ninf, (f 2 0)⟩ : Itv) (⟨(f 1 0), (f 2 0)⟩ : Itv) = Overlap.finishedBy)),
    (118, decide (Itv.overlap (⟨(f 0 0), (f 2 0)⟩ : Itv) (⟨(f 1 0), (f 2 0)⟩ : Itv) = Overlap.finishedBy)),
    (119, decide (Itv.overlap (⟨(f 0 0), (f 2 0)⟩ : Itv) (⟨(f 2 0), (f 2 0)⟩ : Itv) = Overlap.finishedBy)),
    (124, decide (Itv.overlap (⟨(f 1 0), (f (-5404319552844595) (-51))⟩ : Itv) (⟨(f 1 0), (f 2 0)⟩ : Itv) = Overlap.undefined)),
    (138, decide (Itv.overlap (Itv.empty : Itv) (Itv.empty : Itv) = Overlap.bothEmpty))] : List (ℕ × Bool)).all (·.2) = true := by
  decide +kernel

example : ([
    (139, decide (Itv.overlap (Itv.empty : Itv) (⟨(f 1 0), (f 2 0)⟩ : Itv) = Overlap.firstEmpty)),
    (140, decide (Itv.overlap (⟨(f 1 0), (f 2 0)⟩ : Itv) (Itv.empty : Itv) = Overlap.secondEmpty)),
    (142, decide (Itv.overlap (⟨(f 2 0), (f 2 0)⟩ : Itv) (⟨(f 3 0), (f 4 0)⟩ : Itv) = Overlap.before)),
    (143, decide (Itv.overlap (⟨(f 1 0), (f 2 0)⟩ : Itv) (⟨(f 3 0), (f 4 0)⟩ : Itv) = Overlap.before)),
    (144, decide (Itv.overlap (⟨(f 1 0), (f 2 0)⟩ : Itv) (⟨(f 3 0), (f 3 0)⟩ : Itv) = Overlap.before)),
    (145, decide (Itv.overlap (⟨(f 2 0), (f 2 0)⟩ : Itv) (⟨(f 3 0), (f 3 0)⟩ : Itv) = Overlap.before)),
    (147, decide (Itv.overlap (⟨(f 1 0), (f 2 0)⟩ : Itv) (⟨(f 2 0), (f 3 0)⟩ : Itv) = Overlap.meets)),
    (149, decide (Itv.overlap (⟨(f 1 0), (f 2 0)⟩ : Itv) (⟨(f (3) (-1)), (f (5) (-1))⟩ : Itv) = Overlap.overlaps)),
    (151, decide (Itv.overlap (⟨(f 1 0), (f 2 0)⟩ : Itv) (⟨(f 1 0), (f 3 0)⟩ : Itv) = Overlap.starts)),
    (152, decide (Itv.overlap (⟨(f 1 0), (f 1 0)⟩ : Itv) (⟨(f 1 0), (f 3 0)⟩ : Itv) = Overlap.starts)),
    (154, decide (Itv.overlap (⟨(f 1 0), (f 2 0)⟩ : Itv) (⟨(f 0 0), (f 3 0)⟩ : Itv) = Overlap.containedBy)),
    (155, decide (Itv.overlap (⟨(f 2 0), (f 2 0)⟩ : Itv) (⟨(f 0 0), (f 3 0)⟩ : Itv) = Overlap.containedBy)),
    (157, decide (Itv.overlap (⟨(f 1 0), (f 2 0)⟩ : Itv) (⟨(f 0 0), (f 2 0)⟩ : Itv) = Overlap.finishes)),
    (158, decide (Itv.overlap (⟨(f 2 0), (f 2 0)⟩ : Itv) (⟨(f 0 0), (f 2 0)⟩ : Itv) = Overlap.finishes)),
    (160, decide (Itv.overlap (⟨(f 1 0), (f 2 0)⟩ : Itv) (⟨(f 1 0), (f 2 0)⟩ : Itv) = Overlap.equal)),
    (161, decide (Itv.overlap (⟨(f 1 0), (f 1 0)⟩ : Itv) (⟨(f 1 0), (f 1 0)⟩ : Itv) = Overlap.equal)),
    (163, decide (Itv.overlap (⟨(f 3 0), (f 4 0)⟩ : Itv) (⟨(f 2 0), (f 2 0)⟩ : Itv) = Overlap.after)),
    (164, decide (Itv.overlap (⟨(f 3 0), (f 4 0)⟩ : Itv) (⟨(f 1 0), (f 2 0)⟩ : Itv) = Overlap.after)),
    (165, decide (Itv.overlap (⟨(f 3 0), (f 3 0)⟩ : Itv) (⟨(f 1 0), (f 2 0)⟩ : Itv) = Overlap.after)),
    (166, decide (Itv.overlap (⟨(f 3 0), (f 3 0)⟩ : Itv) (⟨(f 2 0), (f 2 0)⟩ : Itv) = Overlap.after)),
    (168, decide (Itv.overlap (⟨(f 2 0), (f 3 0)⟩ : Itv) (⟨(f 1 0), (f 2 0)⟩ : Itv) = Overlap.metBy)),
    (170, decide (Itv.overlap (⟨(f (3) (-1)), (f (5) (-1))⟩ : Itv) (⟨(f 1 0), (f 2 0)⟩ : Itv) = Overlap.overlappedBy)),
    (172, decide (Itv.overlap (⟨(f 1 0), (f 3 0)⟩ : Itv) (⟨(f 1 0), (f 2 0)⟩ : Itv) = Overlap.startedBy)),
    (173, decide (Itv.overlap (⟨(f 1 0), (f 3 0)⟩ : Itv) (⟨(f 1 0), (f 1 0)⟩ : Itv) = Overlap.startedBy)),
    (175, decide (Itv.overlap (⟨(f 0 0), (f 3 0)⟩ : Itv) (⟨(f 1 0), (f 2 0)⟩ : Itv) = Overlap.contains)),
    (176, decide (Itv.overlap (⟨(f 0 0), (f 3 0)⟩ : Itv) (⟨(f 2 0), (f 2 0)⟩ : Itv) = Overlap.contains)),
    (178, decide (Itv.overlap (⟨(f 0 0), (f 2 0)⟩ : Itv) (⟨(f 1 0), (f 2 0)⟩ : Itv) = Overlap.finishedBy)),
    (179, decide (Itv.overlap (⟨(f 0 0), (f 2 0)⟩ : Itv) (⟨(f 2 0), (f 2 0)⟩ : Itv) = Overlap.finishedBy)),
    (184, decide (Itv.overlap (⟨(f 1 0), (f (-5404319552844595) (-51))⟩ : Itv) (⟨(f 1 0), (f 2 0)⟩ : Itv) = Overlap.undefined)),
    (198, decide (DItv.overlap (DItv.nai : DItv) (DItv.nai : DItv) = Overlap.undefined)),
    (199, decide (DItv.overlap (DItv.nai : DItv) (⟨⟨(f 1 0), (f 2 0)⟩, .defd⟩ : DItv) = Overlap.undefined)),
    (200, decide (DItv.overlap (⟨⟨(f 1 0), (f 2 0)⟩, .dac⟩ : DItv) (DItv.nai : DItv) = Overlap.undefined)),
    (202, decide (DItv.overlap (DItv.empty : DItv) (DItv.empty : DItv) = Overlap.bothEmpty)),
    (203, decide (DItv.overlap (DItv.empty : DItv) (⟨⟨(f 1 0), (f 2 0)⟩, .com⟩ : DItv) = Overlap.firstEmpty)),
    (204, decide (DItv.overlap (⟨⟨(f 1 0), (f 2 0)⟩, .defd⟩ : DItv) (DItv.empty : DItv) = Overlap.secondEmpty)),
    (206, decide (DItv.overlap (⟨⟨(f 2 0), (f 2 0)⟩, .defd⟩ : DItv) (⟨⟨(f 3 0), (f 4 0)⟩, .defd⟩ : DItv) = Overlap.before)),
    (207, decide (DItv.overlap (⟨⟨(f 1 0), (f 2 0)⟩, .dac⟩ : DItv) (⟨⟨(f 3 0), (f 4 0)⟩, .com⟩ : DItv) = Overlap.before)),
    (208, decide (DItv.overlap (⟨⟨(f 1 0), (f 2 0)⟩, .com⟩ : DItv) (⟨⟨(f 3 0), (f 3 0)⟩, .trv⟩ : DItv) = Overlap.before)),
    (209, decide (DItv.overlap (⟨⟨(f 2 0), (f 2 0)⟩, .trv⟩ : DItv) (⟨⟨(f 3 0), (f 3 0)⟩, .defd⟩ : DItv) = Overlap.before)),
    (211, decide (DItv.overlap (⟨⟨(f 1 0), (f 2 0)⟩, .defd⟩ : DItv) (⟨⟨(f 2 0), (f 3 0)⟩, .defd⟩ : DItv) = Overlap.meets)),
    (213, decide (DItv.overlap (⟨⟨(f 1 0), (f 2 0)⟩, .dac⟩ : DItv) (⟨⟨(f (3) (-1)), (f (5) (-1))⟩, .defd⟩ : DItv) = Overlap.overlaps)),
    (215, decide (DItv.overlap (⟨⟨(f 1 0), (f 2 0)⟩, .defd⟩ : DItv) (⟨⟨(f 1 0), (f 3 0)⟩, .com⟩ : DItv) = Overlap.starts)),
    (216, decide (DItv.overlap (⟨⟨(f 1 0), (f 1 0)⟩, .trv⟩ : DItv) (⟨⟨(f 1 0), (f 3 0)⟩, .defd⟩ : DItv) = Overlap.starts)),
    (218, decide (DItv.overlap (⟨⟨(f 1 0), (f 2 0)⟩, .defd⟩ : DItv) (⟨⟨(f 0 0), (f 3 0)⟩, .dac⟩ : DItv) = Overlap.containedBy)),
    (219, decide (DItv.overlap (⟨⟨(f 2 0), (f 2 0)⟩, .trv⟩ : DItv) (⟨⟨(f 0 0), (f 3 0)⟩, .defd⟩ : DItv) = Overlap.containedBy)),
    (221, decide (DItv.overlap (⟨⟨(f 1 0), (f 2 0)⟩, .trv⟩ : DItv) (⟨⟨(f 0 0), (f 2 0)⟩, .com⟩ : DItv) = Overlap.finishes)),
    (222, decide (DItv.overlap (⟨⟨(f 2 0), (f 2 0)⟩, .defd⟩ : DItv) (⟨⟨(f 0 0), (f 2 0)⟩, .dac⟩ : DItv) = Overlap.finishes)),
    (224, decide (DItv.overlap (⟨⟨(f 1 0), (f 2 0)⟩, .defd⟩ : DItv) (⟨⟨(f 1 0), (f 2 0)⟩, .defd⟩ : DItv) = Overlap.equal)),
    (225, decide (DItv.overlap (⟨⟨(f 1 0), (f 1 0)⟩, .dac⟩ : DItv) (⟨⟨(f 1 0), (f 1 0)⟩, .dac⟩ : DItv) = Overlap.equal)),
    (227, decide (DItv.overlap (⟨⟨(f 3 0), (f 4 0)⟩, .trv⟩ : DItv) (⟨⟨(f 2 0), (f 2 0)⟩, .trv⟩ : DItv) = Overlap.after))] : List (ℕ × Bool)).all (·.2) = true := by
  decide +kernel

example : ([
    (228, decide (DItv.overlap (⟨⟨(f 3 0), (f 4 0)⟩, .defd⟩ : DItv) (⟨⟨(f 1 0), (f 2 0)⟩, .defd⟩ : DItv) = Overlap.after)),
    (229, decide (DItv.overlap (⟨⟨(f 3 0), (f 3 0)⟩, .com⟩ : DItv) (⟨⟨(f 1 0), (f 2 0)⟩, .dac⟩ : DItv) = Overlap.after)),
    (230, decide (DItv.overlap (⟨⟨(f 3 0), (f 3 0)⟩, .defd⟩ : DItv) (⟨⟨(f 2 0), (f 2 0)⟩, .trv⟩ : DItv) = Overlap.after)),
    (232, decide (DItv.overlap (⟨⟨(f 2 0), (f 3 0)⟩, .defd⟩ : DItv) (⟨⟨(f 1 0), (f 2 0)⟩, .trv⟩ : DItv) = Overlap.metBy)),
    (234, decide (DItv.overlap (⟨⟨(f (3) (-1)), (f (5) (-1))⟩, .com⟩ : DItv) (⟨⟨(f 1 0), (f 2 0)⟩, .com⟩ : DItv) = Overlap.overlappedBy)),
    (236, decide (DItv.overlap (⟨⟨(f 1 0), (f 3 0)⟩, .dac⟩ : DItv) (⟨⟨(f 1 0), (f 2 0)⟩, .defd⟩ : DItv) = Overlap.startedBy)),
    (237, decide (DItv.overlap (⟨⟨(f 1 0), (f 3 0)⟩, .com⟩ : DItv) (⟨⟨(f 1 0), (f 1 0)⟩, .dac⟩ : DItv) = Overlap.startedBy)),
    (239, decide (DItv.overlap (⟨⟨(f 0 0), (f 3 0)⟩, .com⟩ : DItv) (⟨⟨(f 1 0), (f 2 0)⟩, .dac⟩ : DItv) = Overlap.contains)),
    (240, decide (DItv.overlap (⟨⟨(f 0 0), (f 3 0)⟩, .com⟩ : DItv) (⟨⟨(f 2 0), (f 2 0)⟩, .defd⟩ : DItv) = Overlap.contains)),
    (242, decide (DItv.overlap (⟨⟨(f 0 0), (f 2 0)⟩, .defd⟩ : DItv) (⟨⟨(f 1 0), (f 2 0)⟩, .trv⟩ : DItv) = Overlap.finishedBy)),
    (243, decide (DItv.overlap (⟨⟨(f 0 0), (f 2 0)⟩, .dac⟩ : DItv) (⟨⟨(f 2 0), (f 2 0)⟩, .defd⟩ : DItv) = Overlap.finishedBy)),
    (248, decide (DItv.overlap (⟨⟨(f 1 0), (f (-5404319552844595) (-51))⟩, .trv⟩ : DItv) (⟨⟨(f 1 0), (f 2 0)⟩, .defd⟩ : DItv) = Overlap.undefined)),
    (262, decide (DItv.overlap (DItv.nai : DItv) (DItv.nai : DItv) = Overlap.undefined)),
    (263, decide (DItv.overlap (DItv.nai : DItv) (⟨⟨(f 1 0), (f 2 0)⟩, .trv⟩ : DItv) = Overlap.undefined)),
    (264, decide (DItv.overlap (⟨⟨(f 1 0), (f 2 0)⟩, .defd⟩ : DItv) (DItv.nai : DItv) = Overlap.undefined)),
    (266, decide (DItv.overlap (DItv.empty : DItv) (DItv.empty : DItv) = Overlap.bothEmpty)),
    (267, decide (DItv.overlap (DItv.empty : DItv) (⟨⟨(f 1 0), (f 2 0)⟩, .defd⟩ : DItv) = Overlap.firstEmpty)),
    (268, decide (DItv.overlap (⟨⟨(f 1 0), (f 2 0)⟩, .defd⟩ : DItv) (DItv.empty : DItv) = Overlap.secondEmpty)),
    (270, decide (DItv.overlap (⟨⟨(f 2 0), (f 2 0)⟩, .defd⟩ : DItv) (⟨⟨(f 3 0), (f 4 0)⟩, .trv⟩ : DItv) = Overlap.before)),
    (271, decide (DItv.overlap (⟨⟨(f 1 0), (f 2 0)⟩, .dac⟩ : DItv) (⟨⟨(f 3 0), (f 4 0)⟩, .defd⟩ : DItv) = Overlap.before)),
    (272, decide (DItv.overlap (⟨⟨(f 1 0), (f 2 0)⟩, .dac⟩ : DItv) (⟨⟨(f 3 0), (f 3 0)⟩, .dac⟩ : DItv) = Overlap.before)),
    (273, decide (DItv.overlap (⟨⟨(f 2 0), (f 2 0)⟩, .defd⟩ : DItv) (⟨⟨(f 3 0), (f 3 0)⟩, .com⟩ : DItv) = Overlap.before)),
    (275, decide (DItv.overlap (⟨⟨(f 1 0), (f 2 0)⟩, .trv⟩ : DItv) (⟨⟨(f 2 0), (f 3 0)⟩, .dac⟩ : DItv) = Overlap.meets)),
    (277, decide (DItv.overlap (⟨⟨(f 1 0), (f 2 0)⟩, .trv⟩ : DItv) (⟨⟨(f (3) (-1)), (f (5) (-1))⟩, .dac⟩ : DItv) = Overlap.overlaps)),
    (279, decide (DItv.overlap (⟨⟨(f 1 0), (f 2 0)⟩, .defd⟩ : DItv) (⟨⟨(f 1 0), (f 3 0)⟩, .trv⟩ : DItv) = Overlap.starts)),
    (280, decide (DItv.overlap (⟨⟨(f 1 0), (f 1 0)⟩, .dac⟩ : DItv) (⟨⟨(f 1 0), (f 3 0)⟩, .com⟩ : DItv) = Overlap.starts)),
    (282, decide (DItv.overlap (⟨⟨(f 1 0), (f 2 0)⟩, .com⟩ : DItv) (⟨⟨(f 0 0), (f 3 0)⟩, .defd⟩ : DItv) = Overlap.containedBy)),
    (283, decide (DItv.overlap (⟨⟨(f 2 0), (f 2 0)⟩, .com⟩ : DItv) (⟨⟨(f 0 0), (f 3 0)⟩, .dac⟩ : DItv) = Overlap.containedBy)),
    (285, decide (DItv.overlap (⟨⟨(f 1 0), (f 2 0)⟩, .dac⟩ : DItv) (⟨⟨(f 0 0), (f 2 0)⟩, .dac⟩ : DItv) = Overlap.finishes)),
    (286, decide (DItv.overlap (⟨⟨(f 2 0), (f 2 0)⟩, .defd⟩ : DItv) (⟨⟨(f 0 0), (f 2 0)⟩, .dac⟩ : DItv) = Overlap.finishes)),
    (288, decide (DItv.overlap (⟨⟨(f 1 0), (f 2 0)⟩, .trv⟩ : DItv) (⟨⟨(f 1 0), (f 2 0)⟩, .defd⟩ : DItv) = Overlap.equal)),
    (289, decide (DItv.overlap (⟨⟨(f 1 0), (f 1 0)⟩, .defd⟩ : DItv) (⟨⟨(f 1 0), (f 1 0)⟩, .trv⟩ : DItv) = Overlap.equal)),
    (291, decide (DItv.overlap (⟨⟨(f 3 0), (f 4 0)⟩, .dac⟩ : DItv) (⟨⟨(f 2 0), (f 2 0)⟩, .defd⟩ : DItv) = Overlap.after)),
    (292, decide (DItv.overlap (⟨⟨(f 3 0), (f 4 0)⟩, .defd⟩ : DItv) (⟨⟨(f 1 0), (f 2 0)⟩, .com⟩ : DItv) = Overlap.after)),
    (293, decide (DItv.overlap (⟨⟨(f 3 0), (f 3 0)⟩, .dac⟩ : DItv) (⟨⟨(f 1 0), (f 2 0)⟩, .com⟩ : DItv) = Overlap.after)),
    (294, decide (DItv.overlap (⟨⟨(f 3 0), (f 3 0)⟩, .defd⟩ : DItv) (⟨⟨(f 2 0), (f 2 0)⟩, .defd⟩ : DItv) = Overlap.after)),
    (296, decide (DItv.overlap (⟨⟨(f 2 0), (f 3 0)⟩, .com⟩ : DItv) (⟨⟨(f 1 0), (f 2 0)⟩, .dac⟩ : DItv) = Overlap.metBy)),
    (298, decide (DItv.overlap (⟨⟨(f (3) (-1)), (f (5) (-1))⟩, .defd⟩ : DItv) (⟨⟨(f 1 0), (f 2 0)⟩, .defd⟩ : DItv) = Overlap.overlappedBy)),
    (300, decide (DItv.overlap (⟨⟨(f 1 0), (f 3 0)⟩, .com⟩ : DItv) (⟨⟨(f 1 0), (f 2 0)⟩, .defd⟩ : DItv) = Overlap.startedBy)),
    (301, decide (DItv.overlap (⟨⟨(f 1 0), (f 3 0)⟩, .com⟩ : DItv) (⟨⟨(f 1 0), (f 1 0)⟩, .dac⟩ : DItv) = Overlap.startedBy)),
    (303, decide (DItv.overlap (⟨⟨(f 0 0), (f 3 0)⟩, .defd⟩ : DItv) (⟨⟨(f 1 0), (f 2 0)⟩, .com⟩ : DItv) = Overlap.contains)),
    (304, decide (DItv.overlap (⟨⟨(f 0 0), (f 3 0)⟩, .trv⟩ : DItv) (⟨⟨(f 2 0), (f 2 0)⟩, .trv⟩ : DItv) = Overlap.contains)),
    (306, decide (DItv.overlap (⟨⟨(f 0 0), (f 2 0)⟩, .dac⟩ : DItv) (⟨⟨(f 1 0), (f 2 0)⟩, .dac⟩ : DItv) = Overlap.finishedBy)),
    (307, decide (DItv.overlap (⟨⟨(f 0 0), (f 2 0)⟩, .dac⟩ : DItv) (⟨⟨(f 2 0), (f 2 0)⟩, .defd⟩ : DItv) = Overlap.finishedBy)),
    (312, decide (DItv.overlap (⟨⟨(f 1 0), (f (-5404319552844595) (-51))⟩, .dac⟩ : DItv) (⟨⟨(f 1 0), (f 2 0)⟩, .dac⟩ : DItv) = Overlap.undefined))] : List (ℕ × Bool)).all (·.2) = true := by
  decide +kernel

end P1788.Conform
