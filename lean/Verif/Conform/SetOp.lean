import Verif.Conform.Basic

/-!
# Conformance: set_op

Generated from `/repo/test/p1788/flavor/infsup/setbased/test_mpfr_bin_ieee754_flavor_set_op.cpp`: the assertions of the project's own test suite, evaluated in the
model by the kernel.  Each entry is (line in that file, value of the assertion).  These are tests of the model, not proofs of
properties.
-/

set_option maxRecDepth 100000

namespace P1788.Conform

example : ([
    (50, eqB (Itv.inter (⟨(f 1 0), (f 3 0)⟩ : Itv) (⟨(f (4728779608739021) (-51)), (f 4 0)⟩ : Itv)) (⟨(f (4728779608739021) (-51)), (f 3 0)⟩)),
    (51, eqB (Itv.inter (⟨(f 1 0), (f 3 0)⟩ : Itv) (⟨(f 3 0), (f 4 0)⟩ : Itv)) (⟨(f 3 0), (f 3 0)⟩)),
    (52, Itv.isEmpty (Itv.inter (⟨(f 1 0), (f 3 0)⟩ : Itv) (Itv.empty : Itv) : Itv)),
    (53, Itv.isEmpty (Itv.inter (Itv.entire : Itv) (Itv.empty : Itv) : Itv)),
    (54, eqB (Itv.inter (⟨(f 1 0), (f 3 0)⟩ : Itv) (Itv.entire : Itv)) (⟨(f 1 0), (f 3 0)⟩)),
    (59, Itv.isEmpty (Itv.inter (⟨(f 1 0), (f (-3) (0))⟩ : Itv) (Itv.entire : Itv) : Itv)),
    (71, eqB (Itv.interMixed .float .float .double (⟨(f (-1) (0)), (f 3 0)⟩ : Itv) (⟨(f (1) (-1074)), (f 4 0)⟩ : Itv)) (⟨(f 0 0), (f 3 0)⟩)),
    (72, eqB (Itv.interMixed .double .float .double (⟨(f 1 0), (f 3 0)⟩ : Itv) (⟨(f 3 0), (f 4 0)⟩ : Itv)) (⟨(f 3 0), (f 3 0)⟩)),
    (73, Itv.isEmpty (Itv.interMixed .double .float .double (⟨(f 1 0), (f 3 0)⟩ : Itv) (Itv.empty : Itv) : Itv)),
    (74, Itv.isEmpty (Itv.interMixed .float .double .double (Itv.entire : Itv) (Itv.empty : Itv) : Itv)),
    (75, eqB (Itv.interMixed .double .double .float (⟨(f 1 0), (f 3 0)⟩ : Itv) (Itv.entire : Itv)) (⟨(f 1 0), (f 3 0)⟩)),
    (80, Itv.isEmpty (Itv.interMixed .float .double .float (⟨(f 1 0), (f (-3) (0))⟩ : Itv) (Itv.entire : Itv) : Itv)),
    (92, eqD (DItv.inter (⟨⟨(f 1 0), (f 3 0)⟩, .com⟩ : DItv) (⟨⟨(f (4728779608739021) (-51)), (f 4 0)⟩, .com⟩ : DItv)) (⟨⟨(f (4728779608739021) (-51)), (f 3 0)⟩, .trv⟩)),
    (93, eqD (DItv.inter (⟨⟨(f 1 0), (f 3 0)⟩, .dac⟩ : DItv) (⟨⟨(f 3 0), (f 4 0)⟩, .defd⟩ : DItv)) (⟨⟨(f 3 0), (f 3 0)⟩, .trv⟩)),
    (94, DItv.pred Itv.isEmpty (DItv.inter (⟨⟨(f 1 0), (f 3 0)⟩, .defd⟩ : DItv) (DItv.empty : DItv) : DItv)),
    (95, DItv.pred Itv.isEmpty (DItv.inter (DItv.entire : DItv) (DItv.empty : DItv) : DItv)),
    (96, eqD (DItv.inter (⟨⟨(f 1 0), (f 3 0)⟩, .dac⟩ : DItv) (DItv.entire : DItv)) (⟨⟨(f 1 0), (f 3 0)⟩, .trv⟩)),
    (101, DItv.isNai (DItv.inter (⟨⟨(f 1 0), (f (-3) (0))⟩, .com⟩ : DItv) (⟨⟨(f (4728779608739021) (-51)), (f 4 0)⟩, .com⟩ : DItv) : DItv)),
    (113, eqD (DItv.interMixed .float .float .double (⟨⟨(f (-1) (0)), (f 3 0)⟩, .com⟩ : DItv) (⟨⟨(f (1) (-1074)), (f 4 0)⟩, .com⟩ : DItv)) (⟨⟨(f 0 0), (f 3 0)⟩, .trv⟩)),
    (114, eqD (DItv.interMixed .double .float .double (⟨⟨(f 1 0), (f 3 0)⟩, .dac⟩ : DItv) (⟨⟨(f 3 0), (f 4 0)⟩, .defd⟩ : DItv)) (⟨⟨(f 3 0), (f 3 0)⟩, .trv⟩)),
    (115, DItv.pred Itv.isEmpty (DItv.interMixed .double .float .double (⟨⟨(f 1 0), (f 3 0)⟩, .defd⟩ : DItv) (DItv.empty : DItv) : DItv)),
    (116, DItv.pred Itv.isEmpty (DItv.interMixed .float .double .double (DItv.entire : DItv) (DItv.empty : DItv) : DItv)),
    (117, eqD (DItv.interMixed .double .double .float (⟨⟨(f 1 0), (f 3 0)⟩, .dac⟩ : DItv) (DItv.entire : DItv)) (⟨⟨(f 1 0), (f 3 0)⟩, .trv⟩)),
    (123, DItv.isNai (DItv.interMixed .float .double .double (⟨⟨(f 1 0), (f (-3) (0))⟩, .com⟩ : DItv) (⟨⟨(f (4728779608739021) (-51)), (f 4 0)⟩, .com⟩ : DItv) : DItv)),
    (135, eqB (Itv.hull (⟨(f 1 0), (f 3 0)⟩ : Itv) (⟨(f (4728779608739021) (-51)), (f 4 0)⟩ : Itv)) (⟨(f 1 0), (f 4 0)⟩)),
    (136, eqB (Itv.hull (⟨(f 1 0), (f 1 0)⟩ : Itv) (⟨(f (4728779608739021) (-51)), (f 4 0)⟩ : Itv)) (⟨(f 1 0), (f 4 0)⟩)),
    (137, eqB (Itv.hull (⟨(f 1 0), (f 3 0)⟩ : Itv) (Itv.empty : Itv)) (⟨(f 1 0), (f 3 0)⟩)),
    (138, Itv.isEmpty (Itv.hull (Itv.empty : Itv) (Itv.empty : Itv) : Itv)),
    (139, eqB (Itv.hull (⟨(f 1 0), (f 3 0)⟩ : Itv) (Itv.entire : Itv)) (Itv.entire)),
    (144, Itv.isEmpty (Itv.hull (⟨(f 1 0), (f (-3) (0))⟩ : Itv) (Itv.entire : Itv) : Itv)),
    (156, eqB (Itv.hullMixed .float .double .double (⟨(f (1) (-1074)), (f 3 0)⟩ : Itv) (⟨(f (4278419646001971) (-50)), (f 4 0)⟩ : Itv)) (⟨(f 0 0), (f 4 0)⟩)),
    (157, eqB (Itv.hullMixed .double .float .double (⟨(f 1 0), (f 1 0)⟩ : Itv) (⟨(f (4728779608739021) (-51)), (f 4 0)⟩ : Itv)) (⟨(f 1 0), (f 4 0)⟩)),
    (158, eqB (Itv.hullMixed .double .float .double (⟨(f 1 0), (f 3 0)⟩ : Itv) (Itv.empty : Itv)) (⟨(f 1 0), (f 3 0)⟩)),
    (159, Itv.isEmpty (Itv.hullMixed .double .float .double (Itv.empty : Itv) (Itv.empty : Itv) : Itv)),
    (160, eqB (Itv.hullMixed .double .double .float (⟨(f 1 0), (f 3 0)⟩ : Itv) (Itv.entire : Itv)) (Itv.entire)),
    (165, Itv.isEmpty (Itv.hullMixed .float .double .double (⟨(f 1 0), (f (-3) (0))⟩ : Itv) (Itv.entire : Itv) : Itv)),
    (178, eqD (DItv.hull (⟨⟨(f 1 0), (f 3 0)⟩, .trv⟩ : DItv) (⟨⟨(f (4728779608739021) (-51)), (f 4 0)⟩, .trv⟩ : DItv)) (⟨⟨(f 1 0), (f 4 0)⟩, .trv⟩)),
    (179, eqD (DItv.hull (⟨⟨(f 1 0), (f 1 0)⟩, .trv⟩ : DItv) (⟨⟨(f (4728779608739021) (-51)), (f 4 0)⟩, .trv⟩ : DItv)) (⟨⟨(f 1 0), (f 4 0)⟩, .trv⟩)),
    (180, eqD (DItv.hull (⟨⟨(f 1 0), (f 3 0)⟩, .trv⟩ : DItv) (DItv.empty : DItv)) (⟨⟨(f 1 0), (f 3 0)⟩, .trv⟩)),
    (181, DItv.pred Itv.isEmpty (DItv.hull (DItv.empty : DItv) (DItv.empty : DItv) : DItv)),
    (182, eqD (DItv.hull (⟨⟨(f 1 0), (f 3 0)⟩, .trv⟩ : DItv) (DItv.entire : DItv)) (⟨⟨.ninf, .pinf⟩, .trv⟩)),
    (187, DItv.isNai (DItv.hull (⟨⟨(f 1 0), (f (-3) (0))⟩, .trv⟩ : DItv) (DItv.entire : DItv) : DItv)),
    (200, eqD (DItv.hullMixed .float .double .double (⟨⟨(f (1) (-1074)), (f 3 0)⟩, .trv⟩ : DItv) (⟨⟨(f (4278419646001971) (-50)), (f 4 0)⟩, .trv⟩ : DItv)) (⟨⟨(f 0 0), (f 4 0)⟩, .trv⟩)),
    (201, eqD (DItv.hullMixed .double .float .double (⟨⟨(f 1 0), (f 1 0)⟩, .trv⟩ : DItv) (⟨⟨(f (4728779608739021) (-51)), (f 4 0)⟩, .trv⟩ : DItv)) (⟨⟨(f 1 0), (f 4 0)⟩, .trv⟩)),
    (202, eqD (DItv.hullMixed .double .float .double (⟨⟨(f 1 0), (f 3 0)⟩, .trv⟩ : DItv) (DItv.empty : DItv)) (⟨⟨(f 1 0), (f 3 0)⟩, .trv⟩)),
    (203, DItv.pred Itv.isEmpty (DItv.hullMixed .double .float .double (DItv.empty : DItv) (DItv.empty : DItv) : DItv)),
    (204, eqD (DItv.hullMixed .double .double .float (⟨⟨(f 1 0), (f 3 0)⟩, .trv⟩ : DItv) (DItv.entire : DItv)) (⟨⟨.ninf, .pinf⟩, .trv⟩)),
    (209, DItv.isNai (DItv.hullMixed .float .double .double (⟨⟨(f 1 0), (f (-3) (0))⟩, .trv⟩ : DItv) (DItv.entire : DItv) : DItv))] : List (ℕ × Bool)).all (·.2) = true := by
  decide +kernel

end P1788.Conform
