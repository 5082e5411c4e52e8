import Verif.Conform.Basic

/-!
# Conformance: mul_rev_to_pair_func, exceptions

Generated from `/repo/test/p1788/flavor/infsup/setbased/test_mpfr_bin_ieee754_flavor_mul_rev_to_pair_func.cpp`: the assertions of the project's own test suite, evaluated in the
model by the kernel.  Each test case is the list of its calls and of its
assertions, with their lines, about the exception flags and about thrown exceptions.  These are tests of the model, not proofs of
properties.
-/

set_option maxRecDepth 100000

namespace P1788.Conform

/-- `minimal_mul_rev_to_pair_test` -/
example : failed [
    .call (do (Cmd.run (.op [(Itv.empty : Itv), (⟨(f 1 0), (f 2 0)⟩ : Itv)])); (Cmd.run (.op [((Itv.mulRevToPair binary64 (Itv.empty : Itv) (⟨(f 1 0), (f 2 0)⟩ : Itv)).1 : Itv)]))),
    .call (do (Cmd.run (.op [(Itv.empty : Itv), (⟨(f 1 0), (f 2 0)⟩ : Itv)])); (Cmd.run (.op [((Itv.mulRevToPair binary64 (Itv.empty : Itv) (⟨(f 1 0), (f 2 0)⟩ : Itv)).2 : Itv)]))),
    .call (do (Cmd.run (.op [(⟨(f 1 0), (f 2 0)⟩ : Itv), (Itv.empty : Itv)])); (Cmd.run (.op [((Itv.mulRevToPair binary64 (⟨(f 1 0), (f 2 0)⟩ : Itv) (Itv.empty : Itv)).1 : Itv)]))),
    .call (do (Cmd.run (.op [(⟨(f 1 0), (f 2 0)⟩ : Itv), (Itv.empty : Itv)])); (Cmd.run (.op [((Itv.mulRevToPair binary64 (⟨(f 1 0), (f 2 0)⟩ : Itv) (Itv.empty : Itv)).2 : Itv)]))),
    .call (do (Cmd.run (.op [(Itv.empty : Itv), (Itv.empty : Itv)])); (Cmd.run (.op [((Itv.mulRevToPair binary64 (Itv.empty : Itv) (Itv.empty : Itv)).1 : Itv)]))),
    .call (do (Cmd.run (.op [(Itv.empty : Itv), (Itv.empty : Itv)])); (Cmd.run (.op [((Itv.mulRevToPair binary64 (Itv.empty : Itv) (Itv.empty : Itv)).2 : Itv)]))),
    .call ((Cmd.run (.op [(⟨(f (-2) (0)), (f (-3602879701896397) (-55))⟩ : Itv), (⟨(f (-4728779608739021) (-51)), (f (-3602879701896397) (-53))⟩ : Itv)]))),
    .call (do (Cmd.run (.op [(⟨(f (-2) (0)), (f (-3602879701896397) (-55))⟩ : Itv), (⟨(f (-4728779608739021) (-51)), (f (-3602879701896397) (-53))⟩ : Itv)])); (Cmd.run (.op [((Itv.mulRevToPair binary64 (⟨(f (-2) (0)), (f (-3602879701896397) (-55))⟩ : Itv) (⟨(f (-4728779608739021) (-51)), (f (-3602879701896397) (-53))⟩ : Itv)).2 : Itv)]))),
    .call ((Cmd.run (.op [(⟨(f (-2) (0)), (f 0 0)⟩ : Itv), (⟨(f (-4728779608739021) (-51)), (f (-3602879701896397) (-53))⟩ : Itv)]))),
    .call (do (Cmd.run (.op [(⟨(f (-2) (0)), (f 0 0)⟩ : Itv), (⟨(f (-4728779608739021) (-51)), (f (-3602879701896397) (-53))⟩ : Itv)])); (Cmd.run (.op [((Itv.mulRevToPair binary64 (⟨(f (-2) (0)), (f 0 0)⟩ : Itv) (⟨(f (-4728779608739021) (-51)), (f (-3602879701896397) (-53))⟩ : Itv)).2 : Itv)]))),
    .call ((Cmd.run (.op [(⟨(f (-2) (0)), (f (2476979795053773) (-51))⟩ : Itv), (⟨(f (-4728779608739021) (-51)), (f (-3602879701896397) (-53))⟩ : Itv)]))),
    .call ((Cmd.run (.op [(⟨(f (-2) (0)), (f (2476979795053773) (-51))⟩ : Itv), (⟨(f (-4728779608739021) (-51)), (f (-3602879701896397) (-53))⟩ : Itv)]))),
    .call ((Cmd.run (.op [(⟨(f 0 0), (f (2476979795053773) (-51))⟩ : Itv), (⟨(f (-4728779608739021) (-51)), (f (-3602879701896397) (-53))⟩ : Itv)]))),
    .call (do (Cmd.run (.op [(⟨(f 0 0), (f (2476979795053773) (-51))⟩ : Itv), (⟨(f (-4728779608739021) (-51)), (f (-3602879701896397) (-53))⟩ : Itv)])); (Cmd.run (.op [((Itv.mulRevToPair binary64 (⟨(f 0 0), (f (2476979795053773) (-51))⟩ : Itv) (⟨(f (-4728779608739021) (-51)), (f (-3602879701896397) (-53))⟩ : Itv)).2 : Itv)]))),
    .call ((Cmd.run (.op [(⟨(f (5764607523034235) (-59)), (f (2476979795053773) (-51))⟩ : Itv), (⟨(f (-4728779608739021) (-51)), (f (-3602879701896397) (-53))⟩ : Itv)]))),
    .call (do (Cmd.run (.op [(⟨(f (5764607523034235) (-59)), (f (2476979795053773) (-51))⟩ : Itv), (⟨(f (-4728779608739021) (-51)), (f (-3602879701896397) (-53))⟩ : Itv)])); (Cmd.run (.op [((Itv.mulRevToPair binary64 (⟨(f (5764607523034235) (-59)), (f (2476979795053773) (-51))⟩ : Itv) (⟨(f (-4728779608739021) (-51)), (f (-3602879701896397) (-53))⟩ : Itv)).2 : Itv)]))),
    .call (do (Cmd.run (.op [(⟨(f 0 0), (f 0 0)⟩ : Itv), (⟨(f (-4728779608739021) (-51)), (f (-3602879701896397) (-53))⟩ : Itv)])); (Cmd.run (.op [((Itv.mulRevToPair binary64 (⟨(f 0 0), (f 0 0)⟩ : Itv) (⟨(f (-4728779608739021) (-51)), (f (-3602879701896397) (-53))⟩ : Itv)).1 : Itv)]))),
    .call (do (Cmd.run (.op [(⟨(f 0 0), (f 0 0)⟩ : Itv), (⟨(f (-4728779608739021) (-51)), (f (-3602879701896397) (-53))⟩ : Itv)])); (Cmd.run (.op [((Itv.mulRevToPair binary64 (⟨(f 0 0), (f 0 0)⟩ : Itv) (⟨(f (-4728779608739021) (-51)), (f (-3602879701896397) (-53))⟩ : Itv)).2 : Itv)]))),
    .call ((Cmd.run (.op [(⟨.ninf, (f (-3602879701896397) (-55))⟩ : Itv), (⟨(f (-4728779608739021) (-51)), (f (-3602879701896397) (-53))⟩ : Itv)]))),
    .call (do (Cmd.run (.op [(⟨.ninf, (f (-3602879701896397) (-55))⟩ : Itv), (⟨(f (-4728779608739021) (-51)), (f (-3602879701896397) (-53))⟩ : Itv)])); (Cmd.run (.op [((Itv.mulRevToPair binary64 (⟨.ninf, (f (-3602879701896397) (-55))⟩ : Itv) (⟨(f (-4728779608739021) (-51)), (f (-3602879701896397) (-53))⟩ : Itv)).2 : Itv)]))),
    .call ((Cmd.run (.op [(⟨.ninf, (f 0 0)⟩ : Itv), (⟨(f (-4728779608739021) (-51)), (f (-3602879701896397) (-53))⟩ : Itv)]))),
    .call (do (Cmd.run (.op [(⟨.ninf, (f 0 0)⟩ : Itv), (⟨(f (-4728779608739021) (-51)), (f (-3602879701896397) (-53))⟩ : Itv)])); (Cmd.run (.op [((Itv.mulRevToPair binary64 (⟨.ninf, (f 0 0)⟩ : Itv) (⟨(f (-4728779608739021) (-51)), (f (-3602879701896397) (-53))⟩ : Itv)).2 : Itv)]))),
    .call ((Cmd.run (.op [(⟨.ninf, (f (2476979795053773) (-51))⟩ : Itv), (⟨(f (-4728779608739021) (-51)), (f (-3602879701896397) (-53))⟩ : Itv)]))),
    .call ((Cmd.run (.op [(⟨.ninf, (f (2476979795053773) (-51))⟩ : Itv), (⟨(f (-4728779608739021) (-51)), (f (-3602879701896397) (-53))⟩ : Itv)]))),
    .call ((Cmd.run (.op [(⟨(f (-2) (0)), .pinf⟩ : Itv), (⟨(f (-4728779608739021) (-51)), (f (-3602879701896397) (-53))⟩ : Itv)]))),
    .call ((Cmd.run (.op [(⟨(f (-2) (0)), .pinf⟩ : Itv), (⟨(f (-4728779608739021) (-51)), (f (-3602879701896397) (-53))⟩ : Itv)]))),
    .call ((Cmd.run (.op [(⟨(f 0 0), .pinf⟩ : Itv), (⟨(f (-4728779608739021) (-51)), (f (-3602879701896397) (-53))⟩ : Itv)]))),
    .call (do (Cmd.run (.op [(⟨(f 0 0), .pinf⟩ : Itv), (⟨(f (-4728779608739021) (-51)), (f (-3602879701896397) (-53))⟩ : Itv)])); (Cmd.run (.op [((Itv.mulRevToPair binary64 (⟨(f 0 0), .pinf⟩ : Itv) (⟨(f (-4728779608739021) (-51)), (f (-3602879701896397) (-53))⟩ : Itv)).2 : Itv)]))),
    .call ((Cmd.run (.op [(⟨(f (5764607523034235) (-59)), .pinf⟩ : Itv), (⟨(f (-4728779608739021) (-51)), (f (-3602879701896397) (-53))⟩ : Itv)]))),
    .call (do (Cmd.run (.op [(⟨(f (5764607523034235) (-59)), .pinf⟩ : Itv), (⟨(f (-4728779608739021) (-51)), (f (-3602879701896397) (-53))⟩ : Itv)])); (Cmd.run (.op [((Itv.mulRevToPair binary64 (⟨(f (5764607523034235) (-59)), .pinf⟩ : Itv) (⟨(f (-4728779608739021) (-51)), (f (-3602879701896397) (-53))⟩ : Itv)).2 : Itv)]))),
    .call ((Cmd.run (.op [(⟨.ninf, .pinf⟩ : Itv), (⟨(f (-4728779608739021) (-51)), (f (-3602879701896397) (-53))⟩ : Itv)]))),
    .call ((Cmd.run (.op [(⟨.ninf, .pinf⟩ : Itv), (⟨(f (-4728779608739021) (-51)), (f (-3602879701896397) (-53))⟩ : Itv)]))),
    .call ((Cmd.run (.op [(⟨(f (-2) (0)), (f (-3602879701896397) (-55))⟩ : Itv), (⟨(f (-4728779608739021) (-51)), (f 0 0)⟩ : Itv)]))),
    .call (do (Cmd.run (.op [(⟨(f (-2) (0)), (f (-3602879701896397) (-55))⟩ : Itv), (⟨(f (-4728779608739021) (-51)), (f 0 0)⟩ : Itv)])); (Cmd.run (.op [((Itv.mulRevToPair binary64 (⟨(f (-2) (0)), (f (-3602879701896397) (-55))⟩ : Itv) (⟨(f (-4728779608739021) (-51)), (f 0 0)⟩ : Itv)).2 : Itv)]))),
    .call ((Cmd.run (.op [(⟨(f (-2) (0)), (f 0 0)⟩ : Itv), (⟨(f (-4728779608739021) (-51)), (f 0 0)⟩ : Itv)]))),
    .call (do (Cmd.run (.op [(⟨(f (-2) (0)), (f 0 0)⟩ : Itv), (⟨(f (-4728779608739021) (-51)), (f 0 0)⟩ : Itv)])); (Cmd.run (.op [((Itv.mulRevToPair binary64 (⟨(f (-2) (0)), (f 0 0)⟩ : Itv) (⟨(f (-4728779608739021) (-51)), (f 0 0)⟩ : Itv)).2 : Itv)]))),
    .call ((Cmd.run (.op [(⟨(f (-2) (0)), (f (2476979795053773) (-51))⟩ : Itv), (⟨(f (-4728779608739021) (-51)), (f 0 0)⟩ : Itv)]))),
    .call (do (Cmd.run (.op [(⟨(f (-2) (0)), (f (2476979795053773) (-51))⟩ : Itv), (⟨(f (-4728779608739021) (-51)), (f 0 0)⟩ : Itv)])); (Cmd.run (.op [((Itv.mulRevToPair binary64 (⟨(f (-2) (0)), (f (2476979795053773) (-51))⟩ : Itv) (⟨(f (-4728779608739021) (-51)), (f 0 0)⟩ : Itv)).2 : Itv)]))),
    .call ((Cmd.run (.op [(⟨(f 0 0), (f (2476979795053773) (-51))⟩ : Itv), (⟨(f (-4728779608739021) (-51)), (f 0 0)⟩ : Itv)]))),
    .call (do (Cmd.run (.op [(⟨(f 0 0), (f (2476979795053773) (-51))⟩ : Itv), (⟨(f (-4728779608739021) (-51)), (f 0 0)⟩ : Itv)])); (Cmd.run (.op [((Itv.mulRevToPair binary64 (⟨(f 0 0), (f (2476979795053773) (-51))⟩ : Itv) (⟨(f (-4728779608739021) (-51)), (f 0 0)⟩ : Itv)).2 : Itv)]))),
    .call ((Cmd.run (.op [(⟨(f (5764607523034235) (-59)), (f (2476979795053773) (-51))⟩ : Itv), (⟨(f (-4728779608739021) (-51)), (f 0 0)⟩ : Itv)]))),
    .call (do (Cmd.run (.op [(⟨(f (5764607523034235) (-59)), (f (2476979795053773) (-51))⟩ : Itv), (⟨(f (-4728779608739021) (-51)), (f 0 0)⟩ : Itv)])); (Cmd.run (.op [((Itv.mulRevToPair binary64 (⟨(f (5764607523034235) (-59)), (f (2476979795053773) (-51))⟩ : Itv) (⟨(f (-4728779608739021) (-51)), (f 0 0)⟩ : Itv)).2 : Itv)]))),
    .call ((Cmd.run (.op [(⟨(f 0 0), (f 0 0)⟩ : Itv), (⟨(f (-4728779608739021) (-51)), (f 0 0)⟩ : Itv)]))),
    .call (do (Cmd.run (.op [(⟨(f 0 0), (f 0 0)⟩ : Itv), (⟨(f (-4728779608739021) (-51)), (f 0 0)⟩ : Itv)])); (Cmd.run (.op [((Itv.mulRevToPair binary64 (⟨(f 0 0), (f 0 0)⟩ : Itv) (⟨(f (-4728779608739021) (-51)), (f 0 0)⟩ : Itv)).2 : Itv)]))),
    .call ((Cmd.run (.op [(⟨.ninf, (f (-3602879701896397) (-55))⟩ : Itv), (⟨(f (-4728779608739021) (-51)), (f 0 0)⟩ : Itv)]))),
    .call (do (Cmd.run (.op [(⟨.ninf, (f (-3602879701896397) (-55))⟩ : Itv), (⟨(f (-4728779608739021) (-51)), (f 0 0)⟩ : Itv)])); (Cmd.run (.op [((Itv.mulRevToPair binary64 (⟨.ninf, (f (-3602879701896397) (-55))⟩ : Itv) (⟨(f (-4728779608739021) (-51)), (f 0 0)⟩ : Itv)).2 : Itv)]))),
    .call ((Cmd.run (.op [(⟨.ninf, (f 0 0)⟩ : Itv), (⟨(f (-4728779608739021) (-51)), (f 0 0)⟩ : Itv)]))),
    .call (do (Cmd.run (.op [(⟨.ninf, (f 0 0)⟩ : Itv), (⟨(f (-4728779608739021) (-51)), (f 0 0)⟩ : Itv)])); (Cmd.run (.op [((Itv.mulRevToPair binary64 (⟨.ninf, (f 0 0)⟩ : Itv) (⟨(f (-4728779608739021) (-51)), (f 0 0)⟩ : Itv)).2 : Itv)]))),
    .call ((Cmd.run (.op [(⟨.ninf, (f (2476979795053773) (-51))⟩ : Itv), (⟨(f (-4728779608739021) (-51)), (f 0 0)⟩ : Itv)]))),
    .call (do (Cmd.run (.op [(⟨.ninf, (f (2476979795053773) (-51))⟩ : Itv), (⟨(f (-4728779608739021) (-51)), (f 0 0)⟩ : Itv)])); (Cmd.run (.op [((Itv.mulRevToPair binary64 (⟨.ninf, (f (2476979795053773) (-51))⟩ : Itv) (⟨(f (-4728779608739021) (-51)), (f 0 0)⟩ : Itv)).2 : Itv)]))),
    .call ((Cmd.run (.op [(⟨(f (-2) (0)), .pinf⟩ : Itv), (⟨(f (-4728779608739021) (-51)), (f 0 0)⟩ : Itv)]))),
    .call (do (Cmd.run (.op [(⟨(f (-2) (0)), .pinf⟩ : Itv), (⟨(f (-4728779608739021) (-51)), (f 0 0)⟩ : Itv)])); (Cmd.run (.op [((Itv.mulRevToPair binary64 (⟨(f (-2) (0)), .pinf⟩ : Itv) (⟨(f (-4728779608739021) (-51)), (f 0 0)⟩ : Itv)).2 : Itv)]))),
    .call ((Cmd.run (.op [(⟨(f 0 0), .pinf⟩ : Itv), (⟨(f (-4728779608739021) (-51)), (f 0 0)⟩ : Itv)]))),
    .call (do (Cmd.run (.op [(⟨(f 0 0), .pinf⟩ : Itv), (⟨(f (-4728779608739021) (-51)), (f 0 0)⟩ : Itv)])); (Cmd.run (.op [((Itv.mulRevToPair binary64 (⟨(f 0 0), .pinf⟩ : Itv) (⟨(f (-4728779608739021) (-51)), (f 0 0)⟩ : Itv)).2 : Itv)]))),
    .call ((Cmd.run (.op [(⟨(f (5764607523034235) (-59)), .pinf⟩ : Itv), (⟨(f (-4728779608739021) (-51)), (f 0 0)⟩ : Itv)]))),
    .call (do (Cmd.run (.op [(⟨(f (5764607523034235) (-59)), .pinf⟩ : Itv), (⟨(f (-4728779608739021) (-51)), (f 0 0)⟩ : Itv)])); (Cmd.run (.op [((Itv.mulRevToPair binary64 (⟨(f (5764607523034235) (-59)), .pinf⟩ : Itv) (⟨(f (-4728779608739021) (-51)), (f 0 0)⟩ : Itv)).2 : Itv)]))),
    .call ((Cmd.run (.op [(⟨.ninf, .pinf⟩ : Itv), (⟨(f (-4728779608739021) (-51)), (f 0 0)⟩ : Itv)]))),
    .call (do (Cmd.run (.op [(⟨.ninf, .pinf⟩ : Itv), (⟨(f (-4728779608739021) (-51)), (f 0 0)⟩ : Itv)])); (Cmd.run (.op [((Itv.mulRevToPair binary64 (⟨.ninf, .pinf⟩ : Itv) (⟨(f (-4728779608739021) (-51)), (f 0 0)⟩ : Itv)).2 : Itv)]))),
    .call ((Cmd.run (.op [(⟨(f (-2) (0)), (f (-3602879701896397) (-55))⟩ : Itv), (⟨(f (-4728779608739021) (-51)), (f (1080863910568919) (-53))⟩ : Itv)]))),
    .call (do (Cmd.run (.op [(⟨(f (-2) (0)), (f (-3602879701896397) (-55))⟩ : Itv), (⟨(f (-4728779608739021) (-51)), (f (1080863910568919) (-53))⟩ : Itv)])); (Cmd.run (.op [((Itv.mulRevToPair binary64 (⟨(f (-2) (0)), (f (-3602879701896397) (-55))⟩ : Itv) (⟨(f (-4728779608739021) (-51)), (f (1080863910568919) (-53))⟩ : Itv)).2 : Itv)]))),
    .call ((Cmd.run (.op [(⟨(f (-2) (0)), (f 0 0)⟩ : Itv), (⟨(f (-4728779608739021) (-51)), (f (1080863910568919) (-53))⟩ : Itv)]))),
    .call (do (Cmd.run (.op [(⟨(f (-2) (0)), (f 0 0)⟩ : Itv), (⟨(f (-4728779608739021) (-51)), (f (1080863910568919) (-53))⟩ : Itv)])); (Cmd.run (.op [((Itv.mulRevToPair binary64 (⟨(f (-2) (0)), (f 0 0)⟩ : Itv) (⟨(f (-4728779608739021) (-51)), (f (1080863910568919) (-53))⟩ : Itv)).2 : Itv)]))),
    .call ((Cmd.run (.op [(⟨(f (-2) (0)), (f (2476979795053773) (-51))⟩ : Itv), (⟨(f (-4728779608739021) (-51)), (f (1080863910568919) (-53))⟩ : Itv)]))),
    .call (do (Cmd.run (.op [(⟨(f (-2) (0)), (f (2476979795053773) (-51))⟩ : Itv), (⟨(f (-4728779608739021) (-51)), (f (1080863910568919) (-53))⟩ : Itv)])); (Cmd.run (.op [((Itv.mulRevToPair binary64 (⟨(f (-2) (0)), (f (2476979795053773) (-51))⟩ : Itv) (⟨(f (-4728779608739021) (-51)), (f (1080863910568919) (-53))⟩ : Itv)).2 : Itv)]))),
    .call ((Cmd.run (.op [(⟨(f 0 0), (f (2476979795053773) (-51))⟩ : Itv), (⟨(f (-4728779608739021) (-51)), (f (1080863910568919) (-53))⟩ : Itv)]))),
    .call (do (Cmd.run (.op [(⟨(f 0 0), (f (2476979795053773) (-51))⟩ : Itv), (⟨(f (-4728779608739021) (-51)), (f (1080863910568919) (-53))⟩ : Itv)])); (Cmd.run (.op [((Itv.mulRevToPair binary64 (⟨(f 0 0), (f (2476979795053773) (-51))⟩ : Itv) (⟨(f (-4728779608739021) (-51)), (f (1080863910568919) (-53))⟩ : Itv)).2 : Itv)]))),
    .call ((Cmd.run (.op [(⟨(f (5764607523034235) (-59)), (f (2476979795053773) (-51))⟩ : Itv), (⟨(f (-4728779608739021) (-51)), (f (1080863910568919) (-53))⟩ : Itv)]))),
    .call (do (Cmd.run (.op [(⟨(f (5764607523034235) (-59)), (f (2476979795053773) (-51))⟩ : Itv), (⟨(f (-4728779608739021) (-51)), (f (1080863910568919) (-53))⟩ : Itv)])); (Cmd.run (.op [((Itv.mulRevToPair binary64 (⟨(f (5764607523034235) (-59)), (f (2476979795053773) (-51))⟩ : Itv) (⟨(f (-4728779608739021) (-51)), (f (1080863910568919) (-53))⟩ : Itv)).2 : Itv)]))),
    .call ((Cmd.run (.op [(⟨(f 0 0), (f 0 0)⟩ : Itv), (⟨(f (-4728779608739021) (-51)), (f (1080863910568919) (-53))⟩ : Itv)]))),
    .call (do (Cmd.run (.op [(⟨(f 0 0), (f 0 0)⟩ : Itv), (⟨(f (-4728779608739021) (-51)), (f (1080863910568919) (-53))⟩ : Itv)])); (Cmd.run (.op [((Itv.mulRevToPair binary64 (⟨(f 0 0), (f 0 0)⟩ : Itv) (⟨(f (-4728779608739021) (-51)), (f (1080863910568919) (-53))⟩ : Itv)).2 : Itv)]))),
    .call ((Cmd.run (.op [(⟨.ninf, (f (-3602879701896397) (-55))⟩ : Itv), (⟨(f (-4728779608739021) (-51)), (f (1080863910568919) (-53))⟩ : Itv)]))),
    .call (do (Cmd.run (.op [(⟨.ninf, (f (-3602879701896397) (-55))⟩ : Itv), (⟨(f (-4728779608739021) (-51)), (f (1080863910568919) (-53))⟩ : Itv)])); (Cmd.run (.op [((Itv.mulRevToPair binary64 (⟨.ninf, (f (-3602879701896397) (-55))⟩ : Itv) (⟨(f (-4728779608739021) (-51)), (f (1080863910568919) (-53))⟩ : Itv)).2 : Itv)]))),
    .call ((Cmd.run (.op [(⟨.ninf, (f 0 0)⟩ : Itv), (⟨(f (-4728779608739021) (-51)), (f (1080863910568919) (-53))⟩ : Itv)]))),
    .call (do (Cmd.run (.op [(⟨.ninf, (f 0 0)⟩ : Itv), (⟨(f (-4728779608739021) (-51)), (f (1080863910568919) (-53))⟩ : Itv)])); (Cmd.run (.op [((Itv.mulRevToPair binary64 (⟨.ninf, (f 0 0)⟩ : Itv) (⟨(f (-4728779608739021) (-51)), (f (1080863910568919) (-53))⟩ : Itv)).2 : Itv)]))),
    .call ((Cmd.run (.op [(⟨.ninf, (f (2476979795053773) (-51))⟩ : Itv), (⟨(f (-4728779608739021) (-51)), (f (1080863910568919) (-53))⟩ : Itv)]))),
    .call (do (Cmd.run (.op [(⟨.ninf, (f (2476979795053773) (-51))⟩ : Itv), (⟨(f (-4728779608739021) (-51)), (f (1080863910568919) (-53))⟩ : Itv)])); (Cmd.run (.op [((Itv.mulRevToPair binary64 (⟨.ninf, (f (2476979795053773) (-51))⟩ : Itv) (⟨(f (-4728779608739021) (-51)), (f (1080863910568919) (-53))⟩ : Itv)).2 : Itv)]))),
    .call ((Cmd.run (.op [(⟨(f (-2) (0)), .pinf⟩ : Itv), (⟨(f (-4728779608739021) (-51)), (f (1080863910568919) (-53))⟩ : Itv)]))),
    .call (do (Cmd.run (.op [(⟨(f (-2) (0)), .pinf⟩ : Itv), (⟨(f (-4728779608739021) (-51)), (f (1080863910568919) (-53))⟩ : Itv)])); (Cmd.run (.op [((Itv.mulRevToPair binary64 (⟨(f (-2) (0)), .pinf⟩ : Itv) (⟨(f (-4728779608739021) (-51)), (f (1080863910568919) (-53))⟩ : Itv)).2 : Itv)]))),
    .call ((Cmd.run (.op [(⟨(f 0 0), .pinf⟩ : Itv), (⟨(f (-4728779608739021) (-51)), (f (1080863910568919) (-53))⟩ : Itv)]))),
    .call (do (Cmd.run (.op [(⟨(f 0 0), .pinf⟩ : Itv), (⟨(f (-4728779608739021) (-51)), (f (1080863910568919) (-53))⟩ : Itv)])); (Cmd.run (.op [((Itv.mulRevToPair binary64 (⟨(f 0 0), .pinf⟩ : Itv) (⟨(f (-4728779608739021) (-51)), (f (1080863910568919) (-53))⟩ : Itv)).2 : Itv)]))),
    .call ((Cmd.run (.op [(⟨(f (5764607523034235) (-59)), .pinf⟩ : Itv), (⟨(f (-4728779608739021) (-51)), (f (1080863910568919) (-53))⟩ : Itv)]))),
    .call (do (Cmd.run (.op [(⟨(f (5764607523034235) (-59)), .pinf⟩ : Itv), (⟨(f (-4728779608739021) (-51)), (f (1080863910568919) (-53))⟩ : Itv)])); (Cmd.run (.op [((Itv.mulRevToPair binary64 (⟨(f (5764607523034235) (-59)), .pinf⟩ : Itv) (⟨(f (-4728779608739021) (-51)), (f (1080863910568919) (-53))⟩ : Itv)).2 : Itv)]))),
    .call ((Cmd.run (.op [(⟨.ninf, .pinf⟩ : Itv), (⟨(f (-4728779608739021) (-51)), (f (1080863910568919) (-53))⟩ : Itv)]))),
    .call (do (Cmd.run (.op [(⟨.ninf, .pinf⟩ : Itv), (⟨(f (-4728779608739021) (-51)), (f (1080863910568919) (-53))⟩ : Itv)])); (Cmd.run (.op [((Itv.mulRevToPair binary64 (⟨.ninf, .pinf⟩ : Itv) (⟨(f (-4728779608739021) (-51)), (f (1080863910568919) (-53))⟩ : Itv)).2 : Itv)]))),
    .call ((Cmd.run (.op [(⟨(f (-2) (0)), (f (-3602879701896397) (-55))⟩ : Itv), (⟨(f 0 0), (f (1080863910568919) (-53))⟩ : Itv)]))),
    .call (do (Cmd.run (.op [(⟨(f (-2) (0)), (f (-3602879701896397) (-55))⟩ : Itv), (⟨(f 0 0), (f (1080863910568919) (-53))⟩ : Itv)])); (Cmd.run (.op [((Itv.mulRevToPair binary64 (⟨(f (-2) (0)), (f (-3602879701896397) (-55))⟩ : Itv) (⟨(f 0 0), (f (1080863910568919) (-53))⟩ : Itv)).2 : Itv)]))),
    .call ((Cmd.run (.op [(⟨(f (-2) (0)), (f 0 0)⟩ : Itv), (⟨(f 0 0), (f (1080863910568919) (-53))⟩ : Itv)]))),
    .call (do (Cmd.run (.op [(⟨(f (-2) (0)), (f 0 0)⟩ : Itv), (⟨(f 0 0), (f (1080863910568919) (-53))⟩ : Itv)])); (Cmd.run (.op [((Itv.mulRevToPair binary64 (⟨(f (-2) (0)), (f 0 0)⟩ : Itv) (⟨(f 0 0), (f (1080863910568919) (-53))⟩ : Itv)).2 : Itv)]))),
    .call ((Cmd.run (.op [(⟨(f (-2) (0)), (f (2476979795053773) (-51))⟩ : Itv), (⟨(f 0 0), (f (1080863910568919) (-53))⟩ : Itv)]))),
    .call (do (Cmd.run (.op [(⟨(f (-2) (0)), (f (2476979795053773) (-51))⟩ : Itv), (⟨(f 0 0), (f (1080863910568919) (-53))⟩ : Itv)])); (Cmd.run (.op [((Itv.mulRevToPair binary64 (⟨(f (-2) (0)), (f (2476979795053773) (-51))⟩ : Itv) (⟨(f 0 0), (f (1080863910568919) (-53))⟩ : Itv)).2 : Itv)]))),
    .call ((Cmd.run (.op [(⟨(f 0 0), (f (2476979795053773) (-51))⟩ : Itv), (⟨(f 0 0), (f (1080863910568919) (-53))⟩ : Itv)]))),
    .call (do (Cmd.run (.op [(⟨(f 0 0), (f (2476979795053773) (-51))⟩ : Itv), (⟨(f 0 0), (f (1080863910568919) (-53))⟩ : Itv)])); (Cmd.run (.op [((Itv.mulRevToPair binary64 (⟨(f 0 0), (f (2476979795053773) (-51))⟩ : Itv) (⟨(f 0 0), (f (1080863910568919) (-53))⟩ : Itv)).2 : Itv)]))),
    .call ((Cmd.run (.op [(⟨(f (5764607523034235) (-59)), (f (2476979795053773) (-51))⟩ : Itv), (⟨(f 0 0), (f (1080863910568919) (-53))⟩ : Itv)]))),
    .call (do (Cmd.run (.op [(⟨(f (5764607523034235) (-59)), (f (2476979795053773) (-51))⟩ : Itv), (⟨(f 0 0), (f (1080863910568919) (-53))⟩ : Itv)])); (Cmd.run (.op [((Itv.mulRevToPair binary64 (⟨(f (5764607523034235) (-59)), (f (2476979795053773) (-51))⟩ : Itv) (⟨(f 0 0), (f (1080863910568919) (-53))⟩ : Itv)).2 : Itv)]))),
    .call ((Cmd.run (.op [(⟨(f 0 0), (f 0 0)⟩ : Itv), (⟨(f 0 0), (f (1080863910568919) (-53))⟩ : Itv)]))),
    .call (do (Cmd.run (.op [(⟨(f 0 0), (f 0 0)⟩ : Itv), (⟨(f 0 0), (f (1080863910568919) (-53))⟩ : Itv)])); (Cmd.run (.op [((Itv.mulRevToPair binary64 (⟨(f 0 0), (f 0 0)⟩ : Itv) (⟨(f 0 0), (f (1080863910568919) (-53))⟩ : Itv)).2 : Itv)]))),
    .call ((Cmd.run (.op [(⟨.ninf, (f (-3602879701896397) (-55))⟩ : Itv), (⟨(f 0 0), (f (1080863910568919) (-53))⟩ : Itv)]))),
    .call (do (Cmd.run (.op [(⟨.ninf, (f (-3602879701896397) (-55))⟩ : Itv), (⟨(f 0 0), (f (1080863910568919) (-53))⟩ : Itv)])); (Cmd.run (.op [((Itv.mulRevToPair binary64 (⟨.ninf, (f (-3602879701896397) (-55))⟩ : Itv) (⟨(f 0 0), (f (1080863910568919) (-53))⟩ : Itv)).2 : Itv)]))),
    .call ((Cmd.run (.op [(⟨.ninf, (f 0 0)⟩ : Itv), (⟨(f 0 0), (f (1080863910568919) (-53))⟩ : Itv)]))),
    .call (do (Cmd.run (.op [(⟨.ninf, (f 0 0)⟩ : Itv), (⟨(f 0 0), (f (1080863910568919) (-53))⟩ : Itv)])); (Cmd.run (.op [((Itv.mulRevToPair binary64 (⟨.ninf, (f 0 0)⟩ : Itv) (⟨(f 0 0), (f (1080863910568919) (-53))⟩ : Itv)).2 : Itv)]))),
    .call ((Cmd.run (.op [(⟨.ninf, (f (2476979795053773) (-51))⟩ : Itv), (⟨(f 0 0), (f (1080863910568919) (-53))⟩ : Itv)]))),
    .call (do (Cmd.run (.op [(⟨.ninf, (f (2476979795053773) (-51))⟩ : Itv), (⟨(f 0 0), (f (1080863910568919) (-53))⟩ : Itv)])); (Cmd.run (.op [((Itv.mulRevToPair binary64 (⟨.ninf, (f (2476979795053773) (-51))⟩ : Itv) (⟨(f 0 0), (f (1080863910568919) (-53))⟩ : Itv)).2 : Itv)]))),
    .call ((Cmd.run (.op [(⟨(f (-2) (0)), .pinf⟩ : Itv), (⟨(f 0 0), (f (1080863910568919) (-53))⟩ : Itv)]))),
    .call (do (Cmd.run (.op [(⟨(f (-2) (0)), .pinf⟩ : Itv), (⟨(f 0 0), (f (1080863910568919) (-53))⟩ : Itv)])); (Cmd.run (.op [((Itv.mulRevToPair binary64 (⟨(f (-2) (0)), .pinf⟩ : Itv) (⟨(f 0 0), (f (1080863910568919) (-53))⟩ : Itv)).2 : Itv)]))),
    .call ((Cmd.run (.op [(⟨(f 0 0), .pinf⟩ : Itv), (⟨(f 0 0), (f (1080863910568919) (-53))⟩ : Itv)]))),
    .call (do (Cmd.run (.op [(⟨(f 0 0), .pinf⟩ : Itv), (⟨(f 0 0), (f (1080863910568919) (-53))⟩ : Itv)])); (Cmd.run (.op [((Itv.mulRevToPair binary64 (⟨(f 0 0), .pinf⟩ : Itv) (⟨(f 0 0), (f (1080863910568919) (-53))⟩ : Itv)).2 : Itv)]))),
    .call ((Cmd.run (.op [(⟨(f (5764607523034235) (-59)), .pinf⟩ : Itv), (⟨(f 0 0), (f (1080863910568919) (-53))⟩ : Itv)]))),
    .call (do (Cmd.run (.op [(⟨(f (5764607523034235) (-59)), .pinf⟩ : Itv), (⟨(f 0 0), (f (1080863910568919) (-53))⟩ : Itv)])); (Cmd.run (.op [((Itv.mulRevToPair binary64 (⟨(f (5764607523034235) (-59)), .pinf⟩ : Itv) (⟨(f 0 0), (f (1080863910568919) (-53))⟩ : Itv)).2 : Itv)]))),
    .call ((Cmd.run (.op [(⟨.ninf, .pinf⟩ : Itv), (⟨(f 0 0), (f (1080863910568919) (-53))⟩ : Itv)]))),
    .call (do (Cmd.run (.op [(⟨.ninf, .pinf⟩ : Itv), (⟨(f 0 0), (f (1080863910568919) (-53))⟩ : Itv)])); (Cmd.run (.op [((Itv.mulRevToPair binary64 (⟨.ninf, .pinf⟩ : Itv) (⟨(f 0 0), (f (1080863910568919) (-53))⟩ : Itv)).2 : Itv)]))),
    .call ((Cmd.run (.op [(⟨(f (-2) (0)), (f (-3602879701896397) (-55))⟩ : Itv), (⟨(f (5764607523034235) (-59)), (f (1080863910568919) (-53))⟩ : Itv)]))),
    .call (do (Cmd.run (.op [(⟨(f (-2) (0)), (f (-3602879701896397) (-55))⟩ : Itv), (⟨(f (5764607523034235) (-59)), (f (1080863910568919) (-53))⟩ : Itv)])); (Cmd.run (.op [((Itv.mulRevToPair binary64 (⟨(f (-2) (0)), (f (-3602879701896397) (-55))⟩ : Itv) (⟨(f (5764607523034235) (-59)), (f (1080863910568919) (-53))⟩ : Itv)).2 : Itv)]))),
    .call ((Cmd.run (.op [(⟨(f (-2) (0)), (f 0 0)⟩ : Itv), (⟨(f (5764607523034235) (-59)), (f (1080863910568919) (-53))⟩ : Itv)]))),
    .call (do (Cmd.run (.op [(⟨(f (-2) (0)), (f 0 0)⟩ : Itv), (⟨(f (5764607523034235) (-59)), (f (1080863910568919) (-53))⟩ : Itv)])); (Cmd.run (.op [((Itv.mulRevToPair binary64 (⟨(f (-2) (0)), (f 0 0)⟩ : Itv) (⟨(f (5764607523034235) (-59)), (f (1080863910568919) (-53))⟩ : Itv)).2 : Itv)]))),
    .call ((Cmd.run (.op [(⟨(f (-2) (0)), (f (2476979795053773) (-51))⟩ : Itv), (⟨(f (5764607523034235) (-59)), (f (1080863910568919) (-53))⟩ : Itv)]))),
    .call ((Cmd.run (.op [(⟨(f (-2) (0)), (f (2476979795053773) (-51))⟩ : Itv), (⟨(f (5764607523034235) (-59)), (f (1080863910568919) (-53))⟩ : Itv)]))),
    .call ((Cmd.run (.op [(⟨(f 0 0), (f (2476979795053773) (-51))⟩ : Itv), (⟨(f (5764607523034235) (-59)), (f (1080863910568919) (-53))⟩ : Itv)]))),
    .call (do (Cmd.run (.op [(⟨(f 0 0), (f (2476979795053773) (-51))⟩ : Itv), (⟨(f (5764607523034235) (-59)), (f (1080863910568919) (-53))⟩ : Itv)])); (Cmd.run (.op [((Itv.mulRevToPair binary64 (⟨(f 0 0), (f (2476979795053773) (-51))⟩ : Itv) (⟨(f (5764607523034235) (-59)), (f (1080863910568919) (-53))⟩ : Itv)).2 : Itv)]))),
    .call ((Cmd.run (.op [(⟨(f (5764607523034235) (-59)), (f (2476979795053773) (-51))⟩ : Itv), (⟨(f (5764607523034235) (-59)), (f (1080863910568919) (-53))⟩ : Itv)]))),
    .call (do (Cmd.run (.op [(⟨(f (5764607523034235) (-59)), (f (2476979795053773) (-51))⟩ : Itv), (⟨(f (5764607523034235) (-59)), (f (1080863910568919) (-53))⟩ : Itv)])); (Cmd.run (.op [((Itv.mulRevToPair binary64 (⟨(f (5764607523034235) (-59)), (f (2476979795053773) (-51))⟩ : Itv) (⟨(f (5764607523034235) (-59)), (f (1080863910568919) (-53))⟩ : Itv)).2 : Itv)]))),
    .call (do (Cmd.run (.op [(⟨(f 0 0), (f 0 0)⟩ : Itv), (⟨(f (5764607523034235) (-59)), (f (1080863910568919) (-53))⟩ : Itv)])); (Cmd.run (.op [((Itv.mulRevToPair binary64 (⟨(f 0 0), (f 0 0)⟩ : Itv) (⟨(f (5764607523034235) (-59)), (f (1080863910568919) (-53))⟩ : Itv)).1 : Itv)]))),
    .call (do (Cmd.run (.op [(⟨(f 0 0), (f 0 0)⟩ : Itv), (⟨(f (5764607523034235) (-59)), (f (1080863910568919) (-53))⟩ : Itv)])); (Cmd.run (.op [((Itv.mulRevToPair binary64 (⟨(f 0 0), (f 0 0)⟩ : Itv) (⟨(f (5764607523034235) (-59)), (f (1080863910568919) (-53))⟩ : Itv)).2 : Itv)]))),
    .call ((Cmd.run (.op [(⟨.ninf, (f (-3602879701896397) (-55))⟩ : Itv), (⟨(f (5764607523034235) (-59)), (f (1080863910568919) (-53))⟩ : Itv)]))),
    .call (do (Cmd.run (.op [(⟨.ninf, (f (-3602879701896397) (-55))⟩ : Itv), (⟨(f (5764607523034235) (-59)), (f (1080863910568919) (-53))⟩ : Itv)])); (Cmd.run (.op [((Itv.mulRevToPair binary64 (⟨.ninf, (f (-3602879701896397) (-55))⟩ : Itv) (⟨(f (5764607523034235) (-59)), (f (1080863910568919) (-53))⟩ : Itv)).2 : Itv)]))),
    .call ((Cmd.run (.op [(⟨.ninf, (f 0 0)⟩ : Itv), (⟨(f (5764607523034235) (-59)), (f (1080863910568919) (-53))⟩ : Itv)]))),
    .call (do (Cmd.run (.op [(⟨.ninf, (f 0 0)⟩ : Itv), (⟨(f (5764607523034235) (-59)), (f (1080863910568919) (-53))⟩ : Itv)])); (Cmd.run (.op [((Itv.mulRevToPair binary64 (⟨.ninf, (f 0 0)⟩ : Itv) (⟨(f (5764607523034235) (-59)), (f (1080863910568919) (-53))⟩ : Itv)).2 : Itv)]))),
    .call ((Cmd.run (.op [(⟨.ninf, (f (2476979795053773) (-51))⟩ : Itv), (⟨(f (5764607523034235) (-59)), (f (1080863910568919) (-53))⟩ : Itv)]))),
    .call ((Cmd.run (.op [(⟨.ninf, (f (2476979795053773) (-51))⟩ : Itv), (⟨(f (5764607523034235) (-59)), (f (1080863910568919) (-53))⟩ : Itv)]))),
    .call ((Cmd.run (.op [(⟨(f (-2) (0)), .pinf⟩ : Itv), (⟨(f (5764607523034235) (-59)), (f (1080863910568919) (-53))⟩ : Itv)]))),
    .call ((Cmd.run (.op [(⟨(f (-2) (0)), .pinf⟩ : Itv), (⟨(f (5764607523034235) (-59)), (f (1080863910568919) (-53))⟩ : Itv)]))),
    .call ((Cmd.run (.op [(⟨(f 0 0), .pinf⟩ : Itv), (⟨(f (5764607523034235) (-59)), (f (1080863910568919) (-53))⟩ : Itv)]))),
    .call (do (Cmd.run (.op [(⟨(f 0 0), .pinf⟩ : Itv), (⟨(f (5764607523034235) (-59)), (f (1080863910568919) (-53))⟩ : Itv)])); (Cmd.run (.op [((Itv.mulRevToPair binary64 (⟨(f 0 0), .pinf⟩ : Itv) (⟨(f (5764607523034235) (-59)), (f (1080863910568919) (-53))⟩ : Itv)).2 : Itv)]))),
    .call ((Cmd.run (.op [(⟨(f (5764607523034235) (-59)), .pinf⟩ : Itv), (⟨(f (5764607523034235) (-59)), (f (1080863910568919) (-53))⟩ : Itv)]))),
    .call (do (Cmd.run (.op [(⟨(f (5764607523034235) (-59)), .pinf⟩ : Itv), (⟨(f (5764607523034235) (-59)), (f (1080863910568919) (-53))⟩ : Itv)])); (Cmd.run (.op [((Itv.mulRevToPair binary64 (⟨(f (5764607523034235) (-59)), .pinf⟩ : Itv) (⟨(f (5764607523034235) (-59)), (f (1080863910568919) (-53))⟩ : Itv)).2 : Itv)]))),
    .call ((Cmd.run (.op [(⟨.ninf, .pinf⟩ : Itv), (⟨(f (5764607523034235) (-59)), (f (1080863910568919) (-53))⟩ : Itv)]))),
    .call ((Cmd.run (.op [(⟨.ninf, .pinf⟩ : Itv), (⟨(f (5764607523034235) (-59)), (f (1080863910568919) (-53))⟩ : Itv)]))),
    .call ((Cmd.run (.op [(⟨(f (-2) (0)), (f (-3602879701896397) (-55))⟩ : Itv), (⟨(f 0 0), (f 0 0)⟩ : Itv)]))),
    .call (do (Cmd.run (.op [(⟨(f (-2) (0)), (f (-3602879701896397) (-55))⟩ : Itv), (⟨(f 0 0), (f 0 0)⟩ : Itv)])); (Cmd.run (.op [((Itv.mulRevToPair binary64 (⟨(f (-2) (0)), (f (-3602879701896397) (-55))⟩ : Itv) (⟨(f 0 0), (f 0 0)⟩ : Itv)).2 : Itv)]))),
    .call ((Cmd.run (.op [(⟨(f (-2) (0)), (f 0 0)⟩ : Itv), (⟨(f 0 0), (f 0 0)⟩ : Itv)]))),
    .call (do (Cmd.run (.op [(⟨(f (-2) (0)), (f 0 0)⟩ : Itv), (⟨(f 0 0), (f 0 0)⟩ : Itv)])); (Cmd.run (.op [((Itv.mulRevToPair binary64 (⟨(f (-2) (0)), (f 0 0)⟩ : Itv) (⟨(f 0 0), (f 0 0)⟩ : Itv)).2 : Itv)]))),
    .call ((Cmd.run (.op [(⟨(f (-2) (0)), (f (2476979795053773) (-51))⟩ : Itv), (⟨(f 0 0), (f 0 0)⟩ : Itv)]))),
    .call (do (Cmd.run (.op [(⟨(f (-2) (0)), (f (2476979795053773) (-51))⟩ : Itv), (⟨(f 0 0), (f 0 0)⟩ : Itv)])); (Cmd.run (.op [((Itv.mulRevToPair binary64 (⟨(f (-2) (0)), (f (2476979795053773) (-51))⟩ : Itv) (⟨(f 0 0), (f 0 0)⟩ : Itv)).2 : Itv)]))),
    .call ((Cmd.run (.op [(⟨(f 0 0), (f (2476979795053773) (-51))⟩ : Itv), (⟨(f 0 0), (f 0 0)⟩ : Itv)]))),
    .call (do (Cmd.run (.op [(⟨(f 0 0), (f (2476979795053773) (-51))⟩ : Itv), (⟨(f 0 0), (f 0 0)⟩ : Itv)])); (Cmd.run (.op [((Itv.mulRevToPair binary64 (⟨(f 0 0), (f (2476979795053773) (-51))⟩ : Itv) (⟨(f 0 0), (f 0 0)⟩ : Itv)).2 : Itv)]))),
    .call ((Cmd.run (.op [(⟨(f (5764607523034235) (-59)), (f (2476979795053773) (-51))⟩ : Itv), (⟨(f 0 0), (f 0 0)⟩ : Itv)]))),
    .call (do (Cmd.run (.op [(⟨(f (5764607523034235) (-59)), (f (2476979795053773) (-51))⟩ : Itv), (⟨(f 0 0), (f 0 0)⟩ : Itv)])); (Cmd.run (.op [((Itv.mulRevToPair binary64 (⟨(f (5764607523034235) (-59)), (f (2476979795053773) (-51))⟩ : Itv) (⟨(f 0 0), (f 0 0)⟩ : Itv)).2 : Itv)]))),
    .call ((Cmd.run (.op [(⟨(f 0 0), (f 0 0)⟩ : Itv), (⟨(f 0 0), (f 0 0)⟩ : Itv)]))),
    .call (do (Cmd.run (.op [(⟨(f 0 0), (f 0 0)⟩ : Itv), (⟨(f 0 0), (f 0 0)⟩ : Itv)])); (Cmd.run (.op [((Itv.mulRevToPair binary64 (⟨(f 0 0), (f 0 0)⟩ : Itv) (⟨(f 0 0), (f 0 0)⟩ : Itv)).2 : Itv)]))),
    .call ((Cmd.run (.op [(⟨.ninf, (f (-3602879701896397) (-55))⟩ : Itv), (⟨(f 0 0), (f 0 0)⟩ : Itv)]))),
    .call (do (Cmd.run (.op [(⟨.ninf, (f (-3602879701896397) (-55))⟩ : Itv), (⟨(f 0 0), (f 0 0)⟩ : Itv)])); (Cmd.run (.op [((Itv.mulRevToPair binary64 (⟨.ninf, (f (-3602879701896397) (-55))⟩ : Itv) (⟨(f 0 0), (f 0 0)⟩ : Itv)).2 : Itv)]))),
    .call ((Cmd.run (.op [(⟨.ninf, (f 0 0)⟩ : Itv), (⟨(f 0 0), (f 0 0)⟩ : Itv)]))),
    .call (do (Cmd.run (.op [(⟨.ninf, (f 0 0)⟩ : Itv), (⟨(f 0 0), (f 0 0)⟩ : Itv)])); (Cmd.run (.op [((Itv.mulRevToPair binary64 (⟨.ninf, (f 0 0)⟩ : Itv) (⟨(f 0 0), (f 0 0)⟩ : Itv)).2 : Itv)]))),
    .call ((Cmd.run (.op [(⟨.ninf, (f (2476979795053773) (-51))⟩ : Itv), (⟨(f 0 0), (f 0 0)⟩ : Itv)]))),
    .call (do (Cmd.run (.op [(⟨.ninf, (f (2476979795053773) (-51))⟩ : Itv), (⟨(f 0 0), (f 0 0)⟩ : Itv)])); (Cmd.run (.op [((Itv.mulRevToPair binary64 (⟨.ninf, (f (2476979795053773) (-51))⟩ : Itv) (⟨(f 0 0), (f 0 0)⟩ : Itv)).2 : Itv)]))),
    .call ((Cmd.run (.op [(⟨(f (-2) (0)), .pinf⟩ : Itv), (⟨(f 0 0), (f 0 0)⟩ : Itv)]))),
    .call (do (Cmd.run (.op [(⟨(f (-2) (0)), .pinf⟩ : Itv), (⟨(f 0 0), (f 0 0)⟩ : Itv)])); (Cmd.run (.op [((Itv.mulRevToPair binary64 (⟨(f (-2) (0)), .pinf⟩ : Itv) (⟨(f 0 0), (f 0 0)⟩ : Itv)).2 : Itv)]))),
    .call ((Cmd.run (.op [(⟨(f 0 0), .pinf⟩ : Itv), (⟨(f 0 0), (f 0 0)⟩ : Itv)]))),
    .call (do (Cmd.run (.op [(⟨(f 0 0), .pinf⟩ : Itv), (⟨(f 0 0), (f 0 0)⟩ : Itv)])); (Cmd.run (.op [((Itv.mulRevToPair binary64 (⟨(f 0 0), .pinf⟩ : Itv) (⟨(f 0 0), (f 0 0)⟩ : Itv)).2 : Itv)]))),
    .call ((Cmd.run (.op [(⟨(f (5764607523034235) (-59)), .pinf⟩ : Itv), (⟨(f 0 0), (f 0 0)⟩ : Itv)]))),
    .call (do (Cmd.run (.op [(⟨(f (5764607523034235) (-59)), .pinf⟩ : Itv), (⟨(f 0 0), (f 0 0)⟩ : Itv)])); (Cmd.run (.op [((Itv.mulRevToPair binary64 (⟨(f (5764607523034235) (-59)), .pinf⟩ : Itv) (⟨(f 0 0), (f 0 0)⟩ : Itv)).2 : Itv)]))),
    .call ((Cmd.run (.op [(⟨.ninf, .pinf⟩ : Itv), (⟨(f 0 0), (f 0 0)⟩ : Itv)]))),
    .call (do (Cmd.run (.op [(⟨.ninf, .pinf⟩ : Itv), (⟨(f 0 0), (f 0 0)⟩ : Itv)])); (Cmd.run (.op [((Itv.mulRevToPair binary64 (⟨.ninf, .pinf⟩ : Itv) (⟨(f 0 0), (f 0 0)⟩ : Itv)).2 : Itv)]))),
    .call ((Cmd.run (.op [(⟨(f (-2) (0)), (f (-3602879701896397) (-55))⟩ : Itv), (⟨.ninf, (f (-3602879701896397) (-55))⟩ : Itv)]))),
    .call (do (Cmd.run (.op [(⟨(f (-2) (0)), (f (-3602879701896397) (-55))⟩ : Itv), (⟨.ninf, (f (-3602879701896397) (-55))⟩ : Itv)])); (Cmd.run (.op [((Itv.mulRevToPair binary64 (⟨(f (-2) (0)), (f (-3602879701896397) (-55))⟩ : Itv) (⟨.ninf, (f (-3602879701896397) (-55))⟩ : Itv)).2 : Itv)]))),
    .call ((Cmd.run (.op [(⟨(f (-2) (0)), (f 0 0)⟩ : Itv), (⟨.ninf, (f (-3602879701896397) (-55))⟩ : Itv)]))),
    .call (do (Cmd.run (.op [(⟨(f (-2) (0)), (f 0 0)⟩ : Itv), (⟨.ninf, (f (-3602879701896397) (-55))⟩ : Itv)])); (Cmd.run (.op [((Itv.mulRevToPair binary64 (⟨(f (-2) (0)), (f 0 0)⟩ : Itv) (⟨.ninf, (f (-3602879701896397) (-55))⟩ : Itv)).2 : Itv)]))),
    .call ((Cmd.run (.op [(⟨(f (-2) (0)), (f (2476979795053773) (-51))⟩ : Itv), (⟨.ninf, (f (-3602879701896397) (-55))⟩ : Itv)]))),
    .call ((Cmd.run (.op [(⟨(f (-2) (0)), (f (2476979795053773) (-51))⟩ : Itv), (⟨.ninf, (f (-3602879701896397) (-55))⟩ : Itv)]))),
    .call ((Cmd.run (.op [(⟨(f 0 0), (f (2476979795053773) (-51))⟩ : Itv), (⟨.ninf, (f (-3602879701896397) (-55))⟩ : Itv)]))),
    .call (do (Cmd.run (.op [(⟨(f 0 0), (f (2476979795053773) (-51))⟩ : Itv), (⟨.ninf, (f (-3602879701896397) (-55))⟩ : Itv)])); (Cmd.run (.op [((Itv.mulRevToPair binary64 (⟨(f 0 0), (f (2476979795053773) (-51))⟩ : Itv) (⟨.ninf, (f (-3602879701896397) (-55))⟩ : Itv)).2 : Itv)]))),
    .call ((Cmd.run (.op [(⟨(f (5764607523034235) (-59)), (f (2476979795053773) (-51))⟩ : Itv), (⟨.ninf, (f (-3602879701896397) (-55))⟩ : Itv)]))),
    .call (do (Cmd.run (.op [(⟨(f (5764607523034235) (-59)), (f (2476979795053773) (-51))⟩ : Itv), (⟨.ninf, (f (-3602879701896397) (-55))⟩ : Itv)])); (Cmd.run (.op [((Itv.mulRevToPair binary64 (⟨(f (5764607523034235) (-59)), (f (2476979795053773) (-51))⟩ : Itv) (⟨.ninf, (f (-3602879701896397) (-55))⟩ : Itv)).2 : Itv)]))),
    .call (do (Cmd.run (.op [(⟨(f 0 0), (f 0 0)⟩ : Itv), (⟨.ninf, (f (-3602879701896397) (-55))⟩ : Itv)])); (Cmd.run (.op [((Itv.mulRevToPair binary64 (⟨(f 0 0), (f 0 0)⟩ : Itv) (⟨.ninf, (f (-3602879701896397) (-55))⟩ : Itv)).1 : Itv)]))),
    .call (do (Cmd.run (.op [(⟨(f 0 0), (f 0 0)⟩ : Itv), (⟨.ninf, (f (-3602879701896397) (-55))⟩ : Itv)])); (Cmd.run (.op [((Itv.mulRevToPair binary64 (⟨(f 0 0), (f 0 0)⟩ : Itv) (⟨.ninf, (f (-3602879701896397) (-55))⟩ : Itv)).2 : Itv)]))),
    .call ((Cmd.run (.op [(⟨.ninf, (f (-3602879701896397) (-55))⟩ : Itv), (⟨.ninf, (f (-3602879701896397) (-55))⟩ : Itv)]))),
    .call (do (Cmd.run (.op [(⟨.ninf, (f (-3602879701896397) (-55))⟩ : Itv), (⟨.ninf, (f (-3602879701896397) (-55))⟩ : Itv)])); (Cmd.run (.op [((Itv.mulRevToPair binary64 (⟨.ninf, (f (-3602879701896397) (-55))⟩ : Itv) (⟨.ninf, (f (-3602879701896397) (-55))⟩ : Itv)).2 : Itv)]))),
    .call ((Cmd.run (.op [(⟨.ninf, (f 0 0)⟩ : Itv), (⟨.ninf, (f (-3602879701896397) (-55))⟩ : Itv)]))),
    .call (do (Cmd.run (.op [(⟨.ninf, (f 0 0)⟩ : Itv), (⟨.ninf, (f (-3602879701896397) (-55))⟩ : Itv)])); (Cmd.run (.op [((Itv.mulRevToPair binary64 (⟨.ninf, (f 0 0)⟩ : Itv) (⟨.ninf, (f (-3602879701896397) (-55))⟩ : Itv)).2 : Itv)]))),
    .call ((Cmd.run (.op [(⟨.ninf, (f (2476979795053773) (-51))⟩ : Itv), (⟨.ninf, (f (-3602879701896397) (-55))⟩ : Itv)]))),
    .call ((Cmd.run (.op [(⟨.ninf, (f (2476979795053773) (-51))⟩ : Itv), (⟨.ninf, (f (-3602879701896397) (-55))⟩ : Itv)]))),
    .call ((Cmd.run (.op [(⟨(f (-2) (0)), .pinf⟩ : Itv), (⟨.ninf, (f (-3602879701896397) (-55))⟩ : Itv)]))),
    .call ((Cmd.run (.op [(⟨(f (-2) (0)), .pinf⟩ : Itv), (⟨.ninf, (f (-3602879701896397) (-55))⟩ : Itv)]))),
    .call ((Cmd.run (.op [(⟨(f 0 0), .pinf⟩ : Itv), (⟨.ninf, (f (-3602879701896397) (-55))⟩ : Itv)]))),
    .call (do (Cmd.run (.op [(⟨(f 0 0), .pinf⟩ : Itv), (⟨.ninf, (f (-3602879701896397) (-55))⟩ : Itv)])); (Cmd.run (.op [((Itv.mulRevToPair binary64 (⟨(f 0 0), .pinf⟩ : Itv) (⟨.ninf, (f (-3602879701896397) (-55))⟩ : Itv)).2 : Itv)]))),
    .call ((Cmd.run (.op [(⟨(f (5764607523034235) (-59)), .pinf⟩ : Itv), (⟨.ninf, (f (-3602879701896397) (-55))⟩ : Itv)]))),
    .call (do (Cmd.run (.op [(⟨(f (5764607523034235) (-59)), .pinf⟩ : Itv), (⟨.ninf, (f (-3602879701896397) (-55))⟩ : Itv)])); (Cmd.run (.op [((Itv.mulRevToPair binary64 (⟨(f (5764607523034235) (-59)), .pinf⟩ : Itv) (⟨.ninf, (f (-3602879701896397) (-55))⟩ : Itv)).2 : Itv)]))),
    .call ((Cmd.run (.op [(⟨.ninf, .pinf⟩ : Itv), (⟨.ninf, (f (-3602879701896397) (-55))⟩ : Itv)]))),
    .call ((Cmd.run (.op [(⟨.ninf, .pinf⟩ : Itv), (⟨.ninf, (f (-3602879701896397) (-55))⟩ : Itv)]))),
    .call ((Cmd.run (.op [(⟨(f (-2) (0)), (f (-3602879701896397) (-55))⟩ : Itv), (⟨.ninf, (f 0 0)⟩ : Itv)]))),
    .call (do (Cmd.run (.op [(⟨(f (-2) (0)), (f (-3602879701896397) (-55))⟩ : Itv), (⟨.ninf, (f 0 0)⟩ : Itv)])); (Cmd.run (.op [((Itv.mulRevToPair binary64 (⟨(f (-2) (0)), (f (-3602879701896397) (-55))⟩ : Itv) (⟨.ninf, (f 0 0)⟩ : Itv)).2 : Itv)]))),
    .call ((Cmd.run (.op [(⟨(f (-2) (0)), (f 0 0)⟩ : Itv), (⟨.ninf, (f 0 0)⟩ : Itv)]))),
    .call (do (Cmd.run (.op [(⟨(f (-2) (0)), (f 0 0)⟩ : Itv), (⟨.ninf, (f 0 0)⟩ : Itv)])); (Cmd.run (.op [((Itv.mulRevToPair binary64 (⟨(f (-2) (0)), (f 0 0)⟩ : Itv) (⟨.ninf, (f 0 0)⟩ : Itv)).2 : Itv)]))),
    .call ((Cmd.run (.op [(⟨(f (-2) (0)), (f (2476979795053773) (-51))⟩ : Itv), (⟨.ninf, (f 0 0)⟩ : Itv)]))),
    .call (do (Cmd.run (.op [(⟨(f (-2) (0)), (f (2476979795053773) (-51))⟩ : Itv), (⟨.ninf, (f 0 0)⟩ : Itv)])); (Cmd.run (.op [((Itv.mulRevToPair binary64 (⟨(f (-2) (0)), (f (2476979795053773) (-51))⟩ : Itv) (⟨.ninf, (f 0 0)⟩ : Itv)).2 : Itv)]))),
    .call ((Cmd.run (.op [(⟨(f 0 0), (f (2476979795053773) (-51))⟩ : Itv), (⟨.ninf, (f 0 0)⟩ : Itv)]))),
    .call (do (Cmd.run (.op [(⟨(f 0 0), (f (2476979795053773) (-51))⟩ : Itv), (⟨.ninf, (f 0 0)⟩ : Itv)])); (Cmd.run (.op [((Itv.mulRevToPair binary64 (⟨(f 0 0), (f (2476979795053773) (-51))⟩ : Itv) (⟨.ninf, (f 0 0)⟩ : Itv)).2 : Itv)]))),
    .call ((Cmd.run (.op [(⟨(f (5764607523034235) (-59)), (f (2476979795053773) (-51))⟩ : Itv), (⟨.ninf, (f 0 0)⟩ : Itv)]))),
    .call (do (Cmd.run (.op [(⟨(f (5764607523034235) (-59)), (f (2476979795053773) (-51))⟩ : Itv), (⟨.ninf, (f 0 0)⟩ : Itv)])); (Cmd.run (.op [((Itv.mulRevToPair binary64 (⟨(f (5764607523034235) (-59)), (f (2476979795053773) (-51))⟩ : Itv) (⟨.ninf, (f 0 0)⟩ : Itv)).2 : Itv)]))),
    .call ((Cmd.run (.op [(⟨(f 0 0), (f 0 0)⟩ : Itv), (⟨.ninf, (f 0 0)⟩ : Itv)]))),
    .call (do (Cmd.run (.op [(⟨(f 0 0), (f 0 0)⟩ : Itv), (⟨.ninf, (f 0 0)⟩ : Itv)])); (Cmd.run (.op [((Itv.mulRevToPair binary64 (⟨(f 0 0), (f 0 0)⟩ : Itv) (⟨.ninf, (f 0 0)⟩ : Itv)).2 : Itv)]))),
    .call ((Cmd.run (.op [(⟨.ninf, (f (-3602879701896397) (-55))⟩ : Itv), (⟨.ninf, (f 0 0)⟩ : Itv)]))),
    .call (do (Cmd.run (.op [(⟨.ninf, (f (-3602879701896397) (-55))⟩ : Itv), (⟨.ninf, (f 0 0)⟩ : Itv)])); (Cmd.run (.op [((Itv.mulRevToPair binary64 (⟨.ninf, (f (-3602879701896397) (-55))⟩ : Itv) (⟨.ninf, (f 0 0)⟩ : Itv)).2 : Itv)]))),
    .call ((Cmd.run (.op [(⟨.ninf, (f 0 0)⟩ : Itv), (⟨.ninf, (f 0 0)⟩ : Itv)]))),
    .call (do (Cmd.run (.op [(⟨.ninf, (f 0 0)⟩ : Itv), (⟨.ninf, (f 0 0)⟩ : Itv)])); (Cmd.run (.op [((Itv.mulRevToPair binary64 (⟨.ninf, (f 0 0)⟩ : Itv) (⟨.ninf, (f 0 0)⟩ : Itv)).2 : Itv)]))),
    .call ((Cmd.run (.op [(⟨.ninf, (f (2476979795053773) (-51))⟩ : Itv), (⟨.ninf, (f 0 0)⟩ : Itv)]))),
    .call (do (Cmd.run (.op [(⟨.ninf, (f (2476979795053773) (-51))⟩ : Itv), (⟨.ninf, (f 0 0)⟩ : Itv)])); (Cmd.run (.op [((Itv.mulRevToPair binary64 (⟨.ninf, (f (2476979795053773) (-51))⟩ : Itv) (⟨.ninf, (f 0 0)⟩ : Itv)).2 : Itv)]))),
    .call ((Cmd.run (.op [(⟨(f (-2) (0)), .pinf⟩ : Itv), (⟨.ninf, (f 0 0)⟩ : Itv)]))),
    .call (do (Cmd.run (.op [(⟨(f (-2) (0)), .pinf⟩ : Itv), (⟨.ninf, (f 0 0)⟩ : Itv)])); (Cmd.run (.op [((Itv.mulRevToPair binary64 (⟨(f (-2) (0)), .pinf⟩ : Itv) (⟨.ninf, (f 0 0)⟩ : Itv)).2 : Itv)]))),
    .call ((Cmd.run (.op [(⟨(f 0 0), .pinf⟩ : Itv), (⟨.ninf, (f 0 0)⟩ : Itv)]))),
    .call (do (Cmd.run (.op [(⟨(f 0 0), .pinf⟩ : Itv), (⟨.ninf, (f 0 0)⟩ : Itv)])); (Cmd.run (.op [((Itv.mulRevToPair binary64 (⟨(f 0 0), .pinf⟩ : Itv) (⟨.ninf, (f 0 0)⟩ : Itv)).2 : Itv)]))),
    .call ((Cmd.run (.op [(⟨(f (5764607523034235) (-59)), .pinf⟩ : Itv), (⟨.ninf, (f 0 0)⟩ : Itv)]))),
    .call (do (Cmd.run (.op [(⟨(f (5764607523034235) (-59)), .pinf⟩ : Itv), (⟨.ninf, (f 0 0)⟩ : Itv)])); (Cmd.run (.op [((Itv.mulRevToPair binary64 (⟨(f (5764607523034235) (-59)), .pinf⟩ : Itv) (⟨.ninf, (f 0 0)⟩ : Itv)).2 : Itv)]))),
    .call ((Cmd.run (.op [(⟨.ninf, .pinf⟩ : Itv), (⟨.ninf, (f 0 0)⟩ : Itv)]))),
    .call (do (Cmd.run (.op [(⟨.ninf, .pinf⟩ : Itv), (⟨.ninf, (f 0 0)⟩ : Itv)])); (Cmd.run (.op [((Itv.mulRevToPair binary64 (⟨.ninf, .pinf⟩ : Itv) (⟨.ninf, (f 0 0)⟩ : Itv)).2 : Itv)]))),
    .call ((Cmd.run (.op [(⟨(f (-2) (0)), (f (-3602879701896397) (-55))⟩ : Itv), (⟨.ninf, (f (5404319552844595) (-54))⟩ : Itv)]))),
    .call (do (Cmd.run (.op [(⟨(f (-2) (0)), (f (-3602879701896397) (-55))⟩ : Itv), (⟨.ninf, (f (5404319552844595) (-54))⟩ : Itv)])); (Cmd.run (.op [((Itv.mulRevToPair binary64 (⟨(f (-2) (0)), (f (-3602879701896397) (-55))⟩ : Itv) (⟨.ninf, (f (5404319552844595) (-54))⟩ : Itv)).2 : Itv)]))),
    .call ((Cmd.run (.op [(⟨(f (-2) (0)), (f 0 0)⟩ : Itv), (⟨.ninf, (f (5404319552844595) (-54))⟩ : Itv)]))),
    .call (do (Cmd.run (.op [(⟨(f (-2) (0)), (f 0 0)⟩ : Itv), (⟨.ninf, (f (5404319552844595) (-54))⟩ : Itv)])); (Cmd.run (.op [((Itv.mulRevToPair binary64 (⟨(f (-2) (0)), (f 0 0)⟩ : Itv) (⟨.ninf, (f (5404319552844595) (-54))⟩ : Itv)).2 : Itv)]))),
    .call ((Cmd.run (.op [(⟨(f (-2) (0)), (f (2476979795053773) (-51))⟩ : Itv), (⟨.ninf, (f (5404319552844595) (-54))⟩ : Itv)]))),
    .call (do (Cmd.run (.op [(⟨(f (-2) (0)), (f (2476979795053773) (-51))⟩ : Itv), (⟨.ninf, (f (5404319552844595) (-54))⟩ : Itv)])); (Cmd.run (.op [((Itv.mulRevToPair binary64 (⟨(f (-2) (0)), (f (2476979795053773) (-51))⟩ : Itv) (⟨.ninf, (f (5404319552844595) (-54))⟩ : Itv)).2 : Itv)]))),
    .call ((Cmd.run (.op [(⟨(f 0 0), (f (2476979795053773) (-51))⟩ : Itv), (⟨.ninf, (f (5404319552844595) (-54))⟩ : Itv)]))),
    .call (do (Cmd.run (.op [(⟨(f 0 0), (f (2476979795053773) (-51))⟩ : Itv), (⟨.ninf, (f (5404319552844595) (-54))⟩ : Itv)])); (Cmd.run (.op [((Itv.mulRevToPair binary64 (⟨(f 0 0), (f (2476979795053773) (-51))⟩ : Itv) (⟨.ninf, (f (5404319552844595) (-54))⟩ : Itv)).2 : Itv)]))),
    .call ((Cmd.run (.op [(⟨(f (5764607523034235) (-59)), (f (2476979795053773) (-51))⟩ : Itv), (⟨.ninf, (f (5404319552844595) (-54))⟩ : Itv)]))),
    .call (do (Cmd.run (.op [(⟨(f (5764607523034235) (-59)), (f (2476979795053773) (-51))⟩ : Itv), (⟨.ninf, (f (5404319552844595) (-54))⟩ : Itv)])); (Cmd.run (.op [((Itv.mulRevToPair binary64 (⟨(f (5764607523034235) (-59)), (f (2476979795053773) (-51))⟩ : Itv) (⟨.ninf, (f (5404319552844595) (-54))⟩ : Itv)).2 : Itv)]))),
    .call ((Cmd.run (.op [(⟨(f 0 0), (f 0 0)⟩ : Itv), (⟨.ninf, (f (5404319552844595) (-54))⟩ : Itv)]))),
    .call (do (Cmd.run (.op [(⟨(f 0 0), (f 0 0)⟩ : Itv), (⟨.ninf, (f (5404319552844595) (-54))⟩ : Itv)])); (Cmd.run (.op [((Itv.mulRevToPair binary64 (⟨(f 0 0), (f 0 0)⟩ : Itv) (⟨.ninf, (f (5404319552844595) (-54))⟩ : Itv)).2 : Itv)]))),
    .call ((Cmd.run (.op [(⟨.ninf, (f (-3602879701896397) (-55))⟩ : Itv), (⟨.ninf, (f (5404319552844595) (-54))⟩ : Itv)]))),
    .call (do (Cmd.run (.op [(⟨.ninf, (f (-3602879701896397) (-55))⟩ : Itv), (⟨.ninf, (f (5404319552844595) (-54))⟩ : Itv)])); (Cmd.run (.op [((Itv.mulRevToPair binary64 (⟨.ninf, (f (-3602879701896397) (-55))⟩ : Itv) (⟨.ninf, (f (5404319552844595) (-54))⟩ : Itv)).2 : Itv)]))),
    .call ((Cmd.run (.op [(⟨.ninf, (f 0 0)⟩ : Itv), (⟨.ninf, (f (5404319552844595) (-54))⟩ : Itv)]))),
    .call (do (Cmd.run (.op [(⟨.ninf, (f 0 0)⟩ : Itv), (⟨.ninf, (f (5404319552844595) (-54))⟩ : Itv)])); (Cmd.run (.op [((Itv.mulRevToPair binary64 (⟨.ninf, (f 0 0)⟩ : Itv) (⟨.ninf, (f (5404319552844595) (-54))⟩ : Itv)).2 : Itv)]))),
    .call ((Cmd.run (.op [(⟨.ninf, (f (2476979795053773) (-51))⟩ : Itv), (⟨.ninf, (f (5404319552844595) (-54))⟩ : Itv)]))),
    .call (do (Cmd.run (.op [(⟨.ninf, (f (2476979795053773) (-51))⟩ : Itv), (⟨.ninf, (f (5404319552844595) (-54))⟩ : Itv)])); (Cmd.run (.op [((Itv.mulRevToPair binary64 (⟨.ninf, (f (2476979795053773) (-51))⟩ : Itv) (⟨.ninf, (f (5404319552844595) (-54))⟩ : Itv)).2 : Itv)]))),
    .call ((Cmd.run (.op [(⟨(f (-2) (0)), .pinf⟩ : Itv), (⟨.ninf, (f (5404319552844595) (-54))⟩ : Itv)]))),
    .call (do (Cmd.run (.op [(⟨(f (-2) (0)), .pinf⟩ : Itv), (⟨.ninf, (f (5404319552844595) (-54))⟩ : Itv)])); (Cmd.run (.op [((Itv.mulRevToPair binary64 (⟨(f (-2) (0)), .pinf⟩ : Itv) (⟨.ninf, (f (5404319552844595) (-54))⟩ : Itv)).2 : Itv)]))),
    .call ((Cmd.run (.op [(⟨(f 0 0), .pinf⟩ : Itv), (⟨.ninf, (f (5404319552844595) (-54))⟩ : Itv)]))),
    .call (do (Cmd.run (.op [(⟨(f 0 0), .pinf⟩ : Itv), (⟨.ninf, (f (5404319552844595) (-54))⟩ : Itv)])); (Cmd.run (.op [((Itv.mulRevToPair binary64 (⟨(f 0 0), .pinf⟩ : Itv) (⟨.ninf, (f (5404319552844595) (-54))⟩ : Itv)).2 : Itv)]))),
    .call ((Cmd.run (.op [(⟨(f (5764607523034235) (-59)), .pinf⟩ : Itv), (⟨.ninf, (f (5404319552844595) (-54))⟩ : Itv)]))),
    .call (do (Cmd.run (.op [(⟨(f (5764607523034235) (-59)), .pinf⟩ : Itv), (⟨.ninf, (f (5404319552844595) (-54))⟩ : Itv)])); (Cmd.run (.op [((Itv.mulRevToPair binary64 (⟨(f (5764607523034235) (-59)), .pinf⟩ : Itv) (⟨.ninf, (f (5404319552844595) (-54))⟩ : Itv)).2 : Itv)]))),
    .call ((Cmd.run (.op [(⟨.ninf, .pinf⟩ : Itv), (⟨.ninf, (f (5404319552844595) (-54))⟩ : Itv)]))),
    .call (do (Cmd.run (.op [(⟨.ninf, .pinf⟩ : Itv), (⟨.ninf, (f (5404319552844595) (-54))⟩ : Itv)])); (Cmd.run (.op [((Itv.mulRevToPair binary64 (⟨.ninf, .pinf⟩ : Itv) (⟨.ninf, (f (5404319552844595) (-54))⟩ : Itv)).2 : Itv)]))),
    .call ((Cmd.run (.op [(⟨(f (-2) (0)), (f (-3602879701896397) (-55))⟩ : Itv), (⟨(f (-7566047373982433) (-55)), .pinf⟩ : Itv)]))),
    .call (do (Cmd.run (.op [(⟨(f (-2) (0)), (f (-3602879701896397) (-55))⟩ : Itv), (⟨(f (-7566047373982433) (-55)), .pinf⟩ : Itv)])); (Cmd.run (.op [((Itv.mulRevToPair binary64 (⟨(f (-2) (0)), (f (-3602879701896397) (-55))⟩ : Itv) (⟨(f (-7566047373982433) (-55)), .pinf⟩ : Itv)).2 : Itv)]))),
    .call ((Cmd.run (.op [(⟨(f (-2) (0)), (f 0 0)⟩ : Itv), (⟨(f (-7566047373982433) (-55)), .pinf⟩ : Itv)]))),
    .call (do (Cmd.run (.op [(⟨(f (-2) (0)), (f 0 0)⟩ : Itv), (⟨(f (-7566047373982433) (-55)), .pinf⟩ : Itv)])); (Cmd.run (.op [((Itv.mulRevToPair binary64 (⟨(f (-2) (0)), (f 0 0)⟩ : Itv) (⟨(f (-7566047373982433) (-55)), .pinf⟩ : Itv)).2 : Itv)]))),
    .call ((Cmd.run (.op [(⟨(f (-2) (0)), (f (2476979795053773) (-51))⟩ : Itv), (⟨(f (-7566047373982433) (-55)), .pinf⟩ : Itv)]))),
    .call (do (Cmd.run (.op [(⟨(f (-2) (0)), (f (2476979795053773) (-51))⟩ : Itv), (⟨(f (-7566047373982433) (-55)), .pinf⟩ : Itv)])); (Cmd.run (.op [((Itv.mulRevToPair binary64 (⟨(f (-2) (0)), (f (2476979795053773) (-51))⟩ : Itv) (⟨(f (-7566047373982433) (-55)), .pinf⟩ : Itv)).2 : Itv)]))),
    .call ((Cmd.run (.op [(⟨(f 0 0), (f (2476979795053773) (-51))⟩ : Itv), (⟨(f (-7566047373982433) (-55)), .pinf⟩ : Itv)]))),
    .call (do (Cmd.run (.op [(⟨(f 0 0), (f (2476979795053773) (-51))⟩ : Itv), (⟨(f (-7566047373982433) (-55)), .pinf⟩ : Itv)])); (Cmd.run (.op [((Itv.mulRevToPair binary64 (⟨(f 0 0), (f (2476979795053773) (-51))⟩ : Itv) (⟨(f (-7566047373982433) (-55)), .pinf⟩ : Itv)).2 : Itv)]))),
    .call ((Cmd.run (.op [(⟨(f (5764607523034235) (-59)), (f (2476979795053773) (-51))⟩ : Itv), (⟨(f (-7566047373982433) (-55)), .pinf⟩ : Itv)]))),
    .call (do (Cmd.run (.op [(⟨(f (5764607523034235) (-59)), (f (2476979795053773) (-51))⟩ : Itv), (⟨(f (-7566047373982433) (-55)), .pinf⟩ : Itv)])); (Cmd.run (.op [((Itv.mulRevToPair binary64 (⟨(f (5764607523034235) (-59)), (f (2476979795053773) (-51))⟩ : Itv) (⟨(f (-7566047373982433) (-55)), .pinf⟩ : Itv)).2 : Itv)]))),
    .call ((Cmd.run (.op [(⟨(f 0 0), (f 0 0)⟩ : Itv), (⟨(f (-7566047373982433) (-55)), .pinf⟩ : Itv)]))),
    .call (do (Cmd.run (.op [(⟨(f 0 0), (f 0 0)⟩ : Itv), (⟨(f (-7566047373982433) (-55)), .pinf⟩ : Itv)])); (Cmd.run (.op [((Itv.mulRevToPair binary64 (⟨(f 0 0), (f 0 0)⟩ : Itv) (⟨(f (-7566047373982433) (-55)), .pinf⟩ : Itv)).2 : Itv)]))),
    .call ((Cmd.run (.op [(⟨.ninf, (f (-3602879701896397) (-55))⟩ : Itv), (⟨(f (-7566047373982433) (-55)), .pinf⟩ : Itv)]))),
    .call (do (Cmd.run (.op [(⟨.ninf, (f (-3602879701896397) (-55))⟩ : Itv), (⟨(f (-7566047373982433) (-55)), .pinf⟩ : Itv)])); (Cmd.run (.op [((Itv.mulRevToPair binary64 (⟨.ninf, (f (-3602879701896397) (-55))⟩ : Itv) (⟨(f (-7566047373982433) (-55)), .pinf⟩ : Itv)).2 : Itv)]))),
    .call ((Cmd.run (.op [(⟨.ninf, (f 0 0)⟩ : Itv), (⟨(f (-7566047373982433) (-55)), .pinf⟩ : Itv)]))),
    .call (do (Cmd.run (.op [(⟨.ninf, (f 0 0)⟩ : Itv), (⟨(f (-7566047373982433) (-55)), .pinf⟩ : Itv)])); (Cmd.run (.op [((Itv.mulRevToPair binary64 (⟨.ninf, (f 0 0)⟩ : Itv) (⟨(f (-7566047373982433) (-55)), .pinf⟩ : Itv)).2 : Itv)]))),
    .call ((Cmd.run (.op [(⟨.ninf, (f (2476979795053773) (-51))⟩ : Itv), (⟨(f (-7566047373982433) (-55)), .pinf⟩ : Itv)]))),
    .call (do (Cmd.run (.op [(⟨.ninf, (f (2476979795053773) (-51))⟩ : Itv), (⟨(f (-7566047373982433) (-55)), .pinf⟩ : Itv)])); (Cmd.run (.op [((Itv.mulRevToPair binary64 (⟨.ninf, (f (2476979795053773) (-51))⟩ : Itv) (⟨(f (-7566047373982433) (-55)), .pinf⟩ : Itv)).2 : Itv)]))),
    .call ((Cmd.run (.op [(⟨(f (-2) (0)), .pinf⟩ : Itv), (⟨(f (-7566047373982433) (-55)), .pinf⟩ : Itv)]))),
    .call (do (Cmd.run (.op [(⟨(f (-2) (0)), .pinf⟩ : Itv), (⟨(f (-7566047373982433) (-55)), .pinf⟩ : Itv)])); (Cmd.run (.op [((Itv.mulRevToPair binary64 (⟨(f (-2) (0)), .pinf⟩ : Itv) (⟨(f (-7566047373982433) (-55)), .pinf⟩ : Itv)).2 : Itv)]))),
    .call ((Cmd.run (.op [(⟨(f 0 0), .pinf⟩ : Itv), (⟨(f (-7566047373982433) (-55)), .pinf⟩ : Itv)]))),
    .call (do (Cmd.run (.op [(⟨(f 0 0), .pinf⟩ : Itv), (⟨(f (-7566047373982433) (-55)), .pinf⟩ : Itv)])); (Cmd.run (.op [((Itv.mulRevToPair binary64 (⟨(f 0 0), .pinf⟩ : Itv) (⟨(f (-7566047373982433) (-55)), .pinf⟩ : Itv)).2 : Itv)]))),
    .call ((Cmd.run (.op [(⟨(f (5764607523034235) (-59)), .pinf⟩ : Itv), (⟨(f (-7566047373982433) (-55)), .pinf⟩ : Itv)]))),
    .call (do (Cmd.run (.op [(⟨(f (5764607523034235) (-59)), .pinf⟩ : Itv), (⟨(f (-7566047373982433) (-55)), .pinf⟩ : Itv)])); (Cmd.run (.op [((Itv.mulRevToPair binary64 (⟨(f (5764607523034235) (-59)), .pinf⟩ : Itv) (⟨(f (-7566047373982433) (-55)), .pinf⟩ : Itv)).2 : Itv)]))),
    .call ((Cmd.run (.op [(⟨.ninf, .pinf⟩ : Itv), (⟨(f (-7566047373982433) (-55)), .pinf⟩ : Itv)]))),
    .call (do (Cmd.run (.op [(⟨.ninf, .pinf⟩ : Itv), (⟨(f (-7566047373982433) (-55)), .pinf⟩ : Itv)])); (Cmd.run (.op [((Itv.mulRevToPair binary64 (⟨.ninf, .pinf⟩ : Itv) (⟨(f (-7566047373982433) (-55)), .pinf⟩ : Itv)).2 : Itv)]))),
    .call ((Cmd.run (.op [(⟨(f (-2) (0)), (f (-3602879701896397) (-55))⟩ : Itv), (⟨(f 0 0), .pinf⟩ : Itv)]))),
    .call (do (Cmd.run (.op [(⟨(f (-2) (0)), (f (-3602879701896397) (-55))⟩ : Itv), (⟨(f 0 0), .pinf⟩ : Itv)])); (Cmd.run (.op [((Itv.mulRevToPair binary64 (⟨(f (-2) (0)), (f (-3602879701896397) (-55))⟩ : Itv) (⟨(f 0 0), .pinf⟩ : Itv)).2 : Itv)]))),
    .call ((Cmd.run (.op [(⟨(f (-2) (0)), (f 0 0)⟩ : Itv), (⟨(f 0 0), .pinf⟩ : Itv)]))),
    .call (do (Cmd.run (.op [(⟨(f (-2) (0)), (f 0 0)⟩ : Itv), (⟨(f 0 0), .pinf⟩ : Itv)])); (Cmd.run (.op [((Itv.mulRevToPair binary64 (⟨(f (-2) (0)), (f 0 0)⟩ : Itv) (⟨(f 0 0), .pinf⟩ : Itv)).2 : Itv)]))),
    .call ((Cmd.run (.op [(⟨(f (-2) (0)), (f (2476979795053773) (-51))⟩ : Itv), (⟨(f 0 0), .pinf⟩ : Itv)]))),
    .call (do (Cmd.run (.op [(⟨(f (-2) (0)), (f (2476979795053773) (-51))⟩ : Itv), (⟨(f 0 0), .pinf⟩ : Itv)])); (Cmd.run (.op [((Itv.mulRevToPair binary64 (⟨(f (-2) (0)), (f (2476979795053773) (-51))⟩ : Itv) (⟨(f 0 0), .pinf⟩ : Itv)).2 : Itv)]))),
    .call ((Cmd.run (.op [(⟨(f 0 0), (f (2476979795053773) (-51))⟩ : Itv), (⟨(f 0 0), .pinf⟩ : Itv)]))),
    .call (do (Cmd.run (.op [(⟨(f 0 0), (f (2476979795053773) (-51))⟩ : Itv), (⟨(f 0 0), .pinf⟩ : Itv)])); (Cmd.run (.op [((Itv.mulRevToPair binary64 (⟨(f 0 0), (f (2476979795053773) (-51))⟩ : Itv) (⟨(f 0 0), .pinf⟩ : Itv)).2 : Itv)]))),
    .call ((Cmd.run (.op [(⟨(f (5764607523034235) (-59)), (f (2476979795053773) (-51))⟩ : Itv), (⟨(f 0 0), .pinf⟩ : Itv)]))),
    .call (do (Cmd.run (.op [(⟨(f (5764607523034235) (-59)), (f (2476979795053773) (-51))⟩ : Itv), (⟨(f 0 0), .pinf⟩ : Itv)])); (Cmd.run (.op [((Itv.mulRevToPair binary64 (⟨(f (5764607523034235) (-59)), (f (2476979795053773) (-51))⟩ : Itv) (⟨(f 0 0), .pinf⟩ : Itv)).2 : Itv)]))),
    .call ((Cmd.run (.op [(⟨(f 0 0), (f 0 0)⟩ : Itv), (⟨(f 0 0), .pinf⟩ : Itv)]))),
    .call (do (Cmd.run (.op [(⟨(f 0 0), (f 0 0)⟩ : Itv), (⟨(f 0 0), .pinf⟩ : Itv)])); (Cmd.run (.op [((Itv.mulRevToPair binary64 (⟨(f 0 0), (f 0 0)⟩ : Itv) (⟨(f 0 0), .pinf⟩ : Itv)).2 : Itv)]))),
    .call ((Cmd.run (.op [(⟨.ninf, (f (-3602879701896397) (-55))⟩ : Itv), (⟨(f 0 0), .pinf⟩ : Itv)]))),
    .call (do (Cmd.run (.op [(⟨.ninf, (f (-3602879701896397) (-55))⟩ : Itv), (⟨(f 0 0), .pinf⟩ : Itv)])); (Cmd.run (.op [((Itv.mulRevToPair binary64 (⟨.ninf, (f (-3602879701896397) (-55))⟩ : Itv) (⟨(f 0 0), .pinf⟩ : Itv)).2 : Itv)]))),
    .call ((Cmd.run (.op [(⟨.ninf, (f 0 0)⟩ : Itv), (⟨(f 0 0), .pinf⟩ : Itv)]))),
    .call (do (Cmd.run (.op [(⟨.ninf, (f 0 0)⟩ : Itv), (⟨(f 0 0), .pinf⟩ : Itv)])); (Cmd.run (.op [((Itv.mulRevToPair binary64 (⟨.ninf, (f 0 0)⟩ : Itv) (⟨(f 0 0), .pinf⟩ : Itv)).2 : Itv)]))),
    .call ((Cmd.run (.op [(⟨.ninf, (f (2476979795053773) (-51))⟩ : Itv), (⟨(f 0 0), .pinf⟩ : Itv)]))),
    .call (do (Cmd.run (.op [(⟨.ninf, (f (2476979795053773) (-51))⟩ : Itv), (⟨(f 0 0), .pinf⟩ : Itv)])); (Cmd.run (.op [((Itv.mulRevToPair binary64 (⟨.ninf, (f (2476979795053773) (-51))⟩ : Itv) (⟨(f 0 0), .pinf⟩ : Itv)).2 : Itv)]))),
    .call ((Cmd.run (.op [(⟨(f (-2) (0)), .pinf⟩ : Itv), (⟨(f 0 0), .pinf⟩ : Itv)]))),
    .call (do (Cmd.run (.op [(⟨(f (-2) (0)), .pinf⟩ : Itv), (⟨(f 0 0), .pinf⟩ : Itv)])); (Cmd.run (.op [((Itv.mulRevToPair binary64 (⟨(f (-2) (0)), .pinf⟩ : Itv) (⟨(f 0 0), .pinf⟩ : Itv)).2 : Itv)]))),
    .call ((Cmd.run (.op [(⟨(f 0 0), .pinf⟩ : Itv), (⟨(f 0 0), .pinf⟩ : Itv)]))),
    .call (do (Cmd.run (.op [(⟨(f 0 0), .pinf⟩ : Itv), (⟨(f 0 0), .pinf⟩ : Itv)])); (Cmd.run (.op [((Itv.mulRevToPair binary64 (⟨(f 0 0), .pinf⟩ : Itv) (⟨(f 0 0), .pinf⟩ : Itv)).2 : Itv)]))),
    .call ((Cmd.run (.op [(⟨(f (5764607523034235) (-59)), .pinf⟩ : Itv), (⟨(f 0 0), .pinf⟩ : Itv)]))),
    .call (do (Cmd.run (.op [(⟨(f (5764607523034235) (-59)), .pinf⟩ : Itv), (⟨(f 0 0), .pinf⟩ : Itv)])); (Cmd.run (.op [((Itv.mulRevToPair binary64 (⟨(f (5764607523034235) (-59)), .pinf⟩ : Itv) (⟨(f 0 0), .pinf⟩ : Itv)).2 : Itv)]))),
    .call ((Cmd.run (.op [(⟨.ninf, .pinf⟩ : Itv), (⟨(f 0 0), .pinf⟩ : Itv)]))),
    .call (do (Cmd.run (.op [(⟨.ninf, .pinf⟩ : Itv), (⟨(f 0 0), .pinf⟩ : Itv)])); (Cmd.run (.op [((Itv.mulRevToPair binary64 (⟨.ninf, .pinf⟩ : Itv) (⟨(f 0 0), .pinf⟩ : Itv)).2 : Itv)]))),
    .call ((Cmd.run (.op [(⟨(f (-2) (0)), (f (-3602879701896397) (-55))⟩ : Itv), (⟨(f (5764607523034235) (-57)), .pinf⟩ : Itv)]))),
    .call (do (Cmd.run (.op [(⟨(f (-2) (0)), (f (-3602879701896397) (-55))⟩ : Itv), (⟨(f (5764607523034235) (-57)), .pinf⟩ : Itv)])); (Cmd.run (.op [((Itv.mulRevToPair binary64 (⟨(f (-2) (0)), (f (-3602879701896397) (-55))⟩ : Itv) (⟨(f (5764607523034235) (-57)), .pinf⟩ : Itv)).2 : Itv)]))),
    .call ((Cmd.run (.op [(⟨(f (-2) (0)), (f 0 0)⟩ : Itv), (⟨(f (5764607523034235) (-57)), .pinf⟩ : Itv)]))),
    .call (do (Cmd.run (.op [(⟨(f (-2) (0)), (f 0 0)⟩ : Itv), (⟨(f (5764607523034235) (-57)), .pinf⟩ : Itv)])); (Cmd.run (.op [((Itv.mulRevToPair binary64 (⟨(f (-2) (0)), (f 0 0)⟩ : Itv) (⟨(f (5764607523034235) (-57)), .pinf⟩ : Itv)).2 : Itv)]))),
    .call ((Cmd.run (.op [(⟨(f (-2) (0)), (f (2476979795053773) (-51))⟩ : Itv), (⟨(f (5764607523034235) (-57)), .pinf⟩ : Itv)]))),
    .call ((Cmd.run (.op [(⟨(f (-2) (0)), (f (2476979795053773) (-51))⟩ : Itv), (⟨(f (5764607523034235) (-57)), .pinf⟩ : Itv)]))),
    .call ((Cmd.run (.op [(⟨(f 0 0), (f (2476979795053773) (-51))⟩ : Itv), (⟨(f (5764607523034235) (-57)), .pinf⟩ : Itv)]))),
    .call (do (Cmd.run (.op [(⟨(f 0 0), (f (2476979795053773) (-51))⟩ : Itv), (⟨(f (5764607523034235) (-57)), .pinf⟩ : Itv)])); (Cmd.run (.op [((Itv.mulRevToPair binary64 (⟨(f 0 0), (f (2476979795053773) (-51))⟩ : Itv) (⟨(f (5764607523034235) (-57)), .pinf⟩ : Itv)).2 : Itv)]))),
    .call ((Cmd.run (.op [(⟨(f (5764607523034235) (-59)), (f (2476979795053773) (-51))⟩ : Itv), (⟨(f (5764607523034235) (-57)), .pinf⟩ : Itv)]))),
    .call (do (Cmd.run (.op [(⟨(f (5764607523034235) (-59)), (f (2476979795053773) (-51))⟩ : Itv), (⟨(f (5764607523034235) (-57)), .pinf⟩ : Itv)])); (Cmd.run (.op [((Itv.mulRevToPair binary64 (⟨(f (5764607523034235) (-59)), (f (2476979795053773) (-51))⟩ : Itv) (⟨(f (5764607523034235) (-57)), .pinf⟩ : Itv)).2 : Itv)]))),
    .call (do (Cmd.run (.op [(⟨(f 0 0), (f 0 0)⟩ : Itv), (⟨(f (5764607523034235) (-57)), .pinf⟩ : Itv)])); (Cmd.run (.op [((Itv.mulRevToPair binary64 (⟨(f 0 0), (f 0 0)⟩ : Itv) (⟨(f (5764607523034235) (-57)), .pinf⟩ : Itv)).1 : Itv)]))),
    .call (do (Cmd.run (.op [(⟨(f 0 0), (f 0 0)⟩ : Itv), (⟨(f (5764607523034235) (-57)), .pinf⟩ : Itv)])); (Cmd.run (.op [((Itv.mulRevToPair binary64 (⟨(f 0 0), (f 0 0)⟩ : Itv) (⟨(f (5764607523034235) (-57)), .pinf⟩ : Itv)).2 : Itv)]))),
    .call ((Cmd.run (.op [(⟨.ninf, (f (-3602879701896397) (-55))⟩ : Itv), (⟨(f (5764607523034235) (-57)), .pinf⟩ : Itv)]))),
    .call (do (Cmd.run (.op [(⟨.ninf, (f (-3602879701896397) (-55))⟩ : Itv), (⟨(f (5764607523034235) (-57)), .pinf⟩ : Itv)])); (Cmd.run (.op [((Itv.mulRevToPair binary64 (⟨.ninf, (f (-3602879701896397) (-55))⟩ : Itv) (⟨(f (5764607523034235) (-57)), .pinf⟩ : Itv)).2 : Itv)]))),
    .call ((Cmd.run (.op [(⟨.ninf, (f 0 0)⟩ : Itv), (⟨(f (5764607523034235) (-57)), .pinf⟩ : Itv)]))),
    .call (do (Cmd.run (.op [(⟨.ninf, (f 0 0)⟩ : Itv), (⟨(f (5764607523034235) (-57)), .pinf⟩ : Itv)])); (Cmd.run (.op [((Itv.mulRevToPair binary64 (⟨.ninf, (f 0 0)⟩ : Itv) (⟨(f (5764607523034235) (-57)), .pinf⟩ : Itv)).2 : Itv)]))),
    .call ((Cmd.run (.op [(⟨.ninf, (f (2476979795053773) (-51))⟩ : Itv), (⟨(f (5764607523034235) (-57)), .pinf⟩ : Itv)]))),
    .call ((Cmd.run (.op [(⟨.ninf, (f (2476979795053773) (-51))⟩ : Itv), (⟨(f (5764607523034235) (-57)), .pinf⟩ : Itv)]))),
    .call ((Cmd.run (.op [(⟨(f (-2) (0)), .pinf⟩ : Itv), (⟨(f (5764607523034235) (-57)), .pinf⟩ : Itv)]))),
    .call ((Cmd.run (.op [(⟨(f (-2) (0)), .pinf⟩ : Itv), (⟨(f (5764607523034235) (-57)), .pinf⟩ : Itv)]))),
    .call ((Cmd.run (.op [(⟨(f 0 0), .pinf⟩ : Itv), (⟨(f (5764607523034235) (-57)), .pinf⟩ : Itv)]))),
    .call (do (Cmd.run (.op [(⟨(f 0 0), .pinf⟩ : Itv), (⟨(f (5764607523034235) (-57)), .pinf⟩ : Itv)])); (Cmd.run (.op [((Itv.mulRevToPair binary64 (⟨(f 0 0), .pinf⟩ : Itv) (⟨(f (5764607523034235) (-57)), .pinf⟩ : Itv)).2 : Itv)]))),
    .call ((Cmd.run (.op [(⟨(f (5764607523034235) (-59)), .pinf⟩ : Itv), (⟨(f (5764607523034235) (-57)), .pinf⟩ : Itv)]))),
    .call (do (Cmd.run (.op [(⟨(f (5764607523034235) (-59)), .pinf⟩ : Itv), (⟨(f (5764607523034235) (-57)), .pinf⟩ : Itv)])); (Cmd.run (.op [((Itv.mulRevToPair binary64 (⟨(f (5764607523034235) (-59)), .pinf⟩ : Itv) (⟨(f (5764607523034235) (-57)), .pinf⟩ : Itv)).2 : Itv)]))),
    .call ((Cmd.run (.op [(⟨.ninf, .pinf⟩ : Itv), (⟨(f (5764607523034235) (-57)), .pinf⟩ : Itv)]))),
    .call ((Cmd.run (.op [(⟨.ninf, .pinf⟩ : Itv), (⟨(f (5764607523034235) (-57)), .pinf⟩ : Itv)]))),
    .call ((Cmd.run (.op [(⟨(f (-2) (0)), (f (-3602879701896397) (-55))⟩ : Itv), (⟨.ninf, .pinf⟩ : Itv)]))),
    .call (do (Cmd.run (.op [(⟨(f (-2) (0)), (f (-3602879701896397) (-55))⟩ : Itv), (⟨.ninf, .pinf⟩ : Itv)])); (Cmd.run (.op [((Itv.mulRevToPair binary64 (⟨(f (-2) (0)), (f (-3602879701896397) (-55))⟩ : Itv) (⟨.ninf, .pinf⟩ : Itv)).2 : Itv)]))),
    .call ((Cmd.run (.op [(⟨(f (-2) (0)), (f 0 0)⟩ : Itv), (⟨.ninf, .pinf⟩ : Itv)]))),
    .call (do (Cmd.run (.op [(⟨(f (-2) (0)), (f 0 0)⟩ : Itv), (⟨.ninf, .pinf⟩ : Itv)])); (Cmd.run (.op [((Itv.mulRevToPair binary64 (⟨(f (-2) (0)), (f 0 0)⟩ : Itv) (⟨.ninf, .pinf⟩ : Itv)).2 : Itv)]))),
    .call ((Cmd.run (.op [(⟨(f (-2) (0)), (f (2476979795053773) (-51))⟩ : Itv), (⟨.ninf, .pinf⟩ : Itv)]))),
    .call (do (Cmd.run (.op [(⟨(f (-2) (0)), (f (2476979795053773) (-51))⟩ : Itv), (⟨.ninf, .pinf⟩ : Itv)])); (Cmd.run (.op [((Itv.mulRevToPair binary64 (⟨(f (-2) (0)), (f (2476979795053773) (-51))⟩ : Itv) (⟨.ninf, .pinf⟩ : Itv)).2 : Itv)]))),
    .call ((Cmd.run (.op [(⟨(f 0 0), (f (2476979795053773) (-51))⟩ : Itv), (⟨.ninf, .pinf⟩ : Itv)]))),
    .call (do (Cmd.run (.op [(⟨(f 0 0), (f (2476979795053773) (-51))⟩ : Itv), (⟨.ninf, .pinf⟩ : Itv)])); (Cmd.run (.op [((Itv.mulRevToPair binary64 (⟨(f 0 0), (f (2476979795053773) (-51))⟩ : Itv) (⟨.ninf, .pinf⟩ : Itv)).2 : Itv)]))),
    .call ((Cmd.run (.op [(⟨(f (5764607523034235) (-59)), (f (2476979795053773) (-51))⟩ : Itv), (⟨.ninf, .pinf⟩ : Itv)]))),
    .call (do (Cmd.run (.op [(⟨(f (5764607523034235) (-59)), (f (2476979795053773) (-51))⟩ : Itv), (⟨.ninf, .pinf⟩ : Itv)])); (Cmd.run (.op [((Itv.mulRevToPair binary64 (⟨(f (5764607523034235) (-59)), (f (2476979795053773) (-51))⟩ : Itv) (⟨.ninf, .pinf⟩ : Itv)).2 : Itv)]))),
    .call ((Cmd.run (.op [(⟨(f 0 0), (f 0 0)⟩ : Itv), (⟨.ninf, .pinf⟩ : Itv)]))),
    .call (do (Cmd.run (.op [(⟨(f 0 0), (f 0 0)⟩ : Itv), (⟨.ninf, .pinf⟩ : Itv)])); (Cmd.run (.op [((Itv.mulRevToPair binary64 (⟨(f 0 0), (f 0 0)⟩ : Itv) (⟨.ninf, .pinf⟩ : Itv)).2 : Itv)]))),
    .call ((Cmd.run (.op [(⟨.ninf, (f (-3602879701896397) (-55))⟩ : Itv), (⟨.ninf, .pinf⟩ : Itv)]))),
    .call (do (Cmd.run (.op [(⟨.ninf, (f (-3602879701896397) (-55))⟩ : Itv), (⟨.ninf, .pinf⟩ : Itv)])); (Cmd.run (.op [((Itv.mulRevToPair binary64 (⟨.ninf, (f (-3602879701896397) (-55))⟩ : Itv) (⟨.ninf, .pinf⟩ : Itv)).2 : Itv)]))),
    .call ((Cmd.run (.op [(⟨.ninf, (f 0 0)⟩ : Itv), (⟨.ninf, .pinf⟩ : Itv)]))),
    .call (do (Cmd.run (.op [(⟨.ninf, (f 0 0)⟩ : Itv), (⟨.ninf, .pinf⟩ : Itv)])); (Cmd.run (.op [((Itv.mulRevToPair binary64 (⟨.ninf, (f 0 0)⟩ : Itv) (⟨.ninf, .pinf⟩ : Itv)).2 : Itv)]))),
    .call ((Cmd.run (.op [(⟨.ninf, (f (2476979795053773) (-51))⟩ : Itv), (⟨.ninf, .pinf⟩ : Itv)]))),
    .call (do (Cmd.run (.op [(⟨.ninf, (f (2476979795053773) (-51))⟩ : Itv), (⟨.ninf, .pinf⟩ : Itv)])); (Cmd.run (.op [((Itv.mulRevToPair binary64 (⟨.ninf, (f (2476979795053773) (-51))⟩ : Itv) (⟨.ninf, .pinf⟩ : Itv)).2 : Itv)]))),
    .call ((Cmd.run (.op [(⟨(f (-2) (0)), .pinf⟩ : Itv), (⟨.ninf, .pinf⟩ : Itv)]))),
    .call (do (Cmd.run (.op [(⟨(f (-2) (0)), .pinf⟩ : Itv), (⟨.ninf, .pinf⟩ : Itv)])); (Cmd.run (.op [((Itv.mulRevToPair binary64 (⟨(f (-2) (0)), .pinf⟩ : Itv) (⟨.ninf, .pinf⟩ : Itv)).2 : Itv)]))),
    .call ((Cmd.run (.op [(⟨(f 0 0), .pinf⟩ : Itv), (⟨.ninf, .pinf⟩ : Itv)]))),
    .call (do (Cmd.run (.op [(⟨(f 0 0), .pinf⟩ : Itv), (⟨.ninf, .pinf⟩ : Itv)])); (Cmd.run (.op [((Itv.mulRevToPair binary64 (⟨(f 0 0), .pinf⟩ : Itv) (⟨.ninf, .pinf⟩ : Itv)).2 : Itv)]))),
    .call ((Cmd.run (.op [(⟨(f (5764607523034235) (-59)), .pinf⟩ : Itv), (⟨.ninf, .pinf⟩ : Itv)]))),
    .call (do (Cmd.run (.op [(⟨(f (5764607523034235) (-59)), .pinf⟩ : Itv), (⟨.ninf, .pinf⟩ : Itv)])); (Cmd.run (.op [((Itv.mulRevToPair binary64 (⟨(f (5764607523034235) (-59)), .pinf⟩ : Itv) (⟨.ninf, .pinf⟩ : Itv)).2 : Itv)]))),
    .call ((Cmd.run (.op [(⟨.ninf, .pinf⟩ : Itv), (⟨.ninf, .pinf⟩ : Itv)]))),
    .call (do (Cmd.run (.op [(⟨.ninf, .pinf⟩ : Itv), (⟨.ninf, .pinf⟩ : Itv)])); (Cmd.run (.op [((Itv.mulRevToPair binary64 (⟨.ninf, .pinf⟩ : Itv) (⟨.ninf, .pinf⟩ : Itv)).2 : Itv)]))),
    .state 418 [],
    .call clearFlags,
    .call (do (Cmd.run (.op [(⟨(f 1 0), (f (-2) (0))⟩ : Itv), (⟨(f 1 0), (f 2 0)⟩ : Itv)])); (Cmd.run (.op [((Itv.mulRevToPair binary64 (⟨(f 1 0), (f (-2) (0))⟩ : Itv) (⟨(f 1 0), (f 2 0)⟩ : Itv)).1 : Itv)]))),
    .call (do (Cmd.run (.op [(⟨(f 1 0), (f (-2) (0))⟩ : Itv), (⟨(f 1 0), (f 2 0)⟩ : Itv)])); (Cmd.run (.op [((Itv.mulRevToPair binary64 (⟨(f 1 0), (f (-2) (0))⟩ : Itv) (⟨(f 1 0), (f 2 0)⟩ : Itv)).2 : Itv)]))),
    .state 423 [.invalidOperand],
    .call clearFlags,
    .call (setCwd (bitsOf [.invalidOperand])),
    .throws 426 ((Cmd.run (.op [(⟨(f 1 0), (f 2 0)⟩ : Itv), (⟨(f 1 0), (f (-2) (0))⟩ : Itv)]))) .invalidOperand,
    .state 427 [.invalidOperand],
    .call clearFlags,
    .call (setCwd (bitsOf []))] ExSt.init = [] := by
  decide +kernel

/-- `minimal_mul_rev_to_pair_mixedtype_test` -/
example : failed [
    .call (do (Cmd.run (.op [(Itv.empty : Itv), (⟨(f 1 0), (f 2 0)⟩ : Itv)])); (Cmd.run (.op [((Itv.mulRevToPairMixed .double .float .double (Itv.empty : Itv) (⟨(f 1 0), (f 2 0)⟩ : Itv)).1 : Itv)]))),
    .call (do (Cmd.run (.op [(Itv.empty : Itv), (⟨(f 1 0), (f 2 0)⟩ : Itv)])); (Cmd.run (.op [((Itv.mulRevToPairMixed .double .float .double (Itv.empty : Itv) (⟨(f 1 0), (f 2 0)⟩ : Itv)).2 : Itv)]))),
    .call (do (Cmd.run (.op [(⟨(f 1 0), (f 2 0)⟩ : Itv), (Itv.empty : Itv)])); (Cmd.run (.op [((Itv.mulRevToPairMixed .float .double .double (⟨(f 1 0), (f 2 0)⟩ : Itv) (Itv.empty : Itv)).1 : Itv)]))),
    .call (do (Cmd.run (.op [(⟨(f 1 0), (f 2 0)⟩ : Itv), (Itv.empty : Itv)])); (Cmd.run (.op [((Itv.mulRevToPairMixed .float .double .double (⟨(f 1 0), (f 2 0)⟩ : Itv) (Itv.empty : Itv)).2 : Itv)]))),
    .call ((Cmd.run (.op [(⟨(f (-2) (0)), (f (-3602879701896397) (-55))⟩ : Itv), (⟨(f (-4728779608739021) (-51)), (f (-3602879701896397) (-53))⟩ : Itv)]))),
    .call (do (Cmd.run (.op [(⟨(f (-2) (0)), (f (-3602879701896397) (-55))⟩ : Itv), (⟨(f (-4728779608739021) (-51)), (f (-3602879701896397) (-53))⟩ : Itv)])); (Cmd.run (.op [((Itv.mulRevToPairMixed .float .double .double (⟨(f (-2) (0)), (f (-3602879701896397) (-55))⟩ : Itv) (⟨(f (-4728779608739021) (-51)), (f (-3602879701896397) (-53))⟩ : Itv)).2 : Itv)]))),
    .call ((Cmd.run (.op [(⟨(f (5764607523034235) (-59)), (f (2476979795053773) (-51))⟩ : Itv), (⟨(f (-4728779608739021) (-51)), (f 0 0)⟩ : Itv)]))),
    .call (do (Cmd.run (.op [(⟨(f (5764607523034235) (-59)), (f (2476979795053773) (-51))⟩ : Itv), (⟨(f (-4728779608739021) (-51)), (f 0 0)⟩ : Itv)])); (Cmd.run (.op [((Itv.mulRevToPairMixed .float .double .double (⟨(f (5764607523034235) (-59)), (f (2476979795053773) (-51))⟩ : Itv) (⟨(f (-4728779608739021) (-51)), (f 0 0)⟩ : Itv)).2 : Itv)]))),
    .call ((Cmd.run (.op [(⟨(f (5764607523034235) (-59)), (f (2476979795053773) (-51))⟩ : Itv), (⟨(f (-4728779608739021) (-51)), (f (1080863910568919) (-53))⟩ : Itv)]))),
    .call (do (Cmd.run (.op [(⟨(f (5764607523034235) (-59)), (f (2476979795053773) (-51))⟩ : Itv), (⟨(f (-4728779608739021) (-51)), (f (1080863910568919) (-53))⟩ : Itv)])); (Cmd.run (.op [((Itv.mulRevToPairMixed .float .double .double (⟨(f (5764607523034235) (-59)), (f (2476979795053773) (-51))⟩ : Itv) (⟨(f (-4728779608739021) (-51)), (f (1080863910568919) (-53))⟩ : Itv)).2 : Itv)]))),
    .call ((Cmd.run (.op [(⟨(f (5368709) (-29)), .pinf⟩ : Itv), (⟨(f 0 0), (f (16106127) (-27))⟩ : Itv)]))),
    .call (do (Cmd.run (.op [(⟨(f (5368709) (-29)), .pinf⟩ : Itv), (⟨(f 0 0), (f (16106127) (-27))⟩ : Itv)])); (Cmd.run (.op [((Itv.mulRevToPairMixed .double .float .float (⟨(f (5368709) (-29)), .pinf⟩ : Itv) (⟨(f 0 0), (f (16106127) (-27))⟩ : Itv)).2 : Itv)]))),
    .call ((Cmd.run (.op [(⟨(f (-2) (0)), (f (9227469) (-23))⟩ : Itv), (⟨(f (5368709) (-29)), (f (16106127) (-27))⟩ : Itv)]))),
    .call ((Cmd.run (.op [(⟨(f (-2) (0)), (f (9227469) (-23))⟩ : Itv), (⟨(f (5368709) (-29)), (f (16106127) (-27))⟩ : Itv)]))),
    .call ((Cmd.run (.op [(⟨(f (-2) (0)), (f (9227469) (-23))⟩ : Itv), (⟨.ninf, (f (-3602879701896397) (-55))⟩ : Itv)]))),
    .call ((Cmd.run (.op [(⟨(f (-2) (0)), (f (9227469) (-23))⟩ : Itv), (⟨.ninf, (f (-3602879701896397) (-55))⟩ : Itv)]))),
    .call ((Cmd.run (.op [(⟨(f (-2) (0)), (f (2476979795053773) (-51))⟩ : Itv), (⟨(f (5764607523034235) (-57)), .pinf⟩ : Itv)]))),
    .call ((Cmd.run (.op [(⟨(f (-2) (0)), (f (2476979795053773) (-51))⟩ : Itv), (⟨(f (5764607523034235) (-57)), .pinf⟩ : Itv)]))),
    .state 466 [],
    .call clearFlags,
    .call (do (Cmd.run (.op [(⟨(f 1 0), (f (-2) (0))⟩ : Itv), (⟨(f 1 0), (f 2 0)⟩ : Itv)])); (Cmd.run (.op [((Itv.mulRevToPairMixed .float .double .double (⟨(f 1 0), (f (-2) (0))⟩ : Itv) (⟨(f 1 0), (f 2 0)⟩ : Itv)).1 : Itv)]))),
    .call (do (Cmd.run (.op [(⟨(f 1 0), (f (-2) (0))⟩ : Itv), (⟨(f 1 0), (f 2 0)⟩ : Itv)])); (Cmd.run (.op [((Itv.mulRevToPairMixed .float .double .double (⟨(f 1 0), (f (-2) (0))⟩ : Itv) (⟨(f 1 0), (f 2 0)⟩ : Itv)).2 : Itv)]))),
    .state 471 [.invalidOperand],
    .call clearFlags,
    .call (setCwd (bitsOf [.invalidOperand])),
    .throws 474 ((Cmd.run (.op [(⟨(f 1 0), (f 2 0)⟩ : Itv), (⟨(f 1 0), (f (-2) (0))⟩ : Itv)]))) .invalidOperand,
    .state 475 [.invalidOperand],
    .call clearFlags,
    .call (setCwd (bitsOf []))] ExSt.init = [] := by
  decide +kernel

/-- `minimal_mul_rev_to_pair_dec_test` -/
example : failed [
    .call (do (Cmd.run (.opD [(DItv.nai : DItv), (⟨⟨(f 1 0), (f 2 0)⟩, .defd⟩ : DItv)])); (Cmd.run (.opD [((DItv.mulRevToPair binary64 (DItv.nai : DItv) (⟨⟨(f 1 0), (f 2 0)⟩, .defd⟩ : DItv)).1 : DItv)]))),
    .call (do (Cmd.run (.opD [(DItv.nai : DItv), (⟨⟨(f 1 0), (f 2 0)⟩, .defd⟩ : DItv)])); (Cmd.run (.opD [((DItv.mulRevToPair binary64 (DItv.nai : DItv) (⟨⟨(f 1 0), (f 2 0)⟩, .defd⟩ : DItv)).2 : DItv)]))),
    .call (do (Cmd.run (.opD [(⟨⟨(f 1 0), (f 2 0)⟩, .com⟩ : DItv), (DItv.nai : DItv)])); (Cmd.run (.opD [((DItv.mulRevToPair binary64 (⟨⟨(f 1 0), (f 2 0)⟩, .com⟩ : DItv) (DItv.nai : DItv)).1 : DItv)]))),
    .call (do (Cmd.run (.opD [(⟨⟨(f 1 0), (f 2 0)⟩, .com⟩ : DItv), (DItv.nai : DItv)])); (Cmd.run (.opD [((DItv.mulRevToPair binary64 (⟨⟨(f 1 0), (f 2 0)⟩, .com⟩ : DItv) (DItv.nai : DItv)).2 : DItv)]))),
    .call (do (Cmd.run (.opD [(DItv.nai : DItv), (DItv.nai : DItv)])); (Cmd.run (.opD [((DItv.mulRevToPair binary64 (DItv.nai : DItv) (DItv.nai : DItv)).1 : DItv)]))),
    .call (do (Cmd.run (.opD [(DItv.nai : DItv), (DItv.nai : DItv)])); (Cmd.run (.opD [((DItv.mulRevToPair binary64 (DItv.nai : DItv) (DItv.nai : DItv)).2 : DItv)]))),
    .call (do (Cmd.run (.opD [(DItv.empty : DItv), (⟨⟨(f 1 0), (f 2 0)⟩, .defd⟩ : DItv)])); (Cmd.run (.opD [((DItv.mulRevToPair binary64 (DItv.empty : DItv) (⟨⟨(f 1 0), (f 2 0)⟩, .defd⟩ : DItv)).1 : DItv)]))),
    .call (do (Cmd.run (.opD [(DItv.empty : DItv), (⟨⟨(f 1 0), (f 2 0)⟩, .defd⟩ : DItv)])); (Cmd.run (.opD [((DItv.mulRevToPair binary64 (DItv.empty : DItv) (⟨⟨(f 1 0), (f 2 0)⟩, .defd⟩ : DItv)).2 : DItv)]))),
    .call (do (Cmd.run (.opD [(⟨⟨(f 1 0), (f 2 0)⟩, .com⟩ : DItv), (DItv.empty : DItv)])); (Cmd.run (.opD [((DItv.mulRevToPair binary64 (⟨⟨(f 1 0), (f 2 0)⟩, .com⟩ : DItv) (DItv.empty : DItv)).1 : DItv)]))),
    .call (do (Cmd.run (.opD [(⟨⟨(f 1 0), (f 2 0)⟩, .com⟩ : DItv), (DItv.empty : DItv)])); (Cmd.run (.opD [((DItv.mulRevToPair binary64 (⟨⟨(f 1 0), (f 2 0)⟩, .com⟩ : DItv) (DItv.empty : DItv)).2 : DItv)]))),
    .call (do (Cmd.run (.opD [(DItv.empty : DItv), (DItv.empty : DItv)])); (Cmd.run (.opD [((DItv.mulRevToPair binary64 (DItv.empty : DItv) (DItv.empty : DItv)).1 : DItv)]))),
    .call (do (Cmd.run (.opD [(DItv.empty : DItv), (DItv.empty : DItv)])); (Cmd.run (.opD [((DItv.mulRevToPair binary64 (DItv.empty : DItv) (DItv.empty : DItv)).2 : DItv)]))),
    .call ((Cmd.run (.opD [(⟨⟨(f (-2) (0)), (f (-3602879701896397) (-55))⟩, .com⟩ : DItv), (⟨⟨(f (-4728779608739021) (-51)), (f (-3602879701896397) (-53))⟩, .com⟩ : DItv)]))),
    .call (do (Cmd.run (.opD [(⟨⟨(f (-2) (0)), (f (-3602879701896397) (-55))⟩, .com⟩ : DItv), (⟨⟨(f (-4728779608739021) (-51)), (f (-3602879701896397) (-53))⟩, .com⟩ : DItv)])); (Cmd.run (.opD [((DItv.mulRevToPair binary64 (⟨⟨(f (-2) (0)), (f (-3602879701896397) (-55))⟩, .com⟩ : DItv) (⟨⟨(f (-4728779608739021) (-51)), (f (-3602879701896397) (-53))⟩, .com⟩ : DItv)).2 : DItv)]))),
    .call ((Cmd.run (.opD [(⟨⟨(f (-2) (0)), (f 0 0)⟩, .dac⟩ : DItv), (⟨⟨(f (-4728779608739021) (-51)), (f (-3602879701896397) (-53))⟩, .com⟩ : DItv)]))),
    .call (do (Cmd.run (.opD [(⟨⟨(f (-2) (0)), (f 0 0)⟩, .dac⟩ : DItv), (⟨⟨(f (-4728779608739021) (-51)), (f (-3602879701896397) (-53))⟩, .com⟩ : DItv)])); (Cmd.run (.opD [((DItv.mulRevToPair binary64 (⟨⟨(f (-2) (0)), (f 0 0)⟩, .dac⟩ : DItv) (⟨⟨(f (-4728779608739021) (-51)), (f (-3602879701896397) (-53))⟩, .com⟩ : DItv)).2 : DItv)]))),
    .call ((Cmd.run (.opD [(⟨⟨(f (-2) (0)), (f (2476979795053773) (-51))⟩, .com⟩ : DItv), (⟨⟨(f (-4728779608739021) (-51)), (f (-3602879701896397) (-53))⟩, .dac⟩ : DItv)]))),
    .call ((Cmd.run (.opD [(⟨⟨(f (-2) (0)), (f (2476979795053773) (-51))⟩, .com⟩ : DItv), (⟨⟨(f (-4728779608739021) (-51)), (f (-3602879701896397) (-53))⟩, .dac⟩ : DItv)]))),
    .call ((Cmd.run (.opD [(⟨⟨(f 0 0), (f (2476979795053773) (-51))⟩, .trv⟩ : DItv), (⟨⟨(f (-4728779608739021) (-51)), (f (-3602879701896397) (-53))⟩, .defd⟩ : DItv)]))),
    .call (do (Cmd.run (.opD [(⟨⟨(f 0 0), (f (2476979795053773) (-51))⟩, .trv⟩ : DItv), (⟨⟨(f (-4728779608739021) (-51)), (f (-3602879701896397) (-53))⟩, .defd⟩ : DItv)])); (Cmd.run (.opD [((DItv.mulRevToPair binary64 (⟨⟨(f 0 0), (f (2476979795053773) (-51))⟩, .trv⟩ : DItv) (⟨⟨(f (-4728779608739021) (-51)), (f (-3602879701896397) (-53))⟩, .defd⟩ : DItv)).2 : DItv)]))),
    .call ((Cmd.run (.opD [(⟨⟨(f (5764607523034235) (-59)), (f (2476979795053773) (-51))⟩, .com⟩ : DItv), (⟨⟨(f (-4728779608739021) (-51)), (f (-3602879701896397) (-53))⟩, .com⟩ : DItv)]))),
    .call (do (Cmd.run (.opD [(⟨⟨(f (5764607523034235) (-59)), (f (2476979795053773) (-51))⟩, .com⟩ : DItv), (⟨⟨(f (-4728779608739021) (-51)), (f (-3602879701896397) (-53))⟩, .com⟩ : DItv)])); (Cmd.run (.opD [((DItv.mulRevToPair binary64 (⟨⟨(f (5764607523034235) (-59)), (f (2476979795053773) (-51))⟩, .com⟩ : DItv) (⟨⟨(f (-4728779608739021) (-51)), (f (-3602879701896397) (-53))⟩, .com⟩ : DItv)).2 : DItv)]))),
    .call (do (Cmd.run (.opD [(⟨⟨(f 0 0), (f 0 0)⟩, .dac⟩ : DItv), (⟨⟨(f (-4728779608739021) (-51)), (f (-3602879701896397) (-53))⟩, .defd⟩ : DItv)])); (Cmd.run (.opD [((DItv.mulRevToPair binary64 (⟨⟨(f 0 0), (f 0 0)⟩, .dac⟩ : DItv) (⟨⟨(f (-4728779608739021) (-51)), (f (-3602879701896397) (-53))⟩, .defd⟩ : DItv)).1 : DItv)]))),
    .call (do (Cmd.run (.opD [(⟨⟨(f 0 0), (f 0 0)⟩, .dac⟩ : DItv), (⟨⟨(f (-4728779608739021) (-51)), (f (-3602879701896397) (-53))⟩, .defd⟩ : DItv)])); (Cmd.run (.opD [((DItv.mulRevToPair binary64 (⟨⟨(f 0 0), (f 0 0)⟩, .dac⟩ : DItv) (⟨⟨(f (-4728779608739021) (-51)), (f (-3602879701896397) (-53))⟩, .defd⟩ : DItv)).2 : DItv)]))),
    .call ((Cmd.run (.opD [(⟨⟨.ninf, (f (-3602879701896397) (-55))⟩, .dac⟩ : DItv), (⟨⟨(f (-4728779608739021) (-51)), (f (-3602879701896397) (-53))⟩, .dac⟩ : DItv)]))),
    .call (do (Cmd.run (.opD [(⟨⟨.ninf, (f (-3602879701896397) (-55))⟩, .dac⟩ : DItv), (⟨⟨(f (-4728779608739021) (-51)), (f (-3602879701896397) (-53))⟩, .dac⟩ : DItv)])); (Cmd.run (.opD [((DItv.mulRevToPair binary64 (⟨⟨.ninf, (f (-3602879701896397) (-55))⟩, .dac⟩ : DItv) (⟨⟨(f (-4728779608739021) (-51)), (f (-3602879701896397) (-53))⟩, .dac⟩ : DItv)).2 : DItv)]))),
    .call ((Cmd.run (.opD [(⟨⟨.ninf, (f 0 0)⟩, .defd⟩ : DItv), (⟨⟨(f (-4728779608739021) (-51)), (f (-3602879701896397) (-53))⟩, .com⟩ : DItv)]))),
    .call (do (Cmd.run (.opD [(⟨⟨.ninf, (f 0 0)⟩, .defd⟩ : DItv), (⟨⟨(f (-4728779608739021) (-51)), (f (-3602879701896397) (-53))⟩, .com⟩ : DItv)])); (Cmd.run (.opD [((DItv.mulRevToPair binary64 (⟨⟨.ninf, (f 0 0)⟩, .defd⟩ : DItv) (⟨⟨(f (-4728779608739021) (-51)), (f (-3602879701896397) (-53))⟩, .com⟩ : DItv)).2 : DItv)]))),
    .call ((Cmd.run (.opD [(⟨⟨.ninf, (f (2476979795053773) (-51))⟩, .trv⟩ : DItv), (⟨⟨(f (-4728779608739021) (-51)), (f (-3602879701896397) (-53))⟩, .defd⟩ : DItv)]))),
    .call ((Cmd.run (.opD [(⟨⟨.ninf, (f (2476979795053773) (-51))⟩, .trv⟩ : DItv), (⟨⟨(f (-4728779608739021) (-51)), (f (-3602879701896397) (-53))⟩, .defd⟩ : DItv)]))),
    .call ((Cmd.run (.opD [(⟨⟨(f (-2) (0)), .pinf⟩, .dac⟩ : DItv), (⟨⟨(f (-4728779608739021) (-51)), (f (-3602879701896397) (-53))⟩, .dac⟩ : DItv)]))),
    .call ((Cmd.run (.opD [(⟨⟨(f (-2) (0)), .pinf⟩, .dac⟩ : DItv), (⟨⟨(f (-4728779608739021) (-51)), (f (-3602879701896397) (-53))⟩, .dac⟩ : DItv)]))),
    .call ((Cmd.run (.opD [(⟨⟨(f 0 0), .pinf⟩, .defd⟩ : DItv), (⟨⟨(f (-4728779608739021) (-51)), (f (-3602879701896397) (-53))⟩, .com⟩ : DItv)]))),
    .call (do (Cmd.run (.opD [(⟨⟨(f 0 0), .pinf⟩, .defd⟩ : DItv), (⟨⟨(f (-4728779608739021) (-51)), (f (-3602879701896397) (-53))⟩, .com⟩ : DItv)])); (Cmd.run (.opD [((DItv.mulRevToPair binary64 (⟨⟨(f 0 0), .pinf⟩, .defd⟩ : DItv) (⟨⟨(f (-4728779608739021) (-51)), (f (-3602879701896397) (-53))⟩, .com⟩ : DItv)).2 : DItv)]))),
    .call ((Cmd.run (.opD [(⟨⟨(f (5764607523034235) (-59)), .pinf⟩, .defd⟩ : DItv), (⟨⟨(f (-4728779608739021) (-51)), (f (-3602879701896397) (-53))⟩, .defd⟩ : DItv)]))),
    .call (do (Cmd.run (.opD [(⟨⟨(f (5764607523034235) (-59)), .pinf⟩, .defd⟩ : DItv), (⟨⟨(f (-4728779608739021) (-51)), (f (-3602879701896397) (-53))⟩, .defd⟩ : DItv)])); (Cmd.run (.opD [((DItv.mulRevToPair binary64 (⟨⟨(f (5764607523034235) (-59)), .pinf⟩, .defd⟩ : DItv) (⟨⟨(f (-4728779608739021) (-51)), (f (-3602879701896397) (-53))⟩, .defd⟩ : DItv)).2 : DItv)]))),
    .call ((Cmd.run (.opD [(⟨⟨.ninf, .pinf⟩, .dac⟩ : DItv), (⟨⟨(f (-4728779608739021) (-51)), (f (-3602879701896397) (-53))⟩, .dac⟩ : DItv)]))),
    .call ((Cmd.run (.opD [(⟨⟨.ninf, .pinf⟩, .dac⟩ : DItv), (⟨⟨(f (-4728779608739021) (-51)), (f (-3602879701896397) (-53))⟩, .dac⟩ : DItv)]))),
    .call ((Cmd.run (.opD [(⟨⟨(f (-2) (0)), (f (-3602879701896397) (-55))⟩, .dac⟩ : DItv), (⟨⟨(f (-4728779608739021) (-51)), (f 0 0)⟩, .com⟩ : DItv)]))),
    .call (do (Cmd.run (.opD [(⟨⟨(f (-2) (0)), (f (-3602879701896397) (-55))⟩, .dac⟩ : DItv), (⟨⟨(f (-4728779608739021) (-51)), (f 0 0)⟩, .com⟩ : DItv)])); (Cmd.run (.opD [((DItv.mulRevToPair binary64 (⟨⟨(f (-2) (0)), (f (-3602879701896397) (-55))⟩, .dac⟩ : DItv) (⟨⟨(f (-4728779608739021) (-51)), (f 0 0)⟩, .com⟩ : DItv)).2 : DItv)]))),
    .call ((Cmd.run (.opD [(⟨⟨(f (-2) (0)), (f 0 0)⟩, .dac⟩ : DItv), (⟨⟨(f (-4728779608739021) (-51)), (f 0 0)⟩, .com⟩ : DItv)]))),
    .call (do (Cmd.run (.opD [(⟨⟨(f (-2) (0)), (f 0 0)⟩, .dac⟩ : DItv), (⟨⟨(f (-4728779608739021) (-51)), (f 0 0)⟩, .com⟩ : DItv)])); (Cmd.run (.opD [((DItv.mulRevToPair binary64 (⟨⟨(f (-2) (0)), (f 0 0)⟩, .dac⟩ : DItv) (⟨⟨(f (-4728779608739021) (-51)), (f 0 0)⟩, .com⟩ : DItv)).2 : DItv)]))),
    .call ((Cmd.run (.opD [(⟨⟨(f (-2) (0)), (f (2476979795053773) (-51))⟩, .dac⟩ : DItv), (⟨⟨(f (-4728779608739021) (-51)), (f 0 0)⟩, .com⟩ : DItv)]))),
    .call (do (Cmd.run (.opD [(⟨⟨(f (-2) (0)), (f (2476979795053773) (-51))⟩, .dac⟩ : DItv), (⟨⟨(f (-4728779608739021) (-51)), (f 0 0)⟩, .com⟩ : DItv)])); (Cmd.run (.opD [((DItv.mulRevToPair binary64 (⟨⟨(f (-2) (0)), (f (2476979795053773) (-51))⟩, .dac⟩ : DItv) (⟨⟨(f (-4728779608739021) (-51)), (f 0 0)⟩, .com⟩ : DItv)).2 : DItv)]))),
    .call ((Cmd.run (.opD [(⟨⟨(f 0 0), (f (2476979795053773) (-51))⟩, .dac⟩ : DItv), (⟨⟨(f (-4728779608739021) (-51)), (f 0 0)⟩, .com⟩ : DItv)]))),
    .call (do (Cmd.run (.opD [(⟨⟨(f 0 0), (f (2476979795053773) (-51))⟩, .dac⟩ : DItv), (⟨⟨(f (-4728779608739021) (-51)), (f 0 0)⟩, .com⟩ : DItv)])); (Cmd.run (.opD [((DItv.mulRevToPair binary64 (⟨⟨(f 0 0), (f (2476979795053773) (-51))⟩, .dac⟩ : DItv) (⟨⟨(f (-4728779608739021) (-51)), (f 0 0)⟩, .com⟩ : DItv)).2 : DItv)]))),
    .call ((Cmd.run (.opD [(⟨⟨(f (5764607523034235) (-59)), (f (2476979795053773) (-51))⟩, .dac⟩ : DItv), (⟨⟨(f (-4728779608739021) (-51)), (f 0 0)⟩, .com⟩ : DItv)]))),
    .call (do (Cmd.run (.opD [(⟨⟨(f (5764607523034235) (-59)), (f (2476979795053773) (-51))⟩, .dac⟩ : DItv), (⟨⟨(f (-4728779608739021) (-51)), (f 0 0)⟩, .com⟩ : DItv)])); (Cmd.run (.opD [((DItv.mulRevToPair binary64 (⟨⟨(f (5764607523034235) (-59)), (f (2476979795053773) (-51))⟩, .dac⟩ : DItv) (⟨⟨(f (-4728779608739021) (-51)), (f 0 0)⟩, .com⟩ : DItv)).2 : DItv)]))),
    .call ((Cmd.run (.opD [(⟨⟨(f 0 0), (f 0 0)⟩, .dac⟩ : DItv), (⟨⟨(f (-4728779608739021) (-51)), (f 0 0)⟩, .com⟩ : DItv)]))),
    .call (do (Cmd.run (.opD [(⟨⟨(f 0 0), (f 0 0)⟩, .dac⟩ : DItv), (⟨⟨(f (-4728779608739021) (-51)), (f 0 0)⟩, .com⟩ : DItv)])); (Cmd.run (.opD [((DItv.mulRevToPair binary64 (⟨⟨(f 0 0), (f 0 0)⟩, .dac⟩ : DItv) (⟨⟨(f (-4728779608739021) (-51)), (f 0 0)⟩, .com⟩ : DItv)).2 : DItv)]))),
    .call ((Cmd.run (.opD [(⟨⟨.ninf, (f (-3602879701896397) (-55))⟩, .dac⟩ : DItv), (⟨⟨(f (-4728779608739021) (-51)), (f 0 0)⟩, .com⟩ : DItv)]))),
    .call (do (Cmd.run (.opD [(⟨⟨.ninf, (f (-3602879701896397) (-55))⟩, .dac⟩ : DItv), (⟨⟨(f (-4728779608739021) (-51)), (f 0 0)⟩, .com⟩ : DItv)])); (Cmd.run (.opD [((DItv.mulRevToPair binary64 (⟨⟨.ninf, (f (-3602879701896397) (-55))⟩, .dac⟩ : DItv) (⟨⟨(f (-4728779608739021) (-51)), (f 0 0)⟩, .com⟩ : DItv)).2 : DItv)]))),
    .call ((Cmd.run (.opD [(⟨⟨.ninf, (f 0 0)⟩, .dac⟩ : DItv), (⟨⟨(f (-4728779608739021) (-51)), (f 0 0)⟩, .com⟩ : DItv)]))),
    .call (do (Cmd.run (.opD [(⟨⟨.ninf, (f 0 0)⟩, .dac⟩ : DItv), (⟨⟨(f (-4728779608739021) (-51)), (f 0 0)⟩, .com⟩ : DItv)])); (Cmd.run (.opD [((DItv.mulRevToPair binary64 (⟨⟨.ninf, (f 0 0)⟩, .dac⟩ : DItv) (⟨⟨(f (-4728779608739021) (-51)), (f 0 0)⟩, .com⟩ : DItv)).2 : DItv)]))),
    .call ((Cmd.run (.opD [(⟨⟨.ninf, (f (2476979795053773) (-51))⟩, .dac⟩ : DItv), (⟨⟨(f (-4728779608739021) (-51)), (f 0 0)⟩, .com⟩ : DItv)]))),
    .call (do (Cmd.run (.opD [(⟨⟨.ninf, (f (2476979795053773) (-51))⟩, .dac⟩ : DItv), (⟨⟨(f (-4728779608739021) (-51)), (f 0 0)⟩, .com⟩ : DItv)])); (Cmd.run (.opD [((DItv.mulRevToPair binary64 (⟨⟨.ninf, (f (2476979795053773) (-51))⟩, .dac⟩ : DItv) (⟨⟨(f (-4728779608739021) (-51)), (f 0 0)⟩, .com⟩ : DItv)).2 : DItv)]))),
    .call ((Cmd.run (.opD [(⟨⟨(f (-2) (0)), .pinf⟩, .dac⟩ : DItv), (⟨⟨(f (-4728779608739021) (-51)), (f 0 0)⟩, .com⟩ : DItv)]))),
    .call (do (Cmd.run (.opD [(⟨⟨(f (-2) (0)), .pinf⟩, .dac⟩ : DItv), (⟨⟨(f (-4728779608739021) (-51)), (f 0 0)⟩, .com⟩ : DItv)])); (Cmd.run (.opD [((DItv.mulRevToPair binary64 (⟨⟨(f (-2) (0)), .pinf⟩, .dac⟩ : DItv) (⟨⟨(f (-4728779608739021) (-51)), (f 0 0)⟩, .com⟩ : DItv)).2 : DItv)]))),
    .call ((Cmd.run (.opD [(⟨⟨(f 0 0), .pinf⟩, .dac⟩ : DItv), (⟨⟨(f (-4728779608739021) (-51)), (f 0 0)⟩, .com⟩ : DItv)]))),
    .call (do (Cmd.run (.opD [(⟨⟨(f 0 0), .pinf⟩, .dac⟩ : DItv), (⟨⟨(f (-4728779608739021) (-51)), (f 0 0)⟩, .com⟩ : DItv)])); (Cmd.run (.opD [((DItv.mulRevToPair binary64 (⟨⟨(f 0 0), .pinf⟩, .dac⟩ : DItv) (⟨⟨(f (-4728779608739021) (-51)), (f 0 0)⟩, .com⟩ : DItv)).2 : DItv)]))),
    .call ((Cmd.run (.opD [(⟨⟨(f (5764607523034235) (-59)), .pinf⟩, .dac⟩ : DItv), (⟨⟨(f (-4728779608739021) (-51)), (f 0 0)⟩, .com⟩ : DItv)]))),
    .call (do (Cmd.run (.opD [(⟨⟨(f (5764607523034235) (-59)), .pinf⟩, .dac⟩ : DItv), (⟨⟨(f (-4728779608739021) (-51)), (f 0 0)⟩, .com⟩ : DItv)])); (Cmd.run (.opD [((DItv.mulRevToPair binary64 (⟨⟨(f (5764607523034235) (-59)), .pinf⟩, .dac⟩ : DItv) (⟨⟨(f (-4728779608739021) (-51)), (f 0 0)⟩, .com⟩ : DItv)).2 : DItv)]))),
    .call ((Cmd.run (.opD [(⟨⟨.ninf, .pinf⟩, .dac⟩ : DItv), (⟨⟨(f (-4728779608739021) (-51)), (f 0 0)⟩, .com⟩ : DItv)]))),
    .call (do (Cmd.run (.opD [(⟨⟨.ninf, .pinf⟩, .dac⟩ : DItv), (⟨⟨(f (-4728779608739021) (-51)), (f 0 0)⟩, .com⟩ : DItv)])); (Cmd.run (.opD [((DItv.mulRevToPair binary64 (⟨⟨.ninf, .pinf⟩, .dac⟩ : DItv) (⟨⟨(f (-4728779608739021) (-51)), (f 0 0)⟩, .com⟩ : DItv)).2 : DItv)]))),
    .call ((Cmd.run (.opD [(⟨⟨(f (-2) (0)), (f (-3602879701896397) (-55))⟩, .defd⟩ : DItv), (⟨⟨(f (-4728779608739021) (-51)), (f (1080863910568919) (-53))⟩, .dac⟩ : DItv)]))),
    .call (do (Cmd.run (.opD [(⟨⟨(f (-2) (0)), (f (-3602879701896397) (-55))⟩, .defd⟩ : DItv), (⟨⟨(f (-4728779608739021) (-51)), (f (1080863910568919) (-53))⟩, .dac⟩ : DItv)])); (Cmd.run (.opD [((DItv.mulRevToPair binary64 (⟨⟨(f (-2) (0)), (f (-3602879701896397) (-55))⟩, .defd⟩ : DItv) (⟨⟨(f (-4728779608739021) (-51)), (f (1080863910568919) (-53))⟩, .dac⟩ : DItv)).2 : DItv)]))),
    .call ((Cmd.run (.opD [(⟨⟨(f (-2) (0)), (f 0 0)⟩, .defd⟩ : DItv), (⟨⟨(f (-4728779608739021) (-51)), (f (1080863910568919) (-53))⟩, .dac⟩ : DItv)]))),
    .call (do (Cmd.run (.opD [(⟨⟨(f (-2) (0)), (f 0 0)⟩, .defd⟩ : DItv), (⟨⟨(f (-4728779608739021) (-51)), (f (1080863910568919) (-53))⟩, .dac⟩ : DItv)])); (Cmd.run (.opD [((DItv.mulRevToPair binary64 (⟨⟨(f (-2) (0)), (f 0 0)⟩, .defd⟩ : DItv) (⟨⟨(f (-4728779608739021) (-51)), (f (1080863910568919) (-53))⟩, .dac⟩ : DItv)).2 : DItv)]))),
    .call ((Cmd.run (.opD [(⟨⟨(f (-2) (0)), (f (2476979795053773) (-51))⟩, .defd⟩ : DItv), (⟨⟨(f (-4728779608739021) (-51)), (f (1080863910568919) (-53))⟩, .dac⟩ : DItv)]))),
    .call (do (Cmd.run (.opD [(⟨⟨(f (-2) (0)), (f (2476979795053773) (-51))⟩, .defd⟩ : DItv), (⟨⟨(f (-4728779608739021) (-51)), (f (1080863910568919) (-53))⟩, .dac⟩ : DItv)])); (Cmd.run (.opD [((DItv.mulRevToPair binary64 (⟨⟨(f (-2) (0)), (f (2476979795053773) (-51))⟩, .defd⟩ : DItv) (⟨⟨(f (-4728779608739021) (-51)), (f (1080863910568919) (-53))⟩, .dac⟩ : DItv)).2 : DItv)]))),
    .call ((Cmd.run (.opD [(⟨⟨(f 0 0), (f (2476979795053773) (-51))⟩, .defd⟩ : DItv), (⟨⟨(f (-4728779608739021) (-51)), (f (1080863910568919) (-53))⟩, .dac⟩ : DItv)]))),
    .call (do (Cmd.run (.opD [(⟨⟨(f 0 0), (f (2476979795053773) (-51))⟩, .defd⟩ : DItv), (⟨⟨(f (-4728779608739021) (-51)), (f (1080863910568919) (-53))⟩, .dac⟩ : DItv)])); (Cmd.run (.opD [((DItv.mulRevToPair binary64 (⟨⟨(f 0 0), (f (2476979795053773) (-51))⟩, .defd⟩ : DItv) (⟨⟨(f (-4728779608739021) (-51)), (f (1080863910568919) (-53))⟩, .dac⟩ : DItv)).2 : DItv)]))),
    .call ((Cmd.run (.opD [(⟨⟨(f (5764607523034235) (-59)), (f (2476979795053773) (-51))⟩, .defd⟩ : DItv), (⟨⟨(f (-4728779608739021) (-51)), (f (1080863910568919) (-53))⟩, .dac⟩ : DItv)]))),
    .call (do (Cmd.run (.opD [(⟨⟨(f (5764607523034235) (-59)), (f (2476979795053773) (-51))⟩, .defd⟩ : DItv), (⟨⟨(f (-4728779608739021) (-51)), (f (1080863910568919) (-53))⟩, .dac⟩ : DItv)])); (Cmd.run (.opD [((DItv.mulRevToPair binary64 (⟨⟨(f (5764607523034235) (-59)), (f (2476979795053773) (-51))⟩, .defd⟩ : DItv) (⟨⟨(f (-4728779608739021) (-51)), (f (1080863910568919) (-53))⟩, .dac⟩ : DItv)).2 : DItv)]))),
    .call ((Cmd.run (.opD [(⟨⟨(f 0 0), (f 0 0)⟩, .defd⟩ : DItv), (⟨⟨(f (-4728779608739021) (-51)), (f (1080863910568919) (-53))⟩, .dac⟩ : DItv)]))),
    .call (do (Cmd.run (.opD [(⟨⟨(f 0 0), (f 0 0)⟩, .defd⟩ : DItv), (⟨⟨(f (-4728779608739021) (-51)), (f (1080863910568919) (-53))⟩, .dac⟩ : DItv)])); (Cmd.run (.opD [((DItv.mulRevToPair binary64 (⟨⟨(f 0 0), (f 0 0)⟩, .defd⟩ : DItv) (⟨⟨(f (-4728779608739021) (-51)), (f (1080863910568919) (-53))⟩, .dac⟩ : DItv)).2 : DItv)]))),
    .call ((Cmd.run (.opD [(⟨⟨.ninf, (f (-3602879701896397) (-55))⟩, .defd⟩ : DItv), (⟨⟨(f (-4728779608739021) (-51)), (f (1080863910568919) (-53))⟩, .dac⟩ : DItv)]))),
    .call (do (Cmd.run (.opD [(⟨⟨.ninf, (f (-3602879701896397) (-55))⟩, .defd⟩ : DItv), (⟨⟨(f (-4728779608739021) (-51)), (f (1080863910568919) (-53))⟩, .dac⟩ : DItv)])); (Cmd.run (.opD [((DItv.mulRevToPair binary64 (⟨⟨.ninf, (f (-3602879701896397) (-55))⟩, .defd⟩ : DItv) (⟨⟨(f (-4728779608739021) (-51)), (f (1080863910568919) (-53))⟩, .dac⟩ : DItv)).2 : DItv)]))),
    .call ((Cmd.run (.opD [(⟨⟨.ninf, (f 0 0)⟩, .defd⟩ : DItv), (⟨⟨(f (-4728779608739021) (-51)), (f (1080863910568919) (-53))⟩, .dac⟩ : DItv)]))),
    .call (do (Cmd.run (.opD [(⟨⟨.ninf, (f 0 0)⟩, .defd⟩ : DItv), (⟨⟨(f (-4728779608739021) (-51)), (f (1080863910568919) (-53))⟩, .dac⟩ : DItv)])); (Cmd.run (.opD [((DItv.mulRevToPair binary64 (⟨⟨.ninf, (f 0 0)⟩, .defd⟩ : DItv) (⟨⟨(f (-4728779608739021) (-51)), (f (1080863910568919) (-53))⟩, .dac⟩ : DItv)).2 : DItv)]))),
    .call ((Cmd.run (.opD [(⟨⟨.ninf, (f (2476979795053773) (-51))⟩, .defd⟩ : DItv), (⟨⟨(f (-4728779608739021) (-51)), (f (1080863910568919) (-53))⟩, .dac⟩ : DItv)]))),
    .call (do (Cmd.run (.opD [(⟨⟨.ninf, (f (2476979795053773) (-51))⟩, .defd⟩ : DItv), (⟨⟨(f (-4728779608739021) (-51)), (f (1080863910568919) (-53))⟩, .dac⟩ : DItv)])); (Cmd.run (.opD [((DItv.mulRevToPair binary64 (⟨⟨.ninf, (f (2476979795053773) (-51))⟩, .defd⟩ : DItv) (⟨⟨(f (-4728779608739021) (-51)), (f (1080863910568919) (-53))⟩, .dac⟩ : DItv)).2 : DItv)]))),
    .call ((Cmd.run (.opD [(⟨⟨(f (-2) (0)), .pinf⟩, .defd⟩ : DItv), (⟨⟨(f (-4728779608739021) (-51)), (f (1080863910568919) (-53))⟩, .dac⟩ : DItv)]))),
    .call (do (Cmd.run (.opD [(⟨⟨(f (-2) (0)), .pinf⟩, .defd⟩ : DItv), (⟨⟨(f (-4728779608739021) (-51)), (f (1080863910568919) (-53))⟩, .dac⟩ : DItv)])); (Cmd.run (.opD [((DItv.mulRevToPair binary64 (⟨⟨(f (-2) (0)), .pinf⟩, .defd⟩ : DItv) (⟨⟨(f (-4728779608739021) (-51)), (f (1080863910568919) (-53))⟩, .dac⟩ : DItv)).2 : DItv)]))),
    .call ((Cmd.run (.opD [(⟨⟨(f 0 0), .pinf⟩, .defd⟩ : DItv), (⟨⟨(f (-4728779608739021) (-51)), (f (1080863910568919) (-53))⟩, .dac⟩ : DItv)]))),
    .call (do (Cmd.run (.opD [(⟨⟨(f 0 0), .pinf⟩, .defd⟩ : DItv), (⟨⟨(f (-4728779608739021) (-51)), (f (1080863910568919) (-53))⟩, .dac⟩ : DItv)])); (Cmd.run (.opD [((DItv.mulRevToPair binary64 (⟨⟨(f 0 0), .pinf⟩, .defd⟩ : DItv) (⟨⟨(f (-4728779608739021) (-51)), (f (1080863910568919) (-53))⟩, .dac⟩ : DItv)).2 : DItv)]))),
    .call ((Cmd.run (.opD [(⟨⟨(f (5764607523034235) (-59)), .pinf⟩, .defd⟩ : DItv), (⟨⟨(f (-4728779608739021) (-51)), (f (1080863910568919) (-53))⟩, .dac⟩ : DItv)]))),
    .call (do (Cmd.run (.opD [(⟨⟨(f (5764607523034235) (-59)), .pinf⟩, .defd⟩ : DItv), (⟨⟨(f (-4728779608739021) (-51)), (f (1080863910568919) (-53))⟩, .dac⟩ : DItv)])); (Cmd.run (.opD [((DItv.mulRevToPair binary64 (⟨⟨(f (5764607523034235) (-59)), .pinf⟩, .defd⟩ : DItv) (⟨⟨(f (-4728779608739021) (-51)), (f (1080863910568919) (-53))⟩, .dac⟩ : DItv)).2 : DItv)]))),
    .call ((Cmd.run (.opD [(⟨⟨.ninf, .pinf⟩, .defd⟩ : DItv), (⟨⟨(f (-4728779608739021) (-51)), (f (1080863910568919) (-53))⟩, .dac⟩ : DItv)]))),
    .call (do (Cmd.run (.opD [(⟨⟨.ninf, .pinf⟩, .defd⟩ : DItv), (⟨⟨(f (-4728779608739021) (-51)), (f (1080863910568919) (-53))⟩, .dac⟩ : DItv)])); (Cmd.run (.opD [((DItv.mulRevToPair binary64 (⟨⟨.ninf, .pinf⟩, .defd⟩ : DItv) (⟨⟨(f (-4728779608739021) (-51)), (f (1080863910568919) (-53))⟩, .dac⟩ : DItv)).2 : DItv)]))),
    .call ((Cmd.run (.opD [(⟨⟨(f (-2) (0)), (f (-3602879701896397) (-55))⟩, .com⟩ : DItv), (⟨⟨(f 0 0), (f (1080863910568919) (-53))⟩, .com⟩ : DItv)]))),
    .call (do (Cmd.run (.opD [(⟨⟨(f (-2) (0)), (f (-3602879701896397) (-55))⟩, .com⟩ : DItv), (⟨⟨(f 0 0), (f (1080863910568919) (-53))⟩, .com⟩ : DItv)])); (Cmd.run (.opD [((DItv.mulRevToPair binary64 (⟨⟨(f (-2) (0)), (f (-3602879701896397) (-55))⟩, .com⟩ : DItv) (⟨⟨(f 0 0), (f (1080863910568919) (-53))⟩, .com⟩ : DItv)).2 : DItv)]))),
    .call ((Cmd.run (.opD [(⟨⟨(f (-2) (0)), (f 0 0)⟩, .com⟩ : DItv), (⟨⟨(f 0 0), (f (1080863910568919) (-53))⟩, .com⟩ : DItv)]))),
    .call (do (Cmd.run (.opD [(⟨⟨(f (-2) (0)), (f 0 0)⟩, .com⟩ : DItv), (⟨⟨(f 0 0), (f (1080863910568919) (-53))⟩, .com⟩ : DItv)])); (Cmd.run (.opD [((DItv.mulRevToPair binary64 (⟨⟨(f (-2) (0)), (f 0 0)⟩, .com⟩ : DItv) (⟨⟨(f 0 0), (f (1080863910568919) (-53))⟩, .com⟩ : DItv)).2 : DItv)]))),
    .call ((Cmd.run (.opD [(⟨⟨(f (-2) (0)), (f (2476979795053773) (-51))⟩, .com⟩ : DItv), (⟨⟨(f 0 0), (f (1080863910568919) (-53))⟩, .com⟩ : DItv)]))),
    .call (do (Cmd.run (.opD [(⟨⟨(f (-2) (0)), (f (2476979795053773) (-51))⟩, .com⟩ : DItv), (⟨⟨(f 0 0), (f (1080863910568919) (-53))⟩, .com⟩ : DItv)])); (Cmd.run (.opD [((DItv.mulRevToPair binary64 (⟨⟨(f (-2) (0)), (f (2476979795053773) (-51))⟩, .com⟩ : DItv) (⟨⟨(f 0 0), (f (1080863910568919) (-53))⟩, .com⟩ : DItv)).2 : DItv)]))),
    .call ((Cmd.run (.opD [(⟨⟨(f 0 0), (f (2476979795053773) (-51))⟩, .com⟩ : DItv), (⟨⟨(f 0 0), (f (1080863910568919) (-53))⟩, .com⟩ : DItv)]))),
    .call (do (Cmd.run (.opD [(⟨⟨(f 0 0), (f (2476979795053773) (-51))⟩, .com⟩ : DItv), (⟨⟨(f 0 0), (f (1080863910568919) (-53))⟩, .com⟩ : DItv)])); (Cmd.run (.opD [((DItv.mulRevToPair binary64 (⟨⟨(f 0 0), (f (2476979795053773) (-51))⟩, .com⟩ : DItv) (⟨⟨(f 0 0), (f (1080863910568919) (-53))⟩, .com⟩ : DItv)).2 : DItv)]))),
    .call ((Cmd.run (.opD [(⟨⟨(f (5764607523034235) (-59)), (f (2476979795053773) (-51))⟩, .com⟩ : DItv), (⟨⟨(f 0 0), (f (1080863910568919) (-53))⟩, .com⟩ : DItv)]))),
    .call (do (Cmd.run (.opD [(⟨⟨(f (5764607523034235) (-59)), (f (2476979795053773) (-51))⟩, .com⟩ : DItv), (⟨⟨(f 0 0), (f (1080863910568919) (-53))⟩, .com⟩ : DItv)])); (Cmd.run (.opD [((DItv.mulRevToPair binary64 (⟨⟨(f (5764607523034235) (-59)), (f (2476979795053773) (-51))⟩, .com⟩ : DItv) (⟨⟨(f 0 0), (f (1080863910568919) (-53))⟩, .com⟩ : DItv)).2 : DItv)]))),
    .call ((Cmd.run (.opD [(⟨⟨(f 0 0), (f 0 0)⟩, .com⟩ : DItv), (⟨⟨(f 0 0), (f (1080863910568919) (-53))⟩, .com⟩ : DItv)]))),
    .call (do (Cmd.run (.opD [(⟨⟨(f 0 0), (f 0 0)⟩, .com⟩ : DItv), (⟨⟨(f 0 0), (f (1080863910568919) (-53))⟩, .com⟩ : DItv)])); (Cmd.run (.opD [((DItv.mulRevToPair binary64 (⟨⟨(f 0 0), (f 0 0)⟩, .com⟩ : DItv) (⟨⟨(f 0 0), (f (1080863910568919) (-53))⟩, .com⟩ : DItv)).2 : DItv)]))),
    .call ((Cmd.run (.opD [(⟨⟨.ninf, (f (-3602879701896397) (-55))⟩, .dac⟩ : DItv), (⟨⟨(f 0 0), (f (1080863910568919) (-53))⟩, .com⟩ : DItv)]))),
    .call (do (Cmd.run (.opD [(⟨⟨.ninf, (f (-3602879701896397) (-55))⟩, .dac⟩ : DItv), (⟨⟨(f 0 0), (f (1080863910568919) (-53))⟩, .com⟩ : DItv)])); (Cmd.run (.opD [((DItv.mulRevToPair binary64 (⟨⟨.ninf, (f (-3602879701896397) (-55))⟩, .dac⟩ : DItv) (⟨⟨(f 0 0), (f (1080863910568919) (-53))⟩, .com⟩ : DItv)).2 : DItv)]))),
    .call ((Cmd.run (.opD [(⟨⟨.ninf, (f 0 0)⟩, .dac⟩ : DItv), (⟨⟨(f 0 0), (f (1080863910568919) (-53))⟩, .com⟩ : DItv)]))),
    .call (do (Cmd.run (.opD [(⟨⟨.ninf, (f 0 0)⟩, .dac⟩ : DItv), (⟨⟨(f 0 0), (f (1080863910568919) (-53))⟩, .com⟩ : DItv)])); (Cmd.run (.opD [((DItv.mulRevToPair binary64 (⟨⟨.ninf, (f 0 0)⟩, .dac⟩ : DItv) (⟨⟨(f 0 0), (f (1080863910568919) (-53))⟩, .com⟩ : DItv)).2 : DItv)]))),
    .call ((Cmd.run (.opD [(⟨⟨.ninf, (f (2476979795053773) (-51))⟩, .dac⟩ : DItv), (⟨⟨(f 0 0), (f (1080863910568919) (-53))⟩, .com⟩ : DItv)]))),
    .call (do (Cmd.run (.opD [(⟨⟨.ninf, (f (2476979795053773) (-51))⟩, .dac⟩ : DItv), (⟨⟨(f 0 0), (f (1080863910568919) (-53))⟩, .com⟩ : DItv)])); (Cmd.run (.opD [((DItv.mulRevToPair binary64 (⟨⟨.ninf, (f (2476979795053773) (-51))⟩, .dac⟩ : DItv) (⟨⟨(f 0 0), (f (1080863910568919) (-53))⟩, .com⟩ : DItv)).2 : DItv)]))),
    .call ((Cmd.run (.opD [(⟨⟨(f (-2) (0)), .pinf⟩, .dac⟩ : DItv), (⟨⟨(f 0 0), (f (1080863910568919) (-53))⟩, .com⟩ : DItv)]))),
    .call (do (Cmd.run (.opD [(⟨⟨(f (-2) (0)), .pinf⟩, .dac⟩ : DItv), (⟨⟨(f 0 0), (f (1080863910568919) (-53))⟩, .com⟩ : DItv)])); (Cmd.run (.opD [((DItv.mulRevToPair binary64 (⟨⟨(f (-2) (0)), .pinf⟩, .dac⟩ : DItv) (⟨⟨(f 0 0), (f (1080863910568919) (-53))⟩, .com⟩ : DItv)).2 : DItv)]))),
    .call ((Cmd.run (.opD [(⟨⟨(f 0 0), .pinf⟩, .dac⟩ : DItv), (⟨⟨(f 0 0), (f (1080863910568919) (-53))⟩, .com⟩ : DItv)]))),
    .call (do (Cmd.run (.opD [(⟨⟨(f 0 0), .pinf⟩, .dac⟩ : DItv), (⟨⟨(f 0 0), (f (1080863910568919) (-53))⟩, .com⟩ : DItv)])); (Cmd.run (.opD [((DItv.mulRevToPair binary64 (⟨⟨(f 0 0), .pinf⟩, .dac⟩ : DItv) (⟨⟨(f 0 0), (f (1080863910568919) (-53))⟩, .com⟩ : DItv)).2 : DItv)]))),
    .call ((Cmd.run (.opD [(⟨⟨(f (5764607523034235) (-59)), .pinf⟩, .dac⟩ : DItv), (⟨⟨(f 0 0), (f (1080863910568919) (-53))⟩, .com⟩ : DItv)]))),
    .call (do (Cmd.run (.opD [(⟨⟨(f (5764607523034235) (-59)), .pinf⟩, .dac⟩ : DItv), (⟨⟨(f 0 0), (f (1080863910568919) (-53))⟩, .com⟩ : DItv)])); (Cmd.run (.opD [((DItv.mulRevToPair binary64 (⟨⟨(f (5764607523034235) (-59)), .pinf⟩, .dac⟩ : DItv) (⟨⟨(f 0 0), (f (1080863910568919) (-53))⟩, .com⟩ : DItv)).2 : DItv)]))),
    .call ((Cmd.run (.opD [(⟨⟨.ninf, .pinf⟩, .dac⟩ : DItv), (⟨⟨(f 0 0), (f (1080863910568919) (-53))⟩, .com⟩ : DItv)]))),
    .call (do (Cmd.run (.opD [(⟨⟨.ninf, .pinf⟩, .dac⟩ : DItv), (⟨⟨(f 0 0), (f (1080863910568919) (-53))⟩, .com⟩ : DItv)])); (Cmd.run (.opD [((DItv.mulRevToPair binary64 (⟨⟨.ninf, .pinf⟩, .dac⟩ : DItv) (⟨⟨(f 0 0), (f (1080863910568919) (-53))⟩, .com⟩ : DItv)).2 : DItv)]))),
    .call ((Cmd.run (.opD [(⟨⟨(f (-2) (0)), (f (-3602879701896397) (-55))⟩, .dac⟩ : DItv), (⟨⟨(f (5764607523034235) (-59)), (f (1080863910568919) (-53))⟩, .dac⟩ : DItv)]))),
    .call (do (Cmd.run (.opD [(⟨⟨(f (-2) (0)), (f (-3602879701896397) (-55))⟩, .dac⟩ : DItv), (⟨⟨(f (5764607523034235) (-59)), (f (1080863910568919) (-53))⟩, .dac⟩ : DItv)])); (Cmd.run (.opD [((DItv.mulRevToPair binary64 (⟨⟨(f (-2) (0)), (f (-3602879701896397) (-55))⟩, .dac⟩ : DItv) (⟨⟨(f (5764607523034235) (-59)), (f (1080863910568919) (-53))⟩, .dac⟩ : DItv)).2 : DItv)]))),
    .call ((Cmd.run (.opD [(⟨⟨(f (-2) (0)), (f 0 0)⟩, .dac⟩ : DItv), (⟨⟨(f (5764607523034235) (-59)), (f (1080863910568919) (-53))⟩, .dac⟩ : DItv)]))),
    .call (do (Cmd.run (.opD [(⟨⟨(f (-2) (0)), (f 0 0)⟩, .dac⟩ : DItv), (⟨⟨(f (5764607523034235) (-59)), (f (1080863910568919) (-53))⟩, .dac⟩ : DItv)])); (Cmd.run (.opD [((DItv.mulRevToPair binary64 (⟨⟨(f (-2) (0)), (f 0 0)⟩, .dac⟩ : DItv) (⟨⟨(f (5764607523034235) (-59)), (f (1080863910568919) (-53))⟩, .dac⟩ : DItv)).2 : DItv)]))),
    .call ((Cmd.run (.opD [(⟨⟨(f (-2) (0)), (f (2476979795053773) (-51))⟩, .dac⟩ : DItv), (⟨⟨(f (5764607523034235) (-59)), (f (1080863910568919) (-53))⟩, .dac⟩ : DItv)]))),
    .call ((Cmd.run (.opD [(⟨⟨(f (-2) (0)), (f (2476979795053773) (-51))⟩, .dac⟩ : DItv), (⟨⟨(f (5764607523034235) (-59)), (f (1080863910568919) (-53))⟩, .dac⟩ : DItv)]))),
    .call ((Cmd.run (.opD [(⟨⟨(f 0 0), (f (2476979795053773) (-51))⟩, .dac⟩ : DItv), (⟨⟨(f (5764607523034235) (-59)), (f (1080863910568919) (-53))⟩, .dac⟩ : DItv)]))),
    .call (do (Cmd.run (.opD [(⟨⟨(f 0 0), (f (2476979795053773) (-51))⟩, .dac⟩ : DItv), (⟨⟨(f (5764607523034235) (-59)), (f (1080863910568919) (-53))⟩, .dac⟩ : DItv)])); (Cmd.run (.opD [((DItv.mulRevToPair binary64 (⟨⟨(f 0 0), (f (2476979795053773) (-51))⟩, .dac⟩ : DItv) (⟨⟨(f (5764607523034235) (-59)), (f (1080863910568919) (-53))⟩, .dac⟩ : DItv)).2 : DItv)]))),
    .call ((Cmd.run (.opD [(⟨⟨(f (5764607523034235) (-59)), (f (2476979795053773) (-51))⟩, .dac⟩ : DItv), (⟨⟨(f (5764607523034235) (-59)), (f (1080863910568919) (-53))⟩, .dac⟩ : DItv)]))),
    .call (do (Cmd.run (.opD [(⟨⟨(f (5764607523034235) (-59)), (f (2476979795053773) (-51))⟩, .dac⟩ : DItv), (⟨⟨(f (5764607523034235) (-59)), (f (1080863910568919) (-53))⟩, .dac⟩ : DItv)])); (Cmd.run (.opD [((DItv.mulRevToPair binary64 (⟨⟨(f (5764607523034235) (-59)), (f (2476979795053773) (-51))⟩, .dac⟩ : DItv) (⟨⟨(f (5764607523034235) (-59)), (f (1080863910568919) (-53))⟩, .dac⟩ : DItv)).2 : DItv)]))),
    .call (do (Cmd.run (.opD [(⟨⟨(f 0 0), (f 0 0)⟩, .dac⟩ : DItv), (⟨⟨(f (5764607523034235) (-59)), (f (1080863910568919) (-53))⟩, .dac⟩ : DItv)])); (Cmd.run (.opD [((DItv.mulRevToPair binary64 (⟨⟨(f 0 0), (f 0 0)⟩, .dac⟩ : DItv) (⟨⟨(f (5764607523034235) (-59)), (f (1080863910568919) (-53))⟩, .dac⟩ : DItv)).1 : DItv)]))),
    .call (do (Cmd.run (.opD [(⟨⟨(f 0 0), (f 0 0)⟩, .dac⟩ : DItv), (⟨⟨(f (5764607523034235) (-59)), (f (1080863910568919) (-53))⟩, .dac⟩ : DItv)])); (Cmd.run (.opD [((DItv.mulRevToPair binary64 (⟨⟨(f 0 0), (f 0 0)⟩, .dac⟩ : DItv) (⟨⟨(f (5764607523034235) (-59)), (f (1080863910568919) (-53))⟩, .dac⟩ : DItv)).2 : DItv)]))),
    .call ((Cmd.run (.opD [(⟨⟨.ninf, (f (-3602879701896397) (-55))⟩, .dac⟩ : DItv), (⟨⟨(f (5764607523034235) (-59)), (f (1080863910568919) (-53))⟩, .dac⟩ : DItv)]))),
    .call (do (Cmd.run (.opD [(⟨⟨.ninf, (f (-3602879701896397) (-55))⟩, .dac⟩ : DItv), (⟨⟨(f (5764607523034235) (-59)), (f (1080863910568919) (-53))⟩, .dac⟩ : DItv)])); (Cmd.run (.opD [((DItv.mulRevToPair binary64 (⟨⟨.ninf, (f (-3602879701896397) (-55))⟩, .dac⟩ : DItv) (⟨⟨(f (5764607523034235) (-59)), (f (1080863910568919) (-53))⟩, .dac⟩ : DItv)).2 : DItv)]))),
    .call ((Cmd.run (.opD [(⟨⟨.ninf, (f 0 0)⟩, .dac⟩ : DItv), (⟨⟨(f (5764607523034235) (-59)), (f (1080863910568919) (-53))⟩, .dac⟩ : DItv)]))),
    .call (do (Cmd.run (.opD [(⟨⟨.ninf, (f 0 0)⟩, .dac⟩ : DItv), (⟨⟨(f (5764607523034235) (-59)), (f (1080863910568919) (-53))⟩, .dac⟩ : DItv)])); (Cmd.run (.opD [((DItv.mulRevToPair binary64 (⟨⟨.ninf, (f 0 0)⟩, .dac⟩ : DItv) (⟨⟨(f (5764607523034235) (-59)), (f (1080863910568919) (-53))⟩, .dac⟩ : DItv)).2 : DItv)]))),
    .call ((Cmd.run (.opD [(⟨⟨.ninf, (f (2476979795053773) (-51))⟩, .dac⟩ : DItv), (⟨⟨(f (5764607523034235) (-59)), (f (1080863910568919) (-53))⟩, .dac⟩ : DItv)]))),
    .call ((Cmd.run (.opD [(⟨⟨.ninf, (f (2476979795053773) (-51))⟩, .dac⟩ : DItv), (⟨⟨(f (5764607523034235) (-59)), (f (1080863910568919) (-53))⟩, .dac⟩ : DItv)]))),
    .call ((Cmd.run (.opD [(⟨⟨(f (-2) (0)), .pinf⟩, .dac⟩ : DItv), (⟨⟨(f (5764607523034235) (-59)), (f (1080863910568919) (-53))⟩, .dac⟩ : DItv)]))),
    .call ((Cmd.run (.opD [(⟨⟨(f (-2) (0)), .pinf⟩, .dac⟩ : DItv), (⟨⟨(f (5764607523034235) (-59)), (f (1080863910568919) (-53))⟩, .dac⟩ : DItv)]))),
    .call ((Cmd.run (.opD [(⟨⟨(f 0 0), .pinf⟩, .dac⟩ : DItv), (⟨⟨(f (5764607523034235) (-59)), (f (1080863910568919) (-53))⟩, .dac⟩ : DItv)]))),
    .call (do (Cmd.run (.opD [(⟨⟨(f 0 0), .pinf⟩, .dac⟩ : DItv), (⟨⟨(f (5764607523034235) (-59)), (f (1080863910568919) (-53))⟩, .dac⟩ : DItv)])); (Cmd.run (.opD [((DItv.mulRevToPair binary64 (⟨⟨(f 0 0), .pinf⟩, .dac⟩ : DItv) (⟨⟨(f (5764607523034235) (-59)), (f (1080863910568919) (-53))⟩, .dac⟩ : DItv)).2 : DItv)]))),
    .call ((Cmd.run (.opD [(⟨⟨(f (5764607523034235) (-59)), .pinf⟩, .dac⟩ : DItv), (⟨⟨(f (5764607523034235) (-59)), (f (1080863910568919) (-53))⟩, .dac⟩ : DItv)]))),
    .call (do (Cmd.run (.opD [(⟨⟨(f (5764607523034235) (-59)), .pinf⟩, .dac⟩ : DItv), (⟨⟨(f (5764607523034235) (-59)), (f (1080863910568919) (-53))⟩, .dac⟩ : DItv)])); (Cmd.run (.opD [((DItv.mulRevToPair binary64 (⟨⟨(f (5764607523034235) (-59)), .pinf⟩, .dac⟩ : DItv) (⟨⟨(f (5764607523034235) (-59)), (f (1080863910568919) (-53))⟩, .dac⟩ : DItv)).2 : DItv)]))),
    .call ((Cmd.run (.opD [(⟨⟨.ninf, .pinf⟩, .dac⟩ : DItv), (⟨⟨(f (5764607523034235) (-59)), (f (1080863910568919) (-53))⟩, .dac⟩ : DItv)]))),
    .call ((Cmd.run (.opD [(⟨⟨.ninf, .pinf⟩, .dac⟩ : DItv), (⟨⟨(f (5764607523034235) (-59)), (f (1080863910568919) (-53))⟩, .dac⟩ : DItv)]))),
    .call ((Cmd.run (.opD [(⟨⟨(f (-2) (0)), (f (-3602879701896397) (-55))⟩, .com⟩ : DItv), (⟨⟨(f 0 0), (f 0 0)⟩, .com⟩ : DItv)]))),
    .call (do (Cmd.run (.opD [(⟨⟨(f (-2) (0)), (f (-3602879701896397) (-55))⟩, .com⟩ : DItv), (⟨⟨(f 0 0), (f 0 0)⟩, .com⟩ : DItv)])); (Cmd.run (.opD [((DItv.mulRevToPair binary64 (⟨⟨(f (-2) (0)), (f (-3602879701896397) (-55))⟩, .com⟩ : DItv) (⟨⟨(f 0 0), (f 0 0)⟩, .com⟩ : DItv)).2 : DItv)]))),
    .call ((Cmd.run (.opD [(⟨⟨(f (-2) (0)), (f 0 0)⟩, .com⟩ : DItv), (⟨⟨(f 0 0), (f 0 0)⟩, .com⟩ : DItv)]))),
    .call (do (Cmd.run (.opD [(⟨⟨(f (-2) (0)), (f 0 0)⟩, .com⟩ : DItv), (⟨⟨(f 0 0), (f 0 0)⟩, .com⟩ : DItv)])); (Cmd.run (.opD [((DItv.mulRevToPair binary64 (⟨⟨(f (-2) (0)), (f 0 0)⟩, .com⟩ : DItv) (⟨⟨(f 0 0), (f 0 0)⟩, .com⟩ : DItv)).2 : DItv)]))),
    .call ((Cmd.run (.opD [(⟨⟨(f (-2) (0)), (f (2476979795053773) (-51))⟩, .com⟩ : DItv), (⟨⟨(f 0 0), (f 0 0)⟩, .com⟩ : DItv)]))),
    .call (do (Cmd.run (.opD [(⟨⟨(f (-2) (0)), (f (2476979795053773) (-51))⟩, .com⟩ : DItv), (⟨⟨(f 0 0), (f 0 0)⟩, .com⟩ : DItv)])); (Cmd.run (.opD [((DItv.mulRevToPair binary64 (⟨⟨(f (-2) (0)), (f (2476979795053773) (-51))⟩, .com⟩ : DItv) (⟨⟨(f 0 0), (f 0 0)⟩, .com⟩ : DItv)).2 : DItv)]))),
    .call ((Cmd.run (.opD [(⟨⟨(f 0 0), (f (2476979795053773) (-51))⟩, .com⟩ : DItv), (⟨⟨(f 0 0), (f 0 0)⟩, .com⟩ : DItv)]))),
    .call (do (Cmd.run (.opD [(⟨⟨(f 0 0), (f (2476979795053773) (-51))⟩, .com⟩ : DItv), (⟨⟨(f 0 0), (f 0 0)⟩, .com⟩ : DItv)])); (Cmd.run (.opD [((DItv.mulRevToPair binary64 (⟨⟨(f 0 0), (f (2476979795053773) (-51))⟩, .com⟩ : DItv) (⟨⟨(f 0 0), (f 0 0)⟩, .com⟩ : DItv)).2 : DItv)]))),
    .call ((Cmd.run (.opD [(⟨⟨(f (5764607523034235) (-59)), (f (2476979795053773) (-51))⟩, .com⟩ : DItv), (⟨⟨(f 0 0), (f 0 0)⟩, .com⟩ : DItv)]))),
    .call (do (Cmd.run (.opD [(⟨⟨(f (5764607523034235) (-59)), (f (2476979795053773) (-51))⟩, .com⟩ : DItv), (⟨⟨(f 0 0), (f 0 0)⟩, .com⟩ : DItv)])); (Cmd.run (.opD [((DItv.mulRevToPair binary64 (⟨⟨(f (5764607523034235) (-59)), (f (2476979795053773) (-51))⟩, .com⟩ : DItv) (⟨⟨(f 0 0), (f 0 0)⟩, .com⟩ : DItv)).2 : DItv)]))),
    .call ((Cmd.run (.opD [(⟨⟨(f 0 0), (f 0 0)⟩, .com⟩ : DItv), (⟨⟨(f 0 0), (f 0 0)⟩, .com⟩ : DItv)]))),
    .call (do (Cmd.run (.opD [(⟨⟨(f 0 0), (f 0 0)⟩, .com⟩ : DItv), (⟨⟨(f 0 0), (f 0 0)⟩, .com⟩ : DItv)])); (Cmd.run (.opD [((DItv.mulRevToPair binary64 (⟨⟨(f 0 0), (f 0 0)⟩, .com⟩ : DItv) (⟨⟨(f 0 0), (f 0 0)⟩, .com⟩ : DItv)).2 : DItv)]))),
    .call ((Cmd.run (.opD [(⟨⟨.ninf, (f (-3602879701896397) (-55))⟩, .dac⟩ : DItv), (⟨⟨(f 0 0), (f 0 0)⟩, .com⟩ : DItv)]))),
    .call (do (Cmd.run (.opD [(⟨⟨.ninf, (f (-3602879701896397) (-55))⟩, .dac⟩ : DItv), (⟨⟨(f 0 0), (f 0 0)⟩, .com⟩ : DItv)])); (Cmd.run (.opD [((DItv.mulRevToPair binary64 (⟨⟨.ninf, (f (-3602879701896397) (-55))⟩, .dac⟩ : DItv) (⟨⟨(f 0 0), (f 0 0)⟩, .com⟩ : DItv)).2 : DItv)]))),
    .call ((Cmd.run (.opD [(⟨⟨.ninf, (f 0 0)⟩, .dac⟩ : DItv), (⟨⟨(f 0 0), (f 0 0)⟩, .com⟩ : DItv)]))),
    .call (do (Cmd.run (.opD [(⟨⟨.ninf, (f 0 0)⟩, .dac⟩ : DItv), (⟨⟨(f 0 0), (f 0 0)⟩, .com⟩ : DItv)])); (Cmd.run (.opD [((DItv.mulRevToPair binary64 (⟨⟨.ninf, (f 0 0)⟩, .dac⟩ : DItv) (⟨⟨(f 0 0), (f 0 0)⟩, .com⟩ : DItv)).2 : DItv)]))),
    .call ((Cmd.run (.opD [(⟨⟨.ninf, (f (2476979795053773) (-51))⟩, .dac⟩ : DItv), (⟨⟨(f 0 0), (f 0 0)⟩, .com⟩ : DItv)]))),
    .call (do (Cmd.run (.opD [(⟨⟨.ninf, (f (2476979795053773) (-51))⟩, .dac⟩ : DItv), (⟨⟨(f 0 0), (f 0 0)⟩, .com⟩ : DItv)])); (Cmd.run (.opD [((DItv.mulRevToPair binary64 (⟨⟨.ninf, (f (2476979795053773) (-51))⟩, .dac⟩ : DItv) (⟨⟨(f 0 0), (f 0 0)⟩, .com⟩ : DItv)).2 : DItv)]))),
    .call ((Cmd.run (.opD [(⟨⟨(f (-2) (0)), .pinf⟩, .dac⟩ : DItv), (⟨⟨(f 0 0), (f 0 0)⟩, .com⟩ : DItv)]))),
    .call (do (Cmd.run (.opD [(⟨⟨(f (-2) (0)), .pinf⟩, .dac⟩ : DItv), (⟨⟨(f 0 0), (f 0 0)⟩, .com⟩ : DItv)])); (Cmd.run (.opD [((DItv.mulRevToPair binary64 (⟨⟨(f (-2) (0)), .pinf⟩, .dac⟩ : DItv) (⟨⟨(f 0 0), (f 0 0)⟩, .com⟩ : DItv)).2 : DItv)]))),
    .call ((Cmd.run (.opD [(⟨⟨(f 0 0), .pinf⟩, .dac⟩ : DItv), (⟨⟨(f 0 0), (f 0 0)⟩, .com⟩ : DItv)]))),
    .call (do (Cmd.run (.opD [(⟨⟨(f 0 0), .pinf⟩, .dac⟩ : DItv), (⟨⟨(f 0 0), (f 0 0)⟩, .com⟩ : DItv)])); (Cmd.run (.opD [((DItv.mulRevToPair binary64 (⟨⟨(f 0 0), .pinf⟩, .dac⟩ : DItv) (⟨⟨(f 0 0), (f 0 0)⟩, .com⟩ : DItv)).2 : DItv)]))),
    .call ((Cmd.run (.opD [(⟨⟨(f (5764607523034235) (-59)), .pinf⟩, .dac⟩ : DItv), (⟨⟨(f 0 0), (f 0 0)⟩, .com⟩ : DItv)]))),
    .call (do (Cmd.run (.opD [(⟨⟨(f (5764607523034235) (-59)), .pinf⟩, .dac⟩ : DItv), (⟨⟨(f 0 0), (f 0 0)⟩, .com⟩ : DItv)])); (Cmd.run (.opD [((DItv.mulRevToPair binary64 (⟨⟨(f (5764607523034235) (-59)), .pinf⟩, .dac⟩ : DItv) (⟨⟨(f 0 0), (f 0 0)⟩, .com⟩ : DItv)).2 : DItv)]))),
    .call ((Cmd.run (.opD [(⟨⟨.ninf, .pinf⟩, .dac⟩ : DItv), (⟨⟨(f 0 0), (f 0 0)⟩, .com⟩ : DItv)]))),
    .call (do (Cmd.run (.opD [(⟨⟨.ninf, .pinf⟩, .dac⟩ : DItv), (⟨⟨(f 0 0), (f 0 0)⟩, .com⟩ : DItv)])); (Cmd.run (.opD [((DItv.mulRevToPair binary64 (⟨⟨.ninf, .pinf⟩, .dac⟩ : DItv) (⟨⟨(f 0 0), (f 0 0)⟩, .com⟩ : DItv)).2 : DItv)]))),
    .call ((Cmd.run (.opD [(⟨⟨(f (-2) (0)), (f (-3602879701896397) (-55))⟩, .dac⟩ : DItv), (⟨⟨.ninf, (f (-3602879701896397) (-55))⟩, .dac⟩ : DItv)]))),
    .call (do (Cmd.run (.opD [(⟨⟨(f (-2) (0)), (f (-3602879701896397) (-55))⟩, .dac⟩ : DItv), (⟨⟨.ninf, (f (-3602879701896397) (-55))⟩, .dac⟩ : DItv)])); (Cmd.run (.opD [((DItv.mulRevToPair binary64 (⟨⟨(f (-2) (0)), (f (-3602879701896397) (-55))⟩, .dac⟩ : DItv) (⟨⟨.ninf, (f (-3602879701896397) (-55))⟩, .dac⟩ : DItv)).2 : DItv)]))),
    .call ((Cmd.run (.opD [(⟨⟨(f (-2) (0)), (f 0 0)⟩, .dac⟩ : DItv), (⟨⟨.ninf, (f (-3602879701896397) (-55))⟩, .dac⟩ : DItv)]))),
    .call (do (Cmd.run (.opD [(⟨⟨(f (-2) (0)), (f 0 0)⟩, .dac⟩ : DItv), (⟨⟨.ninf, (f (-3602879701896397) (-55))⟩, .dac⟩ : DItv)])); (Cmd.run (.opD [((DItv.mulRevToPair binary64 (⟨⟨(f (-2) (0)), (f 0 0)⟩, .dac⟩ : DItv) (⟨⟨.ninf, (f (-3602879701896397) (-55))⟩, .dac⟩ : DItv)).2 : DItv)]))),
    .call ((Cmd.run (.opD [(⟨⟨(f (-2) (0)), (f (2476979795053773) (-51))⟩, .dac⟩ : DItv), (⟨⟨.ninf, (f (-3602879701896397) (-55))⟩, .dac⟩ : DItv)]))),
    .call ((Cmd.run (.opD [(⟨⟨(f (-2) (0)), (f (2476979795053773) (-51))⟩, .dac⟩ : DItv), (⟨⟨.ninf, (f (-3602879701896397) (-55))⟩, .dac⟩ : DItv)]))),
    .call ((Cmd.run (.opD [(⟨⟨(f 0 0), (f (2476979795053773) (-51))⟩, .dac⟩ : DItv), (⟨⟨.ninf, (f (-3602879701896397) (-55))⟩, .dac⟩ : DItv)]))),
    .call (do (Cmd.run (.opD [(⟨⟨(f 0 0), (f (2476979795053773) (-51))⟩, .dac⟩ : DItv), (⟨⟨.ninf, (f (-3602879701896397) (-55))⟩, .dac⟩ : DItv)])); (Cmd.run (.opD [((DItv.mulRevToPair binary64 (⟨⟨(f 0 0), (f (2476979795053773) (-51))⟩, .dac⟩ : DItv) (⟨⟨.ninf, (f (-3602879701896397) (-55))⟩, .dac⟩ : DItv)).2 : DItv)]))),
    .call ((Cmd.run (.opD [(⟨⟨(f (5764607523034235) (-59)), (f (2476979795053773) (-51))⟩, .dac⟩ : DItv), (⟨⟨.ninf, (f (-3602879701896397) (-55))⟩, .dac⟩ : DItv)]))),
    .call (do (Cmd.run (.opD [(⟨⟨(f (5764607523034235) (-59)), (f (2476979795053773) (-51))⟩, .dac⟩ : DItv), (⟨⟨.ninf, (f (-3602879701896397) (-55))⟩, .dac⟩ : DItv)])); (Cmd.run (.opD [((DItv.mulRevToPair binary64 (⟨⟨(f (5764607523034235) (-59)), (f (2476979795053773) (-51))⟩, .dac⟩ : DItv) (⟨⟨.ninf, (f (-3602879701896397) (-55))⟩, .dac⟩ : DItv)).2 : DItv)]))),
    .call (do (Cmd.run (.opD [(⟨⟨(f 0 0), (f 0 0)⟩, .dac⟩ : DItv), (⟨⟨.ninf, (f (-3602879701896397) (-55))⟩, .dac⟩ : DItv)])); (Cmd.run (.opD [((DItv.mulRevToPair binary64 (⟨⟨(f 0 0), (f 0 0)⟩, .dac⟩ : DItv) (⟨⟨.ninf, (f (-3602879701896397) (-55))⟩, .dac⟩ : DItv)).1 : DItv)]))),
    .call (do (Cmd.run (.opD [(⟨⟨(f 0 0), (f 0 0)⟩, .dac⟩ : DItv), (⟨⟨.ninf, (f (-3602879701896397) (-55))⟩, .dac⟩ : DItv)])); (Cmd.run (.opD [((DItv.mulRevToPair binary64 (⟨⟨(f 0 0), (f 0 0)⟩, .dac⟩ : DItv) (⟨⟨.ninf, (f (-3602879701896397) (-55))⟩, .dac⟩ : DItv)).2 : DItv)]))),
    .call ((Cmd.run (.opD [(⟨⟨.ninf, (f (-3602879701896397) (-55))⟩, .dac⟩ : DItv), (⟨⟨.ninf, (f (-3602879701896397) (-55))⟩, .dac⟩ : DItv)]))),
    .call (do (Cmd.run (.opD [(⟨⟨.ninf, (f (-3602879701896397) (-55))⟩, .dac⟩ : DItv), (⟨⟨.ninf, (f (-3602879701896397) (-55))⟩, .dac⟩ : DItv)])); (Cmd.run (.opD [((DItv.mulRevToPair binary64 (⟨⟨.ninf, (f (-3602879701896397) (-55))⟩, .dac⟩ : DItv) (⟨⟨.ninf, (f (-3602879701896397) (-55))⟩, .dac⟩ : DItv)).2 : DItv)]))),
    .call ((Cmd.run (.opD [(⟨⟨.ninf, (f 0 0)⟩, .dac⟩ : DItv), (⟨⟨.ninf, (f (-3602879701896397) (-55))⟩, .dac⟩ : DItv)]))),
    .call (do (Cmd.run (.opD [(⟨⟨.ninf, (f 0 0)⟩, .dac⟩ : DItv), (⟨⟨.ninf, (f (-3602879701896397) (-55))⟩, .dac⟩ : DItv)])); (Cmd.run (.opD [((DItv.mulRevToPair binary64 (⟨⟨.ninf, (f 0 0)⟩, .dac⟩ : DItv) (⟨⟨.ninf, (f (-3602879701896397) (-55))⟩, .dac⟩ : DItv)).2 : DItv)]))),
    .call ((Cmd.run (.opD [(⟨⟨.ninf, (f (2476979795053773) (-51))⟩, .dac⟩ : DItv), (⟨⟨.ninf, (f (-3602879701896397) (-55))⟩, .dac⟩ : DItv)]))),
    .call ((Cmd.run (.opD [(⟨⟨.ninf, (f (2476979795053773) (-51))⟩, .dac⟩ : DItv), (⟨⟨.ninf, (f (-3602879701896397) (-55))⟩, .dac⟩ : DItv)]))),
    .call ((Cmd.run (.opD [(⟨⟨(f (-2) (0)), .pinf⟩, .dac⟩ : DItv), (⟨⟨.ninf, (f (-3602879701896397) (-55))⟩, .dac⟩ : DItv)]))),
    .call ((Cmd.run (.opD [(⟨⟨(f (-2) (0)), .pinf⟩, .dac⟩ : DItv), (⟨⟨.ninf, (f (-3602879701896397) (-55))⟩, .dac⟩ : DItv)]))),
    .call ((Cmd.run (.opD [(⟨⟨(f 0 0), .pinf⟩, .dac⟩ : DItv), (⟨⟨.ninf, (f (-3602879701896397) (-55))⟩, .dac⟩ : DItv)]))),
    .call (do (Cmd.run (.opD [(⟨⟨(f 0 0), .pinf⟩, .dac⟩ : DItv), (⟨⟨.ninf, (f (-3602879701896397) (-55))⟩, .dac⟩ : DItv)])); (Cmd.run (.opD [((DItv.mulRevToPair binary64 (⟨⟨(f 0 0), .pinf⟩, .dac⟩ : DItv) (⟨⟨.ninf, (f (-3602879701896397) (-55))⟩, .dac⟩ : DItv)).2 : DItv)]))),
    .call ((Cmd.run (.opD [(⟨⟨(f (5764607523034235) (-59)), .pinf⟩, .dac⟩ : DItv), (⟨⟨.ninf, (f (-3602879701896397) (-55))⟩, .dac⟩ : DItv)]))),
    .call (do (Cmd.run (.opD [(⟨⟨(f (5764607523034235) (-59)), .pinf⟩, .dac⟩ : DItv), (⟨⟨.ninf, (f (-3602879701896397) (-55))⟩, .dac⟩ : DItv)])); (Cmd.run (.opD [((DItv.mulRevToPair binary64 (⟨⟨(f (5764607523034235) (-59)), .pinf⟩, .dac⟩ : DItv) (⟨⟨.ninf, (f (-3602879701896397) (-55))⟩, .dac⟩ : DItv)).2 : DItv)]))),
    .call ((Cmd.run (.opD [(⟨⟨.ninf, .pinf⟩, .dac⟩ : DItv), (⟨⟨.ninf, (f (-3602879701896397) (-55))⟩, .dac⟩ : DItv)]))),
    .call ((Cmd.run (.opD [(⟨⟨.ninf, .pinf⟩, .dac⟩ : DItv), (⟨⟨.ninf, (f (-3602879701896397) (-55))⟩, .dac⟩ : DItv)]))),
    .call ((Cmd.run (.opD [(⟨⟨(f (-2) (0)), (f (-3602879701896397) (-55))⟩, .dac⟩ : DItv), (⟨⟨.ninf, (f 0 0)⟩, .dac⟩ : DItv)]))),
    .call (do (Cmd.run (.opD [(⟨⟨(f (-2) (0)), (f (-3602879701896397) (-55))⟩, .dac⟩ : DItv), (⟨⟨.ninf, (f 0 0)⟩, .dac⟩ : DItv)])); (Cmd.run (.opD [((DItv.mulRevToPair binary64 (⟨⟨(f (-2) (0)), (f (-3602879701896397) (-55))⟩, .dac⟩ : DItv) (⟨⟨.ninf, (f 0 0)⟩, .dac⟩ : DItv)).2 : DItv)]))),
    .call ((Cmd.run (.opD [(⟨⟨(f (-2) (0)), (f 0 0)⟩, .dac⟩ : DItv), (⟨⟨.ninf, (f 0 0)⟩, .dac⟩ : DItv)]))),
    .call (do (Cmd.run (.opD [(⟨⟨(f (-2) (0)), (f 0 0)⟩, .dac⟩ : DItv), (⟨⟨.ninf, (f 0 0)⟩, .dac⟩ : DItv)])); (Cmd.run (.opD [((DItv.mulRevToPair binary64 (⟨⟨(f (-2) (0)), (f 0 0)⟩, .dac⟩ : DItv) (⟨⟨.ninf, (f 0 0)⟩, .dac⟩ : DItv)).2 : DItv)]))),
    .call ((Cmd.run (.opD [(⟨⟨(f (-2) (0)), (f (2476979795053773) (-51))⟩, .dac⟩ : DItv), (⟨⟨.ninf, (f 0 0)⟩, .dac⟩ : DItv)]))),
    .call (do (Cmd.run (.opD [(⟨⟨(f (-2) (0)), (f (2476979795053773) (-51))⟩, .dac⟩ : DItv), (⟨⟨.ninf, (f 0 0)⟩, .dac⟩ : DItv)])); (Cmd.run (.opD [((DItv.mulRevToPair binary64 (⟨⟨(f (-2) (0)), (f (2476979795053773) (-51))⟩, .dac⟩ : DItv) (⟨⟨.ninf, (f 0 0)⟩, .dac⟩ : DItv)).2 : DItv)]))),
    .call ((Cmd.run (.opD [(⟨⟨(f 0 0), (f (2476979795053773) (-51))⟩, .dac⟩ : DItv), (⟨⟨.ninf, (f 0 0)⟩, .dac⟩ : DItv)]))),
    .call (do (Cmd.run (.opD [(⟨⟨(f 0 0), (f (2476979795053773) (-51))⟩, .dac⟩ : DItv), (⟨⟨.ninf, (f 0 0)⟩, .dac⟩ : DItv)])); (Cmd.run (.opD [((DItv.mulRevToPair binary64 (⟨⟨(f 0 0), (f (2476979795053773) (-51))⟩, .dac⟩ : DItv) (⟨⟨.ninf, (f 0 0)⟩, .dac⟩ : DItv)).2 : DItv)]))),
    .call ((Cmd.run (.opD [(⟨⟨(f (5764607523034235) (-59)), (f (2476979795053773) (-51))⟩, .dac⟩ : DItv), (⟨⟨.ninf, (f 0 0)⟩, .dac⟩ : DItv)]))),
    .call (do (Cmd.run (.opD [(⟨⟨(f (5764607523034235) (-59)), (f (2476979795053773) (-51))⟩, .dac⟩ : DItv), (⟨⟨.ninf, (f 0 0)⟩, .dac⟩ : DItv)])); (Cmd.run (.opD [((DItv.mulRevToPair binary64 (⟨⟨(f (5764607523034235) (-59)), (f (2476979795053773) (-51))⟩, .dac⟩ : DItv) (⟨⟨.ninf, (f 0 0)⟩, .dac⟩ : DItv)).2 : DItv)]))),
    .call ((Cmd.run (.opD [(⟨⟨(f 0 0), (f 0 0)⟩, .dac⟩ : DItv), (⟨⟨.ninf, (f 0 0)⟩, .dac⟩ : DItv)]))),
    .call (do (Cmd.run (.opD [(⟨⟨(f 0 0), (f 0 0)⟩, .dac⟩ : DItv), (⟨⟨.ninf, (f 0 0)⟩, .dac⟩ : DItv)])); (Cmd.run (.opD [((DItv.mulRevToPair binary64 (⟨⟨(f 0 0), (f 0 0)⟩, .dac⟩ : DItv) (⟨⟨.ninf, (f 0 0)⟩, .dac⟩ : DItv)).2 : DItv)]))),
    .call ((Cmd.run (.opD [(⟨⟨.ninf, (f (-3602879701896397) (-55))⟩, .dac⟩ : DItv), (⟨⟨.ninf, (f 0 0)⟩, .dac⟩ : DItv)]))),
    .call (do (Cmd.run (.opD [(⟨⟨.ninf, (f (-3602879701896397) (-55))⟩, .dac⟩ : DItv), (⟨⟨.ninf, (f 0 0)⟩, .dac⟩ : DItv)])); (Cmd.run (.opD [((DItv.mulRevToPair binary64 (⟨⟨.ninf, (f (-3602879701896397) (-55))⟩, .dac⟩ : DItv) (⟨⟨.ninf, (f 0 0)⟩, .dac⟩ : DItv)).2 : DItv)]))),
    .call ((Cmd.run (.opD [(⟨⟨.ninf, (f 0 0)⟩, .dac⟩ : DItv), (⟨⟨.ninf, (f 0 0)⟩, .dac⟩ : DItv)]))),
    .call (do (Cmd.run (.opD [(⟨⟨.ninf, (f 0 0)⟩, .dac⟩ : DItv), (⟨⟨.ninf, (f 0 0)⟩, .dac⟩ : DItv)])); (Cmd.run (.opD [((DItv.mulRevToPair binary64 (⟨⟨.ninf, (f 0 0)⟩, .dac⟩ : DItv) (⟨⟨.ninf, (f 0 0)⟩, .dac⟩ : DItv)).2 : DItv)]))),
    .call ((Cmd.run (.opD [(⟨⟨.ninf, (f (2476979795053773) (-51))⟩, .dac⟩ : DItv), (⟨⟨.ninf, (f 0 0)⟩, .dac⟩ : DItv)]))),
    .call (do (Cmd.run (.opD [(⟨⟨.ninf, (f (2476979795053773) (-51))⟩, .dac⟩ : DItv), (⟨⟨.ninf, (f 0 0)⟩, .dac⟩ : DItv)])); (Cmd.run (.opD [((DItv.mulRevToPair binary64 (⟨⟨.ninf, (f (2476979795053773) (-51))⟩, .dac⟩ : DItv) (⟨⟨.ninf, (f 0 0)⟩, .dac⟩ : DItv)).2 : DItv)]))),
    .call ((Cmd.run (.opD [(⟨⟨(f (-2) (0)), .pinf⟩, .dac⟩ : DItv), (⟨⟨.ninf, (f 0 0)⟩, .dac⟩ : DItv)]))),
    .call (do (Cmd.run (.opD [(⟨⟨(f (-2) (0)), .pinf⟩, .dac⟩ : DItv), (⟨⟨.ninf, (f 0 0)⟩, .dac⟩ : DItv)])); (Cmd.run (.opD [((DItv.mulRevToPair binary64 (⟨⟨(f (-2) (0)), .pinf⟩, .dac⟩ : DItv) (⟨⟨.ninf, (f 0 0)⟩, .dac⟩ : DItv)).2 : DItv)]))),
    .call ((Cmd.run (.opD [(⟨⟨(f 0 0), .pinf⟩, .dac⟩ : DItv), (⟨⟨.ninf, (f 0 0)⟩, .dac⟩ : DItv)]))),
    .call (do (Cmd.run (.opD [(⟨⟨(f 0 0), .pinf⟩, .dac⟩ : DItv), (⟨⟨.ninf, (f 0 0)⟩, .dac⟩ : DItv)])); (Cmd.run (.opD [((DItv.mulRevToPair binary64 (⟨⟨(f 0 0), .pinf⟩, .dac⟩ : DItv) (⟨⟨.ninf, (f 0 0)⟩, .dac⟩ : DItv)).2 : DItv)]))),
    .call ((Cmd.run (.opD [(⟨⟨(f (5764607523034235) (-59)), .pinf⟩, .dac⟩ : DItv), (⟨⟨.ninf, (f 0 0)⟩, .dac⟩ : DItv)]))),
    .call (do (Cmd.run (.opD [(⟨⟨(f (5764607523034235) (-59)), .pinf⟩, .dac⟩ : DItv), (⟨⟨.ninf, (f 0 0)⟩, .dac⟩ : DItv)])); (Cmd.run (.opD [((DItv.mulRevToPair binary64 (⟨⟨(f (5764607523034235) (-59)), .pinf⟩, .dac⟩ : DItv) (⟨⟨.ninf, (f 0 0)⟩, .dac⟩ : DItv)).2 : DItv)]))),
    .call ((Cmd.run (.opD [(⟨⟨.ninf, .pinf⟩, .dac⟩ : DItv), (⟨⟨.ninf, (f 0 0)⟩, .dac⟩ : DItv)]))),
    .call (do (Cmd.run (.opD [(⟨⟨.ninf, .pinf⟩, .dac⟩ : DItv), (⟨⟨.ninf, (f 0 0)⟩, .dac⟩ : DItv)])); (Cmd.run (.opD [((DItv.mulRevToPair binary64 (⟨⟨.ninf, .pinf⟩, .dac⟩ : DItv) (⟨⟨.ninf, (f 0 0)⟩, .dac⟩ : DItv)).2 : DItv)]))),
    .call ((Cmd.run (.opD [(⟨⟨(f (-2) (0)), (f (-3602879701896397) (-55))⟩, .dac⟩ : DItv), (⟨⟨.ninf, (f (5404319552844595) (-54))⟩, .dac⟩ : DItv)]))),
    .call (do (Cmd.run (.opD [(⟨⟨(f (-2) (0)), (f (-3602879701896397) (-55))⟩, .dac⟩ : DItv), (⟨⟨.ninf, (f (5404319552844595) (-54))⟩, .dac⟩ : DItv)])); (Cmd.run (.opD [((DItv.mulRevToPair binary64 (⟨⟨(f (-2) (0)), (f (-3602879701896397) (-55))⟩, .dac⟩ : DItv) (⟨⟨.ninf, (f (5404319552844595) (-54))⟩, .dac⟩ : DItv)).2 : DItv)]))),
    .call ((Cmd.run (.opD [(⟨⟨(f (-2) (0)), (f 0 0)⟩, .dac⟩ : DItv), (⟨⟨.ninf, (f (5404319552844595) (-54))⟩, .dac⟩ : DItv)]))),
    .call (do (Cmd.run (.opD [(⟨⟨(f (-2) (0)), (f 0 0)⟩, .dac⟩ : DItv), (⟨⟨.ninf, (f (5404319552844595) (-54))⟩, .dac⟩ : DItv)])); (Cmd.run (.opD [((DItv.mulRevToPair binary64 (⟨⟨(f (-2) (0)), (f 0 0)⟩, .dac⟩ : DItv) (⟨⟨.ninf, (f (5404319552844595) (-54))⟩, .dac⟩ : DItv)).2 : DItv)]))),
    .call ((Cmd.run (.opD [(⟨⟨(f (-2) (0)), (f (2476979795053773) (-51))⟩, .dac⟩ : DItv), (⟨⟨.ninf, (f (5404319552844595) (-54))⟩, .dac⟩ : DItv)]))),
    .call (do (Cmd.run (.opD [(⟨⟨(f (-2) (0)), (f (2476979795053773) (-51))⟩, .dac⟩ : DItv), (⟨⟨.ninf, (f (5404319552844595) (-54))⟩, .dac⟩ : DItv)])); (Cmd.run (.opD [((DItv.mulRevToPair binary64 (⟨⟨(f (-2) (0)), (f (2476979795053773) (-51))⟩, .dac⟩ : DItv) (⟨⟨.ninf, (f (5404319552844595) (-54))⟩, .dac⟩ : DItv)).2 : DItv)]))),
    .call ((Cmd.run (.opD [(⟨⟨(f 0 0), (f (2476979795053773) (-51))⟩, .dac⟩ : DItv), (⟨⟨.ninf, (f (5404319552844595) (-54))⟩, .dac⟩ : DItv)]))),
    .call (do (Cmd.run (.opD [(⟨⟨(f 0 0), (f (2476979795053773) (-51))⟩, .dac⟩ : DItv), (⟨⟨.ninf, (f (5404319552844595) (-54))⟩, .dac⟩ : DItv)])); (Cmd.run (.opD [((DItv.mulRevToPair binary64 (⟨⟨(f 0 0), (f (2476979795053773) (-51))⟩, .dac⟩ : DItv) (⟨⟨.ninf, (f (5404319552844595) (-54))⟩, .dac⟩ : DItv)).2 : DItv)]))),
    .call ((Cmd.run (.opD [(⟨⟨(f (5764607523034235) (-59)), (f (2476979795053773) (-51))⟩, .dac⟩ : DItv), (⟨⟨.ninf, (f (5404319552844595) (-54))⟩, .dac⟩ : DItv)]))),
    .call (do (Cmd.run (.opD [(⟨⟨(f (5764607523034235) (-59)), (f (2476979795053773) (-51))⟩, .dac⟩ : DItv), (⟨⟨.ninf, (f (5404319552844595) (-54))⟩, .dac⟩ : DItv)])); (Cmd.run (.opD [((DItv.mulRevToPair binary64 (⟨⟨(f (5764607523034235) (-59)), (f (2476979795053773) (-51))⟩, .dac⟩ : DItv) (⟨⟨.ninf, (f (5404319552844595) (-54))⟩, .dac⟩ : DItv)).2 : DItv)]))),
    .call ((Cmd.run (.opD [(⟨⟨(f 0 0), (f 0 0)⟩, .dac⟩ : DItv), (⟨⟨.ninf, (f (5404319552844595) (-54))⟩, .dac⟩ : DItv)]))),
    .call (do (Cmd.run (.opD [(⟨⟨(f 0 0), (f 0 0)⟩, .dac⟩ : DItv), (⟨⟨.ninf, (f (5404319552844595) (-54))⟩, .dac⟩ : DItv)])); (Cmd.run (.opD [((DItv.mulRevToPair binary64 (⟨⟨(f 0 0), (f 0 0)⟩, .dac⟩ : DItv) (⟨⟨.ninf, (f (5404319552844595) (-54))⟩, .dac⟩ : DItv)).2 : DItv)]))),
    .call ((Cmd.run (.opD [(⟨⟨.ninf, (f (-3602879701896397) (-55))⟩, .dac⟩ : DItv), (⟨⟨.ninf, (f (5404319552844595) (-54))⟩, .dac⟩ : DItv)]))),
    .call (do (Cmd.run (.opD [(⟨⟨.ninf, (f (-3602879701896397) (-55))⟩, .dac⟩ : DItv), (⟨⟨.ninf, (f (5404319552844595) (-54))⟩, .dac⟩ : DItv)])); (Cmd.run (.opD [((DItv.mulRevToPair binary64 (⟨⟨.ninf, (f (-3602879701896397) (-55))⟩, .dac⟩ : DItv) (⟨⟨.ninf, (f (5404319552844595) (-54))⟩, .dac⟩ : DItv)).2 : DItv)]))),
    .call ((Cmd.run (.opD [(⟨⟨.ninf, (f 0 0)⟩, .dac⟩ : DItv), (⟨⟨.ninf, (f (5404319552844595) (-54))⟩, .dac⟩ : DItv)]))),
    .call (do (Cmd.run (.opD [(⟨⟨.ninf, (f 0 0)⟩, .dac⟩ : DItv), (⟨⟨.ninf, (f (5404319552844595) (-54))⟩, .dac⟩ : DItv)])); (Cmd.run (.opD [((DItv.mulRevToPair binary64 (⟨⟨.ninf, (f 0 0)⟩, .dac⟩ : DItv) (⟨⟨.ninf, (f (5404319552844595) (-54))⟩, .dac⟩ : DItv)).2 : DItv)]))),
    .call ((Cmd.run (.opD [(⟨⟨.ninf, (f (2476979795053773) (-51))⟩, .dac⟩ : DItv), (⟨⟨.ninf, (f (5404319552844595) (-54))⟩, .dac⟩ : DItv)]))),
    .call (do (Cmd.run (.opD [(⟨⟨.ninf, (f (2476979795053773) (-51))⟩, .dac⟩ : DItv), (⟨⟨.ninf, (f (5404319552844595) (-54))⟩, .dac⟩ : DItv)])); (Cmd.run (.opD [((DItv.mulRevToPair binary64 (⟨⟨.ninf, (f (2476979795053773) (-51))⟩, .dac⟩ : DItv) (⟨⟨.ninf, (f (5404319552844595) (-54))⟩, .dac⟩ : DItv)).2 : DItv)]))),
    .call ((Cmd.run (.opD [(⟨⟨(f (-2) (0)), .pinf⟩, .dac⟩ : DItv), (⟨⟨.ninf, (f (5404319552844595) (-54))⟩, .dac⟩ : DItv)]))),
    .call (do (Cmd.run (.opD [(⟨⟨(f (-2) (0)), .pinf⟩, .dac⟩ : DItv), (⟨⟨.ninf, (f (5404319552844595) (-54))⟩, .dac⟩ : DItv)])); (Cmd.run (.opD [((DItv.mulRevToPair binary64 (⟨⟨(f (-2) (0)), .pinf⟩, .dac⟩ : DItv) (⟨⟨.ninf, (f (5404319552844595) (-54))⟩, .dac⟩ : DItv)).2 : DItv)]))),
    .call ((Cmd.run (.opD [(⟨⟨(f 0 0), .pinf⟩, .dac⟩ : DItv), (⟨⟨.ninf, (f (5404319552844595) (-54))⟩, .dac⟩ : DItv)]))),
    .call (do (Cmd.run (.opD [(⟨⟨(f 0 0), .pinf⟩, .dac⟩ : DItv), (⟨⟨.ninf, (f (5404319552844595) (-54))⟩, .dac⟩ : DItv)])); (Cmd.run (.opD [((DItv.mulRevToPair binary64 (⟨⟨(f 0 0), .pinf⟩, .dac⟩ : DItv) (⟨⟨.ninf, (f (5404319552844595) (-54))⟩, .dac⟩ : DItv)).2 : DItv)]))),
    .call ((Cmd.run (.opD [(⟨⟨(f (5764607523034235) (-59)), .pinf⟩, .dac⟩ : DItv), (⟨⟨.ninf, (f (5404319552844595) (-54))⟩, .dac⟩ : DItv)]))),
    .call (do (Cmd.run (.opD [(⟨⟨(f (5764607523034235) (-59)), .pinf⟩, .dac⟩ : DItv), (⟨⟨.ninf, (f (5404319552844595) (-54))⟩, .dac⟩ : DItv)])); (Cmd.run (.opD [((DItv.mulRevToPair binary64 (⟨⟨(f (5764607523034235) (-59)), .pinf⟩, .dac⟩ : DItv) (⟨⟨.ninf, (f (5404319552844595) (-54))⟩, .dac⟩ : DItv)).2 : DItv)]))),
    .call ((Cmd.run (.opD [(⟨⟨.ninf, .pinf⟩, .dac⟩ : DItv), (⟨⟨.ninf, (f (5404319552844595) (-54))⟩, .dac⟩ : DItv)]))),
    .call (do (Cmd.run (.opD [(⟨⟨.ninf, .pinf⟩, .dac⟩ : DItv), (⟨⟨.ninf, (f (5404319552844595) (-54))⟩, .dac⟩ : DItv)])); (Cmd.run (.opD [((DItv.mulRevToPair binary64 (⟨⟨.ninf, .pinf⟩, .dac⟩ : DItv) (⟨⟨.ninf, (f (5404319552844595) (-54))⟩, .dac⟩ : DItv)).2 : DItv)]))),
    .call ((Cmd.run (.opD [(⟨⟨(f (-2) (0)), (f (-3602879701896397) (-55))⟩, .dac⟩ : DItv), (⟨⟨(f (-7566047373982433) (-55)), .pinf⟩, .dac⟩ : DItv)]))),
    .call (do (Cmd.run (.opD [(⟨⟨(f (-2) (0)), (f (-3602879701896397) (-55))⟩, .dac⟩ : DItv), (⟨⟨(f (-7566047373982433) (-55)), .pinf⟩, .dac⟩ : DItv)])); (Cmd.run (.opD [((DItv.mulRevToPair binary64 (⟨⟨(f (-2) (0)), (f (-3602879701896397) (-55))⟩, .dac⟩ : DItv) (⟨⟨(f (-7566047373982433) (-55)), .pinf⟩, .dac⟩ : DItv)).2 : DItv)]))),
    .call ((Cmd.run (.opD [(⟨⟨(f (-2) (0)), (f 0 0)⟩, .dac⟩ : DItv), (⟨⟨(f (-7566047373982433) (-55)), .pinf⟩, .dac⟩ : DItv)]))),
    .call (do (Cmd.run (.opD [(⟨⟨(f (-2) (0)), (f 0 0)⟩, .dac⟩ : DItv), (⟨⟨(f (-7566047373982433) (-55)), .pinf⟩, .dac⟩ : DItv)])); (Cmd.run (.opD [((DItv.mulRevToPair binary64 (⟨⟨(f (-2) (0)), (f 0 0)⟩, .dac⟩ : DItv) (⟨⟨(f (-7566047373982433) (-55)), .pinf⟩, .dac⟩ : DItv)).2 : DItv)]))),
    .call ((Cmd.run (.opD [(⟨⟨(f (-2) (0)), (f (2476979795053773) (-51))⟩, .dac⟩ : DItv), (⟨⟨(f (-7566047373982433) (-55)), .pinf⟩, .dac⟩ : DItv)]))),
    .call (do (Cmd.run (.opD [(⟨⟨(f (-2) (0)), (f (2476979795053773) (-51))⟩, .dac⟩ : DItv), (⟨⟨(f (-7566047373982433) (-55)), .pinf⟩, .dac⟩ : DItv)])); (Cmd.run (.opD [((DItv.mulRevToPair binary64 (⟨⟨(f (-2) (0)), (f (2476979795053773) (-51))⟩, .dac⟩ : DItv) (⟨⟨(f (-7566047373982433) (-55)), .pinf⟩, .dac⟩ : DItv)).2 : DItv)]))),
    .call ((Cmd.run (.opD [(⟨⟨(f 0 0), (f (2476979795053773) (-51))⟩, .dac⟩ : DItv), (⟨⟨(f (-7566047373982433) (-55)), .pinf⟩, .dac⟩ : DItv)]))),
    .call (do (Cmd.run (.opD [(⟨⟨(f 0 0), (f (2476979795053773) (-51))⟩, .dac⟩ : DItv), (⟨⟨(f (-7566047373982433) (-55)), .pinf⟩, .dac⟩ : DItv)])); (Cmd.run (.opD [((DItv.mulRevToPair binary64 (⟨⟨(f 0 0), (f (2476979795053773) (-51))⟩, .dac⟩ : DItv) (⟨⟨(f (-7566047373982433) (-55)), .pinf⟩, .dac⟩ : DItv)).2 : DItv)]))),
    .call ((Cmd.run (.opD [(⟨⟨(f (5764607523034235) (-59)), (f (2476979795053773) (-51))⟩, .dac⟩ : DItv), (⟨⟨(f (-7566047373982433) (-55)), .pinf⟩, .dac⟩ : DItv)]))),
    .call (do (Cmd.run (.opD [(⟨⟨(f (5764607523034235) (-59)), (f (2476979795053773) (-51))⟩, .dac⟩ : DItv), (⟨⟨(f (-7566047373982433) (-55)), .pinf⟩, .dac⟩ : DItv)])); (Cmd.run (.opD [((DItv.mulRevToPair binary64 (⟨⟨(f (5764607523034235) (-59)), (f (2476979795053773) (-51))⟩, .dac⟩ : DItv) (⟨⟨(f (-7566047373982433) (-55)), .pinf⟩, .dac⟩ : DItv)).2 : DItv)]))),
    .call ((Cmd.run (.opD [(⟨⟨(f 0 0), (f 0 0)⟩, .dac⟩ : DItv), (⟨⟨(f (-7566047373982433) (-55)), .pinf⟩, .dac⟩ : DItv)]))),
    .call (do (Cmd.run (.opD [(⟨⟨(f 0 0), (f 0 0)⟩, .dac⟩ : DItv), (⟨⟨(f (-7566047373982433) (-55)), .pinf⟩, .dac⟩ : DItv)])); (Cmd.run (.opD [((DItv.mulRevToPair binary64 (⟨⟨(f 0 0), (f 0 0)⟩, .dac⟩ : DItv) (⟨⟨(f (-7566047373982433) (-55)), .pinf⟩, .dac⟩ : DItv)).2 : DItv)]))),
    .call ((Cmd.run (.opD [(⟨⟨.ninf, (f (-3602879701896397) (-55))⟩, .dac⟩ : DItv), (⟨⟨(f (-7566047373982433) (-55)), .pinf⟩, .dac⟩ : DItv)]))),
    .call (do (Cmd.run (.opD [(⟨⟨.ninf, (f (-3602879701896397) (-55))⟩, .dac⟩ : DItv), (⟨⟨(f (-7566047373982433) (-55)), .pinf⟩, .dac⟩ : DItv)])); (Cmd.run (.opD [((DItv.mulRevToPair binary64 (⟨⟨.ninf, (f (-3602879701896397) (-55))⟩, .dac⟩ : DItv) (⟨⟨(f (-7566047373982433) (-55)), .pinf⟩, .dac⟩ : DItv)).2 : DItv)]))),
    .call ((Cmd.run (.opD [(⟨⟨.ninf, (f 0 0)⟩, .dac⟩ : DItv), (⟨⟨(f (-7566047373982433) (-55)), .pinf⟩, .dac⟩ : DItv)]))),
    .call (do (Cmd.run (.opD [(⟨⟨.ninf, (f 0 0)⟩, .dac⟩ : DItv), (⟨⟨(f (-7566047373982433) (-55)), .pinf⟩, .dac⟩ : DItv)])); (Cmd.run (.opD [((DItv.mulRevToPair binary64 (⟨⟨.ninf, (f 0 0)⟩, .dac⟩ : DItv) (⟨⟨(f (-7566047373982433) (-55)), .pinf⟩, .dac⟩ : DItv)).2 : DItv)]))),
    .call ((Cmd.run (.opD [(⟨⟨.ninf, (f (2476979795053773) (-51))⟩, .dac⟩ : DItv), (⟨⟨(f (-7566047373982433) (-55)), .pinf⟩, .dac⟩ : DItv)]))),
    .call (do (Cmd.run (.opD [(⟨⟨.ninf, (f (2476979795053773) (-51))⟩, .dac⟩ : DItv), (⟨⟨(f (-7566047373982433) (-55)), .pinf⟩, .dac⟩ : DItv)])); (Cmd.run (.opD [((DItv.mulRevToPair binary64 (⟨⟨.ninf, (f (2476979795053773) (-51))⟩, .dac⟩ : DItv) (⟨⟨(f (-7566047373982433) (-55)), .pinf⟩, .dac⟩ : DItv)).2 : DItv)]))),
    .call ((Cmd.run (.opD [(⟨⟨(f (-2) (0)), .pinf⟩, .dac⟩ : DItv), (⟨⟨(f (-7566047373982433) (-55)), .pinf⟩, .dac⟩ : DItv)]))),
    .call (do (Cmd.run (.opD [(⟨⟨(f (-2) (0)), .pinf⟩, .dac⟩ : DItv), (⟨⟨(f (-7566047373982433) (-55)), .pinf⟩, .dac⟩ : DItv)])); (Cmd.run (.opD [((DItv.mulRevToPair binary64 (⟨⟨(f (-2) (0)), .pinf⟩, .dac⟩ : DItv) (⟨⟨(f (-7566047373982433) (-55)), .pinf⟩, .dac⟩ : DItv)).2 : DItv)]))),
    .call ((Cmd.run (.opD [(⟨⟨(f 0 0), .pinf⟩, .dac⟩ : DItv), (⟨⟨(f (-7566047373982433) (-55)), .pinf⟩, .dac⟩ : DItv)]))),
    .call (do (Cmd.run (.opD [(⟨⟨(f 0 0), .pinf⟩, .dac⟩ : DItv), (⟨⟨(f (-7566047373982433) (-55)), .pinf⟩, .dac⟩ : DItv)])); (Cmd.run (.opD [((DItv.mulRevToPair binary64 (⟨⟨(f 0 0), .pinf⟩, .dac⟩ : DItv) (⟨⟨(f (-7566047373982433) (-55)), .pinf⟩, .dac⟩ : DItv)).2 : DItv)]))),
    .call ((Cmd.run (.opD [(⟨⟨(f (5764607523034235) (-59)), .pinf⟩, .dac⟩ : DItv), (⟨⟨(f (-7566047373982433) (-55)), .pinf⟩, .dac⟩ : DItv)]))),
    .call (do (Cmd.run (.opD [(⟨⟨(f (5764607523034235) (-59)), .pinf⟩, .dac⟩ : DItv), (⟨⟨(f (-7566047373982433) (-55)), .pinf⟩, .dac⟩ : DItv)])); (Cmd.run (.opD [((DItv.mulRevToPair binary64 (⟨⟨(f (5764607523034235) (-59)), .pinf⟩, .dac⟩ : DItv) (⟨⟨(f (-7566047373982433) (-55)), .pinf⟩, .dac⟩ : DItv)).2 : DItv)]))),
    .call ((Cmd.run (.opD [(⟨⟨.ninf, .pinf⟩, .dac⟩ : DItv), (⟨⟨(f (-7566047373982433) (-55)), .pinf⟩, .dac⟩ : DItv)]))),
    .call (do (Cmd.run (.opD [(⟨⟨.ninf, .pinf⟩, .dac⟩ : DItv), (⟨⟨(f (-7566047373982433) (-55)), .pinf⟩, .dac⟩ : DItv)])); (Cmd.run (.opD [((DItv.mulRevToPair binary64 (⟨⟨.ninf, .pinf⟩, .dac⟩ : DItv) (⟨⟨(f (-7566047373982433) (-55)), .pinf⟩, .dac⟩ : DItv)).2 : DItv)]))),
    .call ((Cmd.run (.opD [(⟨⟨(f (-2) (0)), (f (-3602879701896397) (-55))⟩, .dac⟩ : DItv), (⟨⟨(f 0 0), .pinf⟩, .dac⟩ : DItv)]))),
    .call (do (Cmd.run (.opD [(⟨⟨(f (-2) (0)), (f (-3602879701896397) (-55))⟩, .dac⟩ : DItv), (⟨⟨(f 0 0), .pinf⟩, .dac⟩ : DItv)])); (Cmd.run (.opD [((DItv.mulRevToPair binary64 (⟨⟨(f (-2) (0)), (f (-3602879701896397) (-55))⟩, .dac⟩ : DItv) (⟨⟨(f 0 0), .pinf⟩, .dac⟩ : DItv)).2 : DItv)]))),
    .call ((Cmd.run (.opD [(⟨⟨(f (-2) (0)), (f 0 0)⟩, .dac⟩ : DItv), (⟨⟨(f 0 0), .pinf⟩, .dac⟩ : DItv)]))),
    .call (do (Cmd.run (.opD [(⟨⟨(f (-2) (0)), (f 0 0)⟩, .dac⟩ : DItv), (⟨⟨(f 0 0), .pinf⟩, .dac⟩ : DItv)])); (Cmd.run (.opD [((DItv.mulRevToPair binary64 (⟨⟨(f (-2) (0)), (f 0 0)⟩, .dac⟩ : DItv) (⟨⟨(f 0 0), .pinf⟩, .dac⟩ : DItv)).2 : DItv)]))),
    .call ((Cmd.run (.opD [(⟨⟨(f (-2) (0)), (f (2476979795053773) (-51))⟩, .dac⟩ : DItv), (⟨⟨(f 0 0), .pinf⟩, .dac⟩ : DItv)]))),
    .call (do (Cmd.run (.opD [(⟨⟨(f (-2) (0)), (f (2476979795053773) (-51))⟩, .dac⟩ : DItv), (⟨⟨(f 0 0), .pinf⟩, .dac⟩ : DItv)])); (Cmd.run (.opD [((DItv.mulRevToPair binary64 (⟨⟨(f (-2) (0)), (f (2476979795053773) (-51))⟩, .dac⟩ : DItv) (⟨⟨(f 0 0), .pinf⟩, .dac⟩ : DItv)).2 : DItv)]))),
    .call ((Cmd.run (.opD [(⟨⟨(f 0 0), (f (2476979795053773) (-51))⟩, .dac⟩ : DItv), (⟨⟨(f 0 0), .pinf⟩, .dac⟩ : DItv)]))),
    .call (do (Cmd.run (.opD [(⟨⟨(f 0 0), (f (2476979795053773) (-51))⟩, .dac⟩ : DItv), (⟨⟨(f 0 0), .pinf⟩, .dac⟩ : DItv)])); (Cmd.run (.opD [((DItv.mulRevToPair binary64 (⟨⟨(f 0 0), (f (2476979795053773) (-51))⟩, .dac⟩ : DItv) (⟨⟨(f 0 0), .pinf⟩, .dac⟩ : DItv)).2 : DItv)]))),
    .call ((Cmd.run (.opD [(⟨⟨(f (5764607523034235) (-59)), (f (2476979795053773) (-51))⟩, .dac⟩ : DItv), (⟨⟨(f 0 0), .pinf⟩, .dac⟩ : DItv)]))),
    .call (do (Cmd.run (.opD [(⟨⟨(f (5764607523034235) (-59)), (f (2476979795053773) (-51))⟩, .dac⟩ : DItv), (⟨⟨(f 0 0), .pinf⟩, .dac⟩ : DItv)])); (Cmd.run (.opD [((DItv.mulRevToPair binary64 (⟨⟨(f (5764607523034235) (-59)), (f (2476979795053773) (-51))⟩, .dac⟩ : DItv) (⟨⟨(f 0 0), .pinf⟩, .dac⟩ : DItv)).2 : DItv)]))),
    .call ((Cmd.run (.opD [(⟨⟨(f 0 0), (f 0 0)⟩, .dac⟩ : DItv), (⟨⟨(f 0 0), .pinf⟩, .dac⟩ : DItv)]))),
    .call (do (Cmd.run (.opD [(⟨⟨(f 0 0), (f 0 0)⟩, .dac⟩ : DItv), (⟨⟨(f 0 0), .pinf⟩, .dac⟩ : DItv)])); (Cmd.run (.opD [((DItv.mulRevToPair binary64 (⟨⟨(f 0 0), (f 0 0)⟩, .dac⟩ : DItv) (⟨⟨(f 0 0), .pinf⟩, .dac⟩ : DItv)).2 : DItv)]))),
    .call ((Cmd.run (.opD [(⟨⟨.ninf, (f (-3602879701896397) (-55))⟩, .dac⟩ : DItv), (⟨⟨(f 0 0), .pinf⟩, .dac⟩ : DItv)]))),
    .call (do (Cmd.run (.opD [(⟨⟨.ninf, (f (-3602879701896397) (-55))⟩, .dac⟩ : DItv), (⟨⟨(f 0 0), .pinf⟩, .dac⟩ : DItv)])); (Cmd.run (.opD [((DItv.mulRevToPair binary64 (⟨⟨.ninf, (f (-3602879701896397) (-55))⟩, .dac⟩ : DItv) (⟨⟨(f 0 0), .pinf⟩, .dac⟩ : DItv)).2 : DItv)]))),
    .call ((Cmd.run (.opD [(⟨⟨.ninf, (f 0 0)⟩, .dac⟩ : DItv), (⟨⟨(f 0 0), .pinf⟩, .dac⟩ : DItv)]))),
    .call (do (Cmd.run (.opD [(⟨⟨.ninf, (f 0 0)⟩, .dac⟩ : DItv), (⟨⟨(f 0 0), .pinf⟩, .dac⟩ : DItv)])); (Cmd.run (.opD [((DItv.mulRevToPair binary64 (⟨⟨.ninf, (f 0 0)⟩, .dac⟩ : DItv) (⟨⟨(f 0 0), .pinf⟩, .dac⟩ : DItv)).2 : DItv)]))),
    .call ((Cmd.run (.opD [(⟨⟨.ninf, (f (2476979795053773) (-51))⟩, .dac⟩ : DItv), (⟨⟨(f 0 0), .pinf⟩, .dac⟩ : DItv)]))),
    .call (do (Cmd.run (.opD [(⟨⟨.ninf, (f (2476979795053773) (-51))⟩, .dac⟩ : DItv), (⟨⟨(f 0 0), .pinf⟩, .dac⟩ : DItv)])); (Cmd.run (.opD [((DItv.mulRevToPair binary64 (⟨⟨.ninf, (f (2476979795053773) (-51))⟩, .dac⟩ : DItv) (⟨⟨(f 0 0), .pinf⟩, .dac⟩ : DItv)).2 : DItv)]))),
    .call ((Cmd.run (.opD [(⟨⟨(f (-2) (0)), .pinf⟩, .dac⟩ : DItv), (⟨⟨(f 0 0), .pinf⟩, .dac⟩ : DItv)]))),
    .call (do (Cmd.run (.opD [(⟨⟨(f (-2) (0)), .pinf⟩, .dac⟩ : DItv), (⟨⟨(f 0 0), .pinf⟩, .dac⟩ : DItv)])); (Cmd.run (.opD [((DItv.mulRevToPair binary64 (⟨⟨(f (-2) (0)), .pinf⟩, .dac⟩ : DItv) (⟨⟨(f 0 0), .pinf⟩, .dac⟩ : DItv)).2 : DItv)]))),
    .call ((Cmd.run (.opD [(⟨⟨(f 0 0), .pinf⟩, .dac⟩ : DItv), (⟨⟨(f 0 0), .pinf⟩, .dac⟩ : DItv)]))),
    .call (do (Cmd.run (.opD [(⟨⟨(f 0 0), .pinf⟩, .dac⟩ : DItv), (⟨⟨(f 0 0), .pinf⟩, .dac⟩ : DItv)])); (Cmd.run (.opD [((DItv.mulRevToPair binary64 (⟨⟨(f 0 0), .pinf⟩, .dac⟩ : DItv) (⟨⟨(f 0 0), .pinf⟩, .dac⟩ : DItv)).2 : DItv)]))),
    .call ((Cmd.run (.opD [(⟨⟨(f (5764607523034235) (-59)), .pinf⟩, .dac⟩ : DItv), (⟨⟨(f 0 0), .pinf⟩, .dac⟩ : DItv)]))),
    .call (do (Cmd.run (.opD [(⟨⟨(f (5764607523034235) (-59)), .pinf⟩, .dac⟩ : DItv), (⟨⟨(f 0 0), .pinf⟩, .dac⟩ : DItv)])); (Cmd.run (.opD [((DItv.mulRevToPair binary64 (⟨⟨(f (5764607523034235) (-59)), .pinf⟩, .dac⟩ : DItv) (⟨⟨(f 0 0), .pinf⟩, .dac⟩ : DItv)).2 : DItv)]))),
    .call ((Cmd.run (.opD [(⟨⟨.ninf, .pinf⟩, .dac⟩ : DItv), (⟨⟨(f 0 0), .pinf⟩, .dac⟩ : DItv)]))),
    .call (do (Cmd.run (.opD [(⟨⟨.ninf, .pinf⟩, .dac⟩ : DItv), (⟨⟨(f 0 0), .pinf⟩, .dac⟩ : DItv)])); (Cmd.run (.opD [((DItv.mulRevToPair binary64 (⟨⟨.ninf, .pinf⟩, .dac⟩ : DItv) (⟨⟨(f 0 0), .pinf⟩, .dac⟩ : DItv)).2 : DItv)]))),
    .call ((Cmd.run (.opD [(⟨⟨(f (-2) (0)), (f (-3602879701896397) (-55))⟩, .dac⟩ : DItv), (⟨⟨(f (5764607523034235) (-57)), .pinf⟩, .dac⟩ : DItv)]))),
    .call (do (Cmd.run (.opD [(⟨⟨(f (-2) (0)), (f (-3602879701896397) (-55))⟩, .dac⟩ : DItv), (⟨⟨(f (5764607523034235) (-57)), .pinf⟩, .dac⟩ : DItv)])); (Cmd.run (.opD [((DItv.mulRevToPair binary64 (⟨⟨(f (-2) (0)), (f (-3602879701896397) (-55))⟩, .dac⟩ : DItv) (⟨⟨(f (5764607523034235) (-57)), .pinf⟩, .dac⟩ : DItv)).2 : DItv)]))),
    .call ((Cmd.run (.opD [(⟨⟨(f (-2) (0)), (f 0 0)⟩, .dac⟩ : DItv), (⟨⟨(f (5764607523034235) (-57)), .pinf⟩, .dac⟩ : DItv)]))),
    .call (do (Cmd.run (.opD [(⟨⟨(f (-2) (0)), (f 0 0)⟩, .dac⟩ : DItv), (⟨⟨(f (5764607523034235) (-57)), .pinf⟩, .dac⟩ : DItv)])); (Cmd.run (.opD [((DItv.mulRevToPair binary64 (⟨⟨(f (-2) (0)), (f 0 0)⟩, .dac⟩ : DItv) (⟨⟨(f (5764607523034235) (-57)), .pinf⟩, .dac⟩ : DItv)).2 : DItv)]))),
    .call ((Cmd.run (.opD [(⟨⟨(f (-2) (0)), (f (2476979795053773) (-51))⟩, .dac⟩ : DItv), (⟨⟨(f (5764607523034235) (-57)), .pinf⟩, .dac⟩ : DItv)]))),
    .call ((Cmd.run (.opD [(⟨⟨(f (-2) (0)), (f (2476979795053773) (-51))⟩, .dac⟩ : DItv), (⟨⟨(f (5764607523034235) (-57)), .pinf⟩, .dac⟩ : DItv)]))),
    .call ((Cmd.run (.opD [(⟨⟨(f 0 0), (f (2476979795053773) (-51))⟩, .dac⟩ : DItv), (⟨⟨(f (5764607523034235) (-57)), .pinf⟩, .dac⟩ : DItv)]))),
    .call (do (Cmd.run (.opD [(⟨⟨(f 0 0), (f (2476979795053773) (-51))⟩, .dac⟩ : DItv), (⟨⟨(f (5764607523034235) (-57)), .pinf⟩, .dac⟩ : DItv)])); (Cmd.run (.opD [((DItv.mulRevToPair binary64 (⟨⟨(f 0 0), (f (2476979795053773) (-51))⟩, .dac⟩ : DItv) (⟨⟨(f (5764607523034235) (-57)), .pinf⟩, .dac⟩ : DItv)).2 : DItv)]))),
    .call ((Cmd.run (.opD [(⟨⟨(f (5764607523034235) (-59)), (f (2476979795053773) (-51))⟩, .dac⟩ : DItv), (⟨⟨(f (5764607523034235) (-57)), .pinf⟩, .dac⟩ : DItv)]))),
    .call (do (Cmd.run (.opD [(⟨⟨(f (5764607523034235) (-59)), (f (2476979795053773) (-51))⟩, .dac⟩ : DItv), (⟨⟨(f (5764607523034235) (-57)), .pinf⟩, .dac⟩ : DItv)])); (Cmd.run (.opD [((DItv.mulRevToPair binary64 (⟨⟨(f (5764607523034235) (-59)), (f (2476979795053773) (-51))⟩, .dac⟩ : DItv) (⟨⟨(f (5764607523034235) (-57)), .pinf⟩, .dac⟩ : DItv)).2 : DItv)]))),
    .call (do (Cmd.run (.opD [(⟨⟨(f 0 0), (f 0 0)⟩, .dac⟩ : DItv), (⟨⟨(f (5764607523034235) (-57)), .pinf⟩, .dac⟩ : DItv)])); (Cmd.run (.opD [((DItv.mulRevToPair binary64 (⟨⟨(f 0 0), (f 0 0)⟩, .dac⟩ : DItv) (⟨⟨(f (5764607523034235) (-57)), .pinf⟩, .dac⟩ : DItv)).1 : DItv)]))),
    .call (do (Cmd.run (.opD [(⟨⟨(f 0 0), (f 0 0)⟩, .dac⟩ : DItv), (⟨⟨(f (5764607523034235) (-57)), .pinf⟩, .dac⟩ : DItv)])); (Cmd.run (.opD [((DItv.mulRevToPair binary64 (⟨⟨(f 0 0), (f 0 0)⟩, .dac⟩ : DItv) (⟨⟨(f (5764607523034235) (-57)), .pinf⟩, .dac⟩ : DItv)).2 : DItv)]))),
    .call ((Cmd.run (.opD [(⟨⟨.ninf, (f (-3602879701896397) (-55))⟩, .dac⟩ : DItv), (⟨⟨(f (5764607523034235) (-57)), .pinf⟩, .dac⟩ : DItv)]))),
    .call (do (Cmd.run (.opD [(⟨⟨.ninf, (f (-3602879701896397) (-55))⟩, .dac⟩ : DItv), (⟨⟨(f (5764607523034235) (-57)), .pinf⟩, .dac⟩ : DItv)])); (Cmd.run (.opD [((DItv.mulRevToPair binary64 (⟨⟨.ninf, (f (-3602879701896397) (-55))⟩, .dac⟩ : DItv) (⟨⟨(f (5764607523034235) (-57)), .pinf⟩, .dac⟩ : DItv)).2 : DItv)]))),
    .call ((Cmd.run (.opD [(⟨⟨.ninf, (f 0 0)⟩, .dac⟩ : DItv), (⟨⟨(f (5764607523034235) (-57)), .pinf⟩, .dac⟩ : DItv)]))),
    .call (do (Cmd.run (.opD [(⟨⟨.ninf, (f 0 0)⟩, .dac⟩ : DItv), (⟨⟨(f (5764607523034235) (-57)), .pinf⟩, .dac⟩ : DItv)])); (Cmd.run (.opD [((DItv.mulRevToPair binary64 (⟨⟨.ninf, (f 0 0)⟩, .dac⟩ : DItv) (⟨⟨(f (5764607523034235) (-57)), .pinf⟩, .dac⟩ : DItv)).2 : DItv)]))),
    .call ((Cmd.run (.opD [(⟨⟨.ninf, (f (2476979795053773) (-51))⟩, .dac⟩ : DItv), (⟨⟨(f (5764607523034235) (-57)), .pinf⟩, .dac⟩ : DItv)]))),
    .call ((Cmd.run (.opD [(⟨⟨.ninf, (f (2476979795053773) (-51))⟩, .dac⟩ : DItv), (⟨⟨(f (5764607523034235) (-57)), .pinf⟩, .dac⟩ : DItv)]))),
    .call ((Cmd.run (.opD [(⟨⟨(f (-2) (0)), .pinf⟩, .dac⟩ : DItv), (⟨⟨(f (5764607523034235) (-57)), .pinf⟩, .dac⟩ : DItv)]))),
    .call ((Cmd.run (.opD [(⟨⟨(f (-2) (0)), .pinf⟩, .dac⟩ : DItv), (⟨⟨(f (5764607523034235) (-57)), .pinf⟩, .dac⟩ : DItv)]))),
    .call ((Cmd.run (.opD [(⟨⟨(f 0 0), .pinf⟩, .dac⟩ : DItv), (⟨⟨(f (5764607523034235) (-57)), .pinf⟩, .dac⟩ : DItv)]))),
    .call (do (Cmd.run (.opD [(⟨⟨(f 0 0), .pinf⟩, .dac⟩ : DItv), (⟨⟨(f (5764607523034235) (-57)), .pinf⟩, .dac⟩ : DItv)])); (Cmd.run (.opD [((DItv.mulRevToPair binary64 (⟨⟨(f 0 0), .pinf⟩, .dac⟩ : DItv) (⟨⟨(f (5764607523034235) (-57)), .pinf⟩, .dac⟩ : DItv)).2 : DItv)]))),
    .call ((Cmd.run (.opD [(⟨⟨(f (5764607523034235) (-59)), .pinf⟩, .dac⟩ : DItv), (⟨⟨(f (5764607523034235) (-57)), .pinf⟩, .dac⟩ : DItv)]))),
    .call (do (Cmd.run (.opD [(⟨⟨(f (5764607523034235) (-59)), .pinf⟩, .dac⟩ : DItv), (⟨⟨(f (5764607523034235) (-57)), .pinf⟩, .dac⟩ : DItv)])); (Cmd.run (.opD [((DItv.mulRevToPair binary64 (⟨⟨(f (5764607523034235) (-59)), .pinf⟩, .dac⟩ : DItv) (⟨⟨(f (5764607523034235) (-57)), .pinf⟩, .dac⟩ : DItv)).2 : DItv)]))),
    .call ((Cmd.run (.opD [(⟨⟨.ninf, .pinf⟩, .dac⟩ : DItv), (⟨⟨(f (5764607523034235) (-57)), .pinf⟩, .dac⟩ : DItv)]))),
    .call ((Cmd.run (.opD [(⟨⟨.ninf, .pinf⟩, .dac⟩ : DItv), (⟨⟨(f (5764607523034235) (-57)), .pinf⟩, .dac⟩ : DItv)]))),
    .call ((Cmd.run (.opD [(⟨⟨(f (-2) (0)), (f (-3602879701896397) (-55))⟩, .dac⟩ : DItv), (⟨⟨.ninf, .pinf⟩, .dac⟩ : DItv)]))),
    .call (do (Cmd.run (.opD [(⟨⟨(f (-2) (0)), (f (-3602879701896397) (-55))⟩, .dac⟩ : DItv), (⟨⟨.ninf, .pinf⟩, .dac⟩ : DItv)])); (Cmd.run (.opD [((DItv.mulRevToPair binary64 (⟨⟨(f (-2) (0)), (f (-3602879701896397) (-55))⟩, .dac⟩ : DItv) (⟨⟨.ninf, .pinf⟩, .dac⟩ : DItv)).2 : DItv)]))),
    .call ((Cmd.run (.opD [(⟨⟨(f (-2) (0)), (f 0 0)⟩, .dac⟩ : DItv), (⟨⟨.ninf, .pinf⟩, .dac⟩ : DItv)]))),
    .call (do (Cmd.run (.opD [(⟨⟨(f (-2) (0)), (f 0 0)⟩, .dac⟩ : DItv), (⟨⟨.ninf, .pinf⟩, .dac⟩ : DItv)])); (Cmd.run (.opD [((DItv.mulRevToPair binary64 (⟨⟨(f (-2) (0)), (f 0 0)⟩, .dac⟩ : DItv) (⟨⟨.ninf, .pinf⟩, .dac⟩ : DItv)).2 : DItv)]))),
    .call ((Cmd.run (.opD [(⟨⟨(f (-2) (0)), (f (2476979795053773) (-51))⟩, .dac⟩ : DItv), (⟨⟨.ninf, .pinf⟩, .dac⟩ : DItv)]))),
    .call (do (Cmd.run (.opD [(⟨⟨(f (-2) (0)), (f (2476979795053773) (-51))⟩, .dac⟩ : DItv), (⟨⟨.ninf, .pinf⟩, .dac⟩ : DItv)])); (Cmd.run (.opD [((DItv.mulRevToPair binary64 (⟨⟨(f (-2) (0)), (f (2476979795053773) (-51))⟩, .dac⟩ : DItv) (⟨⟨.ninf, .pinf⟩, .dac⟩ : DItv)).2 : DItv)]))),
    .call ((Cmd.run (.opD [(⟨⟨(f 0 0), (f (2476979795053773) (-51))⟩, .dac⟩ : DItv), (⟨⟨.ninf, .pinf⟩, .dac⟩ : DItv)]))),
    .call (do (Cmd.run (.opD [(⟨⟨(f 0 0), (f (2476979795053773) (-51))⟩, .dac⟩ : DItv), (⟨⟨.ninf, .pinf⟩, .dac⟩ : DItv)])); (Cmd.run (.opD [((DItv.mulRevToPair binary64 (⟨⟨(f 0 0), (f (2476979795053773) (-51))⟩, .dac⟩ : DItv) (⟨⟨.ninf, .pinf⟩, .dac⟩ : DItv)).2 : DItv)]))),
    .call ((Cmd.run (.opD [(⟨⟨(f (5764607523034235) (-59)), (f (2476979795053773) (-51))⟩, .dac⟩ : DItv), (⟨⟨.ninf, .pinf⟩, .dac⟩ : DItv)]))),
    .call (do (Cmd.run (.opD [(⟨⟨(f (5764607523034235) (-59)), (f (2476979795053773) (-51))⟩, .dac⟩ : DItv), (⟨⟨.ninf, .pinf⟩, .dac⟩ : DItv)])); (Cmd.run (.opD [((DItv.mulRevToPair binary64 (⟨⟨(f (5764607523034235) (-59)), (f (2476979795053773) (-51))⟩, .dac⟩ : DItv) (⟨⟨.ninf, .pinf⟩, .dac⟩ : DItv)).2 : DItv)]))),
    .call ((Cmd.run (.opD [(⟨⟨(f 0 0), (f 0 0)⟩, .dac⟩ : DItv), (⟨⟨.ninf, .pinf⟩, .dac⟩ : DItv)]))),
    .call (do (Cmd.run (.opD [(⟨⟨(f 0 0), (f 0 0)⟩, .dac⟩ : DItv), (⟨⟨.ninf, .pinf⟩, .dac⟩ : DItv)])); (Cmd.run (.opD [((DItv.mulRevToPair binary64 (⟨⟨(f 0 0), (f 0 0)⟩, .dac⟩ : DItv) (⟨⟨.ninf, .pinf⟩, .dac⟩ : DItv)).2 : DItv)]))),
    .call ((Cmd.run (.opD [(⟨⟨.ninf, (f (-3602879701896397) (-55))⟩, .dac⟩ : DItv), (⟨⟨.ninf, .pinf⟩, .dac⟩ : DItv)]))),
    .call (do (Cmd.run (.opD [(⟨⟨.ninf, (f (-3602879701896397) (-55))⟩, .dac⟩ : DItv), (⟨⟨.ninf, .pinf⟩, .dac⟩ : DItv)])); (Cmd.run (.opD [((DItv.mulRevToPair binary64 (⟨⟨.ninf, (f (-3602879701896397) (-55))⟩, .dac⟩ : DItv) (⟨⟨.ninf, .pinf⟩, .dac⟩ : DItv)).2 : DItv)]))),
    .call ((Cmd.run (.opD [(⟨⟨.ninf, (f 0 0)⟩, .dac⟩ : DItv), (⟨⟨.ninf, .pinf⟩, .dac⟩ : DItv)]))),
    .call (do (Cmd.run (.opD [(⟨⟨.ninf, (f 0 0)⟩, .dac⟩ : DItv), (⟨⟨.ninf, .pinf⟩, .dac⟩ : DItv)])); (Cmd.run (.opD [((DItv.mulRevToPair binary64 (⟨⟨.ninf, (f 0 0)⟩, .dac⟩ : DItv) (⟨⟨.ninf, .pinf⟩, .dac⟩ : DItv)).2 : DItv)]))),
    .call ((Cmd.run (.opD [(⟨⟨.ninf, (f (2476979795053773) (-51))⟩, .dac⟩ : DItv), (⟨⟨.ninf, .pinf⟩, .dac⟩ : DItv)]))),
    .call (do (Cmd.run (.opD [(⟨⟨.ninf, (f (2476979795053773) (-51))⟩, .dac⟩ : DItv), (⟨⟨.ninf, .pinf⟩, .dac⟩ : DItv)])); (Cmd.run (.opD [((DItv.mulRevToPair binary64 (⟨⟨.ninf, (f (2476979795053773) (-51))⟩, .dac⟩ : DItv) (⟨⟨.ninf, .pinf⟩, .dac⟩ : DItv)).2 : DItv)]))),
    .call ((Cmd.run (.opD [(⟨⟨(f (-2) (0)), .pinf⟩, .dac⟩ : DItv), (⟨⟨.ninf, .pinf⟩, .dac⟩ : DItv)]))),
    .call (do (Cmd.run (.opD [(⟨⟨(f (-2) (0)), .pinf⟩, .dac⟩ : DItv), (⟨⟨.ninf, .pinf⟩, .dac⟩ : DItv)])); (Cmd.run (.opD [((DItv.mulRevToPair binary64 (⟨⟨(f (-2) (0)), .pinf⟩, .dac⟩ : DItv) (⟨⟨.ninf, .pinf⟩, .dac⟩ : DItv)).2 : DItv)]))),
    .call ((Cmd.run (.opD [(⟨⟨(f 0 0), .pinf⟩, .dac⟩ : DItv), (⟨⟨.ninf, .pinf⟩, .dac⟩ : DItv)]))),
    .call (do (Cmd.run (.opD [(⟨⟨(f 0 0), .pinf⟩, .dac⟩ : DItv), (⟨⟨.ninf, .pinf⟩, .dac⟩ : DItv)])); (Cmd.run (.opD [((DItv.mulRevToPair binary64 (⟨⟨(f 0 0), .pinf⟩, .dac⟩ : DItv) (⟨⟨.ninf, .pinf⟩, .dac⟩ : DItv)).2 : DItv)]))),
    .call ((Cmd.run (.opD [(⟨⟨(f (5764607523034235) (-59)), .pinf⟩, .dac⟩ : DItv), (⟨⟨.ninf, .pinf⟩, .dac⟩ : DItv)]))),
    .call (do (Cmd.run (.opD [(⟨⟨(f (5764607523034235) (-59)), .pinf⟩, .dac⟩ : DItv), (⟨⟨.ninf, .pinf⟩, .dac⟩ : DItv)])); (Cmd.run (.opD [((DItv.mulRevToPair binary64 (⟨⟨(f (5764607523034235) (-59)), .pinf⟩, .dac⟩ : DItv) (⟨⟨.ninf, .pinf⟩, .dac⟩ : DItv)).2 : DItv)]))),
    .call ((Cmd.run (.opD [(⟨⟨.ninf, .pinf⟩, .dac⟩ : DItv), (⟨⟨.ninf, .pinf⟩, .dac⟩ : DItv)]))),
    .call (do (Cmd.run (.opD [(⟨⟨.ninf, .pinf⟩, .dac⟩ : DItv), (⟨⟨.ninf, .pinf⟩, .dac⟩ : DItv)])); (Cmd.run (.opD [((DItv.mulRevToPair binary64 (⟨⟨.ninf, .pinf⟩, .dac⟩ : DItv) (⟨⟨.ninf, .pinf⟩, .dac⟩ : DItv)).2 : DItv)]))),
    .state 855 [],
    .call clearFlags,
    .call (do (Cmd.run (.opD [(⟨⟨(f 1 0), (f (-2) (0))⟩, .trv⟩ : DItv), (⟨⟨(f 1 0), (f 2 0)⟩, .com⟩ : DItv)])); (Cmd.run (.opD [((DItv.mulRevToPair binary64 (⟨⟨(f 1 0), (f (-2) (0))⟩, .trv⟩ : DItv) (⟨⟨(f 1 0), (f 2 0)⟩, .com⟩ : DItv)).1 : DItv)]))),
    .call (do (Cmd.run (.opD [(⟨⟨(f 1 0), (f (-2) (0))⟩, .dac⟩ : DItv), (⟨⟨(f 1 0), (f 2 0)⟩, .trv⟩ : DItv)])); (Cmd.run (.opD [((DItv.mulRevToPair binary64 (⟨⟨(f 1 0), (f (-2) (0))⟩, .dac⟩ : DItv) (⟨⟨(f 1 0), (f 2 0)⟩, .trv⟩ : DItv)).2 : DItv)]))),
    .state 860 [.invalidOperand],
    .call clearFlags,
    .call (setCwd (bitsOf [.invalidOperand])),
    .throws 863 ((Cmd.run (.opD [(⟨⟨(f 1 0), (f 2 0)⟩, .dac⟩ : DItv), (⟨⟨(f 1 0), (f (-2) (0))⟩, .ill⟩ : DItv)]))) .invalidOperand,
    .state 864 [.invalidOperand],
    .call clearFlags,
    .call (setCwd (bitsOf []))] ExSt.init = [] := by
  decide +kernel

/-- `minimal_mul_rev_to_pair_dec_mixedtype_test` -/
example : failed [
    .call (do (Cmd.run (.opD [(DItv.nai : DItv), (⟨⟨(f 1 0), (f 2 0)⟩, .dac⟩ : DItv)])); (Cmd.run (.opD [((DItv.mulRevToPairMixed .double .float .double (DItv.nai : DItv) (⟨⟨(f 1 0), (f 2 0)⟩, .dac⟩ : DItv)).1 : DItv)]))),
    .call (do (Cmd.run (.opD [(DItv.nai : DItv), (⟨⟨(f 1 0), (f 2 0)⟩, .dac⟩ : DItv)])); (Cmd.run (.opD [((DItv.mulRevToPairMixed .double .float .double (DItv.nai : DItv) (⟨⟨(f 1 0), (f 2 0)⟩, .dac⟩ : DItv)).2 : DItv)]))),
    .call (do (Cmd.run (.opD [(⟨⟨(f 1 0), (f 2 0)⟩, .dac⟩ : DItv), (DItv.nai : DItv)])); (Cmd.run (.opD [((DItv.mulRevToPairMixed .float .double .double (⟨⟨(f 1 0), (f 2 0)⟩, .dac⟩ : DItv) (DItv.nai : DItv)).1 : DItv)]))),
    .call (do (Cmd.run (.opD [(⟨⟨(f 1 0), (f 2 0)⟩, .dac⟩ : DItv), (DItv.nai : DItv)])); (Cmd.run (.opD [((DItv.mulRevToPairMixed .float .double .double (⟨⟨(f 1 0), (f 2 0)⟩, .dac⟩ : DItv) (DItv.nai : DItv)).2 : DItv)]))),
    .call (do (Cmd.run (.opD [(DItv.empty : DItv), (⟨⟨(f 1 0), (f 2 0)⟩, .dac⟩ : DItv)])); (Cmd.run (.opD [((DItv.mulRevToPairMixed .double .float .double (DItv.empty : DItv) (⟨⟨(f 1 0), (f 2 0)⟩, .dac⟩ : DItv)).1 : DItv)]))),
    .call (do (Cmd.run (.opD [(DItv.empty : DItv), (⟨⟨(f 1 0), (f 2 0)⟩, .dac⟩ : DItv)])); (Cmd.run (.opD [((DItv.mulRevToPairMixed .double .float .double (DItv.empty : DItv) (⟨⟨(f 1 0), (f 2 0)⟩, .dac⟩ : DItv)).2 : DItv)]))),
    .call (do (Cmd.run (.opD [(⟨⟨(f 1 0), (f 2 0)⟩, .dac⟩ : DItv), (DItv.empty : DItv)])); (Cmd.run (.opD [((DItv.mulRevToPairMixed .float .double .double (⟨⟨(f 1 0), (f 2 0)⟩, .dac⟩ : DItv) (DItv.empty : DItv)).1 : DItv)]))),
    .call (do (Cmd.run (.opD [(⟨⟨(f 1 0), (f 2 0)⟩, .dac⟩ : DItv), (DItv.empty : DItv)])); (Cmd.run (.opD [((DItv.mulRevToPairMixed .float .double .double (⟨⟨(f 1 0), (f 2 0)⟩, .dac⟩ : DItv) (DItv.empty : DItv)).2 : DItv)]))),
    .call ((Cmd.run (.opD [(⟨⟨(f (-2) (0)), (f (-3602879701896397) (-55))⟩, .dac⟩ : DItv), (⟨⟨(f (-4728779608739021) (-51)), (f (-3602879701896397) (-53))⟩, .dac⟩ : DItv)]))),
    .call (do (Cmd.run (.opD [(⟨⟨(f (-2) (0)), (f (-3602879701896397) (-55))⟩, .dac⟩ : DItv), (⟨⟨(f (-4728779608739021) (-51)), (f (-3602879701896397) (-53))⟩, .dac⟩ : DItv)])); (Cmd.run (.opD [((DItv.mulRevToPairMixed .float .double .double (⟨⟨(f (-2) (0)), (f (-3602879701896397) (-55))⟩, .dac⟩ : DItv) (⟨⟨(f (-4728779608739021) (-51)), (f (-3602879701896397) (-53))⟩, .dac⟩ : DItv)).2 : DItv)]))),
    .call ((Cmd.run (.opD [(⟨⟨(f (5764607523034235) (-59)), (f (2476979795053773) (-51))⟩, .dac⟩ : DItv), (⟨⟨(f (-4728779608739021) (-51)), (f 0 0)⟩, .dac⟩ : DItv)]))),
    .call (do (Cmd.run (.opD [(⟨⟨(f (5764607523034235) (-59)), (f (2476979795053773) (-51))⟩, .dac⟩ : DItv), (⟨⟨(f (-4728779608739021) (-51)), (f 0 0)⟩, .dac⟩ : DItv)])); (Cmd.run (.opD [((DItv.mulRevToPairMixed .float .double .double (⟨⟨(f (5764607523034235) (-59)), (f (2476979795053773) (-51))⟩, .dac⟩ : DItv) (⟨⟨(f (-4728779608739021) (-51)), (f 0 0)⟩, .dac⟩ : DItv)).2 : DItv)]))),
    .call ((Cmd.run (.opD [(⟨⟨(f (5764607523034235) (-59)), (f (2476979795053773) (-51))⟩, .dac⟩ : DItv), (⟨⟨(f (-4728779608739021) (-51)), (f (1080863910568919) (-53))⟩, .dac⟩ : DItv)]))),
    .call (do (Cmd.run (.opD [(⟨⟨(f (5764607523034235) (-59)), (f (2476979795053773) (-51))⟩, .dac⟩ : DItv), (⟨⟨(f (-4728779608739021) (-51)), (f (1080863910568919) (-53))⟩, .dac⟩ : DItv)])); (Cmd.run (.opD [((DItv.mulRevToPairMixed .float .double .double (⟨⟨(f (5764607523034235) (-59)), (f (2476979795053773) (-51))⟩, .dac⟩ : DItv) (⟨⟨(f (-4728779608739021) (-51)), (f (1080863910568919) (-53))⟩, .dac⟩ : DItv)).2 : DItv)]))),
    .call ((Cmd.run (.opD [(⟨⟨(f (5368709) (-29)), .pinf⟩, .dac⟩ : DItv), (⟨⟨(f 0 0), (f (16106127) (-27))⟩, .dac⟩ : DItv)]))),
    .call (do (Cmd.run (.opD [(⟨⟨(f (5368709) (-29)), .pinf⟩, .dac⟩ : DItv), (⟨⟨(f 0 0), (f (16106127) (-27))⟩, .dac⟩ : DItv)])); (Cmd.run (.opD [((DItv.mulRevToPairMixed .double .float .float (⟨⟨(f (5368709) (-29)), .pinf⟩, .dac⟩ : DItv) (⟨⟨(f 0 0), (f (16106127) (-27))⟩, .dac⟩ : DItv)).2 : DItv)]))),
    .call ((Cmd.run (.opD [(⟨⟨(f (-2) (0)), (f (9227469) (-23))⟩, .dac⟩ : DItv), (⟨⟨(f (5368709) (-29)), (f (16106127) (-27))⟩, .dac⟩ : DItv)]))),
    .call ((Cmd.run (.opD [(⟨⟨(f (-2) (0)), (f (9227469) (-23))⟩, .dac⟩ : DItv), (⟨⟨(f (5368709) (-29)), (f (16106127) (-27))⟩, .dac⟩ : DItv)]))),
    .call ((Cmd.run (.opD [(⟨⟨(f (-2) (0)), (f (9227469) (-23))⟩, .dac⟩ : DItv), (⟨⟨.ninf, (f (-3602879701896397) (-55))⟩, .dac⟩ : DItv)]))),
    .call ((Cmd.run (.opD [(⟨⟨(f (-2) (0)), (f (9227469) (-23))⟩, .dac⟩ : DItv), (⟨⟨.ninf, (f (-3602879701896397) (-55))⟩, .dac⟩ : DItv)]))),
    .call ((Cmd.run (.opD [(⟨⟨(f (-2) (0)), (f (2476979795053773) (-51))⟩, .dac⟩ : DItv), (⟨⟨(f (5764607523034235) (-57)), .pinf⟩, .dac⟩ : DItv)]))),
    .call ((Cmd.run (.opD [(⟨⟨(f (-2) (0)), (f (2476979795053773) (-51))⟩, .dac⟩ : DItv), (⟨⟨(f (5764607523034235) (-57)), .pinf⟩, .dac⟩ : DItv)]))),
    .state 908 [],
    .call clearFlags,
    .call (do (Cmd.run (.opD [(⟨⟨(f 1 0), (f (-2) (0))⟩, .dac⟩ : DItv), (⟨⟨(f 1 0), (f 2 0)⟩, .dac⟩ : DItv)])); (Cmd.run (.opD [((DItv.mulRevToPairMixed .float .double .double (⟨⟨(f 1 0), (f (-2) (0))⟩, .dac⟩ : DItv) (⟨⟨(f 1 0), (f 2 0)⟩, .dac⟩ : DItv)).1 : DItv)]))),
    .call (do (Cmd.run (.opD [(⟨⟨(f 1 0), (f (-2) (0))⟩, .dac⟩ : DItv), (⟨⟨(f 1 0), (f 2 0)⟩, .dac⟩ : DItv)])); (Cmd.run (.opD [((DItv.mulRevToPairMixed .float .double .double (⟨⟨(f 1 0), (f (-2) (0))⟩, .dac⟩ : DItv) (⟨⟨(f 1 0), (f 2 0)⟩, .dac⟩ : DItv)).2 : DItv)]))),
    .state 913 [.invalidOperand],
    .call clearFlags,
    .call (setCwd (bitsOf [.invalidOperand])),
    .throws 916 ((Cmd.run (.opD [(⟨⟨(f 1 0), (f 2 0)⟩, .dac⟩ : DItv), (⟨⟨(f 1 0), (f (-2) (0))⟩, .dac⟩ : DItv)]))) .invalidOperand,
    .state 917 [.invalidOperand],
    .call clearFlags,
    .call (setCwd (bitsOf []))] ExSt.init = [] := by
  decide +kernel

end P1788.Conform
