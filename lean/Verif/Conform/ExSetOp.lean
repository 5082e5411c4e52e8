import Verif.Conform.Basic

/-!
# Conformance: set_op, exceptions

Generated from `/repo/test/p1788/flavor/infsup/setbased/test_mpfr_bin_ieee754_flavor_set_op.cpp`: the assertions of the project's own test suite, evaluated in the
model by the kernel.  Each test case is the list of its calls and of its
assertions, with their lines, about the exception flags and about thrown exceptions.  These are tests of the model, not proofs of
properties.
-/

set_option maxRecDepth 100000

namespace P1788.Conform

/-- `minimal_intersection_test` -/
example : failed [
    .call ((Cmd.run (.op [(⟨(f 1 0), (f 3 0)⟩ : Itv), (⟨(f (4728779608739021) (-51)), (f 4 0)⟩ : Itv)]))),
    .call ((Cmd.run (.op [(⟨(f 1 0), (f 3 0)⟩ : Itv), (⟨(f 3 0), (f 4 0)⟩ : Itv)]))),
    .call (do (Cmd.run (.op [(⟨(f 1 0), (f 3 0)⟩ : Itv), (Itv.empty : Itv)])); (Cmd.run (.op [(Itv.inter (⟨(f 1 0), (f 3 0)⟩ : Itv) (Itv.empty : Itv) : Itv)]))),
    .call (do (Cmd.run (.op [(Itv.entire : Itv), (Itv.empty : Itv)])); (Cmd.run (.op [(Itv.inter (Itv.entire : Itv) (Itv.empty : Itv) : Itv)]))),
    .call ((Cmd.run (.op [(⟨(f 1 0), (f 3 0)⟩ : Itv), (Itv.entire : Itv)]))),
    .state 56 [],
    .call clearFlags,
    .call (do (Cmd.run (.op [(⟨(f 1 0), (f (-3) (0))⟩ : Itv), (Itv.entire : Itv)])); (Cmd.run (.op [(Itv.inter (⟨(f 1 0), (f (-3) (0))⟩ : Itv) (Itv.entire : Itv) : Itv)]))),
    .state 60 [.invalidOperand],
    .call clearFlags,
    .call (setCwd (bitsOf [.invalidOperand])),
    .throws 63 ((Cmd.run (.op [(⟨(f 1 0), (f 3 0)⟩ : Itv), (⟨(f 1 0), .nan⟩ : Itv)]))) .invalidOperand,
    .state 64 [.invalidOperand],
    .call clearFlags,
    .call (setCwd (bitsOf []))] ExSt.init = [] := by
  decide +kernel

/-- `minimal_intersection_mixedtype_test` -/
example : failed [
    .call ((Cmd.run (.op [(⟨(f (-1) (0)), (f 3 0)⟩ : Itv), (⟨(f (1) (-1074)), (f 4 0)⟩ : Itv)]))),
    .call ((Cmd.run (.op [(⟨(f 1 0), (f 3 0)⟩ : Itv), (⟨(f 3 0), (f 4 0)⟩ : Itv)]))),
    .call (do (Cmd.run (.op [(⟨(f 1 0), (f 3 0)⟩ : Itv), (Itv.empty : Itv)])); (Cmd.run (.op [(Itv.interMixed .double .float .double (⟨(f 1 0), (f 3 0)⟩ : Itv) (Itv.empty : Itv) : Itv)]))),
    .call (do (Cmd.run (.op [(Itv.entire : Itv), (Itv.empty : Itv)])); (Cmd.run (.op [(Itv.interMixed .float .double .double (Itv.entire : Itv) (Itv.empty : Itv) : Itv)]))),
    .call ((Cmd.run (.op [(⟨(f 1 0), (f 3 0)⟩ : Itv), (Itv.entire : Itv)]))),
    .state 77 [],
    .call clearFlags,
    .call (do (Cmd.run (.op [(⟨(f 1 0), (f (-3) (0))⟩ : Itv), (Itv.entire : Itv)])); (Cmd.run (.op [(Itv.interMixed .float .double .float (⟨(f 1 0), (f (-3) (0))⟩ : Itv) (Itv.entire : Itv) : Itv)]))),
    .state 81 [.invalidOperand],
    .call clearFlags,
    .call (setCwd (bitsOf [.invalidOperand])),
    .throws 84 ((Cmd.run (.op [(⟨(f 1 0), (f 3 0)⟩ : Itv), (⟨(f 1 0), .nan⟩ : Itv)]))) .invalidOperand,
    .state 85 [.invalidOperand],
    .call clearFlags,
    .call (setCwd (bitsOf []))] ExSt.init = [] := by
  decide +kernel

/-- `minimal_intersection_dec_test` -/
example : failed [
    .call ((Cmd.run (.opD [(⟨⟨(f 1 0), (f 3 0)⟩, .com⟩ : DItv), (⟨⟨(f (4728779608739021) (-51)), (f 4 0)⟩, .com⟩ : DItv)]))),
    .call ((Cmd.run (.opD [(⟨⟨(f 1 0), (f 3 0)⟩, .dac⟩ : DItv), (⟨⟨(f 3 0), (f 4 0)⟩, .defd⟩ : DItv)]))),
    .call (do (Cmd.run (.opD [(⟨⟨(f 1 0), (f 3 0)⟩, .defd⟩ : DItv), (DItv.empty : DItv)])); (Cmd.run (.opD [(DItv.inter (⟨⟨(f 1 0), (f 3 0)⟩, .defd⟩ : DItv) (DItv.empty : DItv) : DItv)]))),
    .call (do (Cmd.run (.opD [(DItv.entire : DItv), (DItv.empty : DItv)])); (Cmd.run (.opD [(DItv.inter (DItv.entire : DItv) (DItv.empty : DItv) : DItv)]))),
    .call ((Cmd.run (.opD [(⟨⟨(f 1 0), (f 3 0)⟩, .dac⟩ : DItv), (DItv.entire : DItv)]))),
    .state 98 [],
    .call clearFlags,
    .call (do (Cmd.run (.opD [(⟨⟨(f 1 0), (f (-3) (0))⟩, .com⟩ : DItv), (⟨⟨(f (4728779608739021) (-51)), (f 4 0)⟩, .com⟩ : DItv)])); (Cmd.run (.opD [(DItv.inter (⟨⟨(f 1 0), (f (-3) (0))⟩, .com⟩ : DItv) (⟨⟨(f (4728779608739021) (-51)), (f 4 0)⟩, .com⟩ : DItv) : DItv)]))),
    .state 102 [.invalidOperand],
    .call clearFlags,
    .call (setCwd (bitsOf [.invalidOperand])),
    .throws 105 ((Cmd.run (.opD [(⟨⟨(f 1 0), (f 3 0)⟩, .com⟩ : DItv), (⟨⟨(f (4728779608739021) (-51)), .pinf⟩, .com⟩ : DItv)]))) .invalidOperand,
    .state 106 [.invalidOperand],
    .call clearFlags,
    .call (setCwd (bitsOf []))] ExSt.init = [] := by
  decide +kernel

/-- `minimal_intersection_dec_mixedtype_test` -/
example : failed [
    .call ((Cmd.run (.opD [(⟨⟨(f (-1) (0)), (f 3 0)⟩, .com⟩ : DItv), (⟨⟨(f (1) (-1074)), (f 4 0)⟩, .com⟩ : DItv)]))),
    .call ((Cmd.run (.opD [(⟨⟨(f 1 0), (f 3 0)⟩, .dac⟩ : DItv), (⟨⟨(f 3 0), (f 4 0)⟩, .defd⟩ : DItv)]))),
    .call (do (Cmd.run (.opD [(⟨⟨(f 1 0), (f 3 0)⟩, .defd⟩ : DItv), (DItv.empty : DItv)])); (Cmd.run (.opD [(DItv.interMixed .double .float .double (⟨⟨(f 1 0), (f 3 0)⟩, .defd⟩ : DItv) (DItv.empty : DItv) : DItv)]))),
    .call (do (Cmd.run (.opD [(DItv.entire : DItv), (DItv.empty : DItv)])); (Cmd.run (.opD [(DItv.interMixed .float .double .double (DItv.entire : DItv) (DItv.empty : DItv) : DItv)]))),
    .call ((Cmd.run (.opD [(⟨⟨(f 1 0), (f 3 0)⟩, .dac⟩ : DItv), (DItv.entire : DItv)]))),
    .state 120 [],
    .call clearFlags,
    .call (do (Cmd.run (.opD [(⟨⟨(f 1 0), (f (-3) (0))⟩, .com⟩ : DItv), (⟨⟨(f (4728779608739021) (-51)), (f 4 0)⟩, .com⟩ : DItv)])); (Cmd.run (.opD [(DItv.interMixed .float .double .double (⟨⟨(f 1 0), (f (-3) (0))⟩, .com⟩ : DItv) (⟨⟨(f (4728779608739021) (-51)), (f 4 0)⟩, .com⟩ : DItv) : DItv)]))),
    .state 124 [.invalidOperand],
    .call clearFlags,
    .call (setCwd (bitsOf [.invalidOperand])),
    .throws 127 ((Cmd.run (.opD [(⟨⟨(f 1 0), (f 3 0)⟩, .com⟩ : DItv), (⟨⟨(f (4728779608739021) (-51)), .pinf⟩, .com⟩ : DItv)]))) .invalidOperand,
    .state 128 [.invalidOperand],
    .call clearFlags,
    .call (setCwd (bitsOf []))] ExSt.init = [] := by
  decide +kernel

/-- `minimal_convex_hull_test` -/
example : failed [
    .call ((Cmd.run (.op [(⟨(f 1 0), (f 3 0)⟩ : Itv), (⟨(f (4728779608739021) (-51)), (f 4 0)⟩ : Itv)]))),
    .call ((Cmd.run (.op [(⟨(f 1 0), (f 1 0)⟩ : Itv), (⟨(f (4728779608739021) (-51)), (f 4 0)⟩ : Itv)]))),
    .call ((Cmd.run (.op [(⟨(f 1 0), (f 3 0)⟩ : Itv), (Itv.empty : Itv)]))),
    .call (do (Cmd.run (.op [(Itv.empty : Itv), (Itv.empty : Itv)])); (Cmd.run (.op [(Itv.hull (Itv.empty : Itv) (Itv.empty : Itv) : Itv)]))),
    .call ((Cmd.run (.op [(⟨(f 1 0), (f 3 0)⟩ : Itv), (Itv.entire : Itv)]))),
    .state 141 [],
    .call clearFlags,
    .call (do (Cmd.run (.op [(⟨(f 1 0), (f (-3) (0))⟩ : Itv), (Itv.entire : Itv)])); (Cmd.run (.op [(Itv.hull (⟨(f 1 0), (f (-3) (0))⟩ : Itv) (Itv.entire : Itv) : Itv)]))),
    .state 145 [.invalidOperand],
    .call clearFlags,
    .call (setCwd (bitsOf [.invalidOperand])),
    .throws 148 ((Cmd.run (.op [(⟨(f 1 0), (f 3 0)⟩ : Itv), (⟨(f 1 0), .nan⟩ : Itv)]))) .invalidOperand,
    .state 149 [.invalidOperand],
    .call clearFlags,
    .call (setCwd (bitsOf []))] ExSt.init = [] := by
  decide +kernel

/-- `minimal_convex_hull_mixedtype_test` -/
example : failed [
    .call ((Cmd.run (.op [(⟨(f (1) (-1074)), (f 3 0)⟩ : Itv), (⟨(f (4278419646001971) (-50)), (f 4 0)⟩ : Itv)]))),
    .call ((Cmd.run (.op [(⟨(f 1 0), (f 1 0)⟩ : Itv), (⟨(f (4728779608739021) (-51)), (f 4 0)⟩ : Itv)]))),
    .call ((Cmd.run (.op [(⟨(f 1 0), (f 3 0)⟩ : Itv), (Itv.empty : Itv)]))),
    .call (do (Cmd.run (.op [(Itv.empty : Itv), (Itv.empty : Itv)])); (Cmd.run (.op [(Itv.hullMixed .double .float .double (Itv.empty : Itv) (Itv.empty : Itv) : Itv)]))),
    .call ((Cmd.run (.op [(⟨(f 1 0), (f 3 0)⟩ : Itv), (Itv.entire : Itv)]))),
    .state 162 [],
    .call clearFlags,
    .call (do (Cmd.run (.op [(⟨(f 1 0), (f (-3) (0))⟩ : Itv), (Itv.entire : Itv)])); (Cmd.run (.op [(Itv.hullMixed .float .double .double (⟨(f 1 0), (f (-3) (0))⟩ : Itv) (Itv.entire : Itv) : Itv)]))),
    .state 166 [.invalidOperand],
    .call clearFlags,
    .call (setCwd (bitsOf [.invalidOperand])),
    .throws 169 ((Cmd.run (.op [(⟨(f 1 0), (f 3 0)⟩ : Itv), (⟨(f 1 0), .nan⟩ : Itv)]))) .invalidOperand,
    .state 170 [.invalidOperand],
    .call clearFlags,
    .call (setCwd (bitsOf []))] ExSt.init = [] := by
  decide +kernel

/-- `minimal_convex_hull_dec_test` -/
example : failed [
    .call ((Cmd.run (.opD [(⟨⟨(f 1 0), (f 3 0)⟩, .trv⟩ : DItv), (⟨⟨(f (4728779608739021) (-51)), (f 4 0)⟩, .trv⟩ : DItv)]))),
    .call ((Cmd.run (.opD [(⟨⟨(f 1 0), (f 1 0)⟩, .trv⟩ : DItv), (⟨⟨(f (4728779608739021) (-51)), (f 4 0)⟩, .trv⟩ : DItv)]))),
    .call ((Cmd.run (.opD [(⟨⟨(f 1 0), (f 3 0)⟩, .trv⟩ : DItv), (DItv.empty : DItv)]))),
    .call (do (Cmd.run (.opD [(DItv.empty : DItv), (DItv.empty : DItv)])); (Cmd.run (.opD [(DItv.hull (DItv.empty : DItv) (DItv.empty : DItv) : DItv)]))),
    .call ((Cmd.run (.opD [(⟨⟨(f 1 0), (f 3 0)⟩, .trv⟩ : DItv), (DItv.entire : DItv)]))),
    .state 184 [],
    .call clearFlags,
    .call (do (Cmd.run (.opD [(⟨⟨(f 1 0), (f (-3) (0))⟩, .trv⟩ : DItv), (DItv.entire : DItv)])); (Cmd.run (.opD [(DItv.hull (⟨⟨(f 1 0), (f (-3) (0))⟩, .trv⟩ : DItv) (DItv.entire : DItv) : DItv)]))),
    .state 188 [.invalidOperand],
    .call clearFlags,
    .call (setCwd (bitsOf [.invalidOperand])),
    .throws 191 ((Cmd.run (.opD [(⟨⟨(f 1 0), (f 3 0)⟩, .trv⟩ : DItv), (⟨⟨(f 1 0), .nan⟩, .trv⟩ : DItv)]))) .invalidOperand,
    .state 192 [.invalidOperand],
    .call clearFlags,
    .call (setCwd (bitsOf []))] ExSt.init = [] := by
  decide +kernel

/-- `minimal_convex_hull_dec_mixedtype_test` -/
example : failed [
    .call ((Cmd.run (.opD [(⟨⟨(f (1) (-1074)), (f 3 0)⟩, .trv⟩ : DItv), (⟨⟨(f (4278419646001971) (-50)), (f 4 0)⟩, .trv⟩ : DItv)]))),
    .call ((Cmd.run (.opD [(⟨⟨(f 1 0), (f 1 0)⟩, .trv⟩ : DItv), (⟨⟨(f (4728779608739021) (-51)), (f 4 0)⟩, .trv⟩ : DItv)]))),
    .call ((Cmd.run (.opD [(⟨⟨(f 1 0), (f 3 0)⟩, .trv⟩ : DItv), (DItv.empty : DItv)]))),
    .call (do (Cmd.run (.opD [(DItv.empty : DItv), (DItv.empty : DItv)])); (Cmd.run (.opD [(DItv.hullMixed .double .float .double (DItv.empty : DItv) (DItv.empty : DItv) : DItv)]))),
    .call ((Cmd.run (.opD [(⟨⟨(f 1 0), (f 3 0)⟩, .trv⟩ : DItv), (DItv.entire : DItv)]))),
    .state 206 [],
    .call clearFlags,
    .call (do (Cmd.run (.opD [(⟨⟨(f 1 0), (f (-3) (0))⟩, .trv⟩ : DItv), (DItv.entire : DItv)])); (Cmd.run (.opD [(DItv.hullMixed .float .double .double (⟨⟨(f 1 0), (f (-3) (0))⟩, .trv⟩ : DItv) (DItv.entire : DItv) : DItv)]))),
    .state 210 [.invalidOperand],
    .call clearFlags,
    .call (setCwd (bitsOf [.invalidOperand])),
    .throws 213 ((Cmd.run (.opD [(⟨⟨(f 1 0), (f 3 0)⟩, .trv⟩ : DItv), (⟨⟨(f 1 0), .nan⟩, .trv⟩ : DItv)]))) .invalidOperand,
    .state 214 [.invalidOperand],
    .call clearFlags,
    .call (setCwd (bitsOf []))] ExSt.init = [] := by
  decide +kernel

end P1788.Conform
