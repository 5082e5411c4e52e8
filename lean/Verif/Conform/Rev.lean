import Verif.Conform.Basic

/-!
# Conformance: rev_func

Generated from `/repo/test/p1788/flavor/infsup/setbased/test_mpfr_bin_ieee754_flavor_rev_func.cpp`: the assertions of the project's own test suite, evaluated in the
model by the kernel.  Each entry is (line in that file, value of the assertion).  These are tests of the model, not proofs of
properties.
-/

set_option maxRecDepth 100000

namespace P1788.Conform

example : ([
    (296, Itv.isEmpty (Itv.absRev (Itv.empty : Itv) (Itv.entire : Itv) : Itv)),
    (297, Itv.isEmpty (Itv.absRev (⟨(f (-2476979795053773) (-51)), (f (-3602879701896397) (-53))⟩ : Itv) (Itv.entire : Itv) : Itv)),
    (298, eqB (Itv.absRev (⟨(f 0 0), .pinf⟩ : Itv) (Itv.entire : Itv)) (Itv.entire)),
    (299, eqB (Itv.absRev (⟨(f (2476979795053773) (-51)), (f (4728779608739021) (-51))⟩ : Itv) (Itv.entire : Itv)) (⟨(f (-4728779608739021) (-51)), (f (4728779608739021) (-51))⟩)),
    (300, eqB (Itv.absRev (⟨(f (-2476979795053773) (-51)), (f 2 0)⟩ : Itv) (Itv.entire : Itv)) (⟨(f (-2) (0)), (f 2 0)⟩)),
    (301, eqB (Itv.absRev (⟨(f (-2476979795053773) (-51)), (f 0 0)⟩ : Itv) (Itv.entire : Itv)) (⟨(f 0 0), (f 0 0)⟩)),
    (302, eqB (Itv.absRev (⟨(f (-4278419646001971) (-51)), (f (3602879701896397) (-54))⟩ : Itv) (Itv.entire : Itv)) (⟨(f (-3602879701896397) (-54)), (f (3602879701896397) (-54))⟩)),
    (303, eqB (Itv.absRev (⟨(f 0 0), (f (3602879701896397) (-54))⟩ : Itv) (Itv.entire : Itv)) (⟨(f (-3602879701896397) (-54)), (f (3602879701896397) (-54))⟩)),
    (304, eqB (Itv.absRev (⟨(f (-3) (-1)), .pinf⟩ : Itv) (Itv.entire : Itv)) (⟨.ninf, .pinf⟩)),
    (307, Itv.isEmpty (Itv.absRev (⟨(f 1 0), (f (-9007199254740991) (971))⟩ : Itv) (Itv.entire : Itv) : Itv)),
    (320, Itv.isEmpty (Itv.absRev (Itv.empty : Itv) (⟨(f (-2476979795053773) (-51)), (f 5 0)⟩ : Itv) : Itv)),
    (321, Itv.isEmpty (Itv.absRev (⟨(f (-2476979795053773) (-51)), (f (-3602879701896397) (-53))⟩ : Itv) (⟨(f (-2476979795053773) (-51)), (f 5 0)⟩ : Itv) : Itv)),
    (322, eqB (Itv.absRev (⟨(f 0 0), .pinf⟩ : Itv) (⟨(f (-2476979795053773) (-51)), (f 5 0)⟩ : Itv)) (⟨(f (-2476979795053773) (-51)), (f 5 0)⟩)),
    (323, eqB (Itv.absRev (⟨(f (2476979795053773) (-51)), (f (4728779608739021) (-51))⟩ : Itv) (⟨(f (-1) (0)), (f 5 0)⟩ : Itv)) (⟨(f (2476979795053773) (-51)), (f (4728779608739021) (-51))⟩)),
    (324, eqB (Itv.absRev (⟨(f (-2476979795053773) (-51)), (f 2 0)⟩ : Itv) (⟨(f (-2476979795053773) (-51)), (f 5 0)⟩ : Itv)) (⟨(f (-2476979795053773) (-51)), (f 2 0)⟩)),
    (325, eqB (Itv.absRev (⟨(f (-2476979795053773) (-51)), (f 0 0)⟩ : Itv) (⟨(f (-2476979795053773) (-51)), (f 5 0)⟩ : Itv)) (⟨(f 0 0), (f 0 0)⟩)),
    (326, eqB (Itv.absRev (⟨(f (-4278419646001971) (-51)), (f (3602879701896397) (-54))⟩ : Itv) (⟨(f (-2476979795053773) (-51)), (f 5 0)⟩ : Itv)) (⟨(f (-3602879701896397) (-54)), (f (3602879701896397) (-54))⟩)),
    (329, Itv.isEmpty (Itv.absRev (⟨(f 1 0), (f (-9007199254740991) (971))⟩ : Itv) (⟨(f (-2476979795053773) (-51)), (f 5 0)⟩ : Itv) : Itv)),
    (342, Itv.isEmpty (Itv.revMixed (fun _ => Itv.absRev) .float .double .float (Itv.empty : Itv) (Itv.entire : Itv) : Itv)),
    (343, Itv.isEmpty (Itv.revMixed (fun _ => Itv.absRev) .double .float .double (⟨(f (-9227469) (-23)), (f (-13421773) (-25))⟩ : Itv) (Itv.entire : Itv) : Itv)),
    (344, eqB (Itv.revMixed (fun _ => Itv.absRev) .double .float .double (⟨(f 0 0), .pinf⟩ : Itv) (Itv.entire : Itv)) (Itv.entire)),
    (345, eqB (Itv.revMixed (fun _ => Itv.absRev) .double .float .double (⟨(f (9227469) (-23)), (f (4404019) (-21))⟩ : Itv) (Itv.entire : Itv)) (⟨(f (-4404019) (-21)), (f (4404019) (-21))⟩)),
    (346, eqB (Itv.revMixed (fun _ => Itv.absRev) .double .float .double (⟨(f (-9227469) (-23)), (f 2 0)⟩ : Itv) (Itv.entire : Itv)) (⟨(f (-2) (0)), (f 2 0)⟩)),
    (347, eqB (Itv.revMixed (fun _ => Itv.absRev) .float .double .float (⟨(f (-2476979795053773) (-51)), (f 0 0)⟩ : Itv) (Itv.entire : Itv)) (⟨(f 0 0), (f 0 0)⟩)),
    (348, eqB (Itv.revMixed (fun _ => Itv.absRev) .float .double .float (⟨(f (-4278419646001971) (-51)), (f (3602879701896397) (-54))⟩ : Itv) (Itv.entire : Itv)) (⟨(f (-13421773) (-26)), (f (13421773) (-26))⟩)),
    (349, eqB (Itv.revMixed (fun _ => Itv.absRev) .float .double .float (⟨(f 0 0), (f (3602879701896397) (-54))⟩ : Itv) (Itv.entire : Itv)) (⟨(f (-13421773) (-26)), (f (13421773) (-26))⟩)),
    (350, eqB (Itv.revMixed (fun _ => Itv.absRev) .float .double .float (⟨(f (-3) (-1)), .pinf⟩ : Itv) (Itv.entire : Itv)) (⟨.ninf, .pinf⟩)),
    (353, Itv.isEmpty (Itv.revMixed (fun _ => Itv.absRev) .float .double .float (⟨(f 1 0), (f (-9007199254740991) (971))⟩ : Itv) (Itv.entire : Itv) : Itv)),
    (366, Itv.isEmpty (Itv.revMixed (fun _ => Itv.absRev) .float .double .double (Itv.empty : Itv) (⟨(f (-2476979795053773) (-51)), (f 5 0)⟩ : Itv) : Itv)),
    (367, Itv.isEmpty (Itv.revMixed (fun _ => Itv.absRev) .double .float .float (⟨(f (-9227469) (-23)), (f (-13421773) (-25))⟩ : Itv) (⟨(f (-1) (0)), (f 5 0)⟩ : Itv) : Itv)),
    (368, eqB (Itv.revMixed (fun _ => Itv.absRev) .double .float .double (⟨(f 0 0), .pinf⟩ : Itv) (⟨(f (-2476979795053773) (-51)), (f 5 0)⟩ : Itv)) (⟨(f (-2476979795053773) (-51)), (f 5 0)⟩)),
    (369, eqB (Itv.revMixed (fun _ => Itv.absRev) .double .float .double (⟨(f (9227469) (-23)), (f (4404019) (-21))⟩ : Itv) (⟨(f (-2476979795053773) (-51)), (f 5 0)⟩ : Itv)) (⟨(f (9227469) (-23)), (f (4404019) (-21))⟩)),
    (370, eqB (Itv.revMixed (fun _ => Itv.absRev) .double .float .double (⟨(f (-9227469) (-23)), (f 2 0)⟩ : Itv) (⟨(f (-2476979795053773) (-51)), (f 5 0)⟩ : Itv)) (⟨(f (-2476979795053773) (-51)), (f 2 0)⟩)),
    (371, eqB (Itv.revMixed (fun _ => Itv.absRev) .float .double .double (⟨(f (-2476979795053773) (-51)), (f 0 0)⟩ : Itv) (⟨(f (-2476979795053773) (-51)), (f 5 0)⟩ : Itv)) (⟨(f 0 0), (f 0 0)⟩)),
    (372, eqB (Itv.revMixed (fun _ => Itv.absRev) .float .double .double (⟨(f (-4278419646001971) (-51)), (f (3602879701896397) (-54))⟩ : Itv) (⟨(f (-2476979795053773) (-51)), (f 5 0)⟩ : Itv)) (⟨(f (-13421773) (-26)), (f (13421773) (-26))⟩)),
    (375, Itv.isEmpty (Itv.revMixed (fun _ => Itv.absRev) .float .double .double (⟨(f 1 0), (f (-9007199254740991) (971))⟩ : Itv) (⟨(f (-2476979795053773) (-51)), (f 5 0)⟩ : Itv) : Itv)),
    (389, DItv.pred Itv.isEmpty (DItv.rev Itv.absRev (DItv.empty : DItv) (DItv.entire : DItv) : DItv)),
    (390, DItv.pred Itv.isEmpty (DItv.rev Itv.absRev (⟨⟨(f (-2476979795053773) (-51)), (f (-3602879701896397) (-53))⟩, .dac⟩ : DItv) (DItv.entire : DItv) : DItv)),
    (391, eqD (DItv.rev Itv.absRev (⟨⟨(f 0 0), .pinf⟩, .dac⟩ : DItv) (DItv.entire : DItv)) (⟨⟨.ninf, .pinf⟩, .trv⟩)),
    (392, eqD (DItv.rev Itv.absRev (⟨⟨(f (2476979795053773) (-51)), (f (4728779608739021) (-51))⟩, .com⟩ : DItv) (DItv.entire : DItv)) (⟨⟨(f (-4728779608739021) (-51)), (f (4728779608739021) (-51))⟩, .trv⟩)),
    (393, eqD (DItv.rev Itv.absRev (⟨⟨(f (-2476979795053773) (-51)), (f 2 0)⟩, .defd⟩ : DItv) (DItv.entire : DItv)) (⟨⟨(f (-2) (0)), (f 2 0)⟩, .trv⟩)),
    (394, eqD (DItv.rev Itv.absRev (⟨⟨(f (-2476979795053773) (-51)), (f 0 0)⟩, .dac⟩ : DItv) (DItv.entire : DItv)) (⟨⟨(f 0 0), (f 0 0)⟩, .trv⟩)),
    (395, eqD (DItv.rev Itv.absRev (⟨⟨(f (-4278419646001971) (-51)), (f (3602879701896397) (-54))⟩, .com⟩ : DItv) (DItv.entire : DItv)) (⟨⟨(f (-3602879701896397) (-54)), (f (3602879701896397) (-54))⟩, .trv⟩)),
    (396, eqD (DItv.rev Itv.absRev (⟨⟨(f 0 0), (f (3602879701896397) (-54))⟩, .defd⟩ : DItv) (DItv.entire : DItv)) (⟨⟨(f (-3602879701896397) (-54)), (f (3602879701896397) (-54))⟩, .trv⟩)),
    (397, eqD (DItv.rev Itv.absRev (⟨⟨(f (-3) (-1)), .pinf⟩, .defd⟩ : DItv) (DItv.entire : DItv)) (⟨⟨.ninf, .pinf⟩, .trv⟩)),
    (400, DItv.isNai (DItv.rev Itv.absRev (⟨⟨(f 1 0), (f (-9007199254740991) (971))⟩, .trv⟩ : DItv) (DItv.entire : DItv) : DItv)),
    (413, DItv.pred Itv.isEmpty (DItv.rev Itv.absRev (DItv.empty : DItv) (⟨⟨(f (-2476979795053773) (-51)), (f 5 0)⟩, .com⟩ : DItv) : DItv)),
    (414, DItv.pred Itv.isEmpty (DItv.rev Itv.absRev (⟨⟨(f (-2476979795053773) (-51)), (f (-3602879701896397) (-53))⟩, .dac⟩ : DItv) (⟨⟨(f (-2476979795053773) (-51)), (f 5 0)⟩, .dac⟩ : DItv) : DItv)),
    (415, eqD (DItv.rev Itv.absRev (⟨⟨(f 0 0), .pinf⟩, .defd⟩ : DItv) (⟨⟨(f (-2476979795053773) (-51)), (f 5 0)⟩, .defd⟩ : DItv)) (⟨⟨(f (-2476979795053773) (-51)), (f 5 0)⟩, .trv⟩)),
    (416, eqD (DItv.rev Itv.absRev (⟨⟨(f (2476979795053773) (-51)), (f (4728779608739021) (-51))⟩, .dac⟩ : DItv) (⟨⟨(f (-1) (0)), (f 5 0)⟩, .defd⟩ : DItv)) (⟨⟨(f (2476979795053773) (-51)), (f (4728779608739021) (-51))⟩, .trv⟩))] : List (ℕ × Bool)).all (·.2) = true := by
  decide +kernel

example : ([
    (417, eqD (DItv.rev Itv.absRev (⟨⟨(f (-2476979795053773) (-51)), (f 2 0)⟩, .com⟩ : DItv) (⟨⟨(f (-2476979795053773) (-51)), (f 5 0)⟩, .defd⟩ : DItv)) (⟨⟨(f (-2476979795053773) (-51)), (f 2 0)⟩, .trv⟩)),
    (418, eqD (DItv.rev Itv.absRev (⟨⟨(f (-2476979795053773) (-51)), (f 0 0)⟩, .defd⟩ : DItv) (⟨⟨(f (-2476979795053773) (-51)), (f 5 0)⟩, .defd⟩ : DItv)) (⟨⟨(f 0 0), (f 0 0)⟩, .trv⟩)),
    (419, eqD (DItv.rev Itv.absRev (⟨⟨(f (-4278419646001971) (-51)), (f (3602879701896397) (-54))⟩, .dac⟩ : DItv) (⟨⟨(f (-2476979795053773) (-51)), (f 5 0)⟩, .defd⟩ : DItv)) (⟨⟨(f (-3602879701896397) (-54)), (f (3602879701896397) (-54))⟩, .trv⟩)),
    (422, DItv.isNai (DItv.rev Itv.absRev (⟨⟨(f 1 0), (f (-9007199254740991) (971))⟩, .dac⟩ : DItv) (⟨⟨(f (-2476979795053773) (-51)), (f 5 0)⟩, .defd⟩ : DItv) : DItv)),
    (435, DItv.pred Itv.isEmpty (DItv.revMixed (fun _ => Itv.absRev) .float .double .float (DItv.empty : DItv) (DItv.entire : DItv) : DItv)),
    (436, DItv.pred Itv.isEmpty (DItv.revMixed (fun _ => Itv.absRev) .double .float .double (⟨⟨(f (-9227469) (-23)), (f (-13421773) (-25))⟩, .defd⟩ : DItv) (DItv.entire : DItv) : DItv)),
    (437, eqD (DItv.revMixed (fun _ => Itv.absRev) .double .float .double (⟨⟨(f 0 0), .pinf⟩, .dac⟩ : DItv) (DItv.entire : DItv)) (⟨⟨.ninf, .pinf⟩, .trv⟩)),
    (438, eqD (DItv.revMixed (fun _ => Itv.absRev) .double .float .double (⟨⟨(f (9227469) (-23)), (f (4404019) (-21))⟩, .defd⟩ : DItv) (DItv.entire : DItv)) (⟨⟨(f (-4404019) (-21)), (f (4404019) (-21))⟩, .trv⟩)),
    (439, eqD (DItv.revMixed (fun _ => Itv.absRev) .double .float .double (⟨⟨(f (-9227469) (-23)), (f 2 0)⟩, .com⟩ : DItv) (DItv.entire : DItv)) (⟨⟨(f (-2) (0)), (f 2 0)⟩, .trv⟩)),
    (440, eqD (DItv.revMixed (fun _ => Itv.absRev) .float .double .float (⟨⟨(f (-2476979795053773) (-51)), (f 0 0)⟩, .dac⟩ : DItv) (DItv.entire : DItv)) (⟨⟨(f 0 0), (f 0 0)⟩, .trv⟩)),
    (441, eqD (DItv.revMixed (fun _ => Itv.absRev) .float .double .float (⟨⟨(f (-4278419646001971) (-51)), (f (3602879701896397) (-54))⟩, .defd⟩ : DItv) (DItv.entire : DItv)) (⟨⟨(f (-13421773) (-26)), (f (13421773) (-26))⟩, .trv⟩)),
    (442, eqD (DItv.revMixed (fun _ => Itv.absRev) .float .double .float (⟨⟨(f 0 0), (f (3602879701896397) (-54))⟩, .com⟩ : DItv) (DItv.entire : DItv)) (⟨⟨(f (-13421773) (-26)), (f (13421773) (-26))⟩, .trv⟩)),
    (443, eqD (DItv.revMixed (fun _ => Itv.absRev) .float .double .float (⟨⟨(f (-3) (-1)), .pinf⟩, .dac⟩ : DItv) (DItv.entire : DItv)) (⟨⟨.ninf, .pinf⟩, .trv⟩)),
    (446, DItv.isNai (DItv.revMixed (fun _ => Itv.absRev) .float .double .float (⟨⟨(f 1 0), (f (-9007199254740991) (971))⟩, .defd⟩ : DItv) (DItv.entire : DItv) : DItv)),
    (459, DItv.pred Itv.isEmpty (DItv.revMixed (fun _ => Itv.absRev) .float .double .double (DItv.empty : DItv) (⟨⟨(f (-2476979795053773) (-51)), (f 5 0)⟩, .trv⟩ : DItv) : DItv)),
    (460, DItv.pred Itv.isEmpty (DItv.revMixed (fun _ => Itv.absRev) .double .float .float (⟨⟨(f (-9227469) (-23)), (f (-13421773) (-25))⟩, .defd⟩ : DItv) (⟨⟨(f (-1) (0)), (f 5 0)⟩, .dac⟩ : DItv) : DItv)),
    (461, eqD (DItv.revMixed (fun _ => Itv.absRev) .double .float .double (⟨⟨(f 0 0), .pinf⟩, .dac⟩ : DItv) (⟨⟨(f (-2476979795053773) (-51)), (f 5 0)⟩, .defd⟩ : DItv)) (⟨⟨(f (-2476979795053773) (-51)), (f 5 0)⟩, .trv⟩)),
    (462, eqD (DItv.revMixed (fun _ => Itv.absRev) .double .float .double (⟨⟨(f (9227469) (-23)), (f (4404019) (-21))⟩, .defd⟩ : DItv) (⟨⟨(f (-2476979795053773) (-51)), (f 5 0)⟩, .defd⟩ : DItv)) (⟨⟨(f (9227469) (-23)), (f (4404019) (-21))⟩, .trv⟩)),
    (463, eqD (DItv.revMixed (fun _ => Itv.absRev) .double .float .double (⟨⟨(f (-9227469) (-23)), (f 2 0)⟩, .defd⟩ : DItv) (⟨⟨(f (-2476979795053773) (-51)), (f 5 0)⟩, .dac⟩ : DItv)) (⟨⟨(f (-2476979795053773) (-51)), (f 2 0)⟩, .trv⟩)),
    (464, eqD (DItv.revMixed (fun _ => Itv.absRev) .float .double .double (⟨⟨(f (-2476979795053773) (-51)), (f 0 0)⟩, .com⟩ : DItv) (⟨⟨(f (-2476979795053773) (-51)), (f 5 0)⟩, .dac⟩ : DItv)) (⟨⟨(f 0 0), (f 0 0)⟩, .trv⟩)),
    (465, eqD (DItv.revMixed (fun _ => Itv.absRev) .float .double .double (⟨⟨(f (-4278419646001971) (-51)), (f (3602879701896397) (-54))⟩, .com⟩ : DItv) (⟨⟨(f (-2476979795053773) (-51)), (f 5 0)⟩, .com⟩ : DItv)) (⟨⟨(f (-13421773) (-26)), (f (13421773) (-26))⟩, .trv⟩)),
    (468, DItv.isNai (DItv.revMixed (fun _ => Itv.absRev) .float .double .double (⟨⟨(f 1 0), (f (-9007199254740991) (971))⟩, .defd⟩ : DItv) (⟨⟨(f (-2476979795053773) (-51)), (f 5 0)⟩, .trv⟩ : DItv) : DItv)),
    (1915, Itv.isEmpty (Itv.mulRev2 binary64 (Itv.empty : Itv) (⟨(f 1 0), (f 2 0)⟩ : Itv) : Itv)),
    (1916, Itv.isEmpty (Itv.mulRev2 binary64 (⟨(f 1 0), (f 2 0)⟩ : Itv) (Itv.empty : Itv) : Itv)),
    (1917, Itv.isEmpty (Itv.mulRev2 binary64 (Itv.empty : Itv) (Itv.empty : Itv) : Itv)),
    (1919, eqB (Itv.mulRev2 binary64 (⟨(f (-2) (0)), (f (-3602879701896397) (-55))⟩ : Itv) (⟨(f (-4728779608739021) (-51)), (f (-3602879701896397) (-53))⟩ : Itv)) (⟨(f (3602879701896397) (-54)), (f 21 0)⟩)),
    (1920, eqB (Itv.mulRev2 binary64 (⟨(f (-2) (0)), (f 0 0)⟩ : Itv) (⟨(f (-4728779608739021) (-51)), (f (-3602879701896397) (-53))⟩ : Itv)) (⟨(f (3602879701896397) (-54)), .pinf⟩)),
    (1921, eqB (Itv.mulRev2 binary64 (⟨(f (-2) (0)), (f (2476979795053773) (-51))⟩ : Itv) (⟨(f (-4728779608739021) (-51)), (f (-3602879701896397) (-53))⟩ : Itv)) (⟨.ninf, .pinf⟩)),
    (1922, eqB (Itv.mulRev2 binary64 (⟨(f 0 0), (f (2476979795053773) (-51))⟩ : Itv) (⟨(f (-4728779608739021) (-51)), (f (-3602879701896397) (-53))⟩ : Itv)) (⟨.ninf, (f (-6550690367084357) (-54))⟩)),
    (1923, eqB (Itv.mulRev2 binary64 (⟨(f (5764607523034235) (-59)), (f (2476979795053773) (-51))⟩ : Itv) (⟨(f (-4728779608739021) (-51)), (f (-3602879701896397) (-53))⟩ : Itv)) (⟨(f (-7388718138654721) (-45)), (f (-6550690367084357) (-54))⟩)),
    (1924, Itv.isEmpty (Itv.mulRev2 binary64 (⟨(f 0 0), (f 0 0)⟩ : Itv) (⟨(f (-4728779608739021) (-51)), (f (-3602879701896397) (-53))⟩ : Itv) : Itv)),
    (1925, eqB (Itv.mulRev2 binary64 (⟨.ninf, (f (-3602879701896397) (-55))⟩ : Itv) (⟨(f (-4728779608739021) (-51)), (f (-3602879701896397) (-53))⟩ : Itv)) (⟨(f 0 0), (f 21 0)⟩)),
    (1926, eqB (Itv.mulRev2 binary64 (⟨.ninf, (f 0 0)⟩ : Itv) (⟨(f (-4728779608739021) (-51)), (f (-3602879701896397) (-53))⟩ : Itv)) (⟨(f 0 0), .pinf⟩)),
    (1927, eqB (Itv.mulRev2 binary64 (⟨.ninf, (f (2476979795053773) (-51))⟩ : Itv) (⟨(f (-4728779608739021) (-51)), (f (-3602879701896397) (-53))⟩ : Itv)) (⟨.ninf, .pinf⟩)),
    (1928, eqB (Itv.mulRev2 binary64 (⟨(f (-2) (0)), .pinf⟩ : Itv) (⟨(f (-4728779608739021) (-51)), (f (-3602879701896397) (-53))⟩ : Itv)) (⟨.ninf, .pinf⟩)),
    (1929, eqB (Itv.mulRev2 binary64 (⟨(f 0 0), .pinf⟩ : Itv) (⟨(f (-4728779608739021) (-51)), (f (-3602879701896397) (-53))⟩ : Itv)) (⟨.ninf, (f 0 0)⟩)),
    (1930, eqB (Itv.mulRev2 binary64 (⟨(f (5764607523034235) (-59)), .pinf⟩ : Itv) (⟨(f (-4728779608739021) (-51)), (f (-3602879701896397) (-53))⟩ : Itv)) (⟨(f (-7388718138654721) (-45)), (f 0 0)⟩)),
    (1931, eqB (Itv.mulRev2 binary64 (⟨.ninf, .pinf⟩ : Itv) (⟨(f (-4728779608739021) (-51)), (f (-3602879701896397) (-53))⟩ : Itv)) (⟨.ninf, .pinf⟩)),
    (1933, eqB (Itv.mulRev2 binary64 (⟨(f (-2) (0)), (f (-3602879701896397) (-55))⟩ : Itv) (⟨(f (-4728779608739021) (-51)), (f 0 0)⟩ : Itv)) (⟨(f 0 0), (f 21 0)⟩)),
    (1934, eqB (Itv.mulRev2 binary64 (⟨(f (-2) (0)), (f 0 0)⟩ : Itv) (⟨(f (-4728779608739021) (-51)), (f 0 0)⟩ : Itv)) (⟨.ninf, .pinf⟩)),
    (1935, eqB (Itv.mulRev2 binary64 (⟨(f (-2) (0)), (f (2476979795053773) (-51))⟩ : Itv) (⟨(f (-4728779608739021) (-51)), (f 0 0)⟩ : Itv)) (⟨.ninf, .pinf⟩)),
    (1936, eqB (Itv.mulRev2 binary64 (⟨(f 0 0), (f (2476979795053773) (-51))⟩ : Itv) (⟨(f (-4728779608739021) (-51)), (f 0 0)⟩ : Itv)) (⟨.ninf, .pinf⟩)),
    (1937, eqB (Itv.mulRev2 binary64 (⟨(f (5764607523034235) (-59)), (f (2476979795053773) (-51))⟩ : Itv) (⟨(f (-4728779608739021) (-51)), (f 0 0)⟩ : Itv)) (⟨(f (-7388718138654721) (-45)), (f 0 0)⟩)),
    (1938, eqB (Itv.mulRev2 binary64 (⟨(f 0 0), (f 0 0)⟩ : Itv) (⟨(f (-4728779608739021) (-51)), (f 0 0)⟩ : Itv)) (⟨.ninf, .pinf⟩)),
    (1939, eqB (Itv.mulRev2 binary64 (⟨.ninf, (f (-3602879701896397) (-55))⟩ : Itv) (⟨(f (-4728779608739021) (-51)), (f 0 0)⟩ : Itv)) (⟨(f 0 0), (f 21 0)⟩)),
    (1940, eqB (Itv.mulRev2 binary64 (⟨.ninf, (f 0 0)⟩ : Itv) (⟨(f (-4728779608739021) (-51)), (f 0 0)⟩ : Itv)) (⟨.ninf, .pinf⟩)),
    (1941, eqB (Itv.mulRev2 binary64 (⟨.ninf, (f (2476979795053773) (-51))⟩ : Itv) (⟨(f (-4728779608739021) (-51)), (f 0 0)⟩ : Itv)) (⟨.ninf, .pinf⟩)),
    (1942, eqB (Itv.mulRev2 binary64 (⟨(f (-2) (0)), .pinf⟩ : Itv) (⟨(f (-4728779608739021) (-51)), (f 0 0)⟩ : Itv)) (⟨.ninf, .pinf⟩)),
    (1943, eqB (Itv.mulRev2 binary64 (⟨(f 0 0), .pinf⟩ : Itv) (⟨(f (-4728779608739021) (-51)), (f 0 0)⟩ : Itv)) (⟨.ninf, .pinf⟩)),
    (1944, eqB (Itv.mulRev2 binary64 (⟨(f (5764607523034235) (-59)), .pinf⟩ : Itv) (⟨(f (-4728779608739021) (-51)), (f 0 0)⟩ : Itv)) (⟨(f (-7388718138654721) (-45)), (f 0 0)⟩))] : List (ℕ × Bool)).all (·.2) = true := by
  decide +kernel

example : ([
    (1945, eqB (Itv.mulRev2 binary64 (⟨.ninf, .pinf⟩ : Itv) (⟨(f (-4728779608739021) (-51)), (f 0 0)⟩ : Itv)) (⟨.ninf, .pinf⟩)),
    (1947, eqB (Itv.mulRev2 binary64 (⟨(f (-2) (0)), (f (-3602879701896397) (-55))⟩ : Itv) (⟨(f (-4728779608739021) (-51)), (f (1080863910568919) (-53))⟩ : Itv)) (⟨(f (-5404319552844595) (-52)), (f 21 0)⟩)),
    (1948, eqB (Itv.mulRev2 binary64 (⟨(f (-2) (0)), (f 0 0)⟩ : Itv) (⟨(f (-4728779608739021) (-51)), (f (1080863910568919) (-53))⟩ : Itv)) (⟨.ninf, .pinf⟩)),
    (1949, eqB (Itv.mulRev2 binary64 (⟨(f (-2) (0)), (f (2476979795053773) (-51))⟩ : Itv) (⟨(f (-4728779608739021) (-51)), (f (1080863910568919) (-53))⟩ : Itv)) (⟨.ninf, .pinf⟩)),
    (1950, eqB (Itv.mulRev2 binary64 (⟨(f 0 0), (f (2476979795053773) (-51))⟩ : Itv) (⟨(f (-4728779608739021) (-51)), (f (1080863910568919) (-53))⟩ : Itv)) (⟨.ninf, .pinf⟩)),
    (1951, eqB (Itv.mulRev2 binary64 (⟨(f (5764607523034235) (-59)), (f (2476979795053773) (-51))⟩ : Itv) (⟨(f (-4728779608739021) (-51)), (f (1080863910568919) (-53))⟩ : Itv)) (⟨(f (-7388718138654721) (-45)), (f 12 0)⟩)),
    (1952, eqB (Itv.mulRev2 binary64 (⟨(f 0 0), (f 0 0)⟩ : Itv) (⟨(f (-4728779608739021) (-51)), (f (1080863910568919) (-53))⟩ : Itv)) (⟨.ninf, .pinf⟩)),
    (1953, eqB (Itv.mulRev2 binary64 (⟨.ninf, (f (-3602879701896397) (-55))⟩ : Itv) (⟨(f (-4728779608739021) (-51)), (f (1080863910568919) (-53))⟩ : Itv)) (⟨(f (-5404319552844595) (-52)), (f 21 0)⟩)),
    (1954, eqB (Itv.mulRev2 binary64 (⟨.ninf, (f 0 0)⟩ : Itv) (⟨(f (-4728779608739021) (-51)), (f (1080863910568919) (-53))⟩ : Itv)) (⟨.ninf, .pinf⟩)),
    (1955, eqB (Itv.mulRev2 binary64 (⟨.ninf, (f (2476979795053773) (-51))⟩ : Itv) (⟨(f (-4728779608739021) (-51)), (f (1080863910568919) (-53))⟩ : Itv)) (⟨.ninf, .pinf⟩)),
    (1956, eqB (Itv.mulRev2 binary64 (⟨(f (-2) (0)), .pinf⟩ : Itv) (⟨(f (-4728779608739021) (-51)), (f (1080863910568919) (-53))⟩ : Itv)) (⟨.ninf, .pinf⟩)),
    (1957, eqB (Itv.mulRev2 binary64 (⟨(f 0 0), .pinf⟩ : Itv) (⟨(f (-4728779608739021) (-51)), (f (1080863910568919) (-53))⟩ : Itv)) (⟨.ninf, .pinf⟩)),
    (1958, eqB (Itv.mulRev2 binary64 (⟨(f (5764607523034235) (-59)), .pinf⟩ : Itv) (⟨(f (-4728779608739021) (-51)), (f (1080863910568919) (-53))⟩ : Itv)) (⟨(f (-7388718138654721) (-45)), (f 12 0)⟩)),
    (1959, eqB (Itv.mulRev2 binary64 (⟨.ninf, .pinf⟩ : Itv) (⟨(f (-4728779608739021) (-51)), (f (1080863910568919) (-53))⟩ : Itv)) (⟨.ninf, .pinf⟩)),
    (1961, eqB (Itv.mulRev2 binary64 (⟨(f (-2) (0)), (f (-3602879701896397) (-55))⟩ : Itv) (⟨(f 0 0), (f (1080863910568919) (-53))⟩ : Itv)) (⟨(f (-5404319552844595) (-52)), (f 0 0)⟩)),
    (1962, eqB (Itv.mulRev2 binary64 (⟨(f (-2) (0)), (f 0 0)⟩ : Itv) (⟨(f 0 0), (f (1080863910568919) (-53))⟩ : Itv)) (⟨.ninf, .pinf⟩)),
    (1963, eqB (Itv.mulRev2 binary64 (⟨(f (-2) (0)), (f (2476979795053773) (-51))⟩ : Itv) (⟨(f 0 0), (f (1080863910568919) (-53))⟩ : Itv)) (⟨.ninf, .pinf⟩)),
    (1964, eqB (Itv.mulRev2 binary64 (⟨(f 0 0), (f (2476979795053773) (-51))⟩ : Itv) (⟨(f 0 0), (f (1080863910568919) (-53))⟩ : Itv)) (⟨.ninf, .pinf⟩)),
    (1965, eqB (Itv.mulRev2 binary64 (⟨(f (5764607523034235) (-59)), (f (2476979795053773) (-51))⟩ : Itv) (⟨(f 0 0), (f (1080863910568919) (-53))⟩ : Itv)) (⟨(f 0 0), (f 12 0)⟩)),
    (1966, eqB (Itv.mulRev2 binary64 (⟨(f 0 0), (f 0 0)⟩ : Itv) (⟨(f 0 0), (f (1080863910568919) (-53))⟩ : Itv)) (⟨.ninf, .pinf⟩)),
    (1967, eqB (Itv.mulRev2 binary64 (⟨.ninf, (f (-3602879701896397) (-55))⟩ : Itv) (⟨(f 0 0), (f (1080863910568919) (-53))⟩ : Itv)) (⟨(f (-5404319552844595) (-52)), (f 0 0)⟩)),
    (1968, eqB (Itv.mulRev2 binary64 (⟨.ninf, (f 0 0)⟩ : Itv) (⟨(f 0 0), (f (1080863910568919) (-53))⟩ : Itv)) (⟨.ninf, .pinf⟩)),
    (1969, eqB (Itv.mulRev2 binary64 (⟨.ninf, (f (2476979795053773) (-51))⟩ : Itv) (⟨(f 0 0), (f (1080863910568919) (-53))⟩ : Itv)) (⟨.ninf, .pinf⟩)),
    (1970, eqB (Itv.mulRev2 binary64 (⟨(f (-2) (0)), .pinf⟩ : Itv) (⟨(f 0 0), (f (1080863910568919) (-53))⟩ : Itv)) (⟨.ninf, .pinf⟩)),
    (1971, eqB (Itv.mulRev2 binary64 (⟨(f 0 0), .pinf⟩ : Itv) (⟨(f 0 0), (f (1080863910568919) (-53))⟩ : Itv)) (⟨.ninf, .pinf⟩)),
    (1972, eqB (Itv.mulRev2 binary64 (⟨(f (5764607523034235) (-59)), .pinf⟩ : Itv) (⟨(f 0 0), (f (1080863910568919) (-53))⟩ : Itv)) (⟨(f 0 0), (f 12 0)⟩)),
    (1973, eqB (Itv.mulRev2 binary64 (⟨.ninf, .pinf⟩ : Itv) (⟨(f 0 0), (f (1080863910568919) (-53))⟩ : Itv)) (⟨.ninf, .pinf⟩)),
    (1975, eqB (Itv.mulRev2 binary64 (⟨(f (-2) (0)), (f (-3602879701896397) (-55))⟩ : Itv) (⟨(f (5764607523034235) (-59)), (f (1080863910568919) (-53))⟩ : Itv)) (⟨(f (-5404319552844595) (-52)), (f (-5764607523034235) (-60))⟩)),
    (1976, eqB (Itv.mulRev2 binary64 (⟨(f (-2) (0)), (f 0 0)⟩ : Itv) (⟨(f (5764607523034235) (-59)), (f (1080863910568919) (-53))⟩ : Itv)) (⟨.ninf, (f (-5764607523034235) (-60))⟩)),
    (1977, eqB (Itv.mulRev2 binary64 (⟨(f (-2) (0)), (f (2476979795053773) (-51))⟩ : Itv) (⟨(f (5764607523034235) (-59)), (f (1080863910568919) (-53))⟩ : Itv)) (⟨.ninf, .pinf⟩)),
    (1978, eqB (Itv.mulRev2 binary64 (⟨(f 0 0), (f (2476979795053773) (-51))⟩ : Itv) (⟨(f (5764607523034235) (-59)), (f (1080863910568919) (-53))⟩ : Itv)) (⟨(f (5240552293667485) (-59)), .pinf⟩)),
    (1979, eqB (Itv.mulRev2 binary64 (⟨(f (5764607523034235) (-59)), (f (2476979795053773) (-51))⟩ : Itv) (⟨(f (5764607523034235) (-59)), (f (1080863910568919) (-53))⟩ : Itv)) (⟨(f (5240552293667485) (-59)), (f 12 0)⟩)),
    (1980, Itv.isEmpty (Itv.mulRev2 binary64 (⟨(f 0 0), (f 0 0)⟩ : Itv) (⟨(f (5764607523034235) (-59)), (f (1080863910568919) (-53))⟩ : Itv) : Itv)),
    (1981, eqB (Itv.mulRev2 binary64 (⟨.ninf, (f (-3602879701896397) (-55))⟩ : Itv) (⟨(f (5764607523034235) (-59)), (f (1080863910568919) (-53))⟩ : Itv)) (⟨(f (-5404319552844595) (-52)), (f 0 0)⟩)),
    (1982, eqB (Itv.mulRev2 binary64 (⟨.ninf, (f 0 0)⟩ : Itv) (⟨(f (5764607523034235) (-59)), (f (1080863910568919) (-53))⟩ : Itv)) (⟨.ninf, (f 0 0)⟩)),
    (1983, eqB (Itv.mulRev2 binary64 (⟨.ninf, (f (2476979795053773) (-51))⟩ : Itv) (⟨(f (5764607523034235) (-59)), (f (1080863910568919) (-53))⟩ : Itv)) (⟨.ninf, .pinf⟩)),
    (1984, eqB (Itv.mulRev2 binary64 (⟨(f (-2) (0)), .pinf⟩ : Itv) (⟨(f (5764607523034235) (-59)), (f (1080863910568919) (-53))⟩ : Itv)) (⟨.ninf, .pinf⟩)),
    (1985, eqB (Itv.mulRev2 binary64 (⟨(f 0 0), .pinf⟩ : Itv) (⟨(f (5764607523034235) (-59)), (f (1080863910568919) (-53))⟩ : Itv)) (⟨(f 0 0), .pinf⟩)),
    (1986, eqB (Itv.mulRev2 binary64 (⟨(f (5764607523034235) (-59)), .pinf⟩ : Itv) (⟨(f (5764607523034235) (-59)), (f (1080863910568919) (-53))⟩ : Itv)) (⟨(f 0 0), (f 12 0)⟩)),
    (1987, eqB (Itv.mulRev2 binary64 (⟨.ninf, .pinf⟩ : Itv) (⟨(f (5764607523034235) (-59)), (f (1080863910568919) (-53))⟩ : Itv)) (⟨.ninf, .pinf⟩)),
    (1989, eqB (Itv.mulRev2 binary64 (⟨(f (-2) (0)), (f (-3602879701896397) (-55))⟩ : Itv) (⟨(f 0 0), (f 0 0)⟩ : Itv)) (⟨(f 0 0), (f 0 0)⟩)),
    (1990, eqB (Itv.mulRev2 binary64 (⟨(f (-2) (0)), (f 0 0)⟩ : Itv) (⟨(f 0 0), (f 0 0)⟩ : Itv)) (⟨.ninf, .pinf⟩)),
    (1991, eqB (Itv.mulRev2 binary64 (⟨(f (-2) (0)), (f (2476979795053773) (-51))⟩ : Itv) (⟨(f 0 0), (f 0 0)⟩ : Itv)) (⟨.ninf, .pinf⟩)),
    (1992, eqB (Itv.mulRev2 binary64 (⟨(f 0 0), (f (2476979795053773) (-51))⟩ : Itv) (⟨(f 0 0), (f 0 0)⟩ : Itv)) (⟨.ninf, .pinf⟩)),
    (1993, eqB (Itv.mulRev2 binary64 (⟨(f (5764607523034235) (-59)), (f (2476979795053773) (-51))⟩ : Itv) (⟨(f 0 0), (f 0 0)⟩ : Itv)) (⟨(f 0 0), (f 0 0)⟩)),
    (1994, eqB (Itv.mulRev2 binary64 (⟨(f 0 0), (f 0 0)⟩ : Itv) (⟨(f 0 0), (f 0 0)⟩ : Itv)) (⟨.ninf, .pinf⟩)),
    (1995, eqB (Itv.mulRev2 binary64 (⟨.ninf, (f (-3602879701896397) (-55))⟩ : Itv) (⟨(f 0 0), (f 0 0)⟩ : Itv)) (⟨(f 0 0), (f 0 0)⟩)),
    (1996, eqB (Itv.mulRev2 binary64 (⟨.ninf, (f 0 0)⟩ : Itv) (⟨(f 0 0), (f 0 0)⟩ : Itv)) (⟨.ninf, .pinf⟩)),
    (1997, eqB (Itv.mulRev2 binary64 (⟨.ninf, (f (2476979795053773) (-51))⟩ : Itv) (⟨(f 0 0), (f 0 0)⟩ : Itv)) (⟨.ninf, .pinf⟩)),
    (1998, eqB (Itv.mulRev2 binary64 (⟨(f (-2) (0)), .pinf⟩ : Itv) (⟨(f 0 0), (f 0 0)⟩ : Itv)) (⟨.ninf, .pinf⟩))] : List (ℕ × Bool)).all (·.2) = true := by
  decide +kernel

example : ([
    (1999, eqB (Itv.mulRev2 binary64 (⟨(f 0 0), .pinf⟩ : Itv) (⟨(f 0 0), (f 0 0)⟩ : Itv)) (⟨.ninf, .pinf⟩)),
    (2000, eqB (Itv.mulRev2 binary64 (⟨(f (5764607523034235) (-59)), .pinf⟩ : Itv) (⟨(f 0 0), (f 0 0)⟩ : Itv)) (⟨(f 0 0), (f 0 0)⟩)),
    (2001, eqB (Itv.mulRev2 binary64 (⟨.ninf, .pinf⟩ : Itv) (⟨(f 0 0), (f 0 0)⟩ : Itv)) (⟨.ninf, .pinf⟩)),
    (2004, eqB (Itv.mulRev2 binary64 (⟨(f (-2) (0)), (f (-3602879701896397) (-55))⟩ : Itv) (⟨.ninf, (f (-3602879701896397) (-55))⟩ : Itv)) (⟨(f (3602879701896397) (-56)), .pinf⟩)),
    (2005, eqB (Itv.mulRev2 binary64 (⟨(f (-2) (0)), (f 0 0)⟩ : Itv) (⟨.ninf, (f (-3602879701896397) (-55))⟩ : Itv)) (⟨(f (3602879701896397) (-56)), .pinf⟩)),
    (2006, eqB (Itv.mulRev2 binary64 (⟨(f (-2) (0)), (f (2476979795053773) (-51))⟩ : Itv) (⟨.ninf, (f (-3602879701896397) (-55))⟩ : Itv)) (⟨.ninf, .pinf⟩)),
    (2007, eqB (Itv.mulRev2 binary64 (⟨(f 0 0), (f (2476979795053773) (-51))⟩ : Itv) (⟨.ninf, (f (-3602879701896397) (-55))⟩ : Itv)) (⟨.ninf, (f (-6550690367084357) (-56))⟩)),
    (2008, eqB (Itv.mulRev2 binary64 (⟨(f (5764607523034235) (-59)), (f (2476979795053773) (-51))⟩ : Itv) (⟨.ninf, (f (-3602879701896397) (-55))⟩ : Itv)) (⟨.ninf, (f (-6550690367084357) (-56))⟩)),
    (2009, Itv.isEmpty (Itv.mulRev2 binary64 (⟨(f 0 0), (f 0 0)⟩ : Itv) (⟨.ninf, (f (-3602879701896397) (-55))⟩ : Itv) : Itv)),
    (2010, eqB (Itv.mulRev2 binary64 (⟨.ninf, (f (-3602879701896397) (-55))⟩ : Itv) (⟨.ninf, (f (-3602879701896397) (-55))⟩ : Itv)) (⟨(f 0 0), .pinf⟩)),
    (2011, eqB (Itv.mulRev2 binary64 (⟨.ninf, (f 0 0)⟩ : Itv) (⟨.ninf, (f (-3602879701896397) (-55))⟩ : Itv)) (⟨(f 0 0), .pinf⟩)),
    (2012, eqB (Itv.mulRev2 binary64 (⟨.ninf, (f (2476979795053773) (-51))⟩ : Itv) (⟨.ninf, (f (-3602879701896397) (-55))⟩ : Itv)) (⟨.ninf, .pinf⟩)),
    (2013, eqB (Itv.mulRev2 binary64 (⟨(f (-2) (0)), .pinf⟩ : Itv) (⟨.ninf, (f (-3602879701896397) (-55))⟩ : Itv)) (⟨.ninf, .pinf⟩)),
    (2014, eqB (Itv.mulRev2 binary64 (⟨(f 0 0), .pinf⟩ : Itv) (⟨.ninf, (f (-3602879701896397) (-55))⟩ : Itv)) (⟨.ninf, (f 0 0)⟩)),
    (2015, eqB (Itv.mulRev2 binary64 (⟨(f (5764607523034235) (-59)), .pinf⟩ : Itv) (⟨.ninf, (f (-3602879701896397) (-55))⟩ : Itv)) (⟨.ninf, (f 0 0)⟩)),
    (2016, eqB (Itv.mulRev2 binary64 (⟨.ninf, .pinf⟩ : Itv) (⟨.ninf, (f (-3602879701896397) (-55))⟩ : Itv)) (⟨.ninf, .pinf⟩)),
    (2018, eqB (Itv.mulRev2 binary64 (⟨(f (-2) (0)), (f (-3602879701896397) (-55))⟩ : Itv) (⟨.ninf, (f 0 0)⟩ : Itv)) (⟨(f 0 0), .pinf⟩)),
    (2019, eqB (Itv.mulRev2 binary64 (⟨(f (-2) (0)), (f 0 0)⟩ : Itv) (⟨.ninf, (f 0 0)⟩ : Itv)) (⟨.ninf, .pinf⟩)),
    (2020, eqB (Itv.mulRev2 binary64 (⟨(f (-2) (0)), (f (2476979795053773) (-51))⟩ : Itv) (⟨.ninf, (f 0 0)⟩ : Itv)) (⟨.ninf, .pinf⟩)),
    (2021, eqB (Itv.mulRev2 binary64 (⟨(f 0 0), (f (2476979795053773) (-51))⟩ : Itv) (⟨.ninf, (f 0 0)⟩ : Itv)) (⟨.ninf, .pinf⟩)),
    (2022, eqB (Itv.mulRev2 binary64 (⟨(f (5764607523034235) (-59)), (f (2476979795053773) (-51))⟩ : Itv) (⟨.ninf, (f 0 0)⟩ : Itv)) (⟨.ninf, (f 0 0)⟩)),
    (2023, eqB (Itv.mulRev2 binary64 (⟨(f 0 0), (f 0 0)⟩ : Itv) (⟨.ninf, (f 0 0)⟩ : Itv)) (⟨.ninf, .pinf⟩)),
    (2024, eqB (Itv.mulRev2 binary64 (⟨.ninf, (f (-3602879701896397) (-55))⟩ : Itv) (⟨.ninf, (f 0 0)⟩ : Itv)) (⟨(f 0 0), .pinf⟩)),
    (2025, eqB (Itv.mulRev2 binary64 (⟨.ninf, (f 0 0)⟩ : Itv) (⟨.ninf, (f 0 0)⟩ : Itv)) (⟨.ninf, .pinf⟩)),
    (2026, eqB (Itv.mulRev2 binary64 (⟨.ninf, (f (2476979795053773) (-51))⟩ : Itv) (⟨.ninf, (f 0 0)⟩ : Itv)) (⟨.ninf, .pinf⟩)),
    (2027, eqB (Itv.mulRev2 binary64 (⟨(f (-2) (0)), .pinf⟩ : Itv) (⟨.ninf, (f 0 0)⟩ : Itv)) (⟨.ninf, .pinf⟩)),
    (2028, eqB (Itv.mulRev2 binary64 (⟨(f 0 0), .pinf⟩ : Itv) (⟨.ninf, (f 0 0)⟩ : Itv)) (⟨.ninf, .pinf⟩)),
    (2029, eqB (Itv.mulRev2 binary64 (⟨(f (5764607523034235) (-59)), .pinf⟩ : Itv) (⟨.ninf, (f 0 0)⟩ : Itv)) (⟨.ninf, (f 0 0)⟩)),
    (2030, eqB (Itv.mulRev2 binary64 (⟨.ninf, .pinf⟩ : Itv) (⟨.ninf, (f 0 0)⟩ : Itv)) (⟨.ninf, .pinf⟩)),
    (2032, eqB (Itv.mulRev2 binary64 (⟨(f (-2) (0)), (f (-3602879701896397) (-55))⟩ : Itv) (⟨.ninf, (f (5404319552844595) (-54))⟩ : Itv)) (⟨(f (-3) (0)), .pinf⟩)),
    (2033, eqB (Itv.mulRev2 binary64 (⟨(f (-2) (0)), (f 0 0)⟩ : Itv) (⟨.ninf, (f (5404319552844595) (-54))⟩ : Itv)) (⟨.ninf, .pinf⟩)),
    (2034, eqB (Itv.mulRev2 binary64 (⟨(f (-2) (0)), (f (2476979795053773) (-51))⟩ : Itv) (⟨.ninf, (f (5404319552844595) (-54))⟩ : Itv)) (⟨.ninf, .pinf⟩)),
    (2035, eqB (Itv.mulRev2 binary64 (⟨(f 0 0), (f (2476979795053773) (-51))⟩ : Itv) (⟨.ninf, (f (5404319552844595) (-54))⟩ : Itv)) (⟨.ninf, .pinf⟩)),
    (2036, eqB (Itv.mulRev2 binary64 (⟨(f (5764607523034235) (-59)), (f (2476979795053773) (-51))⟩ : Itv) (⟨.ninf, (f (5404319552844595) (-54))⟩ : Itv)) (⟨.ninf, (f 30 0)⟩)),
    (2037, eqB (Itv.mulRev2 binary64 (⟨(f 0 0), (f 0 0)⟩ : Itv) (⟨.ninf, (f (5404319552844595) (-54))⟩ : Itv)) (⟨.ninf, .pinf⟩)),
    (2038, eqB (Itv.mulRev2 binary64 (⟨.ninf, (f (-3602879701896397) (-55))⟩ : Itv) (⟨.ninf, (f (5404319552844595) (-54))⟩ : Itv)) (⟨(f (-3) (0)), .pinf⟩)),
    (2039, eqB (Itv.mulRev2 binary64 (⟨.ninf, (f 0 0)⟩ : Itv) (⟨.ninf, (f (5404319552844595) (-54))⟩ : Itv)) (⟨.ninf, .pinf⟩)),
    (2040, eqB (Itv.mulRev2 binary64 (⟨.ninf, (f (2476979795053773) (-51))⟩ : Itv) (⟨.ninf, (f (5404319552844595) (-54))⟩ : Itv)) (⟨.ninf, .pinf⟩)),
    (2041, eqB (Itv.mulRev2 binary64 (⟨(f (-2) (0)), .pinf⟩ : Itv) (⟨.ninf, (f (5404319552844595) (-54))⟩ : Itv)) (⟨.ninf, .pinf⟩)),
    (2042, eqB (Itv.mulRev2 binary64 (⟨(f 0 0), .pinf⟩ : Itv) (⟨.ninf, (f (5404319552844595) (-54))⟩ : Itv)) (⟨.ninf, .pinf⟩)),
    (2043, eqB (Itv.mulRev2 binary64 (⟨(f (5764607523034235) (-59)), .pinf⟩ : Itv) (⟨.ninf, (f (5404319552844595) (-54))⟩ : Itv)) (⟨.ninf, (f 30 0)⟩)),
    (2044, eqB (Itv.mulRev2 binary64 (⟨.ninf, .pinf⟩ : Itv) (⟨.ninf, (f (5404319552844595) (-54))⟩ : Itv)) (⟨.ninf, .pinf⟩)),
    (2046, eqB (Itv.mulRev2 binary64 (⟨(f (-2) (0)), (f (-3602879701896397) (-55))⟩ : Itv) (⟨(f (-7566047373982433) (-55)), .pinf⟩ : Itv)) (⟨.ninf, (f (4728779608739021) (-51))⟩)),
    (2047, eqB (Itv.mulRev2 binary64 (⟨(f (-2) (0)), (f 0 0)⟩ : Itv) (⟨(f (-7566047373982433) (-55)), .pinf⟩ : Itv)) (⟨.ninf, .pinf⟩)),
    (2048, eqB (Itv.mulRev2 binary64 (⟨(f (-2) (0)), (f (2476979795053773) (-51))⟩ : Itv) (⟨(f (-7566047373982433) (-55)), .pinf⟩ : Itv)) (⟨.ninf, .pinf⟩)),
    (2049, eqB (Itv.mulRev2 binary64 (⟨(f 0 0), (f (2476979795053773) (-51))⟩ : Itv) (⟨(f (-7566047373982433) (-55)), .pinf⟩ : Itv)) (⟨.ninf, .pinf⟩)),
    (2050, eqB (Itv.mulRev2 binary64 (⟨(f (5764607523034235) (-59)), (f (2476979795053773) (-51))⟩ : Itv) (⟨(f (-7566047373982433) (-55)), .pinf⟩ : Itv)) (⟨(f (-21) (0)), .pinf⟩)),
    (2051, eqB (Itv.mulRev2 binary64 (⟨(f 0 0), (f 0 0)⟩ : Itv) (⟨(f (-7566047373982433) (-55)), .pinf⟩ : Itv)) (⟨.ninf, .pinf⟩)),
    (2052, eqB (Itv.mulRev2 binary64 (⟨.ninf, (f (-3602879701896397) (-55))⟩ : Itv) (⟨(f (-7566047373982433) (-55)), .pinf⟩ : Itv)) (⟨.ninf, (f (4728779608739021) (-51))⟩)),
    (2053, eqB (Itv.mulRev2 binary64 (⟨.ninf, (f 0 0)⟩ : Itv) (⟨(f (-7566047373982433) (-55)), .pinf⟩ : Itv)) (⟨.ninf, .pinf⟩))] : List (ℕ × Bool)).all (·.2) = true := by
  decide +kernel

example : ([
    (2054, eqB (Itv.mulRev2 binary64 (⟨.ninf, (f (2476979795053773) (-51))⟩ : Itv) (⟨(f (-7566047373982433) (-55)), .pinf⟩ : Itv)) (⟨.ninf, .pinf⟩)),
    (2055, eqB (Itv.mulRev2 binary64 (⟨(f (-2) (0)), .pinf⟩ : Itv) (⟨(f (-7566047373982433) (-55)), .pinf⟩ : Itv)) (⟨.ninf, .pinf⟩)),
    (2056, eqB (Itv.mulRev2 binary64 (⟨(f 0 0), .pinf⟩ : Itv) (⟨(f (-7566047373982433) (-55)), .pinf⟩ : Itv)) (⟨.ninf, .pinf⟩)),
    (2057, eqB (Itv.mulRev2 binary64 (⟨(f (5764607523034235) (-59)), .pinf⟩ : Itv) (⟨(f (-7566047373982433) (-55)), .pinf⟩ : Itv)) (⟨(f (-21) (0)), .pinf⟩)),
    (2058, eqB (Itv.mulRev2 binary64 (⟨.ninf, .pinf⟩ : Itv) (⟨(f (-7566047373982433) (-55)), .pinf⟩ : Itv)) (⟨.ninf, .pinf⟩)),
    (2061, eqB (Itv.mulRev2 binary64 (⟨(f (-2) (0)), (f (-3602879701896397) (-55))⟩ : Itv) (⟨(f 0 0), .pinf⟩ : Itv)) (⟨.ninf, (f 0 0)⟩)),
    (2062, eqB (Itv.mulRev2 binary64 (⟨(f (-2) (0)), (f 0 0)⟩ : Itv) (⟨(f 0 0), .pinf⟩ : Itv)) (⟨.ninf, .pinf⟩)),
    (2063, eqB (Itv.mulRev2 binary64 (⟨(f (-2) (0)), (f (2476979795053773) (-51))⟩ : Itv) (⟨(f 0 0), .pinf⟩ : Itv)) (⟨.ninf, .pinf⟩)),
    (2064, eqB (Itv.mulRev2 binary64 (⟨(f 0 0), (f (2476979795053773) (-51))⟩ : Itv) (⟨(f 0 0), .pinf⟩ : Itv)) (⟨.ninf, .pinf⟩)),
    (2065, eqB (Itv.mulRev2 binary64 (⟨(f (5764607523034235) (-59)), (f (2476979795053773) (-51))⟩ : Itv) (⟨(f 0 0), .pinf⟩ : Itv)) (⟨(f 0 0), .pinf⟩)),
    (2066, eqB (Itv.mulRev2 binary64 (⟨(f 0 0), (f 0 0)⟩ : Itv) (⟨(f 0 0), .pinf⟩ : Itv)) (⟨.ninf, .pinf⟩)),
    (2067, eqB (Itv.mulRev2 binary64 (⟨.ninf, (f (-3602879701896397) (-55))⟩ : Itv) (⟨(f 0 0), .pinf⟩ : Itv)) (⟨.ninf, (f 0 0)⟩)),
    (2068, eqB (Itv.mulRev2 binary64 (⟨.ninf, (f 0 0)⟩ : Itv) (⟨(f 0 0), .pinf⟩ : Itv)) (⟨.ninf, .pinf⟩)),
    (2069, eqB (Itv.mulRev2 binary64 (⟨.ninf, (f (2476979795053773) (-51))⟩ : Itv) (⟨(f 0 0), .pinf⟩ : Itv)) (⟨.ninf, .pinf⟩)),
    (2070, eqB (Itv.mulRev2 binary64 (⟨(f (-2) (0)), .pinf⟩ : Itv) (⟨(f 0 0), .pinf⟩ : Itv)) (⟨.ninf, .pinf⟩)),
    (2071, eqB (Itv.mulRev2 binary64 (⟨(f 0 0), .pinf⟩ : Itv) (⟨(f 0 0), .pinf⟩ : Itv)) (⟨.ninf, .pinf⟩)),
    (2072, eqB (Itv.mulRev2 binary64 (⟨(f (5764607523034235) (-59)), .pinf⟩ : Itv) (⟨(f 0 0), .pinf⟩ : Itv)) (⟨(f 0 0), .pinf⟩)),
    (2073, eqB (Itv.mulRev2 binary64 (⟨.ninf, .pinf⟩ : Itv) (⟨(f 0 0), .pinf⟩ : Itv)) (⟨.ninf, .pinf⟩)),
    (2075, eqB (Itv.mulRev2 binary64 (⟨(f (-2) (0)), (f (-3602879701896397) (-55))⟩ : Itv) (⟨(f (5764607523034235) (-57)), .pinf⟩ : Itv)) (⟨.ninf, (f (-5764607523034235) (-58))⟩)),
    (2076, eqB (Itv.mulRev2 binary64 (⟨(f (-2) (0)), (f 0 0)⟩ : Itv) (⟨(f (5764607523034235) (-57)), .pinf⟩ : Itv)) (⟨.ninf, (f (-5764607523034235) (-58))⟩)),
    (2077, eqB (Itv.mulRev2 binary64 (⟨(f (-2) (0)), (f (2476979795053773) (-51))⟩ : Itv) (⟨(f (5764607523034235) (-57)), .pinf⟩ : Itv)) (⟨.ninf, .pinf⟩)),
    (2078, eqB (Itv.mulRev2 binary64 (⟨(f 0 0), (f (2476979795053773) (-51))⟩ : Itv) (⟨(f (5764607523034235) (-57)), .pinf⟩ : Itv)) (⟨(f (5240552293667485) (-57)), .pinf⟩)),
    (2079, eqB (Itv.mulRev2 binary64 (⟨(f (5764607523034235) (-59)), (f (2476979795053773) (-51))⟩ : Itv) (⟨(f (5764607523034235) (-57)), .pinf⟩ : Itv)) (⟨(f (5240552293667485) (-57)), .pinf⟩)),
    (2080, Itv.isEmpty (Itv.mulRev2 binary64 (⟨(f 0 0), (f 0 0)⟩ : Itv) (⟨(f (5764607523034235) (-57)), .pinf⟩ : Itv) : Itv)),
    (2081, eqB (Itv.mulRev2 binary64 (⟨.ninf, (f (-3602879701896397) (-55))⟩ : Itv) (⟨(f (5764607523034235) (-57)), .pinf⟩ : Itv)) (⟨.ninf, (f 0 0)⟩)),
    (2082, eqB (Itv.mulRev2 binary64 (⟨.ninf, (f 0 0)⟩ : Itv) (⟨(f (5764607523034235) (-57)), .pinf⟩ : Itv)) (⟨.ninf, (f 0 0)⟩)),
    (2083, eqB (Itv.mulRev2 binary64 (⟨.ninf, (f (2476979795053773) (-51))⟩ : Itv) (⟨(f (5764607523034235) (-57)), .pinf⟩ : Itv)) (⟨.ninf, .pinf⟩)),
    (2084, eqB (Itv.mulRev2 binary64 (⟨(f (-2) (0)), .pinf⟩ : Itv) (⟨(f (5764607523034235) (-57)), .pinf⟩ : Itv)) (⟨.ninf, .pinf⟩)),
    (2085, eqB (Itv.mulRev2 binary64 (⟨(f 0 0), .pinf⟩ : Itv) (⟨(f (5764607523034235) (-57)), .pinf⟩ : Itv)) (⟨(f 0 0), .pinf⟩)),
    (2086, eqB (Itv.mulRev2 binary64 (⟨(f (5764607523034235) (-59)), .pinf⟩ : Itv) (⟨(f (5764607523034235) (-57)), .pinf⟩ : Itv)) (⟨(f 0 0), .pinf⟩)),
    (2087, eqB (Itv.mulRev2 binary64 (⟨.ninf, .pinf⟩ : Itv) (⟨(f (5764607523034235) (-57)), .pinf⟩ : Itv)) (⟨.ninf, .pinf⟩)),
    (2089, eqB (Itv.mulRev2 binary64 (⟨(f (-2) (0)), (f (-3602879701896397) (-55))⟩ : Itv) (⟨.ninf, .pinf⟩ : Itv)) (⟨.ninf, .pinf⟩)),
    (2090, eqB (Itv.mulRev2 binary64 (⟨(f (-2) (0)), (f 0 0)⟩ : Itv) (⟨.ninf, .pinf⟩ : Itv)) (⟨.ninf, .pinf⟩)),
    (2091, eqB (Itv.mulRev2 binary64 (⟨(f (-2) (0)), (f (2476979795053773) (-51))⟩ : Itv) (⟨.ninf, .pinf⟩ : Itv)) (⟨.ninf, .pinf⟩)),
    (2092, eqB (Itv.mulRev2 binary64 (⟨(f 0 0), (f (2476979795053773) (-51))⟩ : Itv) (⟨.ninf, .pinf⟩ : Itv)) (⟨.ninf, .pinf⟩)),
    (2093, eqB (Itv.mulRev2 binary64 (⟨(f (5764607523034235) (-59)), (f (2476979795053773) (-51))⟩ : Itv) (⟨.ninf, .pinf⟩ : Itv)) (⟨.ninf, .pinf⟩)),
    (2094, eqB (Itv.mulRev2 binary64 (⟨(f 0 0), (f 0 0)⟩ : Itv) (⟨.ninf, .pinf⟩ : Itv)) (⟨.ninf, .pinf⟩)),
    (2095, eqB (Itv.mulRev2 binary64 (⟨.ninf, (f (-3602879701896397) (-55))⟩ : Itv) (⟨.ninf, .pinf⟩ : Itv)) (⟨.ninf, .pinf⟩)),
    (2096, eqB (Itv.mulRev2 binary64 (⟨.ninf, (f 0 0)⟩ : Itv) (⟨.ninf, .pinf⟩ : Itv)) (⟨.ninf, .pinf⟩)),
    (2097, eqB (Itv.mulRev2 binary64 (⟨.ninf, (f (2476979795053773) (-51))⟩ : Itv) (⟨.ninf, .pinf⟩ : Itv)) (⟨.ninf, .pinf⟩)),
    (2098, eqB (Itv.mulRev2 binary64 (⟨(f (-2) (0)), .pinf⟩ : Itv) (⟨.ninf, .pinf⟩ : Itv)) (⟨.ninf, .pinf⟩)),
    (2099, eqB (Itv.mulRev2 binary64 (⟨(f 0 0), .pinf⟩ : Itv) (⟨.ninf, .pinf⟩ : Itv)) (⟨.ninf, .pinf⟩)),
    (2100, eqB (Itv.mulRev2 binary64 (⟨(f (5764607523034235) (-59)), .pinf⟩ : Itv) (⟨.ninf, .pinf⟩ : Itv)) (⟨.ninf, .pinf⟩)),
    (2101, eqB (Itv.mulRev2 binary64 (⟨.ninf, .pinf⟩ : Itv) (⟨.ninf, .pinf⟩ : Itv)) (⟨.ninf, .pinf⟩)),
    (2103, Itv.isEmpty (Itv.mulRev binary64 (⟨(f (-9007199254740991) (-53)), (f (9007199254740991) (-53))⟩ : Itv) (⟨(f 1 0), (f 1 0)⟩ : Itv) (⟨(f 0 0), (f 1 0)⟩ : Itv) : Itv)),
    (2108, Itv.isEmpty (Itv.mulRev2 binary64 (⟨(f 1 0), (f (-2) (0))⟩ : Itv) (⟨(f 1 0), (f 2 0)⟩ : Itv) : Itv)),
    (2123, Itv.isEmpty (Itv.mulRev2Mixed .double .float .double (Itv.empty : Itv) (⟨(f 1 0), (f 2 0)⟩ : Itv) : Itv)),
    (2124, Itv.isEmpty (Itv.mulRev2Mixed .float .double .double (⟨(f 1 0), (f 2 0)⟩ : Itv) (Itv.empty : Itv) : Itv)),
    (2126, eqB (Itv.mulRev2Mixed .float .double .double (⟨(f (-2) (0)), (f (-3602879701896397) (-55))⟩ : Itv) (⟨(f (-4728779608739021) (-51)), (f (-3602879701896397) (-53))⟩ : Itv)) (⟨(f (3355443) (-24)), (f 21 0)⟩)),
    (2127, eqB (Itv.mulRev2Mixed .float .double .double (⟨(f (5764607523034235) (-59)), (f (2476979795053773) (-51))⟩ : Itv) (⟨(f (-4728779608739021) (-51)), (f 0 0)⟩ : Itv)) (⟨(f (-13762561) (-16)), (f 0 0)⟩))] : List (ℕ × Bool)).all (·.2) = true := by
  decide +kernel

example : ([
    (2128, eqB (Itv.mulRev2Mixed .float .double .double (⟨(f (5764607523034235) (-59)), (f (2476979795053773) (-51))⟩ : Itv) (⟨(f (-4728779608739021) (-51)), (f (1080863910568919) (-53))⟩ : Itv)) (⟨(f (-13762561) (-16)), (f 12 0)⟩)),
    (2129, eqB (Itv.mulRev2Mixed .double .float .float (⟨(f (5368709) (-29)), .pinf⟩ : Itv) (⟨(f 0 0), (f (16106127) (-27))⟩ : Itv)) (⟨(f 0 0), (f 12 0)⟩)),
    (2130, eqB (Itv.mulRev2Mixed .double .float .float (⟨(f (-2) (0)), (f (9227469) (-23))⟩ : Itv) (⟨(f (5368709) (-29)), (f (16106127) (-27))⟩ : Itv)) (⟨.ninf, .pinf⟩)),
    (2131, eqB (Itv.mulRev2Mixed .double .float .double (⟨(f (-2) (0)), (f (9227469) (-23))⟩ : Itv) (⟨.ninf, (f (-3602879701896397) (-55))⟩ : Itv)) (⟨.ninf, .pinf⟩)),
    (2132, eqB (Itv.mulRev2Mixed .float .double .double (⟨(f (-2) (0)), (f (2476979795053773) (-51))⟩ : Itv) (⟨(f (5764607523034235) (-57)), .pinf⟩ : Itv)) (⟨.ninf, .pinf⟩)),
    (2138, Itv.isEmpty (Itv.mulRev2Mixed .float .double .double (⟨(f 1 0), (f (-2) (0))⟩ : Itv) (⟨(f 1 0), (f 2 0)⟩ : Itv) : Itv)),
    (2150, eqB (Itv.mulRev binary64 (⟨(f (-2) (0)), (f (-3602879701896397) (-55))⟩ : Itv) (⟨(f (-4728779608739021) (-51)), (f (-3602879701896397) (-53))⟩ : Itv) (⟨(f (3602879701896397) (-55)), (f 15 0)⟩ : Itv)) (⟨(f (3602879701896397) (-54)), (f 15 0)⟩)),
    (2151, eqB (Itv.mulRev binary64 (⟨(f (-2) (0)), (f (2476979795053773) (-51))⟩ : Itv) (⟨(f (-4728779608739021) (-51)), (f (-3602879701896397) (-53))⟩ : Itv) (⟨.ninf, (f 0 0)⟩ : Itv)) (⟨.ninf, (f (-6550690367084357) (-54))⟩)),
    (2152, eqB (Itv.mulRev binary64 (⟨(f (5764607523034235) (-59)), (f (2476979795053773) (-51))⟩ : Itv) (⟨(f (-4728779608739021) (-51)), (f 0 0)⟩ : Itv) (⟨(f (-22) (0)), (f (-1) (0))⟩ : Itv)) (⟨(f (-22) (0)), (f (-1) (0))⟩)),
    (2153, Itv.isEmpty (Itv.mulRev binary64 (⟨.ninf, (f (-3602879701896397) (-55))⟩ : Itv) (⟨(f 0 0), (f (1080863910568919) (-53))⟩ : Itv) (⟨(f 1 0), .pinf⟩ : Itv) : Itv)),
    (2154, eqB (Itv.mulRev binary64 (⟨(f (-2) (0)), (f (2476979795053773) (-51))⟩ : Itv) (⟨(f (5764607523034235) (-57)), .pinf⟩ : Itv) (⟨(f 0 0), .pinf⟩ : Itv)) (⟨(f (5240552293667485) (-57)), .pinf⟩)),
    (2159, Itv.isEmpty (Itv.mulRev binary64 (⟨(f 1 0), (f (-2) (0))⟩ : Itv) (⟨(f 1 0), (f 2 0)⟩ : Itv) (⟨(f 5 0), (f 1 0)⟩ : Itv) : Itv)),
    (2174, eqB (Itv.mulRevMixed .float .double .double .double (⟨(f (-2) (0)), (f (-3602879701896397) (-55))⟩ : Itv) (⟨(f (-4728779608739021) (-51)), (f (-3602879701896397) (-53))⟩ : Itv) (⟨(f (3602879701896397) (-55)), (f 15 0)⟩ : Itv)) (⟨(f (3355443) (-24)), (f 15 0)⟩)),
    (2175, eqB (Itv.mulRevMixed .float .double .double .float (⟨(f (-2) (0)), (f (2476979795053773) (-51))⟩ : Itv) (⟨(f (5764607523034235) (-57)), .pinf⟩ : Itv) (⟨.ninf, (f 0 0)⟩ : Itv)) (⟨.ninf, (f (-5368709) (-28))⟩)),
    (2181, Itv.isEmpty (Itv.mulRevMixed .float .double .double .double (⟨(f 1 0), (f (-2) (0))⟩ : Itv) (⟨(f 1 0), (f 2 0)⟩ : Itv) (⟨(f 1 0), (f 2 0)⟩ : Itv) : Itv)),
    (2195, DItv.isNai (DItv.mulRev2 binary64 (DItv.nai : DItv) (⟨⟨(f 1 0), (f 2 0)⟩, .dac⟩ : DItv) : DItv)),
    (2196, DItv.isNai (DItv.mulRev2 binary64 (⟨⟨(f 1 0), (f 2 0)⟩, .dac⟩ : DItv) (DItv.nai : DItv) : DItv)),
    (2197, DItv.isNai (DItv.mulRev2 binary64 (DItv.nai : DItv) (DItv.nai : DItv) : DItv)),
    (2199, eqD (DItv.mulRev2 binary64 (⟨⟨(f (-2) (0)), (f (-3602879701896397) (-55))⟩, .dac⟩ : DItv) (⟨⟨(f (-4728779608739021) (-51)), (f (-3602879701896397) (-53))⟩, .dac⟩ : DItv)) (⟨⟨(f (3602879701896397) (-54)), (f 21 0)⟩, .trv⟩)),
    (2200, eqD (DItv.mulRev2 binary64 (⟨⟨(f (-2) (0)), (f (-3602879701896397) (-55))⟩, .defd⟩ : DItv) (⟨⟨(f (-4728779608739021) (-51)), (f 0 0)⟩, .defd⟩ : DItv)) (⟨⟨(f 0 0), (f 21 0)⟩, .trv⟩)),
    (2201, eqD (DItv.mulRev2 binary64 (⟨⟨(f (-2) (0)), (f (-3602879701896397) (-55))⟩, .com⟩ : DItv) (⟨⟨(f (-4728779608739021) (-51)), (f (1080863910568919) (-53))⟩, .dac⟩ : DItv)) (⟨⟨(f (-5404319552844595) (-52)), (f 21 0)⟩, .trv⟩)),
    (2202, eqD (DItv.mulRev2 binary64 (⟨⟨.ninf, (f (-3602879701896397) (-55))⟩, .dac⟩ : DItv) (⟨⟨(f 0 0), (f (1080863910568919) (-53))⟩, .com⟩ : DItv)) (⟨⟨(f (-5404319552844595) (-52)), (f 0 0)⟩, .trv⟩)),
    (2203, eqD (DItv.mulRev2 binary64 (⟨⟨(f (5764607523034235) (-59)), (f (2476979795053773) (-51))⟩, .defd⟩ : DItv) (⟨⟨(f (5764607523034235) (-59)), (f (1080863910568919) (-53))⟩, .dac⟩ : DItv)) (⟨⟨(f (5240552293667485) (-59)), (f 12 0)⟩, .trv⟩)),
    (2204, eqD (DItv.mulRev2 binary64 (⟨⟨(f (5764607523034235) (-59)), (f (2476979795053773) (-51))⟩, .dac⟩ : DItv) (⟨⟨.ninf, (f (5404319552844595) (-54))⟩, .defd⟩ : DItv)) (⟨⟨.ninf, (f 30 0)⟩, .trv⟩)),
    (2205, eqD (DItv.mulRev2 binary64 (⟨⟨.ninf, (f (-3602879701896397) (-55))⟩, .trv⟩ : DItv) (⟨⟨(f (-7566047373982433) (-55)), .pinf⟩, .dac⟩ : DItv)) (⟨⟨.ninf, (f (4728779608739021) (-51))⟩, .trv⟩)),
    (2210, DItv.isNai (DItv.mulRev2 binary64 (⟨⟨(f 1 0), (f (-2) (0))⟩, .dac⟩ : DItv) (⟨⟨(f 1 0), (f 2 0)⟩, .dac⟩ : DItv) : DItv)),
    (2226, eqD (DItv.mulRev2Mixed .float .double .double (⟨⟨(f (-2) (0)), (f (-3602879701896397) (-55))⟩, .dac⟩ : DItv) (⟨⟨(f (-4728779608739021) (-51)), (f (-3602879701896397) (-53))⟩, .dac⟩ : DItv)) (⟨⟨(f (3355443) (-24)), (f 21 0)⟩, .trv⟩)),
    (2227, eqD (DItv.mulRev2Mixed .float .double .double (⟨⟨(f (5764607523034235) (-59)), (f (2476979795053773) (-51))⟩, .defd⟩ : DItv) (⟨⟨(f (-4728779608739021) (-51)), (f 0 0)⟩, .com⟩ : DItv)) (⟨⟨(f (-13762561) (-16)), (f 0 0)⟩, .trv⟩)),
    (2228, eqD (DItv.mulRev2Mixed .float .double .double (⟨⟨(f (5764607523034235) (-59)), (f (2476979795053773) (-51))⟩, .trv⟩ : DItv) (⟨⟨(f (-4728779608739021) (-51)), (f (1080863910568919) (-53))⟩, .dac⟩ : DItv)) (⟨⟨(f (-13762561) (-16)), (f 12 0)⟩, .trv⟩)),
    (2235, DItv.isNai (DItv.mulRev2Mixed .float .double .double (⟨⟨(f 1 0), (f (-2) (0))⟩, .dac⟩ : DItv) (⟨⟨(f 1 0), (f 2 0)⟩, .dac⟩ : DItv) : DItv)),
    (2247, eqD (DItv.mulRev binary64 (⟨⟨(f (-2) (0)), (f (-3602879701896397) (-55))⟩, .dac⟩ : DItv) (⟨⟨(f (-4728779608739021) (-51)), (f (-3602879701896397) (-53))⟩, .dac⟩ : DItv) (⟨⟨(f (3602879701896397) (-55)), (f 15 0)⟩, .dac⟩ : DItv)) (⟨⟨(f (3602879701896397) (-54)), (f 15 0)⟩, .trv⟩)),
    (2248, eqD (DItv.mulRev binary64 (⟨⟨(f (-2) (0)), (f (2476979795053773) (-51))⟩, .defd⟩ : DItv) (⟨⟨(f (-4728779608739021) (-51)), (f (-3602879701896397) (-53))⟩, .com⟩ : DItv) (⟨⟨.ninf, (f 0 0)⟩, .dac⟩ : DItv)) (⟨⟨.ninf, (f (-6550690367084357) (-54))⟩, .trv⟩)),
    (2249, eqD (DItv.mulRev binary64 (⟨⟨(f (5764607523034235) (-59)), (f (2476979795053773) (-51))⟩, .com⟩ : DItv) (⟨⟨(f (-4728779608739021) (-51)), (f 0 0)⟩, .dac⟩ : DItv) (⟨⟨(f (-22) (0)), (f (-1) (0))⟩, .dac⟩ : DItv)) (⟨⟨(f (-22) (0)), (f (-1) (0))⟩, .trv⟩)),
    (2250, DItv.pred Itv.isEmpty (DItv.mulRev binary64 (⟨⟨.ninf, (f (-3602879701896397) (-55))⟩, .dac⟩ : DItv) (⟨⟨(f 0 0), (f (1080863910568919) (-53))⟩, .com⟩ : DItv) (⟨⟨(f 1 0), .pinf⟩, .dac⟩ : DItv) : DItv)),
    (2251, eqD (DItv.mulRev binary64 (⟨⟨(f (-2) (0)), (f (2476979795053773) (-51))⟩, .defd⟩ : DItv) (⟨⟨(f (5764607523034235) (-57)), .pinf⟩, .dac⟩ : DItv) (⟨⟨(f 0 0), .pinf⟩, .dac⟩ : DItv)) (⟨⟨(f (5240552293667485) (-57)), .pinf⟩, .trv⟩)),
    (2256, DItv.isNai (DItv.mulRev binary64 (⟨⟨(f 1 0), (f (-2) (0))⟩, .ill⟩ : DItv) (⟨⟨(f 1 0), (f 2 0)⟩, .dac⟩ : DItv) (⟨⟨(f 5 0), (f 1 0)⟩, .dac⟩ : DItv) : DItv)),
    (2271, eqD (DItv.mulRevMixed .float .double .double .double (⟨⟨(f (-2) (0)), (f (-3602879701896397) (-55))⟩, .defd⟩ : DItv) (⟨⟨(f (-4728779608739021) (-51)), (f (-3602879701896397) (-53))⟩, .defd⟩ : DItv) (⟨⟨(f (3602879701896397) (-55)), (f 15 0)⟩, .defd⟩ : DItv)) (⟨⟨(f (3355443) (-24)), (f 15 0)⟩, .trv⟩)),
    (2272, eqD (DItv.mulRevMixed .float .double .double .float (⟨⟨(f (-2) (0)), (f (2476979795053773) (-51))⟩, .dac⟩ : DItv) (⟨⟨(f (5764607523034235) (-57)), .pinf⟩, .dac⟩ : DItv) (⟨⟨.ninf, (f 0 0)⟩, .defd⟩ : DItv)) (⟨⟨.ninf, (f (-5368709) (-28))⟩, .trv⟩)),
    (2278, DItv.isNai (DItv.mulRevMixed .float .double .double .double (⟨⟨(f 1 0), (f (-2) (0))⟩, .dac⟩ : DItv) (⟨⟨(f 1 0), (f 2 0)⟩, .com⟩ : DItv) (⟨⟨(f 1 0), (f 2 0)⟩, .ill⟩ : DItv) : DItv))] : List (ℕ × Bool)).all (·.2) = true := by
  decide +kernel

end P1788.Conform
