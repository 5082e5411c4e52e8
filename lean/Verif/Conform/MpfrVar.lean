import Verif.Conform.Basic
import Verif.Model.MpfrVar

/-!
# Conformance: the wrapper of MPFR, the helpers for streams, the manipulators

Generated from `/repo/test/p1788/util/test_mpfr_var.cpp`, `test_mpfr_util.cpp`, `test_io.cpp` and `/repo/test/p1788/io/test_io_manip.cpp`: the
assertions of the project's own test suite, evaluated in the model by the kernel.  Each entry is (line in that file, value of
the assertion).  These are tests of the model, not proofs of properties.
-/

set_option maxRecDepth 100000

namespace P1788.Conform

/-- `set(x, rnd)` for a number: `mpfr_set_ui`, `mpfr_set_si`, `mpfr_set_flt`, `mpfr_set_d`, `mpfr_set_ld` are operations of MPFR with the
exact result `x`; then `subnormalize`. `mpfr_var_impl.hpp:146-216`. -/
def setv (φ : Fmt) (m : Rnd) : FP → FP
  | .fin x => (φ.var.subnormalize φ.var.range m (φ.var.range.op φ.var.prec m x)).1
  | x => x

/-- `get<long int>`: `mpfr_get_si`, `mpfr_var_impl.hpp:72-81`. -/
def getL (m : Rnd) (x : FP) : ℤ := max (-2 ^ 63) (min (2 ^ 63 - 1) (roundInt m x.q))

/-- `get<unsigned long int>`: `mpfr_get_ui`, `mpfr_var_impl.hpp:83-91`. -/
def getUL (m : Rnd) (x : FP) : ℤ := max 0 (min (2 ^ 64 - 1) (roundInt m x.q))

/-- `get_str` yields the text. -/
def str (φ : Fmt) (m : Rnd) (r : NumRep) (w p : ℕ) (up : Bool) (x : FP) (t : String) : Bool :=
  match φ.getStr 64 m r w p up x with
  | .ok l => decide (l = t.toList)
  | _ => false

/-- `test_mpfr_var.cpp`: setting and getting numbers. -/
example : ([
  (48, decide (binary32.get .N .nan = .nan)),
  (49, decide (binary64.get .D .nan = .nan)),
  (50, decide (x87ext.get .D .nan = .nan)),
  (55, decide (binary32.get .U .nan = .nan)),
  (56, decide (binary64.get .N .nan = .nan)),
  (57, decide (x87ext.get .N .nan = .nan)),
  (66, (binary32.get .N (setv binary32 .N (.fin (12)))).feq (.fin (12))),
  (67, (binary64.get .U (setv binary32 .N (.fin (12)))).feq (.fin (12))),
  (68, (x87ext.get .U (setv binary32 .N (.fin (12)))).feq (.fin (12))),
  (69, decide (getL .U (setv binary32 .N (.fin (12))) = 12)),
  (70, decide (getUL .U (setv binary32 .N (.fin (12))) = 12)),
  (71, (setv binary32 .N (.fin (12))).feq (.fin (12))),
  (74, (binary32.get .D (setv binary32 .U (.fin (47)))).feq (.fin (47))),
  (75, (binary64.get .N (setv binary32 .U (.fin (47)))).feq (.fin (47))),
  (76, (x87ext.get .N (setv binary32 .U (.fin (47)))).feq (.fin (47))),
  (77, decide (getL .N (setv binary32 .U (.fin (47))) = 47)),
  (78, decide (getUL .N (setv binary32 .U (.fin (47))) = 47)),
  (79, (setv binary32 .U (.fin (47))).feq (.fin (47))),
  (85, (binary32.get .U (setv binary64 .D (.fin (12)))).feq (.fin (12))),
  (86, (binary64.get .N (setv binary64 .D (.fin (12)))).feq (.fin (12))),
  (87, (x87ext.get .N (setv binary64 .D (.fin (12)))).feq (.fin (12))),
  (88, decide (getL .N (setv binary64 .D (.fin (12))) = 12)),
  (89, decide (getUL .N (setv binary64 .D (.fin (12))) = 12)),
  (90, (setv binary64 .D (.fin (12))).feq (.fin (12))),
  (93, (binary32.get .N (setv binary32 .N (.fin (47)))).feq (.fin (47))),
  (94, (binary64.get .D (setv binary32 .N (.fin (47)))).feq (.fin (47))),
  (95, (x87ext.get .D (setv binary32 .N (.fin (47)))).feq (.fin (47))),
  (96, decide (getL .D (setv binary32 .N (.fin (47))) = 47)),
  (97, decide (getUL .D (setv binary32 .N (.fin (47))) = 47)),
  (98, (setv binary32 .N (.fin (47))).feq (.fin (47))),
  (106, (binary32.get .U (setv binary32 .N (.fin (12)))).feq (.fin (12))),
  (107, (binary64.get .N (setv binary32 .N (.fin (12)))).feq (.fin (12))),
  (108, (x87ext.get .N (setv binary32 .N (.fin (12)))).feq (.fin (12))),
  (109, decide (getL .N (setv binary32 .N (.fin (12))) = 12)),
  (110, decide (getUL .N (setv binary32 .N (.fin (12))) = 12)),
  (111, (setv binary32 .N (.fin (12))).feq (.fin (12))),
  (114, (binary32.get .N (setv binary32 .D (.fin (-47)))).feq (.fin (-47))),
  (115, (binary64.get .D (setv binary32 .D (.fin (-47)))).feq (.fin (-47))),
  (116, (x87ext.get .D (setv binary32 .D (.fin (-47)))).feq (.fin (-47))),
  (117, decide (getL .D (setv binary32 .D (.fin (-47))) = -47)),
  (118, decide (getUL .D (setv binary32 .D (.fin (-47))) = 0)),
  (119, (setv binary32 .D (.fin (-47))).feq (.fin (-47))),
  (125, (binary32.get .N (setv binary64 .U (.fin (-12)))).feq (.fin (-12))),
  (126, (binary64.get .D (setv binary64 .U (.fin (-12)))).feq (.fin (-12))),
  (127, (x87ext.get .D (setv binary64 .U (.fin (-12)))).feq (.fin (-12))),
  (128, decide (getL .D (setv binary64 .U (.fin (-12))) = -12)),
  (129, decide (getUL .D (setv binary64 .U (.fin (-12))) = 0)),
  (130, (setv binary64 .U (.fin (-12))).feq (.fin (-12))),
  (133, (binary32.get .U (setv binary32 .N (.fin (47)))).feq (.fin (47))),
  (134, (binary64.get .N (setv binary32 .N (.fin (47)))).feq (.fin (47))),
  (135, (x87ext.get .N (setv binary32 .N (.fin (47)))).feq (.fin (47))),
  (136, decide (getL .N (setv binary32 .N (.fin (47))) = 47)),
  (137, decide (getUL .N (setv binary32 .N (.fin (47))) = 47)),
  (138, (setv binary32 .N (.fin (47))).feq (.fin (47))),
  (146, (binary32.get .N (setv binary32 .U (.fin (12897485/1048576)))).feq (.fin (12897485/1048576))),
  (147, (binary64.get .U (setv binary32 .U (.fin (12897485/1048576)))).feq (.fin (12897485/1048576))),
  (148, (x87ext.get .U (setv binary32 .U (.fin (12897485/1048576)))).feq (.fin (12897485/1048576))),
  (149, decide (getL .U (setv binary32 .U (.fin (12897485/1048576))) = 13)),
  (150, decide (getUL .U (setv binary32 .U (.fin (12897485/1048576))) = 13)),
  (151, (setv binary32 .U (.fin (12897485/1048576))).feq (.fin (12897485/1048576))),
  (154, (binary32.get .N (setv binary32 .N (.fin (-4928307/1048576)))).feq (.fin (-4928307/1048576))),
  (155, (binary64.get .D (setv binary32 .N (.fin (-4928307/1048576)))).feq (.fin (-4928307/1048576))),
  (156, (x87ext.get .D (setv binary32 .N (.fin (-4928307/1048576)))).feq (.fin (-4928307/1048576))),
  (157, decide (getL .D (setv binary32 .N (.fin (-4928307/1048576))) = -5)),
  (158, decide (getUL .D (setv binary32 .N (.fin (-4928307/1048576))) = 0)),
  (159, (setv binary32 .N (.fin (-4928307/1048576))).feq (.fin (-4928307/1048576))),
  (165, (binary32.get .N (setv binary64 .D (.fin (-12897485/1048576)))).feq (.fin (-12897485/1048576))),
  (166, (binary64.get .D (setv binary64 .D (.fin (-12897485/1048576)))).feq (.fin (-12897485/1048576))),
  (167, (x87ext.get .D (setv binary64 .D (.fin (-12897485/1048576)))).feq (.fin (-12897485/1048576))),
  (168, decide (getL .D (setv binary64 .D (.fin (-12897485/1048576))) = -13)),
  (169, decide (getUL .D (setv binary64 .D (.fin (-12897485/1048576))) = 0)),
  (170, (setv binary64 .D (.fin (-12897485/1048576))).feq (.fin (-12897485/1048576))),
  (173, (binary32.get .N (setv binary32 .N (.fin (95/2)))).feq (.fin (95/2))),
  (174, (binary64.get .U (setv binary32 .N (.fin (95/2)))).feq (.fin (95/2))),
  (175, (x87ext.get .U (setv binary32 .N (.fin (95/2)))).feq (.fin (95/2))),
  (176, decide (getL .U (setv binary32 .N (.fin (95/2))) = 48)),
  (177, decide (getUL .U (setv binary32 .N (.fin (95/2))) = 48)),
  (178, (setv binary32 .N (.fin (95/2))).feq (.fin (95/2))),
  (186, (binary32.get .U (setv binary32 .D (.fin (3462142213541069/281474976710656)))).feq (.fin (3224371/262144))),
  (187, (binary64.get .N (setv binary32 .D (.fin (3462142213541069/281474976710656)))).feq (.fin (3224371/262144))),
  (188, (x87ext.get .N (setv binary32 .D (.fin (3462142213541069/281474976710656)))).feq (.fin (3224371/262144))),
  (189, decide (getL .N (setv binary32 .D (.fin (3462142213541069/281474976710656))) = 12)),
  (190, decide (getUL .N (setv binary32 .D (.fin (3462142213541069/281474976710656))) = 12)),
  (191, (setv binary32 .D (.fin (3462142213541069/281474976710656))).feq (.fin (3224371/262144))),
  (194, (binary32.get .D (setv binary32 .N (.fin (-5291729562160333/1125899906842624)))).feq (.fin (-4928307/1048576))),
  (195, (binary64.get .N (setv binary32 .N (.fin (-5291729562160333/1125899906842624)))).feq (.fin (-4928307/1048576))),
  (196, (x87ext.get .N (setv binary32 .N (.fin (-5291729562160333/1125899906842624)))).feq (.fin (-4928307/1048576))),
  (197, decide (getL .N (setv binary32 .N (.fin (-5291729562160333/1125899906842624))) = -5)),
  (198, decide (getUL .N (setv binary32 .N (.fin (-5291729562160333/1125899906842624))) = 0)),
  (199, (setv binary32 .N (.fin (-5291729562160333/1125899906842624))).feq (.fin (-4928307/1048576))),
  (205, (binary32.get .N (setv binary64 .U (.fin (-3462142213541069/281474976710656)))).feq (.fin (-12897485/1048576))),
  (206, (binary64.get .U (setv binary64 .U (.fin (-3462142213541069/281474976710656)))).feq (.fin (-3462142213541069/281474976710656))),
  (207, (x87ext.get .U (setv binary64 .U (.fin (-3462142213541069/281474976710656)))).feq (.fin (-3462142213541069/281474976710656))),
  (208, decide (getL .U (setv binary64 .U (.fin (-3462142213541069/281474976710656))) = -12)),
  (209, decide (getUL .U (setv binary64 .U (.fin (-3462142213541069/281474976710656))) = 0)),
  (210, (setv binary64 .U (.fin (-3462142213541069/281474976710656))).feq (.fin (-3462142213541069/281474976710656))),
  (213, (binary32.get .N (setv binary32 .N (.fin (95/2)))).feq (.fin (95/2))),
  (214, (binary64.get .D (setv binary32 .N (.fin (95/2)))).feq (.fin (95/2))),
  (215, (x87ext.get .D (setv binary32 .N (.fin (95/2)))).feq (.fin (95/2))),
  (216, decide (getL .D (setv binary32 .N (.fin (95/2))) = 47)),
  (217, decide (getUL .D (setv binary32 .N (.fin (95/2))) = 47)),
  (218, (setv binary32 .N (.fin (95/2))).feq (.fin (95/2))),
  (226, (binary32.get .N (setv binary32 .N (.fin (14180934506664217805/1152921504606846976)))).feq (.fin (12897485/1048576))),
  (227, (binary64.get .D (setv binary32 .N (.fin (14180934506664217805/1152921504606846976)))).feq (.fin (12897485/1048576))),
  (228, (x87ext.get .D (setv binary32 .N (.fin (14180934506664217805/1152921504606846976)))).feq (.fin (12897485/1048576))),
  (229, decide (getL .D (setv binary32 .N (.fin (14180934506664217805/1152921504606846976))) = 12)),
  (230, decide (getUL .D (setv binary32 .N (.fin (14180934506664217805/1152921504606846976))) = 12)),
  (231, (setv binary32 .N (.fin (14180934506664217805/1152921504606846976))).feq (.fin (12897485/1048576))),
  (234, (binary32.get .N (setv binary32 .U (.fin (-5418731071652180787/1152921504606846976)))).feq (.fin (-4928307/1048576))),
  (235, (binary64.get .U (setv binary32 .U (.fin (-5418731071652180787/1152921504606846976)))).feq (.fin (-4928307/1048576))),
  (236, (x87ext.get .U (setv binary32 .U (.fin (-5418731071652180787/1152921504606846976)))).feq (.fin (-4928307/1048576))),
  (237, decide (getL .U (setv binary32 .U (.fin (-5418731071652180787/1152921504606846976))) = -4)),
  (238, decide (getUL .U (setv binary32 .U (.fin (-5418731071652180787/1152921504606846976))) = 0)),
  (239, (setv binary32 .U (.fin (-5418731071652180787/1152921504606846976))).feq (.fin (-4928307/1048576))),
  (245, (binary32.get .D (setv binary64 .D (.fin (-14180934506664217805/1152921504606846976)))).feq (.fin (-12897485/1048576))),
  (246, (binary64.get .U (setv binary64 .D (.fin (-14180934506664217805/1152921504606846976)))).feq (.fin (-3462142213541069/281474976710656))),
  (247, (x87ext.get .U (setv binary64 .D (.fin (-14180934506664217805/1152921504606846976)))).feq (.fin (-3462142213541069/281474976710656))),
  (248, decide (getL .U (setv binary64 .D (.fin (-14180934506664217805/1152921504606846976))) = -12)),
  (249, decide (getUL .U (setv binary64 .D (.fin (-14180934506664217805/1152921504606846976))) = 0)),
  (250, (setv binary64 .D (.fin (-14180934506664217805/1152921504606846976))).feq (.fin (-3462142213541069/281474976710656))),
  (253, (binary32.get .N (setv binary32 .N (.fin (95/2)))).feq (.fin (95/2))),
  (254, (binary64.get .N (setv binary32 .N (.fin (95/2)))).feq (.fin (95/2))),
  (255, (x87ext.get .N (setv binary32 .N (.fin (95/2)))).feq (.fin (95/2))),
  (256, decide (getL .N (setv binary32 .N (.fin (95/2))) = 48)),
  (257, decide (getUL .N (setv binary32 .N (.fin (95/2))) = 48)),
  (258, (setv binary32 .N (.fin (95/2))).feq (.fin (95/2)))] : List (ℕ × Bool)).all (·.2) = true := by decide +kernel

/-- `test_mpfr_var.cpp`: `get_str`. -/
example : ([
  (266, str binary32 .D .hex 0 0 true (setv binary32 .D (.fin (3462142213541069/281474976710656))) "0XC.4CCCCP+0"),
  (267, str binary32 .U .hex 0 3 false (setv binary32 .D (.fin (3462142213541069/281474976710656))) "0xc.4cdp+0"),
  (268, str binary32 .U .hex 20 7 false (setv binary32 .D (.fin (3462142213541069/281474976710656))) "      0xc.4cccc00p+0"),
  (269, str binary32 .D .hex 3 7 true (setv binary32 .D (.fin (3462142213541069/281474976710656))) "0XC.4CCCC00P+0"),
  (271, str binary32 .D .sci 0 0 true (setv binary32 .D (.fin (3462142213541069/281474976710656))) "1.229999E+01"),
  (272, str binary32 .U .sci 0 3 false (setv binary32 .D (.fin (3462142213541069/281474976710656))) "1.230e+01"),
  (273, str binary32 .U .sci 20 7 false (setv binary32 .D (.fin (3462142213541069/281474976710656))) "       1.2300000e+01"),
  (274, str binary32 .D .sci 3 7 true (setv binary32 .D (.fin (3462142213541069/281474976710656))) "1.2299999E+01"),
  (276, str binary32 .D .dec 0 0 true (setv binary32 .D (.fin (3462142213541069/281474976710656))) "12.299999"),
  (277, str binary32 .U .dec 0 3 false (setv binary32 .D (.fin (3462142213541069/281474976710656))) "12.300"),
  (278, str binary32 .U .dec 20 7 false (setv binary32 .D (.fin (3462142213541069/281474976710656))) "          12.2999993"),
  (279, str binary32 .D .dec 3 7 true (setv binary32 .D (.fin (3462142213541069/281474976710656))) "12.2999992"),
  (281, str binary32 .D .decSci 0 0 true (setv binary32 .D (.fin (3462142213541069/281474976710656))) "12.2999"),
  (282, str binary32 .U .decSci 0 3 false (setv binary32 .D (.fin (3462142213541069/281474976710656))) "12.3"),
  (283, str binary32 .U .decSci 20 7 false (setv binary32 .D (.fin (3462142213541069/281474976710656))) "                12.3"),
  (284, str binary32 .D .decSci 3 7 true (setv binary32 .D (.fin (3462142213541069/281474976710656))) "12.29999"),
  (288, str binary32 .D .hex 0 0 true (setv binary32 .U (.fin (-3602879701896397/36028797018963968))) "-0X1.999998P-4"),
  (289, str binary32 .U .hex 0 3 false (setv binary32 .U (.fin (-3602879701896397/36028797018963968))) "-0x1.999p-4"),
  (290, str binary32 .U .hex 20 7 false (setv binary32 .U (.fin (-3602879701896397/36028797018963968))) "     -0x1.9999980p-4"),
  (291, str binary32 .D .hex 3 7 true (setv binary32 .U (.fin (-3602879701896397/36028797018963968))) "-0X1.9999980P-4"),
  (293, str binary32 .U .sci 0 0 true (setv binary32 .U (.fin (-3602879701896397/36028797018963968))) "-9.999999E-02"),
  (294, str binary32 .U .sci 0 3 false (setv binary32 .U (.fin (-3602879701896397/36028797018963968))) "-9.999e-02"),
  (295, str binary32 .U .sci 20 7 false (setv binary32 .U (.fin (-3602879701896397/36028797018963968))) "      -9.9999994e-02"),
  (296, str binary32 .D .sci 3 7 true (setv binary32 .U (.fin (-3602879701896397/36028797018963968))) "-9.9999995E-02"),
  (298, str binary32 .D .dec 0 0 true (setv binary32 .U (.fin (-3602879701896397/36028797018963968))) "-0.100000"),
  (299, str binary32 .U .dec 0 3 false (setv binary32 .U (.fin (-3602879701896397/36028797018963968))) "-0.099"),
  (300, str binary32 .U .dec 20 7 false (setv binary32 .U (.fin (-3602879701896397/36028797018963968))) "          -0.0999999"),
  (301, str binary32 .D .dec 3 7 true (setv binary32 .U (.fin (-3602879701896397/36028797018963968))) "-0.1000000"),
  (303, str binary32 .D .decSci 0 0 true (setv binary32 .U (.fin (-3602879701896397/36028797018963968))) "-0.1"),
  (304, str binary32 .U .decSci 0 3 false (setv binary32 .U (.fin (-3602879701896397/36028797018963968))) "-0.0999"),
  (305, str binary32 .U .decSci 20 7 false (setv binary32 .U (.fin (-3602879701896397/36028797018963968))) "         -0.09999999"),
  (306, str binary32 .D .decSci 3 7 true (setv binary32 .U (.fin (-3602879701896397/36028797018963968))) "-0.1"),
  (309, str binary32 .D .hex 0 0 true .nan "NAN"),
  (310, str binary32 .N .sci 20 7 false .nan "                 nan"),
  (311, str binary32 .U .dec 3 7 false .nan "nan"),
  (312, str binary32 .D .decSci 0 0 false .nan "nan"),
  (316, str binary32 .D .hex 0 0 true .pinf "INF"),
  (317, str binary32 .N .sci 20 7 false .pinf "                 inf"),
  (318, str binary32 .D .dec 3 7 false .pinf "inf"),
  (319, str binary32 .D .decSci 0 0 false .pinf "inf"),
  (322, str binary32 .D .hex 0 0 true .ninf "-INF"),
  (323, str binary32 .N .sci 20 7 false .ninf "                -inf"),
  (324, str binary32 .D .dec 3 7 false .ninf "-inf"),
  (325, str binary32 .D .decSci 0 0 false .ninf "-inf"),
  (331, str binary64 .D .hex 0 0 true (setv binary64 .D (.fin (3462142213541069/281474976710656))) "0XC.4CCCCCCCCCCDP+0"),
  (332, str binary64 .U .hex 0 3 false (setv binary64 .D (.fin (3462142213541069/281474976710656))) "0xc.4cdp+0"),
  (333, str binary64 .U .hex 20 7 false (setv binary64 .D (.fin (3462142213541069/281474976710656))) "      0xc.4cccccdp+0"),
  (334, str binary64 .D .hex 3 7 true (setv binary64 .D (.fin (3462142213541069/281474976710656))) "0XC.4CCCCCCP+0"),
  (336, str binary64 .D .sci 0 0 true (setv binary64 .D (.fin (3462142213541069/281474976710656))) "1.230000E+01"),
  (337, str binary64 .U .sci 0 3 false (setv binary64 .D (.fin (3462142213541069/281474976710656))) "1.231e+01"),
  (338, str binary64 .U .sci 20 7 false (setv binary64 .D (.fin (3462142213541069/281474976710656))) "       1.2300001e+01"),
  (339, str binary64 .D .sci 3 7 true (setv binary64 .D (.fin (3462142213541069/281474976710656))) "1.2300000E+01"),
  (341, str binary64 .D .dec 0 0 true (setv binary64 .D (.fin (3462142213541069/281474976710656))) "12.300000"),
  (342, str binary64 .U .dec 0 3 false (setv binary64 .D (.fin (3462142213541069/281474976710656))) "12.301"),
  (343, str binary64 .U .dec 20 7 false (setv binary64 .D (.fin (3462142213541069/281474976710656))) "          12.3000001"),
  (344, str binary64 .D .dec 3 7 true (setv binary64 .D (.fin (3462142213541069/281474976710656))) "12.3000000"),
  (346, str binary64 .D .decSci 0 0 true (setv binary64 .D (.fin (3462142213541069/281474976710656))) "12.3"),
  (347, str binary64 .U .decSci 0 3 false (setv binary64 .D (.fin (3462142213541069/281474976710656))) "12.4"),
  (348, str binary64 .U .decSci 20 7 false (setv binary64 .D (.fin (3462142213541069/281474976710656))) "            12.30001"),
  (349, str binary64 .D .decSci 3 7 true (setv binary64 .D (.fin (3462142213541069/281474976710656))) "12.3"),
  (353, str binary64 .D .hex 0 0 true (setv binary64 .U (.fin (-3602879701896397/36028797018963968))) "-0X1.999999999999AP-4"),
  (354, str binary64 .U .hex 0 3 false (setv binary64 .U (.fin (-3602879701896397/36028797018963968))) "-0x1.999p-4"),
  (355, str binary64 .N .hex 20 7 false (setv binary64 .U (.fin (-3602879701896397/36028797018963968))) "     -0x1.999999ap-4"),
  (356, str binary64 .D .hex 3 7 true (setv binary64 .U (.fin (-3602879701896397/36028797018963968))) "-0X1.999999AP-4"),
  (358, str binary64 .D .sci 0 0 true (setv binary64 .U (.fin (-3602879701896397/36028797018963968))) "-1.000001E-01"),
  (359, str binary64 .U .sci 0 3 false (setv binary64 .U (.fin (-3602879701896397/36028797018963968))) "-1.000e-01"),
  (360, str binary64 .U .sci 20 7 false (setv binary64 .U (.fin (-3602879701896397/36028797018963968))) "      -1.0000000e-01"),
  (361, str binary64 .D .sci 3 7 true (setv binary64 .U (.fin (-3602879701896397/36028797018963968))) "-1.0000001E-01"),
  (363, str binary64 .D .dec 0 0 true (setv binary64 .U (.fin (-3602879701896397/36028797018963968))) "-0.100001"),
  (364, str binary64 .U .dec 0 3 false (setv binary64 .U (.fin (-3602879701896397/36028797018963968))) "-0.100"),
  (365, str binary64 .U .dec 20 7 false (setv binary64 .U (.fin (-3602879701896397/36028797018963968))) "          -0.1000000"),
  (366, str binary64 .D .dec 3 7 true (setv binary64 .U (.fin (-3602879701896397/36028797018963968))) "-0.1000001"),
  (368, str binary64 .D .decSci 0 0 true (setv binary64 .U (.fin (-3602879701896397/36028797018963968))) "-0.100001"),
  (369, str binary64 .U .decSci 0 3 false (setv binary64 .U (.fin (-3602879701896397/36028797018963968))) "-0.1"),
  (370, str binary64 .U .decSci 20 7 false (setv binary64 .U (.fin (-3602879701896397/36028797018963968))) "                -0.1"),
  (371, str binary64 .D .decSci 3 7 true (setv binary64 .U (.fin (-3602879701896397/36028797018963968))) "-0.1000001"),
  (375, str binary64 .D .dec 0 0 true .nan "NAN"),
  (376, str binary64 .N .hex 20 7 false .nan "                 nan"),
  (377, str binary64 .D .sci 3 7 false .nan "nan"),
  (378, str binary64 .D .decSci 0 0 false .nan "nan"),
  (381, str binary64 .D .dec 0 0 true .pinf "INF"),
  (382, str binary64 .N .hex 20 7 false .pinf "                 inf"),
  (383, str binary64 .D .sci 3 7 false .pinf "inf"),
  (384, str binary64 .D .decSci 0 0 false .pinf "inf"),
  (387, str binary64 .D .dec 0 0 true .ninf "-INF"),
  (388, str binary64 .N .hex 20 7 false .ninf "                -inf"),
  (389, str binary64 .D .sci 3 7 false .ninf "-inf"),
  (390, str binary64 .D .decSci 0 0 false .ninf "-inf")] : List (ℕ × Bool)).all (·.2) = true := by decide +kernel

/-- `minimal_subnormalize_test`: the quotient has more bits than a subnormal number and is rounded once more. -/
example :
    let a : FP := .fin (0x11235 / 2 ^ 16 / 2 ^ 1021)
    let b := setv binary64 .N (.fin (343 / 10))
    let x : FP := .fin (0x0ffd1e99bfd04 / 2 ^ 52 / 2 ^ 1022)
    let y := binary64.var.range.op binary64.var.prec .N (a.q / b.q)
    let z := binary64.var.subnormalize binary64.var.range .N y
    (setv binary64 .N a = a ∧ setv binary64 .N x = x) ∧ y.1 ≠ x ∧ z.1 = x ∧ y.2 ≠ z.2 := by decide +kernel

/-- The same with normal numbers only: the quotient is zero. -/
example :
    let V : VarTy := ⟨53, ⟨-1021, 1024⟩, false⟩
    let a : FP := .fin (0x11235 / 2 ^ 16 / 2 ^ 1021)
    let b := setv binary64 .N (.fin (343 / 10))
    let y := V.range.op V.prec .N (a.q / b.q)
    y.1 = .fin 0 ∧ V.subnormalize V.range .N y = y := by decide +kernel

/-- `test_mpfr_util.cpp`: `two_sum`. -/
example : ([
  (34, eqNN (binary64.twoSum (f 0x11111111111111 48) (f 0x11111111111111 (-51))) (f 0x11111111111111 48, f 0x11111111111111 (-51))),
  (37, eqNN (binary64.twoSum (f 0x11111111111111 1) (f 0x11111111111111 (-51))) (f 0x11111111111112 1, f 0x1111111111111 (-51))),
  (40, eqNN (binary64.twoSum (f 0x11111111111111 (-50)) (f 0x11111111111111 (-51))) (f 0x1999999999999A (-50), f (-1) (-51)))]
  : List (ℕ × Bool)).all (·.2) = true := by decide +kernel

/-- `test_io.cpp`: `remove_ws` leaves the rest, and the stream is good. -/
def wsOk (s t : String) : Bool :=
  let r := removeWs { rest := s.toList }
  decide (r.rest = t.toList) && r.ok

example : ([
  (37, wsOk "" ""), (49, wsOk "foo" "foo"), (61, wsOk "  test" "test"), (73, wsOk " \t \t t \t" "t \t")]
  : List (ℕ × Bool)).all (·.2) = true := by decide +kernel

/-- `test_io.cpp`: `ascii_to_lower`. -/
example : ([
  (" abcde ", " abcde "), (" ABCDE ", " abcde "), (" abCde ", " abcde "), (" AbCdEF", " abcdef"), ("1A2B3C4", "1a2b3c4"),
  ("1A.B?,4", "1a.b?,4"), ("", ""), ("  ", "  ")] : List (String × String)).all
    (fun p => decide (asciiToLower p.1.toList = p.2.toList)) = true := by decide +kernel

/-- `test_io_manip.cpp`: the entry of the table before and after each of the manipulators. -/
def slotOk (i : Slot) (l : List (OutCmd × ℤ)) : Bool :=
  decide (({} : Sink).iw i = 0) && (List.range l.length).all fun n =>
    match Sink.run binary64 0 {} ((l.take (n + 1)).map (·.1)) with
    | .ok s => decide ((l[n]?.map (·.2)) = some (s.iw i))
    | _ => false

example : ([
  (36, slotOk .text [(.case true, 1), (.case false, 0)]),
  (49, slotOk .strWidth [(.stringWidth 12, 12), (.stringWidth 27, 27), (.stringWidth 0, 0)]),
  (65, slotOk .form [(.form .uncertain, 1), (.form .up, 2), (.form .down, 3), (.form .infSup, 0)]),
  (84, slotOk .numRep [(.numRep .dec, 1), (.numRep .sci, 2), (.numRep .hex, 3), (.numRep .decSci, 0)]),
  (103, slotOk .width [(.width 9, 9), (.width 15, 15), (.width 0, 0)]),
  (119, slotOk .prec [(.prec 16, 16), (.prec 8, 8), (.prec 0, 0)]),
  (135, slotOk .special [(.special .bounds, 1), (.special .noBounds, 2), (.special .text, 0)]),
  (151, slotOk .punct [(.punct false, 1), (.punct true, 0)]),
  (164, slotOk .ucExp [(.ucExp true, 1), (.ucExp false, 0)]),
  (178, slotOk .dec [(.dec true, 1), (.dec false, 0)]),
  (192, slotOk .overlap [(.overlap true, 1), (.overlap false, 0)])] : List (ℕ × Bool)).all (·.2) = true := by decide +kernel

end P1788.Conform
