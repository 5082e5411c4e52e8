{
 "claims": [
  {
   "property": "C01",
   "status": "proved",
   "theorems": [
    "P1788.C01_add",
    "P1788.C01_sub"
   ],
   "note": ""
  },
  {
   "property": "C02",
   "status": "proved",
   "theorems": [
    "P1788.C02_mul"
   ],
   "note": ""
  },
  {
   "property": "C03",
   "status": "proved",
   "theorems": [
    "P1788.C03_div",
    "P1788.C03_recip"
   ],
   "note": ""
  },
  {
   "property": "C04",
   "status": "proved",
   "theorems": [
    "P1788.C04_pos",
    "P1788.C04_neg",
    "P1788.C04_abs",
    "P1788.C04_sqr",
    "P1788.C04_sqrt"
   ],
   "note": ""
  },
  {
   "property": "C05",
   "status": "proved",
   "theorems": [
    "P1788.C05_min",
    "P1788.C05_max"
   ],
   "note": ""
  },
  {
   "property": "C06",
   "status": "proved",
   "theorems": [
    "P1788.C06_fma"
   ],
   "note": ""
  },
  {
   "property": "C07",
   "status": "proved",
   "theorems": [
    "P1788.C07_pown"
   ],
   "note": ""
  },
  {
   "property": "C08",
   "status": "proved",
   "theorems": [
    "P1788.C08_pow"
   ],
   "note": ""
  },
  {
   "property": "C09",
   "status": "proved",
   "theorems": [
    "P1788.C09_exp",
    "P1788.C09_exp2",
    "P1788.C09_exp10",
    "P1788.C09_log",
    "P1788.C09_log2",
    "P1788.C09_log10"
   ],
   "note": ""
  },
  {
   "property": "C10",
   "status": "proved",
   "theorems": [
    "P1788.C10_sin",
    "P1788.C10_cos",
    "P1788.C10_range"
   ],
   "note": ""
  },
  {
   "property": "C11",
   "status": "partial",
   "theorems": [
    "P1788.C11_tan_exact_binary64",
    "P1788.C11_tan_tightest_binary32",
    "P1788.C11_tan_tightest_x87ext",
    "P1788.C11_tan_tightest_binary64_partial",
    "P1788.C11_tan_partial",
    "P1788.C11_tan_tight_partial",
    "P1788.C11_tan_binary32",
    "P1788.C11_tan_x87ext",
    "P1788.C11_tan_binary64_false"
   ],
   "note": "Tightest for float and x87 long double without restriction (C11_tan_tightest_binary32, C11_tan_tightest_x87ext) and for double outside the bad intervals (TanBad) (C11_tan_tightest_binary64_partial); proved FALSE of the code for double on bad intervals (C11_tan_binary64_false: tan([0.875, 0.875+RD(pi)]) misses tan(pi)=0). Exact: for double the result is right if and only if x is not of this kind: it contains a pole, is not wider than RD(pi) and RD(tan lower) <= RU(tan upper) (C11_tan_exact_binary64)."
  },
  {
   "property": "C12",
   "status": "proved",
   "theorems": [
    "P1788.C12_asin",
    "P1788.C12_acos",
    "P1788.C12_atan",
    "P1788.C12_atan2"
   ],
   "note": ""
  },
  {
   "property": "C13",
   "status": "proved",
   "theorems": [
    "P1788.C13_sinh",
    "P1788.C13_asinh",
    "P1788.C13_tanh",
    "P1788.C13_cosh",
    "P1788.C13_acosh",
    "P1788.C13_atanh"
   ],
   "note": ""
  },
  {
   "property": "C14",
   "status": "proved",
   "theorems": [
    "P1788.C14_ceil",
    "P1788.C14_floor",
    "P1788.C14_trunc",
    "P1788.C14_round_ties_to_even",
    "P1788.C14_round_ties_to_away",
    "P1788.C14_sign"
   ],
   "note": ""
  },
  {
   "property": "C15",
   "status": "partial",
   "theorems": [
    "P1788.C15_call",
    "P1788.C15_call_exact",
    "P1788.C15_partial",
    "P1788.C15_without_cancel",
    "P1788.C15_false"
   ],
   "note": "Histories are finite sequences of calls of any constructor, constant, conversion or operation in every overload (model table Model/Calls.lean). Proved for all histories except those that call cancel_plus/cancel_minus on a pair with an invalid result (CancelInvalid); there the code returns an interval with lower > upper (C15_false). The exception is exact: a call on valid objects gives valid results if and only if it is not such a call (C15_call_exact)."
  },
  {
   "property": "C16",
   "status": "proved",
   "theorems": [
    "P1788.C16_valid",
    "P1788.C16_invalid",
    "P1788.C16_mixed_valid",
    "P1788.C16_mixed_invalid",
    "P1788.C16_bounds",
    "P1788.C16_nan",
    "P1788.C16_mixed_nan"
   ],
   "note": ""
  },
  {
   "property": "C17",
   "status": "proved",
   "theorems": [
    "P1788.C17_new_dec",
    "P1788.C17_new_dec_mixed",
    "P1788.C17_nums",
    "P1788.C17_nums_invalid",
    "P1788.C17_nums_mixed",
    "P1788.C17_nums_mixed_invalid",
    "P1788.C17_nums_dec",
    "P1788.C17_nums_dec_inconsistent",
    "P1788.C17_nums_dec_bad",
    "P1788.C17_nums_dec_mixed",
    "P1788.C17_nums_dec_mixed_inconsistent",
    "P1788.C17_nums_dec_mixed_bad",
    "P1788.C17_set_dec",
    "P1788.C17_set_dec_bad",
    "P1788.C17_set_dec_mixed_bad",
    "P1788.C17_set_dec_mixed"
   ],
   "note": ""
  },
  {
   "property": "C18",
   "status": "partial",
   "theorems": [
    "P1788.C18_ftia_safe_partial",
    "P1788.C18_ftia_partial",
    "P1788.C18_ftia_binary32",
    "P1788.C18_ftia_x87ext",
    "P1788.C18_ftia_binary64_partial",
    "P1788.C18_ftia_binary64_false"
   ],
   "note": "Proved for all expressions for float and x87 long double, and for double for expressions without tan and, more generally, for every evaluation in which tan meets no bad interval (TanBad, the exact condition of C11: a pole in it that the tests of the code miss) (any width up to 3 or from 4 is fine); proved FALSE for double with tan."
  },
  {
   "property": "C19",
   "status": "partial",
   "theorems": [
    "P1788.C19_ftdia_safe_partial",
    "P1788.C19_ftdia_partial",
    "P1788.C19_decMeans_partial",
    "P1788.C19_ftdia_binary32",
    "P1788.C19_ftdia_x87ext",
    "P1788.C19_ftdia_binary64_false"
   ],
   "note": "Proved for all expressions for float and x87 long double, and for double for expressions without tan and, more generally, for every evaluation in which tan meets no bad interval (TanBad, the exact condition of C11: a pole in it that the tests of the code miss) (any width up to 3 or from 4 is fine); proved FALSE for double with tan."
  },
  {
   "property": "C20",
   "status": "partial",
   "theorems": [
    "P1788.C20_tan_exact_binary64",
    "P1788.C20_pos",
    "P1788.C20_neg",
    "P1788.C20_add",
    "P1788.C20_sub",
    "P1788.C20_mul",
    "P1788.C20_div",
    "P1788.C20_recip",
    "P1788.C20_sqr",
    "P1788.C20_abs",
    "P1788.C20_sqrt",
    "P1788.C20_fma",
    "P1788.C20_pown",
    "P1788.C20_pow",
    "P1788.C20_exp",
    "P1788.C20_exp2",
    "P1788.C20_exp10",
    "P1788.C20_log",
    "P1788.C20_log2",
    "P1788.C20_log10",
    "P1788.C20_sin",
    "P1788.C20_cos",
    "P1788.C20_asin",
    "P1788.C20_acos",
    "P1788.C20_atan",
    "P1788.C20_sinh",
    "P1788.C20_cosh",
    "P1788.C20_tanh",
    "P1788.C20_asinh",
    "P1788.C20_acosh",
    "P1788.C20_atanh",
    "P1788.C20_min",
    "P1788.C20_max",
    "P1788.C20_tan_right_binary32",
    "P1788.C20_tan_right_x87ext",
    "P1788.C20_tan_right_binary64_partial",
    "P1788.C20_ceil",
    "P1788.C20_floor",
    "P1788.C20_trunc",
    "P1788.C20_round_ties_to_even",
    "P1788.C20_round_ties_to_away",
    "P1788.C20_sign",
    "P1788.C20_atan2",
    "P1788.C20_tan_partial",
    "P1788.C20_tan_binary32",
    "P1788.C20_tan_x87ext",
    "P1788.C20_tan_binary64_false"
   ],
   "note": "All functions proved in full except tan: for float and x87 long double tan's decoration is exactly right (C20_tan_right_binary32, C20_tan_right_x87ext), for double outside the bad intervals of C11 (C20_tan_right_binary64_partial); proved FALSE for double on them (C20_tan_binary64_false). Exact: for double tan's decoration is right if and only if the interval is not such a bad one with a decoration of at least def (C20_tan_exact_binary64)."
  },
  {
   "property": "C21",
   "status": "proved",
   "theorems": [
    "P1788.C21_absorbing",
    "P1788.C21_boolean",
    "P1788.C21_numeric",
    "P1788.C21_created",
    "P1788.C21_history"
   ],
   "note": ""
  },
  {
   "property": "C22",
   "status": "proved",
   "theorems": [
    "P1788.C22_is_empty",
    "P1788.C22_is_entire",
    "P1788.C22_equal",
    "P1788.C22_subset",
    "P1788.C22_less",
    "P1788.C22_precedes",
    "P1788.C22_interior",
    "P1788.C22_strictly_less",
    "P1788.C22_strictly_precedes",
    "P1788.C22_disjoint",
    "P1788.C22_mirrored",
    "P1788.C22_invalid",
    "P1788.C22_decorated"
   ],
   "note": ""
  },
  {
   "property": "C23",
   "status": "proved",
   "theorems": [
    "P1788.C23_overlap",
    "P1788.C23_exclusive",
    "P1788.C23_converse",
    "P1788.C23_decorated"
   ],
   "note": ""
  },
  {
   "property": "C24",
   "status": "proved",
   "theorems": [
    "P1788.C24_is_common_interval",
    "P1788.C24_is_singleton",
    "P1788.C24_is_member",
    "P1788.C24_decorated"
   ],
   "note": ""
  },
  {
   "property": "C25",
   "status": "proved",
   "theorems": [
    "P1788.C25_intersection",
    "P1788.C25_convex_hull",
    "P1788.C25_decorated",
    "P1788.C25_mixed",
    "P1788.C25_mixed_decorated"
   ],
   "note": ""
  },
  {
   "property": "C26",
   "status": "proved",
   "theorems": [
    "P1788.C26_partial_order",
    "P1788.C26_comm",
    "P1788.C26_assoc",
    "P1788.C26_absorb",
    "P1788.C26_order",
    "P1788.C26_lattice"
   ],
   "note": ""
  },
  {
   "property": "C27",
   "status": "proved",
   "theorems": [
    "P1788.C27_inf_sup",
    "P1788.C27_wid",
    "P1788.C27_mag_mig",
    "P1788.C27_attained",
    "P1788.C27_empty",
    "P1788.C27_decorated",
    "P1788.C27_inf_sup_mixed",
    "P1788.C27_mixed"
   ],
   "note": ""
  },
  {
   "property": "C28",
   "status": "proved",
   "theorems": [
    "P1788.C28_mid_mixed_unbounded",
    "P1788.C28_mid_mixed_member",
    "P1788.C28_mid_mixed_not_member",
    "P1788.C28_mid",
    "P1788.C28_member",
    "P1788.C28_unbounded",
    "P1788.C28_rad",
    "P1788.C28_rad_finite",
    "P1788.C28_mid_mixed",
    "P1788.C28_rad_mixed",
    "P1788.C28_mid_mixed_overflow"
   ],
   "note": ""
  },
  {
   "property": "C29",
   "status": "partial",
   "theorems": [
    "P1788.C29_minus",
    "P1788.C29_minus_narrow",
    "P1788.C29_minus_narrow_partial",
    "P1788.C29_unbounded",
    "P1788.C29_empty",
    "P1788.C29_plus",
    "P1788.C29_plus_partial",
    "P1788.C29_plus_rest",
    "P1788.C29_decorated",
    "P1788.C29_mixed",
    "P1788.C29_mixed_wide",
    "P1788.C29_mixed_plus",
    "P1788.C29_mixed_decorated",
    "P1788.C29_false_invalid",
    "P1788.C29_false_narrow",
    "P1788.C29_false_mixed_plus",
    "P1788.C29_minus_invalid",
    "P1788.C29_plus_invalid",
    "P1788.C29_mixed_invalid"
   ],
   "note": "Proved in full for wid(x) >= wid(y) (C29_minus, C29_plus, C29_mixed), for unbounded and for empty operands (C29_unbounded, C29_empty). For wid(x) < wid(y) the result is entire if and only if the pair is not bad (CancelBad: x reaches up to the largest finite number, its width is half way between an odd and the next even multiple of the unit u of the largest numbers, y lies below x and is wider by at most u) (C29_minus_narrow, C29_plus); on bad pairs the code is wrong (C29_false_narrow) and may deliver an invalid interval (C29_false_invalid); it does exactly if two numbers of the result type lie between the bounds (C29_minus_invalid, C29_plus_invalid, C29_mixed_invalid). Mixed types: right (up to bad pairs) in cancel_minus, without exception if the first operand's type is not the most precise (C29_mixed_wide), and in cancel_plus if the result type contains the type of y (C29_mixed_plus); otherwise it rounds -y before cancelling and is wrong (C29_false_mixed_plus)."
  },
  {
   "property": "C30",
   "status": "partial",
   "theorems": [
    "P1788.C30_sqr_rev",
    "P1788.C30_cosh_rev",
    "P1788.C30_abs_rev",
    "P1788.C30_pown_rev_partial",
    "P1788.C30_pown_rev_int_min",
    "P1788.C30_unary",
    "P1788.C30_pown_unary",
    "P1788.C30_mixed",
    "P1788.C30_pown_mixed",
    "P1788.C30_decorated",
    "P1788.C30_pown_decorated",
    "P1788.C30_pown_mixed_decorated"
   ],
   "note": "sqr_rev, abs_rev, cosh_rev: tightest for all inputs. pown_rev: proved for every int exponent except INT_MIN, where the code executes signed overflow (undefined behaviour) exactly when x is non-empty and c contains a positive number (C30_pown_rev_int_min)."
  },
  {
   "property": "C31",
   "status": "partial",
   "theorems": [
    "P1788.C31_sin_rev_lost_low",
    "P1788.C31_sin_rev_lost_high",
    "P1788.C31_tan_rev_lost_low",
    "P1788.C31_tan_rev_lost_high",
    "P1788.C31_sin_rev_clear_partial",
    "P1788.C31_sin_rev_ends_partial",
    "P1788.C31_tan_rev_clear_partial",
    "P1788.C31_tan_rev_ends_partial",
    "P1788.C31_half_period_partial",
    "P1788.C31_mixed_ends_partial",
    "P1788.C31_mixed_clear_partial",
    "P1788.C31_mixed_half_period_partial",
    "P1788.C31_beyond",
    "P1788.C31_beyond_false",
    "P1788.C31_beyond_mixed",
    "P1788.C31_valid",
    "P1788.C31_sin_rev_partial",
    "P1788.C31_cos_rev_partial",
    "P1788.C31_tan_rev_partial",
    "P1788.C31_sin_rev_false",
    "P1788.C31_tan_rev_false",
    "P1788.C31_cos_rev_false",
    "P1788.C31_unary",
    "P1788.C31_mixed_partial",
    "P1788.C31_decorated"
   ],
   "note": "The full statement is false of the code: sin_rev and tan_rev lose solutions if 0 is not in c (C31_sin_rev_false, C31_tan_rev_false, in every format), and cos_rev loses solutions for huge x (C31_cos_rev_false); beyond 2^65 all three lose all solutions (C31_beyond_false). Proved: results are always valid and inside x; the unary versions are correct for all c; if the finite bounds of x do not exceed 2^64 in magnitude, cos_rev is correct for all c, sin_rev and tan_rev for 0 in c, and for every c if each finite end of x is beyond 2^(p+2), or is at most 2^p and shares a half period with a solution or the lower end is in the first half (the upper end in the last half) of a period [k pi, (k+1) pi] by more than the rounding error (C31_*_clear_partial); the mixed-type versions under the same conditions, with the precision of the widest type. Conversely (C31_*_lost_low, C31_*_lost_high): if, up to the rounding error, neither holds at the lower end of x, everything but the last 3/2 pi of x is lost, and likewise at the upper end."
  },
  {
   "property": "C32",
   "status": "proved",
   "theorems": [
    "P1788.C32_to_pair_one",
    "P1788.C32_to_pair_two",
    "P1788.C32_components",
    "P1788.C32_mul_rev",
    "P1788.C32_mul_rev_entire",
    "P1788.C32_mul_rev_mixed",
    "P1788.C32_to_pair_mixed",
    "P1788.C32_mul_rev_decorated",
    "P1788.C32_mul_rev_mixed_decorated",
    "P1788.C32_to_pair_decorated",
    "P1788.C32_mul_rev_not_tightest"
   ],
   "note": ""
  },
  {
   "property": "C33",
   "status": "partial",
   "theorems": [
    "P1788.C33_tan_tight_partial",
    "P1788.C33_tan_dec_partial",
    "P1788.C33_tan",
    "P1788.C33_max",
    "P1788.C33_unary",
    "P1788.C33_binary",
    "P1788.C33_fma",
    "P1788.C33_set_ops",
    "P1788.C33_unary_dec",
    "P1788.C33_binary_dec",
    "P1788.C33_fma_dec",
    "P1788.C33_set_ops_dec",
    "P1788.C33_nai",
    "P1788.C33_tan_false"
   ],
   "note": "Proved for every operation, all type combinations and both decorated and bare forms, except tan of a double argument with a float or double result, where the statement is false (C33_tan_false); tan with all other type combinations, in particular float to double, is proved without restriction (C33_tan: no difference of two float numbers is close enough to pi), and tan of double arguments that are not bad (TanBad, C11) too (C33_tan_tight_partial, C33_tan_dec_partial)."
  },
  {
   "property": "C34",
   "status": "proved",
   "theorems": [
    "P1788.C34_convert",
    "P1788.C34_convert_dec",
    "P1788.C34_convert_nai",
    "P1788.C34_order",
    "P1788.C34_round_trip",
    "P1788.C34_round_trip_dec",
    "P1788.C34_interval_part",
    "P1788.C34_interval_part_mixed",
    "P1788.C34_interval_part_nai",
    "P1788.C34_copy",
    "P1788.C34_number_nearest"
   ],
   "note": ""
  },
  {
   "property": "C35",
   "status": "partial",
   "theorems": [
    "P1788.C35_unary_safe_partial",
    "P1788.C35_unary_partial",
    "P1788.C35_binary",
    "P1788.C35_fma",
    "P1788.C35_setop",
    "P1788.C35_expr_safe_partial",
    "P1788.C35_expr_partial",
    "P1788.C35_unary_binary32_x87ext",
    "P1788.C35_tan_binary64_false",
    "P1788.C35_sqr_abs_cosh_rev",
    "P1788.C35_mul_rev",
    "P1788.C35_pown_rev",
    "P1788.C35_mixed_partial",
    "P1788.C35_rev_mixed",
    "P1788.C35_mul_rev_mixed",
    "P1788.C35_pown_rev_mixed",
    "P1788.C35_cancel_false",
    "P1788.C35_sin_rev_false",
    "P1788.C35_tan_rev_false",
    "P1788.C35_cos_rev_huge_false",
    "P1788.C35_cos_rev_false"
   ],
   "note": "Proved for all forward operations, set operations, whole expressions, their mixed-type versions, and for sqr_rev, abs_rev, cosh_rev, pown_rev, mul_rev (bare and mixed). Proved FALSE for tan on double (C35_tan_binary64_false; proved for float and long double, and for double if the wider operand is not bad for it, C35_unary_safe_partial, C35_expr_safe_partial), for cancel_minus (C35_cancel_false), for sin_rev, cos_rev and tan_rev in every format (C35_sin_rev_false, C35_cos_rev_false, C35_tan_rev_false; the last operand of cos_rev may be as small as [3, 10], and C35_cos_rev_huge_false shows that on huge operands a true solution is lost)."
  },
  {
   "property": "C36",
   "status": "proved",
   "theorems": [
    "P1788.C36_call",
    "P1788.C36_clear_mask",
    "P1788.C36_sticky",
    "P1788.C36_throw",
    "P1788.C36_valid",
    "P1788.C36_never",
    "P1788.C36_query"
   ],
   "note": ""
  },
  {
   "property": "C37",
   "status": "partial",
   "theorems": [
    "P1788.C37_sum_sqr_special",
    "P1788.C37_dot_long",
    "P1788.C37_dot_special",
    "P1788.C37_dot_overflow",
    "P1788.C37_sum_sqr_overflow",
    "P1788.C37_dot_near_partial",
    "P1788.C37_sum",
    "P1788.C37_sum_abs",
    "P1788.C37_sum_special",
    "P1788.C37_sum_abs_special",
    "P1788.C37_order",
    "P1788.C37_dot_partial",
    "P1788.C37_sum_sqr_partial",
    "P1788.C37_dot_short",
    "P1788.C37_false_underflow",
    "P1788.C37_false_overflow"
   ],
   "note": "sum and sum_abs: proved in full (any length, all rounding modes, NaN and infinities, order independence). sum_sqr and dot: proved when every product stays in the exponent range; outside, the code multiplies with 2p bits but in the format's exponent range and the claim is false (C37_false_underflow, C37_false_overflow). dot with a second range shorter than the first is undefined behaviour (C37_dot_short). Special values of sum_sqr and dot: C37_sum_sqr_special, C37_dot_special; a longer second range: C37_dot_long; what they give when products overflow: C37_dot_overflow, C37_sum_sqr_overflow; how far dot can be off when products underflow: C37_dot_near_partial."
  },
  {
   "property": "C38",
   "status": "partial",
   "theorems": [
    "P1788.C38_set_dec",
    "P1788.C38_read_iff",
    "P1788.C38_literal_iff",
    "P1788.C38_unsupported",
    "P1788.C38_bare_read_iff",
    "P1788.C38_bare_literal_iff",
    "P1788.C38_stream_partial",
    "P1788.C38_stream_safe",
    "P1788.C38_unique",
    "P1788.C38_literal_partial",
    "P1788.C38_safe",
    "P1788.C38_malformed",
    "P1788.C38_total",
    "P1788.C38_bare_partial",
    "P1788.C38_bare_safe",
    "P1788.C38_bare_malformed",
    "P1788.C38_bare_total",
    "P1788.C38_false_plus",
    "P1788.C38_false_throws",
    "P1788.C38_false_char"
   ],
   "note": "Proved for every string: if the call ends normally, either the text is a literal of the grammar (SpecText) and the result is the tightest interval with the right decoration, or undefined_operation is signalled and the result is empty/NaI (C38_safe, C38_bare_safe); the meaning of a literal is unique (C38_unique); literals without a plus sign and with exponents that fit into int are read (C38_literal_partial). False of the code for the rest: a leading plus sign is refused (C38_false_plus), and std::out_of_range leaves the call for huge exponents (C38_false_throws). A character outside of ASCII after a literal is passed to std::isspace as a negative char, which is undefined (C38_false_char). Hence the exact extent: a text is read without a signal if and only if it is a literal all of whose numbers are supported, i.e. have no plus sign and exponents that fit into int (C38_read_iff, C38_literal_iff, C38_bare_read_iff, C38_bare_literal_iff); any other literal is never accepted (C38_unsupported)."
  },
  {
   "property": "C39",
   "status": "partial",
   "theorems": [
    "P1788.C39_read",
    "P1788.C39_read_bad",
    "P1788.C39_round_trip_partial",
    "P1788.C39_false_hex",
    "P1788.C39_failure_keeps",
    "P1788.C39_write_invalid"
   ],
   "note": "Reading: proved in full (accepted iff the text starts with a name or a number). Round trip: proved for all settings except numeric output of dac in base 16, which prints 'c' and cannot be read back (C39_false_hex)."
  },
  {
   "property": "C40",
   "status": "partial",
   "theorems": [
    "P1788.C40_written_iff",
    "P1788.C40_wide",
    "P1788.C40_wide_round_trip",
    "P1788.C40_decorated_neighbours",
    "P1788.C40_decorated_partial",
    "P1788.C40_decorated_round_trip_partial",
    "P1788.C40_hex_no_overflow",
    "P1788.C40_false_buffer",
    "P1788.C40_false_buffer_precision",
    "P1788.C40_false_buffer_uncertain",
    "P1788.C40_false_empty_bounds",
    "P1788.C40_false_setw",
    "P1788.C40_neighbours",
    "P1788.C40_drift",
    "P1788.C40_contains_partial",
    "P1788.C40_round_trip_partial",
    "P1788.C40_hex_exact"
   ],
   "note": "False of the code: the buffer of get_str is too small because of an operator-precedence error (C40_false_buffer: every interval in the default format; C40_false_buffer_precision, C40_false_buffer_uncertain), so printing writes outside its buffer. Also the empty set with special representation 'bounds' and padded decorated intervals are written as unreadable text (C40_false_empty_bounds, C40_false_setw). Proved: whenever the buffer suffices, the inf-sup text is a literal that denotes a superset of the interval, accurate to the requested precision (C40_contains_partial, C40_decorated_partial), reading it back contains the interval; hexadecimal output without precision never overflows and is exact. Writing ends normally exactly if the texts of both bounds fit (C40_written_iff); with a number width that has room for every number (needWidth: 14 for double in scientific notation with default precision) it always does, and the round trip holds without further condition (C40_wide, C40_wide_round_trip). With enough digits (17 for double) each bound moves by at most one number when the text is read back (C40_neighbours; with the same decoration for decorated intervals, C40_decorated_neighbours); it does move (C40_drift), so only hexadecimal text is exact."
  },
  {
   "property": "C41",
   "status": "proved",
   "theorems": [
    "P1788.C41_add_comm",
    "P1788.C41_add_zero",
    "P1788.C41_mul_comm",
    "P1788.C41_mul_one",
    "P1788.C41_mul_zero",
    "P1788.C41_neg_neg",
    "P1788.C41_sub_eq_add_neg",
    "P1788.C41_sqr_subset_mul",
    "P1788.C41_pown_two",
    "P1788.C41_pown_one",
    "P1788.C41_recip_eq_div",
    "P1788.C41_recip_eq_pown",
    "P1788.C41_fma_zero",
    "P1788.C41_fma_one",
    "P1788.C41_fma_subset",
    "P1788.C41_abs_neg",
    "P1788.C41_abs_subset_max",
    "P1788.C41_log_exp",
    "P1788.C41_sqr_sqrt",
    "P1788.C41_sub_add"
   ],
   "note": ""
  },
  {
   "property": "C42",
   "status": "partial",
   "theorems": [
    "P1788.C42_digits",
    "P1788.C42_contains_partial",
    "P1788.C42_round_trip_partial",
    "P1788.C42_decorated_partial",
    "P1788.C42_false_contains",
    "P1788.C42_false_throws",
    "P1788.C42_false_overflow"
   ],
   "note": "False of the code: in symmetric form with exponent and low precision the text may not contain the interval (C42_false_contains: line 189 uses the size of the wrong string); exceptions of std::stoll and std::string leave the call (C42_false_throws); the radius can overflow (C42_false_overflow); and the buffer is always too small (C40_false_buffer_uncertain). Proved: whenever the text is written, it is a literal that denotes a superset, bounded on the same sides (C42_contains_partial, C42_decorated_partial), provided that in symmetric form with exponent the exponent of the midpoint has fewer characters than the precision, for which 3, 4 and 5 digits are enough in binary32, binary64 and x87 (C42_digits); reading it back contains the interval (C42_round_trip_partial)."
  },
  {
   "property": "C43",
   "status": "proved",
   "theorems": [
    "P1788.C43_down",
    "P1788.C43_up",
    "P1788.C43_nearest",
    "P1788.C43_history",
    "P1788.C43_rational",
    "P1788.C43_mid",
    "P1788.C43_mid_mixed",
    "P1788.C43_setup_needed",
    "P1788.C43_ternary_needed"
   ],
   "note": ""
  },
  {
   "property": "C44",
   "status": "proved",
   "theorems": [
    "P1788.C44_bisect_covers",
    "P1788.C44_bisect_result",
    "P1788.C44_bisect_safe",
    "P1788.C44_bisect_ends",
    "P1788.C44_newton_covers",
    "P1788.C44_newton_result",
    "P1788.C44_newton_safe",
    "P1788.C44_newton_ends",
    "P1788.C44_example",
    "P1788.C44_example_runs",
    "P1788.C44_bisect_endless",
    "P1788.C44_newton_endless",
    "P1788.C44_bisect_residual",
    "P1788.C44_bisect_near"
   ],
   "note": ""
  },
  {
   "property": "C45",
   "status": "partial",
   "theorems": [
    "P1788.C45_results",
    "P1788.C45_results_common_partial",
    "P1788.C45_false_common",
    "P1788.C45_flags_partial",
    "P1788.C45_flags_if_local",
    "P1788.C45_flags_caused_partial",
    "P1788.C45_false_seen",
    "P1788.C45_false_lost",
    "P1788.C45_false_thrown"
   ],
   "note": "Results: proved for every schedule if MPFR's exponent range is thread local (C45_results), and with a common range if all threads use one type (C45_results_common_partial); false with a common range and different types (C45_false_common). Exception state: false of the code, whose variables are plain statics: flags of other threads are seen, flags are lost, exceptions enabled by another thread are thrown (C45_false_seen, C45_false_lost, C45_false_thrown). Proved: right if one thread only uses exceptions (C45_flags_partial); every flag or exception has a cause in some thread (C45_flags_caused_partial); right if the storage were thread local (C45_flags_if_local)."
  },
  {
   "property": "C46",
   "status": "proved",
   "theorems": [
    "P1788.C46_history",
    "P1788.C46_append",
    "P1788.C46_width",
    "P1788.C46_case",
    "P1788.C46_overlap",
    "P1788.C46_iword_changed"
   ],
   "note": ""
  },
  {
   "property": "C47",
   "status": "partial",
   "theorems": [
    "P1788.C47_sequence_partial",
    "P1788.C47_exact",
    "P1788.C47_false",
    "P1788.C47_false_string_width",
    "P1788.C47_wide",
    "P1788.C47_program_wide",
    "P1788.C47_false_first",
    "P1788.C47_false_hello",
    "P1788.C47_program_partial",
    "P1788.C47_program_exact"
   ],
   "note": "False of the code with default settings, because writing is undefined behaviour (C47_false, from C40; C47_false_first for every program that writes an interval first, C47_false_hello for the repository's own first example); and string_width(2^31) makes an int overflow for decorated intervals (C47_false_string_width). Proved: whenever writing ends normally, in inf-sup form with punctuation, the sequence is read back (C47_sequence_partial for decorated intervals in a used stream; C47_program_partial for programs that mix bare intervals, decorated intervals, decorations and settings); with hexadecimal numbers writing always ends normally and the objects read equal those written (C47_exact, C47_program_exact). With a number width that has room for every number all programs end normally and everything is read back, in all number formats (C47_wide, C47_program_wide)."
  },
  {
   "property": "C48",
   "status": "partial",
   "theorems": [
    "P1788.C48_functions",
    "P1788.C48_reduction_partial",
    "P1788.C48_reduction_empty",
    "P1788.C48_false_leak",
    "P1788.C48_false",
    "P1788.C48_false_exhaust",
    "P1788.C48_false_exception"
   ],
   "note": "True of the functions that use local variables only (C48_functions). False of the reductions: they lose one block per element (C48_false, C48_false_leak), hence exhaust a bounded memory (C48_false_exhaust), and lose more if an allocation fails (C48_false_exception). Proved of the reductions: no invalid release, and exactly what is lost (C48_reduction_partial)."
  },
  {
   "property": "C49",
   "status": "partial",
   "theorems": [
    "P1788.C49_shrinks",
    "P1788.C49_keeps_solutions_partial",
    "P1788.C49_infeasible_partial",
    "P1788.C49_plain",
    "P1788.C49_forward",
    "P1788.C49_defined",
    "P1788.C49_comes_to_rest",
    "P1788.C49_false"
   ],
   "note": "Full statement C49_full is false (C49_false, from C31). Proved for all runs whose steps avoid the known bad cases of sin_rev, cos_rev, tan_rev and, for double, tan of a bad interval (C49_keeps_solutions_partial, C49_infeasible_partial); without side condition for programs that do not call these (C49_plain), and for float and long double for programs that do not call sin_rev, cos_rev, tan_rev (C49_forward); shrinking (C49_shrinks) and coming to rest (C49_comes_to_rest) hold for all runs; runs are defined unless pown_rev is called with INT_MIN (C49_defined)."
  },
  {
   "property": "C50",
   "status": "proved",
   "theorems": [
    "P1788.C50_unary",
    "P1788.C50_binary",
    "P1788.C50_fma",
    "P1788.C50_expr",
    "P1788.C50_integers"
   ],
   "note": "C50_expr covers all operations including tan; C50_unary states single operations other than tan (tan at a point is part of C50_expr)."
  },
  {
   "property": "C51",
   "status": "partial",
   "theorems": [
    "P1788.C51_unary_safe_partial",
    "P1788.C51_unary_partial",
    "P1788.C51_binary",
    "P1788.C51_fma",
    "P1788.C51_expr_safe_partial",
    "P1788.C51_expr_partial",
    "P1788.C51_float_double",
    "P1788.C51_float_long_double",
    "P1788.C51_double_long_double_partial",
    "P1788.C51_tan_false"
   ],
   "note": "Full statement is false for tan between double and long double (C51_tan_false). Proved for all other functions, for fma, for all expressions without tan or between types in which no number is a doubtful pole; for float against double and long double without any restriction (C51_float_double, C51_float_long_double). With tan in double it holds for every evaluation in which tan is applied to no bad interval (TanBad, the exact condition of C11: a pole in it that the tests of the code miss) (TanSafe; in particular if the arguments of tan are at most 3 wide, TanNarrow) (C51_unary_safe_partial, C51_expr_safe_partial, C51_double_long_double_partial)."
  },
  {
   "property": "C52",
   "status": "proved",
   "theorems": [
    "P1788.C52_comm",
    "P1788.C52_signs",
    "P1788.C52_units",
    "P1788.C52_powers",
    "P1788.C52_even",
    "P1788.C52_odd",
    "P1788.C52_inverse",
    "P1788.C52_undo",
    "P1788.C52_floor_ceil",
    "P1788.C52_false_assoc",
    "P1788.C52_false_distrib"
   ],
   "note": "Laws that do not hold are recorded as C52_false_assoc and C52_false_distrib."
  },
  {
   "property": "C53",
   "status": "proved",
   "theorems": [
    "P1788.C53_equal",
    "P1788.C53_calls",
    "P1788.C53_signals",
    "P1788.C53_expr",
    "P1788.C53_expr_dec",
    "P1788.C53_comparisons",
    "P1788.C53_predicates",
    "P1788.C53_numbers",
    "P1788.C53_text",
    "P1788.C53_uncertain_false"
   ],
   "note": "Includes the proof that the uncertain text form is an exception (C53_uncertain_false)."
  },
  {
   "property": "C54",
   "status": "proved",
   "theorems": [
    "P1788.C54_unary",
    "P1788.C54_binary",
    "P1788.C54_fma",
    "P1788.C54_mixed",
    "P1788.C54_convert",
    "P1788.C54_point_unary",
    "P1788.C54_point_binary",
    "P1788.C54_point_fma",
    "P1788.C54_dot",
    "P1788.C54_sum"
   ],
   "note": ""
  },
  {
   "property": "C55",
   "status": "partial",
   "theorems": [
    "P1788.C55_unary_partial",
    "P1788.C55_unary_float_long_double",
    "P1788.C55_tan_binary64_false",
    "P1788.C55_binary",
    "P1788.C55_fma",
    "P1788.C55_expr_safe_partial",
    "P1788.C55_expr_partial",
    "P1788.C55_halves_partial"
   ],
   "note": "Proved for all functions except tan in every format, for tan in float and x87 long double; FALSE for tan in double (C55_tan_binary64_false). Expressions: all in float and long double, without tan in double. With tan in double it holds for every evaluation in which tan is applied to no bad interval (TanBad, the exact condition of C11: a pole in it that the tests of the code miss) (TanSafe; in particular if the arguments of tan are at most 3 wide, TanNarrow) (C55_expr_safe_partial)."
  },
  {
   "property": "C56",
   "status": "partial",
   "theorems": [
    "P1788.C56_default",
    "P1788.C56_operators",
    "P1788.C56_operators_decorated",
    "P1788.C56_handed_partial",
    "P1788.C56_copy_invalid",
    "P1788.C56_handed_false",
    "P1788.C56_bare_dec_bare",
    "P1788.C56_dec_bare_dec",
    "P1788.C56_dec_bare_dec_stronger",
    "P1788.C56_nai_bare_dec"
   ],
   "note": "Full statement is false: an invalid result of cancel_minus arrives unchanged if every copy is elided and as the empty interval with a signal otherwise (C56_handed_false). Proved for all valid objects, which by C15_call_exact are all results except of cancel_plus/cancel_minus on the pairs of C29_minus_invalid; the other theorems are unrestricted."
  },
  {
   "property": "C57",
   "status": "proved",
   "theorems": [
    "P1788.C57_round_ties_to_even",
    "P1788.C57_decorated",
    "P1788.C57_formula",
    "P1788.C57_formula_decorated",
    "P1788.C57_history"
   ],
   "note": ""
  },
  {
   "property": "C58",
   "status": "partial",
   "theorems": [
    "P1788.C58_operators_partial",
    "P1788.C58_ext",
    "P1788.C58_false_not",
    "P1788.C58_false",
    "P1788.C58_complement",
    "P1788.C58_history",
    "P1788.C58_refines"
   ],
   "note": "The clause for ~ is false (C58_false_not: the result is never a value of the enumeration; C58_false). All other clauses proved; C58_complement shows that ^ with all bits does the job."
  },
  {
   "property": "C59",
   "status": "partial",
   "theorems": [
    "P1788.C59_real_deterministic",
    "P1788.C59_valid",
    "P1788.C59_branching_safe_partial",
    "P1788.C59_branching_partial",
    "P1788.C59_binary32",
    "P1788.C59_x87ext",
    "P1788.C59_false",
    "P1788.C59_valid_decorated",
    "P1788.C59_decorated_safe_partial",
    "P1788.C59_decorated_partial"
   ],
   "note": "Full statement C59_full proved for float and long double (C59_binary32, C59_x87ext); for double false (C59_false) because tan loses values (C11) and proved for programs without tan. Decorated version likewise. With tan in double it holds for every evaluation in which tan is applied to no bad interval (TanBad, the exact condition of C11: a pole in it that the tests of the code miss) (TanSafe; in particular if the arguments of tan are at most 3 wide, TanNarrow) (C59_branching_safe_partial, C59_decorated_safe_partial)."
  },
  {
   "property": "C60",
   "status": "partial",
   "theorems": [
    "P1788.C60_fixed_point_partial",
    "P1788.C60_sign_change_partial",
    "P1788.C60_no_zero_partial",
    "P1788.C60_no_zero_false",
    "P1788.C60_unique_partial",
    "P1788.C60_newton_covers_partial",
    "P1788.C60_newton_partial"
   ],
   "note": "Proved for float and long double with all formulas, and for double with formulas without tan; with tan false of double (C60_no_zero_false: the test claims that tan has no zero in an interval around pi). With tan in double it holds for every evaluation in which tan is applied to no bad interval (TanBad, the exact condition of C11: a pole in it that the tests of the code miss) (TanSafe; in particular if the arguments of tan are at most 3 wide, TanNarrow) on the box and its parts (TanSafeIn)."
  },
  {
   "property": "C61",
   "status": "partial",
   "theorems": [
    "P1788.C61_call_partial",
    "P1788.C61_history",
    "P1788.C61_confined",
    "P1788.C61_false",
    "P1788.C61_false_plus",
    "P1788.C61_numbers",
    "P1788.C61_numbers_dec",
    "P1788.C61_predicates",
    "P1788.C61_predicates_dec",
    "P1788.C61_comparisons",
    "P1788.C61_comparisons_dec"
   ],
   "note": "Full statement false: bare cancel_minus / cancel_plus never check the second operand (C61_false, C61_false_plus). Proved for every other call of the call table (C61_call_partial), for numbers, predicates and comparisons; confinement (C61_confined, C61_history) holds for all histories without restriction."
  },
  {
   "property": "C62",
   "status": "partial",
   "theorems": [
    "P1788.C62_integral_safe_partial",
    "P1788.C62_integral_partial",
    "P1788.C62_binary32",
    "P1788.C62_x87ext",
    "P1788.C62_false",
    "P1788.C62_converges",
    "P1788.C62_any_accuracy"
   ],
   "note": "Full statement false for double with tan (C62_false, consequence of C11). Proved for all formulas without tan and, for float and long double, without restriction. With tan in double it holds for every evaluation in which tan is applied to no bad interval (TanBad, the exact condition of C11: a pole in it that the tests of the code miss) (TanSafe; in particular if the arguments of tan are at most 3 wide, TanNarrow) on the pieces of the grid (C62_integral_safe_partial). For tame formulas enclosure and convergence (C62_converges, C62_any_accuracy) are proved for all formats and all formulas: on fine grids no interval is bad."
  },
  {
   "property": "C63",
   "status": "partial",
   "theorems": [
    "P1788.C63_search_safe_partial",
    "P1788.C63_search_partial",
    "P1788.C63_binary32",
    "P1788.C63_x87ext",
    "P1788.C63_false",
    "P1788.C63_accuracy_partial",
    "P1788.C63_reach",
    "P1788.C63_any_accuracy"
   ],
   "note": "Full statement false for double with tan (C63_false, consequence of C11). Proved for all formulas without tan and, for float and long double, without restriction. With tan in double it holds for every evaluation in which tan is applied to no bad interval (TanBad, the exact condition of C11: a pole in it that the tests of the code miss) (TanSafe; in particular if the arguments of tan are at most 3 wide, TanNarrow) on the boxes of the search (C63_search_safe_partial, C63_accuracy_partial). For tame formulas the reachability of every accuracy (C63_reach, C63_any_accuracy) is proved for all formats and all formulas."
  },
  {
   "property": "C64",
   "status": "proved",
   "theorems": [
    "P1788.C64_point",
    "P1788.C64_box",
    "P1788.C64_tan_narrow",
    "P1788.C64_open",
    "P1788.C64_no_zero",
    "P1788.C64_less",
    "P1788.C64_com",
    "P1788.C64_com_box"
   ],
   "note": ""
  },
  {
   "property": "C65",
   "status": "partial",
   "theorems": [
    "P1788.C65_unary_safe_partial",
    "P1788.C65_unary_partial",
    "P1788.C65_binary",
    "P1788.C65_fma",
    "P1788.C65_expr_safe_partial",
    "P1788.C65_binary64_partial",
    "P1788.C65_expr_partial",
    "P1788.C65_binary32",
    "P1788.C65_x87ext",
    "P1788.C65_new_dec",
    "P1788.C65_fresh_partial",
    "P1788.C65_tan_binary64_false",
    "P1788.C65_false",
    "P1788.C65_unary_mixed_partial",
    "P1788.C65_binary_mixed",
    "P1788.C65_set_ops_mixed",
    "P1788.C65_fma_mixed"
   ],
   "note": "Full statement C65_full, true of float and long double (C65_binary32, C65_x87ext), false of double because of tan (C65_tan_binary64_false, C65_false). Proved for every operation but tan, and every formula without tan, in every format. With tan in double it holds for every evaluation in which tan is applied to no bad interval (TanBad, the exact condition of C11: a pole in it that the tests of the code miss) (TanSafe; in particular if the arguments of tan are at most 3 wide, TanNarrow) on the wider operands (C65_expr_safe_partial, C65_binary64_partial)."
  },
  {
   "property": "C66",
   "status": "partial",
   "theorems": [
    "P1788.C66_indices",
    "P1788.C66_units",
    "P1788.C66_single_partial",
    "P1788.C66_others",
    "P1788.C66_unseen",
    "P1788.C66_false",
    "P1788.C66_uninitialised",
    "P1788.C66_uninitialised_all"
   ],
   "note": "Full statement C66_full is false (C66_false: two translation units). Proved: for programs that use the settings from one unit only it holds, whatever others do with the table (C66_single_partial); in general each unit has its own settings (C66_units, C66_unseen); entries never collide and entries of others are left alone (C66_indices, C66_others); before initialisation all settings of a unit share entry 0 (C66_uninitialised)."
  },
  {
   "property": "C67",
   "status": "partial",
   "theorems": [
    "P1788.C67_up",
    "P1788.C67_down",
    "P1788.C67_below",
    "P1788.C67_above",
    "P1788.C67_symmetric_partial",
    "P1788.C67_plain",
    "P1788.C67_decorated_partial",
    "P1788.C67_decorated_half",
    "P1788.C67_false"
   ],
   "note": "False of the code in symmetric form with exponent and low precision: [2^34, 2^34] is written with a radius of 1.7e19 (C67_false, the same line 189 as C42_false_contains). Proved: the upward and downward forms for all settings (C67_up, C67_down), intervals bounded on one side (C67_below, C67_above), all forms without exponent (C67_plain), the symmetric form with exponent for precisions of at least 4 (binary64) (C67_symmetric_partial); the same for decorated intervals (C67_decorated_partial, C67_decorated_half)."
  },
  {
   "property": "C68",
   "status": "proved",
   "theorems": [
    "P1788.C68_decorated",
    "P1788.C68_bare",
    "P1788.C68_decoration",
    "P1788.C68_none",
    "P1788.C68_good",
    "P1788.C68_loop"
   ],
   "note": ""
  },
  {
   "property": "C69",
   "status": "proved",
   "theorems": [
    "P1788.C69_sin_rev",
    "P1788.C69_cos_rev",
    "P1788.C69_tan_rev",
    "P1788.C69_none",
    "P1788.C69_mixed",
    "P1788.C69_decorated",
    "P1788.C69_decorated_mixed"
   ],
   "note": ""
  },
  {
   "property": "C70",
   "status": "proved",
   "theorems": [
    "P1788.C70_five_steps",
    "P1788.C70_same_result"
   ],
   "note": ""
  },
  {
   "property": "C71",
   "status": "partial",
   "theorems": [
    "P1788.C71_enclosure_safe_partial",
    "P1788.C71_enclosure_partial",
    "P1788.C71_binary32",
    "P1788.C71_x87ext",
    "P1788.C71_solution_safe_partial",
    "P1788.C71_accepts",
    "P1788.C71_false",
    "P1788.C71_converges"
   ],
   "note": "Full statement (C71_full) false for double with tan (C71_false, consequence of C11: a solution is lost). Proved for all formulas without tan and, for float and long double, without restriction (C71_binary32, C71_x87ext); with tan in double for all evaluations in which tan meets no bad interval (C11) (C71_enclosure_safe_partial). Existence and uniqueness (C71_solution_safe_partial) under the same condition. Sufficient conditions for the checks to succeed are proved for all formats and formulas (C71_accepts). C71_converges: along a tame solution over a dyadic time, enough steps of one size with suitable boxes are accepted in every precise enough format and the final box is within any prescribed distance of the solution (all formats and formulas, tan included)."
  },
  {
   "property": "C72",
   "status": "partial",
   "theorems": [
    "P1788.C72_greatest_partial",
    "P1788.C72_order_partial",
    "P1788.C72_fair_partial",
    "P1788.C72_false"
   ],
   "note": "Full statement (C72_full) false of every type (C72_false: sin_rev is not isotone). Proved for all steps except sin_rev, cos_rev, tan_rev and, for double, formulas with tan (C72_order_partial, C72_greatest_partial, C72_fair_partial); these exclusions are the functions that are not isotone (C35)."
  },
  {
   "property": "C73",
   "status": "proved",
   "theorems": [
    "P1788.C73_solution",
    "P1788.C73_valid",
    "P1788.C73_isotone",
    "P1788.C73_triangular",
    "P1788.C73_regular",
    "P1788.C73_largest"
   ],
   "note": "Also: C73_regular, the elimination ends for all interval matrices close to a real matrix with nonzero pivots (every invertible matrix has such pivot rows), and small right-hand sides give a small box, for all precise enough types; C73_largest: the same with the concrete strategy of taking the pivot of largest mig."
  },
  {
   "property": "C74",
   "status": "partial",
   "theorems": [
    "P1788.C74_newton_safe_partial",
    "P1788.C74_newton_partial",
    "P1788.C74_binary32",
    "P1788.C74_x87ext",
    "P1788.C74_false"
   ],
   "note": "Full statement (C74_full) false for double with tan (C74_false, consequence of C11). Proved for all formulas without tan (C74_newton_partial) and, for float and long double, without restriction (C74_binary32, C74_x87ext); with tan in double for all evaluations in which tan meets no bad interval (C11) (C74_newton_safe_partial)."
  },
  {
   "property": "C75",
   "status": "partial",
   "theorems": [
    "P1788.C75_solver_safe_partial",
    "P1788.C75_solver_partial",
    "P1788.C75_binary32",
    "P1788.C75_x87ext",
    "P1788.C75_count",
    "P1788.C75_none",
    "P1788.C75_false",
    "P1788.C75_accepts",
    "P1788.C75_finds",
    "P1788.C75_surrounds",
    "P1788.C75_reach",
    "P1788.C75_refutes"
   ],
   "note": "Full statement (C75_full) false for double with tan (C75_false, consequence of C11: the solution pi of tan x = 0 is lost). Proved for all formulas without tan (C75_solver_partial) and, for float and long double, without restriction (C75_binary32, C75_x87ext); with tan in double for all searches in which tan meets no bad interval (C11) (C75_solver_safe_partial). Number of solutions: C75_count, C75_none. What the search can always achieve, for all formats and tame formulas: C75_reach (only boxes of near solutions remain), C75_surrounds (only boxes close to solutions remain), C75_refutes (if there is no solution, everything is thrown away), C75_accepts and C75_finds (with the pivots of largest mig, a solution at which the Jacobian matrix is invertible is proved in every small box that contains it away from its boundary)."
  },
  {
   "property": "C76",
   "status": "partial",
   "theorems": [
    "P1788.C76_mean_value_safe_partial",
    "P1788.C76_mean_value_partial",
    "P1788.C76_binary32",
    "P1788.C76_x87ext",
    "P1788.C76_quadratic",
    "P1788.C76_false"
   ],
   "note": "Full statement (C76_full) false for double with tan (C76_false, consequence of C11: tan pi is lost). Proved for all formulas without tan (C76_mean_value_partial) and, for float and long double, without restriction (C76_binary32, C76_x87ext); with tan in double for all evaluations in which tan meets no bad interval (C11) (C76_mean_value_safe_partial). Quadratic convergence, for all formats and tame formulas: C76_quadratic."
  },
  {
   "property": "C77",
   "status": "partial",
   "theorems": [
    "P1788.C77_solver_partial",
    "P1788.C77_solver_safe_partial",
    "P1788.C77_accepts",
    "P1788.C77_derivatives_safe_partial",
    "P1788.C77_derivatives_partial",
    "P1788.C77_binary32",
    "P1788.C77_x87ext",
    "P1788.C77_mean_value_partial",
    "P1788.C77_mean_value_safe_partial",
    "P1788.C77_newton_partial",
    "P1788.C77_newton_safe_partial",
    "P1788.C77_quadratic",
    "P1788.C77_false"
   ],
   "note": "Full statement (C77_full) false for double with tan (C77_false, consequence of C11). Proved for all formulas without tan (C77_derivatives_partial) and, for float and long double, without restriction (C77_binary32, C77_x87ext); with tan in double for all evaluations in which tan meets no bad interval (C11) (C77_derivatives_safe_partial). Mean value form and Newton operator with these derivatives: C77_mean_value_partial, C77_newton_partial (without tan, or types without bad intervals; in general if tan meets no bad interval: C77_mean_value_safe_partial, C77_newton_safe_partial, C77_solver_safe_partial), C77_quadratic (all formats). Branch and prune with these derivatives (C77_solver_partial); the uniqueness test succeeds near every regular solution for all precise enough types (C77_accepts)."
  },
  {
   "property": "C78",
   "status": "partial",
   "theorems": [
    "P1788.C78_sharp_auto",
    "P1788.C78_false",
    "P1788.C78_range_safe_partial",
    "P1788.C78_minimiser_safe_partial",
    "P1788.C78_monotone_partial",
    "P1788.C78_binary32",
    "P1788.C78_x87ext",
    "P1788.C78_auto_partial",
    "P1788.C78_auto_safe_partial",
    "P1788.C78_sharp"
   ],
   "note": "Full statement (C78_full) false for double with tan (C78_false, consequence of C11). Proved for all formulas without tan (C78_monotone_partial, with the derivatives of C77: C78_auto_partial), for float and long double without restriction (C78_binary32, C78_x87ext), and with tan in double for all evaluations in which tan meets no bad interval (C78_range_safe_partial, C78_minimiser_safe_partial, C78_auto_safe_partial). Sharpness for all formats: C78_sharp, C78_sharp_auto."
  },
  {
   "property": "C79",
   "status": "partial",
   "theorems": [
    "P1788.C79_search_safe_partial",
    "P1788.C79_search_partial",
    "P1788.C79_binary32",
    "P1788.C79_x87ext",
    "P1788.C79_auto_safe_partial",
    "P1788.C79_auto_partial",
    "P1788.C79_never_empty",
    "P1788.C79_false"
   ],
   "note": "Full statement (C79_full) false for double with tan (C79_false, consequence of C11). Proved for all formulas without tan (C79_search_partial, with the derivatives of C77: C79_auto_partial) and for float and long double without restriction (C79_binary32, C79_x87ext). With tan in double: for all boxes in whose parts tan meets no bad interval (C79_search_safe_partial, C79_auto_safe_partial). C79_never_empty: the list of boxes never runs empty if the formula is defined somewhere."
  }
 ]
}