{"id": "C01", "title": "Addition and subtraction are the tightest enclosures", "statement": "add(x,y) and sub(x,y) on valid bare intervals return the smallest interval with bounds in the number format that contains every real a+b (resp. a-b) with a in x, b in y; the result is empty exactly when an operand is empty, and is itself a valid interval.", "quantifier": "all valid intervals x,y with arbitrary (finite or infinite) bounds of any binary format", "why_tests_cant": "The bounds range over all floating-point numbers of the format (2^64 and more per operand); a vector test only samples finitely many bound pairs and cannot see a missed branch, an overflow, an underflow or a half-ulp loss between samples.", "anchors": ["p1788/flavor/infsup/setbased/mpfr_bin_ieee754_flavor_elem_func_impl.hpp: add 153-176, sub 257-281"]}
{"id": "C02", "title": "Multiplication is the tightest enclosure", "statement": "mul(x,y) returns the smallest representable interval containing all products a*b, for every sign configuration, including zero and unbounded operands, and no NaN bound ever appears in a non-empty result.", "quantifier": "all valid intervals x,y, all sign and infinity combinations", "why_tests_cant": "The bounds range over all floating-point numbers of the format (2^64 and more per operand); a vector test only samples finitely many bound pairs and cannot see a missed branch, an overflow, an underflow or a half-ulp loss between samples. The sixteen-way sign case split times infinities gives hundreds of branch combinations.", "anchors": ["p1788/flavor/infsup/setbased/mpfr_bin_ieee754_flavor_elem_func_impl.hpp: mul 361-501"]}
{"id": "C03", "title": "Division and reciprocal are the tightest enclosures", "statement": "div(x,y) and recip(y) return the smallest representable interval containing all quotients a/b with b different from 0 (empty if y is empty or [0,0]); no NaN bound ever appears in a non-empty result.", "quantifier": "all valid intervals x,y including divisors that contain or touch zero", "why_tests_cant": "The bounds range over all floating-point numbers of the format (2^64 and more per operand); a vector test only samples finitely many bound pairs and cannot see a missed branch, an overflow, an underflow or a half-ulp loss between samples.", "anchors": ["p1788/flavor/infsup/setbased/mpfr_bin_ieee754_flavor_elem_func_impl.hpp: div 581-720, recip 799-812"]}
{"id": "C04", "title": "Squaring, square root, absolute value and negation are tightest", "statement": "pos, neg, sqr, sqrt (natural domain a>=0) and abs return the smallest representable interval containing the range of the function over the operand.", "quantifier": "all valid intervals x", "why_tests_cant": "The bounds range over all floating-point numbers of the format (2^64 and more per operand); a vector test only samples finitely many bound pairs and cannot see a missed branch, an overflow, an underflow or a half-ulp loss between samples.", "anchors": ["p1788/flavor/infsup/setbased/mpfr_bin_ieee754_flavor_elem_func_impl.hpp: pos 42-52, neg 95-106, sqr 881-915, sqrt 980-1012, abs 4259-4280"]}
{"id": "C05", "title": "Minimum and maximum are exact", "statement": "min(x,y) and max(x,y) return exactly the set of all minima (maxima) of a pair of members.", "quantifier": "all valid intervals x,y", "why_tests_cant": "The bounds range over all floating-point numbers of the format (2^64 and more per operand); a vector test only samples finitely many bound pairs and cannot see a missed branch, an overflow, an underflow or a half-ulp loss between samples.", "anchors": ["p1788/flavor/infsup/setbased/mpfr_bin_ieee754_flavor_elem_func_impl.hpp: min 4346-4370, max 4437-4461"]}
{"id": "C06", "title": "Fused multiply-add is the tightest enclosure", "statement": "fma(x,y,z) returns the smallest representable interval containing all a*b+c, i.e. only one rounding per bound occurs, for every sign configuration.", "quantifier": "all valid intervals x,y,z", "why_tests_cant": "The bounds range over all floating-point numbers of the format (2^64 and more per operand); a vector test only samples finitely many bound pairs and cannot see a missed branch, an overflow, an underflow or a half-ulp loss between samples.", "anchors": ["p1788/flavor/infsup/setbased/mpfr_bin_ieee754_flavor_elem_func_impl.hpp: fma 1080-1200"]}
{"id": "C07", "title": "Integer power is the tightest enclosure", "statement": "pown(x,p) returns the smallest representable interval containing all a^p (a different from 0 when p<0) for every integer p.", "quantifier": "all valid intervals x, all int exponents p", "why_tests_cant": "The bounds range over all floating-point numbers of the format (2^64 and more per operand); a vector test only samples finitely many bound pairs and cannot see a missed branch, an overflow, an underflow or a half-ulp loss between samples. The exponent adds another 2^32 values.", "anchors": ["p1788/flavor/infsup/setbased/mpfr_bin_ieee754_flavor_elem_func_impl.hpp: pown 1345-1443"]}
{"id": "C08", "title": "General power is the tightest enclosure", "statement": "pow(x,y) returns the smallest representable interval containing all a^b with a>0, or a=0 and b>0.", "quantifier": "all valid intervals x,y", "why_tests_cant": "The bounds range over all floating-point numbers of the format (2^64 and more per operand); a vector test only samples finitely many bound pairs and cannot see a missed branch, an overflow, an underflow or a half-ulp loss between samples.", "anchors": ["p1788/flavor/infsup/setbased/mpfr_bin_ieee754_flavor_elem_func_impl.hpp: pow 1526-1640"]}
{"id": "C09", "title": "Exponentials and logarithms are tightest", "statement": "exp, exp2, exp10, log, log2, log10 return the smallest representable interval containing the range of the function over the part of the operand inside its domain.", "quantifier": "all valid intervals x", "why_tests_cant": "The bounds range over all floating-point numbers of the format (2^64 and more per operand); a vector test only samples finitely many bound pairs and cannot see a missed branch, an overflow, an underflow or a half-ulp loss between samples.", "anchors": ["p1788/flavor/infsup/setbased/mpfr_bin_ieee754_flavor_elem_func_impl.hpp: exp 1722, exp2 1810, exp10 1898, log 1987, log2 2084, log10 2180"]}
{"id": "C10", "title": "Sine and cosine enclose their range", "statement": "sin(x) and cos(x) contain sin(a), cos(a) for every a in x, whatever the width and magnitude of x, and stay inside [-1,1].", "quantifier": "all valid intervals x", "why_tests_cant": "The bounds range over all floating-point numbers of the format (2^64 and more per operand); a vector test only samples finitely many bound pairs and cannot see a missed branch, an overflow, an underflow or a half-ulp loss between samples. Soundness depends on where multiples of pi/2 fall relative to arbitrary bounds.", "anchors": ["p1788/flavor/infsup/setbased/mpfr_bin_ieee754_flavor_elem_func_impl.hpp: sin 2276-2330, cos 2436-2490"]}
{"id": "C11", "title": "Tangent encloses its range", "statement": "tan(x) contains tan(a) for every a in x at which tan is defined; in particular an interval containing a pole yields the entire line.", "quantifier": "all valid intervals x, every supported number type", "why_tests_cant": "The bounds range over all floating-point numbers of the format (2^64 and more per operand); a vector test only samples finitely many bound pairs and cannot see a missed branch, an overflow, an underflow or a half-ulp loss between samples. The failing inputs (if any) are isolated pairs of floating-point numbers exactly RD(pi) apart.", "anchors": ["p1788/flavor/infsup/setbased/mpfr_bin_ieee754_flavor_elem_func_impl.hpp: tan 2595-2687"]}
{"id": "C12", "title": "Inverse trigonometric functions are tightest", "statement": "asin, acos, atan return the smallest representable interval containing the range over the part of the operand inside the domain; atan2(y,x) contains all angles of points (a,b) different from the origin.", "quantifier": "all valid intervals", "why_tests_cant": "The bounds range over all floating-point numbers of the format (2^64 and more per operand); a vector test only samples finitely many bound pairs and cannot see a missed branch, an overflow, an underflow or a half-ulp loss between samples.", "anchors": ["p1788/flavor/infsup/setbased/mpfr_bin_ieee754_flavor_elem_func_impl.hpp: asin 2716, acos 2810, atan 2905, atan2 2995-3122"]}
{"id": "C13", "title": "Hyperbolic functions and their inverses are tightest", "statement": "sinh, cosh, tanh, asinh, acosh, atanh return the smallest representable interval containing the range over the part of the operand inside the domain.", "quantifier": "all valid intervals x", "why_tests_cant": "The bounds range over all floating-point numbers of the format (2^64 and more per operand); a vector test only samples finitely many bound pairs and cannot see a missed branch, an overflow, an underflow or a half-ulp loss between samples.", "anchors": ["p1788/flavor/infsup/setbased/mpfr_bin_ieee754_flavor_elem_func_impl.hpp: sinh 3204, cosh 3294, tanh 3392, asinh 3480, acosh 3569, atanh 3658"]}
{"id": "C14", "title": "Integer-rounding and sign functions are tightest", "statement": "sign, ceil, floor, trunc, round_ties_to_even, round_ties_to_away return the smallest representable interval containing the range of the function over the operand.", "quantifier": "all valid intervals x", "why_tests_cant": "The bounds range over all floating-point numbers of the format (2^64 and more per operand); a vector test only samples finitely many bound pairs and cannot see a missed branch, an overflow, an underflow or a half-ulp loss between samples.", "anchors": ["p1788/flavor/infsup/setbased/mpfr_bin_ieee754_flavor_elem_func_impl.hpp: sign 3747, ceil 3831, floor 3913, trunc 3995, round_ties_to_even 4078, round_ties_to_away 4176"]}
{"id": "C15", "title": "Every interval a program can build is valid", "statement": "Starting from the constructors and constants and applying any finite sequence of library operations (bare or decorated), every interval obtained is valid: either empty or lower<=upper with lower<+inf and upper>-inf, bounds in the format, and its decoration consistent (NaI is empty, com is bounded and non-empty, empty is trv or ill).", "quantifier": "all finite operation histories of any length over all operations", "why_tests_cant": "A history is unboundedly long; an ill-formed intermediate value only surfaces later as a silently empty result.", "anchors": ["p1788/flavor/infsup/setbased/mpfr_bin_ieee754_flavor_validation_func_impl.hpp: is_valid 43-81", "p1788/flavor/infsup/setbased/mpfr_bin_ieee754_flavor_class_impl.hpp"]}
{"id": "C16", "title": "Construction from numbers", "statement": "interval(l,u) is {r | l<=r<=u} when l<=u, l<+inf, u>-inf, and otherwise empty with the undefined-operation exception flag raised; mixed-type bounds are rounded outward; NaN bounds never produce a non-empty interval.", "quantifier": "all pairs of floating-point numbers including NaN, infinities and signed zeros of any types", "why_tests_cant": "The bounds range over all floating-point numbers of the format (2^64 and more per operand); a vector test only samples finitely many bound pairs and cannot see a missed branch, an overflow, an underflow or a half-ulp loss between samples.", "anchors": ["p1788/flavor/infsup/setbased/mpfr_bin_ieee754_flavor_class_impl.hpp: nums_to_interval 104-120, 142-185"]}
{"id": "C17", "title": "Decorated construction", "statement": "Decorating an interval yields com for bounded non-empty, dac for unbounded non-empty, trv for empty; setting a decoration on an interval lowers it to a consistent one (com on unbounded becomes dac, anything on empty becomes trv); building from two numbers and a decoration accepts exactly the consistent combinations and otherwise signals and yields NaI; ill or an undefined decoration value yields NaI; a decoration is never raised.", "quantifier": "all bounds and all decoration values, valid or not", "why_tests_cant": "The rule must hold for each bound pair and each enum bit pattern; tests only cover a table.", "anchors": ["p1788/flavor/infsup/setbased/mpfr_bin_ieee754_flavor_class_impl.hpp: nums_to_decorated_interval 123-139, nums_dec_to_decorated_interval 189-254, new_dec 416-465, set_dec 468-500"]}
{"id": "C18", "title": "Fundamental theorem of interval arithmetic", "statement": "Evaluating any arithmetic expression over the library's operations on intervals yields an interval that contains the value of the expression at every point of the input box at which it is defined.", "quantifier": "all expression trees of any depth, all input boxes, all points", "why_tests_cant": "Expression trees and points are unbounded; containment must be compositional.", "anchors": ["p1788/flavor/infsup/setbased/mpfr_bin_ieee754_flavor_elem_func_impl.hpp"]}
{"id": "C19", "title": "Fundamental theorem of decorated interval arithmetic", "statement": "If evaluating an expression on decorated inputs yields decoration def or better, the expression is defined at every point of the box; dac or better: additionally its restriction to the box is continuous; com: additionally the box is bounded, non-empty, and the result bounded and the function continuous at each point. trv and ill promise nothing.", "quantifier": "all expression trees, all boxes, all decorations", "why_tests_cant": "A falsely optimistic decoration is only visible through a point where the function misbehaves, which testing has no way to enumerate.", "anchors": ["p1788/flavor/infsup/setbased/mpfr_bin_ieee754_flavor_elem_func_impl.hpp (decorated overloads)", "p1788/decoration/decoration.hpp"]}
{"id": "C20", "title": "Decorations of every elementary function are truthful", "statement": "For each decorated elementary function the decoration of the result is the minimum of the operand decorations and a local decoration d such that the definition of d (com/dac/def/trv) really holds for the function on the operand box, for every operand.", "quantifier": "all elementary functions, all valid decorated operands", "why_tests_cant": "The bounds range over all floating-point numbers of the format (2^64 and more per operand); a vector test only samples finitely many bound pairs and cannot see a missed branch, an overflow, an underflow or a half-ulp loss between samples.", "anchors": ["p1788/flavor/infsup/setbased/mpfr_bin_ieee754_flavor_elem_func_impl.hpp (decorated overloads)"]}
{"id": "C21", "title": "NaI is absorbing", "statement": "Every operation with a NaI operand returns NaI (or, for Boolean functions, false; for numeric ones, NaN), and no operation creates NaI from non-NaI valid operands.", "quantifier": "all decorated operations, all operands", "why_tests_cant": "The claim covers all operand values in the other positions.", "anchors": ["p1788/flavor/infsup/setbased/mpfr_bin_ieee754_flavor_class_impl.hpp: nai 86-92", "p1788/flavor/infsup/setbased/mpfr_bin_ieee754_flavor_elem_func_impl.hpp", "p1788/flavor/infsup/setbased/mpfr_bin_ieee754_flavor_bool_func_impl.hpp", "p1788/flavor/infsup/setbased/mpfr_bin_ieee754_flavor_num_func_impl.hpp"]}
{"id": "C22", "title": "Comparison relations mean what the standard says", "statement": "is_empty, is_entire, equal, subset, less, precedes, interior, strictly_less, strictly_precedes, disjoint (and their flipped versions) return true exactly when the corresponding relation holds between the sets of reals.", "quantifier": "all pairs of valid intervals, same or different number types, bare or decorated", "why_tests_cant": "The bounds range over all floating-point numbers of the format (2^64 and more per operand); a vector test only samples finitely many bound pairs and cannot see a missed branch, an overflow, an underflow or a half-ulp loss between samples.", "anchors": ["p1788/flavor/infsup/setbased/mpfr_bin_ieee754_flavor_bool_func_impl.hpp", "p1788/infsup/base_interval_bool_func_impl.hpp"]}
{"id": "C23", "title": "The overlap classification is exact and exclusive", "statement": "overlap(x,y) returns the one of the sixteen states whose defining condition on the two sets holds, for each pair exactly one holds, and overlap(y,x) is the converse state.", "quantifier": "all pairs of valid intervals", "why_tests_cant": "The bounds range over all floating-point numbers of the format (2^64 and more per operand); a vector test only samples finitely many bound pairs and cannot see a missed branch, an overflow, an underflow or a half-ulp loss between samples.", "anchors": ["p1788/flavor/infsup/setbased/mpfr_bin_ieee754_flavor_rec_overlap_impl.hpp: overlap 42-176", "p1788/overlapping/overlapping.hpp"]}
{"id": "C24", "title": "Recommended predicates", "statement": "is_common_interval, is_singleton and is_member decide: the set is non-empty and bounded; it has exactly one member; the number is a real member of the set (NaN and infinities never are).", "quantifier": "all valid intervals and all numbers of any type", "why_tests_cant": "The bounds range over all floating-point numbers of the format (2^64 and more per operand); a vector test only samples finitely many bound pairs and cannot see a missed branch, an overflow, an underflow or a half-ulp loss between samples.", "anchors": ["p1788/flavor/infsup/setbased/mpfr_bin_ieee754_flavor_rec_bool_func_impl.hpp: 43-134"]}
{"id": "C25", "title": "Intersection and convex hull", "statement": "intersection(x,y) is exactly the set intersection and convex_hull(x,y) the smallest interval containing both; the mixed-type versions are the tightest in the result type; decorated versions are trv.", "quantifier": "all pairs of valid intervals", "why_tests_cant": "The bounds range over all floating-point numbers of the format (2^64 and more per operand); a vector test only samples finitely many bound pairs and cannot see a missed branch, an overflow, an underflow or a half-ulp loss between samples.", "anchors": ["p1788/flavor/infsup/setbased/mpfr_bin_ieee754_flavor_set_op_impl.hpp: intersection 43-121, convex_hull 124-204"]}
{"id": "C26", "title": "Lattice laws of the relations and set operations", "statement": "subset is a partial order with equal as its equality; intersection and convex_hull are commutative, associative, idempotent, absorptive; disjoint(x,y) iff the intersection is empty.", "quantifier": "all triples of valid intervals", "why_tests_cant": "Laws quantify over triples of intervals.", "anchors": ["p1788/flavor/infsup/setbased/mpfr_bin_ieee754_flavor_set_op_impl.hpp", "p1788/flavor/infsup/setbased/mpfr_bin_ieee754_flavor_bool_func_impl.hpp"]}
{"id": "C27", "title": "Infimum, supremum, width, magnitude, mignitude", "statement": "inf and sup are the exact bounds (with -0 resp. +0 for zero, +inf/-inf for empty); wid is the width rounded up; mag is the largest and mig the smallest absolute value of a member; empty and NaI give NaN where documented; mixed-type versions round outward (mig downward).", "quantifier": "all valid intervals, all result types", "why_tests_cant": "The bounds range over all floating-point numbers of the format (2^64 and more per operand); a vector test only samples finitely many bound pairs and cannot see a missed branch, an overflow, an underflow or a half-ulp loss between samples.", "anchors": ["p1788/flavor/infsup/setbased/mpfr_bin_ieee754_flavor_num_func_impl.hpp: inf 42, sup 105, wid 442, mag 511, mig 577"]}
{"id": "C28", "title": "Midpoint and radius", "statement": "mid(x) is a finite member of a non-empty x (0 for the entire line, the largest finite number for half-lines as documented), equal to the correctly rounded true midpoint for bounded x; rad(x) is the smallest format number with x inside [mid-rad, mid+rad]; mid_rad returns both consistently. Mixed types: the same, with the half-line value taken from the result type, so that a narrower result type may give a midpoint outside the interval.", "quantifier": "all valid intervals including those with bounds near overflow or subnormal", "why_tests_cant": "The bounds range over all floating-point numbers of the format (2^64 and more per operand); a vector test only samples finitely many bound pairs and cannot see a missed branch, an overflow, an underflow or a half-ulp loss between samples. Overflow of l+u and double rounding only show at extreme bounds.", "anchors": ["p1788/flavor/infsup/setbased/mpfr_bin_ieee754_flavor_num_func_impl.hpp: mid 171-287, rad 294-333, mid_rad 339-436"]}
{"id": "C29", "title": "Cancellative addition and subtraction", "statement": "cancel_minus(x,y) for bounded x,y with wid(x)>=wid(y) (as real numbers) is the tightest interval z with y+z containing x; entire in every other non-empty case; cancel_plus(x,y)=cancel_minus(x,-y).", "quantifier": "all valid intervals", "why_tests_cant": "The bounds range over all floating-point numbers of the format (2^64 and more per operand); a vector test only samples finitely many bound pairs and cannot see a missed branch, an overflow, an underflow or a half-ulp loss between samples. The width comparison needs exact arithmetic; tests rarely hit widths that tie after rounding.", "anchors": ["p1788/flavor/infsup/setbased/mpfr_bin_ieee754_flavor_cancel_func_impl.hpp: 42-217", "p1788/util/mpfr_util.hpp: two_sum"]}
{"id": "C30", "title": "Reverse square, absolute value, power and cosh lose no solution", "statement": "sqr_rev, abs_rev, pown_rev, cosh_rev (c,x) contain every t in x with f(t) in c.", "quantifier": "all valid intervals c,x, all integer exponents", "why_tests_cant": "The bounds range over all floating-point numbers of the format (2^64 and more per operand); a vector test only samples finitely many bound pairs and cannot see a missed branch, an overflow, an underflow or a half-ulp loss between samples.", "anchors": ["p1788/flavor/infsup/setbased/mpfr_bin_ieee754_flavor_rev_func_impl.hpp: sqr_rev 46, abs_rev 201, pown_rev 396, cosh_rev 1372"]}
{"id": "C31", "title": "Reverse trigonometric functions lose no solution", "statement": "sin_rev, cos_rev, tan_rev (c,x) contain every t in x with f(t) in c.", "quantifier": "all valid intervals c,x", "why_tests_cant": "The bounds range over all floating-point numbers of the format (2^64 and more per operand); a vector test only samples finitely many bound pairs and cannot see a missed branch, an overflow, an underflow or a half-ulp loss between samples. Solutions form infinitely many periodic branches; the failing branch pattern depends on real multiples of pi.", "anchors": ["p1788/flavor/infsup/setbased/mpfr_bin_ieee754_flavor_rev_func_impl.hpp: sin_rev 670, cos_rev 917, tan_rev 1161"]}
{"id": "C32", "title": "Reverse multiplication and extended division", "statement": "mul_rev(b,c,x) contains every t in x with b*t in c for some member of b; mul_rev_to_pair(b,c) returns two intervals whose union contains exactly the tightest enclosure of the (at most two) components of that solution set, in order.", "quantifier": "all valid intervals b,c,x", "why_tests_cant": "The bounds range over all floating-point numbers of the format (2^64 and more per operand); a vector test only samples finitely many bound pairs and cannot see a missed branch, an overflow, an underflow or a half-ulp loss between samples.", "anchors": ["p1788/flavor/infsup/setbased/mpfr_bin_ieee754_flavor_rev_func_impl.hpp: mul_rev 1528", "p1788/flavor/infsup/setbased/mpfr_bin_ieee754_flavor_mul_rev_to_pair_func_impl.hpp: 43-335"]}
{"id": "C33", "title": "Mixed-type operations round once", "statement": "An operation on operands of different number types and a result type yields the same tightest interval in the result type as if the exact range were rounded outward once.", "quantifier": "all operand and result type combinations, all valid operands", "why_tests_cant": "Double rounding shows only on inputs whose exact value falls near a rounding boundary of both types.", "anchors": ["p1788/util/mixed_type_traits.hpp", "p1788/flavor/infsup/setbased/mpfr_bin_ieee754_flavor_util_func_impl.hpp: convert_hull 91-123", "p1788/flavor/infsup/setbased/mpfr_bin_ieee754_flavor_elem_func_impl.hpp (mixed overloads)"]}
{"id": "C34", "title": "Conversion between number types", "statement": "Converting an interval to another number type yields the tightest enclosing interval; converting to a wider type and back is the identity; a com decoration is lowered to dac iff the conversion overflows.", "quantifier": "all valid intervals, all type pairs", "why_tests_cant": "The bounds range over all floating-point numbers of the format (2^64 and more per operand); a vector test only samples finitely many bound pairs and cannot see a missed branch, an overflow, an underflow or a half-ulp loss between samples.", "anchors": ["p1788/flavor/infsup/setbased/mpfr_bin_ieee754_flavor_class_impl.hpp: convert_type 344-373, copy 313-336, interval_part 377-413", "p1788/flavor/infsup/setbased/mpfr_bin_ieee754_flavor_util_func_impl.hpp"]}
{"id": "C35", "title": "Inclusion isotonicity", "statement": "Enlarging any operand never shrinks the result: if x is a subset of x' then op(x) is a subset of op(x'). This covers forward functions, intersection and hull, the reverse functions and mixed-type calls; it fails for the tangent on double, for cancellation, and for sin_rev, cos_rev and tan_rev.", "quantifier": "all operations including reverse functions and mixed types, all nested operand pairs", "why_tests_cant": "Needs pairs of related inputs over all branch boundaries.", "anchors": ["p1788/flavor/infsup/setbased/mpfr_bin_ieee754_flavor_elem_func_impl.hpp", "p1788/flavor/infsup/setbased/mpfr_bin_ieee754_flavor_rev_func_impl.hpp: 40-1611"]}
{"id": "C36", "title": "Exception flags and throwing", "statement": "A signalled condition always sets its flag; a C++ exception is thrown exactly when the flag is in the enabled mask; flags are sticky until cleared and operations on valid operands signal nothing except the documented conditions.", "quantifier": "all sequences of operations, mask changes and clears", "why_tests_cant": "State depends on the whole history.", "anchors": ["p1788/exception/exception.hpp: 44-294", "p1788/flavor/infsup/setbased/mpfr_bin_ieee754_flavor_class_impl.hpp"]}
{"id": "C37", "title": "Reductions are correctly rounded", "statement": "sum, sum_abs, sum_sqr, dot return the exact mathematical result rounded once in the requested direction for any finite vector; NaN and infinities are treated as documented. dot reads only as many elements of the second range as the first has; when a product underflows the result of dot or sum_sqr is off by at most half the smallest positive number per element before the final rounding.", "quantifier": "all vectors of any length, all rounding modes", "why_tests_cant": "Vector length is unbounded and cancellation/overflow patterns are unlimited.", "anchors": ["p1788/reduction/reduction.hpp: 73-323"]}
{"id": "C38", "title": "Reading interval literals is safe", "statement": "Constructing an interval from text yields an interval containing exactly the set the literal denotes, tightest for its bounds; malformed or inconsistent text yields empty/NaI and never a non-empty interval that misses the denoted set.", "quantifier": "all strings", "why_tests_cant": "Strings of unbounded length and digits count.", "anchors": ["p1788/flavor/infsup/setbased/mpfr_bin_ieee754_flavor_io_impl.hpp: operator_text_to_interval 504-1409", "p1788/flavor/infsup/setbased/mpfr_bin_ieee754_flavor_class_impl.hpp: text_to_interval 258-309"]}
{"id": "C39", "title": "Decorations as text", "statement": "Writing a decoration to a stream and reading it back yields the same decoration; reading accepts exactly com/dac/def/trv/ill (any case) and numeric forms, and otherwise fails.", "quantifier": "all decorations, all stream contents", "why_tests_cant": "Stream contents are arbitrary.", "anchors": ["p1788/decoration/decoration.hpp: 103-257"]}
{"id": "C40", "title": "Writing intervals is safe", "statement": "The inf-sup text printed for an interval denotes an interval containing it, for every output precision and representation, and printing never writes outside its buffer.", "quantifier": "all intervals, all formatting settings", "why_tests_cant": "Format settings and bounds are unbounded; memory errors may stay invisible.", "anchors": ["p1788/flavor/infsup/setbased/mpfr_bin_ieee754_flavor_io_impl.hpp: operator_interval_to_text 46-485", "p1788/util/mpfr_var_impl.hpp: get_str 226-350"]}
{"id": "C41", "title": "Algebraic laws", "statement": "add and mul are commutative, x+[0,0]=x and x*[1,1]=x, neg is an involution, sub(x,y)=add(x,neg(y)), sqr(x) is a subset of mul(x,x), recip equals div by one, fma(x,y,[0,0])=mul(x,y), pown(x,2)=sqr(x) as sets.", "quantifier": "all valid intervals", "why_tests_cant": "Laws over all operands including overflowed and zero-touching ones.", "anchors": ["p1788/flavor/infsup/setbased/mpfr_bin_ieee754_flavor_elem_func_impl.hpp"]}
{"id": "C42", "title": "Writing intervals in uncertain form is safe", "statement": "Printing a non-empty interval in one of the uncertain forms (m?r, m?ru, m?rd, with or without exponent) ends normally and writes a literal that denotes a superset of the interval, bounded on the same sides; reading it back yields a superset.", "quantifier": "all non-empty intervals, bare and decorated, all precisions and settings of the stream", "why_tests_cant": "The digits are cut, shifted and corrected depending on the exponents of both bounds and of the midpoint; the failing combinations are rare.", "anchors": ["p1788/flavor/infsup/setbased/mpfr_bin_ieee754_flavor_io_impl.hpp: operator_interval_to_text 54-330"]}
{"id": "C43", "title": "Results are correctly rounded once, whatever earlier calls left behind", "statement": "Every elementary computation returns the number of the type nearest to the exact real result in the requested direction, including gradual underflow and overflow, although the value is rounded in several steps (to the precision, into the exponent range, to a subnormal number); and it does so independently of the global exponent range that earlier calls, possibly on other number types, have left in the MPFR library. The midpoint of a bounded interval is rounded once, too.", "quantifier": "all number formats, all real results, all rounding directions, all sequences of previous calls", "why_tests_cant": "Double rounding shows only for exact values extremely close to a tie in the subnormal range, and a stale global state only for particular orders of calls.", "anchors": ["p1788/util/mpfr_var_impl.hpp: setup, subnormalize, get, subnormalization_trait", "p1788/util/mpfr_var_impl.hpp: mpfr_var", "p1788/flavor/infsup/setbased/mpfr_bin_ieee754_flavor_num_func_impl.hpp: mid"]}
{"id": "C44", "title": "The root finding programs lose no zero", "statement": "The bisection and interval Newton programs shipped as examples, run with any interval function that encloses a real function (and, for Newton, any interval function that encloses its derivative), write a list of parts of the start interval in which every zero of the function lies; what bisection writes has an enclosure of values that contains 0 and is narrower than eps, so that the function is smaller than eps there and, for small eps, a zero is near; what Newton writes is narrower than eps; the programs never signal an exception; they return whenever eps exceeds what the number type can resolve, and may recurse without end otherwise.", "quantifier": "all enclosures f (and df), all proper non-empty start intervals, bounded or not, all eps, all recursion depths, all number formats", "why_tests_cant": "Loss of a zero depends on rounding of midpoints and of the two components of the division in each of unboundedly many recursive calls; a test run shows one function and one eps, and cannot show that a run never returns.", "anchors": ["examples/e15_bisection.cpp: ia_bisect", "examples/e16_newton.cpp: ia_newton", "p1788/flavor/infsup/setbased/mpfr_bin_ieee754_flavor_num_func_impl.hpp: mid", "mul_rev_to_pair", "intersection"]}
{"id": "C45", "title": "Threads do not disturb each other", "statement": "What a thread obtains from the library, results of operations as well as exception flags and thrown exceptions (documented as thread local), depends only on the calls the thread itself makes, not on calls other threads make at the same time.", "quantifier": "all numbers of threads, all sequences of calls per thread, all schedules, all initial states of MPFR's exponent range", "why_tests_cant": "Interference depends on the interleaving of accesses to static storage; tests run one thread, or sample a handful of schedules.", "anchors": ["p1788/exception/exception.hpp: cwd, state, signal_*, clear", "p1788/util/mpfr_var_impl.hpp: setup, subnormalize, get"]}
{"id": "C46", "title": "Output settings are sticky and nothing else in the history matters", "statement": "What a program writes to an output stream depends only on the last manipulator of each kind that it has applied (the documented defaults if none) and on the field width, not on anything written before, on the order of manipulators of different kinds, or on overridden ones; writing objects changes no setting; text already written is never altered; the field width is used up by one object; with upper_case or lower_case set no letter of the other case is written; the text of an overlap state identifies the state under all settings.", "quantifier": "all sequences of manipulators and insertions of intervals, decorated intervals, decorations, overlap states and strings, all objects, all number formats", "why_tests_cant": "The settings are entries of a table in the stream that every insertion reads, and one insertion rewrites temporarily; leaks between objects appear only for particular histories, of which there are unboundedly many.", "anchors": ["p1788/io/io_manip.hpp: manipulators", "p1788/overlapping/overlapping.hpp: operator<<", "p1788/flavor/infsup/setbased/mpfr_bin_ieee754_flavor_io_impl.hpp: operator_interval_to_text, string_width_helper", "p1788/decoration/decoration.hpp: operator<<"]}
{"id": "C47", "title": "A sequence of intervals survives a text stream", "statement": "Bare intervals, decorated intervals and decorations that a program writes to a stream one after another, separated by white space and with changes of the output settings in between, are read back with >> one after another into variables of the same types: each interval read contains the one written and has the same decoration (com becomes dac if a bound overflows), NaI is read as NaI, empty as empty, decorations as the same, no exception is thrown and no flag raised, and the stream stays good; with hexadecimal numbers and no precision given the objects read are equal to those written.", "quantifier": "all sequences of bare intervals, decorated intervals and decorations, all separators of white space, all settings made before and in between, all earlier uses of the stream, all number formats", "why_tests_cant": "Reading must stop exactly at the end of each literal and leave the stream usable; whether it does depends on the state bits after every literal and on the text of all bounds.", "anchors": ["p1788/flavor/infsup/setbased/mpfr_bin_ieee754_flavor_io_impl.hpp: operator_interval_to_text, operator_text_to_interval", "p1788/infsup/base_interval_io_impl.hpp: operator<<, operator>>", "p1788/decoration/decoration.hpp: operator>>"]}
{"id": "C48", "title": "Memory is given back", "statement": "Every function gives back all heap memory it takes, whether it returns or an exception leaves it and wherever an allocation fails, and it releases nothing that it does not own; so programs can call the functions arbitrarily often with bounded memory.", "quantifier": "all functions, all lengths of the operands of the reductions, all sequences of calls, all points at which memory can run out", "why_tests_cant": "A leak changes no result; it shows only in the sum over all calls of a long-running program, or if an allocation fails at a particular point.", "anchors": ["p1788/reduction/reduction.hpp: reduction_sum_op, sum, sum_abs, sum_sqr, dot", "p1788/util/mpfr_var_impl.hpp: mpfr_var, ~mpfr_var, get_str", "p1788/flavor/infsup/setbased/mpfr_bin_ieee754_flavor_io_impl.hpp: mpz_var, mpq_var"]}
{"id": "C49", "title": "Constraint propagation loses no solution", "statement": "A program that keeps one interval per unknown and narrows them by reverse functions and by intersection with expressions, in any order and any number of times, keeps every solution of its equations that lies in the box at the start; intervals stay valid and never grow; an empty interval proves that there is no solution; every infinite run changes the intervals only finitely often.", "quantifier": "all systems of equations over any set of unknowns, all schedules of narrowing steps (finite and infinite), all starting boxes, all real assignments", "why_tests_cant": "The property is about every schedule and every real solution; a test sees finitely many steps and floating-point candidates, and a lost solution shows no error, only an empty or too small box.", "anchors": ["p1788/infsup/base_interval_rev_func_impl.hpp: sqr_rev, abs_rev, pown_rev, sin_rev, cos_rev, tan_rev, cosh_rev, mul_rev", "p1788/infsup/base_interval_set_op_impl.hpp: intersection", "p1788/infsup/base_interval_elem_func_impl.hpp", "examples/e11_rev_functions.cpp"]}
{"id": "C50", "title": "No rounding where the true result is representable", "statement": "If the arguments are single numbers and the mathematical result of an operation is a number of the type, the library returns exactly that number as a one-point interval; so is the result of a whole expression all of whose intermediate results are representable, in particular of integer computations with +, -, *, negation, abs, sqr that stay within 2^p.", "quantifier": "all number types, all elementary functions, all expressions built from them, all representable points", "why_tests_cant": "Needs every representable argument of every function and every nesting; a directed rounding wrong by one unit only shows at exact cases, which are rare among random inputs.", "anchors": ["p1788/infsup/base_interval_elem_func_impl.hpp", "p1788/flavor/infsup/setbased/mpfr_bin_ieee754_flavor_elem_func_impl.hpp", "p1788/util/mpfr_util.hpp"]}
{"id": "C51", "title": "A wider number type never gives a wider interval", "statement": "If the same intervals are given to an operation or to a whole expression first in a number type and then in one that contains all its numbers (float, double, long double), the result in the wider type lies inside the result in the narrower one.", "quantifier": "all pairs of nested number types, all elementary functions and all expressions, all intervals of the narrower type", "why_tests_cant": "Relates two executions in different instantiations of the templates over all inputs; an expression accumulates the difference over any depth.", "anchors": ["p1788/infsup/base_interval_elem_func_impl.hpp", "p1788/flavor/infsup/setbased/mpfr_bin_ieee754_flavor_elem_func_impl.hpp", "p1788/infsup/interval.hpp: interval<T,Flavor>"]}
{"id": "C52", "title": "Sign, symmetry, unit and inverse laws", "statement": "Addition, multiplication, min and max commute, negation moves through operations, 0 and 1 are units, sqr = pown(.,2), recip = pown(.,-1) = 1/x, even and odd functions respect signs, floor(-x) = -ceil(x), all as equality of the returned intervals; inverse functions and inverse operations give back at least what was put in; addition is not associative and multiplication not distributive.", "quantifier": "all number types, all valid intervals including empty and unbounded ones", "why_tests_cant": "Equality of rounded results for every pair of operands; the sign cases of multiplication and of the trigonometric reductions are too many to sample.", "anchors": ["p1788/infsup/base_interval_elem_func_impl.hpp", "p1788/flavor/infsup/setbased/mpfr_bin_ieee754_flavor_elem_func_impl.hpp", "p1788/infsup/base_interval_bool_func_impl.hpp: equal"]}
{"id": "C53", "title": "Equal intervals are interchangeable", "statement": "Intervals that compare equal may differ in the sign of a zero bound. No function of the library tells them apart: equal arguments give equal results in every operation and expression, the same exceptions, the same answer of every predicate and comparison, the same number (with the same sign of zero) in every numeric function, and the same text in inf-sup form. The text in uncertain form is the one exception: it shows the sign of a zero bound.", "quantifier": "all functions of the library in bare, decorated and mixed-type versions, all valid arguments, all exception states, all stream settings", "why_tests_cant": "Relates two executions on different data over all functions and all inputs; signed zeros reach the bounds through rounding of any operation.", "anchors": ["p1788/infsup/base_interval_bool_func_impl.hpp: operator==", "p1788/flavor/infsup/setbased/mpfr_bin_ieee754_flavor_num_func_impl.hpp: inf, sup", "p1788/flavor/infsup/setbased/mpfr_bin_ieee754_flavor_io_impl.hpp: operator_interval_to_text"]}
{"id": "C54", "title": "Results overshoot by less than one unit in the last place", "statement": "The lower bound of a result lies below the infimum of the exact range, and the upper bound above its supremum, by less than one unit in the last place of the number type (2^(1-p) relative, and the least positive number where results are subnormal), unless the exact end is out of the range of the type. On point arguments no number of the type lies strictly inside the result. A sum or scalar product of n numbers is off by at most n units of the largest intermediate result.", "quantifier": "all elementary functions in bare and mixed-type versions, conversions between number types, all valid intervals, all lists of numbers of any length", "why_tests_cant": "Sharpness is a bound on the error at every input, including subnormal results, results next to a change of binade, and accumulated error over lists of any length.", "anchors": ["p1788/flavor/infsup/setbased/mpfr_bin_ieee754_flavor_elem_func_impl.hpp: all functions", "p1788/util/mpfr_var_impl.hpp: mpfr_var"]}
{"id": "C55", "title": "Splitting the arguments", "statement": "If the arguments of an operation are cut into pieces, the convex hull of the results on the pieces is the result on the whole. For whole expressions the hull of the results on sub-boxes that cover the box is not wider than the result on the box and contains every value of the expression on it. The two halves at the midpoint can always be constructed from a non-empty interval. (False for tan in double.)", "quantifier": "all elementary functions, all valid arguments, all finite lists of pieces in any order and overlap, all expressions", "why_tests_cant": "Relates unboundedly many calls; covers and expressions are arbitrary.", "anchors": ["p1788/infsup/base_interval_elem_func_impl.hpp: all functions", "p1788/infsup/base_interval_set_op_impl.hpp: convex_hull", "examples/e15_bisection.cpp: ia_bisect"]}
{"id": "C56", "title": "Objects behave as values", "statement": "Default construction gives the empty interval (decorated trv). Copying, assigning and returning an object delivers the same object without a signal, no matter how many copies the compiler leaves out. == on intervals is equality of the sets they stand for and != its negation; NaI is equal to nothing. Converting bare to decorated and back changes nothing; decorated to bare and back keeps the interval and may only strengthen the decoration. (False for the invalid results of cancel_minus/cancel_plus at the edge of the range: what the caller gets depends on copy elision.)", "quantifier": "all objects, all number types, any number of copy constructions", "why_tests_cant": "Copy elision is the compiler's choice, so one build tests one choice only; equality and conversions range over all objects.", "anchors": ["p1788/infsup/interval.hpp: constructors", "p1788/infsup/decorated_interval.hpp: constructors", "p1788/infsup/base_interval_bool_func_impl.hpp: operator==, operator!=", "p1788/infsup/base_interval.hpp: concrete_interval"]}
{"id": "C57", "title": "The caller's floating-point rounding mode neither matters nor changes", "statement": "Whatever rounding mode of the processor a thread has set (to nearest, upward, downward, toward zero), every forward function and every formula built from them, bare or decorated, returns the same result, and the thread's rounding mode afterwards is the one it had before, over any history of mode changes and evaluations.", "quantifier": "all rounding modes, all formulas, all intervals, all histories of one thread", "why_tests_cant": "Tests run in the default mode; the dependence would only show in another mode, at ties or near integers, or in the caller's own code after the call.", "anchors": ["p1788/flavor/infsup/setbased/mpfr_bin_ieee754_flavor_elem_func_impl.hpp: round_ties_to_even (class rnd_controll), round_ties_to_away", "p1788/flavor/infsup/setbased/mpfr_bin_ieee754_flavor.hpp: #include <cfenv>"]}
{"id": "C58", "title": "Exception bit patterns are sets of conditions", "statement": "On any values of exception_bits the operators &, |, ^ (and &=, |=, ^=) are intersection, union and symmetric difference and ~ is the complement, and the results are values of the type. Over any sequence of calls with any such control words, a signal throws iff its condition is in the control word set last, queries tell what was signalled since the last clear, and get_throw_exception_cwd returns the word set last. (False for ~: its result is never a value of the enumeration, so converting it is unspecified.)", "quantifier": "all pairs of patterns; all sequences of signals, clears, queries and control word changes", "why_tests_cant": "The history is unbounded; and the result of ~ looks right with one compiler while the language leaves it unspecified.", "anchors": ["p1788/exception/exception.hpp: exception_bits, operator&, operator|, operator^, operator~, set_throw_exception_cwd, get_throw_exception_cwd, signal_..., clear"]}
{"id": "C59", "title": "Programs that branch on certain comparisons follow every real run", "statement": "Take a program with assignments, conditionals and loops over real variables. Run it on intervals, answering a < b by strictly_precedes(a,b) or precedes(b,a), running both branches and joining with convex_hull when neither is certain, and giving up in loops. If this run ends, then from every point of the starting box the real program ends too (or stops at an operation outside its domain) with values in the intervals; with decorated intervals that are checked to be decorated def, it ends with all operations defined. (False of double because of tan, see C11.)", "quantifier": "all programs, all boxes, all points of the box, runs of any length", "why_tests_cant": "A box has uncountably many points and a program arbitrarily long runs; tests compare a few.", "anchors": ["p1788/infsup/base_interval_bool_func_impl.hpp: precedes, strictly_precedes", "p1788/infsup/base_interval_set_op_impl.hpp: convex_hull", "p1788/infsup/base_interval_elem_func_impl.hpp"]}
{"id": "C60", "title": "Zeros and fixed points proved by evaluating a formula", "statement": "Evaluate a formula over a decorated box; one variable is the unknown x, the others are parameters. For every value of the parameters in the box: (1) if x is a common interval, the result is decorated at least dac and subset(result, x), the formula has a fixed point in x; (2) if the result is decorated at least dac and the formula is certainly negative at one member of x and certainly positive at another, it has a zero in x; (3) if 0 is not a member of the bare result, the formula has no zero in the box; (4) if the results of the formula and of its derivative are decorated at least def and 0 is not a member of the latter, each value is taken at most once; (5) every zero in x lies in the Newton operator m - f(m)/f'(x), and if that is a subset of x there is exactly one zero. (For double false with tan, see C11.)", "quantifier": "all formulas, boxes, decorations, parameter values; every interval format without intervals on which tan is wrong (C11), or formulas without tan", "why_tests_cant": "Existence and uniqueness of a real zero for every parameter value cannot be observed by evaluating at finitely many points.", "anchors": ["p1788/infsup/base_interval_elem_func_impl.hpp", "p1788/infsup/base_interval_bool_func_impl.hpp: subset, strictly_precedes", "p1788/infsup/base_interval_rec_bool_func_impl.hpp: is_common_interval, is_member"]}
{"id": "C61", "title": "Improper operands give an error value and do not spread", "statement": "An interval object that represents no interval (lower bound above upper bound; a program can obtain one, see C15) given to any operation yields the empty interval, in decorated arithmetic NaI, a number function yields NaN, a predicate or comparison false, overlap undefined; never a result that looks like an enclosure. (False of the code for the second operand of cancel_minus and cancel_plus.) Consequently, in the histories of all programs, every object that is not itself the result of a cancellative operation is a proper interval, and com never decorates an unbounded interval.", "quantifier": "all operations and all operands whose bounds are numbers of their types, proper or not; all histories of all programs, no restriction on the calls", "why_tests_cant": "The claim is about every operation with every improper representation and about every history that contains one; the test-suite feeds operations only a few improper pairs.", "anchors": ["p1788/flavor/infsup/setbased/mpfr_bin_ieee754_flavor_cancel_func_impl.hpp: cancel_minus", "p1788/flavor/infsup/setbased/mpfr_bin_ieee754_flavor_elem_func_impl.hpp", "p1788/flavor/infsup/setbased/mpfr_bin_ieee754_flavor_rev_func_impl.hpp", "p1788/flavor/infsup/setbased/mpfr_bin_ieee754_flavor_class_impl.hpp: is_valid"]}
{"id": "C62", "title": "Integrals enclosed by evaluating a formula on pieces", "statement": "Split [a,b] at grid points; on each piece evaluate a formula with decorated intervals, multiply the result by the width interval [b_k,b_k]-[a_k,a_k] and add up with interval operations. If every piece was a common interval and every result was decorated at least dac, then for every value of the other variables in the box the grid is ascending, the formula is defined and integrable on [a,b], and the integral lies in the final interval. If the formula is tame on the box (no argument on the border of a domain or at a jump), the checks succeed on every fine enough ascending grid, and every number of the final interval is within K(step + pieces*2^(1-p)) of the integral with K independent of the type; so every accuracy is reached by fine grids in precise types. (Enclosure: for double false with tan, see C11.)", "quantifier": "all formulas, boxes, decorations, grids of every length (ordered or not), parameter values; every interval format without intervals on which tan is wrong (C11), or formulas without tan", "why_tests_cant": "A statement about a real integral for all parameter values in a box and all grids, which depends on the continuity reported by decorations and on all rounding errors.", "anchors": ["p1788/infsup/base_interval_elem_func_impl.hpp", "p1788/infsup/decorated_interval.hpp", "p1788/infsup/base_interval_rec_bool_func_impl.hpp: is_common_interval", "p1788/decoration/decoration.hpp"]}
{"id": "C63", "title": "Global minimisation by branch and bound", "statement": "A program keeps a list of boxes and an upper bound. In any order it discards boxes with an empty side, discards boxes whose evaluation has inf above the bound, bisects a side at mid, and lowers the bound to the sup of an evaluation at a point of a box whose decoration is at least def. At every moment: all boxes lie in the initial box, every global minimiser over the initial box lies in a listed box, the minimum is not above the bound, and the smallest of the bound and the inf of the evaluations of the listed boxes is a lower bound of the formula. If the formula is tame on the box: when no box can be discarded, all sides are at most w wide and every box has been probed, the bound and all values over the listed boxes exceed the minimum by at most K(w + 2^(1-p)); and from every non-empty box some sequence of steps leads to such a state with w a multiple of 2^(1-p), K and the multiple independent of the type. (For double false with tan, see C11.)", "quantifier": "all formulas, initial boxes and valid initial bounds, all finite sequences of steps in any order; every interval format without intervals on which tan is wrong (C11), or formulas without tan", "why_tests_cant": "The claim is about all real points of a box and all strategies.", "anchors": ["p1788/infsup/base_interval_elem_func_impl.hpp", "p1788/infsup/base_interval_num_func_impl.hpp: inf, sup, mid", "p1788/infsup/base_interval_rec_bool_func_impl.hpp: is_empty, is_member", "examples/e15_bisection.cpp"]}
{"id": "C64", "title": "Narrow arguments give narrow results", "statement": "Take a formula and a point at which each of its operations is applied inside its domain and away from jumps. There are constants K, r and M, independent of the number format, such that evaluating the formula with intervals on any box within delta <= r of the point, in any format with rounding unit u = 2^(1-p) <= r and largest number >= M, gives an interval all of whose members are within K*(delta+u) of the real value. The constants can be chosen uniformly on a bounded box on which the formula is well-behaved. If the operands are decorated com, so is the result. Hence strict facts are found out: if a formula has no zero on the box, or is below another one, is_member(0, .) is false, or strictly_precedes true, on all small enough parts.", "quantifier": "all formulas, all such points and bounded boxes, all sub-boxes, all formats of sufficient precision", "why_tests_cant": "It is a statement about all widths tending to zero and all formulas; tests sample finitely many boxes. It is the converse of containment: an implementation that returned the entire line would satisfy containment and fail this.", "anchors": ["p1788/infsup/base_interval_elem_func_impl.hpp", "p1788/infsup/decorated_interval.hpp", "p1788/infsup/base_interval_rec_bool_func_impl.hpp: is_common_interval", "p1788/decoration/decoration.hpp"]}
{"id": "C65", "title": "Better operands give better results, decorations included", "statement": "Call a decorated interval at least as good as another one if it is contained in it and its decoration is at least as strong. If each operand of a decorated operation (forward functions, fma, intersection and hull, any combination of number types) or of a whole formula is replaced by one at least as good, the result is at least as good as before. In particular evaluating on a non-empty part of a box, with operands decorated by new_dec, never gives a weaker decoration. (For double false with tan, see C11.)", "quantifier": "all operations, all formulas, all pairs of operand tuples with one at least as good as the other, including empty operands and NaI; every format without intervals on which tan is wrong (C11), or formulas without tan", "why_tests_cant": "A relation between two runs, over all pairs of boxes and all formulas; subdivision algorithms rely on it when they keep a decoration obtained for a larger box.", "anchors": ["p1788/infsup/base_interval_elem_func_impl.hpp", "p1788/infsup/base_interval_set_op_impl.hpp", "p1788/flavor/infsup/setbased/mpfr_bin_ieee754_flavor_class_impl.hpp: new_dec", "p1788/decoration/decoration.hpp"]}
{"id": "C66", "title": "Output settings in programs of several translation units", "statement": "Settings made on an output stream with the library's manipulators are in force for everything the library writes to that stream afterwards, whichever source files of the program set and write, and whatever other users of the stream's iword table do with the entries given to them; conversely the library leaves their entries alone. (False: each source file has its own indices, so settings made by code of one file are invisible to code of all others, and before its initialisation all settings of a file share entry 0.)", "quantifier": "all orders of start-up allocations, all sequences of manipulators, insertions and foreign writes by any number of source files", "why_tests_cant": "The tests are compiled from one file each; the claim is about all linkings, allocation orders and histories.", "anchors": ["p1788/io/io_manip.hpp: text_representation_manip_id and the other ..._manip_id", "p1788/flavor/infsup/setbased/mpfr_bin_ieee754_flavor_io_impl.hpp: operator_interval_to_text", "p1788/decoration/decoration.hpp: operator<<", "p1788/overlapping/overlapping.hpp: operator<<"]}
{"id": "C67", "title": "Texts in uncertain form are hardly wider than the interval", "statement": "Whatever is written in one of the uncertain forms exceeds the interval only by the rounding of its bounds to the digits asked for and by one unit in the last place of the number before the question mark; in symmetric form that number is the midpoint, rounded; intervals bounded on one side lose only the rounding of that bound.", "quantifier": "all non-empty bare and decorated intervals, all formats, precisions and settings, all amounts of memory beyond the buffer for which the call ends normally", "why_tests_cant": "A radius that is too large by orders of magnitude still contains the interval and reads back without an error; whether it is depends on the exponents of three numbers and on the precision.", "anchors": ["p1788/flavor/infsup/setbased/mpfr_bin_ieee754_flavor_io_impl.hpp: operator_interval_to_text 54-330"]}
{"id": "C68", "title": "Streams that report by exceptions", "statement": "Reading intervals and decorations from a stream for which exceptions are enabled behaves as reading without exceptions, except that std::ios_base::failure leaves the call exactly if otherwise a bit of the mask would be set in the end. If it returns, value and stream are the same; if it throws, the variable keeps its value, the stream has a bit of the mask set and no bit it would not have otherwise. So whatever leaves the stream good is read without an exception, though the library looks beyond the end of the text, and a loop that ends by the exception gets the same values as one that tests the stream.", "quantifier": "all masks, all streams in all states, all formats; loops of any length", "why_tests_cant": "The try blocks swallow some exceptions and pass others on; which one depends on the mask and on the character at which the text ends. Two tests use exceptions, both with the same mask.", "anchors": ["p1788/flavor/infsup/setbased/mpfr_bin_ieee754_flavor_io_impl.hpp: operator_text_to_interval 488-1400", "p1788/decoration/decoration.hpp: operator>>", "p1788/util/io.hpp: remove_ws"]}
{"id": "C69", "title": "Reverse trigonometric functions are sharp", "statement": "Each finite end of sin_rev(c, x), cos_rev(c, x), tan_rev(c, x) is near to a solution: to a number t with sin t in c (cos t in c; tan t defined and in c), the distance from the end e being at most 2^(2-p) * (|e| + 5), where p is the precision of the number format of the result. Hence the bare result is empty unless some point of x is that near to a solution.", "quantifier": "all valid bare and decorated intervals c and x of all number formats, also of mixed number types, without any bound on their size", "why_tests_cant": "A function that returns x, or that takes a wrong branch, contains all solutions and passes every containment test; whether an end is near a solution depends on the number of periods, on the parity of the branch, on the rounding of pi, of the arcs and of the multiples.", "anchors": ["p1788/flavor/infsup/setbased/mpfr_bin_ieee754_flavor_rev_func_impl.hpp: sin_rev, cos_rev, tan_rev"]}
{"id": "C70", "title": "Reverse powers return after a bounded search", "statement": "Every call of pown_rev(c, x, p) returns. The bounds for negative exponents are found by stepping from number to number in a loop without a limit; each of these loops ends after at most five steps.", "quantifier": "all valid intervals c and x of every number type, all exponents", "why_tests_cant": "The number of steps depends on how the root and its reciprocal are rounded and on the neighbours of the result; a loop that misses its target runs through 2^60 numbers or for ever, which a test sees only for the operands it happens to use.", "anchors": ["p1788/flavor/infsup/setbased/mpfr_bin_ieee754_flavor_rev_func_impl.hpp: pown_rev_inf, pown_rev_sup, pown_rev 321-555"]}
{"id": "C71", "title": "Differential equations enclosed step by step", "statement": "To follow the solutions of u' = f(u) from a box X0, a program is given for each step a box X and a step size h, evaluates the formulas f on X with decorated intervals and checks that every result is decorated at least def and that X0 + [0,h]*f(X), computed with interval operations, is in the interior of X; X0 + [h,h]*f(X) is the box for the next step. If all checks succeed, no step size was negative, and every solution that starts in X0 stays, during each step, in the box of the step and where f is defined, and arrives in the final box. If moreover the boxes are bounded and the operations of f are tame at their points (no argument on the border of a domain or at a jump), then from each point of X0 there is one and only one solution over the whole time. The checks succeed whenever the results are decorated def and the step is short enough to leave room in X. Along a solution on which f is tame, any accuracy can be had: with enough equal steps, suitable boxes and a precise enough type all checks succeed and the final box is as close to the solution as wanted. (For double false with tan, as a consequence of C11: the constant solution pi of u' = tan u is lost.)", "quantifier": "all systems of formulas of every number of variables, all boxes, step sizes and numbers of steps, all solutions and all starting times", "why_tests_cant": "A solution is a real function; that none of the infinitely many leaves the boxes follows only from enclosure, decoration and containment tests being right for all real points, and one step wrongly accepted invalidates all later ones.", "anchors": ["p1788/infsup/interval.hpp: interval(l,u)", "p1788/infsup/base_interval_elem_func_impl.hpp: operator+, operator*", "p1788/infsup/base_interval_bool_func_impl.hpp: interior", "p1788/flavor/infsup/setbased/mpfr_bin_ieee754_flavor_elem_func_impl.hpp"]}
{"id": "C72", "title": "Constraint propagation: the order does not matter", "statement": "Let a program keep one interval per unknown and narrow them with steps x = intersection(x, e) for a formula e, x = sqr_rev(c, x), abs_rev, cosh_rev, sin_rev, cos_rev, tan_rev, pown_rev and mul_rev, taken from some fixed set in any order. If two runs from the same intervals have both arrived at intervals that no step of the set changes, they have arrived at the same intervals, and these contain all other intervals inside the first ones that no step changes. Two infinite runs that both execute each step again and again have the same intervals from some time on. (False with sin_rev, which is not isotone: with x = sin_rev([1/2,1], x), x = intersection(x, [7,7]) from x = [3,14] the one order ends in [7,7], the other in the empty set. cos_rev, tan_rev and, for double, tan are not isotone either, see C35.)", "quantifier": "all sets of steps, finite or not, all intervals, all orders and lengths of the runs, all fair schedules", "why_tests_cant": "There are infinitely many schedules and starting intervals; a single call that returns a little less for a larger argument makes the result depend on the order, and both results look plausible.", "anchors": ["p1788/infsup/base_interval_rev_func_impl.hpp", "p1788/infsup/base_interval_set_op_impl.hpp: intersection", "p1788/flavor/infsup/setbased/mpfr_bin_ieee754_flavor_rev_func_impl.hpp"]}
{"id": "C73", "title": "Systems of linear equations", "statement": "A program solves A x = b for interval coefficients by Gaussian elimination with the interval operators -, *, /: it picks a pivot row by any strategy, gives up if the pivot contains zero (is_member), eliminates the first unknown from all other rows, solves the smaller system and computes the first unknown from the pivot row. If it ends with a box, then every matrix M with entries in A is invertible, and for every right-hand side v in b the unique solution of M x = v lies in the box. With the same pivot rows, narrower intervals are also solved and give a box inside. A triangular system of non-empty intervals whose diagonal does not contain zero is always solved. If a real matrix is invertible, every interval matrix close enough to it is solved if the pivot of largest mig is taken, in all precise enough types, and right-hand sides close to zero give a box close to zero.", "quantifier": "all sizes n, all matrices and right-hand sides of valid intervals (unbounded and empty ones included), all pivot strategies, all number types", "why_tests_cant": "Infinitely many real systems are claimed to be regular at once; that none is missed rests on every one of the O(n^3) operations enclosing all results, division by intervals next to zero and unbounded intermediate results included.", "anchors": ["p1788/infsup/base_interval_elem_func_impl.hpp: operator-, operator*, operator/", "p1788/infsup/base_interval_rec_bool_func_impl.hpp: is_member"]}
{"id": "C74", "title": "Newton's method for systems of equations", "statement": "For n equations in n unknowns with parameters, a program evaluates the formulas of the equations and of their partial derivatives over a decorated box, gives up unless all are decorated at least def and a chosen point m is a member of the box, evaluates the equations at m, solves J(X) d = e(m) by interval Gaussian elimination (C73), and computes m - d. If it ends with a result N, then for every value of the parameters in the box: the equations are defined on the box, the box contains at most one solution, and that lies in N (so there is none if N and the box are disjoint). If moreover the box is bounded and [m,m] and N are in its interior (function interior), there is one and only one solution in the box. (For double false with tan, as a consequence of C11: for x + 8 sin(x)^2 = c, with the derivative written with tan, the solution pi is lost.)", "quantifier": "all systems of formulas of every number of unknowns and parameters, all boxes and points, all parameter values, all pivot strategies, all number types", "why_tests_cant": "Existence and uniqueness of a real solution, for a continuum of parameter values, is concluded from finitely many interval results; one derivative, decoration or quotient that is not enclosed makes the proof of existence wrong without any visible sign.", "anchors": ["p1788/infsup/base_interval_elem_func_impl.hpp", "p1788/infsup/base_interval_bool_func_impl.hpp: interior", "p1788/infsup/base_interval_rec_bool_func_impl.hpp: is_member, is_common_interval", "p1788/flavor/infsup/setbased/mpfr_bin_ieee754_flavor_elem_func_impl.hpp"]}
{"id": "C75", "title": "All solutions of a system of equations by branch and prune", "statement": "For n equations in n unknowns with parameters, a program keeps lists of boxes: still to be examined, proved to contain a solution, given up. In any order it throws away a box with an empty side or with 0 not a member of the interval of one of the equations, bisects a side at mid, intersects the unknowns with the result of the Newton operator (C74), moves a box on which the Newton test succeeds to the second list, or gives a box up. After any number of steps, for every value of the parameters: every solution in the initial box lies in one of the boxes of the lists, all boxes are valid and parts of the initial one, and each box of the second list contains one and only one solution. So if the other lists are empty, there are at most as many solutions as boxes in it, and exactly as many if disjoint tells any two of them apart. For formulas that are smooth enough on a bounded box, in precise enough types, some sequence of steps leaves only boxes on which all equations hold nearly and that are close to solutions, and nothing if there is no solution; and if the Jacobian matrix is invertible at a solution, the Newton test succeeds on every small box that contains the solution away from its boundary. (For double false with tan, as a consequence of C11: a box around the solution pi of tan x = 0 is thrown away.)", "quantifier": "all systems of formulas of every number of unknowns and parameters, all boxes, all orders and numbers of steps, all points and pivot strategies, all parameter values, all number types", "why_tests_cant": "The exact number of solutions, for a continuum of parameter values, is concluded from a search with unboundedly many orders of steps; one lost solution in one bisection, intersection or evaluation makes the count wrong without any visible sign.", "anchors": ["p1788/infsup/base_interval_elem_func_impl.hpp", "p1788/infsup/base_interval_num_func_impl.hpp: inf, sup, mid", "p1788/infsup/base_interval_set_op_impl.hpp: intersection", "p1788/infsup/base_interval_rec_bool_func_impl.hpp: is_member, is_empty", "p1788/infsup/base_interval_bool_func_impl.hpp: interior, disjoint", "examples/e15_bisection.cpp"]}
{"id": "C76", "title": "Mean value form", "statement": "A program encloses the range of a formula on a box by e(m) + sum_j g_j(X) * (X_j - m_j), intersected with the evaluation of e on the box, where m = mid of the unknowns and the g_j are formulas of the partial derivatives; it gives a result only if the decorations of all formulas are at least def. For every value of the parameters in their intervals for which the g_j are the partial derivatives, the formula is defined at every point of the box and its value is in the result. Near a point at which the formulas are smooth enough, the program gives a result on every small box with decorations com, and the result exceeds the range by at most a multiple of the square of the width of the box, of the width of the parameters and of the rounding unit (evaluation alone exceeds it by a multiple of the width). (For double false with tan, as a consequence of C11: the result on an interval with pi does not contain tan pi.)", "quantifier": "all formulas and formulas of their derivatives in every number of unknowns and parameters, all boxes, all parameter values, all points of the box, all number types", "why_tests_cant": "The claim is about the uncountably many values of a formula on a box, for all formulas, and the rate of convergence is a statement about all small boxes; a rounding error or a wrong midpoint in one of the calls loses values without a visible sign.", "anchors": ["p1788/infsup/base_interval_elem_func_impl.hpp", "p1788/infsup/base_interval_num_func_impl.hpp: mid", "p1788/infsup/base_interval_set_op_impl.hpp: intersection", "p1788/decoration/decoration.hpp"]}
{"id": "C77", "title": "Automatic differentiation", "statement": "A program turns a formula with rational constants into formulas of its partial derivatives, operation by operation (all functions of the library; undefined where a function has no derivative: abs at 0, min and max of equal numbers, sign and the roundings at their jumps, atan2 on its cut), and evaluates them on a box with the library. If the decorations of the results are at least def, the formula is differentiable at every point of the box and each partial derivative is in the interval computed for it. With these formulas, and no assumption about derivatives any more, the mean value form (C76) encloses the range and, on small boxes around a point at which every operation has a derivative, exceeds it by at most a multiple of the square of the width; and the Newton operator (C74) loses no solution and its test proves that there is one and only one. (For double false with tan, as a consequence of C11: the interval for the derivative of tan on an interval with pi does not contain tan'(pi) = 1.) The same holds for branch and prune with these derivatives, and its uniqueness test succeeds on small boxes around every regular solution if the type is precise enough.", "quantifier": "all formulas of all functions in every number of unknowns, all constants, all boxes and points of them, all number types", "why_tests_cant": "The derivative at each of the uncountably many points of a box, for every formula, is claimed to lie in the computed intervals; a wrong rule at one jump or kink, a decoration that is too strong or a wrongly rounded bound makes existence proofs wrong without a visible sign.", "anchors": ["p1788/infsup/base_interval_elem_func_impl.hpp", "p1788/flavor/infsup/setbased/mpfr_bin_ieee754_flavor_elem_func_impl.hpp", "p1788/decoration/decoration.hpp"]}
{"id": "C78", "title": "Monotonicity test", "statement": "A program evaluates formulas of the partial derivatives of a formula on a box. A side whose derivative is known to be nowhere negative (inf >= 0) or nowhere positive (sup <= 0) is replaced by its end (sides that are unbounded there stay as they are), and the formula is evaluated on the two boxes with the lowest and the highest ends; the convex hull of the two results, intersected with the evaluation on the whole box, encloses all values of the formula on the box. If only sides with derivatives of strict sign are replaced by the end where the values are smallest, the smaller box contains every minimiser of the formula over the box. The program gives a result only if the decorations of all formulas are at least def; the derivatives may be those of C77. Near a point at which no partial derivative is 0 the enclosure exceeds the range by at most a multiple of the rounding unit and of the width of the constants, however wide the sides are. (For double false with tan, as a consequence of C11: the result on an interval with pi does not contain tan pi.)", "quantifier": "all formulas and formulas of their derivatives in every number of unknowns and parameters, all boxes (bounded or not), all parameter values, all points of the box, all number types", "why_tests_cant": "The claim is about the uncountably many values and minimisers of a formula on a box, for all formulas; one end taken at the wrong side, or one derivative with a bound rounded the wrong way, loses the true minimum without a visible sign.", "anchors": ["p1788/infsup/base_interval_elem_func_impl.hpp", "p1788/infsup/base_interval_num_func_impl.hpp: inf, sup", "p1788/infsup/base_interval_set_op_impl.hpp: intersection, convex_hull", "p1788/decoration/decoration.hpp"]}
{"id": "C79", "title": "Global minimisation with derivatives", "statement": "A program looks for the global minimum of a formula with parameters over a box as in C63 (boxes with an empty side or a lower bound above the known upper bound are thrown away, sides bisected, the formula evaluated at points), and in addition replaces boxes by the parts the monotonicity test (C78) leaves of them. After any number of steps in any order, for every value of the parameters in their intervals for which the formulas of the derivatives are right (they may be those of C77): the boxes are parts of the first box, every global minimiser lies in one of them, its value is between the lower bound of the formula on that box and the upper bound of the program, and the least of the upper bound and the lower bounds on the boxes is a lower bound of the formula over the whole first box, also if there is no minimiser. (For double false with tan, as a consequence of C11.)", "quantifier": "all formulas in every number of unknowns and parameters, all boxes (bounded or not), all parameter values, all finite sequences of steps in any order, all number types", "why_tests_cant": "The boxes thrown away and cut down contain uncountably many points, and the order of the steps is free; a single wrong sign or bound loses the minimum silently in some run.", "anchors": ["p1788/infsup/base_interval_elem_func_impl.hpp", "p1788/infsup/base_interval_num_func_impl.hpp: inf, sup, mid", "p1788/infsup/base_interval_rec_bool_func_impl.hpp: is_empty, is_member", "p1788/decoration/decoration.hpp", "examples/e15_bisection.cpp"]}
