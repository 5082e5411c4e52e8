# libieeep1788: formal model and proofs - design

Source: `/repo` (C++ headers, read as text only). Model and proofs: `/verif/lean` (Lean 4.33, Mathlib imported
module by module). Properties: `/verif/properties.jsonl` (C01...). Status per property: `/verif/MANIFEST.json`.

## 1. Trusted base

* Lean 4 kernel, and the axioms `propext`, `Classical.choice`, `Quot.sound` (nothing else; checked with `#print axioms`).
* The reading of the C++ code: each model definition cites the file and lines it models.
* The contract of GMP/MPFR and of the C++ runtime, i.e. that each `mpfr_f(..., rnd)` followed by
  `subnormalize` delivers the exact real result rounded once in the requested direction into the format
  (with IEEE special values), that C++ comparisons follow IEEE 754, and that `std::min/max/floor/...` behave as
  specified. This contract is a *definition* in the model (`Verif/Model/Round.lean`, `Verif/Model/Mpfr.lean`):
  rounding is defined concretely (floor/ceil on the lattice of spacing 2^e) and its order-theoretic
  characterisation is proved, not assumed.
  For the wrapper class `mpfr_var` the contract is split further in `Verif/Model/MpfrVar.lean`: rounding to the precision
  with unbounded exponent and a ternary value, `mpfr_check_range`, `mpfr_subnormalize` and the global exponent range are
  modelled separately, and C43 proves that their composition is the single rounding used everywhere else.
* Text: `std::regex` is modelled by an ordered-choice matcher (`Verif/Model/Regex.lean`); formatted extraction from
  `std::istream` by `Verif/Model/Stream.lean`; `mpfr_snprintf` by exact decimal/hexadecimal expansion with the requested
  rounding (`Verif/Model/Write.lean`); GMP's `mpq_set_str` by the value of the digit string. The code
  does not call `mpq_canonicalize` afterwards; `mpfr_set_q` and `mpq_cmp` are taken to depend on the value only.
* Memory is modelled for C48 only (`Verif/Model/Memory.lean`), apart from the values. Not modelled: MPFR caches,
  stream buffers and locales, compile-time template dispatch (each overload is modelled as a separate function), the
  documentation layer. The mixed-type and decorated overloads of the elementary functions are modelled once as
  patterns (`Verif/Model/Mixed.lean`, `Verif/Model/Dec.lean`); that the source follows them was checked by a script
  over the text of `p1788/flavor/infsup/setbased/*_elem_func_impl.hpp`, not by the kernel.

## 2. Modelling decisions

* **Number formats** `Fmt` (precision `p`, exponent of the least quantum, `emax`), arbitrary subject to the
  obvious well-formedness; `binary32`, `binary64`, `x87ext` are the three C++ instances.
* **Floating-point values** `FP`: `nan | ninf | pinf | nzero | fin q` (`fin 0` is +0, `nzero` is -0,
  `q : Rat`). C++ comparisons are Boolean functions in which NaN compares false and -0 = +0.
* **Intervals** `Itv` are pairs of `FP` exactly as in the code (`(NaN,NaN)` is empty), decorated intervals
  add a decoration (`ill=0 < trv < def < dac < com`), including undefined enum values where relevant.
* **Meaning** `Itv.set : Set Real`. The specification (`Verif/Spec.lean`) only uses this set, sets of reals, and
  Mathlib's real functions. The central specification notion is `Tightest phi R S`: `R` is a valid interval with
  bounds in format `phi`, `S` is contained in it, and every valid interval of the format that contains `S` contains `R`.
* **Algebraic operations** are computable over `Rat`; irrational functions are rounded values of Mathlib's
  real functions (noncomputable model of MPFR's contract).
* **Exceptions**: an explicit state with flag bits and the enabled mask, and an outcome "thrown".
* **Wrapper overloads**: the mixed-type and decorated overloads of one family (28 unary, 7 binary, 6 reverse, 8 comparison
  functions) have bodies that are textually identical up to the name of the function called. They are therefore modelled
  once, as a definition with the bare function as a parameter; the citation names the lines of every instance.
* Undefined behaviour (for example signed overflow in `-p`, buffer overrun) is a distinct outcome where the code can reach it.

## 3. Plan per property

| id | modelled | proof |
|---|---|---|
| C01-C06 | add/sub/mul/div/recip/pos/neg/sqr/sqrt/abs/min/max/fma as coded | `Tightest` of the exact real range; GLB/LUB of the range in `EReal` + Galois property of directed rounding |
| C07, C08 | pown, pow case trees | same |
| C09, C12, C13 | exp..log10, asin..atan2, sinh..atanh | monotonicity of Mathlib functions + limits |
| C10 | sin, cos incl. the quadrant tests | containment, bounds |
| C11 | tan | containment under a condition on the format that float and long double meet; negation for double with a witness |
| C14 | sign, ceil, floor, trunc, round* | monotone step functions, exactness |
| C15 | all operations | induction over operation histories |
| C16, C17 | constructors with exception state | case analysis |
| C18, C19, C20 | expression trees over the operations; decorated evaluation | structural induction |
| C21 | all decorated operations | case analysis |
| C22-C26 | Boolean functions, overlap, recommended predicates, set operations, lattice laws | set-theoretic characterisations |
| C27, C28 | numeric functions | rounding lemmas |
| C29 | cancel_plus/minus incl. two_sum | error-free transformation lemma |
| C30-C32 | reverse functions, mul_rev_to_pair | containment; negations with witnesses for sin_rev / tan_rev |
| C33, C34 | mixed-type wrappers and conversions | composition of roundings via Galois connection |
| C35 | all operations | from `Tightest`; `mul_rev`, `pown_rev` from the leaves of their case distinctions; negations for tan on double, cancellation, sin_rev, tan_rev; tan on double where the wider operand is not bad for it (`Expr.TanSafe`) |
| C36 | exception state machine | induction over histories |
| C37 | reductions | exact accumulation; negations for products that underflow |
| C38-C40 | literal grammar, parse, print | containment of the denoted rational bounds |
| C41 | algebraic laws | from `Tightest` and direct |
| C42 | uncertain form of interval output | digit-string arithmetic; containment for enough precision; negations with witnesses |
| C43 | `mpfr_var` setup/subnormalize, the global exponent range | equality with one rounding for every previous state |
| C44 | the bisection and interval Newton example programs | induction on recursion depth; negation of termination for too small tolerances |
| C45 | accesses to static storage as instructions of threads (`Verif/Model/Threads.lean`) | simulation and invariants over all schedules; negations with schedules |
| C46 | stream commands over the `iword` table (`Verif/Model/OutStream.lean`), output of overlap states | simulation of two runs with the same last settings; case analysis of every text written |
| C47 | the commands of C46 and reading with `>>` in sequence, one type or bare intervals, decorated intervals and decorations mixed | induction on the list; the reader keeps the settings and sets eofbit only at the end (`Verif/Lemmas/TextKept.lean`), C38, C40 |
| C48 | allocations and releases on a heap, local objects, the constructor and destructor of the reductions (`Verif/Model/Memory.lean`) | Hoare-style rules over all executions; negations by counting blocks |
| C49 | a client program: a box of intervals and steps `x = f_rev(c, x)`, `x = intersection(x, e)` (`Verif/Model/Propagate.lean`) | invariant by induction on the run, from C18, C30, C31, C32; termination by counting the numbers in an interval; negation from C31 |
| C50 | nothing new: elementary functions and `Expr` | a tightest interval around a representable point is that point; induction on the expression; integers are representable up to `2^p` |
| C51 | nothing new: two instances `φ`, `ψ` of the number type with `Fmt.Sub φ ψ` | every interval of `φ` is one of `ψ`, so tightness in `ψ` puts the result inside; `tan` directly where the interval is not bad (`Expr.TanSafe`); negation for `tan` from C20 |
| C52 | nothing new | two tightest intervals of the same set are equal; `tan` by symmetry of its own case split; counterexamples to associativity and distributivity evaluated in the kernel |
| C53 | nothing new | `unz` removes signs of zeros; every model function commutes with it: the tight operations because their result depends on the set only, the others case by case; the table of calls is then checked constructor by constructor; the uncertain text is a kernel-evaluated counterexample |
| C54 | nothing new | a tightest interval is compared with the ray from the rounded end of the exact range; the distance of a real to its rounded value is below the unit; sums by induction on the list; the tangent by showing that an interval without a pole is never wider than `RD(π)` |
| C55 | nothing new | the hull of tightest intervals is the tightest interval of the union; expressions by C18 and C35 |
| C56 | `Model/Public.lean`: default/copy construction, assignment, conversions, `==`, `!=`, a result handed over by value with any number of copies not elided | induction on the number of copies; C17, C22, C34; the witness of C29 shows that an invalid result depends on elision |
| C57 | `Model/FEnv.lean`: the rounding mode as a state; `fegetround`, `fesetround`, `nearbyint`, the C++ subtraction in each mode; `round_ties_to_even` with its guard object, the decorated tests for ties; formulas; histories | the subtraction is exact (C20), so its mode does not matter; induction on formulas and histories |
| C58 | `Model/ExBits.lean`: `exception_bits` as integers with range 0..15, the operators, signals, queries, control word | the complete table of 16 x 16 values for the operators; induction on the calls; refinement to the sets of `Exception.lean`; `~` by arithmetic |
| C59 | `Model/Program.lean`: a while language whose interval runs use `strictly_precedes`, `precedes`, `convex_hull` | induction on the run; C18, C19, C22, C25 |
| C60 | `Model/Verify.lean`: programs that evaluate a formula over a box and test decoration, `subset`, `strictly_precedes`, `is_member`, `is_common_interval`; interval Newton operator | C18, C19 with the intermediate value theorem, the mean value theorem and Rolle's theorem |
| C61 | call table of `Model/Calls.lean` with operands that need not be proper; number functions, predicates and comparisons of `Model/Num.lean`, `Model/Bool.lean` | case analysis over the call table for improper operands, C15 for proper ones; induction over histories for the confinement |
| C62 | `Model/Quad.lean`: a program over the modelled constructors, expression evaluation and operators | induction over the grid; mean value theorem for integrals on each piece, continuity and definedness from C19, tightness of `-`, `*`, `+`; convergence (`C62_converges`, `C62_any_accuracy`) from C64 by induction over the grid; on fine grids the arguments of tan are narrow (`C64_tan_narrow`), so no condition on tan remains there |
| C63 | `Model/Minimise.lean`: transition system of a branch and bound program over the modelled operations | invariant over all step sequences (every feasible point is in a box or above the bound); C18, C19, C27 for the evaluations; accuracy of exhausted states from C64; reachability by induction on the count of numbers in the sides, with `C64_tan_narrow` for tan on double |
| C64 | the formula evaluation of C18/C19; `SpecTame.lean`: arguments inside the domain and away from jumps | induction over the formula with explicit Lipschitz constants; each operation is tightest (C01–C14), so it adds at most a rounding unit; exactness of decorations (C20) for `com`; compactness for the uniform version; `C64_tan_narrow`: on small parts the arguments of tan are narrow |
| C65 | decorated evaluation of C18/C20/C33 | the decoration is exactly the strongest true one (C20), and every claim true of a box is true of a non-empty part of it; induction over the formula; negation for `tan` on `double`, which is right where no interval is bad (C11) |
| C66 | `Model/Units.lean`: index variables per translation unit, `xalloc` as a counter, the whole `iword` table | simulation: the run equals one in which each unit has its own settings (`C66_units`); the full statement refuted by two units |
| C67 | the same model as C42 | the error of each digit-string step is bounded: rounding of the bounds, cutting of digits, radius; negation with a witness |
| C68 | `Model/StreamX.lean`: the reading functions on streams with an exception mask, with their `try` blocks | simulation, operation by operation, of the run without exceptions; where an exception is swallowed, the rest of the run adds no characters; induction over the loops |
| C69 | as C31 | error bounds for the constants of pi, the arcs, the multiplier and the two roundings of each bound of each box; each point of a box is near its branch of the inverse, huge points are trivially near; for mixed types the rounding to the result type adds less than half of the bound |
| C70 | `pown_rev` with its loops executed step by step, `none` if the steps allowed are used up (`Model/RevIter.lean`) | roots of degree two and more lie in the middle of the exponent range, so the number at which the search begins is within five relative spacings of the solution; each step moves by at least one spacing; the loop stops at the first number on the other side |
| C71 | `Model/Ode.lean`: a program over the modelled constructors, expression evaluation, operators and tests | first time at which a solution leaves the box; mean value theorem up to that time, tightness of `+` and `*`, meaning of `interior` (C22); induction over the steps; existence from Picard–Lindelöf for the right-hand side continued from the box to the whole space (Lipschitz by C64's local estimate and compactness); convergence by the uniform estimates of C64 along the solution and a discrete Gronwall bound on the distance after each step |
| C72 | the programs of C49, nothing new | steps are isotone (C35) and shrink (C49), so a box at rest is never left, and two boxes at rest reached from the same box contain each other; fair infinite runs come to rest by C49. False with `sin_rev`: the witness of C31, `C72_false` |
| C73 | `Model/Gauss.lean`: a program over the modelled operators and `is_member` | one elimination step turns the real system into an equivalent one (pivot row solved for the first unknown, reduced system); the interval operations enclose (C01–C03), pivots without zero (C24); induction over the size. Isotonicity from C35; triangular systems: the reduced system has the same sets, by tightness. Regular systems (`C73_regular`, with the pivots of largest mignitude `C73_largest`): the reduced matrix is close to the real one (C64), induction over the size |
| C74 | `Model/NewtonSys.lean`: a program over the modelled expression evaluation, elimination (C73) and tests | real analysis in `Lemmas/NewtonSys.lean`: mean value theorem row by row, injectivity from regular matrices, existence by following `e(x) = (1-t) e(m)` from `m` (the solutions stay inside; where the distance to a value is least it is zero). The matrices lie in the evaluated ones by C19. False with tan: `C74_false` |
| C75 | `Model/Solver.lean`: a program over the modelled evaluation, bisection, intersection and the Newton operator (C74) | induction on the steps: each box is replaced by parts that contain its solutions (C18, C24, C25, C28, C74). Counting: `C75_count`. Completeness: `C75_reach`, `C75_refutes`, `C75_surrounds` by bisecting until no number is inside and C64. Regular solutions (`C75_accepts`, `C75_finds`): C64 for the entries and the right-hand side, then `C73_largest`. False with tan: `C75_false` |
| C76 | `Model/MeanValue.lean`: a program over the modelled evaluation, `mid`, the operators and `intersection` | mean value theorem on the box with C19, C28, C01, C02, C25. Quadratic convergence (`C76_quadratic`): C64 for the derivatives and for the value at the midpoint, then the mean value theorem at the ends. False with tan: `C76_false` |
| C77 | `Model/AutoDiff.lean`: a program that transforms formulas; its results are evaluated with the modelled library | each rule is right wherever its formula is defined (`Lemmas/AutoDiff.lean`), chain rule by induction on the formula, then C19. The rules are tame where the operations have derivatives (`Lemmas/AutoTame.lean`), so C76's convergence applies. False with tan: `C77_false` |
| C78 | `Model/Monotone.lean`: a program over the modelled library | mean value theorem between a point and the point with the replaced sides: every term of the sum has the right sign; C18/C19 for the evaluations, C25 for hull and intersection. Sharpness: near a point with nonzero derivatives all signs are decided, the replaced sides are points, and C64 bounds the two evaluations. False with tan: `C78_false` |
| C79 | `Model/MinimiseMono.lean`: a program over the modelled library, any order of steps | invariant over all runs: for every feasible point there is a point with the same or a smaller value that is in a box or above the bound; the monotonicity test preserves it by C78's argument in all cut sides at once. False with tan: `C79_false`; true as long as tan meets no bad interval: `C79_search_safe_partial` |

## 4. Disagreements between code and property (found while reading)

Items that name a theorem are proved with a witness. The others are observations from reading the code: they concern
parts outside the model, or follow from the definitions.

* `tan` for `double`: an interval of width exactly RD(pi) can contain a pole undetected (`C11_tan_binary64_false`); this propagates to
  evaluation of expressions, decorations, mixed-type results and inclusion isotonicity (`C18_ftia_binary64_false`, `C19_ftdia_binary64_false`, `C20_tan_binary64_false`, `C33_tan_false`, `C35_tan_binary64_false`).
* `sin_rev`, `tan_rev`: only two branches are tried at each end, and solutions can be lost when 0 is not in c (`C31_sin_rev_false`, `C31_tan_rev_false`). No solution is lost if each finite end of x shares a half period with a solution in x, or the lower end lies in the first half (the upper end in the last half) of a period from kπ to (k+1)π by more than the rounding error (`C31_sin_rev_ends_partial`, `C31_tan_rev_ends_partial`), e.g. if x lies within one half period (`C31_half_period_partial`). Ends beyond 2^(p+2), up to 2^64, do no harm wherever they are (`C31_sin_rev_clear_partial`, `C31_tan_rev_clear_partial`): the boxes are so wide that they contain the end. Otherwise, up to the rounding error, nothing is found at that end and all but the last (first) 3π/2 of x is discarded (`C31_sin_rev_lost_low`, `C31_sin_rev_lost_high`, `C31_tan_rev_lost_low`, `C31_tan_rev_lost_high`). The loss also makes both functions non-isotone: a larger `x` can give a smaller result (`C35_sin_rev_false`, `C35_tan_rev_false`).
* `cancel_minus` is not isotone: it is entire for a narrow first operand and bounded for a wide one (`C35_cancel_false`).
* Mixed-type `mid` of a half-line uses the largest finite number of the result type, which need not lie in the interval (`C28_mid_mixed_not_member`).
* `sin_rev/cos_rev/tan_rev` on huge operands: `mpfr_remquo` returns only the low bits of the quotient (`C31_cos_rev_false`). For a bounded x beyond 2^65 all three functions return the empty set, whatever c is (unless c contains [-1, 1], for sine and cosine), so all solutions are lost (`C31_beyond`, `C31_beyond_false`, for mixed types `C31_beyond_mixed`). Up to 2^64 `cos_rev` is right for all operands, `sin_rev` and `tan_rev` for c with 0 (`C31_cos_rev_partial`, `C31_sin_rev_partial`, `C31_tan_rev_partial`), although the number of periods is rounded from 2^p on. For the same reason `cos_rev` is not isotone there (`C35_cos_rev_huge_false`).
* `cos_rev` is not isotone on small operands either, by one unit in the last place: neighbouring branches of c = [-1, -1] are enclosed separately and their enclosures overlap (`C35_cos_rev_false`).
* `pown_rev` with `p = INT_MIN`: `-p` overflows (undefined behaviour, `C30_pown_rev_int_min`). `mul_rev` is not always the
  tightest enclosure of the solutions in x (`C32_mul_rev_not_tightest`).
* `abs_rev` calls `std::max(0.0, c.first)`, which is well formed only for `double`.
* `cancel_minus` (bare) validates `x` twice and `y` never; the mixed-type `cancel_plus` rounds `-y` outward first, which
  makes the result too narrow (`C29_false_mixed_plus`). If `x` reaches up to the largest finite number, the comparison of widths may fail, exactly as described by `CancelBad` (`C29_minus_narrow`)
  (`C29_false_narrow`, `C29_false_invalid`), so that an operation of the library can deliver an invalid interval (`C15_false`). Which pairs this is is said exactly
  (`C29_minus_invalid`, `C29_plus_invalid`, `C29_mixed_invalid`); no other call makes an invalid object from valid ones (`C15_call_exact`).
* The copy constructors validate, assignment does not: an invalid object arrives unchanged if every copy on its way is
  elided, and as the empty interval with a signal otherwise, so the result of such a `cancel_minus` depends on the compiler (`C56_handed_false`).
* Bare and decorated intervals convert into each other implicitly; a `trv` interval passed through a bare one comes back as `com`
  (`C56_dec_bare_dec_stronger`), and NaI as the empty interval (`C56_nai_bare_dec`).
* `mul_rev_to_pair` mixed-type: missing `return` for invalid operands (C32).
* `sum_sqr`, `dot`: products are rounded within the exponent range of T, so underflow/overflow is not exact (`C37_false_underflow`,
  `C37_false_overflow`); without overflow the error before the final rounding is at most half the least positive number per element (`C37_dot_near_partial`);
  -0 for an empty sum rounded downward; `dot` with a shorter second range reads past its end (`C37_dot_short`). The elements are never deleted: every reduction loses one block of memory per element
  (`C48_false_leak`, `C48_false_exhaust`), and more if an allocation fails (`C48_false_exception`).
* Writing a decorated interval changes the `iword` entry of the string width if it exceeds `INT_MAX`; not visible in any text (`C46_iword_changed`, `C46_history`).
* Writing a decorated interval with `string_width(2147483648)` (or a little more) computes the width left for the bare interval with a
  signed overflow (`C47_false_string_width`).
* The repository's first example, `examples/e01_helloworld.cpp`, writes past the end of a buffer (`C47_false_hello`), and so does every program
  that writes an interval with the default settings (`C47_false_first`).
* Exception state documented as thread local but is a plain static (`C45_false_seen`, `C45_false_lost`, `C45_false_thrown`). `possibly_undefined_operation` is never signalled (`C36_never`).
* The indices of the stream manipulators (`int const ... = xalloc()` in a header) have internal linkage: each translation unit has
  its own, so that settings made by code of one are not seen by code of another (`C66_false`, `C66_unseen`). Before a unit is initialised
  all its indices are 0, so `upper_case` in a static constructor switches to numeric decorations (`C66_uninitialised`; in general `C66_uninitialised_all`). (Templates that
  use such variables also break the one-definition rule, which is undefined behaviour by the letter of the standard; not modelled.)
* `mid` for mixed types can return an infinity (`C28_mid_mixed_overflow`).
* `get_str`: buffer size computed with an operator-precedence bug; the conversion can write past the buffer (`C40_false_buffer`,
  `C40_false_buffer_precision`, `C40_false_buffer_uncertain`). In inf-sup form a number width with room for every number (14 for `double` in
  scientific notation) avoids it (`C40_written_iff`, `C40_wide`, `C47_wide`, `C47_program_wide`). With 17 digits each bound of a
  `double` interval moves by at most one number when its text is read back (`C40_neighbours`, `C40_decorated_neighbours`), and it may move (`C40_drift`).
* `std::setw` pads the `_` of decorated output (`C40_false_setw`); text written without punctuation is not a literal; an empty decorated
  interval is written without its decoration; the empty interval in bounds-only form prints as `[inf,-inf]` (`C40_false_empty_bounds`).
* Uncertain form: an exception can escape, an `int` can overflow, and at low precision the text does not contain the
  interval (`C42_false_throws`, `C42_false_overflow`, `C42_false_contains`); for the same reason it can be too wide by many orders of
  magnitude (`C67_false`).
* Decoration input: documentation promises `ill` on failure, the code leaves the argument unchanged; numeric hexadecimal
  output of `dac` (`c`) cannot be read back (`C39_failure_keeps`, `C39_false_hex`).
* Literals with a leading `+` match the regular expressions but are rejected by GMP (`C38_false_plus`); exponents outside `int` throw
  `std::out_of_range` (`C38_false_throws`); a character outside of ASCII after a literal is passed to `std::isspace` as a negative
  `char`, which is undefined (`C38_false_char`); numeric decorations and white space after `_` are accepted; `[nai]` followed by garbage signals two
  conditions (C38).  Every other literal is read, and nothing else is (`C38_read_iff`, `C38_literal_iff`, `C38_bare_read_iff`).
* The bisection and Newton examples recurse forever for tolerances below the resolution of the format (`C44_bisect_endless`,
  `C44_newton_endless`). Their output
  iterator is passed by value, which works only for iterators like `back_inserter`.
* `exception.hpp:41-43` documents `~` for `exception_bits` as supported; its result is negative and never a value of the enumeration
  (0..15), so the conversion at line 75 is unspecified in C++11 and undefined from C++17 on (`C58_false_not`). `mask ^ 15` is the
  defined way to the complement (`C58_complement`).
* `cancel_minus` (bare) tests `is_valid(x) || is_valid(x)`, never the second operand (`_cancel_func_impl.hpp:84-149`): for `[0,0]` and an
  object that represents no interval it returns a bounded non-empty interval (`C61_false`); `cancel_plus` returns entire
  (`C61_false_plus`). All other operations report it (`C61_call_partial`).
* Because of the tangent defect of C11 an interval integration program over `double` accepts an interval that contains a pole
  (`C62_false`), branch and bound discards a box with values below its bound (`C63_false`), and a
  solution of a differential equation is lost (`C71_false`), a solution of an equation by the Newton operator (`C74_false`) and by branch and prune (`C75_false`), a value by the mean value form (`C76_false`), a derivative by automatic differentiation (`C77_false`), a value by the monotonicity test (`C78_false`), the minimum by branch and bound with derivatives (`C79_false`);
  the tangent of `[1,2]` is decorated weaker than that of an interval around it (`C65_tan_binary64_false`).
* Because `sin_rev` is not isotone (`C35_sin_rev_false`) the result of constraint propagation with it depends on the order of the steps
  (`C72_false`).

## 5. Seeded bugs

`seeded/LOG.jsonl` has one line per wrong program: the definition edited in a scratch copy, the edit, the claim it breaks,
the theorems whose proofs failed and the theorems tightened afterwards. A failing build shows only that the proof no longer
goes through; edits marked `control` do not change the behaviour and are there to show how much of that is mere fragility.

## 6. Conformance with the project's tests

`Verif/Conform/*.lean` (generated, apart from `Basic.lean`) holds assertions of the project's test suite translated to the
model and evaluated by the kernel. From `/repo/test/p1788/flavor/infsup/setbased`: about 6140 on results of operations,
constructors, predicates and numeric functions, 400 on text written and read, 1558 on exception flags and thrown exceptions.
From the tests of decorations, overlap states and reductions: 297. From the tests of the MPFR wrapper, of the helpers for streams
and of the manipulators: 280. From the tests of the interval classes in `/repo/test/p1788/infsup`: 755. The two tests with exceptions enabled on a stream are in
`Verif/Props/C68.lean`. All of them hold in the model. They are tests of the
reading of the code and no part of any proof. Not translated: the values of functions the model defines through Mathlib's
real functions (not computable; `tools/t.py` and `tools/r.py` compare the 2607 such assertions on `double` results with the
tightest enclosure computed with 900 digits, for `sin_rev`, `cos_rev`, `tan_rev` with the algorithm of the model, and `tools/i.py` the 189 of the tests of the interval classes; all agree).
