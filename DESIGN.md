# Formal model of bezman in Lean 4

Written before the proofs and kept up to date with them. `properties.jsonl`
holds the English properties, `MANIFEST.json` maps each of them to theorems.

## 1. What is trusted

* Lean 4.33.0's kernel, and Mathlib's definitions (fields, modules, finite sums,
  `Nat.choose`, derivatives) where they occur in statements.
* Axioms: at most `propext`, `Classical.choice`, `Quot.sound`. No axioms are
  added; no `sorry`, `native_decide`, `bv_decide`, `implemented_by`.
* The reading of the C++ source: `/repo` was read as text, never compiled or
  run. Each model definition cites the file and lines it models, and says
  where it simplifies.

## 2. Modelling choices

* **Outcomes.** Functions that can go wrong return `M α = Except Err α` with
  `Err.ub` (out-of-range access, division of integers by zero), `Err.assertFail`
  (a failed `assert`), `Err.throws` (`Logger::TerminatingError`),
  `Err.narrowing` (an integer conversion that loses the value), `Err.divZero`
  (a division of numbers by zero; the program would go on with an infinity or
  NaN), `Err.domain` (a `<cmath>` function outside its domain, where the program
  would go on with NaN) and `Err.outOfFuel` (a `while` loop or recursion that has not finished within the
  given number of rounds). A theorem "`f x = .ok y`" therefore includes: no
  out-of-range access, no failed assertion, no error, termination.
* **Builds.** The model is that of a debug build, in which `assert` is checked (the
  default, `CMakeLists.txt:34-36`). `Model/Release.lean` repeats every function that
  contains or reaches an assertion with the build as a parameter; with the parameter
  `debug` it is proved equal to the model, and C115 compares `debug` with `release`.
  The index `n(n+1)/2 + i` into the table of binomial coefficients is taken not to wrap
  around in `unsigned int`, which needs degrees of at least 2^16.
* **Containers.** `std::vector` and `std::array` are `List`s with checked reads
  (`rd`) and writes (`wr`); the static length of a `std::array` is a hypothesis
  of the theorems (`length = dimension`).
* **Loops.** `for` loops are `loop n body state` (structural recursion on the
  trip count); `while` loops take fuel.
* **Scalars.** The model functions are generic in the scalar type `K` and the
  point type `V` and use only the operations the C++ code uses (`Add`, `SMul`,
  ...). Theorems about values assume exact arithmetic: a commutative ring or a
  field of characteristic zero, and a module over it. Theorems that assume no
  laws at all (such as C32) hold for floating point too, because they are about
  any operations whatsoever.
* **Floating point.** C64-C70 run the same model functions on the scalar type
  `Fl A`: real numbers with operations that round, each with a relative error of
  at most `u`, and an absolute error `η` in products that underflow; overflow,
  infinities and NaN are not part of it. C94 and C95 need more than an error bound: `Rd rnd`
  are the reals with every operation rounded by `rnd`, and `Nearest p q rnd` says
  that `rnd` rounds to a nearest number of `p` binary digits and exponent at
  least `q` (`Model/Rounded.lean`, `Spec/Rounded.lean`). `Ieee rnd omega` adds
  overflow, infinities and NaN with the IEEE rules (`Model/Ieee.lean`, C96-C99).
  Compilers that contract `a * b + c` into one operation are covered by C107:
  `Nd A` are sets of numbers, all that are possible with some error at each
  operation (`Model/AnyRounding.lean`), and `Fu A` contracts every product with
  the sum it is used in (`Model/Fused.lean`).
  Not modelled: signed zeros and payloads of NaN.
* **AlgoDiffType.** One model for plain and nested types: the class `Scal B K`
  lists what the code uses of its `Scalar = K`, with instances for built-in
  numbers and for `Static n K`, an `AlgoDiffType` with `n` derivatives. The
  functions of `<cmath>` are those of Mathlib on the reals, restricted to their
  domains (`Model/CMathReal.lean`).
* **Aliasing.** Arguments are passed by value, except where the code takes a
  reference that can point into the object: `Model/Alias.lean` and the `...Self`
  variants in `Model/AlgoDiff.lean` model those calls on their own.
* **Examples.** `example/Microstructure` is modelled as a client of the library
  (`Model/Microstructure.lean`), although its text does not compile: it includes
  a header that does not exist and leaves out a template argument. The printed
  line is not modelled.
* **Integers.** Sizes and indices are `Nat`. Wrap-around is modelled where it
  matters: table entries of the binomial lookup and products of them (mod 2^64),
  the degree subtraction of the derivative spline (mod 2^64), the 32-bit
  counters of order elevation and of the variadic `ControlPoint`, the `int`
  intermediate of `IntPower`. Elsewhere `size_t` arithmetic is taken not to wrap
  (a vector of more than 2^64 elements cannot exist).
* **Running out of memory** (`Model/Crash.lean`, C101). The mutating calls
  once more, with the object as a state that survives `std::bad_alloc`. Crash
  points are the places where a vector grows, a spline is copied, a temporary
  is built or a log message is composed. Scalars do not allocate.
* **Threads** (`Model/Threads.lean`, C103). Threads as interleaved single
  accesses to shared memory: spline objects (one place each), the logger's level
  and file streams, the static buffers of `std::localtime`. Memory is
  sequentially consistent, which is what C++ promises to programs without data
  races; a race itself is undefined behaviour.
* **Messages** (`Model/Messages.lean`, C105). The models of the splines leave the
  calls of the logger out, except that a terminating error is `Err.throws`. This
  model adds them: each call has a list of messages and a result. The text that
  `std::to_string` makes of a number is a parameter.
* **Text of numbers** (`Model/Text.lean`, C106). Finite numbers are written as the
  standard library writes them: exact value, correct rounding, halves to even.
  This part models the standard library, not the repository.
* **Not modelled.** Timing, memory allocation failure outside of C101, iostream behaviour beyond
  the logger's bookkeeping, the formatting of infinities and NaN as text, `constexpr`-ness, templates as
  such (type parameters become Lean type parameters), and
  `Compose(std::vector<...>)`, which cannot be instantiated (it calls
  `FitsIntoUnitCube` on a `std::vector`).

## 3. Layout

* `Verif/Model/*` – the model, function by function.
* `Verif/Spec/*`  – small independent specifications (Bernstein polynomials,
  the value of a Bezier net, mixed partial derivatives, ...).
* `Verif/Proofs/*` – helper lemmas.
* `Verif/Props/*` – one theorem (or a few) per property, with examples showing
  that the hypotheses can be met.

## 4. Plan per property

| Id | What is modelled | How it is proved |
|----|------------------|------------------|
| C01 | in-place Pascal table fill, lookup with the assertion | loop invariant "row n is done", Pascal's rule, bound by 2^64 |
| C02 | both loops of `Evaluate` | loop invariants |
| C03, C09 | `BasisFunctions` = per-dimension Bernstein values + `RecursiveCombine` | recursion over dimensions; binomial theorem |
| C04 | both branches of `EvaluateDerivative` | finite-difference formula; induction on the order with `HasDerivAt` |
| C05 | `LocalToGlobalIndex`, `GlobalToLocalIndex`, offsets | mixed-radix numbers, induction over dimensions |
| C06 | constructors and mutators as a transition system | invariant over operation lists |
| C07 | de Casteljau on flat memory | memory invariant per collapsed dimension |
| C08, C10 | `ForwardEvaluate`; corners | corollaries of C07/C09 |
| C11, C25 | corner loops, `FitsIntoUnitCube` | convexity of nested Bernstein sums |
| C12, C59 | in-place elevation | memory invariant (back to front), 1-D elevation identity, lists of elevations |
| C13, C14 | derivative spline, basis derivatives | forward differences; mixed partials over the reals |
| C15 | 64-bit wrap | negation with witness |
| C16-C20, C58 | operators incl. recursion/while loops | corollaries of C12 and linearity; C18 negation by non-termination |
| C21, C22 | product recursion, power | Bernstein product identity per dimension |
| C23, C24 | coordinate extraction, affine maps | linearity |
| C26-C30 | `ComposeNumeratorHelper`, denominator | values of products and powers |
| C31-C33 | split loops | de Casteljau subdivision identity; C32 without ring laws |
| C34 | `operator==` | direct |
| C35-C44 | rational splines on top of numerator/denominator | from the polynomial results |
| C45-C48, C60, C62 | `AlgoDiffType`, plain and nested, also as scalar type of splines | `HasFDerivAt`/`HasDerivAt` tracking; induction over expressions |
| C49-C52 | bit-level Base64 | digit arithmetic, induction over 3-byte groups; negations with witnesses |
| C53, C54 | `IndexListSort`, `IntPower` | merge sort specification of `std::stable_sort`; strong induction |
| C55, C56 | logger state machine | invariant over call histories; negation with witness |
| C57 | `Point` | componentwise |
| C63 | rational `ExtractDimension` | from C23; negation with witness |
| C64 | `Evaluate` on rounded numbers | simulation of the exact run, graded by the number of steps each memory cell has seen |
| C65 | `Evaluate` at corners on rounded numbers | simulation of a run on unit vectors over the integers |
| C66 | `BasisFunctions`, `ForwardEvaluate` on rounded numbers | relative error per factor, simulation of the exact run |
| C67 | `Evaluate` on any operations | induction over directions and sweeps without any law of arithmetic |
| C68 | `Evaluate` and `SplitAtPosition` on any operations exact at 0 and 1 | C67; a triangle at 0 or 1 is its end point |
| C69 | `SplitAtPosition` on rounded numbers | error of an entry of the triangle by induction on its level |
| C70 | rational `Evaluate` on rounded numbers | C64 for numerator and denominator, error of a quotient |
| C71 | no new model code | control points are determined by degrees and function (uniqueness of the Bernstein form); both sides compute the same function |
| C72 | `Model/Expr.lean`: mutual expression language, `run` makes the calls of the model; `Spec/Expr.lean`: degrees, meaning, preconditions | mutual structural induction, one earlier theorem per constructor |
| C73 | no new model code | the function of a result is a mixture of the old control points with weights whose Bernstein coefficients are nonnegative and sum to one; uniqueness of the Bernstein form transfers this to the control points; sums and products of such mixtures are again mixtures, over pairs of control points |
| C74 | `Spec/Logger.lean`: labels and layout of a line, stated apart from the code | case analysis over the severity, length of padded strings |
| C75 | no new model code | loops whose bodies either succeed or fail with one particular error; the first control point of a product already meets the limit. Compositions: every step returns or fails an assertion, and a product that returns had degrees within the limit, so a composition that returned would be within the limit |
| C76 | Model/Rational, Model/RationalDeriv (unchanged) | the weight function determines the weights (uniqueness of Bézier nets); nets with positive coefficients are closed under products and powers; splits, elevation and compositions mix the weights with non-negative factors |
| C77 | `Model/RExpr` (expressions and their execution), `Spec/RExpr` (function, degrees, weight function, preconditions) | mutual induction over expressions, each step by the property of the operation |
| C78 | Model/RHistory.lean: mutators of rational splines; all constructors and operations | inductive predicate `Reachable`, structural invariant through every loop of every operation, for arbitrary operation classes without algebraic laws |
| C79 | `Spline.coordinate`, `PExpr.coordinate` (Spec/Coordinates): coordinate splines and the program that computes a coordinate | the lockstep lemmas of Proofs/Param*.lean relate every model function run over two number systems; instance: a point and its coordinate j; induction on the program |
| C80 | `HasShape`, `Returns`, `ReturnsOrThrows`, `SExpr.shape`, `SExpr.WellShaped` (Spec/AnyArith) over arbitrary operations | the lockstep lemmas (Proofs/Param*.lean) with the relation that relates all numbers; each operation is compared with its run on a zero spline over the reals, which returns by C12-C33; induction on the program |
| C81 | `HasRShape`, `RReturns`, `ROutcome`, `RSExpr.shapes`, `RSExpr.WellShaped` (Spec/AnyArithRational) over arbitrary operations | numerators and weight functions one by one with the lemmas of C80; compositions in lockstep with a rational spline over the reals with control points 0 and weights 1; induction on the program |
| C82 | `Spec.Arithmetic`, the `map` functions (Spec/ScalarMap), `Dual` (Model/Dual) | lockstep theory (Proofs/Param*) with the graph of the map as relation; then a relation to a function is an equation |
| C83 | `jet`, `SmoothVars`, `Follows` (Spec/Parameter), `SumsAgree` (Spec/SumsAgree), `Dual` (Model/Dual) | functions of the parameter as a third number system, in lockstep with the AlgoDiffType run and with the plain run at every parameter value (Proofs/Parameter) |
| C84 | s.map L, r.map id L, r.image A (Spec/ScalarMap, Spec/Affine) on the whole model | lockstep (Proofs/Param*) with the relation L x = y; Bernstein polynomials sum to one, their derivatives to zero; uniqueness of control points; homogeneous coordinates |
| C85 | RSpline.ofHom (Spec/Homogeneous) against Model/Rational | projections to both components commute with every polynomial operation (C84); lockstep for repeated splitting |
| C86 | Ball A (Spec/Ball) as the number type of the whole model | lockstep (Proofs/Param*) of the run in floating-point numbers with the run in balls; the centres are the exact run (C82) |
| C87 | SExpr, PExpr over Fl A and over the reals; k and M in Spec/FloatBounds | each operation is run on triples (floating-point value, exact value, magnitude); relative errors of k roundings compose (Proofs/FloatTri ... FloatPrograms); compositions by the costs of Bernstein powers and products in any arithmetic (Proofs/ComposeCost) and by computing the magnitudes exactly, which gives the bound without a power of two (Proofs/FloatCompose) |
| C88 | `forwardEvaluateWide`, `evaluateDerivativeWide`, `mulLeftWide` (Model/Wide) with a conversion of the left factor | error bound of C66 with the relative error of the conversion; lockstep with the converted operand; witnesses with 64 and 53 digits |
| C89 | programs `SExpr`, `PExpr`, rational programs `RSExpr`, `RPExpr`; `Glued` (Spec/Faces), `RGlued` (Spec/FacesRational) | control points of each operation as formulas without laws (Proofs/Nets, NetsProduct, NetsDeriv), on a face only one layer contributes; induction on the program |
| C90 | `mulOp`, `derivativeSpline`, `orderElevate`, `splitAt` with operations without laws | loop invariants: reads are not yet overwritten |
| C91 | `addOp`, `addAssign`, `subOp`, `subAssign` | elevation of both operands in one order, symmetric maximum of degrees |
| C92 | `circleGroup` over any arithmetic and any `sin`, `cos`, `acos` | half-angle substitution: the angle is `2 arctan((2x-1) tan(δ/4))` from the middle; intermediate value theorem |
| C93 | `simpleCrossTile`, `composeAll`, `main` | C29 for the values, `Glued` (C89) for numerator and weights of compositions, lists of compositions by induction |
| C94 | `Rd rnd`: reals with every operation rounded by `rnd`; `Nearest p q rnd` | `rnd(d * rnd(1/D)) ≤ 1` because the relative error of `rnd(1/D)` is at most half the distance from 1 to its upper neighbour; rounding is monotone; the corners need only the order |
| C95 | `Rd rnd`, `Nearest p q rnd` as in C94 | `rnd(1-t) ≤ 1 - t + 2^-p/2` in the unit interval, rounding is monotone and fixes `t`, so the sum of the products is below the upper neighbour of 1 by less than half the distance; induction over de Casteljau, and loop invariants for splitting and elevation |
| C96 | `Ieee rnd omega`: finite numbers, infinities and NaN with the IEEE operations | a de Casteljau step of finite numbers rounds to at most the largest number (case distinction on the parameter, monotone rounding, symmetry of the format); lockstep with the unbounded arithmetic `Rd rnd` through all loops |
| C97 | `Ieee rnd omega` | sums with an infinite or NaN summand, and products with such a factor, are infinite or NaN; induction over de Casteljau, loop invariants for basis sums, splitting and products; `==` on the numbers case by case. An infinite weight written after construction is masked (`C97_infinite_weight_masked`) |
| C98 | `Ieee rnd omega` | invariant of the loop over the control points: `std::max(m, x)` returns m if m is NaN or x is NaN, otherwise the larger one |
| C99 | `Ieee rnd omega` | invariant of the corner loops with NaN and infinities; coordinate-wise form of the fitted control points; rounding argument of C94 plus bounds on the extent that exclude overflow |
| C124 | `Spec.UnitAt`, `Spec.RUnitAt`: the (rational) spline that is 1 at one control point | the sensitivity and the composition of the unit spline compute the same function with the same degrees, so they are the same object; the other laws follow from those of the composition |
| C123 | control points, degrees and values of the returned objects (`Spline.Computes`, `Spec.RParts`) | a constant net computes a constant (partition of unity), and an object is determined by its degrees and its function |
| C122 | control points and values of the returned splines (`Spline.Computes`, `Spec.RParts`) | along a straight line a spline is a polynomial of one variable (`bezier_line`), so spline functions have no zero divisors (`bezier_domain`); a spline is determined by its function |
| C121 | `Spec.RParts`: degrees, numerator and weight function of an object | a rational object is determined by them (`rparts_unique`); equality of the weights is preserved and reflected by splitting, so both sides take the same path; for rational inner splines the numerator of a composition is one function of the numerator and the weight of the inner spline (`homogAt`) |
| C120 | `Spec/Mirror.lean`: `Mirrored`, `Exchanged`, `RMirrored`, `RExchanged`, in terms of the control points the API returns | a spline is determined by its function (`bezier_unique`); both sides compute the same reversed function |
| C119 | `Spec/Promotion.lean`: `SameResult`, two calls return the same object | both sides compute the same function with weight one, and control points are determined by the function (`Spline.Computes.unique`); the composed weights of a converted outer spline are the power of the weights of the inner spline by the binomial theorem (`tens_hb_one`) |
| C118 | `Spec/Chain.lean`: `ChainRule`, in terms of the calls | the value of a spline is differentiable along every differentiable curve (`TotalAt`), which gives the chain rule for the functions; composition, evaluation and derivatives are linked to them by C26, C28, C29, C14 and C42; the derivative of a function is unique |
| C117 | `Model/Size64.lean`: `RSpline.derivativeSpline64` and the operations it calls with every `size_t` sum and product modulo 2^64 | the degree wraps to 2^64-1, products and difference stay empty, the elevation divides by zero; for positive degrees step-by-step equality with the model without wrap-around |
| C116 | `Mutator.apply`, `RMutator.apply` | a table of documented effects (`Spec/Changes.lean`), each row from the theorem on that call, the control points recovered from the function by uniqueness; induction on the history |
| C115 | the functions with assertions again, with the build as a parameter (`Model/Release.lean`) | equality with the debug model by unfolding; agreement of the builds, and that no assertion is left in a release build, by congruences for bind, loops and branches; the additional outcomes of release builds function by function |
| C114 | pairs of weighted point and weight, with errors relative to the weight (`Spec/RationalBounds.lean`) | the operations act on homogeneous points (C85); every step is a combination with nonnegative factors, which keeps errors relative to the combined weight; by induction over the operations; in compositions the basis functions of the inner spline are nonnegative, with errors relative to themselves (`NearP₀`), and the exact weights stay positive by the hull property (C73); one quotient at the end |
| C113 | the relative positions as a parameter (`Model/Wide.lean`), chains of cuts and round to even (`Spec/Cuts.lean`) | the loop is a chain of cuts by induction; the quotient of two floating-point numbers a < b does not round to 1; ties to even for the counterexample; the errors of the positions by induction over the chain, those of the control points by C87 |
| C112 | the factor and the corners (`Spec/Smooth.lean`), parts as in C100 and C110 | the part traces the function over its box (C100, C110); derivatives of a function of affine coordinates by induction over the directions; C14 and C42 for both splines; corners by the formula of C90 and the quotient rule |
| C111 | pairs of splines and the same operations on both (`Spec/Near.lean`) | the pair is one spline with control points in V × V; the pairs with distance at most ε are a convex set, so C73 applies to the pair and C84 (projections are linear) brings the result back; derivatives by the formulas of C90 |
| C110 | parts of a rational spline (`Spec/RConverge.lean`) | parts of rational splines are parts of the polynomial spline with homogeneous control points (C85); the bounds of C100 and C109 for its two components; the cone of homogeneous points with bounded quotient is convex |
| C109 | second differences of control points and the parameter of a control point (`Spec/Bend.lean`) | second differences of the de Casteljau triangle and of the elevation formula; variance of the Bernstein polynomials for the distance; induction over the directions and over the history |
| C108 | words of alternating signs taken by a list of points, and rows of control points (`Spec/Variation.lean`) | corner cutting: a new point between two neighbours adds no alternation; the triangle of a split is built by such steps; values by splitting at the smallest parameter and induction; rational splines by their homogeneous control points (C85) |
| C107 | a scalar type whose values are sets of possible numbers (`Model/AnyRounding.lean`), and one with fused multiply-add (`Model/Fused.lean`), for the same model functions | the graded relations of C87 for all members of the sets; parametricity between the set-valued run, a run in one arithmetic and a run with contraction |
| C106 | `toString` and the output operators over any text of numbers; the library's `%g` and `%f` for rationals (`Model/Text.lean`) | an independent reader (`Spec/Text.lean`); induction over the coordinates; nearest integers and decimal logarithms; gaps between floating-point numbers against gaps between decimals |
| C105 | every function that calls the logger, once more, with its messages (`Model/Messages.lean`); a call is a list of messages and a result | erasing the messages gives the other model; a Hoare logic for transcripts; induction over loops and rounds; C55 for the console |
| C104 | Evaluate by de Casteljau (C91), splits and elevations by their control point formulas (C90) | increments of the de Casteljau triangle as averages of the steps, by induction on the degree and then on the directions; induction over sequences of splits and elevations |
| C103 | threads as trees of single accesses to splines, output level, file streams and the static buffers of localtime; interleaving by any scheduler; the logger access by access (Model/Threads.lean, Model/ThreadsRational.lean, Model/ThreadsMixed.lean) | invariant over schedules: each thread has a private memory that agrees with the shared one on its footprint; footprints of the logger and of calls by structural induction; concrete schedules for the races |
| C102 | variables as a list of objects; statements with any library call as a function of variables (Model/Move.lean) | simulation between the code and value semantics, with the set of moved-from variables as index; induction over the program; loops over an empty vector end in undefined behaviour |
| C101 | crash model (Model/Crash.lean): state and exception monad, the object survives the exception, crash points numbered in order | simulation between crash model and main model closed under sequencing and loops; Hoare triples with a postcondition for the exception; invariants of the elevation loops; concrete counterexamples |
| C100 | polynomial model in exact arithmetic; `PartOf` is the inductive set of histories | differences of de Casteljau triangles are triangles of differences, scaled by z or 1-z; elevation makes convex combinations of differences; induction over the history; telescoping over the net |
| C61 | in-place operators whose argument lies inside the object | loop invariants; negations with witnesses |

## 5. Disagreements between properties and code

Each one with a property number is a theorem (the negation, with a witness or for
a whole class of inputs) in `Verif/Props`, except those marked (not a theorem);
the `note` fields of `MANIFEST.json` say what is proved instead.

* `operator-(spline)` does not terminate if the right operand has a higher degree
  in some direction (C18). `operator-=` is correct.
* `s += s.ControlPoint(i)`, `s *= c`, `p *= p[0]` and the like with an argument
  inside the object use the changed value for the elements behind it (C61).
* `DerivativeWRTParametricDimension` with an order above the degree wraps the
  degree around (C15); with order = degree + 1 it returns a spline without
  control points, with a larger order it leaves its arrays. The rational derivative needs degree at least one in every
  differentiated direction (C41); for degree zero it divides an integer by zero
  (C117).
* Rational `ForwardEvaluate` does not divide by the weight function (C36), the
  variadic rational `ControlPoint(i, j, ...)` uses only the last index (C37), and
  rational `ExtractDimension` works on the weighted coordinates (C63).
* `Base64::Encode` reads up to two bytes behind the end of the data (C50);
  `Decode` of entries of one or two bytes appends zero entries (C49), and for
  strings not written by `Encode` it can write out of range (C51).
* `pow(x, 0)` at `x = 0` has a NaN derivative (C46); a nested `pow(x, c)` fails
  for negative `x` (C62); `AlgoDiffType::operator-=` does not check the number of
  derivatives (C45).
* After a `TerminatingError` the next log call truncates every log file (C56).
* `FitsIntoUnitCube`, and with it the compositions, ignores a coordinate that is
  NaN in the first control point (C98). `ForwardEvaluate` can overflow where
  `Evaluate` cannot (C96). `FitIntoUnitCube` gives NaN in every coordinate in which
  the spline is constant, and for extents whose reciprocal or size overflows; the
  result passes `FitsIntoUnitCube` (C99). `SplitAtPosition` with repeated positions throws although the check for
  sortedness passes (C33). `IntPower` computes in `int` whatever its type (C54).

* `scalar * point` takes the scalar as a `double`, so that with `long double`
  coordinates `ForwardEvaluate`, `EvaluateDerivative` and products lose digits
  (C88). `SplitAtPosition` with several positions also computes the remaining
  position as a `double`, and throws for some increasing positions of that type (C113).
* `SplitAtPosition` throws for some pairs of increasing positions next to 0 and 1
  in `double` too, because the position of the second one in what is left over
  after the first one rounds to 1 (C113).

Not expressible because the code does not compile for it: `Compose(std::vector)`,
nested `AlgoDiffType` with `acos`, `asin` or division by a plain number,
`EvaluateDerivative` with `AlgoDiffType` parameters.

The theorems for any scalar type (C82 and those built on it, and the programs of C83) are about the
template text. Some instances of it do not compile: with `AlgoDiffType` as scalar
type, `scalar * point` has no matching overload (its scalar is a `double`), splits
at several positions store a position in a `double`, every split prints its position with
`std::to_string`, which has no overload for it, and
`ExtractDimension`, `TransposeAndScale`, `FitIntoUnitCube` and compositions of scalar-valued splines
choose their branch with `std::is_arithmetic_v` and `RaisePower` with
`std::is_scalar_v`, which are false. For these the theorems say
what the same text would compute. With `float`, `1. - t` in `Evaluate` and
`SplitAtPosition` is computed in `double` and then rounded to `float`; the
relative error of the two roundings together is what `u` has to bound.

## 6. Tests of the theorems

`seeded/LOG.jsonl` records edits of the model (made in a scratch copy) and the
theorems that no longer prove.
