{
 "C18": {
  "status": "partial",
  "note": "Proved when the right operand has no higher degree than the left in any dimension; C18_sub_never_returns proves that otherwise the code loops forever (for every fuel), so the full claim is false of the code."
 },
 "C06": {
  "status": "proved",
  "note": "Partial correctness: whenever the calls return. The default-constructed spline itself violates the claim until UpdateDegrees is called (C06_default_violates)."
 },
 "C15": {
  "status": "partial",
  "note": "False of the code. C15_fails: if the first order above its degree exceeds it by one, the result has no control points and evaluating it is undefined behaviour. C15_fails_far: if it exceeds it by two or more, the call itself has undefined behaviour. C15_evaluate_zero_partial: EvaluateDerivative is zero as claimed."
 },
 "C61": {
  "status": "partial",
  "note": "False of the code: arguments are const references and the loop overwrites the element they refer to. The C61 theorems compute the actual result exactly for every position; C61_last_point_partial is the one position (the last) for which the claim holds. For rational splines += and -= with an own weighted control point are wrong in the same way; *= with an own weight is right (C61_rational_scale_own_weight)."
 },
 "C36": {
  "status": "partial",
  "note": "False of the code: ForwardEvaluate of a rational spline does not divide by the weight. C36_forward_evaluate_numerator gives the value it returns, C36_forward_evaluate_fails a witness, C36_forward_evaluate_partial when both agree."
 },
 "C37": {
  "status": "partial",
  "note": "The array-index accessors are proved; the variadic overload ControlPoint(i,j,..) folds its arguments with the comma operator (C37_variadic_fails)."
 },
 "C41": {
  "status": "proved",
  "note": "For degrees * 2^(sum of orders) below MAX_BINOMIAL_DEGREE and fewer than 2^31 control points; every direction differentiated has degree at least one (for degree zero see C117)."
 },
 "C42": {
  "status": "proved",
  "note": "For orders below MAX_BINOMIAL_DEGREE whose products of binomial coefficients fit in 64 bits (BinomFits)."
 },
 "C49": {
  "status": "partial",
  "note": "False of the code as stated: entries of one or two bytes come back with extra zero entries (C49_longer, C49_fails). C49_decode_encode gives the exact result for every vector, C49_roundtrip_partial the round trip for entries of at least three bytes or padding smaller than an entry, for every memory content behind the vector."
 },
 "C50": {
  "status": "partial",
  "note": "False of the code as stated. Proved for byte counts divisible by three (C50_standard_partial); for all others Encode reads behind the end (C50_reads_behind_the_end) and the text is standard exactly if the bits found there are zero (C50_standard_iff, C50_fails)."
 },
 "C51": {
  "status": "proved",
  "note": "C51_decode_iff characterises all strings for which Decode is free of undefined behaviour; C51_encoded_is_safe covers the strings written by Encode, the other theorems exhibit the failures the statement announces. char is modelled as signed."
 },
 "C52": {
  "status": "partial",
  "note": "Round trip proved for coordinates of at least three bytes (every floating point type) or padding smaller than a coordinate; false otherwise, as C49. The rejection is an assert."
 },
 "C53": {
  "status": "proved",
  "note": "For every strict weak order; C53_unique shows that the result does not depend on how std::stable_sort works."
 },
 "C54": {
  "status": "proved",
  "note": "The exact intermediate results that must fit are hypotheses; C54_int_limits shows that for wider types than int a fitting result is not enough."
 },
 "C55": {
  "status": "proved",
  "note": "For every call in every state, and for the console as a statement about whole histories."
 },
 "C56": {
  "status": "partial",
  "note": "False of the code: C56_fails_truncates proves that after any TerminatingError the next call empties every enabled file, C56_since_last that the file then contains exactly the messages since the last such error. C56_kept_partial and C56_run_partial cover histories in which no TerminatingError is raised while the file is enabled, the latter from an arbitrary disk. Together C56_run_partial, C56_since_last and C56_terminating_saves determine the contents after every history."
 },
 "C45": {
  "status": "proved",
  "note": "Over the reals. C45_self_assign covers a op= a, C45_sizes operands with different numbers of derivatives (rejected), C45_sub_assign_unchecked the missing check in operator-=."
 },
 "C46": {
  "status": "partial",
  "note": "False of the code for pow(x, 0) at x = 0, whose derivative is NaN although the function is constant (C46_pow_fails). Every other function and every other point of differentiability of pow(x, c) for integer c, or positive x, is proved. log2 does not exist in the code."
 },
 "C47": {
  "status": "proved",
  "note": "Smooth states where every operation is applied inside its domain; for pow(x, c) see C46."
 },
 "C48": {
  "status": "proved",
  "note": "For every value type whose own comparisons follow a linear order (plain numbers; nested types by a second application)."
 },
 "C60": {
  "status": "proved",
  "note": "Evaluate for scalar and Point control points, polynomial and rational splines, first and second derivatives, and ForwardEvaluate. EvaluateDerivative does not compile with AlgoDiffType."
 },
 "C62": {
  "status": "partial",
  "note": "False of the code for pow(x, c) with negative x: the nested power is computed by exp(log(x) * c) and fails (C62_fails). Division by a plain number, acos and asin do not compile with the nested type and are outside the statement."
 },
 "C63": {
  "status": "partial",
  "note": "False of the code: the result is not divided by the weight function (C63_fails). Proved: it is the coordinate times the weight function, and when that is the coordinate; the error case."
 },
 "C64": {
  "status": "proved",
  "note": "Standard model of floating-point arithmetic with underflow; no overflow, no fused multiply-add. Scalars and Points."
 },
 "C65": {
  "status": "proved",
  "note": "Scalars and Points; control points finite and representable."
 },
 "C66": {
  "status": "proved",
  "note": "Without underflow (eta = 0), as the statement says."
 },
 "C67": {
  "status": "proved",
  "note": "No law of arithmetic is used."
 },
 "C68": {
  "status": "proved",
  "note": "C68_float and C68_float_point show that rounded arithmetic with representable values meets the hypothesis; -0 and 0 are one number in the model."
 },
 "C69": {
  "status": "proved",
  "note": "Scalars and Points; standard model with underflow, no overflow."
 },
 "C70": {
  "status": "proved",
  "note": "Without underflow, as the statement says."
 },
 "C71": {
  "status": "proved",
  "note": "Equalities of spline objects; derivatives over the reals."
 },
 "C72": {
  "status": "proved",
  "note": "Expression language of Model/Expr.lean, scalar and point valued splines over the reals; preconditions of each call in Spec/Expr.lean."
 },
 "C73": {
  "status": "proved",
  "note": "Ordered fields, any module as point type; rational results with positive weights."
 },
 "C74": {
  "status": "proved",
  "note": "The labels are data of the code; file lines of Logging and ExtendedInformation both carry the label of user information."
 },
 "C75": {
  "status": "proved",
  "note": "In builds with assertions."
 },
 "C76": {
  "status": "proved",
  "note": "Over any ordered field; derivative spline over the reals."
 },
 "C77": {
  "status": "proved",
  "note": "A rational spline composed with a rational spline requires that the weight function of the inner spline has no zeros (as for circular arcs); the other preconditions are those of the single operations."
 },
 "C78": {
  "status": "proved",
  "note": "The default constructed rational spline is the exception (C78_default_violates); replacing one of the two exposed vectors by one of another length is outside the claim. Derivatives of polynomial splines are treated in C13 and C15, where the size_t wrap-around matters."
 },
 "C79": {
  "status": "proved",
  "note": "Lockstep (parametricity) theorem: the model functions run over points and over coordinates have corresponding outcomes."
 },
 "C80": {
  "status": "proved",
  "note": "Lockstep with the real numbers: any two numbers correspond, only the bookkeeping is compared."
 },
 "C81": {
  "status": "proved",
  "note": "Companion of C80. In the model a division by something that compares equal to zero is the outcome `divZero`; with IEEE numbers the program would go on with an infinity or NaN at that point, which the model does not follow."
 },
 "C82": {
  "status": "proved",
  "note": "The model has one scalar type for parameters and control points. `Dual` models AlgoDiffType with a static number of derivatives as a plain number type; `C82_algo_diff_operators` ties it to the model of the operators (`ADT`) used by the AlgoDiff properties. Where the C++ division is undefined or by zero the tie makes no claim."
 },
 "C83": {
  "status": "partial",
  "note": "Proved in full for programs over polynomial splines, for all evaluators and for rational programs in which no sum or difference compares weight functions that are equal at x but not near x (`SumsAgree`). The full claim is false of the code: rational operator+ compares the values of AlgoDiffType weights only and then drops the derivatives of the second weight (`C83_rational_sum_fails`: derivative -2 in place of -1). Split planes of multi-splits must not be at 1 except the last (`SmoothPlanes`)."
 },
 "C84": {
  "status": "proved",
  "note": "Linear maps: lockstep of the whole program in the original and in the mapped points, without laws of arithmetic. Affine maps: the function is mapped, then uniqueness of the control points; rational splines through homogeneous coordinates."
 },
 "C85": {
  "status": "proved",
  "note": ""
 },
 "C86": {
  "status": "proved",
  "note": "A bound is meaningful (known) unless the computation divides by a number that may be zero within its own bound."
 },
 "C87": {
  "status": "proved",
  "note": "Compositions with an exact inner spline as single operations (sharp), with inexact inner splines and inside of programs with a factor for each outer degree. Splits at several positions at once are covered by C113 and by the computed bounds of C86."
 },
 "C88": {
  "status": "partial",
  "note": "False: scalar * point takes the scalar as a double (C88_forward_fails, C88_product_fails). Proved instead: the bound with 2048 more roundings (for 64 digits), the product is that of the converted control values, and nothing changes for double and float."
 },
 "C89": {
  "status": "proved",
  "note": "Both runs must return (a split position or an argument outside the unit cube throws). Differentiating or cutting across the face is excluded; C89_deriv_across_fails shows that this is needed for derivatives. For rational splines weighted control points and weights agree on the face (C89_rational_program, C89_rational_program_point), provided that every sum compares the weights of its summands with the same outcome in both runs; C89_rational_sum_fails shows that without this the sums need not even have the same degrees along the face."
 },
 "C90": {
  "status": "proved",
  "note": "The formulas are Spec/ProductFormula, Spec/DerivFormula and Spec/Casteljau."
 },
 "C91": {
  "status": "proved",
  "note": "For other degrees operator- is wrong (C18)."
 },
 "C92": {
  "status": "proved",
  "note": "Exact sin, cos and acos for the geometric statements; the joint of neighbouring segments needs no property of them. Closing is proved with exact arithmetic (the double sin(2*PI) is not 0)."
 },
 "C93": {
  "status": "proved",
  "note": "The text of the example does not compile (missing header utils/export.hpp; std::vector without argument in line 125); it is modelled as if line 125 named std::vector<RationalBezier>. Arms of different segments meet exactly only in exact arithmetic."
 },
 "C94": {
  "status": "proved",
  "note": "Rounding to nearest with gradual underflow and unbounded exponents; no overflow, infinities or NaN. C94_too_large is the counterexample above the limit."
 },
 "C95": {
  "status": "proved",
  "note": "Rounding to nearest with gradual underflow and unbounded exponents; no overflow, infinities or NaN. C95_box_fails: with double, the constant 5/4 is not reproduced, whatever the rule for ties."
 },
 "C96": {
  "status": "proved",
  "note": "Model/Ieee.lean: one zero and one NaN. For double all operations are as modelled; for float `1. - t` is computed in double first, for long double `scalar * point` goes through double. C96_outside_fails and C96_forward_fails are the negations outside of the hypotheses."
 },
 "C97": {
  "status": "proved",
  "note": "Any rounding function. Splines without control points excluded (they are not reachable through the constructors)."
 },
 "C98": {
  "status": "partial",
  "note": "C98_fits_partial says for every spline what the check returns; C98_reject_partial is the property for splines whose first control point is not NaN in the coordinate; C98_nan_first_fails refutes the general statement C98_Statement."
 },
 "C99": {
  "status": "partial",
  "note": "C99_fit_partial and C99_compose_partial: extents 0 or in the range, all coordinates at once. C99_constant_fails holds for every spline with a constant coordinate; C99_tiny_fails, C99_huge_fails are the other two cases; each contains the negation of C99_Statement."
 },
 "C100": {
  "status": "proved",
  "note": "Exact arithmetic in an ordered field. C100_converges: for every spline such constants exist."
 },
 "C101": {
  "status": "partial",
  "note": "False of the code as stated: C101_elevate_fails (every elevation can leave an object on which *= is undefined behaviour), C101_update_degrees_states, C101_assign_states, C101_rational_elevate_fails (degrees differ), C101_rational_add_fails (consistent, but another function). C101_runs and C101_rational_runs: the model with crash points behaves like the main model when memory suffices. The _partial theorems: the calls with the strong guarantee, the exact states left behind by the others, and recovery by UpdateDegrees. C101_rational_add_states, C101_rational_sub_states, C101_rational_elevate_states, C101_rational_assign_states and C101_rational_update_degrees_states list exactly the states in which the calls on rational splines leave the object."
 },
 "C102": {
  "status": "proved",
  "note": "Moving a variable to itself is excluded from programs: the standard leaves the vector unspecified. std::swap is modelled as in the standard library (construct a temporary, two move assignments)."
 },
 "C103": {
  "status": "partial",
  "note": "False of the code as it stands: at the default output level two threads that run into TerminatingError and catch it race in std::localtime/std::asctime (C103_time_stamp_fails), and with a log file switched on even successful calls such as order elevation race for the stream (C103_log_file_fails). At the default level of a program with logging, successful calls of RaisePower(0) race for the clock too, because they report an error (C103_power_fails). SetOutputLevel is not protected (C103_set_level_fails). Proved where no message of a thread makes the logger use a file or the clock; in particular with time stamps and log files off, whatever fails, and at the default level if no message is an error, a warning or user information. Lines on the console can be torn (C103_torn_lines). The calls are built from the functions of Model/Messages.lean (C103_calls, C103_more_calls and C103_power_calls state their results and messages), and C103_ops_partial says that at the default level those of Op (RaisePower is not one of them) race only if a call throws. C103_rational_calls and C103_rational_ops_partial say the same for threads that use rational splines (Model/ThreadsRational.lean); Threads that use splines of points, splines of numbers and rational splines together, with the calls that lead from one type to another, are those of Model/ThreadsMixed.lean: C103_mixed_ops_partial, C103_mixed_calls, C103_mixed_types, and C103_mixed_poly/_num/_rat, which carry the statements about one type over. Composing a constant polynomial spline with a rational one races at the default level, because it reports an error (C103_constant_compose_fails). A spline object is one place of memory."
 },
 "C104": {
  "status": "proved",
  "note": "Over any ordered field; convexity over the real numbers. The conditions are sufficient, not necessary (C104_not_necessary)."
 },
 "C105": {
  "status": "proved",
  "note": "For any operations, so for floating point and derivative types too. The text of a position is a parameter (std::to_string). Transcripts of sums, derivatives and compositions are stated for calls that return; those of splits also for calls that throw. The message of Compose(std::vector) is not modelled, since that function cannot be instantiated."
 },
 "C106": {
  "status": "proved",
  "note": "The conversion of numbers (operator<< and std::to_string of the C++ standard library) is part of the model: exact value, correct rounding with halves to even. Infinities, NaN, negative zero and negative precisions are not covered. A point without coordinates is undefined behaviour (C106_no_coordinates)."
 },
 "C107": {
  "status": "proved",
  "note": "No underflow and no overflow, as in C87. Compositions and splits at many planes are covered by C107_one_arithmetic but have no closed bound. An arithmetic that keeps the first of two added products exact stands for the compilers that contract (C107_fused_scalar, C107_fused_point); other choices are covered by the sets of possible results."
 },
 "C108": {
  "status": "proved",
  "note": "The values (C108_values, C108_rational_values, C108_graph, C108_monotone, C108_convex) are for exact arithmetic and curves; in floating-point arithmetic Evaluate need not be monotone. Elevations below 2^31 control points, as in C12."
 },
 "C109": {
  "status": "proved",
  "note": "Exact arithmetic. Elevations below 2^31 control points, as in C12. C100 has the linear rate for all pairs of control points and parameters; this one has the quadratic rate for a control point and its own parameter."
 },
 "C110": {
  "status": "proved",
  "note": "Exact arithmetic. Elevations below 2^31 control points, as in C12."
 },
 "C111": {
  "status": "proved",
  "note": "Exact arithmetic: the claim is about the inputs; rounding inside the operations is bounded in C64, C66, C69, C70, C87 and C114. Elevations below 2^31 control points, as in C12."
 },
 "C112": {
  "status": "proved",
  "note": "Over the reals. Degrees below the limit of the table of binomial coefficients."
 },
 "C113": {
  "status": "partial",
  "note": "False for double: in the default rounding mode of IEEE 754 the positions 3*2^-54 and 1-2^-53 throw for every spline, because the second one's position in what is left over rounds to 1 (C113_fails); for long double so do 1/4 and 1-2^-60, because that position is converted to double (C113_wide_fails). Proved: exactly which positions return (C113_returns_iff), a simple sufficient condition that leaves out only the largest number below 1 after a position below one half (C113_returns_partial), that float never fails (C113_narrow), and the error bounds. The error bounds assume no underflow; they are for polynomial splines and for rational splines with positive weights."
 },
 "C114": {
  "status": "proved",
  "note": "The arithmetic is one with relative errors only: overflow and underflow are left out, as in C70 and C87. The positions of splits are those given as floating-point numbers. Sums and differences of two rational splines: if both runs find the weights to be the same, or both different, which is so for splines as they are stored (C114_same_weights). Compositions are those of a rational spline with a polynomial inner spline given by floating-point numbers in the unit cube; derivatives and rational inner splines are not included."
 },
 "C115": {
  "status": "proved",
  "note": "The release model is the debug model with the build as a parameter of every `assert` and of every function that reaches one; it is proved equal to the debug model when the parameter is debug. 'Never returns more than the debug build' is stated call by call, for consistent splines; for derivatives of rational splines in directions of degree at least one. The theorems `C115_no_assertion_*` show for every function that no assertion fails in a release build; for dual numbers they assume that the operations of the scalar type contain none. The index into the table of binomial coefficients is taken not to wrap around in unsigned int, which needs degrees of at least 2^16."
 },
 "C116": {
  "status": "proved",
  "note": "Exact arithmetic in a field. The relation between a call and the functions before and after it is a table in Spec/Changes.lean which does not mention the code. FitIntoUnitCube needs positive extent in every coordinate (C24)."
 },
 "C117": {
  "status": "partial",
  "note": "False as stated: C117_fails shows that the call is undefined behaviour (integer division by zero in OrderElevateAlongParametricDimension) whenever a direction of degree zero is differentiated, in any arithmetic; C117_returns_iff that these are exactly the calls that do not return. C117_positive_degrees_partial: with positive degrees the model with wrap-around agrees with the one of C41, which says what is computed. C117_evaluate_zero: the pointwise interface returns zero. C117_elevate_fails: the same division for a polynomial spline. Missing (false): a returned zero spline."
 },
 "C118": {
  "status": "proved",
  "note": "C118_chain_rule (polynomial, polynomial), C118_rational_inner, C118_rational_outer and C118_rational, from the definition of the derivative as a limit: the derivatives returned by the calls are the derivatives of the functions returned by the evaluations, not formulas for control points. The derivatives of the composition are those of the spline that Compose returns."
 },
 "C119": {
  "status": "proved",
  "note": "C119_evaluate, _forward_evaluate, _evaluate_derivative, _scale, _add_point, _sub_point, _neg, _elevate, _split, _split_many, _box, _add, _sub, _add_assign, _sub_assign, _mul, _compose_outer, _compose_inner, _compose_rational_outer, _compose_rational_inner, _sensitivity_outer, _sensitivity_rational_outer: equality of the returned objects. C119_add_degrees and C119_derivative_spline: the same functions of larger degrees."
 },
 "C120": {
  "status": "proved",
  "note": "C120_evaluate, _determined, _exists, _twice, _symm, _unique, _equal, _elevate, _split_reversed, _split_other, _add, _sub_assign, _mul, _scale, _power, _box, _compose_inner, _compose_outer, _evaluate_derivative, _derivative_spline: reversed dimensions. C120_exchange_*: exchanged dimensions. C120_rational_*, C120_exchange_rational_*, C120_compose_rational, C120_exchange_compose_rational: rational splines. The mixed derivatives of a rational spline do not depend on the order of the dimensions."
 },
 "C121": {
  "status": "proved",
  "note": "C121_add_comm, _add_assoc (shared weights), _add_assoc_values (any weights), _add_assoc_fails (witness), _sub_neg, _scale_add, _shift_shift, _shift_add, _mul_comm, _mul_assoc, _distrib, _elevate_elevate, _elevate_split, _split_add, _split_mul, _split_compose, _compose_assoc, _compose_mul; with rational inner splines: _split_compose_inner, _split_compose_both, _compose_assoc_inner, _compose_assoc_both, _compose_unit_weights."
 },
 "C122": {
  "status": "proved",
  "note": "C122_zero_product, _cancel, _elevate, _rational_elevate, _split, _power_odd, _power, _derivative, _difference, _rational_difference, _needed (the zeroth power and the zero factor)."
 },
 "C123": {
  "status": "proved",
  "note": "C123_constant, _mul_one, _mul_one_elevates, _add_zero, _power, _rational_mul_one, _rational_add_zero, _compose_identity, _rational_compose_identity, _compose_unit_line, _compose_constant."
 },
 "C124": {
  "status": "proved",
  "note": "C124_composition, _points, _partition, _split, _reversed, _exchanged, _composition_rational, _split_rational, _rational_composition, _rational_composition_rational, _points_rational, _rational_points, _rational_points_rational, _moved, _rational_moved, _moved_rational, _rational_moved_rational, _rational_split, _rational_split_rational, _rational_reversed, _reversed_rational, _rational_reversed_rational, _rational_exchanged, _exchanged_rational, _rational_exchanged_rational, _rational_partition, _rational_partition_rational, _partition_rational."
 }
}