{
 "claims": [
  {
   "property": "C01",
   "status": "proved",
   "theorems": [
    "Bezman.Props.C01_choose_assert",
    "Bezman.Props.C01_choose_exact",
    "Bezman.Props.C01_choose_limit"
   ],
   "note": ""
  },
  {
   "property": "C02",
   "status": "proved",
   "theorems": [
    "Bezman.Props.C02_bernstein"
   ],
   "note": ""
  },
  {
   "property": "C03",
   "status": "proved",
   "theorems": [
    "Bezman.Props.C03_nonneg",
    "Bezman.Props.C03_partition_of_unity"
   ],
   "note": ""
  },
  {
   "property": "C04",
   "status": "proved",
   "theorems": [
    "Bezman.Props.C04_bernstein_derivative",
    "Bezman.Props.C04_formal",
    "Bezman.Props.C04_smooth",
    "Bezman.Props.C04_zero_above_degree"
   ],
   "note": ""
  },
  {
   "property": "C05",
   "status": "proved",
   "theorems": [
    "Bezman.Props.C05_global_local",
    "Bezman.Props.C05_local_global"
   ],
   "note": ""
  },
  {
   "property": "C06",
   "status": "proved",
   "theorems": [
    "Bezman.Props.C06_default_use",
    "Bezman.Props.C06_default_violates",
    "Bezman.Props.C06_history_default",
    "Bezman.Props.C06_history_degrees",
    "Bezman.Props.C06_history_points"
   ],
   "note": "Partial correctness: whenever the calls return. The default-constructed spline itself violates the claim until UpdateDegrees is called (C06_default_violates)."
  },
  {
   "property": "C07",
   "status": "proved",
   "theorems": [
    "Bezman.Props.C07_control_points",
    "Bezman.Props.C07_evaluate"
   ],
   "note": ""
  },
  {
   "property": "C08",
   "status": "proved",
   "theorems": [
    "Bezman.Props.C08_forward_evaluate"
   ],
   "note": ""
  },
  {
   "property": "C09",
   "status": "proved",
   "theorems": [
    "Bezman.Props.C09_basis_evaluate",
    "Bezman.Props.C09_basis_order"
   ],
   "note": ""
  },
  {
   "property": "C10",
   "status": "proved",
   "theorems": [
    "Bezman.Props.C10_corners"
   ],
   "note": ""
  },
  {
   "property": "C11",
   "status": "proved",
   "theorems": [
    "Bezman.Props.C11_bounding_box"
   ],
   "note": ""
  },
  {
   "property": "C12",
   "status": "proved",
   "theorems": [
    "Bezman.Props.C12_order_elevate"
   ],
   "note": ""
  },
  {
   "property": "C13",
   "status": "proved",
   "theorems": [
    "Bezman.Props.C13_derivative_spline"
   ],
   "note": ""
  },
  {
   "property": "C14",
   "status": "proved",
   "theorems": [
    "Bezman.Props.C14_chain",
    "Bezman.Props.C14_evaluate_derivative",
    "Bezman.Props.C14_zero"
   ],
   "note": ""
  },
  {
   "property": "C15",
   "status": "partial",
   "theorems": [
    "Bezman.Props.C15_evaluate_zero_partial",
    "Bezman.Props.C15_fails",
    "Bezman.Props.C15_fails_far"
   ],
   "note": "False of the code. C15_fails: if the first order above its degree exceeds it by one, the result has no control points and evaluating it is undefined behaviour. C15_fails_far: if it exceeds it by two or more, the call itself has undefined behaviour. C15_evaluate_zero_partial: EvaluateDerivative is zero as claimed."
  },
  {
   "property": "C16",
   "status": "proved",
   "theorems": [
    "Bezman.Props.C16_add"
   ],
   "note": ""
  },
  {
   "property": "C17",
   "status": "proved",
   "theorems": [
    "Bezman.Props.C17_add_assign"
   ],
   "note": ""
  },
  {
   "property": "C18",
   "status": "partial",
   "theorems": [
    "Bezman.Props.C18_sub_never_returns",
    "Bezman.Props.C18_sub_partial"
   ],
   "note": "Proved when the right operand has no higher degree than the left in any dimension; C18_sub_never_returns proves that otherwise the code loops forever (for every fuel), so the full claim is false of the code."
  },
  {
   "property": "C19",
   "status": "proved",
   "theorems": [
    "Bezman.Props.C19_sub_assign"
   ],
   "note": ""
  },
  {
   "property": "C20",
   "status": "proved",
   "theorems": [
    "Bezman.Props.C20_add_point",
    "Bezman.Props.C20_neg",
    "Bezman.Props.C20_point_sub",
    "Bezman.Props.C20_scale",
    "Bezman.Props.C20_sub_point"
   ],
   "note": ""
  },
  {
   "property": "C21",
   "status": "proved",
   "theorems": [
    "Bezman.Props.C21_mul",
    "Bezman.Props.C21_mul_dot",
    "Bezman.Props.C21_mul_point_scalar",
    "Bezman.Props.C21_mul_scalar",
    "Bezman.Props.C21_mul_scalar_point"
   ],
   "note": ""
  },
  {
   "property": "C22",
   "status": "proved",
   "theorems": [
    "Bezman.Props.C22_raise_power",
    "Bezman.Props.C22_raise_power_zero"
   ],
   "note": ""
  },
  {
   "property": "C23",
   "status": "proved",
   "theorems": [
    "Bezman.Props.C23_extract",
    "Bezman.Props.C23_extract_throws"
   ],
   "note": ""
  },
  {
   "property": "C24",
   "status": "proved",
   "theorems": [
    "Bezman.Props.C24_fit_into_unit_cube",
    "Bezman.Props.C24_transpose_and_scale"
   ],
   "note": ""
  },
  {
   "property": "C25",
   "status": "proved",
   "theorems": [
    "Bezman.Props.C25_fits_iff",
    "Bezman.Props.C25_fits_sound"
   ],
   "note": ""
  },
  {
   "property": "C26",
   "status": "proved",
   "theorems": [
    "Bezman.Props.C26_compose",
    "Bezman.Props.C26_compose_throws"
   ],
   "note": ""
  },
  {
   "property": "C27",
   "status": "proved",
   "theorems": [
    "Bezman.Props.C27_derivative",
    "Bezman.Props.C27_sensitivity",
    "Bezman.Props.C27_sensitivity_sum",
    "Bezman.Props.C27_sensitivity_throws"
   ],
   "note": ""
  },
  {
   "property": "C28",
   "status": "proved",
   "theorems": [
    "Bezman.Props.C28_compose",
    "Bezman.Props.C28_compose_throws"
   ],
   "note": ""
  },
  {
   "property": "C29",
   "status": "proved",
   "theorems": [
    "Bezman.Props.C29_compose_polynomial",
    "Bezman.Props.C29_compose_rational",
    "Bezman.Props.C29_compose_throws"
   ],
   "note": ""
  },
  {
   "property": "C30",
   "status": "proved",
   "theorems": [
    "Bezman.Props.C30_derivative",
    "Bezman.Props.C30_rational_derivative",
    "Bezman.Props.C30_rational_derivative_rational",
    "Bezman.Props.C30_rational_sensitivity",
    "Bezman.Props.C30_rational_sensitivity_rational",
    "Bezman.Props.C30_rational_sensitivity_throws",
    "Bezman.Props.C30_rational_sum",
    "Bezman.Props.C30_rational_sum_rational",
    "Bezman.Props.C30_sensitivity",
    "Bezman.Props.C30_sensitivity_sum",
    "Bezman.Props.C30_sensitivity_throws"
   ],
   "note": ""
  },
  {
   "property": "C31",
   "status": "proved",
   "theorems": [
    "Bezman.Props.C31_split",
    "Bezman.Props.C31_split_throws"
   ],
   "note": ""
  },
  {
   "property": "C32",
   "status": "proved",
   "theorems": [
    "Bezman.Props.C32_watertight"
   ],
   "note": ""
  },
  {
   "property": "C33",
   "status": "proved",
   "theorems": [
    "Bezman.Props.C33_joins",
    "Bezman.Props.C33_split_many",
    "Bezman.Props.C33_split_many_throws"
   ],
   "note": ""
  },
  {
   "property": "C34",
   "status": "proved",
   "theorems": [
    "Bezman.Props.C34_complete",
    "Bezman.Props.C34_evaluate",
    "Bezman.Props.C34_pointwise",
    "Bezman.Props.C34_refl",
    "Bezman.Props.C34_symm",
    "Bezman.Props.C34_trans"
   ],
   "note": ""
  },
  {
   "property": "C35",
   "status": "proved",
   "theorems": [
    "Bezman.Props.C35_construct",
    "Bezman.Props.C35_construct_asserts",
    "Bezman.Props.C35_of_polynomial",
    "Bezman.Props.C35_of_splines",
    "Bezman.Props.C35_of_splines_asserts",
    "Bezman.Props.C35_zero_weight"
   ],
   "note": ""
  },
  {
   "property": "C36",
   "status": "partial",
   "theorems": [
    "Bezman.Props.C36_forward_evaluate_fails",
    "Bezman.Props.C36_forward_evaluate_numerator",
    "Bezman.Props.C36_forward_evaluate_partial"
   ],
   "note": "False of the code: ForwardEvaluate of a rational spline does not divide by the weight. C36_forward_evaluate_numerator gives the value it returns, C36_forward_evaluate_fails a witness, C36_forward_evaluate_partial when both agree."
  },
  {
   "property": "C37",
   "status": "partial",
   "theorems": [
    "Bezman.Props.C37_variadic_fails",
    "Bezman.Props.C37_variadic_partial",
    "Bezman.Props.C37_variadic_reads",
    "Bezman.Props.C37_weights"
   ],
   "note": "The array-index accessors are proved; the variadic overload ControlPoint(i,j,..) folds its arguments with the comma operator (C37_variadic_fails)."
  },
  {
   "property": "C38",
   "status": "proved",
   "theorems": [
    "Bezman.Props.C38_add",
    "Bezman.Props.C38_add_assign",
    "Bezman.Props.C38_mul",
    "Bezman.Props.C38_mul_dot",
    "Bezman.Props.C38_mul_scalar",
    "Bezman.Props.C38_sub",
    "Bezman.Props.C38_sub_assign"
   ],
   "note": ""
  },
  {
   "property": "C39",
   "status": "proved",
   "theorems": [
    "Bezman.Props.C39_add_point",
    "Bezman.Props.C39_neg",
    "Bezman.Props.C39_scale",
    "Bezman.Props.C39_sub_point"
   ],
   "note": ""
  },
  {
   "property": "C40",
   "status": "proved",
   "theorems": [
    "Bezman.Props.C40_order_elevate",
    "Bezman.Props.C40_split",
    "Bezman.Props.C40_split_many",
    "Bezman.Props.C40_split_throws"
   ],
   "note": ""
  },
  {
   "property": "C41",
   "status": "proved",
   "theorems": [
    "Bezman.Props.C41_derivative_spline"
   ],
   "note": "For degrees * 2^(sum of orders) below MAX_BINOMIAL_DEGREE and fewer than 2^31 control points; every direction differentiated has degree at least one (for degree zero see C117)."
  },
  {
   "property": "C42",
   "status": "proved",
   "theorems": [
    "Bezman.Props.C42_chain",
    "Bezman.Props.C42_evaluate_derivative"
   ],
   "note": "For orders below MAX_BINOMIAL_DEGREE whose products of binomial coefficients fit in 64 bits (BinomFits)."
  },
  {
   "property": "C43",
   "status": "proved",
   "theorems": [
    "Bezman.Props.C43_basis",
    "Bezman.Props.C43_basis_derivatives",
    "Bezman.Props.C43_basis_evaluate",
    "Bezman.Props.C43_unweighted"
   ],
   "note": ""
  },
  {
   "property": "C44",
   "status": "proved",
   "theorems": [
    "Bezman.Props.C44_bounding_box",
    "Bezman.Props.C44_fits_iff",
    "Bezman.Props.C44_fits_sound"
   ],
   "note": ""
  },
  {
   "property": "C45",
   "status": "proved",
   "theorems": [
    "Bezman.Props.C45_add",
    "Bezman.Props.C45_const",
    "Bezman.Props.C45_div",
    "Bezman.Props.C45_mul",
    "Bezman.Props.C45_neg",
    "Bezman.Props.C45_scalar_assign",
    "Bezman.Props.C45_scalar_left",
    "Bezman.Props.C45_scalar_right",
    "Bezman.Props.C45_self_assign",
    "Bezman.Props.C45_sizes",
    "Bezman.Props.C45_sub",
    "Bezman.Props.C45_sub_assign_unchecked"
   ],
   "note": "Over the reals. C45_self_assign covers a op= a, C45_sizes operands with different numbers of derivatives (rejected), C45_sub_assign_unchecked the missing check in operator-=."
  },
  {
   "property": "C46",
   "status": "partial",
   "theorems": [
    "Bezman.Props.C46_abs",
    "Bezman.Props.C46_acos",
    "Bezman.Props.C46_asin",
    "Bezman.Props.C46_atan",
    "Bezman.Props.C46_cos",
    "Bezman.Props.C46_exp",
    "Bezman.Props.C46_log",
    "Bezman.Props.C46_log10",
    "Bezman.Props.C46_pow",
    "Bezman.Props.C46_pow_fails",
    "Bezman.Props.C46_pow_scalar_partial",
    "Bezman.Props.C46_sin",
    "Bezman.Props.C46_sqrt",
    "Bezman.Props.C46_tan"
   ],
   "note": "False of the code for pow(x, 0) at x = 0, whose derivative is NaN although the function is constant (C46_pow_fails). Every other function and every other point of differentiability of pow(x, c) for integer c, or positive x, is proved. log2 does not exist in the code."
  },
  {
   "property": "C47",
   "status": "proved",
   "theorems": [
    "Bezman.Props.C47_gradient",
    "Bezman.Props.C47_set_active"
   ],
   "note": "Smooth states where every operation is applied inside its domain; for pow(x, c) see C46."
  },
  {
   "property": "C48",
   "status": "proved",
   "theorems": [
    "Bezman.Props.C48_compare",
    "Bezman.Props.C48_complementary",
    "Bezman.Props.C48_mixed"
   ],
   "note": "For every value type whose own comparisons follow a linear order (plain numbers; nested types by a second application)."
  },
  {
   "property": "C49",
   "status": "partial",
   "theorems": [
    "Bezman.Props.C49_decode_encode",
    "Bezman.Props.C49_decode_standard",
    "Bezman.Props.C49_fails",
    "Bezman.Props.C49_longer",
    "Bezman.Props.C49_roundtrip_partial"
   ],
   "note": "False of the code as stated: entries of one or two bytes come back with extra zero entries (C49_longer, C49_fails). C49_decode_encode gives the exact result for every vector, C49_roundtrip_partial the round trip for entries of at least three bytes or padding smaller than an entry, for every memory content behind the vector."
  },
  {
   "property": "C50",
   "status": "partial",
   "theorems": [
    "Bezman.Props.C50_empty",
    "Bezman.Props.C50_fails",
    "Bezman.Props.C50_reads_behind_the_end",
    "Bezman.Props.C50_shape",
    "Bezman.Props.C50_standard_iff",
    "Bezman.Props.C50_standard_partial"
   ],
   "note": "False of the code as stated. Proved for byte counts divisible by three (C50_standard_partial); for all others Encode reads behind the end (C50_reads_behind_the_end) and the text is standard exactly if the bits found there are zero (C50_standard_iff, C50_fails)."
  },
  {
   "property": "C51",
   "status": "proved",
   "theorems": [
    "Bezman.Props.C51_decode_iff",
    "Bezman.Props.C51_encoded_is_safe",
    "Bezman.Props.C51_length",
    "Bezman.Props.C51_not_ascii",
    "Bezman.Props.C51_overflow",
    "Bezman.Props.C51_too_short"
   ],
   "note": "C51_decode_iff characterises all strings for which Decode is free of undefined behaviour; C51_encoded_is_safe covers the strings written by Encode, the other theorems exhibit the failures the statement announces. char is modelled as signed."
  },
  {
   "property": "C52",
   "status": "partial",
   "theorems": [
    "Bezman.Props.C52_points_roundtrip_partial",
    "Bezman.Props.C52_rejects",
    "Bezman.Props.C52_rejects_encoded"
   ],
   "note": "Round trip proved for coordinates of at least three bytes (every floating point type) or padding smaller than a coordinate; false otherwise, as C49. The rejection is an assert."
  },
  {
   "property": "C53",
   "status": "proved",
   "theorems": [
    "Bezman.Props.C53_entries_increase",
    "Bezman.Props.C53_sorts",
    "Bezman.Props.C53_unique"
   ],
   "note": "For every strict weak order; C53_unique shows that the result does not depend on how std::stable_sort works."
  },
  {
   "property": "C54",
   "status": "proved",
   "theorems": [
    "Bezman.Props.C54_int",
    "Bezman.Props.C54_int_limits",
    "Bezman.Props.C54_int_power"
   ],
   "note": "The exact intermediate results that must fit are hypotheses; C54_int_limits shows that for wider types than int a fitting result is not enough."
  },
  {
   "property": "C55",
   "status": "proved",
   "theorems": [
    "Bezman.Props.C55_console",
    "Bezman.Props.C55_console_history",
    "Bezman.Props.C55_file",
    "Bezman.Props.C55_level",
    "Bezman.Props.C55_options",
    "Bezman.Props.C55_throws"
   ],
   "note": "For every call in every state, and for the console as a statement about whole histories."
  },
  {
   "property": "C56",
   "status": "partial",
   "theorems": [
    "Bezman.Props.C56_fails",
    "Bezman.Props.C56_fails_truncates",
    "Bezman.Props.C56_kept_partial",
    "Bezman.Props.C56_run_partial",
    "Bezman.Props.C56_since_last",
    "Bezman.Props.C56_terminating_saves"
   ],
   "note": "False of the code: C56_fails_truncates proves that after any TerminatingError the next call empties every enabled file, C56_since_last that the file then contains exactly the messages since the last such error. C56_kept_partial and C56_run_partial cover histories in which no TerminatingError is raised while the file is enabled, the latter from an arbitrary disk. Together C56_run_partial, C56_since_last and C56_terminating_saves determine the contents after every history."
  },
  {
   "property": "C57",
   "status": "proved",
   "theorems": [
    "Bezman.Props.C57_cauchy_schwarz",
    "Bezman.Props.C57_componentwise",
    "Bezman.Props.C57_dot",
    "Bezman.Props.C57_euclidian_norm",
    "Bezman.Props.C57_squared_norm_definite",
    "Bezman.Props.C57_vector_space"
   ],
   "note": ""
  },
  {
   "property": "C58",
   "status": "proved",
   "theorems": [
    "Bezman.Props.C58_add_assoc",
    "Bezman.Props.C58_add_comm",
    "Bezman.Props.C58_distrib",
    "Bezman.Props.C58_mul_assoc",
    "Bezman.Props.C58_mul_comm",
    "Bezman.Props.C58_sub_self"
   ],
   "note": ""
  },
  {
   "property": "C59",
   "status": "proved",
   "theorems": [
    "Bezman.Props.C59_elevate_split_commute",
    "Bezman.Props.C59_elevations",
    "Bezman.Props.C59_order_irrelevant"
   ],
   "note": ""
  },
  {
   "property": "C60",
   "status": "proved",
   "theorems": [
    "Bezman.Props.C60_control_point_derivatives",
    "Bezman.Props.C60_evaluate",
    "Bezman.Props.C60_evaluate_point",
    "Bezman.Props.C60_evaluate_second_order",
    "Bezman.Props.C60_forward_evaluate",
    "Bezman.Props.C60_rational",
    "Bezman.Props.C60_rational_point",
    "Bezman.Props.C60_static_ring"
   ],
   "note": "Evaluate for scalar and Point control points, polynomial and rational splines, first and second derivatives, and ForwardEvaluate. EvaluateDerivative does not compile with AlgoDiffType."
  },
  {
   "property": "C61",
   "status": "partial",
   "theorems": [
    "Bezman.Props.C61_add_own_point",
    "Bezman.Props.C61_last_point_partial",
    "Bezman.Props.C61_point_scale_own",
    "Bezman.Props.C61_rational_add_own_point",
    "Bezman.Props.C61_rational_scale_own_weight",
    "Bezman.Props.C61_rational_sub_own_point",
    "Bezman.Props.C61_scale_own_point",
    "Bezman.Props.C61_sub_own_point"
   ],
   "note": "False of the code: arguments are const references and the loop overwrites the element they refer to. The C61 theorems compute the actual result exactly for every position; C61_last_point_partial is the one position (the last) for which the claim holds. For rational splines += and -= with an own weighted control point are wrong in the same way; *= with an own weight is right (C61_rational_scale_own_weight)."
  },
  {
   "property": "C62",
   "status": "partial",
   "theorems": [
    "Bezman.Props.C62_fails",
    "Bezman.Props.C62_hessian_partial"
   ],
   "note": "False of the code for pow(x, c) with negative x: the nested power is computed by exp(log(x) * c) and fails (C62_fails). Division by a plain number, acos and asin do not compile with the nested type and are outside the statement."
  },
  {
   "property": "C63",
   "status": "partial",
   "theorems": [
    "Bezman.Props.C63_extract_iff",
    "Bezman.Props.C63_extract_partial",
    "Bezman.Props.C63_extract_throws",
    "Bezman.Props.C63_fails"
   ],
   "note": "False of the code: the result is not divided by the weight function (C63_fails). Proved: it is the coordinate times the weight function, and when that is the coordinate; the error case."
  },
  {
   "property": "C64",
   "status": "proved",
   "theorems": [
    "Bezman.Props.C64_evaluate_error",
    "Bezman.Props.C64_evaluate_error_point"
   ],
   "note": "Standard model of floating-point arithmetic with underflow; no overflow, no fused multiply-add. Scalars and Points."
  },
  {
   "property": "C65",
   "status": "proved",
   "theorems": [
    "Bezman.Props.C65_corners",
    "Bezman.Props.C65_corners_point"
   ],
   "note": "Scalars and Points; control points finite and representable."
  },
  {
   "property": "C66",
   "status": "proved",
   "theorems": [
    "Bezman.Props.C66_basis_error",
    "Bezman.Props.C66_forward_error",
    "Bezman.Props.C66_forward_error_point"
   ],
   "note": "Without underflow (eta = 0), as the statement says."
  },
  {
   "property": "C67",
   "status": "proved",
   "theorems": [
    "Bezman.Props.C67_casteljau"
   ],
   "note": "No law of arithmetic is used."
  },
  {
   "property": "C68",
   "status": "proved",
   "theorems": [
    "Bezman.Props.C68_float",
    "Bezman.Props.C68_float_point",
    "Bezman.Props.C68_joint",
    "Bezman.Props.C68_rational_joint",
    "Bezman.Props.C68_split"
   ],
   "note": "C68_float and C68_float_point show that rounded arithmetic with representable values meets the hypothesis; -0 and 0 are one number in the model."
  },
  {
   "property": "C69",
   "status": "proved",
   "theorems": [
    "Bezman.Props.C69_split_error",
    "Bezman.Props.C69_split_error_point"
   ],
   "note": "Scalars and Points; standard model with underflow, no overflow."
  },
  {
   "property": "C70",
   "status": "proved",
   "theorems": [
    "Bezman.Props.C70_rational_error",
    "Bezman.Props.C70_rational_error_point"
   ],
   "note": "Without underflow, as the statement says."
  },
  {
   "property": "C71",
   "status": "proved",
   "theorems": [
    "Bezman.Props.C71_chain",
    "Bezman.Props.C71_compose_assoc",
    "Bezman.Props.C71_compose_line",
    "Bezman.Props.C71_compose_mul",
    "Bezman.Props.C71_derivative_add",
    "Bezman.Props.C71_derivative_derivative",
    "Bezman.Props.C71_derivative_split",
    "Bezman.Props.C71_power_add",
    "Bezman.Props.C71_power_power",
    "Bezman.Props.C71_product_rule",
    "Bezman.Props.C71_split_add",
    "Bezman.Props.C71_split_compose",
    "Bezman.Props.C71_split_mul"
   ],
   "note": "Equalities of spline objects; derivatives over the reals."
  },
  {
   "property": "C72",
   "status": "proved",
   "theorems": [
    "Bezman.Props.C72_point",
    "Bezman.Props.C72_same_scalar_spline",
    "Bezman.Props.C72_same_spline",
    "Bezman.Props.C72_scalar"
   ],
   "note": "Expression language of Model/Expr.lean, scalar and point valued splines over the reals; preconditions of each call in Spec/Expr.lean."
  },
  {
   "property": "C73",
   "status": "proved",
   "theorems": [
    "Bezman.Props.C73_add",
    "Bezman.Props.C73_compose",
    "Bezman.Props.C73_compose_fits",
    "Bezman.Props.C73_compose_rational",
    "Bezman.Props.C73_elevate_fits",
    "Bezman.Props.C73_evaluate",
    "Bezman.Props.C73_mul",
    "Bezman.Props.C73_order_elevate",
    "Bezman.Props.C73_rational_add",
    "Bezman.Props.C73_rational_add_assign",
    "Bezman.Props.C73_rational_compose_polynomial",
    "Bezman.Props.C73_rational_compose_rational",
    "Bezman.Props.C73_rational_evaluate",
    "Bezman.Props.C73_rational_mul",
    "Bezman.Props.C73_rational_order_elevate",
    "Bezman.Props.C73_rational_split",
    "Bezman.Props.C73_rational_split_fits",
    "Bezman.Props.C73_rational_split_many",
    "Bezman.Props.C73_rational_sub",
    "Bezman.Props.C73_rational_sub_assign",
    "Bezman.Props.C73_split",
    "Bezman.Props.C73_split_fits",
    "Bezman.Props.C73_split_many",
    "Bezman.Props.C73_sub"
   ],
   "note": "Ordered fields, any module as point type; rational results with positive weights."
  },
  {
   "property": "C74",
   "status": "proved",
   "theorems": [
    "Bezman.Props.C74_colours",
    "Bezman.Props.C74_console",
    "Bezman.Props.C74_file"
   ],
   "note": "The labels are data of the code; file lines of Logging and ExtendedInformation both carry the label of user information."
  },
  {
   "property": "C75",
   "status": "proved",
   "theorems": [
    "Bezman.Props.C75_active_index",
    "Bezman.Props.C75_compose_limit",
    "Bezman.Props.C75_compose_rational_limit",
    "Bezman.Props.C75_construct",
    "Bezman.Props.C75_degree_limit",
    "Bezman.Props.C75_dual_div_zero",
    "Bezman.Props.C75_evaluate_no_limit",
    "Bezman.Props.C75_index_unchecked",
    "Bezman.Props.C75_power_limit",
    "Bezman.Props.C75_power_small",
    "Bezman.Props.C75_product_limit",
    "Bezman.Props.C75_rational_compose_limit",
    "Bezman.Props.C75_rational_compose_rational_limit",
    "Bezman.Props.C75_rational_construct",
    "Bezman.Props.C75_rational_product_limit"
   ],
   "note": "In builds with assertions."
  },
  {
   "property": "C76",
   "status": "proved",
   "theorems": [
    "Bezman.Props.C76_add_sub",
    "Bezman.Props.C76_affine",
    "Bezman.Props.C76_compose_of_rational",
    "Bezman.Props.C76_compose_polynomial",
    "Bezman.Props.C76_compose_rational",
    "Bezman.Props.C76_derivative",
    "Bezman.Props.C76_evaluate",
    "Bezman.Props.C76_mul",
    "Bezman.Props.C76_order_elevate",
    "Bezman.Props.C76_split",
    "Bezman.Props.C76_split_many"
   ],
   "note": "Over any ordered field; derivative spline over the reals."
  },
  {
   "property": "C77",
   "status": "proved",
   "theorems": [
    "Bezman.Props.C77_point",
    "Bezman.Props.C77_point_everywhere",
    "Bezman.Props.C77_scalar",
    "Bezman.Props.C77_scalar_everywhere"
   ],
   "note": "A rational spline composed with a rational spline requires that the weight function of the inner spline has no zeros (as for circular arcs); the other preconditions are those of the single operations."
  },
  {
   "property": "C78",
   "status": "proved",
   "theorems": [
    "Bezman.Props.C78_compose",
    "Bezman.Props.C78_construct",
    "Bezman.Props.C78_default_violates",
    "Bezman.Props.C78_extract",
    "Bezman.Props.C78_product",
    "Bezman.Props.C78_reachable",
    "Bezman.Props.C78_split",
    "Bezman.Props.C78_sum"
   ],
   "note": "The default constructed rational spline is the exception (C78_default_violates); replacing one of the two exposed vectors by one of another length is outside the claim. Derivatives of polynomial splines are treated in C13 and C15, where the size_t wrap-around matters."
  },
  {
   "property": "C79",
   "status": "proved",
   "theorems": [
    "Bezman.Props.C79_evaluate",
    "Bezman.Props.C79_programs",
    "Bezman.Props.C79_rational",
    "Bezman.Props.C79_rational_evaluate"
   ],
   "note": "Lockstep (parametricity) theorem: the model functions run over points and over coordinates have corresponding outcomes."
  },
  {
   "property": "C80",
   "status": "proved",
   "theorems": [
    "Bezman.Props.C80_arithmetic",
    "Bezman.Props.C80_compose",
    "Bezman.Props.C80_elevate_derive",
    "Bezman.Props.C80_evaluate",
    "Bezman.Props.C80_no_undefined_behaviour",
    "Bezman.Props.C80_point_program",
    "Bezman.Props.C80_power",
    "Bezman.Props.C80_product",
    "Bezman.Props.C80_scalar_program",
    "Bezman.Props.C80_split",
    "Bezman.Props.C80_split_many"
   ],
   "note": "Lockstep with the real numbers: any two numbers correspond, only the bookkeeping is compared."
  },
  {
   "property": "C81",
   "status": "proved",
   "theorems": [
    "Bezman.Props.C81_box",
    "Bezman.Props.C81_compose",
    "Bezman.Props.C81_compose_both",
    "Bezman.Props.C81_compose_rational",
    "Bezman.Props.C81_derive",
    "Bezman.Props.C81_evaluate",
    "Bezman.Props.C81_evaluators",
    "Bezman.Props.C81_no_undefined_behaviour",
    "Bezman.Props.C81_point_program",
    "Bezman.Props.C81_product",
    "Bezman.Props.C81_scalar_program",
    "Bezman.Props.C81_split",
    "Bezman.Props.C81_split_many",
    "Bezman.Props.C81_sum",
    "Bezman.Props.C81_unary"
   ],
   "note": "Companion of C80. In the model a division by something that compares equal to zero is the outcome `divZero`; with IEEE numbers the program would go on with an infinity or NaN at that point, which the model does not follow."
  },
  {
   "property": "C82",
   "status": "proved",
   "theorems": [
    "Bezman.Props.C82_algo_diff_operators",
    "Bezman.Props.C82_algo_diff_value",
    "Bezman.Props.C82_embedding",
    "Bezman.Props.C82_evaluate",
    "Bezman.Props.C82_point_program",
    "Bezman.Props.C82_rational_evaluate",
    "Bezman.Props.C82_rational_point_program",
    "Bezman.Props.C82_rational_scalar_program",
    "Bezman.Props.C82_scalar_program"
   ],
   "note": "The model has one scalar type for parameters and control points. `Dual` models AlgoDiffType with a static number of derivatives as a plain number type; `C82_algo_diff_operators` ties it to the model of the operators (`ADT`) used by the AlgoDiff properties. Where the C++ division is undefined or by zero the tie makes no claim."
  },
  {
   "property": "C83",
   "status": "partial",
   "theorems": [
    "Bezman.Props.C83_derivatives",
    "Bezman.Props.C83_evaluate",
    "Bezman.Props.C83_point_derivatives",
    "Bezman.Props.C83_point_evaluate",
    "Bezman.Props.C83_point_program",
    "Bezman.Props.C83_rational_evaluate",
    "Bezman.Props.C83_rational_point_evaluate",
    "Bezman.Props.C83_rational_point_program_partial",
    "Bezman.Props.C83_rational_scalar_program_partial",
    "Bezman.Props.C83_rational_sum_fails",
    "Bezman.Props.C83_scalar_program"
   ],
   "note": "Proved in full for programs over polynomial splines, for all evaluators and for rational programs in which no sum or difference compares weight functions that are equal at x but not near x (`SumsAgree`). The full claim is false of the code: rational operator+ compares the values of AlgoDiffType weights only and then drops the derivatives of the second weight (`C83_rational_sum_fails`: derivative -2 in place of -1). Split planes of multi-splits must not be at 1 except the last (`SmoothPlanes`)."
  },
  {
   "property": "C84",
   "status": "proved",
   "theorems": [
    "Bezman.Props.C84_affine",
    "Bezman.Props.C84_affine_compose",
    "Bezman.Props.C84_affine_derivative",
    "Bezman.Props.C84_affine_elevate",
    "Bezman.Props.C84_affine_evaluate",
    "Bezman.Props.C84_affine_rational",
    "Bezman.Props.C84_affine_rational_construct",
    "Bezman.Props.C84_affine_rational_operations",
    "Bezman.Props.C84_affine_split",
    "Bezman.Props.C84_affine_split_many",
    "Bezman.Props.C84_linear_evaluate",
    "Bezman.Props.C84_linear_operations",
    "Bezman.Props.C84_linear_rational",
    "Bezman.Props.C84_linear_rational_evaluate",
    "Bezman.Props.C84_linear_rational_split_compose",
    "Bezman.Props.C84_linear_split_compose",
    "Bezman.Props.C84_product",
    "Bezman.Props.C84_rational_product"
   ],
   "note": "Linear maps: lockstep of the whole program in the original and in the mapped points, without laws of arithmetic. Affine maps: the function is mapped, then uniqueness of the control points; rational splines through homogeneous coordinates."
  },
  {
   "property": "C85",
   "status": "proved",
   "theorems": [
    "Bezman.Props.C85_construct",
    "Bezman.Props.C85_evaluate",
    "Bezman.Props.C85_every",
    "Bezman.Props.C85_operations",
    "Bezman.Props.C85_projective",
    "Bezman.Props.C85_rescale"
   ],
   "note": ""
  },
  {
   "property": "C86",
   "status": "proved",
   "theorems": [
    "Bezman.Props.C86_evaluate",
    "Bezman.Props.C86_point_program",
    "Bezman.Props.C86_rational_evaluate",
    "Bezman.Props.C86_rational_point_program",
    "Bezman.Props.C86_rational_scalar_program",
    "Bezman.Props.C86_scalar_program"
   ],
   "note": "A bound is meaningful (known) unless the computation divides by a number that may be zero within its own bound."
  },
  {
   "property": "C87",
   "status": "proved",
   "theorems": [
    "Bezman.Props.C87_affine",
    "Bezman.Props.C87_affine_points",
    "Bezman.Props.C87_compose",
    "Bezman.Props.C87_compose_error",
    "Bezman.Props.C87_compose_error_scalar",
    "Bezman.Props.C87_compose_function",
    "Bezman.Props.C87_compose_scalar",
    "Bezman.Props.C87_compose_throws",
    "Bezman.Props.C87_derive",
    "Bezman.Props.C87_derive_points",
    "Bezman.Props.C87_elevate",
    "Bezman.Props.C87_elevate_points",
    "Bezman.Props.C87_evaluate",
    "Bezman.Props.C87_evaluate_points",
    "Bezman.Props.C87_point_composed_function",
    "Bezman.Props.C87_point_composed_program",
    "Bezman.Props.C87_point_function",
    "Bezman.Props.C87_point_program",
    "Bezman.Props.C87_power",
    "Bezman.Props.C87_product",
    "Bezman.Props.C87_scalar_composed_function",
    "Bezman.Props.C87_scalar_composed_program",
    "Bezman.Props.C87_scalar_function",
    "Bezman.Props.C87_scalar_program",
    "Bezman.Props.C87_split",
    "Bezman.Props.C87_split_points",
    "Bezman.Props.C87_sum",
    "Bezman.Props.C87_sum_points"
   ],
   "note": "Compositions with an exact inner spline as single operations (sharp), with inexact inner splines and inside of programs with a factor for each outer degree. Splits at several positions at once are covered by C113 and by the computed bounds of C86."
  },
  {
   "property": "C88",
   "status": "partial",
   "theorems": [
    "Bezman.Props.C88_derivative_fails",
    "Bezman.Props.C88_derivative_zero",
    "Bezman.Props.C88_forward_error_partial",
    "Bezman.Props.C88_forward_fails",
    "Bezman.Props.C88_narrow",
    "Bezman.Props.C88_product",
    "Bezman.Props.C88_product_fails"
   ],
   "note": "False: scalar * point takes the scalar as a double (C88_forward_fails, C88_product_fails). Proved instead: the bound with 2048 more roundings (for 64 digits), the product is that of the converted control values, and nothing changes for double and float."
  },
  {
   "property": "C89",
   "status": "proved",
   "theorems": [
    "Bezman.Props.C89_deriv_across_fails",
    "Bezman.Props.C89_program",
    "Bezman.Props.C89_program_point",
    "Bezman.Props.C89_rational_program",
    "Bezman.Props.C89_rational_program_point",
    "Bezman.Props.C89_rational_sum_fails",
    "Bezman.Props.C89_rational_values",
    "Bezman.Props.C89_values"
   ],
   "note": "Both runs must return (a split position or an argument outside the unit cube throws). Differentiating or cutting across the face is excluded; C89_deriv_across_fails shows that this is needed for derivatives. For rational splines weighted control points and weights agree on the face (C89_rational_program, C89_rational_program_point), provided that every sum compares the weights of its summands with the same outcome in both runs; C89_rational_sum_fails shows that without this the sums need not even have the same degrees along the face."
  },
  {
   "property": "C90",
   "status": "proved",
   "theorems": [
    "Bezman.Props.C90_derivative",
    "Bezman.Props.C90_elevate",
    "Bezman.Props.C90_product",
    "Bezman.Props.C90_split"
   ],
   "note": "The formulas are Spec/ProductFormula, Spec/DerivFormula and Spec/Casteljau."
  },
  {
   "property": "C91",
   "status": "proved",
   "theorems": [
    "Bezman.Props.C91_add",
    "Bezman.Props.C91_sub"
   ],
   "note": "For other degrees operator- is wrong (C18)."
  },
  {
   "property": "C92",
   "status": "proved",
   "theorems": [
    "Bezman.Props.C92_closed",
    "Bezman.Props.C92_covers",
    "Bezman.Props.C92_half_turn",
    "Bezman.Props.C92_joined",
    "Bezman.Props.C92_ring"
   ],
   "note": "Exact sin, cos and acos for the geometric statements; the joint of neighbouring segments needs no property of them. Closing is proved with exact arithmetic (the double sin(2*PI) is not 0)."
  },
  {
   "property": "C93",
   "status": "proved",
   "theorems": [
    "Bezman.Props.C93_arms_meet",
    "Bezman.Props.C93_glued",
    "Bezman.Props.C93_microstructure",
    "Bezman.Props.C93_too_thick"
   ],
   "note": "The text of the example does not compile (missing header utils/export.hpp; std::vector without argument in line 125); it is modelled as if line 125 named std::vector<RationalBezier>. Arms of different segments meet exactly only in exact arithmetic."
  },
  {
   "property": "C94",
   "status": "proved",
   "theorems": [
    "Bezman.Props.C94_compose",
    "Bezman.Props.C94_fit",
    "Bezman.Props.C94_fit_scalar",
    "Bezman.Props.C94_fits_iff",
    "Bezman.Props.C94_too_large"
   ],
   "note": "Rounding to nearest with gradual underflow and unbounded exponents; no overflow, infinities or NaN. C94_too_large is the counterexample above the limit."
  },
  {
   "property": "C95",
   "status": "proved",
   "theorems": [
    "Bezman.Props.C95_box_fails",
    "Bezman.Props.C95_elevate",
    "Bezman.Props.C95_evaluate",
    "Bezman.Props.C95_evaluate_scalar",
    "Bezman.Props.C95_nested",
    "Bezman.Props.C95_split",
    "Bezman.Props.C95_split_many"
   ],
   "note": "Rounding to nearest with gradual underflow and unbounded exponents; no overflow, infinities or NaN. C95_box_fails: with double, the constant 5/4 is not reproduced, whatever the rule for ties."
  },
  {
   "property": "C96",
   "status": "proved",
   "theorems": [
    "Bezman.Props.C96_elevate",
    "Bezman.Props.C96_evaluate",
    "Bezman.Props.C96_evaluate_scalar",
    "Bezman.Props.C96_forward_fails",
    "Bezman.Props.C96_outside_fails",
    "Bezman.Props.C96_split",
    "Bezman.Props.C96_split_many"
   ],
   "note": "Model/Ieee.lean: one zero and one NaN. For double all operations are as modelled; for float `1. - t` is computed in double first, for long double `scalar * point` goes through double. C96_outside_fails and C96_forward_fails are the negations outside of the hypotheses."
  },
  {
   "property": "C97",
   "status": "proved",
   "theorems": [
    "Bezman.Props.C97_derivative",
    "Bezman.Props.C97_elevate",
    "Bezman.Props.C97_equality",
    "Bezman.Props.C97_equality_scalar",
    "Bezman.Props.C97_evaluate",
    "Bezman.Props.C97_forward",
    "Bezman.Props.C97_infinite_weight_masked",
    "Bezman.Props.C97_nan_evaluate",
    "Bezman.Props.C97_nan_unequal",
    "Bezman.Props.C97_parameter",
    "Bezman.Props.C97_product",
    "Bezman.Props.C97_rational_evaluate",
    "Bezman.Props.C97_rational_nan",
    "Bezman.Props.C97_rational_sign",
    "Bezman.Props.C97_rational_weight",
    "Bezman.Props.C97_split"
   ],
   "note": "Any rounding function. Splines without control points excluded (they are not reachable through the constructors)."
  },
  {
   "property": "C98",
   "status": "partial",
   "theorems": [
    "Bezman.Props.C98_fits_partial",
    "Bezman.Props.C98_nan_first_fails",
    "Bezman.Props.C98_reject_partial"
   ],
   "note": "C98_fits_partial says for every spline what the check returns; C98_reject_partial is the property for splines whose first control point is not NaN in the coordinate; C98_nan_first_fails refutes the general statement C98_Statement."
  },
  {
   "property": "C99",
   "status": "partial",
   "theorems": [
    "Bezman.Props.C99_compose_partial",
    "Bezman.Props.C99_constant_fails",
    "Bezman.Props.C99_fit_partial",
    "Bezman.Props.C99_huge_fails",
    "Bezman.Props.C99_tiny_fails"
   ],
   "note": "C99_fit_partial and C99_compose_partial: extents 0 or in the range, all coordinates at once. C99_constant_fails holds for every spline with a constant coordinate; C99_tiny_fails, C99_huge_fails are the other two cases; each contains the negation of C99_Statement."
  },
  {
   "property": "C100",
   "status": "proved",
   "theorems": [
    "Bezman.Props.C100_box",
    "Bezman.Props.C100_close",
    "Bezman.Props.C100_converges",
    "Bezman.Props.C100_diameter",
    "Bezman.Props.C100_lipschitz",
    "Bezman.Props.C100_part",
    "Bezman.Props.C100_steps"
   ],
   "note": "Exact arithmetic in an ordered field. C100_converges: for every spline such constants exist."
  },
  {
   "property": "C101",
   "status": "partial",
   "theorems": [
    "Bezman.Props.C101_assign_recovery",
    "Bezman.Props.C101_assign_runs",
    "Bezman.Props.C101_assign_states",
    "Bezman.Props.C101_combine_partial",
    "Bezman.Props.C101_combine_strong_partial",
    "Bezman.Props.C101_elevate_fails",
    "Bezman.Props.C101_elevate_states",
    "Bezman.Props.C101_interrupted",
    "Bezman.Props.C101_rational_add_fails",
    "Bezman.Props.C101_rational_add_partial",
    "Bezman.Props.C101_rational_add_states",
    "Bezman.Props.C101_rational_assign_states",
    "Bezman.Props.C101_rational_combine_strong_partial",
    "Bezman.Props.C101_rational_elevate_fails",
    "Bezman.Props.C101_rational_elevate_partial",
    "Bezman.Props.C101_rational_elevate_states",
    "Bezman.Props.C101_rational_runs",
    "Bezman.Props.C101_rational_strong_partial",
    "Bezman.Props.C101_rational_sub_partial",
    "Bezman.Props.C101_rational_sub_states",
    "Bezman.Props.C101_rational_update_degrees_states",
    "Bezman.Props.C101_recovery_partial",
    "Bezman.Props.C101_runs",
    "Bezman.Props.C101_strong_partial",
    "Bezman.Props.C101_update_degrees_states"
   ],
   "note": "False of the code as stated: C101_elevate_fails (every elevation can leave an object on which *= is undefined behaviour), C101_update_degrees_states, C101_assign_states, C101_rational_elevate_fails (degrees differ), C101_rational_add_fails (consistent, but another function). C101_runs and C101_rational_runs: the model with crash points behaves like the main model when memory suffices. The _partial theorems: the calls with the strong guarantee, the exact states left behind by the others, and recovery by UpdateDegrees. C101_rational_add_states, C101_rational_sub_states, C101_rational_elevate_states, C101_rational_assign_states and C101_rational_update_degrees_states list exactly the states in which the calls on rational splines leave the object."
  },
  {
   "property": "C102",
   "status": "proved",
   "theorems": [
    "Bezman.Props.C102_consistent",
    "Bezman.Props.C102_construct",
    "Bezman.Props.C102_moved_from",
    "Bezman.Props.C102_moved_from_update",
    "Bezman.Props.C102_moves",
    "Bezman.Props.C102_rational_moved_from",
    "Bezman.Props.C102_rational_moves",
    "Bezman.Props.C102_swap"
   ],
   "note": "Moving a variable to itself is excluded from programs: the standard leaves the vector unspecified. std::swap is modelled as in the standard library (construct a temporary, two move assignments)."
  },
  {
   "property": "C103",
   "status": "partial",
   "theorems": [
    "Bezman.Props.C103_calls",
    "Bezman.Props.C103_completes",
    "Bezman.Props.C103_constant_compose_fails",
    "Bezman.Props.C103_default_level_partial",
    "Bezman.Props.C103_library_message",
    "Bezman.Props.C103_log_file_fails",
    "Bezman.Props.C103_mixed_calls",
    "Bezman.Props.C103_mixed_num",
    "Bezman.Props.C103_mixed_ops_partial",
    "Bezman.Props.C103_mixed_poly",
    "Bezman.Props.C103_mixed_rat",
    "Bezman.Props.C103_mixed_silent_partial",
    "Bezman.Props.C103_mixed_types",
    "Bezman.Props.C103_more_calls",
    "Bezman.Props.C103_no_race_partial",
    "Bezman.Props.C103_one_thread",
    "Bezman.Props.C103_ops_partial",
    "Bezman.Props.C103_polite_partial",
    "Bezman.Props.C103_power_calls",
    "Bezman.Props.C103_power_fails",
    "Bezman.Props.C103_quiet_level_partial",
    "Bezman.Props.C103_rational_calls",
    "Bezman.Props.C103_rational_ops_partial",
    "Bezman.Props.C103_schedule_partial",
    "Bezman.Props.C103_set_level_fails",
    "Bezman.Props.C103_statement_fails",
    "Bezman.Props.C103_time_stamp_fails",
    "Bezman.Props.C103_torn_lines"
   ],
   "note": "False of the code as it stands: at the default output level two threads that run into TerminatingError and catch it race in std::localtime/std::asctime (C103_time_stamp_fails), and with a log file switched on even successful calls such as order elevation race for the stream (C103_log_file_fails). At the default level of a program with logging, successful calls of RaisePower(0) race for the clock too, because they report an error (C103_power_fails). SetOutputLevel is not protected (C103_set_level_fails). Proved where no message of a thread makes the logger use a file or the clock; in particular with time stamps and log files off, whatever fails, and at the default level if no message is an error, a warning or user information. Lines on the console can be torn (C103_torn_lines). The calls are built from the functions of Model/Messages.lean (C103_calls, C103_more_calls and C103_power_calls state their results and messages), and C103_ops_partial says that at the default level those of Op (RaisePower is not one of them) race only if a call throws. C103_rational_calls and C103_rational_ops_partial say the same for threads that use rational splines (Model/ThreadsRational.lean); Threads that use splines of points, splines of numbers and rational splines together, with the calls that lead from one type to another, are those of Model/ThreadsMixed.lean: C103_mixed_ops_partial, C103_mixed_calls, C103_mixed_types, and C103_mixed_poly/_num/_rat, which carry the statements about one type over. Composing a constant polynomial spline with a rational one races at the default level, because it reports an error (C103_constant_compose_fails). A spline object is one place of memory."
  },
  {
   "property": "C104",
   "status": "proved",
   "theorems": [
    "Bezman.Props.C104_cone",
    "Bezman.Props.C104_convex",
    "Bezman.Props.C104_derivative",
    "Bezman.Props.C104_increment",
    "Bezman.Props.C104_injective",
    "Bezman.Props.C104_mean_value",
    "Bezman.Props.C104_monotone",
    "Bezman.Props.C104_monotone_parts",
    "Bezman.Props.C104_not_necessary",
    "Bezman.Props.C104_parts",
    "Bezman.Props.C104_parts_cone",
    "Bezman.Props.C104_strict",
    "Bezman.Props.C104_strict_parts"
   ],
   "note": "Over any ordered field; convexity over the real numbers. The conditions are sufficient, not necessary (C104_not_necessary)."
  },
  {
   "property": "C105",
   "status": "proved",
   "theorems": [
    "Bezman.Props.C105_announced",
    "Bezman.Props.C105_announced_rational",
    "Bezman.Props.C105_climb_length",
    "Bezman.Props.C105_compose",
    "Bezman.Props.C105_compose_rational",
    "Bezman.Props.C105_compose_refused",
    "Bezman.Props.C105_default_console",
    "Bezman.Props.C105_derivative",
    "Bezman.Props.C105_derivative_rational",
    "Bezman.Props.C105_difference",
    "Bezman.Props.C105_difference_in_place",
    "Bezman.Props.C105_elevate",
    "Bezman.Props.C105_elevate_rational",
    "Bezman.Props.C105_power",
    "Bezman.Props.C105_quiet",
    "Bezman.Props.C105_quiet_kinds",
    "Bezman.Props.C105_refused",
    "Bezman.Props.C105_results",
    "Bezman.Props.C105_results_rational",
    "Bezman.Props.C105_split",
    "Bezman.Props.C105_split_many",
    "Bezman.Props.C105_split_rational",
    "Bezman.Props.C105_sum",
    "Bezman.Props.C105_sum_in_place",
    "Bezman.Props.C105_sums_rational",
    "Bezman.Props.C105_unit_cube"
   ],
   "note": "For any operations, so for floating point and derivative types too. The text of a position is a parameter (std::to_string). Transcripts of sums, derivatives and compositions are stated for calls that return; those of splits also for calls that throw. The message of Compose(std::vector) is not modelled, since that function cannot be instantiated."
  },
  {
   "property": "C106",
   "status": "proved",
   "theorems": [
    "Bezman.Props.C106_columns",
    "Bezman.Props.C106_columns_differ",
    "Bezman.Props.C106_default_ambiguous",
    "Bezman.Props.C106_derivatives_hidden",
    "Bezman.Props.C106_distinguishes",
    "Bezman.Props.C106_layout",
    "Bezman.Props.C106_no_coordinates",
    "Bezman.Props.C106_notation",
    "Bezman.Props.C106_number",
    "Bezman.Props.C106_number_exact",
    "Bezman.Props.C106_position",
    "Bezman.Props.C106_position_ambiguous",
    "Bezman.Props.C106_print",
    "Bezman.Props.C106_reads_back",
    "Bezman.Props.C106_sign",
    "Bezman.Props.C106_tie"
   ],
   "note": "The conversion of numbers (operator<< and std::to_string of the C++ standard library) is part of the model: exact value, correct rounding with halves to even. Infinities, NaN, negative zero and negative precisions are not covered. A point without coordinates is undefined behaviour (C106_no_coordinates)."
  },
  {
   "property": "C107",
   "status": "proved",
   "theorems": [
    "Bezman.Props.C107_affine",
    "Bezman.Props.C107_affine_points",
    "Bezman.Props.C107_contracted",
    "Bezman.Props.C107_derive",
    "Bezman.Props.C107_derive_points",
    "Bezman.Props.C107_elevate",
    "Bezman.Props.C107_elevate_points",
    "Bezman.Props.C107_evaluate",
    "Bezman.Props.C107_evaluate_points",
    "Bezman.Props.C107_fused_point",
    "Bezman.Props.C107_fused_scalar",
    "Bezman.Props.C107_one_arithmetic",
    "Bezman.Props.C107_point_program",
    "Bezman.Props.C107_power",
    "Bezman.Props.C107_product",
    "Bezman.Props.C107_scalar_program",
    "Bezman.Props.C107_split",
    "Bezman.Props.C107_split_points",
    "Bezman.Props.C107_sum",
    "Bezman.Props.C107_sum_points"
   ],
   "note": "No underflow and no overflow, as in C87. Compositions and splits at many planes are covered by C107_one_arithmetic but have no closed bound. An arithmetic that keeps the first of two added products exact stands for the compilers that contract (C107_fused_scalar, C107_fused_point); other choices are covered by the sets of possible results."
  },
  {
   "property": "C108",
   "status": "proved",
   "theorems": [
    "Bezman.Props.C108_convex",
    "Bezman.Props.C108_count",
    "Bezman.Props.C108_elevate",
    "Bezman.Props.C108_exact",
    "Bezman.Props.C108_float_points",
    "Bezman.Props.C108_floats",
    "Bezman.Props.C108_graph",
    "Bezman.Props.C108_history",
    "Bezman.Props.C108_monotone",
    "Bezman.Props.C108_rational_history",
    "Bezman.Props.C108_rational_values",
    "Bezman.Props.C108_rows",
    "Bezman.Props.C108_split",
    "Bezman.Props.C108_values"
   ],
   "note": "The values (C108_values, C108_rational_values, C108_graph, C108_monotone, C108_convex) are for exact arithmetic and curves; in floating-point arithmetic Evaluate need not be monotone. Elevations below 2^31 control points, as in C12."
  },
  {
   "property": "C109",
   "status": "proved",
   "theorems": [
    "Bezman.Props.C109_bends",
    "Bezman.Props.C109_close",
    "Bezman.Props.C109_converges",
    "Bezman.Props.C109_elevate",
    "Bezman.Props.C109_polygon",
    "Bezman.Props.C109_sharp"
   ],
   "note": "Exact arithmetic. Elevations below 2^31 control points, as in C12. C100 has the linear rate for all pairs of control points and parameters; this one has the quadratic rate for a control point and its own parameter."
  },
  {
   "property": "C110",
   "status": "proved",
   "theorems": [
    "Bezman.Props.C110_box",
    "Bezman.Props.C110_close",
    "Bezman.Props.C110_converges",
    "Bezman.Props.C110_diameter",
    "Bezman.Props.C110_hull",
    "Bezman.Props.C110_lipschitz",
    "Bezman.Props.C110_near",
    "Bezman.Props.C110_part"
   ],
   "note": "Exact arithmetic. Elevations below 2^31 control points, as in C12."
  },
  {
   "property": "C111",
   "status": "proved",
   "theorems": [
    "Bezman.Props.C111_add",
    "Bezman.Props.C111_compose_inner",
    "Bezman.Props.C111_compose_outer",
    "Bezman.Props.C111_derivative",
    "Bezman.Props.C111_evaluate",
    "Bezman.Props.C111_history",
    "Bezman.Props.C111_mul",
    "Bezman.Props.C111_power",
    "Bezman.Props.C111_rational_evaluate",
    "Bezman.Props.C111_rational_history",
    "Bezman.Props.C111_same",
    "Bezman.Props.C111_sub"
   ],
   "note": "Exact arithmetic: the claim is about the inputs; rounding inside the operations is bounded in C64, C66, C69, C70, C87 and C114. Elevations below 2^31 control points, as in C12."
  },
  {
   "property": "C112",
   "status": "proved",
   "theorems": [
    "Bezman.Props.C112_corner",
    "Bezman.Props.C112_corner_order",
    "Bezman.Props.C112_corner_twist",
    "Bezman.Props.C112_derivative_spline",
    "Bezman.Props.C112_joint",
    "Bezman.Props.C112_part",
    "Bezman.Props.C112_rational_corner",
    "Bezman.Props.C112_rational_joint",
    "Bezman.Props.C112_rational_part"
   ],
   "note": "Over the reals. Degrees below the limit of the table of binomial coefficients."
  },
  {
   "property": "C113",
   "status": "partial",
   "theorems": [
    "Bezman.Props.C113_chain",
    "Bezman.Props.C113_error",
    "Bezman.Props.C113_error_points",
    "Bezman.Props.C113_exact",
    "Bezman.Props.C113_fails",
    "Bezman.Props.C113_narrow",
    "Bezman.Props.C113_plain",
    "Bezman.Props.C113_rational_chain",
    "Bezman.Props.C113_rational_error",
    "Bezman.Props.C113_rational_exact",
    "Bezman.Props.C113_rational_returns_iff",
    "Bezman.Props.C113_returns_iff",
    "Bezman.Props.C113_returns_partial",
    "Bezman.Props.C113_wide_fails"
   ],
   "note": "False for double: in the default rounding mode of IEEE 754 the positions 3*2^-54 and 1-2^-53 throw for every spline, because the second one's position in what is left over rounds to 1 (C113_fails); for long double so do 1/4 and 1-2^-60, because that position is converted to double (C113_wide_fails). Proved: exactly which positions return (C113_returns_iff), a simple sufficient condition that leaves out only the largest number below 1 after a position below one half (C113_returns_partial), that float never fails (C113_narrow), and the error bounds. The error bounds assume no underflow; they are for polynomial splines and for rational splines with positive weights."
  },
  {
   "property": "C114",
   "status": "proved",
   "theorems": [
    "Bezman.Props.C114_affine",
    "Bezman.Props.C114_compose",
    "Bezman.Props.C114_compose_scalar",
    "Bezman.Props.C114_construct",
    "Bezman.Props.C114_control_point",
    "Bezman.Props.C114_elevate",
    "Bezman.Props.C114_evaluate",
    "Bezman.Props.C114_evaluate_scalar",
    "Bezman.Props.C114_history",
    "Bezman.Props.C114_microstructure",
    "Bezman.Props.C114_product",
    "Bezman.Props.C114_same_weights",
    "Bezman.Props.C114_split",
    "Bezman.Props.C114_step",
    "Bezman.Props.C114_stored",
    "Bezman.Props.C114_stored_scalar",
    "Bezman.Props.C114_sum",
    "Bezman.Props.C114_value",
    "Bezman.Props.C114_weights_positive"
   ],
   "note": "The arithmetic is one with relative errors only: overflow and underflow are left out, as in C70 and C87. The positions of splits are those given as floating-point numbers. Sums and differences of two rational splines: if both runs find the weights to be the same, or both different, which is so for splines as they are stored (C114_same_weights). Compositions are those of a rational spline with a polynomial inner spline given by floating-point numbers in the unit cube; derivatives and rational inner splines are not included."
  },
  {
   "property": "C115",
   "status": "proved",
   "theorems": [
    "Bezman.Props.C115_base64",
    "Bezman.Props.C115_base64_points",
    "Bezman.Props.C115_bernstein_derivative",
    "Bezman.Props.C115_beyond_table",
    "Bezman.Props.C115_constructor",
    "Bezman.Props.C115_constructor_forward",
    "Bezman.Props.C115_dual_sum",
    "Bezman.Props.C115_evaluations",
    "Bezman.Props.C115_no_assertion_base64",
    "Bezman.Props.C115_no_assertion_construction",
    "Bezman.Props.C115_no_assertion_dual",
    "Bezman.Props.C115_no_assertion_evaluation",
    "Bezman.Props.C115_no_assertion_operation",
    "Bezman.Props.C115_no_assertion_program",
    "Bezman.Props.C115_no_assertion_rational_evaluation",
    "Bezman.Props.C115_no_assertion_rational_operation",
    "Bezman.Props.C115_no_assertion_rational_program",
    "Bezman.Props.C115_operations",
    "Bezman.Props.C115_point_program",
    "Bezman.Props.C115_products",
    "Bezman.Props.C115_rational_beyond_table",
    "Bezman.Props.C115_rational_constructor",
    "Bezman.Props.C115_rational_derivative",
    "Bezman.Props.C115_rational_evaluations",
    "Bezman.Props.C115_rational_inner",
    "Bezman.Props.C115_rational_operations",
    "Bezman.Props.C115_rational_point_program",
    "Bezman.Props.C115_rational_scalar_program",
    "Bezman.Props.C115_rational_sensitivity",
    "Bezman.Props.C115_returns",
    "Bezman.Props.C115_scalar_program",
    "Bezman.Props.C115_table",
    "Bezman.Props.C115_utilities",
    "Bezman.Props.C115_wellshaped_program",
    "Bezman.Props.C115_wellshaped_rational_program"
   ],
   "note": "The release model is the debug model with the build as a parameter of every `assert` and of every function that reaches one; it is proved equal to the debug model when the parameter is debug. 'Never returns more than the debug build' is stated call by call, for consistent splines; for derivatives of rational splines in directions of degree at least one. The theorems `C115_no_assertion_*` show for every function that no assertion fails in a release build; for dual numbers they assume that the operations of the scalar type contain none. The index into the table of binomial coefficients is taken not to wrap around in unsigned int, which needs degrees of at least 2^16."
  },
  {
   "property": "C116",
   "status": "proved",
   "theorems": [
    "Bezman.Props.C116_change",
    "Bezman.Props.C116_history",
    "Bezman.Props.C116_rational_change",
    "Bezman.Props.C116_rational_evaluate",
    "Bezman.Props.C116_rational_history"
   ],
   "note": "Exact arithmetic in a field. The relation between a call and the functions before and after it is a table in Spec/Changes.lean which does not mention the code. FitIntoUnitCube needs positive extent in every coordinate (C24)."
  },
  {
   "property": "C117",
   "status": "partial",
   "theorems": [
    "Bezman.Props.C117_elevate_fails",
    "Bezman.Props.C117_evaluate_zero",
    "Bezman.Props.C117_fails",
    "Bezman.Props.C117_positive_degrees_partial",
    "Bezman.Props.C117_returns_iff"
   ],
   "note": "False as stated: C117_fails shows that the call is undefined behaviour (integer division by zero in OrderElevateAlongParametricDimension) whenever a direction of degree zero is differentiated, in any arithmetic; C117_returns_iff that these are exactly the calls that do not return. C117_positive_degrees_partial: with positive degrees the model with wrap-around agrees with the one of C41, which says what is computed. C117_evaluate_zero: the pointwise interface returns zero. C117_elevate_fails: the same division for a polynomial spline. Missing (false): a returned zero spline."
  },
  {
   "property": "C118",
   "status": "proved",
   "theorems": [
    "Bezman.Props.C118_chain_rule",
    "Bezman.Props.C118_rational",
    "Bezman.Props.C118_rational_inner",
    "Bezman.Props.C118_rational_outer"
   ],
   "note": "C118_chain_rule (polynomial, polynomial), C118_rational_inner, C118_rational_outer and C118_rational, from the definition of the derivative as a limit: the derivatives returned by the calls are the derivatives of the functions returned by the evaluations, not formulas for control points. The derivatives of the composition are those of the spline that Compose returns."
  },
  {
   "property": "C119",
   "status": "proved",
   "theorems": [
    "Bezman.Props.C119_add",
    "Bezman.Props.C119_add_assign",
    "Bezman.Props.C119_add_degrees",
    "Bezman.Props.C119_add_point",
    "Bezman.Props.C119_box",
    "Bezman.Props.C119_compose_inner",
    "Bezman.Props.C119_compose_outer",
    "Bezman.Props.C119_compose_rational_inner",
    "Bezman.Props.C119_compose_rational_outer",
    "Bezman.Props.C119_derivative_spline",
    "Bezman.Props.C119_elevate",
    "Bezman.Props.C119_evaluate",
    "Bezman.Props.C119_evaluate_derivative",
    "Bezman.Props.C119_forward_evaluate",
    "Bezman.Props.C119_mul",
    "Bezman.Props.C119_neg",
    "Bezman.Props.C119_scale",
    "Bezman.Props.C119_sensitivity_outer",
    "Bezman.Props.C119_sensitivity_rational_outer",
    "Bezman.Props.C119_split",
    "Bezman.Props.C119_split_many",
    "Bezman.Props.C119_sub",
    "Bezman.Props.C119_sub_assign",
    "Bezman.Props.C119_sub_point"
   ],
   "note": "C119_evaluate, _forward_evaluate, _evaluate_derivative, _scale, _add_point, _sub_point, _neg, _elevate, _split, _split_many, _box, _add, _sub, _add_assign, _sub_assign, _mul, _compose_outer, _compose_inner, _compose_rational_outer, _compose_rational_inner, _sensitivity_outer, _sensitivity_rational_outer: equality of the returned objects. C119_add_degrees and C119_derivative_spline: the same functions of larger degrees."
  },
  {
   "property": "C120",
   "status": "proved",
   "theorems": [
    "Bezman.Props.C120_add",
    "Bezman.Props.C120_box",
    "Bezman.Props.C120_compose_inner",
    "Bezman.Props.C120_compose_outer",
    "Bezman.Props.C120_compose_rational",
    "Bezman.Props.C120_derivative_spline",
    "Bezman.Props.C120_determined",
    "Bezman.Props.C120_elevate",
    "Bezman.Props.C120_equal",
    "Bezman.Props.C120_evaluate",
    "Bezman.Props.C120_evaluate_derivative",
    "Bezman.Props.C120_exchange_add",
    "Bezman.Props.C120_exchange_box",
    "Bezman.Props.C120_exchange_compose_inner",
    "Bezman.Props.C120_exchange_compose_rational",
    "Bezman.Props.C120_exchange_derivative_spline",
    "Bezman.Props.C120_exchange_elevate",
    "Bezman.Props.C120_exchange_equal",
    "Bezman.Props.C120_exchange_evaluate",
    "Bezman.Props.C120_exchange_evaluate_derivative",
    "Bezman.Props.C120_exchange_mul",
    "Bezman.Props.C120_exchange_power",
    "Bezman.Props.C120_exchange_rational_add",
    "Bezman.Props.C120_exchange_rational_box",
    "Bezman.Props.C120_exchange_rational_compose_inner",
    "Bezman.Props.C120_exchange_rational_compose_rational",
    "Bezman.Props.C120_exchange_rational_elevate",
    "Bezman.Props.C120_exchange_rational_evaluate",
    "Bezman.Props.C120_exchange_rational_evaluate_derivative",
    "Bezman.Props.C120_exchange_rational_mul",
    "Bezman.Props.C120_exchange_rational_points",
    "Bezman.Props.C120_exchange_rational_split",
    "Bezman.Props.C120_exchange_split",
    "Bezman.Props.C120_exchange_symm",
    "Bezman.Props.C120_exchange_unique",
    "Bezman.Props.C120_exists",
    "Bezman.Props.C120_mul",
    "Bezman.Props.C120_power",
    "Bezman.Props.C120_rational_add",
    "Bezman.Props.C120_rational_box",
    "Bezman.Props.C120_rational_compose_inner",
    "Bezman.Props.C120_rational_compose_rational",
    "Bezman.Props.C120_rational_elevate",
    "Bezman.Props.C120_rational_evaluate",
    "Bezman.Props.C120_rational_evaluate_derivative",
    "Bezman.Props.C120_rational_mul",
    "Bezman.Props.C120_rational_points",
    "Bezman.Props.C120_rational_split_other",
    "Bezman.Props.C120_rational_split_reversed",
    "Bezman.Props.C120_scale",
    "Bezman.Props.C120_split_other",
    "Bezman.Props.C120_split_reversed",
    "Bezman.Props.C120_sub_assign",
    "Bezman.Props.C120_symm",
    "Bezman.Props.C120_twice",
    "Bezman.Props.C120_unique"
   ],
   "note": "C120_evaluate, _determined, _exists, _twice, _symm, _unique, _equal, _elevate, _split_reversed, _split_other, _add, _sub_assign, _mul, _scale, _power, _box, _compose_inner, _compose_outer, _evaluate_derivative, _derivative_spline: reversed dimensions. C120_exchange_*: exchanged dimensions. C120_rational_*, C120_exchange_rational_*, C120_compose_rational, C120_exchange_compose_rational: rational splines. The mixed derivatives of a rational spline do not depend on the order of the dimensions."
  },
  {
   "property": "C121",
   "status": "proved",
   "theorems": [
    "Bezman.Props.C121_add_assoc",
    "Bezman.Props.C121_add_assoc_fails",
    "Bezman.Props.C121_add_assoc_values",
    "Bezman.Props.C121_add_comm",
    "Bezman.Props.C121_compose_assoc",
    "Bezman.Props.C121_compose_assoc_both",
    "Bezman.Props.C121_compose_assoc_inner",
    "Bezman.Props.C121_compose_mul",
    "Bezman.Props.C121_compose_unit_weights",
    "Bezman.Props.C121_distrib",
    "Bezman.Props.C121_elevate_elevate",
    "Bezman.Props.C121_elevate_split",
    "Bezman.Props.C121_mul_assoc",
    "Bezman.Props.C121_mul_comm",
    "Bezman.Props.C121_scale_add",
    "Bezman.Props.C121_shift_add",
    "Bezman.Props.C121_shift_shift",
    "Bezman.Props.C121_split_add",
    "Bezman.Props.C121_split_compose",
    "Bezman.Props.C121_split_compose_both",
    "Bezman.Props.C121_split_compose_inner",
    "Bezman.Props.C121_split_mul",
    "Bezman.Props.C121_sub_neg"
   ],
   "note": "C121_add_comm, _add_assoc (shared weights), _add_assoc_values (any weights), _add_assoc_fails (witness), _sub_neg, _scale_add, _shift_shift, _shift_add, _mul_comm, _mul_assoc, _distrib, _elevate_elevate, _elevate_split, _split_add, _split_mul, _split_compose, _compose_assoc, _compose_mul; with rational inner splines: _split_compose_inner, _split_compose_both, _compose_assoc_inner, _compose_assoc_both, _compose_unit_weights."
  },
  {
   "property": "C122",
   "status": "proved",
   "theorems": [
    "Bezman.Props.C122_cancel",
    "Bezman.Props.C122_derivative",
    "Bezman.Props.C122_difference",
    "Bezman.Props.C122_elevate",
    "Bezman.Props.C122_needed",
    "Bezman.Props.C122_power",
    "Bezman.Props.C122_power_odd",
    "Bezman.Props.C122_rational_difference",
    "Bezman.Props.C122_rational_elevate",
    "Bezman.Props.C122_split",
    "Bezman.Props.C122_zero_product"
   ],
   "note": "C122_zero_product, _cancel, _elevate, _rational_elevate, _split, _power_odd, _power, _derivative, _difference, _rational_difference, _needed (the zeroth power and the zero factor)."
  },
  {
   "property": "C123",
   "status": "proved",
   "theorems": [
    "Bezman.Props.C123_add_zero",
    "Bezman.Props.C123_compose_constant",
    "Bezman.Props.C123_compose_identity",
    "Bezman.Props.C123_compose_unit_line",
    "Bezman.Props.C123_constant",
    "Bezman.Props.C123_mul_one",
    "Bezman.Props.C123_mul_one_elevates",
    "Bezman.Props.C123_power",
    "Bezman.Props.C123_rational_add_zero",
    "Bezman.Props.C123_rational_compose_identity",
    "Bezman.Props.C123_rational_mul_one"
   ],
   "note": "C123_constant, _mul_one, _mul_one_elevates, _add_zero, _power, _rational_mul_one, _rational_add_zero, _compose_identity, _rational_compose_identity, _compose_unit_line, _compose_constant."
  },
  {
   "property": "C124",
   "status": "proved",
   "theorems": [
    "Bezman.Props.C124_composition",
    "Bezman.Props.C124_composition_rational",
    "Bezman.Props.C124_exchanged",
    "Bezman.Props.C124_exchanged_rational",
    "Bezman.Props.C124_moved",
    "Bezman.Props.C124_moved_rational",
    "Bezman.Props.C124_partition",
    "Bezman.Props.C124_partition_rational",
    "Bezman.Props.C124_points",
    "Bezman.Props.C124_points_rational",
    "Bezman.Props.C124_rational_composition",
    "Bezman.Props.C124_rational_composition_rational",
    "Bezman.Props.C124_rational_exchanged",
    "Bezman.Props.C124_rational_exchanged_rational",
    "Bezman.Props.C124_rational_moved",
    "Bezman.Props.C124_rational_moved_rational",
    "Bezman.Props.C124_rational_partition",
    "Bezman.Props.C124_rational_partition_rational",
    "Bezman.Props.C124_rational_points",
    "Bezman.Props.C124_rational_points_rational",
    "Bezman.Props.C124_rational_reversed",
    "Bezman.Props.C124_rational_reversed_rational",
    "Bezman.Props.C124_rational_split",
    "Bezman.Props.C124_rational_split_rational",
    "Bezman.Props.C124_reversed",
    "Bezman.Props.C124_reversed_rational",
    "Bezman.Props.C124_split",
    "Bezman.Props.C124_split_rational"
   ],
   "note": "C124_composition, _points, _partition, _split, _reversed, _exchanged, _composition_rational, _split_rational, _rational_composition, _rational_composition_rational, _points_rational, _rational_points, _rational_points_rational, _moved, _rational_moved, _moved_rational, _rational_moved_rational, _rational_split, _rational_split_rational, _rational_reversed, _reversed_rational, _rational_reversed_rational, _rational_exchanged, _exchanged_rational, _rational_exchanged_rational, _rational_partition, _rational_partition_rational, _partition_rational."
  }
 ]
}