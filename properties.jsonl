{"id": "C01", "title": "Binomial lookup is exact", "statement": "FastBinomialCoefficient::choose(n,i) returns the binomial coefficient C(n,i) for every n below MAX_BINOMIAL_DEGREE and every i<=n, for every setting of MAX_BINOMIAL_DEGREE up to 68 (64-bit table entries never wrap there); it never reads outside the table for those arguments, and n>=MAX_BINOMIAL_DEGREE trips the assertion.", "quantifier": "all table sizes MAX<=68, all n<MAX, all i<=n", "why_tests_cant": "MAX_BINOMIAL_DEGREE is a build-time knob; each build has its own table and a test sees one of them", "anchors": ["src/utils/binomialcoefficientlookuptablecreator.hpp:BinomialCoefficientLookupTableCreator", "src/utils/fastbinomialcoefficient.hpp:FastBinomialCoefficient::choose"]}
{"id": "C02", "title": "Bernstein basis evaluation", "statement": "BernsteinPolynomial::Evaluate(p,t) returns exactly p+1 values and the i-th one is C(p,i) t^i (1-t)^(p-i).", "quantifier": "all degrees p<MAX_BINOMIAL_DEGREE, all parameters t (also outside [0,1])", "why_tests_cant": "the set of degrees, dimensions, control points and parameters is infinite; a test fixes a handful of them", "anchors": ["src/utils/algorithms/bernstein_polynomial.hpp:BernsteinPolynomial::Evaluate"]}
{"id": "C03", "title": "Basis functions are a non-negative partition of unity", "statement": "The values returned by BezierSpline::BasisFunctions(t) sum to one for every t, and are all non-negative when t lies in the unit cube.", "quantifier": "all parametric dimensions, all degrees, all parameters", "why_tests_cant": "the set of degrees, dimensions, control points and parameters is infinite; a test fixes a handful of them", "anchors": ["src/bezier_spline.inc:BezierSpline::BasisFunctions", "src/utils/algorithms/recursive_combine.hpp:RecursiveCombine"]}
{"id": "C04", "title": "Bernstein derivatives", "statement": "BernsteinPolynomial::EvaluateDerivative(p,t,k) returns the k-th derivatives of the p+1 Bernstein polynomials at t, and zeros when k>p.", "quantifier": "all degrees, all derivative orders k>=0, all real t", "why_tests_cant": "the claim is about derivatives of all orders at every real parameter", "anchors": ["src/utils/algorithms/bernstein_polynomial.hpp:BernsteinPolynomial::EvaluateDerivative"]}
{"id": "C05", "title": "Index conversions are inverse bijections", "statement": "LocalToGlobalIndex and GlobalToLocalIndex of a spline are mutually inverse bijections between 0..GetNumberOfControlPoints()-1 and the multi-indices bounded by the degrees, the first parametric dimension running fastest; no division by zero occurs.", "quantifier": "all parametric dimensions >=1, all degrees, all indices in range", "why_tests_cant": "the set of degrees, dimensions, control points and parameters is infinite; a test fixes a handful of them", "anchors": ["src/bezier_spline.inc:BezierSpline::LocalToGlobalIndex", "src/bezier_spline.inc:BezierSpline::GlobalToLocalIndex", "src/bezier_spline.inc:BezierSpline::UpdateIndexOffsets_"]}
{"id": "C06", "title": "Control net bookkeeping invariant", "statement": "Starting from a constructed spline, after any sequence of public mutators (UpdateDegrees, OrderElevateAlongParametricDimension, *=, +=, -=, TransposeAndScale, writes to control points) GetNumberOfControlPoints() equals the product of (degree+1), the control point vector has that length and the index offsets are the running products.", "quantifier": "all histories of public operations starting from a constructor", "why_tests_cant": "histories are unbounded", "anchors": ["src/bezier_spline.hpp:BezierSpline::BezierSpline", "src/bezier_spline.hpp:BezierSpline::UpdateDegrees", "src/bezier_spline.inc:BezierSpline::OrderElevateAlongParametricDimension", "src/bezier_spline.inc:BezierSpline::UpdateIndexOffsets_"]}
{"id": "C07", "title": "Evaluate computes the Bezier function", "statement": "Evaluate(t) (in-place de Casteljau over the flattened control net) returns sum over multi-indices of prod_d B_{i_d,p_d}(t_d) times the control point, never accesses out of range and does not change the spline.", "quantifier": "all parametric dimensions, degrees, control points and parameters", "why_tests_cant": "the set of degrees, dimensions, control points and parameters is infinite; a test fixes a handful of them", "anchors": ["src/bezier_spline.inc:BezierSpline::Evaluate"]}
{"id": "C08", "title": "ForwardEvaluate agrees with Evaluate", "statement": "For polynomial splines ForwardEvaluate(t) and Evaluate(t) return the same point.", "quantifier": "all splines, all parameters", "why_tests_cant": "the set of degrees, dimensions, control points and parameters is infinite; a test fixes a handful of them", "anchors": ["src/bezier_spline.inc:BezierSpline::ForwardEvaluate", "src/bezier_spline.inc:BezierSpline::Evaluate"]}
{"id": "C09", "title": "BasisFunctions match the control point order", "statement": "BasisFunctions(t) has GetNumberOfControlPoints() entries and entry GlobalToLocalIndex(i) is prod_d B_{i_d,p_d}(t_d), so that the weighted sum of control_points with these entries is Evaluate(t).", "quantifier": "all splines, all parameters", "why_tests_cant": "the set of degrees, dimensions, control points and parameters is infinite; a test fixes a handful of them", "anchors": ["src/bezier_spline.inc:BezierSpline::BasisFunctions", "src/bezier_spline.inc:BezierSpline::BasisFunctionContributions", "src/utils/algorithms/recursive_combine.hpp:RecursiveCombine"]}
{"id": "C10", "title": "Corner interpolation", "statement": "Evaluating at a corner of the parametric unit cube returns the control point of that corner.", "quantifier": "all splines, all 2^d corners", "why_tests_cant": "the set of degrees, dimensions, control points and parameters is infinite; a test fixes a handful of them", "anchors": ["src/bezier_spline.inc:BezierSpline::Evaluate", "src/bezier_spline.inc:BezierSpline::ControlPoint"]}
{"id": "C11", "title": "Bounding box contains the image", "statement": "For t in the unit cube every coordinate of Evaluate(t) lies between MinimumCorner() and MaximumCorner(); each bound is attained by some control point.", "quantifier": "all non-empty splines into ordered fields, all t in the unit cube", "why_tests_cant": "the set of degrees, dimensions, control points and parameters is infinite; a test fixes a handful of them", "anchors": ["src/bezier_spline.inc:BezierSpline::MinimumCorner", "src/bezier_spline.inc:BezierSpline::MaximumCorner"]}
{"id": "C12", "title": "Order elevation preserves the function", "statement": "OrderElevateAlongParametricDimension(d) raises degree d by one, leaves the other degrees, keeps the bookkeeping invariant, and does not change the value of Evaluate at any parameter; the in-place back-to-front update never reads an entry it has already overwritten nor out of range.", "quantifier": "all splines, all dimensions d, any number of elevations, all parameters", "why_tests_cant": "the set of degrees, dimensions, control points and parameters is infinite; a test fixes a handful of them", "anchors": ["src/bezier_spline.inc:BezierSpline::OrderElevateAlongParametricDimension"]}
{"id": "C13", "title": "Derivative spline", "statement": "DerivativeWRTParametricDimension(k) for k_d<=degree_d returns a spline of degrees p_d-k_d whose Evaluate is the mixed partial derivative of order k of Evaluate of the original.", "quantifier": "all real splines, all orders k with k_d<=p_d, all parameters", "why_tests_cant": "all orders, degrees, dimensions and parameters", "anchors": ["src/bezier_spline.inc:BezierSpline::DerivativeWRTParametricDimension"]}
{"id": "C14", "title": "EvaluateDerivative", "statement": "EvaluateDerivative(t,k) returns the mixed partial derivative of order k of Evaluate at t, for every k, including k_d>degree_d where it is zero.", "quantifier": "all real splines, all orders, all parameters", "why_tests_cant": "all orders, degrees, dimensions and parameters", "anchors": ["src/bezier_spline.inc:BezierSpline::EvaluateDerivative", "src/bezier_spline.inc:BezierSpline::BasisFunctionsDerivatives", "src/bezier_spline.inc:BezierSpline::BasisFunctionsDerivativeContributions"]}
{"id": "C15", "title": "Derivative spline for orders above the degree", "statement": "DerivativeWRTParametricDimension(k) with some k_d>degree_d yields a spline that evaluates to zero (as EvaluateDerivative does). [Expected to fail: the degree subtraction wraps around.]", "quantifier": "all splines and all orders exceeding a degree", "why_tests_cant": "no test exercises it, and the claim ranges over all such calls", "anchors": ["src/bezier_spline.inc:BezierSpline::DerivativeWRTParametricDimension"]}
{"id": "C16", "title": "operator+ adds functions", "statement": "a+b has in each dimension the larger of the two degrees and evaluates to the sum of the two values at every parameter; the call terminates and leaves both operands unchanged.", "quantifier": "all pairs of splines of equal parametric dimension, all parameters", "why_tests_cant": "the set of degrees, dimensions, control points and parameters is infinite; a test fixes a handful of them", "anchors": ["src/bezier_spline.inc:BezierSpline::operator+"]}
{"id": "C17", "title": "operator+= adds functions", "statement": "a+=b leaves a with the larger degree in each dimension and with the sum of the two functions; it agrees with a+b.", "quantifier": "all pairs of splines, all parameters", "why_tests_cant": "the set of degrees, dimensions, control points and parameters is infinite; a test fixes a handful of them", "anchors": ["src/bezier_spline.inc:BezierSpline::operator+="]}
{"id": "C18", "title": "operator- subtracts functions", "statement": "a-b terminates, has the larger of the two degrees and evaluates to the difference of the values at every parameter. [Expected to fail when b has a larger degree: the elevation loop never re-reads the elevated degree.]", "quantifier": "all pairs of splines of equal parametric dimension", "why_tests_cant": "non-termination cannot be observed by a finite test", "anchors": ["src/bezier_spline.inc:BezierSpline::operator-"]}
{"id": "C19", "title": "operator-= subtracts functions", "statement": "a-=b leaves a with the larger degree in each dimension and with the difference of the two functions.", "quantifier": "all pairs of splines, all parameters", "why_tests_cant": "the set of degrees, dimensions, control points and parameters is infinite; a test fixes a handful of them", "anchors": ["src/bezier_spline.inc:BezierSpline::operator-="]}
{"id": "C20", "title": "Scaling, shifting and negation act pointwise", "statement": "a*c, c*a, a*=c, a+P, a-P, a+=P, a-=P, P+a, P-a and -a evaluate to the corresponding pointwise expression and keep degrees.", "quantifier": "all splines, scalars, points, parameters", "why_tests_cant": "the set of degrees, dimensions, control points and parameters is infinite; a test fixes a handful of them", "anchors": ["src/bezier_spline.inc:BezierSpline::operator*=", "src/bezier_spline.inc:BezierSpline::operator+=", "src/bezier_spline.inc:BezierSpline::operator-", "src/bezier_spline.hpp:BezierSpline friend operators"]}
{"id": "C21", "title": "Product of splines", "statement": "a*b (scalar times scalar, scalar times point, point times point as dot product) has the summed degrees and evaluates to the product of the values at every parameter, as long as the summed degrees are below MAX_BINOMIAL_DEGREE; binomial lookups and control point accesses stay in range.", "quantifier": "all pairs of splines, all bilinear products, all parameters", "why_tests_cant": "the set of degrees, dimensions, control points and parameters is infinite; a test fixes a handful of them", "anchors": ["src/bezier_spline.inc:BezierSpline::operator*", "src/bezier_spline.inc:BezierSpline::CombineControlPointsForProduct_"]}
{"id": "C22", "title": "RaisePower", "statement": "RaisePower(n) of a scalar spline has degrees n*p and evaluates to the n-th power of the value; n=0 gives the constant one.", "quantifier": "all scalar splines, all n>=0 with n*p<MAX_BINOMIAL_DEGREE, all parameters", "why_tests_cant": "the set of degrees, dimensions, control points and parameters is infinite; a test fixes a handful of them", "anchors": ["src/bezier_spline.inc:BezierSpline::RaisePower"]}
{"id": "C23", "title": "ExtractDimension", "statement": "ExtractDimension(d) evaluates to the d-th coordinate of Evaluate.", "quantifier": "all splines, all coordinates, all parameters", "why_tests_cant": "the set of degrees, dimensions, control points and parameters is infinite; a test fixes a handful of them", "anchors": ["src/bezier_spline.inc:BezierSpline::ExtractDimension"]}
{"id": "C24", "title": "Affine remapping and FitIntoUnitCube", "statement": "TransposeAndScale(v,s) maps every value x to (x+v)*s componentwise; FitIntoUnitCube() of a spline with positive extent in every coordinate yields a spline for which FitsIntoUnitCube() holds and whose bounding box is exactly [0,1] in every coordinate.", "quantifier": "all splines with positive extent in every coordinate", "why_tests_cant": "the set of degrees, dimensions, control points and parameters is infinite; a test fixes a handful of them", "anchors": ["src/bezier_spline.inc:BezierSpline::TransposeAndScale", "src/bezier_spline.inc:BezierSpline::FitIntoUnitCube", "src/bezier_spline.inc:BezierSpline::FitsIntoUnitCube"]}
{"id": "C25", "title": "FitsIntoUnitCube is sound", "statement": "FitsIntoUnitCube() returns true exactly when every coordinate of every control point is in [0,1]; when it returns true every value on the unit cube stays in the unit cube.", "quantifier": "all splines, all parameters in the unit cube", "why_tests_cant": "the set of degrees, dimensions, control points and parameters is infinite; a test fixes a handful of them", "anchors": ["src/bezier_spline.inc:BezierSpline::FitsIntoUnitCube"]}
{"id": "C26", "title": "Composition polynomial in polynomial", "statement": "outer.Compose(inner) evaluates at every t to outer evaluated at inner(t), with degrees inner_degree*sum(outer_degrees); it raises an error when inner leaves the unit cube by its control points.", "quantifier": "all outer and inner splines of matching dimension, all parameters", "why_tests_cant": "the set of degrees, dimensions, control points and parameters is infinite; a test fixes a handful of them", "anchors": ["src/bezier_spline.inc:BezierSpline::Compose", "src/bezier_spline.inc:BezierSpline::ComposeNumeratorHelper"]}
{"id": "C27", "title": "Composition sensitivities", "statement": "ComposeSensitivity(inner) returns one scalar spline per outer control point; the i-th is the derivative of Compose(inner) with respect to control point i, and Compose(inner) is the sum of control_point_i times sensitivity_i.", "quantifier": "all outer and inner splines", "why_tests_cant": "the set of degrees, dimensions, control points and parameters is infinite; a test fixes a handful of them", "anchors": ["src/bezier_spline.inc:BezierSpline::ComposeSensitivity", "src/bezier_spline.inc:BezierSpline::ComposeNumeratorHelper"]}
{"id": "C28", "title": "Composition polynomial in rational", "statement": "A polynomial outer spline composed with a rational inner spline gives a rational spline that evaluates to outer(inner(t)) wherever the weight function of inner is non-zero.", "quantifier": "all outer polynomial, inner rational splines, all parameters with non-zero weight", "why_tests_cant": "the set of degrees, dimensions, control points and parameters is infinite; a test fixes a handful of them", "anchors": ["src/bezier_spline.inc:BezierSpline::Compose", "src/bezier_spline.inc:BezierSpline::ComposeDenominatorSpline"]}
{"id": "C29", "title": "Composition of a rational outer spline", "statement": "A rational outer spline composed with a polynomial or rational inner spline evaluates to outer(inner(t)) wherever the weights involved are non-zero.", "quantifier": "all rational outer splines, all inner splines, all such parameters", "why_tests_cant": "the set of degrees, dimensions, control points and parameters is infinite; a test fixes a handful of them", "anchors": ["src/rational_bezier_spline.hpp:RationalBezierSpline::Compose"]}
{"id": "C30", "title": "Rational composition sensitivities", "statement": "The rational ComposeSensitivity variants return for every outer control point the derivative of the composed rational spline with respect to that control point, i.e. the composed rational basis function.", "quantifier": "all outer and inner splines, all parameters with non-zero weights", "why_tests_cant": "the set of degrees, dimensions, control points and parameters is infinite; a test fixes a handful of them", "anchors": ["src/bezier_spline.inc:BezierSpline::ComposeSensitivity", "src/rational_bezier_spline.inc:RationalBezierSpline::ComposeSensitivity"]}
{"id": "C31", "title": "Split reproduces the function", "statement": "SplitAtPosition(z,d) for 0<z<1 returns two splines of the same degrees; the first evaluates at t to the original at (.., z*t_d, ..), the second to the original at (.., z+(1-z)*t_d, ..). Outside (0,1) it raises an error.", "quantifier": "all splines, all dimensions, all split positions, all parameters", "why_tests_cant": "the set of degrees, dimensions, control points and parameters is infinite; a test fixes a handful of them", "anchors": ["src/bezier_spline.inc:BezierSpline::SplitAtPosition"]}
{"id": "C32", "title": "Split is watertight in any arithmetic", "statement": "The two parts of a split share the joint layer of control points bit for bit and the outer layers are those of the original bit for bit, whatever the arithmetic (floating point included).", "quantifier": "all splines over any arithmetic (no ring laws assumed)", "why_tests_cant": "bitwise equality for all floating point inputs cannot be enumerated", "anchors": ["src/bezier_spline.inc:BezierSpline::SplitAtPosition"]}
{"id": "C33", "title": "Splitting at several positions", "statement": "SplitAtPosition(z_1<...<z_m,d) returns m+1 splines; the k-th reproduces the original on [z_k,z_{k+1}] (affinely reparametrised), consecutive parts join exactly. [Non-strictly sorted input passes the sortedness check but then raises an error.]", "quantifier": "all splines, all strictly increasing position lists in (0,1), all parameters", "why_tests_cant": "position lists are unbounded", "anchors": ["src/bezier_spline.inc:BezierSpline::SplitAtPosition(vector)"]}
{"id": "C34", "title": "operator== is consistent", "statement": "operator== is reflexive and symmetric, and two equal splines evaluate to the same value everywhere.", "quantifier": "all pairs of splines", "why_tests_cant": "the set of degrees, dimensions, control points and parameters is infinite; a test fixes a handful of them", "anchors": ["src/bezier_spline.inc:BezierSpline::operator=="]}
{"id": "C35", "title": "Rational evaluation and construction", "statement": "A rational spline built from points P_i and weights w_i evaluates to sum w_i P_i B_i / sum w_i B_i; a polynomial spline converted to a rational one keeps its function; one built from a weighted spline and a weight function of the same degrees evaluates to their quotient, and different degrees fail the assertion; ControlPoint(i) returns P_i for non-zero weights.", "quantifier": "all points, weights, parameters with non-zero weight function", "why_tests_cant": "the set of degrees, dimensions, control points and parameters is infinite; a test fixes a handful of them", "anchors": ["src/rational_bezier_spline.hpp:RationalBezierSpline::RationalBezierSpline", "src/rational_bezier_spline.inc:RationalBezierSpline::Evaluate", "src/rational_bezier_spline.inc:RationalBezierSpline::ControlPoint"]}
{"id": "C36", "title": "Rational ForwardEvaluate agrees with Evaluate", "statement": "For rational splines ForwardEvaluate(t)=Evaluate(t). [Expected to fail: ForwardEvaluate omits the division by the weight function.]", "quantifier": "all rational splines, all parameters", "why_tests_cant": "the set of degrees, dimensions, control points and parameters is infinite; a test fixes a handful of them", "anchors": ["src/rational_bezier_spline.inc:RationalBezierSpline::ForwardEvaluate"]}
{"id": "C37", "title": "Rational ControlPoint by single indices", "statement": "ControlPoint(i,j,..) of a rational spline returns the same control point as ControlPoint({i,j,..}). [Expected to fail for two or more dimensions: the index pack is folded with the comma operator.]", "quantifier": "all rational splines, all indices", "why_tests_cant": "the set of degrees, dimensions, control points and parameters is infinite; a test fixes a handful of them", "anchors": ["src/rational_bezier_spline.inc:RationalBezierSpline::ControlPoint"]}
{"id": "C38", "title": "Rational sum, difference and product", "statement": "For rational splines a+b, a+=b, a-b, a-=b and a*b evaluate pointwise to sum, difference and product wherever both weight functions are non-zero, both in the shared-denominator shortcut and in the general case.", "quantifier": "all pairs of rational splines of equal dimension, all parameters", "why_tests_cant": "the set of degrees, dimensions, control points and parameters is infinite; a test fixes a handful of them", "anchors": ["src/rational_bezier_spline.inc:RationalBezierSpline::operator+", "src/rational_bezier_spline.inc:RationalBezierSpline::operator-", "src/rational_bezier_spline.inc:RationalBezierSpline::operator*"]}
{"id": "C39", "title": "Rational scaling, shifting and negation", "statement": "Scaling, shifting and negating a rational spline acts pointwise.", "quantifier": "all rational splines, scalars, points and parameters", "why_tests_cant": "the set of degrees, dimensions, control points and parameters is infinite; a test fixes a handful of them", "anchors": ["src/rational_bezier_spline.inc:RationalBezierSpline::operator*=", "src/rational_bezier_spline.inc:RationalBezierSpline::operator+=", "src/rational_bezier_spline.inc:RationalBezierSpline::operator-"]}
{"id": "C40", "title": "Rational order elevation and splitting", "statement": "Order elevation does not change the rational function and splitting reproduces it on the two sub-boxes; numerator and denominator always keep equal degrees.", "quantifier": "all rational splines, dimensions, split positions, parameters", "why_tests_cant": "the set of degrees, dimensions, control points and parameters is infinite; a test fixes a handful of them", "anchors": ["src/rational_bezier_spline.inc:RationalBezierSpline::OrderElevateAlongParametricDimension", "src/rational_bezier_spline.inc:RationalBezierSpline::SplitAtPosition"]}
{"id": "C41", "title": "Rational derivative spline", "statement": "DerivativeWRTParametricDimension(d) of a rational spline with degree_d>=1 evaluates to the partial derivative of the rational function wherever the weight is non-zero.", "quantifier": "all real rational splines, dimensions, parameters with non-zero weight", "why_tests_cant": "the set of degrees, dimensions, control points and parameters is infinite; a test fixes a handful of them", "anchors": ["src/rational_bezier_spline.inc:RationalBezierSpline::DerivativeWRTParametricDimension"]}
{"id": "C42", "title": "Rational EvaluateDerivative", "statement": "EvaluateDerivative(t,k) of a rational spline is the mixed partial derivative of order k of the rational function at t, for every k, wherever the weight is non-zero.", "quantifier": "all real rational splines, orders and parameters", "why_tests_cant": "the set of degrees, dimensions, control points and parameters is infinite; a test fixes a handful of them", "anchors": ["src/rational_bezier_spline.inc:RationalBezierSpline::EvaluateDerivative"]}
{"id": "C43", "title": "Rational basis functions and their derivatives", "statement": "Rational BasisFunctions sum to one and reproduce Evaluate when combined with the (unweighted) control points; UnweightedBasisFunctions reproduce it with weighted control points; BasisFunctionsDerivatives are the mixed partial derivatives of the rational basis functions.", "quantifier": "all rational splines, parameters with non-zero weight, orders", "why_tests_cant": "the set of degrees, dimensions, control points and parameters is infinite; a test fixes a handful of them", "anchors": ["src/rational_bezier_spline.inc:RationalBezierSpline::BasisFunctions", "src/rational_bezier_spline.inc:RationalBezierSpline::UnweightedBasisFunctions", "src/rational_bezier_spline.inc:RationalBezierSpline::BasisFunctionsDerivatives"]}
{"id": "C44", "title": "Rational bounding box", "statement": "With positive weights every coordinate of Evaluate(t), t in the unit cube, lies between MinimumCorner() and MaximumCorner(), and FitsIntoUnitCube() implies that the values stay in the unit cube.", "quantifier": "all rational splines with positive weights, all t in the unit cube", "why_tests_cant": "the set of degrees, dimensions, control points and parameters is infinite; a test fixes a handful of them", "anchors": ["src/rational_bezier_spline.inc:RationalBezierSpline::MinimumCorner", "src/rational_bezier_spline.inc:RationalBezierSpline::MaximumCorner", "src/rational_bezier_spline.inc:RationalBezierSpline::FitsIntoUnitCube"]}
{"id": "C45", "title": "AlgoDiffType arithmetic", "statement": "The arithmetic operators of AlgoDiffType (+,-,*,/, unary minus, mixed with plain scalars, compound forms) return value and gradient of the corresponding arithmetic expression for differentiable operands.", "quantifier": "all differentiable operands, any number of derivatives", "why_tests_cant": "derivatives hold at all points for all operand functions", "anchors": ["src/utils/computational_differentiation/algo_diff_type.inc:AlgoDiffType operators"]}
{"id": "C46", "title": "AlgoDiffType elementary functions", "statement": "exp, log, log10, sqrt, pow, abs, sin, cos, tan, asin, acos, atan of AlgoDiffType return value and gradient of the composed function inside their domains of differentiability.", "quantifier": "all differentiable operands inside the domain", "why_tests_cant": "derivatives hold at all points", "anchors": ["src/utils/computational_differentiation/algo_diff_type.inc:exp, log, sqrt, pow, sin, ..."]}
{"id": "C47", "title": "Forward differentiation of whole expressions", "statement": "Evaluating any finite expression over the overloaded operations with independent variables seeded by AlgoDiffType(value,n,i) yields the value and the exact gradient of the expression. SetActiveComponent makes an independent variable of any number, whatever it was computed from.", "quantifier": "all expression trees, all points at which every operation of the expression is applied where it is differentiable", "why_tests_cant": "expression trees are unbounded", "anchors": ["src/utils/computational_differentiation/algo_diff_type.hpp:AlgoDiffType"]}
{"id": "C48", "title": "AlgoDiffType comparisons", "statement": "Comparisons of AlgoDiffType values depend only on the values, agree with the scalar order, and == and != are complementary.", "quantifier": "all operands", "why_tests_cant": "the set of degrees, dimensions, control points and parameters is infinite; a test fixes a handful of them", "anchors": ["src/utils/computational_differentiation/algo_diff_type.inc:operator<, operator==, ..."]}
{"id": "C49", "title": "Base64 round trip", "statement": "Base64::Decode<T>(Base64::Encode(v)) == v for every non-empty vector of fixed-size entries. [Expected to fail for entry sizes not larger than the padding; e.g. char.]", "quantifier": "all entry sizes, all vectors", "why_tests_cant": "all vectors of all lengths", "anchors": ["src/utils/base64.hpp:Base64::Encode", "src/utils/base64.hpp:Base64::Decode"]}
{"id": "C50", "title": "Base64 output is standard and memory safe", "statement": "Encode returns the RFC 4648 encoding of the bytes (length 4*ceil(n/3), '=' padding) and reads only the bytes of the vector. [Expected to fail when n is not a multiple of 3: it reads past the buffer and puts the bits read into the last characters.]", "quantifier": "all byte sequences and all surrounding memory contents", "why_tests_cant": "the over-read depends on memory outside the vector", "anchors": ["src/utils/base64.hpp:Base64::Encode"]}
{"id": "C51", "title": "Base64 decode stays in bounds", "statement": "Decode of a string produced by Encode never writes outside the returned vector nor reads outside the tables; for arbitrary strings it may.", "quantifier": "all strings", "why_tests_cant": "all strings of all lengths", "anchors": ["src/utils/base64.hpp:Base64::Decode"]}
{"id": "C52", "title": "Base64 point lists", "statement": "Decoding the encoding of a list of points gives the same list; a byte stream whose scalar count is not a multiple of the dimension is rejected with an error.", "quantifier": "all point lists, all dimensions", "why_tests_cant": "all lists", "anchors": ["src/utils/base64.hpp:Base64::Encode(points)", "src/utils/base64.hpp:Base64::Decode(points)"]}
{"id": "C53", "title": "IndexListSort", "statement": "IndexListSort(v) is a permutation of 0..n-1 that lists v in non-decreasing order and keeps the original order among equal entries.", "quantifier": "all vectors over a total preorder", "why_tests_cant": "all vectors of all lengths", "anchors": ["src/utils/algorithms/sort.hpp:IndexListSort"]}
{"id": "C54", "title": "IntPower", "statement": "IntPower(b,e) equals b^e for all e>=0 as long as no intermediate result leaves the int range.", "quantifier": "all bases and exponents", "why_tests_cant": "the set of degrees, dimensions, control points and parameters is infinite; a test fixes a handful of them", "anchors": ["src/utils/algorithms/int_power.hpp:IntPower"]}
{"id": "C55", "title": "Logger filtering and terminating errors", "statement": "A message is written to the screen or to a file if and only if the corresponding bits of the output level are set; TerminatingError raises an exception at every output level, after writing its message if errors are enabled.", "quantifier": "all output levels, all call histories", "why_tests_cant": "all 512 levels and all histories", "anchors": ["src/utils/logger.hpp:Logger"]}
{"id": "C56", "title": "Logger keeps earlier messages", "statement": "Messages written to the error, warning or log file are still there after later logging calls. [Expected to fail: TerminatingError closes the files and the next call reopens and truncates them.]", "quantifier": "all call histories", "why_tests_cant": "histories are unbounded", "anchors": ["src/utils/logger.hpp:Logger::TerminatingError", "src/utils/logger.hpp:Logger::init", "src/utils/logger.hpp:Logger::close"]}
{"id": "C57", "title": "Point algebra", "statement": "Point addition, subtraction, negation, scaling and the dot product satisfy the laws of a vector space with an inner product (componentwise definitions); SquaredEuclidianNorm is the dot product with itself; EuclidianNorm is its non-negative root.", "quantifier": "all points of all dimensions over a field", "why_tests_cant": "the set of degrees, dimensions, control points and parameters is infinite; a test fixes a handful of them", "anchors": ["src/point.hpp:Point"]}
{"id": "C58", "title": "Spline arithmetic laws", "statement": "Addition and multiplication of splines are commutative and associative and multiplication distributes over addition, as equalities of the returned splines (degrees and every control point), and a-=a and a-a evaluate to zero.", "quantifier": "all splines, all parameters", "why_tests_cant": "the set of degrees, dimensions, control points and parameters is infinite; a test fixes a handful of them", "anchors": ["src/bezier_spline.inc:BezierSpline::operator+", "src/bezier_spline.inc:BezierSpline::operator*", "src/bezier_spline.inc:BezierSpline::operator-"]}
{"id": "C59", "title": "Order elevation and split commute with evaluation histories", "statement": "Any finite sequence of order elevations applied to a spline, in any order of dimensions, yields the same function; elevating one dimension never changes results of later evaluations, derivatives or products.", "quantifier": "all finite sequences of elevations", "why_tests_cant": "sequences are unbounded", "anchors": ["src/bezier_spline.inc:BezierSpline::OrderElevateAlongParametricDimension"]}
{"id": "C60", "title": "Differentiating through Evaluate with AlgoDiffType scalars", "statement": "Evaluating a spline whose control points or parameters are AlgoDiffType values yields the value and the derivative of Evaluate with respect to the seeded variables.", "quantifier": "all splines, all seeds", "why_tests_cant": "the set of degrees, dimensions, control points and parameters is infinite; a test fixes a handful of them", "anchors": ["src/bezier_spline.inc:BezierSpline::Evaluate", "src/utils/computational_differentiation/algo_diff_type.hpp:AlgoDiffType"]}
{"id": "C61", "title": "In-place operators with an argument inside the object", "statement": "spline += p, spline -= p, spline *= c and point *= c act with the value the argument had before the call, also when the argument is one of the object's own control points or coordinates (e.g. s -= s.ControlPoint(0), p *= p[0]).", "quantifier": "all splines and points, all positions of the argument inside the object", "why_tests_cant": "the effect depends on the position of the aliased element; a test fixes one position and usually passes a temporary", "anchors": ["src/bezier_spline.inc:BezierSpline::operator+=", "src/bezier_spline.inc:BezierSpline::operator-=", "src/bezier_spline.inc:BezierSpline::operator*=", "src/point.hpp:Point::operator*="]}
{"id": "C62", "title": "Second derivatives with nested AlgoDiffType", "statement": "Evaluating any finite expression over the overloaded operations with AlgoDiffType<AlgoDiffType<double,n>,n> variables, both levels seeded, yields the value, the gradient and the matrix of second derivatives of the expression.", "quantifier": "all expression trees that compile with the nested type, all points at which every operation is applied where it is smooth", "why_tests_cant": "expression trees and points are unbounded", "anchors": ["src/utils/computational_differentiation/algo_diff_type.hpp:AlgoDiffType", "src/utils/computational_differentiation/algo_diff_type.inc:AlgoDiffType operators, pow, exp, log"]}
{"id": "C63", "title": "Coordinate extraction of rational splines", "statement": "ExtractDimension(d) of a rational spline returns the spline whose value at every parameter is coordinate d of the rational spline there; a coordinate that does not exist raises an error.", "quantifier": "all rational splines, coordinates and parameters with nonzero weight", "why_tests_cant": "the result is a function of the parameter; with constant weights the missing division is invisible", "anchors": ["src/rational_bezier_spline.inc:RationalBezierSpline::ExtractDimension"]}
{"id": "C64", "title": "Rounding error of Evaluate", "statement": "In floating-point arithmetic with unit roundoff u and underflow error eta, Evaluate at a parameter in the unit cube differs from the exact value, in each coordinate, by at most ((1+u)^(3P)-1) M + 2P (1+u)^(3P) eta, where P is the sum of the degrees and M bounds the coordinate of the control points.", "quantifier": "all degrees, dimensions, control points and parameters in the unit cube, all rounding modes and precisions", "why_tests_cant": "a bound on the worst case over all floating-point inputs; tests compare with a tolerance at a few points", "anchors": ["src/bezier_spline.inc:BezierSpline::Evaluate"]}
{"id": "C65", "title": "Exact corners in floating point", "statement": "At the corners of the parameter domain Evaluate returns the corner control points without any rounding error.", "quantifier": "all splines with representable control points, all corners, all floating-point arithmetics in which an operation returns its exact result when that is representable", "why_tests_cant": "every step of the algorithm must be exact for every degree and value; users rely on watertight joints", "anchors": ["src/bezier_spline.inc:BezierSpline::Evaluate"]}
{"id": "C66", "title": "Rounding error of BasisFunctions and ForwardEvaluate", "statement": "In floating-point arithmetic without underflow, every basis function at a parameter in the unit cube has relative error at most (1+u)^S-1 with S the sum of 2p+4 over the degrees p, and ForwardEvaluate differs from the exact value, in each coordinate, by at most ((1+u)^(S+1+N)-1) M with N the number of control points.", "quantifier": "all degrees below the binomial table size, dimensions, control points and parameters in the unit cube", "why_tests_cant": "a bound on the worst case over all floating-point inputs", "anchors": ["src/bezier_spline.inc:BezierSpline::BasisFunctions", "src/bezier_spline.inc:BezierSpline::ForwardEvaluate", "src/utils/algorithms/bernstein_polynomial.hpp:BernsteinPolynomial::Evaluate"]}
{"id": "C67", "title": "Evaluate is de Casteljau's algorithm in every arithmetic", "statement": "Evaluate returns exactly, operation by operation, the value of de Casteljau's recursion applied direction after direction to the control points, whatever the scalar and point operations are.", "quantifier": "all degrees, dimensions, control points and parameters, all scalar and point types, with no law of arithmetic assumed", "why_tests_cant": "numerical stability arguments rely on which operations are executed; tests only see rounded results at a few points", "anchors": ["src/bezier_spline.inc:BezierSpline::Evaluate"]}
{"id": "C68", "title": "Watertight joints in floating point", "statement": "Two splines that share a layer of control points on a side have bit for bit equal values along that side, and consecutive parts of a split have equal values along the cut, in every arithmetic in which interpolating at 0 and at 1 is exact; floating-point numbers are such an arithmetic. The same holds for rational splines that share weighted control points and weights.", "quantifier": "all degrees, dimensions, control points, parameters along the joint and split positions", "why_tests_cant": "tests compare with a tolerance; a gap of one rounding error at one parameter breaks a closed geometry", "anchors": ["src/bezier_spline.inc:BezierSpline::Evaluate", "src/bezier_spline.inc:BezierSpline::SplitAtPosition", "src/rational_bezier_spline.inc:RationalBezierSpline::Evaluate"]}
{"id": "C69", "title": "Rounding error of SplitAtPosition", "statement": "In floating-point arithmetic with unit roundoff u and underflow error eta, every control point of both halves differs from the exact one, in each coordinate, by at most ((1+u)^(3p)-1) M + 2p (1+u)^(3p) eta, where p is the degree in the split direction and M bounds the coordinate of the control points.", "quantifier": "all degrees, dimensions, directions, control points and positions strictly between 0 and 1", "why_tests_cant": "a bound on the worst case over all floating-point inputs", "anchors": ["src/bezier_spline.inc:BezierSpline::SplitAtPosition"]}
{"id": "C70", "title": "Rounding error of rational Evaluate", "statement": "For a rational spline with weights between lo > 0 and hi, in floating-point arithmetic without underflow whose unit roundoff is small enough for the degrees and weights (e*hi < lo with e = (1+u)^(3P)-1), Evaluate at a parameter in the unit cube does not divide by zero and differs from the exact value by at most (1+u) D + u M/lo with D = (e M + e hi M/lo)/(lo - e hi), M bounding the weighted control points; for points the two roundings of the division give (1+u)^2 D + ((1+u)^2-1) M/lo.", "quantifier": "all degrees, dimensions, control points, positive weights and parameters in the unit cube", "why_tests_cant": "a bound on the worst case over all floating-point inputs", "anchors": ["src/rational_bezier_spline.inc:RationalBezierSpline::Evaluate", "src/point.hpp:Point::operator/"]}
{"id": "C71", "title": "Laws between operations", "statement": "Powers add and multiply (RaisePower(m)*RaisePower(n)=RaisePower(m+n), RaisePower(n).RaisePower(m)=RaisePower(m n)); splitting a sum or product gives the sums or products of the parts; composition distributes over products and is associative; the derivative of a sum is the sum of derivatives, the product rule holds, orders of repeated derivatives add up, the derivative of a part of a split is the scaled part of the derivative, splitting a composition gives the compositions with the parts of the inner spline, the parts of a split curve are its compositions with the two pieces of the unit interval, and the derivative of the composition of a curve with a scalar spline is the product of the derivatives. All are equalities of the returned splines, control point by control point.", "quantifier": "all splines and orders within the limits of the library", "why_tests_cant": "an equality of spline objects for infinitely many degrees, dimensions, control points and programs; a test fixes a handful of them", "anchors": ["src/bezier_spline.inc:BezierSpline::operator*", "src/bezier_spline.inc:BezierSpline::operator+", "src/bezier_spline.inc:BezierSpline::Compose", "src/bezier_spline.inc:BezierSpline::SplitAtPosition", "src/bezier_spline.inc:BezierSpline::DerivativeWRTParametricDimension", "src/bezier_spline.inc:BezierSpline::RaisePower"]}
{"id": "C72", "title": "Programs over spline operations", "statement": "Every expression built from the operations that return polynomial splines (arithmetic, elevation, splitting, derivatives, composition, products, powers, coordinate extraction), nested to any depth, runs without error when each call meets its precondition, and its result has the degrees and the function that calculus assigns to the expression; two programs that mean the same function with the same degrees return the same spline.", "quantifier": "all programs of any depth, all values of their variables", "why_tests_cant": "there are infinitely many programs and inputs", "anchors": ["src/bezier_spline.hpp:BezierSpline"]}
{"id": "C73", "title": "Convex hull property of values and results", "statement": "A convex set that contains all control points contains every value on the unit cube, and contains the control points of the results of elevation, splitting and composition (of the outer spline); the same for rational splines with positive weights, whose results again have positive weights. In particular what fits into the unit cube still fits after elevation, splitting and composition. The control points of sums, differences and products of two splines are sums, differences, or in the convex hull of products, of points of convex sets that contain the control points of the operands; the same for rational splines, whose results keep positive weights.", "quantifier": "all convex sets, splines, parameters in the unit cube, split positions and inner splines that fit into the unit cube", "why_tests_cant": "ranges over all convex sets and control points", "anchors": ["src/bezier_spline.inc:BezierSpline::Evaluate", "src/bezier_spline.inc:BezierSpline::OrderElevateAlongParametricDimension", "src/bezier_spline.inc:BezierSpline::SplitAtPosition", "src/bezier_spline.inc:BezierSpline::Compose", "src/rational_bezier_spline.inc:RationalBezierSpline::Compose", "src/rational_bezier_spline.inc:RationalBezierSpline::Evaluate", "src/bezier_spline.inc:operator+, operator+=, operator-=, operator*", "src/rational_bezier_spline.inc:operator+, operator+=, operator-, operator-=, operator*"]}
{"id": "C74", "title": "Layout of log lines", "statement": "Every line written to the console or to a log file consists of the label of its severity in a column of fixed width (20 characters on the console, 10 in files), the time stamp if the output level asks for it, and the message text exactly as it was passed; on the console label and text are shown in the colour of the severity and the terminal is set back to its own colour after each; a message is written to a sink exactly if the output level enables it.", "quantifier": "all messages, levels, times and output levels", "why_tests_cant": "message texts and levels are unbounded", "anchors": ["src/utils/logger.hpp:Logger"]}
{"id": "C75", "title": "Violated preconditions are reported", "statement": "Exceeding MAX_BINOMIAL_DEGREE (basis functions, forward evaluation, derivatives, products, powers and all compositions, where the degrees of the result count: they return exactly if these and the outer degrees are below the limit), a wrong number of control points, numerator and weight function of different degrees, an active index beyond the number of derivatives and a division of dual numbers by zero never return a value: they end in a failed assertion or a reported division by zero. (The multi-index of ControlPoint is the exception: it is not checked, and the call returns another control point or is undefined behaviour.)", "quantifier": "all splines, degrees, parameters and limits", "why_tests_cant": "tests probe a few violations; the claim is that no violating input slips through", "anchors": ["src/utils/fastbinomialcoefficient.hpp:FastBinomialCoefficient::choose", "src/utils/algorithms/bernstein_polynomial.hpp:BernsteinPolynomial", "src/bezier_spline.hpp:BezierSpline::BezierSpline", "src/bezier_spline.inc:BezierSpline::operator*", "src/bezier_spline.inc:BezierSpline::Compose", "src/bezier_spline.inc:BezierSpline::RaisePower", "src/rational_bezier_spline.hpp:RationalBezierSpline::RationalBezierSpline"]}
{"id": "C76", "title": "Positive weights stay positive", "statement": "If all weights of the rational splines that go in are positive, all weights of the result of +, +=, -, -=, products, scaling, translation, negation, degree elevation, splitting, composition (any mix of polynomial and rational) and differentiation are positive. Such a spline can be evaluated everywhere on the unit cube without a division by zero.", "quantifier": "all rational splines with positive weights, of any dimension and degree within the binomial limit", "why_tests_cant": "the weights of products, sums with different weights, compositions and derivative splines are long sums of products; tests only see a few nets", "anchors": ["src/rational_bezier_spline.inc:RationalBezierSpline::operator+", "src/rational_bezier_spline.inc:RationalBezierSpline::operator*", "src/rational_bezier_spline.inc:RationalBezierSpline::Compose", "src/rational_bezier_spline.inc:RationalBezierSpline::SplitAtPosition", "src/rational_bezier_spline.inc:RationalBezierSpline::DerivativeWRTParametricDimension"]}
{"id": "C77", "title": "Programs over rational splines compute what they mean", "statement": "Any program (expression of any depth) over rational and polynomial splines, built from conversion, +, +=, -, -=, negation, scaling, translation, products, degree elevation, splitting, differentiation and composition in every mix of polynomial and rational, whose calls meet their preconditions, runs without error; its result has the degrees, the weight function and the function that calculus assigns to the expression. If the rational inputs have positive weights and inner functions lie in the unit cube, the result has positive weights and evaluates on the whole unit cube without division by zero.", "quantifier": "all programs of any depth, all splines of any dimension and degree within the limits", "why_tests_cant": "there are infinitely many programs and histories; tests run a few fixed sequences", "anchors": ["src/rational_bezier_spline.hpp:RationalBezierSpline", "src/rational_bezier_spline.inc:RationalBezierSpline::operator+", "src/rational_bezier_spline.inc:RationalBezierSpline::DerivativeWRTParametricDimension", "src/bezier_spline.inc:BezierSpline::Compose"]}
{"id": "C78", "title": "Every spline object a program can obtain is consistent", "statement": "After any construction and any sequence of mutators and operations, a rational spline's numerator and weight function have the same degrees, and each has exactly as many control points (weights) as its degrees require. Every polynomial or rational spline that a constructor, sum, difference, negation, product, power, coordinate extraction, split, rational derivative or composition returns is consistent in this sense. Nothing is assumed about the scalar type, so this also holds for floating point and automatic differentiation scalars, for NaNs and after rounding.", "quantifier": "all parametric dimensions, degrees, scalar and point types, all finite programs of constructors, mutators and operations in which the calls return", "why_tests_cant": "the programs are unbounded, and tests look at a few histories with one scalar type", "anchors": ["src/rational_bezier_spline.hpp:RationalBezierSpline", "src/rational_bezier_spline.hpp:UpdateDegrees", "src/rational_bezier_spline.inc:operator+=", "src/rational_bezier_spline.inc:operator-=", "src/rational_bezier_spline.inc:DerivativeWRTParametricDimension", "src/bezier_spline.inc:operator*", "src/bezier_spline.inc:SplitAtPosition", "src/bezier_spline.inc:ComposeNumeratorHelper"]}
{"id": "C79", "title": "The coordinates of point valued splines are independent", "statement": "For a spline whose control points are points, coordinate j of its value, of its derivatives, and of the result of any program of operations (sums, products, elevation, splits, derivatives, composition as the outer spline) is, bit for bit, what the same operations give on the scalar spline of the coordinates number j, and a program that fails on points fails with the same outcome on coordinates. No coordinate influences another, and nothing is assumed about the scalar type except that multiplication commutes and that multiplying with -1 negates, which holds for floating point numbers. The same holds for the operations of rational splines. The value of a rational spline is divided by multiplication with a reciprocal for points and directly for numbers, so there equality needs x * (1 / w) = x / w.", "quantifier": "all programs of any depth, all points of any dimension, all splines, degrees, parameters and scalar types", "why_tests_cant": "tests compare a few coordinates within a tolerance in one scalar type; independence is a statement about every program and every bit", "anchors": ["src/point.hpp:Point", "src/bezier_spline.inc:ExtractDimension", "src/bezier_spline.inc:Evaluate", "src/bezier_spline.inc:Compose", "src/rational_bezier_spline.inc:Evaluate"]}
{"id": "C80", "title": "Outcomes do not depend on the arithmetic", "statement": "Whatever the scalar type does - rounding, overflow, infinities, NaNs, automatic differentiation - every program of spline operations whose degrees, dimensions and indices are in order either returns a consistent spline with the expected degrees or throws the documented exception: there is no access outside of an array, no failed assertion, no narrowing and no endless loop. Only two checks look at numbers: splitting throws unless 0 < z < 1 compares true (and planes are sorted), composition throws unless the unit cube check succeeds; all other operations and all evaluators always return.", "quantifier": "all scalar and point types with arbitrary operations and comparisons, all programs of any depth, all splines, degrees within the limits of the tables", "why_tests_cant": "tests use one scalar type and finite well-behaved numbers; memory safety under NaNs, rounding and every history needs a proof that control flow does not depend on the numbers", "anchors": ["src/bezier_spline.inc:Evaluate", "src/bezier_spline.inc:SplitAtPosition", "src/bezier_spline.inc:Compose", "src/bezier_spline.inc:ComposeSensitivity", "src/bezier_spline.inc:operator*", "src/bezier_spline.inc:FitsIntoUnitCube", "src/bezier_spline.inc:DerivativeWRTParametricDimension"]}
{"id": "C81", "title": "Outcomes of rational operations do not depend on the arithmetic", "statement": "Whatever the scalar type does - rounding, overflow, infinities, NaNs, comparisons that are no order and no equality - every program over rational splines whose degrees, dimensions and indices are in order returns a consistent rational spline with one of the expected degrees, or throws the documented exception, or divides by a weight that compares equal to zero: there is no access outside of an array, no failed assertion, no narrowing and no endless loop. Sums and differences keep the degrees exactly if the weight functions compare equal; evaluation, control points, bounding boxes and the unit cube check divide by zero exactly if the weight (function value) compares equal to zero; composing two rational splines always returns; derivatives and basis functions return one number per control point or divide by zero.", "quantifier": "all scalar and point types with arbitrary operations and comparisons, all rational programs of any depth, all splines with degrees within the limits of the tables", "why_tests_cant": "tests use one scalar type, positive weights and finite numbers; memory safety for zero, negative or NaN weights after any history of operations needs a proof that control flow depends on the numbers only in the listed checks", "anchors": ["src/rational_bezier_spline.inc:operator+", "src/rational_bezier_spline.inc:operator-=", "src/rational_bezier_spline.inc:SplitAtPosition", "src/rational_bezier_spline.inc:DerivativeWRTParametricDimension", "src/rational_bezier_spline.inc:FitsIntoUnitCube", "src/rational_bezier_spline.hpp:Compose", "src/bezier_spline.inc:Compose"]}
{"id": "C82", "title": "The number type enters only through its arithmetic; values of AlgoDiffType computations are the plain values", "statement": "If a map from one number type to another commutes with the arithmetic and preserves comparisons, then every program, evaluator, derivative and table of basis functions over the second type, applied to the images of the inputs, gives the image of the result over the first type, and the same errors. No law of arithmetic is assumed. Hence computing with an AlgoDiffType as number type gives exactly the values, and takes exactly the branches, of the same computation with plain (also floating point) numbers, whatever the derivatives are; and results over the rational numbers are the results over the reals.", "quantifier": "all pairs of number types with arbitrary operations related by such a map, all programs over (rational) splines of any depth, all inputs including those that end in errors", "why_tests_cant": "tests compare a few AlgoDiffType results with plain results; that derivatives never influence a value or a branch in any history of operations needs a relational proof over all of them", "anchors": ["src/utils/computational_differentiation/algo_diff_type.hpp:AlgoDiffType", "src/utils/computational_differentiation/algo_diff_type.inc:operator*", "src/bezier_spline.inc:Compose", "src/bezier_spline.inc:operator+=", "src/rational_bezier_spline.inc:operator+", "src/rational_bezier_spline.inc:Evaluate"]}
{"id": "C83", "title": "AlgoDiffType as number type gives the exact derivatives of whole computations", "statement": "Let the numbers that enter a computation with splines (control points, weights, factors, split planes, parameter values) depend differentiably on a parameter. If the computation returns at a parameter value x, then its result at nearby values is given by control points that are differentiable functions of the parameter at x, and the same computation with AlgoDiffType numbers, seeded with value and derivatives of each input, returns exactly the values and derivatives of these functions. This holds for every program built from the operations of polynomial and rational splines and for all evaluators.", "quantifier": "all normed parameter spaces, all directions of differentiation, all differentiable families of inputs, all programs of any depth, all parameter values where the computation returns", "why_tests_cant": "tests compare single derivatives with finite differences; that every branch and every operation propagates derivatives exactly, for all inputs and histories, needs a proof over all programs", "anchors": ["src/utils/computational_differentiation/algo_diff_type.hpp:AlgoDiffType", "src/utils/computational_differentiation/algo_diff_type.inc:operator*", "src/bezier_spline.inc:Compose", "src/bezier_spline.inc:operator+", "src/rational_bezier_spline.inc:operator+", "src/rational_bezier_spline.inc:Evaluate"]}
{"id": "C84", "title": "Maps of points commute with the operations", "statement": "Replacing every control point of a spline by its image under a map of points, before or after an operation, makes no difference. For maps that commute with the operations of points (linear maps; in floating point arithmetic e.g. permutations, repetitions and projections of coordinates and changes of sign) this holds in any arithmetic and for the whole outcome, errors included: all evaluators, + - and their assigning forms, negation, scaling, adding points, degree elevation, derivatives, splitting, composition as the outer spline, products, for polynomial and rational splines. For affine maps in exact arithmetic: values, degree elevation, splitting, composition; derivatives of positive order are mapped by the linear part; rational splines keep their weights.", "quantifier": "every spline of every dimension and degrees, every point type, every map of the kind, every parameter, order, plane and inner spline", "why_tests_cant": "tests compare a few transformed splines; the claim ranges over all maps, all splines and all operations", "anchors": ["src/bezier_spline.inc: all operations", "src/rational_bezier_spline.inc: all operations"]}
{"id": "C85", "title": "Rational splines are projections of polynomial splines", "statement": "A rational spline is a polynomial spline in homogeneous coordinates: every consistent rational spline belongs to exactly one polynomial spline with the control points (w P, w); its value is the value of that spline divided by the weight; degree elevation, splitting, composition (as the outer spline) and the product are the operations of that spline, errors included, in any arithmetic. So these operations commute with every linear map of the homogeneous coordinates (projective maps), and a common factor of all weights changes neither values nor control points.", "quantifier": "every rational spline, every point type and arithmetic, every linear map of homogeneous coordinates, every factor that is not zero", "why_tests_cant": "tests check single rational splines; the equality with the operations of the homogeneous spline is for all splines, arguments and error cases", "anchors": ["src/rational_bezier_spline.hpp: constructors, Compose", "src/rational_bezier_spline.inc: Evaluate, OrderElevateAlongParametricDimension, SplitAtPosition, operator*"]}
{"id": "C86", "title": "Error bounds computed along with the results", "statement": "The library run with numbers that carry their exact value and a bound of the rounding error (each operation propagates the bounds of its operands and adds the bound of its own rounding) returns the exact results together with bounds, and the results of the same computation in floating-point arithmetic are within these bounds. This holds for every program built from the operations, polynomial and rational, and for every evaluator: if the computation returns in exact arithmetic then in floating-point arithmetic it returns a result within the bounds, or a rounded comparison makes it throw, or (rational) a weight is rounded to zero. Sums of rational splines: if the weight functions compare as in exact arithmetic.", "quantifier": "every floating-point arithmetic of the standard model (any precision, with underflow), every program of any size, every spline, parameter and derivative order", "why_tests_cant": "tests compare single results with tolerances; a bound that holds for every program and every input needs the analysis of every operation of every algorithm", "anchors": ["src/bezier_spline.inc: all operations", "src/rational_bezier_spline.inc: all operations", "src/point.hpp: operators"]}
{"id": "C87", "title": "Rounding errors of operations and programs in closed form", "statement": "In floating-point arithmetic with relative rounding error u <= 1/2 and without underflow, every program built from sums, differences, negation, scaling, translation, degree elevation, splits, derivatives, products, dot products, powers and coordinate extraction returns a spline of the same degrees as in exact arithmetic, and each of its control values differs from the exact one by at most ((1+u)^k - 1) M. The number of roundings k depends only on the program and on the degrees; M is the product and sum of the magnitudes of the control values of the operands. Evaluating the result at parameters of the unit cube gives the value of the function that calculus assigns to the program up to ((1+u)^(k + 3 sum of degrees) - 1) M. A composition with a floating-point spline inside the unit cube throws exactly when the exact one throws, and otherwise has the degrees of the exact composition and control values that differ from the exact ones by at most ((1+u)^k - 1) M, where M bounds the control values of the outer spline alone and k depends only on the degrees; evaluating it gives the outer function at the value of the inner function up to such a bound. If the inner spline has rounding errors itself, M is multiplied by a factor for each outer degree: twice the magnitude of the inner spline, or 2 if that is less than 1. With it, programs with compositions anywhere satisfy the same bounds whenever both runs return.", "quantifier": "every precision, every program of these operations of any size, all degrees up to the limit of the library, all control values and parameters of the unit cube", "why_tests_cant": "a test compares with a tolerance for one program and one input; the bound ranges over all programs, inputs and precisions", "anchors": ["src/bezier_spline.inc: operator+, operator-, operator*, OrderElevateAlongParametricDimension, SplitAtPosition, DerivativeWRTParametricDimension, RaisePower, ExtractDimension, Evaluate, Compose"]}
{"id": "C88", "title": "Precision with coordinates wider than double", "statement": "When the scalar type of a spline is wider than double (long double), every operation keeps the precision of that type: ForwardEvaluate at parameters of the unit cube has the rounding error bound of the type, and scalar-valued spline times point-valued spline equals the product in the other order.", "quantifier": "every floating-point type and every conversion to a narrower type, all splines of points of any dimension and degrees, all parameters of the unit cube", "why_tests_cant": "the tests use double only; the loss is far below the tolerances of the tests, and depends on the digits of the numbers", "anchors": ["src/point.hpp: operator*(const double&, const Point&)", "src/bezier_spline.inc: ForwardEvaluate, EvaluateDerivative, CombineControlPointsForProduct_"]}
{"id": "C89", "title": "Patches that share a face keep sharing it, bit for bit", "statement": "Two patches of a geometry whose control points agree on a common face (last or first layer in a parametric direction, degrees across the face may differ) are processed by the same sequence of operations: sums, differences, products, powers, scaling, shifting, order elevation in any direction, splits and derivatives along the face, compositions with a common outer spline, coordinate extraction. The control points of the two results agree on the common face exactly, not up to rounding, and so do the values along it. The same holds for rational patches, for weighted control points and weights, as long as each sum finds the weights of its summands equal in both runs or different in both.", "quantifier": "all programs over the operations, all degrees and dimensions, all sides, all splines with the common face, every arithmetic with commutative addition (in particular IEEE numbers)", "why_tests_cant": "tests compare with tolerances and run one patch at a time; whether rounding opens a gap depends on the digits of all numbers and on the whole sequence of operations", "anchors": ["src/bezier_spline.inc: operator+, operator-, operator*, RaisePower, OrderElevateAlongParametricDimension, DerivativeWRTParametricDimension, SplitAtPosition, Compose, ExtractDimension", "src/rational_bezier_spline.inc: operator+, operator-, operator*, OrderElevateAlongParametricDimension, DerivativeWRTParametricDimension, SplitAtPosition, Compose, Evaluate"]}
{"id": "C90", "title": "Products, derivatives, elevation and splits evaluate fixed formulas, operation by operation", "statement": "Every control point of a product, derivative, order elevated or split spline is the value of an explicit formula in the control points of the operands: the same additions and multiplications in the same order, in whatever arithmetic the spline is instantiated. In particular each control point of a result depends only on the control points named in its formula, and results are reproducible bit for bit.", "quantifier": "all splines of all dimensions and degrees within the binomial table, all control point types and operations (no laws assumed)", "why_tests_cant": "the order of roundings is invisible to tests with tolerances, and there are infinitely many degrees", "anchors": ["src/bezier_spline.inc: operator*, CombineControlPointsForProduct_, DerivativeWRTParametricDimension, OrderElevateAlongParametricDimension, SplitAtPosition"]}
{"id": "C91", "title": "a + b and a += b, a - b and a -= b are the same splines in floating point", "statement": "a + b and a += b give identical control points, not only equal functions, when addition of coordinates commutes; a - b and a -= b give identical control points when no degree of b exceeds that of a.", "quantifier": "all splines of any dimension and degrees whose elevated size fits, all arithmetics", "why_tests_cant": "the two operators are separate code with different elevation orders; tests compare few values with tolerances", "anchors": ["src/bezier_spline.inc: operator+, operator+=, operator-, operator-="]}
{"id": "C92", "title": "The ring of the microstructure example is exactly circular, joined and closed", "statement": "CircleGroup(innerR, outerR, n, arc) returns n rational segments with positive weights; at (x, y) segment i has distance (1-y)*outerR + y*innerR from the centre, and an angle that depends only on x and runs continuously and monotonically from i/n to (i+1)/n of the arc. Together the segments cover exactly the part of the ring between the radii and the angles 0 and arc. Neighbouring segments have identical control points and weights on their common face, also in floating point. A full circle closes. Segments of exactly half a turn divide by zero.", "quantifier": "all radii, all numbers of segments, all arcs of less than a full turn per segment other than half a turn; joints: every arithmetic that counts exactly and any sin and cos", "why_tests_cant": "the example is never compiled by the tests, and circularity is a statement about all parameters and all real angles", "anchors": ["example/Microstructure/microstructure_build.cpp: CircleGroup", "src/rational_bezier_spline.hpp: RationalBezierSpline(degrees, points, weights)"]}
{"id": "C93", "title": "The microstructure example lays the cross tile into the ring without gaps", "statement": "The program returns five patches per segment, in the order center, left, right, down, up. Each patch is exactly the rectangle of the cross tile mapped into the segment, with positive weights, for every thickness up to 1; a larger one makes Compose throw. In every arithmetic the center patch and its four neighbours have identical control points and weights on the common faces. With exact arithmetic the right arm of each segment meets the left arm of the next, and around a full circle the last meets the first.", "quantifier": "all thicknesses, radii, numbers of segments and arcs; common faces inside a segment: every arithmetic and any sin and cos", "why_tests_cant": "gaps between patches depend on rounding in every composition and on all parameters; the example is not even compiled by the tests", "anchors": ["example/Microstructure/microstructure_build.cpp: SimpleCrossTile, CircleGroup, main", "src/rational_bezier_spline.hpp: Compose"]}
{"id": "C94", "title": "A spline fitted into the unit cube stays composable in floating point", "statement": "With coordinates that round to nearest (any rule for ties) FitIntoUnitCube of a spline with positive extent in every coordinate returns a spline of the same degrees for which FitsIntoUnitCube() is true, exactly and without tolerance: per coordinate some control point is 0, some is at least 1 - 2^-p, none is outside [0,1], and the order of the control points is kept. Hence Compose and ComposeSensitivity accept it as inner spline. This holds as long as the extent is at most 2^(1-q-p) (2^1022 for double); above, there are splines whose fitted version is not inside the unit cube.", "quantifier": "all splines of any dimension and degrees with floating-point coordinates, every precision p and smallest exponent q <= -p, every tie rule", "why_tests_cant": "whether x * (1/x) <= 1 after two roundings is a statement about all floating-point numbers; a test sees a few of them", "anchors": ["src/bezier_spline.inc: FitIntoUnitCube, FitsIntoUnitCube, MaximumCorner, MinimumCorner, Compose", "src/bezier_spline.hpp: TransposeAndScale"]}
{"id": "C95", "title": "Splines in the unit cube stay in the unit cube in floating point", "statement": "With coordinates that round to nearest (any rule for ties): if all control points and all parameters are floating-point numbers between 0 and 1, then Evaluate returns a point whose coordinates are floating-point numbers between 0 and 1, so it can be used as parameter of another spline; all parts returned by SplitAtPosition (one position or several) and the result of OrderElevateAlongParametricDimension pass FitsIntoUnitCube(), which has no tolerance, so they can be composed. This is special to the unit cube: a line with both ends at 5/4 takes a value below 5/4 in double precision.", "quantifier": "all splines of any dimension and degrees inside the unit cube, all parameters and split positions, every precision p and smallest exponent q, every tie rule", "why_tests_cant": "one unit in the last place decides, and the error of a de Casteljau step depends on every bit of the parameter; a test sees a few parameters", "anchors": ["src/bezier_spline.inc: Evaluate, SplitAtPosition, OrderElevateAlongParametricDimension, FitsIntoUnitCube"]}
{"id": "C96", "title": "Evaluation, splitting and elevation never overflow inside the parameter domain", "statement": "With IEEE 754 coordinates that round to nearest (any rule for ties), with overflow to infinity: if all control points are finite and all parameters are floating-point numbers between 0 and 1, then Evaluate, SplitAtPosition (one position or several) and OrderElevateAlongParametricDimension compute only finite numbers, even when the control points are the largest numbers of the type with mixed signs. The results are the ones of the arithmetic without overflow, so C94 and C95 apply to them. Outside the parameter domain this is false: the line from the largest number to its negative is infinite at 2. It is also false of ForwardEvaluate: there is a parameter in double precision at which the constant curve of the largest numbers is +infinity, while Evaluate is finite.", "quantifier": "all splines of any dimension and degrees with finite control points, all parameters in [0,1], all split positions and directions, every precision, smallest and largest exponent, every tie rule", "why_tests_cant": "an overflow needs control points next to the largest number and depends on the last bit of every rounding on the way; tests use moderate numbers", "anchors": ["src/bezier_spline.inc: Evaluate, ForwardEvaluate, SplitAtPosition, OrderElevateAlongParametricDimension"]}
{"id": "C97", "title": "Infinities and NaN are never masked", "statement": "With IEEE 754 coordinates: if one coordinate of one control point is infinite or NaN, then in that coordinate Evaluate, ForwardEvaluate and EvaluateDerivative return an infinity or NaN for every parameter (also where the basis function of that control point vanishes), both parts of a split and the elevated spline have a control point that is infinite or NaN in that coordinate, and so has the product with any spline of scalars. A parameter that is infinite or NaN in a direction of positive degree makes every coordinate of Evaluate infinite or NaN. A rational spline built from control points and weights of which one is infinite or NaN evaluates to no finite coordinate, a NaN weight or NaN control point makes the values NaN, and two splines compare equal exactly if degrees and control points agree, signs of infinities included, and no coordinate is NaN.", "quantifier": "all splines with such a control point at any position, all parameters and orders of derivatives, all split positions, any rounding function", "why_tests_cant": "the coordinate, the control point and the parameter at which a bad value could disappear are arbitrary", "anchors": ["src/bezier_spline.inc: Evaluate, ForwardEvaluate, EvaluateDerivative, SplitAtPosition, OrderElevateAlongParametricDimension, operator*"]}
{"id": "C98", "title": "The unit cube check rejects every spline that leaves the unit cube, also with infinities and NaN", "statement": "With IEEE 754 coordinates: a spline with a control point that has a coordinate below 0 or above 1 (infinite or not) is rejected by FitsIntoUnitCube and so by the compositions. This holds if that coordinate is not NaN in the first control point. FALSE in general: if a coordinate of the first control point is NaN, then the check ignores that coordinate of all control points; the line from NaN to 7 passes and is composed.", "quantifier": "all splines of points with any IEEE coordinates", "why_tests_cant": "which control point holds the NaN decides; a test would have to try NaN at every position", "anchors": ["src/bezier_spline.inc: FitsIntoUnitCube, MaximumCorner, MinimumCorner, Compose"]}
{"id": "C99", "title": "FitIntoUnitCube of a finite spline is a spline in the unit cube, without overflow or NaN", "statement": "With IEEE 754 coordinates that round to nearest: FitIntoUnitCube() of a spline with finite control points returns a spline all of whose coordinates are numbers between 0 and 1. This holds in every coordinate whose extent lies between 2^-1023 and 2^1022 (for double); there the smallest value is 0 and the largest at least 1 - 2^-53. FALSE in general: in a coordinate in which all control points agree every value becomes NaN (0 times infinity); a line from 0 to the smallest positive number becomes a line from NaN to infinity; a line from the smallest to the largest finite number becomes a line from 0 to NaN. In all these cases the result passes FitsIntoUnitCube(), so a following composition does not report an error.", "quantifier": "all splines of points of any dimension with finite IEEE coordinates, every precision and exponent range, every tie rule", "why_tests_cant": "whether a coordinate is constant and where the reciprocal of the extent overflows are facts about all control points; a test uses splines of moderate extent", "anchors": ["src/bezier_spline.inc: FitIntoUnitCube, TransposeAndScale, MaximumCorner, MinimumCorner, FitsIntoUnitCube, Compose"]}
{"id": "C100", "title": "Under any history of splits the control points and bounding boxes converge to the geometry", "statement": "Take any part obtained from a spline by any sequence of calls of SplitAtPosition (one position or several, any directions) and OrderElevateAlongParametricDimension. It is the spline over a box inside the unit cube. If neighbouring control points of the spline have distance at most L_d/p_d in direction d (degree p_d), then in the part they have distance at most L_d w_d/p_d', where w_d is the length of the box and p_d' the degree of the part; splits in other directions and elevations do not spoil this. Hence all control points of the part are within the sum of L_d w_d from each other and from every point of the part, and the bounding box of MaximumCorner and MinimumCorner is at most that large: refinement converges, whatever the order of the splits. The same constants make Evaluate Lipschitz continuous on the unit cube.", "quantifier": "all splines of any dimension and degrees, all histories of splits and elevations, every way to measure distances (triangle inequality and scaling)", "why_tests_cant": "the histories are unbounded and the claim is a limit; a test sees one refinement level", "anchors": ["src/bezier_spline.inc: SplitAtPosition, OrderElevateAlongParametricDimension, Evaluate, MaximumCorner, MinimumCorner"]}
{"id": "C101", "title": "A call that runs out of memory leaves a usable object behind", "statement": "If a mutating call on a spline ends with std::bad_alloc, the object should be consistent and stand for the function it stood for before, or for the one after the call. This holds, with the object untouched, for *= by a number, += and -= with a point, TransposeAndScale, FitIntoUnitCube, writes to control points and weights, += and -= of splines whose argument has no higher degree, and += and -= of rational splines with equal weights. It is false for OrderElevateAlongParametricDimension, UpdateDegrees, assignment, += and -= with an argument of higher degree, and for rational splines also when memory runs out between numerator and weights. For splines the control points are never lost: calling UpdateDegrees with the right degrees needs no memory and gives a consistent spline with the function before the call.", "quantifier": "all splines and rational splines, all mutating calls, every place at which memory may run out (crash point)", "why_tests_cant": "memory runs out at arbitrary points; tests do not inject allocation failures, let alone at every place of every call", "anchors": ["src/bezier_spline.inc: OrderElevateAlongParametricDimension, operator+=, operator-=, operator*=, TransposeAndScale, FitIntoUnitCube", "src/bezier_spline.hpp: UpdateDegrees, operator=", "src/rational_bezier_spline.inc: OrderElevateAlongParametricDimension, operator+=, operator-=", "src/rational_bezier_spline.hpp: UpdateDegrees, operator="]}
{"id": "C102", "title": "Moving splines is only an optimisation", "statement": "In every program with several spline variables that copies, assigns, moves (= std::move), constructs from std::move, swaps (std::swap) and calls the library, and that does not read a variable between moving from it and assigning to it, all other variables have the values they would have if moves were copies and swaps exchanged values, and errors are the same. A moved-from spline still reports its degrees and number of control points, but Evaluate and *= on it are undefined behaviour until it is assigned or UpdateDegrees is called, which makes it equal to a newly constructed spline. Constructing from std::move copies and leaves the source intact. std::swap of a variable with itself is harmless.", "quantifier": "all programs of any length over any number of variables, polynomial and rational splines", "why_tests_cant": "programs (histories) are unbounded; tests move at most once", "anchors": ["src/bezier_spline.hpp: BezierSpline(const BezierSpline&), operator=(BezierSpline&&), operator=(const BezierSpline&), UpdateDegrees", "src/rational_bezier_spline.hpp: RationalBezierSpline(const RationalBezierSpline&), operator=(RationalBezierSpline&&), operator=(const RationalBezierSpline&)"]}
{"id": "C103", "title": "Threads with splines of their own do not disturb each other", "statement": "Several threads use the library at the same time; they read common splines, but no thread writes a spline that another one uses, and none calls Logger::SetOutputLevel. Then no schedule leads to a data race, each thread computes what it would compute alone and ends with the same error, leaves the same splines and the same text on the console, and the logger is unchanged; no thread can be blocked.", "quantifier": "all numbers of threads, all programs of any length over any calls, all interleavings of their accesses to shared memory, all output levels, with and without ENABLE_LOGGING", "why_tests_cant": "races depend on the schedule; tests run one thread", "anchors": ["src/utils/logger.hpp: Get, init, close, GetTimeStamp_, Warning_, UserInfo_, Logging_, ExtendedInformation_, Error_, TerminatingError_, SetOutputLevel", "src/bezier_spline.inc: OrderElevateAlongParametricDimension, DerivativeWRTParametricDimension, TransposeAndScale, SplitAtPosition, RaisePower"]}
{"id": "C104", "title": "The directions of the control points bound the directions of the geometry", "statement": "If the steps between neighbouring control points in a direction (times the degree, i.e. the control points of the derivative) lie in a convex set C, then the difference of two values of Evaluate along this direction is the difference of the parameters times an element of C. So nondecreasing control points give a nondecreasing function, increasing ones an increasing function, nonnegative control points of the second derivative a convex function, and steps in linearly independent sectors a geometry that never overlaps itself. Every sequence of splits and elevations keeps these properties.", "quantifier": "all splines, dimensions, degrees and control points; all convex sets; all pairs of parameters in the unit cube; all sequences of splits and elevations", "why_tests_cant": "infinitely many pairs of parameters; that a geometry does not fold over cannot be sampled", "anchors": ["src/bezier_spline.inc: Evaluate, SplitAtPosition, OrderElevateAlongParametricDimension, DerivativeWRTParametricDimension"]}
{"id": "C105", "title": "The log tells exactly what the library did, and never changes what it does", "statement": "Which messages a call sends to the logger, in which order, is determined by its arguments. A sum or difference reports every elevation of an operand, one message per degree, and nothing else; a derivative reports its orders and that it is done; a split reports every cut with its position in the part that is left and, if a position is not inside the interval, the refusal as the last message; a derivative of a rational spline reports five messages per round, the elevations to doubled degrees; sums of rational splines and compositions that return are silent, except that a constant outer spline composed with a rational one reports an inefficient exponent. A call that throws sends a terminating error as its last message, and a call that does not throw sends none. Results do not depend on the messages. By default only errors and terminating errors reach the console, and only the latter in a build without logging.", "quantifier": "all scalar types and arithmetics, splines, dimensions, degrees, positions and lists of positions, orders, exponents; calls that return and calls that fail", "why_tests_cant": "the transcript must be right for every combination of degrees and positions, and the absence of messages cannot be sampled", "anchors": ["src/bezier_spline.inc: OrderElevateAlongParametricDimension, operator+, operator-, DerivativeWRTParametricDimension, SplitAtPosition, RaisePower, Compose, ComposeSensitivity, ExtractDimension, MaximumCorner, FitIntoUnitCube", "src/rational_bezier_spline.inc: operator+, operator-, DerivativeWRTParametricDimension, SplitAtPosition", "src/rational_bezier_spline.hpp: Compose", "src/utils/logger.hpp: Logging, ExtendedInformation, Error, TerminatingError"]}
{"id": "C106", "title": "The text of a point shows its coordinates, correctly rounded, and can be read back", "statement": "The text of a point with at least one coordinate is its coordinates in order, in brackets, separated by a comma and a space, each filled with spaces to two characters more than the precision and never cut. It reads back, without ambiguity, as one number per coordinate, each a number with as many significant decimal digits as the precision that is nearest to the coordinate. A precision of nine digits for float and seventeen for double tells all points apart; the six digits of the output operator do not. Columns line up for coordinates that are zero, at least a tenth or at most -1 and not too large, but not in general. Derivatives carried by coordinates are not shown. The positions in messages about splits are at most half a millionth off.", "quantifier": "all spatial dimensions, precisions and points with finite coordinates other than negative zero; the layout for every scalar type", "why_tests_cant": "rounding, carries, the switch to exponents and the alignment depend on the magnitude and on every digit of each coordinate", "anchors": ["src/point.hpp: Point::toString, operator<<", "src/utils/computational_differentiation/algo_diff_type.inc: operator<<", "src/bezier_spline.inc: SplitAtPosition (std::to_string)"]}
{"id": "C107", "title": "The rounding error bounds hold whatever the compiler makes of the arithmetic", "statement": "The error bounds of sums, differences, products, powers, degree elevations, splits, derivatives and evaluations, and of whole programs made of them, hold for every result that is possible if each operation has some relative error of at most the unit roundoff, chosen independently at each place: products contracted with a sum into one fused operation, intermediate results with more digits, other directions of rounding. In particular they hold for an arithmetic in which every product is contracted with the sum or difference it is used in.", "quantifier": "all splines, points, degrees, dimensions, parameters in the unit cube and elementary programs; all choices of relative errors up to a unit roundoff of at most one half at all operations", "why_tests_cant": "a compiler chooses for each place and each build which operations are fused, so results differ between builds; only a proof covers all choices", "anchors": ["src/bezier_spline.inc: Evaluate, ForwardEvaluate, OrderElevateAlongParametricDimension, SplitAtPosition, DerivativeWRTParametricDimension, operator*, operator+", "src/point.hpp: operator*"]}
{"id": "C108", "title": "A spline changes its sign, or its side of a plane, no more often than its control points", "statement": "Splits and degree elevations never add a change of sign: read from left to right along any row in the direction of the split or elevation, the control points of the result (of both parts together, for a split) alternate in sign only where the control points of the spline alternate too. The same holds after any number of splits and elevations of any of the pieces. In exact arithmetic this holds for the sides of any plane, and also for the values of a curve: a curve crosses no plane more often than its control polygon, and the graph of a scalar curve no line. So a scalar curve with increasing control points increases, and one with convex control points is convex. The same holds for the control points and values of rational splines with positive weights, in exact arithmetic. In floating-point arithmetic the claim on splits and elevations holds for the sign of each coordinate, with all rounding errors.", "quantifier": "all splines of any dimension and degrees, all directions and rows, all split positions, all histories of splits and elevations, all finite increasing lists of parameters in the unit interval, all planes; any arithmetic that keeps the sign of an interpolation", "why_tests_cant": "the claim compares infinitely many parameters and all histories; a test sees a few crossings of a few curves", "anchors": ["src/bezier_spline.inc: SplitAtPosition, OrderElevateAlongParametricDimension, Evaluate", "src/rational_bezier_spline.inc: SplitAtPosition, OrderElevateAlongParametricDimension, Evaluate, ControlPoint"]}
{"id": "C109", "title": "Control points are near to the points they stand for, and the distance shrinks with the square of the parts", "statement": "The control point with index i of a spline stands for the point at the parameter i/p (in each direction, for degree p). Their distance is at most the sum over the directions of M / (8 (p - 1)), where M bounds p (p - 1) times the second differences of the control points in this direction; directions of degree 0 and 1 contribute nothing. Splits multiply M by the square of the length of the part in their direction and leave the other directions alone; degree elevations do not increase M. So after any sequence of splits and elevations the control points are within a constant times the sum of the squares of the lengths of the box from the geometry, and under elevation alone within M / (8 (p - 1)) for the growing degree p. The constant 1/8 cannot be improved.", "quantifier": "all splines of any dimension and degrees, all lengths (norms), all control points, all sequences of splits and elevations, over every ordered field", "why_tests_cant": "the claim is a rate of convergence over all histories of splits and elevations; a test sees finitely many parts", "anchors": ["src/bezier_spline.inc: SplitAtPosition, OrderElevateAlongParametricDimension, Evaluate, ControlPoint"]}
{"id": "C110", "title": "The control points of rational splines converge to the geometry, with the square of the parts", "statement": "Take a rational spline with weights of at least w0 > 0 and control points of length at most R, and any part of it made by splits and degree elevations. The part is the rational spline over its box; its weights lie between the weights of the spline and its control points in every convex set that contains those of the spline. The distance of a control point of the part to the point it stands for is at most (E + R e) / w0, where E and e are the bounds of C109 for the weighted control points and for the weights: they shrink with the square of the box. Any two control points of the part, or a control point and any point of the part, have at most the distance (D + R d) / w0 with the bounds D and d of C100, which shrink with the box; so do the bounding boxes. Evaluate of a rational spline with positive weights is Lipschitz continuous on the unit cube, with these constants.", "quantifier": "all rational splines with positive weights of any dimension and degrees, all lengths (norms), all control points and parameters in the unit cube, all sequences of splits and elevations, over every ordered field", "why_tests_cant": "the claim is a rate of convergence over all histories of splits and elevations; a test sees finitely many parts", "anchors": ["src/rational_bezier_spline.inc: SplitAtPosition, OrderElevateAlongParametricDimension, Evaluate, ControlPoint, MinimumCorner, MaximumCorner"]}
{"id": "C111", "title": "Small changes of control points are small changes of the geometry", "statement": "If two splines have the same degrees and corresponding control points have at most the distance ε, then the points Evaluate returns at the same parameters of the unit cube have at most the distance ε, and so have corresponding control points after the same splits and degree elevations, in any order and number, and after composition with the same inner spline. Derivatives of orders o enlarge the distance by at most the product of p!/(p-o)! 2^o. Sums and differences of splines add the distances; products with factors of lengths at most R1 and R2 change by at most ε R2 + R1 ε'; n-th powers of splines with control points at most R in absolute value change by at most n R^(n-1) ε. Moving the control points of the inner spline of a composition by at most ε_d in coordinate d moves the values by at most the sum of L_d ε_d with the steps L_d of the outer spline. For rational splines with weights of at least w0 and control points of length at most R, changes of the weighted control points by ε and of the weights by δ change values, and control points after any history of splits and elevations, by at most (ε + R δ) / w0.", "quantifier": "all pairs of splines with the same degrees, all lengths (norms), distances, parameters of the unit cube, histories of splits and elevations, inner splines in the unit cube, over every ordered field", "why_tests_cant": "the claim bounds the effect of every perturbation of every control point over all histories; a test sees finitely many", "anchors": ["src/bezier_spline.inc: Evaluate, SplitAtPosition, OrderElevateAlongParametricDimension, DerivativeWRTParametricDimension, Compose, operator+, operator+=, operator-=, operator*", "src/rational_bezier_spline.inc: Evaluate, SplitAtPosition, OrderElevateAlongParametricDimension, ControlPoint"]}
{"id": "C112", "title": "Derivatives of the parts of a spline: joints are smooth, tangents at corners are those of the control net", "statement": "Every derivative EvaluateDerivative returns for a part of a spline, made by any splits and degree elevations, is that of the whole spline at the corresponding parameter, times the widths of the part's box to the powers of the orders. So where two parts meet, all their derivatives agree up to these factors: splitting and elevating never introduces a kink. The same holds for the splines DerivativeWRTParametricDimension returns, and for rational splines wherever the weight is not zero. At a corner the first derivative in a direction is the degree times the step from the corner to the neighbour control point, for rational splines also times the ratio of the weights of the neighbour and the corner. For polynomial splines the derivative of order o in one direction at a corner is p!/(p-o)! times the o-th difference of the first o+1 control points, counted inwards, with the sign of the direction. The mixed derivative in two directions at a corner (the twist) is the product of the two degrees times P11 - P10 - P01 + P00 of the four control points at the corner, with the signs of both directions.", "quantifier": "all real splines and rational splines of any dimension and degrees below the table limit, all parts, parameters and orders, all corners and directions", "why_tests_cant": "the claim is about derivatives, which are limits, over all histories of splits and elevations", "anchors": ["src/bezier_spline.inc: SplitAtPosition, OrderElevateAlongParametricDimension, EvaluateDerivative, DerivativeWRTParametricDimension", "src/rational_bezier_spline.inc: SplitAtPosition, OrderElevateAlongParametricDimension, EvaluateDerivative"]}
{"id": "C113", "title": "Splitting at several positions in floating-point arithmetic", "statement": "SplitAtPosition with a vector of strictly increasing positions between 0 and 1 returns one more part than there are positions, in floating-point arithmetic as well, and the cuts are where the positions say up to rounding errors that do not grow with the number of cuts. (False as stated, see the note.)", "quantifier": "all positions that are floating-point numbers, any number of them, all rounding functions to nearest, all precisions, all consistent polynomial and rational splines of any dimension and degrees", "why_tests_cant": "the failing positions are a few pairs of numbers next to 0 and 1 among all pairs of doubles, and the errors are bounded for any number of cuts", "anchors": ["src/bezier_spline.inc: SplitAtPosition (vector)", "src/rational_bezier_spline.inc: SplitAtPosition (vector)"]}
{"id": "C114", "title": "With positive weights the rounding errors of rational splines do not depend on how different the weights are", "statement": "A rational spline made of points and positive weights in floating-point arithmetic, after any sequence of degree elevations, splits, scalings, negations, translations and compositions with polynomial splines, evaluates to what the same operations give with real numbers, up to an error per coordinate that depends on the number of roundings and on the size of the control points, but not on the weights: weights of 10^30 beside weights of 10^-30 do no harm. The same holds for control points that are read, and for products, sums and differences of rational splines. It also holds for all patches that the loops of the microstructure example compose. No weight becomes zero or negative.", "quantifier": "all floating-point arithmetics with relative rounding errors, all positive weights, all points, degrees and dimensions, all sequences of these operations, all parameters in the unit cube", "why_tests_cant": "the statement compares floating-point results with exact ones for all weights; a test with a few weights cannot show that the ratio of the weights does not matter", "anchors": ["src/rational_bezier_spline.hpp: constructors", "src/rational_bezier_spline.inc: Evaluate, ControlPoint, OrderElevateAlongParametricDimension, SplitAtPosition, Compose, operator+, operator-, operator*", "example/Microstructure/microstructure_build.cpp: main"]}
{"id": "C115", "title": "Builds without assertions give the same results wherever a debug build gives one", "statement": "In a build with NDEBUG (every build type but Debug) each call, and each program of calls, returns the same value or throws the same exception as in a debug build, unless the debug build stops at a failed assertion. Programs that respect the preconditions on degrees, dimensions and indices therefore run identically in both builds, whatever the numbers are. On consistent splines the arithmetic, degree elevation, splitting, evaluation and composition with polynomial inner splines never return a result in a release build that the debug build does not return: where the debug build stops, the release build reads behind the table of binomial coefficients. What release builds accept in addition is exact: surplus control points are ignored by Evaluate and ForwardEvaluate while missing ones are undefined behaviour, in any number of dimensions; rational splines may get numerator and weights of different degrees; derivatives of Bernstein polynomials of too high a degree are computed correctly if the coefficients needed are in the table; sums of dual numbers ignore surplus derivatives of the right operand; Base64 decoding ignores incomplete groups and incomplete points.", "quantifier": "all programs on polynomial and rational splines, all calls on consistent splines, all evaluations of any objects, all dual number programs, all strings; any arithmetic", "why_tests_cant": "a test runs in one build type at a time and on a few inputs; the statement compares two builds on all programs, including those whose behaviour is undefined in one of them", "anchors": ["CMakeLists.txt: CMAKE_BUILD_TYPE, NDEBUG", "src/bezier_spline.hpp: BezierSpline", "src/bezier_spline.inc: operator+, operator-, operator*, Compose", "src/rational_bezier_spline.hpp: constructors", "src/rational_bezier_spline.inc: CheckSplineCompatibility uses", "src/utils/fastbinomialcoefficient.hpp: choose", "src/utils/algorithms/bernstein_polynomial.hpp: Evaluate, EvaluateDerivative", "src/utils/algorithms/algo_diff/algo_diff_type.inc: operator+=, operator-, operator*=, operator/=", "src/utils/base64.hpp: Decode"]}
{"id": "C116", "title": "An object changed in place computes what its history of changes says", "statement": "After any sequence of calls that change a spline object (operator*= with a scalar, operator+= and -= with a point or a spline, degree elevation, TransposeAndScale, FitIntoUnitCube, writes to control points by index tuple or position, UpdateDegrees) the object computes the function obtained by applying the documented effect of each call in turn. Writes replace exactly one control point; UpdateDegrees keeps the list of control points in storage order, cut off or filled with zeros. For rational splines the same holds for numerator and weight function separately: sums keep a shared weight function and multiply different ones, writes to weights leave the weighted control points alone, and Evaluate returns the quotient.", "quantifier": "all histories of mutating calls of any length whose operands compute some function and fit the size limits, all objects, all degrees and dimensions", "why_tests_cant": "a test checks one call on one object; the statement composes the effects of arbitrarily long histories of different calls on the same object", "anchors": ["src/bezier_spline.hpp: UpdateDegrees, operator*=, operator+=, operator-=, ControlPoint, TransposeAndScale, FitIntoUnitCube", "src/bezier_spline.inc: operator+=, operator-=, OrderElevateAlongParametricDimension", "src/rational_bezier_spline.hpp: UpdateDegrees, WeightedControlPoint, Weight, GetWeights, GetWeightedControlPoints", "src/rational_bezier_spline.inc: operator+=, operator-=, operator*="]}
{"id": "C117", "title": "The derivative of a rational spline in a direction in which it is constant is the zero spline", "statement": "A rational spline of degree zero in a parametric direction does not depend on that parameter, so its derivative in that direction is zero. DerivativeWRTParametricDimension should return a spline that computes zero there, for every consistent spline and all orders, as EvaluateDerivative returns zero at every parameter where the weight is not zero. (False of the code: the call divides an integer by zero.)", "quantifier": "all consistent rational splines, all dimensions and degrees, all orders, any arithmetic (EvaluateDerivative: all parameters with a nonzero weight)", "why_tests_cant": "the failure depends on the wrap-around of an unsigned subtraction carried through two products and a difference into a division; no test of the repository differentiates a rational spline of degree zero, and a test could only show single cases", "anchors": ["src/rational_bezier_spline.inc: DerivativeWRTParametricDimension, EvaluateDerivative", "src/bezier_spline.inc: OrderElevateAlongParametricDimension, DerivativeWRTParametricDimension, operator*, operator-"]}
{"id": "C118", "title": "The chain rule holds for compositions", "statement": "For a composition returned by Compose, EvaluateDerivative of order one in each direction returns the sum, over the coordinates of the inner function, of the derivative of the coordinate times the derivative of the outer function in that direction, taken at the value of the inner function; all these calls succeed. It holds for polynomial and rational outer and inner functions, wherever the weight functions are not zero.", "quantifier": "all consistent outer and inner splines (polynomial or rational) of any dimension and degrees within the binomial table whose composition is accepted, all directions, all parameters where the weights are not zero, over the real numbers", "why_tests_cant": "the identity combines five calls (the composition, evaluation and three derivatives) at every real parameter and for arbitrary shapes; tests compare derivatives with single numbers", "anchors": ["src/bezier_spline.inc: Compose, EvaluateDerivative, ForwardEvaluate", "src/rational_bezier_spline.inc: Compose, EvaluateDerivative"]}
{"id": "C119", "title": "Converting polynomial splines to rational ones changes no result", "statement": "Converting a polynomial spline to a rational one and then evaluating it, scaling it, adding a point, negating it, elevating its order, splitting it, computing its bounding box or unit cube check, adding, subtracting or multiplying it, composing it (as outer or inner function, with polynomial or rational partners), or computing the sensitivities of a composition returns exactly the spline (control points and weights), point or list that one gets by calling the operation on the polynomial spline and converting the result afterwards. All calls succeed. For sums of splines of different degrees, and for derivative splines, the functions are the same and the weights are one, but the degrees are larger.", "quantifier": "all consistent polynomial splines of any dimension and degrees, over every ordered field (derivatives: over the real numbers), all arguments of the operations within their documented limits (tables and loop bounds); sums by exact spline equality: equal degrees", "why_tests_cant": "the two sides run different overloads with different intermediate computations (products of weights, powers of weights, compositions of weights); equality of the results for every spline cannot be settled by examples", "anchors": ["src/rational_bezier_spline.hpp: RationalBezierSpline(PolynomialBezier), Compose", "src/rational_bezier_spline.inc: Evaluate, ForwardEvaluate, EvaluateDerivative, operators, OrderElevateAlongParametricDimension, SplitAtPosition, ComposeSensitivity, FitsIntoUnitCube, MinimumCorner, MaximumCorner", "src/bezier_spline.inc: Compose, ComposeSensitivity, ComposeDenominatorSpline"]}
{"id": "C120", "title": "Orientation and numbering of the parametric dimensions do not matter", "statement": "If the control points of a spline are reversed along one dimension (or the indices of two neighbouring dimensions are exchanged), then the values, order elevation, splitting, sums, differences, products, powers, bounding box, unit cube check, compositions and derivatives of the new spline are those of the old one with the same reversal (exchange): values at 1 - t in that dimension, pieces of a split at 1 - z in exchanged order, derivatives with a factor -1 for every derivative in the reversed dimension. For rational splines the same holds for values (including the division by a zero weight), control points and weights, order elevation, splitting, sums, products, bounding box, derivatives where the weight is not zero, and compositions with or of them. Every spline has exactly one reversed spline, and reversing twice gives it back.", "quantifier": "all consistent splines of any dimension and degrees over every ordered field (derivatives: normed fields), every dimension, all arguments within the documented limits; exchange: neighbouring dimensions, which generate all permutations", "why_tests_cant": "the code treats the dimensions asymmetrically (offsets, loops from the first dimension on, splitting from the left), so symmetry is a consequence for all inputs, not a construction", "anchors": ["src/bezier_spline.hpp: ControlPoint, Evaluate", "src/bezier_spline.inc: Evaluate, EvaluateDerivative, DerivativeWRTParametricDimension, OrderElevateAlongParametricDimension, SplitAtPosition, operators, RaisePower, Compose, MinimumCorner, MaximumCorner, FitsIntoUnitCube", "src/rational_bezier_spline.inc: Evaluate, EvaluateDerivative, OrderElevateAlongParametricDimension, SplitAtPosition, operators, MinimumCorner, MaximumCorner, FitsIntoUnitCube", "src/rational_bezier_spline.hpp: Compose"]}
{"id": "C121", "title": "Laws between operations on rational splines hold for the returned objects", "statement": "For rational splines the following give equal objects (same degrees, same weighted control points, same weights), not only equal values: a + b and b + a; a - b and a + (-b); (a + b) * c and a * c + b * c for a number c; (a + p) + q and a + (p + q), and (a + p) + b and (a + b) + p, for points p, q; products in either order and grouping; degree elevations in either order; splitting a sum, product, elevated spline or composition, and the sum, product, elevation or composition of the pieces; composing twice and composing with a composition; composing a product and the product of the compositions. The same holds with a rational inner spline: splitting a composition of a polynomial (inner weights positive) or rational outer spline with it gives the compositions with its pieces, a composed with (b composed with c) equals (a composed with b) composed with c, and a rational outer spline with unit weights gives the same object as its numerator. (a + b) + c and a + (b + c), and a * (b + c) and a * b + a * c, are equal objects if the summands share their weights; with other weights the two groupings of a sum are defined and have the same values where the weights are not zero, and the objects may have different degrees (witness).", "quantifier": "all consistent rational splines of any dimension and degrees over every field of characteristic 0 (splitting and composition: every ordered field), equal or different weights, all arguments within the documented limits", "why_tests_cant": "operator+ takes one of two paths depending on whether the weights are equal, and the laws relate results of different paths for every pair of splines; equality of objects is what operator== and the exports observe", "anchors": ["src/rational_bezier_spline.inc: OrderElevateAlongParametricDimension, SplitAtPosition, operator*, operator+, operator-, operator+= (point)", "src/rational_bezier_spline.hpp: Compose, operator==", "src/bezier_spline.hpp: ComposeNumeratorSpline, ComposeDenominatorSpline"]}
{"id": "C122", "title": "Operations that lose no information", "statement": "Different splines stay different: two splines with the same elevated spline are equal (polynomial and rational); each of the two parts of a split alone determines the spline; if a * b and a * c are the same spline and a is not the zero spline, then b and c are the same spline; a product has only zero control points exactly if a factor has; splines of numbers with the same n-th power are equal for odd n, and equal up to one common sign for every n other than 0; splines of the same degrees with the same first derivatives in all directions and the same value at one place are equal. Comparing by subtraction is exact: a -= b has only zero control points exactly if a and b have the same values, whatever their degrees; and for rational splines (weights not all zero) the numerator of a - b has only zero control points exactly if a and b have the same values wherever both are defined. The zeroth power and products with the zero spline do lose information (witness).", "quantifier": "all consistent splines of any dimension and degrees over every field of characteristic 0 (splits and powers: every ordered field; derivatives: the real numbers, control points in any normed space), all arguments within the documented limits", "why_tests_cant": "injectivity relates all pairs of inputs; a test can only show that some different inputs give different results", "anchors": ["src/bezier_spline.inc: OrderElevateAlongParametricDimension, SplitAtPosition, operator*, RaisePower, operator-=, EvaluateDerivative", "src/rational_bezier_spline.inc: OrderElevateAlongParametricDimension, operator-"]}
{"id": "C123", "title": "Constant and neutral arguments", "statement": "A spline has the same value everywhere exactly if all its control points are that value. Neutral arguments return the very same object: a * 1 and 1 * a for the constant 1 of degree 0 (polynomial and rational), a + 0, a += 0 and a -= 0 for a spline of zeros of no higher degrees, a + 0 and 0 + a for the rational constant 0 of degree 0 and weight 1 whatever the weights of a, the first power, and the composition of a curve with the straight line from 0 to 1. Multiplying with the constant 1 of degree 1 in one dimension is degree elevation in that dimension. The second power is the product with itself. Composing with a spline that computes the identity gives the elevated spline of the documented degrees (polynomial and rational outer spline). A composition with a constant outer spline has only control points equal to that constant.", "quantifier": "all consistent splines of any dimension and degrees over every field of characteristic 0 (composition: every ordered field), all arguments within the documented limits", "why_tests_cant": "each law ranges over every spline; that a product with 1 reproduces every control point rests on the binomial weights of all index pairs adding up to 1, and the identity law on those of the composition", "anchors": ["src/bezier_spline.inc: operator*, operator+, operator+=, operator-=, RaisePower, OrderElevateAlongParametricDimension, Compose", "src/rational_bezier_spline.inc: operator*, operator+", "src/rational_bezier_spline.hpp: Compose"]}
{"id": "C124", "title": "The sensitivities of a composition as objects", "statement": "Each spline that ComposeSensitivity returns is, object for object, the composition of the spline of numbers that is 1 at that control point of the outer spline and 0 at the others; this holds for polynomial and for rational inner splines. For a rational outer spline it is the composition of the rational spline with the same weights that is 1 at that control point and 0 at the others. Every control point of the composition is the sum of the outer control points weighted with the control points of the sensitivities at the same index; these lie between 0 and 1 and add up to 1. For rational outer or inner splines the same holds for the weighted control points, all sensitivities have the weights of the composition, and the weighted control points of the sensitivities add up to these weights. Moving one control point of the outer spline, at fixed weights, moves every (weighted) control point of the composition by that displacement times the (weighted) control point of the sensitivity and leaves its weights unchanged. Splitting every sensitivity gives the sensitivities of the compositions with the parts of the inner spline (polynomial, and rational with positive weights; for a rational outer spline rational with any weights), and reversing or exchanging dimensions of the inner spline, polynomial or rational, does the same to every sensitivity.", "quantifier": "all consistent outer splines of any dimension and degrees, all inner splines that fit into the unit cube, every control point, over every ordered field, within the documented limits", "why_tests_cant": "the sensitivities are assembled by other code paths than the composition; that they agree at every control point of every pair of splines is not a statement about sampled values", "anchors": ["src/bezier_spline.inc: ComposeSensitivity, ComposeNumeratorHelper, Compose, SplitAtPosition", "src/rational_bezier_spline.inc: ComposeSensitivity"]}
