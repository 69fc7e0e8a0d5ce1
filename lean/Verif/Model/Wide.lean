import Verif.Model.Arith
import Verif.Model.Point
import Verif.Model.Split
import Verif.Model.Rational

/-!
# Points with coordinates wider than `double`

`scalar * point` is one function for all coordinate types, and its scalar is a `double` (src/point.hpp:121-124).
When `ScalarType` is `long double` the scalar is converted to `double` first; the products `point * scalar`
(src/point.hpp:108-119) keep it.  For `double`, and for `float`, whose values `double` contains, the conversion does nothing, and the
functions of Model/Spline and Model/Arith apply.  Here are the functions of the library which multiply from the left, for the wider type: `conv` is the conversion
to `double` and back.
-/

namespace Bezman.Spline

variable {K : Type} [Zero K] [One K] [Add K] [Sub K] [Mul K] [Neg K] [Div K] [NatCast K] {n : Nat}

/-- `ForwardEvaluate`, src/bezier_spline.inc:399-423, of points: the basis function is the left operand in line 419. -/
def forwardEvaluateWide (conv : K → K) (cfg : Cfg) (s : Spline (Point K n)) (t : List K) : M (Point K n) := do
  let factors ← s.basisFunctions cfg t
  weightedSum (factors.map conv) s.cps

/-- `EvaluateDerivative`, src/bezier_spline.inc:458-484, of points: the basis function is the left operand in line 480. -/
def evaluateDerivativeWide (conv : K → K) (cfg : Cfg) (s : Spline (Point K n)) (t : List K) (nth_derivs : List Nat) : M (Point K n) := do
  let factors ← s.basisFunctionsDerivatives cfg t nth_derivs
  weightedSum (factors.map conv) s.cps

/-- `operator*` of a scalar-valued with a point-valued spline, src/bezier_spline.inc:873-906: the control point of the scalar-valued spline
is the left operand in line 97, the two factors multiply from the right. -/
def mulLeftWide (conv : K → K) (cfg : Cfg) (s : Spline K) (t : Spline (Point K n)) : M (Spline (Point K n)) :=
  mulOp K cfg (fun c v => conv c • v) s t

end Bezman.Spline

/-! ## Splitting at several positions

The position of the next cut in what is left over is computed as
`const double ... = (z - zp) / (1. - zp)` (src/bezier_spline.inc:1447-1449,
src/rational_bezier_spline.inc:491-494).  `z - zp` is an operation of `ScalarType`; `1. - zp` and the quotient are
operations of the wider one of `double` and `ScalarType`; the result is converted to `double`, and to `ScalarType` in the
call of `SplitAtPosition`.  The functions below take the whole expression as a parameter `rel zp z`.  For `double`
it is `(z - zp) / (1 - zp)`, and they are the functions of Model/Split and Model/Rational. -/

namespace Bezman
variable {K V : Type}

/-- `SplitAtPosition(std::vector, dimension)`, src/bezier_spline.inc:1418-1458, for any scalar type -/
def Spline.splitAtManyVia [Zero K] [One K] [Sub K] [LT K] [DecidableLT K] [Add V] [SMul K V] (rel : K → K → K) (s : Spline V)
    (planes : List K) (sd : Nat) : M (List (Spline V)) := do
  if !Spline.isSorted planes then .error .throws
  else if planes.length = 0 then pure [s]
  else do
    let z0 ← rd planes 0
    let sp ← s.splitAt z0 sd
    let r ← loopFrom 1 planes.length (fun i (r : List (Spline V) × (Spline V × Spline V)) => do
      let z ← rd planes i
      let zp ← rd planes (i - 1)
      let sp ← r.2.2.splitAt (rel zp z) sd
      pure (r.1 ++ [sp.1], sp)) ([sp.1], sp)
    pure (r.1 ++ [r.2.2])

/-- `SplitAtPosition(std::vector, dimension)`, src/rational_bezier_spline.inc:466-506, for any scalar type -/
def RSpline.splitAtManyVia [Zero K] [One K] [Add K] [Sub K] [Mul K] [LT K] [DecidableLT K] [Add V] [SMul K V] (rel : K → K → K)
    (r : RSpline K V) (planes : List K) (sd : Nat) : M (List (RSpline K V)) := do
  if !Spline.isSorted planes then .error .throws
  else if planes.length = 0 then pure [r]
  else do
    let z0 ← rd planes 0
    let sp ← r.splitAt z0 sd
    let q ← loopFrom 1 planes.length (fun i (q : List (RSpline K V) × (RSpline K V × RSpline K V)) => do
      let z ← rd planes i
      let zp ← rd planes (i - 1)
      let sp ← q.2.2.splitAt (rel zp z) sd
      pure (q.1 ++ [sp.1], sp)) ([sp.1], sp)
    pure (q.1 ++ [q.2.2])

end Bezman
