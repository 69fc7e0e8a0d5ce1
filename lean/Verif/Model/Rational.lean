import Verif.Model.Compose
import Verif.Model.Split

/-! # `RationalBezierSpline` (without derivatives) -/

namespace Bezman

/-- `point / scalar` of the control point types. -/
class ScalarDiv (K V : Type) where
  sdiv : V → K → V

/-- arithmetic types -/
instance (K : Type) [Div K] : ScalarDiv K K := ⟨fun x w => x / w⟩
/-- `Point::operator/`, src/point.hpp:126-138 -/
instance (K : Type) (n : Nat) [Mul K] [One K] [Div K] : ScalarDiv K (Point K n) :=
  ⟨fun x w => x.divScalar w⟩

/-- a division whose denominator is not known to be nonzero; a denominator that compares equal to 0 is an error (of an
`AlgoDiffType` only the value counts) -/
def divM {K V : Type} [ScalarDiv K V] [Zero K] [BEq K] (x : V) (w : K) : M V :=
  if w == 0 then .error .divZero else .ok (ScalarDiv.sdiv x w)

/-- Data members of `RationalBezierSpline`, src/rational_bezier_spline.hpp:66, 71. -/
structure RSpline (K V : Type) where
  /-- `weighted_spline_`, also `GetNumeratorSpline()` (hpp:213-215) -/
  num : Spline V
  /-- `weight_function_`, also `GetWeightFunctionSpline()` (hpp:208-210) -/
  wt : Spline K
deriving DecidableEq, Repr

namespace RSpline
variable {K V W U : Type}

/-- `parametric_dimension` -/
def dim (r : RSpline K V) : Nat := r.num.dim

/-- `CheckSplineCompatibility`, src/rational_bezier_spline.hpp:77-81. -/
def compatible (r : RSpline K V) : Bool := r.num.degrees == r.wt.degrees

/-- constructor from two splines, src/rational_bezier_spline.hpp:123-129. -/
def ofSplines (num : Spline V) (wt : Spline K) : M (RSpline K V) := do
  assertM (compatible ⟨num, wt⟩)
  pure ⟨num, wt⟩

/-- constructor from a polynomial spline, src/rational_bezier_spline.hpp:104-120. -/
def ofSpline [One K] (s : Spline V) : M (RSpline K V) := do
  let wt ← Spline.ofPoints s.degrees (List.replicate s.ncp (1 : K))
  assertM (compatible ⟨s, wt⟩)
  pure ⟨s, wt⟩

/-- constructor from degrees, src/rational_bezier_spline.hpp:135-137. -/
def ofDegrees [Zero K] [Zero V] (deg : List Nat) : M (RSpline K V) := do
  let num ← Spline.ofDegrees (V := V) deg
  let wt ← Spline.ofDegrees (V := K) deg
  pure ⟨num, wt⟩

/-- constructor from degrees, control points and weights,
src/rational_bezier_spline.hpp:140-153. -/
def ofPoints [Zero V] [SMul K V] (deg : List Nat) (points : List V) (weights : List K) :
    M (RSpline K V) := do
  let num ← Spline.ofDegrees (V := V) deg
  let wt ← Spline.ofPoints deg weights
  assertM (points.length == weights.length)
  assertM (num.ncp == weights.length)
  let cps ← loop num.cps.length (fun i cps => do
    let x ← rd points i
    let w ← rd weights i
    wr cps i (w • x)) num.cps
  let num := { num with cps := cps }
  assertM (compatible ⟨num, wt⟩)
  pure ⟨num, wt⟩

/-- `UpdateDegrees`, src/rational_bezier_spline.hpp:196-202. -/
def updateDegrees [Zero K] [Zero V] (r : RSpline K V) (new_degrees : List Nat) :
    M (RSpline K V) := do
  let wt ← r.wt.updateDegrees new_degrees
  let num ← r.num.updateDegrees new_degrees
  assertM (compatible ⟨num, wt⟩)
  pure ⟨num, wt⟩

/-- `LocalToGlobalIndex`, src/rational_bezier_spline.hpp:537-540. -/
def localToGlobal (r : RSpline K V) (i : Nat) : M (List Nat) := r.wt.localToGlobal i
/-- `GlobalToLocalIndex`, src/rational_bezier_spline.hpp:547-551. -/
def globalToLocal (r : RSpline K V) (idx : List Nat) : M Nat := r.wt.globalToLocal idx

/-- `WeightedControlPoint(array)`, src/rational_bezier_spline.inc:70-86. -/
def weightedControlPoint (r : RSpline K V) (idx : List Nat) : M V := r.num.controlPoint idx
/-- `Weight(array)`, src/rational_bezier_spline.inc:110-124. -/
def weight (r : RSpline K V) (idx : List Nat) : M K := r.wt.controlPoint idx
/-- `WeightedControlPoint(i, j, ...)`, src/rational_bezier_spline.inc:48-68. -/
def weightedControlPointVariadic (r : RSpline K V) (idx : List Nat) : M V :=
  r.num.controlPointVariadic idx
/-- `Weight(i, j, ...)`, src/rational_bezier_spline.inc:88-108. -/
def weightVariadic (r : RSpline K V) (idx : List Nat) : M K := r.wt.controlPointVariadic idx

section
variable [Zero K] [BEq K] [ScalarDiv K V]

/-- `ControlPoint(array)`, src/rational_bezier_spline.inc:38-46. -/
def controlPoint (r : RSpline K V) (idx : List Nat) : M V := do
  let x ← r.num.controlPoint idx
  let w ← r.wt.controlPoint idx
  divM x w

/-- `ControlPoint(i, j, ...)`, src/rational_bezier_spline.inc:25-36.  The braced
initialiser is the comma fold `(static_cast<size_t>(index), ...)`, a single
expression whose value is the last index; the remaining array entries are
zero-initialised. -/
def controlPointVariadic (r : RSpline K V) (idx : List Nat) : M V := do
  let last ← rd idx (idx.length - 1)
  let indices ← wr (List.replicate idx.length 0) 0 last
  r.controlPoint indices

/-- `Evaluate`, src/rational_bezier_spline.inc:126-133. -/
def evaluate [One K] [Sub K] [Add K] [Mul K] [Add V] [SMul K V] (r : RSpline K V) (t : List K) :
    M V := do
  let x ← r.num.evaluate t
  let w ← r.wt.evaluate t
  divM x w

end

section
variable [Zero K] [One K] [Add K] [Sub K] [Mul K] [Neg K] [Div K] [NatCast K]

/-- `UnweightedBasisFunctions`, src/rational_bezier_spline.inc:155-185. -/
def unweightedBasisFunctions [BEq K] (cfg : Cfg) (r : RSpline K V) (t : List K) :
    M (List K) := do
  assertM r.compatible
  let factors ← r.wt.basisFunctions cfg t
  let weight_eval ← loop factors.length (fun i acc => do
    let f ← rd factors i
    let w ← rd r.wt.cps i
    pure (acc + f * w)) 0
  let inv_weight_function ← divM (1 : K) weight_eval
  loop factors.length (fun i factors => do
    let f ← rd factors i
    wr factors i (f * inv_weight_function)) factors

/-- `BasisFunctions`, src/rational_bezier_spline.inc:135-153. -/
def basisFunctions [BEq K] (cfg : Cfg) (r : RSpline K V) (t : List K) : M (List K) := do
  assertM r.compatible
  let factors ← r.unweightedBasisFunctions cfg t
  loop factors.length (fun i factors => do
    let f ← rd factors i
    let w ← rd r.wt.cps i
    wr factors i (f * w)) factors

/-- `BasisFunctionContributions`, src/rational_bezier_spline.inc:187-194. -/
def basisFunctionContributions (cfg : Cfg) (r : RSpline K V) (t : List K) : M (List (List K)) :=
  r.num.basisFunctionContributions cfg t

/-- `ForwardEvaluate`, src/rational_bezier_spline.inc:196-218. (There is no division
by the weight function.) -/
def forwardEvaluate [Zero V] [Add V] [SMul K V] (cfg : Cfg) (r : RSpline K V) (t : List K) :
    M V := do
  assertM r.compatible
  let factors ← r.num.basisFunctions cfg t
  Spline.weightedSum factors r.num.cps

end

section
variable [Zero K] [One K] [Add K] [Sub K] [Mul K] [Div K] [NatCast K] [Zero V] [Add V] [SMul K V]

/-- `OrderElevateAlongParametricDimension`, src/rational_bezier_spline.inc:437-448. -/
def orderElevate (r : RSpline K V) (par_dim : Nat) : M (RSpline K V) := do
  let num ← Spline.orderElevate K r.num par_dim
  let wt ← Spline.orderElevate K r.wt par_dim
  assertM (compatible ⟨num, wt⟩)
  pure ⟨num, wt⟩

omit [Div K] [NatCast K] [Zero V] in
/-- `SplitAtPosition(scalar, dimension)`, src/rational_bezier_spline.inc:450-464. -/
def splitAt [LT K] [DecidableLT K] (r : RSpline K V) (plane : K) (sd : Nat) :
    M (RSpline K V × RSpline K V) := do
  let n ← r.num.splitAt plane sd
  let w ← r.wt.splitAt plane sd
  let a ← ofSplines n.1 w.1
  let b ← ofSplines n.2 w.2
  pure (a, b)

omit [NatCast K] [Zero V] in
/-- `SplitAtPosition(std::vector, dimension)`, src/rational_bezier_spline.inc:466-506. -/
def splitAtMany [LT K] [DecidableLT K] (r : RSpline K V) (planes : List K) (sd : Nat) :
    M (List (RSpline K V)) := do
  if !Spline.isSorted planes then .error .throws
  else if planes.length = 0 then pure [r]
  else do
    let z0 ← rd planes 0
    let sp ← r.splitAt z0 sd
    let q ← loopFrom 1 planes.length (fun i (q : List (RSpline K V) × (RSpline K V × RSpline K V)) => do
      let z ← rd planes i
      let zp ← rd planes (i - 1)
      let rel := (z - zp) / (1 - zp)
      let sp ← q.2.2.splitAt rel sd
      pure (q.1 ++ [sp.1], sp)) ([sp.1], sp)
    pure (q.1 ++ [q.2.2])

end

/-! ## Arithmetic -/

/-- `operator*=(scalar)`, src/rational_bezier_spline.inc:548-559. -/
def smulAssign [SMul K V] (r : RSpline K V) (c : K) : M (RSpline K V) := do
  let num ← r.num.smulOp c
  assertM (compatible ⟨num, r.wt⟩)
  pure ⟨num, r.wt⟩

/-- `operator*(scalar)`, src/rational_bezier_spline.inc:561-569, and
`scalar * spline`, src/rational_bezier_spline.hpp:377-380. -/
def smulOp [SMul K V] (r : RSpline K V) (c : K) : M (RSpline K V) := do
  let num ← r.num.smulOp c
  ofSplines num r.wt

/-- `operator+=(point)`, src/rational_bezier_spline.inc:571-586. -/
def addPointAssign [Add V] [SMul K V] (r : RSpline K V) (pt : V) : M (RSpline K V) := do
  let cps ← loop r.num.ncp (fun i cps => do
    let x ← rd cps i
    let w ← rd r.wt.cps i
    wr cps i (x + w • pt)) r.num.cps
  let r := { r with num := { r.num with cps := cps } }
  assertM r.compatible
  pure r

/-- `operator+(point)`, src/rational_bezier_spline.inc:588-598, and `point + spline`,
src/rational_bezier_spline.hpp:391-395. -/
def addPoint [Add V] [SMul K V] (r : RSpline K V) (pt : V) : M (RSpline K V) := do
  let c ← ofSplines r.num r.wt
  c.addPointAssign pt

/-- `operator-=(point)`, src/rational_bezier_spline.inc:600-613. -/
def subPointAssign [Sub V] [SMul K V] (r : RSpline K V) (pt : V) : M (RSpline K V) := do
  let cps ← loop r.num.ncp (fun i cps => do
    let x ← rd cps i
    let w ← rd r.wt.cps i
    wr cps i (x - w • pt)) r.num.cps
  pure { r with num := { r.num with cps := cps } }

/-- `operator-(point)`, src/rational_bezier_spline.inc:615-625. -/
def subPoint [Sub V] [SMul K V] (r : RSpline K V) (pt : V) : M (RSpline K V) := do
  let c ← ofSplines r.num r.wt
  c.subPointAssign pt

/-- unary `operator-`, src/rational_bezier_spline.inc:627-636. -/
def negOp [Neg V] (r : RSpline K V) : M (RSpline K V) := do
  let num ← r.num.negOp
  ofSplines num r.wt

section
variable [Zero K] [One K] [Add K] [Sub K] [Mul K] [Div K] [NatCast K] [Zero V] [Add V] [SMul K V]
  [BEq K]

omit [Sub K] [BEq K] in
/-- `spline * weight` and `weight * spline` -/
def mulWeight (cfg : Cfg) (w : Spline K) (s : Spline V) : M (Spline V) :=
  Spline.mulOp K cfg (fun c x => c • x) w s

omit [Sub K] [BEq K] in
@[inherit_doc mulWeight]
def mulWeight' (cfg : Cfg) (s : Spline V) (w : Spline K) : M (Spline V) :=
  Spline.mulOp K cfg (fun x c => c • x) s w

/-- `operator+(rational)`, src/rational_bezier_spline.inc:638-653. -/
def addOp (cfg : Cfg) (r rhs : RSpline K V) : M (RSpline K V) := do
  if r.wt.eqOp rhs.wt then do
    let num ← Spline.addOp K cfg r.num rhs.num
    ofSplines num r.wt
  else do
    let a ← mulWeight' cfg r.num rhs.wt
    let b ← mulWeight cfg r.wt rhs.num
    let num ← Spline.addOp K cfg a b
    let wt ← Spline.mulScalar cfg r.wt rhs.wt
    ofSplines num wt

/-- `operator+=(rational)`, src/rational_bezier_spline.inc:655-673. -/
def addAssign (cfg : Cfg) (r rhs : RSpline K V) : M (RSpline K V) := do
  if r.wt.eqOp rhs.wt then do
    let num ← Spline.addAssign K cfg r.num rhs.num
    pure ⟨num, r.wt⟩
  else do
    let a ← mulWeight' cfg r.num rhs.wt
    let b ← mulWeight cfg r.wt rhs.num
    let num ← Spline.addAssign K cfg a b
    let wt ← Spline.mulScalar cfg r.wt rhs.wt
    assertM (compatible ⟨num, wt⟩)
    pure ⟨num, wt⟩

/-- `operator-(rational)`, src/rational_bezier_spline.inc:675-690. -/
def subOp [Sub V] (cfg : Cfg) (r rhs : RSpline K V) : M (RSpline K V) := do
  if r.wt.eqOp rhs.wt then do
    let num ← Spline.subOp K cfg r.num rhs.num
    ofSplines num r.wt
  else do
    let a ← mulWeight' cfg r.num rhs.wt
    let b ← mulWeight cfg r.wt rhs.num
    let num ← Spline.subOp K cfg a b
    let wt ← Spline.mulScalar cfg r.wt rhs.wt
    ofSplines num wt

/-- `operator-=(rational)`, src/rational_bezier_spline.inc:692-710. -/
def subAssign [Sub V] (cfg : Cfg) (r rhs : RSpline K V) : M (RSpline K V) := do
  if r.wt.eqOp rhs.wt then do
    let num ← Spline.subAssign K cfg r.num rhs.num
    pure ⟨num, r.wt⟩
  else do
    let a ← mulWeight' cfg r.num rhs.wt
    let b ← mulWeight cfg r.wt rhs.num
    let num ← Spline.subAssign K cfg a b
    let wt ← Spline.mulScalar cfg r.wt rhs.wt
    assertM (compatible ⟨num, wt⟩)
    pure ⟨num, wt⟩

omit [Sub K] [Zero V] [Add V] [SMul K V] [BEq K] in
/-- `operator*(rational)`, src/rational_bezier_spline.inc:712-724; `mul` is the product
of the control point types. -/
def mulOp [Zero U] [Add U] [SMul K U] (cfg : Cfg) (mul : V → W → U) (r : RSpline K V)
    (rhs : RSpline K W) : M (RSpline K U) := do
  let num ← Spline.mulOp K cfg mul r.num rhs.num
  let wt ← Spline.mulScalar cfg r.wt rhs.wt
  ofSplines num wt

end

/-! ## Coordinates, boxes -/

section
variable [Coords K V]
open Coords

/-- `ExtractDimension`, src/rational_bezier_spline.inc:726-733: the coordinate of the
numerator (not divided by the weight). -/
def extractDimension [Zero K] (r : RSpline K V) (dimension : Nat) : M (Spline K) :=
  Spline.extractDimension K r.num dimension

variable [Zero K] [BEq K] [ScalarDiv K V] [LT K] [DecidableLT K]

/-- the loop shared by `MinimumCorner` and `MaximumCorner`,
src/rational_bezier_spline.inc:839-858 and 866-885; `pick` is `std::min` or
`std::max`. -/
def corner (pick : K → K → K) (r : RSpline K V) : M V := do
  if r.num.ncp = 0 then .error .throws
  else do
    let idx ← r.localToGlobal 0
    let m ← r.controlPoint idx
    loopFrom 1 r.num.ncp (fun i m => do
      let x ← rd r.num.cps i
      let w ← rd r.wt.cps i
      let c ← divM x w
      pure (ofCoords (K := K) fun j => pick (coord m j) (coord c j))) m

/-- `MinimumCorner`, src/rational_bezier_spline.inc:834-859. -/
def minimumCorner (r : RSpline K V) : M V := corner Spline.stdMin r
/-- `MaximumCorner`, src/rational_bezier_spline.inc:861-886. -/
def maximumCorner (r : RSpline K V) : M V := corner Spline.stdMax r

/-- `FitsIntoUnitCube`, src/rational_bezier_spline.inc:811-832. -/
def fitsIntoUnitCube [One K] (r : RSpline K V) : M Bool := do
  let mx ← r.maximumCorner
  let mn ← r.minimumCorner
  pure (decide (∀ j : Fin (Coords.n K V), ¬ ((1 : K) < coord mx j ∨ coord mn j < (0 : K))))

end

end RSpline

/-! ## Composition with rational splines -/

section
variable {K V W : Type} [Zero K] [One K] [Add K] [Sub K] [Mul K] [Neg K] [Div K] [NatCast K]
  [Zero V] [Add V] [SMul K V] [Coords K W]

/-- `ComposeNumeratorSpline(rational)`: src/bezier_spline.inc:1079-1302 with the
rational branch of the lambda at 1187. -/
def Spline.composeNumeratorRational (cfg : Cfg) (s : Spline V) (inner : RSpline K W) :
    M (Spline V) :=
  s.composeNumerator cfg inner.num.degrees (fun d => inner.extractDimension d)
    (fun e => Spline.subOp K cfg inner.wt e)

omit [Zero V] [Add V] [SMul K V] in
/-- `ComposeNumeratorSensitivity(rational)`: src/bezier_spline.inc:1079-1302 with the
rational branch of the lambda at 1187. -/
def Spline.composeNumeratorSensitivityRational (cfg : Cfg) (s : Spline V) (inner : RSpline K W) :
    M (List (Spline K)) :=
  s.composeNumeratorSensitivity cfg inner.num.degrees (fun d => inner.extractDimension d)
    (fun e => Spline.subOp K cfg inner.wt e)

omit [Sub K] [Neg K] [Zero V] [Add V] [SMul K V] [Coords K W] in
/-- `ComposeDenominatorSpline`, src/bezier_spline.inc:1304-1321. -/
def Spline.composeDenominator (cfg : Cfg) (s : Spline V) (inner : RSpline K W) : M (Spline K) :=
  inner.wt.raisePower cfg s.degrees.sum

variable [BEq K] [ScalarDiv K W] [LT K] [DecidableLT K]

/-- `BezierSpline::Compose(rational)`, src/bezier_spline.inc:959-986. -/
def Spline.composeRational (cfg : Cfg) (s : Spline V) (inner : RSpline K W) :
    M (RSpline K V) := do
  let fits ← inner.fitsIntoUnitCube
  if !fits then .error .throws
  else do
    let n ← s.composeNumeratorRational cfg inner
    let d ← s.composeDenominator cfg inner
    RSpline.ofSplines n d

omit [Zero V] [Add V] [SMul K V] in
/-- `BezierSpline::ComposeSensitivity(rational)`, src/bezier_spline.inc:988-1034. -/
def Spline.composeSensitivityRational (cfg : Cfg) (s : Spline V) (inner : RSpline K W) :
    M (List (RSpline K K)) := do
  let fits ← inner.fitsIntoUnitCube
  if !fits then .error .throws
  else do
    let ns ← s.composeNumeratorSensitivityRational cfg inner
    let d ← s.composeDenominator cfg inner
    loop s.ncp (fun i ret => do
      let n ← rd ns i
      let q ← RSpline.ofSplines n d
      pure (ret ++ [q])) []

omit [BEq K] [ScalarDiv K W] in
/-- `RationalBezierSpline::Compose(polynomial)`, src/rational_bezier_spline.hpp:448-460. -/
def RSpline.compose (cfg : Cfg) (r : RSpline K V) (inner : Spline W) : M (RSpline K V) := do
  let n ← Spline.compose K cfg r.num inner
  let d ← Spline.compose K cfg r.wt inner
  RSpline.ofSplines n d

omit [BEq K] [ScalarDiv K W] [LT K] [DecidableLT K] in
/-- `RationalBezierSpline::Compose(rational)`, src/rational_bezier_spline.hpp:506-521.
(The inner function is not checked against the unit cube.) -/
def RSpline.composeRational (cfg : Cfg) (r : RSpline K V) (inner : RSpline K W) :
    M (RSpline K V) := do
  let n ← r.num.composeNumeratorRational cfg inner
  let d ← r.wt.composeNumeratorRational cfg inner
  RSpline.ofSplines n d

omit [Sub K] [Neg K] [Zero K] [One K] [Add K] [Div K] [NatCast K] [Zero V] [Add V] [SMul K V] [Coords K W] [BEq K] [ScalarDiv K W] [LT K] [DecidableLT K] in
/-- the rescaling loop shared by both `ComposeSensitivity` functions,
src/rational_bezier_spline.inc:755-769 and 794-808. -/
def RSpline.rescaleSensitivities (r : RSpline K V) (numerators : List (Spline K)) (den : Spline K) :
    M (List (RSpline K K)) :=
  loop numerators.length (fun i ret => do
    let n ← rd numerators i
    let w ← rd r.wt.cps i
    let n ← n.smulOp w
    let q ← RSpline.ofSplines n den
    pure (ret ++ [q])) []

omit [Zero V] [Add V] [SMul K V] [BEq K] [ScalarDiv K W] in
/-- `RationalBezierSpline::ComposeSensitivity(polynomial)`,
src/rational_bezier_spline.inc:735-770. -/
def RSpline.composeSensitivity (cfg : Cfg) (r : RSpline K V) (inner : Spline W) :
    M (List (RSpline K K)) := do
  let ns ← Spline.composeSensitivity K cfg r.num inner
  let d ← Spline.compose K cfg r.wt inner
  r.rescaleSensitivities ns d

omit [Zero V] [Add V] [SMul K V] [BEq K] [ScalarDiv K W] [LT K] [DecidableLT K] in
/-- `RationalBezierSpline::ComposeSensitivity(rational)`,
src/rational_bezier_spline.inc:772-809. -/
def RSpline.composeSensitivityRational (cfg : Cfg) (r : RSpline K V) (inner : RSpline K W) :
    M (List (RSpline K K)) := do
  let ns ← r.num.composeNumeratorSensitivityRational cfg inner
  let d ← r.wt.composeNumeratorRational cfg inner
  r.rescaleSensitivities ns d

end
end Bezman
