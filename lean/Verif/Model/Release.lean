import Verif.Model.RExpr
import Verif.Model.RationalDeriv
import Verif.Model.Base64
import Verif.Model.AlgoDiff

/-! # Release builds

CMakeLists.txt:87-90 defines `NDEBUG` for every configuration except `Debug`, so `assert` does nothing in a release build.  This file
repeats every function that contains an `assert`, or calls one that does, with the build as a parameter; nothing else is changed.
`Proofs/Release.lean` proves of each function that for a debug build it is the function it was copied from (theorems `..._debug`). -/

namespace Bezman

/-- the configuration, CMakeLists.txt:34-36, 87-90 -/
inductive Build
  | debug
  | release
deriving DecidableEq, Repr

/-- `assert(b)`: nothing if `NDEBUG` is defined -/
def Build.assert (B : Build) (b : Bool) : M PUnit :=
  match B with
  | .debug => assertM b
  | .release => .ok ⟨⟩

/-! ## Binomial -/

section

/-- `FastBinomialCoefficient::choose`, src/utils/fastbinomialcoefficient.hpp:62-66.
The table is a compile-time constant in C++; here it is recomputed.
Simplification: `unsigned int` index arithmetic is taken not to wrap. -/
def chooseB (bld : Build) (cfg : Cfg) (n i : Nat) : M Nat := do
  bld.assert (n < cfg.maxBinom)
  let tbl ← binomTable cfg.maxBinom
  rd tbl (n * (n + 1) / 2 + i)

end

/-! ## Bernstein -/

section

section
variable {K : Type} [Zero K] [One K] [Add K] [Sub K] [Mul K] [Neg K] [NatCast K]

/-- `BernsteinPolynomial::Evaluate`, src/utils/algorithms/bernstein_polynomial.hpp:52-82. -/
def bernsteinEvaluateB (bld : Build) (cfg : Cfg) (degree : Nat) (value : K) : M (List K) := do
  bld.assert (degree < cfg.maxBinom)
  let inv_value := 1 - value
  let r ← loop (degree + 1) (fun i (r : List K × K) => do
    let c ← chooseB bld cfg degree i
    pure (r.1 ++ [(c : K) * r.2], r.2 * value)) ([], 1)
  let r ← loop (degree + 1) (fun i (r : List K × K) => do
    let e ← rd r.1 (degree - i)
    let ev ← wr r.1 (degree - i) (e * r.2)
    pure (ev, r.2 * inv_value)) (r.1, 1)
  pure r.1

/-- `BernsteinPolynomial::EvaluateDerivative`,
src/utils/algorithms/bernstein_polynomial.hpp:92-135.  `k_min` (lines 121-122)
is computed in C++ as `max(0, int(i + deriv - degree))`, which is truncated
subtraction for values below 2^31. -/
def bernsteinEvaluateDerivativeB (bld : Build) (cfg : Cfg) (degree : Nat) (value : K) (deriv : Nat) :
    M (List K) := do
  bld.assert (degree < cfg.maxBinom)
  if degree < deriv then pure (List.replicate (degree + 1) 0)
  else if deriv = 0 then bernsteinEvaluateB bld cfg degree value
  else do
    let basis ← bernsteinEvaluateB bld cfg (degree - deriv) value
    let aux ← loop deriv (fun k v => pure (v * ((degree - k : Nat) : K))) (1 : K)
    loop (degree + 1) (fun i ev => do
      let ev ← loopFrom (i + deriv - degree) (min i deriv + 1) (fun k ev => do
        let c ← chooseB bld cfg deriv k
        let b ← rd basis (i - k)
        let eval_v := (c : K) * b
        let e ← rd ev i
        wr ev i (e + (if (k + deriv) % 2 = 1 then -eval_v else eval_v))) ev
      let e ← rd ev i
      wr ev i (e * aux)) (List.replicate (degree + 1) 0)

end

end

/-! ## Spline -/

section

namespace Spline
variable {K V : Type}

/-- constructor from degrees and points, src/bezier_spline.hpp:197-207. -/
def ofPointsB (bld : Build) (deg : List Nat) (points : List V) : M (Spline V) := do
  let n := countCps deg
  let o ← updateIndexOffsets deg (List.replicate deg.length 0)
  bld.assert (n == points.length)
  pure ⟨deg, n, o, points⟩

section basis
variable [Zero K] [One K] [Add K] [Sub K] [Mul K] [Neg K] [NatCast K]

/-- `BasisFunctionContributions`, src/bezier_spline.inc:372-387. -/
def basisFunctionContributionsB (bld : Build) (cfg : Cfg) (s : Spline V) (t : List K) : M (List (List K)) :=
  loop s.dim (fun d (factors : List (List K)) => do
    let p ← rd s.degrees d
    let x ← rd t d
    let b ← bernsteinEvaluateB bld cfg p x
    wr factors d b) (List.replicate s.dim [])

/-- `BasisFunctions`, src/bezier_spline.inc:389-397. -/
def basisFunctionsB (bld : Build) (cfg : Cfg) (s : Spline V) (t : List K) : M (List K) := do
  let f ← s.basisFunctionContributionsB bld cfg t
  recursiveCombine f

/-- `BasisFunctionsDerivativeContributions`, src/bezier_spline.inc:425-442. -/
def basisFunctionsDerivativeContributionsB (bld : Build) (cfg : Cfg) (s : Spline V) (t : List K)
    (nth_derivs : List Nat) : M (List (List K)) :=
  loop s.dim (fun d (factors : List (List K)) => do
    let p ← rd s.degrees d
    let x ← rd t d
    let k ← rd nth_derivs d
    let b ← bernsteinEvaluateDerivativeB bld cfg p x k
    wr factors d b) (List.replicate s.dim [])

/-- `BasisFunctionsDerivatives`, src/bezier_spline.inc:444-456. -/
def basisFunctionsDerivativesB (bld : Build) (cfg : Cfg) (s : Spline V) (t : List K) (nth_derivs : List Nat) :
    M (List K) := do
  let f ← s.basisFunctionsDerivativeContributionsB bld cfg t nth_derivs
  recursiveCombine f

variable [Zero V] [Add V] [SMul K V]

/-- `ForwardEvaluate`, src/bezier_spline.inc:399-423. -/
def forwardEvaluateB (bld : Build) (cfg : Cfg) (s : Spline V) (t : List K) : M V := do
  let factors ← s.basisFunctionsB bld cfg t
  weightedSum factors s.cps

/-- `EvaluateDerivative`, src/bezier_spline.inc:458-484. -/
def evaluateDerivativeB (bld : Build) (cfg : Cfg) (s : Spline V) (t : List K) (nth_derivs : List Nat) : M V := do
  let factors ← s.basisFunctionsDerivativesB bld cfg t nth_derivs
  weightedSum factors s.cps

end basis

end Spline
end

/-! ## Elevate -/

section
namespace Spline
variable {K V : Type}

section
variable [One K] [Neg K] [Mul K] [NatCast K] [Zero V] [Add V] [SMul K V]

variable (K) in
/-- `DerivativeWRTParametricDimension`, src/bezier_spline.inc:229-326; log output
is omitted.  `p - i` in the factor (line 286) and the degree subtraction (279)
wrap at 2^64, as in the code. -/
def derivativeSplineB (bld : Build) (cfg : Cfg) (s : Spline V) (orders : List Nat) : M (Spline V) := do
  let r ← loop s.dim (fun d (r : List Nat × List V) => do
    let o ← rd orders d
    if o = 0 then pure r
    else do
      let nd ← rd r.1 d
      let new_degrees ← wr r.1 d (sub64 nd o)
      let p ← rd s.degrees d
      let factor ← loopFrom 1 o (fun i (f : K) => pure (f * ((sub64 p i : Nat) : K))) ((p : Nat) : K)
      let pts ← loop (count64 new_degrees) (fun i_point pts => do
        let multi_index ← globalIdWith new_degrees i_point
        let i_point_index ← s.globalToLocal multi_index
        let q ← loopFrom 1 (o + 1) (fun j (q : List Nat × List V) => do
          let m ← rd q.1 d
          let multi_index ← wr q.1 d (m + 1)
          let c ← chooseB bld cfg o j
          let local_coefficient : K := (if j % 2 = 0 then 1 else -1) * ((c : Nat) : K)
          let x ← rd q.2 i_point_index
          let k ← s.globalToLocal multi_index
          let y ← rd q.2 k
          let pts ← wr q.2 i_point_index (x + local_coefficient • y)
          pure (multi_index, pts)) (multi_index, pts)
        let x ← rd q.2 i_point_index
        wr q.2 i_point_index (((if o % 2 = 0 then 1 else -1) * factor : K) • x)) r.2
      pure (new_degrees, pts)) (s.degrees, s.cps)
  let derivative ← ofDegrees64 (V := V) r.1
  let cps ← loop derivative.ncp (fun i cps => do
    let g ← derivative.localToGlobal i
    let k ← s.globalToLocal g
    let x ← rd r.2 k
    wr cps i x) derivative.cps
  pure { derivative with cps := cps }

end
end Spline
end

/-! ## Arith -/

section
namespace Spline
variable {K V W U : Type}

section
variable [One K] [Sub K] [Mul K] [Div K] [NatCast K] [Zero V] [Add V] [SMul K V]

variable (K) in
/-- `operator+(spline)`, src/bezier_spline.inc:575-615; `depth` bounds the
recursion of line 613. Both operands have the same point type here. -/
def addAuxB (bld : Build) (cfg : Cfg) : Nat → Spline V → Spline V → M (Spline V)
  | 0, _, _ => .error .outOfFuel
  | depth + 1, s, rhs => do
    let ret ← ofPointsB bld s.degrees s.cps
    let rhs_needs_copy ← loop s.dim (fun d (b : Bool) => do
      let p ← rd s.degrees d
      let q ← rd rhs.degrees d
      pure (b || decide (p > q))) false
    let ret ← elevateTo K cfg ret rhs.degrees
    if !rhs_needs_copy then do
      let cps ← zipCps ret.ncp (· + ·) ret.cps rhs.cps
      pure { ret with cps := cps }
    else addAuxB bld cfg depth rhs ret

variable (K) in
/-- `operator+(spline)`, src/bezier_spline.inc:575-615. -/
def addOpB (bld : Build) (cfg : Cfg) (s rhs : Spline V) : M (Spline V) := addAuxB K bld cfg cfg.fuel s rhs

variable (K) in
/-- `operator-(spline)`, src/bezier_spline.inc:642-674.  The guard of the first
`while` loop (line 659) compares with the degrees of `*this`, which the loop body
does not change. -/
def subOpB (bld : Build) [Sub V] (cfg : Cfg) (s rhs : Spline V) : M (Spline V) := do
  let ret ← ofPointsB bld s.degrees s.cps
  let ret ← loop s.dim (fun d ret =>
    whileM cfg.fuel (fun (_ : Spline V) => do
      let q ← rd rhs.degrees d
      let p ← rd s.degrees d
      pure (decide (q > p))) (fun ret => orderElevate K ret d) ret) ret
  let rhs ← elevateTo K cfg rhs s.degrees
  let cps ← zipCps s.ncp (· - ·) ret.cps rhs.cps
  pure { ret with cps := cps }

end

section
variable [One K] [Mul K] [Div K] [NatCast K] [Zero U] [Add U] [SMul K U]

/-- `CombineControlPointsForProduct_`, src/bezier_spline.inc:60-105.  The index
pack `indices...` is the list `indices`; `rem` is the number of parametric
dimensions after the current one.  `mul` is the product of the control point
types (scalar*scalar, scalar*point, dot product).  `int` locals are not wrapped;
`max(0, k - n)` is truncated subtraction. The product of two table entries is a
`size_t` product. -/
def combineForProductB (bld : Build) (cfg : Cfg) (mul : V → W → U) (P : Spline V) (Q : Spline W)
    (ctpsIndex : List Nat) : Nat → K → List Nat → Spline U → M (Spline U)
  | 0, factor, indices, R => do
    let depth := indices.length
    let k ← rd ctpsIndex depth
    let m ← rd P.degrees depth
    let n ← rd Q.degrees depth
    loopFrom (k - n) (min k m + 1) (fun i R => do
      let c1 ← chooseB bld cfg m i
      let c2 ← chooseB bld cfg n (k - i)
      let c3 ← chooseB bld cfg (m + n) k
      let lFactor : K := ((mul64 c1 c2 : Nat) : K) / ((c3 : Nat) : K)
      let ind_lhs := indices ++ [i]
      let ind_rhs ← loop P.dim (fun j r => do
        let a ← rd ctpsIndex j
        let b ← rd ind_lhs j
        wr r j (a - b)) (List.replicate P.dim 0)
      let x ← R.controlPoint ctpsIndex
      let a ← P.controlPoint ind_lhs
      let b ← Q.controlPoint ind_rhs
      R.setControlPoint ctpsIndex (x + lFactor • (factor • mul a b))) R
  | rem + 1, factor, indices, R => do
    let depth := indices.length
    let k ← rd ctpsIndex depth
    let m ← rd P.degrees depth
    let n ← rd Q.degrees depth
    loopFrom (k - n) (min k m + 1) (fun i R => do
      let c1 ← chooseB bld cfg m i
      let c2 ← chooseB bld cfg n (k - i)
      let c3 ← chooseB bld cfg (m + n) k
      let lFactor : K := ((mul64 c1 c2 : Nat) : K) / ((c3 : Nat) : K)
      combineForProductB bld cfg mul P Q ctpsIndex rem (factor * lFactor) (indices ++ [i]) R) R

variable (K) in
/-- `operator*(spline)`, src/bezier_spline.inc:873-906. -/
def mulOpB (bld : Build) (cfg : Cfg) (mul : V → W → U) (s : Spline V) (rhs : Spline W) : M (Spline U) := do
  let product_degrees ← loop s.dim (fun d l => do
    let p ← rd s.degrees d
    let q ← rd rhs.degrees d
    wr l d (p + q)) (List.replicate s.dim 0)
  let ret ← ofDegrees (V := U) product_degrees
  loop ret.ncp (fun i R => do
    let idx ← R.localToGlobal i
    combineForProductB bld cfg mul s rhs idx (s.dim - 1) (1 : K) [] R) ret

end

section
variable [Zero K] [One K] [Add K] [Mul K] [Div K] [NatCast K]

/-- `operator*` of two scalar-valued splines. -/
def mulScalarB (bld : Build) (cfg : Cfg) (s rhs : Spline K) : M (Spline K) :=
  mulOpB K bld cfg (fun a b => a * b) s rhs

/-- degree-zero spline with the single control point 1: src/bezier_spline.inc:736-740
and 1164-1170. -/
def oneSplineB (bld : Build) (dim : Nat) : M (Spline K) := ofPointsB bld (List.replicate dim 0) [1]

/-- `RaisePower`, src/bezier_spline.inc:727-760, for scalar-valued splines (the
other branch raises an error, lines 755-759). The recursion halves the exponent,
`depth` bounds it. -/
def raisePowerAuxB (bld : Build) (cfg : Cfg) (s : Spline K) : Nat → Nat → M (Spline K)
  | 0, _ => .error .outOfFuel
  | depth + 1, power =>
    if power = 0 then oneSplineB bld s.dim
    else if power = 1 then pure s
    else do
      let r ← raisePowerAuxB bld cfg s depth (power / 2)
      if power % 2 = 0 then mulScalarB bld cfg r r
      else do
        let rr ← mulScalarB bld cfg r r
        mulScalarB bld cfg rr s

/-- `RaisePower`; `power + 1` levels of recursion always suffice, so no fuel is
needed here. -/
def raisePowerB (bld : Build) (cfg : Cfg) (s : Spline K) (power : Nat) : M (Spline K) :=
  raisePowerAuxB bld cfg s (power + 1) power

end

end Spline
end

/-! ## Compose -/

section
namespace Spline
variable {K V W : Type}

section
variable [Zero K] [One K] [Add K] [Sub K] [Mul K] [Neg K] [Div K] [NatCast K]

/-- Body of the loop over the outer parametric dimensions in
`ComposeNumeratorHelper`, src/bezier_spline.inc:1158-1227: the splines
`choose(p,i) * c^i * (inverse c)^(p-i)`, `i = 0..p`, for the extracted coordinate
spline `c` and its inverse. -/
def composeBernsteinB (bld : Build) (cfg : Cfg) (p : Nat) (innerDim : Nat) (extracted inverse : Spline K) :
    M (List (Spline K)) := do
  let bs := List.replicate (p + 1) (Spline.default innerDim)
  let multiple ← oneSplineB bld (K := K) innerDim
  let inverse_multiple := multiple
  let bs ← wr bs 0 multiple
  let r ← loopFrom 1 (p + 1) (fun i (r : List (Spline K) × Spline K) => do
    let m ← mulScalarB bld cfg r.2 extracted
    let bs ← wr r.1 i m
    pure (bs, m)) (bs, multiple)
  let r ← loopFrom 1 (p + 1) (fun i (r : List (Spline K) × Spline K) => do
    let m ← mulScalarB bld cfg r.2 inverse
    let b ← rd r.1 (p - i)
    let b ← mulScalarB bld cfg b m
    let bs ← wr r.1 (p - i) b
    pure (bs, m)) (r.1, inverse_multiple)
  loopFrom 1 p (fun i bs => do
    let b ← rd bs (p - i)
    let c ← chooseB bld cfg p i
    let b ← b.smulOp ((c : Nat) : K)
    wr bs (p - i) b) r.1

/-- Loop over the outer parametric dimensions, src/bezier_spline.inc:1151-1228.
`extract d` is `inner_function.ExtractDimension(d)`, `inverse` the lambda of lines
1185-1192. -/
def composeBasesB (bld : Build) (cfg : Cfg) (degrees : List Nat) (innerDim : Nat)
    (extract : Nat → M (Spline K)) (inverse : Spline K → M (Spline K)) :
    M (List (List (Spline K))) :=
  loop degrees.length (fun d (l : List (List (Spline K))) => do
    let p ← rd degrees d
    let e ← extract d
    let inv ← inverse e
    let bs ← composeBernsteinB bld cfg p innerDim e inv
    wr l d bs) (List.replicate degrees.length [])

/-- tensor product of the basis splines belonging to one outer control point,
src/bezier_spline.inc:1258-1268 and 1271-1281. -/
def composeTensorB (bld : Build) (cfg : Cfg) (bases : List (List (Spline K))) (idx : List Nat) :
    M (Spline K) := do
  let b0 ← rd bases 0
  let i0 ← rd idx 0
  let t0 ← rd b0 i0
  loopFrom 1 bases.length (fun d t => do
    let b ← rd bases d
    let i ← rd idx d
    let x ← rd b i
    mulScalarB bld cfg t x) t0

variable [Zero V] [Add V] [SMul K V]

/-- `ComposeNumeratorHelper<false>`, src/bezier_spline.inc:1079-1302. -/
def composeNumeratorB (bld : Build) (cfg : Cfg) (s : Spline V) (innerDegrees : List Nat)
    (extract : Nat → M (Spline K)) (inverse : Spline K → M (Spline K)) : M (Spline V) := do
  let new_degrees := composeDegrees s.degrees innerDegrees
  let ret ← ofDegrees (V := V) new_degrees
  let bases ← composeBasesB bld cfg s.degrees innerDegrees.length extract inverse
  loop s.ncp (fun o ret => do
    let idx ← s.localToGlobal o
    let t ← composeTensorB bld cfg bases idx
    bld.assert (new_degrees == t.degrees)
    let cps ← loop ret.ncp (fun c cps => do
      let x ← rd cps c
      let b ← rd t.cps c
      let y ← rd s.cps o
      wr cps c (x + b • y)) ret.cps
    pure { ret with cps := cps }) ret

omit [Zero V] [Add V] [SMul K V] in
/-- `ComposeNumeratorHelper<true>`, src/bezier_spline.inc:1079-1302. -/
def composeNumeratorSensitivityB (bld : Build) (cfg : Cfg) (s : Spline V) (innerDegrees : List Nat)
    (extract : Nat → M (Spline K)) (inverse : Spline K → M (Spline K)) :
    M (List (Spline K)) := do
  let bases ← composeBasesB bld cfg s.degrees innerDegrees.length extract inverse
  loop s.ncp (fun o ret => do
    let idx ← s.localToGlobal o
    let t ← composeTensorB bld cfg bases idx
    pure (ret ++ [t])) []

variable [Coords K W] [LT K] [DecidableLT K]

variable (K) in
/-- `Compose(BezierSpline)`, src/bezier_spline.inc:908-931, with the polynomial
branch of the lambda at 1190. -/
def composeB (bld : Build) (cfg : Cfg) (s : Spline V) (inner : Spline W) : M (Spline V) := do
  let fits ← fitsIntoUnitCube K inner
  if !fits then .error .throws
  else
    composeNumeratorB bld cfg s inner.degrees (fun d => extractDimension K inner d)
      (fun e => pointSub (1 : K) e)

omit [Zero V] [Add V] [SMul K V] in
variable (K) in
/-- `ComposeSensitivity(BezierSpline)`, src/bezier_spline.inc:933-957. -/
def composeSensitivityB (bld : Build) (cfg : Cfg) (s : Spline V) (inner : Spline W) : M (List (Spline K)) := do
  let fits ← fitsIntoUnitCube K inner
  if !fits then .error .throws
  else
    composeNumeratorSensitivityB bld cfg s inner.degrees (fun d => extractDimension K inner d)
      (fun e => pointSub (1 : K) e)

end
end Spline
end

/-! ## Rational -/

section

namespace RSpline
variable {K V W U : Type}

/-- constructor from two splines, src/rational_bezier_spline.hpp:123-129. -/
def ofSplinesB (bld : Build) (num : Spline V) (wt : Spline K) : M (RSpline K V) := do
  bld.assert (compatible ⟨num, wt⟩)
  pure ⟨num, wt⟩

/-- constructor from a polynomial spline, src/rational_bezier_spline.hpp:104-120. -/
def ofSplineB (bld : Build) [One K] (s : Spline V) : M (RSpline K V) := do
  let wt ← Spline.ofPointsB bld s.degrees (List.replicate s.ncp (1 : K))
  bld.assert (compatible ⟨s, wt⟩)
  pure ⟨s, wt⟩

/-- constructor from degrees, control points and weights,
src/rational_bezier_spline.hpp:140-153. -/
def ofPointsB (bld : Build) [Zero V] [SMul K V] (deg : List Nat) (points : List V) (weights : List K) :
    M (RSpline K V) := do
  let num ← Spline.ofDegrees (V := V) deg
  let wt ← Spline.ofPointsB bld deg weights
  bld.assert (points.length == weights.length)
  bld.assert (num.ncp == weights.length)
  let cps ← loop num.cps.length (fun i cps => do
    let x ← rd points i
    let w ← rd weights i
    wr cps i (w • x)) num.cps
  let num := { num with cps := cps }
  bld.assert (compatible ⟨num, wt⟩)
  pure ⟨num, wt⟩

/-- `UpdateDegrees`, src/rational_bezier_spline.hpp:196-202. -/
def updateDegreesB (bld : Build) [Zero K] [Zero V] (r : RSpline K V) (new_degrees : List Nat) :
    M (RSpline K V) := do
  let wt ← r.wt.updateDegrees new_degrees
  let num ← r.num.updateDegrees new_degrees
  bld.assert (compatible ⟨num, wt⟩)
  pure ⟨num, wt⟩

section
variable [Zero K] [One K] [Add K] [Sub K] [Mul K] [Neg K] [Div K] [NatCast K]

/-- `UnweightedBasisFunctions`, src/rational_bezier_spline.inc:155-185. -/
def unweightedBasisFunctionsB (bld : Build) [BEq K] (cfg : Cfg) (r : RSpline K V) (t : List K) :
    M (List K) := do
  bld.assert r.compatible
  let factors ← r.wt.basisFunctionsB bld cfg t
  let weight_eval ← loop factors.length (fun i acc => do
    let f ← rd factors i
    let w ← rd r.wt.cps i
    pure (acc + f * w)) 0
  let inv_weight_function ← divM (1 : K) weight_eval
  loop factors.length (fun i factors => do
    let f ← rd factors i
    wr factors i (f * inv_weight_function)) factors

/-- `BasisFunctions`, src/rational_bezier_spline.inc:135-153. -/
def basisFunctionsB (bld : Build) [BEq K] (cfg : Cfg) (r : RSpline K V) (t : List K) : M (List K) := do
  bld.assert r.compatible
  let factors ← r.unweightedBasisFunctionsB bld cfg t
  loop factors.length (fun i factors => do
    let f ← rd factors i
    let w ← rd r.wt.cps i
    wr factors i (f * w)) factors

/-- `BasisFunctionContributions`, src/rational_bezier_spline.inc:187-194. -/
def basisFunctionContributionsB (bld : Build) (cfg : Cfg) (r : RSpline K V) (t : List K) : M (List (List K)) :=
  r.num.basisFunctionContributionsB bld cfg t

/-- `ForwardEvaluate`, src/rational_bezier_spline.inc:196-218. (There is no division
by the weight function.) -/
def forwardEvaluateB (bld : Build) [Zero V] [Add V] [SMul K V] (cfg : Cfg) (r : RSpline K V) (t : List K) :
    M V := do
  bld.assert r.compatible
  let factors ← r.num.basisFunctionsB bld cfg t
  Spline.weightedSum factors r.num.cps

end

section
variable [Zero K] [One K] [Add K] [Sub K] [Mul K] [Div K] [NatCast K] [Zero V] [Add V] [SMul K V]

/-- `OrderElevateAlongParametricDimension`, src/rational_bezier_spline.inc:437-448. -/
def orderElevateB (bld : Build) (r : RSpline K V) (par_dim : Nat) : M (RSpline K V) := do
  let num ← Spline.orderElevate K r.num par_dim
  let wt ← Spline.orderElevate K r.wt par_dim
  bld.assert (compatible ⟨num, wt⟩)
  pure ⟨num, wt⟩

omit [Div K] [NatCast K] [Zero V] in
/-- `SplitAtPosition(scalar, dimension)`, src/rational_bezier_spline.inc:450-464. -/
def splitAtB (bld : Build) [LT K] [DecidableLT K] (r : RSpline K V) (plane : K) (sd : Nat) :
    M (RSpline K V × RSpline K V) := do
  let n ← r.num.splitAt plane sd
  let w ← r.wt.splitAt plane sd
  let a ← ofSplinesB bld n.1 w.1
  let b ← ofSplinesB bld n.2 w.2
  pure (a, b)

omit [NatCast K] [Zero V] in
/-- `SplitAtPosition(std::vector, dimension)`, src/rational_bezier_spline.inc:466-506. -/
def splitAtManyB (bld : Build) [LT K] [DecidableLT K] (r : RSpline K V) (planes : List K) (sd : Nat) :
    M (List (RSpline K V)) := do
  if !Spline.isSorted planes then .error .throws
  else if planes.length = 0 then pure [r]
  else do
    let z0 ← rd planes 0
    let sp ← r.splitAtB bld z0 sd
    let q ← loopFrom 1 planes.length (fun i (q : List (RSpline K V) × (RSpline K V × RSpline K V)) => do
      let z ← rd planes i
      let zp ← rd planes (i - 1)
      let rel := (z - zp) / (1 - zp)
      let sp ← q.2.2.splitAtB bld rel sd
      pure (q.1 ++ [sp.1], sp)) ([sp.1], sp)
    pure (q.1 ++ [q.2.2])

end

/-- `operator*=(scalar)`, src/rational_bezier_spline.inc:548-559. -/
def smulAssignB (bld : Build) [SMul K V] (r : RSpline K V) (c : K) : M (RSpline K V) := do
  let num ← r.num.smulOp c
  bld.assert (compatible ⟨num, r.wt⟩)
  pure ⟨num, r.wt⟩

/-- `operator*(scalar)`, src/rational_bezier_spline.inc:561-569, and
`scalar * spline`, src/rational_bezier_spline.hpp:377-380. -/
def smulOpB (bld : Build) [SMul K V] (r : RSpline K V) (c : K) : M (RSpline K V) := do
  let num ← r.num.smulOp c
  ofSplinesB bld num r.wt

/-- `operator+=(point)`, src/rational_bezier_spline.inc:571-586. -/
def addPointAssignB (bld : Build) [Add V] [SMul K V] (r : RSpline K V) (pt : V) : M (RSpline K V) := do
  let cps ← loop r.num.ncp (fun i cps => do
    let x ← rd cps i
    let w ← rd r.wt.cps i
    wr cps i (x + w • pt)) r.num.cps
  let r := { r with num := { r.num with cps := cps } }
  bld.assert r.compatible
  pure r

/-- `operator+(point)`, src/rational_bezier_spline.inc:588-598, and `point + spline`,
src/rational_bezier_spline.hpp:391-395. -/
def addPointB (bld : Build) [Add V] [SMul K V] (r : RSpline K V) (pt : V) : M (RSpline K V) := do
  let c ← ofSplinesB bld r.num r.wt
  c.addPointAssignB bld pt

/-- `operator-(point)`, src/rational_bezier_spline.inc:615-625. -/
def subPointB (bld : Build) [Sub V] [SMul K V] (r : RSpline K V) (pt : V) : M (RSpline K V) := do
  let c ← ofSplinesB bld r.num r.wt
  c.subPointAssign pt

/-- unary `operator-`, src/rational_bezier_spline.inc:627-636. -/
def negOpB (bld : Build) [Neg V] (r : RSpline K V) : M (RSpline K V) := do
  let num ← r.num.negOp
  ofSplinesB bld num r.wt

section
variable [Zero K] [One K] [Add K] [Sub K] [Mul K] [Div K] [NatCast K] [Zero V] [Add V] [SMul K V]
  [BEq K]

omit [Sub K] [BEq K] in
/-- `spline * weight` and `weight * spline` -/
def mulWeightB (bld : Build) (cfg : Cfg) (w : Spline K) (s : Spline V) : M (Spline V) :=
  Spline.mulOpB K bld cfg (fun c x => c • x) w s

omit [Sub K] [BEq K] in
@[inherit_doc mulWeightB]
def mulWeight'B (bld : Build) (cfg : Cfg) (s : Spline V) (w : Spline K) : M (Spline V) :=
  Spline.mulOpB K bld cfg (fun x c => c • x) s w

/-- `operator+(rational)`, src/rational_bezier_spline.inc:638-653. -/
def addOpB (bld : Build) (cfg : Cfg) (r rhs : RSpline K V) : M (RSpline K V) := do
  if r.wt.eqOp rhs.wt then do
    let num ← Spline.addOpB K bld cfg r.num rhs.num
    ofSplinesB bld num r.wt
  else do
    let a ← mulWeight'B bld cfg r.num rhs.wt
    let b ← mulWeightB bld cfg r.wt rhs.num
    let num ← Spline.addOpB K bld cfg a b
    let wt ← Spline.mulScalarB bld cfg r.wt rhs.wt
    ofSplinesB bld num wt

/-- `operator+=(rational)`, src/rational_bezier_spline.inc:655-673. -/
def addAssignB (bld : Build) (cfg : Cfg) (r rhs : RSpline K V) : M (RSpline K V) := do
  if r.wt.eqOp rhs.wt then do
    let num ← Spline.addAssign K cfg r.num rhs.num
    pure ⟨num, r.wt⟩
  else do
    let a ← mulWeight'B bld cfg r.num rhs.wt
    let b ← mulWeightB bld cfg r.wt rhs.num
    let num ← Spline.addAssign K cfg a b
    let wt ← Spline.mulScalarB bld cfg r.wt rhs.wt
    bld.assert (compatible ⟨num, wt⟩)
    pure ⟨num, wt⟩

/-- `operator-(rational)`, src/rational_bezier_spline.inc:675-690. -/
def subOpB (bld : Build) [Sub V] (cfg : Cfg) (r rhs : RSpline K V) : M (RSpline K V) := do
  if r.wt.eqOp rhs.wt then do
    let num ← Spline.subOpB K bld cfg r.num rhs.num
    ofSplinesB bld num r.wt
  else do
    let a ← mulWeight'B bld cfg r.num rhs.wt
    let b ← mulWeightB bld cfg r.wt rhs.num
    let num ← Spline.subOpB K bld cfg a b
    let wt ← Spline.mulScalarB bld cfg r.wt rhs.wt
    ofSplinesB bld num wt

/-- `operator-=(rational)`, src/rational_bezier_spline.inc:692-710. -/
def subAssignB (bld : Build) [Sub V] (cfg : Cfg) (r rhs : RSpline K V) : M (RSpline K V) := do
  if r.wt.eqOp rhs.wt then do
    let num ← Spline.subAssign K cfg r.num rhs.num
    pure ⟨num, r.wt⟩
  else do
    let a ← mulWeight'B bld cfg r.num rhs.wt
    let b ← mulWeightB bld cfg r.wt rhs.num
    let num ← Spline.subAssign K cfg a b
    let wt ← Spline.mulScalarB bld cfg r.wt rhs.wt
    bld.assert (compatible ⟨num, wt⟩)
    pure ⟨num, wt⟩

omit [Sub K] [Zero V] [Add V] [SMul K V] [BEq K] in
/-- `operator*(rational)`, src/rational_bezier_spline.inc:712-724; `mul` is the product
of the control point types. -/
def mulOpB (bld : Build) [Zero U] [Add U] [SMul K U] (cfg : Cfg) (mul : V → W → U) (r : RSpline K V)
    (rhs : RSpline K W) : M (RSpline K U) := do
  let num ← Spline.mulOpB K bld cfg mul r.num rhs.num
  let wt ← Spline.mulScalarB bld cfg r.wt rhs.wt
  ofSplinesB bld num wt

end

end RSpline

section
variable {K V W : Type} [Zero K] [One K] [Add K] [Sub K] [Mul K] [Neg K] [Div K] [NatCast K]
  [Zero V] [Add V] [SMul K V] [Coords K W]

/-- `ComposeNumeratorSpline(rational)`: src/bezier_spline.inc:1079-1302 with the
rational branch of the lambda at 1187. -/
def Spline.composeNumeratorRationalB (bld : Build) (cfg : Cfg) (s : Spline V) (inner : RSpline K W) :
    M (Spline V) :=
  s.composeNumeratorB bld cfg inner.num.degrees (fun d => inner.extractDimension d)
    (fun e => Spline.subOpB K bld cfg inner.wt e)

omit [Zero V] [Add V] [SMul K V] in
/-- `ComposeNumeratorSensitivity(rational)`: src/bezier_spline.inc:1079-1302 with the
rational branch of the lambda at 1187. -/
def Spline.composeNumeratorSensitivityRationalB (bld : Build) (cfg : Cfg) (s : Spline V) (inner : RSpline K W) :
    M (List (Spline K)) :=
  s.composeNumeratorSensitivityB bld cfg inner.num.degrees (fun d => inner.extractDimension d)
    (fun e => Spline.subOpB K bld cfg inner.wt e)

omit [Sub K] [Neg K] [Zero V] [Add V] [SMul K V] [Coords K W] in
/-- `ComposeDenominatorSpline`, src/bezier_spline.inc:1304-1321. -/
def Spline.composeDenominatorB (bld : Build) (cfg : Cfg) (s : Spline V) (inner : RSpline K W) : M (Spline K) :=
  inner.wt.raisePowerB bld cfg s.degrees.sum

variable [BEq K] [ScalarDiv K W] [LT K] [DecidableLT K]

/-- `BezierSpline::Compose(rational)`, src/bezier_spline.inc:959-986. -/
def Spline.composeRationalB (bld : Build) (cfg : Cfg) (s : Spline V) (inner : RSpline K W) :
    M (RSpline K V) := do
  let fits ← inner.fitsIntoUnitCube
  if !fits then .error .throws
  else do
    let n ← s.composeNumeratorRationalB bld cfg inner
    let d ← s.composeDenominatorB bld cfg inner
    RSpline.ofSplinesB bld n d

omit [Zero V] [Add V] [SMul K V] in
/-- `BezierSpline::ComposeSensitivity(rational)`, src/bezier_spline.inc:988-1034. -/
def Spline.composeSensitivityRationalB (bld : Build) (cfg : Cfg) (s : Spline V) (inner : RSpline K W) :
    M (List (RSpline K K)) := do
  let fits ← inner.fitsIntoUnitCube
  if !fits then .error .throws
  else do
    let ns ← s.composeNumeratorSensitivityRationalB bld cfg inner
    let d ← s.composeDenominatorB bld cfg inner
    loop s.ncp (fun i ret => do
      let n ← rd ns i
      let q ← RSpline.ofSplinesB bld n d
      pure (ret ++ [q])) []

omit [BEq K] [ScalarDiv K W] in
/-- `RationalBezierSpline::Compose(polynomial)`, src/rational_bezier_spline.hpp:448-460. -/
def RSpline.composeB (bld : Build) (cfg : Cfg) (r : RSpline K V) (inner : Spline W) : M (RSpline K V) := do
  let n ← Spline.composeB K bld cfg r.num inner
  let d ← Spline.composeB K bld cfg r.wt inner
  RSpline.ofSplinesB bld n d

omit [BEq K] [ScalarDiv K W] [LT K] [DecidableLT K] in
/-- `RationalBezierSpline::Compose(rational)`, src/rational_bezier_spline.hpp:506-521.
(The inner function is not checked against the unit cube.) -/
def RSpline.composeRationalB (bld : Build) (cfg : Cfg) (r : RSpline K V) (inner : RSpline K W) :
    M (RSpline K V) := do
  let n ← r.num.composeNumeratorRationalB bld cfg inner
  let d ← r.wt.composeNumeratorRationalB bld cfg inner
  RSpline.ofSplinesB bld n d

omit [Sub K] [Neg K] [Zero K] [One K] [Add K] [Div K] [NatCast K] [Zero V] [Add V] [SMul K V] [Coords K W] [BEq K] [ScalarDiv K W] [LT K] [DecidableLT K] in
/-- the rescaling loop shared by both `ComposeSensitivity` functions,
src/rational_bezier_spline.inc:755-769 and 794-808. -/
def RSpline.rescaleSensitivitiesB (bld : Build) (r : RSpline K V) (numerators : List (Spline K)) (den : Spline K) :
    M (List (RSpline K K)) :=
  loop numerators.length (fun i ret => do
    let n ← rd numerators i
    let w ← rd r.wt.cps i
    let n ← n.smulOp w
    let q ← RSpline.ofSplinesB bld n den
    pure (ret ++ [q])) []

omit [Zero V] [Add V] [SMul K V] [BEq K] [ScalarDiv K W] in
/-- `RationalBezierSpline::ComposeSensitivity(polynomial)`,
src/rational_bezier_spline.inc:735-770. -/
def RSpline.composeSensitivityB (bld : Build) (cfg : Cfg) (r : RSpline K V) (inner : Spline W) :
    M (List (RSpline K K)) := do
  let ns ← Spline.composeSensitivityB K bld cfg r.num inner
  let d ← Spline.composeB K bld cfg r.wt inner
  r.rescaleSensitivitiesB bld ns d

omit [Zero V] [Add V] [SMul K V] [BEq K] [ScalarDiv K W] [LT K] [DecidableLT K] in
/-- `RationalBezierSpline::ComposeSensitivity(rational)`,
src/rational_bezier_spline.inc:772-809. -/
def RSpline.composeSensitivityRationalB (bld : Build) (cfg : Cfg) (r : RSpline K V) (inner : RSpline K W) :
    M (List (RSpline K K)) := do
  let ns ← r.num.composeNumeratorSensitivityRationalB bld cfg inner
  let d ← r.wt.composeNumeratorRationalB bld cfg inner
  r.rescaleSensitivitiesB bld ns d

end
end

/-! ## RationalDeriv -/

section

/-- `binom_fact`, src/rational_bezier_spline.inc:307-312 and 415-420; a `size_t`
product, which wraps at 2^64. -/
def derivBinomB (bld : Build) (cfg : Cfg) (lhs rhs : List Nat) : M Nat :=
  loop lhs.length (fun i b => do
    let n ← rd lhs i
    let k ← rd rhs i
    let c ← chooseB bld cfg n k
    pure (mul64 b c)) 1

namespace RSpline
variable {K V : Type}

section
variable [Zero K] [One K] [Add K] [Sub K] [Mul K] [Neg K] [Div K] [NatCast K] [BEq K]

/-- The loop over all derivatives, src/rational_bezier_spline.inc:293-319, and, applied
to the values of all basis functions, 401-432. `sub` is `-=` and `scale` is scalar
multiplication of the entries: points in the first case, vectors of scalars in the
second. -/
def derivRecursionB (bld : Build) {X : Type} (cfg : Cfg) (nth_derivs : List Nat) (n : Nat) (sub : X → K → X → M X)
    (scale : K → X → M X) (A : List X) (w : List K) (inv_w : K) (zero : X) : M (List X) :=
  loop n (fun i D => do
    let lhs ← derivLocalIds nth_derivs i
    let a ← rd A i
    let D ← wr D i a
    let D ← loopFrom 1 (i + 1) (fun j D => do
      let rhs ← derivLocalIds nth_derivs j
      if derivNotSubset lhs rhs then pure D
      else do
        let binom_fact ← derivBinomB bld cfg lhs rhs
        let wj ← rd w j
        let dij ← rd D (i - j)
        let di ← rd D i
        let di ← sub di ((binom_fact : K) * wj) dij
        wr D i di) D
    let di ← rd D i
    let di ← scale inv_w di
    wr D i di) (List.replicate n zero)

/-- `EvaluateDerivative`, src/rational_bezier_spline.inc:219-322. -/
def evaluateDerivativeB (bld : Build) [Zero V] [Add V] [Sub V] [SMul K V] (cfg : Cfg) (r : RSpline K V) (t : List K)
    (nth_derivs : List Nat) : M V := do
  let g ← derivGlobalId nth_derivs nth_derivs
  let n := g + 1
  let aw ← loop n (fun i (aw : List V × List K) => do
    let req ← derivLocalIds nth_derivs i
    let x ← r.num.evaluateDerivativeB bld cfg t req
    let A ← wr aw.1 i x
    let y ← r.wt.evaluateDerivativeB bld cfg t req
    let w ← wr aw.2 i y
    pure (A, w)) (List.replicate n 0, List.replicate n 0)
  let w0 ← rd aw.2 0
  let inv_w ← divM (1 : K) w0
  let D ← derivRecursionB bld cfg nth_derivs n (fun di c dij => pure (di - c • dij)) (fun c di => pure (c • di))
    aw.1 aw.2 inv_w 0
  rd D (n - 1)

/-- `BasisFunctionsDerivatives`, src/rational_bezier_spline.inc:324-435. Simplification:
the row of index `i_deriv` is updated in a local copy that is then written back. -/
def basisFunctionsDerivativesB (bld : Build) (cfg : Cfg) (r : RSpline K V) (t : List K) (nth_derivs : List Nat) :
    M (List K) := do
  let g ← derivGlobalId nth_derivs nth_derivs
  let n := g + 1
  let nb := r.num.ncp
  let aw ← loop n (fun i (aw : List (List K) × List K) => do
    let req ← derivLocalIds nth_derivs i
    let row ← r.num.basisFunctionsDerivativesB bld cfg t req
    let w0 ← rd aw.2 i
    let rw ← loop nb (fun b (rw : List K × K) => do
      let weight ← rd r.wt.cps b
      let x ← rd rw.1 b
      let row ← wr rw.1 b (x * weight)
      pure (row, rw.2 + weight * x)) (row, w0)
    let A ← wr aw.1 i rw.1
    let w ← wr aw.2 i rw.2
    pure (A, w)) (List.replicate n [], List.replicate n 0)
  let w0 ← rd aw.2 0
  let inv_w ← divM (1 : K) w0
  let D ← derivRecursionB bld cfg nth_derivs n
    (fun di c dij => loop nb (fun b di => do
      let x ← rd di b
      let y ← rd dij b
      wr di b (x - c * y)) di)
    (fun c di => loop nb (fun b di => do
      let x ← rd di b
      wr di b (x * c)) di)
    aw.1 aw.2 inv_w []
  rd D (n - 1)

end

section
variable [Zero K] [One K] [Add K] [Sub K] [Mul K] [Neg K] [Div K] [NatCast K] [Zero V] [Add V] [Sub V] [SMul K V]

/-- one round of the loop in `DerivativeWRTParametricDimension`,
src/rational_bezier_spline.inc:528-543 -/
def derivativeStepB (bld : Build) (cfg : Cfg) (r : RSpline K V) (d : Nat) : M (RSpline K V) := do
  let order ← wr (List.replicate r.dim 0) d 1
  let du ← Spline.derivativeSplineB K bld cfg r.num order
  let a ← mulWeight'B bld cfg du r.wt
  let dw ← Spline.derivativeSplineB K bld cfg r.wt order
  let b ← mulWeightB bld cfg dw r.num
  let c ← Spline.subOpB K bld cfg a b
  let n ← Spline.orderElevate K c d
  let w ← Spline.mulScalarB bld cfg r.wt r.wt
  ofSplinesB bld n w

/-- `DerivativeWRTParametricDimension`, src/rational_bezier_spline.inc:508-546. -/
def derivativeSplineB (bld : Build) (cfg : Cfg) (r : RSpline K V) (orders : List Nat) : M (RSpline K V) :=
  loop r.dim (fun d r => do
    let o ← rd orders d
    loop o (fun _ r => derivativeStepB bld cfg r d) r) r

end
end RSpline
end

/-! ## Expr -/

section

variable {K : Type} {n : Nat} [Zero K] [One K] [Add K] [Sub K] [Mul K] [Neg K] [Div K] [NatCast K] [LT K] [DecidableLT K]

mutual
/-- Execution of a program: the calls are made from the inside out, each one is the model of the C++ operation. -/
def SExpr.runB (bld : Build) (cfg : Cfg) (σ : Vars K n) : SExpr K n → M (Spline K)
  | .leaf i => pure (σ.s i)
  | .add a b => do
    let x ← a.runB bld cfg σ
    let y ← b.runB bld cfg σ
    Spline.addOpB K bld cfg x y
  | .addAssign a b => do
    let x ← a.runB bld cfg σ
    let y ← b.runB bld cfg σ
    Spline.addAssign K cfg x y
  | .sub a b => do
    let x ← a.runB bld cfg σ
    let y ← b.runB bld cfg σ
    Spline.subOpB K bld cfg x y
  | .subAssign a b => do
    let x ← a.runB bld cfg σ
    let y ← b.runB bld cfg σ
    Spline.subAssign K cfg x y
  | .neg a => do
    let x ← a.runB bld cfg σ
    x.negOp
  | .scale a c => do
    let x ← a.runB bld cfg σ
    x.smulOp c
  | .addPoint a v => do
    let x ← a.runB bld cfg σ
    x.addPoint v
  | .subPoint a v => do
    let x ← a.runB bld cfg σ
    x.subPoint v
  | .pointSub v a => do
    let x ← a.runB bld cfg σ
    Spline.pointSub v x
  | .elevate a d => do
    let x ← a.runB bld cfg σ
    Spline.orderElevate K x d
  | .splitLeft a z d => do
    let x ← a.runB bld cfg σ
    let l ← x.splitAt z d
    pure l.1
  | .splitRight a z d => do
    let x ← a.runB bld cfg σ
    let l ← x.splitAt z d
    pure l.2
  | .splitPart a zs d i => do
    let x ← a.runB bld cfg σ
    let l ← x.splitAtMany zs d
    rd l i
  | .deriv a orders => do
    let x ← a.runB bld cfg σ
    Spline.derivativeSplineB K bld cfg x orders
  | .compose a b => do
    let x ← a.runB bld cfg σ
    let y ← b.runB bld cfg σ
    Spline.composeB K bld cfg x y
  | .composeScalar a b => do
    let x ← a.runB bld cfg σ
    let y ← b.runB bld cfg σ
    Spline.composeB K bld cfg x y
  | .mul a b => do
    let x ← a.runB bld cfg σ
    let y ← b.runB bld cfg σ
    Spline.mulScalarB bld cfg x y
  | .dot a b => do
    let x ← a.runB bld cfg σ
    let y ← b.runB bld cfg σ
    Spline.mulOpB K bld cfg Point.dot x y
  | .power a k => do
    let x ← a.runB bld cfg σ
    Spline.raisePowerB bld cfg x k
  | .extract a j => do
    let x ← a.runB bld cfg σ
    Spline.extractDimension K x j

/-- Execution of a program with a point valued result. -/
def PExpr.runB (bld : Build) (cfg : Cfg) (σ : Vars K n) : PExpr K n → M (Spline (Point K n))
  | .leaf i => pure (σ.p i)
  | .add a b => do
    let x ← a.runB bld cfg σ
    let y ← b.runB bld cfg σ
    Spline.addOpB K bld cfg x y
  | .addAssign a b => do
    let x ← a.runB bld cfg σ
    let y ← b.runB bld cfg σ
    Spline.addAssign K cfg x y
  | .sub a b => do
    let x ← a.runB bld cfg σ
    let y ← b.runB bld cfg σ
    Spline.subOpB K bld cfg x y
  | .subAssign a b => do
    let x ← a.runB bld cfg σ
    let y ← b.runB bld cfg σ
    Spline.subAssign K cfg x y
  | .neg a => do
    let x ← a.runB bld cfg σ
    x.negOp
  | .scale a c => do
    let x ← a.runB bld cfg σ
    x.smulOp c
  | .addPoint a v => do
    let x ← a.runB bld cfg σ
    x.addPoint v
  | .subPoint a v => do
    let x ← a.runB bld cfg σ
    x.subPoint v
  | .pointSub v a => do
    let x ← a.runB bld cfg σ
    Spline.pointSub v x
  | .elevate a d => do
    let x ← a.runB bld cfg σ
    Spline.orderElevate K x d
  | .splitLeft a z d => do
    let x ← a.runB bld cfg σ
    let l ← x.splitAt z d
    pure l.1
  | .splitRight a z d => do
    let x ← a.runB bld cfg σ
    let l ← x.splitAt z d
    pure l.2
  | .splitPart a zs d i => do
    let x ← a.runB bld cfg σ
    let l ← x.splitAtMany zs d
    rd l i
  | .deriv a orders => do
    let x ← a.runB bld cfg σ
    Spline.derivativeSplineB K bld cfg x orders
  | .compose a b => do
    let x ← a.runB bld cfg σ
    let y ← b.runB bld cfg σ
    Spline.composeB K bld cfg x y
  | .composeScalar a b => do
    let x ← a.runB bld cfg σ
    let y ← b.runB bld cfg σ
    Spline.composeB K bld cfg x y
  | .mulLeft a b => do
    let x ← a.runB bld cfg σ
    let y ← b.runB bld cfg σ
    Spline.mulOpB K bld cfg (fun c v => c • v) x y
  | .mulRight a b => do
    let x ← a.runB bld cfg σ
    let y ← b.runB bld cfg σ
    Spline.mulOpB K bld cfg (fun v c => c • v) x y
end

end

/-! ## RExpr -/

section

variable {K : Type} {n : Nat} [Zero K] [One K] [Add K] [Sub K] [Mul K] [Neg K] [Div K] [NatCast K] [LT K] [DecidableLT K]
  [BEq K]

mutual
/-- Execution of a rational program with a scalar valued result. -/
def RSExpr.runB (bld : Build) (cfg : Cfg) (σ : RVars K n) : RSExpr K n → M (RSpline K K)
  | .leaf i => pure (σ.rs i)
  | .ofSpline a => do
    let x ← a.runB bld cfg σ.toVars
    RSpline.ofSplineB bld x
  | .add a b => do
    let x ← a.runB bld cfg σ
    let y ← b.runB bld cfg σ
    RSpline.addOpB bld cfg x y
  | .addAssign a b => do
    let x ← a.runB bld cfg σ
    let y ← b.runB bld cfg σ
    RSpline.addAssignB bld cfg x y
  | .sub a b => do
    let x ← a.runB bld cfg σ
    let y ← b.runB bld cfg σ
    RSpline.subOpB bld cfg x y
  | .subAssign a b => do
    let x ← a.runB bld cfg σ
    let y ← b.runB bld cfg σ
    RSpline.subAssignB bld cfg x y
  | .neg a => do
    let x ← a.runB bld cfg σ
    x.negOpB bld
  | .scale a c => do
    let x ← a.runB bld cfg σ
    x.smulOpB bld c
  | .addPoint a v => do
    let x ← a.runB bld cfg σ
    x.addPointB bld v
  | .subPoint a v => do
    let x ← a.runB bld cfg σ
    x.subPointB bld v
  | .elevate a d => do
    let x ← a.runB bld cfg σ
    x.orderElevateB bld d
  | .splitLeft a z d => do
    let x ← a.runB bld cfg σ
    let l ← x.splitAtB bld z d
    pure l.1
  | .splitRight a z d => do
    let x ← a.runB bld cfg σ
    let l ← x.splitAtB bld z d
    pure l.2
  | .splitPart a zs d i => do
    let x ← a.runB bld cfg σ
    let l ← x.splitAtManyB bld zs d
    rd l i
  | .deriv a orders => do
    let x ← a.runB bld cfg σ
    x.derivativeSplineB bld cfg orders
  | .composePoly a b => do
    let x ← a.runB bld cfg σ
    let y ← b.runB bld cfg σ.toVars
    RSpline.composeB bld cfg x y
  | .composePolyScalar a b => do
    let x ← a.runB bld cfg σ
    let y ← b.runB bld cfg σ.toVars
    RSpline.composeB bld cfg x y
  | .compose a b => do
    let x ← a.runB bld cfg σ
    let y ← b.runB bld cfg σ
    RSpline.composeRationalB bld cfg x y
  | .composeScalar a b => do
    let x ← a.runB bld cfg σ
    let y ← b.runB bld cfg σ
    RSpline.composeRationalB bld cfg x y
  | .polyCompose a b => do
    let x ← a.runB bld cfg σ.toVars
    let y ← b.runB bld cfg σ
    Spline.composeRationalB bld cfg x y
  | .polyComposeScalar a b => do
    let x ← a.runB bld cfg σ.toVars
    let y ← b.runB bld cfg σ
    Spline.composeRationalB bld cfg x y
  | .mul a b => do
    let x ← a.runB bld cfg σ
    let y ← b.runB bld cfg σ
    RSpline.mulOpB bld cfg (fun x y => x * y) x y
  | .dot a b => do
    let x ← a.runB bld cfg σ
    let y ← b.runB bld cfg σ
    RSpline.mulOpB bld cfg Point.dot x y

/-- Execution of a rational program with a point valued result. -/
def RPExpr.runB (bld : Build) (cfg : Cfg) (σ : RVars K n) : RPExpr K n → M (RSpline K (Point K n))
  | .leaf i => pure (σ.rp i)
  | .ofSpline a => do
    let x ← a.runB bld cfg σ.toVars
    RSpline.ofSplineB bld x
  | .add a b => do
    let x ← a.runB bld cfg σ
    let y ← b.runB bld cfg σ
    RSpline.addOpB bld cfg x y
  | .addAssign a b => do
    let x ← a.runB bld cfg σ
    let y ← b.runB bld cfg σ
    RSpline.addAssignB bld cfg x y
  | .sub a b => do
    let x ← a.runB bld cfg σ
    let y ← b.runB bld cfg σ
    RSpline.subOpB bld cfg x y
  | .subAssign a b => do
    let x ← a.runB bld cfg σ
    let y ← b.runB bld cfg σ
    RSpline.subAssignB bld cfg x y
  | .neg a => do
    let x ← a.runB bld cfg σ
    x.negOpB bld
  | .scale a c => do
    let x ← a.runB bld cfg σ
    x.smulOpB bld c
  | .addPoint a v => do
    let x ← a.runB bld cfg σ
    x.addPointB bld v
  | .subPoint a v => do
    let x ← a.runB bld cfg σ
    x.subPointB bld v
  | .elevate a d => do
    let x ← a.runB bld cfg σ
    x.orderElevateB bld d
  | .splitLeft a z d => do
    let x ← a.runB bld cfg σ
    let l ← x.splitAtB bld z d
    pure l.1
  | .splitRight a z d => do
    let x ← a.runB bld cfg σ
    let l ← x.splitAtB bld z d
    pure l.2
  | .splitPart a zs d i => do
    let x ← a.runB bld cfg σ
    let l ← x.splitAtManyB bld zs d
    rd l i
  | .deriv a orders => do
    let x ← a.runB bld cfg σ
    x.derivativeSplineB bld cfg orders
  | .composePoly a b => do
    let x ← a.runB bld cfg σ
    let y ← b.runB bld cfg σ.toVars
    RSpline.composeB bld cfg x y
  | .composePolyScalar a b => do
    let x ← a.runB bld cfg σ
    let y ← b.runB bld cfg σ.toVars
    RSpline.composeB bld cfg x y
  | .compose a b => do
    let x ← a.runB bld cfg σ
    let y ← b.runB bld cfg σ
    RSpline.composeRationalB bld cfg x y
  | .composeScalar a b => do
    let x ← a.runB bld cfg σ
    let y ← b.runB bld cfg σ
    RSpline.composeRationalB bld cfg x y
  | .polyCompose a b => do
    let x ← a.runB bld cfg σ.toVars
    let y ← b.runB bld cfg σ
    Spline.composeRationalB bld cfg x y
  | .polyComposeScalar a b => do
    let x ← a.runB bld cfg σ.toVars
    let y ← b.runB bld cfg σ
    Spline.composeRationalB bld cfg x y
  | .mulLeft a b => do
    let x ← a.runB bld cfg σ
    let y ← b.runB bld cfg σ
    RSpline.mulOpB bld cfg (fun c v => c • v) x y
  | .mulRight a b => do
    let x ← a.runB bld cfg σ
    let y ← b.runB bld cfg σ
    RSpline.mulOpB bld cfg (fun v c => c • v) x y
end

end

/-! ## Base64 -/

section
namespace Base64

/-- `Decode`, src/utils/base64.hpp:197-242, for entries of `L` bytes. The bytes of the new
vector are zero. `&return_value[0]` of an empty vector is undefined behaviour. -/
def decodeB (bld : Build) (L : Nat) (base64string : List Nat) : M (List (List Nat)) := do
  bld.assert (base64string.length % 4 == 0)
  let number_of_groups := base64string.length / 4
  let number_of_output_values ← divU (number_of_groups * 3) L
  if number_of_output_values = 0 then .error .ub
  else do
    let table ← charDecodeTable
    let bytes ← loop number_of_groups (fun i_group bytes => do
      let buffer_index := i_group * 4
      let buffer ← loop 4 (fun i buffer => do
        let c ← rd base64string (buffer_index + i)
        let x ← if c ≠ pad then rd table (charToUnsigned c) else pure 255
        wr buffer i x) (List.replicate 4 0)
      let b0 ← rd buffer 0
      let b1 ← rd buffer 1
      let b2 ← rd buffer 2
      let b3 ← rd buffer 3
      let bytes ← if b1 ≠ 255 then
          wr bytes (i_group * 3) ((((b0 &&& 0x3f) <<< 2) + ((b1 &&& 0x30) >>> 4)) % 256)
        else pure bytes
      let bytes ← if b2 ≠ 255 then
          wr bytes (i_group * 3 + 1) ((((b1 &&& 0x0f) <<< 4) + ((b2 &&& 0x3c) >>> 2)) % 256)
        else pure bytes
      if b3 ≠ 255 then
          wr bytes (i_group * 3 + 2) ((((b2 &&& 0x03) <<< 6) + ((b3 &&& 0x3f) >>> 0)) % 256)
        else pure bytes) (List.replicate (number_of_output_values * L) 0)
    pure ((List.range number_of_output_values).map (fun j =>
      (List.range L).map (fun i => bytes.getD (j * L + i) 0)))

/-- `Decode` for points, src/utils/base64.hpp:161-189. -/
def decodePointsB (bld : Build) (dimension L : Nat) (base64string : List Nat) : M (List (List (List Nat))) := do
  let data_vector ← decodeB bld L base64string
  let n_ctps ← divU data_vector.length dimension
  let m ← modU data_vector.length dimension
  bld.assert (m == 0)
  loop n_ctps (fun i_point ct_points =>
    loop dimension (fun i_dim ct_points => do
      let x ← rd data_vector (i_point * dimension + i_dim)
      let p ← rd ct_points i_point
      let p ← wr p i_dim x
      wr ct_points i_point p) ct_points)
    (List.replicate n_ctps (List.replicate dimension (List.replicate L 0)))

end Base64
end

/-! ## AlgoDiff -/

section

namespace ADT

section
variable {B K : Type} [One B] [NatCast B] [Zero B] [Neg B] [Cmath B] [Scal B K]

/-- `AlgoDiffType(value, n, i)`, algo_diff_type.hpp:138-144; `AlgoDiffType(value, i)` for a static
number of derivatives, algo_diff_type.hpp:155-159. -/
def activeB (bld : Build) (value : K) (n i : Nat) : M (ADT K) := do
  let a : ADT K := const value n
  bld.assert (i < a.d.length)
  a.setActive i

/-- `operator+=(const ADT_& b)`, algo_diff_type.inc:40-48. -/
def addAssignB (bld : Build) (a b : ADT K) : M (ADT K) := do
  bld.assert (b.d.length == a.d.length)
  let v ← Scal.add a.v b.v
  let d ← zipD Scal.add a.d b.d
  pure ⟨v, d⟩

/-- `a += a`, algo_diff_type.inc:40-48 with `b` an alias of `*this`. -/
def addAssignSelfB (bld : Build) (a : ADT K) : M (ADT K) := do
  bld.assert (a.d.length == a.d.length)
  let v ← Scal.add a.v a.v
  let d ← zipSelf Scal.add a.d
  pure ⟨v, d⟩

/-- `operator+(const ADT_& b)`, algo_diff_type.inc:31-36: a copy, then `+=`. -/
def addB (bld : Build) (a b : ADT K) : M (ADT K) := a.addAssignB bld b

/-- `operator-(const ADT_& b)`, algo_diff_type.inc:79-85. -/
def subB (bld : Build) (a b : ADT K) : M (ADT K) := do
  bld.assert (b.d.length == a.d.length)
  a.subAssign b

/-- `operator*=(const ADT_& b)`, algo_diff_type.inc:124-133; `v_` is updated last. -/
def mulAssignB (bld : Build) (a b : ADT K) : M (ADT K) := do
  bld.assert (b.d.length == a.d.length)
  let d ← zipD (fun x y => do
    let p ← Scal.mul y a.v
    let q ← Scal.mul b.v x
    Scal.add p q) a.d b.d
  let v ← Scal.mul a.v b.v
  pure ⟨v, d⟩

/-- `a *= a`, algo_diff_type.inc:124-133 with `b` an alias of `*this`. -/
def mulAssignSelfB (bld : Build) (a : ADT K) : M (ADT K) := do
  bld.assert (a.d.length == a.d.length)
  let d ← zipSelf (fun x y => do
    let p ← Scal.mul y a.v
    let q ← Scal.mul a.v x
    Scal.add p q) a.d
  let v ← Scal.mul a.v a.v
  pure ⟨v, d⟩

/-- `operator*(const ADT_& b)`, algo_diff_type.inc:115-120. -/
def mulB (bld : Build) (a b : ADT K) : M (ADT K) := a.mulAssignB bld b

/-- `operator/=(const ADT_& b)`, algo_diff_type.inc:165-175; `v_` is updated last. -/
def divAssignB (bld : Build) (a b : ADT K) : M (ADT K) := do
  bld.assert (b.d.length == a.d.length)
  let bb ← Scal.mul b.v b.v
  let inverse_b_squared ← Scal.baseDiv (1 : B) bb
  let d ← zipD (fun x y => do
    let p ← Scal.mul b.v x
    let q ← Scal.mul y a.v
    let r ← Scal.sub p q
    Scal.mul r inverse_b_squared) a.d b.d
  let v ← Scal.div a.v b.v
  pure ⟨v, d⟩

/-- `a /= a`, algo_diff_type.inc:165-175 with `b` an alias of `*this`. -/
def divAssignSelfB (bld : Build) (a : ADT K) : M (ADT K) := do
  bld.assert (a.d.length == a.d.length)
  let bb ← Scal.mul a.v a.v
  let inverse_b_squared ← Scal.baseDiv (1 : B) bb
  let d ← zipSelf (fun x y => do
    let p ← Scal.mul a.v x
    let q ← Scal.mul y a.v
    let r ← Scal.sub p q
    Scal.mul r inverse_b_squared) a.d
  let v ← Scal.div a.v a.v
  pure ⟨v, d⟩

/-- `operator/(const ADT_& b)`, algo_diff_type.inc:156-161. -/
def divB (bld : Build) (a b : ADT K) : M (ADT K) := a.divAssignB bld b

/-- `pow(base, power)` with two `AlgoDiffType`s, algo_diff_type.inc:280-284. -/
def powB (bld : Build) (base power : ADT K) : M (ADT K) := do
  let l ← log base
  let m ← l.mulB bld power
  exp m

end

end ADT

/-- Running the expression with `AlgoDiffType<B>`s at the point `x`. -/
def DExpr.runB (bld : Build) {B : Type} [One B] [NatCast B] [Zero B] [Add B] [Sub B] [Mul B] [Neg B] [Cmath B]
    (x : List B) : DExpr B → M (ADT B)
  | .var i => do
    let xi ← rd x i
    ADT.activeB bld xi x.length i
  | .const c => pure (ADT.const c x.length)
  | .add a b => do
    let p ← a.runB bld x
    let q ← b.runB bld x
    p.addB bld q
  | .sub a b => do
    let p ← a.runB bld x
    let q ← b.runB bld x
    p.subB bld q
  | .mul a b => do
    let p ← a.runB bld x
    let q ← b.runB bld x
    p.mulB bld q
  | .div a b => do
    let p ← a.runB bld x
    let q ← b.runB bld x
    p.divB bld q
  | .neg a => do
    let p ← a.runB bld x
    p.neg
  | .addScalar a c => do
    let p ← a.runB bld x
    p.addScalar c
  | .subScalar a c => do
    let p ← a.runB bld x
    p.subScalar c
  | .mulScalar a c => do
    let p ← a.runB bld x
    p.mulScalar c
  | .divScalar a c => do
    let p ← a.runB bld x
    p.divScalar c
  | .scalarAdd c a => do
    let p ← a.runB bld x
    ADT.scalarAdd c p
  | .scalarSub c a => do
    let p ← a.runB bld x
    ADT.scalarSub c p
  | .scalarMul c a => do
    let p ← a.runB bld x
    ADT.scalarMul c p
  | .scalarDiv c a => do
    let p ← a.runB bld x
    ADT.scalarDiv c p
  | .exp a => do
    let p ← a.runB bld x
    p.exp
  | .abs a => do
    let p ← a.runB bld x
    p.abs
  | .powScalar a c => do
    let p ← a.runB bld x
    p.powScalar c
  | .pow a b => do
    let p ← a.runB bld x
    let q ← b.runB bld x
    p.powB bld q
  | .sqrt a => do
    let p ← a.runB bld x
    p.sqrt
  | .log a => do
    let p ← a.runB bld x
    p.log
  | .log10 a => do
    let p ← a.runB bld x
    p.log10
  | .cos a => do
    let p ← a.runB bld x
    p.cos
  | .sin a => do
    let p ← a.runB bld x
    p.sin
  | .tan a => do
    let p ← a.runB bld x
    p.tan
  | .acos a => do
    let p ← a.runB bld x
    p.acos
  | .asin a => do
    let p ← a.runB bld x
    p.asin
  | .atan a => do
    let p ← a.runB bld x
    p.atan

end

end Bezman
