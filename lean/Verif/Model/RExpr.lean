import Verif.Model.Expr
import Verif.Model.RationalDeriv

/-! # Programs over rational splines

Expressions over scalar valued and point valued rational splines, built from the public operations that return rational splines;
polynomial expressions (`SExpr`, `PExpr`) may occur where the operations take polynomial splines. -/

namespace Bezman

mutual
/-- Scalar valued rational expressions over the public members of `RationalBezierSpline`
(src/rational_bezier_spline.hpp:91-552) and `BezierSpline::Compose` with a rational argument (src/bezier_spline.inc:959-986). -/
inductive RSExpr (K : Type) (n : Nat) where
  /-- a rational spline variable -/
  | leaf (i : Nat)
  /-- conversion of a polynomial spline -/
  | ofSpline (a : SExpr K n)
  /-- `a + b` -/
  | add (a b : RSExpr K n)
  /-- `a += b` -/
  | addAssign (a b : RSExpr K n)
  /-- `a - b` -/
  | sub (a b : RSExpr K n)
  /-- `a -= b` -/
  | subAssign (a b : RSExpr K n)
  /-- `-a` -/
  | neg (a : RSExpr K n)
  /-- `a * c` -/
  | scale (a : RSExpr K n) (c : K)
  /-- `a + v` -/
  | addPoint (a : RSExpr K n) (v : K)
  /-- `a - v` -/
  | subPoint (a : RSExpr K n) (v : K)
  /-- `OrderElevateAlongParametricDimension(d)` -/
  | elevate (a : RSExpr K n) (d : Nat)
  /-- first part of `SplitAtPosition(z, d)` -/
  | splitLeft (a : RSExpr K n) (z : K) (d : Nat)
  /-- second part of `SplitAtPosition(z, d)` -/
  | splitRight (a : RSExpr K n) (z : K) (d : Nat)
  /-- part `i` of `SplitAtPosition(zs, d)` -/
  | splitPart (a : RSExpr K n) (zs : List K) (d i : Nat)
  /-- `DerivativeWRTParametricDimension(orders)` -/
  | deriv (a : RSExpr K n) (orders : List Nat)
  /-- `a.Compose(b)` with a point valued polynomial inner spline -/
  | composePoly (a : RSExpr K n) (b : PExpr K n)
  /-- `a.Compose(b)` with a scalar valued polynomial inner spline -/
  | composePolyScalar (a : RSExpr K n) (b : SExpr K n)
  /-- `a.Compose(b)` with a point valued rational inner spline -/
  | compose (a : RSExpr K n) (b : RPExpr K n)
  /-- `a.Compose(b)` with a scalar valued rational inner spline -/
  | composeScalar (a : RSExpr K n) (b : RSExpr K n)
  /-- `a.Compose(b)`, `a` polynomial, with a point valued rational inner spline -/
  | polyCompose (a : SExpr K n) (b : RPExpr K n)
  /-- `a.Compose(b)`, `a` polynomial, with a scalar valued rational inner spline -/
  | polyComposeScalar (a : SExpr K n) (b : RSExpr K n)
  /-- `a * b`, both scalar valued -/
  | mul (a b : RSExpr K n)
  /-- `a * b`, both point valued: the dot product -/
  | dot (a b : RPExpr K n)

/-- Point valued rational expressions over the public members of `RationalBezierSpline`
(src/rational_bezier_spline.hpp:91-552) and `BezierSpline::Compose` with a rational argument (src/bezier_spline.inc:959-986). -/
inductive RPExpr (K : Type) (n : Nat) where
  /-- a rational spline variable -/
  | leaf (i : Nat)
  /-- conversion of a polynomial spline -/
  | ofSpline (a : PExpr K n)
  /-- `a + b` -/
  | add (a b : RPExpr K n)
  /-- `a += b` -/
  | addAssign (a b : RPExpr K n)
  /-- `a - b` -/
  | sub (a b : RPExpr K n)
  /-- `a -= b` -/
  | subAssign (a b : RPExpr K n)
  /-- `-a` -/
  | neg (a : RPExpr K n)
  /-- `a * c` -/
  | scale (a : RPExpr K n) (c : K)
  /-- `a + v` -/
  | addPoint (a : RPExpr K n) (v : Point K n)
  /-- `a - v` -/
  | subPoint (a : RPExpr K n) (v : Point K n)
  /-- `OrderElevateAlongParametricDimension(d)` -/
  | elevate (a : RPExpr K n) (d : Nat)
  /-- first part of `SplitAtPosition(z, d)` -/
  | splitLeft (a : RPExpr K n) (z : K) (d : Nat)
  /-- second part of `SplitAtPosition(z, d)` -/
  | splitRight (a : RPExpr K n) (z : K) (d : Nat)
  /-- part `i` of `SplitAtPosition(zs, d)` -/
  | splitPart (a : RPExpr K n) (zs : List K) (d i : Nat)
  /-- `DerivativeWRTParametricDimension(orders)` -/
  | deriv (a : RPExpr K n) (orders : List Nat)
  /-- `a.Compose(b)` with a point valued polynomial inner spline -/
  | composePoly (a : RPExpr K n) (b : PExpr K n)
  /-- `a.Compose(b)` with a scalar valued polynomial inner spline -/
  | composePolyScalar (a : RPExpr K n) (b : SExpr K n)
  /-- `a.Compose(b)` with a point valued rational inner spline -/
  | compose (a : RPExpr K n) (b : RPExpr K n)
  /-- `a.Compose(b)` with a scalar valued rational inner spline -/
  | composeScalar (a : RPExpr K n) (b : RSExpr K n)
  /-- `a.Compose(b)`, `a` polynomial, with a point valued rational inner spline -/
  | polyCompose (a : PExpr K n) (b : RPExpr K n)
  /-- `a.Compose(b)`, `a` polynomial, with a scalar valued rational inner spline -/
  | polyComposeScalar (a : PExpr K n) (b : RSExpr K n)
  /-- `a * b`, scalar valued times point valued -/
  | mulLeft (a : RSExpr K n) (b : RPExpr K n)
  /-- `a * b`, point valued times scalar valued -/
  | mulRight (a : RPExpr K n) (b : RSExpr K n)
end

/-- The values of the variables of a rational program. -/
structure RVars (K : Type) (n : Nat) extends Vars K n where
  rs : Nat → RSpline K K
  rp : Nat → RSpline K (Point K n)

variable {K : Type} {n : Nat} [Zero K] [One K] [Add K] [Sub K] [Mul K] [Neg K] [Div K] [NatCast K] [LT K] [DecidableLT K]
  [BEq K]

mutual
/-- Execution of a rational program with a scalar valued result. -/
def RSExpr.run (cfg : Cfg) (σ : RVars K n) : RSExpr K n → M (RSpline K K)
  | .leaf i => pure (σ.rs i)
  | .ofSpline a => do
    let x ← a.run cfg σ.toVars
    RSpline.ofSpline x
  | .add a b => do
    let x ← a.run cfg σ
    let y ← b.run cfg σ
    RSpline.addOp cfg x y
  | .addAssign a b => do
    let x ← a.run cfg σ
    let y ← b.run cfg σ
    RSpline.addAssign cfg x y
  | .sub a b => do
    let x ← a.run cfg σ
    let y ← b.run cfg σ
    RSpline.subOp cfg x y
  | .subAssign a b => do
    let x ← a.run cfg σ
    let y ← b.run cfg σ
    RSpline.subAssign cfg x y
  | .neg a => do
    let x ← a.run cfg σ
    x.negOp
  | .scale a c => do
    let x ← a.run cfg σ
    x.smulOp c
  | .addPoint a v => do
    let x ← a.run cfg σ
    x.addPoint v
  | .subPoint a v => do
    let x ← a.run cfg σ
    x.subPoint v
  | .elevate a d => do
    let x ← a.run cfg σ
    x.orderElevate d
  | .splitLeft a z d => do
    let x ← a.run cfg σ
    let l ← x.splitAt z d
    pure l.1
  | .splitRight a z d => do
    let x ← a.run cfg σ
    let l ← x.splitAt z d
    pure l.2
  | .splitPart a zs d i => do
    let x ← a.run cfg σ
    let l ← x.splitAtMany zs d
    rd l i
  | .deriv a orders => do
    let x ← a.run cfg σ
    x.derivativeSpline cfg orders
  | .composePoly a b => do
    let x ← a.run cfg σ
    let y ← b.run cfg σ.toVars
    RSpline.compose cfg x y
  | .composePolyScalar a b => do
    let x ← a.run cfg σ
    let y ← b.run cfg σ.toVars
    RSpline.compose cfg x y
  | .compose a b => do
    let x ← a.run cfg σ
    let y ← b.run cfg σ
    RSpline.composeRational cfg x y
  | .composeScalar a b => do
    let x ← a.run cfg σ
    let y ← b.run cfg σ
    RSpline.composeRational cfg x y
  | .polyCompose a b => do
    let x ← a.run cfg σ.toVars
    let y ← b.run cfg σ
    Spline.composeRational cfg x y
  | .polyComposeScalar a b => do
    let x ← a.run cfg σ.toVars
    let y ← b.run cfg σ
    Spline.composeRational cfg x y
  | .mul a b => do
    let x ← a.run cfg σ
    let y ← b.run cfg σ
    RSpline.mulOp cfg (fun x y => x * y) x y
  | .dot a b => do
    let x ← a.run cfg σ
    let y ← b.run cfg σ
    RSpline.mulOp cfg Point.dot x y

/-- Execution of a rational program with a point valued result. -/
def RPExpr.run (cfg : Cfg) (σ : RVars K n) : RPExpr K n → M (RSpline K (Point K n))
  | .leaf i => pure (σ.rp i)
  | .ofSpline a => do
    let x ← a.run cfg σ.toVars
    RSpline.ofSpline x
  | .add a b => do
    let x ← a.run cfg σ
    let y ← b.run cfg σ
    RSpline.addOp cfg x y
  | .addAssign a b => do
    let x ← a.run cfg σ
    let y ← b.run cfg σ
    RSpline.addAssign cfg x y
  | .sub a b => do
    let x ← a.run cfg σ
    let y ← b.run cfg σ
    RSpline.subOp cfg x y
  | .subAssign a b => do
    let x ← a.run cfg σ
    let y ← b.run cfg σ
    RSpline.subAssign cfg x y
  | .neg a => do
    let x ← a.run cfg σ
    x.negOp
  | .scale a c => do
    let x ← a.run cfg σ
    x.smulOp c
  | .addPoint a v => do
    let x ← a.run cfg σ
    x.addPoint v
  | .subPoint a v => do
    let x ← a.run cfg σ
    x.subPoint v
  | .elevate a d => do
    let x ← a.run cfg σ
    x.orderElevate d
  | .splitLeft a z d => do
    let x ← a.run cfg σ
    let l ← x.splitAt z d
    pure l.1
  | .splitRight a z d => do
    let x ← a.run cfg σ
    let l ← x.splitAt z d
    pure l.2
  | .splitPart a zs d i => do
    let x ← a.run cfg σ
    let l ← x.splitAtMany zs d
    rd l i
  | .deriv a orders => do
    let x ← a.run cfg σ
    x.derivativeSpline cfg orders
  | .composePoly a b => do
    let x ← a.run cfg σ
    let y ← b.run cfg σ.toVars
    RSpline.compose cfg x y
  | .composePolyScalar a b => do
    let x ← a.run cfg σ
    let y ← b.run cfg σ.toVars
    RSpline.compose cfg x y
  | .compose a b => do
    let x ← a.run cfg σ
    let y ← b.run cfg σ
    RSpline.composeRational cfg x y
  | .composeScalar a b => do
    let x ← a.run cfg σ
    let y ← b.run cfg σ
    RSpline.composeRational cfg x y
  | .polyCompose a b => do
    let x ← a.run cfg σ.toVars
    let y ← b.run cfg σ
    Spline.composeRational cfg x y
  | .polyComposeScalar a b => do
    let x ← a.run cfg σ.toVars
    let y ← b.run cfg σ
    Spline.composeRational cfg x y
  | .mulLeft a b => do
    let x ← a.run cfg σ
    let y ← b.run cfg σ
    RSpline.mulOp cfg (fun c v => c • v) x y
  | .mulRight a b => do
    let x ← a.run cfg σ
    let y ← b.run cfg σ
    RSpline.mulOp cfg (fun v c => c • v) x y
end

end Bezman
