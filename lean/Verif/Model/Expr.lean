import Verif.Model.Arith
import Verif.Model.Split
import Verif.Model.Elevate
import Verif.Model.Compose
import Verif.Model.Box

/-! # Programs: expressions over spline operations

What a user writes: an expression over scalar valued and point valued splines, built from the public operations that
return splines.  Values are passed by value; a variable may occur several times. -/

namespace Bezman

mutual
/-- Scalar valued expressions over the public members of `BezierSpline`
(src/bezier_spline.hpp:205-466). -/
inductive SExpr (K : Type) (n : Nat) where
  /-- a spline variable -/
  | leaf (i : Nat)
  /-- `a + b` -/
  | add (a b : SExpr K n)
  /-- `a += b` -/
  | addAssign (a b : SExpr K n)
  /-- `a - b` -/
  | sub (a b : SExpr K n)
  /-- `a -= b` -/
  | subAssign (a b : SExpr K n)
  /-- `-a` -/
  | neg (a : SExpr K n)
  /-- `a * c` -/
  | scale (a : SExpr K n) (c : K)
  /-- `a + v` -/
  | addPoint (a : SExpr K n) (v : K)
  /-- `a - v` -/
  | subPoint (a : SExpr K n) (v : K)
  /-- `v - a` -/
  | pointSub (v : K) (a : SExpr K n)
  /-- `OrderElevateAlongParametricDimension(d)` -/
  | elevate (a : SExpr K n) (d : Nat)
  /-- first part of `SplitAtPosition(z, d)` -/
  | splitLeft (a : SExpr K n) (z : K) (d : Nat)
  /-- second part of `SplitAtPosition(z, d)` -/
  | splitRight (a : SExpr K n) (z : K) (d : Nat)
  /-- part `i` of `SplitAtPosition(zs, d)` -/
  | splitPart (a : SExpr K n) (zs : List K) (d i : Nat)
  /-- `DerivativeWRTParametricDimension(orders)` -/
  | deriv (a : SExpr K n) (orders : List Nat)
  /-- `a.Compose(b)` with a point valued inner spline -/
  | compose (a : SExpr K n) (b : PExpr K n)
  /-- `a.Compose(b)` with a scalar valued inner spline -/
  | composeScalar (a : SExpr K n) (b : SExpr K n)
  /-- `a * b`, both scalar valued -/
  | mul (a b : SExpr K n)
  /-- `a * b`, both point valued: the dot product -/
  | dot (a b : PExpr K n)
  /-- `RaisePower(k)` -/
  | power (a : SExpr K n) (k : Nat)
  /-- `ExtractDimension(j)` -/
  | extract (a : PExpr K n) (j : Nat)

/-- Point valued expressions over the public members of `BezierSpline`
(src/bezier_spline.hpp:205-466). -/
inductive PExpr (K : Type) (n : Nat) where
  /-- a spline variable -/
  | leaf (i : Nat)
  /-- `a + b` -/
  | add (a b : PExpr K n)
  /-- `a += b` -/
  | addAssign (a b : PExpr K n)
  /-- `a - b` -/
  | sub (a b : PExpr K n)
  /-- `a -= b` -/
  | subAssign (a b : PExpr K n)
  /-- `-a` -/
  | neg (a : PExpr K n)
  /-- `a * c` -/
  | scale (a : PExpr K n) (c : K)
  /-- `a + v` -/
  | addPoint (a : PExpr K n) (v : Point K n)
  /-- `a - v` -/
  | subPoint (a : PExpr K n) (v : Point K n)
  /-- `v - a` -/
  | pointSub (v : Point K n) (a : PExpr K n)
  /-- `OrderElevateAlongParametricDimension(d)` -/
  | elevate (a : PExpr K n) (d : Nat)
  /-- first part of `SplitAtPosition(z, d)` -/
  | splitLeft (a : PExpr K n) (z : K) (d : Nat)
  /-- second part of `SplitAtPosition(z, d)` -/
  | splitRight (a : PExpr K n) (z : K) (d : Nat)
  /-- part `i` of `SplitAtPosition(zs, d)` -/
  | splitPart (a : PExpr K n) (zs : List K) (d i : Nat)
  /-- `DerivativeWRTParametricDimension(orders)` -/
  | deriv (a : PExpr K n) (orders : List Nat)
  /-- `a.Compose(b)` with a point valued inner spline -/
  | compose (a : PExpr K n) (b : PExpr K n)
  /-- `a.Compose(b)` with a scalar valued inner spline -/
  | composeScalar (a : PExpr K n) (b : SExpr K n)
  /-- `a * b`, scalar valued times point valued -/
  | mulLeft (a : SExpr K n) (b : PExpr K n)
  /-- `a * b`, point valued times scalar valued -/
  | mulRight (a : PExpr K n) (b : SExpr K n)
end

/-- The values of the spline variables of a program. -/
structure Vars (K : Type) (n : Nat) where
  s : Nat → Spline K
  p : Nat → Spline (Point K n)

variable {K : Type} {n : Nat} [Zero K] [One K] [Add K] [Sub K] [Mul K] [Neg K] [Div K] [NatCast K] [LT K] [DecidableLT K]

mutual
/-- Execution of a program: the calls are made from the inside out, each one is the model of the C++ operation. -/
def SExpr.run (cfg : Cfg) (σ : Vars K n) : SExpr K n → M (Spline K)
  | .leaf i => pure (σ.s i)
  | .add a b => do
    let x ← a.run cfg σ
    let y ← b.run cfg σ
    Spline.addOp K cfg x y
  | .addAssign a b => do
    let x ← a.run cfg σ
    let y ← b.run cfg σ
    Spline.addAssign K cfg x y
  | .sub a b => do
    let x ← a.run cfg σ
    let y ← b.run cfg σ
    Spline.subOp K cfg x y
  | .subAssign a b => do
    let x ← a.run cfg σ
    let y ← b.run cfg σ
    Spline.subAssign K cfg x y
  | .neg a => do
    let x ← a.run cfg σ
    x.negOp
  | .scale a c => do
    let x ← a.run cfg σ
    x.smulOp c
  | .addPoint a v => do
    let x ← a.run cfg σ
    x.addPoint v
  | .subPoint a v => do
    let x ← a.run cfg σ
    x.subPoint v
  | .pointSub v a => do
    let x ← a.run cfg σ
    Spline.pointSub v x
  | .elevate a d => do
    let x ← a.run cfg σ
    Spline.orderElevate K x d
  | .splitLeft a z d => do
    let x ← a.run cfg σ
    let l ← x.splitAt z d
    pure l.1
  | .splitRight a z d => do
    let x ← a.run cfg σ
    let l ← x.splitAt z d
    pure l.2
  | .splitPart a zs d i => do
    let x ← a.run cfg σ
    let l ← x.splitAtMany zs d
    rd l i
  | .deriv a orders => do
    let x ← a.run cfg σ
    Spline.derivativeSpline K cfg x orders
  | .compose a b => do
    let x ← a.run cfg σ
    let y ← b.run cfg σ
    Spline.compose K cfg x y
  | .composeScalar a b => do
    let x ← a.run cfg σ
    let y ← b.run cfg σ
    Spline.compose K cfg x y
  | .mul a b => do
    let x ← a.run cfg σ
    let y ← b.run cfg σ
    Spline.mulScalar cfg x y
  | .dot a b => do
    let x ← a.run cfg σ
    let y ← b.run cfg σ
    Spline.mulOp K cfg Point.dot x y
  | .power a k => do
    let x ← a.run cfg σ
    Spline.raisePower cfg x k
  | .extract a j => do
    let x ← a.run cfg σ
    Spline.extractDimension K x j

/-- Execution of a program with a point valued result. -/
def PExpr.run (cfg : Cfg) (σ : Vars K n) : PExpr K n → M (Spline (Point K n))
  | .leaf i => pure (σ.p i)
  | .add a b => do
    let x ← a.run cfg σ
    let y ← b.run cfg σ
    Spline.addOp K cfg x y
  | .addAssign a b => do
    let x ← a.run cfg σ
    let y ← b.run cfg σ
    Spline.addAssign K cfg x y
  | .sub a b => do
    let x ← a.run cfg σ
    let y ← b.run cfg σ
    Spline.subOp K cfg x y
  | .subAssign a b => do
    let x ← a.run cfg σ
    let y ← b.run cfg σ
    Spline.subAssign K cfg x y
  | .neg a => do
    let x ← a.run cfg σ
    x.negOp
  | .scale a c => do
    let x ← a.run cfg σ
    x.smulOp c
  | .addPoint a v => do
    let x ← a.run cfg σ
    x.addPoint v
  | .subPoint a v => do
    let x ← a.run cfg σ
    x.subPoint v
  | .pointSub v a => do
    let x ← a.run cfg σ
    Spline.pointSub v x
  | .elevate a d => do
    let x ← a.run cfg σ
    Spline.orderElevate K x d
  | .splitLeft a z d => do
    let x ← a.run cfg σ
    let l ← x.splitAt z d
    pure l.1
  | .splitRight a z d => do
    let x ← a.run cfg σ
    let l ← x.splitAt z d
    pure l.2
  | .splitPart a zs d i => do
    let x ← a.run cfg σ
    let l ← x.splitAtMany zs d
    rd l i
  | .deriv a orders => do
    let x ← a.run cfg σ
    Spline.derivativeSpline K cfg x orders
  | .compose a b => do
    let x ← a.run cfg σ
    let y ← b.run cfg σ
    Spline.compose K cfg x y
  | .composeScalar a b => do
    let x ← a.run cfg σ
    let y ← b.run cfg σ
    Spline.compose K cfg x y
  | .mulLeft a b => do
    let x ← a.run cfg σ
    let y ← b.run cfg σ
    Spline.mulOp K cfg (fun c v => c • v) x y
  | .mulRight a b => do
    let x ← a.run cfg σ
    let y ← b.run cfg σ
    Spline.mulOp K cfg (fun v c => c • v) x y
end

end Bezman
