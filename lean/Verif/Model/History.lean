import Verif.Model.Box

/-! # Histories of public mutators -/

namespace Bezman
variable {K V : Type}

/-- One call of a public non-const member of `BezierSpline`
(src/bezier_spline.hpp:143, 227-235, 242-245, 256-265, 357, 366, 385, 400, 415, 438, 448).
Replacing the public vector `control_points` by one of another length, or writing
`index_offsets`, is not a mutator. -/
inductive Mutator (K V : Type) where
  /-- `UpdateDegrees` -/
  | updateDegrees (new_degrees : List Nat)
  /-- `OrderElevateAlongParametricDimension` -/
  | orderElevate (d : Nat)
  /-- `operator*=(scalar)` -/
  | scale (c : K)
  /-- `operator+=(point)` -/
  | addPoint (v : V)
  /-- `operator-=(point)` -/
  | subPoint (v : V)
  /-- `operator+=(spline)` -/
  | addAssign (rhs : Spline V)
  /-- `operator-=(spline)` -/
  | subAssign (rhs : Spline V)
  /-- `TransposeAndScale` -/
  | transposeAndScale (transposition scale : V)
  /-- `FitIntoUnitCube` -/
  | fitIntoUnitCube
  /-- `ControlPoint(std::array) = x` -/
  | setControlPoint (idx : List Nat) (x : V)
  /-- `control_points[i] = x`, `GetControlPoints()[i] = x` -/
  | setEntry (i : Nat) (x : V)

/-- The condition the C++ type checker enforces for a spline of parametric dimension
`n`: arrays have `n` entries. -/
def Mutator.Typed (n : Nat) : Mutator K V → Prop
  | .updateDegrees new_degrees => new_degrees.length = n
  | .addAssign rhs => rhs.dim = n
  | .subAssign rhs => rhs.dim = n
  | .setControlPoint idx _ => idx.length = n
  | _ => True

variable [Coords K V] [One K] [Add K] [Sub K] [Mul K] [Div K] [NatCast K] [LT K] [DecidableLT K]
  [Zero V] [Add V] [Sub V] [Neg V] [SMul K V]

/-- The effect of one call. -/
def Mutator.apply (cfg : Cfg) (s : Spline V) : Mutator K V → M (Spline V)
  | .updateDegrees new_degrees => s.updateDegrees new_degrees
  | .orderElevate d => Spline.orderElevate K s d
  | .scale c => s.smulOp c
  | .addPoint v => s.addPoint v
  | .subPoint v => s.subPoint v
  | .addAssign rhs => Spline.addAssign K cfg s rhs
  | .subAssign rhs => Spline.subAssign K cfg s rhs
  | .transposeAndScale t c => Spline.transposeAndScale K s t c
  | .fitIntoUnitCube => Spline.fitIntoUnitCube K s
  | .setControlPoint idx x => s.setControlPoint idx x
  | .setEntry i x => do
    let cps ← wr s.cps i x
    pure { s with cps := cps }

/-- A sequence of calls on one spline object. -/
def runHistory (cfg : Cfg) (s : Spline V) : List (Mutator K V) → M (Spline V)
  | [] => pure s
  | m :: ms => do
    let s ← m.apply cfg s
    runHistory cfg s ms

end Bezman
