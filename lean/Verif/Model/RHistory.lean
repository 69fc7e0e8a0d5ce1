import Verif.Model.RationalDeriv

/-! # Histories of the public mutators of `RationalBezierSpline` -/

namespace Bezman
variable {K V : Type}

/-- default constructor, src/rational_bezier_spline.hpp:132: both members are default
constructed. -/
def RSpline.default (dim : Nat) : RSpline K V := ⟨Spline.default dim, Spline.default dim⟩

/-- One call of a public non-const member of `RationalBezierSpline`, including the
writes through the references returned by `WeightedControlPoint`, `Weight`,
`GetWeightedControlPoints` and `GetWeights`
(src/rational_bezier_spline.hpp:155-161, 174-202, 229-254, 336-337, 370-408, 418-428).
Replacing one of the two vectors by one of another length is not a mutator. -/
inductive RMutator (K V : Type) where
  /-- `operator=(rational)` -/
  | assign (rhs : RSpline K V)
  /-- `UpdateDegrees` -/
  | updateDegrees (new_degrees : List Nat)
  /-- `OrderElevateAlongParametricDimension` -/
  | orderElevate (d : Nat)
  /-- `operator*=(scalar)` -/
  | scale (c : K)
  /-- `operator+=(point)` -/
  | addPoint (v : V)
  /-- `operator-=(point)` -/
  | subPoint (v : V)
  /-- `operator+=(rational)` -/
  | addAssign (rhs : RSpline K V)
  /-- `operator-=(rational)` -/
  | subAssign (rhs : RSpline K V)
  /-- `WeightedControlPoint(std::array) = x` -/
  | setWeightedControlPoint (idx : List Nat) (x : V)
  /-- `Weight(std::array) = w` -/
  | setWeight (idx : List Nat) (w : K)
  /-- `GetWeightedControlPoints()[i] = x` -/
  | setEntry (i : Nat) (x : V)
  /-- `GetWeights()[i] = w` -/
  | setWeightEntry (i : Nat) (w : K)

/-- The other spline object the call refers to. -/
def RMutator.operand : RMutator K V → Option (RSpline K V)
  | .assign rhs => some rhs
  | .addAssign rhs => some rhs
  | .subAssign rhs => some rhs
  | _ => none

/-- The condition the C++ type checker enforces for a spline of parametric dimension
`n`: arrays have `n` entries. -/
def RMutator.Typed (n : Nat) : RMutator K V → Prop
  | .updateDegrees new_degrees => new_degrees.length = n
  | .setWeightedControlPoint idx _ => idx.length = n
  | .setWeight idx _ => idx.length = n
  | _ => True

variable [Zero K] [One K] [Add K] [Sub K] [Mul K] [Div K] [NatCast K] [BEq K]
  [Zero V] [Add V] [Sub V] [SMul K V]

/-- The effect of one call. -/
def RMutator.apply (cfg : Cfg) (r : RSpline K V) : RMutator K V → M (RSpline K V)
  | .assign rhs => pure rhs
  | .updateDegrees new_degrees => r.updateDegrees new_degrees
  | .orderElevate d => r.orderElevate d
  | .scale c => r.smulAssign c
  | .addPoint v => r.addPointAssign v
  | .subPoint v => r.subPointAssign v
  | .addAssign rhs => r.addAssign cfg rhs
  | .subAssign rhs => r.subAssign cfg rhs
  | .setWeightedControlPoint idx x => do
    let num ← r.num.setControlPoint idx x
    pure ⟨num, r.wt⟩
  | .setWeight idx w => do
    let wt ← r.wt.setControlPoint idx w
    pure ⟨r.num, wt⟩
  | .setEntry i x => do
    let cps ← wr r.num.cps i x
    pure ⟨{ r.num with cps := cps }, r.wt⟩
  | .setWeightEntry i w => do
    let cps ← wr r.wt.cps i w
    pure ⟨r.num, { r.wt with cps := cps }⟩

end Bezman
