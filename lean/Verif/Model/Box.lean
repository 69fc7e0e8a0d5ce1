import Verif.Model.Arith
import Verif.Model.Point

/-! # Coordinates, bounding boxes, unit cube -/

namespace Bezman
namespace Spline
variable {K V : Type} [Coords K V]
open Coords

variable (K) in
/-- `ExtractDimension`, src/bezier_spline.inc:701-725. (For arithmetic types the
copy of the control points is the identity.) -/
def extractDimension [Zero K] (s : Spline V) (dimension : Nat) : M (Spline K) := do
  if h : dimension < Coords.n K V then do
    let e ← ofDegrees (V := K) s.degrees
    let cps ← loop s.ncp (fun i cps => do
      let x ← rd s.cps i
      wr cps i (coord x ⟨dimension, h⟩)) e.cps
    pure { e with cps := cps }
  else .error .throws

section
variable [LT K] [DecidableLT K]

/-- `std::max` -/
def stdMax (a b : K) : K := if a < b then b else a
/-- `std::min` -/
def stdMin (a b : K) : K := if b < a then b else a

variable (K) in
/-- `MaximumCorner`, src/bezier_spline.inc:762-783. -/
def maximumCorner (s : Spline V) : M V := do
  if s.ncp = 0 then .error .throws
  else do
    let m ← rd s.cps 0
    loopFrom 1 s.ncp (fun i m => do
      let x ← rd s.cps i
      pure (ofCoords (K := K) fun j => stdMax (coord m j) (coord x j))) m

variable (K) in
/-- `MinimumCorner`, src/bezier_spline.inc:785-806. -/
def minimumCorner (s : Spline V) : M V := do
  if s.ncp = 0 then .error .throws
  else do
    let m ← rd s.cps 0
    loopFrom 1 s.ncp (fun i m => do
      let x ← rd s.cps i
      pure (ofCoords (K := K) fun j => stdMin (coord m j) (coord x j))) m

variable (K) in
/-- `FitsIntoUnitCube`, src/bezier_spline.inc:850-871 (the loop with early return is
a conjunction over the coordinates). -/
def fitsIntoUnitCube [Zero K] [One K] (s : Spline V) : M Bool := do
  let mx ← maximumCorner K s
  let mn ← minimumCorner K s
  pure (decide (∀ j : Fin (Coords.n K V), ¬ ((1 : K) < coord mx j ∨ coord mn j < (0 : K))))

end

variable (K) in
/-- `TransposeAndScale`, src/bezier_spline.inc:808-829. -/
def transposeAndScale [Add K] [Mul K] (s : Spline V) (transposition scale : V) : M (Spline V) :=
  s.mapCps fun x =>
    ofCoords (K := K) fun j => (coord transposition j + coord x j) * coord scale j

variable (K) in
/-- `FitIntoUnitCube`, src/bezier_spline.inc:831-848.  `1 / 0` is whatever the scalar type
makes of it: the theorems in exact arithmetic assume a positive extent in every coordinate; for IEEE numbers see C99. -/
def fitIntoUnitCube [LT K] [DecidableLT K] [One K] [Add K] [Mul K] [Div K] [Sub V] [Neg V]
    (s : Spline V) : M (Spline V) := do
  let mx ← maximumCorner K s
  let mn ← minimumCorner K s
  let scale_vector := ofCoords (V := V) (fun j => (1 : K) / coord (mx - mn) j)
  transposeAndScale K s (-mn) scale_vector

end Spline
end Bezman
