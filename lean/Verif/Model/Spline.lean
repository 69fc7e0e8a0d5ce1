import Verif.Model.Bernstein
import Mathlib.Algebra.Group.Action.Defs

/-! # `BezierSpline`: data, constructors, index conversions, evaluation

Control points have type `V`, scalars type `K`; `point * scalar` of the C++ code
is written `scalar • point`.  `std::array<size_t, parametric_dimension>` is a
`List Nat`; the parametric dimension is the length of `degrees`. -/

namespace Bezman

/-- Data members of `BezierSpline`, src/bezier_spline.hpp:75-77, 141-143. -/
structure Spline (V : Type) where
  degrees : List Nat
  /-- `number_of_control_points` -/
  ncp : Nat
  /-- `index_offsets` -/
  offsets : List Nat
  /-- `control_points` -/
  cps : List V
deriving DecidableEq, Repr

namespace Spline
variable {K V : Type}

/-- template parameter `parametric_dimension` -/
def dim (s : Spline V) : Nat := s.degrees.length

/-- loop of src/bezier_spline.hpp:189-191, 201-203, 230-232 -/
def countCps (degrees : List Nat) : Nat := degrees.foldl (fun n d => n * (d + 1)) 1

/-- `std::vector::resize` (value-initialises new entries) -/
def resize [Zero V] (l : List V) (n : Nat) : List V := l.take n ++ List.replicate (n - l.length) 0

/-- `UpdateIndexOffsets_`, src/bezier_spline.inc:25-32. -/
def updateIndexOffsets (degrees offsets : List Nat) : M (List Nat) := do
  let o ← wr offsets 0 1
  loopFrom 1 degrees.length (fun i o => do
    let a ← rd o (i - 1)
    let d ← rd degrees (i - 1)
    wr o i (a * (d + 1))) o

/-- default constructor, src/bezier_spline.hpp:183 with the member initialisers. -/
def default (dim : Nat) : Spline V := ⟨List.replicate dim 0, 0, List.replicate dim 0, []⟩

/-- constructor from degrees, src/bezier_spline.hpp:186-194. -/
def ofDegrees [Zero V] (deg : List Nat) : M (Spline V) := do
  let n := countCps deg
  let cps := resize ([] : List V) n
  let o ← updateIndexOffsets deg (List.replicate deg.length 0)
  pure ⟨deg, n, o, cps⟩

/-- constructor from degrees and points, src/bezier_spline.hpp:197-207. -/
def ofPoints (deg : List Nat) (points : List V) : M (Spline V) := do
  let n := countCps deg
  let o ← updateIndexOffsets deg (List.replicate deg.length 0)
  assertM (n == points.length)
  pure ⟨deg, n, o, points⟩

/-- `UpdateDegrees`, src/bezier_spline.hpp:227-235. -/
def updateDegrees [Zero V] (s : Spline V) (new_degrees : List Nat) : M (Spline V) := do
  let n := countCps new_degrees
  let cps := resize s.cps n
  let o ← updateIndexOffsets new_degrees s.offsets
  pure ⟨new_degrees, n, o, cps⟩

/-- `LocalToGlobalIndex`, src/bezier_spline.inc:34-44. -/
def localToGlobal (s : Spline V) (local_index : Nat) : M (List Nat) :=
  loop s.dim (fun i l => do
    let o ← rd s.offsets i
    let d ← rd s.degrees i
    let q ← divU local_index o
    wr l i (q % (d + 1))) (List.replicate s.dim 0)

/-- `GlobalToLocalIndex`, src/bezier_spline.inc:46-58. -/
def globalToLocal (s : Spline V) (idx : List Nat) : M Nat := do
  let c ← rd idx 0
  loopFrom 1 s.dim (fun i c => do
    let o ← rd s.offsets i
    let x ← rd idx i
    pure (c + o * x)) c

/-- `ControlPoint(std::array)`, src/bezier_spline.inc:133-147 (read access). -/
def controlPoint (s : Spline V) (idx : List Nat) : M V := do
  let i ← s.globalToLocal idx
  rd s.cps i

/-- `ControlPoint(i, j, ...)`, src/bezier_spline.inc:107-131 (read access); the
accumulator is a 32-bit `unsigned int`. The pack has `parametric_dimension`
entries (static_assert, lines 113-114). -/
def controlPointVariadic (s : Spline V) (idx : List Nat) : M V := do
  let c ← loop idx.length (fun i c => do
    let o ← rd s.offsets i
    let x ← rd idx i
    pure ((c + o * x) % 2 ^ 32)) 0
  rd s.cps c

/-- `ControlPoint(std::array) = x`, src/bezier_spline.inc:141-147 (write access). -/
def setControlPoint (s : Spline V) (idx : List Nat) (x : V) : M (Spline V) := do
  let i ← s.globalToLocal idx
  let cps ← wr s.cps i x
  pure { s with cps := cps }

section eval
variable [One K] [Sub K] [Add V] [SMul K V]

/-- `Evaluate`, src/bezier_spline.inc:328-370. -/
def evaluate (s : Spline V) (t : List K) : M V := do
  let r ← loop s.dim (fun par_dim (r : List V × Nat) => do
    let factor ← rd t par_dim
    let inv_factor := 1 - factor
    let p ← rd s.degrees par_dim
    let off ← rd s.offsets par_dim
    let ctps_to_consider := r.2 / (p + 1)
    let m ← loop ctps_to_consider (fun starting_point_id m =>
      let offset := (off * (p + 1)) * starting_point_id
      loop (p + 1) (fun i m =>
        loop (p - i) (fun j m => do
          let a ← rd m (j * off + offset)
          let b ← rd m ((j + 1) * off + offset)
          wr m (j * off + offset) (inv_factor • a + factor • b)) m) m) r.1
    pure (m, ctps_to_consider)) (s.cps, s.ncp)
  rd r.1 0

end eval

section basis
variable [Zero K] [One K] [Add K] [Sub K] [Mul K] [Neg K] [NatCast K]

/-- `BasisFunctionContributions`, src/bezier_spline.inc:372-387. -/
def basisFunctionContributions (cfg : Cfg) (s : Spline V) (t : List K) : M (List (List K)) :=
  loop s.dim (fun d (factors : List (List K)) => do
    let p ← rd s.degrees d
    let x ← rd t d
    let b ← bernsteinEvaluate cfg p x
    wr factors d b) (List.replicate s.dim [])

/-- `BasisFunctions`, src/bezier_spline.inc:389-397. -/
def basisFunctions (cfg : Cfg) (s : Spline V) (t : List K) : M (List K) := do
  let f ← s.basisFunctionContributions cfg t
  recursiveCombine f

/-- `BasisFunctionsDerivativeContributions`, src/bezier_spline.inc:425-442. -/
def basisFunctionsDerivativeContributions (cfg : Cfg) (s : Spline V) (t : List K)
    (nth_derivs : List Nat) : M (List (List K)) :=
  loop s.dim (fun d (factors : List (List K)) => do
    let p ← rd s.degrees d
    let x ← rd t d
    let k ← rd nth_derivs d
    let b ← bernsteinEvaluateDerivative cfg p x k
    wr factors d b) (List.replicate s.dim [])

/-- `BasisFunctionsDerivatives`, src/bezier_spline.inc:444-456. -/
def basisFunctionsDerivatives (cfg : Cfg) (s : Spline V) (t : List K) (nth_derivs : List Nat) :
    M (List K) := do
  let f ← s.basisFunctionsDerivativeContributions cfg t nth_derivs
  recursiveCombine f

variable [Zero V] [Add V] [SMul K V]

/-- the accumulation loop shared by `ForwardEvaluate` (src/bezier_spline.inc:414-422)
and `EvaluateDerivative` (475-483). -/
def weightedSum (factors : List K) (cps : List V) : M V :=
  loop factors.length (fun i acc => do
    let f ← rd factors i
    let c ← rd cps i
    pure (acc + f • c)) 0

/-- `ForwardEvaluate`, src/bezier_spline.inc:399-423. -/
def forwardEvaluate (cfg : Cfg) (s : Spline V) (t : List K) : M V := do
  let factors ← s.basisFunctions cfg t
  weightedSum factors s.cps

/-- `EvaluateDerivative`, src/bezier_spline.inc:458-484. -/
def evaluateDerivative (cfg : Cfg) (s : Spline V) (t : List K) (nth_derivs : List Nat) : M V := do
  let factors ← s.basisFunctionsDerivatives cfg t nth_derivs
  weightedSum factors s.cps

end basis

/-- `operator==`, src/bezier_spline.inc:486-498.  `==` of the control points need not be equality: a NaN differs from itself, and
`AlgoDiffType`s are compared by their values only. -/
def eqOp [BEq V] (s rhs : Spline V) : Bool :=
  if rhs.degrees = s.degrees then rhs.cps == s.cps else false

end Spline
end Bezman
