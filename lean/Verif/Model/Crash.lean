import Verif.Model.History
import Verif.Model.RHistory

/-! # Mutators that run out of memory

The mutators once more, with the object as a state that survives an exception. Places at which memory may run out (growing or copying
a vector of control points, building a temporary spline, building the text of a log message) are numbered in the order in which they
are passed. A run is given the number of such places it passes unharmed; at the next one `std::bad_alloc` is thrown. No function of the
library catches it, so there is at most one per call. The scalar type itself does not allocate (built-in numbers, `AlgoDiffType` of a
fixed number of derivatives). -/

namespace Bezman

/-- A call with the object of type `σ` as state: the object afterwards, and `none` if `std::bad_alloc` left the call, or the result
and the number of places that can still be passed. -/
def Crash (σ α : Type) := σ → Nat → M (σ × Option (α × Nat))

namespace Crash
variable {σ τ α β : Type}

/-- return a value -/
def ret (a : α) : Crash σ α := fun s n => .ok (s, some (a, n))

/-- one statement after the other; an exception skips the rest -/
def andThen (x : Crash σ α) (f : α → Crash σ β) : Crash σ β := fun s n => do
  let r ← x s n
  match r with
  | (s, none) => .ok (s, none)
  | (s, some (a, n)) => f a s n

instance : Monad (Crash σ) where
  pure := ret
  bind := andThen

/-- a place at which memory may run out -/
def point : Crash σ Unit := fun s n =>
  match n with
  | 0 => .ok (s, none)
  | n + 1 => .ok (s, some ((), n))

/-- a place at which memory may run out only if `c` -/
def pointIf (c : Prop) [Decidable c] : Crash σ Unit := if c then point else ret ()

/-- the object -/
def obj : Crash σ σ := fun s n => .ok (s, some (s, n))

/-- write the object -/
def put (s : σ) : Crash σ Unit := fun _ n => .ok (s, some ((), n))

/-- a computation that does not touch the object and does not allocate -/
def lift (x : M α) : Crash σ α := fun s n => do
  let a ← x
  .ok (s, some (a, n))

/-- a call on a local object, which is lost with an exception -/
def local' (x : Crash τ Unit) (t : τ) : Crash σ τ := fun s n => do
  let r ← x t n
  match r with
  | (_, none) => .ok (s, none)
  | (t, some (_, n)) => .ok (s, some (t, n))

/-- `for (i = 0; i < n; i++)` -/
def forC : Nat → (Nat → Crash σ Unit) → Crash σ Unit
  | 0, _ => ret ()
  | n + 1, f => do
    forC n f
    f n

/-- `while (c)`, for at most `fuel` rounds -/
def whileC : Nat → (σ → M Bool) → Crash σ Unit → Crash σ Unit
  | 0, _, _ => lift (.error .outOfFuel)
  | fuel + 1, c, f => do
    let s ← obj
    let b ← lift (c s)
    if b then do
      f
      whileC fuel c f
    else ret ()

end Crash

open Crash

namespace Spline
variable {K V : Type}

section
variable [One K] [Sub K] [Mul K] [Div K] [NatCast K] [Zero V] [Add V] [SMul K V]

variable (K) in
/-- `OrderElevateAlongParametricDimension`, src/bezier_spline.inc:149-227: the number of control points is written (163-164) before the
vector is resized (165); everything from there on does not allocate (`orderElevate`), up to the log message (223-225). -/
def orderElevateC (d : Nat) : Crash (Spline V) Unit := do
  let s ← obj
  let p ← lift (rd s.degrees d)
  put { s with ncp := s.ncp / (p + 1) * (p + 2) }
  point
  let r ← lift (orderElevate K s d)
  put r
  point

omit [Add V] in
/-- `UpdateDegrees`, src/bezier_spline.hpp:227-235: degrees and number of control points are written before the vector is resized
(a vector that does not grow does not allocate). -/
def updateDegreesC (new_degrees : List Nat) : Crash (Spline V) Unit := do
  let s ← obj
  put { s with degrees := new_degrees, ncp := countCps new_degrees }
  pointIf (s.cps.length < countCps new_degrees)
  let r ← lift (s.updateDegrees new_degrees)
  put r

variable (K) in
/-- the loops that elevate `*this` or the copy of the argument, src/bezier_spline.inc:624-634, 683-693 -/
def elevateToC (cfg : Cfg) (target : List Nat) : Crash (Spline V) Unit := do
  let s ← obj
  forC s.dim fun d =>
    whileC cfg.fuel (fun s => do
      let t ← rd target d
      let p ← rd s.degrees d
      pure (decide (t > p))) (orderElevateC K d)

variable (K) in
/-- body of `operator+=(spline)` and `operator-=(spline)`, src/bezier_spline.inc:617-640, 676-699; `f` is `+` or `-` -/
def combineAssignC (cfg : Cfg) (f : V → V → V) (rhs : Spline V) : Crash (Spline V) Unit := do
  elevateToC K cfg rhs.degrees
  let s ← obj
  let rhs ← local' (elevateToC K cfg s.degrees) rhs
  let cps ← lift (zipCps s.ncp f s.cps rhs.cps)
  put { s with cps := cps }

end

/-- the defaulted copy assignment, src/bezier_spline.hpp:213: the members in the order of their declaration (degrees, number of
control points, offsets, vector: 75-77, 141-143). A vector that does not grow does not allocate. -/
def assignC (rhs : Spline V) : Crash (Spline V) Unit := do
  let s ← obj
  put { rhs with cps := s.cps }
  pointIf (s.cps.length < rhs.cps.length)
  put rhs

end Spline

section
variable {K V : Type} [Coords K V] [One K] [Add K] [Sub K] [Mul K] [Div K] [NatCast K] [LT K] [DecidableLT K]
  [Zero V] [Add V] [Sub V] [Neg V] [SMul K V]

/-- One call of a mutator of `BezierSpline` (see `Mutator.apply`). `operator+=(spline)` and `operator-=(spline)` take their argument
by value: it is copied first. `TransposeAndScale` writes a log message first (src/bezier_spline.inc:814-815). The others neither
allocate nor write log messages. -/
def Mutator.applyC (cfg : Cfg) : Mutator K V → Crash (Spline V) Unit
  | .updateDegrees new_degrees => Spline.updateDegreesC new_degrees
  | .orderElevate d => Spline.orderElevateC K d
  | .addAssign rhs => do
    point
    Spline.combineAssignC K cfg (· + ·) rhs
  | .subAssign rhs => do
    point
    Spline.combineAssignC K cfg (· - ·) rhs
  | .transposeAndScale t c => do
    point
    let s ← obj
    let r ← lift (Spline.transposeAndScale K s t c)
    put r
  | .fitIntoUnitCube => do
    let s ← obj
    point
    let r ← lift (Spline.fitIntoUnitCube K s)
    put r
  | m => do
    let s ← obj
    let r ← lift (m.apply cfg s)
    put r

end

namespace RSpline
variable {K V : Type}

/-- a call on the numerator -/
def onNum (x : Crash (Spline V) Unit) : Crash (RSpline K V) Unit := fun r n => do
  let q ← x r.num n
  .ok (⟨q.1, r.wt⟩, q.2)

/-- a call on the weight function -/
def onWt (x : Crash (Spline K) Unit) : Crash (RSpline K V) Unit := fun r n => do
  let q ← x r.wt n
  .ok (⟨r.num, q.1⟩, q.2)

/-- the defaulted copy assignment, src/rational_bezier_spline.hpp:160-161: numerator, then weight function (66, 71) -/
def assignC (rhs : RSpline K V) : Crash (RSpline K V) Unit := do
  onNum (Spline.assignC rhs.num)
  onWt (Spline.assignC rhs.wt)

variable [Zero K] [One K] [Add K] [Sub K] [Mul K] [Div K] [NatCast K] [Zero V] [Add V] [SMul K V]

omit [One K] [Add K] [Sub K] [Mul K] [Div K] [NatCast K] [Add V] [SMul K V] in
/-- `UpdateDegrees`, src/rational_bezier_spline.hpp:196-202 -/
def updateDegreesC (new_degrees : List Nat) : Crash (RSpline K V) Unit := do
  onWt (Spline.updateDegreesC new_degrees)
  onNum (Spline.updateDegreesC new_degrees)
  let r ← obj
  lift (assertM (compatible r))

omit [Zero V] in
/-- `OrderElevateAlongParametricDimension`, src/rational_bezier_spline.inc:437-448 -/
def orderElevateC [Zero V] (d : Nat) : Crash (RSpline K V) Unit := do
  onNum (Spline.orderElevateC K d)
  onWt (Spline.orderElevateC K d)
  let r ← obj
  lift (assertM (compatible r))

/-- `operator+=(rational)` and `operator-=(rational)`, src/rational_bezier_spline.inc:655-673, 692-710; `f` is `+` or `-`. A product is
a temporary spline, which is moved into its place. -/
def combineAssignC [BEq K] (cfg : Cfg) (f : V → V → V) (rhs : RSpline K V) : Crash (RSpline K V) Unit := do
  let r ← obj
  if r.wt.eqOp rhs.wt then do
    point
    onNum (Spline.combineAssignC K cfg f rhs.num)
  else do
    point
    let a ← lift (mulWeight' cfg r.num rhs.wt)
    put ⟨a, r.wt⟩
    point
    let b ← lift (mulWeight cfg r.wt rhs.num)
    onNum (Spline.combineAssignC K cfg f b)
    point
    let r ← obj
    let w ← lift (Spline.mulScalar cfg r.wt rhs.wt)
    put ⟨r.num, w⟩
    let r ← obj
    lift (assertM (compatible r))

end RSpline

section
variable {K V : Type} [Zero K] [One K] [Add K] [Sub K] [Mul K] [Div K] [NatCast K] [BEq K] [Zero V] [Add V] [Sub V] [SMul K V]

/-- One call of a mutator of `RationalBezierSpline` (see `RMutator.apply`). -/
def RMutator.applyC (cfg : Cfg) : RMutator K V → Crash (RSpline K V) Unit
  | .assign rhs => RSpline.assignC rhs
  | .updateDegrees new_degrees => RSpline.updateDegreesC new_degrees
  | .orderElevate d => RSpline.orderElevateC d
  | .addAssign rhs => RSpline.combineAssignC cfg (· + ·) rhs
  | .subAssign rhs => RSpline.combineAssignC cfg (· - ·) rhs
  | m => do
    let r ← obj
    let r ← lift (m.apply cfg r)
    put r

end

end Bezman
