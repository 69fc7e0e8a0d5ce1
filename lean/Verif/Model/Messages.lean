import Verif.Model.RationalDeriv
import Verif.Model.Split
import Verif.Model.Logger

/-! # The messages that the spline functions send to the logger

The other models leave the calls of `utils::Logger` in `BezierSpline` and `RationalBezierSpline` out. Here every function that calls the
logger, directly or through another function, is modelled together with its messages. Messages sent before a failure are kept.
The computations between two messages are those of the other models.

`tx` is `std::to_string` of the scalar type. -/

namespace Bezman

/-- the functions of the logger that the splines call -/
inductive Kind
  /-- `Logger::Logging` -/
  | logging
  /-- `Logger::ExtendedInformation` -/
  | extended
  /-- `Logger::Error` -/
  | error
  /-- `Logger::TerminatingError` -/
  | terminating
deriving DecidableEq, Repr

/-- one call of the logger -/
structure Msg where
  kind : Kind
  text : String
deriving DecidableEq, Repr

/-- the call of the logger, src/utils/logger.hpp:75-147, made at the time `now` -/
def Msg.call (now : String) (m : Msg) : Logger.Call :=
  match m.kind with
  | .logging => .logging m.text now
  | .extended => .extended m.text now
  | .error => .error m.text now
  | .terminating => .terminating m.text now

/-- What a C++ call does: the messages it sends, in order, and its result. -/
structure Said (α : Type) where
  log : List Msg
  out : M α

namespace Said
variable {α β σ : Type}

/-- one call after the other; an exception or an error ends the program text -/
def bind (x : Said α) (f : α → Said β) : Said β :=
  match x.out with
  | .error e => ⟨x.log, .error e⟩
  | .ok a => ⟨x.log ++ (f a).log, (f a).out⟩

instance : Monad Said where
  pure a := ⟨[], .ok a⟩
  bind := bind

/-- a computation that sends no messages -/
def lift (m : M α) : Said α := ⟨[], m⟩

/-- `utils::Logger::Logging(text)` and the other functions that return -/
def say (k : Kind) (text : String) : Said Unit := ⟨[⟨k, text⟩], .ok ()⟩

/-- `utils::Logger::TerminatingError(text)`, src/utils/logger.hpp:300-317: sends the message and throws -/
def terminate (text : String) : Said α := ⟨[⟨.terminating, text⟩], .error .throws⟩

/-- `for (i = 0; i < n; i++) s = f(i, s)` -/
def loopS : Nat → (Nat → σ → Said σ) → σ → Said σ
  | 0, _, s => pure s
  | n + 1, f, s => loopS n f s >>= fun s' => f n s'

/-- `for (i = a; i < b; i++) s = f(i, s)` -/
def loopFromS (a b : Nat) (f : Nat → σ → Said σ) (s : σ) : Said σ := loopS (b - a) (fun k s => f (a + k) s) s

/-- `while (c(s)) s = f(s)`, for at most `fuel` rounds. -/
def whileS : Nat → (σ → M Bool) → (σ → Said σ) → σ → Said σ
  | 0, _, _, _ => ⟨[], .error .outOfFuel⟩
  | n + 1, c, f, s => lift (c s) >>= fun b => if b then f s >>= whileS n c f else pure s

end Said

namespace Messages
open Said
variable {K V W U : Type}

/-! ## Polynomial splines -/

section
variable [One K] [Sub K] [Mul K] [Div K] [NatCast K] [Zero V] [Add V] [SMul K V]

variable (K) in
/-- `OrderElevateAlongParametricDimension`, src/bezier_spline.inc:149-227, the message at 223-225. -/
def orderElevate (s : Spline V) (par_dim : Nat) : Said (Spline V) := do
  let r ← lift (Spline.orderElevate K s par_dim)
  let p ← lift (rd r.degrees par_dim)
  say .extended ("Spline elevating along parametric dimension " ++ toString par_dim ++ " to degree " ++ toString p)
  pure r

variable (K) in
/-- the elevation loops of the sums and differences, src/bezier_spline.inc:600-604, 624-628, 630-634, 664-668, 683-687, 689-693. -/
def elevateTo (cfg : Cfg) (s : Spline V) (target : List Nat) : Said (Spline V) :=
  loopS s.dim (fun d s =>
    whileS cfg.fuel (fun (s : Spline V) => do
      let t ← rd target d
      let p ← rd s.degrees d
      pure (decide (t > p))) (fun s => orderElevate K s d) s) s

variable (K) in
/-- `operator+(spline)`, src/bezier_spline.inc:575-615, the recursion at 613. -/
def addAux (cfg : Cfg) : Nat → Spline V → Spline V → Said (Spline V)
  | 0, _, _ => lift (.error .outOfFuel)
  | depth + 1, s, rhs => do
    let ret ← lift (Spline.ofPoints s.degrees s.cps)
    let rhs_needs_copy ← lift (loop s.dim (fun d (b : Bool) => do
      let p ← rd s.degrees d
      let q ← rd rhs.degrees d
      pure (b || decide (p > q))) false)
    let ret ← elevateTo K cfg ret rhs.degrees
    if !rhs_needs_copy then do
      let cps ← lift (Spline.zipCps ret.ncp (· + ·) ret.cps rhs.cps)
      pure { ret with cps := cps }
    else addAux cfg depth rhs ret

variable (K) in
/-- `operator+(spline)`, src/bezier_spline.inc:575-615. -/
def addOp (cfg : Cfg) (s rhs : Spline V) : Said (Spline V) := addAux K cfg cfg.fuel s rhs

variable (K) in
/-- `operator+=(spline)`, src/bezier_spline.inc:617-640. -/
def addAssign (cfg : Cfg) (s rhs : Spline V) : Said (Spline V) := do
  let s ← elevateTo K cfg s rhs.degrees
  let rhs ← elevateTo K cfg rhs s.degrees
  let cps ← lift (Spline.zipCps s.ncp (· + ·) s.cps rhs.cps)
  pure { s with cps := cps }

variable (K) in
/-- `operator-(spline)`, src/bezier_spline.inc:642-674. -/
def subOp [Sub V] (cfg : Cfg) (s rhs : Spline V) : Said (Spline V) := do
  let ret ← lift (Spline.ofPoints s.degrees s.cps)
  let ret ← loopS s.dim (fun d ret =>
    whileS cfg.fuel (fun (_ : Spline V) => do
      let q ← rd rhs.degrees d
      let p ← rd s.degrees d
      pure (decide (q > p))) (fun ret => orderElevate K ret d) ret) ret
  let rhs ← elevateTo K cfg rhs s.degrees
  let cps ← lift (Spline.zipCps s.ncp (· - ·) ret.cps rhs.cps)
  pure { ret with cps := cps }

variable (K) in
/-- `operator-=(spline)`, src/bezier_spline.inc:676-699. -/
def subAssign [Sub V] (cfg : Cfg) (s rhs : Spline V) : Said (Spline V) := do
  let s ← elevateTo K cfg s rhs.degrees
  let rhs ← elevateTo K cfg rhs s.degrees
  let cps ← lift (Spline.zipCps s.ncp (· - ·) s.cps rhs.cps)
  pure { s with cps := cps }

end

/-- the lambda that shows the orders, src/bezier_spline.inc:237-245 -/
def showOrders (orders : List Nat) : M String := do
  let o ← rd orders 0
  let result ← loopFrom 1 orders.length (fun i result => do
    let o ← rd orders i
    pure (result ++ (", " ++ toString o))) ("[ " ++ toString o)
  pure (result ++ "]")

variable (K) in
/-- `DerivativeWRTParametricDimension`, src/bezier_spline.inc:229-326, the messages at 235-245 and 324. -/
def derivativeSpline [One K] [Neg K] [Mul K] [NatCast K] [Zero V] [Add V] [SMul K V] (cfg : Cfg) (s : Spline V)
    (orders : List Nat) : Said (Spline V) := do
  let text ← lift (showOrders orders)
  say .logging ("Calculating derivative splines with orders " ++ text)
  let r ← lift (Spline.derivativeSpline K cfg s orders)
  say .logging "Derivative successfully computed"
  pure r

section
variable [Coords K V]

variable (K) in
/-- `ExtractDimension`, src/bezier_spline.inc:701-725, the messages at 709 and 715; `scalar` is `std::is_arithmetic_v` of the point
type, a property of the type which the model has to be told. -/
def extractDimension [Zero K] (scalar : Bool) (s : Spline V) (dimension : Nat) : Said (Spline K) :=
  if dimension < Coords.n K V then lift (Spline.extractDimension K s dimension)
  else terminate (if scalar then "Extraction of Scalar-value spline requested" else "Dimension out of range for Scalar extraction")

variable [LT K] [DecidableLT K]

variable (K) in
/-- `MaximumCorner`, src/bezier_spline.inc:762-783, the message at 768. -/
def maximumCorner (s : Spline V) : Said V :=
  if s.ncp = 0 then terminate "Spline is non-defined or has no control-points" else lift (Spline.maximumCorner K s)

variable (K) in
/-- `MinimumCorner`, src/bezier_spline.inc:785-806, the message at 791. -/
def minimumCorner (s : Spline V) : Said V :=
  if s.ncp = 0 then terminate "Spline is non-defined or has no control-points" else lift (Spline.minimumCorner K s)

variable (K) in
/-- `FitsIntoUnitCube`, src/bezier_spline.inc:850-871. -/
def fitsIntoUnitCube [Zero K] [One K] (s : Spline V) : Said Bool := do
  let mx ← maximumCorner K s
  let mn ← minimumCorner K s
  pure (decide (∀ j : Fin (Coords.n K V), ¬ ((1 : K) < Coords.coord mx j ∨ Coords.coord mn j < (0 : K))))

omit [LT K] [DecidableLT K] in
variable (K) in
/-- `TransposeAndScale`, src/bezier_spline.inc:808-829, the message at 814. -/
def transposeAndScale [Add K] [Mul K] (s : Spline V) (transposition scale : V) : Said (Spline V) := do
  say .extended "Starting scaling and transposing spline to move bounds"
  lift (Spline.transposeAndScale K s transposition scale)

variable (K) in
/-- `FitIntoUnitCube`, src/bezier_spline.inc:831-848. -/
def fitIntoUnitCube [One K] [Add K] [Mul K] [Div K] [Sub V] [Neg V] (s : Spline V) : Said (Spline V) := do
  let mx ← maximumCorner K s
  let mn ← minimumCorner K s
  let scale_vector := Coords.ofCoords (V := V) (fun j => (1 : K) / Coords.coord (mx - mn) j)
  transposeAndScale K s (-mn) scale_vector

end

section
variable [Zero K] [One K] [Add K] [Mul K] [Div K] [NatCast K]

/-- `RaisePower`, src/bezier_spline.inc:727-760, for scalar-valued splines, the message at 735. -/
def raisePowerAux (cfg : Cfg) (s : Spline K) : Nat → Nat → Said (Spline K)
  | 0, _ => lift (.error .outOfFuel)
  | depth + 1, power =>
    if power = 0 then do
      say .error "Raising to 0 is inefficient. Please revisit"
      lift (Spline.oneSpline s.dim)
    else if power = 1 then pure s
    else do
      let r ← raisePowerAux cfg s depth (power / 2)
      if power % 2 = 0 then lift (Spline.mulScalar cfg r r)
      else do
        let rr ← lift (Spline.mulScalar cfg r r)
        lift (Spline.mulScalar cfg rr s)

/-- `RaisePower`, src/bezier_spline.inc:727-760. -/
def raisePower (cfg : Cfg) (s : Spline K) (power : Nat) : Said (Spline K) := raisePowerAux cfg s (power + 1) power

end

/-- `RaisePower`, src/bezier_spline.inc:755-759, for splines of points. -/
def raisePowerPoints (_s : Spline V) (_power : Nat) : Said (Spline V) :=
  terminate "Only Scalar-type Splines can be raised to a power."

section
variable [Zero K] [One K] [Sub K] [LT K] [DecidableLT K] [Add V] [SMul K V]

/-- `SplitAtPosition(scalar, dimension)`, src/bezier_spline.inc:1323-1416, the messages at 1331-1334 and 1361-1363. -/
def splitAt (tx : K → String) (s : Spline V) (plane : K) (sd : Nat) : Said (Spline V × Spline V) := do
  say .extended ("Splitting spline along parametric dimension " ++ toString sd ++ " at position " ++ tx plane)
  if ¬ (0 < plane ∧ plane < 1) then terminate ("Split Plane is at " ++ tx plane ++ ", which is out of bounds (0,1)")
  else lift (s.splitAt plane sd)

/-- `SplitAtPosition(std::vector, dimension)`, src/bezier_spline.inc:1418-1458, the message at 1432. -/
def splitAtMany [Div K] (tx : K → String) (s : Spline V) (planes : List K) (sd : Nat) : Said (List (Spline V)) := do
  if !Spline.isSorted planes then terminate "Split Plane values must be increasing"
  else if planes.length = 0 then pure [s]
  else do
    let z0 ← lift (rd planes 0)
    let sp ← splitAt tx s z0 sd
    let r ← loopFromS 1 planes.length (fun i (r : List (Spline V) × (Spline V × Spline V)) => do
      let z ← lift (rd planes i)
      let zp ← lift (rd planes (i - 1))
      let rel := (z - zp) / (1 - zp)
      let sp ← splitAt tx r.2.2 rel sd
      pure (r.1 ++ [sp.1], sp)) ([sp.1], sp)
    pure (r.1 ++ [r.2.2])

end

section
variable [Zero K] [One K] [Add K] [Sub K] [Mul K] [Neg K] [Div K] [NatCast K]

/-- Loop over the outer parametric dimensions, src/bezier_spline.inc:1151-1228. -/
def composeBases (cfg : Cfg) (degrees : List Nat) (innerDim : Nat) (extract : Nat → Said (Spline K))
    (inverse : Spline K → Said (Spline K)) : Said (List (List (Spline K))) :=
  loopS degrees.length (fun d (l : List (List (Spline K))) => do
    let p ← lift (rd degrees d)
    let e ← extract d
    let inv ← inverse e
    let bs ← lift (Spline.composeBernstein cfg p innerDim e inv)
    lift (wr l d bs)) (List.replicate degrees.length [])

variable [Zero V] [Add V] [SMul K V]

/-- `ComposeNumeratorHelper<false>`, src/bezier_spline.inc:1079-1302. -/
def composeNumerator (cfg : Cfg) (s : Spline V) (innerDegrees : List Nat) (extract : Nat → Said (Spline K))
    (inverse : Spline K → Said (Spline K)) : Said (Spline V) := do
  let new_degrees := Spline.composeDegrees s.degrees innerDegrees
  let ret ← lift (Spline.ofDegrees (V := V) new_degrees)
  let bases ← composeBases cfg s.degrees innerDegrees.length extract inverse
  lift (loop s.ncp (fun o ret => do
    let idx ← s.localToGlobal o
    let t ← Spline.composeTensor cfg bases idx
    assertM (new_degrees == t.degrees)
    let cps ← loop ret.ncp (fun c cps => do
      let x ← rd cps c
      let b ← rd t.cps c
      let y ← rd s.cps o
      wr cps c (x + b • y)) ret.cps
    pure { ret with cps := cps }) ret)

omit [Zero V] [Add V] [SMul K V] in
/-- `ComposeNumeratorHelper<true>`, src/bezier_spline.inc:1079-1302. -/
def composeNumeratorSensitivity (cfg : Cfg) (s : Spline V) (innerDegrees : List Nat) (extract : Nat → Said (Spline K))
    (inverse : Spline K → Said (Spline K)) : Said (List (Spline K)) := do
  let bases ← composeBases cfg s.degrees innerDegrees.length extract inverse
  lift (loop s.ncp (fun o ret => do
    let idx ← s.localToGlobal o
    let t ← Spline.composeTensor cfg bases idx
    pure (ret ++ [t])) [])

variable [Coords K W] [LT K] [DecidableLT K]

/-- the text of src/bezier_spline.inc:919-920, 945-946, 970-971 and 1007-1008 -/
def notInCube : String := "Inner function must fit unit cube to perform composition"

variable (K) in
/-- `Compose(BezierSpline)`, src/bezier_spline.inc:908-931, the message at 918. -/
def compose (cfg : Cfg) (scalar : Bool) (s : Spline V) (inner : Spline W) : Said (Spline V) := do
  let fits ← fitsIntoUnitCube K inner
  if !fits then terminate notInCube
  else
    composeNumerator cfg s inner.degrees (fun d => extractDimension K scalar inner d) (fun e => lift (Spline.pointSub (1 : K) e))

omit [Zero V] [Add V] [SMul K V] in
variable (K) in
/-- `ComposeSensitivity(BezierSpline)`, src/bezier_spline.inc:933-957, the message at 944. -/
def composeSensitivity (cfg : Cfg) (scalar : Bool) (s : Spline V) (inner : Spline W) : Said (List (Spline K)) := do
  let fits ← fitsIntoUnitCube K inner
  if !fits then terminate notInCube
  else
    composeNumeratorSensitivity cfg s inner.degrees (fun d => extractDimension K scalar inner d)
      (fun e => lift (Spline.pointSub (1 : K) e))

end

/-! ## Rational splines -/

section
variable [Zero K] [One K] [Add K] [Sub K] [Mul K] [Div K] [NatCast K] [Zero V] [Add V] [SMul K V]

/-- `OrderElevateAlongParametricDimension`, src/rational_bezier_spline.inc:437-448. -/
def rOrderElevate (r : RSpline K V) (par_dim : Nat) : Said (RSpline K V) := do
  let num ← orderElevate K r.num par_dim
  let wt ← orderElevate K r.wt par_dim
  lift (assertM (RSpline.compatible ⟨num, wt⟩))
  pure ⟨num, wt⟩

omit [Div K] [NatCast K] [Zero V] in
/-- `SplitAtPosition(scalar, dimension)`, src/rational_bezier_spline.inc:450-464. -/
def rSplitAt [LT K] [DecidableLT K] (tx : K → String) (r : RSpline K V) (plane : K) (sd : Nat) :
    Said (RSpline K V × RSpline K V) := do
  let n ← splitAt tx r.num plane sd
  let w ← splitAt tx r.wt plane sd
  let a ← lift (RSpline.ofSplines n.1 w.1)
  let b ← lift (RSpline.ofSplines n.2 w.2)
  pure (a, b)

omit [NatCast K] [Zero V] in
/-- `SplitAtPosition(std::vector, dimension)`, src/rational_bezier_spline.inc:466-506, the message at 480. -/
def rSplitAtMany [LT K] [DecidableLT K] (tx : K → String) (r : RSpline K V) (planes : List K) (sd : Nat) :
    Said (List (RSpline K V)) := do
  if !Spline.isSorted planes then terminate "Split Plane values must be increasing"
  else if planes.length = 0 then pure [r]
  else do
    let z0 ← lift (rd planes 0)
    let sp ← rSplitAt tx r z0 sd
    let q ← loopFromS 1 planes.length (fun i (q : List (RSpline K V) × (RSpline K V × RSpline K V)) => do
      let z ← lift (rd planes i)
      let zp ← lift (rd planes (i - 1))
      let rel := (z - zp) / (1 - zp)
      let sp ← rSplitAt tx q.2.2 rel sd
      pure (q.1 ++ [sp.1], sp)) ([sp.1], sp)
    pure (q.1 ++ [q.2.2])

variable [BEq K]

/-- `operator+(rational)`, src/rational_bezier_spline.inc:638-653. -/
def rAddOp (cfg : Cfg) (r rhs : RSpline K V) : Said (RSpline K V) := do
  if r.wt.eqOp rhs.wt then do
    let num ← addOp K cfg r.num rhs.num
    lift (RSpline.ofSplines num r.wt)
  else do
    let a ← lift (RSpline.mulWeight' cfg r.num rhs.wt)
    let b ← lift (RSpline.mulWeight cfg r.wt rhs.num)
    let num ← addOp K cfg a b
    let wt ← lift (Spline.mulScalar cfg r.wt rhs.wt)
    lift (RSpline.ofSplines num wt)

/-- `operator+=(rational)`, src/rational_bezier_spline.inc:655-673. -/
def rAddAssign (cfg : Cfg) (r rhs : RSpline K V) : Said (RSpline K V) := do
  if r.wt.eqOp rhs.wt then do
    let num ← addAssign K cfg r.num rhs.num
    pure ⟨num, r.wt⟩
  else do
    let a ← lift (RSpline.mulWeight' cfg r.num rhs.wt)
    let b ← lift (RSpline.mulWeight cfg r.wt rhs.num)
    let num ← addAssign K cfg a b
    let wt ← lift (Spline.mulScalar cfg r.wt rhs.wt)
    lift (assertM (RSpline.compatible ⟨num, wt⟩))
    pure ⟨num, wt⟩

/-- `operator-(rational)`, src/rational_bezier_spline.inc:675-690. -/
def rSubOp [Sub V] (cfg : Cfg) (r rhs : RSpline K V) : Said (RSpline K V) := do
  if r.wt.eqOp rhs.wt then do
    let num ← subOp K cfg r.num rhs.num
    lift (RSpline.ofSplines num r.wt)
  else do
    let a ← lift (RSpline.mulWeight' cfg r.num rhs.wt)
    let b ← lift (RSpline.mulWeight cfg r.wt rhs.num)
    let num ← subOp K cfg a b
    let wt ← lift (Spline.mulScalar cfg r.wt rhs.wt)
    lift (RSpline.ofSplines num wt)

/-- `operator-=(rational)`, src/rational_bezier_spline.inc:692-710. -/
def rSubAssign [Sub V] (cfg : Cfg) (r rhs : RSpline K V) : Said (RSpline K V) := do
  if r.wt.eqOp rhs.wt then do
    let num ← subAssign K cfg r.num rhs.num
    pure ⟨num, r.wt⟩
  else do
    let a ← lift (RSpline.mulWeight' cfg r.num rhs.wt)
    let b ← lift (RSpline.mulWeight cfg r.wt rhs.num)
    let num ← subAssign K cfg a b
    let wt ← lift (Spline.mulScalar cfg r.wt rhs.wt)
    lift (assertM (RSpline.compatible ⟨num, wt⟩))
    pure ⟨num, wt⟩

end

section
variable [Zero K] [One K] [Add K] [Sub K] [Mul K] [Neg K] [Div K] [NatCast K] [Zero V] [Add V] [Sub V] [SMul K V]

/-- one round of the loop in `DerivativeWRTParametricDimension`, src/rational_bezier_spline.inc:528-543. -/
def rDerivativeStep (cfg : Cfg) (r : RSpline K V) (d : Nat) : Said (RSpline K V) := do
  let order ← lift (wr (List.replicate r.dim 0) d 1)
  let du ← derivativeSpline K cfg r.num order
  let a ← lift (RSpline.mulWeight' cfg du r.wt)
  let dw ← derivativeSpline K cfg r.wt order
  let b ← lift (RSpline.mulWeight cfg dw r.num)
  let c ← subOp K cfg a b
  let n ← orderElevate K c d
  let w ← lift (Spline.mulScalar cfg r.wt r.wt)
  lift (RSpline.ofSplines n w)

/-- `DerivativeWRTParametricDimension`, src/rational_bezier_spline.inc:508-546. -/
def rDerivativeSpline (cfg : Cfg) (r : RSpline K V) (orders : List Nat) : Said (RSpline K V) :=
  loopS r.dim (fun d r => do
    let o ← lift (rd orders d)
    loopS o (fun _ r => rDerivativeStep cfg r d) r) r

end

section
variable [Coords K V]

/-- `ExtractDimension`, src/rational_bezier_spline.inc:726-733. -/
def rExtractDimension [Zero K] (scalar : Bool) (r : RSpline K V) (dimension : Nat) : Said (Spline K) :=
  extractDimension K scalar r.num dimension

variable [Zero K] [BEq K] [ScalarDiv K V] [LT K] [DecidableLT K]

/-- `MinimumCorner`, src/rational_bezier_spline.inc:834-859, the message at 840. -/
def rMinimumCorner (r : RSpline K V) : Said V :=
  if r.num.ncp = 0 then terminate "Spline is non-defined or has no control-points" else lift r.minimumCorner
/-- `MaximumCorner`, src/rational_bezier_spline.inc:861-886, the message at 867. -/
def rMaximumCorner (r : RSpline K V) : Said V :=
  if r.num.ncp = 0 then terminate "Spline is non-defined or has no control-points" else lift r.maximumCorner

/-- `FitsIntoUnitCube`, src/rational_bezier_spline.inc:811-832. -/
def rFitsIntoUnitCube [One K] (r : RSpline K V) : Said Bool := do
  let mx ← rMaximumCorner r
  let mn ← rMinimumCorner r
  pure (decide (∀ j : Fin (Coords.n K V), ¬ ((1 : K) < Coords.coord mx j ∨ Coords.coord mn j < (0 : K))))

end

section
variable [Zero K] [One K] [Add K] [Sub K] [Mul K] [Neg K] [Div K] [NatCast K] [Zero V] [Add V] [SMul K V] [Coords K W]

/-- `ComposeNumeratorSpline(rational)`, src/bezier_spline.inc:1079-1302 with the rational branch of the lambda at 1187. -/
def composeNumeratorRational (cfg : Cfg) (scalar : Bool) (s : Spline V) (inner : RSpline K W) : Said (Spline V) :=
  composeNumerator cfg s inner.num.degrees (fun d => rExtractDimension scalar inner d) (fun e => subOp K cfg inner.wt e)

omit [Zero V] [Add V] [SMul K V] in
/-- `ComposeNumeratorSensitivity(rational)`, src/bezier_spline.inc:1079-1302 with the rational branch of the lambda at 1187. -/
def composeNumeratorSensitivityRational (cfg : Cfg) (scalar : Bool) (s : Spline V) (inner : RSpline K W) :
    Said (List (Spline K)) :=
  composeNumeratorSensitivity cfg s inner.num.degrees (fun d => rExtractDimension scalar inner d)
    (fun e => subOp K cfg inner.wt e)

omit [Sub K] [Neg K] [Zero V] [Add V] [SMul K V] [Coords K W] in
/-- `ComposeDenominatorSpline`, src/bezier_spline.inc:1304-1321. -/
def composeDenominator (cfg : Cfg) (s : Spline V) (inner : RSpline K W) : Said (Spline K) :=
  raisePower cfg inner.wt s.degrees.sum

variable [BEq K] [ScalarDiv K W] [LT K] [DecidableLT K]

/-- `BezierSpline::Compose(rational)`, src/bezier_spline.inc:959-986, the message at 969. -/
def composeRational (cfg : Cfg) (scalar : Bool) (s : Spline V) (inner : RSpline K W) : Said (RSpline K V) := do
  let fits ← rFitsIntoUnitCube inner
  if !fits then terminate notInCube
  else do
    let n ← composeNumeratorRational cfg scalar s inner
    let d ← composeDenominator cfg s inner
    lift (RSpline.ofSplines n d)

omit [Zero V] [Add V] [SMul K V] in
/-- `BezierSpline::ComposeSensitivity(rational)`, src/bezier_spline.inc:988-1034, the message at 1006. -/
def composeSensitivityRational (cfg : Cfg) (scalar : Bool) (s : Spline V) (inner : RSpline K W) :
    Said (List (RSpline K K)) := do
  let fits ← rFitsIntoUnitCube inner
  if !fits then terminate notInCube
  else do
    let ns ← composeNumeratorSensitivityRational cfg scalar s inner
    let d ← composeDenominator cfg s inner
    lift (loop s.ncp (fun i ret => do
      let n ← rd ns i
      let q ← RSpline.ofSplines n d
      pure (ret ++ [q])) [])

omit [BEq K] [ScalarDiv K W] in
/-- `RationalBezierSpline::Compose(polynomial)`, src/rational_bezier_spline.hpp:448-460. -/
def rCompose (cfg : Cfg) (scalar : Bool) (r : RSpline K V) (inner : Spline W) : Said (RSpline K V) := do
  let n ← compose K cfg scalar r.num inner
  let d ← compose K cfg scalar r.wt inner
  lift (RSpline.ofSplines n d)

omit [BEq K] [ScalarDiv K W] [LT K] [DecidableLT K] in
/-- `RationalBezierSpline::Compose(rational)`, src/rational_bezier_spline.hpp:506-521. -/
def rComposeRational (cfg : Cfg) (scalar : Bool) (r : RSpline K V) (inner : RSpline K W) : Said (RSpline K V) := do
  let n ← composeNumeratorRational cfg scalar r.num inner
  let d ← composeNumeratorRational cfg scalar r.wt inner
  lift (RSpline.ofSplines n d)

omit [Zero V] [Add V] [SMul K V] [BEq K] [ScalarDiv K W] in
/-- `RationalBezierSpline::ComposeSensitivity(polynomial)`, src/rational_bezier_spline.inc:735-770. -/
def rComposeSensitivity (cfg : Cfg) (scalar : Bool) (r : RSpline K V) (inner : Spline W) : Said (List (RSpline K K)) := do
  let ns ← composeSensitivity K cfg scalar r.num inner
  let d ← compose K cfg scalar r.wt inner
  lift (r.rescaleSensitivities ns d)

omit [Zero V] [Add V] [SMul K V] [BEq K] [ScalarDiv K W] [LT K] [DecidableLT K] in
/-- `RationalBezierSpline::ComposeSensitivity(rational)`, src/rational_bezier_spline.inc:772-809. -/
def rComposeSensitivityRational (cfg : Cfg) (scalar : Bool) (r : RSpline K V) (inner : RSpline K W) :
    Said (List (RSpline K K)) := do
  let ns ← composeNumeratorSensitivityRational cfg scalar r.num inner
  let d ← composeNumeratorRational cfg scalar r.wt inner
  lift (r.rescaleSensitivities ns d)

end
end Messages
end Bezman
