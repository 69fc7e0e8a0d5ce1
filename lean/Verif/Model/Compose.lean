import Verif.Model.Box

/-! # Functional composition (polynomial parts) -/

namespace Bezman
namespace Spline
variable {K V W : Type}

section
variable [Zero K] [One K] [Add K] [Sub K] [Mul K] [Neg K] [Div K] [NatCast K]

/-- Body of the loop over the outer parametric dimensions in
`ComposeNumeratorHelper`, src/bezier_spline.inc:1158-1227: the splines
`choose(p,i) * c^i * (inverse c)^(p-i)`, `i = 0..p`, for the extracted coordinate
spline `c` and its inverse. -/
def composeBernstein (cfg : Cfg) (p : Nat) (innerDim : Nat) (extracted inverse : Spline K) :
    M (List (Spline K)) := do
  let bs := List.replicate (p + 1) (Spline.default innerDim)
  let multiple ← oneSpline (K := K) innerDim
  let inverse_multiple := multiple
  let bs ← wr bs 0 multiple
  let r ← loopFrom 1 (p + 1) (fun i (r : List (Spline K) × Spline K) => do
    let m ← mulScalar cfg r.2 extracted
    let bs ← wr r.1 i m
    pure (bs, m)) (bs, multiple)
  let r ← loopFrom 1 (p + 1) (fun i (r : List (Spline K) × Spline K) => do
    let m ← mulScalar cfg r.2 inverse
    let b ← rd r.1 (p - i)
    let b ← mulScalar cfg b m
    let bs ← wr r.1 (p - i) b
    pure (bs, m)) (r.1, inverse_multiple)
  loopFrom 1 p (fun i bs => do
    let b ← rd bs (p - i)
    let c ← choose cfg p i
    let b ← b.smulOp ((c : Nat) : K)
    wr bs (p - i) b) r.1

/-- Loop over the outer parametric dimensions, src/bezier_spline.inc:1151-1228.
`extract d` is `inner_function.ExtractDimension(d)`, `inverse` the lambda of lines
1185-1192. -/
def composeBases (cfg : Cfg) (degrees : List Nat) (innerDim : Nat)
    (extract : Nat → M (Spline K)) (inverse : Spline K → M (Spline K)) :
    M (List (List (Spline K))) :=
  loop degrees.length (fun d (l : List (List (Spline K))) => do
    let p ← rd degrees d
    let e ← extract d
    let inv ← inverse e
    let bs ← composeBernstein cfg p innerDim e inv
    wr l d bs) (List.replicate degrees.length [])

/-- tensor product of the basis splines belonging to one outer control point,
src/bezier_spline.inc:1258-1268 and 1271-1281. -/
def composeTensor (cfg : Cfg) (bases : List (List (Spline K))) (idx : List Nat) :
    M (Spline K) := do
  let b0 ← rd bases 0
  let i0 ← rd idx 0
  let t0 ← rd b0 i0
  loopFrom 1 bases.length (fun d t => do
    let b ← rd bases d
    let i ← rd idx d
    let x ← rd b i
    mulScalar cfg t x) t0

/-- new degrees, src/bezier_spline.inc:1109-1116 -/
def composeDegrees (outer inner : List Nat) : List Nat := inner.map (fun q => q * outer.sum)

variable [Zero V] [Add V] [SMul K V]

/-- `ComposeNumeratorHelper<false>`, src/bezier_spline.inc:1079-1302. -/
def composeNumerator (cfg : Cfg) (s : Spline V) (innerDegrees : List Nat)
    (extract : Nat → M (Spline K)) (inverse : Spline K → M (Spline K)) : M (Spline V) := do
  let new_degrees := composeDegrees s.degrees innerDegrees
  let ret ← ofDegrees (V := V) new_degrees
  let bases ← composeBases cfg s.degrees innerDegrees.length extract inverse
  loop s.ncp (fun o ret => do
    let idx ← s.localToGlobal o
    let t ← composeTensor cfg bases idx
    assertM (new_degrees == t.degrees)
    let cps ← loop ret.ncp (fun c cps => do
      let x ← rd cps c
      let b ← rd t.cps c
      let y ← rd s.cps o
      wr cps c (x + b • y)) ret.cps
    pure { ret with cps := cps }) ret

omit [Zero V] [Add V] [SMul K V] in
/-- `ComposeNumeratorHelper<true>`, src/bezier_spline.inc:1079-1302. -/
def composeNumeratorSensitivity (cfg : Cfg) (s : Spline V) (innerDegrees : List Nat)
    (extract : Nat → M (Spline K)) (inverse : Spline K → M (Spline K)) :
    M (List (Spline K)) := do
  let bases ← composeBases cfg s.degrees innerDegrees.length extract inverse
  loop s.ncp (fun o ret => do
    let idx ← s.localToGlobal o
    let t ← composeTensor cfg bases idx
    pure (ret ++ [t])) []

variable [Coords K W] [LT K] [DecidableLT K]

variable (K) in
/-- `Compose(BezierSpline)`, src/bezier_spline.inc:908-931, with the polynomial
branch of the lambda at 1190. -/
def compose (cfg : Cfg) (s : Spline V) (inner : Spline W) : M (Spline V) := do
  let fits ← fitsIntoUnitCube K inner
  if !fits then .error .throws
  else
    composeNumerator cfg s inner.degrees (fun d => extractDimension K inner d)
      (fun e => pointSub (1 : K) e)

omit [Zero V] [Add V] [SMul K V] in
variable (K) in
/-- `ComposeSensitivity(BezierSpline)`, src/bezier_spline.inc:933-957. -/
def composeSensitivity (cfg : Cfg) (s : Spline V) (inner : Spline W) : M (List (Spline K)) := do
  let fits ← fitsIntoUnitCube K inner
  if !fits then .error .throws
  else
    composeNumeratorSensitivity cfg s inner.degrees (fun d => extractDimension K inner d)
      (fun e => pointSub (1 : K) e)

end
end Spline
end Bezman
