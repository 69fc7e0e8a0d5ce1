import Verif.Model.Elevate

/-! # Arithmetic of polynomial splines -/

namespace Bezman
namespace Spline
variable {K V W U : Type}

/-- `for (i < number_of_control_points) control_points[i] = f(control_points[i])` -/
def mapCps (s : Spline V) (f : V → V) : M (Spline V) := do
  let cps ← loop s.ncp (fun i cps => do
    let x ← rd cps i
    wr cps i (f x)) s.cps
  pure { s with cps := cps }

/-- `operator*=(scalar)`, src/bezier_spline.inc:500-509; `operator*(scalar)`
(565-573) and the friend `scalar * spline` (src/bezier_spline.hpp:391-394) are the
same function on a copy. -/
def smulOp [SMul K V] (s : Spline V) (c : K) : M (Spline V) := s.mapCps (fun x => c • x)

/-- `operator+=(point)`, src/bezier_spline.inc:511-520; `operator+(point)` (522-530)
and `point + spline` (src/bezier_spline.hpp:406-409) are the same on a copy. -/
def addPoint [Add V] (s : Spline V) (pt : V) : M (Spline V) := s.mapCps (fun x => x + pt)

/-- `operator-=(point)`, src/bezier_spline.inc:532-541; `operator-(point)` (543-551)
is the same on a copy. -/
def subPoint [Sub V] (s : Spline V) (pt : V) : M (Spline V) := s.mapCps (fun x => x - pt)

/-- unary `operator-`, src/bezier_spline.inc:553-563. -/
def negOp [Neg V] (s : Spline V) : M (Spline V) := do
  let cps ← loop s.ncp (fun i cps => do
    let x ← rd s.cps i
    wr cps i (-x)) s.cps
  pure { s with cps := cps }

/-- friend `point - spline`, src/bezier_spline.hpp:451-454. -/
def pointSub [Sub V] [Neg V] (pt : V) (s : Spline V) : M (Spline V) := do
  let d ← s.subPoint pt
  d.negOp

section
variable [One K] [Sub K] [Mul K] [Div K] [NatCast K] [Zero V] [Add V] [SMul K V]

variable (K) in
/-- the two nested loops that elevate a spline until its degrees reach `target`:
src/bezier_spline.inc:600-604, 624-628, 630-634, 664-668, 683-687, 689-693. -/
def elevateTo (cfg : Cfg) (s : Spline V) (target : List Nat) : M (Spline V) :=
  loop s.dim (fun d s =>
    whileM cfg.fuel (fun (s : Spline V) => do
      let t ← rd target d
      let p ← rd s.degrees d
      pure (decide (t > p))) (fun s => orderElevate K s d) s) s

/-- final accumulation loop of the binary operators: for `i < n`,
`a[i] = f(a[i], b[i])`. -/
def zipCps (n : Nat) (f : V → V → V) (a b : List V) : M (List V) :=
  loop n (fun i a => do
    let x ← rd a i
    let y ← rd b i
    wr a i (f x y)) a

variable (K) in
/-- `operator+(spline)`, src/bezier_spline.inc:575-615; `depth` bounds the
recursion of line 613. Both operands have the same point type here. -/
def addAux (cfg : Cfg) : Nat → Spline V → Spline V → M (Spline V)
  | 0, _, _ => .error .outOfFuel
  | depth + 1, s, rhs => do
    let ret ← ofPoints s.degrees s.cps
    let rhs_needs_copy ← loop s.dim (fun d (b : Bool) => do
      let p ← rd s.degrees d
      let q ← rd rhs.degrees d
      pure (b || decide (p > q))) false
    let ret ← elevateTo K cfg ret rhs.degrees
    if !rhs_needs_copy then do
      let cps ← zipCps ret.ncp (· + ·) ret.cps rhs.cps
      pure { ret with cps := cps }
    else addAux cfg depth rhs ret

variable (K) in
/-- `operator+(spline)`, src/bezier_spline.inc:575-615. -/
def addOp (cfg : Cfg) (s rhs : Spline V) : M (Spline V) := addAux K cfg cfg.fuel s rhs

variable (K) in
/-- `operator+=(spline)`, src/bezier_spline.inc:617-640. -/
def addAssign (cfg : Cfg) (s rhs : Spline V) : M (Spline V) := do
  let s ← elevateTo K cfg s rhs.degrees
  let rhs ← elevateTo K cfg rhs s.degrees
  let cps ← zipCps s.ncp (· + ·) s.cps rhs.cps
  pure { s with cps := cps }

variable (K) in
/-- `operator-(spline)`, src/bezier_spline.inc:642-674.  The guard of the first
`while` loop (line 659) compares with the degrees of `*this`, which the loop body
does not change. -/
def subOp [Sub V] (cfg : Cfg) (s rhs : Spline V) : M (Spline V) := do
  let ret ← ofPoints s.degrees s.cps
  let ret ← loop s.dim (fun d ret =>
    whileM cfg.fuel (fun (_ : Spline V) => do
      let q ← rd rhs.degrees d
      let p ← rd s.degrees d
      pure (decide (q > p))) (fun ret => orderElevate K ret d) ret) ret
  let rhs ← elevateTo K cfg rhs s.degrees
  let cps ← zipCps s.ncp (· - ·) ret.cps rhs.cps
  pure { ret with cps := cps }

variable (K) in
/-- `operator-=(spline)`, src/bezier_spline.inc:676-699. -/
def subAssign [Sub V] (cfg : Cfg) (s rhs : Spline V) : M (Spline V) := do
  let s ← elevateTo K cfg s rhs.degrees
  let rhs ← elevateTo K cfg rhs s.degrees
  let cps ← zipCps s.ncp (· - ·) s.cps rhs.cps
  pure { s with cps := cps }

end

section
variable [One K] [Mul K] [Div K] [NatCast K] [Zero U] [Add U] [SMul K U]

/-- `CombineControlPointsForProduct_`, src/bezier_spline.inc:60-105.  The index
pack `indices...` is the list `indices`; `rem` is the number of parametric
dimensions after the current one.  `mul` is the product of the control point
types (scalar*scalar, scalar*point, dot product).  `int` locals are not wrapped;
`max(0, k - n)` is truncated subtraction. The product of two table entries is a
`size_t` product. -/
def combineForProduct (cfg : Cfg) (mul : V → W → U) (P : Spline V) (Q : Spline W)
    (ctpsIndex : List Nat) : Nat → K → List Nat → Spline U → M (Spline U)
  | 0, factor, indices, R => do
    let depth := indices.length
    let k ← rd ctpsIndex depth
    let m ← rd P.degrees depth
    let n ← rd Q.degrees depth
    loopFrom (k - n) (min k m + 1) (fun i R => do
      let c1 ← choose cfg m i
      let c2 ← choose cfg n (k - i)
      let c3 ← choose cfg (m + n) k
      let lFactor : K := ((mul64 c1 c2 : Nat) : K) / ((c3 : Nat) : K)
      let ind_lhs := indices ++ [i]
      let ind_rhs ← loop P.dim (fun j r => do
        let a ← rd ctpsIndex j
        let b ← rd ind_lhs j
        wr r j (a - b)) (List.replicate P.dim 0)
      let x ← R.controlPoint ctpsIndex
      let a ← P.controlPoint ind_lhs
      let b ← Q.controlPoint ind_rhs
      R.setControlPoint ctpsIndex (x + lFactor • (factor • mul a b))) R
  | rem + 1, factor, indices, R => do
    let depth := indices.length
    let k ← rd ctpsIndex depth
    let m ← rd P.degrees depth
    let n ← rd Q.degrees depth
    loopFrom (k - n) (min k m + 1) (fun i R => do
      let c1 ← choose cfg m i
      let c2 ← choose cfg n (k - i)
      let c3 ← choose cfg (m + n) k
      let lFactor : K := ((mul64 c1 c2 : Nat) : K) / ((c3 : Nat) : K)
      combineForProduct cfg mul P Q ctpsIndex rem (factor * lFactor) (indices ++ [i]) R) R

variable (K) in
/-- `operator*(spline)`, src/bezier_spline.inc:873-906. -/
def mulOp (cfg : Cfg) (mul : V → W → U) (s : Spline V) (rhs : Spline W) : M (Spline U) := do
  let product_degrees ← loop s.dim (fun d l => do
    let p ← rd s.degrees d
    let q ← rd rhs.degrees d
    wr l d (p + q)) (List.replicate s.dim 0)
  let ret ← ofDegrees (V := U) product_degrees
  loop ret.ncp (fun i R => do
    let idx ← R.localToGlobal i
    combineForProduct cfg mul s rhs idx (s.dim - 1) (1 : K) [] R) ret

end

section
variable [Zero K] [One K] [Add K] [Mul K] [Div K] [NatCast K]

/-- `operator*` of two scalar-valued splines. -/
def mulScalar (cfg : Cfg) (s rhs : Spline K) : M (Spline K) :=
  mulOp K cfg (fun a b => a * b) s rhs

/-- degree-zero spline with the single control point 1: src/bezier_spline.inc:736-740
and 1164-1170. -/
def oneSpline (dim : Nat) : M (Spline K) := ofPoints (List.replicate dim 0) [1]

/-- `RaisePower`, src/bezier_spline.inc:727-760, for scalar-valued splines (the
other branch raises an error, lines 755-759). The recursion halves the exponent,
`depth` bounds it. -/
def raisePowerAux (cfg : Cfg) (s : Spline K) : Nat → Nat → M (Spline K)
  | 0, _ => .error .outOfFuel
  | depth + 1, power =>
    if power = 0 then oneSpline s.dim
    else if power = 1 then pure s
    else do
      let r ← raisePowerAux cfg s depth (power / 2)
      if power % 2 = 0 then mulScalar cfg r r
      else do
        let rr ← mulScalar cfg r r
        mulScalar cfg rr s

/-- `RaisePower`; `power + 1` levels of recursion always suffice, so no fuel is
needed here. -/
def raisePower (cfg : Cfg) (s : Spline K) (power : Nat) : M (Spline K) :=
  raisePowerAux cfg s (power + 1) power

end

end Spline
end Bezman
