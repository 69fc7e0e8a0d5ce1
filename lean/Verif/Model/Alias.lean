import Verif.Model.Rational

/-! # In-place operators whose argument refers to a part of the object itself

`operator+=(const PhysicalPointType&)` and friends take their argument by reference,
so `spline -= spline.ControlPoint(0, 0)` reads the argument again in every round. -/

namespace Bezman
variable {K V : Type}

/-- `for (i < n) mem[i] = f(mem[i], mem[k])`, the argument `mem[k]` being read anew in
every round. -/
def aliasLoop (n : Nat) (f : V → V → V) (k : Nat) (mem : List V) : M (List V) :=
  loop n (fun i mem => do
    let x ← rd mem i
    let y ← rd mem k
    wr mem i (f x y)) mem

namespace Spline

/-- `s += s.control_points[k]`, src/bezier_spline.inc:511-520. -/
def addOwnPoint [Add V] (s : Spline V) (k : Nat) : M (Spline V) := do
  let cps ← aliasLoop s.ncp (fun x y => x + y) k s.cps
  pure { s with cps := cps }

/-- `s -= s.control_points[k]`, src/bezier_spline.inc:532-541. -/
def subOwnPoint [Sub V] (s : Spline V) (k : Nat) : M (Spline V) := do
  let cps ← aliasLoop s.ncp (fun x y => x - y) k s.cps
  pure { s with cps := cps }

/-- `s *= s.control_points[k]` for a scalar-valued spline, src/bezier_spline.inc:500-509. -/
def scaleByOwnPoint [Mul K] (s : Spline K) (k : Nat) : M (Spline K) := do
  let cps ← aliasLoop s.ncp (fun x y => x * y) k s.cps
  pure { s with cps := cps }

end Spline

namespace RSpline

/-- `r += r.WeightedControlPoint(k)`, src/rational_bezier_spline.inc:571-586: the argument is a reference to control point `k` of
the numerator spline and is read anew in every round. -/
def addOwnPoint [Add V] [SMul K V] (r : RSpline K V) (k : Nat) : M (RSpline K V) := do
  let cps ← loop r.num.ncp (fun i cps => do
    let x ← rd cps i
    let w ← rd r.wt.cps i
    let y ← rd cps k
    wr cps i (x + w • y)) r.num.cps
  let r := { r with num := { r.num with cps := cps } }
  assertM r.compatible
  pure r

/-- `r -= r.WeightedControlPoint(k)`, src/rational_bezier_spline.inc:600-613. -/
def subOwnPoint [Sub V] [SMul K V] (r : RSpline K V) (k : Nat) : M (RSpline K V) := do
  let cps ← loop r.num.ncp (fun i cps => do
    let x ← rd cps i
    let w ← rd r.wt.cps i
    let y ← rd cps k
    wr cps i (x - w • y)) r.num.cps
  pure { r with num := { r.num with cps := cps } }

/-- `r *= r.Weight(k)`, src/rational_bezier_spline.inc:548-559 and src/bezier_spline.inc:500-509: the argument is a reference to
weight `k`. -/
def scaleByOwnWeight [SMul K V] (r : RSpline K V) (k : Nat) : M (RSpline K V) := do
  let cps ← loop r.num.ncp (fun i cps => do
    let x ← rd cps i
    let c ← rd r.wt.cps k
    wr cps i (c • x)) r.num.cps
  let r := { r with num := { r.num with cps := cps } }
  assertM r.compatible
  pure r

end RSpline

/-- `p *= p[k]`, src/point.hpp:108-112; `mem` holds the coordinates. -/
def pointScaleByOwn [Mul K] (mem : List K) (k : Nat) : M (List K) := aliasLoop mem.length (fun x y => x * y) k mem

end Bezman
