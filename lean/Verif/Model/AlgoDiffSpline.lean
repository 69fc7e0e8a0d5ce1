import Verif.Model.AlgoDiff
import Verif.Model.Rational

/-!
# `Evaluate` with `AlgoDiffType` as scalar type

The same loops as `Spline.evaluate`, for scalars and control points whose operations can
fail: the operators of `AlgoDiffType` assert that both operands have the same number of
derivatives.
-/

namespace Bezman

/-- `Evaluate`, src/bezier_spline.inc:328-370, with the operations `1. - x`, `point * scalar`
and `point + point` as parameters. -/
def Spline.evaluateM {S V : Type} (oneMinus : S → M S) (scale : V → S → M V) (plus : V → V → M V)
    (s : Spline V) (t : List S) : M V := do
  let r ← loop s.dim (fun par_dim (r : List V × Nat) => do
    let factor ← rd t par_dim
    let inv_factor ← oneMinus factor
    let p ← rd s.degrees par_dim
    let off ← rd s.offsets par_dim
    let ctps_to_consider := r.2 / (p + 1)
    let m ← loop ctps_to_consider (fun starting_point_id m =>
      let offset := (off * (p + 1)) * starting_point_id
      loop (p + 1) (fun i m =>
        loop (p - i) (fun j m => do
          let a ← rd m (j * off + offset)
          let b ← rd m ((j + 1) * off + offset)
          let x ← scale a inv_factor
          let y ← scale b factor
          let z ← plus x y
          wr m (j * off + offset) z) m) m) r.1
    pure (m, ctps_to_consider)) (s.cps, s.ncp)
  rd r.1 0

variable {B K : Type} [One B] [Scal B K]

/-- `BezierSpline<d, ADT, ADT>::Evaluate`, src/bezier_spline.inc:328-370. -/
def Spline.evaluateAD (s : Spline (ADT K)) (t : List (ADT K)) : M (ADT K) :=
  s.evaluateM (ADT.scalarSub (Scal.ofBase (1 : B))) ADT.mul ADT.add t

/-- `BezierSpline<d, Point<n, ADT>, ADT>::Evaluate`; a point is the list of its coordinates.
`Point::operator*`, src/point.hpp:109-119, and `Point::operator+`, src/point.hpp:73-85, work
coordinate by coordinate. -/
def Spline.evaluatePointAD (s : Spline (List (ADT K))) (t : List (ADT K)) : M (List (ADT K)) :=
  s.evaluateM (ADT.scalarSub (Scal.ofBase (1 : B))) (fun p c => ADT.mapD (fun x => x.mul c) p)
    (fun p q => ADT.zipD ADT.add p q) t

/-- `RationalBezierSpline<d, ADT, ADT>::Evaluate`, src/rational_bezier_spline.inc:126-133. -/
def RSpline.evaluateAD (r : RSpline (ADT K) (ADT K)) (t : List (ADT K)) : M (ADT K) := do
  let x ← r.num.evaluateAD t
  let w ← r.wt.evaluateAD t
  x.div w

/-- `RationalBezierSpline<d, Point<n, ADT>, ADT>::Evaluate`, src/rational_bezier_spline.inc:126-133,
for a static number of derivatives.  `Point::operator/`, src/point.hpp:127-138, multiplies with
`static_cast<ADT>(1.) / scale`. -/
def RSpline.evaluatePointAD (r : RSpline (ADT K) (List (ADT K))) (n : Nat) (t : List (ADT K)) :
    M (List (ADT K)) := do
  let x ← r.num.evaluatePointAD t
  let w ← r.wt.evaluateAD t
  let inv_scale ← (ADT.const (Scal.ofBase (1 : B)) n : ADT K).div w
  ADT.mapD (fun a => a.mul inv_scale) x

end Bezman
