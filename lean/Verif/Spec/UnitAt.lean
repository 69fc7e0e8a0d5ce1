import Verif.Model.Rational
import Verif.Spec.Spline

/-! # Specification vocabulary: the spline that is 1 at one control point -/

namespace Bezman.Spec

/-- `e` is the spline of numbers with the degrees of `s` whose control point number `n` is 1 and whose other control points are 0. -/
structure UnitAt {K V : Type} [Zero K] [One K] (n : ℕ) (s : Spline V) (e : Spline K) : Prop where
  inside : n < s.ncp
  wf : e.WF
  degrees : e.degrees = s.degrees
  points : e.cps = (List.replicate s.ncp 0).set n 1

/-- `e` is the rational spline of numbers with the degrees and the weights of `r` that is 1 at control point number `n` and 0 at the others:
its weighted control points are the weight at `n` and 0 elsewhere. -/
structure RUnitAt {K V : Type} [Zero K] (n : ℕ) (r : RSpline K V) (e : RSpline K K) : Prop where
  inside : n < r.wt.ncp
  wf : e.num.WF
  weights : e.wt = r.wt
  degrees : e.num.degrees = r.wt.degrees
  points : e.num.cps = (List.replicate r.wt.ncp 0).set n (r.wt.cps.getD n 0)

end Bezman.Spec
