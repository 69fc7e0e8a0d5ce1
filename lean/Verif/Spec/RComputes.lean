import Verif.Model.Rational
import Verif.Spec.Computes
import Mathlib.Algebra.Field.Defs

/-! # Specification: the function a rational spline computes -/

namespace Bezman
open Spec

variable {K V : Type}

/-- The rational spline `r` has degrees `ds`, numerator and weight function are
consistent splines with these degrees, its weight function evaluates to `w t`, and
wherever that is not zero `Evaluate` succeeds and returns `f t`. -/
structure RSpline.Computes [Zero K] [DecidableEq K] [ScalarDiv K V] [One K] [Sub K] [Add K] [Mul K] [Add V]
    [SMul K V] (r : RSpline K V) (ds : List ℕ) (f : List K → V) (w : List K → K) : Prop where
  num_wf : r.num.WF
  wt_wf : r.wt.WF
  num_degrees : r.num.degrees = ds
  wt_degrees : r.wt.degrees = ds
  weight : ∀ t : List K, t.length = ds.length → r.wt.evaluate t = .ok (w t)
  eval : ∀ t : List K, t.length = ds.length → w t ≠ 0 → r.evaluate t = .ok (f t)

/-- The rational Bezier function with control net `P` and weights `w`:
`(∑ B_idx w_idx P_idx) / (∑ B_idx w_idx)`. -/
def Spec.rationalBezier [Field K] [AddCommGroup V] [Module K V] (ds : List ℕ) (t : List K) (P : List ℕ → V)
    (w : List ℕ → K) : V :=
  (bezier ds t w)⁻¹ • bezier ds t (fun idx => w idx • P idx)

end Bezman
