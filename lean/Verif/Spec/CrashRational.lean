import Verif.Spec.Crash
import Verif.Spec.RComputes

/-! # Specification: `+=` and `-=` of rational splines that run out of memory -/

namespace Bezman.Spec
variable {K V : Type} [Field K] [DecidableEq K] [AddCommGroup V] [Module K V] [ScalarDiv K V]

/-- For `r += rhs` or `r -= rhs` of splines with different weights: `x` is the product of the numerator of `r` with the weight function
of `rhs`, `q` the result of the call, `f` the function of `r`, `h` that of the result, `wa` and `wb` the weight functions. -/
structure Halfway (cfg : Cfg) (da db : List ℕ) (wa wb : List K → K) (f h : List K → V) (r rhs q : RSpline K V) (x : Spline V) : Prop where
  product : RSpline.mulWeight' cfg r.num rhs.wt = .ok x
  x_wf : x.WF
  x_degrees : x.degrees = sumDegrees da db
  x_value : ∀ t : List K, t.length = da.length → wa t ≠ 0 → x.evaluate t = .ok ((wa t * wb t) • f t)
  q_computes : q.Computes (sumDegrees da db) h fun t => wa t * wb t

/-- What is left behind, in terms of the functions: the old spline; or a spline whose numerator and weight function differ in their
degrees, which happens only if the other operand is not constant; or, if it is constant, a consistent spline for the product of the
weight of the other operand with the old function `f` or with the result `h`. -/
def LeftBehind (da db : List ℕ) (wa wb : List K → K) (f h : List K → V) (r r' : RSpline K V) : Prop :=
  r' = r ∨ (r'.compatible = false ∧ ∃ p ∈ db, p ≠ 0) ∨ ((∀ p ∈ db, p = 0) ∧ r'.num.WF ∧ r'.num.degrees = da ∧ r'.wt = r.wt ∧
    ((∀ t : List K, t.length = da.length → wa t ≠ 0 → wb t ≠ 0 → r'.evaluate t = .ok (wb t • f t)) ∨
      ∀ t : List K, t.length = da.length → wa t ≠ 0 → wb t ≠ 0 → r'.evaluate t = .ok (wb t • h t)))

end Bezman.Spec
