import Verif.Model.AnyRounding
import Verif.Spec.FloatBounds

/-! # Specification: results whatever the rounding errors are

The error of `k` roundings of a quantity of magnitude at most `M` is at most `((1+u)^k - 1) M`; the numbers of roundings are those of
Spec/FloatBounds.lean. -/

namespace Bezman
open Spec
variable {A : Roundoff} {n : ℕ}

/-- Two consistent scalar splines with degrees `ds`, one with sets of control values and one with real control values: the real ones are
at most `M` in absolute value, and whatever value of its set a control value has, it differs from the real one by at most the error of
`k` roundings. -/
structure Spline.AllNear (ds : List ℕ) (k : ℕ) (M : ℝ) (s : Spline (Nd A)) (s' : Spline ℝ) : Prop where
  shape : HasShape ds s
  shape' : HasShape ds s'
  near : List.Forall₂ (fun x y => |y| ≤ M ∧ ∀ r, x.vals r → |r - y| ≤ ((1 + A.u) ^ k - 1) * M) s.cps s'.cps

/-- The same for splines of points, coordinate by coordinate. -/
structure Spline.AllNearPoints (ds : List ℕ) (k : ℕ) (M : Fin n → ℝ) (s : Spline (Point (Nd A) n)) (s' : Spline (Point ℝ n)) : Prop where
  shape : HasShape ds s
  shape' : HasShape ds s'
  near : List.Forall₂ (fun x y => ∀ c, |y.val c| ≤ M c ∧ ∀ r, (x.val c).vals r → |r - y.val c| ≤ ((1 + A.u) ^ k - 1) * M c)
    s.cps s'.cps

/-- Both calls return, and all results that are possible approximate the exact one. -/
def AllNearRuns (ds : List ℕ) (k : ℕ) (M : ℝ) (x : Bezman.M (Spline (Nd A))) (y : Bezman.M (Spline ℝ)) : Prop :=
  ∃ r r', x = .ok r ∧ y = .ok r' ∧ r.AllNear ds k M r'

@[inherit_doc AllNearRuns]
def AllNearRunsPoints (ds : List ℕ) (k : ℕ) (M : Fin n → ℝ) (x : Bezman.M (Spline (Point (Nd A) n)))
    (y : Bezman.M (Spline (Point ℝ n))) : Prop :=
  ∃ r r', x = .ok r ∧ y = .ok r' ∧ r.AllNearPoints ds k M r'

/-- The control values of the real spline are among the possible ones. -/
def Spline.HasValues (s : Spline (Nd A)) (s' : Spline ℝ) : Prop :=
  s.degrees = s'.degrees ∧ List.Forall₂ (fun x r => x.vals r) s.cps s'.cps

/-- The same for splines of points, coordinate by coordinate. -/
def Spline.HasPoints (s : Spline (Point (Nd A) n)) (s' : Spline (Point ℝ n)) : Prop :=
  s.degrees = s'.degrees ∧ List.Forall₂ (fun x r => ∀ c, (x.val c).vals (r.val c)) s.cps s'.cps

end Bezman
