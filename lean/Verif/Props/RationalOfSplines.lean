import Verif.Props.Rational

/-! C35 for the constructor of a rational spline from two splines. -/

namespace Bezman.Props
open Bezman Bezman.Spec

variable {K V : Type} [Field K] [DecidableEq K] [AddCommGroup V] [Module K V] [ScalarDiv K V] [LawfulScalarDiv K V]

/-- C35. Building a rational spline from a weighted spline and a weight function of the same degrees: it evaluates to their quotient. -/
theorem C35_of_splines (num : Spline V) (wt : Spline K) (ds : List ℕ) (f : List K → V) (w : List K → K) (hn : num.Computes ds f)
    (hw : wt.Computes ds w) : ∃ r, RSpline.ofSplines num wt = .ok r ∧ r.Computes ds (fun t => (w t)⁻¹ • f t) w :=
  ⟨_, RSpline.ofSplines_ok (hn.degrees_eq.trans hw.degrees_eq.symm), RSpline.computes_of hn hw⟩

omit [Field K] [DecidableEq K] [AddCommGroup V] [Module K V] [ScalarDiv K V] [LawfulScalarDiv K V] in
/-- C35. With different degrees the assertion fails. -/
theorem C35_of_splines_asserts (num : Spline V) (wt : Spline K) (h : num.degrees ≠ wt.degrees) :
    RSpline.ofSplines num wt = .error .assertFail :=
  RSpline.ofSplines_assert h

/-- a line with the weights 1 and 3 -/
example : ∃ r, RSpline.ofSplines (Ex.line (2 : ℚ) 5) (Ex.line (1 : ℚ) 3) = .ok r ∧ r.Computes [1]
    (fun t => ((Ex.line (1 : ℚ) 3).value t)⁻¹ • (Ex.line (2 : ℚ) 5).value t) (fun t => (Ex.line (1 : ℚ) 3).value t) :=
  C35_of_splines _ _ [1] _ _ (Ex.line_wf ..).computes (Ex.line_wf ..).computes

/-- a line and the weight function of a surface -/
example (a b c d e f : ℚ) : RSpline.ofSplines (Ex.line (2 : ℚ) 5) (Ex.surf a b c d e f) = .error .assertFail :=
  C35_of_splines_asserts _ _ (show [1] ≠ [2, 1] by decide)

end Bezman.Props
