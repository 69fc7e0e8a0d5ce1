import Verif.Proofs.Computes
import Verif.Proofs.Binomial
import Verif.Proofs.Point
import Mathlib.Data.Rat.Defs

/-! Concrete splines used to show that the hypotheses of the property theorems
can be met. -/

namespace Bezman.Ex

/-- library configuration with the default `MAX_BINOMIAL_DEGREE` -/
def cfg : Cfg := ⟨30, 10⟩
theorem cfg_ok : cfg.Ok := by unfold Cfg.Ok cfg; decide

/-- a surface with degrees (2,1), generic point type -/
def surf {V : Type} (a b c d e f : V) : Spline V := ⟨[2, 1], 6, [1, 3], [a, b, c, d, e, f]⟩
theorem surf_wf {V : Type} (a b c d e f : V) : (surf a b c d e f).WF :=
  ⟨Nat.zero_lt_succ _, rfl, rfl, rfl⟩

/-- a surface with degrees (1,2) -/
def surf' {V : Type} (a b c d e f : V) : Spline V := ⟨[1, 2], 6, [1, 2], [a, b, c, d, e, f]⟩
theorem surf'_wf {V : Type} (a b c d e f : V) : (surf' a b c d e f).WF :=
  ⟨Nat.zero_lt_succ _, rfl, rfl, rfl⟩

/-- a curve of degree 2 -/
def curve {V : Type} (a b c : V) : Spline V := ⟨[2], 3, [1], [a, b, c]⟩
theorem curve_wf {V : Type} (a b c : V) : (curve a b c).WF :=
  ⟨Nat.zero_lt_succ _, rfl, rfl, rfl⟩

/-- a line segment -/
def line {V : Type} (a b : V) : Spline V := ⟨[1], 2, [1], [a, b]⟩
theorem line_wf {V : Type} (a b : V) : (line a b).WF :=
  ⟨Nat.zero_lt_succ _, rfl, rfl, rfl⟩

/-- scalar surface over the rationals -/
def A : Spline ℚ := surf 1 2 (-3) 4 (1 / 2) 6
def B : Spline ℚ := surf' 0 1 0 2 5 (-1)
theorem A_wf : A.WF := surf_wf ..
theorem B_wf : B.WF := surf'_wf ..

/-- a point of the plane -/
def pt (x y : ℚ) : Point ℚ 2 := ⟨![x, y]⟩
/-- a surface in the plane -/
def P : Spline (Point ℚ 2) := surf (pt 0 0) (pt 1 0) (pt 2 1) (pt 0 3) (pt 1 2) (pt 2 2)
theorem P_wf : P.WF := surf_wf ..

end Bezman.Ex
