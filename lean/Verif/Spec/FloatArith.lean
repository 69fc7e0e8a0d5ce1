import Verif.Model.FloatArith
import Verif.Model.Spline
import Verif.Model.Rational

/-! # Specification vocabulary for floating-point numbers -/

namespace Bezman

/-- `x` is representable: an operation whose exact result is `x` returns `x`. -/
structure FloatArith.Representable (A : FloatArith) (x : ℝ) : Prop where
  add : ∀ a b, a + b = x → A.add a b = x
  sub : ∀ a b, a - b = x → A.sub a b = x
  mul : ∀ a b, a * b = x → A.mul a b = x
  div : ∀ a b, b ≠ 0 → a / b = x → A.div a b = x

/-- The results of sums are representable. -/
def FloatArith.Closed (A : FloatArith) : Prop := ∀ a b, A.Representable (A.add a b)

/-- The spline with the same control values as real numbers. -/
def Spline.exact {A : FloatArith} (s : Spline (Fl A)) : Spline ℝ :=
  ⟨s.degrees, s.ncp, s.offsets, s.cps.map Fl.val⟩

/-- The spline with the same control points as points of ℝⁿ. -/
def Spline.exactPoints {A : FloatArith} {n : ℕ} (s : Spline (Point (Fl A) n)) : Spline (Point ℝ n) :=
  ⟨s.degrees, s.ncp, s.offsets, s.cps.map (fun p => ⟨fun i => (p.val i).val⟩)⟩

/-- The rational spline with the same weighted control values and weights as real numbers. -/
def RSpline.exact {A : FloatArith} (r : RSpline (Fl A) (Fl A)) : RSpline ℝ ℝ := ⟨r.num.exact, r.wt.exact⟩

/-- The rational spline with the same weighted control points and weights as real numbers. -/
def RSpline.exactPoints {A : FloatArith} {n : ℕ} (r : RSpline (Fl A) (Point (Fl A) n)) : RSpline ℝ (Point ℝ n) :=
  ⟨r.num.exactPoints, r.wt.exact⟩

end Bezman
