import Verif.Model.Microstructure
import Verif.Spec.RationalFace
import Mathlib.Analysis.SpecialFunctions.Trigonometric.Inverse

/-! # Specification: the microstructure example with exact arithmetic -/

namespace Bezman.Spec
open Microstructure

/-- The exact functions of `<cmath>`. -/
noncomputable def realMath : Libm ℝ := ⟨Real.sin, Real.cos, Real.arccos⟩

/-- The point of the plane with these polar coordinates. -/
noncomputable def polar (radius angle : ℝ) : Point ℝ 2 := ⟨fun j => if j = 0 then radius * Real.cos angle else radius * Real.sin angle⟩

/-- The angle runs from `a` at 0 to `b` at 1: continuously, and without turning back if `a < b`. -/
structure RunsFromTo (a b : ℝ) (angle : ℝ → ℝ) : Prop where
  start : angle 0 = a
  stop : angle 1 = b
  continuous : Continuous angle
  increasing : a < b → StrictMono angle

/-- The rectangles of the cross tile in the unit square, as `(left, right, bottom, top)`: center, left, right, down and up. -/
noncomputable def crossTile (thickness : ℝ) : List (ℝ × ℝ × ℝ × ℝ) :=
  let lo := (1 - thickness) / 2
  let hi := (1 + thickness) / 2
  [(lo, hi, lo, hi), (0, lo, lo, hi), (hi, 1, lo, hi), (lo, hi, 0, lo), (lo, hi, hi, 1)]

end Bezman.Spec
