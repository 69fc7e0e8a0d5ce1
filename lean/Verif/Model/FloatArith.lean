import Verif.Model.Point
import Mathlib.Data.Real.Basic

/-!
# Floating-point numbers as scalar type

The functions of the library are templates in `ScalarType` (src/bezier_spline.hpp:60-61), in
practice `double`.  Here is a scalar type with rounding errors, for the same model functions: the standard model of floating-point arithmetic, in which each
operation returns its exact result up to a relative error `u` (2^-53 for `double`), and products and quotients
have in addition an absolute error `η` (2^-1075 for `double`) when they underflow.
Simplifications: no overflow (no infinities and NaNs), and one zero.
-/

namespace Bezman

/-- Arithmetic with rounding errors. -/
structure FloatArith where
  /-- unit roundoff -/
  u : ℝ
  /-- underflow error -/
  η : ℝ
  add : ℝ → ℝ → ℝ
  sub : ℝ → ℝ → ℝ
  mul : ℝ → ℝ → ℝ
  div : ℝ → ℝ → ℝ
  /-- conversion of an integer, `static_cast<ScalarType>(n)` -/
  cast : ℕ → ℝ
  u_nonneg : 0 ≤ u
  η_nonneg : 0 ≤ η
  add_err : ∀ a b, |add a b - (a + b)| ≤ u * |a + b|
  sub_err : ∀ a b, |sub a b - (a - b)| ≤ u * |a - b|
  mul_err : ∀ a b, |mul a b - a * b| ≤ u * |a * b| + η
  div_err : ∀ a b, b ≠ 0 → |div a b - a / b| ≤ u * |a / b| + η
  cast_err : ∀ n : ℕ, |cast n - n| ≤ u * n

/-- A floating-point number. -/
@[ext] structure Fl (A : FloatArith) where
  val : ℝ

namespace Fl
variable {A : FloatArith}

/-- `0.` -/
noncomputable instance : Zero (Fl A) := ⟨⟨0⟩⟩
/-- `1.` -/
noncomputable instance : One (Fl A) := ⟨⟨1⟩⟩
/-- `a + b` -/
noncomputable instance : Add (Fl A) := ⟨fun a b => ⟨A.add a.val b.val⟩⟩
/-- `a - b` -/
noncomputable instance : Sub (Fl A) := ⟨fun a b => ⟨A.sub a.val b.val⟩⟩
/-- `a * b` -/
noncomputable instance : Mul (Fl A) := ⟨fun a b => ⟨A.mul a.val b.val⟩⟩
/-- `a / b`, for `b` not zero -/
noncomputable instance : Div (Fl A) := ⟨fun a b => ⟨A.div a.val b.val⟩⟩
/-- `a < b` -/
instance : LT (Fl A) := ⟨fun a b => a.val < b.val⟩
noncomputable instance : DecidableLT (Fl A) := fun a b => Classical.propDecidable (a.val < b.val)
noncomputable instance : DecidableEq (Fl A) := fun a b => Classical.propDecidable (a = b)
/-- `-a`, which is exact -/
noncomputable instance : Neg (Fl A) := ⟨fun a => ⟨-a.val⟩⟩
/-- `static_cast<ScalarType>(n)` -/
noncomputable instance : NatCast (Fl A) := ⟨fun n => ⟨A.cast n⟩⟩

end Fl
end Bezman
