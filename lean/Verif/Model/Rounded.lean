import Verif.Model.Point
import Mathlib.Data.Real.Basic

/-!
# Rounded real numbers as scalar type

The functions of the library are templates in `ScalarType` (src/bezier_spline.hpp:60-61).  Here is the scalar type whose
operations return the exact result, rounded by one function; with round to nearest this is IEEE 754 arithmetic, gradual
underflow included.  Simplifications: no overflow (no infinities and NaNs), and one zero.
-/

namespace Bezman

/-- A number whose operations round their results by `rnd`. -/
@[ext] structure Rd (rnd : ℝ → ℝ) where
  val : ℝ

namespace Rd
variable {rnd : ℝ → ℝ}

/-- `0.` -/
noncomputable instance : Zero (Rd rnd) := ⟨⟨0⟩⟩
/-- `1.` -/
noncomputable instance : One (Rd rnd) := ⟨⟨1⟩⟩
/-- `a + b` -/
noncomputable instance : Add (Rd rnd) := ⟨fun a b => ⟨rnd (a.val + b.val)⟩⟩
/-- `a - b` -/
noncomputable instance : Sub (Rd rnd) := ⟨fun a b => ⟨rnd (a.val - b.val)⟩⟩
/-- `a * b` -/
noncomputable instance : Mul (Rd rnd) := ⟨fun a b => ⟨rnd (a.val * b.val)⟩⟩
/-- `a / b`, for `b` not zero -/
noncomputable instance : Div (Rd rnd) := ⟨fun a b => ⟨rnd (a.val / b.val)⟩⟩
/-- `-a`, which is exact -/
noncomputable instance : Neg (Rd rnd) := ⟨fun a => ⟨-a.val⟩⟩
/-- `static_cast<ScalarType>(n)` -/
noncomputable instance : NatCast (Rd rnd) := ⟨fun n => ⟨rnd n⟩⟩
/-- comparisons are exact -/
noncomputable instance : LinearOrder (Rd rnd) := LinearOrder.lift' Rd.val fun _ _ h => Rd.ext h

end Rd
end Bezman
