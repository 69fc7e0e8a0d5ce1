import Verif.Model.Point
import Verif.Model.FloatArith
import Mathlib.Data.Real.Basic

/-!
# Numbers with freely chosen rounding errors

The functions of the library are templates in `ScalarType` (src/bezier_spline.hpp:60-61), in practice `double`.  A compiler is free
to contract `a * b + c` to one operation with one rounding (src/bezier_spline.inc:363-364 and all other sums of products), and to keep
intermediate results with more digits, at some places of the program and not at others.  Here is a scalar type for the same model
functions, whose values are sets: all real numbers that a variable can hold after the operations before, if each of them has any
relative error of at most `u`, and products and quotients any additional absolute error of at most `η`, chosen independently at each
place.  A contracted product is one that has no error at all.
Simplifications: no overflow (no infinities and NaNs), and one zero.  A variable that is read twice may count with two different
values of its set, so the sets are larger than those of the program; nothing is lost for bounds of all results.
-/

namespace Bezman

/-- Sizes of rounding errors. -/
structure Roundoff where
  /-- unit roundoff -/
  u : ℝ
  /-- underflow error -/
  η : ℝ
  u_nonneg : 0 ≤ u
  η_nonneg : 0 ≤ η

/-- The numbers that a variable can hold. -/
@[ext] structure Nd (A : Roundoff) where
  vals : ℝ → Prop

namespace Nd
variable {A : Roundoff}

/-- a number without an error: an input, or a constant -/
def exactly (c : ℝ) : Nd A := ⟨fun r => r = c⟩
/-- a floating-point number, as an input -/
def ofFl {B : FloatArith} (x : Fl B) : Nd A := exactly x.val
/-- `0.` -/
instance : Zero (Nd A) := ⟨exactly 0⟩
/-- `1.` -/
instance : One (Nd A) := ⟨exactly 1⟩
/-- `a + b` -/
instance : Add (Nd A) := ⟨fun a b => ⟨fun r => ∃ x y, a.vals x ∧ b.vals y ∧ |r - (x + y)| ≤ A.u * |x + y|⟩⟩
/-- `a - b` -/
instance : Sub (Nd A) := ⟨fun a b => ⟨fun r => ∃ x y, a.vals x ∧ b.vals y ∧ |r - (x - y)| ≤ A.u * |x - y|⟩⟩
/-- `a * b` -/
instance : Mul (Nd A) := ⟨fun a b => ⟨fun r => ∃ x y, a.vals x ∧ b.vals y ∧ |r - x * y| ≤ A.u * |x * y| + A.η⟩⟩
/-- `a / b`; any number if `b` is zero -/
noncomputable instance : Div (Nd A) :=
  ⟨fun a b => ⟨fun r => ∃ x y, a.vals x ∧ b.vals y ∧ (y ≠ 0 → |r - x / y| ≤ A.u * |x / y| + A.η)⟩⟩
/-- `-a`, which is exact -/
instance : Neg (Nd A) := ⟨fun a => ⟨fun r => a.vals (-r)⟩⟩
/-- `static_cast<ScalarType>(n)` -/
instance : NatCast (Nd A) := ⟨fun n => ⟨fun r => |r - n| ≤ A.u * n⟩⟩
/-- `a < b`; only numbers without an error are compared (the positions of a split) -/
instance : LT (Nd A) := ⟨fun a b => ∀ x y, a.vals x → b.vals y → x < y⟩
noncomputable instance : DecidableLT (Nd A) := fun a b => Classical.propDecidable (a < b)

end Nd
end Bezman
