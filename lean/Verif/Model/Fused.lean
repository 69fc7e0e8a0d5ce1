import Verif.Model.FloatArith

/-!
# Arithmetic with fused multiply-add

A compiler may contract a product and the sum or difference in which it is used to one operation with one rounding (`fma`), as GCC does
by default on machines that have it.  Nearly all arithmetic of the library is of this kind, for example the interpolations
`a * inv_factor + b * factor` of src/bezier_spline.inc:362-364, the sums of products of src/bezier_spline.inc:417-420 and the
dot product of src/point.hpp:154-156.  Here is a scalar type for the same model functions with such a contraction: a number remembers
that it is the result of a product, and a sum or difference of which one operand is a product is computed from the factors.
Simplifications: a product is contracted wherever the model function adds it, even if the C++ code stores it in memory in between; of
two products that are added, the first is contracted.  No overflow (no infinities and NaNs), and one zero.
-/

namespace Bezman

/-- Arithmetic with rounding errors and a fused multiply-add. -/
structure FusedArith extends FloatArith where
  /-- `fma(a, b, c)` -/
  fma : ℝ → ℝ → ℝ → ℝ
  fma_err : ∀ a b c, |fma a b c - (a * b + c)| ≤ u * |a * b + c|

/-- A number, and the factors if it is the result of a product. -/
@[ext] structure Fu (A : FusedArith) where
  val : ℝ
  factors : Option (ℝ × ℝ)

namespace Fu
variable {A : FusedArith}

/-- a number in memory: an input, or a constant -/
def ofFl {B : FloatArith} (x : Fl B) : Fu A := ⟨x.val, none⟩
/-- `0.` -/
noncomputable instance : Zero (Fu A) := ⟨⟨0, none⟩⟩
/-- `1.` -/
noncomputable instance : One (Fu A) := ⟨⟨1, none⟩⟩
/-- `a + b` -/
noncomputable instance : Add (Fu A) := ⟨fun a b =>
  match a.factors, b.factors with
  | some (x, y), _ => ⟨A.fma x y b.val, none⟩
  | none, some (x, y) => ⟨A.fma x y a.val, none⟩
  | none, none => ⟨A.add a.val b.val, none⟩⟩
/-- `a - b` -/
noncomputable instance : Sub (Fu A) := ⟨fun a b =>
  match a.factors, b.factors with
  | some (x, y), _ => ⟨A.fma x y (-b.val), none⟩
  | none, some (x, y) => ⟨A.fma (-x) y a.val, none⟩
  | none, none => ⟨A.sub a.val b.val, none⟩⟩
/-- `a * b` -/
noncomputable instance : Mul (Fu A) := ⟨fun a b => ⟨A.mul a.val b.val, some (a.val, b.val)⟩⟩
/-- `a / b`, for `b` not zero -/
noncomputable instance : Div (Fu A) := ⟨fun a b => ⟨A.div a.val b.val, none⟩⟩
/-- `-a`, which is exact, also for the product -/
noncomputable instance : Neg (Fu A) := ⟨fun a => ⟨-a.val, a.factors.map fun p => (-p.1, p.2)⟩⟩
/-- `static_cast<ScalarType>(n)` -/
noncomputable instance : NatCast (Fu A) := ⟨fun n => ⟨A.cast n, none⟩⟩
/-- `a < b` -/
instance : LT (Fu A) := ⟨fun a b => a.val < b.val⟩
noncomputable instance : DecidableLT (Fu A) := fun a b => Classical.propDecidable (a.val < b.val)

end Fu
end Bezman
