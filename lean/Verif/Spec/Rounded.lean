import Verif.Model.Rounded

/-! # Specification: round to nearest -/

namespace Bezman.Spec

/-- The binary floating-point numbers with `p` digits and smallest exponent `q`: `m 2^e` with `|m| < 2^p` and `e ≥ q`.
For `double` `p = 53` and `q = -1074` (subnormal numbers included), for `float` `p = 24` and `q = -149`. -/
def IsFloat (p : ℕ) (q : ℤ) (x : ℝ) : Prop := ∃ m e : ℤ, |m| < 2 ^ p ∧ q ≤ e ∧ x = m * 2 ^ e

/-- `rnd` rounds every number to a nearest floating-point number; ties are broken in any way. -/
structure Nearest (p : ℕ) (q : ℤ) (rnd : ℝ → ℝ) : Prop where
  isFloat : ∀ x, IsFloat p q (rnd x)
  nearest : ∀ x y, IsFloat p q y → |rnd x - x| ≤ |y - x|

/-- `x` is a floating-point number between 0 and 1. -/
def UnitFloat (p : ℕ) (q : ℤ) (x : ℝ) : Prop := IsFloat p q x ∧ 0 ≤ x ∧ x ≤ 1

end Bezman.Spec
