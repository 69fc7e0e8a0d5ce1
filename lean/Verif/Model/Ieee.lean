import Verif.Model.Rounded

/-!
# Floating-point numbers with overflow, infinities and NaN as scalar type

The functions of the library are templates in `ScalarType` (src/bezier_spline.hpp:60-61); with `float` and `double` it computes
with IEEE 754 numbers.  Here are their operations: a result is rounded by `rnd` as if the exponent were unbounded, and is
infinite if it is then larger than the largest number `omega`.  Simplifications: one zero (so the sign of `1 / 0` is that of the
numerator), one NaN.
-/

namespace Bezman

/-- A finite number, an infinity (with its sign) or NaN. -/
inductive Ieee (rnd : ℝ → ℝ) (omega : ℝ) where
  | fin (x : ℝ)
  | inf (neg : Bool)
  | nan

namespace Ieee
variable {rnd : ℝ → ℝ} {omega : ℝ}

open Classical in
/-- the result of an operation whose exact result is `x` -/
noncomputable def round (x : ℝ) : Ieee rnd omega := if |rnd x| ≤ omega then fin (rnd x) else inf (decide (x < 0))

/-- `0.` -/
noncomputable instance : Zero (Ieee rnd omega) := ⟨fin 0⟩
/-- `1.` -/
noncomputable instance : One (Ieee rnd omega) := ⟨fin 1⟩

/-- `-a` -/
noncomputable instance : Neg (Ieee rnd omega) := ⟨fun
  | fin x => fin (-x)
  | inf s => inf (!s)
  | nan => nan⟩

/-- `a + b` -/
noncomputable instance : Add (Ieee rnd omega) := ⟨fun
  | nan, _ => nan
  | _, nan => nan
  | fin x, fin y => round (x + y)
  | fin _, inf s => inf s
  | inf s, fin _ => inf s
  | inf s, inf s' => if s = s' then inf s else nan⟩

/-- `a - b` -/
noncomputable instance : Sub (Ieee rnd omega) := ⟨fun a b => a + -b⟩

open Classical in
/-- `a * b` -/
noncomputable instance : Mul (Ieee rnd omega) := ⟨fun
  | nan, _ => nan
  | _, nan => nan
  | fin x, fin y => round (x * y)
  | fin x, inf s => if x = 0 then nan else inf (Bool.xor (decide (x < 0)) s)
  | inf s, fin x => if x = 0 then nan else inf (Bool.xor s (decide (x < 0)))
  | inf s, inf s' => inf (Bool.xor s s')⟩

open Classical in
/-- `a / b` -/
noncomputable instance : Div (Ieee rnd omega) := ⟨fun
  | nan, _ => nan
  | _, nan => nan
  | fin x, fin y => if y = 0 then (if x = 0 then nan else inf (decide (x < 0))) else round (x / y)
  | fin _, inf _ => fin 0
  | inf s, fin x => inf (Bool.xor s (decide (x < 0)))
  | inf _, inf _ => nan⟩

/-- `static_cast<ScalarType>(n)` -/
noncomputable instance : NatCast (Ieee rnd omega) := ⟨fun n => round n⟩

/-- `a < b`: false if one of them is NaN -/
instance : LT (Ieee rnd omega) := ⟨fun
  | nan, _ => False
  | _, nan => False
  | fin x, fin y => x < y
  | fin _, inf s => s = false
  | inf s, fin _ => s = true
  | inf s, inf s' => s = true ∧ s' = false⟩

noncomputable instance : DecidableLT (Ieee rnd omega) := fun _ _ => Classical.dec _

open Classical in
/-- `a == b`: false if one of them is NaN -/
noncomputable instance : BEq (Ieee rnd omega) := ⟨fun
  | fin x, fin y => decide (x = y)
  | inf s, inf s' => s == s'
  | _, _ => false⟩

end Ieee
end Bezman
