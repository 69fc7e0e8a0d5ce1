import Verif.Model.Ieee
import Verif.Model.Box
import Verif.Spec.Rounded

/-! # Specification: finite numbers, infinities and NaN -/

namespace Bezman.Spec

/-- The largest number with `p` digits below `2^E`. For `double` `p = 53` and `E = 1024`, for `float` `p = 24` and `E = 128`. -/
noncomputable def maxFinite (p : ℕ) (E : ℤ) : ℝ := (1 - 2 ^ (-(p : ℤ))) * 2 ^ E

end Bezman.Spec

namespace Bezman.Ieee
open Spec
variable {rnd : ℝ → ℝ} {omega : ℝ}

/-- `x` is finite, and it is the number `v`. -/
def Is (p : ℕ) (q : ℤ) (x : Ieee rnd omega) (v : ℝ) : Prop := x = fin v ∧ IsFloat p q v ∧ |v| ≤ omega

/-- `x` is a finite floating-point number. -/
def Finite (p : ℕ) (q : ℤ) (x : Ieee rnd omega) : Prop := ∃ v, x.Is p q v

/-- `x` is a floating-point number between 0 and 1. -/
def Unit (p : ℕ) (q : ℤ) (x : Ieee rnd omega) : Prop := ∃ v, x = fin v ∧ UnitFloat p q v

/-- `x` is an infinity or NaN. -/
def NonFinite : Ieee rnd omega → Prop
  | fin _ => False
  | _ => True

/-- Coordinate `j` of the control points of `s` is finite everywhere; `lo` is the smallest and `hi` the largest value. -/
def Range {n : ℕ} (s : Spline (Point (Ieee rnd omega) n)) (j : Fin n) (lo hi : ℝ) : Prop :=
  (∃ x ∈ s.cps, x.val j = fin lo) ∧ (∃ x ∈ s.cps, x.val j = fin hi) ∧ ∀ x ∈ s.cps, ∃ v, x.val j = fin v ∧ lo ≤ v ∧ v ≤ hi

/-- the value of a finite number (anything for the others) -/
noncomputable def toRd : Ieee rnd omega → Rd rnd
  | fin x => ⟨x⟩
  | _ => ⟨0⟩

end Bezman.Ieee
