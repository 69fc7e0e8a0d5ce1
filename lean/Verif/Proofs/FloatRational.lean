import Verif.Proofs.FloatForward
import Verif.Proofs.Box
import Verif.Proofs.Rational
import Verif.Spec.FloatArith
import Mathlib.Tactic.FieldSimp

/-! # Rounding errors of rational evaluation -/

namespace Bezman
open Spec

variable {A : FloatArith}

/-- error of a quotient of perturbed numbers -/
theorem quot_err {N N' W W' M m e1 e2 : ℝ} (hN : |N' - N| ≤ e1) (hW : |W' - W| ≤ e2) (hm : m ≤ W) (he : e2 < m) (hM : |N| ≤ M) :
    0 < W' ∧ |N' / W' - N / W| ≤ (e1 + M / m * e2) / (m - e2) ∧ |N / W| ≤ M / m := by
  have he2 : 0 ≤ e2 := (abs_nonneg _).trans hW
  have he1 : 0 ≤ e1 := (abs_nonneg _).trans hN
  have hM0 : 0 ≤ M := (abs_nonneg _).trans hM
  have hm0 : 0 < m := by linarith
  have hW0 : 0 < W := by linarith
  have hW1 : m - e2 ≤ W' := by have := (abs_le.mp hW).1; linarith
  have hW' : 0 < W' := by linarith
  have hq : |N / W| ≤ M / m := by
    rw [abs_div, abs_of_pos hW0]
    exact div_le_div₀ hM0 hM hm0 hm
  refine ⟨hW', ?_, hq⟩
  have e : N' / W' - N / W = ((N' - N) + N / W * (W - W')) / W' := by field_simp; ring
  rw [e, abs_div, abs_of_pos hW']
  refine div_le_div₀ (by positivity) ?_ (by linarith) hW1
  refine (abs_add_le _ _).trans (add_le_add hN ?_)
  rw [abs_mul, abs_sub_comm W]
  exact mul_le_mul hq hW (abs_nonneg _) (by positivity)

theorem div_total {x y D B v q : ℝ} (h1 : |x - y| ≤ (v - 1) * |y|) (hv : 1 ≤ v) (h2 : |y - q| ≤ D) (h3 : |q| ≤ B) :
    |x - q| ≤ v * D + (v - 1) * B := by
  have hy : |y| ≤ D + B := by
    have := abs_add_le (y - q) q; rw [sub_add_cancel] at this; linarith
  have h4 := abs_add_le (x - y) (y - q)
  rw [sub_add_sub_cancel] at h4
  have h5 : (v - 1) * |y| ≤ (v - 1) * (D + B) := mul_le_mul_of_nonneg_left hy (by linarith)
  have : v * D + (v - 1) * B = (v - 1) * (D + B) + D := by ring
  linarith

theorem lerpErr_eq (hη : A.η = 0) (M : ℝ) (k : ℕ) : lerpErr A M k = ((1 + A.u) ^ (3 * k) - 1) * M := by
  unfold lerpErr; rw [hη]; ring

end Bezman
