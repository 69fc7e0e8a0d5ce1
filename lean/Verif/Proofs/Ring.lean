import Verif.Model.Microstructure
import Verif.Props.RationalCompose
import Mathlib.Analysis.SpecialFunctions.Trigonometric.Arctan
import Mathlib.Analysis.SpecialFunctions.Trigonometric.Inverse

/-! # Proofs: the ring of the microstructure example -/

namespace Bezman.Microstructure
open Spec Finset

theorem cos_two_arctan (z : ℝ) : Real.cos (2 * Real.arctan z) * (1 + z ^ 2) = 1 - z ^ 2 := by
  have h : (1 + z ^ 2) ≠ 0 := by positivity
  rw [Real.cos_two_mul, Real.cos_sq_arctan]
  field_simp
  ring

theorem sin_two_arctan (z : ℝ) : Real.sin (2 * Real.arctan z) * (1 + z ^ 2) = 2 * z := by
  have h : (1 + z ^ 2) ≠ 0 := by positivity
  rw [Real.sin_two_mul]
  have hz : Real.sin (Real.arctan z) = z * Real.cos (Real.arctan z) := by
    have := Real.tan_mul_cos (Real.cos_arctan_pos z).ne'
    rw [Real.tan_arctan] at this
    exact this.symm
  rw [hz]
  have := Real.cos_sq_arctan z
  calc 2 * (z * Real.cos (Real.arctan z)) * Real.cos (Real.arctan z) * (1 + z ^ 2)
      = 2 * z * Real.cos (Real.arctan z) ^ 2 * (1 + z ^ 2) := by ring
    _ = 2 * z := by rw [this]; field_simp

/-- angle of a point of the segment against its middle -/
noncomputable def psi (h x : ℝ) : ℝ := 2 * Real.arctan ((2 * x - 1) * Real.tan (h / 2))

theorem weight_pos {h : ℝ} (hh : |h| < Real.pi) (x : ℝ) :
    0 < ((1 - x) ^ 2 + x ^ 2) + Real.cos h * (2 * x * (1 - x)) := by
  have hab := abs_lt.mp hh
  have h1 : -1 < Real.cos h := by
    rw [← Real.cos_abs, ← Real.cos_pi]
    exact Real.cos_lt_cos_of_nonneg_of_le_pi (abs_nonneg _) le_rfl hh
  have h2 := Real.cos_le_one h
  have e : ((1 - x) ^ 2 + x ^ 2) + Real.cos h * (2 * x * (1 - x))
      = (1 + Real.cos h) / 2 + (1 - Real.cos h) / 2 * (2 * x - 1) ^ 2 := by ring
  rw [e]
  have := mul_nonneg (a := (1 - Real.cos h) / 2) (by linarith) (sq_nonneg (2 * x - 1))
  linarith

theorem psi_cos {h : ℝ} (hh : |h| < Real.pi) (x : ℝ) :
    ((1 - x) ^ 2 + x ^ 2 + Real.cos h * (2 * x * (1 - x))) * Real.cos (psi h x)
      = ((1 - x) ^ 2 + x ^ 2) * Real.cos h + 2 * x * (1 - x) ∧
    ((1 - x) ^ 2 + x ^ 2 + Real.cos h * (2 * x * (1 - x))) * Real.sin (psi h x) = (2 * x - 1) * Real.sin h := by
  have hab := abs_lt.mp hh
  set τ := Real.tan (h / 2) with hτ
  have ha : Real.arctan τ = h / 2 := Real.arctan_tan (by linarith) (by linarith)
  have hc : Real.cos h * (1 + τ ^ 2) = 1 - τ ^ 2 := by
    have := cos_two_arctan τ
    rwa [ha, mul_div_cancel₀ h two_ne_zero] at this
  have hs : Real.sin h * (1 + τ ^ 2) = 2 * τ := by
    have := sin_two_arctan τ
    rwa [ha, mul_div_cancel₀ h two_ne_zero] at this
  have h1 := cos_two_arctan ((2 * x - 1) * τ)
  have h2 := sin_two_arctan ((2 * x - 1) * τ)
  have hp : (0:ℝ) < 1 + τ ^ 2 := by positivity
  have hq : (0:ℝ) < 1 + ((2 * x - 1) * τ) ^ 2 := by positivity
  unfold psi
  rw [← hτ]
  have eW : ((1 - x) ^ 2 + x ^ 2 + Real.cos h * (2 * x * (1 - x))) * (1 + τ ^ 2) = 1 + ((2 * x - 1) * τ) ^ 2 := by
    linear_combination (2 * x * (1 - x)) * hc
  constructor
  · apply mul_right_cancel₀ hp.ne'
    have : ((1 - x) ^ 2 + x ^ 2 + Real.cos h * (2 * x * (1 - x))) * Real.cos (2 * Real.arctan ((2 * x - 1) * τ)) * (1 + τ ^ 2)
        = 1 - ((2 * x - 1) * τ) ^ 2 := by
      rw [mul_right_comm, eW, mul_comm]; exact h1
    rw [this]
    linear_combination -((1 - x) ^ 2 + x ^ 2) * hc
  · apply mul_right_cancel₀ hp.ne'
    have : ((1 - x) ^ 2 + x ^ 2 + Real.cos h * (2 * x * (1 - x))) * Real.sin (2 * Real.arctan ((2 * x - 1) * τ)) * (1 + τ ^ 2)
        = 2 * ((2 * x - 1) * τ) := by
      rw [mul_right_comm, eW, mul_comm]; exact h2
    rw [this]
    linear_combination -(2 * x - 1) * hs

theorem psi_zero {h : ℝ} (hh : |h| < Real.pi) : psi h 0 = -h := by
  have hab := abs_lt.mp hh
  unfold psi
  rw [show (2 * (0:ℝ) - 1) * Real.tan (h / 2) = -Real.tan (h / 2) by ring, Real.arctan_neg,
    Real.arctan_tan (by linarith) (by linarith)]
  ring

theorem psi_one {h : ℝ} (hh : |h| < Real.pi) : psi h 1 = h := by
  have hab := abs_lt.mp hh
  unfold psi
  rw [show (2 * (1:ℝ) - 1) * Real.tan (h / 2) = Real.tan (h / 2) by ring, Real.arctan_tan (by linarith) (by linarith)]
  ring

theorem psi_continuous (h : ℝ) : Continuous (psi h) := by
  unfold psi
  exact continuous_const.mul (Real.continuous_arctan.comp (by fun_prop))

theorem psi_strictMono {h : ℝ} (h0 : 0 < h) (hh : h < Real.pi) : StrictMono (psi h) := by
  intro x y hxy
  unfold psi
  have ht : 0 < Real.tan (h / 2) := Real.tan_pos_of_pos_of_lt_pi_div_two (by linarith) (by linarith)
  have : (2 * x - 1) * Real.tan (h / 2) < (2 * y - 1) * Real.tan (h / 2) :=
    mul_lt_mul_of_pos_right (by linarith) ht
  have := Real.arctan_strictMono this
  linarith

end Bezman.Microstructure
