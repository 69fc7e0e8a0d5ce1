import Verif.Model.AlgoDiff
import Mathlib.Analysis.SpecialFunctions.Log.Base
import Mathlib.Analysis.SpecialFunctions.Trigonometric.Inverse
import Mathlib.Analysis.SpecialFunctions.Trigonometric.Arctan
import Mathlib.Analysis.SpecialFunctions.Pow.Real

/-!
# `<cmath>` on exact real numbers

The functions of `<cmath>` used by src/utils/computational_differentiation/algo_diff_type.inc
as functions of real numbers, with the domains of the C standard: outside of them, and at
poles, the result is `Err.domain` (`NaN` or infinite in C++).
-/

namespace Bezman

open Classical in
noncomputable instance : Cmath ℝ where
  div a b := if b = 0 then .error .divZero else .ok (a / b)
  exp x := .ok (Real.exp x)
  log x := if 0 < x then .ok (Real.log x) else .error .domain
  log10 x := if 0 < x then .ok (Real.logb 10 x) else .error .domain
  sqrt x := if 0 ≤ x then .ok (Real.sqrt x) else .error .domain
  sin x := .ok (Real.sin x)
  cos x := .ok (Real.cos x)
  tan x := if Real.cos x = 0 then .error .domain else .ok (Real.tan x)
  asin x := if -1 ≤ x ∧ x ≤ 1 then .ok (Real.arcsin x) else .error .domain
  acos x := if -1 ≤ x ∧ x ≤ 1 then .ok (Real.arccos x) else .error .domain
  atan x := .ok (Real.arctan x)
  pow x y :=
    if 0 < x then .ok (x ^ y)
    else if x = 0 then (if 0 ≤ y then .ok (x ^ y) else .error .domain)
    else if ∃ m : ℤ, y = m then .ok (x ^ y) else .error .domain
  gt a b := decide (b < a)
  half := 1 / 2

end Bezman
