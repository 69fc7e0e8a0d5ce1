import Verif.Model.AlgoDiff

/-! # Specification: debug and release builds -/

namespace Bezman.Spec

/-- Outcomes of the same call in a debug and in a release build: they are the same, unless an assertion fails in the debug build. -/
def Agrees {α : Type} (debug release : M α) : Prop := debug = release ∨ debug = .error .assertFail

/-- Outcomes of the same call in a debug and in a release build: they are the same, unless an assertion fails in the debug build, and
then the release build has undefined behaviour. So a release build returns what a debug build returns, or something bad happens. -/
def SameOrUndefined {α : Type} (debug release : M α) : Prop := debug = release ∨ (debug = .error .assertFail ∧ release = .error .ub)

/-- Outcomes of the same call in a debug and in a release build: no assertion fails in the release build, and if none fails in the debug
build, then the outcomes are the same. -/
def AssertionsOff {α : Type} (debug release : M α) : Prop := release ≠ .error .assertFail ∧ (debug ≠ .error .assertFail → release = debug)

/-- The functions of `<cmath>` do not fail with an assertion. -/
class CmathNeverAsserts (B : Type) [Cmath B] : Prop where
  div : ∀ x y : B, Cmath.div x y ≠ .error .assertFail
  exp : ∀ x : B, Cmath.exp x ≠ .error .assertFail
  log : ∀ x : B, Cmath.log x ≠ .error .assertFail
  log10 : ∀ x : B, Cmath.log10 x ≠ .error .assertFail
  sqrt : ∀ x : B, Cmath.sqrt x ≠ .error .assertFail
  sin : ∀ x : B, Cmath.sin x ≠ .error .assertFail
  cos : ∀ x : B, Cmath.cos x ≠ .error .assertFail
  tan : ∀ x : B, Cmath.tan x ≠ .error .assertFail
  asin : ∀ x : B, Cmath.asin x ≠ .error .assertFail
  acos : ∀ x : B, Cmath.acos x ≠ .error .assertFail
  atan : ∀ x : B, Cmath.atan x ≠ .error .assertFail
  pow : ∀ x y : B, Cmath.pow x y ≠ .error .assertFail

end Bezman.Spec
