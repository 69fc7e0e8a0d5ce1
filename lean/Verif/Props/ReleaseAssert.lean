import Verif.Proofs.NoAssert
import Verif.Props.Release

/-! # Property C115: no assertion is left in a release build

Every function that contains an assertion, or calls one that does: in a release build no assertion fails, for whatever arguments, and where
none fails in a debug build either the outcome is the same.  Nothing is assumed about the arithmetic of splines; of the scalar type of a dual
number it is assumed that its operations contain no assertions. -/

namespace Bezman.Props
open Spec

private theorem off {α : Type} {m d r : M α} (hd : d = m) (h : Agrees d r) (hn : NoAssert r) : AssertionsOff m r :=
  ⟨hn.ne, fun hm => agrees_of_ne (hd ▸ h) hm⟩

section
variable {K : Type} {n : ℕ} [Zero K] [One K] [Add K] [Sub K] [Mul K] [Neg K] [Div K] [NatCast K] [LT K] [DecidableLT K]

/-- C115. Whole programs on polynomial splines. -/
theorem C115_no_assertion_program (cfg : Cfg) (σ : Vars K n) (e : SExpr K n) (f : PExpr K n) :
    AssertionsOff (e.run cfg σ) (e.runB .release cfg σ) ∧
    AssertionsOff (f.run cfg σ) (f.runB .release cfg σ) :=
  ⟨off (SExpr.runB_debug ..) (SExpr.runB_agrees ..) (SExpr.runB_na ..),
    off (PExpr.runB_debug ..) (PExpr.runB_agrees ..) (PExpr.runB_na ..)⟩

/-- C115. Whole programs on rational splines. -/
theorem C115_no_assertion_rational_program [BEq K] (cfg : Cfg) (σ : RVars K n) (e : RSExpr K n) (f : RPExpr K n) :
    AssertionsOff (e.run cfg σ) (e.runB .release cfg σ) ∧
    AssertionsOff (f.run cfg σ) (f.runB .release cfg σ) :=
  ⟨off (RSExpr.runB_debug ..) (RSExpr.runB_agrees ..) (RSExpr.runB_na ..),
    off (RPExpr.runB_debug ..) (RPExpr.runB_agrees ..) (RPExpr.runB_na ..)⟩

end

section
variable {K V W U : Type} [Zero K] [One K] [Add K] [Sub K] [Mul K] [Neg K] [Div K] [NatCast K] [LT K] [DecidableLT K] [Zero V] [Add V] [Sub V] [Neg V] [SMul K V]
  [Zero U] [Add U] [SMul K U]

/-- C115. Constructors and `UpdateDegrees`, with any number of points and weights and any degrees. -/
theorem C115_no_assertion_construction (deg : List ℕ) (pts : List V) (ws : List K) (a : Spline V) (b : Spline K) (r : RSpline K V) :
    AssertionsOff (Spline.ofPoints deg pts) (Spline.ofPointsB .release deg pts) ∧
    AssertionsOff (RSpline.ofPoints deg pts ws) (RSpline.ofPointsB .release deg pts ws) ∧
    AssertionsOff (RSpline.ofSplines a b) (RSpline.ofSplinesB .release a b) ∧
    AssertionsOff (RSpline.ofSpline (K := K) a) (RSpline.ofSplineB (K := K) .release a) ∧
    AssertionsOff (r.updateDegrees deg) (r.updateDegreesB .release deg) :=
  ⟨off (Spline.ofPointsB_debug ..) (Spline.ofPointsB_agrees ..) (Spline.ofPointsB_na ..),
    off (RSpline.ofPointsB_debug ..) (RSpline.ofPointsB_agrees ..) (RSpline.ofPointsB_na ..),
    off (RSpline.ofSplinesB_debug ..) (RSpline.ofSplinesB_agrees ..) (RSpline.ofSplinesB_na ..),
    off (RSpline.ofSplineB_debug ..) (RSpline.ofSplineB_agrees ..) (RSpline.ofSplineB_na ..),
    off (RSpline.updateDegreesB_debug ..) (RSpline.updateDegreesB_agrees ..) (RSpline.updateDegreesB_na ..)⟩

/-- C115. Evaluations of polynomial splines. -/
theorem C115_no_assertion_evaluation (cfg : Cfg) (s : Spline V) (t : List K) (k : List ℕ) :
    AssertionsOff (s.basisFunctionContributions cfg t) (s.basisFunctionContributionsB .release cfg t) ∧
    AssertionsOff (s.basisFunctions cfg t) (s.basisFunctionsB .release cfg t) ∧
    AssertionsOff (s.forwardEvaluate cfg t) (s.forwardEvaluateB .release cfg t) ∧
    AssertionsOff (s.basisFunctionsDerivativeContributions cfg t k) (s.basisFunctionsDerivativeContributionsB .release cfg t k) ∧
    AssertionsOff (s.basisFunctionsDerivatives cfg t k) (s.basisFunctionsDerivativesB .release cfg t k) ∧
    AssertionsOff (s.evaluateDerivative cfg t k) (s.evaluateDerivativeB .release cfg t k) :=
  ⟨off (Spline.basisFunctionContributionsB_debug ..) (Spline.basisFunctionContributionsB_agrees ..) (Spline.basisFunctionContributionsB_na ..),
    off (Spline.basisFunctionsB_debug ..) (Spline.basisFunctionsB_agrees ..) (Spline.basisFunctionsB_na ..),
    off (Spline.forwardEvaluateB_debug ..) (Spline.forwardEvaluateB_agrees ..) (Spline.forwardEvaluateB_na ..),
    off (Spline.basisFunctionsDerivativeContributionsB_debug ..) (Spline.basisFunctionsDerivativeContributionsB_agrees ..) (Spline.basisFunctionsDerivativeContributionsB_na ..),
    off (Spline.basisFunctionsDerivativesB_debug ..) (Spline.basisFunctionsDerivativesB_agrees ..) (Spline.basisFunctionsDerivativesB_na ..),
    off (Spline.evaluateDerivativeB_debug ..) (Spline.evaluateDerivativeB_agrees ..) (Spline.evaluateDerivativeB_na ..)⟩

/-- C115. Evaluations of rational splines. -/
theorem C115_no_assertion_rational_evaluation [BEq K] (cfg : Cfg) (r : RSpline K V) (t : List K) (k : List ℕ) :
    AssertionsOff (r.basisFunctionContributions cfg t) (r.basisFunctionContributionsB .release cfg t) ∧
    AssertionsOff (r.unweightedBasisFunctions cfg t) (r.unweightedBasisFunctionsB .release cfg t) ∧
    AssertionsOff (r.basisFunctions cfg t) (r.basisFunctionsB .release cfg t) ∧
    AssertionsOff (r.forwardEvaluate cfg t) (r.forwardEvaluateB .release cfg t) ∧
    AssertionsOff (r.basisFunctionsDerivatives cfg t k) (r.basisFunctionsDerivativesB .release cfg t k) ∧
    AssertionsOff (r.evaluateDerivative cfg t k) (r.evaluateDerivativeB .release cfg t k) :=
  ⟨off (RSpline.basisFunctionContributionsB_debug ..) (RSpline.basisFunctionContributionsB_agrees ..) (RSpline.basisFunctionContributionsB_na ..),
    off (RSpline.unweightedBasisFunctionsB_debug ..) (RSpline.unweightedBasisFunctionsB_agrees ..) (RSpline.unweightedBasisFunctionsB_na ..),
    off (RSpline.basisFunctionsB_debug ..) (RSpline.basisFunctionsB_agrees ..) (RSpline.basisFunctionsB_na ..),
    off (RSpline.forwardEvaluateB_debug ..) (RSpline.forwardEvaluateB_agrees ..) (RSpline.forwardEvaluateB_na ..),
    off (RSpline.basisFunctionsDerivativesB_debug ..) (RSpline.basisFunctionsDerivativesB_agrees ..) (RSpline.basisFunctionsDerivativesB_na ..),
    off (RSpline.evaluateDerivativeB_debug ..) (RSpline.evaluateDerivativeB_agrees ..) (RSpline.evaluateDerivativeB_na ..)⟩

/-- C115. Operations on polynomial splines. -/
theorem C115_no_assertion_operation [Coords K W] (cfg : Cfg) (mul : V → W → U) (a b : Spline V) (c : Spline K) (i : Spline W) (j : RSpline K W) [BEq K] [ScalarDiv K W]
    (k : ℕ) (ds : List ℕ) :
    AssertionsOff (Spline.addOp K cfg a b) (Spline.addOpB K .release cfg a b) ∧
    AssertionsOff (Spline.subOp K cfg a b) (Spline.subOpB K .release cfg a b) ∧
    AssertionsOff (Spline.mulOp K cfg mul a i) (Spline.mulOpB K .release cfg mul a i) ∧
    AssertionsOff (Spline.raisePower cfg c k) (Spline.raisePowerB .release cfg c k) ∧
    AssertionsOff (Spline.derivativeSpline K cfg a ds) (Spline.derivativeSplineB K .release cfg a ds) ∧
    AssertionsOff (Spline.compose K cfg a i) (Spline.composeB K .release cfg a i) ∧
    AssertionsOff (Spline.composeSensitivity K cfg a i) (Spline.composeSensitivityB K .release cfg a i) ∧
    AssertionsOff (Spline.composeRational cfg a j) (Spline.composeRationalB .release cfg a j) ∧
    AssertionsOff (Spline.composeSensitivityRational cfg a j) (Spline.composeSensitivityRationalB .release cfg a j) :=
  ⟨off (Spline.addOpB_debug ..) (Spline.addOpB_agrees ..) (Spline.addOpB_na ..),
    off (Spline.subOpB_debug ..) (Spline.subOpB_agrees ..) (Spline.subOpB_na ..),
    off (Spline.mulOpB_debug ..) (Spline.mulOpB_agrees ..) (Spline.mulOpB_na ..),
    off (Spline.raisePowerB_debug ..) (Spline.raisePowerB_agrees ..) (Spline.raisePowerB_na ..),
    off (Spline.derivativeSplineB_debug ..) (Spline.derivativeSplineB_agrees ..) (Spline.derivativeSplineB_na ..),
    off (Spline.composeB_debug ..) (Spline.composeB_agrees ..) (Spline.composeB_na ..),
    off (Spline.composeSensitivityB_debug ..) (Spline.composeSensitivityB_agrees ..) (Spline.composeSensitivityB_na ..),
    off (Spline.composeRationalB_debug ..) (Spline.composeRationalB_agrees ..) (Spline.composeRationalB_na ..),
    off (Spline.composeSensitivityRationalB_debug ..) (Spline.composeSensitivityRationalB_agrees ..) (Spline.composeSensitivityRationalB_na ..)⟩

/-- C115. Operations on rational splines, with operands of any degrees. -/
theorem C115_no_assertion_rational_operation [Coords K W] [BEq K] [ScalarDiv K W] (cfg : Cfg) (mul : V → W → U) (a b : RSpline K V) (c : RSpline K W)
    (i : Spline W) (d : ℕ) (z : K) (zs : List K) (v : V) (ds : List ℕ) :
    AssertionsOff (a.addOp cfg b) (a.addOpB .release cfg b) ∧
    AssertionsOff (a.addAssign cfg b) (a.addAssignB .release cfg b) ∧
    AssertionsOff (a.subOp cfg b) (a.subOpB .release cfg b) ∧
    AssertionsOff (a.subAssign cfg b) (a.subAssignB .release cfg b) ∧
    AssertionsOff (a.mulOp cfg mul c) (a.mulOpB .release cfg mul c) ∧
    AssertionsOff (a.orderElevate d) (a.orderElevateB .release d) ∧
    AssertionsOff (a.splitAt z d) (a.splitAtB .release z d) ∧
    AssertionsOff (a.splitAtMany zs d) (a.splitAtManyB .release zs d) ∧
    AssertionsOff (a.smulAssign z) (a.smulAssignB .release z) ∧
    AssertionsOff (a.smulOp z) (a.smulOpB .release z) ∧
    AssertionsOff (a.addPointAssign v) (a.addPointAssignB .release v) ∧
    AssertionsOff (a.addPoint v) (a.addPointB .release v) ∧
    AssertionsOff (a.subPoint v) (a.subPointB .release v) ∧
    AssertionsOff (a.negOp) (a.negOpB .release) ∧
    AssertionsOff (a.compose cfg i) (a.composeB .release cfg i) ∧
    AssertionsOff (a.composeRational cfg c) (a.composeRationalB .release cfg c) ∧
    AssertionsOff (a.composeSensitivity cfg i) (a.composeSensitivityB .release cfg i) ∧
    AssertionsOff (a.composeSensitivityRational cfg c) (a.composeSensitivityRationalB .release cfg c) ∧
    AssertionsOff (a.derivativeSpline cfg ds) (a.derivativeSplineB .release cfg ds) :=
  ⟨off (RSpline.addOpB_debug ..) (RSpline.addOpB_agrees ..) (RSpline.addOpB_na ..),
    off (RSpline.addAssignB_debug ..) (RSpline.addAssignB_agrees ..) (RSpline.addAssignB_na ..),
    off (RSpline.subOpB_debug ..) (RSpline.subOpB_agrees ..) (RSpline.subOpB_na ..),
    off (RSpline.subAssignB_debug ..) (RSpline.subAssignB_agrees ..) (RSpline.subAssignB_na ..),
    off (RSpline.mulOpB_debug ..) (RSpline.mulOpB_agrees ..) (RSpline.mulOpB_na ..),
    off (RSpline.orderElevateB_debug ..) (RSpline.orderElevateB_agrees ..) (RSpline.orderElevateB_na ..),
    off (RSpline.splitAtB_debug ..) (RSpline.splitAtB_agrees ..) (RSpline.splitAtB_na ..),
    off (RSpline.splitAtManyB_debug ..) (RSpline.splitAtManyB_agrees ..) (RSpline.splitAtManyB_na ..),
    off (RSpline.smulAssignB_debug ..) (RSpline.smulAssignB_agrees ..) (RSpline.smulAssignB_na ..),
    off (RSpline.smulOpB_debug ..) (RSpline.smulOpB_agrees ..) (RSpline.smulOpB_na ..),
    off (RSpline.addPointAssignB_debug ..) (RSpline.addPointAssignB_agrees ..) (RSpline.addPointAssignB_na ..),
    off (RSpline.addPointB_debug ..) (RSpline.addPointB_agrees ..) (RSpline.addPointB_na ..),
    off (RSpline.subPointB_debug ..) (RSpline.subPointB_agrees ..) (RSpline.subPointB_na ..),
    off (RSpline.negOpB_debug ..) (RSpline.negOpB_agrees ..) (RSpline.negOpB_na ..),
    off (RSpline.composeB_debug ..) (RSpline.composeB_agrees ..) (RSpline.composeB_na ..),
    off (RSpline.composeRationalB_debug ..) (RSpline.composeRationalB_agrees ..) (RSpline.composeRationalB_na ..),
    off (RSpline.composeSensitivityB_debug ..) (RSpline.composeSensitivityB_agrees ..) (RSpline.composeSensitivityB_na ..),
    off (RSpline.composeSensitivityRationalB_debug ..) (RSpline.composeSensitivityRationalB_agrees ..) (RSpline.composeSensitivityRationalB_na ..),
    off (RSpline.derivativeSplineB_debug ..) (RSpline.derivativeSplineB_agrees ..) (RSpline.derivativeSplineB_na ..)⟩

end

/-- C115. Base64, with strings of any length. -/
theorem C115_no_assertion_base64 (d L : ℕ) (s : List ℕ) :
    AssertionsOff (Base64.decode L s) (Base64.decodeB .release L s) ∧
    AssertionsOff (Base64.decodePoints d L s) (Base64.decodePointsB .release d L s) :=
  ⟨off (Base64.decodeB_debug ..) (Base64.decodeB_agrees ..) (Base64.decodeB_na ..),
    off (Base64.decodePointsB_debug ..) (Base64.decodePointsB_agrees ..) (Base64.decodePointsB_na ..)⟩

section
variable {B : Type} [One B] [NatCast B] [Zero B] [Add B] [Sub B] [Mul B] [Neg B] [Cmath B] [CmathNeverAsserts B]

/-- C115. Dual numbers, with any numbers of derivatives. -/
theorem C115_no_assertion_dual (x : List B) (e : DExpr B) (a b : ADT B) (v : B) (n i : ℕ) :
    AssertionsOff (e.run x) (e.runB .release x) ∧
    AssertionsOff (ADT.active v n i) (ADT.activeB .release v n i) ∧
    AssertionsOff (a.add b) (a.addB .release b) ∧
    AssertionsOff (a.addAssign b) (a.addAssignB .release b) ∧
    AssertionsOff (a.sub b) (a.subB .release b) ∧
    AssertionsOff (a.mul b) (a.mulB .release b) ∧
    AssertionsOff (a.mulAssign b) (a.mulAssignB .release b) ∧
    AssertionsOff (a.div b) (a.divB .release b) ∧
    AssertionsOff (a.divAssign b) (a.divAssignB .release b) ∧
    AssertionsOff (a.pow b) (a.powB .release b) ∧
    AssertionsOff (a.addAssignSelf) (a.addAssignSelfB .release) ∧
    AssertionsOff (a.mulAssignSelf) (a.mulAssignSelfB .release) ∧
    AssertionsOff (a.divAssignSelf) (a.divAssignSelfB .release) :=
  ⟨off (DExpr.runB_debug ..) (DExpr.runB_agrees ..) (DExpr.runB_na ..),
    off (ADT.activeB_debug ..) (ADT.activeB_agrees ..) (ADT.activeB_na ..),
    off (ADT.addB_debug ..) (ADT.addB_agrees ..) (ADT.addB_na ..),
    off (ADT.addAssignB_debug ..) (ADT.addAssignB_agrees ..) (ADT.addAssignB_na ..),
    off (ADT.subB_debug ..) (ADT.subB_agrees ..) (ADT.subB_na ..),
    off (ADT.mulB_debug ..) (ADT.mulB_agrees ..) (ADT.mulB_na ..),
    off (ADT.mulAssignB_debug ..) (ADT.mulAssignB_agrees ..) (ADT.mulAssignB_na ..),
    off (ADT.divB_debug ..) (ADT.divB_agrees ..) (ADT.divB_na ..),
    off (ADT.divAssignB_debug ..) (ADT.divAssignB_agrees ..) (ADT.divAssignB_na ..),
    off (ADT.powB_debug ..) (ADT.powB_agrees ..) (ADT.powB_na ..),
    off (ADT.addAssignSelfB_debug ..) (ADT.addAssignSelfB_agrees ..) (ADT.addAssignSelfB_na ..),
    off (ADT.mulAssignSelfB_debug ..) (ADT.mulAssignSelfB_agrees ..) (ADT.mulAssignSelfB_na ..),
    off (ADT.divAssignSelfB_debug ..) (ADT.divAssignSelfB_agrees ..) (ADT.divAssignSelfB_na ..)⟩

end

noncomputable instance : CmathNeverAsserts ℝ where
  div _ _ := by simp only [Cmath.div]; split <;> nofun
  exp _ := nofun
  log _ := by simp only [Cmath.log]; split <;> nofun
  log10 _ := by simp only [Cmath.log10]; split <;> nofun
  sqrt _ := by simp only [Cmath.sqrt]; split <;> nofun
  sin _ := nofun
  cos _ := nofun
  tan _ := by simp only [Cmath.tan]; split <;> nofun
  asin _ := by simp only [Cmath.asin]; split <;> nofun
  acos _ := by simp only [Cmath.acos]; split <;> nofun
  atan _ := nofun
  pow _ _ := by
    simp only [Cmath.pow]
    split
    · nofun
    · split <;> split <;> nofun

/-- in a debug build the assertion on the numbers of derivatives fails, in a release build there is undefined behaviour instead -/
example : (⟨1, [2, 3]⟩ : ADT ℝ).mulB .release ⟨3, []⟩ ≠ .error .assertFail ∧ (⟨1, [2, 3]⟩ : ADT ℝ).mul ⟨3, []⟩ = .error .assertFail :=
  ⟨(C115_no_assertion_dual [] (.var 0) _ _ 0 0 0).2.2.2.2.2.1.1, rfl⟩

/-- elevation of a rational spline whose numerator and denominator have different degrees -/
example : let r : RSpline ℚ ℚ := ⟨Ex.line 1 2, Ex.curve 1 1 1⟩
    r.orderElevate 0 = .error .assertFail ∧ r.orderElevateB .release 0 ≠ .error .assertFail := by
  refine ⟨by decide +kernel, ?_⟩
  exact (RSpline.orderElevateB_na _ _).ne

end Bezman.Props
