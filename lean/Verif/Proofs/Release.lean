import Verif.Model.Release
import Verif.Spec.Release
import Verif.Proofs.Basic

/-! # Debug and release builds: agreement of all functions -/

set_option linter.unusedSectionVars false

namespace Bezman
open Spec

namespace Spec.Agrees

theorem refl {α : Type} (m : M α) : Agrees m m := .inl rfl

theorem assert (b : Bool) : Agrees (Build.debug.assert b) (Build.release.assert b) := by
  cases b
  · exact .inr rfl
  · exact .inl rfl

theorem bind {α β : Type} {m r : M α} {f g : α → M β} (h : Agrees m r) (hf : ∀ x, Agrees (f x) (g x)) : Agrees (m >>= f) (r >>= g) := by
  rcases h with rfl | rfl
  · cases m with
    | error e => exact .inl rfl
    | ok x => exact hf x
  · exact .inr rfl

theorem loop {σ : Type} {f g : Nat → σ → M σ} (h : ∀ i s, Agrees (f i s) (g i s)) : ∀ (n : Nat) (s : σ), Agrees (Bezman.loop n f s) (Bezman.loop n g s)
  | 0, s => refl _
  | n + 1, s => bind (loop h n s) fun x => h n x

theorem loopFrom {σ : Type} {a b : Nat} {f g : Nat → σ → M σ} {s : σ} (h : ∀ i s, Agrees (f i s) (g i s)) :
    Agrees (Bezman.loopFrom a b f s) (Bezman.loopFrom a b g s) := loop (fun i s => h _ s) _ _

theorem ite {α : Type} {c : Prop} [Decidable c] {m r m' r' : M α} (h : Agrees m m') (h' : Agrees r r') :
    Agrees (if c then m else r) (if c then m' else r') := by
  split
  · exact h
  · exact h'

end Spec.Agrees

theorem Build.debug_assert (b : Bool) : Build.debug.assert b = assertM b := rfl

/-- the functions whose agreement is already proved -/
syntax "agrees_known" : tactic
macro_rules | `(tactic| agrees_known) => `(tactic| with_reducible exact Agrees.refl _)
macro_rules | `(tactic| agrees_known) => `(tactic| with_reducible exact Agrees.assert _)

/-- follows the structure of a function -/
macro "agrees" : tactic => `(tactic| repeat' (first
  | agrees_known
  | (with_reducible refine Agrees.bind ?_ fun _ => ?_)
  | (with_reducible refine Agrees.loop (fun _ _ => ?_) _ _)
  | (with_reducible refine Agrees.loopFrom fun _ _ => ?_)
  | (with_reducible refine Agrees.ite ?_ ?_)
  | intro _))


/-! ## Binomial -/

section

theorem chooseB_debug (cfg : Cfg) (n i : Nat) :
    chooseB .debug cfg n i = choose cfg n i := by
  simp only [chooseB, choose, Build.debug_assert]

theorem chooseB_agrees (cfg : Cfg) (n i : Nat) :
    Agrees (chooseB .debug cfg n i) (chooseB .release cfg n i) := by
  unfold chooseB
  agrees

macro_rules | `(tactic| agrees_known) => `(tactic| with_reducible exact chooseB_agrees ..)

end

/-! ## Bernstein -/

section

section
variable {K : Type} [Zero K] [One K] [Add K] [Sub K] [Mul K] [Neg K] [NatCast K]

theorem bernsteinEvaluateB_debug (cfg : Cfg) (degree : Nat) (value : K) :
    bernsteinEvaluateB .debug cfg degree value = bernsteinEvaluate cfg degree value := by
  simp only [bernsteinEvaluateB, bernsteinEvaluate, Build.debug_assert, chooseB_debug]

theorem bernsteinEvaluateB_agrees (cfg : Cfg) (degree : Nat) (value : K) :
    Agrees (bernsteinEvaluateB .debug cfg degree value) (bernsteinEvaluateB .release cfg degree value) := by
  unfold bernsteinEvaluateB
  agrees

macro_rules | `(tactic| agrees_known) => `(tactic| with_reducible exact bernsteinEvaluateB_agrees ..)

theorem bernsteinEvaluateDerivativeB_debug (cfg : Cfg) (degree : Nat) (value : K) (deriv : Nat) :
    bernsteinEvaluateDerivativeB .debug cfg degree value deriv = bernsteinEvaluateDerivative cfg degree value deriv := by
  simp only [bernsteinEvaluateDerivativeB, bernsteinEvaluateDerivative, Build.debug_assert, chooseB_debug, bernsteinEvaluateB_debug]

theorem bernsteinEvaluateDerivativeB_agrees (cfg : Cfg) (degree : Nat) (value : K) (deriv : Nat) :
    Agrees (bernsteinEvaluateDerivativeB .debug cfg degree value deriv) (bernsteinEvaluateDerivativeB .release cfg degree value deriv) := by
  unfold bernsteinEvaluateDerivativeB
  agrees

macro_rules | `(tactic| agrees_known) => `(tactic| with_reducible exact bernsteinEvaluateDerivativeB_agrees ..)

end

end

/-! ## Spline -/

section

namespace Spline
variable {K V : Type}

theorem ofPointsB_debug (deg : List Nat) (points : List V) :
    ofPointsB .debug deg points = ofPoints deg points := by
  simp only [ofPointsB, ofPoints, Build.debug_assert]

theorem ofPointsB_agrees (deg : List Nat) (points : List V) :
    Agrees (ofPointsB .debug deg points) (ofPointsB .release deg points) := by
  unfold ofPointsB
  agrees

macro_rules | `(tactic| agrees_known) => `(tactic| with_reducible exact Spline.ofPointsB_agrees ..)

section basis
variable [Zero K] [One K] [Add K] [Sub K] [Mul K] [Neg K] [NatCast K]

theorem basisFunctionContributionsB_debug (cfg : Cfg) (s : Spline V) (t : List K) :
    basisFunctionContributionsB .debug cfg s t = basisFunctionContributions cfg s t := by
  simp only [basisFunctionContributionsB, basisFunctionContributions, bernsteinEvaluateB_debug]

theorem basisFunctionContributionsB_agrees (cfg : Cfg) (s : Spline V) (t : List K) :
    Agrees (basisFunctionContributionsB .debug cfg s t) (basisFunctionContributionsB .release cfg s t) := by
  unfold basisFunctionContributionsB
  agrees

macro_rules | `(tactic| agrees_known) => `(tactic| with_reducible exact Spline.basisFunctionContributionsB_agrees ..)

theorem basisFunctionsB_debug (cfg : Cfg) (s : Spline V) (t : List K) :
    basisFunctionsB .debug cfg s t = basisFunctions cfg s t := by
  simp only [basisFunctionsB, basisFunctions, Spline.basisFunctionContributionsB_debug]

theorem basisFunctionsB_agrees (cfg : Cfg) (s : Spline V) (t : List K) :
    Agrees (basisFunctionsB .debug cfg s t) (basisFunctionsB .release cfg s t) := by
  unfold basisFunctionsB
  agrees

macro_rules | `(tactic| agrees_known) => `(tactic| with_reducible exact Spline.basisFunctionsB_agrees ..)

theorem basisFunctionsDerivativeContributionsB_debug (cfg : Cfg) (s : Spline V) (t : List K) (nth_derivs : List Nat) :
    basisFunctionsDerivativeContributionsB .debug cfg s t nth_derivs = basisFunctionsDerivativeContributions cfg s t nth_derivs := by
  simp only [basisFunctionsDerivativeContributionsB, basisFunctionsDerivativeContributions, bernsteinEvaluateDerivativeB_debug]

theorem basisFunctionsDerivativeContributionsB_agrees (cfg : Cfg) (s : Spline V) (t : List K) (nth_derivs : List Nat) :
    Agrees (basisFunctionsDerivativeContributionsB .debug cfg s t nth_derivs) (basisFunctionsDerivativeContributionsB .release cfg s t nth_derivs) := by
  unfold basisFunctionsDerivativeContributionsB
  agrees

macro_rules | `(tactic| agrees_known) => `(tactic| with_reducible exact Spline.basisFunctionsDerivativeContributionsB_agrees ..)

theorem basisFunctionsDerivativesB_debug (cfg : Cfg) (s : Spline V) (t : List K) (nth_derivs : List Nat) :
    basisFunctionsDerivativesB .debug cfg s t nth_derivs = basisFunctionsDerivatives cfg s t nth_derivs := by
  simp only [basisFunctionsDerivativesB, basisFunctionsDerivatives, Spline.basisFunctionsDerivativeContributionsB_debug]

theorem basisFunctionsDerivativesB_agrees (cfg : Cfg) (s : Spline V) (t : List K) (nth_derivs : List Nat) :
    Agrees (basisFunctionsDerivativesB .debug cfg s t nth_derivs) (basisFunctionsDerivativesB .release cfg s t nth_derivs) := by
  unfold basisFunctionsDerivativesB
  agrees

macro_rules | `(tactic| agrees_known) => `(tactic| with_reducible exact Spline.basisFunctionsDerivativesB_agrees ..)

variable [Zero V] [Add V] [SMul K V]

theorem forwardEvaluateB_debug (cfg : Cfg) (s : Spline V) (t : List K) :
    forwardEvaluateB .debug cfg s t = forwardEvaluate cfg s t := by
  simp only [forwardEvaluateB, forwardEvaluate, Spline.basisFunctionsB_debug]

theorem forwardEvaluateB_agrees (cfg : Cfg) (s : Spline V) (t : List K) :
    Agrees (forwardEvaluateB .debug cfg s t) (forwardEvaluateB .release cfg s t) := by
  unfold forwardEvaluateB
  agrees

macro_rules | `(tactic| agrees_known) => `(tactic| with_reducible exact Spline.forwardEvaluateB_agrees ..)

theorem evaluateDerivativeB_debug (cfg : Cfg) (s : Spline V) (t : List K) (nth_derivs : List Nat) :
    evaluateDerivativeB .debug cfg s t nth_derivs = evaluateDerivative cfg s t nth_derivs := by
  simp only [evaluateDerivativeB, evaluateDerivative, Spline.basisFunctionsDerivativesB_debug]

theorem evaluateDerivativeB_agrees (cfg : Cfg) (s : Spline V) (t : List K) (nth_derivs : List Nat) :
    Agrees (evaluateDerivativeB .debug cfg s t nth_derivs) (evaluateDerivativeB .release cfg s t nth_derivs) := by
  unfold evaluateDerivativeB
  agrees

macro_rules | `(tactic| agrees_known) => `(tactic| with_reducible exact Spline.evaluateDerivativeB_agrees ..)

end basis

end Spline
end

/-! ## Elevate -/

section
namespace Spline
variable {K V : Type}

section
variable [One K] [Neg K] [Mul K] [NatCast K] [Zero V] [Add V] [SMul K V]

variable (K) in
theorem derivativeSplineB_debug (cfg : Cfg) (s : Spline V) (orders : List Nat) :
    derivativeSplineB K .debug cfg s orders = derivativeSpline K cfg s orders := by
  simp only [derivativeSplineB, derivativeSpline, chooseB_debug]

variable (K) in
theorem derivativeSplineB_agrees (cfg : Cfg) (s : Spline V) (orders : List Nat) :
    Agrees (derivativeSplineB K .debug cfg s orders) (derivativeSplineB K .release cfg s orders) := by
  unfold derivativeSplineB
  agrees

macro_rules | `(tactic| agrees_known) => `(tactic| with_reducible exact Spline.derivativeSplineB_agrees ..)

end
end Spline
end

/-! ## Arith -/

section
namespace Spline
variable {K V W U : Type}

section
variable [One K] [Sub K] [Mul K] [Div K] [NatCast K] [Zero V] [Add V] [SMul K V]

variable (K) in
theorem addAuxB_debug (cfg : Cfg) : ∀ (n : Nat) (s rhs : Spline V), addAuxB K .debug cfg n s rhs = addAux K cfg n s rhs
  | 0, _, _ => rfl
  | n + 1, s, rhs => by simp only [addAuxB, addAux, addAuxB_debug cfg n, ofPointsB_debug]

variable (K) in
theorem addAuxB_agrees (cfg : Cfg) : ∀ (n : Nat) (s rhs : Spline V), Agrees (addAuxB K .debug cfg n s rhs) (addAuxB K .release cfg n s rhs)
  | 0, _, _ => Agrees.refl _
  | n + 1, s, rhs => by
    have ih := addAuxB_agrees cfg n
    unfold addAuxB
    agrees
    exact ih _ _

macro_rules | `(tactic| agrees_known) => `(tactic| with_reducible exact Spline.addAuxB_agrees ..)

variable (K) in
theorem addOpB_debug (cfg : Cfg) (s rhs : Spline V) :
    addOpB K .debug cfg s rhs = addOp K cfg s rhs := by
  simp only [addOpB, addOp, Spline.addAuxB_debug]

variable (K) in
theorem addOpB_agrees (cfg : Cfg) (s rhs : Spline V) :
    Agrees (addOpB K .debug cfg s rhs) (addOpB K .release cfg s rhs) := by
  unfold addOpB
  agrees

macro_rules | `(tactic| agrees_known) => `(tactic| with_reducible exact Spline.addOpB_agrees ..)

variable (K) in
theorem subOpB_debug [Sub V] (cfg : Cfg) (s rhs : Spline V) :
    subOpB K .debug cfg s rhs = subOp K cfg s rhs := by
  simp only [subOpB, subOp, Spline.ofPointsB_debug]

variable (K) in
theorem subOpB_agrees [Sub V] (cfg : Cfg) (s rhs : Spline V) :
    Agrees (subOpB K .debug cfg s rhs) (subOpB K .release cfg s rhs) := by
  unfold subOpB
  agrees

macro_rules | `(tactic| agrees_known) => `(tactic| with_reducible exact Spline.subOpB_agrees ..)

end

section
variable [One K] [Mul K] [Div K] [NatCast K] [Zero U] [Add U] [SMul K U]

theorem combineForProductB_debug (cfg : Cfg) (mul : V → W → U) (P : Spline V) (Q : Spline W) (ctpsIndex : List Nat) :
    ∀ (n : Nat) (factor : K) (indices : List Nat) (R : Spline U),
    combineForProductB .debug cfg mul P Q ctpsIndex n factor indices R = combineForProduct cfg mul P Q ctpsIndex n factor indices R
  | 0, _, _, _ => by simp only [combineForProductB, combineForProduct, chooseB_debug]
  | n + 1, _, _, _ => by
    simp only [combineForProductB, combineForProduct, chooseB_debug, combineForProductB_debug cfg mul P Q ctpsIndex n]

theorem combineForProductB_agrees (cfg : Cfg) (mul : V → W → U) (P : Spline V) (Q : Spline W) (ctpsIndex : List Nat) :
    ∀ (n : Nat) (factor : K) (indices : List Nat) (R : Spline U),
    Agrees (combineForProductB .debug cfg mul P Q ctpsIndex n factor indices R) (combineForProductB .release cfg mul P Q ctpsIndex n factor indices R)
  | 0, _, _, _ => by
    unfold combineForProductB
    agrees
  | n + 1, _, _, _ => by
    have ih := combineForProductB_agrees cfg mul P Q ctpsIndex n
    unfold combineForProductB
    agrees
    exact ih _ _ _

macro_rules | `(tactic| agrees_known) => `(tactic| with_reducible exact Spline.combineForProductB_agrees ..)

variable (K) in
theorem mulOpB_debug (cfg : Cfg) (mul : V → W → U) (s : Spline V) (rhs : Spline W) :
    mulOpB K .debug cfg mul s rhs = mulOp K cfg mul s rhs := by
  simp only [mulOpB, mulOp, Spline.combineForProductB_debug]

variable (K) in
theorem mulOpB_agrees (cfg : Cfg) (mul : V → W → U) (s : Spline V) (rhs : Spline W) :
    Agrees (mulOpB K .debug cfg mul s rhs) (mulOpB K .release cfg mul s rhs) := by
  unfold mulOpB
  agrees

macro_rules | `(tactic| agrees_known) => `(tactic| with_reducible exact Spline.mulOpB_agrees ..)

end

section
variable [Zero K] [One K] [Add K] [Mul K] [Div K] [NatCast K]

theorem mulScalarB_debug (cfg : Cfg) (s rhs : Spline K) :
    mulScalarB .debug cfg s rhs = mulScalar cfg s rhs := by
  simp only [mulScalarB, mulScalar, Spline.mulOpB_debug]

theorem mulScalarB_agrees (cfg : Cfg) (s rhs : Spline K) :
    Agrees (mulScalarB .debug cfg s rhs) (mulScalarB .release cfg s rhs) := by
  unfold mulScalarB
  agrees

macro_rules | `(tactic| agrees_known) => `(tactic| with_reducible exact Spline.mulScalarB_agrees ..)

theorem oneSplineB_debug (dim : Nat) :
    oneSplineB (K := K) .debug dim = oneSpline (K := K) dim := by
  simp only [oneSplineB, oneSpline, Spline.ofPointsB_debug]

theorem oneSplineB_agrees (dim : Nat) :
    Agrees (oneSplineB (K := K) .debug dim) (oneSplineB (K := K) .release dim) := by
  unfold oneSplineB
  agrees

macro_rules | `(tactic| agrees_known) => `(tactic| with_reducible exact Spline.oneSplineB_agrees ..)

theorem raisePowerAuxB_debug (cfg : Cfg) (s : Spline K) : ∀ (n power : Nat), raisePowerAuxB .debug cfg s n power = raisePowerAux cfg s n power
  | 0, _ => rfl
  | n + 1, _ => by simp only [raisePowerAuxB, raisePowerAux, raisePowerAuxB_debug cfg s n, mulScalarB_debug, oneSplineB_debug]

theorem raisePowerAuxB_agrees (cfg : Cfg) (s : Spline K) :
    ∀ (n power : Nat), Agrees (raisePowerAuxB .debug cfg s n power) (raisePowerAuxB .release cfg s n power)
  | 0, _ => Agrees.refl _
  | n + 1, _ => by
    have ih := raisePowerAuxB_agrees cfg s n
    unfold raisePowerAuxB
    agrees
    exact ih _

macro_rules | `(tactic| agrees_known) => `(tactic| with_reducible exact Spline.raisePowerAuxB_agrees ..)

theorem raisePowerB_debug (cfg : Cfg) (s : Spline K) (power : Nat) :
    raisePowerB .debug cfg s power = raisePower cfg s power := by
  simp only [raisePowerB, raisePower, Spline.raisePowerAuxB_debug]

theorem raisePowerB_agrees (cfg : Cfg) (s : Spline K) (power : Nat) :
    Agrees (raisePowerB .debug cfg s power) (raisePowerB .release cfg s power) := by
  unfold raisePowerB
  agrees

macro_rules | `(tactic| agrees_known) => `(tactic| with_reducible exact Spline.raisePowerB_agrees ..)

end

end Spline
end

/-! ## Compose -/

section
namespace Spline
variable {K V W : Type}

section
variable [Zero K] [One K] [Add K] [Sub K] [Mul K] [Neg K] [Div K] [NatCast K]

theorem composeBernsteinB_debug (cfg : Cfg) (p : Nat) (innerDim : Nat) (extracted inverse : Spline K) :
    composeBernsteinB .debug cfg p innerDim extracted inverse = composeBernstein cfg p innerDim extracted inverse := by
  simp only [composeBernsteinB, composeBernstein, chooseB_debug, Spline.mulScalarB_debug, Spline.oneSplineB_debug]

theorem composeBernsteinB_agrees (cfg : Cfg) (p : Nat) (innerDim : Nat) (extracted inverse : Spline K) :
    Agrees (composeBernsteinB .debug cfg p innerDim extracted inverse) (composeBernsteinB .release cfg p innerDim extracted inverse) := by
  unfold composeBernsteinB
  agrees

macro_rules | `(tactic| agrees_known) => `(tactic| with_reducible exact Spline.composeBernsteinB_agrees ..)

theorem composeBasesB_debug (cfg : Cfg) (degrees : List Nat) (innerDim : Nat) (extract : Nat → M (Spline K)) (inverse : Spline K → M (Spline K)) :
    composeBasesB .debug cfg degrees innerDim extract inverse = composeBases cfg degrees innerDim extract inverse := by
  simp only [composeBasesB, composeBases, Spline.composeBernsteinB_debug]

theorem composeBasesB_agrees (cfg : Cfg) (degrees : List Nat) (innerDim : Nat) (extract : Nat → M (Spline K)) (inverse inverse' : Spline K → M (Spline K)) (h : ∀ e, Agrees (inverse e) (inverse' e)) :
    Agrees (composeBasesB .debug cfg degrees innerDim extract inverse) (composeBasesB .release cfg degrees innerDim extract inverse') := by
  unfold composeBasesB
  agrees
  exact h _

macro_rules | `(tactic| agrees_known) => `(tactic| (with_reducible apply Spline.composeBasesB_agrees))

theorem composeTensorB_debug (cfg : Cfg) (bases : List (List (Spline K))) (idx : List Nat) :
    composeTensorB .debug cfg bases idx = composeTensor cfg bases idx := by
  simp only [composeTensorB, composeTensor, Spline.mulScalarB_debug]

theorem composeTensorB_agrees (cfg : Cfg) (bases : List (List (Spline K))) (idx : List Nat) :
    Agrees (composeTensorB .debug cfg bases idx) (composeTensorB .release cfg bases idx) := by
  unfold composeTensorB
  agrees

macro_rules | `(tactic| agrees_known) => `(tactic| with_reducible exact Spline.composeTensorB_agrees ..)

variable [Zero V] [Add V] [SMul K V]

theorem composeNumeratorB_debug (cfg : Cfg) (s : Spline V) (innerDegrees : List Nat) (extract : Nat → M (Spline K)) (inverse : Spline K → M (Spline K)) :
    composeNumeratorB .debug cfg s innerDegrees extract inverse = composeNumerator cfg s innerDegrees extract inverse := by
  simp only [composeNumeratorB, composeNumerator, Build.debug_assert, Spline.composeBasesB_debug, Spline.composeTensorB_debug]

theorem composeNumeratorB_agrees (cfg : Cfg) (s : Spline V) (innerDegrees : List Nat) (extract : Nat → M (Spline K)) (inverse inverse' : Spline K → M (Spline K)) (h : ∀ e, Agrees (inverse e) (inverse' e)) :
    Agrees (composeNumeratorB .debug cfg s innerDegrees extract inverse) (composeNumeratorB .release cfg s innerDegrees extract inverse') := by
  unfold composeNumeratorB
  agrees
  exact h _

macro_rules | `(tactic| agrees_known) => `(tactic| (with_reducible apply Spline.composeNumeratorB_agrees))

omit [Zero V] [Add V] [SMul K V] in
theorem composeNumeratorSensitivityB_debug (cfg : Cfg) (s : Spline V) (innerDegrees : List Nat) (extract : Nat → M (Spline K)) (inverse : Spline K → M (Spline K)) :
    composeNumeratorSensitivityB .debug cfg s innerDegrees extract inverse = composeNumeratorSensitivity cfg s innerDegrees extract inverse := by
  simp only [composeNumeratorSensitivityB, composeNumeratorSensitivity, Spline.composeBasesB_debug, Spline.composeTensorB_debug]

omit [Zero V] [Add V] [SMul K V] in
theorem composeNumeratorSensitivityB_agrees (cfg : Cfg) (s : Spline V) (innerDegrees : List Nat) (extract : Nat → M (Spline K)) (inverse inverse' : Spline K → M (Spline K)) (h : ∀ e, Agrees (inverse e) (inverse' e)) :
    Agrees (composeNumeratorSensitivityB .debug cfg s innerDegrees extract inverse) (composeNumeratorSensitivityB .release cfg s innerDegrees extract inverse') := by
  unfold composeNumeratorSensitivityB
  agrees
  exact h _

macro_rules | `(tactic| agrees_known) => `(tactic| (with_reducible apply Spline.composeNumeratorSensitivityB_agrees))

variable [Coords K W] [LT K] [DecidableLT K]

variable (K) in
theorem composeB_debug (cfg : Cfg) (s : Spline V) (inner : Spline W) :
    composeB K .debug cfg s inner = compose K cfg s inner := by
  simp only [composeB, compose, Spline.composeNumeratorB_debug]

variable (K) in
theorem composeB_agrees (cfg : Cfg) (s : Spline V) (inner : Spline W) :
    Agrees (composeB K .debug cfg s inner) (composeB K .release cfg s inner) := by
  unfold composeB
  agrees

macro_rules | `(tactic| agrees_known) => `(tactic| with_reducible exact Spline.composeB_agrees ..)

omit [Zero V] [Add V] [SMul K V] in
variable (K) in
theorem composeSensitivityB_debug (cfg : Cfg) (s : Spline V) (inner : Spline W) :
    composeSensitivityB K .debug cfg s inner = composeSensitivity K cfg s inner := by
  simp only [composeSensitivityB, composeSensitivity, Spline.composeNumeratorSensitivityB_debug]

omit [Zero V] [Add V] [SMul K V] in
variable (K) in
theorem composeSensitivityB_agrees (cfg : Cfg) (s : Spline V) (inner : Spline W) :
    Agrees (composeSensitivityB K .debug cfg s inner) (composeSensitivityB K .release cfg s inner) := by
  unfold composeSensitivityB
  agrees

macro_rules | `(tactic| agrees_known) => `(tactic| with_reducible exact Spline.composeSensitivityB_agrees ..)

end
end Spline
end

/-! ## Rational -/

section

namespace RSpline
variable {K V W U : Type}

theorem ofSplinesB_debug (num : Spline V) (wt : Spline K) :
    ofSplinesB .debug num wt = ofSplines num wt := by
  simp only [ofSplinesB, ofSplines, Build.debug_assert]

theorem ofSplinesB_agrees (num : Spline V) (wt : Spline K) :
    Agrees (ofSplinesB .debug num wt) (ofSplinesB .release num wt) := by
  unfold ofSplinesB
  agrees

macro_rules | `(tactic| agrees_known) => `(tactic| with_reducible exact RSpline.ofSplinesB_agrees ..)

theorem ofSplineB_debug [One K] (s : Spline V) :
    ofSplineB (K := K) .debug s = ofSpline (K := K) s := by
  simp only [ofSplineB, ofSpline, Build.debug_assert, Spline.ofPointsB_debug]

theorem ofSplineB_agrees [One K] (s : Spline V) :
    Agrees (ofSplineB (K := K) .debug s) (ofSplineB (K := K) .release s) := by
  unfold ofSplineB
  agrees

macro_rules | `(tactic| agrees_known) => `(tactic| with_reducible exact RSpline.ofSplineB_agrees ..)

theorem ofPointsB_debug [Zero V] [SMul K V] (deg : List Nat) (points : List V) (weights : List K) :
    ofPointsB .debug deg points weights = ofPoints deg points weights := by
  simp only [ofPointsB, ofPoints, Build.debug_assert, Spline.ofPointsB_debug]

theorem ofPointsB_agrees [Zero V] [SMul K V] (deg : List Nat) (points : List V) (weights : List K) :
    Agrees (ofPointsB .debug deg points weights) (ofPointsB .release deg points weights) := by
  unfold ofPointsB
  agrees

macro_rules | `(tactic| agrees_known) => `(tactic| with_reducible exact RSpline.ofPointsB_agrees ..)

theorem updateDegreesB_debug [Zero K] [Zero V] (r : RSpline K V) (new_degrees : List Nat) :
    updateDegreesB .debug r new_degrees = updateDegrees r new_degrees := by
  simp only [updateDegreesB, updateDegrees, Build.debug_assert]

theorem updateDegreesB_agrees [Zero K] [Zero V] (r : RSpline K V) (new_degrees : List Nat) :
    Agrees (updateDegreesB .debug r new_degrees) (updateDegreesB .release r new_degrees) := by
  unfold updateDegreesB
  agrees

macro_rules | `(tactic| agrees_known) => `(tactic| with_reducible exact RSpline.updateDegreesB_agrees ..)

section
variable [Zero K] [One K] [Add K] [Sub K] [Mul K] [Neg K] [Div K] [NatCast K]

theorem unweightedBasisFunctionsB_debug [BEq K] (cfg : Cfg) (r : RSpline K V) (t : List K) :
    unweightedBasisFunctionsB .debug cfg r t = unweightedBasisFunctions cfg r t := by
  simp only [unweightedBasisFunctionsB, unweightedBasisFunctions, Build.debug_assert, Spline.basisFunctionsB_debug]

theorem unweightedBasisFunctionsB_agrees [BEq K] (cfg : Cfg) (r : RSpline K V) (t : List K) :
    Agrees (unweightedBasisFunctionsB .debug cfg r t) (unweightedBasisFunctionsB .release cfg r t) := by
  unfold unweightedBasisFunctionsB
  agrees

macro_rules | `(tactic| agrees_known) => `(tactic| with_reducible exact RSpline.unweightedBasisFunctionsB_agrees ..)

theorem basisFunctionsB_debug [BEq K] (cfg : Cfg) (r : RSpline K V) (t : List K) :
    basisFunctionsB .debug cfg r t = basisFunctions cfg r t := by
  simp only [basisFunctionsB, basisFunctions, Build.debug_assert, RSpline.unweightedBasisFunctionsB_debug]

theorem basisFunctionsB_agrees [BEq K] (cfg : Cfg) (r : RSpline K V) (t : List K) :
    Agrees (basisFunctionsB .debug cfg r t) (basisFunctionsB .release cfg r t) := by
  unfold basisFunctionsB
  agrees

macro_rules | `(tactic| agrees_known) => `(tactic| with_reducible exact RSpline.basisFunctionsB_agrees ..)

theorem basisFunctionContributionsB_debug (cfg : Cfg) (r : RSpline K V) (t : List K) :
    basisFunctionContributionsB .debug cfg r t = basisFunctionContributions cfg r t := by
  simp only [basisFunctionContributionsB, basisFunctionContributions, Spline.basisFunctionContributionsB_debug]

theorem basisFunctionContributionsB_agrees (cfg : Cfg) (r : RSpline K V) (t : List K) :
    Agrees (basisFunctionContributionsB .debug cfg r t) (basisFunctionContributionsB .release cfg r t) := by
  unfold basisFunctionContributionsB
  agrees

macro_rules | `(tactic| agrees_known) => `(tactic| with_reducible exact RSpline.basisFunctionContributionsB_agrees ..)

theorem forwardEvaluateB_debug [Zero V] [Add V] [SMul K V] (cfg : Cfg) (r : RSpline K V) (t : List K) :
    forwardEvaluateB .debug cfg r t = forwardEvaluate cfg r t := by
  simp only [forwardEvaluateB, forwardEvaluate, Build.debug_assert, Spline.basisFunctionsB_debug, RSpline.basisFunctionsB_debug]

theorem forwardEvaluateB_agrees [Zero V] [Add V] [SMul K V] (cfg : Cfg) (r : RSpline K V) (t : List K) :
    Agrees (forwardEvaluateB .debug cfg r t) (forwardEvaluateB .release cfg r t) := by
  unfold forwardEvaluateB
  agrees

macro_rules | `(tactic| agrees_known) => `(tactic| with_reducible exact RSpline.forwardEvaluateB_agrees ..)

end

section
variable [Zero K] [One K] [Add K] [Sub K] [Mul K] [Div K] [NatCast K] [Zero V] [Add V] [SMul K V]

theorem orderElevateB_debug (r : RSpline K V) (par_dim : Nat) :
    orderElevateB .debug r par_dim = orderElevate r par_dim := by
  simp only [orderElevateB, orderElevate, Build.debug_assert]

theorem orderElevateB_agrees (r : RSpline K V) (par_dim : Nat) :
    Agrees (orderElevateB .debug r par_dim) (orderElevateB .release r par_dim) := by
  unfold orderElevateB
  agrees

macro_rules | `(tactic| agrees_known) => `(tactic| with_reducible exact RSpline.orderElevateB_agrees ..)

omit [Div K] [NatCast K] [Zero V] in
theorem splitAtB_debug [LT K] [DecidableLT K] (r : RSpline K V) (plane : K) (sd : Nat) :
    splitAtB .debug r plane sd = splitAt r plane sd := by
  simp only [splitAtB, splitAt, RSpline.ofSplinesB_debug]

omit [Div K] [NatCast K] [Zero V] in
theorem splitAtB_agrees [LT K] [DecidableLT K] (r : RSpline K V) (plane : K) (sd : Nat) :
    Agrees (splitAtB .debug r plane sd) (splitAtB .release r plane sd) := by
  unfold splitAtB
  agrees

macro_rules | `(tactic| agrees_known) => `(tactic| with_reducible exact RSpline.splitAtB_agrees ..)

omit [NatCast K] [Zero V] in
theorem splitAtManyB_debug [LT K] [DecidableLT K] (r : RSpline K V) (planes : List K) (sd : Nat) :
    splitAtManyB .debug r planes sd = splitAtMany r planes sd := by
  simp only [splitAtManyB, splitAtMany, RSpline.splitAtB_debug]

omit [NatCast K] [Zero V] in
theorem splitAtManyB_agrees [LT K] [DecidableLT K] (r : RSpline K V) (planes : List K) (sd : Nat) :
    Agrees (splitAtManyB .debug r planes sd) (splitAtManyB .release r planes sd) := by
  unfold splitAtManyB
  agrees

macro_rules | `(tactic| agrees_known) => `(tactic| with_reducible exact RSpline.splitAtManyB_agrees ..)

end

theorem smulAssignB_debug [SMul K V] (r : RSpline K V) (c : K) :
    smulAssignB .debug r c = smulAssign r c := by
  simp only [smulAssignB, smulAssign, Build.debug_assert]

theorem smulAssignB_agrees [SMul K V] (r : RSpline K V) (c : K) :
    Agrees (smulAssignB .debug r c) (smulAssignB .release r c) := by
  unfold smulAssignB
  agrees

macro_rules | `(tactic| agrees_known) => `(tactic| with_reducible exact RSpline.smulAssignB_agrees ..)

theorem smulOpB_debug [SMul K V] (r : RSpline K V) (c : K) :
    smulOpB .debug r c = smulOp r c := by
  simp only [smulOpB, smulOp, RSpline.ofSplinesB_debug]

theorem smulOpB_agrees [SMul K V] (r : RSpline K V) (c : K) :
    Agrees (smulOpB .debug r c) (smulOpB .release r c) := by
  unfold smulOpB
  agrees

macro_rules | `(tactic| agrees_known) => `(tactic| with_reducible exact RSpline.smulOpB_agrees ..)

theorem addPointAssignB_debug [Add V] [SMul K V] (r : RSpline K V) (pt : V) :
    addPointAssignB .debug r pt = addPointAssign r pt := by
  simp only [addPointAssignB, addPointAssign, Build.debug_assert]

theorem addPointAssignB_agrees [Add V] [SMul K V] (r : RSpline K V) (pt : V) :
    Agrees (addPointAssignB .debug r pt) (addPointAssignB .release r pt) := by
  unfold addPointAssignB
  agrees

macro_rules | `(tactic| agrees_known) => `(tactic| with_reducible exact RSpline.addPointAssignB_agrees ..)

theorem addPointB_debug [Add V] [SMul K V] (r : RSpline K V) (pt : V) :
    addPointB .debug r pt = addPoint r pt := by
  simp only [addPointB, addPoint, RSpline.ofSplinesB_debug, RSpline.addPointAssignB_debug]

theorem addPointB_agrees [Add V] [SMul K V] (r : RSpline K V) (pt : V) :
    Agrees (addPointB .debug r pt) (addPointB .release r pt) := by
  unfold addPointB
  agrees

macro_rules | `(tactic| agrees_known) => `(tactic| with_reducible exact RSpline.addPointB_agrees ..)

theorem subPointB_debug [Sub V] [SMul K V] (r : RSpline K V) (pt : V) :
    subPointB .debug r pt = subPoint r pt := by
  simp only [subPointB, subPoint, RSpline.ofSplinesB_debug]

theorem subPointB_agrees [Sub V] [SMul K V] (r : RSpline K V) (pt : V) :
    Agrees (subPointB .debug r pt) (subPointB .release r pt) := by
  unfold subPointB
  agrees

macro_rules | `(tactic| agrees_known) => `(tactic| with_reducible exact RSpline.subPointB_agrees ..)

theorem negOpB_debug [Neg V] (r : RSpline K V) :
    negOpB .debug r = negOp r := by
  simp only [negOpB, negOp, RSpline.ofSplinesB_debug]

theorem negOpB_agrees [Neg V] (r : RSpline K V) :
    Agrees (negOpB .debug r) (negOpB .release r) := by
  unfold negOpB
  agrees

macro_rules | `(tactic| agrees_known) => `(tactic| with_reducible exact RSpline.negOpB_agrees ..)

section
variable [Zero K] [One K] [Add K] [Sub K] [Mul K] [Div K] [NatCast K] [Zero V] [Add V] [SMul K V]
  [BEq K]

omit [Sub K] [BEq K] in
theorem mulWeightB_debug (cfg : Cfg) (w : Spline K) (s : Spline V) :
    mulWeightB .debug cfg w s = mulWeight cfg w s := by
  simp only [mulWeightB, mulWeight, Spline.mulOpB_debug]

omit [Sub K] [BEq K] in
theorem mulWeightB_agrees (cfg : Cfg) (w : Spline K) (s : Spline V) :
    Agrees (mulWeightB .debug cfg w s) (mulWeightB .release cfg w s) := by
  unfold mulWeightB
  agrees

macro_rules | `(tactic| agrees_known) => `(tactic| with_reducible exact RSpline.mulWeightB_agrees ..)

omit [Sub K] [BEq K] in
theorem mulWeight'B_debug (cfg : Cfg) (s : Spline V) (w : Spline K) :
    mulWeight'B .debug cfg s w = mulWeight' cfg s w := by
  simp only [mulWeight'B, mulWeight', Spline.mulOpB_debug]

omit [Sub K] [BEq K] in
theorem mulWeight'B_agrees (cfg : Cfg) (s : Spline V) (w : Spline K) :
    Agrees (mulWeight'B .debug cfg s w) (mulWeight'B .release cfg s w) := by
  unfold mulWeight'B
  agrees

macro_rules | `(tactic| agrees_known) => `(tactic| with_reducible exact RSpline.mulWeight'B_agrees ..)

theorem addOpB_debug (cfg : Cfg) (r rhs : RSpline K V) :
    addOpB .debug cfg r rhs = addOp cfg r rhs := by
  simp only [addOpB, addOp, Spline.addOpB_debug, Spline.mulScalarB_debug, RSpline.ofSplinesB_debug, RSpline.mulWeightB_debug, RSpline.mulWeight'B_debug]

theorem addOpB_agrees (cfg : Cfg) (r rhs : RSpline K V) :
    Agrees (addOpB .debug cfg r rhs) (addOpB .release cfg r rhs) := by
  unfold addOpB
  agrees

macro_rules | `(tactic| agrees_known) => `(tactic| with_reducible exact RSpline.addOpB_agrees ..)

theorem addAssignB_debug (cfg : Cfg) (r rhs : RSpline K V) :
    addAssignB .debug cfg r rhs = addAssign cfg r rhs := by
  simp only [addAssignB, addAssign, Build.debug_assert, Spline.mulScalarB_debug, RSpline.mulWeightB_debug, RSpline.mulWeight'B_debug]

theorem addAssignB_agrees (cfg : Cfg) (r rhs : RSpline K V) :
    Agrees (addAssignB .debug cfg r rhs) (addAssignB .release cfg r rhs) := by
  unfold addAssignB
  agrees

macro_rules | `(tactic| agrees_known) => `(tactic| with_reducible exact RSpline.addAssignB_agrees ..)

theorem subOpB_debug [Sub V] (cfg : Cfg) (r rhs : RSpline K V) :
    subOpB .debug cfg r rhs = subOp cfg r rhs := by
  simp only [subOpB, subOp, Spline.subOpB_debug, Spline.mulScalarB_debug, RSpline.ofSplinesB_debug, RSpline.mulWeightB_debug, RSpline.mulWeight'B_debug]

theorem subOpB_agrees [Sub V] (cfg : Cfg) (r rhs : RSpline K V) :
    Agrees (subOpB .debug cfg r rhs) (subOpB .release cfg r rhs) := by
  unfold subOpB
  agrees

macro_rules | `(tactic| agrees_known) => `(tactic| with_reducible exact RSpline.subOpB_agrees ..)

theorem subAssignB_debug [Sub V] (cfg : Cfg) (r rhs : RSpline K V) :
    subAssignB .debug cfg r rhs = subAssign cfg r rhs := by
  simp only [subAssignB, subAssign, Build.debug_assert, Spline.mulScalarB_debug, RSpline.mulWeightB_debug, RSpline.mulWeight'B_debug]

theorem subAssignB_agrees [Sub V] (cfg : Cfg) (r rhs : RSpline K V) :
    Agrees (subAssignB .debug cfg r rhs) (subAssignB .release cfg r rhs) := by
  unfold subAssignB
  agrees

macro_rules | `(tactic| agrees_known) => `(tactic| with_reducible exact RSpline.subAssignB_agrees ..)

omit [Sub K] [Zero V] [Add V] [SMul K V] [BEq K] in
theorem mulOpB_debug [Zero U] [Add U] [SMul K U] (cfg : Cfg) (mul : V → W → U) (r : RSpline K V) (rhs : RSpline K W) :
    mulOpB .debug cfg mul r rhs = mulOp cfg mul r rhs := by
  simp only [mulOpB, mulOp, Spline.mulOpB_debug, Spline.mulScalarB_debug, RSpline.ofSplinesB_debug]

omit [Sub K] [Zero V] [Add V] [SMul K V] [BEq K] in
theorem mulOpB_agrees [Zero U] [Add U] [SMul K U] (cfg : Cfg) (mul : V → W → U) (r : RSpline K V) (rhs : RSpline K W) :
    Agrees (mulOpB .debug cfg mul r rhs) (mulOpB .release cfg mul r rhs) := by
  unfold mulOpB
  agrees

macro_rules | `(tactic| agrees_known) => `(tactic| with_reducible exact RSpline.mulOpB_agrees ..)

end

end RSpline

section
variable {K V W : Type} [Zero K] [One K] [Add K] [Sub K] [Mul K] [Neg K] [Div K] [NatCast K]
  [Zero V] [Add V] [SMul K V] [Coords K W]

theorem Spline.composeNumeratorRationalB_debug (cfg : Cfg) (s : Spline V) (inner : RSpline K W) :
    Spline.composeNumeratorRationalB .debug cfg s inner = Spline.composeNumeratorRational cfg s inner := by
  simp only [Spline.composeNumeratorRationalB, Spline.composeNumeratorRational, Spline.subOpB_debug, Spline.composeNumeratorB_debug, RSpline.subOpB_debug]

theorem Spline.composeNumeratorRationalB_agrees (cfg : Cfg) (s : Spline V) (inner : RSpline K W) :
    Agrees (Spline.composeNumeratorRationalB .debug cfg s inner) (Spline.composeNumeratorRationalB .release cfg s inner) := by
  unfold Spline.composeNumeratorRationalB
  agrees

macro_rules | `(tactic| agrees_known) => `(tactic| with_reducible exact Spline.composeNumeratorRationalB_agrees ..)

omit [Zero V] [Add V] [SMul K V] in
theorem Spline.composeNumeratorSensitivityRationalB_debug (cfg : Cfg) (s : Spline V) (inner : RSpline K W) :
    Spline.composeNumeratorSensitivityRationalB .debug cfg s inner = Spline.composeNumeratorSensitivityRational cfg s inner := by
  simp only [Spline.composeNumeratorSensitivityRationalB, Spline.composeNumeratorSensitivityRational, Spline.subOpB_debug, Spline.composeNumeratorSensitivityB_debug, RSpline.subOpB_debug]

omit [Zero V] [Add V] [SMul K V] in
theorem Spline.composeNumeratorSensitivityRationalB_agrees (cfg : Cfg) (s : Spline V) (inner : RSpline K W) :
    Agrees (Spline.composeNumeratorSensitivityRationalB .debug cfg s inner) (Spline.composeNumeratorSensitivityRationalB .release cfg s inner) := by
  unfold Spline.composeNumeratorSensitivityRationalB
  agrees

macro_rules | `(tactic| agrees_known) => `(tactic| with_reducible exact Spline.composeNumeratorSensitivityRationalB_agrees ..)

omit [Sub K] [Neg K] [Zero V] [Add V] [SMul K V] [Coords K W] in
theorem Spline.composeDenominatorB_debug (cfg : Cfg) (s : Spline V) (inner : RSpline K W) :
    Spline.composeDenominatorB .debug cfg s inner = Spline.composeDenominator cfg s inner := by
  simp only [Spline.composeDenominatorB, Spline.composeDenominator, Spline.raisePowerB_debug]

omit [Sub K] [Neg K] [Zero V] [Add V] [SMul K V] [Coords K W] in
theorem Spline.composeDenominatorB_agrees (cfg : Cfg) (s : Spline V) (inner : RSpline K W) :
    Agrees (Spline.composeDenominatorB .debug cfg s inner) (Spline.composeDenominatorB .release cfg s inner) := by
  unfold Spline.composeDenominatorB
  agrees

macro_rules | `(tactic| agrees_known) => `(tactic| with_reducible exact Spline.composeDenominatorB_agrees ..)

variable [BEq K] [ScalarDiv K W] [LT K] [DecidableLT K]

theorem Spline.composeRationalB_debug (cfg : Cfg) (s : Spline V) (inner : RSpline K W) :
    Spline.composeRationalB .debug cfg s inner = Spline.composeRational cfg s inner := by
  simp only [Spline.composeRationalB, Spline.composeRational, RSpline.ofSplinesB_debug, Spline.composeNumeratorRationalB_debug, Spline.composeDenominatorB_debug]

theorem Spline.composeRationalB_agrees (cfg : Cfg) (s : Spline V) (inner : RSpline K W) :
    Agrees (Spline.composeRationalB .debug cfg s inner) (Spline.composeRationalB .release cfg s inner) := by
  unfold Spline.composeRationalB
  agrees

macro_rules | `(tactic| agrees_known) => `(tactic| with_reducible exact Spline.composeRationalB_agrees ..)

omit [Zero V] [Add V] [SMul K V] in
theorem Spline.composeSensitivityRationalB_debug (cfg : Cfg) (s : Spline V) (inner : RSpline K W) :
    Spline.composeSensitivityRationalB .debug cfg s inner = Spline.composeSensitivityRational cfg s inner := by
  simp only [Spline.composeSensitivityRationalB, Spline.composeSensitivityRational, RSpline.ofSplinesB_debug, Spline.composeNumeratorSensitivityRationalB_debug, Spline.composeDenominatorB_debug]

omit [Zero V] [Add V] [SMul K V] in
theorem Spline.composeSensitivityRationalB_agrees (cfg : Cfg) (s : Spline V) (inner : RSpline K W) :
    Agrees (Spline.composeSensitivityRationalB .debug cfg s inner) (Spline.composeSensitivityRationalB .release cfg s inner) := by
  unfold Spline.composeSensitivityRationalB
  agrees

macro_rules | `(tactic| agrees_known) => `(tactic| with_reducible exact Spline.composeSensitivityRationalB_agrees ..)

omit [BEq K] [ScalarDiv K W] in
theorem RSpline.composeB_debug (cfg : Cfg) (r : RSpline K V) (inner : Spline W) :
    RSpline.composeB .debug cfg r inner = RSpline.compose cfg r inner := by
  simp only [RSpline.composeB, RSpline.compose, Spline.composeB_debug, RSpline.ofSplinesB_debug]

omit [BEq K] [ScalarDiv K W] in
theorem RSpline.composeB_agrees (cfg : Cfg) (r : RSpline K V) (inner : Spline W) :
    Agrees (RSpline.composeB .debug cfg r inner) (RSpline.composeB .release cfg r inner) := by
  unfold RSpline.composeB
  agrees

macro_rules | `(tactic| agrees_known) => `(tactic| with_reducible exact RSpline.composeB_agrees ..)

omit [BEq K] [ScalarDiv K W] [LT K] [DecidableLT K] in
theorem RSpline.composeRationalB_debug (cfg : Cfg) (r : RSpline K V) (inner : RSpline K W) :
    RSpline.composeRationalB .debug cfg r inner = RSpline.composeRational cfg r inner := by
  simp only [RSpline.composeRationalB, RSpline.composeRational, RSpline.ofSplinesB_debug, Spline.composeNumeratorRationalB_debug]

omit [BEq K] [ScalarDiv K W] [LT K] [DecidableLT K] in
theorem RSpline.composeRationalB_agrees (cfg : Cfg) (r : RSpline K V) (inner : RSpline K W) :
    Agrees (RSpline.composeRationalB .debug cfg r inner) (RSpline.composeRationalB .release cfg r inner) := by
  unfold RSpline.composeRationalB
  agrees

macro_rules | `(tactic| agrees_known) => `(tactic| with_reducible exact RSpline.composeRationalB_agrees ..)

omit [Sub K] [Neg K] [Zero K] [One K] [Add K] [Div K] [NatCast K] [Zero V] [Add V] [SMul K V] [Coords K W] [BEq K] [ScalarDiv K W] [LT K] [DecidableLT K] in
theorem RSpline.rescaleSensitivitiesB_debug (r : RSpline K V) (numerators : List (Spline K)) (den : Spline K) :
    RSpline.rescaleSensitivitiesB .debug r numerators den = RSpline.rescaleSensitivities r numerators den := by
  simp only [RSpline.rescaleSensitivitiesB, RSpline.rescaleSensitivities, RSpline.ofSplinesB_debug]

omit [Sub K] [Neg K] [Zero K] [One K] [Add K] [Div K] [NatCast K] [Zero V] [Add V] [SMul K V] [Coords K W] [BEq K] [ScalarDiv K W] [LT K] [DecidableLT K] in
theorem RSpline.rescaleSensitivitiesB_agrees (r : RSpline K V) (numerators : List (Spline K)) (den : Spline K) :
    Agrees (RSpline.rescaleSensitivitiesB .debug r numerators den) (RSpline.rescaleSensitivitiesB .release r numerators den) := by
  unfold RSpline.rescaleSensitivitiesB
  agrees

macro_rules | `(tactic| agrees_known) => `(tactic| with_reducible exact RSpline.rescaleSensitivitiesB_agrees ..)

omit [Zero V] [Add V] [SMul K V] [BEq K] [ScalarDiv K W] in
theorem RSpline.composeSensitivityB_debug (cfg : Cfg) (r : RSpline K V) (inner : Spline W) :
    RSpline.composeSensitivityB .debug cfg r inner = RSpline.composeSensitivity cfg r inner := by
  simp only [RSpline.composeSensitivityB, RSpline.composeSensitivity, Spline.composeB_debug, Spline.composeSensitivityB_debug, RSpline.composeB_debug, RSpline.rescaleSensitivitiesB_debug]

omit [Zero V] [Add V] [SMul K V] [BEq K] [ScalarDiv K W] in
theorem RSpline.composeSensitivityB_agrees (cfg : Cfg) (r : RSpline K V) (inner : Spline W) :
    Agrees (RSpline.composeSensitivityB .debug cfg r inner) (RSpline.composeSensitivityB .release cfg r inner) := by
  unfold RSpline.composeSensitivityB
  agrees

macro_rules | `(tactic| agrees_known) => `(tactic| with_reducible exact RSpline.composeSensitivityB_agrees ..)

omit [Zero V] [Add V] [SMul K V] [BEq K] [ScalarDiv K W] [LT K] [DecidableLT K] in
theorem RSpline.composeSensitivityRationalB_debug (cfg : Cfg) (r : RSpline K V) (inner : RSpline K W) :
    RSpline.composeSensitivityRationalB .debug cfg r inner = RSpline.composeSensitivityRational cfg r inner := by
  simp only [RSpline.composeSensitivityRationalB, RSpline.composeSensitivityRational, Spline.composeNumeratorRationalB_debug, Spline.composeNumeratorSensitivityRationalB_debug, RSpline.rescaleSensitivitiesB_debug]

omit [Zero V] [Add V] [SMul K V] [BEq K] [ScalarDiv K W] [LT K] [DecidableLT K] in
theorem RSpline.composeSensitivityRationalB_agrees (cfg : Cfg) (r : RSpline K V) (inner : RSpline K W) :
    Agrees (RSpline.composeSensitivityRationalB .debug cfg r inner) (RSpline.composeSensitivityRationalB .release cfg r inner) := by
  unfold RSpline.composeSensitivityRationalB
  agrees

macro_rules | `(tactic| agrees_known) => `(tactic| with_reducible exact RSpline.composeSensitivityRationalB_agrees ..)

end
end

/-! ## RationalDeriv -/

section

theorem derivBinomB_debug (cfg : Cfg) (lhs rhs : List Nat) :
    derivBinomB .debug cfg lhs rhs = derivBinom cfg lhs rhs := by
  simp only [derivBinomB, derivBinom, chooseB_debug]

theorem derivBinomB_agrees (cfg : Cfg) (lhs rhs : List Nat) :
    Agrees (derivBinomB .debug cfg lhs rhs) (derivBinomB .release cfg lhs rhs) := by
  unfold derivBinomB
  agrees

macro_rules | `(tactic| agrees_known) => `(tactic| with_reducible exact derivBinomB_agrees ..)

namespace RSpline
variable {K V : Type}

section
variable [Zero K] [One K] [Add K] [Sub K] [Mul K] [Neg K] [Div K] [NatCast K] [BEq K]

theorem derivRecursionB_debug {X : Type} (cfg : Cfg) (nth_derivs : List Nat) (n : Nat) (sub : X → K → X → M X) (scale : K → X → M X) (A : List X) (w : List K) (inv_w : K) (zero : X) :
    derivRecursionB .debug cfg nth_derivs n sub scale A w inv_w zero = derivRecursion cfg nth_derivs n sub scale A w inv_w zero := by
  simp only [derivRecursionB, derivRecursion, derivBinomB_debug]

theorem derivRecursionB_agrees {X : Type} (cfg : Cfg) (nth_derivs : List Nat) (n : Nat) (sub : X → K → X → M X) (scale : K → X → M X) (A : List X) (w : List K) (inv_w : K) (zero : X) :
    Agrees (derivRecursionB .debug cfg nth_derivs n sub scale A w inv_w zero) (derivRecursionB .release cfg nth_derivs n sub scale A w inv_w zero) := by
  unfold derivRecursionB
  agrees

macro_rules | `(tactic| agrees_known) => `(tactic| with_reducible exact RSpline.derivRecursionB_agrees ..)

theorem evaluateDerivativeB_debug [Zero V] [Add V] [Sub V] [SMul K V] (cfg : Cfg) (r : RSpline K V) (t : List K) (nth_derivs : List Nat) :
    evaluateDerivativeB .debug cfg r t nth_derivs = evaluateDerivative cfg r t nth_derivs := by
  simp only [evaluateDerivativeB, evaluateDerivative, Spline.evaluateDerivativeB_debug, RSpline.derivRecursionB_debug]

theorem evaluateDerivativeB_agrees [Zero V] [Add V] [Sub V] [SMul K V] (cfg : Cfg) (r : RSpline K V) (t : List K) (nth_derivs : List Nat) :
    Agrees (evaluateDerivativeB .debug cfg r t nth_derivs) (evaluateDerivativeB .release cfg r t nth_derivs) := by
  unfold evaluateDerivativeB
  agrees

macro_rules | `(tactic| agrees_known) => `(tactic| with_reducible exact RSpline.evaluateDerivativeB_agrees ..)

theorem basisFunctionsDerivativesB_debug (cfg : Cfg) (r : RSpline K V) (t : List K) (nth_derivs : List Nat) :
    basisFunctionsDerivativesB .debug cfg r t nth_derivs = basisFunctionsDerivatives cfg r t nth_derivs := by
  simp only [basisFunctionsDerivativesB, basisFunctionsDerivatives, Spline.basisFunctionsDerivativesB_debug, RSpline.derivRecursionB_debug]

theorem basisFunctionsDerivativesB_agrees (cfg : Cfg) (r : RSpline K V) (t : List K) (nth_derivs : List Nat) :
    Agrees (basisFunctionsDerivativesB .debug cfg r t nth_derivs) (basisFunctionsDerivativesB .release cfg r t nth_derivs) := by
  unfold basisFunctionsDerivativesB
  agrees

macro_rules | `(tactic| agrees_known) => `(tactic| with_reducible exact RSpline.basisFunctionsDerivativesB_agrees ..)

end

section
variable [Zero K] [One K] [Add K] [Sub K] [Mul K] [Neg K] [Div K] [NatCast K] [Zero V] [Add V] [Sub V] [SMul K V]

theorem derivativeStepB_debug (cfg : Cfg) (r : RSpline K V) (d : Nat) :
    derivativeStepB .debug cfg r d = derivativeStep cfg r d := by
  simp only [derivativeStepB, derivativeStep, Spline.derivativeSplineB_debug, Spline.subOpB_debug, Spline.mulScalarB_debug, RSpline.ofSplinesB_debug, RSpline.mulWeightB_debug, RSpline.mulWeight'B_debug, RSpline.subOpB_debug]

theorem derivativeStepB_agrees (cfg : Cfg) (r : RSpline K V) (d : Nat) :
    Agrees (derivativeStepB .debug cfg r d) (derivativeStepB .release cfg r d) := by
  unfold derivativeStepB
  agrees

macro_rules | `(tactic| agrees_known) => `(tactic| with_reducible exact RSpline.derivativeStepB_agrees ..)

theorem derivativeSplineB_debug (cfg : Cfg) (r : RSpline K V) (orders : List Nat) :
    derivativeSplineB .debug cfg r orders = derivativeSpline cfg r orders := by
  simp only [derivativeSplineB, derivativeSpline, RSpline.derivativeStepB_debug]

theorem derivativeSplineB_agrees (cfg : Cfg) (r : RSpline K V) (orders : List Nat) :
    Agrees (derivativeSplineB .debug cfg r orders) (derivativeSplineB .release cfg r orders) := by
  unfold derivativeSplineB
  agrees

macro_rules | `(tactic| agrees_known) => `(tactic| with_reducible exact RSpline.derivativeSplineB_agrees ..)

end
end RSpline
end

/-! ## Expr -/

section

variable {K : Type} {n : Nat} [Zero K] [One K] [Add K] [Sub K] [Mul K] [Neg K] [Div K] [NatCast K] [LT K] [DecidableLT K]

mutual
theorem SExpr.runB_debug (cfg : Cfg) (σ : Vars K n) : ∀ e : SExpr K n, e.runB .debug cfg σ = e.run cfg σ
  | .leaf i => by
    simp only [SExpr.runB, SExpr.run]
  | .add a b => by
    have ha := SExpr.runB_debug cfg σ a
    have hb := SExpr.runB_debug cfg σ b
    simp only [SExpr.runB, SExpr.run, ha, hb, Spline.addOpB_debug, RSpline.addOpB_debug]
  | .addAssign a b => by
    have ha := SExpr.runB_debug cfg σ a
    have hb := SExpr.runB_debug cfg σ b
    simp only [SExpr.runB, SExpr.run, ha, hb]
  | .sub a b => by
    have ha := SExpr.runB_debug cfg σ a
    have hb := SExpr.runB_debug cfg σ b
    simp only [SExpr.runB, SExpr.run, ha, hb, Spline.subOpB_debug, RSpline.subOpB_debug]
  | .subAssign a b => by
    have ha := SExpr.runB_debug cfg σ a
    have hb := SExpr.runB_debug cfg σ b
    simp only [SExpr.runB, SExpr.run, ha, hb]
  | .neg a => by
    have ha := SExpr.runB_debug cfg σ a
    simp only [SExpr.runB, SExpr.run, ha]
  | .scale a c => by
    have ha := SExpr.runB_debug cfg σ a
    simp only [SExpr.runB, SExpr.run, ha]
  | .addPoint a v => by
    have ha := SExpr.runB_debug cfg σ a
    simp only [SExpr.runB, SExpr.run, ha]
  | .subPoint a v => by
    have ha := SExpr.runB_debug cfg σ a
    simp only [SExpr.runB, SExpr.run, ha]
  | .pointSub v a => by
    have ha := SExpr.runB_debug cfg σ a
    simp only [SExpr.runB, SExpr.run, ha]
  | .elevate a d => by
    have ha := SExpr.runB_debug cfg σ a
    simp only [SExpr.runB, SExpr.run, ha]
  | .splitLeft a z d => by
    have ha := SExpr.runB_debug cfg σ a
    simp only [SExpr.runB, SExpr.run, ha]
  | .splitRight a z d => by
    have ha := SExpr.runB_debug cfg σ a
    simp only [SExpr.runB, SExpr.run, ha]
  | .splitPart a zs d i => by
    have ha := SExpr.runB_debug cfg σ a
    simp only [SExpr.runB, SExpr.run, ha]
  | .deriv a orders => by
    have ha := SExpr.runB_debug cfg σ a
    simp only [SExpr.runB, SExpr.run, ha, Spline.derivativeSplineB_debug, RSpline.derivativeSplineB_debug]
  | .compose a b => by
    have ha := SExpr.runB_debug cfg σ a
    have hb := PExpr.runB_debug cfg σ b
    simp only [SExpr.runB, SExpr.run, ha, hb, Spline.composeB_debug, RSpline.composeB_debug]
  | .composeScalar a b => by
    have ha := SExpr.runB_debug cfg σ a
    have hb := SExpr.runB_debug cfg σ b
    simp only [SExpr.runB, SExpr.run, ha, hb, Spline.composeB_debug, RSpline.composeB_debug]
  | .mul a b => by
    have ha := SExpr.runB_debug cfg σ a
    have hb := SExpr.runB_debug cfg σ b
    simp only [SExpr.runB, SExpr.run, ha, hb, Spline.mulScalarB_debug]
  | .dot a b => by
    have ha := PExpr.runB_debug cfg σ a
    have hb := PExpr.runB_debug cfg σ b
    simp only [SExpr.runB, SExpr.run, ha, hb, Spline.mulOpB_debug, RSpline.mulOpB_debug]
  | .power a k => by
    have ha := SExpr.runB_debug cfg σ a
    simp only [SExpr.runB, SExpr.run, ha, Spline.raisePowerB_debug]
  | .extract a j => by
    have ha := PExpr.runB_debug cfg σ a
    simp only [SExpr.runB, SExpr.run, ha]
theorem PExpr.runB_debug (cfg : Cfg) (σ : Vars K n) : ∀ e : PExpr K n, e.runB .debug cfg σ = e.run cfg σ
  | .leaf i => by
    simp only [PExpr.runB, PExpr.run]
  | .add a b => by
    have ha := PExpr.runB_debug cfg σ a
    have hb := PExpr.runB_debug cfg σ b
    simp only [PExpr.runB, PExpr.run, ha, hb, Spline.addOpB_debug, RSpline.addOpB_debug]
  | .addAssign a b => by
    have ha := PExpr.runB_debug cfg σ a
    have hb := PExpr.runB_debug cfg σ b
    simp only [PExpr.runB, PExpr.run, ha, hb]
  | .sub a b => by
    have ha := PExpr.runB_debug cfg σ a
    have hb := PExpr.runB_debug cfg σ b
    simp only [PExpr.runB, PExpr.run, ha, hb, Spline.subOpB_debug, RSpline.subOpB_debug]
  | .subAssign a b => by
    have ha := PExpr.runB_debug cfg σ a
    have hb := PExpr.runB_debug cfg σ b
    simp only [PExpr.runB, PExpr.run, ha, hb]
  | .neg a => by
    have ha := PExpr.runB_debug cfg σ a
    simp only [PExpr.runB, PExpr.run, ha]
  | .scale a c => by
    have ha := PExpr.runB_debug cfg σ a
    simp only [PExpr.runB, PExpr.run, ha]
  | .addPoint a v => by
    have ha := PExpr.runB_debug cfg σ a
    simp only [PExpr.runB, PExpr.run, ha]
  | .subPoint a v => by
    have ha := PExpr.runB_debug cfg σ a
    simp only [PExpr.runB, PExpr.run, ha]
  | .pointSub v a => by
    have ha := PExpr.runB_debug cfg σ a
    simp only [PExpr.runB, PExpr.run, ha]
  | .elevate a d => by
    have ha := PExpr.runB_debug cfg σ a
    simp only [PExpr.runB, PExpr.run, ha]
  | .splitLeft a z d => by
    have ha := PExpr.runB_debug cfg σ a
    simp only [PExpr.runB, PExpr.run, ha]
  | .splitRight a z d => by
    have ha := PExpr.runB_debug cfg σ a
    simp only [PExpr.runB, PExpr.run, ha]
  | .splitPart a zs d i => by
    have ha := PExpr.runB_debug cfg σ a
    simp only [PExpr.runB, PExpr.run, ha]
  | .deriv a orders => by
    have ha := PExpr.runB_debug cfg σ a
    simp only [PExpr.runB, PExpr.run, ha, Spline.derivativeSplineB_debug, RSpline.derivativeSplineB_debug]
  | .compose a b => by
    have ha := PExpr.runB_debug cfg σ a
    have hb := PExpr.runB_debug cfg σ b
    simp only [PExpr.runB, PExpr.run, ha, hb, Spline.composeB_debug, RSpline.composeB_debug]
  | .composeScalar a b => by
    have ha := PExpr.runB_debug cfg σ a
    have hb := SExpr.runB_debug cfg σ b
    simp only [PExpr.runB, PExpr.run, ha, hb, Spline.composeB_debug, RSpline.composeB_debug]
  | .mulLeft a b => by
    have ha := SExpr.runB_debug cfg σ a
    have hb := PExpr.runB_debug cfg σ b
    simp only [PExpr.runB, PExpr.run, ha, hb, Spline.mulOpB_debug, RSpline.mulOpB_debug]
  | .mulRight a b => by
    have ha := PExpr.runB_debug cfg σ a
    have hb := SExpr.runB_debug cfg σ b
    simp only [PExpr.runB, PExpr.run, ha, hb, Spline.mulOpB_debug, RSpline.mulOpB_debug]
end

mutual
theorem SExpr.runB_agrees (cfg : Cfg) (σ : Vars K n) : ∀ e : SExpr K n, Agrees (e.runB .debug cfg σ) (e.runB .release cfg σ)
  | .leaf i => by
    unfold SExpr.runB
    exact Agrees.refl _
  | .add a b => by
    have ha := SExpr.runB_agrees cfg σ a
    have hb := SExpr.runB_agrees cfg σ b
    unfold SExpr.runB
    refine Agrees.bind ha fun x => ?_
    refine Agrees.bind hb fun y => ?_
    exact Spline.addOpB_agrees ..
  | .addAssign a b => by
    have ha := SExpr.runB_agrees cfg σ a
    have hb := SExpr.runB_agrees cfg σ b
    unfold SExpr.runB
    refine Agrees.bind ha fun x => ?_
    refine Agrees.bind hb fun y => ?_
    exact Agrees.refl _
  | .sub a b => by
    have ha := SExpr.runB_agrees cfg σ a
    have hb := SExpr.runB_agrees cfg σ b
    unfold SExpr.runB
    refine Agrees.bind ha fun x => ?_
    refine Agrees.bind hb fun y => ?_
    exact Spline.subOpB_agrees ..
  | .subAssign a b => by
    have ha := SExpr.runB_agrees cfg σ a
    have hb := SExpr.runB_agrees cfg σ b
    unfold SExpr.runB
    refine Agrees.bind ha fun x => ?_
    refine Agrees.bind hb fun y => ?_
    exact Agrees.refl _
  | .neg a => by
    have ha := SExpr.runB_agrees cfg σ a
    unfold SExpr.runB
    refine Agrees.bind ha fun x => ?_
    exact Agrees.refl _
  | .scale a c => by
    have ha := SExpr.runB_agrees cfg σ a
    unfold SExpr.runB
    refine Agrees.bind ha fun x => ?_
    exact Agrees.refl _
  | .addPoint a v => by
    have ha := SExpr.runB_agrees cfg σ a
    unfold SExpr.runB
    refine Agrees.bind ha fun x => ?_
    exact Agrees.refl _
  | .subPoint a v => by
    have ha := SExpr.runB_agrees cfg σ a
    unfold SExpr.runB
    refine Agrees.bind ha fun x => ?_
    exact Agrees.refl _
  | .pointSub v a => by
    have ha := SExpr.runB_agrees cfg σ a
    unfold SExpr.runB
    refine Agrees.bind ha fun x => ?_
    exact Agrees.refl _
  | .elevate a d => by
    have ha := SExpr.runB_agrees cfg σ a
    unfold SExpr.runB
    refine Agrees.bind ha fun x => ?_
    exact Agrees.refl _
  | .splitLeft a z d => by
    have ha := SExpr.runB_agrees cfg σ a
    unfold SExpr.runB
    refine Agrees.bind ha fun x => ?_
    refine Agrees.bind (Agrees.refl _) fun l => ?_
    exact Agrees.refl _
  | .splitRight a z d => by
    have ha := SExpr.runB_agrees cfg σ a
    unfold SExpr.runB
    refine Agrees.bind ha fun x => ?_
    refine Agrees.bind (Agrees.refl _) fun l => ?_
    exact Agrees.refl _
  | .splitPart a zs d i => by
    have ha := SExpr.runB_agrees cfg σ a
    unfold SExpr.runB
    refine Agrees.bind ha fun x => ?_
    refine Agrees.bind (Agrees.refl _) fun l => ?_
    exact Agrees.refl _
  | .deriv a orders => by
    have ha := SExpr.runB_agrees cfg σ a
    unfold SExpr.runB
    refine Agrees.bind ha fun x => ?_
    exact Spline.derivativeSplineB_agrees ..
  | .compose a b => by
    have ha := SExpr.runB_agrees cfg σ a
    have hb := PExpr.runB_agrees cfg σ b
    unfold SExpr.runB
    refine Agrees.bind ha fun x => ?_
    refine Agrees.bind hb fun y => ?_
    exact Spline.composeB_agrees ..
  | .composeScalar a b => by
    have ha := SExpr.runB_agrees cfg σ a
    have hb := SExpr.runB_agrees cfg σ b
    unfold SExpr.runB
    refine Agrees.bind ha fun x => ?_
    refine Agrees.bind hb fun y => ?_
    exact Spline.composeB_agrees ..
  | .mul a b => by
    have ha := SExpr.runB_agrees cfg σ a
    have hb := SExpr.runB_agrees cfg σ b
    unfold SExpr.runB
    refine Agrees.bind ha fun x => ?_
    refine Agrees.bind hb fun y => ?_
    exact Spline.mulScalarB_agrees ..
  | .dot a b => by
    have ha := PExpr.runB_agrees cfg σ a
    have hb := PExpr.runB_agrees cfg σ b
    unfold SExpr.runB
    refine Agrees.bind ha fun x => ?_
    refine Agrees.bind hb fun y => ?_
    exact Spline.mulOpB_agrees ..
  | .power a k => by
    have ha := SExpr.runB_agrees cfg σ a
    unfold SExpr.runB
    refine Agrees.bind ha fun x => ?_
    exact Spline.raisePowerB_agrees ..
  | .extract a j => by
    have ha := PExpr.runB_agrees cfg σ a
    unfold SExpr.runB
    refine Agrees.bind ha fun x => ?_
    exact Agrees.refl _
theorem PExpr.runB_agrees (cfg : Cfg) (σ : Vars K n) : ∀ e : PExpr K n, Agrees (e.runB .debug cfg σ) (e.runB .release cfg σ)
  | .leaf i => by
    unfold PExpr.runB
    exact Agrees.refl _
  | .add a b => by
    have ha := PExpr.runB_agrees cfg σ a
    have hb := PExpr.runB_agrees cfg σ b
    unfold PExpr.runB
    refine Agrees.bind ha fun x => ?_
    refine Agrees.bind hb fun y => ?_
    exact Spline.addOpB_agrees ..
  | .addAssign a b => by
    have ha := PExpr.runB_agrees cfg σ a
    have hb := PExpr.runB_agrees cfg σ b
    unfold PExpr.runB
    refine Agrees.bind ha fun x => ?_
    refine Agrees.bind hb fun y => ?_
    exact Agrees.refl _
  | .sub a b => by
    have ha := PExpr.runB_agrees cfg σ a
    have hb := PExpr.runB_agrees cfg σ b
    unfold PExpr.runB
    refine Agrees.bind ha fun x => ?_
    refine Agrees.bind hb fun y => ?_
    exact Spline.subOpB_agrees ..
  | .subAssign a b => by
    have ha := PExpr.runB_agrees cfg σ a
    have hb := PExpr.runB_agrees cfg σ b
    unfold PExpr.runB
    refine Agrees.bind ha fun x => ?_
    refine Agrees.bind hb fun y => ?_
    exact Agrees.refl _
  | .neg a => by
    have ha := PExpr.runB_agrees cfg σ a
    unfold PExpr.runB
    refine Agrees.bind ha fun x => ?_
    exact Agrees.refl _
  | .scale a c => by
    have ha := PExpr.runB_agrees cfg σ a
    unfold PExpr.runB
    refine Agrees.bind ha fun x => ?_
    exact Agrees.refl _
  | .addPoint a v => by
    have ha := PExpr.runB_agrees cfg σ a
    unfold PExpr.runB
    refine Agrees.bind ha fun x => ?_
    exact Agrees.refl _
  | .subPoint a v => by
    have ha := PExpr.runB_agrees cfg σ a
    unfold PExpr.runB
    refine Agrees.bind ha fun x => ?_
    exact Agrees.refl _
  | .pointSub v a => by
    have ha := PExpr.runB_agrees cfg σ a
    unfold PExpr.runB
    refine Agrees.bind ha fun x => ?_
    exact Agrees.refl _
  | .elevate a d => by
    have ha := PExpr.runB_agrees cfg σ a
    unfold PExpr.runB
    refine Agrees.bind ha fun x => ?_
    exact Agrees.refl _
  | .splitLeft a z d => by
    have ha := PExpr.runB_agrees cfg σ a
    unfold PExpr.runB
    refine Agrees.bind ha fun x => ?_
    refine Agrees.bind (Agrees.refl _) fun l => ?_
    exact Agrees.refl _
  | .splitRight a z d => by
    have ha := PExpr.runB_agrees cfg σ a
    unfold PExpr.runB
    refine Agrees.bind ha fun x => ?_
    refine Agrees.bind (Agrees.refl _) fun l => ?_
    exact Agrees.refl _
  | .splitPart a zs d i => by
    have ha := PExpr.runB_agrees cfg σ a
    unfold PExpr.runB
    refine Agrees.bind ha fun x => ?_
    refine Agrees.bind (Agrees.refl _) fun l => ?_
    exact Agrees.refl _
  | .deriv a orders => by
    have ha := PExpr.runB_agrees cfg σ a
    unfold PExpr.runB
    refine Agrees.bind ha fun x => ?_
    exact Spline.derivativeSplineB_agrees ..
  | .compose a b => by
    have ha := PExpr.runB_agrees cfg σ a
    have hb := PExpr.runB_agrees cfg σ b
    unfold PExpr.runB
    refine Agrees.bind ha fun x => ?_
    refine Agrees.bind hb fun y => ?_
    exact Spline.composeB_agrees ..
  | .composeScalar a b => by
    have ha := PExpr.runB_agrees cfg σ a
    have hb := SExpr.runB_agrees cfg σ b
    unfold PExpr.runB
    refine Agrees.bind ha fun x => ?_
    refine Agrees.bind hb fun y => ?_
    exact Spline.composeB_agrees ..
  | .mulLeft a b => by
    have ha := SExpr.runB_agrees cfg σ a
    have hb := PExpr.runB_agrees cfg σ b
    unfold PExpr.runB
    refine Agrees.bind ha fun x => ?_
    refine Agrees.bind hb fun y => ?_
    exact Spline.mulOpB_agrees ..
  | .mulRight a b => by
    have ha := PExpr.runB_agrees cfg σ a
    have hb := SExpr.runB_agrees cfg σ b
    unfold PExpr.runB
    refine Agrees.bind ha fun x => ?_
    refine Agrees.bind hb fun y => ?_
    exact Spline.mulOpB_agrees ..
end


end

/-! ## RExpr -/

section

variable {K : Type} {n : Nat} [Zero K] [One K] [Add K] [Sub K] [Mul K] [Neg K] [Div K] [NatCast K] [LT K] [DecidableLT K]
  [BEq K]

mutual
theorem RSExpr.runB_debug (cfg : Cfg) (σ : RVars K n) : ∀ e : RSExpr K n, e.runB .debug cfg σ = e.run cfg σ
  | .leaf i => by
    simp only [RSExpr.runB, RSExpr.run]
  | .ofSpline a => by
    have ha := SExpr.runB_debug cfg σ.toVars a
    simp only [RSExpr.runB, RSExpr.run, ha, RSpline.ofSplineB_debug]
  | .add a b => by
    have ha := RSExpr.runB_debug cfg σ a
    have hb := RSExpr.runB_debug cfg σ b
    simp only [RSExpr.runB, RSExpr.run, ha, hb, Spline.addOpB_debug, RSpline.addOpB_debug]
  | .addAssign a b => by
    have ha := RSExpr.runB_debug cfg σ a
    have hb := RSExpr.runB_debug cfg σ b
    simp only [RSExpr.runB, RSExpr.run, ha, hb, RSpline.addAssignB_debug]
  | .sub a b => by
    have ha := RSExpr.runB_debug cfg σ a
    have hb := RSExpr.runB_debug cfg σ b
    simp only [RSExpr.runB, RSExpr.run, ha, hb, Spline.subOpB_debug, RSpline.subOpB_debug]
  | .subAssign a b => by
    have ha := RSExpr.runB_debug cfg σ a
    have hb := RSExpr.runB_debug cfg σ b
    simp only [RSExpr.runB, RSExpr.run, ha, hb, RSpline.subAssignB_debug]
  | .neg a => by
    have ha := RSExpr.runB_debug cfg σ a
    simp only [RSExpr.runB, RSExpr.run, ha, RSpline.negOpB_debug]
  | .scale a c => by
    have ha := RSExpr.runB_debug cfg σ a
    simp only [RSExpr.runB, RSExpr.run, ha, RSpline.smulOpB_debug]
  | .addPoint a v => by
    have ha := RSExpr.runB_debug cfg σ a
    simp only [RSExpr.runB, RSExpr.run, ha, RSpline.addPointB_debug]
  | .subPoint a v => by
    have ha := RSExpr.runB_debug cfg σ a
    simp only [RSExpr.runB, RSExpr.run, ha, RSpline.subPointB_debug]
  | .elevate a d => by
    have ha := RSExpr.runB_debug cfg σ a
    simp only [RSExpr.runB, RSExpr.run, ha, RSpline.orderElevateB_debug]
  | .splitLeft a z d => by
    have ha := RSExpr.runB_debug cfg σ a
    simp only [RSExpr.runB, RSExpr.run, ha, RSpline.splitAtB_debug]
  | .splitRight a z d => by
    have ha := RSExpr.runB_debug cfg σ a
    simp only [RSExpr.runB, RSExpr.run, ha, RSpline.splitAtB_debug]
  | .splitPart a zs d i => by
    have ha := RSExpr.runB_debug cfg σ a
    simp only [RSExpr.runB, RSExpr.run, ha, RSpline.splitAtManyB_debug]
  | .deriv a orders => by
    have ha := RSExpr.runB_debug cfg σ a
    simp only [RSExpr.runB, RSExpr.run, ha, Spline.derivativeSplineB_debug, RSpline.derivativeSplineB_debug]
  | .composePoly a b => by
    have ha := RSExpr.runB_debug cfg σ a
    have hb := PExpr.runB_debug cfg σ.toVars b
    simp only [RSExpr.runB, RSExpr.run, ha, hb, Spline.composeB_debug, RSpline.composeB_debug]
  | .composePolyScalar a b => by
    have ha := RSExpr.runB_debug cfg σ a
    have hb := SExpr.runB_debug cfg σ.toVars b
    simp only [RSExpr.runB, RSExpr.run, ha, hb, Spline.composeB_debug, RSpline.composeB_debug]
  | .compose a b => by
    have ha := RSExpr.runB_debug cfg σ a
    have hb := RPExpr.runB_debug cfg σ b
    simp only [RSExpr.runB, RSExpr.run, ha, hb, Spline.composeRationalB_debug, RSpline.composeRationalB_debug]
  | .composeScalar a b => by
    have ha := RSExpr.runB_debug cfg σ a
    have hb := RSExpr.runB_debug cfg σ b
    simp only [RSExpr.runB, RSExpr.run, ha, hb, Spline.composeRationalB_debug, RSpline.composeRationalB_debug]
  | .polyCompose a b => by
    have ha := SExpr.runB_debug cfg σ.toVars a
    have hb := RPExpr.runB_debug cfg σ b
    simp only [RSExpr.runB, RSExpr.run, ha, hb, Spline.composeRationalB_debug, RSpline.composeRationalB_debug]
  | .polyComposeScalar a b => by
    have ha := SExpr.runB_debug cfg σ.toVars a
    have hb := RSExpr.runB_debug cfg σ b
    simp only [RSExpr.runB, RSExpr.run, ha, hb, Spline.composeRationalB_debug, RSpline.composeRationalB_debug]
  | .mul a b => by
    have ha := RSExpr.runB_debug cfg σ a
    have hb := RSExpr.runB_debug cfg σ b
    simp only [RSExpr.runB, RSExpr.run, ha, hb, Spline.mulOpB_debug, RSpline.mulOpB_debug]
  | .dot a b => by
    have ha := RPExpr.runB_debug cfg σ a
    have hb := RPExpr.runB_debug cfg σ b
    simp only [RSExpr.runB, RSExpr.run, ha, hb, Spline.mulOpB_debug, RSpline.mulOpB_debug]
theorem RPExpr.runB_debug (cfg : Cfg) (σ : RVars K n) : ∀ e : RPExpr K n, e.runB .debug cfg σ = e.run cfg σ
  | .leaf i => by
    simp only [RPExpr.runB, RPExpr.run]
  | .ofSpline a => by
    have ha := PExpr.runB_debug cfg σ.toVars a
    simp only [RPExpr.runB, RPExpr.run, ha, RSpline.ofSplineB_debug]
  | .add a b => by
    have ha := RPExpr.runB_debug cfg σ a
    have hb := RPExpr.runB_debug cfg σ b
    simp only [RPExpr.runB, RPExpr.run, ha, hb, Spline.addOpB_debug, RSpline.addOpB_debug]
  | .addAssign a b => by
    have ha := RPExpr.runB_debug cfg σ a
    have hb := RPExpr.runB_debug cfg σ b
    simp only [RPExpr.runB, RPExpr.run, ha, hb, RSpline.addAssignB_debug]
  | .sub a b => by
    have ha := RPExpr.runB_debug cfg σ a
    have hb := RPExpr.runB_debug cfg σ b
    simp only [RPExpr.runB, RPExpr.run, ha, hb, Spline.subOpB_debug, RSpline.subOpB_debug]
  | .subAssign a b => by
    have ha := RPExpr.runB_debug cfg σ a
    have hb := RPExpr.runB_debug cfg σ b
    simp only [RPExpr.runB, RPExpr.run, ha, hb, RSpline.subAssignB_debug]
  | .neg a => by
    have ha := RPExpr.runB_debug cfg σ a
    simp only [RPExpr.runB, RPExpr.run, ha, RSpline.negOpB_debug]
  | .scale a c => by
    have ha := RPExpr.runB_debug cfg σ a
    simp only [RPExpr.runB, RPExpr.run, ha, RSpline.smulOpB_debug]
  | .addPoint a v => by
    have ha := RPExpr.runB_debug cfg σ a
    simp only [RPExpr.runB, RPExpr.run, ha, RSpline.addPointB_debug]
  | .subPoint a v => by
    have ha := RPExpr.runB_debug cfg σ a
    simp only [RPExpr.runB, RPExpr.run, ha, RSpline.subPointB_debug]
  | .elevate a d => by
    have ha := RPExpr.runB_debug cfg σ a
    simp only [RPExpr.runB, RPExpr.run, ha, RSpline.orderElevateB_debug]
  | .splitLeft a z d => by
    have ha := RPExpr.runB_debug cfg σ a
    simp only [RPExpr.runB, RPExpr.run, ha, RSpline.splitAtB_debug]
  | .splitRight a z d => by
    have ha := RPExpr.runB_debug cfg σ a
    simp only [RPExpr.runB, RPExpr.run, ha, RSpline.splitAtB_debug]
  | .splitPart a zs d i => by
    have ha := RPExpr.runB_debug cfg σ a
    simp only [RPExpr.runB, RPExpr.run, ha, RSpline.splitAtManyB_debug]
  | .deriv a orders => by
    have ha := RPExpr.runB_debug cfg σ a
    simp only [RPExpr.runB, RPExpr.run, ha, Spline.derivativeSplineB_debug, RSpline.derivativeSplineB_debug]
  | .composePoly a b => by
    have ha := RPExpr.runB_debug cfg σ a
    have hb := PExpr.runB_debug cfg σ.toVars b
    simp only [RPExpr.runB, RPExpr.run, ha, hb, Spline.composeB_debug, RSpline.composeB_debug]
  | .composePolyScalar a b => by
    have ha := RPExpr.runB_debug cfg σ a
    have hb := SExpr.runB_debug cfg σ.toVars b
    simp only [RPExpr.runB, RPExpr.run, ha, hb, Spline.composeB_debug, RSpline.composeB_debug]
  | .compose a b => by
    have ha := RPExpr.runB_debug cfg σ a
    have hb := RPExpr.runB_debug cfg σ b
    simp only [RPExpr.runB, RPExpr.run, ha, hb, Spline.composeRationalB_debug, RSpline.composeRationalB_debug]
  | .composeScalar a b => by
    have ha := RPExpr.runB_debug cfg σ a
    have hb := RSExpr.runB_debug cfg σ b
    simp only [RPExpr.runB, RPExpr.run, ha, hb, Spline.composeRationalB_debug, RSpline.composeRationalB_debug]
  | .polyCompose a b => by
    have ha := PExpr.runB_debug cfg σ.toVars a
    have hb := RPExpr.runB_debug cfg σ b
    simp only [RPExpr.runB, RPExpr.run, ha, hb, Spline.composeRationalB_debug, RSpline.composeRationalB_debug]
  | .polyComposeScalar a b => by
    have ha := PExpr.runB_debug cfg σ.toVars a
    have hb := RSExpr.runB_debug cfg σ b
    simp only [RPExpr.runB, RPExpr.run, ha, hb, Spline.composeRationalB_debug, RSpline.composeRationalB_debug]
  | .mulLeft a b => by
    have ha := RSExpr.runB_debug cfg σ a
    have hb := RPExpr.runB_debug cfg σ b
    simp only [RPExpr.runB, RPExpr.run, ha, hb, Spline.mulOpB_debug, RSpline.mulOpB_debug]
  | .mulRight a b => by
    have ha := RPExpr.runB_debug cfg σ a
    have hb := RSExpr.runB_debug cfg σ b
    simp only [RPExpr.runB, RPExpr.run, ha, hb, Spline.mulOpB_debug, RSpline.mulOpB_debug]
end

mutual
theorem RSExpr.runB_agrees (cfg : Cfg) (σ : RVars K n) : ∀ e : RSExpr K n, Agrees (e.runB .debug cfg σ) (e.runB .release cfg σ)
  | .leaf i => by
    unfold RSExpr.runB
    exact Agrees.refl _
  | .ofSpline a => by
    have ha := SExpr.runB_agrees cfg σ.toVars a
    unfold RSExpr.runB
    refine Agrees.bind ha fun x => ?_
    exact RSpline.ofSplineB_agrees ..
  | .add a b => by
    have ha := RSExpr.runB_agrees cfg σ a
    have hb := RSExpr.runB_agrees cfg σ b
    unfold RSExpr.runB
    refine Agrees.bind ha fun x => ?_
    refine Agrees.bind hb fun y => ?_
    exact RSpline.addOpB_agrees ..
  | .addAssign a b => by
    have ha := RSExpr.runB_agrees cfg σ a
    have hb := RSExpr.runB_agrees cfg σ b
    unfold RSExpr.runB
    refine Agrees.bind ha fun x => ?_
    refine Agrees.bind hb fun y => ?_
    exact RSpline.addAssignB_agrees ..
  | .sub a b => by
    have ha := RSExpr.runB_agrees cfg σ a
    have hb := RSExpr.runB_agrees cfg σ b
    unfold RSExpr.runB
    refine Agrees.bind ha fun x => ?_
    refine Agrees.bind hb fun y => ?_
    exact RSpline.subOpB_agrees ..
  | .subAssign a b => by
    have ha := RSExpr.runB_agrees cfg σ a
    have hb := RSExpr.runB_agrees cfg σ b
    unfold RSExpr.runB
    refine Agrees.bind ha fun x => ?_
    refine Agrees.bind hb fun y => ?_
    exact RSpline.subAssignB_agrees ..
  | .neg a => by
    have ha := RSExpr.runB_agrees cfg σ a
    unfold RSExpr.runB
    refine Agrees.bind ha fun x => ?_
    exact RSpline.negOpB_agrees ..
  | .scale a c => by
    have ha := RSExpr.runB_agrees cfg σ a
    unfold RSExpr.runB
    refine Agrees.bind ha fun x => ?_
    exact RSpline.smulOpB_agrees ..
  | .addPoint a v => by
    have ha := RSExpr.runB_agrees cfg σ a
    unfold RSExpr.runB
    refine Agrees.bind ha fun x => ?_
    exact RSpline.addPointB_agrees ..
  | .subPoint a v => by
    have ha := RSExpr.runB_agrees cfg σ a
    unfold RSExpr.runB
    refine Agrees.bind ha fun x => ?_
    exact RSpline.subPointB_agrees ..
  | .elevate a d => by
    have ha := RSExpr.runB_agrees cfg σ a
    unfold RSExpr.runB
    refine Agrees.bind ha fun x => ?_
    exact RSpline.orderElevateB_agrees ..
  | .splitLeft a z d => by
    have ha := RSExpr.runB_agrees cfg σ a
    unfold RSExpr.runB
    refine Agrees.bind ha fun x => ?_
    refine Agrees.bind (RSpline.splitAtB_agrees ..) fun l => ?_
    exact Agrees.refl _
  | .splitRight a z d => by
    have ha := RSExpr.runB_agrees cfg σ a
    unfold RSExpr.runB
    refine Agrees.bind ha fun x => ?_
    refine Agrees.bind (RSpline.splitAtB_agrees ..) fun l => ?_
    exact Agrees.refl _
  | .splitPart a zs d i => by
    have ha := RSExpr.runB_agrees cfg σ a
    unfold RSExpr.runB
    refine Agrees.bind ha fun x => ?_
    refine Agrees.bind (RSpline.splitAtManyB_agrees ..) fun l => ?_
    exact Agrees.refl _
  | .deriv a orders => by
    have ha := RSExpr.runB_agrees cfg σ a
    unfold RSExpr.runB
    refine Agrees.bind ha fun x => ?_
    exact RSpline.derivativeSplineB_agrees ..
  | .composePoly a b => by
    have ha := RSExpr.runB_agrees cfg σ a
    have hb := PExpr.runB_agrees cfg σ.toVars b
    unfold RSExpr.runB
    refine Agrees.bind ha fun x => ?_
    refine Agrees.bind hb fun y => ?_
    exact RSpline.composeB_agrees ..
  | .composePolyScalar a b => by
    have ha := RSExpr.runB_agrees cfg σ a
    have hb := SExpr.runB_agrees cfg σ.toVars b
    unfold RSExpr.runB
    refine Agrees.bind ha fun x => ?_
    refine Agrees.bind hb fun y => ?_
    exact RSpline.composeB_agrees ..
  | .compose a b => by
    have ha := RSExpr.runB_agrees cfg σ a
    have hb := RPExpr.runB_agrees cfg σ b
    unfold RSExpr.runB
    refine Agrees.bind ha fun x => ?_
    refine Agrees.bind hb fun y => ?_
    exact RSpline.composeRationalB_agrees ..
  | .composeScalar a b => by
    have ha := RSExpr.runB_agrees cfg σ a
    have hb := RSExpr.runB_agrees cfg σ b
    unfold RSExpr.runB
    refine Agrees.bind ha fun x => ?_
    refine Agrees.bind hb fun y => ?_
    exact RSpline.composeRationalB_agrees ..
  | .polyCompose a b => by
    have ha := SExpr.runB_agrees cfg σ.toVars a
    have hb := RPExpr.runB_agrees cfg σ b
    unfold RSExpr.runB
    refine Agrees.bind ha fun x => ?_
    refine Agrees.bind hb fun y => ?_
    exact Spline.composeRationalB_agrees ..
  | .polyComposeScalar a b => by
    have ha := SExpr.runB_agrees cfg σ.toVars a
    have hb := RSExpr.runB_agrees cfg σ b
    unfold RSExpr.runB
    refine Agrees.bind ha fun x => ?_
    refine Agrees.bind hb fun y => ?_
    exact Spline.composeRationalB_agrees ..
  | .mul a b => by
    have ha := RSExpr.runB_agrees cfg σ a
    have hb := RSExpr.runB_agrees cfg σ b
    unfold RSExpr.runB
    refine Agrees.bind ha fun x => ?_
    refine Agrees.bind hb fun y => ?_
    exact RSpline.mulOpB_agrees ..
  | .dot a b => by
    have ha := RPExpr.runB_agrees cfg σ a
    have hb := RPExpr.runB_agrees cfg σ b
    unfold RSExpr.runB
    refine Agrees.bind ha fun x => ?_
    refine Agrees.bind hb fun y => ?_
    exact RSpline.mulOpB_agrees ..
theorem RPExpr.runB_agrees (cfg : Cfg) (σ : RVars K n) : ∀ e : RPExpr K n, Agrees (e.runB .debug cfg σ) (e.runB .release cfg σ)
  | .leaf i => by
    unfold RPExpr.runB
    exact Agrees.refl _
  | .ofSpline a => by
    have ha := PExpr.runB_agrees cfg σ.toVars a
    unfold RPExpr.runB
    refine Agrees.bind ha fun x => ?_
    exact RSpline.ofSplineB_agrees ..
  | .add a b => by
    have ha := RPExpr.runB_agrees cfg σ a
    have hb := RPExpr.runB_agrees cfg σ b
    unfold RPExpr.runB
    refine Agrees.bind ha fun x => ?_
    refine Agrees.bind hb fun y => ?_
    exact RSpline.addOpB_agrees ..
  | .addAssign a b => by
    have ha := RPExpr.runB_agrees cfg σ a
    have hb := RPExpr.runB_agrees cfg σ b
    unfold RPExpr.runB
    refine Agrees.bind ha fun x => ?_
    refine Agrees.bind hb fun y => ?_
    exact RSpline.addAssignB_agrees ..
  | .sub a b => by
    have ha := RPExpr.runB_agrees cfg σ a
    have hb := RPExpr.runB_agrees cfg σ b
    unfold RPExpr.runB
    refine Agrees.bind ha fun x => ?_
    refine Agrees.bind hb fun y => ?_
    exact RSpline.subOpB_agrees ..
  | .subAssign a b => by
    have ha := RPExpr.runB_agrees cfg σ a
    have hb := RPExpr.runB_agrees cfg σ b
    unfold RPExpr.runB
    refine Agrees.bind ha fun x => ?_
    refine Agrees.bind hb fun y => ?_
    exact RSpline.subAssignB_agrees ..
  | .neg a => by
    have ha := RPExpr.runB_agrees cfg σ a
    unfold RPExpr.runB
    refine Agrees.bind ha fun x => ?_
    exact RSpline.negOpB_agrees ..
  | .scale a c => by
    have ha := RPExpr.runB_agrees cfg σ a
    unfold RPExpr.runB
    refine Agrees.bind ha fun x => ?_
    exact RSpline.smulOpB_agrees ..
  | .addPoint a v => by
    have ha := RPExpr.runB_agrees cfg σ a
    unfold RPExpr.runB
    refine Agrees.bind ha fun x => ?_
    exact RSpline.addPointB_agrees ..
  | .subPoint a v => by
    have ha := RPExpr.runB_agrees cfg σ a
    unfold RPExpr.runB
    refine Agrees.bind ha fun x => ?_
    exact RSpline.subPointB_agrees ..
  | .elevate a d => by
    have ha := RPExpr.runB_agrees cfg σ a
    unfold RPExpr.runB
    refine Agrees.bind ha fun x => ?_
    exact RSpline.orderElevateB_agrees ..
  | .splitLeft a z d => by
    have ha := RPExpr.runB_agrees cfg σ a
    unfold RPExpr.runB
    refine Agrees.bind ha fun x => ?_
    refine Agrees.bind (RSpline.splitAtB_agrees ..) fun l => ?_
    exact Agrees.refl _
  | .splitRight a z d => by
    have ha := RPExpr.runB_agrees cfg σ a
    unfold RPExpr.runB
    refine Agrees.bind ha fun x => ?_
    refine Agrees.bind (RSpline.splitAtB_agrees ..) fun l => ?_
    exact Agrees.refl _
  | .splitPart a zs d i => by
    have ha := RPExpr.runB_agrees cfg σ a
    unfold RPExpr.runB
    refine Agrees.bind ha fun x => ?_
    refine Agrees.bind (RSpline.splitAtManyB_agrees ..) fun l => ?_
    exact Agrees.refl _
  | .deriv a orders => by
    have ha := RPExpr.runB_agrees cfg σ a
    unfold RPExpr.runB
    refine Agrees.bind ha fun x => ?_
    exact RSpline.derivativeSplineB_agrees ..
  | .composePoly a b => by
    have ha := RPExpr.runB_agrees cfg σ a
    have hb := PExpr.runB_agrees cfg σ.toVars b
    unfold RPExpr.runB
    refine Agrees.bind ha fun x => ?_
    refine Agrees.bind hb fun y => ?_
    exact RSpline.composeB_agrees ..
  | .composePolyScalar a b => by
    have ha := RPExpr.runB_agrees cfg σ a
    have hb := SExpr.runB_agrees cfg σ.toVars b
    unfold RPExpr.runB
    refine Agrees.bind ha fun x => ?_
    refine Agrees.bind hb fun y => ?_
    exact RSpline.composeB_agrees ..
  | .compose a b => by
    have ha := RPExpr.runB_agrees cfg σ a
    have hb := RPExpr.runB_agrees cfg σ b
    unfold RPExpr.runB
    refine Agrees.bind ha fun x => ?_
    refine Agrees.bind hb fun y => ?_
    exact RSpline.composeRationalB_agrees ..
  | .composeScalar a b => by
    have ha := RPExpr.runB_agrees cfg σ a
    have hb := RSExpr.runB_agrees cfg σ b
    unfold RPExpr.runB
    refine Agrees.bind ha fun x => ?_
    refine Agrees.bind hb fun y => ?_
    exact RSpline.composeRationalB_agrees ..
  | .polyCompose a b => by
    have ha := PExpr.runB_agrees cfg σ.toVars a
    have hb := RPExpr.runB_agrees cfg σ b
    unfold RPExpr.runB
    refine Agrees.bind ha fun x => ?_
    refine Agrees.bind hb fun y => ?_
    exact Spline.composeRationalB_agrees ..
  | .polyComposeScalar a b => by
    have ha := PExpr.runB_agrees cfg σ.toVars a
    have hb := RSExpr.runB_agrees cfg σ b
    unfold RPExpr.runB
    refine Agrees.bind ha fun x => ?_
    refine Agrees.bind hb fun y => ?_
    exact Spline.composeRationalB_agrees ..
  | .mulLeft a b => by
    have ha := RSExpr.runB_agrees cfg σ a
    have hb := RPExpr.runB_agrees cfg σ b
    unfold RPExpr.runB
    refine Agrees.bind ha fun x => ?_
    refine Agrees.bind hb fun y => ?_
    exact RSpline.mulOpB_agrees ..
  | .mulRight a b => by
    have ha := RPExpr.runB_agrees cfg σ a
    have hb := RSExpr.runB_agrees cfg σ b
    unfold RPExpr.runB
    refine Agrees.bind ha fun x => ?_
    refine Agrees.bind hb fun y => ?_
    exact RSpline.mulOpB_agrees ..
end


end

/-! ## Base64 -/

section
namespace Base64

theorem decodeB_debug (L : Nat) (base64string : List Nat) :
    decodeB .debug L base64string = decode L base64string := by
  simp only [decodeB, decode, Build.debug_assert]

theorem decodeB_agrees (L : Nat) (base64string : List Nat) :
    Agrees (decodeB .debug L base64string) (decodeB .release L base64string) := by
  unfold decodeB
  agrees

macro_rules | `(tactic| agrees_known) => `(tactic| with_reducible exact Base64.decodeB_agrees ..)

theorem decodePointsB_debug (dimension L : Nat) (base64string : List Nat) :
    decodePointsB .debug dimension L base64string = decodePoints dimension L base64string := by
  simp only [decodePointsB, decodePoints, Build.debug_assert, Base64.decodeB_debug]

theorem decodePointsB_agrees (dimension L : Nat) (base64string : List Nat) :
    Agrees (decodePointsB .debug dimension L base64string) (decodePointsB .release dimension L base64string) := by
  unfold decodePointsB
  agrees

macro_rules | `(tactic| agrees_known) => `(tactic| with_reducible exact Base64.decodePointsB_agrees ..)

end Base64
end

/-! ## AlgoDiff -/

section

namespace ADT

section
variable {B K : Type} [One B] [NatCast B] [Zero B] [Neg B] [Cmath B] [Scal B K]

theorem activeB_debug (value : K) (n i : Nat) :
    activeB (B := B) .debug value n i = active (B := B) value n i := by
  simp only [activeB, active, Build.debug_assert]

theorem activeB_agrees (value : K) (n i : Nat) :
    Agrees (activeB (B := B) .debug value n i) (activeB (B := B) .release value n i) := by
  unfold activeB
  agrees

macro_rules | `(tactic| agrees_known) => `(tactic| with_reducible exact ADT.activeB_agrees ..)

theorem addAssignB_debug (a b : ADT K) :
    addAssignB (B := B) .debug a b = addAssign (B := B) a b := by
  simp only [addAssignB, addAssign, Build.debug_assert]

theorem addAssignB_agrees (a b : ADT K) :
    Agrees (addAssignB (B := B) .debug a b) (addAssignB (B := B) .release a b) := by
  unfold addAssignB
  agrees

macro_rules | `(tactic| agrees_known) => `(tactic| with_reducible exact ADT.addAssignB_agrees ..)

theorem addAssignSelfB_debug (a : ADT K) :
    addAssignSelfB (B := B) .debug a = addAssignSelf (B := B) a := by
  simp only [addAssignSelfB, addAssignSelf, Build.debug_assert]

theorem addAssignSelfB_agrees (a : ADT K) :
    Agrees (addAssignSelfB (B := B) .debug a) (addAssignSelfB (B := B) .release a) := by
  unfold addAssignSelfB
  agrees

macro_rules | `(tactic| agrees_known) => `(tactic| with_reducible exact ADT.addAssignSelfB_agrees ..)

theorem addB_debug (a b : ADT K) :
    addB (B := B) .debug a b = add (B := B) a b := by
  simp only [addB, add, RSpline.addAssignB_debug, ADT.addAssignB_debug]

theorem addB_agrees (a b : ADT K) :
    Agrees (addB (B := B) .debug a b) (addB (B := B) .release a b) := by
  unfold addB
  agrees

macro_rules | `(tactic| agrees_known) => `(tactic| with_reducible exact ADT.addB_agrees ..)

theorem subB_debug (a b : ADT K) :
    subB (B := B) .debug a b = sub (B := B) a b := by
  simp only [subB, sub, Build.debug_assert]

theorem subB_agrees (a b : ADT K) :
    Agrees (subB (B := B) .debug a b) (subB (B := B) .release a b) := by
  unfold subB
  agrees

macro_rules | `(tactic| agrees_known) => `(tactic| with_reducible exact ADT.subB_agrees ..)

theorem mulAssignB_debug (a b : ADT K) :
    mulAssignB (B := B) .debug a b = mulAssign (B := B) a b := by
  simp only [mulAssignB, mulAssign, Build.debug_assert]

theorem mulAssignB_agrees (a b : ADT K) :
    Agrees (mulAssignB (B := B) .debug a b) (mulAssignB (B := B) .release a b) := by
  unfold mulAssignB
  agrees

macro_rules | `(tactic| agrees_known) => `(tactic| with_reducible exact ADT.mulAssignB_agrees ..)

theorem mulAssignSelfB_debug (a : ADT K) :
    mulAssignSelfB (B := B) .debug a = mulAssignSelf (B := B) a := by
  simp only [mulAssignSelfB, mulAssignSelf, Build.debug_assert]

theorem mulAssignSelfB_agrees (a : ADT K) :
    Agrees (mulAssignSelfB (B := B) .debug a) (mulAssignSelfB (B := B) .release a) := by
  unfold mulAssignSelfB
  agrees

macro_rules | `(tactic| agrees_known) => `(tactic| with_reducible exact ADT.mulAssignSelfB_agrees ..)

theorem mulB_debug (a b : ADT K) :
    mulB (B := B) .debug a b = mul (B := B) a b := by
  simp only [mulB, mul, ADT.mulAssignB_debug]

theorem mulB_agrees (a b : ADT K) :
    Agrees (mulB (B := B) .debug a b) (mulB (B := B) .release a b) := by
  unfold mulB
  agrees

macro_rules | `(tactic| agrees_known) => `(tactic| with_reducible exact ADT.mulB_agrees ..)

theorem divAssignB_debug (a b : ADT K) :
    divAssignB (B := B) .debug a b = divAssign (B := B) a b := by
  simp only [divAssignB, divAssign, Build.debug_assert]

theorem divAssignB_agrees (a b : ADT K) :
    Agrees (divAssignB (B := B) .debug a b) (divAssignB (B := B) .release a b) := by
  unfold divAssignB
  agrees

macro_rules | `(tactic| agrees_known) => `(tactic| with_reducible exact ADT.divAssignB_agrees ..)

theorem divAssignSelfB_debug (a : ADT K) :
    divAssignSelfB (B := B) .debug a = divAssignSelf (B := B) a := by
  simp only [divAssignSelfB, divAssignSelf, Build.debug_assert]

theorem divAssignSelfB_agrees (a : ADT K) :
    Agrees (divAssignSelfB (B := B) .debug a) (divAssignSelfB (B := B) .release a) := by
  unfold divAssignSelfB
  agrees

macro_rules | `(tactic| agrees_known) => `(tactic| with_reducible exact ADT.divAssignSelfB_agrees ..)

theorem divB_debug (a b : ADT K) :
    divB (B := B) .debug a b = div (B := B) a b := by
  simp only [divB, div, ADT.divAssignB_debug]

theorem divB_agrees (a b : ADT K) :
    Agrees (divB (B := B) .debug a b) (divB (B := B) .release a b) := by
  unfold divB
  agrees

macro_rules | `(tactic| agrees_known) => `(tactic| with_reducible exact ADT.divB_agrees ..)

theorem powB_debug (base power : ADT K) :
    powB (B := B) .debug base power = pow (B := B) base power := by
  simp only [powB, pow, ADT.mulB_debug]

theorem powB_agrees (base power : ADT K) :
    Agrees (powB (B := B) .debug base power) (powB (B := B) .release base power) := by
  unfold powB
  agrees

macro_rules | `(tactic| agrees_known) => `(tactic| with_reducible exact ADT.powB_agrees ..)

end

end ADT

theorem DExpr.runB_debug {B : Type} [One B] [NatCast B] [Zero B] [Add B] [Sub B] [Mul B] [Neg B] [Cmath B] (x : List B) : ∀ e : DExpr B, e.runB .debug x = e.run x
  | .var i => by
    simp only [DExpr.runB, DExpr.run, ADT.activeB_debug]
  | .const c => by
    simp only [DExpr.runB, DExpr.run]
  | .add a b => by
    have ha := DExpr.runB_debug x a
    have hb := DExpr.runB_debug x b
    simp only [DExpr.runB, DExpr.run, ha, hb, ADT.addB_debug]
  | .sub a b => by
    have ha := DExpr.runB_debug x a
    have hb := DExpr.runB_debug x b
    simp only [DExpr.runB, DExpr.run, ha, hb, ADT.subB_debug]
  | .mul a b => by
    have ha := DExpr.runB_debug x a
    have hb := DExpr.runB_debug x b
    simp only [DExpr.runB, DExpr.run, ha, hb, ADT.mulB_debug]
  | .div a b => by
    have ha := DExpr.runB_debug x a
    have hb := DExpr.runB_debug x b
    simp only [DExpr.runB, DExpr.run, ha, hb, ADT.divB_debug]
  | .neg a => by
    have ha := DExpr.runB_debug x a
    simp only [DExpr.runB, DExpr.run, ha]
  | .addScalar a c => by
    have ha := DExpr.runB_debug x a
    simp only [DExpr.runB, DExpr.run, ha]
  | .subScalar a c => by
    have ha := DExpr.runB_debug x a
    simp only [DExpr.runB, DExpr.run, ha]
  | .mulScalar a c => by
    have ha := DExpr.runB_debug x a
    simp only [DExpr.runB, DExpr.run, ha]
  | .divScalar a c => by
    have ha := DExpr.runB_debug x a
    simp only [DExpr.runB, DExpr.run, ha]
  | .scalarAdd c a => by
    have ha := DExpr.runB_debug x a
    simp only [DExpr.runB, DExpr.run, ha]
  | .scalarSub c a => by
    have ha := DExpr.runB_debug x a
    simp only [DExpr.runB, DExpr.run, ha]
  | .scalarMul c a => by
    have ha := DExpr.runB_debug x a
    simp only [DExpr.runB, DExpr.run, ha]
  | .scalarDiv c a => by
    have ha := DExpr.runB_debug x a
    simp only [DExpr.runB, DExpr.run, ha]
  | .exp a => by
    have ha := DExpr.runB_debug x a
    simp only [DExpr.runB, DExpr.run, ha]
  | .abs a => by
    have ha := DExpr.runB_debug x a
    simp only [DExpr.runB, DExpr.run, ha]
  | .powScalar a c => by
    have ha := DExpr.runB_debug x a
    simp only [DExpr.runB, DExpr.run, ha]
  | .pow a b => by
    have ha := DExpr.runB_debug x a
    have hb := DExpr.runB_debug x b
    simp only [DExpr.runB, DExpr.run, ha, hb, ADT.powB_debug]
  | .sqrt a => by
    have ha := DExpr.runB_debug x a
    simp only [DExpr.runB, DExpr.run, ha]
  | .log a => by
    have ha := DExpr.runB_debug x a
    simp only [DExpr.runB, DExpr.run, ha]
  | .log10 a => by
    have ha := DExpr.runB_debug x a
    simp only [DExpr.runB, DExpr.run, ha]
  | .cos a => by
    have ha := DExpr.runB_debug x a
    simp only [DExpr.runB, DExpr.run, ha]
  | .sin a => by
    have ha := DExpr.runB_debug x a
    simp only [DExpr.runB, DExpr.run, ha]
  | .tan a => by
    have ha := DExpr.runB_debug x a
    simp only [DExpr.runB, DExpr.run, ha]
  | .acos a => by
    have ha := DExpr.runB_debug x a
    simp only [DExpr.runB, DExpr.run, ha]
  | .asin a => by
    have ha := DExpr.runB_debug x a
    simp only [DExpr.runB, DExpr.run, ha]
  | .atan a => by
    have ha := DExpr.runB_debug x a
    simp only [DExpr.runB, DExpr.run, ha]

theorem DExpr.runB_agrees {B : Type} [One B] [NatCast B] [Zero B] [Add B] [Sub B] [Mul B] [Neg B] [Cmath B] (x : List B) (e : DExpr B) :
    Agrees (e.runB .debug x) (e.runB .release x) := by
  induction e with
  | var i =>
    exact Agrees.bind (Agrees.refl _) fun _ => ADT.activeB_agrees ..
  | const c =>
    exact Agrees.refl _
  | add a b ha hb =>
    exact Agrees.bind ha fun _ => Agrees.bind hb fun _ => ADT.addB_agrees ..
  | sub a b ha hb =>
    exact Agrees.bind ha fun _ => Agrees.bind hb fun _ => ADT.subB_agrees ..
  | mul a b ha hb =>
    exact Agrees.bind ha fun _ => Agrees.bind hb fun _ => ADT.mulB_agrees ..
  | div a b ha hb =>
    exact Agrees.bind ha fun _ => Agrees.bind hb fun _ => ADT.divB_agrees ..
  | neg a ha =>
    exact Agrees.bind ha fun _ => Agrees.refl _
  | addScalar a c ha =>
    exact Agrees.bind ha fun _ => Agrees.refl _
  | subScalar a c ha =>
    exact Agrees.bind ha fun _ => Agrees.refl _
  | mulScalar a c ha =>
    exact Agrees.bind ha fun _ => Agrees.refl _
  | divScalar a c ha =>
    exact Agrees.bind ha fun _ => Agrees.refl _
  | scalarAdd c a ha =>
    exact Agrees.bind ha fun _ => Agrees.refl _
  | scalarSub c a ha =>
    exact Agrees.bind ha fun _ => Agrees.refl _
  | scalarMul c a ha =>
    exact Agrees.bind ha fun _ => Agrees.refl _
  | scalarDiv c a ha =>
    exact Agrees.bind ha fun _ => Agrees.refl _
  | exp a ha =>
    exact Agrees.bind ha fun _ => Agrees.refl _
  | abs a ha =>
    exact Agrees.bind ha fun _ => Agrees.refl _
  | powScalar a c ha =>
    exact Agrees.bind ha fun _ => Agrees.refl _
  | pow a b ha hb =>
    exact Agrees.bind ha fun _ => Agrees.bind hb fun _ => ADT.powB_agrees ..
  | sqrt a ha =>
    exact Agrees.bind ha fun _ => Agrees.refl _
  | log a ha =>
    exact Agrees.bind ha fun _ => Agrees.refl _
  | log10 a ha =>
    exact Agrees.bind ha fun _ => Agrees.refl _
  | cos a ha =>
    exact Agrees.bind ha fun _ => Agrees.refl _
  | sin a ha =>
    exact Agrees.bind ha fun _ => Agrees.refl _
  | tan a ha =>
    exact Agrees.bind ha fun _ => Agrees.refl _
  | acos a ha =>
    exact Agrees.bind ha fun _ => Agrees.refl _
  | asin a ha =>
    exact Agrees.bind ha fun _ => Agrees.refl _
  | atan a ha =>
    exact Agrees.bind ha fun _ => Agrees.refl _

end

end Bezman
