import Verif.Proofs.Release

/-! # Release builds: no function ends with a failed assertion -/

set_option linter.unusedSectionVars false

namespace Bezman
open Spec

/-- the call does not end with a failed assertion -/
structure NoAssert {α : Type} (m : M α) : Prop where
  ne : m ≠ .error .assertFail

namespace NoAssert

theorem ok {α : Type} (x : α) : NoAssert (.ok x : M α) := ⟨nofun⟩
theorem pure {α : Type} (x : α) : NoAssert (Pure.pure x : M α) := ⟨nofun⟩
theorem err {α : Type} {e : Err} (h : e ≠ .assertFail) : NoAssert (.error e : M α) := ⟨fun h' => h (Except.error.inj h')⟩
theorem thr {α : Type} {e : Err} (h : e ≠ .assertFail) : NoAssert (throw e : M α) := ⟨fun h' => h (Except.error.inj h')⟩
theorem assert (b : Bool) : NoAssert (Build.release.assert b) := ⟨nofun⟩

theorem bind {α β : Type} {r : M α} {g : α → M β} (h : NoAssert r) (hf : ∀ x, NoAssert (g x)) : NoAssert (r >>= g) := by
  cases r with
  | error e => exact ⟨fun h' => h.ne (congrArg Except.error (Except.error.inj h'))⟩
  | ok x => exact hf x

theorem map {α β : Type} {r : M α} {g : α → β} (h : NoAssert r) : NoAssert (g <$> r) := by
  cases r with
  | error e => exact ⟨fun h' => h.ne (congrArg Except.error (Except.error.inj h'))⟩
  | ok x => exact ⟨nofun⟩

theorem loop {σ : Type} {g : Nat → σ → M σ} (h : ∀ i s, NoAssert (g i s)) : ∀ (n : Nat) (s : σ), NoAssert (Bezman.loop n g s)
  | 0, _ => ok _
  | n + 1, s => bind (loop h n s) fun x => h n x

theorem loopFrom {σ : Type} {a b : Nat} {g : Nat → σ → M σ} {s : σ} (h : ∀ i s, NoAssert (g i s)) :
    NoAssert (Bezman.loopFrom a b g s) := loop (fun i s => h _ s) _ _

theorem loopDown {σ : Type} {n : Nat} {g : Nat → σ → M σ} {s : σ} (h : ∀ i s, NoAssert (g i s)) :
    NoAssert (Bezman.loopDown n g s) := loop (fun i s => h _ s) _ _

theorem whileM {σ : Type} {c : σ → M Bool} {g : σ → M σ} (hc : ∀ s, NoAssert (c s)) (h : ∀ s, NoAssert (g s)) :
    ∀ (n : Nat) (s : σ), NoAssert (Bezman.whileM n c g s)
  | 0, _ => err nofun
  | n + 1, s => by
    unfold Bezman.whileM
    split
    · next e he => exact ⟨fun h' => (hc s).ne (he.trans (congrArg Except.error (Except.error.inj h')))⟩
    · exact ok _
    · exact bind (h s) fun x => whileM hc h n x

theorem ite {α : Type} {c : Prop} [Decidable c] {m r : M α} (h : NoAssert m) (h' : NoAssert r) :
    NoAssert (if c then m else r) := by
  split
  · exact h
  · exact h'

theorem rd {α : Type} (l : List α) (i : Nat) : NoAssert (Bezman.rd l i) := by
  unfold Bezman.rd; split <;> exact ⟨nofun⟩
theorem wr {α : Type} (l : List α) (i : Nat) (x : α) : NoAssert (Bezman.wr l i x) := by
  unfold Bezman.wr; split <;> exact ⟨nofun⟩

theorem dite {α : Type} {c : Prop} [Decidable c] {m : c → M α} {r : ¬c → M α} (h : ∀ hc, NoAssert (m hc)) (h' : ∀ hc, NoAssert (r hc)) :
    NoAssert (if hc : c then m hc else r hc) := by
  split
  · exact h _
  · exact h' _

end NoAssert

open Lean Elab Tactic Meta in
/-- unfolds the function called in the goal -/
elab "na_unfold" : tactic => withMainContext do
  let g ← getMainGoal
  let t := (← instantiateMVars (← g.getType)).consumeMData
  let .app f m := t | throwError "no call"
  unless t.getAppFn.isConstOf ``NoAssert do throwError "not a call"
  if let .letE _ _ v b _ := m.consumeMData then
    replaceMainGoal [← g.replaceTargetDefEq (.app f (b.instantiate1 v).headBeta)]
    return
  let .const n _ := m.getAppFn | throwError "no function"
  if (← isMatcher n) then throwError "match"
  if n == ``Bind.bind || n == ``Pure.pure || n == ``ite || n == ``dite then throwError "structure"
  let some m' ← unfoldDefinition? m | throwError "cannot unfold"
  replaceMainGoal [← g.replaceTargetDefEq (.app f m'.headBeta)]

/-- the functions already proved not to fail -/
syntax "na_known" : tactic
macro_rules | `(tactic| na_known) => `(tactic| with_reducible exact NoAssert.assert _)
macro_rules | `(tactic| na_known) => `(tactic| with_reducible exact NoAssert.rd _ _)
macro_rules | `(tactic| na_known) => `(tactic| with_reducible exact NoAssert.wr _ _ _)
macro_rules | `(tactic| na_known) => `(tactic| with_reducible exact NoAssert.ok _)
macro_rules | `(tactic| na_known) => `(tactic| with_reducible exact NoAssert.pure _)
macro_rules | `(tactic| na_known) => `(tactic| (with_reducible refine NoAssert.err ?_) <;> (intro h; nomatch h))
macro_rules | `(tactic| na_known) => `(tactic| (with_reducible refine NoAssert.thr ?_) <;> (intro h; nomatch h))

/-- follows the structure of a function -/
macro "na" : tactic => `(tactic| repeat' (first
  | (with_reducible refine NoAssert.bind ?_ fun _ => ?_)
  | (with_reducible exact NoAssert.pure _)
  | (with_reducible exact NoAssert.rd _ _)
  | (with_reducible refine NoAssert.loop (fun _ _ => ?_) _ _)
  | (with_reducible refine NoAssert.loopFrom fun _ _ => ?_)
  | (with_reducible refine NoAssert.loopDown fun _ _ => ?_)
  | (with_reducible refine NoAssert.whileM (fun _ => ?_) (fun _ => ?_) _ _)
  | (with_reducible refine NoAssert.map ?_)
  | (with_reducible refine NoAssert.ite ?_ ?_)
  | (with_reducible refine NoAssert.dite (fun _ => ?_) (fun _ => ?_))
  | na_known
  | assumption
  | intro _
  | na_unfold
  | split))

/-! ## Functions without assertions -/

section

theorem recursiveCombine__na {K : Type} [One K] [Mul K] : ∀ (n : Nat) (factors : List (List K)) (result : List K) (c : K),
    NoAssert (recursiveCombine_ n factors result c)
  | 0, _, _, _ => by
    unfold recursiveCombine_
    na
  | n + 1, _, _, _ => by
    have ih := recursiveCombine__na (K := K) n
    unfold recursiveCombine_
    na
    exact ih _ _ _

macro_rules | `(tactic| na_known) => `(tactic| with_reducible exact recursiveCombine__na ..)

namespace Spline
variable {K V : Type}

theorem ofDegrees_na [Zero V] (deg : List Nat) : NoAssert (ofDegrees (V := V) deg) := by
  unfold ofDegrees
  na

macro_rules | `(tactic| na_known) => `(tactic| with_reducible exact Spline.ofDegrees_na ..)

theorem orderElevate_na [One K] [Sub K] [Mul K] [Div K] [NatCast K] [Zero V] [Add V] [SMul K V] (s : Spline V) (d : Nat) :
    NoAssert (orderElevate K s d) := by
  unfold orderElevate
  na

macro_rules | `(tactic| na_known) => `(tactic| with_reducible exact Spline.orderElevate_na ..)

theorem elevateTo_na [One K] [Sub K] [Mul K] [Div K] [NatCast K] [Zero V] [Add V] [SMul K V] (cfg : Cfg) (s : Spline V) (target : List Nat) :
    NoAssert (elevateTo K cfg s target) := by
  unfold elevateTo
  na

macro_rules | `(tactic| na_known) => `(tactic| with_reducible exact Spline.elevateTo_na ..)

theorem addAssign_na [One K] [Sub K] [Mul K] [Div K] [NatCast K] [Zero V] [Add V] [SMul K V] (cfg : Cfg) (s rhs : Spline V) :
    NoAssert (addAssign K cfg s rhs) := by
  unfold addAssign
  na

macro_rules | `(tactic| na_known) => `(tactic| with_reducible exact Spline.addAssign_na ..)

theorem subAssign_na [One K] [Sub K] [Mul K] [Div K] [NatCast K] [Zero V] [Add V] [SMul K V] [Sub V] (cfg : Cfg) (s rhs : Spline V) :
    NoAssert (subAssign K cfg s rhs) := by
  unfold subAssign
  na

macro_rules | `(tactic| na_known) => `(tactic| with_reducible exact Spline.subAssign_na ..)

theorem extractDimension_na [Zero K] [Coords K V] (s : Spline V) (j : Nat) : NoAssert (extractDimension (K := K) s j) := by
  unfold extractDimension
  na

macro_rules | `(tactic| na_known) => `(tactic| with_reducible exact Spline.extractDimension_na ..)

theorem splitAt_na [Zero K] [One K] [Sub K] [LT K] [DecidableLT K] [Add V] [SMul K V] (s : Spline V) (z : K) (d : Nat) : NoAssert (splitAt s z d) := by
  unfold splitAt
  na

macro_rules | `(tactic| na_known) => `(tactic| with_reducible exact Spline.splitAt_na ..)

theorem splitAtMany_na [Zero K] [One K] [Sub K] [LT K] [DecidableLT K] [Add V] [SMul K V] [Div K] (s : Spline V) (z : List K) (d : Nat) : NoAssert (splitAtMany s z d) := by
  unfold splitAtMany
  na

macro_rules | `(tactic| na_known) => `(tactic| with_reducible exact Spline.splitAtMany_na ..)

theorem mapCps_na (s : Spline V) (f : V → V) : NoAssert (mapCps s f) := by
  unfold mapCps
  na

macro_rules | `(tactic| na_known) => `(tactic| with_reducible exact Spline.mapCps_na ..)

theorem negOp_na [Neg V] (s : Spline V) : NoAssert (negOp s) := by
  unfold negOp
  na

macro_rules | `(tactic| na_known) => `(tactic| with_reducible exact Spline.negOp_na ..)

theorem pointSub_na [Sub V] [Neg V] (v : V) (s : Spline V) : NoAssert (pointSub v s) := by
  unfold pointSub
  na

macro_rules | `(tactic| na_known) => `(tactic| with_reducible exact Spline.pointSub_na ..)

theorem minimumCorner_na [Coords K V] [LT K] [DecidableLT K] (s : Spline V) : NoAssert (minimumCorner K s) := by
  unfold minimumCorner
  na

macro_rules | `(tactic| na_known) => `(tactic| with_reducible exact Spline.minimumCorner_na ..)

theorem maximumCorner_na [Coords K V] [LT K] [DecidableLT K] (s : Spline V) : NoAssert (maximumCorner K s) := by
  unfold maximumCorner
  na

macro_rules | `(tactic| na_known) => `(tactic| with_reducible exact Spline.maximumCorner_na ..)

theorem fitsIntoUnitCube_na [Coords K V] [LT K] [DecidableLT K] [Zero K] [One K] (s : Spline V) : NoAssert (fitsIntoUnitCube K s) := by
  unfold fitsIntoUnitCube
  na

macro_rules | `(tactic| na_known) => `(tactic| with_reducible exact Spline.fitsIntoUnitCube_na ..)

end Spline

namespace RSpline
variable {K V : Type}

theorem corner_na [Coords K V] [Zero K] [BEq K] [ScalarDiv K V] [LT K] [DecidableLT K] (pick : K → K → K) (r : RSpline K V) : NoAssert (corner pick r) := by
  unfold corner
  na

macro_rules | `(tactic| na_known) => `(tactic| with_reducible exact RSpline.corner_na ..)

theorem fitsIntoUnitCube_na [Coords K V] [Zero K] [BEq K] [ScalarDiv K V] [LT K] [DecidableLT K] [One K] (r : RSpline K V) : NoAssert (fitsIntoUnitCube r) := by
  unfold fitsIntoUnitCube
  na

macro_rules | `(tactic| na_known) => `(tactic| with_reducible exact RSpline.fitsIntoUnitCube_na ..)

end RSpline

end

/-! ## Binomial -/

section

theorem chooseB_na (cfg : Cfg) (n i : Nat) :
    NoAssert (chooseB .release cfg n i) := by
  unfold chooseB
  na

macro_rules | `(tactic| na_known) => `(tactic| with_reducible exact chooseB_na ..)

end

/-! ## Bernstein -/

section

section
variable {K : Type} [Zero K] [One K] [Add K] [Sub K] [Mul K] [Neg K] [NatCast K]

theorem bernsteinEvaluateB_na (cfg : Cfg) (degree : Nat) (value : K) :
    NoAssert (bernsteinEvaluateB .release cfg degree value) := by
  unfold bernsteinEvaluateB
  na

macro_rules | `(tactic| na_known) => `(tactic| with_reducible exact bernsteinEvaluateB_na ..)

theorem bernsteinEvaluateDerivativeB_na (cfg : Cfg) (degree : Nat) (value : K) (deriv : Nat) :
    NoAssert (bernsteinEvaluateDerivativeB .release cfg degree value deriv) := by
  unfold bernsteinEvaluateDerivativeB
  na

macro_rules | `(tactic| na_known) => `(tactic| with_reducible exact bernsteinEvaluateDerivativeB_na ..)

end

end

/-! ## Spline -/

section

namespace Spline
variable {K V : Type}

theorem ofPointsB_na (deg : List Nat) (points : List V) :
    NoAssert (ofPointsB .release deg points) := by
  unfold ofPointsB
  na

macro_rules | `(tactic| na_known) => `(tactic| with_reducible exact Spline.ofPointsB_na ..)

section basis
variable [Zero K] [One K] [Add K] [Sub K] [Mul K] [Neg K] [NatCast K]

theorem basisFunctionContributionsB_na (cfg : Cfg) (s : Spline V) (t : List K) :
    NoAssert (basisFunctionContributionsB .release cfg s t) := by
  unfold basisFunctionContributionsB
  na

macro_rules | `(tactic| na_known) => `(tactic| with_reducible exact Spline.basisFunctionContributionsB_na ..)

theorem basisFunctionsB_na (cfg : Cfg) (s : Spline V) (t : List K) :
    NoAssert (basisFunctionsB .release cfg s t) := by
  unfold basisFunctionsB
  na

macro_rules | `(tactic| na_known) => `(tactic| with_reducible exact Spline.basisFunctionsB_na ..)

theorem basisFunctionsDerivativeContributionsB_na (cfg : Cfg) (s : Spline V) (t : List K) (nth_derivs : List Nat) :
    NoAssert (basisFunctionsDerivativeContributionsB .release cfg s t nth_derivs) := by
  unfold basisFunctionsDerivativeContributionsB
  na

macro_rules | `(tactic| na_known) => `(tactic| with_reducible exact Spline.basisFunctionsDerivativeContributionsB_na ..)

theorem basisFunctionsDerivativesB_na (cfg : Cfg) (s : Spline V) (t : List K) (nth_derivs : List Nat) :
    NoAssert (basisFunctionsDerivativesB .release cfg s t nth_derivs) := by
  unfold basisFunctionsDerivativesB
  na

macro_rules | `(tactic| na_known) => `(tactic| with_reducible exact Spline.basisFunctionsDerivativesB_na ..)

variable [Zero V] [Add V] [SMul K V]

theorem forwardEvaluateB_na (cfg : Cfg) (s : Spline V) (t : List K) :
    NoAssert (forwardEvaluateB .release cfg s t) := by
  unfold forwardEvaluateB
  na

macro_rules | `(tactic| na_known) => `(tactic| with_reducible exact Spline.forwardEvaluateB_na ..)

theorem evaluateDerivativeB_na (cfg : Cfg) (s : Spline V) (t : List K) (nth_derivs : List Nat) :
    NoAssert (evaluateDerivativeB .release cfg s t nth_derivs) := by
  unfold evaluateDerivativeB
  na

macro_rules | `(tactic| na_known) => `(tactic| with_reducible exact Spline.evaluateDerivativeB_na ..)

end basis

end Spline
end

/-! ## Elevate -/

section
namespace Spline
variable {K V : Type}

section
variable [One K] [Neg K] [Mul K] [NatCast K] [Zero V] [Add V] [SMul K V]

variable (K) in
theorem derivativeSplineB_na (cfg : Cfg) (s : Spline V) (orders : List Nat) :
    NoAssert (derivativeSplineB K .release cfg s orders) := by
  unfold derivativeSplineB
  na

macro_rules | `(tactic| na_known) => `(tactic| with_reducible exact Spline.derivativeSplineB_na ..)

end
end Spline
end

/-! ## Arith -/

section
namespace Spline
variable {K V W U : Type}

section
variable [One K] [Sub K] [Mul K] [Div K] [NatCast K] [Zero V] [Add V] [SMul K V]

variable (K) in
theorem addAuxB_na (cfg : Cfg) : ∀ (n : Nat) (s rhs : Spline V), NoAssert (addAuxB K .release cfg n s rhs)
  | 0, _, _ => (by na)
  | n + 1, s, rhs => by
    have ih := addAuxB_na cfg n
    unfold addAuxB
    na
    exact ih _ _

macro_rules | `(tactic| na_known) => `(tactic| with_reducible exact Spline.addAuxB_na ..)

variable (K) in
theorem addOpB_na (cfg : Cfg) (s rhs : Spline V) :
    NoAssert (addOpB K .release cfg s rhs) := by
  unfold addOpB
  na

macro_rules | `(tactic| na_known) => `(tactic| with_reducible exact Spline.addOpB_na ..)

variable (K) in
theorem subOpB_na [Sub V] (cfg : Cfg) (s rhs : Spline V) :
    NoAssert (subOpB K .release cfg s rhs) := by
  unfold subOpB
  na

macro_rules | `(tactic| na_known) => `(tactic| with_reducible exact Spline.subOpB_na ..)

end

section
variable [One K] [Mul K] [Div K] [NatCast K] [Zero U] [Add U] [SMul K U]

theorem combineForProductB_na (cfg : Cfg) (mul : V → W → U) (P : Spline V) (Q : Spline W) (ctpsIndex : List Nat) :
    ∀ (n : Nat) (factor : K) (indices : List Nat) (R : Spline U),
    NoAssert (combineForProductB .release cfg mul P Q ctpsIndex n factor indices R)
  | 0, _, _, _ => by
    unfold combineForProductB
    na
  | n + 1, _, _, _ => by
    have ih := combineForProductB_na cfg mul P Q ctpsIndex n
    unfold combineForProductB
    na
    exact ih _ _ _

macro_rules | `(tactic| na_known) => `(tactic| with_reducible exact Spline.combineForProductB_na ..)

variable (K) in
theorem mulOpB_na (cfg : Cfg) (mul : V → W → U) (s : Spline V) (rhs : Spline W) :
    NoAssert (mulOpB K .release cfg mul s rhs) := by
  unfold mulOpB
  na

macro_rules | `(tactic| na_known) => `(tactic| with_reducible exact Spline.mulOpB_na ..)

end

section
variable [Zero K] [One K] [Add K] [Mul K] [Div K] [NatCast K]

theorem mulScalarB_na (cfg : Cfg) (s rhs : Spline K) :
    NoAssert (mulScalarB .release cfg s rhs) := by
  unfold mulScalarB
  na

macro_rules | `(tactic| na_known) => `(tactic| with_reducible exact Spline.mulScalarB_na ..)

theorem oneSplineB_na (dim : Nat) :
    NoAssert (oneSplineB (K := K) .release dim) := by
  unfold oneSplineB
  na

macro_rules | `(tactic| na_known) => `(tactic| with_reducible exact Spline.oneSplineB_na ..)

theorem raisePowerAuxB_na (cfg : Cfg) (s : Spline K) :
    ∀ (n power : Nat), NoAssert (raisePowerAuxB .release cfg s n power)
  | 0, _ => (by na)
  | n + 1, _ => by
    have ih := raisePowerAuxB_na cfg s n
    unfold raisePowerAuxB
    na
    exact ih _

macro_rules | `(tactic| na_known) => `(tactic| with_reducible exact Spline.raisePowerAuxB_na ..)

theorem raisePowerB_na (cfg : Cfg) (s : Spline K) (power : Nat) :
    NoAssert (raisePowerB .release cfg s power) := by
  unfold raisePowerB
  na

macro_rules | `(tactic| na_known) => `(tactic| with_reducible exact Spline.raisePowerB_na ..)

end

end Spline
end

/-! ## Compose -/

section
namespace Spline
variable {K V W : Type}

section
variable [Zero K] [One K] [Add K] [Sub K] [Mul K] [Neg K] [Div K] [NatCast K]

theorem composeBernsteinB_na (cfg : Cfg) (p : Nat) (innerDim : Nat) (extracted inverse : Spline K) :
    NoAssert (composeBernsteinB .release cfg p innerDim extracted inverse) := by
  unfold composeBernsteinB
  na

macro_rules | `(tactic| na_known) => `(tactic| with_reducible exact Spline.composeBernsteinB_na ..)

theorem composeBasesB_na (cfg : Cfg) (degrees : List Nat) (innerDim : Nat) (extract : Nat → M (Spline K)) (inverse' : Spline K → M (Spline K)) (he : ∀ j, NoAssert (extract j)) (h : ∀ e, NoAssert (inverse' e)) :
    NoAssert (composeBasesB .release cfg degrees innerDim extract inverse') := by
  unfold composeBasesB
  na
  all_goals first | exact h _ | exact he _

macro_rules | `(tactic| na_known) => `(tactic| (with_reducible apply Spline.composeBasesB_na))

theorem composeTensorB_na (cfg : Cfg) (bases : List (List (Spline K))) (idx : List Nat) :
    NoAssert (composeTensorB .release cfg bases idx) := by
  unfold composeTensorB
  na

macro_rules | `(tactic| na_known) => `(tactic| with_reducible exact Spline.composeTensorB_na ..)

variable [Zero V] [Add V] [SMul K V]

theorem composeNumeratorB_na (cfg : Cfg) (s : Spline V) (innerDegrees : List Nat) (extract : Nat → M (Spline K)) (inverse' : Spline K → M (Spline K)) (he : ∀ j, NoAssert (extract j)) (h : ∀ e, NoAssert (inverse' e)) :
    NoAssert (composeNumeratorB .release cfg s innerDegrees extract inverse') := by
  unfold composeNumeratorB
  na
  all_goals first | exact h _ | exact he _

macro_rules | `(tactic| na_known) => `(tactic| (with_reducible apply Spline.composeNumeratorB_na))

omit [Zero V] [Add V] [SMul K V] in
theorem composeNumeratorSensitivityB_na (cfg : Cfg) (s : Spline V) (innerDegrees : List Nat) (extract : Nat → M (Spline K)) (inverse' : Spline K → M (Spline K)) (he : ∀ j, NoAssert (extract j)) (h : ∀ e, NoAssert (inverse' e)) :
    NoAssert (composeNumeratorSensitivityB .release cfg s innerDegrees extract inverse') := by
  unfold composeNumeratorSensitivityB
  na
  all_goals first | exact h _ | exact he _

macro_rules | `(tactic| na_known) => `(tactic| (with_reducible apply Spline.composeNumeratorSensitivityB_na))

variable [Coords K W] [LT K] [DecidableLT K]

variable (K) in
theorem composeB_na (cfg : Cfg) (s : Spline V) (inner : Spline W) :
    NoAssert (composeB K .release cfg s inner) := by
  unfold composeB
  na

macro_rules | `(tactic| na_known) => `(tactic| with_reducible exact Spline.composeB_na ..)

omit [Zero V] [Add V] [SMul K V] in
variable (K) in
theorem composeSensitivityB_na (cfg : Cfg) (s : Spline V) (inner : Spline W) :
    NoAssert (composeSensitivityB K .release cfg s inner) := by
  unfold composeSensitivityB
  na

macro_rules | `(tactic| na_known) => `(tactic| with_reducible exact Spline.composeSensitivityB_na ..)

end
end Spline
end

/-! ## Rational -/

section

namespace RSpline
variable {K V W U : Type}

theorem ofSplinesB_na (num : Spline V) (wt : Spline K) :
    NoAssert (ofSplinesB .release num wt) := by
  unfold ofSplinesB
  na

macro_rules | `(tactic| na_known) => `(tactic| with_reducible exact RSpline.ofSplinesB_na ..)

theorem ofSplineB_na [One K] (s : Spline V) :
    NoAssert (ofSplineB (K := K) .release s) := by
  unfold ofSplineB
  na

macro_rules | `(tactic| na_known) => `(tactic| with_reducible exact RSpline.ofSplineB_na ..)

theorem ofPointsB_na [Zero V] [SMul K V] (deg : List Nat) (points : List V) (weights : List K) :
    NoAssert (ofPointsB .release deg points weights) := by
  unfold ofPointsB
  na

macro_rules | `(tactic| na_known) => `(tactic| with_reducible exact RSpline.ofPointsB_na ..)

theorem updateDegreesB_na [Zero K] [Zero V] (r : RSpline K V) (new_degrees : List Nat) :
    NoAssert (updateDegreesB .release r new_degrees) := by
  unfold updateDegreesB
  na

macro_rules | `(tactic| na_known) => `(tactic| with_reducible exact RSpline.updateDegreesB_na ..)

section
variable [Zero K] [One K] [Add K] [Sub K] [Mul K] [Neg K] [Div K] [NatCast K]

theorem unweightedBasisFunctionsB_na [BEq K] (cfg : Cfg) (r : RSpline K V) (t : List K) :
    NoAssert (unweightedBasisFunctionsB .release cfg r t) := by
  unfold unweightedBasisFunctionsB
  na

macro_rules | `(tactic| na_known) => `(tactic| with_reducible exact RSpline.unweightedBasisFunctionsB_na ..)

theorem basisFunctionsB_na [BEq K] (cfg : Cfg) (r : RSpline K V) (t : List K) :
    NoAssert (basisFunctionsB .release cfg r t) := by
  unfold basisFunctionsB
  na

macro_rules | `(tactic| na_known) => `(tactic| with_reducible exact RSpline.basisFunctionsB_na ..)

theorem basisFunctionContributionsB_na (cfg : Cfg) (r : RSpline K V) (t : List K) :
    NoAssert (basisFunctionContributionsB .release cfg r t) := by
  unfold basisFunctionContributionsB
  na

macro_rules | `(tactic| na_known) => `(tactic| with_reducible exact RSpline.basisFunctionContributionsB_na ..)

theorem forwardEvaluateB_na [Zero V] [Add V] [SMul K V] (cfg : Cfg) (r : RSpline K V) (t : List K) :
    NoAssert (forwardEvaluateB .release cfg r t) := by
  unfold forwardEvaluateB
  na

macro_rules | `(tactic| na_known) => `(tactic| with_reducible exact RSpline.forwardEvaluateB_na ..)

end

section
variable [Zero K] [One K] [Add K] [Sub K] [Mul K] [Div K] [NatCast K] [Zero V] [Add V] [SMul K V]

theorem orderElevateB_na (r : RSpline K V) (par_dim : Nat) :
    NoAssert (orderElevateB .release r par_dim) := by
  unfold orderElevateB
  na

macro_rules | `(tactic| na_known) => `(tactic| with_reducible exact RSpline.orderElevateB_na ..)

omit [Div K] [NatCast K] [Zero V] in
theorem splitAtB_na [LT K] [DecidableLT K] (r : RSpline K V) (plane : K) (sd : Nat) :
    NoAssert (splitAtB .release r plane sd) := by
  unfold splitAtB
  na

macro_rules | `(tactic| na_known) => `(tactic| with_reducible exact RSpline.splitAtB_na ..)

omit [NatCast K] [Zero V] in
theorem splitAtManyB_na [LT K] [DecidableLT K] (r : RSpline K V) (planes : List K) (sd : Nat) :
    NoAssert (splitAtManyB .release r planes sd) := by
  unfold splitAtManyB
  na

macro_rules | `(tactic| na_known) => `(tactic| with_reducible exact RSpline.splitAtManyB_na ..)

end

theorem smulAssignB_na [SMul K V] (r : RSpline K V) (c : K) :
    NoAssert (smulAssignB .release r c) := by
  unfold smulAssignB
  na

macro_rules | `(tactic| na_known) => `(tactic| with_reducible exact RSpline.smulAssignB_na ..)

theorem smulOpB_na [SMul K V] (r : RSpline K V) (c : K) :
    NoAssert (smulOpB .release r c) := by
  unfold smulOpB
  na

macro_rules | `(tactic| na_known) => `(tactic| with_reducible exact RSpline.smulOpB_na ..)

theorem addPointAssignB_na [Add V] [SMul K V] (r : RSpline K V) (pt : V) :
    NoAssert (addPointAssignB .release r pt) := by
  unfold addPointAssignB
  na

macro_rules | `(tactic| na_known) => `(tactic| with_reducible exact RSpline.addPointAssignB_na ..)

theorem addPointB_na [Add V] [SMul K V] (r : RSpline K V) (pt : V) :
    NoAssert (addPointB .release r pt) := by
  unfold addPointB
  na

macro_rules | `(tactic| na_known) => `(tactic| with_reducible exact RSpline.addPointB_na ..)

theorem subPointB_na [Sub V] [SMul K V] (r : RSpline K V) (pt : V) :
    NoAssert (subPointB .release r pt) := by
  unfold subPointB
  na

macro_rules | `(tactic| na_known) => `(tactic| with_reducible exact RSpline.subPointB_na ..)

theorem negOpB_na [Neg V] (r : RSpline K V) :
    NoAssert (negOpB .release r) := by
  unfold negOpB
  na

macro_rules | `(tactic| na_known) => `(tactic| with_reducible exact RSpline.negOpB_na ..)

section
variable [Zero K] [One K] [Add K] [Sub K] [Mul K] [Div K] [NatCast K] [Zero V] [Add V] [SMul K V]
  [BEq K]

omit [Sub K] [BEq K] in
theorem mulWeightB_na (cfg : Cfg) (w : Spline K) (s : Spline V) :
    NoAssert (mulWeightB .release cfg w s) := by
  unfold mulWeightB
  na

macro_rules | `(tactic| na_known) => `(tactic| with_reducible exact RSpline.mulWeightB_na ..)

omit [Sub K] [BEq K] in
theorem mulWeight'B_na (cfg : Cfg) (s : Spline V) (w : Spline K) :
    NoAssert (mulWeight'B .release cfg s w) := by
  unfold mulWeight'B
  na

macro_rules | `(tactic| na_known) => `(tactic| with_reducible exact RSpline.mulWeight'B_na ..)

theorem addOpB_na (cfg : Cfg) (r rhs : RSpline K V) :
    NoAssert (addOpB .release cfg r rhs) := by
  unfold addOpB
  na

macro_rules | `(tactic| na_known) => `(tactic| with_reducible exact RSpline.addOpB_na ..)

theorem addAssignB_na (cfg : Cfg) (r rhs : RSpline K V) :
    NoAssert (addAssignB .release cfg r rhs) := by
  unfold addAssignB
  na

macro_rules | `(tactic| na_known) => `(tactic| with_reducible exact RSpline.addAssignB_na ..)

theorem subOpB_na [Sub V] (cfg : Cfg) (r rhs : RSpline K V) :
    NoAssert (subOpB .release cfg r rhs) := by
  unfold subOpB
  na

macro_rules | `(tactic| na_known) => `(tactic| with_reducible exact RSpline.subOpB_na ..)

theorem subAssignB_na [Sub V] (cfg : Cfg) (r rhs : RSpline K V) :
    NoAssert (subAssignB .release cfg r rhs) := by
  unfold subAssignB
  na

macro_rules | `(tactic| na_known) => `(tactic| with_reducible exact RSpline.subAssignB_na ..)

omit [Sub K] [Zero V] [Add V] [SMul K V] [BEq K] in
theorem mulOpB_na [Zero U] [Add U] [SMul K U] (cfg : Cfg) (mul : V → W → U) (r : RSpline K V) (rhs : RSpline K W) :
    NoAssert (mulOpB .release cfg mul r rhs) := by
  unfold mulOpB
  na

macro_rules | `(tactic| na_known) => `(tactic| with_reducible exact RSpline.mulOpB_na ..)

end

end RSpline

section
variable {K V W : Type} [Zero K] [One K] [Add K] [Sub K] [Mul K] [Neg K] [Div K] [NatCast K]
  [Zero V] [Add V] [SMul K V] [Coords K W]

theorem Spline.composeNumeratorRationalB_na (cfg : Cfg) (s : Spline V) (inner : RSpline K W) :
    NoAssert (Spline.composeNumeratorRationalB .release cfg s inner) := by
  unfold Spline.composeNumeratorRationalB
  na

macro_rules | `(tactic| na_known) => `(tactic| with_reducible exact Spline.composeNumeratorRationalB_na ..)

omit [Zero V] [Add V] [SMul K V] in
theorem Spline.composeNumeratorSensitivityRationalB_na (cfg : Cfg) (s : Spline V) (inner : RSpline K W) :
    NoAssert (Spline.composeNumeratorSensitivityRationalB .release cfg s inner) := by
  unfold Spline.composeNumeratorSensitivityRationalB
  na

macro_rules | `(tactic| na_known) => `(tactic| with_reducible exact Spline.composeNumeratorSensitivityRationalB_na ..)

omit [Sub K] [Neg K] [Zero V] [Add V] [SMul K V] [Coords K W] in
theorem Spline.composeDenominatorB_na (cfg : Cfg) (s : Spline V) (inner : RSpline K W) :
    NoAssert (Spline.composeDenominatorB .release cfg s inner) := by
  unfold Spline.composeDenominatorB
  na

macro_rules | `(tactic| na_known) => `(tactic| with_reducible exact Spline.composeDenominatorB_na ..)

variable [BEq K] [ScalarDiv K W] [LT K] [DecidableLT K]

theorem Spline.composeRationalB_na (cfg : Cfg) (s : Spline V) (inner : RSpline K W) :
    NoAssert (Spline.composeRationalB .release cfg s inner) := by
  unfold Spline.composeRationalB
  na

macro_rules | `(tactic| na_known) => `(tactic| with_reducible exact Spline.composeRationalB_na ..)

omit [Zero V] [Add V] [SMul K V] in
theorem Spline.composeSensitivityRationalB_na (cfg : Cfg) (s : Spline V) (inner : RSpline K W) :
    NoAssert (Spline.composeSensitivityRationalB .release cfg s inner) := by
  unfold Spline.composeSensitivityRationalB
  na

macro_rules | `(tactic| na_known) => `(tactic| with_reducible exact Spline.composeSensitivityRationalB_na ..)

omit [BEq K] [ScalarDiv K W] in
theorem RSpline.composeB_na (cfg : Cfg) (r : RSpline K V) (inner : Spline W) :
    NoAssert (RSpline.composeB .release cfg r inner) := by
  unfold RSpline.composeB
  na

macro_rules | `(tactic| na_known) => `(tactic| with_reducible exact RSpline.composeB_na ..)

omit [BEq K] [ScalarDiv K W] [LT K] [DecidableLT K] in
theorem RSpline.composeRationalB_na (cfg : Cfg) (r : RSpline K V) (inner : RSpline K W) :
    NoAssert (RSpline.composeRationalB .release cfg r inner) := by
  unfold RSpline.composeRationalB
  na

macro_rules | `(tactic| na_known) => `(tactic| with_reducible exact RSpline.composeRationalB_na ..)

omit [Sub K] [Neg K] [Zero K] [One K] [Add K] [Div K] [NatCast K] [Zero V] [Add V] [SMul K V] [Coords K W] [BEq K] [ScalarDiv K W] [LT K] [DecidableLT K] in
theorem RSpline.rescaleSensitivitiesB_na (r : RSpline K V) (numerators : List (Spline K)) (den : Spline K) :
    NoAssert (RSpline.rescaleSensitivitiesB .release r numerators den) := by
  unfold RSpline.rescaleSensitivitiesB
  na

macro_rules | `(tactic| na_known) => `(tactic| with_reducible exact RSpline.rescaleSensitivitiesB_na ..)

omit [Zero V] [Add V] [SMul K V] [BEq K] [ScalarDiv K W] in
theorem RSpline.composeSensitivityB_na (cfg : Cfg) (r : RSpline K V) (inner : Spline W) :
    NoAssert (RSpline.composeSensitivityB .release cfg r inner) := by
  unfold RSpline.composeSensitivityB
  na

macro_rules | `(tactic| na_known) => `(tactic| with_reducible exact RSpline.composeSensitivityB_na ..)

omit [Zero V] [Add V] [SMul K V] [BEq K] [ScalarDiv K W] [LT K] [DecidableLT K] in
theorem RSpline.composeSensitivityRationalB_na (cfg : Cfg) (r : RSpline K V) (inner : RSpline K W) :
    NoAssert (RSpline.composeSensitivityRationalB .release cfg r inner) := by
  unfold RSpline.composeSensitivityRationalB
  na

macro_rules | `(tactic| na_known) => `(tactic| with_reducible exact RSpline.composeSensitivityRationalB_na ..)

end
end

/-! ## RationalDeriv -/

section

theorem derivBinomB_na (cfg : Cfg) (lhs rhs : List Nat) :
    NoAssert (derivBinomB .release cfg lhs rhs) := by
  unfold derivBinomB
  na

macro_rules | `(tactic| na_known) => `(tactic| with_reducible exact derivBinomB_na ..)

namespace RSpline
variable {K V : Type}

section
variable [Zero K] [One K] [Add K] [Sub K] [Mul K] [Neg K] [Div K] [NatCast K] [BEq K]

theorem derivRecursionB_na {X : Type} (cfg : Cfg) (nth_derivs : List Nat) (n : Nat) (sub : X → K → X → M X) (scale : K → X → M X) (A : List X) (w : List K) (inv_w : K) (zero : X)
    (hsub : ∀ x k y, NoAssert (sub x k y)) (hscale : ∀ k x, NoAssert (scale k x)) :
    NoAssert (derivRecursionB .release cfg nth_derivs n sub scale A w inv_w zero) := by
  unfold derivRecursionB
  na
  all_goals first | exact hsub _ _ _ | exact hscale _ _

macro_rules | `(tactic| na_known) => `(tactic| (with_reducible apply RSpline.derivRecursionB_na))

theorem evaluateDerivativeB_na [Zero V] [Add V] [Sub V] [SMul K V] (cfg : Cfg) (r : RSpline K V) (t : List K) (nth_derivs : List Nat) :
    NoAssert (evaluateDerivativeB .release cfg r t nth_derivs) := by
  unfold evaluateDerivativeB
  na

macro_rules | `(tactic| na_known) => `(tactic| with_reducible exact RSpline.evaluateDerivativeB_na ..)

theorem basisFunctionsDerivativesB_na (cfg : Cfg) (r : RSpline K V) (t : List K) (nth_derivs : List Nat) :
    NoAssert (basisFunctionsDerivativesB .release cfg r t nth_derivs) := by
  unfold basisFunctionsDerivativesB
  na

macro_rules | `(tactic| na_known) => `(tactic| with_reducible exact RSpline.basisFunctionsDerivativesB_na ..)

end

section
variable [Zero K] [One K] [Add K] [Sub K] [Mul K] [Neg K] [Div K] [NatCast K] [Zero V] [Add V] [Sub V] [SMul K V]

theorem derivativeStepB_na (cfg : Cfg) (r : RSpline K V) (d : Nat) :
    NoAssert (derivativeStepB .release cfg r d) := by
  unfold derivativeStepB
  na

macro_rules | `(tactic| na_known) => `(tactic| with_reducible exact RSpline.derivativeStepB_na ..)

theorem derivativeSplineB_na (cfg : Cfg) (r : RSpline K V) (orders : List Nat) :
    NoAssert (derivativeSplineB .release cfg r orders) := by
  unfold derivativeSplineB
  na

macro_rules | `(tactic| na_known) => `(tactic| with_reducible exact RSpline.derivativeSplineB_na ..)

end
end RSpline
end

/-! ## Expr -/

section

variable {K : Type} {n : Nat} [Zero K] [One K] [Add K] [Sub K] [Mul K] [Neg K] [Div K] [NatCast K] [LT K] [DecidableLT K]

mutual
theorem SExpr.runB_na (cfg : Cfg) (σ : Vars K n) : ∀ e : SExpr K n, NoAssert (e.runB .release cfg σ)
  | .leaf i => by
    unfold SExpr.runB
    exact (by na)
  | .add a b => by
    have ha := SExpr.runB_na cfg σ a
    have hb := SExpr.runB_na cfg σ b
    unfold SExpr.runB
    refine NoAssert.bind ha fun x => ?_
    refine NoAssert.bind hb fun y => ?_
    exact Spline.addOpB_na ..
  | .addAssign a b => by
    have ha := SExpr.runB_na cfg σ a
    have hb := SExpr.runB_na cfg σ b
    unfold SExpr.runB
    refine NoAssert.bind ha fun x => ?_
    refine NoAssert.bind hb fun y => ?_
    exact (by na)
  | .sub a b => by
    have ha := SExpr.runB_na cfg σ a
    have hb := SExpr.runB_na cfg σ b
    unfold SExpr.runB
    refine NoAssert.bind ha fun x => ?_
    refine NoAssert.bind hb fun y => ?_
    exact Spline.subOpB_na ..
  | .subAssign a b => by
    have ha := SExpr.runB_na cfg σ a
    have hb := SExpr.runB_na cfg σ b
    unfold SExpr.runB
    refine NoAssert.bind ha fun x => ?_
    refine NoAssert.bind hb fun y => ?_
    exact (by na)
  | .neg a => by
    have ha := SExpr.runB_na cfg σ a
    unfold SExpr.runB
    refine NoAssert.bind ha fun x => ?_
    exact (by na)
  | .scale a c => by
    have ha := SExpr.runB_na cfg σ a
    unfold SExpr.runB
    refine NoAssert.bind ha fun x => ?_
    exact (by na)
  | .addPoint a v => by
    have ha := SExpr.runB_na cfg σ a
    unfold SExpr.runB
    refine NoAssert.bind ha fun x => ?_
    exact (by na)
  | .subPoint a v => by
    have ha := SExpr.runB_na cfg σ a
    unfold SExpr.runB
    refine NoAssert.bind ha fun x => ?_
    exact (by na)
  | .pointSub v a => by
    have ha := SExpr.runB_na cfg σ a
    unfold SExpr.runB
    refine NoAssert.bind ha fun x => ?_
    exact (by na)
  | .elevate a d => by
    have ha := SExpr.runB_na cfg σ a
    unfold SExpr.runB
    refine NoAssert.bind ha fun x => ?_
    exact (by na)
  | .splitLeft a z d => by
    have ha := SExpr.runB_na cfg σ a
    unfold SExpr.runB
    refine NoAssert.bind ha fun x => ?_
    refine NoAssert.bind ((by na)) fun l => ?_
    exact (by na)
  | .splitRight a z d => by
    have ha := SExpr.runB_na cfg σ a
    unfold SExpr.runB
    refine NoAssert.bind ha fun x => ?_
    refine NoAssert.bind ((by na)) fun l => ?_
    exact (by na)
  | .splitPart a zs d i => by
    have ha := SExpr.runB_na cfg σ a
    unfold SExpr.runB
    refine NoAssert.bind ha fun x => ?_
    refine NoAssert.bind ((by na)) fun l => ?_
    exact (by na)
  | .deriv a orders => by
    have ha := SExpr.runB_na cfg σ a
    unfold SExpr.runB
    refine NoAssert.bind ha fun x => ?_
    exact Spline.derivativeSplineB_na ..
  | .compose a b => by
    have ha := SExpr.runB_na cfg σ a
    have hb := PExpr.runB_na cfg σ b
    unfold SExpr.runB
    refine NoAssert.bind ha fun x => ?_
    refine NoAssert.bind hb fun y => ?_
    exact Spline.composeB_na ..
  | .composeScalar a b => by
    have ha := SExpr.runB_na cfg σ a
    have hb := SExpr.runB_na cfg σ b
    unfold SExpr.runB
    refine NoAssert.bind ha fun x => ?_
    refine NoAssert.bind hb fun y => ?_
    exact Spline.composeB_na ..
  | .mul a b => by
    have ha := SExpr.runB_na cfg σ a
    have hb := SExpr.runB_na cfg σ b
    unfold SExpr.runB
    refine NoAssert.bind ha fun x => ?_
    refine NoAssert.bind hb fun y => ?_
    exact Spline.mulScalarB_na ..
  | .dot a b => by
    have ha := PExpr.runB_na cfg σ a
    have hb := PExpr.runB_na cfg σ b
    unfold SExpr.runB
    refine NoAssert.bind ha fun x => ?_
    refine NoAssert.bind hb fun y => ?_
    exact Spline.mulOpB_na ..
  | .power a k => by
    have ha := SExpr.runB_na cfg σ a
    unfold SExpr.runB
    refine NoAssert.bind ha fun x => ?_
    exact Spline.raisePowerB_na ..
  | .extract a j => by
    have ha := PExpr.runB_na cfg σ a
    unfold SExpr.runB
    refine NoAssert.bind ha fun x => ?_
    exact (by na)
theorem PExpr.runB_na (cfg : Cfg) (σ : Vars K n) : ∀ e : PExpr K n, NoAssert (e.runB .release cfg σ)
  | .leaf i => by
    unfold PExpr.runB
    exact (by na)
  | .add a b => by
    have ha := PExpr.runB_na cfg σ a
    have hb := PExpr.runB_na cfg σ b
    unfold PExpr.runB
    refine NoAssert.bind ha fun x => ?_
    refine NoAssert.bind hb fun y => ?_
    exact Spline.addOpB_na ..
  | .addAssign a b => by
    have ha := PExpr.runB_na cfg σ a
    have hb := PExpr.runB_na cfg σ b
    unfold PExpr.runB
    refine NoAssert.bind ha fun x => ?_
    refine NoAssert.bind hb fun y => ?_
    exact (by na)
  | .sub a b => by
    have ha := PExpr.runB_na cfg σ a
    have hb := PExpr.runB_na cfg σ b
    unfold PExpr.runB
    refine NoAssert.bind ha fun x => ?_
    refine NoAssert.bind hb fun y => ?_
    exact Spline.subOpB_na ..
  | .subAssign a b => by
    have ha := PExpr.runB_na cfg σ a
    have hb := PExpr.runB_na cfg σ b
    unfold PExpr.runB
    refine NoAssert.bind ha fun x => ?_
    refine NoAssert.bind hb fun y => ?_
    exact (by na)
  | .neg a => by
    have ha := PExpr.runB_na cfg σ a
    unfold PExpr.runB
    refine NoAssert.bind ha fun x => ?_
    exact (by na)
  | .scale a c => by
    have ha := PExpr.runB_na cfg σ a
    unfold PExpr.runB
    refine NoAssert.bind ha fun x => ?_
    exact (by na)
  | .addPoint a v => by
    have ha := PExpr.runB_na cfg σ a
    unfold PExpr.runB
    refine NoAssert.bind ha fun x => ?_
    exact (by na)
  | .subPoint a v => by
    have ha := PExpr.runB_na cfg σ a
    unfold PExpr.runB
    refine NoAssert.bind ha fun x => ?_
    exact (by na)
  | .pointSub v a => by
    have ha := PExpr.runB_na cfg σ a
    unfold PExpr.runB
    refine NoAssert.bind ha fun x => ?_
    exact (by na)
  | .elevate a d => by
    have ha := PExpr.runB_na cfg σ a
    unfold PExpr.runB
    refine NoAssert.bind ha fun x => ?_
    exact (by na)
  | .splitLeft a z d => by
    have ha := PExpr.runB_na cfg σ a
    unfold PExpr.runB
    refine NoAssert.bind ha fun x => ?_
    refine NoAssert.bind ((by na)) fun l => ?_
    exact (by na)
  | .splitRight a z d => by
    have ha := PExpr.runB_na cfg σ a
    unfold PExpr.runB
    refine NoAssert.bind ha fun x => ?_
    refine NoAssert.bind ((by na)) fun l => ?_
    exact (by na)
  | .splitPart a zs d i => by
    have ha := PExpr.runB_na cfg σ a
    unfold PExpr.runB
    refine NoAssert.bind ha fun x => ?_
    refine NoAssert.bind ((by na)) fun l => ?_
    exact (by na)
  | .deriv a orders => by
    have ha := PExpr.runB_na cfg σ a
    unfold PExpr.runB
    refine NoAssert.bind ha fun x => ?_
    exact Spline.derivativeSplineB_na ..
  | .compose a b => by
    have ha := PExpr.runB_na cfg σ a
    have hb := PExpr.runB_na cfg σ b
    unfold PExpr.runB
    refine NoAssert.bind ha fun x => ?_
    refine NoAssert.bind hb fun y => ?_
    exact Spline.composeB_na ..
  | .composeScalar a b => by
    have ha := PExpr.runB_na cfg σ a
    have hb := SExpr.runB_na cfg σ b
    unfold PExpr.runB
    refine NoAssert.bind ha fun x => ?_
    refine NoAssert.bind hb fun y => ?_
    exact Spline.composeB_na ..
  | .mulLeft a b => by
    have ha := SExpr.runB_na cfg σ a
    have hb := PExpr.runB_na cfg σ b
    unfold PExpr.runB
    refine NoAssert.bind ha fun x => ?_
    refine NoAssert.bind hb fun y => ?_
    exact Spline.mulOpB_na ..
  | .mulRight a b => by
    have ha := PExpr.runB_na cfg σ a
    have hb := SExpr.runB_na cfg σ b
    unfold PExpr.runB
    refine NoAssert.bind ha fun x => ?_
    refine NoAssert.bind hb fun y => ?_
    exact Spline.mulOpB_na ..
end


end

/-! ## RExpr -/

section

variable {K : Type} {n : Nat} [Zero K] [One K] [Add K] [Sub K] [Mul K] [Neg K] [Div K] [NatCast K] [LT K] [DecidableLT K]
  [BEq K]

mutual
theorem RSExpr.runB_na (cfg : Cfg) (σ : RVars K n) : ∀ e : RSExpr K n, NoAssert (e.runB .release cfg σ)
  | .leaf i => by
    unfold RSExpr.runB
    exact (by na)
  | .ofSpline a => by
    have ha := SExpr.runB_na cfg σ.toVars a
    unfold RSExpr.runB
    refine NoAssert.bind ha fun x => ?_
    exact RSpline.ofSplineB_na ..
  | .add a b => by
    have ha := RSExpr.runB_na cfg σ a
    have hb := RSExpr.runB_na cfg σ b
    unfold RSExpr.runB
    refine NoAssert.bind ha fun x => ?_
    refine NoAssert.bind hb fun y => ?_
    exact RSpline.addOpB_na ..
  | .addAssign a b => by
    have ha := RSExpr.runB_na cfg σ a
    have hb := RSExpr.runB_na cfg σ b
    unfold RSExpr.runB
    refine NoAssert.bind ha fun x => ?_
    refine NoAssert.bind hb fun y => ?_
    exact RSpline.addAssignB_na ..
  | .sub a b => by
    have ha := RSExpr.runB_na cfg σ a
    have hb := RSExpr.runB_na cfg σ b
    unfold RSExpr.runB
    refine NoAssert.bind ha fun x => ?_
    refine NoAssert.bind hb fun y => ?_
    exact RSpline.subOpB_na ..
  | .subAssign a b => by
    have ha := RSExpr.runB_na cfg σ a
    have hb := RSExpr.runB_na cfg σ b
    unfold RSExpr.runB
    refine NoAssert.bind ha fun x => ?_
    refine NoAssert.bind hb fun y => ?_
    exact RSpline.subAssignB_na ..
  | .neg a => by
    have ha := RSExpr.runB_na cfg σ a
    unfold RSExpr.runB
    refine NoAssert.bind ha fun x => ?_
    exact RSpline.negOpB_na ..
  | .scale a c => by
    have ha := RSExpr.runB_na cfg σ a
    unfold RSExpr.runB
    refine NoAssert.bind ha fun x => ?_
    exact RSpline.smulOpB_na ..
  | .addPoint a v => by
    have ha := RSExpr.runB_na cfg σ a
    unfold RSExpr.runB
    refine NoAssert.bind ha fun x => ?_
    exact RSpline.addPointB_na ..
  | .subPoint a v => by
    have ha := RSExpr.runB_na cfg σ a
    unfold RSExpr.runB
    refine NoAssert.bind ha fun x => ?_
    exact RSpline.subPointB_na ..
  | .elevate a d => by
    have ha := RSExpr.runB_na cfg σ a
    unfold RSExpr.runB
    refine NoAssert.bind ha fun x => ?_
    exact RSpline.orderElevateB_na ..
  | .splitLeft a z d => by
    have ha := RSExpr.runB_na cfg σ a
    unfold RSExpr.runB
    refine NoAssert.bind ha fun x => ?_
    refine NoAssert.bind (RSpline.splitAtB_na ..) fun l => ?_
    exact (by na)
  | .splitRight a z d => by
    have ha := RSExpr.runB_na cfg σ a
    unfold RSExpr.runB
    refine NoAssert.bind ha fun x => ?_
    refine NoAssert.bind (RSpline.splitAtB_na ..) fun l => ?_
    exact (by na)
  | .splitPart a zs d i => by
    have ha := RSExpr.runB_na cfg σ a
    unfold RSExpr.runB
    refine NoAssert.bind ha fun x => ?_
    refine NoAssert.bind (RSpline.splitAtManyB_na ..) fun l => ?_
    exact (by na)
  | .deriv a orders => by
    have ha := RSExpr.runB_na cfg σ a
    unfold RSExpr.runB
    refine NoAssert.bind ha fun x => ?_
    exact RSpline.derivativeSplineB_na ..
  | .composePoly a b => by
    have ha := RSExpr.runB_na cfg σ a
    have hb := PExpr.runB_na cfg σ.toVars b
    unfold RSExpr.runB
    refine NoAssert.bind ha fun x => ?_
    refine NoAssert.bind hb fun y => ?_
    exact RSpline.composeB_na ..
  | .composePolyScalar a b => by
    have ha := RSExpr.runB_na cfg σ a
    have hb := SExpr.runB_na cfg σ.toVars b
    unfold RSExpr.runB
    refine NoAssert.bind ha fun x => ?_
    refine NoAssert.bind hb fun y => ?_
    exact RSpline.composeB_na ..
  | .compose a b => by
    have ha := RSExpr.runB_na cfg σ a
    have hb := RPExpr.runB_na cfg σ b
    unfold RSExpr.runB
    refine NoAssert.bind ha fun x => ?_
    refine NoAssert.bind hb fun y => ?_
    exact RSpline.composeRationalB_na ..
  | .composeScalar a b => by
    have ha := RSExpr.runB_na cfg σ a
    have hb := RSExpr.runB_na cfg σ b
    unfold RSExpr.runB
    refine NoAssert.bind ha fun x => ?_
    refine NoAssert.bind hb fun y => ?_
    exact RSpline.composeRationalB_na ..
  | .polyCompose a b => by
    have ha := SExpr.runB_na cfg σ.toVars a
    have hb := RPExpr.runB_na cfg σ b
    unfold RSExpr.runB
    refine NoAssert.bind ha fun x => ?_
    refine NoAssert.bind hb fun y => ?_
    exact Spline.composeRationalB_na ..
  | .polyComposeScalar a b => by
    have ha := SExpr.runB_na cfg σ.toVars a
    have hb := RSExpr.runB_na cfg σ b
    unfold RSExpr.runB
    refine NoAssert.bind ha fun x => ?_
    refine NoAssert.bind hb fun y => ?_
    exact Spline.composeRationalB_na ..
  | .mul a b => by
    have ha := RSExpr.runB_na cfg σ a
    have hb := RSExpr.runB_na cfg σ b
    unfold RSExpr.runB
    refine NoAssert.bind ha fun x => ?_
    refine NoAssert.bind hb fun y => ?_
    exact RSpline.mulOpB_na ..
  | .dot a b => by
    have ha := RPExpr.runB_na cfg σ a
    have hb := RPExpr.runB_na cfg σ b
    unfold RSExpr.runB
    refine NoAssert.bind ha fun x => ?_
    refine NoAssert.bind hb fun y => ?_
    exact RSpline.mulOpB_na ..
theorem RPExpr.runB_na (cfg : Cfg) (σ : RVars K n) : ∀ e : RPExpr K n, NoAssert (e.runB .release cfg σ)
  | .leaf i => by
    unfold RPExpr.runB
    exact (by na)
  | .ofSpline a => by
    have ha := PExpr.runB_na cfg σ.toVars a
    unfold RPExpr.runB
    refine NoAssert.bind ha fun x => ?_
    exact RSpline.ofSplineB_na ..
  | .add a b => by
    have ha := RPExpr.runB_na cfg σ a
    have hb := RPExpr.runB_na cfg σ b
    unfold RPExpr.runB
    refine NoAssert.bind ha fun x => ?_
    refine NoAssert.bind hb fun y => ?_
    exact RSpline.addOpB_na ..
  | .addAssign a b => by
    have ha := RPExpr.runB_na cfg σ a
    have hb := RPExpr.runB_na cfg σ b
    unfold RPExpr.runB
    refine NoAssert.bind ha fun x => ?_
    refine NoAssert.bind hb fun y => ?_
    exact RSpline.addAssignB_na ..
  | .sub a b => by
    have ha := RPExpr.runB_na cfg σ a
    have hb := RPExpr.runB_na cfg σ b
    unfold RPExpr.runB
    refine NoAssert.bind ha fun x => ?_
    refine NoAssert.bind hb fun y => ?_
    exact RSpline.subOpB_na ..
  | .subAssign a b => by
    have ha := RPExpr.runB_na cfg σ a
    have hb := RPExpr.runB_na cfg σ b
    unfold RPExpr.runB
    refine NoAssert.bind ha fun x => ?_
    refine NoAssert.bind hb fun y => ?_
    exact RSpline.subAssignB_na ..
  | .neg a => by
    have ha := RPExpr.runB_na cfg σ a
    unfold RPExpr.runB
    refine NoAssert.bind ha fun x => ?_
    exact RSpline.negOpB_na ..
  | .scale a c => by
    have ha := RPExpr.runB_na cfg σ a
    unfold RPExpr.runB
    refine NoAssert.bind ha fun x => ?_
    exact RSpline.smulOpB_na ..
  | .addPoint a v => by
    have ha := RPExpr.runB_na cfg σ a
    unfold RPExpr.runB
    refine NoAssert.bind ha fun x => ?_
    exact RSpline.addPointB_na ..
  | .subPoint a v => by
    have ha := RPExpr.runB_na cfg σ a
    unfold RPExpr.runB
    refine NoAssert.bind ha fun x => ?_
    exact RSpline.subPointB_na ..
  | .elevate a d => by
    have ha := RPExpr.runB_na cfg σ a
    unfold RPExpr.runB
    refine NoAssert.bind ha fun x => ?_
    exact RSpline.orderElevateB_na ..
  | .splitLeft a z d => by
    have ha := RPExpr.runB_na cfg σ a
    unfold RPExpr.runB
    refine NoAssert.bind ha fun x => ?_
    refine NoAssert.bind (RSpline.splitAtB_na ..) fun l => ?_
    exact (by na)
  | .splitRight a z d => by
    have ha := RPExpr.runB_na cfg σ a
    unfold RPExpr.runB
    refine NoAssert.bind ha fun x => ?_
    refine NoAssert.bind (RSpline.splitAtB_na ..) fun l => ?_
    exact (by na)
  | .splitPart a zs d i => by
    have ha := RPExpr.runB_na cfg σ a
    unfold RPExpr.runB
    refine NoAssert.bind ha fun x => ?_
    refine NoAssert.bind (RSpline.splitAtManyB_na ..) fun l => ?_
    exact (by na)
  | .deriv a orders => by
    have ha := RPExpr.runB_na cfg σ a
    unfold RPExpr.runB
    refine NoAssert.bind ha fun x => ?_
    exact RSpline.derivativeSplineB_na ..
  | .composePoly a b => by
    have ha := RPExpr.runB_na cfg σ a
    have hb := PExpr.runB_na cfg σ.toVars b
    unfold RPExpr.runB
    refine NoAssert.bind ha fun x => ?_
    refine NoAssert.bind hb fun y => ?_
    exact RSpline.composeB_na ..
  | .composePolyScalar a b => by
    have ha := RPExpr.runB_na cfg σ a
    have hb := SExpr.runB_na cfg σ.toVars b
    unfold RPExpr.runB
    refine NoAssert.bind ha fun x => ?_
    refine NoAssert.bind hb fun y => ?_
    exact RSpline.composeB_na ..
  | .compose a b => by
    have ha := RPExpr.runB_na cfg σ a
    have hb := RPExpr.runB_na cfg σ b
    unfold RPExpr.runB
    refine NoAssert.bind ha fun x => ?_
    refine NoAssert.bind hb fun y => ?_
    exact RSpline.composeRationalB_na ..
  | .composeScalar a b => by
    have ha := RPExpr.runB_na cfg σ a
    have hb := RSExpr.runB_na cfg σ b
    unfold RPExpr.runB
    refine NoAssert.bind ha fun x => ?_
    refine NoAssert.bind hb fun y => ?_
    exact RSpline.composeRationalB_na ..
  | .polyCompose a b => by
    have ha := PExpr.runB_na cfg σ.toVars a
    have hb := RPExpr.runB_na cfg σ b
    unfold RPExpr.runB
    refine NoAssert.bind ha fun x => ?_
    refine NoAssert.bind hb fun y => ?_
    exact Spline.composeRationalB_na ..
  | .polyComposeScalar a b => by
    have ha := PExpr.runB_na cfg σ.toVars a
    have hb := RSExpr.runB_na cfg σ b
    unfold RPExpr.runB
    refine NoAssert.bind ha fun x => ?_
    refine NoAssert.bind hb fun y => ?_
    exact Spline.composeRationalB_na ..
  | .mulLeft a b => by
    have ha := RSExpr.runB_na cfg σ a
    have hb := RPExpr.runB_na cfg σ b
    unfold RPExpr.runB
    refine NoAssert.bind ha fun x => ?_
    refine NoAssert.bind hb fun y => ?_
    exact RSpline.mulOpB_na ..
  | .mulRight a b => by
    have ha := RPExpr.runB_na cfg σ a
    have hb := RSExpr.runB_na cfg σ b
    unfold RPExpr.runB
    refine NoAssert.bind ha fun x => ?_
    refine NoAssert.bind hb fun y => ?_
    exact RSpline.mulOpB_na ..
end


end

/-! ## Base64 -/

section
namespace Base64

theorem decodeB_na (L : Nat) (base64string : List Nat) :
    NoAssert (decodeB .release L base64string) := by
  unfold decodeB
  na

macro_rules | `(tactic| na_known) => `(tactic| with_reducible exact Base64.decodeB_na ..)

theorem decodePointsB_na (dimension L : Nat) (base64string : List Nat) :
    NoAssert (decodePointsB .release dimension L base64string) := by
  unfold decodePointsB
  na

macro_rules | `(tactic| na_known) => `(tactic| with_reducible exact Base64.decodePointsB_na ..)

end Base64
end

/-! ## Numbers -/

section

/-- the operations of a scalar type do not fail with an assertion -/
class ScalNA (B : outParam Type) (K : Type) [Cmath B] [Scal B K] : Prop where
  add : ∀ x y : K, NoAssert (Scal.add x y)
  sub : ∀ x y : K, NoAssert (Scal.sub x y)
  mul : ∀ x y : K, NoAssert (Scal.mul x y)
  div : ∀ x y : K, NoAssert (Scal.div x y)
  pow : ∀ x y : K, NoAssert (Scal.pow x y)
  neg : ∀ x : K, NoAssert (Scal.neg x)
  exp : ∀ x : K, NoAssert (Scal.exp x)
  log : ∀ x : K, NoAssert (Scal.log x)
  log10 : ∀ x : K, NoAssert (Scal.log10 x)
  sqrt : ∀ x : K, NoAssert (Scal.sqrt x)
  sin : ∀ x : K, NoAssert (Scal.sin x)
  cos : ∀ x : K, NoAssert (Scal.cos x)
  tan : ∀ x : K, NoAssert (Scal.tan x)
  atan : ∀ x : K, NoAssert (Scal.atan x)
  baseAdd : ∀ (c : B) (x : K), NoAssert (Scal.baseAdd c x)
  subBase : ∀ (x : K) (c : B), NoAssert (Scal.subBase x c)
  mulBase : ∀ (x : K) (c : B), NoAssert (Scal.mulBase x c)
  baseDiv : ∀ (c : B) (x : K), NoAssert (Scal.baseDiv c x)

instance {B : Type} [Zero B] [Add B] [Sub B] [Mul B] [Neg B] [Cmath B] [h : CmathNeverAsserts B] : ScalNA B B where
  add _ _ := NoAssert.pure _
  sub _ _ := NoAssert.pure _
  mul _ _ := NoAssert.pure _
  div x y := ⟨h.div x y⟩
  pow x y := ⟨h.pow x y⟩
  neg _ := NoAssert.pure _
  exp x := ⟨h.exp x⟩
  log x := ⟨h.log x⟩
  log10 x := ⟨h.log10 x⟩
  sqrt x := ⟨h.sqrt x⟩
  sin x := ⟨h.sin x⟩
  cos x := ⟨h.cos x⟩
  tan x := ⟨h.tan x⟩
  atan x := ⟨h.atan x⟩
  baseAdd _ _ := NoAssert.pure _
  subBase _ _ := NoAssert.pure _
  mulBase _ _ := NoAssert.pure _
  baseDiv x y := ⟨h.div x y⟩

macro_rules | `(tactic| na_known) => `(tactic| with_reducible exact ScalNA.add ..)
macro_rules | `(tactic| na_known) => `(tactic| with_reducible exact ScalNA.sub ..)
macro_rules | `(tactic| na_known) => `(tactic| with_reducible exact ScalNA.mul ..)
macro_rules | `(tactic| na_known) => `(tactic| with_reducible exact ScalNA.div ..)
macro_rules | `(tactic| na_known) => `(tactic| with_reducible exact ScalNA.pow ..)
macro_rules | `(tactic| na_known) => `(tactic| with_reducible exact ScalNA.neg ..)
macro_rules | `(tactic| na_known) => `(tactic| with_reducible exact ScalNA.exp ..)
macro_rules | `(tactic| na_known) => `(tactic| with_reducible exact ScalNA.log ..)
macro_rules | `(tactic| na_known) => `(tactic| with_reducible exact ScalNA.log10 ..)
macro_rules | `(tactic| na_known) => `(tactic| with_reducible exact ScalNA.sqrt ..)
macro_rules | `(tactic| na_known) => `(tactic| with_reducible exact ScalNA.sin ..)
macro_rules | `(tactic| na_known) => `(tactic| with_reducible exact ScalNA.cos ..)
macro_rules | `(tactic| na_known) => `(tactic| with_reducible exact ScalNA.tan ..)
macro_rules | `(tactic| na_known) => `(tactic| with_reducible exact ScalNA.atan ..)
macro_rules | `(tactic| na_known) => `(tactic| with_reducible exact ScalNA.baseAdd ..)
macro_rules | `(tactic| na_known) => `(tactic| with_reducible exact ScalNA.subBase ..)
macro_rules | `(tactic| na_known) => `(tactic| with_reducible exact ScalNA.mulBase ..)
macro_rules | `(tactic| na_known) => `(tactic| with_reducible exact ScalNA.baseDiv ..)
macro_rules | `(tactic| na_known) => `(tactic| with_reducible exact ⟨CmathNeverAsserts.div ..⟩)
macro_rules | `(tactic| na_known) => `(tactic| with_reducible exact ⟨CmathNeverAsserts.exp ..⟩)
macro_rules | `(tactic| na_known) => `(tactic| with_reducible exact ⟨CmathNeverAsserts.log ..⟩)
macro_rules | `(tactic| na_known) => `(tactic| with_reducible exact ⟨CmathNeverAsserts.log10 ..⟩)
macro_rules | `(tactic| na_known) => `(tactic| with_reducible exact ⟨CmathNeverAsserts.sqrt ..⟩)
macro_rules | `(tactic| na_known) => `(tactic| with_reducible exact ⟨CmathNeverAsserts.sin ..⟩)
macro_rules | `(tactic| na_known) => `(tactic| with_reducible exact ⟨CmathNeverAsserts.cos ..⟩)
macro_rules | `(tactic| na_known) => `(tactic| with_reducible exact ⟨CmathNeverAsserts.tan ..⟩)
macro_rules | `(tactic| na_known) => `(tactic| with_reducible exact ⟨CmathNeverAsserts.asin ..⟩)
macro_rules | `(tactic| na_known) => `(tactic| with_reducible exact ⟨CmathNeverAsserts.acos ..⟩)
macro_rules | `(tactic| na_known) => `(tactic| with_reducible exact ⟨CmathNeverAsserts.atan ..⟩)
macro_rules | `(tactic| na_known) => `(tactic| with_reducible exact ⟨CmathNeverAsserts.pow ..⟩)

end

/-! ## AlgoDiff -/

section

namespace ADT

section
variable {B K : Type} [One B] [NatCast B] [Zero B] [Neg B] [Cmath B] [Scal B K] [CmathNeverAsserts B] [ScalNA B K]

theorem activeB_na (value : K) (n i : Nat) :
    NoAssert (activeB (B := B) .release value n i) := by
  unfold activeB
  na

macro_rules | `(tactic| na_known) => `(tactic| with_reducible exact ADT.activeB_na ..)

theorem addAssignB_na (a b : ADT K) :
    NoAssert (addAssignB (B := B) .release a b) := by
  unfold addAssignB
  na

macro_rules | `(tactic| na_known) => `(tactic| with_reducible exact ADT.addAssignB_na ..)

theorem addAssignSelfB_na (a : ADT K) :
    NoAssert (addAssignSelfB (B := B) .release a) := by
  unfold addAssignSelfB
  na

macro_rules | `(tactic| na_known) => `(tactic| with_reducible exact ADT.addAssignSelfB_na ..)

theorem addB_na (a b : ADT K) :
    NoAssert (addB (B := B) .release a b) := by
  unfold addB
  na

macro_rules | `(tactic| na_known) => `(tactic| with_reducible exact ADT.addB_na ..)

theorem subB_na (a b : ADT K) :
    NoAssert (subB (B := B) .release a b) := by
  unfold subB
  na

macro_rules | `(tactic| na_known) => `(tactic| with_reducible exact ADT.subB_na ..)

theorem mulAssignB_na (a b : ADT K) :
    NoAssert (mulAssignB (B := B) .release a b) := by
  unfold mulAssignB
  na

macro_rules | `(tactic| na_known) => `(tactic| with_reducible exact ADT.mulAssignB_na ..)

theorem mulAssignSelfB_na (a : ADT K) :
    NoAssert (mulAssignSelfB (B := B) .release a) := by
  unfold mulAssignSelfB
  na

macro_rules | `(tactic| na_known) => `(tactic| with_reducible exact ADT.mulAssignSelfB_na ..)

theorem mulB_na (a b : ADT K) :
    NoAssert (mulB (B := B) .release a b) := by
  unfold mulB
  na

macro_rules | `(tactic| na_known) => `(tactic| with_reducible exact ADT.mulB_na ..)

theorem divAssignB_na (a b : ADT K) :
    NoAssert (divAssignB (B := B) .release a b) := by
  unfold divAssignB
  na

macro_rules | `(tactic| na_known) => `(tactic| with_reducible exact ADT.divAssignB_na ..)

theorem divAssignSelfB_na (a : ADT K) :
    NoAssert (divAssignSelfB (B := B) .release a) := by
  unfold divAssignSelfB
  na

macro_rules | `(tactic| na_known) => `(tactic| with_reducible exact ADT.divAssignSelfB_na ..)

theorem divB_na (a b : ADT K) :
    NoAssert (divB (B := B) .release a b) := by
  unfold divB
  na

macro_rules | `(tactic| na_known) => `(tactic| with_reducible exact ADT.divB_na ..)

theorem powB_na (base power : ADT K) :
    NoAssert (powB (B := B) .release base power) := by
  unfold powB
  na

macro_rules | `(tactic| na_known) => `(tactic| with_reducible exact ADT.powB_na ..)

end

end ADT

set_option maxHeartbeats 1000000 in
theorem DExpr.runB_na {B : Type} [One B] [NatCast B] [Zero B] [Add B] [Sub B] [Mul B] [Neg B] [Cmath B] [CmathNeverAsserts B] (x : List B) (e : DExpr B) :
    NoAssert (e.runB .release x) := by
  induction e with
  | var i =>
    exact NoAssert.bind ((by na)) fun _ => ADT.activeB_na ..
  | const c =>
    exact (by na)
  | add a b ha hb =>
    exact NoAssert.bind ha fun _ => NoAssert.bind hb fun _ => ADT.addB_na ..
  | sub a b ha hb =>
    exact NoAssert.bind ha fun _ => NoAssert.bind hb fun _ => ADT.subB_na ..
  | mul a b ha hb =>
    exact NoAssert.bind ha fun _ => NoAssert.bind hb fun _ => ADT.mulB_na ..
  | div a b ha hb =>
    exact NoAssert.bind ha fun _ => NoAssert.bind hb fun _ => ADT.divB_na ..
  | neg a ha =>
    exact NoAssert.bind ha fun _ => (by na)
  | addScalar a c ha =>
    exact NoAssert.bind ha fun _ => (by na)
  | subScalar a c ha =>
    exact NoAssert.bind ha fun _ => (by na)
  | mulScalar a c ha =>
    exact NoAssert.bind ha fun _ => (by na)
  | divScalar a c ha =>
    exact NoAssert.bind ha fun _ => (by na)
  | scalarAdd c a ha =>
    exact NoAssert.bind ha fun _ => (by na)
  | scalarSub c a ha =>
    exact NoAssert.bind ha fun _ => (by na)
  | scalarMul c a ha =>
    exact NoAssert.bind ha fun _ => (by na)
  | scalarDiv c a ha =>
    exact NoAssert.bind ha fun _ => (by na)
  | exp a ha =>
    exact NoAssert.bind ha fun _ => (by na)
  | abs a ha =>
    exact NoAssert.bind ha fun _ => (by na)
  | powScalar a c ha =>
    exact NoAssert.bind ha fun _ => (by na)
  | pow a b ha hb =>
    exact NoAssert.bind ha fun _ => NoAssert.bind hb fun _ => ADT.powB_na ..
  | sqrt a ha =>
    exact NoAssert.bind ha fun _ => (by na)
  | log a ha =>
    exact NoAssert.bind ha fun _ => (by na)
  | log10 a ha =>
    exact NoAssert.bind ha fun _ => (by na)
  | cos a ha =>
    exact NoAssert.bind ha fun _ => (by na)
  | sin a ha =>
    exact NoAssert.bind ha fun _ => (by na)
  | tan a ha =>
    exact NoAssert.bind ha fun _ => (by na)
  | acos a ha =>
    exact NoAssert.bind ha fun _ => (by na)
  | asin a ha =>
    exact NoAssert.bind ha fun _ => (by na)
  | atan a ha =>
    exact NoAssert.bind ha fun _ => (by na)

end

end Bezman
