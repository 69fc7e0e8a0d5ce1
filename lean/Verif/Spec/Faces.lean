import Verif.Model.Expr
import Verif.Spec.AnyArith

/-! # Specification: patches that share a face

`a` and `b` are two patches of a geometry.  The face of a patch in direction `d` consists of the control points with first index
(side `false`) or last index (side `true`) in this direction. -/

namespace Bezman
open Spec

namespace Spec

/-- The index of the face in a direction of degree `p`. -/
def faceIndex (side : Bool) (p : ℕ) : ℕ := if side then p else 0

/-- The patches have the same degrees apart from direction `d`, and the control points on face `sa` of `a` in direction `d` are, one
by one, exactly those on face `sb` of `b`. -/
def Glued {V : Type} (d : ℕ) (sa sb : Bool) (a b : Spline V) : Prop :=
  a.WF ∧ b.WF ∧ ∃ p q, a.degrees[d]? = some p ∧ b.degrees = a.degrees.set d q ∧
    Spline.SameLayer a.degrees d (faceIndex sa p) (faceIndex sb q) a b

end Spec

section
variable {K : Type} {n : ℕ}

mutual
/-- All variables of the program satisfy `P`. -/
def SExpr.Uses (P : ℕ → Prop) : SExpr K n → Prop
  | .leaf i => P i
  | .add a b | .addAssign a b | .sub a b | .subAssign a b | .mul a b => a.Uses P ∧ b.Uses P
  | .neg a | .scale a _ | .addPoint a _ | .subPoint a _ | .pointSub _ a | .elevate a _ | .splitLeft a _ _ | .splitRight a _ _
  | .splitPart a _ _ _ | .deriv a _ | .power a _ => a.Uses P
  | .compose a b => a.Uses P ∧ b.Uses P
  | .composeScalar a b => a.Uses P ∧ b.Uses P
  | .dot a b => a.Uses P ∧ b.Uses P
  | .extract a _ => a.Uses P

@[inherit_doc SExpr.Uses]
def PExpr.Uses (P : ℕ → Prop) : PExpr K n → Prop
  | .leaf i => P i
  | .add a b | .addAssign a b | .sub a b | .subAssign a b => a.Uses P ∧ b.Uses P
  | .neg a | .scale a _ | .addPoint a _ | .subPoint a _ | .pointSub _ a | .elevate a _ | .splitLeft a _ _ | .splitRight a _ _
  | .splitPart a _ _ _ | .deriv a _ => a.Uses P
  | .compose a b => a.Uses P ∧ b.Uses P
  | .composeScalar a b => a.Uses P ∧ b.Uses P
  | .mulLeft a b => a.Uses P ∧ b.Uses P
  | .mulRight a b => a.Uses P ∧ b.Uses P
end

mutual
/-- The program does not cut a patch in direction `d` and does not differentiate in direction `d`; the outer splines of compositions
are computed from variables in `common`, the patches from the others. -/
def SExpr.KeepsFace (d : ℕ) (common : ℕ → Prop) : SExpr K n → Prop
  | .leaf i => ¬ common i
  | .add a b | .addAssign a b | .sub a b | .subAssign a b | .mul a b => a.KeepsFace d common ∧ b.KeepsFace d common
  | .neg a | .scale a _ | .addPoint a _ | .subPoint a _ | .pointSub _ a | .elevate a _ | .power a _ => a.KeepsFace d common
  | .splitLeft a _ e | .splitRight a _ e | .splitPart a _ e _ => a.KeepsFace d common ∧ e ≠ d
  | .deriv a orders => a.KeepsFace d common ∧ orders[d]? = some 0
  | .compose a b => a.Uses common ∧ b.KeepsFace d common
  | .composeScalar a b => a.Uses common ∧ b.KeepsFace d common
  | .dot a b => a.KeepsFace d common ∧ b.KeepsFace d common
  | .extract a _ => a.KeepsFace d common

@[inherit_doc SExpr.KeepsFace]
def PExpr.KeepsFace (d : ℕ) (common : ℕ → Prop) : PExpr K n → Prop
  | .leaf i => ¬ common i
  | .add a b | .addAssign a b | .sub a b | .subAssign a b => a.KeepsFace d common ∧ b.KeepsFace d common
  | .neg a | .scale a _ | .addPoint a _ | .subPoint a _ | .pointSub _ a | .elevate a _ => a.KeepsFace d common
  | .splitLeft a _ e | .splitRight a _ e | .splitPart a _ e _ => a.KeepsFace d common ∧ e ≠ d
  | .deriv a orders => a.KeepsFace d common ∧ orders[d]? = some 0
  | .compose a b => a.Uses common ∧ b.KeepsFace d common
  | .composeScalar a b => a.Uses common ∧ b.KeepsFace d common
  | .mulLeft a b => a.KeepsFace d common ∧ b.KeepsFace d common
  | .mulRight a b => a.KeepsFace d common ∧ b.KeepsFace d common
end

/-- Two runs of the same program for two patches: common variables have the same values, the other variables hold patches
that share the face. -/
structure Spec.GluedVars (d : ℕ) (sa sb : Bool) (common : ℕ → Prop) (σ τ : Vars K n) : Prop where
  common_s : ∀ i, common i → σ.s i = τ.s i
  common_p : ∀ i, common i → σ.p i = τ.p i
  patch_s : ∀ i, ¬ common i → Glued d sa sb (σ.s i) (τ.s i)
  patch_p : ∀ i, ¬ common i → Glued d sa sb (σ.p i) (τ.p i)

end
end Bezman
