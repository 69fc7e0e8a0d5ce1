import Verif.Spec.RationalFace
import Verif.Spec.SumsAgree

/-! # Specification: rational patches that share a face -/

namespace Bezman
open Spec

section
variable {K : Type} {n : ℕ}

mutual
/-- All variables of the rational program satisfy `P`. -/
def RSExpr.Uses (P : ℕ → Prop) : RSExpr K n → Prop
  | .leaf i => P i
  | .ofSpline a => a.Uses P
  | .add a b | .addAssign a b | .sub a b | .subAssign a b | .mul a b => a.Uses P ∧ b.Uses P
  | .neg a | .scale a _ | .addPoint a _ | .subPoint a _ | .elevate a _ | .splitLeft a _ _ | .splitRight a _ _
  | .splitPart a _ _ _ | .deriv a _ => a.Uses P
  | .composePoly a b => a.Uses P ∧ b.Uses P
  | .composePolyScalar a b => a.Uses P ∧ b.Uses P
  | .compose a b => a.Uses P ∧ b.Uses P
  | .composeScalar a b => a.Uses P ∧ b.Uses P
  | .polyCompose a b => a.Uses P ∧ b.Uses P
  | .polyComposeScalar a b => a.Uses P ∧ b.Uses P
  | .dot a b => a.Uses P ∧ b.Uses P

@[inherit_doc RSExpr.Uses]
def RPExpr.Uses (P : ℕ → Prop) : RPExpr K n → Prop
  | .leaf i => P i
  | .ofSpline a => a.Uses P
  | .add a b | .addAssign a b | .sub a b | .subAssign a b => a.Uses P ∧ b.Uses P
  | .neg a | .scale a _ | .addPoint a _ | .subPoint a _ | .elevate a _ | .splitLeft a _ _ | .splitRight a _ _
  | .splitPart a _ _ _ | .deriv a _ => a.Uses P
  | .composePoly a b => a.Uses P ∧ b.Uses P
  | .composePolyScalar a b => a.Uses P ∧ b.Uses P
  | .compose a b => a.Uses P ∧ b.Uses P
  | .composeScalar a b => a.Uses P ∧ b.Uses P
  | .polyCompose a b => a.Uses P ∧ b.Uses P
  | .polyComposeScalar a b => a.Uses P ∧ b.Uses P
  | .mulLeft a b => a.Uses P ∧ b.Uses P
  | .mulRight a b => a.Uses P ∧ b.Uses P
end

mutual
/-- The program does not cut a patch in direction `d` and does not differentiate in direction `d`; the outer splines of compositions
are computed from variables in `common`, the patches from the others. -/
def RSExpr.KeepsFace (d : ℕ) (common : ℕ → Prop) : RSExpr K n → Prop
  | .leaf i => ¬ common i
  | .ofSpline a => a.KeepsFace d common
  | .add a b | .addAssign a b | .sub a b | .subAssign a b | .mul a b => a.KeepsFace d common ∧ b.KeepsFace d common
  | .neg a | .scale a _ | .addPoint a _ | .subPoint a _ | .elevate a _ => a.KeepsFace d common
  | .splitLeft a _ e | .splitRight a _ e | .splitPart a _ e _ => a.KeepsFace d common ∧ e ≠ d
  | .deriv a orders => a.KeepsFace d common ∧ orders[d]? = some 0
  | .composePoly a b => a.Uses common ∧ b.KeepsFace d common
  | .composePolyScalar a b => a.Uses common ∧ b.KeepsFace d common
  | .compose a b => a.Uses common ∧ b.KeepsFace d common
  | .composeScalar a b => a.Uses common ∧ b.KeepsFace d common
  | .polyCompose a b => a.Uses common ∧ b.KeepsFace d common
  | .polyComposeScalar a b => a.Uses common ∧ b.KeepsFace d common
  | .dot a b => a.KeepsFace d common ∧ b.KeepsFace d common

@[inherit_doc RSExpr.KeepsFace]
def RPExpr.KeepsFace (d : ℕ) (common : ℕ → Prop) : RPExpr K n → Prop
  | .leaf i => ¬ common i
  | .ofSpline a => a.KeepsFace d common
  | .add a b | .addAssign a b | .sub a b | .subAssign a b => a.KeepsFace d common ∧ b.KeepsFace d common
  | .neg a | .scale a _ | .addPoint a _ | .subPoint a _ | .elevate a _ => a.KeepsFace d common
  | .splitLeft a _ e | .splitRight a _ e | .splitPart a _ e _ => a.KeepsFace d common ∧ e ≠ d
  | .deriv a orders => a.KeepsFace d common ∧ orders[d]? = some 0
  | .composePoly a b => a.Uses common ∧ b.KeepsFace d common
  | .composePolyScalar a b => a.Uses common ∧ b.KeepsFace d common
  | .compose a b => a.Uses common ∧ b.KeepsFace d common
  | .composeScalar a b => a.Uses common ∧ b.KeepsFace d common
  | .polyCompose a b => a.Uses common ∧ b.KeepsFace d common
  | .polyComposeScalar a b => a.Uses common ∧ b.KeepsFace d common
  | .mulLeft a b => a.KeepsFace d common ∧ b.KeepsFace d common
  | .mulRight a b => a.KeepsFace d common ∧ b.KeepsFace d common
end

variable [Zero K] [One K] [Add K] [Sub K] [Mul K] [Neg K] [Div K] [NatCast K] [LT K] [DecidableLT K] [BEq K]

mutual
/-- At every sum and difference of patches in the program, the comparison of the weight functions comes out the same in both runs. -/
def RSExpr.SameSums (cfg : Cfg) (σ τ : RVars K n) : RSExpr K n → Prop
  | .leaf _ | .ofSpline _ | .composePoly _ _ | .composePolyScalar _ _ => True
  | .add a b | .addAssign a b | .sub a b | .subAssign a b => a.SameSums cfg σ τ ∧ b.SameSums cfg σ τ ∧
    SameTest (a.run cfg σ) (b.run cfg σ) (a.run cfg τ) (b.run cfg τ)
  | .mul a b => a.SameSums cfg σ τ ∧ b.SameSums cfg σ τ
  | .neg a | .scale a _ | .addPoint a _ | .subPoint a _ | .elevate a _ | .splitLeft a _ _ | .splitRight a _ _ | .splitPart a _ _ _
  | .deriv a _ => a.SameSums cfg σ τ
  | .compose _ b => b.SameSums cfg σ τ
  | .composeScalar _ b => b.SameSums cfg σ τ
  | .polyCompose _ b => b.SameSums cfg σ τ
  | .polyComposeScalar _ b => b.SameSums cfg σ τ
  | .dot a b => a.SameSums cfg σ τ ∧ b.SameSums cfg σ τ

@[inherit_doc RSExpr.SameSums]
def RPExpr.SameSums (cfg : Cfg) (σ τ : RVars K n) : RPExpr K n → Prop
  | .leaf _ | .ofSpline _ | .composePoly _ _ | .composePolyScalar _ _ => True
  | .add a b | .addAssign a b | .sub a b | .subAssign a b => a.SameSums cfg σ τ ∧ b.SameSums cfg σ τ ∧
    SameTest (a.run cfg σ) (b.run cfg σ) (a.run cfg τ) (b.run cfg τ)
  | .neg a | .scale a _ | .addPoint a _ | .subPoint a _ | .elevate a _ | .splitLeft a _ _ | .splitRight a _ _ | .splitPart a _ _ _
  | .deriv a _ => a.SameSums cfg σ τ
  | .compose _ b => b.SameSums cfg σ τ
  | .composeScalar _ b => b.SameSums cfg σ τ
  | .polyCompose _ b => b.SameSums cfg σ τ
  | .polyComposeScalar _ b => b.SameSums cfg σ τ
  | .mulLeft a b => a.SameSums cfg σ τ ∧ b.SameSums cfg σ τ
  | .mulRight a b => a.SameSums cfg σ τ ∧ b.SameSums cfg σ τ
end

/-- Two runs of the same rational program for two patches: common variables have the same values, the other variables hold patches
that share the face. -/
structure Spec.RGluedVars (d : ℕ) (sa sb : Bool) (common : ℕ → Prop) (σ τ : RVars K n) : Prop
    extends GluedVars d sa sb common σ.toVars τ.toVars where
  common_rs : ∀ i, common i → σ.rs i = τ.rs i
  common_rp : ∀ i, common i → σ.rp i = τ.rp i
  patch_rs : ∀ i, ¬ common i → RGlued d sa sb (σ.rs i) (τ.rs i)
  patch_rp : ∀ i, ¬ common i → RGlued d sa sb (σ.rp i) (τ.rp i)

end
end Bezman
