import Verif.Spec.ScalarMap

/-! # Which way sums of rational splines go

Sums and differences of rational splines compare the weight functions and compute one thing if they are equal and another if not. -/

namespace Bezman

/-- The weight functions of the summands compare equal in the first run if and only if they do in the second. -/
def Spec.SameTest {K V K' V' : Type} [BEq K] [BEq K'] (p q : M (RSpline K V)) (p' q' : M (RSpline K' V')) : Prop :=
  ∀ r s r' s', p = .ok r → q = .ok s → p' = .ok r' → q' = .ok s' → r.wt.eqOp s.wt = r'.wt.eqOp s'.wt

open Spec
variable {K K₁ K₂ : Type} {n : Nat} [Zero K₁] [One K₁] [Add K₁] [Sub K₁] [Mul K₁] [Neg K₁] [Div K₁] [NatCast K₁] [LT K₁] [DecidableLT K₁] [BEq K₁]
  [Zero K₂] [One K₂] [Add K₂] [Sub K₂] [Mul K₂] [Neg K₂] [Div K₂] [NatCast K₂] [LT K₂] [DecidableLT K₂] [BEq K₂]

mutual
/-- At every sum and difference in the program, the comparison of the weight functions comes out the same with the images under `f`
as with the images under `g`. -/
def RSExpr.SumsAgree (cfg : Cfg) (σ : RVars K n) (f : K → K₁) (g : K → K₂) : RSExpr K n → Prop
  | .leaf _ => True
  | .ofSpline _ => True
  | .add a b => a.SumsAgree cfg σ f g ∧ b.SumsAgree cfg σ f g ∧
    SameTest ((a.map f).run cfg (σ.map f)) ((b.map f).run cfg (σ.map f)) ((a.map g).run cfg (σ.map g)) ((b.map g).run cfg (σ.map g))
  | .addAssign a b => a.SumsAgree cfg σ f g ∧ b.SumsAgree cfg σ f g ∧
    SameTest ((a.map f).run cfg (σ.map f)) ((b.map f).run cfg (σ.map f)) ((a.map g).run cfg (σ.map g)) ((b.map g).run cfg (σ.map g))
  | .sub a b => a.SumsAgree cfg σ f g ∧ b.SumsAgree cfg σ f g ∧
    SameTest ((a.map f).run cfg (σ.map f)) ((b.map f).run cfg (σ.map f)) ((a.map g).run cfg (σ.map g)) ((b.map g).run cfg (σ.map g))
  | .subAssign a b => a.SumsAgree cfg σ f g ∧ b.SumsAgree cfg σ f g ∧
    SameTest ((a.map f).run cfg (σ.map f)) ((b.map f).run cfg (σ.map f)) ((a.map g).run cfg (σ.map g)) ((b.map g).run cfg (σ.map g))
  | .neg a => a.SumsAgree cfg σ f g
  | .scale a _ => a.SumsAgree cfg σ f g
  | .addPoint a _ => a.SumsAgree cfg σ f g
  | .subPoint a _ => a.SumsAgree cfg σ f g
  | .elevate a _ => a.SumsAgree cfg σ f g
  | .splitLeft a _ _ => a.SumsAgree cfg σ f g
  | .splitRight a _ _ => a.SumsAgree cfg σ f g
  | .splitPart a _ _ _ => a.SumsAgree cfg σ f g
  | .deriv a _ => a.SumsAgree cfg σ f g
  | .composePoly a _ => a.SumsAgree cfg σ f g
  | .composePolyScalar a _ => a.SumsAgree cfg σ f g
  | .compose a b => a.SumsAgree cfg σ f g ∧ b.SumsAgree cfg σ f g
  | .composeScalar a b => a.SumsAgree cfg σ f g ∧ b.SumsAgree cfg σ f g
  | .polyCompose _ b => b.SumsAgree cfg σ f g
  | .polyComposeScalar _ b => b.SumsAgree cfg σ f g
  | .mul a b => a.SumsAgree cfg σ f g ∧ b.SumsAgree cfg σ f g
  | .dot a b => a.SumsAgree cfg σ f g ∧ b.SumsAgree cfg σ f g

@[inherit_doc RSExpr.SumsAgree]
def RPExpr.SumsAgree (cfg : Cfg) (σ : RVars K n) (f : K → K₁) (g : K → K₂) : RPExpr K n → Prop
  | .leaf _ => True
  | .ofSpline _ => True
  | .add a b => a.SumsAgree cfg σ f g ∧ b.SumsAgree cfg σ f g ∧
    SameTest ((a.map f).run cfg (σ.map f)) ((b.map f).run cfg (σ.map f)) ((a.map g).run cfg (σ.map g)) ((b.map g).run cfg (σ.map g))
  | .addAssign a b => a.SumsAgree cfg σ f g ∧ b.SumsAgree cfg σ f g ∧
    SameTest ((a.map f).run cfg (σ.map f)) ((b.map f).run cfg (σ.map f)) ((a.map g).run cfg (σ.map g)) ((b.map g).run cfg (σ.map g))
  | .sub a b => a.SumsAgree cfg σ f g ∧ b.SumsAgree cfg σ f g ∧
    SameTest ((a.map f).run cfg (σ.map f)) ((b.map f).run cfg (σ.map f)) ((a.map g).run cfg (σ.map g)) ((b.map g).run cfg (σ.map g))
  | .subAssign a b => a.SumsAgree cfg σ f g ∧ b.SumsAgree cfg σ f g ∧
    SameTest ((a.map f).run cfg (σ.map f)) ((b.map f).run cfg (σ.map f)) ((a.map g).run cfg (σ.map g)) ((b.map g).run cfg (σ.map g))
  | .neg a => a.SumsAgree cfg σ f g
  | .scale a _ => a.SumsAgree cfg σ f g
  | .addPoint a _ => a.SumsAgree cfg σ f g
  | .subPoint a _ => a.SumsAgree cfg σ f g
  | .elevate a _ => a.SumsAgree cfg σ f g
  | .splitLeft a _ _ => a.SumsAgree cfg σ f g
  | .splitRight a _ _ => a.SumsAgree cfg σ f g
  | .splitPart a _ _ _ => a.SumsAgree cfg σ f g
  | .deriv a _ => a.SumsAgree cfg σ f g
  | .composePoly a _ => a.SumsAgree cfg σ f g
  | .composePolyScalar a _ => a.SumsAgree cfg σ f g
  | .compose a b => a.SumsAgree cfg σ f g ∧ b.SumsAgree cfg σ f g
  | .composeScalar a b => a.SumsAgree cfg σ f g ∧ b.SumsAgree cfg σ f g
  | .polyCompose _ b => b.SumsAgree cfg σ f g
  | .polyComposeScalar _ b => b.SumsAgree cfg σ f g
  | .mulLeft a b => a.SumsAgree cfg σ f g ∧ b.SumsAgree cfg σ f g
  | .mulRight a b => a.SumsAgree cfg σ f g ∧ b.SumsAgree cfg σ f g
end

end Bezman
