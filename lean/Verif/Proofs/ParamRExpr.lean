import Verif.Proofs.ParamRational

set_option linter.unusedSectionVars false

/-! # Whole programs over rational splines run in lockstep -/

namespace Bezman

section
variable {K K' : Type} {n : Nat} [Par K K'] [One K] [Sub K] [Div K] [One K'] [Sub K'] [Div K']

mutual
/-- The same rational program over two number systems: corresponding constants. -/
def RSExpr.Rel : RSExpr K n → RSExpr K' n → Prop
  | .leaf i, .leaf i' => i = i'
  | .ofSpline a, .ofSpline a' => a.Rel a'
  | .add a b, .add a' b' => a.Rel a' ∧ b.Rel b'
  | .addAssign a b, .addAssign a' b' => a.Rel a' ∧ b.Rel b'
  | .sub a b, .sub a' b' => a.Rel a' ∧ b.Rel b'
  | .subAssign a b, .subAssign a' b' => a.Rel a' ∧ b.Rel b'
  | .composePoly a b, .composePoly a' b' => a.Rel a' ∧ b.Rel b'
  | .composePolyScalar a b, .composePolyScalar a' b' => a.Rel a' ∧ b.Rel b'
  | .compose a b, .compose a' b' => a.Rel a' ∧ b.Rel b'
  | .composeScalar a b, .composeScalar a' b' => a.Rel a' ∧ b.Rel b'
  | .polyCompose a b, .polyCompose a' b' => a.Rel a' ∧ b.Rel b'
  | .polyComposeScalar a b, .polyComposeScalar a' b' => a.Rel a' ∧ b.Rel b'
  | .neg a, .neg a' => a.Rel a'
  | .scale a c, .scale a' c' => a.Rel a' ∧ c ≋ c'
  | .addPoint a v, .addPoint a' v' => a.Rel a' ∧ v ≋ v'
  | .subPoint a v, .subPoint a' v' => a.Rel a' ∧ v ≋ v'
  | .elevate a d, .elevate a' d' => a.Rel a' ∧ d = d'
  | .splitLeft a z d, .splitLeft a' z' d' => a.Rel a' ∧ z ≋ z' ∧ d = d'
  | .splitRight a z d, .splitRight a' z' d' => a.Rel a' ∧ z ≋ z' ∧ d = d'
  | .splitPart a z d i, .splitPart a' z' d' i' => a.Rel a' ∧ Spline.ParPlanes z z' ∧ d = d' ∧ i = i'
  | .deriv a o, .deriv a' o' => a.Rel a' ∧ o = o'
  | .mul a b, .mul a' b' => a.Rel a' ∧ b.Rel b'
  | .dot a b, .dot a' b' => a.Rel a' ∧ b.Rel b'
  | _, _ => False

@[inherit_doc RSExpr.Rel]
def RPExpr.Rel : RPExpr K n → RPExpr K' n → Prop
  | .leaf i, .leaf i' => i = i'
  | .ofSpline a, .ofSpline a' => a.Rel a'
  | .add a b, .add a' b' => a.Rel a' ∧ b.Rel b'
  | .addAssign a b, .addAssign a' b' => a.Rel a' ∧ b.Rel b'
  | .sub a b, .sub a' b' => a.Rel a' ∧ b.Rel b'
  | .subAssign a b, .subAssign a' b' => a.Rel a' ∧ b.Rel b'
  | .composePoly a b, .composePoly a' b' => a.Rel a' ∧ b.Rel b'
  | .composePolyScalar a b, .composePolyScalar a' b' => a.Rel a' ∧ b.Rel b'
  | .compose a b, .compose a' b' => a.Rel a' ∧ b.Rel b'
  | .composeScalar a b, .composeScalar a' b' => a.Rel a' ∧ b.Rel b'
  | .polyCompose a b, .polyCompose a' b' => a.Rel a' ∧ b.Rel b'
  | .polyComposeScalar a b, .polyComposeScalar a' b' => a.Rel a' ∧ b.Rel b'
  | .neg a, .neg a' => a.Rel a'
  | .scale a c, .scale a' c' => a.Rel a' ∧ c ≋ c'
  | .addPoint a v, .addPoint a' v' => a.Rel a' ∧ v ≋ v'
  | .subPoint a v, .subPoint a' v' => a.Rel a' ∧ v ≋ v'
  | .elevate a d, .elevate a' d' => a.Rel a' ∧ d = d'
  | .splitLeft a z d, .splitLeft a' z' d' => a.Rel a' ∧ z ≋ z' ∧ d = d'
  | .splitRight a z d, .splitRight a' z' d' => a.Rel a' ∧ z ≋ z' ∧ d = d'
  | .splitPart a z d i, .splitPart a' z' d' i' => a.Rel a' ∧ Spline.ParPlanes z z' ∧ d = d' ∧ i = i'
  | .deriv a o, .deriv a' o' => a.Rel a' ∧ o = o'
  | .mulLeft a b, .mulLeft a' b' => a.Rel a' ∧ b.Rel b'
  | .mulRight a b, .mulRight a' b' => a.Rel a' ∧ b.Rel b'
  | _, _ => False
end
end

/-- Corresponding variables. -/
def RVars.Rel {K K' : Type} {n : Nat} [Par K K'] (σ : RVars K n) (σ' : RVars K' n) : Prop :=
  σ.toVars.Rel σ'.toVars ∧ (∀ i, σ.rs i ≋ σ'.rs i) ∧ ∀ i, σ.rp i ≋ σ'.rp i

section
variable {tol : Err → Bool} {K K' : Type} {n : Nat} [Par K K']
  [Zero K] [One K] [Add K] [Sub K] [Mul K] [Neg K] [Div K] [NatCast K]
  [Zero K'] [One K'] [Add K'] [Sub K'] [Mul K'] [Neg K'] [Div K'] [NatCast K']
  [hk : ParScalar K K'] [LT K] [DecidableLT K] [LT K'] [DecidableLT K'] [ho : ParOrd tol K K']
  [BEq K] [BEq K'] [he : ParEq K K'] [ParZero tol K K'] [ParDiv K K' K K'] [ParDiv K K' (Point K n) (Point K' n)]

mutual
/-- Corresponding programs on corresponding variables have corresponding outcomes. -/
theorem parRSRun (cfg : Cfg) {σ : RVars K n} {σ' : RVars K' n} (hσ : σ.Rel σ') :
    ∀ (e : RSExpr K n) (e' : RSExpr K' n), e.Rel e' → RelM tol (e.run cfg σ) (e'.run cfg σ')
  | .leaf i, e', h => by
    cases e' <;> simp only [RSExpr.Rel] at h
    obtain rfl := h
    simp only [RSExpr.run]
    exact RelM.ok (hσ.2.1 i)
  | .ofSpline a, e', h => by
    cases e' <;> simp only [RSExpr.Rel] at h
    simp only [RSExpr.run]
    exact RelM.bind (parSRun cfg hσ.1 _ _ h) fun x x' hx => RSpline.parOfSpline hx
  | .add a b, e', h => by
    cases e' <;> simp only [RSExpr.Rel] at h
    obtain ⟨h1, h2⟩ := h
    simp only [RSExpr.run]
    exact RelM.bind (parRSRun cfg hσ _ _ h1) fun x x' hx => RelM.bind (parRSRun cfg hσ _ _ h2) fun y y' hy => RSpline.parRAddOp cfg hx hy (parEqOp hx.2 hy.2)
  | .addAssign a b, e', h => by
    cases e' <;> simp only [RSExpr.Rel] at h
    obtain ⟨h1, h2⟩ := h
    simp only [RSExpr.run]
    exact RelM.bind (parRSRun cfg hσ _ _ h1) fun x x' hx => RelM.bind (parRSRun cfg hσ _ _ h2) fun y y' hy => RSpline.parRAddAssign cfg hx hy (parEqOp hx.2 hy.2)
  | .sub a b, e', h => by
    cases e' <;> simp only [RSExpr.Rel] at h
    obtain ⟨h1, h2⟩ := h
    simp only [RSExpr.run]
    exact RelM.bind (parRSRun cfg hσ _ _ h1) fun x x' hx => RelM.bind (parRSRun cfg hσ _ _ h2) fun y y' hy => RSpline.parRSubOp cfg hx hy (parEqOp hx.2 hy.2)
  | .subAssign a b, e', h => by
    cases e' <;> simp only [RSExpr.Rel] at h
    obtain ⟨h1, h2⟩ := h
    simp only [RSExpr.run]
    exact RelM.bind (parRSRun cfg hσ _ _ h1) fun x x' hx => RelM.bind (parRSRun cfg hσ _ _ h2) fun y y' hy => RSpline.parRSubAssign cfg hx hy (parEqOp hx.2 hy.2)
  | .composePoly a b, e', h => by
    cases e' <;> simp only [RSExpr.Rel] at h
    obtain ⟨h1, h2⟩ := h
    simp only [RSExpr.run]
    exact RelM.bind (parRSRun cfg hσ _ _ h1) fun x x' hx => RelM.bind (parPRun cfg hσ.1 _ _ h2) fun y y' hy => RSpline.parRCompose cfg hx hy
  | .composePolyScalar a b, e', h => by
    cases e' <;> simp only [RSExpr.Rel] at h
    obtain ⟨h1, h2⟩ := h
    simp only [RSExpr.run]
    exact RelM.bind (parRSRun cfg hσ _ _ h1) fun x x' hx => RelM.bind (parSRun cfg hσ.1 _ _ h2) fun y y' hy => RSpline.parRCompose cfg hx hy
  | .compose a b, e', h => by
    cases e' <;> simp only [RSExpr.Rel] at h
    obtain ⟨h1, h2⟩ := h
    simp only [RSExpr.run]
    exact RelM.bind (parRSRun cfg hσ _ _ h1) fun x x' hx => RelM.bind (parRPRun cfg hσ _ _ h2) fun y y' hy => RSpline.parRComposeRational cfg hx hy
  | .composeScalar a b, e', h => by
    cases e' <;> simp only [RSExpr.Rel] at h
    obtain ⟨h1, h2⟩ := h
    simp only [RSExpr.run]
    exact RelM.bind (parRSRun cfg hσ _ _ h1) fun x x' hx => RelM.bind (parRSRun cfg hσ _ _ h2) fun y y' hy => RSpline.parRComposeRational cfg hx hy
  | .polyCompose a b, e', h => by
    cases e' <;> simp only [RSExpr.Rel] at h
    obtain ⟨h1, h2⟩ := h
    simp only [RSExpr.run]
    exact RelM.bind (parSRun cfg hσ.1 _ _ h1) fun x x' hx => RelM.bind (parRPRun cfg hσ _ _ h2) fun y y' hy => Spline.parComposeRational cfg hx hy
  | .polyComposeScalar a b, e', h => by
    cases e' <;> simp only [RSExpr.Rel] at h
    obtain ⟨h1, h2⟩ := h
    simp only [RSExpr.run]
    exact RelM.bind (parSRun cfg hσ.1 _ _ h1) fun x x' hx => RelM.bind (parRSRun cfg hσ _ _ h2) fun y y' hy => Spline.parComposeRational cfg hx hy
  | .neg a, e', h => by
    cases e' <;> simp only [RSExpr.Rel] at h
    simp only [RSExpr.run]
    exact RelM.bind (parRSRun cfg hσ _ _ h) fun x x' hx => RSpline.parRNegOp hx
  | .scale a c, e', h => by
    cases e' <;> simp only [RSExpr.Rel] at h
    obtain ⟨h1, h2⟩ := h
    simp only [RSExpr.run]
    exact RelM.bind (parRSRun cfg hσ _ _ h1) fun x x' hx => RSpline.parRSmulOp hx h2
  | .addPoint a v, e', h => by
    cases e' <;> simp only [RSExpr.Rel] at h
    obtain ⟨h1, h2⟩ := h
    simp only [RSExpr.run]
    exact RelM.bind (parRSRun cfg hσ _ _ h1) fun x x' hx => RSpline.parRAddPoint hx h2
  | .subPoint a v, e', h => by
    cases e' <;> simp only [RSExpr.Rel] at h
    obtain ⟨h1, h2⟩ := h
    simp only [RSExpr.run]
    exact RelM.bind (parRSRun cfg hσ _ _ h1) fun x x' hx => RSpline.parRSubPoint hx h2
  | .elevate a d, e', h => by
    cases e' <;> simp only [RSExpr.Rel] at h
    obtain ⟨h1, rfl⟩ := h
    simp only [RSExpr.run]
    exact RelM.bind (parRSRun cfg hσ _ _ h1) fun x x' hx => RSpline.parROrderElevate hx d
  | .splitLeft a z d, e', h => by
    cases e' <;> simp only [RSExpr.Rel] at h
    obtain ⟨h1, h2, rfl⟩ := h
    simp only [RSExpr.run]
    exact RelM.bind (parRSRun cfg hσ _ _ h1) fun x x' hx => RelM.bind (RSpline.parRSplitAt hx h2 d) fun l l' hl => RelM.ok hl.1
  | .splitRight a z d, e', h => by
    cases e' <;> simp only [RSExpr.Rel] at h
    obtain ⟨h1, h2, rfl⟩ := h
    simp only [RSExpr.run]
    exact RelM.bind (parRSRun cfg hσ _ _ h1) fun x x' hx => RelM.bind (RSpline.parRSplitAt hx h2 d) fun l l' hl => RelM.ok hl.2
  | .splitPart a z d i, e', h => by
    cases e' <;> simp only [RSExpr.Rel] at h
    obtain ⟨h1, h2, rfl, rfl⟩ := h
    simp only [RSExpr.run]
    exact RelM.bind (parRSRun cfg hσ _ _ h1) fun x x' hx => RelM.bind (RSpline.parRSplitAtMany hx h2 d) fun l l' hl => RelM.rd hl i
  | .deriv a o, e', h => by
    cases e' <;> simp only [RSExpr.Rel] at h
    obtain ⟨h1, rfl⟩ := h
    simp only [RSExpr.run]
    exact RelM.bind (parRSRun cfg hσ _ _ h1) fun x x' hx => RSpline.parRDerivativeSpline cfg hx o
  | .mul a b, e', h => by
    cases e' <;> simp only [RSExpr.Rel] at h
    obtain ⟨h1, h2⟩ := h
    simp only [RSExpr.run]
    exact RelM.bind (parRSRun cfg hσ _ _ h1) fun x x' hx => RelM.bind (parRSRun cfg hσ _ _ h2) fun y y' hy => RSpline.parRMulOp cfg (fun _ _ _ _ ha hb => hk.mul ha hb) hx hy
  | .dot a b, e', h => by
    cases e' <;> simp only [RSExpr.Rel] at h
    obtain ⟨h1, h2⟩ := h
    simp only [RSExpr.run]
    exact RelM.bind (parRPRun cfg hσ _ _ h1) fun x x' hx => RelM.bind (parRPRun cfg hσ _ _ h2) fun y y' hy => 
      RSpline.parRMulOp cfg (fun _ _ _ _ ha hb => parDot ha hb) hx hy

@[inherit_doc parRSRun]
theorem parRPRun (cfg : Cfg) {σ : RVars K n} {σ' : RVars K' n} (hσ : σ.Rel σ') :
    ∀ (e : RPExpr K n) (e' : RPExpr K' n), e.Rel e' → RelM tol (e.run cfg σ) (e'.run cfg σ')
  | .leaf i, e', h => by
    cases e' <;> simp only [RPExpr.Rel] at h
    obtain rfl := h
    simp only [RPExpr.run]
    exact RelM.ok (hσ.2.2 i)
  | .ofSpline a, e', h => by
    cases e' <;> simp only [RPExpr.Rel] at h
    simp only [RPExpr.run]
    exact RelM.bind (parPRun cfg hσ.1 _ _ h) fun x x' hx => RSpline.parOfSpline hx
  | .add a b, e', h => by
    cases e' <;> simp only [RPExpr.Rel] at h
    obtain ⟨h1, h2⟩ := h
    simp only [RPExpr.run]
    exact RelM.bind (parRPRun cfg hσ _ _ h1) fun x x' hx => RelM.bind (parRPRun cfg hσ _ _ h2) fun y y' hy => RSpline.parRAddOp cfg hx hy (parEqOp hx.2 hy.2)
  | .addAssign a b, e', h => by
    cases e' <;> simp only [RPExpr.Rel] at h
    obtain ⟨h1, h2⟩ := h
    simp only [RPExpr.run]
    exact RelM.bind (parRPRun cfg hσ _ _ h1) fun x x' hx => RelM.bind (parRPRun cfg hσ _ _ h2) fun y y' hy => RSpline.parRAddAssign cfg hx hy (parEqOp hx.2 hy.2)
  | .sub a b, e', h => by
    cases e' <;> simp only [RPExpr.Rel] at h
    obtain ⟨h1, h2⟩ := h
    simp only [RPExpr.run]
    exact RelM.bind (parRPRun cfg hσ _ _ h1) fun x x' hx => RelM.bind (parRPRun cfg hσ _ _ h2) fun y y' hy => RSpline.parRSubOp cfg hx hy (parEqOp hx.2 hy.2)
  | .subAssign a b, e', h => by
    cases e' <;> simp only [RPExpr.Rel] at h
    obtain ⟨h1, h2⟩ := h
    simp only [RPExpr.run]
    exact RelM.bind (parRPRun cfg hσ _ _ h1) fun x x' hx => RelM.bind (parRPRun cfg hσ _ _ h2) fun y y' hy => RSpline.parRSubAssign cfg hx hy (parEqOp hx.2 hy.2)
  | .composePoly a b, e', h => by
    cases e' <;> simp only [RPExpr.Rel] at h
    obtain ⟨h1, h2⟩ := h
    simp only [RPExpr.run]
    exact RelM.bind (parRPRun cfg hσ _ _ h1) fun x x' hx => RelM.bind (parPRun cfg hσ.1 _ _ h2) fun y y' hy => RSpline.parRCompose cfg hx hy
  | .composePolyScalar a b, e', h => by
    cases e' <;> simp only [RPExpr.Rel] at h
    obtain ⟨h1, h2⟩ := h
    simp only [RPExpr.run]
    exact RelM.bind (parRPRun cfg hσ _ _ h1) fun x x' hx => RelM.bind (parSRun cfg hσ.1 _ _ h2) fun y y' hy => RSpline.parRCompose cfg hx hy
  | .compose a b, e', h => by
    cases e' <;> simp only [RPExpr.Rel] at h
    obtain ⟨h1, h2⟩ := h
    simp only [RPExpr.run]
    exact RelM.bind (parRPRun cfg hσ _ _ h1) fun x x' hx => RelM.bind (parRPRun cfg hσ _ _ h2) fun y y' hy => RSpline.parRComposeRational cfg hx hy
  | .composeScalar a b, e', h => by
    cases e' <;> simp only [RPExpr.Rel] at h
    obtain ⟨h1, h2⟩ := h
    simp only [RPExpr.run]
    exact RelM.bind (parRPRun cfg hσ _ _ h1) fun x x' hx => RelM.bind (parRSRun cfg hσ _ _ h2) fun y y' hy => RSpline.parRComposeRational cfg hx hy
  | .polyCompose a b, e', h => by
    cases e' <;> simp only [RPExpr.Rel] at h
    obtain ⟨h1, h2⟩ := h
    simp only [RPExpr.run]
    exact RelM.bind (parPRun cfg hσ.1 _ _ h1) fun x x' hx => RelM.bind (parRPRun cfg hσ _ _ h2) fun y y' hy => Spline.parComposeRational cfg hx hy
  | .polyComposeScalar a b, e', h => by
    cases e' <;> simp only [RPExpr.Rel] at h
    obtain ⟨h1, h2⟩ := h
    simp only [RPExpr.run]
    exact RelM.bind (parPRun cfg hσ.1 _ _ h1) fun x x' hx => RelM.bind (parRSRun cfg hσ _ _ h2) fun y y' hy => Spline.parComposeRational cfg hx hy
  | .neg a, e', h => by
    cases e' <;> simp only [RPExpr.Rel] at h
    simp only [RPExpr.run]
    exact RelM.bind (parRPRun cfg hσ _ _ h) fun x x' hx => RSpline.parRNegOp hx
  | .scale a c, e', h => by
    cases e' <;> simp only [RPExpr.Rel] at h
    obtain ⟨h1, h2⟩ := h
    simp only [RPExpr.run]
    exact RelM.bind (parRPRun cfg hσ _ _ h1) fun x x' hx => RSpline.parRSmulOp hx h2
  | .addPoint a v, e', h => by
    cases e' <;> simp only [RPExpr.Rel] at h
    obtain ⟨h1, h2⟩ := h
    simp only [RPExpr.run]
    exact RelM.bind (parRPRun cfg hσ _ _ h1) fun x x' hx => RSpline.parRAddPoint hx h2
  | .subPoint a v, e', h => by
    cases e' <;> simp only [RPExpr.Rel] at h
    obtain ⟨h1, h2⟩ := h
    simp only [RPExpr.run]
    exact RelM.bind (parRPRun cfg hσ _ _ h1) fun x x' hx => RSpline.parRSubPoint hx h2
  | .elevate a d, e', h => by
    cases e' <;> simp only [RPExpr.Rel] at h
    obtain ⟨h1, rfl⟩ := h
    simp only [RPExpr.run]
    exact RelM.bind (parRPRun cfg hσ _ _ h1) fun x x' hx => RSpline.parROrderElevate hx d
  | .splitLeft a z d, e', h => by
    cases e' <;> simp only [RPExpr.Rel] at h
    obtain ⟨h1, h2, rfl⟩ := h
    simp only [RPExpr.run]
    exact RelM.bind (parRPRun cfg hσ _ _ h1) fun x x' hx => RelM.bind (RSpline.parRSplitAt hx h2 d) fun l l' hl => RelM.ok hl.1
  | .splitRight a z d, e', h => by
    cases e' <;> simp only [RPExpr.Rel] at h
    obtain ⟨h1, h2, rfl⟩ := h
    simp only [RPExpr.run]
    exact RelM.bind (parRPRun cfg hσ _ _ h1) fun x x' hx => RelM.bind (RSpline.parRSplitAt hx h2 d) fun l l' hl => RelM.ok hl.2
  | .splitPart a z d i, e', h => by
    cases e' <;> simp only [RPExpr.Rel] at h
    obtain ⟨h1, h2, rfl, rfl⟩ := h
    simp only [RPExpr.run]
    exact RelM.bind (parRPRun cfg hσ _ _ h1) fun x x' hx => RelM.bind (RSpline.parRSplitAtMany hx h2 d) fun l l' hl => RelM.rd hl i
  | .deriv a o, e', h => by
    cases e' <;> simp only [RPExpr.Rel] at h
    obtain ⟨h1, rfl⟩ := h
    simp only [RPExpr.run]
    exact RelM.bind (parRPRun cfg hσ _ _ h1) fun x x' hx => RSpline.parRDerivativeSpline cfg hx o
  | .mulLeft a b, e', h => by
    cases e' <;> simp only [RPExpr.Rel] at h
    obtain ⟨h1, h2⟩ := h
    simp only [RPExpr.run]
    exact RelM.bind (parRSRun cfg hσ _ _ h1) fun x x' hx => RelM.bind (parRPRun cfg hσ _ _ h2) fun y y' hy => 
      RSpline.parRMulOp cfg (fun _ _ _ _ ha hb => ParPoint.smul ha hb) hx hy
  | .mulRight a b, e', h => by
    cases e' <;> simp only [RPExpr.Rel] at h
    obtain ⟨h1, h2⟩ := h
    simp only [RPExpr.run]
    exact RelM.bind (parRPRun cfg hσ _ _ h1) fun x x' hx => RelM.bind (parRSRun cfg hσ _ _ h2) fun y y' hy => 
      RSpline.parRMulOp cfg (fun _ _ _ _ ha hb => ParPoint.smul hb ha) hx hy
end

end
end Bezman
