import Verif.Spec.SumsAgree
import Verif.Proofs.ScalarMap
import Verif.Proofs.Coordinates

/-! # Two runs in lockstep, when comparisons of weight functions come out the same

`parRSRun` without the assumption that corresponding numbers compare in the same way. -/

namespace Bezman
open Spec

theorem bindRun {tol : Err → Bool} {α β γ δ : Type} [Par α β] [Par γ δ] {x : M α} {y : M β} {f : α → M γ} {g : β → M δ} (h : RelM tol x y)
    (hf : ∀ a b, x = .ok a → y = .ok b → a ≋ b → RelM tol (f a) (g b)) : RelM tol (x >>= f) (y >>= g) := by
  cases h with
  | ok h => exact hf _ _ rfl rfl h
  | err e => exact .err e
  | left e _ ht => exact .left e _ ht
  | right e _ ht => exact .right e _ ht

section
variable {K K' : Type} {n : Nat} [Zero K] [One K] [Add K] [Sub K] [Mul K] [Neg K] [Div K] [NatCast K] [LT K] [DecidableLT K] [BEq K]
    [Zero K'] [One K'] [Add K'] [Sub K'] [Mul K'] [Neg K'] [Div K'] [NatCast K'] [LT K'] [DecidableLT K'] [BEq K'] {f : K → K'}

theorem run_map_rs (cfg : Cfg) (h : Arithmetic f) (σ : RVars K n) (e : RSExpr K n) :
    (e.map f).run cfg (σ.map f) = (e.run cfg σ).map (RSpline.map f f) := by
  let _ := parMap f
  have i1 : ParScalar K K' := parScalarMap h
  have i2 : ParOrd strict K K' := parOrdMap h
  have i3 : ParEq K K' := parEqMap h
  have i4 : ParZero strict K K' := parZeroMap h
  have i5 : ParDiv K K' K K' := parDivMap h
  have i6 : ParDiv K K' (Point K n) (Point K' n) := parDivPointMap h
  exact RelM.toMap (fun _ _ => eq_rspline_map (fun _ _ => Eq.symm) fun _ _ => Eq.symm) (parRSRun (tol := strict) cfg (rvars_map_rel f σ) e (e.map f)
    (rsrel_map (P := fun _ => True) (Q := fun _ => True) (fun _ _ => rfl) (fun zs _ => parPlanesMap h zs) e
      (rsconst (fun _ => trivial) (fun _ => trivial) e)))

theorem run_map_rp (cfg : Cfg) (h : Arithmetic f) (σ : RVars K n) (e : RPExpr K n) :
    (e.map f).run cfg (σ.map f) = (e.run cfg σ).map (RSpline.map f (Point.map f)) := by
  let _ := parMap f
  have i1 : ParScalar K K' := parScalarMap h
  have i2 : ParOrd strict K K' := parOrdMap h
  have i3 : ParEq K K' := parEqMap h
  have i4 : ParZero strict K K' := parZeroMap h
  have i5 : ParDiv K K' K K' := parDivMap h
  have i6 : ParDiv K K' (Point K n) (Point K' n) := parDivPointMap h
  exact RelM.toMap (fun _ _ => eq_rspline_map (fun _ _ => Eq.symm) (eq_point_map fun _ _ => Eq.symm))
    (parRPRun (tol := strict) cfg (rvars_map_rel f σ) e (e.map f)
    (rprel_map (P := fun _ => True) (Q := fun _ => True) (fun _ _ => rfl) (fun zs _ => parPlanesMap h zs) e
      (rpconst (fun _ => trivial) (fun _ => trivial) e)))

theorem eqOp_map (h : Arithmetic f) (s t : Spline K) : (s.map f).eqOp (t.map f) = s.eqOp t := by
  let _ := parMap f
  have i3 : ParEq K K' := parEqMap h
  have hs : s ≋ s.map f := spline_map_rel fun _ _ => rfl
  have ht : t ≋ t.map f := spline_map_rel fun _ _ => rfl
  exact (parEqOp hs ht).symm
end

section
variable {tol : Err → Bool} {K K' : Type} {n : Nat} [Par K K']
  [Zero K] [One K] [Add K] [Sub K] [Mul K] [Neg K] [Div K] [NatCast K]
  [Zero K'] [One K'] [Add K'] [Sub K'] [Mul K'] [Neg K'] [Div K'] [NatCast K']
  [hk : ParScalar K K'] [LT K] [DecidableLT K] [LT K'] [DecidableLT K'] [ho : ParOrd tol K K']
  [BEq K] [BEq K'] [ParZero tol K K'] [ParDiv K K' K K'] [ParDiv K K' (Point K n) (Point K' n)]
  {K₁ : Type} [Zero K₁] [One K₁] [Add K₁] [Sub K₁] [Mul K₁] [Neg K₁] [Div K₁] [NatCast K₁] [LT K₁] [DecidableLT K₁] [BEq K₁]
  {f : K → K₁} {g : K → K'}

/-- `f` preserves comparisons, numbers correspond to their images under `g` -/
structure TwoRuns (f : K → K₁) (g : K → K') : Prop where
  arith : Arithmetic f
  par : ∀ a : K, a ≋ g a
  planes : ∀ zs : List K, Spline.ParPlanes zs (zs.map g)

omit hk in
theorem TwoRuns.vars (H : TwoRuns f g) (σ : RVars K n) : σ.Rel (σ.map g) :=
  ⟨⟨fun _ => spline_map_rel fun _ _ => H.par _, fun _ => spline_map_rel fun _ _ _ => H.par _⟩,
    fun _ => ⟨spline_map_rel fun _ _ => H.par _, spline_map_rel fun _ _ => H.par _⟩,
    fun _ => ⟨spline_map_rel fun _ _ _ => H.par _, spline_map_rel fun _ _ => H.par _⟩⟩

theorem atSRel (cfg : Cfg) (H : TwoRuns f g) (σ : RVars K n) (e : SExpr K n) :
    RelM tol (e.run cfg σ.toVars) ((e.map g).run cfg (σ.map g).toVars) :=
  parSRun cfg (H.vars σ).1 e (e.map g) (srel_map (P := fun _ => True) (Q := fun _ => True) (fun _ _ => H.par _) (fun zs _ => H.planes zs) e
    (sconst (fun _ => trivial) (fun _ => trivial) e))

theorem atPRel (cfg : Cfg) (H : TwoRuns f g) (σ : RVars K n) (e : PExpr K n) :
    RelM tol (e.run cfg σ.toVars) ((e.map g).run cfg (σ.map g).toVars) :=
  parPRun cfg (H.vars σ).1 e (e.map g) (prel_map (P := fun _ => True) (Q := fun _ => True) (fun _ _ => H.par _) (fun zs _ => H.planes zs) e
    (pconst (fun _ => trivial) (fun _ => trivial) e))

omit hk in
theorem sumEqR (cfg : Cfg) (H : TwoRuns f g) {σ : RVars K n} {a b : RSExpr K n} {x y : RSpline K K} {x' y' : RSpline K' K'}
    (ex : a.run cfg σ = .ok x) (ey : b.run cfg σ = .ok y)
    (ex' : (a.map g).run cfg (σ.map g) = .ok x') (ey' : (b.map g).run cfg (σ.map g) = .ok y')
    (h : SameTest ((a.map f).run cfg (σ.map f)) ((b.map f).run cfg (σ.map f)) ((a.map g).run cfg (σ.map g)) ((b.map g).run cfg (σ.map g))) :
    x.wt.eqOp y.wt = x'.wt.eqOp y'.wt := by
  have h1 := run_map_rs cfg H.arith σ a
  have h2 := run_map_rs cfg H.arith σ b
  rw [ex] at h1
  rw [ey] at h2
  rw [← h _ _ _ _ h1 h2 ex' ey']
  exact (eqOp_map H.arith _ _).symm

omit hk in
theorem sumEqQ (cfg : Cfg) (H : TwoRuns f g) {σ : RVars K n} {a b : RPExpr K n} {x y : RSpline K (Point K n)} {x' y' : RSpline K' (Point K' n)}
    (ex : a.run cfg σ = .ok x) (ey : b.run cfg σ = .ok y)
    (ex' : (a.map g).run cfg (σ.map g) = .ok x') (ey' : (b.map g).run cfg (σ.map g) = .ok y')
    (h : SameTest ((a.map f).run cfg (σ.map f)) ((b.map f).run cfg (σ.map f)) ((a.map g).run cfg (σ.map g)) ((b.map g).run cfg (σ.map g))) :
    x.wt.eqOp y.wt = x'.wt.eqOp y'.wt := by
  have h1 := run_map_rp cfg H.arith σ a
  have h2 := run_map_rp cfg H.arith σ b
  rw [ex] at h1
  rw [ey] at h2
  rw [← h _ _ _ _ h1 h2 ex' ey']
  exact (eqOp_map H.arith _ _).symm

mutual
/-- If the comparisons in sums come out the same, then the outcomes correspond. -/
theorem atRSRel (cfg : Cfg) (H : TwoRuns f g) (σ : RVars K n) : ∀ e : RSExpr K n, e.SumsAgree cfg σ f g →
    RelM tol (e.run cfg σ) ((e.map g).run cfg (σ.map g))
  | .leaf i, _ => by
    simp only [RSExpr.map, RSExpr.run]
    exact RelM.ok ((H.vars σ).2.1 i)
  | .ofSpline a, _ => by
    simp only [RSExpr.map, RSExpr.run]
    exact RelM.bind (atSRel cfg H σ _) fun x x' hx => RSpline.parOfSpline hx
  | .add a b, h => by
    simp only [RSExpr.SumsAgree] at h
    simp only [RSExpr.map, RSExpr.run]
    exact bindRun (atRSRel cfg H σ _ h.1) fun x x' ex ex' hx => bindRun (atRSRel cfg H σ _ h.2.1) fun y y' ey ey' hy => RSpline.parRAddOp cfg hx hy (sumEqR cfg H ex ey ex' ey' h.2.2)
  | .addAssign a b, h => by
    simp only [RSExpr.SumsAgree] at h
    simp only [RSExpr.map, RSExpr.run]
    exact bindRun (atRSRel cfg H σ _ h.1) fun x x' ex ex' hx => bindRun (atRSRel cfg H σ _ h.2.1) fun y y' ey ey' hy => RSpline.parRAddAssign cfg hx hy (sumEqR cfg H ex ey ex' ey' h.2.2)
  | .sub a b, h => by
    simp only [RSExpr.SumsAgree] at h
    simp only [RSExpr.map, RSExpr.run]
    exact bindRun (atRSRel cfg H σ _ h.1) fun x x' ex ex' hx => bindRun (atRSRel cfg H σ _ h.2.1) fun y y' ey ey' hy => RSpline.parRSubOp cfg hx hy (sumEqR cfg H ex ey ex' ey' h.2.2)
  | .subAssign a b, h => by
    simp only [RSExpr.SumsAgree] at h
    simp only [RSExpr.map, RSExpr.run]
    exact bindRun (atRSRel cfg H σ _ h.1) fun x x' ex ex' hx => bindRun (atRSRel cfg H σ _ h.2.1) fun y y' ey ey' hy => RSpline.parRSubAssign cfg hx hy (sumEqR cfg H ex ey ex' ey' h.2.2)
  | .neg a, h => by
    simp only [RSExpr.SumsAgree] at h
    simp only [RSExpr.map, RSExpr.run]
    exact RelM.bind (atRSRel cfg H σ _ h) fun x x' hx => RSpline.parRNegOp hx
  | .scale a c, h => by
    simp only [RSExpr.SumsAgree] at h
    simp only [RSExpr.map, RSExpr.run]
    exact RelM.bind (atRSRel cfg H σ _ h) fun x x' hx => RSpline.parRSmulOp hx (H.par _)
  | .addPoint a v, h => by
    simp only [RSExpr.SumsAgree] at h
    simp only [RSExpr.map, RSExpr.run]
    exact RelM.bind (atRSRel cfg H σ _ h) fun x x' hx => RSpline.parRAddPoint hx (H.par _)
  | .subPoint a v, h => by
    simp only [RSExpr.SumsAgree] at h
    simp only [RSExpr.map, RSExpr.run]
    exact RelM.bind (atRSRel cfg H σ _ h) fun x x' hx => RSpline.parRSubPoint hx (H.par _)
  | .elevate a d, h => by
    simp only [RSExpr.SumsAgree] at h
    simp only [RSExpr.map, RSExpr.run]
    exact RelM.bind (atRSRel cfg H σ _ h) fun x x' hx => RSpline.parROrderElevate hx d
  | .splitLeft a z d, h => by
    simp only [RSExpr.SumsAgree] at h
    simp only [RSExpr.map, RSExpr.run]
    exact RelM.bind (atRSRel cfg H σ _ h) fun x x' hx => RelM.bind (RSpline.parRSplitAt hx (H.par _) d) fun l l' hl => RelM.ok hl.1
  | .splitRight a z d, h => by
    simp only [RSExpr.SumsAgree] at h
    simp only [RSExpr.map, RSExpr.run]
    exact RelM.bind (atRSRel cfg H σ _ h) fun x x' hx => RelM.bind (RSpline.parRSplitAt hx (H.par _) d) fun l l' hl => RelM.ok hl.2
  | .splitPart a z d i, h => by
    simp only [RSExpr.SumsAgree] at h
    simp only [RSExpr.map, RSExpr.run]
    exact RelM.bind (atRSRel cfg H σ _ h) fun x x' hx => RelM.bind (RSpline.parRSplitAtMany hx (H.planes z) d) fun l l' hl => RelM.rd hl i
  | .deriv a o, h => by
    simp only [RSExpr.SumsAgree] at h
    simp only [RSExpr.map, RSExpr.run]
    exact RelM.bind (atRSRel cfg H σ _ h) fun x x' hx => RSpline.parRDerivativeSpline cfg hx o
  | .composePoly a b, h => by
    simp only [RSExpr.SumsAgree] at h
    simp only [RSExpr.map, RSExpr.run]
    exact RelM.bind (atRSRel cfg H σ _ h) fun x x' hx => RelM.bind (atPRel cfg H σ _) fun y y' hy => RSpline.parRCompose cfg hx hy
  | .composePolyScalar a b, h => by
    simp only [RSExpr.SumsAgree] at h
    simp only [RSExpr.map, RSExpr.run]
    exact RelM.bind (atRSRel cfg H σ _ h) fun x x' hx => RelM.bind (atSRel cfg H σ _) fun y y' hy => RSpline.parRCompose cfg hx hy
  | .compose a b, h => by
    simp only [RSExpr.SumsAgree] at h
    simp only [RSExpr.map, RSExpr.run]
    exact RelM.bind (atRSRel cfg H σ _ h.1) fun x x' hx => RelM.bind (atRPRel cfg H σ _ h.2) fun y y' hy => RSpline.parRComposeRational cfg hx hy
  | .composeScalar a b, h => by
    simp only [RSExpr.SumsAgree] at h
    simp only [RSExpr.map, RSExpr.run]
    exact RelM.bind (atRSRel cfg H σ _ h.1) fun x x' hx => RelM.bind (atRSRel cfg H σ _ h.2) fun y y' hy => RSpline.parRComposeRational cfg hx hy
  | .polyCompose a b, h => by
    simp only [RSExpr.SumsAgree] at h
    simp only [RSExpr.map, RSExpr.run]
    exact RelM.bind (atSRel cfg H σ _) fun x x' hx => RelM.bind (atRPRel cfg H σ _ h) fun y y' hy => Spline.parComposeRational cfg hx hy
  | .polyComposeScalar a b, h => by
    simp only [RSExpr.SumsAgree] at h
    simp only [RSExpr.map, RSExpr.run]
    exact RelM.bind (atSRel cfg H σ _) fun x x' hx => RelM.bind (atRSRel cfg H σ _ h) fun y y' hy => Spline.parComposeRational cfg hx hy
  | .mul a b, h => by
    simp only [RSExpr.SumsAgree] at h
    simp only [RSExpr.map, RSExpr.run]
    exact RelM.bind (atRSRel cfg H σ _ h.1) fun x x' hx => RelM.bind (atRSRel cfg H σ _ h.2) fun y y' hy => RSpline.parRMulOp cfg (fun _ _ _ _ ha hb => hk.mul ha hb) hx hy
  | .dot a b, h => by
    simp only [RSExpr.SumsAgree] at h
    simp only [RSExpr.map, RSExpr.run]
    exact RelM.bind (atRPRel cfg H σ _ h.1) fun x x' hx => RelM.bind (atRPRel cfg H σ _ h.2) fun y y' hy => 
      RSpline.parRMulOp cfg (fun _ _ _ _ ha hb => parDot ha hb) hx hy

@[inherit_doc atRSRel]
theorem atRPRel (cfg : Cfg) (H : TwoRuns f g) (σ : RVars K n) : ∀ e : RPExpr K n, e.SumsAgree cfg σ f g →
    RelM tol (e.run cfg σ) ((e.map g).run cfg (σ.map g))
  | .leaf i, _ => by
    simp only [RPExpr.map, RPExpr.run]
    exact RelM.ok ((H.vars σ).2.2 i)
  | .ofSpline a, _ => by
    simp only [RPExpr.map, RPExpr.run]
    exact RelM.bind (atPRel cfg H σ _) fun x x' hx => RSpline.parOfSpline hx
  | .add a b, h => by
    simp only [RPExpr.SumsAgree] at h
    simp only [RPExpr.map, RPExpr.run]
    exact bindRun (atRPRel cfg H σ _ h.1) fun x x' ex ex' hx => bindRun (atRPRel cfg H σ _ h.2.1) fun y y' ey ey' hy => RSpline.parRAddOp cfg hx hy (sumEqQ cfg H ex ey ex' ey' h.2.2)
  | .addAssign a b, h => by
    simp only [RPExpr.SumsAgree] at h
    simp only [RPExpr.map, RPExpr.run]
    exact bindRun (atRPRel cfg H σ _ h.1) fun x x' ex ex' hx => bindRun (atRPRel cfg H σ _ h.2.1) fun y y' ey ey' hy => RSpline.parRAddAssign cfg hx hy (sumEqQ cfg H ex ey ex' ey' h.2.2)
  | .sub a b, h => by
    simp only [RPExpr.SumsAgree] at h
    simp only [RPExpr.map, RPExpr.run]
    exact bindRun (atRPRel cfg H σ _ h.1) fun x x' ex ex' hx => bindRun (atRPRel cfg H σ _ h.2.1) fun y y' ey ey' hy => RSpline.parRSubOp cfg hx hy (sumEqQ cfg H ex ey ex' ey' h.2.2)
  | .subAssign a b, h => by
    simp only [RPExpr.SumsAgree] at h
    simp only [RPExpr.map, RPExpr.run]
    exact bindRun (atRPRel cfg H σ _ h.1) fun x x' ex ex' hx => bindRun (atRPRel cfg H σ _ h.2.1) fun y y' ey ey' hy => RSpline.parRSubAssign cfg hx hy (sumEqQ cfg H ex ey ex' ey' h.2.2)
  | .neg a, h => by
    simp only [RPExpr.SumsAgree] at h
    simp only [RPExpr.map, RPExpr.run]
    exact RelM.bind (atRPRel cfg H σ _ h) fun x x' hx => RSpline.parRNegOp hx
  | .scale a c, h => by
    simp only [RPExpr.SumsAgree] at h
    simp only [RPExpr.map, RPExpr.run]
    exact RelM.bind (atRPRel cfg H σ _ h) fun x x' hx => RSpline.parRSmulOp hx (H.par _)
  | .addPoint a v, h => by
    simp only [RPExpr.SumsAgree] at h
    simp only [RPExpr.map, RPExpr.run]
    exact RelM.bind (atRPRel cfg H σ _ h) fun x x' hx => RSpline.parRAddPoint hx (fun _ => H.par _)
  | .subPoint a v, h => by
    simp only [RPExpr.SumsAgree] at h
    simp only [RPExpr.map, RPExpr.run]
    exact RelM.bind (atRPRel cfg H σ _ h) fun x x' hx => RSpline.parRSubPoint hx (fun _ => H.par _)
  | .elevate a d, h => by
    simp only [RPExpr.SumsAgree] at h
    simp only [RPExpr.map, RPExpr.run]
    exact RelM.bind (atRPRel cfg H σ _ h) fun x x' hx => RSpline.parROrderElevate hx d
  | .splitLeft a z d, h => by
    simp only [RPExpr.SumsAgree] at h
    simp only [RPExpr.map, RPExpr.run]
    exact RelM.bind (atRPRel cfg H σ _ h) fun x x' hx => RelM.bind (RSpline.parRSplitAt hx (H.par _) d) fun l l' hl => RelM.ok hl.1
  | .splitRight a z d, h => by
    simp only [RPExpr.SumsAgree] at h
    simp only [RPExpr.map, RPExpr.run]
    exact RelM.bind (atRPRel cfg H σ _ h) fun x x' hx => RelM.bind (RSpline.parRSplitAt hx (H.par _) d) fun l l' hl => RelM.ok hl.2
  | .splitPart a z d i, h => by
    simp only [RPExpr.SumsAgree] at h
    simp only [RPExpr.map, RPExpr.run]
    exact RelM.bind (atRPRel cfg H σ _ h) fun x x' hx => RelM.bind (RSpline.parRSplitAtMany hx (H.planes z) d) fun l l' hl => RelM.rd hl i
  | .deriv a o, h => by
    simp only [RPExpr.SumsAgree] at h
    simp only [RPExpr.map, RPExpr.run]
    exact RelM.bind (atRPRel cfg H σ _ h) fun x x' hx => RSpline.parRDerivativeSpline cfg hx o
  | .composePoly a b, h => by
    simp only [RPExpr.SumsAgree] at h
    simp only [RPExpr.map, RPExpr.run]
    exact RelM.bind (atRPRel cfg H σ _ h) fun x x' hx => RelM.bind (atPRel cfg H σ _) fun y y' hy => RSpline.parRCompose cfg hx hy
  | .composePolyScalar a b, h => by
    simp only [RPExpr.SumsAgree] at h
    simp only [RPExpr.map, RPExpr.run]
    exact RelM.bind (atRPRel cfg H σ _ h) fun x x' hx => RelM.bind (atSRel cfg H σ _) fun y y' hy => RSpline.parRCompose cfg hx hy
  | .compose a b, h => by
    simp only [RPExpr.SumsAgree] at h
    simp only [RPExpr.map, RPExpr.run]
    exact RelM.bind (atRPRel cfg H σ _ h.1) fun x x' hx => RelM.bind (atRPRel cfg H σ _ h.2) fun y y' hy => RSpline.parRComposeRational cfg hx hy
  | .composeScalar a b, h => by
    simp only [RPExpr.SumsAgree] at h
    simp only [RPExpr.map, RPExpr.run]
    exact RelM.bind (atRPRel cfg H σ _ h.1) fun x x' hx => RelM.bind (atRSRel cfg H σ _ h.2) fun y y' hy => RSpline.parRComposeRational cfg hx hy
  | .polyCompose a b, h => by
    simp only [RPExpr.SumsAgree] at h
    simp only [RPExpr.map, RPExpr.run]
    exact RelM.bind (atPRel cfg H σ _) fun x x' hx => RelM.bind (atRPRel cfg H σ _ h) fun y y' hy => Spline.parComposeRational cfg hx hy
  | .polyComposeScalar a b, h => by
    simp only [RPExpr.SumsAgree] at h
    simp only [RPExpr.map, RPExpr.run]
    exact RelM.bind (atPRel cfg H σ _) fun x x' hx => RelM.bind (atRSRel cfg H σ _ h) fun y y' hy => Spline.parComposeRational cfg hx hy
  | .mulLeft a b, h => by
    simp only [RPExpr.SumsAgree] at h
    simp only [RPExpr.map, RPExpr.run]
    exact RelM.bind (atRSRel cfg H σ _ h.1) fun x x' hx => RelM.bind (atRPRel cfg H σ _ h.2) fun y y' hy => 
      RSpline.parRMulOp cfg (fun _ _ _ _ ha hb => ParPoint.smul ha hb) hx hy
  | .mulRight a b, h => by
    simp only [RPExpr.SumsAgree] at h
    simp only [RPExpr.map, RPExpr.run]
    exact RelM.bind (atRPRel cfg H σ _ h.1) fun x x' hx => RelM.bind (atRSRel cfg H σ _ h.2) fun y y' hy => 
      RSpline.parRMulOp cfg (fun _ _ _ _ ha hb => ParPoint.smul hb ha) hx hy
end

end
end Bezman
