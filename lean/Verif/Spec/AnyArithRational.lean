import Verif.Spec.AnyArith
import Verif.Props.RationalDeriv
import Verif.Props.RationalCompose

/-! # Specification: outcomes of rational programs that do not depend on the arithmetic -/

namespace Bezman
open Spec Props

namespace Spec
variable {K V : Type}

/-- A consistent rational spline with these degrees. -/
def HasRShape (ds : List ℕ) (r : RSpline K V) : Prop := HasShape ds r.num ∧ HasShape ds r.wt

/-- The call returns a consistent rational spline with these degrees: no access outside of an array, no failed assertion, no narrowing,
no exception, no division by zero, no endless loop. -/
def RReturns (ds : List ℕ) (x : M (RSpline K V)) : Prop := ∃ r, x = .ok r ∧ HasRShape ds r

/-- The call returns a consistent rational spline with degrees among `S`, or it throws an exception, or it divides by a weight that
compares equal to zero. -/
def ROutcome (S : Set (List ℕ)) (x : M (RSpline K V)) : Prop :=
  x = .error .throws ∨ x = .error .divZero ∨ ∃ ds ∈ S, RReturns ds x

/-- The degrees of the scalar valued and point valued, polynomial and rational variables. -/
structure RDegrees where
  s : ℕ → List ℕ
  p : ℕ → List ℕ
  rs : ℕ → List ℕ
  rp : ℕ → List ℕ

/-- The variables have these degrees. -/
structure RDegrees.Of {n : ℕ} (D : RDegrees) (σ : RVars K n) : Prop where
  s : ∀ i, HasShape (D.s i) (σ.s i)
  p : ∀ i, HasShape (D.p i) (σ.p i)
  rs : ∀ i, HasRShape (D.rs i) (σ.rs i)
  rp : ∀ i, HasRShape (D.rp i) (σ.rp i)

end Spec

section
variable {K : Type} {n : ℕ}

mutual
/-- The degrees the result of a rational program may have.  A sum or difference keeps the degrees of its operands if the weight
functions compare equal, and adds them otherwise. -/
def RSExpr.shapes (D : RDegrees) : RSExpr K n → Set (List ℕ)
  | .leaf i => {D.rs i}
  | .ofSpline a => {a.shape D.s D.p}
  | .add a b | .addAssign a b | .sub a b | .subAssign a b => {x | ∃ p ∈ a.shapes D, ∃ q ∈ b.shapes D, x = sumDegrees p q ∨ p = q ∧ x = p}
  | .neg a | .scale a _ | .addPoint a _ | .subPoint a _ | .splitLeft a _ _ | .splitRight a _ _ | .splitPart a _ _ _ => a.shapes D
  | .elevate a d => {x | ∃ p ∈ a.shapes D, x = p.modify d (· + 1)}
  | .deriv a orders => {x | ∃ p ∈ a.shapes D, x = p.map (· * 2 ^ orders.sum)}
  | .composePoly a b => {x | ∃ p ∈ a.shapes D, x = (b.shape D.s D.p).map (fun q => p.sum * q)}
  | .composePolyScalar a b => {x | ∃ p ∈ a.shapes D, x = (b.shape D.s D.p).map (fun q => p.sum * q)}
  | .compose a b => {x | ∃ p ∈ a.shapes D, ∃ q ∈ b.shapes D, x = q.map (fun q => p.sum * q)}
  | .composeScalar a b => {x | ∃ p ∈ a.shapes D, ∃ q ∈ b.shapes D, x = q.map (fun q => p.sum * q)}
  | .polyCompose a b => {x | ∃ q ∈ b.shapes D, x = q.map (fun q => (a.shape D.s D.p).sum * q)}
  | .polyComposeScalar a b => {x | ∃ q ∈ b.shapes D, x = q.map (fun q => (a.shape D.s D.p).sum * q)}
  | .mul a b => {x | ∃ p ∈ a.shapes D, ∃ q ∈ b.shapes D, x = sumDegrees p q}
  | .dot a b => {x | ∃ p ∈ a.shapes D, ∃ q ∈ b.shapes D, x = sumDegrees p q}

@[inherit_doc RSExpr.shapes]
def RPExpr.shapes (D : RDegrees) : RPExpr K n → Set (List ℕ)
  | .leaf i => {D.rp i}
  | .ofSpline a => {a.shape D.s D.p}
  | .add a b | .addAssign a b | .sub a b | .subAssign a b => {x | ∃ p ∈ a.shapes D, ∃ q ∈ b.shapes D, x = sumDegrees p q ∨ p = q ∧ x = p}
  | .neg a | .scale a _ | .addPoint a _ | .subPoint a _ | .splitLeft a _ _ | .splitRight a _ _ | .splitPart a _ _ _ => a.shapes D
  | .elevate a d => {x | ∃ p ∈ a.shapes D, x = p.modify d (· + 1)}
  | .deriv a orders => {x | ∃ p ∈ a.shapes D, x = p.map (· * 2 ^ orders.sum)}
  | .composePoly a b => {x | ∃ p ∈ a.shapes D, x = (b.shape D.s D.p).map (fun q => p.sum * q)}
  | .composePolyScalar a b => {x | ∃ p ∈ a.shapes D, x = (b.shape D.s D.p).map (fun q => p.sum * q)}
  | .compose a b => {x | ∃ p ∈ a.shapes D, ∃ q ∈ b.shapes D, x = q.map (fun q => p.sum * q)}
  | .composeScalar a b => {x | ∃ p ∈ a.shapes D, ∃ q ∈ b.shapes D, x = q.map (fun q => p.sum * q)}
  | .polyCompose a b => {x | ∃ q ∈ b.shapes D, x = q.map (fun q => (a.shape D.s D.p).sum * q)}
  | .polyComposeScalar a b => {x | ∃ q ∈ b.shapes D, x = q.map (fun q => (a.shape D.s D.p).sum * q)}
  | .mulLeft a b => {x | ∃ p ∈ a.shapes D, ∃ q ∈ b.shapes D, x = sumDegrees p q}
  | .mulRight a b => {x | ∃ p ∈ a.shapes D, ∃ q ∈ b.shapes D, x = sumDegrees p q}
end

mutual
/-- The preconditions of the calls of a rational program that concern degrees, dimensions and indices only.  Nothing is required of
the numbers: split positions may lie anywhere, inner splines may leave the unit cube and weights may be zero or negative. -/
def RSExpr.WellShaped (cfg : Cfg) (D : RDegrees) : RSExpr K n → Prop
  | .leaf _ => True
  | .ofSpline a => a.WellShaped cfg D.s D.p
  | .add a b | .addAssign a b | .sub a b | .subAssign a b =>
    a.WellShaped cfg D ∧ b.WellShaped cfg D ∧ ∀ p ∈ a.shapes D, ∀ q ∈ b.shapes D, RFits cfg p q
  | .neg a | .scale a _ | .addPoint a _ | .subPoint a _ => a.WellShaped cfg D
  | .elevate a d => a.WellShaped cfg D ∧ ∀ p ∈ a.shapes D, d < p.length ∧ size (p.modify d (· + 1)) < 2 ^ 31
  | .splitLeft a _ d | .splitRight a _ d => a.WellShaped cfg D ∧ ∀ p ∈ a.shapes D, d < p.length
  | .splitPart a zs d i => a.WellShaped cfg D ∧ (∀ p ∈ a.shapes D, d < p.length) ∧ i ≤ zs.length
  | .deriv a orders => a.WellShaped cfg D ∧ ∀ p ∈ a.shapes D, orders.length = p.length ∧
    (∀ d o k : ℕ, orders[d]? = some o → p[d]? = some k → 1 ≤ o → 1 ≤ k) ∧ DerivFits cfg p orders.sum
  | .composePoly a b => a.WellShaped cfg D ∧ b.WellShaped cfg D.s D.p ∧
    ∀ p ∈ a.shapes D, p.length = n ∧ ComposeFits cfg p (b.shape D.s D.p)
  | .composePolyScalar a b => a.WellShaped cfg D ∧ b.WellShaped cfg D.s D.p ∧
    ∀ p ∈ a.shapes D, p.length = 1 ∧ ComposeFits cfg p (b.shape D.s D.p)
  | .compose a b => a.WellShaped cfg D ∧ b.WellShaped cfg D ∧
    ∀ p ∈ a.shapes D, ∀ q ∈ b.shapes D, p.length = n ∧ ComposeFits cfg p q
  | .composeScalar a b => a.WellShaped cfg D ∧ b.WellShaped cfg D ∧
    ∀ p ∈ a.shapes D, ∀ q ∈ b.shapes D, p.length = 1 ∧ ComposeFits cfg p q
  | .polyCompose a b => a.WellShaped cfg D.s D.p ∧ b.WellShaped cfg D ∧ (a.shape D.s D.p).length = n ∧
    ∀ q ∈ b.shapes D, ComposeFits cfg (a.shape D.s D.p) q
  | .polyComposeScalar a b => a.WellShaped cfg D.s D.p ∧ b.WellShaped cfg D ∧ (a.shape D.s D.p).length = 1 ∧
    ∀ q ∈ b.shapes D, ComposeFits cfg (a.shape D.s D.p) q
  | .mul a b => a.WellShaped cfg D ∧ b.WellShaped cfg D ∧
    ∀ p ∈ a.shapes D, ∀ q ∈ b.shapes D, q.length = p.length ∧ ∀ k ∈ sumDegrees p q, k < cfg.maxBinom
  | .dot a b => a.WellShaped cfg D ∧ b.WellShaped cfg D ∧
    ∀ p ∈ a.shapes D, ∀ q ∈ b.shapes D, q.length = p.length ∧ ∀ k ∈ sumDegrees p q, k < cfg.maxBinom

@[inherit_doc RSExpr.WellShaped]
def RPExpr.WellShaped (cfg : Cfg) (D : RDegrees) : RPExpr K n → Prop
  | .leaf _ => True
  | .ofSpline a => a.WellShaped cfg D.s D.p
  | .add a b | .addAssign a b | .sub a b | .subAssign a b =>
    a.WellShaped cfg D ∧ b.WellShaped cfg D ∧ ∀ p ∈ a.shapes D, ∀ q ∈ b.shapes D, RFits cfg p q
  | .neg a | .scale a _ | .addPoint a _ | .subPoint a _ => a.WellShaped cfg D
  | .elevate a d => a.WellShaped cfg D ∧ ∀ p ∈ a.shapes D, d < p.length ∧ size (p.modify d (· + 1)) < 2 ^ 31
  | .splitLeft a _ d | .splitRight a _ d => a.WellShaped cfg D ∧ ∀ p ∈ a.shapes D, d < p.length
  | .splitPart a zs d i => a.WellShaped cfg D ∧ (∀ p ∈ a.shapes D, d < p.length) ∧ i ≤ zs.length
  | .deriv a orders => a.WellShaped cfg D ∧ ∀ p ∈ a.shapes D, orders.length = p.length ∧
    (∀ d o k : ℕ, orders[d]? = some o → p[d]? = some k → 1 ≤ o → 1 ≤ k) ∧ DerivFits cfg p orders.sum
  | .composePoly a b => a.WellShaped cfg D ∧ b.WellShaped cfg D.s D.p ∧
    ∀ p ∈ a.shapes D, p.length = n ∧ ComposeFits cfg p (b.shape D.s D.p)
  | .composePolyScalar a b => a.WellShaped cfg D ∧ b.WellShaped cfg D.s D.p ∧
    ∀ p ∈ a.shapes D, p.length = 1 ∧ ComposeFits cfg p (b.shape D.s D.p)
  | .compose a b => a.WellShaped cfg D ∧ b.WellShaped cfg D ∧
    ∀ p ∈ a.shapes D, ∀ q ∈ b.shapes D, p.length = n ∧ ComposeFits cfg p q
  | .composeScalar a b => a.WellShaped cfg D ∧ b.WellShaped cfg D ∧
    ∀ p ∈ a.shapes D, ∀ q ∈ b.shapes D, p.length = 1 ∧ ComposeFits cfg p q
  | .polyCompose a b => a.WellShaped cfg D.s D.p ∧ b.WellShaped cfg D ∧ (a.shape D.s D.p).length = n ∧
    ∀ q ∈ b.shapes D, ComposeFits cfg (a.shape D.s D.p) q
  | .polyComposeScalar a b => a.WellShaped cfg D.s D.p ∧ b.WellShaped cfg D ∧ (a.shape D.s D.p).length = 1 ∧
    ∀ q ∈ b.shapes D, ComposeFits cfg (a.shape D.s D.p) q
  | .mulLeft a b => a.WellShaped cfg D ∧ b.WellShaped cfg D ∧
    ∀ p ∈ a.shapes D, ∀ q ∈ b.shapes D, q.length = p.length ∧ ∀ k ∈ sumDegrees p q, k < cfg.maxBinom
  | .mulRight a b => a.WellShaped cfg D ∧ b.WellShaped cfg D ∧
    ∀ p ∈ a.shapes D, ∀ q ∈ b.shapes D, q.length = p.length ∧ ∀ k ∈ sumDegrees p q, k < cfg.maxBinom
end
end

end Bezman
