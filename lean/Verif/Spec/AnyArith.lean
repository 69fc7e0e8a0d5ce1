import Verif.Model.RExpr
import Verif.Spec.Computes

/-! # Specification: outcomes that do not depend on the arithmetic -/

namespace Bezman
open Spec

namespace Spec
variable {K V : Type}

/-- A consistent spline with these degrees. -/
def HasShape (ds : List ℕ) (s : Spline V) : Prop := s.WF ∧ s.degrees = ds

/-- The call returns a consistent spline with these degrees: no access outside of an array, no failed assertion, no narrowing, no
exception, no endless loop. -/
def Returns (ds : List ℕ) (x : M (Spline V)) : Prop := ∃ r, x = .ok r ∧ HasShape ds r

/-- The call returns a consistent spline with these degrees, or it throws an exception. -/
def ReturnsOrThrows (ds : List ℕ) (x : M (Spline V)) : Prop := x = .error .throws ∨ Returns ds x

end Spec

section
variable {K : Type} {n : ℕ}

mutual
/-- Degrees of the result of a program, from the degrees of its scalar valued (`ds`) and point valued (`dp`) variables. -/
def SExpr.shape (ds dp : ℕ → List ℕ) : SExpr K n → List ℕ
  | .leaf i => ds i
  | .add a b | .addAssign a b | .sub a b | .subAssign a b => maxDegrees (a.shape ds dp) (b.shape ds dp)
  | .neg a | .scale a _ | .addPoint a _ | .subPoint a _ | .pointSub _ a | .splitLeft a _ _ | .splitRight a _ _
  | .splitPart a _ _ _ => a.shape ds dp
  | .elevate a d => (a.shape ds dp).modify d (· + 1)
  | .deriv a orders => List.zipWith (· - ·) (a.shape ds dp) orders
  | .compose a b => (b.shape ds dp).map (fun q => (a.shape ds dp).sum * q)
  | .composeScalar a b => (b.shape ds dp).map (fun q => (a.shape ds dp).sum * q)
  | .mul a b => sumDegrees (a.shape ds dp) (b.shape ds dp)
  | .dot a b => sumDegrees (a.shape ds dp) (b.shape ds dp)
  | .power a k => (a.shape ds dp).map (fun p => k * p)
  | .extract a _ => a.shape ds dp

@[inherit_doc SExpr.shape]
def PExpr.shape (ds dp : ℕ → List ℕ) : PExpr K n → List ℕ
  | .leaf i => dp i
  | .add a b | .addAssign a b | .sub a b | .subAssign a b => maxDegrees (a.shape ds dp) (b.shape ds dp)
  | .neg a | .scale a _ | .addPoint a _ | .subPoint a _ | .pointSub _ a | .splitLeft a _ _ | .splitRight a _ _
  | .splitPart a _ _ _ => a.shape ds dp
  | .elevate a d => (a.shape ds dp).modify d (· + 1)
  | .deriv a orders => List.zipWith (· - ·) (a.shape ds dp) orders
  | .compose a b => (b.shape ds dp).map (fun q => (a.shape ds dp).sum * q)
  | .composeScalar a b => (b.shape ds dp).map (fun q => (a.shape ds dp).sum * q)
  | .mulLeft a b => sumDegrees (a.shape ds dp) (b.shape ds dp)
  | .mulRight a b => sumDegrees (a.shape ds dp) (b.shape ds dp)
end

mutual
/-- The preconditions of the calls of a program that concern degrees, dimensions and indices only.  Nothing is required of the
numbers: split positions may lie anywhere, planes may be in any order and inner splines may leave the unit cube. -/
def SExpr.WellShaped (cfg : Cfg) (ds dp : ℕ → List ℕ) : SExpr K n → Prop
  | .leaf _ => True
  | .add a b | .addAssign a b | .subAssign a b =>
    a.WellShaped cfg ds dp ∧ b.WellShaped cfg ds dp ∧ Fits cfg (a.shape ds dp) (b.shape ds dp)
  | .sub a b => a.WellShaped cfg ds dp ∧ b.WellShaped cfg ds dp ∧ Fits cfg (a.shape ds dp) (b.shape ds dp) ∧
    ∀ d p q : ℕ, (a.shape ds dp)[d]? = some p → (b.shape ds dp)[d]? = some q → q ≤ p
  | .neg a | .scale a _ | .addPoint a _ | .subPoint a _ | .pointSub _ a => a.WellShaped cfg ds dp
  | .elevate a d => a.WellShaped cfg ds dp ∧ d < (a.shape ds dp).length ∧ size ((a.shape ds dp).modify d (· + 1)) < 2 ^ 31
  | .splitLeft a _ d | .splitRight a _ d => a.WellShaped cfg ds dp ∧ d < (a.shape ds dp).length
  | .splitPart a zs d i => a.WellShaped cfg ds dp ∧ d < (a.shape ds dp).length ∧ i ≤ zs.length
  | .deriv a orders => a.WellShaped cfg ds dp ∧ orders.length = (a.shape ds dp).length ∧
    (∀ d o p : ℕ, orders[d]? = some o → (a.shape ds dp)[d]? = some p → o ≤ p) ∧ (∀ o ∈ orders, o < cfg.maxBinom) ∧
    size (a.shape ds dp) < 2 ^ 64
  | .compose a b => a.WellShaped cfg ds dp ∧ b.WellShaped cfg ds dp ∧ (a.shape ds dp).length = n ∧
    (∀ p ∈ a.shape ds dp, p < cfg.maxBinom) ∧ ∀ q ∈ b.shape ds dp, (a.shape ds dp).sum * q < cfg.maxBinom
  | .composeScalar a b => a.WellShaped cfg ds dp ∧ b.WellShaped cfg ds dp ∧ (a.shape ds dp).length = 1 ∧
    (∀ p ∈ a.shape ds dp, p < cfg.maxBinom) ∧ ∀ q ∈ b.shape ds dp, (a.shape ds dp).sum * q < cfg.maxBinom
  | .mul a b => a.WellShaped cfg ds dp ∧ b.WellShaped cfg ds dp ∧ (b.shape ds dp).length = (a.shape ds dp).length ∧
    ∀ p ∈ sumDegrees (a.shape ds dp) (b.shape ds dp), p < cfg.maxBinom
  | .dot a b => a.WellShaped cfg ds dp ∧ b.WellShaped cfg ds dp ∧ (b.shape ds dp).length = (a.shape ds dp).length ∧
    ∀ p ∈ sumDegrees (a.shape ds dp) (b.shape ds dp), p < cfg.maxBinom
  | .power a k => a.WellShaped cfg ds dp ∧ ∀ p ∈ a.shape ds dp, k * p < cfg.maxBinom
  | .extract a j => a.WellShaped cfg ds dp ∧ j < n

@[inherit_doc SExpr.WellShaped]
def PExpr.WellShaped (cfg : Cfg) (ds dp : ℕ → List ℕ) : PExpr K n → Prop
  | .leaf _ => True
  | .add a b | .addAssign a b | .subAssign a b =>
    a.WellShaped cfg ds dp ∧ b.WellShaped cfg ds dp ∧ Fits cfg (a.shape ds dp) (b.shape ds dp)
  | .sub a b => a.WellShaped cfg ds dp ∧ b.WellShaped cfg ds dp ∧ Fits cfg (a.shape ds dp) (b.shape ds dp) ∧
    ∀ d p q : ℕ, (a.shape ds dp)[d]? = some p → (b.shape ds dp)[d]? = some q → q ≤ p
  | .neg a | .scale a _ | .addPoint a _ | .subPoint a _ | .pointSub _ a => a.WellShaped cfg ds dp
  | .elevate a d => a.WellShaped cfg ds dp ∧ d < (a.shape ds dp).length ∧ size ((a.shape ds dp).modify d (· + 1)) < 2 ^ 31
  | .splitLeft a _ d | .splitRight a _ d => a.WellShaped cfg ds dp ∧ d < (a.shape ds dp).length
  | .splitPart a zs d i => a.WellShaped cfg ds dp ∧ d < (a.shape ds dp).length ∧ i ≤ zs.length
  | .deriv a orders => a.WellShaped cfg ds dp ∧ orders.length = (a.shape ds dp).length ∧
    (∀ d o p : ℕ, orders[d]? = some o → (a.shape ds dp)[d]? = some p → o ≤ p) ∧ (∀ o ∈ orders, o < cfg.maxBinom) ∧
    size (a.shape ds dp) < 2 ^ 64
  | .compose a b => a.WellShaped cfg ds dp ∧ b.WellShaped cfg ds dp ∧ (a.shape ds dp).length = n ∧
    (∀ p ∈ a.shape ds dp, p < cfg.maxBinom) ∧ ∀ q ∈ b.shape ds dp, (a.shape ds dp).sum * q < cfg.maxBinom
  | .composeScalar a b => a.WellShaped cfg ds dp ∧ b.WellShaped cfg ds dp ∧ (a.shape ds dp).length = 1 ∧
    (∀ p ∈ a.shape ds dp, p < cfg.maxBinom) ∧ ∀ q ∈ b.shape ds dp, (a.shape ds dp).sum * q < cfg.maxBinom
  | .mulLeft a b => a.WellShaped cfg ds dp ∧ b.WellShaped cfg ds dp ∧ (b.shape ds dp).length = (a.shape ds dp).length ∧
    ∀ p ∈ sumDegrees (a.shape ds dp) (b.shape ds dp), p < cfg.maxBinom
  | .mulRight a b => a.WellShaped cfg ds dp ∧ b.WellShaped cfg ds dp ∧ (b.shape ds dp).length = (a.shape ds dp).length ∧
    ∀ p ∈ sumDegrees (a.shape ds dp) (b.shape ds dp), p < cfg.maxBinom
end
end

end Bezman
