import Verif.Model.Expr
import Verif.Spec.Computes
import Verif.Spec.Coords
import Verif.Spec.Deriv
import Verif.Proofs.PointNorm

/-! # Specification: what an expression over splines means

Degrees and function of the result, by the rules of calculus. -/

namespace Bezman
open Spec

/-- What the spline variables of a program stand for: degrees and function of each. -/
structure Spec.Meaning (n : ℕ) where
  ds : ℕ → List ℕ
  fs : ℕ → List ℝ → ℝ
  dp : ℕ → List ℕ
  fp : ℕ → List ℝ → Point ℝ n

variable {n : ℕ}

/-- The spline variables hold splines with these degrees and functions. -/
structure Spec.Meaning.Of (μ : Meaning n) (σ : Vars ℝ n) : Prop where
  s : ∀ i, (σ.s i).Computes (μ.ds i) (μ.fs i)
  p : ∀ i, (σ.p i).Computes (μ.dp i) (μ.fp i)

mutual
/-- Degrees of the result. -/
def SExpr.degrees (μ : Meaning n) : SExpr ℝ n → List ℕ
  | .leaf i => μ.ds i
  | .add a b | .addAssign a b | .sub a b | .subAssign a b => maxDegrees (a.degrees μ) (b.degrees μ)
  | .neg a | .scale a _ | .addPoint a _ | .subPoint a _ | .pointSub _ a | .splitLeft a _ _ | .splitRight a _ _
  | .splitPart a _ _ _ => a.degrees μ
  | .elevate a d => (a.degrees μ).modify d (· + 1)
  | .deriv a orders => List.zipWith (· - ·) (a.degrees μ) orders
  | .compose a b => (b.degrees μ).map (fun q => (a.degrees μ).sum * q)
  | .composeScalar a b => (b.degrees μ).map (fun q => (a.degrees μ).sum * q)
  | .mul a b => sumDegrees (a.degrees μ) (b.degrees μ)
  | .dot a b => sumDegrees (a.degrees μ) (b.degrees μ)
  | .power a k => (a.degrees μ).map (fun p => k * p)
  | .extract a _ => a.degrees μ

/-- Degrees of the result. -/
def PExpr.degrees (μ : Meaning n) : PExpr ℝ n → List ℕ
  | .leaf i => μ.dp i
  | .add a b | .addAssign a b | .sub a b | .subAssign a b => maxDegrees (a.degrees μ) (b.degrees μ)
  | .neg a | .scale a _ | .addPoint a _ | .subPoint a _ | .pointSub _ a | .splitLeft a _ _ | .splitRight a _ _
  | .splitPart a _ _ _ => a.degrees μ
  | .elevate a d => (a.degrees μ).modify d (· + 1)
  | .deriv a orders => List.zipWith (· - ·) (a.degrees μ) orders
  | .compose a b => (b.degrees μ).map (fun q => (a.degrees μ).sum * q)
  | .composeScalar a b => (b.degrees μ).map (fun q => (a.degrees μ).sum * q)
  | .mulLeft a b => sumDegrees (a.degrees μ) (b.degrees μ)
  | .mulRight a b => sumDegrees (a.degrees μ) (b.degrees μ)
end

mutual
/-- The function an expression means. -/
noncomputable def SExpr.denote (μ : Meaning n) : SExpr ℝ n → List ℝ → ℝ
  | .leaf i => μ.fs i
  | .add a b | .addAssign a b => fun t => a.denote μ t + b.denote μ t
  | .sub a b | .subAssign a b => fun t => a.denote μ t - b.denote μ t
  | .neg a => fun t => -a.denote μ t
  | .scale a c => fun t => c • a.denote μ t
  | .addPoint a v => fun t => a.denote μ t + v
  | .subPoint a v => fun t => a.denote μ t - v
  | .pointSub v a => fun t => v - a.denote μ t
  | .elevate a _ => a.denote μ
  | .splitLeft a z d => fun t => a.denote μ (t.modify d (fun x => z * x))
  | .splitRight a z d => fun t => a.denote μ (t.modify d (fun x => z + (1 - z) * x))
  | .splitPart a zs d i => fun t =>
    let knots := 0 :: zs ++ [1]
    a.denote μ (t.modify d (fun x => knots.getD i 0 + (knots.getD (i + 1) 0 - knots.getD i 0) * x))
  | .deriv a orders => pderiv orders (a.denote μ)
  | .compose a b => fun t => a.denote μ (coordList ℝ (b.denote μ t))
  | .composeScalar a b => fun t => a.denote μ [b.denote μ t]
  | .mul a b => fun t => a.denote μ t * b.denote μ t
  | .dot a b => fun t => ∑ j, (a.denote μ t).val j * (b.denote μ t).val j
  | .power a k => fun t => a.denote μ t ^ k
  | .extract a j => fun t => if h : j < n then (a.denote μ t).val ⟨j, h⟩ else 0

/-- The function an expression means. -/
noncomputable def PExpr.denote (μ : Meaning n) : PExpr ℝ n → List ℝ → Point ℝ n
  | .leaf i => μ.fp i
  | .add a b | .addAssign a b => fun t => a.denote μ t + b.denote μ t
  | .sub a b | .subAssign a b => fun t => a.denote μ t - b.denote μ t
  | .neg a => fun t => -a.denote μ t
  | .scale a c => fun t => c • a.denote μ t
  | .addPoint a v => fun t => a.denote μ t + v
  | .subPoint a v => fun t => a.denote μ t - v
  | .pointSub v a => fun t => v - a.denote μ t
  | .elevate a _ => a.denote μ
  | .splitLeft a z d => fun t => a.denote μ (t.modify d (fun x => z * x))
  | .splitRight a z d => fun t => a.denote μ (t.modify d (fun x => z + (1 - z) * x))
  | .splitPart a zs d i => fun t =>
    let knots := 0 :: zs ++ [1]
    a.denote μ (t.modify d (fun x => knots.getD i 0 + (knots.getD (i + 1) 0 - knots.getD i 0) * x))
  | .deriv a orders => pderiv orders (a.denote μ)
  | .compose a b => fun t => a.denote μ (coordList ℝ (b.denote μ t))
  | .composeScalar a b => fun t => a.denote μ [b.denote μ t]
  | .mulLeft a b => fun t => a.denote μ t • b.denote μ t
  | .mulRight a b => fun t => b.denote μ t • a.denote μ t
end

mutual
/-- The preconditions of all the calls: dimensions match, split positions lie inside, orders of derivatives are at most the
degrees, inner splines of compositions pass `FitsIntoUnitCube`, `a - b` has no larger degree in `b` than in `a`, and degrees
and sizes stay below the limits of the library. -/
def SExpr.Admissible (cfg : Cfg) (σ : Vars ℝ n) (μ : Meaning n) : SExpr ℝ n → Prop
  | .leaf _ => True
  | .add a b | .addAssign a b | .subAssign a b => a.Admissible cfg σ μ ∧ b.Admissible cfg σ μ ∧ Fits cfg (a.degrees μ) (b.degrees μ)
  | .sub a b => a.Admissible cfg σ μ ∧ b.Admissible cfg σ μ ∧ Fits cfg (a.degrees μ) (b.degrees μ) ∧
    ∀ d p q : ℕ, (a.degrees μ)[d]? = some p → (b.degrees μ)[d]? = some q → q ≤ p
  | .neg a | .scale a _ | .addPoint a _ | .subPoint a _ | .pointSub _ a => a.Admissible cfg σ μ
  | .elevate a d => a.Admissible cfg σ μ ∧ d < (a.degrees μ).length ∧ size ((a.degrees μ).modify d (· + 1)) < 2 ^ 31
  | .splitLeft a z d | .splitRight a z d => a.Admissible cfg σ μ ∧ d < (a.degrees μ).length ∧ 0 < z ∧ z < 1
  | .splitPart a zs d i => a.Admissible cfg σ μ ∧ d < (a.degrees μ).length ∧ zs.Pairwise (· < ·) ∧ (∀ z ∈ zs, 0 < z ∧ z < 1) ∧ i ≤ zs.length
  | .deriv a orders => a.Admissible cfg σ μ ∧ orders.length = (a.degrees μ).length ∧
    (∀ d o p : ℕ, orders[d]? = some o → (a.degrees μ)[d]? = some p → o ≤ p) ∧ (∀ o ∈ orders, o < cfg.maxBinom) ∧
    size (a.degrees μ) < 2 ^ 64
  | .compose a b => a.Admissible cfg σ μ ∧ b.Admissible cfg σ μ ∧ (a.degrees μ).length = n ∧
    (∀ r, b.run cfg σ = .ok r → Spline.fitsIntoUnitCube ℝ r = .ok true) ∧
    (∀ p ∈ a.degrees μ, p < cfg.maxBinom) ∧ ∀ q ∈ b.degrees μ, (a.degrees μ).sum * q < cfg.maxBinom
  | .composeScalar a b => a.Admissible cfg σ μ ∧ b.Admissible cfg σ μ ∧ (a.degrees μ).length = 1 ∧
    (∀ r, b.run cfg σ = .ok r → Spline.fitsIntoUnitCube ℝ r = .ok true) ∧
    (∀ p ∈ a.degrees μ, p < cfg.maxBinom) ∧ ∀ q ∈ b.degrees μ, (a.degrees μ).sum * q < cfg.maxBinom
  | .mul a b => a.Admissible cfg σ μ ∧ b.Admissible cfg σ μ ∧ (b.degrees μ).length = (a.degrees μ).length ∧
    ∀ p ∈ sumDegrees (a.degrees μ) (b.degrees μ), p < cfg.maxBinom
  | .dot a b => a.Admissible cfg σ μ ∧ b.Admissible cfg σ μ ∧ (b.degrees μ).length = (a.degrees μ).length ∧
    ∀ p ∈ sumDegrees (a.degrees μ) (b.degrees μ), p < cfg.maxBinom
  | .power a k => a.Admissible cfg σ μ ∧ ∀ p ∈ a.degrees μ, k * p < cfg.maxBinom
  | .extract a j => a.Admissible cfg σ μ ∧ j < n

/-- The preconditions of all the calls. -/
def PExpr.Admissible (cfg : Cfg) (σ : Vars ℝ n) (μ : Meaning n) : PExpr ℝ n → Prop
  | .leaf _ => True
  | .add a b | .addAssign a b | .subAssign a b => a.Admissible cfg σ μ ∧ b.Admissible cfg σ μ ∧ Fits cfg (a.degrees μ) (b.degrees μ)
  | .sub a b => a.Admissible cfg σ μ ∧ b.Admissible cfg σ μ ∧ Fits cfg (a.degrees μ) (b.degrees μ) ∧
    ∀ d p q : ℕ, (a.degrees μ)[d]? = some p → (b.degrees μ)[d]? = some q → q ≤ p
  | .neg a | .scale a _ | .addPoint a _ | .subPoint a _ | .pointSub _ a => a.Admissible cfg σ μ
  | .elevate a d => a.Admissible cfg σ μ ∧ d < (a.degrees μ).length ∧ size ((a.degrees μ).modify d (· + 1)) < 2 ^ 31
  | .splitLeft a z d | .splitRight a z d => a.Admissible cfg σ μ ∧ d < (a.degrees μ).length ∧ 0 < z ∧ z < 1
  | .splitPart a zs d i => a.Admissible cfg σ μ ∧ d < (a.degrees μ).length ∧ zs.Pairwise (· < ·) ∧ (∀ z ∈ zs, 0 < z ∧ z < 1) ∧ i ≤ zs.length
  | .deriv a orders => a.Admissible cfg σ μ ∧ orders.length = (a.degrees μ).length ∧
    (∀ d o p : ℕ, orders[d]? = some o → (a.degrees μ)[d]? = some p → o ≤ p) ∧ (∀ o ∈ orders, o < cfg.maxBinom) ∧
    size (a.degrees μ) < 2 ^ 64
  | .compose a b => a.Admissible cfg σ μ ∧ b.Admissible cfg σ μ ∧ (a.degrees μ).length = n ∧
    (∀ r, b.run cfg σ = .ok r → Spline.fitsIntoUnitCube ℝ r = .ok true) ∧
    (∀ p ∈ a.degrees μ, p < cfg.maxBinom) ∧ ∀ q ∈ b.degrees μ, (a.degrees μ).sum * q < cfg.maxBinom
  | .composeScalar a b => a.Admissible cfg σ μ ∧ b.Admissible cfg σ μ ∧ (a.degrees μ).length = 1 ∧
    (∀ r, b.run cfg σ = .ok r → Spline.fitsIntoUnitCube ℝ r = .ok true) ∧
    (∀ p ∈ a.degrees μ, p < cfg.maxBinom) ∧ ∀ q ∈ b.degrees μ, (a.degrees μ).sum * q < cfg.maxBinom
  | .mulLeft a b => a.Admissible cfg σ μ ∧ b.Admissible cfg σ μ ∧ (b.degrees μ).length = (a.degrees μ).length ∧
    ∀ p ∈ sumDegrees (a.degrees μ) (b.degrees μ), p < cfg.maxBinom
  | .mulRight a b => a.Admissible cfg σ μ ∧ b.Admissible cfg σ μ ∧ (b.degrees μ).length = (a.degrees μ).length ∧
    ∀ p ∈ sumDegrees (a.degrees μ) (b.degrees μ), p < cfg.maxBinom
end

end Bezman
