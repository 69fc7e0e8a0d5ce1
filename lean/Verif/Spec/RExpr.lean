import Verif.Model.RExpr
import Verif.Spec.Expr
import Verif.Spec.RComputes
import Verif.Props.RationalDeriv
import Verif.Props.RationalCompose

/-! # Specification: what an expression over rational splines means

Function, degrees and weight function of the result. -/

namespace Bezman
open Spec Props

/-- What the variables of a program stand for: degrees and function of each, and the weight function of the rational ones. -/
structure Spec.RMeaning (n : ℕ) extends Meaning n where
  drs : ℕ → List ℕ
  frs : ℕ → List ℝ → ℝ
  wrs : ℕ → List ℝ → ℝ
  drp : ℕ → List ℕ
  frp : ℕ → List ℝ → Point ℝ n
  wrp : ℕ → List ℝ → ℝ

variable {n : ℕ}

/-- The variables hold splines with these degrees and functions. -/
structure Spec.RMeaning.Of (μ : RMeaning n) (σ : RVars ℝ n) : Prop where
  poly : μ.toMeaning.Of σ.toVars
  rs : ∀ i, (σ.rs i).Computes (μ.drs i) (μ.frs i) (μ.wrs i)
  rp : ∀ i, (σ.rp i).Computes (μ.drp i) (μ.frp i) (μ.wrp i)

open Classical in
/-- Degrees and weight function of a sum or difference: equal weight functions are shared, others are multiplied. -/
noncomputable def Spec.sumShape (a b : List ℕ × (List ℝ → ℝ)) : List ℕ × (List ℝ → ℝ) :=
  if a.1 = b.1 ∧ ∀ t : List ℝ, t.length = a.1.length → a.2 t = b.2 t then a
  else (sumDegrees a.1 b.1, fun t => a.2 t * b.2 t)

mutual
/-- The function a rational expression means (wherever its weight function does not vanish). -/
noncomputable def RSExpr.denote (μ : RMeaning n) : RSExpr ℝ n → List ℝ → ℝ
  | .leaf i => μ.frs i
  | .ofSpline a => a.denote μ.toMeaning
  | .add a b | .addAssign a b => fun t => a.denote μ t + b.denote μ t
  | .sub a b | .subAssign a b => fun t => a.denote μ t - b.denote μ t
  | .neg a => fun t => -a.denote μ t
  | .scale a c => fun t => c • a.denote μ t
  | .addPoint a v => fun t => a.denote μ t + v
  | .subPoint a v => fun t => a.denote μ t - v
  | .elevate a _ => a.denote μ
  | .splitLeft a z d => fun t => a.denote μ (t.modify d (fun x => z * x))
  | .splitRight a z d => fun t => a.denote μ (t.modify d (fun x => z + (1 - z) * x))
  | .splitPart a zs d i => fun t =>
    let knots := 0 :: zs ++ [1]
    a.denote μ (t.modify d (fun x => knots.getD i 0 + (knots.getD (i + 1) 0 - knots.getD i 0) * x))
  | .deriv a orders => pderiv orders (a.denote μ)
  | .composePoly a b => fun t => a.denote μ (coordList ℝ (b.denote μ.toMeaning t))
  | .composePolyScalar a b => fun t => a.denote μ [b.denote μ.toMeaning t]
  | .compose a b => fun t => a.denote μ (coordList ℝ (b.denote μ t))
  | .composeScalar a b => fun t => a.denote μ [b.denote μ t]
  | .polyCompose a b => fun t => a.denote μ.toMeaning (coordList ℝ (b.denote μ t))
  | .polyComposeScalar a b => fun t => a.denote μ.toMeaning [b.denote μ t]
  | .mul a b => fun t => a.denote μ t * b.denote μ t
  | .dot a b => fun t => ∑ j, (a.denote μ t).val j * (b.denote μ t).val j

/-- The function a rational expression means (wherever its weight function does not vanish). -/
noncomputable def RPExpr.denote (μ : RMeaning n) : RPExpr ℝ n → List ℝ → Point ℝ n
  | .leaf i => μ.frp i
  | .ofSpline a => a.denote μ.toMeaning
  | .add a b | .addAssign a b => fun t => a.denote μ t + b.denote μ t
  | .sub a b | .subAssign a b => fun t => a.denote μ t - b.denote μ t
  | .neg a => fun t => -a.denote μ t
  | .scale a c => fun t => c • a.denote μ t
  | .addPoint a v => fun t => a.denote μ t + v
  | .subPoint a v => fun t => a.denote μ t - v
  | .elevate a _ => a.denote μ
  | .splitLeft a z d => fun t => a.denote μ (t.modify d (fun x => z * x))
  | .splitRight a z d => fun t => a.denote μ (t.modify d (fun x => z + (1 - z) * x))
  | .splitPart a zs d i => fun t =>
    let knots := 0 :: zs ++ [1]
    a.denote μ (t.modify d (fun x => knots.getD i 0 + (knots.getD (i + 1) 0 - knots.getD i 0) * x))
  | .deriv a orders => pderiv orders (a.denote μ)
  | .composePoly a b => fun t => a.denote μ (coordList ℝ (b.denote μ.toMeaning t))
  | .composePolyScalar a b => fun t => a.denote μ [b.denote μ.toMeaning t]
  | .compose a b => fun t => a.denote μ (coordList ℝ (b.denote μ t))
  | .composeScalar a b => fun t => a.denote μ [b.denote μ t]
  | .polyCompose a b => fun t => a.denote μ.toMeaning (coordList ℝ (b.denote μ t))
  | .polyComposeScalar a b => fun t => a.denote μ.toMeaning [b.denote μ t]
  | .mulLeft a b => fun t => a.denote μ t • b.denote μ t
  | .mulRight a b => fun t => b.denote μ t • a.denote μ t
end

mutual
/-- Degrees and weight function of the result. -/
noncomputable def RSExpr.shape (μ : RMeaning n) : RSExpr ℝ n → List ℕ × (List ℝ → ℝ)
  | .leaf i => (μ.drs i, μ.wrs i)
  | .ofSpline a => (a.degrees μ.toMeaning, fun _ => 1)
  | .add a b | .addAssign a b | .sub a b | .subAssign a b => sumShape (a.shape μ) (b.shape μ)
  | .neg a | .scale a _ | .addPoint a _ | .subPoint a _ => a.shape μ
  | .elevate a d => ((a.shape μ).1.modify d (· + 1), (a.shape μ).2)
  | .splitLeft a z d => ((a.shape μ).1, fun t => (a.shape μ).2 (t.modify d (fun x => z * x)))
  | .splitRight a z d => ((a.shape μ).1, fun t => (a.shape μ).2 (t.modify d (fun x => z + (1 - z) * x)))
  | .splitPart a zs d i => ((a.shape μ).1, fun t =>
    let knots := 0 :: zs ++ [1]
    (a.shape μ).2 (t.modify d (fun x => knots.getD i 0 + (knots.getD (i + 1) 0 - knots.getD i 0) * x)))
  | .deriv a orders => ((a.shape μ).1.map (· * 2 ^ orders.sum), fun t => (a.shape μ).2 t ^ 2 ^ orders.sum)
  | .composePoly a b => ((b.degrees μ.toMeaning).map (fun q => (a.shape μ).1.sum * q),
    fun t => (a.shape μ).2 (coordList ℝ (b.denote μ.toMeaning t)))
  | .composePolyScalar a b => ((b.degrees μ.toMeaning).map (fun q => (a.shape μ).1.sum * q),
    fun t => (a.shape μ).2 [b.denote μ.toMeaning t])
  | .compose a b => ((b.shape μ).1.map (fun q => (a.shape μ).1.sum * q),
    fun t => (b.shape μ).2 t ^ (a.shape μ).1.sum * (a.shape μ).2 (coordList ℝ (b.denote μ t)))
  | .composeScalar a b => ((b.shape μ).1.map (fun q => (a.shape μ).1.sum * q),
    fun t => (b.shape μ).2 t ^ (a.shape μ).1.sum * (a.shape μ).2 [b.denote μ t])
  | .polyCompose a b => ((b.shape μ).1.map (fun q => (a.degrees μ.toMeaning).sum * q),
    fun t => (b.shape μ).2 t ^ (a.degrees μ.toMeaning).sum)
  | .polyComposeScalar a b => ((b.shape μ).1.map (fun q => (a.degrees μ.toMeaning).sum * q),
    fun t => (b.shape μ).2 t ^ (a.degrees μ.toMeaning).sum)
  | .mul a b => (sumDegrees (a.shape μ).1 (b.shape μ).1, fun t => (a.shape μ).2 t * (b.shape μ).2 t)
  | .dot a b => (sumDegrees (a.shape μ).1 (b.shape μ).1, fun t => (a.shape μ).2 t * (b.shape μ).2 t)

/-- Degrees and weight function of the result. -/
noncomputable def RPExpr.shape (μ : RMeaning n) : RPExpr ℝ n → List ℕ × (List ℝ → ℝ)
  | .leaf i => (μ.drp i, μ.wrp i)
  | .ofSpline a => (a.degrees μ.toMeaning, fun _ => 1)
  | .add a b | .addAssign a b | .sub a b | .subAssign a b => sumShape (a.shape μ) (b.shape μ)
  | .neg a | .scale a _ | .addPoint a _ | .subPoint a _ => a.shape μ
  | .elevate a d => ((a.shape μ).1.modify d (· + 1), (a.shape μ).2)
  | .splitLeft a z d => ((a.shape μ).1, fun t => (a.shape μ).2 (t.modify d (fun x => z * x)))
  | .splitRight a z d => ((a.shape μ).1, fun t => (a.shape μ).2 (t.modify d (fun x => z + (1 - z) * x)))
  | .splitPart a zs d i => ((a.shape μ).1, fun t =>
    let knots := 0 :: zs ++ [1]
    (a.shape μ).2 (t.modify d (fun x => knots.getD i 0 + (knots.getD (i + 1) 0 - knots.getD i 0) * x)))
  | .deriv a orders => ((a.shape μ).1.map (· * 2 ^ orders.sum), fun t => (a.shape μ).2 t ^ 2 ^ orders.sum)
  | .composePoly a b => ((b.degrees μ.toMeaning).map (fun q => (a.shape μ).1.sum * q),
    fun t => (a.shape μ).2 (coordList ℝ (b.denote μ.toMeaning t)))
  | .composePolyScalar a b => ((b.degrees μ.toMeaning).map (fun q => (a.shape μ).1.sum * q),
    fun t => (a.shape μ).2 [b.denote μ.toMeaning t])
  | .compose a b => ((b.shape μ).1.map (fun q => (a.shape μ).1.sum * q),
    fun t => (b.shape μ).2 t ^ (a.shape μ).1.sum * (a.shape μ).2 (coordList ℝ (b.denote μ t)))
  | .composeScalar a b => ((b.shape μ).1.map (fun q => (a.shape μ).1.sum * q),
    fun t => (b.shape μ).2 t ^ (a.shape μ).1.sum * (a.shape μ).2 [b.denote μ t])
  | .polyCompose a b => ((b.shape μ).1.map (fun q => (a.degrees μ.toMeaning).sum * q),
    fun t => (b.shape μ).2 t ^ (a.degrees μ.toMeaning).sum)
  | .polyComposeScalar a b => ((b.shape μ).1.map (fun q => (a.degrees μ.toMeaning).sum * q),
    fun t => (b.shape μ).2 t ^ (a.degrees μ.toMeaning).sum)
  | .mulLeft a b => (sumDegrees (a.shape μ).1 (b.shape μ).1, fun t => (a.shape μ).2 t * (b.shape μ).2 t)
  | .mulRight a b => (sumDegrees (a.shape μ).1 (b.shape μ).1, fun t => (a.shape μ).2 t * (b.shape μ).2 t)
end

mutual
/-- The preconditions of all the calls: as for polynomial programs, and the weight function of a rational inner spline of a
rational outer spline has no zeros. -/
def RSExpr.Admissible (cfg : Cfg) (σ : RVars ℝ n) (μ : RMeaning n) : RSExpr ℝ n → Prop
  | .leaf _ => True
  | .ofSpline a => a.Admissible cfg σ.toVars μ.toMeaning
  | .add a b | .addAssign a b | .sub a b | .subAssign a b =>
    a.Admissible cfg σ μ ∧ b.Admissible cfg σ μ ∧ RFits cfg (a.shape μ).1 (b.shape μ).1
  | .neg a | .scale a _ | .addPoint a _ | .subPoint a _ => a.Admissible cfg σ μ
  | .elevate a d => a.Admissible cfg σ μ ∧ d < (a.shape μ).1.length ∧ size ((a.shape μ).1.modify d (· + 1)) < 2 ^ 31
  | .splitLeft a z d | .splitRight a z d => a.Admissible cfg σ μ ∧ d < (a.shape μ).1.length ∧ 0 < z ∧ z < 1
  | .splitPart a zs d i => a.Admissible cfg σ μ ∧ d < (a.shape μ).1.length ∧ zs.Pairwise (· < ·) ∧ (∀ z ∈ zs, 0 < z ∧ z < 1) ∧ i ≤ zs.length
  | .deriv a orders => a.Admissible cfg σ μ ∧ orders.length = (a.shape μ).1.length ∧
    (∀ d o p : ℕ, orders[d]? = some o → (a.shape μ).1[d]? = some p → 1 ≤ o → 1 ≤ p) ∧ DerivFits cfg (a.shape μ).1 orders.sum
  | .composePoly a b => a.Admissible cfg σ μ ∧ b.Admissible cfg σ.toVars μ.toMeaning ∧ (a.shape μ).1.length = n ∧
    (∀ r, b.run cfg σ.toVars = .ok r → Spline.fitsIntoUnitCube ℝ r = .ok true) ∧
    ComposeFits cfg (a.shape μ).1 (b.degrees μ.toMeaning)
  | .composePolyScalar a b => a.Admissible cfg σ μ ∧ b.Admissible cfg σ.toVars μ.toMeaning ∧ (a.shape μ).1.length = 1 ∧
    (∀ r, b.run cfg σ.toVars = .ok r → Spline.fitsIntoUnitCube ℝ r = .ok true) ∧
    ComposeFits cfg (a.shape μ).1 (b.degrees μ.toMeaning)
  | .compose a b => a.Admissible cfg σ μ ∧ b.Admissible cfg σ μ ∧ (a.shape μ).1.length = n ∧
    (∀ t : List ℝ, t.length = (b.shape μ).1.length → (b.shape μ).2 t ≠ 0) ∧ ComposeFits cfg (a.shape μ).1 (b.shape μ).1
  | .composeScalar a b => a.Admissible cfg σ μ ∧ b.Admissible cfg σ μ ∧ (a.shape μ).1.length = 1 ∧
    (∀ t : List ℝ, t.length = (b.shape μ).1.length → (b.shape μ).2 t ≠ 0) ∧ ComposeFits cfg (a.shape μ).1 (b.shape μ).1
  | .polyCompose a b => a.Admissible cfg σ.toVars μ.toMeaning ∧ b.Admissible cfg σ μ ∧ (a.degrees μ.toMeaning).length = n ∧
    (∀ r, b.run cfg σ = .ok r → r.fitsIntoUnitCube = .ok true) ∧ ComposeFits cfg (a.degrees μ.toMeaning) (b.shape μ).1
  | .polyComposeScalar a b => a.Admissible cfg σ.toVars μ.toMeaning ∧ b.Admissible cfg σ μ ∧ (a.degrees μ.toMeaning).length = 1 ∧
    (∀ r, b.run cfg σ = .ok r → r.fitsIntoUnitCube = .ok true) ∧ ComposeFits cfg (a.degrees μ.toMeaning) (b.shape μ).1
  | .mul a b => a.Admissible cfg σ μ ∧ b.Admissible cfg σ μ ∧ (b.shape μ).1.length = (a.shape μ).1.length ∧
    ∀ p ∈ sumDegrees (a.shape μ).1 (b.shape μ).1, p < cfg.maxBinom
  | .dot a b => a.Admissible cfg σ μ ∧ b.Admissible cfg σ μ ∧ (b.shape μ).1.length = (a.shape μ).1.length ∧
    ∀ p ∈ sumDegrees (a.shape μ).1 (b.shape μ).1, p < cfg.maxBinom

/-- The preconditions of all the calls: as for polynomial programs, and the weight function of a rational inner spline of a
rational outer spline has no zeros. -/
def RPExpr.Admissible (cfg : Cfg) (σ : RVars ℝ n) (μ : RMeaning n) : RPExpr ℝ n → Prop
  | .leaf _ => True
  | .ofSpline a => a.Admissible cfg σ.toVars μ.toMeaning
  | .add a b | .addAssign a b | .sub a b | .subAssign a b =>
    a.Admissible cfg σ μ ∧ b.Admissible cfg σ μ ∧ RFits cfg (a.shape μ).1 (b.shape μ).1
  | .neg a | .scale a _ | .addPoint a _ | .subPoint a _ => a.Admissible cfg σ μ
  | .elevate a d => a.Admissible cfg σ μ ∧ d < (a.shape μ).1.length ∧ size ((a.shape μ).1.modify d (· + 1)) < 2 ^ 31
  | .splitLeft a z d | .splitRight a z d => a.Admissible cfg σ μ ∧ d < (a.shape μ).1.length ∧ 0 < z ∧ z < 1
  | .splitPart a zs d i => a.Admissible cfg σ μ ∧ d < (a.shape μ).1.length ∧ zs.Pairwise (· < ·) ∧ (∀ z ∈ zs, 0 < z ∧ z < 1) ∧ i ≤ zs.length
  | .deriv a orders => a.Admissible cfg σ μ ∧ orders.length = (a.shape μ).1.length ∧
    (∀ d o p : ℕ, orders[d]? = some o → (a.shape μ).1[d]? = some p → 1 ≤ o → 1 ≤ p) ∧ DerivFits cfg (a.shape μ).1 orders.sum
  | .composePoly a b => a.Admissible cfg σ μ ∧ b.Admissible cfg σ.toVars μ.toMeaning ∧ (a.shape μ).1.length = n ∧
    (∀ r, b.run cfg σ.toVars = .ok r → Spline.fitsIntoUnitCube ℝ r = .ok true) ∧
    ComposeFits cfg (a.shape μ).1 (b.degrees μ.toMeaning)
  | .composePolyScalar a b => a.Admissible cfg σ μ ∧ b.Admissible cfg σ.toVars μ.toMeaning ∧ (a.shape μ).1.length = 1 ∧
    (∀ r, b.run cfg σ.toVars = .ok r → Spline.fitsIntoUnitCube ℝ r = .ok true) ∧
    ComposeFits cfg (a.shape μ).1 (b.degrees μ.toMeaning)
  | .compose a b => a.Admissible cfg σ μ ∧ b.Admissible cfg σ μ ∧ (a.shape μ).1.length = n ∧
    (∀ t : List ℝ, t.length = (b.shape μ).1.length → (b.shape μ).2 t ≠ 0) ∧ ComposeFits cfg (a.shape μ).1 (b.shape μ).1
  | .composeScalar a b => a.Admissible cfg σ μ ∧ b.Admissible cfg σ μ ∧ (a.shape μ).1.length = 1 ∧
    (∀ t : List ℝ, t.length = (b.shape μ).1.length → (b.shape μ).2 t ≠ 0) ∧ ComposeFits cfg (a.shape μ).1 (b.shape μ).1
  | .polyCompose a b => a.Admissible cfg σ.toVars μ.toMeaning ∧ b.Admissible cfg σ μ ∧ (a.degrees μ.toMeaning).length = n ∧
    (∀ r, b.run cfg σ = .ok r → r.fitsIntoUnitCube = .ok true) ∧ ComposeFits cfg (a.degrees μ.toMeaning) (b.shape μ).1
  | .polyComposeScalar a b => a.Admissible cfg σ.toVars μ.toMeaning ∧ b.Admissible cfg σ μ ∧ (a.degrees μ.toMeaning).length = 1 ∧
    (∀ r, b.run cfg σ = .ok r → r.fitsIntoUnitCube = .ok true) ∧ ComposeFits cfg (a.degrees μ.toMeaning) (b.shape μ).1
  | .mulLeft a b => a.Admissible cfg σ μ ∧ b.Admissible cfg σ μ ∧ (b.shape μ).1.length = (a.shape μ).1.length ∧
    ∀ p ∈ sumDegrees (a.shape μ).1 (b.shape μ).1, p < cfg.maxBinom
  | .mulRight a b => a.Admissible cfg σ μ ∧ b.Admissible cfg σ μ ∧ (b.shape μ).1.length = (a.shape μ).1.length ∧
    ∀ p ∈ sumDegrees (a.shape μ).1 (b.shape μ).1, p < cfg.maxBinom
end

mutual
/-- All rational variables of the program have positive weights, and rational inner splines of compositions lie in the unit cube. -/
def RSExpr.Positive (cfg : Cfg) (σ : RVars ℝ n) : RSExpr ℝ n → Prop
  | .leaf i => ∀ c ∈ (σ.rs i).wt.cps, 0 < c
  | .ofSpline _ => True
  | .add a b | .addAssign a b | .sub a b | .subAssign a b => a.Positive cfg σ ∧ b.Positive cfg σ
  | .neg a | .scale a _ | .addPoint a _ | .subPoint a _ | .elevate a _ | .splitLeft a _ _ | .splitRight a _ _
  | .splitPart a _ _ _ | .deriv a _ | .composePoly a _ | .composePolyScalar a _ => a.Positive cfg σ
  | .compose a b => a.Positive cfg σ ∧ b.Positive cfg σ ∧ ∀ r, b.run cfg σ = .ok r → r.fitsIntoUnitCube = .ok true
  | .composeScalar a b => a.Positive cfg σ ∧ b.Positive cfg σ ∧ ∀ r, b.run cfg σ = .ok r → r.fitsIntoUnitCube = .ok true
  | .polyCompose _ b => b.Positive cfg σ
  | .polyComposeScalar _ b => b.Positive cfg σ
  | .mul a b => a.Positive cfg σ ∧ b.Positive cfg σ
  | .dot a b => a.Positive cfg σ ∧ b.Positive cfg σ

/-- All rational variables of the program have positive weights, and rational inner splines of compositions lie in the unit cube. -/
def RPExpr.Positive (cfg : Cfg) (σ : RVars ℝ n) : RPExpr ℝ n → Prop
  | .leaf i => ∀ c ∈ (σ.rp i).wt.cps, 0 < c
  | .ofSpline _ => True
  | .add a b | .addAssign a b | .sub a b | .subAssign a b => a.Positive cfg σ ∧ b.Positive cfg σ
  | .neg a | .scale a _ | .addPoint a _ | .subPoint a _ | .elevate a _ | .splitLeft a _ _ | .splitRight a _ _
  | .splitPart a _ _ _ | .deriv a _ | .composePoly a _ | .composePolyScalar a _ => a.Positive cfg σ
  | .compose a b => a.Positive cfg σ ∧ b.Positive cfg σ ∧ ∀ r, b.run cfg σ = .ok r → r.fitsIntoUnitCube = .ok true
  | .composeScalar a b => a.Positive cfg σ ∧ b.Positive cfg σ ∧ ∀ r, b.run cfg σ = .ok r → r.fitsIntoUnitCube = .ok true
  | .polyCompose _ b => b.Positive cfg σ
  | .polyComposeScalar _ b => b.Positive cfg σ
  | .mulLeft a b => a.Positive cfg σ ∧ b.Positive cfg σ
  | .mulRight a b => a.Positive cfg σ ∧ b.Positive cfg σ
end

end Bezman
