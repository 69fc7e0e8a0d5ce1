import Verif.Proofs.AnyArithREval
import Verif.Props.AnyArith

/-! # Properties: outcomes of rational operations that do not depend on the arithmetic

Scalars and points are arbitrary types with arbitrary operations and comparisons, as for the polynomial splines (C80).  Rational splines
add two tests that look at numbers: weight functions are compared before sums, and denominators are compared with zero. -/

namespace Bezman.Props
open Spec

section
variable {K V W U : Type} [Zero K] [One K] [Add K] [Sub K] [Mul K] [Neg K] [Div K] [NatCast K]
  [Zero V] [Add V] [Sub V] [Neg V] [SMul K V]

/-- C81. A sum or difference returns; the degrees stay if the weight functions compare equal and are added otherwise. -/
theorem C81_sum [BEq K] (cfg : Cfg) (hmax : cfg.maxBinom ≤ 68) (a b : RSpline K V) (da db : List ℕ) (ha : HasRShape da a)
    (hb : HasRShape db b) (h : RFits cfg da db) (x : M (RSpline K V))
    (hx : x = a.addOp cfg b ∨ x = a.addAssign cfg b ∨ x = a.subOp cfg b ∨ x = a.subAssign cfg b) :
    (a.wt.eqOp b.wt = true ∧ da = db ∧ RReturns da x) ∨ (a.wt.eqOp b.wt = false ∧ RReturns (sumDegrees da db) x) := by
  obtain ⟨h1, h2, h3, h4⟩ := RSpline.sum_returns cfg hmax ha hb h
  rcases hx with rfl | rfl | rfl | rfl
  exacts [h1, h2, h3, h4]

/-- C81. Negation, scaling, translation, conversion and degree elevation return. -/
theorem C81_unary (a : RSpline K V) (ds : List ℕ) (ha : HasRShape ds a) :
    RReturns ds a.negOp ∧ (∀ c : K, RReturns ds (a.smulOp c) ∧ RReturns ds (a.smulAssign c)) ∧
    (∀ v : V, RReturns ds (a.addPoint v) ∧ RReturns ds (a.addPointAssign v) ∧ RReturns ds (a.subPoint v) ∧ RReturns ds (a.subPointAssign v)) ∧
    RReturns ds (RSpline.ofSpline (K := K) a.num) ∧
    ∀ d < ds.length, size (ds.modify d (· + 1)) < 2 ^ 31 → RReturns (ds.modify d (· + 1)) (a.orderElevate d) :=
  ⟨RSpline.negOp_returns ha, fun c => ⟨RSpline.smulOp_returns ha c, RSpline.smulAssign_returns ha c⟩,
    fun v => ⟨(RSpline.addPoint_returns ha v).1, (RSpline.addPoint_returns ha v).2, (RSpline.subPoint_returns ha v).1,
      (RSpline.subPoint_returns ha v).2⟩,
    RSpline.ofSpline_returns ha.1, fun _ hd hs => RSpline.orderElevate_returns ha hd hs⟩

/-- C81. Differentiation returns. -/
theorem C81_derive (cfg : Cfg) (hmax : cfg.maxBinom ≤ 68) (a : RSpline K V) (ds : List ℕ) (ha : HasRShape ds a) (orders : List ℕ)
    (hl : orders.length = ds.length) (hpos : ∀ d o p : ℕ, orders[d]? = some o → ds[d]? = some p → 1 ≤ o → 1 ≤ p)
    (hfit : DerivFits cfg ds orders.sum) : RReturns (ds.map (· * 2 ^ orders.sum)) (a.derivativeSpline cfg orders) :=
  RSpline.derivativeSpline_returns cfg hmax ha hl hpos hfit

/-- C81. Products return, for every product of points. -/
theorem C81_product [Zero U] [Add U] [Sub U] [Neg U] [SMul K U] (cfg : Cfg) (hmax : cfg.maxBinom ≤ 68) (mul : V → W → U)
    (a : RSpline K V) (b : RSpline K W) (da db : List ℕ) (ha : HasRShape da a) (hb : HasRShape db b) (hdim : db.length = da.length)
    (hdeg : ∀ p ∈ sumDegrees da db, p < cfg.maxBinom) : RReturns (sumDegrees da db) (RSpline.mulOp cfg mul a b) :=
  RSpline.mulOp_returns cfg hmax mul ha hb hdim hdeg

/-- C81. Evaluation divides by zero exactly if the weight function evaluates to something that compares equal to zero, and returns
otherwise; the same holds for the control points and their weights. -/
theorem C81_evaluate [BEq K] [ScalarDiv K V] (r : RSpline K V) (ds : List ℕ) (h : HasRShape ds r) :
    (∀ t : List K, t.length = ds.length → ∃ w, r.wt.evaluate t = .ok w ∧
      ((w == 0) = true → r.evaluate t = .error .divZero) ∧ ((w == 0) = false → ∃ x, r.evaluate t = .ok x)) ∧
    ∀ idx, ValidIdx ds idx → ∃ w, r.weight idx = .ok w ∧
      ((w == 0) = true → r.controlPoint idx = .error .divZero) ∧ ((w == 0) = false → ∃ x, r.controlPoint idx = .ok x) :=
  ⟨fun t ht => RSpline.evaluate_outcome h t ht, fun _ hi =>
    let ⟨w, h1, _, h2⟩ := RSpline.controlPoint_outcome h hi
    ⟨w, h1, h2⟩⟩

/-- C81. The basis functions and derivatives return as many numbers as there are control points, or they divide by something that
compares equal to zero; `ForwardEvaluate` does not divide. -/
theorem C81_evaluators [BEq K] (cfg : Cfg) (hmax : cfg.maxBinom ≤ 68) (r : RSpline K V) (ds : List ℕ) (h : HasRShape ds r)
    (hd : ∀ p ∈ ds, p < cfg.maxBinom) (t : List K) (ht : t.length = ds.length) :
    (∃ x, r.forwardEvaluate cfg t = .ok x) ∧
    ((∃ l, r.basisFunctions cfg t = .ok l ∧ l.length = size ds) ∨ r.basisFunctions cfg t = .error .divZero) ∧
    ((∃ l, r.unweightedBasisFunctions cfg t = .ok l ∧ l.length = size ds) ∨ r.unweightedBasisFunctions cfg t = .error .divZero) ∧
    ∀ k : List ℕ, k.length = ds.length → (∀ o ∈ k, o < cfg.maxBinom) → BinomFits k →
      ((∃ x, r.evaluateDerivative cfg t k = .ok x) ∨ r.evaluateDerivative cfg t k = .error .divZero) ∧
      ((∃ l, r.basisFunctionsDerivatives cfg t k = .ok l ∧ l.length = size ds) ∨
        r.basisFunctionsDerivatives cfg t k = .error .divZero) := RSpline.evaluators_outcome cfg hmax h hd ht

/-- C81. The corners of the bounding box and the unit cube check return if no weight compares equal to zero, and divide by zero
otherwise. -/
theorem C81_box [BEq K] [ScalarDiv K W] [Coords K W] [LT K] [DecidableLT K] (r : RSpline K W) (ds : List ℕ) (h : HasRShape ds r) :
    ((∀ w ∈ r.wt.cps, (w == 0) = false) →
      (∃ x, r.minimumCorner = .ok x) ∧ (∃ x, r.maximumCorner = .ok x) ∧ ∃ b, r.fitsIntoUnitCube = .ok b) ∧
    ((∃ w ∈ r.wt.cps, (w == 0) = true) →
      r.minimumCorner = .error .divZero ∧ r.maximumCorner = .error .divZero ∧ r.fitsIntoUnitCube = .error .divZero) :=
  ⟨fun h0 => ⟨(RSpline.corner_outcome h _).1 h0, (RSpline.corner_outcome h _).1 h0, (RSpline.fits_outcome h).1 h0⟩,
    fun h0 => ⟨(RSpline.corner_outcome h _).2 h0, (RSpline.corner_outcome h _).2 h0, (RSpline.fits_outcome h).2 h0⟩⟩

section
variable [LT K] [DecidableLT K]

/-- C81. A split returns two splines exactly if the comparisons say that the position lies inside, and throws otherwise. -/
theorem C81_split (r : RSpline K V) (ds : List ℕ) (h : HasRShape ds r) (d : ℕ) (hd : d < ds.length) (z : K) :
    (¬ (0 < z ∧ z < 1) ∧ r.splitAt z d = .error .throws) ∨
      (0 < z ∧ z < 1) ∧ ∃ a b, r.splitAt z d = .ok (a, b) ∧ HasRShape ds a ∧ HasRShape ds b := RSpline.splitAt_shape h hd z

/-- C81. A split at many planes returns one more spline than there are planes, or throws. -/
theorem C81_split_many (r : RSpline K V) (ds : List ℕ) (h : HasRShape ds r) (d : ℕ) (hd : d < ds.length) (zs : List K) :
    r.splitAtMany zs d = .error .throws ∨
      ∃ l, r.splitAtMany zs d = .ok l ∧ l.length = zs.length + 1 ∧ ∀ x ∈ l, HasRShape ds x := RSpline.splitAtMany_shape h hd zs

/-- C81. Composition of a rational spline with a polynomial one: the outcome is that of the unit cube check. -/
theorem C81_compose [Coords K W] (cfg : Cfg) (hmax : cfg.maxBinom ≤ 68) (a : RSpline K V) (b : Spline W) (da db : List ℕ)
    (ha : HasRShape da a) (hb : HasShape db b) (hdim : da.length = Coords.n K W) (hf : ComposeFits cfg da db) :
    (Spline.fitsIntoUnitCube K b = .ok false ∧ a.compose cfg b = .error .throws) ∨
      Spline.fitsIntoUnitCube K b = .ok true ∧ RReturns (db.map (fun q => da.sum * q)) (a.compose cfg b) :=
  RSpline.compose_shape cfg hmax ha hb hdim hf

/-- C81. Composition of a polynomial spline with a rational one: it divides by zero if some weight compares equal to zero; otherwise
the outcome is that of the unit cube check. -/
theorem C81_compose_rational [BEq K] [ScalarDiv K W] [Coords K W] (cfg : Cfg) (hmax : cfg.maxBinom ≤ 68) (a : Spline V) (b : RSpline K W)
    (da db : List ℕ) (ha : HasShape da a) (hb : HasRShape db b) (hdim : da.length = Coords.n K W) (hf : ComposeFits cfg da db) :
    ((∃ w ∈ b.wt.cps, (w == 0) = true) ∧ a.composeRational cfg b = .error .divZero) ∨
    (b.fitsIntoUnitCube = .ok false ∧ a.composeRational cfg b = .error .throws) ∨
    b.fitsIntoUnitCube = .ok true ∧ RReturns (db.map (fun q => da.sum * q)) (a.composeRational cfg b) :=
  RSpline.polyCompose_shape cfg hmax ha hb hdim hf

end

/-- C81. Composition of two rational splines always returns: it checks nothing. -/
theorem C81_compose_both [Coords K W] (cfg : Cfg) (hmax : cfg.maxBinom ≤ 68) (a : RSpline K V) (b : RSpline K W) (da db : List ℕ)
    (ha : HasRShape da a) (hb : HasRShape db b) (hdim : da.length = Coords.n K W) (hf : ComposeFits cfg da db) :
    RReturns (db.map (fun q => da.sum * q)) (a.composeRational cfg b) := RSpline.composeRational_returns cfg hmax ha hb hdim hf

end

section
variable {K : Type} {n : ℕ} [Zero K] [One K] [Add K] [Sub K] [Mul K] [Neg K] [Div K] [NatCast K] [LT K] [DecidableLT K] [BEq K]

/-- C81. A rational program whose degrees, dimensions and indices are in order returns a consistent rational spline with expected degrees,
or throws, or divides by a weight that compares equal to zero, whatever the numbers. -/
theorem C81_scalar_program (cfg : Cfg) (hmax : cfg.maxBinom ≤ 68) (σ : RVars K n) (D : RDegrees) (hD : D.Of σ) (e : RSExpr K n)
    (he : e.WellShaped cfg D) : ROutcome (e.shapes D) (e.run cfg σ) := RSExpr.run_outcome hmax hD e he

/-- C81 for point valued programs. -/
theorem C81_point_program (cfg : Cfg) (hmax : cfg.maxBinom ≤ 68) (σ : RVars K n) (D : RDegrees) (hD : D.Of σ) (e : RPExpr K n)
    (he : e.WellShaped cfg D) : ROutcome (e.shapes D) (e.run cfg σ) := RPExpr.run_outcome hmax hD e he

/-- C81. So no such program ever accesses memory outside of an array, fails an assertion, narrows or loops for ever. -/
theorem C81_no_undefined_behaviour (cfg : Cfg) (hmax : cfg.maxBinom ≤ 68) (σ : RVars K n) (D : RDegrees) (hD : D.Of σ) (e : RPExpr K n)
    (he : e.WellShaped cfg D) (err : Err) (h : e.run cfg σ = .error err) : err = .throws ∨ err = .divZero := by
  rcases C81_point_program cfg hmax σ D hD e he with h' | h' | ⟨_, _, r, h', -⟩
  · rw [h] at h'; exact .inl (Except.error.inj h')
  · rw [h] at h'; exact .inr (Except.error.inj h')
  · rw [h] at h'; cases h'

end

/-! ### Examples: numbers with a NaN -/

/-- a NaN equals nothing, not even itself -/
instance : BEq WithNaN := ⟨fun a b => a.val.isSome && a.val == b.val⟩

/-- rational surfaces with NaNs among control points and weights -/
def σRN : RVars WithNaN 2 where
  toVars := σN
  rs _ := ⟨σN.s 0, Ex.surf 1 1 1 .nan 0 1⟩
  rp _ := ⟨σN.p 0, Ex.surf 1 1 1 1 1 .nan⟩

def DRN : RDegrees := ⟨fun _ => [2, 1], fun _ => [2, 1], fun _ => [2, 1], fun _ => [2, 1]⟩

theorem DRN_of : DRN.Of σRN := ⟨fun _ => ⟨Ex.surf_wf .., rfl⟩, fun _ => ⟨Ex.surf_wf .., rfl⟩,
  fun _ => ⟨⟨Ex.surf_wf .., rfl⟩, Ex.surf_wf .., rfl⟩, fun _ => ⟨⟨Ex.surf_wf .., rfl⟩, Ex.surf_wf .., rfl⟩⟩

/-- composition with a rational inner spline, a split at a NaN and a difference -/
def progRN : RPExpr WithNaN 2 := .subAssign (.splitLeft (.polyCompose (.leaf 0) (.leaf 0)) .nan 0) (.leaf 0)

theorem progRN_wellShaped : progRN.WellShaped Ex.cfg DRN := by
  simp only [progRN, RPExpr.WellShaped, RPExpr.shapes, PExpr.WellShaped, PExpr.shape]
  refine ⟨⟨⟨trivial, trivial, rfl, ?_⟩, ?_⟩, trivial, ?_⟩
  · rintro q rfl
    exact ⟨by decide, by decide, by decide, by decide, by decide⟩
  · rintro p ⟨q, rfl, rfl⟩
    decide
  · rintro p ⟨q, rfl, rfl⟩ q rfl
    exact ⟨rfl, by decide, by decide, by decide, by decide⟩

example : ROutcome (progRN.shapes DRN) (progRN.run Ex.cfg σRN) := C81_point_program Ex.cfg Ex.cfg_ok σRN DRN DRN_of progRN progRN_wellShaped

/-- Derivatives of a rational surface with a NaN among the weights, at a NaN. -/
example : (∃ x, (σRN.rp 0).evaluateDerivative Ex.cfg [.nan, 1] [2, 3] = .ok x) ∨
    (σRN.rp 0).evaluateDerivative Ex.cfg [.nan, 1] [2, 3] = .error .divZero :=
  ((C81_evaluators Ex.cfg Ex.cfg_ok (σRN.rp 0) [2, 1] (DRN_of.rp 0) (by decide) [.nan, 1] rfl).2.2.2 [2, 3] rfl (by decide)
    (by unfold BinomFits; decide)).1

/-- With a NaN among the weights a spline's weight function does not compare equal to itself, so that a sum with itself adds degrees. -/
example : RReturns [4, 2] ((σRN.rs 0).addOp Ex.cfg (σRN.rs 0)) := by
  rcases C81_sum Ex.cfg Ex.cfg_ok (σRN.rs 0) (σRN.rs 0) [2, 1] [2, 1] (DRN_of.rs 0) (DRN_of.rs 0)
    ⟨rfl, by decide, by decide, by decide, by decide⟩ _ (.inl rfl) with ⟨h, -⟩ | ⟨-, h⟩
  · exact absurd h (by decide)
  · exact h

end Bezman.Props
