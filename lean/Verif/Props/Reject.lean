import Verif.Props.Rational
import Verif.Props.AlgoDiff
import Verif.Proofs.Reject

/-! # Property C75: what happens when a precondition is violated -/

namespace Bezman.Props
open Spec

/-- C75. A spline with a degree of at least `MAX_BINOMIAL_DEGREE` in some direction: the basis functions, their
derivatives and everything computed from them end in a failed assertion, whatever the other degrees are. -/
theorem C75_degree_limit {K V : Type} [CommRing K] [AddCommGroup V] [Module K V] (cfg : Cfg) (hc : cfg.maxBinom ≤ 68)
    (s : Spline V) (t : List K) (ht : t.length = s.degrees.length) (k : List ℕ) (hk : k.length = s.degrees.length)
    (hd : ∃ p ∈ s.degrees, cfg.maxBinom ≤ p) :
    s.basisFunctionContributions cfg t = .error .assertFail ∧
    s.basisFunctions cfg t = .error .assertFail ∧
    s.forwardEvaluate cfg t = .error .assertFail ∧
    s.basisFunctionsDerivativeContributions cfg t k = .error .assertFail ∧
    s.basisFunctionsDerivatives cfg t k = .error .assertFail ∧
    s.evaluateDerivative cfg t k = .error .assertFail := by
  have h1 := Spline.contributions_assert hc ht hd
  have h2 := Spline.derivContributions_assert hc ht hk hd
  simp [Spline.basisFunctions, Spline.forwardEvaluate, Spline.basisFunctionsDerivatives, Spline.evaluateDerivative, h1, h2]

/-- C75. `Evaluate` has no such limit: it needs no binomial coefficients. -/
theorem C75_evaluate_no_limit {K V : Type} [CommRing K] [AddCommGroup V] [Module K V]
    (s : Spline V) (hs : s.WF) (t : List K) (ht : t.length = s.degrees.length) : s.evaluate t = .ok (s.value t) :=
  (Spline.WF.computes (K := K) hs).eval t ht

/-- C75. A product of splines whose degrees add up to `MAX_BINOMIAL_DEGREE` or more in some direction ends in a
failed assertion, for every kind of product and whether or not the factors are within the limit. -/
theorem C75_product_limit {K V W U : Type} [One K] [Mul K] [Div K] [NatCast K] [Zero U] [Add U] [SMul K U] (cfg : Cfg)
    (mul : V → W → U) (a : Spline V) (b : Spline W) (ha : 0 < a.degrees.length) (hdim : b.degrees.length = a.degrees.length)
    (h : ∃ d p q : ℕ, a.degrees[d]? = some p ∧ b.degrees[d]? = some q ∧ cfg.maxBinom ≤ p + q) :
    Spline.mulOp K cfg mul a b = .error .assertFail :=
  Spline.mulOp_assert cfg mul ha hdim h

/-- C75. The same for products of rational splines. -/
theorem C75_rational_product_limit {K V W U : Type} [Zero K] [One K] [Add K] [Mul K] [Div K] [NatCast K] [Zero U] [Add U]
    [SMul K U] (cfg : Cfg) (mul : V → W → U) (a : RSpline K V) (b : RSpline K W) (ha : 0 < a.num.degrees.length)
    (hdim : b.num.degrees.length = a.num.degrees.length)
    (h : ∃ d p q : ℕ, a.num.degrees[d]? = some p ∧ b.num.degrees[d]? = some q ∧ cfg.maxBinom ≤ p + q) :
    a.mulOp cfg mul b = .error .assertFail := by
  unfold RSpline.mulOp
  rw [Spline.mulOp_assert cfg mul ha hdim h]
  rfl

/-- C75. A constructor call succeeds exactly if the number of control points is the product of the numbers of
control points of all directions; otherwise an assertion fails. -/
theorem C75_construct {V : Type} (ds : List ℕ) (hds : 0 < ds.length) (points : List V) :
    ((∃ s, Spline.ofPoints ds points = .ok s) ↔ points.length = (ds.map (· + 1)).prod) ∧
    (points.length ≠ (ds.map (· + 1)).prod → Spline.ofPoints ds points = .error .assertFail) := by
  have e : size ds = (ds.map (· + 1)).prod := by
    induction ds with
    | nil => rfl
    | cons p ps ih =>
      rcases Nat.eq_zero_or_pos ps.length with h | h
      · rw [List.length_eq_zero_iff.mp h]; simp [size]
      · simp [size, ih h]
  rw [← e]
  refine ⟨⟨fun ⟨s, hs⟩ => ?_, fun h => ⟨_, (Spline.ofPoints_ok hds h).1⟩⟩, fun h => Spline.ofPoints_assert hds h⟩
  by_contra h
  rw [Spline.ofPoints_assert hds h] at hs
  cases hs

/-- C75. A rational spline can be made of a numerator and a weight function exactly if their degrees agree. -/
theorem C75_rational_construct {K V : Type} (n : Spline V) (w : Spline K) :
    ((∃ r, RSpline.ofSplines n w = .ok r) ↔ n.degrees = w.degrees) ∧
    (n.degrees ≠ w.degrees → RSpline.ofSplines n w = .error .assertFail) := by
  by_cases h : n.degrees = w.degrees <;> simp [RSpline.ofSplines, RSpline.compatible, assertM, h]

/-- C75. An active variable needs an index below the number of derivatives. -/
theorem C75_active_index (value : ℝ) (n i : ℕ) :
    ((∃ a, ADT.active value n i = .ok a) ↔ i < n) ∧ (n ≤ i → ADT.active value n i = .error .assertFail) := by
  by_cases h : i < n
  · have : ∃ a, ADT.active value n i = .ok a := by
      simp [ADT.active, ADT.const, ADT.setActive, assertM, h, wr]
    exact ⟨⟨fun _ => h, fun _ => this⟩, fun h' => absurd h' (by omega)⟩
  · have : ADT.active value n i = .error .assertFail := by
      simp [ADT.active, ADT.const, assertM, h]
    exact ⟨⟨fun ⟨a, e⟩ => (by rw [this] at e; nomatch e), fun h' => absurd h' h⟩, fun _ => this⟩

/-- C75. Dividing dual numbers by one with value zero is a division by zero, even if only derivatives are used
afterwards; the same for `c / b` and for division by the number zero. -/
theorem C75_dual_div_zero (a b : ADT ℝ) (h : b.d.length = a.d.length) (h0 : b.v = 0) (c : ℝ) :
    a.div b = .error .divZero ∧ a.divAssign b = .error .divZero ∧ ADT.scalarDiv c b = .error .divZero ∧
    a.divAssignScalar (0 : ℝ) = .error .divZero := by
  have e : a.divAssign b = .error .divZero := by
    simp [ADT.divAssign, assertM, h, h0, Scal.mul, Scal.baseDiv, Cmath.div]
  refine ⟨e, e, ?_, ?_⟩
  · simp [ADT.scalarDiv, h0, Scal.mul, Scal.div, Scal.neg, Cmath.div]
  · simp [ADT.divAssignScalar, Scal.div, Scal.baseDiv, Cmath.div]

/-- C75, the exception: the multi-index of `ControlPoint` is not checked. With too large an entry the call reads whatever
control point has that flat position, and is undefined behaviour if there is none. -/
theorem C75_index_unchecked {V : Type} (s : Spline V) (hs : s.WF) (idx : List ℕ) (hl : idx.length = s.degrees.length) :
    (∀ h : flatIndex s.degrees idx < s.cps.length, s.controlPoint idx = .ok (s.cps[flatIndex s.degrees idx]'h)) ∧
    (s.cps.length ≤ flatIndex s.degrees idx → s.controlPoint idx = .error .ub) := by
  unfold Spline.controlPoint
  rw [Spline.globalToLocal_ok hs hl]
  simp only [bind_ok]
  exact ⟨fun h => rd_getElem h, fun h => rd_ub h⟩

/-! Concrete cases. -/

/-- A surface of degrees (1, 30) with the default limit. -/
example (cps : List ℚ) : (⟨[1, 30], 62, [1, 2], cps⟩ : Spline ℚ).basisFunctions Ex.cfg [(1 : ℚ) / 2, 1 / 2] = .error .assertFail :=
  (C75_degree_limit Ex.cfg Ex.cfg_ok _ [(1 : ℚ) / 2, 1 / 2] rfl [0, 0] rfl ⟨30, by simp, le_rfl⟩).2.1

example (x y : List ℚ) : Spline.mulOp ℚ Ex.cfg (fun a b : ℚ => a * b) ⟨[2, 15], 48, [1, 3], x⟩ ⟨[3, 16], 68, [1, 4], y⟩
    = .error .assertFail :=
  C75_product_limit Ex.cfg _ _ _ (by simp) rfl ⟨1, 15, 16, rfl, rfl, by decide⟩

example : Spline.ofPoints [2, 1] [(1 : ℚ), 2, 3, 4, 5] = .error .assertFail :=
  (C75_construct [2, 1] (by simp) _).2 (by simp)

example : RSpline.ofSplines Ex.P Ex.B = .error .assertFail := (C75_rational_construct _ _).2 (by decide)

example : ADT.active (3 : ℝ) 2 2 = .error .assertFail := (C75_active_index 3 2 2).2 le_rfl

example : (⟨1, [2, 3]⟩ : ADT ℝ).div ⟨0, [1, 0]⟩ = .error .divZero := (C75_dual_div_zero ⟨1, [2, 3]⟩ ⟨0, [1, 0]⟩ rfl rfl 1).1

/-- `ControlPoint({4, 0})` of a spline of degrees (2, 1) is the control point (1, 1). -/
example : Ex.A.controlPoint [4, 0] = Ex.A.controlPoint [1, 1] ∧ ¬ ValidIdx Ex.A.degrees [4, 0] :=
  ⟨by rw [(C75_index_unchecked _ Ex.A_wf [4, 0] rfl).1 (by decide), (C75_index_unchecked _ Ex.A_wf [1, 1] rfl).1 (by decide)]; rfl,
    by unfold ValidIdx; simp [Ex.A, Ex.surf]⟩

example : Ex.A.controlPoint [0, 2] = .error .ub := (C75_index_unchecked _ Ex.A_wf [0, 2] rfl).2 (by decide)

end Bezman.Props
