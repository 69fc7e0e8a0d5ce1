import Verif.Proofs.ReleaseOnly
import Verif.Props.AnyArith
import Verif.Props.AnyArithRational
import Verif.Props.Consistent
import Verif.Props.AlgoDiff
import Verif.Props.Base64

/-! # Property C115: builds without assertions

`CMakeLists.txt:34-36` makes a debug build the default; `CMakeLists.txt:87-90` defines `NDEBUG` for the others, which removes every
`assert`.  All other properties are about debug builds.  This file compares the two: `XB .debug` is proved to be the debug model `X`,
and `XB .release` is the same code without the assertions.  Nothing is assumed about the arithmetic. -/

namespace Bezman.Props
open Spec

theorem agrees_ok {α : Type} {m m' : M α} (h : Agrees m m') {x : α} (hx : m = .ok x) : m' = .ok x := by
  rcases h with h | h
  · rw [← h, hx]
  · rw [hx] at h; cases h

theorem agrees_of_ne {α : Type} {m m' : M α} (h : Agrees m m') (hx : m ≠ .error .assertFail) : m' = m := by
  rcases h with h | h
  · exact h.symm
  · exact absurd h hx

/-! ### Programs -/

section
variable {K : Type} {n : ℕ} [Zero K] [One K] [Add K] [Sub K] [Mul K] [Neg K] [Div K] [NatCast K] [LT K] [DecidableLT K]

/-- C115. A program on polynomial splines, scalar valued: the release build returns the same spline or throws the same exception as the
debug build, unless the debug build fails an assertion. -/
theorem C115_scalar_program (cfg : Cfg) (σ : Vars K n) (e : SExpr K n) :
    e.runB .debug cfg σ = e.run cfg σ ∧ Agrees (e.run cfg σ) (e.runB .release cfg σ) :=
  ⟨SExpr.runB_debug cfg σ e, by have h := SExpr.runB_agrees cfg σ e; rwa [SExpr.runB_debug] at h⟩

/-- C115. The same for point valued programs. -/
theorem C115_point_program (cfg : Cfg) (σ : Vars K n) (e : PExpr K n) :
    e.runB .debug cfg σ = e.run cfg σ ∧ Agrees (e.run cfg σ) (e.runB .release cfg σ) :=
  ⟨PExpr.runB_debug cfg σ e, by have h := PExpr.runB_agrees cfg σ e; rwa [PExpr.runB_debug] at h⟩

/-- C115. Programs that respect the preconditions on degrees, dimensions and indices (C80) run identically in both builds, whatever the
numbers are: the same splines, the same exceptions. -/
theorem C115_wellshaped_program (cfg : Cfg) (hmax : cfg.maxBinom ≤ 68) (σ : Vars K n) (ds dp : ℕ → List ℕ)
    (hs : ∀ i, HasShape (ds i) (σ.s i)) (hp : ∀ i, HasShape (dp i) (σ.p i)) :
    (∀ e : SExpr K n, e.WellShaped cfg ds dp → e.runB .release cfg σ = e.run cfg σ) ∧
    ∀ e : PExpr K n, e.WellShaped cfg ds dp → e.runB .release cfg σ = e.run cfg σ := by
  constructor
  · intro e he
    refine agrees_of_ne (C115_scalar_program cfg σ e).2 fun hf => ?_
    rcases C80_scalar_program cfg hmax σ ds dp hs hp e he with h | ⟨_, h, -⟩ <;> rw [hf] at h <;> cases h
  · intro e he
    refine agrees_of_ne (C115_point_program cfg σ e).2 fun hf => ?_
    rcases C80_point_program cfg hmax σ ds dp hs hp e he with h | ⟨_, h, -⟩ <;> rw [hf] at h <;> cases h

variable [BEq K]

/-- C115. A program on rational splines, scalar valued. -/
theorem C115_rational_scalar_program (cfg : Cfg) (σ : RVars K n) (e : RSExpr K n) :
    e.runB .debug cfg σ = e.run cfg σ ∧ Agrees (e.run cfg σ) (e.runB .release cfg σ) :=
  ⟨RSExpr.runB_debug cfg σ e, by have h := RSExpr.runB_agrees cfg σ e; rwa [RSExpr.runB_debug] at h⟩

/-- C115. A program on rational splines, point valued. -/
theorem C115_rational_point_program (cfg : Cfg) (σ : RVars K n) (e : RPExpr K n) :
    e.runB .debug cfg σ = e.run cfg σ ∧ Agrees (e.run cfg σ) (e.runB .release cfg σ) :=
  ⟨RPExpr.runB_debug cfg σ e, by have h := RPExpr.runB_agrees cfg σ e; rwa [RPExpr.runB_debug] at h⟩

/-- C115. Rational programs that respect the preconditions on degrees, dimensions and indices (C81) run identically in both builds. -/
theorem C115_wellshaped_rational_program (cfg : Cfg) (hmax : cfg.maxBinom ≤ 68) (σ : RVars K n) (D : RDegrees) (hD : D.Of σ) :
    (∀ e : RSExpr K n, e.WellShaped cfg D → e.runB .release cfg σ = e.run cfg σ) ∧
    ∀ e : RPExpr K n, e.WellShaped cfg D → e.runB .release cfg σ = e.run cfg σ := by
  constructor
  · intro e he
    refine agrees_of_ne (C115_rational_scalar_program cfg σ e).2 fun hf => ?_
    rcases C81_scalar_program cfg hmax σ D hD e he with h | h | ⟨_, _, _, h, -⟩ <;> rw [hf] at h <;> cases h
  · intro e he
    refine agrees_of_ne (C115_rational_point_program cfg σ e).2 fun hf => ?_
    rcases C81_point_program cfg hmax σ D hD e he with h | h | ⟨_, _, _, h, -⟩ <;> rw [hf] at h <;> cases h

end

/-- a program with a composition, a product, a split at a NaN and a difference, run in a release build -/
example : progN.runB .release Ex.cfg σN = progN.run Ex.cfg σN :=
  (C115_wellshaped_program Ex.cfg Ex.cfg_ok σN _ _ (fun _ => ⟨Ex.surf_wf .., rfl⟩) (fun _ => ⟨Ex.surf_wf .., rfl⟩)).2 progN progN_wellShaped

/-! ### Evaluations -/

section
variable {K V : Type} [Zero K] [One K] [Add K] [Sub K] [Mul K] [Neg K] [NatCast K] [Zero V] [Add V] [SMul K V]

/-- C115. Evaluation functions of polynomial splines, for any object whatever. -/
theorem C115_evaluations (cfg : Cfg) (s : Spline V) (t : List K) (k : List ℕ) :
    Agrees (s.basisFunctionContributions cfg t) (s.basisFunctionContributionsB .release cfg t) ∧
    Agrees (s.basisFunctions cfg t) (s.basisFunctionsB .release cfg t) ∧
    Agrees (s.forwardEvaluate cfg t) (s.forwardEvaluateB .release cfg t) ∧
    Agrees (s.basisFunctionsDerivativeContributions cfg t k) (s.basisFunctionsDerivativeContributionsB .release cfg t k) ∧
    Agrees (s.basisFunctionsDerivatives cfg t k) (s.basisFunctionsDerivativesB .release cfg t k) ∧
    Agrees (s.evaluateDerivative cfg t k) (s.evaluateDerivativeB .release cfg t k) := by
  refine ⟨?_, ?_, ?_, ?_, ?_, ?_⟩
  · rw [← Spline.basisFunctionContributionsB_debug]; exact Spline.basisFunctionContributionsB_agrees cfg s t
  · rw [← Spline.basisFunctionsB_debug]; exact Spline.basisFunctionsB_agrees cfg s t
  · rw [← Spline.forwardEvaluateB_debug]; exact Spline.forwardEvaluateB_agrees cfg s t
  · rw [← Spline.basisFunctionsDerivativeContributionsB_debug]; exact Spline.basisFunctionsDerivativeContributionsB_agrees cfg s t k
  · rw [← Spline.basisFunctionsDerivativesB_debug]; exact Spline.basisFunctionsDerivativesB_agrees cfg s t k
  · rw [← Spline.evaluateDerivativeB_debug]; exact Spline.evaluateDerivativeB_agrees cfg s t k

variable [Div K] [BEq K] [Sub V]

/-- C115. Evaluation functions of rational splines, for any object whatever. -/
theorem C115_rational_evaluations (cfg : Cfg) (r : RSpline K V) (t : List K) (k : List ℕ) :
    Agrees (r.unweightedBasisFunctions cfg t) (r.unweightedBasisFunctionsB .release cfg t) ∧
    Agrees (r.basisFunctions cfg t) (r.basisFunctionsB .release cfg t) ∧
    Agrees (r.forwardEvaluate cfg t) (r.forwardEvaluateB .release cfg t) ∧
    Agrees (r.evaluateDerivative cfg t k) (r.evaluateDerivativeB .release cfg t k) ∧
    Agrees (r.basisFunctionsDerivatives cfg t k) (r.basisFunctionsDerivativesB .release cfg t k) := by
  refine ⟨?_, ?_, ?_, ?_, ?_⟩
  · rw [← RSpline.unweightedBasisFunctionsB_debug]; exact RSpline.unweightedBasisFunctionsB_agrees cfg r t
  · rw [← RSpline.basisFunctionsB_debug]; exact RSpline.basisFunctionsB_agrees cfg r t
  · rw [← RSpline.forwardEvaluateB_debug]; exact RSpline.forwardEvaluateB_agrees cfg r t
  · rw [← RSpline.evaluateDerivativeB_debug]; exact RSpline.evaluateDerivativeB_agrees cfg r t k
  · rw [← RSpline.basisFunctionsDerivativesB_debug]; exact RSpline.basisFunctionsDerivativesB_agrees cfg r t k
end

/-- C115. Base64 and automatic differentiation. -/
theorem C115_utilities (d L : ℕ) (s : List ℕ) {B : Type} [One B] [NatCast B] [Zero B] [Add B] [Sub B] [Mul B] [Neg B] [Cmath B]
    (x : List B) (e : DExpr B) :
    Agrees (Base64.decode L s) (Base64.decodeB .release L s) ∧ Agrees (Base64.decodePoints d L s) (Base64.decodePointsB .release d L s) ∧
    Agrees (e.run x) (e.runB .release x) := by
  refine ⟨?_, ?_, ?_⟩
  · rw [← Base64.decodeB_debug]; exact Base64.decodeB_agrees L s
  · rw [← Base64.decodePointsB_debug]; exact Base64.decodePointsB_agrees d L s
  · rw [← DExpr.runB_debug]; exact DExpr.runB_agrees x e

/-! ### Consistent objects: what a failed assertion turns into -/

/-- C115. The table of binomial coefficients has no entry for degrees of `MAX_BINOMIAL_DEGREE` or more: a release build reads behind it. -/
theorem C115_table (cfg : Cfg) (n i : ℕ) :
    (cfg.maxBinom ≤ n → choose cfg n i = .error .assertFail ∧ chooseB .release cfg n i = .error .ub) ∧
    (n < cfg.maxBinom → chooseB .release cfg n i = choose cfg n i) := by
  refine ⟨fun h => ⟨choose_assert h, chooseB_release h⟩, fun h => ?_⟩
  rcases chooseB_sou cfg n i with e | ⟨e, -⟩
  · rw [← e, chooseB_debug]
  · rw [chooseB_debug] at e
    simp only [choose, assertM_ok (b := decide (n < cfg.maxBinom)) (by simpa using h), bind_ok] at e
    by_cases h0 : 0 < cfg.maxBinom
    · obtain ⟨F, hF, -⟩ := binomTable_spec cfg.maxBinom h0
      rw [hF, bind_ok] at e
      unfold rd at e
      split at e <;> cases e
    · omega

section
variable {K V W U : Type} [Zero K] [One K] [Add K] [Sub K] [Mul K] [Neg K] [Div K] [NatCast K] [LT K] [DecidableLT K]
  [Zero V] [Add V] [Sub V] [Neg V] [SMul K V]

/-- C115. On consistent polynomial splines every operation has the same outcome in both builds, except that the release build accesses
memory outside of the table of binomial coefficients where the debug build stops: so a release build never returns a spline that the
debug build does not return. -/
theorem C115_operations (cfg : Cfg) (hmax : cfg.maxBinom ≤ 68) (h2 : 2 ≤ cfg.maxBinom) (n : ℕ) (hn : 0 < n) (a b : Spline V)
    (ha : Bookkeeping n a) (hb : Bookkeeping n b) :
    SameOrUndefined (Spline.addOp K cfg a b) (Spline.addOpB K .release cfg a b) ∧
    SameOrUndefined (Spline.subOp K cfg a b) (Spline.subOpB K .release cfg a b) ∧
    (∀ orders : List ℕ, SameOrUndefined (Spline.derivativeSpline K cfg a orders) (Spline.derivativeSplineB K .release cfg a orders)) ∧
    (∀ t : List K, SameOrUndefined (a.forwardEvaluate cfg t) (a.forwardEvaluateB .release cfg t) ∧
      SameOrUndefined (a.basisFunctions cfg t) (a.basisFunctionsB .release cfg t)) ∧
    (∀ [Coords K W] (i : Spline W) (m : ℕ), 0 < m → Bookkeeping m i → n = Coords.n K W →
      SameOrUndefined (Spline.compose K cfg a i) (Spline.composeB K .release cfg a i) ∧
      SameOrUndefined (Spline.composeSensitivity K cfg a i) (Spline.composeSensitivityB K .release cfg a i)) := by
  have ga := (good_iff hn).mpr ha
  have gb := (good_iff hn).mpr hb
  refine ⟨?_, ?_, fun orders => ?_, fun t => ⟨?_, ?_⟩, fun i m hm hi hd => ⟨?_, ?_⟩⟩
  · rw [← Spline.addOpB_debug]; exact Spline.addOpB_sou cfg ga gb
  · rw [← Spline.subOpB_debug]; exact Spline.subOpB_sou cfg ga.1
  · rw [← Spline.derivativeSplineB_debug]; exact Spline.derivativeSplineB_sou cfg a orders
  · rw [← Spline.forwardEvaluateB_debug]; exact Spline.forwardEvaluateB_sou cfg a t
  · rw [← Spline.basisFunctionsB_debug]; exact Spline.basisFunctionsB_sou cfg a t
  · rw [← Spline.composeB_debug]; exact Spline.composeB_sou hmax h2 ga.1 ((good_iff hm).mpr hi).1 (ga.2.trans hd)
  · rw [← Spline.composeSensitivityB_debug]; exact Spline.composeSensitivityB_sou cfg a i

/-- C115. Products and powers. -/
theorem C115_products [Zero U] [Add U] [SMul K U] (cfg : Cfg) (mul : V → W → U) (a : Spline V) (b : Spline W) (c : Spline K) (k : ℕ) :
    SameOrUndefined (Spline.mulOp K cfg mul a b) (Spline.mulOpB K .release cfg mul a b) ∧
    SameOrUndefined (Spline.raisePower cfg c k) (Spline.raisePowerB .release cfg c k) := by
  refine ⟨?_, ?_⟩
  · rw [← Spline.mulOpB_debug]; exact Spline.mulOpB_sou cfg mul a b
  · rw [← Spline.raisePowerB_debug]; exact Spline.raisePowerB_sou cfg c k

/-- C115. The same for rational splines. -/
theorem C115_rational_operations [BEq K] [Zero U] [Add U] [SMul K U] (cfg : Cfg) (hmax : cfg.maxBinom ≤ 68) (h2 : 2 ≤ cfg.maxBinom)
    (n : ℕ) (hn : 0 < n) (mul : V → W → U) (a b : RSpline K V) (c : RSpline K W) (ha : RBookkeeping n a) (hb : RBookkeeping n b)
    (hc : RBookkeeping n c) :
    (SameOrUndefined (a.addOp cfg b) (a.addOpB .release cfg b) ∧ SameOrUndefined (a.subOp cfg b) (a.subOpB .release cfg b) ∧
      SameOrUndefined (a.addAssign cfg b) (a.addAssignB .release cfg b) ∧
      SameOrUndefined (a.subAssign cfg b) (a.subAssignB .release cfg b)) ∧
    SameOrUndefined (a.mulOp cfg mul c) (a.mulOpB .release cfg mul c) ∧
    (∀ d : ℕ, SameOrUndefined (a.orderElevate d) (a.orderElevateB .release d)) ∧
    (∀ (z : K) (d : ℕ), SameOrUndefined (a.splitAt z d) (a.splitAtB .release z d)) ∧
    (∀ (zs : List K) (d : ℕ), SameOrUndefined (a.splitAtMany zs d) (a.splitAtManyB .release zs d)) ∧
    (∀ z : K, SameOrUndefined (a.smulOp z) (a.smulOpB .release z) ∧ SameOrUndefined (a.smulAssign z) (a.smulAssignB .release z)) ∧
    (∀ v : V, SameOrUndefined (a.addPoint v) (a.addPointB .release v) ∧ SameOrUndefined (a.addPointAssign v) (a.addPointAssignB .release v) ∧
      SameOrUndefined (a.subPoint v) (a.subPointB .release v)) ∧
    SameOrUndefined a.negOp (a.negOpB .release) ∧
    (∀ t : List K, SameOrUndefined (a.forwardEvaluate cfg t) (a.forwardEvaluateB .release cfg t) ∧
      SameOrUndefined (a.basisFunctions cfg t) (a.basisFunctionsB .release cfg t)) ∧
    (∀ [Coords K W] (i : Spline W) (m : ℕ), 0 < m → Bookkeeping m i → n = Coords.n K W →
      SameOrUndefined (a.compose cfg i) (a.composeB .release cfg i)) := by
  have ga := (rgood_iff hn).mpr ha
  have gb := (rgood_iff hn).mpr hb
  have gc := (rgood_iff hn).mpr hc
  refine ⟨⟨?_, ?_, ?_, ?_⟩, ?_, fun d => ?_, fun z d => ?_, fun zs d => ?_, fun z => ⟨?_, ?_⟩, fun v => ⟨?_, ?_, ?_⟩, ?_, fun t => ⟨?_, ?_⟩,
    fun i m hm hi hd => ?_⟩
  · rw [← RSpline.addOpB_debug]; exact RSpline.addOpB_sou hn ga gb
  · rw [← RSpline.subOpB_debug]; exact RSpline.subOpB_sou hn ga gb
  · rw [← RSpline.addAssignB_debug]; exact RSpline.addAssignB_sou hn ga gb
  · rw [← RSpline.subAssignB_debug]; exact RSpline.subAssignB_sou hn ga gb
  · rw [← RSpline.mulOpB_debug]; exact RSpline.mulOpB_sou hn ga gc
  · rw [← RSpline.orderElevateB_debug]; exact RSpline.orderElevateB_sou ga d
  · rw [← RSpline.splitAtB_debug]; exact RSpline.splitAtB_sou ga z d
  · rw [← RSpline.splitAtManyB_debug]; exact RSpline.splitAtManyB_sou ga zs d
  · rw [← RSpline.smulOpB_debug]; exact RSpline.smulOpB_sou ga z
  · rw [← RSpline.smulAssignB_debug]; exact RSpline.smulAssignB_sou ga z
  · rw [← RSpline.addPointB_debug]; exact RSpline.addPointB_sou ga v
  · rw [← RSpline.addPointAssignB_debug]; exact RSpline.addPointAssignB_sou ga v
  · rw [← RSpline.subPointB_debug]; exact RSpline.subPointB_sou ga v
  · rw [← RSpline.negOpB_debug]; exact RSpline.negOpB_sou ga
  · rw [← RSpline.forwardEvaluateB_debug]; exact RSpline.forwardEvaluateB_sou ga.2.2 t
  · rw [← RSpline.basisFunctionsB_debug]; exact RSpline.basisFunctionsB_sou ga.2.2 t
  · rw [← RSpline.composeB_debug]; exact RSpline.composeB_sou hmax h2 ga ((good_iff hm).mpr hi).1 hd

end

/-- C115. So on these calls a release build returns a value exactly if the debug build returns it. -/
theorem C115_returns {α : Type} {debug release : M α} (h : SameOrUndefined debug release) (x : α) :
    release = .ok x ↔ debug = .ok x := SameOrUndefined.returns h x

example (a b : ℚ) : SameOrUndefined (Spline.mulOp ℚ Ex.cfg (· * ·) (Ex.line a b) (Ex.line b a))
    (Spline.mulOpB ℚ .release Ex.cfg (· * ·) (Ex.line a b) (Ex.line b a)) :=
  (C115_products Ex.cfg (· * ·) (Ex.line a b) (Ex.line b a) (Ex.line a a) 2).1

/-- two quadratic curves whose product needs a larger table: the debug build stops, the release build reads behind the table -/
theorem C115_beyond_table : Spline.mulOp ℚ ⟨4, 10⟩ (· * ·) (Ex.curve 1 2 3) (Ex.curve 1 0 (1 : ℚ)) = .error .assertFail ∧
    Spline.mulOpB ℚ .release ⟨4, 10⟩ (· * ·) (Ex.curve 1 2 3) (Ex.curve 1 0 (1 : ℚ)) = .error .ub := by decide +kernel

/-! ### What only a release build computes -/

section
variable {K V : Type}

/-- C115. A release build accepts any number of control points.  Surplus points do not change the values of the spline; a spline with
points missing cannot be evaluated: the access behind its last point is undefined behaviour. -/
theorem C115_constructor [Zero K] [One K] [Add K] [Sub K] [Mul K] [Neg K] [NatCast K] [Div K] [Zero V] [Add V] [Sub V] [Neg V] [SMul K V] :
    (∀ (ds : List ℕ) (pts : List V), 0 < ds.length → pts.length ≠ size ds → Spline.ofPoints ds pts = .error .assertFail ∧
      ∃ s, Spline.ofPointsB .release ds pts = .ok s ∧ s.degrees = ds ∧ s.cps = pts) ∧
    (∀ (ds : List ℕ) (pts surplus : List V) (s s' : Spline V), 0 < ds.length → Spline.ofPoints ds pts = .ok s →
      Spline.ofPointsB .release ds (pts ++ surplus) = .ok s' → ∀ t : List K, t.length = ds.length → s'.evaluate t = s.evaluate t) ∧
    (∀ (ds : List ℕ) (pts : List V) (s : Spline V), 0 < ds.length → pts.length < size ds → Spline.ofPointsB .release ds pts = .ok s →
      ∀ t : List K, s.evaluate t = .error .ub) := by
  refine ⟨fun ds pts hd hp => ⟨?_, _, Spline.ofPointsB_release ds hd pts, rfl, rfl⟩, ?_, ?_⟩
  · unfold Spline.ofPoints
    rw [Spline.countCps_eq]
    simp only []
    rw [Spline.updateIndexOffsets_ok (by simp) hd, bind_ok]
    unfold assertM
    rw [if_neg (by simpa using fun h => hp h.symm)]
    rfl
  · intro ds pts surplus s s' hd hs hs' t ht
    have g := Spline.good_ofPoints hd hs
    rw [Spline.ofPointsB_release ds hd] at hs'
    injection hs' with hs'
    have e := agrees_ok (Spline.ofPointsB_debug ds pts ▸ Spline.ofPointsB_agrees ds pts) hs
    rw [Spline.ofPointsB_release ds hd] at e
    injection e with e
    obtain ⟨x, hx⟩ := Spline.evaluate_returns (K := K) (V := V) (ds := ds) ⟨g.1.1, g.2⟩ t ht
    rw [hx]
    subst e hs'
    exact Spline.evaluate_append hx
  · intro ds pts s hd hp hs t
    rw [Spline.ofPointsB_release ds hd] at hs
    injection hs with hs
    subst hs
    exact Spline.evaluate_missing ds pts hp t

/-- C115. The same for ForwardEvaluate: surplus points are ignored, missing points are undefined behaviour. -/
theorem C115_constructor_forward [Zero K] [One K] [Add K] [Sub K] [Mul K] [Neg K] [NatCast K] [Div K] [Zero V] [Add V] [Sub V] [Neg V] [SMul K V]
    (cfg : Cfg) (hmax : cfg.maxBinom ≤ 68) (ds : List ℕ) (hd : 0 < ds.length) (hdeg : ∀ p ∈ ds, p < cfg.maxBinom) (t : List K)
    (ht : t.length = ds.length) (pts : List V) (s : Spline V) :
    (pts.length < size ds → Spline.ofPointsB .release ds pts = .ok s → s.forwardEvaluateB .release cfg t = .error .ub) ∧
    ∀ (surplus : List V) (s' : Spline V), Spline.ofPoints ds pts = .ok s → Spline.ofPointsB .release ds (pts ++ surplus) = .ok s' →
      s'.forwardEvaluateB .release cfg t = s.forwardEvaluate cfg t := by
  obtain ⟨l, h1, h2⟩ := Spline.basisFunctions_returns (K := K) cfg hmax (a := (⟨ds, size ds, offsetsOf ds, List.replicate (size ds) 0⟩ : Spline V))
    ⟨⟨by simpa using hd, rfl, rfl, by simp⟩, rfl⟩ hdeg t ht
  have h3 : ∀ pts : List V, (⟨ds, size ds, offsetsOf ds, pts⟩ : Spline V).basisFunctions cfg t = .ok l := fun _ => h1
  have h4 : ∀ pts : List V, (⟨ds, size ds, offsetsOf ds, pts⟩ : Spline V).basisFunctionsB .release cfg t = .ok l := fun pts =>
    agrees_ok (Spline.basisFunctionsB_debug (K := K) cfg _ t ▸ Spline.basisFunctionsB_agrees cfg _ t) (h3 pts)
  constructor
  · intro hp hs
    rw [Spline.ofPointsB_release ds hd] at hs
    injection hs with hs
    subst hs
    unfold Spline.forwardEvaluateB
    rw [h4, bind_ok]
    exact Spline.weightedSum_missing _ _ (hp.trans_eq h2.symm)
  · intro surplus s' hs hs'
    have e := agrees_ok (Spline.ofPointsB_debug ds pts ▸ Spline.ofPointsB_agrees ds pts) hs
    rw [Spline.ofPointsB_release ds hd] at e hs'
    injection e with e
    injection hs' with hs'
    have g := (Spline.good_ofPoints hd hs).1.1
    subst e hs'
    unfold Spline.forwardEvaluateB Spline.forwardEvaluate
    rw [h4, h3, bind_ok, bind_ok]
    exact Spline.weightedSum_append _ _ _ (h2.trans g.cps_len.symm).le

/-- C115. A release build makes a rational spline of any numerator and any weight function, also of different degrees. -/
theorem C115_rational_constructor (a : Spline V) (b : Spline K) (h : a.degrees ≠ b.degrees) :
    RSpline.ofSplines a b = .error .assertFail ∧ RSpline.ofSplinesB .release a b = .ok ⟨a, b⟩ := by
  refine ⟨?_, rfl⟩
  unfold RSpline.ofSplines assertM
  rw [if_neg (by simpa [RSpline.compatible] using h)]
  rfl

/-- C115. Derivatives of Bernstein polynomials of a degree beyond the table: the debug build stops although only coefficients of lower
degree are needed; the release build returns what a debug build with a larger table returns. -/
theorem C115_bernstein_derivative [Zero K] [One K] [Add K] [Sub K] [Mul K] [Neg K] [NatCast K] (cfg cfg' : Cfg) (hc : cfg.maxBinom ≤ 68)
    (hc' : cfg'.maxBinom ≤ 68) (p k : ℕ) (hp : cfg.maxBinom ≤ p) (hp' : p < cfg'.maxBinom) (hk : 1 ≤ k)
    (hkc : k < cfg.maxBinom ∨ p < k) (hpk : p - k < cfg.maxBinom) (x : K) :
    bernsteinEvaluateDerivative cfg p x k = .error .assertFail ∧
    bernsteinEvaluateDerivativeB .release cfg p x k = bernsteinEvaluateDerivative cfg' p x k :=
  ⟨by simp [bernsteinEvaluateDerivative, assertM, Nat.not_lt.mpr hp], bernsteinEvaluateDerivativeB_larger hc hc' hk hkc hpk hp' x⟩

end

example (x : ℚ) : bernsteinEvaluateDerivative ⟨4, 10⟩ 5 x 2 = .error .assertFail ∧
    bernsteinEvaluateDerivativeB .release ⟨4, 10⟩ 5 x 2 = bernsteinEvaluateDerivative ⟨30, 10⟩ 5 x 2 :=
  C115_bernstein_derivative ⟨4, 10⟩ ⟨30, 10⟩ (by decide) (by decide) 5 2 (by decide) (by decide) (by decide) (by decide) (by decide) x

example : Spline.ofPoints [2] [(1 : ℚ), 2, 3, 4] = .error .assertFail :=
  ((C115_constructor (K := ℚ) (V := ℚ)).1 [2] [1, 2, 3, 4] (by decide) (by decide)).1
/-- a bilinear surface with three points, and with five -/
example (s s' s'' : Spline ℚ) (h : Spline.ofPointsB .release [1, 1] [(1 : ℚ), 2, 3] = .ok s) (h' : Spline.ofPoints [1, 1] [(1 : ℚ), 2, 3, 5] = .ok s')
    (h'' : Spline.ofPointsB .release [1, 1] [(1 : ℚ), 2, 3, 5, 8] = .ok s'') :
    s.forwardEvaluateB .release ⟨4, 10⟩ [(1 / 2 : ℚ), 1 / 3] = .error .ub ∧
    s''.forwardEvaluateB .release ⟨4, 10⟩ [(1 / 2 : ℚ), 1 / 3] = s'.forwardEvaluate ⟨4, 10⟩ [(1 / 2 : ℚ), 1 / 3] :=
  ⟨(C115_constructor_forward (K := ℚ) (V := ℚ) ⟨4, 10⟩ (by decide) [1, 1] (by decide) (by decide) _ rfl [1, 2, 3] s).1 (by decide) h,
    (C115_constructor_forward (K := ℚ) (V := ℚ) ⟨4, 10⟩ (by decide) [1, 1] (by decide) (by decide) _ rfl [1, 2, 3, 5] s').2 [8] s'' h' h''⟩
/-- a bilinear surface with three points -/
example (s : Spline ℚ) (h : Spline.ofPointsB .release [1, 1] [(1 : ℚ), 2, 3] = .ok s) (t : List ℚ) : s.evaluate t = .error .ub :=
  (C115_constructor (K := ℚ) (V := ℚ)).2.2 [1, 1] [1, 2, 3] s (by decide) (by decide) h t

/-- C115. Automatic differentiation with different numbers of derivatives: a release build ignores surplus derivatives of the right
operand and reads behind its last derivative if there are fewer. -/
theorem C115_dual_sum (a b : ADT ℝ) :
    (a.d.length < b.d.length → a.add b = .error .assertFail ∧ a.addB .release b = a.add ⟨b.v, b.d.take a.d.length⟩) ∧
    (b.d.length < a.d.length → a.add b = .error .assertFail ∧ a.addB .release b = .error .ub) := by
  have hf : b.d.length ≠ a.d.length → a.add b = .error .assertFail := by
    intro h
    unfold ADT.add ADT.addAssign assertM
    rw [if_neg (by simpa using h)]
    rfl
  refine ⟨fun h => ⟨hf (by omega), ?_⟩, fun h => ⟨hf (by omega), ?_⟩⟩
  · unfold ADT.addB ADT.addAssignB ADT.add ADT.addAssign
    rw [assertM_ok (by simp; omega), ADT.zipD_take _ _ _ h.le]
    rfl
  · unfold ADT.addB ADT.addAssignB
    rw [ADT.zipD_missing (Scal.add (K := ℝ)) (fun x y => ⟨_, rfl⟩) _ _ h]
    rfl

/-- C115. Base64: a release build ignores up to three characters behind the last group of four. -/
theorem C115_base64 (L : ℕ) (s x : List ℕ) (hs : s.length % 4 = 0) (hx : x ≠ []) (hx4 : x.length < 4) :
    Base64.decode L (s ++ x) = .error .assertFail ∧ Base64.decodeB .release L (s ++ x) = Base64.decode L s := by
  have h0 : x.length ≠ 0 := fun h => hx (List.length_eq_zero_iff.mp h)
  exact ⟨C51_length L _ (by rw [List.length_append]; omega), Base64.decodeB_release L s x hs hx4⟩

/-- C115. Base64 for points: a release build ignores coordinates behind the last point. -/
theorem C115_base64_points (d L : ℕ) (hd : 0 < d) (s : List ℕ) (w : List (List ℕ)) (hw : Base64.decode L s = .ok w) (hr : w.length % d ≠ 0) :
    Base64.decodePoints d L s = .error .assertFail ∧
    ∃ pts, Base64.decodePointsB .release d L s = .ok pts ∧ (∀ p ∈ pts, p.length = d) ∧ pts.flatten = w.take (w.length / d * d) := by
  refine ⟨(C52_rejects d L hd s w hw).1 hr, _, Base64.decodePointsB_release hd (agrees_ok (C115_utilities d L s ([] : List ℝ) (.var 0)).1 hw), ?_, ?_⟩
  · intro p hp
    obtain ⟨j, _, rfl⟩ := List.mem_map.mp hp
    simp
  · rw [Base64.flatten_tab]
    symm
    have hle : w.length / d * d ≤ w.length := Nat.div_mul_le_self _ _
    apply eq_tab_of _ (by simp; omega)
    intro i hi
    have hi' : i < w.length := by omega
    rw [Nat.div_add_mod', List.getD_eq_getElem?_getD, List.getElem?_eq_getElem hi', List.getElem?_take_of_lt hi, List.getElem?_eq_getElem hi']
    rfl

/-- three coordinates of a byte each, read as points in the plane: the third coordinate is ignored -/
example : Base64.decode 1 (rfc4648 [1, 2, 3]) = .ok [[1], [2], [3]] ∧
    Base64.decodePointsB .release 2 1 (rfc4648 [1, 2, 3]) = .ok [[[1], [2]]] := by decide +kernel

example : (⟨1, [2]⟩ : ADT ℝ).addB .release ⟨3, []⟩ = .error .ub := ((C115_dual_sum ⟨1, [2]⟩ ⟨3, []⟩).2 (by decide)).2

end Bezman.Props
