import Verif.Proofs.Parameter
import Verif.Proofs.ParamREval
import Verif.Props.ScalarMap
import Verif.Props.Rational
import Verif.Props.RExpr
import Mathlib.Analysis.Calculus.FDeriv.Congr

/-! # Properties: derivatives of whole computations with `AlgoDiffType`

The inputs of a computation depend on a parameter `y : E`.  Once the computation is done at a parameter value `x` with plain numbers, and
once with `AlgoDiffType` objects that carry value and derivatives of each input at `x`. -/

namespace Bezman.Props
open Spec Fn
variable {E : Type} [NormedAddCommGroup E] [NormedSpace ℝ E] {n m : ℕ}

/-- C83. If a program returns a spline at the parameter value `x`, then its result at the other parameter values `y` is given by one
spline whose control points are functions of `y`, differentiable at `x` - unless it throws because an inner spline leaves the unit cube
or a split plane is out of order - and the program with `AlgoDiffType` numbers returns the values and derivatives of these functions. -/
theorem C83_scalar_program (cfg : Cfg) (u : Fin m → E) (x : E) (σ : Vars (E → ℝ) n) (hσ : SmoothVars x σ) (e : SExpr (E → ℝ) n)
    (he : e.Constants (SmoothConstant x) (SmoothPlanes x)) (r : Spline ℝ) (hr : (e.map (· x)).run cfg (σ.map (· x)) = .ok r) :
    ∃ s : Spline (E → ℝ), r = s.map (· x) ∧ (∀ c ∈ s.cps, DifferentiableAt ℝ c x) ∧
      (e.map (jet u x)).run cfg (σ.map (jet u x)) = .ok (s.map (jet u x)) ∧
      ∀ y, (e.map (· y)).run cfg (σ.map (· y)) = .ok (s.map (· y)) ∨ (e.map (· y)).run cfg (σ.map (· y)) = .error .throws := by
  have hx := C82_scalar_program (K := Fn x) cfg Fn.arith σ e
  replace hx := Eq.trans hr.symm hx
  cases hs : SExpr.run (K := Fn x) cfg σ e with
  | error err => rw [hs] at hx; cases hx
  | ok s =>
    rw [hs] at hx
    obtain ⟨h1, h2⟩ := jetS u cfg hσ he hs
    exact ⟨s, by cases hx; rfl, h2, h1, atS cfg hs⟩

/-- C83. Programs with point valued results. -/
theorem C83_point_program (cfg : Cfg) (u : Fin m → E) (x : E) (σ : Vars (E → ℝ) n) (hσ : SmoothVars x σ) (e : PExpr (E → ℝ) n)
    (he : e.Constants (SmoothConstant x) (SmoothPlanes x)) (r : Spline (Point ℝ n)) (hr : (e.map (· x)).run cfg (σ.map (· x)) = .ok r) :
    ∃ s : Spline (Point (E → ℝ) n), r = s.map (Point.map (· x)) ∧ (∀ c ∈ s.cps, ∀ k, DifferentiableAt ℝ (c.val k) x) ∧
      (e.map (jet u x)).run cfg (σ.map (jet u x)) = .ok (s.map (Point.map (jet u x))) ∧
      ∀ y, (e.map (· y)).run cfg (σ.map (· y)) = .ok (s.map (Point.map (· y))) ∨
        (e.map (· y)).run cfg (σ.map (· y)) = .error .throws := by
  have hx := C82_point_program (K := Fn x) cfg Fn.arith σ e
  replace hx := Eq.trans hr.symm hx
  cases hs : PExpr.run (K := Fn x) cfg σ e with
  | error err => rw [hs] at hx; cases hx
  | ok s =>
    rw [hs] at hx
    obtain ⟨h1, h2⟩ := jetP u cfg hσ he hs
    exact ⟨s, by cases hx; rfl, h2, h1, atP cfg hs⟩

/-- C83 for rational programs: control points and weights.  Sums and differences compare weight functions, and the derivatives hold
only for those `y` for which these comparisons come out as they do at `x`. -/
theorem C83_rational_scalar_program_partial (cfg : Cfg) (u : Fin m → E) (x : E) (σ : RVars (E → ℝ) n) (hσ : SmoothRVars x σ)
    (e : RSExpr (E → ℝ) n) (he : e.Constants (SmoothConstant x) (SmoothPlanes x)) (r : RSpline ℝ ℝ)
    (hr : (e.map (· x)).run cfg (σ.map (· x)) = .ok r) :
    ∃ s : RSpline (E → ℝ) (E → ℝ), r = s.map (· x) (· x) ∧ (∀ c ∈ s.num.cps, DifferentiableAt ℝ c x) ∧
      (∀ c ∈ s.wt.cps, DifferentiableAt ℝ c x) ∧
      (e.map (jet u x)).run cfg (σ.map (jet u x)) = .ok (s.map (jet u x) (jet u x)) ∧
      ∀ y, e.SumsAgree cfg σ (· x) (· y) →
        (e.map (· y)).run cfg (σ.map (· y)) = .ok (s.map (· y) (· y)) ∨ (e.map (· y)).run cfg (σ.map (· y)) = .error .throws ∨
        (e.map (· y)).run cfg (σ.map (· y)) = .error .divZero := by
  have hx := C82_rational_scalar_program (K := Fn x) cfg Fn.arith σ e
  replace hx := Eq.trans hr.symm hx
  cases hs : RSExpr.run (K := Fn x) cfg σ e with
  | error err => rw [hs] at hx; cases hx
  | ok s =>
    rw [hs] at hx
    obtain ⟨h1, h2, h3⟩ := jetRS u cfg hσ he hs
    exact ⟨s, by cases hx; rfl, h2, h3, h1, atRS cfg hs⟩

/-- C83 for rational programs with point valued results. -/
theorem C83_rational_point_program_partial (cfg : Cfg) (u : Fin m → E) (x : E) (σ : RVars (E → ℝ) n) (hσ : SmoothRVars x σ)
    (e : RPExpr (E → ℝ) n) (he : e.Constants (SmoothConstant x) (SmoothPlanes x)) (r : RSpline ℝ (Point ℝ n))
    (hr : (e.map (· x)).run cfg (σ.map (· x)) = .ok r) :
    ∃ s : RSpline (E → ℝ) (Point (E → ℝ) n), r = s.map (· x) (Point.map (· x)) ∧
      (∀ c ∈ s.num.cps, ∀ k, DifferentiableAt ℝ (c.val k) x) ∧ (∀ c ∈ s.wt.cps, DifferentiableAt ℝ c x) ∧
      (e.map (jet u x)).run cfg (σ.map (jet u x)) = .ok (s.map (jet u x) (Point.map (jet u x))) ∧
      ∀ y, e.SumsAgree cfg σ (· x) (· y) →
        (e.map (· y)).run cfg (σ.map (· y)) = .ok (s.map (· y) (Point.map (· y))) ∨
        (e.map (· y)).run cfg (σ.map (· y)) = .error .throws ∨ (e.map (· y)).run cfg (σ.map (· y)) = .error .divZero := by
  have hx := C82_rational_point_program (K := Fn x) cfg Fn.arith σ e
  replace hx := Eq.trans hr.symm hx
  cases hs : RPExpr.run (K := Fn x) cfg σ e with
  | error err => rw [hs] at hx; cases hx
  | ok s =>
    rw [hs] at hx
    obtain ⟨h1, h2, h3⟩ := jetRP u cfg hσ he hs
    exact ⟨s, by cases hx; rfl, h2, h3, h1, atRP cfg hs⟩

/-- C83, as a statement about the control points of the results: if the program returns `R y` at all parameter values `y` near `x`, then
the control points of `R y` are differentiable functions of `y`, and the control points returned by the program with `AlgoDiffType`
numbers are their values and derivatives. -/
theorem C83_derivatives (cfg : Cfg) (u : Fin m → E) (x : E) (σ : Vars (E → ℝ) n) (hσ : SmoothVars x σ) (e : SExpr (E → ℝ) n)
    (he : e.Constants (SmoothConstant x) (SmoothPlanes x)) (R : E → Spline ℝ)
    (hR : ∀ᶠ y in nhds x, (e.map (· y)).run cfg (σ.map (· y)) = .ok (R y)) :
    ∃ S : Spline (Dual ℝ m), (e.map (jet u x)).run cfg (σ.map (jet u x)) = .ok S ∧ S.degrees = (R x).degrees ∧
      S.cps.length = (R x).cps.length ∧ ∀ i (h : i < S.cps.length), DifferentiableAt ℝ (fun y => (R y).cps.getD i 0) x ∧
        S.cps[i] = jet u x fun y => (R y).cps.getD i 0 := by
  obtain ⟨s, h1, h2, h3, h4⟩ := C83_scalar_program cfg u x σ hσ e he _ hR.self_of_nhds
  refine ⟨_, h3, by rw [h1]; rfl, by rw [h1]; simp [Spline.map], fun i hi => ?_⟩
  have hi' : i < s.cps.length := by simpa [Spline.map] using hi
  have key : (fun y => (R y).cps.getD i 0) =ᶠ[nhds x] s.cps[i] := by
    filter_upwards [hR] with y hy
    have := (h4 y).resolve_right (by rw [hy]; exact fun h => by cases h)
    rw [hy] at this
    injection this with this
    simp [this, Spline.map, List.getD_eq_getElem?_getD, hi']
  have hd := h2 _ (List.getElem_mem hi')
  refine ⟨hd.congr_of_eventuallyEq key, ?_⟩
  simp only [Spline.map, List.getElem_map, jet, key.eq_of_nhds, key.fderiv_eq]

/-- C83, as a statement about the control points of point valued results. -/
theorem C83_point_derivatives (cfg : Cfg) (u : Fin m → E) (x : E) (σ : Vars (E → ℝ) n) (hσ : SmoothVars x σ) (e : PExpr (E → ℝ) n)
    (he : e.Constants (SmoothConstant x) (SmoothPlanes x)) (R : E → Spline (Point ℝ n))
    (hR : ∀ᶠ y in nhds x, (e.map (· y)).run cfg (σ.map (· y)) = .ok (R y)) :
    ∃ S : Spline (Point (Dual ℝ m) n), (e.map (jet u x)).run cfg (σ.map (jet u x)) = .ok S ∧ S.degrees = (R x).degrees ∧
      S.cps.length = (R x).cps.length ∧ ∀ i (h : i < S.cps.length) k, DifferentiableAt ℝ (fun y => ((R y).cps.getD i 0).val k) x ∧
        S.cps[i].val k = jet u x fun y => ((R y).cps.getD i 0).val k := by
  obtain ⟨s, h1, h2, h3, h4⟩ := C83_point_program cfg u x σ hσ e he _ hR.self_of_nhds
  refine ⟨_, h3, by rw [h1]; rfl, by rw [h1]; simp [Spline.map], fun i hi k => ?_⟩
  have hi' : i < s.cps.length := by simpa [Spline.map] using hi
  have key : (fun y => ((R y).cps.getD i 0).val k) =ᶠ[nhds x] s.cps[i].val k := by
    filter_upwards [hR] with y hy
    have := (h4 y).resolve_right (by rw [hy]; exact fun h => by cases h)
    rw [hy] at this
    injection this with this
    simp [this, Spline.map, List.getD_eq_getElem?_getD, hi', Point.map]
  have hd := h2 _ (List.getElem_mem hi') k
  refine ⟨hd.congr_of_eventuallyEq key, ?_⟩
  simp only [Spline.map, List.getElem_map, Point.map, jet, key.eq_of_nhds, key.fderiv_eq]

/-! ## Evaluation -/

/-- C83. Evaluation at parameters that may depend on `y` too: all evaluators follow derivatives. -/
theorem C83_evaluate (cfg : Cfg) (u : Fin m → E) (x : E) (s : Spline (E → ℝ)) (hs : ∀ c ∈ s.cps, DifferentiableAt ℝ c x)
    (t : List (E → ℝ)) (ht : ∀ a ∈ t, DifferentiableAt ℝ a x) (k : List ℕ) :
    ((∃ v, (s.map (· x)).evaluate (t.map (· x)) = .ok v) →
      Follows u x (fun y => (s.map (· y)).evaluate (t.map (· y))) ((s.map (jet u x)).evaluate (t.map (jet u x)))) ∧
    ((∃ v, (s.map (· x)).forwardEvaluate cfg (t.map (· x)) = .ok v) →
      Follows u x (fun y => (s.map (· y)).forwardEvaluate cfg (t.map (· y))) ((s.map (jet u x)).forwardEvaluate cfg (t.map (jet u x)))) ∧
    ((∃ v, (s.map (· x)).evaluateDerivative cfg (t.map (· x)) k = .ok v) →
      Follows u x (fun y => (s.map (· y)).evaluateDerivative cfg (t.map (· y)) k)
        ((s.map (jet u x)).evaluateDerivative cfg (t.map (jet u x)) k)) ∧
    ((∃ v, (s.map (· x)).basisFunctions cfg (t.map (· x)) = .ok v) →
      FollowsList u x (fun y => (s.map (· y)).basisFunctions cfg (t.map (· y))) ((s.map (jet u x)).basisFunctions cfg (t.map (jet u x)))) ∧
    ((∃ v, (s.map (· x)).basisFunctionsDerivatives cfg (t.map (· x)) k = .ok v) →
      FollowsList u x (fun y => (s.map (· y)).basisFunctionsDerivatives cfg (t.map (· y)) k)
        ((s.map (jet u x)).basisFunctionsDerivatives cfg (t.map (jet u x)) k)) := by
  let s' : Spline (Fn x) := s
  let t' : List (Fn x) := t
  have i1 := parScalarJet (x := x) u
  have i2 := fun y => parScalarAt (x := x) y
  have hs1 : letI := parJet (x := x) u; s' ≋ s'.map (jt u) := @spline_map_rel _ _ (parJet (x := x) u) _ _ fun c hc => ⟨hs c hc, rfl⟩
  have hs2 : ∀ y, letI := parMap (at' (x := x) y); s' ≋ s'.map (at' y) :=
    fun y => @spline_map_rel _ _ (parMap (at' (x := x) y)) _ _ fun c hc => rfl
  have ht1 : letI := parJet (x := x) u; t' ≋ t'.map (jt u) := by
    let _ := parJet (x := x) u
    show List.Forall₂ _ _ (List.map _ _)
    rw [List.forall₂_map_right_iff]
    exact List.forall₂_same.2 fun c hc => ⟨ht c hc, rfl⟩
  have ht2 : ∀ y, letI := parMap (at' (x := x) y); t' ≋ t'.map (at' y) := by
    intro y
    let _ := parMap (at' (x := x) y)
    show List.Forall₂ _ _ (List.map _ _)
    rw [List.forall₂_map_right_iff]
    exact List.forall₂_same.2 fun c hc => rfl
  refine ⟨?_, ?_, ?_, ?_, ?_⟩ <;> rintro ⟨v, hv⟩
  · exact tracks u (letI := parJet (x := x) u; Spline.parEvaluate hs1 ht1)
      (fun y => letI := parMap (at' (x := x) y); haveI := i2 y; Spline.parEvaluate (hs2 y) (ht2 y)) hv
  · exact tracks u (letI := parJet (x := x) u; Spline.parForwardEvaluate cfg hs1 ht1)
      (fun y => letI := parMap (at' (x := x) y); haveI := i2 y; Spline.parForwardEvaluate cfg (hs2 y) (ht2 y)) hv
  · exact tracks u (letI := parJet (x := x) u; Spline.parEvaluateDerivative cfg hs1 ht1 k)
      (fun y => letI := parMap (at' (x := x) y); haveI := i2 y; Spline.parEvaluateDerivative cfg (hs2 y) (ht2 y) k) hv
  · exact tracksList u (letI := parJet (x := x) u; Spline.parBasisFunctions cfg hs1 ht1)
      (fun y => letI := parMap (at' (x := x) y); haveI := i2 y; Spline.parBasisFunctions cfg (hs2 y) (ht2 y)) hv
  · exact tracksList u (letI := parJet (x := x) u; Spline.parBasisFunctionsDerivatives cfg hs1 ht1 k)
      (fun y => letI := parMap (at' (x := x) y); haveI := i2 y; Spline.parBasisFunctionsDerivatives cfg (hs2 y) (ht2 y) k) hv

/-- C83. Evaluation of splines with points. -/
theorem C83_point_evaluate (cfg : Cfg) (u : Fin m → E) (x : E) (s : Spline (Point (E → ℝ) n))
    (hs : ∀ c ∈ s.cps, ∀ i, DifferentiableAt ℝ (c.val i) x) (t : List (E → ℝ)) (ht : ∀ a ∈ t, DifferentiableAt ℝ a x) (k : List ℕ) :
    ((∃ v, (s.map (Point.map (· x))).evaluate (t.map (· x)) = .ok v) →
      FollowsPoint u x (fun y => (s.map (Point.map (· y))).evaluate (t.map (· y)))
        ((s.map (Point.map (jet u x))).evaluate (t.map (jet u x)))) ∧
    ((∃ v, (s.map (Point.map (· x))).forwardEvaluate cfg (t.map (· x)) = .ok v) →
      FollowsPoint u x (fun y => (s.map (Point.map (· y))).forwardEvaluate cfg (t.map (· y)))
        ((s.map (Point.map (jet u x))).forwardEvaluate cfg (t.map (jet u x)))) ∧
    ((∃ v, (s.map (Point.map (· x))).evaluateDerivative cfg (t.map (· x)) k = .ok v) →
      FollowsPoint u x (fun y => (s.map (Point.map (· y))).evaluateDerivative cfg (t.map (· y)) k)
        ((s.map (Point.map (jet u x))).evaluateDerivative cfg (t.map (jet u x)) k)) := by
  let s' : Spline (Point (Fn x) n) := s
  let t' : List (Fn x) := t
  have i1 := parScalarJet (x := x) u
  have i2 := fun y => parScalarAt (x := x) y
  have hs1 : letI := parJet (x := x) u; s' ≋ s'.map (Point.map (jt u)) :=
    letI := parJet (x := x) u
    spline_map_rel fun c hc i => ⟨hs c hc i, rfl⟩
  have hs2 : ∀ y, letI := parMap (at' (x := x) y); s' ≋ s'.map (Point.map (at' y)) :=
    fun y => letI := parMap (at' (x := x) y); spline_map_rel fun c hc i => rfl
  have ht1 : letI := parJet (x := x) u; t' ≋ t'.map (jt u) := by
    let _ := parJet (x := x) u
    show List.Forall₂ _ _ (List.map _ _)
    rw [List.forall₂_map_right_iff]
    exact List.forall₂_same.2 fun c hc => ⟨ht c hc, rfl⟩
  have ht2 : ∀ y, letI := parMap (at' (x := x) y); t' ≋ t'.map (at' y) := by
    intro y
    let _ := parMap (at' (x := x) y)
    show List.Forall₂ _ _ (List.map _ _)
    rw [List.forall₂_map_right_iff]
    exact List.forall₂_same.2 fun c hc => rfl
  refine ⟨?_, ?_, ?_⟩ <;> rintro ⟨v, hv⟩
  · exact tracksPoint u (letI := parJet (x := x) u; Spline.parEvaluate hs1 ht1)
      (fun y => letI := parMap (at' (x := x) y); haveI := i2 y; Spline.parEvaluate (hs2 y) (ht2 y)) hv
  · exact tracksPoint u (letI := parJet (x := x) u; Spline.parForwardEvaluate cfg hs1 ht1)
      (fun y => letI := parMap (at' (x := x) y); haveI := i2 y; Spline.parForwardEvaluate cfg (hs2 y) (ht2 y)) hv
  · exact tracksPoint u (letI := parJet (x := x) u; Spline.parEvaluateDerivative cfg hs1 ht1 k)
      (fun y => letI := parMap (at' (x := x) y); haveI := i2 y; Spline.parEvaluateDerivative cfg (hs2 y) (ht2 y) k) hv

/-- C83. Evaluation of rational splines: values, control points, derivatives and basis functions. -/
theorem C83_rational_evaluate (cfg : Cfg) (u : Fin m → E) (x : E) (r : RSpline (E → ℝ) (E → ℝ))
    (hn : ∀ c ∈ r.num.cps, DifferentiableAt ℝ c x) (hw : ∀ c ∈ r.wt.cps, DifferentiableAt ℝ c x)
    (t : List (E → ℝ)) (ht : ∀ a ∈ t, DifferentiableAt ℝ a x) (k idx : List ℕ) :
    ((∃ v, (r.map (· x) (· x)).evaluate (t.map (· x)) = .ok v) →
      FollowsQuotient u x (fun y => (r.map (· y) (· y)).evaluate (t.map (· y)))
        ((r.map (jet u x) (jet u x)).evaluate (t.map (jet u x)))) ∧
    ((∃ v, (r.map (· x) (· x)).controlPoint idx = .ok v) →
      FollowsQuotient u x (fun y => (r.map (· y) (· y)).controlPoint idx)
        ((r.map (jet u x) (jet u x)).controlPoint idx)) ∧
    ((∃ v, (r.map (· x) (· x)).forwardEvaluate cfg (t.map (· x)) = .ok v) →
      FollowsQuotient u x (fun y => (r.map (· y) (· y)).forwardEvaluate cfg (t.map (· y)))
        ((r.map (jet u x) (jet u x)).forwardEvaluate cfg (t.map (jet u x)))) ∧
    ((∃ v, (r.map (· x) (· x)).evaluateDerivative cfg (t.map (· x)) k = .ok v) →
      FollowsQuotient u x (fun y => (r.map (· y) (· y)).evaluateDerivative cfg (t.map (· y)) k)
        ((r.map (jet u x) (jet u x)).evaluateDerivative cfg (t.map (jet u x)) k)) ∧
    ((∃ v, (r.map (· x) (· x)).basisFunctions cfg (t.map (· x)) = .ok v) →
      FollowsQuotientList u x (fun y => (r.map (· y) (· y)).basisFunctions cfg (t.map (· y)))
        ((r.map (jet u x) (jet u x)).basisFunctions cfg (t.map (jet u x)))) ∧
    ((∃ v, (r.map (· x) (· x)).unweightedBasisFunctions cfg (t.map (· x)) = .ok v) →
      FollowsQuotientList u x (fun y => (r.map (· y) (· y)).unweightedBasisFunctions cfg (t.map (· y)))
        ((r.map (jet u x) (jet u x)).unweightedBasisFunctions cfg (t.map (jet u x)))) ∧
    ((∃ v, (r.map (· x) (· x)).basisFunctionsDerivatives cfg (t.map (· x)) k = .ok v) →
      FollowsQuotientList u x (fun y => (r.map (· y) (· y)).basisFunctionsDerivatives cfg (t.map (· y)) k)
        ((r.map (jet u x) (jet u x)).basisFunctionsDerivatives cfg (t.map (jet u x)) k)) := by
  let r' : RSpline (Fn x) (Fn x) := r
  let t' : List (Fn x) := t
  have i1 := parScalarJet (x := x) u
  have i2 := fun y => parScalarAt (x := x) y
  have j1 := parZeroJet (x := x) u
  have j2 := parDivJet (x := x) u
  have z : ∀ y, letI := parMap (at' (x := x) y); ParZero mayDivide (Fn x) ℝ := fun y => letI := parMap (at' (x := x) y); ⟨fun h => by cases h⟩
  have z' : letI := parMap (at' (x := x) x); ParZero strict (Fn x) ℝ := parZeroMap Fn.arith
  have d := fun y => parDivAt (x := x) y
  have hs1 : letI := parJet (x := x) u; r' ≋ r'.map (jt u) (jt u) :=
    letI := parJet (x := x) u
    ⟨spline_map_rel fun c hc => ⟨hn c hc, rfl⟩, spline_map_rel fun c hc => ⟨hw c hc, rfl⟩⟩
  have hs2 : ∀ y, letI := parMap (at' (x := x) y); r' ≋ r'.map (at' y) (at' y) :=
    fun y => letI := parMap (at' (x := x) y); ⟨spline_map_rel fun c hc => rfl, spline_map_rel fun c hc => rfl⟩
  have ht1 : letI := parJet (x := x) u; t' ≋ t'.map (jt u) := by
    let _ := parJet (x := x) u
    show List.Forall₂ _ _ (List.map _ _)
    rw [List.forall₂_map_right_iff]
    exact List.forall₂_same.2 fun c hc => ⟨ht c hc, rfl⟩
  have ht2 : ∀ y, letI := parMap (at' (x := x) y); t' ≋ t'.map (at' y) := by
    intro y
    let _ := parMap (at' (x := x) y)
    show List.Forall₂ _ _ (List.map _ _)
    rw [List.forall₂_map_right_iff]
    exact List.forall₂_same.2 fun c hc => rfl
  refine ⟨?_, ?_, ?_, ?_, ?_, ?_, ?_⟩ <;> rintro ⟨v, hv⟩
  · exact tracksQ u (letI := parJet (x := x) u; RSpline.parREvaluate hs1 ht1)
      (letI := parMap (at' (x := x) x); haveI := i2 x; haveI := d x; RSpline.parREvaluate (hs2 x) (ht2 x))
      (fun y => letI := parMap (at' (x := x) y); haveI := i2 y; haveI := z y; haveI := d y; RSpline.parREvaluate (hs2 y) (ht2 y)) hv
  · exact tracksQ u (letI := parJet (x := x) u; RSpline.parRControlPoint hs1 idx)
      (letI := parMap (at' (x := x) x); haveI := i2 x; haveI := d x; RSpline.parRControlPoint (hs2 x) idx)
      (fun y => letI := parMap (at' (x := x) y); haveI := i2 y; haveI := z y; haveI := d y; RSpline.parRControlPoint (hs2 y) idx) hv
  · exact tracksQ u (letI := parJet (x := x) u; RSpline.parRForwardEvaluate cfg hs1 ht1)
      (letI := parMap (at' (x := x) x); haveI := i2 x; haveI := d x; RSpline.parRForwardEvaluate cfg (hs2 x) (ht2 x))
      (fun y => letI := parMap (at' (x := x) y); haveI := i2 y; haveI := z y; haveI := d y; RSpline.parRForwardEvaluate cfg (hs2 y) (ht2 y)) hv
  · exact tracksQ u (letI := parJet (x := x) u; RSpline.parREvaluateDerivative cfg hs1 ht1 k)
      (letI := parMap (at' (x := x) x); haveI := i2 x; haveI := d x; RSpline.parREvaluateDerivative cfg (hs2 x) (ht2 x) k)
      (fun y => letI := parMap (at' (x := x) y); haveI := i2 y; haveI := z y; haveI := d y; RSpline.parREvaluateDerivative cfg (hs2 y) (ht2 y) k) hv
  · exact tracksQList u (letI := parJet (x := x) u; RSpline.parRBasisFunctions cfg hs1 ht1)
      (letI := parMap (at' (x := x) x); haveI := i2 x; haveI := d x; RSpline.parRBasisFunctions cfg (hs2 x) (ht2 x))
      (fun y => letI := parMap (at' (x := x) y); haveI := i2 y; haveI := z y; haveI := d y; RSpline.parRBasisFunctions cfg (hs2 y) (ht2 y)) hv
  · exact tracksQList u (letI := parJet (x := x) u; RSpline.parRUnweightedBasisFunctions cfg hs1 ht1)
      (letI := parMap (at' (x := x) x); haveI := i2 x; haveI := d x; RSpline.parRUnweightedBasisFunctions cfg (hs2 x) (ht2 x))
      (fun y => letI := parMap (at' (x := x) y); haveI := i2 y; haveI := z y; haveI := d y; RSpline.parRUnweightedBasisFunctions cfg (hs2 y) (ht2 y)) hv
  · exact tracksQList u (letI := parJet (x := x) u; RSpline.parRBasisFunctionsDerivatives cfg hs1 ht1 k)
      (letI := parMap (at' (x := x) x); haveI := i2 x; haveI := d x; RSpline.parRBasisFunctionsDerivatives cfg (hs2 x) (ht2 x) k)
      (fun y => letI := parMap (at' (x := x) y); haveI := i2 y; haveI := z y; haveI := d y; RSpline.parRBasisFunctionsDerivatives cfg (hs2 y) (ht2 y) k) hv

/-- C83. Evaluation of rational splines with points. -/
theorem C83_rational_point_evaluate (cfg : Cfg) (u : Fin m → E) (x : E) (r : RSpline (E → ℝ) (Point (E → ℝ) n))
    (hn : ∀ c ∈ r.num.cps, ∀ i, DifferentiableAt ℝ (c.val i) x) (hw : ∀ c ∈ r.wt.cps, DifferentiableAt ℝ c x)
    (t : List (E → ℝ)) (ht : ∀ a ∈ t, DifferentiableAt ℝ a x) (k idx : List ℕ) :
    ((∃ v, (r.map (· x) (Point.map (· x))).evaluate (t.map (· x)) = .ok v) →
      FollowsQuotientPoint u x (fun y => (r.map (· y) (Point.map (· y))).evaluate (t.map (· y)))
        ((r.map (jet u x) (Point.map (jet u x))).evaluate (t.map (jet u x)))) ∧
    ((∃ v, (r.map (· x) (Point.map (· x))).controlPoint idx = .ok v) →
      FollowsQuotientPoint u x (fun y => (r.map (· y) (Point.map (· y))).controlPoint idx)
        ((r.map (jet u x) (Point.map (jet u x))).controlPoint idx)) ∧
    ((∃ v, (r.map (· x) (Point.map (· x))).forwardEvaluate cfg (t.map (· x)) = .ok v) →
      FollowsQuotientPoint u x (fun y => (r.map (· y) (Point.map (· y))).forwardEvaluate cfg (t.map (· y)))
        ((r.map (jet u x) (Point.map (jet u x))).forwardEvaluate cfg (t.map (jet u x)))) ∧
    ((∃ v, (r.map (· x) (Point.map (· x))).evaluateDerivative cfg (t.map (· x)) k = .ok v) →
      FollowsQuotientPoint u x (fun y => (r.map (· y) (Point.map (· y))).evaluateDerivative cfg (t.map (· y)) k)
        ((r.map (jet u x) (Point.map (jet u x))).evaluateDerivative cfg (t.map (jet u x)) k)) := by
  let r' : RSpline (Fn x) (Point (Fn x) n) := r
  let t' : List (Fn x) := t
  have i1 := parScalarJet (x := x) u
  have i2 := fun y => parScalarAt (x := x) y
  have j1 := parZeroJet (x := x) u
  have j2 := parDivJet (x := x) u
  have j3 := parDivPointJet (x := x) u (n := n)
  have z : ∀ y, letI := parMap (at' (x := x) y); ParZero mayDivide (Fn x) ℝ := fun y => letI := parMap (at' (x := x) y); ⟨fun h => by cases h⟩
  have z' : letI := parMap (at' (x := x) x); ParZero strict (Fn x) ℝ := parZeroMap Fn.arith
  have d := fun y => parDivAt (x := x) y
  have d' := fun y => parDivPointAt (x := x) (n := n) y
  have hs1 : letI := parJet (x := x) u; r' ≋ r'.map (jt u) (Point.map (jt u)) :=
    letI := parJet (x := x) u
    ⟨spline_map_rel fun c hc i => ⟨hn c hc i, rfl⟩, spline_map_rel fun c hc => ⟨hw c hc, rfl⟩⟩
  have hs2 : ∀ y, letI := parMap (at' (x := x) y); r' ≋ r'.map (at' y) (Point.map (at' y)) :=
    fun y => letI := parMap (at' (x := x) y); ⟨spline_map_rel fun c hc i => rfl, spline_map_rel fun c hc => rfl⟩
  have ht1 : letI := parJet (x := x) u; t' ≋ t'.map (jt u) := by
    let _ := parJet (x := x) u
    show List.Forall₂ _ _ (List.map _ _)
    rw [List.forall₂_map_right_iff]
    exact List.forall₂_same.2 fun c hc => ⟨ht c hc, rfl⟩
  have ht2 : ∀ y, letI := parMap (at' (x := x) y); t' ≋ t'.map (at' y) := by
    intro y
    let _ := parMap (at' (x := x) y)
    show List.Forall₂ _ _ (List.map _ _)
    rw [List.forall₂_map_right_iff]
    exact List.forall₂_same.2 fun c hc => rfl
  refine ⟨?_, ?_, ?_, ?_⟩ <;> rintro ⟨v, hv⟩
  · exact tracksQPoint u (letI := parJet (x := x) u; RSpline.parREvaluate hs1 ht1)
      (letI := parMap (at' (x := x) x); haveI := i2 x; haveI := d x; haveI := d' x; RSpline.parREvaluate (hs2 x) (ht2 x))
      (fun y => letI := parMap (at' (x := x) y); haveI := i2 y; haveI := z y; haveI := d y; haveI := d' y; RSpline.parREvaluate (hs2 y) (ht2 y)) hv
  · exact tracksQPoint u (letI := parJet (x := x) u; RSpline.parRControlPoint hs1 idx)
      (letI := parMap (at' (x := x) x); haveI := i2 x; haveI := d x; haveI := d' x; RSpline.parRControlPoint (hs2 x) idx)
      (fun y => letI := parMap (at' (x := x) y); haveI := i2 y; haveI := z y; haveI := d y; haveI := d' y; RSpline.parRControlPoint (hs2 y) idx) hv
  · exact tracksQPoint u (letI := parJet (x := x) u; RSpline.parRForwardEvaluate cfg hs1 ht1)
      (letI := parMap (at' (x := x) x); haveI := i2 x; haveI := d x; haveI := d' x; RSpline.parRForwardEvaluate cfg (hs2 x) (ht2 x))
      (fun y => letI := parMap (at' (x := x) y); haveI := i2 y; haveI := z y; haveI := d y; haveI := d' y; RSpline.parRForwardEvaluate cfg (hs2 y) (ht2 y)) hv
  · exact tracksQPoint u (letI := parJet (x := x) u; RSpline.parREvaluateDerivative cfg hs1 ht1 k)
      (letI := parMap (at' (x := x) x); haveI := i2 x; haveI := d x; haveI := d' x; RSpline.parREvaluateDerivative cfg (hs2 x) (ht2 x) k)
      (fun y => letI := parMap (at' (x := x) y); haveI := i2 y; haveI := z y; haveI := d y; haveI := d' y; RSpline.parREvaluateDerivative cfg (hs2 y) (ht2 y) k) hv

/-! ## Sums of rational splines -/

/-- a curve of degree zero -/
def flat {K : Type} (c : K) : Spline K := ⟨[0], 1, [1], [c]⟩

theorem flat_evaluate {K : Type} [Zero K] [One K] [Add K] [Sub K] [Mul K]  [Neg K] [Div K] [NatCast K] (c t : K) : (flat c).evaluate [t] = .ok c := by
  with_unfolding_all rfl

theorem flat_add {K : Type} [Zero K] [One K] [Add K] [Sub K] [Mul K]  [Neg K] [Div K] [NatCast K] [BEq K] (c d e f : K) (h : (f == d) = true) : 
    RSpline.addOp Ex.cfg ⟨flat c, flat d⟩ ⟨flat e, flat f⟩ = .ok ⟨flat (c + e), flat d⟩ := by
  have : (flat d).eqOp (flat f) = true := by simp [Spline.eqOp, flat, h]
  unfold RSpline.addOp
  show (if (flat d).eqOp (flat f) then _ else _) = _
  rw [if_pos this]
  rfl

theorem flat_wf {K : Type} (c : K) : (flat c).WF := ⟨Nat.zero_lt_succ _, rfl, rfl, rfl⟩

theorem flat_computes (c d : ℝ) : RSpline.Computes (⟨flat c, flat d⟩ : RSpline ℝ ℝ) [0] (fun _ => c / d) (fun _ => d) where
  num_wf := flat_wf c
  wt_wf := flat_wf d
  num_degrees := rfl
  wt_degrees := rfl
  weight t ht := by
    obtain ⟨a, rfl⟩ := List.length_eq_one_iff.1 ht
    exact flat_evaluate d a
  eval t ht h0 := by
    obtain ⟨a, rfl⟩ := List.length_eq_one_iff.1 ht
    unfold RSpline.evaluate
    rw [flat_evaluate, flat_evaluate]
    simp only [bind_ok]
    rw [RSpline.divM_ok _ h0, smul_eq_mul, inv_mul_eq_div]

/-- the sum of `1 / (1 + y)` and `1 / 1` -/
noncomputable def σQ : RVars (ℝ → ℝ) 1 where
  s _ := flat fun _ => 0
  p _ := flat ⟨fun _ _ => 0⟩
  rs i := ⟨flat fun _ => 1, flat (if i = 0 then fun y => 1 + y else fun _ => 1)⟩
  rp _ := ⟨flat ⟨fun _ _ => 0⟩, flat fun _ => 1⟩

/-- C83 fails for sums of rational splines whose weight functions are equal at `x` but not near `x`: the comparison looks at the values
only, so the sum is computed as if the weight functions agreed.  The value is right, and the derivative is wrong: here `-2` in place of
`-1`. -/
theorem C83_rational_sum_fails : ∃ (σ : RVars (ℝ → ℝ) 1) (e : RSExpr (ℝ → ℝ) 1) (F : ℝ → ℝ) (s : RSpline (Dual ℝ 1) (Dual ℝ 1))
    (d : Dual ℝ 1), SmoothRVars 0 σ ∧ e.Constants (SmoothConstant 0) (SmoothPlanes 0) ∧
    (∀ᶠ y in nhds 0, ∃ r, (e.map (· y)).run Ex.cfg (σ.map (· y)) = .ok r ∧ r.evaluate [1 / 2] = .ok (F y)) ∧
    DifferentiableAt ℝ F 0 ∧ (e.map (jet (fun _ => 1) 0)).run Ex.cfg (σ.map (jet (fun _ => 1) 0)) = .ok s ∧
    s.evaluate [1 / 2] = .ok d ∧ d.v = F 0 ∧ d.d 0 = -2 ∧ fderiv ℝ F 0 1 = -1 := by
  have hd : HasDerivAt (fun y : ℝ => 1 / (1 + y) + 1 / 1) (-1) 0 := by
    have := (((hasDerivAt_id (0 : ℝ)).const_add 1).fun_inv (by simp)).add_const (1 : ℝ)
    simpa using this
  have hw : jet (E := ℝ) (fun _ : Fin 1 => 1) 0 (fun y => 1 + y) = ⟨1, fun _ => 1⟩ := by
    unfold jet
    congr 1
    · simp
    · funext i
      simp
  have h1 := (jet_const (E := ℝ) (x := 0) (fun _ : Fin 1 => 1) 1).2
  refine ⟨σQ, .add (.leaf 0) (.leaf 1), fun y => 1 / (1 + y) + 1 / 1, ⟨flat (1 + 1), flat ⟨1, fun _ => 1⟩⟩, (1 + 1) / ⟨1, fun _ => 1⟩,
    ?_, ⟨trivial, trivial⟩, ?_, hd.differentiableAt, ?_, ?_, ?_, ?_, ?_⟩
  · refine ⟨⟨?_, ?_⟩, ?_, ?_⟩
    · intro i c hc; simp only [σQ, flat, List.mem_singleton] at hc; subst hc; fun_prop
    · intro i c hc k; simp only [σQ, flat, List.mem_singleton] at hc; subst hc; fun_prop
    · refine fun i => ⟨?_, ?_⟩
      · intro c hc; simp only [σQ, flat, List.mem_singleton] at hc; subst hc; fun_prop
      · intro c hc; simp only [σQ, flat, List.mem_singleton] at hc; subst hc; split <;> fun_prop
    · refine fun i => ⟨?_, ?_⟩
      · intro c hc k; simp only [σQ, flat, List.mem_singleton] at hc; subst hc; fun_prop
      · intro c hc; simp only [σQ, flat, List.mem_singleton] at hc; subst hc; fun_prop
  · filter_upwards [Ioi_mem_nhds (show (-1 : ℝ) < 0 by norm_num)] with y hy
    have hy : (1 : ℝ) + y ≠ 0 := by simp at hy; linarith
    obtain ⟨r, h1, h2⟩ := C38_add Ex.cfg Ex.cfg_ok (⟨flat 1, flat (1 + y)⟩ : RSpline ℝ ℝ) ⟨flat 1, flat 1⟩ [0] [0] _ _ _ _
      (flat_computes 1 (1 + y)) (flat_computes 1 1) ⟨rfl, by decide, by decide, by decide, by decide⟩
    refine ⟨r, h1, ?_⟩
    rcases h2 with ⟨-, h2⟩ | ⟨-, h2⟩
    · exact h2.eval _ rfl hy
    · exact h2.eval _ rfl (by simpa using hy)
  · refine Eq.trans ?_ (flat_add (K := Dual ℝ 1) 1 ⟨1, fun _ => 1⟩ 1 1 ?_)
    · show RSpline.addOp Ex.cfg ⟨flat (jet _ 0 fun _ => 1), flat (jet _ 0 (fun y => 1 + y))⟩ ⟨flat (jet _ 0 fun _ => 1), flat (jet _ 0 fun _ => 1)⟩ = _
      rw [hw, h1]; rfl
    · show ((1 : ℝ) == 1) = true
      simp
  · unfold RSpline.evaluate
    rw [flat_evaluate, flat_evaluate]
    simp only [bind_ok]
    show (if ((1 : ℝ) == 0) = true then _ else _) = _
    rw [if_neg (by simp)]
    rfl
  · show ((1 + 1 : ℝ) / 1) = _
    norm_num
  · show ((1 : ℝ) * (0 + 0) - 1 * (1 + 1)) * (1 / (1 * 1)) = -2
    norm_num
  · exact hd.hasFDerivAt.fderiv ▸ by simp

/-! ## Concrete cases -/

/-- numbers that depend on a parameter: `c` at `0` -/
noncomputable def lift (c : ℝ) : ℝ → ℝ := fun y => c * (1 + y)

theorem lift_smooth (c x : ℝ) : DifferentiableAt ℝ (lift c) x := by unfold lift; fun_prop
theorem lift_zero (c : ℝ) : lift c 0 = c := by simp [lift]

theorem smooth_lift (σ : Vars ℝ n) (x : ℝ) : SmoothVars x (σ.map lift) := by
  refine ⟨fun i c hc => ?_, fun i c hc k => ?_⟩
  · obtain ⟨a, -, rfl⟩ := List.mem_map.1 hc; exact lift_smooth a x
  · obtain ⟨a, -, rfl⟩ := List.mem_map.1 hc; exact lift_smooth _ x

theorem smooth_rlift (σ : RVars ℝ n) (x : ℝ) : SmoothRVars x (σ.map lift) := by
  refine ⟨smooth_lift σ.toVars x, fun i => ⟨fun c hc => ?_, fun c hc => ?_⟩, fun i => ⟨fun c hc k => ?_, fun c hc => ?_⟩⟩ <;>
    obtain ⟨a, -, rfl⟩ := List.mem_map.1 hc <;> exact lift_smooth _ x

theorem vars_lift_zero (σ : Vars ℝ n) : (σ.map lift).map (· 0) = σ := by
  simp [Vars.map, Spline.map, Function.comp_def, Point.map, lift]

theorem rvars_lift_zero (σ : RVars ℝ n) : (σ.map lift).map (· 0) = σ := by
  simp [RVars.map, RSpline.map, Vars.map, Spline.map, Function.comp_def, Point.map, lift]

/-- A program with composition, product, derivative and split, all of whose numbers depend on a parameter. -/
example : ∃ s : Spline (Point (ℝ → ℝ) 2), (∀ c ∈ s.cps, ∀ k, DifferentiableAt ℝ (c.val k) 0) ∧
    ((prog.map lift).map (jet (fun _ : Fin 1 => 1) 0)).run Ex.cfg ((σE.map lift).map (jet (fun _ => 1) 0)) =
      .ok (s.map (Point.map (jet (fun _ => 1) 0))) := by
  obtain ⟨r, h, -⟩ := C72_point Ex.cfg Ex.cfg_ok σE μE μE_of prog prog_admissible
  obtain ⟨s, -, h1, h2, -⟩ := C83_point_program Ex.cfg (fun _ : Fin 1 => (1 : ℝ)) 0 (σE.map lift) (smooth_lift _ _) (prog.map lift)
    (by simp [prog, PExpr.map, SExpr.map, PExpr.Constants, SExpr.Constants, SmoothConstant, lift_smooth]) r (by
    rw [vars_lift_zero, show (prog.map lift).map (· 0) = prog by simp [prog, PExpr.map, SExpr.map, lift], h])
  exact ⟨s, h1, h2⟩

/-- The same for a rational program with composition, split, difference and derivative. -/
example : ∃ s : RSpline (ℝ → ℝ) (Point (ℝ → ℝ) 2), (∀ c ∈ s.wt.cps, DifferentiableAt ℝ c 0) ∧
    ((progR.map lift).map (jet (fun _ : Fin 1 => 1) 0)).run cfg2 ((σR.map lift).map (jet (fun _ => 1) 0)) =
      .ok (s.map (jet (fun _ => 1) 0) (Point.map (jet (fun _ => 1) 0))) := by
  obtain ⟨r, h, -⟩ := C77_point cfg2 (by decide) σR μR μR_of progR progR_admissible
  obtain ⟨s, -, -, h1, h2, -⟩ := C83_rational_point_program_partial cfg2 (fun _ : Fin 1 => (1 : ℝ)) 0 (σR.map lift) (smooth_rlift _ _)
    (progR.map lift)
    (by simp [progR, RPExpr.map, RPExpr.Constants, SmoothConstant, lift_smooth]) r (by
    rw [rvars_lift_zero, show (progR.map lift).map (· 0) = progR by simp [progR, RPExpr.map, lift], h])
  exact ⟨s, h1, h2⟩

/-- The product of two surfaces returns for all parameter values. -/
example : ∃ (R : ℝ → Spline ℝ) (S : Spline (Dual ℝ 1)),
    (∀ y, (((SExpr.mul (.leaf 0) (.leaf 1) : SExpr ℝ 2).map lift).map (· y)).run Ex.cfg ((σE.map lift).map (· y)) = .ok (R y)) ∧
    S.cps.length = (R 0).cps.length ∧ ∀ i (h : i < S.cps.length), S.cps[i] = jet (fun _ => 1) 0 fun y => (R y).cps.getD i 0 := by
  have h : ∀ y, ∃ r, (((SExpr.mul (.leaf 0) (.leaf 1) : SExpr ℝ 2).map lift).map (· y)).run Ex.cfg ((σE.map lift).map (· y)) = .ok r := by
    intro y
    obtain ⟨r, h, -⟩ := C80_product (K := ℝ) Ex.cfg Ex.cfg_ok (· * ·) ((AR.map lift).map (· y)) ((BR.map lift).map (· y)) [2, 1] [1, 2]
      ⟨⟨Nat.zero_lt_succ _, rfl, rfl, rfl⟩, rfl⟩ ⟨⟨Nat.zero_lt_succ _, rfl, rfl, rfl⟩, rfl⟩ rfl (by decide)
    have e : ∀ σ : Vars ℝ 2, (SExpr.mul (.leaf 0) (.leaf 1) : SExpr ℝ 2).run Ex.cfg σ = Spline.mulScalar Ex.cfg (σ.s 0) (σ.s 1) := fun _ => rfl
    exact ⟨r, (e _).trans h⟩
  choose R hR using h
  obtain ⟨S, -, -, h1, h2⟩ := C83_derivatives Ex.cfg (fun _ : Fin 1 => (1 : ℝ)) 0 (σE.map lift) (smooth_lift _ _)
    ((SExpr.mul (.leaf 0) (.leaf 1)).map lift) ⟨trivial, trivial⟩ R (.of_forall hR)
  exact ⟨R, S, hR, h1, fun i hi => (h2 i hi).2⟩

/-- The value of the circular arc at a parameter value that moves. -/
example : FollowsQuotientPoint (fun _ : Fin 1 => (1 : ℝ)) 0
    (fun y => ((arc.map lift (Point.map lift)).map (· y) (Point.map (· y))).evaluate ([fun y => 1 / 2 + y].map (· y)))
    (((arc.map lift (Point.map lift)).map (jet (fun _ : Fin 1 => (1 : ℝ)) 0) (Point.map (jet (fun _ : Fin 1 => (1 : ℝ)) 0))).evaluate
      ([fun y => 1 / 2 + y].map (jet (fun _ : Fin 1 => (1 : ℝ)) 0))) := by
  refine (C83_rational_point_evaluate Ex.cfg (fun _ : Fin 1 => (1 : ℝ)) 0 (arc.map lift (Point.map lift)) ?_ ?_
    [fun y => 1 / 2 + y] ?_ [] []).1 ?_
  rotate_right
  · refine ⟨(arc.wt.value [(1 / 2 + 0 : ℝ)])⁻¹ • arc.num.value [(1 / 2 + 0 : ℝ)], ?_⟩
    rw [show (arc.map lift (Point.map lift)).map (· 0) (Point.map (· 0)) = arc by
      simp [RSpline.map, Spline.map, Function.comp_def, Point.map, lift]]
    exact arc_computes.eval _ rfl (by simp only [List.map_cons, List.map_nil, arc_weight]; positivity)
  · intro c hc k; obtain ⟨a, -, rfl⟩ := List.mem_map.1 hc; exact lift_smooth _ _
  · intro c hc; obtain ⟨a, -, rfl⟩ := List.mem_map.1 hc; exact lift_smooth _ _
  · intro a ha; simp only [List.mem_cons, List.not_mem_nil, or_false] at ha; subst ha; fun_prop

end Bezman.Props
