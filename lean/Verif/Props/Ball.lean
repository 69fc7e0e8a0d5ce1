import Verif.Proofs.Ball
import Verif.Props.ScalarMap
import Verif.Props.FloatArith
import Verif.Props.Joint
import Verif.Props.RExpr

/-! # C86: error bounds computed along with the results

`Ball A` (Spec/Ball.lean) is the number type "exact value with an error bound".  Run with these numbers, the library computes
the exact results together with bounds that the floating-point results satisfy. -/

namespace Bezman.Props
open Spec
variable {A : FloatArith} {n : ℕ}

/-- C86 for programs with scalar valued results: if the program returns `y` in exact arithmetic, then it returns bounds for `y` in
the arithmetic with bounds, and the program in floating-point arithmetic returns a spline that satisfies these bounds, or throws
(when a rounded comparison fails). -/
theorem C86_scalar_program (cfg : Cfg) (σ : Vars (Fl A) n) (e : SExpr (Fl A) n) (y : Spline ℝ)
    (hy : (e.map Fl.val).run cfg (σ.map Fl.val) = .ok y) :
    ∃ b : Spline (Ball A), (e.map Ball.ofFl).run cfg (σ.map Ball.ofFl) = .ok b ∧ b.map Ball.c = y ∧
      ((∃ x, e.run cfg σ = .ok x ∧ x.Within b) ∨ e.run cfg σ = .error .throws) := by
  have h1 := C82_scalar_program (K := Ball A) (K' := ℝ) cfg ballCentre (σ.map Ball.ofFl) (e.map Ball.ofFl)
  rw [smap_map, Vars.map_map] at h1
  obtain ⟨b, hb, hc⟩ := ok_of_map (h1.symm.trans hy)
  refine ⟨b, hb, hc, ?_⟩
  let _ := parBall (A := A)
  have h2 := ballS cfg σ e
  rw [hb] at h2
  rcases ok_right h2 with ⟨x, e1, h3⟩ | ⟨err, h3, e1⟩
  · exact .inl ⟨x, e1, h3.1, h3.2.2.2⟩
  · obtain rfl : err = .throws := by simpa [mayThrow] using h3
    exact .inr e1

/-- C86 for programs with point valued results. -/
theorem C86_point_program (cfg : Cfg) (σ : Vars (Fl A) n) (e : PExpr (Fl A) n) (y : Spline (Point ℝ n))
    (hy : (e.map Fl.val).run cfg (σ.map Fl.val) = .ok y) :
    ∃ b : Spline (Point (Ball A) n), (e.map Ball.ofFl).run cfg (σ.map Ball.ofFl) = .ok b ∧ b.map (Point.map Ball.c) = y ∧
      ((∃ x, e.run cfg σ = .ok x ∧ x.WithinPoints b) ∨ e.run cfg σ = .error .throws) := by
  have h1 := C82_point_program (K := Ball A) (K' := ℝ) cfg ballCentre (σ.map Ball.ofFl) (e.map Ball.ofFl)
  rw [pmap_map, Vars.map_map] at h1
  obtain ⟨b, hb, hc⟩ := ok_of_map (h1.symm.trans hy)
  refine ⟨b, hb, hc, ?_⟩
  let _ := parBall (A := A)
  have h2 := ballP cfg σ e
  rw [hb] at h2
  rcases ok_right h2 with ⟨x, e1, h3⟩ | ⟨err, h3, e1⟩
  · exact .inl ⟨x, e1, h3.1, h3.2.2.2⟩
  · obtain rfl : err = .throws := by simpa [mayThrow] using h3
    exact .inr e1

/-- C86 for rational programs, if comparisons of weight functions in sums and differences come out the same in floating-point
arithmetic as they do with the exact values. -/
theorem C86_rational_scalar_program (cfg : Cfg) (σ : RVars (Fl A) n) (e : RSExpr (Fl A) n) (hs : e.SumsAgree cfg σ id Ball.ofFl)
    (y : RSpline ℝ ℝ) (hy : (e.map Fl.val).run cfg (σ.map Fl.val) = .ok y) :
    ∃ b : RSpline (Ball A) (Ball A), (e.map Ball.ofFl).run cfg (σ.map Ball.ofFl) = .ok b ∧ b.map Ball.c Ball.c = y ∧
      ((∃ x, e.run cfg σ = .ok x ∧ x.num.Within b.num ∧ x.wt.Within b.wt) ∨ e.run cfg σ = .error .throws ∨
        e.run cfg σ = .error .divZero) := by
  have h1 := C82_rational_scalar_program (K := Ball A) (K' := ℝ) cfg ballCentre (σ.map Ball.ofFl) (e.map Ball.ofFl)
  rw [rsmap_map, RVars.map_map] at h1
  obtain ⟨b, hb, hc⟩ := ok_of_map (h1.symm.trans hy)
  refine ⟨b, hb, hc, ?_⟩
  let _ := parBall (A := A)
  have h2 := ballRS cfg σ e hs
  rw [hb] at h2
  rcases ok_right h2 with ⟨x, e1, h3⟩ | ⟨err, h3, e1⟩
  · exact .inl ⟨x, e1, ⟨h3.1.1, h3.1.2.2.2⟩, h3.2.1, h3.2.2.2.2⟩
  · cases err <;> first | cases h3; done | exact .inr (.inl e1) | exact .inr (.inr e1)

/-- C86 for rational programs with point valued results. -/
theorem C86_rational_point_program (cfg : Cfg) (σ : RVars (Fl A) n) (e : RPExpr (Fl A) n) (hs : e.SumsAgree cfg σ id Ball.ofFl)
    (y : RSpline ℝ (Point ℝ n)) (hy : (e.map Fl.val).run cfg (σ.map Fl.val) = .ok y) :
    ∃ b : RSpline (Ball A) (Point (Ball A) n), (e.map Ball.ofFl).run cfg (σ.map Ball.ofFl) = .ok b ∧ b.map Ball.c (Point.map Ball.c) = y ∧
      ((∃ x, e.run cfg σ = .ok x ∧ x.num.WithinPoints b.num ∧ x.wt.Within b.wt) ∨ e.run cfg σ = .error .throws ∨
        e.run cfg σ = .error .divZero) := by
  have h1 := C82_rational_point_program (K := Ball A) (K' := ℝ) cfg ballCentre (σ.map Ball.ofFl) (e.map Ball.ofFl)
  rw [rpmap_map, RVars.map_map] at h1
  obtain ⟨b, hb, hc⟩ := ok_of_map (h1.symm.trans hy)
  refine ⟨b, hb, hc, ?_⟩
  let _ := parBall (A := A)
  have h2 := ballRP cfg σ e hs
  rw [hb] at h2
  rcases ok_right h2 with ⟨x, e1, h3⟩ | ⟨err, h3, e1⟩
  · exact .inl ⟨x, e1, ⟨h3.1.1, h3.1.2.2.2⟩, h3.2.1, h3.2.2.2.2⟩
  · cases err <;> first | cases h3; done | exact .inr (.inl e1) | exact .inr (.inr e1)

theorem bounded_of_rel {α β γ : Type} {tol : Err → Bool} {stop : List Err} (hs : ∀ e, tol e = true → e ∈ stop) [Par α β] {float : M α}
    {ball : M β} {exact : M γ} {centre : β → γ} (h : RelM tol float ball) (hc : exact = ball.map centre) :
    Bounded stop centre Par.r float ball exact := by
  intro y hy
  obtain ⟨b, hb, e⟩ := ok_of_map (hc.symm.trans hy)
  refine ⟨b, hb, e, ?_⟩
  rw [hb] at h
  rcases ok_right h with ⟨x, e1, h3⟩ | ⟨err, h3, e1⟩
  · exact .inl ⟨x, e1, h3⟩
  · exact .inr ⟨err, hs err h3, e1⟩

/-- C86 for the evaluators of polynomial splines. -/
theorem C86_evaluate (cfg : Cfg) (s : Spline (Fl A)) (p : Spline (Point (Fl A) n)) (t : List (Fl A)) (k : List ℕ) :
    Bounded [] Ball.c Ball.Contains1 (s.evaluate t) ((s.map Ball.ofFl).evaluate (t.map Ball.ofFl)) ((s.map Fl.val).evaluate (t.map Fl.val)) ∧
    Bounded [] Ball.c Ball.Contains1 (s.forwardEvaluate cfg t) ((s.map Ball.ofFl).forwardEvaluate cfg (t.map Ball.ofFl))
      ((s.map Fl.val).forwardEvaluate cfg (t.map Fl.val)) ∧
    Bounded [] Ball.c Ball.Contains1 (s.evaluateDerivative cfg t k) ((s.map Ball.ofFl).evaluateDerivative cfg (t.map Ball.ofFl) k)
      ((s.map Fl.val).evaluateDerivative cfg (t.map Fl.val) k) ∧
    Bounded [] (Point.map Ball.c) Ball.ContainsPoint (p.evaluate t) ((p.map (Point.map Ball.ofFl)).evaluate (t.map Ball.ofFl))
      ((p.map (Point.map Fl.val)).evaluate (t.map Fl.val)) ∧
    Bounded [] (Point.map Ball.c) Ball.ContainsPoint (p.forwardEvaluate cfg t)
      ((p.map (Point.map Ball.ofFl)).forwardEvaluate cfg (t.map Ball.ofFl)) ((p.map (Point.map Fl.val)).forwardEvaluate cfg (t.map Fl.val)) ∧
    Bounded [] (Point.map Ball.c) Ball.ContainsPoint (p.evaluateDerivative cfg t k)
      ((p.map (Point.map Ball.ofFl)).evaluateDerivative cfg (t.map Ball.ofFl) k)
      ((p.map (Point.map Fl.val)).evaluateDerivative cfg (t.map Fl.val) k) ∧
    Bounded [] (List.map Ball.c) Ball.ContainsList (s.basisFunctions cfg t) ((s.map Ball.ofFl).basisFunctions cfg (t.map Ball.ofFl))
      ((s.map Fl.val).basisFunctions cfg (t.map Fl.val)) ∧
    Bounded [] (List.map Ball.c) Ball.ContainsList (s.basisFunctionsDerivatives cfg t k)
      ((s.map Ball.ofFl).basisFunctionsDerivatives cfg (t.map Ball.ofFl) k) ((s.map Fl.val).basisFunctionsDerivatives cfg (t.map Fl.val) k) := by
  have hc := C82_evaluate (K := Ball A) (K' := ℝ) cfg ballCentre (s.map Ball.ofFl) (p.map (Point.map Ball.ofFl)) (t.map Ball.ofFl) k
  rw [Spline.map_map, Spline.map_map, List.map_map] at hc
  let _ := parBall (A := A)
  have i1 : ParScalar (Fl A) (Ball A) := parScalarBall
  have hs : s ≋ s.map Ball.ofFl := spline_map_rel fun x _ => Ball.ofFl_contains x
  have hp : p ≋ p.map (Point.map Ball.ofFl) := spline_map_rel fun x _ i => Ball.ofFl_contains (x.val i)
  have ht : t ≋ t.map Ball.ofFl := List.forall₂_map_right_iff.mpr (List.forall₂_same.mpr fun x _ => Ball.ofFl_contains x)
  have h0 : ∀ e, strict e = true → e ∈ ([] : List Err) := fun e h => by cases h
  obtain ⟨c1, c2, c3, c4, c5, c6, c7, c8⟩ := hc
  exact ⟨bounded_of_rel h0 (Spline.parEvaluate hs ht) c1, bounded_of_rel h0 (Spline.parForwardEvaluate cfg hs ht) c2,
    bounded_of_rel h0 (Spline.parEvaluateDerivative cfg hs ht k) c3, bounded_of_rel h0 (Spline.parEvaluate hp ht) c4,
    bounded_of_rel h0 (Spline.parForwardEvaluate cfg hp ht) c5, bounded_of_rel h0 (Spline.parEvaluateDerivative cfg hp ht k) c6,
    bounded_of_rel h0 (Spline.parBasisFunctions cfg hs ht) c7, bounded_of_rel h0 (Spline.parBasisFunctionsDerivatives cfg hs ht k) c8⟩

/-- C86 for the evaluators of rational splines; in floating-point arithmetic a weight function may be rounded to zero. -/
theorem C86_rational_evaluate (cfg : Cfg) (r : RSpline (Fl A) (Fl A)) (p : RSpline (Fl A) (Point (Fl A) n)) (t : List (Fl A)) (i k : List ℕ) :
    Bounded [.divZero] Ball.c Ball.Contains1 (r.evaluate t) ((r.map Ball.ofFl Ball.ofFl).evaluate (t.map Ball.ofFl))
      ((r.map Fl.val Fl.val).evaluate (t.map Fl.val)) ∧
    Bounded [.divZero] Ball.c Ball.Contains1 (r.controlPoint i) ((r.map Ball.ofFl Ball.ofFl).controlPoint i)
      ((r.map Fl.val Fl.val).controlPoint i) ∧
    Bounded [.divZero] (Point.map Ball.c) Ball.ContainsPoint (p.evaluate t) ((p.map Ball.ofFl (Point.map Ball.ofFl)).evaluate (t.map Ball.ofFl))
      ((p.map Fl.val (Point.map Fl.val)).evaluate (t.map Fl.val)) ∧
    Bounded [.divZero] (Point.map Ball.c) Ball.ContainsPoint (p.controlPoint i) ((p.map Ball.ofFl (Point.map Ball.ofFl)).controlPoint i)
      ((p.map Fl.val (Point.map Fl.val)).controlPoint i) ∧
    Bounded [.divZero] Ball.c Ball.Contains1 (r.forwardEvaluate cfg t) ((r.map Ball.ofFl Ball.ofFl).forwardEvaluate cfg (t.map Ball.ofFl))
      ((r.map Fl.val Fl.val).forwardEvaluate cfg (t.map Fl.val)) ∧
    Bounded [.divZero] (Point.map Ball.c) Ball.ContainsPoint (p.forwardEvaluate cfg t)
      ((p.map Ball.ofFl (Point.map Ball.ofFl)).forwardEvaluate cfg (t.map Ball.ofFl))
      ((p.map Fl.val (Point.map Fl.val)).forwardEvaluate cfg (t.map Fl.val)) ∧
    Bounded [.divZero] Ball.c Ball.Contains1 (r.evaluateDerivative cfg t k)
      ((r.map Ball.ofFl Ball.ofFl).evaluateDerivative cfg (t.map Ball.ofFl) k)
      ((r.map Fl.val Fl.val).evaluateDerivative cfg (t.map Fl.val) k) ∧
    Bounded [.divZero] (Point.map Ball.c) Ball.ContainsPoint (p.evaluateDerivative cfg t k)
      ((p.map Ball.ofFl (Point.map Ball.ofFl)).evaluateDerivative cfg (t.map Ball.ofFl) k)
      ((p.map Fl.val (Point.map Fl.val)).evaluateDerivative cfg (t.map Fl.val) k) ∧
    Bounded [.divZero] (List.map Ball.c) Ball.ContainsList (r.basisFunctions cfg t)
      ((r.map Ball.ofFl Ball.ofFl).basisFunctions cfg (t.map Ball.ofFl)) ((r.map Fl.val Fl.val).basisFunctions cfg (t.map Fl.val)) ∧
    Bounded [.divZero] (List.map Ball.c) Ball.ContainsList (r.basisFunctionsDerivatives cfg t k)
      ((r.map Ball.ofFl Ball.ofFl).basisFunctionsDerivatives cfg (t.map Ball.ofFl) k)
      ((r.map Fl.val Fl.val).basisFunctionsDerivatives cfg (t.map Fl.val) k) := by
  have hc := C82_rational_evaluate (K := Ball A) (K' := ℝ) cfg ballCentre (r.map Ball.ofFl Ball.ofFl) (p.map Ball.ofFl (Point.map Ball.ofFl))
    (t.map Ball.ofFl) i k
  rw [List.map_map] at hc
  simp only [RSpline.map, Spline.map_map] at hc
  let _ := parBall (A := A)
  have i1 : ParScalar (Fl A) (Ball A) := parScalarBall
  have i5 : ParDiv (Fl A) (Ball A) (Fl A) (Ball A) := parDivBall
  have i6 : ParDiv (Fl A) (Ball A) (Point (Fl A) n) (Point (Ball A) n) := parDivPointBall
  have hr : r ≋ r.map Ball.ofFl Ball.ofFl := ⟨spline_map_rel fun x _ => Ball.ofFl_contains x, spline_map_rel fun x _ => Ball.ofFl_contains x⟩
  have hp : p ≋ p.map Ball.ofFl (Point.map Ball.ofFl) :=
    ⟨spline_map_rel fun x _ i => Ball.ofFl_contains (x.val i), spline_map_rel fun x _ => Ball.ofFl_contains x⟩
  have ht : t ≋ t.map Ball.ofFl := List.forall₂_map_right_iff.mpr (List.forall₂_same.mpr fun x _ => Ball.ofFl_contains x)
  let tol : Err → Bool := fun e => e == .divZero
  have i4 : ParZero tol (Fl A) (Ball A) := parZeroBall rfl
  have h0 : ∀ e, tol e = true → e ∈ [Err.divZero] := fun e h => by cases e <;> first | cases h; done | simp
  obtain ⟨c1, c2, c3, c4, c5, c6, c7, c8, c9, -, c11⟩ := hc
  exact ⟨bounded_of_rel h0 (RSpline.parREvaluate hr ht) c1, bounded_of_rel h0 (RSpline.parRControlPoint hr i) c2,
    bounded_of_rel h0 (RSpline.parREvaluate hp ht) c3, bounded_of_rel h0 (RSpline.parRControlPoint hp i) c4,
    bounded_of_rel h0 (RSpline.parRForwardEvaluate cfg hr ht) c5, bounded_of_rel h0 (RSpline.parRForwardEvaluate cfg hp ht) c6,
    bounded_of_rel h0 (RSpline.parREvaluateDerivative cfg hr ht k) c7, bounded_of_rel h0 (RSpline.parREvaluateDerivative cfg hp ht k) c8,
    bounded_of_rel h0 (RSpline.parRBasisFunctions cfg hr ht) c9, bounded_of_rel h0 (RSpline.parRBasisFunctionsDerivatives cfg hr ht k) c11⟩


/-! The hypotheses and the bounds on concrete cases. -/

/-- A line, evaluated in double precision, at every parameter and for all end points: the computed bound of the error. -/
example (x y t : F64) : ∃ v, (Ex.line x y).evaluate [t] = .ok v ∧
    |v.val - ((1 - t.val) * x.val + t.val * y.val)| ≤
      ((1 - Ball.ofFl t) * Ball.ofFl x + Ball.ofFl t * Ball.ofFl y).r := by
  have e : ∀ {K : Type} [One K] [Sub K] [Add K] [Mul K] (x y t : K), (Ex.line x y).evaluate [t] = .ok ((1 - t) * x + t * y) := by
    intro K _ _ _ _ x y t
    refine C67_casteljau _ (Ex.line_wf x y) [t] rfl (fun idx => if idx = [0] then x else y) ?_
    rintro idx hi
    match idx, hi with
    | [0], _ => rfl
    | [1], _ => rfl
    | [], h => cases h
    | [_ + 2], h => cases h with | cons h _ => exact absurd h (by simp)
    | _ :: _ :: _, h => cases h with | cons _ h => cases h
  obtain ⟨b, h1, h2, h3⟩ := (C86_evaluate (n := 1) Ex.cfg (Ex.line x y) (Ex.line ⟨fun _ => x⟩ ⟨fun _ => y⟩) [t] [0]).1 _ (e _ _ _)
  have hb : b = (1 - Ball.ofFl t) * Ball.ofFl x + Ball.ofFl t * Ball.ofFl y := by
    simpa using h1.symm.trans (e _ _ _)
  rcases h3 with ⟨v, h4, h5⟩ | ⟨_, h4, _⟩
  · refine ⟨v, h4, ?_⟩
    subst hb
    exact h5 ⟨⟨⟨trivial, trivial⟩, trivial⟩, trivial, trivial⟩
  · cases h4

/-- The same program as in C82 (composition, product, derivative and split), in double precision. -/
example : ∃ b, ((prog.map (Fl.mk (A := .binary 53))).map Ball.ofFl).run Ex.cfg ((σE.map Fl.mk).map Ball.ofFl) = .ok b ∧
    ((∃ x, (prog.map (Fl.mk (A := .binary 53))).run Ex.cfg (σE.map Fl.mk) = .ok x ∧ x.WithinPoints b) ∨
      (prog.map (Fl.mk (A := .binary 53))).run Ex.cfg (σE.map Fl.mk) = .error .throws) := by
  obtain ⟨r, h, -⟩ := C72_point Ex.cfg Ex.cfg_ok σE μE μE_of prog prog_admissible
  obtain ⟨b, h1, -, h2⟩ := C86_point_program (A := .binary 53) Ex.cfg (σE.map Fl.mk) (prog.map Fl.mk) r (by
    rw [pmap_map, Vars.map_map]
    rw [show Fl.val ∘ Fl.mk (A := .binary 53) = id from rfl]
    rw [show prog.map id = prog by simp [prog, PExpr.map, SExpr.map], show σE.map id = σE by simp [Vars.map, Spline.map, show Point.map (n := 2) (id : ℝ → ℝ) = id from rfl], h])
  exact ⟨b, h1, h2⟩

/-- A rational program (composition, split, derivative): there are no sums whose weight functions are compared. -/
noncomputable def progRS : RPExpr ℝ 2 := .deriv (.splitLeft (.compose (.leaf 1) (.leaf 0)) (1 / 3) 0) [1]

theorem progRS_admissible : progRS.Admissible cfg2 σR μR := by
  refine ⟨⟨⟨trivial, trivial, rfl, ?_, ?_⟩, ?_, by norm_num, by norm_num⟩, ?_, ?_, ?_⟩
  · intro t ht
    obtain ⟨x, rfl⟩ := List.length_eq_one_iff.mp ht
    show arc.wt.value [x] ≠ 0
    rw [arc_weight]; positivity
  · constructor <;> simp [RPExpr.shape, μR, cfg2, size]
  · simp [RPExpr.shape, μR]
  · rw [progR_inner]; rfl
  · rw [progR_inner]
    intro d o p _ h2 _
    match d with
    | 0 => simp at h2; omega
    | d + 1 => simp at h2
  · rw [progR_inner]
    constructor <;> simp [cfg2, size]

example : ∃ b, ((progRS.map (Fl.mk (A := .binary 53))).map Ball.ofFl).run cfg2 ((σR.map Fl.mk).map Ball.ofFl) = .ok b ∧
    ((∃ x, (progRS.map (Fl.mk (A := .binary 53))).run cfg2 (σR.map Fl.mk) = .ok x ∧ x.num.WithinPoints b.num ∧ x.wt.Within b.wt) ∨
      (progRS.map (Fl.mk (A := .binary 53))).run cfg2 (σR.map Fl.mk) = .error .throws ∨
      (progRS.map (Fl.mk (A := .binary 53))).run cfg2 (σR.map Fl.mk) = .error .divZero) := by
  obtain ⟨r, h, -⟩ := C77_point cfg2 (by decide) σR μR μR_of progRS progRS_admissible
  obtain ⟨b, h1, -, h2⟩ := C86_rational_point_program (A := .binary 53) cfg2 (σR.map Fl.mk) (progRS.map Fl.mk)
    (by simp [progRS, RPExpr.map, RPExpr.SumsAgree]) r (by
    rw [rpmap_map, RVars.map_map]
    rw [show Fl.val ∘ Fl.mk (A := .binary 53) = id from rfl]
    rw [show progRS.map id = progRS by simp [progRS, RPExpr.map], show σR.map id = σR by simp [RVars.map, Vars.map, RSpline.map, Spline.map, show Point.map (n := 2) (id : ℝ → ℝ) = id from rfl], h])
  exact ⟨b, h1, h2⟩

/-- The sum of a rational spline with itself: the weight functions are equal in both computations. -/
example : (RPExpr.add (.leaf 0) (.leaf 0) : RPExpr F64 2).SumsAgree cfg2 (σR.map Fl.mk) id Ball.ofFl := by
  refine ⟨trivial, trivial, ?_⟩
  intro r s r' s' h1 h2 h3 h4
  obtain rfl : r = s := Except.ok.inj (h1.symm.trans h2)
  obtain rfl : r' = s' := Except.ok.inj (h3.symm.trans h4)
  have e : ∀ {K : Type} [BEq K] [ReflBEq K] (s : Spline K), s.eqOp s = true := by
    intro K _ _ s; simp [Spline.eqOp]
  have i1 : ReflBEq (Ball (.binary 53)) := ⟨fun {a} => beq_self_eq_true a.c⟩
  have i2 : ReflBEq F64 := inferInstance
  rw [e, e]

end Bezman.Props
