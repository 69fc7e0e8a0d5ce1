import Verif.Proofs.ParamREval
import Verif.Proofs.Dual
import Verif.Props.Coordinates
import Verif.Props.AnyArithRational

/-! # Properties: the number type enters only through its arithmetic

`f` maps one number type to another, commutes with the arithmetic and preserves comparisons (`Arithmetic f`).  No law of arithmetic is
assumed of either type.  Two instances: an embedding of exact number systems, and the value of an `AlgoDiffType`. -/

namespace Bezman.Props
open Spec

section
variable {K K' : Type} {n : ℕ} [Zero K] [One K] [Add K] [Sub K] [Mul K] [Neg K] [Div K] [NatCast K] [LT K] [DecidableLT K] [BEq K]
    [Zero K'] [One K'] [Add K'] [Sub K'] [Mul K'] [Neg K'] [Div K'] [NatCast K'] [LT K'] [DecidableLT K'] [BEq K'] {f : K → K'}

/-- C82. Programs: over the other number type, with the images of the constants and of the variables, the outcome is the image of the
outcome; errors are the same. -/
theorem C82_scalar_program (cfg : Cfg) (h : Arithmetic f) (σ : Vars K n) (e : SExpr K n) :
    (e.map f).run cfg (σ.map f) = (e.run cfg σ).map (Spline.map f) := by
  let _ := parMap f
  have i1 : ParScalar K K' := parScalarMap h
  have i2 : ParOrd strict K K' := parOrdMap h
  exact RelM.toMap (fun _ _ => eq_spline_map fun _ _ => Eq.symm) (parSRun (tol := strict) cfg (vars_map_rel f σ) e (e.map f)
    (srel_map (P := fun _ => True) (Q := fun _ => True) (fun _ _ => rfl) (fun zs _ => parPlanesMap h zs) e
      (sconst (fun _ => trivial) (fun _ => trivial) e)))

/-- C82. Programs with point valued results. -/
theorem C82_point_program (cfg : Cfg) (h : Arithmetic f) (σ : Vars K n) (e : PExpr K n) :
    (e.map f).run cfg (σ.map f) = (e.run cfg σ).map (Spline.map (Point.map f)) := by
  let _ := parMap f
  have i1 : ParScalar K K' := parScalarMap h
  have i2 : ParOrd strict K K' := parOrdMap h
  exact RelM.toMap (fun _ _ => eq_spline_map (eq_point_map fun _ _ => Eq.symm)) (parPRun (tol := strict) cfg (vars_map_rel f σ) e (e.map f)
    (prel_map (P := fun _ => True) (Q := fun _ => True) (fun _ _ => rfl) (fun zs _ => parPlanesMap h zs) e
      (pconst (fun _ => trivial) (fun _ => trivial) e)))

/-- C82. Programs over rational splines. -/
theorem C82_rational_scalar_program (cfg : Cfg) (h : Arithmetic f) (σ : RVars K n) (e : RSExpr K n) :
    (e.map f).run cfg (σ.map f) = (e.run cfg σ).map (RSpline.map f f) := by
  let _ := parMap f
  have i1 : ParScalar K K' := parScalarMap h
  have i2 : ParOrd strict K K' := parOrdMap h
  have i3 : ParEq K K' := parEqMap h
  have i4 : ParZero strict K K' := parZeroMap h
  have i5 : ParDiv K K' K K' := parDivMap h
  have i6 : ParDiv K K' (Point K n) (Point K' n) := parDivPointMap h
  exact RelM.toMap (fun _ _ => eq_rspline_map (fun _ _ => Eq.symm) fun _ _ => Eq.symm) (parRSRun (tol := strict) cfg (rvars_map_rel f σ) e (e.map f)
    (rsrel_map (P := fun _ => True) (Q := fun _ => True) (fun _ _ => rfl) (fun zs _ => parPlanesMap h zs) e
      (rsconst (fun _ => trivial) (fun _ => trivial) e)))

/-- C82. Programs over rational splines with point valued results. -/
theorem C82_rational_point_program (cfg : Cfg) (h : Arithmetic f) (σ : RVars K n) (e : RPExpr K n) :
    (e.map f).run cfg (σ.map f) = (e.run cfg σ).map (RSpline.map f (Point.map f)) := by
  let _ := parMap f
  have i1 : ParScalar K K' := parScalarMap h
  have i2 : ParOrd strict K K' := parOrdMap h
  have i3 : ParEq K K' := parEqMap h
  have i4 : ParZero strict K K' := parZeroMap h
  have i5 : ParDiv K K' K K' := parDivMap h
  have i6 : ParDiv K K' (Point K n) (Point K' n) := parDivPointMap h
  exact RelM.toMap (fun _ _ => eq_rspline_map (fun _ _ => Eq.symm) (eq_point_map fun _ _ => Eq.symm))
    (parRPRun (tol := strict) cfg (rvars_map_rel f σ) e (e.map f)
    (rprel_map (P := fun _ => True) (Q := fun _ => True) (fun _ _ => rfl) (fun zs _ => parPlanesMap h zs) e
      (rpconst (fun _ => trivial) (fun _ => trivial) e)))

omit [DecidableLT K] [DecidableLT K'] in
/-- C82. Evaluation: the three evaluators, the derivatives, and the basis functions. -/
theorem C82_evaluate (cfg : Cfg) (h : Arithmetic f) (s : Spline K) (p : Spline (Point K n)) (t : List K) (k : List ℕ) :
    (s.map f).evaluate (t.map f) = (s.evaluate t).map f ∧
    (s.map f).forwardEvaluate cfg (t.map f) = (s.forwardEvaluate cfg t).map f ∧
    (s.map f).evaluateDerivative cfg (t.map f) k = (s.evaluateDerivative cfg t k).map f ∧
    (p.map (Point.map f)).evaluate (t.map f) = (p.evaluate t).map (Point.map f) ∧
    (p.map (Point.map f)).forwardEvaluate cfg (t.map f) = (p.forwardEvaluate cfg t).map (Point.map f) ∧
    (p.map (Point.map f)).evaluateDerivative cfg (t.map f) k = (p.evaluateDerivative cfg t k).map (Point.map f) ∧
    (s.map f).basisFunctions cfg (t.map f) = (s.basisFunctions cfg t).map (List.map f) ∧
    (s.map f).basisFunctionsDerivatives cfg (t.map f) k = (s.basisFunctionsDerivatives cfg t k).map (List.map f) := by
  let _ := parMap f
  have i1 : ParScalar K K' := parScalarMap h
  have hs : s ≋ s.map f := spline_map_rel fun _ _ => rfl
  have hp : p ≋ p.map (Point.map f) := spline_map_rel fun _ _ _ => rfl
  have ht : t ≋ t.map f := by
    show List.Forall₂ _ _ (List.map _ _)
    rw [List.forall₂_map_right_iff]
    exact List.forall₂_same.2 fun _ _ => rfl
  have ks : ∀ {x : M K} {y : M K'}, RelM strict x y → y = x.map f := fun h => RelM.toMap (fun _ _ => Eq.symm) h
  have kp : ∀ {x : M (Point K n)} {y : M (Point K' n)}, RelM strict x y → y = x.map (Point.map f) :=
    fun h => RelM.toMap (eq_point_map fun _ _ => Eq.symm) h
  have kl : ∀ {x : M (List K)} {y : M (List K')}, RelM strict x y → y = x.map (List.map f) :=
    fun h => RelM.toMap (eq_list_map fun _ _ => Eq.symm) h
  exact ⟨ks (Spline.parEvaluate hs ht), ks (Spline.parForwardEvaluate cfg hs ht), ks (Spline.parEvaluateDerivative cfg hs ht k),
    kp (Spline.parEvaluate hp ht), kp (Spline.parForwardEvaluate cfg hp ht), kp (Spline.parEvaluateDerivative cfg hp ht k),
    kl (Spline.parBasisFunctions cfg hs ht), kl (Spline.parBasisFunctionsDerivatives cfg hs ht k)⟩

omit [DecidableLT K] [DecidableLT K'] in
/-- C82. Evaluation of rational splines, their control points, derivatives and basis functions. -/
theorem C82_rational_evaluate (cfg : Cfg) (h : Arithmetic f) (r : RSpline K K) (p : RSpline K (Point K n)) (t : List K) (i k : List ℕ) :
    (r.map f f).evaluate (t.map f) = (r.evaluate t).map f ∧
    (r.map f f).controlPoint i = (r.controlPoint i).map f ∧
    (p.map f (Point.map f)).evaluate (t.map f) = (p.evaluate t).map (Point.map f) ∧
    (p.map f (Point.map f)).controlPoint i = (p.controlPoint i).map (Point.map f) ∧
    (r.map f f).forwardEvaluate cfg (t.map f) = (r.forwardEvaluate cfg t).map f ∧
    (p.map f (Point.map f)).forwardEvaluate cfg (t.map f) = (p.forwardEvaluate cfg t).map (Point.map f) ∧
    (r.map f f).evaluateDerivative cfg (t.map f) k = (r.evaluateDerivative cfg t k).map f ∧
    (p.map f (Point.map f)).evaluateDerivative cfg (t.map f) k = (p.evaluateDerivative cfg t k).map (Point.map f) ∧
    (r.map f f).basisFunctions cfg (t.map f) = (r.basisFunctions cfg t).map (List.map f) ∧
    (r.map f f).unweightedBasisFunctions cfg (t.map f) = (r.unweightedBasisFunctions cfg t).map (List.map f) ∧
    (r.map f f).basisFunctionsDerivatives cfg (t.map f) k = (r.basisFunctionsDerivatives cfg t k).map (List.map f) := by
  let _ := parMap f
  have i1 : ParScalar K K' := parScalarMap h
  have i4 : ParZero strict K K' := parZeroMap h
  have i5 : ParDiv K K' K K' := parDivMap h
  have i6 : ParDiv K K' (Point K n) (Point K' n) := parDivPointMap h
  have hr : r ≋ r.map f f := ⟨spline_map_rel fun _ _ => rfl, spline_map_rel fun _ _ => rfl⟩
  have hp : p ≋ p.map f (Point.map f) := ⟨spline_map_rel fun _ _ _ => rfl, spline_map_rel fun _ _ => rfl⟩
  have ht : t ≋ t.map f := by
    show List.Forall₂ _ _ (List.map _ _)
    rw [List.forall₂_map_right_iff]
    exact List.forall₂_same.2 fun _ _ => rfl
  have ks : ∀ {x : M K} {y : M K'}, RelM strict x y → y = x.map f := fun h => RelM.toMap (fun _ _ => Eq.symm) h
  have kp : ∀ {x : M (Point K n)} {y : M (Point K' n)}, RelM strict x y → y = x.map (Point.map f) :=
    fun h => RelM.toMap (eq_point_map fun _ _ => Eq.symm) h
  have kl : ∀ {x : M (List K)} {y : M (List K')}, RelM strict x y → y = x.map (List.map f) :=
    fun h => RelM.toMap (fun l l' hl => eq_list_map (fun _ _ => Eq.symm) l l' hl) h
  exact ⟨ks (RSpline.parREvaluate hr ht), ks (RSpline.parRControlPoint hr i), kp (RSpline.parREvaluate hp ht),
    kp (RSpline.parRControlPoint hp i), ks (RSpline.parRForwardEvaluate cfg hr ht), kp (RSpline.parRForwardEvaluate cfg hp ht),
    ks (RSpline.parREvaluateDerivative cfg hr ht k), kp (RSpline.parREvaluateDerivative cfg hp ht k),
    kl (RSpline.parRBasisFunctions cfg hr ht), kl (RSpline.parRUnweightedBasisFunctions cfg hr ht),
    kl (RSpline.parRBasisFunctionsDerivatives cfg hr ht k)⟩

end

/-! ## Embeddings of exact number systems -/

/-- C82. A strictly increasing ring homomorphism of ordered fields, such as the embedding of the rational numbers into the real
numbers, commutes with the arithmetic and preserves comparisons. -/
theorem C82_embedding {K K' : Type} [Field K] [LinearOrder K] [DecidableEq K] [Field K'] [LinearOrder K'] [DecidableEq K'] (f : K →+* K')
    (hf : StrictMono f) : Arithmetic (K := K) (K' := K') f where
  zero := map_zero f
  one := map_one f
  add := map_add f
  sub := map_sub f
  mul := map_mul f
  neg := map_neg f
  div := map_div₀ f
  cast := map_natCast f
  lt _ _ := hf.lt_iff_lt
  eq a b := by
    rw [Bool.eq_iff_iff, beq_iff_eq, beq_iff_eq]
    exact hf.injective.eq_iff

/-! ## The values of an `AlgoDiffType` -/

section
variable {K : Type} {n : ℕ} [Zero K] [One K] [Add K] [Sub K] [Mul K] [Neg K] [Div K] [NatCast K] [LT K] [BEq K]

/-- C82. The operations on `AlgoDiffType` objects with a static number of derivatives are the total functions of `Dual`. -/
theorem C82_algo_diff_operators [Cmath K] (a b : Dual K n) (m : ℕ) :
    a.toADT.add b.toADT = .ok (a + b).toADT ∧ a.toADT.sub b.toADT = .ok (a - b).toADT ∧
    a.toADT.mul b.toADT = .ok (a * b).toADT ∧ a.toADT.neg = .ok (-a).toADT ∧
    (Cmath.div a.v b.v = .ok (a.v / b.v) → Cmath.div 1 (b.v * b.v) = .ok (1 / (b.v * b.v)) →
      a.toADT.div b.toADT = .ok (a / b).toADT) ∧
    (m : Dual K n).toADT = ADT.const (m : K) n ∧ (0 : Dual K n).toADT = ADT.const (0 : K) n ∧ (1 : Dual K n).toADT = ADT.const (1 : K) n :=
  ⟨Dual.toADT_add a b, Dual.toADT_sub a b, Dual.toADT_mul a b, Dual.toADT_neg a, Dual.toADT_div a b, Dual.toADT_const _,
    Dual.toADT_const _, Dual.toADT_const _⟩

/-- C82. Values do not depend on derivatives: the value of an `AlgoDiffType`, over number types with any arithmetic, commutes with the
arithmetic and preserves comparisons.  So by the theorems above, a computation with `AlgoDiffType` objects gives exactly the values
(and errors) of the same computation with plain numbers. -/
theorem C82_algo_diff_value : Arithmetic (K := Dual K n) (K' := K) Dual.v where
  zero := rfl
  one := rfl
  add _ _ := rfl
  sub _ _ := rfl
  mul _ _ := rfl
  neg _ := rfl
  div _ _ := rfl
  cast _ := rfl
  lt _ _ := Iff.rfl
  eq _ _ := rfl

end

/-! ### Examples -/

/-- The embedding of the rational numbers into the real numbers. -/
example : Arithmetic (K := ℚ) (K' := ℝ) (Rat.castHom ℝ) := C82_embedding _ Rat.cast_strictMono

/-- A program with composition, product, derivative and split, over the real numbers and over `AlgoDiffType` objects with these numbers
as values and arbitrary derivatives: the values are the same. -/
example (d : ℝ → Fin 3 → ℝ) : ∃ r r', prog.run Ex.cfg σE = .ok r ∧
    (prog.map fun x => (⟨x, d x⟩ : Dual ℝ 3)).run Ex.cfg (σE.map fun x => (⟨x, d x⟩ : Dual ℝ 3)) = .ok r' ∧
    r'.map (Point.map Dual.v) = r := by
  obtain ⟨r, h, -⟩ := C72_point Ex.cfg Ex.cfg_ok σE μE μE_of prog prog_admissible
  have := C82_point_program Ex.cfg (C82_algo_diff_value (K := ℝ) (n := 3)) (σE.map fun x => ⟨x, d x⟩) (prog.map fun x => ⟨x, d x⟩)
  rw [show (σE.map fun x => (⟨x, d x⟩ : Dual ℝ 3)).map Dual.v = σE by
      simp [Vars.map, Spline.map, Function.comp_def, Point.map],
    show (prog.map fun x => (⟨x, d x⟩ : Dual ℝ 3)).map Dual.v = prog by simp [prog, PExpr.map, SExpr.map], h] at this
  cases h' : (prog.map fun x => (⟨x, d x⟩ : Dual ℝ 3)).run Ex.cfg (σE.map fun x => (⟨x, d x⟩ : Dual ℝ 3)) with
  | error e => rw [h'] at this; cases this
  | ok r' => rw [h'] at this; cases this; exact ⟨_, r', h, rfl, rfl⟩

end Bezman.Props
