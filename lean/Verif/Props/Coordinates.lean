import Verif.Proofs.Coordinates
import Verif.Props.Laws
import Verif.Props.Consistent

/-! # Properties: the coordinates of point valued splines are computed independently

The scalars are an arbitrary type with arbitrary operations: exact numbers, floating point numbers, automatic
differentiation types.  Two equations are assumed of the arithmetic where they are used, and both hold of IEEE
numbers: multiplication commutes, and a product with `-1` is the negation. -/

namespace Bezman.Props
open Spec

section
variable {K : Type} {n : ℕ} [Zero K] [One K] [Add K] [Sub K] [Mul K] [Neg K] [Div K] [NatCast K] [LT K] [DecidableLT K]

attribute [local instance] parSame

/-- C79. Coordinate `j` of the value at a parametric position is the value of the spline of the coordinates `j`, for each of the
three evaluators; the outcome, when it is an error, is the same. -/
theorem C79_evaluate (cfg : Cfg) (hcomm : ∀ a b : K, a * b = b * a) (hneg : ∀ a : K, a * (-1) = -a) (j : Fin n)
    (s : Spline (Point K n)) (t : List K) (k : List ℕ) :
    (s.coordinate j).evaluate t = (s.evaluate t).map (·.val j) ∧
    (s.coordinate j).forwardEvaluate cfg t = (s.forwardEvaluate cfg t).map (·.val j) ∧
    (s.coordinate j).evaluateDerivative cfg t k = (s.evaluateDerivative cfg t k).map (·.val j) := by
  let P := parCoord K j
  have i1 : ParScalar K K := parScalarSame
  have i3 : ParPoint K K (Point K n) K := parPointCoord j hcomm hneg
  have h := coordinate_rel j s
  have ht : t ≋ t := List.forall₂_same.2 fun _ _ => (rfl : _ = _)
  have key : ∀ {x : M (Point K n)} {y : M K}, RelM strict x y → y = x.map (·.val j) := fun h => RelM.toMap (fun _ _ => Eq.symm) h
  exact ⟨key (Spline.parEvaluate h ht), key (Spline.parForwardEvaluate cfg h ht), key (Spline.parEvaluateDerivative cfg h ht k)⟩

/-- C79. Coordinate `j` of the result of any program is the result of the same program on the coordinates `j` of its
variables. -/
theorem C79_programs (cfg : Cfg) (hcomm : ∀ a b : K, a * b = b * a) (hneg : ∀ a : K, a * (-1) = -a) (σ : Vars K n)
    (hσ : ∀ i, ∃ m, 0 < m ∧ Bookkeeping m (σ.p i)) (j : Fin n) (e : PExpr K n) :
    (e.coordinate j).run cfg σ = (e.run cfg σ).map (·.coordinate j) :=
  let _ := parCoord K j
  RelM.toMap (fun _ _ => eq_coordinate j) (coordinate_run cfg σ
    (fun i => by obtain ⟨m, hm, h⟩ := hσ i; exact ((good_iff hm).mpr h).1) hcomm hneg j e)

variable [BEq K]

/-- C79. The operations of rational splines act on each coordinate by itself: the weights are the same for all of them. -/
theorem C79_rational (cfg : Cfg) (hcomm : ∀ a b : K, a * b = b * a) (hneg : ∀ a : K, a * (-1) = -a) (j : Fin n)
    (r q : RSpline K (Point K n)) :
    RSpline.addOp cfg (r.coordinate j) (q.coordinate j) = (RSpline.addOp cfg r q).map (·.coordinate j) ∧
    RSpline.addAssign cfg (r.coordinate j) (q.coordinate j) = (RSpline.addAssign cfg r q).map (·.coordinate j) ∧
    RSpline.subOp cfg (r.coordinate j) (q.coordinate j) = (RSpline.subOp cfg r q).map (·.coordinate j) ∧
    RSpline.subAssign cfg (r.coordinate j) (q.coordinate j) = (RSpline.subAssign cfg r q).map (·.coordinate j) ∧
    (r.coordinate j).negOp = r.negOp.map (·.coordinate j) ∧
    (∀ c : K, (r.coordinate j).smulOp c = (r.smulOp c).map (·.coordinate j)) ∧
    (∀ v : Point K n, (r.coordinate j).addPoint (v.val j) = (r.addPoint v).map (·.coordinate j)) ∧
    (∀ v : Point K n, (r.coordinate j).subPoint (v.val j) = (r.subPoint v).map (·.coordinate j)) ∧
    (∀ d, (r.coordinate j).orderElevate d = (r.orderElevate d).map (·.coordinate j)) ∧
    (∀ o, (r.coordinate j).derivativeSpline cfg o = (r.derivativeSpline cfg o).map (·.coordinate j)) ∧
    (∀ (z : K) d, (r.coordinate j).splitAt z d = (r.splitAt z d).map fun l => (l.1.coordinate j, l.2.coordinate j)) ∧
    (∀ (zs : List K) d, (r.coordinate j).splitAtMany zs d = (r.splitAtMany zs d).map fun l => l.map (·.coordinate j)) ∧
    (∀ w : RSpline K K, RSpline.mulOp cfg (fun x y => x * y) w (q.coordinate j) =
      (RSpline.mulOp cfg (fun (c : K) (v : Point K n) => c • v) w q).map (·.coordinate j)) ∧
    (∀ w : RSpline K K, RSpline.mulOp cfg (fun x y => x * y) (q.coordinate j) w =
      (RSpline.mulOp cfg (fun (v : Point K n) (c : K) => c • v) q w).map (·.coordinate j)) ∧
    (∀ (m : ℕ) (s : Spline (Point K m)), RSpline.compose cfg (r.coordinate j) s = (RSpline.compose cfg r s).map (·.coordinate j)) ∧
    (∀ s : Spline K, RSpline.compose cfg (r.coordinate j) s = (RSpline.compose cfg r s).map (·.coordinate j)) ∧
    (∀ (m : ℕ) (s : RSpline K (Point K m)),
      RSpline.composeRational cfg (r.coordinate j) s = (RSpline.composeRational cfg r s).map (·.coordinate j)) ∧
    (∀ s : RSpline K K, RSpline.composeRational cfg (r.coordinate j) s = (RSpline.composeRational cfg r s).map (·.coordinate j)) ∧
    (∀ (p : Spline (Point K n)) (m : ℕ) (s : RSpline K (Point K m)),
      Spline.composeRational cfg (p.coordinate j) s = (Spline.composeRational cfg p s).map (·.coordinate j)) ∧
    (∀ (p : Spline (Point K n)) (s : RSpline K K),
      Spline.composeRational cfg (p.coordinate j) s = (Spline.composeRational cfg p s).map (·.coordinate j)) :=
  rcoordinate_ops cfg hcomm hneg j r q

/-- C79. The value and the control points of a rational spline, when the arithmetic divides a point by multiplying it with the
reciprocal without a rounding of its own (points are divided by multiplication with the reciprocal, numbers directly). -/
theorem C79_rational_evaluate (hcomm : ∀ a b : K, a * b = b * a) (hneg : ∀ a : K, a * (-1) = -a)
    (hdiv : ∀ a b : K, a * (1 / b) = a / b) (j : Fin n) (r : RSpline K (Point K n)) (t : List K) (i : List ℕ) :
    (r.coordinate j).evaluate t = (r.evaluate t).map (·.val j) ∧
    (r.coordinate j).controlPoint i = (r.controlPoint i).map (·.val j) := by
  let P := parCoord K j
  have i1 : ParScalar K K := parScalarSame
  have i3 : ParPoint K K (Point K n) K := parPointCoord j hcomm hneg
  have i4 : ParZero strict K K := parZeroSame
  have i5 : ParDiv K K (Point K n) K := parDivCoord j hdiv
  have h := rcoordinate_rel j r
  have ht : t ≋ t := List.forall₂_same.2 fun _ _ => (rfl : _ = _)
  have key : ∀ {x : M (Point K n)} {y : M K}, RelM strict x y → y = x.map (·.val j) := fun h => RelM.toMap (fun _ _ => Eq.symm) h
  exact ⟨key (RSpline.parREvaluate h ht), key (RSpline.parRControlPoint h i)⟩

end

/-! ### Examples -/

/-- The assumptions hold of exact numbers. -/
example : (∀ a b : ℝ, a * b = b * a) ∧ (∀ a : ℝ, a * (-1) = -a) ∧ ∀ a b : ℝ, a * (1 / b) = a / b :=
  ⟨mul_comm, fun a => by ring, fun a b => by ring⟩

/-- They hold of the numbers of a floating point format, whose multiplication rounds the exact product: a rounding that returns
numbers of the format, leaves these alone and is symmetric about zero. -/
example (rnd : ℝ → ℝ) (hidem : ∀ a, rnd (rnd a) = rnd a) (hodd : ∀ a, rnd (-a) = -rnd a) (h1 : rnd 1 = 1) :
    let F := {x : ℝ // rnd x = x}
    let mul : F → F → F := fun a b => ⟨rnd (a.1 * b.1), hidem _⟩
    let neg : F → F := fun a => ⟨-a.1, by rw [hodd, a.2]⟩
    (∀ a b : F, mul a b = mul b a) ∧ ∀ a : F, mul a (neg ⟨1, h1⟩) = neg a := by
  refine ⟨fun a b => Subtype.ext ?_, fun a => Subtype.ext ?_⟩
  · exact congrArg rnd (mul_comm _ _)
  · show rnd (a.1 * -1) = -a.1
    rw [mul_neg_one, hodd, a.2]

/-- The first coordinate of a program with composition, product, derivative and split. -/
example : ∃ r, prog.run Ex.cfg σE = .ok r ∧ (prog.coordinate 0).run Ex.cfg σE = .ok (r.coordinate 0) := by
  obtain ⟨r, h, -⟩ := C72_point Ex.cfg Ex.cfg_ok σE μE μE_of prog prog_admissible
  refine ⟨r, h, ?_⟩
  rw [C79_programs Ex.cfg mul_comm (fun a => by ring) σE (fun i => ⟨2, by norm_num, (good_iff (by norm_num)).mp ⟨(μE_of.2 i).1, ?_⟩⟩), h]
  · rfl
  · rfl

end Bezman.Props
