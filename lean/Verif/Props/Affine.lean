import Verif.Proofs.Affine
import Verif.Props.RationalCompose
import Verif.Props.Examples
import Verif.Props.Laws

/-! # Properties: maps of points commute with the operations

Linear maps first: no law of arithmetic is assumed of scalars and points, so the theorems hold for floating point numbers and maps
that are exact there, such as permutations of coordinates, projections, embeddings and changes of sign.  Then affine maps, in exact
arithmetic. -/

namespace Bezman.Props
open Spec

section
variable {K V V' : Type} [Zero K] [One K] [Add K] [Sub K] [Mul K] [Neg K] [Div K] [NatCast K]
  [Zero V] [Add V] [Sub V] [Neg V] [SMul K V] [Zero V'] [Add V'] [Sub V'] [Neg V'] [SMul K V'] {L : V → V'}

/-- C84. The value of the image of a spline is the image of the value, for each evaluator. -/
theorem C84_linear_evaluate (cfg : Cfg) (h : LinearOn K L) (s : Spline V) (t : List K) (k : List ℕ) :
    (s.map L).evaluate t = (s.evaluate t).map L ∧ (s.map L).forwardEvaluate cfg t = (s.forwardEvaluate cfg t).map L ∧
    (s.map L).evaluateDerivative cfg t k = (s.evaluateDerivative cfg t k).map L := by
  let _ := parSame K
  let _ := parMap L
  have i1 : ParScalar K K := parScalarSame
  have i2 : ParPoint K K V V' := parPointLinear h
  have hs : s ≋ s.map L := spline_map_rel fun _ _ => rfl
  have ht : t ≋ t := List.forall₂_same.2 fun _ _ => (rfl : _ = _)
  have key : ∀ {x : M V} {y : M V'}, RelM strict x y → y = x.map L := fun h => RelM.toMap (fun _ _ => Eq.symm) h
  exact ⟨key (Spline.parEvaluate hs ht), key (Spline.parForwardEvaluate cfg hs ht), key (Spline.parEvaluateDerivative cfg hs ht k)⟩

/-- C84. Arithmetic, degree elevation and differentiation commute with the map. -/
theorem C84_linear_operations (cfg : Cfg) (h : LinearOn K L) (s q : Spline V) :
    Spline.addOp K cfg (s.map L) (q.map L) = (Spline.addOp K cfg s q).map (Spline.map L) ∧
    Spline.addAssign K cfg (s.map L) (q.map L) = (Spline.addAssign K cfg s q).map (Spline.map L) ∧
    Spline.subOp K cfg (s.map L) (q.map L) = (Spline.subOp K cfg s q).map (Spline.map L) ∧
    Spline.subAssign K cfg (s.map L) (q.map L) = (Spline.subAssign K cfg s q).map (Spline.map L) ∧
    (s.map L).negOp = s.negOp.map (Spline.map L) ∧
    (∀ c : K, (s.map L).smulOp c = (s.smulOp c).map (Spline.map L)) ∧
    (∀ v, (s.map L).addPoint (L v) = (s.addPoint v).map (Spline.map L)) ∧
    (∀ v, (s.map L).subPoint (L v) = (s.subPoint v).map (Spline.map L)) ∧
    (∀ v, Spline.pointSub (L v) (s.map L) = (Spline.pointSub v s).map (Spline.map L)) ∧
    (∀ d, Spline.orderElevate K (s.map L) d = (Spline.orderElevate K s d).map (Spline.map L)) ∧
    (∀ o, Spline.derivativeSpline K cfg (s.map L) o = (Spline.derivativeSpline K cfg s o).map (Spline.map L)) := by
  let _ := parSame K
  let _ := parMap L
  have i1 : ParScalar K K := parScalarSame
  have i2 : ParPoint K K V V' := parPointLinear h
  have hs : s ≋ s.map L := spline_map_rel fun _ _ => rfl
  have hq : q ≋ q.map L := spline_map_rel fun _ _ => rfl
  have key : ∀ {x : M (Spline V)} {y : M (Spline V')}, RelM strict x y → y = x.map (Spline.map L) :=
    fun h => RelM.toMap (fun _ _ => eq_spline_map fun _ _ => Eq.symm) h
  exact ⟨key (Spline.parAddOp cfg hs hq), key (Spline.parAddAssign cfg hs hq), key (Spline.parSubOp cfg hs hq),
    key (Spline.parSubAssign cfg hs hq), key (Spline.parNegOp (K := K) (K' := K) hs), fun c => key (Spline.parSmulOp hs (rfl : c = c)),
    fun v => key (Spline.parAddPoint (K := K) (K' := K) hs (rfl : L v = L v)),
    fun v => key (Spline.parSubPoint (K := K) (K' := K) hs (rfl : L v = L v)),
    fun v => key (Spline.parPointSub (K := K) (K' := K) hs (rfl : L v = L v)), fun d => key (Spline.parOrderElevate hs d),
    fun o => key (Spline.parDerivativeSpline cfg hs o)⟩

/-- C84. Splitting and composition with any inner spline commute with the map. -/
theorem C84_linear_split_compose [LT K] [DecidableLT K] (cfg : Cfg) (h : LinearOn K L) (s : Spline V) :
    (∀ (z : K) d, (s.map L).splitAt z d = (s.splitAt z d).map fun l => (l.1.map L, l.2.map L)) ∧
    (∀ (zs : List K) d, (s.map L).splitAtMany zs d = (s.splitAtMany zs d).map (List.map (Spline.map L))) ∧
    ∀ (W : Type) [Coords K W] (q : Spline W), Spline.compose K cfg (s.map L) q = (Spline.compose K cfg s q).map (Spline.map L) := by
  let _ := parSame K
  let _ := parMap L
  have i1 : ParScalar K K := parScalarSame
  have i2 : ParPoint K K V V' := parPointLinear h
  have i3 : ParOrd strict K K := parOrdSame
  have hs : s ≋ s.map L := spline_map_rel fun _ _ => rfl
  have key : ∀ {x : M (Spline V)} {y : M (Spline V')}, RelM strict x y → y = x.map (Spline.map L) :=
    fun h => RelM.toMap (fun _ _ => eq_spline_map fun _ _ => Eq.symm) h
  refine ⟨fun z d => ?_, fun zs d => ?_, fun W _ q => ?_⟩
  · refine RelM.toMap (fun a b h => ?_) (Spline.parSplitAt hs (rfl : z = z) d)
    exact Prod.ext (eq_spline_map (fun _ _ => Eq.symm) h.1) (eq_spline_map (fun _ _ => Eq.symm) h.2)
  · exact RelM.toMap (fun l l' h => eq_list_map (fun _ _ => eq_spline_map fun _ _ => Eq.symm) l l' h)
      (Spline.parSplitAtMany hs (parPlanesSame zs) d)
  · let _ := parSame W
    have i4 : ParCoords K K W W := parCoordsSame
    exact key (Spline.parCompose cfg hs (parSplineSame (fun _ => (rfl : _ = _)) q))

/-- C84. Products: if the product of the images is the image of the product, for points, then also for splines.  Examples: the product
with a scalar spline under a linear map; the dot product under an orthogonal map (`N` the identity). -/
theorem C84_product {W W' U U' : Type} [Zero U] [Add U] [Sub U] [Neg U] [SMul K U] [Zero U'] [Add U'] [Sub U'] [Neg U'] [SMul K U']
    {A : V → V'} {B : W → W'} {N : U → U'} (cfg : Cfg) (hN : LinearOn K N) (mul : V → W → U) (mul' : V' → W' → U')
    (hm : ∀ a b, mul' (A a) (B b) = N (mul a b)) (s : Spline V) (q : Spline W) :
    Spline.mulOp K cfg mul' (s.map A) (q.map B) = (Spline.mulOp K cfg mul s q).map (Spline.map N) := by
  let _ := parSame K
  let _ := parMap A
  let _ := parMap B
  let _ := parMap N
  have i1 : ParScalar K K := parScalarSame
  have i2 : ParPoint K K U U' := parPointLinear hN
  have hs : s ≋ s.map A := spline_map_rel fun _ _ => rfl
  have hq : q ≋ q.map B := spline_map_rel fun _ _ => rfl
  refine RelM.toMap (fun _ _ => eq_spline_map fun _ _ => Eq.symm) (Spline.parMulOp cfg (fun a a' b b' ha hb => ?_) hs hq)
  obtain rfl : A a = a' := ha
  obtain rfl : B b = b' := hb
  exact (hm a b).symm

/-- C84 for rational splines: the weights stay. -/
theorem C84_linear_rational [BEq K] (cfg : Cfg) (h : LinearOn K L) (r q : RSpline K V) :
    RSpline.addOp cfg (r.map id L) (q.map id L) = (RSpline.addOp cfg r q).map (RSpline.map id L) ∧
    RSpline.addAssign cfg (r.map id L) (q.map id L) = (RSpline.addAssign cfg r q).map (RSpline.map id L) ∧
    RSpline.subOp cfg (r.map id L) (q.map id L) = (RSpline.subOp cfg r q).map (RSpline.map id L) ∧
    RSpline.subAssign cfg (r.map id L) (q.map id L) = (RSpline.subAssign cfg r q).map (RSpline.map id L) ∧
    (r.map id L).negOp = r.negOp.map (RSpline.map id L) ∧
    (∀ c : K, (r.map id L).smulOp c = (r.smulOp c).map (RSpline.map id L)) ∧
    (∀ v, (r.map id L).addPoint (L v) = (r.addPoint v).map (RSpline.map id L)) ∧
    (∀ v, (r.map id L).subPoint (L v) = (r.subPoint v).map (RSpline.map id L)) ∧
    (∀ d, (r.map id L).orderElevate d = (r.orderElevate d).map (RSpline.map id L)) ∧
    (∀ o, (r.map id L).derivativeSpline cfg o = (r.derivativeSpline cfg o).map (RSpline.map id L)) ∧
    (∀ t, (r.map id L).forwardEvaluate cfg t = (r.forwardEvaluate cfg t).map L) ∧
    ∀ t k, (r.map id L).evaluateDerivative cfg t k = (r.evaluateDerivative cfg t k).map L := by
  let _ := parSame K
  let _ := parMap L
  have i1 : ParScalar K K := parScalarSame
  have i2 : ParPoint K K V V' := parPointLinear h
  have i3 : ParEq K K := parEqSame
  have i4 : ParZero strict K K := parZeroSame
  have i5 : ParDiv K K K K := parDivSame
  have hr : r ≋ r.map id L := ⟨spline_map_rel fun _ _ => rfl, spline_map_rel fun _ _ => (rfl : _ = _)⟩
  have hq : q ≋ q.map id L := ⟨spline_map_rel fun _ _ => rfl, spline_map_rel fun _ _ => (rfl : _ = _)⟩
  have e : r.wt.eqOp q.wt = (r.map id L).wt.eqOp (q.map id L).wt := by simp [RSpline.map, Spline.map, Spline.eqOp]
  have key : ∀ {x : M (RSpline K V)} {y : M (RSpline K V')}, RelM strict x y → y = x.map (RSpline.map id L) :=
    fun h => RelM.toMap (fun _ _ => eq_rspline_map (fun _ _ => Eq.symm) fun _ _ => Eq.symm) h
  have key' : ∀ {x : M V} {y : M V'}, RelM strict x y → y = x.map L := fun h => RelM.toMap (fun _ _ => Eq.symm) h
  have ht : ∀ t : List K, t ≋ t := fun t => List.forall₂_same.2 fun _ _ => (rfl : _ = _)
  exact ⟨key (RSpline.parRAddOp cfg hr hq e), key (RSpline.parRAddAssign cfg hr hq e), key (RSpline.parRSubOp cfg hr hq e),
    key (RSpline.parRSubAssign cfg hr hq e), key (RSpline.parRNegOp hr), fun c => key (RSpline.parRSmulOp hr (rfl : c = c)),
    fun v => key (RSpline.parRAddPoint hr (rfl : L v = L v)), fun v => key (RSpline.parRSubPoint hr (rfl : L v = L v)),
    fun d => key (RSpline.parROrderElevate hr d), fun o => key (RSpline.parRDerivativeSpline cfg hr o),
    fun t => key' (RSpline.parRForwardEvaluate cfg hr (ht t)), fun t k => key' (RSpline.parREvaluateDerivative cfg hr (ht t) k)⟩

/-- C84. Splitting and composition of rational splines, and composition of a polynomial spline with a rational one. -/
theorem C84_linear_rational_split_compose [BEq K] [LT K] [DecidableLT K] (cfg : Cfg) (h : LinearOn K L) (r : RSpline K V) (s : Spline V) :
    (∀ (z : K) d, (r.map id L).splitAt z d = (r.splitAt z d).map fun l => (l.1.map id L, l.2.map id L)) ∧
    (∀ (zs : List K) d, (r.map id L).splitAtMany zs d = (r.splitAtMany zs d).map (List.map (RSpline.map id L))) ∧
    ∀ (W : Type) [Coords K W],
      (∀ q : Spline W, RSpline.compose cfg (r.map id L) q = (RSpline.compose cfg r q).map (RSpline.map id L)) ∧
      (∀ q : RSpline K W, RSpline.composeRational cfg (r.map id L) q = (RSpline.composeRational cfg r q).map (RSpline.map id L)) ∧
      ∀ [ScalarDiv K W] (q : RSpline K W), Spline.composeRational cfg (s.map L) q = (Spline.composeRational cfg s q).map (RSpline.map id L) := by
  let _ := parSame K
  let _ := parMap L
  have i1 : ParScalar K K := parScalarSame
  have i2 : ParPoint K K V V' := parPointLinear h
  have i3 : ParOrd strict K K := parOrdSame
  have i4 : ParZero strict K K := parZeroSame
  have hr : r ≋ r.map id L := ⟨spline_map_rel fun _ _ => rfl, spline_map_rel fun _ _ => (rfl : _ = _)⟩
  have hs : s ≋ s.map L := spline_map_rel fun _ _ => rfl
  have keq : ∀ {x : RSpline K V} {y : RSpline K V'}, x ≋ y → y = x.map id L :=
    fun h => eq_rspline_map (fun _ _ => Eq.symm) (fun _ _ => Eq.symm) h
  have key : ∀ {x : M (RSpline K V)} {y : M (RSpline K V')}, RelM strict x y → y = x.map (RSpline.map id L) :=
    fun h => RelM.toMap (fun _ _ => keq) h
  refine ⟨fun z d => ?_, fun zs d => ?_, fun W _ => ?_⟩
  · refine RelM.toMap (fun a b h => ?_) (RSpline.parRSplitAt hr (rfl : z = z) d)
    exact Prod.ext (keq h.1) (keq h.2)
  · exact RelM.toMap (fun l l' h => eq_list_map (fun _ _ => keq) l l' h) (RSpline.parRSplitAtMany hr (parPlanesSame zs) d)
  · let _ := parSame W
    have i6 : ParCoords K K W W := parCoordsSame
    have rs : ∀ q : Spline W, q ≋ q := parSplineSame fun _ => (rfl : _ = _)
    have rr : ∀ q : RSpline K W, q ≋ q := fun q => ⟨rs q.num, parSplineSame (fun _ => (rfl : _ = _)) q.wt⟩
    refine ⟨fun q => key (RSpline.parRCompose cfg hr (rs q)), fun q => key (RSpline.parRComposeRational cfg hr (rr q)), fun q => ?_⟩
    have i5 : ParDiv K K W W := ⟨fun h1 h2 _ _ => by
      obtain rfl : _ = _ := h1
      obtain rfl : _ = _ := h2
      exact (rfl : _ = _)⟩
    exact key (Spline.parComposeRational cfg hs (rr q))

/-- C84. Values and control points of rational splines, if the map commutes with the division of points too. -/
theorem C84_linear_rational_evaluate [BEq K] [ScalarDiv K V] [ScalarDiv K V'] (h : LinearOn K L)
    (hd : ∀ (x : V) (w : K), L (ScalarDiv.sdiv x w) = ScalarDiv.sdiv (L x) w) (r : RSpline K V) (t : List K) (i : List ℕ) :
    (r.map id L).evaluate t = (r.evaluate t).map L ∧ (r.map id L).controlPoint i = (r.controlPoint i).map L := by
  let _ := parSame K
  let _ := parMap L
  have i1 : ParScalar K K := parScalarSame
  have i2 : ParPoint K K V V' := parPointLinear h
  have i4 : ParZero strict K K := parZeroSame
  have i5 : ParDiv K K V V' := ⟨fun {x w x' w'} h1 h2 _ _ => by
    obtain rfl : L x = x' := h1
    obtain rfl : w = w' := h2
    exact hd x w⟩
  have hr : r ≋ r.map id L := ⟨spline_map_rel fun _ _ => rfl, spline_map_rel fun _ _ => (rfl : _ = _)⟩
  have ht : t ≋ t := List.forall₂_same.2 fun _ _ => (rfl : _ = _)
  exact ⟨RelM.toMap (fun _ _ => Eq.symm) (RSpline.parREvaluate hr ht), RelM.toMap (fun _ _ => Eq.symm) (RSpline.parRControlPoint hr i)⟩

/-- C84 for products of rational splines: the weights are multiplied. -/
theorem C84_rational_product [BEq K] {W W' U U' : Type} [Zero U] [Add U] [Sub U] [Neg U] [SMul K U] [Zero U'] [Add U'] [Sub U'] [Neg U']
    [SMul K U'] {A : V → V'} {B : W → W'} {N : U → U'} (cfg : Cfg) (hN : LinearOn K N) (mul : V → W → U) (mul' : V' → W' → U')
    (hm : ∀ a b, mul' (A a) (B b) = N (mul a b)) (r : RSpline K V) (q : RSpline K W) :
    RSpline.mulOp cfg mul' (r.map id A) (q.map id B) = (RSpline.mulOp cfg mul r q).map (RSpline.map id N) := by
  have h1 := C84_product (K := K) cfg hN mul mul' hm r.num q.num
  simp only [RSpline.mulOp, RSpline.map]
  rw [h1, show Spline.map id r.wt = r.wt by simp [Spline.map], show Spline.map id q.wt = q.wt by simp [Spline.map]]
  cases Spline.mulOp K cfg mul r.num q.num with
  | error e => rfl
  | ok a =>
    simp only [Except.map, bind_ok]
    cases Spline.mulScalar cfg r.wt q.wt with
    | error e => rfl
    | ok b =>
      simp only [bind_ok, RSpline.ofSplines, RSpline.compatible, Spline.map]
      cases assertM (a.degrees == b.degrees) with
      | error e => rfl
      | ok u => simp [pure_eq_ok, RSpline.map, Spline.map]

end

/-! ## Affine maps -/

section
variable {K V V' : Type} [Field K] [CharZero K] [AddCommGroup V] [Module K V] [AddCommGroup V'] [Module K V']

/-- C84. The image of a spline under an affine map computes the image of the function. -/
theorem C84_affine (s : Spline V) (ds : List ℕ) (f : List K → V) (hs : s.Computes ds f) (A : V →ᵃ[K] V') :
    (s.map A).Computes ds (fun t => A (f t)) := hs.affine A

/-- C84. Values and derivatives: a derivative of positive order is mapped by the linear part of the map. -/
theorem C84_affine_evaluate (cfg : Cfg) (hmax : cfg.maxBinom ≤ 68) (s : Spline V) (hs : s.WF) (A : V →ᵃ[K] V') (t : List K)
    (ht : t.length = s.dim) :
    (∃ x, s.evaluate t = .ok x ∧ (s.map A).evaluate t = .ok (A x)) ∧
    ((∀ p ∈ s.degrees, p < cfg.maxBinom) →
      (∃ x, s.forwardEvaluate cfg t = .ok x ∧ (s.map A).forwardEvaluate cfg t = .ok (A x)) ∧
      ∀ k : List ℕ, k.length = s.dim → (∃ o ∈ k, 0 < o) →
        ∃ x, s.evaluateDerivative cfg t k = .ok x ∧ (s.map A).evaluateDerivative cfg t k = .ok (A.linear x)) := by
  have hw := Spline.wf_map hs A
  refine ⟨⟨_, Spline.evaluate_ok hs ht, ?_⟩, fun hd => ⟨⟨_, Spline.forwardEvaluate_ok hmax hs hd ht, ?_⟩, fun k hk hp =>
    ⟨_, Spline.evaluateDerivative_ok hmax hs hd ht hk, ?_⟩⟩⟩
  · rw [Spline.evaluate_ok hw ht, Spline.value_affine hs A ht]
  · rw [Spline.forwardEvaluate_ok hmax hw hd ht, Spline.value_affine hs A ht]
  · rw [Spline.evaluateDerivative_ok hmax hw hd ht hk]
    exact congrArg _ (Spline.tens_affine hs A ht hk hp)

/-- C84. Degree elevation and differentiation. -/
theorem C84_affine_elevate (s : Spline V) (hs : s.WF) (A : V →ᵃ[K] V') (d p : ℕ) (hp : s.degrees[d]? = some p)
    (hsize : size (s.degrees.set d (p + 1)) < 2 ^ 31) :
    ∃ r, Spline.orderElevate K s d = .ok r ∧ Spline.orderElevate K (s.map A) d = .ok (r.map A) := by
  have hc : s.Computes s.degrees (fun t : List K => s.value t) := Spline.Computes.mk' hs rfl fun _ _ => rfl
  obtain ⟨r, h1, h2⟩ := C12_order_elevate s _ _ hc d p hp hsize
  obtain ⟨r', h3, h4⟩ := C12_order_elevate (s.map A) _ _ (hc.affine A) d p hp hsize
  exact ⟨r, h1, by rw [h3, h4.unique (h2.affine A)]⟩

theorem C84_affine_derivative (cfg : Cfg) (hmax : cfg.maxBinom ≤ 68) (s : Spline V) (hs : s.WF) (A : V →ᵃ[K] V') (orders : List ℕ)
    (hl : orders.length = s.dim) (hle : ∀ (d o p : ℕ), orders[d]? = some o → s.degrees[d]? = some p → o ≤ p)
    (hord : ∀ o ∈ orders, o < cfg.maxBinom) (hsize : size s.degrees < 2 ^ 64) (hp : ∃ o ∈ orders, 0 < o) :
    ∃ r, Spline.derivativeSpline K cfg s orders = .ok r ∧ Spline.derivativeSpline K cfg (s.map A) orders = .ok (r.map A.linear) := by
  obtain ⟨r, h1, h2, h3, h4⟩ := Spline.derivativeSpline_ok (K := K) hmax hs hl hle hord hsize
  obtain ⟨r', g1, g2, g3, g4⟩ := Spline.derivativeSpline_ok (K := K) hmax (Spline.wf_map hs A) (orders := orders) hl hle hord hsize
  refine ⟨r, h1, ?_⟩
  rw [g1]
  have hd : r.dim = s.dim := by
    have hl' : orders.length = s.degrees.length := hl
    unfold Spline.dim
    rw [h3]; simp [hl']
  have e : r.map A.linear = r.map A.linear.toAffineMap := rfl
  refine congrArg _ (Spline.value_unique (K := K) g2 (Spline.wf_map h2 _) (by rw [g3]; exact h3.symm) fun t ht => ?_)
  have ht' : t.length = s.dim := by
    rw [ht, ← hd]
    unfold Spline.dim
    rw [g3, h3]; rfl
  rw [g4 t ht', e, Spline.value_affine h2 _ (by rw [ht', hd]), h4 t ht']
  exact Spline.tens_affine hs A ht' hl hp

end

section
variable {K V V' W : Type} [Field K] [LinearOrder K] [IsStrictOrderedRing K] [AddCommGroup V] [Module K V] [AddCommGroup V'] [Module K V']

/-- C84. Splitting at one plane. -/
theorem C84_affine_split (s : Spline V) (hs : s.WF) (A : V →ᵃ[K] V') (d : ℕ) (hd : d < s.degrees.length) (z : K) (h0 : 0 < z)
    (h1 : z < 1) :
    ∃ a b, s.splitAt z d = .ok (a, b) ∧ (s.map A).splitAt z d = .ok (a.map A, b.map A) := by
  have hc : s.Computes s.degrees (fun t : List K => s.value t) := Spline.Computes.mk' hs rfl fun _ _ => rfl
  obtain ⟨a, b, e1, ha, hb⟩ := C31_split s _ _ hc d hd z h0 h1
  obtain ⟨a', b', e2, ha', hb'⟩ := C31_split (s.map A) _ _ (hc.affine A) d hd z h0 h1
  exact ⟨a, b, e1, by rw [e2, ha'.unique (ha.affine A), hb'.unique (hb.affine A)]⟩

/-- C84. Splitting at several planes. -/
theorem C84_affine_split_many (s : Spline V) (hs : s.WF) (A : V →ᵃ[K] V') (d : ℕ) (hd : d < s.degrees.length) (planes : List K)
    (hinc : planes.Pairwise (· < ·)) (hr : ∀ z ∈ planes, 0 < z ∧ z < 1) :
    ∃ l, s.splitAtMany planes d = .ok l ∧ (s.map A).splitAtMany planes d = .ok (l.map (Spline.map A)) := by
  have hc : s.Computes s.degrees (fun t : List K => s.value t) := Spline.Computes.mk' hs rfl fun _ _ => rfl
  obtain ⟨l, e1, hl, h⟩ := C33_split_many s _ _ hc d hd planes hinc hr
  obtain ⟨l', e2, hl', h'⟩ := C33_split_many (s.map A) _ _ (hc.affine A) d hd planes hinc hr
  refine ⟨l, e1, ?_⟩
  rw [e2]
  refine congrArg _ (List.ext_getElem (by simp [hl, hl']) fun i h1 h2 => ?_)
  have hi : i < l.length := by rw [hl, ← hl']; exact h1
  have hlen : (0 :: planes ++ [1]).length = planes.length + 2 := by simp
  have e3 := List.getElem?_eq_getElem (l := 0 :: planes ++ [1]) (i := i) (by rw [hlen]; omega)
  have e4 := List.getElem?_eq_getElem (l := 0 :: planes ++ [1]) (i := i + 1) (by rw [hlen]; omega)
  have u := h i l[i] _ _ (List.getElem?_eq_getElem hi) e3 e4
  have u' := h' i l'[i] _ _ (List.getElem?_eq_getElem h1) e3 e4
  rw [u'.unique (u.affine A), List.getElem_map]

/-- C84. Composition: the outer spline is mapped. -/
theorem C84_affine_compose [AddCommGroup W] [Module K W] [Coords K W] [LawfulCoords K W] (cfg : Cfg) (hmax : cfg.maxBinom ≤ 68)
    (outer : Spline V) (inner : Spline W) (ho : outer.WF) (hi : inner.WF) (A : V →ᵃ[K] V') (hdim : outer.dim = Coords.n K W)
    (hcube : Spline.fitsIntoUnitCube K inner = .ok true) (hdeg : ∀ p ∈ outer.degrees, p < cfg.maxBinom)
    (hdeg' : ∀ q ∈ inner.degrees, outer.degrees.sum * q < cfg.maxBinom) :
    ∃ r, Spline.compose K cfg outer inner = .ok r ∧ Spline.compose K cfg (outer.map A) inner = .ok (r.map A) := by
  have hc : outer.Computes outer.degrees (fun t : List K => outer.value t) := Spline.Computes.mk' ho rfl fun _ _ => rfl
  have hc' : inner.Computes inner.degrees (fun t : List K => inner.value t) := Spline.Computes.mk' hi rfl fun _ _ => rfl
  obtain ⟨r, h1, h2⟩ := C26_compose cfg hmax outer inner _ _ _ _ hc hc' hdim hcube hdeg hdeg'
  obtain ⟨r', h3, h4⟩ := C26_compose cfg hmax (outer.map A) inner _ _ _ _ (hc.affine A) hc' hdim hcube hdeg hdeg'
  exact ⟨r, h1, by rw [h3, h4.unique (h2.affine A)]⟩

end

section
variable {K V V' : Type} [Field K] [CharZero K] [DecidableEq K] [AddCommGroup V] [Module K V] [AddCommGroup V'] [Module K V']
  [ScalarDiv K V] [LawfulScalarDiv K V] [ScalarDiv K V'] [LawfulScalarDiv K V']

/-- C84. The rational spline with the images of the control points and the same weights computes the image of the function. -/
theorem C84_affine_rational (r : RSpline K V) (ds : List ℕ) (f : List K → V) (w : List K → K) (hr : r.Computes ds f w) (A : V →ᵃ[K] V') :
    (r.image A).Computes ds (fun t => A (f t)) w := hr.affine A

/-- C84. That spline is the one constructed from the images of the control points, and reading a control point gives the image. -/
theorem C84_affine_rational_construct (ds : List ℕ) (hds : 0 < ds.length) (points : List V) (weights : List K)
    (hpl : points.length = size ds) (hwl : weights.length = size ds) (A : V →ᵃ[K] V') :
    ∃ r, RSpline.ofPoints ds points weights = .ok r ∧ RSpline.ofPoints ds (points.map A) weights = .ok (r.image A) := by
  refine ⟨_, RSpline.ofPoints_ok hds hpl hwl, ?_⟩
  rw [RSpline.ofPoints_ok hds (by simpa using hpl) hwl]
  refine congrArg _ (congrArg (fun x => RSpline.mk (Spline.mk ds (size ds) (offsetsOf ds) x) _) ?_)
  apply List.ext_getElem
  · simp [hpl, hwl]
  · intro i h1 h2
    simp only [List.getElem_zipWith, List.getElem_map, map_smul]
    rw [affine_apply A, smul_add]

end

/-! ## Non-vacuity -/

/-- Permuting, repeating and dropping coordinates: linear in any arithmetic. -/
theorem linearOn_reindex {K : Type} [Zero K] [One K] [Add K] [Sub K] [Mul K] [Neg K] {m n : ℕ} (σ : Fin m → Fin n) :
    LinearOn K (fun a : Point K n => (⟨fun i => a.val (σ i)⟩ : Point K m)) :=
  ⟨rfl, fun _ _ => rfl, fun _ _ => rfl, fun _ => rfl, fun _ _ => rfl⟩

namespace Ex

/-- Exchanging the coordinates of points with `Float` coordinates. -/
def swap (a : Point Float 2) : Point Float 2 := ⟨fun i => a.val (1 - i)⟩
/-- A surface with `Float` coordinates. -/
def F : Spline (Point Float 2) := Bezman.Ex.surf ⟨![0, 1]⟩ ⟨![0.5, 2]⟩ ⟨![1, 0.25]⟩ ⟨![3, 1]⟩ ⟨![2, 2]⟩ ⟨![7, 0.1]⟩
/-- Exchanging the coordinates of points with integer coordinates. -/
def flip (a : Point ℤ 2) : Point ℤ 2 := ⟨fun i => a.val (1 - i)⟩
/-- The movement `(x, y) ↦ (x + 3, y - 1)`. -/
noncomputable def move : Point ℚ 2 →ᵃ[ℚ] Point ℚ 2 := AffineMap.id ℚ _ + AffineMap.const ℚ _ (Bezman.Ex.pt 3 (-1))

end Ex

local instance : NatCast Float := ⟨Float.ofNat⟩

example (t : List Float) (k : List ℕ) :
    (Ex.F.map Ex.swap).evaluate t = (Ex.F.evaluate t).map Ex.swap ∧
    (Ex.F.map Ex.swap).forwardEvaluate Bezman.Ex.cfg t = (Ex.F.forwardEvaluate Bezman.Ex.cfg t).map Ex.swap ∧
    (Ex.F.map Ex.swap).evaluateDerivative Bezman.Ex.cfg t k = (Ex.F.evaluateDerivative Bezman.Ex.cfg t k).map Ex.swap :=
  C84_linear_evaluate _ (linearOn_reindex _) _ _ _

/-- The squared length of a spline of integer points does not depend on the order of the coordinates. -/
example (s : Spline (Point ℤ 2)) :
    Spline.mulOp ℤ Bezman.Ex.cfg Point.dot (s.map Ex.flip) (s.map Ex.flip) =
      (Spline.mulOp ℤ Bezman.Ex.cfg Point.dot s s).map (Spline.map id) :=
  C84_product (N := id) _ ⟨rfl, fun _ _ => rfl, fun _ _ => rfl, fun _ => rfl, fun _ _ => rfl⟩ _ _ (fun a b => by
    show (0 : ℤ) + a.val 1 * b.val 1 + a.val 0 * b.val 0 = 0 + a.val 0 * b.val 0 + a.val 1 * b.val 1
    ring) _ _

example : ∃ r, Spline.orderElevate ℚ Bezman.Ex.P 1 = .ok r ∧ Spline.orderElevate ℚ (Bezman.Ex.P.map Ex.move) 1 = .ok (r.map Ex.move) :=
  C84_affine_elevate _ Bezman.Ex.P_wf _ 1 1 rfl (by decide)

example : ∃ r, Spline.derivativeSpline ℚ Bezman.Ex.cfg Bezman.Ex.P [1, 0] = .ok r ∧
    Spline.derivativeSpline ℚ Bezman.Ex.cfg (Bezman.Ex.P.map Ex.move) [1, 0] = .ok (r.map Ex.move.linear) :=
  C84_affine_derivative _ Bezman.Ex.cfg_ok _ Bezman.Ex.P_wf _ _ rfl (by
    intro d o p h1 h2
    rcases d with _ | _ | d <;> cases h1 <;> cases h2 <;> decide) (by decide) (by decide) ⟨1, by simp, by decide⟩

example : ∃ l, Bezman.Ex.P.splitAtMany [(1 / 3 : ℚ), 2 / 3] 0 = .ok l ∧
    (Bezman.Ex.P.map Ex.move).splitAtMany [(1 / 3 : ℚ), 2 / 3] 0 = .ok (l.map (Spline.map Ex.move)) :=
  C84_affine_split_many _ Bezman.Ex.P_wf _ 0 (by decide) _ (by simp; norm_num) (by simp; norm_num)

example : ∃ r, Spline.compose ℚ Bezman.Ex.cfg Bezman.Ex.A Q = .ok r ∧
    Spline.compose ℚ Bezman.Ex.cfg (Bezman.Ex.A.map (AffineMap.lineMap (5 : ℚ) (7 : ℚ))) Q = .ok (r.map (AffineMap.lineMap (5 : ℚ) (7 : ℚ))) :=
  C84_affine_compose (K := ℚ) Bezman.Ex.cfg Bezman.Ex.cfg_ok _ _ Bezman.Ex.A_wf Q_wf _ rfl Q_fits (by decide) (by decide)

/-- A quarter of a circle, moved. -/
example : ∃ r, RSpline.ofPoints [2] [Bezman.Ex.pt 1 0, Bezman.Ex.pt 1 1, Bezman.Ex.pt 0 1] [(1 : ℚ), 1, 2] = .ok r ∧
    RSpline.ofPoints [2] ([Bezman.Ex.pt 1 0, Bezman.Ex.pt 1 1, Bezman.Ex.pt 0 1].map Ex.move) [(1 : ℚ), 1, 2] = .ok (r.image Ex.move) :=
  C84_affine_rational_construct _ (by decide) _ _ rfl rfl _

end Bezman.Props
