import Verif.Proofs.Homogeneous

/-! # Properties: homogeneous coordinates

A rational spline in `V` is a polynomial spline in `V × K`, with the control points `(w P, w)`.  The structural operations of rational
splines are those of the polynomial spline, so they commute with every linear map of the homogeneous coordinates: with projective
maps, in particular affine maps and a common factor of all the weights. -/

namespace Bezman.Props
open Spec

section
variable {K V V' : Type} [Zero K] [One K] [Add K] [Sub K] [Mul K] [Neg K] [Div K] [NatCast K]
  [Zero V] [Add V] [Sub V] [Neg V] [SMul K V] [Zero V'] [Add V'] [Sub V'] [Neg V'] [SMul K V']

/-- C85. Every consistent rational spline is the projection of exactly one spline of homogeneous control points. -/
theorem C85_every (ds : List ℕ) (r : RSpline K V) (h : HasRShape ds r) : ∃! H : Spline (V × K), RSpline.ofHom H = r :=
  RSpline.ofHom_every h

/-- C85. Values: evaluate the homogeneous spline, then divide by the weight. -/
theorem C85_evaluate [BEq K] [ScalarDiv K V] (H : Spline (V × K)) (t : List K) :
    (RSpline.ofHom H).evaluate t = (do let x ← H.evaluate t; divM x.1 x.2) := by
  simp only [RSpline.evaluate, RSpline.ofHom]
  rw [(C84_linear_evaluate ⟨0, 0⟩ linearOn_fst H t []).1, (C84_linear_evaluate ⟨0, 0⟩ linearOn_snd H t []).1]
  cases H.evaluate t with
  | error e => rfl
  | ok x => rfl

/-- C85. Degree elevation, splitting, composition and the product are those of the polynomial spline, in any arithmetic. -/
theorem C85_operations [LT K] [DecidableLT K] (cfg : Cfg) (H : Spline (V × K)) :
    (∀ d, (RSpline.ofHom H).orderElevate d = (Spline.orderElevate K H d).map RSpline.ofHom) ∧
    (∀ (z : K) d, (RSpline.ofHom H).splitAt z d = (H.splitAt z d).map fun l => (RSpline.ofHom l.1, RSpline.ofHom l.2)) ∧
    (∀ (zs : List K) d, (RSpline.ofHom H).splitAtMany zs d = (H.splitAtMany zs d).map (List.map RSpline.ofHom)) ∧
    (∀ (W : Type) [Coords K W] (q : Spline W), RSpline.compose cfg (RSpline.ofHom H) q = (Spline.compose K cfg H q).map RSpline.ofHom) ∧
    (∀ (W : Type) [Coords K W] (q : RSpline K W),
      RSpline.composeRational cfg (RSpline.ofHom H) q = (H.composeNumeratorRational cfg q).map RSpline.ofHom) ∧
    ∀ (W U : Type) [Zero U] [Add U] [Sub U] [Neg U] [SMul K U] (mul : V → W → U) (G : Spline (W × K)),
      RSpline.mulOp cfg mul (RSpline.ofHom H) (RSpline.ofHom G) =
        (Spline.mulOp K cfg (fun a b => (mul a.1 b.1, a.2 * b.2)) H G).map RSpline.ofHom := by
  refine ⟨fun d => ?_, RSpline.splitAt_hom H, RSpline.splitAtMany_hom H, fun W _ q => ?_, fun W _ q => ?_, fun W U _ _ _ _ _ mul G => ?_⟩
  · have h1 := (C84_linear_operations cfg (linearOn_fst (K := K) (V := V)) H H).2.2.2.2.2.2.2.2.2.1 d
    have h2 := (C84_linear_operations cfg (linearOn_snd (K := K) (V := V)) H H).2.2.2.2.2.2.2.2.2.1 d
    simp only [RSpline.orderElevate, RSpline.ofHom]
    rw [h1, h2]
    cases Spline.orderElevate K H d with
    | error e => rfl
    | ok x => simp [Except.map, RSpline.compatible, Spline.map, assertM, pure_eq_ok, RSpline.ofHom]
  · have h1 := (C84_linear_split_compose cfg (linearOn_fst (K := K) (V := V)) H).2.2 W q
    have h2 := (C84_linear_split_compose cfg (linearOn_snd (K := K) (V := V)) H).2.2 W q
    simp only [RSpline.compose, RSpline.ofHom]
    rw [h1, h2]
    cases Spline.compose K cfg H q with
    | error e => rfl
    | ok x => exact RSpline.ofSplines_hom x
  · have h1 := Spline.composeNumeratorRational_linear cfg (linearOn_fst (K := K) (V := V)) H q
    have h2 := Spline.composeNumeratorRational_linear cfg (linearOn_snd (K := K) (V := V)) H q
    simp only [RSpline.composeRational, RSpline.ofHom]
    rw [h1, h2]
    cases H.composeNumeratorRational cfg q with
    | error e => rfl
    | ok x => exact RSpline.ofSplines_hom x
  · have h1 := C84_product (K := K) (A := Prod.fst) (B := Prod.fst) cfg (linearOn_fst (K := K) (V := U))
      (fun (a : V × K) (b : W × K) => (mul a.1 b.1, a.2 * b.2)) mul (fun _ _ => rfl) H G
    have h2 := C84_product (K := K) (A := Prod.snd) (B := Prod.snd) cfg (linearOn_snd (K := K) (V := U))
      (fun (a : V × K) (b : W × K) => (mul a.1 b.1, a.2 * b.2)) (fun x y => x * y) (fun _ _ => rfl) H G
    simp only [RSpline.mulOp, RSpline.ofHom, Spline.mulScalar]
    rw [h1, h2]
    cases Spline.mulOp K cfg (fun (a : V × K) (b : W × K) => (mul a.1 b.1, a.2 * b.2)) H G with
    | error e => rfl
    | ok x => exact RSpline.ofSplines_hom x

/-- C85. Linear maps of the homogeneous coordinates (projective maps of the points) commute with these operations. -/
theorem C85_projective [LT K] [DecidableLT K] (cfg : Cfg) (Φ : V × K → V' × K) (hΦ : LinearOn K Φ) (H : Spline (V × K)) :
    (∀ d, (RSpline.ofHom (H.map Φ)).orderElevate d = (Spline.orderElevate K H d).map fun G => RSpline.ofHom (G.map Φ)) ∧
    (∀ (z : K) d, (RSpline.ofHom (H.map Φ)).splitAt z d =
      (H.splitAt z d).map fun l => (RSpline.ofHom (l.1.map Φ), RSpline.ofHom (l.2.map Φ))) ∧
    (∀ (zs : List K) d, (RSpline.ofHom (H.map Φ)).splitAtMany zs d =
      (H.splitAtMany zs d).map (List.map fun G => RSpline.ofHom (G.map Φ))) ∧
    (∀ (W : Type) [Coords K W] (q : Spline W),
      RSpline.compose cfg (RSpline.ofHom (H.map Φ)) q = (Spline.compose K cfg H q).map fun G => RSpline.ofHom (G.map Φ)) ∧
    ∀ (W : Type) [Coords K W] (q : RSpline K W), RSpline.composeRational cfg (RSpline.ofHom (H.map Φ)) q =
      (H.composeNumeratorRational cfg q).map fun G => RSpline.ofHom (G.map Φ) := by
  obtain ⟨a1, a2, a3, a4, a5, -⟩ := C85_operations cfg (H.map Φ)
  refine ⟨fun d => ?_, fun z d => ?_, fun zs d => ?_, fun W _ q => ?_, fun W _ q => ?_⟩
  · rw [a1, (C84_linear_operations cfg hΦ H H).2.2.2.2.2.2.2.2.2.1 d]
    cases Spline.orderElevate K H d <;> rfl
  · rw [a2, (C84_linear_split_compose cfg hΦ H).1 z d]
    cases H.splitAt z d <;> rfl
  · rw [a3, (C84_linear_split_compose cfg hΦ H).2.1 zs d]
    cases H.splitAtMany zs d <;> simp [Except.map, Function.comp_def]
  · rw [a4, (C84_linear_split_compose cfg hΦ H).2.2 W q]
    cases Spline.compose K cfg H q <;> rfl
  · rw [a5, Spline.composeNumeratorRational_linear cfg hΦ H q]
    cases H.composeNumeratorRational cfg q <;> rfl

end

section
variable {K V V' W : Type} [Field K] [AddCommGroup V] [Module K V] [AddCommGroup V'] [Module K V']

/-- C85. The constructor: the homogeneous control points are `(w P, w)`. -/
theorem C85_construct (ds : List ℕ) (hds : 0 < ds.length) (points : List V) (weights : List K) (hpl : points.length = size ds)
    (hwl : weights.length = size ds) :
    ∃ H : Spline (V × K), Spline.ofPoints ds (List.zipWith (fun x w => (w • x, w)) points weights) = .ok H ∧
      RSpline.ofPoints ds points weights = .ok (RSpline.ofHom H) := by
  refine ⟨_, (Spline.ofPoints_ok hds (by simp [hpl, hwl])).1, ?_⟩
  rw [RSpline.ofPoints_ok hds hpl hwl]
  congr 1
  simp only [RSpline.ofHom, Spline.map, List.map_zipWith, RSpline.mk.injEq, Spline.mk.injEq, true_and]
  constructor
  · rw [List.zipWith_comm]
  · apply List.ext_getElem
    · simp [hpl, hwl]
    · intro i h1 h2; simp

/-- C85. A common factor of the weights changes nothing: neither the values, nor the control points, and it stays a common factor in
the operations (`C85_projective`). -/
theorem C85_rescale [CharZero K] [DecidableEq K] [ScalarDiv K V] [LawfulScalarDiv K V] (r : RSpline K V) (ds : List ℕ) (f : List K → V) (w : List K → K)
    (hr : r.Computes ds f w) (c : K) (hc : c ≠ 0) :
    (r.map (c * ·) (c • ·)).Computes ds f (fun t => c * w t) ∧
    ∀ idx, ValidIdx ds idx → (r.map (c * ·) (c • ·)).controlPoint idx = r.controlPoint idx := by
  have e1 : r.map (c * ·) (c • ·) = ⟨r.num.map (c • ·), r.wt.map (c • ·)⟩ := rfl
  have hn := Spline.wf_map hr.num_wf (c • ·)
  have hw := Spline.wf_map hr.wt_wf (c • ·)
  have hv : ∀ t : List K, t.length = ds.length → (r.num.map (c • ·)).value t = c • r.num.value t := fun t ht =>
    Spline.value_affine hr.num_wf (LinearMap.lsmul K V c).toAffineMap (by unfold Spline.dim; rw [hr.num_degrees, ht])
  have hu : ∀ t : List K, t.length = ds.length → (r.wt.map (c • ·)).value t = c • r.wt.value t := fun t ht =>
    Spline.value_affine hr.wt_wf (LinearMap.lsmul K K c).toAffineMap (by unfold Spline.dim; rw [hr.wt_degrees, ht])
  rw [e1]
  refine ⟨RSpline.Computes.mk' hn hw hr.num_degrees hr.wt_degrees (fun t ht => ?_) fun t ht h0 => ?_, fun idx hi => ?_⟩
  · rw [hu t ht, hr.wt_value ht, smul_eq_mul]
  · rw [hv t ht, hr.num_value ht (right_ne_zero_of_mul h0), mul_smul]
  · have h1 : ValidIdx r.num.degrees idx := by rw [hr.num_degrees]; exact hi
    have h2 : ValidIdx r.wt.degrees idx := by rw [hr.wt_degrees]; exact hi
    unfold RSpline.controlPoint
    rw [Spline.controlPoint_ok hn h1, Spline.controlPoint_ok hw h2, Spline.controlPoint_ok hr.num_wf h1, Spline.controlPoint_ok hr.wt_wf h2]
    simp only [bind_ok]
    have e2 := Spline.getD_map (s := r.num) (c • ·) (n := flatIndex r.num.degrees idx) (by rw [hr.num_wf.4]; exact flatIndex_lt h1)
    have e3 := Spline.getD_map (s := r.wt) (c • ·) (n := flatIndex r.wt.degrees idx) (by rw [hr.wt_wf.4]; exact flatIndex_lt h2)
    show divM ((r.num.map (c • ·)).cps.getD (flatIndex r.num.degrees idx) 0) ((r.wt.map (c • ·)).cps.getD (flatIndex r.wt.degrees idx) 0) =
      divM (r.num.cps.getD (flatIndex r.num.degrees idx) 0) (r.wt.cps.getD (flatIndex r.wt.degrees idx) 0)
    rw [e2, e3]
    generalize r.wt.cps.getD (flatIndex r.wt.degrees idx) 0 = y
    by_cases h0 : y = 0
    · rw [h0, smul_zero, RSpline.divM_zero, RSpline.divM_zero]
    · rw [RSpline.divM_ok _ (by simp [hc, h0]), RSpline.divM_ok _ h0, smul_smul, smul_eq_mul, mul_inv_rev, mul_assoc, inv_mul_cancel₀ hc, mul_one]

/-- The linear map of homogeneous coordinates for an affine map of points. -/
def homAffine (A : V →ᵃ[K] V') (x : V × K) : V' × K := (A.linear x.1 + x.2 • A 0, x.2)

theorem linearOn_homAffine (A : V →ᵃ[K] V') : LinearOn K (homAffine A) := by
  refine ⟨?_, fun a b => ?_, fun a b => ?_, fun a => ?_, fun c a => ?_⟩ <;>
    simp [homAffine, add_smul, sub_smul, mul_smul] <;> abel

theorem image_ofHom (A : V →ᵃ[K] V') (H : Spline (V × K)) : (RSpline.ofHom H).image A = RSpline.ofHom (H.map (homAffine A)) := by
  simp only [RSpline.image, RSpline.ofHom, Spline.map, List.map_map, Function.comp_def, homAffine, List.zipWith_map]
  simp [List.zipWith_self]

end

section
variable {K V V' W : Type} [Field K] [LT K] [DecidableLT K] [AddCommGroup V] [Module K V] [AddCommGroup V'] [Module K V']

/-- C84. Affine maps of the control points of rational splines commute with degree elevation, splitting and composition. -/
theorem C84_affine_rational_operations [Coords K W] (cfg : Cfg) (ds : List ℕ) (r : RSpline K V) (h : HasRShape ds r) (A : V →ᵃ[K] V') :
    (∀ d, (r.image A).orderElevate d = (r.orderElevate d).map (RSpline.image A)) ∧
    (∀ (z : K) d, (r.image A).splitAt z d = (r.splitAt z d).map fun l => (l.1.image A, l.2.image A)) ∧
    (∀ (zs : List K) d, (r.image A).splitAtMany zs d = (r.splitAtMany zs d).map (List.map (RSpline.image A))) ∧
    (∀ q : Spline W, RSpline.compose cfg (r.image A) q = (RSpline.compose cfg r q).map (RSpline.image A)) ∧
    ∀ q : RSpline K W, RSpline.composeRational cfg (r.image A) q = (RSpline.composeRational cfg r q).map (RSpline.image A) := by
  obtain ⟨H, rfl, -⟩ := C85_every ds r h
  obtain ⟨a1, a2, a3, a4, a5, -⟩ := C85_operations cfg H
  obtain ⟨b1, b2, b3, b4, b5⟩ := C85_projective cfg _ (linearOn_homAffine A) H
  simp only [image_ofHom, a1, a2, a3, a4, a5, b1, b2, b3, b4, b5]
  refine ⟨fun d => ?_, fun z d => ?_, fun zs d => ?_, fun q => ?_, fun q => ?_⟩
  · cases Spline.orderElevate K H d <;> simp [Except.map, image_ofHom]
  · cases H.splitAt z d <;> simp [Except.map, image_ofHom]
  · cases H.splitAtMany zs d <;> simp [Except.map, image_ofHom]
  · cases Spline.compose K cfg H q <;> simp [Except.map, image_ofHom]
  · cases H.composeNumeratorRational cfg q <;> simp [Except.map, image_ofHom]

end

/-! ## Non-vacuity -/

namespace Ex

/-- A quarter of a circle in homogeneous coordinates. -/
def quarter : Spline (Point ℚ 2 × ℚ) := Bezman.Ex.curve (Bezman.Ex.pt 1 0, 1) (Bezman.Ex.pt 1 1, 1) (Bezman.Ex.pt 0 2, 2)

theorem quarter_shape : HasRShape [2] (RSpline.ofHom quarter) := ⟨⟨⟨Nat.zero_lt_succ _, rfl, rfl, rfl⟩, rfl⟩, ⟨⟨Nat.zero_lt_succ _, rfl, rfl, rfl⟩, rfl⟩⟩

end Ex

example (q : Spline ℚ) :
    (Bezman.RSpline.orderElevate ((RSpline.ofHom Ex.quarter).image Ex.move) 0 = ((RSpline.ofHom Ex.quarter).orderElevate 0).map (RSpline.image Ex.move)) ∧
    RSpline.compose Bezman.Ex.cfg ((RSpline.ofHom Ex.quarter).image Ex.move) q =
      (RSpline.compose Bezman.Ex.cfg (RSpline.ofHom Ex.quarter) q).map (RSpline.image Ex.move) :=
  have h := C84_affine_rational_operations (W := ℚ) Bezman.Ex.cfg [2] (RSpline.ofHom Ex.quarter) Ex.quarter_shape Ex.move
  ⟨h.1 0, h.2.2.2.1 q⟩

/-- The quarter circle is `(1 - t², 2t) / (1 + t²)`. -/
example : (RSpline.ofHom Ex.quarter).evaluate [(1 / 2 : ℚ)] = .ok (Bezman.Ex.pt (3 / 5) (4 / 5)) := by
  have hw : Ex.quarter.WF := ⟨Nat.zero_lt_succ _, rfl, rfl, rfl⟩
  have e : Ex.quarter.value [(1 / 2 : ℚ)] = (Bezman.Ex.pt (3 / 4) 1, 5 / 4) := by
    refine Prod.ext ?_ ?_
    · apply Point.ext
      funext i
      fin_cases i <;> simp [Spline.value, Ex.quarter, Bezman.Ex.curve, bezier, bern, Finset.sum_range_succ, flatIndex, Bezman.Ex.pt] <;> norm_num
    · simp [Spline.value, Ex.quarter, Bezman.Ex.curve, bezier, bern, Finset.sum_range_succ, flatIndex]
      norm_num
  rw [C85_evaluate, Spline.evaluate_ok (K := ℚ) hw rfl, e]
  simp only [bind_ok]
  rw [RSpline.divM_ok _ (by norm_num)]
  congr 1
  apply Point.ext
  funext i
  fin_cases i <;> simp [Bezman.Ex.pt]

end Bezman.Props
