import Verif.Proofs.RationalSums
import Verif.Props.FloatMore
import Verif.Props.RationalComposeBounds
import Verif.Model.Microstructure

/-! # C114: with positive weights, rounding errors of rational splines do not depend on how different the weights are -/

namespace Bezman.Props
open Spec
variable {A : FloatArith} {n : ℕ}

attribute [local instance] parTriX parScalarTriX parTriY parScalarTriY

/-- C114. The constructor from points and positive weights: one rounding, relative to the weight. -/
theorem C114_construct (hη : A.η = 0) (ds : List ℕ) (h : 0 < ds.length) (points : List (Point (Fl A) n)) (weights : List (Fl A)) (B : Fin n → ℝ)
    (hp : points.length = size ds) (hw : weights.length = size ds) (hpos : ∀ w ∈ weights, 0 < w.val)
    (hB : ∀ x ∈ points, ∀ c, |(x.val c).val| ≤ B c) :
    RApproxRuns ds 1 B (RSpline.ofPoints ds points weights) (RSpline.ofPoints ds (points.map Point.exact) (weights.map Fl.val)) := by
  refine ⟨_, _, RSpline.ofPoints_any h hp hw, RSpline.ofPoints_any h (by simpa using hp) (by simpa using hw),
    ⟨⟨⟨h, rfl, rfl, by simp [hp, hw]⟩, rfl⟩, ⟨⟨h, rfl, rfl, hw⟩, rfl⟩⟩,
    ⟨⟨⟨h, rfl, rfl, by simp [hp, hw]⟩, rfl⟩, ⟨⟨h, rfl, rfl, by simpa using hw⟩, rfl⟩⟩, ?_⟩
  rw [List.forall₂_iff_get]
  refine ⟨by simp, fun i h1 h2 => ?_⟩
  simp only [List.length_zip, List.length_zipWith, lt_min_iff] at h1
  have hwi := hpos weights[i] (List.getElem_mem _)
  simp only [List.get_eq_getElem, List.getElem_zip, List.getElem_zipWith, List.getElem_map]
  refine ⟨hwi, ?_, fun c => ?_⟩
  · rw [sub_self, abs_zero, pow_one, add_sub_cancel_left]; exact mul_nonneg A.u_nonneg hwi.le
  · have hb := hB points[i] (List.getElem_mem _) c
    have e1 : ((weights[i].val • points[i].exact : Point ℝ n).val c) = ((points[i]).val c).val * weights[i].val := rfl
    have e2 : |((points[i]).val c).val * weights[i].val| ≤ B c * weights[i].val := by
      rw [abs_mul, abs_of_pos hwi]; exact mul_le_mul_of_nonneg_right hb hwi.le
    have e3 := A.mul_err ((points[i]).val c).val weights[i].val
    rw [hη, add_zero] at e3
    refine ⟨by rw [e1]; exact e2, ?_⟩
    rw [pow_one, add_sub_cancel_left]
    exact e3.trans (mul_le_mul_of_nonneg_left e2 A.u_nonneg)

/-- C114. Any stored rational spline with positive weights, and the same one with real numbers. -/
theorem C114_stored (r : RSpline (Fl A) (Point (Fl A) n)) (ds : List ℕ) (B : Fin n → ℝ) (hr : HasRShape ds r)
    (h : ∀ v ∈ r.num.cps.zip r.wt.cps, 0 < v.2.val ∧ ∀ c, |(v.1.val c).val| ≤ B c * v.2.val) : r.ApproxPoints ds 0 B r.exactPoints := by
  refine ⟨hr, ⟨⟨hr.1.1.map _, hr.1.2⟩, ⟨hr.2.1.map _, hr.2.2⟩⟩, ?_⟩
  simp only [RSpline.exactPoints, Spline.exactPoints, Spline.exact, List.zip_map, List.forall₂_map_right_iff]
  refine List.forall₂_same.mpr fun v hv => ?_
  obtain ⟨h1, h2⟩ := h v hv
  exact ⟨h1, by simp [Prod.map], fun c => ⟨h2 c, by simp [Prod.map]⟩⟩

/-- C114. The same for scalar valued rational splines. -/
theorem C114_stored_scalar (r : RSpline (Fl A) (Fl A)) (ds : List ℕ) (M : ℝ) (hr : HasRShape ds r)
    (h : ∀ v ∈ r.num.cps.zip r.wt.cps, 0 < v.2.val ∧ |v.1.val| ≤ M * v.2.val) : r.Approx ds 0 M ⟨r.num.exact, r.wt.exact⟩ := by
  refine ⟨hr, ⟨⟨hr.1.1.map _, hr.1.2⟩, ⟨hr.2.1.map _, hr.2.2⟩⟩, ?_⟩
  simp only [Spline.exact, List.zip_map, List.forall₂_map_right_iff]
  refine List.forall₂_same.mpr fun v hv => ?_
  obtain ⟨h1, h2⟩ := h v hv
  exact ⟨h1, by simp [Prod.map], h2, by simp [Prod.map]⟩

variable {ds : List ℕ} {k : ℕ} {B : Fin n → ℝ} {r : RSpline (Fl A) (Point (Fl A) n)} {r' : RSpline ℝ (Point ℝ n)}

/-- C114. Splitting. -/
theorem C114_split (hη : A.η = 0) (h : r.ApproxPoints ds k B r') (z : Fl A) (h0 : 0 < z.val) (h1 : z.val < 1) (d p : ℕ)
    (hp : ds[d]? = some p) :
    ∃ a b a' b', r.splitAt z d = .ok (a, b) ∧ r'.splitAt z.val d = .ok (a', b') ∧ a.ApproxPoints ds (k + 3 * p) B a' ∧
      b.ApproxPoints ds (k + 3 * p) B b' := by
  obtain ⟨a, b, a', b', e1, e2, e3, e4⟩ := Tri.rboth_split Tri.x_iffP Tri.y_iffP Tri.coordwiseP hη (Tri.approxPoints_iff.mp h) h0 h1 hp
  exact ⟨a, b, a', b', e1, e2, Tri.approxPoints_iff.mpr e3, Tri.approxPoints_iff.mpr e4⟩

/-- C114. Degree elevation. -/
theorem C114_elevate (hη : A.η = 0) (hu : A.u ≤ 1 / 2) (h : r.ApproxPoints ds k B r') (d p : ℕ) (hp : ds[d]? = some p)
    (hsz : size (ds.modify d (· + 1)) < 2 ^ 31) :
    RApproxRuns (ds.modify d (· + 1)) (k + (5 * p + 3)) B (r.orderElevate d) (r'.orderElevate d) :=
  Tri.approxRuns_iff.mpr (Tri.rboth_elevate Tri.x_iffP Tri.y_iffP Tri.coordwiseP hη hu (Tri.approxPoints_iff.mp h) hp hsz)

/-- C114. Scaling, negation and translation. -/
theorem C114_affine (hη : A.η = 0) (h : r.ApproxPoints ds k B r') (c : Fl A) (v : Point (Fl A) n) :
    RApproxRuns ds (k + 1) (fun i => |c.val| * B i) (r.smulOp c) (r'.smulOp c.val) ∧
    RApproxRuns ds (k + 1) B r.negOp r'.negOp ∧
    RApproxRuns ds (k + 2) (fun i => B i + |(v.val i).val|) (r.addPoint v) (r'.addPoint v.exact) ∧
    RApproxRuns ds (k + 2) (fun i => B i + |(v.val i).val|) (r.subPoint v) (r'.subPoint v.exact) := by
  have h' := Tri.approxPoints_iff.mp h
  have h3 := Tri.rboth_addPoint Tri.x_iffP Tri.y_iffP Tri.coordwiseP hη h' (⟨fun i => ⟨v.val i, (v.val i).val, 0⟩⟩ : Point (Tri A) n)
    (b := fun i => |(v.val i).val|) (fun i => Tri.NearM.exact (v.val i) 0)
  have h4 := Tri.rboth_subPoint Tri.x_iffP Tri.y_iffP Tri.coordwiseP hη (fun _ _ _ => rfl) h' (⟨fun i => ⟨v.val i, (v.val i).val, 0⟩⟩ : Point (Tri A) n)
    (b := fun i => |(v.val i).val|) (fun i => Tri.NearM.exact (v.val i) 0)
  exact ⟨Tri.approxRuns_iff.mpr (Tri.rboth_scale Tri.x_iffP Tri.y_iffP Tri.coordwiseP hη h' c),
    Tri.approxRuns_iff.mpr (Tri.rboth_neg Tri.x_iffP Tri.y_iffP (Tri.neg_nearP hη) h'), Tri.approxRuns_iff.mpr h3, Tri.approxRuns_iff.mpr h4⟩

/-- C114. Products: two scalar valued rational splines, one with a rational spline of points from either side, and the scalar product of two
rational splines of points. -/
theorem C114_product (hη : A.η = 0) (hu : A.u ≤ 1 / 2) (cfg : Cfg) (hmax : cfg.maxBinom ≤ 68) (da db : List ℕ) (hdim : db.length = da.length)
    (hdeg : ∀ p ∈ sumDegrees da db, p < cfg.maxBinom) (ka kb : ℕ) (a b : RSpline (Fl A) (Fl A)) (a' b' : RSpline ℝ ℝ) (M N : ℝ)
    (v w : RSpline (Fl A) (Point (Fl A) n)) (v' w' : RSpline ℝ (Point ℝ n)) (Bv Bw : Fin n → ℝ) (ha : a.Approx da ka M a') (hb : b.Approx db kb N b')
    (hv : v.ApproxPoints da ka Bv v') (hw : w.ApproxPoints db kb Bw w') :
    RApproxRuns₁ (sumDegrees da db) (productRoundings da db ka kb) (M * N) (RSpline.mulOp cfg (fun x y => x * y) a b)
      (RSpline.mulOp cfg (fun x y => x * y) a' b') ∧
    RApproxRuns (sumDegrees da db) (productRoundings da db ka kb) (fun c => M * Bw c)
      (RSpline.mulOp cfg (fun c (x : Point (Fl A) n) => c • x) a w) (RSpline.mulOp cfg (fun c (x : Point ℝ n) => c • x) a' w') ∧
    RApproxRuns (sumDegrees da db) (productRoundings da db ka kb) (fun c => Bv c * N)
      (RSpline.mulOp cfg (fun (x : Point (Fl A) n) c => c • x) v b) (RSpline.mulOp cfg (fun (x : Point ℝ n) c => c • x) v' b') ∧
    RApproxRuns₁ (sumDegrees da db) (productRoundings da db ka kb + n) (∑ c, Bv c * Bw c) (RSpline.mulOp cfg Point.dot v w)
      (RSpline.mulOp cfg Point.dot v' w') := by
  have ha := Tri.approx_iff.mp ha
  have hb := Tri.approx_iff.mp hb
  have hv := Tri.approxPoints_iff.mp hv
  have hw := Tri.approxPoints_iff.mp hw
  refine ⟨Tri.approxRuns₁_iff.mpr ?_, Tri.approxRuns_iff.mpr ?_, Tri.approxRuns_iff.mpr ?_, Tri.approxRuns₁_iff.mpr ?_⟩
  · exact Tri.rboth_mul (co'' := Tri.co₁) Tri.coordwise₁ hη Tri.x_iff Tri.y_iff Tri.x_iff Tri.y_iff Tri.x_iff Tri.y_iff hu (fun _ => rfl) hmax
      (mul := fun x y => x * y) (fun _ _ => rfl) (fun _ _ => rfl) (ε := 0) (fun _ _ => Tri.HomNear.mul (i := id) (i' := id) hη (fun _ _ _ => .inl rfl)) ha hb hdim hdeg
  · exact Tri.rboth_mul (co'' := Tri.coP) Tri.coordwiseP hη Tri.x_iff Tri.y_iff Tri.x_iffP Tri.y_iffP Tri.x_iffP Tri.y_iffP hu (fun _ => rfl) hmax
      (mul := fun c x => c • x) (fun _ _ => rfl) (fun _ _ => rfl) (ε := 0) (fun _ _ => Tri.HomNear.mul (i := fun _ => ()) (i' := id) hη (fun _ _ _ => .inr rfl)) ha hw hdim hdeg
  · exact Tri.rboth_mul (co'' := Tri.coP) Tri.coordwiseP hη Tri.x_iffP Tri.y_iffP Tri.x_iff Tri.y_iff Tri.x_iffP Tri.y_iffP hu (fun _ => rfl) hmax
      (mul := fun x c => c • x) (fun _ _ => rfl) (fun _ _ => rfl) (ε := 0) (fun _ _ => Tri.HomNear.mul (co := Tri.coP) (co' := Tri.co₁) (co'' := Tri.coP) (mul := fun x c => c • x) (i := id) (i' := fun _ => ()) hη (fun _ _ _ => .inl rfl)) hv hb hdim hdeg
  · exact Tri.rboth_mul (co'' := Tri.co₁) Tri.coordwise₁ hη Tri.x_iffP Tri.y_iffP Tri.x_iffP Tri.y_iffP Tri.x_iff Tri.y_iff hu (fun _ => rfl) hmax
      (mul := Point.dot) (Tri.dot_map rfl (fun _ _ => rfl) (fun _ _ => rfl)) (Tri.dot_map rfl (fun _ _ => rfl) (fun _ _ => rfl)) (ε := n)
      (fun a b ha hb => ⟨mul_nonneg ha.1 hb.1, (Tri.NearM.mul hη ha.2.1 hb.2.1).mono (Nat.le_add_right _ _), fun _ => by
        have := Tri.NearM.dot hη ha.2.2 hb.2.2
        rw [show ∑ c, Bv c * a.2.y * (Bw c * b.2.y) = (∑ c, Bv c * Bw c) * (a.2.y * b.2.y) by
          rw [Finset.sum_mul]; exact Finset.sum_congr rfl fun _ _ => by ring] at this
        exact this⟩) hv hw hdim hdeg

theorem NearM_add' {c : Fin n} {a b : Point (Tri A) n} {M N : ℝ} {k : ℕ} (h1 : Tri.NearM M k (Tri.coP c a)) (h2 : Tri.NearM N k (Tri.coP c b)) :
    Tri.NearM (M + N) (k + 1) (Tri.coP c (a + b)) := Tri.NearM.add h1 h2
theorem NearM_sub' {c : Fin n} {a b : Point (Tri A) n} {M N : ℝ} {k : ℕ} (h1 : Tri.NearM M k (Tri.coP c a)) (h2 : Tri.NearM N k (Tri.coP c b)) :
    Tri.NearM (M + N) (k + 1) (Tri.coP c (a - b)) := Tri.NearM.sub h1 h2

/-- C114. Sums and differences, if the weights are found to be the same or different in both runs. -/
theorem C114_sum (hη : A.η = 0) (hu : A.u ≤ 1 / 2) (cfg : Cfg) (hmax : cfg.maxBinom ≤ 68) (hfuel : 0 < cfg.fuel) (da db : List ℕ)
    (hdim : db.length = da.length) (hdeg : ∀ p ∈ sumDegrees da db, p < cfg.maxBinom) (ka kb : ℕ) (v w : RSpline (Fl A) (Point (Fl A) n))
    (v' w' : RSpline ℝ (Point ℝ n)) (Bv Bw : Fin n → ℝ) (hv : v.ApproxPoints da ka Bv v') (hw : w.ApproxPoints db kb Bw w')
    (hsame : v.wt.eqOp w.wt = v'.wt.eqOp w'.wt) :
    RSumRuns (v.wt.eqOp w.wt) da db ka kb Bv Bw (v.addOp cfg w) (v'.addOp cfg w') ∧
    RSumRuns (v.wt.eqOp w.wt) da db ka kb Bv Bw (v.addAssign cfg w) (v'.addAssign cfg w') ∧
    RSumRuns (v.wt.eqOp w.wt) da db ka kb Bv Bw (v.subOp cfg w) (v'.subOp cfg w') ∧
    RSumRuns (v.wt.eqOp w.wt) da db ka kb Bv Bw (v.subAssign cfg w) (v'.subAssign cfg w') := by
  have hv := Tri.approxPoints_iff.mp hv
  have hw := Tri.approxPoints_iff.mp hw
  obtain ⟨s1, s2, s3, s4⟩ := RSpline.sums (K := Fl A) (V := Point (Fl A) n) cfg hfuel
  obtain ⟨t1, t2, t3, t4⟩ := RSpline.sums (K := ℝ) (V := Point ℝ n) cfg hfuel
  have mk : ∀ {x : M (RSpline (Fl A) (Point (Fl A) n))} {y : M (RSpline ℝ (Point ℝ n))}, (v.wt.eqOp w.wt = true → Tri.RBothRuns (Point.map Tri.x) (Point.map Tri.y) da
      (Tri.HomPos Tri.coP (fun c => Bv c + Bw c) (max ka kb + 1)) x y) ∧ (v.wt.eqOp w.wt = false → Tri.RBothRuns (Point.map Tri.x) (Point.map Tri.y)
      (sumDegrees da db) (Tri.HomPos Tri.coP (fun c => Bv c + Bw c) (productRoundings da db ka kb + 1)) x y) →
      RSumRuns (v.wt.eqOp w.wt) da db ka kb Bv Bw x y := by
    intro x y h
    unfold RSumRuns
    cases e : v.wt.eqOp w.wt with
    | true => exact Tri.approxRuns_iff.mpr (h.1 e)
    | false => exact Tri.approxRuns_iff.mpr (h.2 e)
  exact ⟨mk (Tri.rboth_sum (co := Tri.coP) Tri.x_iffP Tri.y_iffP Tri.coordwiseP (fun _ => rfl) hη hu hmax (op := (· + ·)) s1 t1 (fun _ _ => rfl) (fun _ _ => rfl)
      (fun c a b M N k h1 h2 => NearM_add' h1 h2) hv hw hdim hdeg hsame),
    mk (Tri.rboth_sum (co := Tri.coP) Tri.x_iffP Tri.y_iffP Tri.coordwiseP (fun _ => rfl) hη hu hmax (op := (· + ·)) s2 t2 (fun _ _ => rfl) (fun _ _ => rfl)
      (fun c a b M N k h1 h2 => NearM_add' h1 h2) hv hw hdim hdeg hsame),
    mk (Tri.rboth_sum (co := Tri.coP) Tri.x_iffP Tri.y_iffP Tri.coordwiseP (fun _ => rfl) hη hu hmax (op := (· - ·)) s3 t3 (fun _ _ => rfl) (fun _ _ => rfl)
      (fun c a b M N k h1 h2 => NearM_sub' h1 h2) hv hw hdim hdeg hsame),
    mk (Tri.rboth_sum (co := Tri.coP) Tri.x_iffP Tri.y_iffP Tri.coordwiseP (fun _ => rfl) hη hu hmax (op := (· - ·)) s4 t4 (fun _ _ => rfl) (fun _ _ => rfl)
      (fun c a b M N k h1 h2 => NearM_sub' h1 h2) hv hw hdim hdeg hsame)⟩

/-- C114. For stored rational splines the weights are found to be the same in both runs or in none. -/
theorem C114_same_weights (v w : RSpline (Fl A) (Point (Fl A) n)) : v.wt.eqOp w.wt = v.exactPoints.wt.eqOp w.exactPoints.wt := by
  have hinj : Function.Injective (Fl.val : Fl A → ℝ) := fun a b h => by cases a; cases b; cases h; rfl
  unfold Spline.eqOp
  show (if w.wt.degrees = v.wt.degrees then _ else _) = if w.wt.degrees = v.wt.degrees then (w.wt.cps.map Fl.val == v.wt.cps.map Fl.val) else false
  congr 1
  rw [Bool.eq_iff_iff]
  constructor
  · intro h; rw [eq_of_beq h]; exact beq_self_eq_true _
  · intro h; rw [List.map_injective_iff.mpr hinj (eq_of_beq h)]; exact beq_self_eq_true _

/-- C114. Evaluation.  With `K` the number of roundings of both evaluations, all coordinates are wrong by at most
`((1+u)^(K+2) / (2 - (1+u)^K) - 1) B`: about `(2 K + 2) u B`, whatever the weights are, as long as they are positive. -/
theorem C114_evaluate (hη : A.η = 0) (h : r.ApproxPoints ds k B r') (t : List (Fl A)) (ht : t.length = ds.length)
    (h01 : ∀ z ∈ t, 0 ≤ z.val ∧ z.val ≤ 1) (hsmall : (1 + A.u) ^ (k + 3 * ds.sum) < 2) :
    ∃ v v', r.evaluate t = .ok v ∧ r'.evaluate (t.map Fl.val) = .ok v' ∧
      ∀ c, |(v.val c).val - v'.val c| ≤ ((1 + A.u) ^ (k + 3 * ds.sum + 2) / (2 - (1 + A.u) ^ (k + 3 * ds.sum)) - 1) * B c := by
  obtain ⟨v, e1, e2, e3, e4, hv⟩ := Tri.rboth_evaluate Tri.x_iffP Tri.y_iffP Tri.coordwiseP hη (Tri.approxPoints_iff.mp h) ht h01
  obtain ⟨d1, d2, -, d3⟩ := Tri.homPos_divP hη hv hsmall
  refine ⟨_, _, ?_, ?_, d3⟩
  · unfold RSpline.evaluate; rw [e1, e2]; exact d1
  · unfold RSpline.evaluate; rw [e3, e4]; exact d2

/-- C114. Evaluation of scalar valued rational splines. -/
theorem C114_evaluate_scalar (hη : A.η = 0) {M : ℝ} {r : RSpline (Fl A) (Fl A)} {r' : RSpline ℝ ℝ} (h : r.Approx ds k M r') (t : List (Fl A))
    (ht : t.length = ds.length) (h01 : ∀ z ∈ t, 0 ≤ z.val ∧ z.val ≤ 1) (hsmall : (1 + A.u) ^ (k + 3 * ds.sum) < 2) :
    ∃ v v', r.evaluate t = .ok v ∧ r'.evaluate (t.map Fl.val) = .ok v' ∧
      |v.val - v'| ≤ ((1 + A.u) ^ (k + 3 * ds.sum + 1) / (2 - (1 + A.u) ^ (k + 3 * ds.sum)) - 1) * M := by
  obtain ⟨v, e1, e2, e3, e4, hv⟩ := Tri.rboth_evaluate Tri.x_iff Tri.y_iff Tri.coordwise₁ hη (Tri.approx_iff.mp h) ht h01
  obtain ⟨d1, d2, -, d3⟩ := Tri.homPos_div₁ hη hv hsmall
  refine ⟨_, _, ?_, ?_, d3⟩
  · unfold RSpline.evaluate; rw [e1, e2]; exact d1
  · unfold RSpline.evaluate; rw [e3, e4]; exact d2

/-- C114. Reading a control point, which divides by its weight. -/
theorem C114_control_point (hη : A.η = 0) (h : r.ApproxPoints ds k B r') (idx : List ℕ) (hidx : ValidIdx ds idx) (hsmall : (1 + A.u) ^ k < 2) :
    ∃ v v', r.controlPoint idx = .ok v ∧ r'.controlPoint idx = .ok v' ∧
      ∀ c, |(v.val c).val - v'.val c| ≤ ((1 + A.u) ^ (k + 2) / (2 - (1 + A.u) ^ k) - 1) * B c := by
  obtain ⟨v, e1, e2, e3, e4, hv⟩ := Tri.rboth_controlPoint (Tri.approxPoints_iff.mp h) hidx
  obtain ⟨d1, d2, -, d3⟩ := Tri.homPos_divP hη hv hsmall
  refine ⟨_, _, ?_, ?_, d3⟩
  · unfold RSpline.controlPoint; rw [e1, e2]; exact d1
  · unfold RSpline.controlPoint; rw [e3, e4]; exact d2

/-- C114. All stored weights remain positive numbers. -/
theorem C114_weights_positive (h : r.ApproxPoints ds k B r') (hsmall : (1 + A.u) ^ k < 2) : ∀ w ∈ r.wt.cps, 0 < w.val := by
  intro w hw
  obtain ⟨H, rfl, rfl, hH, hP⟩ := Tri.approxPoints_iff.mp h
  simp only [RSpline.map, RSpline.ofHom, Spline.map, List.map_map, List.mem_map] at hw
  obtain ⟨z, hz, rfl⟩ := hw
  exact (Tri.homPos_divP' (hP z hz) hsmall)

theorem composeRoundings_add (dO dI : List ℕ) (k : ℕ) : composeRoundings dO dI k 0 = k + composeRoundings dO dI 0 0 := by
  simp only [composeRoundings]; omega

/-- C114. One operation. -/
theorem C114_step (hη : A.η = 0) (hu : A.u ≤ 1 / 2) (h : r.ApproxPoints ds k B r') (s : RStep A n) (hs : s.Pre ds) :
    RApproxRuns (s.degrees ds) (k + s.roundings ds) (s.bound B) (s.run r) (s.runExact r') := by
  have get : ∀ {d : ℕ}, d < ds.length → ds[d]? = some (ds.getD d 0) := fun {d} hd => by simp [hd]
  cases s with
  | elevate d => exact C114_elevate hη hu h d _ (get hs.1) hs.2
  | splitLeft z d =>
    obtain ⟨a, b, a', b', e1, e2, e3, -⟩ := C114_split hη h z hs.2.1 hs.2.2 d _ (get hs.1)
    exact ⟨a, a', by simp [RStep.run, e1, pure_eq_ok, bind_ok], by simp [RStep.runExact, e2, pure_eq_ok, bind_ok], e3⟩
  | splitRight z d =>
    obtain ⟨a, b, a', b', e1, e2, -, e3⟩ := C114_split hη h z hs.2.1 hs.2.2 d _ (get hs.1)
    exact ⟨b, b', by simp [RStep.run, e1, pure_eq_ok, bind_ok], by simp [RStep.runExact, e2, pure_eq_ok, bind_ok], e3⟩
  | scale c => exact (C114_affine hη h c ⟨fun _ => 0⟩).1
  | neg => exact (C114_affine hη h 0 ⟨fun _ => 0⟩).2.1
  | addPoint v => exact (C114_affine hη h 0 v).2.2.1
  | subPoint v => exact (C114_affine hη h 0 v).2.2.2
  | @compose cfg m inner =>
    obtain ⟨h1, h2, h3, h4, h5, h6⟩ := hs
    have := (C114_compose hη hu cfg h1 ds inner.degrees h5 h6 inner ⟨h2, rfl⟩ h3 ((fits_points h2).mpr h4)).1 r r' k B h
    rwa [composeRoundings_add] at this
  | composeScalar cfg inner =>
    obtain ⟨h1, h2, h3, h4, h5, h6⟩ := hs
    have := (C114_compose_scalar hη hu cfg h1 ds inner.degrees h5 h6 inner ⟨h2, rfl⟩ h3 ((fits_scalar h2).mpr h4)).1 r r' k B h
    rwa [composeRoundings_add] at this

/-- C114. Any number of operations. -/
theorem C114_history (hη : A.η = 0) (hu : A.u ≤ 1 / 2) (h : r.ApproxPoints ds k B r') (l : List (RStep A n)) (hl : RStep.PreAll ds l) :
    RApproxRuns (RStep.degreesAll ds l) (k + RStep.roundingsAll ds l) (RStep.boundAll B l) (RStep.runAll r l) (RStep.runAllExact r' l) := by
  induction l generalizing ds k B r r' with
  | nil => exact ⟨r, r', rfl, rfl, h⟩
  | cons s l ih =>
    obtain ⟨q, q', e, e', hq⟩ := C114_step hη hu h s hl.1
    have := ih hq hl.2
    unfold RStep.runAll RStep.runAllExact
    simp only [List.foldlM_cons, e, e', bind_ok]
    rw [RStep.roundingsAll, ← Nat.add_assoc]
    exact this

/-- C114. A rational spline made of points and positive weights, any number of operations, and a value of the result. -/
theorem C114_value (hη : A.η = 0) (hu : A.u ≤ 1 / 2) (ds : List ℕ) (h : 0 < ds.length) (points : List (Point (Fl A) n)) (weights : List (Fl A))
    (B : Fin n → ℝ) (hp : points.length = size ds) (hw : weights.length = size ds) (hpos : ∀ w ∈ weights, 0 < w.val)
    (hB : ∀ x ∈ points, ∀ c, |(x.val c).val| ≤ B c) (l : List (RStep A n)) (hl : RStep.PreAll ds l) (t : List (Fl A))
    (ht : t.length = (RStep.degreesAll ds l).length) (h01 : ∀ z ∈ t, 0 ≤ z.val ∧ z.val ≤ 1) (K : ℕ)
    (hK : K = 1 + RStep.roundingsAll ds l + 3 * (RStep.degreesAll ds l).sum) (hsmall : (1 + A.u) ^ K < 2) :
    ∃ r r' q q' v v', RSpline.ofPoints ds points weights = .ok r ∧ RSpline.ofPoints ds (points.map Point.exact) (weights.map Fl.val) = .ok r' ∧
      RStep.runAll r l = .ok q ∧ RStep.runAllExact r' l = .ok q' ∧ q.evaluate t = .ok v ∧ q'.evaluate (t.map Fl.val) = .ok v' ∧
      ∀ c, |(v.val c).val - v'.val c| ≤ ((1 + A.u) ^ (K + 2) / (2 - (1 + A.u) ^ K) - 1) * RStep.boundAll B l c := by
  subst hK
  obtain ⟨r, r', e1, e2, hr⟩ := C114_construct hη ds h points weights B hp hw hpos hB
  obtain ⟨q, q', e3, e4, hq⟩ := C114_history hη hu hr l hl
  obtain ⟨v, v', e5, e6, hv⟩ := C114_evaluate hη hq t ht h01 hsmall
  exact ⟨r, r', q, q', v, v', e1, e2, e3, e4, e5, e6, hv⟩

/-- C114. The loops of the microstructure example: every patch of the tile composed with every segment.  All results return, in the same order, and
each is as near to the exact one as a single composition. -/
theorem C114_microstructure (hη : A.η = 0) (hu : A.u ≤ 1 / 2) (cfg : Cfg) (hmax : cfg.maxBinom ≤ 68) (dO dI : List ℕ) (hdim : dO.length = 2)
    (hdeg : ∀ p ∈ dO, p < cfg.maxBinom) (hdeg' : ∀ q ∈ dI, dO.sum * q < cfg.maxBinom) (k : ℕ) (B : Fin 2 → ℝ)
    (segments : List (RSpline (Fl A) (Point (Fl A) 2))) (segments' : List (RSpline ℝ (Point ℝ 2)))
    (hs : List.Forall₂ (fun r r' => r.ApproxPoints dO k B r') segments segments') (tile : List (Spline (Point (Fl A) 2)))
    (ht : ∀ p ∈ tile, HasShape dI p ∧ ∀ x ∈ p.cps, ∀ j, 0 ≤ (x.val j).val ∧ (x.val j).val ≤ 1) :
    ∃ l l', Microstructure.composeAll cfg segments tile = .ok l ∧ Microstructure.composeAll cfg segments' (tile.map Spline.exactPoints) = .ok l' ∧
      l.length = segments.length * tile.length ∧
      List.Forall₂ (fun r r' => r.ApproxPoints (dI.map (fun q => dO.sum * q)) (composeRoundings dO dI k 0) B r') l l' := by
  let P : RSpline (Fl A) (Point (Fl A) 2) → RSpline ℝ (Point ℝ 2) → Prop :=
    fun r r' => r.ApproxPoints (dI.map (fun q => dO.sum * q)) (composeRoundings dO dI k 0) B r'
  have inner : ∀ (tile : List (Spline (Point (Fl A) 2))) (_ : ∀ p ∈ tile, HasShape dI p ∧ ∀ x ∈ p.cps, ∀ j, 0 ≤ (x.val j).val ∧ (x.val j).val ≤ 1)
      (r : RSpline (Fl A) (Point (Fl A) 2)) (r' : RSpline ℝ (Point ℝ 2)) (_ : r.ApproxPoints dO k B r') acc acc' (_ : List.Forall₂ P acc acc'),
      ∃ l l', tile.foldlM (fun acc inner => do let c ← RSpline.compose cfg r inner; pure (acc ++ [c])) acc = (.ok l : M _) ∧
        (tile.map Spline.exactPoints).foldlM (fun acc inner => do let c ← RSpline.compose cfg r' inner; pure (acc ++ [c])) acc' = (.ok l' : M _) ∧
        l.length = acc.length + tile.length ∧ List.Forall₂ P l l' := by
    intro tile
    induction tile with
    | nil => exact fun _ r r' _ acc acc' h => ⟨acc, acc', rfl, rfl, rfl, h⟩
    | cons p tile ih =>
      intro hp r r' hr acc acc' h
      obtain ⟨h1, h2⟩ := hp p (List.mem_cons_self ..)
      obtain ⟨c, c', e1, e2, hc⟩ := (C114_compose hη hu cfg hmax dO dI hdeg hdeg' p h1 hdim ((fits_points h1.1).mpr h2)).1 r r' k B hr
      obtain ⟨l, l', f1, f2, f3, f4⟩ := ih (fun q hq => hp q (List.mem_cons_of_mem _ hq)) r r' hr (acc ++ [c]) (acc' ++ [c'])
        (List.rel_append h (.cons hc .nil))
      refine ⟨l, l', ?_, ?_, ?_, f4⟩
      · simp only [List.foldlM_cons, e1, bind_ok, pure_eq_ok] at f1 ⊢; exact f1
      · simp only [List.map_cons, List.foldlM_cons, e2, bind_ok, pure_eq_ok] at f2 ⊢; exact f2
      · rw [f3]; simp; omega
  have outer : ∀ segments segments' (_ : List.Forall₂ (fun r r' => r.ApproxPoints dO k B r') segments segments') acc acc' (_ : List.Forall₂ P acc acc'),
      ∃ l l', segments.foldlM (fun acc r => tile.foldlM (fun acc inner => do let c ← RSpline.compose cfg r inner; pure (acc ++ [c])) acc) acc
          = (.ok l : M _) ∧
        segments'.foldlM (fun acc r' => (tile.map Spline.exactPoints).foldlM (fun acc inner => do
          let c ← RSpline.compose cfg r' inner; pure (acc ++ [c])) acc) acc' = (.ok l' : M _) ∧
        l.length = acc.length + segments.length * tile.length ∧ List.Forall₂ P l l' := by
    intro segments segments' hs
    induction hs with
    | nil => exact fun acc acc' h => ⟨acc, acc', rfl, rfl, by simp, h⟩
    | cons hr _ ih =>
      intro acc acc' h
      obtain ⟨l, l', f1, f2, f3, f4⟩ := inner tile ht _ _ hr acc acc' h
      obtain ⟨q, q', g1, g2, g3, g4⟩ := ih l l' f4
      refine ⟨q, q', ?_, ?_, ?_, g4⟩
      · rw [List.foldlM_cons, f1]; exact g1
      · rw [List.foldlM_cons, f2]; exact g2
      · rw [g3, f3, List.length_cons]; ring
  obtain ⟨l, l', h1, h2, h3, h4⟩ := outer segments segments' hs [] [] .nil
  exact ⟨l, l', h1, h2, by simpa using h3, h4⟩

/-! ## Examples -/

/-- A curve with weights 1, 10^30 and 10^-30: split, elevated, moved and evaluated, the first coordinate is wrong by at most `10^-14`. -/
noncomputable def exWide : List (Point F64 1) × List F64 := ([⟨![⟨1⟩]⟩, ⟨![⟨-2⟩]⟩, ⟨![⟨3⟩]⟩], [⟨1⟩, ⟨10 ^ 30⟩, ⟨1 / 10 ^ 30⟩])

example : ∃ r r' q q' v v', RSpline.ofPoints [2] exWide.1 exWide.2 = .ok r ∧
    RSpline.ofPoints [2] (exWide.1.map Point.exact) (exWide.2.map Fl.val) = .ok r' ∧
    RStep.runAll r [.splitLeft ⟨1 / 4⟩ 0, .elevate 0, .addPoint ⟨![⟨5⟩]⟩] = .ok q ∧
    RStep.runAllExact r' [.splitLeft (⟨1 / 4⟩ : F64) 0, .elevate 0, .addPoint ⟨![⟨5⟩]⟩] = .ok q' ∧
    q.evaluate [⟨3 / 8⟩] = .ok v ∧ q'.evaluate [(3 / 8 : ℝ)] = .ok v' ∧ |(v.val 0).val - v'.val 0| ≤ 1 / 10 ^ 13 := by
  obtain ⟨r, r', q, q', v, v', e1, e2, e3, e4, e5, e6, h⟩ := C114_value (A := FloatArith.binary 53) rfl (by simp [FloatArith.binary]; norm_num) [2] (by simp)
    exWide.1 exWide.2 (fun _ => 3) rfl rfl (by simp [exWide]) (by simp [exWide]; norm_num) [.splitLeft ⟨1 / 4⟩ 0, .elevate 0, .addPoint ⟨![⟨5⟩]⟩]
    (by simp [RStep.PreAll, RStep.Pre, RStep.degrees, size]; norm_num) [⟨3 / 8⟩] rfl (by simp; norm_num) 31 rfl (by simp [FloatArith.binary]; norm_num)
  refine ⟨r, r', q, q', v, v', e1, e2, e3, e4, e5, e6, (h 0).trans ?_⟩
  simp only [RStep.boundAll, List.foldl, RStep.bound, FloatArith.binary]
  norm_num

noncomputable def exRPoint : RSpline F64 (Point F64 2) :=
  ⟨Ex.line ⟨![⟨1⟩, ⟨2⟩]⟩ ⟨![⟨-3⟩, ⟨1 / 2⟩]⟩, Ex.line ⟨1 / 10 ^ 20⟩ ⟨10 ^ 20⟩⟩
noncomputable def exRScalar : RSpline F64 F64 := ⟨Ex.line ⟨1⟩ ⟨-3⟩, Ex.line ⟨1 / 10 ^ 20⟩ ⟨10 ^ 20⟩⟩

theorem exRPoint_stored : exRPoint.ApproxPoints [1] 0 ![10 ^ 20, 2 * 10 ^ 20] exRPoint.exactPoints :=
  C114_stored _ _ _ ⟨⟨Ex.line_wf .., rfl⟩, ⟨Ex.line_wf .., rfl⟩⟩ (by simp [exRPoint, Ex.line, Fin.forall_fin_two]; norm_num [abs_le])

theorem exRScalar_stored : exRScalar.Approx [1] 0 (10 ^ 20) ⟨exRScalar.num.exact, exRScalar.wt.exact⟩ :=
  C114_stored_scalar _ _ _ ⟨⟨Ex.line_wf .., rfl⟩, ⟨Ex.line_wf .., rfl⟩⟩ (by simp [exRScalar, Ex.line]; norm_num [abs_le])

/-- the square of a rational curve with weights 10^20 and 10^-20, and a value of it -/
example : ∃ q q' v v', RSpline.mulOp Ex.cfg (fun x y => x * y) exRScalar exRScalar = .ok q ∧
    RSpline.mulOp Ex.cfg (fun x y => x * y) (⟨exRScalar.num.exact, exRScalar.wt.exact⟩ : RSpline ℝ ℝ) ⟨exRScalar.num.exact, exRScalar.wt.exact⟩ = .ok q' ∧
    q.evaluate [(⟨1 / 4⟩ : F64)] = .ok v ∧ q'.evaluate [(1 / 4 : ℝ)] = .ok v' ∧ |v.val - v'| ≤ 1 / 10 ^ 13 * (10 ^ 20 * 10 ^ 20) := by
  obtain ⟨q, q', e1, e2, h⟩ := (C114_product (A := FloatArith.binary 53) rfl (by simp [FloatArith.binary]; norm_num) Ex.cfg (by decide) [1] [1] rfl
    (by simp [sumDegrees, Ex.cfg]) 0 0 _ _ _ _ _ _ _ _ _ _ _ _ exRScalar_stored exRScalar_stored exRPoint_stored exRPoint_stored).1
  obtain ⟨v, v', e3, e4, hv⟩ := C114_evaluate_scalar rfl h [(⟨1 / 4⟩ : F64)] rfl (by simp; norm_num)
    (by simp [FloatArith.binary, productRoundings, sumDegrees]; norm_num)
  refine ⟨q, q', v, v', e1, e2, e3, e4, hv.trans (mul_le_mul_of_nonneg_right ?_ (by norm_num))⟩
  simp only [productRoundings, sumDegrees, FloatArith.binary]
  norm_num

/-- the sum of two rational curves with the same weights 10^20 and 10^-20 -/
example : RApproxRuns [1] 1 (fun c => ![10 ^ 20, 2 * 10 ^ 20] c + ![10 ^ 20, 2 * 10 ^ 20] c) (exRPoint.addOp Ex.cfg exRPoint)
    (exRPoint.exactPoints.addOp Ex.cfg exRPoint.exactPoints) := by
  have := (C114_sum (A := FloatArith.binary 53) rfl (by simp [FloatArith.binary]; norm_num) Ex.cfg (by decide) (by decide) [1] [1] rfl
    (by simp [sumDegrees, Ex.cfg]) 0 0 _ _ _ _ _ _ exRPoint_stored exRPoint_stored (C114_same_weights _ _)).1
  rwa [show exRPoint.wt.eqOp exRPoint.wt = true by unfold Spline.eqOp; rw [if_pos rfl]; exact beq_self_eq_true _] at this

/-- A quadratic curve with weights 1, 10^30 and 10^-30 composed with a parabola in the unit interval, moved, and evaluated. -/
example : ∃ r r' q q' v v', RSpline.ofPoints [2] exWide.1 exWide.2 = .ok r ∧
    RSpline.ofPoints [2] (exWide.1.map Point.exact) (exWide.2.map Fl.val) = .ok r' ∧
    RStep.runAll r [.composeScalar Ex.cfg (Ex.curve ⟨0⟩ ⟨1 / 8⟩ ⟨1⟩), .addPoint ⟨![⟨5⟩]⟩] = .ok q ∧
    RStep.runAllExact r' [.composeScalar (A := FloatArith.binary 53) Ex.cfg (Ex.curve ⟨0⟩ ⟨1 / 8⟩ ⟨1⟩), .addPoint ⟨![⟨5⟩]⟩] = .ok q' ∧
    q.evaluate [⟨3 / 8⟩] = .ok v ∧ q'.evaluate [(3 / 8 : ℝ)] = .ok v' ∧ |(v.val 0).val - v'.val 0| ≤ 1 / 10 ^ 12 := by
  obtain ⟨r, r', q, q', v, v', e1, e2, e3, e4, e5, e6, h⟩ := C114_value (A := FloatArith.binary 53) rfl (by simp [FloatArith.binary]; norm_num) [2] (by simp)
    exWide.1 exWide.2 (fun _ => 3) rfl rfl (by simp [exWide]) (by simp [exWide]; norm_num)
    [.composeScalar Ex.cfg (Ex.curve ⟨0⟩ ⟨1 / 8⟩ ⟨1⟩), .addPoint ⟨![⟨5⟩]⟩]
    ⟨⟨Ex.cfg_ok, Ex.curve_wf .., rfl, by simp [Ex.curve]; norm_num, by decide, by show ∀ q ∈ [2], _; decide⟩, trivial, trivial⟩ [⟨3 / 8⟩] rfl (by simp; norm_num) 63
    (by decide) (by simp [FloatArith.binary]; norm_num)
  refine ⟨r, r', q, q', v, v', e1, e2, e3, e4, e5, e6, (h 0).trans ?_⟩
  simp only [RStep.boundAll, List.foldl, RStep.bound, FloatArith.binary]
  norm_num

/-- a rational surface patch with weights between 1 and 10^6 -/
noncomputable def exRSurf : RSpline F64 (Point F64 2) := ⟨exFlP, Ex.surf ⟨1⟩ ⟨10 ^ 6⟩ ⟨1⟩ ⟨3⟩ ⟨10 ^ 6⟩ ⟨2⟩⟩

theorem exRSurf_stored : exRSurf.ApproxPoints [2, 1] 0 ![5, 2] exRSurf.exactPoints :=
  C114_stored _ _ _ ⟨⟨Ex.surf_wf .., rfl⟩, ⟨Ex.surf_wf .., rfl⟩⟩ (by simp [exRSurf, exFlP, ptFl, Ex.surf, Fin.forall_fin_two]; norm_num [abs_le])

/-- a parabola laid into two such patches -/
example := C114_microstructure (A := FloatArith.binary 53) rfl f64_u Ex.cfg Ex.cfg_ok [2, 1] [2] rfl (by decide) (by decide) 0 ![5, 2] [exRSurf, exRSurf]
  [exRSurf.exactPoints, exRSurf.exactPoints] (.cons exRSurf_stored (.cons exRSurf_stored .nil)) [exFlI]
  (fun p hp => by rw [List.mem_singleton.mp hp]; exact ⟨exFlI_shape, (fits_points exFlI_shape.1).mp exFlI_fits⟩)

/-- `Compose` of rational splines with polynomial ones -/
example := (C114_compose (n := 2) (A := FloatArith.binary 53) rfl f64_u Ex.cfg Ex.cfg_ok [2, 1] [2] (by decide) (by decide) exFlI exFlI_shape rfl
  exFlI_fits).1 _ _ _ _ exRSurf_stored
example := (C114_compose_scalar (n := 2) (A := FloatArith.binary 53) rfl f64_u Ex.cfg Ex.cfg_ok [1] [2] (by decide) (by decide)
  (Ex.curve ⟨0⟩ ⟨1 / 8⟩ ⟨1⟩) ⟨Ex.curve_wf .., rfl⟩ rfl ((fits_scalar (Ex.curve_wf ..)).mpr (by simp [Ex.curve]; norm_num))).2 _ _ _ _ exRScalar_stored

end Bezman.Props
