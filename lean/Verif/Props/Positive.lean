import Verif.Props.Hull
import Verif.Props.RationalDeriv

/-! # Property C76: rational splines with positive weights stay that way -/

namespace Bezman.Props
open Spec Finset Coords

/-! ## C76 -/

section
variable {K V : Type} [Field K] [LinearOrder K] [IsStrictOrderedRing K] [AddCommGroup V] [Module K V]
  [ScalarDiv K V] [LawfulScalarDiv K V]

omit [LawfulScalarDiv K V] in
theorem posNet_iff {r : RSpline K V} {ds : List ℕ} {f : List K → V} {w : List K → K} (hr : r.Computes ds f w) :
    (∀ c ∈ r.wt.cps, 0 < c) ↔ PosNet ds w :=
  ⟨PosNet.of_computes hr.wt_computes, PosNet.cps_pos hr.wt_computes⟩

omit [LawfulScalarDiv K V] in
theorem rresult_pos {a b : RSpline K V} {da db : List ℕ} {f g h : List K → V} {wa wb : List K → K} (ha : a.Computes da f wa)
    (hb : b.Computes db g wb) (hpa : ∀ c ∈ a.wt.cps, 0 < c) (hpb : ∀ c ∈ b.wt.cps, 0 < c) (hl : db.length = da.length)
    {r : RSpline K V} (hr : RResult a b da db wa wb h r) : ∀ c ∈ r.wt.cps, 0 < c := by
  rcases hr with ⟨_, hr⟩ | ⟨_, hr⟩
  · exact (posNet_iff hr).mpr ((posNet_iff ha).mp hpa)
  · exact (posNet_iff hr).mpr (((posNet_iff ha).mp hpa).mul ((posNet_iff hb).mp hpb) hl)

/-- C76. A rational spline with positive weights can be evaluated everywhere on the unit cube, without division by zero, and its
weight function is positive there. -/
theorem C76_evaluate (r : RSpline K V) (ds : List ℕ) (f : List K → V) (w : List K → K) (hr : r.Computes ds f w)
    (hpos : ∀ c ∈ r.wt.cps, 0 < c) (t : List K) (ht : t.length = ds.length) (h01 : InCube t) :
    r.evaluate t = .ok (f t) ∧ 0 < w t := by
  obtain ⟨x, e, h⟩ := C73_evaluate r.wt hr.wt_wf (Set.Ioi 0) (convex_Ioi 0) hpos t (by rw [ht, ← hr.wt_degrees]; rfl) h01
  rw [hr.weight t ht] at e
  obtain rfl := Except.ok.inj e
  exact ⟨hr.eval t ht (ne_of_gt h), h⟩

/-- C76. Sums and differences of rational splines with positive weights have positive weights. -/
theorem C76_add_sub (cfg : Cfg) (hmax : cfg.maxBinom ≤ 68) (a b : RSpline K V) (da db : List ℕ) (f g : List K → V)
    (wa wb : List K → K) (ha : a.Computes da f wa) (hb : b.Computes db g wb) (h : RFits cfg da db)
    (hpa : ∀ c ∈ a.wt.cps, 0 < c) (hpb : ∀ c ∈ b.wt.cps, 0 < c) :
    (∃ r, RSpline.addOp cfg a b = .ok r ∧ ∀ c ∈ r.wt.cps, 0 < c) ∧
    (∃ r, RSpline.addAssign cfg a b = .ok r ∧ ∀ c ∈ r.wt.cps, 0 < c) ∧
    (∃ r, RSpline.subOp cfg a b = .ok r ∧ ∀ c ∈ r.wt.cps, 0 < c) ∧
    ∃ r, RSpline.subAssign cfg a b = .ok r ∧ ∀ c ∈ r.wt.cps, 0 < c := by
  obtain ⟨r1, e1, h1⟩ := C38_add cfg hmax a b da db f g wa wb ha hb h
  obtain ⟨r2, e2, h2⟩ := C38_add_assign cfg hmax a b da db f g wa wb ha hb h
  obtain ⟨r3, e3, h3⟩ := C38_sub cfg hmax a b da db f g wa wb ha hb h
  obtain ⟨r4, e4, h4⟩ := C38_sub_assign cfg hmax a b da db f g wa wb ha hb h
  exact ⟨⟨r1, e1, rresult_pos ha hb hpa hpb h.dims h1⟩, ⟨r2, e2, rresult_pos ha hb hpa hpb h.dims h2⟩,
    ⟨r3, e3, rresult_pos ha hb hpa hpb h.dims h3⟩, ⟨r4, e4, rresult_pos ha hb hpa hpb h.dims h4⟩⟩

/-- C76. Products of rational splines with positive weights have positive weights. -/
theorem C76_mul {W U : Type} [AddCommGroup W] [Module K W] [ScalarDiv K W] [LawfulScalarDiv K W]
    [AddCommGroup U] [Module K U] [ScalarDiv K U] [LawfulScalarDiv K U]
    (cfg : Cfg) (hmax : cfg.maxBinom ≤ 68) (mul : V → W → U) (B : V →ₗ[K] W →ₗ[K] U)
    (hB : ∀ x y, mul x y = B x y) (a : RSpline K V) (b : RSpline K W) (da db : List ℕ)
    (f : List K → V) (g : List K → W) (wa wb : List K → K) (ha : a.Computes da f wa) (hb : b.Computes db g wb)
    (hdim : db.length = da.length) (hdeg : ∀ p ∈ sumDegrees da db, p < cfg.maxBinom)
    (hpa : ∀ c ∈ a.wt.cps, 0 < c) (hpb : ∀ c ∈ b.wt.cps, 0 < c) :
    ∃ r, RSpline.mulOp cfg mul a b = .ok r ∧ ∀ c ∈ r.wt.cps, 0 < c := by
  obtain ⟨r, e, h⟩ := C38_mul cfg hmax mul B hB a b da db f g wa wb ha hb hdim hdeg
  exact ⟨r, e, (posNet_iff h).mpr (((posNet_iff ha).mp hpa).mul ((posNet_iff hb).mp hpb) hdim)⟩

/-- C76. Scaling, negation and adding or subtracting a point do not touch the weights. -/
theorem C76_affine (a : RSpline K V) (ds : List ℕ) (f : List K → V) (w : List K → K) (ha : a.Computes ds f w)
    (hp : ∀ c ∈ a.wt.cps, 0 < c) (s : K) (p : V) :
    (∃ r, a.smulOp s = .ok r ∧ ∀ c ∈ r.wt.cps, 0 < c) ∧ (∃ r, a.negOp = .ok r ∧ ∀ c ∈ r.wt.cps, 0 < c) ∧
    (∃ r, a.addPoint p = .ok r ∧ ∀ c ∈ r.wt.cps, 0 < c) ∧ ∃ r, a.subPoint p = .ok r ∧ ∀ c ∈ r.wt.cps, 0 < c := by
  obtain ⟨r1, e1, -, h1⟩ := C39_scale a ds f w ha s
  obtain ⟨r2, e2, h2⟩ := C39_neg a ds f w ha
  obtain ⟨r3, e3, -, h3⟩ := C39_add_point a ds f w ha p
  obtain ⟨r4, e4, -, h4⟩ := C39_sub_point a ds f w ha p
  have h := (posNet_iff ha).mp hp
  exact ⟨⟨r1, e1, (posNet_iff h1).mpr h⟩, ⟨r2, e2, (posNet_iff h2).mpr h⟩, ⟨r3, e3, (posNet_iff h3).mpr h⟩,
    ⟨r4, e4, (posNet_iff h4).mpr h⟩⟩

theorem rinside_univ {r : RSpline K V} {ds : List ℕ} {f : List K → V} {w : List K → K} (hr : r.Computes ds f w) :
    RInside r ds Set.univ ↔ ∀ c ∈ r.wt.cps, 0 < c := by
  rw [rinside_iff hr]; simp

/-- C76. Degree elevation keeps positive weights positive. -/
theorem C76_order_elevate (r : RSpline K V) (ds : List ℕ) (f : List K → V) (w : List K → K) (hr : r.Computes ds f w)
    (hp : ∀ c ∈ r.wt.cps, 0 < c) (d p : ℕ) (hd : ds[d]? = some p) (hsize : size (ds.set d (p + 1)) < 2 ^ 31) :
    ∃ r', r.orderElevate d = .ok r' ∧ ∀ c ∈ r'.wt.cps, 0 < c := by
  obtain ⟨r', e, h⟩ := C73_rational_order_elevate r ds f w hr Set.univ convex_univ ((rinside_univ hr).mpr hp) d p hd hsize
  exact ⟨r', e, h.pos⟩

/-- C76. Splitting keeps positive weights positive. -/
theorem C76_split (r : RSpline K V) (ds : List ℕ) (f : List K → V) (w : List K → K) (hr : r.Computes ds f w)
    (hp : ∀ c ∈ r.wt.cps, 0 < c) (d : ℕ) (hd : d < ds.length) (z : K) (h0 : 0 < z) (h1 : z < 1) :
    ∃ a b, r.splitAt z d = .ok (a, b) ∧ (∀ c ∈ a.wt.cps, 0 < c) ∧ ∀ c ∈ b.wt.cps, 0 < c := by
  obtain ⟨a, b, e, ha, hb⟩ := C73_rational_split r ds f w hr Set.univ convex_univ ((rinside_univ hr).mpr hp) d hd z h0 h1
  exact ⟨a, b, e, ha.pos, hb.pos⟩

/-- C76. Splitting at several positions keeps positive weights positive. -/
theorem C76_split_many (r : RSpline K V) (ds : List ℕ) (f : List K → V) (w : List K → K) (hr : r.Computes ds f w)
    (hp : ∀ c ∈ r.wt.cps, 0 < c) (d : ℕ) (hd : d < ds.length) (planes : List K) (hinc : planes.Pairwise (· < ·))
    (hr01 : ∀ z ∈ planes, 0 < z ∧ z < 1) :
    ∃ l, r.splitAtMany planes d = .ok l ∧ ∀ a ∈ l, ∀ c ∈ a.wt.cps, 0 < c := by
  obtain ⟨l, e, h⟩ := C73_rational_split_many r ds f w hr Set.univ convex_univ ((rinside_univ hr).mpr hp) d hd planes hinc hr01
  exact ⟨l, e, fun a ha => (h a ha).pos⟩

section
variable {W : Type} [AddCommGroup W] [Module K W] [Coords K W] [LawfulCoords K W] [ScalarDiv K W] [LawfulScalarDiv K W]

/-- C76. A rational spline composed with a polynomial spline inside the unit cube keeps positive weights positive. -/
theorem C76_compose_polynomial (cfg : Cfg) (hmax : cfg.maxBinom ≤ 68) (outer : RSpline K V) (inner : Spline W)
    (dO dI : List ℕ) (f : List K → V) (wo : List K → K) (g : List K → W) (ho : outer.Computes dO f wo) (hi : inner.Computes dI g)
    (hdim : dO.length = Coords.n K W) (hcube : Spline.fitsIntoUnitCube K inner = .ok true) (hf : ComposeFits cfg dO dI)
    (hp : ∀ c ∈ outer.wt.cps, 0 < c) :
    ∃ r, RSpline.compose cfg outer inner = .ok r ∧ ∀ c ∈ r.wt.cps, 0 < c := by
  obtain ⟨r, e, h⟩ := C73_rational_compose_polynomial cfg hmax outer inner dO dI f wo g ho hi hdim hcube hf Set.univ convex_univ
    ((rinside_univ ho).mpr hp)
  exact ⟨r, e, h.pos⟩

/-- C76. A polynomial spline composed with a rational spline inside the unit cube with positive weights has positive weights. -/
theorem C76_compose_of_rational (cfg : Cfg) (hmax : cfg.maxBinom ≤ 68) (outer : Spline V) (inner : RSpline K W)
    (dO dI : List ℕ) (f : List K → V) (g : List K → W) (w : List K → K) (ho : outer.Computes dO f) (hi : inner.Computes dI g w)
    (hdim : dO.length = Coords.n K W) (hcube : inner.fitsIntoUnitCube = .ok true) (hp : ∀ c ∈ inner.wt.cps, 0 < c)
    (hf : ComposeFits cfg dO dI) :
    ∃ r, Spline.composeRational cfg outer inner = .ok r ∧ ∀ c ∈ r.wt.cps, 0 < c := by
  obtain ⟨r, e, h⟩ := C73_compose_rational cfg hmax outer inner dO dI f g w ho hi hdim hcube hp hf Set.univ convex_univ
    (fun _ _ => trivial)
  exact ⟨r, e, h.pos⟩

/-- C76. Composing two rational splines with positive weights, the inner one inside the unit cube, keeps the weights positive. -/
theorem C76_compose_rational (cfg : Cfg) (hmax : cfg.maxBinom ≤ 68) (outer : RSpline K V) (inner : RSpline K W)
    (dO dI : List ℕ) (f : List K → V) (wo : List K → K) (g : List K → W) (w : List K → K) (ho : outer.Computes dO f wo)
    (hi : inner.Computes dI g w) (hdim : dO.length = Coords.n K W) (hcube : inner.fitsIntoUnitCube = .ok true)
    (hpo : ∀ c ∈ outer.wt.cps, 0 < c) (hpi : ∀ c ∈ inner.wt.cps, 0 < c) (hf : ComposeFits cfg dO dI) :
    ∃ r, RSpline.composeRational cfg outer inner = .ok r ∧ ∀ c ∈ r.wt.cps, 0 < c := by
  obtain ⟨r, e, h⟩ := C73_rational_compose_rational cfg hmax outer inner dO dI f wo g w ho hi hdim hcube hpi hf Set.univ convex_univ
    ((rinside_univ ho).mpr hpo)
  exact ⟨r, e, h.pos⟩

end

end

section
variable {V : Type} [NormedAddCommGroup V] [NormedSpace ℝ V] [ScalarDiv ℝ V] [LawfulScalarDiv ℝ V]

/-- C76. The derivative spline of a rational spline with positive weights has positive weights: the derivative is a rational spline
without poles on the unit cube. -/
theorem C76_derivative (cfg : Cfg) (hmax : cfg.maxBinom ≤ 68) (r : RSpline ℝ V) (ds : List ℕ) (f : List ℝ → V)
    (w : List ℝ → ℝ) (hr : r.Computes ds f w) (orders : List ℕ) (hl : orders.length = ds.length)
    (hpos : ∀ d o p : ℕ, orders[d]? = some o → ds[d]? = some p → 1 ≤ o → 1 ≤ p) (hfit : DerivFits cfg ds orders.sum)
    (hp : ∀ c ∈ r.wt.cps, 0 < c) :
    ∃ r', r.derivativeSpline cfg orders = .ok r' ∧ ∀ c ∈ r'.wt.cps, 0 < c := by
  obtain ⟨r', e, h⟩ := C41_derivative_spline cfg hmax r ds f w hr orders hl hpos hfit
  refine ⟨r', e, (posNet_iff h).mpr ?_⟩
  simpa [mul_comm] using ((posNet_iff hr).mp hp).pow (2 ^ orders.sum)

end

example : R.evaluate [(1 / 3 : ℚ), 3 / 4] = .ok ((R.wt.value [(1 / 3 : ℚ), 3 / 4])⁻¹ • R.num.value [(1 / 3 : ℚ), 3 / 4]) ∧
    0 < R.wt.value [(1 / 3 : ℚ), 3 / 4] :=
  C76_evaluate _ _ _ _ R_computes R_pos _ rfl (by intro x hx; simp at hx; rcases hx with rfl | rfl <;> norm_num)

example : ∃ r, RSpline.addOp Ex.cfg R R' = .ok r ∧ ∀ c ∈ r.wt.cps, 0 < c :=
  (C76_add_sub Ex.cfg Ex.cfg_ok _ _ _ _ _ _ _ _ R_computes R'_computes rfits_RR' R_pos
    (by decide)).1

example : ∃ l, R.splitAtMany [(1 / 3 : ℚ), 2 / 3] 1 = .ok l ∧ ∀ a ∈ l, ∀ c ∈ a.wt.cps, 0 < c :=
  C76_split_many _ _ _ _ R_computes R_pos 1 (by decide) _ (by simp; norm_num)
    (by intro z hz; simp at hz; rcases hz with rfl | rfl <;> norm_num)

example : ∃ r, RSpline.composeRational Ex.cfg R RQ = .ok r ∧ ∀ c ∈ r.wt.cps, 0 < c :=
  C76_compose_rational _ Ex.cfg_ok _ _ _ _ _ _ _ _ R_computes RQ_computes rfl RQ_fits R_pos R_pos cfits

example (a b c d e f : Point ℝ 3) : ∃ r', (RR a b c d e f).derivativeSpline Ex.cfg [1, 1] = .ok r' ∧ ∀ c ∈ r'.wt.cps, 0 < c :=
  C76_derivative Ex.cfg Ex.cfg_ok _ _ _ _ (RR_computes a b c d e f) [1, 1] rfl (by
    intro d o p h1 h2 _
    rcases d with _ | _ | d
    · simp at h2; omega
    · simp at h2; omega
    · simp at h2) ⟨by decide, by decide, by decide, by decide⟩ (by simp [RR, Ex.surf])

end Bezman.Props
