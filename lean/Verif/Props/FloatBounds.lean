import Verif.Proofs.FloatPrograms
import Verif.Props.FloatArith
import Verif.Props.Laws

/-! # C87: rounding errors of the operations and of programs in closed form

The arithmetic has relative rounding errors of at most `u ≤ 1/2` and no underflow.  The bounds are of the form `((1+u)^k - 1) M` with
the numbers of roundings `k` and the magnitudes `M` of Spec/FloatBounds.lean. -/

namespace Bezman.Props
open Spec
variable {A : FloatArith} {n : ℕ}

/-! ## Scalar valued splines -/

/-- C87. Sums and differences of scalar splines with `ka` and `kb` roundings. -/
theorem C87_sum (hη : A.η = 0) (hu : A.u ≤ 1 / 2) (cfg : Cfg) (s t : Spline (Fl A)) (s' t' : Spline ℝ) (da db : List ℕ) (ka kb : ℕ)
    (Ma Mb : ℝ) (ha : s.Approx da ka Ma s') (hb : t.Approx db kb Mb t') (hf : Fits cfg da db) :
    ApproxRuns (maxDegrees da db) (sumRoundings da db ka kb) (Ma + Mb) (Spline.addOp (Fl A) cfg s t) (Spline.addOp ℝ cfg s' t') ∧
    ApproxRuns (maxDegrees da db) (sumRoundings da db ka kb) (Ma + Mb) (Spline.addAssign (Fl A) cfg s t) (Spline.addAssign ℝ cfg s' t') ∧
    ApproxRuns (maxDegrees da db) (sumRoundings da db ka kb) (Ma + Mb) (Spline.subAssign (Fl A) cfg s t) (Spline.subAssign ℝ cfg s' t') ∧
    ((∀ d p q : ℕ, da[d]? = some p → db[d]? = some q → q ≤ p) →
      ApproxRuns (maxDegrees da db) (sumRoundings da db ka kb) (Ma + Mb) (Spline.subOp (Fl A) cfg s t) (Spline.subOp ℝ cfg s' t')) :=
  ⟨ha.add hη hu hb hf, ha.addAssign hη hu hb hf, ha.subAssign hη hu hb hf, fun h => ha.sub hη hu hb hf h⟩

/-- C87. Negation is exact; scaling and translation have one rounding. -/
theorem C87_affine (hη : A.η = 0) (s : Spline (Fl A)) (s' : Spline ℝ) (ds : List ℕ) (k : ℕ) (M : ℝ) (h : s.Approx ds k M s') (c : Fl A) :
    ApproxRuns ds k M s.negOp s'.negOp ∧
    ApproxRuns ds (k + 1) (|c.val| * M) (s.smulOp c) (s'.smulOp c.val) ∧
    ApproxRuns ds (k + 1) (M + |c.val|) (s.addPoint c) (s'.addPoint c.val) ∧
    ApproxRuns ds (k + 1) (M + |c.val|) (s.subPoint c) (s'.subPoint c.val) ∧
    ApproxRuns ds (k + 1) (M + |c.val|) (Spline.pointSub c s) (Spline.pointSub c.val s') :=
  ⟨h.neg, h.scale hη c, h.addPoint c, h.subPoint c, h.pointSub c⟩

/-- C87. A degree elevation has 12 roundings and does not increase the magnitude. -/
theorem C87_elevate (hη : A.η = 0) (hu : A.u ≤ 1 / 2) (s : Spline (Fl A)) (s' : Spline ℝ) (ds : List ℕ) (k : ℕ) (M : ℝ)
    (h : s.Approx ds k M s') (d : ℕ) (hd : d < ds.length) (hsz : size (ds.modify d (· + 1)) < 2 ^ 31) :
    ApproxRuns (ds.modify d (· + 1)) (k + 12) M (Spline.orderElevate (Fl A) s d) (Spline.orderElevate ℝ s' d) := h.elevate hη hu hd hsz

/-- C87. A split of a direction of degree `p` has `3p` roundings and does not increase the magnitude. -/
theorem C87_split (hη : A.η = 0) (s : Spline (Fl A)) (s' : Spline ℝ) (ds : List ℕ) (k : ℕ) (M : ℝ)
    (h : s.Approx ds k M s') (d p : ℕ) (hp : ds[d]? = some p) (z : Fl A) (h0 : 0 < z.val) (h1 : z.val < 1) :
    ∃ l r l' r', s.splitAt z d = .ok (l, r) ∧ s'.splitAt z.val d = .ok (l', r') ∧
      l.Approx ds (k + 3 * p) M l' ∧ r.Approx ds (k + 3 * p) M r' := h.split hη hp h0 h1

/-- C87. Derivatives. -/
theorem C87_derive (hη : A.η = 0) (cfg : Cfg) (hmax : cfg.maxBinom ≤ 68) (s : Spline (Fl A)) (s' : Spline ℝ) (ds : List ℕ) (k : ℕ) (M : ℝ)
    (h : s.Approx ds k M s') (orders : List ℕ) (hl : orders.length = ds.length)
    (hle : ∀ d o p : ℕ, orders[d]? = some o → ds[d]? = some p → o ≤ p) (hord : ∀ o ∈ orders, o < cfg.maxBinom) (hsz : size ds < 2 ^ 64) :
    ApproxRuns (List.zipWith (· - ·) ds orders) (k + derivRoundings orders) (derivFactor ds orders * M)
      (Spline.derivativeSpline (Fl A) cfg s orders) (Spline.derivativeSpline ℝ cfg s' orders) := h.deriv hη hmax hl hle hord hsz

/-- C87. Products of scalar valued splines with scalar and point valued splines, and dot products. -/
theorem C87_product (hη : A.η = 0) (hu : A.u ≤ 1 / 2) (cfg : Cfg) (hmax : cfg.maxBinom ≤ 68) (s t : Spline (Fl A)) (s' t' : Spline ℝ)
    (v w : Spline (Point (Fl A) n)) (v' w' : Spline (Point ℝ n)) (da db : List ℕ) (ka kb : ℕ) (Ma Mb : ℝ) (Na Nb : Fin n → ℝ)
    (hs : s.Approx da ka Ma s') (ht : t.Approx db kb Mb t') (hv : v.ApproxPoints da ka Na v') (hw : w.ApproxPoints db kb Nb w')
    (hdim : db.length = da.length) (hdeg : ∀ p ∈ sumDegrees da db, p < cfg.maxBinom) :
    ApproxRuns (sumDegrees da db) (productRoundings da db ka kb) (Ma * Mb) (Spline.mulScalar cfg s t) (Spline.mulScalar cfg s' t') ∧
    ApproxRunsPoints (sumDegrees da db) (productRoundings da db ka kb) (fun c => Ma * Nb c)
      (Spline.mulOp (Fl A) cfg (fun c v => c • v) s w) (Spline.mulOp ℝ cfg (fun c v => c • v) s' w') ∧
    ApproxRunsPoints (sumDegrees da db) (productRoundings da db ka kb) (fun c => Na c * Mb)
      (Spline.mulOp (Fl A) cfg (fun (v : Point (Fl A) n) c => c • v) v t) (Spline.mulOp ℝ cfg (fun (v : Point ℝ n) c => c • v) v' t') ∧
    ApproxRuns (sumDegrees da db) (productRoundings da db ka kb + n) (∑ c, Na c * Nb c)
      (Spline.mulOp (Fl A) cfg Point.dot v w) (Spline.mulOp ℝ cfg Point.dot v' w') :=
  ⟨Spline.Approx.mul hη hu hmax hdim hdeg hs ht, Spline.Approx.mulLeft hη hu hmax hdim hdeg hs hw, Spline.ApproxPoints.mulRight hη hu hmax hdim hdeg hv ht,
    Spline.ApproxPoints.dot hη hu hmax hdim hdeg hv hw⟩

/-- C87. Powers. -/
theorem C87_power (hη : A.η = 0) (hu : A.u ≤ 1 / 2) (cfg : Cfg) (hmax : cfg.maxBinom ≤ 68) (s : Spline (Fl A)) (s' : Spline ℝ)
    (ds : List ℕ) (k : ℕ) (M : ℝ) (h : s.Approx ds k M s') (m : ℕ) (hdeg : ∀ p ∈ ds, m * p < cfg.maxBinom) :
    ApproxRuns (ds.map (fun p => m * p)) (powerRoundings ds k m) (M ^ m) (Spline.raisePower cfg s m) (Spline.raisePower cfg s' m) :=
  h.power hη hu hmax m hdeg

/-- C87. `Evaluate` at parameters in the unit interval has `3 Σp` roundings. -/
theorem C87_evaluate (hη : A.η = 0) (s : Spline (Fl A)) (s' : Spline ℝ) (ds : List ℕ) (k : ℕ) (M : ℝ) (h : s.Approx ds k M s')
    (t : List (Fl A)) (ht : t.length = ds.length) (h01 : ∀ x ∈ t, 0 ≤ x.val ∧ x.val ≤ 1) :
    ∃ r y, s.evaluate t = .ok r ∧ s'.evaluate (t.map Fl.val) = .ok y ∧ |r.val - y| ≤ ((1 + A.u) ^ (k + 3 * ds.sum) - 1) * M :=
  h.evaluate hη ht h01

/-! ## Point valued splines -/

/-- C87. Sums and differences of splines of points. -/
theorem C87_sum_points (hη : A.η = 0) (hu : A.u ≤ 1 / 2) (cfg : Cfg) (s t : Spline (Point (Fl A) n)) (s' t' : Spline (Point ℝ n))
    (da db : List ℕ) (ka kb : ℕ) (Ma Mb : Fin n → ℝ) (ha : s.ApproxPoints da ka Ma s') (hb : t.ApproxPoints db kb Mb t')
    (hf : Fits cfg da db) :
    ApproxRunsPoints (maxDegrees da db) (sumRoundings da db ka kb) (fun c => Ma c + Mb c) (Spline.addOp (Fl A) cfg s t)
      (Spline.addOp ℝ cfg s' t') ∧
    ApproxRunsPoints (maxDegrees da db) (sumRoundings da db ka kb) (fun c => Ma c + Mb c) (Spline.addAssign (Fl A) cfg s t)
      (Spline.addAssign ℝ cfg s' t') ∧
    ApproxRunsPoints (maxDegrees da db) (sumRoundings da db ka kb) (fun c => Ma c + Mb c) (Spline.subAssign (Fl A) cfg s t)
      (Spline.subAssign ℝ cfg s' t') ∧
    ((∀ d p q : ℕ, da[d]? = some p → db[d]? = some q → q ≤ p) →
      ApproxRunsPoints (maxDegrees da db) (sumRoundings da db ka kb) (fun c => Ma c + Mb c) (Spline.subOp (Fl A) cfg s t)
        (Spline.subOp ℝ cfg s' t')) :=
  ⟨ha.add hη hu hb hf, ha.addAssign hη hu hb hf, ha.subAssign hη hu hb hf, fun h => ha.sub hη hu hb hf h⟩

/-- C87. Negation of a spline of points (a multiplication by `-1`), scaling and translation have one rounding, `v - s` has two. -/
theorem C87_affine_points (hη : A.η = 0) (s : Spline (Point (Fl A) n)) (s' : Spline (Point ℝ n)) (ds : List ℕ) (k : ℕ) (M : Fin n → ℝ)
    (h : s.ApproxPoints ds k M s') (a : Fl A) (v : Point (Fl A) n) :
    ApproxRunsPoints ds (k + 1) M s.negOp s'.negOp ∧
    ApproxRunsPoints ds (k + 1) (fun c => |a.val| * M c) (s.smulOp a) (s'.smulOp a.val) ∧
    ApproxRunsPoints ds (k + 1) (fun c => M c + |(v.val c).val|) (s.addPoint v) (s'.addPoint (v.map Fl.val)) ∧
    ApproxRunsPoints ds (k + 1) (fun c => M c + |(v.val c).val|) (s.subPoint v) (s'.subPoint (v.map Fl.val)) ∧
    ApproxRunsPoints ds (k + 2) (fun c => M c + |(v.val c).val|) (Spline.pointSub v s) (Spline.pointSub (v.map Fl.val) s') :=
  ⟨h.neg hη, h.scale hη a, h.addPoint v, h.subPoint v, h.pointSub hη v⟩

/-- C87. Degree elevation and coordinates of splines of points. -/
theorem C87_elevate_points (hη : A.η = 0) (hu : A.u ≤ 1 / 2) (s : Spline (Point (Fl A) n)) (s' : Spline (Point ℝ n)) (ds : List ℕ) (k : ℕ)
    (M : Fin n → ℝ) (h : s.ApproxPoints ds k M s') :
    (∀ d < ds.length, size (ds.modify d (· + 1)) < 2 ^ 31 →
      ApproxRunsPoints (ds.modify d (· + 1)) (k + 12) M (Spline.orderElevate (Fl A) s d) (Spline.orderElevate ℝ s' d)) ∧
    ∀ j : Fin n, ApproxRuns ds k (M j) (Spline.extractDimension (Fl A) s j) (Spline.extractDimension ℝ s' j) :=
  ⟨fun _ hd hsz => h.elevate hη hu hd hsz, h.extract⟩

/-- C87. Splits of splines of points. -/
theorem C87_split_points (hη : A.η = 0) (s : Spline (Point (Fl A) n)) (s' : Spline (Point ℝ n)) (ds : List ℕ) (k : ℕ) (M : Fin n → ℝ)
    (h : s.ApproxPoints ds k M s') (d p : ℕ) (hp : ds[d]? = some p) (z : Fl A) (h0 : 0 < z.val) (h1 : z.val < 1) :
    ∃ l r l' r', s.splitAt z d = .ok (l, r) ∧ s'.splitAt z.val d = .ok (l', r') ∧
      l.ApproxPoints ds (k + 3 * p) M l' ∧ r.ApproxPoints ds (k + 3 * p) M r' := h.split hη hp h0 h1

/-- C87. Derivatives of splines of points. -/
theorem C87_derive_points (hη : A.η = 0) (cfg : Cfg) (hmax : cfg.maxBinom ≤ 68) (s : Spline (Point (Fl A) n)) (s' : Spline (Point ℝ n))
    (ds : List ℕ) (k : ℕ) (M : Fin n → ℝ) (h : s.ApproxPoints ds k M s') (orders : List ℕ) (hl : orders.length = ds.length)
    (hle : ∀ d o p : ℕ, orders[d]? = some o → ds[d]? = some p → o ≤ p) (hord : ∀ o ∈ orders, o < cfg.maxBinom) (hsz : size ds < 2 ^ 64) :
    ApproxRunsPoints (List.zipWith (· - ·) ds orders) (k + derivRoundings orders) (fun c => derivFactor ds orders * M c)
      (Spline.derivativeSpline (Fl A) cfg s orders) (Spline.derivativeSpline ℝ cfg s' orders) := h.deriv hη hmax hl hle hord hsz

/-- C87. `Evaluate` of splines of points. -/
theorem C87_evaluate_points (hη : A.η = 0) (s : Spline (Point (Fl A) n)) (s' : Spline (Point ℝ n)) (ds : List ℕ) (k : ℕ) (M : Fin n → ℝ)
    (h : s.ApproxPoints ds k M s') (t : List (Fl A)) (ht : t.length = ds.length) (h01 : ∀ x ∈ t, 0 ≤ x.val ∧ x.val ≤ 1) :
    ∃ r y, s.evaluate t = .ok r ∧ s'.evaluate (t.map Fl.val) = .ok y ∧
      ∀ c, |(r.val c).val - y.val c| ≤ ((1 + A.u) ^ (k + 3 * ds.sum) - 1) * M c := h.evaluate hη ht h01

/-! ## Programs -/

theorem leaf_approx {s : Spline (Fl A)} {ds : List ℕ} {b : ℝ} (h : HasShape ds s) (hb : ∀ x ∈ s.cps, |x.val| ≤ b) :
    s.Approx ds 0 b (s.map Fl.val) :=
  ⟨h, ⟨h.1.map _, h.2⟩, by
    rw [Spline.map]
    simp only [List.forall₂_map_right_iff, List.forall₂_same]
    exact fun x hx => ⟨hb x hx, by simp⟩⟩

theorem leaf_approx_points {s : Spline (Point (Fl A) n)} {ds : List ℕ} {b : Fin n → ℝ} (h : HasShape ds s)
    (hb : ∀ x ∈ s.cps, ∀ c, |(x.val c).val| ≤ b c) : s.ApproxPoints ds 0 b (s.map (Point.map Fl.val)) :=
  ⟨h, ⟨h.1.map _, h.2⟩, by
    rw [Spline.map]
    simp only [List.forall₂_map_right_iff, List.forall₂_same]
    exact fun x hx c => ⟨hb x hx c, by simp [Point.map]⟩⟩

section
variable (hη : A.η = 0) (hu : A.u ≤ 1 / 2) (cfg : Cfg) (hmax : cfg.maxBinom ≤ 68) (σ : Vars (Fl A) n) (ds dp : ℕ → List ℕ) (bs : ℕ → ℝ)
  (bp : ℕ → Fin n → ℝ) (hs : ∀ i, HasShape (ds i) (σ.s i)) (hp : ∀ i, HasShape (dp i) (σ.p i))
  (hbs : ∀ i, ∀ x ∈ (σ.s i).cps, |x.val| ≤ bs i) (hbp : ∀ i, ∀ x ∈ (σ.p i).cps, ∀ c, |(x.val c).val| ≤ bp i c)
include hη hu hmax hs hp hbs hbp

/-- C87. A whole program with a scalar valued result in floating-point arithmetic and the same program in exact arithmetic both
return, and their results differ by at most the error of the roundings of the program. -/
theorem C87_scalar_program (e : SExpr (Fl A) n) (he : e.WellShaped cfg ds dp) (hel : e.Elementary) :
    ApproxRuns (e.shape ds dp) (e.roundings ds dp) (e.bound ds dp bs bp) (e.run cfg σ) ((e.map Fl.val).run cfg (σ.map Fl.val)) :=
  SExpr.run_approx hη hu hmax (fun i => leaf_approx (hs i) (hbs i)) (fun i => leaf_approx_points (hp i) (hbp i)) e he hel

/-- C87 for programs with point valued results. -/
theorem C87_point_program (e : PExpr (Fl A) n) (he : e.WellShaped cfg ds dp) (hel : e.Elementary) :
    ApproxRunsPoints (e.shape ds dp) (e.roundings ds dp) (e.bound ds dp bs bp) (e.run cfg σ) ((e.map Fl.val).run cfg (σ.map Fl.val)) :=
  PExpr.run_approx hη hu hmax (fun i => leaf_approx (hs i) (hbs i)) (fun i => leaf_approx_points (hp i) (hbp i)) e he hel

end

section
variable (hη : A.η = 0) (hu : A.u ≤ 1 / 2) (cfg : Cfg) (hmax : cfg.maxBinom ≤ 68) (σ : Vars (Fl A) n) (μ : Meaning n)
  (hμ : μ.Of (σ.map Fl.val)) (bs : ℕ → ℝ) (bp : ℕ → Fin n → ℝ)
  (hbs : ∀ i, ∀ x ∈ (σ.s i).cps, |x.val| ≤ bs i) (hbp : ∀ i, ∀ x ∈ (σ.p i).cps, ∀ c, |(x.val c).val| ≤ bp i c)
include hη hu hmax hμ hbs hbp

omit hη hu hmax hbs hbp in
theorem shape_of_meaning : (∀ i, HasShape (μ.ds i) (σ.s i)) ∧ ∀ i, HasShape (μ.dp i) (σ.p i) := by
  refine ⟨fun i => ?_, fun i => ?_⟩
  · have h := hμ.s i
    exact ⟨⟨h.wf.dim_pos, h.wf.ncp_eq, h.wf.offsets_eq, by simpa [Vars.map, Spline.map] using h.wf.cps_len⟩, h.degrees_eq⟩
  · have h := hμ.p i
    exact ⟨⟨h.wf.dim_pos, h.wf.ncp_eq, h.wf.offsets_eq, by simpa [Vars.map, Spline.map] using h.wf.cps_len⟩, h.degrees_eq⟩

/-- C87. The value that a program computes in floating-point arithmetic at a parameter of the unit cube, against the value of the
function that calculus assigns to the program. -/
theorem C87_scalar_function (e : SExpr (Fl A) n) (he : e.WellShaped cfg μ.ds μ.dp) (hel : e.Elementary) (t : List (Fl A))
    (ht : t.length = (e.shape μ.ds μ.dp).length) (h01 : ∀ x ∈ t, 0 ≤ x.val ∧ x.val ≤ 1) :
    ∃ r y, e.run cfg σ = .ok r ∧ r.evaluate t = .ok y ∧
      |y.val - (e.map Fl.val).denote μ (t.map Fl.val)| ≤
        ((1 + A.u) ^ (e.roundings μ.ds μ.dp + 3 * (e.shape μ.ds μ.dp).sum) - 1) * e.bound μ.ds μ.dp bs bp := by
  obtain ⟨hs, hp⟩ := shape_of_meaning σ μ hμ
  obtain ⟨r, r', e1, e2, h⟩ := C87_scalar_program hη hu cfg hmax σ _ _ bs bp hs hp hbs hbp e he hel
  obtain ⟨y, z, e3, e4, h3⟩ := h.evaluate hη ht h01
  obtain ⟨r'', e5, h5⟩ := C72_scalar cfg hmax _ μ hμ _ (SExpr.map_admissible e he hel)
  obtain rfl : r' = r'' := by rw [e2] at e5; exact Except.ok.inj e5
  have e6 := h5.eval (t.map Fl.val) (by rw [List.length_map, ht, SExpr.map_degrees])
  rw [e4] at e6
  obtain rfl : z = _ := Except.ok.inj e6
  exact ⟨r, y, e1, e3, h3⟩

/-- C87. The same for point valued results. -/
theorem C87_point_function (e : PExpr (Fl A) n) (he : e.WellShaped cfg μ.ds μ.dp) (hel : e.Elementary) (t : List (Fl A))
    (ht : t.length = (e.shape μ.ds μ.dp).length) (h01 : ∀ x ∈ t, 0 ≤ x.val ∧ x.val ≤ 1) :
    ∃ r y, e.run cfg σ = .ok r ∧ r.evaluate t = .ok y ∧
      ∀ c, |(y.val c).val - ((e.map Fl.val).denote μ (t.map Fl.val)).val c| ≤
        ((1 + A.u) ^ (e.roundings μ.ds μ.dp + 3 * (e.shape μ.ds μ.dp).sum) - 1) * e.bound μ.ds μ.dp bs bp c := by
  obtain ⟨hs, hp⟩ := shape_of_meaning σ μ hμ
  obtain ⟨r, r', e1, e2, h⟩ := C87_point_program hη hu cfg hmax σ _ _ bs bp hs hp hbs hbp e he hel
  obtain ⟨y, z, e3, e4, h3⟩ := h.evaluate hη ht h01
  obtain ⟨r'', e5, h5⟩ := C72_point cfg hmax _ μ hμ _ (PExpr.map_admissible e he hel)
  obtain rfl : r' = r'' := by rw [e2] at e5; exact Except.ok.inj e5
  have e6 := h5.eval (t.map Fl.val) (by rw [List.length_map, ht, PExpr.map_degrees])
  rw [e4] at e6
  obtain rfl : z = _ := Except.ok.inj e6
  exact ⟨r, y, e1, e3, h3⟩
end

/-! ## Examples -/

noncomputable def σF : Vars F64 2 := ⟨fun _ => exFl, fun _ => exFlP⟩

theorem exFl_approx : exFl.Approx [2, 1] 0 5 (exFl.map Fl.val) :=
  leaf_approx ⟨Ex.surf_wf .., rfl⟩ (by simp [exFl, Ex.surf]; norm_num [abs_le])
theorem exFlP_approx : exFlP.ApproxPoints [2, 1] 0 ![5, 2] (exFlP.map (Point.map Fl.val)) :=
  leaf_approx_points ⟨Ex.surf_wf .., rfl⟩ exFlP_bound

theorem f64_u : (FloatArith.binary 53).u ≤ 1 / 2 := by norm_num [FloatArith.binary]

example := C87_sum (A := FloatArith.binary 53) rfl f64_u Ex.cfg _ _ _ _ _ _ _ _ _ _ exFl_approx exFl_approx ⟨rfl, by decide, by decide, by decide⟩
example := C87_affine (A := FloatArith.binary 53) rfl _ _ _ _ _ exFl_approx ⟨3⟩
example := C87_elevate (A := FloatArith.binary 53) rfl f64_u _ _ _ _ _ exFl_approx 1 (by decide) (by decide)
example := C87_split (A := FloatArith.binary 53) rfl _ _ _ _ _ exFl_approx 0 2 rfl ⟨1 / 3⟩ (by norm_num) (by norm_num)
example := C87_derive (A := FloatArith.binary 53) rfl Ex.cfg Ex.cfg_ok _ _ _ _ _ exFl_approx [2, 1] rfl (ord_le rfl (by decide)) (by decide) (by decide)
example := C87_product (A := FloatArith.binary 53) rfl f64_u Ex.cfg Ex.cfg_ok _ _ _ _ _ _ _ _ _ _ _ _ _ _ _ _ exFl_approx exFl_approx
  exFlP_approx exFlP_approx rfl (by decide)
example := C87_power (A := FloatArith.binary 53) rfl f64_u Ex.cfg Ex.cfg_ok _ _ _ _ _ exFl_approx 7 (by decide)
example := C87_sum_points (A := FloatArith.binary 53) rfl f64_u Ex.cfg _ _ _ _ _ _ _ _ _ _ exFlP_approx exFlP_approx ⟨rfl, by decide, by decide, by decide⟩
example := C87_affine_points (A := FloatArith.binary 53) rfl _ _ _ _ _ exFlP_approx ⟨3⟩ (ptFl 1 2)
example := (C87_elevate_points (A := FloatArith.binary 53) rfl f64_u _ _ _ _ _ exFlP_approx).1 1 (by decide) (by decide)
example := C87_split_points (A := FloatArith.binary 53) rfl _ _ _ _ _ exFlP_approx 0 2 rfl ⟨1 / 3⟩ (by norm_num) (by norm_num)
example := C87_derive_points (A := FloatArith.binary 53) rfl Ex.cfg Ex.cfg_ok _ _ _ _ _ exFlP_approx [2, 1] rfl (ord_le rfl (by decide)) (by decide)
  (by decide)

/-- the sum of the square of a surface and of the first derivative of the elevated surface -/
noncomputable def progF : SExpr F64 2 := .add (.mul (.leaf 0) (.leaf 0)) (.deriv (.elevate (.leaf 0) 0) [1, 0])

theorem progF_wellShaped : progF.WellShaped Ex.cfg (fun _ => [2, 1]) (fun _ => [2, 1]) :=
  ⟨⟨trivial, trivial, rfl, by decide⟩, ⟨⟨trivial, by decide, by decide⟩, rfl, ord_le rfl (by decide), by decide, by decide⟩,
    rfl, by decide, by decide, by decide⟩

noncomputable def μF : Meaning 2 := ⟨fun _ => [2, 1], fun _ => (exFl.map Fl.val).value, fun _ => [2, 1], fun _ => (exFlP.map (Point.map Fl.val)).value⟩

theorem μF_of : μF.Of (σF.map Fl.val) := ⟨fun _ => exFl_approx.shape'.1.computes, fun _ => exFlP_approx.shape'.1.computes⟩

/-- in double precision, the value of the program at (1/4, 3/8) has an absolute error of less than `4200 · 2⁻⁵³` -/
example : ∃ r y, progF.run Ex.cfg σF = .ok r ∧ r.evaluate [(⟨1 / 4⟩ : F64), ⟨3 / 8⟩] = .ok y ∧
    |y.val - (progF.map Fl.val).denote μF [1 / 4, 3 / 8]| ≤ 4200 * 2 ^ (-53 : ℤ) := by
  obtain ⟨r, y, h1, h2, h3⟩ := C87_scalar_function (A := FloatArith.binary 53) rfl f64_u Ex.cfg Ex.cfg_ok σF μF μF_of (fun _ => 5) (fun _ => ![5, 2])
    (fun _ => by simp [σF, exFl, Ex.surf]; norm_num [abs_le]) (fun _ => exFlP_bound) progF progF_wellShaped ⟨⟨trivial, trivial⟩, trivial⟩
    [⟨1 / 4⟩, ⟨3 / 8⟩] rfl (by simp; norm_num)
  refine ⟨r, y, h1, h2, h3.trans ?_⟩
  have e1 : progF.roundings μF.ds μF.dp = 56 := rfl
  have e2 : progF.shape μF.ds μF.dp = [4, 2] := rfl
  have e3 : progF.bound μF.ds μF.dp (fun _ => 5) (fun _ => ![5, 2]) = 55 := by
    simp [progF, SExpr.bound, SExpr.shape, μF, derivFactor]; norm_num
  rw [e1, e2, e3]
  simp only [FloatArith.binary]
  norm_num

/-- a surface scaled by a scalar surface, of which the part behind 1/3 is kept -/
noncomputable def progFP : PExpr F64 2 := .splitRight (.mulLeft (.leaf 0) (.leaf 0)) ⟨1 / 3⟩ 0

example : ∃ r y, progFP.run Ex.cfg σF = .ok r ∧ r.evaluate [(⟨1 / 4⟩ : F64), ⟨3 / 8⟩] = .ok y ∧
    ∀ c, |(y.val c).val - ((progFP.map Fl.val).denote μF [1 / 4, 3 / 8]).val c| ≤ ((1 + 2 ^ (-53 : ℤ)) ^ 48 - 1) * (5 * ![(5 : ℝ), 2] c) :=
  C87_point_function (A := FloatArith.binary 53) rfl f64_u Ex.cfg Ex.cfg_ok σF μF μF_of (fun _ => 5) (fun _ => ![5, 2])
    (fun _ => by simp [σF, exFl, Ex.surf]; norm_num [abs_le]) (fun _ => exFlP_bound) progFP ⟨⟨trivial, trivial, rfl, by decide⟩, by decide⟩
    ⟨⟨trivial, trivial⟩, by norm_num, by norm_num⟩ [⟨1 / 4⟩, ⟨3 / 8⟩] rfl (by simp; norm_num)

end Bezman.Props
