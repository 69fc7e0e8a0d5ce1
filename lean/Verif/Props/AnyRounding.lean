import Verif.Proofs.AnyRoundMembers
import Verif.Props.FloatBounds

/-! # C107: the error bounds hold whatever the compiler makes of the arithmetic

Each operation has any relative error of at most `u ≤ 1/2`, chosen independently at each place of the program (no underflow): products
that are contracted with a sum, intermediate results with more digits, other directions of rounding.  The bounds for all possible
results are those of C87 (Spec/FloatBounds.lean), and the results of one given arithmetic, and of an arithmetic with a fused
multiply-add, are among the possible ones. -/

namespace Bezman.Props
open Spec
variable {A : Roundoff} {B : FloatArith} {n : ℕ}

/-! ## Scalar valued splines -/

/-- C107. Sums and differences of scalar splines with `ka` and `kb` roundings. -/
theorem C107_sum (hη : A.η = 0) (hu : A.u ≤ 1 / 2) (cfg : Cfg) (s t : Spline (Nd A)) (s' t' : Spline ℝ) (da db : List ℕ) (ka kb : ℕ)
    (Ma Mb : ℝ) (ha : s.AllNear da ka Ma s') (hb : t.AllNear db kb Mb t') (hf : Fits cfg da db) :
    AllNearRuns (maxDegrees da db) (sumRoundings da db ka kb) (Ma + Mb) (Spline.addOp (Nd A) cfg s t) (Spline.addOp ℝ cfg s' t') ∧
    AllNearRuns (maxDegrees da db) (sumRoundings da db ka kb) (Ma + Mb) (Spline.addAssign (Nd A) cfg s t) (Spline.addAssign ℝ cfg s' t') ∧
    AllNearRuns (maxDegrees da db) (sumRoundings da db ka kb) (Ma + Mb) (Spline.subAssign (Nd A) cfg s t) (Spline.subAssign ℝ cfg s' t') ∧
    ((∀ d p q : ℕ, da[d]? = some p → db[d]? = some q → q ≤ p) →
      AllNearRuns (maxDegrees da db) (sumRoundings da db ka kb) (Ma + Mb) (Spline.subOp (Nd A) cfg s t) (Spline.subOp ℝ cfg s' t')) :=
  ⟨ha.add hη hu hb hf, ha.addAssign hη hu hb hf, ha.subAssign hη hu hb hf, fun h => ha.sub hη hu hb hf h⟩

/-- C107. Negation is exact; scaling and translation have one rounding. -/
theorem C107_affine (hη : A.η = 0) (s : Spline (Nd A)) (s' : Spline ℝ) (ds : List ℕ) (k : ℕ) (M : ℝ) (h : s.AllNear ds k M s') (c : ℝ) :
    AllNearRuns ds k M s.negOp s'.negOp ∧
    AllNearRuns ds (k + 1) (|c| * M) (s.smulOp (.exactly c : Nd A)) (s'.smulOp c) ∧
    AllNearRuns ds (k + 1) (M + |c|) (s.addPoint (.exactly c)) (s'.addPoint c) ∧
    AllNearRuns ds (k + 1) (M + |c|) (s.subPoint (.exactly c)) (s'.subPoint c) ∧
    AllNearRuns ds (k + 1) (M + |c|) (Spline.pointSub (.exactly c) s) (Spline.pointSub c s') :=
  ⟨h.neg, h.scale hη c, h.addPoint c, h.subPoint c, h.pointSub c⟩

/-- C107. A degree elevation has 12 roundings and does not increase the magnitude. -/
theorem C107_elevate (hη : A.η = 0) (hu : A.u ≤ 1 / 2) (s : Spline (Nd A)) (s' : Spline ℝ) (ds : List ℕ) (k : ℕ) (M : ℝ)
    (h : s.AllNear ds k M s') (d : ℕ) (hd : d < ds.length) (hsz : size (ds.modify d (· + 1)) < 2 ^ 31) :
    AllNearRuns (ds.modify d (· + 1)) (k + 12) M (Spline.orderElevate (Nd A) s d) (Spline.orderElevate ℝ s' d) := h.elevate hη hu hd hsz

/-- C107. A split of a direction of degree `p` has `3p` roundings and does not increase the magnitude. -/
theorem C107_split (hη : A.η = 0) (s : Spline (Nd A)) (s' : Spline ℝ) (ds : List ℕ) (k : ℕ) (M : ℝ)
    (h : s.AllNear ds k M s') (d p : ℕ) (hp : ds[d]? = some p) (z : ℝ) (h0 : 0 < z) (h1 : z < 1) :
    ∃ l r l' r', s.splitAt (.exactly z : Nd A) d = .ok (l, r) ∧ s'.splitAt z d = .ok (l', r') ∧
      l.AllNear ds (k + 3 * p) M l' ∧ r.AllNear ds (k + 3 * p) M r' := h.split hη hp h0 h1

/-- C107. Derivatives. -/
theorem C107_derive (hη : A.η = 0) (cfg : Cfg) (hmax : cfg.maxBinom ≤ 68) (s : Spline (Nd A)) (s' : Spline ℝ) (ds : List ℕ) (k : ℕ) (M : ℝ)
    (h : s.AllNear ds k M s') (orders : List ℕ) (hl : orders.length = ds.length)
    (hle : ∀ d o p : ℕ, orders[d]? = some o → ds[d]? = some p → o ≤ p) (hord : ∀ o ∈ orders, o < cfg.maxBinom) (hsz : size ds < 2 ^ 64) :
    AllNearRuns (List.zipWith (· - ·) ds orders) (k + derivRoundings orders) (derivFactor ds orders * M)
      (Spline.derivativeSpline (Nd A) cfg s orders) (Spline.derivativeSpline ℝ cfg s' orders) := h.deriv hη hmax hl hle hord hsz

/-- C107. Products of scalar valued splines with scalar and point valued splines, and dot products. -/
theorem C107_product (hη : A.η = 0) (hu : A.u ≤ 1 / 2) (cfg : Cfg) (hmax : cfg.maxBinom ≤ 68) (s t : Spline (Nd A)) (s' t' : Spline ℝ)
    (v w : Spline (Point (Nd A) n)) (v' w' : Spline (Point ℝ n)) (da db : List ℕ) (ka kb : ℕ) (Ma Mb : ℝ) (Na Nb : Fin n → ℝ)
    (hs : s.AllNear da ka Ma s') (ht : t.AllNear db kb Mb t') (hv : v.AllNearPoints da ka Na v') (hw : w.AllNearPoints db kb Nb w')
    (hdim : db.length = da.length) (hdeg : ∀ p ∈ sumDegrees da db, p < cfg.maxBinom) :
    AllNearRuns (sumDegrees da db) (productRoundings da db ka kb) (Ma * Mb) (Spline.mulScalar cfg s t) (Spline.mulScalar cfg s' t') ∧
    AllNearRunsPoints (sumDegrees da db) (productRoundings da db ka kb) (fun c => Ma * Nb c)
      (Spline.mulOp (Nd A) cfg (fun c v => c • v) s w) (Spline.mulOp ℝ cfg (fun c v => c • v) s' w') ∧
    AllNearRunsPoints (sumDegrees da db) (productRoundings da db ka kb) (fun c => Na c * Mb)
      (Spline.mulOp (Nd A) cfg (fun (v : Point (Nd A) n) c => c • v) v t) (Spline.mulOp ℝ cfg (fun (v : Point ℝ n) c => c • v) v' t') ∧
    AllNearRuns (sumDegrees da db) (productRoundings da db ka kb + n) (∑ c, Na c * Nb c)
      (Spline.mulOp (Nd A) cfg Point.dot v w) (Spline.mulOp ℝ cfg Point.dot v' w') :=
  ⟨Spline.AllNear.mul hη hu hmax hdim hdeg hs ht, Spline.AllNear.mulLeft hη hu hmax hdim hdeg hs hw, Spline.AllNearPoints.mulRight hη hu hmax hdim hdeg hv ht,
    Spline.AllNearPoints.dot hη hu hmax hdim hdeg hv hw⟩

/-- C107. Powers. -/
theorem C107_power (hη : A.η = 0) (hu : A.u ≤ 1 / 2) (cfg : Cfg) (hmax : cfg.maxBinom ≤ 68) (s : Spline (Nd A)) (s' : Spline ℝ)
    (ds : List ℕ) (k : ℕ) (M : ℝ) (h : s.AllNear ds k M s') (m : ℕ) (hdeg : ∀ p ∈ ds, m * p < cfg.maxBinom) :
    AllNearRuns (ds.map (fun p => m * p)) (powerRoundings ds k m) (M ^ m) (Spline.raisePower cfg s m) (Spline.raisePower cfg s' m) :=
  h.power hη hu hmax m hdeg

/-- C107. `Evaluate` at parameters in the unit interval has `3 Σp` roundings. -/
theorem C107_evaluate (hη : A.η = 0) (s : Spline (Nd A)) (s' : Spline ℝ) (ds : List ℕ) (k : ℕ) (M : ℝ) (h : s.AllNear ds k M s')
    (t : List ℝ) (ht : t.length = ds.length) (h01 : ∀ x ∈ t, 0 ≤ x ∧ x ≤ 1) :
    ∃ r y, s.evaluate (t.map (.exactly : ℝ → Nd A)) = .ok r ∧ s'.evaluate t = .ok y ∧ |y| ≤ M ∧
      ∀ x, r.vals x → |x - y| ≤ ((1 + A.u) ^ (k + 3 * ds.sum) - 1) * M :=
  h.evaluate hη ht h01

/-! ## Point valued splines -/

/-- C107. Sums and differences of splines of points. -/
theorem C107_sum_points (hη : A.η = 0) (hu : A.u ≤ 1 / 2) (cfg : Cfg) (s t : Spline (Point (Nd A) n)) (s' t' : Spline (Point ℝ n))
    (da db : List ℕ) (ka kb : ℕ) (Ma Mb : Fin n → ℝ) (ha : s.AllNearPoints da ka Ma s') (hb : t.AllNearPoints db kb Mb t')
    (hf : Fits cfg da db) :
    AllNearRunsPoints (maxDegrees da db) (sumRoundings da db ka kb) (fun c => Ma c + Mb c) (Spline.addOp (Nd A) cfg s t)
      (Spline.addOp ℝ cfg s' t') ∧
    AllNearRunsPoints (maxDegrees da db) (sumRoundings da db ka kb) (fun c => Ma c + Mb c) (Spline.addAssign (Nd A) cfg s t)
      (Spline.addAssign ℝ cfg s' t') ∧
    AllNearRunsPoints (maxDegrees da db) (sumRoundings da db ka kb) (fun c => Ma c + Mb c) (Spline.subAssign (Nd A) cfg s t)
      (Spline.subAssign ℝ cfg s' t') ∧
    ((∀ d p q : ℕ, da[d]? = some p → db[d]? = some q → q ≤ p) →
      AllNearRunsPoints (maxDegrees da db) (sumRoundings da db ka kb) (fun c => Ma c + Mb c) (Spline.subOp (Nd A) cfg s t)
        (Spline.subOp ℝ cfg s' t')) :=
  ⟨ha.add hη hu hb hf, ha.addAssign hη hu hb hf, ha.subAssign hη hu hb hf, fun h => ha.sub hη hu hb hf h⟩

/-- C107. Negation of a spline of points (a multiplication by `-1`), scaling and translation have one rounding, `v - s` has two. -/
theorem C107_affine_points (hη : A.η = 0) (s : Spline (Point (Nd A) n)) (s' : Spline (Point ℝ n)) (ds : List ℕ) (k : ℕ) (M : Fin n → ℝ)
    (h : s.AllNearPoints ds k M s') (a : ℝ) (v : Point ℝ n) :
    AllNearRunsPoints ds (k + 1) M s.negOp s'.negOp ∧
    AllNearRunsPoints ds (k + 1) (fun c => |a| * M c) (s.smulOp (.exactly a : Nd A)) (s'.smulOp a) ∧
    AllNearRunsPoints ds (k + 1) (fun c => M c + |v.val c|) (s.addPoint (v.map .exactly)) (s'.addPoint v) ∧
    AllNearRunsPoints ds (k + 1) (fun c => M c + |v.val c|) (s.subPoint (v.map .exactly)) (s'.subPoint v) ∧
    AllNearRunsPoints ds (k + 2) (fun c => M c + |v.val c|) (Spline.pointSub (v.map .exactly) s) (Spline.pointSub v s') :=
  ⟨h.neg hη, h.scale hη a, h.addPoint v, h.subPoint v, h.pointSub hη v⟩

/-- C107. Degree elevation and coordinates of splines of points. -/
theorem C107_elevate_points (hη : A.η = 0) (hu : A.u ≤ 1 / 2) (s : Spline (Point (Nd A) n)) (s' : Spline (Point ℝ n)) (ds : List ℕ) (k : ℕ)
    (M : Fin n → ℝ) (h : s.AllNearPoints ds k M s') :
    (∀ d < ds.length, size (ds.modify d (· + 1)) < 2 ^ 31 →
      AllNearRunsPoints (ds.modify d (· + 1)) (k + 12) M (Spline.orderElevate (Nd A) s d) (Spline.orderElevate ℝ s' d)) ∧
    ∀ j : Fin n, AllNearRuns ds k (M j) (Spline.extractDimension (Nd A) s j) (Spline.extractDimension ℝ s' j) :=
  ⟨fun _ hd hsz => h.elevate hη hu hd hsz, h.extract⟩

/-- C107. Splits of splines of points. -/
theorem C107_split_points (hη : A.η = 0) (s : Spline (Point (Nd A) n)) (s' : Spline (Point ℝ n)) (ds : List ℕ) (k : ℕ) (M : Fin n → ℝ)
    (h : s.AllNearPoints ds k M s') (d p : ℕ) (hp : ds[d]? = some p) (z : ℝ) (h0 : 0 < z) (h1 : z < 1) :
    ∃ l r l' r', s.splitAt (.exactly z : Nd A) d = .ok (l, r) ∧ s'.splitAt z d = .ok (l', r') ∧
      l.AllNearPoints ds (k + 3 * p) M l' ∧ r.AllNearPoints ds (k + 3 * p) M r' := h.split hη hp h0 h1

/-- C107. Derivatives of splines of points. -/
theorem C107_derive_points (hη : A.η = 0) (cfg : Cfg) (hmax : cfg.maxBinom ≤ 68) (s : Spline (Point (Nd A) n)) (s' : Spline (Point ℝ n))
    (ds : List ℕ) (k : ℕ) (M : Fin n → ℝ) (h : s.AllNearPoints ds k M s') (orders : List ℕ) (hl : orders.length = ds.length)
    (hle : ∀ d o p : ℕ, orders[d]? = some o → ds[d]? = some p → o ≤ p) (hord : ∀ o ∈ orders, o < cfg.maxBinom) (hsz : size ds < 2 ^ 64) :
    AllNearRunsPoints (List.zipWith (· - ·) ds orders) (k + derivRoundings orders) (fun c => derivFactor ds orders * M c)
      (Spline.derivativeSpline (Nd A) cfg s orders) (Spline.derivativeSpline ℝ cfg s' orders) := h.deriv hη hmax hl hle hord hsz

/-- C107. `Evaluate` of splines of points. -/
theorem C107_evaluate_points (hη : A.η = 0) (s : Spline (Point (Nd A) n)) (s' : Spline (Point ℝ n)) (ds : List ℕ) (k : ℕ) (M : Fin n → ℝ)
    (h : s.AllNearPoints ds k M s') (t : List ℝ) (ht : t.length = ds.length) (h01 : ∀ x ∈ t, 0 ≤ x ∧ x ≤ 1) :
    ∃ r y, s.evaluate (t.map (.exactly : ℝ → Nd A)) = .ok r ∧ s'.evaluate t = .ok y ∧
      ∀ c, |y.val c| ≤ M c ∧ ∀ x, (r.val c).vals x → |x - y.val c| ≤ ((1 + A.u) ^ (k + 3 * ds.sum) - 1) * M c := h.evaluate hη ht h01

/-! ## Programs -/

theorem leaf_within {s : Spline (Fl B)} {ds : List ℕ} {b : ℝ} (h : HasShape ds s) (hb : ∀ x ∈ s.cps, |x.val| ≤ b) :
    (s.map (Nd.ofFl (A := A))).AllNear ds 0 b (s.map Fl.val) :=
  ⟨⟨h.1.map _, h.2⟩, ⟨h.1.map _, h.2⟩, by
    simp only [Spline.map, List.forall₂_map_right_iff, List.forall₂_map_left_iff, List.forall₂_same]
    exact fun x hx => ⟨hb x hx, fun r hr => by obtain rfl : r = x.val := hr; simp⟩⟩

theorem leaf_within_points {s : Spline (Point (Fl B) n)} {ds : List ℕ} {b : Fin n → ℝ} (h : HasShape ds s)
    (hb : ∀ x ∈ s.cps, ∀ c, |(x.val c).val| ≤ b c) :
    (s.map (Point.map (Nd.ofFl (A := A)))).AllNearPoints ds 0 b (s.map (Point.map Fl.val)) :=
  ⟨⟨h.1.map _, h.2⟩, ⟨h.1.map _, h.2⟩, by
    simp only [Spline.map, List.forall₂_map_right_iff, List.forall₂_map_left_iff, List.forall₂_same]
    exact fun x hx c => ⟨hb x hx c, fun r hr => by obtain rfl : r = (x.val c).val := hr; simp [Point.map]⟩⟩

section
variable (hη : A.η = 0) (hu : A.u ≤ 1 / 2) (cfg : Cfg) (hmax : cfg.maxBinom ≤ 68) (σ : Vars (Fl B) n) (ds dp : ℕ → List ℕ) (bs : ℕ → ℝ)
  (bp : ℕ → Fin n → ℝ) (hs : ∀ i, HasShape (ds i) (σ.s i)) (hp : ∀ i, HasShape (dp i) (σ.p i))
  (hbs : ∀ i, ∀ x ∈ (σ.s i).cps, |x.val| ≤ bs i) (hbp : ∀ i, ∀ x ∈ (σ.p i).cps, ∀ c, |(x.val c).val| ≤ bp i c)
include hη hu hmax hs hp hbs hbp

/-- C107. A whole program with a scalar valued result: all results that are possible differ from the exact one by at most the error of
the roundings of the program. -/
theorem C107_scalar_program (e : SExpr (Fl B) n) (he : e.WellShaped cfg ds dp) (hel : e.Elementary) :
    AllNearRuns (e.shape ds dp) (e.roundings ds dp) (e.bound ds dp bs bp) ((e.map (Nd.ofFl (A := A))).run cfg (σ.map Nd.ofFl))
      ((e.map Fl.val).run cfg (σ.map Fl.val)) :=
  SExpr.run_within hη hu hmax (fun i => leaf_within (hs i) (hbs i)) (fun i => leaf_within_points (hp i) (hbp i)) e he hel

/-- C107 for programs with point valued results. -/
theorem C107_point_program (e : PExpr (Fl B) n) (he : e.WellShaped cfg ds dp) (hel : e.Elementary) :
    AllNearRunsPoints (e.shape ds dp) (e.roundings ds dp) (e.bound ds dp bs bp) ((e.map (Nd.ofFl (A := A))).run cfg (σ.map Nd.ofFl))
      ((e.map Fl.val).run cfg (σ.map Fl.val)) :=
  PExpr.run_within hη hu hmax (fun i => leaf_within (hs i) (hbs i)) (fun i => leaf_within_points (hp i) (hbp i)) e he hel
end

/-! ## One arithmetic -/

/-- C107. What a program returns in one given arithmetic, whose errors are within the sizes, is one of the possible results (any
program, also with compositions and splits at many planes). -/
theorem C107_one_arithmetic (hu : B.u ≤ A.u) (hη : B.η ≤ A.η) (cfg : Cfg) (σ : Vars (Fl B) n) :
    (∀ (e : SExpr (Fl B) n) (s : Spline (Nd A)) (r : Spline (Fl B)), (e.map Nd.ofFl).run cfg (σ.map Nd.ofFl) = .ok s → e.run cfg σ = .ok r →
      s.HasValues (r.map Fl.val)) ∧
    ∀ (e : PExpr (Fl B) n) (s : Spline (Point (Nd A) n)) (r : Spline (Point (Fl B) n)), (e.map Nd.ofFl).run cfg (σ.map Nd.ofFl) = .ok s →
      e.run cfg σ = .ok r → s.HasPoints (r.map (Point.map Fl.val)) :=
  ⟨fun e _ _ h1 h2 => e.run_member hu hη cfg σ h1 h2, fun e _ _ h1 h2 => e.run_member hu hη cfg σ h1 h2⟩

/-! ## Fused multiply-add -/

section
variable {F : FusedArith}

/-- C107. In the arithmetic with a fused multiply-add, the value of a line is computed with three roundings instead of four: the
difference `1 - t`, the second product, and the contraction of the first product with the sum. -/
theorem C107_contracted (a b t : ℝ) :
    (⟨[1], 2, [1], [⟨a, none⟩, ⟨b, none⟩]⟩ : Spline (Fu F)).evaluate [(⟨t, none⟩ : Fu F)] =
      .ok ⟨F.fma (F.sub 1 t) a (F.mul t b), none⟩ := by
  simp [Spline.evaluate, rd, wr, loop, bind, Except.bind, pure, Except.pure, Spline.dim]
  rfl

/-- the sizes of the errors of an arithmetic -/
def sizes (F : FusedArith) : Roundoff := ⟨F.u, F.η, F.u_nonneg, F.η_nonneg⟩

variable (hη : F.η = 0) (hu : F.u ≤ 1 / 2) (cfg : Cfg) (hmax : cfg.maxBinom ≤ 68) (σ : Vars (Fl B) n) (μ : Meaning n)
  (hμ : μ.Of (σ.map Fl.val)) (bs : ℕ → ℝ) (bp : ℕ → Fin n → ℝ)
  (hbs : ∀ i, ∀ x ∈ (σ.s i).cps, |x.val| ≤ bs i) (hbp : ∀ i, ∀ x ∈ (σ.p i).cps, ∀ c, |(x.val c).val| ≤ bp i c)
include hη hu hmax hμ hbs hbp

/-- C107. The value that a program computes at a parameter of the unit cube, compiled for an arithmetic in which products are contracted
with the sums they are used in, against the value of the function that calculus assigns to the program: the bound is that of C87. -/
theorem C107_fused_scalar (e : SExpr (Fl B) n) (he : e.WellShaped cfg μ.ds μ.dp) (hel : e.Elementary) (t : List (Fl B))
    (ht : t.length = (e.shape μ.ds μ.dp).length) (h01 : ∀ x ∈ t, 0 ≤ x.val ∧ x.val ≤ 1) :
    ∃ (r : Spline (Fu F)) (y : Fu F), (e.map Fu.ofFl).run cfg (σ.map Fu.ofFl) = .ok r ∧ r.evaluate (t.map (Fu.ofFl (A := F))) = .ok y ∧
      |y.val - (e.map Fl.val).denote μ (t.map Fl.val)| ≤
        ((1 + F.u) ^ (e.roundings μ.ds μ.dp + 3 * (e.shape μ.ds μ.dp).sum) - 1) * e.bound μ.ds μ.dp bs bp := by
  obtain ⟨hs, hp⟩ := shape_of_meaning σ μ hμ
  obtain ⟨s, r', e1, e2, h⟩ := C107_scalar_program (A := sizes F) hη hu cfg hmax σ _ _ bs bp hs hp hbs hbp e he hel
  obtain ⟨r, e0, hr⟩ := SExpr.run_returns (f := Fu.ofFl (A := F)) (σ := σ.map Fu.ofFl) hmax (fun z h0 h1 => ⟨h0, h1⟩)
    (fun i => ⟨(hs i).1.map _, (hs i).2⟩) (fun i => ⟨(hp i).1.map _, (hp i).2⟩) e he hel
  have hsr := SExpr.run_fused (A := F) (R := sizes F) le_rfl le_rfl cfg σ e e1 e0
  obtain ⟨x, z, e3, e4, -, h3⟩ := h.evaluate hη (t := t.map Fl.val) (by rw [List.length_map]; exact ht) (by simpa using h01)
  rw [List.map_map] at e3
  obtain ⟨y, e7⟩ := Spline.evaluate_returns hr (t.map (Fu.ofFl (A := F))) (by rw [List.length_map]; exact ht)
  have hm := Spline.evaluate_fused (A := F) (R := sizes F) le_rfl le_rfl hsr (t := t) e3 e7
  obtain ⟨r'', e5, h5⟩ := C72_scalar cfg hmax _ μ hμ _ (SExpr.map_admissible e he hel)
  obtain rfl : r' = r'' := by rw [e2] at e5; exact Except.ok.inj e5
  have e6 := h5.eval (t.map Fl.val) (by rw [List.length_map, ht, SExpr.map_degrees])
  rw [e4] at e6
  obtain rfl : z = _ := Except.ok.inj e6
  exact ⟨r, y, e0, e7, h3 _ hm⟩

/-- C107. The same for point valued results. -/
theorem C107_fused_point (e : PExpr (Fl B) n) (he : e.WellShaped cfg μ.ds μ.dp) (hel : e.Elementary) (t : List (Fl B))
    (ht : t.length = (e.shape μ.ds μ.dp).length) (h01 : ∀ x ∈ t, 0 ≤ x.val ∧ x.val ≤ 1) :
    ∃ (r : Spline (Point (Fu F) n)) (y : Point (Fu F) n), (e.map Fu.ofFl).run cfg (σ.map Fu.ofFl) = .ok r ∧
      r.evaluate (t.map (Fu.ofFl (A := F))) = .ok y ∧
      ∀ c, |(y.val c).val - ((e.map Fl.val).denote μ (t.map Fl.val)).val c| ≤
        ((1 + F.u) ^ (e.roundings μ.ds μ.dp + 3 * (e.shape μ.ds μ.dp).sum) - 1) * e.bound μ.ds μ.dp bs bp c := by
  obtain ⟨hs, hp⟩ := shape_of_meaning σ μ hμ
  obtain ⟨s, r', e1, e2, h⟩ := C107_point_program (A := sizes F) hη hu cfg hmax σ _ _ bs bp hs hp hbs hbp e he hel
  obtain ⟨r, e0, hr⟩ := PExpr.run_returns (f := Fu.ofFl (A := F)) (σ := σ.map Fu.ofFl) hmax (fun z h0 h1 => ⟨h0, h1⟩)
    (fun i => ⟨(hs i).1.map _, (hs i).2⟩) (fun i => ⟨(hp i).1.map _, (hp i).2⟩) e he hel
  have hsr := PExpr.run_fused (A := F) (R := sizes F) le_rfl le_rfl cfg σ e e1 e0
  obtain ⟨x, z, e3, e4, h3⟩ := h.evaluate hη (t := t.map Fl.val) (by rw [List.length_map]; exact ht) (by simpa using h01)
  rw [List.map_map] at e3
  obtain ⟨y, e7⟩ := Spline.evaluate_returns hr (t.map (Fu.ofFl (A := F))) (by rw [List.length_map]; exact ht)
  have hm := Spline.evaluate_fused_points (A := F) (R := sizes F) le_rfl le_rfl hsr (t := t) e3 e7
  obtain ⟨r'', e5, h5⟩ := C72_point cfg hmax _ μ hμ _ (PExpr.map_admissible e he hel)
  obtain rfl : r' = r'' := by rw [e2] at e5; exact Except.ok.inj e5
  have e6 := h5.eval (t.map Fl.val) (by rw [List.length_map, ht, PExpr.map_degrees])
  rw [e4] at e6
  obtain rfl : z = _ := Except.ok.inj e6
  exact ⟨r, y, e0, e7, fun c => (h3 c).2 _ (hm c)⟩
end

/-! ## Examples -/

/-- double precision -/
noncomputable def dbl : Roundoff := ⟨2 ^ (-53 : ℤ), 0, by positivity, le_rfl⟩
theorem dbl_u : dbl.u ≤ 1 / 2 := by norm_num [dbl]

/-- double precision with fused multiply-add -/
noncomputable def dblFma : FusedArith :=
  { FloatArith.binary 53 with fma := fun a b c => rndBin 53 (a * b + c), fma_err := fun _ _ _ => rndBin_err 53 _ }
theorem dblFma_u : dblFma.u ≤ 1 / 2 := f64_u

theorem exFl_within : (exFl.map (Nd.ofFl (A := dbl))).AllNear [2, 1] 0 5 (exFl.map Fl.val) :=
  leaf_within ⟨Ex.surf_wf .., rfl⟩ (by simp [exFl, Ex.surf]; norm_num [abs_le])
theorem exFlP_within : (exFlP.map (Point.map (Nd.ofFl (A := dbl)))).AllNearPoints [2, 1] 0 ![5, 2] (exFlP.map (Point.map Fl.val)) :=
  leaf_within_points ⟨Ex.surf_wf .., rfl⟩ exFlP_bound

example := C107_sum (A := dbl) rfl dbl_u Ex.cfg _ _ _ _ _ _ _ _ _ _ exFl_within exFl_within ⟨rfl, by decide, by decide, by decide⟩
example := C107_affine (A := dbl) rfl _ _ _ _ _ exFl_within 3
example := C107_elevate (A := dbl) rfl dbl_u _ _ _ _ _ exFl_within 1 (by decide) (by decide)
example := C107_split (A := dbl) rfl _ _ _ _ _ exFl_within 0 2 rfl (1 / 3) (by norm_num) (by norm_num)
example := C107_derive (A := dbl) rfl Ex.cfg Ex.cfg_ok _ _ _ _ _ exFl_within [2, 1] rfl (ord_le rfl (by decide)) (by decide) (by decide)
example := C107_product (A := dbl) rfl dbl_u Ex.cfg Ex.cfg_ok _ _ _ _ _ _ _ _ _ _ _ _ _ _ _ _ exFl_within exFl_within
  exFlP_within exFlP_within rfl (by decide)
example := C107_power (A := dbl) rfl dbl_u Ex.cfg Ex.cfg_ok _ _ _ _ _ exFl_within 7 (by decide)
example := C107_evaluate (A := dbl) rfl _ _ _ _ _ exFl_within [1 / 4, 3 / 8] rfl (by simp; norm_num)
example := C107_sum_points (A := dbl) rfl dbl_u Ex.cfg _ _ _ _ _ _ _ _ _ _ exFlP_within exFlP_within ⟨rfl, by decide, by decide, by decide⟩
example := C107_affine_points (A := dbl) rfl _ _ _ _ _ exFlP_within 3 ⟨![1, 2]⟩
example := (C107_elevate_points (A := dbl) rfl dbl_u _ _ _ _ _ exFlP_within).1 1 (by decide) (by decide)
example := C107_split_points (A := dbl) rfl _ _ _ _ _ exFlP_within 0 2 rfl (1 / 3) (by norm_num) (by norm_num)
example := C107_derive_points (A := dbl) rfl Ex.cfg Ex.cfg_ok _ _ _ _ _ exFlP_within [2, 1] rfl (ord_le rfl (by decide)) (by decide) (by decide)
example := C107_evaluate_points (A := dbl) rfl _ _ _ _ _ exFlP_within [1 / 4, 3 / 8] rfl (by simp; norm_num)

/-- with a fused multiply-add in double precision, the value of the program at (1/4, 3/8) has an absolute error of less than
`4200 · 2⁻⁵³` -/
example : ∃ (r : Spline (Fu dblFma)) (y : Fu dblFma), (progF.map Fu.ofFl).run Ex.cfg (σF.map Fu.ofFl) = .ok r ∧
    r.evaluate [(⟨1 / 4, none⟩ : Fu dblFma), ⟨3 / 8, none⟩] = .ok y ∧ |y.val - (progF.map Fl.val).denote μF [1 / 4, 3 / 8]| ≤ 4200 * 2 ^ (-53 : ℤ) := by
  obtain ⟨r, y, h1, h2, h3⟩ := C107_fused_scalar (F := dblFma) rfl dblFma_u Ex.cfg Ex.cfg_ok σF μF μF_of (fun _ => 5) (fun _ => ![5, 2])
    (fun _ => by simp [σF, exFl, Ex.surf]; norm_num [abs_le]) (fun _ => exFlP_bound) progF progF_wellShaped ⟨⟨trivial, trivial⟩, trivial⟩
    [⟨1 / 4⟩, ⟨3 / 8⟩] rfl (by simp; norm_num)
  refine ⟨r, y, h1, h2, h3.trans ?_⟩
  have e1 : progF.roundings μF.ds μF.dp = 56 := rfl
  have e2 : progF.shape μF.ds μF.dp = [4, 2] := rfl
  have e3 : progF.bound μF.ds μF.dp (fun _ => 5) (fun _ => ![5, 2]) = 55 := by
    simp [progF, SExpr.bound, SExpr.shape, μF, derivFactor]; norm_num
  rw [e1, e2, e3]
  simp only [dblFma, FloatArith.binary]
  norm_num

example := C107_fused_point (F := dblFma) rfl dblFma_u Ex.cfg Ex.cfg_ok σF μF μF_of (fun _ => 5) (fun _ => ![5, 2])
    (fun _ => by simp [σF, exFl, Ex.surf]; norm_num [abs_le]) (fun _ => exFlP_bound) progFP ⟨⟨trivial, trivial, rfl, by decide⟩, by decide⟩
    ⟨⟨trivial, trivial⟩, by norm_num, by norm_num⟩ [⟨1 / 4⟩, ⟨3 / 8⟩] rfl (by simp; norm_num)

/-- the program returns in the arithmetic of sets and in double precision -/
example : ∃ s r, (progF.map (Nd.ofFl (A := dbl))).run Ex.cfg (σF.map Nd.ofFl) = .ok s ∧ progF.run Ex.cfg σF = .ok r ∧ s.HasValues (r.map Fl.val) := by
  obtain ⟨s, _, h1, -, -⟩ := C107_scalar_program (A := dbl) rfl dbl_u Ex.cfg Ex.cfg_ok σF (fun _ => [2, 1]) (fun _ => [2, 1]) (fun _ => 5) (fun _ => ![5, 2])
    (fun _ => exFl_approx.shape) (fun _ => exFlP_approx.shape)
    (fun _ => by simp [σF, exFl, Ex.surf]; norm_num [abs_le]) (fun _ => exFlP_bound) progF progF_wellShaped ⟨⟨trivial, trivial⟩, trivial⟩
  obtain ⟨r, _, h2, -, -⟩ := C87_scalar_program (A := FloatArith.binary 53) rfl f64_u Ex.cfg Ex.cfg_ok σF (fun _ => [2, 1]) (fun _ => [2, 1]) (fun _ => 5)
    (fun _ => ![5, 2]) (fun _ => exFl_approx.shape) (fun _ => exFlP_approx.shape)
    (fun _ => by simp [σF, exFl, Ex.surf]; norm_num [abs_le]) (fun _ => exFlP_bound) progF progF_wellShaped ⟨⟨trivial, trivial⟩, trivial⟩
  exact ⟨s, r, h1, h2, (C107_one_arithmetic (A := dbl) (B := FloatArith.binary 53) le_rfl le_rfl Ex.cfg σF).1 _ _ _ h1 h2⟩

end Bezman.Props
