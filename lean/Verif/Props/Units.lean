import Verif.Props.RLawsCompose
import Verif.Props.Lossless

/-! # Property C123: constant and neutral arguments -/

namespace Bezman.Props
open Spec Coords

section
variable {K V : Type} [Field K] [CharZero K] [AddCommGroup V] [Module K V]

/-- C123. A spline is constant exactly if all its control points are the same. -/
theorem C123_constant (s : Spline V) (ds : List ℕ) (f : List K → V) (hs : s.Computes ds f) (c : V) :
    (∀ x ∈ s.cps, x = c) ↔ ∀ t : List K, t.length = ds.length → s.evaluate t = .ok c := by
  have key : ∀ s : Spline V, s.WF → (∀ x ∈ s.cps, x = c) → s.Computes s.degrees (fun _ : List K => c) := by
    intro s hs h
    refine Spline.Computes.mk' hs rfl fun t ht => ?_
    unfold Spline.value
    rw [bezier_congr (Q := fun _ => c) fun idx hi => h _ (Spline.getD_mem hs (flatIndex_lt hi)), bezier_const ht]
  have hd := hs.degrees_eq
  subst hd
  constructor
  · intro h t ht
    exact (key s hs.wf h).eval t ht
  · intro h
    let k : Spline V := ⟨s.degrees, s.ncp, s.offsets, List.replicate (size s.degrees) c⟩
    have kw : k.WF := ⟨hs.wf.dim_pos, hs.wf.ncp_eq, hs.wf.offsets_eq, by simp [k]⟩
    have hk := key k kw fun x hx => (List.mem_replicate.mp hx).2
    have e : s = k := Spline.Computes.unique (K := K) (ds := s.degrees) (f := fun _ => c) ⟨hs.wf, rfl, h⟩ hk
    rw [e]
    exact fun x hx => (List.mem_replicate.mp hx).2

theorem const_computes {s : Spline V} {c : V} (hs : s.WF) (h : ∀ x ∈ s.cps, x = c) : s.Computes s.degrees (fun _ : List K => c) :=
  ⟨hs, rfl, (C123_constant s s.degrees _ hs.computes c).mp h⟩

theorem sumDegrees_zero {x y : List ℕ} (hl : y.length = x.length) (h : ∀ p ∈ y, p = 0) : sumDegrees x y = x := by
  apply List.ext_getElem (by simp [sumDegrees, hl])
  intro i h1 h2
  have h3 : i < y.length := by omega
  simp [sumDegrees, h _ (List.getElem_mem h3)]

theorem sumDegrees_one {x : List ℕ} {d p : ℕ} (hp : x[d]? = some p) : sumDegrees x (firstOrder x.length d) = x.set d (p + 1) := by
  obtain ⟨hd, rfl⟩ := List.getElem?_eq_some_iff.mp hp
  apply List.ext_getElem (by simp [sumDegrees, firstOrder])
  intro i h1 h2
  simp only [sumDegrees, firstOrder, List.getElem_zipWith, List.getElem_set, List.getElem_replicate]
  split <;> simp_all

theorem maxDegrees_le : ∀ {x y : List ℕ}, List.Forall₂ (· ≤ ·) y x → maxDegrees x y = x
  | _, _, .nil => rfl
  | _, _, .cons h t => by
    simp only [maxDegrees, List.zipWith_cons_cons, List.cons.injEq]
    exact ⟨max_eq_left h, maxDegrees_le t⟩

/-- C123. Multiplying with a spline of degree 0 in every dimension whose control point is 1 returns the same object. -/
theorem C123_mul_one (cfg : Cfg) (hmax : cfg.maxBinom ≤ 68) (a : Spline V) (ds : List ℕ) (f : List K → V) (ha : a.Computes ds f) (u : Spline K)
    (hu : u.WF) (hl : u.degrees.length = ds.length) (h0 : ∀ p ∈ u.degrees, p = 0) (h1 : ∀ x ∈ u.cps, x = 1) (hdeg : ∀ p ∈ ds, p < cfg.maxBinom) :
    Spline.mulOp K cfg (fun c x => c • x) u a = .ok a ∧ Spline.mulOp K cfg (fun (x : V) (c : K) => c • x) a u = .ok a := by
  have e := sumDegrees_zero hl h0
  have e' : sumDegrees u.degrees ds = ds := (List.zipWith_comm_of_comm fun x y => Nat.add_comm x y).trans e
  obtain ⟨r, r1, r2⟩ := C21_mul_scalar_point cfg hmax u a _ _ _ _ (const_computes hu h1) ha hl.symm (by rw [e']; exact hdeg)
  obtain ⟨q, q1, q2⟩ := C21_mul_point_scalar cfg hmax a u _ _ _ _ ha (const_computes hu h1) hl (by rw [e]; exact hdeg)
  rw [e'] at r2
  rw [e] at q2
  rw [r1, q1, r2.unique (ha.congr fun t _ => (one_smul K _).symm), q2.unique (ha.congr fun t _ => (one_smul K _).symm)]
  exact ⟨rfl, rfl⟩

/-- C123. Multiplying with the constant 1 of degree 1 in dimension `d` and degree 0 in the others is degree elevation in dimension `d`. -/
theorem C123_mul_one_elevates (cfg : Cfg) (hmax : cfg.maxBinom ≤ 68) (a : Spline V) (ds : List ℕ) (f : List K → V) (ha : a.Computes ds f)
    (u : Spline K) (hu : u.WF) (d p : ℕ) (hp : ds[d]? = some p) (hl : u.degrees = firstOrder ds.length d) (h1 : ∀ x ∈ u.cps, x = 1)
    (hdeg : ∀ q ∈ ds.set d (p + 1), q < cfg.maxBinom) (hsize : size (ds.set d (p + 1)) < 2 ^ 31) :
    ∃ r, Spline.orderElevate K a d = .ok r ∧ Spline.mulOp K cfg (fun c x => c • x) u a = .ok r := by
  have e : sumDegrees u.degrees ds = ds.set d (p + 1) := by
    rw [hl]; exact (List.zipWith_comm_of_comm fun x y => Nat.add_comm x y).trans (sumDegrees_one hp)
  obtain ⟨r, r1, r2⟩ := C21_mul_scalar_point cfg hmax u a _ _ _ _ (const_computes hu h1) ha (by rw [hl]; simp [firstOrder]) (by rw [e]; exact hdeg)
  obtain ⟨q, q1, q2⟩ := C12_order_elevate (K := K) a ds f ha d p hp hsize
  rw [e] at r2
  refine ⟨q, q1, ?_⟩
  rw [r1, r2.unique (q2.congr fun t _ => (one_smul K _).symm)]

/-- C123. Adding or subtracting a spline of zeros whose degrees do not exceed those of `a` returns the same object. -/
theorem C123_add_zero (cfg : Cfg) (a : Spline V) (ds : List ℕ) (f : List K → V) (ha : a.Computes ds f) (z : Spline V)
    (hz : z.WF) (hl : List.Forall₂ (· ≤ ·) z.degrees ds) (h0 : ∀ x ∈ z.cps, x = 0) (hf : Fits cfg ds z.degrees) :
    Spline.addOp K cfg a z = .ok a ∧ Spline.addAssign K cfg a z = .ok a ∧ Spline.subAssign K cfg a z = .ok a := by
  have e := maxDegrees_le hl
  have hz' := const_computes (K := K) hz h0
  obtain ⟨r, r1, r2⟩ := C16_add cfg a z _ _ _ _ ha hz' hf
  obtain ⟨q, q1, q2⟩ := C17_add_assign cfg a z _ _ _ _ ha hz' hf
  obtain ⟨x, x1, x2⟩ := C19_sub_assign cfg a z _ _ _ _ ha hz' hf
  rw [e] at r2 q2 x2
  rw [r1, q1, x1, r2.unique (ha.congr fun t _ => (add_zero _).symm), q2.unique (ha.congr fun t _ => (add_zero _).symm),
    x2.unique (ha.congr fun t _ => (sub_zero _).symm)]
  exact ⟨rfl, rfl, rfl⟩

/-- C123. The first power of a spline is the same object, the second one the product with itself. -/
theorem C123_power (cfg : Cfg) (hmax : cfg.maxBinom ≤ 68) (a : Spline K) (ds : List ℕ) (f : List K → K) (ha : a.Computes ds f)
    (hdeg : ∀ p ∈ ds, 2 * p < cfg.maxBinom) : Spline.raisePower cfg a 1 = .ok a ∧
      ∃ r, Spline.raisePower cfg a 2 = .ok r ∧ Spline.mulScalar cfg a a = .ok r := by
  obtain ⟨q, q1, q2⟩ := C22_raise_power cfg hmax a ds f ha 1 fun p hp => by have := hdeg p hp; omega
  obtain ⟨r, r1, r2⟩ := C22_raise_power cfg hmax a ds f ha 2 hdeg
  have e : sumDegrees ds ds = ds.map fun p => 2 * p := by
    apply List.ext_getElem (by simp [sumDegrees])
    intro i h1 h2
    simp [sumDegrees, two_mul]
  obtain ⟨x, x1, x2⟩ := C21_mul_scalar cfg hmax a a ds ds f f ha ha rfl (by rw [e]; simpa using hdeg)
  rw [e] at x2
  simp only [one_mul, List.map_id'] at q2
  refine ⟨?_, r, r1, ?_⟩
  · rw [q1, q2.unique (ha.congr fun t _ => (pow_one _).symm)]
  · rw [x1, x2.unique (r2.congr fun t _ => sq _)]

/-- C123. Multiplying a rational spline with the constant rational spline 1 of degree 0 returns the same object. -/
theorem C123_rational_mul_one (cfg : Cfg) (hmax : cfg.maxBinom ≤ 68) (a : RSpline K V) (ds : List ℕ) (N : List K → V) (w : List K → K)
    (ha : RParts a ds N w) (u : RSpline K K) (hu : u.num.WF) (hu' : u.wt.WF) (hd : u.num.degrees = u.wt.degrees)
    (hl : u.num.degrees.length = ds.length) (h0 : ∀ p ∈ u.num.degrees, p = 0) (h1 : ∀ x ∈ u.num.cps, x = 1) (h2 : ∀ x ∈ u.wt.cps, x = 1)
    (hdeg : ∀ p ∈ ds, p < cfg.maxBinom) : RSpline.mulOp cfg (fun c x => c • x) u a = .ok a := by
  have e' : sumDegrees u.num.degrees ds = ds := (List.zipWith_comm_of_comm fun x y => Nat.add_comm x y).trans (sumDegrees_zero hl h0)
  have hp : RParts u u.num.degrees (fun _ => (1 : K)) fun _ => (1 : K) := ⟨const_computes hu h1, hd ▸ const_computes hu' h2⟩
  obtain ⟨r, r1, r2⟩ := rparts_mul hmax (fun c x => c • x) (LinearMap.lsmul K V) (fun _ _ => rfl) hp ha hl.symm (by rw [e']; exact hdeg)
  rw [e'] at r2
  rw [r1, rparts_unique r2 ha (fun t _ => (one_smul K _).symm) fun t _ => (one_mul _).symm]

/-- C123. Adding the constant rational spline 0 of degree 0 and weight 1 returns the same object, whatever the weights of `a`. -/
theorem C123_rational_add_zero [DecidableEq K] (cfg : Cfg) (hmax : cfg.maxBinom ≤ 68) (a : RSpline K V) (ds : List ℕ) (N : List K → V)
    (w : List K → K) (ha : RParts a ds N w) (z : RSpline K V) (hz : z.num.WF) (hz' : z.wt.WF) (hd : z.num.degrees = z.wt.degrees)
    (hl : z.num.degrees.length = ds.length) (h0 : ∀ p ∈ z.num.degrees, p = 0) (h1 : ∀ x ∈ z.num.cps, x = 0) (h2 : ∀ x ∈ z.wt.cps, x = 1)
    (hf : SumFits cfg ds z.num.degrees) : a.addOp cfg z = .ok a ∧ z.addOp cfg a = .ok a := by
  have e := sumDegrees_zero hl h0
  have hp : RParts z z.num.degrees (fun _ : List K => (0 : V)) fun _ => (1 : K) := ⟨const_computes hz h1, hd ▸ const_computes hz' h2⟩
  have hc := C121_add_comm cfg hmax a z _ _ _ _ _ _ ha hp hf
  obtain ⟨r, r1, hr⟩ := rparts_add hmax ha hp hf
  have hra : r = a := by
    rcases hr with ⟨-, r2⟩ | ⟨-, r2⟩
    · exact rparts_unique r2 ha (fun t _ => (add_zero _).symm) fun t _ => rfl
    · rw [e] at r2
      exact rparts_unique r2 ha (fun t _ => by simp) fun t _ => by simp
  obtain ⟨x, x1, x2⟩ := hc
  rw [hra] at r1
  cases r1.symm.trans x1
  exact ⟨x1, x2⟩

end

section
variable {K V W : Type} [Field K] [LinearOrder K] [IsStrictOrderedRing K] [AddCommGroup V] [Module K V] [AddCommGroup W] [Module K W]
  [Coords K W] [LawfulCoords K W]

/-- C123. Composing with a spline that computes the identity is degree elevation: every object of the degrees of the result that has the values
of `a`, in particular the one that repeated degree elevation of `a` gives, is the composition. -/
theorem C123_compose_identity (cfg : Cfg) (hmax : cfg.maxBinom ≤ 68) (a e : Spline V) (i : Spline W) (dO dI : List ℕ) (f : List K → V)
    (g : List K → W) (ha : a.Computes dO f) (hi : i.Computes dI g) (hid : ∀ t : List K, t.length = dI.length → coordList K (g t) = t)
    (hdim : dO.length = Coords.n K W) (hcube : Spline.fitsIntoUnitCube K i = .ok true) (hdeg : ∀ p ∈ dO, p < cfg.maxBinom)
    (hdeg' : ∀ q ∈ dI, dO.sum * q < cfg.maxBinom) (he : e.Computes (dI.map fun q => dO.sum * q) f) : Spline.compose K cfg a i = .ok e := by
  obtain ⟨r, r1, r2⟩ := C26_compose cfg hmax a i dO dI f g ha hi hdim hcube hdeg hdeg'
  rw [r1, r2.unique (he.congr fun t ht => by rw [hid t (by simpa using ht)])]

/-- C123. The same for a rational outer spline. -/
theorem C123_rational_compose_identity (cfg : Cfg) (hmax : cfg.maxBinom ≤ 68) (a e : RSpline K V) (i : Spline W) (dO dI : List ℕ)
    (N : List K → V) (w : List K → K) (g : List K → W) (ha : RParts a dO N w) (hi : i.Computes dI g)
    (hid : ∀ t : List K, t.length = dI.length → coordList K (g t) = t) (hdim : dO.length = Coords.n K W)
    (hcube : Spline.fitsIntoUnitCube K i = .ok true) (hdeg : ∀ p ∈ dO, p < cfg.maxBinom) (hdeg' : ∀ q ∈ dI, dO.sum * q < cfg.maxBinom)
    (he : RParts e (dI.map fun q => dO.sum * q) N w) : RSpline.compose cfg a i = .ok e := by
  obtain ⟨r, r1, r2⟩ := rparts_compose hmax ha hi hdim hcube hdeg hdeg'
  rw [r1, rparts_unique r2 he (fun t ht => by rw [hid t (by simpa using ht)]) fun t ht => by rw [hid t (by simpa using ht)]]

theorem line_identity (t : List K) (ht : t.length = 1) : coordList K ((1 - t.getD 0 0) * (0 : K) + t.getD 0 0 * 1) = t := by
  obtain ⟨c, rfl⟩ := List.length_eq_one_iff.mp ht
  simp [coordList, Coords.n, Coords.coord]

/-- C123. Composing a polynomial or rational curve with the straight line from 0 to 1 returns the same object. -/
theorem C123_compose_unit_line (cfg : Cfg) (hmax : cfg.maxBinom ≤ 68) (s : Spline V) (p : ℕ) (f : List K → V) (hs : s.Computes [p] f)
    (r : RSpline K V) (q : ℕ) (N : List K → V) (w : List K → K) (hr : RParts r [q] N w) (hp : p < cfg.maxBinom) (hq : q < cfg.maxBinom) :
    Spline.compose K cfg s (Ex.line (0 : K) 1) = .ok s ∧ RSpline.compose cfg r (Ex.line (0 : K) 1) = .ok r :=
  ⟨C123_compose_identity cfg hmax s s (Ex.line (0 : K) 1) [p] [1] f _ hs (line_computes 0 1) (fun t ht => line_identity t ht) rfl
      (line_fits ⟨le_rfl, zero_le_one⟩ ⟨zero_le_one, le_rfl⟩) (by simpa using hp) (by simpa using hp) (by simpa using hs),
   C123_rational_compose_identity cfg hmax r r (Ex.line (0 : K) 1) [q] [1] N w _ hr (line_computes 0 1) (fun t ht => line_identity t ht) rfl
      (line_fits ⟨le_rfl, zero_le_one⟩ ⟨zero_le_one, le_rfl⟩) (by simpa using hq) (by simpa using hq) (by simpa using hr)⟩

/-- C123. A composition with a constant outer spline is constant: all control points are that point. -/
theorem C123_compose_constant (cfg : Cfg) (hmax : cfg.maxBinom ≤ 68) (a : Spline V) (i : Spline W) (dI : List ℕ) (g : List K → W) (c : V)
    (ha : a.WF) (hc : ∀ x ∈ a.cps, x = c) (hi : i.Computes dI g) (hdim : a.degrees.length = Coords.n K W)
    (hcube : Spline.fitsIntoUnitCube K i = .ok true) (hdeg : ∀ p ∈ a.degrees, p < cfg.maxBinom)
    (hdeg' : ∀ q ∈ dI, a.degrees.sum * q < cfg.maxBinom) : ∃ r, Spline.compose K cfg a i = .ok r ∧ r.WF ∧ ∀ x ∈ r.cps, x = c := by
  obtain ⟨r, r1, r2⟩ := C26_compose cfg hmax a i _ dI _ g (const_computes (K := K) ha hc) hi hdim hcube hdeg hdeg'
  exact ⟨r, r1, r2.wf, (C123_constant (K := K) r _ _ r2 c).mpr r2.eval⟩

end

/-! ## The hypotheses are met -/

/-- a constant surface of degrees (2, 1) -/
example := C123_constant (K := ℚ) _ _ _ (Ex.surf_wf (7 : ℚ) 7 7 7 7 7).computes 7
/-- the number 1 as a surface of degrees (0, 0) -/
def exOne : Spline ℚ := ⟨[0, 0], 1, [1, 1], [1]⟩
theorem exOne_wf : exOne.WF := ⟨Nat.zero_lt_succ _, rfl, rfl, rfl⟩
/-- the number 0 as a surface of degrees (0, 0) -/
def exZero : Spline ℚ := ⟨[0, 0], 1, [1, 1], [0]⟩
theorem exZero_wf : exZero.WF := ⟨Nat.zero_lt_succ _, rfl, rfl, rfl⟩
/-- the number 1 as a surface of degrees (0, 1) -/
def exOne' : Spline ℚ := ⟨[0, 1], 2, [1, 1], [1, 1]⟩
theorem exOne'_wf : exOne'.WF := ⟨Nat.zero_lt_succ _, rfl, rfl, rfl⟩

example := C123_mul_one Ex.cfg Ex.cfg_ok _ _ _ (Ex.surf_wf (3 : ℚ) 1 4 1 5 9).computes _ exOne_wf rfl (by decide) (by decide +kernel) (by decide)
example := C123_mul_one_elevates Ex.cfg Ex.cfg_ok _ _ _ (Ex.surf_wf (3 : ℚ) 1 4 1 5 9).computes _ exOne'_wf 1 1 rfl rfl (by decide +kernel) (by decide)
  (by decide)
example := C123_add_zero (K := ℚ) Ex.cfg _ _ _ (Ex.surf_wf (3 : ℚ) 1 4 1 5 9).computes _ exZero_wf (by decide) (by decide +kernel)
  ⟨rfl, by decide, by decide, by decide⟩
example := C123_power Ex.cfg Ex.cfg_ok _ _ _ (Ex.surf_wf (3 : ℚ) 1 4 1 5 9).computes (by decide)
example := C123_rational_mul_one Ex.cfg Ex.cfg_ok _ _ _ _ (exSurfR 3 1 4 1 5 9) ⟨exOne, exOne⟩ exOne_wf exOne_wf rfl rfl (by decide)
  (by decide +kernel) (by decide +kernel) (by decide)
example := C123_rational_add_zero Ex.cfg Ex.cfg_ok _ _ _ _ (exSurfR 3 1 4 1 5 9) ⟨exZero, exOne⟩ exZero_wf exOne_wf rfl rfl (by decide)
  (by decide +kernel) (by decide +kernel) ⟨rfl, by decide, by decide, by decide, by decide⟩
example := C123_compose_unit_line Ex.cfg Ex.cfg_ok _ _ _ (Ex.curve_wf (3 : ℚ) 1 4).computes _ _ _ _ (exCurveR 3 1 4 1 2 5) (by decide) (by decide)

/-- the identity of the unit square -/
def exId : Spline (Point ℚ 2) := ⟨[1, 1], 4, [1, 2], [Ex.pt 0 0, Ex.pt 1 0, Ex.pt 0 1, Ex.pt 1 1]⟩
theorem exId_wf : exId.WF := ⟨Nat.zero_lt_succ _, rfl, rfl, rfl⟩
theorem exId_value (t : List ℚ) (ht : t.length = 2) : coordList ℚ (exId.value t) = t := by
  obtain ⟨x, y, rfl⟩ := List.length_eq_two.mp ht
  have e : exId.value [x, y] = Ex.pt x y := by
    refine Point.ext ?_
    funext j
    fin_cases j <;> simp [exId, Ex.pt, Spline.value, bezier, bern, Finset.sum_range_succ, flatIndex] <;> ring
  rw [e]
  simp [coordList, Coords.n, Coords.coord, Ex.pt, List.finRange_succ]

/-- a surface of degrees (2, 1) and the surface of degrees (3, 3) that three elevations give -/
example : ∃ e : Spline ℚ, Spline.compose ℚ Ex.cfg (Ex.surf (3 : ℚ) 1 4 1 5 9) exId = .ok e ∧
    (do let a ← Spline.orderElevate ℚ (Ex.surf (3 : ℚ) 1 4 1 5 9) 0; let b ← Spline.orderElevate ℚ a 1; Spline.orderElevate ℚ b 1) = .ok e := by
  obtain ⟨a, a1, a2⟩ := C12_order_elevate (K := ℚ) _ _ _ (Ex.surf_wf (3 : ℚ) 1 4 1 5 9).computes 0 2 rfl (by decide)
  obtain ⟨b, b1, b2⟩ := C12_order_elevate (K := ℚ) _ _ _ a2 1 1 rfl (by decide)
  obtain ⟨c, c1, c2⟩ := C12_order_elevate (K := ℚ) _ _ _ b2 1 2 rfl (by decide)
  refine ⟨c, C123_compose_identity Ex.cfg Ex.cfg_ok _ c exId _ _ _ _ (Ex.surf_wf (3 : ℚ) 1 4 1 5 9).computes exId_wf.computes
    (fun t ht => exId_value t ht) rfl (by decide +kernel) (by decide) (by decide) c2, ?_⟩
  simp only [a1, b1, c1, bind_ok]

example := C123_compose_constant (K := ℚ) Ex.cfg Ex.cfg_ok _ _ _ _ (7 : ℚ) (Ex.curve_wf (7 : ℚ) 7 7) (by decide +kernel)
  (Ex.surf_wf (0 : ℚ) 1 (1 / 2) 0 (1 / 3) 1).computes rfl (by decide +kernel) (by decide) (by decide)

end Bezman.Props
