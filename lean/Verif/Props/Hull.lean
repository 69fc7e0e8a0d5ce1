import Verif.Proofs.HullOps
import Verif.Props.History
import Verif.Props.Split
import Verif.Props.RationalCompose

/-! # Properties: convex hull, for values and for the control points of results -/

namespace Bezman.Props
open Spec Finset Coords

/-! ## C73 -/

section
variable {K V W : Type} [Field K] [LinearOrder K] [IsStrictOrderedRing K] [AddCommGroup V] [Module K V]
  [AddCommGroup W] [Module K W] [Coords K W] [LawfulCoords K W]

omit [AddCommGroup W] [Module K W] [Coords K W] [LawfulCoords K W] in
/-- C73. A convex set that contains the control points contains every value on the unit cube. -/
theorem C73_evaluate (s : Spline V) (hs : s.WF) (C : Set V) (hC : Convex K C) (hc : ∀ x ∈ s.cps, x ∈ C) (t : List K)
    (ht : t.length = s.dim) (h01 : InCube t) : ∃ x, s.evaluate t = .ok x ∧ x ∈ C := by
  refine ⟨_, Spline.evaluate_ok hs ht, ?_⟩
  rw [(hs.computes (K := K)).sum_pw ht]
  refine convex_smul_sum hC (fun n _ => ?_) (sum_pw_bern ht) (fun n hn => hc _ (Spline.getD_mem hs hn))
  rw [pw_bernFns (by simp) ht]
  exact bernProd_nonneg _ _ h01

omit [AddCommGroup W] [Module K W] [Coords K W] [LawfulCoords K W] in
/-- C73. Degree elevation keeps the control points in it. -/
theorem C73_order_elevate (s : Spline V) (ds : List ℕ) (hs : s.WF) (hd : s.degrees = ds) (C : Set V) (hC : Convex K C)
    (hc : ∀ x ∈ s.cps, x ∈ C) (d p : ℕ) (hp : ds[d]? = some p) (hsize : size (ds.set d (p + 1)) < 2 ^ 31) :
    ∃ r, Spline.orderElevate K s d = .ok r ∧ ∀ x ∈ r.cps, x ∈ C := by
  subst hd
  obtain ⟨r, e, hr⟩ := C12_order_elevate (K := K) s _ _ hs.computes d p hp hsize
  refine ⟨r, e, NonnegNet.hull (K := K) (fun n _ => nonneg_elevate s.degrees hp) (fun t ht => sum_pw_bern (by simpa using ht)) hC
    (fun n hn => hc _ (Spline.getD_mem hs hn)) hr (fun t ht => ?_)⟩
  exact (hs.computes (K := K)).sum_pw (by simpa using ht)

omit [AddCommGroup W] [Module K W] [Coords K W] [LawfulCoords K W] in
/-- any spline that traces the function of `s` on a part of the parameter range has its control points in `C` -/
theorem restrict_hull {s : Spline V} (hs : s.WF) {C : Set V} (hC : Convex K C) (hc : ∀ x ∈ s.cps, x ∈ C) {lo hi : K} (h0 : 0 ≤ lo)
    (h1 : lo ≤ 1) (h2 : 0 ≤ hi) (h3 : hi ≤ 1) {d : ℕ} {a : Spline V}
    (ha : a.Computes s.degrees (fun t => s.value (t.modify d (fun x => lo + (hi - lo) * x)))) : ∀ x ∈ a.cps, x ∈ C :=
  NonnegNet.hull (K := K) (fun _ _ => nonneg_restrict s.degrees h0 h1 h2 h3 d) (fun t ht => sum_restrict _ _ _ _ ht) hC
    (fun n hn => hc _ (Spline.getD_mem hs hn)) ha
    (fun t ht => (hs.computes (K := K)).sum_pw (by simpa using ht))

omit [AddCommGroup W] [Module K W] [Coords K W] [LawfulCoords K W] in
/-- C73. Splitting keeps the control points of both parts in it. -/
theorem C73_split (s : Spline V) (hs : s.WF) (C : Set V) (hC : Convex K C) (hc : ∀ x ∈ s.cps, x ∈ C) (d : ℕ) (hd : d < s.dim)
    (z : K) (h0 : 0 < z) (h1 : z < 1) :
    ∃ a b, s.splitAt z d = .ok (a, b) ∧ (∀ x ∈ a.cps, x ∈ C) ∧ ∀ x ∈ b.cps, x ∈ C := by
  obtain ⟨a, b, e, ha, hb⟩ := C31_split (K := K) s _ _ hs.computes d hd z h0 h1
  refine ⟨a, b, e, restrict_hull hs hC hc (lo := 0) (hi := z) le_rfl zero_le_one h0.le h1.le (d := d) (by simpa using ha),
    restrict_hull hs hC hc (lo := z) (hi := 1) h0.le h1.le zero_le_one le_rfl (d := d) hb⟩

omit [AddCommGroup W] [Module K W] [Coords K W] [LawfulCoords K W] in
/-- C73. Splitting at several positions keeps the control points of all parts in it. -/
theorem C73_split_many (s : Spline V) (hs : s.WF) (C : Set V) (hC : Convex K C) (hc : ∀ x ∈ s.cps, x ∈ C) (d : ℕ) (hd : d < s.dim)
    (planes : List K) (hinc : planes.Pairwise (· < ·)) (hr : ∀ z ∈ planes, 0 < z ∧ z < 1) :
    ∃ l, s.splitAtMany planes d = .ok l ∧ ∀ a ∈ l, ∀ x ∈ a.cps, x ∈ C := by
  obtain ⟨l, e, hl, h⟩ := C33_split_many (K := K) s _ _ hs.computes d hd planes hinc hr
  refine ⟨l, e, fun a ha => ?_⟩
  obtain ⟨i, hi, rfl⟩ := List.getElem_of_mem ha
  obtain ⟨kn, hkn⟩ : ∃ kn : List K, kn = 0 :: planes ++ [1] := ⟨_, rfl⟩
  rw [← hkn] at h
  have hk : ∀ y ∈ kn, 0 ≤ y ∧ y ≤ 1 := by
    intro y hm
    rw [hkn] at hm
    simp only [List.mem_cons, List.mem_append, List.not_mem_nil, or_false, List.cons_append] at hm
    rcases hm with rfl | hm | rfl
    · exact ⟨le_rfl, zero_le_one⟩
    · exact ⟨(hr y hm).1.le, (hr y hm).2.le⟩
    · exact ⟨zero_le_one, le_rfl⟩
  have l1 : i < kn.length := by rw [hkn]; simp; omega
  have l2 : i + 1 < kn.length := by rw [hkn]; simp; omega
  exact restrict_hull hs hC hc (hk _ (List.getElem_mem l1)).1 (hk _ (List.getElem_mem l1)).2 (hk _ (List.getElem_mem l2)).1
    (hk _ (List.getElem_mem l2)).2 (d := d)
    (h i _ _ _ (List.getElem?_eq_getElem hi) (List.getElem?_eq_getElem l1) (List.getElem?_eq_getElem l2))

/-- C73. Composition: a convex set that contains the control points of the outer spline contains those of the result. -/
theorem C73_compose (cfg : Cfg) (hmax : cfg.maxBinom ≤ 68) (outer : Spline V) (inner : Spline W) (ho : outer.WF) (hi : inner.WF)
    (hdim : outer.dim = Coords.n K W) (hcube : Spline.fitsIntoUnitCube K inner = .ok true)
    (hdeg : ∀ p ∈ outer.degrees, p < cfg.maxBinom) (hdeg' : ∀ q ∈ inner.degrees, outer.degrees.sum * q < cfg.maxBinom)
    (C : Set V) (hC : Convex K C) (hc : ∀ x ∈ outer.cps, x ∈ C) :
    ∃ r, Spline.compose K cfg outer inner = .ok r ∧ ∀ x ∈ r.cps, x ∈ C := by
  obtain ⟨b, h1, h2⟩ := Spline.fitsIntoUnitCube_ok (K := K) hi
  rw [hcube] at h1
  have hcu := h2.mp (Except.ok.inj h1).symm
  obtain ⟨r, e, hr⟩ := C26_compose (K := K) cfg hmax outer inner _ _ _ _ ho.computes hi.computes hdim hcube hdeg hdeg'
  refine ⟨r, e, NonnegNet.hull (K := K) (fun n _ => nonneg_compose (K := K) hi.computes hcu hdim)
    (fun t ht => sum_pw_bern ?_) hC (fun n hn => hc _ (Spline.getD_mem ho hn)) hr (fun t ht => (ho.computes (K := K)).sum_pw ?_)⟩
  · rw [coordList_length]; exact hdim.symm
  · rw [coordList_length]; exact hdim.symm

/-- the unit cube, as a convex set -/
theorem convex_cube : Convex K {x : W | ∀ j : Fin (Coords.n K W), (0 : K) ≤ coord x j ∧ (coord x j : K) ≤ 1} := by
  intro x hx y hy a b ha hb hab j
  rw [LawfulCoords.coord_add, LawfulCoords.coord_smul, LawfulCoords.coord_smul]
  have h1 := hx j
  have h2 := hy j
  constructor
  · exact add_nonneg (mul_nonneg ha h1.1) (mul_nonneg hb h2.1)
  · calc a * coord x j + b * coord y j ≤ a * 1 + b * 1 :=
        add_le_add (mul_le_mul_of_nonneg_left h1.2 ha) (mul_le_mul_of_nonneg_left h2.2 hb)
      _ = 1 := by rw [mul_one, mul_one, hab]

theorem fits_iff {s : Spline W} (hs : s.WF) : Spline.fitsIntoUnitCube K s = .ok true ↔
    ∀ x ∈ s.cps, x ∈ {x : W | ∀ j : Fin (Coords.n K W), (0 : K) ≤ coord x j ∧ (coord x j : K) ≤ 1} := by
  obtain ⟨b, h1, h2⟩ := Spline.fitsIntoUnitCube_ok (K := K) hs
  rw [h1]
  constructor
  · intro h; exact h2.mp (Except.ok.inj h)
  · intro h; rw [h2.mpr h]

/-- C73. What fits into the unit cube still fits after splitting. -/
theorem C73_split_fits (s : Spline W) (hs : s.WF) (h : Spline.fitsIntoUnitCube K s = .ok true) (d : ℕ) (hd : d < s.dim)
    (z : K) (h0 : 0 < z) (h1 : z < 1) :
    ∃ a b, s.splitAt z d = .ok (a, b) ∧ Spline.fitsIntoUnitCube K a = .ok true ∧ Spline.fitsIntoUnitCube K b = .ok true := by
  obtain ⟨a, b, e, ha, hb⟩ := C73_split s hs _ convex_cube ((fits_iff hs).mp h) d hd z h0 h1
  obtain ⟨a', b', e', ca, cb⟩ := C31_split (K := K) s _ _ hs.computes d hd z h0 h1
  rw [e] at e'
  obtain ⟨rfl, rfl⟩ := Prod.mk.inj (Except.ok.inj e')
  exact ⟨a, b, e, (fits_iff ca.wf).mpr ha, (fits_iff cb.wf).mpr hb⟩

/-- C73. What fits into the unit cube still fits after degree elevation. -/
theorem C73_elevate_fits (s : Spline W) (hs : s.WF) (h : Spline.fitsIntoUnitCube K s = .ok true) (d p : ℕ) (hp : s.degrees[d]? = some p)
    (hsize : size (s.degrees.set d (p + 1)) < 2 ^ 31) :
    ∃ r, Spline.orderElevate K s d = .ok r ∧ Spline.fitsIntoUnitCube K r = .ok true := by
  obtain ⟨r, e, hr⟩ := C73_order_elevate s _ hs rfl _ convex_cube ((fits_iff hs).mp h) d p hp hsize
  obtain ⟨r', e', cr⟩ := C12_order_elevate (K := K) s _ _ hs.computes d p hp hsize
  rw [e] at e'
  obtain rfl := Except.ok.inj e'
  exact ⟨r, e, (fits_iff cr.wf).mpr hr⟩

/-- C73. A composition of two splines that fit into the unit cube fits into the unit cube, so it can be composed again. -/
theorem C73_compose_fits {U : Type} [AddCommGroup U] [Module K U] [Coords K U] [LawfulCoords K U] (cfg : Cfg)
    (hmax : cfg.maxBinom ≤ 68) (outer : Spline W) (inner : Spline U) (ho : outer.WF) (hi : inner.WF)
    (hdim : outer.dim = Coords.n K U) (hcube' : Spline.fitsIntoUnitCube K outer = .ok true)
    (hcube : Spline.fitsIntoUnitCube K inner = .ok true)
    (hdeg : ∀ p ∈ outer.degrees, p < cfg.maxBinom) (hdeg' : ∀ q ∈ inner.degrees, outer.degrees.sum * q < cfg.maxBinom) :
    ∃ r, Spline.compose K cfg outer inner = .ok r ∧ Spline.fitsIntoUnitCube K r = .ok true := by
  obtain ⟨r, e, hr⟩ := C73_compose cfg hmax outer inner ho hi hdim hcube hdeg hdeg' _ convex_cube ((fits_iff ho).mp hcube')
  obtain ⟨r', e', cr⟩ := C26_compose (K := K) cfg hmax outer inner _ _ _ _ ho.computes hi.computes hdim hcube hdeg hdeg'
  rw [e] at e'
  obtain rfl := Except.ok.inj e'
  exact ⟨r, e, (fits_iff cr.wf).mpr hr⟩

end

section
variable {K V W : Type} [Field K] [LinearOrder K] [IsStrictOrderedRing K] [AddCommGroup V] [Module K V]
  [ScalarDiv K V] [LawfulScalarDiv K V]
  [AddCommGroup W] [Module K W] [Coords K W] [LawfulCoords K W] [ScalarDiv K W] [LawfulScalarDiv K W]

/-- All weights of `r` are positive and all its control points, as returned by `ControlPoint`, lie in `C`. -/
structure RInside (r : RSpline K V) (ds : List ℕ) (C : Set V) : Prop where
  pos : ∀ x ∈ r.wt.cps, 0 < x
  mem : ∀ idx, ValidIdx ds idx → ∃ x, r.controlPoint idx = .ok x ∧ x ∈ C

omit [AddCommGroup W] [Module K W] [Coords K W] [LawfulCoords K W] [ScalarDiv K W] [LawfulScalarDiv K W] in
theorem rinside_iff {r : RSpline K V} {ds : List ℕ} {f : List K → V} {w : List K → K} (hr : r.Computes ds f w) {C : Set V} :
    RInside r ds C ↔ (∀ x ∈ r.wt.cps, 0 < x) ∧ ∀ x ∈ r.euclid.cps, x ∈ C := by
  have hwf := RSpline.euclid_wf hr.num_wf
  have hd : r.euclid.degrees = ds := hr.num_degrees
  have key : (∀ x ∈ r.wt.cps, 0 < x) → ∀ idx, ValidIdx ds idx → r.controlPoint idx = .ok (r.euclid.net idx) := by
    intro hpos idx hi
    rw [RSpline.controlPoint_euclid hr.num_wf hr.wt_wf hr.deg_eq (fun x hx => (hpos x hx).ne') (by rw [hr.num_degrees]; exact hi),
      Spline.controlPoint_ok hwf (by rw [hd]; exact hi)]
  constructor
  · rintro ⟨h1, h2⟩
    refine ⟨h1, fun x hx => ?_⟩
    obtain ⟨k, hk, rfl⟩ := List.getElem_of_mem hx
    have hk' : k < size ds := by rw [hwf.cps_len, hd] at hk; exact hk
    obtain ⟨y, e, hy⟩ := h2 _ (unflat_valid ds k)
    rw [key h1 _ (unflat_valid ds k)] at e
    obtain rfl := Except.ok.inj e
    unfold Spline.net at hy
    rw [hd, flatIndex_unflat hk', getD_of_lt hk] at hy
    exact hy
  · rintro ⟨h1, h2⟩
    refine ⟨h1, fun idx hi => ⟨_, key h1 idx hi, h2 _ (Spline.getD_mem hwf (flatIndex_lt (by rw [hd]; exact hi)))⟩⟩

omit [ScalarDiv K V] [LawfulScalarDiv K V] [AddCommGroup W] [Module K W] [Coords K W] [LawfulCoords K W] [ScalarDiv K W]
  [LawfulScalarDiv K W] in
/-- numerator control points are weight times point -/
theorem num_cps {r : RSpline K V} {ds : List ℕ} (hd : r.num.degrees = ds) (hpos : ∀ n < size ds, 0 < r.wt.cps.getD n 0) {n : ℕ}
    (hn : n < size ds) :
    r.num.cps.getD n 0 = r.wt.cps.getD n 0 • r.euclid.cps.getD n 0 ∧ r.euclid.cps.getD n 0 ∈ r.euclid.cps := by
  have hl : n < r.euclid.cps.length := by unfold RSpline.euclid; simpa [hd] using hn
  have e : r.euclid.cps.getD n 0 = (r.wt.cps.getD n 0)⁻¹ • r.num.cps.getD n 0 := by
    rw [getD_of_lt hl]
    simp [RSpline.euclid]
  refine ⟨?_, by rw [getD_of_lt hl]; exact List.getElem_mem _⟩
  rw [e, smul_inv_smul₀ (hpos n hn).ne']

omit [AddCommGroup W] [Module K W] [Coords K W] [LawfulCoords K W] [ScalarDiv K W] [LawfulScalarDiv K W] in
/-- the common part of the rational theorems -/
theorem rational_hull {r : RSpline K V} {ds ds' : List ℕ} {f : List K → V} {w : List K → K} (hr : r.Computes ds f w) {C : Set V}
    (hC : Convex K C) (h : RInside r ds C) {v : ℕ → List K → K} (hm : Mixes ds' (size ds) v) {r' : RSpline K V} {f' : List K → V}
    {w' : List K → K} (hr' : r'.Computes ds' f' w') {gn : List K → V} {gw : List K → K} (hn : r'.num.Computes ds' gn)
    (hw : r'.wt.Computes ds' gw)
    (hgn : ∀ t : List K, t.length = ds'.length → gn t = ∑ n ∈ range (size ds), v n t • r.num.cps.getD n 0)
    (hgw : ∀ t : List K, t.length = ds'.length → gw t = ∑ n ∈ range (size ds), v n t • r.wt.cps.getD n 0) : RInside r' ds' C := by
  obtain ⟨h1, h2⟩ := (rinside_iff hr).mp h
  have hp : ∀ n < size ds, 0 < r.wt.cps.getD n 0 := fun n hn => h1 _ (Spline.getD_mem hr.wt_wf (by rw [hr.wt_degrees]; exact hn))
  refine (rinside_iff hr').mpr (hm.hull hC (c := fun n => r.euclid.cps.getD n 0) (v := fun n => r.wt.cps.getD n 0)
    (fun n hn => h2 _ (num_cps hr.num_degrees hp hn).2) hp hn hw (fun t ht => ?_) hgw)
  rw [hgn t ht]
  apply sum_congr rfl
  intro n hn
  rw [(num_cps hr.num_degrees hp (mem_range.mp hn)).1]

omit [AddCommGroup W] [Module K W] [Coords K W] [LawfulCoords K W] [ScalarDiv K W] [LawfulScalarDiv K W] in
/-- C73. Rational splines with positive weights: a convex set that contains the control points contains every value on the unit
cube. -/
theorem C73_rational_evaluate (r : RSpline K V) (ds : List ℕ) (f : List K → V) (w : List K → K) (hr : r.Computes ds f w) (C : Set V)
    (hC : Convex K C) (h : RInside r ds C) (t : List K) (ht : t.length = ds.length) (h01 : InCube t) :
    ∃ x, r.evaluate t = .ok x ∧ x ∈ C := by
  obtain ⟨h1, h2⟩ := (rinside_iff hr).mp h
  have hp : ∀ n < size ds, 0 < r.wt.cps.getD n 0 := fun n hn => h1 _ (Spline.getD_mem hr.wt_wf (by rw [hr.wt_degrees]; exact hn))
  have hb : ∀ n, 0 ≤ pw (bernFns ds t) (unflat ds n) := by
    intro n
    rw [pw_bernFns (by simp) ht]
    exact bernProd_nonneg _ _ h01
  have ew := hr.wt_computes.sum_pw ht
  have en := hr.num_computes.sum_pw ht
  have hpos : 0 < ∑ n ∈ range (size ds), pw (bernFns ds t) (unflat ds n) * r.wt.cps.getD n 0 := by
    have h0 : ∃ n ∈ range (size ds), 0 < pw (bernFns ds t) (unflat ds n) := by
      by_contra hne
      push Not at hne
      have := sum_pw_bern ht
      have h5 := sum_nonpos hne
      rw [this] at h5
      exact absurd h5 (not_le.mpr zero_lt_one)
    obtain ⟨n, hn, hq⟩ := h0
    exact sum_pos' (fun m hm => mul_nonneg (hb m) (hp m (mem_range.mp hm)).le) ⟨n, hn, mul_pos hq (hp n (mem_range.mp hn))⟩
  simp only [smul_eq_mul] at ew
  have hw0 : w t ≠ 0 := by rw [ew]; exact hpos.ne'
  refine ⟨_, hr.eval t ht hw0, ?_⟩
  have e3 : f t = (w t)⁻¹ • r.num.value t := by rw [hr.num_value ht hw0, inv_smul_smul₀ hw0]
  rw [e3, en, ew]
  have := convex_weighted hC (N := size ds) (a := fun n => pw (bernFns ds t) (unflat ds n)) (w := fun n => r.wt.cps.getD n 0)
    (c := fun n => r.euclid.cps.getD n 0) (fun n _ => hb n) (fun n hn => (hp n hn).le) hpos
    (fun n hn => h2 _ (num_cps hr.num_degrees hp hn).2)
  convert this using 2
  apply sum_congr rfl
  intro n hn
  rw [(num_cps hr.num_degrees hp (mem_range.mp hn)).1]

omit [AddCommGroup W] [Module K W] [Coords K W] [LawfulCoords K W] [ScalarDiv K W] [LawfulScalarDiv K W] in
/-- C73. Degree elevation of a rational spline: weights stay positive, control points stay in the convex set. -/
theorem C73_rational_order_elevate (r : RSpline K V) (ds : List ℕ) (f : List K → V) (w : List K → K) (hr : r.Computes ds f w)
    (C : Set V) (hC : Convex K C) (h : RInside r ds C) (d p : ℕ) (hp : ds[d]? = some p) (hsize : size (ds.set d (p + 1)) < 2 ^ 31) :
    ∃ r', r.orderElevate d = .ok r' ∧ RInside r' (ds.set d (p + 1)) C := by
  obtain ⟨r', e, hr'⟩ := C40_order_elevate r ds f w hr d p hp hsize
  refine ⟨r', e, ?_⟩
  unfold RSpline.orderElevate at e
  obtain ⟨n, e1, e⟩ := bind_eq_ok.mp e
  obtain ⟨m, e2, e⟩ := bind_eq_ok.mp e
  obtain ⟨n', e1', hn⟩ := C12_order_elevate (K := K) r.num ds _ hr.num_computes d p hp hsize
  obtain ⟨m', e2', hm⟩ := C12_order_elevate (K := K) r.wt ds _ hr.wt_computes d p hp hsize
  rw [e1] at e1'; obtain rfl := Except.ok.inj e1'
  rw [e2] at e2'; obtain rfl := Except.ok.inj e2'
  obtain ⟨_, _, e⟩ := bind_eq_ok.mp e
  obtain rfl : (⟨n, m⟩ : RSpline K V) = r' := Except.ok.inj e
  exact rational_hull hr hC h (mixes_of_one (fun n _ => nonneg_elevate ds hp) (fun t ht => sum_pw_bern (by simpa using ht))) hr' hn hm
    (fun t ht => hr.num_computes.sum_pw (by simpa using ht)) (fun t ht => hr.wt_computes.sum_pw (by simpa using ht))

omit [AddCommGroup W] [Module K W] [Coords K W] [LawfulCoords K W] [ScalarDiv K W] [LawfulScalarDiv K W] in
/-- C73. Splitting a rational spline. -/
theorem C73_rational_split (r : RSpline K V) (ds : List ℕ) (f : List K → V) (w : List K → K) (hr : r.Computes ds f w)
    (C : Set V) (hC : Convex K C) (h : RInside r ds C) (d : ℕ) (hd : d < ds.length) (z : K) (h0 : 0 < z) (h1 : z < 1) :
    ∃ a b, r.splitAt z d = .ok (a, b) ∧ RInside a ds C ∧ RInside b ds C := by
  obtain ⟨a, b, e, ha, hb⟩ := C40_split r ds f w hr d hd z h0 h1
  refine ⟨a, b, e, ?_⟩
  unfold RSpline.splitAt at e
  obtain ⟨n1, n2, e1, c1, c2⟩ := C31_split r.num ds _ hr.num_computes d hd z h0 h1
  obtain ⟨m1, m2, e2, c3, c4⟩ := C31_split r.wt ds _ hr.wt_computes d hd z h0 h1
  rw [e1, e2] at e
  simp only [bind_ok, pure_eq_ok] at e
  rw [RSpline.ofSplines_ok (c1.degrees_eq.trans c3.degrees_eq.symm), RSpline.ofSplines_ok (c2.degrees_eq.trans c4.degrees_eq.symm)] at e
  simp only [bind_ok] at e
  obtain ⟨rfl, rfl⟩ := Prod.mk.inj (Except.ok.inj e)
  have key : ∀ (lo hi : K), 0 ≤ lo → lo ≤ 1 → 0 ≤ hi → hi ≤ 1 → Mixes ds (size ds) _ := fun lo hi a1 a2 a3 a4 =>
    mixes_of_one (fun n _ => nonneg_restrict ds a1 a2 a3 a4 d (n := n)) (fun t ht => sum_restrict ds lo hi d ht)
  refine ⟨rational_hull hr hC h (key 0 z le_rfl zero_le_one h0.le h1.le) ha c1 c3 (fun t ht => ?_) (fun t ht => ?_),
    rational_hull hr hC h (key z 1 h0.le h1.le zero_le_one le_rfl) hb c2 c4 (fun t ht => ?_) (fun t ht => ?_)⟩
  · simpa using hr.num_computes.sum_pw (t := t.modify d (fun x => z * x)) (by simpa using ht)
  · simpa using hr.wt_computes.sum_pw (t := t.modify d (fun x => z * x)) (by simpa using ht)
  · exact hr.num_computes.sum_pw (by simpa using ht)
  · exact hr.wt_computes.sum_pw (by simpa using ht)

omit [ScalarDiv K W] [LawfulScalarDiv K W] in
/-- C73. Splitting a rational spline with positive weights at several positions: the control points and the weights of every part
stay inside. -/
theorem C73_rational_split_many (r : RSpline K V) (ds : List ℕ) (f : List K → V) (w : List K → K) (hr : r.Computes ds f w)
    (C : Set V) (hC : Convex K C) (h : RInside r ds C) (d : ℕ) (hd : d < ds.length) (planes : List K)
    (hinc : planes.Pairwise (· < ·)) (hr01 : ∀ z ∈ planes, 0 < z ∧ z < 1) :
    ∃ l, r.splitAtMany planes d = .ok l ∧ ∀ a ∈ l, RInside a ds C := by
  obtain ⟨ln, e1, l1, c1⟩ := C33_split_many r.num ds _ hr.num_computes d hd planes hinc hr01
  obtain ⟨lw, e2, l2, c2⟩ := C33_split_many r.wt ds _ hr.wt_computes d hd planes hinc hr01
  refine ⟨_, RSpline.splitAtMany_pair hr.num_wf hr.wt_wf hr.num_degrees hr.wt_degrees
    (List.getElem?_eq_getElem hd) e1 e2, fun a ha => ?_⟩
  obtain ⟨i, hi, rfl⟩ := List.getElem_of_mem ha
  have hi1 : i < ln.length := by simp at hi; omega
  have hi2 : i < lw.length := by simp at hi; omega
  obtain ⟨kn, hkn⟩ : ∃ kn : List K, kn = 0 :: planes ++ [1] := ⟨_, rfl⟩
  rw [← hkn] at c1 c2
  have hk : ∀ y ∈ kn, 0 ≤ y ∧ y ≤ 1 := by
    intro y hm
    rw [hkn] at hm
    simp only [List.mem_cons, List.mem_append, List.not_mem_nil, or_false, List.cons_append] at hm
    rcases hm with rfl | hm | rfl
    · exact ⟨le_rfl, zero_le_one⟩
    · exact ⟨(hr01 y hm).1.le, (hr01 y hm).2.le⟩
    · exact ⟨zero_le_one, le_rfl⟩
  have k1 : i < kn.length := by rw [hkn]; simp; omega
  have k2 : i + 1 < kn.length := by rw [hkn]; simp; omega
  have cn := c1 i _ _ _ (List.getElem?_eq_getElem hi1) (List.getElem?_eq_getElem k1) (List.getElem?_eq_getElem k2)
  have cw := c2 i _ _ _ (List.getElem?_eq_getElem hi2) (List.getElem?_eq_getElem k1) (List.getElem?_eq_getElem k2)
  rw [List.getElem_zipWith]
  obtain ⟨a1, a2⟩ := hk _ (List.getElem_mem k1)
  obtain ⟨a3, a4⟩ := hk _ (List.getElem_mem k2)
  exact rational_hull hr hC h
    (mixes_of_one (fun n _ => nonneg_restrict ds a1 a2 a3 a4 d (n := n)) (fun t ht => sum_restrict ds _ _ d ht))
    (RSpline.computes_of cn cw) cn cw (fun t ht => hr.num_computes.sum_pw (by simpa using ht))
    (fun t ht => hr.wt_computes.sum_pw (by simpa using ht))

/-- C73. Rational outer spline, polynomial inner spline. -/
theorem C73_rational_compose_polynomial (cfg : Cfg) (hmax : cfg.maxBinom ≤ 68) (outer : RSpline K V) (inner : Spline W)
    (dO dI : List ℕ) (f : List K → V) (wo : List K → K) (g : List K → W) (ho : outer.Computes dO f wo) (hi : inner.Computes dI g)
    (hdim : dO.length = Coords.n K W) (hcube : Spline.fitsIntoUnitCube K inner = .ok true) (hf : ComposeFits cfg dO dI)
    (C : Set V) (hC : Convex K C) (h : RInside outer dO C) :
    ∃ r, RSpline.compose cfg outer inner = .ok r ∧ RInside r (dI.map (fun q => dO.sum * q)) C := by
  have hcu := (fits_iff hi.wf).mp hcube
  obtain ⟨n, n1, n2⟩ := C26_compose (K := K) cfg hmax outer.num inner dO dI _ g ho.num_computes hi hdim hcube hf.outer hf.result
  obtain ⟨d, d1, d2⟩ := C26_compose (K := K) cfg hmax outer.wt inner dO dI _ g ho.wt_computes hi hdim hcube hf.outer hf.result
  have hl : ∀ t : List K, (coordList K (g t)).length = dO.length := fun t => by rw [coordList_length, hdim]
  refine ⟨⟨n, d⟩, ?_, rational_hull ho hC h (mixes_of_one (fun n _ => nonneg_compose (K := K) hi hcu hdim)
    (fun t _ => sum_pw_bern (hl t))) (RSpline.computes_of n2 d2) n2 d2 (fun t _ => ho.num_computes.sum_pw (hl t))
    (fun t _ => ho.wt_computes.sum_pw (hl t))⟩
  unfold RSpline.compose
  rw [n1, d1]
  exact RSpline.ofSplines_ok (by rw [n2.degrees_eq, d2.degrees_eq])

theorem rfits_iff {r : RSpline K W} {ds : List ℕ} {g : List K → W} {w : List K → K} (hr : r.Computes ds g w)
    (hpos : ∀ x ∈ r.wt.cps, 0 < x) : r.fitsIntoUnitCube = .ok true ↔
    ∀ x ∈ r.euclid.cps, x ∈ {x : W | ∀ j : Fin (Coords.n K W), (0 : K) ≤ coord x j ∧ (coord x j : K) ≤ 1} := by
  rw [RSpline.fitsIntoUnitCube_eq hr.num_wf hr.wt_wf hr.deg_eq (fun x hx => (hpos x hx).ne'),
    fits_iff (RSpline.euclid_wf hr.num_wf)]

/-- C73. Polynomial outer spline, rational inner spline with positive weights: the result has positive weights and its control points
lie in every convex set that contains those of the outer spline. -/
theorem C73_compose_rational (cfg : Cfg) (hmax : cfg.maxBinom ≤ 68) (outer : Spline V) (inner : RSpline K W)
    (dO dI : List ℕ) (f : List K → V) (g : List K → W) (w : List K → K) (ho : outer.Computes dO f) (hi : inner.Computes dI g w)
    (hdim : dO.length = Coords.n K W) (hcube : inner.fitsIntoUnitCube = .ok true) (hpos : ∀ x ∈ inner.wt.cps, 0 < x)
    (hf : ComposeFits cfg dO dI) (C : Set V) (hC : Convex K C) (hc : ∀ x ∈ outer.cps, x ∈ C) :
    ∃ r, Spline.composeRational cfg outer inner = .ok r ∧ RInside r (dI.map (fun q => dO.sum * q)) C := by
  have hcu := (rfits_iff hi hpos).mp hcube
  have hod := ho.degrees_eq
  obtain ⟨n, n1, n2, n3, n4⟩ := composeNumeratorRational_ok (K := K) hmax ho.wf hi hf.sub (by rw [ho.dim_eq, hdim])
    (by rw [hod]; exact hf.outer) (by rw [hod]; exact hf.deg)
  obtain ⟨d, d1, d2⟩ := C22_raise_power cfg hmax inner.wt dI w hi.wt_computes dO.sum hf.result
  have hn := composeNumeratorRational_tens (K := K) hmax ho hi hf.sub hdim hf.outer hf.deg n1
  refine ⟨⟨n, d⟩, ?_, (rinside_iff (RSpline.computes_of hn d2)).mpr
    ((mixes_compose_rational hi hpos hcu hdim).hull hC (c := fun n => outer.cps.getD n 0) (v := fun _ => 1)
      (fun n hn => hc _ (Spline.getD_mem ho.wf (by rw [hod]; exact hn))) (fun _ _ => zero_lt_one) hn d2
      (fun t ht => ?_) (fun t ht => ?_))⟩
  · unfold Spline.composeRational Spline.composeDenominator
    rw [hcube, n1, hod, d1]
    exact RSpline.ofSplines_ok (by rw [n3, d2.degrees_eq, hod])
  · simp only [one_smul]
  · have := Bezman.sum_pw (K := K) dO (Spline.hbFns_length _ _ _ : (Spline.hbFns dO
      (fun d => if h : d < Coords.n K W then coord (inner.num.value t) ⟨d, h⟩ else 0)
      (fun d => if h : d < Coords.n K W then w t - coord (inner.num.value t) ⟨d, h⟩ else 0)).length = _) (fun _ => (1 : K))
    rw [this, tens_hb_one (w t)]
    intro d hd
    have hd' : d < Coords.n K W := by omega
    simp only [hd', dif_pos]
    ring

/-- C73. Rational outer and rational inner spline, both with positive weights. The function itself does not check that the inner spline
fits into the unit cube; the claim is for inner splines that do. -/
theorem C73_rational_compose_rational (cfg : Cfg) (hmax : cfg.maxBinom ≤ 68) (outer : RSpline K V) (inner : RSpline K W)
    (dO dI : List ℕ) (f : List K → V) (wo : List K → K) (g : List K → W) (w : List K → K) (ho : outer.Computes dO f wo)
    (hi : inner.Computes dI g w) (hdim : dO.length = Coords.n K W) (hcube : inner.fitsIntoUnitCube = .ok true)
    (hpos : ∀ x ∈ inner.wt.cps, 0 < x) (hf : ComposeFits cfg dO dI) (C : Set V) (hC : Convex K C) (h : RInside outer dO C) :
    ∃ r, RSpline.composeRational cfg outer inner = .ok r ∧ RInside r (dI.map (fun q => dO.sum * q)) C := by
  have hcu := (rfits_iff hi hpos).mp hcube
  have hnd := ho.num_degrees
  have hwd := ho.wt_degrees
  obtain ⟨n, n1, n2, n3, n4⟩ := composeNumeratorRational_ok (K := K) (s := outer.num) hmax ho.num_wf hi hf.sub
    (by unfold Spline.dim; rw [hnd, hdim]) (by rw [hnd]; exact hf.outer) (by rw [hnd]; exact hf.deg)
  obtain ⟨d, d1, d2, d3, d4⟩ := composeNumeratorRational_ok (K := K) (s := outer.wt) hmax ho.wt_wf hi hf.sub
    (by unfold Spline.dim; rw [hwd, hdim]) (by rw [hwd]; exact hf.outer) (by rw [hwd]; exact hf.deg)
  have hn := composeNumeratorRational_tens (K := K) hmax ho.num_computes hi hf.sub hdim hf.outer hf.deg n1
  have hd := composeNumeratorRational_tens (K := K) hmax ho.wt_computes hi hf.sub hdim hf.outer hf.deg d1
  refine ⟨⟨n, d⟩, ?_, rational_hull ho hC h (mixes_compose_rational hi hpos hcu hdim) (RSpline.computes_of hn hd) hn hd
    (fun t _ => rfl) (fun t _ => rfl)⟩
  unfold RSpline.composeRational
  rw [n1, d1]
  exact RSpline.ofSplines_ok (by rw [n3, d3, hnd, hwd])

omit [AddCommGroup V] [Module K V] [ScalarDiv K V] [LawfulScalarDiv K V] in
/-- C73. A rational spline with positive weights that fits into the unit cube evaluates inside it, and both parts after splitting fit
again. -/
theorem C73_rational_split_fits (r : RSpline K W) (ds : List ℕ) (g : List K → W) (w : List K → K) (hr : r.Computes ds g w)
    (hpos : ∀ x ∈ r.wt.cps, 0 < x) (h : r.fitsIntoUnitCube = .ok true) (d : ℕ) (hd : d < ds.length) (z : K) (h0 : 0 < z)
    (h1 : z < 1) :
    ∃ a b, r.splitAt z d = .ok (a, b) ∧ a.fitsIntoUnitCube = .ok true ∧ b.fitsIntoUnitCube = .ok true := by
  obtain ⟨a, b, e, ha, hb⟩ := C73_rational_split r ds g w hr _ convex_cube
    ((rinside_iff hr).mpr ⟨hpos, (rfits_iff hr hpos).mp h⟩) d hd z h0 h1
  obtain ⟨a', b', e', ca, cb⟩ := C40_split r ds g w hr d hd z h0 h1
  rw [e] at e'
  obtain ⟨rfl, rfl⟩ := Prod.mk.inj (Except.ok.inj e')
  have h1 := (rinside_iff ca).mp ha
  have h2 := (rinside_iff cb).mp hb
  exact ⟨a, b, e, (rfits_iff ca h1.1).mpr h1.2, (rfits_iff cb h2.1).mpr h2.2⟩

end

/-! ### Examples -/

/-- a half plane that contains the control points of `Ex.P` and of `R`, and not much more: two of them lie on its border -/
def H : Set (Point ℚ 2) := {x | x.val 0 + 2 * x.val 1 ≤ 6}

theorem H_convex : Convex ℚ H := by
  intro x hx y hy a b ha hb hab
  simp only [H, Set.mem_ofPred_eq] at hx hy ⊢
  have e : ∀ j : Fin 2, (a • x + b • y).val j = a * x.val j + b * y.val j := fun j => by
    rw [Point.val_add, Point.val_smul, Point.val_smul]
  rw [e, e]
  have h1 := mul_le_mul_of_nonneg_left hx ha
  have h2 := mul_le_mul_of_nonneg_left hy hb
  have h3 : a * 6 + b * 6 = 6 := by rw [← add_mul, hab, one_mul]
  linarith

theorem P_in_H : ∀ x ∈ Ex.P.cps, x ∈ H := by
  intro x hx
  simp only [Ex.P, Ex.surf, List.mem_cons, List.not_mem_nil, or_false] at hx
  rcases hx with rfl | rfl | rfl | rfl | rfl | rfl <;> simp [H, Ex.pt] <;> norm_num

theorem R_in_H : RInside R [2, 1] H := by
  refine (rinside_iff R_computes).mpr ⟨R_pos, fun x hx => ?_⟩
  have hx' : x ∈ [((1 : ℚ)⁻¹ • Ex.pt 0 0), ((2 : ℚ)⁻¹ • Ex.pt 2 0), ((1 : ℚ)⁻¹ • Ex.pt 2 1),
      ((3 : ℚ)⁻¹ • Ex.pt 0 9), ((1 / 2 : ℚ)⁻¹ • Ex.pt (1 / 2) 1), ((1 : ℚ)⁻¹ • Ex.pt 2 2)] := hx
  simp only [List.mem_cons, List.not_mem_nil, or_false] at hx'
  have e : ∀ (a : ℚ) (y : Point ℚ 2) (j : Fin 2), (a • y).val j = a * y.val j := fun a y j => Point.val_smul a y j
  rcases hx' with rfl | rfl | rfl | rfl | rfl | rfl <;> simp only [H, Set.mem_ofPred_eq, e] <;> simp [Ex.pt] <;> norm_num

example : ∃ x, Ex.P.evaluate [(1 / 3 : ℚ), 3 / 4] = .ok x ∧ x ∈ H :=
  C73_evaluate _ Ex.P_wf H H_convex P_in_H _ rfl (by intro x hx; simp at hx; rcases hx with rfl | rfl <;> norm_num)

example : ∃ r, Spline.orderElevate ℚ Ex.P 1 = .ok r ∧ ∀ x ∈ r.cps, x ∈ H :=
  C73_order_elevate _ _ Ex.P_wf rfl H H_convex P_in_H 1 1 rfl (by decide)

example : ∃ a b, Ex.P.splitAt (1 / 3 : ℚ) 0 = .ok (a, b) ∧ (∀ x ∈ a.cps, x ∈ H) ∧ ∀ x ∈ b.cps, x ∈ H :=
  C73_split _ Ex.P_wf H H_convex P_in_H 0 (by decide) _ (by norm_num) (by norm_num)

example : ∃ l, Ex.P.splitAtMany [(1 / 3 : ℚ), 2 / 3] 1 = .ok l ∧ ∀ a ∈ l, ∀ x ∈ a.cps, x ∈ H :=
  C73_split_many _ Ex.P_wf H H_convex P_in_H 1 (by decide) _ (by simp; norm_num)
    (by intro z hz; simp at hz; rcases hz with rfl | rfl <;> norm_num)

example : ∃ r, Spline.compose ℚ Ex.cfg Ex.P Q = .ok r ∧ ∀ x ∈ r.cps, x ∈ H :=
  C73_compose _ Ex.cfg_ok _ _ Ex.P_wf Q_wf rfl Q_fits (by decide) (by decide) H H_convex P_in_H

example : ∃ r, Spline.compose ℚ Ex.cfg Q Q = .ok r ∧ Spline.fitsIntoUnitCube ℚ r = .ok true :=
  C73_compose_fits _ Ex.cfg_ok _ _ Q_wf Q_wf rfl Q_fits Q_fits (by decide) (by decide)

example : ∃ a b, Q.splitAt (1 / 3 : ℚ) 0 = .ok (a, b) ∧ Spline.fitsIntoUnitCube ℚ a = .ok true ∧
    Spline.fitsIntoUnitCube ℚ b = .ok true :=
  C73_split_fits _ Q_wf Q_fits 0 (by decide) _ (by norm_num) (by norm_num)

example : ∃ r, Spline.orderElevate ℚ Q 0 = .ok r ∧ Spline.fitsIntoUnitCube ℚ r = .ok true :=
  C73_elevate_fits _ Q_wf Q_fits 0 2 rfl (by decide)

example : ∃ x, R.evaluate [(1 / 3 : ℚ), 3 / 4] = .ok x ∧ x ∈ H :=
  C73_rational_evaluate _ _ _ _ R_computes H H_convex R_in_H _ rfl
    (by intro x hx; simp at hx; rcases hx with rfl | rfl <;> norm_num)

example : ∃ r, R.orderElevate 1 = .ok r ∧ RInside r [2, 2] H :=
  C73_rational_order_elevate _ _ _ _ R_computes H H_convex R_in_H 1 1 rfl (by decide)

example : ∃ a b, R.splitAt (1 / 3 : ℚ) 0 = .ok (a, b) ∧ RInside a [2, 1] H ∧ RInside b [2, 1] H :=
  C73_rational_split _ _ _ _ R_computes H H_convex R_in_H 0 (by decide) _ (by norm_num) (by norm_num)

example : ∃ l, R.splitAtMany [(1 / 3 : ℚ), 2 / 3] 1 = .ok l ∧ ∀ a ∈ l, RInside a [2, 1] H :=
  C73_rational_split_many _ _ _ _ R_computes H H_convex R_in_H 1 (by decide) _ (by simp; norm_num)
    (by intro z hz; simp at hz; rcases hz with rfl | rfl <;> norm_num)

example : ∃ r, RSpline.compose Ex.cfg R Q = .ok r ∧ RInside r [6, 3] H :=
  C73_rational_compose_polynomial _ Ex.cfg_ok _ _ _ _ _ _ _ R_computes Q_wf.computes rfl Q_fits cfits H H_convex R_in_H

example : ∃ r, Spline.composeRational Ex.cfg Ex.P RQ = .ok r ∧ RInside r [6, 3] H :=
  C73_compose_rational _ Ex.cfg_ok _ _ _ _ _ _ _ Ex.P_wf.computes RQ_computes rfl RQ_fits R_pos cfits H H_convex P_in_H

example : ∃ r, RSpline.composeRational Ex.cfg R RQ = .ok r ∧ RInside r [6, 3] H :=
  C73_rational_compose_rational _ Ex.cfg_ok _ _ _ _ _ _ _ _ R_computes RQ_computes rfl RQ_fits R_pos cfits H H_convex R_in_H

example : ∃ a b, RQ.splitAt (1 / 3 : ℚ) 0 = .ok (a, b) ∧ a.fitsIntoUnitCube = .ok true ∧ b.fitsIntoUnitCube = .ok true :=
  C73_rational_split_fits _ _ _ _ RQ_computes R_pos RQ_fits 0 (by decide) _ (by norm_num) (by norm_num)

end Bezman.Props
