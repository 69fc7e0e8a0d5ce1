import Verif.Props.Examples
import Verif.Proofs.PropsAux
import Verif.Proofs.Box
import Verif.Proofs.Compose
import Mathlib.Algebra.Order.Field.Rat

/-! # Properties: coordinates, bounding box, unit cube, composition -/

namespace Bezman.Props
open Spec Finset Coords

section
variable {K V : Type} [Field K] [LinearOrder K] [IsStrictOrderedRing K] [AddCommGroup V] [Module K V]
  [Coords K V] [LawfulCoords K V]

/-! ## C11 -/

/-- C11. The values on the unit cube lie between `MinimumCorner()` and
`MaximumCorner()`, and each coordinate of the corners is a coordinate of a control
point. -/
theorem C11_bounding_box (s : Spline V) (hs : s.WF) :
    ∃ lo hi : V, Spline.minimumCorner K s = .ok lo ∧ Spline.maximumCorner K s = .ok hi ∧
      (∀ t : List K, t.length = s.dim → InCube t → ∃ x, s.evaluate t = .ok x ∧
        ∀ j : Fin (Coords.n K V), (coord lo j : K) ≤ coord x j ∧ (coord x j : K) ≤ coord hi j) ∧
      ∀ j : Fin (Coords.n K V),
        (∃ x ∈ s.cps, (coord x j : K) = coord lo j) ∧ (∃ x ∈ s.cps, (coord x j : K) = coord hi j) := by
  obtain ⟨hi, h1, h2, h3⟩ := Spline.maximumCorner_ok (K := K) hs
  obtain ⟨lo, h4, h5, h6⟩ := Spline.minimumCorner_ok (K := K) hs
  refine ⟨lo, hi, h4, h1, ?_, fun j => ⟨h6 j, h3 j⟩⟩
  intro t ht h01
  exact ⟨_, Spline.evaluate_ok hs ht, fun j =>
    ⟨Spline.le_value hs ht h01 (h5 j), Spline.value_le hs ht h01 (h2 j)⟩⟩

/-! ## C23 -/

omit [LinearOrder K] [IsStrictOrderedRing K] in
/-- C23. `ExtractDimension(d)` evaluates to coordinate `d`. -/
theorem C23_extract (s : Spline V) (ds : List ℕ) (f : List K → V) (hs : s.Computes ds f) (d : Fin (Coords.n K V)) :
    ∃ r, Spline.extractDimension K s d = .ok r ∧ r.Computes ds (fun t => coord (f t) d) := by
  obtain ⟨r, h1, h2, h3, h4⟩ := Spline.extractDimension_ok (K := K) hs.wf d
  refine ⟨r, h1, Spline.Computes.mk' h2 (by rw [h3, hs.degrees_eq]) ?_⟩
  intro t ht
  rw [h4, hs.value_eq ht]

omit [LinearOrder K] [IsStrictOrderedRing K] [AddCommGroup V] [Module K V] [LawfulCoords K V] in
/-- C23. A coordinate that does not exist raises an error. -/
theorem C23_extract_throws (s : Spline V) (d : ℕ) (hd : Coords.n K V ≤ d) :
    Spline.extractDimension K s d = .error .throws := Spline.extractDimension_throws s hd

/-! ## C24 -/

omit [LinearOrder K] [IsStrictOrderedRing K] in
/-- C24. `TransposeAndScale(v, c)` maps `x` to `(v + x) * c`, per coordinate. -/
theorem C24_transpose_and_scale (s : Spline V) (ds : List ℕ) (f : List K → V) (hs : s.Computes ds f) (v c : V) :
    ∃ r, Spline.transposeAndScale K s v c = .ok r ∧ r.WF ∧ r.degrees = ds ∧
      ∀ t : List K, t.length = ds.length → ∃ x, r.evaluate t = .ok x ∧
        ∀ j : Fin (Coords.n K V), (coord x j : K) = (coord v j + coord (f t) j) * coord c j := by
  obtain ⟨r, h1, h2, h3, _, h4⟩ := Spline.transposeAndScale_ok (K := K) hs.wf v c
  refine ⟨r, h1, h2, by rw [h3, hs.degrees_eq], ?_⟩
  intro t ht
  have ht' : t.length = s.dim := by rw [hs.dim_eq]; exact ht
  refine ⟨_, Spline.evaluate_ok h2 (by unfold Spline.dim; rw [h3]; exact ht'), fun j => ?_⟩
  rw [h4 t ht', hs.value_eq ht]

/-- C24. `FitIntoUnitCube()` of a spline with positive extent in every coordinate: the
result passes `FitsIntoUnitCube()`, touches 0 and 1 in every coordinate, and is the
affine image `(x - lo) / (hi - lo)` of the original, where `lo`, `hi` are the corners
of the bounding box. -/
theorem C24_fit_into_unit_cube (s : Spline V) (ds : List ℕ) (f : List K → V) (hs : s.Computes ds f)
    (hext : ∀ j : Fin (Coords.n K V), ∃ x ∈ s.cps, ∃ y ∈ s.cps, (coord x j : K) < coord y j) :
    ∃ r lo hi, Spline.fitIntoUnitCube K s = .ok r ∧ Spline.fitsIntoUnitCube K r = .ok true ∧ r.WF ∧ r.degrees = ds ∧
      (∀ j : Fin (Coords.n K V), (∃ x ∈ r.cps, (coord x j : K) = 0) ∧ (∃ x ∈ r.cps, (coord x j : K) = 1)) ∧
      Spline.minimumCorner K s = .ok lo ∧ Spline.maximumCorner K s = .ok hi ∧
      ∀ t : List K, t.length = ds.length → ∃ x, r.evaluate t = .ok x ∧
        ∀ j : Fin (Coords.n K V), (coord x j : K) = (coord (f t) j - coord lo j) / (coord hi j - coord lo j) := by
  obtain ⟨r, h1, h2, h3, h4, h5, h6⟩ := Spline.fitIntoUnitCube_ok (K := K) hs.wf hext
  obtain ⟨b, h7, h8⟩ := Spline.fitsIntoUnitCube_ok (K := K) h2
  have hb : b = true := h8.mpr h4
  subst hb
  obtain ⟨lo, hi, e1, e2, _, e4⟩ := h6
  refine ⟨r, lo, hi, h1, h7, h2, by rw [h3, hs.degrees_eq], h5, e1, e2, ?_⟩
  intro t ht
  have ht' : t.length = s.dim := by rw [hs.dim_eq]; exact ht
  refine ⟨_, Spline.evaluate_ok h2 (by unfold Spline.dim; rw [h3]; exact ht'), fun j => ?_⟩
  rw [e4 t ht', hs.value_eq ht]

/-! ## C25 -/

/-- C25. `FitsIntoUnitCube()` decides whether all control points lie in the unit cube. -/
theorem C25_fits_iff (s : Spline V) (hs : s.WF) :
    ∃ b : Bool, Spline.fitsIntoUnitCube K s = .ok b ∧
      (b = true ↔ ∀ x ∈ s.cps, ∀ j : Fin (Coords.n K V), (0 : K) ≤ coord x j ∧ (coord x j : K) ≤ 1) :=
  Spline.fitsIntoUnitCube_ok hs

/-- C25. If it returns true, the values on the unit cube stay in the unit cube. -/
theorem C25_fits_sound (s : Spline V) (hs : s.WF) (h : Spline.fitsIntoUnitCube K s = .ok true)
    (t : List K) (ht : t.length = s.dim) (h01 : InCube t) :
    ∃ x, s.evaluate t = .ok x ∧ ∀ j : Fin (Coords.n K V), (0 : K) ≤ coord x j ∧ (coord x j : K) ≤ 1 := by
  obtain ⟨b, h1, h2⟩ := Spline.fitsIntoUnitCube_ok (K := K) hs
  rw [h] at h1
  injection h1 with h1
  have hc := h2.mp h1.symm
  exact ⟨_, Spline.evaluate_ok hs ht, fun j =>
    ⟨Spline.le_value hs ht h01 fun x hx => (hc x hx j).1, Spline.value_le hs ht h01 fun x hx => (hc x hx j).2⟩⟩

end

example : ∃ lo hi : Point ℚ 2, Spline.minimumCorner ℚ Ex.P = .ok lo ∧ Spline.maximumCorner ℚ Ex.P = .ok hi ∧
      (∀ t : List ℚ, t.length = Ex.P.dim → InCube t → ∃ x, Ex.P.evaluate t = .ok x ∧
        ∀ j : Fin 2, lo.val j ≤ x.val j ∧ x.val j ≤ hi.val j) ∧
      ∀ j : Fin 2, (∃ x ∈ Ex.P.cps, x.val j = lo.val j) ∧ (∃ x ∈ Ex.P.cps, x.val j = hi.val j) :=
  C11_bounding_box (K := ℚ) Ex.P Ex.P_wf

example : ∃ r, Spline.extractDimension ℚ Ex.P 1 = .ok r ∧
    r.Computes [2, 1] (fun t : List ℚ => (Ex.P.value t).val 1) :=
  C23_extract (K := ℚ) Ex.P _ _ Ex.P_wf.computes (1 : Fin 2)

example : ∃ r, Spline.transposeAndScale ℚ Ex.P (Ex.pt 1 2) (Ex.pt 3 4) = .ok r ∧ r.WF ∧ r.degrees = [2, 1] ∧
      ∀ t : List ℚ, t.length = 2 → ∃ x, r.evaluate t = .ok x ∧
        ∀ j : Fin 2, x.val j = ((Ex.pt 1 2).val j + (Ex.P.value t).val j) * (Ex.pt 3 4).val j :=
  C24_transpose_and_scale (K := ℚ) Ex.P _ _ Ex.P_wf.computes _ _

/-- the extents of the example surface are positive -/
theorem P_extent : ∀ j : Fin 2, ∃ x ∈ Ex.P.cps, ∃ y ∈ Ex.P.cps, x.val j < y.val j := by
  intro j
  refine ⟨Ex.pt 0 0, by simp [Ex.P, Ex.surf], Ex.pt 2 2, by simp [Ex.P, Ex.surf], ?_⟩
  fin_cases j <;> simp [Ex.pt]

example : ∃ r lo hi, Spline.fitIntoUnitCube ℚ Ex.P = .ok r ∧ Spline.fitsIntoUnitCube ℚ r = .ok true ∧ r.WF ∧
      r.degrees = [2, 1] ∧
      (∀ j : Fin 2, (∃ x ∈ r.cps, x.val j = 0) ∧ (∃ x ∈ r.cps, x.val j = 1)) ∧
      Spline.minimumCorner ℚ Ex.P = .ok lo ∧ Spline.maximumCorner ℚ Ex.P = .ok hi ∧
      ∀ t : List ℚ, t.length = 2 → ∃ x, r.evaluate t = .ok x ∧
        ∀ j : Fin 2, x.val j = ((Ex.P.value t).val j - lo.val j) / (hi.val j - lo.val j) :=
  C24_fit_into_unit_cube (K := ℚ) Ex.P _ _ Ex.P_wf.computes P_extent

/-- a surface inside the unit square -/
def Q : Spline (Point ℚ 2) := Ex.surf (Ex.pt 0 0) (Ex.pt 1 0) (Ex.pt 1 1) (Ex.pt 0 (1 / 2)) (Ex.pt 1 1) (Ex.pt (1 / 3) 1)
theorem Q_wf : Q.WF := Ex.surf_wf ..
theorem Q_cube : ∀ x ∈ Q.cps, ∀ j : Fin 2, (0 : ℚ) ≤ x.val j ∧ x.val j ≤ 1 := by
  intro x hx j
  simp only [Q, Ex.surf, List.mem_cons, List.not_mem_nil, or_false] at hx
  rcases hx with rfl | rfl | rfl | rfl | rfl | rfl <;> fin_cases j <;> simp [Ex.pt] <;> norm_num

theorem Q_fits : Spline.fitsIntoUnitCube ℚ Q = .ok true := by
  obtain ⟨b, h1, h2⟩ := C25_fits_iff (K := ℚ) Q Q_wf
  rw [h1, h2.mpr Q_cube]

example : ∃ x, Q.evaluate [(1 / 3 : ℚ), 1 / 2] = .ok x ∧ ∀ j : Fin 2, (0 : ℚ) ≤ x.val j ∧ x.val j ≤ 1 :=
  C25_fits_sound (K := ℚ) Q Q_wf Q_fits _ rfl (by unfold InCube; norm_num)

/-! ## C26 -/

section
variable {K V W : Type} [Field K] [LinearOrder K] [IsStrictOrderedRing K] [AddCommGroup V] [Module K V]
  [AddCommGroup W] [Module K W] [Coords K W] [LawfulCoords K W]

/-- C26. `outer.Compose(inner)` computes `outer(inner(t))`. `coordList K w` is the tuple
of the coordinates of `w`. -/
theorem C26_compose (cfg : Cfg) (hmax : cfg.maxBinom ≤ 68) (outer : Spline V) (inner : Spline W)
    (dO dI : List ℕ) (f : List K → V) (g : List K → W) (ho : outer.Computes dO f) (hi : inner.Computes dI g)
    (hdim : dO.length = Coords.n K W) (hcube : Spline.fitsIntoUnitCube K inner = .ok true)
    (hdeg : ∀ p ∈ dO, p < cfg.maxBinom) (hdeg' : ∀ q ∈ dI, dO.sum * q < cfg.maxBinom) :
    ∃ r, Spline.compose K cfg outer inner = .ok r ∧
      r.Computes (dI.map (fun q => dO.sum * q)) (fun t => f (coordList K (g t))) := by
  have hod := ho.degrees_eq
  have hid := hi.degrees_eq
  obtain ⟨b, h1, h2⟩ := Spline.fitsIntoUnitCube_ok (K := K) hi.wf
  rw [hcube] at h1
  injection h1 with h1
  obtain ⟨r, r1, r2, r3, r4⟩ := Spline.compose_ok (K := K) hmax ho.wf hi.wf (by rw [ho.dim_eq, hdim])
    (h2.mp h1.symm) (by rw [hod]; exact hdeg) (by
      rw [hod, hid]; intro p hp
      obtain ⟨q, hq, rfl⟩ := List.mem_map.mp hp
      exact hdeg' q hq)
  refine ⟨r, r1, Spline.Computes.mk' r2 (by rw [r3, hod, hid]) ?_⟩
  intro t ht
  have ht' : t.length = dI.length := by simpa using ht
  rw [r4 t (by rw [hi.dim_eq]; exact ht'), hi.value_eq ht', ho.value_eq (by rw [coordList_length, hdim])]

/-- C26. If the control points of `inner` leave the unit cube, `Compose` raises an error. -/
theorem C26_compose_throws (cfg : Cfg) (outer : Spline V) (inner : Spline W) (hi : inner.WF)
    (hcube : Spline.fitsIntoUnitCube K inner = .ok false) :
    Spline.compose K cfg outer inner = .error .throws := by
  refine (Spline.compose_throws hi ?_).1
  intro h
  obtain ⟨b, h1, h2⟩ := Spline.fitsIntoUnitCube_ok (K := K) hi
  rw [h2.mpr h, hcube] at h1
  injection h1 with h1
  exact absurd h1 (by decide)

/-! ## C27 -/

/-- C27. If the control points of `inner` leave the unit cube, `ComposeSensitivity` raises an error. -/
theorem C27_sensitivity_throws (cfg : Cfg) (outer : Spline V) (inner : Spline W) (hi : inner.WF)
    (hcube : Spline.fitsIntoUnitCube K inner = .ok false) :
    Spline.composeSensitivity K cfg outer inner = .error .throws := by
  refine (Spline.compose_throws (s := outer) hi ?_).2
  intro h
  obtain ⟨b, h1, h2⟩ := Spline.fitsIntoUnitCube_ok (K := K) hi
  rw [h2.mpr h, hcube] at h1
  injection h1 with h1
  exact absurd h1 (by decide)

/-- C27. `ComposeSensitivity(inner)`: one scalar spline per control point of `outer`;
the one for the control point with multi-index `idx` is `B_idx` evaluated at `inner(t)`,
which is the derivative of `outer(inner(t))` with respect to that control point. -/
theorem C27_sensitivity (cfg : Cfg) (hmax : cfg.maxBinom ≤ 68) (outer : Spline V) (inner : Spline W)
    (dI : List ℕ) (g : List K → W) (ho : outer.WF) (hi : inner.Computes dI g)
    (hdim : outer.dim = Coords.n K W) (hcube : Spline.fitsIntoUnitCube K inner = .ok true)
    (hdeg : ∀ p ∈ outer.degrees, p < cfg.maxBinom) (hdeg' : ∀ q ∈ dI, outer.degrees.sum * q < cfg.maxBinom) :
    ∃ l, Spline.composeSensitivity K cfg outer inner = .ok l ∧ l.length = outer.ncp ∧
      ∀ idx, ValidIdx outer.degrees idx → ∃ n r, outer.globalToLocal idx = .ok n ∧ l[n]? = some r ∧
        r.Computes (dI.map (fun q => outer.degrees.sum * q))
          (fun t => bernProd outer.degrees idx (coordList K (g t))) := by
  have hid := hi.degrees_eq
  obtain ⟨b, h1, h2⟩ := Spline.fitsIntoUnitCube_ok (K := K) hi.wf
  rw [hcube] at h1
  injection h1 with h1
  obtain ⟨l, l1, l2, l3⟩ := Spline.composeSensitivity_ok (K := K) hmax ho hi.wf hdim
    (h2.mp h1.symm) hdeg (by
      rw [hid]; intro p hp
      obtain ⟨q, hq, rfl⟩ := List.mem_map.mp hp
      exact hdeg' q hq)
  refine ⟨l, l1, by rw [l2, ho.ncp_eq], ?_⟩
  intro idx hidx
  obtain ⟨r, r1, r2, r3, r4⟩ := l3 _ (flatIndex_lt hidx)
  refine ⟨_, r, Spline.globalToLocal_ok ho hidx.length, r1, Spline.Computes.mk' r2 (by rw [r3, hid]) ?_⟩
  intro t ht
  have ht' : t.length = dI.length := by simpa using ht
  rw [r4 t (by rw [hi.dim_eq]; exact ht'), hi.value_eq ht', unflat_flatIndex hidx,
    pw_bernFns hidx.length (by rw [coordList_length, ← hdim]; rfl)]

/-- C27. The composition is the sum of control point times sensitivity; in particular
replacing the control points keeps the sensitivities (they depend on the degrees of
`outer` only), so sensitivity `n` is the derivative with respect to control point `n`. -/
theorem C27_sensitivity_sum (cfg : Cfg) (hmax : cfg.maxBinom ≤ 68) (outer : Spline V) (inner : Spline W)
    (ho : outer.WF) (hi : inner.WF)
    (hdim : outer.dim = Coords.n K W) (hcube : Spline.fitsIntoUnitCube K inner = .ok true)
    (hdeg : ∀ p ∈ outer.degrees, p < cfg.maxBinom)
    (hdeg' : ∀ q ∈ inner.degrees, outer.degrees.sum * q < cfg.maxBinom) :
    ∃ r l, Spline.compose K cfg outer inner = .ok r ∧ Spline.composeSensitivity K cfg outer inner = .ok l ∧
      (∀ cps : List V, Spline.composeSensitivity K cfg { outer with cps := cps } inner = .ok l) ∧
      ∀ t : List K, t.length = inner.dim → ∃ b : List K,
        List.Forall₂ (fun (q : Spline K) x => q.evaluate t = .ok x) l b ∧
        r.evaluate t = .ok (List.zipWith (fun x c => x • c) b outer.cps).sum := by
  obtain ⟨b, h1, h2⟩ := Spline.fitsIntoUnitCube_ok (K := K) hi
  rw [hcube] at h1
  injection h1 with h1
  have hd : Spline.DegOk cfg (inner.degrees.map (outer.degrees.sum * ·)) := by
    intro p hp
    obtain ⟨q, hq, rfl⟩ := List.mem_map.mp hp
    exact hdeg' q hq
  obtain ⟨r, r1, r2, r3, r4⟩ := Spline.compose_ok (K := K) hmax ho hi hdim (h2.mp h1.symm) hdeg hd
  obtain ⟨l, l1, l2, l3⟩ := Spline.composeSensitivity_ok (K := K) hmax ho hi hdim (h2.mp h1.symm) hdeg hd
  refine ⟨r, l, r1, l1, fun cps => l1, ?_⟩
  intro t ht
  set w := coordList K (inner.value t) with hw
  have hwl : w.length = outer.degrees.length := by rw [hw, coordList_length, ← hdim]; rfl
  refine ⟨tab (size outer.degrees) (fun n => pw (bernFns outer.degrees w) (unflat outer.degrees n)), ?_, ?_⟩
  · rw [List.forall₂_iff_get]
    refine ⟨by simp [l2], ?_⟩
    intro n hn hn'
    obtain ⟨q, q1, q2, q3, q4⟩ := l3 n (by omega)
    obtain ⟨hn2, rfl⟩ := List.getElem?_eq_some_iff.mp q1
    simp only [List.get_eq_getElem, tab_getElem]
    rw [Spline.evaluate_ok q2 (by unfold Spline.dim; rw [q3, List.length_map]; exact ht), q4 t ht]
  · rw [Spline.evaluate_ok r2 (by unfold Spline.dim; rw [r3, List.length_map]; exact ht), r4 t ht]
    congr 1
    conv_rhs => rw [ho.cps_tab, zipWith_tab, list_sum_tab, sum_pw _ (Spline.bernFns_length hwl), ← neval_eq_tens]
    rfl

end

example : ∃ r, Spline.compose ℚ Ex.cfg Ex.A Q = .ok r ∧
    r.Computes [6, 3] (fun t : List ℚ => Ex.A.value (coordList ℚ (Q.value t))) :=
  C26_compose (K := ℚ) Ex.cfg Ex.cfg_ok Ex.A Q _ _ _ _ Ex.A_wf.computes Q_wf.computes rfl Q_fits (by decide) (by decide)

theorem P_not_fits : Spline.fitsIntoUnitCube ℚ Ex.P = .ok false := by
  obtain ⟨b, h1, h2⟩ := C25_fits_iff (K := ℚ) Ex.P Ex.P_wf
  cases b with
  | false => exact h1
  | true =>
    have := (h2.mp rfl) (Ex.pt 2 2) (by simp [Ex.P, Ex.surf]) (0 : Fin 2)
    simp [Ex.pt, coord] at this

example : Spline.compose ℚ Ex.cfg Ex.A Ex.P = .error .throws :=
  C26_compose_throws (K := ℚ) Ex.cfg Ex.A Ex.P Ex.P_wf P_not_fits

example : ∃ l, Spline.composeSensitivity ℚ Ex.cfg Ex.A Q = .ok l ∧ l.length = 6 ∧
      ∀ idx, ValidIdx Ex.A.degrees idx → ∃ n r, Ex.A.globalToLocal idx = .ok n ∧ l[n]? = some r ∧
        r.Computes [6, 3] (fun t : List ℚ => bernProd Ex.A.degrees idx (coordList ℚ (Q.value t))) :=
  C27_sensitivity (K := ℚ) Ex.cfg Ex.cfg_ok Ex.A Q _ _ Ex.A_wf Q_wf.computes rfl Q_fits (by decide) (by decide)

end Bezman.Props
