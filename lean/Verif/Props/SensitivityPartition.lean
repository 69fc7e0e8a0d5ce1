import Verif.Props.SensitivityPoints

/-! # Property C124, continued: the sensitivities of rational compositions add up to 1 -/

namespace Bezman.Props
open Spec Coords Finset

section
variable {K V W : Type} [Field K] [LinearOrder K] [IsStrictOrderedRing K] [AddCommGroup V] [Module K V] [AddCommGroup W] [Module K W]
  [Coords K W] [LawfulCoords K W]

omit [LinearOrder K] [IsStrictOrderedRing K] in
theorem zip_ones {α : Type} (f : α → K) : ∀ (l : List α) (n : ℕ), l.length = n → List.zipWith (fun q c => f q • c) l (List.replicate n (1 : K)) = l.map f
  | [], 0, _ => rfl
  | a :: l, n + 1, h => by
    simp only [List.replicate_succ, List.zipWith_cons_cons, List.map_cons, smul_eq_mul, mul_one]
    have := zip_ones f l n (by simpa using h)
    simp only [smul_eq_mul] at this
    rw [this]

omit [LinearOrder K] [IsStrictOrderedRing K] in
theorem ones_zip : ∀ (l : List K) (n : ℕ), l.length = n → l = List.zipWith (fun c x => c • x) l (List.replicate n (1 : K)) := fun l n h => by
  rw [zip_ones (fun x : K => x) l n h, List.map_id']

/-- C124. Rational outer spline, polynomial inner spline: the weighted control points of the sensitivities add up to the weights of the
composition, which are the weights of every sensitivity. If the outer weights are positive, none of them is negative. -/
theorem C124_rational_partition (cfg : Cfg) (hmax : cfg.maxBinom ≤ 68) (outer : RSpline K V) (inner : Spline W) (dO : List ℕ) (N : List K → V)
    (v : List K → K) (ho : RParts outer dO N v) (hi : inner.WF) (hdim : dO.length = Coords.n K W)
    (hcube : Spline.fitsIntoUnitCube K inner = .ok true) (hdeg : ∀ p ∈ dO, p < cfg.maxBinom) (hdeg' : ∀ q ∈ inner.degrees, dO.sum * q < cfg.maxBinom) :
    ∃ r l, RSpline.compose cfg outer inner = .ok r ∧ RSpline.composeSensitivity cfg outer inner = .ok l ∧ (∀ q ∈ l, q.wt = r.wt) ∧
      (∀ k < r.wt.ncp, r.wt.cps[k]? = some (l.map fun q => q.num.cps.getD k 0).sum) ∧
      ((∀ x ∈ outer.wt.cps, 0 < x) → ∀ q ∈ l, ∀ x ∈ q.num.cps, 0 ≤ x) := by
  let u : RSpline K K := ⟨outer.wt, outer.wt⟩
  have hu : RParts u dO v v := ⟨ho.2, ho.2⟩
  obtain ⟨r, e, c⟩ := rparts_compose hmax ho hi.computes hdim hcube hdeg hdeg'
  obtain ⟨l, a1, a2, a3⟩ := C124_rational_composition (K := K) cfg hmax outer inner dO N v ho hi hdim hcube hdeg hdeg'
  obtain ⟨ru, lu, e', b1, b2, b3⟩ := C124_rational_points (K := K) cfg hmax u inner dO v v hu hi hdim hcube hdeg hdeg' (List.replicate outer.wt.ncp 1)
    (by simp [u]) (ones_zip outer.wt.cps _ (by rw [ho.2.wf.cps_len, ho.2.wf.ncp_eq]))
  obtain ⟨m, m1, m2, m3⟩ := C124_rational_composition (K := K) cfg hmax u inner dO v v hu hi hdim hcube hdeg hdeg'
  cases b1.symm.trans m1
  have hl : lu = l := by
    apply List.ext_getElem
    · rw [a2, m2]
    · intro i i1 i2
      obtain ⟨x, hx⟩ := RUnitAt.ex (K := K) ho.2.wf (n := i) (by rw [← a2]; exact i2)
      obtain ⟨q, q1, q2⟩ := a3 i x hx
      obtain ⟨q', q1', q2'⟩ := m3 i x ⟨hx.inside, hx.wf, hx.weights, hx.degrees, hx.points⟩
      cases q2.symm.trans q2'
      obtain ⟨_, a⟩ := List.getElem?_eq_some_iff.mp q1
      obtain ⟨_, b⟩ := List.getElem?_eq_some_iff.mp q1'
      rw [a, b]
  subst hl
  obtain ⟨x, x1, x2⟩ := rparts_compose hmax hu hi.computes hdim hcube hdeg hdeg'
  cases e'.symm.trans x1
  have hw : ru.wt = r.wt := x2.2.unique c.2
  have hn : ru.num = r.wt := x2.1.unique c.2
  refine ⟨r, lu, e, a1, fun q hq => (b2 q hq).trans hw, fun k hk => ?_, fun hpos q hq => ?_⟩
  · have := (b3 k (by rw [hn]; exact hk)).2
    rw [zip_ones (fun q : RSpline K K => q.num.cps.getD k 0) lu _ a2, hn] at this
    exact this
  · obtain ⟨n, hn, rfl⟩ := List.getElem_of_mem hq
    obtain ⟨y, hy⟩ := RUnitAt.ex (K := K) ho.2.wf (n := n) (by omega)
    obtain ⟨q, q1, q2⟩ := a3 n y hy
    obtain ⟨_, rfl⟩ := List.getElem?_eq_some_iff.mp q1
    have hp := hy.parts ho.2
    have hed := hp.1.degrees_eq
    obtain ⟨s, s1, s2⟩ := C73_compose (K := K) cfg hmax y.num inner hy.wf hi (by unfold Spline.dim; rw [hed]; exact hdim) hcube
      (by rw [hed]; exact hdeg) (by rw [hed]; exact hdeg') (Set.Ici 0) (convex_Ici 0) (by
        intro x hx
        rw [hy.points] at hx
        rcases List.mem_or_eq_of_mem_set hx with h | rfl
        · rw [(List.mem_replicate.mp h).2]; exact Set.mem_Ici.mpr le_rfl
        · have hlt : n < outer.wt.cps.length := by rw [ho.2.wf.cps_len, ← ho.2.wf.ncp_eq]; omega
          rw [List.getD_eq_getElem?_getD, List.getElem?_eq_getElem hlt]
          exact (hpos _ (List.getElem_mem hlt)).le)
    obtain ⟨z, z1, z2⟩ := C26_compose (K := K) cfg hmax y.num inner _ _ _ _ hp.1 hi.computes hdim hcube hdeg hdeg'
    cases s1.symm.trans z1
    obtain ⟨z', y1, y2⟩ := rparts_compose hmax hp hi.computes hdim hcube hdeg hdeg'
    cases q2.symm.trans y1
    have : (lu[n]).num = s := y2.1.unique z2
    rw [this]
    exact s2

/-- C124. Rational outer and rational inner spline, weights of any sign. -/
theorem C124_rational_partition_rational [ScalarDiv K W] [LawfulScalarDiv K W] (cfg : Cfg) (hmax : cfg.maxBinom ≤ 68) (outer : RSpline K V)
    (inner : RSpline K W) (dO dI : List ℕ) (N : List K → V) (v : List K → K) (G : List K → W) (w : List K → K) (ho : RParts outer dO N v)
    (hi : RParts inner dI G w) (hdim : dO.length = Coords.n K W) (hf : ComposeFits cfg dO dI) :
    ∃ r l, RSpline.composeRational cfg outer inner = .ok r ∧ RSpline.composeSensitivityRational cfg outer inner = .ok l ∧
      (∀ q ∈ l, q.wt = r.wt) ∧ ∀ k < r.wt.ncp, r.wt.cps[k]? = some (l.map fun q => q.num.cps.getD k 0).sum := by
  let u : RSpline K K := ⟨outer.wt, outer.wt⟩
  have hu : RParts u dO v v := ⟨ho.2, ho.2⟩
  obtain ⟨r, e, c⟩ := rparts_compose_both hmax ho hi hdim hf
  obtain ⟨l, a1, a2, a3⟩ := C124_rational_composition_rational (K := K) cfg hmax outer inner dO dI N v G w ho hi hdim hf
  obtain ⟨ru, lu, e', b1, b2, b3⟩ := C124_rational_points_rational (K := K) cfg hmax u inner dO dI v v G w hu hi hdim hf
    (List.replicate outer.wt.ncp 1) (by simp [u]) (ones_zip outer.wt.cps _ (by rw [ho.2.wf.cps_len, ho.2.wf.ncp_eq]))
  obtain ⟨m, m1, m2, m3⟩ := C124_rational_composition_rational (K := K) cfg hmax u inner dO dI v v G w hu hi hdim hf
  cases b1.symm.trans m1
  have hl : lu = l := by
    apply List.ext_getElem
    · rw [a2, m2]
    · intro i i1 i2
      obtain ⟨x, hx⟩ := RUnitAt.ex (K := K) ho.2.wf (n := i) (by rw [← a2]; exact i2)
      obtain ⟨q, q1, q2⟩ := a3 i x hx
      obtain ⟨q', q1', q2'⟩ := m3 i x ⟨hx.inside, hx.wf, hx.weights, hx.degrees, hx.points⟩
      cases q2.symm.trans q2'
      obtain ⟨_, a⟩ := List.getElem?_eq_some_iff.mp q1
      obtain ⟨_, b⟩ := List.getElem?_eq_some_iff.mp q1'
      rw [a, b]
  subst hl
  obtain ⟨x, x1, x2⟩ := rparts_compose_both hmax hu hi hdim hf
  cases e'.symm.trans x1
  have hw : ru.wt = r.wt := x2.2.unique c.2
  have hn : ru.num = r.wt := x2.1.unique c.2
  refine ⟨r, lu, e, a1, fun q hq => (b2 q hq).trans hw, fun k hk => ?_⟩
  have := (b3 k (by rw [hn]; exact hk)).2
  rw [zip_ones (fun q : RSpline K K => q.num.cps.getD k 0) lu _ a2, hn] at this
  exact this

/-- C124. Polynomial outer spline, rational inner spline. -/
theorem C124_partition_rational [ScalarDiv K W] [LawfulScalarDiv K W] (cfg : Cfg) (hmax : cfg.maxBinom ≤ 68) (outer : Spline V)
    (inner : RSpline K W) (dI : List ℕ) (G : List K → W) (w : List K → K) (ho : outer.WF) (hi : RParts inner dI G w)
    (hdim : outer.degrees.length = Coords.n K W) (hcube : inner.fitsIntoUnitCube = .ok true) (hf : ComposeFits cfg outer.degrees dI) :
    ∃ r l, Spline.composeRational cfg outer inner = .ok r ∧ Spline.composeSensitivityRational cfg outer inner = .ok l ∧
      (∀ q ∈ l, q.wt = r.wt) ∧ ∀ k < r.wt.ncp, r.wt.cps[k]? = some (l.map fun q => q.num.cps.getD k 0).sum := by
  let u : Spline K := ⟨outer.degrees, outer.ncp, outer.offsets, List.replicate outer.ncp 1⟩
  have uw : u.WF := ⟨ho.dim_pos, ho.ncp_eq, ho.offsets_eq, by simp [u, ho.ncp_eq]⟩
  obtain ⟨r, l, r1, l1, hw, -⟩ := C124_points_rational (K := K) cfg hmax outer inner dI G w ho hi hdim hcube hf
  obtain ⟨x, x1, x2⟩ := rparts_compose_inner hmax (ho.computes (K := K)) hi hdim hcube hf
  cases r1.symm.trans x1
  obtain ⟨m, m1, m2, -⟩ := C124_composition_rational (K := K) cfg hmax outer inner dI G w ho hi hdim hcube hf
  cases l1.symm.trans m1
  obtain ⟨ru, lu, e', b1, b2, b3⟩ := C124_points_rational (K := K) cfg hmax u inner dI G w uw hi hdim hcube hf
  have e : lu = l := by
    have : Spline.composeSensitivityRational cfg u inner = Spline.composeSensitivityRational cfg outer inner := rfl
    rw [this, l1] at b1
    exact (Except.ok.inj b1).symm
  subst e
  have hu : RParts (⟨u, u⟩ : RSpline K K) outer.degrees (fun t : List K => u.value t) (fun t : List K => u.value t) :=
    ⟨uw.computes, uw.computes⟩
  obtain ⟨s, s1, s2⟩ := C121_compose_unit_weights (K := K) cfg hmax (⟨u, u⟩ : RSpline K K) inner _ _ _ _ _ _ hu
    (fun x hx => (List.mem_replicate.mp hx).2) hi hdim hcube hf
  cases e'.symm.trans s2
  obtain ⟨y, y1, y2⟩ := rparts_compose_both hmax hu hi hdim hf
  cases s1.symm.trans y1
  have hn : ru.num = ru.wt := y2.1.unique y2.2
  obtain ⟨z, z1, z2⟩ := rparts_compose_inner hmax (uw.computes (K := K)) hi hdim hcube hf
  cases e'.symm.trans z1
  have hwt : ru.wt = r.wt := z2.2.unique x2.2
  refine ⟨r, lu, r1, l1, hw, fun k hk => ?_⟩
  have := (b3 k (by rw [hn, hwt]; exact hk)).2
  rw [zip_ones (fun q : RSpline K K => q.num.cps.getD k 0) lu _ m2, hn, hwt] at this
  exact this

end

/-! ## The hypotheses are met -/

example := C124_rational_partition (K := ℚ) Ex.cfg Ex.cfg_ok _ exIn _ _ _ (exCurveR 3 1 4 1 2 5) (Ex.surf_wf ..) rfl (by decide +kernel)
  (by decide) (by decide)
example : ∀ x ∈ (Ex.curve (1 : ℚ) 2 5).cps, 0 < x := by decide +kernel
example := C124_rational_partition_rational (K := ℚ) Ex.cfg Ex.cfg_ok _ _ _ _ _ _ _ _ (exCurveR 3 1 4 1 (-2) 5) exInner rfl
  ⟨by decide, by decide, by decide, by decide, by decide⟩
example := C124_partition_rational (K := ℚ) Ex.cfg Ex.cfg_ok (Ex.curve (3 : ℚ) 1 4) _ _ _ _ (Ex.curve_wf ..) exInner rfl (by decide +kernel)
  ⟨by decide, by decide, by decide, by decide, by decide⟩

end Bezman.Props
