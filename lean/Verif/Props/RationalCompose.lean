import Verif.Props.RationalBox
import Verif.Proofs.ComposeRational

/-! # Properties: compositions with rational splines -/

namespace Bezman.Props
open Spec Finset

/-- a loop that appends one computed element per round -/
theorem loop_push {α : Type} {n : ℕ} {f : ℕ → List α → M (List α)} {P : ℕ → α → Prop}
    (h : ∀ i, i < n → ∃ q, P i q ∧ ∀ ret, f i ret = .ok (ret ++ [q])) :
    ∃ l, loop n f [] = .ok l ∧ l.length = n ∧ ∀ i, i < n → ∃ q, l[i]? = some q ∧ P i q := by
  obtain ⟨l, h1, h2, h3⟩ := loop_inv (n := n) (f := f) (s := ([] : List α))
    (P := fun k l => l.length = k ∧ ∀ i, i < k → ∃ q, l[i]? = some q ∧ P i q)
    ⟨rfl, fun i hi => by omega⟩ (by
      rintro k hk l ⟨a1, a2⟩
      obtain ⟨q, q1, q2⟩ := h k hk
      refine ⟨_, q2 l, by simp [a1], ?_⟩
      intro i hi
      by_cases hik : i = k
      · subst hik
        exact ⟨q, by rw [List.getElem?_append_right (by omega), a1]; simp, q1⟩
      · obtain ⟨r, r1, r2⟩ := a2 i (by omega)
        exact ⟨r, by rw [List.getElem?_append_left (by omega)]; exact r1, r2⟩)
  exact ⟨l, h1, h2, h3⟩

/-- the values of all elements of a list -/
theorem forall₂_tab {α β : Type} {n : ℕ} {l : List α} {R : α → β → Prop} {F : ℕ → β} (hl : l.length = n)
    (h : ∀ i, i < n → ∃ q, l[i]? = some q ∧ R q (F i)) : List.Forall₂ R l (tab n F) := by
  rw [List.forall₂_iff_get]
  refine ⟨by simp [hl], ?_⟩
  intro i hi hi'
  obtain ⟨q, q1, q2⟩ := h i (by omega)
  obtain ⟨_, rfl⟩ := List.getElem?_eq_some_iff.mp q1
  simpa using q2

section
variable {K V W : Type} [Field K] [LinearOrder K] [IsStrictOrderedRing K] [AddCommGroup V] [Module K V]
  [ScalarDiv K V] [LawfulScalarDiv K V]
  [AddCommGroup W] [Module K W] [Coords K W] [LawfulCoords K W] [ScalarDiv K W] [LawfulScalarDiv K W]

/-- the degrees of a composition fit the compile time limits -/
structure ComposeFits (cfg : Cfg) (dO dI : List ℕ) : Prop where
  outer : ∀ p ∈ dO, p < cfg.maxBinom
  result : ∀ q ∈ dI, dO.sum * q < cfg.maxBinom
  rounds : ∀ q ∈ dI, q < cfg.fuel
  rounds2 : 2 ≤ cfg.fuel
  small : size dI < 2 ^ 31

theorem ComposeFits.sub {cfg : Cfg} {dO dI : List ℕ} (h : ComposeFits cfg dO dI) : SubFits cfg dI :=
  ⟨h.rounds, h.rounds2, h.small⟩

theorem ComposeFits.deg {cfg : Cfg} {dO dI : List ℕ} (h : ComposeFits cfg dO dI) :
    Spline.DegOk cfg (dI.map (dO.sum * ·)) := by
  intro p hp
  obtain ⟨q, hq, rfl⟩ := List.mem_map.mp hp
  exact h.result q hq

/-! ## C28 -/

/-- C28. A polynomial outer spline composed with a rational inner spline: the result is
rational, evaluates to `outer(inner(t))`, and its weight function is a power of the one
of the inner spline (so it is not zero where that one is not). -/
theorem C28_compose (cfg : Cfg) (hmax : cfg.maxBinom ≤ 68) (outer : Spline V) (inner : RSpline K W)
    (dO dI : List ℕ) (f : List K → V) (g : List K → W) (w : List K → K) (ho : outer.Computes dO f)
    (hi : inner.Computes dI g w) (hdim : dO.length = Coords.n K W) (hcube : inner.fitsIntoUnitCube = .ok true)
    (hf : ComposeFits cfg dO dI) :
    ∃ r, Spline.composeRational cfg outer inner = .ok r ∧
      r.Computes (dI.map (fun q => dO.sum * q)) (fun t => f (coordList K (g t))) (fun t => w t ^ dO.sum) := by
  have hod := ho.degrees_eq
  subst hod
  obtain ⟨n, n1, n2, n3, n4⟩ := composeNumeratorRational_ok (K := K) hmax ho.wf hi hf.sub hdim hf.outer hf.deg
  obtain ⟨d, d1, d2⟩ := C22_raise_power cfg hmax inner.wt dI w hi.wt_computes outer.degrees.sum hf.result
  refine ⟨⟨n, d⟩, ?_, RSpline.Computes.mk' n2 d2.wf n3 d2.degrees_eq (fun t ht => d2.value_eq ht) ?_⟩
  · unfold Spline.composeRational Spline.composeDenominator
    rw [hcube, n1, d1]
    exact RSpline.ofSplines_ok (by rw [n3, d2.degrees_eq])
  · intro t ht h0
    have ht' : t.length = dI.length := by simpa using ht
    simp only []
    rw [n4 t ht' h0, ho.value_eq (by rw [coordList_length, hdim])]

omit [IsStrictOrderedRing K] [LawfulScalarDiv K W] [LawfulCoords K W] [ScalarDiv K V] [LawfulScalarDiv K V] in
/-- C28. If the inner spline does not fit into the unit cube, an error is raised. -/
theorem C28_compose_throws (cfg : Cfg) (outer : Spline V) (inner : RSpline K W)
    (hcube : inner.fitsIntoUnitCube = .ok false) :
    Spline.composeRational cfg outer inner = .error .throws := by
  unfold Spline.composeRational
  rw [hcube]; rfl

/-! ## C29 -/

/-- C29. Rational outer spline, polynomial inner spline. -/
theorem C29_compose_polynomial (cfg : Cfg) (hmax : cfg.maxBinom ≤ 68) (outer : RSpline K V) (inner : Spline W)
    (dO dI : List ℕ) (f : List K → V) (wo : List K → K) (g : List K → W) (ho : outer.Computes dO f wo)
    (hi : inner.Computes dI g) (hdim : dO.length = Coords.n K W)
    (hcube : Spline.fitsIntoUnitCube K inner = .ok true) (hf : ComposeFits cfg dO dI) :
    ∃ r, RSpline.compose cfg outer inner = .ok r ∧
      r.Computes (dI.map (fun q => dO.sum * q)) (fun t => f (coordList K (g t)))
        (fun t => wo (coordList K (g t))) := by
  obtain ⟨n, n1, n2⟩ := C26_compose (K := K) cfg hmax outer.num inner dO dI _ g ho.num_computes hi hdim hcube
    hf.outer hf.result
  obtain ⟨d, d1, d2⟩ := C26_compose (K := K) cfg hmax outer.wt inner dO dI _ g ho.wt_computes hi hdim hcube
    hf.outer hf.result
  refine ⟨⟨n, d⟩, ?_, (RSpline.computes_of n2 d2).congr (fun _ _ => rfl) ?_⟩
  · unfold RSpline.compose
    rw [n1, d1]
    exact RSpline.ofSplines_ok (by rw [n2.degrees_eq, d2.degrees_eq])
  · intro t ht h0
    rw [ho.num_value (by rw [coordList_length, hdim]) h0, inv_smul_smul₀ h0]

omit [ScalarDiv K W] [LawfulScalarDiv K W] [ScalarDiv K V] [LawfulScalarDiv K V] in
/-- C29. A polynomial inner spline that leaves the unit cube raises an error. (The
overload for rational inner splines has no such check.) -/
theorem C29_compose_throws (cfg : Cfg) (outer : RSpline K V) (inner : Spline W) (hi : inner.WF)
    (hcube : Spline.fitsIntoUnitCube K inner = .ok false) :
    RSpline.compose cfg outer inner = .error .throws := by
  unfold RSpline.compose
  rw [C26_compose_throws cfg outer.num inner hi hcube]; rfl

/-- C29. Rational outer spline, rational inner spline: the result evaluates to
`outer(inner(t))` wherever the weight of `inner` at `t` and the weight of `outer` at
`inner(t)` are not zero. -/
theorem C29_compose_rational (cfg : Cfg) (hmax : cfg.maxBinom ≤ 68) (outer : RSpline K V) (inner : RSpline K W)
    (dO dI : List ℕ) (f : List K → V) (wo : List K → K) (g : List K → W) (w : List K → K)
    (ho : outer.Computes dO f wo) (hi : inner.Computes dI g w) (hdim : dO.length = Coords.n K W)
    (hf : ComposeFits cfg dO dI) :
    ∃ r, RSpline.composeRational cfg outer inner = .ok r ∧ r.num.WF ∧ r.wt.WF ∧
      r.num.degrees = dI.map (fun q => dO.sum * q) ∧ r.wt.degrees = dI.map (fun q => dO.sum * q) ∧
      ∀ t : List K, t.length = dI.length → w t ≠ 0 →
        r.wt.evaluate t = .ok (w t ^ dO.sum * wo (coordList K (g t))) ∧
        (wo (coordList K (g t)) ≠ 0 → r.evaluate t = .ok (f (coordList K (g t)))) := by
  have hnd := ho.num_degrees
  have hwd := ho.wt_degrees
  obtain ⟨n, n1, n2, n3, n4⟩ := composeNumeratorRational_ok (K := K) (s := outer.num) hmax ho.num_wf hi hf.sub
    (by unfold Spline.dim; rw [hnd, hdim]) (by rw [hnd]; exact hf.outer) (by rw [hnd]; exact hf.deg)
  obtain ⟨d, d1, d2, d3, d4⟩ := composeNumeratorRational_ok (K := K) (s := outer.wt) hmax ho.wt_wf hi hf.sub
    (by unfold Spline.dim; rw [hwd, hdim]) (by rw [hwd]; exact hf.outer) (by rw [hwd]; exact hf.deg)
  rw [hnd] at n3 n4
  rw [hwd] at d3 d4
  refine ⟨⟨n, d⟩, ?_, n2, d2, n3, d3, ?_⟩
  · unfold RSpline.composeRational
    rw [n1, d1]
    exact RSpline.ofSplines_ok (by rw [n3, d3])
  · intro t ht h0
    have hl : (coordList K (g t)).length = dO.length := by rw [coordList_length, hdim]
    have e := d4 t ht (pow_ne_zero _ h0)
    rw [ho.wt_value hl, smul_eq_mul] at e
    refine ⟨?_, fun h1 => ?_⟩
    · rw [Spline.evaluate_ok d2 (by unfold Spline.dim; rw [d3, List.length_map]; exact ht), e]
    · have hw : d.value t ≠ 0 := by rw [e]; exact mul_ne_zero (pow_ne_zero _ h0) h1
      rw [RSpline.evaluate_ok (r := ⟨n, d⟩) n2 d2 n3 d3 (by simpa using ht) hw, n4 t ht (pow_ne_zero _ h0), e,
        ho.num_value hl h1, smul_smul (w t ^ dO.sum), inv_smul_smul₀ (mul_ne_zero (pow_ne_zero _ h0) h1)]

/-! ## C30 -/

omit [IsStrictOrderedRing K] [LawfulScalarDiv K W] [LawfulCoords K W] [ScalarDiv K V] [LawfulScalarDiv K V] in
/-- C30. `ComposeSensitivity` of a polynomial outer spline raises an error if the rational inner spline does not fit into the unit
cube. -/
theorem C30_sensitivity_throws (cfg : Cfg) (outer : Spline V) (inner : RSpline K W)
    (hcube : inner.fitsIntoUnitCube = .ok false) :
    Spline.composeSensitivityRational cfg outer inner = .error .throws := by
  unfold Spline.composeSensitivityRational
  rw [hcube]; rfl

omit [ScalarDiv K W] [LawfulScalarDiv K W] [ScalarDiv K V] [LawfulScalarDiv K V] in
/-- C30. `ComposeSensitivity` of a rational outer spline raises an error if the polynomial inner spline leaves the unit cube. -/
theorem C30_rational_sensitivity_throws (cfg : Cfg) (outer : RSpline K V) (inner : Spline W) (hi : inner.WF)
    (hcube : Spline.fitsIntoUnitCube K inner = .ok false) :
    RSpline.composeSensitivity cfg outer inner = .error .throws := by
  unfold RSpline.composeSensitivity
  rw [C27_sensitivity_throws cfg outer.num inner hi hcube]; rfl

omit [ScalarDiv K V] [LawfulScalarDiv K V] in
/-- C30. `ComposeSensitivity` of a polynomial outer and a rational inner spline: one
rational scalar spline per control point; the one of multi-index `idx` evaluates to
`B_idx(inner(t))`, the derivative of `outer(inner(t))` by that control point. -/
theorem C30_sensitivity (cfg : Cfg) (hmax : cfg.maxBinom ≤ 68) (outer : Spline V) (inner : RSpline K W)
    (dI : List ℕ) (g : List K → W) (w : List K → K) (ho : outer.WF)
    (hi : inner.Computes dI g w) (hdim : outer.dim = Coords.n K W) (hcube : inner.fitsIntoUnitCube = .ok true)
    (hf : ComposeFits cfg outer.degrees dI) :
    ∃ l, Spline.composeSensitivityRational cfg outer inner = .ok l ∧ l.length = outer.ncp ∧
      ∀ idx, ValidIdx outer.degrees idx → ∃ n r, outer.globalToLocal idx = .ok n ∧ l[n]? = some r ∧
        r.Computes (dI.map (fun q => outer.degrees.sum * q))
          (fun t => bernProd outer.degrees idx (coordList K (g t))) (fun t => w t ^ outer.degrees.sum) := by
  obtain ⟨l, l1, l2, l3⟩ := composeNumeratorSensitivityRational_ok (K := K) hmax ho hi hf.sub hdim hf.outer hf.deg
  obtain ⟨d, d1, d2⟩ := C22_raise_power cfg hmax inner.wt dI w hi.wt_computes outer.degrees.sum hf.result
  obtain ⟨m, m1, m2, m3⟩ := loop_push (n := size outer.degrees)
    (f := fun i ret => do
      let n ← rd l i
      let q ← RSpline.ofSplines n d
      pure (ret ++ [q]))
    (P := fun n r => r.Computes (dI.map (fun q => outer.degrees.sum * q))
      (fun t => pw (bernFns outer.degrees (coordList K (g t))) (unflat outer.degrees n))
      (fun t => w t ^ outer.degrees.sum)) (by
      intro i hi
      obtain ⟨r, r1, r2, r3, r4⟩ := l3 i hi
      refine ⟨⟨r, d⟩, RSpline.Computes.mk' r2 d2.wf r3 d2.degrees_eq (fun t ht => d2.value_eq ht) ?_, ?_⟩
      · intro t ht h0
        exact r4 t (by simpa using ht) h0
      · intro ret
        rw [rd_ok r1]
        simp only [bind_ok]
        rw [RSpline.ofSplines_ok (by rw [r3, d2.degrees_eq])]
        rfl)
  refine ⟨m, ?_, by rw [m2, ho.ncp_eq], ?_⟩
  · unfold Spline.composeSensitivityRational Spline.composeDenominator
    rw [hcube, l1, d1, ho.ncp_eq]
    exact m1
  · intro idx hidx
    obtain ⟨r, r1, r2⟩ := m3 _ (flatIndex_lt hidx)
    refine ⟨_, r, Spline.globalToLocal_ok ho hidx.length, r1, r2.congr (fun _ _ => rfl) fun t _ _ => ?_⟩
    rw [unflat_flatIndex hidx, pw_bernFns hidx.length (by rw [coordList_length, ← hdim]; rfl)]

omit [ScalarDiv K V] [LawfulScalarDiv K V] in
theorem ofNat_idx {V : Type} {s : Spline V} (ho : s.WF) {n : ℕ} (hn : n < size s.degrees) :
    ∃ idx, ValidIdx s.degrees idx ∧ s.globalToLocal idx = .ok n ∧ unflat s.degrees n = idx :=
  ⟨unflat s.degrees n, unflat_valid _ _, by
    rw [Spline.globalToLocal_ok ho (unflat_valid _ _).length, flatIndex_unflat hn], rfl⟩

/-- C30. The composed spline is the sum of control point times sensitivity, and the
sensitivities do not depend on the control points. -/
theorem C30_sensitivity_sum (cfg : Cfg) (hmax : cfg.maxBinom ≤ 68) (outer : Spline V) (inner : RSpline K W)
    (dI : List ℕ) (g : List K → W) (w : List K → K) (ho : outer.WF)
    (hi : inner.Computes dI g w) (hdim : outer.dim = Coords.n K W) (hcube : inner.fitsIntoUnitCube = .ok true)
    (hf : ComposeFits cfg outer.degrees dI) :
    ∃ r l, Spline.composeRational cfg outer inner = .ok r ∧
      (∀ cps : List V, Spline.composeSensitivityRational cfg { outer with cps := cps } inner = .ok l) ∧
      ∀ t : List K, t.length = dI.length → w t ≠ 0 → ∃ b : List K,
        List.Forall₂ (fun (q : RSpline K K) x => q.evaluate t = .ok x) l b ∧
        r.evaluate t = .ok (List.zipWith (fun x c => x • c) b outer.cps).sum := by
  obtain ⟨r, r1, r2⟩ := C28_compose (K := K) cfg hmax outer inner _ dI _ g w ho.computes hi hdim hcube hf
  obtain ⟨l, l1, l2, l3⟩ := C30_sensitivity (K := K) cfg hmax outer inner dI g w ho hi hdim hcube hf
  refine ⟨r, l, r1, fun cps => l1, ?_⟩
  intro t ht h0
  set c := coordList K (g t) with hc
  have hcl : c.length = outer.degrees.length := by rw [hc, coordList_length, ← hdim]; rfl
  have h0' : w t ^ outer.degrees.sum ≠ 0 := pow_ne_zero _ h0
  refine ⟨tab (size outer.degrees) (fun n => pw (bernFns outer.degrees c) (unflat outer.degrees n)),
    forall₂_tab (by rw [l2, ho.ncp_eq]) ?_, ?_⟩
  · intro n hn
    obtain ⟨idx, i1, i2, i3⟩ := ofNat_idx ho hn
    obtain ⟨n', q, q1, q2, q3⟩ := l3 idx i1
    rw [i2] at q1; injection q1 with q1; subst q1
    refine ⟨q, q2, ?_⟩
    rw [q3.eval t (by simpa using ht) h0', i3, pw_bernFns i1.length hcl]
  · rw [r2.eval t (by simpa using ht) h0']
    congr 1
    conv_rhs => rw [ho.cps_tab, zipWith_tab, list_sum_tab, sum_pw _ (Spline.bernFns_length hcl), ← neval_eq_tens]
    rfl

/-- C30. `ComposeSensitivity` of a rational outer and a polynomial inner spline: the
spline for the control point with multi-index `idx` and weight `c` evaluates to the
rational basis function `c B_idx / (∑ …)` at `inner(t)`. -/
theorem C30_rational_sensitivity (cfg : Cfg) (hmax : cfg.maxBinom ≤ 68) (outer : RSpline K V) (inner : Spline W)
    (dO dI : List ℕ) (f : List K → V) (wo : List K → K) (g : List K → W) (ho : outer.Computes dO f wo)
    (hi : inner.Computes dI g) (hdim : dO.length = Coords.n K W)
    (hcube : Spline.fitsIntoUnitCube K inner = .ok true) (hf : ComposeFits cfg dO dI) :
    ∃ l, RSpline.composeSensitivity cfg outer inner = .ok l ∧ l.length = outer.wt.ncp ∧
      ∀ idx, ValidIdx dO idx → ∃ n c r, outer.wt.globalToLocal idx = .ok n ∧ outer.weight idx = .ok c ∧
        l[n]? = some r ∧ r.Computes (dI.map (fun q => dO.sum * q))
          (fun t => c * bernProd dO idx (coordList K (g t)) / wo (coordList K (g t)))
          (fun t => wo (coordList K (g t))) := by
  have hnd := ho.num_degrees
  have hwd := ho.wt_degrees
  obtain ⟨l, l1, l2, l3⟩ := C27_sensitivity (K := K) cfg hmax outer.num inner dI g ho.num_wf hi
    (by unfold Spline.dim; rw [hnd, hdim]) hcube (by rw [hnd]; exact hf.outer) (by rw [hnd]; exact hf.result)
  obtain ⟨d, d1, d2⟩ := C26_compose (K := K) cfg hmax outer.wt inner dO dI _ g ho.wt_computes hi hdim hcube
    hf.outer hf.result
  rw [hnd] at l3
  have hncp : l.length = size dO := by rw [l2, ho.num_wf.ncp_eq, hnd]
  obtain ⟨m, m1, m2, m3⟩ := loop_push (n := l.length)
    (f := fun i ret => do
      let n ← rd l i
      let w ← rd outer.wt.cps i
      let n ← n.smulOp w
      let q ← RSpline.ofSplines n d
      pure (ret ++ [q]))
    (P := fun n r => r.Computes (dI.map (fun q => dO.sum * q))
      (fun t => outer.wt.cps.getD n 0 * bernProd dO (unflat dO n) (coordList K (g t)) / wo (coordList K (g t)))
      (fun t => wo (coordList K (g t)))) (by
      intro i hil
      rw [hncp] at hil
      obtain ⟨idx, i1, i2, i3⟩ := ofNat_idx ho.num_wf (n := i) (by rw [hnd]; exact hil)
      rw [hnd] at i1 i3
      obtain ⟨n', r, r1, r2, r3⟩ := l3 idx i1
      rw [i2] at r1; injection r1 with r1; subst r1
      obtain ⟨e, e1, e2⟩ := C20_scale (K := K) r _ _ r3 (outer.wt.cps.getD i 0)
      refine ⟨⟨e, d⟩, (RSpline.computes_of e2 d2).congr (fun _ _ => rfl) ?_, ?_⟩
      · intro t ht h0
        simp only [i3, smul_eq_mul]
        rw [div_eq_inv_mul]
      · intro ret
        rw [rd_ok r2]
        simp only [bind_ok]
        rw [rd_ok (x := outer.wt.cps.getD i 0) (by
          rw [List.getD_eq_getElem?_getD, List.getElem?_eq_getElem (by rw [ho.wt_wf.cps_len, hwd]; exact hil)]; rfl)]
        simp only [bind_ok]
        rw [e1]
        simp only [bind_ok]
        rw [RSpline.ofSplines_ok (by rw [e2.degrees_eq, d2.degrees_eq])]
        rfl)
  refine ⟨m, ?_, by rw [m2, hncp, ho.wt_wf.ncp_eq, hwd], ?_⟩
  · unfold RSpline.composeSensitivity RSpline.rescaleSensitivities
    rw [l1, d1]
    exact m1
  · intro idx hidx
    have hidx' : ValidIdx outer.wt.degrees idx := by rw [hwd]; exact hidx
    obtain ⟨r, r1, r2⟩ := m3 (flatIndex dO idx) (by rw [hncp]; exact flatIndex_lt hidx)
    refine ⟨_, _, r, Spline.globalToLocal_ok ho.wt_wf hidx'.length, Spline.controlPoint_ok ho.wt_wf hidx',
      by rw [hwd]; exact r1, r2.congr (fun _ _ => rfl) fun t _ _ => ?_⟩
    rw [unflat_flatIndex hidx]
    unfold Spline.net
    rw [hwd]

/-- C30. `ComposeSensitivity` of a rational outer and a rational inner spline. -/
theorem C30_rational_sensitivity_rational (cfg : Cfg) (hmax : cfg.maxBinom ≤ 68) (outer : RSpline K V)
    (inner : RSpline K W) (dO dI : List ℕ) (f : List K → V) (wo : List K → K) (g : List K → W) (w : List K → K)
    (ho : outer.Computes dO f wo) (hi : inner.Computes dI g w) (hdim : dO.length = Coords.n K W)
    (hf : ComposeFits cfg dO dI) :
    ∃ l, RSpline.composeSensitivityRational cfg outer inner = .ok l ∧ l.length = outer.wt.ncp ∧
      ∀ idx, ValidIdx dO idx → ∃ n c r, outer.wt.globalToLocal idx = .ok n ∧ outer.weight idx = .ok c ∧
        l[n]? = some r ∧ r.num.WF ∧ r.wt.WF ∧
        r.num.degrees = dI.map (fun q => dO.sum * q) ∧ r.wt.degrees = dI.map (fun q => dO.sum * q) ∧
        ∀ t : List K, t.length = dI.length → w t ≠ 0 → wo (coordList K (g t)) ≠ 0 →
          r.evaluate t = .ok (c * bernProd dO idx (coordList K (g t)) / wo (coordList K (g t))) := by
  have hnd := ho.num_degrees
  have hwd := ho.wt_degrees
  obtain ⟨l, l1, hncp, l3⟩ := composeNumeratorSensitivityRational_ok (K := K) (s := outer.num) hmax ho.num_wf hi
    hf.sub (by unfold Spline.dim; rw [hnd, hdim]) (by rw [hnd]; exact hf.outer) (by rw [hnd]; exact hf.deg)
  obtain ⟨d, d1, d2, d3, d4⟩ := composeNumeratorRational_ok (K := K) (s := outer.wt) hmax ho.wt_wf hi hf.sub
    (by unfold Spline.dim; rw [hwd, hdim]) (by rw [hwd]; exact hf.outer) (by rw [hwd]; exact hf.deg)
  rw [hnd] at l3 hncp
  rw [hwd] at d3 d4
  obtain ⟨m, m1, m2, m3⟩ := loop_push (n := l.length)
    (f := fun i ret => do
      let n ← rd l i
      let w ← rd outer.wt.cps i
      let n ← n.smulOp w
      let q ← RSpline.ofSplines n d
      pure (ret ++ [q]))
    (P := fun n r => r.num.WF ∧ r.wt.WF ∧
        r.num.degrees = dI.map (fun q => dO.sum * q) ∧ r.wt.degrees = dI.map (fun q => dO.sum * q) ∧
        ∀ t : List K, t.length = dI.length → w t ≠ 0 → wo (coordList K (g t)) ≠ 0 →
          r.evaluate t = .ok (outer.wt.cps.getD n 0 * bernProd dO (unflat dO n) (coordList K (g t)) /
            wo (coordList K (g t)))) (by
      intro i hil
      rw [hncp] at hil
      obtain ⟨r, r2, r3, r4, r5⟩ := l3 i hil
      obtain ⟨e, e1, e2⟩ := C20_scale (K := K) r _ _ r3.computes (outer.wt.cps.getD i 0)
      have e3 : e.degrees = dI.map (fun q => dO.sum * q) := by rw [e2.degrees_eq, r4]
      refine ⟨⟨e, d⟩, ⟨e2.wf, d2, e3, d3, ?_⟩, ?_⟩
      · intro t ht h0 h1
        have hl : (coordList K (g t)).length = dO.length := by rw [coordList_length, hdim]
        have e := d4 t ht (pow_ne_zero _ h0)
        rw [ho.wt_value hl, smul_eq_mul] at e
        have hne := pow_ne_zero dO.sum h0
        rw [RSpline.evaluate_ok (r := ⟨_, d⟩) e2.wf d2 e3 d3 (by simpa using ht)
          (by simp only []; rw [e]; exact mul_ne_zero hne h1), e, e2.value_eq (by rw [r4]; simpa using ht),
          r5 t ht hne, pw_bernFns (unflat_valid dO i).length hl]
        congr 1
        simp only [smul_eq_mul]
        field_simp
      · intro ret
        rw [rd_ok r2]
        simp only [bind_ok]
        rw [rd_ok (x := outer.wt.cps.getD i 0) (by
          rw [List.getD_eq_getElem?_getD, List.getElem?_eq_getElem (by rw [ho.wt_wf.cps_len, hwd]; exact hil)]; rfl)]
        simp only [bind_ok]
        rw [e1]
        simp only [bind_ok]
        rw [RSpline.ofSplines_ok (by rw [e3, d3])]
        rfl)
  refine ⟨m, ?_, by rw [m2, hncp, ho.wt_wf.ncp_eq, hwd], ?_⟩
  · unfold RSpline.composeSensitivityRational RSpline.rescaleSensitivities
    rw [l1, d1]
    exact m1
  · intro idx hidx
    have hidx' : ValidIdx outer.wt.degrees idx := by rw [hwd]; exact hidx
    obtain ⟨r, r1, r2, r3, r4, r5, r6⟩ := m3 (flatIndex dO idx) (by rw [hncp]; exact flatIndex_lt hidx)
    refine ⟨_, _, r, Spline.globalToLocal_ok ho.wt_wf hidx'.length, Spline.controlPoint_ok ho.wt_wf hidx',
      by rw [hwd]; exact r1, r2, r3, r4, r5, fun t ht h0 h1 => ?_⟩
    rw [r6 t ht h0 h1, unflat_flatIndex hidx]
    unfold Spline.net
    rw [hwd]

/-- the rational function is the sum of unweighted control point times rational basis
function -/
theorem sum_rational {outer : RSpline K V} {dO : List ℕ} {f : List K → V} {wo : List K → K}
    (ho : outer.Computes dO f wo) {x : List K} (hx : x.length = dO.length) (h0 : wo x ≠ 0) {P : List V}
    (hl : P.length = outer.num.ncp) (hP : List.zipWith (fun (c : K) p => c • p) outer.wt.cps P = outer.num.cps) :
    (List.zipWith (fun b p => b • p)
      (tab (size dO) (fun n => outer.wt.cps.getD n 0 * pw (bernFns dO x) (unflat dO n) / wo x)) P).sum = f x := by
  have hPl : P.length = size dO := by rw [hl, ho.num_wf.ncp_eq, ho.num_degrees]
  have hP' : P = tab (size dO) (fun n => P.getD n 0) := by
    refine eq_tab_of _ hPl ?_
    intro i hi
    rw [List.getD_eq_getElem?_getD, List.getElem?_eq_getElem (by omega)]; rfl
  have hn := ho.num_wf.cps_tab
  have hw := ho.wt_wf.cps_tab
  have hcp : ∀ n, n < size dO → outer.num.cps.getD n 0 = outer.wt.cps.getD n 0 • P.getD n 0 := by
    intro n hn
    have h1 : n < outer.wt.cps.length := by rw [ho.wt_wf.cps_len, ho.wt_degrees]; exact hn
    have h2 : n < P.length := by omega
    rw [← hP]
    simp [List.getElem?_zipWith, List.getElem?_eq_getElem h1, List.getElem?_eq_getElem h2]
  have hf : f x = (wo x)⁻¹ • outer.num.value x := by rw [ho.num_value hx h0, inv_smul_smul₀ h0]
  rw [hf]
  conv_lhs => rw [hP', zipWith_tab, list_sum_tab]
  have hv : outer.num.value x = ∑ n ∈ range (size dO), pw (bernFns dO x) (unflat dO n) • outer.num.cps.getD n 0 := by
    rw [sum_pw _ (Spline.bernFns_length hx), ← neval_eq_tens, ← ho.num_degrees]; rfl
  rw [hv, Finset.smul_sum]
  apply Finset.sum_congr rfl
  intro n hn
  rw [hcp n (by simpa using hn), smul_smul, smul_smul]
  congr 1
  rw [div_eq_inv_mul]; ring

/-- C30. Rational outer spline: the composition is the sum of (unweighted) control
point times sensitivity; the sensitivities depend on the weights and degrees only. -/
theorem C30_rational_sum (cfg : Cfg) (hmax : cfg.maxBinom ≤ 68) (outer : RSpline K V) (inner : Spline W)
    (dO dI : List ℕ) (f : List K → V) (wo : List K → K) (g : List K → W) (ho : outer.Computes dO f wo)
    (hi : inner.Computes dI g) (hdim : dO.length = Coords.n K W)
    (hcube : Spline.fitsIntoUnitCube K inner = .ok true) (hf : ComposeFits cfg dO dI) (P : List V)
    (hl : P.length = outer.num.ncp) (hP : List.zipWith (fun (c : K) p => c • p) outer.wt.cps P = outer.num.cps) :
    ∃ r l, RSpline.compose cfg outer inner = .ok r ∧
      (∀ cps : List V, RSpline.composeSensitivity cfg ⟨{ outer.num with cps := cps }, outer.wt⟩ inner = .ok l) ∧
      ∀ t : List K, t.length = dI.length → wo (coordList K (g t)) ≠ 0 → ∃ b : List K,
        List.Forall₂ (fun (q : RSpline K K) x => q.evaluate t = .ok x) l b ∧
        r.evaluate t = .ok (List.zipWith (fun x p => x • p) b P).sum := by
  obtain ⟨r, r1, r2⟩ := C29_compose_polynomial (K := K) cfg hmax outer inner dO dI f wo g ho hi hdim hcube hf
  obtain ⟨l, l1, l2, l3⟩ := C30_rational_sensitivity (K := K) cfg hmax outer inner dO dI f wo g ho hi hdim hcube hf
  have hwd := ho.wt_degrees
  refine ⟨r, l, r1, fun cps => l1, ?_⟩
  intro t ht h0
  have hcl : (coordList K (g t)).length = dO.length := by rw [coordList_length, hdim]
  refine ⟨_, forall₂_tab (n := size dO) (by rw [l2, ho.wt_wf.ncp_eq, hwd]) ?_,
    by rw [r2.eval t (by simpa using ht) h0, ← sum_rational ho hcl h0 hl hP]⟩
  intro n hn
  obtain ⟨idx, i1, i2, i3⟩ := ofNat_idx ho.wt_wf (n := n) (by rw [hwd]; exact hn)
  rw [hwd] at i1 i3
  obtain ⟨n', c, q, q1, q2, q3, q4⟩ := l3 idx i1
  rw [i2] at q1; injection q1 with q1; subst q1
  refine ⟨q, q3, ?_⟩
  have hc : c = outer.wt.cps.getD n 0 := by
    have := Spline.controlPoint_ok ho.wt_wf (idx := idx) (by rw [hwd]; exact i1)
    unfold RSpline.weight at q2
    rw [this] at q2; injection q2 with q2
    rw [← q2, ← i3]
    unfold Spline.net
    rw [hwd, flatIndex_unflat hn]
  rw [q4.eval t (by simpa using ht) h0, i3, pw_bernFns i1.length hcl, hc]

/-- C30. The same for a rational inner spline. -/
theorem C30_rational_sum_rational (cfg : Cfg) (hmax : cfg.maxBinom ≤ 68) (outer : RSpline K V)
    (inner : RSpline K W) (dO dI : List ℕ) (f : List K → V) (wo : List K → K) (g : List K → W) (w : List K → K)
    (ho : outer.Computes dO f wo) (hi : inner.Computes dI g w) (hdim : dO.length = Coords.n K W)
    (hf : ComposeFits cfg dO dI) (P : List V)
    (hl : P.length = outer.num.ncp) (hP : List.zipWith (fun (c : K) p => c • p) outer.wt.cps P = outer.num.cps) :
    ∃ r l, RSpline.composeRational cfg outer inner = .ok r ∧
      (∀ cps : List V, RSpline.composeSensitivityRational cfg ⟨{ outer.num with cps := cps }, outer.wt⟩ inner = .ok l) ∧
      ∀ t : List K, t.length = dI.length → w t ≠ 0 → wo (coordList K (g t)) ≠ 0 → ∃ b : List K,
        List.Forall₂ (fun (q : RSpline K K) x => q.evaluate t = .ok x) l b ∧
        r.evaluate t = .ok (List.zipWith (fun x p => x • p) b P).sum := by
  obtain ⟨r, r1, _, _, _, _, r2⟩ := C29_compose_rational (K := K) cfg hmax outer inner dO dI f wo g w ho hi hdim hf
  obtain ⟨l, l1, l2, l3⟩ := C30_rational_sensitivity_rational (K := K) cfg hmax outer inner dO dI f wo g w ho hi hdim hf
  have hwd := ho.wt_degrees
  refine ⟨r, l, r1, fun cps => l1, ?_⟩
  intro t ht hw0 h0
  have hcl : (coordList K (g t)).length = dO.length := by rw [coordList_length, hdim]
  refine ⟨_, forall₂_tab (n := size dO) (by rw [l2, ho.wt_wf.ncp_eq, hwd]) ?_,
    by rw [(r2 t ht hw0).2 h0, ← sum_rational ho hcl h0 hl hP]⟩
  intro n hn
  obtain ⟨idx, i1, i2, i3⟩ := ofNat_idx ho.wt_wf (n := n) (by rw [hwd]; exact hn)
  rw [hwd] at i1 i3
  obtain ⟨n', c, q, q1, q2, q3, _, _, _, _, q4⟩ := l3 idx i1
  rw [i2] at q1; injection q1 with q1; subst q1
  refine ⟨q, q3, ?_⟩
  have hc : c = outer.wt.cps.getD n 0 := by
    have := Spline.controlPoint_ok ho.wt_wf (idx := idx) (by rw [hwd]; exact i1)
    unfold RSpline.weight at q2
    rw [this] at q2; injection q2 with q2
    rw [← q2, ← i3]
    unfold Spline.net
    rw [hwd, flatIndex_unflat hn]
  rw [q4 t ht hw0 h0, i3, pw_bernFns i1.length hcl, hc]

end

/-! ### concrete cases -/

theorem cfits : ComposeFits Ex.cfg [2, 1] [2, 1] := ⟨by decide, by decide, by decide, by decide, by decide⟩

example : ∃ r, Spline.composeRational Ex.cfg Ex.P RQ = .ok r ∧ r.Computes [6, 3]
    (fun t : List ℚ => Ex.P.value (coordList ℚ ((RQ.wt.value t)⁻¹ • RQ.num.value t))) (fun t => RQ.wt.value t ^ 3) :=
  C28_compose (K := ℚ) Ex.cfg Ex.cfg_ok Ex.P RQ _ _ _ _ _ Ex.P_wf.computes RQ_computes rfl RQ_fits cfits

/-- `R` leaves the unit cube -/
theorem R_not_fits : R.fitsIntoUnitCube = .ok false := by
  obtain ⟨b, h1, h2⟩ := C44_fits_iff (K := ℚ) R _ _ _ R_computes (fun c hc => (R_pos c hc).ne')
  cases b with
  | false => exact h1
  | true =>
    have := (h2.mp rfl) [2, 1] (Ex.pt 2 2) (by simp [ValidIdx]) C37_variadic_fails.1 (0 : Fin 2)
    simp [Ex.pt, Coords.coord] at this

example : Spline.composeRational Ex.cfg Ex.P R = .error .throws :=
  C28_compose_throws (K := ℚ) Ex.cfg Ex.P R R_not_fits

example : ∃ r, RSpline.compose Ex.cfg R Q = .ok r ∧ r.Computes [6, 3]
    (fun t : List ℚ => (R.wt.value (coordList ℚ (Q.value t)))⁻¹ • R.num.value (coordList ℚ (Q.value t)))
    (fun t => R.wt.value (coordList ℚ (Q.value t))) :=
  C29_compose_polynomial (K := ℚ) Ex.cfg Ex.cfg_ok R Q _ _ _ _ _ R_computes Q_wf.computes rfl Q_fits cfits

example : ∃ r, RSpline.composeRational Ex.cfg R RQ = .ok r ∧ r.wt.degrees = [6, 3] := by
  obtain ⟨r, h1, _, _, _, h2, _⟩ := C29_compose_rational (K := ℚ) Ex.cfg Ex.cfg_ok R RQ _ _ _ _ _ _ R_computes
    RQ_computes rfl cfits
  exact ⟨r, h1, h2⟩

/-- the weights in the hypotheses of C29 and C30 are not zero at a concrete parameter -/
example : RQ.wt.value [(1 : ℚ), 0] ≠ 0 ∧
    R.wt.value (coordList ℚ ((RQ.wt.value [(1 : ℚ), 0])⁻¹ • RQ.num.value [(1 : ℚ), 0])) ≠ 0 := by
  constructor
  · have e : RQ.wt.value [(1 : ℚ), 0] = 1 := by
      simp [RQ, Ex.surf, Spline.value, bezier, bern, Finset.sum_range_succ, flatIndex]
    rw [e]; norm_num
  · have e : RQ.wt.value [(1 : ℚ), 0] = 1 := by
      simp [RQ, Ex.surf, Spline.value, bezier, bern, Finset.sum_range_succ, flatIndex]
    have e2 : RQ.num.value [(1 : ℚ), 0] = Ex.pt 1 1 := by
      simp [RQ, Ex.surf, Spline.value, bezier, bern, Finset.sum_range_succ, flatIndex]
    rw [e, e2]
    have e3 : coordList ℚ ((1 : ℚ)⁻¹ • Ex.pt 1 1) = [1, 1] := by
      rw [inv_one, one_smul]; rfl
    rw [e3]
    simp [R, Ex.surf, Spline.value, bezier, bern, Finset.sum_range_succ, flatIndex]

example : ∃ r l, RSpline.compose Ex.cfg R Q = .ok r ∧ RSpline.composeSensitivity Ex.cfg R Q = .ok l ∧
    ∀ t : List ℚ, t.length = 2 → R.wt.value (coordList ℚ (Q.value t)) ≠ 0 → ∃ b : List ℚ,
        List.Forall₂ (fun (q : RSpline ℚ ℚ) x => q.evaluate t = .ok x) l b ∧
        r.evaluate t = .ok (List.zipWith (fun x p => x • p) b
          [Ex.pt 0 0, Ex.pt 1 0, Ex.pt 2 1, Ex.pt 0 3, Ex.pt 1 2, Ex.pt 2 2]).sum := by
  obtain ⟨r, l, h1, h2, h3⟩ := C30_rational_sum (K := ℚ) Ex.cfg Ex.cfg_ok R Q _ _ _ _ _ R_computes Q_wf.computes rfl
    Q_fits cfits [Ex.pt 0 0, Ex.pt 1 0, Ex.pt 2 1, Ex.pt 0 3, Ex.pt 1 2, Ex.pt 2 2] rfl (by
      simp only [R, Ex.surf, Ex.pt, List.zipWith, List.cons.injEq, and_true]
      refine ⟨?_, ?_, ?_, ?_, ?_, ?_⟩ <;> (refine Point.ext ?_; funext j; fin_cases j) <;> norm_num)
  exact ⟨r, l, h1, h2 _, h3⟩

example : RSpline.compose Ex.cfg R Ex.P = .error .throws :=
  C29_compose_throws (K := ℚ) Ex.cfg R Ex.P Ex.P_wf P_not_fits

end Bezman.Props
