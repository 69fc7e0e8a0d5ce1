import Verif.Proofs.Sensitivity
import Verif.Props.RationalCompose

/-! # Properties: sensitivities are derivatives with respect to the control points

Stated without basis functions.  Control point `n` of the outer spline is moved by an
arbitrary vector `v`, both compositions are evaluated, and the difference is the value
of the `n`-th sensitivity times `v`, exactly and for every `v`. -/

namespace Bezman.Props
open Spec Finset

section
variable {K V W : Type} [Field K] [LinearOrder K] [IsStrictOrderedRing K] [AddCommGroup V] [Module K V]
  [AddCommGroup W] [Module K W] [Coords K W] [LawfulCoords K W]

/-- C27. Moving control point `n` of `outer` by `v` moves the value of the composition by
the value of sensitivity `n` times `v`. -/
theorem C27_derivative (cfg : Cfg) (hmax : cfg.maxBinom ≤ 68) (outer : Spline V) (inner : Spline W)
    (ho : outer.WF) (hi : inner.WF)
    (hdim : outer.dim = Coords.n K W) (hcube : Spline.fitsIntoUnitCube K inner = .ok true)
    (hdeg : ∀ p ∈ outer.degrees, p < cfg.maxBinom)
    (hdeg' : ∀ q ∈ inner.degrees, outer.degrees.sum * q < cfg.maxBinom)
    (n : ℕ) (x v : V) (hx : outer.cps[n]? = some x) :
    ∃ r r' l q, Spline.compose K cfg outer inner = .ok r ∧
      Spline.compose K cfg { outer with cps := outer.cps.set n (x + v) } inner = .ok r' ∧
      Spline.composeSensitivity K cfg outer inner = .ok l ∧ l[n]? = some q ∧
      ∀ t : List K, t.length = inner.dim → ∃ y b, r.evaluate t = .ok y ∧ q.evaluate t = .ok b ∧
        r'.evaluate t = .ok (y + b • v) := by
  have hn : n < size outer.degrees := by
    have := (List.getElem?_eq_some_iff.mp hx).1
    rwa [ho.cps_len] at this
  obtain ⟨idx, i1, i2, i3⟩ := ofNat_idx ho hn
  have hnf : flatIndex outer.degrees idx = n := by
    rw [Spline.globalToLocal_ok ho i1.length] at i2; injection i2
  have hg : ∀ t : List K, t.length = inner.dim →
      (coordList K (inner.value t)).length = outer.dim := fun t _ => by rw [coordList_length, hdim]
  have ho' := Spline.wf_set ho n (x + v)
  obtain ⟨r, r1, r2⟩ := C26_compose (K := K) cfg hmax outer inner _ _ _ _ ho.computes hi.computes hdim hcube
    hdeg hdeg'
  obtain ⟨r', r1', r2'⟩ := C26_compose (K := K) cfg hmax _ inner _ _ _ _ ho'.computes hi.computes hdim hcube
    hdeg hdeg'
  obtain ⟨l, l1, l2, l3⟩ := C27_sensitivity (K := K) cfg hmax outer inner _ _ ho hi.computes hdim hcube hdeg hdeg'
  obtain ⟨n', q, q1, q2, q3⟩ := l3 idx i1
  rw [i2] at q1; injection q1 with q1; subst q1
  refine ⟨r, r', l, q, r1, r1', l1, q2, fun t ht => ?_⟩
  have ht' : t.length = inner.degrees.length := ht
  refine ⟨_, _, r2.eval t (by simpa using ht'), q3.eval t (by simpa using ht'), ?_⟩
  rw [r2'.eval t (by simpa using ht')]
  congr 1
  have := Spline.value_set (K := K) (v := v) ho i1 (by rw [hnf]; exact hx) (hg t ht)
  rw [hnf] at this
  exact this

variable [ScalarDiv K V] [LawfulScalarDiv K V] [ScalarDiv K W] [LawfulScalarDiv K W]

/-- C30. The same for a rational inner spline. -/
theorem C30_derivative (cfg : Cfg) (hmax : cfg.maxBinom ≤ 68) (outer : Spline V) (inner : RSpline K W)
    (dI : List ℕ) (g : List K → W) (w : List K → K) (ho : outer.WF)
    (hi : inner.Computes dI g w) (hdim : outer.dim = Coords.n K W) (hcube : inner.fitsIntoUnitCube = .ok true)
    (hf : ComposeFits cfg outer.degrees dI) (n : ℕ) (x v : V) (hx : outer.cps[n]? = some x) :
    ∃ r r' l q, Spline.composeRational cfg outer inner = .ok r ∧
      Spline.composeRational cfg { outer with cps := outer.cps.set n (x + v) } inner = .ok r' ∧
      Spline.composeSensitivityRational cfg outer inner = .ok l ∧ l[n]? = some q ∧
      ∀ t : List K, t.length = dI.length → w t ≠ 0 → ∃ y b, r.evaluate t = .ok y ∧ q.evaluate t = .ok b ∧
        r'.evaluate t = .ok (y + b • v) := by
  have hn : n < size outer.degrees := by
    have := (List.getElem?_eq_some_iff.mp hx).1
    rwa [ho.cps_len] at this
  obtain ⟨idx, i1, i2, i3⟩ := ofNat_idx ho hn
  have hnf : flatIndex outer.degrees idx = n := by
    rw [Spline.globalToLocal_ok ho i1.length] at i2; injection i2
  have ho' := Spline.wf_set ho n (x + v)
  obtain ⟨r, r1, r2⟩ := C28_compose (K := K) cfg hmax outer inner _ _ _ _ _ ho.computes hi hdim hcube hf
  obtain ⟨r', r1', r2'⟩ := C28_compose (K := K) cfg hmax _ inner _ _ _ _ _ ho'.computes hi hdim hcube hf
  obtain ⟨l, l1, l2, l3⟩ := C30_sensitivity (K := K) cfg hmax outer inner _ _ _ ho hi hdim hcube hf
  obtain ⟨n', q, q1, q2, q3⟩ := l3 idx i1
  rw [i2] at q1; injection q1 with q1; subst q1
  refine ⟨r, r', l, q, r1, r1', l1, q2, fun t ht h0 => ?_⟩
  have h0' : w t ^ outer.degrees.sum ≠ 0 := pow_ne_zero _ h0
  refine ⟨_, _, r2.eval t (by simpa using ht) h0', q3.eval t (by simpa using ht) h0', ?_⟩
  rw [r2'.eval t (by simpa using ht) h0']
  congr 1
  have := Spline.value_set (K := K) (v := v) ho i1 (by rw [hnf]; exact hx)
    (t := coordList K (g t)) (by rw [coordList_length, hdim])
  rw [hnf] at this
  exact this

omit [LinearOrder K] [IsStrictOrderedRing K] in
/-- the rational function after a control point of weight `c` was moved by `v` -/
theorem rational_set [DecidableEq K] {outer : RSpline K V} {dO : List ℕ} {f : List K → V} {wo : List K → K}
    (ho : outer.Computes dO f wo) {idx : List ℕ} (hidx : ValidIdx dO idx) {X v : V} {c : K}
    (hX : outer.num.cps[flatIndex dO idx]? = some X) :
    (⟨{ outer.num with cps := outer.num.cps.set (flatIndex dO idx) (X + c • v) }, outer.wt⟩ : RSpline K V).Computes dO
      (fun t => f t + (c * bernProd dO idx t / wo t) • v) wo := by
  have hnd := ho.num_degrees
  refine RSpline.Computes.mk' (Spline.wf_set ho.num_wf _ _) ho.wt_wf hnd ho.wt_degrees
    (fun t ht => ho.wt_value ht) fun t ht h0 => ?_
  have := Spline.value_set (K := K) (v := c • v) ho.num_wf (idx := idx) (x := X) (by rw [hnd]; exact hidx)
    (by rw [hnd]; exact hX) (t := t) (by unfold Spline.dim; rw [hnd]; exact ht)
  have e : flatIndex outer.num.degrees idx = flatIndex dO idx := by rw [hnd]
  have e2 : bernProd outer.num.degrees idx t = bernProd dO idx t := by rw [hnd]
  rw [e, e2] at this
  refine this.trans ?_
  rw [ho.num_value ht h0, smul_add, smul_smul, smul_smul]
  congr 2
  field_simp

/-- C30. Rational outer, polynomial inner spline: moving (unweighted) control point `n` by
`v`, with its weight kept, moves the value of the composition by the value of sensitivity
`n` times `v`. The stored point is weighted, so it moves by `c • v`. -/
theorem C30_rational_derivative (cfg : Cfg) (hmax : cfg.maxBinom ≤ 68) (outer : RSpline K V) (inner : Spline W)
    (dO dI : List ℕ) (f : List K → V) (wo : List K → K) (g : List K → W) (ho : outer.Computes dO f wo)
    (hi : inner.Computes dI g) (hdim : dO.length = Coords.n K W)
    (hcube : Spline.fitsIntoUnitCube K inner = .ok true) (hf : ComposeFits cfg dO dI)
    (n : ℕ) (X v : V) (c : K) (hX : outer.num.cps[n]? = some X) (hc : outer.wt.cps[n]? = some c) :
    ∃ r r' l q, RSpline.compose cfg outer inner = .ok r ∧
      RSpline.compose cfg ⟨{ outer.num with cps := outer.num.cps.set n (X + c • v) }, outer.wt⟩ inner = .ok r' ∧
      RSpline.composeSensitivity cfg outer inner = .ok l ∧ l[n]? = some q ∧
      ∀ t : List K, t.length = dI.length → wo (coordList K (g t)) ≠ 0 → ∃ y b,
        r.evaluate t = .ok y ∧ q.evaluate t = .ok b ∧ r'.evaluate t = .ok (y + b • v) := by
  have hwd := ho.wt_degrees
  have hn : n < size dO := by
    have := (List.getElem?_eq_some_iff.mp hc).1
    rwa [ho.wt_wf.cps_len, hwd] at this
  obtain ⟨idx, i1, i2, i3⟩ := ofNat_idx ho.wt_wf (n := n) (by rw [hwd]; exact hn)
  rw [hwd] at i1 i3
  have hnf : flatIndex dO idx = n := by
    rw [Spline.globalToLocal_ok ho.wt_wf (by unfold Spline.dim; rw [hwd]; exact i1.length), hwd] at i2; injection i2
  have ho' := rational_set (v := v) (c := c) ho i1 (by rw [hnf]; exact hX)
  rw [hnf] at ho'
  obtain ⟨r, r1, r2⟩ := C29_compose_polynomial (K := K) cfg hmax outer inner dO dI f wo g ho hi hdim hcube hf
  obtain ⟨r', r1', r2'⟩ := C29_compose_polynomial (K := K) cfg hmax _ inner dO dI _ wo g ho' hi hdim hcube hf
  obtain ⟨l, l1, l2, l3⟩ := C30_rational_sensitivity (K := K) cfg hmax outer inner dO dI f wo g ho hi hdim hcube hf
  obtain ⟨n', c', q, q1, q2, q3, q4⟩ := l3 idx i1
  rw [i2] at q1; injection q1 with q1; subst q1
  have hcc : c' = c := by
    have e := Spline.controlPoint_ok ho.wt_wf (idx := idx) (by rw [hwd]; exact i1)
    unfold RSpline.weight at q2
    rw [e] at q2; injection q2 with q2
    rw [← q2]; unfold Spline.net
    rw [hwd, hnf, List.getD_eq_getElem?_getD, hc]; rfl
  subst hcc
  refine ⟨r, r', l, q, r1, r1', l1, q3, fun t ht h0 => ⟨_, _, r2.eval t (by simpa using ht) h0,
    q4.eval t (by simpa using ht) h0, r2'.eval t (by simpa using ht) h0⟩⟩

/-- C30. Rational outer and rational inner spline. -/
theorem C30_rational_derivative_rational (cfg : Cfg) (hmax : cfg.maxBinom ≤ 68) (outer : RSpline K V)
    (inner : RSpline K W) (dO dI : List ℕ) (f : List K → V) (wo : List K → K) (g : List K → W) (w : List K → K)
    (ho : outer.Computes dO f wo) (hi : inner.Computes dI g w) (hdim : dO.length = Coords.n K W)
    (hf : ComposeFits cfg dO dI)
    (n : ℕ) (X v : V) (c : K) (hX : outer.num.cps[n]? = some X) (hc : outer.wt.cps[n]? = some c) :
    ∃ r r' l q, RSpline.composeRational cfg outer inner = .ok r ∧
      RSpline.composeRational cfg ⟨{ outer.num with cps := outer.num.cps.set n (X + c • v) }, outer.wt⟩ inner = .ok r' ∧
      RSpline.composeSensitivityRational cfg outer inner = .ok l ∧ l[n]? = some q ∧
      ∀ t : List K, t.length = dI.length → w t ≠ 0 → wo (coordList K (g t)) ≠ 0 → ∃ y b,
        r.evaluate t = .ok y ∧ q.evaluate t = .ok b ∧ r'.evaluate t = .ok (y + b • v) := by
  have hwd := ho.wt_degrees
  have hn : n < size dO := by
    have := (List.getElem?_eq_some_iff.mp hc).1
    rwa [ho.wt_wf.cps_len, hwd] at this
  obtain ⟨idx, i1, i2, i3⟩ := ofNat_idx ho.wt_wf (n := n) (by rw [hwd]; exact hn)
  rw [hwd] at i1 i3
  have hnf : flatIndex dO idx = n := by
    rw [Spline.globalToLocal_ok ho.wt_wf (by unfold Spline.dim; rw [hwd]; exact i1.length), hwd] at i2; injection i2
  have ho' := rational_set (v := v) (c := c) ho i1 (by rw [hnf]; exact hX)
  rw [hnf] at ho'
  obtain ⟨r, r1, _, _, _, _, r2⟩ := C29_compose_rational (K := K) cfg hmax outer inner dO dI f wo g w ho hi hdim hf
  obtain ⟨r', r1', _, _, _, _, r2'⟩ := C29_compose_rational (K := K) cfg hmax _ inner dO dI _ wo g w ho' hi hdim hf
  obtain ⟨l, l1, l2, l3⟩ := C30_rational_sensitivity_rational (K := K) cfg hmax outer inner dO dI f wo g w ho hi hdim hf
  obtain ⟨n', c', q, q1, q2, q3, _, _, _, _, q4⟩ := l3 idx i1
  rw [i2] at q1; injection q1 with q1; subst q1
  have hcc : c' = c := by
    have e := Spline.controlPoint_ok ho.wt_wf (idx := idx) (by rw [hwd]; exact i1)
    unfold RSpline.weight at q2
    rw [e] at q2; injection q2 with q2
    rw [← q2]; unfold Spline.net
    rw [hwd, hnf, List.getD_eq_getElem?_getD, hc]; rfl
  subst hcc
  exact ⟨r, r', l, q, r1, r1', l1, q3, fun t ht h1 h0 => ⟨_, _, (r2 t ht h1).2 h0, q4 t ht h1 h0, (r2' t ht h1).2 h0⟩⟩

end

/-! ### concrete cases -/

example (v : Point ℚ 2) : ∃ r r' l q, Spline.compose ℚ Ex.cfg Ex.P Q = .ok r ∧
    Spline.compose ℚ Ex.cfg { Ex.P with cps := Ex.P.cps.set 2 (Ex.pt 2 1 + v) } Q = .ok r' ∧
    Spline.composeSensitivity ℚ Ex.cfg Ex.P Q = .ok l ∧ l[2]? = some q ∧
    ∀ t : List ℚ, t.length = 2 → ∃ y b, r.evaluate t = .ok y ∧ q.evaluate t = .ok b ∧
      r'.evaluate t = .ok (y + b • v) :=
  C27_derivative (K := ℚ) Ex.cfg Ex.cfg_ok Ex.P Q Ex.P_wf Q_wf rfl Q_fits (by decide) (by decide) 2 (Ex.pt 2 1) v rfl

example (v : Point ℚ 2) : ∃ r r' l q, Spline.composeRational Ex.cfg Ex.P RQ = .ok r ∧
    Spline.composeRational Ex.cfg { Ex.P with cps := Ex.P.cps.set 2 (Ex.pt 2 1 + v) } RQ = .ok r' ∧
    Spline.composeSensitivityRational Ex.cfg Ex.P RQ = .ok l ∧ l[2]? = some q ∧
    ∀ t : List ℚ, t.length = 2 → RQ.wt.value t ≠ 0 → ∃ y b, r.evaluate t = .ok y ∧ q.evaluate t = .ok b ∧
      r'.evaluate t = .ok (y + b • v) :=
  C30_derivative (K := ℚ) Ex.cfg Ex.cfg_ok Ex.P RQ _ _ _ Ex.P_wf RQ_computes rfl RQ_fits cfits 2 (Ex.pt 2 1) v rfl

example (v X : Point ℚ 2) (c : ℚ) (hX : R.num.cps[4]? = some X) (hc : R.wt.cps[4]? = some c) :
    ∃ r r' l q, RSpline.compose Ex.cfg R Q = .ok r ∧
      RSpline.compose Ex.cfg ⟨{ R.num with cps := R.num.cps.set 4 (X + c • v) }, R.wt⟩ Q = .ok r' ∧
      RSpline.composeSensitivity Ex.cfg R Q = .ok l ∧ l[4]? = some q ∧
      ∀ t : List ℚ, t.length = 2 → R.wt.value (coordList ℚ (Q.value t)) ≠ 0 → ∃ y b,
        r.evaluate t = .ok y ∧ q.evaluate t = .ok b ∧ r'.evaluate t = .ok (y + b • v) :=
  C30_rational_derivative (K := ℚ) Ex.cfg Ex.cfg_ok R Q _ _ _ _ _ R_computes Q_wf.computes rfl Q_fits cfits 4 X v c hX hc

/-- there are such a point and weight -/
example : (R.num.cps[4]?).isSome ∧ (R.wt.cps[4]?).isSome := by decide

example (v X : Point ℚ 2) (c : ℚ) (hX : R.num.cps[4]? = some X) (hc : R.wt.cps[4]? = some c) :
    ∃ r r', RSpline.composeRational Ex.cfg R RQ = .ok r ∧
      RSpline.composeRational Ex.cfg ⟨{ R.num with cps := R.num.cps.set 4 (X + c • v) }, R.wt⟩ RQ = .ok r' := by
  obtain ⟨r, r', _, _, h1, h2, _⟩ := C30_rational_derivative_rational (K := ℚ) Ex.cfg Ex.cfg_ok R RQ _ _ _ _ _ _
    R_computes RQ_computes rfl cfits 4 X v c hX hc
  exact ⟨r, r', h1, h2⟩

end Bezman.Props
