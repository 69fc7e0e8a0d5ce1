import Verif.Props.ExchangeRational
import Verif.Props.RationalCompose
import Verif.Props.RationalBox
import Verif.Proofs.HullOps

/-! # Property C120: bounding boxes of rational splines and compositions with rational splines -/

namespace Bezman.Props
open Spec Coords

section
variable {K V : Type} [Field K] [LinearOrder K] [IsStrictOrderedRing K] [AddCommGroup V] [Module K V] [ScalarDiv K V] [LawfulScalarDiv K V]

/-- a consistent rational spline computes the quotient of its splines -/
theorem rcomputes_quot {r : RSpline K V} (h : r.num.WF) (h' : r.wt.WF) (hs : r.num.degrees = r.wt.degrees) :
    r.Computes r.num.degrees (fun t : List K => (r.wt.value t)⁻¹ • r.num.value t) (fun t => r.wt.value t) :=
  RSpline.Computes.mk' h h' rfl hs.symm (fun _ _ => rfl) (fun t _ h0 => by rw [smul_inv_smul₀ h0])

omit [Module K V] [Field K] [LinearOrder K] [IsStrictOrderedRing K] [ScalarDiv K V] [LawfulScalarDiv K V] in
theorem exchanged_mem {d : ℕ} {s s' : Spline V} (h : Exchanged d s s') (x : V) : x ∈ s'.cps ↔ x ∈ s.cps := by
  refine ⟨fun hx => ?_, fun hx => ?_⟩
  · obtain ⟨idx, hi, e⟩ := (mem_cps_iff h.wf' x).mp hx
    have hv := valid_swap hi d
    rw [h.degrees, swapAt_swapAt] at hv
    refine (mem_cps_iff h.wf x).mpr ⟨_, hv, ?_⟩
    rw [← h.points _ hv, swapAt_swapAt, e]
  · obtain ⟨idx, hi, e⟩ := (mem_cps_iff h.wf x).mp hx
    refine (mem_cps_iff h.wf' x).mpr ⟨swapAt d idx, by rw [h.degrees]; exact valid_swap hi d, (h.points idx hi).trans e⟩

theorem _root_.Bezman.Spec.RMirrored.symm {d : ℕ} {r r' : RSpline K V} (hd : d < r.num.degrees.length) (h : RMirrored d r r') : RMirrored d r' r :=
  ⟨by rw [h.num.degrees, h.wt.degrees, h.same], C120_symm d _ _ hd h.num, C120_symm d _ _ (by rw [← h.same]; exact hd) h.wt⟩

theorem _root_.Bezman.Spec.RExchanged.symm {d : ℕ} {r r' : RSpline K V} (h : RExchanged d r r') : RExchanged d r' r :=
  ⟨by rw [h.num.degrees, h.wt.degrees, h.same], C120_exchange_symm d _ _ h.num, C120_exchange_symm d _ _ h.wt⟩

section box
variable [Coords K V] [LawfulCoords K V]

/-- bounding boxes of rational splines with the same control points -/
theorem rbox_of_mem {r r' : RSpline K V} (h1 : r.num.WF) (h2 : r.wt.WF) (h3 : r.num.degrees = r.wt.degrees) (h1' : r'.num.WF)
    (h2' : r'.wt.WF) (h3' : r'.num.degrees = r'.wt.degrees) (hne : ∀ c ∈ r.wt.cps, c ≠ 0) (hne' : ∀ c ∈ r'.wt.cps, c ≠ 0)
    (h : ∀ x, x ∈ r'.euclid.cps ↔ x ∈ r.euclid.cps) :
    SameResult r'.minimumCorner r.minimumCorner ∧ SameResult r'.maximumCorner r.maximumCorner ∧
    SameResult r'.fitsIntoUnitCube r.fitsIntoUnitCube := by
  rw [RSpline.minimumCorner_eq h1 h2 h3 hne, RSpline.minimumCorner_eq h1' h2' h3' hne', RSpline.maximumCorner_eq h1 h2 h3 hne,
    RSpline.maximumCorner_eq h1' h2' h3' hne', RSpline.fitsIntoUnitCube_eq h1 h2 h3 hne, RSpline.fitsIntoUnitCube_eq h1' h2' h3' hne']
  exact box_of_mem (RSpline.euclid_wf h1) (RSpline.euclid_wf h1') h

/-- C120. The bounding box of a rational spline with weights other than zero does not depend on the orientation. -/
theorem C120_rational_box (d : ℕ) (r r' : RSpline K V) (hd : d < r.num.degrees.length) (h : RMirrored d r r')
    (hne : ∀ c ∈ r.wt.cps, c ≠ 0) :
    SameResult r'.minimumCorner r.minimumCorner ∧ SameResult r'.maximumCorner r.maximumCorner ∧
    SameResult r'.fitsIntoUnitCube r.fitsIntoUnitCube := by
  have hs := h.symm hd
  have hne' : ∀ c ∈ r'.wt.cps, c ≠ 0 := fun c hc => hne c ((mirrored_mem (by rw [← h.same]; exact hd) h.wt c).mp hc)
  have key : ∀ {a b : RSpline K V}, d < a.num.degrees.length → RMirrored d a b → (∀ c ∈ a.wt.cps, c ≠ 0) → (∀ c ∈ b.wt.cps, c ≠ 0) →
      ∀ x, x ∈ b.euclid.cps → x ∈ a.euclid.cps := by
    intro a b hd h hne hne' x hx
    obtain ⟨idx, hi, e⟩ := (mem_euclid (rcomputes_quot h.num.wf' h.wt.wf' (by rw [h.num.degrees, h.wt.degrees, h.same])) hne' x).mp hx
    rw [h.num.degrees] at hi
    have hp : a.num.degrees[d]? = some a.num.degrees[d] := List.getElem?_eq_getElem hd
    exact (mem_euclid (rcomputes_quot h.num.wf h.wt.wf h.same) hne x).mpr
      ⟨_, valid_flip hi hp, ((C120_rational_points d _ a b h idx hi hp).1).symm.trans e⟩
  exact rbox_of_mem h.num.wf h.wt.wf h.same h.num.wf' h.wt.wf' hs.same hne hne'
    fun x => ⟨key hd h hne hne' x, key (by rw [h.num.degrees]; exact hd) hs hne' hne x⟩

/-- C120. The same with exchanged dimensions. -/
theorem C120_exchange_rational_box (d : ℕ) (r r' : RSpline K V) (h : RExchanged d r r') (hne : ∀ c ∈ r.wt.cps, c ≠ 0) :
    SameResult r'.minimumCorner r.minimumCorner ∧ SameResult r'.maximumCorner r.maximumCorner ∧
    SameResult r'.fitsIntoUnitCube r.fitsIntoUnitCube := by
  have hs := h.symm
  have hne' : ∀ c ∈ r'.wt.cps, c ≠ 0 := fun c hc => hne c ((exchanged_mem h.wt c).mp hc)
  have key : ∀ {a b : RSpline K V}, RExchanged d a b → (∀ c ∈ a.wt.cps, c ≠ 0) → (∀ c ∈ b.wt.cps, c ≠ 0) →
      ∀ x, x ∈ b.euclid.cps → x ∈ a.euclid.cps := by
    intro a b h hne hne' x hx
    obtain ⟨idx, hi, e⟩ := (mem_euclid (rcomputes_quot h.num.wf' h.wt.wf' h.symm.same) hne' x).mp hx
    have hv := valid_swap hi d
    rw [h.num.degrees, swapAt_swapAt] at hv
    refine (mem_euclid (rcomputes_quot h.num.wf h.wt.wf h.same) hne x).mpr ⟨_, hv, ?_⟩
    rw [← (C120_exchange_rational_points d a b h _ hv).1, swapAt_swapAt, e]
  exact rbox_of_mem h.num.wf h.wt.wf h.same h.num.wf' h.wt.wf' hs.same hne hne' fun x => ⟨key h hne hne' x, key hs hne' hne x⟩

end box

section compose
variable {W : Type} [AddCommGroup W] [Module K W] [Coords K W] [LawfulCoords K W] [ScalarDiv K W] [LawfulScalarDiv K W]

/-- the value of the numerator of a composition at a point of the inner spline with weighted point `x` and weight `w` -/
def numAt (s : Spline V) (x : W) (w : K) : V :=
  ∑ n ∈ Finset.range (size s.degrees),
    pw (Spline.hbFns s.degrees (fun d => if h : d < Coords.n K W then coord x ⟨d, h⟩ else 0)
      (fun d => if h : d < Coords.n K W then w - coord x ⟨d, h⟩ else 0)) (unflat s.degrees n) • s.cps.getD n 0

omit [ScalarDiv K V] [LawfulScalarDiv K V] in
theorem numerator_computes {cfg : Cfg} (hmax : cfg.maxBinom ≤ 68) {s : Spline V} (hs : s.WF) {inner : RSpline K W} {q : List ℕ}
    {g : List K → W} {w : List K → K} (hi : inner.Computes q g w) (hdim : s.degrees.length = Coords.n K W) (hf : ComposeFits cfg s.degrees q) :
    ∃ r, s.composeNumeratorRational cfg inner = .ok r ∧
      r.Computes (q.map fun x => s.degrees.sum * x) (fun t => numAt s (inner.num.value t) (w t)) := by
  obtain ⟨n, n1, _⟩ := composeNumeratorRational_ok (K := K) (s := s) hmax hs hi hf.sub hdim hf.outer hf.deg
  exact ⟨n, n1, composeNumeratorRational_tens hmax (hs.computes (K := K)) hi hf.sub hdim hf.outer hf.deg n1⟩

/-- the numerator of a composition with a reversed rational spline -/
theorem numerator_mirrored {d : ℕ} {cfg : Cfg} (hmax : cfg.maxBinom ≤ 68) {s : Spline V} (hs : s.WF) {inner inner' : RSpline K W}
    (hd : d < inner.num.degrees.length) (h : RMirrored d inner inner') (hdim : s.degrees.length = Coords.n K W)
    (hf : ComposeFits cfg s.degrees inner.num.degrees) :
    ∃ r r', s.composeNumeratorRational cfg inner = .ok r ∧ s.composeNumeratorRational cfg inner' = .ok r' ∧ Mirrored d r r' ∧
      r.degrees = inner.num.degrees.map fun q => s.degrees.sum * q := by
  have hs' := h.symm hd
  obtain ⟨r, e1, h1⟩ := numerator_computes hmax hs (rcomputes_quot h.num.wf h.wt.wf h.same) hdim hf
  obtain ⟨r', e2, h2⟩ := numerator_computes hmax hs (rcomputes_quot hs'.num.wf hs'.wt.wf hs'.same) hdim (by rw [h.num.degrees]; exact hf)
  rw [h.num.degrees] at h2
  refine ⟨r, r', e1, e2, mirrored_of h1 h2 (by simpa using hd) fun t ht => ?_, h1.degrees_eq⟩
  have ht' : t.length = inner.num.degrees.length := by simpa using ht
  rw [(h.num.computes (h.num.wf.computes (K := K)) hd).value_eq ht',
    (h.wt.computes (h.wt.wf.computes (K := K)) (by rw [← h.same]; exact hd)).value_eq (by rw [← h.same]; exact ht')]

/-- the numerator of a composition with a rational spline with exchanged dimensions -/
theorem numerator_exchanged {d : ℕ} {cfg : Cfg} (hmax : cfg.maxBinom ≤ 68) {s : Spline V} (hs : s.WF) {inner inner' : RSpline K W}
    (h : RExchanged d inner inner') (hdim : s.degrees.length = Coords.n K W) (hf : ComposeFits cfg s.degrees inner.num.degrees) :
    ∃ r r', s.composeNumeratorRational cfg inner = .ok r ∧ s.composeNumeratorRational cfg inner' = .ok r' ∧ Exchanged d r r' ∧
      r.degrees = inner.num.degrees.map fun q => s.degrees.sum * q := by
  have hs' := h.symm
  obtain ⟨r, e1, h1⟩ := numerator_computes hmax hs (rcomputes_quot h.num.wf h.wt.wf h.same) hdim hf
  obtain ⟨r', e2, h2⟩ := numerator_computes hmax hs (rcomputes_quot hs'.num.wf hs'.wt.wf hs'.same) hdim
    (by
      rw [h.num.degrees]
      exact ⟨hf.outer, fun q hq => hf.result q ((swapAt_perm d _).mem_iff.mp hq), fun q hq => hf.rounds q ((swapAt_perm d _).mem_iff.mp hq),
        hf.rounds2, by rw [size_swapAt]; exact hf.small⟩)
  rw [h.num.degrees, ← swapAt_map] at h2
  refine ⟨r, r', e1, e2, exchanged_of h1 h2 (by simpa using h.num.inside) fun t ht => ?_, h1.degrees_eq⟩
  have ht' : t.length = inner.num.degrees.length := by simpa using ht
  rw [(h.num.computes (h.num.wf.computes (K := K))).value_eq (by rw [length_swapAt, length_swapAt]; exact ht'),
    (h.wt.computes (h.wt.wf.computes (K := K))).value_eq (by rw [length_swapAt, length_swapAt, ← h.same]; exact ht'), swapAt_swapAt]

/-- C120. A rational spline composed with a reversed rational one is the reversed composition. -/
theorem C120_rational_compose_rational (d : ℕ) (cfg : Cfg) (hmax : cfg.maxBinom ≤ 68) (outer : RSpline K V) (inner inner' : RSpline K W)
    (ho : outer.num.WF) (ho' : outer.wt.WF) (hsame : outer.num.degrees = outer.wt.degrees) (hd : d < inner.num.degrees.length)
    (h : RMirrored d inner inner') (hdim : outer.num.degrees.length = Coords.n K W)
    (hf : ComposeFits cfg outer.num.degrees inner.num.degrees) :
    ∃ r r', RSpline.composeRational cfg outer inner = .ok r ∧ RSpline.composeRational cfg outer inner' = .ok r' ∧ RMirrored d r r' := by
  obtain ⟨n, n', e1, e2, m1, d1⟩ := numerator_mirrored hmax ho hd h hdim hf
  rw [hsame] at hdim hf
  obtain ⟨w, w', e3, e4, m2, d2⟩ := numerator_mirrored hmax ho' hd h hdim hf
  have ec : n.degrees = w.degrees := by rw [d1, d2, hsame]
  refine ⟨⟨n, w⟩, ⟨n', w'⟩, ?_, ?_, ⟨ec, m1, m2⟩⟩
  · unfold RSpline.composeRational
    rw [e1, bind_ok, e3, bind_ok]
    exact RSpline.ofSplines_ok ec
  · unfold RSpline.composeRational
    rw [e2, bind_ok, e4, bind_ok]
    exact RSpline.ofSplines_ok (by rw [m1.degrees, m2.degrees, ec])

/-- C120. The same with exchanged dimensions. -/
theorem C120_exchange_rational_compose_rational (d : ℕ) (cfg : Cfg) (hmax : cfg.maxBinom ≤ 68) (outer : RSpline K V)
    (inner inner' : RSpline K W) (ho : outer.num.WF) (ho' : outer.wt.WF) (hsame : outer.num.degrees = outer.wt.degrees)
    (h : RExchanged d inner inner') (hdim : outer.num.degrees.length = Coords.n K W)
    (hf : ComposeFits cfg outer.num.degrees inner.num.degrees) :
    ∃ r r', RSpline.composeRational cfg outer inner = .ok r ∧ RSpline.composeRational cfg outer inner' = .ok r' ∧ RExchanged d r r' := by
  obtain ⟨n, n', e1, e2, m1, d1⟩ := numerator_exchanged hmax ho h hdim hf
  rw [hsame] at hdim hf
  obtain ⟨w, w', e3, e4, m2, d2⟩ := numerator_exchanged hmax ho' h hdim hf
  have ec : n.degrees = w.degrees := by rw [d1, d2, hsame]
  refine ⟨⟨n, w⟩, ⟨n', w'⟩, ?_, ?_, ⟨ec, m1, m2⟩⟩
  · unfold RSpline.composeRational
    rw [e1, bind_ok, e3, bind_ok]
    exact RSpline.ofSplines_ok ec
  · unfold RSpline.composeRational
    rw [e2, bind_ok, e4, bind_ok]
    exact RSpline.ofSplines_ok (by rw [m1.degrees, m2.degrees, ec])

/-- C120. A polynomial spline composed with a reversed rational one, the weights of which are not zero. -/
theorem C120_compose_rational (d : ℕ) (cfg : Cfg) (hmax : cfg.maxBinom ≤ 68) (outer : Spline V) (inner inner' : RSpline K W)
    (ho : outer.WF) (hd : d < inner.num.degrees.length) (h : RMirrored d inner inner') (hdim : outer.degrees.length = Coords.n K W)
    (hne : ∀ c ∈ inner.wt.cps, c ≠ 0) (hcube : inner.fitsIntoUnitCube = .ok true) (hf : ComposeFits cfg outer.degrees inner.num.degrees) :
    ∃ r r', Spline.composeRational cfg outer inner = .ok r ∧ Spline.composeRational cfg outer inner' = .ok r' ∧ RMirrored d r r' := by
  have hcube' : inner'.fitsIntoUnitCube = .ok true := by
    obtain ⟨u, h1, h2⟩ := (C120_rational_box d inner inner' hd h hne).2.2
    rw [hcube] at h2
    cases h2
    exact h1
  have hr : ∀ p ∈ inner.wt.degrees, outer.degrees.sum * p < cfg.maxBinom := by rw [← h.same]; exact hf.result
  obtain ⟨n, n', e1, e2, m1, d1⟩ := numerator_mirrored hmax ho hd h hdim hf
  obtain ⟨w, e3, c3⟩ := C22_raise_power cfg hmax inner.wt _ _ (h.wt.wf.computes (K := K)) outer.degrees.sum hr
  obtain ⟨_, w', e30, e4, m2⟩ := C120_power d cfg hmax inner.wt inner'.wt (by rw [← h.same]; exact hd) h.wt outer.degrees.sum hr
  cases e3.symm.trans e30
  have ec : n.degrees = w.degrees := by rw [d1, c3.degrees_eq, h.same]
  refine ⟨⟨n, w⟩, ⟨n', w'⟩, ?_, ?_, ⟨ec, m1, m2⟩⟩
  · unfold Spline.composeRational Spline.composeDenominator
    rw [hcube, bind_ok]
    simp only [Bool.not_true, Bool.false_eq_true, if_false]
    rw [e1, bind_ok, e3, bind_ok]
    exact RSpline.ofSplines_ok ec
  · unfold Spline.composeRational Spline.composeDenominator
    rw [hcube', bind_ok]
    simp only [Bool.not_true, Bool.false_eq_true, if_false]
    rw [e2, bind_ok, e4, bind_ok]
    exact RSpline.ofSplines_ok (by rw [m1.degrees, m2.degrees, ec])

omit [AddCommGroup V] [Module K V] [ScalarDiv K V] [LawfulScalarDiv K V] in
/-- C120. Powers of splines with exchanged dimensions. -/
theorem C120_exchange_power (d : ℕ) (cfg : Cfg) (hmax : cfg.maxBinom ≤ 68) (s s' : Spline K) (h : Exchanged d s s')
    (n : ℕ) (hdeg : ∀ p ∈ s.degrees, n * p < cfg.maxBinom) :
    ∃ r r', s.raisePower cfg n = .ok r ∧ s'.raisePower cfg n = .ok r' ∧ Exchanged d r r' := by
  have hs := h.wf.computes (K := K)
  obtain ⟨r, e1, h1⟩ := C22_raise_power cfg hmax s _ _ hs n hdeg
  obtain ⟨r', e2, h2⟩ := C22_raise_power cfg hmax s' _ _ (h.computes hs) n (fun p hp => hdeg p ((swapAt_perm d _).mem_iff.mp hp))
  rw [← swapAt_map] at h2
  exact ⟨r, r', e1, e2, exchanged_of h1 h2 (by simpa using h.inside) fun _ _ => by simp only [swapAt_swapAt]⟩

/-- C120. The same with exchanged dimensions. -/
theorem C120_exchange_compose_rational (d : ℕ) (cfg : Cfg) (hmax : cfg.maxBinom ≤ 68) (outer : Spline V) (inner inner' : RSpline K W)
    (ho : outer.WF) (h : RExchanged d inner inner') (hdim : outer.degrees.length = Coords.n K W)
    (hne : ∀ c ∈ inner.wt.cps, c ≠ 0) (hcube : inner.fitsIntoUnitCube = .ok true) (hf : ComposeFits cfg outer.degrees inner.num.degrees) :
    ∃ r r', Spline.composeRational cfg outer inner = .ok r ∧ Spline.composeRational cfg outer inner' = .ok r' ∧ RExchanged d r r' := by
  have hcube' : inner'.fitsIntoUnitCube = .ok true := by
    obtain ⟨u, h1, h2⟩ := (C120_exchange_rational_box d inner inner' h hne).2.2
    rw [hcube] at h2
    cases h2
    exact h1
  have hr : ∀ p ∈ inner.wt.degrees, outer.degrees.sum * p < cfg.maxBinom := by rw [← h.same]; exact hf.result
  obtain ⟨n, n', e1, e2, m1, d1⟩ := numerator_exchanged hmax ho h hdim hf
  obtain ⟨w, e3, c3⟩ := C22_raise_power cfg hmax inner.wt _ _ (h.wt.wf.computes (K := K)) outer.degrees.sum hr
  obtain ⟨_, w', e30, e4, m2⟩ := C120_exchange_power d cfg hmax inner.wt inner'.wt h.wt outer.degrees.sum hr
  cases e3.symm.trans e30
  have ec : n.degrees = w.degrees := by rw [d1, c3.degrees_eq, h.same]
  refine ⟨⟨n, w⟩, ⟨n', w'⟩, ?_, ?_, ⟨ec, m1, m2⟩⟩
  · unfold Spline.composeRational Spline.composeDenominator
    rw [hcube, bind_ok]
    simp only [Bool.not_true, Bool.false_eq_true, if_false]
    rw [e1, bind_ok, e3, bind_ok]
    exact RSpline.ofSplines_ok ec
  · unfold Spline.composeRational Spline.composeDenominator
    rw [hcube', bind_ok]
    simp only [Bool.not_true, Bool.false_eq_true, if_false]
    rw [e2, bind_ok, e4, bind_ok]
    exact RSpline.ofSplines_ok (by rw [m1.degrees, m2.degrees, ec])

end compose
end

/-! ## Examples -/

/-- the bounding box of a rational surface, reversed and exchanged -/
example : SameResult (⟨Ex.surf 4 1 0 9 7 5, Ex.surf 3 2 1 6 5 4⟩ : RSpline ℚ ℚ).minimumCorner
    (⟨Ex.surf 0 1 4 5 7 9, Ex.surf 1 2 3 4 5 6⟩ : RSpline ℚ ℚ).minimumCorner :=
  (C120_rational_box 0 _ _ (by decide) exRMirror (by decide +kernel)).1
example : SameResult (⟨Ex.surf' 0 5 1 7 4 9, Ex.surf' 1 4 2 5 3 6⟩ : RSpline ℚ ℚ).minimumCorner
    (⟨Ex.surf 0 1 4 5 7 9, Ex.surf 1 2 3 4 5 6⟩ : RSpline ℚ ℚ).minimumCorner :=
  (C120_exchange_rational_box 0 _ _ exRExchange (by decide +kernel)).1

/-- a curve composed with a rational surface inside the unit interval, both orientations -/
example : ∃ r r', Spline.composeRational Ex.cfg (Ex.curve (0 : ℚ) 3 1) (⟨Ex.surf 0 1 1 2 3 6, Ex.surf 1 2 3 4 5 6⟩ : RSpline ℚ ℚ) = .ok r ∧
    Spline.composeRational Ex.cfg (Ex.curve (0 : ℚ) 3 1) (⟨Ex.surf 1 1 0 6 3 2, Ex.surf 3 2 1 6 5 4⟩ : RSpline ℚ ℚ) = .ok r' ∧ RMirrored 0 r r' :=
  C120_compose_rational 0 Ex.cfg Ex.cfg_ok _ _ _ (Ex.curve_wf ..) (by decide) ⟨rfl, exMirror .., exMirror ..⟩ rfl (by decide +kernel)
    (by decide +kernel) ⟨by decide, by decide, by decide, by decide, by decide⟩
example : ∃ r r', Spline.composeRational Ex.cfg (Ex.curve (0 : ℚ) 3 1) (⟨Ex.surf 0 1 1 2 3 6, Ex.surf 1 2 3 4 5 6⟩ : RSpline ℚ ℚ) = .ok r ∧
    Spline.composeRational Ex.cfg (Ex.curve (0 : ℚ) 3 1) (⟨Ex.surf' 0 2 1 3 1 6, Ex.surf' 1 4 2 5 3 6⟩ : RSpline ℚ ℚ) = .ok r' ∧
    RExchanged 0 r r' :=
  C120_exchange_compose_rational 0 Ex.cfg Ex.cfg_ok _ _ _ (Ex.curve_wf ..) ⟨rfl, exExchange .., exExchange ..⟩ rfl (by decide +kernel)
    (by decide +kernel) ⟨by decide, by decide, by decide, by decide, by decide⟩

/-- rational outer curve and rational inner surface -/
example : ∃ r r', RSpline.composeRational Ex.cfg (⟨Ex.curve 0 3 1, Ex.curve 1 2 3⟩ : RSpline ℚ ℚ)
      (⟨Ex.surf 0 1 4 5 7 9, Ex.surf 1 2 3 4 5 6⟩ : RSpline ℚ ℚ) = .ok r ∧
    RSpline.composeRational Ex.cfg (⟨Ex.curve 0 3 1, Ex.curve 1 2 3⟩ : RSpline ℚ ℚ)
      (⟨Ex.surf 4 1 0 9 7 5, Ex.surf 3 2 1 6 5 4⟩ : RSpline ℚ ℚ) = .ok r' ∧ RMirrored 0 r r' :=
  C120_rational_compose_rational 0 Ex.cfg Ex.cfg_ok _ _ _ (Ex.curve_wf ..) (Ex.curve_wf ..) rfl (by decide) exRMirror rfl
    ⟨by decide, by decide, by decide, by decide, by decide⟩

end Bezman.Props
