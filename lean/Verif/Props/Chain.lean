import Verif.Spec.Chain
import Verif.Proofs.Chain
import Verif.Props.RationalCompose
import Verif.Spec.AnyArithRational
import Verif.Props.RExpr

/-! # Property C118: the chain rule -/

namespace Bezman.Props
open Spec Finset Filter Topology

section
variable {V W : Type} [NormedAddCommGroup V] [NormedSpace ℝ V]

theorem firstOrder_length (n d : ℕ) : (firstOrder n d).length = n := by simp [firstOrder]

theorem firstOrder_le {n d o : ℕ} (h : o ∈ firstOrder n d) : o ≤ 1 := by
  rcases List.mem_or_eq_of_mem_set h with h | h
  · have := List.eq_of_mem_replicate h; omega
  · omega

/-- first derivatives of polynomial splines -/
theorem first_derivative {cfg : Cfg} (hmax : cfg.maxBinom ≤ 68) {s : Spline V} (hs : s.WF) (hdeg : ∀ p ∈ s.degrees, p < cfg.maxBinom)
    {t : List ℝ} (ht : t.length = s.dim) {e : ℕ} {te : ℝ} (hte : t[e]? = some te) :
    ∃ u, s.evaluateDerivative cfg t (firstOrder s.dim e) = .ok u ∧ HasDerivAt (fun x => s.value (t.set e x)) u te := by
  obtain ⟨hel, -⟩ := List.getElem?_eq_some_iff.mp hte
  obtain ⟨g, u, h1, h2, h3⟩ := C14_chain cfg hmax s hs hdeg (List.replicate s.dim 0) (by simp) e 0
    (by rw [List.getElem?_replicate, if_pos (by omega)]) t ht te hte
  refine ⟨u, h2, ?_⟩
  convert h3 using 1
  funext x
  have := h1 x
  rw [show s.dim = s.degrees.length from rfl] at this
  rw [C14_zero cfg hmax s s.degrees _ hs.computes hdeg _ (by simpa [Spline.dim] using ht), Spline.evaluate_ok hs (by simpa using ht)] at this
  injection this

theorem value_total {s : Spline V} {t : List ℝ} (ht : t.length = s.dim) : ∃ D, TotalAt s.dim (fun x => s.value x) t D :=
  bezier_total s.degrees t ht s.net

theorem firstOrder_fits (n d : ℕ) : BinomFits (firstOrder n d) := by
  unfold BinomFits
  rw [List.prod_eq_one]
  · norm_num
  · intro x hx
    obtain ⟨o, ho, rfl⟩ := List.mem_map.mp hx
    have := firstOrder_le ho
    interval_cases o <;> simp

theorem pderiv_zeros : ∀ (n : ℕ) (f : List ℝ → V) (t : List ℝ), pderiv (List.replicate n 0) f t = f t
  | 0, f, t => by cases t <;> rfl
  | n + 1, f, [] => rfl
  | n + 1, f, x :: t => by
    rw [List.replicate_succ]
    show iteratedDeriv 0 _ x = _
    rw [iteratedDeriv_zero]
    exact pderiv_zeros n _ t

variable [ScalarDiv ℝ V] [LawfulScalarDiv ℝ V]

/-- first derivatives of rational splines -/
theorem first_rational {cfg : Cfg} (hmax : cfg.maxBinom ≤ 68) (h2 : 2 ≤ cfg.maxBinom) {r : RSpline ℝ V} {ds : List ℕ} (hr : HasRShape ds r)
    (hdeg : ∀ p ∈ ds, p < cfg.maxBinom) {t : List ℝ} (ht : t.length = ds.length) (h0 : r.wt.value t ≠ 0) {e : ℕ} {te : ℝ}
    (hte : t[e]? = some te) :
    ∃ u, r.evaluateDerivative cfg t (firstOrder ds.length e) = .ok u ∧
      HasDerivAt (fun x => (r.wt.value (t.set e x))⁻¹ • r.num.value (t.set e x)) u te := by
  obtain ⟨hel, hee⟩ := List.getElem?_eq_some_iff.mp hte
  have hc : r.Computes ds (fun t : List ℝ => (r.wt.value t)⁻¹ • r.num.value t) (fun t => r.wt.value t) :=
    RSpline.Computes.mk' hr.1.1 hr.2.1 hr.1.2 hr.2.2 (fun _ _ => rfl) (fun _ _ h => by rw [smul_inv_smul₀ h])
  have hz : ∀ o ∈ (List.replicate ds.length 0).set e (0 + 1), o < cfg.maxBinom := fun o ho => by
    have := firstOrder_le (n := ds.length) (d := e) ho
    omega
  have hf0 : BinomFits (List.replicate ds.length 0) := by
    unfold BinomFits
    simp
  obtain ⟨g, u, h1, h3, h4⟩ := C42_chain cfg hmax r ds _ _ hc hdeg (List.replicate ds.length 0) (by simp) e 0
    (by rw [List.getElem?_replicate, if_pos (by omega)]) hz hf0
    (firstOrder_fits ds.length e) t ht h0 te hte
  refine ⟨u, h3, h4.congr_of_eventuallyEq ?_⟩
  obtain ⟨_, _, hw⟩ := first_derivative (s := r.wt) hmax hr.2.1 (by rw [hr.2.2]; exact hdeg) (t := t)
    (by unfold Spline.dim; rw [hr.2.2]; exact ht) hte
  have hne : ∀ᶠ x in 𝓝 te, r.wt.value (t.set e x) ≠ 0 :=
    hw.continuousAt.eventually_ne (by rw [← hee, List.set_getElem_self]; exact h0)
  filter_upwards [h1, hne] with x hx hx0
  rw [C42_evaluate_derivative cfg hmax r ds _ _ hc hdeg _ (by simp) (by intro o ho; have := List.eq_of_mem_replicate ho; omega) hf0 _
    (by simpa using ht) hx0] at hx
  injection hx with hx
  rw [← hx]
  exact (pderiv_zeros ds.length (fun t : List ℝ => (r.wt.value t)⁻¹ • r.num.value t) _).symm

/-- the derivative of a rational spline is the derivative of the function it evaluates to -/
theorem rational_result {cfg : Cfg} (hmax : cfg.maxBinom ≤ 68) (h2 : 2 ≤ cfg.maxBinom) {r : RSpline ℝ V} {ds : List ℕ} (hr : HasRShape ds r)
    (hdeg : ∀ p ∈ ds, p < cfg.maxBinom) {t : List ℝ} (ht : t.length = ds.length) (h0 : r.wt.value t ≠ 0) {e : ℕ} {te : ℝ}
    (hte : t[e]? = some te) {G : ℝ → V} {G' : V} (hG : HasDerivAt G G' te) (hev : ∀ᶠ x in 𝓝 te, r.evaluate (t.set e x) = .ok (G x)) :
    r.evaluateDerivative cfg t (firstOrder ds.length e) = .ok G' := by
  obtain ⟨hel, hee⟩ := List.getElem?_eq_some_iff.mp hte
  have hc : r.Computes ds (fun t : List ℝ => (r.wt.value t)⁻¹ • r.num.value t) (fun t => r.wt.value t) :=
    RSpline.Computes.mk' hr.1.1 hr.2.1 hr.1.2 hr.2.2 (fun _ _ => rfl) (fun _ _ h => by rw [smul_inv_smul₀ h])
  obtain ⟨u, hu, hu'⟩ := first_rational hmax h2 hr hdeg ht h0 hte
  obtain ⟨_, _, hw⟩ := first_derivative (s := r.wt) hmax hr.2.1 (by rw [hr.2.2]; exact hdeg) (t := t)
    (by unfold Spline.dim; rw [hr.2.2]; exact ht) hte
  have hne : ∀ᶠ x in 𝓝 te, r.wt.value (t.set e x) ≠ 0 :=
    hw.continuousAt.eventually_ne (by rw [← hee, List.set_getElem_self]; exact h0)
  rw [hu]
  congr 1
  refine hu'.unique (hG.congr_of_eventuallyEq ?_)
  filter_upwards [hev, hne] with x hx hx0
  rw [hc.eval _ (by simpa using ht) hx0] at hx
  injection hx

/-- rational functions are differentiable along curves -/
theorem rational_total {r : RSpline ℝ V} {ds : List ℕ} (hr : HasRShape ds r) {t : List ℝ} (ht : t.length = ds.length) (h0 : r.wt.value t ≠ 0) :
    ∃ D, TotalAt ds.length (fun x => (r.wt.value x)⁻¹ • r.num.value x) t D := by
  obtain ⟨D, hD⟩ := value_total (s := r.num) (t := t) (by unfold Spline.dim; rw [hr.1.2]; exact ht)
  obtain ⟨E, hE⟩ := value_total (s := r.wt) (t := t) (by unfold Spline.dim; rw [hr.2.2]; exact ht)
  have e1 : r.num.dim = ds.length := by unfold Spline.dim; rw [hr.1.2]
  have e2 : r.wt.dim = ds.length := by unfold Spline.dim; rw [hr.2.2]
  rw [e1] at hD
  rw [e2] at hE
  exact ⟨_, hD.quotient hE h0⟩

theorem rational_computes {r : RSpline ℝ V} {ds : List ℕ} (hr : HasRShape ds r) :
    r.Computes ds (fun t : List ℝ => (r.wt.value t)⁻¹ • r.num.value t) (fun t => r.wt.value t) :=
  RSpline.Computes.mk' hr.1.1 hr.2.1 hr.1.2 hr.2.2 (fun _ _ => rfl) (fun _ _ h => by rw [smul_inv_smul₀ h])

end

section
variable {V W : Type} [NormedAddCommGroup V] [NormedSpace ℝ V] [NormedAddCommGroup W] [NormedSpace ℝ W] [Coords ℝ W] [LawfulCoords ℝ W]
  [ContinuousCoords ℝ W]

/-- C118. The chain rule for a polynomial spline composed with a polynomial spline. -/
theorem C118_chain_rule (cfg : Cfg) (hmax : cfg.maxBinom ≤ 68) (outer : Spline V) (inner : Spline W) (ho : outer.WF) (hi : inner.WF)
    (hdim : outer.dim = Coords.n ℝ W) (hcube : Spline.fitsIntoUnitCube ℝ inner = .ok true)
    (hdeg : ∀ p ∈ outer.degrees, p < cfg.maxBinom) (hdegI : ∀ q ∈ inner.degrees, q < cfg.maxBinom)
    (hdeg' : ∀ q ∈ inner.degrees, outer.degrees.sum * q < cfg.maxBinom) :
    ∃ r, Spline.compose ℝ cfg outer inner = .ok r ∧ ∀ t : List ℝ, t.length = inner.dim →
      ChainRule ℝ inner.dim (fun y k => outer.evaluateDerivative cfg y k) (inner.evaluate t) (fun k => inner.evaluateDerivative cfg t k)
        (fun k => r.evaluateDerivative cfg t k) := by
  obtain ⟨r, e1, hr⟩ := C26_compose cfg hmax outer inner _ _ _ _ ho.computes hi.computes hdim hcube hdeg hdeg'
  refine ⟨r, e1, fun t ht => ⟨_, Spline.evaluate_ok hi ht, ?_⟩⟩
  have hyl : (coordList ℝ (inner.value t)).length = outer.dim := by rw [coordList_length, hdim]
  obtain ⟨D, hD⟩ := value_total (s := outer) hyl
  refine ⟨fun j => D j, fun j => ?_, fun e he => ?_⟩
  · have hj : (j : ℕ) < (coordList ℝ (inner.value t)).length := by rw [coordList_length]; exact j.2
    obtain ⟨u, hu, hu'⟩ := first_derivative hmax ho hdeg hyl (List.getElem?_eq_getElem hj)
    show outer.evaluateDerivative _ _ _ = _
    rw [hdim] at hu
    rw [hu, hu'.unique (hD.partial hyl (List.getElem?_eq_getElem hj))]
  · have hte : t[e]? = some t[e] := List.getElem?_eq_getElem (by omega)
    obtain ⟨u, hu, hu'⟩ := first_derivative hmax hi hdegI ht hte
    refine ⟨u, hu, ?_⟩
    have hrd : r.dim = inner.dim := by unfold Spline.dim; rw [hr.degrees_eq]; simp
    obtain ⟨z, hz, hz'⟩ := first_derivative hmax hr.wf (by rw [hr.degrees_eq]; simpa using hdeg') (by rw [hrd]; exact ht) hte
    rw [hrd] at hz
    refine hz.trans (congrArg _ ?_)
    have ht0 : t.set e t[e] = t := List.set_getElem_self _
    have key := TotalAt.chain (F := fun x => outer.value x) hu' (by rw [ht0, ← hdim]; exact hD)
    refine hz'.unique (key.congr_of_eventuallyEq (Eventually.of_forall fun x => ?_))
    exact hr.value_eq (by simpa [Spline.dim] using ht)

variable [ScalarDiv ℝ V] [LawfulScalarDiv ℝ V] [ScalarDiv ℝ W] [LawfulScalarDiv ℝ W]

omit [NormedAddCommGroup W] [NormedSpace ℝ W] [Coords ℝ W] [LawfulCoords ℝ W] [ContinuousCoords ℝ W] [ScalarDiv ℝ W] [LawfulScalarDiv ℝ W] in
theorem wt_near {cfg : Cfg} (hmax : cfg.maxBinom ≤ 68) {r : RSpline ℝ V} {ds : List ℕ} (hr : HasRShape ds r)
    (hdeg : ∀ p ∈ ds, p < cfg.maxBinom) {t : List ℝ} (ht : t.length = ds.length) (h0 : r.wt.value t ≠ 0) {e : ℕ} (he : e < t.length) :
    ∀ᶠ x in 𝓝 t[e], r.wt.value (t.set e x) ≠ 0 := by
  obtain ⟨_, _, hw⟩ := first_derivative (s := r.wt) hmax hr.2.1 (by rw [hr.2.2]; exact hdeg) (t := t)
    (by unfold Spline.dim; rw [hr.2.2]; exact ht) (List.getElem?_eq_getElem he)
  exact hw.continuousAt.eventually_ne (by rw [List.set_getElem_self]; exact h0)

/-- C118. The chain rule for a polynomial spline composed with a rational spline, wherever the weight function of the inner function is
not zero. -/
theorem C118_rational_inner (cfg : Cfg) (hmax : cfg.maxBinom ≤ 68) (h2 : 2 ≤ cfg.maxBinom) (outer : Spline V) (inner : RSpline ℝ W)
    (dI : List ℕ) (ho : outer.WF) (hi : HasRShape dI inner) (hdim : outer.dim = Coords.n ℝ W)
    (hcube : inner.fitsIntoUnitCube = .ok true) (hf : ComposeFits cfg outer.degrees dI) (hdegI : ∀ q ∈ dI, q < cfg.maxBinom) :
    ∃ r, Spline.composeRational cfg outer inner = .ok r ∧ ∀ (t : List ℝ) (w : ℝ), t.length = dI.length →
      inner.wt.evaluate t = .ok w → w ≠ 0 →
      ChainRule ℝ dI.length (fun y k => outer.evaluateDerivative cfg y k) (inner.evaluate t) (fun k => inner.evaluateDerivative cfg t k)
        (fun k => r.evaluateDerivative cfg t k) := by
  have hic := rational_computes hi
  obtain ⟨r, e1, hr⟩ := C28_compose cfg hmax outer inner _ dI _ _ _ ho.computes hic hdim hcube hf
  refine ⟨r, e1, fun t w ht hw h0 => ?_⟩
  rw [hic.weight t ht] at hw
  injection hw with hw
  subst hw
  refine ⟨_, hic.eval t ht h0, ?_⟩
  set y : W := (inner.wt.value t)⁻¹ • inner.num.value t with hy
  have hyl : (coordList ℝ y).length = outer.dim := by rw [coordList_length, hdim]
  obtain ⟨D, hD⟩ := value_total (s := outer) hyl
  refine ⟨fun j => D j, fun j => ?_, fun e he => ?_⟩
  · have hj : (j : ℕ) < (coordList ℝ y).length := by rw [coordList_length]; exact j.2
    obtain ⟨u, hu, hu'⟩ := first_derivative hmax ho hf.outer hyl (List.getElem?_eq_getElem hj)
    show outer.evaluateDerivative _ _ _ = _
    rw [hdim] at hu
    rw [hu, hu'.unique (hD.partial hyl (List.getElem?_eq_getElem hj))]
  · have hte : t[e]? = some t[e] := List.getElem?_eq_getElem (by omega)
    obtain ⟨u, hu, hu'⟩ := first_rational hmax h2 hi hdegI ht h0 hte
    refine ⟨u, hu, ?_⟩
    have ht0 : t.set e t[e] = t := List.set_getElem_self _
    have key := TotalAt.chain (F := fun x => outer.value x) hu' (by rw [ht0, ← hdim]; exact hD)
    have hl : (dI.map fun q => outer.degrees.sum * q).length = dI.length := by simp
    rw [← hl]
    refine rational_result hmax h2 (ds := dI.map fun q => outer.degrees.sum * q) ⟨⟨hr.num_wf, hr.num_degrees⟩, ⟨hr.wt_wf, hr.wt_degrees⟩⟩
      (by simpa using hf.result) (by rw [hl]; exact ht) (by rw [hr.wt_value (by rw [hl]; exact ht)]; exact pow_ne_zero _ h0) hte key ?_
    filter_upwards [wt_near hmax hi hdegI ht h0 (e := e) (by omega)] with x hx
    exact hr.eval _ (by simpa using ht) (pow_ne_zero _ hx)

/-- C118. The chain rule for a rational spline composed with a polynomial spline, wherever the weight function of the outer function is
not zero. -/
theorem C118_rational_outer (cfg : Cfg) (hmax : cfg.maxBinom ≤ 68) (h2 : 2 ≤ cfg.maxBinom) (outer : RSpline ℝ V) (inner : Spline W)
    (dO : List ℕ) (ho : HasRShape dO outer) (hi : inner.WF) (hdim : dO.length = Coords.n ℝ W)
    (hcube : Spline.fitsIntoUnitCube ℝ inner = .ok true) (hf : ComposeFits cfg dO inner.degrees)
    (hdegI : ∀ q ∈ inner.degrees, q < cfg.maxBinom) :
    ∃ r, RSpline.compose cfg outer inner = .ok r ∧ ∀ (t : List ℝ) (y : W) (w : ℝ), t.length = inner.dim →
      inner.evaluate t = .ok y → outer.wt.evaluate (coordList ℝ y) = .ok w → w ≠ 0 →
      ChainRule ℝ inner.dim (fun y k => outer.evaluateDerivative cfg y k) (inner.evaluate t) (fun k => inner.evaluateDerivative cfg t k)
        (fun k => r.evaluateDerivative cfg t k) := by
  have hoc := rational_computes ho
  obtain ⟨r, e1, hr⟩ := C29_compose_polynomial cfg hmax outer inner dO _ _ _ _ hoc hi.computes hdim hcube hf
  refine ⟨r, e1, fun t y w ht hy hw h0 => ⟨y, hy, ?_⟩⟩
  rw [Spline.evaluate_ok hi ht] at hy
  injection hy with hy
  subst hy
  have hyl : (coordList ℝ (inner.value t)).length = dO.length := by rw [coordList_length, hdim]
  rw [hoc.weight _ hyl] at hw
  injection hw with hw
  subst hw
  obtain ⟨D, hD⟩ := rational_total ho hyl h0
  refine ⟨fun j => D j, fun j => ?_, fun e he => ?_⟩
  · have hj : (j : ℕ) < (coordList ℝ (inner.value t)).length := by rw [coordList_length]; exact j.2
    obtain ⟨u, hu, hu'⟩ := first_rational hmax h2 ho hf.outer hyl h0 (List.getElem?_eq_getElem hj)
    show outer.evaluateDerivative _ _ _ = _
    rw [hdim] at hu
    rw [hu, hu'.unique (hD.partial hyl (List.getElem?_eq_getElem hj))]
  · have hte : t[e]? = some t[e] := List.getElem?_eq_getElem (by omega)
    obtain ⟨u, hu, hu'⟩ := first_derivative hmax hi hdegI ht hte
    refine ⟨u, hu, ?_⟩
    have ht0 : t.set e t[e] = t := List.set_getElem_self _
    have key := TotalAt.chain (F := fun x => (outer.wt.value x)⁻¹ • outer.num.value x) hu' (by rw [ht0, ← hdim]; exact hD)
    have hl : (inner.degrees.map fun q => dO.sum * q).length = inner.dim := by simp [Spline.dim]
    have hrs : HasRShape (inner.degrees.map fun q => dO.sum * q) r := ⟨⟨hr.num_wf, hr.num_degrees⟩, ⟨hr.wt_wf, hr.wt_degrees⟩⟩
    have hw0 : r.wt.value t ≠ 0 := by rw [hr.wt_value (by rw [hl]; exact ht)]; exact h0
    rw [← hl]
    refine rational_result hmax h2 hrs (by simpa using hf.result) (by rw [hl]; exact ht) hw0 hte key ?_
    filter_upwards [wt_near hmax hrs (by simpa using hf.result) (by rw [hl]; exact ht) hw0 (e := e) (by omega)] with x hx
    rw [hr.wt_value (by rw [hl]; simpa using ht)] at hx
    exact hr.eval _ (by rw [hl]; simpa using ht) hx

/-- C118. The chain rule for a rational spline composed with a rational spline, wherever the weight functions of the inner function and
of the outer function are not zero. -/
theorem C118_rational (cfg : Cfg) (hmax : cfg.maxBinom ≤ 68) (h2 : 2 ≤ cfg.maxBinom) (outer : RSpline ℝ V) (inner : RSpline ℝ W)
    (dO dI : List ℕ) (ho : HasRShape dO outer) (hi : HasRShape dI inner) (hdim : dO.length = Coords.n ℝ W)
    (hf : ComposeFits cfg dO dI) (hdegI : ∀ q ∈ dI, q < cfg.maxBinom) :
    ∃ r, RSpline.composeRational cfg outer inner = .ok r ∧ ∀ (t : List ℝ) (y : W) (w wo : ℝ), t.length = dI.length →
      inner.wt.evaluate t = .ok w → w ≠ 0 → inner.evaluate t = .ok y → outer.wt.evaluate (coordList ℝ y) = .ok wo → wo ≠ 0 →
      ChainRule ℝ dI.length (fun y k => outer.evaluateDerivative cfg y k) (inner.evaluate t) (fun k => inner.evaluateDerivative cfg t k)
        (fun k => r.evaluateDerivative cfg t k) := by
  have hoc := rational_computes ho
  have hic := rational_computes hi
  obtain ⟨r, e1, r1, r2, r3, r4, hr⟩ := C29_compose_rational cfg hmax outer inner dO dI _ _ _ _ hoc hic hdim hf
  refine ⟨r, e1, fun t y w wo ht hw h0 hy hwo hwo0 => ⟨y, hy, ?_⟩⟩
  rw [hic.weight t ht] at hw
  injection hw with hw
  subst hw
  rw [hic.eval t ht h0] at hy
  injection hy with hy
  have hyl : (coordList ℝ y).length = dO.length := by rw [coordList_length, hdim]
  rw [hoc.weight _ hyl] at hwo
  injection hwo with hwo
  subst hwo
  obtain ⟨D, hD⟩ := rational_total ho hyl hwo0
  refine ⟨fun j => D j, fun j => ?_, fun e he => ?_⟩
  · have hj : (j : ℕ) < (coordList ℝ y).length := by rw [coordList_length]; exact j.2
    obtain ⟨u, hu, hu'⟩ := first_rational hmax h2 ho hf.outer hyl hwo0 (List.getElem?_eq_getElem hj)
    show outer.evaluateDerivative _ _ _ = _
    rw [hdim] at hu
    rw [hu, hu'.unique (hD.partial hyl (List.getElem?_eq_getElem hj))]
  · have hte : t[e]? = some t[e] := List.getElem?_eq_getElem (by omega)
    obtain ⟨u, hu, hu'⟩ := first_rational hmax h2 hi hdegI ht h0 hte
    refine ⟨u, hu, ?_⟩
    have ht0 : t.set e t[e] = t := List.set_getElem_self _
    have key := TotalAt.chain (F := fun x => (outer.wt.value x)⁻¹ • outer.num.value x) hu' (by rw [ht0, hy, ← hdim]; exact hD)
    have hl : (dI.map fun q => dO.sum * q).length = dI.length := by simp
    have hrs : HasRShape (dI.map fun q => dO.sum * q) r := ⟨⟨r1, r3⟩, ⟨r2, r4⟩⟩
    have hwt : ∀ x : List ℝ, x.length = dI.length → inner.wt.value x ≠ 0 → r.wt.value x = inner.wt.value x ^ dO.sum *
        outer.wt.value (coordList ℝ ((inner.wt.value x)⁻¹ • inner.num.value x)) := fun x hx hx0 => by
      have := (hr x hx hx0).1
      rw [Spline.evaluate_ok r2 (by unfold Spline.dim; rw [r4, hl]; exact hx)] at this
      injection this
    have hw0 : r.wt.value t ≠ 0 := by
      rw [hwt t ht h0, hy]
      exact mul_ne_zero (pow_ne_zero _ h0) hwo0
    rw [← hl]
    refine rational_result hmax h2 hrs (by simpa using hf.result) (by rw [hl]; exact ht) hw0 hte key ?_
    filter_upwards [wt_near hmax hi hdegI ht h0 (e := e) (by omega),
      wt_near hmax hrs (by simpa using hf.result) (by rw [hl]; exact ht) hw0 (e := e) (by omega)] with x hx hx'
    have hxl : (t.set e x).length = dI.length := by simpa using ht
    rw [hwt _ hxl hx] at hx'
    exact (hr _ hxl hx).2 (right_ne_zero_of_mul hx')

end

/-! ### Examples -/

theorem arc_shape : HasRShape [2] arc := ⟨⟨Ex.curve_wf .., rfl⟩, ⟨Ex.curve_wf .., rfl⟩⟩
theorem sheet_shape : HasRShape [2, 1] sheet := ⟨⟨Ex.surf_wf .., rfl⟩, ⟨Ex.surf_wf .., rfl⟩⟩
/-- a curve in the unit square -/
noncomputable def bow : Spline (Point ℝ 2) := Ex.curve ⟨![0, 0]⟩ ⟨![1, 1 / 2]⟩ ⟨![1 / 3, 1]⟩
theorem bow_wf : bow.WF := Ex.curve_wf ..

theorem bow_fits : Spline.fitsIntoUnitCube ℝ bow = .ok true := by
  rw [fits_iff bow_wf]
  intro x hx j
  have hj : j = (0 : Fin 2) ∨ j = (1 : Fin 2) := by
    obtain ⟨i, hi⟩ := j
    have hi' : i < 2 := hi
    interval_cases i
    · exact Or.inl rfl
    · exact Or.inr rfl
  simp only [bow, Ex.curve, List.mem_cons, List.not_mem_nil, or_false] at hx
  rcases hx with rfl | rfl | rfl <;> rcases hj with rfl | rfl <;> norm_num [Coords.coord]

theorem cfits21_2 : ComposeFits Ex.cfg [2, 1] [2] := ⟨by decide, by decide, by decide, by decide, by decide⟩

example : ∃ r, Spline.compose ℝ Ex.cfg sheet.num bow = .ok r ∧ ∀ t : List ℝ, t.length = bow.dim →
    ChainRule ℝ bow.dim (fun y k => sheet.num.evaluateDerivative Ex.cfg y k) (bow.evaluate t)
      (fun k => bow.evaluateDerivative Ex.cfg t k) (fun k => r.evaluateDerivative Ex.cfg t k) :=
  C118_chain_rule Ex.cfg Ex.cfg_ok sheet.num bow sheet_shape.1.1 bow_wf rfl bow_fits
    (by show ∀ p ∈ [2, 1], p < 30; decide) (by show ∀ p ∈ [2], p < 30; decide) (by show ∀ p ∈ [2], 3 * p < 30; decide)

theorem arc_at (x : ℝ) : arc.wt.evaluate [x] = .ok (1 + x ^ 2) := by
  rw [← arc_weight]; exact Spline.evaluate_ok (K := ℝ) (Ex.curve_wf ..) rfl

/-- the weight function of the arc is positive everywhere, so the chain rule holds for all parameters -/
example : ∃ r, Spline.composeRational Ex.cfg sheet.num arc = .ok r ∧ ∀ x : ℝ,
    ChainRule ℝ 1 (fun y k => sheet.num.evaluateDerivative Ex.cfg y k) (arc.evaluate [x])
      (fun k => arc.evaluateDerivative Ex.cfg [x] k) (fun k => r.evaluateDerivative Ex.cfg [x] k) := by
  obtain ⟨r, h, hc⟩ := C118_rational_inner Ex.cfg Ex.cfg_ok (by decide) sheet.num arc [2] sheet_shape.1.1 arc_shape rfl arc_fits cfits21_2
    (by decide)
  exact ⟨r, h, fun x => hc [x] _ rfl (arc_at x) (by positivity)⟩

/-- the start of the curve, where the weight function of the sheet is one -/
example : ∃ r, RSpline.compose Ex.cfg sheet bow = .ok r ∧
    ChainRule ℝ 1 (fun y k => sheet.evaluateDerivative Ex.cfg y k) (bow.evaluate [(0 : ℝ)])
      (fun k => bow.evaluateDerivative Ex.cfg [(0 : ℝ)] k) (fun k => r.evaluateDerivative Ex.cfg [0] k) := by
  obtain ⟨r, h, hc⟩ := C118_rational_outer Ex.cfg Ex.cfg_ok (by decide) sheet bow [2, 1] sheet_shape bow_wf rfl bow_fits cfits21_2
    (by show ∀ p ∈ [2], p < 30; decide)
  refine ⟨r, h, hc [(0 : ℝ)] ⟨![0, 0]⟩ 1 rfl ?_ ?_ one_ne_zero⟩
  · rw [Spline.evaluate_ok (K := ℝ) bow_wf rfl]
    simp [bow, Spline.value, Ex.curve, bezier, bern, Finset.sum_range_succ, flatIndex]
  · have e : coordList ℝ (⟨![0, 0]⟩ : Point ℝ 2) = [0, 0] := rfl
    rw [e, Spline.evaluate_ok (K := ℝ) sheet_shape.2.1 rfl]
    simp [sheet, Spline.value, Ex.surf, bezier, bern, Finset.sum_range_succ, flatIndex]

/-- the start of the arc, which the sheet maps to a point of weight one -/
example : ∃ r, RSpline.composeRational Ex.cfg sheet arc = .ok r ∧
    ChainRule ℝ 1 (fun y k => sheet.evaluateDerivative Ex.cfg y k) (arc.evaluate [0])
      (fun k => arc.evaluateDerivative Ex.cfg [0] k) (fun k => r.evaluateDerivative Ex.cfg [0] k) := by
  obtain ⟨r, h, hc⟩ := C118_rational Ex.cfg Ex.cfg_ok (by decide) sheet arc [2, 1] [2] sheet_shape arc_shape rfl cfits21_2 (by decide)
  refine ⟨r, h, hc [0] ⟨![1, 0]⟩ _ 1 rfl (arc_at 0) (by norm_num) ?_ ?_ one_ne_zero⟩
  · rw [arc_computes.eval [0] rfl (by rw [arc_weight]; norm_num), arc_weight, arc_num]
    norm_num
  · have e : coordList ℝ (⟨![1, 0]⟩ : Point ℝ 2) = [1, 0] := rfl
    rw [e, Spline.evaluate_ok (K := ℝ) sheet_shape.2.1 rfl]
    simp [sheet, Spline.value, Ex.surf, bezier, bern, Finset.sum_range_succ, flatIndex]

end Bezman.Props
