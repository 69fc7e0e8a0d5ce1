import Verif.Props.ExchangeRational
import Verif.Props.RationalDeriv

/-! # Property C120: derivatives of rational splines -/

namespace Bezman.Props
open Spec

section
variable {𝕜 V : Type} [NontriviallyNormedField 𝕜] [NormedAddCommGroup V] [NormedSpace 𝕜 V]

/-- the chain rule for `1 - t_d`, for all functions -/
theorem pderiv_flip_any : ∀ (d : ℕ) (k : List ℕ) (f : List 𝕜 → V) (t : List 𝕜), d < t.length →
    pderiv k (fun t => f (flipAt d t)) t = (-1 : 𝕜) ^ (k.getD d 0) • pderiv k f (flipAt d t)
  | _, [], f, t, _ => by simp [pderiv]
  | _, _ :: _, _, [], h => by simp at h
  | 0, k :: ks, f, t :: ts, _ => by
    simp only [pderiv, flipAt, List.modify_zero_cons, List.getD_cons_zero]
    rw [iteratedDeriv_comp_const_sub (f := fun x => pderiv ks (fun xs => f (x :: xs)) ts)]
  | d + 1, k :: ks, f, t :: ts, h => by
    simp only [pderiv, flipAt, List.modify_succ_cons, List.getD_cons_succ]
    have e : (fun x => pderiv ks (fun xs => f (x :: List.modify xs d fun x => 1 - x)) ts) =
        fun x => (-1 : 𝕜) ^ (ks.getD d 0) • pderiv ks (fun xs => f (x :: xs)) (List.modify ts d fun x => 1 - x) := by
      funext x
      exact pderiv_flip_any d ks (fun xs => f (x :: xs)) ts (by simpa using h)
    rw [e, iteratedDeriv_fun_const_smul_field]

variable [DecidableEq 𝕜] [ScalarDiv 𝕜 V] [LawfulScalarDiv 𝕜 V] [CharZero 𝕜]

omit [CharZero 𝕜] in
/-- a consistent rational spline computes the quotient -/
theorem rcomputes_of {r : RSpline 𝕜 V} (h : r.num.WF) (h' : r.wt.WF) (hs : r.num.degrees = r.wt.degrees) :
    r.Computes r.num.degrees (fun t : List 𝕜 => (r.wt.value t)⁻¹ • r.num.value t) (fun t => r.wt.value t) :=
  RSpline.Computes.mk' h h' rfl hs.symm (fun _ _ => rfl) (fun t _ h0 => by rw [smul_inv_smul₀ h0])

/-- C120. Derivatives of rational splines change their sign with every derivative in the reversed dimension. -/
theorem C120_rational_evaluate_derivative (d : ℕ) (cfg : Cfg) (hmax : cfg.maxBinom ≤ 68) (r r' : RSpline 𝕜 V) (hd : d < r.num.degrees.length)
    (h : RMirrored d r r') (hdeg : ∀ p ∈ r.num.degrees, p < cfg.maxBinom) (k : List ℕ) (hk : k.length = r.num.degrees.length)
    (hord : ∀ x ∈ k, x < cfg.maxBinom) (hfit : BinomFits k) (t : List 𝕜) (ht : t.length = r.num.degrees.length) (c : 𝕜)
    (hc : r'.wt.evaluate t = .ok c) (h0 : c ≠ 0) :
    ∃ x, r.evaluateDerivative cfg (flipAt d t) k = .ok x ∧ r'.evaluateDerivative cfg t k = .ok ((-1 : 𝕜) ^ (k.getD d 0) • x) := by
  have cn := h.num.wf.computes (K := 𝕜)
  have cw := h.wt.wf.computes (K := 𝕜)
  have cn' := h.num.computes cn hd
  have cw' := h.wt.computes cw (by rw [← h.same]; exact hd)
  have cr := rcomputes_of (𝕜 := 𝕜) h.num.wf h.wt.wf h.same
  have ec : r.wt.value (flipAt d t) = c := by
    have := cw'.eval t (by rw [← h.same]; exact ht)
    rw [hc] at this
    injection this with this
    exact this.symm
  have hc' : r'.Computes r.num.degrees (fun t => (r.wt.value (flipAt d t))⁻¹ • r.num.value (flipAt d t)) (fun t => r.wt.value (flipAt d t)) := by
    refine RSpline.Computes.mk' cn'.wf cw'.wf cn'.degrees_eq (by rw [cw'.degrees_eq, h.same]) (fun t ht => ?_) (fun t ht h0 => ?_)
    · exact cw'.value_eq (by rw [← h.same]; exact ht)
    · rw [smul_inv_smul₀ h0]; exact cn'.value_eq ht
  have e1 := C42_evaluate_derivative cfg hmax r _ _ _ cr hdeg k hk hord hfit (flipAt d t) (by simpa [flipAt] using ht) (by rw [ec]; exact h0)
  have e2 := C42_evaluate_derivative cfg hmax r' _ _ _ hc' hdeg k hk hord hfit t ht (by rw [ec]; exact h0)
  refine ⟨_, e1, ?_⟩
  rw [e2, ← pderiv_flip_any d k _ t (by omega)]

omit [CharZero 𝕜] in
/-- derivatives of a rational spline in exchanged dimensions: mixed derivatives do not depend on the order of the dimensions -/
theorem pderiv_swap_rational {d : ℕ} {r : RSpline 𝕜 V} {ds : List ℕ} {f : List 𝕜 → V} {w : List 𝕜 → 𝕜} (hr : r.Computes ds f w)
    (hd : d + 1 < ds.length) {k : List ℕ} {t : List 𝕜} (hk : k.length = ds.length) (ht : t.length = ds.length) (h0 : w (swapAt d t) ≠ 0) :
    pderiv k (fun t => f (swapAt d t)) t = pderiv (swapAt d k) f (swapAt d t) := by
  have hlt : ∀ u : List 𝕜, u.length = ds.length → (swapAt d u).length = ds.length := fun u hu => by rw [length_swapAt]; exact hu
  have hswap : ∀ (u : List 𝕜) (e : ℕ) (x : 𝕜), u.length = ds.length → swapAt d (u.set e x) = (swapAt d u).set (exchange d e) x :=
    fun u e x hu => swapAt_set d e u (by omega) x
  have hU := nonzero_lineOpen (wtJet_jet (𝕜 := 𝕜) hr.wt_degrees)
  let U : Set (List 𝕜) := {u | swapAt d u ∈ nonzero ds.length (wtJet r)}
  have hU' : LineOpen ds.length U := by
    intro u hu hul e te he
    have := hU (swapAt d u) hu (hlt u hul) (exchange d e) te (by rw [swapAt_getElem? d _ _ (by omega)]; exact he)
    filter_upwards [this] with x hx
    show swapAt d (u.set e x) ∈ nonzero ds.length (wtJet r)
    rw [hswap u e x hul]
    exact hx
  have hJ : Jet ds.length U (fun k u => ratJet r (swapAt d k) (swapAt d u)) := by
    intro u hu hul j hj e te he
    have := ratJet_jet hr (swapAt d u) hu (hlt u hul) (swapAt d j) (by rw [length_swapAt]; exact hj) (exchange d e) te
      (by rw [swapAt_getElem? d _ _ (by omega)]; exact he)
    have eb : swapAt d (bump e j) = bump (exchange d e) (swapAt d j) := swapAt_modify d e j (by omega) _
    simp only [eb]
    refine this.congr_of_eventuallyEq (Filter.Eventually.of_forall fun x => ?_)
    show ratJet r _ (swapAt d (u.set e x)) = _
    rw [hswap u e x hul]
  have ht' : t ∈ U := (mem_nonzero hr (hlt t ht)).mpr h0
  have e1 := hJ.pderiv_eq hU' ht' ht hk
  rw [ratJet_pderiv hr (hlt t ht) h0 (by rw [length_swapAt]; exact hk), ← e1]
  refine pderiv_congr_on hU' (fun u hu hul => ?_) ht' ht k
  have e2 : swapAt d (List.replicate ds.length 0) = List.replicate ds.length 0 :=
    List.eq_replicate_iff.mpr ⟨by rw [length_swapAt, List.length_replicate],
      fun x hx => List.eq_of_mem_replicate ((swapAt_perm d _).mem_iff.mp hx)⟩
  show f _ = ratJet r (swapAt d (List.replicate ds.length 0)) (swapAt d u)
  rw [e2, ratJet_zero hr (hlt u hul) ((mem_nonzero hr (hlt u hul)).mp hu)]

/-- C120. Derivatives of rational splines with exchanged dimensions, with the orders exchanged as well. -/
theorem C120_exchange_rational_evaluate_derivative (d : ℕ) (cfg : Cfg) (hmax : cfg.maxBinom ≤ 68) (r r' : RSpline 𝕜 V)
    (h : RExchanged d r r') (hdeg : ∀ p ∈ r.num.degrees, p < cfg.maxBinom) (k : List ℕ) (hk : k.length = r.num.degrees.length)
    (hord : ∀ x ∈ k, x < cfg.maxBinom) (hfit : BinomFits k) (t : List 𝕜) (ht : t.length = r.num.degrees.length) (c : 𝕜)
    (hc : r.wt.evaluate t = .ok c) (h0 : c ≠ 0) :
    SameResult (r'.evaluateDerivative cfg (swapAt d t) (swapAt d k)) (r.evaluateDerivative cfg t k) := by
  have cn := h.num.wf.computes (K := 𝕜)
  have cw := h.wt.wf.computes (K := 𝕜)
  have cn' := h.num.computes cn
  have cw' := h.wt.computes cw
  have cr := rcomputes_of (𝕜 := 𝕜) h.num.wf h.wt.wf h.same
  have ec : r.wt.value t = c := by
    have := cw.eval t (by rw [← h.same]; exact ht)
    rw [hc] at this
    injection this with this
    exact this.symm
  have hc' : r'.Computes (swapAt d r.num.degrees) (fun t => (r.wt.value (swapAt d t))⁻¹ • r.num.value (swapAt d t))
      (fun t => r.wt.value (swapAt d t)) := by
    refine RSpline.Computes.mk' cn'.wf cw'.wf cn'.degrees_eq (by rw [cw'.degrees_eq, h.same]) (fun t ht => ?_) (fun t ht h0 => ?_)
    · exact cw'.value_eq (by rw [← h.same]; exact ht)
    · rw [smul_inv_smul₀ h0]; exact cn'.value_eq ht
  have hfit' : BinomFits (swapAt d k) := by
    unfold BinomFits at hfit ⊢
    rwa [((swapAt_perm d k).map _).prod_eq]
  have e1 := C42_evaluate_derivative cfg hmax r _ _ _ cr hdeg k hk hord hfit t ht (by rw [ec]; exact h0)
  have e2 := C42_evaluate_derivative cfg hmax r' _ _ _ hc' (fun p hp => hdeg p ((swapAt_perm d _).mem_iff.mp hp)) (swapAt d k)
    (by rw [length_swapAt, length_swapAt]; exact hk) (fun x hx => hord x ((swapAt_perm d _).mem_iff.mp hx)) hfit' (swapAt d t)
    (by rw [length_swapAt, length_swapAt]; exact ht) (by rw [swapAt_swapAt, ec]; exact h0)
  refine ⟨_, ?_, e1⟩
  rw [e2, pderiv_swap_rational cr h.num.inside (by rw [length_swapAt]; exact hk) (by rw [length_swapAt]; exact ht)
    (by rw [swapAt_swapAt, ec]; exact h0), swapAt_swapAt, swapAt_swapAt]

end

/-! ## Examples -/

/-- rational surfaces over the real numbers, reversed and exchanged -/
theorem exRMirrorR : RMirrored 0 (⟨Ex.surf 0 1 4 5 7 9, Ex.surf 1 2 3 4 5 6⟩ : RSpline ℝ ℝ) ⟨Ex.surf 4 1 0 9 7 5, Ex.surf 3 2 1 6 5 4⟩ :=
  ⟨rfl, exMirror .., exMirror ..⟩
@[inherit_doc exRMirrorR]
theorem exRExchangeR : RExchanged 0 (⟨Ex.surf 0 1 4 5 7 9, Ex.surf 1 2 3 4 5 6⟩ : RSpline ℝ ℝ) ⟨Ex.surf' 0 5 1 7 4 9, Ex.surf' 1 4 2 5 3 6⟩ :=
  ⟨rfl, exExchange .., exExchange ..⟩

example : ∃ x, (⟨Ex.surf 0 1 4 5 7 9, Ex.surf 1 2 3 4 5 6⟩ : RSpline ℝ ℝ).evaluateDerivative Ex.cfg (flipAt 0 [0, 0]) [1, 1] = .ok x ∧
    (⟨Ex.surf 4 1 0 9 7 5, Ex.surf 3 2 1 6 5 4⟩ : RSpline ℝ ℝ).evaluateDerivative Ex.cfg [0, 0] [1, 1] =
      .ok ((-1 : ℝ) ^ ([1, 1].getD 0 0) • x) := by
  refine C120_rational_evaluate_derivative 0 Ex.cfg Ex.cfg_ok _ _ (by show 0 < 2; decide) exRMirrorR (by show ∀ p ∈ [2, 1], p < 30; decide)
    [1, 1] rfl (by decide) (by show ([1, 1].map fun k => k.choose (k / 2)).prod < 2 ^ 64; decide) [0, 0] rfl 3 ?_ (by norm_num)
  refine ((Ex.surf_wf (3 : ℝ) 2 1 6 5 4).computes.eval [(0 : ℝ), 0] rfl).trans ?_
  congr 1
  simp [Spline.value, Ex.surf, bezier, bern, Finset.sum_range_succ, flatIndex]

example : SameResult ((⟨Ex.surf' 0 5 1 7 4 9, Ex.surf' 1 4 2 5 3 6⟩ : RSpline ℝ ℝ).evaluateDerivative Ex.cfg (swapAt 0 [0, 0]) (swapAt 0 [2, 1]))
    ((⟨Ex.surf 0 1 4 5 7 9, Ex.surf 1 2 3 4 5 6⟩ : RSpline ℝ ℝ).evaluateDerivative Ex.cfg [0, 0] [2, 1]) := by
  refine C120_exchange_rational_evaluate_derivative 0 Ex.cfg Ex.cfg_ok _ _ exRExchangeR (by show ∀ p ∈ [2, 1], p < 30; decide)
    [2, 1] rfl (by decide) (by show ([2, 1].map fun k => k.choose (k / 2)).prod < 2 ^ 64; decide) [0, 0] rfl 1 ?_ (by norm_num)
  refine ((Ex.surf_wf (1 : ℝ) 2 3 4 5 6).computes.eval [(0 : ℝ), 0] rfl).trans ?_
  congr 1
  simp [Spline.value, Ex.surf, bezier, bern, Finset.sum_range_succ, flatIndex]

end Bezman.Props
