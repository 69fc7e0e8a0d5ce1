import Verif.Props.Chain

/-! # Property C71: laws between composition, splitting and derivatives, as equalities of spline objects -/

namespace Bezman.Props
open Spec

/-! ## C71 -/

section
variable {K V W : Type} [Field K] [LinearOrder K] [IsStrictOrderedRing K] [AddCommGroup V] [Module K V] [AddCommGroup W] [Module K W]
  [Coords K W] [LawfulCoords K W]

/-- C71. Splitting a composition gives the compositions with the parts of the inner function. -/
theorem C71_split_compose (cfg : Cfg) (hmax : cfg.maxBinom ≤ 68) (outer : Spline V) (inner : Spline W) (dO dI : List ℕ) (f : List K → V)
    (g : List K → W) (ho : outer.Computes dO f) (hi : inner.Computes dI g) (hdim : dO.length = Coords.n K W)
    (hcube : Spline.fitsIntoUnitCube K inner = .ok true) (hdeg : ∀ p ∈ dO, p < cfg.maxBinom)
    (hdeg' : ∀ q ∈ dI, dO.sum * q < cfg.maxBinom) (d : ℕ) (hd : d < dI.length) (z : K) (h0 : 0 < z) (h1 : z < 1) :
    ∃ r i₁ i₂ r₁ r₂, Spline.compose K cfg outer inner = .ok r ∧ inner.splitAt z d = .ok (i₁, i₂) ∧
      Spline.compose K cfg outer i₁ = .ok r₁ ∧ Spline.compose K cfg outer i₂ = .ok r₂ ∧ r.splitAt z d = .ok (r₁, r₂) := by
  obtain ⟨r, e1, hr⟩ := C26_compose cfg hmax outer inner dO dI f g ho hi hdim hcube hdeg hdeg'
  obtain ⟨i₁, i₂, e2, c1, c2⟩ := C31_split inner dI g hi d hd z h0 h1
  obtain ⟨i₁', i₂', e2', f1, f2⟩ := C73_split_fits (K := K) inner hi.wf hcube d (by rw [hi.dim_eq]; exact hd) z h0 h1
  rw [e2] at e2'
  obtain ⟨rfl, rfl⟩ := Prod.mk.inj (Except.ok.inj e2')
  obtain ⟨r₁, e3, h3⟩ := C26_compose cfg hmax outer i₁ dO dI f _ ho c1 hdim f1 hdeg hdeg'
  obtain ⟨r₂, e4, h4⟩ := C26_compose cfg hmax outer i₂ dO dI f _ ho c2 hdim f2 hdeg hdeg'
  obtain ⟨s₁, s₂, e5, h5, h6⟩ := C31_split r _ _ hr d (by simpa using hd) z h0 h1
  rw [h5.unique h3, h6.unique h4] at e5
  exact ⟨r, i₁, i₂, r₁, r₂, e1, e2, e3, e4, e5⟩

theorem line_computes (x y : K) : (Ex.line x y).Computes [1] (fun t : List K => (1 - t.getD 0 0) * x + t.getD 0 0 * y) := by
  refine (Ex.line_wf x y).computes.congr fun t ht => ?_
  obtain ⟨a, rfl⟩ := List.length_eq_one_iff.mp ht
  simp [Ex.line, Spline.value, bezier, bern, Finset.sum_range_succ, flatIndex]

theorem line_fits {x y : K} (hx : 0 ≤ x ∧ x ≤ 1) (hy : 0 ≤ y ∧ y ≤ 1) : Spline.fitsIntoUnitCube K (Ex.line x y) = .ok true := by
  rw [fits_iff (Ex.line_wf x y)]
  intro c hc j
  simp only [Ex.line, List.mem_cons, List.not_mem_nil, or_false] at hc
  rcases hc with rfl | rfl
  · exact hx
  · exact hy

/-- C71. The parts of a split curve are its compositions with the two pieces of the unit interval. -/
theorem C71_compose_line (cfg : Cfg) (hmax : cfg.maxBinom ≤ 68) (s : Spline V) (p : ℕ) (f : List K → V) (hs : s.Computes [p] f)
    (hdeg : p < cfg.maxBinom) (z : K) (h0 : 0 < z) (h1 : z < 1) :
    ∃ a b, s.splitAt z 0 = .ok (a, b) ∧ Spline.compose K cfg s (Ex.line 0 z) = .ok a ∧ Spline.compose K cfg s (Ex.line z 1) = .ok b := by
  obtain ⟨a, b, e, ha, hb⟩ := C31_split s [p] f hs 0 (by simp) z h0 h1
  obtain ⟨x, e1, hx⟩ := C26_compose (K := K) cfg hmax s _ [p] [1] f _ hs (line_computes (0 : K) z) rfl
    (line_fits ⟨le_rfl, zero_le_one⟩ ⟨h0.le, h1.le⟩) (by simpa using hdeg) (by simpa using hdeg)
  obtain ⟨y, e2, hy⟩ := C26_compose (K := K) cfg hmax s _ [p] [1] f _ hs (line_computes z (1 : K)) rfl
    (line_fits ⟨h0.le, h1.le⟩ ⟨zero_le_one, le_rfl⟩) (by simpa using hdeg) (by simpa using hdeg)
  have ed : [1].map (fun q => [p].sum * q) = [p] := by simp
  rw [ed] at hx hy
  refine ⟨a, b, e, ?_, ?_⟩
  · rw [e1, hx.unique (ha.congr fun t ht => ?_)]
    obtain ⟨c, rfl⟩ := List.length_eq_one_iff.mp (by simpa using ht)
    congr 1
    simp [coordList, Coords.n, Coords.coord, mul_comm]
  · rw [e2, hy.unique (hb.congr fun t ht => ?_)]
    obtain ⟨c, rfl⟩ := List.length_eq_one_iff.mp (by simpa using ht)
    congr 1
    simp [coordList, Coords.n, Coords.coord]
    ring

end

section
variable {V : Type} [NormedAddCommGroup V] [NormedSpace ℝ V]

theorem pderiv_firstOrder : ∀ (n e : ℕ) (f : List ℝ → V) (t : List ℝ) (x : ℝ), t.length = n → t[e]? = some x →
    pderiv (firstOrder n e) f t = deriv (fun y => f (t.set e y)) x
  | 0, e, f, t, x, ht, hx => by
      rw [List.length_eq_zero_iff] at ht
      simp [ht] at hx
  | n + 1, 0, f, t :: ts, x, _, hx => by
      simp only [List.getElem?_cons_zero, Option.some.injEq] at hx
      subst hx
      simp only [firstOrder, List.replicate_succ, List.set_cons_zero, pderiv, iteratedDeriv_one]
      congr 1
      funext y
      exact pderiv_zeros n _ ts
  | n + 1, e + 1, f, t :: ts, x, ht, hx => by
      simp only [firstOrder, List.replicate_succ, List.set_cons_succ, pderiv, iteratedDeriv_zero]
      exact pderiv_firstOrder n e _ ts x (by simpa using ht) (by simpa using hx)

theorem Computes_hasDerivAt {s : Spline V} {ds : List ℕ} {f : List ℝ → V} (hs : s.Computes ds f) {t : List ℝ} (ht : t.length = ds.length)
    {e : ℕ} {x : ℝ} (hx : t[e]? = some x) : HasDerivAt (fun y => f (t.set e y)) (pderiv (firstOrder ds.length e) f t) x := by
  have ht' : t.length = s.dim := by rw [hs.dim_eq]; exact ht
  obtain ⟨D, hD⟩ := value_total (s := s) ht'
  have h := hD.partial ht' hx
  have hf : (fun y => s.value (t.set e y)) = fun y => f (t.set e y) := by
    funext y
    exact hs.value_eq (by simpa using ht)
  rw [hf] at h
  rw [pderiv_firstOrder _ e f t x ht hx, h.deriv]
  exact h

/-- C71. The chain rule as an equality of splines: the derivative of the composition of a curve with a scalar spline, in any direction of
the inner function, is the product of the derivative of the inner function and the composition of the derivative of the curve. -/
theorem C71_chain (cfg : Cfg) (hmax : cfg.maxBinom ≤ 68) (outer : Spline V) (inner : Spline ℝ) (p : ℕ) (dI : List ℕ) (f : List ℝ → V)
    (g : List ℝ → ℝ) (ho : outer.Computes [p + 1] f) (hi : inner.Computes dI g) (hcube : Spline.fitsIntoUnitCube ℝ inner = .ok true)
    (hdeg : p + 1 < cfg.maxBinom) (hdeg' : ∀ q ∈ dI, (p + 1) * q < cfg.maxBinom) (hsize : size (dI.map fun q => (p + 1) * q) < 2 ^ 64)
    (e q : ℕ) (hq : dI[e]? = some (q + 1)) :
    ∃ r r' o' i' c, Spline.compose ℝ cfg outer inner = .ok r ∧ Spline.derivativeSpline ℝ cfg r (firstOrder dI.length e) = .ok r' ∧
      Spline.derivativeSpline ℝ cfg outer [1] = .ok o' ∧ Spline.derivativeSpline ℝ cfg inner (firstOrder dI.length e) = .ok i' ∧
      Spline.compose ℝ cfg o' inner = .ok c ∧ Spline.mulOp ℝ cfg (fun (c : ℝ) (x : V) => c • x) i' c = .ok r' := by
  obtain ⟨hel, hqe⟩ := List.getElem?_eq_some_iff.mp hq
  have hle : ∀ (l : List ℕ), l.length = dI.length → (∀ x, l[e]? = some x → 1 ≤ x) → ∀ (d o p : ℕ), (firstOrder dI.length e)[d]? = some o →
      l[d]? = some p → o ≤ p := by
    intro l hl h1 d o x h2 h3
    rw [firstOrder, List.getElem?_set] at h2
    split at h2
    · next h => subst h; simp [hel] at h2; subst h2; exact h1 _ h3
    · rw [List.getElem?_replicate] at h2
      split at h2 <;> simp at h2
      omega
  have hord : ∀ o ∈ firstOrder dI.length e, o < cfg.maxBinom := by
    intro o ho
    rcases List.mem_or_eq_of_mem_set ho with h | h
    · rw [List.eq_of_mem_replicate h]; omega
    · omega
  have hlen : (firstOrder dI.length e).length = dI.length := firstOrder_length _ _
  have hsI : size dI < 2 ^ 64 := by
    refine lt_of_le_of_lt (size_le_of_valid ?_) hsize
    refine List.forall₂_iff_get.mpr ⟨by simp, fun i h1 h2 => ?_⟩
    simp only [List.get_eq_getElem, List.getElem_map]
    exact Nat.le_mul_of_pos_left _ (by omega)
  obtain ⟨r, e1, hr⟩ := C26_compose (K := ℝ) cfg hmax outer inner [p + 1] dI f g ho hi rfl hcube (by simpa using hdeg) (by simpa using hdeg')
  obtain ⟨r', e2, hr'⟩ := C13_derivative_spline (𝕜 := ℝ) cfg hmax r _ _ hr (firstOrder dI.length e) (by simp [hlen])
    (hle _ (by simp) (by
      intro x hx
      simp only [List.getElem?_map, hq, Option.map_some, Option.some.injEq] at hx
      subst hx
      simp only [List.sum_singleton]
      exact Nat.mul_pos (by omega) (by omega))) hord (by simpa using hsize)
  obtain ⟨o', e3, ho'⟩ := C13_derivative_spline (𝕜 := ℝ) cfg hmax outer _ _ ho [1] rfl (by
      intro d o x h1 h2
      cases d with
      | zero => simp at h1 h2; omega
      | succ d => simp at h1) (by intro o ho; simp at ho; omega) (by simp [size]; omega)
  obtain ⟨i', e4, hi'⟩ := C13_derivative_spline (𝕜 := ℝ) cfg hmax inner _ _ hi (firstOrder dI.length e) hlen
    (hle _ rfl (by intro x hx; rw [hq] at hx; simp at hx; omega)) hord hsI
  have e0 : List.zipWith (fun x1 x2 => x1 - x2) [p + 1] [1] = [p] := by simp
  rw [e0] at ho'
  obtain ⟨c, e5, hc⟩ := C26_compose (K := ℝ) cfg hmax o' inner [p] dI _ g ho' hi rfl hcube (by intro x hx; simp at hx; omega) (by
    intro x hx
    have := hdeg' x hx
    simp only [List.sum_singleton]
    refine lt_of_le_of_lt (Nat.mul_le_mul_right _ (by omega)) this)
  have ed : sumDegrees (List.zipWith (· - ·) dI (firstOrder dI.length e)) (dI.map fun q => [p].sum * q) =
      List.zipWith (· - ·) (dI.map fun q => [p + 1].sum * q) (firstOrder dI.length e) := by
    apply List.ext_getElem
    · simp [sumDegrees, hlen]
    · intro i h1 h2
      simp only [sumDegrees, List.getElem_zipWith, List.getElem_map, List.sum_singleton, firstOrder, List.getElem_set, List.getElem_replicate]
      split
      · next h => subst h; rw [hqe, add_mul]; omega
      · rw [add_mul]; omega
  obtain ⟨m, e6, hm⟩ := C21_mul_scalar_point cfg hmax i' c _ _ _ _ hi' hc (by simp [hlen]) (by
    rw [ed]
    intro x hx
    obtain ⟨i, hi, rfl⟩ := List.mem_iff_getElem.mp hx
    simp only [List.getElem_zipWith, List.getElem_map, List.sum_singleton]
    exact (Nat.sub_le _ _).trans_lt (hdeg' _ (List.getElem_mem _)))
  rw [ed] at hm
  refine ⟨r, r', o', i', c, e1, e2, e3, e4, e5, ?_⟩
  rw [e6, hm.unique (hr'.congr fun t ht => ?_)]
  have ht' : t.length = dI.length := by simpa [hlen] using ht
  have hte : t[e]? = some t[e] := List.getElem?_eq_getElem (by omega)
  have hcl : ∀ y : ℝ, coordList ℝ y = [y] := fun y => rfl
  have d1 := Computes_hasDerivAt hi ht' hte
  have d2 := Computes_hasDerivAt ho (t := [g t]) (e := 0) rfl rfl
  have d3 := Computes_hasDerivAt hr (t := t) (by simpa using ht') hte
  have ht0 : t.set e t[e] = t := List.set_getElem_self _
  simp only [List.length_map] at d3
  simp only [hcl] at d3 ⊢
  have d4 := HasDerivAt.scomp t[e] (g₁ := fun y => f [y]) (h := fun y => g (t.set e y)) (by rw [ht0]; simpa using d2) d1
  exact d3.unique d4

end

/-! ### Examples -/

/-- a scalar surface with values between zero and one -/
noncomputable def ramp : Spline ℝ := Ex.surf 0 (1 / 2) 1 1 (1 / 3) 0

theorem ramp_fits : Spline.fitsIntoUnitCube ℝ ramp = .ok true := by
  rw [fits_iff (show ramp.WF from Ex.surf_wf ..)]
  intro x hx j
  simp only [ramp, Ex.surf, List.mem_cons, List.not_mem_nil, or_false] at hx
  rcases hx with rfl | rfl | rfl | rfl | rfl | rfl <;> norm_num [Coords.coord]

example : ∃ r r' o' i' c, Spline.compose ℝ Ex.cfg bow ramp = .ok r ∧ Spline.derivativeSpline ℝ Ex.cfg r [0, 1] = .ok r' ∧
    Spline.derivativeSpline ℝ Ex.cfg bow [1] = .ok o' ∧ Spline.derivativeSpline ℝ Ex.cfg ramp [0, 1] = .ok i' ∧
    Spline.compose ℝ Ex.cfg o' ramp = .ok c ∧ Spline.mulOp ℝ Ex.cfg (fun (c : ℝ) (x : Point ℝ 2) => c • x) i' c = .ok r' :=
  C71_chain Ex.cfg Ex.cfg_ok bow ramp 1 [2, 1] _ _ (Spline.WF.computes (K := ℝ) (s := bow) bow_wf)
    (Spline.WF.computes (K := ℝ) (s := ramp) (Ex.surf_wf ..)) ramp_fits (by decide) (by decide) (by decide) 1 0 rfl

example : ∃ r i₁ i₂ r₁ r₂, Spline.compose ℝ Ex.cfg sheet.num bow = .ok r ∧ bow.splitAt (1 / 3 : ℝ) 0 = .ok (i₁, i₂) ∧
    Spline.compose ℝ Ex.cfg sheet.num i₁ = .ok r₁ ∧ Spline.compose ℝ Ex.cfg sheet.num i₂ = .ok r₂ ∧
    r.splitAt (1 / 3 : ℝ) 0 = .ok (r₁, r₂) :=
  C71_split_compose Ex.cfg Ex.cfg_ok sheet.num bow [2, 1] [2] _ _ (Spline.WF.computes (K := ℝ) (s := sheet.num) sheet_shape.1.1)
    (Spline.WF.computes (K := ℝ) (s := bow) bow_wf) rfl bow_fits (by decide) (by decide) 0 (by decide) _ (by norm_num) (by norm_num)

example : ∃ a b, bow.splitAt (1 / 3 : ℝ) 0 = .ok (a, b) ∧ Spline.compose ℝ Ex.cfg bow (Ex.line (0 : ℝ) (1 / 3)) = .ok a ∧
    Spline.compose ℝ Ex.cfg bow (Ex.line (1 / 3 : ℝ) 1) = .ok b :=
  C71_compose_line Ex.cfg Ex.cfg_ok bow 2 _ (Spline.WF.computes (K := ℝ) (s := bow) bow_wf) (by decide) _ (by norm_num) (by norm_num)

end Bezman.Props
