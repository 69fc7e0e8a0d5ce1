import Verif.Proofs.FloatCompose
import Verif.Props.FloatBounds
import Verif.Props.Box

/-! # C87: rounding errors of compositions in closed form

The inner spline is given by floating-point numbers in the unit cube, as `Compose` requires; then the error does not grow with the degrees beyond
the number of roundings: the bound is relative to the largest control value of the outer spline. -/

namespace Bezman.Props
open Spec
variable {A : FloatArith} {n m : ℕ} (hη : A.η = 0) (hu : A.u ≤ 1 / 2) (cfg : Cfg) (hmax : cfg.maxBinom ≤ 68) (dO dI : List ℕ)
  (hdeg : ∀ p ∈ dO, p < cfg.maxBinom) (hdeg' : ∀ q ∈ dI, dO.sum * q < cfg.maxBinom)

theorem fits_points {s : Spline (Point (Fl A) m)} (h : s.WF) : Spline.fitsIntoUnitCube (Fl A) s = .ok true ↔
    ∀ x ∈ s.cps, ∀ j, 0 ≤ (x.val j).val ∧ (x.val j).val ≤ 1 := by
  obtain ⟨b, h1, h2⟩ := Spline.fits_fl (A := A) (W := Point (Fl A) m) (fun _ _ => rfl) h
  rw [h1]
  exact ⟨fun e => h2.mp (Except.ok.inj e), fun e => congrArg _ (h2.mpr e)⟩

theorem fits_scalar {s : Spline (Fl A)} (h : s.WF) : Spline.fitsIntoUnitCube (Fl A) s = .ok true ↔
    ∀ x ∈ s.cps, 0 ≤ x.val ∧ x.val ≤ 1 := by
  obtain ⟨b, h1, h2⟩ := Spline.fits_fl (A := A) (W := Fl A) (fun f j => congrArg f (Subsingleton.elim (α := Fin 1) 0 j)) h
  rw [h1]
  exact ⟨fun e x hx => h2.mp (Except.ok.inj e) x hx 0, fun e => congrArg _ (h2.mpr fun x hx _ => e x hx)⟩

theorem fits_points_real {s : Spline (Point ℝ m)} (h : s.WF) : Spline.fitsIntoUnitCube ℝ s = .ok true ↔
    ∀ x ∈ s.cps, ∀ j, 0 ≤ x.val j ∧ x.val j ≤ 1 := by
  obtain ⟨b, h1, h2⟩ := C25_fits_iff (K := ℝ) s h
  rw [h1]
  exact ⟨fun e => h2.mp (Except.ok.inj e), fun e => congrArg _ (h2.mpr e)⟩

theorem fits_scalar_real {s : Spline ℝ} (h : s.WF) : Spline.fitsIntoUnitCube ℝ s = .ok true ↔ ∀ x ∈ s.cps, 0 ≤ x ∧ x ≤ 1 := by
  obtain ⟨b, h1, h2⟩ := C25_fits_iff (K := ℝ) s h
  rw [h1]
  exact ⟨fun e x hx => h2.mp (Except.ok.inj e) x hx 0, fun e => congrArg _ (h2.mpr fun x hx _ => e x hx)⟩

theorem compose_of_fits {K V W : Type} [Zero K] [One K] [Add K] [Sub K] [Mul K] [Neg K] [Div K] [NatCast K] [Zero V] [Add V] [SMul K V]
    [Coords K W] [LT K] [DecidableLT K] (cfg : Cfg) (s : Spline V) {i : Spline W} {ds : List ℕ} (hd : i.degrees = ds)
    (h : Spline.fitsIntoUnitCube K i = .ok true) :
    Spline.compose K cfg s i = Spline.composeNumerator cfg s ds (fun d => Spline.extractDimension K i d) (fun e => Spline.pointSub (1 : K) e) := by
  unfold Spline.compose; rw [h, hd]; rfl

/-- C87. The test of the inner spline is exact: in floating-point arithmetic, `Compose` throws if and only if it throws for the same control points
as real numbers. -/
theorem C87_compose_throws (inner : Spline (Point (Fl A) m)) (hi : HasShape dI inner) :
    Spline.fitsIntoUnitCube (Fl A) inner = Spline.fitsIntoUnitCube ℝ inner.exactPoints := by
  have h := fits_points hi.1
  have h' := fits_points_real (Spline.exactPoints_shape hi).1
  obtain ⟨b, e, -⟩ := Spline.fits_fl (A := A) (W := Point (Fl A) m) (fun _ _ => rfl) hi.1
  obtain ⟨b', e', -⟩ := C25_fits_iff (K := ℝ) inner.exactPoints (Spline.exactPoints_shape hi).1
  have : (∀ x ∈ inner.cps, ∀ j, 0 ≤ (x.val j).val ∧ (x.val j).val ≤ 1) ↔ ∀ x ∈ inner.exactPoints.cps, ∀ j, 0 ≤ x.val j ∧ x.val j ≤ 1 := by
    simp [Spline.exactPoints]
  rw [← h, ← h', e, e'] at this
  rw [e, e']
  congr 1
  have h3 : b = true ↔ b' = true := by simpa using this
  cases b <;> cases b' <;> simp_all

include hη hu hmax hdeg hdeg'

/-- C87. `Compose` with an inner spline of points, for outer splines of numbers and of points: the degrees are those of the exact composition, and the
control values differ from the exact ones by at most `composeRoundings` roundings of the bound of the control values of the outer spline. -/
theorem C87_compose (inner : Spline (Point (Fl A) m)) (hi : HasShape dI inner) (hdim : dO.length = m)
    (hcube : Spline.fitsIntoUnitCube (Fl A) inner = .ok true) :
    (∀ (s : Spline (Fl A)) (s' : Spline ℝ) (k : ℕ) (M : ℝ), s.Approx dO k M s' →
      ApproxRuns (dI.map (fun q => dO.sum * q)) (composeRoundings dO dI k 0) M (Spline.compose (Fl A) cfg s inner)
        (Spline.compose ℝ cfg s' inner.exactPoints)) ∧
    ∀ (s : Spline (Point (Fl A) n)) (s' : Spline (Point ℝ n)) (k : ℕ) (M : Fin n → ℝ), s.ApproxPoints dO k M s' →
      ApproxRunsPoints (dI.map (fun q => dO.sum * q)) (composeRoundings dO dI k 0) M (Spline.compose (Fl A) cfg s inner)
        (Spline.compose ℝ cfg s' inner.exactPoints) := by
  subst hdim
  have hx := Spline.exactPoints_shape hi
  have hI : 0 < dI.length := hi.2 ▸ hi.1.dim_pos
  have hcube' : Spline.fitsIntoUnitCube ℝ inner.exactPoints = .ok true := C87_compose_throws dI inner hi ▸ hcube
  have h01 := (fits_points hi.1).mp hcube
  obtain ⟨E, h1, h2, h3⟩ := coordinates (A := A) hi hx (m := dO.length) rfl rfl
    (Q := fun z => Tri.Near 0 z ∧ Tri.Near (0 + 1) (Tri.compl 1 z)) id (by
      simp only [Spline.exactPoints, List.forall₂_map_right_iff, List.forall₂_same]
      intro x hx j hj hj'
      exact near_unit (h01 x hx ⟨j, hj⟩).1 (h01 x hx ⟨j, hj⟩).2)
  constructor
  · intro s s' k M h
    rw [compose_of_fits cfg s hi.2 hcube, compose_of_fits cfg s' hx.2 hcube']
    have := composeNumerator_approx hη hu hmax hI hdeg hdeg' h1 h2 h3 h
    rwa [one_pow, one_mul] at this
  · intro s s' k M h
    rw [compose_of_fits cfg s hi.2 hcube, compose_of_fits cfg s' hx.2 hcube']
    have := composeNumerator_approxPoints hη hu hmax hI hdeg hdeg' h1 h2 h3 h
    simpa only [one_pow, one_mul] using this

/-- C87. `Compose` of curves with an inner spline of numbers. -/
theorem C87_compose_scalar (inner : Spline (Fl A)) (hi : HasShape dI inner) (hdim : dO.length = 1)
    (hcube : Spline.fitsIntoUnitCube (Fl A) inner = .ok true) :
    (∀ (s : Spline (Fl A)) (s' : Spline ℝ) (k : ℕ) (M : ℝ), s.Approx dO k M s' →
      ApproxRuns (dI.map (fun q => dO.sum * q)) (composeRoundings dO dI k 0) M (Spline.compose (Fl A) cfg s inner)
        (Spline.compose ℝ cfg s' inner.exact)) ∧
    ∀ (s : Spline (Point (Fl A) n)) (s' : Spline (Point ℝ n)) (k : ℕ) (M : Fin n → ℝ), s.ApproxPoints dO k M s' →
      ApproxRunsPoints (dI.map (fun q => dO.sum * q)) (composeRoundings dO dI k 0) M (Spline.compose (Fl A) cfg s inner)
        (Spline.compose ℝ cfg s' inner.exact) := by
  have hx := Spline.exact_shape hi
  have hI : 0 < dI.length := hi.2 ▸ hi.1.dim_pos
  have h01 := (fits_scalar hi.1).mp hcube
  have hcube' : Spline.fitsIntoUnitCube ℝ inner.exact = .ok true :=
    (fits_scalar_real hx.1).mpr (by simpa [Spline.exact] using h01)
  obtain ⟨E, h1, h2, h3⟩ := coordinates (A := A) hi hx (m := dO.length) hdim.symm hdim.symm
    (Q := fun z => Tri.Near 0 z ∧ Tri.Near (0 + 1) (Tri.compl 1 z)) id (by
      simp only [Spline.exact, List.forall₂_map_right_iff, List.forall₂_same]
      intro x hx j hj hj'
      exact near_unit (h01 x hx).1 (h01 x hx).2)
  constructor
  · intro s s' k M h
    rw [compose_of_fits cfg s hi.2 hcube, compose_of_fits cfg s' hx.2 hcube']
    have := composeNumerator_approx hη hu hmax hI hdeg hdeg' h1 h2 h3 h
    rwa [one_pow, one_mul] at this
  · intro s s' k M h
    rw [compose_of_fits cfg s hi.2 hcube, compose_of_fits cfg s' hx.2 hcube']
    have := composeNumerator_approxPoints hη hu hmax hI hdeg hdeg' h1 h2 h3 h
    simpa only [one_pow, one_mul] using this

omit hη hu hmax hdeg hdeg' in
theorem le_largest (b : Fin m → ℝ) : 1 ≤ largest b ∧ ∀ j, b j ≤ largest b := by
  unfold largest
  exact ⟨Finset.le_fold_max _ |>.mpr (.inl le_rfl), fun j => Finset.le_fold_max _ |>.mpr (.inr ⟨j, Finset.mem_univ j, le_rfl⟩)⟩

/-- C87. `Compose` with an inner spline that has rounding errors itself: the two inner splines pass the test of the unit cube and differ by `kI`
roundings of quantities of magnitude `b`.  The bound grows by a factor `2 max(1, b)` for each degree of the outer spline. -/
theorem C87_compose_error (inner : Spline (Point (Fl A) m)) (inner' : Spline (Point ℝ m)) (kI : ℕ) (b : Fin m → ℝ)
    (hi : inner.ApproxPoints dI kI b inner') (hdim : dO.length = m) (hcube : Spline.fitsIntoUnitCube (Fl A) inner = .ok true)
    (hcube' : Spline.fitsIntoUnitCube ℝ inner' = .ok true) :
    (∀ (s : Spline (Fl A)) (s' : Spline ℝ) (k : ℕ) (M : ℝ), s.Approx dO k M s' →
      ApproxRuns (dI.map (fun q => dO.sum * q)) (composeRoundings dO dI k kI) ((2 * largest b) ^ dO.sum * M) (Spline.compose (Fl A) cfg s inner)
        (Spline.compose ℝ cfg s' inner')) ∧
    ∀ (s : Spline (Point (Fl A) n)) (s' : Spline (Point ℝ n)) (k : ℕ) (M : Fin n → ℝ), s.ApproxPoints dO k M s' →
      ApproxRunsPoints (dI.map (fun q => dO.sum * q)) (composeRoundings dO dI k kI) (fun c => (2 * largest b) ^ dO.sum * M c)
        (Spline.compose (Fl A) cfg s inner) (Spline.compose ℝ cfg s' inner') := by
  subst hdim
  have hI : 0 < dI.length := hi.shape.2 ▸ hi.shape.1.dim_pos
  have h01 := (fits_points_real hi.shape'.1).mp hcube'
  obtain ⟨hB1, hBj⟩ := le_largest b
  have hu1 : 0 ≤ (1 + A.u) ^ kI - 1 := by have := one_le_pow₀ (n := kI) (by linarith [A.u_nonneg] : 1 ≤ 1 + A.u); linarith
  obtain ⟨E, h1, h2, h3⟩ := coordinates (A := A) hi.shape hi.shape' (m := dO.length) rfl rfl
    (Q := fun z => Tri.Near kI z ∧ Tri.Near (kI + 1) (Tri.compl (2 * largest b) z)) (fun _ => largest b) (by
      rw [List.forall₂_iff_get]
      obtain ⟨hl, hn⟩ := List.forall₂_iff_get.mp hi.near
      refine ⟨hl, fun i hi1 hi2 j hj hj' => ?_⟩
      have := (hn i hi1 hi2 ⟨j, hj⟩).2.trans (mul_le_mul_of_nonneg_left (hBj ⟨j, hj⟩) hu1)
      have h := h01 _ (List.get_mem _ ⟨i, hi2⟩) ⟨j, hj'⟩
      exact near_unit_err hB1 h.1 h.2 this)
  constructor
  · intro s s' k M h
    rw [compose_of_fits cfg s hi.shape.2 hcube, compose_of_fits cfg s' hi.shape'.2 hcube']
    exact composeNumerator_approx hη hu hmax hI hdeg hdeg' h1 h2 h3 h
  · intro s s' k M h
    rw [compose_of_fits cfg s hi.shape.2 hcube, compose_of_fits cfg s' hi.shape'.2 hcube']
    exact composeNumerator_approxPoints hη hu hmax hI hdeg hdeg' h1 h2 h3 h

/-- C87. `Compose` of curves with an inner spline of numbers that has rounding errors itself. -/
theorem C87_compose_error_scalar (inner : Spline (Fl A)) (inner' : Spline ℝ) (kI : ℕ) (b : ℝ) (hi : inner.Approx dI kI b inner')
    (hdim : dO.length = 1) (hcube : Spline.fitsIntoUnitCube (Fl A) inner = .ok true) (hcube' : Spline.fitsIntoUnitCube ℝ inner' = .ok true) :
    (∀ (s : Spline (Fl A)) (s' : Spline ℝ) (k : ℕ) (M : ℝ), s.Approx dO k M s' →
      ApproxRuns (dI.map (fun q => dO.sum * q)) (composeRoundings dO dI k kI) ((2 * max 1 b) ^ dO.sum * M) (Spline.compose (Fl A) cfg s inner)
        (Spline.compose ℝ cfg s' inner')) ∧
    ∀ (s : Spline (Point (Fl A) n)) (s' : Spline (Point ℝ n)) (k : ℕ) (M : Fin n → ℝ), s.ApproxPoints dO k M s' →
      ApproxRunsPoints (dI.map (fun q => dO.sum * q)) (composeRoundings dO dI k kI) (fun c => (2 * max 1 b) ^ dO.sum * M c)
        (Spline.compose (Fl A) cfg s inner) (Spline.compose ℝ cfg s' inner') := by
  have hI : 0 < dI.length := hi.shape.2 ▸ hi.shape.1.dim_pos
  have h01 := (fits_scalar_real hi.shape'.1).mp hcube'
  have hu1 : 0 ≤ (1 + A.u) ^ kI - 1 := by have := one_le_pow₀ (n := kI) (by linarith [A.u_nonneg] : 1 ≤ 1 + A.u); linarith
  obtain ⟨E, h1, h2, h3⟩ := coordinates (A := A) hi.shape hi.shape' (m := dO.length) hdim.symm hdim.symm
    (Q := fun z => Tri.Near kI z ∧ Tri.Near (kI + 1) (Tri.compl (2 * max 1 b) z)) (fun _ => max 1 b) (by
      rw [List.forall₂_iff_get]
      obtain ⟨hl, hn⟩ := List.forall₂_iff_get.mp hi.near
      refine ⟨hl, fun i hi1 hi2 j hj hj' => ?_⟩
      have := (hn i hi1 hi2).2.trans (mul_le_mul_of_nonneg_left (le_max_right 1 b) hu1)
      have h := h01 _ (List.get_mem _ ⟨i, hi2⟩)
      exact near_unit_err (le_max_left 1 b) h.1 h.2 this)
  constructor
  · intro s s' k M h
    rw [compose_of_fits cfg s hi.shape.2 hcube, compose_of_fits cfg s' hi.shape'.2 hcube']
    exact composeNumerator_approx hη hu hmax hI hdeg hdeg' h1 h2 h3 h
  · intro s s' k M h
    rw [compose_of_fits cfg s hi.shape.2 hcube, compose_of_fits cfg s' hi.shape'.2 hcube']
    exact composeNumerator_approxPoints hη hu hmax hI hdeg hdeg' h1 h2 h3 h

/-- C87. Evaluating a composition computed in floating-point arithmetic at parameters of the unit cube gives the value of the outer function at the
value of the inner function, up to `composeRoundings` and three roundings for each degree of the result, relative to the largest control value of
the outer spline. -/
theorem C87_compose_function (s : Spline (Fl A)) (hs : HasShape dO s) (M : ℝ) (hM : ∀ x ∈ s.cps, |x.val| ≤ M) (inner : Spline (Point (Fl A) m))
    (hi : HasShape dI inner) (hdim : dO.length = m) (hcube : Spline.fitsIntoUnitCube (Fl A) inner = .ok true) (t : List (Fl A))
    (ht : t.length = dI.length) (h01 : ∀ x ∈ t, 0 ≤ x.val ∧ x.val ≤ 1) :
    ∃ r y, Spline.compose (Fl A) cfg s inner = .ok r ∧ r.evaluate t = .ok y ∧
      |y.val - s.exact.value (coordList ℝ (inner.exactPoints.value (t.map Fl.val)))| ≤
        ((1 + A.u) ^ (composeRoundings dO dI 0 0 + 3 * (dO.sum * dI.sum)) - 1) * M := by
  have hx := Spline.exactPoints_shape hi
  have hsx := Spline.exact_shape hs
  obtain ⟨r, r', e1, e2, h⟩ := (C87_compose (n := 0) hη hu cfg hmax dO dI hdeg hdeg' inner hi hdim hcube).1 s s.exact 0 M
    (leaf_approx hs hM)
  obtain ⟨y, y', e3, e4, h'⟩ := C87_evaluate hη r r' _ _ M h t (by simpa using ht) h01
  refine ⟨r, y, e1, e3, ?_⟩
  have hc := C26_compose (K := ℝ) cfg hmax s.exact inner.exactPoints dO dI _ _ (by rw [← hsx.2]; exact hsx.1.computes) (by rw [← hx.2]; exact hx.1.computes)
    hdim (C87_compose_throws dI inner hi ▸ hcube) hdeg hdeg'
  rw [e2] at hc
  obtain ⟨r'', e5, hc⟩ := hc
  cases e5
  have e6 := hc.eval (t.map Fl.val) (by simpa using ht)
  rw [e4] at e6
  cases e6
  rw [List.sum_map_mul_left, List.map_id'] at h'
  exact h'

/-! ## Examples -/

/-- a quadratic curve in the unit square -/
noncomputable def exFlI : Spline (Point F64 2) := Ex.curve (ptFl 0 1) (ptFl (1 / 3) (1 / 8)) (ptFl 1 (3 / 4))

omit hη hu hmax hdeg hdeg' in
theorem exFlI_shape : HasShape [2] exFlI := ⟨Ex.curve_wf .., rfl⟩
omit hη hu hmax hdeg hdeg' in
theorem exFlI_fits : Spline.fitsIntoUnitCube F64 exFlI = .ok true := by
  refine (fits_points exFlI_shape.1).mpr fun x hx j => ?_
  simp only [exFlI, Ex.curve, List.mem_cons, List.not_mem_nil, or_false] at hx
  rcases hx with rfl | rfl | rfl <;> fin_cases j <;> simp [ptFl] <;> norm_num

/-- a surface composed with a quadratic curve in double precision: the degree is six, and `composeRoundings` is 84 -/
example : composeRoundings [2, 1] [2] 0 0 = 84 := rfl
example := (C87_compose (n := 2) (A := FloatArith.binary 53) rfl f64_u Ex.cfg Ex.cfg_ok [2, 1] [2] (by decide) (by decide) exFlI exFlI_shape rfl
  exFlI_fits).1 _ _ _ _ exFl_approx
example := (C87_compose (n := 2) (A := FloatArith.binary 53) rfl f64_u Ex.cfg Ex.cfg_ok [2, 1] [2] (by decide) (by decide) exFlI exFlI_shape rfl
  exFlI_fits).2 _ _ _ _ exFlP_approx
/-- in double precision, the value of the composition at 1/4 has an absolute error of less than `520 · 2⁻⁵³` -/
example : ∃ r y, Spline.compose F64 Ex.cfg exFl exFlI = .ok r ∧ r.evaluate [(⟨1 / 4⟩ : F64)] = .ok y ∧
    |y.val - exFl.exact.value (coordList ℝ (exFlI.exactPoints.value [(1 / 4 : ℝ)]))| ≤ 520 * 2 ^ (-53 : ℤ) := by
  obtain ⟨r, y, h1, h2, h3⟩ := C87_compose_function (A := FloatArith.binary 53) rfl f64_u Ex.cfg Ex.cfg_ok [2, 1] [2] (by decide) (by decide) exFl
    ⟨Ex.surf_wf .., rfl⟩ 5 (by simp [exFl, Ex.surf]; norm_num [abs_le]) exFlI exFlI_shape rfl exFlI_fits [⟨1 / 4⟩] rfl (by simp; norm_num)
  refine ⟨r, y, h1, h2, h3.trans ?_⟩
  rw [show composeRoundings [2, 1] [2] 0 0 = 84 from rfl]
  norm_num [FloatArith.binary]

end Bezman.Props
