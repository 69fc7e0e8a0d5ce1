import Verif.Proofs.RationalComposeBounds
import Verif.Props.FloatCompose
import Verif.Props.Hull

/-! # C114: rounding errors of compositions of rational splines with polynomial ones, relative to the weights -/

namespace Bezman.Props
open Spec
variable {A : FloatArith} {n m : ℕ}

attribute [local instance] parTriX parScalarTriX parTriY parScalarTriY

section
variable (hη : A.η = 0) (hu : A.u ≤ 1 / 2) (cfg : Cfg) (hmax : cfg.maxBinom ≤ 68) (dO dI : List ℕ)
  (hdeg : ∀ p ∈ dO, p < cfg.maxBinom) (hdeg' : ∀ q ∈ dI, dO.sum * q < cfg.maxBinom)
include hη hu hmax hdeg hdeg'

theorem rboth_compose {V V₁ V₂ ι : Type} {co : ι → V → Tri A} [Zero V] [Add V] [Sub V] [Neg V] [SMul (Tri A) V]
    [Par V V₁] [Par V V₂] [Zero V₁] [Add V₁] [Sub V₁] [Neg V₁] [SMul (Fl A) V₁] [Zero V₂] [Add V₂] [Sub V₂] [Neg V₂] [SMul ℝ V₂]
    [ParPoint (Tri A) (Fl A) V V₁] [ParPoint (Tri A) ℝ V V₂] {x : V → V₁} {y : V → V₂}
    (hx : ∀ (a : V) (b : V₁), a ≋ b ↔ b = x a) (hy : ∀ (a : V) (b : V₂), a ≋ b ↔ b = y a) (hco : Tri.Coordwise co) (hco0 : ∀ c, co c 0 = 0)
    {W W' : Type} [Coords (Fl A) W] [AddCommGroup W'] [Module ℝ W'] [Coords ℝ W'] [LawfulCoords ℝ W'] {inner : Spline W} {inner' : Spline W'}
    (hi : HasShape dI inner) (hi' : HasShape dI inner') (hdim : dO.length = Coords.n ℝ W') {E : ℕ → Spline (Tri A)}
    (hE : ∀ d < dO.length, HasShape dI (E d) ∧ ∀ z ∈ (E d).cps, Tri.NearP₀ 0 z ∧ Tri.NearP₀ (0 + 1) (Tri.compl 1 z))
    (hex : ∀ d < dO.length, Spline.extractDimension (Fl A) inner d = .ok ((E d).map Tri.x))
    (hex' : ∀ d < dO.length, Spline.extractDimension ℝ inner' d = .ok ((E d).map Tri.y))
    (hcube : Spline.fitsIntoUnitCube (Fl A) inner = .ok true) (hcube' : Spline.fitsIntoUnitCube ℝ inner' = .ok true)
    {k : ℕ} {B : ι → ℝ} {r : RSpline (Fl A) V₁} {r' : RSpline ℝ V₂} (h : Tri.RBoth x y dO (Tri.HomPos co B k) r r') :
    Tri.RBothRuns x y (dI.map (fun q => dO.sum * q)) (Tri.HomPos co B (composeRoundings dO dI k 0)) (RSpline.compose cfg r inner)
      (RSpline.compose cfg r' inner') := by
  obtain ⟨H, rfl, rfl, hH, hP⟩ := h
  have hI : 0 < dI.length := hi.2 ▸ hi.1.dim_pos
  obtain ⟨R, r1, r2, f1, f2, f3, f4⟩ := Tri.hom_compose hη hx hy hco hco0 hu hmax hI hdeg hdeg' hE hex hex' hH fun z hz => (hP z hz).2
  have of : ∀ {K U : Type} (a : Tri A → K) (b : V → U), RSpline.ofSplines ((R.map Prod.fst).map b) ((R.map Prod.snd).map a) =
      .ok ((RSpline.ofHom R).map a b) := fun a b => by
    simp [RSpline.ofSplines, RSpline.compatible, Spline.map, assertM, pure_eq_ok, RSpline.ofHom, RSpline.map, bind_ok]
  refine ⟨_, _, ?_, ?_, R, rfl, rfl, r1, fun z hz => ⟨?_, r2 z hz⟩⟩
  · show RSpline.compose cfg ⟨(H.map Prod.fst).map x, (H.map Prod.snd).map Tri.x⟩ inner = _
    unfold RSpline.compose
    rw [compose_of_fits cfg _ hi.2 hcube, compose_of_fits cfg _ hi.2 hcube, f1, f2]
    exact of Tri.x x
  · show RSpline.compose cfg ⟨(H.map Prod.fst).map y, (H.map Prod.snd).map Tri.y⟩ inner' = _
    unfold RSpline.compose
    rw [compose_of_fits cfg _ hi'.2 hcube', compose_of_fits cfg _ hi'.2 hcube', f3, f4]
    exact of Tri.y y
  · have hw : HasShape dO ((H.map Prod.snd).map Tri.y) := ⟨(hH.1.map _).map _, hH.2⟩
    obtain ⟨w, e, hw⟩ := C73_compose (K := ℝ) cfg hmax _ inner' hw.1 hi'.1 (by unfold Spline.dim; rw [hw.2, hdim]) hcube' (by rw [hw.2]; exact hdeg)
      (by rw [hw.2, hi'.2]; exact hdeg') (Set.Ioi 0) (convex_Ioi 0) (by
        intro c hc
        simp only [Spline.map, List.map_map, List.mem_map] at hc
        obtain ⟨v, hv, rfl⟩ := hc
        exact (hP v hv).1)
    rw [compose_of_fits cfg _ hi'.2 hcube', f4] at e
    obtain rfl := Except.ok.inj e
    exact hw _ (by simp only [Spline.map, List.map_map]; exact List.mem_map_of_mem hz)

/-- C114. `Compose` of a rational spline with a polynomial spline of points, for rational splines of points and of numbers: weights and weighted
control points of the result differ from those of the exact composition by at most `composeRoundings` roundings, relative to the exact weight of the
result. -/
theorem C114_compose (inner : Spline (Point (Fl A) m)) (hi : HasShape dI inner) (hdim : dO.length = m)
    (hcube : Spline.fitsIntoUnitCube (Fl A) inner = .ok true) :
    (∀ (r : RSpline (Fl A) (Point (Fl A) n)) (r' : RSpline ℝ (Point ℝ n)) (k : ℕ) (B : Fin n → ℝ), r.ApproxPoints dO k B r' →
      RApproxRuns (dI.map (fun q => dO.sum * q)) (composeRoundings dO dI k 0) B (RSpline.compose cfg r inner)
        (RSpline.compose cfg r' inner.exactPoints)) ∧
    ∀ (r : RSpline (Fl A) (Fl A)) (r' : RSpline ℝ ℝ) (k : ℕ) (B : ℝ), r.Approx dO k B r' →
      RApproxRuns₁ (dI.map (fun q => dO.sum * q)) (composeRoundings dO dI k 0) B (RSpline.compose cfg r inner)
        (RSpline.compose cfg r' inner.exactPoints) := by
  subst hdim
  have hx := Spline.exactPoints_shape hi
  have hcube' : Spline.fitsIntoUnitCube ℝ inner.exactPoints = .ok true := C87_compose_throws dI inner hi ▸ hcube
  have h01 := (fits_points hi.1).mp hcube
  obtain ⟨E, h1, h2, h3⟩ := coordinates (A := A) hi hx (m := dO.length) rfl rfl
    (Q := fun z => Tri.NearP₀ 0 z ∧ Tri.NearP₀ (0 + 1) (Tri.compl 1 z)) id (by
      simp only [Spline.exactPoints, List.forall₂_map_right_iff, List.forall₂_same]
      intro x hx j hj hj'
      exact Tri.nearP₀_unit (h01 x hx ⟨j, hj⟩).1 (h01 x hx ⟨j, hj⟩).2)
  exact ⟨fun r r' k B h => Tri.approxRuns_iff.mpr (rboth_compose hη hu cfg hmax dO dI hdeg hdeg' Tri.x_iffP Tri.y_iffP Tri.coordwiseP (fun _ => rfl)
      hi hx rfl h1 h2 h3 hcube hcube' (Tri.approxPoints_iff.mp h)),
    fun r r' k B h => Tri.approxRuns₁_iff.mpr (rboth_compose hη hu cfg hmax dO dI hdeg hdeg' Tri.x_iff Tri.y_iff Tri.coordwise₁ (fun _ => rfl)
      hi hx rfl h1 h2 h3 hcube hcube' (Tri.approx_iff.mp h))⟩

/-- C114. `Compose` of rational curves with an inner spline of numbers. -/
theorem C114_compose_scalar (inner : Spline (Fl A)) (hi : HasShape dI inner) (hdim : dO.length = 1)
    (hcube : Spline.fitsIntoUnitCube (Fl A) inner = .ok true) :
    (∀ (r : RSpline (Fl A) (Point (Fl A) n)) (r' : RSpline ℝ (Point ℝ n)) (k : ℕ) (B : Fin n → ℝ), r.ApproxPoints dO k B r' →
      RApproxRuns (dI.map (fun q => dO.sum * q)) (composeRoundings dO dI k 0) B (RSpline.compose cfg r inner)
        (RSpline.compose cfg r' inner.exact)) ∧
    ∀ (r : RSpline (Fl A) (Fl A)) (r' : RSpline ℝ ℝ) (k : ℕ) (B : ℝ), r.Approx dO k B r' →
      RApproxRuns₁ (dI.map (fun q => dO.sum * q)) (composeRoundings dO dI k 0) B (RSpline.compose cfg r inner)
        (RSpline.compose cfg r' inner.exact) := by
  have hx := Spline.exact_shape hi
  have h01 := (fits_scalar hi.1).mp hcube
  have hcube' : Spline.fitsIntoUnitCube ℝ inner.exact = .ok true :=
    (fits_scalar_real hx.1).mpr (by simpa [Spline.exact] using h01)
  obtain ⟨E, h1, h2, h3⟩ := coordinates (A := A) hi hx (m := dO.length) hdim.symm hdim.symm
    (Q := fun z => Tri.NearP₀ 0 z ∧ Tri.NearP₀ (0 + 1) (Tri.compl 1 z)) id (by
      simp only [Spline.exact, List.forall₂_map_right_iff, List.forall₂_same]
      intro x hx j hj hj'
      exact Tri.nearP₀_unit (h01 x hx).1 (h01 x hx).2)
  exact ⟨fun r r' k B h => Tri.approxRuns_iff.mpr (rboth_compose hη hu cfg hmax dO dI hdeg hdeg' Tri.x_iffP Tri.y_iffP Tri.coordwiseP (fun _ => rfl)
      hi hx hdim h1 h2 h3 hcube hcube' (Tri.approxPoints_iff.mp h)),
    fun r r' k B h => Tri.approxRuns₁_iff.mpr (rboth_compose hη hu cfg hmax dO dI hdeg hdeg' Tri.x_iff Tri.y_iff Tri.coordwise₁ (fun _ => rfl)
      hi hx hdim h1 h2 h3 hcube hcube' (Tri.approx_iff.mp h))⟩
end
end Bezman.Props
