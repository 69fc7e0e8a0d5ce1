import Verif.Proofs.FloatComposePrograms
import Verif.Props.AnyArith

/-! # C87: rounding errors of programs with compositions

A program with compositions throws in one arithmetic and not in the other if an inner spline touches the boundary of the unit cube; if both runs
return, the bounds of C87 hold. -/

namespace Bezman.Props
open Spec
variable {A : FloatArith} {n : ℕ}

section
variable (hη : A.η = 0) (hu : A.u ≤ 1 / 2) (cfg : Cfg) (hmax : cfg.maxBinom ≤ 68) (σ : Vars (Fl A) n) (ds dp : ℕ → List ℕ) (bs : ℕ → ℝ)
  (bp : ℕ → Fin n → ℝ) (hs : ∀ i, HasShape (ds i) (σ.s i)) (hp : ∀ i, HasShape (dp i) (σ.p i))
  (hbs : ∀ i, ∀ x ∈ (σ.s i).cps, |x.val| ≤ bs i) (hbp : ∀ i, ∀ x ∈ (σ.p i).cps, ∀ c, |(x.val c).val| ≤ bp i c)
include hη hu hmax hs hp hbs hbp

/-- C87. A program with compositions and with a scalar valued result: if it returns in floating-point arithmetic and in exact arithmetic, the
results differ by at most the error of the roundings of the program. -/
theorem C87_scalar_composed_program (e : SExpr (Fl A) n) (he : e.WellShaped cfg ds dp) (hel : e.SingleSplits) :
    ApproxIfReturn (e.shape ds dp) (e.roundings ds dp) (e.bound ds dp bs bp) (e.run cfg σ) ((e.map Fl.val).run cfg (σ.map Fl.val)) :=
  SExpr.run_near hη hu hmax (fun i => leaf_approx (hs i) (hbs i)) (fun i => leaf_approx_points (hp i) (hbp i)) e he hel

/-- C87 for programs with compositions and with point valued results. -/
theorem C87_point_composed_program (e : PExpr (Fl A) n) (he : e.WellShaped cfg ds dp) (hel : e.SingleSplits) :
    ApproxIfReturnPoints (e.shape ds dp) (e.roundings ds dp) (e.bound ds dp bs bp) (e.run cfg σ) ((e.map Fl.val).run cfg (σ.map Fl.val)) :=
  PExpr.run_near hη hu hmax (fun i => leaf_approx (hs i) (hbs i)) (fun i => leaf_approx_points (hp i) (hbp i)) e he hel
end

section
variable (hη : A.η = 0) (hu : A.u ≤ 1 / 2) (cfg : Cfg) (hmax : cfg.maxBinom ≤ 68) (σ : Vars (Fl A) n) (μ : Meaning n)
  (hμ : μ.Of (σ.map Fl.val)) (bs : ℕ → ℝ) (bp : ℕ → Fin n → ℝ)
  (hbs : ∀ i, ∀ x ∈ (σ.s i).cps, |x.val| ≤ bs i) (hbp : ∀ i, ∀ x ∈ (σ.p i).cps, ∀ c, |(x.val c).val| ≤ bp i c)
include hη hu hmax hμ hbs hbp

/-- C87. A program with compositions that meets the preconditions in exact arithmetic: in floating-point arithmetic it throws an exception, or it
returns a spline whose value at any parameter of the unit cube is that of the function that calculus assigns to the program, up to the bound. -/
theorem C87_scalar_composed_function (e : SExpr (Fl A) n) (he : e.WellShaped cfg μ.ds μ.dp) (hel : e.SingleSplits)
    (had : (e.map Fl.val).Admissible cfg (σ.map Fl.val) μ) (t : List (Fl A))
    (ht : t.length = (e.shape μ.ds μ.dp).length) (h01 : ∀ x ∈ t, 0 ≤ x.val ∧ x.val ≤ 1) :
    e.run cfg σ = .error .throws ∨ ∃ r y, e.run cfg σ = .ok r ∧ r.evaluate t = .ok y ∧
      |y.val - (e.map Fl.val).denote μ (t.map Fl.val)| ≤
        ((1 + A.u) ^ (e.roundings μ.ds μ.dp + 3 * (e.shape μ.ds μ.dp).sum) - 1) * e.bound μ.ds μ.dp bs bp := by
  obtain ⟨hs, hp⟩ := shape_of_meaning σ μ hμ
  rcases C80_scalar_program cfg hmax σ _ _ hs hp e he with h | ⟨r, e1, -⟩
  · exact .inl h
  refine .inr ?_
  obtain ⟨r', e2, h5⟩ := C72_scalar cfg hmax _ μ hμ _ had
  have h := C87_scalar_composed_program hη hu cfg hmax σ _ _ bs bp hs hp hbs hbp e he hel r r' e1 e2
  obtain ⟨y, z, e3, e4, h3⟩ := h.evaluate hη ht h01
  have e6 := h5.eval (t.map Fl.val) (by rw [List.length_map, ht, SExpr.map_degrees])
  rw [e4] at e6
  obtain rfl : z = _ := Except.ok.inj e6
  exact ⟨r, y, e1, e3, h3⟩

/-- C87. The same for point valued results. -/
theorem C87_point_composed_function (e : PExpr (Fl A) n) (he : e.WellShaped cfg μ.ds μ.dp) (hel : e.SingleSplits)
    (had : (e.map Fl.val).Admissible cfg (σ.map Fl.val) μ) (t : List (Fl A))
    (ht : t.length = (e.shape μ.ds μ.dp).length) (h01 : ∀ x ∈ t, 0 ≤ x.val ∧ x.val ≤ 1) :
    e.run cfg σ = .error .throws ∨ ∃ r y, e.run cfg σ = .ok r ∧ r.evaluate t = .ok y ∧
      ∀ c, |(y.val c).val - ((e.map Fl.val).denote μ (t.map Fl.val)).val c| ≤
        ((1 + A.u) ^ (e.roundings μ.ds μ.dp + 3 * (e.shape μ.ds μ.dp).sum) - 1) * e.bound μ.ds μ.dp bs bp c := by
  obtain ⟨hs, hp⟩ := shape_of_meaning σ μ hμ
  rcases C80_point_program cfg hmax σ _ _ hs hp e he with h | ⟨r, e1, -⟩
  · exact .inl h
  refine .inr ?_
  obtain ⟨r', e2, h5⟩ := C72_point cfg hmax _ μ hμ _ had
  have h := C87_point_composed_program hη hu cfg hmax σ _ _ bs bp hs hp hbs hbp e he hel r r' e1 e2
  obtain ⟨y, z, e3, e4, h3⟩ := h.evaluate hη ht h01
  have e6 := h5.eval (t.map Fl.val) (by rw [List.length_map, ht, PExpr.map_degrees])
  rw [e4] at e6
  obtain rfl : z = _ := Except.ok.inj e6
  exact ⟨r, y, e1, e3, h3⟩
end

/-! ## Examples -/

noncomputable def σC : Vars F64 2 := ⟨fun _ => exFl, fun _ => exFlI⟩

/-- the sum of a surface along a quadratic curve in its domain and of the square of the first coordinate of the curve -/
noncomputable def progC : SExpr F64 2 := .add (.compose (.leaf 0) (.leaf 0)) (.power (.extract (.leaf 0) 0) 2)

theorem progC_wellShaped : progC.WellShaped Ex.cfg (fun _ => [2, 1]) (fun _ => [2]) := by
  refine ⟨⟨trivial, trivial, rfl, ?_, ?_⟩, ⟨⟨trivial, by decide⟩, ?_⟩, rfl, ?_, ?_, ?_⟩ <;> decide

theorem exFlI_bound : ∀ x ∈ exFlI.cps, ∀ c, |(x.val c).val| ≤ (fun _ => 1 : Fin 2 → ℝ) c := fun x hx c => by
  have := (fits_points exFlI_shape.1).mp exFlI_fits x hx c
  rw [abs_of_nonneg this.1]; exact this.2

noncomputable def μC : Meaning 2 := ⟨fun _ => [2, 1], fun _ => (exFl.map Fl.val).value, fun _ => [2], fun _ => (exFlI.map (Point.map Fl.val)).value⟩

theorem exFlI_approx : exFlI.ApproxPoints [2] 0 (fun _ => 1) (exFlI.map (Point.map Fl.val)) := leaf_approx_points exFlI_shape exFlI_bound

theorem μC_of : μC.Of (σC.map Fl.val) := ⟨fun _ => exFl_approx.shape'.1.computes, fun _ => exFlI_approx.shape'.1.computes⟩

theorem exFlI_fits_exact : Spline.fitsIntoUnitCube ℝ (exFlI.map (Point.map Fl.val)) = .ok true :=
  (C87_compose_throws [2] exFlI exFlI_shape).symm.trans exFlI_fits

example := C87_scalar_composed_program (A := FloatArith.binary 53) rfl f64_u Ex.cfg Ex.cfg_ok σC (fun _ => [2, 1]) (fun _ => [2]) (fun _ => 5)
  (fun _ _ => 1) (fun _ => exFl_approx.shape) (fun _ => exFlI_shape) (fun _ => by simp [σC, exFl, Ex.surf]; norm_num [abs_le]) (fun _ => exFlI_bound)
  progC progC_wellShaped ⟨⟨trivial, trivial⟩, trivial⟩

example := C87_scalar_composed_function (A := FloatArith.binary 53) rfl f64_u Ex.cfg Ex.cfg_ok σC μC μC_of (fun _ => 5) (fun _ _ => 1)
  (fun _ => by simp [σC, exFl, Ex.surf]; norm_num [abs_le]) (fun _ => exFlI_bound) progC progC_wellShaped ⟨⟨trivial, trivial⟩, trivial⟩
  ⟨⟨trivial, trivial, rfl, fun r h => by cases h; exact exFlI_fits_exact, by decide, by decide⟩, ⟨⟨trivial, by decide⟩, by decide⟩, rfl, by decide, by decide, by decide⟩
  [⟨1 / 4⟩] rfl (by simp; norm_num)

end Bezman.Props
