import Verif.Proofs.RExpr
import Verif.Props.Laws

/-! # Property C77: programs over rational splines -/

namespace Bezman.Props
open Spec

/-! ## C77 -/

variable {n : ℕ}

/-- C77. Every program over rational and polynomial splines whose calls meet their preconditions runs without error, and its
result has the degrees, the weight function and the function that calculus assigns to the expression. -/
theorem C77_scalar (cfg : Cfg) (hmax : cfg.maxBinom ≤ 68) (σ : RVars ℝ n) (μ : RMeaning n) (h : μ.Of σ) (e : RSExpr ℝ n)
    (he : e.Admissible cfg σ μ) : ∃ r, e.run cfg σ = .ok r ∧ r.Computes (e.shape μ).1 (e.denote μ) (e.shape μ).2 :=
  RSExpr.run_ok hmax h e he

/-- C77 for point valued results. -/
theorem C77_point (cfg : Cfg) (hmax : cfg.maxBinom ≤ 68) (σ : RVars ℝ n) (μ : RMeaning n) (h : μ.Of σ) (e : RPExpr ℝ n)
    (he : e.Admissible cfg σ μ) : ∃ r, e.run cfg σ = .ok r ∧ r.Computes (e.shape μ).1 (e.denote μ) (e.shape μ).2 :=
  RPExpr.run_ok hmax h e he

/-- C77. If the rational splines that go in have positive weights and inner functions of compositions lie in the unit cube, then
the result has positive weights and can be evaluated on the whole unit cube: `Evaluate` never divides by zero there and returns
the value of the function that the program means. -/
theorem C77_scalar_everywhere (cfg : Cfg) (hmax : cfg.maxBinom ≤ 68) (σ : RVars ℝ n) (μ : RMeaning n) (h : μ.Of σ) (e : RSExpr ℝ n)
    (he : e.Admissible cfg σ μ) (hp : e.Positive cfg σ) :
    ∃ r, e.run cfg σ = .ok r ∧ (∀ c ∈ r.wt.cps, 0 < c) ∧
      ∀ t : List ℝ, t.length = (e.shape μ).1.length → InCube t → r.evaluate t = .ok (e.denote μ t) := by
  obtain ⟨r, hr, hc⟩ := C77_scalar cfg hmax σ μ h e he
  have hpos := RSExpr.run_pos hmax h e he hp r hr
  exact ⟨r, hr, hpos, fun t ht h01 => (C76_evaluate r _ _ _ hc hpos t ht h01).1⟩

/-- C77 for point valued results. -/
theorem C77_point_everywhere (cfg : Cfg) (hmax : cfg.maxBinom ≤ 68) (σ : RVars ℝ n) (μ : RMeaning n) (h : μ.Of σ) (e : RPExpr ℝ n)
    (he : e.Admissible cfg σ μ) (hp : e.Positive cfg σ) :
    ∃ r, e.run cfg σ = .ok r ∧ (∀ c ∈ r.wt.cps, 0 < c) ∧
      ∀ t : List ℝ, t.length = (e.shape μ).1.length → InCube t → r.evaluate t = .ok (e.denote μ t) := by
  obtain ⟨r, hr, hc⟩ := C77_point cfg hmax σ μ h e he
  have hpos := RPExpr.run_pos hmax h e he hp r hr
  exact ⟨r, hr, hpos, fun t ht h01 => (C76_evaluate r _ _ _ hc hpos t ht h01).1⟩

/-! ### Examples -/

/-- a quarter of the unit circle -/
noncomputable def arc : RSpline ℝ (Point ℝ 2) := ⟨Ex.curve ⟨![1, 0]⟩ ⟨![1, 1]⟩ ⟨![0, 2]⟩, Ex.curve 1 1 2⟩
/-- a rational surface in the plane -/
noncomputable def sheet : RSpline ℝ (Point ℝ 2) :=
  ⟨Ex.surf ⟨![0, 0]⟩ ⟨![2, 0]⟩ ⟨![1, 1]⟩ ⟨![0, 3]⟩ ⟨![1 / 2, 1]⟩ ⟨![1 / 3, 1]⟩, Ex.surf 1 2 1 3 (1 / 2) 1⟩

theorem arc_computes : arc.Computes [2] (fun t : List ℝ => (arc.wt.value t)⁻¹ • arc.num.value t) (fun t => arc.wt.value t) :=
  RSpline.computes_of (n := arc.num) (d := arc.wt) (Spline.WF.computes (K := ℝ) (s := arc.num) (Ex.curve_wf ..))
    (Spline.WF.computes (K := ℝ) (s := arc.wt) (Ex.curve_wf ..))

theorem sheet_computes : sheet.Computes [2, 1] (fun t : List ℝ => (sheet.wt.value t)⁻¹ • sheet.num.value t)
    (fun t => sheet.wt.value t) :=
  RSpline.computes_of (n := sheet.num) (d := sheet.wt) (Spline.WF.computes (K := ℝ) (s := sheet.num) (Ex.surf_wf ..))
    (Spline.WF.computes (K := ℝ) (s := sheet.wt) (Ex.surf_wf ..))

theorem arc_weight (x : ℝ) : arc.wt.value [x] = 1 + x ^ 2 := by
  simp [arc, Spline.value, Ex.curve, bezier, bern, Finset.sum_range_succ, flatIndex]; ring

theorem arc_num (x : ℝ) : arc.num.value [x] = ⟨![1 - x ^ 2, 2 * x]⟩ := by
  simp only [arc, Spline.value, Ex.curve, bezier, bern, Finset.sum_range_succ, flatIndex]
  apply Point.ext
  funext j
  fin_cases j <;> simp <;> ring

theorem arc_pos : ∀ c ∈ arc.wt.cps, 0 < c := by simp [arc, Ex.curve]

theorem arc_fits : arc.fitsIntoUnitCube = .ok true := by
  rw [rfits_iff arc_computes arc_pos]
  intro x hx j
  have hj : j = (0 : Fin 2) ∨ j = (1 : Fin 2) := by
    obtain ⟨i, hi⟩ := j
    have hi' : i < 2 := hi
    interval_cases i
    · exact Or.inl rfl
    · exact Or.inr rfl
  simp only [RSpline.euclid, arc, Ex.curve, tab, size, List.mem_map, List.mem_range] at hx
  obtain ⟨i, hi, rfl⟩ := hx
  have hi' : i < 3 := by simpa using hi
  interval_cases i <;> rcases hj with rfl | rfl <;> simp [Coords.coord]

/-- the variables of the example programs -/
noncomputable def σR : RVars ℝ 2 := { σE with rs := fun _ => ⟨AR, Ex.surf 1 2 1 3 (1 / 2) 1⟩, rp := fun i => if i = 0 then arc else sheet }

noncomputable def μR : RMeaning 2 := { μE with
  drs := fun _ => [2, 1]
  frs := fun i t => ((σR.rs i).wt.value t)⁻¹ • (σR.rs i).num.value t
  wrs := fun i => (σR.rs i).wt.value
  drp := fun i => if i = 0 then [2] else [2, 1]
  frp := fun i t => ((σR.rp i).wt.value t)⁻¹ • (σR.rp i).num.value t
  wrp := fun i => (σR.rp i).wt.value }

theorem μR_of : μR.Of σR := by
  refine ⟨μE_of, fun i => ?_, fun i => ?_⟩
  · exact RSpline.computes_of (n := (σR.rs i).num) (d := (σR.rs i).wt) (Spline.WF.computes (K := ℝ) (s := (σR.rs i).num) AR_wf)
      (Spline.WF.computes (K := ℝ) (s := (σR.rs i).wt) (Ex.surf_wf ..))
  · by_cases h : i = 0
    · subst h; exact arc_computes
    · have e1 : σR.rp i = sheet := if_neg h
      have e2 : μR.drp i = [2, 1] := if_neg h
      have e3 : μR.frp i = fun t : List ℝ => (sheet.wt.value t)⁻¹ • sheet.num.value t := by
        show (fun t : List ℝ => ((σR.rp i).wt.value t)⁻¹ • (σR.rp i).num.value t) = _; rw [e1]
      have e4 : μR.wrp i = sheet.wt.value := by show (σR.rp i).wt.value = _; rw [e1]
      rw [e1, e2, e3, e4]; exact sheet_computes

def cfg2 : Cfg := ⟨30, 40⟩

/-- the program that composes the surface with the arc, takes the left third, subtracts the arc and differentiates -/
noncomputable def progR : RPExpr ℝ 2 := .deriv (.sub (.splitLeft (.compose (.leaf 1) (.leaf 0)) (1 / 3) 0) (.leaf 0)) [1]

theorem progR_inner : (RPExpr.shape μR (.splitLeft (.compose (.leaf 1) (.leaf 0)) (1 / 3) 0)).1 = [6] := by
  simp [RPExpr.shape, μR]

theorem progR_degrees :
    (RPExpr.shape μR (.sub (.splitLeft (.compose (.leaf 1) (.leaf 0)) (1 / 3) 0) (.leaf 0))).1 = [8] := by
  rw [RPExpr.shape, sumShape, if_neg]
  · rw [progR_inner]; rfl
  · rw [progR_inner]; rintro ⟨h, -⟩; simp [RPExpr.shape, μR] at h

theorem progR_admissible : progR.Admissible cfg2 σR μR := by
  refine ⟨⟨⟨⟨trivial, trivial, rfl, ?_, ?_⟩, ?_, by norm_num, by norm_num⟩, trivial, ?_⟩, ?_, ?_, ?_⟩
  · intro t ht
    obtain ⟨x, rfl⟩ := List.length_eq_one_iff.mp ht
    show arc.wt.value [x] ≠ 0
    rw [arc_weight]; positivity
  · constructor <;> simp [RPExpr.shape, μR, cfg2, size]
  · simp [RPExpr.shape, μR]
  · rw [progR_inner]
    constructor <;> simp [RPExpr.shape, μR, cfg2, sumDegrees, size]
  · rw [progR_degrees]; rfl
  · rw [progR_degrees]
    intro d o p _ h2 _
    match d with
    | 0 => simp at h2; omega
    | d + 1 => simp at h2
  · rw [progR_degrees]
    constructor <;> simp [cfg2, size]

example : ∃ r, progR.run cfg2 σR = .ok r ∧ (∀ c ∈ r.wt.cps, 0 < c) ∧
    ∀ t : List ℝ, t.length = (progR.shape μR).1.length → InCube t → r.evaluate t = .ok (progR.denote μR t) :=
  C77_point_everywhere cfg2 (by decide) σR μR μR_of progR progR_admissible
    ⟨⟨(by show ∀ c ∈ sheet.wt.cps, 0 < c; simp [sheet, Ex.surf]), arc_pos, fun r hr => by
      obtain rfl : arc = r := Except.ok.inj hr
      exact arc_fits⟩, arc_pos⟩

/-- the dot product of the arc with itself is the constant 1 -/
example : ∃ r, (RSExpr.dot (.leaf 0) (.leaf 0) : RSExpr ℝ 2).run Ex.cfg σR = .ok r ∧
    ∀ x : ℝ, 0 ≤ x → x ≤ 1 → r.evaluate [x] = .ok 1 := by
  obtain ⟨r, hr, -, h⟩ := C77_scalar_everywhere Ex.cfg Ex.cfg_ok σR μR μR_of (.dot (.leaf 0) (.leaf 0))
    ⟨trivial, trivial, rfl, by simp [RPExpr.shape, μR, sumDegrees, Ex.cfg]⟩ ⟨arc_pos, arc_pos⟩
  refine ⟨r, hr, fun x h0 h1 => ?_⟩
  rw [h [x] (by simp [RSExpr.shape, RPExpr.shape, μR, sumDegrees]) (by intro y hy; simp at hy; subst hy; exact ⟨h0, h1⟩)]
  refine congrArg Except.ok ?_
  have e : μR.frp 0 = fun t : List ℝ => (arc.wt.value t)⁻¹ • arc.num.value t := rfl
  simp only [RSExpr.denote, RPExpr.denote, e]
  rw [arc_weight, arc_num, Fin.sum_univ_two]
  have : (1 + x ^ 2) ≠ 0 := by positivity
  simp
  field_simp
  ring

end Bezman.Props
