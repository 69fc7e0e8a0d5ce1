import Verif.Props.Release
import Verif.Proofs.ReleaseRational
import Verif.Props.Size64
import Verif.Props.ComposeLimit

/-! # Property C115, continued: compositions with rational splines, their sensitivities, and derivatives of rational splines -/

namespace Bezman.Props
open Spec

section
variable {K V W : Type} [Zero K] [One K] [Add K] [Sub K] [Mul K] [Neg K] [Div K] [NatCast K] [Zero V] [Add V] [SMul K V] [Coords K W]

/-- C115. Compositions with a rational inner function of degrees `ds` and their sensitivities, for a polynomial or rational outer function
with as many directions as the points of the inner function have coordinates: the release build does what the debug build does, or the
debug build stops and the release build has undefined behaviour. -/
theorem C115_rational_inner [LT K] [DecidableLT K] [BEq K] [ScalarDiv K W] (cfg : Cfg) (hmax : cfg.maxBinom ≤ 68) (h2 : 2 ≤ cfg.maxBinom)
    (n : ℕ) (hn : 0 < n) (hc : n = Coords.n K W) (ds : List ℕ) (inner : RSpline K W) (hi : HasRShape ds inner) (hf : SubFits cfg ds) :
    (∀ s : Spline V, Bookkeeping n s →
      SameOrUndefined (s.composeRational cfg inner) (s.composeRationalB .release cfg inner) ∧
      SameOrUndefined (s.composeSensitivityRational cfg inner) (s.composeSensitivityRationalB .release cfg inner)) ∧
    (∀ r : RSpline K V, RBookkeeping n r →
      SameOrUndefined (r.composeRational cfg inner) (r.composeRationalB .release cfg inner) ∧
      SameOrUndefined (r.composeSensitivityRational cfg inner) (r.composeSensitivityRationalB .release cfg inner)) := by
  refine ⟨fun s hs => ?_, fun r hr => ?_⟩
  · have g := (good_iff hn).mpr hs
    rw [← Spline.composeRationalB_debug, ← Spline.composeSensitivityRationalB_debug]
    exact ⟨Spline.composeRationalB_sou hmax h2 g.1 hi hf (g.2.trans hc), Spline.composeSensitivityRationalB_sou hmax h2 g.1 hi hf (g.2.trans hc)⟩
  · have g := (rgood_iff hn).mpr hr
    rw [← RSpline.composeRationalB_debug, ← RSpline.composeSensitivityRationalB_debug]
    exact ⟨RSpline.composeRationalB_sou hmax h2 g hi hf hc, RSpline.composeSensitivityRationalB_sou hmax h2 g hi hf hc⟩

/-- C115. The sensitivities of a rational outer function composed with a polynomial inner function. -/
theorem C115_rational_sensitivity [LT K] [DecidableLT K] (cfg : Cfg) (hmax : cfg.maxBinom ≤ 68) (h2 : 2 ≤ cfg.maxBinom)
    (n m : ℕ) (hn : 0 < n) (hm : 0 < m) (hc : n = Coords.n K W) (r : RSpline K V) (hr : RBookkeeping n r) (inner : Spline W)
    (hi : Bookkeeping m inner) :
    SameOrUndefined (r.composeSensitivity cfg inner) (r.composeSensitivityB .release cfg inner) := by
  rw [← RSpline.composeSensitivityB_debug]
  exact RSpline.composeSensitivityB_sou hmax h2 ((rgood_iff hn).mpr hr) ((good_iff hm).mpr hi).1 hc

omit [Coords K W] in
/-- C115. Derivatives of rational splines, in directions of degree at least one (`C117` is about directions of degree zero). -/
theorem C115_rational_derivative [Sub V] [Neg V] (cfg : Cfg) (hmax : cfg.maxBinom ≤ 68) (h2 : 2 ≤ cfg.maxBinom) (ds : List ℕ)
    (r : RSpline K V) (hr : HasRShape ds r) (orders : List ℕ) (hl : orders.length = ds.length)
    (hpos : ∀ d o p : ℕ, orders[d]? = some o → ds[d]? = some p → 1 ≤ o → 1 ≤ p) (hs : size (ds.map (· * 2 ^ orders.sum)) < 2 ^ 64) :
    SameOrUndefined (r.derivativeSpline cfg orders) (r.derivativeSplineB .release cfg orders) := by
  rw [← RSpline.derivativeSplineB_debug]
  exact RSpline.derivativeSplineB_sou hmax h2 hr hl hpos hs

end

/-- second derivatives of a rational curve with a free control point and weight -/
example (x w : ℚ) : SameOrUndefined (RSpline.derivativeSpline Ex.cfg (⟨Ex.curve 0 x 1, Ex.curve 1 w 1⟩ : RSpline ℚ ℚ) [2])
    (RSpline.derivativeSplineB .release Ex.cfg (⟨Ex.curve 0 x 1, Ex.curve 1 w 1⟩ : RSpline ℚ ℚ) [2]) :=
  C115_rational_derivative Ex.cfg (by decide) (by decide) [2] _ ⟨⟨Ex.curve_wf _ _ _, rfl⟩, ⟨Ex.curve_wf _ _ _, rfl⟩⟩ [2] rfl
    (by intro d o p h1 h2 _; cases d <;> simp_all <;> omega) (by decide)

/-- the outer and inner functions of `Props/ComposeLimit.lean`, whose composition does not fit the table -/
example : SameOrUndefined (exSextic.composeRational Ex.cfg (⟨exQuintic, exWeights⟩ : RSpline ℚ ℚ))
    (exSextic.composeRationalB .release Ex.cfg (⟨exQuintic, exWeights⟩ : RSpline ℚ ℚ)) :=
  ((C115_rational_inner (V := ℚ) Ex.cfg (by decide) (by decide) 1 (by decide) rfl [5] _ (by
    refine ⟨⟨⟨?_, ?_, ?_, ?_⟩, rfl⟩, ⟨⟨?_, ?_, ?_, ?_⟩, rfl⟩⟩ <;> decide) ⟨by decide, by decide, by decide⟩).1 exSextic
    ((good_iff (by decide)).mp ⟨by constructor <;> decide, rfl⟩)).1

/-- a table which is too small for the derivative of a rational curve: the debug build stops, the release build reads behind the table -/
theorem C115_rational_beyond_table : RSpline.derivativeSpline ⟨3, 10⟩ (⟨Ex.curve 0 1 1, Ex.curve 1 2 1⟩ : RSpline ℚ ℚ) [1] = .error .assertFail ∧
    RSpline.derivativeSplineB .release ⟨3, 10⟩ (⟨Ex.curve 0 1 1, Ex.curve 1 2 1⟩ : RSpline ℚ ℚ) [1] = .error .ub := by decide +kernel

end Bezman.Props
