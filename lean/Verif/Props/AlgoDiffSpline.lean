import Verif.Proofs.AlgoDiffStatic
import Verif.Proofs.Basis
import Verif.Proofs.Rational
import Verif.Props.AlgoDiff
import Verif.Props.Basics
import Verif.Props.Examples

/-!
# Differentiating through `Evaluate` (C60)

`s'.at y` is the spline whose control points are the values at `y` of given functions: the
spline as it depends on the independent variables.
-/

namespace Bezman.Props
open Bezman Spec

section
variable {E : Type} [NormedAddCommGroup E] [NormedSpace ℝ E] (dirs : List E) (x : E)

/-- C60. Let the control points and the parameters be `AlgoDiffType`s that stand for functions of
the independent variables.  Then `Evaluate` succeeds, and its result stands for the function
that maps `y` to `Evaluate` of the spline with plain numbers at `y`. -/
theorem C60_evaluate (s : Spline (ADT ℝ)) (s' : Spline (E → ℝ)) (h' : s'.WF)
    (hd : s.degrees = s'.degrees) (ho : s.offsets = s'.offsets) (hn : s.ncp = s'.ncp)
    (hc : List.Forall₂ (fun a f => Tracks dirs x f a) s.cps s'.cps) (t : List (ADT ℝ)) (t' : List (E → ℝ))
    (ht : List.Forall₂ (fun a f => Tracks dirs x f a) t t') (hl : t'.length = s'.dim) :
    ∃ r g, s.evaluateAD t = .ok r ∧ Tracks dirs x g r ∧
      ∀ y, (s'.at y).evaluate (t'.map (fun τ => τ y)) = .ok (g y) := by
  obtain ⟨r, e, h⟩ := Spline.evaluateAD_lift (laws_real x) h' hd ho hn (hc.imp fun _ _ h => tracks_iff.1 h)
    (ht.imp fun _ _ h => tracks_iff.1 h) hl
  exact ⟨r, _, e, tracks_iff.2 h, fun y => Spline.evaluate_at h' hl y⟩

/-- A point whose coordinates are `AlgoDiffType`s stands for a vector-valued function. -/
def TracksPoint (n : ℕ) (F : E → Fin n → ℝ) (p : List (ADT ℝ)) : Prop :=
  List.Forall₂ (fun (i : Fin n) a => Tracks dirs x (fun y => F y i) a) (List.finRange n) p

/-- C60 for control points of type `Point`. -/
theorem C60_evaluate_point (n : ℕ) (s : Spline (List (ADT ℝ))) (s' : Spline (E → Fin n → ℝ)) (h' : s'.WF)
    (hd : s.degrees = s'.degrees) (ho : s.offsets = s'.offsets) (hn : s.ncp = s'.ncp)
    (hc : List.Forall₂ (fun a f => TracksPoint dirs x n f a) s.cps s'.cps) (t : List (ADT ℝ)) (t' : List (E → ℝ))
    (ht : List.Forall₂ (fun a f => Tracks dirs x f a) t t') (hl : t'.length = s'.dim) :
    ∃ r g, s.evaluatePointAD t = .ok r ∧ TracksPoint dirs x n g r ∧
      ∀ y, (s'.at y).evaluate (t'.map (fun τ => τ y)) = .ok (g y) := by
  obtain ⟨r, e, h⟩ := Spline.evaluatePointAD_lift (laws_real x) h' hd ho hn
    (hc.imp fun _ _ h => h.imp fun _ _ h => tracks_iff.1 h) (ht.imp fun _ _ h => tracks_iff.1 h) hl
  exact ⟨r, _, e, h.imp fun _ _ h => tracks_iff.2 h, fun y => Spline.evaluate_at h' hl y⟩

/-- C60 for second derivatives: with nested `AlgoDiffType`s. -/
theorem C60_evaluate_second_order (s : Spline (ADT (Static dirs.length ℝ))) (s' : Spline (E → ℝ)) (h' : s'.WF)
    (hd : s.degrees = s'.degrees) (ho : s.offsets = s'.offsets) (hn : s.ncp = s'.ncp)
    (hc : List.Forall₂ (fun a f => Tracks2 dirs x f a) s.cps s'.cps) (t : List (ADT (Static dirs.length ℝ)))
    (t' : List (E → ℝ)) (ht : List.Forall₂ (fun a f => Tracks2 dirs x f a) t t') (hl : t'.length = s'.dim) :
    ∃ r g, s.evaluateAD t = .ok r ∧ Tracks2 dirs x g r ∧
      ∀ y, (s'.at y).evaluate (t'.map (fun τ => τ y)) = .ok (g y) := by
  obtain ⟨r, e, h⟩ := Spline.evaluateAD_lift (laws_nested x dirs) h' hd ho hn (hc.imp fun _ _ h => tracks2_iff.1 h)
    (ht.imp fun _ _ h => tracks2_iff.1 h) hl
  exact ⟨r, _, e, tracks2_iff.2 h, fun y => Spline.evaluate_at h' hl y⟩

/-- C60 for rational splines: the result stands for the function that maps `y` to `Evaluate` of the
rational spline with plain numbers at `y`, wherever the weight function is not zero. -/
theorem C60_rational (r : RSpline (ADT ℝ) (ADT ℝ)) (s' w' : Spline (E → ℝ)) (h' : s'.WF) (hw' : w'.WF)
    (hd : r.num.degrees = s'.degrees) (ho : r.num.offsets = s'.offsets) (hn : r.num.ncp = s'.ncp)
    (hwd : r.wt.degrees = w'.degrees) (hwo : r.wt.offsets = w'.offsets) (hwn : r.wt.ncp = w'.ncp)
    (hc : List.Forall₂ (fun a f => Tracks dirs x f a) r.num.cps s'.cps)
    (hwc : List.Forall₂ (fun a f => Tracks dirs x f a) r.wt.cps w'.cps) (t : List (ADT ℝ)) (t' : List (E → ℝ))
    (ht : List.Forall₂ (fun a f => Tracks dirs x f a) t t') (hl : t'.length = s'.dim) (hwl : t'.length = w'.dim)
    (wx : ℝ) (h0 : (w'.at x).evaluate (t'.map (fun τ => τ x)) = .ok wx) (h0' : wx ≠ 0) :
    ∃ q g, ∃ w : E → ℝ, r.evaluateAD t = .ok q ∧ Tracks dirs x g q ∧
      ∀ y, (w'.at y).evaluate (t'.map (fun τ => τ y)) = .ok (w y) ∧
        (w y ≠ 0 → (⟨s'.at y, w'.at y⟩ : RSpline ℝ ℝ).evaluate (t'.map (fun τ => τ y)) = .ok (g y)) := by
  rw [Spline.evaluate_at hw' hwl] at h0
  cases h0
  obtain ⟨q, e, h⟩ := RSpline.evaluateAD_lift (laws_real x) h' hw' hd ho hn hwd hwo hwn
    (hc.imp fun _ _ h => tracks_iff.1 h) (hwc.imp fun _ _ h => tracks_iff.1 h) (ht.imp fun _ _ h => tracks_iff.1 h) hl hwl h0'
  refine ⟨q, _, w'.value t', e, tracks_iff.2 h, fun y => ⟨Spline.evaluate_at hw' hwl y, fun hy => ?_⟩⟩
  simp only [RSpline.evaluate, Spline.evaluate_at hw' hwl y, Spline.evaluate_at h' hl y, bind_ok]
  rw [RSpline.divM_ok _ hy, smul_eq_mul, div_eq_inv_mul]

/-- C60 for rational splines with control points of type `Point` (and a static number of
derivatives). -/
theorem C60_rational_point (n : ℕ) (r : RSpline (ADT ℝ) (List (ADT ℝ))) (s' : Spline (E → Fin n → ℝ))
    (w' : Spline (E → ℝ)) (h' : s'.WF) (hw' : w'.WF)
    (hd : r.num.degrees = s'.degrees) (ho : r.num.offsets = s'.offsets) (hn : r.num.ncp = s'.ncp)
    (hwd : r.wt.degrees = w'.degrees) (hwo : r.wt.offsets = w'.offsets) (hwn : r.wt.ncp = w'.ncp)
    (hc : List.Forall₂ (fun a f => TracksPoint dirs x n f a) r.num.cps s'.cps)
    (hwc : List.Forall₂ (fun a f => Tracks dirs x f a) r.wt.cps w'.cps) (t : List (ADT ℝ)) (t' : List (E → ℝ))
    (ht : List.Forall₂ (fun a f => Tracks dirs x f a) t t') (hl : t'.length = s'.dim) (hwl : t'.length = w'.dim)
    (wx : ℝ) (h0 : (w'.at x).evaluate (t'.map (fun τ => τ x)) = .ok wx) (h0' : wx ≠ 0) :
    ∃ q g, ∃ w : E → ℝ, r.evaluatePointAD dirs.length t = .ok q ∧ TracksPoint dirs x n g q ∧
      ∀ y, (w'.at y).evaluate (t'.map (fun τ => τ y)) = .ok (w y) ∧
        ∀ p, (s'.at y).evaluate (t'.map (fun τ => τ y)) = .ok p → g y = (w y)⁻¹ • p := by
  rw [Spline.evaluate_at hw' hwl] at h0
  cases h0
  obtain ⟨q, e, h⟩ := RSpline.evaluatePointAD_lift (laws_real x) h' hw' hd ho hn hwd hwo hwn
    (hc.imp fun _ _ h => h.imp fun _ _ h => tracks_iff.1 h) (hwc.imp fun _ _ h => tracks_iff.1 h)
    (ht.imp fun _ _ h => tracks_iff.1 h) hl hwl h0'
  refine ⟨q, _, w'.value t', e, h.imp fun _ _ h => tracks_iff.2 h, fun y => ⟨Spline.evaluate_at hw' hwl y, fun p hp => ?_⟩⟩
  rw [Spline.evaluate_at h' hl y] at hp
  cases hp
  rfl

/-- C60. `AlgoDiffType<double, n>` is the ring of dual numbers: its operators `+`, `-`, `*`,
unary `-` and the conversion of integers always succeed and are the ring operations, so every
theorem on splines over commutative rings applies to it. -/
theorem C60_static_ring (n : ℕ) (a b : StaticADT n) (m : ℕ) :
    a.toADT.add b.toADT = .ok (a + b).toADT ∧ a.toADT.sub b.toADT = .ok (a - b).toADT ∧
    a.toADT.mul b.toADT = .ok (a * b).toADT ∧ a.toADT.neg = .ok (-a).toADT ∧
    (m : StaticADT n).toADT = ADT.const (m : ℝ) n :=
  ⟨StaticADT.toADT_add a b, StaticADT.toADT_sub a b, StaticADT.toADT_mul a b, StaticADT.toADT_neg a,
    StaticADT.toADT_natCast m⟩

/-- C60 for `ForwardEvaluate`, which needs a static number of derivatives. -/
theorem C60_forward_evaluate (cfg : Cfg) (hmax : cfg.maxBinom ≤ 68) (n : ℕ) (hdirs : dirs.length = n)
    (s : Spline (StaticADT n)) (s' : Spline (E → ℝ))
    (hs : s.WF) (h' : s'.WF) (hd : s.degrees = s'.degrees) (hb : ∀ p ∈ s.degrees, p < cfg.maxBinom)
    (hc : List.Forall₂ (fun a f => Tracks dirs x f a.toADT) s.cps s'.cps) (t : List (StaticADT n)) (t' : List (E → ℝ))
    (ht : List.Forall₂ (fun a f => Tracks dirs x f a.toADT) t t') (hl : t'.length = s'.dim) :
    ∃ r g, s.forwardEvaluate cfg t = .ok r ∧ Tracks dirs x g r.toADT ∧
      ∀ y, (s'.at y).forwardEvaluate cfg (t'.map (fun τ => τ y)) = .ok (g y) := by
  have hlt : t.length = s.dim := by rw [ht.length_eq, hl]; unfold Spline.dim; rw [hd]
  refine ⟨_, _, Spline.forwardEvaluate_ok hmax hs hb hlt,
    tracks_iff.2 (StaticADT.T.value hdirs hd (hc.imp fun _ _ h => tracks_iff.1 h) (ht.imp fun _ _ h => tracks_iff.1 h)),
    fun y => ?_⟩
  have hl' : (t'.map (fun τ => τ y)).length = (s'.at y).dim := by simpa [Spline.at, Spline.dim] using hl
  rw [Spline.forwardEvaluate_ok hmax (Spline.at_wf h' y) (fun p hp => hb p (by rw [hd]; exact hp)) hl',
    ← Spline.evaluate_ok (Spline.at_wf h' y) hl']
  exact Spline.evaluate_at h' hl y

end

/-- C60, the derivatives with respect to the control points: if control point `i` is the
independent variable `i` (seeded with `AlgoDiffType(c_i, n, i)`) and the parameters are
constants, then derivative `i` of the result of `Evaluate` is basis function `i`. -/
theorem C60_control_point_derivatives (cfg : Cfg) (hmax : cfg.maxBinom ≤ 68) (s : Spline ℝ) (hs : s.WF)
    (hb : ∀ p ∈ s.degrees, p < cfg.maxBinom) (t : List ℝ) (ht : t.length = s.dim)
    (cps : List (ADT ℝ)) (hlen : cps.length = s.cps.length)
    (hcps : ∀ i (h : i < s.cps.length), ∃ a, ADT.active s.cps[i] s.cps.length i = .ok a ∧ cps[i]? = some a) :
    ∃ r l, ({ s with cps := cps } : Spline (ADT ℝ)).evaluateAD (t.map (fun u => ADT.const u s.cps.length)) = .ok r ∧
      s.evaluate t = .ok r.v ∧ s.basisFunctions cfg t = .ok l ∧ r.d = l := by
  have hN : 0 < s.cps.length := by
    rw [hs.cps_len]; unfold size
    exact List.prod_pos (by simp)
  let N := s.cps.length
  let s' : Spline ((Fin N → ℝ) → ℝ) := { s with cps := (List.finRange N).map (fun i y => y i) }
  have h' : s'.WF := ⟨hs.dim_pos, hs.ncp_eq, hs.offsets_eq, by simpa [s'] using hs.cps_len⟩
  obtain ⟨r, g, e, hr, hg⟩ := C60_evaluate (axes N) (point s.cps) { s with cps := cps } s' h' rfl rfl rfl (by
      rw [List.forall₂_iff_get]
      refine ⟨by simp [s', hlen, N], fun i h1 h2 => ?_⟩
      have hi : i < N := by simpa [s'] using h2
      obtain ⟨a, ea, ha⟩ := hcps i hi
      obtain ⟨b, eb, hb⟩ := run_tracks s.cps (.var i) hi
      have : b = a := by
        have : (DExpr.var i).run s.cps = .ok a := by simp only [DExpr.run, rd_getElem hi, bind_ok]; exact ea
        rw [this] at eb; injection eb with eb; exact eb.symm
      subst this
      have hb := tracks_iff.2 hb
      simp only [List.get_eq_getElem]
      obtain ⟨_, ha⟩ := List.getElem?_eq_some_iff.mp ha
      rw [ha]
      convert hb using 1
      funext y
      simp only [s', List.getElem_map, List.getElem_finRange, denote, coord]
      rw [dif_pos hi]
      rfl)
    (t.map (fun u => ADT.const u N)) (t.map (fun u _ => u)) (by
      rw [List.forall₂_iff_get]
      refine ⟨by simp, fun i h1 h2 => ?_⟩
      have := C45_const (axes N) (point s.cps) (t[i]'(by simpa using h1))
      rw [axes_length] at this
      simpa using this) (by simpa [s', Spline.dim] using ht)
  have hg' : ∀ y : Fin N → ℝ, ({ s with cps := List.ofFn y } : Spline ℝ).evaluate t = .ok (g y) := by
    intro y
    have := hg y
    rw [← this]
    simp only [Spline.at, s', List.map_map]
    congr 2
    · simp [List.ofFn_eq_map, Function.comp_def]
    · simp [Function.comp_def]
  obtain ⟨l, el, -⟩ := C09_basis_evaluate cfg hmax s hs hb t ht
  have hll : l.length = N := by
    obtain ⟨l', el', h2, -⟩ := C09_basis_order cfg hmax s hs hb t ht
    rw [el] at el'; cases el'; rw [h2, hs.ncp_eq, ← hs.cps_len]
  have hlin : ∀ y : Fin N → ℝ, g y = (List.zipWith (fun b x => b • x) l (List.ofFn y)).sum := by
    intro y
    obtain ⟨l', e1, e2⟩ := C09_basis_evaluate cfg hmax ({ s with cps := List.ofFn y } : Spline ℝ)
      ⟨hs.dim_pos, hs.ncp_eq, hs.offsets_eq, by simpa using hs.cps_len⟩ hb t ht
    rw [hg' y] at e2
    injection e2 with e2
    rw [e2]
    have : s.basisFunctions cfg t = .ok l' := e1
    rw [el] at this; cases this; rfl
  have hsum : g = fun y => ∑ i : Fin N, l[i.1]'(by rw [hll]; exact i.2) * y i := by
    funext y
    rw [hlin y]
    have : List.zipWith (fun b x => b • x) l (List.ofFn y) =
        List.ofFn (fun i : Fin N => l[i.1]'(by rw [hll]; exact i.2) * y i) := by
      apply List.ext_getElem
      · simp [hll]
      · intro i h1 h2; simp
    rw [this, List.sum_ofFn]
  refine ⟨r, l, e, ?_, el, ?_⟩
  · rw [hr.value, ← hg' (point s.cps)]
    congr 1
    have : List.ofFn (point s.cps) = s.cps := by
      apply List.ext_getElem
      · simp [N]
      · intro i h1 h2; simp [point]
    rw [this]
  · rw [hr.derivs]
    have hder : ∀ u : Fin N → ℝ, fderiv ℝ g (point s.cps) u = ∑ i : Fin N, l[i.1]'(by rw [hll]; exact i.2) * u i := by
      intro u
      let φ : (Fin N → ℝ) →L[ℝ] ℝ := ∑ i : Fin N, (l[i.1]'(by rw [hll]; exact i.2)) •
        ContinuousLinearMap.proj (R := ℝ) (φ := fun _ => ℝ) i
      have hφ : ∀ y, φ y = ∑ i : Fin N, l[i.1]'(by rw [hll]; exact i.2) * y i := by
        intro y; simp [φ, ContinuousLinearMap.sum_apply]
      have : g = φ := by rw [hsum]; funext y; exact (hφ y).symm
      rw [this, φ.hasFDerivAt.fderiv, hφ]
    apply List.ext_getElem
    · simp [axes, hll]
    · intro i h1 h2
      simp only [axes, List.map_ofFn, List.getElem_ofFn, Function.comp]
      rw [hder]
      rw [Finset.sum_eq_single (⟨i, by rw [← hll]; exact h2⟩ : Fin N)]
      · simp
      · intro j _ hj; simp [Pi.single_apply, hj]
      · simp

/-! ## Concrete cases

Both variables at `(3, -2)`, and a constant. -/

/-- The constant `c` in the example. -/
theorem ex_const (c : ℝ) : Tracks (axes 2) (point [(3 : ℝ), -2]) (fun _ => c) ⟨c, [0, 0]⟩ :=
  C45_const (axes 2) (point [(3 : ℝ), -2]) c

/-- A curve whose control points and parameter depend on the variables. -/
noncomputable example := C60_evaluate _ _ (Ex.curve ⟨3, [1, 0]⟩ ⟨5, [0, 0]⟩ ⟨-2, [0, 1]⟩) (Ex.curve _ _ _) (Ex.curve_wf ..) rfl rfl rfl
  (.cons ex_var0 (.cons (ex_const 5) (.cons ex_var1 .nil))) [⟨3, [1, 0]⟩] _ (.cons ex_var0 .nil) rfl
noncomputable example := C60_evaluate_point _ _ 2 (Ex.line [⟨3, [1, 0]⟩, ⟨5, [0, 0]⟩] [⟨-2, [0, 1]⟩, ⟨3, [1, 0]⟩])
  (Ex.line (fun y => ![coord y 0, 5]) (fun y => ![coord y 1, coord y 0])) (Ex.line_wf ..) rfl rfl rfl
  (.cons (.cons ex_var0 (.cons (ex_const 5) .nil)) (.cons (.cons ex_var1 (.cons ex_var0 .nil)) .nil))
  [⟨3, [1, 0]⟩] _ (.cons ex_var0 .nil) rfl
/-- A rational line: the weights are `x` and `5`, the parameter is the constant `1/2`. -/
noncomputable example := C60_rational _ _ ⟨Ex.line ⟨3, [1, 0]⟩ ⟨-2, [0, 1]⟩, Ex.line ⟨3, [1, 0]⟩ ⟨5, [0, 0]⟩⟩
  (Ex.line _ _) (Ex.line _ _) (Ex.line_wf ..) (Ex.line_wf ..) rfl rfl rfl rfl rfl rfl
  (.cons ex_var0 (.cons ex_var1 .nil)) (.cons ex_var0 (.cons (ex_const 5) .nil))
  [⟨1 / 2, [0, 0]⟩] _ (.cons (ex_const (1 / 2)) .nil) rfl rfl _ rfl (by simp [coord, point]; norm_num)
noncomputable example := C60_rational_point _ _ 1 ⟨Ex.line [⟨3, [1, 0]⟩] [⟨-2, [0, 1]⟩], Ex.line ⟨3, [1, 0]⟩ ⟨5, [0, 0]⟩⟩
  (Ex.line (fun y => ![coord y 0]) (fun y => ![coord y 1])) (Ex.line _ _) (Ex.line_wf ..) (Ex.line_wf ..) rfl rfl rfl rfl rfl rfl
  (.cons (.cons ex_var0 .nil) (.cons (.cons ex_var1 .nil) .nil)) (.cons ex_var0 (.cons (ex_const 5) .nil))
  [⟨1 / 2, [0, 0]⟩] _ (.cons (ex_const (1 / 2)) .nil) rfl rfl _ rfl (by simp [coord, point]; norm_num)
noncomputable example := C60_control_point_derivatives Ex.cfg (by decide) (Ex.curve 3 5 (-2)) (Ex.curve_wf ..) (by decide) [1 / 2] rfl
  [⟨3, [1, 0, 0]⟩, ⟨5, [0, 1, 0]⟩, ⟨-2, [0, 0, 1]⟩] rfl (by
    intro i hi
    match i, hi with
    | 0, _ => exact ⟨_, rfl, rfl⟩
    | 1, _ => exact ⟨_, rfl, rfl⟩
    | 2, _ => exact ⟨_, rfl, rfl⟩)


/-- The variable of a nested computation at `4`. -/
theorem ex_nested : Tracks2 (axes 1) (point [(4 : ℝ)]) (fun y => coord y 0) ⟨⟨4, [1]⟩, [⟨1, [0]⟩]⟩ := by
  obtain ⟨a, ea, ha⟩ := runNested_tracks [(4 : ℝ)] (.var 0) (by simp [Smooth]) trivial
  have : (DExpr.var 0).runNested [(4 : ℝ)] = .ok ⟨⟨4, [1]⟩, [⟨1, [0]⟩]⟩ := rfl
  rw [this] at ea
  cases ea
  exact (tracks2_iff (dirs := axes 1)).2 ha

noncomputable example := C60_evaluate_second_order (axes 1) _ (Ex.line ⟨⟨4, [1]⟩, [⟨1, [0]⟩]⟩ ⟨⟨4, [1]⟩, [⟨1, [0]⟩]⟩) (Ex.line _ _)
  (Ex.line_wf ..) rfl rfl rfl (.cons ex_nested (.cons ex_nested .nil)) [⟨⟨4, [1]⟩, [⟨1, [0]⟩]⟩] _ (.cons ex_nested .nil) rfl

/-- The variables of the first example as ring elements. -/
theorem ex_static0 : Tracks (axes 2) (point [(3 : ℝ), -2]) (fun y => coord y 0)
    (StaticADT.toADT (n := 2) (TrivSqZeroExt.inl 3 + TrivSqZeroExt.inr ![1, 0])) := by
  have : StaticADT.toADT (n := 2) (TrivSqZeroExt.inl 3 + TrivSqZeroExt.inr ![1, 0]) = ⟨3, [1, 0]⟩ := by
    simp [StaticADT.toADT]
  rw [this]; exact ex_var0
theorem ex_static1 : Tracks (axes 2) (point [(3 : ℝ), -2]) (fun y => coord y 1)
    (StaticADT.toADT (n := 2) (TrivSqZeroExt.inl (-2) + TrivSqZeroExt.inr ![0, 1])) := by
  have : StaticADT.toADT (n := 2) (TrivSqZeroExt.inl (-2) + TrivSqZeroExt.inr ![0, 1]) = ⟨-2, [0, 1]⟩ := by
    simp [StaticADT.toADT]
  rw [this]; exact ex_var1
noncomputable example := C60_forward_evaluate (axes 2) _ Ex.cfg (by decide) 2 (by simp [axes]) (Ex.line _ _) (Ex.line _ _)
  (Ex.line_wf ..) (Ex.line_wf ..) rfl (by decide) (.cons ex_static0 (.cons ex_static1 .nil)) [_] _ (.cons ex_static0 .nil) rfl

end Bezman.Props
