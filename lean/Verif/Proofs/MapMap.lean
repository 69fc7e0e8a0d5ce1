import Verif.Spec.ScalarMap

/-! # Changing the number type twice -/

namespace Bezman
variable {K K' K'' : Type} {n : Nat}

theorem Point.map_map (f : K → K') (g : K' → K'') (a : Point K n) : (a.map f).map g = a.map (g ∘ f) := rfl

theorem Spline.map_map {V V' V'' : Type} (f : V → V') (g : V' → V'') (s : Spline V) : (s.map f).map g = s.map (g ∘ f) := by
  simp only [Spline.map, List.map_map]

theorem Vars.map_map (f : K → K') (g : K' → K'') (σ : Vars K n) : (σ.map f).map g = σ.map (g ∘ f) := by
  simp only [Vars.map, Spline.map_map]
  rfl

theorem RVars.map_map (f : K → K') (g : K' → K'') (σ : RVars K n) : (σ.map f).map g = σ.map (g ∘ f) := by
  simp only [RVars.map, Vars.map_map, RSpline.map, Spline.map_map]
  rfl

mutual
theorem smap_map (f : K → K') (g : K' → K'') : ∀ e : SExpr K n, (e.map f).map g = e.map (g ∘ f)
  | .leaf i => by
    simp only [SExpr.map]
  | .add a b => by
    simp only [SExpr.map, smap_map f g a, smap_map f g b]
  | .addAssign a b => by
    simp only [SExpr.map, smap_map f g a, smap_map f g b]
  | .sub a b => by
    simp only [SExpr.map, smap_map f g a, smap_map f g b]
  | .subAssign a b => by
    simp only [SExpr.map, smap_map f g a, smap_map f g b]
  | .neg a => by
    simp only [SExpr.map, smap_map f g a]
  | .scale a c => by
    simp only [SExpr.map, smap_map f g a, Function.comp_apply]
  | .addPoint a v => by
    simp only [SExpr.map, smap_map f g a, Function.comp_apply]
  | .subPoint a v => by
    simp only [SExpr.map, smap_map f g a, Function.comp_apply]
  | .pointSub v a => by
    simp only [SExpr.map, smap_map f g a, Function.comp_apply]
  | .elevate a d => by
    simp only [SExpr.map, smap_map f g a]
  | .splitLeft a z d => by
    simp only [SExpr.map, smap_map f g a, Function.comp_apply]
  | .splitRight a z d => by
    simp only [SExpr.map, smap_map f g a, Function.comp_apply]
  | .splitPart a zs d i => by
    simp only [SExpr.map, smap_map f g a, List.map_map]
  | .deriv a orders => by
    simp only [SExpr.map, smap_map f g a]
  | .compose a b => by
    simp only [SExpr.map, smap_map f g a, pmap_map f g b]
  | .composeScalar a b => by
    simp only [SExpr.map, smap_map f g a, smap_map f g b]
  | .mul a b => by
    simp only [SExpr.map, smap_map f g a, smap_map f g b]
  | .dot a b => by
    simp only [SExpr.map, pmap_map f g a, pmap_map f g b]
  | .power a k => by
    simp only [SExpr.map, smap_map f g a]
  | .extract a j => by
    simp only [SExpr.map, pmap_map f g a]
theorem pmap_map (f : K → K') (g : K' → K'') : ∀ e : PExpr K n, (e.map f).map g = e.map (g ∘ f)
  | .leaf i => by
    simp only [PExpr.map]
  | .add a b => by
    simp only [PExpr.map, pmap_map f g a, pmap_map f g b]
  | .addAssign a b => by
    simp only [PExpr.map, pmap_map f g a, pmap_map f g b]
  | .sub a b => by
    simp only [PExpr.map, pmap_map f g a, pmap_map f g b]
  | .subAssign a b => by
    simp only [PExpr.map, pmap_map f g a, pmap_map f g b]
  | .neg a => by
    simp only [PExpr.map, pmap_map f g a]
  | .scale a c => by
    simp only [PExpr.map, pmap_map f g a, Function.comp_apply]
  | .addPoint a v => by
    simp only [PExpr.map, pmap_map f g a, Point.map_map]
  | .subPoint a v => by
    simp only [PExpr.map, pmap_map f g a, Point.map_map]
  | .pointSub v a => by
    simp only [PExpr.map, pmap_map f g a, Point.map_map]
  | .elevate a d => by
    simp only [PExpr.map, pmap_map f g a]
  | .splitLeft a z d => by
    simp only [PExpr.map, pmap_map f g a, Function.comp_apply]
  | .splitRight a z d => by
    simp only [PExpr.map, pmap_map f g a, Function.comp_apply]
  | .splitPart a zs d i => by
    simp only [PExpr.map, pmap_map f g a, List.map_map]
  | .deriv a orders => by
    simp only [PExpr.map, pmap_map f g a]
  | .compose a b => by
    simp only [PExpr.map, pmap_map f g a, pmap_map f g b]
  | .composeScalar a b => by
    simp only [PExpr.map, pmap_map f g a, smap_map f g b]
  | .mulLeft a b => by
    simp only [PExpr.map, smap_map f g a, pmap_map f g b]
  | .mulRight a b => by
    simp only [PExpr.map, pmap_map f g a, smap_map f g b]
end

mutual
theorem rsmap_map (f : K → K') (g : K' → K'') : ∀ e : RSExpr K n, (e.map f).map g = e.map (g ∘ f)
  | .leaf i => by
    simp only [RSExpr.map]
  | .ofSpline a => by
    simp only [RSExpr.map, smap_map f g a]
  | .add a b => by
    simp only [RSExpr.map, rsmap_map f g a, rsmap_map f g b]
  | .addAssign a b => by
    simp only [RSExpr.map, rsmap_map f g a, rsmap_map f g b]
  | .sub a b => by
    simp only [RSExpr.map, rsmap_map f g a, rsmap_map f g b]
  | .subAssign a b => by
    simp only [RSExpr.map, rsmap_map f g a, rsmap_map f g b]
  | .neg a => by
    simp only [RSExpr.map, rsmap_map f g a]
  | .scale a c => by
    simp only [RSExpr.map, rsmap_map f g a, Function.comp_apply]
  | .addPoint a v => by
    simp only [RSExpr.map, rsmap_map f g a, Function.comp_apply]
  | .subPoint a v => by
    simp only [RSExpr.map, rsmap_map f g a, Function.comp_apply]
  | .elevate a d => by
    simp only [RSExpr.map, rsmap_map f g a]
  | .splitLeft a z d => by
    simp only [RSExpr.map, rsmap_map f g a, Function.comp_apply]
  | .splitRight a z d => by
    simp only [RSExpr.map, rsmap_map f g a, Function.comp_apply]
  | .splitPart a zs d i => by
    simp only [RSExpr.map, rsmap_map f g a, List.map_map]
  | .deriv a orders => by
    simp only [RSExpr.map, rsmap_map f g a]
  | .composePoly a b => by
    simp only [RSExpr.map, rsmap_map f g a, pmap_map f g b]
  | .composePolyScalar a b => by
    simp only [RSExpr.map, rsmap_map f g a, smap_map f g b]
  | .compose a b => by
    simp only [RSExpr.map, rsmap_map f g a, rpmap_map f g b]
  | .composeScalar a b => by
    simp only [RSExpr.map, rsmap_map f g a, rsmap_map f g b]
  | .polyCompose a b => by
    simp only [RSExpr.map, smap_map f g a, rpmap_map f g b]
  | .polyComposeScalar a b => by
    simp only [RSExpr.map, smap_map f g a, rsmap_map f g b]
  | .mul a b => by
    simp only [RSExpr.map, rsmap_map f g a, rsmap_map f g b]
  | .dot a b => by
    simp only [RSExpr.map, rpmap_map f g a, rpmap_map f g b]
theorem rpmap_map (f : K → K') (g : K' → K'') : ∀ e : RPExpr K n, (e.map f).map g = e.map (g ∘ f)
  | .leaf i => by
    simp only [RPExpr.map]
  | .ofSpline a => by
    simp only [RPExpr.map, pmap_map f g a]
  | .add a b => by
    simp only [RPExpr.map, rpmap_map f g a, rpmap_map f g b]
  | .addAssign a b => by
    simp only [RPExpr.map, rpmap_map f g a, rpmap_map f g b]
  | .sub a b => by
    simp only [RPExpr.map, rpmap_map f g a, rpmap_map f g b]
  | .subAssign a b => by
    simp only [RPExpr.map, rpmap_map f g a, rpmap_map f g b]
  | .neg a => by
    simp only [RPExpr.map, rpmap_map f g a]
  | .scale a c => by
    simp only [RPExpr.map, rpmap_map f g a, Function.comp_apply]
  | .addPoint a v => by
    simp only [RPExpr.map, rpmap_map f g a, Point.map_map]
  | .subPoint a v => by
    simp only [RPExpr.map, rpmap_map f g a, Point.map_map]
  | .elevate a d => by
    simp only [RPExpr.map, rpmap_map f g a]
  | .splitLeft a z d => by
    simp only [RPExpr.map, rpmap_map f g a, Function.comp_apply]
  | .splitRight a z d => by
    simp only [RPExpr.map, rpmap_map f g a, Function.comp_apply]
  | .splitPart a zs d i => by
    simp only [RPExpr.map, rpmap_map f g a, List.map_map]
  | .deriv a orders => by
    simp only [RPExpr.map, rpmap_map f g a]
  | .composePoly a b => by
    simp only [RPExpr.map, rpmap_map f g a, pmap_map f g b]
  | .composePolyScalar a b => by
    simp only [RPExpr.map, rpmap_map f g a, smap_map f g b]
  | .compose a b => by
    simp only [RPExpr.map, rpmap_map f g a, rpmap_map f g b]
  | .composeScalar a b => by
    simp only [RPExpr.map, rpmap_map f g a, rsmap_map f g b]
  | .polyCompose a b => by
    simp only [RPExpr.map, pmap_map f g a, rpmap_map f g b]
  | .polyComposeScalar a b => by
    simp only [RPExpr.map, pmap_map f g a, rsmap_map f g b]
  | .mulLeft a b => by
    simp only [RPExpr.map, rsmap_map f g a, rpmap_map f g b]
  | .mulRight a b => by
    simp only [RPExpr.map, rpmap_map f g a, rsmap_map f g b]
end

end Bezman
