import Verif.Proofs.FacesOps
import Verif.Proofs.FacesCompose
import Verif.Proofs.FacesDeriv

set_option linter.unusedSectionVars false

/-! # Whole programs on patches that share a face -/

namespace Bezman
open Spec
variable {K : Type} [Zero K] [One K] [Add K] [Sub K] [Mul K] [Neg K] [Div K] [NatCast K] [LT K] [DecidableLT K] {n : ℕ}

theorem Point.add_comm_of (h : ∀ x y : K, x + y = y + x) (x y : Point K n) : x + y = y + x := by
  ext i
  exact h _ _

theorem shape_of_ok {V : Type} {sh : List ℕ} {x : M (Spline V)} {r : Spline V} (h : ReturnsOrThrows sh x) (e : x = .ok r) : HasShape sh r := by
  rcases h with h | ⟨r', h, hs⟩
  · rw [h] at e; cases e
  · rw [h] at e; cases e; exact hs

section
variable {cfg : Cfg} {σ τ : Vars K n} {common : ℕ → Prop}

mutual
theorem SExpr.run_common (hs : ∀ i, common i → σ.s i = τ.s i) (hp : ∀ i, common i → σ.p i = τ.p i) :
    ∀ e : SExpr K n, e.Uses common → e.run cfg σ = e.run cfg τ
  | .leaf i, h => by simp only [SExpr.run]; rw [hs i h]
  | .add a b, h => by simp only [SExpr.run]; rw [SExpr.run_common hs hp a h.1, SExpr.run_common hs hp b h.2]
  | .addAssign a b, h => by simp only [SExpr.run]; rw [SExpr.run_common hs hp a h.1, SExpr.run_common hs hp b h.2]
  | .sub a b, h => by simp only [SExpr.run]; rw [SExpr.run_common hs hp a h.1, SExpr.run_common hs hp b h.2]
  | .subAssign a b, h => by simp only [SExpr.run]; rw [SExpr.run_common hs hp a h.1, SExpr.run_common hs hp b h.2]
  | .mul a b, h => by simp only [SExpr.run]; rw [SExpr.run_common hs hp a h.1, SExpr.run_common hs hp b h.2]
  | .composeScalar a b, h => by simp only [SExpr.run]; rw [SExpr.run_common hs hp a h.1, SExpr.run_common hs hp b h.2]
  | .compose a b, h => by simp only [SExpr.run]; rw [SExpr.run_common hs hp a h.1, PExpr.run_common hs hp b h.2]
  | .dot a b, h => by simp only [SExpr.run]; rw [PExpr.run_common hs hp a h.1, PExpr.run_common hs hp b h.2]
  | .neg a, h => by simp only [SExpr.run]; rw [SExpr.run_common hs hp a h]
  | .scale a _, h => by simp only [SExpr.run]; rw [SExpr.run_common hs hp a h]
  | .addPoint a _, h => by simp only [SExpr.run]; rw [SExpr.run_common hs hp a h]
  | .subPoint a _, h => by simp only [SExpr.run]; rw [SExpr.run_common hs hp a h]
  | .pointSub _ a, h => by simp only [SExpr.run]; rw [SExpr.run_common hs hp a h]
  | .elevate a _, h => by simp only [SExpr.run]; rw [SExpr.run_common hs hp a h]
  | .splitLeft a _ _, h => by simp only [SExpr.run]; rw [SExpr.run_common hs hp a h]
  | .splitRight a _ _, h => by simp only [SExpr.run]; rw [SExpr.run_common hs hp a h]
  | .splitPart a _ _ _, h => by simp only [SExpr.run]; rw [SExpr.run_common hs hp a h]
  | .deriv a _, h => by simp only [SExpr.run]; rw [SExpr.run_common hs hp a h]
  | .power a _, h => by simp only [SExpr.run]; rw [SExpr.run_common hs hp a h]
  | .extract a _, h => by simp only [SExpr.run]; rw [PExpr.run_common hs hp a h]

theorem PExpr.run_common (hs : ∀ i, common i → σ.s i = τ.s i) (hp : ∀ i, common i → σ.p i = τ.p i) :
    ∀ e : PExpr K n, e.Uses common → e.run cfg σ = e.run cfg τ
  | .leaf i, h => by simp only [PExpr.run]; rw [hp i h]
  | .add a b, h => by simp only [PExpr.run]; rw [PExpr.run_common hs hp a h.1, PExpr.run_common hs hp b h.2]
  | .addAssign a b, h => by simp only [PExpr.run]; rw [PExpr.run_common hs hp a h.1, PExpr.run_common hs hp b h.2]
  | .sub a b, h => by simp only [PExpr.run]; rw [PExpr.run_common hs hp a h.1, PExpr.run_common hs hp b h.2]
  | .subAssign a b, h => by simp only [PExpr.run]; rw [PExpr.run_common hs hp a h.1, PExpr.run_common hs hp b h.2]
  | .compose a b, h => by simp only [PExpr.run]; rw [PExpr.run_common hs hp a h.1, PExpr.run_common hs hp b h.2]
  | .composeScalar a b, h => by simp only [PExpr.run]; rw [PExpr.run_common hs hp a h.1, SExpr.run_common hs hp b h.2]
  | .mulLeft a b, h => by simp only [PExpr.run]; rw [SExpr.run_common hs hp a h.1, PExpr.run_common hs hp b h.2]
  | .mulRight a b, h => by simp only [PExpr.run]; rw [PExpr.run_common hs hp a h.1, SExpr.run_common hs hp b h.2]
  | .neg a, h => by simp only [PExpr.run]; rw [PExpr.run_common hs hp a h]
  | .scale a _, h => by simp only [PExpr.run]; rw [PExpr.run_common hs hp a h]
  | .addPoint a _, h => by simp only [PExpr.run]; rw [PExpr.run_common hs hp a h]
  | .subPoint a _, h => by simp only [PExpr.run]; rw [PExpr.run_common hs hp a h]
  | .pointSub _ a, h => by simp only [PExpr.run]; rw [PExpr.run_common hs hp a h]
  | .elevate a _, h => by simp only [PExpr.run]; rw [PExpr.run_common hs hp a h]
  | .splitLeft a _ _, h => by simp only [PExpr.run]; rw [PExpr.run_common hs hp a h]
  | .splitRight a _ _, h => by simp only [PExpr.run]; rw [PExpr.run_common hs hp a h]
  | .splitPart a _ _ _, h => by simp only [PExpr.run]; rw [PExpr.run_common hs hp a h]
  | .deriv a _, h => by simp only [PExpr.run]; rw [PExpr.run_common hs hp a h]
end
end

variable {cfg : Cfg} {σ τ : Vars K n} {common : ℕ → Prop} {ds dp es ep : ℕ → List ℕ} {d : ℕ} {sa sb : Bool}

/-- the two runs -/
structure GluedRuns (cfg : Cfg) (d : ℕ) (sa sb : Bool) (common : ℕ → Prop) (σ τ : Vars K n) (ds dp es ep : ℕ → List ℕ) : Prop where
  max : cfg.maxBinom ≤ 68
  comm : ∀ x y : K, x + y = y + x
  vars : GluedVars d sa sb common σ τ
  s1 : ∀ i, HasShape (ds i) (σ.s i)
  p1 : ∀ i, HasShape (dp i) (σ.p i)
  s2 : ∀ i, HasShape (es i) (τ.s i)
  p2 : ∀ i, HasShape (ep i) (τ.p i)

theorem GluedRuns.sh_s1 (R : GluedRuns cfg d sa sb common σ τ ds dp es ep) {e : SExpr K n} (h : e.WellShaped cfg ds dp) {r : Spline K} (hr : e.run cfg σ = .ok r) :
    HasShape (e.shape ds dp) r := shape_of_ok (SExpr.run_shape R.max R.s1 R.p1 e h) hr
theorem GluedRuns.sh_p1 (R : GluedRuns cfg d sa sb common σ τ ds dp es ep) {e : PExpr K n} (h : e.WellShaped cfg ds dp) {r : Spline (Point K n)} (hr : e.run cfg σ = .ok r) :
    HasShape (e.shape ds dp) r := shape_of_ok (PExpr.run_shape R.max R.s1 R.p1 e h) hr
theorem GluedRuns.sh_s2 (R : GluedRuns cfg d sa sb common σ τ ds dp es ep) {e : SExpr K n} (h : e.WellShaped cfg es ep) {r : Spline K} (hr : e.run cfg τ = .ok r) :
    HasShape (e.shape es ep) r := shape_of_ok (SExpr.run_shape R.max R.s2 R.p2 e h) hr
theorem GluedRuns.sh_p2 (R : GluedRuns cfg d sa sb common σ τ ds dp es ep) {e : PExpr K n} (h : e.WellShaped cfg es ep) {r : Spline (Point K n)} (hr : e.run cfg τ = .ok r) :
    HasShape (e.shape es ep) r := shape_of_ok (PExpr.run_shape R.max R.s2 R.p2 e h) hr

mutual
theorem SExpr.run_glued (R : GluedRuns cfg d sa sb common σ τ ds dp es ep) :
    ∀ (e : SExpr K n), e.WellShaped cfg ds dp → e.WellShaped cfg es ep → e.KeepsFace d common → ∀ r r',
      e.run cfg σ = .ok r → e.run cfg τ = .ok r' → Glued d sa sb r r'
  | .leaf i, _, _, k, r, r', e, e' => by
    simp only [SExpr.run, pure, Except.pure, Except.ok.injEq] at e e'
    subst e e'
    exact R.vars.patch_s i k
  | .add a b, w, v, k, r, r', e, e' => by
    simp only [SExpr.run, bind_eq_ok] at e e'
    obtain ⟨x, x1, y, y1, e⟩ := e
    obtain ⟨x', x1', y', y1', e'⟩ := e'
    have gx := SExpr.run_glued R a w.1 v.1 k.1 x x' x1 x1'
    have gy := SExpr.run_glued R b w.2.1 v.2.1 k.2 y y' y1 y1'
    have hx := R.sh_s1 (e := a) w.1 x1
    have hx' := R.sh_s2 (e := a) v.1 x1'
    have hy := R.sh_s1 w.2.1 y1
    have hy' := R.sh_s2 v.2.1 y1'
    rw [Spline.addOp_eq R.comm hx hy w.2.2] at e
    rw [Spline.addOp_eq R.comm hx' hy' v.2.2] at e'
    exact Spline.glued_addAssign gx gy hx hy hx' hy' w.2.2 v.2.2 e e'
  | .addAssign a b, w, v, k, r, r', e, e' => by
    simp only [SExpr.run, bind_eq_ok] at e e'
    obtain ⟨x, x1, y, y1, e⟩ := e
    obtain ⟨x', x1', y', y1', e'⟩ := e'
    have gx := SExpr.run_glued R a w.1 v.1 k.1 x x' x1 x1'
    have gy := SExpr.run_glued R b w.2.1 v.2.1 k.2 y y' y1 y1'
    have hx := R.sh_s1 (e := a) w.1 x1
    have hx' := R.sh_s2 (e := a) v.1 x1'
    have hy := R.sh_s1 w.2.1 y1
    have hy' := R.sh_s2 v.2.1 y1'
    exact Spline.glued_addAssign gx gy hx hy hx' hy' w.2.2 v.2.2 e e'
  | .sub a b, w, v, k, r, r', e, e' => by
    simp only [SExpr.run, bind_eq_ok] at e e'
    obtain ⟨x, x1, y, y1, e⟩ := e
    obtain ⟨x', x1', y', y1', e'⟩ := e'
    have gx := SExpr.run_glued R a w.1 v.1 k.1 x x' x1 x1'
    have gy := SExpr.run_glued R b w.2.1 v.2.1 k.2 y y' y1 y1'
    have hx := R.sh_s1 (e := a) w.1 x1
    have hx' := R.sh_s2 (e := a) v.1 x1'
    have hy := R.sh_s1 w.2.1 y1
    have hy' := R.sh_s2 v.2.1 y1'
    rw [Spline.subOp_eq hx hy w.2.2.1 w.2.2.2] at e
    rw [Spline.subOp_eq hx' hy' v.2.2.1 v.2.2.2] at e'
    exact Spline.glued_subAssign gx gy hx hy hx' hy' w.2.2.1 v.2.2.1 e e'
  | .subAssign a b, w, v, k, r, r', e, e' => by
    simp only [SExpr.run, bind_eq_ok] at e e'
    obtain ⟨x, x1, y, y1, e⟩ := e
    obtain ⟨x', x1', y', y1', e'⟩ := e'
    have gx := SExpr.run_glued R a w.1 v.1 k.1 x x' x1 x1'
    have gy := SExpr.run_glued R b w.2.1 v.2.1 k.2 y y' y1 y1'
    have hx := R.sh_s1 (e := a) w.1 x1
    have hx' := R.sh_s2 (e := a) v.1 x1'
    have hy := R.sh_s1 w.2.1 y1
    have hy' := R.sh_s2 v.2.1 y1'
    exact Spline.glued_subAssign gx gy hx hy hx' hy' w.2.2 v.2.2 e e'
  | .neg a, w, v, k, r, r', e, e' => by
    simp only [SExpr.run, bind_eq_ok] at e e'
    obtain ⟨x, x1, e⟩ := e
    obtain ⟨x', x1', e'⟩ := e'
    have gx := SExpr.run_glued R a w v k x x' x1 x1'
    have hx := R.sh_s1 (e := a) w x1
    have hx' := R.sh_s2 (e := a) v x1'
    exact Spline.glued_neg gx e e'
  | .scale a c, w, v, k, r, r', e, e' => by
    simp only [SExpr.run, bind_eq_ok] at e e'
    obtain ⟨x, x1, e⟩ := e
    obtain ⟨x', x1', e'⟩ := e'
    have gx := SExpr.run_glued R a w v k x x' x1 x1'
    have hx := R.sh_s1 (e := a) w x1
    have hx' := R.sh_s2 (e := a) v x1'
    exact Spline.glued_mapCps gx _ e e'
  | .addPoint a c, w, v, k, r, r', e, e' => by
    simp only [SExpr.run, bind_eq_ok] at e e'
    obtain ⟨x, x1, e⟩ := e
    obtain ⟨x', x1', e'⟩ := e'
    have gx := SExpr.run_glued R a w v k x x' x1 x1'
    have hx := R.sh_s1 (e := a) w x1
    have hx' := R.sh_s2 (e := a) v x1'
    exact Spline.glued_mapCps gx _ e e'
  | .subPoint a c, w, v, k, r, r', e, e' => by
    simp only [SExpr.run, bind_eq_ok] at e e'
    obtain ⟨x, x1, e⟩ := e
    obtain ⟨x', x1', e'⟩ := e'
    have gx := SExpr.run_glued R a w v k x x' x1 x1'
    have hx := R.sh_s1 (e := a) w x1
    have hx' := R.sh_s2 (e := a) v x1'
    exact Spline.glued_mapCps gx _ e e'
  | .pointSub c a, w, v, k, r, r', e, e' => by
    simp only [SExpr.run, bind_eq_ok] at e e'
    obtain ⟨x, x1, e⟩ := e
    obtain ⟨x', x1', e'⟩ := e'
    have gx := SExpr.run_glued R a w v k x x' x1 x1'
    have hx := R.sh_s1 (e := a) w x1
    have hx' := R.sh_s2 (e := a) v x1'
    exact Spline.glued_pointSub gx c e e'
  | .elevate a c, w, v, k, r, r', e, e' => by
    simp only [SExpr.run, bind_eq_ok] at e e'
    obtain ⟨x, x1, e⟩ := e
    obtain ⟨x', x1', e'⟩ := e'
    have gx := SExpr.run_glued R a w.1 v.1 k x x' x1 x1'
    have hx := R.sh_s1 (e := a) w.1 x1
    have hx' := R.sh_s2 (e := a) v.1 x1'
    exact Spline.glued_elevateAny gx (by rw [hx.2]; exact w.2.1) (by rw [hx.2]; exact w.2.2) (by rw [hx'.2]; exact v.2.2) e e'
  | .splitLeft a z c, w, v, k, r, r', e, e' => by
    simp only [SExpr.run, bind_eq_ok] at e e'
    obtain ⟨x, x1, e⟩ := e
    obtain ⟨x', x1', e'⟩ := e'
    have gx := SExpr.run_glued R a w.1 v.1 k.1 x x' x1 x1'
    have hx := R.sh_s1 (e := a) w.1 x1
    have hx' := R.sh_s2 (e := a) v.1 x1'
    obtain ⟨⟨l, u⟩, e1, e2⟩ := e
    obtain ⟨⟨l', u'⟩, f1, f2⟩ := e'
    cases e2; cases f2
    exact (Spline.glued_split k.2 gx (by rw [hx.2]; exact w.2) e1 f1).1
  | .splitRight a z c, w, v, k, r, r', e, e' => by
    simp only [SExpr.run, bind_eq_ok] at e e'
    obtain ⟨x, x1, e⟩ := e
    obtain ⟨x', x1', e'⟩ := e'
    have gx := SExpr.run_glued R a w.1 v.1 k.1 x x' x1 x1'
    have hx := R.sh_s1 (e := a) w.1 x1
    have hx' := R.sh_s2 (e := a) v.1 x1'
    obtain ⟨⟨l, u⟩, e1, e2⟩ := e
    obtain ⟨⟨l', u'⟩, f1, f2⟩ := e'
    cases e2; cases f2
    exact (Spline.glued_split k.2 gx (by rw [hx.2]; exact w.2) e1 f1).2.1
  | .splitPart a zs c i, w, v, k, r, r', e, e' => by
    simp only [SExpr.run, bind_eq_ok] at e e'
    obtain ⟨x, x1, e⟩ := e
    obtain ⟨x', x1', e'⟩ := e'
    have gx := SExpr.run_glued R a w.1 v.1 k.1 x x' x1 x1'
    have hx := R.sh_s1 (e := a) w.1 x1
    have hx' := R.sh_s2 (e := a) v.1 x1'
    obtain ⟨l, e1, e2⟩ := e
    obtain ⟨l', f1, f2⟩ := e'
    exact Spline.glued_splitMany k.2 gx (by rw [hx.2]; exact w.2.1) e1 f1 i _ _ (rd_some_of_ok e2) (rd_some_of_ok f2)
  | .deriv a o, w, v, k, r, r', e, e' => by
    simp only [SExpr.run, bind_eq_ok] at e e'
    obtain ⟨x, x1, e⟩ := e
    obtain ⟨x', x1', e'⟩ := e'
    have gx := SExpr.run_glued R a w.1 v.1 k.1 x x' x1 x1'
    have hx := R.sh_s1 (e := a) w.1 x1
    have hx' := R.sh_s2 (e := a) v.1 x1'
    exact Spline.glued_deriv R.max gx (by rw [hx.2]; exact w.2.1) k.2 (by rw [hx.2]; exact w.2.2.1) w.2.2.2.1
      (by rw [hx.2]; exact w.2.2.2.2) (by rw [hx'.2]; exact v.2.2.2.2) e e'
  | .compose a b, w, v, k, r, r', e, e' => by
    simp only [SExpr.run, bind_eq_ok] at e e'
    obtain ⟨x, x1, y, y1, e⟩ := e
    obtain ⟨x', x1', y', y1', e'⟩ := e'
    have gy := PExpr.run_glued R b w.2.1 v.2.1 k.2 y y' y1 y1'
    have hx := R.sh_s1 (e := a) w.1 x1
    have hx' := R.sh_s2 (e := a) v.1 x1'
    have hy := R.sh_p1 w.2.1 y1
    have hy' := R.sh_p2 v.2.1 y1'
    have hxx : x = x' := by
      rw [SExpr.run_common R.vars.common_s R.vars.common_p a k.1, x1'] at x1
      cases x1; rfl
    subst hxx
    refine Spline.glued_compose R.max hx.1 gy (by rw [hx.2]; exact w.2.2.1) ?_ ?_ e e'
    · intro t ht
      rw [hx.2, hy.2] at ht
      obtain ⟨q, hq, rfl⟩ := List.mem_map.mp ht
      exact w.2.2.2.2 q hq
    · intro t ht
      rw [hx'.2, hy'.2] at ht
      obtain ⟨q, hq, rfl⟩ := List.mem_map.mp ht
      exact v.2.2.2.2 q hq
  | .composeScalar a b, w, v, k, r, r', e, e' => by
    simp only [SExpr.run, bind_eq_ok] at e e'
    obtain ⟨x, x1, y, y1, e⟩ := e
    obtain ⟨x', x1', y', y1', e'⟩ := e'
    have gy := SExpr.run_glued R b w.2.1 v.2.1 k.2 y y' y1 y1'
    have hx := R.sh_s1 (e := a) w.1 x1
    have hx' := R.sh_s2 (e := a) v.1 x1'
    have hy := R.sh_s1 w.2.1 y1
    have hy' := R.sh_s2 v.2.1 y1'
    have hxx : x = x' := by
      rw [SExpr.run_common R.vars.common_s R.vars.common_p a k.1, x1'] at x1
      cases x1; rfl
    subst hxx
    refine Spline.glued_compose R.max hx.1 gy (by rw [hx.2]; exact w.2.2.1) ?_ ?_ e e'
    · intro t ht
      rw [hx.2, hy.2] at ht
      obtain ⟨q, hq, rfl⟩ := List.mem_map.mp ht
      exact w.2.2.2.2 q hq
    · intro t ht
      rw [hx'.2, hy'.2] at ht
      obtain ⟨q, hq, rfl⟩ := List.mem_map.mp ht
      exact v.2.2.2.2 q hq
  | .mul a b, w, v, k, r, r', e, e' => by
    simp only [SExpr.run, bind_eq_ok] at e e'
    obtain ⟨x, x1, y, y1, e⟩ := e
    obtain ⟨x', x1', y', y1', e'⟩ := e'
    have gx := SExpr.run_glued R a w.1 v.1 k.1 x x' x1 x1'
    have gy := SExpr.run_glued R b w.2.1 v.2.1 k.2 y y' y1 y1'
    have hx := R.sh_s1 (e := a) w.1 x1
    have hx' := R.sh_s2 (e := a) v.1 x1'
    have hy := R.sh_s1 w.2.1 y1
    have hy' := R.sh_s2 v.2.1 y1'
    exact (Spline.glued_mul R.max gx gy (by rw [hx.2, hy.2]; exact w.2.2.1) (by rw [hx.2, hy.2]; exact w.2.2.2)
      (by rw [hx'.2, hy'.2]; exact v.2.2.2) e e').1
  | .dot a b, w, v, k, r, r', e, e' => by
    simp only [SExpr.run, bind_eq_ok] at e e'
    obtain ⟨x, x1, y, y1, e⟩ := e
    obtain ⟨x', x1', y', y1', e'⟩ := e'
    have gx := PExpr.run_glued R a w.1 v.1 k.1 x x' x1 x1'
    have gy := PExpr.run_glued R b w.2.1 v.2.1 k.2 y y' y1 y1'
    have hx := R.sh_p1 (e := a) w.1 x1
    have hx' := R.sh_p2 (e := a) v.1 x1'
    have hy := R.sh_p1 w.2.1 y1
    have hy' := R.sh_p2 v.2.1 y1'
    exact (Spline.glued_mul R.max gx gy (by rw [hx.2, hy.2]; exact w.2.2.1) (by rw [hx.2, hy.2]; exact w.2.2.2)
      (by rw [hx'.2, hy'.2]; exact v.2.2.2) e e').1
  | .power a j, w, v, k, r, r', e, e' => by
    simp only [SExpr.run, bind_eq_ok] at e e'
    obtain ⟨x, x1, e⟩ := e
    obtain ⟨x', x1', e'⟩ := e'
    have gx := SExpr.run_glued R a w.1 v.1 k x x' x1 x1'
    have hx := R.sh_s1 (e := a) w.1 x1
    have hx' := R.sh_s2 (e := a) v.1 x1'
    refine Spline.glued_power R.max gx ?_ ?_ e e'
    · intro t ht
      rw [hx.2] at ht
      obtain ⟨q, hq, rfl⟩ := List.mem_map.mp ht
      exact w.2 q hq
    · intro t ht
      rw [hx'.2] at ht
      obtain ⟨q, hq, rfl⟩ := List.mem_map.mp ht
      exact v.2 q hq
  | .extract a j, w, v, k, r, r', e, e' => by
    simp only [SExpr.run, bind_eq_ok] at e e'
    obtain ⟨x, x1, e⟩ := e
    obtain ⟨x', x1', e'⟩ := e'
    have gx := PExpr.run_glued R a w.1 v.1 k x x' x1 x1'
    have hx := R.sh_p1 (e := a) w.1 x1
    have hx' := R.sh_p2 (e := a) v.1 x1'
    exact Spline.glued_extract gx w.2 e e'

theorem PExpr.run_glued (R : GluedRuns cfg d sa sb common σ τ ds dp es ep) :
    ∀ (e : PExpr K n), e.WellShaped cfg ds dp → e.WellShaped cfg es ep → e.KeepsFace d common → ∀ r r',
      e.run cfg σ = .ok r → e.run cfg τ = .ok r' → Glued d sa sb r r'
  | .leaf i, _, _, k, r, r', e, e' => by
    simp only [PExpr.run, pure, Except.pure, Except.ok.injEq] at e e'
    subst e e'
    exact R.vars.patch_p i k
  | .add a b, w, v, k, r, r', e, e' => by
    simp only [PExpr.run, bind_eq_ok] at e e'
    obtain ⟨x, x1, y, y1, e⟩ := e
    obtain ⟨x', x1', y', y1', e'⟩ := e'
    have gx := PExpr.run_glued R a w.1 v.1 k.1 x x' x1 x1'
    have gy := PExpr.run_glued R b w.2.1 v.2.1 k.2 y y' y1 y1'
    have hx := R.sh_p1 (e := a) w.1 x1
    have hx' := R.sh_p2 (e := a) v.1 x1'
    have hy := R.sh_p1 w.2.1 y1
    have hy' := R.sh_p2 v.2.1 y1'
    rw [Spline.addOp_eq (Point.add_comm_of R.comm) hx hy w.2.2] at e
    rw [Spline.addOp_eq (Point.add_comm_of R.comm) hx' hy' v.2.2] at e'
    exact Spline.glued_addAssign gx gy hx hy hx' hy' w.2.2 v.2.2 e e'
  | .addAssign a b, w, v, k, r, r', e, e' => by
    simp only [PExpr.run, bind_eq_ok] at e e'
    obtain ⟨x, x1, y, y1, e⟩ := e
    obtain ⟨x', x1', y', y1', e'⟩ := e'
    have gx := PExpr.run_glued R a w.1 v.1 k.1 x x' x1 x1'
    have gy := PExpr.run_glued R b w.2.1 v.2.1 k.2 y y' y1 y1'
    have hx := R.sh_p1 (e := a) w.1 x1
    have hx' := R.sh_p2 (e := a) v.1 x1'
    have hy := R.sh_p1 w.2.1 y1
    have hy' := R.sh_p2 v.2.1 y1'
    exact Spline.glued_addAssign gx gy hx hy hx' hy' w.2.2 v.2.2 e e'
  | .sub a b, w, v, k, r, r', e, e' => by
    simp only [PExpr.run, bind_eq_ok] at e e'
    obtain ⟨x, x1, y, y1, e⟩ := e
    obtain ⟨x', x1', y', y1', e'⟩ := e'
    have gx := PExpr.run_glued R a w.1 v.1 k.1 x x' x1 x1'
    have gy := PExpr.run_glued R b w.2.1 v.2.1 k.2 y y' y1 y1'
    have hx := R.sh_p1 (e := a) w.1 x1
    have hx' := R.sh_p2 (e := a) v.1 x1'
    have hy := R.sh_p1 w.2.1 y1
    have hy' := R.sh_p2 v.2.1 y1'
    rw [Spline.subOp_eq hx hy w.2.2.1 w.2.2.2] at e
    rw [Spline.subOp_eq hx' hy' v.2.2.1 v.2.2.2] at e'
    exact Spline.glued_subAssign gx gy hx hy hx' hy' w.2.2.1 v.2.2.1 e e'
  | .subAssign a b, w, v, k, r, r', e, e' => by
    simp only [PExpr.run, bind_eq_ok] at e e'
    obtain ⟨x, x1, y, y1, e⟩ := e
    obtain ⟨x', x1', y', y1', e'⟩ := e'
    have gx := PExpr.run_glued R a w.1 v.1 k.1 x x' x1 x1'
    have gy := PExpr.run_glued R b w.2.1 v.2.1 k.2 y y' y1 y1'
    have hx := R.sh_p1 (e := a) w.1 x1
    have hx' := R.sh_p2 (e := a) v.1 x1'
    have hy := R.sh_p1 w.2.1 y1
    have hy' := R.sh_p2 v.2.1 y1'
    exact Spline.glued_subAssign gx gy hx hy hx' hy' w.2.2 v.2.2 e e'
  | .neg a, w, v, k, r, r', e, e' => by
    simp only [PExpr.run, bind_eq_ok] at e e'
    obtain ⟨x, x1, e⟩ := e
    obtain ⟨x', x1', e'⟩ := e'
    have gx := PExpr.run_glued R a w v k x x' x1 x1'
    have hx := R.sh_p1 (e := a) w x1
    have hx' := R.sh_p2 (e := a) v x1'
    exact Spline.glued_neg gx e e'
  | .scale a c, w, v, k, r, r', e, e' => by
    simp only [PExpr.run, bind_eq_ok] at e e'
    obtain ⟨x, x1, e⟩ := e
    obtain ⟨x', x1', e'⟩ := e'
    have gx := PExpr.run_glued R a w v k x x' x1 x1'
    have hx := R.sh_p1 (e := a) w x1
    have hx' := R.sh_p2 (e := a) v x1'
    exact Spline.glued_mapCps gx _ e e'
  | .addPoint a c, w, v, k, r, r', e, e' => by
    simp only [PExpr.run, bind_eq_ok] at e e'
    obtain ⟨x, x1, e⟩ := e
    obtain ⟨x', x1', e'⟩ := e'
    have gx := PExpr.run_glued R a w v k x x' x1 x1'
    have hx := R.sh_p1 (e := a) w x1
    have hx' := R.sh_p2 (e := a) v x1'
    exact Spline.glued_mapCps gx _ e e'
  | .subPoint a c, w, v, k, r, r', e, e' => by
    simp only [PExpr.run, bind_eq_ok] at e e'
    obtain ⟨x, x1, e⟩ := e
    obtain ⟨x', x1', e'⟩ := e'
    have gx := PExpr.run_glued R a w v k x x' x1 x1'
    have hx := R.sh_p1 (e := a) w x1
    have hx' := R.sh_p2 (e := a) v x1'
    exact Spline.glued_mapCps gx _ e e'
  | .pointSub c a, w, v, k, r, r', e, e' => by
    simp only [PExpr.run, bind_eq_ok] at e e'
    obtain ⟨x, x1, e⟩ := e
    obtain ⟨x', x1', e'⟩ := e'
    have gx := PExpr.run_glued R a w v k x x' x1 x1'
    have hx := R.sh_p1 (e := a) w x1
    have hx' := R.sh_p2 (e := a) v x1'
    exact Spline.glued_pointSub gx c e e'
  | .elevate a c, w, v, k, r, r', e, e' => by
    simp only [PExpr.run, bind_eq_ok] at e e'
    obtain ⟨x, x1, e⟩ := e
    obtain ⟨x', x1', e'⟩ := e'
    have gx := PExpr.run_glued R a w.1 v.1 k x x' x1 x1'
    have hx := R.sh_p1 (e := a) w.1 x1
    have hx' := R.sh_p2 (e := a) v.1 x1'
    exact Spline.glued_elevateAny gx (by rw [hx.2]; exact w.2.1) (by rw [hx.2]; exact w.2.2) (by rw [hx'.2]; exact v.2.2) e e'
  | .splitLeft a z c, w, v, k, r, r', e, e' => by
    simp only [PExpr.run, bind_eq_ok] at e e'
    obtain ⟨x, x1, e⟩ := e
    obtain ⟨x', x1', e'⟩ := e'
    have gx := PExpr.run_glued R a w.1 v.1 k.1 x x' x1 x1'
    have hx := R.sh_p1 (e := a) w.1 x1
    have hx' := R.sh_p2 (e := a) v.1 x1'
    obtain ⟨⟨l, u⟩, e1, e2⟩ := e
    obtain ⟨⟨l', u'⟩, f1, f2⟩ := e'
    cases e2; cases f2
    exact (Spline.glued_split k.2 gx (by rw [hx.2]; exact w.2) e1 f1).1
  | .splitRight a z c, w, v, k, r, r', e, e' => by
    simp only [PExpr.run, bind_eq_ok] at e e'
    obtain ⟨x, x1, e⟩ := e
    obtain ⟨x', x1', e'⟩ := e'
    have gx := PExpr.run_glued R a w.1 v.1 k.1 x x' x1 x1'
    have hx := R.sh_p1 (e := a) w.1 x1
    have hx' := R.sh_p2 (e := a) v.1 x1'
    obtain ⟨⟨l, u⟩, e1, e2⟩ := e
    obtain ⟨⟨l', u'⟩, f1, f2⟩ := e'
    cases e2; cases f2
    exact (Spline.glued_split k.2 gx (by rw [hx.2]; exact w.2) e1 f1).2.1
  | .splitPart a zs c i, w, v, k, r, r', e, e' => by
    simp only [PExpr.run, bind_eq_ok] at e e'
    obtain ⟨x, x1, e⟩ := e
    obtain ⟨x', x1', e'⟩ := e'
    have gx := PExpr.run_glued R a w.1 v.1 k.1 x x' x1 x1'
    have hx := R.sh_p1 (e := a) w.1 x1
    have hx' := R.sh_p2 (e := a) v.1 x1'
    obtain ⟨l, e1, e2⟩ := e
    obtain ⟨l', f1, f2⟩ := e'
    exact Spline.glued_splitMany k.2 gx (by rw [hx.2]; exact w.2.1) e1 f1 i _ _ (rd_some_of_ok e2) (rd_some_of_ok f2)
  | .deriv a o, w, v, k, r, r', e, e' => by
    simp only [PExpr.run, bind_eq_ok] at e e'
    obtain ⟨x, x1, e⟩ := e
    obtain ⟨x', x1', e'⟩ := e'
    have gx := PExpr.run_glued R a w.1 v.1 k.1 x x' x1 x1'
    have hx := R.sh_p1 (e := a) w.1 x1
    have hx' := R.sh_p2 (e := a) v.1 x1'
    exact Spline.glued_deriv R.max gx (by rw [hx.2]; exact w.2.1) k.2 (by rw [hx.2]; exact w.2.2.1) w.2.2.2.1
      (by rw [hx.2]; exact w.2.2.2.2) (by rw [hx'.2]; exact v.2.2.2.2) e e'
  | .compose a b, w, v, k, r, r', e, e' => by
    simp only [PExpr.run, bind_eq_ok] at e e'
    obtain ⟨x, x1, y, y1, e⟩ := e
    obtain ⟨x', x1', y', y1', e'⟩ := e'
    have gy := PExpr.run_glued R b w.2.1 v.2.1 k.2 y y' y1 y1'
    have hx := R.sh_p1 (e := a) w.1 x1
    have hx' := R.sh_p2 (e := a) v.1 x1'
    have hy := R.sh_p1 w.2.1 y1
    have hy' := R.sh_p2 v.2.1 y1'
    have hxx : x = x' := by
      rw [PExpr.run_common R.vars.common_s R.vars.common_p a k.1, x1'] at x1
      cases x1; rfl
    subst hxx
    refine Spline.glued_compose R.max hx.1 gy (by rw [hx.2]; exact w.2.2.1) ?_ ?_ e e'
    · intro t ht
      rw [hx.2, hy.2] at ht
      obtain ⟨q, hq, rfl⟩ := List.mem_map.mp ht
      exact w.2.2.2.2 q hq
    · intro t ht
      rw [hx'.2, hy'.2] at ht
      obtain ⟨q, hq, rfl⟩ := List.mem_map.mp ht
      exact v.2.2.2.2 q hq
  | .composeScalar a b, w, v, k, r, r', e, e' => by
    simp only [PExpr.run, bind_eq_ok] at e e'
    obtain ⟨x, x1, y, y1, e⟩ := e
    obtain ⟨x', x1', y', y1', e'⟩ := e'
    have gy := SExpr.run_glued R b w.2.1 v.2.1 k.2 y y' y1 y1'
    have hx := R.sh_p1 (e := a) w.1 x1
    have hx' := R.sh_p2 (e := a) v.1 x1'
    have hy := R.sh_s1 w.2.1 y1
    have hy' := R.sh_s2 v.2.1 y1'
    have hxx : x = x' := by
      rw [PExpr.run_common R.vars.common_s R.vars.common_p a k.1, x1'] at x1
      cases x1; rfl
    subst hxx
    refine Spline.glued_compose R.max hx.1 gy (by rw [hx.2]; exact w.2.2.1) ?_ ?_ e e'
    · intro t ht
      rw [hx.2, hy.2] at ht
      obtain ⟨q, hq, rfl⟩ := List.mem_map.mp ht
      exact w.2.2.2.2 q hq
    · intro t ht
      rw [hx'.2, hy'.2] at ht
      obtain ⟨q, hq, rfl⟩ := List.mem_map.mp ht
      exact v.2.2.2.2 q hq
  | .mulLeft a b, w, v, k, r, r', e, e' => by
    simp only [PExpr.run, bind_eq_ok] at e e'
    obtain ⟨x, x1, y, y1, e⟩ := e
    obtain ⟨x', x1', y', y1', e'⟩ := e'
    have gx := SExpr.run_glued R a w.1 v.1 k.1 x x' x1 x1'
    have gy := PExpr.run_glued R b w.2.1 v.2.1 k.2 y y' y1 y1'
    have hx := R.sh_s1 (e := a) w.1 x1
    have hx' := R.sh_s2 (e := a) v.1 x1'
    have hy := R.sh_p1 w.2.1 y1
    have hy' := R.sh_p2 v.2.1 y1'
    exact (Spline.glued_mul R.max gx gy (by rw [hx.2, hy.2]; exact w.2.2.1) (by rw [hx.2, hy.2]; exact w.2.2.2)
      (by rw [hx'.2, hy'.2]; exact v.2.2.2) e e').1
  | .mulRight a b, w, v, k, r, r', e, e' => by
    simp only [PExpr.run, bind_eq_ok] at e e'
    obtain ⟨x, x1, y, y1, e⟩ := e
    obtain ⟨x', x1', y', y1', e'⟩ := e'
    have gx := PExpr.run_glued R a w.1 v.1 k.1 x x' x1 x1'
    have gy := SExpr.run_glued R b w.2.1 v.2.1 k.2 y y' y1 y1'
    have hx := R.sh_p1 (e := a) w.1 x1
    have hx' := R.sh_p2 (e := a) v.1 x1'
    have hy := R.sh_s1 w.2.1 y1
    have hy' := R.sh_s2 v.2.1 y1'
    exact (Spline.glued_mul R.max gx gy (by rw [hx.2, hy.2]; exact w.2.2.1) (by rw [hx.2, hy.2]; exact w.2.2.2)
      (by rw [hx'.2, hy'.2]; exact v.2.2.2) e e').1
end
end Bezman
