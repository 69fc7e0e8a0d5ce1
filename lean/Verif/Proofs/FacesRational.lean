import Verif.Proofs.FacesRationalDeriv

set_option linter.unusedSectionVars false

/-! # Whole rational programs on patches that share a face -/

namespace Bezman
open Spec Props
variable {K : Type} [Zero K] [One K] [Add K] [Sub K] [Mul K] [Neg K] [Div K] [NatCast K] [LT K] [DecidableLT K] [BEq K] {n : ℕ}

theorem rshape_of_ok {V : Type} {S : Set (List ℕ)} {x : M (RSpline K V)} {r : RSpline K V} (h : ROutcome S x) (e : x = .ok r) :
    ∃ ds ∈ S, HasRShape ds r := by
  rcases h with h | h | ⟨ds, hds, r', h, hs⟩
  · rw [h] at e; cases e
  · rw [h] at e; cases e
  · rw [h] at e; cases e; exact ⟨ds, hds, hs⟩

section
variable {cfg : Cfg} {σ τ : RVars K n} {common : ℕ → Prop}

/-- the common variables agree -/
structure Agree (common : ℕ → Prop) (σ τ : RVars K n) : Prop where
  s : ∀ i, common i → σ.s i = τ.s i
  p : ∀ i, common i → σ.p i = τ.p i
  rs : ∀ i, common i → σ.rs i = τ.rs i
  rp : ∀ i, common i → σ.rp i = τ.rp i

mutual
theorem RSExpr.run_common (A : Agree common σ τ) : ∀ e : RSExpr K n, e.Uses common → e.run cfg σ = e.run cfg τ
  | .leaf i, h => by simp only [RSExpr.run]; rw [A.rs i h]
  | .ofSpline a, h => by simp only [RSExpr.run]; rw [SExpr.run_common A.s A.p a h]
  | .add a b, h => by simp only [RSExpr.run]; rw [RSExpr.run_common A a h.1, RSExpr.run_common A b h.2]
  | .addAssign a b, h => by simp only [RSExpr.run]; rw [RSExpr.run_common A a h.1, RSExpr.run_common A b h.2]
  | .sub a b, h => by simp only [RSExpr.run]; rw [RSExpr.run_common A a h.1, RSExpr.run_common A b h.2]
  | .subAssign a b, h => by simp only [RSExpr.run]; rw [RSExpr.run_common A a h.1, RSExpr.run_common A b h.2]
  | .neg a, h => by simp only [RSExpr.run]; rw [RSExpr.run_common A a h]
  | .scale a _, h => by simp only [RSExpr.run]; rw [RSExpr.run_common A a h]
  | .addPoint a _, h => by simp only [RSExpr.run]; rw [RSExpr.run_common A a h]
  | .subPoint a _, h => by simp only [RSExpr.run]; rw [RSExpr.run_common A a h]
  | .elevate a _, h => by simp only [RSExpr.run]; rw [RSExpr.run_common A a h]
  | .splitLeft a _ _, h => by simp only [RSExpr.run]; rw [RSExpr.run_common A a h]
  | .splitRight a _ _, h => by simp only [RSExpr.run]; rw [RSExpr.run_common A a h]
  | .splitPart a _ _ _, h => by simp only [RSExpr.run]; rw [RSExpr.run_common A a h]
  | .deriv a _, h => by simp only [RSExpr.run]; rw [RSExpr.run_common A a h]
  | .composePoly a b, h => by simp only [RSExpr.run]; rw [RSExpr.run_common A a h.1, PExpr.run_common A.s A.p b h.2]
  | .composePolyScalar a b, h => by simp only [RSExpr.run]; rw [RSExpr.run_common A a h.1, SExpr.run_common A.s A.p b h.2]
  | .compose a b, h => by simp only [RSExpr.run]; rw [RSExpr.run_common A a h.1, RPExpr.run_common A b h.2]
  | .composeScalar a b, h => by simp only [RSExpr.run]; rw [RSExpr.run_common A a h.1, RSExpr.run_common A b h.2]
  | .polyCompose a b, h => by simp only [RSExpr.run]; rw [SExpr.run_common A.s A.p a h.1, RPExpr.run_common A b h.2]
  | .polyComposeScalar a b, h => by simp only [RSExpr.run]; rw [SExpr.run_common A.s A.p a h.1, RSExpr.run_common A b h.2]
  | .mul a b, h => by simp only [RSExpr.run]; rw [RSExpr.run_common A a h.1, RSExpr.run_common A b h.2]
  | .dot a b, h => by simp only [RSExpr.run]; rw [RPExpr.run_common A a h.1, RPExpr.run_common A b h.2]

theorem RPExpr.run_common (A : Agree common σ τ) : ∀ e : RPExpr K n, e.Uses common → e.run cfg σ = e.run cfg τ
  | .leaf i, h => by simp only [RPExpr.run]; rw [A.rp i h]
  | .ofSpline a, h => by simp only [RPExpr.run]; rw [PExpr.run_common A.s A.p a h]
  | .add a b, h => by simp only [RPExpr.run]; rw [RPExpr.run_common A a h.1, RPExpr.run_common A b h.2]
  | .addAssign a b, h => by simp only [RPExpr.run]; rw [RPExpr.run_common A a h.1, RPExpr.run_common A b h.2]
  | .sub a b, h => by simp only [RPExpr.run]; rw [RPExpr.run_common A a h.1, RPExpr.run_common A b h.2]
  | .subAssign a b, h => by simp only [RPExpr.run]; rw [RPExpr.run_common A a h.1, RPExpr.run_common A b h.2]
  | .neg a, h => by simp only [RPExpr.run]; rw [RPExpr.run_common A a h]
  | .scale a _, h => by simp only [RPExpr.run]; rw [RPExpr.run_common A a h]
  | .addPoint a _, h => by simp only [RPExpr.run]; rw [RPExpr.run_common A a h]
  | .subPoint a _, h => by simp only [RPExpr.run]; rw [RPExpr.run_common A a h]
  | .elevate a _, h => by simp only [RPExpr.run]; rw [RPExpr.run_common A a h]
  | .splitLeft a _ _, h => by simp only [RPExpr.run]; rw [RPExpr.run_common A a h]
  | .splitRight a _ _, h => by simp only [RPExpr.run]; rw [RPExpr.run_common A a h]
  | .splitPart a _ _ _, h => by simp only [RPExpr.run]; rw [RPExpr.run_common A a h]
  | .deriv a _, h => by simp only [RPExpr.run]; rw [RPExpr.run_common A a h]
  | .composePoly a b, h => by simp only [RPExpr.run]; rw [RPExpr.run_common A a h.1, PExpr.run_common A.s A.p b h.2]
  | .composePolyScalar a b, h => by simp only [RPExpr.run]; rw [RPExpr.run_common A a h.1, SExpr.run_common A.s A.p b h.2]
  | .compose a b, h => by simp only [RPExpr.run]; rw [RPExpr.run_common A a h.1, RPExpr.run_common A b h.2]
  | .composeScalar a b, h => by simp only [RPExpr.run]; rw [RPExpr.run_common A a h.1, RSExpr.run_common A b h.2]
  | .polyCompose a b, h => by simp only [RPExpr.run]; rw [PExpr.run_common A.s A.p a h.1, RPExpr.run_common A b h.2]
  | .polyComposeScalar a b, h => by simp only [RPExpr.run]; rw [PExpr.run_common A.s A.p a h.1, RSExpr.run_common A b h.2]
  | .mulLeft a b, h => by simp only [RPExpr.run]; rw [RSExpr.run_common A a h.1, RPExpr.run_common A b h.2]
  | .mulRight a b, h => by simp only [RPExpr.run]; rw [RPExpr.run_common A a h.1, RSExpr.run_common A b h.2]
end
end

variable {cfg : Cfg} {σ τ : RVars K n} {common : ℕ → Prop} {D E : RDegrees} {d : ℕ} {sa sb : Bool}

/-- the two runs -/
structure RGluedRuns (cfg : Cfg) (d : ℕ) (sa sb : Bool) (common : ℕ → Prop) (σ τ : RVars K n) (D E : RDegrees) : Prop where
  max : cfg.maxBinom ≤ 68
  comm : ∀ x y : K, x + y = y + x
  vars : RGluedVars d sa sb common σ τ
  left : D.Of σ
  right : E.Of τ

theorem RGluedRuns.poly (R : RGluedRuns cfg d sa sb common σ τ D E) : GluedRuns cfg d sa sb common σ.toVars τ.toVars D.s D.p E.s E.p :=
  ⟨R.max, R.comm, R.vars.toGluedVars, R.left.s, R.left.p, R.right.s, R.right.p⟩

theorem RGluedRuns.agree (R : RGluedRuns cfg d sa sb common σ τ D E) : Agree common σ τ :=
  ⟨R.vars.common_s, R.vars.common_p, R.vars.common_rs, R.vars.common_rp⟩

theorem RGluedRuns.s1 (R : RGluedRuns cfg d sa sb common σ τ D E) {e : RSExpr K n} (h : e.WellShaped cfg D) {r : RSpline K K} (hr : e.run cfg σ = .ok r) :
    ∃ ds ∈ e.shapes D, HasRShape ds r := rshape_of_ok (RSExpr.run_outcome R.max R.left e h) hr
theorem RGluedRuns.p1 (R : RGluedRuns cfg d sa sb common σ τ D E) {e : RPExpr K n} (h : e.WellShaped cfg D) {r : RSpline K (Point K n)} (hr : e.run cfg σ = .ok r) :
    ∃ ds ∈ e.shapes D, HasRShape ds r := rshape_of_ok (RPExpr.run_outcome R.max R.left e h) hr
theorem RGluedRuns.s2 (R : RGluedRuns cfg d sa sb common σ τ D E) {e : RSExpr K n} (h : e.WellShaped cfg E) {r : RSpline K K} (hr : e.run cfg τ = .ok r) :
    ∃ ds ∈ e.shapes E, HasRShape ds r := rshape_of_ok (RSExpr.run_outcome R.max R.right e h) hr
theorem RGluedRuns.p2 (R : RGluedRuns cfg d sa sb common σ τ D E) {e : RPExpr K n} (h : e.WellShaped cfg E) {r : RSpline K (Point K n)} (hr : e.run cfg τ = .ok r) :
    ∃ ds ∈ e.shapes E, HasRShape ds r := rshape_of_ok (RPExpr.run_outcome R.max R.right e h) hr

theorem rshape_unique {V : Type} {r : RSpline K V} {ds es : List ℕ} (h : HasRShape ds r) (h' : HasRShape es r) : ds = es := h.1.2.symm.trans h'.1.2

mutual
theorem RSExpr.run_glued (R : RGluedRuns cfg d sa sb common σ τ D E) :
    ∀ (e : RSExpr K n), e.WellShaped cfg D → e.WellShaped cfg E → e.KeepsFace d common → e.SameSums cfg σ τ → ∀ r r',
      e.run cfg σ = .ok r → e.run cfg τ = .ok r' → RGlued d sa sb r r'
  | .leaf i, _, _, k, _, r, r', e, e' => by
    simp only [RSExpr.run, pure, Except.pure, Except.ok.injEq] at e e'
    subst e e'
    exact R.vars.patch_rs i k
  | .ofSpline a, w, v, k, _, r, r', e, e' => by
    simp only [RSExpr.run, bind_eq_ok] at e e'
    obtain ⟨x, x1, e⟩ := e
    obtain ⟨x', x1', e'⟩ := e'
    exact RSpline.rglued_ofSpline (SExpr.run_glued R.poly a w v k x x' x1 x1') e e'
  | .add a b, w, v, k, s, r, r', e, e' => by
    simp only [RSExpr.run, bind_eq_ok] at e e'
    obtain ⟨x, x1, y, y1, e⟩ := e
    obtain ⟨x', x1', y', y1', e'⟩ := e'
    have gx := RSExpr.run_glued R a w.1 v.1 k.1 s.1 x x' x1 x1'
    have gy := RSExpr.run_glued R b w.2.1 v.2.1 k.2 s.2.1 y y' y1 y1'
    obtain ⟨p, hp, hx⟩ := R.s1 w.1 x1
    obtain ⟨p', hp', hx'⟩ := R.s2 v.1 x1'
    obtain ⟨q, hq, hy⟩ := R.s1 w.2.1 y1
    obtain ⟨q', hq', hy'⟩ := R.s2 v.2.1 y1'
    exact RSpline.rglued_add R.comm R.max gx gy hx hy hx' hy' (w.2.2 p hp q hq) (v.2.2 p' hp' q' hq') (s.2.2 x y x' y' x1 y1 x1' y1') e e'
  | .addAssign a b, w, v, k, s, r, r', e, e' => by
    simp only [RSExpr.run, bind_eq_ok] at e e'
    obtain ⟨x, x1, y, y1, e⟩ := e
    obtain ⟨x', x1', y', y1', e'⟩ := e'
    have gx := RSExpr.run_glued R a w.1 v.1 k.1 s.1 x x' x1 x1'
    have gy := RSExpr.run_glued R b w.2.1 v.2.1 k.2 s.2.1 y y' y1 y1'
    obtain ⟨p, hp, hx⟩ := R.s1 w.1 x1
    obtain ⟨p', hp', hx'⟩ := R.s2 v.1 x1'
    obtain ⟨q, hq, hy⟩ := R.s1 w.2.1 y1
    obtain ⟨q', hq', hy'⟩ := R.s2 v.2.1 y1'
    exact RSpline.rglued_addAssign R.max gx gy hx hy hx' hy' (w.2.2 p hp q hq) (v.2.2 p' hp' q' hq') (s.2.2 x y x' y' x1 y1 x1' y1') e e'
  | .sub a b, w, v, k, s, r, r', e, e' => by
    simp only [RSExpr.run, bind_eq_ok] at e e'
    obtain ⟨x, x1, y, y1, e⟩ := e
    obtain ⟨x', x1', y', y1', e'⟩ := e'
    have gx := RSExpr.run_glued R a w.1 v.1 k.1 s.1 x x' x1 x1'
    have gy := RSExpr.run_glued R b w.2.1 v.2.1 k.2 s.2.1 y y' y1 y1'
    obtain ⟨p, hp, hx⟩ := R.s1 w.1 x1
    obtain ⟨p', hp', hx'⟩ := R.s2 v.1 x1'
    obtain ⟨q, hq, hy⟩ := R.s1 w.2.1 y1
    obtain ⟨q', hq', hy'⟩ := R.s2 v.2.1 y1'
    exact RSpline.rglued_sub R.max gx gy hx hy hx' hy' (w.2.2 p hp q hq) (v.2.2 p' hp' q' hq') (s.2.2 x y x' y' x1 y1 x1' y1') e e'
  | .subAssign a b, w, v, k, s, r, r', e, e' => by
    simp only [RSExpr.run, bind_eq_ok] at e e'
    obtain ⟨x, x1, y, y1, e⟩ := e
    obtain ⟨x', x1', y', y1', e'⟩ := e'
    have gx := RSExpr.run_glued R a w.1 v.1 k.1 s.1 x x' x1 x1'
    have gy := RSExpr.run_glued R b w.2.1 v.2.1 k.2 s.2.1 y y' y1 y1'
    obtain ⟨p, hp, hx⟩ := R.s1 w.1 x1
    obtain ⟨p', hp', hx'⟩ := R.s2 v.1 x1'
    obtain ⟨q, hq, hy⟩ := R.s1 w.2.1 y1
    obtain ⟨q', hq', hy'⟩ := R.s2 v.2.1 y1'
    exact RSpline.rglued_subAssign R.max gx gy hx hy hx' hy' (w.2.2 p hp q hq) (v.2.2 p' hp' q' hq') (s.2.2 x y x' y' x1 y1 x1' y1') e e'
  | .neg a, w, v, k, s, r, r', e, e' => by
    simp only [RSExpr.run, bind_eq_ok] at e e'
    obtain ⟨x, x1, e⟩ := e
    obtain ⟨x', x1', e'⟩ := e'
    have gx := RSExpr.run_glued R a w v k s x x' x1 x1'
    obtain ⟨p, hp, hx⟩ := R.s1 (e := a) w x1
    obtain ⟨p', hp', hx'⟩ := R.s2 (e := a) v x1'
    exact RSpline.rglued_neg gx e e'
  | .scale a c, w, v, k, s, r, r', e, e' => by
    simp only [RSExpr.run, bind_eq_ok] at e e'
    obtain ⟨x, x1, e⟩ := e
    obtain ⟨x', x1', e'⟩ := e'
    have gx := RSExpr.run_glued R a w v k s x x' x1 x1'
    obtain ⟨p, hp, hx⟩ := R.s1 (e := a) w x1
    obtain ⟨p', hp', hx'⟩ := R.s2 (e := a) v x1'
    exact RSpline.rglued_smul gx c e e'
  | .addPoint a c, w, v, k, s, r, r', e, e' => by
    simp only [RSExpr.run, bind_eq_ok] at e e'
    obtain ⟨x, x1, e⟩ := e
    obtain ⟨x', x1', e'⟩ := e'
    have gx := RSExpr.run_glued R a w v k s x x' x1 x1'
    obtain ⟨p, hp, hx⟩ := R.s1 (e := a) w x1
    obtain ⟨p', hp', hx'⟩ := R.s2 (e := a) v x1'
    exact RSpline.rglued_addPoint gx hx hx' c e e'
  | .subPoint a c, w, v, k, s, r, r', e, e' => by
    simp only [RSExpr.run, bind_eq_ok] at e e'
    obtain ⟨x, x1, e⟩ := e
    obtain ⟨x', x1', e'⟩ := e'
    have gx := RSExpr.run_glued R a w v k s x x' x1 x1'
    obtain ⟨p, hp, hx⟩ := R.s1 (e := a) w x1
    obtain ⟨p', hp', hx'⟩ := R.s2 (e := a) v x1'
    exact RSpline.rglued_subPoint gx hx hx' c e e'
  | .elevate a c, w, v, k, s, r, r', e, e' => by
    simp only [RSExpr.run, bind_eq_ok] at e e'
    obtain ⟨x, x1, e⟩ := e
    obtain ⟨x', x1', e'⟩ := e'
    have gx := RSExpr.run_glued R a w.1 v.1 k s x x' x1 x1'
    obtain ⟨p, hp, hx⟩ := R.s1 (e := a) w.1 x1
    obtain ⟨p', hp', hx'⟩ := R.s2 (e := a) v.1 x1'
    exact RSpline.rglued_elevate gx hx hx' (w.2 p hp).1 (w.2 p hp).2 (v.2 p' hp').2 e e'
  | .splitLeft a z c, w, v, k, s, r, r', e, e' => by
    simp only [RSExpr.run, bind_eq_ok] at e e'
    obtain ⟨x, x1, e⟩ := e
    obtain ⟨x', x1', e'⟩ := e'
    have gx := RSExpr.run_glued R a w.1 v.1 k.1 s x x' x1 x1'
    obtain ⟨p, hp, hx⟩ := R.s1 (e := a) w.1 x1
    obtain ⟨p', hp', hx'⟩ := R.s2 (e := a) v.1 x1'
    obtain ⟨l, e1, e2⟩ := e
    obtain ⟨l', f1, f2⟩ := e'
    cases e2; cases f2
    exact (RSpline.rglued_split k.2 gx hx (w.2 p hp) e1 f1).1
  | .splitRight a z c, w, v, k, s, r, r', e, e' => by
    simp only [RSExpr.run, bind_eq_ok] at e e'
    obtain ⟨x, x1, e⟩ := e
    obtain ⟨x', x1', e'⟩ := e'
    have gx := RSExpr.run_glued R a w.1 v.1 k.1 s x x' x1 x1'
    obtain ⟨p, hp, hx⟩ := R.s1 (e := a) w.1 x1
    obtain ⟨p', hp', hx'⟩ := R.s2 (e := a) v.1 x1'
    obtain ⟨l, e1, e2⟩ := e
    obtain ⟨l', f1, f2⟩ := e'
    cases e2; cases f2
    exact (RSpline.rglued_split k.2 gx hx (w.2 p hp) e1 f1).2.1
  | .splitPart a zs c i, w, v, k, s, r, r', e, e' => by
    simp only [RSExpr.run, bind_eq_ok] at e e'
    obtain ⟨x, x1, e⟩ := e
    obtain ⟨x', x1', e'⟩ := e'
    have gx := RSExpr.run_glued R a w.1 v.1 k.1 s x x' x1 x1'
    obtain ⟨p, hp, hx⟩ := R.s1 (e := a) w.1 x1
    obtain ⟨p', hp', hx'⟩ := R.s2 (e := a) v.1 x1'
    obtain ⟨l, e1, e2⟩ := e
    obtain ⟨l', f1, f2⟩ := e'
    exact RSpline.rglued_splitMany k.2 gx hx (w.2.1 p hp) e1 f1 i _ _ (rd_some_of_ok e2) (rd_some_of_ok f2)
  | .deriv a o, w, v, k, s, r, r', e, e' => by
    simp only [RSExpr.run, bind_eq_ok] at e e'
    obtain ⟨x, x1, e⟩ := e
    obtain ⟨x', x1', e'⟩ := e'
    have gx := RSExpr.run_glued R a w.1 v.1 k.1 s x x' x1 x1'
    obtain ⟨p, hp, hx⟩ := R.s1 (e := a) w.1 x1
    obtain ⟨p', hp', hx'⟩ := R.s2 (e := a) v.1 x1'
    exact RSpline.rglued_deriv R.max k.2 gx hx hx' (w.2 p hp).1 (w.2 p hp).2.1 (w.2 p hp).2.2 (v.2 p' hp').2.2 e e'
  | .composePoly a b, w, v, k, s, r, r', e, e' => by
    simp only [RSExpr.run, bind_eq_ok] at e e'
    obtain ⟨x, x1, y, y1, e⟩ := e
    obtain ⟨x', x1', y', y1', e'⟩ := e'
    have gy := PExpr.run_glued R.poly b w.2.1 v.2.1 k.2 y y' y1 y1'
    obtain ⟨p, hp, hx⟩ := R.s1 w.1 x1
    obtain ⟨p', hp', hx'⟩ := R.s2 v.1 x1'
    have hy := R.poly.sh_p1 w.2.1 y1
    have hy' := R.poly.sh_p2 v.2.1 y1'
    have hxx : x = x' := by
      rw [RSExpr.run_common R.agree a k.1, x1'] at x1
      cases x1; rfl
    subst hxx
    obtain rfl := rshape_unique hx hx'
    exact RSpline.rglued_compose R.max hx gy hy hy' (w.2.2 p hp).1 (w.2.2 p hp).2 (v.2.2 p hp').2 e e'
  | .composePolyScalar a b, w, v, k, s, r, r', e, e' => by
    simp only [RSExpr.run, bind_eq_ok] at e e'
    obtain ⟨x, x1, y, y1, e⟩ := e
    obtain ⟨x', x1', y', y1', e'⟩ := e'
    have gy := SExpr.run_glued R.poly b w.2.1 v.2.1 k.2 y y' y1 y1'
    obtain ⟨p, hp, hx⟩ := R.s1 w.1 x1
    obtain ⟨p', hp', hx'⟩ := R.s2 v.1 x1'
    have hy := R.poly.sh_s1 w.2.1 y1
    have hy' := R.poly.sh_s2 v.2.1 y1'
    have hxx : x = x' := by
      rw [RSExpr.run_common R.agree a k.1, x1'] at x1
      cases x1; rfl
    subst hxx
    obtain rfl := rshape_unique hx hx'
    exact RSpline.rglued_compose R.max hx gy hy hy' (w.2.2 p hp).1 (w.2.2 p hp).2 (v.2.2 p hp').2 e e'
  | .compose a b, w, v, k, s, r, r', e, e' => by
    simp only [RSExpr.run, bind_eq_ok] at e e'
    obtain ⟨x, x1, y, y1, e⟩ := e
    obtain ⟨x', x1', y', y1', e'⟩ := e'
    have gy := RPExpr.run_glued R b w.2.1 v.2.1 k.2 s y y' y1 y1'
    obtain ⟨p, hp, hx⟩ := R.s1 w.1 x1
    obtain ⟨p', hp', hx'⟩ := R.s2 v.1 x1'
    obtain ⟨q, hq, hy⟩ := R.p1 w.2.1 y1
    obtain ⟨q', hq', hy'⟩ := R.p2 v.2.1 y1'
    have hxx : x = x' := by
      rw [RSExpr.run_common R.agree a k.1, x1'] at x1
      cases x1; rfl
    subst hxx
    obtain rfl := rshape_unique hx hx'
    exact RSpline.rglued_composeRational R.max hx gy hy hy' (w.2.2 p hp q hq).1 (w.2.2 p hp q hq).2 (v.2.2 p hp' q' hq').2 e e'
  | .composeScalar a b, w, v, k, s, r, r', e, e' => by
    simp only [RSExpr.run, bind_eq_ok] at e e'
    obtain ⟨x, x1, y, y1, e⟩ := e
    obtain ⟨x', x1', y', y1', e'⟩ := e'
    have gy := RSExpr.run_glued R b w.2.1 v.2.1 k.2 s y y' y1 y1'
    obtain ⟨p, hp, hx⟩ := R.s1 w.1 x1
    obtain ⟨p', hp', hx'⟩ := R.s2 v.1 x1'
    obtain ⟨q, hq, hy⟩ := R.s1 w.2.1 y1
    obtain ⟨q', hq', hy'⟩ := R.s2 v.2.1 y1'
    have hxx : x = x' := by
      rw [RSExpr.run_common R.agree a k.1, x1'] at x1
      cases x1; rfl
    subst hxx
    obtain rfl := rshape_unique hx hx'
    exact RSpline.rglued_composeRational R.max hx gy hy hy' (w.2.2 p hp q hq).1 (w.2.2 p hp q hq).2 (v.2.2 p hp' q' hq').2 e e'
  | .polyCompose a b, w, v, k, s, r, r', e, e' => by
    simp only [RSExpr.run, bind_eq_ok] at e e'
    obtain ⟨x, x1, y, y1, e⟩ := e
    obtain ⟨x', x1', y', y1', e'⟩ := e'
    have gy := RPExpr.run_glued R b w.2.1 v.2.1 k.2 s y y' y1 y1'
    have hx := R.poly.sh_s1 w.1 x1
    have hx' := R.poly.sh_s2 v.1 x1'
    obtain ⟨q, hq, hy⟩ := R.p1 w.2.1 y1
    obtain ⟨q', hq', hy'⟩ := R.p2 v.2.1 y1'
    have hxx : x = x' := by
      rw [SExpr.run_common R.vars.common_s R.vars.common_p a k.1, x1'] at x1
      cases x1; rfl
    subst hxx
    have hdd := hx'.2.symm.trans hx.2
    have v3 := v.2.2.2 q' hq'
    rw [hdd] at v3
    exact RSpline.rglued_polyCompose R.max hx gy hy hy' w.2.2.1 (w.2.2.2 q hq) v3 e e'
  | .polyComposeScalar a b, w, v, k, s, r, r', e, e' => by
    simp only [RSExpr.run, bind_eq_ok] at e e'
    obtain ⟨x, x1, y, y1, e⟩ := e
    obtain ⟨x', x1', y', y1', e'⟩ := e'
    have gy := RSExpr.run_glued R b w.2.1 v.2.1 k.2 s y y' y1 y1'
    have hx := R.poly.sh_s1 w.1 x1
    have hx' := R.poly.sh_s2 v.1 x1'
    obtain ⟨q, hq, hy⟩ := R.s1 w.2.1 y1
    obtain ⟨q', hq', hy'⟩ := R.s2 v.2.1 y1'
    have hxx : x = x' := by
      rw [SExpr.run_common R.vars.common_s R.vars.common_p a k.1, x1'] at x1
      cases x1; rfl
    subst hxx
    have hdd := hx'.2.symm.trans hx.2
    have v3 := v.2.2.2 q' hq'
    rw [hdd] at v3
    exact RSpline.rglued_polyCompose R.max hx gy hy hy' w.2.2.1 (w.2.2.2 q hq) v3 e e'
  | .mul a b, w, v, k, s, r, r', e, e' => by
    simp only [RSExpr.run, bind_eq_ok] at e e'
    obtain ⟨x, x1, y, y1, e⟩ := e
    obtain ⟨x', x1', y', y1', e'⟩ := e'
    have gx := RSExpr.run_glued R a w.1 v.1 k.1 s.1 x x' x1 x1'
    have gy := RSExpr.run_glued R b w.2.1 v.2.1 k.2 s.2 y y' y1 y1'
    obtain ⟨p, hp, hx⟩ := R.s1 w.1 x1
    obtain ⟨p', hp', hx'⟩ := R.s2 v.1 x1'
    obtain ⟨q, hq, hy⟩ := R.s1 w.2.1 y1
    obtain ⟨q', hq', hy'⟩ := R.s2 v.2.1 y1'
    exact RSpline.rglued_mul R.max hx hy hx' hy' gx gy (w.2.2 p hp q hq).1 (w.2.2 p hp q hq).2 (v.2.2 p' hp' q' hq').2 e e'
  | .dot a b, w, v, k, s, r, r', e, e' => by
    simp only [RSExpr.run, bind_eq_ok] at e e'
    obtain ⟨x, x1, y, y1, e⟩ := e
    obtain ⟨x', x1', y', y1', e'⟩ := e'
    have gx := RPExpr.run_glued R a w.1 v.1 k.1 s.1 x x' x1 x1'
    have gy := RPExpr.run_glued R b w.2.1 v.2.1 k.2 s.2 y y' y1 y1'
    obtain ⟨p, hp, hx⟩ := R.p1 w.1 x1
    obtain ⟨p', hp', hx'⟩ := R.p2 v.1 x1'
    obtain ⟨q, hq, hy⟩ := R.p1 w.2.1 y1
    obtain ⟨q', hq', hy'⟩ := R.p2 v.2.1 y1'
    exact RSpline.rglued_mul R.max hx hy hx' hy' gx gy (w.2.2 p hp q hq).1 (w.2.2 p hp q hq).2 (v.2.2 p' hp' q' hq').2 e e'

theorem RPExpr.run_glued (R : RGluedRuns cfg d sa sb common σ τ D E) :
    ∀ (e : RPExpr K n), e.WellShaped cfg D → e.WellShaped cfg E → e.KeepsFace d common → e.SameSums cfg σ τ → ∀ r r',
      e.run cfg σ = .ok r → e.run cfg τ = .ok r' → RGlued d sa sb r r'
  | .leaf i, _, _, k, _, r, r', e, e' => by
    simp only [RPExpr.run, pure, Except.pure, Except.ok.injEq] at e e'
    subst e e'
    exact R.vars.patch_rp i k
  | .ofSpline a, w, v, k, _, r, r', e, e' => by
    simp only [RPExpr.run, bind_eq_ok] at e e'
    obtain ⟨x, x1, e⟩ := e
    obtain ⟨x', x1', e'⟩ := e'
    exact RSpline.rglued_ofSpline (PExpr.run_glued R.poly a w v k x x' x1 x1') e e'
  | .add a b, w, v, k, s, r, r', e, e' => by
    simp only [RPExpr.run, bind_eq_ok] at e e'
    obtain ⟨x, x1, y, y1, e⟩ := e
    obtain ⟨x', x1', y', y1', e'⟩ := e'
    have gx := RPExpr.run_glued R a w.1 v.1 k.1 s.1 x x' x1 x1'
    have gy := RPExpr.run_glued R b w.2.1 v.2.1 k.2 s.2.1 y y' y1 y1'
    obtain ⟨p, hp, hx⟩ := R.p1 w.1 x1
    obtain ⟨p', hp', hx'⟩ := R.p2 v.1 x1'
    obtain ⟨q, hq, hy⟩ := R.p1 w.2.1 y1
    obtain ⟨q', hq', hy'⟩ := R.p2 v.2.1 y1'
    exact RSpline.rglued_add (Point.add_comm_of R.comm) R.max gx gy hx hy hx' hy' (w.2.2 p hp q hq) (v.2.2 p' hp' q' hq') (s.2.2 x y x' y' x1 y1 x1' y1') e e'
  | .addAssign a b, w, v, k, s, r, r', e, e' => by
    simp only [RPExpr.run, bind_eq_ok] at e e'
    obtain ⟨x, x1, y, y1, e⟩ := e
    obtain ⟨x', x1', y', y1', e'⟩ := e'
    have gx := RPExpr.run_glued R a w.1 v.1 k.1 s.1 x x' x1 x1'
    have gy := RPExpr.run_glued R b w.2.1 v.2.1 k.2 s.2.1 y y' y1 y1'
    obtain ⟨p, hp, hx⟩ := R.p1 w.1 x1
    obtain ⟨p', hp', hx'⟩ := R.p2 v.1 x1'
    obtain ⟨q, hq, hy⟩ := R.p1 w.2.1 y1
    obtain ⟨q', hq', hy'⟩ := R.p2 v.2.1 y1'
    exact RSpline.rglued_addAssign R.max gx gy hx hy hx' hy' (w.2.2 p hp q hq) (v.2.2 p' hp' q' hq') (s.2.2 x y x' y' x1 y1 x1' y1') e e'
  | .sub a b, w, v, k, s, r, r', e, e' => by
    simp only [RPExpr.run, bind_eq_ok] at e e'
    obtain ⟨x, x1, y, y1, e⟩ := e
    obtain ⟨x', x1', y', y1', e'⟩ := e'
    have gx := RPExpr.run_glued R a w.1 v.1 k.1 s.1 x x' x1 x1'
    have gy := RPExpr.run_glued R b w.2.1 v.2.1 k.2 s.2.1 y y' y1 y1'
    obtain ⟨p, hp, hx⟩ := R.p1 w.1 x1
    obtain ⟨p', hp', hx'⟩ := R.p2 v.1 x1'
    obtain ⟨q, hq, hy⟩ := R.p1 w.2.1 y1
    obtain ⟨q', hq', hy'⟩ := R.p2 v.2.1 y1'
    exact RSpline.rglued_sub R.max gx gy hx hy hx' hy' (w.2.2 p hp q hq) (v.2.2 p' hp' q' hq') (s.2.2 x y x' y' x1 y1 x1' y1') e e'
  | .subAssign a b, w, v, k, s, r, r', e, e' => by
    simp only [RPExpr.run, bind_eq_ok] at e e'
    obtain ⟨x, x1, y, y1, e⟩ := e
    obtain ⟨x', x1', y', y1', e'⟩ := e'
    have gx := RPExpr.run_glued R a w.1 v.1 k.1 s.1 x x' x1 x1'
    have gy := RPExpr.run_glued R b w.2.1 v.2.1 k.2 s.2.1 y y' y1 y1'
    obtain ⟨p, hp, hx⟩ := R.p1 w.1 x1
    obtain ⟨p', hp', hx'⟩ := R.p2 v.1 x1'
    obtain ⟨q, hq, hy⟩ := R.p1 w.2.1 y1
    obtain ⟨q', hq', hy'⟩ := R.p2 v.2.1 y1'
    exact RSpline.rglued_subAssign R.max gx gy hx hy hx' hy' (w.2.2 p hp q hq) (v.2.2 p' hp' q' hq') (s.2.2 x y x' y' x1 y1 x1' y1') e e'
  | .neg a, w, v, k, s, r, r', e, e' => by
    simp only [RPExpr.run, bind_eq_ok] at e e'
    obtain ⟨x, x1, e⟩ := e
    obtain ⟨x', x1', e'⟩ := e'
    have gx := RPExpr.run_glued R a w v k s x x' x1 x1'
    obtain ⟨p, hp, hx⟩ := R.p1 (e := a) w x1
    obtain ⟨p', hp', hx'⟩ := R.p2 (e := a) v x1'
    exact RSpline.rglued_neg gx e e'
  | .scale a c, w, v, k, s, r, r', e, e' => by
    simp only [RPExpr.run, bind_eq_ok] at e e'
    obtain ⟨x, x1, e⟩ := e
    obtain ⟨x', x1', e'⟩ := e'
    have gx := RPExpr.run_glued R a w v k s x x' x1 x1'
    obtain ⟨p, hp, hx⟩ := R.p1 (e := a) w x1
    obtain ⟨p', hp', hx'⟩ := R.p2 (e := a) v x1'
    exact RSpline.rglued_smul gx c e e'
  | .addPoint a c, w, v, k, s, r, r', e, e' => by
    simp only [RPExpr.run, bind_eq_ok] at e e'
    obtain ⟨x, x1, e⟩ := e
    obtain ⟨x', x1', e'⟩ := e'
    have gx := RPExpr.run_glued R a w v k s x x' x1 x1'
    obtain ⟨p, hp, hx⟩ := R.p1 (e := a) w x1
    obtain ⟨p', hp', hx'⟩ := R.p2 (e := a) v x1'
    exact RSpline.rglued_addPoint gx hx hx' c e e'
  | .subPoint a c, w, v, k, s, r, r', e, e' => by
    simp only [RPExpr.run, bind_eq_ok] at e e'
    obtain ⟨x, x1, e⟩ := e
    obtain ⟨x', x1', e'⟩ := e'
    have gx := RPExpr.run_glued R a w v k s x x' x1 x1'
    obtain ⟨p, hp, hx⟩ := R.p1 (e := a) w x1
    obtain ⟨p', hp', hx'⟩ := R.p2 (e := a) v x1'
    exact RSpline.rglued_subPoint gx hx hx' c e e'
  | .elevate a c, w, v, k, s, r, r', e, e' => by
    simp only [RPExpr.run, bind_eq_ok] at e e'
    obtain ⟨x, x1, e⟩ := e
    obtain ⟨x', x1', e'⟩ := e'
    have gx := RPExpr.run_glued R a w.1 v.1 k s x x' x1 x1'
    obtain ⟨p, hp, hx⟩ := R.p1 (e := a) w.1 x1
    obtain ⟨p', hp', hx'⟩ := R.p2 (e := a) v.1 x1'
    exact RSpline.rglued_elevate gx hx hx' (w.2 p hp).1 (w.2 p hp).2 (v.2 p' hp').2 e e'
  | .splitLeft a z c, w, v, k, s, r, r', e, e' => by
    simp only [RPExpr.run, bind_eq_ok] at e e'
    obtain ⟨x, x1, e⟩ := e
    obtain ⟨x', x1', e'⟩ := e'
    have gx := RPExpr.run_glued R a w.1 v.1 k.1 s x x' x1 x1'
    obtain ⟨p, hp, hx⟩ := R.p1 (e := a) w.1 x1
    obtain ⟨p', hp', hx'⟩ := R.p2 (e := a) v.1 x1'
    obtain ⟨l, e1, e2⟩ := e
    obtain ⟨l', f1, f2⟩ := e'
    cases e2; cases f2
    exact (RSpline.rglued_split k.2 gx hx (w.2 p hp) e1 f1).1
  | .splitRight a z c, w, v, k, s, r, r', e, e' => by
    simp only [RPExpr.run, bind_eq_ok] at e e'
    obtain ⟨x, x1, e⟩ := e
    obtain ⟨x', x1', e'⟩ := e'
    have gx := RPExpr.run_glued R a w.1 v.1 k.1 s x x' x1 x1'
    obtain ⟨p, hp, hx⟩ := R.p1 (e := a) w.1 x1
    obtain ⟨p', hp', hx'⟩ := R.p2 (e := a) v.1 x1'
    obtain ⟨l, e1, e2⟩ := e
    obtain ⟨l', f1, f2⟩ := e'
    cases e2; cases f2
    exact (RSpline.rglued_split k.2 gx hx (w.2 p hp) e1 f1).2.1
  | .splitPart a zs c i, w, v, k, s, r, r', e, e' => by
    simp only [RPExpr.run, bind_eq_ok] at e e'
    obtain ⟨x, x1, e⟩ := e
    obtain ⟨x', x1', e'⟩ := e'
    have gx := RPExpr.run_glued R a w.1 v.1 k.1 s x x' x1 x1'
    obtain ⟨p, hp, hx⟩ := R.p1 (e := a) w.1 x1
    obtain ⟨p', hp', hx'⟩ := R.p2 (e := a) v.1 x1'
    obtain ⟨l, e1, e2⟩ := e
    obtain ⟨l', f1, f2⟩ := e'
    exact RSpline.rglued_splitMany k.2 gx hx (w.2.1 p hp) e1 f1 i _ _ (rd_some_of_ok e2) (rd_some_of_ok f2)
  | .deriv a o, w, v, k, s, r, r', e, e' => by
    simp only [RPExpr.run, bind_eq_ok] at e e'
    obtain ⟨x, x1, e⟩ := e
    obtain ⟨x', x1', e'⟩ := e'
    have gx := RPExpr.run_glued R a w.1 v.1 k.1 s x x' x1 x1'
    obtain ⟨p, hp, hx⟩ := R.p1 (e := a) w.1 x1
    obtain ⟨p', hp', hx'⟩ := R.p2 (e := a) v.1 x1'
    exact RSpline.rglued_deriv R.max k.2 gx hx hx' (w.2 p hp).1 (w.2 p hp).2.1 (w.2 p hp).2.2 (v.2 p' hp').2.2 e e'
  | .composePoly a b, w, v, k, s, r, r', e, e' => by
    simp only [RPExpr.run, bind_eq_ok] at e e'
    obtain ⟨x, x1, y, y1, e⟩ := e
    obtain ⟨x', x1', y', y1', e'⟩ := e'
    have gy := PExpr.run_glued R.poly b w.2.1 v.2.1 k.2 y y' y1 y1'
    obtain ⟨p, hp, hx⟩ := R.p1 w.1 x1
    obtain ⟨p', hp', hx'⟩ := R.p2 v.1 x1'
    have hy := R.poly.sh_p1 w.2.1 y1
    have hy' := R.poly.sh_p2 v.2.1 y1'
    have hxx : x = x' := by
      rw [RPExpr.run_common R.agree a k.1, x1'] at x1
      cases x1; rfl
    subst hxx
    obtain rfl := rshape_unique hx hx'
    exact RSpline.rglued_compose R.max hx gy hy hy' (w.2.2 p hp).1 (w.2.2 p hp).2 (v.2.2 p hp').2 e e'
  | .composePolyScalar a b, w, v, k, s, r, r', e, e' => by
    simp only [RPExpr.run, bind_eq_ok] at e e'
    obtain ⟨x, x1, y, y1, e⟩ := e
    obtain ⟨x', x1', y', y1', e'⟩ := e'
    have gy := SExpr.run_glued R.poly b w.2.1 v.2.1 k.2 y y' y1 y1'
    obtain ⟨p, hp, hx⟩ := R.p1 w.1 x1
    obtain ⟨p', hp', hx'⟩ := R.p2 v.1 x1'
    have hy := R.poly.sh_s1 w.2.1 y1
    have hy' := R.poly.sh_s2 v.2.1 y1'
    have hxx : x = x' := by
      rw [RPExpr.run_common R.agree a k.1, x1'] at x1
      cases x1; rfl
    subst hxx
    obtain rfl := rshape_unique hx hx'
    exact RSpline.rglued_compose R.max hx gy hy hy' (w.2.2 p hp).1 (w.2.2 p hp).2 (v.2.2 p hp').2 e e'
  | .compose a b, w, v, k, s, r, r', e, e' => by
    simp only [RPExpr.run, bind_eq_ok] at e e'
    obtain ⟨x, x1, y, y1, e⟩ := e
    obtain ⟨x', x1', y', y1', e'⟩ := e'
    have gy := RPExpr.run_glued R b w.2.1 v.2.1 k.2 s y y' y1 y1'
    obtain ⟨p, hp, hx⟩ := R.p1 w.1 x1
    obtain ⟨p', hp', hx'⟩ := R.p2 v.1 x1'
    obtain ⟨q, hq, hy⟩ := R.p1 w.2.1 y1
    obtain ⟨q', hq', hy'⟩ := R.p2 v.2.1 y1'
    have hxx : x = x' := by
      rw [RPExpr.run_common R.agree a k.1, x1'] at x1
      cases x1; rfl
    subst hxx
    obtain rfl := rshape_unique hx hx'
    exact RSpline.rglued_composeRational R.max hx gy hy hy' (w.2.2 p hp q hq).1 (w.2.2 p hp q hq).2 (v.2.2 p hp' q' hq').2 e e'
  | .composeScalar a b, w, v, k, s, r, r', e, e' => by
    simp only [RPExpr.run, bind_eq_ok] at e e'
    obtain ⟨x, x1, y, y1, e⟩ := e
    obtain ⟨x', x1', y', y1', e'⟩ := e'
    have gy := RSExpr.run_glued R b w.2.1 v.2.1 k.2 s y y' y1 y1'
    obtain ⟨p, hp, hx⟩ := R.p1 w.1 x1
    obtain ⟨p', hp', hx'⟩ := R.p2 v.1 x1'
    obtain ⟨q, hq, hy⟩ := R.s1 w.2.1 y1
    obtain ⟨q', hq', hy'⟩ := R.s2 v.2.1 y1'
    have hxx : x = x' := by
      rw [RPExpr.run_common R.agree a k.1, x1'] at x1
      cases x1; rfl
    subst hxx
    obtain rfl := rshape_unique hx hx'
    exact RSpline.rglued_composeRational R.max hx gy hy hy' (w.2.2 p hp q hq).1 (w.2.2 p hp q hq).2 (v.2.2 p hp' q' hq').2 e e'
  | .polyCompose a b, w, v, k, s, r, r', e, e' => by
    simp only [RPExpr.run, bind_eq_ok] at e e'
    obtain ⟨x, x1, y, y1, e⟩ := e
    obtain ⟨x', x1', y', y1', e'⟩ := e'
    have gy := RPExpr.run_glued R b w.2.1 v.2.1 k.2 s y y' y1 y1'
    have hx := R.poly.sh_p1 w.1 x1
    have hx' := R.poly.sh_p2 v.1 x1'
    obtain ⟨q, hq, hy⟩ := R.p1 w.2.1 y1
    obtain ⟨q', hq', hy'⟩ := R.p2 v.2.1 y1'
    have hxx : x = x' := by
      rw [PExpr.run_common R.vars.common_s R.vars.common_p a k.1, x1'] at x1
      cases x1; rfl
    subst hxx
    have hdd := hx'.2.symm.trans hx.2
    have v3 := v.2.2.2 q' hq'
    rw [hdd] at v3
    exact RSpline.rglued_polyCompose R.max hx gy hy hy' w.2.2.1 (w.2.2.2 q hq) v3 e e'
  | .polyComposeScalar a b, w, v, k, s, r, r', e, e' => by
    simp only [RPExpr.run, bind_eq_ok] at e e'
    obtain ⟨x, x1, y, y1, e⟩ := e
    obtain ⟨x', x1', y', y1', e'⟩ := e'
    have gy := RSExpr.run_glued R b w.2.1 v.2.1 k.2 s y y' y1 y1'
    have hx := R.poly.sh_p1 w.1 x1
    have hx' := R.poly.sh_p2 v.1 x1'
    obtain ⟨q, hq, hy⟩ := R.s1 w.2.1 y1
    obtain ⟨q', hq', hy'⟩ := R.s2 v.2.1 y1'
    have hxx : x = x' := by
      rw [PExpr.run_common R.vars.common_s R.vars.common_p a k.1, x1'] at x1
      cases x1; rfl
    subst hxx
    have hdd := hx'.2.symm.trans hx.2
    have v3 := v.2.2.2 q' hq'
    rw [hdd] at v3
    exact RSpline.rglued_polyCompose R.max hx gy hy hy' w.2.2.1 (w.2.2.2 q hq) v3 e e'
  | .mulLeft a b, w, v, k, s, r, r', e, e' => by
    simp only [RPExpr.run, bind_eq_ok] at e e'
    obtain ⟨x, x1, y, y1, e⟩ := e
    obtain ⟨x', x1', y', y1', e'⟩ := e'
    have gx := RSExpr.run_glued R a w.1 v.1 k.1 s.1 x x' x1 x1'
    have gy := RPExpr.run_glued R b w.2.1 v.2.1 k.2 s.2 y y' y1 y1'
    obtain ⟨p, hp, hx⟩ := R.s1 w.1 x1
    obtain ⟨p', hp', hx'⟩ := R.s2 v.1 x1'
    obtain ⟨q, hq, hy⟩ := R.p1 w.2.1 y1
    obtain ⟨q', hq', hy'⟩ := R.p2 v.2.1 y1'
    exact RSpline.rglued_mul R.max hx hy hx' hy' gx gy (w.2.2 p hp q hq).1 (w.2.2 p hp q hq).2 (v.2.2 p' hp' q' hq').2 e e'
  | .mulRight a b, w, v, k, s, r, r', e, e' => by
    simp only [RPExpr.run, bind_eq_ok] at e e'
    obtain ⟨x, x1, y, y1, e⟩ := e
    obtain ⟨x', x1', y', y1', e'⟩ := e'
    have gx := RPExpr.run_glued R a w.1 v.1 k.1 s.1 x x' x1 x1'
    have gy := RSExpr.run_glued R b w.2.1 v.2.1 k.2 s.2 y y' y1 y1'
    obtain ⟨p, hp, hx⟩ := R.p1 w.1 x1
    obtain ⟨p', hp', hx'⟩ := R.p2 v.1 x1'
    obtain ⟨q, hq, hy⟩ := R.s1 w.2.1 y1
    obtain ⟨q', hq', hy'⟩ := R.s2 v.2.1 y1'
    exact RSpline.rglued_mul R.max hx hy hx' hy' gx gy (w.2.2 p hp q hq).1 (w.2.2 p hp q hq).2 (v.2.2 p' hp' q' hq').2 e e'
end

end Bezman
