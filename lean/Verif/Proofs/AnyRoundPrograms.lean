import Verif.Proofs.AnyRoundProducts
import Verif.Proofs.FloatPrograms

set_option linter.unusedSectionVars false

/-! # All possible results of programs and evaluations -/

namespace Bezman
open Spec
variable {A : Roundoff} {B : FloatArith} {n : ℕ}

theorem AllNearRuns.bind₁ {ds k M} {x : Bezman.M (Spline (Nd A))} {y : Bezman.M (Spline ℝ)} (h : AllNearRuns ds k M x y)
    {ds' k' M'} {f : Spline (Nd A) → Bezman.M (Spline (Nd A))} {g : Spline ℝ → Bezman.M (Spline ℝ)}
    (hf : ∀ r r', r.AllNear ds k M r' → AllNearRuns ds' k' M' (f r) (g r')) : AllNearRuns ds' k' M' (x >>= f) (y >>= g) := by
  obtain ⟨r, r', rfl, rfl, h⟩ := h
  exact hf r r' h

theorem AllNearRuns.bind₂ {ds k M} {x : Bezman.M (Spline (Nd A))} {y : Bezman.M (Spline ℝ)} (h : AllNearRuns ds k M x y)
    {ds' k'} {M' : Fin n → ℝ} {f : Spline (Nd A) → Bezman.M (Spline (Point (Nd A) n))} {g : Spline ℝ → Bezman.M (Spline (Point ℝ n))}
    (hf : ∀ r r', r.AllNear ds k M r' → AllNearRunsPoints ds' k' M' (f r) (g r')) : AllNearRunsPoints ds' k' M' (x >>= f) (y >>= g) := by
  obtain ⟨r, r', rfl, rfl, h⟩ := h
  exact hf r r' h

theorem AllNearRunsPoints.bind₁ {ds k} {M : Fin n → ℝ} {x : Bezman.M (Spline (Point (Nd A) n))} {y : Bezman.M (Spline (Point ℝ n))}
    (h : AllNearRunsPoints ds k M x y)
    {ds' k' M'} {f : Spline (Point (Nd A) n) → Bezman.M (Spline (Nd A))} {g : Spline (Point ℝ n) → Bezman.M (Spline ℝ)}
    (hf : ∀ r r', r.AllNearPoints ds k M r' → AllNearRuns ds' k' M' (f r) (g r')) : AllNearRuns ds' k' M' (x >>= f) (y >>= g) := by
  obtain ⟨r, r', rfl, rfl, h⟩ := h
  exact hf r r' h

theorem AllNearRunsPoints.bind₂ {ds k} {M : Fin n → ℝ} {x : Bezman.M (Spline (Point (Nd A) n))} {y : Bezman.M (Spline (Point ℝ n))}
    (h : AllNearRunsPoints ds k M x y)
    {ds' k'} {M' : Fin n → ℝ} {f : Spline (Point (Nd A) n) → Bezman.M (Spline (Point (Nd A) n))}
    {g : Spline (Point ℝ n) → Bezman.M (Spline (Point ℝ n))}
    (hf : ∀ r r', r.AllNearPoints ds k M r' → AllNearRunsPoints ds' k' M' (f r) (g r')) : AllNearRunsPoints ds' k' M' (x >>= f) (y >>= g) := by
  obtain ⟨r, r', rfl, rfl, h⟩ := h
  exact hf r r' h

section
variable {cfg : Cfg} {σ : Vars (Fl B) n} {ds dp : ℕ → List ℕ} {bs : ℕ → ℝ} {bp : ℕ → Fin n → ℝ}

mutual
theorem SExpr.run_within (hη : A.η = 0) (hu : A.u ≤ 1 / 2) (hmax : cfg.maxBinom ≤ 68)
    (hs : ∀ i, ((σ.s i).map (Nd.ofFl (A := A))).AllNear (ds i) 0 (bs i) ((σ.s i).map Fl.val))
    (hp : ∀ i, ((σ.p i).map (Point.map (Nd.ofFl (A := A)))).AllNearPoints (dp i) 0 (bp i) ((σ.p i).map (Point.map Fl.val))) :
    ∀ e : SExpr (Fl B) n, e.WellShaped cfg ds dp → e.Elementary →
      AllNearRuns (e.shape ds dp) (e.roundings ds dp) (e.bound ds dp bs bp) ((e.map (Nd.ofFl (A := A))).run cfg (σ.map Nd.ofFl))
        ((e.map Fl.val).run cfg (σ.map Fl.val))
  | .leaf i, _, _ => ⟨_, _, rfl, rfl, hs i⟩
  | .add a b, h, he => by
    simp only [SExpr.run, SExpr.shape, SExpr.map, SExpr.roundings, SExpr.bound]
    exact (SExpr.run_within hη hu hmax hs hp a h.1 he.1).bind₁ fun x x' hx =>
      (SExpr.run_within hη hu hmax hs hp b h.2.1 he.2).bind₁ fun y y' hy => Spline.AllNear.add hη hu hx hy h.2.2
  | .addAssign a b, h, he => by
    simp only [SExpr.run, SExpr.shape, SExpr.map, SExpr.roundings, SExpr.bound]
    exact (SExpr.run_within hη hu hmax hs hp a h.1 he.1).bind₁ fun x x' hx =>
      (SExpr.run_within hη hu hmax hs hp b h.2.1 he.2).bind₁ fun y y' hy => Spline.AllNear.addAssign hη hu hx hy h.2.2
  | .subAssign a b, h, he => by
    simp only [SExpr.run, SExpr.shape, SExpr.map, SExpr.roundings, SExpr.bound]
    exact (SExpr.run_within hη hu hmax hs hp a h.1 he.1).bind₁ fun x x' hx =>
      (SExpr.run_within hη hu hmax hs hp b h.2.1 he.2).bind₁ fun y y' hy => Spline.AllNear.subAssign hη hu hx hy h.2.2
  | .sub a b, h, he => by
    simp only [SExpr.run, SExpr.shape, SExpr.map, SExpr.roundings, SExpr.bound]
    exact (SExpr.run_within hη hu hmax hs hp a h.1 he.1).bind₁ fun x x' hx =>
      (SExpr.run_within hη hu hmax hs hp b h.2.1 he.2).bind₁ fun y y' hy => Spline.AllNear.sub hη hu hx hy h.2.2.1 h.2.2.2
  | .neg a, h, he => by
    simp only [SExpr.run, SExpr.shape, SExpr.map, SExpr.roundings, SExpr.bound]
    exact (SExpr.run_within hη hu hmax hs hp a h he).bind₁ fun x x' hx => Spline.AllNear.neg hx
  | .scale a c, h, he => by
    simp only [SExpr.run, SExpr.shape, SExpr.map, SExpr.roundings, SExpr.bound]
    exact (SExpr.run_within hη hu hmax hs hp a h he).bind₁ fun x x' hx => Spline.AllNear.scale hη hx c.val
  | .addPoint a v, h, he => by
    simp only [SExpr.run, SExpr.shape, SExpr.map, SExpr.roundings, SExpr.bound]
    exact (SExpr.run_within hη hu hmax hs hp a h he).bind₁ fun x x' hx => Spline.AllNear.addPoint hx v.val
  | .subPoint a v, h, he => by
    simp only [SExpr.run, SExpr.shape, SExpr.map, SExpr.roundings, SExpr.bound]
    exact (SExpr.run_within hη hu hmax hs hp a h he).bind₁ fun x x' hx => Spline.AllNear.subPoint hx v.val
  | .pointSub v a, h, he => by
    simp only [SExpr.run, SExpr.shape, SExpr.map, SExpr.roundings, SExpr.bound]
    exact (SExpr.run_within hη hu hmax hs hp a h he).bind₁ fun x x' hx => Spline.AllNear.pointSub hx v.val
  | .elevate a d, h, he => by
    simp only [SExpr.run, SExpr.shape, SExpr.map, SExpr.roundings, SExpr.bound]
    exact (SExpr.run_within hη hu hmax hs hp a h.1 he).bind₁ fun x x' hx => Spline.AllNear.elevate hη hu hx h.2.1 h.2.2
  | .splitLeft a z d, h, he => by
    simp only [SExpr.run, SExpr.shape, SExpr.map, SExpr.roundings, SExpr.bound]
    refine (SExpr.run_within hη hu hmax hs hp a h.1 he.1).bind₁ fun x x' hx => ?_
    obtain ⟨l, r, l', r', e, e', hl, hr⟩ := Spline.AllNear.split hη hx (d := d) (p := (a.shape ds dp).getD d 0) (by simp [h.2]) he.2.1 he.2.2
    rw [show Nd.ofFl z = (.exactly z.val : Nd A) from rfl, e, e']
    exact ⟨_, _, rfl, rfl, hl⟩
  | .splitRight a z d, h, he => by
    simp only [SExpr.run, SExpr.shape, SExpr.map, SExpr.roundings, SExpr.bound]
    refine (SExpr.run_within hη hu hmax hs hp a h.1 he.1).bind₁ fun x x' hx => ?_
    obtain ⟨l, r, l', r', e, e', hl, hr⟩ := Spline.AllNear.split hη hx (d := d) (p := (a.shape ds dp).getD d 0) (by simp [h.2]) he.2.1 he.2.2
    rw [show Nd.ofFl z = (.exactly z.val : Nd A) from rfl, e, e']
    exact ⟨_, _, rfl, rfl, hr⟩
  | .splitPart _ _ _ _, _, he => he.elim
  | .compose _ _, _, he => he.elim
  | .composeScalar _ _, _, he => he.elim
  | .deriv a o, h, he => by
    simp only [SExpr.run, SExpr.shape, SExpr.map, SExpr.roundings, SExpr.bound]
    exact (SExpr.run_within hη hu hmax hs hp a h.1 he).bind₁ fun x x' hx => Spline.AllNear.deriv hη hx hmax h.2.1 h.2.2.1 h.2.2.2.1 h.2.2.2.2
  | .mul a b, h, he => by
    simp only [SExpr.run, SExpr.shape, SExpr.map, SExpr.roundings, SExpr.bound]
    exact (SExpr.run_within hη hu hmax hs hp a h.1 he.1).bind₁ fun x x' hx =>
      (SExpr.run_within hη hu hmax hs hp b h.2.1 he.2).bind₁ fun y y' hy => Spline.AllNear.mul hη hu hmax h.2.2.1 h.2.2.2 hx hy
  | .dot a b, h, he => by
    simp only [SExpr.run, SExpr.shape, SExpr.map, SExpr.roundings, SExpr.bound]
    exact (PExpr.run_within hη hu hmax hs hp a h.1 he.1).bind₁ fun x x' hx =>
      (PExpr.run_within hη hu hmax hs hp b h.2.1 he.2).bind₁ fun y y' hy => Spline.AllNearPoints.dot hη hu hmax h.2.2.1 h.2.2.2 hx hy
  | .power a k, h, he => by
    simp only [SExpr.run, SExpr.shape, SExpr.map, SExpr.roundings, SExpr.bound]
    exact (SExpr.run_within hη hu hmax hs hp a h.1 he).bind₁ fun x x' hx => Spline.AllNear.power hη hu hmax hx k h.2
  | .extract a j, h, he => by
    simp only [SExpr.run, SExpr.shape, SExpr.map, SExpr.roundings, SExpr.bound]
    rw [dif_pos h.2]
    exact (PExpr.run_within hη hu hmax hs hp a h.1 he).bind₁ fun x x' hx => Spline.AllNearPoints.extract hx ⟨j, h.2⟩

theorem PExpr.run_within (hη : A.η = 0) (hu : A.u ≤ 1 / 2) (hmax : cfg.maxBinom ≤ 68)
    (hs : ∀ i, ((σ.s i).map (Nd.ofFl (A := A))).AllNear (ds i) 0 (bs i) ((σ.s i).map Fl.val))
    (hp : ∀ i, ((σ.p i).map (Point.map (Nd.ofFl (A := A)))).AllNearPoints (dp i) 0 (bp i) ((σ.p i).map (Point.map Fl.val))) :
    ∀ e : PExpr (Fl B) n, e.WellShaped cfg ds dp → e.Elementary →
      AllNearRunsPoints (e.shape ds dp) (e.roundings ds dp) (e.bound ds dp bs bp) ((e.map (Nd.ofFl (A := A))).run cfg (σ.map Nd.ofFl))
        ((e.map Fl.val).run cfg (σ.map Fl.val))
  | .leaf i, _, _ => ⟨_, _, rfl, rfl, hp i⟩
  | .add a b, h, he => by
    simp only [PExpr.run, PExpr.shape, PExpr.map, PExpr.roundings, PExpr.bound]
    exact (PExpr.run_within hη hu hmax hs hp a h.1 he.1).bind₂ fun x x' hx =>
      (PExpr.run_within hη hu hmax hs hp b h.2.1 he.2).bind₂ fun y y' hy => Spline.AllNearPoints.add hη hu hx hy h.2.2
  | .addAssign a b, h, he => by
    simp only [PExpr.run, PExpr.shape, PExpr.map, PExpr.roundings, PExpr.bound]
    exact (PExpr.run_within hη hu hmax hs hp a h.1 he.1).bind₂ fun x x' hx =>
      (PExpr.run_within hη hu hmax hs hp b h.2.1 he.2).bind₂ fun y y' hy => Spline.AllNearPoints.addAssign hη hu hx hy h.2.2
  | .subAssign a b, h, he => by
    simp only [PExpr.run, PExpr.shape, PExpr.map, PExpr.roundings, PExpr.bound]
    exact (PExpr.run_within hη hu hmax hs hp a h.1 he.1).bind₂ fun x x' hx =>
      (PExpr.run_within hη hu hmax hs hp b h.2.1 he.2).bind₂ fun y y' hy => Spline.AllNearPoints.subAssign hη hu hx hy h.2.2
  | .sub a b, h, he => by
    simp only [PExpr.run, PExpr.shape, PExpr.map, PExpr.roundings, PExpr.bound]
    exact (PExpr.run_within hη hu hmax hs hp a h.1 he.1).bind₂ fun x x' hx =>
      (PExpr.run_within hη hu hmax hs hp b h.2.1 he.2).bind₂ fun y y' hy => Spline.AllNearPoints.sub hη hu hx hy h.2.2.1 h.2.2.2
  | .neg a, h, he => by
    simp only [PExpr.run, PExpr.shape, PExpr.map, PExpr.roundings, PExpr.bound]
    exact (PExpr.run_within hη hu hmax hs hp a h he).bind₂ fun x x' hx => Spline.AllNearPoints.neg hx hη
  | .scale a c, h, he => by
    simp only [PExpr.run, PExpr.shape, PExpr.map, PExpr.roundings, PExpr.bound]
    exact (PExpr.run_within hη hu hmax hs hp a h he).bind₂ fun x x' hx => Spline.AllNearPoints.scale hη hx c.val
  | .addPoint a v, h, he => by
    simp only [PExpr.run, PExpr.shape, PExpr.map, PExpr.roundings, PExpr.bound]
    exact (PExpr.run_within hη hu hmax hs hp a h he).bind₂ fun x x' hx => Spline.AllNearPoints.addPoint hx (v.map Fl.val)
  | .subPoint a v, h, he => by
    simp only [PExpr.run, PExpr.shape, PExpr.map, PExpr.roundings, PExpr.bound]
    exact (PExpr.run_within hη hu hmax hs hp a h he).bind₂ fun x x' hx => Spline.AllNearPoints.subPoint hx (v.map Fl.val)
  | .pointSub v a, h, he => by
    simp only [PExpr.run, PExpr.shape, PExpr.map, PExpr.roundings, PExpr.bound]
    exact (PExpr.run_within hη hu hmax hs hp a h he).bind₂ fun x x' hx => Spline.AllNearPoints.pointSub hx hη (v.map Fl.val)
  | .elevate a d, h, he => by
    simp only [PExpr.run, PExpr.shape, PExpr.map, PExpr.roundings, PExpr.bound]
    exact (PExpr.run_within hη hu hmax hs hp a h.1 he).bind₂ fun x x' hx => Spline.AllNearPoints.elevate hη hu hx h.2.1 h.2.2
  | .splitLeft a z d, h, he => by
    simp only [PExpr.run, PExpr.shape, PExpr.map, PExpr.roundings, PExpr.bound]
    refine (PExpr.run_within hη hu hmax hs hp a h.1 he.1).bind₂ fun x x' hx => ?_
    obtain ⟨l, r, l', r', e, e', hl, hr⟩ := Spline.AllNearPoints.split hη hx (d := d) (p := (a.shape ds dp).getD d 0) (by simp [h.2]) he.2.1 he.2.2
    rw [show Nd.ofFl z = (.exactly z.val : Nd A) from rfl, e, e']
    exact ⟨_, _, rfl, rfl, hl⟩
  | .splitRight a z d, h, he => by
    simp only [PExpr.run, PExpr.shape, PExpr.map, PExpr.roundings, PExpr.bound]
    refine (PExpr.run_within hη hu hmax hs hp a h.1 he.1).bind₂ fun x x' hx => ?_
    obtain ⟨l, r, l', r', e, e', hl, hr⟩ := Spline.AllNearPoints.split hη hx (d := d) (p := (a.shape ds dp).getD d 0) (by simp [h.2]) he.2.1 he.2.2
    rw [show Nd.ofFl z = (.exactly z.val : Nd A) from rfl, e, e']
    exact ⟨_, _, rfl, rfl, hr⟩
  | .splitPart _ _ _ _, _, he => he.elim
  | .compose _ _, _, he => he.elim
  | .composeScalar _ _, _, he => he.elim
  | .deriv a o, h, he => by
    simp only [PExpr.run, PExpr.shape, PExpr.map, PExpr.roundings, PExpr.bound]
    exact (PExpr.run_within hη hu hmax hs hp a h.1 he).bind₂ fun x x' hx => Spline.AllNearPoints.deriv hη hx hmax h.2.1 h.2.2.1 h.2.2.2.1 h.2.2.2.2
  | .mulLeft a b, h, he => by
    simp only [PExpr.run, PExpr.shape, PExpr.map, PExpr.roundings, PExpr.bound]
    exact (SExpr.run_within hη hu hmax hs hp a h.1 he.1).bind₂ fun x x' hx =>
      (PExpr.run_within hη hu hmax hs hp b h.2.1 he.2).bind₂ fun y y' hy => Spline.AllNear.mulLeft hη hu hmax h.2.2.1 h.2.2.2 hx hy
  | .mulRight a b, h, he => by
    simp only [PExpr.run, PExpr.shape, PExpr.map, PExpr.roundings, PExpr.bound]
    exact (PExpr.run_within hη hu hmax hs hp a h.1 he.1).bind₂ fun x x' hx =>
      (SExpr.run_within hη hu hmax hs hp b h.2.1 he.2).bind₂ fun y y' hy => Spline.AllNearPoints.mulRight hη hu hmax h.2.2.1 h.2.2.2 hx hy
end
end

/-! ## evaluation -/

open Trn in
theorem Spline.AllNear.evaluate (hη : A.η = 0) {ds : List ℕ} {k : ℕ} {M : ℝ} {s : Spline (Nd A)} {s' : Spline ℝ} (h : s.AllNear ds k M s')
    {t : List ℝ} (ht : t.length = ds.length) (h01 : ∀ x ∈ t, 0 ≤ x ∧ x ≤ 1) :
    ∃ r y, s.evaluate (t.map (.exactly : ℝ → Nd A)) = .ok r ∧ s'.evaluate t = .ok y ∧
      |y| ≤ M ∧ ∀ x, r.vals x → |x - y| ≤ ((1 + A.u) ^ (k + 3 * ds.sum) - 1) * M := by
  have e := Spline.evaluate_ok (K := ℝ) h.shape'.1 (t := t) (by rw [ht, shape_dim h.shape'])
  obtain ⟨r, hr, hq⟩ := Spline.evaluate_graded (K := Nd A) (V := Nd A) (fun a b => a = .exactly b ∧ 0 ≤ b ∧ b ≤ 1)
    (fun j a y => NearM M (k + 3 * j) (⟨a, y, 0⟩ : Trn A))
    (fun _ _ _ h => h.mono (by omega))
    (by
      rintro j _ z a a' b b' ⟨rfl, h0, h1⟩ ha hb
      exact NearM.lerpExact hη h0 h1 ha hb (.inl rfl) (.inl rfl)) h.shape'.1 (s := s) (t := t.map .exactly)
    (by rw [h.shape.2, h.shape'.2]) (by rw [h.shape.1.offsets_eq, h.shape'.1.offsets_eq, h.shape.2, h.shape'.2])
    (by rw [h.shape.1.ncp_eq, h.shape'.1.ncp_eq, h.shape.2, h.shape'.2]) (h.near.imp fun _ _ h => h)
    (by
      rw [List.forall₂_map_left_iff, List.forall₂_same]
      exact fun x hx => ⟨rfl, h01 x hx⟩) e
  rw [h.shape'.2] at hq
  exact ⟨r, _, hr, e, hq.1, hq.2⟩

open Trn in
theorem Spline.AllNearPoints.evaluate (hη : A.η = 0) {ds : List ℕ} {k : ℕ} {M : Fin n → ℝ} {s : Spline (Point (Nd A) n)}
    {s' : Spline (Point ℝ n)} (h : s.AllNearPoints ds k M s') {t : List ℝ} (ht : t.length = ds.length) (h01 : ∀ x ∈ t, 0 ≤ x ∧ x ≤ 1) :
    ∃ r y, s.evaluate (t.map (.exactly : ℝ → Nd A)) = .ok r ∧ s'.evaluate t = .ok y ∧
      ∀ c, |y.val c| ≤ M c ∧ ∀ x, (r.val c).vals x → |x - y.val c| ≤ ((1 + A.u) ^ (k + 3 * ds.sum) - 1) * M c := by
  have e := Spline.evaluate_ok (K := ℝ) h.shape'.1 (t := t) (by rw [ht, shape_dim h.shape'])
  obtain ⟨r, hr, hq⟩ := Spline.evaluate_graded (K := Nd A) (V := Point (Nd A) n) (fun a b => a = .exactly b ∧ 0 ≤ b ∧ b ≤ 1)
    (fun j a (y : Point ℝ n) => ∀ c, NearM (M c) (k + 3 * j) (⟨a.val c, y.val c, 0⟩ : Trn A))
    (fun _ _ _ h c => (h c).mono (by omega))
    (by
      rintro j _ z a a' b b' ⟨rfl, h0, h1⟩ ha hb c
      exact NearM.lerpExact hη h0 h1 (ha c) (hb c) (.inr rfl) (.inr rfl)) h.shape'.1 (s := s) (t := t.map .exactly)
    (by rw [h.shape.2, h.shape'.2]) (by rw [h.shape.1.offsets_eq, h.shape'.1.offsets_eq, h.shape.2, h.shape'.2])
    (by rw [h.shape.1.ncp_eq, h.shape'.1.ncp_eq, h.shape.2, h.shape'.2]) (h.near.imp fun _ _ h => h)
    (by
      rw [List.forall₂_map_left_iff, List.forall₂_same]
      exact fun x hx => ⟨rfl, h01 x hx⟩) e
  rw [h.shape'.2] at hq
  exact ⟨r, _, hr, e, fun c => ⟨(hq c).1, (hq c).2⟩⟩

end Bezman
