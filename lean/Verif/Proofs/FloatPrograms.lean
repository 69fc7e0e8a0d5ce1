import Verif.Proofs.FloatProducts
import Verif.Proofs.FloatRound
import Verif.Proofs.FloatForward
import Verif.Proofs.Box
import Verif.Spec.Expr

set_option linter.unusedSectionVars false

/-! # Rounding errors of programs and evaluations -/

namespace Bezman
open Spec
variable {A : FloatArith} {n : ℕ}

theorem ApproxRuns.bind₁ {ds k M} {x : Bezman.M (Spline (Fl A))} {y : Bezman.M (Spline ℝ)} (h : ApproxRuns ds k M x y)
    {ds' k' M'} {f : Spline (Fl A) → Bezman.M (Spline (Fl A))} {g : Spline ℝ → Bezman.M (Spline ℝ)}
    (hf : ∀ r r', r.Approx ds k M r' → ApproxRuns ds' k' M' (f r) (g r')) : ApproxRuns ds' k' M' (x >>= f) (y >>= g) := by
  obtain ⟨r, r', rfl, rfl, h⟩ := h
  exact hf r r' h

theorem ApproxRuns.bind₂ {ds k M} {x : Bezman.M (Spline (Fl A))} {y : Bezman.M (Spline ℝ)} (h : ApproxRuns ds k M x y)
    {ds' k'} {M' : Fin n → ℝ} {f : Spline (Fl A) → Bezman.M (Spline (Point (Fl A) n))} {g : Spline ℝ → Bezman.M (Spline (Point ℝ n))}
    (hf : ∀ r r', r.Approx ds k M r' → ApproxRunsPoints ds' k' M' (f r) (g r')) : ApproxRunsPoints ds' k' M' (x >>= f) (y >>= g) := by
  obtain ⟨r, r', rfl, rfl, h⟩ := h
  exact hf r r' h

theorem ApproxRunsPoints.bind₁ {ds k} {M : Fin n → ℝ} {x : Bezman.M (Spline (Point (Fl A) n))} {y : Bezman.M (Spline (Point ℝ n))}
    (h : ApproxRunsPoints ds k M x y)
    {ds' k' M'} {f : Spline (Point (Fl A) n) → Bezman.M (Spline (Fl A))} {g : Spline (Point ℝ n) → Bezman.M (Spline ℝ)}
    (hf : ∀ r r', r.ApproxPoints ds k M r' → ApproxRuns ds' k' M' (f r) (g r')) : ApproxRuns ds' k' M' (x >>= f) (y >>= g) := by
  obtain ⟨r, r', rfl, rfl, h⟩ := h
  exact hf r r' h

theorem ApproxRunsPoints.bind₂ {ds k} {M : Fin n → ℝ} {x : Bezman.M (Spline (Point (Fl A) n))} {y : Bezman.M (Spline (Point ℝ n))}
    (h : ApproxRunsPoints ds k M x y)
    {ds' k'} {M' : Fin n → ℝ} {f : Spline (Point (Fl A) n) → Bezman.M (Spline (Point (Fl A) n))}
    {g : Spline (Point ℝ n) → Bezman.M (Spline (Point ℝ n))}
    (hf : ∀ r r', r.ApproxPoints ds k M r' → ApproxRunsPoints ds' k' M' (f r) (g r')) : ApproxRunsPoints ds' k' M' (x >>= f) (y >>= g) := by
  obtain ⟨r, r', rfl, rfl, h⟩ := h
  exact hf r r' h

section
variable {cfg : Cfg} {σ : Vars (Fl A) n} {ds dp : ℕ → List ℕ} {bs : ℕ → ℝ} {bp : ℕ → Fin n → ℝ}

mutual
theorem SExpr.run_approx (hη : A.η = 0) (hu : A.u ≤ 1 / 2) (hmax : cfg.maxBinom ≤ 68)
    (hs : ∀ i, (σ.s i).Approx (ds i) 0 (bs i) ((σ.s i).map Fl.val))
    (hp : ∀ i, (σ.p i).ApproxPoints (dp i) 0 (bp i) ((σ.p i).map (Point.map Fl.val))) :
    ∀ e : SExpr (Fl A) n, e.WellShaped cfg ds dp → e.Elementary →
      ApproxRuns (e.shape ds dp) (e.roundings ds dp) (e.bound ds dp bs bp) (e.run cfg σ) ((e.map Fl.val).run cfg (σ.map Fl.val))
  | .leaf i, _, _ => ⟨_, _, rfl, rfl, hs i⟩
  | .add a b, h, he => by
    simp only [SExpr.run, SExpr.shape, SExpr.map, SExpr.roundings, SExpr.bound]
    exact (SExpr.run_approx hη hu hmax hs hp a h.1 he.1).bind₁ fun x x' hx =>
      (SExpr.run_approx hη hu hmax hs hp b h.2.1 he.2).bind₁ fun y y' hy => Spline.Approx.add hη hu hx hy h.2.2
  | .addAssign a b, h, he => by
    simp only [SExpr.run, SExpr.shape, SExpr.map, SExpr.roundings, SExpr.bound]
    exact (SExpr.run_approx hη hu hmax hs hp a h.1 he.1).bind₁ fun x x' hx =>
      (SExpr.run_approx hη hu hmax hs hp b h.2.1 he.2).bind₁ fun y y' hy => Spline.Approx.addAssign hη hu hx hy h.2.2
  | .subAssign a b, h, he => by
    simp only [SExpr.run, SExpr.shape, SExpr.map, SExpr.roundings, SExpr.bound]
    exact (SExpr.run_approx hη hu hmax hs hp a h.1 he.1).bind₁ fun x x' hx =>
      (SExpr.run_approx hη hu hmax hs hp b h.2.1 he.2).bind₁ fun y y' hy => Spline.Approx.subAssign hη hu hx hy h.2.2
  | .sub a b, h, he => by
    simp only [SExpr.run, SExpr.shape, SExpr.map, SExpr.roundings, SExpr.bound]
    exact (SExpr.run_approx hη hu hmax hs hp a h.1 he.1).bind₁ fun x x' hx =>
      (SExpr.run_approx hη hu hmax hs hp b h.2.1 he.2).bind₁ fun y y' hy => Spline.Approx.sub hη hu hx hy h.2.2.1 h.2.2.2
  | .neg a, h, he => by
    simp only [SExpr.run, SExpr.shape, SExpr.map, SExpr.roundings, SExpr.bound]
    exact (SExpr.run_approx hη hu hmax hs hp a h he).bind₁ fun x x' hx => Spline.Approx.neg hx
  | .scale a c, h, he => by
    simp only [SExpr.run, SExpr.shape, SExpr.map, SExpr.roundings, SExpr.bound]
    exact (SExpr.run_approx hη hu hmax hs hp a h he).bind₁ fun x x' hx => Spline.Approx.scale hη hx c
  | .addPoint a v, h, he => by
    simp only [SExpr.run, SExpr.shape, SExpr.map, SExpr.roundings, SExpr.bound]
    exact (SExpr.run_approx hη hu hmax hs hp a h he).bind₁ fun x x' hx => Spline.Approx.addPoint hx v
  | .subPoint a v, h, he => by
    simp only [SExpr.run, SExpr.shape, SExpr.map, SExpr.roundings, SExpr.bound]
    exact (SExpr.run_approx hη hu hmax hs hp a h he).bind₁ fun x x' hx => Spline.Approx.subPoint hx v
  | .pointSub v a, h, he => by
    simp only [SExpr.run, SExpr.shape, SExpr.map, SExpr.roundings, SExpr.bound]
    exact (SExpr.run_approx hη hu hmax hs hp a h he).bind₁ fun x x' hx => Spline.Approx.pointSub hx v
  | .elevate a d, h, he => by
    simp only [SExpr.run, SExpr.shape, SExpr.map, SExpr.roundings, SExpr.bound]
    exact (SExpr.run_approx hη hu hmax hs hp a h.1 he).bind₁ fun x x' hx => Spline.Approx.elevate hη hu hx h.2.1 h.2.2
  | .splitLeft a z d, h, he => by
    simp only [SExpr.run, SExpr.shape, SExpr.map, SExpr.roundings, SExpr.bound]
    refine (SExpr.run_approx hη hu hmax hs hp a h.1 he.1).bind₁ fun x x' hx => ?_
    obtain ⟨l, r, l', r', e, e', hl, hr⟩ := Spline.Approx.split hη hx (d := d) (p := (a.shape ds dp).getD d 0) (by simp [h.2]) he.2.1 he.2.2
    rw [e, e']
    exact ⟨_, _, rfl, rfl, hl⟩
  | .splitRight a z d, h, he => by
    simp only [SExpr.run, SExpr.shape, SExpr.map, SExpr.roundings, SExpr.bound]
    refine (SExpr.run_approx hη hu hmax hs hp a h.1 he.1).bind₁ fun x x' hx => ?_
    obtain ⟨l, r, l', r', e, e', hl, hr⟩ := Spline.Approx.split hη hx (d := d) (p := (a.shape ds dp).getD d 0) (by simp [h.2]) he.2.1 he.2.2
    rw [e, e']
    exact ⟨_, _, rfl, rfl, hr⟩
  | .splitPart _ _ _ _, _, he => he.elim
  | .compose _ _, _, he => he.elim
  | .composeScalar _ _, _, he => he.elim
  | .deriv a o, h, he => by
    simp only [SExpr.run, SExpr.shape, SExpr.map, SExpr.roundings, SExpr.bound]
    exact (SExpr.run_approx hη hu hmax hs hp a h.1 he).bind₁ fun x x' hx => Spline.Approx.deriv hη hx hmax h.2.1 h.2.2.1 h.2.2.2.1 h.2.2.2.2
  | .mul a b, h, he => by
    simp only [SExpr.run, SExpr.shape, SExpr.map, SExpr.roundings, SExpr.bound]
    exact (SExpr.run_approx hη hu hmax hs hp a h.1 he.1).bind₁ fun x x' hx =>
      (SExpr.run_approx hη hu hmax hs hp b h.2.1 he.2).bind₁ fun y y' hy => Spline.Approx.mul hη hu hmax h.2.2.1 h.2.2.2 hx hy
  | .dot a b, h, he => by
    simp only [SExpr.run, SExpr.shape, SExpr.map, SExpr.roundings, SExpr.bound]
    exact (PExpr.run_approx hη hu hmax hs hp a h.1 he.1).bind₁ fun x x' hx =>
      (PExpr.run_approx hη hu hmax hs hp b h.2.1 he.2).bind₁ fun y y' hy => Spline.ApproxPoints.dot hη hu hmax h.2.2.1 h.2.2.2 hx hy
  | .power a k, h, he => by
    simp only [SExpr.run, SExpr.shape, SExpr.map, SExpr.roundings, SExpr.bound]
    exact (SExpr.run_approx hη hu hmax hs hp a h.1 he).bind₁ fun x x' hx => Spline.Approx.power hη hu hmax hx k h.2
  | .extract a j, h, he => by
    simp only [SExpr.run, SExpr.shape, SExpr.map, SExpr.roundings, SExpr.bound]
    rw [dif_pos h.2]
    exact (PExpr.run_approx hη hu hmax hs hp a h.1 he).bind₁ fun x x' hx => Spline.ApproxPoints.extract hx ⟨j, h.2⟩

theorem PExpr.run_approx (hη : A.η = 0) (hu : A.u ≤ 1 / 2) (hmax : cfg.maxBinom ≤ 68)
    (hs : ∀ i, (σ.s i).Approx (ds i) 0 (bs i) ((σ.s i).map Fl.val))
    (hp : ∀ i, (σ.p i).ApproxPoints (dp i) 0 (bp i) ((σ.p i).map (Point.map Fl.val))) :
    ∀ e : PExpr (Fl A) n, e.WellShaped cfg ds dp → e.Elementary →
      ApproxRunsPoints (e.shape ds dp) (e.roundings ds dp) (e.bound ds dp bs bp) (e.run cfg σ) ((e.map Fl.val).run cfg (σ.map Fl.val))
  | .leaf i, _, _ => ⟨_, _, rfl, rfl, hp i⟩
  | .add a b, h, he => by
    simp only [PExpr.run, PExpr.shape, PExpr.map, PExpr.roundings, PExpr.bound]
    exact (PExpr.run_approx hη hu hmax hs hp a h.1 he.1).bind₂ fun x x' hx =>
      (PExpr.run_approx hη hu hmax hs hp b h.2.1 he.2).bind₂ fun y y' hy => Spline.ApproxPoints.add hη hu hx hy h.2.2
  | .addAssign a b, h, he => by
    simp only [PExpr.run, PExpr.shape, PExpr.map, PExpr.roundings, PExpr.bound]
    exact (PExpr.run_approx hη hu hmax hs hp a h.1 he.1).bind₂ fun x x' hx =>
      (PExpr.run_approx hη hu hmax hs hp b h.2.1 he.2).bind₂ fun y y' hy => Spline.ApproxPoints.addAssign hη hu hx hy h.2.2
  | .subAssign a b, h, he => by
    simp only [PExpr.run, PExpr.shape, PExpr.map, PExpr.roundings, PExpr.bound]
    exact (PExpr.run_approx hη hu hmax hs hp a h.1 he.1).bind₂ fun x x' hx =>
      (PExpr.run_approx hη hu hmax hs hp b h.2.1 he.2).bind₂ fun y y' hy => Spline.ApproxPoints.subAssign hη hu hx hy h.2.2
  | .sub a b, h, he => by
    simp only [PExpr.run, PExpr.shape, PExpr.map, PExpr.roundings, PExpr.bound]
    exact (PExpr.run_approx hη hu hmax hs hp a h.1 he.1).bind₂ fun x x' hx =>
      (PExpr.run_approx hη hu hmax hs hp b h.2.1 he.2).bind₂ fun y y' hy => Spline.ApproxPoints.sub hη hu hx hy h.2.2.1 h.2.2.2
  | .neg a, h, he => by
    simp only [PExpr.run, PExpr.shape, PExpr.map, PExpr.roundings, PExpr.bound]
    exact (PExpr.run_approx hη hu hmax hs hp a h he).bind₂ fun x x' hx => Spline.ApproxPoints.neg hx hη
  | .scale a c, h, he => by
    simp only [PExpr.run, PExpr.shape, PExpr.map, PExpr.roundings, PExpr.bound]
    exact (PExpr.run_approx hη hu hmax hs hp a h he).bind₂ fun x x' hx => Spline.ApproxPoints.scale hη hx c
  | .addPoint a v, h, he => by
    simp only [PExpr.run, PExpr.shape, PExpr.map, PExpr.roundings, PExpr.bound]
    exact (PExpr.run_approx hη hu hmax hs hp a h he).bind₂ fun x x' hx => Spline.ApproxPoints.addPoint hx v
  | .subPoint a v, h, he => by
    simp only [PExpr.run, PExpr.shape, PExpr.map, PExpr.roundings, PExpr.bound]
    exact (PExpr.run_approx hη hu hmax hs hp a h he).bind₂ fun x x' hx => Spline.ApproxPoints.subPoint hx v
  | .pointSub v a, h, he => by
    simp only [PExpr.run, PExpr.shape, PExpr.map, PExpr.roundings, PExpr.bound]
    exact (PExpr.run_approx hη hu hmax hs hp a h he).bind₂ fun x x' hx => Spline.ApproxPoints.pointSub hx hη v
  | .elevate a d, h, he => by
    simp only [PExpr.run, PExpr.shape, PExpr.map, PExpr.roundings, PExpr.bound]
    exact (PExpr.run_approx hη hu hmax hs hp a h.1 he).bind₂ fun x x' hx => Spline.ApproxPoints.elevate hη hu hx h.2.1 h.2.2
  | .splitLeft a z d, h, he => by
    simp only [PExpr.run, PExpr.shape, PExpr.map, PExpr.roundings, PExpr.bound]
    refine (PExpr.run_approx hη hu hmax hs hp a h.1 he.1).bind₂ fun x x' hx => ?_
    obtain ⟨l, r, l', r', e, e', hl, hr⟩ := Spline.ApproxPoints.split hη hx (d := d) (p := (a.shape ds dp).getD d 0) (by simp [h.2]) he.2.1 he.2.2
    rw [e, e']
    exact ⟨_, _, rfl, rfl, hl⟩
  | .splitRight a z d, h, he => by
    simp only [PExpr.run, PExpr.shape, PExpr.map, PExpr.roundings, PExpr.bound]
    refine (PExpr.run_approx hη hu hmax hs hp a h.1 he.1).bind₂ fun x x' hx => ?_
    obtain ⟨l, r, l', r', e, e', hl, hr⟩ := Spline.ApproxPoints.split hη hx (d := d) (p := (a.shape ds dp).getD d 0) (by simp [h.2]) he.2.1 he.2.2
    rw [e, e']
    exact ⟨_, _, rfl, rfl, hr⟩
  | .splitPart _ _ _ _, _, he => he.elim
  | .compose _ _, _, he => he.elim
  | .composeScalar _ _, _, he => he.elim
  | .deriv a o, h, he => by
    simp only [PExpr.run, PExpr.shape, PExpr.map, PExpr.roundings, PExpr.bound]
    exact (PExpr.run_approx hη hu hmax hs hp a h.1 he).bind₂ fun x x' hx => Spline.ApproxPoints.deriv hη hx hmax h.2.1 h.2.2.1 h.2.2.2.1 h.2.2.2.2
  | .mulLeft a b, h, he => by
    simp only [PExpr.run, PExpr.shape, PExpr.map, PExpr.roundings, PExpr.bound]
    exact (SExpr.run_approx hη hu hmax hs hp a h.1 he.1).bind₂ fun x x' hx =>
      (PExpr.run_approx hη hu hmax hs hp b h.2.1 he.2).bind₂ fun y y' hy => Spline.Approx.mulLeft hη hu hmax h.2.2.1 h.2.2.2 hx hy
  | .mulRight a b, h, he => by
    simp only [PExpr.run, PExpr.shape, PExpr.map, PExpr.roundings, PExpr.bound]
    exact (PExpr.run_approx hη hu hmax hs hp a h.1 he.1).bind₂ fun x x' hx =>
      (SExpr.run_approx hη hu hmax hs hp b h.2.1 he.2).bind₂ fun y y' hy => Spline.ApproxPoints.mulRight hη hu hmax h.2.2.1 h.2.2.2 hx hy
end
end

/-! ## evaluation -/

/-- values of a spline with perturbed control values -/
theorem value_near {ds : List ℕ} {s s' : Spline ℝ} (h : HasShape ds s) (h' : HasShape ds s') {t : List ℝ} (ht : t.length = ds.length)
    (h01 : ∀ x ∈ t, 0 ≤ x ∧ x ≤ 1) {δ : ℝ} (hd : List.Forall₂ (fun x y => |x - y| ≤ δ) s.cps s'.cps) : |s.value t - s'.value t| ≤ δ := by
  rw [Spline.value_eq_neval, Spline.value_eq_neval, h.2, h'.2, ← neval_sub]
  have key : ∀ j, j < size ds → |s.cps.getD j 0 - s'.cps.getD j 0| ≤ δ := by
    intro j hj
    have l1 : j < s.cps.length := by rw [h.1.cps_len, h.2]; exact hj
    have l2 : j < s'.cps.length := by rw [h'.1.cps_len, h'.2]; exact hj
    have := (List.forall₂_iff_get.1 hd).2 j l1 l2
    simpa [l1, l2] using this
  rw [abs_le]
  exact ⟨le_neval ht h01 fun j hj => (abs_le.1 (key j hj)).1, neval_le ht h01 fun j hj => (abs_le.1 (key j hj)).2⟩

theorem shape_dim {V : Type} {ds : List ℕ} {s : Spline V} (h : HasShape ds s) : s.dim = ds.length := by rw [Spline.dim, h.2]

theorem Spline.exact_shape {ds : List ℕ} {s : Spline (Fl A)} (h : HasShape ds s) : HasShape ds s.exact :=
  ⟨⟨h.1.dim_pos, h.1.ncp_eq, h.1.offsets_eq, by simpa [Spline.exact] using h.1.cps_len⟩, h.2⟩

theorem Spline.exactPoints_shape {ds : List ℕ} {s : Spline (Point (Fl A) n)} (h : HasShape ds s) : HasShape ds s.exactPoints :=
  ⟨⟨h.1.dim_pos, h.1.ncp_eq, h.1.offsets_eq, by simpa [Spline.exactPoints] using h.1.cps_len⟩, h.2⟩

theorem abs_le_of_near {u x y M : ℝ} {k : ℕ} (h : |y| ≤ M ∧ |x - y| ≤ ((1 + u) ^ k - 1) * M) : |x| ≤ (1 + u) ^ k * M := by
  have := abs_add_le (x - y) y
  rw [sub_add_cancel] at this
  nlinarith [h.1, h.2]

theorem Spline.Approx.evaluate (hη : A.η = 0) {ds : List ℕ} {k : ℕ} {M : ℝ} {s : Spline (Fl A)} {s' : Spline ℝ} (h : s.Approx ds k M s')
    {t : List (Fl A)} (ht : t.length = ds.length) (h01 : ∀ x ∈ t, 0 ≤ x.val ∧ x.val ≤ 1) :
    ∃ r y, s.evaluate t = .ok r ∧ s'.evaluate (t.map Fl.val) = .ok y ∧ |r.val - y| ≤ ((1 + A.u) ^ (k + 3 * ds.sum) - 1) * M := by
  have hb : ∀ x ∈ s.cps, |x.val| ≤ (1 + A.u) ^ k * M := by
    intro x hx
    obtain ⟨j, hj, rfl⟩ := List.getElem_of_mem hx
    exact abs_le_of_near ((List.forall₂_iff_get.1 h.near).2 j hj (by rw [← h.near.length_eq]; exact hj))
  have l' : (t.map Fl.val).length = ds.length := by rw [List.length_map]; exact ht
  have e3 := Spline.evaluate_ok (K := ℝ) h.shape'.1 (t := t.map Fl.val) (by rw [l', shape_dim h.shape'])
  have hx := Spline.exact_shape h.shape
  have e4 := Spline.evaluate_ok (K := ℝ) hx.1 (t := t.map Fl.val) (by rw [l', shape_dim hx])
  obtain ⟨r, e1, hr⟩ := Spline.evaluate_float A hx.1 rfl rfl rfl rfl hb h01 e4
  refine ⟨r, _, e1, e3, ?_⟩
  have hv := value_near hx h.shape' l' (by simpa using h01) (δ := ((1 + A.u) ^ k - 1) * M) (by
    rw [Spline.exact]
    simp only [List.forall₂_map_left_iff]
    exact h.near.imp fun _ _ h => h.2)
  rw [lerpErr, hη, hx.2] at hr
  have := abs_add_le (r.val - s.exact.value (t.map Fl.val)) (s.exact.value (t.map Fl.val) - s'.value (t.map Fl.val))
  rw [sub_add_sub_cancel] at this
  rw [pow_add]
  nlinarith

/-- one coordinate of the values of a spline with perturbed control points -/
theorem value_near_point {ds : List ℕ} {s s' : Spline (Point ℝ n)} (h : HasShape ds s) (h' : HasShape ds s') {t : List ℝ} (ht : t.length = ds.length)
    (h01 : ∀ x ∈ t, 0 ≤ x ∧ x ≤ 1) {δ : ℝ} (c : Fin n) (hd : List.Forall₂ (fun x y => |x.val c - y.val c| ≤ δ) s.cps s'.cps) :
    |(s.value t).val c - (s'.value t).val c| ≤ δ := by
  rw [Spline.value_eq_neval, Spline.value_eq_neval, h.2, h'.2]
  have key : ∀ j, j < size ds → |(s.cps.getD j 0).val c - (s'.cps.getD j 0).val c| ≤ δ := by
    intro j hj
    have l1 : j < s.cps.length := by rw [h.1.cps_len, h.2]; exact hj
    have l2 : j < s'.cps.length := by rw [h'.1.cps_len, h'.2]; exact hj
    have := (List.forall₂_iff_get.1 hd).2 j l1 l2
    simpa [l1, l2] using this
  have e : ∀ F : ℕ → Point ℝ n, (neval ds t F).val c = neval ds t (fun j => (F j).val c) := fun F =>
    (neval_map (LawfulCoords.coordL ℝ (V := Point ℝ n) c) ds t F).symm
  rw [e, e, ← neval_sub, abs_le]
  exact ⟨le_neval ht h01 fun j hj => (abs_le.1 (key j hj)).1, neval_le ht h01 fun j hj => (abs_le.1 (key j hj)).2⟩

theorem Spline.ApproxPoints.evaluate (hη : A.η = 0) {ds : List ℕ} {k : ℕ} {M : Fin n → ℝ} {s : Spline (Point (Fl A) n)}
    {s' : Spline (Point ℝ n)} (h : s.ApproxPoints ds k M s')
    {t : List (Fl A)} (ht : t.length = ds.length) (h01 : ∀ x ∈ t, 0 ≤ x.val ∧ x.val ≤ 1) :
    ∃ r y, s.evaluate t = .ok r ∧ s'.evaluate (t.map Fl.val) = .ok y ∧
      ∀ c, |(r.val c).val - y.val c| ≤ ((1 + A.u) ^ (k + 3 * ds.sum) - 1) * M c := by
  have hb : ∀ x ∈ s.cps, ∀ c, |(x.val c).val| ≤ (1 + A.u) ^ k * M c := by
    intro x hx c
    obtain ⟨j, hj, rfl⟩ := List.getElem_of_mem hx
    exact abs_le_of_near ((List.forall₂_iff_get.1 h.near).2 j hj (by rw [← h.near.length_eq]; exact hj) c)
  have l' : (t.map Fl.val).length = ds.length := by rw [List.length_map]; exact ht
  have e3 := Spline.evaluate_ok (K := ℝ) h.shape'.1 (t := t.map Fl.val) (by rw [l', shape_dim h.shape'])
  have hx := Spline.exactPoints_shape h.shape
  have e4 := Spline.evaluate_ok (K := ℝ) hx.1 (t := t.map Fl.val) (by rw [l', shape_dim hx])
  obtain ⟨r, e1, hr⟩ := Spline.evaluate_float_point A hx.1 rfl rfl rfl rfl (M := fun c => (1 + A.u) ^ k * M c) hb h01 e4
  refine ⟨r, _, e1, e3, fun c => ?_⟩
  have hv := value_near_point hx h.shape' l' (by simpa using h01) (δ := ((1 + A.u) ^ k - 1) * M c) c (by
    rw [Spline.exactPoints]
    simp only [List.forall₂_map_left_iff]
    exact h.near.imp fun _ _ h => (h c).2)
  have hr := hr c
  rw [lerpErr, hη, hx.2] at hr
  have := abs_add_le ((r.val c).val - (s.exactPoints.value (t.map Fl.val)).val c)
    ((s.exactPoints.value (t.map Fl.val)).val c - (s'.value (t.map Fl.val)).val c)
  rw [sub_add_sub_cancel] at this
  rw [pow_add]
  nlinarith

/-! ## preconditions of the exact program -/

section
variable {cfg : Cfg} {σ : Vars ℝ n} {μ : Meaning n}

mutual
theorem SExpr.map_degrees : ∀ e : SExpr (Fl A) n, (e.map Fl.val).degrees μ = e.shape μ.ds μ.dp
  | .leaf _ => rfl
  | .add a b => by simp only [SExpr.map, SExpr.degrees, SExpr.shape, SExpr.map_degrees a, SExpr.map_degrees b]
  | .addAssign a b => by simp only [SExpr.map, SExpr.degrees, SExpr.shape, SExpr.map_degrees a, SExpr.map_degrees b]
  | .sub a b => by simp only [SExpr.map, SExpr.degrees, SExpr.shape, SExpr.map_degrees a, SExpr.map_degrees b]
  | .subAssign a b => by simp only [SExpr.map, SExpr.degrees, SExpr.shape, SExpr.map_degrees a, SExpr.map_degrees b]
  | .neg a => by simp only [SExpr.map, SExpr.degrees, SExpr.shape, SExpr.map_degrees a]
  | .scale a _ => by simp only [SExpr.map, SExpr.degrees, SExpr.shape, SExpr.map_degrees a]
  | .addPoint a _ => by simp only [SExpr.map, SExpr.degrees, SExpr.shape, SExpr.map_degrees a]
  | .subPoint a _ => by simp only [SExpr.map, SExpr.degrees, SExpr.shape, SExpr.map_degrees a]
  | .pointSub _ a => by simp only [SExpr.map, SExpr.degrees, SExpr.shape, SExpr.map_degrees a]
  | .splitLeft a _ _ => by simp only [SExpr.map, SExpr.degrees, SExpr.shape, SExpr.map_degrees a]
  | .splitRight a _ _ => by simp only [SExpr.map, SExpr.degrees, SExpr.shape, SExpr.map_degrees a]
  | .splitPart a _ _ _ => by simp only [SExpr.map, SExpr.degrees, SExpr.shape, SExpr.map_degrees a]
  | .elevate a _ => by simp only [SExpr.map, SExpr.degrees, SExpr.shape, SExpr.map_degrees a]
  | .deriv a _ => by simp only [SExpr.map, SExpr.degrees, SExpr.shape, SExpr.map_degrees a]
  | .power a _ => by simp only [SExpr.map, SExpr.degrees, SExpr.shape, SExpr.map_degrees a]
  | .compose a b => by simp only [SExpr.map, SExpr.degrees, SExpr.shape, SExpr.map_degrees a, PExpr.map_degrees b]
  | .composeScalar a b => by simp only [SExpr.map, SExpr.degrees, SExpr.shape, SExpr.map_degrees a, SExpr.map_degrees b]
  | .mul a b => by simp only [SExpr.map, SExpr.degrees, SExpr.shape, SExpr.map_degrees a, SExpr.map_degrees b]
  | .dot a b => by simp only [SExpr.map, SExpr.degrees, SExpr.shape, PExpr.map_degrees a, PExpr.map_degrees b]
  | .extract a _ => by simp only [SExpr.map, SExpr.degrees, SExpr.shape, PExpr.map_degrees a]

theorem PExpr.map_degrees : ∀ e : PExpr (Fl A) n, (e.map Fl.val).degrees μ = e.shape μ.ds μ.dp
  | .leaf _ => rfl
  | .add a b => by simp only [PExpr.map, PExpr.degrees, PExpr.shape, PExpr.map_degrees a, PExpr.map_degrees b]
  | .addAssign a b => by simp only [PExpr.map, PExpr.degrees, PExpr.shape, PExpr.map_degrees a, PExpr.map_degrees b]
  | .sub a b => by simp only [PExpr.map, PExpr.degrees, PExpr.shape, PExpr.map_degrees a, PExpr.map_degrees b]
  | .subAssign a b => by simp only [PExpr.map, PExpr.degrees, PExpr.shape, PExpr.map_degrees a, PExpr.map_degrees b]
  | .neg a => by simp only [PExpr.map, PExpr.degrees, PExpr.shape, PExpr.map_degrees a]
  | .scale a _ => by simp only [PExpr.map, PExpr.degrees, PExpr.shape, PExpr.map_degrees a]
  | .addPoint a _ => by simp only [PExpr.map, PExpr.degrees, PExpr.shape, PExpr.map_degrees a]
  | .subPoint a _ => by simp only [PExpr.map, PExpr.degrees, PExpr.shape, PExpr.map_degrees a]
  | .pointSub _ a => by simp only [PExpr.map, PExpr.degrees, PExpr.shape, PExpr.map_degrees a]
  | .splitLeft a _ _ => by simp only [PExpr.map, PExpr.degrees, PExpr.shape, PExpr.map_degrees a]
  | .splitRight a _ _ => by simp only [PExpr.map, PExpr.degrees, PExpr.shape, PExpr.map_degrees a]
  | .splitPart a _ _ _ => by simp only [PExpr.map, PExpr.degrees, PExpr.shape, PExpr.map_degrees a]
  | .elevate a _ => by simp only [PExpr.map, PExpr.degrees, PExpr.shape, PExpr.map_degrees a]
  | .deriv a _ => by simp only [PExpr.map, PExpr.degrees, PExpr.shape, PExpr.map_degrees a]
  | .compose a b => by simp only [PExpr.map, PExpr.degrees, PExpr.shape, PExpr.map_degrees a, PExpr.map_degrees b]
  | .composeScalar a b => by simp only [PExpr.map, PExpr.degrees, PExpr.shape, PExpr.map_degrees a, SExpr.map_degrees b]
  | .mulLeft a b => by simp only [PExpr.map, PExpr.degrees, PExpr.shape, SExpr.map_degrees a, PExpr.map_degrees b]
  | .mulRight a b => by simp only [PExpr.map, PExpr.degrees, PExpr.shape, PExpr.map_degrees a, SExpr.map_degrees b]

end

mutual
theorem SExpr.map_admissible : ∀ e : SExpr (Fl A) n, e.WellShaped cfg μ.ds μ.dp → e.Elementary → (e.map Fl.val).Admissible cfg σ μ
  | .leaf _, _, _ => trivial
  | .add a b, h, he => by
    simp only [SExpr.map, SExpr.Admissible, SExpr.map_degrees, PExpr.map_degrees]
    exact ⟨SExpr.map_admissible a h.1 he.1, SExpr.map_admissible b h.2.1 he.2, h.2.2⟩
  | .addAssign a b, h, he => by
    simp only [SExpr.map, SExpr.Admissible, SExpr.map_degrees, PExpr.map_degrees]
    exact ⟨SExpr.map_admissible a h.1 he.1, SExpr.map_admissible b h.2.1 he.2, h.2.2⟩
  | .sub a b, h, he => by
    simp only [SExpr.map, SExpr.Admissible, SExpr.map_degrees, PExpr.map_degrees]
    exact ⟨SExpr.map_admissible a h.1 he.1, SExpr.map_admissible b h.2.1 he.2, h.2.2⟩
  | .subAssign a b, h, he => by
    simp only [SExpr.map, SExpr.Admissible, SExpr.map_degrees, PExpr.map_degrees]
    exact ⟨SExpr.map_admissible a h.1 he.1, SExpr.map_admissible b h.2.1 he.2, h.2.2⟩
  | .neg a, h, he => by
    simp only [SExpr.map, SExpr.Admissible, SExpr.map_degrees, PExpr.map_degrees]
    exact SExpr.map_admissible a h he
  | .scale a _, h, he => by
    simp only [SExpr.map, SExpr.Admissible, SExpr.map_degrees, PExpr.map_degrees]
    exact SExpr.map_admissible a h he
  | .addPoint a _, h, he => by
    simp only [SExpr.map, SExpr.Admissible, SExpr.map_degrees, PExpr.map_degrees]
    exact SExpr.map_admissible a h he
  | .subPoint a _, h, he => by
    simp only [SExpr.map, SExpr.Admissible, SExpr.map_degrees, PExpr.map_degrees]
    exact SExpr.map_admissible a h he
  | .pointSub _ a, h, he => by
    simp only [SExpr.map, SExpr.Admissible, SExpr.map_degrees, PExpr.map_degrees]
    exact SExpr.map_admissible a h he
  | .splitLeft a _ _, h, he => by
    simp only [SExpr.map, SExpr.Admissible, SExpr.map_degrees, PExpr.map_degrees]
    exact ⟨SExpr.map_admissible a h.1 he.1, h.2, he.2⟩
  | .splitRight a _ _, h, he => by
    simp only [SExpr.map, SExpr.Admissible, SExpr.map_degrees, PExpr.map_degrees]
    exact ⟨SExpr.map_admissible a h.1 he.1, h.2, he.2⟩
  | .splitPart _ _ _ _, _, he => he.elim
  | .compose _ _, _, he => he.elim
  | .composeScalar _ _, _, he => he.elim
  | .elevate a _, h, he => by
    simp only [SExpr.map, SExpr.Admissible, SExpr.map_degrees, PExpr.map_degrees]
    exact ⟨SExpr.map_admissible a h.1 he, h.2⟩
  | .deriv a _, h, he => by
    simp only [SExpr.map, SExpr.Admissible, SExpr.map_degrees, PExpr.map_degrees]
    exact ⟨SExpr.map_admissible a h.1 he, h.2⟩
  | .power a _, h, he => by
    simp only [SExpr.map, SExpr.Admissible, SExpr.map_degrees, PExpr.map_degrees]
    exact ⟨SExpr.map_admissible a h.1 he, h.2⟩
  | .mul a b, h, he => by
    simp only [SExpr.map, SExpr.Admissible, SExpr.map_degrees, PExpr.map_degrees]
    exact ⟨SExpr.map_admissible a h.1 he.1, SExpr.map_admissible b h.2.1 he.2, h.2.2⟩
  | .dot a b, h, he => by
    simp only [SExpr.map, SExpr.Admissible, SExpr.map_degrees, PExpr.map_degrees]
    exact ⟨PExpr.map_admissible a h.1 he.1, PExpr.map_admissible b h.2.1 he.2, h.2.2⟩
  | .extract a _, h, he => by
    simp only [SExpr.map, SExpr.Admissible, SExpr.map_degrees, PExpr.map_degrees]
    exact ⟨PExpr.map_admissible a h.1 he, h.2⟩

theorem PExpr.map_admissible : ∀ e : PExpr (Fl A) n, e.WellShaped cfg μ.ds μ.dp → e.Elementary → (e.map Fl.val).Admissible cfg σ μ
  | .leaf _, _, _ => trivial
  | .add a b, h, he => by
    simp only [PExpr.map, PExpr.Admissible, SExpr.map_degrees, PExpr.map_degrees]
    exact ⟨PExpr.map_admissible a h.1 he.1, PExpr.map_admissible b h.2.1 he.2, h.2.2⟩
  | .addAssign a b, h, he => by
    simp only [PExpr.map, PExpr.Admissible, SExpr.map_degrees, PExpr.map_degrees]
    exact ⟨PExpr.map_admissible a h.1 he.1, PExpr.map_admissible b h.2.1 he.2, h.2.2⟩
  | .sub a b, h, he => by
    simp only [PExpr.map, PExpr.Admissible, SExpr.map_degrees, PExpr.map_degrees]
    exact ⟨PExpr.map_admissible a h.1 he.1, PExpr.map_admissible b h.2.1 he.2, h.2.2⟩
  | .subAssign a b, h, he => by
    simp only [PExpr.map, PExpr.Admissible, SExpr.map_degrees, PExpr.map_degrees]
    exact ⟨PExpr.map_admissible a h.1 he.1, PExpr.map_admissible b h.2.1 he.2, h.2.2⟩
  | .neg a, h, he => by
    simp only [PExpr.map, PExpr.Admissible, SExpr.map_degrees, PExpr.map_degrees]
    exact PExpr.map_admissible a h he
  | .scale a _, h, he => by
    simp only [PExpr.map, PExpr.Admissible, SExpr.map_degrees, PExpr.map_degrees]
    exact PExpr.map_admissible a h he
  | .addPoint a _, h, he => by
    simp only [PExpr.map, PExpr.Admissible, SExpr.map_degrees, PExpr.map_degrees]
    exact PExpr.map_admissible a h he
  | .subPoint a _, h, he => by
    simp only [PExpr.map, PExpr.Admissible, SExpr.map_degrees, PExpr.map_degrees]
    exact PExpr.map_admissible a h he
  | .pointSub _ a, h, he => by
    simp only [PExpr.map, PExpr.Admissible, SExpr.map_degrees, PExpr.map_degrees]
    exact PExpr.map_admissible a h he
  | .splitLeft a _ _, h, he => by
    simp only [PExpr.map, PExpr.Admissible, SExpr.map_degrees, PExpr.map_degrees]
    exact ⟨PExpr.map_admissible a h.1 he.1, h.2, he.2⟩
  | .splitRight a _ _, h, he => by
    simp only [PExpr.map, PExpr.Admissible, SExpr.map_degrees, PExpr.map_degrees]
    exact ⟨PExpr.map_admissible a h.1 he.1, h.2, he.2⟩
  | .splitPart _ _ _ _, _, he => he.elim
  | .compose _ _, _, he => he.elim
  | .composeScalar _ _, _, he => he.elim
  | .elevate a _, h, he => by
    simp only [PExpr.map, PExpr.Admissible, SExpr.map_degrees, PExpr.map_degrees]
    exact ⟨PExpr.map_admissible a h.1 he, h.2⟩
  | .deriv a _, h, he => by
    simp only [PExpr.map, PExpr.Admissible, SExpr.map_degrees, PExpr.map_degrees]
    exact ⟨PExpr.map_admissible a h.1 he, h.2⟩
  | .mulLeft a b, h, he => by
    simp only [PExpr.map, PExpr.Admissible, SExpr.map_degrees, PExpr.map_degrees]
    exact ⟨SExpr.map_admissible a h.1 he.1, PExpr.map_admissible b h.2.1 he.2, h.2.2⟩
  | .mulRight a b, h, he => by
    simp only [PExpr.map, PExpr.Admissible, SExpr.map_degrees, PExpr.map_degrees]
    exact ⟨PExpr.map_admissible a h.1 he.1, SExpr.map_admissible b h.2.1 he.2, h.2.2⟩

end
end

end Bezman
