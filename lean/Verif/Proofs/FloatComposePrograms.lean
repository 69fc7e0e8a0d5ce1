import Verif.Props.FloatCompose

set_option linter.unusedSectionVars false

/-! # Rounding errors of programs with compositions -/

namespace Bezman
open Spec
variable {A : FloatArith} {n : ℕ}

theorem ApproxRuns.ifReturn {ds k M} {x : Bezman.M (Spline (Fl A))} {y : Bezman.M (Spline ℝ)} (h : ApproxRuns ds k M x y) :
    ApproxIfReturn ds k M x y := by
  obtain ⟨r, r', rfl, rfl, h⟩ := h
  intro _ _ e e'
  cases e; cases e'
  exact h

theorem ApproxRunsPoints.ifReturn {ds k} {M : Fin n → ℝ} {x : Bezman.M (Spline (Point (Fl A) n))} {y : Bezman.M (Spline (Point ℝ n))}
    (h : ApproxRunsPoints ds k M x y) : ApproxIfReturnPoints ds k M x y := by
  obtain ⟨r, r', rfl, rfl, h⟩ := h
  intro _ _ e e'
  cases e; cases e'
  exact h

theorem ApproxIfReturn.bind₁ {ds k M} {x : Bezman.M (Spline (Fl A))} {y : Bezman.M (Spline ℝ)} (h : ApproxIfReturn ds k M x y)
    {ds' k' M'} {f : Spline (Fl A) → Bezman.M (Spline (Fl A))} {g : Spline ℝ → Bezman.M (Spline ℝ)}
    (hf : ∀ r r', r.Approx ds k M r' → ApproxIfReturn ds' k' M' (f r) (g r')) : ApproxIfReturn ds' k' M' (x >>= f) (y >>= g) := by
  intro r r' e e'
  obtain ⟨_, e1, e⟩ := bind_eq_ok.mp e
  obtain ⟨_, e1', e'⟩ := bind_eq_ok.mp e'
  exact hf _ _ (h _ _ e1 e1') _ _ e e'

theorem ApproxIfReturn.bind₂ {ds k M} {x : Bezman.M (Spline (Fl A))} {y : Bezman.M (Spline ℝ)} (h : ApproxIfReturn ds k M x y)
    {ds' k'} {M' : Fin n → ℝ} {f : Spline (Fl A) → Bezman.M (Spline (Point (Fl A) n))} {g : Spline ℝ → Bezman.M (Spline (Point ℝ n))}
    (hf : ∀ r r', r.Approx ds k M r' → ApproxIfReturnPoints ds' k' M' (f r) (g r')) : ApproxIfReturnPoints ds' k' M' (x >>= f) (y >>= g) := by
  intro r r' e e'
  obtain ⟨_, e1, e⟩ := bind_eq_ok.mp e
  obtain ⟨_, e1', e'⟩ := bind_eq_ok.mp e'
  exact hf _ _ (h _ _ e1 e1') _ _ e e'

theorem ApproxIfReturnPoints.bind₁ {ds k} {M : Fin n → ℝ} {x : Bezman.M (Spline (Point (Fl A) n))} {y : Bezman.M (Spline (Point ℝ n))}
    (h : ApproxIfReturnPoints ds k M x y)
    {ds' k' M'} {f : Spline (Point (Fl A) n) → Bezman.M (Spline (Fl A))} {g : Spline (Point ℝ n) → Bezman.M (Spline ℝ)}
    (hf : ∀ r r', r.ApproxPoints ds k M r' → ApproxIfReturn ds' k' M' (f r) (g r')) : ApproxIfReturn ds' k' M' (x >>= f) (y >>= g) := by
  intro r r' e e'
  obtain ⟨_, e1, e⟩ := bind_eq_ok.mp e
  obtain ⟨_, e1', e'⟩ := bind_eq_ok.mp e'
  exact hf _ _ (h _ _ e1 e1') _ _ e e'

theorem ApproxIfReturnPoints.bind₂ {ds k} {M : Fin n → ℝ} {x : Bezman.M (Spline (Point (Fl A) n))} {y : Bezman.M (Spline (Point ℝ n))}
    (h : ApproxIfReturnPoints ds k M x y)
    {ds' k'} {M' : Fin n → ℝ} {f : Spline (Point (Fl A) n) → Bezman.M (Spline (Point (Fl A) n))}
    {g : Spline (Point ℝ n) → Bezman.M (Spline (Point ℝ n))}
    (hf : ∀ r r', r.ApproxPoints ds k M r' → ApproxIfReturnPoints ds' k' M' (f r) (g r')) : ApproxIfReturnPoints ds' k' M' (x >>= f) (y >>= g) := by
  intro r r' e e'
  obtain ⟨_, e1, e⟩ := bind_eq_ok.mp e
  obtain ⟨_, e1', e'⟩ := bind_eq_ok.mp e'
  exact hf _ _ (h _ _ e1 e1') _ _ e e'

theorem fits_of_compose {K V W : Type} [Zero K] [One K] [Add K] [Sub K] [Mul K] [Neg K] [Div K] [NatCast K] [Zero V] [Add V] [SMul K V]
    [Coords K W] [LT K] [DecidableLT K] {cfg : Cfg} {s r : Spline V} {i : Spline W} (h : Spline.compose K cfg s i = .ok r) :
    Spline.fitsIntoUnitCube K i = .ok true := by
  unfold Spline.compose at h
  obtain ⟨b, hb, h⟩ := bind_eq_ok.mp h
  cases b
  · cases h
  · exact hb

section
variable {cfg : Cfg} (hη : A.η = 0) (hu : A.u ≤ 1 / 2) (hmax : cfg.maxBinom ≤ 68) {dO dI : List ℕ} {k kI m : ℕ}
include hη hu hmax

theorem compose_near_SP {M : ℝ} {b : Fin m → ℝ} {s : Spline (Fl A)} {s' : Spline ℝ} {i : Spline (Point (Fl A) m)} {i' : Spline (Point ℝ m)}
    (h : s.Approx dO k M s') (hi : i.ApproxPoints dI kI b i') (hdim : dO.length = m) (hdeg : ∀ p ∈ dO, p < cfg.maxBinom)
    (hdeg' : ∀ q ∈ dI, dO.sum * q < cfg.maxBinom) :
    ApproxIfReturn (dI.map (fun q => dO.sum * q)) (composeRoundings dO dI k kI) ((2 * largest b) ^ dO.sum * M) (Spline.compose (Fl A) cfg s i)
      (Spline.compose ℝ cfg s' i') := fun r r' e e' =>
  ((Props.C87_compose_error (n := 0) hη hu cfg hmax dO dI hdeg hdeg' i i' kI b hi hdim (fits_of_compose e) (fits_of_compose e')).1 s s' k M
    h).ifReturn r r' e e'

theorem compose_near_SS {M b : ℝ} {s i : Spline (Fl A)} {s' i' : Spline ℝ}
    (h : s.Approx dO k M s') (hi : i.Approx dI kI b i') (hdim : dO.length = 1) (hdeg : ∀ p ∈ dO, p < cfg.maxBinom)
    (hdeg' : ∀ q ∈ dI, dO.sum * q < cfg.maxBinom) :
    ApproxIfReturn (dI.map (fun q => dO.sum * q)) (composeRoundings dO dI k kI) ((2 * max 1 b) ^ dO.sum * M) (Spline.compose (Fl A) cfg s i)
      (Spline.compose ℝ cfg s' i') := fun r r' e e' =>
  ((Props.C87_compose_error_scalar (n := 0) hη hu cfg hmax dO dI hdeg hdeg' i i' kI b hi hdim (fits_of_compose e) (fits_of_compose e')).1 s s' k M
    h).ifReturn r r' e e'

theorem compose_near_PP {M : Fin n → ℝ} {b : Fin m → ℝ} {s : Spline (Point (Fl A) n)} {s' : Spline (Point ℝ n)} {i : Spline (Point (Fl A) m)}
    {i' : Spline (Point ℝ m)} (h : s.ApproxPoints dO k M s') (hi : i.ApproxPoints dI kI b i') (hdim : dO.length = m)
    (hdeg : ∀ p ∈ dO, p < cfg.maxBinom) (hdeg' : ∀ q ∈ dI, dO.sum * q < cfg.maxBinom) :
    ApproxIfReturnPoints (dI.map (fun q => dO.sum * q)) (composeRoundings dO dI k kI) (fun c => (2 * largest b) ^ dO.sum * M c)
      (Spline.compose (Fl A) cfg s i) (Spline.compose ℝ cfg s' i') := fun r r' e e' =>
  ((Props.C87_compose_error hη hu cfg hmax dO dI hdeg hdeg' i i' kI b hi hdim (fits_of_compose e) (fits_of_compose e')).2 s s' k M
    h).ifReturn r r' e e'

theorem compose_near_PS {M : Fin n → ℝ} {b : ℝ} {s : Spline (Point (Fl A) n)} {s' : Spline (Point ℝ n)} {i : Spline (Fl A)}
    {i' : Spline ℝ} (h : s.ApproxPoints dO k M s') (hi : i.Approx dI kI b i') (hdim : dO.length = 1)
    (hdeg : ∀ p ∈ dO, p < cfg.maxBinom) (hdeg' : ∀ q ∈ dI, dO.sum * q < cfg.maxBinom) :
    ApproxIfReturnPoints (dI.map (fun q => dO.sum * q)) (composeRoundings dO dI k kI) (fun c => (2 * max 1 b) ^ dO.sum * M c)
      (Spline.compose (Fl A) cfg s i) (Spline.compose ℝ cfg s' i') := fun r r' e e' =>
  ((Props.C87_compose_error_scalar hη hu cfg hmax dO dI hdeg hdeg' i i' kI b hi hdim (fits_of_compose e) (fits_of_compose e')).2 s s' k M
    h).ifReturn r r' e e'
end

section
variable {cfg : Cfg} {σ : Vars (Fl A) n} {ds dp : ℕ → List ℕ} {bs : ℕ → ℝ} {bp : ℕ → Fin n → ℝ}

mutual
theorem SExpr.run_near (hη : A.η = 0) (hu : A.u ≤ 1 / 2) (hmax : cfg.maxBinom ≤ 68)
    (hs : ∀ i, (σ.s i).Approx (ds i) 0 (bs i) ((σ.s i).map Fl.val))
    (hp : ∀ i, (σ.p i).ApproxPoints (dp i) 0 (bp i) ((σ.p i).map (Point.map Fl.val))) :
    ∀ e : SExpr (Fl A) n, e.WellShaped cfg ds dp → e.SingleSplits →
      ApproxIfReturn (e.shape ds dp) (e.roundings ds dp) (e.bound ds dp bs bp) (e.run cfg σ) ((e.map Fl.val).run cfg (σ.map Fl.val))
  | .leaf i, _, _ => ApproxRuns.ifReturn ⟨_, _, rfl, rfl, hs i⟩
  | .add a b, h, he => by
    simp only [SExpr.run, SExpr.shape, SExpr.map, SExpr.roundings, SExpr.bound]
    exact (SExpr.run_near hη hu hmax hs hp a h.1 he.1).bind₁ fun x x' hx =>
      (SExpr.run_near hη hu hmax hs hp b h.2.1 he.2).bind₁ fun y y' hy => (Spline.Approx.add hη hu hx hy h.2.2).ifReturn
  | .addAssign a b, h, he => by
    simp only [SExpr.run, SExpr.shape, SExpr.map, SExpr.roundings, SExpr.bound]
    exact (SExpr.run_near hη hu hmax hs hp a h.1 he.1).bind₁ fun x x' hx =>
      (SExpr.run_near hη hu hmax hs hp b h.2.1 he.2).bind₁ fun y y' hy => (Spline.Approx.addAssign hη hu hx hy h.2.2).ifReturn
  | .subAssign a b, h, he => by
    simp only [SExpr.run, SExpr.shape, SExpr.map, SExpr.roundings, SExpr.bound]
    exact (SExpr.run_near hη hu hmax hs hp a h.1 he.1).bind₁ fun x x' hx =>
      (SExpr.run_near hη hu hmax hs hp b h.2.1 he.2).bind₁ fun y y' hy => (Spline.Approx.subAssign hη hu hx hy h.2.2).ifReturn
  | .sub a b, h, he => by
    simp only [SExpr.run, SExpr.shape, SExpr.map, SExpr.roundings, SExpr.bound]
    exact (SExpr.run_near hη hu hmax hs hp a h.1 he.1).bind₁ fun x x' hx =>
      (SExpr.run_near hη hu hmax hs hp b h.2.1 he.2).bind₁ fun y y' hy => (Spline.Approx.sub hη hu hx hy h.2.2.1 h.2.2.2).ifReturn
  | .neg a, h, he => by
    simp only [SExpr.run, SExpr.shape, SExpr.map, SExpr.roundings, SExpr.bound]
    exact (SExpr.run_near hη hu hmax hs hp a h he).bind₁ fun x x' hx => (Spline.Approx.neg hx).ifReturn
  | .scale a c, h, he => by
    simp only [SExpr.run, SExpr.shape, SExpr.map, SExpr.roundings, SExpr.bound]
    exact (SExpr.run_near hη hu hmax hs hp a h he).bind₁ fun x x' hx => (Spline.Approx.scale hη hx c).ifReturn
  | .addPoint a v, h, he => by
    simp only [SExpr.run, SExpr.shape, SExpr.map, SExpr.roundings, SExpr.bound]
    exact (SExpr.run_near hη hu hmax hs hp a h he).bind₁ fun x x' hx => (Spline.Approx.addPoint hx v).ifReturn
  | .subPoint a v, h, he => by
    simp only [SExpr.run, SExpr.shape, SExpr.map, SExpr.roundings, SExpr.bound]
    exact (SExpr.run_near hη hu hmax hs hp a h he).bind₁ fun x x' hx => (Spline.Approx.subPoint hx v).ifReturn
  | .pointSub v a, h, he => by
    simp only [SExpr.run, SExpr.shape, SExpr.map, SExpr.roundings, SExpr.bound]
    exact (SExpr.run_near hη hu hmax hs hp a h he).bind₁ fun x x' hx => (Spline.Approx.pointSub hx v).ifReturn
  | .elevate a d, h, he => by
    simp only [SExpr.run, SExpr.shape, SExpr.map, SExpr.roundings, SExpr.bound]
    exact (SExpr.run_near hη hu hmax hs hp a h.1 he).bind₁ fun x x' hx => (Spline.Approx.elevate hη hu hx h.2.1 h.2.2).ifReturn
  | .splitLeft a z d, h, he => by
    simp only [SExpr.run, SExpr.shape, SExpr.map, SExpr.roundings, SExpr.bound]
    refine (SExpr.run_near hη hu hmax hs hp a h.1 he.1).bind₁ fun x x' hx => ?_
    obtain ⟨l, r, l', r', e, e', hl, hr⟩ := Spline.Approx.split hη hx (d := d) (p := (a.shape ds dp).getD d 0) (by simp [h.2]) he.2.1 he.2.2
    rw [e, e']
    exact ApproxRuns.ifReturn ⟨_, _, rfl, rfl, hl⟩
  | .splitRight a z d, h, he => by
    simp only [SExpr.run, SExpr.shape, SExpr.map, SExpr.roundings, SExpr.bound]
    refine (SExpr.run_near hη hu hmax hs hp a h.1 he.1).bind₁ fun x x' hx => ?_
    obtain ⟨l, r, l', r', e, e', hl, hr⟩ := Spline.Approx.split hη hx (d := d) (p := (a.shape ds dp).getD d 0) (by simp [h.2]) he.2.1 he.2.2
    rw [e, e']
    exact ApproxRuns.ifReturn ⟨_, _, rfl, rfl, hr⟩
  | .splitPart _ _ _ _, _, he => he.elim
  | .compose a b, h, he => by
    simp only [SExpr.run, SExpr.shape, SExpr.map, SExpr.roundings, SExpr.bound]
    exact (SExpr.run_near hη hu hmax hs hp a h.1 he.1).bind₁ fun x x' hx => (PExpr.run_near hη hu hmax hs hp b h.2.1 he.2).bind₁ fun y y' hy =>
      compose_near_SP hη hu hmax hx hy h.2.2.1 h.2.2.2.1 h.2.2.2.2
  | .composeScalar a b, h, he => by
    simp only [SExpr.run, SExpr.shape, SExpr.map, SExpr.roundings, SExpr.bound]
    exact (SExpr.run_near hη hu hmax hs hp a h.1 he.1).bind₁ fun x x' hx => (SExpr.run_near hη hu hmax hs hp b h.2.1 he.2).bind₁ fun y y' hy =>
      compose_near_SS hη hu hmax hx hy h.2.2.1 h.2.2.2.1 h.2.2.2.2
  | .deriv a o, h, he => by
    simp only [SExpr.run, SExpr.shape, SExpr.map, SExpr.roundings, SExpr.bound]
    exact (SExpr.run_near hη hu hmax hs hp a h.1 he).bind₁ fun x x' hx => (Spline.Approx.deriv hη hx hmax h.2.1 h.2.2.1 h.2.2.2.1 h.2.2.2.2).ifReturn
  | .mul a b, h, he => by
    simp only [SExpr.run, SExpr.shape, SExpr.map, SExpr.roundings, SExpr.bound]
    exact (SExpr.run_near hη hu hmax hs hp a h.1 he.1).bind₁ fun x x' hx =>
      (SExpr.run_near hη hu hmax hs hp b h.2.1 he.2).bind₁ fun y y' hy => (Spline.Approx.mul hη hu hmax h.2.2.1 h.2.2.2 hx hy).ifReturn
  | .dot a b, h, he => by
    simp only [SExpr.run, SExpr.shape, SExpr.map, SExpr.roundings, SExpr.bound]
    exact (PExpr.run_near hη hu hmax hs hp a h.1 he.1).bind₁ fun x x' hx =>
      (PExpr.run_near hη hu hmax hs hp b h.2.1 he.2).bind₁ fun y y' hy => (Spline.ApproxPoints.dot hη hu hmax h.2.2.1 h.2.2.2 hx hy).ifReturn
  | .power a k, h, he => by
    simp only [SExpr.run, SExpr.shape, SExpr.map, SExpr.roundings, SExpr.bound]
    exact (SExpr.run_near hη hu hmax hs hp a h.1 he).bind₁ fun x x' hx => (Spline.Approx.power hη hu hmax hx k h.2).ifReturn
  | .extract a j, h, he => by
    simp only [SExpr.run, SExpr.shape, SExpr.map, SExpr.roundings, SExpr.bound]
    rw [dif_pos h.2]
    exact (PExpr.run_near hη hu hmax hs hp a h.1 he).bind₁ fun x x' hx => (Spline.ApproxPoints.extract hx ⟨j, h.2⟩).ifReturn

theorem PExpr.run_near (hη : A.η = 0) (hu : A.u ≤ 1 / 2) (hmax : cfg.maxBinom ≤ 68)
    (hs : ∀ i, (σ.s i).Approx (ds i) 0 (bs i) ((σ.s i).map Fl.val))
    (hp : ∀ i, (σ.p i).ApproxPoints (dp i) 0 (bp i) ((σ.p i).map (Point.map Fl.val))) :
    ∀ e : PExpr (Fl A) n, e.WellShaped cfg ds dp → e.SingleSplits →
      ApproxIfReturnPoints (e.shape ds dp) (e.roundings ds dp) (e.bound ds dp bs bp) (e.run cfg σ) ((e.map Fl.val).run cfg (σ.map Fl.val))
  | .leaf i, _, _ => ApproxRunsPoints.ifReturn ⟨_, _, rfl, rfl, hp i⟩
  | .add a b, h, he => by
    simp only [PExpr.run, PExpr.shape, PExpr.map, PExpr.roundings, PExpr.bound]
    exact (PExpr.run_near hη hu hmax hs hp a h.1 he.1).bind₂ fun x x' hx =>
      (PExpr.run_near hη hu hmax hs hp b h.2.1 he.2).bind₂ fun y y' hy => (Spline.ApproxPoints.add hη hu hx hy h.2.2).ifReturn
  | .addAssign a b, h, he => by
    simp only [PExpr.run, PExpr.shape, PExpr.map, PExpr.roundings, PExpr.bound]
    exact (PExpr.run_near hη hu hmax hs hp a h.1 he.1).bind₂ fun x x' hx =>
      (PExpr.run_near hη hu hmax hs hp b h.2.1 he.2).bind₂ fun y y' hy => (Spline.ApproxPoints.addAssign hη hu hx hy h.2.2).ifReturn
  | .subAssign a b, h, he => by
    simp only [PExpr.run, PExpr.shape, PExpr.map, PExpr.roundings, PExpr.bound]
    exact (PExpr.run_near hη hu hmax hs hp a h.1 he.1).bind₂ fun x x' hx =>
      (PExpr.run_near hη hu hmax hs hp b h.2.1 he.2).bind₂ fun y y' hy => (Spline.ApproxPoints.subAssign hη hu hx hy h.2.2).ifReturn
  | .sub a b, h, he => by
    simp only [PExpr.run, PExpr.shape, PExpr.map, PExpr.roundings, PExpr.bound]
    exact (PExpr.run_near hη hu hmax hs hp a h.1 he.1).bind₂ fun x x' hx =>
      (PExpr.run_near hη hu hmax hs hp b h.2.1 he.2).bind₂ fun y y' hy => (Spline.ApproxPoints.sub hη hu hx hy h.2.2.1 h.2.2.2).ifReturn
  | .neg a, h, he => by
    simp only [PExpr.run, PExpr.shape, PExpr.map, PExpr.roundings, PExpr.bound]
    exact (PExpr.run_near hη hu hmax hs hp a h he).bind₂ fun x x' hx => (Spline.ApproxPoints.neg hx hη).ifReturn
  | .scale a c, h, he => by
    simp only [PExpr.run, PExpr.shape, PExpr.map, PExpr.roundings, PExpr.bound]
    exact (PExpr.run_near hη hu hmax hs hp a h he).bind₂ fun x x' hx => (Spline.ApproxPoints.scale hη hx c).ifReturn
  | .addPoint a v, h, he => by
    simp only [PExpr.run, PExpr.shape, PExpr.map, PExpr.roundings, PExpr.bound]
    exact (PExpr.run_near hη hu hmax hs hp a h he).bind₂ fun x x' hx => (Spline.ApproxPoints.addPoint hx v).ifReturn
  | .subPoint a v, h, he => by
    simp only [PExpr.run, PExpr.shape, PExpr.map, PExpr.roundings, PExpr.bound]
    exact (PExpr.run_near hη hu hmax hs hp a h he).bind₂ fun x x' hx => (Spline.ApproxPoints.subPoint hx v).ifReturn
  | .pointSub v a, h, he => by
    simp only [PExpr.run, PExpr.shape, PExpr.map, PExpr.roundings, PExpr.bound]
    exact (PExpr.run_near hη hu hmax hs hp a h he).bind₂ fun x x' hx => (Spline.ApproxPoints.pointSub hx hη v).ifReturn
  | .elevate a d, h, he => by
    simp only [PExpr.run, PExpr.shape, PExpr.map, PExpr.roundings, PExpr.bound]
    exact (PExpr.run_near hη hu hmax hs hp a h.1 he).bind₂ fun x x' hx => (Spline.ApproxPoints.elevate hη hu hx h.2.1 h.2.2).ifReturn
  | .splitLeft a z d, h, he => by
    simp only [PExpr.run, PExpr.shape, PExpr.map, PExpr.roundings, PExpr.bound]
    refine (PExpr.run_near hη hu hmax hs hp a h.1 he.1).bind₂ fun x x' hx => ?_
    obtain ⟨l, r, l', r', e, e', hl, hr⟩ := Spline.ApproxPoints.split hη hx (d := d) (p := (a.shape ds dp).getD d 0) (by simp [h.2]) he.2.1 he.2.2
    rw [e, e']
    exact ApproxRunsPoints.ifReturn ⟨_, _, rfl, rfl, hl⟩
  | .splitRight a z d, h, he => by
    simp only [PExpr.run, PExpr.shape, PExpr.map, PExpr.roundings, PExpr.bound]
    refine (PExpr.run_near hη hu hmax hs hp a h.1 he.1).bind₂ fun x x' hx => ?_
    obtain ⟨l, r, l', r', e, e', hl, hr⟩ := Spline.ApproxPoints.split hη hx (d := d) (p := (a.shape ds dp).getD d 0) (by simp [h.2]) he.2.1 he.2.2
    rw [e, e']
    exact ApproxRunsPoints.ifReturn ⟨_, _, rfl, rfl, hr⟩
  | .splitPart _ _ _ _, _, he => he.elim
  | .compose a b, h, he => by
    simp only [PExpr.run, PExpr.shape, PExpr.map, PExpr.roundings, PExpr.bound]
    exact (PExpr.run_near hη hu hmax hs hp a h.1 he.1).bind₂ fun x x' hx => (PExpr.run_near hη hu hmax hs hp b h.2.1 he.2).bind₂ fun y y' hy =>
      compose_near_PP hη hu hmax hx hy h.2.2.1 h.2.2.2.1 h.2.2.2.2
  | .composeScalar a b, h, he => by
    simp only [PExpr.run, PExpr.shape, PExpr.map, PExpr.roundings, PExpr.bound]
    exact (PExpr.run_near hη hu hmax hs hp a h.1 he.1).bind₂ fun x x' hx => (SExpr.run_near hη hu hmax hs hp b h.2.1 he.2).bind₂ fun y y' hy =>
      compose_near_PS hη hu hmax hx hy h.2.2.1 h.2.2.2.1 h.2.2.2.2
  | .deriv a o, h, he => by
    simp only [PExpr.run, PExpr.shape, PExpr.map, PExpr.roundings, PExpr.bound]
    exact (PExpr.run_near hη hu hmax hs hp a h.1 he).bind₂ fun x x' hx => (Spline.ApproxPoints.deriv hη hx hmax h.2.1 h.2.2.1 h.2.2.2.1 h.2.2.2.2).ifReturn
  | .mulLeft a b, h, he => by
    simp only [PExpr.run, PExpr.shape, PExpr.map, PExpr.roundings, PExpr.bound]
    exact (SExpr.run_near hη hu hmax hs hp a h.1 he.1).bind₂ fun x x' hx =>
      (PExpr.run_near hη hu hmax hs hp b h.2.1 he.2).bind₂ fun y y' hy => (Spline.Approx.mulLeft hη hu hmax h.2.2.1 h.2.2.2 hx hy).ifReturn
  | .mulRight a b, h, he => by
    simp only [PExpr.run, PExpr.shape, PExpr.map, PExpr.roundings, PExpr.bound]
    exact (PExpr.run_near hη hu hmax hs hp a h.1 he.1).bind₂ fun x x' hx =>
      (SExpr.run_near hη hu hmax hs hp b h.2.1 he.2).bind₂ fun y y' hy => (Spline.ApproxPoints.mulRight hη hu hmax h.2.2.1 h.2.2.2 hx hy).ifReturn
end
end

end Bezman
