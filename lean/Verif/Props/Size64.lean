import Verif.Proofs.Size64
import Verif.Proofs.ReleaseOnly
import Verif.Props.RationalDeriv

set_option linter.unusedSectionVars false

/-! # Properties: derivatives of a rational spline that is constant in a direction

`RSpline.derivativeSpline64` is `DerivativeWRTParametricDimension` of a rational spline with the sums and products of `size_t`
taken modulo `2^64`, as the machine takes them. -/

namespace Bezman.Props
open Spec

section
variable {K V : Type} [Zero K] [One K] [Add K] [Sub K] [Mul K] [Neg K] [Div K] [NatCast K]
  [Zero V] [Add V] [Sub V] [Neg V] [SMul K V]

/-- C117 is false of the code. If the spline has degree zero in a direction that is differentiated, the derivative, which is the
zero function, is not returned: the call divides an integer by zero. In any arithmetic. -/
theorem C117_fails (cfg : Cfg) (hmax : cfg.maxBinom ≤ 68) (r : RSpline K V) (ds : List ℕ) (h : HasRShape ds r) (orders : List ℕ)
    (hl : orders.length = ds.length) (hfit : DerivFits cfg ds orders.sum) (d o : ℕ) (hd : ds[d]? = some 0) (ho : orders[d]? = some o)
    (ho1 : 1 ≤ o) : r.derivativeSpline64 cfg orders = .error .ub := by
  classical
  -- the first such direction
  have hex : ∃ e, ∃ o, ds[e]? = some 0 ∧ orders[e]? = some o ∧ 1 ≤ o := ⟨d, o, hd, ho, ho1⟩
  obtain ⟨o', hd', ho', ho1'⟩ := Nat.find_spec hex
  have hmin := fun m hm => Nat.find_min hex (m := m) hm
  set e := Nat.find hex with he
  obtain ⟨hel, _⟩ := List.getElem?_eq_some_iff.mp hd'
  have hdim : r.dim = ds.length := by unfold RSpline.dim Spline.dim; first | rw [h.1.2] | rw [h.2.2]
  obtain ⟨q, -, e2, s⟩ := RSpline.derivativeLoop64_eq hmax h hl hfit e (by omega) (by
    intro d o p hde h1 h2 h3
    by_contra hp
    obtain rfl : p = 0 := by omega
    exact hmin d hde ⟨o, h2, h1, h3⟩)
  unfold RSpline.derivativeSpline64
  rw [hdim]
  refine Spline.loop_error_mono (k := e + 1) ?_ (by omega)
  rw [loop_succ, e2, bind_ok, rd_ok ho', bind_ok]
  obtain ⟨m, rfl⟩ : ∃ m, o' = m + 1 := ⟨o' - 1, by omega⟩
  exact loop_error_first (RSpline.derivativeStep64_wrap (by have := hfit.rounds2; omega) s (by simp [hd'])) m

/-- C117, what holds: if the spline has a positive degree in every direction that is differentiated, nothing wraps around, and the
call returns what C41 and C81 say. -/
theorem C117_positive_degrees_partial (cfg : Cfg) (hmax : cfg.maxBinom ≤ 68) (r : RSpline K V) (ds : List ℕ) (h : HasRShape ds r)
    (orders : List ℕ) (hl : orders.length = ds.length) (hfit : DerivFits cfg ds orders.sum)
    (hpos : ∀ d o p : ℕ, orders[d]? = some o → ds[d]? = some p → 1 ≤ o → 1 ≤ p) :
    r.derivativeSpline64 cfg orders = r.derivativeSpline cfg orders ∧
      RReturns (ds.map (· * 2 ^ orders.sum)) (r.derivativeSpline64 cfg orders) := by
  have hdim : r.dim = ds.length := by unfold RSpline.dim Spline.dim; first | rw [h.1.2] | rw [h.2.2]
  obtain ⟨q, e1, e2, s⟩ := RSpline.derivativeLoop64_eq hmax h hl hfit ds.length le_rfl (fun d o p _ => hpos d o p)
  rw [← hl, List.take_length] at s
  unfold RSpline.derivativeSpline64 RSpline.derivativeSpline
  rw [hdim, e1, e2]
  exact ⟨rfl, q, rfl, s⟩

/-- C117. The call returns exactly if the spline has a positive degree in every direction that is differentiated. -/
theorem C117_returns_iff (cfg : Cfg) (hmax : cfg.maxBinom ≤ 68) (r : RSpline K V) (ds : List ℕ) (h : HasRShape ds r) (orders : List ℕ)
    (hl : orders.length = ds.length) (hfit : DerivFits cfg ds orders.sum) :
    (∃ r', r.derivativeSpline64 cfg orders = .ok r') ↔ ∀ d o p : ℕ, orders[d]? = some o → ds[d]? = some p → 1 ≤ o → 1 ≤ p := by
  constructor
  · rintro ⟨r', e⟩ d o p ho hp h1
    by_contra hlt
    obtain rfl : p = 0 := by omega
    rw [C117_fails cfg hmax r ds h orders hl hfit d o hp ho h1] at e
    cases e
  · intro hpos
    obtain ⟨-, r', e, -⟩ := C117_positive_degrees_partial cfg hmax r ds h orders hl hfit hpos
    exact ⟨r', e⟩

/-- C117. The same for a single spline: the first derivative in a direction of degree zero is returned, without control points, and
raising its degree in that direction divides an integer by zero. -/
theorem C117_elevate_fails (cfg : Cfg) (s : Spline V) (ds : List ℕ) (h : HasShape ds s) (d : ℕ) (hd : ds[d]? = some 0) :
    ∃ s', Spline.derivativeSpline K cfg s ((List.replicate ds.length 0).set d 1) = .ok s' ∧ s'.cps = [] ∧
      Spline.orderElevate64 K s' d = .error .ub := by
  obtain ⟨hdl, _⟩ := List.getElem?_eq_some_iff.mp hd
  obtain ⟨s', e, e1, _, e3, e4⟩ := Spline.derivativeSpline_zero (K := K) (cfg := cfg) h hd
  exact ⟨s', e, e3, Spline.orderElevate64_wrap (by rw [e1]; simp [hdl]) (by rw [e4, e1]; simp)⟩

end

/-! ## The derivative exists and is zero -/

theorem bezier_set_zero {K V : Type} [CommRing K] [AddCommMonoid V] [Module K V] : ∀ {ps : List ℕ} {d : ℕ} (_ : ps[d]? = some 0) (ts : List K)
    (x : K) (P : List ℕ → V), bezier ps (ts.set d x) P = bezier ps ts P
  | [], d, h, _, _, _ => by simp at h
  | p :: ps, 0, h, [], x, P => rfl
  | p :: ps, 0, h, t :: ts, x, P => by
    simp at h; subst h
    simp [bezier, bern]
  | p :: ps, d + 1, h, [], x, P => rfl
  | p :: ps, d + 1, h, t :: ts, x, P => by
    simp only [List.set_cons_succ, bezier]
    refine Finset.sum_congr rfl fun i _ => ?_
    rw [bezier_set_zero (by simpa using h)]

section
variable {𝕜 V : Type} [NontriviallyNormedField 𝕜] [NormedAddCommGroup V] [NormedSpace 𝕜 V]

theorem pderiv_constant : ∀ (ks : List ℕ) (d k : ℕ) (_ : ks[d]? = some k) (_ : 1 ≤ k) (f : List 𝕜 → V) (_ : ∀ t x, f (t.set d x) = f t)
    (t : List 𝕜) (_ : t.length = ks.length), pderiv ks f t = 0
  | [], d, k, h, _, _, _, _, _ => by simp at h
  | k' :: ks, 0, k, h, hk, f, hf, t :: ts, ht => by
    simp at h; subst h
    have : (fun x => pderiv ks (fun xs => f (x :: xs)) ts) = fun _ => pderiv ks (fun xs => f (t :: xs)) ts := by
      funext x
      congr 1
      funext xs
      exact hf (t :: xs) x
    simp only [pderiv]
    rw [this, iteratedDeriv_const, if_neg (by omega)]
  | k' :: ks, d + 1, k, h, hk, f, hf, t :: ts, ht => by
    have : (fun x => pderiv ks (fun xs => f (x :: xs)) ts) = fun _ => (0 : V) := by
      funext x
      exact pderiv_constant ks d k (by simpa using h) hk _ (fun xs y => hf (x :: xs) y) ts (by simpa using ht)
    simp only [pderiv]
    rw [this, iteratedDeriv_const]
    split <;> rfl
  | _ :: _, _, _, _, _, _, _, [], ht => by simp at ht

variable [DecidableEq 𝕜] [ScalarDiv 𝕜 V] [LawfulScalarDiv 𝕜 V] [CharZero 𝕜]

/-- C117. What the derivative spline should be: the derivative is zero, and `EvaluateDerivative` returns zero, wherever the weight is
not zero. -/
theorem C117_evaluate_zero (cfg : Cfg) (hmax : cfg.maxBinom ≤ 68) (r : RSpline 𝕜 V) (ds : List ℕ) (f : List 𝕜 → V)
    (w : List 𝕜 → 𝕜) (hr : r.Computes ds f w) (hdeg : ∀ p ∈ ds, p < cfg.maxBinom) (k : List ℕ) (hk : k.length = ds.length)
    (hord : ∀ x ∈ k, x < cfg.maxBinom) (hfit : BinomFits k) (d o : ℕ) (hd : ds[d]? = some 0) (ho : k[d]? = some o) (ho1 : 1 ≤ o)
    (t : List 𝕜) (ht : t.length = ds.length) (h0 : w t ≠ 0) :
    pderiv k f t = 0 ∧ r.evaluateDerivative cfg t k = .ok 0 := by
  have hz : pderiv k (fun t : List 𝕜 => (r.wt.value t)⁻¹ • r.num.value t) t = 0 := by
    refine pderiv_constant k d o ho ho1 _ (fun t x => ?_) t (by omega)
    unfold Spline.value
    rw [hr.num_degrees, hr.wt_degrees, bezier_set_zero hd, bezier_set_zero hd]
  have hr' : r.Computes ds (fun t : List 𝕜 => (r.wt.value t)⁻¹ • r.num.value t) (fun t => r.wt.value t) :=
    RSpline.computes_of (n := r.num) (d := r.wt) hr.num_computes (by
      have := hr.wt_wf.computes (K := 𝕜)
      rwa [hr.wt_degrees] at this)
  have hw : r.wt.value t ≠ 0 := by rw [hr.wt_value ht]; exact h0
  have e := C42_evaluate_derivative cfg hmax r ds _ _ hr' hdeg k hk hord hfit t ht hw
  have e' := C42_evaluate_derivative cfg hmax r ds f w hr hdeg k hk hord hfit t ht h0
  rw [hz] at e
  rw [e] at e'
  exact ⟨(Except.ok.inj e').symm, e⟩

end

/-! ## Examples -/

/-- a rational line that is a surface of degree (1, 0) -/
def flatLine (a b : ℚ) : RSpline ℚ ℚ := ⟨⟨[1, 0], 2, [1, 2], [a, b]⟩, ⟨[1, 0], 2, [1, 2], [1, 2]⟩⟩

theorem flatLine_shape (a b : ℚ) : HasRShape [1, 0] (flatLine a b) :=
  ⟨⟨⟨Nat.succ_pos _, rfl, rfl, rfl⟩, rfl⟩, ⟨⟨Nat.succ_pos _, rfl, rfl, rfl⟩, rfl⟩⟩

/-- its mixed derivative -/
example (a b : ℚ) : (flatLine a b).derivativeSpline64 Ex.cfg [1, 1] = .error .ub :=
  C117_fails Ex.cfg Ex.cfg_ok _ _ (flatLine_shape a b) [1, 1] rfl ⟨by decide, by decide, by decide, by decide⟩ 1 1 rfl rfl (by decide)

/-- its derivative along the line is returned -/
example (a b : ℚ) : RReturns [4, 0] ((flatLine a b).derivativeSpline64 Ex.cfg [2, 0]) :=
  (C117_positive_degrees_partial Ex.cfg Ex.cfg_ok _ _ (flatLine_shape a b) [2, 0] rfl ⟨by decide, by decide, by decide, by decide⟩ (by
    intro d o p h1 h2 h3
    rcases d with _ | _ | d
    · simp at h2; omega
    · simp at h1; omega
    · simp at h2)).2

example (a b : ℚ) : (∃ r', (flatLine a b).derivativeSpline64 Ex.cfg [1, 0] = .ok r') ↔
    ∀ d o p : ℕ, [1, 0][d]? = some o → [1, 0][d]? = some p → 1 ≤ o → 1 ≤ p :=
  C117_returns_iff Ex.cfg Ex.cfg_ok _ _ (flatLine_shape a b) [1, 0] rfl ⟨by decide, by decide, by decide, by decide⟩

/-- the derivative of a point, a curve of degree zero -/
example (a : ℚ) : ∃ s', Spline.derivativeSpline ℚ Ex.cfg ⟨[0], 1, [1], [a]⟩ [1] = .ok s' ∧ s'.cps = [] ∧
    Spline.orderElevate64 ℚ s' 0 = .error .ub :=
  C117_elevate_fails (K := ℚ) Ex.cfg ⟨[0], 1, [1], [a]⟩ [0] ⟨⟨Nat.succ_pos _, rfl, rfl, rfl⟩, rfl⟩ 0 rfl

/-- a rational surface over the reals that is constant in the second direction -/
noncomputable def flatReal (a b : Point ℝ 3) : RSpline ℝ (Point ℝ 3) := ⟨⟨[1, 0], 2, [1, 2], [a, b]⟩, ⟨[1, 0], 2, [1, 2], [1, 2]⟩⟩

theorem flatReal_computes (a b : Point ℝ 3) : (flatReal a b).Computes [1, 0]
    (fun t : List ℝ => ((flatReal a b).wt.value t)⁻¹ • (flatReal a b).num.value t) (fun t => (flatReal a b).wt.value t) :=
  RSpline.computes_of (n := (flatReal a b).num) (d := (flatReal a b).wt)
    (Spline.WF.computes (K := ℝ) (s := (flatReal a b).num) ⟨Nat.succ_pos _, rfl, rfl, rfl⟩)
    (Spline.WF.computes (K := ℝ) (s := (flatReal a b).wt) ⟨Nat.succ_pos _, rfl, rfl, rfl⟩)

example (a b : Point ℝ 3) : (flatReal a b).evaluateDerivative Ex.cfg [1 / 3, 1 / 2] [2, 1] = .ok 0 :=
  (C117_evaluate_zero Ex.cfg Ex.cfg_ok _ _ _ _ (flatReal_computes a b) (by decide) [2, 1] rfl (by decide) (by unfold BinomFits; decide)
    1 1 rfl rfl (by decide) _ rfl (by
      simp [flatReal, Spline.value, bezier, bern, Finset.sum_range_succ, flatIndex]; norm_num)).2

end Bezman.Props
