import Verif.Props.Examples
import Verif.Proofs.PropsAux
import Verif.Proofs.Deriv
import Verif.Proofs.DerivAbove
import Verif.Proofs.DerivFar
import Verif.Proofs.PointNorm
import Mathlib.Analysis.Calculus.IteratedDeriv.Lemmas
import Mathlib.Analysis.Calculus.ContDiff.Polynomial
import Mathlib.Analysis.Normed.Field.Lemmas

/-! # Properties: derivatives -/

namespace Bezman.Props
open Spec Finset Polynomial

/-! ## C04 -/

/-- C04. `BernsteinPolynomial::EvaluateDerivative(p,t,k)`: the `k`-th derivatives (in
the sense of analysis) of `B_{i,p}(x) = C(p,i) x^i (1-x)^(p-i)` at `t`. -/
theorem C04_bernstein_derivative {𝕜 : Type} [NontriviallyNormedField 𝕜] (cfg : Cfg) (hmax : cfg.maxBinom ≤ 68) (p : ℕ)
    (hp : p < cfg.maxBinom) (t : 𝕜) (k : ℕ) :
    ∃ l, bernsteinEvaluateDerivative cfg p t k = .ok l ∧ l.length = p + 1 ∧
      ∀ i ≤ p, l[i]? = some (iteratedDeriv k (fun x : 𝕜 => (p.choose i : 𝕜) * x ^ i * (1 - x) ^ (p - i)) t) := by
  refine ⟨_, bernsteinEvaluateDerivative_ok hmax hp t k, by simp, fun i hi => ?_⟩
  rw [tab_getElem? _ (by omega)]
  congr 1
  have := congrFun (iteratedDeriv_dB_sum (𝕜 := 𝕜) (V := 𝕜) p k (fun j => if j = i then 1 else 0)) t
  simp only [smul_eq_mul, mul_ite, mul_one, mul_zero, sum_ite_eq', mem_range, show i < p + 1 by omega, if_true] at this
  exact this.symm

/-- C04. These functions are infinitely often differentiable, so that the derivative
above is never the default value of `iteratedDeriv`. -/
theorem C04_smooth {𝕜 : Type} [NontriviallyNormedField 𝕜] (p i : ℕ) :
    ContDiff 𝕜 ⊤ (fun x : 𝕜 => (p.choose i : 𝕜) * x ^ i * (1 - x) ^ (p - i)) := by
  fun_prop

/-- C04. For `k > p` the result is all zeros, over any commutative ring. -/
theorem C04_zero_above_degree {K : Type} [CommRing K] (cfg : Cfg) (hmax : cfg.maxBinom ≤ 68) (p : ℕ)
    (hp : p < cfg.maxBinom) (t : K) (k : ℕ) (hk : p < k) :
    bernsteinEvaluateDerivative cfg p t k = .ok (List.replicate (p + 1) 0) := by
  rw [bernsteinEvaluateDerivative_ok hmax hp t k, replicate_eq_tab]
  congr 1; apply tab_congr; intro i _; rw [dB_gt hk]

/-- C04. Over any commutative ring: the value of the formal `k`-th derivative of the
Bernstein polynomial. -/
theorem C04_formal {K : Type} [CommRing K] (cfg : Cfg) (hmax : cfg.maxBinom ≤ 68) (p : ℕ)
    (hp : p < cfg.maxBinom) (t : K) (k : ℕ) :
    ∃ l, bernsteinEvaluateDerivative cfg p t k = .ok l ∧ l.length = p + 1 ∧
      ∀ i ≤ p, l[i]? = some ((derivative^[k] ((p.choose i : K[X]) * X ^ i * (1 - X) ^ (p - i))).eval t) :=
  ⟨_, bernsteinEvaluateDerivative_ok hmax hp t k, by simp, fun i hi => tab_getElem? _ (by omega)⟩

example (t : ℝ) : ∃ l, bernsteinEvaluateDerivative Ex.cfg 5 t 2 = .ok l ∧ l.length = 6 ∧
      ∀ i ≤ 5, l[i]? = some (iteratedDeriv 2 (fun x : ℝ => (Nat.choose 5 i : ℝ) * x ^ i * (1 - x) ^ (5 - i)) t) :=
  C04_bernstein_derivative Ex.cfg Ex.cfg_ok 5 (by decide) t 2

/-! ## C13, C14 -/

section
variable {𝕜 V : Type} [NontriviallyNormedField 𝕜] [NormedAddCommGroup V] [NormedSpace 𝕜 V]

theorem pderiv_congr {f g : List 𝕜 → V} (ks : List ℕ) : ∀ (t : List 𝕜) (f g : List 𝕜 → V),
    (∀ x : List 𝕜, x.length = t.length → f x = g x) → pderiv ks f t = pderiv ks g t := by
  induction ks with
  | nil => intro t f g h; exact h t rfl
  | cons k ks ih =>
    intro t f g h
    cases t with
    | nil => exact h [] rfl
    | cons t ts =>
      simp only [pderiv]
      congr 1
      funext x
      exact ih ts _ _ (fun xs hxs => h (x :: xs) (by simp [hxs]))

theorem pderiv_value {s : Spline V} {ds : List ℕ} {f : List 𝕜 → V} (hs : s.Computes ds f) {ks : List ℕ}
    (hk : ks.length = ds.length) {t : List 𝕜} (ht : t.length = ds.length) :
    pderiv ks f t = tens s.degrees (Spline.dFns s.degrees ks t) (fun n => s.cps.getD n 0) := by
  rw [← pderiv_neval (by rw [hs.degrees_eq]; exact hk) (by rw [hs.degrees_eq]; exact ht)]
  apply pderiv_congr (f := f) (g := f)
  intro x hx
  rw [← hs.value_eq (hx.trans ht), Spline.value_eq_neval]

/-- C13. The derivative spline: degrees `p_d - k_d`, and its `Evaluate` is the mixed
partial derivative. -/
theorem C13_derivative_spline (cfg : Cfg) (hmax : cfg.maxBinom ≤ 68) (s : Spline V) (ds : List ℕ) (f : List 𝕜 → V)
    (hs : s.Computes ds f) (orders : List ℕ) (hl : orders.length = ds.length)
    (hle : ∀ (d o p : ℕ), orders[d]? = some o → ds[d]? = some p → o ≤ p)
    (hord : ∀ o ∈ orders, o < cfg.maxBinom) (hsize : size ds < 2 ^ 64) :
    ∃ r, Spline.derivativeSpline 𝕜 cfg s orders = .ok r ∧
      r.Computes (List.zipWith (· - ·) ds orders) (pderiv orders f) := by
  have hd := hs.degrees_eq
  obtain ⟨r, h1, h2, h3, h4⟩ := Spline.derivativeSpline_ok (K := 𝕜) (s := s) hmax hs.wf (orders := orders)
    (by rw [hs.dim_eq]; exact hl) (by rw [hd]; exact hle) hord (by rw [hd]; exact hsize)
  refine ⟨r, h1, Spline.Computes.mk' h2 (by rw [h3, hd]) fun t ht => ?_⟩
  have ht' : t.length = ds.length := by simpa [hl] using ht
  rw [h4 t (by rw [hs.dim_eq]; exact ht'), pderiv_value hs hl ht']

/-- C14. `EvaluateDerivative(t, k)`, all orders. -/
theorem C14_evaluate_derivative (cfg : Cfg) (hmax : cfg.maxBinom ≤ 68) (s : Spline V) (ds : List ℕ) (f : List 𝕜 → V)
    (hs : s.Computes ds f) (hdeg : ∀ p ∈ ds, p < cfg.maxBinom) (k : List ℕ) (hk : k.length = ds.length) (t : List 𝕜)
    (ht : t.length = ds.length) : s.evaluateDerivative cfg t k = .ok (pderiv k f t) := by
  rw [Spline.evaluateDerivative_ok hmax hs.wf (by rw [hs.degrees_eq]; exact hdeg) (by rw [hs.dim_eq]; exact ht)
    (by rw [hs.dim_eq]; exact hk), pderiv_value hs hk ht]

/-- C14. The derivatives exist: as a function of the parameter in direction `d`, the
value of `EvaluateDerivative` for orders `k` has a derivative everywhere, namely the value
for `k` with `k_d` one higher. So the mixed partials exist in every order and do not depend
on the order of differentiation. -/
theorem C14_chain (cfg : Cfg) (hmax : cfg.maxBinom ≤ 68) (s : Spline V) (hs : s.WF)
    (hdeg : ∀ p ∈ s.degrees, p < cfg.maxBinom) (k : List ℕ) (hk : k.length = s.dim) (d kd : ℕ) (hkd : k[d]? = some kd)
    (t : List 𝕜) (ht : t.length = s.dim) (td : 𝕜) (htd : t[d]? = some td) :
    ∃ (g : 𝕜 → V) (g' : V), (∀ x, s.evaluateDerivative cfg (t.set d x) k = .ok (g x)) ∧
      s.evaluateDerivative cfg t (k.set d (kd + 1)) = .ok g' ∧ HasDerivAt g g' td := by
  refine ⟨fun x => tens s.degrees (Spline.dFns s.degrees k (t.set d x)) (fun n => s.cps.getD n 0), _,
    fun x => Spline.evaluateDerivative_ok hmax hs hdeg (by simpa using ht) hk,
    Spline.evaluateDerivative_ok hmax hs hdeg ht (by simpa using hk), ?_⟩
  exact hasDerivAt_tens hk ht _ hkd htd

/-- C14. Orders zero: `EvaluateDerivative` is `Evaluate`. -/
theorem C14_zero (cfg : Cfg) (hmax : cfg.maxBinom ≤ 68) (s : Spline V) (ds : List ℕ) (f : List 𝕜 → V)
    (hs : s.Computes ds f) (hdeg : ∀ p ∈ ds, p < cfg.maxBinom) (t : List 𝕜) (ht : t.length = ds.length) :
    s.evaluateDerivative cfg t (List.replicate ds.length 0) = s.evaluate t := by
  have hd := hs.degrees_eq
  rw [Spline.evaluateDerivative_ok hmax hs.wf (by rw [hd]; exact hdeg) (by rw [hs.dim_eq]; exact ht)
    (by rw [hs.dim_eq]; simp), hs.eval t ht, ← hs.value_eq ht]
  have := dFns_zero (ps := s.degrees) (ts := t) (by rw [hd]; exact ht)
  rw [hd] at this
  rw [hd, this, Spline.value_eq_neval, neval_eq_tens, hd]

end

/-! ## C15 -/

/-- C15, the part that holds: `EvaluateDerivative` is zero when some order exceeds the
degree. Missing: the same for the derivative spline, which is refuted below. -/
theorem C15_evaluate_zero_partial {K V : Type} [CommRing K] [AddCommGroup V] [Module K V] (cfg : Cfg)
    (hmax : cfg.maxBinom ≤ 68) (s : Spline V) (hs : s.WF)
    (hdeg : ∀ p ∈ s.degrees, p < cfg.maxBinom) (k : List ℕ) (hk : k.length = s.dim) (d p kd : ℕ)
    (hp : s.degrees[d]? = some p) (hkd : k[d]? = some kd) (hgt : p < kd) (t : List K) (ht : t.length = s.dim) :
    s.evaluateDerivative cfg t k = .ok 0 := by
  rw [Spline.evaluateDerivative_ok hmax hs hdeg ht hk]
  congr 1
  have : ∀ (ps ks : List ℕ) (ts : List K) (F : ℕ → V) (d : ℕ), ps[d]? = some p → ks[d]? = some kd →
      ks.length = ps.length → ts.length = ps.length → tens ps (Spline.dFns ps ks ts) F = 0 := by
    intro ps
    induction ps with
    | nil => intro ks ts F d h; simp at h
    | cons q ps ih =>
      intro ks ts F d h1 h2 h3 h4
      cases ks with
      | nil => simp at h3
      | cons k ks =>
        cases ts with
        | nil => simp at h4
        | cons t ts =>
          rw [Spline.dFns, tens_cons]
          apply sum_eq_zero
          intro i _
          cases d with
          | zero =>
            simp at h1 h2; subst h1 h2
            rw [dB_gt hgt, zero_smul]
          | succ d =>
            simp at h1 h2 h3 h4
            rw [ih ks ts _ d h1 h2 h3 h4, smul_zero]
  exact this _ _ _ _ d hp hkd hk ht

/-- C15 is false of the code: if the first order that exceeds its degree does so by
one, the call returns a spline without control points, and evaluating it anywhere is
undefined behaviour. -/
theorem C15_fails {K V : Type} [Field K] [AddCommGroup V] [Module K V] (cfg : Cfg) (hmax : cfg.maxBinom ≤ 68)
    (s : Spline V) (hs : s.WF) (orders : List ℕ) (hl : orders.length = s.dim)
    (d p : ℕ) (hp : s.degrees[d]? = some p) (ho : orders[d]? = some (p + 1))
    (hle : ∀ (e o q : ℕ), e < d → orders[e]? = some o → s.degrees[e]? = some q → o ≤ q)
    (hord : ∀ (e o : ℕ), e < d → orders[e]? = some o → o < cfg.maxBinom) (hsize : size s.degrees < 2 ^ 64) :
    ∃ r, Spline.derivativeSpline K cfg s orders = .ok r ∧ r.cps = [] ∧
      ∀ t : List K, t.length = s.dim → r.evaluate t = .error .ub := by
  obtain ⟨r, h1, h2, h3, h4, h5⟩ := Spline.derivativeSpline_above (K := K) hmax hs hl hp ho hle hord hsize
  exact ⟨r, h1, h4, fun t ht => Spline.evaluate_empty h3 h4 (by rw [h5, h2]) (by rw [h2]; exact ht)⟩

/-- the second derivative of a line -/
example (a b : ℚ) : ∃ r, Spline.derivativeSpline ℚ Ex.cfg (Ex.line a b) [2] = .ok r ∧ r.cps = [] ∧
      ∀ t : List ℚ, t.length = (Ex.line a b).dim → r.evaluate t = .error .ub :=
  C15_fails (K := ℚ) Ex.cfg Ex.cfg_ok (Ex.line a b) (Ex.line_wf a b) [2] rfl 0 1 rfl rfl (by simp) (by simp) 
    (by show size [1] < _; decide)

/-- C15 is false of the code: if the first order that exceeds its degree does so by two
or more, the number of control points wraps around to almost `2^64`, and the call itself
has undefined behaviour. -/
theorem C15_fails_far {K V : Type} [Field K] [AddCommGroup V] [Module K V] (cfg : Cfg) (hmax : cfg.maxBinom ≤ 68)
    (s : Spline V) (hs : s.WF) (orders : List ℕ) (hl : orders.length = s.dim)
    (d p o : ℕ) (hp : s.degrees[d]? = some p) (ho : orders[d]? = some o) (hgt : p + 2 ≤ o)
    (hle : ∀ (e o q : ℕ), e < d → orders[e]? = some o → s.degrees[e]? = some q → o ≤ q)
    (hord : ∀ (e o : ℕ), e ≤ d → orders[e]? = some o → o < cfg.maxBinom) (hsize : size s.degrees * o < 2 ^ 64) :
    Spline.derivativeSpline K cfg s orders = .error .ub :=
  Spline.derivativeSpline_far hmax hs hl hp ho (by omega) hle hord hsize

/-- the third derivative of a line -/
example (a b : ℚ) : Spline.derivativeSpline ℚ Ex.cfg (Ex.line a b) [3] = .error .ub := by
  refine C15_fails_far (K := ℚ) Ex.cfg Ex.cfg_ok (Ex.line a b) (Ex.line_wf a b) [3] rfl 0 1 3 rfl rfl (by omega) (by simp) ?_
    (by show size [1] * 3 < _; decide)
  intro e o he ho
  obtain rfl : e = 0 := by omega
  simp at ho; subst ho; decide

example (a b c d e f : Point ℝ 3) : ∃ r, Spline.derivativeSpline ℝ Ex.cfg (Ex.surf a b c d e f) [1, 1] = .ok r ∧
    r.Computes [1, 0] (pderiv [1, 1] (fun t : List ℝ => (Ex.surf a b c d e f).value t)) := by
  have := C13_derivative_spline (𝕜 := ℝ) Ex.cfg Ex.cfg_ok (Ex.surf a b c d e f) _ _ (Ex.surf_wf a b c d e f).computes [1, 1]
    rfl (by
      intro d o p h1 h2
      rcases d with _ | _ | d
      · simp [Ex.surf] at h1 h2; omega
      · simp [Ex.surf] at h1 h2; omega
      · simp at h1) (by decide) (by show size [2, 1] < _; decide)
  exact this

example (a b c d e f : Point ℝ 3) (t : List ℝ) (ht : t.length = 2) :
    (Ex.surf a b c d e f).evaluateDerivative Ex.cfg t [3, 1]
      = .ok (pderiv [3, 1] (fun t : List ℝ => (Ex.surf a b c d e f).value t) t) :=
  C14_evaluate_derivative (𝕜 := ℝ) Ex.cfg Ex.cfg_ok _ _ _ (Ex.surf_wf a b c d e f).computes
    (by show ∀ p ∈ [2, 1], _; decide) [3, 1] rfl t ht

end Bezman.Props
