import Verif.Props.Examples
import Verif.Props.Arith
import Verif.Props.Split
import Verif.Props.History
import Verif.Proofs.Rational

/-! # Properties: rational splines -/

namespace Bezman.Props
open Spec Finset

section
variable {K V : Type} [Field K] [DecidableEq K] [AddCommGroup V] [Module K V] [ScalarDiv K V] [LawfulScalarDiv K V]

/-! ## C35 -/

/-- C35. Built from points `P` and weights `w` the spline evaluates to
`(∑ w P B) / (∑ w B)` wherever the denominator is not zero, and gives back its
points, weights and weighted points. -/
theorem C35_construct (ds : List ℕ) (hds : 0 < ds.length) (points : List V) (weights : List K)
    (hpl : points.length = size ds) (hwl : weights.length = size ds) (P : List ℕ → V) (w : List ℕ → K)
    (hP : ∀ idx, ValidIdx ds idx → points[flatIndex ds idx]? = some (P idx))
    (hw : ∀ idx, ValidIdx ds idx → weights[flatIndex ds idx]? = some (w idx)) :
    ∃ r, RSpline.ofPoints ds points weights = .ok r ∧
      r.Computes ds (fun t => rationalBezier ds t P w) (fun t => bezier ds t w) ∧
      ∀ idx, ValidIdx ds idx → r.weight idx = .ok (w idx) ∧ r.weightedControlPoint idx = .ok (w idx • P idx) ∧
        (w idx ≠ 0 → r.controlPoint idx = .ok (P idx)) ∧
        (w idx = 0 → r.controlPoint idx = .error .divZero) := by
  refine ⟨_, RSpline.ofPoints_ok hds hpl hwl, ?_, ?_⟩
  · have hn : (⟨ds, size ds, offsetsOf ds, List.zipWith (fun w x => w • x) weights points⟩ : Spline V).WF :=
      ⟨hds, rfl, rfl, by simp [hpl, hwl]⟩
    have hd : (⟨ds, size ds, offsetsOf ds, weights⟩ : Spline K).WF := ⟨hds, rfl, rfl, hwl⟩
    have e2 : ∀ t : List K, (⟨ds, size ds, offsetsOf ds, weights⟩ : Spline K).value t = bezier ds t w := by
      intro t
      unfold Spline.value
      apply bezier_congr
      intro idx hidx
      have := hw idx hidx
      simp [this]
    have e1 : ∀ t : List K, (⟨ds, size ds, offsetsOf ds, List.zipWith (fun w x => w • x) weights points⟩ : Spline V).value t
        = bezier ds t (fun idx => w idx • P idx) := by
      intro t
      unfold Spline.value
      apply bezier_congr
      intro idx hidx
      have h1 := hw idx hidx
      have h2 := hP idx hidx
      simp [List.getElem?_zipWith, h1, h2]
    refine RSpline.Computes.mk' hn hd rfl rfl (fun t _ => e2 t) (fun t _ h0 => ?_)
    rw [e1, rationalBezier, smul_inv_smul₀ h0]
  · intro idx hidx
    have hn : (⟨ds, size ds, offsetsOf ds, List.zipWith (fun w x => w • x) weights points⟩ : Spline V).WF :=
      ⟨hds, rfl, rfl, by simp [hpl, hwl]⟩
    have hd : (⟨ds, size ds, offsetsOf ds, weights⟩ : Spline K).WF := ⟨hds, rfl, rfl, hwl⟩
    have h1 : (⟨ds, size ds, offsetsOf ds, weights⟩ : Spline K).controlPoint idx = .ok (w idx) := by
      rw [Spline.controlPoint_ok hd hidx]
      simp [Spline.net, hw idx hidx]
    have h2 : (⟨ds, size ds, offsetsOf ds, List.zipWith (fun w x => w • x) weights points⟩ : Spline V).controlPoint idx
        = .ok (w idx • P idx) := by
      rw [Spline.controlPoint_ok hn hidx]
      simp [Spline.net, List.getElem?_zipWith, hw idx hidx, hP idx hidx]
    refine ⟨h1, h2, fun h0 => ?_, fun h0 => ?_⟩
    · unfold RSpline.controlPoint
      rw [h1, h2]
      simp only [bind_ok]
      rw [RSpline.divM_ok _ h0, inv_smul_smul₀ h0]
    · unfold RSpline.controlPoint
      rw [h1, h2]
      simp only [bind_ok, h0]
      exact RSpline.divM_zero _

omit [DecidableEq K] [ScalarDiv K V] [LawfulScalarDiv K V] in
/-- C35. The wrong number of weights or points is caught by an assertion. -/
theorem C35_construct_asserts (ds : List ℕ) (hds : 0 < ds.length) (points : List V) (weights : List K)
    (h : points.length ≠ size ds ∨ weights.length ≠ size ds) :
    RSpline.ofPoints ds points weights = .error .assertFail := by
  unfold RSpline.ofPoints
  obtain ⟨s, h1, h2, h3, h4⟩ := Spline.ofDegrees_ok (V := V) hds
  rw [h1]
  by_cases hw : weights.length = size ds
  · rw [(Spline.ofPoints_ok hds hw).1]
    have hp : points.length ≠ weights.length := by
      rcases h with h | h
      · rw [hw]; exact h
      · exact absurd hw h
    simp [assertM, hp]
  · simp only [bind_ok, Spline.ofPoints_assert hds hw]
    rfl

/-- C35. Where the weight function vanishes the program divides by zero. -/
theorem C35_zero_weight (r : RSpline K V) (ds : List ℕ) (f : List K → V) (w : List K → K) (hr : r.Computes ds f w)
    (t : List K) (ht : t.length = ds.length) (h0 : w t = 0) : r.evaluate t = .error .divZero := by
  unfold RSpline.evaluate
  rw [Spline.evaluate_ok hr.num_wf (by unfold Spline.dim; rw [hr.num_degrees, ht]), hr.weight t ht, h0]
  simp only [bind_ok]
  exact RSpline.divM_zero _

/-- C35. Converting a polynomial spline: same function, weight one everywhere. -/
theorem C35_of_polynomial (s : Spline V) (ds : List ℕ) (f : List K → V) (hs : s.Computes ds f) :
    ∃ r, RSpline.ofSpline (K := K) s = .ok r ∧ r.Computes ds f (fun _ => 1) := by
  have h := hs.wf
  have hd := hs.degrees_eq
  have hone := Spline.ofPoints_ok (V := K) (ps := s.degrees) (pts := List.replicate s.ncp 1) h.dim_pos
    (by simp [h.ncp_eq])
  refine ⟨⟨s, ⟨s.degrees, size s.degrees, offsetsOf s.degrees, List.replicate s.ncp 1⟩⟩, ?_, ?_⟩
  · unfold RSpline.ofSpline
    rw [hone.1]
    simp [assertM, RSpline.compatible]
  · refine RSpline.Computes.mk' h (hone.2) hd hd ?_ ?_
    · intro t ht
      rw [Spline.value_eq_neval]
      have : ∀ i, i < size s.degrees → (List.replicate s.ncp (1 : K)).getD i 0 = 1 := by
        intro i hi
        simp [h.ncp_eq, hi]
      rw [neval_congr (G := fun _ => (1 : K)) this, neval_const (by rw [hd, ht])]
    · intro t ht _
      rw [one_smul]; exact hs.value_eq ht

/-! ## C36 -/

omit [DecidableEq K] [ScalarDiv K V] [LawfulScalarDiv K V] in
/-- C36. What `ForwardEvaluate` returns: the value of the numerator spline. -/
theorem C36_forward_evaluate_numerator (cfg : Cfg) (hmax : cfg.maxBinom ≤ 68) (r : RSpline K V) (ds : List ℕ)
    (u : List K → V) (hn : r.num.Computes ds u) (hc : r.wt.degrees = ds) (hd : ∀ p ∈ ds, p < cfg.maxBinom)
    (t : List K) (ht : t.length = ds.length) : r.forwardEvaluate cfg t = .ok (u t) := by
  have h1 := Spline.forwardEvaluate_ok (K := K) hmax hn.wf (by rw [hn.degrees_eq]; exact hd)
    (t := t) (by unfold Spline.dim; rw [hn.degrees_eq, ht])
  unfold RSpline.forwardEvaluate
  rw [assertM_ok (by simp [RSpline.compatible, hn.degrees_eq, hc])]
  unfold Spline.forwardEvaluate at h1
  rw [hn.value_eq ht] at h1
  exact h1

/-- C36, part: `ForwardEvaluate` equals `Evaluate` exactly where the numerator value is
not changed by the division, that is where the weight function is one or the value is
zero. -/
theorem C36_forward_evaluate_partial (cfg : Cfg) (hmax : cfg.maxBinom ≤ 68) (r : RSpline K V) (ds : List ℕ)
    (f : List K → V) (w : List K → K) (hr : r.Computes ds f w) (hd : ∀ p ∈ ds, p < cfg.maxBinom)
    (t : List K) (ht : t.length = ds.length) (h0 : w t ≠ 0) :
    ∃ x y, r.forwardEvaluate cfg t = .ok x ∧ r.evaluate t = .ok y ∧ x = w t • y ∧ (x = y ↔ w t = 1 ∨ y = 0) := by
  refine ⟨_, _, C36_forward_evaluate_numerator cfg hmax r ds _ hr.num_computes hr.wt_degrees hd t ht,
    hr.eval t ht h0, hr.num_value ht h0, ?_⟩
  show r.num.value t = f t ↔ _
  rw [hr.num_value ht h0]
  constructor
  · intro h
    have : (w t - 1) • f t = 0 := by rw [sub_smul, one_smul, h, sub_self]
    rcases smul_eq_zero.mp this with h | h
    · exact Or.inl (sub_eq_zero.mp h)
    · exact Or.inr h
  · rintro (h | h)
    · rw [h, one_smul]
    · rw [h, smul_zero]

/-! ## C37 -/

omit [Field K] [DecidableEq K] [AddCommGroup V] [Module K V] [ScalarDiv K V] [LawfulScalarDiv K V] in
/-- C37. What `ControlPoint(i, j, …, l)` reads: the point with index `(l, 0, …, 0)`. -/
theorem C37_variadic_reads [Zero K] [BEq K] [ScalarDiv K V] (r : RSpline K V) (idx : List ℕ) (last : ℕ)
    (n : ℕ) (hl : idx.length = n + 1) (hlast : idx[n]? = some last) :
    r.controlPointVariadic idx = r.controlPoint (last :: List.replicate n 0) := by
  unfold RSpline.controlPointVariadic
  rw [hl, rd_ok (by simpa using hlast)]
  simp [List.replicate_succ, wr]

omit [Field K] [DecidableEq K] [AddCommGroup V] [Module K V] [ScalarDiv K V] [LawfulScalarDiv K V] in
/-- C37, part: for one parametric dimension both forms agree. -/
theorem C37_variadic_partial [Zero K] [BEq K] [ScalarDiv K V] (r : RSpline K V) (i : ℕ) :
    r.controlPointVariadic [i] = r.controlPoint [i] :=
  C37_variadic_reads r [i] i 0 rfl rfl

omit [DecidableEq K] [ScalarDiv K V] [LawfulScalarDiv K V] in
/-- C37. `Weight(i, j, …)` and `WeightedControlPoint(i, j, …)` do agree with their array
forms, for every dimension (up to `2^32` control points: positions are 32-bit). -/
theorem C37_weights (r : RSpline K V) (ds : List ℕ) (hn : r.num.WF) (hw : r.wt.WF) (hnd : r.num.degrees = ds)
    (hwd : r.wt.degrees = ds) (hsz : size ds ≤ 2 ^ 32) (idx : List ℕ) (hidx : ValidIdx ds idx) :
    (∃ x, r.weight idx = .ok x ∧ r.weightVariadic idx = .ok x) ∧
    ∃ x, r.weightedControlPoint idx = .ok x ∧ r.weightedControlPointVariadic idx = .ok x := by
  subst hnd
  refine ⟨⟨_, Spline.controlPoint_ok hw (by rw [hwd]; exact hidx), ?_⟩,
    ⟨_, Spline.controlPoint_ok hn hidx, ?_⟩⟩
  · unfold RSpline.weightVariadic
    rw [Spline.controlPointVariadic_ok hw (by rw [hwd]; exact hidx) (by rw [hwd]; exact hsz)]
    exact Spline.controlPoint_ok hw (by rw [hwd]; exact hidx)
  · unfold RSpline.weightedControlPointVariadic
    rw [Spline.controlPointVariadic_ok hn hidx hsz]
    exact Spline.controlPoint_ok hn hidx

end

/-! ### Concrete cases -/

/-- a rational surface in the plane with degrees (2,1), different weights -/
def R : RSpline ℚ (Point ℚ 2) :=
  ⟨Ex.surf (Ex.pt 0 0) (Ex.pt 2 0) (Ex.pt 2 1) (Ex.pt 0 9) (Ex.pt (1 / 2) 1) (Ex.pt 2 2), Ex.surf 1 2 1 3 (1 / 2) 1⟩

theorem R_built : RSpline.ofPoints [2, 1] [Ex.pt 0 0, Ex.pt 1 0, Ex.pt 2 1, Ex.pt 0 3, Ex.pt 1 2, Ex.pt 2 2]
    [(1 : ℚ), 2, 1, 3, 1 / 2, 1] = .ok R := by
  rw [RSpline.ofPoints_ok (by decide) rfl rfl]
  simp only [R, Ex.surf, Ex.pt]
  congr 3
  simp only [List.zipWith, List.cons.injEq, and_true]
  refine ⟨?_, ?_, ?_, ?_, ?_, ?_⟩ <;> (refine Point.ext ?_; funext j; fin_cases j) <;> norm_num

theorem R_computes : R.Computes [2, 1] (fun t : List ℚ => (R.wt.value t)⁻¹ • R.num.value t) (fun t => R.wt.value t) :=
  RSpline.computes_of (n := R.num) (d := R.wt) (Spline.WF.computes (K := ℚ) (s := R.num) (Ex.surf_wf ..))
    (Spline.WF.computes (K := ℚ) (s := R.wt) (Ex.surf_wf ..))

/-- the hypotheses of `C35_construct` hold for the data `R` is built from -/
example : ∃ (P : List ℕ → Point ℚ 2) (w : List ℕ → ℚ) (r : RSpline ℚ (Point ℚ 2)),
    RSpline.ofPoints [2, 1] [Ex.pt 0 0, Ex.pt 1 0, Ex.pt 2 1, Ex.pt 0 3, Ex.pt 1 2, Ex.pt 2 2]
      [(1 : ℚ), 2, 1, 3, 1 / 2, 1] = .ok r ∧
    r.Computes [2, 1] (fun t => rationalBezier [2, 1] t P w) (fun t => bezier [2, 1] t w) ∧
    P [0, 1] = Ex.pt 0 3 ∧ r.controlPoint [0, 1] = .ok (Ex.pt 0 3) := by
  obtain ⟨r, h1, h2, h3⟩ := C35_construct [2, 1] (by decide)
    [Ex.pt 0 0, Ex.pt 1 0, Ex.pt 2 1, Ex.pt 0 3, Ex.pt 1 2, Ex.pt 2 2] [(1 : ℚ), 2, 1, 3, 1 / 2, 1] rfl rfl
    (fun idx => [Ex.pt 0 0, Ex.pt 1 0, Ex.pt 2 1, Ex.pt 0 3, Ex.pt 1 2, Ex.pt 2 2].getD (flatIndex [2, 1] idx) 0)
    (fun idx => [(1 : ℚ), 2, 1, 3, 1 / 2, 1].getD (flatIndex [2, 1] idx) 0)
    (by
      intro idx h
      have := flatIndex_lt h
      rw [List.getD_eq_getElem?_getD, List.getElem?_eq_getElem this]; rfl)
    (by
      intro idx h
      have := flatIndex_lt h
      rw [List.getD_eq_getElem?_getD, List.getElem?_eq_getElem this]; rfl)
  exact ⟨_, _, r, h1, h2, rfl, (h3 [0, 1] (by unfold ValidIdx; simp)).2.2.1 (by show (3 : ℚ) ≠ 0; norm_num)⟩

example : RSpline.ofPoints [2, 1] [Ex.pt 0 0, Ex.pt 1 0] [(1 : ℚ), 2] = .error .assertFail :=
  C35_construct_asserts [2, 1] (by decide) _ _ (Or.inl (by decide))

/-- weights `1, -1`: the weight function vanishes in the middle -/
example : (⟨Ex.line 1 2, Ex.line 1 (-1)⟩ : RSpline ℚ ℚ).evaluate [1 / 2] = .error .divZero :=
  C35_zero_weight (K := ℚ) _ [1] _ _ (RSpline.computes_of (n := Ex.line (1 : ℚ) 2) (d := Ex.line (1 : ℚ) (-1))
    (Ex.line_wf ..).computes (Ex.line_wf ..).computes) [1 / 2] rfl
    (by simp [Spline.value, Ex.line, bezier, bern, Finset.sum_range_succ, flatIndex]; norm_num)

example : ∃ r, RSpline.ofSpline (K := ℚ) Ex.P = .ok r ∧ r.Computes [2, 1] (fun t : List ℚ => Ex.P.value t) (fun _ => 1) :=
  C35_of_polynomial (K := ℚ) Ex.P _ _ Ex.P_wf.computes

/-- C36, negation: the constant `2 / 2`, evaluated at `0`. `Evaluate` gives `1`,
`ForwardEvaluate` gives `2`. -/
theorem C36_forward_evaluate_fails : ∃ r : RSpline ℚ ℚ, r.Computes [1] (fun _ => 1) (fun _ => 2) ∧
    r.evaluate [0] = .ok 1 ∧ r.forwardEvaluate Ex.cfg [0] = .ok 2 := by
  have hv : ∀ t : List ℚ, t.length = [(1 : ℕ)].length → (Ex.line (2 : ℚ) 2).value t = 2 := by
    intro t ht
    obtain ⟨x, rfl⟩ := List.length_eq_one_iff.mp ht
    simp [Spline.value, Ex.line, bezier, bern, Finset.sum_range_succ, flatIndex]
    ring
  have h0 : (Ex.line (2 : ℚ) 2).Computes [1] (fun _ : List ℚ => (2 : ℚ)) :=
    Spline.Computes.mk' (Ex.line_wf ..) rfl hv
  have h1 : (⟨Ex.line 2 2, Ex.line 2 2⟩ : RSpline ℚ ℚ).Computes [1] (fun _ => 1) (fun _ => 2) :=
    (RSpline.computes_of h0 h0).congr (fun _ _ => rfl) (fun t _ _ => by norm_num)
  exact ⟨_, h1, h1.eval [0] rfl (by norm_num),
    C36_forward_evaluate_numerator Ex.cfg Ex.cfg_ok _ [1] (fun _ => 2) h0 rfl (by decide) [0] rfl⟩

theorem R_weight : R.wt.value [(1 / 3 : ℚ), 1 / 2] ≠ 0 := by
  simp [R, Spline.value, Ex.surf, bezier, bern, Finset.sum_range_succ, flatIndex]; norm_num

example : ∃ x y, R.forwardEvaluate Ex.cfg [(1 / 3 : ℚ), 1 / 2] = .ok x ∧ R.evaluate [(1 / 3 : ℚ), 1 / 2] = .ok y ∧
    x = R.wt.value [(1 / 3 : ℚ), 1 / 2] • y ∧ (x = y ↔ R.wt.value [(1 / 3 : ℚ), 1 / 2] = 1 ∨ y = 0) :=
  C36_forward_evaluate_partial (K := ℚ) Ex.cfg Ex.cfg_ok R [2, 1] _ _ R_computes (by decide) [1 / 3, 1 / 2] rfl R_weight

/-- C37, negation: `ControlPoint(2, 1)` of `R` gives the point with index `(1, 0)`. -/
theorem C37_variadic_fails : R.controlPoint [2, 1] = .ok (Ex.pt 2 2) ∧
    R.controlPointVariadic [2, 1] = .ok (Ex.pt 1 0) ∧ Ex.pt 2 2 ≠ Ex.pt 1 0 := by
  have hn : R.num.WF := Ex.surf_wf ..
  have hw : R.wt.WF := Ex.surf_wf ..
  refine ⟨?_, ?_, ?_⟩
  · unfold RSpline.controlPoint
    rw [Spline.controlPoint_ok hn (by unfold ValidIdx; simp [R, Ex.surf]),
      Spline.controlPoint_ok hw (by unfold ValidIdx; simp [R, Ex.surf])]
    show divM (Ex.pt 2 2) (1 : ℚ) = _
    rw [RSpline.divM_ok _ one_ne_zero, inv_one, one_smul]
  · rw [C37_variadic_reads R [2, 1] 1 1 rfl rfl]
    unfold RSpline.controlPoint
    rw [Spline.controlPoint_ok hn (by unfold ValidIdx; simp [R, Ex.surf]),
      Spline.controlPoint_ok hw (by unfold ValidIdx; simp [R, Ex.surf])]
    show divM (Ex.pt 2 0) (2 : ℚ) = _
    rw [RSpline.divM_ok _ two_ne_zero]
    congr 1
    refine Point.ext ?_
    funext j
    fin_cases j <;> simp [Ex.pt]
  · intro h
    have := congrArg (fun p => p.val 0) h
    simp [Ex.pt] at this

example : (∃ x, R.weight [2, 1] = .ok x ∧ R.weightVariadic [2, 1] = .ok x) ∧
    ∃ x, R.weightedControlPoint [2, 1] = .ok x ∧ R.weightedControlPointVariadic [2, 1] = .ok x :=
  C37_weights R [2, 1] (Ex.surf_wf ..) (Ex.surf_wf ..) rfl rfl (by decide) _ (by unfold ValidIdx; simp)

/-! ## C38 -/

section
variable {K V : Type} [Field K] [CharZero K] [DecidableEq K] [AddCommGroup V] [Module K V] [ScalarDiv K V]
  [LawfulScalarDiv K V]

/-- What the binary operators on rational splines need: equal parametric dimension,
the summed degrees inside the table of binomials, loops that may run as often as
there are degrees to raise, a result with fewer than `2^31` control points. -/
structure RFits (cfg : Cfg) (da db : List ℕ) : Prop where
  dims : db.length = da.length
  degs : ∀ p ∈ sumDegrees da db, p < cfg.maxBinom
  rounds : ∀ p ∈ sumDegrees da db, p < cfg.fuel
  rounds2 : 2 ≤ cfg.fuel
  small : size (sumDegrees da db) < 2 ^ 31

theorem maxDegrees_self : ∀ l : List ℕ, maxDegrees l l = l
  | [] => rfl
  | p :: ps => by
    have := maxDegrees_self ps
    unfold maxDegrees at this ⊢
    simp [this]

theorem fits_self {cfg : Cfg} {d : List ℕ} (h1 : ∀ p ∈ d, p < cfg.fuel) (h2 : 2 ≤ cfg.fuel) (h3 : size d < 2 ^ 31) :
    Fits cfg d d :=
  ⟨rfl, fun p hp => h1 p (by simpa using hp), h2, by rw [maxDegrees_self]; exact h3⟩

theorem le_sumDegrees : ∀ {a b : List ℕ}, b.length = a.length → ∀ (n : ℕ), (∀ p ∈ sumDegrees a b, p < n) → ∀ p ∈ a, p < n
  | [], _, _, _, _ => by simp
  | p :: ps, [], h, _, _ => by simp at h
  | p :: ps, q :: qs, h, n, hs => by
    have hs' : p + q < n ∧ ∀ x ∈ sumDegrees ps qs, x < n := by
      simpa [sumDegrees] using hs
    intro x hx
    rcases List.mem_cons.mp hx with rfl | hx
    · omega
    · exact le_sumDegrees (by simpa using h) n hs'.2 x hx

theorem size_le_sumDegrees : ∀ {a b : List ℕ}, b.length = a.length → size a ≤ size (sumDegrees a b)
  | [], _, _ => by simp [size, sumDegrees]
  | p :: ps, [], h => by simp at h
  | p :: ps, q :: qs, h => by
    have := size_le_sumDegrees (a := ps) (b := qs) (by simpa using h)
    unfold size sumDegrees at *
    simp only [List.zipWith, List.map_cons, List.prod_cons]
    exact Nat.mul_le_mul (by omega) this

omit [LawfulScalarDiv K V] [CharZero K] in
/-- equal weight splines -/
theorem eqWeights {a b : RSpline K V} {da db : List ℕ} {f g : List K → V} {wa wb : List K → K}
    (ha : a.Computes da f wa) (hb : b.Computes db g wb) (h : a.wt.eqOp b.wt = true) : db = da ∧ a.wt = b.wt := by
  have := (eqOp_iff ha.wt_wf hb.wt_wf).mp h
  exact ⟨by rw [← hb.wt_degrees, ← this, ha.wt_degrees], this⟩

/-- both numerators on a common denominator -/
theorem crossNumerators (cfg : Cfg) (hmax : cfg.maxBinom ≤ 68) {a b : RSpline K V} {da db : List ℕ}
    {f g : List K → V} {wa wb : List K → K} (ha : a.Computes da f wa) (hb : b.Computes db g wb) (h : RFits cfg da db) :
    ∃ x y w, RSpline.mulWeight' cfg a.num b.wt = .ok x ∧ RSpline.mulWeight cfg a.wt b.num = .ok y ∧
      Spline.mulScalar cfg a.wt b.wt = .ok w ∧
      x.Computes (sumDegrees da db) (fun t => wb t • a.num.value t) ∧
      y.Computes (sumDegrees da db) (fun t => wa t • b.num.value t) ∧
      w.Computes (sumDegrees da db) (fun t => wa t * wb t) := by
  obtain ⟨x, hx, hx'⟩ := C21_mul_point_scalar cfg hmax a.num b.wt da db _ _ ha.num_computes hb.wt_computes h.dims h.degs
  obtain ⟨y, hy, hy'⟩ := C21_mul_scalar_point cfg hmax a.wt b.num da db _ _ ha.wt_computes hb.num_computes h.dims h.degs
  obtain ⟨w, hw, hw'⟩ := C21_mul_scalar cfg hmax a.wt b.wt da db _ _ ha.wt_computes hb.wt_computes h.dims h.degs
  exact ⟨x, y, w, hx, hy, hw, hx', hy', hw'⟩

/-- the shape shared by the results of the four operators: with equal weight splines
the weight function is kept, otherwise the weight functions are multiplied -/
def RResult (a b : RSpline K V) (da db : List ℕ) (wa wb : List K → K) (h : List K → V) (r : RSpline K V) : Prop :=
  (a.wt.eqOp b.wt = true ∧ r.Computes da h wa) ∨
  (a.wt.eqOp b.wt = false ∧ r.Computes (sumDegrees da db) h (fun t => wa t * wb t))

theorem shared_computes {a b : RSpline K V} {da : List ℕ} {f g : List K → V} {wa wb : List K → K}
    (ha : a.Computes da f wa) (hb : b.Computes da g wb) (e : a.wt = b.wt) {n : Spline V} (op : V → V → V)
    (hop : ∀ (c : K) (x y : V), op (c • x) (c • y) = c • op x y)
    (hn : n.Computes (maxDegrees da da) (fun t : List K => op (a.num.value t) (b.num.value t))) :
    (⟨n, a.wt⟩ : RSpline K V).Computes da (fun t => op (f t) (g t)) wa := by
  rw [maxDegrees_self] at hn
  refine (RSpline.computes_of hn ha.wt_computes).congr (fun _ _ => rfl) (fun t ht h0 => ?_)
  have hwb : wb t = wa t := by rw [← ha.wt_value ht, ← hb.wt_value ht, e]
  rw [ha.num_value ht h0, hb.num_value ht (by rw [hwb]; exact h0), hwb, hop, inv_smul_smul₀ h0]

theorem cross_computes {a b : RSpline K V} {da db : List ℕ} {f g : List K → V} {wa wb : List K → K}
    (ha : a.Computes da f wa) (hb : b.Computes db g wb) (hl : db.length = da.length) {n : Spline V} {w : Spline K}
    (op : V → V → V) (hop : ∀ (c : K) (x y : V), op (c • x) (c • y) = c • op x y)
    (hn : n.Computes (maxDegrees (sumDegrees da db) (sumDegrees da db))
      (fun t => op (wb t • a.num.value t) (wa t • b.num.value t)))
    (hw : w.Computes (sumDegrees da db) (fun t => wa t * wb t)) :
    (⟨n, w⟩ : RSpline K V).Computes (sumDegrees da db) (fun t => op (f t) (g t)) (fun t => wa t * wb t) := by
  rw [maxDegrees_self] at hn
  refine (RSpline.computes_of hn hw).congr (fun _ _ => rfl) (fun t ht h0 => ?_)
  have hl' : (sumDegrees da db).length = da.length := by simp [sumDegrees, hl]
  have ht' : t.length = da.length := by rw [ht, hl']
  obtain ⟨h1, h2⟩ := mul_ne_zero_iff.mp h0
  rw [ha.num_value ht' h1, hb.num_value (by rw [hl]; exact ht') h2, smul_smul, smul_smul, mul_comm (wb t) (wa t), hop,
    inv_smul_smul₀ h0]

omit [LawfulScalarDiv K V] in
private theorem fits_shared {cfg : Cfg} {da : List ℕ} (h : RFits cfg da da) : Fits cfg da da :=
  fits_self (le_sumDegrees h.dims _ h.rounds) h.rounds2 (lt_of_le_of_lt (size_le_sumDegrees h.dims) h.small)

/-- C38. `a + b`. -/
theorem C38_add (cfg : Cfg) (hmax : cfg.maxBinom ≤ 68) (a b : RSpline K V) (da db : List ℕ) (f g : List K → V)
    (wa wb : List K → K) (ha : a.Computes da f wa) (hb : b.Computes db g wb) (h : RFits cfg da db) :
    ∃ r, RSpline.addOp cfg a b = .ok r ∧ RResult a b da db wa wb (fun t => f t + g t) r := by
  unfold RSpline.addOp
  cases he : a.wt.eqOp b.wt with
  | true =>
    obtain ⟨rfl, e⟩ := eqWeights ha hb he
    obtain ⟨n, h1, h2⟩ := C16_add cfg a.num b.num _ _ _ _ ha.num_computes hb.num_computes (fits_shared h)
    refine ⟨⟨n, a.wt⟩, ?_, Or.inl ⟨he, shared_computes ha hb e (· + ·) (fun c x y => (smul_add c x y).symm) h2⟩⟩
    simp only [if_true, h1, bind_ok]
    exact RSpline.ofSplines_ok (by rw [h2.degrees_eq, maxDegrees_self, ha.wt_degrees])
  | false =>
    obtain ⟨x, y, w, hx, hy, hw, hx', hy', hw'⟩ := crossNumerators cfg hmax ha hb h
    obtain ⟨n, h1, h2⟩ := C16_add cfg x y _ _ _ _ hx' hy' (fits_self h.rounds h.rounds2 h.small)
    refine ⟨⟨n, w⟩, ?_, Or.inr ⟨he, cross_computes ha hb h.dims (· + ·) (fun c x y => (smul_add c x y).symm) h2 hw'⟩⟩
    simp only [Bool.false_eq_true, if_false, hx, hy, hw, h1, bind_ok]
    exact RSpline.ofSplines_ok (by rw [h2.degrees_eq, maxDegrees_self, hw'.degrees_eq])

/-- C38. `a += b`: the new value of `a`. -/
theorem C38_add_assign (cfg : Cfg) (hmax : cfg.maxBinom ≤ 68) (a b : RSpline K V) (da db : List ℕ) (f g : List K → V)
    (wa wb : List K → K) (ha : a.Computes da f wa) (hb : b.Computes db g wb) (h : RFits cfg da db) :
    ∃ r, RSpline.addAssign cfg a b = .ok r ∧ RResult a b da db wa wb (fun t => f t + g t) r := by
  unfold RSpline.addAssign
  cases he : a.wt.eqOp b.wt with
  | true =>
    obtain ⟨rfl, e⟩ := eqWeights ha hb he
    obtain ⟨n, h1, h2⟩ := C17_add_assign cfg a.num b.num _ _ _ _ ha.num_computes hb.num_computes (fits_shared h)
    refine ⟨⟨n, a.wt⟩, ?_, Or.inl ⟨he, shared_computes ha hb e (· + ·) (fun c x y => (smul_add c x y).symm) h2⟩⟩
    simp only [if_true, h1, bind_ok, pure_eq_ok]
  | false =>
    obtain ⟨x, y, w, hx, hy, hw, hx', hy', hw'⟩ := crossNumerators cfg hmax ha hb h
    obtain ⟨n, h1, h2⟩ := C17_add_assign cfg x y _ _ _ _ hx' hy' (fits_self h.rounds h.rounds2 h.small)
    refine ⟨⟨n, w⟩, ?_, Or.inr ⟨he, cross_computes ha hb h.dims (· + ·) (fun c x y => (smul_add c x y).symm) h2 hw'⟩⟩
    simp only [Bool.false_eq_true, if_false, hx, hy, hw, h1, bind_ok]
    rw [RSpline.assert_compatible (by rw [h2.degrees_eq, maxDegrees_self, hw'.degrees_eq])]
    rfl

/-- C38. `a - b`. (Numerators always have equal degrees here, so the loop that makes
`a - b` of polynomial splines hang is never entered.) -/
theorem C38_sub (cfg : Cfg) (hmax : cfg.maxBinom ≤ 68) (a b : RSpline K V) (da db : List ℕ) (f g : List K → V)
    (wa wb : List K → K) (ha : a.Computes da f wa) (hb : b.Computes db g wb) (h : RFits cfg da db) :
    ∃ r, RSpline.subOp cfg a b = .ok r ∧ RResult a b da db wa wb (fun t => f t - g t) r := by
  have hself : ∀ (l : List ℕ) (d p q : ℕ), l[d]? = some p → l[d]? = some q → q ≤ p := by
    intro l d p q h1 h2
    rw [h1] at h2
    injection h2 with h2
    exact h2.ge
  unfold RSpline.subOp
  cases he : a.wt.eqOp b.wt with
  | true =>
    obtain ⟨rfl, e⟩ := eqWeights ha hb he
    obtain ⟨n, h1, h2⟩ := C18_sub_partial cfg a.num b.num _ _ _ _ ha.num_computes hb.num_computes (fits_shared h)
      (hself _)
    refine ⟨⟨n, a.wt⟩, ?_, Or.inl ⟨he, shared_computes ha hb e (· - ·) (fun c x y => (smul_sub c x y).symm) h2⟩⟩
    simp only [if_true, h1, bind_ok]
    exact RSpline.ofSplines_ok (by rw [h2.degrees_eq, maxDegrees_self, ha.wt_degrees])
  | false =>
    obtain ⟨x, y, w, hx, hy, hw, hx', hy', hw'⟩ := crossNumerators cfg hmax ha hb h
    obtain ⟨n, h1, h2⟩ := C18_sub_partial cfg x y _ _ _ _ hx' hy' (fits_self h.rounds h.rounds2 h.small) (hself _)
    refine ⟨⟨n, w⟩, ?_, Or.inr ⟨he, cross_computes ha hb h.dims (· - ·) (fun c x y => (smul_sub c x y).symm) h2 hw'⟩⟩
    simp only [Bool.false_eq_true, if_false, hx, hy, hw, h1, bind_ok]
    exact RSpline.ofSplines_ok (by rw [h2.degrees_eq, maxDegrees_self, hw'.degrees_eq])

/-- C38. `a -= b`: the new value of `a`. -/
theorem C38_sub_assign (cfg : Cfg) (hmax : cfg.maxBinom ≤ 68) (a b : RSpline K V) (da db : List ℕ) (f g : List K → V)
    (wa wb : List K → K) (ha : a.Computes da f wa) (hb : b.Computes db g wb) (h : RFits cfg da db) :
    ∃ r, RSpline.subAssign cfg a b = .ok r ∧ RResult a b da db wa wb (fun t => f t - g t) r := by
  unfold RSpline.subAssign
  cases he : a.wt.eqOp b.wt with
  | true =>
    obtain ⟨rfl, e⟩ := eqWeights ha hb he
    obtain ⟨n, h1, h2⟩ := C19_sub_assign cfg a.num b.num _ _ _ _ ha.num_computes hb.num_computes (fits_shared h)
    refine ⟨⟨n, a.wt⟩, ?_, Or.inl ⟨he, shared_computes ha hb e (· - ·) (fun c x y => (smul_sub c x y).symm) h2⟩⟩
    simp only [if_true, h1, bind_ok, pure_eq_ok]
  | false =>
    obtain ⟨x, y, w, hx, hy, hw, hx', hy', hw'⟩ := crossNumerators cfg hmax ha hb h
    obtain ⟨n, h1, h2⟩ := C19_sub_assign cfg x y _ _ _ _ hx' hy' (fits_self h.rounds h.rounds2 h.small)
    refine ⟨⟨n, w⟩, ?_, Or.inr ⟨he, cross_computes ha hb h.dims (· - ·) (fun c x y => (smul_sub c x y).symm) h2 hw'⟩⟩
    simp only [Bool.false_eq_true, if_false, hx, hy, hw, h1, bind_ok]
    rw [RSpline.assert_compatible (by rw [h2.degrees_eq, maxDegrees_self, hw'.degrees_eq])]
    rfl

/-- C38. `a * b` for any bilinear product of the control point types. -/
theorem C38_mul {W U : Type} [AddCommGroup W] [Module K W] [ScalarDiv K W] [LawfulScalarDiv K W]
    [AddCommGroup U] [Module K U] [ScalarDiv K U] [LawfulScalarDiv K U]
    (cfg : Cfg) (hmax : cfg.maxBinom ≤ 68) (mul : V → W → U) (B : V →ₗ[K] W →ₗ[K] U)
    (hB : ∀ x y, mul x y = B x y) (a : RSpline K V) (b : RSpline K W) (da db : List ℕ)
    (f : List K → V) (g : List K → W) (wa wb : List K → K) (ha : a.Computes da f wa) (hb : b.Computes db g wb)
    (hdim : db.length = da.length) (hdeg : ∀ p ∈ sumDegrees da db, p < cfg.maxBinom) :
    ∃ r, RSpline.mulOp cfg mul a b = .ok r ∧
      r.Computes (sumDegrees da db) (fun t => mul (f t) (g t)) (fun t => wa t * wb t) := by
  obtain ⟨n, h1, h2⟩ := C21_mul cfg hmax mul B hB a.num b.num da db _ _ ha.num_computes hb.num_computes hdim hdeg
  obtain ⟨w, h3, h4⟩ := C21_mul_scalar cfg hmax a.wt b.wt da db _ _ ha.wt_computes hb.wt_computes hdim hdeg
  refine ⟨⟨n, w⟩, ?_, (RSpline.computes_of h2 h4).congr (fun _ _ => rfl) (fun t ht h0 => ?_)⟩
  · unfold RSpline.mulOp
    rw [h1, h3]
    simp only [bind_ok]
    exact RSpline.ofSplines_ok (by rw [h2.degrees_eq, h4.degrees_eq])
  · have hl' : (sumDegrees da db).length = da.length := by simp [sumDegrees, hdim]
    have ht' : t.length = da.length := by rw [ht, hl']
    obtain ⟨e1, e2⟩ := mul_ne_zero_iff.mp h0
    rw [ha.num_value ht' e1, hb.num_value (by rw [hdim]; exact ht') e2, hB, hB]
    simp only [map_smul, LinearMap.smul_apply]
    rw [smul_comm (wb t), smul_smul (wa t), inv_smul_smul₀ h0]

/-- C38. Product of two scalar rational splines. -/
theorem C38_mul_scalar (cfg : Cfg) (hmax : cfg.maxBinom ≤ 68) (a b : RSpline K K) (da db : List ℕ)
    (f g : List K → K) (wa wb : List K → K) (ha : a.Computes da f wa) (hb : b.Computes db g wb)
    (hdim : db.length = da.length) (hdeg : ∀ p ∈ sumDegrees da db, p < cfg.maxBinom) :
    ∃ r, RSpline.mulOp cfg (fun x y => x * y) a b = .ok r ∧
      r.Computes (sumDegrees da db) (fun t => f t * g t) (fun t => wa t * wb t) :=
  C38_mul cfg hmax _ (LinearMap.mul K K) (fun _ _ => rfl) a b da db f g wa wb ha hb hdim hdeg

/-- C38. Product of two rational splines of points: the dot product. -/
theorem C38_mul_dot {n : ℕ} (cfg : Cfg) (hmax : cfg.maxBinom ≤ 68) (a b : RSpline K (Point K n)) (da db : List ℕ)
    (f g : List K → Point K n) (wa wb : List K → K) (ha : a.Computes da f wa) (hb : b.Computes db g wb)
    (hdim : db.length = da.length) (hdeg : ∀ p ∈ sumDegrees da db, p < cfg.maxBinom) :
    ∃ r, RSpline.mulOp cfg Point.dot a b = .ok r ∧
      r.Computes (sumDegrees da db) (fun t => ∑ j, (f t).val j * (g t).val j) (fun t => wa t * wb t) := by
  obtain ⟨r, h1, h2⟩ := C38_mul cfg hmax Point.dot (Point.dotB K n) (fun _ _ => rfl) a b da db f g wa wb ha hb hdim hdeg
  exact ⟨r, h1, h2.congr (fun _ _ => rfl) fun t _ _ => Point.dot_eq _ _⟩

/-! ## C39 -/

omit [CharZero K] in
/-- C39. `a * c`, `c * a`. -/
theorem C39_scale (a : RSpline K V) (ds : List ℕ) (f : List K → V) (w : List K → K) (ha : a.Computes ds f w) (c : K) :
    ∃ r, a.smulOp c = .ok r ∧ a.smulAssign c = .ok r ∧ r.Computes ds (fun t => c • f t) w := by
  obtain ⟨n, h1, h2⟩ := C20_scale a.num ds _ ha.num_computes c
  have hd : n.degrees = a.wt.degrees := by rw [h2.degrees_eq, ha.wt_degrees]
  refine ⟨⟨n, a.wt⟩, ?_, ?_, (RSpline.computes_of h2 ha.wt_computes).congr (fun _ _ => rfl) (fun t ht h0 => ?_)⟩
  · unfold RSpline.smulOp; rw [h1]; exact RSpline.ofSplines_ok hd
  · unfold RSpline.smulAssign; rw [h1]; simp only [bind_ok]; rw [RSpline.assert_compatible hd]; rfl
  · rw [ha.num_value ht h0, smul_comm c, inv_smul_smul₀ h0]

omit [CharZero K] in
/-- the loop of `+=` and `-=` with a point -/
theorem shiftLoop (a : RSpline K V) (ds : List ℕ) (f : List K → V) (w : List K → K) (ha : a.Computes ds f w)
    (op : V → V → V) (p : V) :
    loop a.num.ncp (fun i cps => do
      let x ← rd cps i
      let w ← rd a.wt.cps i
      wr cps i (op x (w • p))) a.num.cps
      = .ok (tab (size ds) (fun i => op (a.num.cps.getD i 0) (a.wt.cps.getD i 0 • p))) := by
  have hl : a.num.cps.length = size ds := by rw [ha.num_wf.cps_len, ha.num_degrees]
  have hwl : a.wt.cps.length = size ds := by rw [ha.wt_wf.cps_len, ha.wt_degrees]
  have hn : a.num.ncp = size ds := by rw [ha.num_wf.ncp_eq, ha.num_degrees]
  rw [hn]
  conv_lhs => arg 3; rw [eq_tab a.num.cps 0, hl]
  apply RSpline.loop_update
  intro k H hk hH
  rw [rd_tab _ hk, rd_getElem (by omega)]
  simp only [bind_ok]
  rw [wr_tab _ _ hk, hH]
  simp [hwl, hk]

omit [CharZero K] in
theorem shift_computes (a : RSpline K V) (ds : List ℕ) (f : List K → V) (w : List K → K) (ha : a.Computes ds f w)
    (op : V → V → V) (hop : ∀ (n : List ℕ) (t : List K) (F G : ℕ → V), neval n t (fun i => op (F i) (G i)) = op (neval n t F) (neval n t G))
    (hop2 : ∀ (c : K) (x y : V), op (c • x) (c • y) = c • op x y) (p : V) :
    (⟨{ a.num with cps := tab (size ds) (fun i => op (a.num.cps.getD i 0) (a.wt.cps.getD i 0 • p)) }, a.wt⟩
      : RSpline K V).Computes ds (fun t => op (f t) p) w := by
  have hwf : ({ a.num with cps := tab (size ds) (fun i => op (a.num.cps.getD i 0) (a.wt.cps.getD i 0 • p)) }
      : Spline V).WF := ha.num_wf.setCps (by simp [ha.num_degrees])
  refine RSpline.Computes.mk' hwf ha.wt_wf ha.num_degrees ha.wt_degrees (fun t ht => ha.wt_value ht) ?_
  intro t ht h0
  have e : ({ a.num with cps := tab (size ds) (fun i => op (a.num.cps.getD i 0) (a.wt.cps.getD i 0 • p)) }
      : Spline V).value t = op (a.num.value t) (a.wt.value t • p) := by
    rw [Spline.value_eq_neval, Spline.value_eq_neval, Spline.value_eq_neval]
    show neval a.num.degrees t _ = op _ (neval a.wt.degrees t _ • p)
    rw [ha.num_degrees, ha.wt_degrees]
    have : neval ds t (fun i => a.wt.cps.getD i 0) • p = neval ds t (fun i => a.wt.cps.getD i 0 • p) := by
      have := neval_map (LinearMap.toSpanSingleton K V p) ds t (fun i => a.wt.cps.getD i 0)
      simpa using this.symm
    rw [this, ← hop]
    apply neval_congr
    intro i hi
    show (tab _ _).getD i 0 = _
    simp [hi]
  rw [e, ha.num_value ht h0, ha.wt_value ht, hop2]

omit [CharZero K] in
/-- C39. `a + P`, `P + a` and `a += P`. -/
theorem C39_add_point (a : RSpline K V) (ds : List ℕ) (f : List K → V) (w : List K → K) (ha : a.Computes ds f w) (p : V) :
    ∃ r, a.addPoint p = .ok r ∧ a.addPointAssign p = .ok r ∧ r.Computes ds (fun t => f t + p) w := by
  have hd : a.num.degrees = a.wt.degrees := ha.deg_eq
  have h1 : a.addPointAssign p = .ok ⟨{ a.num with
      cps := tab (size ds) (fun i => (a.num.cps.getD i 0) + (a.wt.cps.getD i 0 • p)) }, a.wt⟩ := by
    unfold RSpline.addPointAssign
    rw [shiftLoop a ds f w ha (· + ·) p]
    simp only [bind_ok]
    rw [assertM_ok (by simp [RSpline.compatible, hd])]
    rfl
  refine ⟨_, ?_, h1, shift_computes a ds f w ha (· + ·) (fun n t F G => neval_add n t F G)
    (fun c x y => (smul_add c x y).symm) p⟩
  unfold RSpline.addPoint
  rw [RSpline.ofSplines_ok hd]
  exact h1

omit [CharZero K] in
/-- C39. `a - P` and `a -= P`. -/
theorem C39_sub_point (a : RSpline K V) (ds : List ℕ) (f : List K → V) (w : List K → K) (ha : a.Computes ds f w) (p : V) :
    ∃ r, a.subPoint p = .ok r ∧ a.subPointAssign p = .ok r ∧ r.Computes ds (fun t => f t - p) w := by
  have hd : a.num.degrees = a.wt.degrees := ha.deg_eq
  have h1 : a.subPointAssign p = .ok ⟨{ a.num with
      cps := tab (size ds) (fun i => (a.num.cps.getD i 0) - (a.wt.cps.getD i 0 • p)) }, a.wt⟩ := by
    unfold RSpline.subPointAssign
    rw [shiftLoop a ds f w ha (· - ·) p]
    rfl
  refine ⟨_, ?_, h1, shift_computes a ds f w ha (· - ·) (fun n t F G => neval_sub n t F G)
    (fun c x y => (smul_sub c x y).symm) p⟩
  unfold RSpline.subPoint
  rw [RSpline.ofSplines_ok hd]
  exact h1

omit [CharZero K] in
/-- C39. `-a`. -/
theorem C39_neg (a : RSpline K V) (ds : List ℕ) (f : List K → V) (w : List K → K) (ha : a.Computes ds f w) :
    ∃ r, a.negOp = .ok r ∧ r.Computes ds (fun t => - f t) w := by
  obtain ⟨n, h1, h2⟩ := C20_neg (K := K) a.num ds _ ha.num_computes
  refine ⟨⟨n, a.wt⟩, ?_, (RSpline.computes_of h2 ha.wt_computes).congr (fun _ _ => rfl) (fun t ht h0 => ?_)⟩
  · unfold RSpline.negOp; rw [h1]; exact RSpline.ofSplines_ok (by rw [h2.degrees_eq, ha.wt_degrees])
  · rw [ha.num_value ht h0, smul_neg, inv_smul_smul₀ h0]

end

end Bezman.Props
