import Verif.Props.Rational
import Verif.Props.Box
import Verif.Proofs.RationalBox

/-! # Properties: rational splines, continued -/

namespace Bezman.Props
open Spec Finset

/-! ### C38, C39: concrete cases -/

/-- a rational surface with degrees (1,2) -/
def R' : RSpline ℚ (Point ℚ 2) :=
  ⟨Ex.surf' (Ex.pt 0 0) (Ex.pt 2 0) (Ex.pt 2 1) (Ex.pt 0 9) (Ex.pt (1 / 2) 1) (Ex.pt 2 2), Ex.surf' 1 1 2 3 1 4⟩

theorem R'_computes : R'.Computes [1, 2] (fun t : List ℚ => (R'.wt.value t)⁻¹ • R'.num.value t) (fun t => R'.wt.value t) :=
  RSpline.computes_of (n := R'.num) (d := R'.wt) (Spline.WF.computes (K := ℚ) (s := R'.num) (Ex.surf'_wf ..))
    (Spline.WF.computes (K := ℚ) (s := R'.wt) (Ex.surf'_wf ..))

theorem rfits_RR' : RFits Ex.cfg [2, 1] [1, 2] := ⟨rfl, by decide, by decide, by decide, by decide⟩
theorem rfits_RR : RFits Ex.cfg [2, 1] [2, 1] := ⟨rfl, by decide, by decide, by decide, by decide⟩

/-- different weights: general case -/
example : ∃ r, RSpline.addOp Ex.cfg R R' = .ok r ∧ r.Computes [3, 3]
    (fun t : List ℚ => (R.wt.value t)⁻¹ • R.num.value t + (R'.wt.value t)⁻¹ • R'.num.value t)
    (fun t => R.wt.value t * R'.wt.value t) := by
  obtain ⟨r, h1, h2⟩ := C38_add (K := ℚ) Ex.cfg Ex.cfg_ok R R' _ _ _ _ _ _ R_computes R'_computes rfits_RR'
  rcases h2 with ⟨h, _⟩ | ⟨_, h⟩
  · exact absurd h (by decide)
  · exact ⟨r, h1, h⟩

/-- the same weights: shared denominator -/
example : ∃ r, RSpline.subOp Ex.cfg R R = .ok r ∧ r.Computes [2, 1] (fun _ : List ℚ => (0 : Point ℚ 2))
    (fun t => R.wt.value t) := by
  obtain ⟨r, h1, h2⟩ := C38_sub (K := ℚ) Ex.cfg Ex.cfg_ok R R _ _ _ _ _ _ R_computes R_computes rfits_RR
  rcases h2 with ⟨_, h⟩ | ⟨h, _⟩
  · exact ⟨r, h1, h.congr (fun _ _ => rfl) fun _ _ _ => sub_self _⟩
  · rw [C34_refl] at h; cases h

example : ∃ r, RSpline.mulOp Ex.cfg Point.dot R R' = .ok r ∧ r.Computes [3, 3]
    (fun t : List ℚ => ∑ j, ((R.wt.value t)⁻¹ • R.num.value t).val j * ((R'.wt.value t)⁻¹ • R'.num.value t).val j)
    (fun t => R.wt.value t * R'.wt.value t) :=
  C38_mul_dot (K := ℚ) Ex.cfg Ex.cfg_ok R R' _ _ _ _ _ _ R_computes R'_computes rfl (by decide)

example : ∃ r, R.addPoint (Ex.pt 1 2) = .ok r ∧ R.addPointAssign (Ex.pt 1 2) = .ok r ∧
    r.Computes [2, 1] (fun t : List ℚ => (R.wt.value t)⁻¹ • R.num.value t + Ex.pt 1 2) (fun t => R.wt.value t) :=
  C39_add_point (K := ℚ) R _ _ _ R_computes _

/-! ## C40 -/

section
variable {K V : Type} [Field K] [CharZero K] [DecidableEq K] [AddCommGroup V] [Module K V] [ScalarDiv K V]
  [LawfulScalarDiv K V]

/-- C40. Order elevation changes neither the rational function nor the weight function. -/
theorem C40_order_elevate (r : RSpline K V) (ds : List ℕ) (f : List K → V) (w : List K → K) (hr : r.Computes ds f w)
    (d p : ℕ) (hp : ds[d]? = some p) (hsize : size (ds.set d (p + 1)) < 2 ^ 31) :
    ∃ r', r.orderElevate d = .ok r' ∧ r'.Computes (ds.set d (p + 1)) f w := by
  obtain ⟨n, h1, h2⟩ := C12_order_elevate (K := K) r.num ds _ hr.num_computes d p hp hsize
  obtain ⟨m, h3, h4⟩ := C12_order_elevate (K := K) r.wt ds _ hr.wt_computes d p hp hsize
  refine ⟨⟨n, m⟩, ?_, (RSpline.computes_of h2 h4).congr (fun _ _ => rfl) (fun t ht h0 => ?_)⟩
  · unfold RSpline.orderElevate
    rw [h1, h3]
    simp only [bind_ok]
    rw [RSpline.assert_compatible (by rw [h2.degrees_eq, h4.degrees_eq])]
    rfl
  · rw [hr.num_value (by simpa using ht) h0, inv_smul_smul₀ h0]

end

section
variable {K V : Type} [Field K] [LinearOrder K] [IsStrictOrderedRing K] [AddCommGroup V] [Module K V]
  [ScalarDiv K V] [LawfulScalarDiv K V]

/-- C40. Splitting: the two parts trace the rational function over the two sub-boxes. -/
theorem C40_split (r : RSpline K V) (ds : List ℕ) (f : List K → V) (w : List K → K) (hr : r.Computes ds f w)
    (d : ℕ) (hd : d < ds.length) (z : K) (h0 : 0 < z) (h1 : z < 1) :
    ∃ a b, r.splitAt z d = .ok (a, b) ∧
      a.Computes ds (fun t => f (t.modify d (fun x => z * x))) (fun t => w (t.modify d (fun x => z * x))) ∧
      b.Computes ds (fun t => f (t.modify d (fun x => z + (1 - z) * x)))
        (fun t => w (t.modify d (fun x => z + (1 - z) * x))) := by
  obtain ⟨n1, n2, e1, c1, c2⟩ := C31_split r.num ds _ hr.num_computes d hd z h0 h1
  obtain ⟨m1, m2, e2, c3, c4⟩ := C31_split r.wt ds _ hr.wt_computes d hd z h0 h1
  refine ⟨⟨n1, m1⟩, ⟨n2, m2⟩, ?_, ?_, ?_⟩
  · exact RSpline.splitAt_pair hr.num_wf hr.wt_wf hr.num_degrees hr.wt_degrees (List.getElem?_eq_getElem hd) e1 e2
  · refine (RSpline.computes_of c1 c3).congr (fun _ _ => rfl) (fun t ht h => ?_)
    rw [hr.num_value (by simpa using ht) h, inv_smul_smul₀ h]
  · refine (RSpline.computes_of c2 c4).congr (fun _ _ => rfl) (fun t ht h => ?_)
    rw [hr.num_value (by simpa using ht) h, inv_smul_smul₀ h]

omit [IsStrictOrderedRing K] [ScalarDiv K V] [LawfulScalarDiv K V] in
/-- C40. A position outside the open unit interval raises an error. -/
theorem C40_split_throws (r : RSpline K V) (d : ℕ) (z : K) (h : ¬ (0 < z ∧ z < 1)) :
    r.splitAt z d = .error .throws := by
  unfold RSpline.splitAt
  rw [Spline.splitAt_throws h]
  rfl

/-- C40. Splitting at several positions: part `i` traces the rational function between
split position `i - 1` and `i` (with `0` and `1` at the ends). -/
theorem C40_split_many (r : RSpline K V) (ds : List ℕ) (f : List K → V) (w : List K → K) (hr : r.Computes ds f w)
    (d : ℕ) (hd : d < ds.length) (planes : List K) (hinc : planes.Pairwise (· < ·)) (hr01 : ∀ z ∈ planes, 0 < z ∧ z < 1) :
    ∃ l, r.splitAtMany planes d = .ok l ∧ l.length = planes.length + 1 ∧
      ∀ (i : ℕ) (a : RSpline K V) (lo hi : K), l[i]? = some a → (0 :: planes ++ [1])[i]? = some lo →
        (0 :: planes ++ [1])[i + 1]? = some hi →
        a.Computes ds (fun t => f (t.modify d (fun x => lo + (hi - lo) * x)))
          (fun t => w (t.modify d (fun x => lo + (hi - lo) * x))) := by
  obtain ⟨ln, e1, l1, c1⟩ := C33_split_many r.num ds _ hr.num_computes d hd planes hinc hr01
  obtain ⟨lw, e2, l2, c2⟩ := C33_split_many r.wt ds _ hr.wt_computes d hd planes hinc hr01
  refine ⟨_, RSpline.splitAtMany_pair hr.num_wf hr.wt_wf hr.num_degrees hr.wt_degrees
    (List.getElem?_eq_getElem hd) e1 e2, by simp [l1, l2], ?_⟩
  intro i a lo hi ha hlo hhi
  rw [List.getElem?_zipWith] at ha
  cases hn : ln[i]? with
  | none => simp [hn] at ha
  | some n =>
    cases hm : lw[i]? with
    | none => simp [hn, hm] at ha
    | some m =>
      simp only [hn, hm, Option.some.injEq] at ha
      subst ha
      refine (RSpline.computes_of (c1 i n lo hi hn hlo hhi) (c2 i m lo hi hm hlo hhi)).congr (fun _ _ => rfl)
        (fun t ht h => ?_)
      rw [hr.num_value (by simpa using ht) h, inv_smul_smul₀ h]

end

example : ∃ r', R.orderElevate 1 = .ok r' ∧
    r'.Computes [2, 2] (fun t : List ℚ => (R.wt.value t)⁻¹ • R.num.value t) (fun t => R.wt.value t) :=
  C40_order_elevate (K := ℚ) R _ _ _ R_computes 1 1 rfl (by decide)

example : ∃ a b, R.splitAt (1/3 : ℚ) 1 = .ok (a, b) := by
  obtain ⟨a, b, h, _⟩ := C40_split (K := ℚ) R _ _ _ R_computes 1 (by decide) (1/3) (by norm_num) (by norm_num)
  exact ⟨a, b, h⟩

example : ∃ l, R.splitAtMany [(1/4 : ℚ), 1/2] 0 = .ok l ∧ l.length = 3 := by
  obtain ⟨l, h1, h2, _⟩ := C40_split_many (K := ℚ) R _ _ _ R_computes 0 (by decide) [1/4, 1/2]
    (by simp; norm_num) (by simp; norm_num)
  exact ⟨l, h1, h2⟩

/-! ## C43: basis functions -/

section
variable {K V : Type} [Field K] [DecidableEq K] [AddCommGroup V] [Module K V] [ScalarDiv K V] [LawfulScalarDiv K V]

/-- C43. The rational basis functions: in the order of the control points they are
`w_idx B_idx(t) / w(t)`, and they sum to one. -/
theorem C43_basis (cfg : Cfg) (hmax : cfg.maxBinom ≤ 68) (r : RSpline K V) (ds : List ℕ) (f : List K → V)
    (w : List K → K) (hr : r.Computes ds f w) (hd : ∀ p ∈ ds, p < cfg.maxBinom) (t : List K)
    (ht : t.length = ds.length) (h0 : w t ≠ 0) :
    ∃ l, r.basisFunctions cfg t = .ok l ∧ l.length = size ds ∧ l.sum = 1 ∧
      ∀ idx, ValidIdx ds idx → ∃ n c, r.globalToLocal idx = .ok n ∧ r.weight idx = .ok c ∧
        l[n]? = some (c * bernProd ds idx t / w t) := by
  have hv := hr.wt_value ht
  refine ⟨_, RSpline.basisFunctions_ok hmax hr.num_degrees hr.wt_wf hr.wt_degrees hd ht (by rw [hv]; exact h0),
    by simp, ?_, ?_⟩
  · rw [list_sum_tab]
    have := sum_pw ds (Spline.bernFns_length ht) (fun n => r.wt.cps.getD n 0)
    rw [← neval_eq_tens, ← hr.wt_degrees, ← Spline.value_eq_neval, hr.wt_degrees, hv] at this
    have e : ∀ n, pw (bernFns ds t) (unflat ds n) * (r.wt.value t)⁻¹ * r.wt.cps.getD n 0
        = (w t)⁻¹ * (pw (bernFns ds t) (unflat ds n) • r.wt.cps.getD n 0) := by
      intro n; rw [hv, smul_eq_mul]; ring
    simp only [e]
    rw [← Finset.mul_sum, this, inv_mul_cancel₀ h0]
  · intro idx hidx
    refine ⟨_, _, Spline.globalToLocal_ok hr.wt_wf (by unfold Spline.dim; rw [hr.wt_degrees]; exact hidx.length),
      Spline.controlPoint_ok hr.wt_wf (by rw [hr.wt_degrees]; exact hidx), ?_⟩
    rw [hr.wt_degrees, tab_getElem? _ (flatIndex_lt hidx), unflat_flatIndex hidx, pw_bernFns hidx.length ht, hv]
    congr 1
    unfold Spline.net
    rw [hr.wt_degrees]
    ring

/-- C43. Combined with the control points they reproduce `Evaluate`. -/
theorem C43_basis_evaluate (cfg : Cfg) (hmax : cfg.maxBinom ≤ 68) (r : RSpline K V) (ds : List ℕ) (f : List K → V)
    (w : List K → K) (hr : r.Computes ds f w) (hd : ∀ p ∈ ds, p < cfg.maxBinom) (t : List K)
    (ht : t.length = ds.length) (h0 : w t ≠ 0) (P : ℕ → V)
    (hP : ∀ n, n < size ds → ∃ idx, r.localToGlobal n = .ok idx ∧ r.controlPoint idx = .ok (P n)) :
    ∃ l, r.basisFunctions cfg t = .ok l ∧
      r.evaluate t = .ok (∑ n ∈ range (size ds), l.getD n 0 • P n) := by
  have hv := hr.wt_value ht
  refine ⟨_, RSpline.basisFunctions_ok hmax hr.num_degrees hr.wt_wf hr.wt_degrees hd ht (by rw [hv]; exact h0), ?_⟩
  rw [RSpline.evaluate_ok hr.num_wf hr.wt_wf hr.num_degrees hr.wt_degrees ht (by rw [hv]; exact h0)]
  congr 1
  rw [Spline.value_eq_neval (s := r.num), hr.num_degrees, neval_eq_tens, ← sum_pw ds (Spline.bernFns_length ht), Finset.smul_sum]
  apply Finset.sum_congr rfl
  intro n hn
  have hn : n < size ds := by simpa using hn
  obtain ⟨idx, e1, e2⟩ := hP n hn
  have hidx : idx = unflat ds n := by
    unfold RSpline.localToGlobal at e1
    rw [Spline.localToGlobal_ok hr.wt_wf, hr.wt_degrees] at e1
    exact (Except.ok.inj e1).symm
  subst hidx
  unfold RSpline.controlPoint at e2
  rw [Spline.controlPoint_ok hr.num_wf (by rw [hr.num_degrees]; exact unflat_valid _ _),
    Spline.controlPoint_ok hr.wt_wf (by rw [hr.wt_degrees]; exact unflat_valid _ _)] at e2
  simp only [bind_ok] at e2
  unfold Spline.net at e2
  rw [hr.num_degrees, hr.wt_degrees, flatIndex_unflat hn] at e2
  have hw0 : r.wt.cps.getD n 0 ≠ 0 := by
    intro h
    rw [h, RSpline.divM_zero] at e2
    cases e2
  rw [RSpline.divM_ok _ hw0] at e2
  have hPn := Except.ok.inj e2
  rw [← hPn]
  have : (tab (size ds) (fun n => pw (bernFns ds t) (unflat ds n) * (r.wt.value t)⁻¹ * r.wt.cps.getD n 0)).getD n 0
      = pw (bernFns ds t) (unflat ds n) * (r.wt.value t)⁻¹ * r.wt.cps.getD n 0 := by
    rw [List.getD_eq_getElem?_getD, tab_getElem? _ hn]; rfl
  rw [this, smul_smul, smul_smul, mul_assoc, mul_inv_cancel₀ hw0, mul_one, mul_comm]

/-- C43. The unweighted basis functions, `B_idx(t) / w(t)`, reproduce `Evaluate` with
the weighted control points. -/
theorem C43_unweighted (cfg : Cfg) (hmax : cfg.maxBinom ≤ 68) (r : RSpline K V) (ds : List ℕ) (f : List K → V)
    (w : List K → K) (hr : r.Computes ds f w) (hd : ∀ p ∈ ds, p < cfg.maxBinom) (t : List K)
    (ht : t.length = ds.length) (h0 : w t ≠ 0) :
    ∃ l, r.unweightedBasisFunctions cfg t = .ok l ∧ l.length = size ds ∧
      (∀ idx, ValidIdx ds idx → ∃ n, r.globalToLocal idx = .ok n ∧ l[n]? = some (bernProd ds idx t / w t)) ∧
      r.evaluate t = .ok (List.zipWith (fun b x => b • x) l r.num.cps).sum := by
  have hv := hr.wt_value ht
  refine ⟨_, RSpline.unweightedBasisFunctions_ok hmax hr.num_degrees hr.wt_wf hr.wt_degrees hd ht
    (by rw [hv]; exact h0), by simp, ?_, ?_⟩
  · intro idx hidx
    refine ⟨_, Spline.globalToLocal_ok hr.wt_wf (by unfold Spline.dim; rw [hr.wt_degrees]; exact hidx.length), ?_⟩
    rw [hr.wt_degrees, tab_getElem? _ (flatIndex_lt hidx), unflat_flatIndex hidx, pw_bernFns hidx.length ht, hv,
      div_eq_mul_inv]
  · rw [RSpline.evaluate_ok hr.num_wf hr.wt_wf hr.num_degrees hr.wt_degrees ht (by rw [hv]; exact h0)]
    congr 1
    conv_rhs => rw [hr.num_wf.cps_tab, hr.num_degrees, zipWith_tab, list_sum_tab]
    rw [Spline.value_eq_neval (s := r.num), hr.num_degrees, neval_eq_tens, ← sum_pw ds (Spline.bernFns_length ht),
      Finset.smul_sum]
    apply Finset.sum_congr rfl
    intro n _
    rw [smul_smul, mul_comm]

end

example : ∃ l, R.basisFunctions Ex.cfg [(1/3 : ℚ), 1/2] = .ok l ∧ l.length = 6 ∧ l.sum = 1 := by
  obtain ⟨l, h1, h2, h3, _⟩ := C43_basis (K := ℚ) Ex.cfg Ex.cfg_ok R _ _ _ R_computes (by decide) _ rfl R_weight
  exact ⟨l, h1, h2, h3⟩

example : ∃ l, R.unweightedBasisFunctions Ex.cfg [(1/3 : ℚ), 1/2] = .ok l ∧ l.length = 6 ∧
    R.evaluate [(1/3 : ℚ), 1/2] = .ok (List.zipWith (fun b x => b • x) l R.num.cps).sum := by
  obtain ⟨l, h1, h2, _, h3⟩ := C43_unweighted (K := ℚ) Ex.cfg Ex.cfg_ok R _ _ _ R_computes (by decide) _ rfl R_weight
  exact ⟨l, h1, h2, h3⟩

/-! ## C44 -/

section
variable {K V : Type} [Field K] [LinearOrder K] [IsStrictOrderedRing K] [AddCommGroup V] [Module K V]
  [ScalarDiv K V] [LawfulScalarDiv K V] [Coords K V] [LawfulCoords K V]
open Coords

/-- every control point is found in the list of the auxiliary spline and vice versa -/
theorem mem_euclid {r : RSpline K V} {ds : List ℕ} {f : List K → V} {w : List K → K} (hr : r.Computes ds f w)
    (hne : ∀ c ∈ r.wt.cps, c ≠ 0) (x : V) :
    x ∈ r.euclid.cps ↔ ∃ idx, ValidIdx ds idx ∧ r.controlPoint idx = .ok x := by
  have hw := RSpline.euclid_wf hr.num_wf
  have hd : r.euclid.degrees = ds := hr.num_degrees
  constructor
  · intro hx
    obtain ⟨n, hn, rfl⟩ := List.getElem_of_mem hx
    have hn' : n < size ds := by rw [hw.cps_len, hd] at hn; exact hn
    refine ⟨unflat ds n, unflat_valid _ _, ?_⟩
    rw [RSpline.controlPoint_euclid hr.num_wf hr.wt_wf hr.deg_eq hne (by rw [hr.num_degrees]; exact unflat_valid _ _),
      Spline.controlPoint_ok hw (by rw [hd]; exact unflat_valid _ _)]
    unfold Spline.net
    rw [hd, flatIndex_unflat hn']
    simp [hn]
  · rintro ⟨idx, hidx, h⟩
    rw [RSpline.controlPoint_euclid hr.num_wf hr.wt_wf hr.deg_eq hne (by rw [hr.num_degrees]; exact hidx),
      Spline.controlPoint_ok hw (by rw [hd]; exact hidx)] at h
    rw [← Except.ok.inj h]
    exact Spline.getD_mem hw (flatIndex_lt (by rw [hd]; exact hidx))

theorem rvalue_bounds {r : RSpline K V} {ds : List ℕ} {f : List K → V} {w : List K → K} (hr : r.Computes ds f w)
    (hpos : ∀ c ∈ r.wt.cps, 0 < c) {t : List K} (ht : t.length = ds.length) (h01 : InCube t) :
    0 < w t ∧ ∀ (j : Fin (Coords.n K V)) (lo hi : K),
      (∀ x ∈ r.euclid.cps, lo ≤ coord x j) → (∀ x ∈ r.euclid.cps, (coord x j : K) ≤ hi) →
      lo ≤ (coord (f t) j : K) ∧ (coord (f t) j : K) ≤ hi := by
  have hp' : ∀ i, i < size ds → 0 < r.wt.cps.getD i 0 := by
    intro i hi
    exact hpos _ (Spline.getD_mem hr.wt_wf (by rw [hr.wt_degrees]; exact hi))
  have hwv : w t = neval ds t (fun i => r.wt.cps.getD i 0) := by
    rw [← hr.wt_value ht, Spline.value_eq_neval, hr.wt_degrees]
  have hw0 : 0 < w t := by rw [hwv]; exact RSpline.neval_pos ht h01 hp'
  refine ⟨hw0, fun j lo hi hlo hhi => ?_⟩
  have hf : (coord (f t) j : K) = (neval ds t (fun i => r.wt.cps.getD i 0))⁻¹ * neval ds t (fun i => coord (r.num.cps.getD i 0) j) := by
    have h1 := hr.num_value ht hw0.ne'
    have h2 : f t = (w t)⁻¹ • r.num.value t := by rw [h1, inv_smul_smul₀ hw0.ne']
    rw [h2, LawfulCoords.coord_smul, Spline.coord_value, hr.num_degrees, hwv]
  have he : ∀ i, i < size ds → ((r.wt.cps.getD i 0)⁻¹ • r.num.cps.getD i 0) ∈ r.euclid.cps := by
    intro i hi
    unfold RSpline.euclid
    rw [hr.num_degrees]
    exact List.mem_map.mpr ⟨i, by simpa using hi, rfl⟩
  rw [hf]
  constructor
  · apply RSpline.value_mean_ge ht h01 hp'
    intro i hi
    have := hlo _ (he i hi)
    rwa [LawfulCoords.coord_smul] at this
  · apply RSpline.value_mean_le ht h01 hp'
    intro i hi
    have := hhi _ (he i hi)
    rwa [LawfulCoords.coord_smul] at this

/-- C44. With positive weights: the two corners exist, bound every value on the unit
cube, and each of their coordinates is a coordinate of some control point. -/
theorem C44_bounding_box (r : RSpline K V) (ds : List ℕ) (f : List K → V) (w : List K → K) (hr : r.Computes ds f w)
    (hpos : ∀ c ∈ r.wt.cps, 0 < c) :
    ∃ lo hi : V, r.minimumCorner = .ok lo ∧ r.maximumCorner = .ok hi ∧
      (∀ t : List K, t.length = ds.length → InCube t → ∃ x, r.evaluate t = .ok x ∧
        ∀ j : Fin (Coords.n K V), (coord lo j : K) ≤ coord x j ∧ (coord x j : K) ≤ coord hi j) ∧
      ∀ j : Fin (Coords.n K V),
        (∃ idx x, ValidIdx ds idx ∧ r.controlPoint idx = .ok x ∧ (coord x j : K) = coord lo j) ∧
        (∃ idx x, ValidIdx ds idx ∧ r.controlPoint idx = .ok x ∧ (coord x j : K) = coord hi j) := by
  have hne : ∀ c ∈ r.wt.cps, c ≠ 0 := fun c hc => (hpos c hc).ne'
  have hw := RSpline.euclid_wf hr.num_wf
  obtain ⟨hi, h1, h2, h3⟩ := Spline.maximumCorner_ok (K := K) hw
  obtain ⟨lo, h4, h5, h6⟩ := Spline.minimumCorner_ok (K := K) hw
  rw [← RSpline.maximumCorner_eq hr.num_wf hr.wt_wf hr.deg_eq hne] at h1
  rw [← RSpline.minimumCorner_eq hr.num_wf hr.wt_wf hr.deg_eq hne] at h4
  refine ⟨lo, hi, h4, h1, ?_, fun j => ⟨?_, ?_⟩⟩
  · intro t ht h01
    obtain ⟨hw0, hb⟩ := rvalue_bounds hr hpos ht h01
    exact ⟨_, hr.eval t ht hw0.ne', fun j => hb j _ _ (h5 j) (h2 j)⟩
  · obtain ⟨x, hx, e⟩ := h6 j
    obtain ⟨idx, i1, i2⟩ := (mem_euclid hr hne x).mp hx
    exact ⟨idx, x, i1, i2, e⟩
  · obtain ⟨x, hx, e⟩ := h3 j
    obtain ⟨idx, i1, i2⟩ := (mem_euclid hr hne x).mp hx
    exact ⟨idx, x, i1, i2, e⟩

/-- C44. `FitsIntoUnitCube` returns true exactly if every control point lies in the
unit cube. -/
theorem C44_fits_iff (r : RSpline K V) (ds : List ℕ) (f : List K → V) (w : List K → K) (hr : r.Computes ds f w)
    (hne : ∀ c ∈ r.wt.cps, c ≠ 0) :
    ∃ b : Bool, r.fitsIntoUnitCube = .ok b ∧
      (b = true ↔ ∀ idx x, ValidIdx ds idx → r.controlPoint idx = .ok x →
        ∀ j : Fin (Coords.n K V), (0 : K) ≤ coord x j ∧ (coord x j : K) ≤ 1) := by
  obtain ⟨b, h1, h2⟩ := Spline.fitsIntoUnitCube_ok (K := K) (RSpline.euclid_wf hr.num_wf)
  rw [← RSpline.fitsIntoUnitCube_eq hr.num_wf hr.wt_wf hr.deg_eq hne] at h1
  refine ⟨b, h1, h2.trans ⟨?_, ?_⟩⟩
  · intro h idx x hidx hx j
    exact h x ((mem_euclid hr hne x).mpr ⟨idx, hidx, hx⟩) j
  · intro h x hx j
    obtain ⟨idx, i1, i2⟩ := (mem_euclid hr hne x).mp hx
    exact h idx x i1 i2 j

/-- C44. If it returns true and the weights are positive, values on the unit cube stay
in the unit cube. -/
theorem C44_fits_sound (r : RSpline K V) (ds : List ℕ) (f : List K → V) (w : List K → K) (hr : r.Computes ds f w)
    (hpos : ∀ c ∈ r.wt.cps, 0 < c) (h : r.fitsIntoUnitCube = .ok true) (t : List K) (ht : t.length = ds.length)
    (h01 : InCube t) :
    ∃ x, r.evaluate t = .ok x ∧ ∀ j : Fin (Coords.n K V), (0 : K) ≤ coord x j ∧ (coord x j : K) ≤ 1 := by
  have hne : ∀ c ∈ r.wt.cps, c ≠ 0 := fun c hc => (hpos c hc).ne'
  obtain ⟨b, h1, h2⟩ := C44_fits_iff r ds f w hr hne
  rw [h] at h1
  injection h1 with h1
  have hc := h2.mp h1.symm
  obtain ⟨hw0, hb⟩ := rvalue_bounds hr hpos ht h01
  refine ⟨_, hr.eval t ht hw0.ne', fun j => hb j 0 1 ?_ ?_⟩
  · intro x hx
    obtain ⟨idx, i1, i2⟩ := (mem_euclid hr hne x).mp hx
    exact (hc idx x i1 i2 j).1
  · intro x hx
    obtain ⟨idx, i1, i2⟩ := (mem_euclid hr hne x).mp hx
    exact (hc idx x i1 i2 j).2

end

theorem R_pos : ∀ c ∈ R.wt.cps, (0 : ℚ) < c := by
  intro c hc
  simp only [R, Ex.surf, List.mem_cons, List.not_mem_nil, or_false] at hc
  rcases hc with rfl | rfl | rfl | rfl | rfl | rfl <;> norm_num

/-- every control point of `R` can be read -/
example : ∃ P : ℕ → Point ℚ 2, ∀ n, n < size [2, 1] → ∃ idx, R.localToGlobal n = .ok idx ∧ R.controlPoint idx = .ok (P n) := by
  refine ⟨fun n => R.euclid.cps.getD n 0, fun n hn => ⟨unflat [2, 1] n, Spline.localToGlobal_ok R_computes.wt_wf n, ?_⟩⟩
  have hv : ValidIdx R.num.degrees (unflat [2, 1] n) := unflat_valid _ _
  rw [RSpline.controlPoint_euclid R_computes.num_wf R_computes.wt_wf rfl (fun c hc => (R_pos c hc).ne') hv, Spline.controlPoint_ok (RSpline.euclid_wf R_computes.num_wf) hv]
  have : flatIndex R.euclid.degrees (unflat [2, 1] n) = n := flatIndex_unflat hn
  unfold Spline.net
  rw [this]

example : ∃ lo hi : Point ℚ 2, R.minimumCorner = .ok lo ∧ R.maximumCorner = .ok hi ∧
    ∀ t : List ℚ, t.length = 2 → InCube t → ∃ x, R.evaluate t = .ok x ∧
        ∀ j : Fin 2, lo.val j ≤ x.val j ∧ x.val j ≤ hi.val j := by
  obtain ⟨lo, hi, h1, h2, h3, _⟩ := C44_bounding_box (K := ℚ) R _ _ _ R_computes R_pos
  exact ⟨lo, hi, h1, h2, h3⟩

/-- a rational surface inside the unit square: the points of `Q` with other weights -/
def RQ : RSpline ℚ (Point ℚ 2) :=
  ⟨Ex.surf (Ex.pt 0 0) (Ex.pt 2 0) (Ex.pt 1 1) (Ex.pt 0 (3 / 2)) (Ex.pt (1 / 2) (1 / 2)) (Ex.pt (1 / 3) 1), Ex.surf 1 2 1 3 (1 / 2) 1⟩
theorem RQ_computes : RQ.Computes [2, 1] (fun t : List ℚ => (RQ.wt.value t)⁻¹ • RQ.num.value t) (fun t => RQ.wt.value t) :=
  RSpline.computes_of (n := RQ.num) (d := RQ.wt) (Spline.WF.computes (K := ℚ) (s := RQ.num) (Ex.surf_wf ..))
    (Spline.WF.computes (K := ℚ) (s := RQ.wt) (Ex.surf_wf ..))
theorem RQ_fits : RQ.fitsIntoUnitCube = .ok true := by
  obtain ⟨b, h1, h2⟩ := Spline.fitsIntoUnitCube_ok (K := ℚ) (RSpline.euclid_wf RQ_computes.num_wf)
  rw [RSpline.fitsIntoUnitCube_eq RQ_computes.num_wf RQ_computes.wt_wf rfl (fun c hc => (R_pos c hc).ne'), h1]
  congr 1
  rw [h2]
  intro x hx j
  have hx' : x ∈ [((1 : ℚ)⁻¹ • Ex.pt 0 0), ((2 : ℚ)⁻¹ • Ex.pt 2 0), ((1 : ℚ)⁻¹ • Ex.pt 1 1),
      ((3 : ℚ)⁻¹ • Ex.pt 0 (3 / 2)), ((1 / 2 : ℚ)⁻¹ • Ex.pt (1 / 2) (1 / 2)), ((1 : ℚ)⁻¹ • Ex.pt (1 / 3) 1)] := hx
  simp only [List.mem_cons, List.not_mem_nil, or_false] at hx'
  rcases hx' with rfl | rfl | rfl | rfl | rfl | rfl <;> (revert j; show ∀ j : Fin 2, _; intro j; fin_cases j) <;>
    (simp [Ex.pt, Coords.coord]; try norm_num)

example : ∃ x, RQ.evaluate [(1/3 : ℚ), 1/2] = .ok x ∧ ∀ j : Fin 2, (0 : ℚ) ≤ x.val j ∧ x.val j ≤ 1 :=
  C44_fits_sound (K := ℚ) RQ _ _ _ RQ_computes R_pos RQ_fits [1/3, 1/2] rfl (by unfold InCube; norm_num)

/-! ## C63 -/

section
open Coords
variable {K V : Type} [Field K] [DecidableEq K] [AddCommGroup V] [Module K V] [ScalarDiv K V] [LawfulScalarDiv K V]
  [Coords K V] [LawfulCoords K V]

/-- C63. `ExtractDimension(d)` of a rational spline is the coordinate of the weighted spline: it
returns the coordinate of `Evaluate` times the weight function.  Missing: the division by
the weight function, see `C63_fails`. -/
theorem C63_extract_partial (r : RSpline K V) (ds : List ℕ) (f : List K → V) (w : List K → K) (h : r.Computes ds f w)
    (d : Fin (Coords.n K V)) :
    ∃ e, r.extractDimension d.1 = .ok e ∧ e.WF ∧ e.degrees = ds ∧
      ∀ t : List K, t.length = ds.length → w t ≠ 0 → e.evaluate t = .ok (w t * coord (f t) d) := by
  obtain ⟨e, h1, h2, h3, h4⟩ := Spline.extractDimension_ok (K := K) h.num_wf d
  refine ⟨e, h1, h2, by rw [h3, h.num_degrees], fun t ht h0 => ?_⟩
  rw [Spline.evaluate_ok h2 (by rw [Spline.dim, h3, h.num_degrees]; exact ht), h4, h.num_value ht h0,
    LawfulCoords.coord_smul]

/-- C63. It is the coordinate of `Evaluate` at `t` exactly where the weight function is one or the
coordinate is zero. -/
theorem C63_extract_iff (r : RSpline K V) (ds : List ℕ) (f : List K → V) (w : List K → K) (h : r.Computes ds f w)
    (d : Fin (Coords.n K V)) (t : List K) (ht : t.length = ds.length) (h0 : w t ≠ 0) :
    ∃ e, r.extractDimension d.1 = .ok e ∧ (e.evaluate t = .ok (coord (f t) d : K) ↔ w t = 1 ∨ (coord (f t) d : K) = 0) := by
  obtain ⟨e, h1, _, _, h4⟩ := C63_extract_partial r ds f w h d
  refine ⟨e, h1, ?_⟩
  rw [h4 t ht h0, Except.ok.injEq, mul_left_eq_self₀]

omit [DecidableEq K] [AddCommGroup V] [Module K V] [ScalarDiv K V] [LawfulScalarDiv K V] [LawfulCoords K V] in
/-- C63. A coordinate that does not exist raises an error. -/
theorem C63_extract_throws (r : RSpline K V) (d : ℕ) (hd : Coords.n K V ≤ d) :
    r.extractDimension d = .error .throws := Spline.extractDimension_throws r.num hd

end

/-- C63 does not hold: at a parameter of the surface `R` the extracted coordinate is not the
coordinate of `Evaluate`. -/
theorem C63_fails : ∃ e x y, R.extractDimension 1 = .ok e ∧ e.evaluate [(1 / 3 : ℚ), 1 / 2] = .ok x ∧
    R.evaluate [(1 / 3 : ℚ), 1 / 2] = .ok y ∧ x ≠ y.val 1 := by
  obtain ⟨e, h1, h2, h3, h4⟩ := C63_extract_partial (K := ℚ) R _ _ _ R_computes (1 : Fin 2)
  refine ⟨e, _, _, h1, h4 _ rfl R_weight, R_computes.eval _ rfl R_weight, ?_⟩
  simp [R, Spline.value, Ex.surf, bezier, bern, Finset.sum_range_succ, flatIndex, Coords.coord, Ex.pt]; norm_num

example := C63_extract_partial (K := ℚ) R _ _ _ R_computes (1 : Fin 2)
example : R.extractDimension 2 = .error .throws := C63_extract_throws (K := ℚ) R 2 (by decide)

end Bezman.Props
