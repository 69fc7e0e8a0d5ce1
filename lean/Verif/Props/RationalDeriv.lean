import Verif.Props.RationalCompose
import Verif.Props.RationalBox
import Verif.Props.Rational
import Verif.Props.Deriv
import Verif.Props.History
import Verif.Proofs.RationalDeriv
import Verif.Proofs.Jet

/-! # Properties: derivatives of rational splines -/

namespace Bezman.Props
open Spec Finset Topology

section
variable {𝕜 V : Type} [NontriviallyNormedField 𝕜] [NormedAddCommGroup V] [NormedSpace 𝕜 V]

theorem pderiv_congr_on {n : ℕ} {U : Set (List 𝕜)} (hU : LineOpen n U) {f g : List 𝕜 → V}
    (h : ∀ x ∈ U, x.length = n → f x = g x) {t : List 𝕜} (ht : t ∈ U) (htl : t.length = n) (ks : List ℕ) :
    pderiv ks f t = pderiv ks g t := by
  induction ks generalizing n U f g t with
  | nil => exact h t ht htl
  | cons k ks ih =>
    cases t with
    | nil => exact h [] ht htl
    | cons t ts =>
      simp only [pderiv]
      obtain ⟨n, rfl⟩ : ∃ m, n = m + 1 := ⟨ts.length, by simpa using htl.symm⟩
      have htl' : ts.length = n := by simpa using htl
      have hline : ∀ᶠ y in 𝓝 t, y :: ts ∈ U := by simpa using hU (t :: ts) ht htl 0 t rfl
      have : (fun x => pderiv ks (fun xs => f (x :: xs)) ts) =ᶠ[𝓝 t] fun x => pderiv ks (fun xs => g (x :: xs)) ts := by
        filter_upwards [hline] with y hy
        refine ih (n := n) (U := {xs | y :: xs ∈ U}) ?_ ?_ hy htl'
        · intro s hs hsl d td hd
          exact hU (y :: s) hs (by simp [hsl]) (d + 1) td (by simpa using hd)
        · intro x hx hxl
          exact h (y :: x) hx (by simp [hxl])
      exact this.iteratedDeriv_eq k

variable [DecidableEq 𝕜] [ScalarDiv 𝕜 V] [LawfulScalarDiv 𝕜 V]

/-- the derivatives of the numerator spline -/
noncomputable def numJet (r : RSpline 𝕜 V) (k : List ℕ) (t : List 𝕜) : V :=
  tens r.num.degrees (Spline.dFns r.num.degrees k t) (fun n => r.num.cps.getD n 0)

/-- the derivatives of the weight spline -/
noncomputable def wtJet (r : RSpline 𝕜 V) (k : List ℕ) (t : List 𝕜) : 𝕜 :=
  tens r.wt.degrees (Spline.dFns r.wt.degrees k t) (fun n => r.wt.cps.getD n 0)

variable {r : RSpline 𝕜 V} {ds : List ℕ} {f : List 𝕜 → V} {w : List 𝕜 → 𝕜}

omit [ScalarDiv 𝕜 V] [LawfulScalarDiv 𝕜 V] [DecidableEq 𝕜] in
theorem numJet_jet (h : r.num.degrees = ds) : Jet ds.length Set.univ (numJet r) := by
  have := tens_jet (𝕜 := 𝕜) (ps := r.num.degrees) (fun n => r.num.cps.getD n 0)
  rw [← h]; exact this

omit [ScalarDiv 𝕜 V] [LawfulScalarDiv 𝕜 V] [DecidableEq 𝕜] in
theorem wtJet_jet (h : r.wt.degrees = ds) : Jet ds.length Set.univ (wtJet r) := by
  have := tens_jet (𝕜 := 𝕜) (ps := r.wt.degrees) (fun n => r.wt.cps.getD n 0)
  rw [← h]; exact this

omit [LawfulScalarDiv 𝕜 V] in
theorem wtJet_zero (hr : r.Computes ds f w) {t : List 𝕜} (ht : t.length = ds.length) :
    wtJet r (List.replicate ds.length 0) t = w t := by
  unfold wtJet
  rw [hr.wt_degrees, RSpline.dFns_zero' ht, ← hr.wt_value ht, Spline.value_eq_neval, neval_eq_tens, hr.wt_degrees]

omit [LawfulScalarDiv 𝕜 V] in
theorem numJet_zero (hr : r.Computes ds f w) {t : List 𝕜} (ht : t.length = ds.length) :
    numJet r (List.replicate ds.length 0) t = r.num.value t := by
  unfold numJet
  rw [hr.num_degrees, RSpline.dFns_zero' ht, Spline.value_eq_neval, neval_eq_tens, hr.num_degrees]

/-- the derivatives of the rational spline, wherever its weight is not zero -/
noncomputable def ratJet (r : RSpline 𝕜 V) (k : List ℕ) (t : List 𝕜) : V :=
  quotJet r.num.degrees.length (numJet r) (wtJet r) k t

theorem ratJet_zero (hr : r.Computes ds f w) {t : List 𝕜} (ht : t.length = ds.length) (h0 : w t ≠ 0) :
    ratJet r (List.replicate ds.length 0) t = f t := by
  unfold ratJet quotJet
  rw [hr.num_degrees, wtJet_zero hr ht, quot_rec, numJet_zero hr ht, leib_congr (C := fun _ _ => 0) (by
    intro j l hp
    have := hp.sum
    rw [if_pos (isZero_sum.mpr (by simp at this; omega))]), leib_zero, sub_zero, hr.num_value ht h0, inv_smul_smul₀ h0]

omit [LawfulScalarDiv 𝕜 V] in
theorem mem_nonzero (hr : r.Computes ds f w) {t : List 𝕜} (ht : t.length = ds.length) :
    t ∈ nonzero ds.length (wtJet r) ↔ w t ≠ 0 := by
  unfold nonzero
  rw [Set.mem_setOf_eq, wtJet_zero hr ht]

omit [LawfulScalarDiv 𝕜 V] in
theorem ratJet_jet (hr : r.Computes ds f w) : Jet ds.length (nonzero ds.length (wtJet r)) (ratJet r) := by
  have := quotJet_jet (numJet_jet hr.num_degrees) (wtJet_jet hr.wt_degrees)
  intro t ht htl k hk d td hd
  have h := this t ht htl k hk d td hd
  unfold ratJet
  rw [hr.num_degrees]
  exact h

theorem ratJet_pderiv (hr : r.Computes ds f w) {t : List 𝕜} (ht : t.length = ds.length) (h0 : w t ≠ 0) {k : List ℕ}
    (hk : k.length = ds.length) : pderiv k f t = ratJet r k t := by
  have hU := nonzero_lineOpen (wtJet_jet (𝕜 := 𝕜) hr.wt_degrees)
  have ht' := (mem_nonzero hr ht).mpr h0
  rw [← (ratJet_jet hr).pderiv_eq hU ht' ht hk]
  refine pderiv_congr_on hU ?_ ht' ht k
  intro x hx hxl
  exact (ratJet_zero hr hxl ((mem_nonzero hr hxl).mp hx)).symm

/-! ## C42 -/

/-- C42. `EvaluateDerivative(t, k)` of a rational spline is the mixed partial derivative of
order `k` wherever the weight is not zero. `BinomFits k`: the products of binomial
coefficients formed by the code stay below 2^64. -/
theorem C42_evaluate_derivative (cfg : Cfg) (hmax : cfg.maxBinom ≤ 68) (r : RSpline 𝕜 V) (ds : List ℕ) (f : List 𝕜 → V)
    (w : List 𝕜 → 𝕜) (hr : r.Computes ds f w) (hdeg : ∀ p ∈ ds, p < cfg.maxBinom) (k : List ℕ)
    (hk : k.length = ds.length) (hord : ∀ x ∈ k, x < cfg.maxBinom) (hfit : BinomFits k) (t : List 𝕜)
    (ht : t.length = ds.length) (h0 : w t ≠ 0) : r.evaluateDerivative cfg t k = .ok (pderiv k f t) := by
  have hv := hr.wt_value ht
  have hdim : r.num.dim = ds.length := by unfold Spline.dim; rw [hr.num_degrees]
  rw [RSpline.evaluateDerivative_ok hmax hr.num_wf hr.wt_wf hr.deg_eq (by rw [hr.num_degrees]; exact hdeg)
    (by rw [hdim]; exact ht) (by rw [hdim]; exact hk) hord hfit (by rw [hv]; exact h0), ratJet_pderiv hr ht h0 hk]
  unfold ratJet quotJet
  rw [hr.num_degrees, wtJet_zero hr ht, hv]
  unfold numJet wtJet
  rw [hr.num_degrees]

/-- C42. The derivatives exist: as a function of the parameter in direction `d`, the value
of `EvaluateDerivative` for orders `k` has a derivative at every parameter with weight not
zero, namely the value for `k` with `k_d` one higher. -/
theorem C42_chain (cfg : Cfg) (hmax : cfg.maxBinom ≤ 68) (r : RSpline 𝕜 V) (ds : List ℕ) (f : List 𝕜 → V)
    (w : List 𝕜 → 𝕜) (hr : r.Computes ds f w) (hdeg : ∀ p ∈ ds, p < cfg.maxBinom) (k : List ℕ)
    (hk : k.length = ds.length) (d kd : ℕ) (hkd : k[d]? = some kd) (hord : ∀ x ∈ k.set d (kd + 1), x < cfg.maxBinom)
    (hfit : BinomFits k) (hfit' : BinomFits (k.set d (kd + 1))) (t : List 𝕜)
    (ht : t.length = ds.length) (h0 : w t ≠ 0) (td : 𝕜) (htd : t[d]? = some td) :
    ∃ (g : 𝕜 → V) (g' : V), (∀ᶠ x in 𝓝 td, r.evaluateDerivative cfg (t.set d x) k = .ok (g x)) ∧
      r.evaluateDerivative cfg t (k.set d (kd + 1)) = .ok g' ∧ HasDerivAt g g' td := by
  have hdl : d < k.length := (List.getElem?_eq_some_iff.mp hkd).1
  have hord' : ∀ x ∈ k, x < cfg.maxBinom := by
    intro x hx
    obtain ⟨i, hi, rfl⟩ := List.getElem_of_mem hx
    by_cases h : i = d
    · subst h
      rw [List.getElem?_eq_getElem hi] at hkd
      injection hkd with hkd
      have := hord (kd + 1) (List.mem_iff_getElem.mpr ⟨i, by simpa using hi, by simp⟩)
      omega
    · exact hord _ (List.mem_iff_getElem.mpr ⟨i, by simpa using hi, by rw [List.getElem_set_ne (by omega)]⟩)
  have hU := nonzero_lineOpen (wtJet_jet (𝕜 := 𝕜) hr.wt_degrees)
  have ht' := (mem_nonzero hr ht).mpr h0
  have hb : bump d k = k.set d (kd + 1) := by
    unfold bump
    rw [List.modify_eq_set, hkd]; rfl
  refine ⟨fun x => ratJet r k (t.set d x), ratJet r (bump d k) t, ?_, ?_, ratJet_jet hr t ht' ht k hk d td htd⟩
  · filter_upwards [hU t ht' ht d td htd] with x hx
    have hxl : (t.set d x).length = ds.length := by simpa using ht
    have hx0 := (mem_nonzero hr hxl).mp hx
    rw [C42_evaluate_derivative cfg hmax r ds f w hr hdeg k hk hord' hfit _ hxl hx0, ratJet_pderiv hr hxl hx0 hk]
  · have hk' : (k.set d (kd + 1)).length = ds.length := by simpa using hk
    rw [C42_evaluate_derivative cfg hmax r ds f w hr hdeg _ hk' hord hfit' t ht h0, ratJet_pderiv hr ht h0 hk', hb]

/-! ## C43: derivatives of basis functions -/

/-- C43. `BasisFunctionsDerivatives(t, k)`: the mixed partial derivatives of the rational
basis functions `w_idx B_idx / w`. -/
theorem C43_basis_derivatives (cfg : Cfg) (hmax : cfg.maxBinom ≤ 68) (r : RSpline 𝕜 V) (ds : List ℕ) (f : List 𝕜 → V)
    (w : List 𝕜 → 𝕜) (hr : r.Computes ds f w) (hdeg : ∀ p ∈ ds, p < cfg.maxBinom) (k : List ℕ)
    (hk : k.length = ds.length) (hord : ∀ x ∈ k, x < cfg.maxBinom) (hfit : BinomFits k) (t : List 𝕜)
    (ht : t.length = ds.length) (h0 : w t ≠ 0) :
    ∃ l, r.basisFunctionsDerivatives cfg t k = .ok l ∧ l.length = size ds ∧
      ∀ idx, ValidIdx ds idx → ∃ n c, r.globalToLocal idx = .ok n ∧ r.weight idx = .ok c ∧
        l[n]? = some (pderiv k (fun x => c * bernProd ds idx x / w x) t) := by
  have hv := hr.wt_value ht
  refine ⟨_, RSpline.basisFunctionsDerivatives_ok hmax hr.num_wf hr.wt_wf hr.num_degrees hr.wt_degrees hdeg ht hk hord
    hfit (by rw [hv]; exact h0), by simp, ?_⟩
  intro idx hidx
  refine ⟨_, _, Spline.globalToLocal_ok hr.wt_wf (by unfold Spline.dim; rw [hr.wt_degrees]; exact hidx.length),
      Spline.controlPoint_ok hr.wt_wf (by rw [hr.wt_degrees]; exact hidx), ?_⟩
  rw [hr.wt_degrees, tab_getElem? _ (flatIndex_lt hidx)]
  congr 1
  set n := flatIndex ds idx with hn
  have hnl : n < size ds := flatIndex_lt hidx
  unfold Spline.net
  rw [hr.wt_degrees, ← hn]
  set c := r.wt.cps.getD n 0 with hc
  have hU := nonzero_lineOpen (wtJet_jet (𝕜 := 𝕜) hr.wt_degrees)
  have ht' := (mem_nonzero hr ht).mpr h0
  have hA := tens_jet (𝕜 := 𝕜) (ps := ds) (fun m => if m = n then c else 0)
  have hJ := quotJet_jet hA (wtJet_jet (𝕜 := 𝕜) hr.wt_degrees)
  have key := hJ.pderiv_eq hU ht' ht hk
  have : ∀ x ∈ nonzero ds.length (wtJet r), x.length = ds.length → c * bernProd ds idx x / w x
      = quotJet ds.length (fun k t => tens ds (Spline.dFns ds k t) (fun m => if m = n then c else 0)) (wtJet r)
        (List.replicate ds.length 0) x := by
    intro x hx hxl
    unfold quotJet
    rw [wtJet_zero hr hxl, quot_rec, leib_congr (C := fun _ _ => 0) (by
      intro j l hp
      have := hp.sum
      rw [if_pos (isZero_sum.mpr (by simp at this; omega))]), leib_zero, sub_zero]
    simp only []
    rw [RSpline.dFns_zero' hxl,
      RSpline.tens_delta (Spline.bernFns_length hxl) hnl, hn, unflat_flatIndex hidx, pw_bernFns hidx.length hxl,
      smul_eq_mul, div_eq_mul_inv]
    ring
  rw [pderiv_congr_on hU this ht' ht k, key]
  unfold quotJet
  rw [wtJet_zero hr ht, hv]
  unfold wtJet
  rw [hr.wt_degrees]

/-! ## C41 -/

section
variable [CharZero 𝕜]

/-- What the derivative spline needs: it multiplies the degrees by two in every round. -/
structure DerivFits (cfg : Cfg) (ds : List ℕ) (m : ℕ) : Prop where
  degs : ∀ p ∈ ds, p * 2 ^ m < cfg.maxBinom
  rounds : ∀ p ∈ ds, p * 2 ^ m < cfg.fuel
  rounds2 : 2 ≤ cfg.fuel
  small : size (ds.map (· * 2 ^ m)) < 2 ^ 31

/-- one round -/
theorem derivativeStep_ok {cfg : Cfg} (hmax : cfg.maxBinom ≤ 68) {r : RSpline 𝕜 V} {ds : List ℕ} {g g' : List 𝕜 → V}
    {w : List 𝕜 → 𝕜} (hr : r.Computes ds g w) {d p : ℕ} (hd : ds[d]? = some p) (hp : 1 ≤ p)
    (hfit : DerivFits cfg ds 1)
    (hg : ∀ t : List 𝕜, t.length = ds.length → w t ≠ 0 → ∀ td, t[d]? = some td →
      HasDerivAt (fun x => g (t.set d x)) (g' t) td) :
    ∃ r', RSpline.derivativeStep cfg r d = .ok r' ∧ r'.Computes (ds.map (· * 2)) g' (fun t => w t * w t) := by
  obtain ⟨hdl, hdp⟩ := List.getElem?_eq_some_iff.mp hd
  have hm := hfit.degs p (List.mem_of_getElem? hd)
  have hdim : r.dim = ds.length := by
    unfold RSpline.dim Spline.dim; first | rw [hr.num_degrees] | rw [hr.wt_degrees]
  have hsmall : size (ds.map (· * 2)) < 2 ^ 31 := by simpa using hfit.small
  have hle : ∀ d' : ℕ, ((List.replicate ds.length 0).set d 1)[d']? = some (if d' = d then 1 else 0) ∨
      ((List.replicate ds.length 0).set d 1)[d']? = none := by
    intro d'
    by_cases h : d' < ds.length
    · left
      by_cases h' : d' = d
      · subst h'; simp [h]
      · rw [List.getElem?_set_ne (by omega)]; simp [h, h']
    · right; simp; omega
  have hdeg : List.zipWith (· - ·) ds ((List.replicate ds.length 0).set d 1) = ds.set d (p - 1) := by
    apply List.ext_getElem (by simp)
    intro i h1 h2
    have hi : i < ds.length := by simpa using h2
    rw [List.getElem_zipWith, List.getElem_set, List.getElem_set]
    by_cases h : d = i
    · subst h; simp [hdp]
    · simp [h]
  have hsz : size ds ≤ size (ds.map (· * 2)) := by
    have := size_le_sumDegrees (a := ds) (b := ds) rfl
    have e : sumDegrees ds ds = ds.map (· * 2) := by
      unfold sumDegrees; rw [List.zipWith_self]; congr 1; funext x; ring
    rwa [e] at this
  have hC13a : ∀ (d' o p' : ℕ), ((List.replicate ds.length 0).set d 1)[d']? = some o → ds[d']? = some p' → o ≤ p' := by
    intro d' o p' ho hp'
    rcases hle d' with h | h
    · rw [ho] at h; injection h with h
      by_cases hdd : d' = d
      · subst hdd
        rw [hd] at hp'; injection hp' with hp'
        simp at h; omega
      · simp [hdd] at h; omega
    · rw [ho] at h; cases h
  have hC13b : ∀ o ∈ (List.replicate ds.length 0).set d 1, o < cfg.maxBinom := by
    intro o ho
    have : o ≤ 1 := by
      rcases List.mem_or_eq_of_mem_set ho with h | h
      · rw [List.mem_replicate] at h; omega
      · omega
    omega
  have hs64 : size ds < 2 ^ 64 := lt_of_le_of_lt hsz (lt_trans hsmall (by norm_num))
  obtain ⟨du, u1, u2⟩ := C13_derivative_spline cfg hmax r.num ds _ (hr.num_computes) ((List.replicate ds.length 0).set d 1)
    (by simp) hC13a hC13b hs64
  obtain ⟨dw, w1, w2⟩ := C13_derivative_spline cfg hmax r.wt ds _ (hr.wt_computes) ((List.replicate ds.length 0).set d 1)
    (by simp) hC13a hC13b hs64
  rw [hdeg] at u2 w2
  have hsum : sumDegrees (ds.set d (p - 1)) ds = (ds.map (· * 2)).set d (p * 2 - 1) := by
    unfold sumDegrees
    apply List.ext_getElem (by simp)
    intro i h1 h2
    rw [List.getElem_zipWith, List.getElem_set, List.getElem_set]
    by_cases h : d = i
    · subst h; simp [hdp]; omega
    · simp [h]; ring
  have hdouble : ∀ q ∈ (ds.map (· * 2)).set d (p * 2 - 1), ∃ p' ∈ ds, q ≤ p' * 2 := by
    intro q hq
    rcases List.mem_or_eq_of_mem_set hq with h | h
    · obtain ⟨p', hp', rfl⟩ := List.mem_map.mp h
      exact ⟨p', hp', le_rfl⟩
    · exact ⟨p, List.mem_of_getElem? hd, by omega⟩
  have hmul : ∀ q ∈ sumDegrees (ds.set d (p - 1)) ds, q < cfg.maxBinom := by
    rw [hsum]
    intro q hq
    obtain ⟨p', hp', hle⟩ := hdouble q hq
    have := hfit.degs p' hp'
    omega
  have hlen : ds.length = (ds.set d (p - 1)).length := by simp
  obtain ⟨a, a1, a2⟩ := C21_mul_point_scalar cfg hmax du r.wt _ ds _ _ u2 hr.wt_computes hlen hmul
  obtain ⟨b, b1, b2⟩ := C21_mul_scalar_point cfg hmax dw r.num _ ds _ _ w2 hr.num_computes hlen hmul
  rw [hsum] at a2 b2
  have hsz2 : size ((ds.map (· * 2)).set d (p * 2 - 1)) ≤ size (ds.map (· * 2)) := by
    have h1 := size_le_sumDegrees (a := (ds.map (· * 2)).set d (p * 2 - 1)) (b := (List.replicate ds.length 0).set d 1) (by simp)
    have e : sumDegrees ((ds.map (· * 2)).set d (p * 2 - 1)) ((List.replicate ds.length 0).set d 1) = ds.map (· * 2) := by
      unfold sumDegrees
      apply List.ext_getElem (by simp)
      intro i h1 h2
      rw [List.getElem_zipWith, List.getElem_set, List.getElem_set]
      by_cases h : d = i
      · subst h; simp [hdp]; omega
      · simp [h]
    rwa [e] at h1
  obtain ⟨c, c1, c2⟩ := C18_sub_partial cfg a b _ _ _ _ a2 b2 (fits_self (by
      intro q hq
      obtain ⟨p', hp', hle⟩ := hdouble q hq
      have := hfit.rounds p' hp'
      omega) hfit.rounds2 (lt_of_le_of_lt hsz2 hsmall))
    (by intro d' p' q' h1 h2; rw [h1] at h2; injection h2 with h2; omega)
  rw [maxDegrees_self] at c2
  have hset : ((ds.map (· * 2)).set d (p * 2 - 1)).set d (p * 2 - 1 + 1) = ds.map (· * 2) := by
    rw [List.set_set]
    apply List.ext_getElem (by simp)
    intro i h1 h2
    rw [List.getElem_set]
    by_cases h : d = i
    · subst h; simp [hdp]; omega
    · simp [h]
  obtain ⟨n, n1, n2⟩ := C12_order_elevate c _ _ c2 d (p * 2 - 1) (by simp [hdl]) (by rw [hset]; exact hsmall)
  rw [hset] at n2
  obtain ⟨ww, v1, v2⟩ := C21_mul_scalar cfg hmax r.wt r.wt ds ds _ _ hr.wt_computes hr.wt_computes rfl (by
    unfold sumDegrees; rw [List.zipWith_self]
    intro q hq
    obtain ⟨p', hp', rfl⟩ := List.mem_map.mp hq
    have := hfit.degs p' hp'
    omega)
  have hself : sumDegrees ds ds = ds.map (· * 2) := by
    unfold sumDegrees; rw [List.zipWith_self]; congr 1; funext x; ring
  rw [hself] at v2
  refine ⟨⟨n, ww⟩, ?_, (RSpline.computes_of n2 v2).congr (fun _ _ => rfl) fun t ht h0 => ?_⟩
  · unfold RSpline.derivativeStep
    rw [hdim, wr_ok _ (by simpa using hdl)]
    simp only [bind_ok]
    rw [u1]
    simp only [bind_ok]
    unfold RSpline.mulWeight RSpline.mulWeight'
    rw [a1]
    simp only [bind_ok]
    rw [w1]
    simp only [bind_ok]
    rw [b1]
    simp only [bind_ok]
    rw [c1]
    simp only [bind_ok]
    rw [n1]
    simp only [bind_ok]
    rw [v1]
    simp only [bind_ok]
    exact RSpline.ofSplines_ok (by rw [n2.degrees_eq, v2.degrees_eq])
  · have ht' : t.length = ds.length := by simpa using ht
    have hw0 : w t ≠ 0 := (mul_ne_zero_iff.mp h0).1
    obtain ⟨td, htd⟩ : ∃ td, t[d]? = some td := ⟨_, List.getElem?_eq_getElem (by omega)⟩
    have hone : (List.replicate ds.length 0).set d 1 = bump d (List.replicate ds.length 0) := by
      unfold bump; rw [List.modify_eq_set]; simp [hdl]
    -- derivatives of numerator and weight
    have hU : LineOpen (𝕜 := 𝕜) ds.length Set.univ := fun _ _ _ _ _ _ => Filter.Eventually.of_forall fun _ => trivial
    have jn := numJet_jet (𝕜 := 𝕜) hr.num_degrees
    have jw := wtJet_jet (𝕜 := 𝕜) hr.wt_degrees
    have en : pderiv (bump d (List.replicate ds.length 0)) (fun t => r.num.value t) t = numJet r (bump d (List.replicate ds.length 0)) t := by
      rw [← jn.pderiv_eq hU trivial ht' (by rw [bump_length]; simp)]
      exact pderiv_congr_on hU (fun x _ hx => (numJet_zero hr hx).symm) trivial ht' _
    have ew : pderiv (bump d (List.replicate ds.length 0)) w t = wtJet r (bump d (List.replicate ds.length 0)) t := by
      rw [← jw.pderiv_eq hU trivial ht' (by rw [bump_length]; simp)]
      exact pderiv_congr_on hU (fun x _ hx => (wtJet_zero hr hx).symm) trivial ht' _
    have dn := jn t trivial ht' (List.replicate ds.length 0) (by simp) d td htd
    have dW := jw t trivial ht' (List.replicate ds.length 0) (by simp) d td htd
    have hdg := hg t ht' hw0 td htd
    have hxl : ∀ x, (t.set d x).length = ds.length := fun x => by simpa using ht'
    -- numerator = weight times function, near the point
    have hev : (fun x => numJet r (List.replicate ds.length 0) (t.set d x)) =ᶠ[𝓝 td]
        fun x => wtJet r (List.replicate ds.length 0) (t.set d x) • g (t.set d x) := by
      have := nonzero_lineOpen jw t ((mem_nonzero hr ht').mpr hw0) ht' d td htd
      filter_upwards [this] with x hx
      have hx0 := (mem_nonzero hr (hxl x)).mp hx
      rw [numJet_zero hr (hxl x), wtJet_zero hr (hxl x), hr.num_value (hxl x) hx0]
    have dprod := dW.smul hdg
    have huniq := dn.unique (dprod.congr_of_eventuallyEq hev)
    have hwt : wtJet r (List.replicate ds.length 0) (t.set d td) = w t := by
      rw [wtJet_zero hr (hxl td), set_self htd]
    rw [hone, en, ew, huniq, hwt, set_self htd, hr.num_value ht' hw0]
    rw [smul_add, smul_comm (w t) (wtJet r _ t) (g t), add_sub_assoc, sub_self, add_zero, smul_smul (w t) (w t), inv_smul_smul₀ h0]

omit [LawfulScalarDiv 𝕜 V] in
/-- what the rounds so far have produced: the derivative of order `k` over a power of the weight -/
theorem derivRound {cfg : Cfg} {ds : List ℕ} {m i : ℕ} (h : DerivFits cfg ds m) (hi : i < m) :
    DerivFits cfg (ds.map (· * 2 ^ i)) 1 := by
  have hp : 2 ^ i * 2 ^ 1 ≤ 2 ^ m := by rw [← pow_add]; exact Nat.pow_le_pow_right (by norm_num) (by omega)
  refine ⟨?_, ?_, h.rounds2, ?_⟩
  · intro p hp'
    obtain ⟨q, hq, rfl⟩ := List.mem_map.mp hp'
    refine lt_of_le_of_lt ?_ (h.degs q hq)
    rw [mul_assoc]; exact Nat.mul_le_mul_left _ hp
  · intro p hp'
    obtain ⟨q, hq, rfl⟩ := List.mem_map.mp hp'
    refine lt_of_le_of_lt ?_ (h.rounds q hq)
    rw [mul_assoc]; exact Nat.mul_le_mul_left _ hp
  · refine lt_of_le_of_lt ?_ h.small
    rw [List.map_map]
    clear * - hp
    induction ds with
    | nil => simp
    | cons x ds ih =>
      rw [List.map_cons, List.map_cons, size_cons, size_cons]
      refine Nat.mul_le_mul ?_ ih
      have : x * 2 ^ i * 2 ^ 1 ≤ x * 2 ^ m := by rw [mul_assoc]; exact Nat.mul_le_mul_left _ hp
      simp only [Function.comp]
      omega

/-- C41. `DerivativeWRTParametricDimension(orders)` of a rational spline whose degree is at
least one in every direction in which it is differentiated: a rational spline of degrees
`p_d * 2^m`, where `m` is the sum of the orders, with weight function `w^(2^m)`, that
evaluates to the mixed partial derivative wherever the weight is not zero. -/
theorem C41_derivative_spline (cfg : Cfg) (hmax : cfg.maxBinom ≤ 68) (r : RSpline 𝕜 V) (ds : List ℕ) (f : List 𝕜 → V)
    (w : List 𝕜 → 𝕜) (hr : r.Computes ds f w) (orders : List ℕ) (hl : orders.length = ds.length)
    (hpos : ∀ d o p : ℕ, orders[d]? = some o → ds[d]? = some p → 1 ≤ o → 1 ≤ p) (hfit : DerivFits cfg ds orders.sum) :
    ∃ r', r.derivativeSpline cfg orders = .ok r' ∧
      r'.Computes (ds.map (· * 2 ^ orders.sum)) (pderiv orders f) (fun t => w t ^ 2 ^ orders.sum) := by
  -- the state after `i` rounds in direction `d`
  let K : ℕ → ℕ → List ℕ := fun d i => orders.take d ++ i :: List.replicate (ds.length - d - 1) 0
  let P : List ℕ → RSpline 𝕜 V → Prop := fun k q =>
    q.Computes (ds.map (· * 2 ^ k.sum)) (ratJet r k) (fun t => w t ^ 2 ^ k.sum)
  have hdim : r.dim = ds.length := by
    unfold RSpline.dim Spline.dim; first | rw [hr.num_degrees] | rw [hr.wt_degrees]
  unfold RSpline.derivativeSpline
  have hstep : ∀ (d i : ℕ) (q : RSpline 𝕜 V) (k : List ℕ) (o : ℕ), orders[d]? = some o → 1 ≤ o → k.length = ds.length →
      k.sum < orders.sum → P k q → ∃ q', RSpline.derivativeStep cfg q d = .ok q' ∧ P (bump d k) q' := by
    intro d i q k o ho ho1 hkl hks hq
    have hdl : d < ds.length := by rw [← hl]; exact (List.getElem?_eq_some_iff.mp ho).1
    have hdp : ds[d]? = some ds[d] := List.getElem?_eq_getElem hdl
    have hp1 := hpos d o _ ho hdp ho1
    obtain ⟨q', e1, e2⟩ := derivativeStep_ok (g' := ratJet r (bump d k)) hmax hq (d := d) (p := ds[d] * 2 ^ k.sum)
      (by simp [hdl]) (Nat.mul_pos hp1 (by positivity)) (derivRound hfit hks) (by
        intro t ht h0 td htd
        have ht' : t.length = ds.length := by simpa using ht
        exact ratJet_jet hr t ((mem_nonzero hr ht').mpr (fun h => h0 (by rw [h]; simp))) ht' k hkl d td htd)
    refine ⟨q', e1, ?_⟩
    have hsum : (bump d k).sum = k.sum + 1 := bump_sum (by omega)
    simp only [P]
    rw [hsum]
    have e3 : (ds.map (· * 2 ^ k.sum)).map (· * 2) = ds.map (· * 2 ^ (k.sum + 1)) := by
      rw [List.map_map]; congr 1; funext x; simp only [Function.comp]; rw [pow_succ, mul_assoc]
    rw [e3] at e2
    refine e2.congr (fun t _ => ?_) (fun _ _ _ => rfl)
    rw [← pow_add, ← two_mul, pow_succ, mul_comm]
  obtain ⟨q, h1, h2⟩ := loop_inv (n := r.dim) (s := r)
    (f := fun d r => do
      let o ← rd orders d
      loop o (fun _ r => RSpline.derivativeStep cfg r d) r)
    (P := fun d q => P (orders.take d ++ List.replicate (ds.length - d) 0) q)
    (by
      simp only [P]
      simp only [List.take_zero, List.nil_append, Nat.sub_zero]
      have : (List.replicate ds.length 0).sum = 0 := by simp
      rw [this]
      simp only [pow_zero, mul_one, List.map_id', pow_one]
      exact hr.congr (fun _ _ => rfl) (fun t ht h0 => (ratJet_zero hr ht h0).symm))
    (by
      intro d hd q hq
      rw [hdim] at hd
      have hdo : d < orders.length := by omega
      rw [rd_getElem hdo]
      simp only [bind_ok]
      have hrep : List.replicate (ds.length - d) 0 = 0 :: List.replicate (ds.length - d - 1) 0 := by
        rw [← List.replicate_succ]; congr 1; omega
      obtain ⟨q', e1, e2⟩ := loop_inv (n := orders[d]) (s := q) (f := fun _ r => RSpline.derivativeStep cfg r d)
        (P := fun i q => P (K d i) q)
        (by simp only [K]; rw [← hrep]; exact hq)
        (by
          intro i hi q hq
          have hsum : (K d i).sum < orders.sum := by
            have : orders.sum = (orders.take d).sum + (orders[d] + (orders.drop (d + 1)).sum) := by
              conv_lhs => rw [← List.take_append_drop d orders, List.drop_eq_getElem_cons hdo, List.sum_append, List.sum_cons]
            simp only [K]
            rw [this]; simp; omega
          obtain ⟨q', e1, e2⟩ := hstep d i q (K d i) orders[d] (List.getElem?_eq_getElem hdo) (by omega)
            (by simp only [K]; simp; omega) hsum hq
          refine ⟨q', e1, ?_⟩
          have : bump d (K d i) = K d (i + 1) := by
            simp only [K, bump]
            have hlt : (orders.take d).length = d := by simp; omega
            rw [List.modify_eq_set]
            have e : (orders.take d ++ i :: List.replicate (ds.length - d - 1) 0)[d]? = some i := by
              rw [List.getElem?_append_right (by omega), hlt]; simp
            rw [e]
            simp only [Option.map_some, Option.getD_some]
            rw [List.set_append_right _ _ (by omega), hlt]
            simp
          rw [← this]; exact e2)
      refine ⟨q', e1, ?_⟩
      have : orders.take (d + 1) ++ List.replicate (ds.length - (d + 1)) 0 = K d orders[d] := by
        simp only [K]
        rw [List.take_succ_eq_append_getElem hdo, List.append_assoc]
        rfl
      rw [this]; exact e2)
  refine ⟨q, h1, ?_⟩
  have hfin : orders.take r.dim ++ List.replicate (ds.length - r.dim) 0 = orders := by
    rw [hdim, ← hl]; simp
  rw [hfin] at h2
  refine h2.congr (fun _ _ => rfl) (fun t ht h0 => ?_)
  have ht' : t.length = ds.length := by simpa using ht
  exact (ratJet_pderiv hr ht' (fun h => h0 (by rw [h]; simp)) hl).symm

end
end

/-! ## Examples -/

/-- a rational surface in space with degrees (2,1) and positive weights -/
noncomputable def RR (a b c d e f : Point ℝ 3) : RSpline ℝ (Point ℝ 3) := ⟨Ex.surf a b c d e f, Ex.surf 1 2 1 3 (1 / 2) 1⟩

theorem RR_computes (a b c d e f : Point ℝ 3) : (RR a b c d e f).Computes [2, 1]
    (fun t : List ℝ => ((RR a b c d e f).wt.value t)⁻¹ • (RR a b c d e f).num.value t)
    (fun t => (RR a b c d e f).wt.value t) :=
  RSpline.computes_of (n := (RR a b c d e f).num) (d := (RR a b c d e f).wt)
    (Spline.WF.computes (K := ℝ) (s := (RR a b c d e f).num) (Ex.surf_wf ..))
    (Spline.WF.computes (K := ℝ) (s := (RR a b c d e f).wt) (Ex.surf_wf ..))

theorem RR_weight (a b c d e f : Point ℝ 3) : (RR a b c d e f).wt.value [(1 / 3 : ℝ), 1 / 2] ≠ 0 := by
  simp [RR, Spline.value, Ex.surf, bezier, bern, Finset.sum_range_succ, flatIndex]; norm_num

example (a b c d e f : Point ℝ 3) : (RR a b c d e f).evaluateDerivative Ex.cfg [1 / 3, 1 / 2] [3, 2]
    = .ok (pderiv [3, 2] (fun t : List ℝ => ((RR a b c d e f).wt.value t)⁻¹ • (RR a b c d e f).num.value t)
      [1 / 3, 1 / 2]) :=
  C42_evaluate_derivative Ex.cfg Ex.cfg_ok _ _ _ _ (RR_computes a b c d e f) (by decide) [3, 2] rfl (by decide)
    (by unfold BinomFits; decide) _ rfl (RR_weight a b c d e f)

example (a b c d e f : Point ℝ 3) : ∃ (g : ℝ → Point ℝ 3) (g' : Point ℝ 3),
    (∀ᶠ x in 𝓝 (1 / 3 : ℝ), (RR a b c d e f).evaluateDerivative Ex.cfg [x, 1 / 2] [3, 2] = .ok (g x)) ∧
      (RR a b c d e f).evaluateDerivative Ex.cfg [1 / 3, 1 / 2] [4, 2] = .ok g' ∧ HasDerivAt g g' (1 / 3) :=
  C42_chain Ex.cfg Ex.cfg_ok _ _ _ _ (RR_computes a b c d e f) (by decide) [3, 2] rfl 0 3 rfl (by decide)
    (by unfold BinomFits; decide) (by unfold BinomFits; decide) [1 / 3, 1 / 2] rfl (RR_weight a b c d e f) (1 / 3) rfl

example (a b c d e f : Point ℝ 3) : ∃ l, (RR a b c d e f).basisFunctionsDerivatives Ex.cfg [1 / 3, 1 / 2] [3, 2] = .ok l ∧
    l.length = 6 := by
  obtain ⟨l, h1, h2, _⟩ := C43_basis_derivatives Ex.cfg Ex.cfg_ok _ _ _ _ (RR_computes a b c d e f) (by decide) [3, 2] rfl
    (by decide) (by unfold BinomFits; decide) [1 / 3, 1 / 2] rfl (RR_weight a b c d e f)
  exact ⟨l, h1, h2⟩

example (a b c d e f : Point ℝ 3) : ∃ r', (RR a b c d e f).derivativeSpline Ex.cfg [1, 1] = .ok r' ∧
    r'.Computes [8, 4]
      (pderiv [1, 1] (fun t : List ℝ => ((RR a b c d e f).wt.value t)⁻¹ • (RR a b c d e f).num.value t))
      (fun t => (RR a b c d e f).wt.value t ^ 4) := by
  have := C41_derivative_spline Ex.cfg Ex.cfg_ok _ _ _ _ (RR_computes a b c d e f) [1, 1] rfl (by
    intro d o p h1 h2 _
    rcases d with _ | _ | d
    · simp at h2; omega
    · simp at h2; omega
    · simp at h2) ⟨by decide, by decide, by decide, by decide⟩
  exact this

end Bezman.Props
