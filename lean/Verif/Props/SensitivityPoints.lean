import Verif.Props.SensitivityLaws

/-! # Property C124, continued: the control points of rational compositions are the outer control points weighted with the sensitivities -/

namespace Bezman.Props
open Spec Coords Finset

section
variable {K V W : Type} [Field K] [LinearOrder K] [IsStrictOrderedRing K] [AddCommGroup V] [Module K V] [AddCommGroup W] [Module K W]
  [Coords K W] [LawfulCoords K W]

theorem _root_.Bezman.Spec.RUnitAt.ex {r : RSpline K V} (hw : r.wt.WF) {n : ℕ} (hn : n < r.wt.ncp) : ∃ e : RSpline K K, RUnitAt n r e :=
  ⟨⟨⟨r.wt.degrees, r.wt.ncp, r.wt.offsets, (List.replicate r.wt.ncp 0).set n (r.wt.cps.getD n 0)⟩, r.wt⟩, hn,
    ⟨hw.dim_pos, hw.ncp_eq, hw.offsets_eq, by simp [hw.ncp_eq]⟩, rfl, rfl, rfl⟩

/-- a weighted sum of the coefficients of several functions is the list of coefficients of the weighted sum of the functions -/
theorem weighted_points {l : List (Spline K)} {P : List V} {nd : List ℕ} {F : ℕ → List K → K} (hl : l.length = P.length)
    (h : ∀ n < P.length, ∃ q, l[n]? = some q ∧ q.Computes nd (F n)) {r : Spline V}
    (hr : r.Computes nd fun t => ∑ n ∈ range P.length, F n t • P.getD n 0) :
    ∀ k < r.ncp, (∀ q ∈ l, k < q.cps.length) ∧ r.cps[k]? = some (List.zipWith (fun (q : Spline K) c => q.cps.getD k 0 • c) l P).sum := by
  let S : ℕ → V := fun k => (List.zipWith (fun (q : Spline K) c => q.cps.getD k 0 • c) l P).sum
  have hS : ∀ k, S k = ∑ n ∈ range P.length, (l.getD n ⟨[], 0, [], []⟩).cps.getD k 0 • P.getD n 0 := by
    intro k
    have e : List.zipWith (fun (q : Spline K) c => q.cps.getD k 0 • c) l P =
        tab P.length (fun n => (l.getD n ⟨[], 0, [], []⟩).cps.getD k 0 • P.getD n 0) := by
      apply List.ext_getElem
      · simp [hl]
      · intro i i1 i2
        simp only [List.length_zipWith, hl, min_self] at i1
        simp [List.getElem_zipWith, tab_getElem, List.getD_eq_getElem?_getD, hl, i1]
    show (List.zipWith _ l P).sum = _
    rw [e, list_sum_tab]
  let R : Spline V := ⟨r.degrees, r.ncp, r.offsets, tab (size r.degrees) S⟩
  have Rw : R.WF := ⟨hr.wf.dim_pos, hr.wf.ncp_eq, hr.wf.offsets_eq, by simp [R]⟩
  have key : r = R := by
    refine hr.unique (Spline.Computes.mk' Rw hr.degrees_eq fun t ht => ?_)
    show bezier R.degrees t _ = _
    have hRd : R.degrees = nd := hr.degrees_eq
    rw [hRd, bezier_congr (Q := fun idx => ∑ n ∈ range P.length, (l.getD n ⟨[], 0, [], []⟩).cps.getD (flatIndex nd idx) 0 • P.getD n 0)
      (fun idx hv => ?_), bezier_sum]
    · refine sum_congr rfl fun n hn => ?_
      obtain ⟨q, q1, q2⟩ := h n (mem_range.mp hn)
      have e : l.getD n ⟨[], 0, [], []⟩ = q := by rw [List.getD_eq_getElem?_getD, q1]; rfl
      rw [e, ← q2.value_eq ht]
      unfold Spline.value
      rw [q2.degrees_eq]
      exact (bezier_map (LinearMap.toSpanSingleton K V (P.getD n 0)) _ _ _)
    · have hlt := flatIndex_lt hv
      show (tab (size r.degrees) S).getD _ 0 = _
      rw [List.getD_eq_getElem?_getD, hr.degrees_eq]
      rw [List.getElem?_eq_getElem (by simpa using hlt)]
      simp only [tab_getElem, Option.getD_some]
      exact hS _
  intro k hk
  have hk' : k < size r.degrees := by rw [← hr.wf.ncp_eq]; exact hk
  refine ⟨fun q hq => ?_, ?_⟩
  · obtain ⟨n, hn, rfl⟩ := List.getElem_of_mem hq
    obtain ⟨q, q1, q2⟩ := h n (by omega)
    obtain ⟨_, rfl⟩ := List.getElem?_eq_some_iff.mp q1
    rw [q2.wf.cps_len, q2.degrees_eq, ← hr.degrees_eq]
    exact hk'
  · conv_lhs => rw [key]
    show (tab (size r.degrees) S)[k]? = _
    rw [List.getElem?_eq_getElem (by simpa using hk')]
    simp [S]

/-- the same for rational splines with one denominator -/
theorem weighted_parts {l : List (RSpline K K)} {P : List V} {nd : List ℕ} {F : ℕ → List K → K} {u : List K → K} (hl : l.length = P.length)
    (h : ∀ n < P.length, ∃ q, l[n]? = some q ∧ RParts q nd (F n) u) {r : RSpline K V}
    (hr : RParts r nd (fun t => ∑ n ∈ range P.length, F n t • P.getD n 0) u) :
    (∀ q ∈ l, q.wt = r.wt) ∧ ∀ k < r.num.ncp, (∀ q ∈ l, k < q.num.cps.length) ∧
      r.num.cps[k]? = some (List.zipWith (fun (q : RSpline K K) c => q.num.cps.getD k 0 • c) l P).sum := by
  refine ⟨fun q hq => ?_, fun k hk => ?_⟩
  · obtain ⟨n, hn, rfl⟩ := List.getElem_of_mem hq
    obtain ⟨q, q1, q2⟩ := h n (by omega)
    obtain ⟨_, rfl⟩ := List.getElem?_eq_some_iff.mp q1
    exact q2.2.unique hr.2
  · obtain ⟨h1, h2⟩ := weighted_points (l := l.map (·.num)) (P := P) (F := F) (by simpa using hl) (fun n hn => by
      obtain ⟨q, q1, q2⟩ := h n hn
      exact ⟨q.num, by rw [List.getElem?_map, q1]; rfl, q2.1⟩) hr.1 k hk
    refine ⟨fun q hq => h1 _ (List.mem_map.mpr ⟨q, hq, rfl⟩), ?_⟩
    rw [h2, List.zipWith_map_left]

/-- C124. Polynomial outer spline, rational inner spline: the sensitivities have the weights of the composition, and every weighted control
point of the composition is the sum of the control points of the outer spline, times the weighted control points of the sensitivities. -/
theorem C124_points_rational [ScalarDiv K W] [LawfulScalarDiv K W] (cfg : Cfg) (hmax : cfg.maxBinom ≤ 68) (outer : Spline V) (inner : RSpline K W)
    (dI : List ℕ) (G : List K → W) (w : List K → K) (ho : outer.WF) (hi : RParts inner dI G w) (hdim : outer.degrees.length = Coords.n K W)
    (hcube : inner.fitsIntoUnitCube = .ok true) (hf : ComposeFits cfg outer.degrees dI) :
    ∃ r l, Spline.composeRational cfg outer inner = .ok r ∧ Spline.composeSensitivityRational cfg outer inner = .ok l ∧
      (∀ q ∈ l, q.wt = r.wt) ∧ ∀ k < r.num.ncp, (∀ q ∈ l, k < q.num.cps.length) ∧
        r.num.cps[k]? = some (List.zipWith (fun (q : RSpline K K) c => q.num.cps.getD k 0 • c) l outer.cps).sum := by
  obtain ⟨l, l1, l2, l3⟩ := C124_composition_rational (K := K) cfg hmax outer inner dI G w ho hi hdim hcube hf
  obtain ⟨r, r1, r2⟩ := rparts_compose_inner hmax (ho.computes (K := K)) hi hdim hcube hf
  have hlen : outer.cps.length = size outer.degrees := ho.cps_len
  refine ⟨r, l, r1, l1, weighted_parts (nd := dI.map fun q => outer.degrees.sum * q)
    (F := fun n t => pw (Spline.hbFns outer.degrees (fun d => if h : d < Coords.n K W then coord (G t) ⟨d, h⟩ else 0)
        (fun d => if h : d < Coords.n K W then w t - coord (G t) ⟨d, h⟩ else 0)) (unflat outer.degrees n))
    (u := fun t => w t ^ outer.degrees.sum) (by rw [l2, hlen, ho.ncp_eq]) (fun n hn => ?_) ?_⟩
  · obtain ⟨e, he⟩ := UnitAt.ex (K := K) ho (n := n) (by rw [ho.ncp_eq, ← hlen]; exact hn)
    obtain ⟨q, q1, q2⟩ := l3 n e he
    have ce := he.wf.computes (K := K)
    rw [he.degrees] at ce
    obtain ⟨x, x1, x2⟩ := rparts_compose_inner hmax ce hi hdim hcube hf
    cases q2.symm.trans x1
    refine ⟨q, q1, x2.1.congr fun t _ => ?_, x2.2⟩
    unfold homogAt
    rw [he.sum ho]
  · rw [hlen]
    exact r2

/-- C124. Rational outer spline with control points `P` (its weighted control points are the weights times `P`), polynomial inner spline. -/
theorem C124_rational_points (cfg : Cfg) (hmax : cfg.maxBinom ≤ 68) (outer : RSpline K V) (inner : Spline W) (dO : List ℕ) (N : List K → V)
    (v : List K → K) (ho : RParts outer dO N v) (hi : inner.WF) (hdim : dO.length = Coords.n K W)
    (hcube : Spline.fitsIntoUnitCube K inner = .ok true) (hdeg : ∀ p ∈ dO, p < cfg.maxBinom) (hdeg' : ∀ q ∈ inner.degrees, dO.sum * q < cfg.maxBinom)
    (P : List V) (hP : P.length = outer.wt.ncp) (hnum : outer.num.cps = List.zipWith (fun c x => c • x) outer.wt.cps P) :
    ∃ r l, RSpline.compose cfg outer inner = .ok r ∧ RSpline.composeSensitivity cfg outer inner = .ok l ∧
      (∀ q ∈ l, q.wt = r.wt) ∧ ∀ k < r.num.ncp, (∀ q ∈ l, k < q.num.cps.length) ∧
        r.num.cps[k]? = some (List.zipWith (fun (q : RSpline K K) c => q.num.cps.getD k 0 • c) l P).sum := by
  have hwd := ho.2.degrees_eq
  have hlen : P.length = size dO := by rw [hP, ho.2.wf.ncp_eq, hwd]
  have hwl : outer.wt.cps.length = size dO := by rw [ho.2.wf.cps_len, hwd]
  have hg : ∀ n < size dO, outer.num.cps.getD n 0 = outer.wt.cps.getD n 0 • P.getD n 0 := by
    intro n hn
    rw [hnum]
    simp [List.getD_eq_getElem?_getD, hwl, hlen, hn]
  obtain ⟨l, l1, l2, l3⟩ := C124_rational_composition (K := K) cfg hmax outer inner dO N v ho hi hdim hcube hdeg hdeg'
  obtain ⟨r, r1, r2⟩ := rparts_compose hmax ho hi.computes hdim hcube hdeg hdeg'
  refine ⟨r, l, r1, l1, weighted_parts (nd := inner.degrees.map fun q => dO.sum * q)
    (F := fun n t => outer.wt.cps.getD n 0 * pw (bernFns dO (coordList K (inner.value t))) (unflat dO n))
    (u := fun t => v (coordList K (inner.value t))) (by rw [l2, hP]) (fun n hn => ?_) ⟨r2.1.congr fun t _ => ?_, r2.2⟩⟩
  · obtain ⟨e, he⟩ := RUnitAt.ex (K := K) ho.2.wf (n := n) (by rw [← hP]; exact hn)
    obtain ⟨q, q1, q2⟩ := l3 n e he
    have ce := he.wf.computes (K := K)
    have hed : e.num.degrees = dO := he.degrees.trans hwd
    rw [hed] at ce
    have hp : RParts e dO (fun t : List K => e.num.value t) v := ⟨ce, by rw [he.weights]; exact ho.2⟩
    obtain ⟨x, x1, x2⟩ := rparts_compose hmax hp hi.computes hdim hcube hdeg hdeg'
    cases q2.symm.trans x1
    refine ⟨q, q1, x2.1.congr fun t _ => ?_, x2.2⟩
    have hs := he.sum ho.2.wf fun m => pw (bernFns dO (coordList K (inner.value t))) (unflat dO m)
    rw [hwd] at hs
    rw [ce.sum_pw (by rw [coordList_length, hdim]), hs]
  · rw [ho.1.sum_pw (by rw [coordList_length, hdim]), hlen]
    refine sum_congr rfl fun n hn => ?_
    rw [hg n (mem_range.mp hn), smul_smul, mul_comm]

/-- C124. Rational outer spline with control points `P`, rational inner spline, weights of any sign. -/
theorem C124_rational_points_rational [ScalarDiv K W] [LawfulScalarDiv K W] (cfg : Cfg) (hmax : cfg.maxBinom ≤ 68) (outer : RSpline K V)
    (inner : RSpline K W) (dO dI : List ℕ) (N : List K → V) (v : List K → K) (G : List K → W) (w : List K → K) (ho : RParts outer dO N v)
    (hi : RParts inner dI G w) (hdim : dO.length = Coords.n K W) (hf : ComposeFits cfg dO dI)
    (P : List V) (hP : P.length = outer.wt.ncp) (hnum : outer.num.cps = List.zipWith (fun c x => c • x) outer.wt.cps P) :
    ∃ r l, RSpline.composeRational cfg outer inner = .ok r ∧ RSpline.composeSensitivityRational cfg outer inner = .ok l ∧
      (∀ q ∈ l, q.wt = r.wt) ∧ ∀ k < r.num.ncp, (∀ q ∈ l, k < q.num.cps.length) ∧
        r.num.cps[k]? = some (List.zipWith (fun (q : RSpline K K) c => q.num.cps.getD k 0 • c) l P).sum := by
  have hwd := ho.2.degrees_eq
  have hlen : P.length = size dO := by rw [hP, ho.2.wf.ncp_eq, hwd]
  have hwl : outer.wt.cps.length = size dO := by rw [ho.2.wf.cps_len, hwd]
  have hg : ∀ n < size dO, outer.num.cps.getD n 0 = outer.wt.cps.getD n 0 • P.getD n 0 := by
    intro n hn
    rw [hnum]
    simp [List.getD_eq_getElem?_getD, hwl, hlen, hn]
  obtain ⟨l, l1, l2, l3⟩ := C124_rational_composition_rational (K := K) cfg hmax outer inner dO dI N v G w ho hi hdim hf
  obtain ⟨r, r1, r2⟩ := rparts_compose_both hmax ho hi hdim hf
  refine ⟨r, l, r1, l1, weighted_parts (nd := dI.map fun q => dO.sum * q)
    (F := fun n t => outer.wt.cps.getD n 0 * pw (Spline.hbFns dO (fun d => if h : d < Coords.n K W then coord (G t) ⟨d, h⟩ else 0)
        (fun d => if h : d < Coords.n K W then w t - coord (G t) ⟨d, h⟩ else 0)) (unflat dO n))
    (u := fun t => homogAt dO outer.wt.cps (G t) (w t)) (by rw [l2, hP]) (fun n hn => ?_) ⟨r2.1.congr fun t _ => ?_, r2.2⟩⟩
  · obtain ⟨e, he⟩ := RUnitAt.ex (K := K) ho.2.wf (n := n) (by rw [← hP]; exact hn)
    obtain ⟨q, q1, q2⟩ := l3 n e he
    have ce := he.wf.computes (K := K)
    have hed : e.num.degrees = dO := he.degrees.trans hwd
    rw [hed] at ce
    have hp : RParts e dO (fun t : List K => e.num.value t) v := ⟨ce, by rw [he.weights]; exact ho.2⟩
    obtain ⟨x, x1, x2⟩ := rparts_compose_both hmax hp hi hdim hf
    cases q2.symm.trans x1
    rw [he.weights] at x2
    refine ⟨q, q1, x2.1.congr fun t _ => ?_, x2.2⟩
    have hs := he.sum ho.2.wf fun m => pw (Spline.hbFns dO (fun d => if h : d < Coords.n K W then coord (G t) ⟨d, h⟩ else 0)
        (fun d => if h : d < Coords.n K W then w t - coord (G t) ⟨d, h⟩ else 0)) (unflat dO m)
    rw [hwd] at hs
    unfold homogAt
    rw [hs]
  · unfold homogAt
    rw [hlen]
    refine sum_congr rfl fun n hn => ?_
    rw [hg n (mem_range.mp hn), smul_smul, mul_comm]

/-! ### What a sensitivity is for: moving one control point of the outer spline -/

omit [LinearOrder K] [IsStrictOrderedRing K] in
theorem zip_set_sum {α : Type} (f : α → K) (δ : V) : ∀ (l : List α) (P : List V) (n : ℕ) (q : α) (c : V), l[n]? = some q → P[n]? = some c →
    (List.zipWith (fun x y => f x • y) l (P.set n (c + δ))).sum = (List.zipWith (fun x y => f x • y) l P).sum + f q • δ
  | [], _, _, _, _, h, _ => by simp at h
  | _ :: _, [], _, _, _, _, h => by simp at h
  | a :: l, b :: P, 0, q, c, h, h' => by
    simp only [List.getElem?_cons_zero, Option.some.injEq] at h h'
    subst h h'
    simp only [List.set_cons_zero, List.zipWith_cons_cons, List.sum_cons, smul_add]
    abel
  | a :: l, b :: P, n + 1, q, c, h, h' => by
    simp only [List.getElem?_cons_succ] at h h'
    simp only [List.set_cons_succ, List.zipWith_cons_cons, List.sum_cons, zip_set_sum f δ l P n q c h h', add_assoc]

theorem moved_wf {s : Spline V} (hs : s.WF) (n : ℕ) (x : V) : ({ s with cps := s.cps.set n x } : Spline V).WF :=
  ⟨hs.dim_pos, hs.ncp_eq, hs.offsets_eq, by simp [hs.cps_len]⟩

/-- C124. Moving control point number `n` of the outer spline by `δ` moves every control point of the composition by `δ` times that of
sensitivity number `n`. -/
theorem C124_moved (cfg : Cfg) (hmax : cfg.maxBinom ≤ 68) (outer : Spline V) (inner : Spline W) (ho : outer.WF) (hi : inner.WF)
    (hdim : outer.degrees.length = Coords.n K W) (hcube : Spline.fitsIntoUnitCube K inner = .ok true)
    (hdeg : ∀ p ∈ outer.degrees, p < cfg.maxBinom) (hdeg' : ∀ q ∈ inner.degrees, outer.degrees.sum * q < cfg.maxBinom)
    (n : ℕ) (c δ : V) (hn : outer.cps[n]? = some c) :
    ∃ r r' l q, Spline.compose K cfg outer inner = .ok r ∧ Spline.compose K cfg { outer with cps := outer.cps.set n (c + δ) } inner = .ok r' ∧
      Spline.composeSensitivity K cfg outer inner = .ok l ∧ l[n]? = some q ∧ r'.degrees = r.degrees ∧
      r.cps.length = r.ncp ∧ r'.cps.length = r.ncp ∧ q.cps.length = r.ncp ∧
      ∀ k < r.ncp, r'.cps.getD k 0 = r.cps.getD k 0 + q.cps.getD k 0 • δ := by
  obtain ⟨r, l, r1, l1, h⟩ := C124_points (K := K) cfg hmax outer inner ho hi hdim hcube hdeg hdeg'
  have ho' := moved_wf ho n (c + δ)
  obtain ⟨r', l', r1', l1', h'⟩ := C124_points (K := K) cfg hmax _ inner ho' hi hdim hcube hdeg hdeg'
  have e : l' = l := by
    have : Spline.composeSensitivity K cfg { outer with cps := outer.cps.set n (c + δ) } inner = Spline.composeSensitivity K cfg outer inner := rfl
    rw [this, l1] at l1'
    exact (Except.ok.inj l1').symm
  subst e
  obtain ⟨x, x1, x2⟩ := C26_compose (K := K) cfg hmax outer inner _ _ _ _ ho.computes hi.computes hdim hcube hdeg hdeg'
  cases r1.symm.trans x1
  obtain ⟨x', y1, y2⟩ := C26_compose (K := K) cfg hmax _ inner _ _ _ _ ho'.computes hi.computes hdim hcube hdeg hdeg'
  cases r1'.symm.trans y1
  have hd : r'.degrees = r.degrees := by rw [x2.degrees_eq, y2.degrees_eq]
  have hc : r'.ncp = r.ncp := by rw [x2.wf.ncp_eq, y2.wf.ncp_eq, hd]
  obtain ⟨m, m1, m2, m3⟩ := C124_composition (K := K) cfg hmax outer inner ho hi hdim hcube hdeg hdeg'
  cases l1.symm.trans m1
  have hn' : n < outer.ncp := by rw [ho.ncp_eq, ← ho.cps_len]; exact (List.getElem?_eq_some_iff.mp hn).1
  obtain ⟨e, he⟩ := UnitAt.ex (K := K) ho hn'
  obtain ⟨q, q1, q2⟩ := m3 n e he
  obtain ⟨z, z1, z2⟩ := C26_compose (K := K) cfg hmax e inner _ _ _ _ he.wf.computes hi.computes (by rw [he.degrees]; exact hdim) hcube
    (by rw [he.degrees]; exact hdeg) (by rw [he.degrees]; exact hdeg')
  cases q2.symm.trans z1
  refine ⟨r, r', l', q, r1, r1', l1, q1, hd, by rw [x2.wf.cps_len, x2.wf.ncp_eq], by rw [y2.wf.cps_len, x2.wf.ncp_eq, hd],
    by rw [z2.wf.cps_len, x2.wf.ncp_eq, x2.degrees_eq, z2.degrees_eq, he.degrees], fun k hk => ?_⟩
  rw [List.getD_eq_getElem?_getD, List.getD_eq_getElem?_getD, (h' k (by rw [hc]; exact hk)).2, (h k hk).2]
  exact zip_set_sum (fun q : Spline K => q.cps.getD k 0) δ l' outer.cps n q c q1 hn

/-- C124. Rational outer spline with control points `P`, polynomial inner spline: moving control point number `n` by `δ` at fixed weights
leaves the weights of the composition alone and moves its weighted control points by `δ` times those of the sensitivity. -/
theorem C124_rational_moved (cfg : Cfg) (hmax : cfg.maxBinom ≤ 68) (outer outer' : RSpline K V) (inner : Spline W) (dO : List ℕ)
    (N N' : List K → V) (v : List K → K) (ho : RParts outer dO N v) (ho' : RParts outer' dO N' v) (hi : inner.WF)
    (hdim : dO.length = Coords.n K W) (hcube : Spline.fitsIntoUnitCube K inner = .ok true) (hdeg : ∀ p ∈ dO, p < cfg.maxBinom)
    (hdeg' : ∀ q ∈ inner.degrees, dO.sum * q < cfg.maxBinom) (P : List V) (hP : P.length = outer.wt.ncp)
    (hnum : outer.num.cps = List.zipWith (fun c x => c • x) outer.wt.cps P) (n : ℕ) (c δ : V) (hn : P[n]? = some c)
    (hwt' : outer'.wt = outer.wt) (hnum' : outer'.num.cps = List.zipWith (fun c x => c • x) outer.wt.cps (P.set n (c + δ))) :
    ∃ r r' l q, RSpline.compose cfg outer inner = .ok r ∧ RSpline.compose cfg outer' inner = .ok r' ∧
      RSpline.composeSensitivity cfg outer inner = .ok l ∧ l[n]? = some q ∧ r'.wt = r.wt ∧ q.wt = r.wt ∧
      r'.num.ncp = r.num.ncp ∧ ∀ k < r.num.ncp, ∃ x, r.num.cps[k]? = some x ∧ r'.num.cps[k]? = some (x + q.num.cps.getD k 0 • δ) := by
  obtain ⟨r, l, r1, l1, hw, h⟩ := C124_rational_points (K := K) cfg hmax outer inner dO N v ho hi hdim hcube hdeg hdeg' P hP hnum
  obtain ⟨r', l', r1', l1', hw', h'⟩ := C124_rational_points (K := K) cfg hmax outer' inner dO N' v ho' hi hdim hcube hdeg hdeg'
    (P.set n (c + δ)) (by rw [List.length_set, hP, hwt']) (by rw [hnum', hwt'])
  obtain ⟨m, m1, m2, m3⟩ := C124_rational_composition (K := K) cfg hmax outer inner dO N v ho hi hdim hcube hdeg hdeg'
  cases l1.symm.trans m1
  obtain ⟨m', m1', m2', m3'⟩ := C124_rational_composition (K := K) cfg hmax outer' inner dO N' v ho' hi hdim hcube hdeg hdeg'
  cases l1'.symm.trans m1'
  have e : l' = l := by
    apply List.ext_getElem
    · rw [m2, m2', hwt']
    · intro i i1 i2
      obtain ⟨e, he⟩ := RUnitAt.ex (K := K) ho.2.wf (n := i) (by rw [← m2]; exact i2)
      have he' : RUnitAt i outer' e := ⟨by rw [hwt']; exact he.inside, he.wf, by rw [hwt']; exact he.weights, by rw [hwt']; exact he.degrees,
        by rw [hwt']; exact he.points⟩
      obtain ⟨q, q1, q2⟩ := m3 i e he
      obtain ⟨q', q1', q2'⟩ := m3' i e he'
      cases q2.symm.trans q2'
      obtain ⟨_, a⟩ := List.getElem?_eq_some_iff.mp q1
      obtain ⟨_, b⟩ := List.getElem?_eq_some_iff.mp q1'
      rw [a, b]
  subst e
  obtain ⟨x, x1, x2⟩ := rparts_compose hmax ho hi.computes hdim hcube hdeg hdeg'
  cases r1.symm.trans x1
  obtain ⟨x', y1, y2⟩ := rparts_compose hmax ho' hi.computes hdim hcube hdeg hdeg'
  cases r1'.symm.trans y1
  have hc : r'.num.ncp = r.num.ncp := by rw [x2.1.wf.ncp_eq, y2.1.wf.ncp_eq, x2.1.degrees_eq, y2.1.degrees_eq]
  have hnl : n < l'.length := by rw [m2, ← hP]; exact (List.getElem?_eq_some_iff.mp hn).1
  have hq : l'[n]? = some l'[n] := List.getElem?_eq_getElem hnl
  refine ⟨r, r', l', l'[n], r1, r1', l1, hq, y2.2.unique x2.2, hw _ (List.getElem_mem hnl), hc, fun k hk => ⟨_, (h k hk).2, ?_⟩⟩
  rw [(h' k (by rw [hc]; exact hk)).2, zip_set_sum (fun q : RSpline K K => q.num.cps.getD k 0) δ l' P n _ c hq hn]

/-- C124. Rational inner spline, polynomial outer spline: the same. -/
theorem C124_moved_rational [ScalarDiv K W] [LawfulScalarDiv K W] (cfg : Cfg) (hmax : cfg.maxBinom ≤ 68) (outer : Spline V) (inner : RSpline K W)
    (dI : List ℕ) (G : List K → W) (w : List K → K) (ho : outer.WF) (hi : RParts inner dI G w) (hdim : outer.degrees.length = Coords.n K W)
    (hcube : inner.fitsIntoUnitCube = .ok true) (hf : ComposeFits cfg outer.degrees dI) (n : ℕ) (c δ : V) (hn : outer.cps[n]? = some c) :
    ∃ r r' l q, Spline.composeRational cfg outer inner = .ok r ∧
      Spline.composeRational cfg { outer with cps := outer.cps.set n (c + δ) } inner = .ok r' ∧
      Spline.composeSensitivityRational cfg outer inner = .ok l ∧ l[n]? = some q ∧ r'.wt = r.wt ∧ q.wt = r.wt ∧
      r'.num.ncp = r.num.ncp ∧ ∀ k < r.num.ncp, ∃ x, r.num.cps[k]? = some x ∧ r'.num.cps[k]? = some (x + q.num.cps.getD k 0 • δ) := by
  obtain ⟨r, l, r1, l1, hw, h⟩ := C124_points_rational (K := K) cfg hmax outer inner dI G w ho hi hdim hcube hf
  have ho' := moved_wf ho n (c + δ)
  obtain ⟨r', l', r1', l1', hw', h'⟩ := C124_points_rational (K := K) cfg hmax _ inner dI G w ho' hi hdim hcube hf
  have e : l' = l := by
    have : Spline.composeSensitivityRational cfg { outer with cps := outer.cps.set n (c + δ) } inner =
      Spline.composeSensitivityRational cfg outer inner := rfl
    rw [this, l1] at l1'
    exact (Except.ok.inj l1').symm
  subst e
  obtain ⟨m, m1, m2, -⟩ := C124_composition_rational (K := K) cfg hmax outer inner dI G w ho hi hdim hcube hf
  cases l1.symm.trans m1
  obtain ⟨x, x1, x2⟩ := rparts_compose_inner hmax (ho.computes (K := K)) hi hdim hcube hf
  cases r1.symm.trans x1
  obtain ⟨x', y1, y2⟩ := rparts_compose_inner hmax (ho'.computes (K := K)) hi hdim hcube hf
  cases r1'.symm.trans y1
  have hc : r'.num.ncp = r.num.ncp := by rw [x2.1.wf.ncp_eq, y2.1.wf.ncp_eq, x2.1.degrees_eq, y2.1.degrees_eq]
  have hnl : n < l'.length := by rw [m2, ho.ncp_eq, ← ho.cps_len]; exact (List.getElem?_eq_some_iff.mp hn).1
  have hq : l'[n]? = some l'[n] := List.getElem?_eq_getElem hnl
  refine ⟨r, r', l', l'[n], r1, r1', l1, hq, y2.2.unique x2.2, hw _ (List.getElem_mem hnl), hc, fun k hk => ⟨_, (h k hk).2, ?_⟩⟩
  rw [(h' k (by rw [hc]; exact hk)).2]
  exact congrArg some (zip_set_sum (fun q : RSpline K K => q.num.cps.getD k 0) δ l' outer.cps n _ c hq hn)

/-- C124. Rational outer spline with control points `P`, rational inner spline, weights of any sign: the same. -/
theorem C124_rational_moved_rational [ScalarDiv K W] [LawfulScalarDiv K W] (cfg : Cfg) (hmax : cfg.maxBinom ≤ 68) (outer outer' : RSpline K V)
    (inner : RSpline K W) (dO dI : List ℕ) (N N' : List K → V) (v : List K → K) (G : List K → W) (w : List K → K) (ho : RParts outer dO N v)
    (ho' : RParts outer' dO N' v) (hi : RParts inner dI G w) (hdim : dO.length = Coords.n K W) (hf : ComposeFits cfg dO dI)
    (P : List V) (hP : P.length = outer.wt.ncp) (hnum : outer.num.cps = List.zipWith (fun c x => c • x) outer.wt.cps P)
    (n : ℕ) (c δ : V) (hn : P[n]? = some c) (hwt' : outer'.wt = outer.wt)
    (hnum' : outer'.num.cps = List.zipWith (fun c x => c • x) outer.wt.cps (P.set n (c + δ))) :
    ∃ r r' l q, RSpline.composeRational cfg outer inner = .ok r ∧ RSpline.composeRational cfg outer' inner = .ok r' ∧
      RSpline.composeSensitivityRational cfg outer inner = .ok l ∧ l[n]? = some q ∧ r'.wt = r.wt ∧ q.wt = r.wt ∧
      r'.num.ncp = r.num.ncp ∧ ∀ k < r.num.ncp, ∃ x, r.num.cps[k]? = some x ∧ r'.num.cps[k]? = some (x + q.num.cps.getD k 0 • δ) := by
  obtain ⟨r, l, r1, l1, hw, h⟩ := C124_rational_points_rational (K := K) cfg hmax outer inner dO dI N v G w ho hi hdim hf P hP hnum
  obtain ⟨r', l', r1', l1', hw', h'⟩ := C124_rational_points_rational (K := K) cfg hmax outer' inner dO dI N' v G w ho' hi hdim hf
    (P.set n (c + δ)) (by rw [List.length_set, hP, hwt']) (by rw [hnum', hwt'])
  obtain ⟨m, m1, m2, m3⟩ := C124_rational_composition_rational (K := K) cfg hmax outer inner dO dI N v G w ho hi hdim hf
  cases l1.symm.trans m1
  obtain ⟨m', m1', m2', m3'⟩ := C124_rational_composition_rational (K := K) cfg hmax outer' inner dO dI N' v G w ho' hi hdim hf
  cases l1'.symm.trans m1'
  have e : l' = l := by
    apply List.ext_getElem
    · rw [m2, m2', hwt']
    · intro i i1 i2
      obtain ⟨e, he⟩ := RUnitAt.ex (K := K) ho.2.wf (n := i) (by rw [← m2]; exact i2)
      have he' : RUnitAt i outer' e := ⟨by rw [hwt']; exact he.inside, he.wf, by rw [hwt']; exact he.weights, by rw [hwt']; exact he.degrees,
        by rw [hwt']; exact he.points⟩
      obtain ⟨q, q1, q2⟩ := m3 i e he
      obtain ⟨q', q1', q2'⟩ := m3' i e he'
      cases q2.symm.trans q2'
      obtain ⟨_, a⟩ := List.getElem?_eq_some_iff.mp q1
      obtain ⟨_, b⟩ := List.getElem?_eq_some_iff.mp q1'
      rw [a, b]
  subst e
  obtain ⟨x, x1, x2⟩ := rparts_compose_both hmax ho hi hdim hf
  cases r1.symm.trans x1
  obtain ⟨x', y1, y2⟩ := rparts_compose_both hmax ho' hi hdim hf
  cases r1'.symm.trans y1
  rw [hwt'] at y2
  have hc : r'.num.ncp = r.num.ncp := by rw [x2.1.wf.ncp_eq, y2.1.wf.ncp_eq, x2.1.degrees_eq, y2.1.degrees_eq]
  have hnl : n < l'.length := by rw [m2, ← hP]; exact (List.getElem?_eq_some_iff.mp hn).1
  have hq : l'[n]? = some l'[n] := List.getElem?_eq_getElem hnl
  refine ⟨r, r', l', l'[n], r1, r1', l1, hq, y2.2.unique x2.2, hw _ (List.getElem_mem hnl), hc, fun k hk => ⟨_, (h k hk).2, ?_⟩⟩
  rw [(h' k (by rw [hc]; exact hk)).2, zip_set_sum (fun q : RSpline K K => q.num.cps.getD k 0) δ l' P n _ c hq hn]

/-! ### Splitting the inner spline -/

/-- the unit spline of a rational outer spline is made of these parts -/
theorem _root_.Bezman.Spec.RUnitAt.parts {r : RSpline K V} {dO : List ℕ} {v : List K → K} (hw : r.wt.Computes dO v) {n : ℕ} {e : RSpline K K}
    (h : RUnitAt n r e) : RParts e dO (fun t : List K => e.num.value t) v := by
  have ce := h.wf.computes (K := K)
  have hed : e.num.degrees = dO := h.degrees.trans hw.degrees_eq
  rw [hed] at ce
  exact ⟨ce, by rw [h.weights]; exact hw⟩

/-- C124. Rational outer spline: splitting the sensitivities gives those of the compositions with the parts of the inner spline. -/
theorem C124_rational_split (cfg : Cfg) (hmax : cfg.maxBinom ≤ 68) (outer : RSpline K V) (inner : Spline W) (dO : List ℕ) (N : List K → V)
    (v : List K → K) (ho : RParts outer dO N v) (hi : inner.WF) (hdim : dO.length = Coords.n K W)
    (hcube : Spline.fitsIntoUnitCube K inner = .ok true) (hdeg : ∀ p ∈ dO, p < cfg.maxBinom) (hdeg' : ∀ q ∈ inner.degrees, dO.sum * q < cfg.maxBinom)
    (d : ℕ) (hd : d < inner.degrees.length) (z : K) (h0 : 0 < z) (h1 : z < 1) :
    ∃ i₁ i₂ l l₁ l₂, inner.splitAt z d = .ok (i₁, i₂) ∧ RSpline.composeSensitivity cfg outer inner = .ok l ∧
      RSpline.composeSensitivity cfg outer i₁ = .ok l₁ ∧ RSpline.composeSensitivity cfg outer i₂ = .ok l₂ ∧ l.length = outer.wt.ncp ∧
      l₁.length = outer.wt.ncp ∧ l₂.length = outer.wt.ncp ∧
      ∀ (n : ℕ) (q q₁ q₂ : RSpline K K), l[n]? = some q → l₁[n]? = some q₁ → l₂[n]? = some q₂ → q.splitAt z d = .ok (q₁, q₂) := by
  obtain ⟨i₁, i₂, e, c1, c2⟩ := C31_split inner _ _ (hi.computes (K := K)) d hd z h0 h1
  obtain ⟨i₁', i₂', e', f1, f2⟩ := C73_split_fits (K := K) inner hi hcube d hd z h0 h1
  cases e.symm.trans e'
  obtain ⟨l, a1, a2, a3⟩ := C124_rational_composition (K := K) cfg hmax outer inner dO N v ho hi hdim hcube hdeg hdeg'
  obtain ⟨l₁, b1, b2, b3⟩ := C124_rational_composition (K := K) cfg hmax outer i₁ dO N v ho c1.wf hdim f1 hdeg (by rw [c1.degrees_eq]; exact hdeg')
  obtain ⟨l₂, d1, d2, d3⟩ := C124_rational_composition (K := K) cfg hmax outer i₂ dO N v ho c2.wf hdim f2 hdeg (by rw [c2.degrees_eq]; exact hdeg')
  refine ⟨i₁, i₂, l, l₁, l₂, e, a1, b1, d1, a2, b2, d2, fun n q q₁ q₂ hq hq₁ hq₂ => ?_⟩
  have hn : n < outer.wt.ncp := by rw [← a2]; exact (List.getElem?_eq_some_iff.mp hq).1
  obtain ⟨u, hu⟩ := RUnitAt.ex (K := K) ho.2.wf hn
  obtain ⟨x, x1, x2⟩ := a3 n u hu
  obtain ⟨x₁, y1, y2⟩ := b3 n u hu
  obtain ⟨x₂, z1, z2⟩ := d3 n u hu
  cases hq.symm.trans x1
  cases hq₁.symm.trans y1
  cases hq₂.symm.trans z1
  obtain ⟨r, j₁, j₂, r₁, r₂, k1, k2, k3, k4, k5⟩ := C121_split_compose (K := K) cfg hmax u inner _ _ _ _ _ (hu.parts ho.2) hi.computes
    hdim hcube hdeg hdeg' d hd z h0 h1
  cases e.symm.trans k2
  cases x2.symm.trans k1
  cases y2.symm.trans k3
  cases z2.symm.trans k4
  exact k5

/-- C124. Rational outer and rational inner spline, weights of any sign. -/
theorem C124_rational_split_rational [ScalarDiv K W] [LawfulScalarDiv K W] (cfg : Cfg) (hmax : cfg.maxBinom ≤ 68) (outer : RSpline K V)
    (inner : RSpline K W) (dO dI : List ℕ) (N : List K → V) (v : List K → K) (G : List K → W) (w : List K → K) (ho : RParts outer dO N v)
    (hi : RParts inner dI G w) (hdim : dO.length = Coords.n K W) (hf : ComposeFits cfg dO dI)
    (d : ℕ) (hd : d < dI.length) (z : K) (h0 : 0 < z) (h1 : z < 1) :
    ∃ i₁ i₂ l l₁ l₂, inner.splitAt z d = .ok (i₁, i₂) ∧ RSpline.composeSensitivityRational cfg outer inner = .ok l ∧
      RSpline.composeSensitivityRational cfg outer i₁ = .ok l₁ ∧ RSpline.composeSensitivityRational cfg outer i₂ = .ok l₂ ∧
      l.length = outer.wt.ncp ∧ l₁.length = outer.wt.ncp ∧ l₂.length = outer.wt.ncp ∧
      ∀ (n : ℕ) (q q₁ q₂ : RSpline K K), l[n]? = some q → l₁[n]? = some q₁ → l₂[n]? = some q₂ → q.splitAt z d = .ok (q₁, q₂) := by
  obtain ⟨i₁, i₂, e, c1, c2⟩ := rparts_split hi hd h0 h1
  obtain ⟨l, a1, a2, a3⟩ := C124_rational_composition_rational (K := K) cfg hmax outer inner dO _ N v _ _ ho hi hdim hf
  obtain ⟨l₁, b1, b2, b3⟩ := C124_rational_composition_rational (K := K) cfg hmax outer i₁ dO _ N v _ _ ho c1 hdim hf
  obtain ⟨l₂, d1, d2, d3⟩ := C124_rational_composition_rational (K := K) cfg hmax outer i₂ dO _ N v _ _ ho c2 hdim hf
  refine ⟨i₁, i₂, l, l₁, l₂, e, a1, b1, d1, a2, b2, d2, fun n q q₁ q₂ hq hq₁ hq₂ => ?_⟩
  have hn : n < outer.wt.ncp := by rw [← a2]; exact (List.getElem?_eq_some_iff.mp hq).1
  obtain ⟨u, hu⟩ := RUnitAt.ex (K := K) ho.2.wf hn
  obtain ⟨x, x1, x2⟩ := a3 n u hu
  obtain ⟨x₁, y1, y2⟩ := b3 n u hu
  obtain ⟨x₂, z1, z2⟩ := d3 n u hu
  cases hq.symm.trans x1
  cases hq₁.symm.trans y1
  cases hq₂.symm.trans z1
  obtain ⟨r, j₁, j₂, r₁, r₂, k1, k2, k3, k4, k5⟩ := C121_split_compose_both (K := K) cfg hmax u inner _ _ _ _ _ _ (hu.parts ho.2) hi
    hdim hf d hd z h0 h1
  cases e.symm.trans k2
  cases x2.symm.trans k1
  cases y2.symm.trans k3
  cases z2.symm.trans k4
  exact k5

end

/-! ## The hypotheses are met -/
section

example := C124_points_rational (K := ℚ) Ex.cfg Ex.cfg_ok (Ex.curve (3 : ℚ) 1 4) _ _ _ _ (Ex.curve_wf ..) exInner rfl (by decide +kernel)
  ⟨by decide, by decide, by decide, by decide, by decide⟩
/-- weights 1, 2, 5 and control points 3, 1/2, 4/5 -/
example := C124_rational_points (K := ℚ) Ex.cfg Ex.cfg_ok _ exIn _ _ _ (exCurveR 3 1 4 1 2 5) (Ex.surf_wf ..) rfl (by decide +kernel)
  (by decide) (by decide) [3, 1 / 2, 4 / 5] rfl (by decide +kernel)
example := C124_rational_points_rational (K := ℚ) Ex.cfg Ex.cfg_ok _ _ _ _ _ _ _ _ (exCurveR 3 1 4 1 (-2) 5) exInner rfl
  ⟨by decide, by decide, by decide, by decide, by decide⟩ [3, -1 / 2, 4 / 5] rfl (by decide +kernel)

example := C124_moved (K := ℚ) Ex.cfg Ex.cfg_ok (Ex.curve (3 : ℚ) 1 4) exIn (Ex.curve_wf ..) (Ex.surf_wf ..) rfl (by decide +kernel)
  (by decide) (by decide) 1 1 7 rfl
/-- the second control point moves from 1/2 to 3/2 -/
example := C124_rational_moved (K := ℚ) Ex.cfg Ex.cfg_ok _ _ exIn _ _ _ _ (exCurveR 3 1 4 1 2 5) (exCurveR 3 3 4 1 2 5) (Ex.surf_wf ..) rfl
  (by decide +kernel) (by decide) (by decide) [3, 1 / 2, 4 / 5] rfl (by decide +kernel) 1 (1 / 2) 1 rfl rfl (by decide +kernel)
example := C124_moved_rational (K := ℚ) Ex.cfg Ex.cfg_ok (Ex.curve (3 : ℚ) 1 4) _ _ _ _ (Ex.curve_wf ..) exInner rfl (by decide +kernel)
  ⟨by decide, by decide, by decide, by decide, by decide⟩ 1 1 7 rfl
example := C124_rational_moved_rational (K := ℚ) Ex.cfg Ex.cfg_ok _ _ _ _ _ _ _ _ _ _ (exCurveR 3 1 4 1 2 5) (exCurveR 3 3 4 1 2 5) exInner rfl
  ⟨by decide, by decide, by decide, by decide, by decide⟩ [3, 1 / 2, 4 / 5] rfl (by decide +kernel) 1 (1 / 2) 1 rfl rfl (by decide +kernel)

example := C124_rational_split (K := ℚ) Ex.cfg Ex.cfg_ok _ exIn _ _ _ (exCurveR 3 1 4 1 2 5) (Ex.surf_wf ..) rfl (by decide +kernel)
  (by decide) (by decide) 1 (by decide) (1 / 3) (by decide +kernel) (by decide +kernel)
example := C124_rational_split_rational (K := ℚ) Ex.cfg Ex.cfg_ok _ _ _ _ _ _ _ _ (exCurveR 3 1 4 1 (-2) 5) exInner rfl
  ⟨by decide, by decide, by decide, by decide, by decide⟩ 0 (by decide) (1 / 3) (by decide +kernel) (by decide +kernel)

end

end Bezman.Props
