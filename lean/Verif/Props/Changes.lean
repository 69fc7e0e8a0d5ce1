import Verif.Spec.Changes
import Verif.Props.Rational
import Verif.Props.Box
import Verif.Proofs.Unique

/-! # Properties: histories of calls that change an object -/

namespace Bezman.Props
open Spec Coords

section
variable {K V : Type} [Field K] [AddCommGroup V] [Module K V]

/-- the control points of an object are the only ones that represent its function -/
theorem represents_cps [CharZero K] {s : Spline V} {ds : List ℕ} {f : List K → V} (hs : s.Computes ds f) {C : List V}
    (hC : Represents ds C f) : s.cps = C := by
  have hwf : ({ s with cps := C } : Spline V).WF := hs.wf.setCps (by rw [hC.1, hs.degrees_eq])
  have h : ({ s with cps := C } : Spline V).Computes ds f := Spline.Computes.mk' hwf hs.degrees_eq fun t ht => by
    rw [hC.2 t ht, ← hs.degrees_eq]; rfl
  exact congrArg Spline.cps (hs.unique h)

/-- an object with these control points -/
theorem netValue_computes {s : Spline V} {ds : List ℕ} (hs : s.WF) (hd : s.degrees = ds) {C : List V} (hC : C.length = size ds) :
    ({ s with cps := C } : Spline V).Computes ds (fun t : List K => netValue ds C t) :=
  Spline.Computes.mk' (hs.setCps (by rw [hC, hd])) hd fun t _ => by subst hd; rfl

theorem updateDegrees_changes [CharZero K] {s : Spline V} {ds nd : List ℕ} {f : List K → V} (hs : s.Computes ds f) {C : List V}
    (hC : Represents ds C f) (hl : nd.length = ds.length) :
    ∃ r, s.updateDegrees nd = .ok r ∧ r.Computes nd (fun t : List K => netValue nd (resized C (size nd)) t) := by
  have hpos : 0 < nd.length := by rw [hl, ← hs.dim_eq]; exact hs.wf.dim_pos
  have e : s.updateDegrees nd = .ok ⟨nd, size nd, offsetsOf nd, resized C (size nd)⟩ := by
    unfold Spline.updateDegrees
    simp only
    rw [Spline.updateIndexOffsets_ok (by rw [hs.wf.off_len, hs.dim_eq, hl]) hpos, Spline.countCps_eq, represents_cps hs hC]
    simp only [bind_ok]
    rfl
  refine ⟨_, e, Spline.Computes.mk' ⟨hpos, rfl, rfl, ?_⟩ rfl fun t _ => rfl⟩
  simp [resized]; omega

theorem setControlPoint_changes [CharZero K] {s : Spline V} {ds : List ℕ} {f : List K → V} (hs : s.Computes ds f) {C : List V}
    (hC : Represents ds C f) {idx : List ℕ} (hi : ValidIdx ds idx) (x : V) :
    ∃ r, s.setControlPoint idx x = .ok r ∧ r.Computes ds (fun t : List K => netValue ds (C.set (flatIndex ds idx) x) t) := by
  have e := Spline.setControlPoint_ok hs.wf (idx := idx) (by rw [hs.degrees_eq]; exact hi) x
  refine ⟨_, e, ?_⟩
  rw [represents_cps hs hC]
  have := hs.degrees_eq
  subst this
  exact netValue_computes hs.wf rfl (by rw [List.length_set, hC.1])

theorem setEntry_changes [CharZero K] {s : Spline V} {ds : List ℕ} {f : List K → V} (hs : s.Computes ds f) {C : List V}
    (hC : Represents ds C f) {i : ℕ} (hi : i < size ds) (x : V) :
    wr s.cps i x = .ok (C.set i x) ∧
      ({ s with cps := C.set i x } : Spline V).Computes ds (fun t : List K => netValue ds (C.set i x) t) := by
  rw [represents_cps hs hC]
  exact ⟨wr_ok _ (by rw [hC.1]; exact hi), netValue_computes hs.wf hs.degrees_eq (by rw [List.length_set, hC.1])⟩

end

section
variable {K V : Type} [Field K] [LinearOrder K] [IsStrictOrderedRing K] [AddCommGroup V] [Module K V] [Coords K V] [LawfulCoords K V]

/-- C116. A call that changes an object succeeds and the object then computes the function the call is documented to give. -/
theorem C116_change (cfg : Cfg) (s : Spline V) (ds ds' : List ℕ) (f f' : List K → V) (m : Mutator K V) (hs : s.Computes ds f)
    (h : Changes cfg ds f m ds' f') : ∃ r, m.apply cfg s = .ok r ∧ r.Computes ds' f' := by
  cases h with
  | scale c => exact C20_scale s ds f hs c
  | addPoint v => exact C20_add_point s ds f hs v
  | subPoint v => exact C20_sub_point s ds f hs v
  | orderElevate d p hp hsz => exact C12_order_elevate s ds f hs d p hp hsz
  | addAssign rhs db g h hf => exact C17_add_assign cfg s rhs ds db f g hs h hf
  | subAssign rhs db g h hf => exact C19_sub_assign cfg s rhs ds db f g hs h hf
  | transposeAndScale v c _ h =>
    obtain ⟨r, h1, h2, h3, h4⟩ := C24_transpose_and_scale s ds f hs v c
    refine ⟨r, h1, h2, h3, fun t ht => ?_⟩
    obtain ⟨x, hx, hj⟩ := h4 t ht
    rw [hx]
    exact congrArg Except.ok (LawfulCoords.ext (K := K) _ _ fun j => by rw [hj, h t ht j])
  | fitIntoUnitCube C _ lo hi hC hlo hhi hlt h =>
    have hc := represents_cps hs hC
    obtain ⟨r, l, u, h1, _, h2, h3, _, hl, hu, h4⟩ := C24_fit_into_unit_cube s ds f hs (fun j => by
      obtain ⟨a, ha, ea⟩ := (hlo j).1
      obtain ⟨b, hb, eb⟩ := (hhi j).1
      exact ⟨a, hc ▸ ha, b, hc ▸ hb, ea ▸ eb ▸ hlt j⟩)
    obtain ⟨l', el, l1, l2⟩ := Spline.minimumCorner_ok (K := K) hs.wf
    obtain ⟨u', eu, u1, u2⟩ := Spline.maximumCorner_ok (K := K) hs.wf
    obtain rfl : l = l' := Except.ok.inj (hl.symm.trans el)
    obtain rfl : u = u' := Except.ok.inj (hu.symm.trans eu)
    have el' : ∀ j, (coord l j : K) = lo j := fun j => by
      obtain ⟨x, hx, e⟩ := l2 j
      obtain ⟨a, ha, ea⟩ := (hlo j).1
      exact le_antisymm (by rw [ea]; exact l1 j a (hc ▸ ha)) (by rw [← e]; exact (hlo j).2 ⟨x, hc ▸ hx, rfl⟩)
    have eu' : ∀ j, (coord u j : K) = hi j := fun j => by
      obtain ⟨x, hx, e⟩ := u2 j
      obtain ⟨a, ha, ea⟩ := (hhi j).1
      exact le_antisymm (by rw [← e]; exact (hhi j).2 ⟨x, hc ▸ hx, rfl⟩) (by rw [ea]; exact u1 j a (hc ▸ ha))
    refine ⟨r, h1, h2, h3, fun t ht => ?_⟩
    obtain ⟨x, hx, hj⟩ := h4 t ht
    rw [hx]
    exact congrArg Except.ok (LawfulCoords.ext (K := K) _ _ fun j => by rw [hj, h t ht j, el', eu'])
  | setControlPoint C idx x hC hi => exact setControlPoint_changes hs hC hi x
  | setEntry C i x hC hi =>
    obtain ⟨e, hr⟩ := setEntry_changes hs hC hi x
    exact ⟨_, by simp only [Mutator.apply, e, bind_ok]; rfl, hr⟩
  | updateDegrees C nd hC hl => exact updateDegrees_changes hs hC hl

/-- C116. A history of such calls succeeds and the object ends up computing what the history says. -/
theorem C116_history (cfg : Cfg) (ms : List (Mutator K V)) (s : Spline V) (ds ds' : List ℕ) (f f' : List K → V) (hs : s.Computes ds f)
    (h : HistoryOf cfg ds f ms ds' f') : ∃ r, runHistory cfg s ms = .ok r ∧ r.Computes ds' f' := by
  induction h generalizing s with
  | nil ds f => exact ⟨s, rfl, hs⟩
  | cons h _ ih =>
    obtain ⟨r, h1, h2⟩ := C116_change cfg s _ _ _ _ _ hs h
    obtain ⟨q, h3, h4⟩ := ih r h2
    exact ⟨q, by simp only [runHistory, h1, bind_ok, h3], h4⟩

end

section
variable {K V : Type} [Field K] [CharZero K] [DecidableEq K] [AddCommGroup V] [Module K V]

omit [CharZero K] [DecidableEq K] in
theorem sumFits_shared {cfg : Cfg} {da : List ℕ} (h : SumFits cfg da da) : Fits cfg da da :=
  fits_self (le_sumDegrees h.dims _ h.rounds) h.rounds2 (lt_of_le_of_lt (size_le_sumDegrees h.dims) h.small)

theorem eqOp_of_parts {a b : Spline K} {ds : List ℕ} {w v : List K → K} (ha : a.Computes ds w) (hb : b.Computes ds v)
    (hw : ∀ t : List K, t.length = ds.length → v t = w t) : a.eqOp b = true :=
  (eqOp_iff ha.wf hb.wf).mpr (ha.unique (hb.congr hw))

theorem neOp_of_parts {a b : Spline K} {ds db : List ℕ} {w v : List K → K} (ha : a.Computes ds w) (hb : b.Computes db v)
    (hw : db ≠ ds ∨ ∃ t : List K, t.length = ds.length ∧ v t ≠ w t) : a.eqOp b = false := by
  by_contra h
  have e := (eqOp_iff ha.wf hb.wf).mp (by simpa using h)
  subst e
  rcases hw with hw | ⟨t, ht, hw⟩
  · exact hw (hb.degrees_eq.symm.trans ha.degrees_eq)
  · obtain rfl : db = ds := hb.degrees_eq.symm.trans ha.degrees_eq
    exact hw ((hb.value_eq ht).symm.trans (ha.value_eq ht))

/-- both numerators and both weights on a common denominator -/
theorem cross_parts {cfg : Cfg} (hmax : cfg.maxBinom ≤ 68) {a b : RSpline K V} {da db : List ℕ} {N M : List K → V} {w v : List K → K}
    (ha : RParts a da N w) (hb : RParts b db M v) (h : SumFits cfg da db) :
    ∃ x y z, RSpline.mulWeight' cfg a.num b.wt = .ok x ∧ RSpline.mulWeight cfg a.wt b.num = .ok y ∧
      Spline.mulScalar cfg a.wt b.wt = .ok z ∧ x.Computes (sumDegrees da db) (fun t => v t • N t) ∧
      y.Computes (sumDegrees da db) (fun t => w t • M t) ∧ z.Computes (sumDegrees da db) (fun t => w t * v t) := by
  obtain ⟨x, hx, hx'⟩ := C21_mul_point_scalar cfg hmax a.num b.wt da db _ _ ha.1 hb.2 h.dims h.degs
  obtain ⟨y, hy, hy'⟩ := C21_mul_scalar_point cfg hmax a.wt b.num da db _ _ ha.2 hb.1 h.dims h.degs
  obtain ⟨w, hw, hw'⟩ := C21_mul_scalar cfg hmax a.wt b.wt da db _ _ ha.2 hb.2 h.dims h.degs
  exact ⟨x, y, w, hx, hy, hw, hx', hy', hw'⟩

omit [CharZero K] [DecidableEq K] in
/-- adding or subtracting a point -/
theorem shift_parts {r : RSpline K V} {ds : List ℕ} {N : List K → V} {w : List K → K} (hr : RParts r ds N w) (op : V → V → V)
    (hop : ∀ (n : List ℕ) (t : List K) (F G : ℕ → V), neval n t (fun i => op (F i) (G i)) = op (neval n t F) (neval n t G)) (p : V) :
    loop r.num.ncp (fun i cps => do
      let x ← rd cps i
      let w ← rd r.wt.cps i
      wr cps i (op x (w • p))) r.num.cps
      = .ok (tab (size ds) (fun i => op (r.num.cps.getD i 0) (r.wt.cps.getD i 0 • p))) ∧
    ({ r.num with cps := tab (size ds) (fun i => op (r.num.cps.getD i 0) (r.wt.cps.getD i 0 • p)) } : Spline V).Computes ds
      (fun t => op (N t) (w t • p)) := by
  obtain ⟨hn, hw⟩ := hr
  constructor
  · have hl : r.num.cps.length = size ds := by rw [hn.wf.cps_len, hn.degrees_eq]
    have hwl : r.wt.cps.length = size ds := by rw [hw.wf.cps_len, hw.degrees_eq]
    rw [hn.wf.ncp_eq, hn.degrees_eq]
    conv_lhs => arg 3; rw [eq_tab r.num.cps 0, hl]
    apply RSpline.loop_update
    intro k H hk hH
    rw [rd_tab _ hk, rd_getElem (by omega)]
    simp only [bind_ok]
    rw [wr_tab _ _ hk, hH]
    simp [hwl, hk]
  · refine Spline.Computes.mk' (hn.wf.setCps (by simp [hn.degrees_eq])) hn.degrees_eq fun t ht => ?_
    rw [← hn.value_eq ht, ← hw.value_eq ht, Spline.value_eq_neval, Spline.value_eq_neval, Spline.value_eq_neval]
    show neval r.num.degrees t _ = op _ (neval r.wt.degrees t _ • p)
    rw [hn.degrees_eq, hw.degrees_eq]
    have : neval ds t (fun i => r.wt.cps.getD i 0) • p = neval ds t (fun i => r.wt.cps.getD i 0 • p) := by
      have := neval_map (LinearMap.toSpanSingleton K V p) ds t (fun i => r.wt.cps.getD i 0)
      simpa using this.symm
    rw [this, ← hop]
    apply neval_congr
    intro i hi
    show (tab _ _).getD i 0 = _
    simp [hi]

/-- C116. A call that changes a rational object succeeds and gives the object the documented numerator and weight function. -/
theorem C116_rational_change (cfg : Cfg) (hmax : cfg.maxBinom ≤ 68) (r : RSpline K V) (ds ds' : List ℕ) (N N' : List K → V)
    (w w' : List K → K) (m : RMutator K V) (hr : RParts r ds N w) (h : RChanges cfg ds N w m ds' N' w') :
    ∃ q, m.apply cfg r = .ok q ∧ RParts q ds' N' w' := by
  obtain ⟨hn, hw⟩ := hr
  have hc : r.num.degrees = r.wt.degrees := hn.degrees_eq.trans hw.degrees_eq.symm
  cases h with
  | assign rhs db M v h => exact ⟨rhs, rfl, h⟩
  | scale c =>
    obtain ⟨n, h1, h2⟩ := C20_scale r.num ds _ hn c
    refine ⟨⟨n, r.wt⟩, ?_, h2, hw⟩
    show RSpline.smulAssign r c = _
    unfold RSpline.smulAssign
    rw [h1]; simp only [bind_ok]
    rw [RSpline.assert_compatible (h2.degrees_eq.trans hw.degrees_eq.symm)]; rfl
  | addPoint v =>
    obtain ⟨h1, h2⟩ := shift_parts ⟨hn, hw⟩ (· + ·) (fun n t F G => neval_add n t F G) v
    refine ⟨⟨_, r.wt⟩, ?_, h2, hw⟩
    show RSpline.addPointAssign r v = _
    unfold RSpline.addPointAssign
    rw [h1]
    simp only [bind_ok]
    rw [assertM_ok (by simp [RSpline.compatible, hc])]
    rfl
  | subPoint v =>
    obtain ⟨h1, h2⟩ := shift_parts ⟨hn, hw⟩ (· - ·) (fun n t F G => neval_sub n t F G) v
    refine ⟨⟨_, r.wt⟩, ?_, h2, hw⟩
    show RSpline.subPointAssign r v = _
    unfold RSpline.subPointAssign
    rw [h1]
    rfl
  | orderElevate d p hp hsz =>
    obtain ⟨n, h1, h2⟩ := C12_order_elevate (K := K) r.num ds _ hn d p hp hsz
    obtain ⟨m, h3, h4⟩ := C12_order_elevate (K := K) r.wt ds _ hw d p hp hsz
    refine ⟨⟨n, m⟩, ?_, h2, h4⟩
    show RSpline.orderElevate r d = _
    unfold RSpline.orderElevate
    rw [h1, h3]
    simp only [bind_ok]
    rw [RSpline.assert_compatible (by rw [h2.degrees_eq, h4.degrees_eq])]
    rfl
  | addShared rhs M v h he hf =>
    obtain ⟨n, h1, h2⟩ := C17_add_assign cfg r.num rhs.num _ _ _ _ hn h.1 (sumFits_shared hf)
    rw [maxDegrees_self] at h2
    refine ⟨⟨n, r.wt⟩, ?_, h2, hw⟩
    show RSpline.addAssign cfg r rhs = _
    unfold RSpline.addAssign
    rw [eqOp_of_parts hw h.2 he]
    simp only [if_true, h1, bind_ok, pure_eq_ok]
  | addCross rhs db M v h he hf =>
    obtain ⟨x, y, z, hx, hy, hz, hx', hy', hz'⟩ := cross_parts hmax ⟨hn, hw⟩ h hf
    obtain ⟨n, h1, h2⟩ := C17_add_assign cfg x y _ _ _ _ hx' hy' (fits_self hf.rounds hf.rounds2 hf.small)
    rw [maxDegrees_self] at h2
    refine ⟨⟨n, z⟩, ?_, h2, hz'⟩
    show RSpline.addAssign cfg r rhs = _
    unfold RSpline.addAssign
    rw [neOp_of_parts hw h.2 he]
    simp only [Bool.false_eq_true, if_false, hx, hy, hz, h1, bind_ok]
    rw [RSpline.assert_compatible (by rw [h2.degrees_eq, hz'.degrees_eq])]
    rfl
  | subShared rhs M v h he hf =>
    obtain ⟨n, h1, h2⟩ := C19_sub_assign cfg r.num rhs.num _ _ _ _ hn h.1 (sumFits_shared hf)
    rw [maxDegrees_self] at h2
    refine ⟨⟨n, r.wt⟩, ?_, h2, hw⟩
    show RSpline.subAssign cfg r rhs = _
    unfold RSpline.subAssign
    rw [eqOp_of_parts hw h.2 he]
    simp only [if_true, h1, bind_ok, pure_eq_ok]
  | subCross rhs db M v h he hf =>
    obtain ⟨x, y, z, hx, hy, hz, hx', hy', hz'⟩ := cross_parts hmax ⟨hn, hw⟩ h hf
    obtain ⟨n, h1, h2⟩ := C19_sub_assign cfg x y _ _ _ _ hx' hy' (fits_self hf.rounds hf.rounds2 hf.small)
    rw [maxDegrees_self] at h2
    refine ⟨⟨n, z⟩, ?_, h2, hz'⟩
    show RSpline.subAssign cfg r rhs = _
    unfold RSpline.subAssign
    rw [neOp_of_parts hw h.2 he]
    simp only [Bool.false_eq_true, if_false, hx, hy, hz, h1, bind_ok]
    rw [RSpline.assert_compatible (by rw [h2.degrees_eq, hz'.degrees_eq])]
    rfl
  | setWeightedControlPoint C idx x hC hi =>
    obtain ⟨n, h1, h2⟩ := setControlPoint_changes hn hC hi x
    exact ⟨⟨n, r.wt⟩, by simp only [RMutator.apply, h1, bind_ok]; rfl, h2, hw⟩
  | setWeight D idx x hD hi =>
    obtain ⟨n, h1, h2⟩ := setControlPoint_changes hw hD hi x
    exact ⟨⟨r.num, n⟩, by simp only [RMutator.apply, h1, bind_ok]; rfl, hn, h2⟩
  | setEntry C i x hC hi =>
    obtain ⟨h1, h2⟩ := setEntry_changes hn hC hi x
    exact ⟨⟨{ r.num with cps := C.set i x }, r.wt⟩, by simp only [RMutator.apply, h1, bind_ok]; rfl, h2, hw⟩
  | setWeightEntry D i x hD hi =>
    obtain ⟨h1, h2⟩ := setEntry_changes hw hD hi x
    exact ⟨⟨r.num, { r.wt with cps := D.set i x }⟩, by simp only [RMutator.apply, h1, bind_ok]; rfl, hn, h2⟩
  | updateDegrees C D _ hC hD hl =>
    obtain ⟨n, h1, h2⟩ := updateDegrees_changes hn hC hl
    obtain ⟨m, h3, h4⟩ := updateDegrees_changes hw hD hl
    refine ⟨⟨n, m⟩, ?_, h2, h4⟩
    show RSpline.updateDegrees r _ = _
    unfold RSpline.updateDegrees
    rw [h1, h3]
    simp only [bind_ok]
    rw [RSpline.assert_compatible (by rw [h2.degrees_eq, h4.degrees_eq])]
    rfl

/-- C116. A history of such calls on a rational object. -/
theorem C116_rational_history (cfg : Cfg) (hmax : cfg.maxBinom ≤ 68) (ms : List (RMutator K V)) (r : RSpline K V) (ds ds' : List ℕ)
    (N N' : List K → V) (w w' : List K → K) (hr : RParts r ds N w) (h : RHistoryOf cfg ds N w ms ds' N' w') :
    ∃ q, ms.foldlM (fun r m => m.apply cfg r) r = .ok q ∧ RParts q ds' N' w' := by
  induction h generalizing r with
  | nil ds N w => exact ⟨r, rfl, hr⟩
  | cons h _ ih =>
    obtain ⟨q, h1, h2⟩ := C116_rational_change cfg hmax r _ _ _ _ _ _ _ hr h
    obtain ⟨q', h3, h4⟩ := ih q h2
    exact ⟨q', by rw [List.foldlM_cons, h1]; simp only [bind_ok, h3], h4⟩

/-- C116. After the history `Evaluate` returns the quotient, wherever the weight function is not zero. -/
theorem C116_rational_evaluate [ScalarDiv K V] [LawfulScalarDiv K V] (cfg : Cfg) (hmax : cfg.maxBinom ≤ 68) (ms : List (RMutator K V))
    (r : RSpline K V) (ds ds' : List ℕ) (N N' : List K → V) (w w' : List K → K) (hr : RParts r ds N w)
    (h : RHistoryOf cfg ds N w ms ds' N' w') :
    ∃ q, ms.foldlM (fun r m => m.apply cfg r) r = .ok q ∧
      ∀ t : List K, t.length = ds'.length → w' t ≠ 0 → q.evaluate t = .ok ((w' t)⁻¹ • N' t) := by
  obtain ⟨q, h1, h2, h3⟩ := C116_rational_history cfg hmax ms r ds ds' N N' w w' hr h
  exact ⟨q, h1, fun t ht h0 => (RSpline.computes_of h2 h3).eval t ht h0⟩

end

example : ∃ r, runHistory Ex.cfg Ex.A [Mutator.scale (3 : ℚ), .addAssign Ex.B, .subPoint 1, .orderElevate 0] = .ok r ∧
    r.Computes [3, 2] (fun t : List ℚ => (3 : ℚ) • Ex.A.value t + Ex.B.value t - 1) :=
  C116_history (K := ℚ) Ex.cfg _ Ex.A [2, 1] [3, 2] _ _ Ex.A_wf.computes
    (.cons (.scale _ _ 3) <| .cons (.addAssign _ _ Ex.B [1, 2] _ Ex.B_wf.computes fits_AB) <| .cons (.subPoint _ _ 1) <|
      .cons (.orderElevate _ _ 0 2 rfl (by decide)) <| .nil _ _)

/-- writing control points and re-reading them after `UpdateDegrees` -/
example : ∃ r, runHistory Ex.cfg (Ex.line (1 : ℚ) 2) [(Mutator.setControlPoint [1] 7 : Mutator ℚ ℚ), .setEntry 0 5, .updateDegrees [2]] = .ok r ∧
      r.Computes [2] (fun t : List ℚ => netValue [2] [(5 : ℚ), 7, 0] t) :=
  C116_history (K := ℚ) Ex.cfg _ (Ex.line 1 2) [1] [2] _ _ (Ex.line_wf 1 2).computes
    (.cons (.setControlPoint _ _ [1, 2] [1] 7 ⟨rfl, fun t _ => rfl⟩ (.cons le_rfl .nil)) <|
      .cons (.setEntry _ _ [1, 7] 0 5 ⟨rfl, fun _ _ => rfl⟩ (by decide)) <|
      .cons (.updateDegrees _ _ [5, 7] [2] ⟨rfl, fun _ _ => rfl⟩ rfl) <| .nil _ _)

/-- shifting, scaling and fitting into the unit cube -/
example : ∃ r, runHistory Ex.cfg (Ex.line (1 : ℚ) 3) [(Mutator.fitIntoUnitCube : Mutator ℚ ℚ), .transposeAndScale 1 4] = .ok r ∧
      r.Computes [1] (fun t : List ℚ => (1 + ((Ex.line 1 3).value t - 1) / (3 - 1)) * 4) :=
  C116_history (K := ℚ) Ex.cfg _ (Ex.line 1 3) [1] [1] _ _ (Ex.line_wf 1 3).computes
    (.cons (.fitIntoUnitCube _ _ [1, 3] (fun t => ((Ex.line (1 : ℚ) 3).value t - 1) / (3 - 1)) (fun _ => 1) (fun _ => 3)
        ⟨rfl, fun _ _ => rfl⟩
        (fun _ => ⟨⟨1, by simp, rfl⟩, by rintro x ⟨c, hc, rfl⟩; simp at hc; rcases hc with rfl | rfl <;> simp [Coords.coord]⟩)
        (fun _ => ⟨⟨3, by simp, rfl⟩, by rintro x ⟨c, hc, rfl⟩; simp at hc; rcases hc with rfl | rfl <;> simp [Coords.coord]⟩)
        (fun _ => by norm_num) (fun t _ _ => rfl)) <|
      .cons (.transposeAndScale _ _ 1 4 _ (fun t _ _ => rfl)) <| .nil _ _)

/-- the two parts of a rational line and of a rational parabola -/
def exLine : RSpline ℚ ℚ := ⟨Ex.line 1 6, Ex.line 1 2⟩
@[inherit_doc exLine] def exParabola : RSpline ℚ ℚ := ⟨Ex.curve 1 (-6) 1, Ex.curve 1 2 1⟩

example : RParts exLine [1] (fun t => exLine.num.value t) (fun t => exLine.wt.value t) := ⟨(Ex.line_wf _ _).computes, (Ex.line_wf _ _).computes⟩
example : RParts exParabola [2] (fun t => exParabola.num.value t) (fun t => exParabola.wt.value t) :=
  ⟨(Ex.curve_wf _ _ _).computes, (Ex.curve_wf _ _ _).computes⟩

example (r q : RSpline ℚ ℚ) (N M : List ℚ → ℚ) (w v : List ℚ → ℚ) (hr : RParts r [1] N w) (hq : RParts q [2] M v) :
    ∃ r', [RMutator.addPoint 4, .addAssign q, .scale 2].foldlM (fun r m => m.apply Ex.cfg r) r = .ok r' ∧
      RParts r' [3] (fun t => 2 * (v t * (N t + w t * 4) + w t * M t)) (fun t => w t * v t) :=
  C116_rational_history Ex.cfg Ex.cfg_ok _ r [1] [3] _ _ _ _ hr
    (.cons (.addPoint _ _ _ 4) <| .cons (.addCross _ _ _ q [2] _ _ hq (.inl (by decide)) ⟨rfl, by decide, by decide, by decide, by decide⟩) <|
      .cons (.scale _ _ _ 2) <| .nil _ _ _)

end Bezman.Props
