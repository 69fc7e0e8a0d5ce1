import Verif.Props.MirrorRational

/-! # Property C120: rational splines with exchanged dimensions, and rational compositions -/

namespace Bezman.Props
open Spec Coords

section
variable {K V : Type} [Field K] [LinearOrder K] [IsStrictOrderedRing K] [AddCommGroup V] [Module K V] [ScalarDiv K V] [LawfulScalarDiv K V]

omit [Module K V] [Field K] [LinearOrder K] [IsStrictOrderedRing K] [ScalarDiv K V] [LawfulScalarDiv K V] in
/-- C120. Exchanging is symmetric. -/
theorem C120_exchange_symm (d : ℕ) (s s' : Spline V) (h : Exchanged d s s') : Exchanged d s' s := by
  refine ⟨h.wf', h.wf, by rw [h.degrees, length_swapAt]; exact h.inside, by rw [h.degrees, swapAt_swapAt], fun idx hi => ?_⟩
  have hv := valid_swap hi d
  rw [h.degrees, swapAt_swapAt] at hv
  rw [← h.points _ hv, swapAt_swapAt]

omit [Module K V] [Field K] [LinearOrder K] [IsStrictOrderedRing K] [ScalarDiv K V] [LawfulScalarDiv K V] in
/-- C120. There is one spline with exchanged dimensions. -/
theorem C120_exchange_unique (d : ℕ) (s s' s'' : Spline V) (h : Exchanged d s s') (h' : Exchanged d s s'') : s' = s'' := by
  have hdeg : s'.degrees = s''.degrees := by rw [h.degrees, h'.degrees]
  refine Spline.cp_ext h.wf' h'.wf' hdeg.symm fun idx hi => ?_
  have hv := valid_swap hi d
  rw [h.degrees, swapAt_swapAt] at hv
  have e1 := h.points _ hv
  have e2 := h'.points _ hv
  rw [swapAt_swapAt] at e1 e2
  have e3 := e1.trans e2.symm
  rw [Spline.controlPoint_cp h.wf' hi, Spline.controlPoint_cp h'.wf' (by rw [← hdeg]; exact hi)] at e3
  injection e3

/-- C120. Two splines with exchanged dimensions compare equal exactly if the original ones do. -/
theorem C120_exchange_equal (d : ℕ) (a a' b b' : Spline K) (ha : Exchanged d a a') (hb : Exchanged d b b') : a'.eqOp b' = a.eqOp b := by
  rw [Bool.eq_iff_iff, eqOp_iff ha.wf' hb.wf', eqOp_iff ha.wf hb.wf]
  constructor
  · rintro rfl
    exact C120_exchange_unique d a' a b (C120_exchange_symm d a a' ha) (C120_exchange_symm d b a' hb)
  · rintro rfl
    exact C120_exchange_unique d a a' b' ha hb

/-- C120. The rational spline with exchanged dimensions has the outcome of the original one at exchanged parameters. -/
theorem C120_exchange_rational_evaluate (d : ℕ) (r r' : RSpline K V) (h : RExchanged d r r') (t : List K)
    (ht : t.length = r.num.degrees.length) : r'.evaluate (swapAt d t) = r.evaluate t := by
  obtain ⟨x, h1, h2⟩ := C120_exchange_evaluate d r.num r'.num h.num t ht
  obtain ⟨y, h3, h4⟩ := C120_exchange_evaluate d r.wt r'.wt h.wt t (by rw [← h.same]; exact ht)
  unfold RSpline.evaluate
  rw [h1, h2, h3, h4]

omit [IsStrictOrderedRing K] [Module K V] [LawfulScalarDiv K V] in
/-- C120. The stored points and weights, as the API returns them. -/
theorem C120_exchange_rational_points (d : ℕ) (r r' : RSpline K V) (h : RExchanged d r r') (idx : List ℕ) (hidx : ValidIdx r.num.degrees idx) :
    r'.controlPoint (swapAt d idx) = r.controlPoint idx ∧ r'.weight (swapAt d idx) = r.weight idx := by
  have h1 := h.num.points idx hidx
  have h2 := h.wt.points idx (by rw [← h.same]; exact hidx)
  refine ⟨?_, h2⟩
  unfold RSpline.controlPoint
  rw [h1, h2]

/-- C120. Order elevation of rational splines. -/
theorem C120_exchange_rational_elevate (d : ℕ) (r r' : RSpline K V) (h : RExchanged d r r') (e p : ℕ)
    (hp : r.num.degrees[e]? = some p) (hsize : size (r.num.degrees.set e (p + 1)) < 2 ^ 31) :
    ∃ x x', r.orderElevate e = .ok x ∧ r'.orderElevate (exchange d e) = .ok x' ∧ RExchanged d x x' := by
  obtain ⟨n, e1, hn⟩ := C12_order_elevate (K := K) r.num _ _ h.num.wf.computes e p hp hsize
  obtain ⟨w, e2, hw⟩ := C12_order_elevate (K := K) r.wt _ _ h.wt.wf.computes e p (by rw [← h.same]; exact hp) (by rw [← h.same]; exact hsize)
  obtain ⟨_, n', e10, e3, mn⟩ := C120_exchange_elevate (K := K) d r.num r'.num h.num e p hp hsize
  obtain ⟨_, w', e20, e4, mw⟩ := C120_exchange_elevate (K := K) d r.wt r'.wt h.wt e p (by rw [← h.same]; exact hp)
    (by rw [← h.same]; exact hsize)
  have ec : n.degrees = w.degrees := by rw [hn.degrees_eq, hw.degrees_eq, h.same]
  cases e1.symm.trans e10
  cases e2.symm.trans e20
  refine ⟨⟨n, w⟩, ⟨n', w'⟩, ?_, ?_, ⟨ec, mn, mw⟩⟩
  · unfold RSpline.orderElevate
    rw [e1, bind_ok, e2, bind_ok, assertM_ok (by simp [RSpline.compatible, ec])]
    rfl
  · unfold RSpline.orderElevate
    rw [e3, bind_ok, e4, bind_ok, assertM_ok (by simp [RSpline.compatible, ec, mn.degrees, mw.degrees])]
    rfl

/-- C120. Splitting a rational spline. -/
theorem C120_exchange_rational_split (d : ℕ) (r r' : RSpline K V) (h : RExchanged d r r') (e : ℕ) (he : e < r.num.degrees.length) (z : K)
    (h0 : 0 < z) (h1 : z < 1) :
    ∃ a b a' b', r.splitAt z e = .ok (a, b) ∧ r'.splitAt z (exchange d e) = .ok (a', b') ∧ RExchanged d a a' ∧ RExchanged d b b' := by
  have he' : e < r.wt.degrees.length := by rw [← h.same]; exact he
  obtain ⟨na, nb, e1, hna, hnb⟩ := C31_split r.num _ _ (h.num.wf.computes (K := K)) e he z h0 h1
  obtain ⟨wa, wb, e2, hwa, hwb⟩ := C31_split r.wt _ _ (h.wt.wf.computes (K := K)) e he' z h0 h1
  obtain ⟨_, _, na', nb', e10, e3, ma, mb⟩ := C120_exchange_split d r.num r'.num h.num e he z h0 h1
  obtain ⟨_, _, wa', wb', e20, e4, va, vb⟩ := C120_exchange_split d r.wt r'.wt h.wt e he' z h0 h1
  cases e1.symm.trans e10
  cases e2.symm.trans e20
  have ea : na.degrees = wa.degrees := by rw [hna.degrees_eq, hwa.degrees_eq, h.same]
  have eb : nb.degrees = wb.degrees := by rw [hnb.degrees_eq, hwb.degrees_eq, h.same]
  refine ⟨⟨na, wa⟩, ⟨nb, wb⟩, ⟨na', wa'⟩, ⟨nb', wb'⟩, ?_, ?_, ⟨ea, ma, va⟩, ⟨eb, mb, vb⟩⟩
  · unfold RSpline.splitAt
    rw [e1, bind_ok, e2, bind_ok]
    simp only []
    rw [RSpline.ofSplines_ok ea, bind_ok, RSpline.ofSplines_ok eb]
    rfl
  · unfold RSpline.splitAt
    rw [e3, bind_ok, e4, bind_ok]
    simp only []
    rw [RSpline.ofSplines_ok (by rw [ma.degrees, va.degrees, ea]), bind_ok, RSpline.ofSplines_ok (by rw [mb.degrees, vb.degrees, eb])]
    rfl

/-- C120. Sums of rational splines with exchanged dimensions, with equal and with different weights. -/
theorem C120_exchange_rational_add (d : ℕ) (cfg : Cfg) (hmax : cfg.maxBinom ≤ 68) (a a' b b' : RSpline K V)
    (ha : RExchanged d a a') (hb : RExchanged d b b') (hf : RFits cfg a.num.degrees b.num.degrees) :
    ∃ r r', a.addOp cfg b = .ok r ∧ a'.addOp cfg b' = .ok r' ∧ RExchanged d r r' := by
  have heq := C120_exchange_equal d a.wt a'.wt b.wt b'.wt ha.wt hb.wt
  have hl := hf.dims
  have ca := ha.num.wf.computes (K := K)
  have cb := hb.num.wf.computes (K := K)
  have va := ha.wt.wf.computes (K := K)
  have vb := hb.wt.wf.computes (K := K)
  rw [← ha.same] at va
  rw [← hb.same] at vb
  unfold RSpline.addOp
  rw [heq]
  cases he : a.wt.eqOp b.wt with
  | true =>
    have hw := (eqOp_iff ha.wt.wf hb.wt.wf).mp he
    have hdd : b.num.degrees = a.num.degrees := by rw [hb.same, ha.same, hw]
    have hf' : Fits cfg a.num.degrees b.num.degrees := by
      rw [hdd] at hf ⊢
      exact fits_self (le_sumDegrees hf.dims _ hf.rounds) hf.rounds2 (lt_of_le_of_lt (size_le_sumDegrees hf.dims) hf.small)
    obtain ⟨n, h1, h2⟩ := C16_add cfg a.num b.num _ _ _ _ ca cb hf'
    obtain ⟨_, n', e1, e2, hm⟩ := C120_exchange_add (K := K) d cfg a.num a'.num b.num b'.num ha.num hb.num hf'
    cases h1.symm.trans e1
    have e3 : n.degrees = a.wt.degrees := by rw [h2.degrees_eq, hdd, maxDegrees_self, ha.same]
    refine ⟨⟨n, a.wt⟩, ⟨n', a'.wt⟩, ?_, ?_, ⟨e3, hm, ha.wt⟩⟩
    · simp only [if_true, e1, bind_ok]
      exact RSpline.ofSplines_ok e3
    · simp only [if_true, e2, bind_ok]
      exact RSpline.ofSplines_ok (by rw [hm.degrees, ha.wt.degrees, e3])
  | false =>
    obtain ⟨x, g1, c1⟩ := C21_mul_point_scalar cfg hmax a.num b.wt _ _ _ _ ca vb hf.dims hf.degs
    obtain ⟨y, g2, c2⟩ := C21_mul_scalar_point cfg hmax a.wt b.num _ _ _ _ va cb hf.dims hf.degs
    obtain ⟨w, g3, c3⟩ := C21_mul_scalar cfg hmax a.wt b.wt _ _ _ _ va vb hf.dims hf.degs
    have ms := ha.same
    have ns := hb.same
    obtain ⟨_, x', ex, ex', mx⟩ := C120_exchange_mul d cfg hmax (fun x (c : K) => c • x) (LinearMap.lsmul K V).flip (fun _ _ => rfl) a.num a'.num
      b.wt b'.wt ha.num hb.wt (by rw [← ns]; exact hl) (by rw [← ns]; exact hf.degs)
    obtain ⟨_, y', ey, ey', my⟩ := C120_exchange_mul d cfg hmax (fun (c : K) x => c • x) (LinearMap.lsmul K V) (fun _ _ => rfl) a.wt a'.wt
      b.num b'.num ha.wt hb.num (by rw [← ms]; exact hl) (by rw [← ms]; exact hf.degs)
    obtain ⟨_, w', ew, ew', mw⟩ := C120_exchange_mul d cfg hmax (fun a b : K => a * b) (LinearMap.mul K K) (fun _ _ => rfl) a.wt a'.wt b.wt b'.wt
      ha.wt hb.wt (by rw [← ms, ← ns]; exact hl) (by rw [← ms, ← ns]; exact hf.degs)
    cases g1.symm.trans ex
    cases g2.symm.trans ey
    cases g3.symm.trans ew
    have hF : Fits cfg x.degrees y.degrees := by
      rw [c1.degrees_eq, c2.degrees_eq]
      exact fits_self hf.rounds hf.rounds2 hf.small
    obtain ⟨n, h1, h2⟩ := C16_add cfg x y _ _ _ _ c1 c2 (fits_self hf.rounds hf.rounds2 hf.small)
    obtain ⟨_, n', e1, e2, hm⟩ := C120_exchange_add (K := K) d cfg x x' y y' mx my hF
    cases h1.symm.trans e1
    have e3 : n.degrees = w.degrees := by rw [h2.degrees_eq, maxDegrees_self, c3.degrees_eq]
    refine ⟨⟨n, w⟩, ⟨n', w'⟩, ?_, ?_, ⟨e3, hm, mw⟩⟩
    · unfold RSpline.mulWeight' RSpline.mulWeight Spline.mulScalar
      simp only [Bool.false_eq_true, if_false, ex, ey, ew, e1, bind_ok]
      exact RSpline.ofSplines_ok e3
    · unfold RSpline.mulWeight' RSpline.mulWeight Spline.mulScalar
      simp only [Bool.false_eq_true, if_false, ex', ey', ew', e2, bind_ok]
      exact RSpline.ofSplines_ok (by rw [hm.degrees, mw.degrees, e3])

/-- C120. Products of rational splines with exchanged dimensions. -/
theorem C120_exchange_rational_mul {W U : Type} [AddCommGroup W] [Module K W] [AddCommGroup U] [Module K U] (d : ℕ) (cfg : Cfg)
    (hmax : cfg.maxBinom ≤ 68) (mul : V → W → U) (B : V →ₗ[K] W →ₗ[K] U) (hB : ∀ x y, mul x y = B x y) (a a' : RSpline K V) (b b' : RSpline K W)
    (ha : RExchanged d a a') (hb : RExchanged d b b') (hdim : b.num.degrees.length = a.num.degrees.length)
    (hdeg : ∀ p ∈ sumDegrees a.num.degrees b.num.degrees, p < cfg.maxBinom) :
    ∃ r r', RSpline.mulOp cfg mul a b = .ok r ∧ RSpline.mulOp cfg mul a' b' = .ok r' ∧ RExchanged d r r' := by
  have ms := ha.same
  have ns := hb.same
  obtain ⟨n, g1, c1⟩ := C21_mul cfg hmax mul B hB a.num b.num _ _ _ _ (ha.num.wf.computes (K := K)) (hb.num.wf.computes (K := K)) hdim hdeg
  obtain ⟨w, g2, c2⟩ := C21_mul cfg hmax (fun a b : K => a * b) (LinearMap.mul K K) (fun _ _ => rfl) a.wt b.wt _ _ _ _
    (ha.wt.wf.computes (K := K)) (hb.wt.wf.computes (K := K)) (by rw [← ms, ← ns]; exact hdim) (by rw [← ms, ← ns]; exact hdeg)
  obtain ⟨_, n', e1, e1', mn⟩ := C120_exchange_mul d cfg hmax mul B hB a.num a'.num b.num b'.num ha.num hb.num hdim hdeg
  obtain ⟨_, w', e2, e2', mw⟩ := C120_exchange_mul d cfg hmax (fun a b : K => a * b) (LinearMap.mul K K) (fun _ _ => rfl) a.wt a'.wt b.wt b'.wt
    ha.wt hb.wt (by rw [← ms, ← ns]; exact hdim) (by rw [← ms, ← ns]; exact hdeg)
  cases g1.symm.trans e1
  cases g2.symm.trans e2
  have e3 : n.degrees = w.degrees := by rw [c1.degrees_eq, c2.degrees_eq, ms, ns]
  refine ⟨⟨n, w⟩, ⟨n', w'⟩, ?_, ?_, ⟨e3, mn, mw⟩⟩
  · unfold RSpline.mulOp Spline.mulScalar
    rw [e1, bind_ok, e2, bind_ok]
    exact RSpline.ofSplines_ok e3
  · unfold RSpline.mulOp Spline.mulScalar
    rw [e1', bind_ok, e2', bind_ok]
    exact RSpline.ofSplines_ok (by rw [mn.degrees, mw.degrees, e3])

section compose
variable {W : Type} [AddCommGroup W] [Module K W] [Coords K W] [LawfulCoords K W]

/-- C120. A rational spline composed with a reversed polynomial one is the reversed composition. -/
theorem C120_rational_compose_inner (d : ℕ) (cfg : Cfg) (hmax : cfg.maxBinom ≤ 68) (outer : RSpline K V) (inner inner' : Spline W)
    (ho : outer.num.WF) (ho' : outer.wt.WF) (hsame : outer.num.degrees = outer.wt.degrees) (hd : d < inner.degrees.length)
    (h : Mirrored d inner inner') (hdim : outer.num.degrees.length = Coords.n K W)
    (hcube : inner.fitsIntoUnitCube K = .ok true) (hdeg : ∀ p ∈ outer.num.degrees, p < cfg.maxBinom)
    (hdeg' : ∀ q ∈ inner.degrees, outer.num.degrees.sum * q < cfg.maxBinom) :
    ∃ r r', RSpline.compose cfg outer inner = .ok r ∧ RSpline.compose cfg outer inner' = .ok r' ∧ RMirrored d r r' := by
  obtain ⟨n, e1, c1⟩ := C26_compose cfg hmax outer.num inner _ _ _ _ (ho.computes (K := K)) (h.wf.computes (K := K)) hdim hcube hdeg hdeg'
  obtain ⟨_, n', e10, e2, m1⟩ := C120_compose_inner (K := K) d cfg hmax outer.num inner inner' ho hd h hdim hcube hdeg hdeg'
  rw [hsame] at hdim hdeg hdeg'
  obtain ⟨w, e3, c3⟩ := C26_compose cfg hmax outer.wt inner _ _ _ _ (ho'.computes (K := K)) (h.wf.computes (K := K)) hdim hcube hdeg hdeg'
  obtain ⟨_, w', e30, e4, m2⟩ := C120_compose_inner (K := K) d cfg hmax outer.wt inner inner' ho' hd h hdim hcube hdeg hdeg'
  cases e1.symm.trans e10
  cases e3.symm.trans e30
  have ec : n.degrees = w.degrees := by rw [c1.degrees_eq, c3.degrees_eq, hsame]
  refine ⟨⟨n, w⟩, ⟨n', w'⟩, ?_, ?_, ⟨ec, m1, m2⟩⟩
  · unfold RSpline.compose
    rw [e1, bind_ok, e3, bind_ok]
    exact RSpline.ofSplines_ok ec
  · unfold RSpline.compose
    rw [e2, bind_ok, e4, bind_ok]
    exact RSpline.ofSplines_ok (by rw [m1.degrees, m2.degrees, ec])

/-- C120. A rational spline composed with a polynomial one with exchanged dimensions. -/
theorem C120_exchange_rational_compose_inner (d : ℕ) (cfg : Cfg) (hmax : cfg.maxBinom ≤ 68) (outer : RSpline K V) (inner inner' : Spline W)
    (ho : outer.num.WF) (ho' : outer.wt.WF) (hsame : outer.num.degrees = outer.wt.degrees)
    (h : Exchanged d inner inner') (hdim : outer.num.degrees.length = Coords.n K W)
    (hcube : inner.fitsIntoUnitCube K = .ok true) (hdeg : ∀ p ∈ outer.num.degrees, p < cfg.maxBinom)
    (hdeg' : ∀ q ∈ inner.degrees, outer.num.degrees.sum * q < cfg.maxBinom) :
    ∃ r r', RSpline.compose cfg outer inner = .ok r ∧ RSpline.compose cfg outer inner' = .ok r' ∧ RExchanged d r r' := by
  obtain ⟨n, e1, c1⟩ := C26_compose cfg hmax outer.num inner _ _ _ _ (ho.computes (K := K)) (h.wf.computes (K := K)) hdim hcube hdeg hdeg'
  obtain ⟨_, n', e10, e2, m1⟩ := C120_exchange_compose_inner (K := K) d cfg hmax outer.num inner inner' ho h hdim hcube hdeg hdeg'
  rw [hsame] at hdim hdeg hdeg'
  obtain ⟨w, e3, c3⟩ := C26_compose cfg hmax outer.wt inner _ _ _ _ (ho'.computes (K := K)) (h.wf.computes (K := K)) hdim hcube hdeg hdeg'
  obtain ⟨_, w', e30, e4, m2⟩ := C120_exchange_compose_inner (K := K) d cfg hmax outer.wt inner inner' ho' h hdim hcube hdeg hdeg'
  cases e1.symm.trans e10
  cases e3.symm.trans e30
  have ec : n.degrees = w.degrees := by rw [c1.degrees_eq, c3.degrees_eq, hsame]
  refine ⟨⟨n, w⟩, ⟨n', w'⟩, ?_, ?_, ⟨ec, m1, m2⟩⟩
  · unfold RSpline.compose
    rw [e1, bind_ok, e3, bind_ok]
    exact RSpline.ofSplines_ok ec
  · unfold RSpline.compose
    rw [e2, bind_ok, e4, bind_ok]
    exact RSpline.ofSplines_ok (by rw [m1.degrees, m2.degrees, ec])

end compose
end

/-! ## Examples -/

/-- a rational surface with weights that differ from point to point, and the same with its dimensions exchanged -/
theorem exRExchange : RExchanged 0 (⟨Ex.surf 0 1 4 5 7 9, Ex.surf 1 2 3 4 5 6⟩ : RSpline ℚ ℚ) ⟨Ex.surf' 0 5 1 7 4 9, Ex.surf' 1 4 2 5 3 6⟩ :=
  ⟨rfl, exExchange .., exExchange ..⟩

/-- another one, with different weights -/
theorem exRExchange' : RExchanged 0 (⟨Ex.surf 2 1 4 5 7 9, Ex.surf 1 1 3 4 5 6⟩ : RSpline ℚ ℚ) ⟨Ex.surf' 2 5 1 7 4 9, Ex.surf' 1 4 1 5 3 6⟩ :=
  ⟨rfl, exExchange .., exExchange ..⟩

example : (⟨Ex.surf' 0 5 1 7 4 9, Ex.surf' 1 4 2 5 3 6⟩ : RSpline ℚ ℚ).evaluate (swapAt 0 [1 / 3, 1 / 4]) =
    (⟨Ex.surf 0 1 4 5 7 9, Ex.surf 1 2 3 4 5 6⟩ : RSpline ℚ ℚ).evaluate [1 / 3, 1 / 4] :=
  C120_exchange_rational_evaluate 0 _ _ exRExchange _ rfl

example : ∃ a b a' b', (⟨Ex.surf 0 1 4 5 7 9, Ex.surf 1 2 3 4 5 6⟩ : RSpline ℚ ℚ).splitAt (1 / 3) 0 = .ok (a, b) ∧
    (⟨Ex.surf' 0 5 1 7 4 9, Ex.surf' 1 4 2 5 3 6⟩ : RSpline ℚ ℚ).splitAt (1 / 3) 1 = .ok (a', b') ∧ RExchanged 0 a a' ∧ RExchanged 0 b b' :=
  C120_exchange_rational_split 0 _ _ exRExchange 0 (by decide) _ (by norm_num) (by norm_num)

/-- a sum of rational surfaces with different weights -/
example : ∃ r r', (⟨Ex.surf 0 1 4 5 7 9, Ex.surf 1 2 3 4 5 6⟩ : RSpline ℚ ℚ).addOp Ex.cfg ⟨Ex.surf 2 1 4 5 7 9, Ex.surf 1 1 3 4 5 6⟩ = .ok r ∧
    (⟨Ex.surf' 0 5 1 7 4 9, Ex.surf' 1 4 2 5 3 6⟩ : RSpline ℚ ℚ).addOp Ex.cfg ⟨Ex.surf' 2 5 1 7 4 9, Ex.surf' 1 4 1 5 3 6⟩ = .ok r' ∧
    RExchanged 0 r r' :=
  C120_exchange_rational_add 0 Ex.cfg Ex.cfg_ok _ _ _ _ exRExchange exRExchange' ⟨rfl, by decide, by decide, by decide, by decide⟩

/-- a rational curve composed with a surface inside the unit interval, both orientations -/
example : ∃ r r', RSpline.compose Ex.cfg (⟨Ex.curve 0 3 1, Ex.curve 1 2 3⟩ : RSpline ℚ ℚ) (Ex.surf (0 : ℚ) 1 (1 / 2) 0 (1 / 3) 1) = .ok r ∧
    RSpline.compose Ex.cfg (⟨Ex.curve 0 3 1, Ex.curve 1 2 3⟩ : RSpline ℚ ℚ) (Ex.surf (1 / 2 : ℚ) 1 0 1 (1 / 3) 0) = .ok r' ∧ RMirrored 0 r r' :=
  C120_rational_compose_inner 0 Ex.cfg Ex.cfg_ok _ _ _ (Ex.curve_wf ..) (Ex.curve_wf ..) rfl (by decide) (exMirror ..) rfl (by decide +kernel)
    (by decide) (by decide)

example : ∃ r r', RSpline.compose Ex.cfg (⟨Ex.curve 0 3 1, Ex.curve 1 2 3⟩ : RSpline ℚ ℚ) (Ex.surf (0 : ℚ) 1 (1 / 2) 0 (1 / 3) 1) = .ok r ∧
    RSpline.compose Ex.cfg (⟨Ex.curve 0 3 1, Ex.curve 1 2 3⟩ : RSpline ℚ ℚ) (Ex.surf' (0 : ℚ) 0 1 (1 / 3) (1 / 2) 1) = .ok r' ∧ RExchanged 0 r r' :=
  C120_exchange_rational_compose_inner 0 Ex.cfg Ex.cfg_ok _ _ _ (Ex.curve_wf ..) (Ex.curve_wf ..) rfl (exExchange ..) rfl (by decide +kernel)
    (by decide) (by decide)

end Bezman.Props
