import Verif.Props.Mirror
import Verif.Props.Rational

/-! # Property C120 for rational splines, and examples -/

namespace Bezman.Props
open Spec Coords

section
variable {K V : Type} [Field K] [LinearOrder K] [IsStrictOrderedRing K] [AddCommGroup V] [Module K V] [ScalarDiv K V] [LawfulScalarDiv K V]

omit [Module K V] [Field K] [LinearOrder K] [IsStrictOrderedRing K] [ScalarDiv K V] [LawfulScalarDiv K V] in
/-- C120. Reversal is symmetric. -/
theorem C120_symm (d : ℕ) (s s' : Spline V) (hd : d < s.degrees.length) (h : Mirrored d s s') : Mirrored d s' s := by
  obtain ⟨x, hx⟩ := C120_exists d s' h.wf' (by rw [h.degrees]; exact hd)
  rwa [C120_twice d s s' x hd h hx] at hx

omit [Module K V] [Field K] [LinearOrder K] [IsStrictOrderedRing K] [ScalarDiv K V] [LawfulScalarDiv K V] in
/-- C120. There is one reversed spline. -/
theorem C120_unique (d : ℕ) (s s' s'' : Spline V) (hd : d < s.degrees.length) (h : Mirrored d s s') (h' : Mirrored d s s'') : s' = s'' :=
  (C120_twice d s' s s'' (by rw [h.degrees]; exact hd) (C120_symm d s s' hd h) h').symm

/-- C120. Two reversed splines compare equal exactly if the original ones do. -/
theorem C120_equal (d : ℕ) (a a' b b' : Spline K) (hda : d < a.degrees.length) (hdb : d < b.degrees.length) (ha : Mirrored d a a')
    (hb : Mirrored d b b') : a'.eqOp b' = a.eqOp b := by
  rw [Bool.eq_iff_iff, eqOp_iff ha.wf' hb.wf', eqOp_iff ha.wf hb.wf]
  constructor
  · rintro rfl
    exact C120_unique d a' a b (by rw [ha.degrees]; exact hda) (C120_symm d a a' hda ha) (C120_symm d b a' hdb hb)
  · rintro rfl
    exact C120_unique d a a' b' hda ha hb

/-- C120. The reversed rational spline has the outcome (value or division by zero) of the original one at the reversed parameter. -/
theorem C120_rational_evaluate (d : ℕ) (r r' : RSpline K V) (hd : d < r.num.degrees.length) (h : RMirrored d r r') (t : List K)
    (ht : t.length = r.num.degrees.length) : r'.evaluate t = r.evaluate (flipAt d t) := by
  obtain ⟨x, h1, h2⟩ := C120_evaluate d r.num r'.num hd h.num t ht
  obtain ⟨y, h3, h4⟩ := C120_evaluate d r.wt r'.wt (by rw [← h.same]; exact hd) h.wt t (by rw [← h.same]; exact ht)
  unfold RSpline.evaluate
  rw [h1, h2, h3, h4]

omit [IsStrictOrderedRing K] [Module K V] [LawfulScalarDiv K V] in
/-- C120. The stored points and weights, as the API returns them. -/
theorem C120_rational_points (d p : ℕ) (r r' : RSpline K V) (h : RMirrored d r r') (idx : List ℕ) (hidx : ValidIdx r.num.degrees idx)
    (hp : r.num.degrees[d]? = some p) :
    r'.controlPoint idx = r.controlPoint (idx.modify d fun i => p - i) ∧ r'.weight idx = r.weight (idx.modify d fun i => p - i) := by
  have h1 := h.num.points idx p hidx hp
  have h2 := h.wt.points idx p (by rw [← h.same]; exact hidx) (by rw [← h.same]; exact hp)
  refine ⟨?_, h2⟩
  unfold RSpline.controlPoint
  rw [h1, h2]

/-- C120. Order elevation of rational splines. -/
theorem C120_rational_elevate (d : ℕ) (r r' : RSpline K V) (hd : d < r.num.degrees.length) (h : RMirrored d r r') (e p : ℕ)
    (hp : r.num.degrees[e]? = some p) (hsize : size (r.num.degrees.set e (p + 1)) < 2 ^ 31) :
    ∃ x x', r.orderElevate e = .ok x ∧ r'.orderElevate e = .ok x' ∧ RMirrored d x x' := by
  obtain ⟨n, e1, hn⟩ := C12_order_elevate (K := K) r.num _ _ h.num.wf.computes e p hp hsize
  obtain ⟨w, e2, hw⟩ := C12_order_elevate (K := K) r.wt _ _ h.wt.wf.computes e p (by rw [← h.same]; exact hp) (by rw [← h.same]; exact hsize)
  obtain ⟨_, n', e10, e3, mn⟩ := C120_elevate (K := K) d r.num r'.num hd h.num e p hp hsize
  obtain ⟨_, w', e20, e4, mw⟩ := C120_elevate (K := K) d r.wt r'.wt (by rw [← h.same]; exact hd) h.wt e p (by rw [← h.same]; exact hp)
    (by rw [← h.same]; exact hsize)
  have ec : n.degrees = w.degrees := by rw [hn.degrees_eq, hw.degrees_eq, h.same]
  cases e1.symm.trans e10
  cases e2.symm.trans e20
  refine ⟨⟨n, w⟩, ⟨n', w'⟩, ?_, ?_, ⟨ec, mn, mw⟩⟩
  · unfold RSpline.orderElevate
    rw [e1, bind_ok, e2, bind_ok, assertM_ok (by simp [RSpline.compatible, ec])]
    rfl
  · unfold RSpline.orderElevate
    rw [e3, bind_ok, e4, bind_ok, assertM_ok (by simp [RSpline.compatible, ec, mn.degrees, mw.degrees])]
    rfl

/-- C120. Splitting a rational spline in the reversed dimension: at `1 - z`, with the pieces exchanged. -/
theorem C120_rational_split_reversed (d : ℕ) (r r' : RSpline K V) (hd : d < r.num.degrees.length) (h : RMirrored d r r') (z : K) (h0 : 0 < z)
    (h1 : z < 1) :
    ∃ a b a' b', r.splitAt z d = .ok (a, b) ∧ r'.splitAt (1 - z) d = .ok (b', a') ∧ RMirrored d a a' ∧ RMirrored d b b' := by
  have hd' : d < r.wt.degrees.length := by rw [← h.same]; exact hd
  obtain ⟨na, nb, e1, hna, hnb⟩ := C31_split r.num _ _ (h.num.wf.computes (K := K)) d hd z h0 h1
  obtain ⟨wa, wb, e2, hwa, hwb⟩ := C31_split r.wt _ _ (h.wt.wf.computes (K := K)) d hd' z h0 h1
  obtain ⟨_, _, na', nb', e10, e3, ma, mb⟩ := C120_split_reversed d r.num r'.num hd h.num z h0 h1
  obtain ⟨_, _, wa', wb', e20, e4, va, vb⟩ := C120_split_reversed d r.wt r'.wt hd' h.wt z h0 h1
  cases e1.symm.trans e10
  cases e2.symm.trans e20
  have ea : na.degrees = wa.degrees := by rw [hna.degrees_eq, hwa.degrees_eq, h.same]
  have eb : nb.degrees = wb.degrees := by rw [hnb.degrees_eq, hwb.degrees_eq, h.same]
  refine ⟨⟨na, wa⟩, ⟨nb, wb⟩, ⟨na', wa'⟩, ⟨nb', wb'⟩, ?_, ?_, ⟨ea, ma, va⟩, ⟨eb, mb, vb⟩⟩
  · unfold RSpline.splitAt
    rw [e1, bind_ok, e2, bind_ok]
    simp only []
    rw [RSpline.ofSplines_ok ea, bind_ok, RSpline.ofSplines_ok eb]
    rfl
  · unfold RSpline.splitAt
    rw [e3, bind_ok, e4, bind_ok]
    simp only []
    rw [RSpline.ofSplines_ok (by rw [mb.degrees, vb.degrees]; exact eb), bind_ok, RSpline.ofSplines_ok (by rw [ma.degrees, va.degrees]; exact ea)]
    rfl

/-- C120. Splitting a rational spline in another dimension. -/
theorem C120_rational_split_other (d e : ℕ) (hde : d ≠ e) (r r' : RSpline K V) (hd : d < r.num.degrees.length) (he : e < r.num.degrees.length)
    (h : RMirrored d r r') (z : K) (h0 : 0 < z) (h1 : z < 1) :
    ∃ a b a' b', r.splitAt z e = .ok (a, b) ∧ r'.splitAt z e = .ok (a', b') ∧ RMirrored d a a' ∧ RMirrored d b b' := by
  have hd' : d < r.wt.degrees.length := by rw [← h.same]; exact hd
  have he' : e < r.wt.degrees.length := by rw [← h.same]; exact he
  obtain ⟨na, nb, e1, hna, hnb⟩ := C31_split r.num _ _ (h.num.wf.computes (K := K)) e he z h0 h1
  obtain ⟨wa, wb, e2, hwa, hwb⟩ := C31_split r.wt _ _ (h.wt.wf.computes (K := K)) e he' z h0 h1
  obtain ⟨_, _, na', nb', e10, e3, ma, mb⟩ := C120_split_other d e hde r.num r'.num hd he h.num z h0 h1
  obtain ⟨_, _, wa', wb', e20, e4, va, vb⟩ := C120_split_other d e hde r.wt r'.wt hd' he' h.wt z h0 h1
  cases e1.symm.trans e10
  cases e2.symm.trans e20
  have ea : na.degrees = wa.degrees := by rw [hna.degrees_eq, hwa.degrees_eq, h.same]
  have eb : nb.degrees = wb.degrees := by rw [hnb.degrees_eq, hwb.degrees_eq, h.same]
  refine ⟨⟨na, wa⟩, ⟨nb, wb⟩, ⟨na', wa'⟩, ⟨nb', wb'⟩, ?_, ?_, ⟨ea, ma, va⟩, ⟨eb, mb, vb⟩⟩
  · unfold RSpline.splitAt
    rw [e1, bind_ok, e2, bind_ok]
    simp only []
    rw [RSpline.ofSplines_ok ea, bind_ok, RSpline.ofSplines_ok eb]
    rfl
  · unfold RSpline.splitAt
    rw [e3, bind_ok, e4, bind_ok]
    simp only []
    rw [RSpline.ofSplines_ok (by rw [ma.degrees, va.degrees]; exact ea), bind_ok, RSpline.ofSplines_ok (by rw [mb.degrees, vb.degrees]; exact eb)]
    rfl

/-- C120. Sums of rational splines, with equal and with different weights. -/
theorem C120_rational_add (d : ℕ) (cfg : Cfg) (hmax : cfg.maxBinom ≤ 68) (a a' b b' : RSpline K V) (hd : d < a.num.degrees.length)
    (ha : RMirrored d a a') (hb : RMirrored d b b') (hf : RFits cfg a.num.degrees b.num.degrees) :
    ∃ r r', a.addOp cfg b = .ok r ∧ a'.addOp cfg b' = .ok r' ∧ RMirrored d r r' := by
  have hda : d < a.wt.degrees.length := by rw [← ha.same]; exact hd
  have hdb : d < b.num.degrees.length := by have := hf.dims; omega
  have hdb' : d < b.wt.degrees.length := by rw [← hb.same]; exact hdb
  have heq := C120_equal d a.wt a'.wt b.wt b'.wt hda hdb' ha.wt hb.wt
  have hl := hf.dims
  have ca := ha.num.wf.computes (K := K)
  have cb := hb.num.wf.computes (K := K)
  have va := ha.wt.wf.computes (K := K)
  have vb := hb.wt.wf.computes (K := K)
  rw [← ha.same] at va
  rw [← hb.same] at vb
  unfold RSpline.addOp
  rw [heq]
  cases he : a.wt.eqOp b.wt with
  | true =>
    have hw := (eqOp_iff ha.wt.wf hb.wt.wf).mp he
    have hdd : b.num.degrees = a.num.degrees := by rw [hb.same, ha.same, hw]
    have hf' : Fits cfg a.num.degrees b.num.degrees := by
      rw [hdd] at hf ⊢
      exact fits_self (le_sumDegrees hf.dims _ hf.rounds) hf.rounds2 (lt_of_le_of_lt (size_le_sumDegrees hf.dims) hf.small)
    obtain ⟨n, h1, h2⟩ := C16_add cfg a.num b.num _ _ _ _ ca cb hf'
    obtain ⟨_, n', e1, e2, hm⟩ := C120_add (K := K) d cfg a.num a'.num b.num b'.num hd ha.num hb.num hf'
    cases h1.symm.trans e1
    have e3 : n.degrees = a.wt.degrees := by rw [h2.degrees_eq, hdd, maxDegrees_self, ha.same]
    refine ⟨⟨n, a.wt⟩, ⟨n', a'.wt⟩, ?_, ?_, ⟨e3, hm, ha.wt⟩⟩
    · simp only [if_true, e1, bind_ok]
      exact RSpline.ofSplines_ok e3
    · simp only [if_true, e2, bind_ok]
      exact RSpline.ofSplines_ok (by rw [hm.degrees, ha.wt.degrees, e3])
  | false =>
    obtain ⟨x, g1, c1⟩ := C21_mul_point_scalar cfg hmax a.num b.wt _ _ _ _ ca vb hf.dims hf.degs
    obtain ⟨y, g2, c2⟩ := C21_mul_scalar_point cfg hmax a.wt b.num _ _ _ _ va cb hf.dims hf.degs
    obtain ⟨w, g3, c3⟩ := C21_mul_scalar cfg hmax a.wt b.wt _ _ _ _ va vb hf.dims hf.degs
    have ms := ha.same
    have ns := hb.same
    obtain ⟨_, x', ex, ex', mx⟩ := C120_mul d cfg hmax (fun x (c : K) => c • x) (LinearMap.lsmul K V).flip (fun _ _ => rfl) a.num a'.num b.wt b'.wt
      hd ha.num hb.wt (by rw [← ns]; exact hl) (by rw [← ns]; exact hf.degs)
    obtain ⟨_, y', ey, ey', my⟩ := C120_mul d cfg hmax (fun (c : K) x => c • x) (LinearMap.lsmul K V) (fun _ _ => rfl) a.wt a'.wt b.num b'.num
      hda ha.wt hb.num (by rw [← ms]; exact hl) (by rw [← ms]; exact hf.degs)
    obtain ⟨_, w', ew, ew', mw⟩ := C120_mul d cfg hmax (fun a b : K => a * b) (LinearMap.mul K K) (fun _ _ => rfl) a.wt a'.wt b.wt b'.wt
      hda ha.wt hb.wt (by rw [← ms, ← ns]; exact hl) (by rw [← ms, ← ns]; exact hf.degs)
    cases g1.symm.trans ex
    cases g2.symm.trans ey
    cases g3.symm.trans ew
    have hF : Fits cfg x.degrees y.degrees := by
      rw [c1.degrees_eq, c2.degrees_eq]
      exact fits_self hf.rounds hf.rounds2 hf.small
    have hdx : d < x.degrees.length := by
      rw [c1.degrees_eq]
      simp [sumDegrees]
      omega
    obtain ⟨n, h1, h2⟩ := C16_add cfg x y _ _ _ _ c1 c2 (fits_self hf.rounds hf.rounds2 hf.small)
    obtain ⟨_, n', e1, e2, hm⟩ := C120_add (K := K) d cfg x x' y y' hdx mx my hF
    cases h1.symm.trans e1
    have e3 : n.degrees = w.degrees := by rw [h2.degrees_eq, maxDegrees_self, c3.degrees_eq]
    refine ⟨⟨n, w⟩, ⟨n', w'⟩, ?_, ?_, ⟨e3, hm, mw⟩⟩
    · unfold RSpline.mulWeight' RSpline.mulWeight Spline.mulScalar
      simp only [Bool.false_eq_true, if_false, ex, ey, ew, e1, bind_ok]
      exact RSpline.ofSplines_ok e3
    · unfold RSpline.mulWeight' RSpline.mulWeight Spline.mulScalar
      simp only [Bool.false_eq_true, if_false, ex', ey', ew', e2, bind_ok]
      exact RSpline.ofSplines_ok (by rw [hm.degrees, mw.degrees, e3])

/-- C120. Products of rational splines. -/
theorem C120_rational_mul {W U : Type} [AddCommGroup W] [Module K W] [AddCommGroup U] [Module K U] (d : ℕ) (cfg : Cfg)
    (hmax : cfg.maxBinom ≤ 68) (mul : V → W → U) (B : V →ₗ[K] W →ₗ[K] U) (hB : ∀ x y, mul x y = B x y) (a a' : RSpline K V) (b b' : RSpline K W)
    (hd : d < a.num.degrees.length) (ha : RMirrored d a a') (hb : RMirrored d b b') (hdim : b.num.degrees.length = a.num.degrees.length)
    (hdeg : ∀ p ∈ sumDegrees a.num.degrees b.num.degrees, p < cfg.maxBinom) :
    ∃ r r', RSpline.mulOp cfg mul a b = .ok r ∧ RSpline.mulOp cfg mul a' b' = .ok r' ∧ RMirrored d r r' := by
  have ms := ha.same
  have ns := hb.same
  obtain ⟨n, g1, c1⟩ := C21_mul cfg hmax mul B hB a.num b.num _ _ _ _ (ha.num.wf.computes (K := K)) (hb.num.wf.computes (K := K)) hdim hdeg
  obtain ⟨w, g2, c2⟩ := C21_mul cfg hmax (fun a b : K => a * b) (LinearMap.mul K K) (fun _ _ => rfl) a.wt b.wt _ _ _ _
    (ha.wt.wf.computes (K := K)) (hb.wt.wf.computes (K := K)) (by rw [← ms, ← ns]; exact hdim) (by rw [← ms, ← ns]; exact hdeg)
  obtain ⟨_, n', e1, e1', mn⟩ := C120_mul d cfg hmax mul B hB a.num a'.num b.num b'.num hd ha.num hb.num hdim hdeg
  obtain ⟨_, w', e2, e2', mw⟩ := C120_mul d cfg hmax (fun a b : K => a * b) (LinearMap.mul K K) (fun _ _ => rfl) a.wt a'.wt b.wt b'.wt
    (by rw [← ms]; exact hd) ha.wt hb.wt (by rw [← ms, ← ns]; exact hdim) (by rw [← ms, ← ns]; exact hdeg)
  cases g1.symm.trans e1
  cases g2.symm.trans e2
  have e3 : n.degrees = w.degrees := by rw [c1.degrees_eq, c2.degrees_eq, ms, ns]
  refine ⟨⟨n, w⟩, ⟨n', w'⟩, ?_, ?_, ⟨e3, mn, mw⟩⟩
  · unfold RSpline.mulOp Spline.mulScalar
    rw [e1, bind_ok, e2, bind_ok]
    exact RSpline.ofSplines_ok e3
  · unfold RSpline.mulOp Spline.mulScalar
    rw [e1', bind_ok, e2', bind_ok]
    exact RSpline.ofSplines_ok (by rw [mn.degrees, mw.degrees, e3])

end

/-! ## Examples -/

/-- a surface of degrees `(2, 1)` with any six control points, reversed along its first dimension -/
theorem exMirror {V : Type} (a b c d e f : V) : Mirrored 0 (Ex.surf a b c d e f) (Ex.surf c b a f e d) := by
  refine ⟨Ex.surf_wf .., Ex.surf_wf .., rfl, fun idx p hi hp => ?_⟩
  have hp' : p = 2 := by simpa [Ex.surf] using hp.symm
  subst hp'
  obtain ⟨i, l, h1, h2, rfl⟩ := List.forall₂_cons_right_iff.mp (show List.Forall₂ _ idx (2 :: [1]) from hi)
  obtain ⟨j, l, h3, h4, rfl⟩ := List.forall₂_cons_right_iff.mp h2
  obtain rfl := List.forall₂_nil_right_iff.mp h4
  have : i = 0 ∨ i = 1 ∨ i = 2 := by omega
  have : j = 0 ∨ j = 1 := by omega
  rcases ‹i = 0 ∨ _› with rfl | rfl | rfl <;> rcases ‹j = 0 ∨ _› with rfl | rfl <;> rfl

/-- the same surface with its dimensions exchanged, of degrees `(1, 2)` -/
theorem exExchange {V : Type} (a b c d e f : V) : Exchanged 0 (Ex.surf a b c d e f) (Ex.surf' a d b e c f) := by
  refine ⟨Ex.surf_wf .., Ex.surf'_wf .., by show 0 + 1 < 2; decide, rfl, fun idx hi => ?_⟩
  obtain ⟨i, l, h1, h2, rfl⟩ := List.forall₂_cons_right_iff.mp (show List.Forall₂ _ idx (2 :: [1]) from hi)
  obtain ⟨j, l, h3, h4, rfl⟩ := List.forall₂_cons_right_iff.mp h2
  obtain rfl := List.forall₂_nil_right_iff.mp h4
  have : i = 0 ∨ i = 1 ∨ i = 2 := by omega
  have : j = 0 ∨ j = 1 := by omega
  rcases ‹i = 0 ∨ _› with rfl | rfl | rfl <;> rcases ‹j = 0 ∨ _› with rfl | rfl <;> rfl

/-- a rational surface with weights that differ from point to point, reversed along its first dimension -/
theorem exRMirror : RMirrored 0 (⟨Ex.surf 0 1 4 5 7 9, Ex.surf 1 2 3 4 5 6⟩ : RSpline ℚ ℚ) ⟨Ex.surf 4 1 0 9 7 5, Ex.surf 3 2 1 6 5 4⟩ :=
  ⟨rfl, exMirror .., exMirror ..⟩

/-- another one, with different weights -/
theorem exRMirror' : RMirrored 0 (⟨Ex.surf 2 1 4 5 7 9, Ex.surf 1 1 3 4 5 6⟩ : RSpline ℚ ℚ) ⟨Ex.surf 4 1 2 9 7 5, Ex.surf 3 1 1 6 5 4⟩ :=
  ⟨rfl, exMirror .., exMirror ..⟩

example : SameResult ((Ex.surf (4 : ℚ) 1 0 9 7 5).evaluate [(1 / 3 : ℚ), 1 / 4]) ((Ex.surf (0 : ℚ) 1 4 5 7 9).evaluate (flipAt 0 [(1 / 3 : ℚ), 1 / 4])) :=
  C120_evaluate 0 _ _ (by decide) (exMirror ..) _ rfl

example : ∃ r r', Spline.orderElevate ℚ (Ex.surf (0 : ℚ) 1 4 5 7 9) 1 = .ok r ∧ Spline.orderElevate ℚ (Ex.surf (4 : ℚ) 1 0 9 7 5) 1 = .ok r' ∧
    Mirrored 0 r r' :=
  C120_elevate 0 _ _ (by decide) (exMirror ..) 1 1 rfl (by decide)

example : ∃ a b a' b', (Ex.surf (0 : ℚ) 1 4 5 7 9).splitAt (1 / 3 : ℚ) 0 = .ok (a, b) ∧
    (Ex.surf (4 : ℚ) 1 0 9 7 5).splitAt (1 - 1 / 3 : ℚ) 0 = .ok (b', a') ∧ Mirrored 0 a a' ∧ Mirrored 0 b b' :=
  C120_split_reversed 0 _ _ (by decide) (exMirror ..) _ (by norm_num) (by norm_num)

example : ∃ a b a' b', (Ex.surf (0 : ℚ) 1 4 5 7 9).splitAt (1 / 3 : ℚ) 1 = .ok (a, b) ∧
    (Ex.surf (4 : ℚ) 1 0 9 7 5).splitAt (1 / 3 : ℚ) 1 = .ok (a', b') ∧ Mirrored 0 a a' ∧ Mirrored 0 b b' :=
  C120_split_other 0 1 (by decide) _ _ (by decide) (by decide) (exMirror ..) _ (by norm_num) (by norm_num)

example : ∃ r r', Spline.addOp ℚ Ex.cfg (Ex.surf (0 : ℚ) 1 4 5 7 9) (Ex.surf (2 : ℚ) 1 4 3 7 9) = .ok r ∧
    Spline.addOp ℚ Ex.cfg (Ex.surf (4 : ℚ) 1 0 9 7 5) (Ex.surf (4 : ℚ) 1 2 9 7 3) = .ok r' ∧ Mirrored 0 r r' :=
  C120_add 0 Ex.cfg _ _ _ _ (by decide) (exMirror ..) (exMirror ..) ⟨rfl, by decide, by decide, by decide⟩

example : ∃ x, (Ex.surf (0 : ℝ) 1 4 5 7 9).evaluateDerivative Ex.cfg (flipAt 0 [(1 / 3 : ℝ), 1 / 4]) [1, 1] = .ok x ∧
    (Ex.surf (4 : ℝ) 1 0 9 7 5).evaluateDerivative Ex.cfg [(1 / 3 : ℝ), 1 / 4] [1, 1] = .ok ((-1 : ℝ) ^ ([1, 1].getD 0 0) • x) :=
  C120_evaluate_derivative 0 Ex.cfg Ex.cfg_ok _ _ (by show 0 < 2; decide) (exMirror ..) (by show ∀ p ∈ [2, 1], p < 30; decide) [1, 1] rfl _ rfl

example : SameResult ((Ex.surf' (0 : ℚ) 5 1 7 4 9).evaluate (swapAt 0 [(1 / 3 : ℚ), 1 / 4])) ((Ex.surf (0 : ℚ) 1 4 5 7 9).evaluate [(1 / 3 : ℚ), 1 / 4]) :=
  C120_exchange_evaluate 0 _ _ (exExchange ..) _ rfl

example : ∃ a b a' b', (Ex.surf (0 : ℚ) 1 4 5 7 9).splitAt (1 / 3 : ℚ) 0 = .ok (a, b) ∧
    (Ex.surf' (0 : ℚ) 5 1 7 4 9).splitAt (1 / 3 : ℚ) 1 = .ok (a', b') ∧ Exchanged 0 a a' ∧ Exchanged 0 b b' :=
  C120_exchange_split 0 _ _ (exExchange ..) 0 (by decide) _ (by norm_num) (by norm_num)

example : ∃ r r', Spline.mulOp ℚ Ex.cfg (fun x y => x * y) (Ex.surf (0 : ℚ) 1 4 5 7 9) (Ex.surf (2 : ℚ) 1 4 3 7 9) = .ok r ∧
    Spline.mulOp ℚ Ex.cfg (fun x y => x * y) (Ex.surf' (0 : ℚ) 5 1 7 4 9) (Ex.surf' (2 : ℚ) 3 1 7 4 9) = .ok r' ∧ Exchanged 0 r r' :=
  C120_exchange_mul 0 Ex.cfg Ex.cfg_ok _ (LinearMap.mul ℚ ℚ) (fun _ _ => rfl) _ _ _ _ (exExchange ..) (exExchange ..) rfl (by decide)

example : ∃ r r', (Ex.surf (0 : ℝ) 1 4 5 7 9).derivativeSpline ℝ Ex.cfg [2, 1] = .ok r ∧
    (Ex.surf' (0 : ℝ) 5 1 7 4 9).derivativeSpline ℝ Ex.cfg (swapAt 0 [2, 1]) = .ok r' ∧ Exchanged 0 r r' :=
  C120_exchange_derivative_spline 0 Ex.cfg Ex.cfg_ok _ _ (exExchange ..) [2, 1] rfl
    (by
      intro e o p h1 h2
      have h2' : ([2, 1] : List ℕ)[e]? = some p := h2
      rw [h1] at h2'
      cases h2'
      exact le_rfl) (by decide) (by show 6 < 2 ^ 64; decide)

/-- composition: a curve of degree 2 with a surface inside the unit interval, both orientations -/
example : ∃ r r', (Ex.curve (0 : ℚ) 3 1).compose ℚ Ex.cfg (Ex.surf (0 : ℚ) 1 (1 / 2) 0 (1 / 3) 1) = .ok r ∧
    (Ex.curve (0 : ℚ) 3 1).compose ℚ Ex.cfg (Ex.surf (1 / 2 : ℚ) 1 0 1 (1 / 3) 0) = .ok r' ∧ Mirrored 0 r r' :=
  C120_compose_inner (K := ℚ) 0 Ex.cfg Ex.cfg_ok _ _ _ (Ex.curve_wf ..) (by decide) (exMirror ..) rfl (by decide +kernel) (by decide) (by decide)

example : ∃ r r', (Ex.curve (0 : ℚ) 3 1).compose ℚ Ex.cfg (Ex.surf (0 : ℚ) 1 (1 / 2) 0 (1 / 3) 1) = .ok r ∧
    (Ex.curve (0 : ℚ) 3 1).compose ℚ Ex.cfg (Ex.surf' (0 : ℚ) 0 1 (1 / 3) (1 / 2) 1) = .ok r' ∧ Exchanged 0 r r' :=
  C120_exchange_compose_inner (K := ℚ) 0 Ex.cfg Ex.cfg_ok _ _ _ (Ex.curve_wf ..) (exExchange ..) rfl (by decide +kernel) (by decide) (by decide)

/-- a reversed outer curve composed with the mirrored inner curve -/
example : SameResult ((Ex.curve (1 : ℚ) 3 0).compose ℚ Ex.cfg (Ex.line (1 : ℚ) (1 / 2))) ((Ex.curve (0 : ℚ) 3 1).compose ℚ Ex.cfg (Ex.line (0 : ℚ) (1 / 2))) := by
  have hm : Mirrored 0 (Ex.curve (0 : ℚ) 3 1) (Ex.curve (1 : ℚ) 3 0) := by
    refine ⟨Ex.curve_wf .., Ex.curve_wf .., rfl, fun idx p hi hp => ?_⟩
    have hp' : p = 2 := by simpa [Ex.curve] using hp.symm
    subst hp'
    obtain ⟨i, l, h1, h2, rfl⟩ := List.forall₂_cons_right_iff.mp (show List.Forall₂ _ idx (2 :: []) from hi)
    obtain rfl := List.forall₂_nil_right_iff.mp h2
    have : i = 0 ∨ i = 1 ∨ i = 2 := by omega
    rcases this with rfl | rfl | rfl <;> rfl
  refine C120_compose_outer (K := ℚ) 0 Ex.cfg Ex.cfg_ok _ _ _ _ [1] _ _ (by decide) hm (Ex.line_wf ..).computes (Ex.line_wf ..).computes ?_ rfl
    (by decide +kernel) (by decide +kernel) (by decide) (by decide)
  intro t j ht
  obtain ⟨x, rfl⟩ := List.length_eq_one_iff.mp ht
  have hj : (j : ℕ) = 0 := by
    have := j.2
    have e : Coords.n ℚ ℚ = 1 := rfl
    omega
  rw [if_pos hj]
  show (Ex.line (1 : ℚ) (1 / 2)).value [x] = 1 - (Ex.line (0 : ℚ) (1 / 2)).value [x]
  simp [Spline.value, Ex.line, bezier, bern, Finset.sum_range_succ, flatIndex]
  ring

example : ∃ a b a' b', (⟨Ex.surf 0 1 4 5 7 9, Ex.surf 1 2 3 4 5 6⟩ : RSpline ℚ ℚ).splitAt (1 / 3) 0 = .ok (a, b) ∧
    (⟨Ex.surf 4 1 0 9 7 5, Ex.surf 3 2 1 6 5 4⟩ : RSpline ℚ ℚ).splitAt (1 - 1 / 3) 0 = .ok (b', a') ∧ RMirrored 0 a a' ∧ RMirrored 0 b b' :=
  C120_rational_split_reversed 0 _ _ (by decide) exRMirror _ (by norm_num) (by norm_num)

/-- a sum of rational surfaces with different weights -/
example : ∃ r r', (⟨Ex.surf 0 1 4 5 7 9, Ex.surf 1 2 3 4 5 6⟩ : RSpline ℚ ℚ).addOp Ex.cfg ⟨Ex.surf 2 1 4 5 7 9, Ex.surf 1 1 3 4 5 6⟩ = .ok r ∧
    (⟨Ex.surf 4 1 0 9 7 5, Ex.surf 3 2 1 6 5 4⟩ : RSpline ℚ ℚ).addOp Ex.cfg ⟨Ex.surf 4 1 2 9 7 5, Ex.surf 3 1 1 6 5 4⟩ = .ok r' ∧ RMirrored 0 r r' :=
  C120_rational_add 0 Ex.cfg Ex.cfg_ok _ _ _ _ (by decide) exRMirror exRMirror' ⟨rfl, by decide, by decide, by decide, by decide⟩

end Bezman.Props
