import Verif.Props.HullArith
import Verif.Props.RConverge

/-! # Properties: convex sets and the control points of sums and products of rational splines -/

namespace Bezman.Props
open Spec Finset
variable {K V : Type} [Field K] [LinearOrder K] [IsStrictOrderedRing K] [AddCommGroup V] [Module K V]

/-- the homogeneous points with positive weights that stand for points of `C` -/
def over (K : Type) {V : Type} [Field K] [LinearOrder K] [AddCommGroup V] [Module K V] (C : Set V) : Set (V × K) := {p | 0 < p.2 ∧ p.2⁻¹ • p.1 ∈ C}

theorem over_convex {C : Set V} (hC : Convex K C) : Convex K (over K C) := by
  rintro ⟨X, W⟩ ⟨h1, h2⟩ ⟨Y, w⟩ ⟨h3, h4⟩ a b ha hb hab
  simp only at h1 h2 h3 h4
  have hp : 0 < a * W + b * w := by
    rcases ha.eq_or_lt with rfl | ha'
    · rw [zero_add] at hab
      subst hab
      simpa using h3
    · exact add_pos_of_pos_of_nonneg (mul_pos ha' h1) (mul_nonneg hb h3.le)
  refine ⟨hp, ?_⟩
  show (a * W + b * w)⁻¹ • (a • X + b • Y) ∈ C
  have e : (a * W + b * w)⁻¹ • (a • X + b • Y) = ((a * W + b * w)⁻¹ * (a * W)) • (W⁻¹ • X) + ((a * W + b * w)⁻¹ * (b * w)) • (w⁻¹ • Y) := by
    rw [smul_add, smul_smul, smul_smul, smul_smul, smul_smul]
    congr 2
    · field_simp
    · field_simp
  rw [e]
  refine hC h2 h4 (mul_nonneg (inv_nonneg.mpr hp.le) (mul_nonneg ha h1.le)) (mul_nonneg (inv_nonneg.mpr hp.le) (mul_nonneg hb h3.le)) ?_
  rw [← mul_add, inv_mul_cancel₀ hp.ne']

section
variable [ScalarDiv K V] [LawfulScalarDiv K V]

theorem rinside_hom {H : Spline (V × K)} (hH : H.WF) {C : Set V} : RInside (RSpline.ofHom H) H.degrees C ↔ ∀ p ∈ H.cps, p ∈ over K C := by
  constructor
  · rintro ⟨h1, h2⟩ p hp
    have h3 : 0 < p.2 := h1 _ (List.mem_map_of_mem hp)
    obtain ⟨idx, hv, e⟩ := hH.index_of_mem hp
    obtain ⟨x, e', hx⟩ := h2 idx hv
    obtain ⟨q, eq, _, rfl⟩ := hom_controlPoint e'
    obtain rfl := Except.ok.inj (e.symm.trans eq)
    exact ⟨h3, hx⟩
  · intro h
    refine ⟨fun x hx => ?_, fun idx hv => ?_⟩
    · obtain ⟨p, hp, rfl⟩ := List.mem_map.mp hx
      exact (h p hp).1
    · have e := hasPoints_cp hH idx hv
      have hp := h _ (mem_of_controlPoint e)
      refine ⟨_, ?_, hp.2⟩
      simp only [RSpline.controlPoint, RSpline.ofHom, controlPoint_map, e, Except.map, bind_ok]
      rw [RSpline.divM_ok _ hp.1.ne']

end

section mul
variable {W U : Type} [ScalarDiv K V] [LawfulScalarDiv K V] [AddCommGroup W] [Module K W] [ScalarDiv K W] [LawfulScalarDiv K W]
  [AddCommGroup U] [Module K U] [ScalarDiv K U] [LawfulScalarDiv K U]

/-- the product of homogeneous points -/
def homMul (B : V →ₗ[K] W →ₗ[K] U) : (V × K) →ₗ[K] (W × K) →ₗ[K] (U × K) :=
  LinearMap.mk₂ K (fun p q => (B p.1 q.1, p.2 * q.2)) (fun p p' q => by simp [add_mul]) (fun c p q => by simp [mul_assoc])
    (fun p q q' => by simp [mul_add]) (fun c p q => by simp [mul_left_comm])

/-- C73. The product of rational splines with positive weights has positive weights, and its control points lie in every convex set that contains
the products of the points of `C` and `C'`, if these contain the control points of the factors. -/
theorem C73_rational_mul (cfg : Cfg) (hmax : cfg.maxBinom ≤ 68) (mul : V → W → U) (B : V →ₗ[K] W →ₗ[K] U) (hB : ∀ x y, mul x y = B x y)
    (a : RSpline K V) (b : RSpline K W) (da db : List ℕ) (f : List K → V) (g : List K → W) (wa wb : List K → K) (ha : a.Computes da f wa)
    (hb : b.Computes db g wb) (hdim : db.length = da.length) (hdeg : ∀ p ∈ sumDegrees da db, p < cfg.maxBinom) (C : Set V) (C' : Set W)
    (E : Set U) (hE : Convex K E) (hc : RInside a da C) (hc' : RInside b db C') (h : ∀ x ∈ C, ∀ y ∈ C', mul x y ∈ E) :
    ∃ r, RSpline.mulOp cfg mul a b = .ok r ∧ RInside r (sumDegrees da db) E := by
  obtain ⟨H, rfl, hH, rfl⟩ := exists_hom ha
  obtain ⟨G, rfl, hG, rfl⟩ := exists_hom hb
  have e := (C85_operations cfg H).2.2.2.2.2 W U mul G
  obtain ⟨r, er, cr⟩ := C21_mul cfg hmax (fun (x : V × K) (y : W × K) => (mul x.1 y.1, x.2 * y.2)) (homMul B)
    (fun x y => by simp [homMul, hB]) H G _ _ _ _ (hH.computes (K := K)) (hG.computes (K := K)) hdim hdeg
  rw [er] at e
  refine ⟨_, e, ?_⟩
  have := (rinside_hom cr.wf (C := E)).mpr (product_hull (hH.computes (K := K)) hG.computes hdim (homMul B)
    (cr.congr fun t _ => by simp [homMul, hB]) (over_convex hE) ((rinside_hom hH).mp hc) ((rinside_hom hG).mp hc') ?_)
  · rwa [cr.degrees_eq] at this
  · rintro ⟨X, w⟩ ⟨h1, h2⟩ ⟨Y, v⟩ ⟨h3, h4⟩
    refine ⟨mul_pos h1 h3, ?_⟩
    have := h _ h2 _ h4
    rw [hB] at this
    simp only [map_smul, LinearMap.smul_apply, smul_smul] at this
    show (w * v)⁻¹ • B X Y ∈ E
    rwa [mul_inv, mul_comm]

end mul

section add
variable [ScalarDiv K V] [LawfulScalarDiv K V]

/-- sums and differences of homogeneous points -/
def homSum (s : K) : (V × K) →ₗ[K] (V × K) →ₗ[K] (V × K) :=
  LinearMap.mk₂ K (fun p q => (q.2 • p.1 + s • p.2 • q.1, p.2 * q.2))
    (fun p p' q => by simp [add_mul, add_smul, smul_add]; abel) (fun c p q => by simp [mul_assoc, smul_smul, mul_comm, mul_left_comm])
    (fun p q q' => by simp [mul_add, add_smul, smul_add]; abel)
    (fun c p q => by simp [mul_left_comm, smul_smul, mul_assoc, mul_comm p.2 c])

/-- equal weights -/
theorem shared_hull {a b : RSpline K V} {da : List ℕ} {f g : List K → V} {wa wb : List K → K} (ha : a.Computes da f wa)
    (hb : b.Computes da g wb) (e : a.wt = b.wt) {n : Spline V} (s : K)
    (hn : n.Computes (maxDegrees da da) (fun t : List K => a.num.value t + s • b.num.value t)) {C C' E : Set V} (hc : RInside a da C)
    (hc' : RInside b da C') (h : ∀ x ∈ C, ∀ y ∈ C', x + s • y ∈ E) : RInside (⟨n, a.wt⟩ : RSpline K V) da E := by
  have hm : maxDegrees da da = da := Spline.maxDeg_self da
  rw [hm] at hn
  obtain ⟨H, rfl, hH, hHd⟩ := exists_hom ha
  obtain ⟨G, rfl, hG, hGd⟩ := exists_hom hb
  obtain ⟨Z, rfl, rfl, hZ⟩ := exists_pair hH hG (by rw [hHd, hGd])
  have hd : Z.degrees = da := hHd
  let φ : (V × K) × (V × K) →ₗ[K] V := LinearMap.fst K V K ∘ₗ LinearMap.fst K (V × K) (V × K) + s • (LinearMap.fst K V K ∘ₗ LinearMap.snd K (V × K) (V × K))
  have cφ := (hZ.computes (K := K)).affine φ.toAffineMap
  have c1 := (hZ.computes (K := K)).affine (LinearMap.fst K V K ∘ₗ LinearMap.fst K (V × K) (V × K)).toAffineMap
  have c2 := (hZ.computes (K := K)).affine (LinearMap.fst K V K ∘ₗ LinearMap.snd K (V × K) (V × K)).toAffineMap
  rw [hd] at cφ c1 c2
  have en : n = Z.map φ.toAffineMap := by
    refine hn.unique (cφ.congr fun t ht => ?_)
    have e1 := c1.value_eq ht
    have e2 := c2.value_eq ht
    have m1 : (RSpline.ofHom (Z.map Prod.fst)).num = Z.map (LinearMap.fst K V K ∘ₗ LinearMap.fst K (V × K) (V × K)).toAffineMap := by
      simp only [RSpline.ofHom, Spline.map, List.map_map]; rfl
    have m2 : (RSpline.ofHom (Z.map Prod.snd)).num = Z.map (LinearMap.fst K V K ∘ₗ LinearMap.snd K (V × K) (V × K)).toAffineMap := by
      simp only [RSpline.ofHom, Spline.map, List.map_map]; rfl
    rw [m1, m2, e1, e2]
    rfl
  have er : (⟨n, (RSpline.ofHom (Z.map Prod.fst)).wt⟩ : RSpline K V) = RSpline.ofHom (Z.map fun p => (φ p, p.1.2)) := by
    rw [en]
    simp only [RSpline.ofHom, Spline.map, List.map_map]
    rfl
  rw [er, ← hd]
  refine (rinside_hom (H := Z.map fun p => (φ p, p.1.2)) (Spline.wf_map hZ _)).mpr ?_
  intro q hq
  obtain ⟨p, hp, rfl⟩ := List.mem_map.mp hq
  rw [← hHd] at hc
  rw [← hGd] at hc'
  have h1 := (rinside_hom hH).mp hc p.1 (List.mem_map_of_mem hp)
  have h2 := (rinside_hom hG).mp hc' p.2 (List.mem_map_of_mem hp)
  have hw : p.1.2 = p.2.2 := by
    have := congrArg Spline.cps e
    simp only [RSpline.ofHom, Spline.map, List.map_map] at this
    exact List.map_inj_left.mp this p hp
  refine ⟨h1.1, ?_⟩
  have := h _ h1.2 _ h2.2
  rw [← hw, smul_comm, ← smul_add] at this
  exact this

/-- different weights -/
theorem cross_hull {a b : RSpline K V} {da db : List ℕ} {f g : List K → V} {wa wb : List K → K} (ha : a.Computes da f wa)
    (hb : b.Computes db g wb) (hl : db.length = da.length) {n : Spline V} {w : Spline K} (s : K)
    (hn : n.Computes (maxDegrees (sumDegrees da db) (sumDegrees da db)) (fun t => wb t • a.num.value t + s • wa t • b.num.value t))
    (hw : w.Computes (sumDegrees da db) (fun t => wa t * wb t)) {C C' E : Set V} (hE : Convex K E) (hc : RInside a da C)
    (hc' : RInside b db C') (h : ∀ x ∈ C, ∀ y ∈ C', x + s • y ∈ E) : RInside (⟨n, w⟩ : RSpline K V) (sumDegrees da db) E := by
  have hm : maxDegrees (sumDegrees da db) (sumDegrees da db) = sumDegrees da db := Spline.maxDeg_self _
  rw [hm] at hn
  obtain ⟨H, rfl, hH, rfl⟩ := exists_hom ha
  obtain ⟨G, rfl, hG, rfl⟩ := exists_hom hb
  obtain ⟨Z, rfl, rfl, hZ⟩ := exists_pair hn.wf hw.wf (by rw [hn.degrees_eq, hw.degrees_eq])
  have hd : Z.degrees = sumDegrees H.degrees G.degrees := hn.degrees_eq
  have hls : (sumDegrees H.degrees G.degrees).length = H.degrees.length := by simp [sumDegrees, hl]
  have cZ := hZ.computes (K := K)
  rw [hd] at cZ
  have c1 := cZ.affine (LinearMap.fst K V K).toAffineMap
  have c2 := cZ.affine (LinearMap.snd K V K).toAffineMap
  have cH1 := (hH.computes (K := K)).affine (LinearMap.fst K V K).toAffineMap
  have cH2 := (hH.computes (K := K)).affine (LinearMap.snd K V K).toAffineMap
  have cG1 := (hG.computes (K := K)).affine (LinearMap.fst K V K).toAffineMap
  have cG2 := (hG.computes (K := K)).affine (LinearMap.snd K V K).toAffineMap
  have key : Z.Computes (sumDegrees H.degrees G.degrees) (fun t : List K => homSum s (H.value t) (G.value t)) := by
    refine cZ.congr fun t ht => ?_
    have htH : t.length = H.degrees.length := ht.trans hls
    have htG : t.length = G.degrees.length := by rw [htH, hl]
    have e1 : (Z.value t).1 = _ := Except.ok.inj ((c1.eval t ht).symm.trans (hn.eval t ht))
    have e2 : (Z.value t).2 = _ := Except.ok.inj ((c2.eval t ht).symm.trans (hw.eval t ht))
    have e3 : (RSpline.ofHom H).num.value t = (H.value t).1 := cH1.value_eq htH
    have e4 : (RSpline.ofHom G).num.value t = (G.value t).1 := cG1.value_eq htG
    have e5 : (H.value t).2 = wa t := Except.ok.inj ((cH2.eval t htH).symm.trans (ha.weight t htH))
    have e6 : (G.value t).2 = wb t := Except.ok.inj ((cG2.eval t htG).symm.trans (hb.weight t htG))
    refine Prod.ext ?_ ?_
    · rw [e1, e3, e4, ← e5, ← e6]; rfl
    · rw [e2, ← e5, ← e6]; rfl
  have := (rinside_hom hZ (C := E)).mpr (product_hull (hH.computes (K := K)) hG.computes hl (homSum s) key (over_convex hE)
    ((rinside_hom hH).mp hc) ((rinside_hom hG).mp hc') ?_)
  · rwa [hd] at this
  · rintro ⟨X, w⟩ ⟨h1, h2⟩ ⟨Y, v⟩ ⟨h3, h4⟩
    refine ⟨mul_pos h1 h3, ?_⟩
    have h5 := h _ h2 _ h4
    have h1' : w ≠ 0 := (show 0 < w from h1).ne'
    have h3' : v ≠ 0 := (show 0 < v from h3).ne'
    show (w * v)⁻¹ • (v • X + s • w • Y) ∈ E
    have e : (w * v)⁻¹ • (v • X + s • w • Y) = w⁻¹ • X + s • v⁻¹ • Y := by
      rw [smul_add, smul_smul, smul_smul, smul_smul, smul_smul]
      congr 2 <;> field_simp
    rw [e]
    exact h5

omit [LinearOrder K] [IsStrictOrderedRing K] [AddCommGroup V] [Module K V] [ScalarDiv K V] [LawfulScalarDiv K V] [Field K] in
theorem fits_equal {cfg : Cfg} {da : List ℕ} (h : RFits cfg da da) : Fits cfg da da :=
  fits_self (le_sumDegrees h.dims _ h.rounds) h.rounds2 (lt_of_le_of_lt (size_le_sumDegrees h.dims) h.small)

/-- C73. The sum of rational splines with positive weights has positive weights, and its control points lie in every convex set that
contains the sums of the points of `C` and `C'`. -/
theorem C73_rational_add (cfg : Cfg) (hmax : cfg.maxBinom ≤ 68) (a b : RSpline K V) (da db : List ℕ) (f g : List K → V) (wa wb : List K → K)
    (ha : a.Computes da f wa) (hb : b.Computes db g wb) (h : RFits cfg da db) (C C' E : Set V) (hE : Convex K E) (hc : RInside a da C)
    (hc' : RInside b db C') (hE' : ∀ x ∈ C, ∀ y ∈ C', x + y ∈ E) :
    ∃ r, RSpline.addOp cfg a b = .ok r ∧ RInside r r.num.degrees E := by
  unfold RSpline.addOp
  cases he : a.wt.eqOp b.wt with
  | true =>
    obtain ⟨rfl, e⟩ := eqWeights ha hb he
    obtain ⟨n, h1, h2⟩ := C16_add cfg a.num b.num _ _ _ _ ha.num_computes hb.num_computes (fits_equal h)
    have := shared_hull ha hb e 1 (h2.congr fun t _ => by rw [one_smul]) hc hc' (E := E) (fun x hx y hy => by rw [one_smul]; exact hE' x hx y hy)
    refine ⟨⟨n, a.wt⟩, ?_, by rw [h2.degrees_eq, maxDegrees_self]; exact this⟩
    simp only [if_true, h1, bind_ok]
    exact RSpline.ofSplines_ok (by rw [h2.degrees_eq, maxDegrees_self, ha.wt_degrees])
  | false =>
    obtain ⟨x, y, w, hx, hy, hw, hx', hy', hw'⟩ := crossNumerators cfg hmax ha hb h
    obtain ⟨n, h1, h2⟩ := C16_add cfg x y _ _ _ _ hx' hy' (fits_self h.rounds h.rounds2 h.small)
    have := cross_hull ha hb h.dims 1 (h2.congr fun t _ => by rw [one_smul]) hw' hE hc hc' (fun x hx y hy => by rw [one_smul]; exact hE' x hx y hy)
    refine ⟨⟨n, w⟩, ?_, by rw [h2.degrees_eq, maxDegrees_self]; exact this⟩
    simp only [Bool.false_eq_true, if_false, hx, hy, hw, h1, bind_ok]
    exact RSpline.ofSplines_ok (by rw [h2.degrees_eq, maxDegrees_self, hw'.degrees_eq])

/-- C73. `a += b`. -/
theorem C73_rational_add_assign (cfg : Cfg) (hmax : cfg.maxBinom ≤ 68) (a b : RSpline K V) (da db : List ℕ) (f g : List K → V) (wa wb : List K → K)
    (ha : a.Computes da f wa) (hb : b.Computes db g wb) (h : RFits cfg da db) (C C' E : Set V) (hE : Convex K E) (hc : RInside a da C)
    (hc' : RInside b db C') (hE' : ∀ x ∈ C, ∀ y ∈ C', x + y ∈ E) :
    ∃ r, RSpline.addAssign cfg a b = .ok r ∧ RInside r r.num.degrees E := by
  unfold RSpline.addAssign
  cases he : a.wt.eqOp b.wt with
  | true =>
    obtain ⟨rfl, e⟩ := eqWeights ha hb he
    obtain ⟨n, h1, h2⟩ := C17_add_assign cfg a.num b.num _ _ _ _ ha.num_computes hb.num_computes (fits_equal h)
    have := shared_hull ha hb e 1 (h2.congr fun t _ => by rw [one_smul]) hc hc' (E := E) (fun x hx y hy => by rw [one_smul]; exact hE' x hx y hy)
    refine ⟨⟨n, a.wt⟩, ?_, by rw [h2.degrees_eq, maxDegrees_self]; exact this⟩
    simp only [if_true, h1, bind_ok, pure_eq_ok]
  | false =>
    obtain ⟨x, y, w, hx, hy, hw, hx', hy', hw'⟩ := crossNumerators cfg hmax ha hb h
    obtain ⟨n, h1, h2⟩ := C17_add_assign cfg x y _ _ _ _ hx' hy' (fits_self h.rounds h.rounds2 h.small)
    have := cross_hull ha hb h.dims 1 (h2.congr fun t _ => by rw [one_smul]) hw' hE hc hc' (fun x hx y hy => by rw [one_smul]; exact hE' x hx y hy)
    refine ⟨⟨n, w⟩, ?_, by rw [h2.degrees_eq, maxDegrees_self]; exact this⟩
    simp only [Bool.false_eq_true, if_false, hx, hy, hw, h1, bind_ok]
    rw [RSpline.assert_compatible (by rw [h2.degrees_eq, maxDegrees_self, hw'.degrees_eq])]
    rfl

/-- C73. `a - b`. -/
theorem C73_rational_sub (cfg : Cfg) (hmax : cfg.maxBinom ≤ 68) (a b : RSpline K V) (da db : List ℕ) (f g : List K → V) (wa wb : List K → K)
    (ha : a.Computes da f wa) (hb : b.Computes db g wb) (h : RFits cfg da db) (C C' E : Set V) (hE : Convex K E) (hc : RInside a da C)
    (hc' : RInside b db C') (hE' : ∀ x ∈ C, ∀ y ∈ C', x - y ∈ E) :
    ∃ r, RSpline.subOp cfg a b = .ok r ∧ RInside r r.num.degrees E := by
  have hself : ∀ (l : List ℕ) (d p q : ℕ), l[d]? = some p → l[d]? = some q → q ≤ p := by
    intro l d p q h1 h2
    rw [h1] at h2
    injection h2 with h2
    exact h2.ge
  unfold RSpline.subOp
  cases he : a.wt.eqOp b.wt with
  | true =>
    obtain ⟨rfl, e⟩ := eqWeights ha hb he
    obtain ⟨n, h1, h2⟩ := C18_sub_partial cfg a.num b.num _ _ _ _ ha.num_computes hb.num_computes (fits_equal h) (hself _)
    have := shared_hull ha hb e (-1) (h2.congr fun t _ => by rw [neg_one_smul, sub_eq_add_neg]) hc hc' (E := E) (fun x hx y hy => by rw [neg_one_smul, ← sub_eq_add_neg]; exact hE' x hx y hy)
    refine ⟨⟨n, a.wt⟩, ?_, by rw [h2.degrees_eq, maxDegrees_self]; exact this⟩
    simp only [if_true, h1, bind_ok]
    exact RSpline.ofSplines_ok (by rw [h2.degrees_eq, maxDegrees_self, ha.wt_degrees])
  | false =>
    obtain ⟨x, y, w, hx, hy, hw, hx', hy', hw'⟩ := crossNumerators cfg hmax ha hb h
    obtain ⟨n, h1, h2⟩ := C18_sub_partial cfg x y _ _ _ _ hx' hy' (fits_self h.rounds h.rounds2 h.small) (hself _)
    have := cross_hull ha hb h.dims (-1) (h2.congr fun t _ => by rw [neg_one_smul, sub_eq_add_neg]) hw' hE hc hc' (fun x hx y hy => by rw [neg_one_smul, ← sub_eq_add_neg]; exact hE' x hx y hy)
    refine ⟨⟨n, w⟩, ?_, by rw [h2.degrees_eq, maxDegrees_self]; exact this⟩
    simp only [Bool.false_eq_true, if_false, hx, hy, hw, h1, bind_ok]
    exact RSpline.ofSplines_ok (by rw [h2.degrees_eq, maxDegrees_self, hw'.degrees_eq])

/-- C73. `a -= b`. -/
theorem C73_rational_sub_assign (cfg : Cfg) (hmax : cfg.maxBinom ≤ 68) (a b : RSpline K V) (da db : List ℕ) (f g : List K → V) (wa wb : List K → K)
    (ha : a.Computes da f wa) (hb : b.Computes db g wb) (h : RFits cfg da db) (C C' E : Set V) (hE : Convex K E) (hc : RInside a da C)
    (hc' : RInside b db C') (hE' : ∀ x ∈ C, ∀ y ∈ C', x - y ∈ E) :
    ∃ r, RSpline.subAssign cfg a b = .ok r ∧ RInside r r.num.degrees E := by
  unfold RSpline.subAssign
  cases he : a.wt.eqOp b.wt with
  | true =>
    obtain ⟨rfl, e⟩ := eqWeights ha hb he
    obtain ⟨n, h1, h2⟩ := C19_sub_assign cfg a.num b.num _ _ _ _ ha.num_computes hb.num_computes (fits_equal h)
    have := shared_hull ha hb e (-1) (h2.congr fun t _ => by rw [neg_one_smul, sub_eq_add_neg]) hc hc' (E := E) (fun x hx y hy => by rw [neg_one_smul, ← sub_eq_add_neg]; exact hE' x hx y hy)
    refine ⟨⟨n, a.wt⟩, ?_, by rw [h2.degrees_eq, maxDegrees_self]; exact this⟩
    simp only [if_true, h1, bind_ok, pure_eq_ok]
  | false =>
    obtain ⟨x, y, w, hx, hy, hw, hx', hy', hw'⟩ := crossNumerators cfg hmax ha hb h
    obtain ⟨n, h1, h2⟩ := C19_sub_assign cfg x y _ _ _ _ hx' hy' (fits_self h.rounds h.rounds2 h.small)
    have := cross_hull ha hb h.dims (-1) (h2.congr fun t _ => by rw [neg_one_smul, sub_eq_add_neg]) hw' hE hc hc' (fun x hx y hy => by rw [neg_one_smul, ← sub_eq_add_neg]; exact hE' x hx y hy)
    refine ⟨⟨n, w⟩, ?_, by rw [h2.degrees_eq, maxDegrees_self]; exact this⟩
    simp only [Bool.false_eq_true, if_false, hx, hy, hw, h1, bind_ok]
    rw [RSpline.assert_compatible (by rw [h2.degrees_eq, maxDegrees_self, hw'.degrees_eq])]
    rfl

end add

/-! ## Concrete cases -/

/-- a strip that contains the control points of `R` and `R'` -/
def strip (lo hi : ℚ) : Set (Point ℚ 2) := {x | (lo ≤ x.val 0 ∧ x.val 0 ≤ hi) ∧ lo ≤ x.val 1}

theorem strip_convex (lo hi : ℚ) : Convex ℚ (strip lo hi) := by
  intro x hx y hy a b ha hb hab
  simp only [strip, Set.mem_ofPred_eq] at hx hy ⊢
  have e : ∀ j : Fin 2, (a • x + b • y).val j = a * x.val j + b * y.val j := fun j => by
    rw [Point.val_add, Point.val_smul, Point.val_smul]
  rw [e, e]
  have h0 : ∀ c : ℚ, a * c + b * c = c := fun c => by rw [← add_mul, hab, one_mul]
  have h1 := mul_le_mul_of_nonneg_left hx.1.1 ha
  have h2 := mul_le_mul_of_nonneg_left hy.1.1 hb
  have h3 := mul_le_mul_of_nonneg_left hx.1.2 ha
  have h4 := mul_le_mul_of_nonneg_left hy.1.2 hb
  have h5 := mul_le_mul_of_nonneg_left hx.2 ha
  have h6 := mul_le_mul_of_nonneg_left hy.2 hb
  exact ⟨⟨by linarith [h0 lo], by linarith [h0 hi]⟩, by linarith [h0 lo]⟩

theorem R_strip : RInside R [2, 1] (strip 0 2) := by
  refine (rinside_iff R_computes).mpr ⟨R_pos, ?_⟩
  have : ∀ x ∈ R.euclid.cps, ((0 : ℚ) ≤ x.val 0 ∧ x.val 0 ≤ 2) ∧ 0 ≤ x.val 1 := by decide +kernel
  exact this
theorem R'_strip : RInside R' [1, 2] (strip 0 2) := by
  have h1 : ∀ x ∈ R'.wt.cps, (0 : ℚ) < x := by decide +kernel
  refine (rinside_iff R'_computes).mpr ⟨h1, ?_⟩
  have : ∀ x ∈ R'.euclid.cps, ((0 : ℚ) ≤ x.val 0 ∧ x.val 0 ≤ 2) ∧ 0 ≤ x.val 1 := by decide +kernel
  exact this

theorem strip_add (x : Point ℚ 2) (hx : x ∈ strip 0 2) (y : Point ℚ 2) (hy : y ∈ strip 0 2) : x + y ∈ strip 0 4 := by
  simp only [strip, Set.mem_ofPred_eq, Point.val_add] at *
  exact ⟨⟨by linarith [hx.1.1, hy.1.1], by linarith [hx.1.2, hy.1.2]⟩, by linarith [hx.2, hy.2]⟩
theorem strip_sub (x : Point ℚ 2) (hx : x ∈ strip 0 2) (y : Point ℚ 2) (hy : y ∈ strip 0 2) : x - y ∈ {z : Point ℚ 2 | |z.val 0| ≤ 2} := by
  simp only [strip, Set.mem_ofPred_eq] at *
  have : (x - y).val 0 = x.val 0 - y.val 0 := by rw [sub_eq_add_neg, Point.val_add, Point.val_neg, sub_eq_add_neg]
  rw [this, abs_le]
  constructor <;> linarith [hx.1.1, hy.1.1, hx.1.2, hy.1.2]
theorem band_convex : Convex ℚ {z : Point ℚ 2 | |z.val 0| ≤ 2} := by
  intro x hx y hy a b ha hb hab
  simp only [Set.mem_ofPred_eq, abs_le] at hx hy ⊢
  rw [Point.val_add, Point.val_smul, Point.val_smul]
  have h0 : ∀ c : ℚ, a * c + b * c = c := fun c => by rw [← add_mul, hab, one_mul]
  have h1 := mul_le_mul_of_nonneg_left hx.1 ha
  have h2 := mul_le_mul_of_nonneg_left hy.1 hb
  have h3 := mul_le_mul_of_nonneg_left hx.2 ha
  have h4 := mul_le_mul_of_nonneg_left hy.2 hb
  exact ⟨by linarith [h0 (-2)], by linarith [h0 2]⟩

example := C73_rational_add Ex.cfg Ex.cfg_ok R R' _ _ _ _ _ _ R_computes R'_computes rfits_RR' _ _ _ (strip_convex 0 4) R_strip R'_strip strip_add
example := C73_rational_add_assign Ex.cfg Ex.cfg_ok R R' _ _ _ _ _ _ R_computes R'_computes rfits_RR' _ _ _ (strip_convex 0 4) R_strip R'_strip strip_add
example := C73_rational_sub Ex.cfg Ex.cfg_ok R R' _ _ _ _ _ _ R_computes R'_computes rfits_RR' _ _ _ band_convex R_strip R'_strip strip_sub
example := C73_rational_sub_assign Ex.cfg Ex.cfg_ok R R' _ _ _ _ _ _ R_computes R'_computes rfits_RR' _ _ _ band_convex R_strip R'_strip strip_sub
example := C73_rational_mul Ex.cfg Ex.cfg_ok Point.dot (Point.dotB ℚ 2) (fun _ _ => rfl) R R' _ _ _ _ _ _ R_computes R'_computes rfl (by decide) _ _ _
  (convex_Ici (0 : ℚ)) R_strip R'_strip (by
    intro x hx y hy
    simp only [strip, Set.mem_ofPred_eq] at hx hy
    rw [Set.mem_Ici, Point.dot_eq, Fin.sum_univ_two]
    exact add_nonneg (mul_nonneg hx.1.1 hy.1.1) (mul_nonneg hx.2 hy.2))

end Bezman.Props
