import Verif.Proofs.Ring
import Verif.Spec.Microstructure

/-! # Proofs: values of the segments of the ring -/

namespace Bezman.Microstructure
open Spec Finset

theorem point_ext {K : Type} {a b : Point K 2} (h0 : a.val 0 = b.val 0) (h1 : a.val 1 = b.val 1) : a = b := by
  cases a with | mk a =>
  cases b with | mk b =>
  congr 1
  funext j
  match j with
  | ⟨0, _⟩ => exact h0
  | ⟨1, _⟩ => exact h1

@[simp] theorem pt_val0 {K : Type} (x y : K) : (pt x y).val 0 = x := rfl
@[simp] theorem pt_val1 {K : Type} (x y : K) : (pt x y).val 1 = y := rfl
theorem add_val {K : Type} [Add K] (a b : Point K 2) (j : Fin 2) : (a + b).val j = a.val j + b.val j := rfl
theorem smul_val {K : Type} [Mul K] (c : K) (a : Point K 2) (j : Fin 2) : (c • a).val j = a.val j * c := rfl
theorem zero_val {K : Type} [Zero K] (j : Fin 2) : (0 : Point K 2).val j = 0 := rfl

theorem bezier21 {V : Type} [AddCommGroup V] [Module ℝ V] (x y : ℝ) (P : List ℕ → V) :
    bezier [2, 1] [x, y] P = (1 - x) ^ 2 • ((1 - y) • P [0, 0] + y • P [0, 1]) +
      (2 * x * (1 - x)) • ((1 - y) • P [1, 0] + y • P [1, 1]) + x ^ 2 • ((1 - y) • P [2, 0] + y • P [2, 1]) := by
  simp [bezier, Finset.sum_range_succ, bern]

theorem flat21 {α : Type} {l : List α} {a : α} (hl : l.length = 6) (idx : List ℕ) (h : ValidIdx [2, 1] idx) :
    l[flatIndex [2, 1] idx]? = some (l.getD (flatIndex [2, 1] idx) a) := by
  have hlt : flatIndex [2, 1] idx < l.length := by
    rw [hl]
    have := flatIndex_lt h
    simpa [size] using this
  rw [List.getD_eq_getElem?_getD, List.getElem?_eq_getElem hlt]
  rfl

/-- one segment: control points at the angles `m - h`, `m`, `m + h` -/
theorem segment_value {m h ro ri : ℝ} (hh : |h| < Real.pi) (hc : Real.cos h ≠ 0) {a b : ℝ} (ha : a = m - h) (hb : b = m + h)
    {c f : ℝ} (hcc : c = Real.cos h) (hf : f = 1 / c) :
    ∃ r f' w, RSpline.ofPoints [2, 1] [pt (Real.cos a * ro) (Real.sin a * ro), pt (Real.cos m * f * ro) (Real.sin m * f * ro),
        pt (Real.cos b * ro) (Real.sin b * ro), pt (Real.cos a * ri) (Real.sin a * ri), pt (Real.cos m * f * ri) (Real.sin m * f * ri),
        pt (Real.cos b * ri) (Real.sin b * ri)] [1, c, 1, 1, c, 1] = .ok r ∧ r.Computes [2, 1] f' w ∧
      ∀ x y : ℝ, 0 < w [x, y] ∧ f' [x, y] = polar ((1 - y) * ro + y * ri) (m + psi h x) := by
  subst hcc hf ha hb
  obtain ⟨r, h1, h2, -⟩ := Props.C35_construct (K := ℝ) (V := Point ℝ 2) [2, 1] (by decide) _ [1, Real.cos h, 1, 1, Real.cos h, 1] rfl rfl
    (fun idx => List.getD _ (flatIndex [2, 1] idx) 0) (fun idx => List.getD _ (flatIndex [2, 1] idx) 0)
    (flat21 (l := [pt (Real.cos (m - h) * ro) (Real.sin (m - h) * ro), pt (Real.cos m * (1 / Real.cos h) * ro) (Real.sin m * (1 / Real.cos h) * ro),
        pt (Real.cos (m + h) * ro) (Real.sin (m + h) * ro), pt (Real.cos (m - h) * ri) (Real.sin (m - h) * ri), pt (Real.cos m * (1 / Real.cos h) * ri) (Real.sin m * (1 / Real.cos h) * ri),
        pt (Real.cos (m + h) * ri) (Real.sin (m + h) * ri)]) rfl) (flat21 rfl)
  refine ⟨r, _, _, h1, h2, ?_⟩
  intro x y
  have hw := weight_pos hh x
  obtain ⟨p1, p2⟩ := psi_cos hh x
  have ew : bezier [2, 1] [x, y] (fun idx => List.getD [1, Real.cos h, 1, 1, Real.cos h, 1] (flatIndex [2, 1] idx) 0)
      = (1 - x) ^ 2 + x ^ 2 + Real.cos h * (2 * x * (1 - x)) := by
    rw [bezier21]
    simp [flatIndex]
    ring
  refine ⟨by rw [ew]; exact hw, ?_⟩
  unfold rationalBezier
  rw [ew, bezier21]
  set W := (1 - x) ^ 2 + x ^ 2 + Real.cos h * (2 * x * (1 - x)) with hW
  apply point_ext
  · simp only [add_val, smul_val, flatIndex, polar]
    simp only [if_true]
    rw [mul_inv_eq_iff_eq_mul₀ hw.ne', Real.cos_add m (psi h x)]
    rw [show ((1 - y) * ro + y * ri) * (Real.cos m * Real.cos (psi h x) - Real.sin m * Real.sin (psi h x)) * W
      = ((1 - y) * ro + y * ri) * (Real.cos m * (W * Real.cos (psi h x)) - Real.sin m * (W * Real.sin (psi h x))) by ring, p1, p2]
    simp [Real.cos_add, Real.cos_sub]
    field_simp
    ring
  · simp only [add_val, smul_val, flatIndex, polar]
    simp only [Fin.one_eq_zero_iff, OfNat.ofNat_ne_one, if_false]
    rw [mul_inv_eq_iff_eq_mul₀ hw.ne', Real.sin_add m (psi h x)]
    rw [show ((1 - y) * ro + y * ri) * (Real.sin m * Real.cos (psi h x) + Real.cos m * Real.sin (psi h x)) * W
      = ((1 - y) * ro + y * ri) * (Real.sin m * (W * Real.cos (psi h x)) + Real.cos m * (W * Real.sin (psi h x))) by ring, p1, p2]
    simp [Real.sin_add, Real.sin_sub]
    field_simp
    ring

theorem circleGroup_ok (innerR outerR arc : ℝ) (n : ℕ) (hn : 0 < n) (harc : |arc| < 2 * Real.pi * n) (hpi : |arc| ≠ Real.pi * n) :
    ∃ l, circleGroup realMath (1 / 2) (-1) innerR outerR n arc = .ok l ∧ l.length = n ∧ ∀ i, i < n → ∃ r, l[i]? = some r ∧
      ∃ f w angle, r.Computes [2, 1] f w ∧ RunsFromTo (i * arc / n) ((i + 1 : ℕ) * arc / n) angle ∧
        ∀ x y : ℝ, 0 < w [x, y] ∧ f [x, y] = polar ((1 - y) * outerR + y * innerR) (angle x) := by
  have hn' : (0:ℝ) < n := by exact_mod_cast hn
  set h := arc / n / 2 with hh
  have hha : |h| = |arc| / n / 2 := by rw [hh, abs_div, abs_div, abs_of_pos hn', abs_two]
  have hlt : |h| < Real.pi := by
    rw [hha, div_div, div_lt_iff₀ (by positivity)]; linarith
  have hne : |h| ≠ Real.pi / 2 := by
    rw [hha]
    intro e
    apply hpi
    field_simp at e
    linarith
  have hc : Real.cos h ≠ 0 := by
    rw [← Real.cos_abs]
    intro e
    rw [Real.cos_eq_zero_iff] at e
    obtain ⟨k, hk⟩ := e
    have h0 := abs_nonneg h
    have hpp := Real.pi_pos
    have k0 : 0 ≤ k := by
      by_contra hneg
      have : (k:ℝ) ≤ -1 := by exact_mod_cast (by omega : k ≤ -1)
      nlinarith
    have k1 : k < 1 := by
      by_contra hneg
      have : (1:ℝ) ≤ k := by exact_mod_cast (by omega : 1 ≤ k)
      nlinarith
    have : k = 0 := by omega
    subst this
    apply hne
    rw [hk]; simp
  have d1 : divM arc ((n : ℕ) : ℝ) = .ok (arc / n) := by
    unfold divM
    rw [if_neg (by simpa using hn'.ne')]; rfl
  have hsw : Real.sin (Real.arccos (-1) / ((2 : ℕ) : ℝ) - arc / n / ((2 : ℕ) : ℝ)) = Real.cos h := by
    rw [Real.arccos_neg_one, Nat.cast_ofNat, Real.sin_pi_div_two_sub]
  have d2 : divM (1:ℝ) (Real.cos h) = .ok (1 / Real.cos h) := by
    unfold divM
    rw [if_neg (by simpa using hc)]; rfl
  unfold circleGroup
  simp only [realMath, d1, bind_ok, hsw, d2]
  apply Props.loop_push
  intro i hi
  have e1 : arc / n * (i:ℝ) = arc / n * ((i:ℝ) + 1 / 2) - h := by rw [hh]; ring
  have e2 : arc / n * ((i:ℝ) + 1) = arc / n * ((i:ℝ) + 1 / 2) + h := by rw [hh]; ring
  obtain ⟨r, f, w, r1, r2, r3⟩ := segment_value (m := arc / n * ((i:ℝ) + 1 / 2)) (ro := outerR) (ri := innerR) hlt hc e1 e2 rfl rfl
  refine ⟨r, ⟨f, w, fun x => arc / n * ((i:ℝ) + 1 / 2) + psi h x, r2, ⟨?_, ?_, ?_, ?_⟩, r3⟩, ?_⟩
  · simp only [psi_zero hlt]; rw [hh]; ring
  · simp only [psi_one hlt]; rw [hh]; push_cast; ring
  · exact continuous_const.add (psi_continuous h)
  · intro hlt'
    have h0 : 0 < h := by
      rw [div_lt_div_iff_of_pos_right hn'] at hlt'
      push_cast at hlt'
      rw [hh]
      have : 0 < arc := by linarith
      positivity
    exact (psi_strictMono h0 (lt_of_le_of_lt (le_abs_self h) hlt)).const_add _
  · intro ret
    rw [r1]; rfl

end Bezman.Microstructure
