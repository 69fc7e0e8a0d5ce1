import Verif.Props.Examples
import Verif.Model.Alias
import Verif.Proofs.Point
import Verif.Proofs.Unique
import Verif.Proofs.Arith
import Mathlib.Algebra.Order.BigOperators.Ring.Finset
import Mathlib.Algebra.BigOperators.Field
import Mathlib.Analysis.Real.Sqrt
import Mathlib.Algebra.Order.Chebyshev

/-! # Properties: point algebra, in-place operators with aliased arguments -/

namespace Bezman.Props
open Spec Finset

/-! ## C57 -/

section
variable {K : Type} {n : ℕ}

/-- C57. Componentwise meaning of the operators. -/
theorem C57_componentwise [Field K] (a b : Point K n) (c : K) (i : Fin n) :
    (a + b).val i = a.val i + b.val i ∧ (a - b).val i = a.val i - b.val i ∧ (-a).val i = -a.val i ∧
    (c • a).val i = c * a.val i ∧ (c ≠ 0 → (a.divScalar c).val i = a.val i / c) ∧
    (a.val i ≠ 0 → (Point.scalarDiv c a).val i = c / a.val i) := by
  refine ⟨rfl, rfl, by simp, by simp, fun _ => ?_, fun _ => rfl⟩
  simp [Point.divScalar, div_eq_inv_mul]

/-- C57. Vector space laws. -/
theorem C57_vector_space [CommRing K] (a b c : Point K n) (x y : K) :
    a + b + c = a + (b + c) ∧ a + b = b + a ∧ a + 0 = a ∧ a + -a = 0 ∧ a - b = a + -b ∧
    x • (a + b) = x • a + x • b ∧ (x + y) • a = x • a + y • a ∧ (x * y) • a = x • (y • a) ∧ (1 : K) • a = a :=
  ⟨add_assoc a b c, add_comm a b, add_zero a, add_neg_cancel a, sub_eq_add_neg a b, smul_add x a b, add_smul x y a,
    mul_smul x y a, one_smul K a⟩

/-- C57. The dot product is the sum of the products of the coordinates; it is symmetric
and bilinear. -/
theorem C57_dot [CommRing K] (a b c : Point K n) (x : K) :
    a.dot b = ∑ i, a.val i * b.val i ∧ a.dot b = b.dot a ∧ (a + b).dot c = a.dot c + b.dot c ∧
    (x • a).dot b = x * a.dot b ∧ a.squaredNorm = a.dot a := by
  refine ⟨Point.dot_eq a b, ?_, ?_, ?_, ?_⟩
  · simp only [Point.dot_eq, mul_comm]
  · simp only [Point.dot_eq, Point.val_add, add_mul, sum_add_distrib]
  · simp only [Point.dot_eq, Point.val_smul, mul_sum, mul_assoc]
  · rw [Point.squaredNorm_eq, Point.dot_eq]

/-- C57. Positive definite over an ordered field. -/
theorem C57_squared_norm_definite [Field K] [LinearOrder K] [IsStrictOrderedRing K] (a : Point K n) :
    0 ≤ a.squaredNorm ∧ (a.squaredNorm = 0 ↔ a = 0) := by
  rw [Point.squaredNorm_eq]
  refine ⟨sum_nonneg fun i _ => mul_self_nonneg _, ?_⟩
  rw [sum_eq_zero_iff_of_nonneg fun i _ => mul_self_nonneg _]
  constructor
  · intro h; ext i; exact mul_self_eq_zero.mp (h i (mem_univ i))
  · rintro rfl i _; simp

/-- C57. Cauchy-Schwarz. -/
theorem C57_cauchy_schwarz [Field K] [LinearOrder K] [IsStrictOrderedRing K] (a b : Point K n) :
    a.dot b ^ 2 ≤ a.squaredNorm * b.squaredNorm := by
  rw [Point.squaredNorm_eq, Point.squaredNorm_eq, Point.dot_eq]
  have := sum_mul_sq_le_sq_mul_sq univ a.val b.val
  simpa [pow_two] using this

/-- C57. `EuclidianNorm` over the reals: the non-negative root of the squared norm, a
norm. -/
theorem C57_euclidian_norm (a b : Point ℝ n) (c : ℝ) :
    0 ≤ a.norm Real.sqrt ∧ a.norm Real.sqrt ^ 2 = a.squaredNorm ∧ (a.norm Real.sqrt = 0 ↔ a = 0) ∧
    (c • a).norm Real.sqrt = |c| * a.norm Real.sqrt ∧
    (a + b).norm Real.sqrt ≤ a.norm Real.sqrt + b.norm Real.sqrt := by
  have ha := C57_squared_norm_definite a
  have hb := C57_squared_norm_definite b
  have hab := C57_squared_norm_definite (a + b)
  have exp : (a + b).squaredNorm = a.squaredNorm + 2 * a.dot b + b.squaredNorm := by
    obtain ⟨_, sym, _⟩ := C57_dot a b a 0
    rw [(C57_dot (a + b) b a 0).2.2.2.2, (C57_dot a b (a + b) 0).2.2.1, (C57_dot a (a + b) a 0).2.1,
      (C57_dot b (a + b) a 0).2.1, (C57_dot a b a 0).2.2.1, (C57_dot a b b 0).2.2.1,
      (C57_dot a b b 0).2.2.2.2, (C57_dot b a b 0).2.2.2.2, (C57_dot b a b 0).2.1]
    ring
  refine ⟨Real.sqrt_nonneg _, Real.sq_sqrt ha.1, ?_, ?_, ?_⟩
  · unfold Point.norm; rw [Real.sqrt_eq_zero ha.1]; exact ha.2
  · unfold Point.norm
    have : (c • a).squaredNorm = c ^ 2 * a.squaredNorm := by
      simp only [Point.squaredNorm_eq, Point.val_smul, mul_sum]
      apply sum_congr rfl; intros; ring
    rw [this, Real.sqrt_mul (sq_nonneg c), Real.sqrt_sq_eq_abs]
  · unfold Point.norm
    apply Real.sqrt_le_iff.mpr
    refine ⟨by positivity, ?_⟩
    have h1 := Real.sq_sqrt ha.1
    have h2 := Real.sq_sqrt hb.1
    have h3 : a.dot b ≤ Real.sqrt a.squaredNorm * Real.sqrt b.squaredNorm := by
      rw [← Real.sqrt_mul ha.1]
      exact Real.le_sqrt_of_sq_le (C57_cauchy_schwarz a b)
    rw [exp]
    nlinarith

end

example : (Ex.pt 1 2 + Ex.pt 3 4).val 1 = 2 + 4 := (C57_componentwise (Ex.pt 1 2) (Ex.pt 3 4) 0 1).1

/-! ## C61: arguments that refer to the object itself -/

theorem aliasLoop_ok {V : Type} (f : V → V → V) {k : ℕ} {mem : List V} {y : V} (hk : mem[k]? = some y) :
    ∃ l, aliasLoop mem.length f k mem = .ok l ∧ l.length = mem.length ∧
      ∀ i x, mem[i]? = some x → l[i]? = some (if i ≤ k then f x y else f x (f y y)) := by
  obtain ⟨hkl, _⟩ := List.getElem?_eq_some_iff.mp hk
  obtain ⟨l, h1, h2, h3⟩ := loop_inv (n := mem.length) (s := mem)
    (f := fun i mem => do
      let x ← rd mem i
      let y ← rd mem k
      wr mem i (f x y))
    (P := fun j l => l.length = mem.length ∧
      ∀ i x, mem[i]? = some x → l[i]? = some (if j ≤ i then x else if i ≤ k then f x y else f x (f y y)))
    ⟨rfl, fun i x h => by simp [h]⟩
    (by
      rintro j hj l ⟨hl, hi⟩
      have hx : mem[j]? = some mem[j] := List.getElem?_eq_getElem hj
      have e1 := hi j _ hx
      rw [if_pos le_rfl] at e1
      rw [rd_ok e1, rd_ok (hi k y hk)]
      simp only [bind_ok]
      rw [wr_ok _ (by omega)]
      refine ⟨_, rfl, by simp [hl], fun i x h => ?_⟩
      rw [List.getElem?_set]
      by_cases hij : j = i
      · subst hij
        rw [hx] at h; injection h with h; subst h
        rw [if_pos rfl, if_pos (by omega), if_neg (by omega : ¬ j + 1 ≤ j)]
        by_cases hjk : j ≤ k
        · rw [if_pos hjk, if_pos hjk]
        · rw [if_neg hjk, if_neg hjk, if_pos (by omega)]
      · rw [if_neg hij, hi i x h]
        by_cases hji : j ≤ i
        · rw [if_pos hji, if_pos (by omega)]
        · rw [if_neg hji, if_neg (by omega : ¬ j + 1 ≤ i)])
  refine ⟨l, h1, h2, fun i x h => ?_⟩
  obtain ⟨hi, _⟩ := List.getElem?_eq_some_iff.mp h
  rw [h3 i x h, if_neg (by omega)]

/-- C61 is false of the code: `s -= s.control_points[k]` shifts only the control points
up to number `k`; all later ones keep their position. -/
theorem C61_sub_own_point {V : Type} [AddCommGroup V] (s : Spline V) (hs : s.WF) (k : ℕ) (y : V)
    (hk : s.cps[k]? = some y) :
    ∃ r, s.subOwnPoint k = .ok r ∧ r.degrees = s.degrees ∧
      ∀ i x, s.cps[i]? = some x → r.cps[i]? = some (if i ≤ k then x - y else x) := by
  obtain ⟨l, h1, _, h3⟩ := aliasLoop_ok (fun x y : V => x - y) hk
  rw [hs.cps_len, ← hs.ncp_eq] at h1
  refine ⟨{ s with cps := l }, by unfold Spline.subOwnPoint; rw [h1]; rfl, rfl, fun i x h => ?_⟩
  rw [h3 i x h]; simp

/-- C61 is false of the code: `s += s.control_points[k]` shifts the later control points
by twice the point. -/
theorem C61_add_own_point {V : Type} [AddCommGroup V] (s : Spline V) (hs : s.WF) (k : ℕ) (y : V)
    (hk : s.cps[k]? = some y) :
    ∃ r, s.addOwnPoint k = .ok r ∧ r.degrees = s.degrees ∧
      ∀ i x, s.cps[i]? = some x → r.cps[i]? = some (if i ≤ k then x + y else x + (y + y)) := by
  obtain ⟨l, h1, _, h3⟩ := aliasLoop_ok (fun x y : V => x + y) hk
  rw [hs.cps_len, ← hs.ncp_eq] at h1
  exact ⟨{ s with cps := l }, by unfold Spline.addOwnPoint; rw [h1]; rfl, rfl, h3⟩

/-- C61 is false of the code: `s *= s.control_points[k]` (scalar-valued splines) scales
the later control points by the square. -/
theorem C61_scale_own_point {K : Type} [CommRing K] (s : Spline K) (hs : s.WF) (k : ℕ) (y : K)
    (hk : s.cps[k]? = some y) :
    ∃ r, s.scaleByOwnPoint k = .ok r ∧ r.degrees = s.degrees ∧
      ∀ i x, s.cps[i]? = some x → r.cps[i]? = some (if i ≤ k then x * y else x * (y * y)) := by
  obtain ⟨l, h1, _, h3⟩ := aliasLoop_ok (fun x y : K => x * y) hk
  rw [hs.cps_len, ← hs.ncp_eq] at h1
  exact ⟨{ s with cps := l }, by unfold Spline.scaleByOwnPoint; rw [h1]; rfl, rfl, h3⟩

/-- C61 is false of the code: `p *= p[k]` scales the later coordinates by the square. -/
theorem C61_point_scale_own {K : Type} [CommRing K] (p : List K) (k : ℕ) (y : K) (hk : p[k]? = some y) :
    ∃ r, pointScaleByOwn p k = .ok r ∧ r.length = p.length ∧
      ∀ i x, p[i]? = some x → r[i]? = some (if i ≤ k then x * y else x * (y * y)) :=
  aliasLoop_ok (fun x y : K => x * y) hk

/-- C61, the part that holds: with the last control point as argument, `s -= s.control_points.back()`
is the shift by the value that control point had before the call. Missing: every other
control point, where the claim is false (above). -/
theorem C61_last_point_partial {K V : Type} [CommRing K] [AddCommGroup V] [Module K V] (s : Spline V) (hs : s.WF)
    (y : V) (hk : s.cps[s.ncp - 1]? = some y) :
    s.subOwnPoint (s.ncp - 1) = s.subPoint y := by
  obtain ⟨hkl, _⟩ := List.getElem?_eq_some_iff.mp hk
  have hn : s.ncp = s.cps.length := by rw [hs.ncp_eq, hs.cps_len]
  obtain ⟨l, h1, h2, h3⟩ := aliasLoop_ok (fun x y : V => x - y) hk
  rw [← hn] at h1
  have hl : l = s.cps.map (fun x => x - y) := by
    apply List.ext_getElem?
    intro i
    by_cases hi : i < s.cps.length
    · rw [h3 i _ (List.getElem?_eq_getElem hi), if_pos (by omega)]; simp [hi]
    · rw [List.getElem?_eq_none (by omega), List.getElem?_eq_none (by simp; omega)]
  have hm := Spline.mapCps_ok hs (fun x => x - y)
  unfold Spline.subOwnPoint Spline.subPoint
  rw [h1, hl, hm]; rfl

/-- the loops of the rational in-place operators with an own control point as argument -/
theorem aliasLoopWeights_ok {K V : Type} (f : K → V → V → V) {k : ℕ} {mem : List V} {ws : List K} {y : V} {wk : K}
    (hl : ws.length = mem.length) (hk : mem[k]? = some y) (hw : ws[k]? = some wk) :
    ∃ l, loop mem.length (fun i mem => do
        let x ← rd mem i
        let w ← rd ws i
        let y ← rd mem k
        wr mem i (f w x y)) mem = .ok l ∧ l.length = mem.length ∧
      ∀ i x w, mem[i]? = some x → ws[i]? = some w → l[i]? = some (if i ≤ k then f w x y else f w x (f wk y y)) := by
  obtain ⟨hkl, _⟩ := List.getElem?_eq_some_iff.mp hk
  obtain ⟨l, h1, h2, h3⟩ := loop_inv (n := mem.length) (s := mem)
    (f := fun i mem => do
      let x ← rd mem i
      let w ← rd ws i
      let y ← rd mem k
      wr mem i (f w x y))
    (P := fun j l => l.length = mem.length ∧
      ∀ i x w, mem[i]? = some x → ws[i]? = some w →
        l[i]? = some (if j ≤ i then x else if i ≤ k then f w x y else f w x (f wk y y)))
    ⟨rfl, fun i x w h _ => by simp [h]⟩
    (by
      rintro j hj l ⟨hl', hi⟩
      have hx : mem[j]? = some mem[j] := List.getElem?_eq_getElem hj
      have hwj : ws[j]? = some (ws[j]'(by omega)) := List.getElem?_eq_getElem (by omega)
      have e1 := hi j _ _ hx hwj
      rw [if_pos le_rfl] at e1
      rw [rd_ok e1, rd_ok hwj, rd_ok (hi k y wk hk hw)]
      simp only [bind_ok]
      rw [wr_ok _ (by omega)]
      refine ⟨_, rfl, by simp [hl'], fun i x w h h' => ?_⟩
      rw [List.getElem?_set]
      by_cases hij : j = i
      · subst hij
        rw [hx] at h; injection h with h; subst h
        rw [hwj] at h'; injection h' with h'; subst h'
        rw [if_pos rfl, if_pos (by omega), if_neg (by omega : ¬ j + 1 ≤ j)]
        by_cases hjk : j ≤ k
        · rw [if_pos hjk, if_pos hjk]
        · rw [if_neg hjk, if_neg hjk, if_pos (by omega)]
      · rw [if_neg hij, hi i x w h h']
        by_cases hji : j ≤ i
        · rw [if_pos hji, if_pos (by omega)]
        · rw [if_neg hji, if_neg (by omega : ¬ j + 1 ≤ i)])
  refine ⟨l, h1, h2, fun i x w h h' => ?_⟩
  obtain ⟨hi, _⟩ := List.getElem?_eq_some_iff.mp h
  rw [h3 i x w h h', if_neg (by omega)]

/-- C61 is false of the code for rational splines too: `r += r.WeightedControlPoint(k)` shifts the numerators after number `k` by
`1 + w_k` times the argument. -/
theorem C61_rational_add_own_point {K V : Type} [CommRing K] [AddCommGroup V] [Module K V] (r : RSpline K V) (hn : r.num.WF)
    (hw : r.wt.WF) (hd : r.num.degrees = r.wt.degrees) (k : ℕ) (y : V) (wk : K) (hk : r.num.cps[k]? = some y)
    (hwk : r.wt.cps[k]? = some wk) :
    ∃ r', r.addOwnPoint k = .ok r' ∧ r'.wt = r.wt ∧ ∀ i x w, r.num.cps[i]? = some x → r.wt.cps[i]? = some w →
      r'.num.cps[i]? = some (if i ≤ k then x + w • y else x + w • ((1 + wk) • y)) := by
  obtain ⟨l, h1, _, h3⟩ := aliasLoopWeights_ok (fun (w : K) (x y : V) => x + w • y) (by rw [hn.cps_len, hw.cps_len, hd]) hk hwk
  rw [hn.cps_len, ← hn.ncp_eq] at h1
  refine ⟨⟨{ r.num with cps := l }, r.wt⟩, ?_, rfl, fun i x w h h' => ?_⟩
  · unfold RSpline.addOwnPoint
    rw [h1]
    simp [RSpline.compatible, hd, assertM]
  · rw [h3 i x w h h', add_smul, one_smul]

/-- C61 is false of the code: `r -= r.WeightedControlPoint(k)` shifts the numerators after number `k` by `1 - w_k` times the
argument. -/
theorem C61_rational_sub_own_point {K V : Type} [CommRing K] [AddCommGroup V] [Module K V] (r : RSpline K V) (hn : r.num.WF)
    (hw : r.wt.WF) (hd : r.num.degrees = r.wt.degrees) (k : ℕ) (y : V) (wk : K) (hk : r.num.cps[k]? = some y)
    (hwk : r.wt.cps[k]? = some wk) :
    ∃ r', r.subOwnPoint k = .ok r' ∧ r'.wt = r.wt ∧ ∀ i x w, r.num.cps[i]? = some x → r.wt.cps[i]? = some w →
      r'.num.cps[i]? = some (if i ≤ k then x - w • y else x - w • ((1 - wk) • y)) := by
  obtain ⟨l, h1, _, h3⟩ := aliasLoopWeights_ok (fun (w : K) (x y : V) => x - w • y) (by rw [hn.cps_len, hw.cps_len, hd]) hk hwk
  rw [hn.cps_len, ← hn.ncp_eq] at h1
  refine ⟨⟨{ r.num with cps := l }, r.wt⟩, ?_, rfl, fun i x w h h' => ?_⟩
  · unfold RSpline.subOwnPoint
    rw [h1]; rfl
  · rw [h3 i x w h h', sub_smul, one_smul]

/-- C61 holds for `r *= r.Weight(k)`: the weights are not written, so the argument keeps its value. -/
theorem C61_rational_scale_own_weight {K V : Type} [CommRing K] [AddCommGroup V] [Module K V] (r : RSpline K V) (k : ℕ) (c : K)
    (hk : r.wt.cps[k]? = some c) : r.scaleByOwnWeight k = r.smulAssign c := by
  unfold RSpline.scaleByOwnWeight RSpline.smulAssign Spline.smulOp Spline.mapCps
  simp only [rd_ok hk, bind_ok, bind_assoc, pure_bind]

/-- the first control point of the example surface is not the origin after all -/
example (a b : ℚ) : ∃ r, (Ex.line a b).subOwnPoint 0 = .ok r ∧ r.cps = [a - a, b] := ⟨_, by
  simp [Spline.subOwnPoint, aliasLoop, Ex.line, loop, rd, wr]; rfl, by simp⟩

/-- subtracting the first weighted control point of a rational line leaves the second one where it is if the first weight is 1 -/
example (a b w : ℚ) : ∃ r, (⟨Ex.line a b, Ex.line 1 w⟩ : RSpline ℚ ℚ).subOwnPoint 0 = .ok r ∧ r.num.cps[1]? = some b := by
  obtain ⟨r, h1, -, h2⟩ := C61_rational_sub_own_point (⟨Ex.line a b, Ex.line 1 w⟩ : RSpline ℚ ℚ) (Ex.line_wf ..) (Ex.line_wf ..) rfl 0 a 1
    rfl rfl
  exact ⟨r, h1, by rw [h2 1 b w rfl rfl]; simp⟩

end Bezman.Props
