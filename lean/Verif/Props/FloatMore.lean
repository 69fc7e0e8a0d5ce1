import Verif.Proofs.FloatSplit
import Verif.Proofs.FloatRational
import Verif.Props.FloatArith

/-! # Properties: rounding errors of splitting and of rational evaluation -/

namespace Bezman.Props
open Spec

variable {A : FloatArith}

/-! ## C69 -/

/-- C69. The control points of both halves of a split differ from the exact ones by at most
`((1+u)^(3p) - 1) M + 2 p (1+u)^(3p) η`. -/
theorem C69_split_error (s : Spline (Fl A)) (hs : s.WF) (d p : ℕ) (hp : s.degrees[d]? = some p) (z : Fl A) (h0 : 0 < z.val)
    (h1 : z.val < 1) (M : ℝ) (hM : ∀ x ∈ s.cps, |x.val| ≤ M) :
    ∃ a b a' b', s.splitAt z d = .ok (a, b) ∧ s.exact.splitAt z.val d = .ok (a', b') ∧
      List.Forall₂ (fun x y => |x.val - y| ≤ ((1 + A.u) ^ (3 * p) - 1) * M + 2 * p * (1 + A.u) ^ (3 * p) * A.η) a.cps a'.cps ∧
      List.Forall₂ (fun x y => |x.val - y| ≤ ((1 + A.u) ^ (3 * p) - 1) * M + 2 * p * (1 + A.u) ^ (3 * p) * A.η) b.cps b'.cps :=
  Spline.splitAt_float hs hp h0 h1 hM

/-- C69 for points, coordinate by coordinate. -/
theorem C69_split_error_point {n : ℕ} (s : Spline (Point (Fl A) n)) (hs : s.WF) (d p : ℕ) (hp : s.degrees[d]? = some p)
    (z : Fl A) (h0 : 0 < z.val) (h1 : z.val < 1) (M : Fin n → ℝ) (hM : ∀ x ∈ s.cps, ∀ c, |(x.val c).val| ≤ M c) :
    ∃ a b a' b', s.splitAt z d = .ok (a, b) ∧ s.exactPoints.splitAt z.val d = .ok (a', b') ∧
      List.Forall₂ (fun x y => ∀ c, |(x.val c).val - y.val c| ≤
        ((1 + A.u) ^ (3 * p) - 1) * M c + 2 * p * (1 + A.u) ^ (3 * p) * A.η) a.cps a'.cps ∧
      List.Forall₂ (fun x y => ∀ c, |(x.val c).val - y.val c| ≤
        ((1 + A.u) ^ (3 * p) - 1) * M c + 2 * p * (1 + A.u) ^ (3 * p) * A.η) b.cps b'.cps :=
  Spline.splitAt_float_point hs hp h0 h1 hM

/-! ## C70 -/

/-- the weight function in exact and in rounded arithmetic -/
theorem weight_float (hη : A.η = 0) {w : Spline (Fl A)} (hw : w.WF) {t : List (Fl A)} (ht : t.length = w.dim)
    (h01 : ∀ x ∈ t, 0 ≤ x.val ∧ x.val ≤ 1) {lo hi : ℝ} (hlo : 0 < lo) (hb : ∀ x ∈ w.cps, lo ≤ x.val ∧ x.val ≤ hi) :
    ∃ r y, w.evaluate t = .ok r ∧ w.exact.evaluate (t.map Fl.val) = .ok y ∧ lo ≤ y ∧
      |r.val - y| ≤ ((1 + A.u) ^ (3 * w.degrees.sum) - 1) * hi := by
  have hw' : w.exact.WF := ⟨hw.dim_pos, hw.ncp_eq, hw.offsets_eq, by simpa [Spline.exact] using hw.cps_len⟩
  obtain ⟨r, y, e1, e2, h⟩ := C64_evaluate_error w hw t ht h01 hi (fun x hx => by
    rw [abs_of_nonneg (by linarith [(hb x hx).1])]; exact (hb x hx).2)
  have ht' : (t.map Fl.val).length = w.exact.dim := by rw [List.length_map]; exact ht
  have e3 := Spline.evaluate_ok (K := ℝ) hw' ht'
  rw [e2] at e3
  have e4 := Spline.le_value (K := ℝ) hw' ht' (by simpa using h01) (j := (0 : Fin 1)) (c := lo) (by
    intro x hx
    obtain ⟨z, hz, rfl⟩ := List.mem_map.mp hx
    exact (hb z hz).1)
  refine ⟨r, y, e1, e2, ?_, ?_⟩
  · rw [Except.ok.inj e3]; exact e4
  · rw [hη, mul_zero, add_zero] at h; exact h

/-- C70. Error of `Evaluate` of a scalar rational spline with weights between `lo` and `hi`. -/
theorem C70_rational_error (hη : A.η = 0) (r : RSpline (Fl A) (Fl A)) (hn : r.num.WF) (hw : r.wt.WF)
    (hd : r.wt.degrees = r.num.degrees) (t : List (Fl A)) (ht : t.length = r.dim) (h01 : ∀ x ∈ t, 0 ≤ x.val ∧ x.val ≤ 1)
    (M lo hi ε : ℝ) (hM : ∀ x ∈ r.num.cps, |x.val| ≤ M) (hlo : 0 < lo) (hb : ∀ x ∈ r.wt.cps, lo ≤ x.val ∧ x.val ≤ hi)
    (hε : ε = (1 + A.u) ^ (3 * r.num.degrees.sum) - 1) (hsmall : ε * hi < lo) :
    ∃ x y, r.evaluate t = .ok x ∧ r.exact.evaluate (t.map Fl.val) = .ok y ∧
      |x.val - y| ≤ (1 + A.u) * ((ε * M + M / lo * (ε * hi)) / (lo - ε * hi)) + A.u * (M / lo) := by
  obtain ⟨n, n', e1, e2, h1⟩ := C64_evaluate_error r.num hn t ht h01 M hM
  obtain ⟨w, w', e3, e4, h2, h3⟩ := weight_float hη hw (ht.trans (by rw [RSpline.dim, Spline.dim, Spline.dim, hd])) h01 hlo hb
  rw [hη, mul_zero, add_zero, ← hε] at h1
  rw [hd, ← hε] at h3
  have hn' : r.num.exact.WF := ⟨hn.dim_pos, hn.ncp_eq, hn.offsets_eq, by simpa [Spline.exact] using hn.cps_len⟩
  have ht' : (t.map Fl.val).length = r.num.exact.dim := by rw [List.length_map]; exact ht
  have e5 := Spline.evaluate_ok (K := ℝ) hn' ht'
  rw [e2] at e5
  have hN : |n'| ≤ M := by
    rw [Except.ok.inj e5, abs_le]
    constructor
    · exact Spline.le_value (K := ℝ) hn' ht' (by simpa using h01) (j := (0 : Fin 1)) (by
        intro x hx
        obtain ⟨z, hz, rfl⟩ := List.mem_map.mp hx
        exact (abs_le.mp (hM z hz)).1)
    · exact Spline.value_le (K := ℝ) hn' ht' (by simpa using h01) (j := (0 : Fin 1)) (by
        intro x hx
        obtain ⟨z, hz, rfl⟩ := List.mem_map.mp hx
        exact (abs_le.mp (hM z hz)).2)
  obtain ⟨q1, q2, q3⟩ := quot_err h1 h3 h2 hsmall hN
  refine ⟨n / w, n' / w', ?_, ?_, ?_⟩
  · unfold RSpline.evaluate
    rw [e1, e3]
    show divM n w = _
    unfold divM
    rw [if_neg (fun h => by rw [eq_of_beq h] at q1; simp at q1)]
    rfl
  · unfold RSpline.evaluate
    show (r.num.exact.evaluate _ >>= _) = _
    rw [e2]
    show (r.wt.exact.evaluate _ >>= _) = _
    rw [e4]
    show divM n' w' = _
    unfold divM
    rw [if_neg (fun h => by have := eq_of_beq h; linarith)]
    rfl
  · have := A.div_err n.val w.val q1.ne'
    rw [hη, add_zero] at this
    have h4 : |A.div n.val w.val - n.val / w.val| ≤ (1 + A.u - 1) * |n.val / w.val| := by
      rw [add_sub_cancel_left (1 : ℝ) A.u]; exact this
    have h5 := div_total h4 (by linarith [A.u_nonneg]) q2 q3
    rw [add_sub_cancel_left (1 : ℝ) A.u] at h5
    exact h5

/-- C70 for points, coordinate by coordinate; division of a point has two roundings. -/
theorem C70_rational_error_point (hη : A.η = 0) {n : ℕ} (r : RSpline (Fl A) (Point (Fl A) n)) (hn : r.num.WF) (hw : r.wt.WF)
    (hd : r.wt.degrees = r.num.degrees) (t : List (Fl A)) (ht : t.length = r.dim) (h01 : ∀ x ∈ t, 0 ≤ x.val ∧ x.val ≤ 1)
    (M : Fin n → ℝ) (lo hi ε : ℝ) (hM : ∀ x ∈ r.num.cps, ∀ c, |(x.val c).val| ≤ M c) (hlo : 0 < lo)
    (hb : ∀ x ∈ r.wt.cps, lo ≤ x.val ∧ x.val ≤ hi) (hε : ε = (1 + A.u) ^ (3 * r.num.degrees.sum) - 1) (hsmall : ε * hi < lo) :
    ∃ x y, r.evaluate t = .ok x ∧ r.exactPoints.evaluate (t.map Fl.val) = .ok y ∧
      ∀ c, |(x.val c).val - y.val c| ≤
        (1 + A.u) ^ 2 * ((ε * M c + M c / lo * (ε * hi)) / (lo - ε * hi)) + ((1 + A.u) ^ 2 - 1) * (M c / lo) := by
  obtain ⟨x, x', e1, e2, h1⟩ := C64_evaluate_error_point r.num hn t ht h01 M hM
  obtain ⟨w, w', e3, e4, h2, h3⟩ := weight_float hη hw (ht.trans (by rw [RSpline.dim, Spline.dim, Spline.dim, hd])) h01 hlo hb
  rw [hd, ← hε] at h3
  have hn' : r.num.exactPoints.WF := ⟨hn.dim_pos, hn.ncp_eq, hn.offsets_eq, by simpa [Spline.exactPoints] using hn.cps_len⟩
  have ht' : (t.map Fl.val).length = r.num.exactPoints.dim := by rw [List.length_map]; exact ht
  have e5 := Spline.evaluate_ok (K := ℝ) hn' ht'
  rw [e2] at e5
  have hN : ∀ c, |x'.val c| ≤ M c := by
    intro c
    rw [Except.ok.inj e5, abs_le]
    constructor
    · exact Spline.le_value (K := ℝ) hn' ht' (by simpa using h01) (j := c) (by
        intro y hy
        obtain ⟨z, hz, rfl⟩ := List.mem_map.mp hy
        exact (abs_le.mp (hM z hz c)).1)
    · exact Spline.value_le (K := ℝ) hn' ht' (by simpa using h01) (j := c) (by
        intro y hy
        obtain ⟨z, hz, rfl⟩ := List.mem_map.mp hy
        exact (abs_le.mp (hM z hz c)).2)
  have hw0 : 0 < w.val := by
    have := (abs_le.mp h3).1
    linarith
  refine ⟨x.divScalar w, x'.divScalar w', ?_, ?_, fun c => ?_⟩
  · unfold RSpline.evaluate
    rw [e1, e3]
    show divM x w = _
    unfold divM
    rw [if_neg (fun h => by rw [eq_of_beq h] at hw0; simp at hw0)]
    rfl
  · unfold RSpline.evaluate
    show (r.num.exactPoints.evaluate _ >>= _) = _
    rw [e2]
    show (r.wt.exact.evaluate _ >>= _) = _
    rw [e4]
    show divM x' w' = _
    unfold divM
    rw [if_neg (fun h => by have := eq_of_beq h; linarith)]
    rfl
  · have h1c := h1 c
    rw [hη, mul_zero, add_zero, ← hε] at h1c
    obtain ⟨q1, q2, q3⟩ := quot_err h1c h3 h2 hsmall (hN c)
    have d1 := A.div_err 1 w.val hw0.ne'
    rw [hη, add_zero] at d1
    have d2 := mul_pert hη (α := 1) (β := 1 + A.u) (x := (x.val c).val) (y := 1 / w.val) (x' := (x.val c).val)
      (y' := A.div 1 w.val) le_rfl (by linarith [A.u_nonneg]) (by simp) (by rw [add_sub_cancel_left]; exact d1)
      (A.mul_err (x.val c).val (A.div 1 w.val))
    rw [one_mul, ← sq, ← abs_mul, mul_one_div] at d2
    have := div_total d2 (one_le_pow₀ (by linarith [A.u_nonneg])) q2 q3
    have e6 : (x'.divScalar w').val c = x'.val c / w' := by
      show x'.val c * (1 / w') = _
      rw [mul_one_div]
    rw [e6]
    exact this

/-! ## Examples -/

example : ∃ a b a' b', exFl.splitAt (⟨1 / 4⟩ : F64) 0 = .ok (a, b) ∧ exFl.exact.splitAt (1 / 4 : ℝ) 0 = .ok (a', b') ∧
    List.Forall₂ (fun x y => |x.val - y| ≤ ((1 + (2 : ℝ) ^ (-(53 : ℤ))) ^ (3 * 2) - 1) * 5 + 2 * (2 : ℕ) * (1 + (2 : ℝ) ^ (-(53 : ℤ))) ^ (3 * 2) * 0)
      a.cps a'.cps ∧
    List.Forall₂ (fun x y => |x.val - y| ≤ ((1 + (2 : ℝ) ^ (-(53 : ℤ))) ^ (3 * 2) - 1) * 5 + 2 * (2 : ℕ) * (1 + (2 : ℝ) ^ (-(53 : ℤ))) ^ (3 * 2) * 0)
      b.cps b'.cps :=
  C69_split_error exFl (Ex.surf_wf ..) 0 2 rfl ⟨1 / 4⟩ (by norm_num) (by norm_num) 5 (by simp [exFl, Ex.surf]; norm_num [abs_le])

noncomputable def exFlR : RSpline F64 (Point F64 2) := ⟨exFlP, Ex.surf ⟨1⟩ ⟨2⟩ ⟨1⟩ ⟨1⟩ ⟨1⟩ ⟨3⟩⟩

/-- weights between 1 and 3: the error of the first coordinate is at most `10^-13` -/
example : ∃ x y, exFlR.evaluate [(⟨1 / 4⟩ : F64), ⟨3 / 8⟩] = .ok x ∧ exFlR.exactPoints.evaluate [(1 / 4 : ℝ), 3 / 8] = .ok y ∧
    |(x.val 0).val - y.val 0| ≤ 1 / 10 ^ 13 := by
  obtain ⟨x, y, h1, h2, h3⟩ := C70_rational_error_point (A := FloatArith.binary 53) rfl exFlR (Ex.surf_wf ..) (Ex.surf_wf ..) rfl
    [⟨1 / 4⟩, ⟨3 / 8⟩] rfl (by simp; norm_num) ![5, 2] 1 3 _ exFlP_bound one_pos
    (by simp [exFlR, Ex.surf]; norm_num) rfl (by simp [exFlR, exFlP, Ex.surf, FloatArith.binary]; norm_num)
  refine ⟨x, y, h1, h2, (h3 0).trans ?_⟩
  simp only [exFlR, exFlP, Ex.surf, FloatArith.binary]
  norm_num

end Bezman.Props
