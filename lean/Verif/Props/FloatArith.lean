import Verif.Spec.FloatArith
import Verif.Proofs.FloatForward
import Verif.Proofs.FloatRound
import Verif.Props.Basics

/-! # Properties: rounding errors of evaluation -/

namespace Bezman.Props
open Spec Finset

variable {A : FloatArith}

/-! ## C64 -/

/-- C64. In floating-point arithmetic `Evaluate` of a scalar spline differs from the exact result by at most
`((1+u)^(3 Σp) - 1) M`, and `2 Σp (1+u)^(3 Σp) η` for underflow. -/
theorem C64_evaluate_error (s : Spline (Fl A)) (hs : s.WF) (t : List (Fl A)) (ht : t.length = s.dim)
    (h01 : ∀ x ∈ t, 0 ≤ x.val ∧ x.val ≤ 1) (M : ℝ) (hM : ∀ x ∈ s.cps, |x.val| ≤ M) :
    ∃ r y, s.evaluate t = .ok r ∧ s.exact.evaluate (t.map Fl.val) = .ok y ∧
      |r.val - y| ≤ ((1 + A.u) ^ (3 * s.degrees.sum) - 1) * M +
        2 * s.degrees.sum * (1 + A.u) ^ (3 * s.degrees.sum) * A.η := by
  have hs' : s.exact.WF := ⟨hs.dim_pos, hs.ncp_eq, hs.offsets_eq, by simpa [Spline.exact] using hs.cps_len⟩
  have e := Spline.evaluate_ok (K := ℝ) hs' (t := t.map Fl.val) (by rw [List.length_map]; exact ht)
  obtain ⟨r, e1, h1⟩ := Spline.evaluate_float A hs' rfl rfl rfl rfl hM h01 e
  exact ⟨r, _, e1, e, h1⟩

/-- C64 for points: each coordinate has the error of its own bound. -/
theorem C64_evaluate_error_point {n : ℕ} (s : Spline (Point (Fl A) n)) (hs : s.WF) (t : List (Fl A)) (ht : t.length = s.dim)
    (h01 : ∀ x ∈ t, 0 ≤ x.val ∧ x.val ≤ 1) (M : Fin n → ℝ) (hM : ∀ x ∈ s.cps, ∀ i, |(x.val i).val| ≤ M i) :
    ∃ r y, s.evaluate t = .ok r ∧ s.exactPoints.evaluate (t.map Fl.val) = .ok y ∧
      ∀ i, |(r.val i).val - y.val i| ≤ ((1 + A.u) ^ (3 * s.degrees.sum) - 1) * M i +
        2 * s.degrees.sum * (1 + A.u) ^ (3 * s.degrees.sum) * A.η := by
  have hs' : s.exactPoints.WF := ⟨hs.dim_pos, hs.ncp_eq, hs.offsets_eq, by simpa [Spline.exactPoints] using hs.cps_len⟩
  have e := Spline.evaluate_ok (K := ℝ) hs' (t := t.map Fl.val) (by rw [List.length_map]; exact ht)
  obtain ⟨r, e1, h1⟩ := Spline.evaluate_float_point A hs' rfl rfl rfl rfl hM h01 e
  exact ⟨r, _, e1, e, h1⟩

/-! ## C65 -/

/-- C65. `Evaluate` returns the corner control points of a scalar spline without rounding error. -/
theorem C65_corners (s : Spline (Fl A)) (hs : s.WF) (h0 : A.Representable 0) (h1 : A.Representable 1)
    (hr : ∀ x ∈ s.cps, A.Representable x.val) (c : List Bool) (hc : c.length = s.dim) :
    ∃ x, s.evaluate (c.map (fun b => if b then (1 : Fl A) else 0)) = .ok x ∧
      s.controlPoint (List.zipWith (fun (b : Bool) p => if b then p else 0) c s.degrees) = .ok x := by
  refine corner_of_steps (K := Fl A) hs (Fl.ext (h1.sub _ _ (by simp))) (Fl.ext (h0.sub _ _ (by simp))) ?_ ?_ hc
  · intro a ha b hb
    refine Fl.ext ((hr a ha).add _ _ ?_)
    rw [Fl.smul_val, Fl.smul_val, (hr a ha).mul _ _ (by simp), h0.mul _ _ (by simp), add_zero]
  · intro a ha b hb
    refine Fl.ext ((hr b hb).add _ _ ?_)
    rw [Fl.smul_val, Fl.smul_val, h0.mul _ _ (by simp), (hr b hb).mul _ _ (by simp), zero_add]

/-- C65 for points. -/
theorem C65_corners_point {n : ℕ} (s : Spline (Point (Fl A) n)) (hs : s.WF) (h0 : A.Representable 0) (h1 : A.Representable 1)
    (hr : ∀ x ∈ s.cps, ∀ i, A.Representable (x.val i).val) (c : List Bool) (hc : c.length = s.dim) :
    ∃ x, s.evaluate (c.map (fun b => if b then (1 : Fl A) else 0)) = .ok x ∧
      s.controlPoint (List.zipWith (fun (b : Bool) p => if b then p else 0) c s.degrees) = .ok x := by
  refine corner_of_steps (K := Fl A) hs (Fl.ext (h1.sub _ _ (by simp))) (Fl.ext (h0.sub _ _ (by simp))) ?_ ?_ hc
  · intro a ha b hb
    ext i
    refine (hr a ha i).add _ _ ?_
    show A.mul (a.val i).val 1 + A.mul (b.val i).val 0 = _
    rw [(hr a ha i).mul _ _ (by simp), h0.mul _ _ (by simp), add_zero]
  · intro a ha b hb
    ext i
    refine (hr b hb i).add _ _ ?_
    show A.mul (a.val i).val 0 + A.mul (b.val i).val 1 = _
    rw [h0.mul _ _ (by simp), (hr b hb i).mul _ _ (by simp), zero_add]

/-! ## C66 -/

/-- C66. In floating-point arithmetic without underflow, every basis function has a small relative error. -/
theorem C66_basis_error (hη : A.η = 0) (cfg : Cfg) (hmax : cfg.maxBinom ≤ 68) {V : Type} (s : Spline V) (hs : s.WF)
    (hd : ∀ p ∈ s.degrees, p < cfg.maxBinom) (t : List (Fl A)) (ht : t.length = s.dim) (h01 : ∀ x ∈ t, 0 ≤ x.val ∧ x.val ≤ 1) :
    ∃ l y, s.basisFunctions cfg t = .ok l ∧ s.basisFunctions cfg (t.map Fl.val) = .ok y ∧
      List.Forall₂ (fun a b => |a.val - b| ≤ ((1 + A.u) ^ (s.degrees.map (fun p => 2 * p + 4)).sum - 1) * b) l y := by
  have e := Spline.basisFunctions_ok (K := ℝ) (s := s) hmax hs.dim_pos hd (t := t.map Fl.val) (by rw [List.length_map]; exact ht)
  obtain ⟨l, e1, h1⟩ := basisFunctions_float (s := s) hη rfl hs.dim_pos h01 e
  exact ⟨l, _, e1, e, h1.imp fun _ _ h => h.2⟩

/-- C66. Error of `ForwardEvaluate` of a scalar spline. -/
theorem C66_forward_error (hη : A.η = 0) (cfg : Cfg) (hmax : cfg.maxBinom ≤ 68) (s : Spline (Fl A)) (hs : s.WF)
    (hd : ∀ p ∈ s.degrees, p < cfg.maxBinom) (t : List (Fl A)) (ht : t.length = s.dim) (h01 : ∀ x ∈ t, 0 ≤ x.val ∧ x.val ≤ 1)
    (M : ℝ) (hM : ∀ x ∈ s.cps, |x.val| ≤ M) :
    ∃ r y, s.forwardEvaluate cfg t = .ok r ∧ s.exact.forwardEvaluate cfg (t.map Fl.val) = .ok y ∧
      |r.val - y| ≤ ((1 + A.u) ^ ((s.degrees.map (fun p => 2 * p + 4)).sum + 1 + s.ncp) - 1) * M := by
  have hs' : s.exact.WF := ⟨hs.dim_pos, hs.ncp_eq, hs.offsets_eq, by simpa [Spline.exact] using hs.cps_len⟩
  obtain ⟨r, y, e1, e2, h⟩ := forward_float hη hmax hs' (s := s) rfl hd (by rw [List.length_map]; exact ht) h01 (ι := Unit)
    (co := fun x _ => x.val) (co' := fun x _ => x) (M := fun _ => M) (by simp) (by simp) (fun _ _ _ => rfl) (fun _ _ _ => rfl)
    (fun f c _ => A.mul_err f.val c.val) (fun _ _ _ => rfl) (by
      rw [Spline.exact, List.forall₂_map_right_iff, List.forall₂_same]
      exact fun x hx _ => ⟨rfl, hM x hx⟩)
  exact ⟨r, y, e1, e2, h ()⟩

/-- C66 for points. -/
theorem C66_forward_error_point (hη : A.η = 0) (cfg : Cfg) (hmax : cfg.maxBinom ≤ 68) {n : ℕ} (s : Spline (Point (Fl A) n))
    (hs : s.WF) (hd : ∀ p ∈ s.degrees, p < cfg.maxBinom) (t : List (Fl A)) (ht : t.length = s.dim)
    (h01 : ∀ x ∈ t, 0 ≤ x.val ∧ x.val ≤ 1) (M : Fin n → ℝ) (hM : ∀ x ∈ s.cps, ∀ i, |(x.val i).val| ≤ M i) :
    ∃ r y, s.forwardEvaluate cfg t = .ok r ∧ s.exactPoints.forwardEvaluate cfg (t.map Fl.val) = .ok y ∧
      ∀ i, |(r.val i).val - y.val i| ≤ ((1 + A.u) ^ ((s.degrees.map (fun p => 2 * p + 4)).sum + 1 + s.ncp) - 1) * M i := by
  have hs' : s.exactPoints.WF := ⟨hs.dim_pos, hs.ncp_eq, hs.offsets_eq, by simpa [Spline.exactPoints] using hs.cps_len⟩
  exact forward_float hη hmax hs' (s := s) rfl hd (by rw [List.length_map]; exact ht) h01
    (co := fun x i => (x.val i).val) (co' := fun x i => x.val i) (M := M) (fun _ => rfl) (fun _ => rfl) (fun _ _ _ => rfl)
    (fun _ _ _ => rfl)
    (fun f c i => by rw [mul_comm f.val]; exact A.mul_err (c.val i).val f.val) (fun f c i => mul_comm (c.val i) f) (by
      rw [Spline.exactPoints, List.forall₂_map_right_iff, List.forall₂_same]
      exact fun x hx i => ⟨rfl, hM x hx i⟩)

/-! ## Examples: arithmetic with 53 binary digits, which rounds (`FloatArith.binary_rounds`) -/

/-- a number with 53 binary digits -/
noncomputable abbrev F64 := Fl (FloatArith.binary 53)

noncomputable def exFl : Spline F64 := Ex.surf ⟨1⟩ ⟨-3⟩ ⟨1 / 8⟩ ⟨4⟩ ⟨5⟩ ⟨-2⟩

/-- degrees (2,1): the error is at most `10 · 2^-53 · 5`. -/
example : ∃ r y, exFl.evaluate [(⟨1 / 4⟩ : F64), ⟨3 / 8⟩] = .ok r ∧ exFl.exact.evaluate [(1 / 4 : ℝ), 3 / 8] = .ok y ∧
    |r.val - y| ≤ 10 * 2 ^ (-(53 : ℤ)) * 5 := by
  obtain ⟨r, y, h1, h2, h3⟩ := C64_evaluate_error exFl (Ex.surf_wf ..) [⟨1 / 4⟩, ⟨3 / 8⟩] rfl
    (by simp; norm_num) 5 (by simp [exFl, Ex.surf]; norm_num [abs_le])
  refine ⟨r, y, h1, h2, h3.trans ?_⟩
  simp only [exFl, Ex.surf, FloatArith.binary]
  norm_num

noncomputable def ptFl (x y : ℝ) : Point F64 2 := ⟨![⟨x⟩, ⟨y⟩]⟩
noncomputable def exFlP : Spline (Point F64 2) := Ex.surf (ptFl 1 0) (ptFl (-3) 2) (ptFl 1 (1 / 8)) (ptFl 4 1) (ptFl 5 2) (ptFl (-2) 2)

theorem exFlP_bound : ∀ x ∈ exFlP.cps, ∀ i, |(x.val i).val| ≤ ![(5 : ℝ), 2] i := by
  intro x hx i
  simp only [exFlP, Ex.surf, List.mem_cons, List.not_mem_nil, or_false] at hx
  rcases hx with rfl | rfl | rfl | rfl | rfl | rfl <;> fin_cases i <;> simp [ptFl, abs_le] <;> norm_num

example : ∃ r y, exFlP.evaluate [(⟨1 / 4⟩ : F64), ⟨3 / 8⟩] = .ok r ∧ exFlP.exactPoints.evaluate [(1 / 4 : ℝ), 3 / 8] = .ok y ∧
    ∀ i, |(r.val i).val - y.val i| ≤ ((1 + 2 ^ (-(53 : ℤ))) ^ (3 * 3) - 1) * ![(5 : ℝ), 2] i + 2 * (3 : ℕ) * (1 + 2 ^ (-(53 : ℤ))) ^ (3 * 3) * 0 :=
  C64_evaluate_error_point exFlP (Ex.surf_wf ..) [⟨1 / 4⟩, ⟨3 / 8⟩] rfl (by simp; norm_num) _ exFlP_bound

theorem exFl_representable : ∀ x ∈ exFl.cps, (FloatArith.binary 53).Representable x.val := by
  have hi : ∀ m e : ℤ, |m| < 2 ^ 53 → (FloatArith.binary 53).Representable (m * 2 ^ e) :=
    fun m e h => FloatArith.binary_representable h
  intro x hx
  simp only [exFl, Ex.surf, List.mem_cons, List.not_mem_nil, or_false] at hx
  rcases hx with rfl | rfl | rfl | rfl | rfl | rfl
  · have := hi 1 0 (by norm_num); norm_num at this; exact this
  · have := hi (-3) 0 (by norm_num); norm_num at this; exact this
  · have := hi 1 (-3) (by norm_num); norm_num at this ⊢; exact this
  · have := hi 4 0 (by norm_num); norm_num at this; exact this
  · have := hi 5 0 (by norm_num); norm_num at this; exact this
  · have := hi (-2) 0 (by norm_num); norm_num at this; exact this

theorem f64_zero : (FloatArith.binary 53).Representable 0 := by
  have := FloatArith.binary_representable (p := 53) (m := 0) (e := 0) (by norm_num)
  norm_num at this; exact this
theorem f64_one : (FloatArith.binary 53).Representable 1 := by
  have := FloatArith.binary_representable (p := 53) (m := 1) (e := 0) (by norm_num)
  norm_num at this; exact this

example : ∃ x, exFl.evaluate [(1 : F64), 0] = .ok x ∧ exFl.controlPoint [2, 0] = .ok x :=
  C65_corners exFl (Ex.surf_wf ..) f64_zero f64_one exFl_representable [true, false] rfl

example : ∃ r y, exFl.forwardEvaluate Ex.cfg [(⟨1 / 4⟩ : F64), ⟨3 / 8⟩] = .ok r ∧
    exFl.exact.forwardEvaluate Ex.cfg [(1 / 4 : ℝ), 3 / 8] = .ok y ∧ |r.val - y| ≤ 22 * 2 ^ (-(53 : ℤ)) * 5 := by
  obtain ⟨r, y, h1, h2, h3⟩ := C66_forward_error (A := FloatArith.binary 53) rfl Ex.cfg Ex.cfg_ok exFl (Ex.surf_wf ..) (by decide) [⟨1 / 4⟩, ⟨3 / 8⟩] rfl
    (by simp; norm_num) 5 (by simp [exFl, Ex.surf]; norm_num [abs_le])
  refine ⟨r, y, h1, h2, h3.trans ?_⟩
  simp only [exFl, Ex.surf, FloatArith.binary]
  norm_num

end Bezman.Props
