import Verif.Spec.Smooth
import Verif.Props.RConverge
import Verif.Props.RationalDeriv
import Mathlib.Analysis.Calculus.IteratedDeriv.Lemmas
import Mathlib.Analysis.Calculus.Deriv.CompMul

/-! # Properties: derivatives of the parts of a spline, and joints of parts (C112) -/

namespace Bezman.Props
open Spec Finset
variable {V : Type} [NormedAddCommGroup V] [NormedSpace ℝ V]

theorem boxScale_cons (I : ℝ × ℝ) (box : List (ℝ × ℝ)) (k : ℕ) (ks : List ℕ) :
    boxScale (I :: box) (k :: ks) = (I.2 - I.1) ^ k * boxScale box ks := by
  unfold boxScale
  rw [List.length_cons, Finset.prod_range_succ', mul_comm]
  simp [width]

/-- derivatives of a function of one variable over an interval -/
theorem iteratedDeriv_affine (g : ℝ → V) (c m : ℝ) : ∀ (n : ℕ), iteratedDeriv n (fun x => g (c + m * x)) = fun x => m ^ n • iteratedDeriv n g (c + m * x)
  | 0 => by simp
  | n + 1 => by
    rw [iteratedDeriv_succ, iteratedDeriv_affine g c m n]
    funext x
    have h1 : deriv (fun x => m ^ n • iteratedDeriv n g (c + m * x)) x = m ^ n • deriv (fun x => iteratedDeriv n g (c + m * x)) x :=
      deriv_const_smul_field (m ^ n) (fun x => iteratedDeriv n g (c + m * x))
    rw [h1, deriv_comp_mul_left m (fun y => iteratedDeriv n g (c + y)) x, deriv_comp_const_add, ← iteratedDeriv_succ, smul_smul, pow_succ]

/-- mixed derivatives of a function over a box -/
theorem pderiv_inBox : ∀ (box : List (ℝ × ℝ)) (k : List ℕ) (f : List ℝ → V) (t : List ℝ), k.length = box.length → t.length = box.length →
    pderiv k (fun t => f (inBox box t)) t = boxScale box k • pderiv k f (inBox box t)
  | [], [], f, [], _, _ => by simp [pderiv, boxScale]
  | I :: box, k :: ks, f, t :: ts, hk, ht => by
    have ih := fun y : ℝ => pderiv_inBox box ks (fun xs => f (y :: xs)) ts (by simpa using hk) (by simpa using ht)
    show iteratedDeriv k (fun x => pderiv ks (fun xs => f ((I.1 + (I.2 - I.1) * x) :: inBox box xs)) ts) t =
      boxScale (I :: box) (k :: ks) • iteratedDeriv k (fun x => pderiv ks (fun xs => f (x :: xs)) (inBox box ts)) (I.1 + (I.2 - I.1) * t)
    have e : (fun x => pderiv ks (fun xs => f ((I.1 + (I.2 - I.1) * x) :: inBox box xs)) ts) =
        fun x => boxScale box ks • pderiv ks (fun xs => f ((I.1 + (I.2 - I.1) * x) :: xs)) (inBox box ts) := funext fun x => ih _
    rw [e, iteratedDeriv_fun_const_smul_field, iteratedDeriv_affine (fun y => pderiv ks (fun xs => f (y :: xs)) (inBox box ts)), boxScale_cons,
      smul_smul, mul_comm]

theorem inBox_length {box : List (ℝ × ℝ)} {t : List ℝ} (h : t.length = box.length) : (inBox box t).length = box.length := by
  simp [inBox, h]

theorem boxScale_pos {box : List (ℝ × ℝ)} (h : ∀ I ∈ box, 0 ≤ I.1 ∧ I.1 < I.2 ∧ I.2 ≤ 1) (k : List ℕ) : 0 < boxScale box k := by
  refine Finset.prod_pos fun d hd => pow_pos ?_ _
  have hd' := Finset.mem_range.mp hd
  unfold width
  rw [List.getD_eq_getElem?_getD, List.getElem?_eq_getElem hd', Option.getD_some]
  have := (h _ (List.getElem_mem hd')).2.1
  linarith

/-- C112. The derivatives of a part, made by any splits and elevations: those of the whole spline at the corresponding parameter, times the widths of
the box to the powers of the orders. -/
theorem C112_part (cfg : Cfg) (hmax : cfg.maxBinom ≤ 68) (s : Spline V) (hs : s.WF) (hdeg : ∀ p ∈ s.degrees, p < cfg.maxBinom)
    (box : List (ℝ × ℝ)) (a : Spline V) (h : PartOf s box a) (hdeg' : ∀ p ∈ a.degrees, p < cfg.maxBinom) (k : List ℕ) (hk : k.length = s.dim)
    (t : List ℝ) (ht : t.length = s.dim) :
    ∃ x, s.evaluateDerivative cfg (inBox box t) k = .ok x ∧ a.evaluateDerivative cfg t k = .ok (boxScale box k • x) ∧ 0 < boxScale box k := by
  obtain ⟨h1, h2, h3, h4⟩ := C100_part s _ (hs.computes (K := ℝ)) box a h
  have ht' : t.length = box.length := by rw [h2]; exact ht
  refine ⟨_, C14_evaluate_derivative cfg hmax s _ _ (hs.computes (K := ℝ)) hdeg k hk (inBox box t) (by rw [inBox_length ht', h2]), ?_,
    boxScale_pos h3 k⟩
  rw [C14_evaluate_derivative cfg hmax a _ _ h4 hdeg' k (by rw [h1]; exact hk) t (by rw [h1]; exact ht),
    pderiv_inBox box k _ t (by rw [h2]; exact hk) ht']

/-- C112. Smooth joints: where two parts of the same spline meet, their derivatives of all orders agree up to the widths of the boxes. -/
theorem C112_joint (cfg : Cfg) (hmax : cfg.maxBinom ≤ 68) (s : Spline V) (hs : s.WF) (hdeg : ∀ p ∈ s.degrees, p < cfg.maxBinom)
    (box box' : List (ℝ × ℝ)) (a a' : Spline V) (h : PartOf s box a) (h' : PartOf s box' a') (hda : ∀ p ∈ a.degrees, p < cfg.maxBinom)
    (hda' : ∀ p ∈ a'.degrees, p < cfg.maxBinom) (k : List ℕ) (hk : k.length = s.dim) (t t' : List ℝ) (ht : t.length = s.dim)
    (ht' : t'.length = s.dim) (hj : inBox box t = inBox box' t') :
    ∃ y y', a.evaluateDerivative cfg t k = .ok y ∧ a'.evaluateDerivative cfg t' k = .ok y' ∧ boxScale box' k • y = boxScale box k • y' := by
  obtain ⟨x, e1, e2, _⟩ := C112_part cfg hmax s hs hdeg box a h hda k hk t ht
  obtain ⟨x', e3, e4, _⟩ := C112_part cfg hmax s hs hdeg box' a' h' hda' k hk t' ht'
  rw [hj, e3] at e1
  obtain rfl := Except.ok.inj e1
  exact ⟨_, _, e2, e4, by rw [smul_smul, smul_smul, mul_comm]⟩

/-- C112. The derivative spline of a part traces the part of the derivative spline, times the widths. -/
theorem C112_derivative_spline (cfg : Cfg) (hmax : cfg.maxBinom ≤ 68) (s : Spline V) (hs : s.WF) (box : List (ℝ × ℝ)) (a : Spline V)
    (h : PartOf s box a) (k : List ℕ) (hk : k.length = s.dim) (hle : ∀ (d o p : ℕ), k[d]? = some o → s.degrees[d]? = some p → o ≤ p)
    (hle' : ∀ (d o p : ℕ), k[d]? = some o → a.degrees[d]? = some p → o ≤ p) (hord : ∀ o ∈ k, o < cfg.maxBinom)
    (hsize : size s.degrees < 2 ^ 64) (hsize' : size a.degrees < 2 ^ 64) (t : List ℝ) (ht : t.length = s.dim) :
    ∃ r ra x, Spline.derivativeSpline ℝ cfg s k = .ok r ∧ Spline.derivativeSpline ℝ cfg a k = .ok ra ∧ r.evaluate (inBox box t) = .ok x ∧
      ra.evaluate t = .ok (boxScale box k • x) := by
  obtain ⟨h1, h2, h3, h4⟩ := C100_part s _ (hs.computes (K := ℝ)) box a h
  have ht' : t.length = box.length := by rw [h2]; exact ht
  obtain ⟨r, e, cr⟩ := C13_derivative_spline cfg hmax s _ _ (hs.computes (K := ℝ)) k hk hle hord hsize
  obtain ⟨ra, e', cra⟩ := C13_derivative_spline cfg hmax a _ _ h4 k (by rw [h1]; exact hk) hle' hord hsize'
  have hk1 : k.length = s.degrees.length := hk
  refine ⟨r, ra, _, e, e', cr.eval (inBox box t) (by rw [inBox_length ht', h2]; simp [hk1]), ?_⟩
  rw [cra.eval t (by rw [List.length_zipWith, h1, hk1, Nat.min_self]; exact ht), pderiv_inBox box k _ t (by rw [h2]; exact hk) ht']

variable [ScalarDiv ℝ V] [LawfulScalarDiv ℝ V]

/-- C112 for rational splines, wherever the weight is not zero. -/
theorem C112_rational_part (cfg : Cfg) (hmax : cfg.maxBinom ≤ 68) (r : RSpline ℝ V) (ds : List ℕ) (f : List ℝ → V) (w : List ℝ → ℝ)
    (hr : r.Computes ds f w) (hdeg : ∀ p ∈ ds, p < cfg.maxBinom) (box : List (ℝ × ℝ)) (a : RSpline ℝ V) (h : RPartOf r box a)
    (hdeg' : ∀ p ∈ a.num.degrees, p < cfg.maxBinom) (k : List ℕ) (hk : k.length = ds.length) (hord : ∀ x ∈ k, x < cfg.maxBinom)
    (hfit : BinomFits k) (t : List ℝ) (ht : t.length = ds.length) (h0 : w (inBox box t) ≠ 0) :
    ∃ x, r.evaluateDerivative cfg (inBox box t) k = .ok x ∧ a.evaluateDerivative cfg t k = .ok (boxScale box k • x) ∧ 0 < boxScale box k := by
  obtain ⟨h1, h2, h3, h4⟩ := C110_part r ds f w hr box a h
  have ht' : t.length = box.length := by rw [h2]; exact ht
  refine ⟨_, C42_evaluate_derivative cfg hmax r ds f w hr hdeg k hk hord hfit (inBox box t) (by rw [inBox_length ht', h2]) h0, ?_,
    boxScale_pos h3 k⟩
  rw [C42_evaluate_derivative cfg hmax a _ _ _ h4 hdeg' k (by rw [h1]; exact hk) hord hfit t (by rw [h1]; exact ht) h0,
    pderiv_inBox box k f t (by rw [h2]; exact hk) ht']

/-- C112. Smooth joints of parts of a rational spline. -/
theorem C112_rational_joint (cfg : Cfg) (hmax : cfg.maxBinom ≤ 68) (r : RSpline ℝ V) (ds : List ℕ) (f : List ℝ → V) (w : List ℝ → ℝ)
    (hr : r.Computes ds f w) (hdeg : ∀ p ∈ ds, p < cfg.maxBinom) (box box' : List (ℝ × ℝ)) (a a' : RSpline ℝ V) (h : RPartOf r box a)
    (h' : RPartOf r box' a') (hda : ∀ p ∈ a.num.degrees, p < cfg.maxBinom) (hda' : ∀ p ∈ a'.num.degrees, p < cfg.maxBinom) (k : List ℕ)
    (hk : k.length = ds.length) (hord : ∀ x ∈ k, x < cfg.maxBinom) (hfit : BinomFits k) (t t' : List ℝ) (ht : t.length = ds.length)
    (ht' : t'.length = ds.length) (hj : inBox box t = inBox box' t') (h0 : w (inBox box t) ≠ 0) :
    ∃ y y', a.evaluateDerivative cfg t k = .ok y ∧ a'.evaluateDerivative cfg t' k = .ok y' ∧ boxScale box' k • y = boxScale box k • y' := by
  obtain ⟨x, e1, e2, _⟩ := C112_rational_part cfg hmax r ds f w hr hdeg box a h hda k hk hord hfit t ht h0
  obtain ⟨x', e3, e4, _⟩ := C112_rational_part cfg hmax r ds f w hr hdeg box' a' h' hda' k hk hord hfit t' ht' (by rw [← hj]; exact h0)
  rw [hj, e3] at e1
  obtain rfl := Except.ok.inj e1
  exact ⟨_, _, e2, e4, by rw [smul_smul, smul_smul, mul_comm]⟩

end Bezman.Props
