import Verif.Spec.Wide
import Verif.Proofs.Wide
import Verif.Props.FloatArith

/-! # Properties: coordinates wider than `double` -/

namespace Bezman.Props
open Spec Finset

/-! ## C88 -/

section
variable {K : Type} [Zero K] [One K] [Add K] [Sub K] [Mul K] [Neg K] [Div K] [NatCast K] {n : ℕ}

/-- C88. For scalars that the conversion to `double` keeps (all of them for `double` and `float`) the functions which multiply from the left are those
of the other theorems. -/
theorem C88_narrow (conv : K → K) (h : ∀ x, conv x = x) (cfg : Cfg) (s : Spline (Point K n)) (c : Spline K) (t : List K) (k : List ℕ) :
    s.forwardEvaluateWide conv cfg t = s.forwardEvaluate cfg t ∧
    s.evaluateDerivativeWide conv cfg t k = s.evaluateDerivative cfg t k ∧
    c.mulLeftWide conv cfg s = Spline.mulOp K cfg (fun c v => c • v) c s := by
  obtain rfl : conv = id := funext h
  refine ⟨?_, ?_, rfl⟩
  · simp only [Spline.forwardEvaluateWide, Spline.forwardEvaluate, List.map_id]
  · simp only [Spline.evaluateDerivativeWide, Spline.evaluateDerivative, List.map_id]

omit [Div K] in
theorem bernsteinEvaluateDerivative_zero (cfg : Cfg) (p : ℕ) (x : K) : bernsteinEvaluateDerivative cfg p x 0 = bernsteinEvaluate cfg p x := by
  unfold bernsteinEvaluateDerivative
  by_cases h : p < cfg.maxBinom
  · have : assertM (decide (p < cfg.maxBinom)) = .ok ⟨⟩ := by unfold assertM; rw [if_pos (by simpa using h)]
    rw [this]
    simp only [bind_ok, Nat.not_lt_zero, if_false, if_true]
  · have : assertM (decide (p < cfg.maxBinom)) = .error .assertFail := by unfold assertM; rw [if_neg (by simpa using h)]
    unfold bernsteinEvaluate
    rw [this]; rfl

omit [Div K] in
theorem basisFunctionsDerivatives_zero {V : Type} (cfg : Cfg) (s : Spline V) (t : List K) :
    s.basisFunctionsDerivatives cfg t (List.replicate s.dim 0) = s.basisFunctions cfg t := by
  unfold Spline.basisFunctionsDerivatives Spline.basisFunctions
  have : s.basisFunctionsDerivativeContributions cfg t (List.replicate s.dim 0) = s.basisFunctionContributions cfg t := by
    unfold Spline.basisFunctionsDerivativeContributions Spline.basisFunctionContributions
    refine loop_congr fun d hd r => ?_
    have e : rd (List.replicate s.dim 0) d = .ok 0 := by unfold rd; rw [List.getElem?_replicate, if_pos hd]
    simp only [e, bind_ok, bernsteinEvaluateDerivative_zero]
  rw [this]

/-- C88. In every arithmetic, and whatever the conversion does, `EvaluateDerivative` with all orders zero is `ForwardEvaluate`. -/
theorem C88_derivative_zero (conv : K → K) (cfg : Cfg) (s : Spline (Point K n)) (t : List K) :
    s.evaluateDerivativeWide conv cfg t (List.replicate s.dim 0) = s.forwardEvaluateWide conv cfg t ∧
    s.evaluateDerivative cfg t (List.replicate s.dim 0) = s.forwardEvaluate cfg t := by
  unfold Spline.evaluateDerivativeWide Spline.forwardEvaluateWide Spline.evaluateDerivative Spline.forwardEvaluate
  rw [basisFunctionsDerivatives_zero]
  exact ⟨rfl, rfl⟩

/-- C88. The product of a scalar-valued with a point-valued spline is the product with the converted control values. -/
theorem C88_product (conv : K → K) (cfg : Cfg) (c : Spline K) (s : Spline (Point K n)) :
    c.mulLeftWide conv cfg s = Spline.mulOp K cfg (fun c v => c • v) (convCps conv c) s :=
  mulOp_conv conv cfg (fun c v => c • v) c s

end

/-- C88 (partial). A conversion with the relative error of `m` operations of the wide type (2048 for 64 digits) adds `m` to the number of roundings in the error bound of
`ForwardEvaluate`. Missing: the bound of C66 itself, which is false, see below. -/
theorem C88_forward_error_partial {A : FloatArith} (hη : A.η = 0) (cfg : Cfg) (hmax : cfg.maxBinom ≤ 68) {n : ℕ} (conv : Fl A → Fl A) (m : ℕ)
    (hconv : ∀ x, |(conv x).val - x.val| ≤ ((1 + A.u) ^ m - 1) * |x.val|) (s : Spline (Point (Fl A) n))
    (hs : s.WF) (hd : ∀ p ∈ s.degrees, p < cfg.maxBinom) (t : List (Fl A)) (ht : t.length = s.dim)
    (h01 : ∀ x ∈ t, 0 ≤ x.val ∧ x.val ≤ 1) (M : Fin n → ℝ) (hM : ∀ x ∈ s.cps, ∀ i, |(x.val i).val| ≤ M i) :
    ∃ r y, s.forwardEvaluateWide conv cfg t = .ok r ∧ s.exactPoints.forwardEvaluate cfg (t.map Fl.val) = .ok y ∧
      ∀ i, |(r.val i).val - y.val i|
        ≤ ((1 + A.u) ^ ((s.degrees.map (fun p => 2 * p + 4)).sum + m + 1 + s.ncp) - 1) * M i := by
  have hs' : s.exactPoints.WF := ⟨hs.dim_pos, hs.ncp_eq, hs.offsets_eq, by simpa [Spline.exactPoints] using hs.cps_len⟩
  have ht' : (t.map Fl.val).length = s.exactPoints.dim := by rw [List.length_map]; exact ht
  have e := Spline.basisFunctions_ok (K := ℝ) (s := s.exactPoints) hmax hs'.dim_pos hd ht'
  have e2 := Spline.forwardEvaluate_ok (K := ℝ) hmax hs' hd ht'
  obtain ⟨l, e1, h1⟩ := basisFunctions_float (s := s) hη rfl hs'.dim_pos h01 e
  have e3 := e2
  unfold Spline.forwardEvaluate at e3
  rw [e] at e3
  obtain ⟨v, f1, f2⟩ := weightedSum_float (A := A) hη (V := Point (Fl A) n) (V' := Point ℝ n) (co := fun x i => (x.val i).val)
    (co' := fun x i => x.val i) (M := M) (fun _ => rfl) (fun _ => rfl) (fun _ _ _ => rfl) (fun _ _ _ => rfl)
    (fun f c i => by rw [mul_comm f.val]; exact A.mul_err (c.val i).val f.val) (fun f c i => mul_comm (c.val i) f)
    (R := basisOps s.degrees + m) (fs := l.map conv)
    (by rw [List.forall₂_map_left_iff]; exact h1.imp fun _ _ h => h.conv hconv) (cs := s.cps) (by
      rw [Spline.exactPoints, List.forall₂_map_right_iff, List.forall₂_same]
      exact fun x hx i => ⟨rfl, hM x hx i⟩) e3
  refine ⟨v, _, ?_, e2, fun i => ?_⟩
  · unfold Spline.forwardEvaluateWide
    rw [e1]; exact f1
  · have := f2 i
    rwa [tab_length, list_sum_tab, sum_pw_bern ht', one_mul, ← hs'.ncp_eq] at this

/-! ### The bounds of the other theorems fail for the wider type -/

noncomputable def ptF80 (x : ℝ) : Point F80 1 := ⟨fun _ => ⟨x⟩⟩
/-- the straight line from 0 to 1 -/
noncomputable def lineF80 : Spline (Point F80 1) := ⟨[1], 2, [1], [ptF80 0, ptF80 1]⟩
/-- `1/2 + 2^-55`, a number with 55 binary digits -/
noncomputable def tF80 : F80 := ⟨1 / 2 + 2 ^ (-(55 : ℤ))⟩

theorem lineF80_wf : lineF80.WF := ⟨by decide, rfl, rfl, rfl⟩

/-- C88: the error bound of C66 is false for points with 64 digits: on the line from 0 to 1, `ForwardEvaluate` at `1/2 + 2^-55` returns `1/2`. -/
theorem C88_forward_fails :
    ∃ (s : Spline (Point F80 1)) (t : List F80) (r : Point F80 1) (y : Point ℝ 1), s.WF ∧ t.length = s.dim ∧
      (∀ x ∈ t, (FloatArith.binary 64).Representable x.val ∧ 0 ≤ x.val ∧ x.val ≤ 1) ∧
      (∀ x ∈ s.cps, ∀ i, (FloatArith.binary 64).Representable (x.val i).val ∧ |(x.val i).val| ≤ 1) ∧
      s.forwardEvaluateWide toDouble Ex.cfg t = .ok r ∧ s.exactPoints.forwardEvaluate Ex.cfg (t.map Fl.val) = .ok y ∧
      ((1 + (FloatArith.binary 64).u) ^ ((s.degrees.map (fun p => 2 * p + 4)).sum + 1 + s.ncp) - 1) * 1 < |(r.val 0).val - y.val 0| := by
  have hdeg : Spline.DegOk Ex.cfg lineF80.exactPoints.degrees := fun p hp => (by decide : ∀ p ∈ [1], p < Ex.cfg.maxBinom) p hp
  have e := Spline.basisFunctions_ok (K := ℝ) (cfg := Ex.cfg) (s := lineF80.exactPoints) Ex.cfg_ok (by decide) hdeg (t := [tF80.val]) rfl
  obtain ⟨l, e1, h1⟩ := basisFunctions_float (A := FloatArith.binary 64) (s := lineF80) (t := [tF80]) rfl rfl (by decide)
    (by simp [tF80]; norm_num) e
  have hl : tab (size lineF80.exactPoints.degrees) (fun n => pw (bernFns lineF80.exactPoints.degrees [tF80.val]) (unflat lineF80.exactPoints.degrees n))
      = [1 - tF80.val, tF80.val] := by
    show tab 2 (fun n => pw (bernFns [1] [tF80.val]) (unflat [1] n)) = _
    simp [tab, unflat, bern, bernFns, List.range_succ]
  rw [hl] at e h1
  have hy : lineF80.exactPoints.forwardEvaluate Ex.cfg [tF80.val] = .ok ⟨fun _ => tF80.val⟩ := by
    unfold Spline.forwardEvaluate
    rw [e]
    have : (0 : Point ℝ 1) + (1 - tF80.val) • (⟨fun _ => 0⟩ : Point ℝ 1) + tF80.val • (⟨fun _ => 1⟩ : Point ℝ 1) = ⟨fun _ => tF80.val⟩ := by
      apply Point.ext
      funext i
      show 0 + 0 * (1 - tF80.val) + 1 * tF80.val = tF80.val
      ring
    rw [← this]
    rfl
  obtain ⟨a, l', ha, hl', rfl⟩ := List.forall₂_cons_right_iff.mp h1
  obtain ⟨b, l'', hb, hl'', rfl⟩ := List.forall₂_cons_right_iff.mp hl'
  obtain rfl := List.forall₂_nil_right_iff.mp hl''
  have hb' : (toDouble b).val = 1 / 2 := by
    have h2 := hb.2
    have ev : basisOps lineF80.degrees = 6 := rfl
    rw [ev, abs_le] at h2
    have hu : (FloatArith.binary 64).u = 2 ^ (-(64 : ℤ)) := rfl
    have hc : ((1 + (FloatArith.binary 64).u) ^ 6 - 1) * tF80.val ≤ 2 ^ (-(60 : ℤ)) := by
      rw [hu, tF80]; norm_num
    have ht : tF80.val = 1 / 2 + 2 ^ (-(55 : ℤ)) := rfl
    rw [ht] at h2 hc
    apply rndBin_half
    · have : (2 : ℝ) ^ (-(60 : ℤ)) ≤ 2 ^ (-(55 : ℤ)) := by norm_num
      linarith
    · have : (2 : ℝ) ^ (-(55 : ℤ)) + 2 ^ (-(60 : ℤ)) ≤ 3 / 8 * 2 ^ (-(53 : ℤ)) := by norm_num
      linarith
  have h0 : rndBin 64 0 = 0 := by simp [rndBin]
  have hh : rndBin 64 (1 / 2) = 1 / 2 := by
    have := rndBin_exact (p := 64) (m := 1) (e := -1) (by norm_num)
    norm_num at this ⊢; exact this
  have hr : lineF80.forwardEvaluateWide toDouble Ex.cfg [tF80] = .ok (ptF80 (1 / 2)) := by
    unfold Spline.forwardEvaluateWide
    rw [e1]
    show Spline.weightedSum [toDouble a, toDouble b] [ptF80 0, ptF80 1] = _
    have : (0 : Point F80 1) + toDouble a • ptF80 0 + toDouble b • ptF80 1 = ptF80 (1 / 2) := by
      apply Point.ext
      funext i
      apply Fl.ext
      show rndBin 64 (rndBin 64 (0 + rndBin 64 (0 * (toDouble a).val)) + rndBin 64 (1 * (toDouble b).val)) = 1 / 2
      rw [zero_mul, h0, add_zero, h0, zero_add, one_mul, hb', hh, hh]
    rw [← this]
    rfl
  have hrep : ∀ m e : ℤ, |m| < 2 ^ 64 → (FloatArith.binary 64).Representable (m * 2 ^ e) :=
    fun m e h => FloatArith.binary_representable h
  refine ⟨lineF80, [tF80], _, _, lineF80_wf, rfl, ?_, ?_, hr, hy, ?_⟩
  · simp only [List.mem_singleton, forall_eq]
    refine ⟨?_, ?_, ?_⟩
    · have := hrep (2 ^ 54 + 1) (-55) (by norm_num)
      have e : (1 : ℝ) / 2 + 2 ^ (-(55 : ℤ)) = ((2 ^ 54 + 1 : ℤ) : ℝ) * 2 ^ (-55 : ℤ) := by norm_num
      rw [tF80, e]; exact this
    · simp only [tF80]; positivity
    · simp only [tF80]; norm_num
  · have r0 := hrep 0 0 (by norm_num)
    have r1 := hrep 1 0 (by norm_num)
    norm_num at r0 r1
    intro x hx i
    simp only [lineF80, List.mem_cons, List.not_mem_nil, or_false] at hx
    rcases hx with rfl | rfl
    · exact ⟨r0, by simp [ptF80]⟩
    · exact ⟨r1, by simp [ptF80]⟩
  · show ((1 + (2 : ℝ) ^ (-(64 : ℤ))) ^ (6 + 1 + 2) - 1) * 1 < |1 / 2 - (1 / 2 + 2 ^ (-(55 : ℤ)))|
    rw [sub_add_cancel_left, abs_neg, abs_of_pos (by positivity)]
    norm_num

/-- C88: so the error of `EvaluateDerivative` is that of the narrow type as well, here for order 0. -/
theorem C88_derivative_fails :
    ∃ (s : Spline (Point F80 1)) (t : List F80) (r : Point F80 1) (y : Point ℝ 1), s.WF ∧ t.length = s.dim ∧
      (∀ x ∈ t, (FloatArith.binary 64).Representable x.val ∧ 0 ≤ x.val ∧ x.val ≤ 1) ∧
      (∀ x ∈ s.cps, ∀ i, (FloatArith.binary 64).Representable (x.val i).val ∧ |(x.val i).val| ≤ 1) ∧
      s.evaluateDerivativeWide toDouble Ex.cfg t (List.replicate s.dim 0) = .ok r ∧
      s.exactPoints.evaluateDerivative Ex.cfg (t.map Fl.val) (List.replicate s.dim 0) = .ok y ∧
      ((1 + (FloatArith.binary 64).u) ^ ((s.degrees.map (fun p => 2 * p + 4)).sum + 1 + s.ncp) - 1) * 1 < |(r.val 0).val - y.val 0| := by
  obtain ⟨s, t, r, y, h1, h2, h3, h4, h5, h6, h7⟩ := C88_forward_fails
  exact ⟨s, t, r, y, h1, h2, h3, h4, (C88_derivative_zero toDouble Ex.cfg s t).1.trans h5,
    (C88_derivative_zero id Ex.cfg s.exactPoints (t.map Fl.val)).2.trans h6, h7⟩

/-- a spline of degree 0 with the value `1 + 2^-60` -/
noncomputable def scaleF80 : Spline F80 := ⟨[0], 1, [1], [⟨1 + 2 ^ (-(60 : ℤ))⟩]⟩
/-- the constant point 1 -/
noncomputable def oneF80 : Spline (Point F80 1) := ⟨[0], 1, [1], [ptF80 1]⟩

/-- C88: the product depends on the order of the operands: `1 + 2^-60` times the point 1 is 1, and the point times `1 + 2^-60` is `1 + 2^-60`. -/
theorem C88_product_fails :
    (∃ r, scaleF80.mulLeftWide toDouble Ex.cfg oneF80 = .ok r ∧ r.cps = [ptF80 1]) ∧
    (∃ r, Spline.mulOp F80 Ex.cfg (fun (v : Point F80 1) c => c • v) oneF80 scaleF80 = .ok r ∧ r.cps = [ptF80 (1 + 2 ^ (-(60 : ℤ)))]) := by
  have h1 : rndBin 64 1 = 1 := by
    have := rndBin_exact (p := 64) (m := 1) (e := 0) (by norm_num)
    norm_num at this ⊢; exact this
  have hx : rndBin 64 (1 + 2 ^ (-(60 : ℤ))) = 1 + 2 ^ (-(60 : ℤ)) := by
    have := rndBin_exact (p := 64) (m := 2 ^ 60 + 1) (e := -60) (by norm_num)
    have e : (1 : ℝ) + 2 ^ (-(60 : ℤ)) = ((2 ^ 60 + 1 : ℤ) : ℝ) * 2 ^ (-60 : ℤ) := by norm_num
    rw [e]; exact this
  have key : ∀ x : ℝ, rndBin 64 x = x → (0 : Point F80 1) + (((1 : ℕ) : F80) / ((1 : ℕ) : F80)) • ((1 : F80) • ptF80 x) = ptF80 x := by
    intro x hx
    apply Point.ext
    funext i
    apply Fl.ext
    show rndBin 64 (0 + rndBin 64 (rndBin 64 (x * 1) * rndBin 64 (rndBin 64 ((1 : ℕ) : ℝ) / rndBin 64 ((1 : ℕ) : ℝ)))) = x
    rw [Nat.cast_one, h1, div_one, h1, mul_one, mul_one, hx, hx, zero_add, hx]
  have hp : ∀ x : F80, rndBin 64 x.val = x.val → x • ptF80 1 = ptF80 x.val := by
    intro x hx
    apply Point.ext
    funext i
    apply Fl.ext
    show rndBin 64 (1 * x.val) = x.val
    rw [one_mul, hx]
  have hc : toDouble ⟨1 + 2 ^ (-(60 : ℤ))⟩ = ⟨1⟩ := Fl.ext rndBin_one
  constructor
  · refine ⟨_, mulOp_constant Ex.cfg_ok (by decide) _ _ _, ?_⟩
    show [_] = _
    rw [hc, hp ⟨1⟩ h1, key _ h1]
  · refine ⟨_, mulOp_constant Ex.cfg_ok (by decide) _ _ _, ?_⟩
    show [_] = _
    rw [hp ⟨_⟩ hx, key _ hx]

/-! ### Examples -/

/-- 53 digits instead of 64: the error of 2048 roundings -/
theorem toDouble_err (x : F80) : |(toDouble x).val - x.val| ≤ ((1 + (FloatArith.binary 64).u) ^ 2048 - 1) * |x.val| := by
  refine (rndBin_err 53 x.val).trans (mul_le_mul_of_nonneg_right ?_ (abs_nonneg _))
  have h : ∀ z : ℝ, 1 + ((2048 : ℕ) : ℝ) * 2 ^ (-(64 : ℤ)) ≤ z → (2 : ℝ) ^ (-(53 : ℤ)) ≤ z - 1 := by
    intro z hz; norm_num at hz ⊢; linarith
  exact h _ (one_add_mul_le_pow (a := (2 : ℝ) ^ (-(64 : ℤ))) (by norm_num) 2048)

example : ∃ r y, lineF80.forwardEvaluateWide toDouble Ex.cfg [tF80] = .ok r ∧
    lineF80.exactPoints.forwardEvaluate Ex.cfg [tF80.val] = .ok y ∧
    ∀ i, |(r.val i).val - y.val i| ≤ ((1 + (FloatArith.binary 64).u) ^ (6 + 2048 + 1 + 2) - 1) * 1 :=
  C88_forward_error_partial (A := FloatArith.binary 64) rfl Ex.cfg Ex.cfg_ok toDouble 2048 toDouble_err lineF80 lineF80_wf (by decide) [tF80] rfl
    (by simp [tF80]; norm_num) (fun _ => 1) (by simp [lineF80, ptF80])

example : lineF80.forwardEvaluateWide id Ex.cfg [tF80] = lineF80.forwardEvaluate Ex.cfg [tF80] :=
  (C88_narrow id (fun _ => rfl) Ex.cfg lineF80 scaleF80 [tF80] [1]).1

example : lineF80.evaluateDerivativeWide toDouble Ex.cfg [tF80] [0] = lineF80.forwardEvaluateWide toDouble Ex.cfg [tF80] :=
  (C88_derivative_zero toDouble Ex.cfg lineF80 [tF80]).1

example : scaleF80.mulLeftWide toDouble Ex.cfg lineF80
    = Spline.mulOp F80 Ex.cfg (fun c v => c • v) ⟨[0], 1, [1], [toDouble ⟨1 + 2 ^ (-(60 : ℤ))⟩]⟩ lineF80 :=
  C88_product toDouble Ex.cfg scaleF80 lineF80

end Bezman.Props
