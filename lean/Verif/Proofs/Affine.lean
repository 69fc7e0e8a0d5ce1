import Verif.Spec.Affine
import Verif.Proofs.Coordinates
import Verif.Proofs.ScalarMap
import Verif.Proofs.ParamREval
import Verif.Proofs.Unique
import Verif.Props.Rational

set_option linter.unusedSectionVars false

/-! # Maps of points and operations of splines -/

namespace Bezman
open Spec

section
variable {K V V' W : Type} [Zero K] [One K] [Add K] [Sub K] [Mul K] [Neg K] [Div K] [NatCast K]
  [Zero V] [Add V] [Sub V] [Neg V] [SMul K V] [Zero V'] [Add V'] [Sub V'] [Neg V'] [SMul K V'] {L : V → V'}

theorem parPointLinear (h : LinearOn K L) : letI := parSame K; letI := parMap L; ParPoint K K V V' :=
  letI := parSame K
  letI := parMap L
  { zero := h.zero
    add := fun {a b a' b'} h1 h2 => by
      obtain rfl : L a = a' := h1
      obtain rfl : L b = b' := h2
      exact h.add a b
    sub := fun {a b a' b'} h1 h2 => by
      obtain rfl : L a = a' := h1
      obtain rfl : L b = b' := h2
      exact h.sub a b
    neg := fun {a a'} h1 => by
      obtain rfl : L a = a' := h1
      exact h.neg a
    smul := fun {c c' a a'} h1 h2 => by
      obtain rfl : c = c' := h1
      obtain rfl : L a = a' := h2
      exact h.smul c a }

theorem parCoordsSame [Coords K W] : letI := parSame K; letI := parSame W; ParCoords K K W W :=
  letI := parSame K
  letI := parSame W
  { n_eq := rfl
    coord := fun {a a'} h i _ _ => by
      obtain rfl : a = a' := h
      exact (rfl : _ = _)
    ofCoords := fun {f f'} h => congrArg _ (funext fun i => h i.1 i.2 i.2) }

end

section
open Finset Polynomial
variable {K V V' : Type} [Field K] [CharZero K] [AddCommGroup V] [Module K V] [AddCommGroup V'] [Module K V']

theorem sum_dB_succ (p k : ℕ) (t : K) : ∑ i ∈ range (p + 1), dB p (k + 1) i t = 0 := by
  unfold dB
  rw [← eval_finsetSum, ← iterate_derivative_sum, bernsteinPolynomial.sum, Function.iterate_succ_apply, derivative_one, iterate_derivative_zero, eval_zero]

/-- A derivative of a constant control net. -/
theorem tens_dFns_const : ∀ {ps ks : List ℕ} {ts : List K} (_ : ks.length = ps.length) (_ : ts.length = ps.length)
    (_ : ∃ k ∈ ks, 0 < k) (v : V), tens ps (Spline.dFns ps ks ts) (fun _ => v) = 0
  | [], ks, ts, h1, h2, h, v => by simp_all
  | p :: ps, [], ts, h1, h2, h, v => by simp at h1
  | p :: ps, k :: ks, [], h1, h2, h, v => by simp at h2
  | p :: ps, k :: ks, t :: ts, h1, h2, h, v => by
    simp only [Spline.dFns, tens_cons]
    rw [← sum_smul]
    cases k with
    | succ k => rw [sum_dB_succ, zero_smul]
    | zero =>
      rw [tens_dFns_const (by simpa using h1) (by simpa using h2) (by simpa using h), smul_zero]

theorem tens_linear (f : V →ₗ[K] V') (ps : List ℕ) (bs : List (ℕ → K)) (F : ℕ → V) :
    tens ps bs (fun j => f (F j)) = f (tens ps bs F) := by
  induction ps generalizing bs F with
  | nil => simp
  | cons p ps ih =>
    cases bs with
    | nil => simp [tens]
    | cons b bs => simp only [tens_cons, map_sum, map_smul, ih]

theorem linearOn_linear (f : V →ₗ[K] V') : LinearOn K f := ⟨map_zero f, map_add f, map_sub f, map_neg f, map_smul f⟩

theorem Spline.wf_map {s : Spline V} (h : s.WF) (g : V → V') : (s.map g).WF := ⟨h.1, h.2, h.3, by simpa [Spline.map] using h.4⟩

theorem Spline.getD_map {s : Spline V} (g : V → V') {n : ℕ} (hn : n < s.cps.length) : (s.map g).cps.getD n 0 = g (s.cps.getD n 0) := by
  simp [Spline.map, hn]

theorem affine_apply (A : V →ᵃ[K] V') (x : V) : A x = A.linear x + A 0 := by
  have := A.map_vadd 0 x
  simpa using this

theorem Spline.value_affine {s : Spline V} (h : s.WF) (A : V →ᵃ[K] V') {t : List K} (ht : t.length = s.dim) :
    (s.map A).value t = A (s.value t) := by
  rw [Spline.value_eq_neval, Spline.value_eq_neval, affine_apply A, ← neval_map]
  rw [← neval_const (ps := s.degrees) (ts := t) ht (A 0), ← neval_add]
  refine neval_congr fun j hj => ?_
  rw [Spline.getD_map _ (by rw [h.4]; exact hj), affine_apply A]

theorem Spline.Computes.affine {s : Spline V} {ds : List ℕ} {f : List K → V} (h : s.Computes ds f) (A : V →ᵃ[K] V') :
    (s.map A).Computes ds (fun t => A (f t)) :=
  Spline.Computes.mk' (Spline.wf_map h.wf A) h.degrees_eq fun t ht => by
    rw [Spline.value_affine h.wf A (by rw [h.dim_eq]; exact ht), h.value_eq ht]

/-- Derivatives of the image under an affine map. -/
theorem Spline.tens_affine {s : Spline V} (h : s.WF) (A : V →ᵃ[K] V') {t : List K} (ht : t.length = s.dim) {ks : List ℕ}
    (hk : ks.length = s.dim) (hp : ∃ k ∈ ks, 0 < k) :
    tens s.degrees (dFns s.degrees ks t) (fun n => (s.map A).cps.getD n 0) =
      A.linear (tens s.degrees (dFns s.degrees ks t) (fun n => s.cps.getD n 0)) := by
  have e := tens_add s.degrees (dFns s.degrees ks t) (fun j => A.linear (s.cps.getD j 0)) (fun _ => A 0)
  rw [tens_dFns_const hk ht hp, add_zero] at e
  rw [← tens_linear, ← e]
  refine tens_congr fun j hj => ?_
  rw [Spline.getD_map _ (by rw [h.4]; exact hj), affine_apply A]

end

section
variable {K V V' : Type} [Field K] [CharZero K] [DecidableEq K] [AddCommGroup V] [Module K V] [AddCommGroup V'] [Module K V']
  [ScalarDiv K V] [LawfulScalarDiv K V] [ScalarDiv K V'] [LawfulScalarDiv K V']

theorem RSpline.image_value {r : RSpline K V} (hn : r.num.WF) (hw : r.wt.WF) (hd : r.num.degrees = r.wt.degrees) (A : V →ᵃ[K] V') (t : List K) :
    (r.image A).num.value t = A.linear (r.num.value t) + r.wt.value t • A 0 := by
  have e : ∀ c : V', r.wt.value t • c = neval r.num.degrees t (fun j => r.wt.cps.getD j 0 • c) := by
    intro c
    have := neval_map (LinearMap.toSpanSingleton K V' c) r.num.degrees t (fun j => r.wt.cps.getD j 0)
    rw [Spline.value_eq_neval, ← hd]
    simpa using this.symm
  rw [Spline.value_eq_neval, Spline.value_eq_neval, ← neval_map, e, ← neval_add]
  refine neval_congr fun j hj => ?_
  have h1 : j < r.num.cps.length := by rw [hn.4]; exact hj
  have h2 : j < r.wt.cps.length := by rw [hw.4, ← hd]; exact hj
  simp [RSpline.image, List.getElem?_zipWith, h1, h2]

theorem RSpline.Computes.affine {r : RSpline K V} {ds : List ℕ} {f : List K → V} {w : List K → K} (h : r.Computes ds f w) (A : V →ᵃ[K] V') :
    (r.image A).Computes ds (fun t => A (f t)) w := by
  have hl : r.num.cps.length = r.wt.cps.length := by
    rw [h.num_wf.4, h.wt_wf.4, h.num_degrees, h.wt_degrees]
  refine RSpline.Computes.mk' ⟨h.num_wf.1, h.num_wf.2, h.num_wf.3, ?_⟩ h.wt_wf h.num_degrees h.wt_degrees (fun t ht => h.wt_value ht)
    fun t ht h0 => ?_
  · show (List.zipWith _ r.num.cps r.wt.cps).length = _
    rw [List.length_zipWith, ← hl, min_self]; exact h.num_wf.4
  · rw [RSpline.image_value h.num_wf h.wt_wf h.deg_eq, h.num_value ht h0, h.wt_value ht, affine_apply A (f t), map_smul, smul_add]

end
end Bezman
