import Verif.Proofs.Computes
import Verif.Proofs.Product
import Mathlib.LinearAlgebra.Dual.Lemmas
import Mathlib.Algebra.Polynomial.Roots
import Mathlib.Algebra.CharP.Algebra

/-! Bernstein polynomials are linearly independent, so a spline is determined by its
degrees and its values. -/

namespace Bezman
open Spec Finset Polynomial

section
variable {K : Type} [Field K]

theorem bern_poly_unique (p : ℕ) : ∀ (a : ℕ → K),
    (∑ i ∈ range (p + 1), C (a i) * X ^ i * (1 - X) ^ (p - i) : K[X]) = 0 → ∀ i, i ≤ p → a i = 0 := by
  induction p with
  | zero =>
    intro a h i hi
    obtain rfl : i = 0 := by omega
    simpa using h
  | succ p ih =>
    intro a h
    have h0 : a 0 = 0 := by
      have := congrArg (Polynomial.eval 0) h
      rw [Polynomial.eval_finset_sum, sum_range_succ'] at this
      simpa using this
    have h1 : (X : K[X]) * ∑ i ∈ range (p + 1), C (a (i + 1)) * X ^ i * (1 - X) ^ (p - i) = 0 := by
      rw [sum_range_succ', h0] at h
      rw [← h, mul_sum]
      simp only [map_zero, zero_mul, add_zero]
      apply sum_congr rfl
      intro i hi
      rw [show p + 1 - (i + 1) = p - i by omega]
      ring
    have h2 := (mul_eq_zero.mp h1).resolve_left X_ne_zero
    intro i hi
    cases i with
    | zero => exact h0
    | succ i => exact ih (fun i => a (i + 1)) h2 i (by omega)

variable [CharZero K] {V : Type} [AddCommGroup V] [Module K V]

theorem bern_unique {p : ℕ} {c : ℕ → V} (h : ∀ t : K, ∑ i ∈ range (p + 1), bern p i t • c i = 0) :
    ∀ i, i ≤ p → c i = 0 := by
  intro i hi
  rw [← Module.forall_dual_apply_eq_zero_iff K]
  intro φ
  have hP : (∑ i ∈ range (p + 1), C ((p.choose i : K) * φ (c i)) * X ^ i * (1 - X) ^ (p - i) : K[X]) = 0 := by
    haveI : Infinite K := Infinite.of_injective _ (Nat.cast_injective (R := K))
    apply Polynomial.funext
    intro t
    have := congrArg φ (h t)
    simp only [map_sum, map_smul, map_zero, smul_eq_mul] at this
    rw [Polynomial.eval_finset_sum, Polynomial.eval_zero, ← this]
    apply sum_congr rfl
    intro i _
    simp [bern]; ring
  have := bern_poly_unique p _ hP i hi
  have hc : (p.choose i : K) ≠ 0 := by
    exact_mod_cast (Nat.choose_pos hi).ne'
  exact (mul_eq_zero.mp this).resolve_left hc

theorem bezier_zero_unique (ps : List ℕ) : ∀ (P : List ℕ → V), (∀ t : List K, t.length = ps.length → bezier ps t P = 0) →
    ∀ idx, ValidIdx ps idx → P idx = 0 := by
  induction ps with
  | nil =>
    intro P h idx hi
    have := h [] rfl
    have e : idx = [] := by cases hi; rfl
    subst e; exact this
  | cons p ps ih =>
    intro P h idx hi
    cases hi with
    | cons hi hr =>
      rename_i i is
      refine ih (fun idx => P (i :: idx)) (fun ts hts => ?_) is hr
      refine bern_unique (K := K) (c := fun i => bezier ps ts (fun idx => P (i :: idx))) (fun t => ?_) i hi
      exact h (t :: ts) (by simp [hts])

theorem bezier_unique {ps : List ℕ} {P Q : List ℕ → V}
    (h : ∀ t : List K, t.length = ps.length → bezier ps t P = bezier ps t Q) :
    ∀ idx, ValidIdx ps idx → P idx = Q idx := by
  intro idx hi
  have := bezier_zero_unique (K := K) ps (fun i => P i - Q i)
    (fun t ht => by rw [bezier_sub ps t P Q, h t ht, sub_self]) idx hi
  exact sub_eq_zero.mp this

namespace Spline

/-- A consistent spline is determined by its degrees and its values. -/
theorem value_unique {a b : Spline V} (ha : a.WF) (hb : b.WF) (hd : a.degrees = b.degrees)
    (h : ∀ t : List K, t.length = a.dim → a.value t = b.value t) : a = b := by
  have hc : a.cps = b.cps := by
    apply List.ext_getElem
    · rw [ha.cps_len, hb.cps_len, hd]
    · intro n h1 h2
      have hn : n < size a.degrees := by rw [← ha.cps_len]; exact h1
      have hv := unflat_valid a.degrees n
      have := bezier_unique (K := K) (ps := a.degrees) (P := fun idx => a.cps.getD (flatIndex a.degrees idx) 0)
        (Q := fun idx => b.cps.getD (flatIndex a.degrees idx) 0) (fun t ht => by
          have := h t ht
          unfold value at this
          rw [← hd] at this
          exact this) _ hv
      rw [flatIndex_unflat hn] at this
      simpa [List.getD_eq_getElem?_getD, h1, h2] using this
  rw [ha.self_eq, hb.self_eq, hd, hc]

theorem Computes.unique {a b : Spline V} {ds : List ℕ} {f : List K → V} (ha : a.Computes ds f)
    (hb : b.Computes ds f) : a = b := by
  refine value_unique (K := K) ha.wf hb.wf (ha.degrees_eq.trans hb.degrees_eq.symm) fun t ht => ?_
  rw [ha.dim_eq] at ht
  rw [ha.value_eq ht, hb.value_eq ht]

end Spline
end
end Bezman
