import Verif.Proofs.Basis
import Verif.Proofs.Product
import Verif.Proofs.Computes
import Mathlib.Algebra.BigOperators.Fin
import Mathlib.Algebra.Order.BigOperators.Ring.List

/-! Small facts used to state the properties in terms of the API. -/

namespace Bezman
open Spec Finset

theorem pw_bernFns {K : Type} [CommRing K] : ∀ {ps is : List ℕ} {ts : List K}, is.length = ps.length →
    ts.length = ps.length → pw (bernFns ps ts) is = bernProd ps is ts
  | [], is, ts, _, _ => by simp [bernFns, pw, bernProd]
  | p :: ps, [], ts, h, _ => by simp at h
  | p :: ps, i :: is, [], _, h => by simp at h
  | p :: ps, i :: is, t :: ts, h1, h2 => by
    have := pw_bernFns (ps := ps) (is := is) (ts := ts) (by simpa using h1) (by simpa using h2)
    simp only [bernFns, List.zipWith_cons_cons, pw, bernProd] at this ⊢
    rw [this]

theorem list_sum_tab {M : Type} [AddCommMonoid M] (n : ℕ) (F : ℕ → M) : (tab n F).sum = ∑ i ∈ range n, F i := by
  simp only [tab]
  rw [Finset.sum_eq_multiset_sum]
  rfl

theorem zipWith_tab {α β γ : Type} (f : α → β → γ) (n : ℕ) (F : ℕ → α) (G : ℕ → β) :
    List.zipWith f (tab n F) (tab n G) = tab n (fun i => f (F i) (G i)) := by
  apply List.ext_getElem
  · simp
  · intro i h1 h2; simp

theorem sum_pw_bern {K : Type} [CommRing K] {ps : List ℕ} {ts : List K} (hl : ts.length = ps.length) :
    ∑ n ∈ range (size ps), pw (bernFns ps ts) (unflat ps n) = 1 := by
  have := sum_pw ps (Spline.bernFns_length hl) (fun _ => (1 : K))
  simp only [smul_eq_mul, mul_one] at this
  rw [this, ← neval_eq_tens, neval_const hl]

theorem bernProd_nonneg {K : Type} [CommRing K] [LinearOrder K] [IsStrictOrderedRing K] :
    ∀ (ps is : List ℕ) {ts : List K}, (∀ x ∈ ts, 0 ≤ x ∧ x ≤ 1) → 0 ≤ bernProd ps is ts
  | [], is, ts, _ => by simp [bernProd]
  | p :: ps, [], ts, _ => by simp [bernProd]
  | p :: ps, i :: is, [], _ => by simp [bernProd]
  | p :: ps, i :: is, t :: ts, h => by
    simp only [bernProd]
    have h0 := h t (by simp)
    exact mul_nonneg (bern_nonneg p i h0.1 h0.2) (bernProd_nonneg ps is (fun x hx => h x (by simp [hx])))

/-- Bezier functions interpolate the corner control points. -/
theorem bezier_corner {K V : Type} [CommRing K] [AddCommGroup V] [Module K V] : ∀ {ps : List ℕ} {c : List Bool}
    (_ : c.length = ps.length) (P : List ℕ → V),
    bezier ps (c.map (fun b => if b then (1 : K) else 0)) P
      = P (List.zipWith (fun (b : Bool) p => if b then p else 0) c ps)
  | [], c, h, P => by
    have : c = [] := by simpa using h
    subst this; simp
  | p :: ps, [], h, P => by simp at h
  | p :: ps, b :: c, h, P => by
    rw [List.map_cons, bezier_cons]
    have ih := fun i => bezier_corner (K := K) (V := V) (ps := ps) (c := c) (by simpa using h) (fun idx => P (i :: idx))
    simp only [ih, List.zipWith_cons_cons]
    cases b with
    | false =>
      simp only [Bool.false_eq_true, if_false]
      rw [Finset.sum_eq_single 0]
      · rw [bern_at_zero, if_pos rfl, one_smul]
      · intro i _ hi; rw [bern_at_zero, if_neg hi, zero_smul]
      · intro h; exact absurd (Finset.mem_range.mpr (Nat.succ_pos p)) h
    | true =>
      simp only [if_true]
      rw [Finset.sum_eq_single p]
      · rw [bern_at_one p p le_rfl, if_pos rfl, one_smul]
      · intro i hi hne
        rw [bern_at_one p i (by simpa [Nat.lt_succ_iff] using hi), if_neg hne, zero_smul]
      · intro h; exact absurd (Finset.mem_range.mpr (Nat.lt_succ_self p)) h

theorem corner_valid : ∀ {ps : List ℕ} {c : List Bool}, c.length = ps.length →
    ValidIdx ps (List.zipWith (fun (b : Bool) p => if b then p else 0) c ps)
  | [], c, _ => by simp
  | p :: ps, [], h => by simp at h
  | p :: ps, b :: c, h => by
    rw [List.zipWith_cons_cons, validIdx_cons]
    exact ⟨by split <;> omega, corner_valid (by simpa using h)⟩

end Bezman
