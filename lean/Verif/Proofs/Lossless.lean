import Verif.Proofs.Unique

/-! Along a straight line in the parameter space a spline is a polynomial of one variable. So a product of spline functions vanishes only if one
of the factors does. -/

namespace Bezman
open Spec Finset Polynomial

section
variable {K V : Type} [Field K] [AddCommGroup V] [Module K V]

/-- the parameters on the line through `s` with direction `u` -/
def onLine (s u : List K) (x : K) : List K := List.zipWith (fun a b => a + x * b) s u

theorem bezier_line (ds : List ℕ) : ∀ (s u : List K) (P : List ℕ → K), s.length = ds.length → u.length = ds.length →
    ∃ q : K[X], ∀ x, q.eval x = bezier ds (onLine s u x) P := by
  induction ds with
  | nil => exact fun s u P _ _ => ⟨C (P []), fun x => by simp [bezier]⟩
  | cons p ds ih =>
    intro s u P hs hu
    match s, u, hs, hu with
    | a :: s, b :: u, hs, hu =>
      choose q hq using fun i => ih s u (fun idx => P (i :: idx)) (by simpa using hs) (by simpa using hu)
      refine ⟨∑ i ∈ range (p + 1), C (p.choose i : K) * (C a + X * C b) ^ i * (1 - (C a + X * C b)) ^ (p - i) * q i, fun x => ?_⟩
      rw [eval_finset_sum]
      show _ = ∑ i ∈ range (p + 1), bern p i (a + x * b) • bezier ds (onLine s u x) (fun idx => P (i :: idx))
      refine Finset.sum_congr rfl fun i _ => ?_
      simp only [eval_mul, eval_pow, eval_sub, eval_add, eval_C, eval_X, eval_one, hq, bern, smul_eq_mul]

theorem onLine_zero {s u : List K} (h : u.length = s.length) : onLine s u 0 = s := by
  apply List.ext_getElem
  · simp [onLine, h]
  · intro i h1 h2; simp [onLine]

theorem onLine_one {s t : List K} (h : t.length = s.length) : onLine s (List.zipWith (fun a b => b - a) s t) 1 = t := by
  apply List.ext_getElem
  · simp [onLine, h]
  · intro i h1 h2; simp [onLine]

/-- a product of two spline functions of numbers vanishes only if one of them does -/
theorem bezier_domain [Infinite K] {da db : List ℕ} (hl : db.length = da.length) {P Q : List ℕ → K}
    (h : ∀ t : List K, t.length = da.length → bezier da t P * bezier db t Q = 0) :
    (∀ t : List K, t.length = da.length → bezier da t P = 0) ∨ (∀ t : List K, t.length = da.length → bezier db t Q = 0) := by
  by_contra hc
  push Not at hc
  obtain ⟨⟨s, hs, h1⟩, t, ht, h2⟩ := hc
  have hu : (List.zipWith (fun a b => b - a) s t).length = da.length := by simp [hs, ht]
  obtain ⟨p, hp⟩ := bezier_line da s _ P hs hu
  obtain ⟨q, hq⟩ := bezier_line db s _ Q (hs.trans hl.symm) (hu.trans hl.symm)
  have hpq : p * q = 0 := by
    refine Polynomial.funext fun x => ?_
    rw [eval_mul, hp, hq, eval_zero]
    exact h _ (by simp [onLine, hs, ht])
  rcases mul_eq_zero.mp hpq with rfl | rfl
  · apply h1
    have := hp 0
    rw [onLine_zero (by simp [hs, ht])] at this
    simpa using this.symm
  · apply h2
    have := hq 1
    rw [onLine_one (by rw [hs, ht])] at this
    simpa using this.symm

/-- the same for a spline function of numbers and one of points -/
theorem bezier_domain_smul [Infinite K] {da db : List ℕ} (hl : db.length = da.length) {P : List ℕ → K} {Q : List ℕ → V}
    (h : ∀ t : List K, t.length = da.length → bezier da t P • bezier db t Q = 0) :
    (∀ t : List K, t.length = da.length → bezier da t P = 0) ∨ (∀ t : List K, t.length = da.length → bezier db t Q = 0) := by
  by_cases h0 : ∀ t : List K, t.length = da.length → bezier da t P = 0
  · exact .inl h0
  refine .inr fun t ht => (Module.forall_dual_apply_eq_zero_iff K _).mp fun φ => ?_
  have key := bezier_domain hl (P := P) (Q := fun idx => φ (Q idx)) fun t ht => by
    rw [bezier_map φ, ← smul_eq_mul, ← map_smul, h t ht, map_zero]
  rw [← bezier_map φ]
  exact key.resolve_left h0 t ht

end
end Bezman
