import Verif.Model.Bernstein
import Verif.Proofs.Binomial
import Verif.Spec.Bezier
import Mathlib.Tactic.LinearCombination
import Mathlib.Data.Nat.Choose.Sum
import Mathlib.Algebra.Order.Ring.Defs
import Mathlib.Algebra.Order.BigOperators.Group.Finset
import Mathlib.Tactic.Positivity

/-! Bernstein polynomials: the code computes them; their algebra. -/

namespace Bezman
open Spec Finset

variable {K : Type} [CommRing K]

theorem tab_succ {α : Type} (n : Nat) (F : Nat → α) : tab (n + 1) F = tab n F ++ [F n] := by
  simp [tab, List.range_succ]

theorem bernsteinEvaluate_ok {cfg : Cfg} (hc : cfg.Ok) {p : Nat} (hp : p < cfg.maxBinom) (t : K) :
    bernsteinEvaluate cfg p t = .ok (tab (p + 1) (fun i => bern p i t)) := by
  unfold bernsteinEvaluate
  rw [assertM_ok (by simpa using hp)]
  simp only [bind_ok]
  have h1 : loop (p + 1) (fun i (r : List K × K) => do
      let c ← choose cfg p i
      pure (r.1 ++ [(c : K) * r.2], r.2 * t)) ([], 1)
      = .ok (tab (p + 1) (fun i => (p.choose i : K) * t ^ i), t ^ (p + 1)) := by
    apply loop_eq (fun k => (tab k (fun i => (p.choose i : K) * t ^ i), t ^ k))
    · simp [tab]
    · intro k hk
      rw [choose_ok hc hp (by omega)]
      simp [tab_succ, pow_succ]
  rw [h1]
  simp only [bind_ok]
  have h2 : loop (p + 1) (fun i (r : List K × K) => do
      let e ← rd r.1 (p - i)
      let ev ← wr r.1 (p - i) (e * r.2)
      pure (ev, r.2 * (1 - t))) (tab (p + 1) (fun i => (p.choose i : K) * t ^ i), 1)
      = .ok (tab (p + 1) (fun i => if p + 1 ≤ i + (p + 1) then bern p i t else (p.choose i : K) * t ^ i),
          (1 - t) ^ (p + 1)) := by
    apply loop_eq (fun k => (tab (p + 1)
      (fun i => if p + 1 ≤ i + k then bern p i t else (p.choose i : K) * t ^ i), (1 - t) ^ k))
    · simp only [pow_zero, Prod.mk.injEq, and_true]
      apply tab_congr; intro i hi
      rw [if_neg (by omega)]
    · intro k hk
      rw [rd_tab _ (by omega)]
      simp only [bind_ok]
      rw [wr_tab _ _ (by omega)]
      simp only [bind_ok, pure_eq_ok, Except.ok.injEq, Prod.mk.injEq, pow_succ, and_true]
      apply tab_congr; intro i hi
      by_cases hik : i = p - k
      · subst hik
        rw [Function.update_self, if_neg (by omega), if_pos (by omega), bern,
          show p - (p - k) = k by omega]
      · rw [Function.update_of_ne hik]
        by_cases h : p + 1 ≤ i + k
        · rw [if_pos h, if_pos (by omega)]
        · rw [if_neg h, if_neg (by omega)]
  rw [h2]
  simp only [bind_ok, pure_eq_ok, Except.ok.injEq]
  apply tab_congr; intro i _
  rw [if_pos (by omega)]

/-! ### Algebra of Bernstein polynomials -/

theorem bern_sum (p : Nat) (t : K) : ∑ i ∈ range (p + 1), bern p i t = 1 := by
  have := add_pow t (1 - t) p
  rw [show t + (1 - t) = 1 by ring, one_pow] at this
  rw [this]
  apply sum_congr rfl
  intro i _
  simp only [bern]; ring

theorem bern_gt {p i : Nat} (h : p < i) (t : K) : bern p i t = 0 := by
  simp [bern, Nat.choose_eq_zero_of_lt h]

theorem bern_zero_left (i : Nat) (t : K) : bern 0 i t = if i = 0 then 1 else 0 := by
  cases i with
  | zero => simp [bern]
  | succ i => simp [bern]

theorem bern_succ_zero (p : Nat) (t : K) : bern (p + 1) 0 t = (1 - t) * bern p 0 t := by
  simp [bern, pow_succ]; ring

/-- degree recursion -/
theorem bern_succ_succ (p i : Nat) (t : K) :
    bern (p + 1) (i + 1) t = (1 - t) * bern p (i + 1) t + t * bern p i t := by
  simp only [bern, Nat.choose_succ_succ]
  rcases Nat.lt_or_ge i p with h | h
  · obtain ⟨k, rfl⟩ := Nat.exists_eq_add_of_lt h
    rw [show i + k + 1 + 1 - (i + 1) = k + 1 by omega, show i + k + 1 - (i + 1) = k by omega,
      show i + k + 1 - i = k + 1 by omega]
    push_cast; ring
  · have h1 : p + 1 - (i + 1) = 0 := by omega
    have h2 : p - i = 0 := by omega
    have h3 : p - (i + 1) = 0 := by omega
    rw [h1, h2, h3, Nat.choose_eq_zero_of_lt (show p < i + 1 by omega)]
    push_cast; ring

/-- de Casteljau step in sum form -/
theorem bern_sum_succ {V : Type} [AddCommGroup V] [Module K V] (p : Nat) (t : K) (P : Nat → V) :
    ∑ i ∈ range (p + 2), bern (p + 1) i t • P i
      = ∑ i ∈ range (p + 1), bern p i t • ((1 - t) • P i + t • P (i + 1)) := by
  rw [sum_range_succ']
  simp only [bern_succ_succ, bern_succ_zero]
  simp only [add_smul, sum_add_distrib, smul_add, smul_smul]
  have e : ∑ x ∈ range (p + 1), ((1 - t) * bern p (x + 1) t) • P (x + 1) + ((1 - t) * bern p 0 t) • P 0
      = ∑ x ∈ range (p + 1), (bern p x t * (1 - t)) • P x := by
    rw [← sum_range_succ' (fun x => ((1 - t) * bern p x t) • P x), sum_range_succ,
      bern_gt (by omega)]
    simp [mul_comm]
  rw [← e]
  have e2 : ∑ x ∈ range (p + 1), (t * bern p x t) • P (x + 1)
      = ∑ x ∈ range (p + 1), (bern p x t * t) • P (x + 1) := by
    simp [mul_comm]
  rw [e2]; abel

theorem bern_at_zero (p i : Nat) : bern p i (0 : K) = if i = 0 then 1 else 0 := by
  cases i with
  | zero => simp [bern]
  | succ i => simp [bern]

theorem bern_at_one (p i : Nat) (h : i ≤ p) : bern p i (1 : K) = if i = p then 1 else 0 := by
  by_cases hi : i = p
  · subst hi; simp [bern]
  · have : p - i ≠ 0 := by omega
    simp [bern, hi, this]

theorem bern_nonneg {K : Type} [CommRing K] [LinearOrder K] [IsStrictOrderedRing K] (p i : Nat)
    {t : K} (h0 : 0 ≤ t) (h1 : t ≤ 1) : 0 ≤ bern p i t := by
  unfold bern
  have : 0 ≤ 1 - t := by linarith
  positivity

end Bezman
