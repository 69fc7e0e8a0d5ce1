import Verif.Spec.Bend
import Verif.Proofs.Converge
import Verif.Proofs.Bernstein
import Mathlib.RingTheory.Polynomial.Bernstein
import Mathlib.Tactic.LinearCombination

/-! # Second differences of control points under splits and elevations, and the distance from the geometry -/

namespace Bezman
open Spec Finset
variable {K V : Type} [Field K] [LinearOrder K] [IsStrictOrderedRing K] [AddCommGroup V] [Module K V] {N : V → K}

omit [LinearOrder K] [IsStrictOrderedRing K] in
theorem triangle_left (z : K) (P : ℕ → V) (i : ℕ) :
    triangle z P (i + 1) 0 - triangle z P i 0 = z • triangle z (fun j => P (j + 1) - P j) i 0 := by
  rw [← triangle_sub, ← triangle_shift]
  show (1 - z) • triangle z P i 0 + z • triangle z P i (0 + 1) - _ = _
  module

omit [LinearOrder K] [IsStrictOrderedRing K] in
theorem triangle_right (z : K) (P : ℕ → V) (r i : ℕ) :
    triangle z P r (i + 1) - triangle z P (r + 1) i = (1 - z) • triangle z (fun j => P (j + 1) - P j) r i := by
  rw [← triangle_sub, ← triangle_shift]
  show _ - ((1 - z) • triangle z P r i + z • triangle z P r (i + 1)) = _
  module

/-- second difference -/
def bend (P : ℕ → V) (j : ℕ) : V := (P (j + 2) - P (j + 1)) - (P (j + 1) - P j)

theorem left_bend (hN : IsLength N) {c M z : K} (hc : 0 ≤ c) (h0 : 0 ≤ z) (h1 : z ≤ 1) {P : ℕ → V} {i : ℕ}
    (h : ∀ j ≤ i, c * N (bend P j) ≤ M) : c * N (bend (fun i => triangle z P i 0) i) ≤ M * z ^ 2 := by
  have e : bend (fun i => triangle z P i 0) i = (z * z) • triangle z (bend P) i 0 := by
    unfold bend
    rw [triangle_left z P (i + 1), triangle_left z P i, ← smul_sub, triangle_left z _ i, smul_smul]
  rw [e, hN.smul, abs_of_nonneg (mul_nonneg h0 h0)]
  have := hN.triangle (a := 0) (r := i) hc h0 h1 (fun j _ hj => h j (by omega))
  have := mul_le_mul_of_nonneg_left this (mul_nonneg h0 h0)
  linarith

theorem right_bend (hN : IsLength N) {c M z : K} (hc : 0 ≤ c) (h0 : 0 ≤ z) (h1 : z ≤ 1) {P : ℕ → V} {p i : ℕ} (hi : i + 2 ≤ p)
    (h : ∀ j, j + 2 ≤ p → c * N (bend P j) ≤ M) : c * N (bend (fun i => triangle z P (p - i) i) i) ≤ M * (1 - z) ^ 2 := by
  obtain ⟨r, rfl⟩ : ∃ r, p = i + 2 + r := ⟨p - (i + 2), by omega⟩
  have e : bend (fun j => triangle z P (i + 2 + r - j) j) i = ((1 - z) * (1 - z)) • triangle z (bend P) r i := by
    unfold bend
    dsimp only
    rw [show i + 2 + r - (i + 2) = r by omega, show i + 2 + r - (i + 1) = r + 1 by omega, show i + 2 + r - i = r + 1 + 1 by omega,
      triangle_right z P r (i + 1), triangle_right z P (r + 1) i, ← smul_sub, triangle_right z _ r i, smul_smul]
  have hz := sub_nonneg.mpr h1
  rw [e, hN.smul, abs_of_nonneg (mul_nonneg hz hz)]
  have := hN.triangle (a := i) (r := r) hc h0 h1 (fun j _ hj => h j (by omega))
  have := mul_le_mul_of_nonneg_left this (mul_nonneg hz hz)
  linarith

omit [LinearOrder K] [IsStrictOrderedRing K] in
theorem elevation_bend [CharZero K] (p : ℕ) (P : ℕ → V) {i : ℕ} (hi : i + 1 ≤ p) :
    ((p + 1 : ℕ) : K) • bend (elevationOf K p P) i = ((p - 1 - i : ℕ) : K) • bend P i + (i : K) • bend P (i - 1) := by
  have hp1 : ((p + 1 : ℕ) : K) ≠ 0 := by exact_mod_cast Nat.succ_ne_zero p
  unfold bend
  rw [elevationOf_eq p P (i := i + 2) (by omega), elevationOf_eq p P (i := i + 1) (by omega), elevationOf_eq p P (i := i) (by omega)]
  have c1 : ((p - 1 - i : ℕ) : K) = (p : K) - 1 - i := by rw [Nat.cast_sub (by omega), Nat.cast_sub (by omega)]; simp
  rw [c1]
  have sm : ∀ (a : K) (x : V), ((p + 1 : ℕ) : K) • ((a / ((p + 1 : ℕ) : K)) • x) = a • x := fun a x => by
    rw [smul_smul, mul_div_cancel₀ _ hp1]
  have sm' : ∀ (a : K) (x : V), ((p + 1 : ℕ) : K) • ((1 - a / ((p + 1 : ℕ) : K)) • x) = (((p : K) + 1) - a) • x := fun a x => by
    rw [smul_smul, mul_sub, mul_one, mul_div_cancel₀ _ hp1]; push_cast; rfl
  simp only [smul_sub, smul_add, sm, sm', Nat.add_sub_cancel, show i + 2 - 1 = i + 1 by omega]
  rcases Nat.eq_zero_or_pos i with rfl | h0
  · simp only [Nat.cast_zero, zero_smul, sub_zero, zero_add, add_zero]
    push_cast
    module
  · obtain ⟨k, rfl⟩ : ∃ k, i = k + 1 := ⟨i - 1, by omega⟩
    simp only [Nat.add_sub_cancel, show k + 1 + 2 = k + 3 by rfl, show k + 1 + 1 = k + 2 by rfl]
    push_cast
    module

theorem elevate_bend (hN : IsLength N) {M : K} (hM : 0 ≤ M) {p i : ℕ} (hi : i + 2 ≤ p + 1) {P : ℕ → V}
    (h : ∀ j, j + 2 ≤ p → p * (p - 1) * N (bend P j) ≤ M) :
    ((p + 1 : ℕ) : K) * ((p + 1 : ℕ) - 1) * N (bend (elevationOf K p P) i) ≤ M := by
  have e := congrArg N (elevation_bend (K := K) p P (i := i) (by omega))
  have h2 := hN.add_le (((p - 1 - i : ℕ) : K) • bend P i) ((i : K) • bend P (i - 1))
  rw [← e, hN.smul, hN.smul, hN.smul, abs_of_nonneg (Nat.cast_nonneg _), abs_of_nonneg (Nat.cast_nonneg _), abs_of_nonneg (Nat.cast_nonneg _)] at h2
  have hp1 : 1 ≤ p := by omega
  have hp0 : (0 : K) < p := by exact_mod_cast hp1
  have e2 : ((p + 1 : ℕ) : K) * ((p + 1 : ℕ) - 1) * N (bend (elevationOf K p P) i) = p * (((p + 1 : ℕ) : K) * N (bend (elevationOf K p P) i)) := by
    push_cast; ring
  rw [e2]
  refine (mul_le_mul_of_nonneg_left h2 hp0.le).trans ?_
  rcases hp1.eq_or_lt with rfl | hp2
  · obtain rfl : i = 0 := by omega
    simpa using hM
  have hpm : (0 : K) < (p : K) - 1 := by
    have : (1 : K) < p := by exact_mod_cast hp2
    linarith
  have a1 : ((p - 1 - i : ℕ) : K) * (p * N (bend P i)) ≤ ((p - 1 - i : ℕ) : K) * (M / (p - 1)) := by
    rcases Nat.lt_or_ge (i + 1) p with hlt | hge
    · refine mul_le_mul_of_nonneg_left ?_ (Nat.cast_nonneg _)
      rw [le_div_iff₀ hpm]
      have := h i (by omega)
      linarith
    · rw [show p - 1 - i = 0 by omega]; simp
  have a2 : (i : K) * (p * N (bend P (i - 1))) ≤ i * (M / (p - 1)) := by
    rcases Nat.eq_zero_or_pos i with rfl | hi'
    · simp
    · refine mul_le_mul_of_nonneg_left ?_ (Nat.cast_nonneg _)
      rw [le_div_iff₀ hpm]
      have := h (i - 1) (by omega)
      linarith
  have e3 : ((p - 1 - i : ℕ) : K) + i = p - 1 := by
    rw [← Nat.cast_add, Nat.sub_add_cancel (by omega), Nat.cast_sub hp1, Nat.cast_one]
  have e4 : ((p - 1 - i : ℕ) : K) * (M / (p - 1)) + i * (M / (p - 1)) = M := by
    rw [← add_mul, e3, mul_div_cancel₀ _ hpm.ne']
  linarith

omit [LinearOrder K] [IsStrictOrderedRing K] in
theorem elevation_sub (p i : ℕ) (P Q : ℕ → V) : elevationOf K p P i - elevationOf K p Q i = elevationOf K p (fun j => P j - Q j) i := by
  unfold elevationOf
  split_ifs
  · rfl
  · rfl
  · module

theorem elevation_le (hN : IsLength N) {c M : K} (hc : 0 ≤ c) {p i : ℕ} (hi : i ≤ p + 1) {P : ℕ → V}
    (h : ∀ j ≤ p, c * N (P j) ≤ M) : c * N (elevationOf K p P i) ≤ M := by
  have := elevate_diff hN hc hi (P := P) (Q := fun _ => 0) (M := M) (by simpa using h)
  rw [elevation_sub] at this
  simpa using this

/-! ## distance from the value -/

omit [LinearOrder K] [IsStrictOrderedRing K] in
theorem triangle_bern (t : K) : ∀ (r j : ℕ) (P : ℕ → V), triangle t P r j = ∑ i ∈ range (r + 1), bern r i t • P (j + i)
  | 0, j, P => by simp [triangle, bern]
  | r + 1, j, P => by
    rw [bern_sum_succ]
    show (1 - t) • triangle t P r j + t • triangle t P r (j + 1) = _
    rw [triangle_bern t r j, triangle_bern t r (j + 1)]
    simp only [add_assoc, add_comm 1, smul_sum, ← sum_add_distrib]
    refine sum_congr rfl fun i _ => ?_
    module

omit [LinearOrder K] [IsStrictOrderedRing K] in
theorem triangle_at_zero (P : ℕ → V) : ∀ r j : ℕ, triangle (0 : K) P r j = P j
  | 0, _ => rfl
  | r + 1, j => by
    show (1 - (0 : K)) • triangle (0 : K) P r j + (0 : K) • triangle (0 : K) P r (j + 1) = _
    rw [triangle_at_zero P r j, sub_zero, one_smul, zero_smul, add_zero]

omit [LinearOrder K] [IsStrictOrderedRing K] in
theorem triangle_at_one (P : ℕ → V) : ∀ r j : ℕ, triangle (1 : K) P r j = P (j + r)
  | 0, _ => rfl
  | r + 1, j => by
    show (1 - (1 : K)) • triangle (1 : K) P r j + (1 : K) • triangle (1 : K) P r (j + 1) = _
    rw [triangle_at_one P r (j + 1), sub_self, one_smul, zero_smul, zero_add, Nat.add_right_comm, Nat.add_assoc]

omit [LinearOrder K] [IsStrictOrderedRing K] in
theorem bern_mean (p : ℕ) (t : K) : ∑ i ∈ range (p + 1), bern p i t * (i : K) = p * t := by
  have := congrArg (Polynomial.eval t) (bernsteinPolynomial.sum_smul K p)
  simp only [Polynomial.eval_finset_sum, bernsteinPolynomial, nsmul_eq_mul, Polynomial.eval_mul, Polynomial.eval_natCast, Polynomial.eval_pow,
    Polynomial.eval_X, Polynomial.eval_sub, Polynomial.eval_one] at this
  rw [← this]
  refine sum_congr rfl fun i _ => ?_
  unfold bern; ring

omit [LinearOrder K] [IsStrictOrderedRing K] in
theorem bern_variance (p : ℕ) (t : K) : ∑ i ∈ range (p + 1), bern p i t * ((i : K) - p * t) ^ 2 = p * t * (1 - t) := by
  have := congrArg (Polynomial.eval t) (bernsteinPolynomial.variance K p)
  simp only [Polynomial.eval_finset_sum, bernsteinPolynomial, nsmul_eq_mul, Polynomial.eval_mul, Polynomial.eval_natCast, Polynomial.eval_pow,
    Polynomial.eval_X, Polynomial.eval_sub, Polynomial.eval_one] at this
  rw [← this]
  refine sum_congr rfl fun i _ => ?_
  unfold bern; ring

theorem IsLength.sum_le (hN : IsLength N) {ι : Type} (s : Finset ι) (f : ι → V) : N (∑ i ∈ s, f i) ≤ ∑ i ∈ s, N (f i) := by
  classical
  induction s using Finset.induction_on with
  | empty => simp [hN.zero]
  | insert a s ha ih =>
    rw [sum_insert ha, sum_insert ha]
    exact (hN.add_le _ _).trans (add_le_add_right ih _)

/-- deviation from the straight line through `P k` and `P (k + 1)` -/
theorem up_bend (hN : IsLength N) {D : K} {P : ℕ → V} {p k : ℕ} (h : ∀ j, j + 2 ≤ p → N (bend P j) ≤ D) : ∀ m, k + m + 1 ≤ p →
    N ((P (k + m + 1) - P (k + m)) - (P (k + 1) - P k)) ≤ m * D ∧ N (P (k + m) - P k - (m : K) • (P (k + 1) - P k)) ≤ (m * (m - 1)) / 2 * D
  | 0, _ => by simp [hN.zero]
  | m + 1, hm => by
    obtain ⟨h1, h2⟩ := up_bend hN (k := k) h m (by omega)
    have h3 := h (k + m) (by omega)
    constructor
    · have e : (P (k + (m + 1) + 1) - P (k + (m + 1))) - (P (k + 1) - P k) = bend P (k + m) + ((P (k + m + 1) - P (k + m)) - (P (k + 1) - P k)) := by
        unfold bend
        rw [show k + (m + 1) + 1 = k + m + 2 by omega, show k + (m + 1) = k + m + 1 by omega]; abel
      rw [e]
      have := hN.add_le (bend P (k + m)) ((P (k + m + 1) - P (k + m)) - (P (k + 1) - P k))
      push_cast
      linarith
    · have e : P (k + (m + 1)) - P k - ((m + 1 : ℕ) : K) • (P (k + 1) - P k) =
          (P (k + m) - P k - (m : K) • (P (k + 1) - P k)) + ((P (k + m + 1) - P (k + m)) - (P (k + 1) - P k)) := by
        push_cast
        rw [show k + (m + 1) = k + m + 1 by omega]
        module
      rw [e]
      have := hN.add_le (P (k + m) - P k - (m : K) • (P (k + 1) - P k)) ((P (k + m + 1) - P (k + m)) - (P (k + 1) - P k))
      push_cast
      have e2 : ((m : K) + 1) * (m + 1 - 1) / 2 * D = m * (m - 1) / 2 * D + m * D := by ring
      rw [e2]
      linarith

theorem down_bend (hN : IsLength N) {D : K} {P : ℕ → V} {p k : ℕ} (hk : k + 1 ≤ p) (h : ∀ j, j + 2 ≤ p → N (bend P j) ≤ D) : ∀ m, m ≤ k →
    (∀ n, m = n + 1 → N ((P (k + 1) - P k) - (P (k - n) - P (k - m))) ≤ m * D) ∧
      N (P (k - m) - P k + (m : K) • (P (k + 1) - P k)) ≤ (m * (m + 1)) / 2 * D
  | 0, _ => by simp [hN.zero]
  | m + 1, hm => by
    obtain ⟨h1, h2⟩ := down_bend hN hk h m (by omega)
    have key : N ((P (k + 1) - P k) - (P (k - m) - P (k - (m + 1)))) ≤ ((m + 1 : ℕ) : K) * D := by
      cases m with
      | zero =>
        have := h (k - 1) (by omega)
        unfold bend at this
        rw [show k - 1 + 2 = k + 1 by omega, show k - 1 + 1 = k by omega] at this
        simpa using this
      | succ n =>
        have h3 := h1 n rfl
        have h4 := h (k - (n + 1 + 1)) (by omega)
        unfold bend at h4
        rw [show k - (n + 1 + 1) + 2 = k - n by omega, show k - (n + 1 + 1) + 1 = k - (n + 1) by omega] at h4
        have e : (P (k + 1) - P k) - (P (k - (n + 1)) - P (k - (n + 1 + 1))) =
          ((P (k + 1) - P k) - (P (k - n) - P (k - (n + 1)))) + ((P (k - n) - P (k - (n + 1))) - (P (k - (n + 1)) - P (k - (n + 1 + 1)))) := by abel
        rw [e]
        have := hN.add_le ((P (k + 1) - P k) - (P (k - n) - P (k - (n + 1)))) ((P (k - n) - P (k - (n + 1))) - (P (k - (n + 1)) - P (k - (n + 1 + 1))))
        push_cast at h3 ⊢
        linarith
    refine ⟨fun n hn => ?_, ?_⟩
    · obtain rfl : m = n := by omega
      exact key
    · have e : P (k - (m + 1)) - P k + ((m + 1 : ℕ) : K) • (P (k + 1) - P k) =
          (P (k - m) - P k + (m : K) • (P (k + 1) - P k)) + ((P (k + 1) - P k) - (P (k - m) - P (k - (m + 1)))) := by
        push_cast
        module
      rw [e]
      have := hN.add_le (P (k - m) - P k + (m : K) • (P (k + 1) - P k)) ((P (k + 1) - P k) - (P (k - m) - P (k - (m + 1))))
      push_cast at key ⊢
      have e2 : ((m : K) + 1) * (m + 1 + 1) / 2 * D = m * (m + 1) / 2 * D + (m + 1) * D := by ring
      rw [e2]
      linarith

/-- a control point of a curve and the value at its parameter -/
theorem bend_value (hN : IsLength N) {D : K} {P : ℕ → V} {p k : ℕ} (hD : 2 ≤ p → 0 ≤ D) (hk : k ≤ p) (h : ∀ j, j + 2 ≤ p → N (bend P j) ≤ D) :
    N (P k - triangle ((k : K) / p) P p 0) ≤ if p ≤ 1 then 0 else p / 8 * D := by
  have hrhs : (0 : K) ≤ if p ≤ 1 then 0 else p / 8 * D := by
    split_ifs with hp
    · exact le_rfl
    · have := hD (by omega); positivity
  rcases Nat.eq_zero_or_pos k with rfl | hk0
  · have : triangle (((0 : ℕ) : K) / p) P p 0 = P 0 := by
      rw [Nat.cast_zero, zero_div]
      exact triangle_at_zero P p 0
    rw [this, sub_self, hN.zero]; exact hrhs
  rcases hk.eq_or_lt with rfl | hk'
  · have hk1 : (k : K) ≠ 0 := by exact_mod_cast hk0.ne'
    have : triangle ((k : K) / k) P k 0 = P k := by
      rw [div_self hk1]
      rw [triangle_at_one, zero_add]
    rw [this, sub_self, hN.zero]; exact hrhs
  have hp2 : 2 ≤ p := by omega
  have hD0 := hD hp2
  have hp0 : (0 : K) < p := by exact_mod_cast (by omega : 0 < p)
  set t : K := (k : K) / p with ht
  have hpt : (p : K) * t = k := by rw [ht]; field_simp
  have ht0 : 0 ≤ t := by rw [ht]; positivity
  have ht1 : t ≤ 1 := by rw [ht, div_le_one hp0]; exact_mod_cast hk
  have hdev : ∀ i ∈ range (p + 1), N (P i - P k - ((i : K) - k) • (P (k + 1) - P k)) ≤ D / 2 * (((i : K) - p * t) ^ 2 - ((i : K) - p * t)) := by
    intro i hi
    have hi' : i ≤ p := Nat.lt_succ_iff.mp (mem_range.mp hi)
    rw [hpt]
    rcases Nat.le_total k i with hki | hki
    · obtain ⟨m, rfl⟩ : ∃ m, i = k + m := ⟨i - k, by omega⟩
      have hc : ((k + m : ℕ) : K) - k = m := by push_cast; ring
      rw [hc]
      rcases Nat.eq_zero_or_pos m with rfl | hm
      · simp [hN.zero]
      obtain ⟨n, rfl⟩ : ∃ n, m = n + 1 := ⟨m - 1, by omega⟩
      obtain ⟨h1, h2⟩ := up_bend hN (k := k) h n (by omega)
      have e : P (k + (n + 1)) - P k - ((n + 1 : ℕ) : K) • (P (k + 1) - P k) =
          (P (k + n) - P k - (n : K) • (P (k + 1) - P k)) + ((P (k + n + 1) - P (k + n)) - (P (k + 1) - P k)) := by
        push_cast
        rw [show k + (n + 1) = k + n + 1 by omega]
        module
      rw [e]
      have := hN.add_le (P (k + n) - P k - (n : K) • (P (k + 1) - P k)) ((P (k + n + 1) - P (k + n)) - (P (k + 1) - P k))
      push_cast
      have e2 : D / 2 * (((n : K) + 1) ^ 2 - (n + 1)) = n * (n - 1) / 2 * D + n * D := by ring
      rw [e2]
      linarith
    · obtain ⟨m, hm⟩ : ∃ m, k = i + m := ⟨k - i, by omega⟩
      have hc : (i : K) - k = -m := by rw [hm]; push_cast; ring
      rw [hc]
      obtain ⟨-, h2⟩ := down_bend hN hk' h m (by omega)
      rw [show k - m = i by omega] at h2
      rw [neg_smul, sub_neg_eq_add]
      refine h2.trans (le_of_eq ?_)
      ring
  have e : P k - triangle t P p 0 = -∑ i ∈ range (p + 1), bern p i t • (P i - P k - ((i : K) - k) • (P (k + 1) - P k)) := by
    have e1 : ∑ i ∈ range (p + 1), bern p i t • (P i - P k - ((i : K) - k) • (P (k + 1) - P k)) =
        (∑ i ∈ range (p + 1), bern p i t • P i) - (∑ i ∈ range (p + 1), bern p i t) • P k -
          ((∑ i ∈ range (p + 1), bern p i t * (i : K)) - (∑ i ∈ range (p + 1), bern p i t) * k) • (P (k + 1) - P k) := by
      rw [sum_smul, sum_mul, ← sum_sub_distrib, ← sum_sub_distrib, sum_smul, ← sum_sub_distrib]
      refine sum_congr rfl fun i _ => ?_
      module
    rw [e1, bern_sum, bern_mean, hpt, triangle_bern]
    simp only [zero_add, one_mul, one_smul, sub_self, zero_smul, sub_zero]
    abel
  rw [e, hN.neg, if_neg (by omega)]
  refine (IsLength.sum_le hN _ _).trans ?_
  have step : ∀ i ∈ range (p + 1), N (bern p i t • (P i - P k - ((i : K) - k) • (P (k + 1) - P k))) ≤
      D / 2 * (bern p i t * ((i : K) - p * t) ^ 2 - (bern p i t * i - bern p i t * (p * t))) := by
    intro i hi
    have hb := bern_nonneg p i ht0 ht1
    rw [hN.smul, abs_of_nonneg hb]
    refine (mul_le_mul_of_nonneg_left (hdev i hi) hb).trans (le_of_eq ?_)
    ring
  refine (sum_le_sum step).trans ?_
  rw [← mul_sum, sum_sub_distrib, sum_sub_distrib, bern_variance, bern_mean, ← sum_mul, bern_sum]
  have : t * (1 - t) ≤ 1 / 4 := by nlinarith [sq_nonneg (2 * t - 1)]
  have h3 : (p : K) * (t * (1 - t)) ≤ p * (1 / 4) := mul_le_mul_of_nonneg_left this hp0.le
  have h4 := mul_le_mul_of_nonneg_left h3 (by positivity : (0 : K) ≤ D / 2)
  have e5 : D / 2 * (p * t * (1 - t) - (p * t - 1 * (p * t))) = D / 2 * (p * (t * (1 - t))) := by ring
  rw [e5]
  refine h4.trans (le_of_eq ?_)
  ring

end Bezman
