import Verif.Proofs.Basis
import Mathlib.RingTheory.Polynomial.Bernstein

/-! Derivatives of Bernstein polynomials: the code computes them. -/

namespace Bezman
open Spec Finset Polynomial

variable {K : Type} [CommRing K]

theorem bern_eq_eval (p i : ℕ) (t : K) : bern p i t = (bernsteinPolynomial K p i).eval t := by
  simp [bern, bernsteinPolynomial]

/-- Bernstein polynomial with the index shifted down by `j`, zero for negative indices -/
noncomputable def bz (K : Type) [CommRing K] (n j i : ℕ) : K[X] :=
  if j ≤ i then bernsteinPolynomial K n (i - j) else 0

theorem derivative_bz (n j i : ℕ) :
    derivative (bz K n j i) = (n : K[X]) * (bz K (n - 1) (j + 1) i - bz K (n - 1) j i) := by
  unfold bz
  by_cases h : j ≤ i
  · rw [if_pos h, if_pos h]
    by_cases h' : j + 1 ≤ i
    · rw [if_pos h']
      obtain ⟨m, rfl⟩ := Nat.exists_eq_add_of_le h'
      rw [show j + 1 + m - j = m + 1 by omega, show j + 1 + m - (j + 1) = m by omega,
        bernsteinPolynomial.derivative_succ]
    · rw [if_neg h', show i - j = 0 by omega, bernsteinPolynomial.derivative_zero]
      ring
  · rw [if_neg h, if_neg h, if_neg (by omega)]; simp

theorem iterate_derivative_bernstein (p i k : ℕ) :
    derivative^[k] (bernsteinPolynomial K p i)
      = (p.descFactorial k : K[X]) * ∑ j ∈ range (k + 1),
          ((-1) ^ (j + k) * (k.choose j : K[X])) * bz K (p - k) j i := by
  induction k with
  | zero => simp [bz]
  | succ k ih =>
    rw [Function.iterate_succ_apply', ih, derivative_mul, derivative_natCast,
      zero_mul, zero_add, derivative_sum]
    have h1 : ∀ j, derivative (((-1) ^ (j + k) * (k.choose j : K[X])) * bz K (p - k) j i)
        = ((p - k : ℕ) : K[X]) * (((-1) ^ (j + k) * (k.choose j : K[X]))
          * (bz K (p - (k + 1)) (j + 1) i - bz K (p - (k + 1)) j i)) := by
      intro j
      have : ((-1 : K[X]) ^ (j + k) * (k.choose j : K[X])) = C ((-1) ^ (j + k) * (k.choose j : K)) := by
        simp
      rw [this, derivative_C_mul, derivative_bz, Nat.sub_sub]
      ring
    simp only [h1]
    rw [← mul_sum, ← mul_assoc, Nat.descFactorial_succ, Nat.cast_mul,
      mul_comm (p.descFactorial k : K[X])]
    congr 1
    simp only [mul_sub, sum_sub_distrib]
    rw [sum_range_succ' (fun j => (-1) ^ (j + (k + 1)) * ((k + 1).choose j : K[X]) * bz K (p - (k + 1)) j i)]
    have h2 : ∀ j, (-1 : K[X]) ^ (j + 1 + (k + 1)) * ((k + 1).choose (j + 1) : K[X]) * bz K (p - (k + 1)) (j + 1) i
        = (-1) ^ (j + k) * (k.choose j : K[X]) * bz K (p - (k + 1)) (j + 1) i
          + (-1) ^ (j + k) * (k.choose (j + 1) : K[X]) * bz K (p - (k + 1)) (j + 1) i := by
      intro j
      rw [Nat.choose_succ_succ, Nat.cast_add, show j + 1 + (k + 1) = (j + k) + 2 by ring, pow_add]
      ring
    simp only [h2, sum_add_distrib]
    rw [sub_eq_add_neg, add_assoc]
    congr 1
    rw [← sum_neg_distrib, sum_range_succ', sum_range_succ _ k]
    simp only [Nat.choose_succ_self, Nat.cast_zero, mul_zero, zero_mul, add_zero, Nat.choose_zero_right]
    congr 1
    · apply sum_congr rfl; intro j _
      rw [show j + 1 + k = (j + k) + 1 by ring, pow_succ]; ring
    · rw [show 0 + (k + 1) = (0 + k) + 1 by ring, pow_succ]; ring

/-- `k`-th derivative of the Bernstein polynomial, evaluated -/
noncomputable def dB (p k i : ℕ) (t : K) : K := (derivative^[k] (bernsteinPolynomial K p i)).eval t

theorem dB_zero (p i : ℕ) (t : K) : dB p 0 i t = bern p i t := by
  simp [dB, bern_eq_eval]

theorem bernsteinPolynomial_natDegree (p i : ℕ) : (bernsteinPolynomial K p i).natDegree ≤ p := by
  by_cases h : i ≤ p
  · unfold bernsteinPolynomial
    have h1 : ((p.choose i : K[X]) * X ^ i).natDegree ≤ i := by
      have := natDegree_C_mul_X_pow_le (p.choose i : K) i
      simpa using this
    have h2 : ((1 - X : K[X]) ^ (p - i)).natDegree ≤ p - i := by
      refine le_trans natDegree_pow_le ?_
      have : (1 - X : K[X]).natDegree ≤ 1 := by
        refine le_trans (natDegree_sub_le _ _) ?_
        simp [natDegree_X_le]
      calc (p - i) * (1 - X : K[X]).natDegree ≤ (p - i) * 1 := Nat.mul_le_mul_left _ this
        _ = p - i := by ring
    calc _ ≤ _ := natDegree_mul_le
      _ ≤ i + (p - i) := add_le_add h1 h2
      _ = p := by omega
  · rw [bernsteinPolynomial.eq_zero_of_lt K (by omega)]; simp

theorem dB_gt {p k : ℕ} (h : p < k) (i : ℕ) (t : K) : dB p k i t = 0 := by
  unfold dB
  rw [iterate_derivative_eq_zero (lt_of_le_of_lt (bernsteinPolynomial_natDegree p i) h), eval_zero]

theorem dB_eq (p k i : ℕ) (t : K) :
    dB p k i t = (∑ j ∈ range (k + 1),
      if j ≤ i then (-1) ^ (j + k) * ((k.choose j : K) * bern (p - k) (i - j) t) else 0)
        * (p.descFactorial k : K) := by
  unfold dB
  rw [iterate_derivative_bernstein, eval_mul, eval_finsetSum, mul_comm]
  congr 1
  · apply sum_congr rfl
    intro j _
    unfold bz
    split
    · simp [bern_eq_eval, mul_assoc]
    · simp
  · simp

theorem bernsteinEvaluateDerivative_ok {cfg : Cfg} (hc : cfg.Ok) {p : ℕ} (hp : p < cfg.maxBinom)
    (t : K) (k : ℕ) :
    bernsteinEvaluateDerivative cfg p t k = .ok (tab (p + 1) (fun i => dB p k i t)) := by
  unfold bernsteinEvaluateDerivative
  rw [assertM_ok (by simpa using hp)]
  simp only [bind_ok]
  by_cases h1 : p < k
  · rw [if_pos h1, replicate_eq_tab, pure_eq_ok]
    congr 1; apply tab_congr; intro i _; rw [dB_gt h1]
  rw [if_neg h1]
  by_cases h2 : k = 0
  · subst h2
    rw [if_pos rfl, bernsteinEvaluate_ok hc hp]
    congr 1; apply tab_congr; intro i _; rw [dB_zero]
  rw [if_neg h2, bernsteinEvaluate_ok hc (by omega)]
  simp only [bind_ok]
  have haux : loop k (fun j v => pure (v * ((p - j : ℕ) : K))) (1 : K)
      = .ok ((p.descFactorial k : ℕ) : K) := by
    apply loop_eq (fun j => ((p.descFactorial j : ℕ) : K))
    · simp
    · intro j hj
      rw [pure_eq_ok, Nat.descFactorial_succ, Nat.cast_mul, mul_comm]
  rw [haux]
  simp only [bind_ok]
  rw [replicate_eq_tab]
  -- outer loop
  have : ∀ j : ℕ, ∀ x : K, (if (j + k) % 2 = 1 then -x else x) = (-1) ^ (j + k) * x := by
    intro j x
    rcases Nat.even_or_odd (j + k) with he | ho
    · rw [if_neg (by rw [Nat.even_iff] at he; omega), he.neg_one_pow, one_mul]
    · rw [if_pos (by rw [Nat.odd_iff] at ho; omega), ho.neg_one_pow]; ring
  simp only [this]
  set term : ℕ → ℕ → K := fun i j => (-1) ^ (j + k) * ((k.choose j : K) * bern (p - k) (i - j) t)
    with hterm
  obtain ⟨r, hr1, hr2⟩ := loop_inv (n := p + 1) (s := tab (p + 1) (fun _ => (0 : K)))
    (f := fun i ev => do
      let ev ← loopFrom (i + k - p) (min i k + 1) (fun j ev => do
        let c ← choose cfg k j
        let b ← rd (tab (p - k + 1) (fun i => bern (p - k) i t)) (i - j)
        let e ← rd ev i
        wr ev i (e + (-1) ^ (j + k) * ((c : K) * b))) ev
      let e ← rd ev i
      wr ev i (e * ((p.descFactorial k : ℕ) : K)))
    (P := fun m ev => ev = tab (p + 1) (fun i => if i < m then dB p k i t else 0))
    (by apply tab_congr; intro i _; simp)
    (by
      rintro i hi _ rfl
      obtain ⟨r', hr1, hr2⟩ := loopFrom_inv (a := i + k - p) (b := min i k + 1)
        (s := tab (p + 1) (fun x => if x < i then dB p k x t else 0))
        (f := fun j ev => do
          let c ← choose cfg k j
          let b ← rd (tab (p - k + 1) (fun i => bern (p - k) i t)) (i - j)
          let e ← rd ev i
          wr ev i (e + (-1) ^ (j + k) * ((c : K) * b)))
        (P := fun j ev => ev = tab (p + 1) (Function.update
          (fun x => if x < i then dB p k x t else 0) i (∑ l ∈ Ico (i + k - p) j, term i l)))
        (by omega)
        (by
          apply tab_congr; intro x _
          by_cases hx : x = i
          · subst hx; simp
          · rw [Function.update_of_ne hx])
        (by
          rintro j hj1 hj2 _ rfl
          rw [choose_ok hc (by omega) (by omega)]
          simp only [bind_ok]
          rw [rd_tab _ (by omega), rd_tab _ hi]
          simp only [bind_ok]
          refine ⟨_, wr_tab _ _ hi, ?_⟩
          apply tab_congr; intro x _
          by_cases hx : x = i
          · subst hx
            simp only [Function.update_self]
            rw [sum_Ico_succ_top hj1]
          · simp only [Function.update_of_ne hx])
      rw [hr1]
      simp only [bind_ok]
      rw [hr2, rd_tab _ hi]
      simp only [bind_ok, Function.update_self]
      refine ⟨_, wr_tab _ _ hi, ?_⟩
      apply tab_congr; intro x _
      by_cases hx : x = i
      · subst hx
        rw [Function.update_self, if_pos (by omega), dB_eq]
        congr 1
        rw [← sum_filter]
        apply sum_subset
        · intro j hj
          simp only [mem_Ico] at hj
          simp only [mem_filter, mem_range]
          omega
        · intro j hj hj'
          simp only [mem_Ico, mem_filter, mem_range] at hj hj'
          rw [hterm]
          simp only
          rw [bern_gt (by omega)]; simp
      · rw [Function.update_of_ne hx, Function.update_of_ne hx]
        by_cases h : x < i
        · rw [if_pos h, if_pos (by omega)]
        · rw [if_neg h, if_neg (by omega)])
  rw [hr1, hr2]
  congr 1
  apply tab_congr; intro i hi
  rw [if_pos hi]

namespace Spline
variable {V : Type} [AddCommGroup V] [Module K V]

/-- derivative values of the Bernstein polynomials as functions of the index, per dimension -/
noncomputable def dFns : List ℕ → List ℕ → List K → List (ℕ → K)
  | p :: ps, k :: ks, t :: ts => (fun i => dB p k i t) :: dFns ps ks ts
  | _, _, _ => []

theorem dFns_length {ps ks : List ℕ} {ts : List K} (h1 : ks.length = ps.length)
    (h2 : ts.length = ps.length) : (dFns ps ks ts).length = ps.length := by
  induction ps generalizing ks ts with
  | nil => rfl
  | cons p ps ih =>
    cases ks with
    | nil => simp at h1
    | cons k ks =>
      cases ts with
      | nil => simp at h2
      | cons t ts => simp at h1 h2; simp [dFns, ih h1 h2]

theorem dFns_getElem? {ps ks : List ℕ} {ts : List K} {d p k : ℕ} {t : K} (hp : ps[d]? = some p)
    (hk : ks[d]? = some k) (ht : ts[d]? = some t) :
    (dFns ps ks ts)[d]? = some (fun i => dB p k i t) := by
  induction ps generalizing ks ts d with
  | nil => simp at hp
  | cons p' ps ih =>
    cases ks with
    | nil => simp at hk
    | cons k' ks =>
      cases ts with
      | nil => simp at ht
      | cons t' ts =>
        cases d with
        | zero => simp at hp hk ht; simp [dFns, hp, hk, ht]
        | succ d => simp at hp hk ht; simp [dFns, ih hp hk ht]

omit [AddCommGroup V] in
theorem basisFunctionsDerivatives_ok {cfg : Cfg} (hc : cfg.Ok) {s : Spline V} (hpos : 0 < s.dim)
    (hd : DegOk cfg s.degrees) {t : List K} (ht : t.length = s.dim) {ks : List ℕ}
    (hk : ks.length = s.dim) :
    s.basisFunctionsDerivatives cfg t ks
      = .ok (tab (size s.degrees) (fun n => pw (dFns s.degrees ks t) (unflat s.degrees n))) := by
  unfold basisFunctionsDerivatives basisFunctionsDerivativeContributions
  have := contributions_ok (dFns_length (ps := s.degrees) hk ht)
    (fun d => do
      let p ← rd s.degrees d
      let x ← rd t d
      let k ← rd ks d
      bernsteinEvaluateDerivative cfg p x k) (by
      intro d p f hp hf
      have hlt : d < s.degrees.length := (List.getElem?_eq_some_iff.mp hp).1
      have hlt' : d < t.length := by rw [ht]; exact hlt
      have hlt'' : d < ks.length := by rw [hk]; exact hlt
      have hx : t[d]? = some t[d] := List.getElem?_eq_getElem hlt'
      have hkk : ks[d]? = some ks[d] := List.getElem?_eq_getElem hlt''
      rw [dFns_getElem? hp hkk hx] at hf
      rw [rd_ok hp, rd_ok hx, rd_ok hkk]
      simp only [bind_ok]
      rw [bernsteinEvaluateDerivative_ok hc (hd p (List.mem_of_getElem? hp))]
      simp at hf; rw [hf])
  simp only [bind_assoc] at this
  simp only [dim] at *
  rw [this]
  simp only [bind_ok]
  exact recursiveCombine_ok (dFns_length (ps := s.degrees) hk ht) hpos

theorem evaluateDerivative_ok {cfg : Cfg} (hc : cfg.Ok) {s : Spline V} (h : s.WF)
    (hd : DegOk cfg s.degrees) {t : List K} (ht : t.length = s.dim) {ks : List ℕ}
    (hk : ks.length = s.dim) :
    s.evaluateDerivative cfg t ks
      = .ok (tens s.degrees (dFns s.degrees ks t) (fun n => s.cps.getD n 0)) := by
  unfold evaluateDerivative
  rw [basisFunctionsDerivatives_ok hc h.dim_pos hd ht hk]
  simp only [bind_ok]
  rw [h.cps_tab, weightedSum_ok, sum_pw _ (dFns_length (ps := s.degrees) hk ht)]
  congr 1
  apply tens_congr
  intro j hj
  simp [tab, hj]

end Spline
end Bezman
