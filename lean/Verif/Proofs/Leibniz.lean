import Verif.Proofs.DerivSpline
import Mathlib.Data.Nat.Choose.Sum
import Mathlib.Tactic.Abel

/-! Sums over multi-indices with binomial coefficients. -/

namespace Bezman
open Spec Finset

variable {K V : Type} [Field K] [AddCommGroup V] [Module K V]

/-- `∑_{j ≤ k} C(k,j) B j (k - j)` over multi-indices -/
def leib (K : Type) {V : Type} [Field K] [AddCommGroup V] [Module K V] : List ℕ → (List ℕ → List ℕ → V) → V
  | [], B => B [] []
  | k :: ks, B => ∑ i ∈ range (k + 1), (k.choose i : K) • leib K ks (fun j l => B (i :: j) ((k - i) :: l))

/-- `j + l = k` -/
inductive Pair : List ℕ → List ℕ → List ℕ → Prop
  | nil : Pair [] [] []
  | cons {k j l : ℕ} {ks js ls : List ℕ} (h : j + l = k) (t : Pair ks js ls) : Pair (k :: ks) (j :: js) (l :: ls)

theorem Pair.len {k j l : List ℕ} (h : Pair k j l) : j.length = k.length ∧ l.length = k.length := by
  induction h with
  | nil => simp
  | cons _ _ ih => simp [ih]

theorem Pair.sum {k j l : List ℕ} (h : Pair k j l) : j.sum + l.sum = k.sum := by
  induction h with
  | nil => rfl
  | cons h _ ih => simp only [List.sum_cons]; omega

theorem leib_congr {k : List ℕ} {B C : List ℕ → List ℕ → V} (h : ∀ j l, Pair k j l → B j l = C j l) :
    leib K k B = leib K k C := by
  induction k generalizing B C with
  | nil => exact h [] [] .nil
  | cons k ks ih =>
    simp only [leib]
    apply sum_congr rfl
    intro i hi
    simp only [mem_range] at hi
    rw [ih (fun j l hp => h (i :: j) ((k - i) :: l) (.cons (by omega) hp))]

theorem leib_add (k : List ℕ) (B C : List ℕ → List ℕ → V) :
    leib K k (fun j l => B j l + C j l) = leib K k B + leib K k C := by
  induction k generalizing B C with
  | nil => rfl
  | cons k ks ih =>
    simp only [leib, ← sum_add_distrib, ← smul_add, ← ih]

theorem leib_sub (k : List ℕ) (B C : List ℕ → List ℕ → V) :
    leib K k (fun j l => B j l - C j l) = leib K k B - leib K k C := by
  induction k generalizing B C with
  | nil => rfl
  | cons k ks ih =>
    simp only [leib, ← sum_sub_distrib, ← smul_sub, ← ih]

theorem leib_zero (k : List ℕ) : leib K k (fun _ _ => (0 : V)) = 0 := by
  have := leib_sub (K := K) k (fun _ _ => (0 : V)) (fun _ _ => 0)
  simpa using this

/-- all zeros -/
def IsZero (l : List ℕ) : Prop := ∀ x ∈ l, x = 0
instance (l : List ℕ) : Decidable (IsZero l) := by unfold IsZero; infer_instance

theorem isZero_cons {x : ℕ} {l : List ℕ} : IsZero (x :: l) ↔ x = 0 ∧ IsZero l := by
  simp [IsZero]

theorem isZero_iff {l : List ℕ} : IsZero l ↔ l = List.replicate l.length 0 := by
  unfold IsZero
  rw [List.eq_replicate_iff]; simp

theorem isZero_sum {l : List ℕ} : IsZero l ↔ l.sum = 0 := by
  unfold IsZero; rw [List.sum_eq_zero_iff]

/-- the term with `j = 0` -/
theorem leib_split (k : List ℕ) (B : List ℕ → List ℕ → V) :
    leib K k B = B (List.replicate k.length 0) k + leib K k (fun j l => if IsZero j then 0 else B j l) := by
  induction k generalizing B with
  | nil => simp [leib, IsZero]
  | cons k ks ih =>
    simp only [leib]
    rw [sum_range_succ', sum_range_succ', ih]
    simp only [isZero_cons, Nat.succ_ne_zero, false_and, if_false, true_and, Nat.choose_zero_right, Nat.cast_one,
      one_smul, Nat.sub_zero, List.length_cons, List.replicate_succ, Nat.add_eq_zero_iff, Nat.one_ne_zero, and_false]
    abel

/-- one-dimensional Pascal rule -/
theorem pascal (k : ℕ) (G : ℕ → ℕ → V) :
    ∑ i ∈ range (k + 1 + 1), ((k + 1).choose i : K) • G i (k + 1 - i)
      = ∑ i ∈ range (k + 1), (k.choose i : K) • (G (i + 1) (k - i) + G i (k - i + 1)) := by
  rw [sum_range_succ']
  simp only [Nat.choose_succ_succ, Nat.cast_add, add_smul, smul_add, sum_add_distrib, Nat.add_sub_add_right]
  rw [add_assoc]
  congr 1
  rw [sum_range_succ]
  simp only [Nat.choose_succ_self, Nat.cast_zero, zero_smul, add_zero]
  conv_rhs => rw [sum_range_succ']
  congr 1
  · apply sum_congr rfl
    intro i hi
    simp only [mem_range] at hi
    rw [show k - (i + 1) + 1 = k - i by omega]
  · simp

/-- add one in direction `d` -/
def bump (d : ℕ) (l : List ℕ) : List ℕ := l.modify d (· + 1)

theorem bump_length (d : ℕ) (l : List ℕ) : (bump d l).length = l.length := by simp [bump]
@[simp] theorem bump_zero (x : ℕ) (l : List ℕ) : bump 0 (x :: l) = (x + 1) :: l := by simp [bump]
@[simp] theorem bump_succ (d x : ℕ) (l : List ℕ) : bump (d + 1) (x :: l) = x :: bump d l := by simp [bump]

theorem bump_sum {d : ℕ} {l : List ℕ} (h : d < l.length) : (bump d l).sum = l.sum + 1 := by
  induction l generalizing d with
  | nil => simp at h
  | cons x l ih =>
    cases d with
    | zero => simp; omega
    | succ d => simp at h; simp [ih h]; omega

theorem leib_bump {d : ℕ} {k : List ℕ} (h : d < k.length) (B : List ℕ → List ℕ → V) :
    leib K (bump d k) B = leib K k (fun j l => B (bump d j) l + B j (bump d l)) := by
  induction k generalizing d B with
  | nil => simp at h
  | cons k ks ih =>
    cases d with
    | zero =>
      simp only [bump_zero, leib]
      rw [pascal k (fun i i' => leib K ks (fun j l => B (i :: j) (i' :: l)))]
      apply sum_congr rfl
      intro i _
      rw [← leib_add]
    | succ d =>
      simp only [bump_succ, leib]
      apply sum_congr rfl
      intro i _
      rw [ih (by simpa using h)]

/-! ### the recursion for the derivatives of a quotient -/

/-- the recursion of the code with a bound on the depth -/
def quotAux (A : List ℕ → V) (W : List ℕ → K) (w : K) : ℕ → List ℕ → V
  | 0, k => w⁻¹ • A k
  | n + 1, k => w⁻¹ • (A k - leib K k (fun j l => if IsZero j then 0 else W j • quotAux A W w n l))

theorem quotAux_stable (A : List ℕ → V) (W : List ℕ → K) (w : K) (n : ℕ) (k : List ℕ) (h : k.sum ≤ n) :
    quotAux A W w (n + 1) k = quotAux A W w n k := by
  induction n generalizing k with
  | zero =>
    simp only [quotAux]
    rw [leib_congr (C := fun _ _ => 0) (by
      intro j l hp
      rw [if_pos]
      rw [isZero_sum]
      have := hp.sum; omega), leib_zero, sub_zero]
  | succ n ih =>
    rw [quotAux, quotAux]
    congr 2
    apply leib_congr
    intro j l hp
    by_cases hj : IsZero j
    · simp [hj]
    · rw [if_neg hj, if_neg hj, ih]
      have := hp.sum
      rw [isZero_sum] at hj
      omega

theorem quotAux_ge (A : List ℕ → V) (W : List ℕ → K) (w : K) {n : ℕ} {k : List ℕ} (h : k.sum ≤ n) :
    quotAux A W w n k = quotAux A W w k.sum k := by
  induction n, h using Nat.le_induction with
  | base => rfl
  | succ n hn ih => rw [quotAux_stable _ _ _ _ _ hn, ih]

/-- the derivative of order `k` of the quotient, from those of numerator and denominator -/
def quot (A : List ℕ → V) (W : List ℕ → K) (w : K) (k : List ℕ) : V := quotAux A W w k.sum k

theorem quot_rec (A : List ℕ → V) (W : List ℕ → K) (w : K) (k : List ℕ) :
    quot A W w k = w⁻¹ • (A k - leib K k (fun j l => if IsZero j then 0 else W j • quot A W w l)) := by
  unfold quot
  rw [← quotAux_ge A W w (Nat.le_succ k.sum), quotAux]
  congr 2
  apply leib_congr
  intro j l hp
  by_cases hj : IsZero j
  · simp [hj]
  · rw [if_neg hj, if_neg hj, quotAux_ge]
    have := hp.sum; omega

/-- the quotient times the denominator is the numerator (Leibniz rule) -/
theorem quot_leib (A : List ℕ → V) (W : List ℕ → K) (w : K) (hw : w ≠ 0) (k : List ℕ)
    (hW : W (List.replicate k.length 0) = w) : leib K k (fun j l => W j • quot A W w l) = A k := by
  rw [leib_split, hW, quot_rec, smul_inv_smul₀ hw]
  abel

/-- sums over multi-indices as sums over the flat index -/
theorem leib_flat {ks k : List ℕ} (h : ValidIdx ks k) (B : List ℕ → List ℕ → V) :
    leib K k B = ∑ n ∈ range (size ks), ((List.zipWith Nat.choose k (unflat ks n)).prod : K) •
      B (unflat ks n) (List.zipWith (· - ·) k (unflat ks n)) := by
  induction ks generalizing k B with
  | nil => simp at h; subst h; simp [leib, unflat]
  | cons q ks ih =>
    obtain ⟨x, xs, h1, h2, rfl⟩ := validIdx_cons_iff.mp h
    rw [size_cons, sum_range_mul]
    have hr : ∀ i ∈ range (q + 1), ∑ j ∈ range (size ks),
        (((List.zipWith Nat.choose (x :: xs) (unflat (q :: ks) (i + (q + 1) * j))).prod : ℕ) : K) •
          B (unflat (q :: ks) (i + (q + 1) * j)) (List.zipWith (· - ·) (x :: xs) (unflat (q :: ks) (i + (q + 1) * j)))
        = (x.choose i : K) • leib K xs (fun j l => B (i :: j) ((x - i) :: l)) := by
      intro i hi
      simp only [mem_range] at hi
      rw [ih h2, smul_sum]
      apply sum_congr rfl
      intro j _
      have hu : unflat (q :: ks) (i + (q + 1) * j) = i :: unflat ks j := by
        simp only [unflat]
        rw [Nat.add_mul_mod_self_left, Nat.mod_eq_of_lt hi, Nat.add_mul_div_left _ _ (by omega), Nat.div_eq_of_lt hi,
          zero_add]
      rw [hu, List.zipWith_cons_cons, List.zipWith_cons_cons, List.prod_cons, Nat.cast_mul, smul_smul]
    rw [sum_congr rfl hr]
    simp only [leib]
    apply sum_subset_zero_on_sdiff (range_subset_range.mpr (by omega))
    · intro i hi
      simp only [mem_sdiff, mem_range] at hi
      rw [Nat.choose_eq_zero_of_lt (by omega)]; simp
    · intro i _; rfl

end Bezman
