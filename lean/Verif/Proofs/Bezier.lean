import Verif.Proofs.Bernstein
import Mathlib.Algebra.Module.BigOperators
import Mathlib.Algebra.Module.LinearMap.Defs
import Mathlib.Algebra.BigOperators.GroupWithZero.Action

/-! Algebra of nested Bernstein sums and of flat control point lists. -/

namespace Bezman
open Spec Finset

section idx

@[simp] theorem size_nil : size [] = 1 := rfl
@[simp] theorem size_cons (p : ℕ) (ps : List ℕ) : size (p :: ps) = (p + 1) * size ps := by
  simp [size]
theorem size_append (l r : List ℕ) : size (l ++ r) = size l * size r := by
  simp [size]
theorem size_pos (ps : List ℕ) : 0 < size ps := by
  induction ps with
  | nil => simp
  | cons p ps ih => simp [ih]

@[simp] theorem flatIndex_cons (p i : ℕ) (ps is : List ℕ) :
    flatIndex (p :: ps) (i :: is) = i + (p + 1) * flatIndex ps is := rfl
@[simp] theorem flatIndex_nil : flatIndex [] [] = 0 := rfl

theorem Spec.ValidIdx.length {ps idx : List ℕ} (h : ValidIdx ps idx) : idx.length = ps.length :=
  List.Forall₂.length_eq h

@[simp] theorem validIdx_nil {idx : List ℕ} : ValidIdx [] idx ↔ idx = [] := by
  simp [ValidIdx]
@[simp] theorem validIdx_cons {p i : ℕ} {ps is : List ℕ} :
    ValidIdx (p :: ps) (i :: is) ↔ i ≤ p ∧ ValidIdx ps is := by
  simp [ValidIdx]
theorem validIdx_cons_iff {p : ℕ} {ps idx : List ℕ} :
    ValidIdx (p :: ps) idx ↔ ∃ i is, i ≤ p ∧ ValidIdx ps is ∧ idx = i :: is := by
  cases idx with
  | nil => simp [ValidIdx]
  | cons i is => simp

theorem flatIndex_lt {ps idx : List ℕ} (h : ValidIdx ps idx) : flatIndex ps idx < size ps := by
  induction ps generalizing idx with
  | nil => simp at h; subst h; simp
  | cons p ps ih =>
    obtain ⟨i, is, hi, his, rfl⟩ := validIdx_cons_iff.mp h
    have := ih his
    rw [flatIndex_cons, size_cons]
    calc i + (p + 1) * flatIndex ps is < (p + 1) + (p + 1) * flatIndex ps is := by omega
      _ = (p + 1) * (flatIndex ps is + 1) := by ring
      _ ≤ (p + 1) * size ps := Nat.mul_le_mul_left _ this

/-- multi-index at a flat position -/
def unflat : List ℕ → ℕ → List ℕ
  | [], _ => []
  | p :: ps, n => n % (p + 1) :: unflat ps (n / (p + 1))

@[simp] theorem unflat_length (ps : List ℕ) (n : ℕ) : (unflat ps n).length = ps.length := by
  induction ps generalizing n with
  | nil => rfl
  | cons p ps ih => simp [unflat, ih]

theorem unflat_valid (ps : List ℕ) (n : ℕ) : ValidIdx ps (unflat ps n) := by
  induction ps generalizing n with
  | nil => simp [unflat]
  | cons p ps ih =>
    simp only [unflat, validIdx_cons]
    exact ⟨Nat.lt_succ_iff.mp (Nat.mod_lt _ (Nat.succ_pos p)), ih _⟩

theorem flatIndex_unflat {ps : List ℕ} {n : ℕ} (h : n < size ps) :
    flatIndex ps (unflat ps n) = n := by
  induction ps generalizing n with
  | nil => simp at h; simp [unflat, h]
  | cons p ps ih =>
    rw [unflat, flatIndex_cons, ih, Nat.mod_add_div]
    rw [size_cons] at h
    exact Nat.div_lt_of_lt_mul h

theorem unflat_flatIndex {ps idx : List ℕ} (h : ValidIdx ps idx) :
    unflat ps (flatIndex ps idx) = idx := by
  induction ps generalizing idx with
  | nil => simp at h; subst h; rfl
  | cons p ps ih =>
    obtain ⟨i, is, hi, his, rfl⟩ := validIdx_cons_iff.mp h
    rw [flatIndex_cons, unflat, Nat.add_mul_mod_self_left, Nat.mod_eq_of_lt (by omega),
      Nat.add_mul_div_left _ _ (Nat.succ_pos p), Nat.div_eq_of_lt (by omega), zero_add, ih his]

theorem flatIndex_append {l r il ir : List ℕ} (h : il.length = l.length) :
    flatIndex (l ++ r) (il ++ ir) = flatIndex l il + size l * flatIndex r ir := by
  induction l generalizing il with
  | nil => cases il <;> simp_all
  | cons p l ih =>
    cases il with
    | nil => simp at h
    | cons i il =>
      simp at h
      simp only [List.cons_append, flatIndex_cons, ih h, size_cons]; ring

theorem unflat_getElem? {ps : List ℕ} {i p : ℕ} (n : ℕ) (h : ps[i]? = some p) :
    (unflat ps n)[i]? = some (n / size (ps.take i) % (p + 1)) := by
  induction ps generalizing i n with
  | nil => simp at h
  | cons q ps ih =>
    cases i with
    | zero => simp at h; subst h; simp [unflat]
    | succ i =>
      simp at h
      simp [unflat, ih _ h, Nat.div_div_eq_div_mul]

theorem validIdx_append {l r il ir : List ℕ} (h : il.length = l.length) :
    ValidIdx (l ++ r) (il ++ ir) ↔ ValidIdx l il ∧ ValidIdx r ir := by
  induction l generalizing il with
  | nil => cases il <;> simp_all
  | cons p l ih =>
    cases il with
    | nil => simp at h
    | cons i il => simp at h; simp [ih h, and_assoc]

end idx

section bezier
variable {K V W : Type} [CommRing K] [AddCommGroup V] [Module K V] [AddCommGroup W] [Module K W]

@[simp] theorem bezier_nil (ts : List K) (P : List ℕ → V) : bezier [] ts P = P [] := by
  cases ts <;> rfl
theorem bezier_cons (p : ℕ) (ps : List ℕ) (t : K) (ts : List K) (P : List ℕ → V) :
    bezier (p :: ps) (t :: ts) P
      = ∑ i ∈ range (p + 1), bern p i t • bezier ps ts (fun idx => P (i :: idx)) := rfl

theorem bezier_congr {ps : List ℕ} {ts : List K} {P Q : List ℕ → V}
    (h : ∀ idx, ValidIdx ps idx → P idx = Q idx) : bezier ps ts P = bezier ps ts Q := by
  induction ps generalizing ts P Q with
  | nil => simp [h []]
  | cons p ps ih =>
    cases ts with
    | nil => rfl
    | cons t ts =>
      rw [bezier_cons, bezier_cons]
      apply sum_congr rfl
      intro i hi
      rw [ih]
      intro idx hidx
      exact h _ (by simp at hi; simp [hidx]; omega)

theorem bezier_map (f : V →ₗ[K] W) (ps : List ℕ) (ts : List K) (P : List ℕ → V) :
    bezier ps ts (fun idx => f (P idx)) = f (bezier ps ts P) := by
  induction ps generalizing ts P with
  | nil => simp
  | cons p ps ih =>
    cases ts with
    | nil => simp [bezier]
    | cons t ts => rw [bezier_cons, bezier_cons, map_sum]; simp [ih]

theorem bezier_add (ps : List ℕ) (ts : List K) (P Q : List ℕ → V) :
    bezier ps ts (fun idx => P idx + Q idx) = bezier ps ts P + bezier ps ts Q := by
  induction ps generalizing ts P Q with
  | nil => simp
  | cons p ps ih =>
    cases ts with
    | nil => simp [bezier]
    | cons t ts => simp only [bezier_cons, ih, smul_add, sum_add_distrib]

theorem bezier_zero (ps : List ℕ) (ts : List K) : bezier ps ts (fun _ => (0 : V)) = 0 := by
  induction ps generalizing ts with
  | nil => simp
  | cons p ps ih => cases ts <;> simp [bezier, ih]

theorem bezier_smul (c : K) (ps : List ℕ) (ts : List K) (P : List ℕ → V) :
    bezier ps ts (fun idx => c • P idx) = c • bezier ps ts P := by
  induction ps generalizing ts P with
  | nil => simp
  | cons p ps ih =>
    cases ts with
    | nil => simp [bezier]
    | cons t ts => simp only [bezier_cons, ih, smul_sum, smul_comm c]

theorem bezier_neg (ps : List ℕ) (ts : List K) (P : List ℕ → V) :
    bezier ps ts (fun idx => - P idx) = - bezier ps ts P := by
  have := bezier_smul (-1 : K) ps ts P
  simpa using this

theorem bezier_sub (ps : List ℕ) (ts : List K) (P Q : List ℕ → V) :
    bezier ps ts (fun idx => P idx - Q idx) = bezier ps ts P - bezier ps ts Q := by
  simp only [sub_eq_add_neg, bezier_add, bezier_neg]

theorem bezier_sum {ι : Type} (s : Finset ι) (ps : List ℕ) (ts : List K) (P : ι → List ℕ → V) :
    bezier ps ts (fun idx => ∑ x ∈ s, P x idx) = ∑ x ∈ s, bezier ps ts (P x) := by
  classical
  induction s using Finset.induction_on with
  | empty => simp [bezier_zero]
  | insert a s ha ih => simp only [sum_insert ha, bezier_add, ih]

theorem bezier_const {ps : List ℕ} {ts : List K} (h : ts.length = ps.length) (v : V) :
    bezier ps ts (fun _ => v) = v := by
  induction ps generalizing ts with
  | nil => simp
  | cons p ps ih =>
    cases ts with
    | nil => simp at h
    | cons t ts =>
      rw [bezier_cons]
      rw [ih (by simpa using h), ← sum_smul, bern_sum, one_smul]

/-! ### values of flat lists -/

/-- value of the control points `F 0, F 1, …` -/
def neval (ps : List ℕ) (ts : List K) (F : ℕ → V) : V := bezier ps ts (fun idx => F (flatIndex ps idx))

@[simp] theorem neval_nil (ts : List K) (F : ℕ → V) : neval [] ts F = F 0 := by simp [neval]

theorem neval_cons (p : ℕ) (ps : List ℕ) (t : K) (ts : List K) (F : ℕ → V) :
    neval (p :: ps) (t :: ts) F
      = ∑ i ∈ range (p + 1), bern p i t • neval ps ts (fun j => F (i + (p + 1) * j)) := rfl

theorem neval_congr {ps : List ℕ} {ts : List K} {F G : ℕ → V} (h : ∀ j, j < size ps → F j = G j) :
    neval ps ts F = neval ps ts G :=
  bezier_congr fun _ hidx => h _ (flatIndex_lt hidx)

theorem neval_map (f : V →ₗ[K] W) (ps : List ℕ) (ts : List K) (F : ℕ → V) :
    neval ps ts (fun j => f (F j)) = f (neval ps ts F) := bezier_map f ps ts _
theorem neval_add (ps : List ℕ) (ts : List K) (F G : ℕ → V) :
    neval ps ts (fun j => F j + G j) = neval ps ts F + neval ps ts G := bezier_add ps ts _ _
theorem neval_zero (ps : List ℕ) (ts : List K) : neval ps ts (fun _ => (0 : V)) = 0 :=
  bezier_zero ps ts
theorem neval_smul (c : K) (ps : List ℕ) (ts : List K) (F : ℕ → V) :
    neval ps ts (fun j => c • F j) = c • neval ps ts F := bezier_smul c ps ts _
theorem neval_neg (ps : List ℕ) (ts : List K) (F : ℕ → V) :
    neval ps ts (fun j => - F j) = - neval ps ts F := bezier_neg ps ts _
theorem neval_sub (ps : List ℕ) (ts : List K) (F G : ℕ → V) :
    neval ps ts (fun j => F j - G j) = neval ps ts F - neval ps ts G := bezier_sub ps ts _ _
theorem neval_sum {ι : Type} (s : Finset ι) (ps : List ℕ) (ts : List K) (F : ι → ℕ → V) :
    neval ps ts (fun j => ∑ x ∈ s, F x j) = ∑ x ∈ s, neval ps ts (F x) := bezier_sum s ps ts _
theorem neval_const {ps : List ℕ} {ts : List K} (h : ts.length = ps.length) (v : V) :
    neval ps ts (fun _ => v) = v := bezier_const h v

/-- collapse the first dimension -/
theorem neval_collapse (p : ℕ) (ps : List ℕ) (t : K) (ts : List K) (F : ℕ → V) :
    neval (p :: ps) (t :: ts) F
      = neval ps ts (fun j => ∑ i ∈ range (p + 1), bern p i t • F (i + (p + 1) * j)) := by
  rw [neval_cons, neval_sum]
  simp only [neval_smul]

theorem neval_append {l r : List ℕ} {tl tr : List K} (h : tl.length = l.length) (F : ℕ → V) :
    neval (l ++ r) (tl ++ tr) F
      = neval l tl (fun k => neval r tr (fun g => F (k + size l * g))) := by
  induction l generalizing tl F with
  | nil => cases tl <;> simp_all
  | cons p l ih =>
    cases tl with
    | nil => simp at h
    | cons t tl =>
      rw [List.cons_append, List.cons_append, neval_cons, neval_cons]
      apply sum_congr rfl
      intro i _
      rw [ih (by simpa using h)]
      congr 1
      apply neval_congr; intro k _
      apply neval_congr; intro g _
      congr 1
      rw [size_cons]; ring

/-- Work on dimension `l.length`: all other dimensions are summed outside. -/
theorem neval_dim {l h : List ℕ} {tl th : List K} (hl : tl.length = l.length) (p : ℕ) (t : K)
    (F : ℕ → V) :
    neval (l ++ p :: h) (tl ++ t :: th) F
      = neval l tl (fun k => neval h th (fun g =>
          ∑ i ∈ range (p + 1), bern p i t • F (k + size l * (i + (p + 1) * g)))) := by
  rw [neval_append hl]
  apply neval_congr; intro k _
  rw [neval_collapse]

theorem neval_dim_change {l h : List ℕ} {tl th : List K} (hl : tl.length = l.length)
    {p p' : ℕ} {t t' : K} {F F' : ℕ → V}
    (h1 : ∀ k g, k < size l → g < size h →
      ∑ i ∈ range (p' + 1), bern p' i t' • F' (k + size l * (i + (p' + 1) * g))
        = ∑ i ∈ range (p + 1), bern p i t • F (k + size l * (i + (p + 1) * g))) :
    neval (l ++ p' :: h) (tl ++ t' :: th) F' = neval (l ++ p :: h) (tl ++ t :: th) F := by
  rw [neval_dim hl, neval_dim hl]
  apply neval_congr; intro k hk
  apply neval_congr; intro g hg
  exact h1 k g hk hg

end bezier
end Bezman
