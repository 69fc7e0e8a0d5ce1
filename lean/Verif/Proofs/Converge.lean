import Verif.Spec.Converge
import Verif.Spec.Casteljau
import Verif.Spec.Computes
import Verif.Spec.DerivFormula
import Mathlib.Tactic.Linarith
import Mathlib.Tactic.Module
import Mathlib.Tactic.Positivity
import Mathlib.Tactic.FieldSimp
import Mathlib.Algebra.BigOperators.Fin
import Mathlib.Algebra.BigOperators.Intervals

/-! # Distances of control points under splits and elevations -/

namespace Bezman
open Spec Finset
variable {K V : Type} [Field K] [LinearOrder K] [IsStrictOrderedRing K] [AddCommGroup V] [Module K V] {N : V → K}

namespace Spec.IsLength
variable (hN : IsLength N)
include hN

theorem zero : N (0 : V) = 0 := by
  have := hN.smul 0 0
  rwa [zero_smul, abs_zero, zero_mul] at this

theorem neg (x : V) : N (-x) = N x := by
  have := hN.smul (-1) x
  rwa [neg_one_smul, abs_neg, abs_one, one_mul] at this

theorem nonneg (x : V) : 0 ≤ N x := by
  have := hN.add_le x (-x)
  rw [add_neg_cancel, hN.zero, hN.neg] at this
  linarith

theorem sub_comm (x y : V) : N (x - y) = N (y - x) := by rw [← hN.neg, neg_sub]

theorem lerp {c M t : K} (hc : 0 ≤ c) (h0 : 0 ≤ t) (h1 : t ≤ 1) {x y : V} (hx : c * N x ≤ M) (hy : c * N y ≤ M) :
    c * N ((1 - t) • x + t • y) ≤ M := by
  have h2 := hN.add_le ((1 - t) • x) (t • y)
  rw [hN.smul, hN.smul, abs_of_nonneg (sub_nonneg.mpr h1), abs_of_nonneg h0] at h2
  calc c * N ((1 - t) • x + t • y) ≤ c * ((1 - t) * N x + t * N y) := mul_le_mul_of_nonneg_left h2 hc
    _ = (1 - t) * (c * N x) + t * (c * N y) := by ring
    _ ≤ (1 - t) * M + t * M := add_le_add (mul_le_mul_of_nonneg_left hx (sub_nonneg.mpr h1)) (mul_le_mul_of_nonneg_left hy h0)
    _ = M := by ring

theorem triangle {c M t : K} (hc : 0 ≤ c) (h0 : 0 ≤ t) (h1 : t ≤ 1) {P : ℕ → V} : ∀ {r a : ℕ},
    (∀ j, a ≤ j → j ≤ a + r → c * N (P j) ≤ M) → c * N (triangle t P r a) ≤ M
  | 0, a, h => h a le_rfl le_rfl
  | r + 1, a, h => hN.lerp hc h0 h1 (triangle hc h0 h1 fun j h1 h2 => h j h1 (by omega))
      (triangle hc h0 h1 fun j h1 h2 => h j (by omega) (by omega))

end Spec.IsLength

omit [LinearOrder K] [IsStrictOrderedRing K] in
theorem triangle_sub (t : K) (P Q : ℕ → V) : ∀ r a : ℕ, triangle t P r a - triangle t Q r a = triangle t (fun j => P j - Q j) r a
  | 0, a => rfl
  | r + 1, a => by
    show (1 - t) • triangle t P r a + t • triangle t P r (a + 1) - ((1 - t) • triangle t Q r a + t • triangle t Q r (a + 1)) =
      (1 - t) • triangle t (fun j => P j - Q j) r a + t • triangle t (fun j => P j - Q j) r (a + 1)
    rw [← triangle_sub t P Q r a, ← triangle_sub t P Q r (a + 1)]
    module

omit [LinearOrder K] [IsStrictOrderedRing K] in
theorem triangle_shift (t : K) (P : ℕ → V) : ∀ r a : ℕ, triangle t P r (a + 1) = triangle t (fun j => P (j + 1)) r a
  | 0, a => rfl
  | r + 1, a => by
    show (1 - t) • triangle t P r (a + 1) + t • triangle t P r (a + 1 + 1) = _
    rw [triangle_shift t P r a, triangle_shift t P r (a + 1)]
    rfl

/-- steps of the left part of a curve -/
theorem left_step (hN : IsLength N) {c M z : K} (hc : 0 ≤ c) (h0 : 0 ≤ z) (h1 : z ≤ 1) {P : ℕ → V} {i : ℕ}
    (h : ∀ j ≤ i, c * N (P (j + 1) - P j) ≤ M) : c * N (triangle z P (i + 1) 0 - triangle z P i 0) ≤ M * z := by
  have e : triangle z P (i + 1) 0 - triangle z P i 0 = z • triangle z (fun j => P (j + 1) - P j) i 0 := by
    rw [← triangle_sub, ← triangle_shift]
    show (1 - z) • triangle z P i 0 + z • triangle z P i (0 + 1) - _ = _
    module
  rw [e, hN.smul, abs_of_nonneg h0]
  have := hN.triangle (a := 0) (r := i) hc h0 h1 (fun j _ hj => h j (by omega))
  nlinarith

/-- steps of the right part of a curve -/
theorem right_step (hN : IsLength N) {c M z : K} (hc : 0 ≤ c) (h0 : 0 ≤ z) (h1 : z ≤ 1) {P : ℕ → V} {i r : ℕ}
    (h : ∀ j, i ≤ j → j ≤ i + r → c * N (P (j + 1) - P j) ≤ M) :
    c * N (triangle z P r (i + 1) - triangle z P (r + 1) i) ≤ M * (1 - z) := by
  have e : triangle z P r (i + 1) - triangle z P (r + 1) i = (1 - z) • triangle z (fun j => P (j + 1) - P j) r i := by
    rw [← triangle_sub, ← triangle_shift]
    show _ - ((1 - z) • triangle z P r i + z • triangle z P r (i + 1)) = _
    module
  rw [e, hN.smul, abs_of_nonneg (sub_nonneg.mpr h1)]
  have := hN.triangle (a := i) (r := r) hc h0 h1 h
  have h2 := mul_le_mul_of_nonneg_left this (sub_nonneg.mpr h1)
  linarith

omit [LinearOrder K] [IsStrictOrderedRing K] in
theorem elevationOf_eq [CharZero K] (p : ℕ) (P : ℕ → V) {i : ℕ} (hi : i ≤ p + 1) :
    elevationOf K p P i = (1 - (i : K) / (p + 1 : ℕ)) • P i + ((i : K) / (p + 1 : ℕ)) • P (i - 1) := by
  unfold elevationOf
  split_ifs with h1 h2
  · subst h1; simp
  · subst h2
    have : ((p + 1 : ℕ) : K) ≠ 0 := by exact_mod_cast Nat.succ_ne_zero p
    rw [div_self this]; simp
  · rw [mul_one_div]

/-- steps of the elevated curve -/
theorem elevate_step (hN : IsLength N) {M : K} (hM : 0 ≤ M) {p i : ℕ} (hi : i ≤ p) {P : ℕ → V}
    (h : ∀ j < p, p * N (P (j + 1) - P j) ≤ M) :
    (p + 1 : ℕ) * N (elevationOf K p P (i + 1) - elevationOf K p P i) ≤ M := by
  have hp1 : (0 : K) < (p + 1 : ℕ) := by positivity
  rw [elevationOf_eq p P (by omega), elevationOf_eq p P (by omega)]
  have e : (1 - ((i + 1 : ℕ) : K) / (p + 1 : ℕ)) • P (i + 1) + (((i + 1 : ℕ) : K) / (p + 1 : ℕ)) • P (i + 1 - 1) -
      ((1 - (i : K) / (p + 1 : ℕ)) • P i + ((i : K) / (p + 1 : ℕ)) • P (i - 1)) =
      (((p - i : ℕ) : K) / (p + 1 : ℕ)) • (P (i + 1) - P i) + ((i : K) / (p + 1 : ℕ)) • (P i - P (i - 1)) := by
    have e1 : ((p - i : ℕ) : K) / (p + 1 : ℕ) = 1 - ((i + 1 : ℕ) : K) / (p + 1 : ℕ) := by
      rw [Nat.cast_sub hi]; push_cast; push_cast at hp1; field_simp; ring
    rw [e1, Nat.add_sub_cancel]
    have e2 : ((i + 1 : ℕ) : K) / (p + 1 : ℕ) = (i : K) / (p + 1 : ℕ) + 1 / (p + 1 : ℕ) := by push_cast; rw [add_div]
    rw [e2]
    module
  rw [e]
  have h2 := hN.add_le ((((p - i : ℕ) : K) / (p + 1 : ℕ)) • (P (i + 1) - P i)) (((i : K) / (p + 1 : ℕ)) • (P i - P (i - 1)))
  rw [hN.smul, hN.smul, abs_of_nonneg (by positivity), abs_of_nonneg (by positivity)] at h2
  have h3 : (p + 1 : ℕ) * N ((((p - i : ℕ) : K) / (p + 1 : ℕ)) • (P (i + 1) - P i) + ((i : K) / (p + 1 : ℕ)) • (P i - P (i - 1))) ≤
      ((p - i : ℕ) : K) * N (P (i + 1) - P i) + i * N (P i - P (i - 1)) := by
    refine (mul_le_mul_of_nonneg_left h2 hp1.le).trans (le_of_eq ?_)
    field_simp
  refine h3.trans ?_
  rcases Nat.eq_zero_or_pos p with rfl | hp
  · obtain rfl : i = 0 := by omega
    simpa using hM
  have hp0 : (0 : K) < p := by exact_mod_cast hp
  have a1 : ((p - i : ℕ) : K) * N (P (i + 1) - P i) ≤ ((p - i : ℕ) : K) * (M / p) := by
    rcases Nat.lt_or_ge i p with hlt | hge
    · refine mul_le_mul_of_nonneg_left ?_ (by positivity)
      rw [le_div_iff₀ hp0, mul_comm]; exact h i hlt
    · rw [show p - i = 0 by omega]; simp
  have a2 : (i : K) * N (P i - P (i - 1)) ≤ i * (M / p) := by
    rcases Nat.eq_zero_or_pos i with rfl | hi'
    · simp
    · refine mul_le_mul_of_nonneg_left ?_ (by positivity)
      rw [le_div_iff₀ hp0, mul_comm]
      have := h (i - 1) (by omega)
      rwa [Nat.sub_add_cancel hi'] at this
  refine (add_le_add a1 a2).trans (le_of_eq ?_)
  rw [← add_mul, ← Nat.cast_add, Nat.sub_add_cancel hi]
  field_simp

/-- elevation of a difference -/
theorem elevate_diff (hN : IsLength N) {c M : K} (hc : 0 ≤ c) {p i : ℕ} (hi : i ≤ p + 1) {P Q : ℕ → V}
    (h : ∀ j ≤ p, c * N (P j - Q j) ≤ M) : c * N (elevationOf K p P i - elevationOf K p Q i) ≤ M := by
  unfold elevationOf
  split_ifs with h1 h2
  · exact h 0 (by omega)
  · exact h p le_rfl
  · have hp1 : (0 : K) < (p + 1 : ℕ) := by positivity
    have h3 : (i : K) ≤ (p + 1 : ℕ) := by exact_mod_cast hi
    set t := (i : K) * (1 / ((p + 1 : ℕ) : K)) with ht
    have e : (1 - t) • P i + t • P (i - 1) - ((1 - t) • Q i + t • Q (i - 1)) =
      (1 - t) • (P i - Q i) + t • (P (i - 1) - Q (i - 1)) := by module
    rw [e]
    refine hN.lerp hc (by positivity) ?_ (h i (by omega)) (h (i - 1) (by omega))
    rw [ht, mul_one_div, div_le_one hp1]; exact h3

/-! ## nets -/

/-- `M d` bounds the steps of the net in direction `d` -/
def NetSteps (N : V → K) (ps : List ℕ) (P : List ℕ → V) (M : ℕ → K) : Prop :=
  ∀ (d p : ℕ), ps[d]? = some p → ∀ idx, ValidIdx ps (idx.modify d (· + 1)) → p * N (P (idx.modify d (· + 1)) - P idx) ≤ M d

theorem Spec.ValidIdx.of_modify : ∀ {ps idx : List ℕ} {d : ℕ}, ValidIdx ps (idx.modify d (· + 1)) → ValidIdx ps idx := by
  intro ps idx d h
  have hl : idx.length = ps.length := by have := List.Forall₂.length_eq h; simpa using this
  refine List.forall₂_iff_get.mpr ⟨hl, fun i h1 h2 => ?_⟩
  have := (List.forall₂_iff_get.mp h).2 i (by simpa using h1) h2
  simp only [List.get_eq_getElem, List.getElem_modify] at this ⊢
  split at this <;> omega

theorem steps_line (hN : IsLength N) {p : ℕ} {M : K} {P : ℕ → V} (h : ∀ j < p, p * N (P (j + 1) - P j) ≤ M) :
    ∀ {k i : ℕ}, i + k ≤ p → p * N (P (i + k) - P i) ≤ k * M
  | 0, i, _ => by simp [hN.zero]
  | k + 1, i, hk => by
    have h1 := steps_line hN h (k := k) (i := i) (by omega)
    have h2 := h (i + k) (by omega)
    have h3 := hN.add_le (P (i + k + 1) - P (i + k)) (P (i + k) - P i)
    rw [sub_add_sub_cancel] at h3
    have h4 := mul_le_mul_of_nonneg_left h3 (Nat.cast_nonneg (α := K) p)
    push_cast
    rw [← add_assoc]
    linarith

theorem line_diam (hN : IsLength N) {p : ℕ} {M : K} (hM : 0 ≤ M) {P : ℕ → V} (h : ∀ j < p, p * N (P (j + 1) - P j) ≤ M) {i j : ℕ}
    (hi : i ≤ p) (hj : j ≤ p) : N (P i - P j) ≤ M := by
  have key : ∀ {i j : ℕ}, i ≤ j → j ≤ p → N (P j - P i) ≤ M := by
    intro i j hij hj
    rcases Nat.eq_zero_or_pos p with rfl | hp
    · obtain rfl : i = 0 := by omega
      obtain rfl : j = 0 := by omega
      rw [sub_self, hN.zero]; exact hM
    have hp0 : (0 : K) < p := by exact_mod_cast hp
    have := steps_line hN h (k := j - i) (i := i) (by omega)
    rw [Nat.add_sub_cancel' hij] at this
    have h2 : ((j - i : ℕ) : K) * M ≤ p * M := mul_le_mul_of_nonneg_right (by exact_mod_cast (by omega : j - i ≤ p)) hM
    exact le_of_mul_le_mul_left (this.trans h2) hp0
  rcases Nat.le_total i j with h1 | h1
  · rw [hN.sub_comm]; exact key h1 hj
  · exact key h1 hi

theorem NetSteps.head {p : ℕ} {ps : List ℕ} {P : List ℕ → V} {M : ℕ → K} (h : NetSteps N (p :: ps) P M) {idx : List ℕ}
    (hv : ValidIdx ps idx) : ∀ j < p, p * N (P ((j + 1) :: idx) - P (j :: idx)) ≤ M 0 :=
  fun j hj => h 0 p rfl (j :: idx) (.cons hj hv)

theorem NetSteps.tail {p : ℕ} {ps : List ℕ} {P : List ℕ → V} {M : ℕ → K} (h : NetSteps N (p :: ps) P M) {j : ℕ} (hj : j ≤ p) :
    NetSteps N ps (fun idx => P (j :: idx)) (fun d => M (d + 1)) :=
  fun d q hq idx hv => h (d + 1) q hq (j :: idx) (.cons hj hv)

/-- any two points of a net -/
theorem net_diam (hN : IsLength N) : ∀ {ps : List ℕ} {P : List ℕ → V} {M : ℕ → K}, (∀ d < ps.length, 0 ≤ M d) → NetSteps N ps P M →
    ∀ {i j : List ℕ}, ValidIdx ps i → ValidIdx ps j → N (P i - P j) ≤ ∑ d ∈ range ps.length, M d
  | [], P, M, _, _, i, j, hi, hj => by
    cases hi; cases hj
    simp [hN.zero]
  | p :: ps, P, M, hM, h, i, j, hi, hj => by
    cases hi with | @cons i0 _ is _ h1 hi =>
    cases hj with | @cons j0 _ js _ h2 hj =>
    have a1 := line_diam hN (P := fun i => P (i :: is)) (hM 0 (by simp)) (h.head hi) h1 h2
    have a2 := net_diam hN (M := fun d => M (d + 1)) (fun d hd => hM (d + 1) (by simpa using hd)) (h.tail h2) hi hj
    have a3 := hN.add_le (P (i0 :: is) - P (j0 :: is)) (P (j0 :: is) - P (j0 :: js))
    rw [sub_add_sub_cancel] at a3
    rw [List.length_cons, sum_range_succ']
    linarith

omit [LinearOrder K] [IsStrictOrderedRing K] in
theorem casteljau_sub : ∀ (ps : List ℕ) (ts : List K) (P Q : List ℕ → V),
    casteljau ps ts P - casteljau ps ts Q = casteljau ps ts (fun idx => P idx - Q idx)
  | [], _, P, Q => rfl
  | _ :: _, [], P, Q => rfl
  | p :: ps, t :: ts, P, Q => by
    show casteljau ps ts _ - casteljau ps ts _ = casteljau ps ts _
    rw [casteljau_sub ps ts]
    congr 1
    funext idx
    rw [triangle_sub]

theorem casteljau_le (hN : IsLength N) {M : K} : ∀ {ps : List ℕ} {ts : List K} {P : List ℕ → V}, ts.length = ps.length → InCube ts →
    (∀ idx, ValidIdx ps idx → N (P idx) ≤ M) → N (casteljau ps ts P) ≤ M
  | [], _, P, _, _, h => h [] .nil
  | p :: ps, [], P, hl, _, _ => by simp at hl
  | p :: ps, t :: ts, P, hl, h01, h => by
    refine casteljau_le hN (ps := ps) (ts := ts) (by simpa using hl) (fun x hx => h01 x (List.mem_cons_of_mem _ hx)) fun idx hv => ?_
    have := hN.triangle (c := 1) (M := M) (P := fun i => P (i :: idx)) (r := p) (a := 0) zero_le_one (h01 t (by simp)).1 (h01 t (by simp)).2
      (fun j _ hj => by rw [one_mul]; exact h _ (.cons (by omega) hv))
    rwa [one_mul] at this

omit [LinearOrder K] [IsStrictOrderedRing K] in
theorem triangle_const (t : K) (x : V) : ∀ r a : ℕ, triangle t (fun _ => x) r a = x
  | 0, _ => rfl
  | r + 1, a => by
    show (1 - t) • triangle t (fun _ => x) r a + t • triangle t (fun _ => x) r (a + 1) = x
    rw [triangle_const, triangle_const]; module

omit [LinearOrder K] [IsStrictOrderedRing K] in
theorem casteljau_const (x : V) : ∀ (ps : List ℕ) (ts : List K), casteljau ps ts (fun _ => x) = x
  | [], _ => rfl
  | _ :: _, [] => rfl
  | p :: ps, t :: ts => by
    show casteljau ps ts (fun idx => triangle t (fun _ => x) p 0) = x
    rw [triangle_const]; exact casteljau_const x ps ts

/-- a point of the net and a value -/
theorem net_value (hN : IsLength N) {ps : List ℕ} {P : List ℕ → V} {M : ℕ → K} (hM : ∀ d < ps.length, 0 ≤ M d) (h : NetSteps N ps P M)
    {i : List ℕ} (hi : ValidIdx ps i) {ts : List K} (hl : ts.length = ps.length) (h01 : InCube ts) :
    N (P i - casteljau ps ts P) ≤ ∑ d ∈ range ps.length, M d := by
  have e : P i - casteljau ps ts P = casteljau ps ts (fun idx => P i - P idx) := by
    rw [← casteljau_sub ps ts (fun _ => P i) P, casteljau_const]
  rw [e]
  exact casteljau_le hN hl h01 fun idx hv => net_diam hN hM h hi hv

/-- two values of a curve -/
theorem triangle_lip (hN : IsLength N) {c M t u : K} (hc : 0 ≤ c) (ht : 0 ≤ t ∧ t ≤ 1) (hu : 0 ≤ u ∧ u ≤ 1) {P : ℕ → V} : ∀ {r a : ℕ},
    (∀ j, a ≤ j → j < a + r → c * N (P (j + 1) - P j) ≤ M) → c * N (triangle t P r a - triangle u P r a) ≤ r * (M * |t - u|)
  | 0, a, _ => by simp [triangle, hN.zero]
  | r + 1, a, h => by
    have e : triangle t P (r + 1) a - triangle u P (r + 1) a =
        ((1 - u) • (triangle t P r a - triangle u P r a) + u • (triangle t P r (a + 1) - triangle u P r (a + 1))) +
          (t - u) • triangle t (fun j => P (j + 1) - P j) r a := by
      rw [← triangle_sub, ← triangle_shift]
      show (1 - t) • triangle t P r a + t • triangle t P r (a + 1) - ((1 - u) • triangle u P r a + u • triangle u P r (a + 1)) = _
      module
    rw [e]
    have a1 := triangle_lip hN hc ht hu (P := P) (r := r) (a := a) fun j h1 h2 => h j h1 (by omega)
    have a2 := triangle_lip hN hc ht hu (P := P) (r := r) (a := a + 1) fun j h1 h2 => h j (by omega) (by omega)
    have a3 := hN.lerp hc hu.1 hu.2 a1 a2
    have a4 := hN.triangle (a := a) (r := r) hc ht.1 ht.2 (fun j h1 h2 => h j h1 (by omega))
    have a5 := hN.add_le ((1 - u) • (triangle t P r a - triangle u P r a) + u • (triangle t P r (a + 1) - triangle u P r (a + 1)))
      ((t - u) • triangle t (fun j => P (j + 1) - P j) r a)
    rw [hN.smul (t - u)] at a5
    have a6 := mul_le_mul_of_nonneg_left a5 hc
    have a7 := mul_le_mul_of_nonneg_left a4 (abs_nonneg (t - u))
    push_cast
    linarith

/-- two values -/
theorem casteljau_lip (hN : IsLength N) : ∀ {ps : List ℕ} {P : List ℕ → V} {M : ℕ → K}, (∀ d < ps.length, 0 ≤ M d) → NetSteps N ps P M →
    ∀ {ts us : List K}, ts.length = ps.length → us.length = ps.length → InCube ts → InCube us →
    N (casteljau ps ts P - casteljau ps us P) ≤ ∑ d ∈ range ps.length, M d * |ts.getD d 0 - us.getD d 0|
  | [], P, M, _, _, ts, us, _, _, _, _ => by simp [casteljau, hN.zero]
  | p :: ps, P, M, hM, h, [], us, hl, _, _, _ => by simp at hl
  | p :: ps, P, M, hM, h, t :: ts, [], _, hl, _, _ => by simp at hl
  | p :: ps, P, M, hM, h, t :: ts, u :: us, hl, hl', h01, h01' => by
    have ht := h01 t (by simp)
    have hu := h01' u (by simp)
    have g01 : InCube ts := fun x hx => h01 x (List.mem_cons_of_mem _ hx)
    have g01' : InCube us := fun x hx => h01' x (List.mem_cons_of_mem _ hx)
    rw [List.length_cons, sum_range_succ']
    show N (casteljau ps ts (fun idx => triangle t (fun i => P (i :: idx)) p 0) -
      casteljau ps us (fun idx => triangle u (fun i => P (i :: idx)) p 0)) ≤
        ∑ d ∈ range ps.length, M (d + 1) * |ts.getD d 0 - us.getD d 0| + M 0 * |t - u|
    have a1 := casteljau_lip hN (ps := ps) (P := fun idx => triangle t (fun i => P (i :: idx)) p 0) (M := fun d => M (d + 1))
      (fun d hd => hM (d + 1) (by simpa using hd)) (by
        intro d q hq idx hv
        dsimp only
        rw [triangle_sub]
        exact hN.triangle (Nat.cast_nonneg q) ht.1 ht.2 fun j _ hj => h.tail (by omega : j ≤ p) d q hq idx hv)
      (by simpa using hl) (by simpa using hl') g01 g01'
    have a2 : N (casteljau ps us (fun idx => triangle t (fun i => P (i :: idx)) p 0) -
        casteljau ps us (fun idx => triangle u (fun i => P (i :: idx)) p 0)) ≤ M 0 * |t - u| := by
      rw [casteljau_sub]
      refine casteljau_le hN (by simpa using hl') g01' fun idx hv => ?_
      have := triangle_lip hN (c := p) (M := M 0) (t := t) (u := u) (P := fun i => P (i :: idx)) (r := p) (a := 0) (Nat.cast_nonneg p) ht hu
        (fun j _ hj => h.head hv j (by omega))
      rcases Nat.eq_zero_or_pos p with rfl | hp
      · simp only [triangle, sub_self, hN.zero]
        exact mul_nonneg (hM 0 (by simp)) (abs_nonneg _)
      · exact le_of_mul_le_mul_left this (by exact_mod_cast hp)
    have a3 := hN.add_le (casteljau ps ts (fun idx => triangle t (fun i => P (i :: idx)) p 0) -
      casteljau ps us (fun idx => triangle t (fun i => P (i :: idx)) p 0)) (casteljau ps us (fun idx => triangle t (fun i => P (i :: idx)) p 0) -
        casteljau ps us (fun idx => triangle u (fun i => P (i :: idx)) p 0))
    rw [sub_add_sub_cancel] at a3
    linarith

end Bezman
