import Verif.Proofs.Evaluate
import Verif.Model.Elevate
import Mathlib.Algebra.CharZero.Defs
import Mathlib.Data.Nat.Cast.Field

/-! In-place order elevation. -/

namespace Bezman
open Spec Finset

section identity
variable {K V : Type} [Field K] [CharZero K] [AddCommGroup V] [Module K V]

theorem bern_elev_lo (p i : ℕ) (hi : i ≤ p + 1) (t : K) :
    bern (p + 1) i t * (1 - (i : K) * (1 / ((p + 1 : ℕ) : K))) = (1 - t) * bern p i t := by
  have hp : ((p + 1 : ℕ) : K) ≠ 0 := by exact_mod_cast Nat.succ_ne_zero p
  have hc := Nat.choose_mul_succ_eq p i
  have hc' : (p.choose i : K) * ((p + 1 : ℕ) : K) = ((p + 1).choose i : K) * (((p + 1 : ℕ) : K) - (i : K)) := by
    rw [← Nat.cast_sub hi]; exact_mod_cast hc
  have h1 : (1 - (i : K) * (1 / ((p + 1 : ℕ) : K))) = (((p + 1 : ℕ) : K) - (i : K)) / ((p + 1 : ℕ) : K) := by
    field_simp
  rcases Nat.lt_or_ge p i with h | h
  · have : i = p + 1 := by omega
    subst this
    rw [h1, bern_gt h]; simp
  · have h2 : ((p + 1).choose i : K) * ((((p + 1 : ℕ) : K) - (i : K)) / ((p + 1 : ℕ) : K)) = (p.choose i : K) := by
      rw [mul_div_assoc', ← hc', mul_div_assoc, div_self hp, mul_one]
    rw [h1, bern, bern, show p + 1 - i = (p - i) + 1 by omega, pow_succ]
    linear_combination (t ^ i * (1 - t) ^ (p - i) * (1 - t)) * h2

theorem bern_elev_hi (p i : ℕ) (hi : i ≤ p) (t : K) :
    bern (p + 1) (i + 1) t * (((i + 1 : ℕ) : K) * (1 / ((p + 1 : ℕ) : K))) = t * bern p i t := by
  have hp : ((p + 1 : ℕ) : K) ≠ 0 := by exact_mod_cast Nat.succ_ne_zero p
  have hc := Nat.add_one_mul_choose_eq p i
  have hc' : ((p + 1 : ℕ) : K) * (p.choose i : K) = ((p + 1).choose (i + 1) : K) * ((i + 1 : ℕ) : K) := by
    exact_mod_cast hc
  have h2 : ((p + 1).choose (i + 1) : K) * (((i + 1 : ℕ) : K) * (1 / ((p + 1 : ℕ) : K))) = (p.choose i : K) := by
    rw [← mul_assoc, ← hc', mul_one_div, mul_comm, mul_div_assoc, div_self hp, mul_one]
  rw [bern, bern, show p + 1 - (i + 1) = p - i by omega, pow_succ]
  linear_combination (t ^ i * t * (1 - t) ^ (p - i)) * h2

/-- control points of the elevated curve -/
def elev (K : Type) {V : Type} [One K] [Sub K] [Mul K] [Div K] [NatCast K] [Add V] [SMul K V] (p : ℕ) (P : ℕ → V) (i : ℕ) : V :=
  if i = 0 then P 0
  else if i = p + 1 then P p
  else (1 - (i : K) * (1 / ((p + 1 : ℕ) : K))) • P i + ((i : K) * (1 / ((p + 1 : ℕ) : K))) • P (i - 1)

theorem elev_sum (p : ℕ) (P : ℕ → V) (t : K) :
    ∑ i ∈ range (p + 1 + 1), bern (p + 1) i t • elev K p P i = ∑ i ∈ range (p + 1), bern p i t • P i := by
  have hp : ((p + 1 : ℕ) : K) ≠ 0 := by exact_mod_cast Nat.succ_ne_zero p
  have key : ∀ i, i ≤ p + 1 → elev K p P i
      = (1 - (i : K) * (1 / ((p + 1 : ℕ) : K))) • P i + ((i : K) * (1 / ((p + 1 : ℕ) : K))) • P (i - 1) := by
    intro i hi
    unfold elev
    split
    · next h => subst h; simp
    · split
      · next h => subst h; rw [mul_one_div, div_self hp]; simp
      · rfl
  have h1 : ∑ i ∈ range (p + 1 + 1), bern (p + 1) i t • elev K p P i
      = ∑ i ∈ range (p + 1 + 1), ((1 - t) * bern p i t) • P i
        + ∑ i ∈ range (p + 1 + 1), (bern (p + 1) i t * ((i : K) * (1 / ((p + 1 : ℕ) : K)))) • P (i - 1) := by
    rw [← sum_add_distrib]
    apply sum_congr rfl
    intro i hi
    simp at hi
    rw [key i (by omega), smul_add, smul_smul, smul_smul, bern_elev_lo p i (by omega)]
  rw [h1, sum_range_succ, sum_range_succ' _ (p + 1)]
  simp only [bern_gt (Nat.lt_succ_self p), mul_zero, zero_smul, add_zero, Nat.cast_zero, zero_mul,
    Nat.add_sub_cancel]
  rw [← sum_add_distrib]
  apply sum_congr rfl
  intro i hi
  simp at hi
  rw [bern_elev_hi p i (by omega), ← add_smul]
  congr 1; ring

end identity

namespace Spline
variable {K V : Type} [One K] [Sub K] [Mul K] [Div K] [NatCast K] [Add V] [SMul K V]

/-- new contents of position `x` after elevation; `so` is the offset of the dimension -/
def elevNew (K : Type) {V : Type} [One K] [Sub K] [Mul K] [Div K] [NatCast K] [Add V] [SMul K V] (p so : ℕ) (F : ℕ → V)
    (x : ℕ) : V :=
  elev K p (fun i => F (x % so + so * (i + (p + 1) * (x / so / (p + 2))))) (x / so % (p + 2))

theorem elevNew_at {p so : ℕ} (F : ℕ → V) {k i g : ℕ} (hk : k < so) (hi : i < p + 2) :
    elevNew K p so F (k + so * (i + (p + 2) * g))
      = elev K p (fun i => F (k + so * (i + (p + 1) * g))) i := by
  unfold elevNew
  have hso : 0 < so := by omega
  have e1 : (k + so * (i + (p + 2) * g)) % so = k := by
    rw [Nat.add_mul_mod_self_left, Nat.mod_eq_of_lt hk]
  have e2 : (k + so * (i + (p + 2) * g)) / so = i + (p + 2) * g := by
    rw [Nat.add_mul_div_left _ _ hso, Nat.div_eq_of_lt hk, zero_add]
  have e3 : (i + (p + 2) * g) % (p + 2) = i := by
    rw [Nat.add_mul_mod_self_left, Nat.mod_eq_of_lt hi]
  have e4 : (i + (p + 2) * g) / (p + 2) = g := by
    rw [Nat.add_mul_div_left _ _ (by omega), Nat.div_eq_of_lt hi, zero_add]
  rw [e1, e2, e3, e4]

/-- state when all positions `≥ q` have been rewritten -/
def elevSt (K : Type) {V : Type} [One K] [Sub K] [Mul K] [Div K] [NatCast K] [Add V] [SMul K V] (p so N' : ℕ) (F : ℕ → V)
    (q : ℕ) : List V × ℕ :=
  (tab N' (fun x => if q ≤ x then elevNew K p so F x else F x), if q = 0 then 2 ^ 32 - 1 else q - 1)

theorem elevStore_step {p so N' q : ℕ} {F : ℕ → V} (hq : q < N') {value : List V → M V}
    (hv : value (elevSt K p so N' F (q + 1)).1 = .ok (elevNew K p so F q)) :
    elevStore value (elevSt K p so N' F (q + 1)) = .ok (elevSt K p so N' F q) := by
  unfold elevStore
  rw [hv]
  simp only [bind_ok]
  have : (elevSt K p so N' F (q + 1)).2 = q := by simp [elevSt]
  rw [this]
  have h1 : (elevSt K p so N' F (q + 1)).1
      = tab N' (fun x => if q + 1 ≤ x then elevNew K p so F x else F x) := rfl
  rw [h1, wr_tab _ _ hq]
  simp only [bind_ok, pure_eq_ok, elevSt, dec32]
  congr 2
  apply tab_congr; intro x _
  by_cases hx : x = q
  · subst hx; simp
  · rw [Function.update_of_ne hx]
    by_cases h : q ≤ x
    · rw [if_pos h, if_pos (by omega)]
    · rw [if_neg h, if_neg (by omega)]

theorem rd_elevSt {p so N' q x : ℕ} {F : ℕ → V} (hx : x ≤ q) (hq : q < N') :
    rd (elevSt K p so N' F (q + 1)).1 x = .ok (F x) := by
  have h1 : (elevSt K p so N' F (q + 1)).1
      = tab N' (fun x => if q + 1 ≤ x then elevNew K p so F x else F x) := rfl
  rw [h1, rd_tab _ (by omega), if_neg (by omega)]

/-- counting-down loop with known states -/
theorem loopDown_eq {σ : Type} {n : ℕ} {f : ℕ → σ → M σ} {s : σ} (g : ℕ → σ) (h0 : s = g n)
    (hstep : ∀ k, k < n → f k (g (k + 1)) = .ok (g k)) : loopDown n f s = .ok (g 0) := by
  obtain ⟨s', h1, h2⟩ := loopDown_inv (n := n) (f := f) (s := s) (fun k s => s = g k) h0
    (by rintro k hk _ rfl; exact ⟨_, hstep k hk, rfl⟩)
  rw [h1, h2]

theorem elev_group {p so G g : ℕ} {F : ℕ → V} (hso : 0 < so) (hg : g < G) :
    (do
      let st ← loopDown so (fun k st =>
        elevStore (fun mem => rd mem (g * (so * (p + 1)) + k + so * p)) st)
          (elevSt K p so (so * ((p + 2) * G)) F (so * ((p + 2) * (g + 1))))
      let st ← loopDown p (fun i' st =>
        let i := i' + 1
        loopDown so (fun k st =>
          let factor : K := (i : K) * (1 / ((p + 1 : ℕ) : K))
          elevStore (fun mem => do
            let a ← rd mem (g * (so * (p + 1)) + k + so * i)
            let b ← rd mem (g * (so * (p + 1)) + k + so * (i - 1))
            pure ((1 - factor) • a + factor • b)) st) st) st
      loopDown so (fun k st =>
        elevStore (fun mem => rd mem (g * (so * (p + 1)) + k)) st) st)
      = .ok (elevSt K p so (so * ((p + 2) * G)) F (so * ((p + 2) * g))) := by
  set S := elevSt K p so (so * ((p + 2) * G)) F with hS
  have bound : ∀ k i, k < so → i < p + 2 → k + so * (i + (p + 2) * g) < so * ((p + 2) * G) := by
    intro k i hk hi
    have h1 : (p + 2) * (g + 1) ≤ (p + 2) * G := Nat.mul_le_mul_left _ hg
    have h2 : i + (p + 2) * g + 1 ≤ (p + 2) * G := by rw [Nat.mul_succ] at h1; omega
    have h3 := Nat.mul_le_mul_left so h2
    rw [Nat.mul_succ] at h3; omega
  have low : ∀ k i j, j ≤ i → g * (so * (p + 1)) + k + so * j ≤ k + so * (i + (p + 2) * g) := by
    intro k i j hj
    have h1 : so * j ≤ so * i := Nat.mul_le_mul_left _ hj
    have : k + so * (i + (p + 2) * g) = g * (so * (p + 1)) + k + so * i + so * g := by ring
    omega
  have hpos : ∀ k j, g * (so * (p + 1)) + k + so * j = k + so * (j + (p + 1) * g) := by
    intro k j; ring
  -- first loop
  have l1 : loopDown so (fun k st =>
        elevStore (fun mem => rd mem (g * (so * (p + 1)) + k + so * p)) st) (S (so * ((p + 2) * (g + 1))))
      = .ok (S (0 + so * ((p + 1) + (p + 2) * g))) := by
    apply loopDown_eq (fun k => S (k + so * ((p + 1) + (p + 2) * g)))
    · congr 1; ring
    · intro k hk
      have hb := bound k (p + 1) hk (by omega)
      have : k + 1 + so * ((p + 1) + (p + 2) * g) = k + so * ((p + 1) + (p + 2) * g) + 1 := by ring
      simp only [this]
      apply elevStore_step hb
      rw [rd_elevSt (low k (p + 1) p (by omega)) hb, elevNew_at F hk (by omega), hpos]
      simp [elev]
  have l2 : loopDown p (fun i' st =>
        let i := i' + 1
        loopDown so (fun k st =>
          let factor : K := (i : K) * (1 / ((p + 1 : ℕ) : K))
          elevStore (fun mem => do
            let a ← rd mem (g * (so * (p + 1)) + k + so * i)
            let b ← rd mem (g * (so * (p + 1)) + k + so * (i - 1))
            pure ((1 - factor) • a + factor • b)) st) st) (S (so * ((p + 1) + (p + 2) * g)))
      = .ok (S (so * ((0 + 1) + (p + 2) * g))) := by
    apply loopDown_eq (fun i' => S (so * ((i' + 1) + (p + 2) * g))) rfl
    intro i' hi'
    simp only
    have : loopDown so (fun k st =>
          elevStore (fun mem => do
            let a ← rd mem (g * (so * (p + 1)) + k + so * (i' + 1))
            let b ← rd mem (g * (so * (p + 1)) + k + so * (i' + 1 - 1))
            pure ((1 - ((i' + 1 : ℕ) : K) * (1 / ((p + 1 : ℕ) : K))) • a
              + (((i' + 1 : ℕ) : K) * (1 / ((p + 1 : ℕ) : K))) • b)) st)
            (S (so * ((i' + 1 + 1) + (p + 2) * g)))
        = .ok (S (0 + so * ((i' + 1) + (p + 2) * g))) := by
      apply loopDown_eq (fun k => S (k + so * ((i' + 1) + (p + 2) * g)))
      · congr 1; ring
      · intro k hk
        have hb := bound k (i' + 1) hk (by omega)
        have : k + 1 + so * ((i' + 1) + (p + 2) * g) = k + so * ((i' + 1) + (p + 2) * g) + 1 := by ring
        simp only [this]
        apply elevStore_step hb
        rw [rd_elevSt (low k (i' + 1) (i' + 1) (by omega)) hb,
          rd_elevSt (low k (i' + 1) (i' + 1 - 1) (by omega)) hb]
        simp only [bind_ok, pure_eq_ok]
        rw [elevNew_at F hk (by omega), hpos, hpos, elev, if_neg (by omega), if_neg (by omega)]
    rw [zero_add] at this
    exact this
  have l3 : loopDown so (fun k st =>
        elevStore (fun mem => rd mem (g * (so * (p + 1)) + k)) st) (S (so * (1 + (p + 2) * g)))
      = .ok (S (0 + so * (0 + (p + 2) * g))) := by
    apply loopDown_eq (fun k => S (k + so * (0 + (p + 2) * g)))
    · congr 1; ring
    · intro k hk
      have hb := bound k 0 hk (by omega)
      have : k + 1 + so * (0 + (p + 2) * g) = k + so * (0 + (p + 2) * g) + 1 := by ring
      simp only [this]
      apply elevStore_step hb
      have := low k 0 0 (by omega)
      rw [Nat.mul_zero, Nat.add_zero] at this
      rw [rd_elevSt this hb, elevNew_at F hk (by omega)]
      have := hpos k 0
      rw [Nat.mul_zero, Nat.add_zero] at this
      simp [elev, this]
  rw [l1, zero_add]
  simp only [bind_ok]
  rw [l2]
  simp only [bind_ok, zero_add]
  rw [l3]
  simp

theorem orderElevate_mem [Zero V] {s : Spline V} (h : s.WF) {d p : ℕ} (hp : s.degrees[d]? = some p)
    (hs : size (s.degrees.set d (p + 1)) < 2 ^ 31) :
    orderElevate K s d = .ok ⟨s.degrees.set d (p + 1), size (s.degrees.set d (p + 1)),
      offsetsOf (s.degrees.set d (p + 1)),
      tab (size (s.degrees.set d (p + 1)))
        (elevNew K p (size (s.degrees.take d)) (fun i => s.cps.getD i 0))⟩ := by
  obtain ⟨hd, hpd⟩ := List.getElem?_eq_some_iff.mp hp
  set so := size (s.degrees.take d) with hso
  set G := size (s.degrees.drop (d + 1)) with hG
  have hso0 : 0 < so := size_pos _
  have hG0 : 0 < G := size_pos _
  have hsplit := list_split hp
  have hN : size s.degrees = so * ((p + 1) * G) := by
    conv_lhs => rw [hsplit, size_append, size_cons]
  have hN' : size (s.degrees.set d (p + 1)) = so * ((p + 2) * G) := by
    rw [set_split hp, size_append, size_cons]
  have hA : s.ncp / (p + 1) = so * G := by
    rw [h.ncp_eq, hN, show so * ((p + 1) * G) = (p + 1) * (so * G) by ring,
      Nat.mul_div_cancel_left _ (Nat.succ_pos p)]
  rw [hN'] at hs
  have b1 : so * G < 2 ^ 31 := by
    refine lt_of_le_of_lt ?_ hs
    apply Nat.mul_le_mul_left
    calc G = 1 * G := by ring
      _ ≤ (p + 2) * G := Nat.mul_le_mul_right _ (by omega)
  have b2 : so * (p + 1) < 2 ^ 31 := by
    refine lt_of_le_of_lt ?_ hs
    apply Nat.mul_le_mul_left
    calc p + 1 ≤ (p + 2) * 1 := by omega
      _ ≤ (p + 2) * G := Nat.mul_le_mul_left _ hG0
  have b3 : so < 2 ^ 31 := lt_of_le_of_lt (Nat.le_mul_of_pos_right so (Nat.succ_pos p)) b2
  unfold orderElevate
  rw [rd_ok hp, rd_ok (h.off hd)]
  simp only [bind_ok]
  rw [← hso, hA, narrow_ok b1]
  simp only [bind_ok]
  rw [narrow_ok b2]
  simp only [bind_ok]
  rw [narrow_ok b3]
  simp only [bind_ok]
  rw [divU_ok hso0, Nat.mul_div_cancel_left _ hso0]
  simp only [bind_ok]
  rw [wr_ok _ hd]
  simp only [bind_ok]
  have e1 : so * G * (p + 2) = so * ((p + 2) * G) := by ring
  rw [e1, narrow_ok (by omega)]
  simp only [bind_ok]
  have hpos' : 0 < so * ((p + 2) * G) := by positivity
  have hmem : (resize s.cps (so * ((p + 2) * G)), so * ((p + 2) * G) - 1)
      = elevSt K p so (so * ((p + 2) * G)) (fun i => s.cps.getD i 0) (so * ((p + 2) * G)) := by
    simp only [elevSt]
    rw [if_neg (by omega)]
    congr 1
    apply eq_tab_of
    · have : s.cps.length ≤ so * ((p + 2) * G) := by
        rw [h.cps_len, hN]
        apply Nat.mul_le_mul_left
        apply Nat.mul_le_mul_right; omega
      simp [resize]; omega
    · intro i hi
      rw [if_neg (by omega)]
      have hle : s.cps.length ≤ so * ((p + 2) * G) := by
        rw [h.cps_len, hN]
        apply Nat.mul_le_mul_left
        apply Nat.mul_le_mul_right; omega
      unfold resize
      rw [List.take_of_length_le hle, List.getElem?_append]
      split
      · next h' => simp [List.getElem?_eq_getElem h']
      · next h' =>
        rw [List.getElem?_replicate, if_pos (by omega)]
        simp [List.getElem?_eq_none (not_lt.mp h')]
  rw [hmem]
  have hloop := loopDown_eq (n := G)
    (f := fun group_index (st : List V × Nat) => do
      let first ← narrow (group_index * (so * (p + 1)))
      let st ← loopDown so (fun k st =>
        elevStore (fun mem => rd mem (first + k + so * p)) st) st
      let st ← loopDown p (fun i' st =>
        let i := i' + 1
        loopDown so (fun k st =>
          let factor : K := (i : K) * (1 / ((p + 1 : ℕ) : K))
          elevStore (fun mem => do
            let a ← rd mem (first + k + so * i)
            let b ← rd mem (first + k + so * (i - 1))
            pure ((1 - factor) • a + factor • b)) st) st) st
      loopDown so (fun k st =>
        elevStore (fun mem => rd mem (first + k)) st) st)
    (g := fun g => elevSt K p so (so * ((p + 2) * G)) (fun i => s.cps.getD i 0) (so * ((p + 2) * g)))
    rfl (by
      intro g hg
      have b4 : g * (so * (p + 1)) < 2 ^ 31 := by
        refine lt_of_le_of_lt ?_ hs
        calc g * (so * (p + 1)) = so * ((p + 1) * g) := by ring
          _ ≤ so * ((p + 2) * G) := Nat.mul_le_mul_left _ (Nat.mul_le_mul (by omega) (by omega))
      rw [narrow_ok b4]
      simp only [bind_ok]
      exact elev_group hso0 hg)
  rw [hloop]
  simp only [bind_ok]
  rw [updateIndexOffsets_ok (by rw [h.off_len]; simp [dim]) (by have := h.dim_pos; simpa using this)]
  simp only [bind_ok, pure_eq_ok, Nat.mul_zero]
  rw [hN']
  congr 2

end Spline

namespace Spline
variable {K V : Type} [Field K] [AddCommGroup V] [Module K V]

theorem orderElevate_ok [CharZero K] {s : Spline V} (h : s.WF) {d p : ℕ} (hp : s.degrees[d]? = some p)
    (hs : size (s.degrees.set d (p + 1)) < 2 ^ 31) :
    ∃ s', orderElevate K s d = .ok s' ∧ s'.WF ∧ s'.degrees = s.degrees.set d (p + 1) ∧
      ∀ t : List K, t.length = s.dim → s'.value t = s.value t := by
  refine ⟨_, orderElevate_mem h hp hs, ⟨?_, rfl, rfl, by simp⟩, rfl, ?_⟩
  · have := h.dim_pos; simpa using this
  · intro t ht
    obtain ⟨hd, hpd⟩ := List.getElem?_eq_some_iff.mp hp
    have hd' : d < t.length := by rw [ht]; exact hd
    have htd : t[d]? = some t[d] := List.getElem?_eq_getElem hd'
    rw [value_of_tab (F := elevNew K p (size (s.degrees.take d)) (fun i => s.cps.getD i 0)) rfl,
      value_eq_neval]
    simp only
    rw [set_split hp]
    conv_rhs => rw [list_split hp]
    rw [list_split htd]
    apply neval_dim_change
    · simp [ht, dim]
    · intro k g hk hg
      conv_rhs => rw [← elev_sum]
      apply sum_congr rfl
      intro i hi
      simp at hi
      rw [show i + (p + 1 + 1) * g = i + (p + 2) * g by ring, elevNew_at _ hk (by omega)]

end Spline
end Bezman
