import Verif.Spec.Shape
import Verif.Proofs.Converge
import Verif.Proofs.Casteljau
import Mathlib.Algebra.Order.Module.Pointwise
import Mathlib.Analysis.Convex.Basic

/-! # Steps of control points in convex sets -/

namespace Bezman
open Spec Finset
open scoped Pointwise
variable {K V : Type} [Field K] [LinearOrder K] [IsStrictOrderedRing K] [AddCommGroup V] [Module K V] {C : Set V}

theorem convex_lerp (hC : Convex K C) {t : K} (h0 : 0 ≤ t) (h1 : t ≤ 1) {x y : V} (hx : x ∈ C) (hy : y ∈ C) :
    (1 - t) • x + t • y ∈ C := hC hx hy (sub_nonneg.mpr h1) h0 (by ring)

theorem triangle_mem (hC : Convex K C) {t : K} (h0 : 0 ≤ t) (h1 : t ≤ 1) {P : ℕ → V} : ∀ {r a : ℕ},
    (∀ j, a ≤ j → j ≤ a + r → P j ∈ C) → triangle t P r a ∈ C
  | 0, a, h => h a le_rfl le_rfl
  | r + 1, a, h => convex_lerp hC h0 h1 (triangle_mem hC h0 h1 fun j h1 h2 => h j h1 (by omega))
      (triangle_mem hC h0 h1 fun j h1 h2 => h j (by omega) (by omega))

theorem casteljau_mem (hC : Convex K C) : ∀ {ps : List ℕ} {ts : List K} {P : List ℕ → V}, ts.length = ps.length → InCube ts →
    (∀ idx, ValidIdx ps idx → P idx ∈ C) → casteljau ps ts P ∈ C
  | [], _, P, _, _, h => h [] .nil
  | p :: ps, [], P, hl, _, _ => by simp at hl
  | p :: ps, t :: ts, P, hl, h01, h => by
    refine casteljau_mem hC (ps := ps) (ts := ts) (by simpa using hl) (fun x hx => h01 x (List.mem_cons_of_mem _ hx)) fun idx hv => ?_
    exact triangle_mem hC (P := fun i => P (i :: idx)) (h01 t (by simp)).1 (h01 t (by simp)).2 fun j _ hj => h _ (.cons (by omega) hv)

/-- two values of a curve: the increment is the difference of the parameters times the degree times an average of the steps -/
theorem triangle_mean (hC : Convex K C) {t u : K} (ht : 0 ≤ t ∧ t ≤ 1) (hu : 0 ≤ u ∧ u ≤ 1) {P : ℕ → V} : ∀ {r a : ℕ},
    (∀ j, a ≤ j → j < a + (r + 1) → P (j + 1) - P j ∈ C) →
    ∃ c ∈ C, triangle t P (r + 1) a - triangle u P (r + 1) a = (t - u) • (r + 1) • c
  | 0, a, h => by
    refine ⟨_, h a le_rfl (by omega), ?_⟩
    show (1 - t) • P a + t • P (a + 1) - ((1 - u) • P a + u • P (a + 1)) = _
    module
  | r + 1, a, h => by
    obtain ⟨c, hc, e1⟩ := triangle_mean hC ht hu (P := P) (r := r) (a := a) fun j h1 h2 => h j h1 (by omega)
    obtain ⟨c', hc', e2⟩ := triangle_mean hC ht hu (P := P) (r := r) (a := a + 1) fun j h1 h2 => h j (by omega) (by omega)
    have h3 := triangle_mem hC (a := a) (r := r + 1) ht.1 ht.2 (P := fun j => P (j + 1) - P j) fun j h1 h2 => h j h1 (by omega)
    have h4 := convex_lerp hC hu.1 hu.2 hc hc'
    have hr : (0 : K) < (r + 2 : ℕ) := by positivity
    refine ⟨_, convex_lerp hC (t := 1 / ((r + 2 : ℕ) : K)) (by positivity) ?_ h4 h3, ?_⟩
    · rw [div_le_one hr]; exact_mod_cast (by omega : 1 ≤ r + 2)
    have e : triangle t P (r + 1 + 1) a - triangle u P (r + 1 + 1) a =
        ((1 - u) • (triangle t P (r + 1) a - triangle u P (r + 1) a) + u • (triangle t P (r + 1) (a + 1) - triangle u P (r + 1) (a + 1))) +
          (t - u) • triangle t (fun j => P (j + 1) - P j) (r + 1) a := by
      rw [← triangle_sub, ← triangle_shift]
      show (1 - t) • triangle t P (r + 1) a + t • triangle t P (r + 1) (a + 1) -
        ((1 - u) • triangle u P (r + 1) a + u • triangle u P (r + 1) (a + 1)) = _
      module
    rw [e, e1, e2]
    set w := triangle t (fun j => P (j + 1) - P j) (r + 1) a
    rw [← Nat.cast_smul_eq_nsmul K, ← Nat.cast_smul_eq_nsmul K, ← Nat.cast_smul_eq_nsmul K, smul_add ((r + 1 + 1 : ℕ) : K), smul_smul ((r + 1 + 1 : ℕ) : K),
      smul_smul ((r + 1 + 1 : ℕ) : K)]
    have e3 : ((r + 1 + 1 : ℕ) : K) * (1 / ((r + 2 : ℕ) : K)) = 1 := by rw [mul_one_div, div_self hr.ne']
    have e4 : ((r + 1 + 1 : ℕ) : K) * (1 - 1 / ((r + 2 : ℕ) : K)) = ((r + 1 : ℕ) : K) := by rw [mul_sub, e3]; push_cast; ring
    rw [e3, e4]
    module

/-- the steps of the net in direction `d` lie in `C` -/
def NetIn (C : Set V) (ps : List ℕ) (P : List ℕ → V) (d : ℕ) : Prop :=
  ∀ p : ℕ, ps[d]? = some p → ∀ idx, ValidIdx ps (idx.modify d (· + 1)) → p • (P (idx.modify d (· + 1)) - P idx) ∈ C

omit [LinearOrder K] [IsStrictOrderedRing K] in
theorem casteljau_smul (c : K) : ∀ (ps : List ℕ) (ts : List K) (P : List ℕ → V),
    casteljau ps ts (fun idx => c • P idx) = c • casteljau ps ts P := by
  have tri : ∀ (t : K) (P : ℕ → V) (r a : ℕ), triangle t (fun j => c • P j) r a = c • triangle t P r a := by
    intro t P r
    induction r with
    | zero => intro a; rfl
    | succ r ih =>
      intro a
      show (1 - t) • triangle t _ r a + t • triangle t _ r (a + 1) = c • ((1 - t) • triangle t P r a + t • triangle t P r (a + 1))
      rw [ih, ih]; module
  intro ps
  induction ps with
  | nil => intro ts P; rfl
  | cons p ps ih =>
    intro ts P
    match ts with
    | [] => rfl
    | t :: ts =>
      show casteljau ps ts (fun idx => triangle t (fun i => c • P (i :: idx)) p 0) = _
      rw [show (fun idx => triangle t (fun i => c • P (i :: idx)) p 0) = fun idx => c • triangle t (fun i => P (i :: idx)) p 0 from
        funext fun idx => tri ..]
      exact ih ts _

theorem convex_nsmul (hC : Convex K C) (p : ℕ) : Convex K {x : V | p • x ∈ C} := by
  intro x hx y hy a b ha hb hab
  have := hC hx hy ha hb hab
  show p • (a • x + b • y) ∈ C
  rwa [smul_add, smul_comm p a, smul_comm p b]

theorem casteljau_mean (hC : Convex K C) : ∀ {ps : List ℕ} {ts : List K} {P : List ℕ → V} {d p : ℕ} {u v : K}, NetIn C ps P d →
    ps[d]? = some p → 0 < p ∨ (0 : V) ∈ C → ts.length = ps.length → InCube ts → 0 ≤ u ∧ u ≤ 1 → 0 ≤ v ∧ v ≤ 1 →
    ∃ c ∈ C, casteljau ps (ts.set d v) P - casteljau ps (ts.set d u) P = (v - u) • c
  | [], _, P, d, p, u, v, _, hp, _, _, _, _, _ => by simp at hp
  | q :: ps, [], P, d, p, u, v, _, _, _, hl, _, _, _ => by simp at hl
  | q :: ps, t :: ts, P, 0, p, u, v, h, hp, hpos, hl, h01, hu, hv => by
    obtain rfl : q = p := by simpa using hp
    obtain rfl | ⟨r, rfl⟩ : q = 0 ∨ ∃ r, q = r + 1 := by
      rcases Nat.eq_zero_or_pos q with h | h
      · exact .inl h
      · exact .inr ⟨q - 1, by omega⟩
    · exact ⟨0, hpos.resolve_left (lt_irrefl _), by rw [smul_zero]; exact sub_self _⟩
    have hc : ∀ idx, ValidIdx ps idx → ∃ c ∈ C, triangle v (fun i => P (i :: idx)) (r + 1) 0 - triangle u (fun i => P (i :: idx)) (r + 1) 0 =
        (v - u) • c := by
      intro idx hi
      obtain ⟨c, hc, e⟩ := triangle_mean (convex_nsmul hC (r + 1)) hv hu (P := fun i => P (i :: idx)) (r := r) (a := 0) fun j _ hj =>
        h _ rfl (j :: idx) (List.Forall₂.cons (show j + 1 ≤ r + 1 by omega) hi)
      exact ⟨_, hc, e⟩
    classical
    let c : List ℕ → V := fun idx => if hi : ValidIdx ps idx then (hc idx hi).choose else 0
    have hg : ∀ idx, ValidIdx ps idx → c idx ∈ C ∧ triangle v (fun i => P (i :: idx)) (r + 1) 0 - triangle u (fun i => P (i :: idx)) (r + 1) 0 =
        (v - u) • c idx := by
      intro idx hi
      simp only [c, dif_pos hi]
      exact (hc idx hi).choose_spec
    refine ⟨casteljau ps ts c, casteljau_mem hC (by simpa using hl) (fun x hx => h01 x (List.mem_cons_of_mem _ hx)) fun idx hi => (hg idx hi).1, ?_⟩
    show casteljau ps ts (fun idx => triangle v _ _ _) - casteljau ps ts (fun idx => triangle u _ _ _) = _
    rw [casteljau_sub, ← casteljau_smul]
    exact casteljau_congr (by simpa using hl) fun idx hi => (hg idx hi).2
  | q :: ps, t :: ts, P, d + 1, p, u, v, h, hp, hpos, hl, h01, hu, hv => by
    have ht := h01 t (by simp)
    refine casteljau_mean hC (ps := ps) (ts := ts) (P := fun idx => triangle t (fun i => P (i :: idx)) q 0) (d := d) (p := p) ?_
      (by simpa using hp) hpos (by simpa using hl) (fun x hx => h01 x (List.mem_cons_of_mem _ hx)) hu hv
    intro p' hp' idx hi
    dsimp only
    rw [triangle_sub]
    refine triangle_mem (convex_nsmul hC p') ht.1 ht.2 fun j _ hj => ?_
    exact h p' (by simpa using hp') (j :: idx) (List.Forall₂.cons (show j ≤ q by omega) hi)

/-! ## splits and elevations -/

omit [LinearOrder K] [IsStrictOrderedRing K] in
theorem left_diff (t : K) (P : ℕ → V) (r : ℕ) :
    triangle t P (r + 1) 0 - triangle t P r 0 = t • triangle t (fun j => P (j + 1) - P j) r 0 := by
  rw [← triangle_sub, ← triangle_shift]
  show (1 - t) • triangle t P r 0 + t • triangle t P r (0 + 1) - triangle t P r 0 = _
  module

omit [LinearOrder K] [IsStrictOrderedRing K] in
theorem right_diff (t : K) (P : ℕ → V) (r a : ℕ) :
    triangle t P r (a + 1) - triangle t P (r + 1) a = (1 - t) • triangle t (fun j => P (j + 1) - P j) r a := by
  rw [← triangle_sub, ← triangle_shift]
  show triangle t P r (a + 1) - ((1 - t) • triangle t P r a + t • triangle t P r (a + 1)) = _
  module

theorem elevate_in (hC : Convex K C) {p i : ℕ} (hi : i ≤ p) {P : ℕ → V} (h : ∀ j < p, p • (P (j + 1) - P j) ∈ C) (h0 : 0 < p ∨ (0 : V) ∈ C) :
    (p + 1) • (elevationOf K p P (i + 1) - elevationOf K p P i) ∈ C := by
  have hp1 : (0 : K) < (p + 1 : ℕ) := by positivity
  have e : (p + 1) • (elevationOf K p P (i + 1) - elevationOf K p P i) = ((p - i : ℕ) : K) • (P (i + 1) - P i) + (i : K) • (P i - P (i - 1)) := by
    rw [elevationOf_eq p P (by omega), elevationOf_eq p P (by omega)]
    have e : (1 - ((i + 1 : ℕ) : K) / (p + 1 : ℕ)) • P (i + 1) + (((i + 1 : ℕ) : K) / (p + 1 : ℕ)) • P (i + 1 - 1) -
        ((1 - (i : K) / (p + 1 : ℕ)) • P i + ((i : K) / (p + 1 : ℕ)) • P (i - 1)) =
        (((p - i : ℕ) : K) / (p + 1 : ℕ)) • (P (i + 1) - P i) + ((i : K) / (p + 1 : ℕ)) • (P i - P (i - 1)) := by
      have e1 : ((p - i : ℕ) : K) / (p + 1 : ℕ) = 1 - ((i + 1 : ℕ) : K) / (p + 1 : ℕ) := by
        rw [Nat.cast_sub hi]; push_cast; push_cast at hp1; field_simp; ring
      rw [e1, Nat.add_sub_cancel]
      have e2 : ((i + 1 : ℕ) : K) / (p + 1 : ℕ) = (i : K) / (p + 1 : ℕ) + 1 / (p + 1 : ℕ) := by push_cast; rw [add_div]
      rw [e2]
      module
    rw [e, ← Nat.cast_smul_eq_nsmul K, smul_add, smul_smul, smul_smul, mul_div_cancel₀ _ hp1.ne', mul_div_cancel₀ _ hp1.ne']
  rw [e]
  rcases Nat.eq_zero_or_pos p with rfl | hp
  · obtain rfl : i = 0 := by omega
    simpa using h0
  have hp0 : (p : K) ≠ 0 := by exact_mod_cast hp.ne'
  rcases Nat.eq_zero_or_pos i with rfl | hi'
  · have := h 0 hp
    rw [← Nat.cast_smul_eq_nsmul K] at this
    simpa using this
  rcases Nat.lt_or_ge i p with hlt | hge
  · have a1 := h i hlt
    have a2 := h (i - 1) (by omega)
    rw [Nat.sub_add_cancel hi'] at a2
    have hp0' : (0 : K) < p := by exact_mod_cast hp
    have := convex_lerp hC (t := (i : K) / p) (by positivity) (by rw [div_le_one hp0']; exact_mod_cast hi) a1 a2
    rw [← Nat.cast_smul_eq_nsmul K p, ← Nat.cast_smul_eq_nsmul K p, smul_smul, smul_smul, div_mul_cancel₀ _ hp0, sub_mul, one_mul,
      div_mul_cancel₀ _ hp0] at this
    rwa [Nat.cast_sub hi]
  · obtain rfl : i = p := by omega
    have := h (i - 1) (by omega)
    rw [Nat.sub_add_cancel hi', ← Nat.cast_smul_eq_nsmul K] at this
    simpa using this

theorem elevate_lin (hC : Convex K C) {p i m : ℕ} (hi : i ≤ p + 1) {P Q : ℕ → V} (h : ∀ j ≤ p, m • (P j - Q j) ∈ C) :
    m • (elevationOf K p P i - elevationOf K p Q i) ∈ C := by
  unfold elevationOf
  split_ifs with h1 h2
  · exact h 0 (by omega)
  · exact h p le_rfl
  · have hp1 : (0 : K) < (p + 1 : ℕ) := by positivity
    have h3 : (i : K) ≤ (p + 1 : ℕ) := by exact_mod_cast hi
    set t := (i : K) * (1 / ((p + 1 : ℕ) : K)) with ht
    have e : (1 - t) • P i + t • P (i - 1) - ((1 - t) • Q i + t • Q (i - 1)) =
      (1 - t) • (P i - Q i) + t • (P (i - 1) - Q (i - 1)) := by module
    rw [e]
    refine convex_lerp (convex_nsmul hC m) (by positivity) ?_ (h i (by omega)) (h (i - 1) (by omega))
    rw [ht, mul_one_div, div_le_one hp1]; exact h3

theorem Spec.IsCone.convex (h : IsCone K C) : Convex K C := by
  intro x hx y hy a b ha hb hab
  rcases ha.eq_or_lt with rfl | ha
  · obtain rfl : b = 1 := by rw [← hab, zero_add]
    simpa using hy
  · rcases hb.eq_or_lt with rfl | hb
    · obtain rfl : a = 1 := by rw [← hab, add_zero]
      simpa using hx
    · exact h.add _ (h.smul _ ha _ hx) _ (h.smul _ hb _ hy)

/-- the net of the first derivative in direction `d` -/
theorem derivNet_single {K V : Type} [Field K] [AddCommGroup V] [Module K V] {ps : List ℕ} {P : List ℕ → V} {n d p : ℕ} (hp : ps[d]? = some p) :
    ∀ (k : ℕ) (idx : List ℕ), idx.length = n → d < n → derivNet K ps ((List.replicate n 0).set d 1) P k idx =
      if k ≤ d then P idx else p • (P (idx.modify d (· + 1)) - P idx)
  | 0, idx, _, _ => by simp [derivNet]
  | k + 1, idx, hl, hd => by
    rw [derivNet]
    by_cases hk : k = d
    · subst hk
      have e1 : ((List.replicate n 0).set k 1).getD k 0 = 1 := by simp [List.getD_eq_getElem?_getD, hd]
      have e2 : ps.getD k 0 = p := by rw [List.getD_eq_getElem?_getD, hp]; rfl
      rw [e1, e2, if_neg one_ne_zero, if_neg (by omega)]
      have e3 : ∀ m, derivNet K ps ((List.replicate n 0).set k 1) P k (idx.set k m) = P (idx.set k m) := by
        intro m
        rw [derivNet_single hp k _ (by simpa using hl) hd, if_pos le_rfl]
      simp only [e3]
      have hk : k < idx.length := by omega
      have e4 : idx.set k (idx.getD k 0) = idx := by
        rw [List.getD_eq_getElem?_getD, List.getElem?_eq_getElem hk]; exact List.set_getElem_self hk
      have e5 : idx.set k (idx.getD k 0 + 1) = idx.modify k (· + 1) := by
        rw [List.modify_eq_set, List.getD_eq_getElem?_getD, List.getElem?_eq_getElem hk]
        rfl
      simp only [derivOf, differenceOf, repeatFrom, signOf, fallingOf]
      simp only [Nat.sub_self, Nat.one_mod, one_ne_zero, if_false, Nat.choose_self, Nat.cast_one, mul_one, Nat.add_zero, repeatFrom,
        e4, e5]
      rw [← Nat.cast_smul_eq_nsmul K]
      module
    · have e1 : ((List.replicate n 0).set d 1).getD k 0 = 0 := by
        rw [List.getD_eq_getElem?_getD, List.getElem?_set, if_neg (Ne.symm hk), List.getElem?_replicate]
        split <;> rfl
      rw [e1, if_pos rfl, derivNet_single hp k idx hl hd]
      by_cases h : k ≤ d
      · rw [if_pos h, if_pos (by omega)]
      · rw [if_neg h, if_neg (by omega)]

end Bezman
