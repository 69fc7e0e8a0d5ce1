import Verif.Proofs.Evaluate
import Verif.Model.Split

/-! Splitting: memory contents (no algebraic laws) and subdivision identities. -/

namespace Bezman
open Spec Finset

section identity
variable {K V : Type} [CommRing K] [AddCommGroup V] [Module K V]

theorem dc_lin (z a b : K) (P Q : ℕ → V) (r j : ℕ) :
    triangle z (fun i => a • P i + b • Q i) r j = a • triangle z P r j + b • triangle z Q r j := by
  induction r generalizing j with
  | zero => rfl
  | succ r ih =>
    simp only [triangle, ih, smul_add, smul_smul, mul_comm a, mul_comm b]
    abel

theorem dc_shift (z : K) (P : ℕ → V) (r j : ℕ) :
    triangle z (fun i => P (i + 1)) r j = triangle z P r (j + 1) := by
  induction r generalizing j with
  | zero => rfl
  | succ r ih => simp only [triangle, ih]

/-- left part of the subdivision -/
theorem split_left (p : ℕ) (z t : K) (P : ℕ → V) :
    ∑ i ∈ range (p + 1), bern p i t • triangle z P i 0 = ∑ i ∈ range (p + 1), bern p i (z * t) • P i := by
  induction p generalizing P with
  | zero => simp [bern_zero_left, triangle]
  | succ p ih =>
    rw [bern_sum_succ, bern_sum_succ, ← ih]
    apply sum_congr rfl
    intro i _
    congr 1
    rw [dc_succ', ← dc_lin]
    congr 1
    funext j
    simp only [smul_add, smul_smul]
    rw [← add_assoc, ← add_smul]
    congr 2 <;> ring

/-- right part of the subdivision -/
theorem split_right (p : ℕ) (z t : K) (P : ℕ → V) :
    ∑ i ∈ range (p + 1), bern p i t • triangle z P (p - i) i
      = ∑ i ∈ range (p + 1), bern p i (z + (1 - z) * t) • P i := by
  induction p generalizing P with
  | zero => simp [bern_zero_left, triangle]
  | succ p ih =>
    rw [bern_sum_succ, bern_sum_succ, ← ih]
    apply sum_congr rfl
    intro i hi
    simp only [mem_range] at hi
    congr 1
    rw [show p + 1 - i = (p - i) + 1 by omega, show p + 1 - (i + 1) = p - i by omega, dc_succ',
      ← dc_shift, ← dc_lin]
    congr 1
    funext j
    simp only [smul_add, smul_smul]
    rw [add_assoc, ← add_smul]
    congr 2 <;> ring

end identity

namespace Spline
variable {K V : Type}

section mech
variable [One K] [Sub K] [Add V] [SMul K V]

/-- round `i` on one fibre -/
theorem split_round {N so st p i : ℕ} {z : K} {F : ℕ → V} {cur : ℕ → V} (hso : 0 < so) (hi : 1 ≤ i)
    (hip : i ≤ p) (hN : ∀ j, j ≤ p → st + j * so < N) (hF : ∀ j, j ≤ p → F (st + j * so) = cur j) :
    ∃ G, loopDown (p + 1 - i) (fun j' first => do
          let j := j' + i
          let a ← rd first (st + (j - 1) * so)
          let b ← rd first (st + j * so)
          wr first (st + j * so) ((1 - z) • a + z • b)) (tab N F) = .ok (tab N G) ∧
      (∀ j, i ≤ j → j ≤ p → G (st + j * so) = (1 - z) • cur (j - 1) + z • cur j) ∧
      (∀ j, j < i → G (st + j * so) = F (st + j * so)) ∧
      (∀ x, (∀ j, j ≤ p → x ≠ st + j * so) → G x = F x) := by
  have hinj : ∀ a b, st + a * so = st + b * so → a = b := by
    intro a b hab
    exact Nat.eq_of_mul_eq_mul_right hso (by omega)
  obtain ⟨m, h1, G, rfl, h2, h3, h4⟩ := loopDown_inv (n := p + 1 - i) (s := tab N F)
    (f := fun j' first => do
          let j := j' + i
          let a ← rd first (st + (j - 1) * so)
          let b ← rd first (st + j * so)
          wr first (st + j * so) ((1 - z) • a + z • b))
    (P := fun k m => ∃ G, m = tab N G ∧
      (∀ j, k + i ≤ j → j ≤ p → G (st + j * so) = (1 - z) • cur (j - 1) + z • cur j) ∧
      (∀ j, j < k + i → G (st + j * so) = F (st + j * so)) ∧
      (∀ x, (∀ j, j ≤ p → x ≠ st + j * so) → G x = F x))
    ⟨F, rfl, fun j h1 h2 => by omega, fun j _ => rfl, fun x _ => rfl⟩
    (by
      rintro k hk _ ⟨G, rfl, g1, g2, g3⟩
      have hkp : k + i ≤ p := by omega
      simp only
      rw [rd_tab G (hN (k + i - 1) (by omega)), rd_tab G (hN (k + i) hkp)]
      simp only [bind_ok]
      refine ⟨_, wr_tab _ _ (hN (k + i) hkp), _, rfl, ?_, ?_, ?_⟩
      · intro j hj1 hj2
        by_cases hjk : j = k + i
        · subst hjk
          rw [Function.update_self, g2 _ (by omega), g2 _ (by omega), hF _ (by omega), hF _ (by omega)]
        · rw [Function.update_of_ne (fun h => hjk (hinj _ _ h))]; exact g1 j (by omega) hj2
      · intro j hj
        rw [Function.update_of_ne (fun h => by have := hinj _ _ h; omega)]; exact g2 j (by omega)
      · intro x hx
        rw [Function.update_of_ne (hx (k + i) hkp)]; exact g3 x hx)
  refine ⟨G, h1, fun j hj => h2 j (by omega), fun j hj => h3 j (by omega), h4⟩

/-- all rounds on one fibre -/
theorem split_fibre {N so st p : ℕ} {z : K} {F S : ℕ → V} (hso : 0 < so)
    (hN : ∀ j, j ≤ p → st + j * so < N) :
    ∃ G H, loopFrom 1 (p + 1) (fun i (r : List V × List V) => do
        let first ← loopDown (p + 1 - i) (fun j' first => do
          let j := j' + i
          let a ← rd first (st + (j - 1) * so)
          let b ← rd first (st + j * so)
          wr first (st + j * so) ((1 - z) • a + z • b)) r.1
        let x ← rd first (st + p * so)
        let second ← wr r.2 (st + (p - i) * so) x
        pure (first, second)) (tab N F, tab N S) = .ok (tab N G, tab N H) ∧
      (∀ j, j ≤ p → G (st + j * so) = triangle z (fun j => F (st + j * so)) j 0) ∧
      (∀ x, (∀ j, j ≤ p → x ≠ st + j * so) → G x = F x) ∧
      (∀ j, j < p → H (st + j * so) = triangle z (fun j => F (st + j * so)) (p - j) j) ∧
      (∀ x, (∀ j, j < p → x ≠ st + j * so) → H x = S x) := by
  have hinj : ∀ a b, st + a * so = st + b * so → a = b := by
    intro a b hab
    exact Nat.eq_of_mul_eq_mul_right hso (by omega)
  set D := triangle z (fun j => F (st + j * so)) with hD
  obtain ⟨m, h1, G, H, rfl, h2, h3, h4, h5⟩ := loopFrom_inv (a := 1) (b := p + 1) (s := (tab N F, tab N S))
    (f := fun i (r : List V × List V) => do
        let first ← loopDown (p + 1 - i) (fun j' first => do
          let j := j' + i
          let a ← rd first (st + (j - 1) * so)
          let b ← rd first (st + j * so)
          wr first (st + j * so) ((1 - z) • a + z • b)) r.1
        let x ← rd first (st + p * so)
        let second ← wr r.2 (st + (p - i) * so) x
        pure (first, second))
    (P := fun i r => ∃ G H, r = (tab N G, tab N H) ∧
      (∀ j, j ≤ p → G (st + j * so) = D (min (i - 1) j) (j - (i - 1))) ∧
      (∀ x, (∀ j, j ≤ p → x ≠ st + j * so) → G x = F x) ∧
      (∀ j, j < p → p < j + i → H (st + j * so) = D (p - j) j) ∧
      (∀ x, (∀ j, j < p → p < j + i → x ≠ st + j * so) → H x = S x))
    (by omega)
    ⟨F, S, rfl, fun j _ => by simp [hD, triangle], fun x _ => rfl, fun j hj1 hj2 => by omega, fun x _ => rfl⟩
    (by
      rintro i hi1 hi2 _ ⟨G, H, rfl, g1, g2, g3, g4⟩
      obtain ⟨G', e1, e2, e3, e4⟩ := split_round (z := z)
        (cur := fun j => D (min (i - 1) j) (j - (i - 1))) hso hi1 (by omega) hN g1
      simp only at e1 ⊢
      rw [e1]
      simp only [bind_ok]
      rw [rd_tab G' (hN p le_rfl)]
      simp only [bind_ok]
      rw [wr_tab _ _ (hN (p - i) (by omega))]
      have hG' : ∀ j, j ≤ p → G' (st + j * so) = D (min i j) (j - i) := by
        intro j hj
        by_cases hij : i ≤ j
        · rw [e2 j hij hj, min_eq_left (by omega), min_eq_left (by omega), min_eq_left hij]
          obtain ⟨i0, rfl⟩ : ∃ i0, i = i0 + 1 := ⟨i - 1, by omega⟩
          rw [hD, triangle]
          simp only [Nat.add_sub_cancel]
          rw [show j - 1 - i0 = j - (i0 + 1) by omega, show j - i0 = j - (i0 + 1) + 1 by omega]
        · rw [e3 j (by omega), g1 j hj, min_eq_right (by omega), min_eq_right (by omega)]
          congr 1; omega
      refine ⟨_, rfl, G', _, rfl, ?_, ?_, ?_, ?_⟩
      · intro j hj; rw [hG' j hj, Nat.add_sub_cancel]
      · intro x hx; rw [e4 x hx, g2 x hx]
      · intro j hj1 hj2
        by_cases hji : j = p - i
        · subst hji
          rw [Function.update_self, hG' p le_rfl, min_eq_left (by omega)]
          congr 1; omega
        · rw [Function.update_of_ne (fun h => hji (hinj _ _ h))]; exact g3 j hj1 (by omega)
      · intro x hx
        rw [Function.update_of_ne (hx (p - i) (by omega) (by omega))]
        exact g4 x (fun j hj1 hj2 => hx j hj1 (by omega)))
  refine ⟨G, H, h1, ?_, h3, fun j hj => h4 j hj (by omega), fun x hx => h5 x (fun j hj _ => hx j hj)⟩
  intro j hj
  rw [h2 j hj]
  congr 1
  · omega
  · omega

/-- fibre of the net through position `x` -/
def fibre (so p : ℕ) (F : ℕ → V) (x j : ℕ) : V := F (x % so + so * (j + (p + 1) * (x / so / (p + 1))))

omit [Add V] in
theorem fibre_at {so p k i g : ℕ} (hk : k < so) (hi : i ≤ p) (F : ℕ → V) :
    fibre so p F (k + so * (i + (p + 1) * g)) = fun j => F (k + so * (j + (p + 1) * g)) := by
  have hso : 0 < so := by omega
  have e1 : (k + so * (i + (p + 1) * g)) % so = k := by
    rw [Nat.add_mul_mod_self_left, Nat.mod_eq_of_lt hk]
  have e2 : (k + so * (i + (p + 1) * g)) / so = i + (p + 1) * g := by
    rw [Nat.add_mul_div_left _ _ hso, Nat.div_eq_of_lt hk, zero_add]
  have e4 : (i + (p + 1) * g) / (p + 1) = g := by
    rw [Nat.add_mul_div_left _ _ (by omega), Nat.div_eq_of_lt (by omega), zero_add]
  funext j
  unfold fibre
  rw [e1, e2, e4]

theorem layer_at {so p k i g : ℕ} (hk : k < so) (hi : i ≤ p) :
    (k + so * (i + (p + 1) * g)) / so % (p + 1) = i := by
  have hso : 0 < so := by omega
  rw [Nat.add_mul_div_left _ _ hso, Nat.div_eq_of_lt hk, zero_add, Nat.add_mul_mod_self_left,
    Nat.mod_eq_of_lt (by omega)]

theorem split_loop {so p G : ℕ} {z : K} {F : ℕ → V} (hso : 0 < so) :
    loop (so * G) (fun sp (r : List V × List V) => do
      let group_id ← divU sp so
      let id_in_group ← modU sp so
      let start := group_id * (so * (p + 1)) + id_in_group
      loopFrom 1 (p + 1) (fun i (r : List V × List V) => do
        let first ← loopDown (p + 1 - i) (fun j' first => do
          let j := j' + i
          let a ← rd first (start + (j - 1) * so)
          let b ← rd first (start + j * so)
          wr first (start + j * so) ((1 - z) • a + z • b)) r.1
        let x ← rd first (start + p * so)
        let second ← wr r.2 (start + (p - i) * so) x
        pure (first, second)) r) (tab (so * ((p + 1) * G)) F, tab (so * ((p + 1) * G)) F)
      = .ok (tab (so * ((p + 1) * G)) (fun x => triangle z (fibre so p F x) (x / so % (p + 1)) 0),
          tab (so * ((p + 1) * G)) (fun x => triangle z (fibre so p F x) (p - x / so % (p + 1)) (x / so % (p + 1)))) := by
  set N := so * ((p + 1) * G) with hN
  -- positions of fibre `sp`
  set pos : ℕ → ℕ → ℕ := fun sp j => sp % so + so * (j + (p + 1) * (sp / so)) with hpos
  have pos_eq : ∀ sp j, (sp / so) * (so * (p + 1)) + sp % so + j * so = pos sp j := by
    intro sp j; simp only [hpos]; ring
  have pos_inj : ∀ sp j sp' j', j ≤ p → j' ≤ p → pos sp j = pos sp' j' → sp = sp' ∧ j = j' := by
    intro sp j sp' j' hj hj' h
    have a1 : pos sp j % so = pos sp' j' % so := by rw [h]
    have a2 : pos sp j / so = pos sp' j' / so := by rw [h]
    simp only [hpos] at a1 a2
    have hm := Nat.mod_lt sp hso
    have hm' := Nat.mod_lt sp' hso
    rw [Nat.add_mul_mod_self_left, Nat.add_mul_mod_self_left, Nat.mod_mod, Nat.mod_mod] at a1
    rw [Nat.add_mul_div_left _ _ hso, Nat.add_mul_div_left _ _ hso, Nat.div_eq_of_lt hm,
      Nat.div_eq_of_lt hm', zero_add, zero_add] at a2
    have b1 : (j + (p + 1) * (sp / so)) % (p + 1) = (j' + (p + 1) * (sp' / so)) % (p + 1) := by rw [a2]
    have b2 : (j + (p + 1) * (sp / so)) / (p + 1) = (j' + (p + 1) * (sp' / so)) / (p + 1) := by rw [a2]
    rw [Nat.add_mul_mod_self_left, Nat.add_mul_mod_self_left, Nat.mod_eq_of_lt (by omega),
      Nat.mod_eq_of_lt (by omega)] at b1
    rw [Nat.add_mul_div_left _ _ (by omega), Nat.add_mul_div_left _ _ (by omega),
      Nat.div_eq_of_lt (a := j) (by omega), Nat.div_eq_of_lt (a := j') (by omega), zero_add, zero_add] at b2
    refine ⟨?_, b1⟩
    rw [← Nat.div_add_mod sp so, ← Nat.div_add_mod sp' so, a1, b2]
  have pos_lt : ∀ sp j, sp < so * G → j ≤ p → pos sp j < N := by
    intro sp j hsp hj
    have hg : sp / so < G := by rw [Nat.div_lt_iff_lt_mul hso]; rw [mul_comm]; exact hsp
    have hm := Nat.mod_lt sp hso
    have h1 : (p + 1) * (sp / so + 1) ≤ (p + 1) * G := Nat.mul_le_mul_left _ hg
    have h2 : j + (p + 1) * (sp / so) + 1 ≤ (p + 1) * G := by rw [Nat.mul_succ] at h1; omega
    have h3 := Nat.mul_le_mul_left so h2
    rw [Nat.mul_succ] at h3
    simp only [hpos, hN]; omega
  obtain ⟨m, h1, A, B, rfl, h2, h3⟩ := loop_inv (n := so * G) (s := (tab N F, tab N F))
    (f := fun sp (r : List V × List V) => do
      let group_id ← divU sp so
      let id_in_group ← modU sp so
      let start := group_id * (so * (p + 1)) + id_in_group
      loopFrom 1 (p + 1) (fun i (r : List V × List V) => do
        let first ← loopDown (p + 1 - i) (fun j' first => do
          let j := j' + i
          let a ← rd first (start + (j - 1) * so)
          let b ← rd first (start + j * so)
          wr first (start + j * so) ((1 - z) • a + z • b)) r.1
        let x ← rd first (start + p * so)
        let second ← wr r.2 (start + (p - i) * so) x
        pure (first, second)) r)
    (P := fun k r => ∃ A B, r = (tab N A, tab N B) ∧
      (∀ sp j, j ≤ p → A (pos sp j) = if sp < k then triangle z (fun j => F (pos sp j)) j 0 else F (pos sp j)) ∧
      (∀ sp j, j ≤ p → B (pos sp j) = if sp < k then triangle z (fun j => F (pos sp j)) (p - j) j else F (pos sp j)))
    ⟨F, F, rfl, fun sp j _ => by simp, fun sp j _ => by simp⟩
    (by
      rintro k hk _ ⟨A, B, rfl, hA, hB⟩
      rw [divU_ok hso, modU_ok hso]
      simp only [bind_ok]
      obtain ⟨A', B', e1, e2, e3, e4, e5⟩ := split_fibre (z := z) (F := A) (S := B) (p := p) (N := N)
        (st := k / so * (so * (p + 1)) + k % so) hso (fun j hj => by rw [pos_eq]; exact pos_lt k j hk hj)
      rw [e1]
      refine ⟨_, rfl, A', B', rfl, ?_, ?_⟩
      · intro sp j hj
        by_cases hsp : sp = k
        · subst hsp
          have h2 := e2 j hj
          simp only [pos_eq] at h2
          have : triangle z (fun j => A (pos sp j)) j 0 = triangle z (fun j => F (pos sp j)) j 0 := by
            have key : ∀ r i, r + i ≤ p → triangle z (fun j => A (pos sp j)) r i = triangle z (fun j => F (pos sp j)) r i := by
              intro r
              induction r with
              | zero => intro i hi; simp only [triangle]; rw [hA sp i (by omega), if_neg (by omega)]
              | succ r ih => intro i hi; simp only [triangle]; rw [ih i (by omega), ih (i + 1) (by omega)]
            exact key j 0 (by omega)
          rw [if_pos (by omega), h2, this]
        · rw [e3 _ (fun j' hj' h => by
            rw [pos_eq] at h; exact hsp (pos_inj _ _ _ _ hj hj' h).1), hA sp j hj]
          by_cases h : sp < k
          · rw [if_pos h, if_pos (by omega)]
          · rw [if_neg h, if_neg (by omega)]
      · intro sp j hj
        by_cases hsp : sp = k
        · subst hsp
          have key : ∀ r i, r + i ≤ p → triangle z (fun j => A (pos sp j)) r i = triangle z (fun j => F (pos sp j)) r i := by
            intro r
            induction r with
            | zero => intro i hi; simp only [triangle]; rw [hA sp i (by omega), if_neg (by omega)]
            | succ r ih => intro i hi; simp only [triangle]; rw [ih i (by omega), ih (i + 1) (by omega)]
          rw [if_pos (by omega)]
          by_cases hjp : j = p
          · subst hjp
            rw [e5 _ (fun j' hj' h => by
              rw [pos_eq] at h; have := (pos_inj _ _ _ _ le_rfl (by omega) h).2; omega), hB sp j hj,
              if_neg (by omega)]
            simp [triangle]
          · have h4 := e4 j (by omega)
            simp only [pos_eq] at h4
            rw [h4, key _ _ (by omega)]
        · rw [e5 _ (fun j' hj' h => by
            rw [pos_eq] at h; exact hsp (pos_inj _ _ _ _ hj (by omega) h).1), hB sp j hj]
          by_cases h : sp < k
          · rw [if_pos h, if_pos (by omega)]
          · rw [if_neg h, if_neg (by omega)])
  rw [h1]
  -- every position lies on a fibre
  have decomp : ∀ x, x < N → ∃ k i g, k < so ∧ i ≤ p ∧ g < G ∧ x = k + so * (i + (p + 1) * g) := by
    intro x hx
    refine ⟨x % so, x / so % (p + 1), x / so / (p + 1), Nat.mod_lt _ hso,
      Nat.lt_succ_iff.mp (Nat.mod_lt _ (Nat.succ_pos p)), ?_, ?_⟩
    · rw [Nat.div_lt_iff_lt_mul (by omega), Nat.div_lt_iff_lt_mul hso]
      calc x < so * ((p + 1) * G) := hx
        _ = G * (p + 1) * so := by ring
    · rw [add_comm (x / so % (p + 1)), Nat.div_add_mod, add_comm, Nat.div_add_mod]
  have posk : ∀ k i g, k < so → pos (k + so * g) i = k + so * (i + (p + 1) * g) := by
    intro k i g hk
    simp only [hpos]
    rw [Nat.add_mul_mod_self_left, Nat.mod_eq_of_lt hk, Nat.add_mul_div_left _ _ hso, Nat.div_eq_of_lt hk,
      zero_add]
  have hlt : ∀ k g, k < so → g < G → k + so * g < so * G := by
    intro k g hk hg
    have := Nat.mul_le_mul_left so hg
    rw [Nat.mul_succ] at this; omega
  have e1 : tab N A = tab N (fun x => triangle z (fibre so p F x) (x / so % (p + 1)) 0) := by
    apply tab_congr
    intro x hx
    obtain ⟨k, i, g, hk, hi, hg, rfl⟩ := decomp x hx
    rw [fibre_at hk hi, layer_at hk hi]
    have := h2 (k + so * g) i hi
    simp only [posk k _ g hk] at this
    rw [this, if_pos (hlt k g hk hg)]
  have e2 : tab N B = tab N (fun x => triangle z (fibre so p F x) (p - x / so % (p + 1)) (x / so % (p + 1))) := by
    apply tab_congr
    intro x hx
    obtain ⟨k, i, g, hk, hi, hg, rfl⟩ := decomp x hx
    rw [fibre_at hk hi, layer_at hk hi]
    have := h3 (k + so * g) i hi
    simp only [posk k _ g hk] at this
    rw [this, if_pos (hlt k g hk hg)]
  rw [e1, e2]

variable [Zero K] [LT K] [DecidableLT K]

theorem splitAt_mem [Inhabited V] {s : Spline V} (h : s.WF) {d p : ℕ} (hp : s.degrees[d]? = some p) {z : K}
    (hz : 0 < z ∧ z < 1) :
    s.splitAt z d = .ok
      ({ s with cps := tab (size s.degrees) (fun x =>
          triangle z (fibre (size (s.degrees.take d)) p (fun i => s.cps.getD i (_root_.Inhabited.default)) x)
            (x / size (s.degrees.take d) % (p + 1)) 0) },
       { s with cps := tab (size s.degrees) (fun x =>
          triangle z (fibre (size (s.degrees.take d)) p (fun i => s.cps.getD i (_root_.Inhabited.default)) x)
            (p - x / size (s.degrees.take d) % (p + 1)) (x / size (s.degrees.take d) % (p + 1))) }) := by
  obtain ⟨hd, hpd⟩ := List.getElem?_eq_some_iff.mp hp
  set so := size (s.degrees.take d) with hso
  set G := size (s.degrees.drop (d + 1)) with hG
  have hso0 : 0 < so := size_pos _
  have hN : size s.degrees = so * ((p + 1) * G) := by
    conv_lhs => rw [list_split hp, size_append, size_cons]
  have hA : s.ncp / (p + 1) = so * G := by
    rw [h.ncp_eq, hN, show so * ((p + 1) * G) = (p + 1) * (so * G) by ring,
      Nat.mul_div_cancel_left _ (Nat.succ_pos p)]
  have hcps : s.cps = tab (so * ((p + 1) * G)) (fun i => s.cps.getD i (_root_.Inhabited.default)) := by
    conv_lhs => rw [eq_tab s.cps _root_.Inhabited.default, h.cps_len, hN]
  unfold splitAt
  rw [if_neg (by simpa using hz), rd_ok hp, rd_ok (h.off hd)]
  simp only [bind_ok]
  rw [hA, ← hso]
  have := split_loop (z := z) (p := p) (G := G) (F := fun i => s.cps.getD i (_root_.Inhabited.default)) hso0
  rw [← hcps] at this
  rw [this, hN]
  rfl

end mech

theorem splitAt_throws [Zero K] [One K] [Sub K] [LT K] [DecidableLT K] [Add V] [SMul K V] {s : Spline V}
    {z : K} {d : ℕ} (hz : ¬ (0 < z ∧ z < 1)) : s.splitAt z d = .error .throws := by
  unfold splitAt
  rw [if_pos hz]

section value
variable [CommRing K] [LT K] [DecidableLT K] [AddCommGroup V] [Module K V]

theorem splitAt_ok {s : Spline V} (h : s.WF) {d p : ℕ} (hp : s.degrees[d]? = some p) {z : K}
    (hz : 0 < z ∧ z < 1) :
    ∃ a b, s.splitAt z d = .ok (a, b) ∧ a.WF ∧ b.WF ∧ a.degrees = s.degrees ∧ b.degrees = s.degrees ∧
      ∀ (t : List K) (x : K), t.length = s.dim → t[d]? = some x →
        a.value t = s.value (t.set d (z * x)) ∧ b.value t = s.value (t.set d (z + (1 - z) * x)) := by
  let _ : Inhabited V := ⟨0⟩
  refine ⟨_, _, splitAt_mem h hp hz, ⟨h.dim_pos, h.ncp_eq, h.offsets_eq, by simp⟩,
    ⟨h.dim_pos, h.ncp_eq, h.offsets_eq, by simp⟩, rfl, rfl, ?_⟩
  intro t x ht hx
  have hdef : (_root_.Inhabited.default : V) = 0 := rfl
  constructor
  · rw [value_of_tab (F := fun x => triangle z (fibre (size (s.degrees.take d)) p (fun i => s.cps.getD i (_root_.Inhabited.default)) x)
            (x / size (s.degrees.take d) % (p + 1)) 0) rfl, value_eq_neval]
    simp only
    rw [set_split hx, list_split hp]
    conv_lhs => rw [list_split hx]
    apply neval_dim_change
    · rw [List.length_take, List.length_take, ht]; rfl
    · intro k g hk hg
      rw [← split_left]
      apply sum_congr rfl
      intro i hi
      simp at hi
      rw [← list_split hp, fibre_at hk (by omega), layer_at hk (by omega), hdef]
  · rw [value_of_tab (F := fun x => triangle z (fibre (size (s.degrees.take d)) p (fun i => s.cps.getD i (_root_.Inhabited.default)) x)
            (p - x / size (s.degrees.take d) % (p + 1)) (x / size (s.degrees.take d) % (p + 1))) rfl, value_eq_neval]
    simp only
    rw [set_split hx, list_split hp]
    conv_lhs => rw [list_split hx]
    apply neval_dim_change
    · rw [List.length_take, List.length_take, ht]; rfl
    · intro k g hk hg
      rw [← split_right]
      apply sum_congr rfl
      intro i hi
      simp at hi
      rw [← list_split hp, fibre_at hk (by omega), layer_at hk (by omega), hdef]

end value
end Spline
end Bezman
