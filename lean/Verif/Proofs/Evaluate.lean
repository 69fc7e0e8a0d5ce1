import Verif.Proofs.Spline
import Verif.Spec.Casteljau

/-! The in-place de Casteljau algorithm computes the Bezier function. -/

namespace Bezman
open Spec Finset

section casteljau
variable {K V : Type}

variable [CommRing K] [AddCommGroup V] [Module K V]

theorem dc_succ' (t : K) (P : ℕ → V) (r j : ℕ) :
    triangle t P (r + 1) j = triangle t (fun i => (1 - t) • P i + t • P (i + 1)) r j := by
  induction r generalizing j with
  | zero => rfl
  | succ r ih => rw [triangle, ih, ih]; rfl

theorem dc_eq (t : K) (P : ℕ → V) (r j : ℕ) :
    triangle t P r j = ∑ i ∈ range (r + 1), bern r i t • P (i + j) := by
  induction r generalizing P with
  | zero => simp [triangle, bern_zero_left]
  | succ r ih =>
    rw [dc_succ', ih]
    have := bern_sum_succ r t (fun i => P (i + j))
    rw [this]
    apply sum_congr rfl; intro i _
    simp only [show i + 1 + j = i + j + 1 by omega]

end casteljau

namespace Spline
variable {K V : Type}

section pass
variable [One K] [Sub K] [Add V] [SMul K V]

theorem castel_inner {N st o p i : ℕ} {t : K} {F : ℕ → V} {D : ℕ → ℕ → V} (hst : 0 < st)
    (hi : i ≤ p) (hN : ∀ j, j ≤ p → j * st + o < N)
    (hD : ∀ j, D (i + 1) j = (1 - t) • D i j + t • D i (j + 1))
    (hF : ∀ j, j ≤ p - i → F (j * st + o) = D i j) :
    ∃ G, loop (p - i) (fun j m => do
          let a ← rd m (j * st + o)
          let b ← rd m ((j + 1) * st + o)
          wr m (j * st + o) ((1 - t) • a + t • b)) (tab N F) = .ok (tab N G) ∧
      (∀ j, j < p - i → G (j * st + o) = D (i + 1) j) ∧
      (∀ x, (∀ j, j < p - i → x ≠ j * st + o) → G x = F x) := by
  obtain ⟨m, h1, G, rfl, h2, h3⟩ := loop_inv (n := p - i) (s := tab N F)
    (f := fun j m => do
          let a ← rd m (j * st + o)
          let b ← rd m ((j + 1) * st + o)
          wr m (j * st + o) ((1 - t) • a + t • b))
    (P := fun k m => ∃ G, m = tab N G ∧ (∀ j, j < k → G (j * st + o) = D (i + 1) j) ∧
      (∀ x, (∀ j, j < k → x ≠ j * st + o) → G x = F x))
    ⟨F, rfl, fun j hj => by omega, fun x _ => rfl⟩
    (by
      rintro k hk _ ⟨G, rfl, hG1, hG2⟩
      have hinj : ∀ a b, a * st + o = b * st + o → a = b := by
        intro a b hab
        exact Nat.eq_of_mul_eq_mul_right hst (by omega)
      have r1 : G (k * st + o) = D i k := by
        rw [hG2, hF k (by omega)]
        intro j hj he; have := hinj _ _ he; omega
      have r2 : G ((k + 1) * st + o) = D i (k + 1) := by
        rw [hG2, hF (k + 1) (by omega)]
        intro j hj he; have := hinj _ _ he; omega
      rw [rd_tab G (hN k (by omega)), rd_tab G (hN (k + 1) (by omega))]
      simp only [bind_ok]
      refine ⟨_, wr_tab _ _ (hN k (by omega)), _, rfl, ?_, ?_⟩
      · intro j hj
        by_cases hjk : j = k
        · subst hjk; rw [Function.update_self, r1, r2, hD]
        · rw [Function.update_of_ne (fun h => hjk (hinj _ _ h))]; exact hG1 j (by omega)
      · intro x hx
        rw [Function.update_of_ne (hx k (by omega))]
        exact hG2 x (fun j hj => hx j (by omega)))
  exact ⟨G, h1, h2, h3⟩

theorem castel_fiber {N st o p : ℕ} {t : K} {F : ℕ → V} (hst : 0 < st)
    (hN : ∀ j, j ≤ p → j * st + o < N) :
    ∃ G, loop (p + 1) (fun i m => loop (p - i) (fun j m => do
          let a ← rd m (j * st + o)
          let b ← rd m ((j + 1) * st + o)
          wr m (j * st + o) ((1 - t) • a + t • b)) m) (tab N F) = .ok (tab N G) ∧
      G o = triangle t (fun j => F (j * st + o)) p 0 ∧
      (∀ x, (∀ j, j ≤ p → x ≠ j * st + o) → G x = F x) := by
  rw [loop_succ]
  obtain ⟨m, h1, G, rfl, h2, h3⟩ := loop_inv (n := p) (s := tab N F)
    (f := fun i m => loop (p - i) (fun j m => do
          let a ← rd m (j * st + o)
          let b ← rd m ((j + 1) * st + o)
          wr m (j * st + o) ((1 - t) • a + t • b)) m)
    (P := fun i m => ∃ G, m = tab N G ∧
      (∀ j, j ≤ p - i → G (j * st + o) = triangle t (fun j => F (j * st + o)) i j) ∧
      (∀ x, (∀ j, j ≤ p → x ≠ j * st + o) → G x = F x))
    ⟨F, rfl, fun j _ => rfl, fun x _ => rfl⟩
    (by
      rintro i hi _ ⟨G, rfl, hG1, hG2⟩
      obtain ⟨G', e1, e2, e3⟩ := castel_inner (t := t)
        (D := triangle t (fun j => F (j * st + o))) hst (by omega : i ≤ p) hN (fun j => rfl) hG1
      refine ⟨_, e1, G', rfl, fun j hj => e2 j (by omega), fun x hx => ?_⟩
      rw [e3 x (fun j hj => hx j (by omega)), hG2 x hx])
  rw [h1]
  refine ⟨G, by simp, ?_, h3⟩
  have := h2 0 (by omega)
  simpa using this

theorem castel_dim {N st p cnt : ℕ} {t : K} {F : ℕ → V} (hst : 0 < st)
    (hN : st * ((p + 1) * cnt) ≤ N) :
    ∃ G, loop cnt (fun sp m =>
        loop (p + 1) (fun i m => loop (p - i) (fun j m => do
          let a ← rd m (j * st + st * (p + 1) * sp)
          let b ← rd m ((j + 1) * st + st * (p + 1) * sp)
          wr m (j * st + st * (p + 1) * sp) ((1 - t) • a + t • b)) m) m) (tab N F)
        = .ok (tab N G) ∧
      (∀ y, y < cnt →
        G (st * (p + 1) * y) = triangle t (fun i => F (st * (i + (p + 1) * y))) p 0) := by
  obtain ⟨m, h1, G, rfl, h2, h3⟩ := loop_inv (n := cnt) (s := tab N F)
    (f := fun sp m =>
        loop (p + 1) (fun i m => loop (p - i) (fun j m => do
          let a ← rd m (j * st + st * (p + 1) * sp)
          let b ← rd m ((j + 1) * st + st * (p + 1) * sp)
          wr m (j * st + st * (p + 1) * sp) ((1 - t) • a + t • b)) m) m)
    (P := fun k m => ∃ G, m = tab N G ∧
      (∀ y, y < k → G (st * (p + 1) * y) = triangle t (fun i => F (st * (i + (p + 1) * y))) p 0) ∧
      (∀ y, (p + 1) * k ≤ y → G (st * y) = F (st * y)))
    ⟨F, rfl, fun y hy => by omega, fun y _ => rfl⟩
    (by
      rintro k hk _ ⟨G, rfl, hG1, hG2⟩
      have hb : ∀ j, j ≤ p → j * st + st * (p + 1) * k < N := by
        intro j hj
        have : (p + 1) * (k + 1) ≤ (p + 1) * cnt := Nat.mul_le_mul_left _ hk
        have : st * ((p + 1) * (k + 1)) ≤ st * ((p + 1) * cnt) := Nat.mul_le_mul_left _ this
        have : j * st + st * (p + 1) * k = st * (j + (p + 1) * k) := by ring
        have h3 : j + (p + 1) * k < (p + 1) * (k + 1) := by
          rw [Nat.mul_succ]; omega
        have := Nat.mul_lt_mul_of_pos_left h3 hst
        omega
      obtain ⟨G', e1, e2, e3⟩ := castel_fiber (t := t) (F := G) hst hb
      refine ⟨_, e1, G', rfl, ?_, ?_⟩
      · intro y hy
        by_cases hyk : y = k
        · subst hyk
          rw [e2]
          congr 1
          funext i
          rw [show i * st + st * (p + 1) * y = st * (i + (p + 1) * y) by ring]
          exact hG2 _ (by omega)
        · rw [e3, hG1 y (by omega)]
          intro j hj he
          have h1 : st * ((p + 1) * y) = st * (j + (p + 1) * k) := by rw [← mul_assoc, he]; ring
          have h2 := Nat.eq_of_mul_eq_mul_left hst h1
          have h3 : (p + 1) * (y + 1) ≤ (p + 1) * k := Nat.mul_le_mul_left _ (by omega)
          rw [Nat.mul_succ] at h3; omega
      · intro y hy
        rw [Nat.mul_succ] at hy
        rw [e3, hG2 y (by omega)]
        intro j hj he
        have h1 : st * y = st * (j + (p + 1) * k) := by rw [he]; ring
        have h2 := Nat.eq_of_mul_eq_mul_left hst h1
        omega)
  exact ⟨G, h1, h2⟩

end pass

variable [CommRing K] [AddCommGroup V] [Module K V]

theorem evaluate_ok {s : Spline V} (h : s.WF) {t : List K} (ht : t.length = s.dim) :
    s.evaluate t = .ok (s.value t) := by
  unfold evaluate
  obtain ⟨r, h1, G, h2, h3, h4⟩ := loop_inv (n := s.dim) (s := (s.cps, s.ncp))
    (f := fun par_dim (r : List V × Nat) => do
      let factor ← rd t par_dim
      let inv_factor := 1 - factor
      let p ← rd s.degrees par_dim
      let off ← rd s.offsets par_dim
      let ctps_to_consider := r.2 / (p + 1)
      let m ← loop ctps_to_consider (fun starting_point_id m =>
        let offset := (off * (p + 1)) * starting_point_id
        loop (p + 1) (fun i m =>
          loop (p - i) (fun j m => do
            let a ← rd m (j * off + offset)
            let b ← rd m ((j + 1) * off + offset)
            wr m (j * off + offset) (inv_factor • a + factor • b)) m) m) r.1
      pure (m, ctps_to_consider))
    (P := fun d r => ∃ G, r.1 = tab (size s.degrees) G ∧ r.2 = size (s.degrees.drop d) ∧
      neval (s.degrees.drop d) (t.drop d) (fun y => G (size (s.degrees.take d) * y)) = s.value t)
    ⟨_, h.cps_tab, by simpa using h.ncp_eq, by simp [value_eq_neval]⟩
    (by
      rintro d hd ⟨m, c⟩ ⟨G, hm, hc, hv⟩
      simp only at hm hc
      have hp : s.degrees[d]? = some s.degrees[d] := List.getElem?_eq_getElem hd
      have hx : t[d]? = some t[d] := List.getElem?_eq_getElem (by omega)
      have hdrop : s.degrees.drop d = s.degrees[d] :: s.degrees.drop (d + 1) :=
        List.drop_eq_getElem_cons hd
      have htdrop : t.drop d = t[d] :: t.drop (d + 1) := List.drop_eq_getElem_cons (by omega)
      have hc' : c / (s.degrees[d] + 1) = size (s.degrees.drop (d + 1)) := by
        rw [hc, hdrop, size_cons, Nat.mul_div_cancel_left _ (Nat.succ_pos _)]
      rw [rd_ok hx, rd_ok hp, rd_ok (h.off hd)]
      simp only [bind_ok, hc', hm]
      obtain ⟨G', e1, e2⟩ := castel_dim (t := t[d]) (F := G) (p := s.degrees[d])
        (cnt := size (s.degrees.drop (d + 1))) (st := size (s.degrees.take d)) (N := size s.degrees)
        (size_pos _) (by
          conv_rhs => rw [← List.take_append_drop d s.degrees, size_append, hdrop, size_cons])
      rw [e1]
      refine ⟨_, rfl, G', rfl, rfl, ?_⟩
      rw [← hv, hdrop, htdrop, neval_collapse]
      apply neval_congr
      intro y hy
      rw [size_take_succ hp, e2 y hy, dc_eq]
      simp)
  rw [h1]
  simp only [bind_ok]
  have hdrop : s.degrees.drop s.dim = [] := by simp [dim]
  rw [hdrop, neval_nil] at h4
  rw [h2, rd_tab G (size_pos _), ← h4]; simp

end Spline
end Bezman
