import Verif.Spec.Cuts
import Verif.Proofs.CutsFloat
import Mathlib.Algebra.Ring.Int.Parity

/-! # Round to nearest, ties to even -/

namespace Bezman.Spec
variable {p : ℕ} {q : ℤ}

/-- an even multiple of a spacing has one digit less -/
theorem IsFloat.of_even (hp : 2 ≤ p) {l e : ℤ} (h0 : 0 ≤ l) (hl : l ≤ 2 ^ p) (hev : Even l) (he : q ≤ e) : IsFloat (p - 1) (q + 1) (l * 2 ^ e) := by
  obtain ⟨k, rfl⟩ := hev
  have e1 : ((k + k : ℤ) : ℝ) * 2 ^ e = k * 2 ^ (e + 1) := by
    rw [zpow_add₀ two_ne_zero, zpow_one]; push_cast; ring
  rw [e1]
  have e2 : (2 : ℤ) ^ p = 2 * 2 ^ (p - 1) := by
    rw [← pow_succ']; congr 1; omega
  exact IsFloat.mk_le (by omega) (by rw [abs_of_nonneg (by omega)]; omega) (by omega)

/-- one of two neighbours has an even last digit -/
theorem neighbours_even (hp : 2 ≤ p) {a b : ℝ} (ha : IsFloat p q a) (hb : IsFloat p q b) (h0 : 0 ≤ a) (hab : a < b)
    (hno : ∀ y, IsFloat p q y → ¬ (a < y ∧ y < b)) : IsFloat (p - 1) (q + 1) a ∨ IsFloat (p - 1) (q + 1) b := by
  have hbp : 0 < b := h0.trans_lt hab
  set L := Int.log 2 b with hL
  have h3 : (2 : ℝ) ^ L ≤ b := by
    have := Int.zpow_log_le_self (R := ℝ) (b := 2) (by norm_num) hbp
    exact_mod_cast this
  have h4 : b < 2 ^ (L + 1) := by
    have := Int.lt_zpow_succ_log_self (R := ℝ) (b := 2) (by norm_num) b
    exact_mod_cast this
  set e := max (L - ((p : ℤ) - 1)) q with he
  have hqe : q ≤ e := le_max_right _ _
  have h2 : (0 : ℝ) < 2 ^ e := by positivity
  obtain ⟨l, hl⟩ : ∃ l : ℤ, b = l * 2 ^ e := by
    rcases max_choice (L - ((p : ℤ) - 1)) q with hc | hc
    · refine hb.multiple_of_le ?_
      rw [he, hc, show L - ((p : ℤ) - 1) + p - 1 = L by ring, abs_of_pos hbp]; exact h3
    · rw [he, hc]; exact hb.multiple
  have l0 : 0 < l := by
    have : (0 : ℝ) < l := by
      by_contra hn; rw [not_lt] at hn
      have := mul_nonpos_of_nonpos_of_nonneg hn h2.le
      linarith
    exact_mod_cast this
  have l1 : l < 2 ^ p := by
    have h5 : (2 : ℝ) ^ (L + 1) ≤ 2 ^ p * 2 ^ e := by
      rw [← zpow_natCast, ← zpow_add₀ two_ne_zero]
      have : L - ((p : ℤ) - 1) ≤ e := le_max_left _ _
      exact zpow_le_zpow_right₀ (by norm_num) (by omega)
    have : (l : ℝ) < 2 ^ p := lt_of_mul_lt_mul_right (by rw [← hl]; linarith) h2.le
    exact_mod_cast this
  rcases Int.even_or_odd l with hev | hodd
  · right; rw [hl]; exact IsFloat.of_even hp l0.le l1.le hev hqe
  · left
    have hlow : ((l - 1 : ℤ) : ℝ) * 2 ^ e ≤ a := by
      by_contra hn; rw [not_le] at hn
      refine hno _ (IsFloat.mk_le (by omega) (m := l - 1) (by rw [abs_of_nonneg (by omega)]; omega) hqe) ⟨hn, ?_⟩
      rw [hl]; exact mul_lt_mul_of_pos_right (by exact_mod_cast (by omega : l - 1 < l)) h2
    obtain ⟨k, hk⟩ : ∃ k : ℤ, a = k * 2 ^ e := by
      rcases max_choice (L - ((p : ℤ) - 1)) q with hc | hc
      · refine ha.multiple_of_le ?_
        have e1 : e = L - ((p : ℤ) - 1) := by rw [he, hc]
        have e2 : (2 : ℝ) ^ (p - 1 : ℕ) * 2 ^ e = 2 ^ L := by
          rw [← zpow_natCast, ← zpow_add₀ two_ne_zero]; congr 1; omega
        rw [e1, show L - ((p : ℤ) - 1) + p - 1 = L by ring, abs_of_nonneg h0, ← e2]
        refine le_trans (mul_le_mul_of_nonneg_right ?_ h2.le) hlow
        have h6 : (2 : ℤ) ^ (p - 1 : ℕ) ≤ l := by
          have : ((2 : ℝ) ^ (p - 1 : ℕ)) ≤ l := le_of_mul_le_mul_right (by rw [e2, ← hl]; exact h3) h2
          exact_mod_cast this
        have h7 : Even ((2 : ℤ) ^ (p - 1 : ℕ)) := (Int.even_pow.mpr ⟨even_two, by omega⟩)
        have h8 : (2 : ℤ) ^ (p - 1 : ℕ) ≠ l := fun hh => by
          rw [hh] at h7; exact (Int.not_even_iff_odd.mpr hodd) h7
        have h9 : (2 : ℤ) ^ (p - 1 : ℕ) ≤ l - 1 := by omega
        exact_mod_cast h9
      · rw [he, hc]; exact ha.multiple
    have hkl : k = l - 1 := by
      have k1 : (l - 1 : ℤ) ≤ k := by
        have : ((l - 1 : ℤ) : ℝ) ≤ k := le_of_mul_le_mul_right (by rw [← hk]; exact hlow) h2
        exact_mod_cast this
      have k2 : k < l := by
        have : (k : ℝ) < l := lt_of_mul_lt_mul_right (by rw [← hk, ← hl]; exact hab) h2.le
        exact_mod_cast this
      omega
    rw [hk, hkl]
    exact IsFloat.of_even hp (by omega) (by omega) (by obtain ⟨j, rfl⟩ := hodd; exact ⟨j, by ring⟩) hqe

open Classical in
/-- Round to nearest, ties to even, exists. -/
noncomputable def rndEven (p : ℕ) (q : ℤ) (x : ℝ) : ℝ :=
  if h : ∃ y, IsFloat p q y ∧ |y - x| = |rndNear p q x - x| ∧ IsFloat (p - 1) (q + 1) y then h.choose else rndNear p q x

theorem rndEven_ties {p : ℕ} (hp : 2 ≤ p) (q : ℤ) : TiesToEven p q (rndEven p q) := by
  have hn := rndNear_nearest (p := p) (by omega) q
  have hdist : ∀ x, IsFloat p q (rndEven p q x) ∧ |rndEven p q x - x| = |rndNear p q x - x| := by
    intro x
    unfold rndEven
    split
    · next h => exact ⟨h.choose_spec.1, h.choose_spec.2.1⟩
    · exact ⟨hn.isFloat x, rfl⟩
  refine ⟨⟨fun x => (hdist x).1, fun x y hy => by rw [(hdist x).2]; exact hn.nearest x y hy⟩, ?_⟩
  intro x y hy hne hxy
  rw [(hdist x).2] at hxy
  by_cases h : ∃ y, IsFloat p q y ∧ |y - x| = |rndNear p q x - x| ∧ IsFloat (p - 1) (q + 1) y
  · unfold rndEven; rw [dif_pos h]; exact h.choose_spec.2.2
  · exfalso
    have e : rndEven p q x = rndNear p q x := by unfold rndEven; rw [dif_neg h]
    rw [e] at hne
    set z := rndNear p q x with hz
    have hzf : IsFloat p q z := hn.isFloat x
    have hD : ∀ w, IsFloat p q w → |z - x| ≤ |w - x| := hn.nearest x
    -- the smaller and the larger one
    obtain ⟨a, b, ha, hb, hab, da, db⟩ : ∃ a b, IsFloat p q a ∧ IsFloat p q b ∧ a < b ∧ |a - x| = |z - x| ∧ |b - x| = |z - x| := by
      rcases lt_or_gt_of_ne hne with hlt | hlt
      · exact ⟨y, z, hy, hzf, hlt, hxy, rfl⟩
      · exact ⟨z, y, hzf, hy, hlt, rfl, hxy⟩
    have hsum : a + b = 2 * x := by
      have h1 : |a - x| = |b - x| := da.trans db.symm
      rcases abs_eq_abs.mp h1 with h2 | h2 <;> linarith
    have hno : ∀ w, IsFloat p q w → ¬ (a < w ∧ w < b) := by
      rintro w hw ⟨h1, h2⟩
      have h3 := hD w hw
      rw [← da, abs_of_neg (by linarith), le_abs] at h3
      rcases h3 with h3 | h3 <;> linarith
    have key : IsFloat (p - 1) (q + 1) a ∨ IsFloat (p - 1) (q + 1) b := by
      by_cases h0 : 0 ≤ a
      · exact neighbours_even hp ha hb h0 hab hno
      · have hb0 : b ≤ 0 := by
          by_contra hn'; exact hno 0 IsFloat.zero ⟨not_le.mp h0, not_le.mp hn'⟩
        have := neighbours_even hp hb.neg ha.neg (by linarith) (neg_lt_neg hab) (fun w hw ⟨h1, h2⟩ =>
          hno (-w) hw.neg ⟨by linarith, by linarith⟩)
        rcases this with h1 | h1
        · right; simpa using h1.neg
        · left; simpa using h1.neg
    rcases key with h1 | h1
    · exact h ⟨a, ha, da, h1⟩
    · exact h ⟨b, hb, db, h1⟩

/-- half way between two multiples of `2^-p` of at least one half: the even one -/
theorem TiesToEven.tie {rnd : ℝ → ℝ} (h : TiesToEven p q rnd) (hp : 2 ≤ p) (hq : q ≤ -p) {m : ℤ} (h0 : 2 ^ (p - 1) ≤ m) (h1 : m + 1 ≤ 2 ^ p) :
    ∃ k : ℤ, Even k ∧ (k = m ∨ k = m + 1) ∧ rnd ((m + 1 / 2) * 2 ^ (-(p : ℤ))) = k * 2 ^ (-(p : ℤ)) := by
  have hn := h.toNearest
  have hg : (0 : ℝ) < 2 ^ (-(p : ℤ)) := by positivity
  have pos : (1 : ℤ) ≤ 2 ^ (p - 1) := one_le_pow₀ (by norm_num)
  set x : ℝ := (m + 1 / 2) * 2 ^ (-(p : ℤ)) with hx
  have half : (2 : ℝ) ^ (p - 1 : ℕ) * 2 ^ (-(p : ℤ)) = 1 / 2 := by
    rw [← zpow_natCast, ← zpow_add₀ two_ne_zero, show ((p - 1 : ℕ) : ℤ) + -(p : ℤ) = -1 by omega]; norm_num
  have f0 : rnd (m * 2 ^ (-(p : ℤ))) = m * 2 ^ (-(p : ℤ)) := hn.grid (by omega) hq (by omega) (by omega)
  have f1 : rnd ((m + 1 : ℤ) * 2 ^ (-(p : ℤ))) = (m + 1 : ℤ) * 2 ^ (-(p : ℤ)) := hn.grid (by omega) hq (by omega) h1
  have g0 : (m : ℝ) * 2 ^ (-(p : ℤ)) ≤ rnd x := by
    rw [← f0]; exact hn.mono (mul_le_mul_of_nonneg_right (by linarith) hg.le)
  have g1 : rnd x ≤ (m + 1 : ℤ) * 2 ^ (-(p : ℤ)) := by
    rw [← f1]; exact hn.mono (mul_le_mul_of_nonneg_right (by push_cast; linarith) hg.le)
  have m0 : ((2 : ℝ) ^ (p - 1 : ℕ)) ≤ m := by exact_mod_cast h0
  have hhalf : 1 / 2 ≤ rnd x := by
    rw [← half]; exact (mul_le_mul_of_nonneg_right m0 hg.le).trans g0
  obtain ⟨k, hk⟩ := (hn.isFloat x).multiple_of_le (e := -(p : ℤ)) (by
    rw [show -(p : ℤ) + p - 1 = -1 by ring, abs_of_nonneg (by linarith)]; norm_num; linarith)
  have hkm : k = m ∨ k = m + 1 := by
    rw [hk] at g0 g1
    have k0 : m ≤ k := by exact_mod_cast le_of_mul_le_mul_right g0 hg
    have k1 : k ≤ m + 1 := by exact_mod_cast le_of_mul_le_mul_right g1 hg
    omega
  refine ⟨k, ?_, hkm, hk⟩
  -- the other one is equally near
  set k' : ℤ := 2 * m + 1 - k with hk'
  have hev := h.even x (k' * 2 ^ (-(p : ℤ))) (by
      refine IsFloat.mk_le (by omega) ?_ hq
      rw [abs_of_nonneg (by omega)]; omega) (by
      rw [hk]
      intro hh
      have : (k' : ℝ) = k := mul_right_cancel₀ hg.ne' hh
      have : k' = k := by exact_mod_cast this
      omega) (by
      rw [hk, hx, ← sub_mul, ← sub_mul, abs_mul, abs_mul]
      congr 1
      have : (k' : ℝ) - (m + 1 / 2) = -((k : ℝ) - (m + 1 / 2)) := by rw [hk']; push_cast; ring
      rw [this, abs_neg])
  obtain ⟨j, hj⟩ := hev.multiple_of_le (e := 1 - (p : ℤ)) (by
    rw [show 1 - (p : ℤ) + ((p - 1 : ℕ) : ℤ) - 1 = -1 by omega, abs_of_nonneg (by linarith)]; norm_num; linarith)
  rw [hk] at hj
  have : (2 : ℝ) ^ (1 - (p : ℤ)) = 2 * 2 ^ (-(p : ℤ)) := by rw [sub_eq_add_neg, zpow_add₀ two_ne_zero, zpow_one]
  rw [this, ← mul_assoc] at hj
  have := mul_right_cancel₀ hg.ne' hj
  refine ⟨j, ?_⟩
  have : (k : ℝ) = ((j + j : ℤ) : ℝ) := by rw [this]; push_cast; ring
  exact_mod_cast this

/-- two positions whose differences from another one, and from 1, round to the same number -/
theorem TiesToEven.same {rnd : ℝ → ℝ} (h : TiesToEven p q rnd) (hp : 3 ≤ p) (hq : q ≤ -p) :
    rnd (1 - 2 ^ (-(p : ℤ)) - 3 * 2 ^ (-(p : ℤ) - 1)) = rnd (1 - 3 * 2 ^ (-(p : ℤ) - 1)) := by
  have hinv : (2 : ℝ) ^ p * 2 ^ (-(p : ℤ)) = 1 := by rw [← zpow_natCast, ← zpow_add₀ two_ne_zero]; simp
  have h2 : (2 : ℝ) ^ (-(p : ℤ) - 1) = 2 ^ (-(p : ℤ)) / 2 := by rw [zpow_sub₀ two_ne_zero, zpow_one]
  have hpow : (2 : ℤ) ^ p = 2 * 2 ^ (p - 1) := by rw [← pow_succ']; congr 1; omega
  have hbig : (4 : ℤ) ≤ 2 ^ (p - 1) := by
    calc (4 : ℤ) = 2 ^ 2 := by norm_num
      _ ≤ 2 ^ (p - 1) := pow_le_pow_right₀ (by norm_num) (by omega)
  have e1 : (1 : ℝ) - 2 ^ (-(p : ℤ)) - 3 * 2 ^ (-(p : ℤ) - 1) = (((2 ^ p - 3 : ℤ) : ℝ) + 1 / 2) * 2 ^ (-(p : ℤ)) := by
    rw [h2]; push_cast; rw [add_mul, sub_mul, hinv]; ring
  have e2 : (1 : ℝ) - 3 * 2 ^ (-(p : ℤ) - 1) = (((2 ^ p - 2 : ℤ) : ℝ) + 1 / 2) * 2 ^ (-(p : ℤ)) := by
    rw [h2]; push_cast; rw [add_mul, sub_mul, hinv]; ring
  obtain ⟨k, k1, k2, k3⟩ := h.tie (m := 2 ^ p - 3) (by omega) hq (by omega) (by omega)
  obtain ⟨l, l1, l2, l3⟩ := h.tie (m := 2 ^ p - 2) (by omega) hq (by omega) (by omega)
  rw [e1, e2, k3, l3]
  have hk : k = 2 ^ p - 2 := by obtain ⟨j, hj⟩ := k1; omega
  have hl : l = 2 ^ p - 2 := by obtain ⟨j, hj⟩ := l1; omega
  rw [hk, hl]

end Bezman.Spec
