import Verif.Proofs.CutsExact

/-! # Relative positions of cuts with a narrower and a wider type -/

namespace Bezman
open Spec

theorem IsFloat.weaken {p P : ℕ} {q q' : ℤ} (hpP : p ≤ P) (hq : q' ≤ q) {x : ℝ} (h : IsFloat p q x) : IsFloat P q' x := by
  obtain ⟨m, e, h1, h2, h3⟩ := h
  exact ⟨m, e, h1.trans_le (pow_le_pow_right₀ (by norm_num) hpP), hq.trans h2, h3⟩

/-- the numbers next to one -/
theorem Nearest.below_one {p : ℕ} {q : ℤ} {rnd : ℝ → ℝ} (h : Nearest p q rnd) (hp : 0 < p) (hq : q ≤ -p) {x : ℝ} :
    (1 - 2 ^ (-(p : ℤ) - 1) < x → x ≤ 1 → rnd x = 1) ∧ (x < 1 - 2 ^ (-(p : ℤ) - 1) → rnd x < 1) := by
  have hg : (0 : ℝ) < 2 ^ (-(p : ℤ)) := by positivity
  have h2 : (2 : ℝ) ^ (-(p : ℤ) - 1) = 2 ^ (-(p : ℤ)) / 2 := by rw [zpow_sub₀ two_ne_zero, zpow_one]
  have hg1 : (2 : ℝ) ^ (-(p : ℤ)) ≤ 1 / 2 := by
    have := zpow_le_zpow_right₀ (by norm_num : (1 : ℝ) ≤ 2) (show -(p : ℤ) ≤ -1 by omega)
    simpa using this
  have one : IsFloat p q 1 := by simpa using IsFloat.two_zpow (p := p) (q := q) hp (e := 0) (by omega)
  have hinv : (2 : ℝ) ^ p * 2 ^ (-(p : ℤ)) = 1 := by rw [← zpow_natCast, ← zpow_add₀ two_ne_zero]; simp
  have pre : IsFloat p q (1 - 2 ^ (-(p : ℤ))) := by
    have e : (1 : ℝ) - 2 ^ (-(p : ℤ)) = ((2 ^ p - 1 : ℤ) : ℝ) * 2 ^ (-(p : ℤ)) := by push_cast; rw [sub_mul, hinv, one_mul]
    rw [e]
    have := one_le_pow₀ (n := p) (show (1 : ℤ) ≤ 2 by norm_num)
    exact IsFloat.mk_le hp (by rw [abs_of_nonneg (by omega)]; omega) hq
  rw [h2]
  constructor
  · intro h0 h1
    have hle : rnd x ≤ 1 := by have := h.mono h1; rwa [h.exact one] at this
    by_contra hne
    have hlt : rnd x < 1 := lt_of_le_of_ne hle hne
    have hd := h.nearest x 1 one
    rw [abs_of_nonneg (by linarith : 0 ≤ 1 - x)] at hd
    have hd' := (abs_le.mp hd).1
    have hhalf : 1 / 2 ≤ rnd x := by linarith
    obtain ⟨k, hk⟩ := (h.isFloat x).multiple_of_le (e := -(p : ℤ)) (by
      rw [show -(p : ℤ) + p - 1 = -1 by ring, abs_of_nonneg (by linarith)]; norm_num; linarith)
    have hk1 : k + 1 ≤ 2 ^ p := by
      have : (k : ℝ) < 2 ^ p := lt_of_mul_lt_mul_right (by rw [← hk, hinv]; exact hlt) hg.le
      have : k < 2 ^ p := by exact_mod_cast this
      omega
    have hk2 : (k : ℝ) + 1 ≤ 2 ^ p := by exact_mod_cast hk1
    have := mul_le_mul_of_nonneg_right hk2 hg.le
    rw [hinv] at this
    linarith
  · intro h0
    by_contra hn
    rw [not_lt] at hn
    have hd := h.nearest x (1 - 2 ^ (-(p : ℤ))) pre
    rw [abs_of_nonneg (by linarith : 0 ≤ rnd x - x)] at hd
    rcases le_abs.mp hd with hd | hd <;> linarith

/-- differences with `p` digits, the rest with `P ≥ 2p + 3` digits, the result converted to `p` digits -/
theorem rel_narrow {p P : ℕ} {q q' : ℤ} {rnd rnd' : ℝ → ℝ} (h : Nearest p q rnd) (h' : Nearest P q' rnd') (hp : 0 < p)
    (hpP : 2 * p + 3 ≤ P) (hq : q ≤ -p) (hqq : q' ≤ q) (hq' : q' ≤ -P) {zp z : ℝ} (hzp : IsFloat p q zp) (hz : IsFloat p q z) (h0 : 0 < zp) (h1 : zp < z)
    (h2 : z < 1) :
    0 < rnd (rnd' (rnd (z - zp) / rnd' (1 - zp))) ∧ rnd (rnd' (rnd (z - zp) / rnd' (1 - zp))) < 1 := by
  have hP : 0 < P := by omega
  have one' : IsFloat P q' 1 := by simpa using IsFloat.two_zpow (p := P) (q := q') hP (e := 0) (by omega)
  set g : ℝ := 2 ^ (-(p : ℤ)) with hgdef
  set ε : ℝ := 2 ^ (-(P : ℤ)) with hεdef
  have hg : 0 < g := by positivity
  have hε : 0 < ε := by positivity
  have hgh : g ≤ 1 / 2 := by
    rw [hgdef]
    have := zpow_le_zpow_right₀ (by norm_num : (1 : ℝ) ≤ 2) (show -(p : ℤ) ≤ -1 by omega)
    simpa using this
  have hεg : 8 * ε ≤ g * g := by
    have e1 : g * g = 2 ^ (-(2 * p : ℤ)) := by rw [hgdef, ← zpow_add₀ two_ne_zero]; congr 1; ring
    have e2 : 8 * ε = 2 ^ (3 - (P : ℤ)) := by rw [hεdef, sub_eq_add_neg, zpow_add₀ two_ne_zero]; norm_num
    rw [e1, e2]
    exact zpow_le_zpow_right₀ (by norm_num) (by omega)
  have hinvp : (2 : ℝ) ^ p * g = 1 := by rw [hgdef, ← zpow_natCast, ← zpow_add₀ two_ne_zero]; simp
  have hinvP : (2 : ℝ) ^ P * ε = 1 := by rw [hεdef, ← zpow_natCast, ← zpow_add₀ two_ne_zero]; simp
  have hhalf : (2 : ℝ) ^ (-(p : ℤ) - 1) = g / 2 := by rw [zpow_sub₀ two_ne_zero, zpow_one]
  set a := rnd (z - zp) with ha
  set b := rnd' (1 - zp) with hb
  have apos : 0 < a := h.diff_pos hp hzp hz h1
  have b1 : b ≤ 1 := by have := h'.mono (show 1 - zp ≤ 1 by linarith); rwa [h'.exact one'] at this
  have bpos : 0 < b := h'.diff_pos hP (IsFloat.weaken (by omega) hqq hzp) one' (by linarith)
  have aP : IsFloat P q' a := IsFloat.weaken (by omega) hqq (h.isFloat _)
  constructor
  · have : a ≤ a / b := by rw [le_div_iff₀ bpos]; nlinarith
    have := h'.mono this
    rw [h'.exact aP] at this
    have := h.mono this
    rw [h.exact (h.isFloat _)] at this
    linarith
  -- it suffices that the quotient stays away from the middle between one and the number before
  have key : a ≤ b * (1 - g / 2 - ε) → rnd (rnd' (a / b)) < 1 := by
    intro hk
    have h3 : a / b ≤ 1 - g / 2 - ε := by rw [div_le_iff₀ bpos]; linarith
    obtain ⟨k, hk2⟩ : ∃ k : ℕ, g / 2 = k * ε := by
      refine ⟨2 ^ (P - p - 1), ?_⟩
      push_cast
      rw [hεdef, ← hhalf, ← zpow_natCast, ← zpow_add₀ two_ne_zero]; congr 1; omega
    have hkP : (k : ℤ) + 1 ≤ 2 ^ P := by
      have h5 : ((k : ℝ) + 1) * ε ≤ 2 ^ P * ε := by rw [hinvP, add_mul, ← hk2]; nlinarith
      have := le_of_mul_le_mul_right h5 hε
      exact_mod_cast this
    have h4 : rnd' (1 - g / 2 - ε) = 1 - g / 2 - ε := by
      have e : 1 - g / 2 - ε = ((2 ^ P - k - 1 : ℤ) : ℝ) * ε := by push_cast; rw [sub_mul, sub_mul, hinvP, ← hk2, one_mul]
      rw [e]
      exact h'.grid hP hq' (by omega) (by omega)
    have h5 := h'.mono h3
    rw [h4] at h5
    exact (Nearest.below_one h hp hq).2 (by rw [hhalf]; linarith)
  apply key
  by_cases hc : 1 / 2 ≤ zp
  · have mul : ∀ x : ℝ, IsFloat p q x → 1 / 2 ≤ x → ∃ k : ℤ, x = k * g := fun x hx h =>
      hx.multiple_of_le (by
        rw [show -(p : ℤ) + p - 1 = -1 by ring, abs_of_nonneg (by linarith)]; norm_num; linarith)
    obtain ⟨k, hk⟩ := mul zp hzp hc
    obtain ⟨l, hl⟩ := mul z hz (by linarith)
    have cmp : ∀ x y : ℤ, (x : ℝ) * g < y * g → x < y := fun x y hxy => by
      exact_mod_cast lt_of_mul_lt_mul_right hxy hg.le
    have k0 : 0 < k := cmp 0 k (by rw [← hk]; simpa using h0)
    have kl : k < l := cmp k l (by rw [← hk, ← hl]; exact h1)
    have l2 : l < 2 ^ p := cmp l (2 ^ p) (by rw [← hl]; push_cast; rw [hinvp]; exact h2)
    have ea : a = z - zp := by
      have e1 : z - zp = ((l - k : ℤ) : ℝ) * g := by rw [hk, hl]; push_cast; ring
      rw [ha, e1]; exact h.grid hp hq (by omega) (by omega)
    have eb : b = 1 - zp := by
      have e1 : 1 - zp = ((2 ^ p - k : ℤ) : ℝ) * g := by rw [hk]; push_cast; rw [sub_mul, hinvp]
      rw [hb, e1]
      exact h'.exact (IsFloat.weaken (by omega) hqq (IsFloat.mk_le hp (by rw [abs_of_nonneg (by omega)]; omega) hq))
    have hz1 : z ≤ 1 - g := by
      have : (l : ℝ) + 1 ≤ 2 ^ p := by exact_mod_cast (by omega : l + 1 ≤ 2 ^ p)
      have := mul_le_mul_of_nonneg_right this hg.le
      rw [hinvp] at this; rw [hl]; linarith
    rw [ea, eb]
    nlinarith
  · rw [not_le] at hc
    have hz1 : z ≤ 1 - g := by
      by_cases hz2 : 1 / 2 ≤ z
      · obtain ⟨l, hl⟩ := hz.multiple_of_le (e := -(p : ℤ)) (by
          rw [show -(p : ℤ) + p - 1 = -1 by ring, abs_of_nonneg (by linarith)]; norm_num; linarith)
        have l2 : l + 1 ≤ 2 ^ p := by
          have : (l : ℝ) < 2 ^ p := lt_of_mul_lt_mul_right (by rw [← hgdef] at hl; rw [← hl, hinvp]; exact h2) hg.le
          have : l < 2 ^ p := by exact_mod_cast this
          omega
        have : (l : ℝ) + 1 ≤ 2 ^ p := by exact_mod_cast l2
        have := mul_le_mul_of_nonneg_right this hg.le
        rw [hinvp] at this; rw [hl]; linarith
      · rw [not_le] at hz2; linarith
    have hgrid : rnd (1 - g) = 1 - g := by
      have e : 1 - g = ((2 ^ p - 1 : ℤ) : ℝ) * g := by push_cast; rw [sub_mul, hinvp, one_mul]
      rw [e]
      have := one_le_pow₀ (n := p) (show (1 : ℤ) ≤ 2 by norm_num)
      exact h.grid hp hq (by omega) (by omega)
    by_cases hs : zp < g / 2
    · have a1 : a ≤ 1 - g := by have := h.mono (show z - zp ≤ 1 - g by linarith); rwa [hgrid] at this
      have b2 : 1 - g / 2 ≤ b := by
        have hf : IsFloat P q' (1 - g / 2) := by
          have e : 1 - g / 2 = ((2 ^ (p + 1) - 1 : ℤ) : ℝ) * 2 ^ (-(p : ℤ) - 1) := by
            rw [hhalf]; push_cast; rw [pow_succ]; linarith
          rw [e]
          refine IsFloat.mk_le hP ?_ (by omega)
          have h3 := one_le_pow₀ (n := p + 1) (show (1 : ℤ) ≤ 2 by norm_num)
          have h4 : (2 : ℤ) ^ (p + 1) ≤ 2 ^ P := pow_le_pow_right₀ (by norm_num) (by omega)
          rw [abs_of_nonneg (by omega)]; omega
        have := h'.mono (show 1 - g / 2 ≤ 1 - zp by linarith)
        rwa [h'.exact hf] at this
      nlinarith
    · rw [not_lt] at hs
      -- the next multiple above the difference
      have a1 : a ≤ 1 - zp - g / 2 := by
        have hx : z - zp ≤ 1 - g - zp := by linarith
        by_contra hn
        rw [not_le] at hn
        have hup : a ≤ 1 - g := by have := h.mono (show z - zp ≤ 1 - g by linarith); rwa [hgrid] at this
        -- the multiple of g below
        set k := ⌊(z - zp) / g⌋ with hk
        have k1 : (k : ℝ) * g ≤ z - zp := by
          have := Int.floor_le ((z - zp) / g); rwa [le_div_iff₀ hg] at this
        have k2 : z - zp < (k + 1) * g := by
          have := Int.lt_floor_add_one ((z - zp) / g); rwa [div_lt_iff₀ hg] at this
        have kpos : 0 ≤ k := Int.floor_nonneg.mpr (div_nonneg (by linarith) hg.le)
        have klt : k < 2 ^ p := by
          have : (k : ℝ) < 2 ^ p := lt_of_mul_lt_mul_right (by rw [hinvp]; linarith) hg.le
          exact_mod_cast this
        have f1 : IsFloat p q (k * g) := IsFloat.mk_le hp (by rw [abs_of_nonneg kpos]; omega) hq
        have f2 : IsFloat p q ((k + 1 : ℤ) * g) := IsFloat.mk_le hp (by rw [abs_of_nonneg (by omega)]; omega) hq
        have n1 := h.nearest (z - zp) _ f1
        have n2 := h.nearest (z - zp) _ f2
        rw [← ha, abs_of_nonneg (by linarith : 0 ≤ a - (z - zp))] at n1 n2
        rw [abs_of_nonpos (by linarith)] at n1
        rw [abs_of_pos (by push_cast; linarith)] at n2
        push_cast at n2
        linarith
      have b2 : 1 - zp - ε / 2 ≤ b := by
        -- the nearest multiple of ε is at most ε / 2 away
        set k := round ((1 - zp) / ε) with hk
        have hr := abs_sub_round ((1 - zp) / ε)
        rw [← hk] at hr
        have kd : |k * ε - (1 - zp)| ≤ ε / 2 := by
          have e : (k : ℝ) * ε - (1 - zp) = -((((1 - zp) / ε) - k) * ε) := by field_simp; ring
          rw [e, abs_neg, abs_mul, abs_of_pos hε]
          nlinarith
        have k0 : (0 : ℝ) < k * ε := by
          have := (abs_le.mp kd).1
          nlinarith
        have kpos : 0 < k := by
          have : (0 : ℝ) < k := by
            by_contra hn; rw [not_lt] at hn
            have := mul_nonpos_of_nonpos_of_nonneg hn hε.le
            linarith
          exact_mod_cast this
        have kle : k ≤ 2 ^ P := by
          have : (k : ℝ) < 2 ^ P + 1 := lt_of_mul_lt_mul_right (by rw [add_mul, hinvP]; have := (abs_le.mp kd).2; linarith) hε.le
          have : k < 2 ^ P + 1 := by exact_mod_cast this
          omega
        have := h'.nearest (1 - zp) _ (IsFloat.mk_le (p := P) (q := q') (m := k) hP (by rw [abs_of_pos kpos]; exact kle) hq')
        have := (abs_le.mp (this.trans kd)).1
        linarith
      nlinarith

end Bezman
