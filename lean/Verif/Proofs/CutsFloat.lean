import Verif.Proofs.Cuts
import Verif.Proofs.AnyArithRational

/-! # Relative positions of cuts in floating-point numbers -/

namespace Bezman
open Spec

section
variable {σ K : Type} [Zero K] [One K] [LT K]

/-- a chain of cuts, each of which returns exactly for positions between 0 and 1 -/
theorem cutChain_returns {split : σ → K → M (σ × σ)} {P : σ → Prop}
    (hok : ∀ s z, P s → 0 < z ∧ z < 1 → ∃ a b, split s z = .ok (a, b) ∧ P a ∧ P b) {s : σ} (hs : P s) {rs : List K}
    (h : ∀ r ∈ rs, 0 < r ∧ r < 1) : ∃ l, cutChain split s rs = .ok l ∧ l.length = rs.length + 1 ∧ ∀ a ∈ l, P a := by
  induction rs generalizing s with
  | nil => exact ⟨[s], rfl, rfl, by simpa using hs⟩
  | cons r rs ih =>
    obtain ⟨a, b, e, ha, hb⟩ := hok s r hs (h r (by simp))
    obtain ⟨l, e2, h2, h3⟩ := ih hb fun x hx => h x (by simp [hx])
    refine ⟨a :: l, ?_, by simp [h2], by simpa using ⟨ha, h3⟩⟩
    simp only [cutChain, e, bind_ok, e2]; rfl

theorem cutChain_throws {split : σ → K → M (σ × σ)} {P : σ → Prop}
    (hok : ∀ s z, P s → 0 < z ∧ z < 1 → ∃ a b, split s z = .ok (a, b) ∧ P a ∧ P b)
    (herr : ∀ s z, P s → ¬ (0 < z ∧ z < 1) → split s z = .error .throws) {s : σ} (hs : P s) {rs : List K}
    (h : ¬ ∀ r ∈ rs, 0 < r ∧ r < 1) : cutChain split s rs = .error .throws := by
  induction rs generalizing s with
  | nil => exact absurd (by simp) h
  | cons r rs ih =>
    by_cases hr : 0 < r ∧ r < 1
    · obtain ⟨a, b, e, ha, hb⟩ := hok s r hs hr
      simp only [cutChain, e, bind_ok, ih hb fun h' => h (by simpa using ⟨hr, h'⟩)]
      rfl
    · simp only [cutChain, herr s r hs hr]; rfl
end

namespace Spec.Nearest
variable {p : ℕ} {q : ℤ} {rnd : ℝ → ℝ} (h : Nearest p q rnd)
include h

theorem nonneg {x : ℝ} (hx : 0 ≤ x) : 0 ≤ rnd x := by
  have := h.mono hx; rwa [h.zero] at this

/-- multiples of `2^-p` in the unit interval are numbers -/
theorem grid (hp : 0 < p) (hq : q ≤ -p) {k : ℤ} (h0 : 0 ≤ k) (h1 : k ≤ 2 ^ p) : rnd (k * 2 ^ (-(p : ℤ))) = k * 2 ^ (-(p : ℤ)) :=
  h.exact (IsFloat.mk_le hp (by rw [abs_of_nonneg h0]; exact h1) hq)

/-- a quotient of two different numbers does not round to one -/
theorem div_lt_one (hp : 0 < p) (hq : q ≤ -p) {a b : ℝ} (ha : IsFloat p q a) (hb : IsFloat p q b) (h0 : 0 < a) (hab : a < b) (hb1 : b ≤ 1) :
    rnd (a / b) < 1 := by
  have hbp : 0 < b := h0.trans hab
  have hpp : (0 : ℝ) < 2 ^ (-(p : ℤ)) := by positivity
  have hkey : a / b ≤ 1 - 2 ^ (-(p : ℤ)) := by
    rw [div_le_iff₀ hbp]
    set L := Int.log 2 b with hL
    have h3 : (2 : ℝ) ^ L ≤ b := by
      have := Int.zpow_log_le_self (R := ℝ) (b := 2) (by norm_num) hbp
      exact_mod_cast this
    have h4 : b < 2 ^ (L + 1) := by
      have := Int.lt_zpow_succ_log_self (R := ℝ) (b := 2) (by norm_num) b
      exact_mod_cast this
    by_cases ha2 : a ≤ b / 2
    · have : (2 : ℝ) ^ (-(p : ℤ)) ≤ 1 / 2 := by
        have := zpow_le_zpow_right₀ (by norm_num : (1 : ℝ) ≤ 2) (show -(p : ℤ) ≤ -1 by omega)
        simpa using this
      nlinarith
    rw [not_le] at ha2
    have step : ∀ e : ℤ, ∀ x y : ℝ, (∃ k : ℤ, x = k * 2 ^ e) → (∃ k : ℤ, y = k * 2 ^ e) → x < y → x + 2 ^ e ≤ y := by
      rintro e x y ⟨k, hk⟩ ⟨l, hl⟩ hxy
      have h2 : (0 : ℝ) < 2 ^ e := by positivity
      have : k + 1 ≤ l := by
        have : (k : ℝ) < l := lt_of_mul_lt_mul_right (by rw [← hk, ← hl]; exact hxy) h2.le
        exact_mod_cast this
      have : (k : ℝ) + 1 ≤ l := by exact_mod_cast this
      rw [hk, hl]; nlinarith
    by_cases hLL : (2 : ℝ) ^ L ≤ a
    · have hdist := step (L + 1 - p) a b
        (ha.multiple_of_le (by rw [show L + 1 - (p : ℤ) + p - 1 = L by ring, abs_of_pos h0]; exact hLL))
        (hb.multiple_of_le (by rw [show L + 1 - (p : ℤ) + p - 1 = L by ring, abs_of_pos hbp]; exact h3)) hab
      have : (2 : ℝ) ^ (L + 1 - (p : ℤ)) = 2 ^ (L + 1) * 2 ^ (-(p : ℤ)) := by
        rw [← zpow_add₀ two_ne_zero]; rfl
      nlinarith
    · rw [not_le] at hLL
      have hdist := step (L - p) a (2 ^ L)
        (ha.multiple_of_le (by
          rw [show L - (p : ℤ) + p - 1 = L - 1 by ring, abs_of_pos h0, zpow_sub₀ two_ne_zero, zpow_one]; linarith))
        ⟨2 ^ p, by push_cast; rw [← zpow_natCast, ← zpow_add₀ two_ne_zero]; congr 1; omega⟩ hLL
      have : (2 : ℝ) ^ (L - (p : ℤ)) = 2 ^ L * 2 ^ (-(p : ℤ)) := by
        rw [← zpow_add₀ two_ne_zero]; rfl
      have hp1 : (2 : ℝ) ^ (-(p : ℤ)) ≤ 1 := zpow_le_one_of_nonpos₀ (by norm_num) (by omega)
      nlinarith
  have := h.mono hkey
  refine lt_of_le_of_lt this ?_
  have e : (1 : ℝ) - 2 ^ (-(p : ℤ)) = ((2 ^ p - 1 : ℤ) : ℝ) * 2 ^ (-(p : ℤ)) := by
    push_cast; rw [sub_mul, one_mul, ← zpow_natCast, ← zpow_add₀ two_ne_zero]; simp
  rw [e, h.grid hp hq (by have := one_le_pow₀ (n := p) (show (1 : ℤ) ≤ 2 by norm_num); omega) (by omega), ← e]
  linarith

/-- the relative position of a cut: it is below one unless both differences round to the same number -/
theorem rel_iff (hp : 0 < p) (hq : q ≤ -p) {zp z : ℝ} (hzp : IsFloat p q zp) (hz : IsFloat p q z) (h0 : 0 < zp) (h1 : zp < z) (h2 : z < 1) :
    0 < rnd (rnd (z - zp) / rnd (1 - zp)) ∧ (rnd (rnd (z - zp) / rnd (1 - zp)) < 1 ↔ rnd (z - zp) < rnd (1 - zp)) := by
  have one : IsFloat p q 1 := by simpa using IsFloat.two_zpow (p := p) (q := q) hp (e := 0) (by omega)
  have ha : 0 < rnd (z - zp) := h.diff_pos hp hzp hz h1
  have hab : rnd (z - zp) ≤ rnd (1 - zp) := h.mono (by linarith)
  have hb1 : rnd (1 - zp) ≤ 1 := by
    have := h.mono (show 1 - zp ≤ 1 by linarith)
    rwa [h.exact one] at this
  have hb : 0 < rnd (1 - zp) := ha.trans_le hab
  refine ⟨?_, fun hlt => ?_, fun hlt => h.div_lt_one hp hq (h.isFloat _) (h.isFloat _) ha hlt hb1⟩
  · have : rnd (z - zp) ≤ rnd (z - zp) / rnd (1 - zp) := by
      rw [le_div_iff₀ hb]; nlinarith
    have := h.mono this
    rw [h.exact (h.isFloat _)] at this
    linarith
  · rcases hab.lt_or_eq with h3 | h3
    · exact h3
    · rw [h3, div_self hb.ne', h.exact one] at hlt
      exact absurd hlt (lt_irrefl _)

/-- two differences that are two units in the last place apart, or exact, do not round to the same number -/
theorem diff_lt (hp : 0 < p) (hq : q ≤ -p) {zp z : ℝ} (hzp : IsFloat p q zp) (hz : IsFloat p q z) (h0 : 0 < zp) (h1 : zp < z) (h2 : z < 1)
    (hc : z ≤ 1 - 2 ^ (1 - (p : ℤ)) ∨ 1 / 2 ≤ zp) : rnd (z - zp) < rnd (1 - zp) := by
  have hpp : (0 : ℝ) < 2 ^ (-(p : ℤ)) := by positivity
  have hinv : (2 : ℝ) ^ p * 2 ^ (-(p : ℤ)) = 1 := by rw [← zpow_natCast, ← zpow_add₀ two_ne_zero]; simp
  rcases hc with hc | hc
  · have h2p : (2 : ℝ) ^ (1 - (p : ℤ)) = 2 * 2 ^ (-(p : ℤ)) := by
      rw [sub_eq_add_neg, zpow_add₀ two_ne_zero, zpow_one]
    rw [h2p] at hc
    -- a number between the two differences
    set k := ⌈(z - zp) * 2 ^ p⌉ with hk
    have k1 : (z - zp) * 2 ^ p ≤ k := Int.le_ceil _
    have k2 : (k : ℝ) < (z - zp) * 2 ^ p + 1 := Int.ceil_lt_add_one _
    have e1 : z - zp ≤ k * 2 ^ (-(p : ℤ)) := by
      have := mul_le_mul_of_nonneg_right k1 hpp.le
      rwa [mul_assoc, hinv, mul_one] at this
    have e2 : (k : ℝ) * 2 ^ (-(p : ℤ)) < z - zp + 2 ^ (-(p : ℤ)) := by
      have := mul_lt_mul_of_pos_right k2 hpp
      rwa [add_mul, mul_assoc, hinv, mul_one, one_mul] at this
    have kpos : 0 ≤ k := by
      have : (0 : ℝ) ≤ k := le_trans (by have := sub_pos.mpr h1; positivity) k1
      exact_mod_cast this
    have klt : k + 1 ≤ 2 ^ p := by
      have : ((k : ℝ) + 1) * 2 ^ (-(p : ℤ)) < 2 ^ p * 2 ^ (-(p : ℤ)) := by rw [hinv]; linarith
      have := lt_of_mul_lt_mul_right this hpp.le
      have : (k + 1 : ℤ) < 2 ^ p := by exact_mod_cast this
      omega
    have f1 := h.mono e1
    rw [h.grid hp hq kpos (by omega)] at f1
    have f2 := h.mono (show ((k + 1 : ℤ) : ℝ) * 2 ^ (-(p : ℤ)) ≤ 1 - zp by push_cast; linarith)
    rw [h.grid hp hq (by omega) klt] at f2
    push_cast at f2
    linarith
  · have mul : ∀ x : ℝ, IsFloat p q x → 1 / 2 ≤ x → ∃ k : ℤ, x = k * 2 ^ (-(p : ℤ)) := fun x hx h =>
      hx.multiple_of_le (by
        rw [show -(p : ℤ) + p - 1 = -1 by ring, abs_of_nonneg (by linarith)]; norm_num; linarith)
    obtain ⟨k, hk⟩ := mul zp hzp hc
    obtain ⟨l, hl⟩ := mul z hz (by linarith)
    have b : ∀ m : ℤ, 1 / 2 ≤ (m : ℝ) * 2 ^ (-(p : ℤ)) → (m : ℝ) * 2 ^ (-(p : ℤ)) < 1 → 0 < m ∧ m < 2 ^ p := by
      intro m m1 m2
      constructor
      · have : (0 : ℝ) < m := by
          by_contra hn; rw [not_lt] at hn
          have := mul_nonpos_of_nonpos_of_nonneg hn hpp.le
          linarith
        exact_mod_cast this
      · rw [← hinv] at m2
        have := lt_of_mul_lt_mul_right m2 hpp.le
        exact_mod_cast this
    have bk := b k (by rw [← hk]; exact hc) (by rw [← hk]; linarith)
    have bl := b l (by rw [← hl]; linarith) (by rw [← hl]; exact h2)
    have hlk : k < l := by
      have : (k : ℝ) < l := lt_of_mul_lt_mul_right (by rw [← hk, ← hl]; exact h1) hpp.le
      exact_mod_cast this
    have e1 : z - zp = ((l - k : ℤ) : ℝ) * 2 ^ (-(p : ℤ)) := by rw [hk, hl]; push_cast; ring
    have e2 : 1 - zp = ((2 ^ p - k : ℤ) : ℝ) * 2 ^ (-(p : ℤ)) := by rw [hk]; push_cast; rw [sub_mul, hinv]
    rw [e1, e2, h.grid hp hq (by omega) (by omega), h.grid hp hq (by omega) (by omega)]
    exact mul_lt_mul_of_pos_right (by exact_mod_cast (by omega : l - k < 2 ^ p - k)) hpp

end Spec.Nearest
end Bezman
