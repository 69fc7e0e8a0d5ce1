import Verif.Spec.Rounded
import Mathlib.Data.Int.Log
import Mathlib.Algebra.Order.Round
import Mathlib.Analysis.SpecialFunctions.Pow.Real
import Mathlib.Tactic.Linarith
import Mathlib.Tactic.Ring
import Mathlib.Tactic.FieldSimp

/-! # Round to nearest: monotone, exact on floating-point numbers, relative error -/

namespace Bezman.Spec

section isFloat
variable {p : ℕ} {q : ℤ}

theorem IsFloat.zero : IsFloat p q 0 := ⟨0, q, by simp, le_refl _, by simp⟩

theorem IsFloat.neg {x : ℝ} : IsFloat p q x → IsFloat p q (-x)
  | ⟨m, e, h1, h2, h3⟩ => ⟨-m, e, by simpa using h1, h2, by rw [h3]; push_cast; ring⟩

/-- a numerator of `2^p` is allowed too -/
theorem IsFloat.mk_le (hp : 0 < p) {m e : ℤ} (hm : |m| ≤ 2 ^ p) (he : q ≤ e) : IsFloat p q (m * 2 ^ e) := by
  rcases lt_or_eq_of_le hm with h | h
  · exact ⟨m, e, h, he, rfl⟩
  · have h1 : (1 : ℤ) < 2 ^ p := one_lt_pow₀ (by norm_num) (by omega)
    rcases abs_eq (by positivity) |>.mp h with h | h
    · refine ⟨1, p + e, by simpa using h1, by omega, ?_⟩
      rw [h, zpow_add₀ two_ne_zero, zpow_natCast]; push_cast; ring
    · refine ⟨-1, p + e, by simpa using h1, by omega, ?_⟩
      rw [h, zpow_add₀ two_ne_zero, zpow_natCast]; push_cast; ring

theorem IsFloat.two_zpow (hp : 0 < p) {e : ℤ} (he : q ≤ e) : IsFloat p q (2 ^ e) := by
  have := IsFloat.mk_le (q := q) hp (m := 1) (e := e) (by rw [abs_one]; exact one_le_pow₀ (by norm_num)) he
  simpa using this

/-- all numbers are multiples of the smallest one -/
theorem IsFloat.multiple {x : ℝ} : IsFloat p q x → ∃ k : ℤ, x = k * 2 ^ q
  | ⟨m, e, _, h2, h3⟩ => by
    obtain ⟨n, hn⟩ := Int.eq_ofNat_of_zero_le (a := e - q) (by omega)
    refine ⟨m * 2 ^ n, ?_⟩
    rw [h3]; push_cast
    rw [mul_assoc, ← zpow_natCast, ← zpow_add₀ two_ne_zero]
    congr 2; omega

/-- numbers of magnitude at least `2^(e+p-1)` are multiples of `2^e` -/
theorem IsFloat.multiple_of_le {x : ℝ} {e : ℤ} (hx : (2 : ℝ) ^ (e + p - 1) ≤ |x|) :
    IsFloat p q x → ∃ k : ℤ, x = k * 2 ^ e
  | ⟨m, f, h1, h2, h3⟩ => by
    have hm : |(m : ℝ)| < 2 ^ p := by exact_mod_cast h1
    have hf : (0 : ℝ) < 2 ^ f := by positivity
    have : (2 : ℝ) ^ (e + p - 1) < 2 ^ ((p : ℤ) + f) := by
      refine lt_of_le_of_lt hx ?_
      rw [h3, abs_mul, abs_of_pos hf, zpow_add₀ two_ne_zero, zpow_natCast]
      exact mul_lt_mul_of_pos_right hm hf
    have := (zpow_lt_zpow_iff_right₀ (by norm_num : (1 : ℝ) < 2)).mp this
    obtain ⟨n, hn⟩ := Int.eq_ofNat_of_zero_le (a := f - e) (by omega)
    refine ⟨m * 2 ^ n, ?_⟩
    rw [h3]; push_cast
    rw [mul_assoc, ← zpow_natCast, ← zpow_add₀ two_ne_zero]
    congr 2; omega

end isFloat

namespace Nearest
variable {p : ℕ} {q : ℤ} {rnd : ℝ → ℝ} (h : Nearest p q rnd)
include h

theorem exact {x : ℝ} (hx : IsFloat p q x) : rnd x = x := by
  have := h.nearest x x hx
  rw [sub_self, abs_zero] at this
  exact sub_eq_zero.mp (abs_nonpos_iff.mp this)

theorem mono : Monotone rnd := by
  intro x y hxy
  rcases hxy.lt_or_eq with hxy | rfl
  · by_contra hlt
    rw [not_le] at hlt
    have h1 := h.nearest x (rnd y) (h.isFloat y)
    have h2 := h.nearest y (rnd x) (h.isFloat x)
    rw [← sq_le_sq] at h1 h2
    nlinarith
  · exact le_refl _

theorem zero : rnd 0 = 0 := h.exact IsFloat.zero

theorem one (hp : 0 < p) (hq : q ≤ 0) : rnd 1 = 1 := by
  have := h.exact (IsFloat.two_zpow hp hq)
  simpa using this

/-- numbers just above one are rounded to one -/
theorem le_one (hp : 0 < p) (hq : q ≤ 1 - p) {x : ℝ} (hx : x < 1 + 2 ^ (-(p : ℤ))) : rnd x ≤ 1 := by
  by_contra hlt
  rw [not_le] at hlt
  have h1 : (1 : ℝ) ≤ x := by
    by_contra h1
    rw [not_le] at h1
    have := h.mono h1.le
    rw [h.one hp (by omega)] at this
    linarith
  obtain ⟨k, hk⟩ := (h.isFloat x).multiple_of_le (e := 1 - p) (by
    rw [show (1 - (p : ℤ) + p - 1) = 0 by ring, zpow_zero]; exact hlt.le.trans (le_abs_self _))
  have hu : (2 : ℝ) ^ (1 - (p : ℤ)) = 2 * 2 ^ (-(p : ℤ)) := by
    rw [sub_eq_add_neg, zpow_add₀ two_ne_zero, zpow_one]
  have hpos : (0 : ℝ) < 2 ^ (-(p : ℤ)) := by positivity
  have hone : (2 : ℝ) ^ (p - 1 : ℕ) * 2 ^ (1 - (p : ℤ)) = 1 := by
    rw [← zpow_natCast, ← zpow_add₀ two_ne_zero]
    rw [show ((p - 1 : ℕ) : ℤ) + (1 - (p : ℤ)) = 0 by omega, zpow_zero]
  have hk1 : (2 : ℤ) ^ (p - 1 : ℕ) + 1 ≤ k := by
    have : ((2 : ℤ) ^ (p - 1 : ℕ) : ℝ) < k := by
      have hp' : (0 : ℝ) < 2 ^ (1 - (p : ℤ)) := by positivity
      refine lt_of_mul_lt_mul_right ?_ hp'.le
      rw [← hk]; push_cast; rw [hone]; exact hlt
    exact_mod_cast this
  have hk2 : ((2 : ℝ) ^ (p - 1 : ℕ) + 1) * 2 ^ (1 - (p : ℤ)) ≤ rnd x := by
    rw [hk]
    refine mul_le_mul_of_nonneg_right ?_ (by positivity)
    exact_mod_cast hk1
  rw [add_mul, hone, one_mul, hu] at hk2
  have h2 := h.nearest x 1 (by simpa using IsFloat.two_zpow (p := p) (q := q) hp (e := 0) (by omega))
  rw [abs_of_nonneg (by linarith), abs_of_nonpos (by linarith)] at h2
  linarith

/-- relative error, strictly below `2^-p` for all numbers above the underflow threshold -/
theorem err (hp : 0 < p) {x : ℝ} (hx : (2 : ℝ) ^ (q + p - 1) ≤ |x|) : |rnd x - x| < 2 ^ (-(p : ℤ)) * |x| := by
  have hpos : 0 < |x| := lt_of_lt_of_le (by positivity) hx
  set L := Int.log 2 |x| with hL
  have h2 : (0 : ℝ) < 2 ^ (L - ((p : ℤ) - 1)) := by positivity
  have h3 : (2 : ℝ) ^ L ≤ |x| := by
    have := Int.zpow_log_le_self (R := ℝ) (b := 2) (by norm_num) hpos
    exact_mod_cast this
  have h4 : |x| < 2 ^ (L + 1) := by
    have := Int.lt_zpow_succ_log_self (R := ℝ) (b := 2) (by norm_num) |x|
    exact_mod_cast this
  have hqL : q ≤ L - ((p : ℤ) - 1) := by
    have := (zpow_lt_zpow_iff_right₀ (by norm_num : (1 : ℝ) < 2)).mp (lt_of_le_of_lt hx h4)
    omega
  rcases h3.lt_or_eq with h5 | h5
  · have e : x = x * 2 ^ ((p : ℤ) - 1 - L) * 2 ^ (L - ((p : ℤ) - 1)) := by
      rw [mul_assoc, ← zpow_add₀ two_ne_zero]; simp
    set m := round (x * (2 : ℝ) ^ ((p : ℤ) - 1 - L)) with hm
    have hfl : IsFloat p q (m * 2 ^ (L - ((p : ℤ) - 1))) := by
      refine IsFloat.mk_le hp ?_ hqL
      have hy : |x * 2 ^ ((p : ℤ) - 1 - L)| < 2 ^ p := by
        rw [abs_mul, abs_of_pos (show (0 : ℝ) < 2 ^ ((p : ℤ) - 1 - L) by positivity)]
        calc _ < 2 ^ (L + 1) * (2 : ℝ) ^ ((p : ℤ) - 1 - L) := mul_lt_mul_of_pos_right h4 (by positivity)
          _ = 2 ^ p := by
            rw [← zpow_add₀ two_ne_zero, show L + 1 + ((p : ℤ) - 1 - L) = p by ring, zpow_natCast]
      rw [abs_lt] at hy
      rw [abs_le]
      have e : m = ⌊x * 2 ^ ((p : ℤ) - 1 - L) + 1 / 2⌋ := round_eq _
      constructor
      · rw [e, Int.le_floor]; push_cast; linarith
      · rw [e, ← Int.lt_add_one_iff, Int.floor_lt]; push_cast; linarith
    calc _ ≤ |m * 2 ^ (L - ((p : ℤ) - 1)) - x| := h.nearest _ _ hfl
      _ = |x * 2 ^ ((p : ℤ) - 1 - L) - m| * 2 ^ (L - ((p : ℤ) - 1)) := by
        conv_lhs => rw [e]
        rw [← sub_mul, abs_mul, abs_of_pos h2, abs_sub_comm]
      _ ≤ 1 / 2 * 2 ^ (L - ((p : ℤ) - 1)) := mul_le_mul_of_nonneg_right (abs_sub_round _) h2.le
      _ = 2 ^ (-(p : ℤ)) * 2 ^ L := by
        have : L - ((p : ℤ) - 1) = -(p : ℤ) + L + 1 := by ring
        rw [this, zpow_add₀ two_ne_zero, zpow_add₀ two_ne_zero, zpow_one]; ring
      _ < _ := mul_lt_mul_of_pos_left h5 (by positivity)
  · have hfl : IsFloat p q x := by
      have hf := IsFloat.two_zpow (p := p) (q := q) hp (e := L) (by omega)
      rcases abs_cases x with ⟨ha, _⟩ | ⟨ha, _⟩
      · rw [← ha, ← h5]; exact hf
      · have : x = -(2 ^ L) := by rw [h5, ha]; ring
        rw [this]; exact hf.neg
    rw [h.exact hfl, sub_self, abs_zero]
    positivity

/-- distinct numbers have a difference other than zero (gradual underflow) -/
theorem diff_pos {x y : ℝ} (hp : 0 < p) (hx : IsFloat p q x) (hy : IsFloat p q y) (hxy : x < y) : 0 < rnd (y - x) := by
  obtain ⟨k, hk⟩ := hx.multiple
  obtain ⟨l, hl⟩ := hy.multiple
  have h2 : (0 : ℝ) < 2 ^ q := by positivity
  have hlk : k + 1 ≤ l := by
    have : (k : ℝ) < l := lt_of_mul_lt_mul_right (by rw [← hk, ← hl]; exact hxy) h2.le
    exact_mod_cast this
  have h3 : (2 : ℝ) ^ q ≤ y - x := by
    have : ((k : ℝ) + 1) ≤ l := by exact_mod_cast hlk
    rw [hk, hl]; nlinarith
  have := h.mono h3
  rw [h.exact (IsFloat.two_zpow hp (le_refl q))] at this
  linarith

end Nearest

/-- Round to nearest exists: a nearest multiple of the spacing of the numbers around `x`. -/
noncomputable def rndNear (p : ℕ) (q : ℤ) (x : ℝ) : ℝ :=
  (round (x * 2 ^ (-(max (Int.log 2 |x| - ((p : ℤ) - 1)) q))) : ℤ) * (2 : ℝ) ^ (max (Int.log 2 |x| - ((p : ℤ) - 1)) q)

theorem rndNear_nearest {p : ℕ} (hp : 0 < p) (q : ℤ) : Nearest p q (rndNear p q) := by
  constructor
  · intro x
    unfold rndNear
    set L := Int.log 2 |x|
    set e := max (L - ((p : ℤ) - 1)) q
    refine IsFloat.mk_le hp ?_ (le_max_right _ _)
    have h4 : |x| < 2 ^ (L + 1) := by
      have := Int.lt_zpow_succ_log_self (R := ℝ) (b := 2) (by norm_num) |x|
      exact_mod_cast this
    have hle : (2 : ℝ) ^ (L + 1) ≤ 2 ^ (e + p) := by
      have : L - ((p : ℤ) - 1) ≤ e := le_max_left _ _
      exact zpow_le_zpow_right₀ (by norm_num) (by omega)
    have hy : |x * 2 ^ (-e)| < 2 ^ p := by
      rw [abs_mul, abs_of_pos (show (0 : ℝ) < 2 ^ (-e) by positivity)]
      calc _ < 2 ^ (e + p) * (2 : ℝ) ^ (-e) := mul_lt_mul_of_pos_right (h4.trans_le hle) (by positivity)
        _ = 2 ^ p := by
          rw [← zpow_add₀ two_ne_zero, show e + p + -e = (p : ℤ) by ring, zpow_natCast]
    rw [abs_lt] at hy
    rw [abs_le, round_eq]
    constructor
    · rw [Int.le_floor]; push_cast; linarith
    · rw [← Int.lt_add_one_iff, Int.floor_lt]; push_cast; linarith
  · intro x y hy
    by_cases hx0 : x = 0
    · subst hx0; simp [rndNear]
    unfold rndNear
    set L := Int.log 2 |x| with hL
    set e := max (L - ((p : ℤ) - 1)) q with he
    have h2 : (0 : ℝ) < 2 ^ e := by positivity
    have ex : x = x * 2 ^ (-e) * 2 ^ e := by
      rw [mul_assoc, ← zpow_add₀ two_ne_zero]; simp
    have key : ∀ k : ℤ, |(round (x * (2 : ℝ) ^ (-e)) : ℤ) * (2 : ℝ) ^ e - x| ≤ |k * (2 : ℝ) ^ e - x| := by
      intro k
      have a : ∀ z : ℤ, |z * (2 : ℝ) ^ e - x| = |x * 2 ^ (-e) - z| * 2 ^ e := by
        intro z
        conv_lhs => rw [ex]
        rw [← sub_mul, abs_mul, abs_of_pos h2, abs_sub_comm]
      rw [a, a]
      exact mul_le_mul_of_nonneg_right (round_le _ _) h2.le
    by_cases hyx : (2 : ℝ) ^ (e + p - 1) ≤ |y|
    · obtain ⟨k, hk⟩ := hy.multiple_of_le (e := e) hyx
      rw [hk]; exact key k
    · rw [not_le] at hyx
      by_cases hq : e = q
      · obtain ⟨k, hk⟩ := hy.multiple
        rw [hk, ← hq]; exact key k
      · have heL : e + p - 1 = L := by omega
        have h3 : (2 : ℝ) ^ L ≤ |x| := by
          have := Int.zpow_log_le_self (R := ℝ) (b := 2) (by norm_num) (abs_pos.mpr hx0)
          exact_mod_cast this
        rw [heL] at hyx
        have hmul : (2 : ℝ) ^ (p - 1 : ℕ) * 2 ^ e = 2 ^ L := by
          rw [← zpow_natCast, ← zpow_add₀ two_ne_zero]
          congr 1; omega
        have hyx' := abs_lt.mp hyx
        rcases abs_cases x with ⟨ha, hb⟩ | ⟨ha, hb⟩
        · refine (key (2 ^ (p - 1 : ℕ))).trans ?_
          push_cast
          rw [hmul, abs_of_nonpos (by linarith), abs_of_nonpos (by linarith)]
          linarith
        · refine (key (-2 ^ (p - 1 : ℕ))).trans ?_
          push_cast
          rw [neg_mul, hmul, abs_of_nonneg (by linarith), abs_of_nonneg (by linarith)]
          linarith

end Bezman.Spec
