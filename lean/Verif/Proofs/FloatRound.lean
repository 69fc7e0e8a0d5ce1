import Verif.Spec.FloatArith
import Mathlib.Data.Int.Log
import Mathlib.Algebra.Order.Round
import Mathlib.Analysis.SpecialFunctions.Pow.Real
import Mathlib.Tactic.Linarith
import Mathlib.Tactic.Ring
import Mathlib.Tactic.FieldSimp

/-! # Rounding to `p` binary digits

A concrete floating-point arithmetic for the examples: numbers `m 2^e` with `|m| ≤ 2^p` and any exponent, results are
rounded to a nearest number. -/

namespace Bezman

/-- nearest number with `p` binary digits -/
noncomputable def rndBin (p : ℕ) (x : ℝ) : ℝ :=
  (round (x * 2 ^ ((p : ℤ) - 1 - Int.log 2 |x|)) : ℤ) * (2 : ℝ) ^ (Int.log 2 |x| - ((p : ℤ) - 1))

theorem rndBin_err (p : ℕ) (x : ℝ) : |rndBin p x - x| ≤ (2 : ℝ) ^ (-(p : ℤ)) * |x| := by
  by_cases hx : x = 0
  · subst hx; simp [rndBin]
  unfold rndBin
  set L := Int.log 2 |x|
  have h2 : (0 : ℝ) < 2 ^ (L - ((p : ℤ) - 1)) := by positivity
  have e : x = x * 2 ^ ((p : ℤ) - 1 - L) * 2 ^ (L - ((p : ℤ) - 1)) := by
    rw [mul_assoc, ← zpow_add₀ two_ne_zero]; simp
  have h := abs_sub_round (x * (2 : ℝ) ^ ((p : ℤ) - 1 - L))
  have h3 : (2 : ℝ) ^ L ≤ |x| := by
    have := Int.zpow_log_le_self (R := ℝ) (b := 2) (by norm_num) (abs_pos.mpr hx)
    exact_mod_cast this
  calc _ = |(round (x * (2 : ℝ) ^ ((p : ℤ) - 1 - L)) - x * 2 ^ ((p : ℤ) - 1 - L)) * 2 ^ (L - ((p : ℤ) - 1))| := by
        rw [sub_mul, ← e]
    _ = |x * 2 ^ ((p : ℤ) - 1 - L) - round (x * (2 : ℝ) ^ ((p : ℤ) - 1 - L))| * 2 ^ (L - ((p : ℤ) - 1)) := by
        rw [abs_mul, abs_of_pos h2, abs_sub_comm]
    _ ≤ 1 / 2 * 2 ^ (L - ((p : ℤ) - 1)) := mul_le_mul_of_nonneg_right h h2.le
    _ = 2 ^ (-(p : ℤ)) * 2 ^ L := by
        have : L - ((p : ℤ) - 1) = -(p : ℤ) + L + 1 := by ring
        rw [this, zpow_add₀ two_ne_zero, zpow_add₀ two_ne_zero, zpow_one]; ring
    _ ≤ _ := mul_le_mul_of_nonneg_left h3 (by positivity)

/-- numbers with `p` binary digits are their own rounding -/
theorem rndBin_exact {p : ℕ} {m e : ℤ} (hm : |m| < 2 ^ p) : rndBin p (m * 2 ^ e) = m * 2 ^ e := by
  by_cases h0 : m = 0
  · subst h0; simp [rndBin]
  unfold rndBin
  set x : ℝ := m * 2 ^ e with hx
  set L := Int.log 2 |x|
  have hm' : |(m : ℝ)| < 2 ^ p := by exact_mod_cast hm
  have h2 : (0 : ℝ) < 2 ^ e := by positivity
  have hxp : 0 < |x| := by
    rw [hx, abs_mul, abs_of_pos h2]
    exact mul_pos (abs_pos.mpr (by exact_mod_cast h0)) h2
  have hxl : |x| < 2 ^ ((p : ℤ) + e) := by
    rw [hx, abs_mul, abs_of_pos h2, zpow_add₀ two_ne_zero, zpow_natCast]
    exact mul_lt_mul_of_pos_right hm' h2
  have hL : (2 : ℝ) ^ L ≤ |x| := by
    have := Int.zpow_log_le_self (R := ℝ) (b := 2) (by norm_num) hxp
    exact_mod_cast this
  have hlt : L < (p : ℤ) + e := (zpow_lt_zpow_iff_right₀ (by norm_num : (1 : ℝ) < 2)).mp (hL.trans_lt hxl)
  obtain ⟨k, hk⟩ := Int.eq_ofNat_of_zero_le (a := e + ((p : ℤ) - 1 - L)) (by omega)
  have e1 : x * 2 ^ ((p : ℤ) - 1 - L) = ((m * 2 ^ k : ℤ) : ℝ) := by
    rw [hx, mul_assoc, ← zpow_add₀ two_ne_zero, hk]
    push_cast
    rw [zpow_natCast]
  rw [e1, round_intCast, ← e1, mul_assoc, ← zpow_add₀ two_ne_zero]
  simp

/-- arithmetic with `p` binary digits -/
noncomputable def FloatArith.binary (p : ℕ) : FloatArith where
  u := 2 ^ (-(p : ℤ))
  η := 0
  add a b := rndBin p (a + b)
  sub a b := rndBin p (a - b)
  mul a b := rndBin p (a * b)
  div a b := rndBin p (a / b)
  cast n := rndBin p n
  u_nonneg := by positivity
  η_nonneg := le_rfl
  add_err a b := rndBin_err p _
  sub_err a b := rndBin_err p _
  mul_err a b := by rw [add_zero]; exact rndBin_err p _
  div_err a b _ := by rw [add_zero]; exact rndBin_err p _
  cast_err n := by
    have := rndBin_err p (n : ℝ)
    rwa [abs_of_nonneg (a := (n : ℝ)) (Nat.cast_nonneg n)] at this

theorem FloatArith.binary_representable {p : ℕ} {m e : ℤ} (hm : |m| < 2 ^ p) :
    (FloatArith.binary p).Representable (m * 2 ^ e) := by
  constructor
  · intro a b h; show rndBin p _ = _; rw [h, rndBin_exact hm]
  · intro a b h; show rndBin p _ = _; rw [h, rndBin_exact hm]
  · intro a b h; show rndBin p _ = _; rw [h, rndBin_exact hm]
  · intro a b _ h; show rndBin p _ = _; rw [h, rndBin_exact hm]

/-- results are representable -/
theorem FloatArith.binary_closed {p : ℕ} (hp : 0 < p) : (FloatArith.binary p).Closed := by
  have key : ∀ x : ℝ, ∃ m e : ℤ, |m| < 2 ^ p ∧ rndBin p x = m * 2 ^ e := by
    intro x
    by_cases hx : x = 0
    · exact ⟨0, 0, by simp, by simp [hx, rndBin]⟩
    unfold rndBin
    set L := Int.log 2 |x|
    set m := round (x * 2 ^ ((p : ℤ) - 1 - L))
    have hlt : |x| < 2 ^ (L + 1) := by
      have := Int.lt_zpow_succ_log_self (R := ℝ) (b := 2) (by norm_num) |x|
      exact_mod_cast this
    have h2 : (0 : ℝ) < 2 ^ ((p : ℤ) - 1 - L) := by positivity
    have hy : |x * 2 ^ ((p : ℤ) - 1 - L)| < 2 ^ p := by
      rw [abs_mul, abs_of_pos h2]
      calc _ < 2 ^ (L + 1) * 2 ^ ((p : ℤ) - 1 - L) := mul_lt_mul_of_pos_right hlt h2
        _ = 2 ^ p := by
          rw [← zpow_add₀ two_ne_zero, show L + 1 + ((p : ℤ) - 1 - L) = p by ring, zpow_natCast]
    rw [abs_lt] at hy
    have hm : |m| ≤ 2 ^ p := by
      rw [abs_le]
      have e : m = ⌊x * 2 ^ ((p : ℤ) - 1 - L) + 1 / 2⌋ := round_eq _
      constructor
      · rw [e, Int.le_floor]; push_cast; linarith
      · rw [e, ← Int.lt_add_one_iff, Int.floor_lt]; push_cast; linarith
    rcases lt_or_eq_of_le hm with h | h
    · exact ⟨m, _, h, rfl⟩
    · have h1 : (1 : ℤ) < 2 ^ p := one_lt_pow₀ (by norm_num) (by omega)
      rcases abs_eq (by positivity) |>.mp h with h | h
      · refine ⟨1, p + (L - ((p : ℤ) - 1)), by simpa using h1, ?_⟩
        rw [h, zpow_add₀ two_ne_zero, zpow_natCast]; push_cast; ring
      · refine ⟨-1, p + (L - ((p : ℤ) - 1)), by simpa using h1, ?_⟩
        rw [h, zpow_add₀ two_ne_zero, zpow_natCast]; push_cast; ring
  intro a b
  obtain ⟨m, e, hm, h⟩ := key (a + b)
  show (FloatArith.binary p).Representable (rndBin p (a + b))
  rw [h]
  exact FloatArith.binary_representable hm

/-- sums are rounded: `1 + 2^-p` is not representable -/
theorem FloatArith.binary_rounds : (FloatArith.binary 53).add 1 (2 ^ (-(54 : ℤ))) = 1 := by
  show rndBin 53 (1 + 2 ^ (-(54 : ℤ))) = 1
  unfold rndBin
  have hL : Int.log 2 |(1 : ℝ) + 2 ^ (-(54 : ℤ))| = 0 := by
    rw [abs_of_pos (by positivity)]
    rw [Int.log_of_one_le_right _ (by norm_num)]
    have : ⌊(1 : ℝ) + 2 ^ (-(54 : ℤ))⌋₊ = 1 := by
      rw [Nat.floor_eq_iff (by norm_num)]; norm_num
    rw [this]; simp
  rw [hL]
  have : round (((1 : ℝ) + 2 ^ (-(54 : ℤ))) * 2 ^ (((53 : ℕ) : ℤ) - 1 - 0)) = 2 ^ 52 := by
    rw [round_eq, Int.floor_eq_iff]
    norm_num
  rw [this]
  norm_num

end Bezman
