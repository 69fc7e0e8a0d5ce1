import Verif.Model.Text
import Verif.Spec.Text
import Verif.Proofs.Basic
import Mathlib.Tactic.Linarith
import Mathlib.Tactic.Ring
import Mathlib.Tactic.FieldSimp
import Mathlib.Tactic.Positivity
import Mathlib.Tactic.NormNum
import Mathlib.Tactic.IntervalCases
import Mathlib.Algebra.Order.Field.Power

namespace Bezman.Text
open Bezman.Spec.Text

/-! ## Digits -/

theorem foldl_number (l : List Char) (a : ℕ) :
    l.foldl (fun a c => 10 * a + (c.toNat - 48)) a = a * 10 ^ l.length + number l := by
  induction l generalizing a with
  | nil => simp [number]
  | cons c l ih =>
    unfold number
    rw [List.foldl_cons, ih, List.foldl_cons, ih (10 * 0 + _), List.length_cons, pow_succ]
    ring

theorem number_append (a b : List Char) : number (a ++ b) = number a * 10 ^ b.length + number b := by
  conv_lhs => unfold number
  rw [List.foldl_append, foldl_number]
  rfl

theorem digitChar_value (d : ℕ) (h : d < 10) : (Nat.digitChar d).toNat - 48 = d := by
  interval_cases d <;> rfl

theorem number_digits (n : ℕ) : number (digits n) = n := by
  induction n using Nat.strong_induction_on with
  | _ n ih =>
    unfold digits at *
    by_cases h : n < 10
    · rw [Nat.toDigits_of_lt_base h]
      simp [number, digitChar_value n h]
    · have h1 : n = 10 * (n / 10) + n % 10 := by omega
      have h2 := Nat.toDigits_append_toDigits (b := 10) (n := n / 10) (d := n % 10) (by norm_num) (by omega) (by omega)
      rw [← h1] at h2
      rw [← h2, number_append, ih _ (by omega), Nat.toDigits_of_lt_base (by omega : n % 10 < 10)]
      simp [number, digitChar_value (n % 10) (by omega)]
      omega

theorem digits_isDigit (n : ℕ) : (digits n).all Char.isDigit = true := by
  rw [List.all_eq_true]
  intro c hc
  exact Nat.isDigit_of_mem_toDigits (by norm_num) (by norm_num) hc

theorem digits_ne_nil (n : ℕ) : digits n ≠ [] := Nat.toDigits_ne_nil

theorem numeral_digits (n : ℕ) : numeral (digits n) = true := by
  simp [numeral, digits_isDigit, digits_ne_nil]

theorem number_zeros (k : ℕ) : number (List.replicate k '0') = 0 := by
  induction k with
  | zero => rfl
  | succ k ih => rw [List.replicate_succ', number_append, ih]; rfl

theorem number_padded (k n : ℕ) : number (padded k n) = n := by
  rw [padded, number_append, number_zeros, number_digits]; ring

theorem padded_isDigit (k n : ℕ) : (padded k n).all Char.isDigit = true := by
  rw [padded, List.all_append, digits_isDigit, Bool.and_true, List.all_eq_true]
  intro c hc
  rw [List.eq_of_mem_replicate hc]; rfl

theorem numeral_padded (k n : ℕ) : numeral (padded k n) = true := by
  have h : padded k n ≠ [] := by simp [padded, digits_ne_nil]
  simp [numeral, padded_isDigit, h]

theorem length_digits_le (k n : ℕ) (hk : 0 < k) : (digits n).length ≤ k ↔ n < 10 ^ k :=
  Nat.length_toDigits_le_iff (by norm_num) hk

theorem length_padded (k n : ℕ) (hk : 0 < k) (h : n < 10 ^ k) : (padded k n).length = k := by
  have := (length_digits_le k n hk).2 h
  simp [padded]; omega

/-! ## Decimals -/

theorem notMem_of_digits {l : List Char} (h : l.all Char.isDigit = true) {c : Char} (hc : c.isDigit = false) : c ∉ l := by
  intro hm
  rw [List.all_eq_true] at h
  rw [h c hm] at hc
  cases hc

theorem splitOn_none {l : List Char} {c : Char} (h : c ∉ l) : l.splitOn c = [l] := by
  have := List.splitOn_intercalate (ls := [l]) c (by simpa using h) (by simp)
  simpa [List.intercalate] using this

theorem splitOn_one {a b : List Char} {c : Char} (ha : c ∉ a) (hb : c ∉ b) : (a ++ c :: b).splitOn c = [a, b] := by
  have := List.splitOn_intercalate (ls := [a, b]) c (by simp [ha, hb]) (by simp)
  simpa [List.intercalate] using this

theorem readDecimal_withPoint (m k : ℕ) : readDecimal (withPoint m k) = some ((m : ℚ) / 10 ^ k) := by
  unfold readDecimal withPoint
  by_cases hk : k = 0
  · subst hk
    rw [if_pos rfl, List.append_nil, splitOn_none (notMem_of_digits (digits_isDigit _) rfl)]
    simp [numeral_digits, number_digits]
  · rw [if_neg hk, splitOn_one (notMem_of_digits (digits_isDigit _) rfl) (notMem_of_digits (padded_isDigit _ _) rfl)]
    have hlt : m % 10 ^ k < 10 ^ k := Nat.mod_lt _ (by positivity)
    have h1 : (m : ℚ) = 10 ^ k * (m / 10 ^ k : ℕ) + (m % 10 ^ k : ℕ) := by
      exact_mod_cast (Nat.div_add_mod m (10 ^ k)).symm
    simp only [numeral_digits, numeral_padded, Bool.and_self, if_true, number_digits, number_padded,
      length_padded k _ (by omega) hlt]
    congr 1
    rw [eq_div_iff (by positivity), add_mul, div_mul_cancel₀ _ (by positivity)]
    conv_rhs => rw [h1]
    ring

theorem withPoint_chars (m k : ℕ) : ∀ c ∈ withPoint m k, c.isDigit = true ∨ c = '.' := by
  intro c hc
  have hd := List.all_eq_true.1 (digits_isDigit (m / 10 ^ k))
  have hp := List.all_eq_true.1 (padded_isDigit k (m % 10 ^ k))
  unfold withPoint at hc
  rcases List.mem_append.1 hc with h | h
  · exact Or.inl (hd c h)
  · by_cases hk : k = 0
    · simp [hk] at h
    · rw [if_neg hk] at h
      rcases List.mem_cons.1 h with h | h
      · exact Or.inr h
      · exact Or.inl (hp c h)

theorem withPoint_ne_nil (m k : ℕ) : withPoint m k ≠ [] := by simp [withPoint, digits_ne_nil]

theorem notMem_withPoint (m k : ℕ) {c : Char} (h1 : c.isDigit = false) (h2 : c ≠ '.') : c ∉ withPoint m k := by
  intro hc
  rcases withPoint_chars m k c hc with h | h
  · rw [h1] at h; cases h
  · exact h2 h

theorem readUnsigned_withPoint (m k : ℕ) : readUnsigned (withPoint m k) = some ((m : ℚ) / 10 ^ k) := by
  unfold readUnsigned
  rw [splitOn_none (notMem_withPoint m k rfl (by decide))]
  exact readDecimal_withPoint m k

theorem readUnsigned_exponent (m k : ℕ) (X : ℤ) :
    readUnsigned (withPoint m k ++ 'e' :: (if X < 0 then '-' else '+') :: padded 2 X.natAbs) =
      some ((m : ℚ) / 10 ^ k * 10 ^ X) := by
  have h2 : 'e' ∉ (if X < 0 then '-' else '+') :: padded 2 X.natAbs := by
    rw [List.mem_cons]
    rintro (h | h)
    · split at h <;> cases h
    · exact notMem_of_digits (padded_isDigit _ _) rfl h
  unfold readUnsigned
  rw [splitOn_one (notMem_withPoint m k rfl (by decide)) h2]
  simp only [readDecimal_withPoint]
  by_cases hX : X < 0
  · have : (X.natAbs : ℤ) = -X := by omega
    simp [hX, readExponent, numeral_padded, number_padded, abs_of_neg hX]
  · have : (X.natAbs : ℤ) = X := by omega
    simp [hX, readExponent, numeral_padded, number_padded, abs_of_nonneg (not_lt.1 hX)]

theorem strip_value (m k : ℕ) : ((strip m k).1 : ℚ) / 10 ^ (strip m k).2 = (m : ℚ) / 10 ^ k := by
  induction k generalizing m with
  | zero => rfl
  | succ k ih =>
    rw [strip]
    split
    · next h =>
      rw [ih]
      have : (m : ℚ) = 10 * (m / 10 : ℕ) := by
        have : m = 10 * (m / 10) := by omega
        exact_mod_cast this
      conv_rhs => rw [this, pow_succ]
      field_simp
    · rfl

/-! ## Rounding -/

theorem nearest_error (q : ℚ) (h : 0 ≤ q) : |(nearest q : ℚ) - q| ≤ 1 / 2 := by
  have h1 := Nat.floor_le h
  have h2 := Nat.lt_floor_add_one q
  unfold nearest
  simp only
  rw [abs_le]
  split_ifs <;> push_cast <;> constructor <;> linarith

/-- no integer is nearer -/
theorem nearest_best (q : ℚ) (h : 0 ≤ q) (z : ℤ) : |(nearest q : ℚ) - q| ≤ |(z : ℚ) - q| := by
  by_cases hz : z = (nearest q : ℤ)
  · rw [hz]; simp
  · have h1 := nearest_error q h
    have h2 : (1 : ℚ) ≤ |(z : ℚ) - (nearest q : ℤ)| := by
      have : (1 : ℤ) ≤ |z - nearest q| := Int.one_le_abs (by omega)
      exact_mod_cast this
    have h3 : |(z : ℚ) - (nearest q : ℤ)| ≤ |(z : ℚ) - q| + |(nearest q : ℚ) - q| := by
      have := abs_sub_le (z : ℚ) q (nearest q)
      rw [abs_sub_comm q] at this
      exact_mod_cast this
    linarith

theorem le_nearest (q : ℚ) (N : ℕ) (h : (N : ℚ) ≤ q) : N ≤ nearest q := by
  have h1 : N ≤ ⌊q⌋₊ := Nat.le_floor h
  unfold nearest
  simp only
  split_ifs <;> omega

theorem nearest_le (q : ℚ) (N : ℕ) (h0 : 0 ≤ q) (h : q < N) : nearest q ≤ N := by
  have h1 : ⌊q⌋₊ < N := (Nat.floor_lt h0).2 h
  unfold nearest
  simp only
  split_ifs <;> omega

/-- the value of the digits -/
def valueOf (P : ℕ) (d : ℕ × ℤ) : ℚ := d.1 * 10 ^ (d.2 + 1 - (P : ℤ))

theorem significant_spec (P : ℕ) (hP : 1 ≤ P) (x : ℚ) (hx : 0 < x) :
    10 ^ (P - 1) ≤ (significant P x).1 ∧ (significant P x).1 < 10 ^ P ∧
      |valueOf P (significant P x) - x| ≤ x * 10 ^ (1 - (P : ℤ)) / 2 ∧
      ∀ z, HasDigits P z → |valueOf P (significant P x) - x| ≤ |z - x| := by
  have hl := Int.zpow_log_le_self (b := 10) (by norm_num) hx
  have hu := Int.lt_zpow_succ_log_self (b := 10) (by norm_num) x
  generalize hX : Int.log 10 x = X at hl hu
  push_cast at hl hu
  have ten : (10 : ℚ) ≠ 0 := by norm_num
  set U : ℚ := 10 ^ (X + 1 - (P : ℤ)) with hU
  have hUpos : 0 < U := by positivity
  set q : ℚ := x * 10 ^ ((P : ℤ) - 1 - X) with hq
  have hqU : q * U = x := by
    rw [hq, hU, mul_assoc, ← zpow_add₀ ten, show (P : ℤ) - 1 - X + (X + 1 - P) = 0 by ring, zpow_zero, mul_one]
  have hlow : (10 : ℚ) ^ X = 10 ^ (P - 1) * U := by
    rw [hU, ← zpow_natCast, ← zpow_add₀ ten]
    congr 1
    push_cast [hP]
    ring
  have hhigh : (10 : ℚ) ^ (X + 1) = 10 ^ P * U := by
    rw [hU, ← zpow_natCast, ← zpow_add₀ ten]
    congr 1
    ring
  have hq1 : ((10 ^ (P - 1) : ℕ) : ℚ) ≤ q := by
    push_cast
    rw [hlow, ← hqU] at hl
    exact le_of_mul_le_mul_right hl hUpos
  have hq2 : q < ((10 ^ P : ℕ) : ℚ) := by
    push_cast
    rw [hhigh, ← hqU] at hu
    exact lt_of_mul_lt_mul_right hu hUpos.le
  have hq0 : 0 ≤ q := le_trans (by positivity) hq1
  have hn1 := le_nearest q _ hq1
  have hn2 := nearest_le q _ hq0 hq2
  have hsucc : (10 : ℕ) ^ P = 10 ^ (P - 1) * 10 := by
    rw [← pow_succ]; congr 1; omega
  have hval : valueOf P (significant P x) = nearest q * U := by
    unfold significant valueOf
    simp only [hX, ← hq]
    split
    · next h =>
      rw [h, hsucc, hU]
      push_cast
      rw [show X + 1 + 1 - (P : ℤ) = 1 + (X + 1 - P) by ring, zpow_add₀ ten]
      ring
    · rfl
  have hdist : ∀ a : ℚ, |a * U - x| = |a - q| * U := by
    intro a
    rw [← hqU, ← sub_mul, abs_mul, abs_of_pos hUpos]
  refine ⟨?_, ?_, ?_, ?_⟩
  · unfold significant
    simp only [hX, ← hq]
    split
    · exact le_refl _
    · exact hn1
  · unfold significant
    simp only [hX, ← hq]
    split
    · simp only
      rw [hsucc]
      have : 0 < 10 ^ (P - 1) := by positivity
      omega
    · simp only
      omega
  · rw [hval, hdist]
    have h1 := mul_le_mul_of_nonneg_right (nearest_error q hq0) hUpos.le
    have h2 : U ≤ x * 10 ^ (1 - (P : ℤ)) := by
      have : U = 10 ^ X * 10 ^ (1 - (P : ℤ)) := by
        rw [hU, ← zpow_add₀ ten]
        congr 1
        ring
      rw [this]
      exact mul_le_mul_of_nonneg_right hl (by positivity)
    linarith
  · rintro z ⟨k, j, hk, rfl⟩
    rw [hval]
    by_cases hz : (10 : ℚ) ^ X ≤ k * 10 ^ j
    · have hj : X + 1 - (P : ℤ) ≤ j := by
        by_contra hj
        have h1 : (k : ℚ) * 10 ^ j < 10 ^ P * 10 ^ j := by
          apply mul_lt_mul_of_pos_right _ (by positivity)
          have : k < 10 ^ P := lt_of_le_of_lt (le_abs_self k) hk
          exact_mod_cast this
        have h2 : (10 : ℚ) ^ P * 10 ^ j ≤ 10 ^ X := by
          rw [← zpow_natCast, ← zpow_add₀ ten]
          exact zpow_le_zpow_right₀ (by norm_num) (by omega)
        linarith
      obtain ⟨i, hi⟩ := Int.le.dest hj
      have : (k : ℚ) * 10 ^ j = ((k * 10 ^ i : ℤ) : ℚ) * U := by
        rw [← hi, zpow_add₀ ten, hU]
        push_cast
        rw [zpow_natCast]
        ring
      rw [this, hdist, hdist]
      exact mul_le_mul_of_nonneg_right (nearest_best q hq0 _) hUpos.le
    · have h1 := mul_le_mul_of_nonneg_right (nearest_best q hq0 ((10 ^ (P - 1) : ℕ) : ℤ)) hUpos.le
      rw [← hdist, ← hdist] at h1
      refine h1.trans ?_
      push_cast
      rw [← hlow, abs_sub_comm, abs_of_nonneg (sub_nonneg.2 hl), abs_sub_comm, abs_of_nonneg]
      · linarith
      · linarith

/-! ## Numbers -/

theorem positiveG_read (P : ℕ) (hP : 1 ≤ P) (x : ℚ) :
    readUnsigned (positiveG P x) = some (valueOf P (significant P x)) := by
  unfold positiveG valueOf
  generalize significant P x = d
  obtain ⟨m, X⟩ := d
  have ten : (10 : ℚ) ≠ 0 := by norm_num
  simp only
  split
  · next h =>
    rw [readUnsigned_withPoint, strip_value]
    congr 1
    obtain ⟨k, hk⟩ := Int.le.dest (show 0 ≤ (P : ℤ) - 1 - X by omega)
    rw [← hk]
    have : X + 1 - (P : ℤ) = -(k : ℤ) := by omega
    rw [this, zpow_neg, zpow_natCast, div_eq_mul_inv]
    simp
  · rw [readUnsigned_exponent, strip_value]
    congr 1
    rw [show X + 1 - (P : ℤ) = -((P - 1 : ℕ) : ℤ) + X by push_cast [hP]; ring, zpow_add₀ ten, zpow_neg, zpow_natCast]
    ring

theorem positiveG_chars (P : ℕ) (x : ℚ) :
    ∀ c ∈ positiveG P x, c.isDigit = true ∨ c = '.' ∨ c = 'e' ∨ c = '+' ∨ c = '-' := by
  intro c hc
  unfold positiveG at hc
  simp only at hc
  split at hc
  · rcases withPoint_chars _ _ c hc with h | h <;> simp [h]
  · rcases List.mem_append.1 hc with h | h
    · rcases withPoint_chars _ _ c h with h | h <;> simp [h]
    · rcases List.mem_cons.1 h with h | h
      · simp [h]
      rcases List.mem_cons.1 h with h | h
      · split at h <;> simp [h]
      · exact Or.inl (List.all_eq_true.1 (padded_isDigit _ _) c h)

theorem withPoint_head (m k : ℕ) (l : List Char) : ∃ c t, withPoint m k ++ l = c :: t ∧ c.isDigit = true := by
  have h1 := digits_ne_nil (m / 10 ^ k)
  have h2 := List.all_eq_true.1 (digits_isDigit (m / 10 ^ k))
  unfold withPoint
  generalize digits (m / 10 ^ k) = d at h1 h2
  cases d with
  | nil => exact absurd rfl h1
  | cons c t => exact ⟨c, _, rfl, h2 c (by simp)⟩

theorem positiveG_head (P : ℕ) (x : ℚ) : ∃ c t, positiveG P x = c :: t ∧ c.isDigit = true := by
  unfold positiveG
  simp only
  split
  · simpa using withPoint_head (strip (significant P x).1 ((P : ℤ) - 1 - (significant P x).2).toNat).1 _ []
  · exact withPoint_head _ _ _

theorem readNumber_positive {l t : List Char} {c : Char} (h : l = c :: t) (hc : c.isDigit = true) :
    readNumber l = readUnsigned l := by
  subst h
  unfold readNumber
  split
  · next h => cases h; cases hc
  · rfl

theorem hasDigits_valueOf (P : ℕ) (d : ℕ × ℤ) (h : d.1 < 10 ^ P) : HasDigits P (valueOf P d) := by
  refine ⟨d.1, _, ?_, by unfold valueOf; push_cast; rfl⟩
  rw [abs_of_nonneg (by positivity)]
  exact_mod_cast h

theorem hasDigits_neg {P : ℕ} {x : ℚ} (h : HasDigits P x) : HasDigits P (-x) := by
  obtain ⟨k, j, hk, rfl⟩ := h
  exact ⟨-k, j, by rwa [abs_neg], by push_cast; ring⟩

theorem formatG_read (precision : ℕ) (x : ℚ) :
    ∃ y, readNumber (formatG precision x) = some y ∧ NearestDecimal (max precision 1) x y ∧
      |y - x| ≤ |x| * 10 ^ (1 - ((max precision 1 : ℕ) : ℤ)) / 2 := by
  have hP : 1 ≤ max precision 1 := le_max_right _ _
  unfold formatG
  generalize max precision 1 = P at hP
  split
  · next h =>
    subst h
    refine ⟨0, rfl, ⟨⟨0, 0, by simp, by simp⟩, ?_⟩, by simp⟩
    intro z _
    simp
  · next h0 =>
    split
    · next h =>
      have hx : 0 < -x := by linarith
      obtain ⟨_, h2, h3, h4⟩ := significant_spec P hP (-x) hx
      refine ⟨-valueOf P (significant P (-x)), ?_, ⟨hasDigits_neg (hasDigits_valueOf P _ h2), ?_⟩, ?_⟩
      · simp [readNumber, positiveG_read P hP]
      · intro z hz
        have := h4 (-z) (hasDigits_neg hz)
        rw [abs_sub_comm (-z)] at this
        rw [abs_sub_comm]
        convert this using 1 <;> congr 1 <;> ring
      · rw [abs_of_neg h, abs_sub_comm]
        convert h3 using 2
        ring
    · next h =>
      have hx : 0 < x := lt_of_le_of_ne (not_lt.1 h) (Ne.symm h0)
      obtain ⟨_, h2, h3, h4⟩ := significant_spec P hP x hx
      obtain ⟨c, t, hc, hd⟩ := positiveG_head P x
      refine ⟨valueOf P (significant P x), ?_, ⟨hasDigits_valueOf P _ h2, h4⟩, ?_⟩
      · rw [readNumber_positive hc hd, positiveG_read P hP]
      · rw [abs_of_pos hx]; exact h3

theorem formatG_chars (P : ℕ) (x : ℚ) :
    ∀ c ∈ formatG P x, c.isDigit = true ∨ c = '.' ∨ c = 'e' ∨ c = '+' ∨ c = '-' := by
  intro c hc
  unfold formatG at hc
  split at hc
  · simp at hc; subst hc; exact Or.inl rfl
  · split at hc
    · rcases List.mem_cons.1 hc with h | h
      · simp [h]
      · exact positiveG_chars _ _ c h
    · exact positiveG_chars _ _ c hc

theorem formatG_ne_nil (P : ℕ) (x : ℚ) : formatG P x ≠ [] := by
  unfold formatG
  split
  · simp
  · split
    · simp
    · obtain ⟨c, t, hc, _⟩ := positiveG_head (max P 1) x
      simp [hc]

theorem formatF_read (x : ℚ) :
    ∃ y, readNumber (formatF x) = some y ∧ |y - x| ≤ 1 / (2 * 10 ^ 6) ∧ ∀ z : ℤ, |y - x| ≤ |z / 10 ^ 6 - x| := by
  have key : ∀ a : ℚ, 0 ≤ a → |(nearest (a * 10 ^ 6) : ℚ) / 10 ^ 6 - a| ≤ 1 / (2 * 10 ^ 6) ∧
      ∀ z : ℤ, |(nearest (a * 10 ^ 6) : ℚ) / 10 ^ 6 - a| ≤ |(z : ℚ) / 10 ^ 6 - a| := by
    intro a ha
    have hd : ∀ b : ℚ, |b / 10 ^ 6 - a| = |b - a * 10 ^ 6| / 10 ^ 6 := by
      intro b
      rw [show b / 10 ^ 6 - a = (b - a * 10 ^ 6) / 10 ^ 6 by field_simp, abs_div]
      congr 1
    refine ⟨?_, fun z => ?_⟩
    · rw [hd, div_le_iff₀ (by norm_num)]
      refine (nearest_error _ (by positivity)).trans ?_
      norm_num
    · rw [hd, hd]
      exact div_le_div_of_nonneg_right (nearest_best _ (by positivity) z) (by norm_num)
  unfold formatF
  split
  · next h =>
    obtain ⟨h1, h2⟩ := key (-x) (by linarith)
    refine ⟨-((nearest (-x * 10 ^ 6) : ℚ) / 10 ^ 6), ?_, ?_, fun z => ?_⟩
    · simp [readNumber, readUnsigned_withPoint]
    · rw [abs_sub_comm]
      convert h1 using 2
      ring
    · have := h2 (-z)
      rw [abs_sub_comm ((((-z : ℤ)) : ℚ) / _)] at this
      rw [abs_sub_comm]
      convert this using 1
      · congr 1; ring
      · push_cast; congr 1; ring
  · next h =>
    obtain ⟨h1, h2⟩ := key x (not_lt.1 h)
    refine ⟨(nearest (x * 10 ^ 6) : ℚ) / 10 ^ 6, ?_, h1, h2⟩
    obtain ⟨c, t, hc, hd⟩ := withPoint_head (nearest (x * 10 ^ 6)) 6 []
    rw [List.append_nil] at hc
    rw [readNumber_positive hc hd, readUnsigned_withPoint]

/-! ## Points -/

/-- one coordinate with its leading spaces -/
def field (P : ℕ) (t : List Char) : List Char := setw (P + 2) t

theorem intercalate_cons (s a : List Char) (l : List (List Char)) :
    s.intercalate (a :: l) = a ++ l.flatMap (fun f => s ++ f) := by
  induction l generalizing a with
  | nil => simp [List.intercalate]
  | cons b l ih =>
    have : s.intercalate (a :: b :: l) = a ++ s ++ s.intercalate (b :: l) := by simp [List.intercalate, List.intersperse]
    rw [this, ih]
    simp

theorem pointText_eq {K : Type} {n : ℕ} (tx : ℕ → K → List Char) (p : Point K n) (P : ℕ) (hn : 0 < n) :
    pointText tx p P = .ok ('[' :: [',', ' '].intercalate ((List.ofFn p.val).map fun x => setw (P + 2) (tx P x)) ++ [']']) := by
  unfold pointText
  have hlen : (List.ofFn p.val).length = n := List.length_ofFn
  generalize List.ofFn p.val = cs at hlen
  cases cs with
  | nil => simp at hlen; omega
  | cons x cs =>
    obtain ⟨out, h1, h2⟩ := loopFrom_inv (a := 1) (b := n)
      (f := fun i out => do
        let x ← rd (x :: cs) i
        pure (out ++ ',' :: ' ' :: setw (P + 2) (tx P x)))
      (s := '[' :: setw (P + 2) (tx P x))
      (fun k out => out = '[' :: [',', ' '].intercalate (((x :: cs).take k).map fun x => setw (P + 2) (tx P x)))
      hn (by simp [List.intercalate]) (by
        intro k hk1 hk2 s hs
        subst hs
        obtain ⟨k, rfl⟩ : ∃ j, k = j + 1 := ⟨k - 1, by omega⟩
        have hk : k < cs.length := by simp at hlen; omega
        refine ⟨_, by rw [rd_ok (x := cs[k]) (by simp [hk])]; rfl, ?_⟩
        rw [List.take_succ_cons, List.take_succ_cons, List.map_cons, List.map_cons, intercalate_cons, intercalate_cons,
          List.take_add_one, List.getElem?_eq_getElem hk, List.map_append, List.flatMap_append]
        simp only [Option.toList_some, List.map_cons, List.map_nil, List.flatMap_cons, List.flatMap_nil, List.append_nil,
          List.cons_append, List.append_assoc, List.nil_append])
    rw [List.take_of_length_le (by omega)] at h2
    simp only [rd_ok (l := x :: cs) (i := 0) (x := x) rfl, bind_ok]
    rw [h1, h2]
    rfl

theorem pointText_zero {K : Type} (tx : ℕ → K → List Char) (p : Point K 0) (P : ℕ) : pointText tx p P = .error .ub := rfl

theorem dropWhile_setw (w : ℕ) (t : List Char) (h : ' ' ∉ t) : (setw w t).dropWhile (· = ' ') = t := by
  unfold setw
  generalize w - t.length = k
  induction k with
  | zero =>
    cases t with
    | nil => rfl
    | cons c t =>
      have : c ≠ ' ' := fun h' => h (by simp [h'])
      simp [List.dropWhile, this]
  | succ k ih => simpa [List.replicate_succ, List.dropWhile] using ih

theorem readPoint_text (fs : List (List Char)) (h0 : fs ≠ []) (h : ∀ f ∈ fs, ',' ∉ f) :
    readPoint ('[' :: [',', ' '].intercalate fs ++ [']']) =
      fs.mapM (fun f => readNumber (f.dropWhile (· = ' '))) := by
  cases fs with
  | nil => exact absurd rfl h0
  | cons a l =>
    have h1 : [',', ' '].intercalate (a :: l) = [','].intercalate (a :: l.map (fun f => ' ' :: f)) := by
      rw [intercalate_cons, intercalate_cons, List.flatMap_map]
      rfl
    have h2 : (([',', ' '].intercalate (a :: l)).splitOn ',') = a :: l.map (fun f => ' ' :: f) := by
      rw [h1]
      apply List.splitOn_intercalate
      · intro f hf
        rcases List.mem_cons.1 hf with hf | hf
        · rw [hf]; exact h a (by simp)
        · obtain ⟨g, hg, rfl⟩ := List.mem_map.1 hf
          intro hm
          rcases List.mem_cons.1 hm with hm | hm
          · cases hm
          · exact h g (by simp [hg]) hm
      · simp
    unfold readPoint
    simp only [List.cons_append, List.getLast?_append, List.getLast?_singleton, Option.some_or, if_true, List.dropLast_concat, h2]
    rw [List.mapM_cons, List.mapM_cons, List.mapM_map]
    congr 1

theorem setw_notMem (w : ℕ) (t : List Char) {c : Char} (h : c ∉ t) (hc : c ≠ ' ') : c ∉ setw w t := by
  unfold setw
  rw [List.mem_append]
  rintro (h' | h')
  · exact hc (List.eq_of_mem_replicate h')
  · exact h h'

theorem mapM_some {α β : Type} (f : α → Option β) (l : List α) (R : α → β → Prop) (h : ∀ a ∈ l, ∃ b, f a = some b ∧ R a b) :
    ∃ bs, l.mapM f = some bs ∧ List.Forall₂ R l bs := by
  induction l with
  | nil => exact ⟨[], rfl, .nil⟩
  | cons a l ih =>
    obtain ⟨b, hb, hR⟩ := h a (by simp)
    obtain ⟨bs, hbs, hRs⟩ := ih (fun a ha => h a (by simp [ha]))
    exact ⟨b :: bs, by rw [List.mapM_cons, hb, hbs]; rfl, .cons hR hRs⟩

theorem formatG_notMem (P : ℕ) (x : ℚ) {c : Char} (h1 : c.isDigit = false)
    (h2 : c ≠ '.' ∧ c ≠ 'e' ∧ c ≠ '+' ∧ c ≠ '-') : c ∉ formatG P x := by
  intro hc
  rcases formatG_chars P x c hc with h | h | h | h | h
  · rw [h1] at h; cases h
  · exact h2.1 h
  · exact h2.2.1 h
  · exact h2.2.2.1 h
  · exact h2.2.2.2 h

theorem readPoint_pointText (xs : List ℚ) (h0 : xs ≠ []) (P : ℕ) :
    ∃ ys, readPoint ('[' :: [',', ' '].intercalate (xs.map fun x => setw (P + 2) (formatG P x)) ++ [']']) = some ys ∧
      List.Forall₂ (fun x y => readNumber (formatG P x) = some y ∧ NearestDecimal (max P 1) x y ∧
        |y - x| ≤ |x| * 10 ^ (1 - ((max P 1 : ℕ) : ℤ)) / 2) xs ys := by
  rw [readPoint_text _ (by simpa using h0)]
  · rw [List.mapM_map]
    apply mapM_some
    intro x _
    rw [Function.comp_apply, dropWhile_setw _ _ (formatG_notMem P x rfl (by decide))]
    obtain ⟨y, h1, h2⟩ := formatG_read P x
    exact ⟨y, h1, h1, h2⟩
  · intro f hf
    obtain ⟨x, _, rfl⟩ := List.mem_map.1 hf
    exact setw_notMem _ _ (formatG_notMem P x rfl (by decide)) (by decide)

/-! ## Widths -/

theorem strip_int (m k : ℕ) : (strip m k).1 / 10 ^ (strip m k).2 = m / 10 ^ k ∧ (strip m k).2 ≤ k := by
  induction k generalizing m with
  | zero => simp [strip]
  | succ k ih =>
    rw [strip]
    split
    · obtain ⟨h1, h2⟩ := ih (m / 10)
      refine ⟨?_, by omega⟩
      rw [h1, Nat.div_div_eq_div_mul, pow_succ, mul_comm]
    · exact ⟨rfl, le_refl _⟩

theorem length_withPoint (m k : ℕ) : (withPoint m k).length = (digits (m / 10 ^ k)).length + if k = 0 then 0 else k + 1 := by
  unfold withPoint
  by_cases hk : k = 0
  · simp [hk]
  · simp [hk, length_padded k (m % 10 ^ k) (by omega) (Nat.mod_lt _ (by positivity))]

theorem length_strip (m k : ℕ) : (withPoint (strip m k).1 (strip m k).2).length ≤ (withPoint m k).length := by
  obtain ⟨h1, h2⟩ := strip_int m k
  rw [length_withPoint, length_withPoint, h1]
  split_ifs <;> omega

theorem nearest_le' (q : ℚ) (N : ℕ) (h0 : 0 ≤ q) (h : q ≤ N) : nearest q ≤ N := by
  rcases lt_or_eq_of_le h with h | h
  · exact nearest_le q N h0 h
  · subst h
    simp [nearest]

theorem significant_exponent (P : ℕ) (hP : 1 ≤ P) (x : ℚ) (hx : 0 < x) (h : x ≤ 10 ^ P - 1) :
    Int.log 10 x ≤ (significant P x).2 ∧ (significant P x).2 < P := by
  have hl := Int.zpow_log_le_self (b := 10) (by norm_num) hx
  have h1 : Int.log 10 x < P := by
    by_contra hc
    have : (10 : ℚ) ^ P ≤ 10 ^ (Int.log 10 x) := by
      rw [← zpow_natCast]
      exact zpow_le_zpow_right₀ (by norm_num) (by omega)
    push_cast at hl
    linarith
  unfold significant
  simp only
  split
  · next hc =>
    refine ⟨by simp, ?_⟩
    simp only
    by_contra hcc
    have : Int.log 10 x = P - 1 := by omega
    rw [this] at hc
    simp only [sub_self, zpow_zero, mul_one] at hc
    have h10 : 1 ≤ 10 ^ P := Nat.one_le_pow _ _ (by norm_num)
    have := nearest_le' x (10 ^ P - 1) hx.le (by push_cast [h10]; exact h)
    omega
  · exact ⟨le_refl _, h1⟩

theorem positiveG_length (P : ℕ) (hP : 1 ≤ P) (x : ℚ) (hx : 1 / 10 ≤ x) (h : x ≤ 10 ^ P - 1) :
    (positiveG P x).length ≤ P + 2 ∧ (1 ≤ x → (positiveG P x).length ≤ P + 1) := by
  have hx0 : 0 < x := lt_of_lt_of_le (by norm_num) hx
  obtain ⟨h1, h2⟩ := significant_exponent P hP x hx0 h
  obtain ⟨-, hm, -⟩ := significant_spec P hP x hx0
  have hlog : -1 ≤ Int.log 10 x := by
    rw [← Int.zpow_le_iff_le_log (by norm_num) hx0]
    norm_num at hx ⊢
    exact hx
  have hlog' : 1 ≤ x → 0 ≤ Int.log 10 x := by
    intro h'
    rw [← Int.zpow_le_iff_le_log (by norm_num) hx0]
    simpa using h'
  unfold positiveG
  simp only
  rw [if_pos ⟨by omega, h2⟩]
  have hs := length_strip (significant P x).1 ((P : ℤ) - 1 - (significant P x).2).toNat
  rw [length_withPoint (significant P x).1] at hs
  generalize significant P x = d at *
  obtain ⟨m, X⟩ := d
  simp only at *
  have main : 0 ≤ X → (digits (m / 10 ^ ((P : ℤ) - 1 - X).toNat)).length ≤ X.toNat + 1 := by
    intro hX
    rw [length_digits_le _ _ (by omega), Nat.div_lt_iff_lt_mul (by positivity), ← pow_add]
    rwa [show X.toNat + 1 + ((P : ℤ) - 1 - X).toNat = P by omega]
  have main' : X = -1 → (digits (m / 10 ^ ((P : ℤ) - 1 - X).toNat)).length ≤ 1 := by
    intro hX
    rw [length_digits_le _ _ (by omega), show ((P : ℤ) - 1 - X).toNat = P by omega, Nat.div_eq_of_lt hm]
    norm_num
  refine ⟨?_, ?_⟩
  · by_cases hX : 0 ≤ X
    · have := main hX
      split_ifs at hs <;> omega
    · have := main' (by omega)
      split_ifs at hs <;> omega
  · intro hx1
    have hX : 0 ≤ X := le_trans (hlog' hx1) h1
    have := main hX
    split_ifs at hs <;> omega

/-! ## Enough digits -/

theorem hasBits_gap (p : ℕ) {x x' : ℚ} (hx : HasBits p x) (hx' : HasBits p x') (hne : x ≠ x') :
    |x'| ≤ 2 ^ p * |x - x'| := by
  have two : (2 : ℚ) ≠ 0 := by norm_num
  have key : ∀ k k' j : ℤ, (k : ℚ) * 2 ^ j ≠ k' * 2 ^ j → (2 : ℚ) ^ j ≤ |(k : ℚ) * 2 ^ j - k' * 2 ^ j| := by
    intro k k' j hne
    have hkk : k ≠ k' := fun h => hne (by rw [h])
    have h1 : (1 : ℚ) ≤ |(k : ℚ) - k'| := by
      have : (1 : ℤ) ≤ |k - k'| := Int.one_le_abs (by omega)
      exact_mod_cast this
    have h2 : (0 : ℚ) < 2 ^ j := by positivity
    rw [← sub_mul, abs_mul, abs_of_pos h2]
    nlinarith
  obtain ⟨k, j, hk, rfl⟩ := hx
  obtain ⟨k', j', hk', rfl⟩ := hx'
  have hk : |(k : ℚ)| ≤ 2 ^ p - 1 := by
    have : |k| ≤ 2 ^ p - 1 := by omega
    exact_mod_cast this
  have hk' : |(k' : ℚ)| ≤ 2 ^ p := by
    have : |k'| ≤ 2 ^ p := hk'.le
    exact_mod_cast this
  have hp : (1 : ℚ) ≤ 2 ^ p := one_le_pow₀ (by norm_num)
  rcases le_total j' j with hj | hj
  · obtain ⟨i, hi⟩ := Int.le.dest hj
    have e : (k : ℚ) * 2 ^ j = ((k * 2 ^ i : ℤ) : ℚ) * 2 ^ j' := by
      rw [← hi, zpow_add₀ two, zpow_natCast]; push_cast; ring
    rw [e] at hne ⊢
    have h1 := key _ _ _ hne
    have h2 : (0 : ℚ) < 2 ^ j' := by positivity
    rw [abs_mul, abs_of_pos h2]
    calc |(k' : ℚ)| * 2 ^ j' ≤ 2 ^ p * 2 ^ j' := mul_le_mul_of_nonneg_right hk' h2.le
      _ ≤ _ := mul_le_mul_of_nonneg_left h1 (by positivity)
  · obtain ⟨i, hi⟩ := Int.le.dest hj
    have e : (k' : ℚ) * 2 ^ j' = ((k' * 2 ^ i : ℤ) : ℚ) * 2 ^ j := by
      rw [← hi, zpow_add₀ two, zpow_natCast]; push_cast; ring
    have h2 : (0 : ℚ) < 2 ^ j := by positivity
    have h3 : |(k : ℚ) * 2 ^ j| ≤ (2 ^ p - 1) * 2 ^ j := by
      rw [abs_mul, abs_of_pos h2]
      exact mul_le_mul_of_nonneg_right hk h2.le
    have h1 : (2 : ℚ) ^ j ≤ |(k : ℚ) * 2 ^ j - k' * 2 ^ j'| := by
      rw [e] at hne ⊢
      exact key _ _ _ hne
    generalize (k' : ℚ) * 2 ^ j' = y at *
    by_cases hy : |y| ≤ 2 ^ p * 2 ^ j
    · exact hy.trans (mul_le_mul_of_nonneg_left h1 (by positivity))
    · have h4 : |y| - |(k : ℚ) * 2 ^ j| ≤ |(k : ℚ) * 2 ^ j - y| := by
        rw [abs_sub_comm]; exact abs_sub_abs_le_abs_sub _ _
      have h5 : |y| - (2 ^ p - 1) * 2 ^ j ≤ |(k : ℚ) * 2 ^ j - y| := by linarith
      have h6 : 2 ^ p * (|y| - (2 ^ p - 1) * 2 ^ j) ≤ 2 ^ p * |(k : ℚ) * 2 ^ j - y| :=
        mul_le_mul_of_nonneg_left h5 (by positivity)
      have h7 : (2 ^ p - 1) * (2 ^ p * 2 ^ j) ≤ (2 ^ p - 1) * |y| :=
        mul_le_mul_of_nonneg_left (le_of_not_ge hy) (by linarith)
      nlinarith

theorem formatG_injective (p P : ℕ) (hP : 1 ≤ P) (hpP : 2 ^ p < 10 ^ (P - 1)) {x x' : ℚ} (hx : HasBits p x)
    (hx' : HasBits p x') (h : readNumber (formatG P x) = readNumber (formatG P x')) : x = x' := by
  by_contra hne
  obtain ⟨y, h1, -, h2⟩ := formatG_read P x
  obtain ⟨y', h1', -, h2'⟩ := formatG_read P x'
  rw [h1, h1'] at h
  cases h
  rw [max_eq_left hP] at h2 h2'
  have e : (10 : ℚ) ^ (1 - (P : ℤ)) = (10 ^ (P - 1))⁻¹ := by
    rw [show 1 - (P : ℤ) = -((P - 1 : ℕ) : ℤ) by push_cast [hP]; ring, zpow_neg, zpow_natCast]
  rw [e] at h2 h2'
  have g1 := hasBits_gap p hx hx' hne
  have g2 := hasBits_gap p hx' hx (Ne.symm hne)
  rw [abs_sub_comm x' x] at g2
  have h3 : |x - x'| ≤ |y - x| + |y - x'| := by
    have := abs_sub_le x y x'
    rwa [abs_sub_comm x y] at this
  have hpos : 0 < |x - x'| := abs_pos.2 (sub_ne_zero.2 hne)
  have hT : (2 : ℚ) ^ p < 10 ^ (P - 1) := by exact_mod_cast hpP
  have hTpos : (0 : ℚ) < 10 ^ (P - 1) := by positivity
  generalize (10 : ℚ) ^ (P - 1) = T at *
  have h4 : |x - x'| * T ≤ (|x| + |x'|) / 2 := by
    have : |x - x'| ≤ (|x| + |x'|) / 2 * T⁻¹ := by linarith
    calc |x - x'| * T ≤ (|x| + |x'|) / 2 * T⁻¹ * T := mul_le_mul_of_nonneg_right this hTpos.le
      _ = _ := by field_simp
  nlinarith

/-! ## Notation -/

theorem strip_last (m k : ℕ) : (strip m k).2 = 0 ∨ (strip m k).1 % 10 ≠ 0 := by
  induction k generalizing m with
  | zero => exact Or.inl rfl
  | succ k ih =>
    rw [strip]
    split
    · exact ih _
    · next h => exact Or.inr h

theorem digits_split (n : ℕ) (h : 10 ≤ n) : digits n = digits (n / 10) ++ [Nat.digitChar (n % 10)] := by
  have h1 : n = 10 * (n / 10) + n % 10 := by omega
  have h2 := Nat.toDigits_append_toDigits (b := 10) (n := n / 10) (d := n % 10) (by norm_num) (by omega) (by omega)
  rw [← h1, Nat.toDigits_of_lt_base (by omega : n % 10 < 10)] at h2
  exact h2.symm

theorem digits_small (n : ℕ) (h : n < 10) : digits n = [Nat.digitChar n] := Nat.toDigits_of_lt_base h

theorem digits_getLast (n : ℕ) : (digits n).getLast? = some (Nat.digitChar (n % 10)) := by
  by_cases h : n < 10
  · rw [digits_small n h, Nat.mod_eq_of_lt h]; rfl
  · rw [digits_split n (by omega)]; simp

theorem digitChar_ne_zero (d : ℕ) (h : d < 10) (h0 : d ≠ 0) : Nat.digitChar d ≠ '0' := by
  interval_cases d <;> simp_all <;> decide

theorem digits_head (n : ℕ) (h : n ≠ 0) : (digits n).head? ≠ some '0' := by
  induction n using Nat.strong_induction_on with
  | _ n ih =>
    by_cases hn : n < 10
    · rw [digits_small n hn]
      simpa using digitChar_ne_zero n hn h
    · have := ih (n / 10) (by omega) (by omega)
      rw [digits_split n (by omega)]
      have hne := digits_ne_nil (n / 10)
      generalize digits (n / 10) = l at *
      cases l with
      | nil => exact absurd rfl hne
      | cons c t => simpa using this

theorem withPoint_strip_last (m k : ℕ) (h : '.' ∈ withPoint (strip m k).1 (strip m k).2) :
    (withPoint (strip m k).1 (strip m k).2).getLast? ≠ some '0' := by
  have hl := strip_last m k
  generalize strip m k = q at *
  obtain ⟨m, k⟩ := q
  simp only at *
  by_cases hk : k = 0
  · subst hk
    simp only [withPoint, if_true, List.append_nil] at h
    exact absurd h (notMem_of_digits (digits_isDigit _) rfl)
  · have hm : m % 10 ≠ 0 := hl.resolve_left hk
    have e : m % 10 ^ k % 10 = m % 10 := Nat.mod_mod_of_dvd _ (dvd_pow_self 10 hk)
    have hne : digits (m % 10 ^ k) ≠ [] := digits_ne_nil _
    rw [withPoint, if_neg hk, padded, List.getLast?_append, List.getLast?_cons, List.getLast?_append, digits_getLast, e]
    simpa using digitChar_ne_zero (m % 10) (by omega) hm

theorem padded_two (n : ℕ) : 2 ≤ (padded 2 n).length ∧ (2 < (padded 2 n).length → (padded 2 n).head? ≠ some '0') := by
  refine ⟨by simp [padded]; omega, fun h => ?_⟩
  have h2 : 2 < (digits n).length := by simp [padded] at h; omega
  have h0 : n ≠ 0 := by
    rintro rfl
    simp [digits_small] at h2
  rw [padded, show 2 - (digits n).length = 0 by omega]
  simpa using digits_head n h0

theorem valueOf_bounds (P : ℕ) (hP : 1 ≤ P) (d : ℕ × ℤ) (h1 : 10 ^ (P - 1) ≤ d.1) (h2 : d.1 < 10 ^ P) :
    (10 : ℚ) ^ d.2 ≤ valueOf P d ∧ valueOf P d < 10 ^ (d.2 + 1) := by
  have ten : (10 : ℚ) ≠ 0 := by norm_num
  have hU : (0 : ℚ) < 10 ^ (d.2 + 1 - (P : ℤ)) := by positivity
  have e1 : (10 : ℚ) ^ d.2 = 10 ^ (P - 1) * 10 ^ (d.2 + 1 - (P : ℤ)) := by
    rw [← zpow_natCast, ← zpow_add₀ ten]
    congr 1
    push_cast [hP]
    ring
  have e2 : (10 : ℚ) ^ (d.2 + 1) = 10 ^ P * 10 ^ (d.2 + 1 - (P : ℤ)) := by
    rw [← zpow_natCast, ← zpow_add₀ ten]
    congr 1
    ring
  unfold valueOf
  rw [e1, e2]
  exact ⟨mul_le_mul_of_nonneg_right (by exact_mod_cast h1) hU.le, mul_lt_mul_of_pos_right (by exact_mod_cast h2) hU⟩

theorem takeWhile_point (m k : ℕ) : (withPoint m k).takeWhile (· ≠ '.') = digits (m / 10 ^ k) := by
  have hd : ∀ c ∈ digits (m / 10 ^ k), decide (c ≠ '.') = true := by
    intro c hc
    have := notMem_of_digits (digits_isDigit (m / 10 ^ k)) (c := '.') rfl
    simp only [decide_eq_true_eq]
    rintro rfl
    exact this hc
  unfold withPoint
  rw [List.takeWhile_append_of_pos hd]
  split <;> simp

theorem positiveG_notation (P : ℕ) (hP : 1 ≤ P) (x : ℚ) (hx : 0 < x) :
    ∃ mantissa tail, positiveG P x = mantissa ++ tail ∧ 'e' ∉ mantissa ∧ ('.' ∈ mantissa → mantissa.getLast? ≠ some '0') ∧
      if 1 / 10 ^ 4 ≤ valueOf P (significant P x) ∧ valueOf P (significant P x) < 10 ^ P then tail = []
      else (mantissa.takeWhile (· ≠ '.')).length = 1 ∧ mantissa.head? ≠ some '0' ∧
        ∃ sign ds, tail = 'e' :: sign :: ds ∧ 2 ≤ ds.length ∧ (2 < ds.length → ds.head? ≠ some '0') := by
  obtain ⟨h1, h2, -⟩ := significant_spec P hP x hx
  have hb := valueOf_bounds P hP _ h1 h2
  unfold positiveG
  simp only
  generalize significant P x = d at *
  have e4 : (1 : ℚ) / 10 ^ 4 = 10 ^ (-4 : ℤ) := by norm_num
  have hiff : (1 / 10 ^ 4 ≤ valueOf P d ∧ valueOf P d < 10 ^ P) ↔ (-4 ≤ d.2 ∧ d.2 < P) := by
    rw [e4]
    constructor
    · rintro ⟨a, b⟩
      constructor
      · have : (10 : ℚ) ^ (-4 : ℤ) < 10 ^ (d.2 + 1) := lt_of_le_of_lt a hb.2
        have := (zpow_lt_zpow_iff_right₀ (by norm_num : (1 : ℚ) < 10)).1 this
        omega
      · rw [← zpow_natCast] at b
        have : (10 : ℚ) ^ d.2 < 10 ^ (P : ℤ) := lt_of_le_of_lt hb.1 b
        exact (zpow_lt_zpow_iff_right₀ (by norm_num : (1 : ℚ) < 10)).1 this
    · rintro ⟨a, b⟩
      constructor
      · exact le_trans (zpow_le_zpow_right₀ (by norm_num) a) hb.1
      · rw [← zpow_natCast]
        exact lt_of_lt_of_le hb.2 (zpow_le_zpow_right₀ (by norm_num) (by omega))
  by_cases hc : -4 ≤ d.2 ∧ d.2 < P
  · rw [if_pos hc]
    refine ⟨_, [], (List.append_nil _).symm, notMem_withPoint _ _ rfl (by decide), withPoint_strip_last _ _, ?_⟩
    rw [if_pos (hiff.2 hc)]
  · rw [if_neg hc]
    refine ⟨_, _, rfl, notMem_withPoint _ _ rfl (by decide), withPoint_strip_last _ _, ?_⟩
    rw [if_neg (fun h => hc (hiff.1 h))]
    have hi : d.1 / 10 ^ (P - 1) < 10 := by
      rw [Nat.div_lt_iff_lt_mul (by positivity), mul_comm, ← pow_succ, show P - 1 + 1 = P by omega]
      exact h2
    have hi0 : d.1 / 10 ^ (P - 1) ≠ 0 := by
      have := Nat.div_le_div_right (c := 10 ^ (P - 1)) h1
      rw [Nat.div_self (by positivity)] at this
      omega
    refine ⟨?_, ?_, _, _, rfl, padded_two _⟩
    · rw [takeWhile_point, (strip_int _ _).1, digits_small _ hi]
      rfl
    · rw [withPoint, (strip_int _ _).1, digits_small _ hi]
      simpa using digitChar_ne_zero _ hi hi0

end Bezman.Text
