import Verif.Proofs.Text
import Mathlib.Data.Fin.VecNotation

/-! # C106: the text of points

`Point::toString` and the output operators: what the text looks like, and what it tells about the point. Numbers are written as the C++
standard library writes finite numbers, `Verif/Model/Text.lean`; the reader is in `Verif/Spec/Text.lean`. -/

namespace Bezman.Props
open Bezman.Text Bezman.Spec.Text

/-! ## Layout -/

/-- Whatever the scalar type: brackets around the coordinates in order, a comma and a space between them; each coordinate is filled with
spaces on the left up to `precision + 2` characters, and longer ones are not cut. -/
theorem C106_layout {K : Type} {n : ℕ} (tx : ℕ → K → List Char) (p : Point K n) (precision : ℕ) (hn : 0 < n) :
    ∃ fields : List (List Char),
      pointText tx p precision = .ok ("[".toList ++ (", ".toList).intercalate fields ++ "]".toList) ∧
      fields.length = n ∧
      ∀ (i : ℕ) (hi : i < n), ∃ spaces : ℕ, fields[i]? = some (List.replicate spaces ' ' ++ tx precision (p.val ⟨i, hi⟩)) ∧
        spaces + (tx precision (p.val ⟨i, hi⟩)).length = max (precision + 2) (tx precision (p.val ⟨i, hi⟩)).length := by
  refine ⟨(List.ofFn p.val).map fun x => setw (precision + 2) (tx precision x), pointText_eq tx p precision hn, by simp, ?_⟩
  intro i hi
  refine ⟨precision + 2 - (tx precision (p.val ⟨i, hi⟩)).length, by simp [hi, setw], by omega⟩

/-- Printing a point without coordinates reads a coordinate that does not exist. -/
theorem C106_no_coordinates {K : Type} (tx : ℕ → K → List Char) (p : Point K 0) (precision : ℕ) :
    pointText tx p precision = .error .ub := pointText_zero tx p precision

/-- `operator<<` shows six significant digits in fields of eight characters. -/
theorem C106_print {K : Type} {n : ℕ} (tx : ℕ → K → List Char) (p : Point K n) (hn : 0 < n) :
    ∃ fields : List (List Char),
      printPoint tx p = .ok ("[".toList ++ (", ".toList).intercalate fields ++ "]".toList) ∧
      fields.length = n ∧
      ∀ (i : ℕ) (hi : i < n), ∃ spaces : ℕ, fields[i]? = some (List.replicate spaces ' ' ++ tx 6 (p.val ⟨i, hi⟩)) ∧
        spaces + (tx 6 (p.val ⟨i, hi⟩)).length = max 8 (tx 6 (p.val ⟨i, hi⟩)).length := C106_layout tx p 6 hn

/-- The derivatives that coordinates of type `AlgoDiffType` carry are not shown: the text is that of the point of their values. -/
theorem C106_derivatives_hidden {K : Type} {n : ℕ} (tx : ℕ → K → List Char) (p : Point (ADT K) n) (precision : ℕ) :
    pointText (algoText tx) p precision = pointText tx (⟨fun i => (p.val i).v⟩ : Point K n) precision := by
  rcases Nat.eq_zero_or_pos n with h | h
  · subst h; rfl
  · rw [pointText_eq _ _ _ h, pointText_eq _ _ _ h]
    have : (List.ofFn p.val).map (fun x => setw (precision + 2) (algoText tx precision x)) =
        (List.ofFn fun i => (p.val i).v).map (fun x => setw (precision + 2) (tx precision x)) := by
      rw [List.map_ofFn, List.map_ofFn]
      rfl
    rw [this]

/-! ## Numbers -/

/-- The text of a number reads back as a number with `precision` significant decimal digits (one if the precision is 0) that is nearest to
it, off by at most half a unit of the last digit. -/
theorem C106_number (precision : ℕ) (x : ℚ) :
    ∃ y, readNumber (formatG precision x) = some y ∧ NearestDecimal (max precision 1) x y ∧
      |y - x| ≤ |x| * 10 ^ (1 - ((max precision 1 : ℕ) : ℤ)) / 2 := formatG_read precision x

/-- A number with no more digits than the precision is shown exactly. -/
theorem C106_number_exact (precision : ℕ) (x : ℚ) (h : HasDigits (max precision 1) x) :
    readNumber (formatG precision x) = some x := by
  obtain ⟨y, h1, h2, -⟩ := formatG_read precision x
  have := h2.2 x h
  rw [sub_self, abs_zero] at this
  have : y = x := by
    have := abs_nonpos_iff.1 this
    linarith
  rw [h1, this]

/-- The notation of a positive number: plain decimals if the shown value is at least 0.0001 and less than ten to the precision, otherwise
one digit other than zero before the point, and an exponent of at least two digits; no trailing zeros after the point. -/
theorem C106_notation (precision : ℕ) (hP : 1 ≤ precision) (x : ℚ) (hx : 0 < x) :
    ∃ y mantissa tail, readNumber (formatG precision x) = some y ∧ formatG precision x = mantissa ++ tail ∧
      'e' ∉ mantissa ∧ ('.' ∈ mantissa → mantissa.getLast? ≠ some '0') ∧
      if 1 / 10 ^ 4 ≤ y ∧ y < 10 ^ precision then tail = []
      else (mantissa.takeWhile (· ≠ '.')).length = 1 ∧ mantissa.head? ≠ some '0' ∧
        ∃ sign ds, tail = 'e' :: sign :: ds ∧ 2 ≤ ds.length ∧ (2 < ds.length → ds.head? ≠ some '0') := by
  obtain ⟨mantissa, tail, h⟩ := positiveG_notation precision hP x hx
  obtain ⟨c, t, hc, hd⟩ := positiveG_head precision x
  have e : formatG precision x = positiveG precision x := by
    rw [formatG, if_neg hx.ne', if_neg hx.le.not_gt, max_eq_left hP]
  rw [e, readNumber_positive hc hd, positiveG_read precision hP]
  exact ⟨_, mantissa, tail, rfl, h⟩

/-- A negative number is a minus sign and the text of its absolute value. -/
theorem C106_sign (precision : ℕ) (x : ℚ) (hx : x < 0) : formatG precision x = '-' :: formatG precision |x| := by
  rw [abs_of_neg hx, formatG, if_neg hx.ne, if_pos hx, formatG, if_neg (by linarith), if_neg (by linarith)]

/-- Halfway between two numbers with the precision's number of digits, the one with the even last digit is shown. -/
theorem C106_tie (precision : ℕ) (hP : 1 ≤ precision) (k : ℕ) (e : ℤ) (h1 : 10 ^ (precision - 1) ≤ k) (h2 : k < 10 ^ precision) :
    readNumber (formatG precision ((k + 1 / 2) * 10 ^ e)) = some ((if k % 2 = 0 then (k : ℚ) else k + 1) * 10 ^ e) := by
  have hx : (0 : ℚ) < (k + 1 / 2) * 10 ^ e := by positivity
  have hX : Int.log 10 (((k : ℚ) + 1 / 2) * 10 ^ e) = (precision : ℤ) - 1 + e := by
    have b1 : (10 : ℚ) ^ (precision - 1) ≤ k := by exact_mod_cast h1
    have b2 : (k : ℚ) + 1 ≤ 10 ^ precision := by exact_mod_cast h2
    have z : (10 : ℚ) ^ ((precision : ℤ) - 1) = 10 ^ (precision - 1) := by
      rw [← zpow_natCast]; congr 1; omega
    apply le_antisymm
    · rw [← Int.lt_add_one_iff, ← Int.lt_zpow_iff_log_lt (by norm_num) hx]
      rw [show (precision : ℤ) - 1 + e + 1 = precision + e by ring, Nat.cast_ofNat, zpow_add₀ (by norm_num), zpow_natCast]
      exact mul_lt_mul_of_pos_right (by linarith) (by positivity)
    · rw [← Int.zpow_le_iff_le_log (by norm_num) hx, Nat.cast_ofNat, zpow_add₀ (by norm_num), z]
      exact mul_le_mul_of_nonneg_right (by linarith) (by positivity)
  have hm : (((k : ℚ) + 1 / 2) * 10 ^ e) * 10 ^ ((precision : ℤ) - 1 - ((precision : ℤ) - 1 + e)) = k + 1 / 2 := by
    rw [mul_assoc, ← zpow_add₀ (by norm_num)]; simp
  have hn : nearest ((k : ℚ) + 1 / 2) = if k % 2 = 0 then k else k + 1 := by
    have hf : ⌊(k : ℚ) + 1 / 2⌋₊ = k := by
      rw [Nat.floor_eq_iff (by positivity)]
      constructor <;> linarith
    unfold nearest
    simp only [hf, add_sub_cancel_left, lt_irrefl, if_false]
  obtain ⟨c, t, hc, hd⟩ := positiveG_head precision (((k : ℚ) + 1 / 2) * 10 ^ e)
  rw [formatG, if_neg hx.ne', if_neg (not_lt.2 hx.le), max_eq_left hP, readNumber_positive hc hd, positiveG_read _ hP]
  unfold significant
  simp only [hX, hm, hn]
  congr 1
  by_cases hk : (if k % 2 = 0 then k else k + 1) = 10 ^ precision
  · rw [if_pos hk]
    have : ((if k % 2 = 0 then (k : ℚ) else k + 1)) = 10 ^ precision := by exact_mod_cast hk
    rw [this]
    unfold valueOf
    push_cast
    rw [← zpow_natCast, ← zpow_natCast, ← zpow_add₀ (by norm_num), ← zpow_add₀ (by norm_num)]
    congr 1
    push_cast [Nat.cast_sub hP]
    ring
  · rw [if_neg hk]
    unfold valueOf
    push_cast
    congr 2
    ring

/-- The position in a message about a split, six decimals: at most half a millionth away. -/
theorem C106_position (x : ℚ) :
    ∃ y, readNumber (formatF x) = some y ∧ |y - x| ≤ 1 / (2 * 10 ^ 6) ∧ ∀ z : ℤ, |y - x| ≤ |z / 10 ^ 6 - x| := formatF_read x

/-- So the position of a refused split can look like that of an accepted one. -/
theorem C106_position_ambiguous : ∃ x : ℚ, 1 < x ∧ formatF x = formatF 1 := ⟨1 + 1 / 10 ^ 7, by norm_num, by decide +kernel⟩

/-! ## Points -/

/-- The text of every point with at least one coordinate reads back as its coordinates rounded to the precision. -/
theorem C106_reads_back {n : ℕ} (p : Point ℚ n) (precision : ℕ) (hn : 0 < n) :
    ∃ t ys, pointText formatG p precision = .ok t ∧ readPoint t = some ys ∧ ys.length = n ∧
      ∀ (i : ℕ) (hi : i < n), ∃ y, ys[i]? = some y ∧ NearestDecimal (max precision 1) (p.val ⟨i, hi⟩) y ∧
        |y - p.val ⟨i, hi⟩| ≤ |p.val ⟨i, hi⟩| * 10 ^ (1 - ((max precision 1 : ℕ) : ℤ)) / 2 := by
  obtain ⟨ys, h1, h2⟩ := readPoint_pointText (List.ofFn p.val) (by simp; omega) precision
  have hlen : ys.length = n := by rw [← h2.length_eq]; simp
  refine ⟨_, ys, pointText_eq _ p precision hn, h1, hlen, ?_⟩
  intro i hi
  have h3 := List.Forall₂.get h2 (by simpa using hi) (by omega : i < ys.length)
  simp only [List.get_eq_getElem, List.getElem_ofFn] at h3
  exact ⟨ys[i], List.getElem?_eq_getElem _, h3.2⟩

/-- Points with floating-point coordinates of `p` binary digits are told apart by their texts if the precision is large enough:
nine digits for `float` and seventeen for `double`. -/
theorem C106_distinguishes {n : ℕ} (bits precision : ℕ) (hP : 1 ≤ precision) (hb : 2 ^ bits < 10 ^ (precision - 1))
    (p q : Point ℚ n) (hp : ∀ i, HasBits bits (p.val i)) (hq : ∀ i, HasBits bits (q.val i)) (hn : 0 < n)
    (h : pointText formatG p precision = pointText formatG q precision) : p = q := by
  rw [pointText_eq _ _ _ hn, pointText_eq _ _ _ hn] at h
  obtain ⟨ys, h1, h2⟩ := readPoint_pointText (List.ofFn p.val) (by simp; omega) precision
  obtain ⟨zs, h3, h4⟩ := readPoint_pointText (List.ofFn q.val) (by simp; omega) precision
  rw [Except.ok.inj h, h3] at h1
  cases h1
  have hlen : ys.length = n := by rw [← h2.length_eq]; simp
  ext i
  have e1 := List.Forall₂.get h2 (i := i) (by simp) (by omega)
  have e2 := List.Forall₂.get h4 (i := i) (by simp) (by omega)
  simp only [List.get_eq_getElem, List.getElem_ofFn] at e1 e2
  exact formatG_injective bits precision hP hb (hp i) (hq i) (e1.1.trans e2.1.symm)

/-- What `os << p` prints does not tell them apart, not even points with `float` coordinates: it has six digits, whatever the precision of
the stream. -/
theorem C106_default_ambiguous :
    ∃ p q : Point ℚ 2, (∀ i, HasBits 24 (p.val i)) ∧ (∀ i, HasBits 24 (q.val i)) ∧ p ≠ q ∧
      printPoint formatG p = printPoint formatG q := by
  refine ⟨⟨fun _ => 1⟩, ⟨fun i => if i = 0 then 1 else 1 + 1 / 2 ^ 23⟩, fun _ => ⟨1, 0, by norm_num, by norm_num⟩, ?_, ?_, ?_⟩
  · intro i
    by_cases h : i = 0
    · exact ⟨1, 0, by norm_num, by norm_num [h]⟩
    · exact ⟨2 ^ 23 + 1, -23, by norm_num, by norm_num [h]⟩
  · intro h
    have := congrFun (congrArg Point.val h) 1
    norm_num at this
  · decide +kernel

/-- Columns line up, and all texts have the same length, as long as every coordinate is zero, or at least a tenth, or at most -1, and not
too large for the precision. -/
theorem C106_columns {n : ℕ} (p : Point ℚ n) (precision : ℕ) (hP : 1 ≤ precision) (hn : 0 < n)
    (h : ∀ i, p.val i = 0 ∨ (1 / 10 ≤ p.val i ∧ p.val i ≤ 10 ^ precision - 1) ∨
      (-(10 ^ precision - 1) ≤ p.val i ∧ p.val i ≤ -1)) :
    ∃ fields : List (List Char),
      pointText formatG p precision = .ok ("[".toList ++ (", ".toList).intercalate fields ++ "]".toList) ∧
      fields.length = n ∧ ∀ f ∈ fields, f.length = precision + 2 := by
  refine ⟨(List.ofFn p.val).map fun x => setw (precision + 2) (formatG precision x), pointText_eq _ p precision hn, by simp, ?_⟩
  intro f hf
  obtain ⟨x, hx, rfl⟩ := List.mem_map.1 hf
  obtain ⟨i, rfl⟩ := (List.mem_ofFn' _ _).1 hx
  have : (formatG precision (p.val i)).length ≤ precision + 2 := by
    have hi := h i
    generalize p.val i = x at hi
    unfold formatG
    rw [max_eq_left hP]
    split
    · simp
    · next h0 =>
      rcases hi with hi | ⟨h1, h2⟩ | ⟨h1, h2⟩
      · exact absurd hi h0
      · rw [if_neg (by linarith)]
        exact (positiveG_length precision hP x h1 h2).1
      · rw [if_pos (by linarith), List.length_cons]
        have := (positiveG_length precision hP (-x) (by linarith) (by linarith)).2 (by linarith)
        omega
  simp [setw]
  omega

/-- Otherwise they need not: -/
theorem C106_columns_differ :
    ∃ p q : Point ℚ 1, ∃ t u, pointText formatG p 6 = .ok t ∧ pointText formatG q 6 = .ok u ∧ t.length ≠ u.length :=
  ⟨⟨fun _ => 1 / 7⟩, ⟨fun _ => -1 / 7⟩, "[0.142857]".toList, "[-0.142857]".toList, by decide +kernel, by decide +kernel, by decide⟩

/-! ## Concrete cases -/

/-- 2.5 and 3.5 with one digit -/
example : readNumber (formatG 1 ((2 + 1 / 2) * 10 ^ (0 : ℤ))) = some 2 ∧ readNumber (formatG 1 ((3 + 1 / 2) * 10 ^ (0 : ℤ))) = some 4 := by
  have h2 := C106_tie 1 le_rfl 2 0 (by norm_num) (by norm_num)
  have h3 := C106_tie 1 le_rfl 3 0 (by norm_num) (by norm_num)
  norm_num at h2 h3 ⊢
  exact ⟨h2, h3⟩

example : pointText formatG (⟨![1, 5 / 2, -1 / 3]⟩ : Point ℚ 3) 6 = .ok "[       1,      2.5, -0.333333]".toList := by decide +kernel
example : pointText formatG (⟨![1234567, 1 / 100000]⟩ : Point ℚ 2) 6 = .ok "[1.23457e+06,    1e-05]".toList := by decide +kernel
example : readPoint "[       1,      2.5, -0.333333]".toList = some [1, 5 / 2, -333333 / 1000000] := by decide +kernel
example : formatG 6 (9999995 / 10) = "1e+06".toList := by decide +kernel
example : formatG 6 (1 / 10000) = "0.0001".toList ∧ formatG 6 (123456 / 10 ^ 106) = "1.23456e-101".toList := by decide +kernel
example : formatG 0 (1 / 4) = "0.2".toList := by decide +kernel
example : formatF (1 / 3) = "0.333333".toList := by decide +kernel
example : (2 : ℕ) ^ 24 < 10 ^ (9 - 1) ∧ (2 : ℕ) ^ 53 < 10 ^ (17 - 1) := by norm_num
example : HasBits 53 (1 / 2) ∧ HasBits 53 (3 / 4) := ⟨⟨1, -1, by norm_num, by norm_num⟩, ⟨3, -2, by norm_num, by norm_num⟩⟩
example : HasDigits 6 (123456 / 1000) := ⟨123456, -3, by norm_num, by norm_num⟩
example : ∀ i, (⟨![1 / 2, -7]⟩ : Point ℚ 2).val i = 0 ∨ (1 / 10 ≤ (⟨![1 / 2, -7]⟩ : Point ℚ 2).val i ∧
    (⟨![1 / 2, -7]⟩ : Point ℚ 2).val i ≤ 10 ^ 6 - 1) ∨
    (-(10 ^ 6 - 1) ≤ (⟨![1 / 2, -7]⟩ : Point ℚ 2).val i ∧ (⟨![1 / 2, -7]⟩ : Point ℚ 2).val i ≤ -1) := by decide +kernel

end Bezman.Props
