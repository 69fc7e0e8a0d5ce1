import Verif.Model.Point
import Verif.Model.AlgoDiff
import Mathlib.Data.Int.Log
import Mathlib.Data.Rat.Floor

/-! # The text of points

`Point::toString` and the output operators. Texts are lists of characters. The conversion of numbers to text belongs to the C++ standard
library; it is modelled for finite numbers that are not negative zero, as conversions of the exact value with correct rounding. -/

namespace Bezman.Text

/-! ## Numbers, as the C++ standard library writes them

Not code of the repository: what `operator<<(double)` does for src/point.hpp:183-188, and `std::to_string` for
src/bezier_spline.inc. -/

/-- nearest integer, halves to even (standard library, for src/point.hpp:184) -/
def nearest (q : ℚ) : ℕ :=
  let n := ⌊q⌋₊
  if q - n < 1 / 2 then n else if 1 / 2 < q - n then n + 1 else if n % 2 = 0 then n else n + 1

/-- the `P` significant decimal digits of a positive number as an integer, and the exponent of the first one
(standard library, for src/point.hpp:184) -/
def significant (P : ℕ) (x : ℚ) : ℕ × ℤ :=
  let X := Int.log 10 x
  let m := nearest (x * 10 ^ ((P : ℤ) - 1 - X))
  if m = 10 ^ P then (10 ^ (P - 1), X + 1) else (m, X)

/-- decimal digits (standard library, for src/point.hpp:184) -/
def digits (n : ℕ) : List Char := Nat.toDigits 10 n

/-- at least `k` digits (standard library, for src/point.hpp:184) -/
def padded (k n : ℕ) : List Char := List.replicate (k - (digits n).length) '0' ++ digits n

/-- the number `m / 10 ^ k` with `k` decimals (standard library, for src/point.hpp:184) -/
def withPoint (m k : ℕ) : List Char := digits (m / 10 ^ k) ++ if k = 0 then [] else '.' :: padded k (m % 10 ^ k)

/-- trailing zeros among the decimals are dropped (standard library, for src/point.hpp:184) -/
def strip : ℕ → ℕ → ℕ × ℕ
  | m, 0 => (m, 0)
  | m, k + 1 => if m % 10 = 0 then strip (m / 10) k else (m, k + 1)

/-- a positive number with `P` significant digits: `%g` of C (standard library, for src/point.hpp:184) -/
def positiveG (P : ℕ) (x : ℚ) : List Char :=
  let d := significant P x
  if -4 ≤ d.2 ∧ d.2 < P then
    let q := strip d.1 ((P : ℤ) - 1 - d.2).toNat
    withPoint q.1 q.2
  else
    let q := strip d.1 (P - 1)
    withPoint q.1 q.2 ++ 'e' :: (if d.2 < 0 then '-' else '+') :: padded 2 d.2.natAbs

/-- `out << std::setprecision(precision) << x` in the default format; precision 0 counts as 1 (standard library, for
src/point.hpp:184 and 187) -/
def formatG (precision : ℕ) (x : ℚ) : List Char :=
  if x = 0 then ['0'] else if x < 0 then '-' :: positiveG (max precision 1) (-x) else positiveG (max precision 1) x

/-- `std::to_string(x)`: six decimals -/
def formatF (x : ℚ) : List Char :=
  if x < 0 then '-' :: withPoint (nearest (-x * 10 ^ 6)) 6 else withPoint (nearest (x * 10 ^ 6)) 6

/-- `std::setw(w)` before a text -/
def setw (w : ℕ) (t : List Char) : List Char := List.replicate (w - t.length) ' ' ++ t

/-! ## Points -/

variable {K : Type} {n : ℕ}

/-- `Point::toString`, src/point.hpp:181-192; `tx precision x` is what a stream with this precision makes of the number `x`. Negative
precisions are not modelled. -/
def pointText (tx : ℕ → K → List Char) (p : Point K n) (precision : ℕ) : M (List Char) := do
  let cs := List.ofFn p.val
  let x ← rd cs 0
  let out := '[' :: setw (precision + 2) (tx precision x)
  let out ← loopFrom 1 n (fun i out => do
    let x ← rd cs i
    pure (out ++ ',' :: ' ' :: setw (precision + 2) (tx precision x))) out
  pure (out ++ [']'])

/-- `operator<<(std::ostream&, Point)`, src/point.hpp:175-178, for a stream without field width: the default precision, src/point.hpp:181 -/
def printPoint (tx : ℕ → K → List Char) (p : Point K n) : M (List Char) := pointText tx p 6

/-- `operator<<(std::ostream&, AlgoDiffType)`, src/utils/computational_differentiation/algo_diff_type.inc:200-205 -/
def algoText (tx : ℕ → K → List Char) (precision : ℕ) (a : ADT K) : List Char := tx precision a.v

end Bezman.Text
