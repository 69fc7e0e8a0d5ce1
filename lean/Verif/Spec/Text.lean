import Mathlib.Data.Rat.Floor
import Mathlib.Algebra.Order.Field.Rat

/-! # Reading the text of numbers and points

An independent reader: what a text denotes, without reference to how it was written. -/

namespace Bezman.Spec.Text

/-- a non-empty sequence of decimal digits -/
def numeral (l : List Char) : Bool := !l.isEmpty && l.all Char.isDigit

/-- the value of a sequence of decimal digits, the most significant one first -/
def number (l : List Char) : ℕ := l.foldl (fun a c => 10 * a + (c.toNat - 48)) 0

/-- digits, or digits, a point, digits -/
def readDecimal (l : List Char) : Option ℚ :=
  match l.splitOn '.' with
  | [a] => if numeral a then some (number a) else none
  | [a, b] => if numeral a && numeral b then some (number a + number b / 10 ^ b.length) else none
  | _ => none

/-- a sign and digits -/
def readExponent : List Char → Option ℤ
  | '+' :: l => if numeral l then some (number l) else none
  | '-' :: l => if numeral l then some (-number l) else none
  | _ => none

/-- a decimal, or a decimal, `e`, an exponent -/
def readUnsigned (l : List Char) : Option ℚ :=
  match l.splitOn 'e' with
  | [a] => readDecimal a
  | [a, b] => do
    let x ← readDecimal a
    let e ← readExponent b
    some (x * 10 ^ e)
  | _ => none

def readNumber : List Char → Option ℚ
  | '-' :: l => (readUnsigned l).map (fun x => -x)
  | l => readUnsigned l

/-- numbers in brackets, separated by commas, each after any number of spaces -/
def readPoint : List Char → Option (List ℚ)
  | '[' :: l =>
    if l.getLast? = some ']' then (l.dropLast.splitOn ',').mapM (fun f => readNumber (f.dropWhile (· = ' '))) else none
  | _ => none

/-- a number that can be written with `P` significant decimal digits -/
def HasDigits (P : ℕ) (x : ℚ) : Prop := ∃ k j : ℤ, |k| < 10 ^ P ∧ x = k * 10 ^ j

/-- `y` is a number with `P` significant decimal digits, and no such number is nearer to `x` -/
def NearestDecimal (P : ℕ) (x y : ℚ) : Prop := HasDigits P y ∧ ∀ z, HasDigits P z → |y - x| ≤ |z - x|

/-- a number with `p` significant binary digits, as floating-point numbers are -/
def HasBits (p : ℕ) (x : ℚ) : Prop := ∃ k j : ℤ, |k| < 2 ^ p ∧ x = k * 2 ^ j

end Bezman.Spec.Text
