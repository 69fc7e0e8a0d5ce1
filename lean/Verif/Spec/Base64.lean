/-! # Specification: the base64 encoding of RFC 4648, section 4

Characters are given by their ASCII codes. -/

namespace Bezman.Spec

/-- The base64 alphabet: `A`-`Z`, `a`-`z`, `0`-`9`, `+`, `/` stand for 0 to 63. -/
def base64Char (v : Nat) : Nat :=
  if v < 26 then 'A'.toNat + v
  else if v < 52 then 'a'.toNat + (v - 26)
  else if v < 62 then '0'.toNat + (v - 52)
  else if v = 62 then '+'.toNat
  else '/'.toNat

/-- RFC 4648, section 4: every three bytes are a 24 bit number, written as four digits to
the base 64, most significant first. One or two bytes at the end are extended by zero bits
to a multiple of six and completed with `=`. -/
def rfc4648 : List Nat → List Nat
  | a :: b :: c :: rest =>
    let n := a * 2 ^ 16 + b * 2 ^ 8 + c
    base64Char (n / 2 ^ 18) :: base64Char (n / 2 ^ 12 % 64) :: base64Char (n / 2 ^ 6 % 64) :: base64Char (n % 64)
      :: rfc4648 rest
  | [a, b] =>
    let n := (a * 2 ^ 8 + b) * 2 ^ 2
    [base64Char (n / 2 ^ 12), base64Char (n / 2 ^ 6 % 64), base64Char (n % 64), '='.toNat]
  | [a] =>
    let n := a * 2 ^ 4
    [base64Char (n / 2 ^ 6), base64Char (n % 64), '='.toNat, '='.toNat]
  | [] => []

/-- A vector of entries of `L` bytes. -/
def Entries (L : Nat) (v : List (List Nat)) : Prop := ∀ e ∈ v, e.length = L ∧ ∀ x ∈ e, x < 256

/-- The characters of `s` can be decoded into `size` bytes: every character except `=` is a
seven bit code, and the byte completed by it (the second, third and fourth character of
every four complete the first, second and third byte of every three) is one of the `size`
bytes. -/
def Decodable (size : Nat) (s : List Nat) : Prop :=
  ∀ i c, s[i]? = some c → c ≠ '='.toNat → c < 128 ∧ (i % 4 ≠ 0 → i / 4 * 3 + (i % 4 - 1) < size)

end Bezman.Spec
