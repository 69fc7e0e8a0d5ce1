import Verif.Spec.ProductFormula

/-! # Specification: control points of a derivative, operation by operation

Forward differences of the control points times the falling factorial of the degree, as a sequence of operations without any laws. -/

namespace Bezman.Spec
variable {K V : Type} [One K] [Neg K] [Mul K] [NatCast K] [Add V] [SMul K V]

/-- `1` for even and `-1` for odd `j` -/
def signOf (K : Type) [One K] [Neg K] (j : ℕ) : K := if j % 2 = 0 then 1 else -1

/-- The falling factorial `p (p - 1) … (p - o + 1)`, multiplied up in the arithmetic. -/
def fallingOf (K : Type) [Mul K] [NatCast K] (p o : ℕ) : K := repeatFrom 1 (fun i (f : K) => f * ((p - i : ℕ) : K)) ((p : ℕ) : K) (o - 1)

/-- The alternating sum `C(o,0) P(m) - C(o,1) P(m+1) + C(o,2) P(m+2) - …`, added up from the left. -/
def differenceOf (K : Type) [One K] [Neg K] [Mul K] [NatCast K] [SMul K V] (o : ℕ) (P : ℕ → V) (m : ℕ) : V :=
  repeatFrom 1 (fun j (x : V) => x + (signOf K j * ((o.choose j : ℕ) : K)) • P (m + j)) (P m) o

/-- Control points of the derivative of order `o` of a polynomial of degree `p` in one direction. -/
def derivOf (K : Type) [One K] [Neg K] [Mul K] [NatCast K] [SMul K V] (p o : ℕ) (P : ℕ → V) (m : ℕ) : V :=
  (signOf K o * fallingOf K p o) • differenceOf K o P m

/-- The control points after the first `k` directions have been differentiated: degrees `ps`, orders `os`. -/
def derivNet (K : Type) [One K] [Neg K] [Mul K] [NatCast K] [SMul K V] (ps os : List ℕ) (P : List ℕ → V) : ℕ → List ℕ → V
  | 0, idx => P idx
  | k + 1, idx =>
    if os.getD k 0 = 0 then derivNet K ps os P k idx
    else derivOf K (ps.getD k 0) (os.getD k 0) (fun m => derivNet K ps os P k (idx.set k m)) (idx.getD k 0)

/-- Control points of a polynomial of degree `p` written with degree `p + 1`. -/
def elevationOf (K : Type) [Sub K] [One K] [Mul K] [Div K] [NatCast K] [SMul K V] (p : ℕ) (P : ℕ → V) (i : ℕ) : V :=
  if i = 0 then P 0
  else if i = p + 1 then P p
  else (1 - (i : K) * (1 / ((p + 1 : ℕ) : K))) • P i + ((i : K) * (1 / ((p + 1 : ℕ) : K))) • P (i - 1)

end Bezman.Spec
