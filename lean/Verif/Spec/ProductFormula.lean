import Verif.Spec.Bezier

/-! # Specification: control points of a product, operation by operation

The textbook formula for control points of products as a sequence of operations, for operations without any laws. -/

namespace Bezman.Spec
variable {K V W U : Type}

/-- `f (a + n - 1) (… (f (a + 1) (f a x)))` -/
def repeatFrom (a : ℕ) (f : ℕ → U → U) (x : U) : ℕ → U
  | 0 => x
  | n + 1 => f (a + n) (repeatFrom a f x n)

/-- The coefficient `C(m,i) C(n,k-i) / C(m+n,k)`, the quotient taken in the arithmetic. -/
def productCoef (K : Type) [Div K] [NatCast K] (m n k i : ℕ) : K :=
  ((m.choose i * n.choose (k - i) : ℕ) : K) / (((m + n).choose k : ℕ) : K)

variable [Mul K] [Div K] [NatCast K] [Add U] [SMul K U]

/-- Adds the contributions of all pairs of control points to `x`, one after the other: degrees `m`, `n` of the factors, index `k` of
the control point of the product.  The coefficients of all but the last direction are multiplied up in `c`. -/
def productNet (mul : V → W → U) : List ℕ → List ℕ → List ℕ → K → (List ℕ → V) → (List ℕ → W) → U → U
  | [m], [n], [k], c, P, Q, x =>
    repeatFrom (k - n) (fun i x => x + productCoef K m n k i • (c • mul (P [i]) (Q [k - i]))) x (min k m + 1 - (k - n))
  | m :: m' :: ms, n :: ns, k :: ks, c, P, Q, x =>
    repeatFrom (k - n) (fun i x => productNet mul (m' :: ms) ns ks (c * productCoef K m n k i) (fun is => P (i :: is))
      (fun js => Q ((k - i) :: js)) x) x (min k m + 1 - (k - n))
  | _, _, _, _, _, _, x => x

end Bezman.Spec
