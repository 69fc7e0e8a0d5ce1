import Verif.Spec.Rounded
import Verif.Model.Basic

/-! # Specification: cutting again and again -/

namespace Bezman.Spec

/-- Cut `s` at the first position, keep the first part, and go on in the same way with the second part. -/
def cutChain {σ K : Type} (split : σ → K → M (σ × σ)) (s : σ) : List K → M (List σ)
  | [] => .ok [s]
  | r :: rs => do
    let ab ← split s r
    let l ← cutChain split ab.2 rs
    pure (ab.1 :: l)

/-- The positions of `zs` in what is left over after the cut before; `rel zp z` is the position of `z` in what is left over after
a cut at `zp`. -/
def relativesFrom {K : Type} (rel : K → K → K) (zp : K) : List K → List K
  | [] => []
  | z :: zs => rel zp z :: relativesFrom rel z zs

/-- The same, when nothing is cut yet. -/
def relatives {K : Type} (rel : K → K → K) : List K → List K
  | [] => []
  | z :: zs => z :: relativesFrom rel z zs

/-- Where the cuts at the relative positions `rs` are in the parameter of the whole, when what is left over begins at `c`. -/
def cutsFrom {K : Type} [One K] [Add K] [Sub K] [Mul K] (c : K) : List K → List K
  | [] => []
  | r :: rs => (c + (1 - c) * r) :: cutsFrom (c + (1 - c) * r) rs

/-- `rnd` rounds to nearest and, if two floating-point numbers are equally near, to the one whose last digit is zero (which is thus a number
with one digit less). This is the default of IEEE 754. -/
structure TiesToEven (p : ℕ) (q : ℤ) (rnd : ℝ → ℝ) : Prop extends Nearest p q rnd where
  even : ∀ x y, IsFloat p q y → y ≠ rnd x → |y - x| = |rnd x - x| → IsFloat (p - 1) (q + 1) (rnd x)

variable {rnd : ℝ → ℝ}

/-- positions that are floating-point numbers, strictly between 0 and 1, and strictly increasing -/
def Positions (p : ℕ) (q : ℤ) (planes : List (Rd rnd)) : Prop :=
  (∀ z ∈ planes, IsFloat p q z.val ∧ 0 < z.val ∧ z.val < 1) ∧ planes.Pairwise (fun a b => a.val < b.val)

/-- two consecutive positions such that the differences of the second one and of 1 from the first one do not round to the same number -/
def Separated (planes : List (Rd rnd)) : Prop :=
  ∀ (i : ℕ) (a b : Rd rnd), planes[i]? = some a → planes[i + 1]? = some b → rnd (b.val - a.val) < rnd (1 - a.val)

end Bezman.Spec
