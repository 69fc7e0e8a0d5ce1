import Verif.Spec.Spline

/-! # Specification: de Casteljau's algorithm

The textbook algorithm as a formula, for operations without any laws. -/

namespace Bezman.Spec
variable {K V : Type} [One K] [Sub K] [Add V] [SMul K V]

/-- Entry `j` after `r` rounds of interpolation of the points `P 0, P 1, …` with the ratio `t`. -/
def triangle (t : K) (P : ℕ → V) : ℕ → ℕ → V
  | 0, j => P j
  | r + 1, j => (1 - t) • triangle t P r j + t • triangle t P r (j + 1)

/-- De Casteljau's algorithm for a tensor product: the first dimension is collapsed first. -/
def casteljau : List ℕ → List K → (List ℕ → V) → V
  | p :: ps, t :: ts, P => casteljau ps ts (fun idx => triangle t (fun i => P (i :: idx)) p 0)
  | _, _, P => P []

/-- `S` is a set of values, closed under interpolation, on which interpolation with the ratios 0 and 1 returns
the end points without error.  In floating-point arithmetic: the finite numbers (if nothing overflows). -/
structure ExactEnds (K : Type) [Zero K] [One K] [Sub K] [SMul K V] (S : V → Prop) : Prop where
  closed : ∀ (t : K) (a b : V), S a → S b → S ((1 - t) • a + t • b)
  at_zero : ∀ a b : V, S a → S b → ((1 : K) - 0) • a + (0 : K) • b = a
  at_one : ∀ a b : V, S a → S b → ((1 : K) - 1) • a + (1 : K) • b = b

end Bezman.Spec
