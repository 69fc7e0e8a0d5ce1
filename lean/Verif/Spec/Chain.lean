import Verif.Spec.Coords
import Mathlib.Algebra.BigOperators.Group.Finset.Basic
import Mathlib.Data.Fintype.Basic

/-! # Specification: the chain rule for compositions -/

namespace Bezman
open Finset

/-- the orders `(0, …, 0, 1, 0, …, 0)` of the first derivative in direction `d` of `n` -/
def Spec.firstOrder (n d : ℕ) : List ℕ := (List.replicate n 0).set d 1

/-- The chain rule at one parameter.  `innerValue` is the value of the inner function, a point whose coordinates are parameters of the
outer function; `outerD t k`, `innerD k` and `resultD k` are the results of `EvaluateDerivative` for the orders `k` of the outer function
at `t`, of the inner function and of the composition.  All these calls succeed, and the derivative of the composition in each of its `m`
directions is the sum over the coordinates of the derivative of the coordinate times the derivative of the outer function. -/
def Spec.ChainRule (K : Type) {V W : Type} [Coords K W] [AddCommMonoid V] [SMul K V] (m : ℕ) (outerD : List K → List ℕ → M V) (innerValue : M W)
    (innerD : List ℕ → M W) (resultD : List ℕ → M V) : Prop :=
  ∃ y : W, innerValue = .ok y ∧ ∃ D : Fin (Coords.n K W) → V,
    (∀ j : Fin (Coords.n K W), outerD (coordList K y) (firstOrder (Coords.n K W) j) = .ok (D j)) ∧
    ∀ e < m, ∃ u : W, innerD (firstOrder m e) = .ok u ∧
      resultD (firstOrder m e) = .ok (∑ j : Fin (Coords.n K W), (Coords.coord u j : K) • D j)

end Bezman
