import Mathlib.Algebra.BigOperators.Group.Finset.Basic
import Mathlib.Algebra.Module.Defs
import Mathlib.Data.Nat.Choose.Basic
import Mathlib.Algebra.Ring.Defs

/-!
# Specification of Bezier functions

Textbook definitions, independent of the model of the code.
-/

namespace Bezman.Spec
open Finset

/-- Bernstein polynomial `B_{i,p}(t) = C(p,i) t^i (1-t)^(p-i)`. -/
def bern {K : Type} [CommRing K] (p i : ℕ) (t : K) : K :=
  (p.choose i : K) * t ^ i * (1 - t) ^ (p - i)

/-- Value at `t = (t_1, …, t_d)` of the tensor-product Bezier function with degrees
`p = (p_1, …, p_d)` and control net `P`, a function of the multi-index:
`∑_{i_1 ≤ p_1} B_{i_1,p_1}(t_1) • ⋯ ∑_{i_d ≤ p_d} B_{i_d,p_d}(t_d) • P (i_1, …, i_d)`. -/
def bezier {K V : Type} [CommRing K] [AddCommMonoid V] [Module K V] :
    List ℕ → List K → (List ℕ → V) → V
  | [], _, P => P []
  | p :: ps, t :: ts, P => ∑ i ∈ range (p + 1), bern p i t • bezier ps ts (fun idx => P (i :: idx))
  | _ :: _, [], _ => 0

/-- Tensor-product Bernstein polynomial of a multi-index: `∏_d B_{i_d,p_d}(t_d)`. -/
def bernProd {K : Type} [CommRing K] : List ℕ → List ℕ → List K → K
  | p :: ps, i :: is, t :: ts => bern p i t * bernProd ps is ts
  | _, _, _ => 1

/-- Number of control points: `∏ (p_d + 1)`. -/
def size (p : List ℕ) : ℕ := (p.map (· + 1)).prod

/-- Position of a multi-index in the flat control point list; the first parametric
dimension runs fastest: `i_1 + (p_1+1) (i_2 + (p_2+1) (i_3 + …))`. -/
def flatIndex : List ℕ → List ℕ → ℕ
  | p :: ps, i :: is => i + (p + 1) * flatIndex ps is
  | _, _ => 0

/-- A multi-index is valid for degrees `p` if it has as many entries and
`i_d ≤ p_d` for each of them. -/
def ValidIdx (p idx : List ℕ) : Prop := List.Forall₂ (fun i p => i ≤ p) idx p

end Bezman.Spec
