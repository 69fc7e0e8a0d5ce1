import Verif.Spec.Converge

/-! # Specification: how far control points are from the points they stand for -/

namespace Bezman.Spec
variable {K V : Type} [Field K] [LinearOrder K] [AddCommGroup V] [Module K V]

/-- Three control points of `s` that follow each other in direction `d` deviate from a straight line with equal steps by at most
`M / (p (p - 1))`, where `p` is the degree in direction `d`: the length of their second difference.  (`M` bounds the control points of the
second derivative.) -/
def BendBound (N : V → K) (s : Spline V) (d : ℕ) (M : K) : Prop :=
  ∀ (idx : List ℕ) (p j : ℕ) (x y z : V), s.degrees[d]? = some p → j + 2 ≤ p → ValidIdx s.degrees (idx.set d j) →
    s.controlPoint (idx.set d j) = .ok x → s.controlPoint (idx.set d (j + 1)) = .ok y → s.controlPoint (idx.set d (j + 2)) = .ok z →
    p * (p - 1) * N ((z - y) - (y - x)) ≤ M

/-- The parameter of a control point: its index divided by the degree, in each direction. -/
def parameterOf (K : Type) [Field K] (degrees idx : List ℕ) : List K := List.zipWith (fun p i : ℕ => (i : K) / (p : K)) degrees idx

/-- The share of a direction of degree `p` in the distance, for the bound `M` and a part of length `w`: nothing for straight lines. -/
def bendShare (M w : K) (p : ℕ) : K := if p ≤ 1 then 0 else M * w ^ 2 / (8 * ((p : K) - 1))

end Bezman.Spec
