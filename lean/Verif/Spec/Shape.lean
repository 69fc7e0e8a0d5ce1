import Verif.Spec.Bezier
import Verif.Model.Spline
import Mathlib.Analysis.Convex.Basic

/-! # Specification: directions of the steps between neighbouring control points -/

namespace Bezman.Spec
variable {V : Type} [AddCommGroup V]

/-- The steps between control points of `s` that are neighbours in direction `d`, times the degree in this direction, lie in `C`. -/
def StepsIn (C : Set V) (s : Spline V) (d : ℕ) : Prop :=
  ∀ (idx : List ℕ) (p : ℕ) (x y : V), s.degrees[d]? = some p → ValidIdx s.degrees (idx.modify d (· + 1)) →
    s.controlPoint idx = .ok x → s.controlPoint (idx.modify d (· + 1)) = .ok y → p • (y - x) ∈ C

/-- `C` is a convex cone: closed under sums and under scaling with positive numbers. -/
structure IsCone (K : Type) [Field K] [LinearOrder K] [Module K V] (C : Set V) : Prop where
  add : ∀ x ∈ C, ∀ y ∈ C, x + y ∈ C
  smul : ∀ (c : K), 0 < c → ∀ x ∈ C, c • x ∈ C

/-- The control points do not decrease in direction `d`. -/
def Nondecreasing {K : Type} [LE K] (s : Spline K) (d : ℕ) : Prop :=
  ∀ (idx : List ℕ) (x y : K), ValidIdx s.degrees (idx.modify d (· + 1)) →
    s.controlPoint idx = .ok x → s.controlPoint (idx.modify d (· + 1)) = .ok y → x ≤ y

/-- The control points increase in direction `d`. -/
def Increasing {K : Type} [LT K] (s : Spline K) (d : ℕ) : Prop :=
  ∀ (idx : List ℕ) (x y : K), ValidIdx s.degrees (idx.modify d (· + 1)) →
    s.controlPoint idx = .ok x → s.controlPoint (idx.modify d (· + 1)) = .ok y → x < y

/-- The order of one derivative in direction `d` of `n` directions. -/
def once (n d : ℕ) : List ℕ := (List.replicate n 0).set d 1

/-- The order of two derivatives in direction `d` of `n` directions. -/
def twice (n d : ℕ) : List ℕ := (List.replicate n 0).set d 2

end Bezman.Spec
