import Verif.Spec.Spline

/-! # Specification: the function a spline computes -/

namespace Bezman
open Spec

variable {K V : Type}

/-- The spline `s` has degrees `ds`, its bookkeeping is consistent, and calling
`Evaluate` at any parameter tuple `t` of the right length succeeds (no undefined
behaviour, no error) and returns `f t`. -/
structure Spline.Computes [One K] [Sub K] [Add V] [SMul K V] (s : Spline V) (ds : List ℕ)
    (f : List K → V) : Prop where
  wf : s.WF
  degrees_eq : s.degrees = ds
  eval : ∀ t : List K, t.length = ds.length → s.evaluate t = .ok (f t)

/-- Layer `i` (in dimension `d`) of the control net of `a` is identical to layer `j`
of the control net of `b`: reading the control points through the API gives the same
value for every valid index tuple. -/
def Spline.SameLayer (ds : List ℕ) (d i j : ℕ) (a b : Spline V) : Prop :=
  ∀ idx, ValidIdx ds idx → ∃ x, a.controlPoint (idx.set d i) = .ok x ∧ b.controlPoint (idx.set d j) = .ok x

/-- The degrees `max(p_d, q_d)`. -/
def Spec.maxDegrees (a b : List ℕ) : List ℕ := List.zipWith max a b

/-- The degrees `p_d + q_d`. -/
def Spec.sumDegrees (a b : List ℕ) : List ℕ := List.zipWith (· + ·) a b

/-- What the binary operators need: equal parametric dimension, loops that may run
as often as there are degrees to raise, and a result with fewer than `2^31` control
points (the code indexes with 32-bit integers while raising degrees). -/
structure Spec.Fits (cfg : Cfg) (da db : List ℕ) : Prop where
  dims : db.length = da.length
  rounds : ∀ p ∈ da ++ db, p < cfg.fuel
  rounds2 : 2 ≤ cfg.fuel
  small : size (maxDegrees da db) < 2 ^ 31

/-- Every parameter lies in the unit interval. -/
def Spec.InCube [LE K] [Zero K] [One K] (t : List K) : Prop := ∀ x ∈ t, 0 ≤ x ∧ x ≤ 1

end Bezman
