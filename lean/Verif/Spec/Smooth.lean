import Verif.Spec.Converge
import Mathlib.Data.Real.Basic

/-! # Specification: widths of a box to the powers of the orders of a derivative; corners and their neighbours -/

namespace Bezman.Spec
open Finset

/-- The factor by which a derivative of orders `k` of the part over the box differs from that of the whole spline. -/
noncomputable def boxScale (box : List (ℝ × ℝ)) (k : List ℕ) : ℝ := ∏ d ∈ range box.length, width box d ^ k.getD d 0

/-- the parameter of a corner -/
noncomputable abbrev cornerAt (c : List Bool) : List ℝ := c.map fun b => if b then 1 else 0
/-- the index of the control point of a corner -/
abbrev cornerIdx (ps : List ℕ) (c : List Bool) : List ℕ := List.zipWith (fun (b : Bool) p => if b then p else 0) c ps

/-- the index of the neighbour of a corner in direction `d` -/
abbrev besideIdx (ps : List ℕ) (c : List Bool) (d : ℕ) : List ℕ := (cornerIdx ps c).set d (if c.getD d false then ps.getD d 0 - 1 else 1)
/-- the `j`-th control point from a corner in direction `d`, counted inwards -/
abbrev stepIdx (ps : List ℕ) (c : List Bool) (d j : ℕ) : List ℕ := (cornerIdx ps c).set d (if c.getD d false then ps.getD d 0 - j else j)
/-- the control point `i` steps in direction `d` and `j` steps in direction `e` from a corner, counted inwards -/
abbrev stepIdx2 (ps : List ℕ) (c : List Bool) (d e i j : ℕ) : List ℕ :=
  ((cornerIdx ps c).set e (if c.getD e false then ps.getD e 0 - j else j)).set d (if c.getD d false then ps.getD d 0 - i else i)
/-- the direction from the corner into the interval -/
noncomputable abbrev inward (c : List Bool) (d : ℕ) : ℝ := if c.getD d false then -1 else 1

end Bezman.Spec
