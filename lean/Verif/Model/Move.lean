import Verif.Model.History
import Verif.Model.RHistory

/-! # Programs with several spline variables and moves -/

namespace Bezman

/-- Types whose objects can be moved from. -/
class HasMove (α : Type) where
  /-- what a move assignment leaves in its argument -/
  movedFrom : α → α

/-- The defaulted move assignment of `BezierSpline`, src/bezier_spline.hpp:210: degrees, number of control points and offsets are
arrays and numbers (75-77, 141), which are copied; the vector of control points (143) is moved, which leaves it empty. -/
instance {V : Type} : HasMove (Spline V) := ⟨fun s => { s with cps := [] }⟩

/-- The defaulted move assignment of `RationalBezierSpline`, src/rational_bezier_spline.hpp:156-157: both members (66, 71) are moved. -/
instance {K V : Type} : HasMove (RSpline K V) := ⟨fun r => ⟨HasMove.movedFrom r.num, HasMove.movedFrom r.wt⟩⟩

namespace Move
variable {α : Type}

/-- A statement of a program with variables `0, 1, 2, ...` of one spline type. -/
inductive Stmt (α : Type) where
  /-- `i = j;` src/bezier_spline.hpp:213, src/rational_bezier_spline.hpp:160-161 -/
  | copy (i j : Nat)
  /-- `i = std::move(j);` src/bezier_spline.hpp:210, src/rational_bezier_spline.hpp:156-157 -/
  | move (i j : Nat)
  /-- a new variable, constructed from `j`, src/bezier_spline.hpp:180, src/rational_bezier_spline.hpp:100-101 -/
  | construct (j : Nat)
  /-- a new variable, constructed from `std::move(j)`. A class with a declared copy constructor and a declared move assignment has no
  implicit move constructor, so this is the copy constructor again, src/bezier_spline.hpp:180, 210. -/
  | constructMove (j : Nat)
  /-- `std::swap(i, j);` -/
  | swap (i j : Nat)
  /-- `k = op(args);` for any member or operator of the library that reads the variables `args`; a mutator such as `+=` has `k` among
  its arguments. A result is a temporary, whose state after the move nobody sees. -/
  | call (k : Nat) (args : List Nat) (op : List α → M α)

variable [HasMove α]

/-- `i = std::move(j)`; for `i = j` the vector is left in an unspecified state, the library implementations empty it. -/
def moveAssign (vars : List α) (i j : Nat) : M (List α) := do
  let x ← rd vars j
  let vars ← wr vars i x
  wr vars j (HasMove.movedFrom x)

/-- `std::swap`: a temporary is constructed from `std::move(i)` (a copy, see `Stmt.constructMove`), then `j` is moved to `i`, and the
temporary to `j`. -/
def swapVars (vars : List α) (i j : Nat) : M (List α) := do
  let tmp ← rd vars i
  let vars ← moveAssign vars i j
  wr vars j tmp

/-- The effect of a statement on the variables. -/
def Stmt.exec (vars : List α) : Stmt α → M (List α)
  | .copy i j => do
    let x ← rd vars j
    wr vars i x
  | .move i j => moveAssign vars i j
  | .construct j => do
    let x ← rd vars j
    pure (vars ++ [x])
  | .constructMove j => do
    let x ← rd vars j
    pure (vars ++ [x])
  | .swap i j => swapVars vars i j
  | .call k args op => do
    let xs ← args.mapM (fun a => rd vars a)
    let x ← op xs
    wr vars k x

/-- A program. -/
def exec (vars : List α) : List (Stmt α) → M (List α)
  | [] => pure vars
  | c :: p => do
    let vars ← c.exec vars
    exec vars p

end Move
end Bezman
