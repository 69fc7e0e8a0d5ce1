import Mathlib.Data.Set.Insert
import Verif.Model.Move

/-! # Specification: programs with moves -/

namespace Bezman.Spec
open Move
variable {α : Type}

/-- The effect of a statement if variables were plain values: moving is copying, swapping exchanges two values. -/
def byValue (vars : List α) : Stmt α → M (List α)
  | .copy i j | .move i j => do
    let x ← rd vars j
    wr vars i x
  | .construct j | .constructMove j => do
    let x ← rd vars j
    pure (vars ++ [x])
  | .swap i j => do
    let x ← rd vars i
    let y ← rd vars j
    let vars ← wr vars i y
    wr vars j x
  | .call k args op => do
    let xs ← args.mapM (fun a => rd vars a)
    let x ← op xs
    wr vars k x

/-- A program, with plain values. -/
def byValueAll (vars : List α) : List (Stmt α) → M (List α)
  | [] => pure vars
  | c :: p => do
    let vars ← byValue vars c
    byValueAll vars p

/-- The statement reads no variable of `D` (variables that have been moved from and not assigned since), and does not move a variable to
itself. -/
def ReadsOutside (D : Set ℕ) : Stmt α → Prop
  | .copy _ j => j ∉ D
  | .move i j => j ∉ D ∧ i ≠ j
  | .construct j => j ∉ D
  | .constructMove j => j ∉ D
  | .swap i j => i ∉ D ∧ j ∉ D
  | .call _ args _ => ∀ a ∈ args, a ∉ D

/-- The moved-from variables after the statement. -/
def movedAfter (D : Set ℕ) : Stmt α → Set ℕ
  | .copy i _ => D \ {i}
  | .move i j => (D \ {i}) ∪ {j}
  | .call k _ _ => D \ {k}
  | _ => D

/-- The moved-from variables after a program. -/
def movedAfterAll (D : Set ℕ) : List (Stmt α) → Set ℕ
  | [] => D
  | c :: p => movedAfterAll (movedAfter D c) p

/-- No statement of the program reads a moved-from variable. -/
def Careful (D : Set ℕ) : List (Stmt α) → Prop
  | [] => True
  | c :: p => ReadsOutside D c ∧ Careful (movedAfter D c) p

/-- The same variables, apart from those in `D`. -/
def SameOutside (D : Set ℕ) (a b : List α) : Prop := a.length = b.length ∧ ∀ i : ℕ, i ∉ D → a[i]? = b[i]?

/-- Both computations end with the same error, or both return with `R`. -/
def BothEnd {β : Type} (R : β → β → Prop) : M β → M β → Prop
  | .ok x, .ok y => R x y
  | .error e, .error e' => e = e'
  | _, _ => False

end Bezman.Spec
