import Mathlib.Data.Set.Insert
import Verif.Model.Threads

/-! # Specification: threads -/

namespace Bezman.Spec
open Threads
variable {α ρ : Type}

/-- A data race: two threads are about to access the same place of memory, and one of them is about to write. A program that can get
there has undefined behaviour. -/
def DataRace (c : Config α ρ) : Prop :=
  ∃ (i j : ℕ) (a b : Act α ρ) (l : Loc) (w w' : Bool), i ≠ j ∧ c.threads[i]? = some a ∧ c.threads[j]? = some b ∧ a.access = some (l, w) ∧ b.access = some (l, w') ∧
    (w = true ∨ w' = true)

/-- All threads have come to their end. -/
def Finished (c : Config α ρ) : Prop := ∀ a ∈ c.threads, ∃ outs e, a = .stop outs e

/-- What a thread does if it is the only one. -/
structure Solo (α ρ : Type) where
  /-- the splines at its end -/
  vars : Nat → α
  /-- what it has computed -/
  outs : List ρ
  /-- the error it ended with -/
  error : Option Err
  /-- the messages it has sent to the logger -/
  said : List (LogKind × String)

/-- give variables new values -/
def assign (vars : Nat → α) : List Nat → List α → Nat → α
  | i :: is, x :: xs => assign (fun j => if j = i then x else vars j) is xs
  | _, _ => vars

/-- more messages in front -/
def Solo.after (l : List (LogKind × String)) (r : Solo α ρ) : Solo α ρ := { r with said := l ++ r.said }

/-- The statements of a thread one after the other, as if there were no other threads. -/
def alone (vars : Nat → α) (outs : List ρ) : List (Stmt α ρ) → Solo α ρ
  | [] => ⟨vars, outs, none, []⟩
  | .call c caught :: p =>
    match c.run (c.args.map vars) with
    | (said, .ok (ys, zs)) => (alone (assign vars c.targets ys) (outs ++ zs) p).after said
    | (said, .error .throws) => (if caught then alone vars outs p else ⟨vars, outs, some .throws, []⟩).after said
    | (said, .error e) => ⟨vars, outs, some e, said⟩
  | .setLevel _ :: p => alone vars outs p

/-- The variables that occur in a program. -/
def uses (p : List (Stmt α ρ)) : Set ℕ := {v | ∃ c b, Stmt.call c b ∈ p ∧ (v ∈ c.args ∨ v ∈ c.targets)}

/-- The variables a program writes. -/
def changes (p : List (Stmt α ρ)) : Set ℕ := {v | ∃ c b, Stmt.call c b ∈ p ∧ v ∈ c.targets}

/-- No thread writes a variable that occurs in another one. They may read the same ones. -/
def Separate (progs : List (List (Stmt α ρ))) : Prop :=
  ∀ (i j : ℕ) (p q : List (Stmt α ρ)), i ≠ j → progs[i]? = some p → progs[j]? = some q → ∀ v ∈ changes p, v ∉ uses q

/-- No thread calls `Logger::SetOutputLevel`. -/
def LeavesLevel (p : List (Stmt α ρ)) : Prop := ∀ n, Stmt.setLevel n ∉ p

/-- The output level `n` contains a log file. -/
def FilesOn (n : ℕ) : Prop := has .log_file n = true ∨ has .warning_file n = true ∨ has .error_file n = true

/-- At output level `n` messages of this kind are printed. -/
def Printed (enabled : Bool) (n : ℕ) (k : LogKind) : Prop := has k.level n = true ∧ (enabled = true ∨ k = .terminating)

/-- At output level `n`, a message of this kind makes the logger use a file stream or ask for the time. -/
def Loud (enabled : Bool) (n : ℕ) (k : LogKind) : Prop :=
  (enabled = true ∧ FilesOn n) ∨ (has .time_stamp n = true ∧ Printed enabled n k)

/-- The line of a message on the console, without time stamp. -/
def line (k : LogKind) (text : String) : String :=
  "[" ++ Logger.setw 20 (Logger.colorText k.head k.code) ++ "] : " ++ Logger.colorText text k.code ++ "\n"

open Classical in
/-- What messages leave on the console. -/
noncomputable def printed (enabled : Bool) (n : ℕ) (said : List (LogKind × String)) : List String :=
  (said.filter fun m => decide (Printed enabled n m.1)).map fun m => line m.1 m.2

/-- What thread `i` has written to the console. -/
def spoken (i : ℕ) (console : List (ℕ × String)) : String := String.join ((console.filter fun x => x.1 = i).map fun x => x.2)

/-- A direct call of the logger: a message or `SetOutputLevel`. -/
inductive LogCall
  | message (k : LogKind) (text : String)
  | setLevel (n : Nat)

/-- such a call as a statement of a thread, which catches the exception of `TerminatingError` -/
def LogCall.stmt : LogCall → Stmt α ρ
  | .message .terminating text => .call ⟨[], [], fun _ => ([(.terminating, text)], .error .throws)⟩ true
  | .message k text => .call ⟨[], [], fun _ => ([(k, text)], .ok ([], []))⟩ true
  | .setLevel n => .setLevel n

/-- such a call for the logger in a program with one thread -/
def LogCall.call : LogCall → Logger.Call
  | .message .warning text => .warning text "<time>"
  | .message .userInfo text => .userInfo text "<time>"
  | .message .logging text => .logging text "<time>"
  | .message .extended text => .extended text "<time>"
  | .message .error text => .error text "<time>"
  | .message .terminating text => .terminating text "<time>"
  | .setLevel n => .setLevel n

/-- The same output level, and the same contents of the same open files. -/
def SameLog (m : Mem α) (s : Logger.State) : Prop :=
  m.level = s.outputlevel ∧ ∀ f, (m.file f).isOpen = (s.file f).isOpen ∧ String.join (m.file f).lines = String.join (s.file f).lines

end Bezman.Spec
