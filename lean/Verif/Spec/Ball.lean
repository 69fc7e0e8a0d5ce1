import Verif.Model.FloatArith
import Verif.Spec.ScalarMap

/-! # Specification: numbers with error bounds

A number that carries its exact value and a bound of the rounding error that a floating-point computation of it may have.  The bound
of a result is computed from the bounds of the operands: the errors of the operands are propagated, then the operation
rounds. -/

namespace Bezman

/-- An exact value together with an error bound. -/
structure Ball (A : FloatArith) where
  /-- the exact value -/
  c : ℝ
  /-- the error bound -/
  r : ℝ
  /-- the bound is meaningful; it is not after a division by a number that may be zero -/
  known : Prop

namespace Ball
variable {A : FloatArith}

/-- `x` is within the bound of the exact value. -/
def Contains (b : Ball A) (x : Fl A) : Prop := b.known → |x.val - b.c| ≤ b.r

/-- a number without error -/
def ofFl (x : Fl A) : Ball A := ⟨x.val, 0, True⟩

/-- An operation with exact result `c`, of operands whose errors change the result by at most `e`, and which has an underflow error up
to `η`. -/
noncomputable def round (c e η : ℝ) (known : Prop) : Ball A := ⟨c, e + (A.u * (|c| + e) + η), known⟩

noncomputable instance : Zero (Ball A) := ⟨⟨0, 0, True⟩⟩
noncomputable instance : One (Ball A) := ⟨⟨1, 0, True⟩⟩
noncomputable instance : Add (Ball A) := ⟨fun a b => round (a.c + b.c) (a.r + b.r) 0 (a.known ∧ b.known)⟩
noncomputable instance : Sub (Ball A) := ⟨fun a b => round (a.c - b.c) (a.r + b.r) 0 (a.known ∧ b.known)⟩
noncomputable instance : Mul (Ball A) :=
  ⟨fun a b => round (a.c * b.c) (|a.c| * b.r + a.r * |b.c| + a.r * b.r) A.η (a.known ∧ b.known)⟩
noncomputable instance : Div (Ball A) :=
  ⟨fun a b => round (a.c / b.c) ((a.r * |b.c| + |a.c| * b.r) / ((|b.c| - b.r) * |b.c|)) A.η (a.known ∧ b.known ∧ b.r < |b.c|)⟩
noncomputable instance : Neg (Ball A) := ⟨fun a => ⟨-a.c, a.r, a.known⟩⟩
noncomputable instance : NatCast (Ball A) := ⟨fun n => ⟨n, A.u * n, True⟩⟩
/-- comparisons are those of the exact values -/
instance : LT (Ball A) := ⟨fun a b => a.c < b.c⟩
noncomputable instance : DecidableLT (Ball A) := fun a b => Classical.propDecidable (a.c < b.c)
noncomputable instance : BEq (Ball A) := ⟨fun a b => a.c == b.c⟩

end Ball

/-- If the exact computation returns `y`, then the computation with bounds returns bounds of `y`, and the floating-point computation returns
something within these bounds (or stops with one of the errors `stop`). -/
def Spec.Bounded {α β γ : Type} (stop : List Err) (centre : β → γ) (within : α → β → Prop) (float : M α) (ball : M β) (exact : M γ) : Prop :=
  ∀ y, exact = .ok y → ∃ b, ball = .ok b ∧ centre b = y ∧ ((∃ x, float = .ok x ∧ within x b) ∨ ∃ e ∈ stop, float = .error e)

/-- `x` is within the bounds `b`, for numbers, points, and lists of numbers. -/
def Ball.Contains1 {A : FloatArith} (x : Fl A) (b : Ball A) : Prop := b.Contains x
@[inherit_doc Ball.Contains1]
def Ball.ContainsPoint {A : FloatArith} {n : ℕ} (x : Point (Fl A) n) (b : Point (Ball A) n) : Prop := ∀ i, (b.val i).Contains (x.val i)
@[inherit_doc Ball.Contains1]
def Ball.ContainsList {A : FloatArith} (x : List (Fl A)) (b : List (Ball A)) : Prop := List.Forall₂ (fun x c => c.Contains x) x b

/-- The control values are within their bounds. -/
def Spline.Within {A : FloatArith} (s : Spline (Fl A)) (b : Spline (Ball A)) : Prop :=
  s.degrees = b.degrees ∧ List.Forall₂ (fun x c => c.Contains x) s.cps b.cps

/-- The coordinates of the control points are within their bounds. -/
def Spline.WithinPoints {A : FloatArith} {n : ℕ} (s : Spline (Point (Fl A) n)) (b : Spline (Point (Ball A) n)) : Prop :=
  s.degrees = b.degrees ∧ List.Forall₂ (fun x c => ∀ i, (c.val i).Contains (x.val i)) s.cps b.cps

end Bezman
