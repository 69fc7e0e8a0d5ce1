import Verif.Model.Messages

/-! # Specification: what the library tells its user -/

namespace Bezman.Spec

/-- A failure is announced: if a call throws, its last message is a terminating error and no other message is one; if it does not
throw, it sends no terminating error. -/
def Announces {α : Type} (x : Said α) : Prop :=
  (x.out = .error .throws ∧ ∃ (before : List Msg) (last : Msg),
      x.log = before ++ [last] ∧ last.kind = .terminating ∧ ∀ m ∈ before, m.kind ≠ .terminating) ∨
    (x.out ≠ .error .throws ∧ ∀ m ∈ x.log, m.kind ≠ .terminating)

/-- the message that direction `d` has now degree `p` -/
def elevated (d p : Nat) : Msg :=
  ⟨.extended, "Spline elevating along parametric dimension " ++ toString d ++ " to degree " ++ toString p⟩

/-- The messages of a spline of degrees `ps` that is raised to at least the degrees `qs`: direction by direction, one message per degree, in increasing
order. -/
def climb (ps qs : List Nat) : List Msg :=
  (List.range ps.length).flatMap fun d =>
    (List.range' (ps.getD d 0 + 1) (qs.getD d 0 - ps.getD d 0)).map (elevated d)

/-- the two messages of a derivative with the given orders, e.g. `[ 1, 0]` -/
def derived (orders : List Nat) : List Msg :=
  [⟨.logging, "Calculating derivative splines with orders [ " ++ ", ".intercalate (orders.map toString) ++ "]"⟩,
    ⟨.logging, "Derivative successfully computed"⟩]

/-- the message of a split at the position written `z` -/
def splitting (d : Nat) (z : String) : Msg :=
  ⟨.extended, "Splitting spline along parametric dimension " ++ toString d ++ " at position " ++ z⟩

/-- the message of a split that is refused -/
def splitRefused (z : String) : Msg := ⟨.terminating, "Split Plane is at " ++ z ++ ", which is out of bounds (0,1)"⟩

/-- positions in the part of the interval that is left after the previous split -/
def relative {K : Type} [One K] [Sub K] [Div K] : List K → List K
  | z :: z' :: zs => (z' - z) / (1 - z) :: relative (z' :: zs)
  | _ => []

/-- where a spline is cut for the planes `zs`: at the first plane, and then within the part that is left -/
def positions {K : Type} [One K] [Sub K] [Div K] (zs : List K) : List K := zs.take 1 ++ relative zs

/-- The messages of splits at the given positions, each relative to the part that is left, of which each message is sent `k` times; the
first position outside of the open interval is refused. -/
def splits {K : Type} [Zero K] [One K] [LT K] [DecidableLT K] (k : Nat) (tx : K → String) (d : Nat) : List K → List Msg
  | [] => []
  | z :: zs => if 0 < z ∧ z < 1 then List.replicate k (splitting d (tx z)) ++ splits k tx d zs
    else [splitting d (tx z), splitRefused (tx z)]

/-- The directions in which a rational spline is differentiated, one after the other. -/
def rounds (orders : List Nat) : List Nat := (List.range orders.length).flatMap fun d => List.replicate (orders.getD d 0) d

/-- The messages of one round of the quotient rule in direction `d` for a spline with `n` directions and degree `p` in direction `d`: two
derivatives, and an elevation to twice the degree. -/
def quotientRule (n d p : Nat) : List Msg :=
  let unit := (List.replicate n 0).set d 1
  derived unit ++ derived unit ++ [elevated d (2 * p)]

end Bezman.Spec
