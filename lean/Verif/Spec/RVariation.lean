import Verif.Spec.Variation
import Verif.Model.Rational

/-! # Specification: rows of control points and pieces of rational splines -/

namespace Bezman.Spec
variable {K V : Type}

/-- `l` is the row of control points of the rational spline `r`, as returned by `ControlPoint`, in direction `d` through the index `idx`. -/
def RRowOf [Zero K] [BEq K] [ScalarDiv K V] (r : RSpline K V) (d : ℕ) (idx : List ℕ) (l : List V) : Prop :=
  ∃ p, r.num.degrees[d]? = some p ∧ ValidIdx r.num.degrees (idx.set d 0) ∧
    List.Forall₂ (fun j x => r.controlPoint (idx.set d j) = .ok x) (List.range (p + 1)) l

/-- `RPiecesAlong r d l`: the rational splines `l`, from left to right, have been made from `r` by any number of splits and elevations in
direction `d`, each applied to any piece (elevations below the limit of 2^31 control points, see C12). -/
inductive RPiecesAlong [Zero K] [One K] [Add K] [Sub K] [Mul K] [Div K] [NatCast K] [LT K] [DecidableLT K] [Zero V] [Add V] [SMul K V] :
    RSpline K V → ℕ → List (RSpline K V) → Prop
  | whole (r d) : RPiecesAlong r d [r]
  | elevate {r d r' l} : r.orderElevate d = .ok r' → size (r.num.degrees.modify d (· + 1)) < 2 ^ 31 → RPiecesAlong r' d l → RPiecesAlong r d l
  | split {r d a b l l'} {z : K} : r.splitAt z d = .ok (a, b) → RPiecesAlong a d l → RPiecesAlong b d l' → RPiecesAlong r d (l ++ l')

end Bezman.Spec
