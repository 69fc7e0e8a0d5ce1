import Mathlib.Data.List.Destutter
import Mathlib.Data.Sign.Defs
import Mathlib.LinearAlgebra.AffineSpace.AffineMap
import Verif.Spec.Bezier
import Verif.Model.Split
import Verif.Model.Elevate

/-! # Specification: changes of sign -/

namespace Bezman.Spec
variable {K V : Type}

/-- A word of signs, none of them zero, in which neighbours differ: `+ - + -`, say. -/
def Alternating (w : List SignType) : Prop := 0 ∉ w ∧ w.IsChain (· ≠ ·)

/-- Some of the points of `l`, from left to right, have the signs `w`. (`sg` gives the sign of a point: of a coordinate, or on which side
of a plane it is.) -/
def TakesSigns (sg : V → SignType) (l : List V) (w : List SignType) : Prop := ∃ l' : List V, l'.Sublist l ∧ l'.map sg = w

/-- Wherever the points of `l'` alternate in sign, from left to right, those of `l` do too, with the same signs: `l'` changes its sign no
more often than `l`. -/
def Calmer (sg : V → SignType) (l' l : List V) : Prop := ∀ w, Alternating w → TakesSigns sg l' w → TakesSigns sg l w

/-- The sign of `c` is that of `a` or that of `b`, or zero. -/
def Amid (sg : V → SignType) (a c b : V) : Prop := sg c = 0 ∨ sg c = sg a ∨ sg c = sg b

/-- The two interpolations of the library, `(1 - z) • a + z • b` in a split and the one with the factor `i * (1 / (p + 1))` in an elevation,
give a point whose sign is that of one of the two points, or zero. -/
def KeepsSigns (K : Type) [Zero K] [One K] [Sub K] [Mul K] [Div K] [NatCast K] [LT K] [Add V] [SMul K V] (sg : V → SignType) : Prop :=
  (∀ z : K, 0 < z → z < 1 → ∀ a b : V, Amid sg a ((1 - z) • a + z • b) b) ∧
  ∀ p i : ℕ, 0 < i → i ≤ p → p + 1 < 2 ^ 31 → ∀ a b : V,
    Amid sg a ((1 - (i : K) * (1 / ((p + 1 : ℕ) : K))) • a + ((i : K) * (1 / ((p + 1 : ℕ) : K))) • b) b

/-- The number of changes of sign; zeros are left out. -/
def signChanges (w : List SignType) : ℕ := ((w.filter fun x => x ≠ 0).destutter (· ≠ ·)).length - 1

/-- `l` is the row of control points of `s` in direction `d` through the index `idx`. -/
def RowOf (s : Spline V) (d : ℕ) (idx : List ℕ) (l : List V) : Prop :=
  ∃ p, s.degrees[d]? = some p ∧ ValidIdx s.degrees (idx.set d 0) ∧
    List.Forall₂ (fun j x => s.controlPoint (idx.set d j) = .ok x) (List.range (p + 1)) l

/-- `PiecesAlong s d l`: the splines `l`, from left to right, have been made from `s` by any number of splits and elevations in direction
`d`, each applied to any piece (elevations below the limit of 2^31 control points, see C12). -/
inductive PiecesAlong (K : Type) [Zero K] [One K] [Sub K] [Mul K] [Div K] [NatCast K] [LT K] [DecidableLT K] [Zero V] [Add V] [SMul K V] :
    Spline V → ℕ → List (Spline V) → Prop
  | whole (s d) : PiecesAlong K s d [s]
  | elevate {s d s' l} : Spline.orderElevate K s d = .ok s' → size (s.degrees.modify d (· + 1)) < 2 ^ 31 → PiecesAlong K s' d l →
      PiecesAlong K s d l
  | split {s d a b l l'} {z : K} : s.splitAt z d = .ok (a, b) → PiecesAlong K a d l → PiecesAlong K b d l' → PiecesAlong K s d (l ++ l')

/-- on which side of the plane `φ = 0` a point is -/
def side [Ring K] [LinearOrder K] [AddCommGroup V] [Module K V] (φ : V →ᵃ[K] K) (x : V) : SignType := SignType.sign (φ x)

/-- The control polygon of the graph of a scalar curve of degree `p`: the control points over equally spaced abscissae. -/
def graphPoints [Zero K] [Div K] [NatCast K] (s : Spline K) (p : ℕ) : List (K × K) :=
  (List.range (p + 1)).map fun i : ℕ => ((i : K) / (p : K), s.cps.getD i 0)

/-- above, on or below the line `y = α + β x` -/
def aboveLine [Ring K] [LinearOrder K] (α β : K) (x : K × K) : SignType := SignType.sign (x.2 - (α + β * x.1))

end Bezman.Spec
