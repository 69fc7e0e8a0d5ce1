import Verif.Model.Basic
import Mathlib.Algebra.Group.Action.Defs

/-! # Points and their coordinates -/

namespace Bezman

/-- Coordinate access of the control point types.  The C++ code distinguishes
arithmetic types and `Point<n, Scalar>` with `if constexpr`; both branches do the
same per coordinate, an arithmetic type having a single one
(e.g. src/bezier_spline.inc:773-780, 817-826, 839-846, 856-869). -/
class Coords (K V : Type) where
  n : Nat
  coord : V → Fin n → K
  ofCoords : (Fin n → K) → V

/-- arithmetic types: one coordinate -/
instance scalarCoords (K : Type) : Coords K K := ⟨1, fun x _ => x, fun f => f 0⟩

/-- `Point<n, Scalar>` derives from `std::array<Scalar, n>`, src/point.hpp:51-52.
Coordinates are a function on `Fin n`; the loops over coordinates below write each
coordinate once, from coordinates with the same index, and are written as
functions. -/
@[ext] structure Point (K : Type) (n : Nat) where
  val : Fin n → K

/-- `Point<n, Scalar>`: `n` coordinates -/
instance pointCoords (K : Type) (n : Nat) : Coords K (Point K n) := ⟨n, Point.val, Point.mk⟩

namespace Point
variable {K : Type} {n : Nat}

/-- zero-initialised point, src/point.hpp:60-61 (`Point{}`) -/
instance [Zero K] : Zero (Point K n) := ⟨⟨fun _ => 0⟩⟩
/-- `==`, inherited from `std::array`, src/point.hpp:51-52: all coordinates are `==` -/
instance [BEq K] : BEq (Point K n) := ⟨fun a b => (List.finRange n).all fun i => a.val i == b.val i⟩
/-- `operator+=` / `operator+`, src/point.hpp:73-85 -/
instance [Add K] : Add (Point K n) := ⟨fun a b => ⟨fun i => a.val i + b.val i⟩⟩
/-- `operator-=` / `operator-`, src/point.hpp:87-100 -/
instance [Sub K] : Sub (Point K n) := ⟨fun a b => ⟨fun i => a.val i - b.val i⟩⟩
/-- `operator*=(scale)` / `operator*(scale)` / `scale * point`, src/point.hpp:108-124 -/
instance [Mul K] : SMul K (Point K n) := ⟨fun c a => ⟨fun i => a.val i * c⟩⟩
/-- unary `operator-`, src/point.hpp:102-106: multiplication with -1 -/
instance [Mul K] [One K] [Neg K] : Neg (Point K n) := ⟨fun a => (-1 : K) • a⟩
/-- `operator/=(scale)` / `operator/(scale)`, src/point.hpp:126-138 -/
def divScalar [Mul K] [One K] [Div K] (a : Point K n) (scale : K) : Point K n := (1 / scale) • a
/-- `scale / point`, src/point.hpp:140-146 -/
def scalarDiv [Div K] (scale : K) (a : Point K n) : Point K n := ⟨fun i => scale / a.val i⟩

/-- left-to-right accumulation `result += f(i)` over the coordinates -/
def accumulate [Zero K] [Add K] (f : Fin n → K) : K := (List.finRange n).foldl (fun r i => r + f i) 0

/-- `operator*(point)`, src/point.hpp:148-158 -/
def dot [Zero K] [Add K] [Mul K] (a b : Point K n) : K := accumulate fun i => a.val i * b.val i
/-- `SquaredEuclidianNorm`, src/point.hpp:160-167 -/
def squaredNorm [Zero K] [Add K] [Mul K] (a : Point K n) : K :=
  accumulate fun i => a.val i * a.val i
/-- `EuclidianNorm`, src/point.hpp:169-172; the square root function is a parameter. -/
def norm [Zero K] [Add K] [Mul K] (sqrt : K → K) (a : Point K n) : K := sqrt a.squaredNorm

end Point
end Bezman
