import Verif.Model.CMathReal
import Verif.Model.Spline
import Mathlib.Analysis.Calculus.FDeriv.Basic
import Mathlib.Algebra.TrivSqZeroExt.Basic

/-!
# What an `AlgoDiffType` stands for

An `AlgoDiffType` produced in a computation at the point `x` stands for a function `f` of
the independent variables: it holds the value `f x` and the derivatives of `f` at `x`.
-/

namespace Bezman.Spec
open Bezman

/-- `a` holds the value of `f` at `x`, `f` is differentiable at `x`, and the derivatives of
`a` are those of `f` at `x` in the given directions. -/
structure Tracks {E : Type} [NormedAddCommGroup E] [NormedSpace ℝ E] (dirs : List E) (x : E)
    (f : E → ℝ) (a : ADT ℝ) : Prop where
  value : a.v = f x
  differentiable : DifferentiableAt ℝ f x
  derivs : a.d = dirs.map (fun u => fderiv ℝ f x u)

/-- Second order: `a` is made of `AlgoDiffType`s again.  Its value stands for `f`, and its
derivatives stand for the derivatives of `f` as functions of the point. -/
structure Tracks2 {E : Type} [NormedAddCommGroup E] [NormedSpace ℝ E] (dirs : List E) (x : E)
    (f : E → ℝ) (a : ADT (ADT ℝ)) : Prop where
  value : Tracks dirs x f a.v
  differentiable : ∀ᶠ y in nhds x, DifferentiableAt ℝ f y
  count : a.d.length = dirs.length
  derivs : ∀ i (h : i < a.d.length) (h' : i < dirs.length),
    Tracks dirs x (fun y => fderiv ℝ f y dirs[i]) a.d[i]

/-- The coordinate directions of `ℝ^n`, for which the derivatives are the gradient. -/
noncomputable def axes (n : ℕ) : List (Fin n → ℝ) := List.ofFn (fun i => Pi.single i (1 : ℝ))

/-- The point with the given coordinates. -/
def point (x : List ℝ) : Fin x.length → ℝ := fun i => x[i]

/-- Coordinate `i` (and 0 beyond the last one). -/
def coord {n : ℕ} (y : Fin n → ℝ) (i : ℕ) : ℝ := if h : i < n then y ⟨i, h⟩ else 0

/-- The function that an expression means. -/
noncomputable def denote {n : ℕ} : DExpr ℝ → (Fin n → ℝ) → ℝ
  | .var i, y => coord y i
  | .const c, _ => c
  | .add a b, y => denote a y + denote b y
  | .sub a b, y => denote a y - denote b y
  | .mul a b, y => denote a y * denote b y
  | .div a b, y => denote a y / denote b y
  | .neg a, y => -denote a y
  | .addScalar a c, y => denote a y + c
  | .subScalar a c, y => denote a y - c
  | .mulScalar a c, y => denote a y * c
  | .divScalar a c, y => denote a y / c
  | .scalarAdd c a, y => c + denote a y
  | .scalarSub c a, y => c - denote a y
  | .scalarMul c a, y => c * denote a y
  | .scalarDiv c a, y => c / denote a y
  | .exp a, y => Real.exp (denote a y)
  | .abs a, y => |denote a y|
  | .powScalar a c, y => denote a y ^ c
  | .pow a b, y => denote a y ^ denote b y
  | .sqrt a, y => Real.sqrt (denote a y)
  | .log a, y => Real.log (denote a y)
  | .log10 a, y => Real.logb 10 (denote a y)
  | .cos a, y => Real.cos (denote a y)
  | .sin a, y => Real.sin (denote a y)
  | .tan a, y => Real.tan (denote a y)
  | .acos a, y => Real.arccos (denote a y)
  | .asin a, y => Real.arcsin (denote a y)
  | .atan a, y => Real.arctan (denote a y)

/-- Where `t ↦ t ^ c` is differentiable as a function around `t`: positive arguments, and
for an integer power also negative ones, and zero if the power is positive. -/
def PowOk (t c : ℝ) : Prop := 0 < t ∨ ∃ m : ℤ, c = m ∧ (t ≠ 0 ∨ 1 ≤ m)

/-- Only existing variables are used, and at the point `y` every operation of the
expression is applied inside the domain where it is differentiable. -/
def Smooth {n : ℕ} (y : Fin n → ℝ) : DExpr ℝ → Prop
  | .var i => i < n
  | .const _ => True
  | .add a b | .sub a b | .mul a b => Smooth y a ∧ Smooth y b
  | .div a b => Smooth y a ∧ Smooth y b ∧ denote b y ≠ 0
  | .neg a | .addScalar a _ | .subScalar a _ | .mulScalar a _ | .scalarAdd _ a | .scalarSub _ a
  | .scalarMul _ a | .exp a | .cos a | .sin a | .atan a => Smooth y a
  | .divScalar a c => Smooth y a ∧ c ≠ 0
  | .scalarDiv _ a | .abs a => Smooth y a ∧ denote a y ≠ 0
  | .powScalar a c => Smooth y a ∧ PowOk (denote a y) c
  | .pow a b => Smooth y a ∧ Smooth y b ∧ 0 < denote a y
  | .sqrt a | .log a | .log10 a => Smooth y a ∧ 0 < denote a y
  | .tan a => Smooth y a ∧ Real.cos (denote a y) ≠ 0
  | .acos a | .asin a => Smooth y a ∧ -1 < denote a y ∧ denote a y < 1

/-- The expression compiles with nested types: no division by a plain number, no `acos`
or `asin`.  In addition powers with a plain exponent are taken of positive values only. -/
def Nestable {n : ℕ} (y : Fin n → ℝ) : DExpr ℝ → Prop
  | .var _ | .const _ => True
  | .add a b | .sub a b | .mul a b | .div a b | .pow a b => Nestable y a ∧ Nestable y b
  | .neg a | .addScalar a _ | .subScalar a _ | .mulScalar a _ | .scalarAdd _ a | .scalarSub _ a
  | .scalarMul _ a | .scalarDiv _ a | .exp a | .cos a | .sin a | .atan a | .abs a | .sqrt a
  | .log a | .log10 a | .tan a => Nestable y a
  | .powScalar a _ => Nestable y a ∧ 0 < denote a y
  | .divScalar _ _ | .acos _ | .asin _ => False

end Bezman.Spec

/-- The spline whose control points are the values at `y` of the functions that are the
control points of `s`. -/
def Bezman.Spline.at {E W : Type} (s : Spline (E → W)) (y : E) : Spline W :=
  { s with cps := s.cps.map (fun F => F y) }

/-- `AlgoDiffType<double, n>` as a ring: a value and a vector of derivatives, with product
`(f g, f g' + f' g)` (dual numbers). -/
abbrev Bezman.StaticADT (n : ℕ) : Type := TrivSqZeroExt ℝ (Fin n → ℝ)

/-- The object: value and derivatives. -/
def Bezman.StaticADT.toADT {n : ℕ} (a : StaticADT n) : ADT ℝ := ⟨a.fst, List.ofFn a.snd⟩
