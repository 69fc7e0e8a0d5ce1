import Verif.Spec.ScalarMap
import Mathlib.LinearAlgebra.AffineSpace.AffineMap

/-! # Maps of points -/

namespace Bezman

/-- The map commutes with the operations of points.  Neither type has to satisfy any law. -/
structure Spec.LinearOn (K : Type) {V V' : Type} [Zero V] [Add V] [Sub V] [Neg V] [SMul K V] [Zero V'] [Add V'] [Sub V'] [Neg V'] [SMul K V']
    (L : V → V') : Prop where
  zero : L 0 = 0
  add : ∀ a b, L (a + b) = L a + L b
  sub : ∀ a b, L (a - b) = L a - L b
  neg : ∀ a, L (-a) = -L a
  smul : ∀ (c : K) a, L (c • a) = c • L a

/-- The rational spline with the same weights whose control points are the images of the control points: the stored control point `w P`
becomes `w (A P) = A' (w P) + w (A 0)`, with `A'` the linear part of `A`. -/
def RSpline.image {K V V' : Type} [Ring K] [AddCommGroup V] [Module K V] [AddCommGroup V'] [Module K V'] (A : V →ᵃ[K] V') (r : RSpline K V) :
    RSpline K V' := ⟨{ r.num with cps := List.zipWith (fun x w => A.linear x + w • A 0) r.num.cps r.wt.cps }, r.wt⟩

end Bezman
