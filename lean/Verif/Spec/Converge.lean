import Verif.Spec.Bezier
import Verif.Model.Split
import Verif.Model.Elevate
import Mathlib.Algebra.Order.Field.Basic
import Mathlib.Algebra.Module.Defs

/-! # Specification: lengths, distances of neighbouring control points, parts of a spline -/

namespace Bezman.Spec
variable {K V : Type} [Field K] [LinearOrder K] [AddCommGroup V] [Module K V]

/-- `N` measures lengths: it satisfies the triangle inequality and scales with the absolute value.  (The absolute value of a coordinate,
the maximum or the sum of them, the Euclidean norm over the real numbers.) -/
structure IsLength (N : V → K) : Prop where
  add_le : ∀ x y, N (x + y) ≤ N x + N y
  smul : ∀ (c : K) x, N (c • x) = |c| * N x

/-- Control points of `s` that are neighbours in direction `d` have distance at most `L / p`, where `p` is the degree in direction `d`. -/
def StepBound (N : V → K) (s : Spline V) (d : ℕ) (L : K) : Prop :=
  ∀ (idx : List ℕ) (p : ℕ) (x y : V), s.degrees[d]? = some p → ValidIdx s.degrees (idx.modify d (· + 1)) →
    s.controlPoint idx = .ok x → s.controlPoint (idx.modify d (· + 1)) = .ok y → p * N (y - x) ≤ L

/-- `PartOf s box a`: `a` was obtained from `s` by any number of splits (at one or at several positions) and degree elevations (below
the limit of 2^31 control points, see C12), and is
the part over the box given by its intervals. -/
inductive PartOf (s : Spline V) : List (K × K) → Spline V → Prop
  | whole : PartOf s (List.replicate s.degrees.length (0, 1)) s
  | left {box a l r d z} : PartOf s box a → d < s.degrees.length → a.splitAt z d = .ok (l, r) →
      PartOf s (box.modify d fun I => (I.1, I.1 + (I.2 - I.1) * z)) l
  | right {box a l r d z} : PartOf s box a → d < s.degrees.length → a.splitAt z d = .ok (l, r) →
      PartOf s (box.modify d fun I => (I.1 + (I.2 - I.1) * z, I.2)) r
  | many {box a l d r} {zs : List K} {i : ℕ} {u v : K} : PartOf s box a → d < s.degrees.length → a.splitAtMany zs d = .ok l →
      l[i]? = some r → (0 :: zs ++ [1])[i]? = some u → (0 :: zs ++ [1])[i + 1]? = some v →
      PartOf s (box.modify d fun I => (I.1 + (I.2 - I.1) * u, I.1 + (I.2 - I.1) * v)) r
  | elevate {box a d r} : PartOf s box a → d < s.degrees.length → Spline.orderElevate K a d = .ok r →
      size (a.degrees.modify d (· + 1)) < 2 ^ 31 → PartOf s box r

/-- The parameter in the box that corresponds to the parameter `t` of the part. -/
def inBox (box : List (K × K)) (t : List K) : List K := List.zipWith (fun I x => I.1 + (I.2 - I.1) * x) box t

/-- The length of the box in direction `d`. -/
def width (box : List (K × K)) (d : ℕ) : K := (box.getD d (0, 0)).2 - (box.getD d (0, 0)).1

end Bezman.Spec
