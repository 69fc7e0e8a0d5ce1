import Verif.Spec.Bend
import Verif.Spec.RComputes

/-! # Specification: parts of a rational spline -/

namespace Bezman.Spec
variable {K V : Type} [Field K] [LinearOrder K] [AddCommGroup V] [Module K V]

/-- `RPartOf r box a`: the rational spline `a` was obtained from `r` by any number of splits (at one or at several positions) and degree
elevations (below the limit of 2^31 control points, see C12), and is the part over the box given by its intervals. -/
inductive RPartOf (r : RSpline K V) : List (K × K) → RSpline K V → Prop
  | whole : RPartOf r (List.replicate r.num.degrees.length (0, 1)) r
  | left {box a b c d z} : RPartOf r box a → d < r.num.degrees.length → a.splitAt z d = .ok (b, c) →
      RPartOf r (box.modify d fun I => (I.1, I.1 + (I.2 - I.1) * z)) b
  | right {box a b c d z} : RPartOf r box a → d < r.num.degrees.length → a.splitAt z d = .ok (b, c) →
      RPartOf r (box.modify d fun I => (I.1 + (I.2 - I.1) * z, I.2)) c
  | many {box a l d b} {zs : List K} {i : ℕ} {u v : K} : RPartOf r box a → d < r.num.degrees.length → a.splitAtMany zs d = .ok l →
      l[i]? = some b → (0 :: zs ++ [1])[i]? = some u → (0 :: zs ++ [1])[i + 1]? = some v →
      RPartOf r (box.modify d fun I => (I.1 + (I.2 - I.1) * u, I.1 + (I.2 - I.1) * v)) b
  | elevate {box a d b} : RPartOf r box a → d < r.num.degrees.length → a.orderElevate d = .ok b →
      size (a.num.degrees.modify d (· + 1)) < 2 ^ 31 → RPartOf r box b

end Bezman.Spec
