import Verif.Spec.RConverge

/-! # Specification: splines whose control points are near to each other, and the same operations on both -/

namespace Bezman.Spec
variable {K V : Type} [Field K] [LinearOrder K] [AddCommGroup V] [Module K V]

/-- The splines have the same degrees, and control points with the same index have at most the distance `ε`. -/
def Near (N : V → K) (ε : K) (s s' : Spline V) : Prop :=
  s'.degrees = s.degrees ∧ ∀ (idx : List ℕ) (x x' : V), ValidIdx s.degrees idx → s.controlPoint idx = .ok x → s'.controlPoint idx = .ok x' →
    N (x - x') ≤ ε

/-- `SameParts s s' box a a'`: `a` and `a'` were obtained from `s` and `s'` by the same splits (at one or several positions) and elevations,
and are the parts over the box. -/
inductive SameParts (s s' : Spline V) : List (K × K) → Spline V → Spline V → Prop
  | whole : SameParts s s' (List.replicate s.degrees.length (0, 1)) s s'
  | left {box a a' l r l' r' d z} : SameParts s s' box a a' → d < s.degrees.length → a.splitAt z d = .ok (l, r) → a'.splitAt z d = .ok (l', r') →
      SameParts s s' (box.modify d fun I => (I.1, I.1 + (I.2 - I.1) * z)) l l'
  | right {box a a' l r l' r' d z} : SameParts s s' box a a' → d < s.degrees.length → a.splitAt z d = .ok (l, r) → a'.splitAt z d = .ok (l', r') →
      SameParts s s' (box.modify d fun I => (I.1 + (I.2 - I.1) * z, I.2)) r r'
  | many {box a a' l l' d r r'} {zs : List K} {i : ℕ} {u v : K} : SameParts s s' box a a' → d < s.degrees.length → a.splitAtMany zs d = .ok l →
      a'.splitAtMany zs d = .ok l' → l[i]? = some r → l'[i]? = some r' → (0 :: zs ++ [1])[i]? = some u → (0 :: zs ++ [1])[i + 1]? = some v →
      SameParts s s' (box.modify d fun I => (I.1 + (I.2 - I.1) * u, I.1 + (I.2 - I.1) * v)) r r'
  | elevate {box a a' d r r'} : SameParts s s' box a a' → d < s.degrees.length → Spline.orderElevate K a d = .ok r →
      Spline.orderElevate K a' d = .ok r' → size (a.degrees.modify d (· + 1)) < 2 ^ 31 → SameParts s s' box r r'

/-- The same for rational splines. -/
inductive SameRParts (s s' : RSpline K V) : List (K × K) → RSpline K V → RSpline K V → Prop
  | whole : SameRParts s s' (List.replicate s.num.degrees.length (0, 1)) s s'
  | left {box a a' l r l' r' d z} : SameRParts s s' box a a' → d < s.num.degrees.length → a.splitAt z d = .ok (l, r) → a'.splitAt z d = .ok (l', r') →
      SameRParts s s' (box.modify d fun I => (I.1, I.1 + (I.2 - I.1) * z)) l l'
  | right {box a a' l r l' r' d z} : SameRParts s s' box a a' → d < s.num.degrees.length → a.splitAt z d = .ok (l, r) → a'.splitAt z d = .ok (l', r') →
      SameRParts s s' (box.modify d fun I => (I.1 + (I.2 - I.1) * z, I.2)) r r'
  | many {box a a' l l' d r r'} {zs : List K} {i : ℕ} {u v : K} : SameRParts s s' box a a' → d < s.num.degrees.length → a.splitAtMany zs d = .ok l →
      a'.splitAtMany zs d = .ok l' → l[i]? = some r → l'[i]? = some r' → (0 :: zs ++ [1])[i]? = some u → (0 :: zs ++ [1])[i + 1]? = some v →
      SameRParts s s' (box.modify d fun I => (I.1 + (I.2 - I.1) * u, I.1 + (I.2 - I.1) * v)) r r'
  | elevate {box a a' d r r'} : SameRParts s s' box a a' → d < s.num.degrees.length → a.orderElevate d = .ok r →
      a'.orderElevate d = .ok r' → size (a.num.degrees.modify d (· + 1)) < 2 ^ 31 → SameRParts s s' box r r'

end Bezman.Spec
