import Verif.Model.AlgoDiff

/-! # `AlgoDiffType<K, n>` as the number type of splines

With a static number `n` of derivatives all objects have the same number of derivatives, so the assertions of the operators cannot
fail, and the operators are total functions.  `K` is a built-in number type with any arithmetic.

Simplifications: literals such as `1.` and integers are converted to `AlgoDiffType` before they are used (the mixed operators compute
the same values and derivatives up to the sign of zero). -/

namespace Bezman

/-- `AlgoDiffType<K, n>`: `v_` and `d_`, algo_diff_type.hpp:95-101. -/
structure Dual (K : Type) (n : Nat) where
  /-- `v_`, `GetValue()` -/
  v : K
  /-- `d_`, `GetDerivatives()` -/
  d : Fin n → K

namespace Dual
variable {K : Type} {n : Nat}

/-- `AlgoDiffType{}`, algo_diff_type.hpp:111 -/
instance [Zero K] : Zero (Dual K n) := ⟨⟨0, fun _ => 0⟩⟩
/-- `AlgoDiffType(1.)`, algo_diff_type.hpp:123-124 -/
instance [Zero K] [One K] : One (Dual K n) := ⟨⟨1, fun _ => 0⟩⟩
/-- `AlgoDiffType(m)`, algo_diff_type.hpp:123-124 -/
instance [Zero K] [NatCast K] : NatCast (Dual K n) := ⟨fun m => ⟨m, fun _ => 0⟩⟩
/-- `operator+`, algo_diff_type.inc:31-48 -/
instance [Add K] : Add (Dual K n) := ⟨fun a b => ⟨a.v + b.v, fun i => a.d i + b.d i⟩⟩
/-- `operator-`, algo_diff_type.inc:79-96 -/
instance [Sub K] : Sub (Dual K n) := ⟨fun a b => ⟨a.v - b.v, fun i => a.d i - b.d i⟩⟩
/-- unary `operator-`, algo_diff_type.inc:68-75 -/
instance [Neg K] : Neg (Dual K n) := ⟨fun a => ⟨-a.v, fun i => -a.d i⟩⟩
/-- `operator*`, algo_diff_type.inc:115-133 -/
instance [Add K] [Mul K] : Mul (Dual K n) := ⟨fun a b => ⟨a.v * b.v, fun i => b.d i * a.v + b.v * a.d i⟩⟩
/-- `operator/`, algo_diff_type.inc:156-175 -/
instance [One K] [Sub K] [Mul K] [Div K] : Div (Dual K n) :=
  ⟨fun a b => ⟨a.v / b.v, fun i => (b.v * a.d i - b.d i * a.v) * (1 / (b.v * b.v))⟩⟩
/-- `operator<`, algo_diff_type.hpp:288: the values are compared -/
instance [LT K] : LT (Dual K n) := ⟨fun a b => a.v < b.v⟩
instance [LT K] [DecidableLT K] : DecidableLT (Dual K n) := fun a b => inferInstanceAs (Decidable (a.v < b.v))
/-- `operator==`, algo_diff_type.hpp:300: the values are compared -/
instance [BEq K] : BEq (Dual K n) := ⟨fun a b => a.v == b.v⟩

/-- The object, as it is modelled in `ADT`. -/
def toADT (a : Dual K n) : ADT K := ⟨a.v, List.ofFn a.d⟩

end Dual
end Bezman
