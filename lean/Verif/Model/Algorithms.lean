import Verif.Model.Basic

/-! # Model of src/utils/algorithms/sort.hpp and src/utils/algorithms/int_power.hpp -/

namespace Bezman.Algorithms

/-! ## IndexListSort -/

/-- Inserts `x` behind all entries that it is not smaller than. -/
def insertStable (less : Nat → Nat → M Bool) (x : Nat) : List Nat → M (List Nat)
  | [] => pure [x]
  | y :: ys => do
    let b ← less x y
    if b then pure (x :: y :: ys)
    else do
      let r ← insertStable less x ys
      pure (y :: r)

/-- `std::stable_sort` as called in src/utils/algorithms/sort.hpp:41-42: a stable insertion
sort. (The result of a stable sort does not depend on the algorithm, see
`C53_unique`.) -/
def stableSort (less : Nat → Nat → M Bool) : List Nat → List Nat → M (List Nat)
  | [], sorted => pure sorted
  | x :: xs, sorted => do
    let s ← insertStable less x sorted
    stableSort less xs s

/-- `IndexListSort`, src/utils/algorithms/sort.hpp:38-45. `lt` is `operator<` of the
entries. -/
def indexListSort {T : Type} (lt : T → T → Bool) (v : List T) : M (List Nat) :=
  stableSort (fun i1 i2 => do
    let a ← rd v i1
    let b ← rd v i2
    pure (lt a b)) (List.range v.length) []

/-! ## IntPower -/

/-- An integer type of C++. -/
structure IntTy where
  signed : Bool
  bits : Nat

/-- the values of the type -/
def IntTy.InRange (T : IntTy) (x : Int) : Prop :=
  if T.signed then -2 ^ (T.bits - 1) ≤ x ∧ x < 2 ^ (T.bits - 1) else 0 ≤ x ∧ x < 2 ^ T.bits

instance (T : IntTy) (x : Int) : Decidable (T.InRange x) := by unfold IntTy.InRange; infer_instance

/-- conversion to the type: modulo `2^bits` -/
def IntTy.wrap (T : IntTy) (x : Int) : Int :=
  if T.signed then (x + 2 ^ (T.bits - 1)) % 2 ^ T.bits - 2 ^ (T.bits - 1) else x % 2 ^ T.bits

/-- result of an operation in the type: overflow of a signed type is undefined, an unsigned
type wraps -/
def IntTy.arith (T : IntTy) (x : Int) : M Int :=
  if T.signed then (if T.InRange x then .ok x else .error .ub) else .ok (T.wrap x)

/-- `int` -/
def cInt : IntTy := ⟨true, 32⟩
/-- `std::size_t` -/
def cSize : IntTy := ⟨false, 64⟩

/-- the type in which an operation between a value of type `T` and an `int` is carried
out -/
def IntTy.common (T : IntTy) : IntTy := if T.bits < 32 then cInt else T

/-- `IntPower`, src/utils/algorithms/int_power.hpp:33-46 -/
def intPower (T : IntTy) (base power : Int) : M Int :=
  if h0 : power = 0 then .ok 1
  else if _h1 : power = 1 then .ok base
  else do
    let r ← intPower T base (power.tdiv 2)
    let tmp := cInt.wrap r
    if power.tmod 2 = 0 then do
      let x ← cInt.arith (tmp * tmp)
      .ok (T.wrap x)
    else do
      let y ← T.common.arith (T.common.wrap base * T.common.wrap tmp)
      let z ← T.common.arith (y * T.common.wrap tmp)
      .ok (T.wrap z)
termination_by power.natAbs
decreasing_by
  rw [Int.natAbs_tdiv]
  have : power.natAbs ≠ 0 := by simpa using h0
  exact Nat.div_lt_self (by omega) (by decide)

end Bezman.Algorithms
