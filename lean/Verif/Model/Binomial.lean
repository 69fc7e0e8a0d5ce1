import Verif.Model.Basic

/-! # Binomial lookup table -/

namespace Bezman

/-- Build-time and run-time parameters of the model: the macro
`MAX_BINOMIAL_DEGREE` (src/utils/fastbinomialcoefficient.hpp:33-35, default 30,
the tests use 62) and the number of rounds after which a `while` loop is
reported as `Err.outOfFuel`. -/
structure Cfg where
  maxBinom : Nat
  fuel : Nat

/-- `BinomialCoefficientLookupTableCreator::calculate_table`,
src/utils/binomialcoefficientlookuptablecreator.hpp:38-58 with
`Scalar = std::size_t` (additions wrap at 2^64). -/
def binomTable (max : Nat) : M (List Nat) := do
  let tbl ← wr (List.replicate (max * (max + 1) / 2) 0) 0 1
  loop max (fun i tbl =>
    let offset := i * (i + 1) / 2
    loop (i + 1) (fun j tbl =>
      if i = j ∨ j = 0 then wr tbl (offset + j) 1
      else do
        let a ← rd tbl (offset - i + j - 1)
        let b ← rd tbl (offset - i + j)
        wr tbl (offset + j) (add64 a b)) tbl) tbl

/-- `FastBinomialCoefficient::choose`, src/utils/fastbinomialcoefficient.hpp:62-66.
The table is a compile-time constant in C++; here it is recomputed.
Simplification: `unsigned int` index arithmetic is taken not to wrap. -/
def choose (cfg : Cfg) (n i : Nat) : M Nat := do
  assertM (n < cfg.maxBinom)
  let tbl ← binomTable cfg.maxBinom
  rd tbl (n * (n + 1) / 2 + i)

end Bezman
