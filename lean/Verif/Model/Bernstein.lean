import Verif.Model.Binomial
import Mathlib.Data.Nat.Cast.Defs

/-! # Bernstein polynomials and the tensor product of their values -/

namespace Bezman

section
variable {K : Type} [Zero K] [One K] [Add K] [Sub K] [Mul K] [Neg K] [NatCast K]

/-- `BernsteinPolynomial::Evaluate`, src/utils/algorithms/bernstein_polynomial.hpp:52-82. -/
def bernsteinEvaluate (cfg : Cfg) (degree : Nat) (value : K) : M (List K) := do
  assertM (degree < cfg.maxBinom)
  let inv_value := 1 - value
  let r ← loop (degree + 1) (fun i (r : List K × K) => do
    let c ← choose cfg degree i
    pure (r.1 ++ [(c : K) * r.2], r.2 * value)) ([], 1)
  let r ← loop (degree + 1) (fun i (r : List K × K) => do
    let e ← rd r.1 (degree - i)
    let ev ← wr r.1 (degree - i) (e * r.2)
    pure (ev, r.2 * inv_value)) (r.1, 1)
  pure r.1

/-- `BernsteinPolynomial::EvaluateDerivative`,
src/utils/algorithms/bernstein_polynomial.hpp:92-135.  `k_min` (lines 121-122)
is computed in C++ as `max(0, int(i + deriv - degree))`, which is truncated
subtraction for values below 2^31. -/
def bernsteinEvaluateDerivative (cfg : Cfg) (degree : Nat) (value : K) (deriv : Nat) :
    M (List K) := do
  assertM (degree < cfg.maxBinom)
  if degree < deriv then pure (List.replicate (degree + 1) 0)
  else if deriv = 0 then bernsteinEvaluate cfg degree value
  else do
    let basis ← bernsteinEvaluate cfg (degree - deriv) value
    let aux ← loop deriv (fun k v => pure (v * ((degree - k : Nat) : K))) (1 : K)
    loop (degree + 1) (fun i ev => do
      let ev ← loopFrom (i + deriv - degree) (min i deriv + 1) (fun k ev => do
        let c ← choose cfg deriv k
        let b ← rd basis (i - k)
        let eval_v := (c : K) * b
        let e ← rd ev i
        wr ev i (e + (if (k + deriv) % 2 = 1 then -eval_v else eval_v))) ev
      let e ← rd ev i
      wr ev i (e * aux)) (List.replicate (degree + 1) 0)

/-- `RecursiveCombine_`, src/utils/algorithms/recursive_combine.hpp:14-31. -/
def recursiveCombine_ : Nat → List (List K) → List K → K → M (List K)
  | 0, factors, result, c_value => do
    let f ← rd factors 0
    loop f.length (fun i r => do
      let x ← rd f i
      pure (r ++ [c_value * x])) result
  | k + 1, factors, result, c_value => do
    let f ← rd factors (k + 1)
    loop f.length (fun i r => do
      let x ← rd f i
      recursiveCombine_ k factors r (c_value * x)) result

/-- `RecursiveCombine`, src/utils/algorithms/recursive_combine.hpp:40-58 (the
`reserve` is omitted). -/
def recursiveCombine (factors : List (List K)) : M (List K) :=
  recursiveCombine_ (factors.length - 1) factors [] 1

end

end Bezman
