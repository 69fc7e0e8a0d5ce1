import Mathlib.Analysis.Calculus.IteratedDeriv.Defs

/-! # Specification of mixed partial derivatives -/

namespace Bezman.Spec

/-- Mixed partial derivative of order `k = (k_1, …, k_d)` of a function of
`(t_1, …, t_d)`, in terms of Mathlib's one-variable `iteratedDeriv`. -/
noncomputable def pderiv {𝕜 V : Type} [NontriviallyNormedField 𝕜] [NormedAddCommGroup V]
    [NormedSpace 𝕜 V] : List ℕ → (List 𝕜 → V) → List 𝕜 → V
  | k :: ks, f, t :: ts => iteratedDeriv k (fun x => pderiv ks (fun xs => f (x :: xs)) ts) t
  | _, f, t => f t

end Bezman.Spec
