import Verif.Model.Rational

/-! # `RationalBezierSpline`: derivatives -/

namespace Bezman

/-! The lambdas of `EvaluateDerivative`, repeated in `BasisFunctionsDerivatives`. -/

/-- `local_ids_`, src/rational_bezier_spline.inc:232-243 and 336-347. Simplification:
`nth_derivs[i] + 1` is taken not to wrap at 2^64. -/
def derivLocalIds (nth_derivs : List Nat) (req_id : Nat) : M (List Nat) := do
  let r ← loop nth_derivs.length (fun i (r : Nat × List Nat) => do
    let k ← rd nth_derivs i
    if k = 0 then pure r
    else do
      let l := r.1 % (k + 1)
      let local_ids ← wr r.2 i l
      pure ((r.1 - l) / (k + 1), local_ids)) (req_id, List.replicate nth_derivs.length 0)
  pure r.2

/-- `global_ids_`, src/rational_bezier_spline.inc:246-259 and 350-363. Simplification:
the sums and products are taken not to wrap at 2^64 (the result is the length of a
vector that is allocated). -/
def derivGlobalId (nth_derivs req_derivs : List Nat) : M Nat := do
  let r ← loop nth_derivs.length (fun i (r : Nat × Nat) => do
    let k ← rd nth_derivs i
    if k = 0 then pure r
    else do
      let q ← rd req_derivs i
      pure (r.1 + r.2 * q, if k > 0 then r.2 * (k + 1) else r.2)) (0, 1)
  pure r.1

/-- `is_not_subset_`, src/rational_bezier_spline.inc:262-270 and 366-374. -/
def derivNotSubset (req_derivs_max req_derivs : List Nat) : Bool :=
  (List.zip req_derivs_max req_derivs).any (fun q => decide (q.2 > q.1))

/-- `binom_fact`, src/rational_bezier_spline.inc:307-312 and 415-420; a `size_t`
product, which wraps at 2^64. -/
def derivBinom (cfg : Cfg) (lhs rhs : List Nat) : M Nat :=
  loop lhs.length (fun i b => do
    let n ← rd lhs i
    let k ← rd rhs i
    let c ← choose cfg n k
    pure (mul64 b c)) 1

namespace RSpline
variable {K V : Type}

section
variable [Zero K] [One K] [Add K] [Sub K] [Mul K] [Neg K] [Div K] [NatCast K] [BEq K]

/-- The loop over all derivatives, src/rational_bezier_spline.inc:293-319, and, applied
to the values of all basis functions, 401-432. `sub` is `-=` and `scale` is scalar
multiplication of the entries: points in the first case, vectors of scalars in the
second. -/
def derivRecursion {X : Type} (cfg : Cfg) (nth_derivs : List Nat) (n : Nat) (sub : X → K → X → M X)
    (scale : K → X → M X) (A : List X) (w : List K) (inv_w : K) (zero : X) : M (List X) :=
  loop n (fun i D => do
    let lhs ← derivLocalIds nth_derivs i
    let a ← rd A i
    let D ← wr D i a
    let D ← loopFrom 1 (i + 1) (fun j D => do
      let rhs ← derivLocalIds nth_derivs j
      if derivNotSubset lhs rhs then pure D
      else do
        let binom_fact ← derivBinom cfg lhs rhs
        let wj ← rd w j
        let dij ← rd D (i - j)
        let di ← rd D i
        let di ← sub di ((binom_fact : K) * wj) dij
        wr D i di) D
    let di ← rd D i
    let di ← scale inv_w di
    wr D i di) (List.replicate n zero)

/-- `EvaluateDerivative`, src/rational_bezier_spline.inc:219-322. -/
def evaluateDerivative [Zero V] [Add V] [Sub V] [SMul K V] (cfg : Cfg) (r : RSpline K V) (t : List K)
    (nth_derivs : List Nat) : M V := do
  let g ← derivGlobalId nth_derivs nth_derivs
  let n := g + 1
  let aw ← loop n (fun i (aw : List V × List K) => do
    let req ← derivLocalIds nth_derivs i
    let x ← r.num.evaluateDerivative cfg t req
    let A ← wr aw.1 i x
    let y ← r.wt.evaluateDerivative cfg t req
    let w ← wr aw.2 i y
    pure (A, w)) (List.replicate n 0, List.replicate n 0)
  let w0 ← rd aw.2 0
  let inv_w ← divM (1 : K) w0
  let D ← derivRecursion cfg nth_derivs n (fun di c dij => pure (di - c • dij)) (fun c di => pure (c • di))
    aw.1 aw.2 inv_w 0
  rd D (n - 1)

/-- `BasisFunctionsDerivatives`, src/rational_bezier_spline.inc:324-435. Simplification:
the row of index `i_deriv` is updated in a local copy that is then written back. -/
def basisFunctionsDerivatives (cfg : Cfg) (r : RSpline K V) (t : List K) (nth_derivs : List Nat) :
    M (List K) := do
  let g ← derivGlobalId nth_derivs nth_derivs
  let n := g + 1
  let nb := r.num.ncp
  let aw ← loop n (fun i (aw : List (List K) × List K) => do
    let req ← derivLocalIds nth_derivs i
    let row ← r.num.basisFunctionsDerivatives cfg t req
    let w0 ← rd aw.2 i
    let rw ← loop nb (fun b (rw : List K × K) => do
      let weight ← rd r.wt.cps b
      let x ← rd rw.1 b
      let row ← wr rw.1 b (x * weight)
      pure (row, rw.2 + weight * x)) (row, w0)
    let A ← wr aw.1 i rw.1
    let w ← wr aw.2 i rw.2
    pure (A, w)) (List.replicate n [], List.replicate n 0)
  let w0 ← rd aw.2 0
  let inv_w ← divM (1 : K) w0
  let D ← derivRecursion cfg nth_derivs n
    (fun di c dij => loop nb (fun b di => do
      let x ← rd di b
      let y ← rd dij b
      wr di b (x - c * y)) di)
    (fun c di => loop nb (fun b di => do
      let x ← rd di b
      wr di b (x * c)) di)
    aw.1 aw.2 inv_w []
  rd D (n - 1)

end

section
variable [Zero K] [One K] [Add K] [Sub K] [Mul K] [Neg K] [Div K] [NatCast K] [Zero V] [Add V] [Sub V] [SMul K V]

/-- one round of the loop in `DerivativeWRTParametricDimension`,
src/rational_bezier_spline.inc:528-543 -/
def derivativeStep (cfg : Cfg) (r : RSpline K V) (d : Nat) : M (RSpline K V) := do
  let order ← wr (List.replicate r.dim 0) d 1
  let du ← Spline.derivativeSpline K cfg r.num order
  let a ← mulWeight' cfg du r.wt
  let dw ← Spline.derivativeSpline K cfg r.wt order
  let b ← mulWeight cfg dw r.num
  let c ← Spline.subOp K cfg a b
  let n ← Spline.orderElevate K c d
  let w ← Spline.mulScalar cfg r.wt r.wt
  ofSplines n w

/-- `DerivativeWRTParametricDimension`, src/rational_bezier_spline.inc:508-546. -/
def derivativeSpline (cfg : Cfg) (r : RSpline K V) (orders : List Nat) : M (RSpline K V) :=
  loop r.dim (fun d r => do
    let o ← rd orders d
    loop o (fun _ r => derivativeStep cfg r d) r) r

end
end RSpline
end Bezman
