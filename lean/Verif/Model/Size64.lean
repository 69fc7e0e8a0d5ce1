import Verif.Model.RationalDeriv

/-! # The derivative of a rational spline with the wrap-around of `size_t`

`RSpline.derivativeStep` of `Model/RationalDeriv.lean` adds degrees and multiplies numbers of control points without
wrap-around. In a direction of degree zero the derivative of the numerator has the degree `2^64 - 1`
(`Spline.derivativeSpline` wraps as the code does), and from then on the wrap-around decides what happens. The functions
here repeat the four that follow it, with every sum and product of `size_t` taken modulo `2^64`. -/

namespace Bezman
namespace Spline
variable {K V W U : Type}

/-- `UpdateIndexOffsets_`, src/bezier_spline.inc:25-32, with the wrap-around of `size_t`. -/
def updateIndexOffsets64 (degrees index_offsets : List Nat) : M (List Nat) := do
  let o ← wr index_offsets 0 1
  loopFrom 1 degrees.length (fun i o => do
    let a ← rd o (i - 1)
    let d ← rd degrees (i - 1)
    wr o i (mul64 a (add64 d 1))) o

/-- constructor from degrees and points, src/bezier_spline.hpp:197-207, with the wrap-around of `size_t`. -/
def ofPoints64 (deg : List Nat) (points : List V) : M (Spline V) := do
  let n := count64 deg
  let o ← updateIndexOffsets64 deg (List.replicate deg.length 0)
  assertM (n == points.length)
  pure ⟨deg, n, o, points⟩

section
variable [One K] [Sub K] [Mul K] [Div K] [NatCast K] [Zero V] [Add V] [SMul K V]

variable (K) in
/-- `OrderElevateAlongParametricDimension`, src/bezier_spline.inc:149-227, with the wrap-around of `size_t`: the
divisions of lines 156 and 163 are by `degrees[par_dim] + 1` modulo `2^64`, and a division by zero is undefined
behaviour. The indices into the control points (lines 184-220) are those of `orderElevate`. -/
def orderElevate64 (s : Spline V) (par_dim : Nat) : M (Spline V) := do
  let p ← rd s.degrees par_dim
  let off ← rd s.offsets par_dim
  let rows ← divU s.ncp (add64 p 1)
  let n_starting_points ← narrow rows
  let starting_point_offset ← narrow (mul64 off (add64 p 1))
  let starting_points_per_group ← narrow off
  let n_groups ← divU n_starting_points starting_points_per_group
  let ncp := mul64 rows (add64 p 2)
  let mem := resize s.cps ncp
  let degrees ← wr s.degrees par_dim (add64 p 1)
  let global_index ← narrow (ncp - 1)
  let inverse_factor : K := 1 / ((add64 p 1 : Nat) : K)
  let variable_offset_factor := mul64 off p
  let st ← loopDown n_groups (fun group_index (st : List V × Nat) => do
    let first ← narrow (group_index * starting_point_offset)
    let st ← loopDown starting_points_per_group (fun k st =>
      elevStore (fun mem => rd mem (first + k + variable_offset_factor)) st) st
    let st ← loopDown p (fun i' st =>
      let i := i' + 1
      loopDown starting_points_per_group (fun k st =>
        let factor : K := (i : K) * inverse_factor
        elevStore (fun mem => do
          let a ← rd mem (first + k + off * i)
          let b ← rd mem (first + k + off * (i - 1))
          pure ((1 - factor) • a + factor • b)) st) st) st
    loopDown starting_points_per_group (fun k st =>
      elevStore (fun mem => rd mem (first + k)) st) st) (mem, global_index)
  let offsets ← updateIndexOffsets64 degrees s.offsets
  pure ⟨degrees, ncp, offsets, st.1⟩

variable (K) in
/-- the loops that elevate the second operand of `operator-(spline)`, src/bezier_spline.inc:664-668, with the wrap-around
of `size_t`. -/
def elevateTo64 (cfg : Cfg) (s : Spline V) (target : List Nat) : M (Spline V) :=
  loop s.dim (fun d s =>
    whileM cfg.fuel (fun (s : Spline V) => do
      let t ← rd target d
      let p ← rd s.degrees d
      pure (decide (t > p))) (fun s => orderElevate64 K s d) s) s

variable (K) in
/-- `operator-(spline)`, src/bezier_spline.inc:642-674, with the wrap-around of `size_t`. -/
def subOp64 [Sub V] (cfg : Cfg) (s rhs : Spline V) : M (Spline V) := do
  let ret ← ofPoints64 s.degrees s.cps
  let ret ← loop s.dim (fun d ret =>
    whileM cfg.fuel (fun (_ : Spline V) => do
      let q ← rd rhs.degrees d
      let p ← rd s.degrees d
      pure (decide (q > p))) (fun ret => orderElevate64 K ret d) ret) ret
  let rhs ← elevateTo64 K cfg rhs s.degrees
  let cps ← zipCps s.ncp (· - ·) ret.cps rhs.cps
  pure { ret with cps := cps }

end

section
variable [One K] [Mul K] [Div K] [NatCast K] [Zero U] [Add U] [SMul K U]

variable (K) in
/-- `operator*(spline)`, src/bezier_spline.inc:873-906, with the wrap-around of `size_t` in the degrees and the number of
control points of the product. The sums of the recursion (60-105) are those of `combineForProduct`. -/
def mulOp64 (cfg : Cfg) (mul : V → W → U) (s : Spline V) (rhs : Spline W) : M (Spline U) := do
  let product_degrees ← loop s.dim (fun d l => do
    let p ← rd s.degrees d
    let q ← rd rhs.degrees d
    wr l d (add64 p q)) (List.replicate s.dim 0)
  let ret ← ofDegrees64 (V := U) product_degrees
  loop ret.ncp (fun i R => do
    let idx ← R.localToGlobal i
    combineForProduct cfg mul s rhs idx (s.dim - 1) (1 : K) [] R) ret

end
end Spline

namespace RSpline
variable {K V : Type} [Zero K] [One K] [Add K] [Sub K] [Mul K] [Neg K] [Div K] [NatCast K] [Zero V] [Add V] [Sub V] [SMul K V]

/-- one round of the loop in `DerivativeWRTParametricDimension`, src/rational_bezier_spline.inc:528-543, with the
wrap-around of `size_t`. -/
def derivativeStep64 (cfg : Cfg) (r : RSpline K V) (d : Nat) : M (RSpline K V) := do
  let order ← wr (List.replicate r.dim 0) d 1
  let du ← Spline.derivativeSpline K cfg r.num order
  let a ← Spline.mulOp64 K cfg (fun x (c : K) => c • x) du r.wt
  let dw ← Spline.derivativeSpline K cfg r.wt order
  let b ← Spline.mulOp64 K cfg (fun (c : K) x => c • x) dw r.num
  let c ← Spline.subOp64 K cfg a b
  let n ← Spline.orderElevate64 K c d
  let w ← Spline.mulOp64 K cfg (fun x y : K => x * y) r.wt r.wt
  ofSplines n w

/-- `DerivativeWRTParametricDimension`, src/rational_bezier_spline.inc:508-546, with the wrap-around of `size_t`. -/
def derivativeSpline64 (cfg : Cfg) (r : RSpline K V) (orders : List Nat) : M (RSpline K V) :=
  loop r.dim (fun d r => do
    let o ← rd orders d
    loop o (fun _ r => derivativeStep64 cfg r d) r) r

end RSpline
end Bezman
