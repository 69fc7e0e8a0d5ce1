import Verif.Model.Spline

/-! # Order elevation and derivative splines -/

namespace Bezman
namespace Spline
variable {K V : Type}

/-- decrement of an `unsigned int` -/
def dec32 (g : Nat) : Nat := if g = 0 then 2 ^ 32 - 1 else g - 1

section
variable [One K] [Sub K] [Mul K] [Div K] [NatCast K] [Zero V] [Add V] [SMul K V]

/-- one pass of the three innermost loops of order elevation,
src/bezier_spline.inc:184-190, 198-210, 214-220: compute a value from the current
memory, store it at `global_index`, decrement `global_index`. -/
def elevStore (value : List V → M V) (st : List V × Nat) : M (List V × Nat) := do
  let x ← value st.1
  let mem ← wr st.1 st.2 x
  pure (mem, dec32 st.2)

variable (K) in
/-- `OrderElevateAlongParametricDimension`, src/bezier_spline.inc:149-227.
`int`/`unsigned int` locals go through `narrow`; log output is omitted. -/
def orderElevate (s : Spline V) (par_dim : Nat) : M (Spline V) := do
  let p ← rd s.degrees par_dim
  let off ← rd s.offsets par_dim
  let n_starting_points ← narrow (s.ncp / (p + 1))
  let starting_point_offset ← narrow (off * (p + 1))
  let starting_points_per_group ← narrow off
  let n_groups ← divU n_starting_points starting_points_per_group
  let ncp := s.ncp / (p + 1) * (p + 2)
  let mem := resize s.cps ncp
  let degrees ← wr s.degrees par_dim (p + 1)
  let global_index ← narrow (ncp - 1)
  let inverse_factor : K := 1 / ((p + 1 : Nat) : K)
  let variable_offset_factor := off * p
  let st ← loopDown n_groups (fun group_index (st : List V × Nat) => do
    let first ← narrow (group_index * starting_point_offset)
    let st ← loopDown starting_points_per_group (fun k st =>
      elevStore (fun mem => rd mem (first + k + variable_offset_factor)) st) st
    let st ← loopDown p (fun i' st =>
      -- i runs from p down to 1
      let i := i' + 1
      loopDown starting_points_per_group (fun k st =>
        let factor : K := (i : K) * inverse_factor
        elevStore (fun mem => do
          let a ← rd mem (first + k + off * i)
          let b ← rd mem (first + k + off * (i - 1))
          pure ((1 - factor) • a + factor • b)) st) st) st
    loopDown starting_points_per_group (fun k st =>
      elevStore (fun mem => rd mem (first + k)) st) st) (mem, global_index)
  let offsets ← updateIndexOffsets degrees s.offsets
  pure ⟨degrees, ncp, offsets, st.1⟩

end

section
variable [One K] [Neg K] [Mul K] [NatCast K] [Zero V] [Add V] [SMul K V]

/-- lambda `compute_number_of_control_points`, src/bezier_spline.inc:252-258
(`size_t` arithmetic wraps). -/
def count64 (new_degrees : List Nat) : Nat :=
  new_degrees.foldl (fun n d => mul64 n (add64 d 1)) 1

/-- lambda `global_id_with_new_degrees`, src/bezier_spline.inc:261-270. -/
def globalIdWith (new_degrees : List Nat) (global_id : Nat) : M (List Nat) := do
  let d0 ← rd new_degrees 0
  let m0 ← modU global_id (add64 d0 1)
  let idx ← wr (List.replicate new_degrees.length 0) 0 m0
  let r ← loopFrom 1 new_degrees.length (fun i (r : List Nat × Nat) => do
    let dp ← rd new_degrees (i - 1)
    let g ← divU r.2 (add64 dp 1)
    let d ← rd new_degrees i
    let m ← modU g (add64 d 1)
    let idx ← wr r.1 i m
    pure (idx, g)) (idx, global_id)
  pure r.1

/-- constructor from degrees, src/bezier_spline.hpp:186-194, with the wrap-around of
`size_t` (elsewhere the model uses `ofDegrees`, the same without wrap-around; here
the degrees may be the result of an underflow). The stored offsets (src/bezier_spline.inc:25-32)
wrap as well. -/
def ofDegrees64 (deg : List Nat) : M (Spline V) := do
  let n := count64 deg
  let cps := resize ([] : List V) n
  let o ← wr (List.replicate deg.length 0) 0 1
  let o ← loopFrom 1 deg.length (fun i o => do
    let a ← rd o (i - 1)
    let d ← rd deg (i - 1)
    wr o i (mul64 a (add64 d 1))) o
  pure ⟨deg, n, o, cps⟩

variable (K) in
/-- `DerivativeWRTParametricDimension`, src/bezier_spline.inc:229-326; log output
is omitted.  `p - i` in the factor (line 286) and the degree subtraction (279)
wrap at 2^64, as in the code. -/
def derivativeSpline (cfg : Cfg) (s : Spline V) (orders : List Nat) : M (Spline V) := do
  let r ← loop s.dim (fun d (r : List Nat × List V) => do
    let o ← rd orders d
    if o = 0 then pure r
    else do
      let nd ← rd r.1 d
      let new_degrees ← wr r.1 d (sub64 nd o)
      let p ← rd s.degrees d
      let factor ← loopFrom 1 o (fun i (f : K) => pure (f * ((sub64 p i : Nat) : K))) ((p : Nat) : K)
      let pts ← loop (count64 new_degrees) (fun i_point pts => do
        let multi_index ← globalIdWith new_degrees i_point
        let i_point_index ← s.globalToLocal multi_index
        let q ← loopFrom 1 (o + 1) (fun j (q : List Nat × List V) => do
          let m ← rd q.1 d
          let multi_index ← wr q.1 d (m + 1)
          let c ← choose cfg o j
          let local_coefficient : K := (if j % 2 = 0 then 1 else -1) * ((c : Nat) : K)
          let x ← rd q.2 i_point_index
          let k ← s.globalToLocal multi_index
          let y ← rd q.2 k
          let pts ← wr q.2 i_point_index (x + local_coefficient • y)
          pure (multi_index, pts)) (multi_index, pts)
        let x ← rd q.2 i_point_index
        wr q.2 i_point_index (((if o % 2 = 0 then 1 else -1) * factor : K) • x)) r.2
      pure (new_degrees, pts)) (s.degrees, s.cps)
  let derivative ← ofDegrees64 (V := V) r.1
  let cps ← loop derivative.ncp (fun i cps => do
    let g ← derivative.localToGlobal i
    let k ← s.globalToLocal g
    let x ← rd r.2 k
    wr cps i x) derivative.cps
  pure { derivative with cps := cps }

end
end Spline
end Bezman
