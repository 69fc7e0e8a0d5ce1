import Verif.Model.Spline

/-! # Splitting -/

namespace Bezman
namespace Spline
variable {K V : Type}

section
variable [Zero K] [One K] [Sub K] [LT K] [DecidableLT K] [Add V] [SMul K V]

/-- `SplitAtPosition(scalar, dimension)`, src/bezier_spline.inc:1323-1416. -/
def splitAt (s : Spline V) (plane : K) (sd : Nat) : M (Spline V × Spline V) := do
  if ¬ (0 < plane ∧ plane < 1) then .error .throws
  else do
    let p ← rd s.degrees sd
    let ctps_per_layer := s.ncp / (p + 1)
    let factor := plane
    let inv_factor := 1 - plane
    let off ← rd s.offsets sd
    let group_offset := off * (p + 1)
    let r ← loop ctps_per_layer (fun start_point_id (r : List V × List V) => do
      let group_id ← divU start_point_id off
      let id_in_group ← modU start_point_id off
      let start := group_id * group_offset + id_in_group
      loopFrom 1 (p + 1) (fun i (r : List V × List V) => do
        let first ← loopDown (p + 1 - i) (fun j' first => do
          -- j runs from p down to i
          let j := j' + i
          let a ← rd first (start + (j - 1) * off)
          let b ← rd first (start + j * off)
          wr first (start + j * off) (inv_factor • a + factor • b)) r.1
        let x ← rd first (start + p * off)
        let second ← wr r.2 (start + (p - i) * off) x
        pure (first, second)) r) (s.cps, s.cps)
    pure ({ s with cps := r.1 }, { s with cps := r.2 })

/-- `std::is_sorted` with `operator<` -/
def isSorted : List K → Bool
  | [] => true
  | [_] => true
  | a :: b :: l => !decide (b < a) && isSorted (b :: l)

/-- `SplitAtPosition(std::vector, dimension)`, src/bezier_spline.inc:1418-1458. -/
def splitAtMany [Div K] (s : Spline V) (planes : List K) (sd : Nat) : M (List (Spline V)) := do
  if !isSorted planes then .error .throws
  else if planes.length = 0 then pure [s]
  else do
    let z0 ← rd planes 0
    let sp ← s.splitAt z0 sd
    let r ← loopFrom 1 planes.length (fun i (r : List (Spline V) × (Spline V × Spline V)) => do
      let z ← rd planes i
      let zp ← rd planes (i - 1)
      let rel := (z - zp) / (1 - zp)
      let sp ← r.2.2.splitAt rel sd
      pure (r.1 ++ [sp.1], sp)) ([sp.1], sp)
    pure (r.1 ++ [r.2.2])

end
end Spline
end Bezman
