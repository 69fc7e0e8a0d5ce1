import Verif.Model.Spline
import Verif.Spec.Bezier

/-! # Specification vocabulary for splines -/

namespace Bezman
open Spec

/-- `index_offsets` as they should be: entry `d` is the product of `p_e + 1` over
the dimensions `e < d`. -/
def Spec.offsetsOf (degrees : List ℕ) : List ℕ :=
  (List.range degrees.length).map (fun d => size (degrees.take d))

namespace Spline
variable {K V : Type}

/-- A spline whose bookkeeping is consistent (every constructor except the default
one produces such a spline, see C06). -/
structure WF (s : Spline V) : Prop where
  dim_pos : 0 < s.degrees.length
  ncp_eq : s.ncp = size s.degrees
  offsets_eq : s.offsets = offsetsOf s.degrees
  cps_len : s.cps.length = size s.degrees

/-- The function a spline stands for. The default value of `getD` is never used for
a consistent spline. -/
def value [CommRing K] [AddCommMonoid V] [Module K V] (s : Spline V) (t : List K) : V :=
  bezier s.degrees t (fun idx => s.cps.getD (flatIndex s.degrees idx) 0)

end Spline
end Bezman
