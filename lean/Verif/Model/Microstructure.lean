import Verif.Model.Rational
import Mathlib.Data.Fin.VecNotation

/-! # The microstructure example

example/Microstructure/microstructure_build.cpp: a cross shaped tile of five patches is composed into every segment of a ring.
(The file itself does not compile: line 30 includes a header that does not exist and line 125 leaves out a template argument.  The
model is that of its text with the type `std::vector<RationalBezier>` in line 125.)

Numbers are any type with the operations of the code; `half` is the literal `0.5` (also written `.5`). -/

namespace Bezman.Microstructure
variable {K : Type}

/-- `Point2D{x, y}` -/
def pt (x y : K) : Point K 2 := ⟨![x, y]⟩

section
variable [Zero K] [One K] [Add K] [Sub K] [Mul K]

/-- `SimpleCrossTile`, example/Microstructure/microstructure_build.cpp:43-75. -/
def simpleCrossTile (half thickness : K) : M (List (Spline (Point K 2))) := do
  let lo := half - half * thickness
  let hi := half + half * thickness
  let ctps_center := [pt lo lo, pt hi lo, pt lo hi, pt hi hi]
  let ctps_left := [pt 0 lo, pt lo lo, pt 0 hi, pt lo hi]
  let ctps_right := [pt hi lo, pt 1 lo, pt hi hi, pt 1 hi]
  let ctps_down := [pt lo 0, pt hi 0, pt lo lo, pt hi lo]
  let ctps_up := [pt lo hi, pt hi hi, pt lo 1, pt hi 1]
  let center ← Spline.ofPoints [1, 1] ctps_center
  let left ← Spline.ofPoints [1, 1] ctps_left
  let right ← Spline.ofPoints [1, 1] ctps_right
  let down ← Spline.ofPoints [1, 1] ctps_down
  let up ← Spline.ofPoints [1, 1] ctps_up
  pure [center, left, right, down, up]

variable [Div K] [NatCast K] [BEq K]

/-- the functions of `<cmath>` the example calls -/
structure Libm (K : Type) where
  sin : K → K
  cos : K → K
  acos : K → K

/-- `CircleGroup`, example/Microstructure/microstructure_build.cpp:80-110.  `2.` is the natural number 2 converted, `acos(-1)` is
`acos minusOne`; the two divisions by numbers that may be zero are
errors of the model then (`divM`).  `segments` is not negative.  The vector of default constructed splines which are then assigned one by one is built by appending. -/
def circleGroup (m : Libm K) (half minusOne : K) (innerR outerR : K) (segments : Nat) (arc_degrees : K) :
    M (List (RSpline K (Point K 2))) := do
  let PI := m.acos minusOne
  let degrees_per_segment ← divM arc_degrees (segments : K)
  let single_weight := m.sin (PI / ((2 : Nat) : K) - degrees_per_segment / ((2 : Nat) : K))
  let outdor_fact ← divM (1 : K) single_weight
  let weights := [1, single_weight, 1, 1, single_weight, 1]
  loop segments (fun i_segment ringsegments => do
    let startsin := m.sin (degrees_per_segment * (i_segment : K))
    let startcos := m.cos (degrees_per_segment * (i_segment : K))
    let middlesin := m.sin (degrees_per_segment * ((i_segment : K) + half))
    let middlecos := m.cos (degrees_per_segment * ((i_segment : K) + half))
    let endsin := m.sin (degrees_per_segment * ((i_segment : K) + 1))
    let endcos := m.cos (degrees_per_segment * ((i_segment : K) + 1))
    let ctps := [pt (startcos * outerR) (startsin * outerR),
      pt (middlecos * outdor_fact * outerR) (middlesin * outdor_fact * outerR),
      pt (endcos * outerR) (endsin * outerR),
      pt (startcos * innerR) (startsin * innerR),
      pt (middlecos * outdor_fact * innerR) (middlesin * outdor_fact * innerR),
      pt (endcos * innerR) (endsin * innerR)]
    let segment ← RSpline.ofPoints [2, 1] ctps weights
    pure (ringsegments ++ [segment])) []

variable [Neg K] [LT K] [DecidableLT K]

/-- The loops of `main`, example/Microstructure/microstructure_build.cpp:124-132. -/
def composeAll (cfg : Cfg) (deformation_function : List (RSpline K (Point K 2))) (microtile : List (Spline (Point K 2))) :
    M (List (RSpline K (Point K 2))) :=
  deformation_function.foldlM (fun acc f =>
    microtile.foldlM (fun acc inner => do
      let c ← RSpline.compose cfg f inner
      pure (acc ++ [c])) acc) []

/-- `main`, example/Microstructure/microstructure_build.cpp:112-137, for any values of its constants. -/
def main (m : Libm K) (half minusOne : K) (cfg : Cfg) (innerRadius outerRadius : K) (n_segments : Nat) (arc_segment thickness : K) :
    M (List (RSpline K (Point K 2))) := do
  let microtile ← simpleCrossTile half thickness
  let deformation_function ← circleGroup m half minusOne innerRadius outerRadius n_segments arc_segment
  composeAll cfg deformation_function microtile

end
end Bezman.Microstructure
