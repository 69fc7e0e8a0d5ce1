import Verif.Model.Point
import Mathlib.Data.List.FinRange

/-! # Specification: a point as a parameter tuple -/

namespace Bezman

/-- The coordinates of `w`, in order, as a list. -/
def Spec.coordList (K : Type) {W : Type} [Coords K W] (w : W) : List K :=
  (List.finRange (Coords.n K W)).map (fun j => Coords.coord w j)

theorem Spec.coordList_length {K W : Type} [Coords K W] (w : W) :
    (Spec.coordList K w).length = Coords.n K W := by simp [Spec.coordList]

end Bezman
