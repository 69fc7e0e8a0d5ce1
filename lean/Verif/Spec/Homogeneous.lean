import Verif.Spec.Affine
import Verif.Model.Rational

/-! # Homogeneous coordinates -/

namespace Bezman
variable {K V : Type}

/-- The rational spline with the given homogeneous control points: the control point `(w P, w)` stands for the point `P` with
weight `w`. -/
def RSpline.ofHom (H : Spline (V × K)) : RSpline K V := ⟨H.map Prod.fst, H.map Prod.snd⟩

end Bezman
