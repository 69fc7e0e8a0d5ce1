import Verif.Model.Rational
import Verif.Spec.Faces

/-! # Specification: a common face of two rational patches -/

namespace Bezman

namespace Spec

/-- Two rational patches share the face: the weighted control points on it are identical, and so are the weights. -/
def RGlued {K V : Type} (d : ℕ) (sa sb : Bool) (a b : RSpline K V) : Prop := Glued d sa sb a.num b.num ∧ Glued d sa sb a.wt b.wt

end Spec

end Bezman
