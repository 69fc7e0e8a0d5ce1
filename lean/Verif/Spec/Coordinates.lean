import Verif.Model.RExpr

/-! # Specification: the coordinates of splines and of programs -/

namespace Bezman
variable {K : Type} {n : Nat}

/-- The spline of the coordinates number `j` of the control points. -/
def Spline.coordinate (j : Fin n) (s : Spline (Point K n)) : Spline K := { s with cps := s.cps.map (·.val j) }

/-- The rational spline of the coordinates number `j`. -/
def RSpline.coordinate (j : Fin n) (r : RSpline K (Point K n)) : RSpline K K := ⟨r.num.coordinate j, r.wt⟩

/-- The scalar valued program that computes coordinate `j` of a point valued program: the same operations, on the extracted coordinates
of the variables. -/
def PExpr.coordinate (j : Fin n) : PExpr K n → SExpr K n
  | .leaf i => .extract (.leaf i) j
  | .add a b => .add (a.coordinate j) (b.coordinate j)
  | .addAssign a b => .addAssign (a.coordinate j) (b.coordinate j)
  | .sub a b => .sub (a.coordinate j) (b.coordinate j)
  | .subAssign a b => .subAssign (a.coordinate j) (b.coordinate j)
  | .neg a => .neg (a.coordinate j)
  | .scale a c => .scale (a.coordinate j) c
  | .addPoint a v => .addPoint (a.coordinate j) (v.val j)
  | .subPoint a v => .subPoint (a.coordinate j) (v.val j)
  | .pointSub v a => .pointSub (v.val j) (a.coordinate j)
  | .elevate a d => .elevate (a.coordinate j) d
  | .splitLeft a z d => .splitLeft (a.coordinate j) z d
  | .splitRight a z d => .splitRight (a.coordinate j) z d
  | .splitPart a zs d i => .splitPart (a.coordinate j) zs d i
  | .deriv a o => .deriv (a.coordinate j) o
  | .compose a b => .compose (a.coordinate j) b
  | .composeScalar a b => .composeScalar (a.coordinate j) b
  | .mulLeft a b => .mul a (b.coordinate j)
  | .mulRight a b => .mul (a.coordinate j) b

end Bezman
