import Verif.Model.RExpr

/-! # Specification: a change of the number type

`f` maps numbers of one type to numbers of another.  The same program over the other type has the images of the constants and runs on
the images of the variables. -/

namespace Bezman
variable {K K' V V' : Type} {n : Nat}

/-- The point of the images of the coordinates. -/
def Point.map (f : K → K') (a : Point K n) : Point K' n := ⟨fun i => f (a.val i)⟩

/-- The spline of the images of the control points. -/
def Spline.map (g : V → V') (s : Spline V) : Spline V' := { s with cps := s.cps.map g }

/-- The rational spline of the images of the control points (under `g`) and the weights (under `f`). -/
def RSpline.map (f : K → K') (g : V → V') (r : RSpline K V) : RSpline K' V' := ⟨r.num.map g, r.wt.map f⟩

/-- The images of the variables. -/
def Vars.map (f : K → K') (σ : Vars K n) : Vars K' n := ⟨fun i => (σ.s i).map f, fun i => (σ.p i).map (Point.map f)⟩

/-- The images of the variables. -/
def RVars.map (f : K → K') (σ : RVars K n) : RVars K' n :=
  ⟨σ.toVars.map f, fun i => (σ.rs i).map f f, fun i => (σ.rp i).map f (Point.map f)⟩

mutual
/-- The same program with the images of the constants. -/
def SExpr.map (f : K → K') : SExpr K n → SExpr K' n
  | .leaf i => .leaf i
  | .add a b => .add (a.map f) (b.map f)
  | .addAssign a b => .addAssign (a.map f) (b.map f)
  | .sub a b => .sub (a.map f) (b.map f)
  | .subAssign a b => .subAssign (a.map f) (b.map f)
  | .neg a => .neg (a.map f)
  | .scale a c => .scale (a.map f) (f c)
  | .addPoint a v => .addPoint (a.map f) (f v)
  | .subPoint a v => .subPoint (a.map f) (f v)
  | .pointSub v a => .pointSub (f v) (a.map f)
  | .elevate a d => .elevate (a.map f) d
  | .splitLeft a z d => .splitLeft (a.map f) (f z) d
  | .splitRight a z d => .splitRight (a.map f) (f z) d
  | .splitPart a zs d i => .splitPart (a.map f) (zs.map f) d i
  | .deriv a o => .deriv (a.map f) o
  | .compose a b => .compose (a.map f) (b.map f)
  | .composeScalar a b => .composeScalar (a.map f) (b.map f)
  | .mul a b => .mul (a.map f) (b.map f)
  | .dot a b => .dot (a.map f) (b.map f)
  | .power a k => .power (a.map f) k
  | .extract a j => .extract (a.map f) j

@[inherit_doc SExpr.map]
def PExpr.map (f : K → K') : PExpr K n → PExpr K' n
  | .leaf i => .leaf i
  | .add a b => .add (a.map f) (b.map f)
  | .addAssign a b => .addAssign (a.map f) (b.map f)
  | .sub a b => .sub (a.map f) (b.map f)
  | .subAssign a b => .subAssign (a.map f) (b.map f)
  | .neg a => .neg (a.map f)
  | .scale a c => .scale (a.map f) (f c)
  | .addPoint a v => .addPoint (a.map f) (v.map f)
  | .subPoint a v => .subPoint (a.map f) (v.map f)
  | .pointSub v a => .pointSub (v.map f) (a.map f)
  | .elevate a d => .elevate (a.map f) d
  | .splitLeft a z d => .splitLeft (a.map f) (f z) d
  | .splitRight a z d => .splitRight (a.map f) (f z) d
  | .splitPart a zs d i => .splitPart (a.map f) (zs.map f) d i
  | .deriv a o => .deriv (a.map f) o
  | .compose a b => .compose (a.map f) (b.map f)
  | .composeScalar a b => .composeScalar (a.map f) (b.map f)
  | .mulLeft a b => .mulLeft (a.map f) (b.map f)
  | .mulRight a b => .mulRight (a.map f) (b.map f)
end

mutual
/-- The same rational program with the images of the constants. -/
def RSExpr.map (f : K → K') : RSExpr K n → RSExpr K' n
  | .leaf i => .leaf i
  | .ofSpline a => .ofSpline (a.map f)
  | .add a b => .add (a.map f) (b.map f)
  | .addAssign a b => .addAssign (a.map f) (b.map f)
  | .sub a b => .sub (a.map f) (b.map f)
  | .subAssign a b => .subAssign (a.map f) (b.map f)
  | .neg a => .neg (a.map f)
  | .scale a c => .scale (a.map f) (f c)
  | .addPoint a v => .addPoint (a.map f) (f v)
  | .subPoint a v => .subPoint (a.map f) (f v)
  | .elevate a d => .elevate (a.map f) d
  | .splitLeft a z d => .splitLeft (a.map f) (f z) d
  | .splitRight a z d => .splitRight (a.map f) (f z) d
  | .splitPart a zs d i => .splitPart (a.map f) (zs.map f) d i
  | .deriv a o => .deriv (a.map f) o
  | .composePoly a b => .composePoly (a.map f) (b.map f)
  | .composePolyScalar a b => .composePolyScalar (a.map f) (b.map f)
  | .compose a b => .compose (a.map f) (b.map f)
  | .composeScalar a b => .composeScalar (a.map f) (b.map f)
  | .polyCompose a b => .polyCompose (a.map f) (b.map f)
  | .polyComposeScalar a b => .polyComposeScalar (a.map f) (b.map f)
  | .mul a b => .mul (a.map f) (b.map f)
  | .dot a b => .dot (a.map f) (b.map f)

@[inherit_doc RSExpr.map]
def RPExpr.map (f : K → K') : RPExpr K n → RPExpr K' n
  | .leaf i => .leaf i
  | .ofSpline a => .ofSpline (a.map f)
  | .add a b => .add (a.map f) (b.map f)
  | .addAssign a b => .addAssign (a.map f) (b.map f)
  | .sub a b => .sub (a.map f) (b.map f)
  | .subAssign a b => .subAssign (a.map f) (b.map f)
  | .neg a => .neg (a.map f)
  | .scale a c => .scale (a.map f) (f c)
  | .addPoint a v => .addPoint (a.map f) (v.map f)
  | .subPoint a v => .subPoint (a.map f) (v.map f)
  | .elevate a d => .elevate (a.map f) d
  | .splitLeft a z d => .splitLeft (a.map f) (f z) d
  | .splitRight a z d => .splitRight (a.map f) (f z) d
  | .splitPart a zs d i => .splitPart (a.map f) (zs.map f) d i
  | .deriv a o => .deriv (a.map f) o
  | .composePoly a b => .composePoly (a.map f) (b.map f)
  | .composePolyScalar a b => .composePolyScalar (a.map f) (b.map f)
  | .compose a b => .compose (a.map f) (b.map f)
  | .composeScalar a b => .composeScalar (a.map f) (b.map f)
  | .polyCompose a b => .polyCompose (a.map f) (b.map f)
  | .polyComposeScalar a b => .polyComposeScalar (a.map f) (b.map f)
  | .mulLeft a b => .mulLeft (a.map f) (b.map f)
  | .mulRight a b => .mulRight (a.map f) (b.map f)
end

mutual
/-- Every constant of the program has the property `P`, every list of split planes the property `Q`. -/
def SExpr.Constants (P : K → Prop) (Q : List K → Prop) : SExpr K n → Prop
  | .leaf _ => True
  | .add a b => a.Constants P Q ∧ b.Constants P Q
  | .addAssign a b => a.Constants P Q ∧ b.Constants P Q
  | .sub a b => a.Constants P Q ∧ b.Constants P Q
  | .subAssign a b => a.Constants P Q ∧ b.Constants P Q
  | .neg a => a.Constants P Q
  | .scale a b => a.Constants P Q ∧ P b
  | .addPoint a b => a.Constants P Q ∧ P b
  | .subPoint a b => a.Constants P Q ∧ P b
  | .pointSub a b => P a ∧ b.Constants P Q
  | .elevate a _ => a.Constants P Q
  | .splitLeft a b _ => a.Constants P Q ∧ P b
  | .splitRight a b _ => a.Constants P Q ∧ P b
  | .splitPart a b _ _ => a.Constants P Q ∧ Q b
  | .deriv a _ => a.Constants P Q
  | .compose a b => a.Constants P Q ∧ b.Constants P Q
  | .composeScalar a b => a.Constants P Q ∧ b.Constants P Q
  | .mul a b => a.Constants P Q ∧ b.Constants P Q
  | .dot a b => a.Constants P Q ∧ b.Constants P Q
  | .power a _ => a.Constants P Q
  | .extract a _ => a.Constants P Q

@[inherit_doc SExpr.Constants]
def PExpr.Constants (P : K → Prop) (Q : List K → Prop) : PExpr K n → Prop
  | .leaf _ => True
  | .add a b => a.Constants P Q ∧ b.Constants P Q
  | .addAssign a b => a.Constants P Q ∧ b.Constants P Q
  | .sub a b => a.Constants P Q ∧ b.Constants P Q
  | .subAssign a b => a.Constants P Q ∧ b.Constants P Q
  | .neg a => a.Constants P Q
  | .scale a b => a.Constants P Q ∧ P b
  | .addPoint a b => a.Constants P Q ∧ (∀ i, P (b.val i))
  | .subPoint a b => a.Constants P Q ∧ (∀ i, P (b.val i))
  | .pointSub a b => (∀ i, P (a.val i)) ∧ b.Constants P Q
  | .elevate a _ => a.Constants P Q
  | .splitLeft a b _ => a.Constants P Q ∧ P b
  | .splitRight a b _ => a.Constants P Q ∧ P b
  | .splitPart a b _ _ => a.Constants P Q ∧ Q b
  | .deriv a _ => a.Constants P Q
  | .compose a b => a.Constants P Q ∧ b.Constants P Q
  | .composeScalar a b => a.Constants P Q ∧ b.Constants P Q
  | .mulLeft a b => a.Constants P Q ∧ b.Constants P Q
  | .mulRight a b => a.Constants P Q ∧ b.Constants P Q
end

mutual
/-- Every constant of the program has the property `P`, every list of split planes the property `Q`. -/
def RSExpr.Constants (P : K → Prop) (Q : List K → Prop) : RSExpr K n → Prop
  | .leaf _ => True
  | .ofSpline a => a.Constants P Q
  | .add a b => a.Constants P Q ∧ b.Constants P Q
  | .addAssign a b => a.Constants P Q ∧ b.Constants P Q
  | .sub a b => a.Constants P Q ∧ b.Constants P Q
  | .subAssign a b => a.Constants P Q ∧ b.Constants P Q
  | .neg a => a.Constants P Q
  | .scale a b => a.Constants P Q ∧ P b
  | .addPoint a b => a.Constants P Q ∧ P b
  | .subPoint a b => a.Constants P Q ∧ P b
  | .elevate a _ => a.Constants P Q
  | .splitLeft a b _ => a.Constants P Q ∧ P b
  | .splitRight a b _ => a.Constants P Q ∧ P b
  | .splitPart a b _ _ => a.Constants P Q ∧ Q b
  | .deriv a _ => a.Constants P Q
  | .composePoly a b => a.Constants P Q ∧ b.Constants P Q
  | .composePolyScalar a b => a.Constants P Q ∧ b.Constants P Q
  | .compose a b => a.Constants P Q ∧ b.Constants P Q
  | .composeScalar a b => a.Constants P Q ∧ b.Constants P Q
  | .polyCompose a b => a.Constants P Q ∧ b.Constants P Q
  | .polyComposeScalar a b => a.Constants P Q ∧ b.Constants P Q
  | .mul a b => a.Constants P Q ∧ b.Constants P Q
  | .dot a b => a.Constants P Q ∧ b.Constants P Q

@[inherit_doc RSExpr.Constants]
def RPExpr.Constants (P : K → Prop) (Q : List K → Prop) : RPExpr K n → Prop
  | .leaf _ => True
  | .ofSpline a => a.Constants P Q
  | .add a b => a.Constants P Q ∧ b.Constants P Q
  | .addAssign a b => a.Constants P Q ∧ b.Constants P Q
  | .sub a b => a.Constants P Q ∧ b.Constants P Q
  | .subAssign a b => a.Constants P Q ∧ b.Constants P Q
  | .neg a => a.Constants P Q
  | .scale a b => a.Constants P Q ∧ P b
  | .addPoint a b => a.Constants P Q ∧ (∀ i, P (b.val i))
  | .subPoint a b => a.Constants P Q ∧ (∀ i, P (b.val i))
  | .elevate a _ => a.Constants P Q
  | .splitLeft a b _ => a.Constants P Q ∧ P b
  | .splitRight a b _ => a.Constants P Q ∧ P b
  | .splitPart a b _ _ => a.Constants P Q ∧ Q b
  | .deriv a _ => a.Constants P Q
  | .composePoly a b => a.Constants P Q ∧ b.Constants P Q
  | .composePolyScalar a b => a.Constants P Q ∧ b.Constants P Q
  | .compose a b => a.Constants P Q ∧ b.Constants P Q
  | .composeScalar a b => a.Constants P Q ∧ b.Constants P Q
  | .polyCompose a b => a.Constants P Q ∧ b.Constants P Q
  | .polyComposeScalar a b => a.Constants P Q ∧ b.Constants P Q
  | .mulLeft a b => a.Constants P Q ∧ b.Constants P Q
  | .mulRight a b => a.Constants P Q ∧ b.Constants P Q
end

namespace Spec

/-- `f` commutes with the arithmetic of the two number types and preserves the outcome of comparisons. -/
structure Arithmetic [Zero K] [One K] [Add K] [Sub K] [Mul K] [Neg K] [Div K] [NatCast K] [LT K] [BEq K]
    [Zero K'] [One K'] [Add K'] [Sub K'] [Mul K'] [Neg K'] [Div K'] [NatCast K'] [LT K'] [BEq K'] (f : K → K') : Prop where
  zero : f 0 = 0
  one : f 1 = 1
  add : ∀ a b, f (a + b) = f a + f b
  sub : ∀ a b, f (a - b) = f a - f b
  mul : ∀ a b, f (a * b) = f a * f b
  neg : ∀ a, f (-a) = -f a
  div : ∀ a b, f (a / b) = f a / f b
  cast : ∀ m : Nat, f (m : K) = (m : K')
  lt : ∀ a b, f a < f b ↔ a < b
  eq : ∀ a b, (f a == f b) = (a == b)

end Spec
end Bezman
