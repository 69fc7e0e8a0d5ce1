import Verif.Spec.FloatArith
import Verif.Spec.ScalarMap
import Verif.Spec.AnyArith
import Mathlib.Algebra.BigOperators.Fin
import Mathlib.Data.Nat.Factorial.Basic

/-! # Specification: rounding errors of operations and programs

The error of `k` roundings of a quantity of magnitude at most `M` is at most `((1+u)^k - 1) M`. -/

namespace Bezman
open Spec
variable {A : FloatArith} {n : ℕ}

/-- Two consistent scalar splines with degrees `ds`, one with floating-point and one with real control values: the real ones are at most
`M` in absolute value, and the floating-point ones differ from them by at most the error of `k` roundings. -/
structure Spline.Approx (ds : List ℕ) (k : ℕ) (M : ℝ) (s : Spline (Fl A)) (s' : Spline ℝ) : Prop where
  shape : HasShape ds s
  shape' : HasShape ds s'
  near : List.Forall₂ (fun x y => |y| ≤ M ∧ |x.val - y| ≤ ((1 + A.u) ^ k - 1) * M) s.cps s'.cps

/-- The same for splines of points, coordinate by coordinate. -/
structure Spline.ApproxPoints (ds : List ℕ) (k : ℕ) (M : Fin n → ℝ) (s : Spline (Point (Fl A) n)) (s' : Spline (Point ℝ n)) : Prop where
  shape : HasShape ds s
  shape' : HasShape ds s'
  near : List.Forall₂ (fun x y => ∀ c, |y.val c| ≤ M c ∧ |(x.val c).val - y.val c| ≤ ((1 + A.u) ^ k - 1) * M c) s.cps s'.cps

/-- Both calls return, and their results approximate each other. -/
def ApproxRuns (ds : List ℕ) (k : ℕ) (M : ℝ) (x : Bezman.M (Spline (Fl A))) (y : Bezman.M (Spline ℝ)) : Prop :=
  ∃ r r', x = .ok r ∧ y = .ok r' ∧ r.Approx ds k M r'

@[inherit_doc ApproxRuns]
def ApproxRunsPoints (ds : List ℕ) (k : ℕ) (M : Fin n → ℝ) (x : Bezman.M (Spline (Point (Fl A) n)))
    (y : Bezman.M (Spline (Point ℝ n))) : Prop :=
  ∃ r r', x = .ok r ∧ y = .ok r' ∧ r.ApproxPoints ds k M r'

/-- If both calls return, their results approximate each other. -/
def ApproxIfReturn (ds : List ℕ) (k : ℕ) (M : ℝ) (x : Bezman.M (Spline (Fl A))) (y : Bezman.M (Spline ℝ)) : Prop :=
  ∀ r r', x = .ok r → y = .ok r' → r.Approx ds k M r'

@[inherit_doc ApproxIfReturn]
def ApproxIfReturnPoints (ds : List ℕ) (k : ℕ) (M : Fin n → ℝ) (x : Bezman.M (Spline (Point (Fl A) n)))
    (y : Bezman.M (Spline (Point ℝ n))) : Prop :=
  ∀ r r', x = .ok r → y = .ok r' → r.ApproxPoints ds k M r'

/-! ## Numbers of roundings

`k` is the number of roundings in the operands, `ds` are their degrees. -/

/-- Sums and differences: 12 roundings for each degree elevation of an operand, and one for the sum. -/
def sumRoundings (da db : List ℕ) (ka kb : ℕ) : ℕ :=
  max (ka + 12 * ((maxDegrees da db).sum - da.sum)) (kb + 12 * ((maxDegrees da db).sum - db.sum)) + 1

/-- Products: the largest number of summands of a control point of the product, and five roundings for each parameter direction. -/
def productRoundings (da db : List ℕ) (ka kb : ℕ) : ℕ :=
  ka + kb + 5 * da.length + 2 + (List.zipWith (fun p q => min p q + 1) da db).prod

/-- Powers, by repeated squaring. -/
def powerRoundings (ds : List ℕ) (k : ℕ) : ℕ → ℕ
  | 0 => 0
  | 1 => k
  | m + 2 =>
    let half := powerRoundings ds k ((m + 2) / 2)
    let hs := ds.map ((m + 2) / 2 * ·)
    let square := productRoundings hs hs half half
    if m % 2 = 0 then square else productRoundings (sumDegrees hs hs) ds square k
  decreasing_by omega

/-- Derivatives: `3 o + 4` for each direction with an order `o` that is not zero. -/
def derivRoundings (orders : List ℕ) : ℕ := (orders.map (fun o => if o = 0 then 0 else 3 * o + 4)).sum

/-- The largest factor by which control values grow when a spline is derived: `p (p-1) ⋯ (p-o+1) 2^o` for each direction. -/
def derivFactor (ds orders : List ℕ) : ℕ := (List.zipWith (fun p o => p.descFactorial o * 2 ^ o) ds orders).prod

/-- Compositions `outer ∘ inner`, `P` the sum of the degrees of the outer spline: every product of powers of the coordinates of the inner
spline and of their complements costs `c`; a basis function is made of `P` factors and two products for each direction; the sum has one term for
each control point of the outer spline. -/
def composeRoundings (dO dI : List ℕ) (kO kI : ℕ) : ℕ :=
  let c := 5 * dI.length + 2 + size (dI.map (dO.sum / 2 * ·))
  kO + dO.sum * (kI + 1 + c) + dO.length * (2 * c + 2) + 1 + size dO

mutual
/-- Programs without compositions and without splits at several positions at once; splits at positions in the open unit interval. -/
def SExpr.Elementary : SExpr (Fl A) n → Prop
  | .leaf _ => True
  | .add a b | .addAssign a b | .sub a b | .subAssign a b => a.Elementary ∧ b.Elementary
  | .neg a | .scale a _ | .addPoint a _ | .subPoint a _ | .pointSub _ a | .elevate a _ | .deriv a _ | .power a _ => a.Elementary
  | .splitLeft a z _ | .splitRight a z _ => a.Elementary ∧ 0 < z.val ∧ z.val < 1
  | .splitPart _ _ _ _ | .compose _ _ | .composeScalar _ _ => False
  | .mul a b => a.Elementary ∧ b.Elementary
  | .dot a b => a.Elementary ∧ b.Elementary
  | .extract a _ => a.Elementary

@[inherit_doc SExpr.Elementary]
def PExpr.Elementary : PExpr (Fl A) n → Prop
  | .leaf _ => True
  | .add a b | .addAssign a b | .sub a b | .subAssign a b => a.Elementary ∧ b.Elementary
  | .neg a | .scale a _ | .addPoint a _ | .subPoint a _ | .pointSub _ a | .elevate a _ | .deriv a _ => a.Elementary
  | .splitLeft a z _ | .splitRight a z _ => a.Elementary ∧ 0 < z.val ∧ z.val < 1
  | .splitPart _ _ _ _ | .compose _ _ | .composeScalar _ _ => False
  | .mulLeft a b => a.Elementary ∧ b.Elementary
  | .mulRight a b => a.Elementary ∧ b.Elementary
end

mutual
/-- Programs, also with compositions, without splits at several positions at once; splits at positions in the open unit interval. -/
def SExpr.SingleSplits : SExpr (Fl A) n → Prop
  | .leaf _ => True
  | .add a b | .addAssign a b | .sub a b | .subAssign a b => a.SingleSplits ∧ b.SingleSplits
  | .neg a | .scale a _ | .addPoint a _ | .subPoint a _ | .pointSub _ a | .elevate a _ | .deriv a _ | .power a _ => a.SingleSplits
  | .splitLeft a z _ | .splitRight a z _ => a.SingleSplits ∧ 0 < z.val ∧ z.val < 1
  | .splitPart _ _ _ _ => False
  | .compose a b => a.SingleSplits ∧ b.SingleSplits
  | .composeScalar a b => a.SingleSplits ∧ b.SingleSplits
  | .mul a b => a.SingleSplits ∧ b.SingleSplits
  | .dot a b => a.SingleSplits ∧ b.SingleSplits
  | .extract a _ => a.SingleSplits

@[inherit_doc SExpr.SingleSplits]
def PExpr.SingleSplits : PExpr (Fl A) n → Prop
  | .leaf _ => True
  | .add a b | .addAssign a b | .sub a b | .subAssign a b => a.SingleSplits ∧ b.SingleSplits
  | .neg a | .scale a _ | .addPoint a _ | .subPoint a _ | .pointSub _ a | .elevate a _ | .deriv a _ => a.SingleSplits
  | .splitLeft a z _ | .splitRight a z _ => a.SingleSplits ∧ 0 < z.val ∧ z.val < 1
  | .splitPart _ _ _ _ => False
  | .compose a b => a.SingleSplits ∧ b.SingleSplits
  | .composeScalar a b => a.SingleSplits ∧ b.SingleSplits
  | .mulLeft a b => a.SingleSplits ∧ b.SingleSplits
  | .mulRight a b => a.SingleSplits ∧ b.SingleSplits
end

section
variable {K : Type}

mutual
/-- Number of roundings in the result of a program whose variables have degrees `ds` and `dp` and no
errors (for programs without splits at several positions at once). -/
def SExpr.roundings (ds dp : ℕ → List ℕ) : SExpr K n → ℕ
  | .leaf _ => 0
  | .add a b | .addAssign a b | .sub a b | .subAssign a b =>
    sumRoundings (a.shape ds dp) (b.shape ds dp) (a.roundings ds dp) (b.roundings ds dp)
  | .neg a | .extract a _ => a.roundings ds dp
  | .scale a _ | .addPoint a _ | .subPoint a _ | .pointSub _ a => a.roundings ds dp + 1
  | .elevate a _ => a.roundings ds dp + 12
  | .splitLeft a _ d | .splitRight a _ d => a.roundings ds dp + 3 * (a.shape ds dp).getD d 0
  | .splitPart a _ _ _ => a.roundings ds dp
  | .deriv a orders => a.roundings ds dp + derivRoundings orders
  | .compose a b => composeRoundings (a.shape ds dp) (b.shape ds dp) (a.roundings ds dp) (b.roundings ds dp)
  | .composeScalar a b => composeRoundings (a.shape ds dp) (b.shape ds dp) (a.roundings ds dp) (b.roundings ds dp)
  | .mul a b => productRoundings (a.shape ds dp) (b.shape ds dp) (a.roundings ds dp) (b.roundings ds dp)
  | .dot a b => productRoundings (a.shape ds dp) (b.shape ds dp) (a.roundings ds dp) (b.roundings ds dp) + n
  | .power a k => powerRoundings (a.shape ds dp) (a.roundings ds dp) k

@[inherit_doc SExpr.roundings]
def PExpr.roundings (ds dp : ℕ → List ℕ) : PExpr K n → ℕ
  | .leaf _ => 0
  | .add a b | .addAssign a b | .sub a b | .subAssign a b =>
    sumRoundings (a.shape ds dp) (b.shape ds dp) (a.roundings ds dp) (b.roundings ds dp)
  | .neg a | .scale a _ | .addPoint a _ | .subPoint a _ => a.roundings ds dp + 1
  | .pointSub _ a => a.roundings ds dp + 2
  | .elevate a _ => a.roundings ds dp + 12
  | .splitLeft a _ d | .splitRight a _ d => a.roundings ds dp + 3 * (a.shape ds dp).getD d 0
  | .splitPart a _ _ _ => a.roundings ds dp
  | .deriv a orders => a.roundings ds dp + derivRoundings orders
  | .compose a b => composeRoundings (a.shape ds dp) (b.shape ds dp) (a.roundings ds dp) (b.roundings ds dp)
  | .composeScalar a b => composeRoundings (a.shape ds dp) (b.shape ds dp) (a.roundings ds dp) (b.roundings ds dp)
  | .mulLeft a b => productRoundings (a.shape ds dp) (b.shape ds dp) (a.roundings ds dp) (b.roundings ds dp)
  | .mulRight a b => productRoundings (a.shape ds dp) (b.shape ds dp) (a.roundings ds dp) (b.roundings ds dp)
end
end

/-- The largest of 1 and of the bounds of the coordinates. -/
noncomputable def largest (b : Fin n → ℝ) : ℝ := Finset.univ.fold max 1 b

mutual
/-- Bound of the control values of the result of a program in exact arithmetic, if those of the variables are bounded by `bs` and `bp`
(for programs without splits at several positions at once).  In a composition the values of the inner spline are in the unit cube;
its magnitude, which bounds its errors, enters once for each degree of the outer spline. -/
noncomputable def SExpr.bound (ds dp : ℕ → List ℕ) (bs : ℕ → ℝ) (bp : ℕ → Fin n → ℝ) : SExpr (Fl A) n → ℝ
  | .leaf i => bs i
  | .add a b | .addAssign a b | .sub a b | .subAssign a b => a.bound ds dp bs bp + b.bound ds dp bs bp
  | .neg a | .elevate a _ | .splitLeft a _ _ | .splitRight a _ _ | .splitPart a _ _ _ => a.bound ds dp bs bp
  | .scale a c => |c.val| * a.bound ds dp bs bp
  | .addPoint a v | .subPoint a v | .pointSub v a => a.bound ds dp bs bp + |v.val|
  | .deriv a orders => derivFactor (a.shape ds dp) orders * a.bound ds dp bs bp
  | .compose a b => (2 * largest (b.bound ds dp bs bp)) ^ (a.shape ds dp).sum * a.bound ds dp bs bp
  | .composeScalar a b => (2 * max 1 (b.bound ds dp bs bp)) ^ (a.shape ds dp).sum * a.bound ds dp bs bp
  | .mul a b => a.bound ds dp bs bp * b.bound ds dp bs bp
  | .dot a b => ∑ c, a.bound ds dp bs bp c * b.bound ds dp bs bp c
  | .power a k => a.bound ds dp bs bp ^ k
  | .extract a j => if h : j < n then a.bound ds dp bs bp ⟨j, h⟩ else 0

@[inherit_doc SExpr.bound]
noncomputable def PExpr.bound (ds dp : ℕ → List ℕ) (bs : ℕ → ℝ) (bp : ℕ → Fin n → ℝ) : PExpr (Fl A) n → Fin n → ℝ
  | .leaf i => bp i
  | .add a b | .addAssign a b | .sub a b | .subAssign a b => fun c => a.bound ds dp bs bp c + b.bound ds dp bs bp c
  | .neg a | .elevate a _ | .splitLeft a _ _ | .splitRight a _ _ | .splitPart a _ _ _ => a.bound ds dp bs bp
  | .scale a f => fun c => |f.val| * a.bound ds dp bs bp c
  | .addPoint a v | .subPoint a v | .pointSub v a => fun c => a.bound ds dp bs bp c + |(v.val c).val|
  | .deriv a orders => fun c => derivFactor (a.shape ds dp) orders * a.bound ds dp bs bp c
  | .compose a b => fun c => (2 * largest (b.bound ds dp bs bp)) ^ (a.shape ds dp).sum * a.bound ds dp bs bp c
  | .composeScalar a b => fun c => (2 * max 1 (b.bound ds dp bs bp)) ^ (a.shape ds dp).sum * a.bound ds dp bs bp c
  | .mulLeft a b => fun c => a.bound ds dp bs bp * b.bound ds dp bs bp c
  | .mulRight a b => fun c => a.bound ds dp bs bp c * b.bound ds dp bs bp
end

end Bezman
