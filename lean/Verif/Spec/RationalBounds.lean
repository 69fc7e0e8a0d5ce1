import Verif.Spec.FloatBounds
import Verif.Spec.AnyArithRational

/-! # Specification: rounding errors of rational splines, relative to the weights

The control points of a rational spline are stored as pairs `(w P, w)`.  The errors of both entries are measured by the weight that
belongs to them, so that a small weight comes with a small error. -/

namespace Bezman
open Spec
variable {A : FloatArith} {n : ℕ}

/-- A weighted control point and its weight, with floating-point and with real numbers: the weight is positive, the coordinates of the
control point are at most `B` in absolute value (so those of the weighted control point are at most `B` times the weight), and all
entries differ by at most the error of `k` roundings, relative to the weight. -/
def WeightedNear (k : ℕ) (B : Fin n → ℝ) (v : Point (Fl A) n × Fl A) (v' : Point ℝ n × ℝ) : Prop :=
  0 < v'.2 ∧ |v.2.val - v'.2| ≤ ((1 + A.u) ^ k - 1) * v'.2 ∧
    ∀ c, |v'.1.val c| ≤ B c * v'.2 ∧ |(v.1.val c).val - v'.1.val c| ≤ ((1 + A.u) ^ k - 1) * (B c * v'.2)

/-- Two consistent rational splines with degrees `ds`, one with floating-point and one with real numbers, whose stored control points and
weights differ by at most the error of `k` roundings, relative to the weights. -/
structure RSpline.ApproxPoints (ds : List ℕ) (k : ℕ) (B : Fin n → ℝ) (r : RSpline (Fl A) (Point (Fl A) n))
    (r' : RSpline ℝ (Point ℝ n)) : Prop where
  shape : HasRShape ds r
  shape' : HasRShape ds r'
  near : List.Forall₂ (WeightedNear k B) (r.num.cps.zip r.wt.cps) (r'.num.cps.zip r'.wt.cps)

/-- The same for one number in place of a point. -/
def WeightedNear₁ (k : ℕ) (B : ℝ) (v : Fl A × Fl A) (v' : ℝ × ℝ) : Prop :=
  0 < v'.2 ∧ |v.2.val - v'.2| ≤ ((1 + A.u) ^ k - 1) * v'.2 ∧
    |v'.1| ≤ B * v'.2 ∧ |v.1.val - v'.1| ≤ ((1 + A.u) ^ k - 1) * (B * v'.2)

/-- The same for scalar valued rational splines. -/
structure RSpline.Approx (ds : List ℕ) (k : ℕ) (B : ℝ) (r : RSpline (Fl A) (Fl A)) (r' : RSpline ℝ ℝ) : Prop where
  shape : HasRShape ds r
  shape' : HasRShape ds r'
  near : List.Forall₂ (WeightedNear₁ k B) (r.num.cps.zip r.wt.cps) (r'.num.cps.zip r'.wt.cps)

/-- Both calls return, and their results approximate each other. -/
def RApproxRuns (ds : List ℕ) (k : ℕ) (B : Fin n → ℝ) (x : M (RSpline (Fl A) (Point (Fl A) n))) (y : M (RSpline ℝ (Point ℝ n))) : Prop :=
  ∃ r r', x = .ok r ∧ y = .ok r' ∧ r.ApproxPoints ds k B r'

@[inherit_doc RApproxRuns]
def RApproxRuns₁ (ds : List ℕ) (k : ℕ) (B : ℝ) (x : M (RSpline (Fl A) (Fl A))) (y : M (RSpline ℝ ℝ)) : Prop :=
  ∃ r r', x = .ok r ∧ y = .ok r' ∧ r.Approx ds k B r'

/-- The results of a sum or difference of two rational splines: if their weights are the same (`same`), the degrees stay and there is one more
rounding; otherwise the numerators and weights are products. -/
def RSumRuns (same : Bool) (da db : List ℕ) (ka kb : ℕ) (B B' : Fin n → ℝ) (x : M (RSpline (Fl A) (Point (Fl A) n))) (y : M (RSpline ℝ (Point ℝ n))) :
    Prop :=
  if same then RApproxRuns da (max ka kb + 1) (fun c => B c + B' c) x y
  else RApproxRuns (sumDegrees da db) (productRoundings da db ka kb + 1) (fun c => B c + B' c) x y

/-- the real point with the same coordinates -/
def Point.exact (p : Point (Fl A) n) : Point ℝ n := ⟨fun c => (p.val c).val⟩

/-- Operations on one rational spline; splits keep one of the two parts, compositions are with a polynomial inner spline of points or of numbers. -/
inductive RStep (A : FloatArith) (n : ℕ) where
  | elevate (d : ℕ)
  | splitLeft (z : Fl A) (d : ℕ)
  | splitRight (z : Fl A) (d : ℕ)
  | scale (c : Fl A)
  | neg
  | addPoint (v : Point (Fl A) n)
  | subPoint (v : Point (Fl A) n)
  | compose (cfg : Cfg) {m : ℕ} (inner : Spline (Point (Fl A) m))
  | composeScalar (cfg : Cfg) (inner : Spline (Fl A))

namespace RStep

/-- the operation in floating-point arithmetic -/
noncomputable def run (r : RSpline (Fl A) (Point (Fl A) n)) : RStep A n → M (RSpline (Fl A) (Point (Fl A) n))
  | .elevate d => r.orderElevate d
  | .splitLeft z d => return (← r.splitAt z d).1
  | .splitRight z d => return (← r.splitAt z d).2
  | .scale c => r.smulOp c
  | .neg => r.negOp
  | .addPoint v => r.addPoint v
  | .subPoint v => r.subPoint v
  | .compose cfg inner => r.compose cfg inner
  | .composeScalar cfg inner => r.compose cfg inner

/-- the operation with real numbers -/
noncomputable def runExact (r : RSpline ℝ (Point ℝ n)) : RStep A n → M (RSpline ℝ (Point ℝ n))
  | .elevate d => r.orderElevate d
  | .splitLeft z d => return (← r.splitAt z.val d).1
  | .splitRight z d => return (← r.splitAt z.val d).2
  | .scale c => r.smulOp c.val
  | .neg => r.negOp
  | .addPoint v => r.addPoint v.exact
  | .subPoint v => r.subPoint v.exact
  | .compose cfg inner => r.compose cfg inner.exactPoints
  | .composeScalar cfg inner => r.compose cfg inner.exact

/-- the degrees after the operation -/
def degrees (ds : List ℕ) : RStep A n → List ℕ
  | .elevate d => ds.modify d (· + 1)
  | .compose _ inner => inner.degrees.map (fun q => ds.sum * q)
  | .composeScalar _ inner => inner.degrees.map (fun q => ds.sum * q)
  | _ => ds

/-- the preconditions: directions exist, positions of splits lie in the open unit interval, the number of control points fits an `int`; inner
splines of compositions have as many coordinates as the spline has parameters and lie in the unit cube, and the degrees are below the limit -/
def Pre (ds : List ℕ) : RStep A n → Prop
  | .elevate d => d < ds.length ∧ size (ds.modify d (· + 1)) < 2 ^ 31
  | .splitLeft z d | .splitRight z d => d < ds.length ∧ 0 < z.val ∧ z.val < 1
  | @compose _ _ cfg m inner => cfg.maxBinom ≤ 68 ∧ inner.WF ∧ ds.length = m ∧ (∀ x ∈ inner.cps, ∀ j, 0 ≤ (x.val j).val ∧ (x.val j).val ≤ 1) ∧
      (∀ p ∈ ds, p < cfg.maxBinom) ∧ ∀ q ∈ inner.degrees, ds.sum * q < cfg.maxBinom
  | .composeScalar cfg inner => cfg.maxBinom ≤ 68 ∧ inner.WF ∧ ds.length = 1 ∧ (∀ x ∈ inner.cps, 0 ≤ x.val ∧ x.val ≤ 1) ∧
      (∀ p ∈ ds, p < cfg.maxBinom) ∧ ∀ q ∈ inner.degrees, ds.sum * q < cfg.maxBinom
  | _ => True

/-- number of roundings of the operation -/
def roundings (ds : List ℕ) : RStep A n → ℕ
  | .elevate d => 5 * ds.getD d 0 + 3
  | .splitLeft _ d | .splitRight _ d => 3 * ds.getD d 0
  | .scale _ => 1
  | .neg => 1
  | .addPoint _ | .subPoint _ => 2
  | .compose _ inner => composeRoundings ds inner.degrees 0 0
  | .composeScalar _ inner => composeRoundings ds inner.degrees 0 0

/-- bound of the control points of the result -/
def bound (B : Fin n → ℝ) : RStep A n → Fin n → ℝ
  | .scale c => fun i => |c.val| * B i
  | .addPoint v | .subPoint v => fun i => B i + |(v.val i).val|
  | _ => B

/-- several operations, one after the other -/
noncomputable def runAll (r : RSpline (Fl A) (Point (Fl A) n)) (l : List (RStep A n)) : M (RSpline (Fl A) (Point (Fl A) n)) := l.foldlM run r
@[inherit_doc runAll]
noncomputable def runAllExact (r : RSpline ℝ (Point ℝ n)) (l : List (RStep A n)) : M (RSpline ℝ (Point ℝ n)) := l.foldlM runExact r

/-- the degrees after all operations -/
def degreesAll (ds : List ℕ) (l : List (RStep A n)) : List ℕ := l.foldl degrees ds

/-- the preconditions of all operations -/
def PreAll : List ℕ → List (RStep A n) → Prop
  | _, [] => True
  | ds, s :: l => s.Pre ds ∧ PreAll (s.degrees ds) l

/-- number of roundings of all operations -/
def roundingsAll : List ℕ → List (RStep A n) → ℕ
  | _, [] => 0
  | ds, s :: l => s.roundings ds + roundingsAll (s.degrees ds) l

/-- bound of the control points after all operations -/
def boundAll (B : Fin n → ℝ) (l : List (RStep A n)) : Fin n → ℝ := l.foldl bound B

end RStep
end Bezman
