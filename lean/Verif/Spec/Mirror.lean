import Verif.Model.Rational
import Verif.Spec.Computes

/-! # Specification vocabulary: splines with reversed or exchanged parametric dimensions -/

namespace Bezman.Spec

/-- `s'` is `s` with dimension `d` reversed: the same control points, read through the API in the opposite order along `d`. -/
structure Mirrored {V : Type} (d : ℕ) (s s' : Spline V) : Prop where
  wf : s.WF
  wf' : s'.WF
  degrees : s'.degrees = s.degrees
  points : ∀ (idx : List ℕ) (p : ℕ), ValidIdx s.degrees idx → s.degrees[d]? = some p →
    s'.controlPoint idx = s.controlPoint (idx.modify d fun i => p - i)

/-- the parameter tuple with `t_d` replaced by `1 - t_d` -/
def flipAt {K : Type} [One K] [Sub K] (d : ℕ) (t : List K) : List K := t.modify d fun x => 1 - x

/-- exchanges the entries `d` and `d + 1` of a list -/
def swapAt {α : Type} : ℕ → List α → List α
  | 0, x :: y :: l => y :: x :: l
  | d + 1, x :: l => x :: swapAt d l
  | _, l => l

/-- `s'` is `s` with the dimensions `d` and `d + 1` exchanged: the same control points, with the two indices exchanged. -/
structure Exchanged {V : Type} (d : ℕ) (s s' : Spline V) : Prop where
  wf : s.WF
  wf' : s'.WF
  inside : d + 1 < s.degrees.length
  degrees : s'.degrees = swapAt d s.degrees
  points : ∀ idx : List ℕ, ValidIdx s.degrees idx → s'.controlPoint (swapAt d idx) = s.controlPoint idx

/-- both splines of a rational spline (weighted points and weights) are reversed -/
structure RMirrored {K V : Type} (d : ℕ) (r r' : RSpline K V) : Prop where
  same : r.num.degrees = r.wt.degrees
  num : Mirrored d r.num r'.num
  wt : Mirrored d r.wt r'.wt

/-- both splines of a rational spline have the dimensions `d` and `d + 1` exchanged -/
structure RExchanged {K V : Type} (d : ℕ) (r r' : RSpline K V) : Prop where
  same : r.num.degrees = r.wt.degrees
  num : Exchanged d r.num r'.num
  wt : Exchanged d r.wt r'.wt

end Bezman.Spec
