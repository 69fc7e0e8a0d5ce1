import Verif.Model.Crash
import Verif.Spec.Computes

/-! # Specification: calls that run out of memory -/

namespace Bezman.Spec
variable {K V : Type} {σ : Type}

/-- The call on the object `s` can end in `std::bad_alloc` with the object left as `s'`. -/
def FailsWith (x : Crash σ Unit) (s s' : σ) : Prop := ∃ n, x s n = .ok (s', none)

/-- The call on the object `s` passes `N` places at which memory may run out. If it does run out at one of them, the call ends in
`std::bad_alloc`; otherwise it ends like `f s`. -/
def RunsLike (x : Crash σ Unit) (f : σ → M σ) (s : σ) (N : ℕ) : Prop :=
  ∀ n, (n < N → ∃ s', x s n = .ok (s', none)) ∧ (N ≤ n → x s n = (f s).map fun s' => (s', some ((), n - N)))

/-- `s'` is `t` interrupted in an order elevation: the number of control points has been raised, nothing else. -/
def Interrupted (t s' : Spline V) : Prop := ∃ d p : ℕ, t.degrees[d]? = some p ∧ s' = { t with ncp := t.ncp / (p + 1) * (p + 2) }

/-- The calls that can not leave a changed object behind. -/
def Calm : Mutator K V → Prop
  | .updateDegrees _ => False
  | .orderElevate _ => False
  | .addAssign _ => False
  | .subAssign _ => False
  | _ => True

/-- The calls on a rational spline that do not allocate. -/
def RCalm : RMutator K V → Prop
  | .assign _ => False
  | .updateDegrees _ => False
  | .orderElevate _ => False
  | .addAssign _ => False
  | .subAssign _ => False
  | _ => True

/-- The call makes sense for degrees `ds`: as many new degrees as old ones, an existing dimension, operands that fit together, and
fewer than `2^31` control points while raising degrees. -/
def MakesSense (cfg : Cfg) (ds : List ℕ) : Mutator K V → Prop
  | .updateDegrees new_degrees => new_degrees.length = ds.length
  | .orderElevate d => ∃ p, ds[d]? = some p ∧ size (ds.set d (p + 1)) < 2 ^ 31
  | .addAssign rhs => Fits cfg ds rhs.degrees
  | .subAssign rhs => Fits cfg ds rhs.degrees
  | _ => True

/-- What users hope for: after a call that ran out of memory the object is consistent and stands for the function it stood for
before the call, or for the one it would stand for after the call. -/
def BasicGuarantee [CommRing K] [AddCommGroup V] [Module K V] (x : Crash (Spline V) Unit) (s : Spline V) : Prop :=
  ∀ s', FailsWith x s s' → s'.WF ∧ ((∀ t : List K, s'.evaluate t = s.evaluate t) ∨
    ∃ r n n', x s n = .ok (r, some ((), n')) ∧ ∀ t : List K, s'.evaluate t = r.evaluate t)

end Bezman.Spec
