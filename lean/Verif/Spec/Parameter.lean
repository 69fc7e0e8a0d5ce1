import Verif.Model.Dual
import Verif.Spec.ScalarMap
import Mathlib.Analysis.Calculus.FDeriv.Basic

/-! # Programs that depend on a parameter

A program (or variable) over `E → ℝ` stands for a family of programs (or variables) over `ℝ`, one for each value `y` of the parameter:
`e.map (· y)`. -/

namespace Bezman.Spec
variable {E : Type} [NormedAddCommGroup E] [NormedSpace ℝ E] {n m : ℕ}

/-- The `AlgoDiffType` object that stands for the dependence of a number on the parameter, at the parameter value `x`: the value, and
the derivatives in the directions `u 0, u 1, …`. -/
noncomputable def jet (u : Fin m → E) (x : E) (f : E → ℝ) : Dual ℝ m := ⟨f x, fun i => fderiv ℝ f x (u i)⟩

/-- The variables depend differentiably on the parameter at `x`. -/
def SmoothVars (x : E) (σ : Vars (E → ℝ) n) : Prop :=
  (∀ i, ∀ c ∈ (σ.s i).cps, DifferentiableAt ℝ c x) ∧ ∀ i, ∀ c ∈ (σ.p i).cps, ∀ k, DifferentiableAt ℝ (c.val k) x

/-- The same for the rational variables too: control points and weights. -/
def SmoothRVars (x : E) (σ : RVars (E → ℝ) n) : Prop :=
  SmoothVars x σ.toVars ∧
  (∀ i, (∀ c ∈ (σ.rs i).num.cps, DifferentiableAt ℝ c x) ∧ ∀ c ∈ (σ.rs i).wt.cps, DifferentiableAt ℝ c x) ∧
  ∀ i, (∀ c ∈ (σ.rp i).num.cps, ∀ k, DifferentiableAt ℝ (c.val k) x) ∧ ∀ c ∈ (σ.rp i).wt.cps, DifferentiableAt ℝ c x

/-- A constant of the program depends differentiably on the parameter at `x`. -/
def SmoothConstant (x : E) (c : E → ℝ) : Prop := DifferentiableAt ℝ c x

/-- A list of split planes depends differentiably on the parameter at `x`, and no plane but the last is at the end of the domain. -/
def SmoothPlanes (x : E) (zs : List (E → ℝ)) : Prop := (∀ z ∈ zs, DifferentiableAt ℝ z x) ∧ ∀ z ∈ zs.dropLast, z x ≠ 1

/-- A computation with a number as result follows its derivatives: its result `o y` at the parameter value `y` is a function of `y`
differentiable at `x`, and the computation `a` with `AlgoDiffType` numbers returns value and derivatives of this function at `x`. -/
def Follows (u : Fin m → E) (x : E) (o : E → M ℝ) (a : M (Dual ℝ m)) : Prop :=
  ∃ c : E → ℝ, DifferentiableAt ℝ c x ∧ (∀ y, o y = .ok (c y)) ∧ a = .ok (jet u x c)

/-- The same for a point as result. -/
def FollowsPoint (u : Fin m → E) (x : E) (o : E → M (Point ℝ n)) (a : M (Point (Dual ℝ m) n)) : Prop :=
  ∃ c : Point (E → ℝ) n, (∀ k, DifferentiableAt ℝ (c.val k) x) ∧ (∀ y, o y = .ok (c.map (· y))) ∧ a = .ok (c.map (jet u x))

/-- The same for a list of numbers as result. -/
def FollowsList (u : Fin m → E) (x : E) (o : E → M (List ℝ)) (a : M (List (Dual ℝ m))) : Prop :=
  ∃ c : List (E → ℝ), (∀ f ∈ c, DifferentiableAt ℝ f x) ∧ (∀ y, o y = .ok (c.map (· y))) ∧ a = .ok (c.map (jet u x))

/-- The same for computations that divide: at other parameter values than `x` they may end in a division by zero. -/
def FollowsQuotient (u : Fin m → E) (x : E) (o : E → M ℝ) (a : M (Dual ℝ m)) : Prop :=
  ∃ c : E → ℝ, DifferentiableAt ℝ c x ∧ o x = .ok (c x) ∧ (∀ y, o y = .ok (c y) ∨ o y = .error .divZero) ∧ a = .ok (jet u x c)

/-- The same for a point as result. -/
def FollowsQuotientPoint (u : Fin m → E) (x : E) (o : E → M (Point ℝ n)) (a : M (Point (Dual ℝ m) n)) : Prop :=
  ∃ c : Point (E → ℝ) n, (∀ k, DifferentiableAt ℝ (c.val k) x) ∧ o x = .ok (c.map (· x)) ∧
    (∀ y, o y = .ok (c.map (· y)) ∨ o y = .error .divZero) ∧ a = .ok (c.map (jet u x))

/-- The same for a list of numbers as result. -/
def FollowsQuotientList (u : Fin m → E) (x : E) (o : E → M (List ℝ)) (a : M (List (Dual ℝ m))) : Prop :=
  ∃ c : List (E → ℝ), (∀ f ∈ c, DifferentiableAt ℝ f x) ∧ o x = .ok (c.map (· x)) ∧
    (∀ y, o y = .ok (c.map (· y)) ∨ o y = .error .divZero) ∧ a = .ok (c.map (jet u x))

end Bezman.Spec
