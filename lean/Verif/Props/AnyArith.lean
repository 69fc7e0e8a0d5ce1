import Verif.Proofs.AnyArith
import Verif.Props.Examples

/-! # Properties: outcomes that do not depend on the arithmetic

The scalars and the points are arbitrary types with arbitrary operations.  In particular they may be floating point numbers with
rounding, infinities and NaNs, for which comparisons need not be an order, or automatic differentiation types. -/

namespace Bezman.Props
open Spec

section
variable {K V W U : Type} [Zero K] [One K] [Add K] [Sub K] [Mul K] [Neg K] [Div K] [NatCast K]
  [Zero V] [Add V] [Sub V] [Neg V] [SMul K V]

/-- C80. Sums, differences, negation, scaling and translation return, with the degrees of the result. -/
theorem C80_arithmetic (cfg : Cfg) (a b : Spline V) (da db : List ℕ) (ha : HasShape da a) (hb : HasShape db b) :
    (Fits cfg da db → Returns (maxDegrees da db) (Spline.addOp K cfg a b) ∧ Returns (maxDegrees da db) (Spline.addAssign K cfg a b) ∧
      Returns (maxDegrees da db) (Spline.subAssign K cfg a b) ∧
      ((∀ d p q : ℕ, da[d]? = some p → db[d]? = some q → q ≤ p) → Returns (maxDegrees da db) (Spline.subOp K cfg a b))) ∧
    Returns da a.negOp ∧ (∀ c : K, Returns da (a.smulOp c)) ∧
    ∀ v : V, Returns da (a.addPoint v) ∧ Returns da (a.subPoint v) ∧ Returns da (Spline.pointSub v a) :=
  ⟨fun h => ⟨Spline.addOp_returns cfg ha hb h, Spline.addAssign_returns cfg ha hb h, Spline.subAssign_returns cfg ha hb h,
      Spline.subOp_returns cfg ha hb h⟩,
    Spline.negOp_returns ha, Spline.smulOp_returns ha,
    fun v => ⟨Spline.addPoint_returns ha v, Spline.subPoint_returns ha v, Spline.pointSub_returns ha v⟩⟩

/-- C80. Products and powers return, for every product of points. -/
theorem C80_product [Zero U] [Add U] [Sub U] [Neg U] [SMul K U] (cfg : Cfg) (hmax : cfg.maxBinom ≤ 68) (mul : V → W → U) (a : Spline V)
    (b : Spline W) (da db : List ℕ) (ha : HasShape da a) (hb : HasShape db b) (hdim : db.length = da.length)
    (hdeg : ∀ p ∈ sumDegrees da db, p < cfg.maxBinom) :
    Returns (sumDegrees da db) (Spline.mulOp K cfg mul a b) := Spline.mulOp_returns cfg hmax mul ha hb hdim hdeg

/-- C80. Powers return. -/
theorem C80_power (cfg : Cfg) (hmax : cfg.maxBinom ≤ 68) (a : Spline K) (ds : List ℕ) (ha : HasShape ds a) (k : ℕ)
    (hdeg : ∀ p ∈ ds, k * p < cfg.maxBinom) : Returns (ds.map (fun p => k * p)) (Spline.raisePower cfg a k) :=
  Spline.raisePower_returns cfg hmax ha k hdeg

/-- C80. Degree elevation and differentiation return. -/
theorem C80_elevate_derive (cfg : Cfg) (hmax : cfg.maxBinom ≤ 68) (a : Spline V) (ds : List ℕ) (ha : HasShape ds a) :
    (∀ d < ds.length, size (ds.modify d (· + 1)) < 2 ^ 31 → Returns (ds.modify d (· + 1)) (Spline.orderElevate K a d)) ∧
    ∀ orders : List ℕ, orders.length = ds.length → (∀ d o p : ℕ, orders[d]? = some o → ds[d]? = some p → o ≤ p) →
      (∀ o ∈ orders, o < cfg.maxBinom) → size ds < 2 ^ 64 →
      Returns (List.zipWith (· - ·) ds orders) (Spline.derivativeSpline K cfg a orders) :=
  ⟨fun _ hd hs => Spline.orderElevate_returns ha hd hs, fun _ hl hle hord hs => Spline.derivativeSpline_returns cfg hmax ha hl hle hord hs⟩

/-- C80. The evaluators and the basis functions return, at every parameter. -/
theorem C80_evaluate (cfg : Cfg) (hmax : cfg.maxBinom ≤ 68) (a : Spline V) (ds : List ℕ) (ha : HasShape ds a) (t : List K)
    (ht : t.length = ds.length) :
    (∃ x, a.evaluate t = .ok x) ∧
    ((∀ p ∈ ds, p < cfg.maxBinom) →
      (∃ x, a.forwardEvaluate cfg t = .ok x) ∧ (∃ l, a.basisFunctions cfg t = .ok l ∧ l.length = size ds) ∧
      ∀ k : List ℕ, k.length = ds.length → ∃ x, a.evaluateDerivative cfg t k = .ok x) :=
  ⟨Spline.evaluate_returns ha t ht, fun hd => ⟨Spline.forwardEvaluate_returns cfg hmax ha hd t ht,
    Spline.basisFunctions_returns (K := K) cfg hmax ha hd t ht, fun k hk => Spline.evaluateDerivative_returns cfg hmax ha hd t ht k hk⟩⟩

variable [LT K] [DecidableLT K]

/-- C80. A split returns two splines exactly if the comparisons say that the position lies inside, and throws otherwise. -/
theorem C80_split (a : Spline V) (ds : List ℕ) (ha : HasShape ds a) (d : ℕ) (hd : d < ds.length) (z : K) :
    (¬ (0 < z ∧ z < 1) ∧ a.splitAt z d = .error .throws) ∨
      (0 < z ∧ z < 1) ∧ ∃ l r, a.splitAt z d = .ok (l, r) ∧ HasShape ds l ∧ HasShape ds r := Spline.splitAt_shape ha hd z

/-- C80. A split at many planes returns one more spline than there are planes, or throws. -/
theorem C80_split_many (a : Spline V) (ds : List ℕ) (ha : HasShape ds a) (d : ℕ) (hd : d < ds.length) (zs : List K) :
    a.splitAtMany zs d = .error .throws ∨
      ∃ l, a.splitAtMany zs d = .ok l ∧ l.length = zs.length + 1 ∧ ∀ x ∈ l, HasShape ds x := Spline.splitAtMany_shape ha hd zs

/-- C80. The unit cube check returns; a composition returns a spline if the check succeeds, and throws otherwise; so do the
sensitivities, one for each control point of the outer spline. -/
theorem C80_compose [Coords K W] (cfg : Cfg) (hmax : cfg.maxBinom ≤ 68) (a : Spline V) (b : Spline W) (da db : List ℕ)
    (ha : HasShape da a) (hb : HasShape db b) (hdim : da.length = Coords.n K W) (hdeg : ∀ p ∈ da, p < cfg.maxBinom)
    (hdeg' : ∀ q ∈ db, da.sum * q < cfg.maxBinom) :
    (Spline.fitsIntoUnitCube K b = .ok false ∧ Spline.compose K cfg a b = .error .throws ∧
      Spline.composeSensitivity K cfg a b = .error .throws) ∨
    (Spline.fitsIntoUnitCube K b = .ok true ∧ Returns (db.map (fun q => da.sum * q)) (Spline.compose K cfg a b) ∧
      ∃ l, Spline.composeSensitivity K cfg a b = .ok l ∧ l.length = a.ncp ∧ ∀ x ∈ l, HasShape (db.map (fun q => da.sum * q)) x) := by
  rcases Spline.compose_shape (K := K) cfg hmax ha hb hdim hdeg hdeg' with ⟨h1, h2⟩ | ⟨h1, h2⟩ <;>
    rcases Spline.sensitivity_shape (K := K) cfg hmax ha hb hdim hdeg hdeg' with ⟨h3, h4⟩ | ⟨h3, h4⟩
  · exact .inl ⟨h1, h2, h4⟩
  · rw [h1] at h3; cases h3
  · rw [h1] at h3; cases h3
  · exact .inr ⟨h1, h2, h4⟩

end

section
variable {K : Type} {n : ℕ} [Zero K] [One K] [Add K] [Sub K] [Mul K] [Neg K] [Div K] [NatCast K] [LT K] [DecidableLT K]

/-- C80. A program whose degrees, dimensions and indices are in order returns a consistent spline with the expected degrees, or
throws, whatever the numbers. -/
theorem C80_scalar_program (cfg : Cfg) (hmax : cfg.maxBinom ≤ 68) (σ : Vars K n) (ds dp : ℕ → List ℕ)
    (hs : ∀ i, HasShape (ds i) (σ.s i)) (hp : ∀ i, HasShape (dp i) (σ.p i)) (e : SExpr K n) (he : e.WellShaped cfg ds dp) :
    ReturnsOrThrows (e.shape ds dp) (e.run cfg σ) := SExpr.run_shape hmax hs hp e he

/-- C80 for point valued programs. -/
theorem C80_point_program (cfg : Cfg) (hmax : cfg.maxBinom ≤ 68) (σ : Vars K n) (ds dp : ℕ → List ℕ)
    (hs : ∀ i, HasShape (ds i) (σ.s i)) (hp : ∀ i, HasShape (dp i) (σ.p i)) (e : PExpr K n) (he : e.WellShaped cfg ds dp) :
    ReturnsOrThrows (e.shape ds dp) (e.run cfg σ) := PExpr.run_shape hmax hs hp e he

/-- C80. So no such program ever accesses memory outside of an array, fails an assertion, narrows, divides an integer by zero or
loops for ever. -/
theorem C80_no_undefined_behaviour (cfg : Cfg) (hmax : cfg.maxBinom ≤ 68) (σ : Vars K n) (ds dp : ℕ → List ℕ)
    (hs : ∀ i, HasShape (ds i) (σ.s i)) (hp : ∀ i, HasShape (dp i) (σ.p i)) (e : PExpr K n) (he : e.WellShaped cfg ds dp) (err : Err)
    (h : e.run cfg σ = .error err) : err = .throws := by
  rcases C80_point_program cfg hmax σ ds dp hs hp e he with h' | ⟨r, h', -⟩
  · rw [h] at h'; exact Except.error.inj h'
  · rw [h] at h'; cases h'

end

/-! ### Examples: numbers with a NaN -/

/-- exact numbers and a NaN, which every operation propagates and every comparison rejects -/
structure WithNaN where
  val : Option ℚ

namespace WithNaN
def lift (f : ℚ → ℚ → ℚ) (a b : WithNaN) : WithNaN := ⟨a.val.bind fun x => b.val.map (f x)⟩
instance : Zero WithNaN := ⟨⟨some 0⟩⟩
instance : One WithNaN := ⟨⟨some 1⟩⟩
instance : Add WithNaN := ⟨lift (· + ·)⟩
instance : Sub WithNaN := ⟨lift (· - ·)⟩
instance : Mul WithNaN := ⟨lift (· * ·)⟩
instance : Neg WithNaN := ⟨fun a => ⟨a.val.map (- ·)⟩⟩
instance : Div WithNaN := ⟨fun a b => if b.val = some 0 then ⟨none⟩ else lift (· / ·) a b⟩
instance : NatCast WithNaN := ⟨fun n => ⟨some n⟩⟩
instance : LT WithNaN := ⟨fun a b => ∃ x ∈ a.val, ∃ y ∈ b.val, x < y⟩
instance : DecidableLT WithNaN := fun a b =>
  match ha : a.val, hb : b.val with
  | none, _ => isFalse (by rintro ⟨x, hx, -⟩; rw [ha] at hx; cases hx)
  | some x, none => isFalse (by rintro ⟨x, -, y, hy, -⟩; rw [hb] at hy; cases hy)
  | some x, some y => if h : x < y then isTrue ⟨x, ha, y, hb, h⟩ else isFalse (by
      rintro ⟨x', hx, y', hy, h'⟩
      rw [ha] at hx; rw [hb] at hy
      cases hx; cases hy
      exact h h')
/-- not a number -/
def nan : WithNaN := ⟨none⟩
end WithNaN

/-- a surface with a NaN among its control points, and a surface in the plane, also with a NaN -/
def σN : Vars WithNaN 2 where
  s _ := Ex.surf 1 0 .nan 1 0 1
  p _ := Ex.surf ⟨![0, 0]⟩ ⟨![1, .nan]⟩ ⟨![1, 1]⟩ ⟨![0, 1]⟩ ⟨![1, 1]⟩ ⟨![.nan, 1]⟩

/-- composition, product, split at a NaN and a difference -/
def progN : PExpr WithNaN 2 := .subAssign (.splitLeft (.mulLeft (.compose (.leaf 0) (.leaf 0)) (.leaf 0)) .nan 0) (.leaf 0)

theorem progN_wellShaped : progN.WellShaped Ex.cfg (fun _ => [2, 1]) (fun _ => [2, 1]) := by
  refine ⟨⟨⟨⟨trivial, trivial, rfl, by decide, by decide⟩, trivial, rfl, by decide⟩, by decide⟩, trivial, rfl, by decide, by decide, by decide⟩

example : ReturnsOrThrows [8, 4] (progN.run Ex.cfg σN) :=
  C80_point_program Ex.cfg Ex.cfg_ok σN _ _ (fun _ => ⟨Ex.surf_wf .., rfl⟩) (fun _ => ⟨Ex.surf_wf .., rfl⟩) progN progN_wellShaped

/-- A split at a NaN throws, but an inner spline with NaNs passes the unit cube check: the comparisons that would reject it are false. -/
example : (σN.s 0).splitAt WithNaN.nan 0 = .error .throws ∧ Spline.fitsIntoUnitCube WithNaN (σN.p 0) = .ok true := ⟨rfl, rfl⟩

end Bezman.Props
