import Verif.Proofs.AlgoDiff

/-!
# Properties of algorithmic differentiation (C45-C48, C62)

`Spec.Tracks dirs x f a` says that the `AlgoDiffType` `a` holds the value of `f` at `x` and
the derivatives of `f` at `x` in the directions `dirs`, `f` being differentiable there.
-/

namespace Bezman.Props
open Bezman Spec

section
variable {E : Type} [NormedAddCommGroup E] [NormedSpace ℝ E] (dirs : List E) (x : E) (f g : E → ℝ) (a b : ADT ℝ)

/-! ## C45 -/

/-- C45, `a + b` and `a += b`. -/
theorem C45_add (ha : Tracks dirs x f a) (hb : Tracks dirs x g b) :
    ∃ r, a.add b = .ok r ∧ a.addAssign b = .ok r ∧ Tracks dirs x (fun y => f y + g y) r := by
  obtain ⟨r, e, h⟩ := Lift.add (laws_real x) (tracks_iff.1 ha) (tracks_iff.1 hb)
  exact ⟨r, e, e, tracks_iff.2 h⟩

/-- C45, `a - b` and `a -= b`. -/
theorem C45_sub (ha : Tracks dirs x f a) (hb : Tracks dirs x g b) :
    ∃ r, a.sub b = .ok r ∧ a.subAssign b = .ok r ∧ Tracks dirs x (fun y => f y - g y) r := by
  obtain ⟨r, e, h⟩ := Lift.sub' (laws_real x) (tracks_iff.1 ha) (tracks_iff.1 hb)
  refine ⟨r, ?_, e, tracks_iff.2 h⟩
  simp [ADT.sub, (tracks_iff.1 ha).assert (tracks_iff.1 hb), e]

/-- C45, `a * b` and `a *= b`. -/
theorem C45_mul (ha : Tracks dirs x f a) (hb : Tracks dirs x g b) :
    ∃ r, a.mul b = .ok r ∧ a.mulAssign b = .ok r ∧ Tracks dirs x (fun y => f y * g y) r := by
  obtain ⟨r, e, h⟩ := Lift.mul (laws_real x) (tracks_iff.1 ha) (tracks_iff.1 hb)
  exact ⟨r, e, e, tracks_iff.2 h⟩

/-- C45, `a / b` and `a /= b` for a divisor that is not zero. -/
theorem C45_div (ha : Tracks dirs x f a) (hb : Tracks dirs x g b) (h0 : g x ≠ 0) :
    ∃ r, a.div b = .ok r ∧ a.divAssign b = .ok r ∧ Tracks dirs x (fun y => f y / g y) r := by
  obtain ⟨r, e, h⟩ := Lift.div (laws_real x) (tracks_iff.1 ha) (tracks_iff.1 hb) h0
  exact ⟨r, e, e, tracks_iff.2 h⟩

/-- C45, `-a`. -/
theorem C45_neg (ha : Tracks dirs x f a) : ∃ r, a.neg = .ok r ∧ Tracks dirs x (fun y => -f y) r := by
  obtain ⟨r, e, h⟩ := Lift.neg (laws_real x) (tracks_iff.1 ha)
  exact ⟨r, e, tracks_iff.2 h⟩

/-- C45, a plain number on the right: `a + c`, `a - c`, `a * c`, `a / c`. -/
theorem C45_scalar_right (c : ℝ) (ha : Tracks dirs x f a) :
    (∃ r, a.addScalar c = .ok r ∧ Tracks dirs x (fun y => f y + c) r) ∧
    (∃ r, a.subScalar c = .ok r ∧ Tracks dirs x (fun y => f y - c) r) ∧
    (∃ r, a.mulScalar c = .ok r ∧ Tracks dirs x (fun y => f y * c) r) ∧
    (c ≠ 0 → ∃ r, a.divScalar c = .ok r ∧ Tracks dirs x (fun y => f y / c) r) := by
  simp only [tracks_iff] at ha ⊢
  exact ⟨Lift.addScalar (laws_real x) ha rfl, Lift.subScalar (laws_real x) ha rfl,
    Lift.mulScalar (laws_real x) ha rfl, Lift.divScalar ha⟩

/-- C45, the compound forms `a += c`, `a -= c`, `a *= c`, `a /= c` with a plain number. -/
theorem C45_scalar_assign (c : ℝ) (ha : Tracks dirs x f a) :
    (∃ r, a.addAssignScalar c = .ok r ∧ Tracks dirs x (fun y => f y + c) r) ∧
    (∃ r, a.subAssignScalar c = .ok r ∧ Tracks dirs x (fun y => f y - c) r) ∧
    (∃ r, a.mulAssignScalar c = .ok r ∧ Tracks dirs x (fun y => f y * c) r) ∧
    (c ≠ 0 → ∃ r, a.divAssignScalar c = .ok r ∧ Tracks dirs x (fun y => f y / c) r) :=
  C45_scalar_right dirs x f a c ha

/-- C45, a plain number on the left: `c + a`, `c - a`, `c * a`, `c / a`. -/
theorem C45_scalar_left (c : ℝ) (ha : Tracks dirs x f a) :
    (∃ r, ADT.scalarAdd c a = .ok r ∧ Tracks dirs x (fun y => c + f y) r) ∧
    (∃ r, ADT.scalarSub c a = .ok r ∧ Tracks dirs x (fun y => c - f y) r) ∧
    (∃ r, ADT.scalarMul c a = .ok r ∧ Tracks dirs x (fun y => c * f y) r) ∧
    (f x ≠ 0 → ∃ r, ADT.scalarDiv c a = .ok r ∧ Tracks dirs x (fun y => c / f y) r) := by
  simp only [tracks_iff] at ha ⊢
  exact ⟨Lift.scalarAdd (laws_real x) ha rfl, Lift.scalarSub (laws_real x) ha rfl,
    Lift.scalarMul (laws_real x) ha rfl, fun h => Lift.scalarDiv (laws_real x) ha rfl h⟩

/-- C45. A constant (`AlgoDiffType(c, n)`) has zero derivatives. -/
theorem C45_const (c : ℝ) : Tracks dirs x (fun _ => c) (ADT.const c dirs.length) :=
  tracks_iff.2 (Lift.const (laws_real x) rfl)

/-- C45. The compound operators may be applied to an object and itself: `a += a`, `a -= a`,
`a *= a`, `a /= a` give what the binary operators give. -/
theorem C45_self_assign : a.addAssignSelf = a.add a ∧ a.subAssignSelf = a.sub a ∧
    a.mulAssignSelf = a.mul a ∧ a.divAssignSelf = a.div a := by
  simp [ADT.addAssignSelf, ADT.add, ADT.addAssign, ADT.subAssignSelf, ADT.sub, ADT.subAssign,
    ADT.mulAssignSelf, ADT.mul, ADT.mulAssign, ADT.divAssignSelf, ADT.div, ADT.divAssign, ADT.zipSelf_eq, assertM]

/-- C45. Operands with different numbers of derivatives fail an assertion... -/
theorem C45_sizes (h : a.d.length ≠ b.d.length) : a.add b = .error .assertFail ∧
    a.sub b = .error .assertFail ∧ a.mul b = .error .assertFail ∧ a.div b = .error .assertFail := by
  have : assertM.{0} (b.d.length == a.d.length) = .error .assertFail := by
    simp [assertM, Ne.symm h]
  simp only [ADT.add, ADT.addAssign, ADT.sub, ADT.mul, ADT.mulAssign, ADT.div, ADT.divAssign, this, bind_error,
    and_self]

end

/-- C45. ... except for `-=`, which reads behind the end of the shorter operand. -/
theorem C45_sub_assign_unchecked (a b : ADT ℝ) (h : b.d.length < a.d.length) :
    a.subAssign b = .error .ub := by
  have key : ADT.zipD (fun x y : ℝ => Scal.sub x y) a.d b.d = .error .ub := by
    have inv : ∃ s, loop b.d.length (fun i d => do
        let x ← rd d i
        let y ← rd b.d i
        let z ← Scal.sub x y
        wr d i z) a.d = .ok s ∧ s.length = a.d.length := by
      refine loop_inv (fun _ (s : List ℝ) => s.length = a.d.length) rfl ?_
      intro k hk s hs
      refine ⟨s.set k (s[k]'(by omega) - b.d[k]), ?_, by simpa using hs⟩
      rw [rd_getElem (by omega), rd_getElem hk]
      exact wr_ok _ (by omega)
    obtain ⟨s, es, hs⟩ := inv
    have : ∀ m, loop (b.d.length + 1 + m) (fun i d => do
        let x ← rd d i
        let y ← rd b.d i
        let z ← Scal.sub x y
        wr d i z) a.d = .error .ub := by
      intro m
      induction m with
      | zero =>
        rw [Nat.add_zero, loop_succ, es, bind_ok, rd_getElem (by omega), rd_ub le_rfl]
        rfl
      | succ m ih =>
        rw [← Nat.add_assoc, loop_succ, ih]; rfl
    have := this (a.d.length - b.d.length - 1)
    rw [show b.d.length + 1 + (a.d.length - b.d.length - 1) = a.d.length by omega] at this
    exact this
  have e : Scal.sub a.v b.v = .ok (a.v - b.v) := rfl
  simp only [ADT.subAssign, e, bind_ok]
  erw [key]
  rfl

/-! ## C46 -/

section
variable {E : Type} [NormedAddCommGroup E] [NormedSpace ℝ E] (dirs : List E) (x : E) (f g : E → ℝ) (a b : ADT ℝ)

/-- C46, `exp`. -/
theorem C46_exp (ha : Tracks dirs x f a) : ∃ r, a.exp = .ok r ∧ Tracks dirs x (fun y => Real.exp (f y)) r := by
  simp only [tracks_iff] at ha ⊢; exact Lift.exp (laws_real x) ha

/-- C46, `log`. -/
theorem C46_log (ha : Tracks dirs x f a) (h : 0 < f x) :
    ∃ r, a.log = .ok r ∧ Tracks dirs x (fun y => Real.log (f y)) r := by
  simp only [tracks_iff] at ha ⊢; exact Lift.log (laws_real x) ha h

/-- C46, `log10`. -/
theorem C46_log10 (ha : Tracks dirs x f a) (h : 0 < f x) :
    ∃ r, a.log10 = .ok r ∧ Tracks dirs x (fun y => Real.logb 10 (f y)) r := by
  simp only [tracks_iff] at ha ⊢; exact Lift.log10 (laws_real x) ha h

/-- C46, `sqrt`. -/
theorem C46_sqrt (ha : Tracks dirs x f a) (h : 0 < f x) :
    ∃ r, a.sqrt = .ok r ∧ Tracks dirs x (fun y => Real.sqrt (f y)) r := by
  simp only [tracks_iff] at ha ⊢; exact Lift.sqrt (laws_real x) ha h

/-- C46, `pow` with a constant power.  Missing: the power 0 at base 0, see
`C46_pow_fails`. -/
theorem C46_pow_scalar_partial (c : ℝ) (ha : Tracks dirs x f a) (h : PowOk (f x) c) :
    ∃ r, a.powScalar c = .ok r ∧ Tracks dirs x (fun y => f y ^ c) r := by
  simp only [tracks_iff] at ha ⊢
  rcases h with h | ⟨m, rfl, h⟩
  · exact Lift.powScalar (laws_real x) ha rfl h
  · exact Lift.powScalarInt ha h

/-- C46, `pow` with a variable power. -/
theorem C46_pow (ha : Tracks dirs x f a) (hb : Tracks dirs x g b) (h : 0 < f x) :
    ∃ r, a.pow b = .ok r ∧ Tracks dirs x (fun y => f y ^ g y) r := by
  simp only [tracks_iff] at ha hb ⊢; exact Lift.pow (laws_real x) ha hb h

/-- C46, `abs`. -/
theorem C46_abs (ha : Tracks dirs x f a) (h : f x ≠ 0) :
    ∃ r, a.abs = .ok r ∧ Tracks dirs x (fun y => |f y|) r := by
  simp only [tracks_iff] at ha ⊢; exact Lift.abs (laws_real x) ha h

/-- C46, `sin`. -/
theorem C46_sin (ha : Tracks dirs x f a) : ∃ r, a.sin = .ok r ∧ Tracks dirs x (fun y => Real.sin (f y)) r := by
  simp only [tracks_iff] at ha ⊢; exact Lift.sin (laws_real x) ha

/-- C46, `cos`. -/
theorem C46_cos (ha : Tracks dirs x f a) : ∃ r, a.cos = .ok r ∧ Tracks dirs x (fun y => Real.cos (f y)) r := by
  simp only [tracks_iff] at ha ⊢; exact Lift.cos (laws_real x) ha

/-- C46, `tan`. -/
theorem C46_tan (ha : Tracks dirs x f a) (h : Real.cos (f x) ≠ 0) :
    ∃ r, a.tan = .ok r ∧ Tracks dirs x (fun y => Real.tan (f y)) r := by
  simp only [tracks_iff] at ha ⊢; exact Lift.tan (laws_real x) ha h

/-- C46, `asin`. -/
theorem C46_asin (ha : Tracks dirs x f a) (h1 : -1 < f x) (h2 : f x < 1) :
    ∃ r, a.asin = .ok r ∧ Tracks dirs x (fun y => Real.arcsin (f y)) r := by
  simp only [tracks_iff] at ha ⊢; exact Lift.asin ha h1 h2

/-- C46, `acos`. -/
theorem C46_acos (ha : Tracks dirs x f a) (h1 : -1 < f x) (h2 : f x < 1) :
    ∃ r, a.acos = .ok r ∧ Tracks dirs x (fun y => Real.arccos (f y)) r := by
  simp only [tracks_iff] at ha ⊢; exact Lift.acos ha h1 h2

/-- C46, `atan`. -/
theorem C46_atan (ha : Tracks dirs x f a) : ∃ r, a.atan = .ok r ∧ Tracks dirs x (fun y => Real.arctan (f y)) r := by
  simp only [tracks_iff] at ha ⊢; exact Lift.atan (laws_real x) ha

/-- C46 does not hold for `pow(a, 0.)` where the base is zero: the function is the constant
one, but the code computes `0 * 0^(-1)`. -/
theorem C46_pow_fails (ha : Tracks dirs x f a) (h0 : f x = 0) :
    a.powScalar 0 = .error .domain ∧ ∀ y, f y ^ (0 : ℝ) = 1 := by
  refine ⟨?_, fun y => Real.rpow_zero _⟩
  have e1 : Scal.subBase (0 : ℝ) (1 : ℝ) = .ok (-1) := by simp [Scal.subBase]
  have e2 : Scal.pow a.v (-1 : ℝ) = .error .domain := by
    rw [ha.value, h0]
    change (if (0 : ℝ) < 0 then _ else if (0 : ℝ) = 0 then if (0 : ℝ) ≤ -1 then _ else _ else _) = _
    norm_num
  simp only [ADT.powScalar, e1, bind_ok, e2]
  rfl

end

/-! ## C47 -/

/-- C47. Every program that combines the independent variables `x_0, ..., x_(n-1)` (seeded with
`AlgoDiffType(x_i, n, i)`) with the operations of `AlgoDiffType` runs without failure at every
point at which each operation is applied inside the domain where it is differentiable, and its
result holds the value and the gradient of the function that the program means. -/
theorem C47_gradient (x : List ℝ) (e : DExpr ℝ) (h : Smooth (point x) e) :
    ∃ a, e.run x = .ok a ∧ a.v = denote e (point x) ∧ DifferentiableAt ℝ (denote e) (point x) ∧
      a.d.length = x.length ∧
      ∀ i : Fin x.length, a.d[i.1]? = some (fderiv ℝ (denote e) (point x) (Pi.single i 1)) := by
  obtain ⟨a, ea, ha⟩ := run_tracks x e h
  have ha := tracks_iff.2 ha
  refine ⟨a, ea, ha.value, ha.differentiable, by rw [ha.derivs]; simp [axes], ?_⟩
  intro i
  rw [ha.derivs]
  simp [axes]

/-- `sin(x) * pow(y, 2.5) / (1 + exp(x))` at `(1, 2)`. -/
noncomputable example : ∃ a, (DExpr.div (.mul (.sin (.var 0)) (.powScalar (.var 1) (5 / 2)))
      (.scalarAdd 1 (.exp (.var 0)))).run [(1 : ℝ), 2] = .ok a ∧ a.d.length = 2 := by
  obtain ⟨a, ea, -, -, ha, -⟩ := C47_gradient [1, 2] (DExpr.div (.mul (.sin (.var 0)) (.powScalar (.var 1) (5 / 2)))
      (.scalarAdd 1 (.exp (.var 0))))
    ⟨⟨by simp [Smooth], by simp [Smooth], Or.inl (by simp [denote, coord, point])⟩, by simp [Smooth],
      by have := Real.exp_pos (coord (point [(1 : ℝ), 2]) 0); simp only [denote]; positivity⟩
  exact ⟨a, ea, ha⟩

/-! Concrete operands: the two variables of the function at `(3, -2)`. -/

/-- The first variable. -/
theorem ex_var0 : Tracks (axes 2) (point [(3 : ℝ), -2]) (fun y => coord y 0) ⟨3, [1, 0]⟩ := by
  obtain ⟨a, ea, ha⟩ := run_tracks [(3 : ℝ), -2] (.var 0) (by simp [Smooth])
  have : (DExpr.var 0).run [(3 : ℝ), -2] = .ok ⟨3, [1, 0]⟩ := rfl
  rw [this] at ea
  cases ea
  exact tracks_iff.2 ha

/-- The second variable. -/
theorem ex_var1 : Tracks (axes 2) (point [(3 : ℝ), -2]) (fun y => coord y 1) ⟨-2, [0, 1]⟩ := by
  obtain ⟨a, ea, ha⟩ := run_tracks [(3 : ℝ), -2] (.var 1) (by simp [Smooth])
  have : (DExpr.var 1).run [(3 : ℝ), -2] = .ok ⟨-2, [0, 1]⟩ := rfl
  rw [this] at ea
  cases ea
  exact tracks_iff.2 ha

noncomputable example := C45_add _ _ _ _ _ _ ex_var0 ex_var1
noncomputable example := C45_sub _ _ _ _ _ _ ex_var0 ex_var1
noncomputable example := C45_mul _ _ _ _ _ _ ex_var0 ex_var1
noncomputable example := C45_div _ _ _ _ _ _ ex_var0 ex_var1 (by simp [coord, point])
noncomputable example := C45_neg _ _ _ _ ex_var0
noncomputable example := C45_scalar_right _ _ _ _ 5 ex_var0
noncomputable example := C45_scalar_assign _ _ _ _ 5 ex_var0
noncomputable example := C45_scalar_left _ _ _ _ 5 ex_var0
noncomputable example := C45_sizes ⟨3, [1, 0]⟩ ⟨-2, [1]⟩ (by simp)
noncomputable example := C45_sub_assign_unchecked ⟨3, [1, 0]⟩ ⟨-2, [1]⟩ (by simp)
noncomputable example := C46_exp _ _ _ _ ex_var1
noncomputable example := C46_log _ _ _ _ ex_var0 (by simp [coord, point])
noncomputable example := C46_log10 _ _ _ _ ex_var0 (by simp [coord, point])
noncomputable example := C46_sqrt _ _ _ _ ex_var0 (by simp [coord, point])
noncomputable example := C46_pow_scalar_partial _ _ _ _ (1 / 3) ex_var0 (Or.inl (by simp [coord, point]))
noncomputable example := C46_pow_scalar_partial _ _ _ _ (-3) ex_var1
  (Or.inr ⟨-3, by simp, Or.inl (by simp [coord, point])⟩)
noncomputable example := C46_pow _ _ _ _ _ _ ex_var0 ex_var1 (by simp [coord, point])
noncomputable example := C46_abs _ _ _ _ ex_var1 (by simp [coord, point])
noncomputable example := C46_sin _ _ _ _ ex_var1
noncomputable example := C46_cos _ _ _ _ ex_var1
noncomputable example := C46_tan _ _ _ _ (C45_const (axes 2) (point [(3 : ℝ), -2]) 0) (by simp)
noncomputable example := C46_asin _ _ _ _ (C45_const (axes 2) (point [(3 : ℝ), -2]) 0) (by simp) (by simp)
noncomputable example := C46_acos _ _ _ _ (C45_const (axes 2) (point [(3 : ℝ), -2]) 0) (by simp) (by simp)
noncomputable example := C46_atan _ _ _ _ ex_var1
noncomputable example := C46_pow_fails _ _ _ _ (C45_const (axes 2) (point [(3 : ℝ), -2]) 0) rfl

/-! ## C62 -/

/-- C62. Running the program with nested `AlgoDiffType`s gives value, gradient and second
derivatives: component `j` of derivative `i` is the derivative in direction `j` of the
derivative in direction `i`.  Missing: powers with a constant exponent of non-positive
values, see `C62_fails`. -/
theorem C62_hessian_partial (x : List ℝ) (e : DExpr ℝ) (h : Smooth (point x) e) (hn : Nestable (point x) e) :
    ∃ a : ADT (ADT ℝ), e.runNested x = .ok a ∧ a.v.v = denote e (point x) ∧
      (∀ᶠ y in nhds (point x), DifferentiableAt ℝ (denote e) y) ∧ a.d.length = x.length ∧
      (∀ i : Fin x.length, a.v.d[i.1]? = some (fderiv ℝ (denote e) (point x) (Pi.single i 1))) ∧
      ∀ i : Fin x.length, ∃ b, a.d[i.1]? = some b ∧
        b.v = fderiv ℝ (denote e) (point x) (Pi.single i 1) ∧ b.d.length = x.length ∧
        DifferentiableAt ℝ (fun y => fderiv ℝ (denote e) y (Pi.single i 1)) (point x) ∧
        ∀ j : Fin x.length, b.d[j.1]? = some (fderiv ℝ (fun y => fderiv ℝ (denote e) y (Pi.single i 1)) (point x)
          (Pi.single j 1)) := by
  obtain ⟨a, ea, ha⟩ := runNested_tracks x e h hn
  have hv := tracks_iff.2 ha.v
  have hd := ha.d
  rw [List.forall₂_iff_get] at hd
  obtain ⟨hl, hd⟩ := hd
  rw [axes_length] at hl
  refine ⟨a, ea, hv.value, ha.diff, hl.symm, ?_, ?_⟩
  · intro i
    rw [hv.derivs]
    simp [axes]
  · intro i
    have hi : i.1 < a.d.length := by rw [← hl]; exact i.2
    refine ⟨a.d[i.1], List.getElem?_eq_getElem hi, ?_⟩
    have := tracks_iff.2 (hd i.1 (by rw [axes_length]; exact i.2) hi)
    simp only [List.get_eq_getElem, axes, List.getElem_ofFn] at this
    refine ⟨this.value, by rw [this.derivs]; simp, this.differentiable, ?_⟩
    intro j
    rw [this.derivs]
    simp

noncomputable example : ∃ a, (DExpr.div (.mul (.sin (.var 0)) (.powScalar (.var 1) (5 / 2)))
      (.scalarAdd 1 (.exp (.var 0)))).runNested [(1 : ℝ), 2] = .ok a := by
  obtain ⟨a, ea, -⟩ := C62_hessian_partial [1, 2] (DExpr.div (.mul (.sin (.var 0)) (.powScalar (.var 1) (5 / 2)))
      (.scalarAdd 1 (.exp (.var 0))))
    ⟨⟨by simp [Smooth], by simp [Smooth], Or.inl (by simp [denote, coord, point])⟩, by simp [Smooth],
      by have := Real.exp_pos (coord (point [(1 : ℝ), 2]) 0); simp only [denote]; positivity⟩
    ⟨⟨trivial, trivial, by simp [denote, coord, point]⟩, trivial⟩
  exact ⟨a, ea⟩

/-- C62 does not hold for `pow(x, c)` with a negative `x`: although `x^2` is smooth, the nested
type computes the inner power as `exp(log(x) * c)` and fails for `x = -1`. -/
theorem C62_fails (c : ℝ) (x : ℝ) (hx : x < 0) :
    (DExpr.powScalar (.var 0) c).runNested [x] = .error .domain := by
  have e2 : Scal.subBase (K := Static 1 ℝ) (Scal.ofBase c) (1 : ℝ) = .ok ((⟨c - 1, [0]⟩ : ADT ℝ)) := rfl
  have e3 : Scal.pow (K := Static 1 ℝ) (⟨x, [1]⟩ : ADT ℝ) (⟨c - 1, [0]⟩ : ADT ℝ) = .error .domain := by
    change ADT.pow (⟨x, [1]⟩ : ADT ℝ) (⟨c - 1, [0]⟩ : ADT ℝ) = _
    have : Scal.log x = .error .domain := if_neg (by linarith)
    have h1 : Scal.baseDiv (1 : ℝ) x = .ok (1 / x) := if_neg hx.ne
    simp only [ADT.pow, ADT.log, this, h1, bind_ok]
    rfl
  have e4 : ADT.powScalar (⟨(⟨x, [1]⟩ : ADT ℝ), [(⟨1, [0]⟩ : ADT ℝ)]⟩ : ADT (Static 1 ℝ)) (Scal.ofBase c) =
      .error .domain := by
    have : ∀ k : Static 1 ℝ → M (ADT (Static 1 ℝ)), (Scal.pow (K := Static 1 ℝ) (⟨x, [1]⟩ : ADT ℝ)
        (⟨c - 1, [0]⟩ : ADT ℝ) >>= k) = .error .domain := by
      intro k; rw [e3]; rfl
    exact this _
  exact e4

example : (DExpr.powScalar (.var 0) 2).runNested [(-1 : ℝ)] = .error .domain := C62_fails 2 (-1) (by norm_num)
/-- With a plain (not nested) type the same power is fine. -/
noncomputable example : ∃ a, (DExpr.powScalar (.var 0) 2).run [(-1 : ℝ)] = .ok a := by
  obtain ⟨a, ea, -⟩ := C47_gradient [(-1 : ℝ)] (DExpr.powScalar (.var 0) 2)
    ⟨by simp [Smooth], Or.inr ⟨2, by simp, Or.inl (by simp [denote, coord, point])⟩⟩
  exact ⟨a, ea⟩

/-! ## C48 -/

/-- The comparison operators of `K` compare `val` in the order of the numbers. -/
structure ComparesBy {K B : Type} [Cmp K] [LinearOrder B] (val : K → B) : Prop where
  gt : ∀ a b : K, Cmp.gt a b = true ↔ val a > val b
  ge : ∀ a b : K, Cmp.ge a b = true ↔ val a ≥ val b
  lt : ∀ a b : K, Cmp.lt a b = true ↔ val a < val b
  le : ∀ a b : K, Cmp.le a b = true ↔ val a ≤ val b
  eq : ∀ a b : K, Cmp.eq a b = true ↔ val a = val b
  ne : ∀ a b : K, Cmp.ne a b = true ↔ val a ≠ val b

/-- C48. All six comparisons of two `AlgoDiffType`s compare the values, at any level of nesting. -/
theorem C48_compare {K B : Type} [Cmp K] [LinearOrder B] (val : K → B) (h : ComparesBy val) :
    ComparesBy (fun a : ADT K => val a.v) where
  gt a b := h.gt _ _
  ge a b := h.ge _ _
  lt a b := h.gt _ _
  le a b := h.ge _ _
  eq a b := h.eq _ _
  ne a b := by
    have := h.eq b.v a.v
    simp only [Cmp.ne, ADT.scalarNe, ADT.eqScalar, Bool.not_eq_true', ne_eq]
    rw [Bool.eq_false_iff, ne_eq, this, eq_comm]

/-- C48. So do the mixed comparisons with a plain number, on either side. -/
theorem C48_mixed {K B : Type} [Cmp K] [LinearOrder B] (val : K → B) (h : ComparesBy val) (a : ADT K) (c : K) :
    (a.gtScalar c = true ↔ val a.v > val c) ∧ (a.geScalar c = true ↔ val a.v ≥ val c) ∧
    (a.ltScalar c = true ↔ val a.v < val c) ∧ (a.leScalar c = true ↔ val a.v ≤ val c) ∧
    (a.eqScalar c = true ↔ val a.v = val c) ∧ (a.neScalar c = true ↔ val a.v ≠ val c) ∧
    (ADT.scalarGt c a = true ↔ val c > val a.v) ∧ (ADT.scalarGe c a = true ↔ val c ≥ val a.v) ∧
    (ADT.scalarLt c a = true ↔ val c < val a.v) ∧ (ADT.scalarLe c a = true ↔ val c ≤ val a.v) ∧
    (ADT.scalarEq c a = true ↔ val c = val a.v) ∧ (ADT.scalarNe c a = true ↔ val c ≠ val a.v) := by
  refine ⟨h.gt _ _, h.ge _ _, h.lt _ _, h.le _ _, h.eq _ _, h.ne _ _, h.lt _ _, h.le _ _, h.gt _ _, h.ge _ _, ?_, ?_⟩
  · rw [eq_comm (a := val c)]; exact h.eq _ _
  · have := h.eq a.v c
    simp only [ADT.scalarNe, ADT.eqScalar, Bool.not_eq_true', ne_eq]
    rw [Bool.eq_false_iff, ne_eq, this, eq_comm]

/-- C48. `==` and `!=` are complementary, and `<`/`>=` and `>`/`<=` are. -/
theorem C48_complementary {K B : Type} [Cmp K] [LinearOrder B] (val : K → B) (h : ComparesBy val) (a b : ADT K) :
    Cmp.ne a b = !Cmp.eq a b ∧ Cmp.ge a b = !Cmp.lt a b ∧ Cmp.le a b = !Cmp.gt a b := by
  have H := C48_compare val h
  refine ⟨?_, ?_, ?_⟩ <;> rw [Bool.eq_iff_iff]
  · rw [H.ne, Bool.not_eq_true', Bool.eq_false_iff, ne_eq, ne_eq, H.eq]
  · rw [H.ge, Bool.not_eq_true', Bool.eq_false_iff, ne_eq, H.lt, not_lt]
  · rw [H.le, Bool.not_eq_true', Bool.eq_false_iff, ne_eq, H.gt, gt_iff_lt, not_lt]

/-- The comparisons of a built-in number type. -/
def builtinCmp (B : Type) [LinearOrder B] : Cmp B where
  gt a b := decide (b < a)
  ge a b := decide (b ≤ a)
  lt a b := decide (a < b)
  le a b := decide (a ≤ b)
  eq a b := decide (a = b)
  ne a b := decide (a ≠ b)

/-- The hypothesis of the theorems above is met by built-in numbers, hence by
`AlgoDiffType<B>` and by nested types. -/
theorem builtin_compares (B : Type) [LinearOrder B] : letI := builtinCmp B; ComparesBy (fun x : B => x) := by
  letI := builtinCmp B
  exact ⟨fun a b => decide_eq_true_iff, fun a b => decide_eq_true_iff, fun a b => decide_eq_true_iff,
    fun a b => decide_eq_true_iff, fun a b => decide_eq_true_iff, fun a b => decide_eq_true_iff⟩

example : letI := builtinCmp ℚ; ComparesBy (fun a : ADT (ADT ℚ) => a.v.v) :=
  letI := builtinCmp ℚ
  C48_compare _ (C48_compare _ (builtin_compares ℚ))
example : letI := builtinCmp ℚ; Cmp.lt (⟨2, [7]⟩ : ADT ℚ) ⟨3, [-1]⟩ = true :=
  letI := builtinCmp ℚ
  ((C48_compare _ (builtin_compares ℚ)).lt ⟨2, [7]⟩ ⟨3, [-1]⟩).2 (by norm_num)

end Bezman.Props
