import Verif.Spec.Ball
import Verif.Proofs.ParamREval
import Verif.Proofs.SumsAgree
import Verif.Proofs.Parameter
import Verif.Proofs.MapMap
import Mathlib.Algebra.Order.Field.Basic
import Mathlib.Tactic.Linarith
import Mathlib.Tactic.Positivity
import Mathlib.Tactic.Ring
import Mathlib.Tactic.FieldSimp

/-! # Floating-point runs and runs with error bounds, in lockstep -/

namespace Bezman
open Spec
variable {A : FloatArith}

namespace Ball

theorem round_contains {c e η x y : ℝ} {k : Prop} (h : k → |y - c| ≤ e) (hx : k → |x - y| ≤ A.u * |y| + η) :
    (round c e η k : Ball A).Contains ⟨x⟩ := by
  intro hk
  have h1 := h hk
  have h2 := hx hk
  have h3 : |y| ≤ |c| + e := by
    have := abs_add_le c (y - c)
    rw [add_sub_cancel] at this
    linarith
  have h4 := mul_le_mul_of_nonneg_left h3 A.u_nonneg
  have h5 := abs_sub_le x y c
  show |x - c| ≤ e + (A.u * (|c| + e) + η)
  linarith

theorem add_contains {a b : Ball A} {x y : Fl A} (ha : a.Contains x) (hb : b.Contains y) : (a + b).Contains (x + y) := by
  refine round_contains (y := x.val + y.val) (fun h => ?_) fun _ => by have := A.add_err x.val y.val; simpa using this
  have h1 := ha h.1
  have h2 := hb h.2
  have := abs_add_le (x.val - a.c) (y.val - b.c)
  rw [show x.val - a.c + (y.val - b.c) = x.val + y.val - (a.c + b.c) by ring] at this
  linarith

theorem sub_contains {a b : Ball A} {x y : Fl A} (ha : a.Contains x) (hb : b.Contains y) : (a - b).Contains (x - y) := by
  refine round_contains (y := x.val - y.val) (fun h => ?_) fun _ => by have := A.sub_err x.val y.val; simpa using this
  have h1 := ha h.1
  have h2 := hb h.2
  have := abs_sub (x.val - a.c) (y.val - b.c)
  rw [show x.val - a.c - (y.val - b.c) = x.val - y.val - (a.c - b.c) by ring] at this
  linarith

theorem mul_contains {a b : Ball A} {x y : Fl A} (ha : a.Contains x) (hb : b.Contains y) : (a * b).Contains (x * y) := by
  refine round_contains (y := x.val * y.val) (fun h => ?_) fun _ => A.mul_err x.val y.val
  have h1 := ha h.1
  have h2 := hb h.2
  have e : x.val * y.val - a.c * b.c = a.c * (y.val - b.c) + (x.val - a.c) * b.c + (x.val - a.c) * (y.val - b.c) := by ring
  rw [e]
  refine (abs_add_le _ _).trans (add_le_add ((abs_add_le _ _).trans (add_le_add ?_ ?_)) ?_)
  · rw [abs_mul]; exact mul_le_mul_of_nonneg_left h2 (abs_nonneg _)
  · rw [abs_mul]; exact mul_le_mul_of_nonneg_right h1 (abs_nonneg _)
  · rw [abs_mul]; exact mul_le_mul h1 h2 (abs_nonneg _) ((abs_nonneg _).trans h1)

theorem div_contains {a b : Ball A} {x y : Fl A} (ha : a.Contains x) (hb : b.Contains y) : (a / b).Contains (x / y) := by
  have hy : b.known ∧ b.r < |b.c| → 0 < |b.c| - b.r ∧ |b.c| - b.r ≤ |y.val| := fun h => by
    have h2 := hb h.1
    have := abs_sub_abs_le_abs_sub b.c y.val
    rw [abs_sub_comm] at h2
    exact ⟨by linarith, by linarith⟩
  refine round_contains (y := x.val / y.val) (fun h => ?_) fun h => A.div_err x.val y.val fun h0 => ?_
  · obtain ⟨p, q⟩ := hy h.2
    have h1 := ha h.1
    have h2 := hb h.2.1
    have hr : 0 ≤ b.r := (abs_nonneg _).trans h2
    have hc : 0 < |b.c| := lt_of_le_of_lt hr h.2.2
    have hc0 : b.c ≠ 0 := abs_pos.mp hc
    have hy0 : y.val ≠ 0 := abs_pos.mp (p.trans_le q)
    have e : x.val / y.val - a.c / b.c = ((x.val - a.c) * b.c - a.c * (y.val - b.c)) / (y.val * b.c) := by
      field_simp
      ring
    rw [e, abs_div, abs_mul y.val]
    have hra : 0 ≤ a.r := (abs_nonneg _).trans h1
    refine div_le_div₀ (by positivity) ?_ (mul_pos p hc) (mul_le_mul_of_nonneg_right q hc.le)
    refine (abs_sub _ _).trans (add_le_add ?_ ?_)
    · rw [abs_mul]; exact mul_le_mul_of_nonneg_right h1 (abs_nonneg _)
    · rw [abs_mul]; exact mul_le_mul_of_nonneg_left h2 (abs_nonneg _)
  · obtain ⟨p, q⟩ := hy h.2
    rw [h0, abs_zero] at q
    linarith

theorem neg_contains {a : Ball A} {x : Fl A} (ha : a.Contains x) : (-a).Contains (-x) := by
  intro h
  have h1 := ha h
  show |-x.val - -a.c| ≤ a.r
  rw [show -x.val - -a.c = -(x.val - a.c) by ring, abs_neg]
  exact h1

theorem ofFl_contains (x : Fl A) : (ofFl x).Contains x := fun _ => by simp [ofFl]

end Ball

/-- a floating-point number corresponds to every ball that contains it -/
def parBall : Par (Fl A) (Ball A) := ⟨fun x b => b.Contains x⟩

theorem parScalarBall : letI := parBall (A := A); ParScalar (Fl A) (Ball A) :=
  letI := parBall (A := A)
  have cast : ∀ n : ℕ, ((n : Ball A)).Contains (n : Fl A) := fun n _ => A.cast_err n
  have one : (1 : Ball A).Contains 1 := fun _ => by show |(1 : ℝ) - 1| ≤ 0; simp
  { zero := fun _ => by show |(0 : ℝ) - 0| ≤ 0; simp
    one := one
    add := fun h h' => Ball.add_contains h h'
    sub := fun h h' => Ball.sub_contains h h'
    mul := fun h h' => Ball.mul_contains h h'
    neg := fun h => Ball.neg_contains h
    cast := cast
    inv := fun n => Ball.div_contains one (cast n)
    ratio := fun m n => Ball.div_contains (cast m) (cast n) }

theorem parOrdBall {tol : Err → Bool} (h : tol .throws = true) : letI := parBall (A := A); ParOrd tol (Fl A) (Ball A) :=
  letI := parBall (A := A)
  ⟨fun h' => by rw [h] at h'; cases h'⟩

theorem parZeroBall {tol : Err → Bool} (h : tol .divZero = true) : letI := parBall (A := A); ParZero tol (Fl A) (Ball A) :=
  letI := parBall (A := A)
  ⟨fun h' => by rw [h] at h'; cases h'⟩

theorem parPlanesBall (zs : List (Fl A)) : letI := parBall (A := A); Spline.ParPlanes zs (zs.map Ball.ofFl) := by
  letI := parBall (A := A)
  refine ⟨List.forall₂_map_right_iff.mpr (List.forall₂_same.mpr fun x _ => Ball.ofFl_contains x), ?_⟩
  intro i z zp z' zp' h1 h2 h3 h4
  rw [List.getElem?_map, h1] at h3
  rw [List.getElem?_map, h2] at h4
  obtain rfl := Option.some.inj h3
  obtain rfl := Option.some.inj h4
  have hk := parScalarBall (A := A)
  exact Ball.div_contains (Ball.sub_contains (Ball.ofFl_contains z) (Ball.ofFl_contains zp)) (Ball.sub_contains hk.one (Ball.ofFl_contains zp))

theorem parDivBall : letI := parBall (A := A); ParDiv (Fl A) (Ball A) (Fl A) (Ball A) :=
  letI := parBall (A := A)
  ⟨fun h1 h2 _ _ => Ball.div_contains h1 h2⟩

theorem parDivPointBall {n : ℕ} : letI := parBall (A := A); ParDiv (Fl A) (Ball A) (Point (Fl A) n) (Point (Ball A) n) :=
  letI := parBall (A := A)
  have hk := parScalarBall (A := A)
  ⟨fun h1 h2 _ _ i => Ball.mul_contains (h1 i) (Ball.div_contains hk.one h2)⟩

theorem ballCentre : Arithmetic (K := Ball A) (K' := ℝ) Ball.c where
  zero := rfl
  one := rfl
  add _ _ := rfl
  sub _ _ := rfl
  mul _ _ := rfl
  neg _ := rfl
  div _ _ := rfl
  cast _ := rfl
  lt _ _ := Iff.rfl
  eq _ _ := rfl

theorem flId : Arithmetic (K := Fl A) (K' := Fl A) id where
  zero := rfl
  one := rfl
  add _ _ := rfl
  sub _ _ := rfl
  mul _ _ := rfl
  neg _ := rfl
  div _ _ := rfl
  cast _ := rfl
  lt _ _ := Iff.rfl
  eq _ _ := rfl

theorem vars_ball {n : ℕ} (σ : Vars (Fl A) n) : letI := parBall (A := A); σ.Rel (σ.map Ball.ofFl) :=
  letI := parBall (A := A)
  ⟨fun _ => spline_map_rel fun x _ => Ball.ofFl_contains x, fun _ => spline_map_rel fun x _ i => Ball.ofFl_contains (x.val i)⟩

theorem ok_right {tol : Err → Bool} {α β : Type} [Par α β] {x : M α} {b : β} (h : RelM tol x (.ok b)) :
    (∃ a, x = .ok a ∧ a ≋ b) ∨ ∃ e, tol e = true ∧ x = .error e := by
  cases h with
  | ok h => exact .inl ⟨_, rfl, h⟩
  | left e _ ht => exact .inr ⟨e, ht, rfl⟩

theorem ballS (cfg : Cfg) {n : ℕ} (σ : Vars (Fl A) n) (e : SExpr (Fl A) n) : letI := parBall (A := A)
    RelM mayThrow (e.run cfg σ) ((e.map Ball.ofFl).run cfg (σ.map Ball.ofFl)) := by
  let _ := parBall (A := A)
  have i1 : ParScalar (Fl A) (Ball A) := parScalarBall
  have i2 : ParOrd mayThrow (Fl A) (Ball A) := parOrdBall rfl
  exact parSRun (tol := mayThrow) cfg (vars_ball σ) e (e.map Ball.ofFl)
    (srel_map (P := fun _ => True) (Q := fun _ => True) (fun x _ => Ball.ofFl_contains x) (fun zs _ => parPlanesBall zs) e
      (sconst (fun _ => trivial) (fun _ => trivial) e))

theorem ballP (cfg : Cfg) {n : ℕ} (σ : Vars (Fl A) n) (e : PExpr (Fl A) n) : letI := parBall (A := A)
    RelM mayThrow (e.run cfg σ) ((e.map Ball.ofFl).run cfg (σ.map Ball.ofFl)) := by
  let _ := parBall (A := A)
  have i1 : ParScalar (Fl A) (Ball A) := parScalarBall
  have i2 : ParOrd mayThrow (Fl A) (Ball A) := parOrdBall rfl
  exact parPRun (tol := mayThrow) cfg (vars_ball σ) e (e.map Ball.ofFl)
    (prel_map (P := fun _ => True) (Q := fun _ => True) (fun x _ => Ball.ofFl_contains x) (fun zs _ => parPlanesBall zs) e
      (pconst (fun _ => trivial) (fun _ => trivial) e))

theorem twoRunsBall : letI := parBall (A := A); TwoRuns (K := Fl A) (K' := Ball A) (K₁ := Fl A) id Ball.ofFl :=
  letI := parBall (A := A)
  ⟨flId, Ball.ofFl_contains, parPlanesBall⟩

theorem ballRS (cfg : Cfg) {n : ℕ} (σ : RVars (Fl A) n) (e : RSExpr (Fl A) n) (h : e.SumsAgree cfg σ id Ball.ofFl) :
    letI := parBall (A := A)
    RelM Fn.mayThrowOrDivide (e.run cfg σ) ((e.map Ball.ofFl).run cfg (σ.map Ball.ofFl)) := by
  let _ := parBall (A := A)
  have i1 : ParScalar (Fl A) (Ball A) := parScalarBall
  have i2 : ParOrd Fn.mayThrowOrDivide (Fl A) (Ball A) := parOrdBall (by decide)
  have i4 : ParZero Fn.mayThrowOrDivide (Fl A) (Ball A) := parZeroBall (by decide)
  have i5 : ParDiv (Fl A) (Ball A) (Fl A) (Ball A) := parDivBall
  have i6 : ParDiv (Fl A) (Ball A) (Point (Fl A) n) (Point (Ball A) n) := parDivPointBall
  exact atRSRel (tol := Fn.mayThrowOrDivide) cfg twoRunsBall σ e h

theorem ballRP (cfg : Cfg) {n : ℕ} (σ : RVars (Fl A) n) (e : RPExpr (Fl A) n) (h : e.SumsAgree cfg σ id Ball.ofFl) :
    letI := parBall (A := A)
    RelM Fn.mayThrowOrDivide (e.run cfg σ) ((e.map Ball.ofFl).run cfg (σ.map Ball.ofFl)) := by
  let _ := parBall (A := A)
  have i1 : ParScalar (Fl A) (Ball A) := parScalarBall
  have i2 : ParOrd Fn.mayThrowOrDivide (Fl A) (Ball A) := parOrdBall (by decide)
  have i4 : ParZero Fn.mayThrowOrDivide (Fl A) (Ball A) := parZeroBall (by decide)
  have i5 : ParDiv (Fl A) (Ball A) (Fl A) (Ball A) := parDivBall
  have i6 : ParDiv (Fl A) (Ball A) (Point (Fl A) n) (Point (Ball A) n) := parDivPointBall
  exact atRPRel (tol := Fn.mayThrowOrDivide) cfg twoRunsBall σ e h

theorem ok_of_map {α β : Type} {x : M α} {f : α → β} {y : β} (h : x.map f = .ok y) : ∃ a, x = .ok a ∧ f a = y := by
  cases x with
  | error e => cases h
  | ok a => cases h; exact ⟨a, rfl, rfl⟩

end Bezman
