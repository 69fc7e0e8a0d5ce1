import Verif.Model.Dual
import Verif.Proofs.AlgoDiffStatic
import Verif.Proofs.ScalarMap

/-! # The operators of `AlgoDiffType` with a static number of derivatives -/

namespace Bezman.Dual
open Spec
variable {K : Type} {n : ℕ}

theorem zipD_ofFn (f : K → K → K) (u v : Fin n → K) :
    ADT.zipD (fun x y => pure (f x y)) (List.ofFn u) (List.ofFn v) = .ok (List.ofFn fun i => f (u i) (v i)) := by
  obtain ⟨d, e, h⟩ := ADT.zipD_ok (P := fun i x => x = u i) (P' := fun i x => x = v i)
    (Q := fun i x => x = f (u i) (v i)) (f := fun x y => pure (f x y)) (us := List.finRange n) (d := List.ofFn u)
    (e := List.ofFn v) (by rw [List.forall₂_iff_get]; simp) (by rw [List.forall₂_iff_get]; simp)
    (by rintro i x y rfl rfl; exact ⟨_, rfl, rfl⟩)
  rw [e]
  congr 1
  apply List.ext_getElem
  · simpa using h.length_eq.symm
  · intro i h1 h2
    rw [List.forall₂_iff_get] at h
    have := h.2 i (by simpa using h2) h1
    simpa using this

theorem mapD_ofFn (f : K → K) (u : Fin n → K) :
    ADT.mapD (fun x => pure (f x)) (List.ofFn u) = .ok (List.ofFn fun i => f (u i)) := by
  obtain ⟨d, e, h⟩ := ADT.mapD_ok (P := fun i x => x = u i)
    (Q := fun i x => x = f (u i)) (f := fun x => pure (f x)) (us := List.finRange n) (d := List.ofFn u)
    (by rw [List.forall₂_iff_get]; simp)
    (by rintro i x rfl; exact ⟨_, rfl, rfl⟩)
  rw [e]
  congr 1
  apply List.ext_getElem
  · simpa using h.length_eq.symm
  · intro i h1 h2
    rw [List.forall₂_iff_get] at h
    have := h.2 i (by simpa using h2) h1
    simpa using this

theorem assert_length (a b : Dual K n) : assertM.{0} ((toADT b).d.length == (toADT a).d.length) = .ok ⟨⟩ := by
  simp [assertM, toADT]

variable [Zero K] [One K] [NatCast K] [Add K] [Sub K] [Mul K] [Neg K] [Div K] [Cmath K]

theorem toADT_add (a b : Dual K n) : a.toADT.add b.toADT = .ok (a + b).toADT := by
  have := zipD_ofFn (fun x y => x + y) a.d b.d
  simp only [ADT.add, ADT.addAssign, assert_length, bind_ok]
  erw [this]
  rfl

theorem toADT_sub (a b : Dual K n) : a.toADT.sub b.toADT = .ok (a - b).toADT := by
  have := zipD_ofFn (fun x y => x - y) a.d b.d
  simp only [ADT.sub, ADT.subAssign, assert_length, bind_ok]
  erw [this]
  rfl

theorem toADT_mul (a b : Dual K n) : a.toADT.mul b.toADT = .ok (a * b).toADT := by
  have := zipD_ofFn (fun x y => y * a.v + b.v * x) a.d b.d
  simp only [ADT.mul, ADT.mulAssign, assert_length, bind_ok]
  erw [this]
  rfl

theorem toADT_neg (a : Dual K n) : a.toADT.neg = .ok (-a).toADT := by
  have := mapD_ofFn (fun x => -x) a.d
  simp only [ADT.neg]
  erw [this]
  rfl

theorem toADT_div (a b : Dual K n) (h1 : Cmath.div a.v b.v = .ok (a.v / b.v))
    (h2 : Cmath.div 1 (b.v * b.v) = .ok (1 / (b.v * b.v))) : a.toADT.div b.toADT = .ok (a / b).toADT := by
  have := zipD_ofFn (fun x y => (b.v * x - y * a.v) * (1 / (b.v * b.v))) a.d b.d
  simp only [ADT.div, ADT.divAssign, assert_length, bind_ok]
  have e1 : Scal.mul (toADT b).v (toADT b).v = .ok (b.v * b.v) := rfl
  have e2 : Scal.baseDiv (1 : K) (b.v * b.v) = .ok (1 / (b.v * b.v)) := h2
  have e3 : Scal.div (toADT a).v (toADT b).v = .ok (a.v / b.v) := h1
  rw [e1]
  simp only [bind_ok]
  rw [e2]
  simp only [bind_ok]
  erw [this]
  simp only [bind_ok]
  rw [e3]
  rfl

theorem toADT_const (c : K) : (⟨c, fun _ => 0⟩ : Dual K n).toADT = ADT.const c n := by
  simp only [toADT, ADT.const, Scal.zero]
  congr 1
  exact List.ofFn_const n 0

end Bezman.Dual
