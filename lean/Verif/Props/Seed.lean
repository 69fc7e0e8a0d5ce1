import Verif.Props.AlgoDiff

/-! # Properties: seeding an existing AlgoDiffType (C47) -/

namespace Bezman.Props
open Bezman Spec

/-- C47. `SetActiveComponent(i)` makes a variable of any number, whatever it was computed from: the value stays, the derivatives are forgotten, and
the new ones are those of the `i`-th coordinate at every point `x` whose `i`-th coordinate is the value.  An index that is too large is undefined
behaviour: unlike the constructors, it is not checked. -/
theorem C47_set_active (a : ADT ℝ) (i : ℕ) :
    (∀ x : Fin a.d.length → ℝ, ∀ h : i < a.d.length, x ⟨i, h⟩ = a.v →
      ∃ r, a.setActive i = .ok r ∧ r.v = a.v ∧ (∀ j < a.d.length, r.d[j]? = some (if j = i then 1 else 0)) ∧
        Tracks (axes a.d.length) x (fun y => y ⟨i, h⟩) r) ∧
    (a.d.length ≤ i → a.setActive i = .error .ub) := by
  constructor
  · intro x h hx
    obtain ⟨r, e, hr⟩ := Lift.active (R := ValueAt x) (dirs := axes a.d.length) (laws_real x) (k := a.v)
      (φ := ContinuousLinearMap.proj (R := ℝ) (φ := fun _ => ℝ) (⟨i, h⟩ : Fin a.d.length)) hx.symm (i := i) (by simpa [axes] using h) (by
        intro j hj
        simp [axes, Pi.single_apply, Fin.ext_iff, eq_comm])
    have e' : a.setActive i = .ok ⟨a.v, (List.replicate a.d.length 0).set i 1⟩ := by
      simp [ADT.setActive, wr, h]; rfl
    have e2 : ADT.active a.v (axes a.d.length).length i = .ok ⟨a.v, (List.replicate a.d.length 0).set i 1⟩ := by
      simp [ADT.active, ADT.const, ADT.setActive, assertM, wr, axes, h]; rfl
    rw [e2] at e
    obtain rfl := Except.ok.inj e
    refine ⟨_, e', rfl, fun j hj => ?_, tracks_iff.2 hr⟩
    rw [List.getElem?_set, List.length_replicate]
    by_cases hij : j = i
    · subst hij; simp [hj]
    · simp [hij, Ne.symm hij, hj]
  · intro h
    simp [ADT.setActive, wr, Nat.not_lt.mpr h]

/-- the sum of the two variables at `(3, -2)` becomes the second variable, with value one -/
noncomputable example := (C47_set_active ⟨1, [1, 1]⟩ 1).1 ![3, 1] (by decide) rfl
noncomputable example : (⟨1, [1, 1]⟩ : ADT ℝ).setActive 2 = .error .ub := (C47_set_active ⟨1, [1, 1]⟩ 2).2 le_rfl

end Bezman.Props
