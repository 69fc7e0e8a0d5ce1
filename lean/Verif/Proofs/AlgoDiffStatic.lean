import Verif.Proofs.AlgoDiffSpline
import Mathlib.Algebra.TrivSqZeroExt.Basic

/-!
# `AlgoDiffType` with a static number of derivatives as a ring

With a fixed number of derivatives the operators `+`, `-`, `*` cannot fail, and the type is the
commutative ring of a value and a vector of derivatives with product `(f g, f g' + f' g)`
(dual numbers).  So the spline functions, which are modelled for every commutative ring, can
be used with it.
-/

namespace Bezman
open Spec

namespace StaticADT
variable {n : ℕ}

theorem zipD_ofFn (f : ℝ → ℝ → ℝ) (u v : Fin n → ℝ) :
    ADT.zipD (fun x y => pure (f x y)) (List.ofFn u) (List.ofFn v) = .ok (List.ofFn fun i => f (u i) (v i)) := by
  obtain ⟨d, e, h⟩ := ADT.zipD_ok (P := fun i x => x = u i) (P' := fun i x => x = v i)
    (Q := fun i x => x = f (u i) (v i)) (f := fun x y => pure (f x y)) (us := List.finRange n) (d := List.ofFn u)
    (e := List.ofFn v) (by rw [List.forall₂_iff_get]; simp) (by rw [List.forall₂_iff_get]; simp)
    (by rintro i x y rfl rfl; exact ⟨_, rfl, rfl⟩)
  rw [e]
  congr 1
  apply List.ext_getElem
  · simpa using h.length_eq.symm
  · intro i h1 h2
    rw [List.forall₂_iff_get] at h
    have := h.2 i (by simpa using h2) h1
    simpa using this

theorem mapD_ofFn (f : ℝ → ℝ) (u : Fin n → ℝ) :
    ADT.mapD (fun x => pure (f x)) (List.ofFn u) = .ok (List.ofFn fun i => f (u i)) := by
  obtain ⟨d, e, h⟩ := ADT.mapD_ok (P := fun i x => x = u i)
    (Q := fun i x => x = f (u i)) (f := fun x => pure (f x)) (us := List.finRange n) (d := List.ofFn u)
    (by rw [List.forall₂_iff_get]; simp)
    (by rintro i x rfl; exact ⟨_, rfl, rfl⟩)
  rw [e]
  congr 1
  apply List.ext_getElem
  · simpa using h.length_eq.symm
  · intro i h1 h2
    rw [List.forall₂_iff_get] at h
    have := h.2 i (by simpa using h2) h1
    simpa using this

theorem toADT_add (a b : StaticADT n) : (toADT a).add (toADT b) = .ok (toADT (a + b)) := by
  have := zipD_ofFn (fun x y => x + y) a.snd b.snd
  have e : assertM.{0} ((toADT b).d.length == (toADT a).d.length) = .ok ⟨⟩ := by simp [assertM, toADT]
  simp only [ADT.add, ADT.addAssign, e, bind_ok]
  erw [this]
  rfl

theorem toADT_sub (a b : StaticADT n) : (toADT a).sub (toADT b) = .ok (toADT (a - b)) := by
  have := zipD_ofFn (fun x y => x - y) a.snd b.snd
  have e : assertM.{0} ((toADT b).d.length == (toADT a).d.length) = .ok ⟨⟩ := by simp [assertM, toADT]
  simp only [ADT.sub, ADT.subAssign, e, bind_ok]
  erw [this]
  rfl

theorem toADT_mul (a b : StaticADT n) : (toADT a).mul (toADT b) = .ok (toADT (a * b)) := by
  have := zipD_ofFn (fun x y => y * a.fst + b.fst * x) a.snd b.snd
  have e : assertM.{0} ((toADT b).d.length == (toADT a).d.length) = .ok ⟨⟩ := by simp [assertM, toADT]
  simp only [ADT.mul, ADT.mulAssign, e, bind_ok]
  erw [this]
  simp only [bind_ok]
  change Except.ok _ = Except.ok _
  congr 1
  simp [toADT, mul_comm]
  rfl

theorem toADT_neg (a : StaticADT n) : (toADT a).neg = .ok (toADT (-a)) := by
  have := mapD_ofFn (fun x => -x) a.snd
  simp only [ADT.neg]
  erw [this]
  rfl

theorem toADT_const (c : ℝ) : toADT (TrivSqZeroExt.inl c : StaticADT n) = ADT.const c n := by
  simp only [toADT, ADT.const, Scal.zero, TrivSqZeroExt.fst_inl, TrivSqZeroExt.snd_inl]
  congr 1
  exact List.ofFn_const n 0

theorem toADT_natCast (m : ℕ) : toADT (m : StaticADT n) = ADT.const (m : ℝ) n := by
  rw [← toADT_const]; rfl

theorem toADT_injective : Function.Injective (toADT : StaticADT n → ADT ℝ) := by
  intro a b h
  simp only [toADT, ADT.mk.injEq, List.ofFn_inj] at h
  exact TrivSqZeroExt.ext h.1 h.2

/-! ## Tracking in the ring -/

section
variable {E : Type} [NormedAddCommGroup E] [NormedSpace ℝ E] {p : E} {dirs : List E}

/-- `a` stands for `f`. -/
def T (p : E) (dirs : List E) (a : StaticADT n) (f : E → ℝ) : Prop :=
  Lift (ValueAt p) (pure p) dirs (toADT a) f

theorem T.add {a b : StaticADT n} {f g : E → ℝ} (ha : T p dirs a f) (hb : T p dirs b g) : T p dirs (a + b) (f + g) := by
  obtain ⟨c, e, h⟩ := Lift.add (laws_real p) ha hb
  rw [toADT_add] at e; cases e; exact h

theorem T.sub {a b : StaticADT n} {f g : E → ℝ} (ha : T p dirs a f) (hb : T p dirs b g) : T p dirs (a - b) (f - g) := by
  obtain ⟨c, e, h⟩ := Lift.sub (laws_real p) ha hb
  rw [toADT_sub] at e; cases e; exact h

theorem T.mul {a b : StaticADT n} {f g : E → ℝ} (ha : T p dirs a f) (hb : T p dirs b g) : T p dirs (a * b) (f * g) := by
  obtain ⟨c, e, h⟩ := Lift.mul (laws_real p) ha hb
  rw [toADT_mul] at e; cases e; exact h

theorem T.natCast (h : dirs.length = n) (m : ℕ) : T p dirs (m : StaticADT n) (m : E → ℝ) := by
  subst h
  unfold T
  rw [toADT_natCast]
  exact Lift.const (laws_real p) rfl

theorem T.pow (h : dirs.length = n) {a : StaticADT n} {f : E → ℝ} (ha : T p dirs a f) (m : ℕ) :
    T p dirs (a ^ m) (f ^ m) := by
  induction m with
  | zero => simpa using T.natCast h 1
  | succ m ih => rw [pow_succ, pow_succ]; exact ih.mul ha

theorem T.sum (h : dirs.length = n) {a : ℕ → StaticADT n} {f : ℕ → E → ℝ} (ha : ∀ i, T p dirs (a i) (f i)) (m : ℕ) :
    T p dirs (∑ i ∈ Finset.range m, a i) (∑ i ∈ Finset.range m, f i) := by
  induction m with
  | zero => simpa using T.natCast h 0
  | succ m ih => rw [Finset.sum_range_succ, Finset.sum_range_succ]; exact ih.add (ha m)

theorem T.bern (h : dirs.length = n) {a : StaticADT n} {f : E → ℝ} (ha : T p dirs a f) (q i : ℕ) :
    T p dirs (Spec.bern q i a) (Spec.bern q i f) := by
  have h1 : T p dirs (1 - a) (1 - f) := by
    have := (T.natCast (p := p) h 1).sub ha
    simpa using this
  exact ((T.natCast h _).mul (ha.pow h i)).mul (h1.pow h (q - i))

theorem T.bezier (h : dirs.length = n) : ∀ (ds : List ℕ) (t : List (StaticADT n)) (t' : List (E → ℝ))
    (P : List ℕ → StaticADT n) (P' : List ℕ → E → ℝ), List.Forall₂ (T p dirs) t t' → (∀ idx, T p dirs (P idx) (P' idx)) →
    T p dirs (Spec.bezier ds t P) (Spec.bezier ds t' P') := by
  intro ds
  induction ds with
  | nil => intro t t' P P' _ hP; exact hP []
  | cons q qs ih =>
    intro t t' P P' ht hP
    cases ht with
    | nil => simpa [Spec.bezier] using T.natCast h 0
    | cons h1 h2 =>
      simp only [Spec.bezier, smul_eq_mul]
      exact T.sum h (fun i => (h1.bern h q i).mul (ih _ _ _ _ h2 fun idx => hP (i :: idx))) (q + 1)

theorem T.value (h : dirs.length = n) {s : Spline (StaticADT n)} {s' : Spline (E → ℝ)} (hd : s.degrees = s'.degrees)
    (hc : List.Forall₂ (T p dirs) s.cps s'.cps) {t : List (StaticADT n)} {t' : List (E → ℝ)}
    (ht : List.Forall₂ (T p dirs) t t') : T p dirs (s.value t) (s'.value t') := by
  unfold Spline.value
  rw [hd]
  refine T.bezier h _ _ _ _ _ ht fun idx => ?_
  simp only [List.getD_eq_getElem?_getD]
  have hl := hc.length_eq
  rw [List.forall₂_iff_get] at hc
  by_cases hi : flatIndex s'.degrees idx < s.cps.length
  · rw [List.getElem?_eq_getElem hi, List.getElem?_eq_getElem (hl ▸ hi)]
    exact hc.2 _ hi (hl ▸ hi)
  · rw [List.getElem?_eq_none (by omega), List.getElem?_eq_none (by omega)]
    simpa using T.natCast h 0

end
end StaticADT
end Bezman
