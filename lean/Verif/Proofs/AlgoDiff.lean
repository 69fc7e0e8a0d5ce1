import Verif.Spec.AlgoDiff
import Verif.Proofs.Basic
import Mathlib.Analysis.Calculus.FDeriv.Add
import Mathlib.Analysis.Calculus.FDeriv.Mul
import Mathlib.Analysis.Calculus.FDeriv.Comp
import Mathlib.Analysis.Calculus.Deriv.Comp
import Mathlib.Analysis.Calculus.Deriv.Inv
import Mathlib.Analysis.SpecialFunctions.ExpDeriv
import Mathlib.Analysis.SpecialFunctions.Log.Deriv
import Mathlib.Analysis.SpecialFunctions.Sqrt
import Mathlib.Analysis.SpecialFunctions.Trigonometric.Deriv
import Mathlib.Analysis.SpecialFunctions.Trigonometric.ArctanDeriv
import Mathlib.Analysis.SpecialFunctions.Trigonometric.InverseDeriv
import Mathlib.Analysis.SpecialFunctions.Pow.Deriv

/-! # Lemmas about `AlgoDiffType` -/

namespace Bezman
open Filter Topology

namespace ADT

/-! ## The loops over the derivatives -/

theorem mapD_ok {K α : Type} {P Q : α → K → Prop} {f : K → M K} {us : List α} {d : List K}
    (h : List.Forall₂ P us d) (hf : ∀ u y, P u y → ∃ z, f y = .ok z ∧ Q u z) :
    ∃ d', mapD f d = .ok d' ∧ List.Forall₂ Q us d' := by
  have hlen := h.length_eq
  rw [List.forall₂_iff_get] at h
  obtain ⟨-, h⟩ := h
  simp only [List.get_eq_getElem] at h
  obtain ⟨d', e, h1, h2, -⟩ := loop_inv (n := d.length) (s := d) (f := fun i d => do
    let x ← rd d i
    let y ← f x
    wr d i y) (fun k s => s.length = d.length ∧ (∀ i (h1 : i < us.length) (h2 : i < s.length), i < k → Q us[i] s[i]) ∧
      ∀ i (h1 : i < d.length) (h2 : i < s.length), k ≤ i → s[i] = d[i])
    ⟨rfl, by intro i _ _ h; omega, by intros; rfl⟩ (by
      rintro k hk s ⟨hl, ha, hb⟩
      have e1 : s[k] = d[k] := hb k hk (by omega) le_rfl
      obtain ⟨z, ez, hz⟩ := hf _ _ (h k (by omega) hk)
      refine ⟨s.set k z, ?_, by simpa using hl, ?_, ?_⟩
      · rw [rd_getElem (by omega)]
        simp only [bind_ok, e1, ez]
        exact wr_ok _ (by omega)
      · intro i h1 h2 hi
        rw [List.getElem_set]
        split
        · subst_vars; exact hz
        · exact ha i h1 (by simpa using h2) (by omega)
      · intro i h1 h2 hi
        rw [List.getElem_set, if_neg (by omega)]
        exact hb i h1 (by simpa using h2) (by omega))
  refine ⟨d', e, ?_⟩
  rw [List.forall₂_iff_get]
  exact ⟨by omega, fun i h3 h4 => h2 i h3 h4 (by omega)⟩

theorem zipD_ok {K α : Type} {P P' Q : α → K → Prop} {f : K → K → M K} {us : List α} {d e : List K}
    (h : List.Forall₂ P us d) (h' : List.Forall₂ P' us e)
    (hf : ∀ u y y', P u y → P' u y' → ∃ z, f y y' = .ok z ∧ Q u z) :
    ∃ d', zipD f d e = .ok d' ∧ List.Forall₂ Q us d' := by
  have hlen := h.length_eq
  have hlen' := h'.length_eq
  rw [List.forall₂_iff_get] at h h'
  obtain ⟨-, h⟩ := h
  obtain ⟨-, h'⟩ := h'
  simp only [List.get_eq_getElem] at h h'
  obtain ⟨d', eq, h1, h2, -⟩ := loop_inv (n := d.length) (s := d) (f := fun i d => do
    let x ← rd d i
    let y ← rd e i
    let z ← f x y
    wr d i z) (fun k s => s.length = d.length ∧ (∀ i (h1 : i < us.length) (h2 : i < s.length), i < k → Q us[i] s[i]) ∧
      ∀ i (h1 : i < d.length) (h2 : i < s.length), k ≤ i → s[i] = d[i])
    ⟨rfl, by intro i _ _ h; omega, by intros; rfl⟩ (by
      rintro k hk s ⟨hl, ha, hb⟩
      have e1 : s[k] = d[k] := hb k hk (by omega) le_rfl
      obtain ⟨z, ez, hz⟩ := hf _ _ _ (h k (by omega) hk) (h' k (by omega) (by omega))
      refine ⟨s.set k z, ?_, by simpa using hl, ?_, ?_⟩
      · rw [rd_getElem (by omega), rd_getElem (l := e) (by omega)]
        simp only [bind_ok, e1, ez]
        exact wr_ok _ (by omega)
      · intro i h1 h2 hi
        rw [List.getElem_set]
        split
        · subst_vars; exact hz
        · exact ha i h1 (by simpa using h2) (by omega)
      · intro i h1 h2 hi
        rw [List.getElem_set, if_neg (by omega)]
        exact hb i h1 (by simpa using h2) (by omega))
  refine ⟨d', eq, ?_⟩
  rw [List.forall₂_iff_get]
  exact ⟨by omega, fun i h3 h4 => h2 i h3 h4 (by omega)⟩

/-- Reading the second operand from the memory that is being updated makes no difference. -/
theorem zipSelf_eq {K : Type} (f : K → K → M K) (d : List K) : zipSelf f d = zipD f d d := by
  unfold zipSelf zipD
  suffices h : ∀ n ≤ d.length, ∀ (P : List K → Prop), (∀ s, (s.length = d.length ∧
      ∀ i (h1 : i < d.length) (h2 : i < s.length), n ≤ i → s[i] = d[i]) → P s) →
      loop n (fun i d => do
        let x ← rd d i
        let y ← rd d i
        let z ← f x y
        wr d i z) d = loop n (fun i d' => do
        let x ← rd d' i
        let y ← rd d i
        let z ← f x y
        wr d' i z) d ∧ ∀ s, loop n (fun i d => do
        let x ← rd d i
        let y ← rd d i
        let z ← f x y
        wr d i z) d = .ok s → P s from (h d.length le_rfl (fun _ => True) (fun _ _ => trivial)).1
  intro n
  induction n with
  | zero =>
    intro _ P hP
    refine ⟨rfl, ?_⟩
    intro s hs
    cases hs
    exact hP _ ⟨rfl, by intros; rfl⟩
  | succ n ih =>
    intro hn P hP
    obtain ⟨e, hs⟩ := ih (by omega) (fun s => s.length = d.length ∧
      ∀ i (h1 : i < d.length) (h2 : i < s.length), n ≤ i → s[i] = d[i]) (fun _ h => h)
    rw [loop_succ, loop_succ, ← e]
    cases he : loop n (fun i d => do
        let x ← rd d i
        let y ← rd d i
        let z ← f x y
        wr d i z) d with
    | error x => exact ⟨rfl, by intro s h; cases h⟩
    | ok s =>
      obtain ⟨hl, hb⟩ := hs s he
      have e1 : s[n] = d[n] := hb n (by omega) (by omega) le_rfl
      simp only [bind_ok]
      rw [rd_getElem (by omega), rd_getElem (l := d) (by omega)]
      simp only [bind_ok, e1]
      refine ⟨trivial, ?_⟩
      intro s' hs'
      cases hz : f d[n] d[n] with
      | error x => rw [hz] at hs'; cases hs'
      | ok z =>
        rw [hz, bind_ok, wr_ok _ (by omega)] at hs'
        cases hs'
        apply hP
        refine ⟨by simpa using hl, ?_⟩
        intro i h1 h2 hi
        rw [List.getElem_set, if_neg (by omega)]
        exact hb i h1 (by simpa using h2) (by omega)

end ADT

/-! ## Lifting a representation to value and derivatives -/

section
variable {E : Type} [NormedAddCommGroup E] [NormedSpace ℝ E] {K : Type} [Scal ℝ K]

/-- The operations of `K` carry a representation `R x f` ("`x` stands for the germ of `f`
along `l`") over to results. -/
structure Laws (R : K → (E → ℝ) → Prop) (l : Filter E) (p : E) : Prop where
  pure_le : pure p ≤ l
  le_nhds : l ≤ 𝓝 p
  congr : ∀ {a f g}, f =ᶠ[l] g → R a f → R a g
  ofBase : ∀ c, R (Scal.ofBase c) (fun _ => c)
  zero : R Scal.zero (fun _ => 0)
  add : ∀ {a b f g}, R a f → R b g → ∃ c, Scal.add a b = .ok c ∧ R c (fun q => f q + g q)
  sub : ∀ {a b f g}, R a f → R b g → ∃ c, Scal.sub a b = .ok c ∧ R c (fun q => f q - g q)
  mul : ∀ {a b f g}, R a f → R b g → ∃ c, Scal.mul a b = .ok c ∧ R c (fun q => f q * g q)
  div : ∀ {a b f g}, R a f → R b g → g p ≠ 0 → ∃ c, Scal.div a b = .ok c ∧ R c (fun q => f q / g q)
  neg : ∀ {a f}, R a f → ∃ c, Scal.neg a = .ok c ∧ R c (fun q => -f q)
  baseAdd : ∀ {a f} (k : ℝ), R a f → ∃ c, Scal.baseAdd k a = .ok c ∧ R c (fun q => k + f q)
  subBase : ∀ {a f} (k : ℝ), R a f → ∃ c, Scal.subBase a k = .ok c ∧ R c (fun q => f q - k)
  mulBase : ∀ {a f} (k : ℝ), R a f → ∃ c, Scal.mulBase a k = .ok c ∧ R c (fun q => f q * k)
  baseDiv : ∀ {a f} (k : ℝ), R a f → f p ≠ 0 → ∃ c, Scal.baseDiv k a = .ok c ∧ R c (fun q => k / f q)
  gtBase : ∀ {a f} (k : ℝ), R a f → Scal.gtBase a k = decide (k < f p)
  exp : ∀ {a f}, R a f → ∃ c, Scal.exp a = .ok c ∧ R c (fun q => Real.exp (f q))
  log : ∀ {a f}, R a f → 0 < f p → ∃ c, Scal.log a = .ok c ∧ R c (fun q => Real.log (f q))
  log10 : ∀ {a f}, R a f → 0 < f p → ∃ c, Scal.log10 a = .ok c ∧ R c (fun q => Real.logb 10 (f q))
  sqrt : ∀ {a f}, R a f → 0 < f p → ∃ c, Scal.sqrt a = .ok c ∧ R c (fun q => Real.sqrt (f q))
  sin : ∀ {a f}, R a f → ∃ c, Scal.sin a = .ok c ∧ R c (fun q => Real.sin (f q))
  cos : ∀ {a f}, R a f → ∃ c, Scal.cos a = .ok c ∧ R c (fun q => Real.cos (f q))
  tan : ∀ {a f}, R a f → Real.cos (f p) ≠ 0 → ∃ c, Scal.tan a = .ok c ∧ R c (fun q => Real.tan (f q))
  atan : ∀ {a f}, R a f → ∃ c, Scal.atan a = .ok c ∧ R c (fun q => Real.arctan (f q))
  pow : ∀ {a b f g}, R a f → R b g → 0 < f p → ∃ c, Scal.pow a b = .ok c ∧ R c (fun q => f q ^ g q)

/-- `a` stands for `f` and its derivatives in the directions `dirs`. -/
structure Lift (R : K → (E → ℝ) → Prop) (l : Filter E) (dirs : List E) (a : ADT K) (f : E → ℝ) : Prop where
  v : R a.v f
  diff : ∀ᶠ q in l, DifferentiableAt ℝ f q
  d : List.Forall₂ (fun u y => R y (fun q => fderiv ℝ f q u)) dirs a.d

variable {R : K → (E → ℝ) → Prop} {l : Filter E} {p : E} {dirs : List E}

theorem Laws.at (L : Laws R l p) {P : E → Prop} (h : ∀ᶠ q in l, P q) : P p := L.pure_le h

theorem Laws.near (L : Laws R l p) {f : E → ℝ} (hf : ∀ᶠ q in l, DifferentiableAt ℝ f q) {U : Set ℝ}
    (hU : IsOpen U) (h : f p ∈ U) : ∀ᶠ q in l, f q ∈ U :=
  L.le_nhds ((L.at hf).continuousAt.eventually_mem (hU.mem_nhds h))

theorem Lift.of (L : Laws R l p) {a : ADT K} {F : E → ℝ} {G : E → E → ℝ} (hv : R a.v F)
    (hF : ∀ᶠ q in l, ∃ F' : E →L[ℝ] ℝ, HasFDerivAt F F' q ∧ ∀ u, F' u = G q u)
    (hd : List.Forall₂ (fun u y => R y (fun q => G q u)) dirs a.d) : Lift R l dirs a F := by
  refine ⟨hv, hF.mono (fun q ⟨F', h, _⟩ => h.differentiableAt), hd.imp ?_⟩
  intro u y hy
  refine L.congr (hF.mono ?_) hy
  rintro q ⟨F', h, hu⟩
  simp only [h.fderiv, hu]

theorem Lift.congr (L : Laws R l p) {a : ADT K} {f g : E → ℝ} (h : ∀ᶠ q in l, f =ᶠ[𝓝 q] g) (ha : Lift R l dirs a f) :
    Lift R l dirs a g := by
  refine ⟨L.congr (h.mono fun q hq => hq.self_of_nhds) ha.v, ?_, ha.d.imp ?_⟩
  · filter_upwards [h, ha.diff] with q hq hd
    exact hd.congr_of_eventuallyEq hq.symm
  · intro u y hy
    refine L.congr (h.mono fun q hq => ?_) hy
    rw [hq.fderiv_eq]

/-- The chain rule, as all the elementary functions implement it. -/
theorem Lift.chain (L : Laws R l p) {a : ADT K} {f : E → ℝ} (ha : Lift R l dirs a f) {t v' : K} {φ : ℝ → ℝ} {ψ : E → ℝ}
    (ht : R t ψ) (hv : R v' (fun q => φ (f q))) (hφ : ∀ᶠ q in l, HasDerivAt φ (ψ q) (f q)) :
    ∃ d', ADT.mapD (fun x => Scal.mul x t) a.d = .ok d' ∧ Lift R l dirs ⟨v', d'⟩ (fun q => φ (f q)) := by
  obtain ⟨d', e, hd⟩ := ADT.mapD_ok (Q := fun u y => R y (fun q => fderiv ℝ f q u * ψ q)) ha.d
    (fun u y hy => L.mul hy ht)
  refine ⟨d', e, Lift.of L hv ?_ hd⟩
  filter_upwards [ha.diff, hφ] with q hq hφ
  exact ⟨_, hφ.comp_hasFDerivAt q hq.hasFDerivAt, fun u => by simp [mul_comm]⟩

theorem Lift.const (L : Laws R l p) {k : K} {c : ℝ} (hk : R k (fun _ => c)) :
    Lift R l dirs (ADT.const k dirs.length) (fun _ => c) := by
  refine Lift.of L (G := fun _ _ => 0) hk (Eventually.of_forall fun q => ⟨0, hasFDerivAt_const c q, fun u => rfl⟩) ?_
  rw [List.forall₂_iff_get]
  refine ⟨by simp [ADT.const], fun i h1 h2 => ?_⟩
  simpa [ADT.const] using L.zero

/-- Seeding: `x` stands for a linear coordinate that is one in the active direction and zero
in the other ones. -/
theorem Lift.active (L : Laws R l p) {k : K} {φ : E →L[ℝ] ℝ} (hk : R k φ) {i : ℕ} (hi : i < dirs.length)
    (hd : ∀ j (hj : j < dirs.length), φ dirs[j] = if j = i then 1 else 0) :
    ∃ a, ADT.active k dirs.length i = .ok a ∧ Lift R l dirs a φ := by
  refine ⟨⟨k, (List.replicate dirs.length Scal.zero).set i (Scal.ofBase 1)⟩, ?_, ?_⟩
  · simp [ADT.active, ADT.const, ADT.setActive, assertM, hi, wr]
  · refine Lift.of L (G := fun _ u => φ u) hk (Eventually.of_forall fun q => ⟨φ, φ.hasFDerivAt, fun u => rfl⟩) ?_
    rw [List.forall₂_iff_get]
    refine ⟨by simp, fun j h1 h2 => ?_⟩
    simp only [List.get_eq_getElem, List.getElem_set, List.getElem_replicate]
    rw [hd j h1]
    by_cases h : j = i
    · subst h; simpa using L.ofBase 1
    · rw [if_neg h, if_neg (Ne.symm h)]; exact L.zero

theorem Lift.length_eq {a : ADT K} {f : E → ℝ} (ha : Lift R l dirs a f) : a.d.length = dirs.length := ha.d.length_eq.symm

theorem Lift.assert {a b : ADT K} {f g : E → ℝ} (ha : Lift R l dirs a f) (hb : Lift R l dirs b g) :
    assertM (b.d.length == a.d.length) = .ok ⟨⟩ := by
  simp [assertM, ha.length_eq, hb.length_eq]

theorem Lift.add (L : Laws R l p) {a b : ADT K} {f g : E → ℝ} (ha : Lift R l dirs a f) (hb : Lift R l dirs b g) :
    ∃ c, a.add b = .ok c ∧ Lift R l dirs c (fun q => f q + g q) := by
  obtain ⟨v, ev, hv⟩ := L.add ha.v hb.v
  obtain ⟨d, ed, hd⟩ := ADT.zipD_ok (f := Scal.add) (Q := fun u y => R y (fun q => fderiv ℝ f q u + fderiv ℝ g q u))
    ha.d hb.d (fun u y y' h h' => L.add h h')
  refine ⟨⟨v, d⟩, by simp [ADT.add, ADT.addAssign, ha.assert hb, ev, ed], Lift.of L hv ?_ hd⟩
  filter_upwards [ha.diff, hb.diff] with q h1 h2
  exact ⟨_, h1.hasFDerivAt.add h2.hasFDerivAt, fun u => rfl⟩

theorem Lift.sub' (L : Laws R l p) {a b : ADT K} {f g : E → ℝ} (ha : Lift R l dirs a f) (hb : Lift R l dirs b g) :
    ∃ c, a.subAssign b = .ok c ∧ Lift R l dirs c (fun q => f q - g q) := by
  obtain ⟨v, ev, hv⟩ := L.sub ha.v hb.v
  obtain ⟨d, ed, hd⟩ := ADT.zipD_ok (f := Scal.sub) (Q := fun u y => R y (fun q => fderiv ℝ f q u - fderiv ℝ g q u))
    ha.d hb.d (fun u y y' h h' => L.sub h h')
  refine ⟨⟨v, d⟩, by simp [ADT.subAssign, ev, ed], Lift.of L hv ?_ hd⟩
  filter_upwards [ha.diff, hb.diff] with q h1 h2
  exact ⟨_, h1.hasFDerivAt.sub h2.hasFDerivAt, fun u => rfl⟩

theorem Lift.sub (L : Laws R l p) {a b : ADT K} {f g : E → ℝ} (ha : Lift R l dirs a f) (hb : Lift R l dirs b g) :
    ∃ c, a.sub b = .ok c ∧ Lift R l dirs c (fun q => f q - g q) := by
  obtain ⟨c, e, h⟩ := Lift.sub' L ha hb
  exact ⟨c, by simp [ADT.sub, ha.assert hb, e], h⟩

theorem Lift.mul (L : Laws R l p) {a b : ADT K} {f g : E → ℝ} (ha : Lift R l dirs a f) (hb : Lift R l dirs b g) :
    ∃ c, a.mul b = .ok c ∧ Lift R l dirs c (fun q => f q * g q) := by
  obtain ⟨v, ev, hv⟩ := L.mul ha.v hb.v
  obtain ⟨d, ed, hd⟩ := ADT.zipD_ok (f := fun x y => do
      let p ← Scal.mul y a.v
      let q ← Scal.mul b.v x
      Scal.add p q) (Q := fun u y => R y (fun q => fderiv ℝ g q u * f q + g q * fderiv ℝ f q u))
    ha.d hb.d (fun u y y' h h' => by
      obtain ⟨c1, e1, h1⟩ := L.mul h' ha.v
      obtain ⟨c2, e2, h2⟩ := L.mul hb.v h
      obtain ⟨c3, e3, h3⟩ := L.add h1 h2
      exact ⟨c3, by simp [e1, e2, e3], h3⟩)
  refine ⟨⟨v, d⟩, by simp [ADT.mul, ADT.mulAssign, ha.assert hb, ev, ed], Lift.of L hv ?_ hd⟩
  filter_upwards [ha.diff, hb.diff] with q h1 h2
  exact ⟨_, h1.hasFDerivAt.mul h2.hasFDerivAt, fun u => by simp; ring⟩

theorem Lift.div (L : Laws R l p) {a b : ADT K} {f g : E → ℝ} (ha : Lift R l dirs a f) (hb : Lift R l dirs b g)
    (h0 : g p ≠ 0) : ∃ c, a.div b = .ok c ∧ Lift R l dirs c (fun q => f q / g q) := by
  obtain ⟨v, ev, hv⟩ := L.div ha.v hb.v h0
  obtain ⟨bb, ebb, hbb⟩ := L.mul hb.v hb.v
  obtain ⟨t, et, ht⟩ := L.baseDiv 1 hbb (mul_ne_zero h0 h0)
  obtain ⟨d, ed, hd⟩ := ADT.zipD_ok (f := fun x y => do
      let p ← Scal.mul b.v x
      let q ← Scal.mul y a.v
      let r ← Scal.sub p q
      Scal.mul r t) (Q := fun u y => R y (fun q => (g q * fderiv ℝ f q u - fderiv ℝ g q u * f q) * (1 / (g q * g q))))
    ha.d hb.d (fun u y y' h h' => by
      obtain ⟨c1, e1, h1⟩ := L.mul hb.v h
      obtain ⟨c2, e2, h2⟩ := L.mul h' ha.v
      obtain ⟨c3, e3, h3⟩ := L.sub h1 h2
      obtain ⟨c4, e4, h4⟩ := L.mul h3 ht
      exact ⟨c4, by simp [e1, e2, e3, e4], h4⟩)
  refine ⟨⟨v, d⟩, by simp [ADT.div, ADT.divAssign, ha.assert hb, ev, ed, ebb, et], Lift.of L hv ?_ hd⟩
  filter_upwards [ha.diff, hb.diff, L.near hb.diff isOpen_compl_singleton h0] with q h1 h2 h3
  have h3 : g q ≠ 0 := h3
  refine ⟨_, h1.hasFDerivAt.mul ((hasDerivAt_inv h3).comp_hasFDerivAt q h2.hasFDerivAt), fun u => ?_⟩
  simp
  field_simp
  ring

theorem Lift.neg (L : Laws R l p) {a : ADT K} {f : E → ℝ} (ha : Lift R l dirs a f) :
    ∃ c, a.neg = .ok c ∧ Lift R l dirs c (fun q => -f q) := by
  obtain ⟨v, ev, hv⟩ := L.neg ha.v
  obtain ⟨d, ed, hd⟩ := ADT.mapD_ok (f := Scal.neg) (Q := fun u y => R y (fun q => -fderiv ℝ f q u)) ha.d
    (fun u y hy => L.neg hy)
  refine ⟨⟨v, d⟩, by simp [ADT.neg, ev, ed], Lift.of L hv ?_ hd⟩
  filter_upwards [ha.diff] with q h1
  exact ⟨_, h1.hasFDerivAt.neg, fun u => rfl⟩

theorem Lift.addScalar (L : Laws R l p) {a : ADT K} {f : E → ℝ} (ha : Lift R l dirs a f) {k : K} {c : ℝ}
    (hk : R k (fun _ => c)) : ∃ r, a.addScalar k = .ok r ∧ Lift R l dirs r (fun q => f q + c) := by
  obtain ⟨v, ev, hv⟩ := L.add ha.v hk
  refine ⟨⟨v, a.d⟩, by simp [ADT.addScalar, ADT.addAssignScalar, ev], Lift.of L hv ?_ ha.d⟩
  filter_upwards [ha.diff] with q h1
  exact ⟨_, h1.hasFDerivAt.add_const c, fun u => rfl⟩

theorem Lift.subScalar (L : Laws R l p) {a : ADT K} {f : E → ℝ} (ha : Lift R l dirs a f) {k : K} {c : ℝ}
    (hk : R k (fun _ => c)) : ∃ r, a.subScalar k = .ok r ∧ Lift R l dirs r (fun q => f q - c) := by
  obtain ⟨v, ev, hv⟩ := L.sub ha.v hk
  refine ⟨⟨v, a.d⟩, by simp [ADT.subScalar, ADT.subAssignScalar, ev], Lift.of L hv ?_ ha.d⟩
  filter_upwards [ha.diff] with q h1
  exact ⟨_, h1.hasFDerivAt.sub_const c, fun u => rfl⟩

theorem Lift.mulScalar (L : Laws R l p) {a : ADT K} {f : E → ℝ} (ha : Lift R l dirs a f) {k : K} {c : ℝ}
    (hk : R k (fun _ => c)) : ∃ r, a.mulScalar k = .ok r ∧ Lift R l dirs r (fun q => f q * c) := by
  obtain ⟨v, ev, hv⟩ := L.mul ha.v hk
  obtain ⟨d, ed, hd⟩ := Lift.chain L ha (φ := fun x => x * c) hk hv
    (Eventually.of_forall fun q => by simpa using (hasDerivAt_id (f q)).mul_const c)
  exact ⟨⟨v, d⟩, by simp [ADT.mulScalar, ADT.mulAssignScalar, ev, ed], hd⟩

theorem Lift.scalarAdd (L : Laws R l p) {a : ADT K} {f : E → ℝ} (ha : Lift R l dirs a f) {k : K} {c : ℝ}
    (hk : R k (fun _ => c)) : ∃ r, ADT.scalarAdd k a = .ok r ∧ Lift R l dirs r (fun q => c + f q) := by
  simpa only [ADT.scalarAdd, add_comm] using Lift.addScalar L ha hk

theorem Lift.scalarMul (L : Laws R l p) {a : ADT K} {f : E → ℝ} (ha : Lift R l dirs a f) {k : K} {c : ℝ}
    (hk : R k (fun _ => c)) : ∃ r, ADT.scalarMul k a = .ok r ∧ Lift R l dirs r (fun q => c * f q) := by
  simpa only [ADT.scalarMul, mul_comm] using Lift.mulScalar L ha hk

theorem Lift.scalarSub (L : Laws R l p) {a : ADT K} {f : E → ℝ} (ha : Lift R l dirs a f) {k : K} {c : ℝ}
    (hk : R k (fun _ => c)) : ∃ r, ADT.scalarSub k a = .ok r ∧ Lift R l dirs r (fun q => c - f q) := by
  obtain ⟨n, en, hn⟩ := Lift.neg L ha
  obtain ⟨r, er, hr⟩ := Lift.addScalar L hn hk
  refine ⟨r, by simp [ADT.scalarSub, en, er], ?_⟩
  have : (fun q => c - f q) = fun q => -f q + c := by funext q; ring
  rw [this]; exact hr

theorem Lift.scalarDiv (L : Laws R l p) {a : ADT K} {f : E → ℝ} (ha : Lift R l dirs a f) {k : K} {c : ℝ}
    (hk : R k (fun _ => c)) (h0 : f p ≠ 0) :
    ∃ r, ADT.scalarDiv k a = .ok r ∧ Lift R l dirs r (fun q => c / f q) := by
  obtain ⟨na, e1, h1⟩ := L.neg hk
  obtain ⟨bb, e2, h2⟩ := L.mul ha.v ha.v
  obtain ⟨de, e3, h3⟩ := L.div h1 h2 (mul_ne_zero h0 h0)
  obtain ⟨nd, e4, h4⟩ := L.neg h3
  obtain ⟨v, e5, h5⟩ := L.mul ha.v h4
  have hne := L.near ha.diff isOpen_compl_singleton h0
  have h5 : R v (fun q => c / f q) := by
    refine L.congr (hne.mono fun q hq => ?_) h5
    have hq : f q ≠ 0 := hq
    field_simp
  obtain ⟨d, ed, hd⟩ := Lift.chain L ha (φ := fun x => c / x) h3 h5 (hne.mono fun q hq => by
    have hq : f q ≠ 0 := hq
    have := (hasDerivAt_inv hq).const_mul c
    simp only [← div_eq_mul_inv] at this
    refine this.congr_deriv ?_
    field_simp)
  exact ⟨⟨v, d⟩, by simp [ADT.scalarDiv, e1, e2, e3, e4, e5, ed], hd⟩

theorem Lift.exp (L : Laws R l p) {a : ADT K} {f : E → ℝ} (ha : Lift R l dirs a f) :
    ∃ r, a.exp = .ok r ∧ Lift R l dirs r (fun q => Real.exp (f q)) := by
  obtain ⟨t, e1, h1⟩ := L.exp ha.v
  obtain ⟨v, e2, h2⟩ := L.mul (L.ofBase 1) h1
  obtain ⟨d, ed, hd⟩ := Lift.chain L ha (φ := Real.exp) h1 (by simpa using h2)
    (Eventually.of_forall fun q => Real.hasDerivAt_exp (f q))
  exact ⟨⟨v, d⟩, by simp [ADT.exp, ADT.mulAssignScalar, e1, e2, ed], hd⟩

theorem Lift.abs (L : Laws R l p) {a : ADT K} {f : E → ℝ} (ha : Lift R l dirs a f) (h0 : f p ≠ 0) :
    ∃ r, a.abs = .ok r ∧ Lift R l dirs r (fun q => |f q|) := by
  rcases lt_or_gt_of_ne h0 with h | h
  · obtain ⟨r, er, hr⟩ := Lift.neg L ha
    refine ⟨r, by simp [ADT.abs, L.gtBase _ ha.v, h.le, er, not_lt.2 h.le], Lift.congr L ?_ hr⟩
    filter_upwards [L.near ha.diff isOpen_Iio h, ha.diff] with q hq hd
    filter_upwards [hd.continuousAt.eventually_mem (isOpen_Iio.mem_nhds hq)] with y hy
    rw [abs_of_neg hy]
  · refine ⟨a, by simp [ADT.abs, L.gtBase _ ha.v, h], Lift.congr L ?_ ha⟩
    filter_upwards [L.near ha.diff isOpen_Ioi h, ha.diff] with q hq hd
    filter_upwards [hd.continuousAt.eventually_mem (isOpen_Ioi.mem_nhds hq)] with y hy
    rw [abs_of_pos hy]

theorem Lift.powScalar' (L : Laws R l p) {a : ADT K} {f : E → ℝ} (ha : Lift R l dirs a f) {k : K} {c : ℝ}
    (hk : R k (fun _ => c))
    (hp : ∀ e, Scal.subBase k (1 : ℝ) = .ok e → R e (fun _ => c - 1) →
      ∃ t, Scal.pow a.v e = .ok t ∧ R t (fun q => f q ^ (c - 1)))
    (hφ : ∀ᶠ q in l, HasDerivAt (fun x : ℝ => x ^ c) (c * f q ^ (c - 1)) (f q) ∧ f q * f q ^ (c - 1) = f q ^ c) :
    ∃ r, a.powScalar k = .ok r ∧ Lift R l dirs r (fun q => f q ^ c) := by
  obtain ⟨e, e1, h1⟩ := L.subBase 1 hk
  obtain ⟨t, e2, h2⟩ := hp e e1 h1
  obtain ⟨v, e3, h3⟩ := L.mul ha.v h2
  obtain ⟨m, e4, h4⟩ := L.mul hk h2
  obtain ⟨d, ed, hd⟩ := Lift.chain L ha (φ := fun x => x ^ c) h4
    (L.congr (hφ.mono fun q hq => hq.2) h3) (hφ.mono fun q hq => hq.1)
  exact ⟨⟨v, d⟩, by simp [ADT.powScalar, e1, e2, e3, e4, ed], hd⟩

theorem Lift.powScalar (L : Laws R l p) {a : ADT K} {f : E → ℝ} (ha : Lift R l dirs a f) {k : K} {c : ℝ}
    (hk : R k (fun _ => c)) (h0 : 0 < f p) :
    ∃ r, a.powScalar k = .ok r ∧ Lift R l dirs r (fun q => f q ^ c) := by
  refine Lift.powScalar' L ha hk (fun e _ he => L.pow ha.v he h0) ?_
  filter_upwards [L.near ha.diff isOpen_Ioi h0] with q hq
  have hq : 0 < f q := hq
  refine ⟨Real.hasDerivAt_rpow_const (Or.inl hq.ne'), ?_⟩
  rw [Real.rpow_sub_one hq.ne']
  field_simp

theorem Lift.sqrt (L : Laws R l p) {a : ADT K} {f : E → ℝ} (ha : Lift R l dirs a f) (h0 : 0 < f p) :
    ∃ r, a.sqrt = .ok r ∧ Lift R l dirs r (fun q => Real.sqrt (f q)) := by
  obtain ⟨root, e1, h1⟩ := L.sqrt ha.v h0
  obtain ⟨t, e2, h2⟩ := L.baseDiv (1 / 2) h1 (Real.sqrt_ne_zero'.2 h0)
  obtain ⟨d, ed, hd⟩ := Lift.chain L ha (φ := Real.sqrt) h2 h1 (by
    filter_upwards [L.near ha.diff isOpen_Ioi h0] with q hq
    have hq : 0 < f q := hq
    convert Real.hasDerivAt_sqrt hq.ne' using 1
    field_simp)
  exact ⟨⟨root, d⟩, by simp only [ADT.sqrt, e1, bind_ok, Cmath.half, e2, ed]; rfl, hd⟩

theorem Lift.log (L : Laws R l p) {a : ADT K} {f : E → ℝ} (ha : Lift R l dirs a f) (h0 : 0 < f p) :
    ∃ r, a.log = .ok r ∧ Lift R l dirs r (fun q => Real.log (f q)) := by
  obtain ⟨t, e1, h1⟩ := L.baseDiv 1 ha.v h0.ne'
  obtain ⟨v, e2, h2⟩ := L.log ha.v h0
  obtain ⟨d, ed, hd⟩ := Lift.chain L ha (φ := Real.log) h1 h2 (by
    filter_upwards [L.near ha.diff isOpen_Ioi h0] with q hq
    have hq : 0 < f q := hq
    rw [one_div]
    exact Real.hasDerivAt_log hq.ne')
  exact ⟨⟨v, d⟩, by simp [ADT.log, e1, e2, ed], hd⟩

theorem Lift.pow (L : Laws R l p) {a b : ADT K} {f g : E → ℝ} (ha : Lift R l dirs a f) (hb : Lift R l dirs b g)
    (h0 : 0 < f p) : ∃ r, a.pow b = .ok r ∧ Lift R l dirs r (fun q => f q ^ g q) := by
  obtain ⟨s, e1, h1⟩ := Lift.log L ha h0
  obtain ⟨m, e2, h2⟩ := Lift.mul L h1 hb
  obtain ⟨r, e3, h3⟩ := Lift.exp L h2
  refine ⟨r, by simp [ADT.pow, e1, e2, e3], Lift.congr L ?_ h3⟩
  filter_upwards [L.near ha.diff isOpen_Ioi h0, ha.diff] with q hq hd
  filter_upwards [hd.continuousAt.eventually_mem (isOpen_Ioi.mem_nhds hq)] with y hy
  rw [Real.rpow_def_of_pos hy]

theorem Lift.log10 (L : Laws R l p) {a : ADT K} {f : E → ℝ} (ha : Lift R l dirs a f) (h0 : 0 < f p) :
    ∃ r, a.log10 = .ok r ∧ Lift R l dirs r (fun q => Real.logb 10 (f q)) := by
  have h10 : (0 : ℝ) < Real.log 10 := Real.log_pos (by norm_num)
  have e0 : Cmath.log ((10 : ℕ) : ℝ) = .ok (Real.log 10) := by
    simp [Cmath.log]
  obtain ⟨s, e1, h1⟩ := L.mulBase (Real.log 10) ha.v
  obtain ⟨t, e2, h2⟩ := L.baseDiv 1 h1 (mul_ne_zero h0.ne' h10.ne')
  obtain ⟨v, e3, h3⟩ := L.log10 ha.v h0
  obtain ⟨d, ed, hd⟩ := Lift.chain L ha (φ := Real.logb 10) h2 h3 (by
    filter_upwards [L.near ha.diff isOpen_Ioi h0] with q hq
    have hq : 0 < f q := hq
    have := (Real.hasDerivAt_log hq.ne').div_const (Real.log 10)
    refine this.congr_deriv ?_
    field_simp)
  exact ⟨⟨v, d⟩, by simp only [ADT.log10, e0, e1, e2, e3, ed, bind_ok, pure_eq_ok], hd⟩

theorem Lift.cos (L : Laws R l p) {a : ADT K} {f : E → ℝ} (ha : Lift R l dirs a f) :
    ∃ r, a.cos = .ok r ∧ Lift R l dirs r (fun q => Real.cos (f q)) := by
  obtain ⟨s, e1, h1⟩ := L.sin ha.v
  obtain ⟨t, e2, h2⟩ := L.neg h1
  obtain ⟨v, e3, h3⟩ := L.cos ha.v
  obtain ⟨d, ed, hd⟩ := Lift.chain L ha (φ := Real.cos) h2 h3
    (Eventually.of_forall fun q => Real.hasDerivAt_cos (f q))
  exact ⟨⟨v, d⟩, by simp [ADT.cos, e1, e2, e3, ed], hd⟩

theorem Lift.sin (L : Laws R l p) {a : ADT K} {f : E → ℝ} (ha : Lift R l dirs a f) :
    ∃ r, a.sin = .ok r ∧ Lift R l dirs r (fun q => Real.sin (f q)) := by
  obtain ⟨t, e1, h1⟩ := L.cos ha.v
  obtain ⟨v, e3, h3⟩ := L.sin ha.v
  obtain ⟨d, ed, hd⟩ := Lift.chain L ha (φ := Real.sin) h1 h3
    (Eventually.of_forall fun q => Real.hasDerivAt_sin (f q))
  exact ⟨⟨v, d⟩, by simp [ADT.sin, e1, e3, ed], hd⟩

theorem Lift.tan (L : Laws R l p) {a : ADT K} {f : E → ℝ} (ha : Lift R l dirs a f) (h0 : Real.cos (f p) ≠ 0) :
    ∃ r, a.tan = .ok r ∧ Lift R l dirs r (fun q => Real.tan (f q)) := by
  obtain ⟨t, e1, h1⟩ := L.cos ha.v
  obtain ⟨s, e2, h2⟩ := L.baseDiv 1 h1 h0
  obtain ⟨s', e3, h3⟩ := L.mul h2 h2
  obtain ⟨v, e4, h4⟩ := L.tan ha.v h0
  obtain ⟨d, ed, hd⟩ := Lift.chain L ha (φ := Real.tan) h3 h4 (by
    filter_upwards [L.near ha.diff (isOpen_compl_singleton.preimage Real.continuous_cos) h0] with q hq
    have hq : Real.cos (f q) ≠ 0 := hq
    convert Real.hasDerivAt_tan hq using 1
    field_simp)
  exact ⟨⟨v, d⟩, by simp [ADT.tan, e1, e2, e3, e4, ed], hd⟩

theorem Lift.atan (L : Laws R l p) {a : ADT K} {f : E → ℝ} (ha : Lift R l dirs a f) :
    ∃ r, a.atan = .ok r ∧ Lift R l dirs r (fun q => Real.arctan (f q)) := by
  obtain ⟨t, e1, h1⟩ := L.mul ha.v ha.v
  obtain ⟨s, e2, h2⟩ := L.baseAdd 1 h1
  obtain ⟨s', e3, h3⟩ := L.baseDiv 1 h2 (by have := mul_self_nonneg (f p); intro h; linarith)
  obtain ⟨v, e4, h4⟩ := L.atan ha.v
  obtain ⟨d, ed, hd⟩ := Lift.chain L ha (φ := Real.arctan) h3 h4 (by
    refine Eventually.of_forall fun q => ?_
    have := Real.hasDerivAt_arctan (f q)
    rwa [sq] at this)
  exact ⟨⟨v, d⟩, by simp [ADT.atan, e1, e2, e3, e4, ed], hd⟩

end

/-! ## First order -/

section
variable {E : Type} [NormedAddCommGroup E] [NormedSpace ℝ E] {p : E} {dirs : List E}

/-- A number stands for the value at `p`. -/
def ValueAt (p : E) (x : ℝ) (f : E → ℝ) : Prop := x = f p

theorem laws_real (p : E) : Laws (K := ℝ) (ValueAt p) (pure p) p where
  pure_le := le_rfl
  le_nhds := pure_le_nhds p
  congr := by
    intro a f g h ha
    rw [ValueAt, ha]
    exact h
  ofBase c := rfl
  zero := rfl
  add := by rintro a b f g rfl rfl; exact ⟨_, rfl, rfl⟩
  sub := by rintro a b f g rfl rfl; exact ⟨_, rfl, rfl⟩
  mul := by rintro a b f g rfl rfl; exact ⟨_, rfl, rfl⟩
  div := by rintro a b f g rfl rfl h; exact ⟨_, if_neg h, rfl⟩
  neg := by rintro a f rfl; exact ⟨_, rfl, rfl⟩
  baseAdd := by rintro a f k rfl; exact ⟨_, rfl, rfl⟩
  subBase := by rintro a f k rfl; exact ⟨_, rfl, rfl⟩
  mulBase := by rintro a f k rfl; exact ⟨_, rfl, rfl⟩
  baseDiv := by rintro a f k rfl h; exact ⟨_, if_neg h, rfl⟩
  gtBase := by rintro a f k rfl; simp [Scal.gtBase, Cmath.gt]
  exp := by rintro a f rfl; exact ⟨_, rfl, rfl⟩
  log := by rintro a f rfl h; exact ⟨_, if_pos h, rfl⟩
  log10 := by rintro a f rfl h; exact ⟨_, if_pos h, rfl⟩
  sqrt := by rintro a f rfl h; exact ⟨_, if_pos h.le, rfl⟩
  sin := by rintro a f rfl; exact ⟨_, rfl, rfl⟩
  cos := by rintro a f rfl; exact ⟨_, rfl, rfl⟩
  tan := by rintro a f rfl h; exact ⟨_, if_neg h, rfl⟩
  atan := by rintro a f rfl; exact ⟨_, rfl, rfl⟩
  pow := by rintro a b f g rfl rfl h; exact ⟨_, if_pos h, rfl⟩

theorem tracks_iff {a : ADT ℝ} {f : E → ℝ} : Spec.Tracks dirs p f a ↔ Lift (ValueAt p) (pure p) dirs a f := by
  have key : ∀ d : List ℝ, d = dirs.map (fun u => fderiv ℝ f p u) ↔
      List.Forall₂ (fun u y => ValueAt p y (fun q => fderiv ℝ f q u)) dirs d := by
    intro d
    constructor
    · rintro rfl
      rw [List.forall₂_map_right_iff]
      exact List.forall₂_same.2 fun u _ => rfl
    · intro h
      induction h with
      | nil => rfl
      | cons h _ ih => rw [List.map_cons, ← ih]; rw [h]
  constructor
  · rintro ⟨h1, h2, h3⟩
    exact ⟨h1, h2, (key _).1 h3⟩
  · rintro ⟨h1, h2, h3⟩
    exact ⟨h1, h2, (key _).2 h3⟩

theorem Lift.divScalar {a : ADT ℝ} {f : E → ℝ} (ha : Lift (ValueAt p) (pure p) dirs a f) {c : ℝ} (h0 : c ≠ 0) :
    ∃ r, a.divScalar c = .ok r ∧ Lift (ValueAt p) (pure p) dirs r (fun q => f q / c) := by
  have e : Cmath.div (1 : ℝ) c = .ok (1 / c) := if_neg h0
  obtain ⟨r, er, hr⟩ := Lift.mulScalar (laws_real p) ha (k := 1 / c) (c := 1 / c) rfl
  refine ⟨r, ?_, ?_⟩
  · rw [← er]
    simp [ADT.divScalar, ADT.divAssignScalar, e, ADT.mulScalar, ADT.mulAssignScalar, Scal.mul]
  · simpa [div_eq_mul_inv] using hr

theorem Lift.acos {a : ADT ℝ} {f : E → ℝ} (ha : Lift (ValueAt p) (pure p) dirs a f) (h1 : -1 < f p) (h2 : f p < 1) :
    ∃ r, a.acos = .ok r ∧ Lift (ValueAt p) (pure p) dirs r (fun q => Real.arccos (f q)) := by
  have hv : a.v = f p := ha.v
  have hs : 0 < 1 - f p * f p := by nlinarith
  have e1 : Cmath.sqrt (1 - a.v * a.v) = .ok (Real.sqrt (1 - f p * f p)) := by rw [hv]; exact if_pos hs.le
  have e2 : Cmath.div (-1) (Real.sqrt (1 - f p * f p)) = .ok (-1 / Real.sqrt (1 - f p * f p)) :=
    if_neg (Real.sqrt_ne_zero'.2 hs)
  have e3 : Cmath.acos a.v = .ok (Real.arccos (f p)) := by rw [hv]; exact if_pos ⟨h1.le, h2.le⟩
  obtain ⟨d, ed, hd⟩ := Lift.chain (laws_real p) ha (φ := Real.arccos) (t := -1 / Real.sqrt (1 - f p * f p))
    (ψ := fun _ => -1 / Real.sqrt (1 - f p * f p)) (v' := Real.arccos (f p)) rfl rfl (by
      simp only [eventually_pure]
      convert Real.hasDerivAt_arccos h1.ne' h2.ne using 1
      rw [sq]; ring)
  refine ⟨_, ?_, hd⟩
  simp only [ADT.acos, e1, e2, e3, bind_ok]
  erw [ed]; rfl

theorem Lift.asin {a : ADT ℝ} {f : E → ℝ} (ha : Lift (ValueAt p) (pure p) dirs a f) (h1 : -1 < f p) (h2 : f p < 1) :
    ∃ r, a.asin = .ok r ∧ Lift (ValueAt p) (pure p) dirs r (fun q => Real.arcsin (f q)) := by
  have hv : a.v = f p := ha.v
  have hs : 0 < 1 - f p * f p := by nlinarith
  have e1 : Cmath.sqrt (1 - a.v * a.v) = .ok (Real.sqrt (1 - f p * f p)) := by rw [hv]; exact if_pos hs.le
  have e2 : Cmath.div 1 (Real.sqrt (1 - f p * f p)) = .ok (1 / Real.sqrt (1 - f p * f p)) :=
    if_neg (Real.sqrt_ne_zero'.2 hs)
  have e3 : Cmath.asin a.v = .ok (Real.arcsin (f p)) := by rw [hv]; exact if_pos ⟨h1.le, h2.le⟩
  obtain ⟨d, ed, hd⟩ := Lift.chain (laws_real p) ha (φ := Real.arcsin) (t := 1 / Real.sqrt (1 - f p * f p))
    (ψ := fun _ => 1 / Real.sqrt (1 - f p * f p)) (v' := Real.arcsin (f p)) rfl rfl (by
      simp only [eventually_pure]
      convert Real.hasDerivAt_arcsin h1.ne' h2.ne using 1
      rw [sq])
  refine ⟨_, ?_, hd⟩
  simp only [ADT.asin, e1, e2, e3, bind_ok]
  erw [ed]; rfl

theorem Lift.powScalarInt {a : ADT ℝ} {f : E → ℝ} (ha : Lift (ValueAt p) (pure p) dirs a f) {m : ℤ}
    (h : f p ≠ 0 ∨ 1 ≤ m) :
    ∃ r, a.powScalar (m : ℝ) = .ok r ∧ Lift (ValueAt p) (pure p) dirs r (fun q => f q ^ (m : ℝ)) := by
  refine Lift.powScalar' (laws_real p) ha (c := m) rfl ?_ ?_
  · rintro e - he
    have he : e = m - 1 := he
    have hv : a.v = f p := ha.v
    rw [hv, he]
    refine ⟨f p ^ ((m : ℝ) - 1), ?_, rfl⟩
    change (if 0 < f p then _ else _) = _
    split
    · rfl
    · split
      · rename_i h0
        rcases h with h | h
        · exact absurd h0 h
        · have : (1 : ℝ) ≤ m := by exact_mod_cast h
          rw [if_pos (by linarith)]
      · rw [if_pos ⟨m - 1, by push_cast; ring⟩]
  · simp only [eventually_pure]
    have hm : f p * f p ^ ((m : ℝ) - 1) = f p ^ (m : ℝ) := by
      have e : (m : ℝ) - 1 = ((m - 1 : ℤ) : ℝ) := by push_cast; ring
      rw [e, Real.rpow_intCast, Real.rpow_intCast]
      by_cases h0 : f p = 0
      · rw [h0]
        rcases h with h | h
        · exact absurd h0 h
        · rw [zero_mul, zero_zpow _ (by omega)]
      · rw [← zpow_one_add₀ h0]; congr 1; ring
    refine ⟨?_, hm⟩
    have e : (m : ℝ) - 1 = ((m - 1 : ℤ) : ℝ) := by push_cast; ring
    rw [e, Real.rpow_intCast]
    simp only [Real.rpow_intCast]
    exact hasDerivAt_zpow m (f p) (h.imp id (fun h => by omega))

end

/-! ## Second order -/

section
variable {E : Type} [NormedAddCommGroup E] [NormedSpace ℝ E] {p : E} {dirs : List E}

theorem laws_nested (p : E) (dirs : List E) :
    Laws (K := Static dirs.length ℝ) (fun (a : ADT ℝ) f => Lift (ValueAt p) (pure p) dirs a f) (𝓝 p) p where
  pure_le := pure_le_nhds p
  le_nhds := le_rfl
  congr := by
    intro a f g h ha
    exact Lift.congr (laws_real p) (by simpa using h) ha
  ofBase c := Lift.const (laws_real p) rfl
  zero := Lift.const (laws_real p) rfl
  add h1 h2 := Lift.add (laws_real p) h1 h2
  sub h1 h2 := Lift.sub (laws_real p) h1 h2
  mul h1 h2 := Lift.mul (laws_real p) h1 h2
  div h1 h2 h := Lift.div (laws_real p) h1 h2 h
  neg h1 := Lift.neg (laws_real p) h1
  baseAdd k h1 := Lift.scalarAdd (laws_real p) h1 rfl
  subBase k h1 := Lift.subScalar (laws_real p) h1 rfl
  mulBase k h1 := Lift.mulScalar (laws_real p) h1 rfl
  baseDiv k h1 h := Lift.scalarDiv (laws_real p) h1 rfl h
  gtBase k h1 := (laws_real p).gtBase k h1.v
  exp h1 := Lift.exp (laws_real p) h1
  log h1 h := Lift.log (laws_real p) h1 h
  log10 h1 h := Lift.log10 (laws_real p) h1 h
  sqrt h1 h := Lift.sqrt (laws_real p) h1 h
  sin h1 := Lift.sin (laws_real p) h1
  cos h1 := Lift.cos (laws_real p) h1
  tan h1 h := Lift.tan (laws_real p) h1 h
  atan h1 := Lift.atan (laws_real p) h1
  pow h1 h2 h := Lift.pow (laws_real p) h1 h2 h

theorem tracks2_iff {a : ADT (Static dirs.length ℝ)} {f : E → ℝ} : Spec.Tracks2 dirs p f a ↔
    Lift (K := Static dirs.length ℝ) (fun (a : ADT ℝ) f => Lift (ValueAt p) (pure p) dirs a f) (𝓝 p) dirs a f := by
  constructor
  · rintro ⟨h1, h2, h3, h4⟩
    refine ⟨tracks_iff.1 h1, h2, ?_⟩
    rw [List.forall₂_iff_get]
    exact ⟨h3.symm, fun i h5 h6 => tracks_iff.1 (h4 i h6 h5)⟩
  · rintro ⟨h1, h2, h3⟩
    refine ⟨tracks_iff.2 h1, h2, h3.length_eq.symm, ?_⟩
    rw [List.forall₂_iff_get] at h3
    exact fun i h5 h6 => tracks_iff.2 (h3.2 i h6 h5)

end

/-! ## Expressions -/

section
open Spec

theorem axes_length (n : ℕ) : (axes n).length = n := by simp [axes]

/-- The coordinate function as a continuous linear map. -/
noncomputable def coordL {n : ℕ} (i : ℕ) (hi : i < n) : (Fin n → ℝ) →L[ℝ] ℝ :=
  ContinuousLinearMap.proj (R := ℝ) (φ := fun _ => ℝ) (⟨i, hi⟩ : Fin n)

theorem coordL_eq {n : ℕ} (i : ℕ) (hi : i < n) : (coordL i hi : (Fin n → ℝ) → ℝ) = fun y => coord y i := by
  funext y; simp [coordL, coord, hi]

theorem coordL_axes {n : ℕ} (i : ℕ) (hi : i < n) (j : ℕ) (hj : j < (axes n).length) :
    coordL i hi (axes n)[j] = if j = i then 1 else 0 := by
  simp [coordL, axes, Pi.single_apply, eq_comm]

theorem run_tracks (x : List ℝ) (e : DExpr ℝ) (h : Smooth (point x) e) :
    ∃ a, e.run x = .ok a ∧ Lift (ValueAt (point x)) (pure (point x)) (axes x.length) a (denote e) := by
  have L := laws_real (point x)
  induction e with
  | var i =>
    have hi : i < x.length := h
    obtain ⟨a, ea, ha⟩ := Lift.active L (dirs := axes x.length) (k := x[i]) (φ := coordL i hi) (i := i)
      (by rw [coordL_eq]; simp [ValueAt, coord, point, hi]) (by rw [axes_length]; exact hi) (coordL_axes i hi)
    rw [axes_length] at ea
    refine ⟨a, by simp only [DExpr.run, rd_getElem hi, bind_ok]; exact ea, ?_⟩
    rw [coordL_eq] at ha
    exact ha
  | const c =>
    have := Lift.const L (dirs := axes x.length) (k := c) (c := c) rfl
    rw [axes_length] at this
    exact ⟨_, rfl, this⟩
  | add a b iha ihb =>
    obtain ⟨p, ep, hp⟩ := iha h.1
    obtain ⟨q, eq, hq⟩ := ihb h.2
    obtain ⟨r, er, hr⟩ := Lift.add L hp hq
    exact ⟨r, by simp [DExpr.run, ep, eq, er], hr⟩
  | sub a b iha ihb =>
    obtain ⟨p, ep, hp⟩ := iha h.1
    obtain ⟨q, eq, hq⟩ := ihb h.2
    obtain ⟨r, er, hr⟩ := Lift.sub L hp hq
    exact ⟨r, by simp [DExpr.run, ep, eq, er], hr⟩
  | mul a b iha ihb =>
    obtain ⟨p, ep, hp⟩ := iha h.1
    obtain ⟨q, eq, hq⟩ := ihb h.2
    obtain ⟨r, er, hr⟩ := Lift.mul L hp hq
    exact ⟨r, by simp [DExpr.run, ep, eq, er], hr⟩
  | div a b iha ihb =>
    obtain ⟨p, ep, hp⟩ := iha h.1
    obtain ⟨q, eq, hq⟩ := ihb h.2.1
    obtain ⟨r, er, hr⟩ := Lift.div L hp hq h.2.2
    exact ⟨r, by simp [DExpr.run, ep, eq, er], hr⟩
  | neg a iha =>
    obtain ⟨p, ep, hp⟩ := iha h
    obtain ⟨r, er, hr⟩ := Lift.neg L hp
    exact ⟨r, by simp [DExpr.run, ep, er], hr⟩
  | addScalar a c iha =>
    obtain ⟨p, ep, hp⟩ := iha h
    obtain ⟨r, er, hr⟩ := Lift.addScalar L hp (k := c) (c := c) rfl
    exact ⟨r, by simp [DExpr.run, ep, er], hr⟩
  | subScalar a c iha =>
    obtain ⟨p, ep, hp⟩ := iha h
    obtain ⟨r, er, hr⟩ := Lift.subScalar L hp (k := c) (c := c) rfl
    exact ⟨r, by simp [DExpr.run, ep, er], hr⟩
  | mulScalar a c iha =>
    obtain ⟨p, ep, hp⟩ := iha h
    obtain ⟨r, er, hr⟩ := Lift.mulScalar L hp (k := c) (c := c) rfl
    exact ⟨r, by simp [DExpr.run, ep, er], hr⟩
  | divScalar a c iha =>
    obtain ⟨p, ep, hp⟩ := iha h.1
    obtain ⟨r, er, hr⟩ := Lift.divScalar hp h.2
    exact ⟨r, by simp [DExpr.run, ep, er], hr⟩
  | scalarAdd c a iha =>
    obtain ⟨p, ep, hp⟩ := iha h
    obtain ⟨r, er, hr⟩ := Lift.scalarAdd L hp (k := c) (c := c) rfl
    exact ⟨r, by simp [DExpr.run, ep, er], hr⟩
  | scalarSub c a iha =>
    obtain ⟨p, ep, hp⟩ := iha h
    obtain ⟨r, er, hr⟩ := Lift.scalarSub L hp (k := c) (c := c) rfl
    exact ⟨r, by simp [DExpr.run, ep, er], hr⟩
  | scalarMul c a iha =>
    obtain ⟨p, ep, hp⟩ := iha h
    obtain ⟨r, er, hr⟩ := Lift.scalarMul L hp (k := c) (c := c) rfl
    exact ⟨r, by simp [DExpr.run, ep, er], hr⟩
  | scalarDiv c a iha =>
    obtain ⟨p, ep, hp⟩ := iha h.1
    obtain ⟨r, er, hr⟩ := Lift.scalarDiv L hp (k := c) (c := c) rfl h.2
    exact ⟨r, by simp [DExpr.run, ep, er], hr⟩
  | exp a iha =>
    obtain ⟨p, ep, hp⟩ := iha h
    obtain ⟨r, er, hr⟩ := Lift.exp L hp
    exact ⟨r, by simp [DExpr.run, ep, er], hr⟩
  | abs a iha =>
    obtain ⟨p, ep, hp⟩ := iha h.1
    obtain ⟨r, er, hr⟩ := Lift.abs L hp h.2
    exact ⟨r, by simp [DExpr.run, ep, er], hr⟩
  | powScalar a c iha =>
    obtain ⟨p, ep, hp⟩ := iha h.1
    rcases h.2 with h0 | ⟨m, rfl, hm⟩
    · obtain ⟨r, er, hr⟩ := Lift.powScalar L hp (k := c) (c := c) rfl h0
      exact ⟨r, by simp [DExpr.run, ep, er], hr⟩
    · obtain ⟨r, er, hr⟩ := Lift.powScalarInt hp hm
      exact ⟨r, by simp [DExpr.run, ep, er], hr⟩
  | pow a b iha ihb =>
    obtain ⟨p, ep, hp⟩ := iha h.1
    obtain ⟨q, eq, hq⟩ := ihb h.2.1
    obtain ⟨r, er, hr⟩ := Lift.pow L hp hq h.2.2
    exact ⟨r, by simp [DExpr.run, ep, eq, er], hr⟩
  | sqrt a iha =>
    obtain ⟨p, ep, hp⟩ := iha h.1
    obtain ⟨r, er, hr⟩ := Lift.sqrt L hp h.2
    exact ⟨r, by simp [DExpr.run, ep, er], hr⟩
  | log a iha =>
    obtain ⟨p, ep, hp⟩ := iha h.1
    obtain ⟨r, er, hr⟩ := Lift.log L hp h.2
    exact ⟨r, by simp [DExpr.run, ep, er], hr⟩
  | log10 a iha =>
    obtain ⟨p, ep, hp⟩ := iha h.1
    obtain ⟨r, er, hr⟩ := Lift.log10 L hp h.2
    exact ⟨r, by simp [DExpr.run, ep, er], hr⟩
  | cos a iha =>
    obtain ⟨p, ep, hp⟩ := iha h
    obtain ⟨r, er, hr⟩ := Lift.cos L hp
    exact ⟨r, by simp [DExpr.run, ep, er], hr⟩
  | sin a iha =>
    obtain ⟨p, ep, hp⟩ := iha h
    obtain ⟨r, er, hr⟩ := Lift.sin L hp
    exact ⟨r, by simp [DExpr.run, ep, er], hr⟩
  | tan a iha =>
    obtain ⟨p, ep, hp⟩ := iha h.1
    obtain ⟨r, er, hr⟩ := Lift.tan L hp h.2
    exact ⟨r, by simp [DExpr.run, ep, er], hr⟩
  | acos a iha =>
    obtain ⟨p, ep, hp⟩ := iha h.1
    obtain ⟨r, er, hr⟩ := Lift.acos hp h.2.1 h.2.2
    exact ⟨r, by simp [DExpr.run, ep, er], hr⟩
  | asin a iha =>
    obtain ⟨p, ep, hp⟩ := iha h.1
    obtain ⟨r, er, hr⟩ := Lift.asin hp h.2.1 h.2.2
    exact ⟨r, by simp [DExpr.run, ep, er], hr⟩
  | atan a iha =>
    obtain ⟨p, ep, hp⟩ := iha h
    obtain ⟨r, er, hr⟩ := Lift.atan L hp
    exact ⟨r, by simp [DExpr.run, ep, er], hr⟩

/-- The representation used for second derivatives. -/
abbrev Inner (x : List ℝ) : Static x.length ℝ → ((Fin x.length → ℝ) → ℝ) → Prop :=
  fun (a : ADT ℝ) f => Lift (ValueAt (point x)) (pure (point x)) (axes x.length) a f

theorem laws_inner (x : List ℝ) : Laws (Inner x) (𝓝 (point x)) (point x) := by
  have := laws_nested (point x) (axes x.length)
  have key : ∀ m, m = x.length → Laws (K := Static m ℝ) (fun (a : ADT ℝ) f => Lift (ValueAt (point x)) (pure (point x))
      (axes x.length) a f) (𝓝 (point x)) (point x) → Laws (Inner x) (𝓝 (point x)) (point x) := by
    rintro m rfl h; exact h
  exact key _ (axes_length _) this

theorem runNested_tracks (x : List ℝ) (e : DExpr ℝ) (h : Smooth (point x) e) (hn : Nestable (point x) e) :
    ∃ a, e.runNested x = .ok a ∧ Lift (Inner x) (𝓝 (point x)) (axes x.length) a (denote e) := by
  have L := laws_inner x
  induction e with
  | var i =>
    have hi : i < x.length := h
    obtain ⟨a, ea, ha⟩ := Lift.active (laws_real (point x)) (dirs := axes x.length) (k := x[i]) (φ := coordL i hi) (i := i)
      (by rw [coordL_eq]; simp [ValueAt, coord, point, hi]) (by rw [axes_length]; exact hi) (coordL_axes i hi)
    obtain ⟨b, eb, hb⟩ := Lift.active L (dirs := axes x.length) (k := a) (φ := coordL i hi) (i := i)
      ha (by rw [axes_length]; exact hi) (coordL_axes i hi)
    rw [axes_length] at ea eb
    refine ⟨b, by simp only [DExpr.runNested, rd_getElem hi, bind_ok, ea]; exact eb, ?_⟩
    rw [coordL_eq] at hb
    exact hb
  | const c =>
    have := Lift.const L (dirs := axes x.length) (L.ofBase c)
    rw [axes_length] at this
    exact ⟨_, rfl, this⟩
  | add a b iha ihb =>
    obtain ⟨p, ep, hp⟩ := iha h.1 hn.1
    obtain ⟨q, eq, hq⟩ := ihb h.2 hn.2
    obtain ⟨r, er, hr⟩ := Lift.add L hp hq
    exact ⟨r, by simp [DExpr.runNested, ep, eq, er], hr⟩
  | sub a b iha ihb =>
    obtain ⟨p, ep, hp⟩ := iha h.1 hn.1
    obtain ⟨q, eq, hq⟩ := ihb h.2 hn.2
    obtain ⟨r, er, hr⟩ := Lift.sub L hp hq
    exact ⟨r, by simp [DExpr.runNested, ep, eq, er], hr⟩
  | mul a b iha ihb =>
    obtain ⟨p, ep, hp⟩ := iha h.1 hn.1
    obtain ⟨q, eq, hq⟩ := ihb h.2 hn.2
    obtain ⟨r, er, hr⟩ := Lift.mul L hp hq
    exact ⟨r, by simp [DExpr.runNested, ep, eq, er], hr⟩
  | div a b iha ihb =>
    obtain ⟨p, ep, hp⟩ := iha h.1 hn.1
    obtain ⟨q, eq, hq⟩ := ihb h.2.1 hn.2
    obtain ⟨r, er, hr⟩ := Lift.div L hp hq h.2.2
    exact ⟨r, by simp [DExpr.runNested, ep, eq, er], hr⟩
  | neg a iha =>
    obtain ⟨p, ep, hp⟩ := iha h hn
    obtain ⟨r, er, hr⟩ := Lift.neg L hp
    exact ⟨r, by simp [DExpr.runNested, ep, er], hr⟩
  | addScalar a c iha =>
    obtain ⟨p, ep, hp⟩ := iha h hn
    obtain ⟨r, er, hr⟩ := Lift.addScalar L hp (L.ofBase c)
    exact ⟨r, by simp [DExpr.runNested, ep, er], hr⟩
  | subScalar a c iha =>
    obtain ⟨p, ep, hp⟩ := iha h hn
    obtain ⟨r, er, hr⟩ := Lift.subScalar L hp (L.ofBase c)
    exact ⟨r, by simp [DExpr.runNested, ep, er], hr⟩
  | mulScalar a c iha =>
    obtain ⟨p, ep, hp⟩ := iha h hn
    obtain ⟨r, er, hr⟩ := Lift.mulScalar L hp (L.ofBase c)
    exact ⟨r, by simp [DExpr.runNested, ep, er], hr⟩
  | divScalar a c iha => exact hn.elim
  | scalarAdd c a iha =>
    obtain ⟨p, ep, hp⟩ := iha h hn
    obtain ⟨r, er, hr⟩ := Lift.scalarAdd L hp (L.ofBase c)
    exact ⟨r, by simp [DExpr.runNested, ep, er], hr⟩
  | scalarSub c a iha =>
    obtain ⟨p, ep, hp⟩ := iha h hn
    obtain ⟨r, er, hr⟩ := Lift.scalarSub L hp (L.ofBase c)
    exact ⟨r, by simp [DExpr.runNested, ep, er], hr⟩
  | scalarMul c a iha =>
    obtain ⟨p, ep, hp⟩ := iha h hn
    obtain ⟨r, er, hr⟩ := Lift.scalarMul L hp (L.ofBase c)
    exact ⟨r, by simp [DExpr.runNested, ep, er], hr⟩
  | scalarDiv c a iha =>
    obtain ⟨p, ep, hp⟩ := iha h.1 hn
    obtain ⟨r, er, hr⟩ := Lift.scalarDiv L hp (L.ofBase c) h.2
    exact ⟨r, by simp [DExpr.runNested, ep, er], hr⟩
  | exp a iha =>
    obtain ⟨p, ep, hp⟩ := iha h hn
    obtain ⟨r, er, hr⟩ := Lift.exp L hp
    exact ⟨r, by simp [DExpr.runNested, ep, er], hr⟩
  | abs a iha =>
    obtain ⟨p, ep, hp⟩ := iha h.1 hn
    obtain ⟨r, er, hr⟩ := Lift.abs L hp h.2
    exact ⟨r, by simp [DExpr.runNested, ep, er], hr⟩
  | powScalar a c iha =>
    obtain ⟨p, ep, hp⟩ := iha h.1 hn.1
    obtain ⟨r, er, hr⟩ := Lift.powScalar L hp (L.ofBase c) hn.2
    exact ⟨r, by simp [DExpr.runNested, ep, er], hr⟩
  | pow a b iha ihb =>
    obtain ⟨p, ep, hp⟩ := iha h.1 hn.1
    obtain ⟨q, eq, hq⟩ := ihb h.2.1 hn.2
    obtain ⟨r, er, hr⟩ := Lift.pow L hp hq h.2.2
    exact ⟨r, by simp [DExpr.runNested, ep, eq, er], hr⟩
  | sqrt a iha =>
    obtain ⟨p, ep, hp⟩ := iha h.1 hn
    obtain ⟨r, er, hr⟩ := Lift.sqrt L hp h.2
    exact ⟨r, by simp [DExpr.runNested, ep, er], hr⟩
  | log a iha =>
    obtain ⟨p, ep, hp⟩ := iha h.1 hn
    obtain ⟨r, er, hr⟩ := Lift.log L hp h.2
    exact ⟨r, by simp [DExpr.runNested, ep, er], hr⟩
  | log10 a iha =>
    obtain ⟨p, ep, hp⟩ := iha h.1 hn
    obtain ⟨r, er, hr⟩ := Lift.log10 L hp h.2
    exact ⟨r, by simp [DExpr.runNested, ep, er], hr⟩
  | cos a iha =>
    obtain ⟨p, ep, hp⟩ := iha h hn
    obtain ⟨r, er, hr⟩ := Lift.cos L hp
    exact ⟨r, by simp [DExpr.runNested, ep, er], hr⟩
  | sin a iha =>
    obtain ⟨p, ep, hp⟩ := iha h hn
    obtain ⟨r, er, hr⟩ := Lift.sin L hp
    exact ⟨r, by simp [DExpr.runNested, ep, er], hr⟩
  | tan a iha =>
    obtain ⟨p, ep, hp⟩ := iha h.1 hn
    obtain ⟨r, er, hr⟩ := Lift.tan L hp h.2
    exact ⟨r, by simp [DExpr.runNested, ep, er], hr⟩
  | acos a iha => exact hn.elim
  | asin a iha => exact hn.elim
  | atan a iha =>
    obtain ⟨p, ep, hp⟩ := iha h hn
    obtain ⟨r, er, hr⟩ := Lift.atan L hp
    exact ⟨r, by simp [DExpr.runNested, ep, er], hr⟩

end

end Bezman
