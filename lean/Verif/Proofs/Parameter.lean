import Verif.Spec.Parameter
import Verif.Proofs.SumsAgree
import Verif.Proofs.Coordinates
import Mathlib.Analysis.Calculus.FDeriv.Add
import Mathlib.Analysis.Calculus.FDeriv.Mul
import Mathlib.Analysis.Calculus.Deriv.Inv

/-! # Functions of a parameter as a number system

Pointwise arithmetic; comparisons at the parameter value `x`.  A run over this number system corresponds to the run with
`AlgoDiffType` numbers (`parJet`) and to the run at any parameter value `y` (`parAt`). -/

namespace Bezman
open Spec

/-- functions of a parameter, compared at `x` -/
def Fn {E : Type} (_ : E) : Type := E → ℝ

namespace Fn
variable {E : Type} {x : E}

instance : Zero (Fn x) := ⟨fun _ => 0⟩
instance : One (Fn x) := ⟨fun _ => 1⟩
instance : NatCast (Fn x) := ⟨fun m _ => m⟩
noncomputable instance : Add (Fn x) := ⟨fun a b y => a y + b y⟩
noncomputable instance : Sub (Fn x) := ⟨fun a b y => a y - b y⟩
noncomputable instance : Mul (Fn x) := ⟨fun a b y => a y * b y⟩
noncomputable instance : Neg (Fn x) := ⟨fun a y => -a y⟩
noncomputable instance : Div (Fn x) := ⟨fun a b y => a y / b y⟩
instance : LT (Fn x) := ⟨fun a b => a x < b x⟩
noncomputable instance : DecidableLT (Fn x) := fun a b => inferInstanceAs (Decidable (a x < b x))
noncomputable instance : BEq (Fn x) := ⟨fun a b => a x == b x⟩

/-- the value at `x` -/
def at' (y : E) : Fn x → ℝ := fun a => a y

theorem arith : Arithmetic (K := Fn x) (K' := ℝ) (at' x) where
  zero := rfl
  one := rfl
  add _ _ := rfl
  sub _ _ := rfl
  mul _ _ := rfl
  neg _ := rfl
  div _ _ := rfl
  cast _ := rfl
  lt _ _ := Iff.rfl
  eq _ _ := rfl

/-- value at `y` -/
theorem parScalarAt (y : E) : letI := parMap (at' (x := x) y); ParScalar (Fn x) ℝ :=
  letI := parMap (at' (x := x) y)
  { zero := rfl
    one := rfl
    add := fun {a b a' b'} h1 h2 => by
      obtain rfl : a y = a' := h1
      obtain rfl : b y = b' := h2
      rfl
    sub := fun {a b a' b'} h1 h2 => by
      obtain rfl : a y = a' := h1
      obtain rfl : b y = b' := h2
      rfl
    mul := fun {a b a' b'} h1 h2 => by
      obtain rfl : a y = a' := h1
      obtain rfl : b y = b' := h2
      rfl
    neg := fun {a a'} h1 => by
      obtain rfl : a y = a' := h1
      rfl
    cast := fun _ => rfl
    inv := fun m => rfl
    ratio := fun m k => rfl }

theorem parPlanesAt (y : E) (zs : List (Fn x)) : letI := parMap (at' (x := x) y); Spline.ParPlanes zs (zs.map (at' y)) := by
  let _ := parMap (at' (x := x) y)
  refine ⟨?_, ?_⟩
  · show List.Forall₂ _ _ (List.map _ _)
    rw [List.forall₂_map_right_iff]
    exact List.forall₂_same.2 fun _ _ => rfl
  · intro i z zp z' zp' h1 h2 h3 h4
    rw [List.getElem?_map, h1] at h3
    rw [List.getElem?_map, h2] at h4
    cases h3; cases h4
    rfl

theorem parDivAt (y : E) : letI := parMap (at' (x := x) y); ParDiv (Fn x) ℝ (Fn x) ℝ :=
  letI := parMap (at' (x := x) y)
  ⟨fun {a w a' w'} h1 h2 _ _ => by
    obtain rfl : a y = a' := h1
    obtain rfl : w y = w' := h2
    rfl⟩

theorem parDivPointAt {n : ℕ} (y : E) : letI := parMap (at' (x := x) y); ParDiv (Fn x) ℝ (Point (Fn x) n) (Point ℝ n) :=
  letI := parMap (at' (x := x) y)
  ⟨fun {a w a' w'} h1 h2 _ _ i => by
    obtain rfl : w y = w' := h2
    have h3 : (a.val i) y = a'.val i := h1 i
    show a.val i y * (1 / w y) = a'.val i * (1 / w y)
    rw [h3]⟩

variable [NormedAddCommGroup E] [NormedSpace ℝ E] {m : ℕ} (u : Fin m → E)

/-- value and derivatives at `x` -/
noncomputable def jt : Fn x → Dual ℝ m := jet u x

/-- differentiable at `x`, with this value and these derivatives -/
def parJet : Par (Fn x) (Dual ℝ m) := ⟨fun a b => DifferentiableAt ℝ (a : E → ℝ) x ∧ jet u x a = b⟩

theorem dual_ext {a b : Dual ℝ m} (h : a.v = b.v) (h' : ∀ i, a.d i = b.d i) : a = b := by
  cases a; cases b
  dsimp only at h h'
  rw [h, funext h']

theorem jet_const (c : ℝ) : DifferentiableAt ℝ (fun _ : E => c) x ∧ jet u x (fun _ => c) = ⟨c, fun _ => 0⟩ :=
  ⟨differentiableAt_const c, dual_ext rfl fun i => by simp [jet]⟩

theorem jet_div {a b : E → ℝ} (ha : DifferentiableAt ℝ a x) (hb : DifferentiableAt ℝ b x) (h0 : b x ≠ 0) :
    DifferentiableAt ℝ (fun y => a y / b y) x ∧ jet u x (fun y => a y / b y) = jet u x a / jet u x b := by
  have hi := hb.fun_inv h0
  have e : (fun y => a y / b y) = fun y => a y * (b y)⁻¹ := funext fun y => div_eq_mul_inv _ _
  refine ⟨by rw [e]; exact ha.fun_mul hi, dual_ext rfl fun i => ?_⟩
  show fderiv ℝ _ x (u i) = (b x * fderiv ℝ a x (u i) - fderiv ℝ b x (u i) * a x) * (1 / (b x * b x))
  have h2 : fderiv ℝ (fun y => (b y)⁻¹) x = -(b x ^ 2)⁻¹ • fderiv ℝ b x :=
    ((hasDerivAt_inv h0).comp_hasFDerivAt x hb.hasFDerivAt).fderiv
  rw [e, fderiv_fun_mul ha hi, h2]
  simp
  field_simp
  ring

theorem parScalarJet : letI := parJet (x := x) u; ParScalar (Fn x) (Dual ℝ m) :=
  letI := parJet (x := x) u
  { zero := jet_const u 0
    one := jet_const u 1
    add := fun {a b a' b'} h1 h2 => by
      obtain ⟨ha, rfl⟩ := h1
      obtain ⟨hb, rfl⟩ := h2
      refine ⟨ha.add hb, dual_ext rfl fun i => ?_⟩
      exact congrArg (· (u i)) (fderiv_add ha hb)
    sub := fun {a b a' b'} h1 h2 => by
      obtain ⟨ha, rfl⟩ := h1
      obtain ⟨hb, rfl⟩ := h2
      refine ⟨ha.sub hb, dual_ext rfl fun i => ?_⟩
      exact congrArg (· (u i)) (fderiv_sub ha hb)
    mul := fun {a b a' b'} h1 h2 => by
      obtain ⟨ha, rfl⟩ := h1
      obtain ⟨hb, rfl⟩ := h2
      refine ⟨ha.mul hb, dual_ext rfl fun i => (congrArg (· (u i)) (fderiv_mul ha hb)).trans ?_⟩
      show a x * fderiv ℝ b x (u i) + b x * fderiv ℝ a x (u i) = fderiv ℝ b x (u i) * a x + b x * fderiv ℝ a x (u i)
      ring
    neg := fun {a a'} h1 => by
      obtain ⟨ha, rfl⟩ := h1
      exact ⟨ha.neg, dual_ext rfl fun i => congrArg (fun L : E →L[ℝ] ℝ => L (u i)) (fderiv_neg (f := (a : E → ℝ)) (x := x))⟩
    cast := fun k => jet_const u k
    inv := fun k => by
      obtain ⟨h1, h2⟩ := jet_const (x := x) u ((1 : ℝ) / k)
      exact ⟨h1, h2.trans (dual_ext rfl fun i => by
        show (0 : ℝ) = ((k : ℝ) * 0 - 0 * 1) * _
        ring)⟩
    ratio := fun k l => by
      obtain ⟨h1, h2⟩ := jet_const (x := x) u ((k : ℝ) / l)
      exact ⟨h1, h2.trans (dual_ext rfl fun i => by
        show (0 : ℝ) = ((l : ℝ) * 0 - 0 * k) * _
        ring)⟩ }

theorem parOrdJet : letI := parJet (x := x) u; ParOrd strict (Fn x) (Dual ℝ m) :=
  letI := parJet (x := x) u
  ⟨fun _ {a b a' b'} h1 h2 => by
    obtain ⟨-, rfl⟩ := h1
    obtain ⟨-, rfl⟩ := h2
    rfl⟩

theorem parEqJet : letI := parJet (x := x) u; ParEq (Fn x) (Dual ℝ m) :=
  letI := parJet (x := x) u
  ⟨fun {a b a' b'} h1 h2 => by
    obtain ⟨-, rfl⟩ := h1
    obtain ⟨-, rfl⟩ := h2
    rfl⟩

theorem parZeroJet : letI := parJet (x := x) u; ParZero strict (Fn x) (Dual ℝ m) :=
  letI := parJet (x := x) u
  ⟨fun _ {a a'} h1 => by
    obtain ⟨-, rfl⟩ := h1
    rfl⟩

theorem parDivJet : letI := parJet (x := x) u; ParDiv (Fn x) (Dual ℝ m) (Fn x) (Dual ℝ m) :=
  letI := parJet (x := x) u
  ⟨fun {a w a' w'} h1 h2 h3 _ => by
    obtain ⟨ha, rfl⟩ := h1
    obtain ⟨hb, rfl⟩ := h2
    have h0 : w x ≠ 0 := fun h => h3 (beq_iff_eq (α := ℝ).2 h)
    exact jet_div u ha hb h0⟩

theorem parDivPointJet {n : ℕ} : letI := parJet (x := x) u; ParDiv (Fn x) (Dual ℝ m) (Point (Fn x) n) (Point (Dual ℝ m) n) :=
  letI := parJet (x := x) u
  ⟨fun {a w a' w'} h1 h2 h3 _ i => by
    obtain ⟨hb, rfl⟩ := h2
    have h0 : w x ≠ 0 := fun h => h3 (beq_iff_eq (α := ℝ).2 h)
    have h4 := jet_div u (differentiableAt_const (1 : ℝ)) hb h0
    rw [(jet_const (x := x) u 1).2] at h4
    exact (parScalarJet (x := x) u).mul (h1 i) h4⟩

theorem parPlanesJet (zs : List (Fn x)) (h : SmoothPlanes x zs) : letI := parJet (x := x) u; Spline.ParPlanes zs (zs.map (jt u)) := by
  let _ := parJet (x := x) u
  refine ⟨?_, ?_⟩
  · show List.Forall₂ _ _ (List.map _ _)
    rw [List.forall₂_map_right_iff]
    exact List.forall₂_same.2 fun z hz => ⟨h.1 z hz, rfl⟩
  · intro i z zp z' zp' h1 h2 h3 h4
    rw [List.getElem?_map, h1] at h3
    rw [List.getElem?_map, h2] at h4
    cases h3; cases h4
    have hz : DifferentiableAt ℝ (z : E → ℝ) x := h.1 z (List.mem_of_getElem? h1)
    have hzp : DifferentiableAt ℝ (zp : E → ℝ) x := h.1 zp (List.mem_of_getElem? h2)
    have hl : zp ∈ zs.dropLast := by
      obtain ⟨hi, -⟩ := List.getElem?_eq_some_iff.1 h1
      obtain ⟨hi', rfl⟩ := List.getElem?_eq_some_iff.1 h2
      rw [← List.getElem_dropLast (by simp; omega)]
      exact List.getElem_mem _
    have h0 := h.2 zp hl
    have s := parScalarJet (x := x) u
    have a := s.sub (a := z) (b := zp) (a' := jet u x z) (b' := jet u x zp) ⟨hz, rfl⟩ ⟨hzp, rfl⟩
    have b := s.sub (a := (1 : Fn x)) (b := zp) (a' := 1) (b' := jet u x zp) s.one ⟨hzp, rfl⟩
    obtain ⟨ha, ea⟩ := a
    obtain ⟨hb, eb⟩ := b
    obtain ⟨hd, ed⟩ := jet_div u ha hb (sub_ne_zero.2 (Ne.symm h0))
    rw [ea, eb] at ed
    exact ⟨hd, ed⟩

theorem vars_jet_rel {n : ℕ} {σ : Vars (E → ℝ) n} (h : SmoothVars x σ) : letI := parJet (x := x) u;
    Vars.Rel (K := Fn x) σ (Vars.map (K := Fn x) (jt u) σ) :=
  letI := parJet (x := x) u
  ⟨fun i => spline_map_rel fun c hc => ⟨h.1 i c hc, rfl⟩, fun i => spline_map_rel fun c hc k => ⟨h.2 i c hc k, rfl⟩⟩

theorem rvars_jet_rel {n : ℕ} {σ : RVars (E → ℝ) n} (h : SmoothRVars x σ) : letI := parJet (x := x) u;
    RVars.Rel (K := Fn x) σ (RVars.map (K := Fn x) (jt u) σ) :=
  letI := parJet (x := x) u
  ⟨vars_jet_rel u h.1,
    fun i => ⟨spline_map_rel fun c hc => ⟨(h.2.1 i).1 c hc, rfl⟩, spline_map_rel fun c hc => ⟨(h.2.1 i).2 c hc, rfl⟩⟩,
    fun i => ⟨spline_map_rel fun c hc k => ⟨(h.2.2 i).1 c hc k, rfl⟩, spline_map_rel fun c hc => ⟨(h.2.2 i).2 c hc, rfl⟩⟩⟩

theorem ok_left {tol : Err → Bool} {α β : Type} [Par α β] {a : α} {y : M β} (h : RelM tol (.ok a) y) :
    (∃ b, y = .ok b ∧ a ≋ b) ∨ ∃ e, tol e = true ∧ y = .error e := by
  cases h with
  | ok h => exact .inl ⟨_, rfl, h⟩
  | right e _ ht => exact .inr ⟨e, ht, rfl⟩

theorem ok_strict {α β : Type} [Par α β] {a : α} {y : M β} (h : RelM strict (.ok a) y) : ∃ b, y = .ok b ∧ a ≋ b := by
  cases h with
  | ok h => exact ⟨_, rfl, h⟩
  | right e _ ht => cases ht

theorem spline_jet {s : Spline (Fn x)} {s' : Spline (Dual ℝ m)} (h : letI := parJet (x := x) u; s ≋ s') :
    s' = s.map (jt u) ∧ ∀ c ∈ s.cps, DifferentiableAt ℝ (c : E → ℝ) x := by
  let _ := parJet (x := x) u
  refine ⟨eq_spline_map (fun (a : Fn x) (b : Dual ℝ m) h => (h : _ ∧ _).2.symm) h, ?_⟩
  obtain ⟨-, -, -, h⟩ := h
  intro c hc
  obtain ⟨i, hi, rfl⟩ := List.getElem_of_mem hc
  have h' : List.Forall₂ _ _ _ := h
  rw [List.forall₂_iff_get] at h'
  exact (h'.2 i hi (h'.1 ▸ hi)).1

theorem pspline_jet {n : ℕ} {s : Spline (Point (Fn x) n)} {s' : Spline (Point (Dual ℝ m) n)} (h : letI := parJet (x := x) u; s ≋ s') :
    s' = s.map (Point.map (jt u)) ∧ ∀ c ∈ s.cps, ∀ k, DifferentiableAt ℝ (c.val k : E → ℝ) x := by
  let _ := parJet (x := x) u
  refine ⟨eq_spline_map (eq_point_map fun (a : Fn x) (b : Dual ℝ m) h => (h : _ ∧ _).2.symm) h, ?_⟩
  obtain ⟨-, -, -, h⟩ := h
  intro c hc k
  obtain ⟨i, hi, rfl⟩ := List.getElem_of_mem hc
  have h' : List.Forall₂ _ _ _ := h
  rw [List.forall₂_iff_get] at h'
  exact (h'.2 i hi (h'.1 ▸ hi) k).1

theorem jetS (cfg : Cfg) {n : ℕ} {σ : Vars (Fn x) n} (hσ : SmoothVars x σ) {e : SExpr (Fn x) n}
    (he : e.Constants (SmoothConstant x) (SmoothPlanes x)) {s : Spline (Fn x)} (hs : e.run cfg σ = .ok s) :
    (e.map (jt u)).run cfg (σ.map (jt u)) = .ok (s.map (jt u)) ∧ ∀ c ∈ s.cps, DifferentiableAt ℝ (c : E → ℝ) x := by
  let _ := parJet (x := x) u
  have i1 : ParScalar (Fn x) (Dual ℝ m) := parScalarJet u
  have i2 : ParOrd strict (Fn x) (Dual ℝ m) := parOrdJet u
  have := parSRun (tol := strict) cfg (vars_jet_rel u hσ) e (e.map (jt u))
    (srel_map (K := Fn x) (K' := Dual ℝ m) (f := jt u) (P := SmoothConstant x) (Q := SmoothPlanes x) (fun a ha => And.intro ha rfl) (fun zs h => parPlanesJet u zs h) e he)
  rw [hs] at this
  obtain ⟨s', e1, h1⟩ := ok_strict this
  obtain ⟨rfl, h2⟩ := spline_jet u h1
  exact ⟨e1, h2⟩

theorem jetP (cfg : Cfg) {n : ℕ} {σ : Vars (Fn x) n} (hσ : SmoothVars x σ) {e : PExpr (Fn x) n}
    (he : e.Constants (SmoothConstant x) (SmoothPlanes x)) {s : Spline (Point (Fn x) n)} (hs : e.run cfg σ = .ok s) :
    (e.map (jt u)).run cfg (σ.map (jt u)) = .ok (s.map (Point.map (jt u))) ∧ ∀ c ∈ s.cps, ∀ k, DifferentiableAt ℝ (c.val k : E → ℝ) x := by
  let _ := parJet (x := x) u
  have i1 : ParScalar (Fn x) (Dual ℝ m) := parScalarJet u
  have i2 : ParOrd strict (Fn x) (Dual ℝ m) := parOrdJet u
  have := parPRun (tol := strict) cfg (vars_jet_rel u hσ) e (e.map (jt u))
    (prel_map (K := Fn x) (K' := Dual ℝ m) (f := jt u) (P := SmoothConstant x) (Q := SmoothPlanes x) (fun a ha => And.intro ha rfl) (fun zs h => parPlanesJet u zs h) e he)
  rw [hs] at this
  obtain ⟨s', e1, h1⟩ := ok_strict this
  obtain ⟨rfl, h2⟩ := pspline_jet u h1
  exact ⟨e1, h2⟩

theorem jetRS (cfg : Cfg) {n : ℕ} {σ : RVars (Fn x) n} (hσ : SmoothRVars x σ) {e : RSExpr (Fn x) n}
    (he : e.Constants (SmoothConstant x) (SmoothPlanes x)) {s : RSpline (Fn x) (Fn x)} (hs : e.run cfg σ = .ok s) :
    (e.map (jt u)).run cfg (σ.map (jt u)) = .ok (s.map (jt u) (jt u)) ∧ (∀ c ∈ s.num.cps, DifferentiableAt ℝ (c : E → ℝ) x) ∧
      ∀ c ∈ s.wt.cps, DifferentiableAt ℝ (c : E → ℝ) x := by
  let _ := parJet (x := x) u
  have i1 : ParScalar (Fn x) (Dual ℝ m) := parScalarJet u
  have i2 : ParOrd strict (Fn x) (Dual ℝ m) := parOrdJet u
  have i3 : ParEq (Fn x) (Dual ℝ m) := parEqJet u
  have i4 : ParZero strict (Fn x) (Dual ℝ m) := parZeroJet u
  have i5 : ParDiv (Fn x) (Dual ℝ m) (Fn x) (Dual ℝ m) := parDivJet u
  have i6 : ParDiv (Fn x) (Dual ℝ m) (Point (Fn x) n) (Point (Dual ℝ m) n) := parDivPointJet u
  have := parRSRun (tol := strict) cfg (rvars_jet_rel u hσ) e (e.map (jt u))
    (rsrel_map (K := Fn x) (K' := Dual ℝ m) (f := jt u) (P := SmoothConstant x) (Q := SmoothPlanes x) (fun a ha => And.intro ha rfl) (fun zs h => parPlanesJet u zs h) e he)
  rw [hs] at this
  obtain ⟨⟨s1, s2⟩, e1, h1, h2⟩ := ok_strict this
  obtain ⟨rfl, h3⟩ := spline_jet u h1
  obtain ⟨rfl, h4⟩ := spline_jet u h2
  exact ⟨e1, h3, h4⟩

theorem jetRP (cfg : Cfg) {n : ℕ} {σ : RVars (Fn x) n} (hσ : SmoothRVars x σ) {e : RPExpr (Fn x) n}
    (he : e.Constants (SmoothConstant x) (SmoothPlanes x)) {s : RSpline (Fn x) (Point (Fn x) n)} (hs : e.run cfg σ = .ok s) :
    (e.map (jt u)).run cfg (σ.map (jt u)) = .ok (s.map (jt u) (Point.map (jt u))) ∧
      (∀ c ∈ s.num.cps, ∀ k, DifferentiableAt ℝ (c.val k : E → ℝ) x) ∧ ∀ c ∈ s.wt.cps, DifferentiableAt ℝ (c : E → ℝ) x := by
  let _ := parJet (x := x) u
  have i1 : ParScalar (Fn x) (Dual ℝ m) := parScalarJet u
  have i2 : ParOrd strict (Fn x) (Dual ℝ m) := parOrdJet u
  have i3 : ParEq (Fn x) (Dual ℝ m) := parEqJet u
  have i4 : ParZero strict (Fn x) (Dual ℝ m) := parZeroJet u
  have i5 : ParDiv (Fn x) (Dual ℝ m) (Fn x) (Dual ℝ m) := parDivJet u
  have i6 : ParDiv (Fn x) (Dual ℝ m) (Point (Fn x) n) (Point (Dual ℝ m) n) := parDivPointJet u
  have := parRPRun (tol := strict) cfg (rvars_jet_rel u hσ) e (e.map (jt u))
    (rprel_map (K := Fn x) (K' := Dual ℝ m) (f := jt u) (P := SmoothConstant x) (Q := SmoothPlanes x) (fun a ha => And.intro ha rfl) (fun zs h => parPlanesJet u zs h) e he)
  rw [hs] at this
  obtain ⟨⟨s1, s2⟩, e1, h1, h2⟩ := ok_strict this
  obtain ⟨rfl, h3⟩ := pspline_jet u h1
  obtain ⟨rfl, h4⟩ := spline_jet u h2
  exact ⟨e1, h3, h4⟩

omit [NormedAddCommGroup E] [NormedSpace ℝ E] in
theorem parOrdAt (y : E) : letI := parMap (at' (x := x) y); ParOrd mayThrow (Fn x) ℝ :=
  letI := parMap (at' (x := x) y)
  ⟨fun h => by cases h⟩

omit [NormedAddCommGroup E] [NormedSpace ℝ E] in
theorem atS (cfg : Cfg) {n : ℕ} {σ : Vars (Fn x) n} {e : SExpr (Fn x) n} {s : Spline (Fn x)} (hs : e.run cfg σ = .ok s) (y : E) :
    (e.map (at' y)).run cfg (σ.map (at' y)) = .ok (s.map (at' y)) ∨ (e.map (at' y)).run cfg (σ.map (at' y)) = .error .throws := by
  let _ := parMap (at' (x := x) y)
  have i1 : ParScalar (Fn x) ℝ := parScalarAt y
  have i2 : ParOrd mayThrow (Fn x) ℝ := parOrdAt y
  have := parSRun (tol := mayThrow) cfg (vars_map_rel (at' y) σ) e (e.map (at' y))
    (srel_map (P := fun _ => True) (Q := fun _ => True) (fun _ _ => rfl) (fun zs _ => parPlanesAt y zs) e
      (sconst (fun _ => trivial) (fun _ => trivial) e))
  rw [hs] at this
  rcases ok_left this with ⟨s', e1, h1⟩ | ⟨err, h1, e1⟩
  · exact .inl (by rw [e1, eq_spline_map (fun _ _ => Eq.symm) h1])
  · obtain rfl : err = .throws := by simpa [mayThrow] using h1
    exact .inr e1

omit [NormedAddCommGroup E] [NormedSpace ℝ E] in
theorem atP (cfg : Cfg) {n : ℕ} {σ : Vars (Fn x) n} {e : PExpr (Fn x) n} {s : Spline (Point (Fn x) n)} (hs : e.run cfg σ = .ok s) (y : E) :
    (e.map (at' y)).run cfg (σ.map (at' y)) = .ok (s.map (Point.map (at' y))) ∨
      (e.map (at' y)).run cfg (σ.map (at' y)) = .error .throws := by
  let _ := parMap (at' (x := x) y)
  have i1 : ParScalar (Fn x) ℝ := parScalarAt y
  have i2 : ParOrd mayThrow (Fn x) ℝ := parOrdAt y
  have := parPRun (tol := mayThrow) cfg (vars_map_rel (at' y) σ) e (e.map (at' y))
    (prel_map (P := fun _ => True) (Q := fun _ => True) (fun _ _ => rfl) (fun zs _ => parPlanesAt y zs) e
      (pconst (fun _ => trivial) (fun _ => trivial) e))
  rw [hs] at this
  rcases ok_left this with ⟨s', e1, h1⟩ | ⟨err, h1, e1⟩
  · exact .inl (by rw [e1, eq_spline_map (eq_point_map fun _ _ => Eq.symm) h1])
  · obtain rfl : err = .throws := by simpa [mayThrow] using h1
    exact .inr e1

/-- exceptions and divisions by zero are tolerated -/
def mayThrowOrDivide : Err → Bool := fun e => e == .throws || e == .divZero

omit [NormedAddCommGroup E] [NormedSpace ℝ E] in
theorem twoRuns (y : E) : letI := parMap (at' (x := x) y); TwoRuns (at' (x := x) x) (at' y) :=
  letI := parMap (at' (x := x) y)
  ⟨arith, fun _ => rfl, parPlanesAt y⟩

omit [NormedAddCommGroup E] [NormedSpace ℝ E] in
theorem atRS (cfg : Cfg) {n : ℕ} {σ : RVars (Fn x) n} {e : RSExpr (Fn x) n} {s : RSpline (Fn x) (Fn x)} (hs : e.run cfg σ = .ok s) (y : E)
    (h : e.SumsAgree cfg σ (at' x) (at' y)) :
    (e.map (at' y)).run cfg (σ.map (at' y)) = .ok (s.map (at' y) (at' y)) ∨ (e.map (at' y)).run cfg (σ.map (at' y)) = .error .throws ∨
      (e.map (at' y)).run cfg (σ.map (at' y)) = .error .divZero := by
  let _ := parMap (at' (x := x) y)
  have i1 : ParScalar (Fn x) ℝ := parScalarAt y
  have i2 : ParOrd mayThrowOrDivide (Fn x) ℝ := ⟨fun h => by cases h⟩
  have i4 : ParZero mayThrowOrDivide (Fn x) ℝ := ⟨fun h => by cases h⟩
  have i5 : ParDiv (Fn x) ℝ (Fn x) ℝ := parDivAt y
  have i6 : ParDiv (Fn x) ℝ (Point (Fn x) n) (Point ℝ n) := parDivPointAt y
  have := atRSRel (tol := mayThrowOrDivide) cfg (twoRuns y) σ e h
  rw [hs] at this
  rcases ok_left this with ⟨s', e1, h1⟩ | ⟨err, h1, e1⟩
  · exact .inl (by rw [e1, eq_rspline_map (fun _ _ => Eq.symm) (fun _ _ => Eq.symm) h1])
  · cases err <;> first | cases h1; done | exact .inr (.inl e1) | exact .inr (.inr e1)

omit [NormedAddCommGroup E] [NormedSpace ℝ E] in
theorem atRP (cfg : Cfg) {n : ℕ} {σ : RVars (Fn x) n} {e : RPExpr (Fn x) n} {s : RSpline (Fn x) (Point (Fn x) n)}
    (hs : e.run cfg σ = .ok s) (y : E) (h : e.SumsAgree cfg σ (at' x) (at' y)) :
    (e.map (at' y)).run cfg (σ.map (at' y)) = .ok (s.map (at' y) (Point.map (at' y))) ∨
      (e.map (at' y)).run cfg (σ.map (at' y)) = .error .throws ∨ (e.map (at' y)).run cfg (σ.map (at' y)) = .error .divZero := by
  let _ := parMap (at' (x := x) y)
  have i1 : ParScalar (Fn x) ℝ := parScalarAt y
  have i2 : ParOrd mayThrowOrDivide (Fn x) ℝ := ⟨fun h => by cases h⟩
  have i4 : ParZero mayThrowOrDivide (Fn x) ℝ := ⟨fun h => by cases h⟩
  have i5 : ParDiv (Fn x) ℝ (Fn x) ℝ := parDivAt y
  have i6 : ParDiv (Fn x) ℝ (Point (Fn x) n) (Point ℝ n) := parDivPointAt y
  have := atRPRel (tol := mayThrowOrDivide) cfg (twoRuns y) σ e h
  rw [hs] at this
  rcases ok_left this with ⟨s', e1, h1⟩ | ⟨err, h1, e1⟩
  · exact .inl (by rw [e1, eq_rspline_map (fun _ _ => Eq.symm) (eq_point_map fun _ _ => Eq.symm) h1])
  · cases err <;> first | cases h1; done | exact .inr (.inl e1) | exact .inr (.inr e1)

/-- from two lockstep runs to a followed result -/
theorem tracks {o : M (Fn x)} {p : E → M ℝ} {a : M (Dual ℝ m)} (hj : letI := parJet (x := x) u; RelM strict o a)
    (hy : ∀ y, letI := parMap (at' (x := x) y); RelM strict o (p y)) {v : ℝ} (hv : p x = .ok v) : Follows u x p a := by
  cases o with
  | error e =>
    have := hy x
    rw [hv] at this
    cases this <;> contradiction
  | ok c =>
    refine ⟨c, ?_⟩
    obtain ⟨b, h1, h2⟩ := @ok_strict _ _ (parJet (x := x) u) _ _ hj
    refine ⟨h2.1, fun y => ?_, by rw [h1]; exact congrArg _ h2.2.symm⟩
    obtain ⟨b, h1, h2⟩ := @ok_strict _ _ (parMap (at' (x := x) y)) _ _ (hy y)
    rw [h1]; exact congrArg _ (h2 : _ = _).symm

theorem tracksPoint {n : ℕ} {o : M (Point (Fn x) n)} {p : E → M (Point ℝ n)} {a : M (Point (Dual ℝ m) n)}
    (hj : letI := parJet (x := x) u; RelM strict o a)
    (hy : ∀ y, letI := parMap (at' (x := x) y); RelM strict o (p y)) {v : Point ℝ n} (hv : p x = .ok v) : FollowsPoint u x p a := by
  cases o with
  | error e =>
    have := hy x
    rw [hv] at this
    cases this <;> contradiction
  | ok c =>
    refine ⟨c, ?_⟩
    obtain ⟨b, h1, h2⟩ := @ok_strict _ _ (@parPoint _ _ n (parJet (x := x) u)) _ _ hj
    refine ⟨fun k => (h2 k).1, fun y => ?_, ?_⟩
    · obtain ⟨b, h1, h2⟩ := @ok_strict _ _ (@parPoint _ _ n (parMap (at' (x := x) y))) _ _ (hy y)
      rw [h1]
      exact congrArg _ (Point.ext (funext fun k => (h2 k : _ = _).symm))
    · rw [h1]
      exact congrArg _ (Point.ext (funext fun k => (h2 k).2.symm))

theorem tracksList {o : M (List (Fn x))} {p : E → M (List ℝ)} {a : M (List (Dual ℝ m))}
    (hj : letI := parJet (x := x) u; RelM strict o a)
    (hy : ∀ y, letI := parMap (at' (x := x) y); RelM strict o (p y)) {v : List ℝ} (hv : p x = .ok v) : FollowsList u x p a := by
  cases o with
  | error e =>
    have := hy x
    rw [hv] at this
    cases this <;> contradiction
  | ok c =>
    refine ⟨c, ?_⟩
    obtain ⟨b, h1, h2⟩ := @ok_strict _ _ (@parList _ _ (parJet (x := x) u)) _ _ hj
    refine ⟨?_, fun y => ?_, ?_⟩
    · intro f hf
      obtain ⟨i, hi, rfl⟩ := List.getElem_of_mem hf
      have h' : List.Forall₂ _ _ _ := h2
      rw [List.forall₂_iff_get] at h'
      exact (h'.2 i hi (h'.1 ▸ hi)).1
    · obtain ⟨b, h1, h2⟩ := @ok_strict _ _ (@parList _ _ (parMap (at' (x := x) y))) _ _ (hy y)
      rw [h1]
      exact congrArg _ (@eq_list_map _ _ (parMap (at' (x := x) y)) (at' y) (fun a b (h : _ = _) => h.symm) _ _ h2)
    · rw [h1]
      exact congrArg _ (@eq_list_map _ _ (parJet (x := x) u) (jt u) (fun a b (h : _ ∧ _) => h.2.symm) _ _ h2)

/-- division by zero is tolerated -/
def mayDivide : Err → Bool := fun e => e == .divZero

/-- from lockstep runs to a followed result, with divisions -/
theorem tracksQ {o : M (Fn x)} {p : E → M ℝ} {a : M (Dual ℝ m)} (hj : letI := parJet (x := x) u; RelM strict o a)
    (hx : letI := parMap (at' (x := x) x); RelM strict o (p x))
    (hy : ∀ y, letI := parMap (at' (x := x) y); RelM mayDivide o (p y)) {v : ℝ} (hv : p x = .ok v) : FollowsQuotient u x p a := by
  cases o with
  | error e =>
    rw [hv] at hx
    cases hx <;> contradiction
  | ok c =>
    refine ⟨c, ?_⟩
    obtain ⟨b, h1, h2⟩ := @ok_strict _ _ (parJet (x := x) u) _ _ hj
    refine ⟨h2.1, ?_, fun y => ?_, by rw [h1]; exact congrArg _ h2.2.symm⟩
    · obtain ⟨b, h1, h2⟩ := @ok_strict _ _ (parMap (at' (x := x) x)) _ _ hx
      rw [h1]; exact congrArg _ (h2 : _ = _).symm
    · rcases @ok_left _ _ _ (parMap (at' (x := x) y)) _ _ (hy y) with ⟨b, h1, h2⟩ | ⟨e, he, h1⟩
      · left; rw [h1]; exact congrArg _ (h2 : _ = _).symm
      · right; rw [h1]; cases e <;> first | rfl | cases he

theorem tracksQPoint {n : ℕ} {o : M (Point (Fn x) n)} {p : E → M (Point ℝ n)} {a : M (Point (Dual ℝ m) n)}
    (hj : letI := parJet (x := x) u; RelM strict o a)
    (hx : letI := parMap (at' (x := x) x); RelM strict o (p x))
    (hy : ∀ y, letI := parMap (at' (x := x) y); RelM mayDivide o (p y)) {v : Point ℝ n} (hv : p x = .ok v) : FollowsQuotientPoint u x p a := by
  cases o with
  | error e =>
    rw [hv] at hx
    cases hx <;> contradiction
  | ok c =>
    refine ⟨c, ?_⟩
    obtain ⟨b, h1, h2⟩ := @ok_strict _ _ (@parPoint _ _ n (parJet (x := x) u)) _ _ hj
    refine ⟨fun k => (h2 k).1, ?_, fun y => ?_, ?_⟩
    · obtain ⟨b, h1, h2⟩ := @ok_strict _ _ (@parPoint _ _ n (parMap (at' (x := x) x))) _ _ hx
      rw [h1]
      exact congrArg _ (Point.ext (funext fun k => (h2 k : _ = _).symm))
    · rcases @ok_left _ _ _ (@parPoint _ _ n (parMap (at' (x := x) y))) _ _ (hy y) with ⟨b, h1, h2⟩ | ⟨e, he, h1⟩
      · left; rw [h1]
        exact congrArg _ (Point.ext (funext fun k => (h2 k : _ = _).symm))
      · right; rw [h1]; cases e <;> first | rfl | cases he
    · rw [h1]
      exact congrArg _ (Point.ext (funext fun k => (h2 k).2.symm))

theorem tracksQList {o : M (List (Fn x))} {p : E → M (List ℝ)} {a : M (List (Dual ℝ m))}
    (hj : letI := parJet (x := x) u; RelM strict o a)
    (hx : letI := parMap (at' (x := x) x); RelM strict o (p x))
    (hy : ∀ y, letI := parMap (at' (x := x) y); RelM mayDivide o (p y)) {v : List ℝ} (hv : p x = .ok v) : FollowsQuotientList u x p a := by
  cases o with
  | error e =>
    rw [hv] at hx
    cases hx <;> contradiction
  | ok c =>
    refine ⟨c, ?_⟩
    obtain ⟨b, h1, h2⟩ := @ok_strict _ _ (@parList _ _ (parJet (x := x) u)) _ _ hj
    refine ⟨?_, ?_, fun y => ?_, ?_⟩
    · intro f hf
      obtain ⟨i, hi, rfl⟩ := List.getElem_of_mem hf
      have h' : List.Forall₂ _ _ _ := h2
      rw [List.forall₂_iff_get] at h'
      exact (h'.2 i hi (h'.1 ▸ hi)).1
    · obtain ⟨b, h1, h2⟩ := @ok_strict _ _ (@parList _ _ (parMap (at' (x := x) x))) _ _ hx
      rw [h1]
      exact congrArg _ (@eq_list_map _ _ (parMap (at' (x := x) x)) (at' x) (fun a b (h : _ = _) => h.symm) _ _ h2)
    · rcases @ok_left _ _ _ (@parList _ _ (parMap (at' (x := x) y))) _ _ (hy y) with ⟨b, h1, h2⟩ | ⟨e, he, h1⟩
      · left; rw [h1]
        exact congrArg _ (@eq_list_map _ _ (parMap (at' (x := x) y)) (at' y) (fun a b (h : _ = _) => h.symm) _ _ h2)
      · right; rw [h1]; cases e <;> first | rfl | cases he
    · rw [h1]
      exact congrArg _ (@eq_list_map _ _ (parJet (x := x) u) (jt u) (fun a b (h : _ ∧ _) => h.2.symm) _ _ h2)

end Fn
end Bezman
