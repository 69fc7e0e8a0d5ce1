import Verif.Proofs.AnyRoundTri
import Verif.Proofs.FloatApprox

set_option linter.unusedSectionVars false

/-! # Rounding errors of single operations -/

namespace Bezman
open Spec
variable {A : Roundoff} {n : ℕ}

local instance parTrnX : Par (Trn A) (Nd A) := parMap Trn.x
local instance parScalarTrnX : ParScalar (Trn A) (Nd A) := Trn.scalarX
local instance parTrnY : Par (Trn A) ℝ := parMap Trn.y
local instance parScalarTrnY : ParScalar (Trn A) ℝ := Trn.scalarY

namespace Trn
open Tri (Both Both.of)

theorem x_iff (a : Trn A) (b : Nd A) : a ≋ b ↔ b = a.x := eq_comm
theorem x_iffP (a : Point (Trn A) n) (b : Point (Nd A) n) : a ≋ b ↔ b = a.map Trn.x :=
  ⟨fun h => Point.ext (funext fun i => ((x_iff _ _).1 (h i))), fun h i => h ▸ rfl⟩
theorem y_iff (a : Trn A) (b : ℝ) : a ≋ b ↔ b = a.y := eq_comm
theorem y_iffP (a : Point (Trn A) n) (b : Point ℝ n) : a ≋ b ↔ b = a.map Trn.y :=
  ⟨fun h => Point.ext (funext fun i => ((y_iff _ _).1 (h i))), fun h i => h ▸ rfl⟩

section
variable {V V₁ V₂ : Type} [Par V V₁] [Par V V₂] [Zero V] [Add V] [Sub V] [Neg V] [SMul (Trn A) V]
  [Zero V₁] [Add V₁] [Sub V₁] [Neg V₁] [SMul (Nd A) V₁] [Zero V₂] [Add V₂] [Sub V₂] [Neg V₂] [SMul ℝ V₂]
  [ParPoint (Trn A) (Nd A) V V₁] [ParPoint (Trn A) ℝ V V₂] {x : V → V₁} {y : V → V₂}
  (hx : ∀ (a : V) (b : V₁), a ≋ b ↔ b = x a) (hy : ∀ (a : V) (b : V₂), a ≋ b ↔ b = y a)
include hx hy

theorem both_elevate {P Q : V → Prop} (hm : ∀ a, P a → Q a)
    (hstep : ∀ p i : ℕ, 1 ≤ i → i ≤ p → ∀ a b, P a → P b →
      Q ((1 - (i : Trn A) * (1 / ((p + 1 : ℕ) : Trn A))) • a + ((i : Trn A) * (1 / ((p + 1 : ℕ) : Trn A))) • b))
    {s : Spline V} {ds : List ℕ} (hs : HasShape ds s) {d : ℕ} (hd : d < ds.length) (hsz : size (ds.modify d (· + 1)) < 2 ^ 31)
    (hP : ∀ z ∈ s.cps, P z) :
    Both x y (ds.modify d (· + 1)) Q (Spline.orderElevate (Nd A) (s.map x) d) (Spline.orderElevate ℝ (s.map y) d) := by
  refine Both.of (Spline.orderElevate_returns (K := Trn A) hs hd hsz) (Spline.orderElevate_map (K := Trn A) hx s d)
    (Spline.orderElevate_map (K := Trn A) hy s d) fun r hr => ?_
  obtain ⟨h1, rfl⟩ := hs
  have e := modify_eq_set' hd (· + 1)
  rw [e] at hsz
  exact (Spline.orderElevate_graded hm hstep h1 (List.getElem?_eq_getElem hd) hsz hr hP).2.2

variable {cfg : Cfg} {P Q : ℕ → V → Prop} {R : V → Prop} (hP : Spline.Elevates (Trn A) P) (hQ : Spline.Elevates (Trn A) Q)
  {s t : Spline V} {da db : List ℕ} (hs : HasShape da s) (ht : HasShape db t) (hf : Fits cfg da db)
  (ha : ∀ z ∈ s.cps, P 0 z) (hb : ∀ z ∈ t.cps, Q 0 z)
include hP hQ hs ht hf ha hb

theorem both_add (hR : ∀ a b, P ((maxDegrees da db).sum - da.sum) a → Q ((maxDegrees da db).sum - db.sum) b → R (a + b) ∧ R (b + a)) :
    Both x y (maxDegrees da db) R (Spline.addOp (Nd A) cfg (s.map x) (t.map x)) (Spline.addOp ℝ cfg (s.map y) (t.map y)) := by
  refine Both.of (Spline.addOp_returns (K := Trn A) cfg hs ht hf) (Spline.addOp_map (K := Trn A) hx cfg s t)
    (Spline.addOp_map (K := Trn A) hy cfg s t) fun r hr => ?_
  obtain ⟨h1, rfl⟩ := hs
  obtain ⟨h2, rfl⟩ := ht
  exact Spline.addAux_graded _ hP hQ h1 h2 hf.dims hf.small ha hb (by intro a b; rw [Nat.zero_add, Nat.zero_add]; exact hR a b) hr

theorem both_addAssign (hR : ∀ a b, P ((maxDegrees da db).sum - da.sum) a → Q ((maxDegrees da db).sum - db.sum) b → R (a + b)) :
    Both x y (maxDegrees da db) R (Spline.addAssign (Nd A) cfg (s.map x) (t.map x)) (Spline.addAssign ℝ cfg (s.map y) (t.map y)) := by
  refine Both.of (Spline.addAssign_returns (K := Trn A) cfg hs ht hf) (Spline.addAssign_map (K := Trn A) hx cfg s t)
    (Spline.addAssign_map (K := Trn A) hy cfg s t) fun r hr => ?_
  obtain ⟨h1, rfl⟩ := hs
  obtain ⟨h2, rfl⟩ := ht
  exact Spline.addAssign_graded hP hQ h1 h2 hf.dims hf.small ha hb (by intro a b; rw [Nat.zero_add, Nat.zero_add]; exact hR a b) hr

theorem both_subAssign (hR : ∀ a b, P ((maxDegrees da db).sum - da.sum) a → Q ((maxDegrees da db).sum - db.sum) b → R (a - b)) :
    Both x y (maxDegrees da db) R (Spline.subAssign (Nd A) cfg (s.map x) (t.map x)) (Spline.subAssign ℝ cfg (s.map y) (t.map y)) := by
  refine Both.of (Spline.subAssign_returns (K := Trn A) cfg hs ht hf) (Spline.subAssign_map (K := Trn A) hx cfg s t)
    (Spline.subAssign_map (K := Trn A) hy cfg s t) fun r hr => ?_
  obtain ⟨h1, rfl⟩ := hs
  obtain ⟨h2, rfl⟩ := ht
  exact Spline.subAssign_graded hP hQ h1 h2 hf.dims hf.small ha hb (by intro a b; rw [Nat.zero_add, Nat.zero_add]; exact hR a b) hr

theorem both_sub (hle : ∀ d p q : ℕ, da[d]? = some p → db[d]? = some q → q ≤ p)
    (hR : ∀ a b, P ((maxDegrees da db).sum - da.sum) a → Q ((maxDegrees da db).sum - db.sum) b → R (a - b)) :
    Both x y (maxDegrees da db) R (Spline.subOp (Nd A) cfg (s.map x) (t.map x)) (Spline.subOp ℝ cfg (s.map y) (t.map y)) := by
  refine Both.of (Spline.subOp_returns (K := Trn A) cfg hs ht hf hle) (Spline.subOp_map (K := Trn A) hx cfg s t)
    (Spline.subOp_map (K := Trn A) hy cfg s t) fun r hr => ?_
  obtain ⟨h1, rfl⟩ := hs
  obtain ⟨h2, rfl⟩ := ht
  exact Spline.subOp_graded hP hQ h1 h2 hf.dims hf.small ha hb (by intro a b; rw [Nat.zero_add, Nat.zero_add]; exact hR a b) hr
end

/-! ## numbers -/

/-- the error of `k` operations, coordinate by coordinate -/
def NearP (M : Fin n → ℝ) (k : ℕ) (z : Point (Trn A) n) : Prop := ∀ c, NearM (M c) k (z.val c)

theorem NearP.mono {M : Fin n → ℝ} {j k : ℕ} {z : Point (Trn A) n} (h : j ≤ k) (hz : NearP M j z) : NearP M k z := fun c => (hz c).mono h

section
variable (hη : A.η = 0) (hu : A.u ≤ 1 / 2)
include hη hu

theorem elevates (M : ℝ) (k : ℕ) : Spline.Elevates (Trn A) (fun j (z : Trn A) => NearM M (k + 12 * j) z) :=
  ⟨fun j _ h => h.mono (by omega), fun j p i h1 h2 a b ha hb => by
    have := NearM.lerp hη hu h2 ha hb (.inl rfl) (.inl rfl)
    exact this.mono (by omega)⟩

theorem elevatesP (M : Fin n → ℝ) (k : ℕ) : Spline.Elevates (Trn A) (fun j (z : Point (Trn A) n) => NearP M (k + 12 * j) z) :=
  ⟨fun j _ h => h.mono (by omega), fun j p i h1 h2 a b ha hb c => by
    have := NearM.lerp hη hu h2 (ha c) (hb c) (.inr rfl) (.inr rfl)
    exact this.mono (by omega)⟩
end
end Trn
end Bezman
