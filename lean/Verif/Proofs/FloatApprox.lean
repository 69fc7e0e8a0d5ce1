import Verif.Proofs.FloatTri

set_option linter.unusedSectionVars false

/-! # Rounding errors of single operations -/

namespace Bezman
open Spec
variable {A : FloatArith} {n : ℕ}

local instance parTriX : Par (Tri A) (Fl A) := parMap Tri.x
local instance parScalarTriX : ParScalar (Tri A) (Fl A) := Tri.scalarX
local instance parTriY : Par (Tri A) ℝ := parMap Tri.y
local instance parScalarTriY : ParScalar (Tri A) ℝ := Tri.scalarY

namespace Tri

theorem x_iff (a : Tri A) (b : Fl A) : a ≋ b ↔ b = a.x := eq_comm
theorem x_iffP (a : Point (Tri A) n) (b : Point (Fl A) n) : a ≋ b ↔ b = a.map Tri.x :=
  ⟨fun h => Point.ext (funext fun i => ((x_iff _ _).1 (h i))), fun h i => h ▸ rfl⟩
theorem y_iff (a : Tri A) (b : ℝ) : a ≋ b ↔ b = a.y := eq_comm
theorem y_iffP (a : Point (Tri A) n) (b : Point ℝ n) : a ≋ b ↔ b = a.map Tri.y :=
  ⟨fun h => Point.ext (funext fun i => ((y_iff _ _).1 (h i))), fun h i => h ▸ rfl⟩

/-- Both runs are projections of one run with triples. -/
def Both {V V₁ V₂ : Type} (x : V → V₁) (y : V → V₂) (ds : List ℕ) (R : V → Prop) (fl : M (Spline V₁)) (ex : M (Spline V₂)) : Prop :=
  ∃ r : Spline V, fl = .ok (r.map x) ∧ ex = .ok (r.map y) ∧ HasShape ds r ∧ ∀ z ∈ r.cps, R z

theorem Both.of {V V₁ V₂ : Type} {x : V → V₁} {y : V → V₂} {ds : List ℕ} {R : V → Prop} {tri : M (Spline V)} {fl : M (Spline V₁)}
    {ex : M (Spline V₂)} (ht : Returns ds tri) (hx : fl = tri.map (Spline.map x)) (hy : ex = tri.map (Spline.map y))
    (hR : ∀ r, tri = .ok r → ∀ z ∈ r.cps, R z) : Both x y ds R fl ex := by
  obtain ⟨r, e, h⟩ := ht
  exact ⟨r, by rw [hx, e]; rfl, by rw [hy, e]; rfl, h, hR r e⟩

section
variable {V V₁ V₂ : Type} [Par V V₁] [Par V V₂] [Zero V] [Add V] [Sub V] [Neg V] [SMul (Tri A) V]
  [Zero V₁] [Add V₁] [Sub V₁] [Neg V₁] [SMul (Fl A) V₁] [Zero V₂] [Add V₂] [Sub V₂] [Neg V₂] [SMul ℝ V₂]
  [ParPoint (Tri A) (Fl A) V V₁] [ParPoint (Tri A) ℝ V V₂] {x : V → V₁} {y : V → V₂}
  (hx : ∀ (a : V) (b : V₁), a ≋ b ↔ b = x a) (hy : ∀ (a : V) (b : V₂), a ≋ b ↔ b = y a)
include hx hy

theorem both_elevate {P Q : V → Prop} (hm : ∀ a, P a → Q a)
    (hstep : ∀ p i : ℕ, 1 ≤ i → i ≤ p → ∀ a b, P a → P b →
      Q ((1 - (i : Tri A) * (1 / ((p + 1 : ℕ) : Tri A))) • a + ((i : Tri A) * (1 / ((p + 1 : ℕ) : Tri A))) • b))
    {s : Spline V} {ds : List ℕ} (hs : HasShape ds s) {d : ℕ} (hd : d < ds.length) (hsz : size (ds.modify d (· + 1)) < 2 ^ 31)
    (hP : ∀ z ∈ s.cps, P z) :
    Both x y (ds.modify d (· + 1)) Q (Spline.orderElevate (Fl A) (s.map x) d) (Spline.orderElevate ℝ (s.map y) d) := by
  refine Both.of (Spline.orderElevate_returns (K := Tri A) hs hd hsz) (Spline.orderElevate_map (K := Tri A) hx s d)
    (Spline.orderElevate_map (K := Tri A) hy s d) fun r hr => ?_
  obtain ⟨h1, rfl⟩ := hs
  have e := modify_eq_set' hd (· + 1)
  rw [e] at hsz
  exact (Spline.orderElevate_graded hm hstep h1 (List.getElem?_eq_getElem hd) hsz hr hP).2.2

variable {cfg : Cfg} {P Q : ℕ → V → Prop} {R : V → Prop} (hP : Spline.Elevates (Tri A) P) (hQ : Spline.Elevates (Tri A) Q)
  {s t : Spline V} {da db : List ℕ} (hs : HasShape da s) (ht : HasShape db t) (hf : Fits cfg da db)
  (ha : ∀ z ∈ s.cps, P 0 z) (hb : ∀ z ∈ t.cps, Q 0 z)
include hP hQ hs ht hf ha hb

theorem both_add (hR : ∀ a b, P ((maxDegrees da db).sum - da.sum) a → Q ((maxDegrees da db).sum - db.sum) b → R (a + b) ∧ R (b + a)) :
    Both x y (maxDegrees da db) R (Spline.addOp (Fl A) cfg (s.map x) (t.map x)) (Spline.addOp ℝ cfg (s.map y) (t.map y)) := by
  refine Both.of (Spline.addOp_returns (K := Tri A) cfg hs ht hf) (Spline.addOp_map (K := Tri A) hx cfg s t)
    (Spline.addOp_map (K := Tri A) hy cfg s t) fun r hr => ?_
  obtain ⟨h1, rfl⟩ := hs
  obtain ⟨h2, rfl⟩ := ht
  exact Spline.addAux_graded _ hP hQ h1 h2 hf.dims hf.small ha hb (by intro a b; rw [Nat.zero_add, Nat.zero_add]; exact hR a b) hr

theorem both_addAssign (hR : ∀ a b, P ((maxDegrees da db).sum - da.sum) a → Q ((maxDegrees da db).sum - db.sum) b → R (a + b)) :
    Both x y (maxDegrees da db) R (Spline.addAssign (Fl A) cfg (s.map x) (t.map x)) (Spline.addAssign ℝ cfg (s.map y) (t.map y)) := by
  refine Both.of (Spline.addAssign_returns (K := Tri A) cfg hs ht hf) (Spline.addAssign_map (K := Tri A) hx cfg s t)
    (Spline.addAssign_map (K := Tri A) hy cfg s t) fun r hr => ?_
  obtain ⟨h1, rfl⟩ := hs
  obtain ⟨h2, rfl⟩ := ht
  exact Spline.addAssign_graded hP hQ h1 h2 hf.dims hf.small ha hb (by intro a b; rw [Nat.zero_add, Nat.zero_add]; exact hR a b) hr

theorem both_subAssign (hR : ∀ a b, P ((maxDegrees da db).sum - da.sum) a → Q ((maxDegrees da db).sum - db.sum) b → R (a - b)) :
    Both x y (maxDegrees da db) R (Spline.subAssign (Fl A) cfg (s.map x) (t.map x)) (Spline.subAssign ℝ cfg (s.map y) (t.map y)) := by
  refine Both.of (Spline.subAssign_returns (K := Tri A) cfg hs ht hf) (Spline.subAssign_map (K := Tri A) hx cfg s t)
    (Spline.subAssign_map (K := Tri A) hy cfg s t) fun r hr => ?_
  obtain ⟨h1, rfl⟩ := hs
  obtain ⟨h2, rfl⟩ := ht
  exact Spline.subAssign_graded hP hQ h1 h2 hf.dims hf.small ha hb (by intro a b; rw [Nat.zero_add, Nat.zero_add]; exact hR a b) hr

theorem both_sub (hle : ∀ d p q : ℕ, da[d]? = some p → db[d]? = some q → q ≤ p)
    (hR : ∀ a b, P ((maxDegrees da db).sum - da.sum) a → Q ((maxDegrees da db).sum - db.sum) b → R (a - b)) :
    Both x y (maxDegrees da db) R (Spline.subOp (Fl A) cfg (s.map x) (t.map x)) (Spline.subOp ℝ cfg (s.map y) (t.map y)) := by
  refine Both.of (Spline.subOp_returns (K := Tri A) cfg hs ht hf hle) (Spline.subOp_map (K := Tri A) hx cfg s t)
    (Spline.subOp_map (K := Tri A) hy cfg s t) fun r hr => ?_
  obtain ⟨h1, rfl⟩ := hs
  obtain ⟨h2, rfl⟩ := ht
  exact Spline.subOp_graded hP hQ h1 h2 hf.dims hf.small ha hb (by intro a b; rw [Nat.zero_add, Nat.zero_add]; exact hR a b) hr
end

/-! ## numbers -/

/-- the error of `k` operations, coordinate by coordinate -/
def NearP (M : Fin n → ℝ) (k : ℕ) (z : Point (Tri A) n) : Prop := ∀ c, NearM (M c) k (z.val c)

theorem NearP.mono {M : Fin n → ℝ} {j k : ℕ} {z : Point (Tri A) n} (h : j ≤ k) (hz : NearP M j z) : NearP M k z := fun c => (hz c).mono h

section
variable (hη : A.η = 0) (hu : A.u ≤ 1 / 2)
include hη hu

theorem elevates (M : ℝ) (k : ℕ) : Spline.Elevates (Tri A) (fun j (z : Tri A) => NearM M (k + 12 * j) z) :=
  ⟨fun j _ h => h.mono (by omega), fun j p i h1 h2 a b ha hb => by
    have := NearM.lerp hη hu h2 ha hb (.inl rfl) (.inl rfl)
    exact this.mono (by omega)⟩

theorem elevatesP (M : Fin n → ℝ) (k : ℕ) : Spline.Elevates (Tri A) (fun j (z : Point (Tri A) n) => NearP M (k + 12 * j) z) :=
  ⟨fun j _ h => h.mono (by omega), fun j p i h1 h2 a b ha hb c => by
    have := NearM.lerp hη hu h2 (ha c) (hb c) (.inr rfl) (.inr rfl)
    exact this.mono (by omega)⟩
end
end Tri
end Bezman
