import Verif.Proofs.AnyRoundOps
import Verif.Proofs.FloatTri
import Verif.Proofs.GradedOps
import Verif.Proofs.MapOps
import Verif.Proofs.AnyArith
import Verif.Proofs.Unique
import Verif.Spec.AnyRounding

set_option linter.unusedSectionVars false

/-! # Rounding errors of single operations -/

namespace Bezman
open Spec
variable {A : Roundoff} {n : ℕ}

/-! ## projections -/
namespace Trn

theorem scalarX : letI : Par (Trn A) (Nd A) := parMap Trn.x; ParScalar (Trn A) (Nd A) :=
  letI : Par (Trn A) (Nd A) := parMap Trn.x
  { zero := rfl, one := rfl
    add := fun {a b a' b'} h1 h2 => by obtain rfl : a.x = a' := h1; obtain rfl : b.x = b' := h2; rfl
    sub := fun {a b a' b'} h1 h2 => by obtain rfl : a.x = a' := h1; obtain rfl : b.x = b' := h2; rfl
    mul := fun {a b a' b'} h1 h2 => by obtain rfl : a.x = a' := h1; obtain rfl : b.x = b' := h2; rfl
    neg := fun {a a'} h1 => by obtain rfl : a.x = a' := h1; rfl
    cast := fun _ => rfl, inv := fun _ => rfl, ratio := fun _ _ => rfl }

theorem scalarY : letI : Par (Trn A) ℝ := parMap Trn.y; ParScalar (Trn A) ℝ :=
  letI : Par (Trn A) ℝ := parMap Trn.y
  { zero := rfl, one := rfl
    add := fun {a b a' b'} h1 h2 => by obtain rfl : a.y = a' := h1; obtain rfl : b.y = b' := h2; rfl
    sub := fun {a b a' b'} h1 h2 => by obtain rfl : a.y = a' := h1; obtain rfl : b.y = b' := h2; rfl
    mul := fun {a b a' b'} h1 h2 => by obtain rfl : a.y = a' := h1; obtain rfl : b.y = b' := h2; rfl
    neg := fun {a a'} h1 => by obtain rfl : a.y = a' := h1; rfl
    cast := fun _ => rfl, inv := fun _ => rfl, ratio := fun _ _ => rfl }

theorem scalarM : letI : Par (Trn A) ℝ := parMap Trn.m; ParScalar (Trn A) ℝ :=
  letI : Par (Trn A) ℝ := parMap Trn.m
  { zero := rfl, one := rfl
    add := fun {a b a' b'} h1 h2 => by obtain rfl : a.m = a' := h1; obtain rfl : b.m = b' := h2; rfl
    sub := fun {a b a' b'} h1 h2 => by obtain rfl : a.m = a' := h1; obtain rfl : b.m = b' := h2; rfl
    mul := fun {a b a' b'} h1 h2 => by obtain rfl : a.m = a' := h1; obtain rfl : b.m = b' := h2; rfl
    neg := fun {a a'} h1 => by obtain rfl : a.m = a' := h1; rfl
    cast := fun _ => rfl, inv := fun _ => rfl, ratio := fun _ _ => rfl }

section
local instance : Par (Trn A) ℝ := parMap Trn.m
local instance : ParScalar (Trn A) ℝ := scalarM

theorem m_iff (a : Trn A) (b : ℝ) : a ≋ b ↔ b = a.m := eq_comm
theorem m_iffP (a : Point (Trn A) n) (b : Point ℝ n) : a ≋ b ↔ b = a.map Trn.m :=
  ⟨fun h => Point.ext (funext fun i => ((m_iff _ _).1 (h i))), fun h i => h ▸ rfl⟩

variable {cfg : Cfg} (hmax : cfg.maxBinom ≤ 68)
include hmax

/-- the bound of a product -/
theorem mul_m {s t r : Spline (Trn A)} {da db : List ℕ} (hs : HasShape da s) (ht : HasShape db t) (hdim : db.length = da.length)
    (hdeg : ∀ p ∈ sumDegrees da db, p < cfg.maxBinom) {M N : ℝ} (hM : ∀ z ∈ s.cps, z.m = M) (hN : ∀ z ∈ t.cps, z.m = N)
    (hr : Spline.mulScalar cfg s t = .ok r) : ∀ z ∈ r.cps, z.m = M * N := by
  have e := Spline.mulOp_map (K := Trn A) (K' := ℝ) m_iff m_iff m_iff cfg (mul := fun a b : Trn A => a * b) (mul' := fun a b : ℝ => a * b)
    (fun _ _ => rfl) s t
  have h1 := Spline.computes_const (K := ℝ) (s := s.map Trn.m) (v := M) (Spline.WF.map hs.1 _) (by simpa [Spline.map] using hM)
  have h2 := Spline.computes_const (K := ℝ) (s := t.map Trn.m) (v := N) (Spline.WF.map ht.1 _) (by simpa [Spline.map] using hN)
  rw [show (s.map Trn.m).degrees = da from hs.2] at h1
  rw [show (t.map Trn.m).degrees = db from ht.2] at h2
  obtain ⟨r', e', h'⟩ := Props.C21_mul_scalar cfg hmax _ _ _ _ _ _ h1 h2 hdim hdeg
  unfold Spline.mulScalar at e' hr
  rw [e', hr] at e
  obtain rfl : r' = r.map Trn.m := Except.ok.inj e
  have := Spline.const_of_computes h'
  simpa [Spline.map] using this

theorem mulLeft_m {s : Spline (Trn A)} {t r : Spline (Point (Trn A) n)} {da db : List ℕ} (hs : HasShape da s) (ht : HasShape db t)
    (hdim : db.length = da.length) (hdeg : ∀ p ∈ sumDegrees da db, p < cfg.maxBinom) {M : ℝ} {N : Fin n → ℝ} (hM : ∀ z ∈ s.cps, z.m = M)
    (hN : ∀ z ∈ t.cps, ∀ c, (z.val c).m = N c) (hr : Spline.mulOp (Trn A) cfg (fun c v => c • v) s t = .ok r) :
    ∀ z ∈ r.cps, ∀ c, (z.val c).m = M * N c := by
  have e := Spline.mulOp_map (K := Trn A) (K' := ℝ) m_iff m_iffP m_iffP cfg (mul := fun (a : Trn A) (b : Point (Trn A) n) => a • b)
    (mul' := fun (a : ℝ) (b : Point ℝ n) => a • b) (fun _ _ => rfl) s t
  have h1 := Spline.computes_const (K := ℝ) (s := s.map Trn.m) (v := M) (Spline.WF.map hs.1 _) (by simpa [Spline.map] using hM)
  have h2 := Spline.computes_const (K := ℝ) (s := t.map (Point.map Trn.m)) (v := (⟨N⟩ : Point ℝ n)) (Spline.WF.map ht.1 _) (by
    intro x hx
    obtain ⟨z, hz, rfl⟩ := List.mem_map.mp hx
    exact Point.ext (funext fun c => hN z hz c))
  rw [show (s.map Trn.m).degrees = da from hs.2] at h1
  rw [show (t.map (Point.map Trn.m)).degrees = db from ht.2] at h2
  obtain ⟨r', e', h'⟩ := Props.C21_mul_scalar_point cfg hmax _ _ _ _ _ _ h1 h2 hdim hdeg
  rw [e', hr] at e
  obtain rfl : r' = r.map (Point.map Trn.m) := Except.ok.inj e
  have := Spline.const_of_computes h'
  intro z hz c
  have := congrArg (fun p : Point ℝ n => p.val c) (this (z.map Trn.m) (List.mem_map.mpr ⟨z, hz, rfl⟩))
  simpa [Point.map, mul_comm] using this

theorem mulRight_m {s r : Spline (Point (Trn A) n)} {t : Spline (Trn A)} {da db : List ℕ} (hs : HasShape da s) (ht : HasShape db t)
    (hdim : db.length = da.length) (hdeg : ∀ p ∈ sumDegrees da db, p < cfg.maxBinom) {M : Fin n → ℝ} {N : ℝ}
    (hM : ∀ z ∈ s.cps, ∀ c, (z.val c).m = M c) (hN : ∀ z ∈ t.cps, z.m = N)
    (hr : Spline.mulOp (Trn A) cfg (fun (v : Point (Trn A) n) (c : Trn A) => c • v) s t = .ok r) :
    ∀ z ∈ r.cps, ∀ c, (z.val c).m = M c * N := by
  have e := Spline.mulOp_map (K := Trn A) (K' := ℝ) m_iffP m_iff m_iffP cfg (mul := fun (b : Point (Trn A) n) (a : Trn A) => a • b)
    (mul' := fun (b : Point ℝ n) (a : ℝ) => a • b) (fun _ _ => rfl) s t
  have h1 := Spline.computes_const (K := ℝ) (s := s.map (Point.map Trn.m)) (v := (⟨M⟩ : Point ℝ n)) (Spline.WF.map hs.1 _) (by
    intro x hx
    obtain ⟨z, hz, rfl⟩ := List.mem_map.mp hx
    exact Point.ext (funext fun c => hM z hz c))
  have h2 := Spline.computes_const (K := ℝ) (s := t.map Trn.m) (v := N) (Spline.WF.map ht.1 _) (by simpa [Spline.map] using hN)
  rw [show (s.map (Point.map Trn.m)).degrees = da from hs.2] at h1
  rw [show (t.map Trn.m).degrees = db from ht.2] at h2
  obtain ⟨r', e', h'⟩ := Props.C21_mul_point_scalar cfg hmax _ _ _ _ _ _ h1 h2 hdim hdeg
  rw [e', hr] at e
  obtain rfl : r' = r.map (Point.map Trn.m) := Except.ok.inj e
  have := Spline.const_of_computes h'
  intro z hz c
  have := congrArg (fun p : Point ℝ n => p.val c) (this (z.map Trn.m) (List.mem_map.mpr ⟨z, hz, rfl⟩))
  simpa [Point.map, mul_comm] using this

theorem dot_m {s t : Spline (Point (Trn A) n)} {r : Spline (Trn A)} {da db : List ℕ} (hs : HasShape da s) (ht : HasShape db t)
    (hdim : db.length = da.length) (hdeg : ∀ p ∈ sumDegrees da db, p < cfg.maxBinom) {M N : Fin n → ℝ}
    (hM : ∀ z ∈ s.cps, ∀ c, (z.val c).m = M c) (hN : ∀ z ∈ t.cps, ∀ c, (z.val c).m = N c)
    (hr : Spline.mulOp (Trn A) cfg Point.dot s t = .ok r) : ∀ z ∈ r.cps, z.m = ∑ c, M c * N c := by
  have e := Spline.mulOp_map (K := Trn A) (K' := ℝ) m_iffP m_iffP m_iff cfg (mul := (Point.dot : Point (Trn A) n → _ → _))
    (mul' := (Point.dot : Point ℝ n → _ → _)) (Tri.dot_map rfl (fun _ _ => rfl) (fun _ _ => rfl)) s t
  have h1 := Spline.computes_const (K := ℝ) (s := s.map (Point.map Trn.m)) (v := (⟨M⟩ : Point ℝ n)) (Spline.WF.map hs.1 _) (by
    intro x hx
    obtain ⟨z, hz, rfl⟩ := List.mem_map.mp hx
    exact Point.ext (funext fun c => hM z hz c))
  have h2 := Spline.computes_const (K := ℝ) (s := t.map (Point.map Trn.m)) (v := (⟨N⟩ : Point ℝ n)) (Spline.WF.map ht.1 _) (by
    intro x hx
    obtain ⟨z, hz, rfl⟩ := List.mem_map.mp hx
    exact Point.ext (funext fun c => hN z hz c))
  rw [show (s.map (Point.map Trn.m)).degrees = da from hs.2] at h1
  rw [show (t.map (Point.map Trn.m)).degrees = db from ht.2] at h2
  obtain ⟨r', e', h'⟩ := Props.C21_mul_dot cfg hmax _ _ _ _ _ _ h1 h2 hdim hdeg
  rw [e', hr] at e
  obtain rfl : r' = r.map Trn.m := Except.ok.inj e
  have := Spline.const_of_computes h'
  simpa [Spline.map] using this

end
end Trn
end Bezman
