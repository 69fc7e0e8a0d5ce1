import Verif.Proofs.FloatOps
import Verif.Proofs.GradedOps
import Verif.Proofs.MapOps
import Verif.Proofs.AnyArith
import Verif.Proofs.Unique
import Verif.Spec.FloatBounds

set_option linter.unusedSectionVars false

/-! # Rounding errors of single operations -/

namespace Bezman
open Spec
variable {A : FloatArith} {n : ℕ}

/-! ## constant splines -/

theorem Spline.computes_const {K V : Type} [Field K] [AddCommGroup V] [Module K V] {s : Spline V} (hs : s.WF) {v : V} (h : ∀ x ∈ s.cps, x = v) :
    s.Computes s.degrees (fun _ : List K => v) :=
  Spline.Computes.mk' hs rfl fun t ht => by
    rw [Spline.value_eq_neval, ← neval_const (ps := s.degrees) (ts := t) ht v]
    refine neval_congr fun j hj => ?_
    rw [List.getD_eq_getElem?_getD, List.getElem?_eq_getElem (by rw [hs.4]; exact hj), Option.getD_some]
    exact h _ (List.getElem_mem _)

theorem Spline.const_of_computes {K V : Type} [Field K] [CharZero K] [AddCommGroup V] [Module K V] {s : Spline V} {ds : List ℕ} {v : V}
    (h : s.Computes ds (fun _ : List K => v)) : ∀ x ∈ s.cps, x = v := by
  have h1 := Spline.computes_const (K := K) (s := s.map fun _ => v) (v := v) (Spline.WF.map h.wf _) (by simp [Spline.map])
  have e : s = s.map fun _ => v := Spline.Computes.unique h (by rw [← h.degrees_eq]; exact h1)
  rw [e]
  simp [Spline.map]

/-! ## projections -/
namespace Tri

theorem scalarX : letI : Par (Tri A) (Fl A) := parMap Tri.x; ParScalar (Tri A) (Fl A) :=
  letI : Par (Tri A) (Fl A) := parMap Tri.x
  { zero := rfl, one := rfl
    add := fun {a b a' b'} h1 h2 => by obtain rfl : a.x = a' := h1; obtain rfl : b.x = b' := h2; rfl
    sub := fun {a b a' b'} h1 h2 => by obtain rfl : a.x = a' := h1; obtain rfl : b.x = b' := h2; rfl
    mul := fun {a b a' b'} h1 h2 => by obtain rfl : a.x = a' := h1; obtain rfl : b.x = b' := h2; rfl
    neg := fun {a a'} h1 => by obtain rfl : a.x = a' := h1; rfl
    cast := fun _ => rfl, inv := fun _ => rfl, ratio := fun _ _ => rfl }

theorem scalarY : letI : Par (Tri A) ℝ := parMap Tri.y; ParScalar (Tri A) ℝ :=
  letI : Par (Tri A) ℝ := parMap Tri.y
  { zero := rfl, one := rfl
    add := fun {a b a' b'} h1 h2 => by obtain rfl : a.y = a' := h1; obtain rfl : b.y = b' := h2; rfl
    sub := fun {a b a' b'} h1 h2 => by obtain rfl : a.y = a' := h1; obtain rfl : b.y = b' := h2; rfl
    mul := fun {a b a' b'} h1 h2 => by obtain rfl : a.y = a' := h1; obtain rfl : b.y = b' := h2; rfl
    neg := fun {a a'} h1 => by obtain rfl : a.y = a' := h1; rfl
    cast := fun _ => rfl, inv := fun _ => rfl, ratio := fun _ _ => rfl }

theorem scalarM : letI : Par (Tri A) ℝ := parMap Tri.m; ParScalar (Tri A) ℝ :=
  letI : Par (Tri A) ℝ := parMap Tri.m
  { zero := rfl, one := rfl
    add := fun {a b a' b'} h1 h2 => by obtain rfl : a.m = a' := h1; obtain rfl : b.m = b' := h2; rfl
    sub := fun {a b a' b'} h1 h2 => by obtain rfl : a.m = a' := h1; obtain rfl : b.m = b' := h2; rfl
    mul := fun {a b a' b'} h1 h2 => by obtain rfl : a.m = a' := h1; obtain rfl : b.m = b' := h2; rfl
    neg := fun {a a'} h1 => by obtain rfl : a.m = a' := h1; rfl
    cast := fun _ => rfl, inv := fun _ => rfl, ratio := fun _ _ => rfl }

theorem dot_map {K K' : Type} [Zero K] [Add K] [Mul K] [Zero K'] [Add K'] [Mul K'] {f : K → K'} (h0 : f 0 = 0) (ha : ∀ a b, f (a + b) = f a + f b)
    (hm : ∀ a b, f (a * b) = f a * f b) (a b : Point K n) : f (a.dot b) = (a.map f).dot (b.map f) := by
  unfold Point.dot Point.accumulate
  generalize List.finRange n = l
  rw [← h0]
  generalize (0 : K) = z
  induction l generalizing z with
  | nil => rfl
  | cons i l ih => rw [List.foldl_cons, List.foldl_cons, ih, ha, hm]; rfl

section
local instance : Par (Tri A) ℝ := parMap Tri.m
local instance : ParScalar (Tri A) ℝ := scalarM

theorem m_iff (a : Tri A) (b : ℝ) : a ≋ b ↔ b = a.m := eq_comm
theorem m_iffP (a : Point (Tri A) n) (b : Point ℝ n) : a ≋ b ↔ b = a.map Tri.m :=
  ⟨fun h => Point.ext (funext fun i => ((m_iff _ _).1 (h i))), fun h i => h ▸ rfl⟩

variable {cfg : Cfg} (hmax : cfg.maxBinom ≤ 68)
include hmax

/-- the bound of a product -/
theorem mul_m {s t r : Spline (Tri A)} {da db : List ℕ} (hs : HasShape da s) (ht : HasShape db t) (hdim : db.length = da.length)
    (hdeg : ∀ p ∈ sumDegrees da db, p < cfg.maxBinom) {M N : ℝ} (hM : ∀ z ∈ s.cps, z.m = M) (hN : ∀ z ∈ t.cps, z.m = N)
    (hr : Spline.mulScalar cfg s t = .ok r) : ∀ z ∈ r.cps, z.m = M * N := by
  have e := Spline.mulOp_map (K := Tri A) (K' := ℝ) m_iff m_iff m_iff cfg (mul := fun a b : Tri A => a * b) (mul' := fun a b : ℝ => a * b)
    (fun _ _ => rfl) s t
  have h1 := Spline.computes_const (K := ℝ) (s := s.map Tri.m) (v := M) (Spline.WF.map hs.1 _) (by simpa [Spline.map] using hM)
  have h2 := Spline.computes_const (K := ℝ) (s := t.map Tri.m) (v := N) (Spline.WF.map ht.1 _) (by simpa [Spline.map] using hN)
  rw [show (s.map Tri.m).degrees = da from hs.2] at h1
  rw [show (t.map Tri.m).degrees = db from ht.2] at h2
  obtain ⟨r', e', h'⟩ := Props.C21_mul_scalar cfg hmax _ _ _ _ _ _ h1 h2 hdim hdeg
  unfold Spline.mulScalar at e' hr
  rw [e', hr] at e
  obtain rfl : r' = r.map Tri.m := Except.ok.inj e
  have := Spline.const_of_computes h'
  simpa [Spline.map] using this

theorem mulLeft_m {s : Spline (Tri A)} {t r : Spline (Point (Tri A) n)} {da db : List ℕ} (hs : HasShape da s) (ht : HasShape db t)
    (hdim : db.length = da.length) (hdeg : ∀ p ∈ sumDegrees da db, p < cfg.maxBinom) {M : ℝ} {N : Fin n → ℝ} (hM : ∀ z ∈ s.cps, z.m = M)
    (hN : ∀ z ∈ t.cps, ∀ c, (z.val c).m = N c) (hr : Spline.mulOp (Tri A) cfg (fun c v => c • v) s t = .ok r) :
    ∀ z ∈ r.cps, ∀ c, (z.val c).m = M * N c := by
  have e := Spline.mulOp_map (K := Tri A) (K' := ℝ) m_iff m_iffP m_iffP cfg (mul := fun (a : Tri A) (b : Point (Tri A) n) => a • b)
    (mul' := fun (a : ℝ) (b : Point ℝ n) => a • b) (fun _ _ => rfl) s t
  have h1 := Spline.computes_const (K := ℝ) (s := s.map Tri.m) (v := M) (Spline.WF.map hs.1 _) (by simpa [Spline.map] using hM)
  have h2 := Spline.computes_const (K := ℝ) (s := t.map (Point.map Tri.m)) (v := (⟨N⟩ : Point ℝ n)) (Spline.WF.map ht.1 _) (by
    intro x hx
    obtain ⟨z, hz, rfl⟩ := List.mem_map.mp hx
    exact Point.ext (funext fun c => hN z hz c))
  rw [show (s.map Tri.m).degrees = da from hs.2] at h1
  rw [show (t.map (Point.map Tri.m)).degrees = db from ht.2] at h2
  obtain ⟨r', e', h'⟩ := Props.C21_mul_scalar_point cfg hmax _ _ _ _ _ _ h1 h2 hdim hdeg
  rw [e', hr] at e
  obtain rfl : r' = r.map (Point.map Tri.m) := Except.ok.inj e
  have := Spline.const_of_computes h'
  intro z hz c
  have := congrArg (fun p : Point ℝ n => p.val c) (this (z.map Tri.m) (List.mem_map.mpr ⟨z, hz, rfl⟩))
  simpa [Point.map, mul_comm] using this

theorem mulRight_m {s r : Spline (Point (Tri A) n)} {t : Spline (Tri A)} {da db : List ℕ} (hs : HasShape da s) (ht : HasShape db t)
    (hdim : db.length = da.length) (hdeg : ∀ p ∈ sumDegrees da db, p < cfg.maxBinom) {M : Fin n → ℝ} {N : ℝ}
    (hM : ∀ z ∈ s.cps, ∀ c, (z.val c).m = M c) (hN : ∀ z ∈ t.cps, z.m = N)
    (hr : Spline.mulOp (Tri A) cfg (fun (v : Point (Tri A) n) (c : Tri A) => c • v) s t = .ok r) :
    ∀ z ∈ r.cps, ∀ c, (z.val c).m = M c * N := by
  have e := Spline.mulOp_map (K := Tri A) (K' := ℝ) m_iffP m_iff m_iffP cfg (mul := fun (b : Point (Tri A) n) (a : Tri A) => a • b)
    (mul' := fun (b : Point ℝ n) (a : ℝ) => a • b) (fun _ _ => rfl) s t
  have h1 := Spline.computes_const (K := ℝ) (s := s.map (Point.map Tri.m)) (v := (⟨M⟩ : Point ℝ n)) (Spline.WF.map hs.1 _) (by
    intro x hx
    obtain ⟨z, hz, rfl⟩ := List.mem_map.mp hx
    exact Point.ext (funext fun c => hM z hz c))
  have h2 := Spline.computes_const (K := ℝ) (s := t.map Tri.m) (v := N) (Spline.WF.map ht.1 _) (by simpa [Spline.map] using hN)
  rw [show (s.map (Point.map Tri.m)).degrees = da from hs.2] at h1
  rw [show (t.map Tri.m).degrees = db from ht.2] at h2
  obtain ⟨r', e', h'⟩ := Props.C21_mul_point_scalar cfg hmax _ _ _ _ _ _ h1 h2 hdim hdeg
  rw [e', hr] at e
  obtain rfl : r' = r.map (Point.map Tri.m) := Except.ok.inj e
  have := Spline.const_of_computes h'
  intro z hz c
  have := congrArg (fun p : Point ℝ n => p.val c) (this (z.map Tri.m) (List.mem_map.mpr ⟨z, hz, rfl⟩))
  simpa [Point.map, mul_comm] using this

theorem dot_m {s t : Spline (Point (Tri A) n)} {r : Spline (Tri A)} {da db : List ℕ} (hs : HasShape da s) (ht : HasShape db t)
    (hdim : db.length = da.length) (hdeg : ∀ p ∈ sumDegrees da db, p < cfg.maxBinom) {M N : Fin n → ℝ}
    (hM : ∀ z ∈ s.cps, ∀ c, (z.val c).m = M c) (hN : ∀ z ∈ t.cps, ∀ c, (z.val c).m = N c)
    (hr : Spline.mulOp (Tri A) cfg Point.dot s t = .ok r) : ∀ z ∈ r.cps, z.m = ∑ c, M c * N c := by
  have e := Spline.mulOp_map (K := Tri A) (K' := ℝ) m_iffP m_iffP m_iff cfg (mul := (Point.dot : Point (Tri A) n → _ → _))
    (mul' := (Point.dot : Point ℝ n → _ → _)) (dot_map rfl (fun _ _ => rfl) (fun _ _ => rfl)) s t
  have h1 := Spline.computes_const (K := ℝ) (s := s.map (Point.map Tri.m)) (v := (⟨M⟩ : Point ℝ n)) (Spline.WF.map hs.1 _) (by
    intro x hx
    obtain ⟨z, hz, rfl⟩ := List.mem_map.mp hx
    exact Point.ext (funext fun c => hM z hz c))
  have h2 := Spline.computes_const (K := ℝ) (s := t.map (Point.map Tri.m)) (v := (⟨N⟩ : Point ℝ n)) (Spline.WF.map ht.1 _) (by
    intro x hx
    obtain ⟨z, hz, rfl⟩ := List.mem_map.mp hx
    exact Point.ext (funext fun c => hN z hz c))
  rw [show (s.map (Point.map Tri.m)).degrees = da from hs.2] at h1
  rw [show (t.map (Point.map Tri.m)).degrees = db from ht.2] at h2
  obtain ⟨r', e', h'⟩ := Props.C21_mul_dot cfg hmax _ _ _ _ _ _ h1 h2 hdim hdeg
  rw [e', hr] at e
  obtain rfl : r' = r.map Tri.m := Except.ok.inj e
  have := Spline.const_of_computes h'
  simpa [Spline.map] using this

end
end Tri
end Bezman
