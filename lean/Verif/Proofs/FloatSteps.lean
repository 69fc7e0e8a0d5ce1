import Verif.Proofs.FloatApprox
import Verif.Proofs.GradedDeriv

set_option linter.unusedSectionVars false

/-! # Rounding errors of single operations: from triples to pairs of runs -/

namespace Bezman
open Spec
variable {A : FloatArith} {n : ℕ}

theorem forall₂_join {α β γ : Type} {R : α → β → Prop} {Q : γ → Prop} {x : γ → α} {y : γ → β} (f : α → β → γ) (hx : ∀ a b, x (f a b) = a)
    (hy : ∀ a b, y (f a b) = b) (hQ : ∀ a b, R a b → Q (f a b)) {l : List α} {l' : List β} (h : List.Forall₂ R l l') :
    ∃ m : List γ, m.map x = l ∧ m.map y = l' ∧ ∀ z ∈ m, Q z := by
  induction h with
  | nil => exact ⟨[], rfl, rfl, by simp⟩
  | @cons a b l l' hab _ ih =>
    obtain ⟨m, h1, h2, h3⟩ := ih
    refine ⟨f a b :: m, by simp [hx, h1], by simp [hy, h2], ?_⟩
    intro z hz
    rcases List.mem_cons.mp hz with rfl | hz
    · exact hQ a b hab
    · exact h3 z hz

namespace Tri

theorem join_shape {V V₁ V₂ : Type} {x : V → V₁} {y : V → V₂} {ds : List ℕ} {s : Spline V₁} {s' : Spline V₂} (h : HasShape ds s)
    (h' : HasShape ds s') {m : List V} (hx : m.map x = s.cps) (hy : m.map y = s'.cps) :
    ∃ t : Spline V, t.cps = m ∧ HasShape ds t ∧ t.map x = s ∧ t.map y = s' := by
  obtain ⟨h1, rfl⟩ := h
  obtain ⟨h2, e⟩ := h'
  refine ⟨⟨s.degrees, s.ncp, s.offsets, m⟩, rfl, ⟨⟨h1.1, h1.2, h1.3, ?_⟩, rfl⟩, ?_, ?_⟩
  · have := congrArg List.length hx
    rw [List.length_map] at this
    exact this.trans h1.4
  · show Spline.mk s.degrees s.ncp s.offsets (m.map x) = s
    rw [hx]
  · show Spline.mk s.degrees s.ncp s.offsets (m.map y) = s'
    rw [hy, h1.2, h1.3]
    cases s' with
    | mk d n o c =>
      have e1 := h2.2
      have e2 := h2.3
      simp only at e e1 e2
      subst e e1 e2
      rfl

theorem ofApprox {ds : List ℕ} {k : ℕ} {M : ℝ} {s : Spline (Fl A)} {s' : Spline ℝ} (h : s.Approx ds k M s') :
    ∃ t : Spline (Tri A), HasShape ds t ∧ t.map Tri.x = s ∧ t.map Tri.y = s' ∧ ∀ z ∈ t.cps, NearM M k z ∧ z.m = M := by
  obtain ⟨m, h1, h2, h3⟩ := forall₂_join (x := Tri.x) (y := Tri.y) (Q := fun z => NearM M k z ∧ z.m = M) (fun a b => (⟨a, b, M⟩ : Tri A))
    (fun _ _ => rfl) (fun _ _ => rfl) (fun a b h => ⟨h, rfl⟩) h.near
  obtain ⟨t, rfl, h4, h5, h6⟩ := join_shape h.shape h.shape' h1 h2
  exact ⟨t, h4, h5, h6, h3⟩

theorem ofApproxPoints {ds : List ℕ} {k : ℕ} {M : Fin n → ℝ} {s : Spline (Point (Fl A) n)} {s' : Spline (Point ℝ n)}
    (h : s.ApproxPoints ds k M s') :
    ∃ t : Spline (Point (Tri A) n), HasShape ds t ∧ t.map (Point.map Tri.x) = s ∧ t.map (Point.map Tri.y) = s' ∧
      ∀ z ∈ t.cps, NearP M k z ∧ ∀ c, (z.val c).m = M c := by
  obtain ⟨m, h1, h2, h3⟩ := forall₂_join (x := Point.map Tri.x) (y := Point.map Tri.y) (Q := fun z => NearP M k z ∧ ∀ c, (z.val c).m = M c)
    (fun a b => (⟨fun c => ⟨a.val c, b.val c, M c⟩⟩ : Point (Tri A) n))
    (fun _ _ => rfl) (fun _ _ => rfl) (fun a b h => ⟨fun c => h c, fun _ => rfl⟩) h.near
  obtain ⟨t, rfl, h4, h5, h6⟩ := join_shape h.shape h.shape' h1 h2
  exact ⟨t, h4, h5, h6, h3⟩

theorem Both.approx {ds : List ℕ} {k : ℕ} {M : ℝ} {fl : Bezman.M (Spline (Fl A))} {ex : Bezman.M (Spline ℝ)}
    (h : Both Tri.x Tri.y ds (NearM M k) fl ex) : ApproxRuns ds k M fl ex := by
  obtain ⟨r, h1, h2, h3, h4⟩ := h
  refine ⟨_, _, h1, h2, ⟨h3.1.map _, h3.2⟩, ⟨h3.1.map _, h3.2⟩, ?_⟩
  simp only [Spline.map, List.forall₂_map_left_iff, List.forall₂_map_right_iff]
  exact List.forall₂_same.mpr fun z hz => h4 z hz

theorem Both.approxPoints {ds : List ℕ} {k : ℕ} {M : Fin n → ℝ} {fl : Bezman.M (Spline (Point (Fl A) n))} {ex : Bezman.M (Spline (Point ℝ n))}
    (h : Both (Point.map Tri.x) (Point.map Tri.y) ds (NearP M k) fl ex) : ApproxRunsPoints ds k M fl ex := by
  obtain ⟨r, h1, h2, h3, h4⟩ := h
  refine ⟨_, _, h1, h2, ⟨h3.1.map _, h3.2⟩, ⟨h3.1.map _, h3.2⟩, ?_⟩
  simp only [Spline.map, List.forall₂_map_left_iff, List.forall₂_map_right_iff]
  exact List.forall₂_same.mpr fun z hz => h4 z hz

theorem Both.mono {V V₁ V₂ : Type} {x : V → V₁} {y : V → V₂} {ds : List ℕ} {R R' : V → Prop} {fl : M (Spline V₁)} {ex : M (Spline V₂)}
    (h : Both x y ds R fl ex) (hR : ∀ z, R z → R' z) : Both x y ds R' fl ex := by
  obtain ⟨r, h1, h2, h3, h4⟩ := h
  exact ⟨r, h1, h2, h3, fun z hz => hR z (h4 z hz)⟩

/-! ## numbers -/

theorem Near.toM {k : ℕ} {z : Tri A} {M : ℝ} (h : Near k z) (e : z.m = M) : NearM M k z := e ▸ h
theorem NearM.toNear {k : ℕ} {z : Tri A} {M : ℝ} (h : NearM M k z ∧ z.m = M) : Near k z := by
  obtain ⟨h, rfl⟩ := h; exact h

theorem NearM.exact (c : Fl A) (m : ℝ) : NearM |c.val| 0 (⟨c, c.val, m⟩ : Tri A) := ⟨le_rfl, by simp⟩
theorem NearM.one : NearM 1 0 (1 : Tri A) := Near.one
theorem NearM.cast (k : ℕ) : NearM k 1 (k : Tri A) := Near.cast k
theorem NearM.neg {M : ℝ} {k : ℕ} {a : Tri A} (h : NearM M k a) : NearM M k (-a) := by
  constructor
  · show |-a.y| ≤ M; rw [abs_neg]; exact h.1
  · show |-a.x.val - -a.y| ≤ _
    rw [show -a.x.val - -a.y = -(a.x.val - a.y) by ring, abs_neg]; exact h.2

section
variable (hη : A.η = 0)
include hη

theorem NearM.mul {M N : ℝ} {j k : ℕ} {a b : Tri A} (ha : NearM M j a) (hb : NearM N k b) : NearM (M * N) (j + k + 1) (a * b) :=
  Near.mul hη (a := ⟨a.x, a.y, M⟩) (b := ⟨b.x, b.y, N⟩) ha hb

theorem NearP.smul {M : ℝ} {N : Fin n → ℝ} {j k : ℕ} {c : Tri A} {z : Point (Tri A) n} (hc : NearM M j c) (hz : NearP N k z) :
    NearP (fun i => M * N i) (j + k + 1) (c • z) := fun i => by
  have := NearM.mul hη (hz i) hc
  rw [Nat.add_comm k j, mul_comm] at this
  exact this

/-- interpolation with an exact position -/
theorem NearM.lerpExact {M : ℝ} {k : ℕ} {z : Fl A} (h0 : 0 < z.val) (h1 : z.val < 1) {a b c d : Tri A} (ha : NearM M k a) (hb : NearM M k b)
    (hc : c = (1 - (⟨z, z.val, 0⟩ : Tri A)) * a ∨ c = a * (1 - (⟨z, z.val, 0⟩ : Tri A)))
    (hd : d = (⟨z, z.val, 0⟩ : Tri A) * b ∨ d = b * (⟨z, z.val, 0⟩ : Tri A)) : NearM M (k + 3) (c + d) := by
  have w1 : NearM (1 - z.val) 1 (1 - (⟨z, z.val, 0⟩ : Tri A)) := by
    have e : |1 - z.val| = 1 - z.val := abs_of_nonneg (by linarith)
    refine ⟨e.le, ?_⟩
    rw [pow_one, add_sub_cancel_left]
    refine (A.sub_err 1 z.val).trans (le_of_eq ?_)
    rw [e]
  have w2 : NearM z.val 0 (⟨z, z.val, 0⟩ : Tri A) := by
    have := NearM.exact z 0
    rwa [abs_of_pos h0] at this
  have hc' : NearM ((1 - z.val) * M) (k + 2) c := by
    rcases hc with rfl | rfl
    · exact (NearM.mul hη w1 ha).mono (by omega)
    · have := NearM.mul hη ha w1
      rw [mul_comm] at this
      exact this.mono (by omega)
  have hd' : NearM (z.val * M) (k + 2) d := by
    rcases hd with rfl | rfl
    · exact (NearM.mul hη w2 hb).mono (by omega)
    · have := NearM.mul hη hb w2
      rw [mul_comm] at this
      exact this.mono (by omega)
  have := NearM.add hc' hd'
  rwa [show (1 - z.val) * M + z.val * M = M by ring] at this
end

theorem NearP.add {M N : Fin n → ℝ} {k : ℕ} {a b : Point (Tri A) n} (ha : NearP M k a) (hb : NearP N k b) :
    NearP (fun c => M c + N c) (k + 1) (a + b) := fun c => NearM.add (ha c) (hb c)
theorem NearP.sub {M N : Fin n → ℝ} {k : ℕ} {a b : Point (Tri A) n} (ha : NearP M k a) (hb : NearP N k b) :
    NearP (fun c => M c + N c) (k + 1) (a - b) := fun c => NearM.sub (ha c) (hb c)

end Tri
end Bezman
