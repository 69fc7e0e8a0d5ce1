import Verif.Proofs.AnyRoundApprox
import Verif.Proofs.FloatSteps
import Verif.Proofs.GradedDeriv

set_option linter.unusedSectionVars false

/-! # Rounding errors of single operations: from triples to pairs of runs -/

namespace Bezman
open Spec
variable {A : Roundoff} {n : ℕ}

namespace Trn
open Tri (Both join_shape)

theorem ofAllNear {ds : List ℕ} {k : ℕ} {M : ℝ} {s : Spline (Nd A)} {s' : Spline ℝ} (h : s.AllNear ds k M s') :
    ∃ t : Spline (Trn A), HasShape ds t ∧ t.map Trn.x = s ∧ t.map Trn.y = s' ∧ ∀ z ∈ t.cps, NearM M k z ∧ z.m = M := by
  obtain ⟨m, h1, h2, h3⟩ := forall₂_join (x := Trn.x) (y := Trn.y) (Q := fun z => NearM M k z ∧ z.m = M) (fun a b => (⟨a, b, M⟩ : Trn A))
    (fun _ _ => rfl) (fun _ _ => rfl) (fun a b h => ⟨h, rfl⟩) h.near
  obtain ⟨t, rfl, h4, h5, h6⟩ := join_shape h.shape h.shape' h1 h2
  exact ⟨t, h4, h5, h6, h3⟩

theorem ofAllNearPoints {ds : List ℕ} {k : ℕ} {M : Fin n → ℝ} {s : Spline (Point (Nd A) n)} {s' : Spline (Point ℝ n)}
    (h : s.AllNearPoints ds k M s') :
    ∃ t : Spline (Point (Trn A) n), HasShape ds t ∧ t.map (Point.map Trn.x) = s ∧ t.map (Point.map Trn.y) = s' ∧
      ∀ z ∈ t.cps, NearP M k z ∧ ∀ c, (z.val c).m = M c := by
  obtain ⟨m, h1, h2, h3⟩ := forall₂_join (x := Point.map Trn.x) (y := Point.map Trn.y) (Q := fun z => NearP M k z ∧ ∀ c, (z.val c).m = M c)
    (fun a b => (⟨fun c => ⟨a.val c, b.val c, M c⟩⟩ : Point (Trn A) n))
    (fun _ _ => rfl) (fun _ _ => rfl) (fun a b h => ⟨fun c => h c, fun _ => rfl⟩) h.near
  obtain ⟨t, rfl, h4, h5, h6⟩ := join_shape h.shape h.shape' h1 h2
  exact ⟨t, h4, h5, h6, h3⟩

theorem Both.within {ds : List ℕ} {k : ℕ} {M : ℝ} {fl : Bezman.M (Spline (Nd A))} {ex : Bezman.M (Spline ℝ)}
    (h : Both Trn.x Trn.y ds (NearM M k) fl ex) : AllNearRuns ds k M fl ex := by
  obtain ⟨r, h1, h2, h3, h4⟩ := h
  refine ⟨_, _, h1, h2, ⟨h3.1.map _, h3.2⟩, ⟨h3.1.map _, h3.2⟩, ?_⟩
  simp only [Spline.map, List.forall₂_map_left_iff, List.forall₂_map_right_iff]
  exact List.forall₂_same.mpr fun z hz => h4 z hz

theorem Both.withinPoints {ds : List ℕ} {k : ℕ} {M : Fin n → ℝ} {fl : Bezman.M (Spline (Point (Nd A) n))} {ex : Bezman.M (Spline (Point ℝ n))}
    (h : Both (Point.map Trn.x) (Point.map Trn.y) ds (NearP M k) fl ex) : AllNearRunsPoints ds k M fl ex := by
  obtain ⟨r, h1, h2, h3, h4⟩ := h
  refine ⟨_, _, h1, h2, ⟨h3.1.map _, h3.2⟩, ⟨h3.1.map _, h3.2⟩, ?_⟩
  simp only [Spline.map, List.forall₂_map_left_iff, List.forall₂_map_right_iff]
  exact List.forall₂_same.mpr fun z hz => h4 z hz

/-! ## numbers -/

theorem Near.toM {k : ℕ} {z : Trn A} {M : ℝ} (h : Near k z) (e : z.m = M) : NearM M k z := e ▸ h
theorem NearM.toNear {k : ℕ} {z : Trn A} {M : ℝ} (h : NearM M k z ∧ z.m = M) : Near k z := by
  obtain ⟨h, rfl⟩ := h; exact h

theorem NearM.exact (c : ℝ) (m : ℝ) : NearM |c| 0 (⟨.exactly c, c, m⟩ : Trn A) := ⟨le_rfl, fun r hr => by
  obtain rfl : r = c := hr
  simp⟩
theorem NearM.one : NearM 1 0 (1 : Trn A) := Near.one
theorem NearM.cast (k : ℕ) : NearM k 1 (k : Trn A) := Near.cast k
theorem NearM.neg {M : ℝ} {k : ℕ} {a : Trn A} (h : NearM M k a) : NearM M k (-a) := by
  constructor
  · show |-a.y| ≤ M; rw [abs_neg]; exact h.1
  · intro r hr
    have := h.2 (-r) hr
    show |r - -a.y| ≤ _
    rw [show r - -a.y = -(-r - a.y) by ring, abs_neg]; exact this

section
variable (hη : A.η = 0)
include hη

theorem NearM.mul {M N : ℝ} {j k : ℕ} {a b : Trn A} (ha : NearM M j a) (hb : NearM N k b) : NearM (M * N) (j + k + 1) (a * b) :=
  Near.mul hη (a := ⟨a.x, a.y, M⟩) (b := ⟨b.x, b.y, N⟩) ha hb

theorem NearP.smul {M : ℝ} {N : Fin n → ℝ} {j k : ℕ} {c : Trn A} {z : Point (Trn A) n} (hc : NearM M j c) (hz : NearP N k z) :
    NearP (fun i => M * N i) (j + k + 1) (c • z) := fun i => by
  have := NearM.mul hη (hz i) hc
  rw [Nat.add_comm k j, mul_comm] at this
  exact this

/-- interpolation with an exact position -/
theorem NearM.lerpExact {M : ℝ} {k : ℕ} {z : ℝ} (h0 : 0 ≤ z) (h1 : z ≤ 1) {a b c d : Trn A} (ha : NearM M k a) (hb : NearM M k b)
    (hc : c = (1 - (⟨.exactly z, z, 0⟩ : Trn A)) * a ∨ c = a * (1 - (⟨.exactly z, z, 0⟩ : Trn A)))
    (hd : d = (⟨.exactly z, z, 0⟩ : Trn A) * b ∨ d = b * (⟨.exactly z, z, 0⟩ : Trn A)) : NearM M (k + 3) (c + d) := by
  have w1 : NearM (1 - z) 1 (1 - (⟨.exactly z, z, 0⟩ : Trn A)) := by
    have e : |1 - z| = 1 - z := abs_of_nonneg (by linarith)
    refine ⟨e.le, ?_⟩
    rw [pow_one, add_sub_cancel_left]
    rintro r ⟨x, y, hx, hy, hr⟩
    obtain rfl : x = 1 := hx
    obtain rfl : y = z := hy
    rw [e] at hr
    exact hr
  have w2 : NearM z 0 (⟨.exactly z, z, 0⟩ : Trn A) := by
    have := NearM.exact (A := A) z 0
    rwa [abs_of_nonneg h0] at this
  have hc' : NearM ((1 - z) * M) (k + 2) c := by
    rcases hc with rfl | rfl
    · exact (NearM.mul hη w1 ha).mono (by omega)
    · have := NearM.mul hη ha w1
      rw [mul_comm] at this
      exact this.mono (by omega)
  have hd' : NearM (z * M) (k + 2) d := by
    rcases hd with rfl | rfl
    · exact (NearM.mul hη w2 hb).mono (by omega)
    · have := NearM.mul hη hb w2
      rw [mul_comm] at this
      exact this.mono (by omega)
  have := NearM.add hc' hd'
  rwa [show (1 - z) * M + z * M = M by ring] at this
end

theorem NearP.add {M N : Fin n → ℝ} {k : ℕ} {a b : Point (Trn A) n} (ha : NearP M k a) (hb : NearP N k b) :
    NearP (fun c => M c + N c) (k + 1) (a + b) := fun c => NearM.add (ha c) (hb c)
theorem NearP.sub {M N : Fin n → ℝ} {k : ℕ} {a b : Point (Trn A) n} (ha : NearP M k a) (hb : NearP N k b) :
    NearP (fun c => M c + N c) (k + 1) (a - b) := fun c => NearM.sub (ha c) (hb c)

end Trn
end Bezman
