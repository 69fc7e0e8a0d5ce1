import Verif.Proofs.FloatRuns

set_option linter.unusedSectionVars false

/-! # Rounding errors of single operations: sums, elevations, splits, derivatives -/

namespace Bezman
open Spec
variable {A : FloatArith} {n : ℕ}

attribute [local instance] parTriX parScalarTriX parTriY parScalarTriY

theorem Spline.Approx.bound_nonneg {ds : List ℕ} {k : ℕ} {M : ℝ} {s : Spline (Fl A)} {s' : Spline ℝ} (h : s.Approx ds k M s') : 0 ≤ M := by
  have h1 := h.shape'.1.4
  have h2 := size_pos s'.degrees
  have h3 := h.near
  match s'.cps, s.cps, h1, h3 with
  | [], _, h1, _ => simp at h1; omega
  | y :: _, _, _, .cons hy _ => exact (abs_nonneg _).trans hy.1

theorem Spline.ApproxPoints.bound_nonneg {ds : List ℕ} {k : ℕ} {M : Fin n → ℝ} {s : Spline (Point (Fl A) n)} {s' : Spline (Point ℝ n)}
    (h : s.ApproxPoints ds k M s') (c : Fin n) : 0 ≤ M c := by
  have h1 := h.shape'.1.4
  have h2 := size_pos s'.degrees
  have h3 := h.near
  match s'.cps, s.cps, h1, h3 with
  | [], _, h1, _ => simp at h1; omega
  | y :: _, _, _, .cons hy _ => exact (abs_nonneg _).trans (hy c).1

namespace Tri

theorem NearM.zero' {M : ℝ} (hM : 0 ≤ M) (k : ℕ) : NearM M k (0 : Tri A) := by
  refine ⟨by show |(0 : ℝ)| ≤ M; simpa using hM, ?_⟩
  show |(0 : ℝ) - 0| ≤ _
  rw [sub_zero, abs_zero]
  exact mul_nonneg (by linarith [one_le_u (A := A) k]) hM

/-- the differences of one direction -/
theorem diffs_near (hη : A.η = 0) {M : ℝ} {g o : ℕ} {y : ℕ → Tri A} (hy : ∀ j, j ≤ o → NearM M g (y j)) : ∀ k, k ≤ o →
    NearM ((∑ j ∈ Finset.range (k + 1), (o.choose j : ℝ)) * M) (g + 3 + k) (Spline.diffs (Tri A) o y k)
  | 0, _ => by
    have := (hy 0 (Nat.zero_le _)).mono (show g ≤ g + 3 + 0 by omega)
    simpa [Spline.diffs] using this
  | k + 1, hk => by
    have ih := diffs_near hη hy k (by omega)
    have hc : NearM (1 * (o.choose (k + 1) : ℝ)) 2 ((if (k + 1) % 2 = 0 then 1 else -1) * ((o.choose (k + 1) : ℕ) : Tri A)) := by
      refine NearM.mul hη (j := 0) ?_ (NearM.cast _)
      split
      · exact NearM.one
      · exact NearM.one.neg
    have h2 := NearM.mul hη hc (hy (k + 1) hk)
    have h3 := NearM.add ih (h2.mono (show 2 + g + 1 ≤ g + 3 + k by omega))
    rw [Finset.sum_range_succ, add_mul, ← one_mul (o.choose (k + 1) : ℝ)]
    exact h3

theorem fallFactor_near (hη : A.η = 0) {p : ℕ} : ∀ i, i < p → NearM (p.descFactorial (i + 1)) (1 + 2 * i) (Spline.fallFactor (Tri A) p i)
  | 0, _ => by
    have := NearM.cast (A := A) p
    rw [Nat.zero_add, Nat.descFactorial_one]
    exact this
  | i + 1, hi => by
    have := NearM.mul hη (fallFactor_near hη i (show i < p by omega)) (NearM.cast (p - (i + 1)))
    rw [Nat.descFactorial_succ p (i + 1), mul_comm (p - (i + 1)), Nat.cast_mul]
    exact this

theorem deriv_near (hη : A.η = 0) {M : ℝ} {g o p : ℕ} (ho : 0 < o) (hop : o ≤ p) {y : ℕ → Tri A} (hy : ∀ j, j ≤ o → NearM M g (y j)) :
    NearM ((p.descFactorial o * 2 ^ o : ℕ) * M) (g + (3 * o + 4))
      (((if o % 2 = 0 then 1 else -1) * Spline.fallFactor (Tri A) p (o - 1)) • Spline.diffs (Tri A) o y o) := by
  have h1 := diffs_near hη hy o le_rfl
  have e : (∑ j ∈ Finset.range (o + 1), (o.choose j : ℝ)) = 2 ^ o := by exact_mod_cast Nat.sum_range_choose o
  rw [e] at h1
  have h2 : NearM (1 * (p.descFactorial o : ℝ)) (2 * o) ((if o % 2 = 0 then 1 else -1) * Spline.fallFactor (Tri A) p (o - 1)) := by
    have := fallFactor_near hη (p := p) (o - 1) (by omega)
    rw [Nat.sub_add_cancel ho] at this
    refine (NearM.mul hη (j := 0) ?_ this).mono (by omega)
    split
    · exact NearM.one
    · exact NearM.one.neg
  have := NearM.mul hη h2 h1
  rw [show 1 * (p.descFactorial o : ℝ) * (2 ^ o * M) = (p.descFactorial o * 2 ^ o : ℕ) * M by push_cast; ring] at this
  exact this.mono (by omega)

theorem diffs_val {o : ℕ} {y : ℕ → Point (Tri A) n} (c : Fin n) : ∀ k, k ≤ o → ∀ {M : ℝ} {g : ℕ}, A.η = 0 → (∀ j, j ≤ o → NearM M g ((y j).val c)) →
    NearM ((∑ j ∈ Finset.range (k + 1), (o.choose j : ℝ)) * M) (g + 3 + k) ((Spline.diffs (Tri A) o y k).val c)
  | 0, _, M, g, _, hy => by
    have := (hy 0 (Nat.zero_le _)).mono (show g ≤ g + 3 + 0 by omega)
    simpa [Spline.diffs] using this
  | k + 1, hk, M, g, hη, hy => by
    have ih := diffs_val c k (by omega) hη hy
    have hc : NearM (1 * (o.choose (k + 1) : ℝ)) 2 ((if (k + 1) % 2 = 0 then 1 else -1) * ((o.choose (k + 1) : ℕ) : Tri A)) := by
      refine NearM.mul hη (j := 0) ?_ (NearM.cast _)
      split
      · exact NearM.one
      · exact NearM.one.neg
    have h2 := NearM.mul hη (hy (k + 1) hk) hc
    have h3 := NearM.add ih (h2.mono (show g + 2 + 1 ≤ g + 3 + k by omega))
    rw [Finset.sum_range_succ, add_mul, ← one_mul (o.choose (k + 1) : ℝ), mul_comm _ M]
    rw [mul_comm _ M] at h3 ⊢
    exact h3

theorem deriv_nearP (hη : A.η = 0) {M : Fin n → ℝ} {g o p : ℕ} (ho : 0 < o) (hop : o ≤ p) {y : ℕ → Point (Tri A) n}
    (hy : ∀ j, j ≤ o → NearP M g (y j)) :
    NearP (fun c => (p.descFactorial o * 2 ^ o : ℕ) * M c) (g + (3 * o + 4))
      (((if o % 2 = 0 then 1 else -1) * Spline.fallFactor (Tri A) p (o - 1)) • Spline.diffs (Tri A) o y o) := by
  intro c
  have h1 := diffs_val c o le_rfl hη fun j hj => hy j hj c
  have e : (∑ j ∈ Finset.range (o + 1), (o.choose j : ℝ)) = 2 ^ o := by exact_mod_cast Nat.sum_range_choose o
  rw [e] at h1
  have h2 : NearM (1 * (p.descFactorial o : ℝ)) (2 * o) ((if o % 2 = 0 then 1 else -1) * Spline.fallFactor (Tri A) p (o - 1)) := by
    have := fallFactor_near hη (p := p) (o - 1) (by omega)
    rw [Nat.sub_add_cancel ho] at this
    refine (NearM.mul hη (j := 0) ?_ this).mono (by omega)
    split
    · exact NearM.one
    · exact NearM.one.neg
  have := NearM.mul hη h1 h2
  rw [show 2 ^ o * M c * (1 * (p.descFactorial o : ℝ)) = (p.descFactorial o * 2 ^ o : ℕ) * M c by push_cast; ring] at this
  exact this.mono (by omega)

/-! ## the sums of a derivative over the directions -/

theorem derivRoundings_take {orders : List ℕ} {d o : ℕ} (h : orders[d]? = some o) :
    derivRoundings (orders.take (d + 1)) = derivRoundings (orders.take d) + if o = 0 then 0 else 3 * o + 4 := by
  unfold derivRoundings
  rw [List.take_add_one, h]
  simp

theorem derivFactor_take {ds orders : List ℕ} {d o p : ℕ} (h : orders[d]? = some o) (hp : ds[d]? = some p) :
    derivFactor (ds.take (d + 1)) (orders.take (d + 1)) = derivFactor (ds.take d) (orders.take d) * (p.descFactorial o * 2 ^ o) := by
  unfold derivFactor
  obtain ⟨h1, -⟩ := List.getElem?_eq_some_iff.mp h
  obtain ⟨h2, -⟩ := List.getElem?_eq_some_iff.mp hp
  rw [List.take_add_one, List.take_add_one, h, hp, List.zipWith_append (by simp; omega)]
  simp

end Tri
end Bezman
