import Verif.Proofs.Rounded
import Verif.Proofs.Box
import Verif.Spec.AnyArith

/-! # `FitIntoUnitCube` with rounded numbers -/

namespace Bezman
open Spec Coords
variable {p : ℕ} {q : ℤ} {rnd : ℝ → ℝ}

/-- one coordinate: shift and scale -/
theorem Spec.Nearest.fit (h : Nearest p q rnd) (hp : 0 < p) (hq : q ≤ -p) {lo hi : ℝ} (h1 : IsFloat p q lo)
    (h2 : IsFloat p q hi) (hlt : lo < hi) (hr : hi - lo ≤ 2 ^ (1 - q - p)) :
    (∀ x, lo ≤ x → x ≤ hi → 0 ≤ rnd (rnd (-lo + x) * rnd (1 / rnd (hi - lo))) ∧
      rnd (rnd (-lo + x) * rnd (1 / rnd (hi - lo))) ≤ 1) ∧
    rnd (rnd (-lo + lo) * rnd (1 / rnd (hi - lo))) = 0 ∧
    1 - 2 ^ (-(p : ℤ)) ≤ rnd (rnd (-lo + hi) * rnd (1 / rnd (hi - lo))) ∧ 0 ≤ rnd (1 / rnd (hi - lo)) := by
  set d := rnd (hi - lo) with hd
  have hd0 : 0 < d := h.diff_pos hp h1 h2 hlt
  have hd1 : d ≤ 2 ^ (1 - q - p) := by
    have := h.mono hr
    rwa [h.exact (IsFloat.two_zpow hp (by omega))] at this
  have hinv : (2 : ℝ) ^ (q + p - 1) ≤ |1 / d| := by
    rw [abs_of_pos (by positivity), le_div_iff₀ hd0]
    calc _ ≤ (2 : ℝ) ^ (q + p - 1) * 2 ^ (1 - q - p) := mul_le_mul_of_nonneg_left hd1 (by positivity)
      _ = 1 := by rw [← zpow_add₀ two_ne_zero, show q + p - 1 + (1 - q - (p : ℤ)) = 0 by ring, zpow_zero]
  have he := h.err hp hinv
  set s := rnd (1 / d) with hs
  set u : ℝ := 2 ^ (-(p : ℤ)) with hu
  rw [abs_of_pos (show (0 : ℝ) < 1 / d by positivity), abs_lt] at he
  have e1 : 1 / d * d = 1 := by field_simp
  have hs0 : 0 ≤ s := by
    have := h.mono (show (0 : ℝ) ≤ 1 / d by positivity)
    rwa [h.zero] at this
  have hsd : d * s < 1 + u := by
    have := mul_lt_mul_of_pos_left he.2 hd0
    have e2 : d * (s - 1 / d) = d * s - 1 := by rw [mul_sub, mul_comm d (1 / d), e1]
    have e3 : d * (u * (1 / d)) = u := by rw [mul_comm, mul_assoc, e1, mul_one]
    linarith
  have hsd' : 1 - u < d * s := by
    have := mul_lt_mul_of_pos_left he.1 hd0
    have e2 : d * (s - 1 / d) = d * s - 1 := by rw [mul_sub, mul_comm d (1 / d), e1]
    have e3 : d * -(u * (1 / d)) = -u := by rw [mul_neg, mul_comm, mul_assoc, e1, mul_one]
    linarith
  have hfin : ∀ x, x ≤ hi → rnd (-lo + x) ≤ d := by
    intro x hx
    exact h.mono (by linarith)
  refine ⟨?_, ?_, ?_, hs0⟩
  · intro x hx hx'
    have ha : 0 ≤ rnd (-lo + x) := by
      have := h.mono (show 0 ≤ -lo + x by linarith)
      rwa [h.zero] at this
    constructor
    · have := h.mono (mul_nonneg ha hs0)
      rwa [h.zero] at this
    · refine h.le_one hp (by omega) (lt_of_le_of_lt ?_ hsd)
      exact mul_le_mul_of_nonneg_right (hfin x hx') hs0
  · rw [neg_add_cancel, h.zero, zero_mul, h.zero]
  · have e : -lo + hi = hi - lo := by ring
    rw [e, ← hd]
    have hf : IsFloat p q (1 - u) := by
      refine ⟨2 ^ p - 1, -(p : ℤ), ?_, by omega, ?_⟩
      · have : (1 : ℤ) ≤ 2 ^ p := one_le_pow₀ (by norm_num)
        rw [abs_of_nonneg (by omega)]; omega
      · push_cast
        rw [sub_mul, one_mul, ← zpow_natCast, ← zpow_add₀ two_ne_zero]
        simp [hu]
    have := h.mono hsd'.le
    rwa [h.exact hf] at this

/-- the whole spline -/
theorem Spline.fitIntoUnitCube_rounded (h : Nearest p q rnd) (hp : 0 < p) (hq : q ≤ -p) {V : Type} [Coords (Rd rnd) V]
    [Sub V] [Neg V] (hco : ∀ (f : Fin (Coords.n (Rd rnd) V) → Rd rnd) j, coord (V := V) (ofCoords f) j = f j)
    (hsub : ∀ (x y : V) (j : Fin (Coords.n (Rd rnd) V)), (coord (x - y) j : Rd rnd) = coord x j - coord y j)
    (hneg : ∀ (x : V) (j : Fin (Coords.n (Rd rnd) V)), IsFloat p q (coord x j : Rd rnd).val →
      (coord (-x) j : Rd rnd).val = -(coord x j : Rd rnd).val)
    {s : Spline V} (hs : s.WF) (hfl : ∀ x ∈ s.cps, ∀ j : Fin (Coords.n (Rd rnd) V), IsFloat p q (coord x j : Rd rnd).val)
    (hext : ∀ j : Fin (Coords.n (Rd rnd) V), ∃ x ∈ s.cps, ∃ y ∈ s.cps, (coord x j : Rd rnd).val < (coord y j : Rd rnd).val)
    (hr : ∀ j : Fin (Coords.n (Rd rnd) V), ∀ x ∈ s.cps, ∀ y ∈ s.cps,
      (coord y j : Rd rnd).val - (coord x j : Rd rnd).val ≤ 2 ^ (1 - q - p)) :
    ∃ r, fitIntoUnitCube (Rd rnd) s = .ok r ∧ HasShape s.degrees r ∧ fitsIntoUnitCube (Rd rnd) r = .ok true ∧
      (∀ j : Fin (Coords.n (Rd rnd) V), (∃ x ∈ r.cps, (coord x j : Rd rnd).val = 0) ∧
        ∃ x ∈ r.cps, 1 - 2 ^ (-(p : ℤ)) ≤ (coord x j : Rd rnd).val) ∧
      ∃ F : V → V, r.cps = s.cps.map F ∧ ∀ x y, ∀ j : Fin (Coords.n (Rd rnd) V),
        (coord x j : Rd rnd).val ≤ (coord y j : Rd rnd).val → (coord (F x) j : Rd rnd).val ≤ (coord (F y) j : Rd rnd).val := by
  obtain ⟨mx, a1, a2, a3⟩ := maximumCorner_order (K := Rd rnd) hco hs
  obtain ⟨mn, b1, b2, b3⟩ := minimumCorner_order (K := Rd rnd) hco hs
  have flx : ∀ j : Fin (Coords.n (Rd rnd) V), IsFloat p q (coord mx j : Rd rnd).val := by
    intro j; obtain ⟨x, hx, e⟩ := a3 j; rw [← e]; exact hfl x hx j
  have fln : ∀ j : Fin (Coords.n (Rd rnd) V), IsFloat p q (coord mn j : Rd rnd).val := by
    intro j; obtain ⟨x, hx, e⟩ := b3 j; rw [← e]; exact hfl x hx j
  have key := fun j : Fin (Coords.n (Rd rnd) V) => h.fit hp hq (fln j) (flx j) (by
      obtain ⟨x, hx, y, hy, hxy⟩ := hext j
      have e1 : (coord mn j : Rd rnd).val ≤ (coord x j : Rd rnd).val := b2 j x hx
      have e2 : (coord y j : Rd rnd).val ≤ (coord mx j : Rd rnd).val := a2 j y hy
      linarith) (by
      obtain ⟨x, hx, e⟩ := a3 j
      obtain ⟨y, hy, e'⟩ := b3 j
      rw [← e, ← e']; exact hr j y hy x hx)
  unfold fitIntoUnitCube transposeAndScale
  rw [a1, b1]
  simp only [bind_ok]
  set F : V → V := fun x => ofCoords (K := Rd rnd) fun j => (coord (-mn) j + coord x j) *
    coord (ofCoords (V := V) (fun j => (1 : Rd rnd) / coord (mx - mn) j)) j with hF
  have hFv : ∀ x (j : Fin (Coords.n (Rd rnd) V)), (coord (F x) j : Rd rnd).val =
      rnd (rnd (-(coord mn j : Rd rnd).val + (coord x j : Rd rnd).val) *
        rnd (1 / rnd ((coord mx j : Rd rnd).val - (coord mn j : Rd rnd).val))) := by
    intro x j
    simp only [hF]
    rw [hco, hco, hsub, ← hneg mn j (fln j)]
    rfl
  have hwf : ({ s with cps := s.cps.map F } : Spline V).WF := hs.map F
  refine ⟨_, mapCps_ok hs F, ⟨hwf, rfl⟩, ?_, ?_, F, rfl, ?_⟩
  · obtain ⟨b, f1, f2⟩ := fitsIntoUnitCube_order (K := Rd rnd) hco hwf
    have : b = true := by
      refine f2.mpr ?_
      intro x hx j
      obtain ⟨y, hy, rfl⟩ := List.mem_map.mp hx
      have := (key j).1 (coord y j : Rd rnd).val (b2 j y hy) (a2 j y hy)
      rw [← hFv] at this
      exact this
    rw [f1, this]
  · intro j
    obtain ⟨x, hx, e⟩ := a3 j
    obtain ⟨y, hy, e'⟩ := b3 j
    refine ⟨⟨F y, List.mem_map_of_mem hy, ?_⟩, F x, List.mem_map_of_mem hx, ?_⟩
    · rw [hFv, e']; exact (key j).2.1
    · rw [hFv, e]; exact (key j).2.2.1
  · intro x y j hxy
    rw [hFv, hFv]
    refine h.mono (mul_le_mul_of_nonneg_right (h.mono (by linarith)) (key j).2.2.2)

end Bezman
