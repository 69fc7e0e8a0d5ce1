import Verif.Proofs.Ieee
import Verif.Proofs.NonFinite
import Verif.Proofs.RoundedBox

/-! # `FitIntoUnitCube` with overflow, infinities and NaN -/

namespace Bezman
open Spec Ieee
variable {p : ℕ} {q E : ℤ} {rnd : ℝ → ℝ} {omega : ℝ} {n : ℕ}

namespace Ieee

theorem lt_irrefl' (a : Ieee rnd omega) : ¬ a < a := by
  rcases a with x | s | _
  · exact lt_irrefl x
  · rintro ⟨h1, h2⟩; rw [h1] at h2; cases h2
  · exact id

theorem neg_one_mul_fin (h : Nearest p q rnd) {v : ℝ} (hv : IsFloat p q v) (hv' : |v| ≤ omega) :
    (fin v * -1 : Ieee rnd omega) = fin (-v) := by
  show round (v * -1) = _
  have e : rnd (v * -1) = -v := by rw [mul_neg_one]; exact h.exact hv.neg
  rw [Ieee.round_eq (by rw [e, abs_neg]; exact hv'), e]

/-- a coordinate in which all control points agree -/
theorem fit_constant (h : Nearest p q rnd) (ho : 0 ≤ omega) {v : ℝ} (hv : IsFloat p q v) (hv' : |v| ≤ omega) :
    (fin v * -1 + fin v) * (1 / (fin v - fin v)) = (nan : Ieee rnd omega) := by
  rw [neg_one_mul_fin h hv hv', sub_fin, add_fin, add_neg_cancel, neg_add_cancel,
    Ieee.round_eq (by rw [h.zero, abs_zero]; exact ho), h.zero]
  have e : (1 / fin 0 : Ieee rnd omega) = inf false := by
    show (if (0 : ℝ) = 0 then (if (1 : ℝ) = 0 then nan else inf (decide ((1 : ℝ) < 0))) else round (1 / 0) : Ieee rnd omega) = _
    rw [if_pos rfl, if_neg one_ne_zero, decide_eq_false (by norm_num)]
  rw [e]
  show (if (0 : ℝ) = 0 then nan else _ : Ieee rnd omega) = _
  rw [if_pos rfl]

/-- a coordinate with an extent -/
theorem fit_proper (h : Nearest p q rnd) (hp : 0 < p) (hq : q ≤ -p) (hE : (p : ℤ) ≤ E) (hqE : q + E ≤ 1) (hqE' : 2 ≤ q + p + E)
    {lo hi : ℝ} (h1 : IsFloat p q lo) (h1' : |lo| ≤ maxFinite p E) (h2 : IsFloat p q hi) (hlo : 2 ^ (1 - E) ≤ hi - lo)
    (hr : hi - lo ≤ 2 ^ (1 - q - p)) {x : ℝ} (hx : lo ≤ x) (hx' : x ≤ hi) :
    (fin lo * -1 + fin x) * (1 / (fin hi - fin lo)) =
      (fin (rnd (rnd (-lo + x) * rnd (1 / rnd (hi - lo)))) : Ieee rnd (maxFinite p E)) := by
  have hlt : lo < hi := by have : (0 : ℝ) < 2 ^ (1 - E) := by positivity
                           linarith
  have hlarge : (2 : ℝ) ^ (1 - q - p) ≤ maxFinite p E :=
    le_trans (zpow_le_zpow_right₀ (by norm_num) (by omega)) (one_le_maxFinite hp hE)
  have hle : ∀ y, 0 ≤ y → y ≤ hi - lo → |rnd y| ≤ maxFinite p E := fun y hy hy' =>
    le_trans (h.abs_le_of (IsFloat.two_zpow hp (by omega)) (by rw [abs_of_nonneg hy]; linarith)) hlarge
  have hd : 2 ^ (1 - E) ≤ rnd (hi - lo) := by
    have := h.mono hlo
    rwa [h.exact (IsFloat.two_zpow hp (by omega))] at this
  have hd0 : 0 < rnd (hi - lo) := lt_of_lt_of_le (by positivity) hd
  have hinv : |rnd (1 / rnd (hi - lo))| ≤ maxFinite p E := by
    refine le_trans (h.abs_le_of (y := 2 ^ (E - 1)) (IsFloat.two_zpow hp (by omega)) ?_) (one_le_maxFinite hp hE)
    rw [abs_of_pos (by positivity), div_le_iff₀ hd0]
    calc (1 : ℝ) = 2 ^ (E - 1) * 2 ^ (1 - E) := by rw [← zpow_add₀ two_ne_zero, show E - 1 + (1 - E) = 0 by ring, zpow_zero]
      _ ≤ _ := mul_le_mul_of_nonneg_left hd (by positivity)
  have hu := (h.fit hp hq h1 h2 hlt hr).1 x hx hx'
  have h1le : 1 ≤ maxFinite p E := le_trans (by rw [← zpow_zero (2 : ℝ)]; exact zpow_le_zpow_right₀ (by norm_num) (by omega)) (one_le_maxFinite hp hE)
  rw [neg_one_mul_fin h h1 h1', sub_fin, add_fin, ← sub_eq_add_neg, Ieee.round_eq (hle _ (by linarith) le_rfl),
    Ieee.round_eq (hle (-lo + x) (by linarith) (by linarith))]
  have e : (1 / fin (rnd (hi - lo)) : Ieee rnd (maxFinite p E)) = fin (rnd (1 / rnd (hi - lo))) := by
    show (if rnd (hi - lo) = 0 then _ else round (1 / rnd (hi - lo)) : Ieee rnd (maxFinite p E)) = _
    rw [if_neg hd0.ne', Ieee.round_eq hinv]
  rw [e, mul_fin, Ieee.round_eq (by rw [abs_of_nonneg hu.1]; linarith)]

end Ieee

/-- every coordinate is shifted and scaled on its own -/
theorem Spline.fitIntoUnitCube_ieee {s : Spline (Point (Ieee rnd omega) n)} (hs : s.WF) :
    ∃ F : Point (Ieee rnd omega) n → Point (Ieee rnd omega) n, fitIntoUnitCube (Ieee rnd omega) s = .ok { s with cps := s.cps.map F } ∧
      ∀ j lo hi, Range s j lo hi → ∀ x, (F x).val j = (fin lo * -1 + x.val j) * (1 / (fin hi - fin lo)) := by
  have hlen : 0 < s.cps.length := by rw [hs.cps_len]; exact size_pos _
  obtain ⟨mx, a1, a2⟩ := maximumCorner_nan hs (List.getElem?_eq_getElem hlen)
  obtain ⟨mn, b1, b2⟩ := minimumCorner_nan hs (List.getElem?_eq_getElem hlen)
  unfold fitIntoUnitCube transposeAndScale
  rw [a1, b1]
  refine ⟨_, mapCps_ok hs _, fun j lo hi hR x => ?_⟩
  obtain ⟨⟨xl, hxl, el⟩, ⟨xh, hxh, eh⟩, hall⟩ := hR
  have h0 : s.cps[0].val j ≠ nan := by
    obtain ⟨v, e, _⟩ := hall _ (List.getElem_mem hlen)
    rw [e]; exact fun h => by cases h
  have emx : mx.val j = fin hi := by
    obtain ⟨x, hx, e⟩ := (a2 j).1
    obtain ⟨v, ev, _, hv⟩ := hall x hx
    rw [← e, ev]
    rcases lt_or_eq_of_le hv with hlt | rfl
    · have := ((a2 j).2.2 h0 (mx.val j)).mpr ⟨xh, hxh, by rw [← e, ev, eh]; exact hlt⟩
      exact (lt_irrefl' _ this).elim
    · rfl
  have emn : mn.val j = fin lo := by
    obtain ⟨x, hx, e⟩ := (b2 j).1
    obtain ⟨v, ev, hv, _⟩ := hall x hx
    rw [← e, ev]
    rcases lt_or_eq_of_le hv with hlt | rfl
    · have := ((b2 j).2.2 h0 (mn.val j)).mpr ⟨xl, hxl, by rw [← e, ev, el]; exact hlt⟩
      exact (lt_irrefl' _ this).elim
    · rfl
  show (mn.val j * -1 + x.val j) * (1 / (mx.val j - mn.val j)) = _
  rw [emx, emn]

end Bezman
