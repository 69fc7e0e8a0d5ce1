import Verif.Proofs.FitIeee
import Verif.Props.NonFinite

/-! # Properties: fitting into the unit cube with overflow, infinities and NaN -/

namespace Bezman.Props
open Spec Ieee
variable {p : ℕ} {q E : ℤ} {rnd : ℝ → ℝ} {omega : ℝ} {n : ℕ}

/-! ## C99 -/

/-- C99, the full statement `C99_Statement`: `FitIntoUnitCube()` of a spline with finite control points returns a spline all of whose
coordinates are numbers between 0 and 1.  It is false of the code: `C99_constant_fails`, `C99_tiny_fails`, `C99_huge_fails`. -/
def C99_Statement (p : ℕ) (q : ℤ) (rnd : ℝ → ℝ) (omega : ℝ) : Prop :=
  ∀ (n : ℕ) (s : Spline (Point (Ieee rnd omega) n)), s.WF → (∀ x ∈ s.cps, ∀ j, (x.val j).Finite p q) →
    ∃ r, Spline.fitIntoUnitCube (Ieee rnd omega) s = .ok r ∧ ∀ x ∈ r.cps, ∀ j, (x.val j).Unit p q

/-- C99. If the extent of the spline in each coordinate is 0 or between `2^(1-E)` and `2^(1-q-p)` (for `double`, between `2^-1023` and
`2^1022`), then the result always passes `FitsIntoUnitCube()`.  In the coordinates with a positive extent there is no overflow: all
values are numbers between 0 and 1, the smallest is 0 and the largest is at least `1 - 2^-p`.  In the coordinates without extent all
values are NaN.  Missing in `C99_Statement`: the last case, and extents outside of the range. -/
theorem C99_fit_partial (h : Nearest p q rnd) (hp : 0 < p) (hq : q ≤ -p) (hE : (p : ℤ) ≤ E) (hqE : q + E ≤ 1) (hqE' : 2 ≤ q + p + E)
    (s : Spline (Point (Ieee rnd (maxFinite p E)) n)) (hs : s.WF) (hfin : ∀ x ∈ s.cps, ∀ j, (x.val j).Finite p q) (lo hi : Fin n → ℝ)
    (hR : ∀ j, Range s j (lo j) (hi j)) (hext : ∀ j, lo j = hi j ∨ 2 ^ (1 - E) ≤ hi j - lo j ∧ hi j - lo j ≤ 2 ^ (1 - q - p)) :
    ∃ r, Spline.fitIntoUnitCube (Ieee rnd (maxFinite p E)) s = .ok r ∧ HasShape s.degrees r ∧
      Spline.fitsIntoUnitCube (Ieee rnd (maxFinite p E)) r = .ok true ∧
      ∀ j, (lo j < hi j → (∀ x ∈ r.cps, (x.val j).Unit p q) ∧ ∃ v, 1 - 2 ^ (-(p : ℤ)) ≤ v ∧ Range r j 0 v) ∧
        (lo j = hi j → ∀ x ∈ r.cps, x.val j = nan) := by
  obtain ⟨F, h1, h2⟩ := Spline.fitIntoUnitCube_ieee hs
  have isf : ∀ {x}, x ∈ s.cps → ∀ {j v}, x.val j = fin v → IsFloat p q v ∧ |v| ≤ maxFinite p E := by
    intro x hx j v e
    obtain ⟨v', e', hv⟩ := hfin x hx j
    obtain rfl : v = v' := by rw [e] at e'; exact Ieee.fin.inj e'
    exact hv
  have key : ∀ j, (lo j < hi j → (∀ x ∈ s.cps, ((F x).val j).Unit p q) ∧ ∃ v, 1 - 2 ^ (-(p : ℤ)) ≤ v ∧
      (∃ x ∈ s.cps, (F x).val j = fin 0) ∧ (∃ x ∈ s.cps, (F x).val j = fin v) ∧
        ∀ x ∈ s.cps, ∃ w, (F x).val j = fin w ∧ 0 ≤ w ∧ w ≤ v) ∧ (lo j = hi j → ∀ x ∈ s.cps, (F x).val j = nan) := by
    intro j
    obtain ⟨⟨xl, hxl, el⟩, ⟨xh, hxh, eh⟩, hall⟩ := hR j
    have fl := isf hxl el
    have fh := isf hxh eh
    constructor
    · intro hlt
      obtain ⟨hx1, hx2⟩ := (hext j).resolve_left hlt.ne
      have hv := fun {x} hx hx' => fit_proper (x := x) h hp hq hE hqE hqE' fl.1 fl.2 fh.1 hx1 hx2 hx hx'
      obtain ⟨k1, k2, k3, k4⟩ := h.fit hp hq fl.1 fh.1 hlt hx2
      have hFx : ∀ x ∈ s.cps, ∃ v, lo j ≤ v ∧ v ≤ hi j ∧
          (F x).val j = fin (rnd (rnd (-lo j + v) * rnd (1 / rnd (hi j - lo j)))) := by
        intro x hx
        obtain ⟨v, e, a, b⟩ := hall x hx
        exact ⟨v, a, b, by rw [h2 j _ _ (hR j), e, hv a b]⟩
      refine ⟨fun x hx => ?_, _, k3, ⟨xl, hxl, ?_⟩, ⟨xh, hxh, ?_⟩, fun x hx => ?_⟩
      · obtain ⟨v, a, b, e⟩ := hFx x hx
        exact ⟨_, e, h.isFloat _, (k1 v a b).1, (k1 v a b).2⟩
      · rw [h2 j _ _ (hR j), el, hv le_rfl hlt.le, k2]
      · rw [h2 j _ _ (hR j), eh, hv hlt.le le_rfl]
      · obtain ⟨v, a, b, e⟩ := hFx x hx
        exact ⟨_, e, (k1 v a b).1, h.mono (mul_le_mul_of_nonneg_right (h.mono (by linarith)) k4)⟩
    · intro heq x hx
      obtain ⟨v, e, a, b⟩ := hall x hx
      obtain rfl : v = lo j := le_antisymm (heq ▸ b) a
      rw [h2 j _ _ (hR j), e, ← heq]
      exact fit_constant h (le_trans (abs_nonneg _) fl.2) fl.1 fl.2
  have hwf : ({ s with cps := s.cps.map F } : Spline _).WF := hs.map F
  refine ⟨_, h1, ⟨hwf, rfl⟩, ?_, fun j => ⟨fun hlt => ⟨?_, ?_⟩, ?_⟩⟩
  · have hlen : 0 < s.cps.length := by rw [hs.cps_len]; exact size_pos _
    obtain ⟨b, f1, f2⟩ := C98_fits_partial _ hwf (F s.cps[0]) (by simp [List.getElem?_eq_getElem hlen])
    rw [f1, f2.mpr]
    intro j
    rcases (hext j).imp_right (fun h => h.1) with heq | hlt
    · exact .inl ((key j).2 heq _ (List.getElem_mem hlen))
    · right
      have hlt : lo j < hi j := by have : (0 : ℝ) < 2 ^ (1 - E) := by positivity
                                   linarith
      intro x hx
      obtain ⟨y, hy, rfl⟩ := List.mem_map.mp hx
      obtain ⟨v, e, _, v0, v1⟩ := ((key j).1 hlt).1 y hy
      rw [e]
      exact ⟨not_lt.mpr v0, not_lt.mpr v1⟩
  · intro x hx
    obtain ⟨y, hy, rfl⟩ := List.mem_map.mp hx
    exact ((key j).1 hlt).1 y hy
  · obtain ⟨v, k1, ⟨xl, hxl, el⟩, ⟨xh, hxh, eh⟩, hall⟩ := ((key j).1 hlt).2
    refine ⟨v, k1, ⟨_, List.mem_map_of_mem hxl, el⟩, ⟨_, List.mem_map_of_mem hxh, eh⟩, fun x hx => ?_⟩
    obtain ⟨y, hy, rfl⟩ := List.mem_map.mp hx
    exact hall y hy
  · intro heq x hx
    obtain ⟨y, hy, rfl⟩ := List.mem_map.mp hx
    exact (key j).2 heq y hy

/-- C99. So `Compose` with the fitted spline as inner spline returns, also if it has NaN coordinates. -/
theorem C99_compose_partial (h : Nearest p q rnd) (hp : 0 < p) (hq : q ≤ -p) (hE : (p : ℤ) ≤ E) (hqE : q + E ≤ 1) (hqE' : 2 ≤ q + p + E)
    (s : Spline (Point (Ieee rnd (maxFinite p E)) n)) (hs : s.WF) (hfin : ∀ x ∈ s.cps, ∀ j, (x.val j).Finite p q) (lo hi : Fin n → ℝ)
    (hR : ∀ j, Range s j (lo j) (hi j)) (hext : ∀ j, lo j = hi j ∨ 2 ^ (1 - E) ≤ hi j - lo j ∧ hi j - lo j ≤ 2 ^ (1 - q - p))
    (cfg : Cfg) (hmax : cfg.maxBinom ≤ 68) {m : ℕ} (a : Spline (Point (Ieee rnd (maxFinite p E)) m)) (da : List ℕ) (ha : HasShape da a)
    (hdim : da.length = n) (hdeg : ∀ p ∈ da, p < cfg.maxBinom) (hdeg' : ∀ q ∈ s.degrees, da.sum * q < cfg.maxBinom) :
    ∃ r, Spline.fitIntoUnitCube (Ieee rnd (maxFinite p E)) s = .ok r ∧
      Returns (s.degrees.map (fun q => da.sum * q)) (Spline.compose (Ieee rnd (maxFinite p E)) cfg a r) := by
  obtain ⟨r, h1, h2, h3, _⟩ := C99_fit_partial h hp hq hE hqE hqE' s hs hfin lo hi hR hext
  refine ⟨r, h1, ?_⟩
  rcases C80_compose (K := Ieee rnd (maxFinite p E)) cfg hmax a r da s.degrees ha h2 hdim hdeg hdeg' with ⟨h4, _⟩ | ⟨_, h4, _⟩
  · rw [h3] at h4; cases h4
  · exact h4

/-- a line with one coordinate -/
noncomputable def ieeeLine (rnd : ℝ → ℝ) (omega : ℝ) (a b : ℝ) : Spline (Point (Ieee rnd omega) 1) :=
  Ex.line ⟨fun _ => fin a⟩ ⟨fun _ => fin b⟩

theorem ieeeLine_range {a b : ℝ} (hab : a ≤ b) (j : Fin 1) : Range (ieeeLine rnd omega a b) j a b := by
  refine ⟨⟨_, List.mem_cons_self .., rfl⟩, ⟨_, List.mem_cons_of_mem _ (List.mem_cons_self ..), rfl⟩, fun x hx => ?_⟩
  simp only [ieeeLine, Ex.line, List.mem_cons, List.not_mem_nil, or_false] at hx
  rcases hx with rfl | rfl
  · exact ⟨a, rfl, le_rfl, hab⟩
  · exact ⟨b, rfl, hab, le_rfl⟩

theorem ieeeLine_finite {a b : ℝ} (ha : IsFloat p q a ∧ |a| ≤ omega) (hb : IsFloat p q b ∧ |b| ≤ omega) :
    ∀ x ∈ (ieeeLine rnd omega a b).cps, ∀ j, (x.val j).Finite p q := by
  intro x hx j
  simp only [ieeeLine, Ex.line, List.mem_cons, List.not_mem_nil, or_false] at hx
  rcases hx with rfl | rfl
  · exact ⟨a, rfl, ha⟩
  · exact ⟨b, rfl, hb⟩

/-- a line whose fitted version has a coordinate that is no number contradicts the full statement -/
theorem not_C99_of_line {a b : ℝ} (ha : IsFloat p q a ∧ |a| ≤ omega) (hb : IsFloat p q b ∧ |b| ≤ omega)
    {r : Spline (Point (Ieee rnd omega) 1)} (h : Spline.fitIntoUnitCube (Ieee rnd omega) (ieeeLine rnd omega a b) = .ok r)
    {x : Point (Ieee rnd omega) 1} (hx : x ∈ r.cps) {j : Fin 1} (hj : x.val j = nan) : ¬ C99_Statement p q rnd omega := by
  intro hst
  obtain ⟨r', h1, h2⟩ := hst 1 _ (Ex.line_wf ..) (ieeeLine_finite ha hb)
  obtain rfl : r = r' := by exact Except.ok.inj (h.symm.trans h1)
  obtain ⟨v, e, _⟩ := h2 x hx j
  rw [hj] at e
  cases e

/-- C99 is false of the code: every spline whose control points all agree in a (finite) coordinate gets NaN in this coordinate of all
control points. -/
theorem C99_constant_fails (h : Nearest p q rnd) (ho : 0 ≤ omega) :
    ¬ C99_Statement p q rnd omega ∧ ∀ (n : ℕ) (s : Spline (Point (Ieee rnd omega) n)), s.WF →
      ∃ r, Spline.fitIntoUnitCube (Ieee rnd omega) s = .ok r ∧ HasShape s.degrees r ∧
        ∀ j v, IsFloat p q v → |v| ≤ omega → (∀ x ∈ s.cps, x.val j = fin v) → ∀ x ∈ r.cps, x.val j = nan := by
  have key : ∀ (n : ℕ) (s : Spline (Point (Ieee rnd omega) n)), s.WF →
      ∃ r, Spline.fitIntoUnitCube (Ieee rnd omega) s = .ok r ∧ HasShape s.degrees r ∧
        ∀ j v, IsFloat p q v → |v| ≤ omega → (∀ x ∈ s.cps, x.val j = fin v) → ∀ x ∈ r.cps, x.val j = nan := by
    intro n s hs
    obtain ⟨F, h1, h2⟩ := Spline.fitIntoUnitCube_ieee hs
    have hwf : ({ s with cps := s.cps.map F } : Spline _).WF := hs.map F
    refine ⟨_, h1, ⟨hwf, rfl⟩, fun j v hv hv' hall x hx => ?_⟩
    obtain ⟨y, hy, rfl⟩ := List.mem_map.mp hx
    rw [h2 j v v ⟨⟨y, hy, hall y hy⟩, ⟨y, hy, hall y hy⟩, fun x hx => ⟨v, hall x hx, le_rfl, le_rfl⟩⟩, hall y hy]
    exact fit_constant h ho hv hv'
  refine ⟨?_, key⟩
  have f0 : IsFloat p q (0 : ℝ) := by have := h.isFloat 0; rwa [h.zero] at this
  have f0' : IsFloat p q (0 : ℝ) ∧ |(0 : ℝ)| ≤ omega := ⟨f0, by rwa [abs_zero]⟩
  obtain ⟨r, h1, ⟨h2, h2'⟩, h3⟩ := key 1 (ieeeLine rnd omega 0 0) (Ex.line_wf ..)
  have hlen : 0 < r.cps.length := by rw [h2.cps_len]; exact size_pos _
  refine not_C99_of_line f0' f0' h1 (List.getElem_mem hlen) (j := 0) (h3 0 0 f0 f0'.2 (fun x hx => ?_) _ (List.getElem_mem hlen))
  simp only [ieeeLine, Ex.line, List.mem_cons, List.not_mem_nil, or_false, or_self] at hx
  rw [hx]

/-- C99 is false of the code for tiny extents: the line from 0 to the smallest positive number becomes a line from NaN to infinity if the
reciprocal of this number overflows (as in `double`), and the result passes `FitsIntoUnitCube()`. -/
theorem C99_tiny_fails (h : Nearest p q rnd) (hp : 0 < p) (hq : q ≤ -p) (hE : (p : ℤ) ≤ E) (hqE : E ≤ -q) :
    ¬ C99_Statement p q rnd (maxFinite p E) ∧
      Spline.fitIntoUnitCube (Ieee rnd (maxFinite p E)) (ieeeLine rnd (maxFinite p E) 0 (2 ^ q)) =
        .ok (Ex.line ⟨fun _ => nan⟩ ⟨fun _ => inf false⟩) ∧
      Spline.fitsIntoUnitCube (Ieee rnd (maxFinite p E)) (Ex.line ⟨fun _ => nan⟩ ⟨fun _ => inf false⟩ : Spline (Point (Ieee rnd (maxFinite p E)) 1)) =
        .ok true := by
  have hO := one_le_maxFinite hp hE
  have hO0 : 0 < maxFinite p E := lt_of_lt_of_le (by positivity) hO
  have hOlt : maxFinite p E < 2 ^ E := by
    have h1 : (0 : ℝ) < 2 ^ (-(p : ℤ)) := by positivity
    have h2 : (0 : ℝ) < 2 ^ E := by positivity
    unfold maxFinite
    nlinarith
  have f0 : IsFloat p q (0 : ℝ) ∧ |(0 : ℝ)| ≤ maxFinite p E := ⟨by have := h.isFloat 0; rwa [h.zero] at this, by rw [abs_zero]; exact hO0.le⟩
  have f1 : IsFloat p q ((2 : ℝ) ^ q) := IsFloat.two_zpow hp le_rfl
  have f1' : |(2 : ℝ) ^ q| ≤ maxFinite p E := by
    rw [abs_of_pos (by positivity)]
    exact le_trans (zpow_le_zpow_right₀ (by norm_num) (by omega)) hO
  obtain ⟨F, h1, h2⟩ := Spline.fitIntoUnitCube_ieee (s := ieeeLine rnd (maxFinite p E) 0 (2 ^ q)) (Ex.line_wf ..)
  have hF := fun x => h2 0 _ _ (ieeeLine_range (by positivity) 0) x
  have e0 : (fin 0 * -1 : Ieee rnd (maxFinite p E)) = fin 0 := by rw [neg_one_mul_fin h f0.1 f0.2, neg_zero]
  have hsum : ∀ v : ℝ, IsFloat p q v → |v| ≤ maxFinite p E → (round v : Ieee rnd (maxFinite p E)) = fin v := by
    intro v a b
    rw [Ieee.round_eq (by rw [h.exact a]; exact b), h.exact a]
  have e2 : (1 / fin (2 ^ q) : Ieee rnd (maxFinite p E)) = inf false := by
    show (if (2 : ℝ) ^ q = 0 then _ else round (1 / 2 ^ q) : Ieee rnd (maxFinite p E)) = _
    rw [if_neg (by positivity), one_div, ← zpow_neg]
    unfold Ieee.round
    rw [if_neg, decide_eq_false (not_lt.mpr (by positivity))]
    rw [h.exact (IsFloat.two_zpow hp (by omega)), abs_of_pos (by positivity), not_le]
    exact lt_of_lt_of_le hOlt (zpow_le_zpow_right₀ (by norm_num) hqE)
  have g0 : F ⟨fun _ => fin 0⟩ = ⟨fun _ => nan⟩ := by
    ext j
    obtain rfl : j = 0 := Subsingleton.elim _ _
    rw [hF, e0, sub_fin, neg_zero, add_zero, hsum _ f1 f1', e2]
    show (fin 0 + fin 0) * _ = _
    rw [add_fin, add_zero, hsum _ f0.1 f0.2]
    show (if (0 : ℝ) = 0 then nan else _ : Ieee rnd (maxFinite p E)) = _
    rw [if_pos rfl]
  have g1 : F ⟨fun _ => fin (2 ^ q)⟩ = ⟨fun _ => inf false⟩ := by
    ext j
    obtain rfl : j = 0 := Subsingleton.elim _ _
    rw [hF, e0, sub_fin, neg_zero, add_zero, hsum _ f1 f1', e2]
    show (fin 0 + fin (2 ^ q)) * _ = _
    rw [add_fin, zero_add, hsum _ f1 f1']
    show (if (2 : ℝ) ^ q = 0 then nan else inf (Bool.xor (decide ((2 : ℝ) ^ q < 0)) false) : Ieee rnd (maxFinite p E)) = _
    rw [if_neg (by positivity), decide_eq_false (not_lt.mpr (by positivity))]
    rfl
  have h3 : Spline.fitIntoUnitCube (Ieee rnd (maxFinite p E)) (ieeeLine rnd (maxFinite p E) 0 (2 ^ q)) =
        .ok (Ex.line ⟨fun _ => nan⟩ ⟨fun _ => inf false⟩) := by
    rw [h1, ← g0, ← g1]; rfl
  refine ⟨not_C99_of_line f0 ⟨f1, f1'⟩ h3 (List.mem_cons_self ..) (j := 0) rfl, h3, ?_⟩
  obtain ⟨b, e, hb⟩ := C98_fits_partial (Ex.line ⟨fun _ => nan⟩ ⟨fun _ => inf false⟩ : Spline (Point (Ieee rnd (maxFinite p E)) 1))
    (Ex.line_wf ..) ⟨fun _ => nan⟩ rfl
  rw [e, hb.mpr fun j => .inl rfl]

/-- C99 is false of the code for huge extents: the line from the smallest to the largest finite number becomes a line from 0 to NaN, and
the result passes `FitsIntoUnitCube()`. -/
theorem C99_huge_fails (h : Nearest p q rnd) (hp : 0 < p) (hq : q ≤ 0) (hE : (p : ℤ) ≤ E) :
    ¬ C99_Statement p q rnd (maxFinite p E) ∧
      Spline.fitIntoUnitCube (Ieee rnd (maxFinite p E)) (ieeeLine rnd (maxFinite p E) (-maxFinite p E) (maxFinite p E)) =
        .ok (Ex.line ⟨fun _ => fin 0⟩ ⟨fun _ => nan⟩) ∧
      Spline.fitsIntoUnitCube (Ieee rnd (maxFinite p E)) (Ex.line ⟨fun _ => fin 0⟩ ⟨fun _ => nan⟩ : Spline (Point (Ieee rnd (maxFinite p E)) 1)) =
        .ok true := by
  have hO := one_le_maxFinite hp hE
  have hO0 : 0 < maxFinite p E := lt_of_lt_of_le (by positivity) hO
  have fO : IsFloat p q (maxFinite p E) := Nearest.maxFinite_isFloat hE hq
  have fO' : |maxFinite p E| ≤ maxFinite p E := by rw [abs_of_pos hO0]
  have f2 : IsFloat p q (maxFinite p E + maxFinite p E) := by
    have := Nearest.maxFinite_isFloat (p := p) (q := q) (E := E + 1) (by omega) hq
    rw [zpow_add_one₀ two_ne_zero] at this
    unfold maxFinite
    convert this using 1
    ring
  have fm : IsFloat p q (-maxFinite p E) ∧ |(-maxFinite p E)| ≤ maxFinite p E := ⟨fO.neg, by rw [abs_neg]; exact fO'⟩
  have h2O : (round (maxFinite p E + maxFinite p E) : Ieee rnd (maxFinite p E)) = inf false := by
    unfold Ieee.round
    rw [if_neg, decide_eq_false (not_lt.mpr (by positivity))]
    rw [h.exact f2, abs_of_pos (by positivity)]
    linarith
  have h0 : (round 0 : Ieee rnd (maxFinite p E)) = fin 0 := by
    rw [Ieee.round_eq (by rw [h.zero, abs_zero]; exact hO0.le), h.zero]
  obtain ⟨F, h1, h2⟩ := Spline.fitIntoUnitCube_ieee (s := ieeeLine rnd (maxFinite p E) (-maxFinite p E) (maxFinite p E)) (Ex.line_wf ..)
  have hF : ∀ x : Point (Ieee rnd (maxFinite p E)) 1, (F x).val 0 = (fin (maxFinite p E) + x.val 0) * fin 0 := by
    intro x
    rw [h2 0 _ _ (ieeeLine_range (by linarith) 0) x, neg_one_mul_fin h fm.1 fm.2, neg_neg, sub_fin, neg_neg, h2O]
    rfl
  have g0 : F ⟨fun _ => fin (-maxFinite p E)⟩ = ⟨fun _ => fin 0⟩ := by
    ext j
    obtain rfl : j = 0 := Subsingleton.elim _ _
    rw [hF]
    show (fin (maxFinite p E) + fin (-maxFinite p E)) * _ = _
    rw [add_fin, add_neg_cancel, h0, mul_fin, zero_mul, h0]
  have g1 : F ⟨fun _ => fin (maxFinite p E)⟩ = ⟨fun _ => nan⟩ := by
    ext j
    obtain rfl : j = 0 := Subsingleton.elim _ _
    rw [hF]
    show (fin (maxFinite p E) + fin (maxFinite p E)) * _ = _
    rw [add_fin, h2O]
    show (if (0 : ℝ) = 0 then nan else _ : Ieee rnd (maxFinite p E)) = _
    rw [if_pos rfl]
  have h3 : Spline.fitIntoUnitCube (Ieee rnd (maxFinite p E)) (ieeeLine rnd (maxFinite p E) (-maxFinite p E) (maxFinite p E)) =
        .ok (Ex.line ⟨fun _ => fin 0⟩ ⟨fun _ => nan⟩) := by
    rw [h1, ← g0, ← g1]; rfl
  refine ⟨not_C99_of_line fm ⟨fO, fO'⟩ h3 (x := ⟨fun _ => nan⟩) (by simp [Ex.line]) (j := 0) rfl, h3, ?_⟩
  obtain ⟨b, e, hb⟩ := C98_fits_partial (Ex.line ⟨fun _ => fin 0⟩ ⟨fun _ => nan⟩ : Spline (Point (Ieee rnd (maxFinite p E)) 1))
    (Ex.line_wf ..) ⟨fun _ => fin 0⟩ rfl
  rw [e, hb.mpr fun j => .inr fun x hx => ?_]
  simp only [Ex.line, List.mem_cons, List.not_mem_nil, or_false] at hx
  rcases hx with rfl | rfl
  · exact ⟨lt_irrefl (0 : ℝ), not_lt.mpr (zero_le_one (α := ℝ))⟩
  · exact ⟨fun h => (ne_nan_of_lt h).1 rfl, fun h => (ne_nan_of_lt h).2 rfl⟩

/-! ### concrete cases -/

/-- a line with an extent in the first coordinate and none in the second, in `double` -/
noncomputable def exFlat : Spline (Point (Ieee (rndNear 53 (-1074)) (maxFinite 53 1024)) 2) :=
  Ex.line ⟨![fin 0, fin (1 / 4)]⟩ ⟨![fin (1 / 4), fin (1 / 4)]⟩

theorem exFlat_finite : ∀ x ∈ exFlat.cps, ∀ j, (x.val j).Finite 53 (-1074) := by
  have h0 : (fin 0 : Ieee (rndNear 53 (-1074)) (maxFinite 53 1024)).Finite 53 (-1074) :=
    ⟨0, rfl, ⟨0, 0, by norm_num, by norm_num, by norm_num⟩, by
      rw [abs_zero]; exact le_trans (by positivity) (one_le_maxFinite (by norm_num) (by norm_num))⟩
  intro x hx j
  simp only [exFlat, Ex.line, List.mem_cons, List.not_mem_nil, or_false] at hx
  rcases hx with rfl | rfl <;> fin_cases j
  · exact h0
  all_goals exact quarter_finite

theorem exFlat_range : ∀ j, Range exFlat j (![0, 1 / 4] j) (![1 / 4, 1 / 4] j) := by
  intro j
  refine ⟨⟨⟨![fin 0, fin (1 / 4)]⟩, by simp [exFlat, Ex.line], ?_⟩, ⟨⟨![fin (1 / 4), fin (1 / 4)]⟩, by simp [exFlat, Ex.line], ?_⟩, ?_⟩
  · fin_cases j <;> rfl
  · fin_cases j <;> rfl
  · intro x hx
    simp only [exFlat, Ex.line, List.mem_cons, List.not_mem_nil, or_false] at hx
    rcases hx with rfl | rfl <;> fin_cases j
    · exact ⟨0, rfl, le_refl (0 : ℝ), show (0 : ℝ) ≤ 1 / 4 by norm_num⟩
    · exact ⟨1 / 4, rfl, le_refl (1 / 4 : ℝ), le_refl (1 / 4 : ℝ)⟩
    · exact ⟨1 / 4, rfl, show (0 : ℝ) ≤ 1 / 4 by norm_num, le_refl (1 / 4 : ℝ)⟩
    · exact ⟨1 / 4, rfl, le_refl (1 / 4 : ℝ), le_refl (1 / 4 : ℝ)⟩

theorem exFlat_extent : ∀ j : Fin 2, (![0, 1 / 4] j : ℝ) = ![1 / 4, 1 / 4] j ∨
    (2 : ℝ) ^ (1 - 1024 : ℤ) ≤ ![1 / 4, 1 / 4] j - ![0, 1 / 4] j ∧
      (![1 / 4, 1 / 4] j - ![0, 1 / 4] j : ℝ) ≤ 2 ^ (1 - (-1074) - (53 : ℕ) : ℤ) := by
  intro j
  fin_cases j
  · right
    constructor
    · show (2 : ℝ) ^ (1 - 1024 : ℤ) ≤ 1 / 4 - 0
      rw [show (1 / 4 - 0 : ℝ) = 2 ^ (-2 : ℤ) by norm_num]
      exact zpow_le_zpow_right₀ (by norm_num) (by norm_num)
    · show (1 / 4 - 0 : ℝ) ≤ 2 ^ (1 - (-1074) - (53 : ℕ) : ℤ)
      rw [show (1 / 4 - 0 : ℝ) = 2 ^ (-2 : ℤ) by norm_num]
      exact zpow_le_zpow_right₀ (by norm_num) (by norm_num)
  · exact .inl rfl

example := C99_fit_partial double_nearest (by norm_num) (by norm_num) (by norm_num) (by norm_num) (by norm_num) exFlat (Ex.line_wf ..)
  exFlat_finite ![0, 1 / 4] ![1 / 4, 1 / 4] exFlat_range exFlat_extent
example := fun (a : Spline (Point (Ieee (rndNear 53 (-1074)) (maxFinite 53 1024)) 3)) (ha : HasShape [1, 2] a) =>
  C99_compose_partial double_nearest (by norm_num) (by norm_num) (by norm_num) (by norm_num) (by norm_num) exFlat (Ex.line_wf ..)
    exFlat_finite ![0, 1 / 4] ![1 / 4, 1 / 4] exFlat_range exFlat_extent Ex.cfg Ex.cfg_ok a [1, 2] ha rfl (by decide)
    (show ∀ q ∈ [1], 3 * q < 30 by decide)

example := C99_constant_fails double_nearest (omega := maxFinite 53 1024) (le_trans (by positivity) (one_le_maxFinite (by norm_num) (by norm_num)))
example := C99_tiny_fails (E := 1024) double_nearest (by norm_num) (by norm_num) (by norm_num) (by norm_num)
example := C99_huge_fails (E := 1024) double_nearest (by norm_num) (by norm_num) (by norm_num)

end Bezman.Props
