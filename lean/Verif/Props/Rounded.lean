import Verif.Proofs.RoundedBox
import Verif.Props.AnyArith

/-! # Properties: unit cubes in floating-point arithmetic

The control points are floating-point numbers with `p` digits and smallest exponent `q`, each operation rounds to a nearest
number; `double` is `p = 53`, `q = -1074`. -/

namespace Bezman.Props
open Spec
variable {p : ℕ} {q : ℤ} {rnd : ℝ → ℝ} {n : ℕ}

/-! ## C94 -/

/-- C94. `FitIntoUnitCube()` of a spline of points whose extent is positive and at most `2^(1-q-p)` (for `double`, `2^1022`) in every
coordinate: in spite of the rounding errors the result passes `FitsIntoUnitCube()`; its box starts at 0 exactly and ends
in `[1 - 2^-p, 1]`; the order of the control points in each coordinate is kept. -/
theorem C94_fit (h : Nearest p q rnd) (hp : 0 < p) (hq : q ≤ -p) (s : Spline (Point (Rd rnd) n)) (hs : s.WF)
    (hfl : ∀ x ∈ s.cps, ∀ j, IsFloat p q (x.val j).val)
    (hext : ∀ j, ∃ x ∈ s.cps, ∃ y ∈ s.cps, (x.val j).val < (y.val j).val)
    (hr : ∀ j, ∀ x ∈ s.cps, ∀ y ∈ s.cps, (y.val j).val - (x.val j).val ≤ 2 ^ (1 - q - p)) :
    ∃ r, Spline.fitIntoUnitCube (Rd rnd) s = .ok r ∧ HasShape s.degrees r ∧ Spline.fitsIntoUnitCube (Rd rnd) r = .ok true ∧
      (∀ j, (∃ x ∈ r.cps, (x.val j).val = 0) ∧ ∃ x ∈ r.cps, 1 - 2 ^ (-(p : ℤ)) ≤ (x.val j).val) ∧
      ∃ F : Point (Rd rnd) n → Point (Rd rnd) n, r.cps = s.cps.map F ∧
        ∀ x y j, (x.val j).val ≤ (y.val j).val → ((F x).val j).val ≤ ((F y).val j).val :=
  Spline.fitIntoUnitCube_rounded h hp hq (V := Point (Rd rnd) n) (fun _ _ => rfl) (fun _ _ _ => rfl) (fun x j hx => by
    show rnd ((x.val j).val * -1) = -(x.val j).val
    rw [mul_neg_one]; exact h.exact hx.neg) hs hfl hext hr

/-- C94. The same for scalar splines. -/
theorem C94_fit_scalar (h : Nearest p q rnd) (hp : 0 < p) (hq : q ≤ -p) (s : Spline (Rd rnd)) (hs : s.WF)
    (hfl : ∀ x ∈ s.cps, IsFloat p q x.val) (hext : ∃ x ∈ s.cps, ∃ y ∈ s.cps, x.val < y.val)
    (hr : ∀ x ∈ s.cps, ∀ y ∈ s.cps, y.val - x.val ≤ 2 ^ (1 - q - p)) :
    ∃ r, Spline.fitIntoUnitCube (Rd rnd) s = .ok r ∧ HasShape s.degrees r ∧ Spline.fitsIntoUnitCube (Rd rnd) r = .ok true ∧
      (∃ x ∈ r.cps, x.val = 0) ∧ (∃ x ∈ r.cps, 1 - 2 ^ (-(p : ℤ)) ≤ x.val) ∧
      ∃ F : Rd rnd → Rd rnd, r.cps = s.cps.map F ∧ ∀ x y, x.val ≤ y.val → (F x).val ≤ (F y).val := by
  obtain ⟨r, h1, h2, h3, h4, F, h5, h6⟩ := Spline.fitIntoUnitCube_rounded h hp hq (V := Rd rnd)
    (fun f j => congrArg f (Subsingleton.elim (α := Fin 1) _ _)) (fun _ _ _ => rfl) (fun _ _ _ => rfl) hs
    (fun x hx _ => hfl x hx) (fun _ => hext) (fun _ => hr)
  exact ⟨r, h1, h2, h3, (h4 (0 : Fin 1)).1, (h4 (0 : Fin 1)).2, F, h5, fun x y => h6 x y (0 : Fin 1)⟩

/-- C94. So `Compose` and `ComposeSensitivity` with a spline that was fitted into the unit cube return. -/
theorem C94_compose (h : Nearest p q rnd) (hp : 0 < p) (hq : q ≤ -p) (s : Spline (Point (Rd rnd) n)) (hs : s.WF)
    (hfl : ∀ x ∈ s.cps, ∀ j, IsFloat p q (x.val j).val)
    (hext : ∀ j, ∃ x ∈ s.cps, ∃ y ∈ s.cps, (x.val j).val < (y.val j).val)
    (hr : ∀ j, ∀ x ∈ s.cps, ∀ y ∈ s.cps, (y.val j).val - (x.val j).val ≤ 2 ^ (1 - q - p))
    (cfg : Cfg) (hmax : cfg.maxBinom ≤ 68) {m : ℕ} (a : Spline (Point (Rd rnd) m)) (da : List ℕ) (ha : HasShape da a)
    (hdim : da.length = n) (hdeg : ∀ p ∈ da, p < cfg.maxBinom) (hdeg' : ∀ q ∈ s.degrees, da.sum * q < cfg.maxBinom) :
    ∃ r, Spline.fitIntoUnitCube (Rd rnd) s = .ok r ∧
      Returns (s.degrees.map (fun q => da.sum * q)) (Spline.compose (Rd rnd) cfg a r) ∧
      ∃ l, Spline.composeSensitivity (Rd rnd) cfg a r = .ok l ∧ l.length = a.ncp := by
  obtain ⟨r, h1, h2, h3, _⟩ := C94_fit h hp hq s hs hfl hext hr
  refine ⟨r, h1, ?_⟩
  rcases C80_compose (K := Rd rnd) cfg hmax a r da s.degrees ha h2 hdim hdeg hdeg' with ⟨h4, _⟩ | ⟨_, h4, l, h5, h6, _⟩
  · rw [h3] at h4; cases h4
  · exact ⟨h4, l, h5, h6⟩

/-- C94. `FitsIntoUnitCube()` is exact: it only compares. -/
theorem C94_fits_iff (s : Spline (Point (Rd rnd) n)) (hs : s.WF) :
    ∃ b : Bool, Spline.fitsIntoUnitCube (Rd rnd) s = .ok b ∧
      (b = true ↔ ∀ x ∈ s.cps, ∀ j, 0 ≤ (x.val j).val ∧ (x.val j).val ≤ 1) :=
  Spline.fitsIntoUnitCube_order (K := Rd rnd) (V := Point (Rd rnd) n) (fun _ _ => rfl) hs

/-- a `double` near the largest one -/
noncomputable def huge : ℝ := (2 ^ 53 - 5) * 2 ^ (971 : ℤ)

theorem huge_pos : 0 < huge := by unfold huge; norm_num

theorem rnd_huge (h : Nearest 53 (-1074) rnd) : rnd huge = huge :=
  h.exact ⟨2 ^ 53 - 5, 971, by norm_num, by norm_num, by unfold huge; norm_num⟩

/-- its reciprocal is subnormal, and rounded up -/
theorem rnd_inv_huge (h : Nearest 53 (-1074) rnd) : rnd (1 / huge) = (2 ^ 50 + 1) * 2 ^ (-1074 : ℤ) := by
  obtain ⟨k, hk⟩ := (h.isFloat (1 / huge)).multiple
  have hf : IsFloat 53 (-1074) ((2 ^ 50 + 1) * 2 ^ (-1074 : ℤ)) := ⟨2 ^ 50 + 1, -1074, by norm_num, le_refl _, by norm_num⟩
  have h1 := h.nearest (1 / huge) _ hf
  have hx : 1 / huge = (2 ^ 103 / (2 ^ 53 - 5)) * 2 ^ (-1074 : ℤ) := by
    have e : (2 : ℝ) ^ (-1074 : ℤ) = (2 ^ 103)⁻¹ * (2 ^ (971 : ℤ))⁻¹ := by
      rw [← zpow_natCast, ← zpow_neg, ← zpow_neg, ← zpow_add₀ two_ne_zero]; norm_num
    unfold huge
    rw [e]
    have h0 : (2 : ℝ) ^ (971 : ℤ) ≠ 0 := by positivity
    generalize (2 : ℝ) ^ (971 : ℤ) = z at h0
    field_simp
  rw [hk, hx, ← sub_mul, ← sub_mul, abs_mul, abs_mul, mul_le_mul_iff_of_pos_right (by positivity)] at h1
  have hk' : k = 2 ^ 50 + 1 := by
    have h2 : |(2 ^ 50 + 1 : ℝ) - 2 ^ 103 / (2 ^ 53 - 5)| < 2 / 5 := by norm_num
    have h3 := abs_lt.mp (lt_of_le_of_lt h1 h2)
    have h4 : (k : ℝ) < (2 ^ 50 + 2 : ℤ) := by push_cast; norm_num at h3 ⊢; linarith [h3.2]
    have h5 : ((2 ^ 50 : ℤ) : ℝ) < k := by push_cast; norm_num at h3 ⊢; linarith [h3.1]
    have h4' : k < 2 ^ 50 + 2 := by exact_mod_cast h4
    have h5' : 2 ^ 50 < k := by exact_mod_cast h5
    omega
  rw [hk, hk']; norm_num

/-- C94, why the extent must not exceed `2^1022`: with `double`, the line from 0 to `huge` does not pass `FitsIntoUnitCube()` after
`FitIntoUnitCube()`, whatever the rule for ties. -/
theorem C94_too_large (h : Nearest 53 (-1074) rnd) :
    ∃ r, Spline.fitIntoUnitCube (Rd rnd) (Ex.line (⟨0⟩ : Rd rnd) ⟨huge⟩) = .ok r ∧ Spline.fitsIntoUnitCube (Rd rnd) r = .ok false := by
  have hco : ∀ (f : Fin (Coords.n (Rd rnd) (Rd rnd)) → Rd rnd) j, Coords.coord (V := Rd rnd) (Coords.ofCoords f) j = f j :=
    fun f j => congrArg f (Subsingleton.elim (α := Fin 1) _ _)
  have hs := Ex.line_wf (⟨0⟩ : Rd rnd) ⟨huge⟩
  obtain ⟨mx, a1, a2, a3⟩ := Spline.maximumCorner_order (K := Rd rnd) hco hs
  obtain ⟨mn, b1, b2, b3⟩ := Spline.minimumCorner_order (K := Rd rnd) hco hs
  have hmx : mx = ⟨huge⟩ := by
    obtain ⟨x, hx, e⟩ := a3 (0 : Fin 1)
    have e : x = mx := e
    have h1 : huge ≤ mx.val := a2 (0 : Fin 1) ⟨huge⟩ (by simp [Ex.line])
    have hp := huge_pos
    simp only [Ex.line, List.mem_cons, List.not_mem_nil, or_false] at hx
    rcases hx with rfl | rfl
    · rw [← e] at h1; exact absurd h1 (by simp only; linarith)
    · exact e.symm
  have hmn : mn = ⟨0⟩ := by
    obtain ⟨x, hx, e⟩ := b3 (0 : Fin 1)
    have e : x = mn := e
    have h1 : mn.val ≤ 0 := b2 (0 : Fin 1) ⟨0⟩ (by simp [Ex.line])
    have hp := huge_pos
    simp only [Ex.line, List.mem_cons, List.not_mem_nil, or_false] at hx
    rcases hx with rfl | rfl
    · exact e.symm
    · rw [← e] at h1; exact absurd h1 (by simp only; linarith)
  subst hmx hmn
  unfold Spline.fitIntoUnitCube Spline.transposeAndScale
  rw [a1, b1]
  simp only [bind_ok]
  refine ⟨_, Spline.mapCps_ok hs _, ?_⟩
  obtain ⟨b, f1, f2⟩ := Spline.fitsIntoUnitCube_order (K := Rd rnd) hco (hs.map (fun x : Rd rnd => Coords.ofCoords (K := Rd rnd) fun j =>
    (Coords.coord (-(⟨0⟩ : Rd rnd)) j + Coords.coord x j) * Coords.coord (Coords.ofCoords (V := Rd rnd)
      (fun j => (1 : Rd rnd) / Coords.coord ((⟨huge⟩ : Rd rnd) - ⟨0⟩) j)) j))
  refine f1.trans ?_
  cases b with
  | false => rfl
  | true =>
    exfalso
    have h1 := (f2.mp rfl (⟨rnd (rnd (-0 + huge) * rnd (1 / rnd (huge - 0)))⟩ : Rd rnd) (by
      simp only [Ex.line, List.map_cons, List.map_nil, List.mem_cons]
      exact .inr (.inl rfl)) (0 : Fin 1)).2
    have h1 : rnd (rnd (-0 + huge) * rnd (1 / rnd (huge - 0))) ≤ 1 := h1
    rw [neg_zero, zero_add, sub_zero, rnd_huge h, rnd_inv_huge h] at h1
    have e : huge * ((2 ^ 50 + 1) * 2 ^ (-1074 : ℤ)) = (2 ^ 53 - 5) * (2 ^ 50 + 1) / 2 ^ 103 := by
      have e : (2 : ℝ) ^ (-1074 : ℤ) = (2 ^ 103)⁻¹ * (2 ^ (971 : ℤ))⁻¹ := by
        rw [← zpow_natCast, ← zpow_neg, ← zpow_neg, ← zpow_add₀ two_ne_zero]; norm_num
      unfold huge
      rw [e]
      have h0 : (2 : ℝ) ^ (971 : ℤ) ≠ 0 := by positivity
      generalize (2 : ℝ) ^ (971 : ℤ) = z at h0
      field_simp
    rw [e] at h1
    have h2 := h.nearest ((2 ^ 53 - 5) * (2 ^ 50 + 1) / 2 ^ 103) (1 + 2 ^ (-52 : ℤ))
      ⟨2 ^ 52 + 1, -52, by norm_num, by norm_num, by norm_num⟩
    have h3 : |(1 + 2 ^ (-52 : ℤ) : ℝ) - (2 ^ 53 - 5) * (2 ^ 50 + 1) / 2 ^ 103| < (2 ^ 53 - 5) * (2 ^ 50 + 1) / 2 ^ 103 - 1 := by
      norm_num
    have h4 := (abs_lt.mp (lt_of_le_of_lt h2 h3)).1
    linarith

/-! ### concrete cases -/

/-- round to nearest `double` -/
theorem double_nearest : Nearest 53 (-1074) (rndNear 53 (-1074)) := rndNear_nearest (by norm_num) _

/-- a curve with `double` coordinates -/
noncomputable def exRd : Spline (Point (Rd (rndNear 53 (-1074))) 2) :=
  Ex.curve ⟨![⟨-1⟩, ⟨1 / 2⟩]⟩ ⟨![⟨3⟩, ⟨4⟩]⟩ ⟨![⟨7⟩, ⟨5⟩]⟩

theorem exRd_float : ∀ x ∈ exRd.cps, ∀ j, IsFloat 53 (-1074) (x.val j).val := by
  intro x hx j
  simp only [exRd, Ex.curve, List.mem_cons, List.not_mem_nil, or_false] at hx
  rcases hx with rfl | rfl | rfl <;> fin_cases j
  · exact ⟨-1, 0, by norm_num, by norm_num, by norm_num⟩
  · exact ⟨1, -1, by norm_num, by norm_num, by norm_num⟩
  · exact ⟨3, 0, by norm_num, by norm_num, by norm_num⟩
  · exact ⟨4, 0, by norm_num, by norm_num, by norm_num⟩
  · exact ⟨7, 0, by norm_num, by norm_num, by norm_num⟩
  · exact ⟨5, 0, by norm_num, by norm_num, by norm_num⟩

theorem exRd_extent : ∀ j, ∃ x ∈ exRd.cps, ∃ y ∈ exRd.cps, (x.val j).val < (y.val j).val := by
  intro j
  refine ⟨⟨![⟨-1⟩, ⟨1 / 2⟩]⟩, by simp [exRd, Ex.curve], ⟨![⟨7⟩, ⟨5⟩]⟩, by simp [exRd, Ex.curve], ?_⟩
  fin_cases j <;> norm_num

theorem exRd_range : ∀ j, ∀ x ∈ exRd.cps, ∀ y ∈ exRd.cps, (y.val j).val - (x.val j).val ≤ 2 ^ (1 - (-1074) - ((53 : ℕ) : ℤ)) := by
  intro j x hx y hy
  have h : (2 : ℝ) ^ (3 : ℤ) ≤ 2 ^ (1 - (-1074) - ((53 : ℕ) : ℤ)) := zpow_le_zpow_right₀ (by norm_num) (by norm_num)
  refine le_trans ?_ h
  simp only [exRd, Ex.curve, List.mem_cons, List.not_mem_nil, or_false] at hx hy
  rcases hx with rfl | rfl | rfl <;> rcases hy with rfl | rfl | rfl <;> fin_cases j <;> norm_num

example := C94_fit double_nearest (by norm_num) (by norm_num) exRd (Ex.curve_wf ..) exRd_float exRd_extent exRd_range
example := C94_compose double_nearest (by norm_num) (by norm_num) exRd (Ex.curve_wf ..) exRd_float exRd_extent exRd_range
  Ex.cfg Ex.cfg_ok (m := 1) (Ex.surf 0 0 0 0 0 0) [2, 1] ⟨Ex.surf_wf .., rfl⟩ rfl (by decide) (by
    show ∀ q ∈ [2], [2, 1].sum * q < Ex.cfg.maxBinom
    decide)

example := C94_fit_scalar double_nearest (by norm_num) (by norm_num) (Ex.line (⟨1⟩ : Rd _) ⟨3⟩) (Ex.line_wf ..) (by
    intro x hx
    simp only [Ex.line, List.mem_cons, List.not_mem_nil, or_false] at hx
    rcases hx with rfl | rfl
    · exact ⟨1, 0, by norm_num, by norm_num, by norm_num⟩
    · exact ⟨3, 0, by norm_num, by norm_num, by norm_num⟩)
  ⟨⟨1⟩, by simp [Ex.line], ⟨3⟩, by simp [Ex.line], by norm_num⟩ (by
    intro x hx y hy
    have h : (2 : ℝ) ^ (3 : ℤ) ≤ 2 ^ (1 - (-1074) - ((53 : ℕ) : ℤ)) := zpow_le_zpow_right₀ (by norm_num) (by norm_num)
    refine le_trans ?_ h
    simp only [Ex.line, List.mem_cons, List.not_mem_nil, or_false] at hx hy
    rcases hx with rfl | rfl <;> rcases hy with rfl | rfl <;> norm_num)
example := C94_too_large double_nearest

end Bezman.Props
