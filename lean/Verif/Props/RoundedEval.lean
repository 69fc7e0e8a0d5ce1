import Verif.Proofs.RoundedEval
import Verif.Props.Rounded

/-! # Properties: the unit cube is kept in floating-point arithmetic

As in `Props/Rounded.lean`: `p` digits, smallest exponent `q`, each operation rounds to a nearest number, ties are broken in
any way. -/

namespace Bezman.Props
open Spec
variable {p : ℕ} {q : ℤ} {rnd : ℝ → ℝ} {n m : ℕ}

/-! ## C95 -/

theorem unit_lerp (h : Nearest p q rnd) (hp : 0 < p) (hq : q ≤ -p) (t a b : Rd rnd) (ht : UnitFloat p q t.val)
    (ha : UnitFloat p q a.val) (hb : UnitFloat p q b.val) : UnitFloat p q ((1 - t) * a + t * b : Rd rnd).val :=
  ⟨h.isFloat _, h.lerp hp hq ht.1 ht.2.1 ht.2.2 ha.2.1 ha.2.2 hb.2.1 hb.2.2⟩

theorem unit_lerp_point (h : Nearest p q rnd) (hp : 0 < p) (hq : q ≤ -p) (t : Rd rnd) (a b : Point (Rd rnd) n) (ht : UnitFloat p q t.val)
    (ha : ∀ j, UnitFloat p q (a.val j).val) (hb : ∀ j, UnitFloat p q (b.val j).val) (j : Fin n) :
    UnitFloat p q (((1 - t) • a + t • b : Point (Rd rnd) n).val j).val := by
  have := unit_lerp h hp hq t (a.val j) (b.val j) ht (ha j) (hb j)
  have e : (((1 - t) • a + t • b : Point (Rd rnd) n).val j).val = ((1 - t) * a.val j + t * b.val j : Rd rnd).val := by
    show rnd (rnd ((a.val j).val * (1 - t : Rd rnd).val) + rnd ((b.val j).val * t.val)) =
      rnd (rnd ((1 - t : Rd rnd).val * (a.val j).val) + rnd (t.val * (b.val j).val))
    rw [mul_comm (a.val j).val, mul_comm (b.val j).val]
  rw [e]; exact this

theorem fits_of_unit {s : Spline (Point (Rd rnd) n)} (hs : s.WF) (hu : ∀ x ∈ s.cps, ∀ j, UnitFloat p q (x.val j).val) :
    Spline.fitsIntoUnitCube (Rd rnd) s = .ok true := by
  obtain ⟨b, e, hb⟩ := C94_fits_iff s hs
  rw [e, hb.mpr fun x hx j => (hu x hx j).2]

/-- C95. `Evaluate` of a spline inside the unit cube, at a parameter inside the unit cube, returns a point inside the unit cube:
rounding errors never carry it outside. -/
theorem C95_evaluate (h : Nearest p q rnd) (hp : 0 < p) (hq : q ≤ -p) (s : Spline (Point (Rd rnd) n)) (hs : s.WF)
    (hu : ∀ x ∈ s.cps, ∀ j, UnitFloat p q (x.val j).val) (t : List (Rd rnd)) (hl : t.length = s.dim)
    (ht : ∀ u ∈ t, UnitFloat p q u.val) :
    ∃ x, s.evaluate t = .ok x ∧ ∀ j, UnitFloat p q (x.val j).val :=
  Spline.evaluate_stays (S := fun x : Point (Rd rnd) n => ∀ j, UnitFloat p q (x.val j).val) (Q := fun t => UnitFloat p q t.val)
    (fun t a b ht ha hb j => unit_lerp_point h hp hq t a b ht ha hb j) hs hu hl ht

/-- C95. The same for scalar splines. -/
theorem C95_evaluate_scalar (h : Nearest p q rnd) (hp : 0 < p) (hq : q ≤ -p) (s : Spline (Rd rnd)) (hs : s.WF)
    (hu : ∀ x ∈ s.cps, UnitFloat p q x.val) (t : List (Rd rnd)) (hl : t.length = s.dim) (ht : ∀ u ∈ t, UnitFloat p q u.val) :
    ∃ x, s.evaluate t = .ok x ∧ UnitFloat p q x.val :=
  Spline.evaluate_stays (S := fun x : Rd rnd => UnitFloat p q x.val) (Q := fun t => UnitFloat p q t.val)
    (fun t a b ht ha hb => unit_lerp h hp hq t a b ht ha hb) hs hu hl ht

/-- C95. So a point of an inner spline is a parameter of an outer one: the evaluations can be nested, to any depth. -/
theorem C95_nested (h : Nearest p q rnd) (hp : 0 < p) (hq : q ≤ -p) (outer : Spline (Point (Rd rnd) m)) (ho : outer.WF)
    (huo : ∀ x ∈ outer.cps, ∀ j, UnitFloat p q (x.val j).val) (inner : Spline (Point (Rd rnd) n)) (hi : inner.WF)
    (hui : ∀ x ∈ inner.cps, ∀ j, UnitFloat p q (x.val j).val) (hdim : outer.dim = n) (t : List (Rd rnd)) (hl : t.length = inner.dim)
    (ht : ∀ u ∈ t, UnitFloat p q u.val) :
    ∃ x, inner.evaluate t = .ok x ∧ ∃ y, outer.evaluate (List.ofFn x.val) = .ok y ∧ ∀ j, UnitFloat p q (y.val j).val := by
  obtain ⟨x, h1, h2⟩ := C95_evaluate h hp hq inner hi hui t hl ht
  refine ⟨x, h1, C95_evaluate h hp hq outer ho huo _ (by rw [List.length_ofFn, hdim]) ?_⟩
  intro u hu
  obtain ⟨j, rfl⟩ := List.mem_ofFn.mp hu
  exact h2 j

/-- C95. `SplitAtPosition` of a spline inside the unit cube: both parts are inside, and pass `FitsIntoUnitCube()`. -/
theorem C95_split (h : Nearest p q rnd) (hp : 0 < p) (hq : q ≤ -p) (s : Spline (Point (Rd rnd) n)) (hs : s.WF)
    (hu : ∀ x ∈ s.cps, ∀ j, UnitFloat p q (x.val j).val) (d : ℕ) (hd : d < s.dim) (z : Rd rnd) (hz : IsFloat p q z.val)
    (hz0 : 0 < z) (hz1 : z < 1) :
    ∃ l r, s.splitAt z d = .ok (l, r) ∧
      (HasShape s.degrees l ∧ (∀ x ∈ l.cps, ∀ j, UnitFloat p q (x.val j).val) ∧ Spline.fitsIntoUnitCube (Rd rnd) l = .ok true) ∧
      HasShape s.degrees r ∧ (∀ x ∈ r.cps, ∀ j, UnitFloat p q (x.val j).val) ∧ Spline.fitsIntoUnitCube (Rd rnd) r = .ok true := by
  rcases C80_split s s.degrees ⟨hs, rfl⟩ d hd z with ⟨h1, _⟩ | ⟨_, l, r, e, sl, sr⟩
  · exact absurd ⟨hz0, hz1⟩ h1
  obtain ⟨ul, ur⟩ := Spline.splitAt_closed (S := fun x : Point (Rd rnd) n => ∀ j, UnitFloat p q (x.val j).val)
    (Q := fun t => UnitFloat p q t.val) (fun t a b ht ha hb j => unit_lerp_point h hp hq t a b ht ha hb j)
    (fun h0 h1 => ⟨hz, le_of_lt (show (0 : ℝ) < z.val from h0), le_of_lt (show z.val < 1 from h1)⟩) hu e
  exact ⟨l, r, e, ⟨sl, ul, fits_of_unit sl.1 ul⟩, sr, ur, fits_of_unit sr.1 ur⟩

/-- C95. A split at several positions: each part is inside the unit cube and passes `FitsIntoUnitCube()` (or the call throws, see
C36). -/
theorem C95_split_many (h : Nearest p q rnd) (hp : 0 < p) (hq : q ≤ -p) (s : Spline (Point (Rd rnd) n)) (hs : s.WF)
    (hu : ∀ x ∈ s.cps, ∀ j, UnitFloat p q (x.val j).val) (d : ℕ) (hd : d < s.dim) (zs : List (Rd rnd))
    (hz : ∀ z ∈ zs, IsFloat p q z.val) :
    s.splitAtMany zs d = .error .throws ∨
      ∃ l, s.splitAtMany zs d = .ok l ∧ l.length = zs.length + 1 ∧ ∀ a ∈ l, HasShape s.degrees a ∧
        (∀ x ∈ a.cps, ∀ j, UnitFloat p q (x.val j).val) ∧ Spline.fitsIntoUnitCube (Rd rnd) a = .ok true := by
  rcases C80_split_many s s.degrees ⟨hs, rfl⟩ d hd zs with h1 | ⟨l, e, hl, sl⟩
  · exact .inl h1
  refine .inr ⟨l, e, hl, fun a ha => ?_⟩
  have hq' : ∀ z : Rd rnd, IsFloat p q z.val → 0 < z → z < 1 → UnitFloat p q z.val := fun z hz h0 h1 =>
    ⟨hz, le_of_lt (show (0 : ℝ) < z.val from h0), le_of_lt (show z.val < 1 from h1)⟩
  have hu' := Spline.splitAtMany_closed (S := fun x : Point (Rd rnd) n => ∀ j, UnitFloat p q (x.val j).val)
    (Q := fun t => UnitFloat p q t.val) (fun t a b ht ha hb j => unit_lerp_point h hp hq t a b ht ha hb j)
    (fun z hz' => hq' z (hz z hz')) (fun z z' => hq' _ (h.isFloat _)) hu e a ha
  exact ⟨sl a ha, hu', fits_of_unit (sl a ha).1 hu'⟩

/-- C95. `OrderElevate` of a spline inside the unit cube stays inside. -/
theorem C95_elevate (h : Nearest p q rnd) (hp : 0 < p) (hq : q ≤ -p) (hq' : q ≤ -31 - p) (s : Spline (Point (Rd rnd) n)) (hs : s.WF)
    (hu : ∀ x ∈ s.cps, ∀ j, UnitFloat p q (x.val j).val) (d : ℕ) (hd : d < s.dim)
    (hsz : size (s.degrees.modify d (· + 1)) < 2 ^ 31) :
    ∃ r, Spline.orderElevate (Rd rnd) s d = .ok r ∧ HasShape (s.degrees.modify d (· + 1)) r ∧
      (∀ x ∈ r.cps, ∀ j, UnitFloat p q (x.val j).val) ∧ Spline.fitsIntoUnitCube (Rd rnd) r = .ok true := by
  obtain ⟨r, e, sr⟩ := (C80_elevate_derive (K := Rd rnd) Ex.cfg Ex.cfg_ok s s.degrees ⟨hs, rfl⟩).1 d hd hsz
  have hd' : s.degrees[d]? = some s.degrees[d] := List.getElem?_eq_getElem hd
  have hb : s.degrees[d] + 1 < 2 ^ 31 := by
    have : (s.degrees.modify d (· + 1))[d]? = some (s.degrees[d] + 1) := by
      rw [List.getElem?_modify_eq, hd']; rfl
    have := lt_size_of_mem (List.mem_of_getElem? this)
    omega
  have hu' := Spline.orderElevate_stays (S := fun x : Point (Rd rnd) n => ∀ j, UnitFloat p q (x.val j).val)
    (Q := fun t => UnitFloat p q t.val) (fun t a b ht ha hb j => unit_lerp_point h hp hq t a b ht ha hb j) hd' hu
    (fun j => ⟨IsFloat.zero, le_refl _, zero_le_one⟩) (fun i hi => by
      refine ⟨h.isFloat _, h.ratio hp hq (i := i) (n := s.degrees[d] + 1) (by omega) (by omega) ?_⟩
      refine le_trans ?_ (zpow_le_zpow_right₀ (by norm_num) (by omega : (31 : ℤ) ≤ 1 - q - p - 1))
      exact_mod_cast hb.le) e
  exact ⟨r, e, sr, hu', fits_of_unit sr.1 hu'⟩

/-! Outside the unit cube there is no such theorem: rounding errors carry a point out of the box of its control points. -/

/-- `3 * 2^-55` -/
noncomputable def tinyPar : ℝ := 3 * 2 ^ (-55 : ℤ)

theorem line_evaluate {K : Type} [One K] [Sub K] [Add K] [Mul K] (x y t : K) :
    (Ex.line x y).evaluate [t] = .ok ((1 - t) * x + t * y) := by
  refine (Spline.evaluate_casteljau (K := K) (t := [t]) (P := fun idx => if idx = [0] then x else y) (Ex.line_wf x y) rfl ?_).trans rfl
  rintro idx hi
  match idx, hi with
  | [0], _ => rfl
  | [1], _ => rfl
  | [], h => cases h
  | [_ + 2], h => cases h with | cons h _ => exact absurd h (by simp)
  | _ :: _ :: _, h => cases h with | cons _ h => cases h

/-- C95, why the box must be the unit cube: with `double`, the line from `5/4` to `5/4` takes another value at the parameter
`3 * 2^-55`, smaller than both its control points, whatever the rule for ties. -/
theorem C95_box_fails (h : Nearest 53 (-1074) rnd) :
    IsFloat 53 (-1074) tinyPar ∧ IsFloat 53 (-1074) (5 / 4) ∧
      (Ex.line (⟨5 / 4⟩ : Rd rnd) ⟨5 / 4⟩).evaluate [(⟨tinyPar⟩ : Rd rnd)] = .ok ⟨5 / 4 - 2 ^ (-52 : ℤ)⟩ := by
  have f1 : IsFloat 53 (-1074) tinyPar := ⟨3, -55, by norm_num, by norm_num, by unfold tinyPar; norm_num⟩
  have f2 : IsFloat 53 (-1074) (5 / 4) := ⟨5, -2, by norm_num, by norm_num, by norm_num⟩
  refine ⟨f1, f2, ?_⟩
  have e1 : rnd (1 - tinyPar) = 1 - 2 ^ (-53 : ℤ) := by
    refine h.eq_of_close (k := 2 ^ 53 - 1) (e := -53) ⟨2 ^ 53 - 1, -53, by norm_num, by norm_num, by norm_num⟩ (by norm_num) ?_ ?_
    · unfold tinyPar; norm_num [abs_of_neg, abs_of_pos]
    · unfold tinyPar; norm_num [abs_of_neg, abs_of_pos]
  have e2 : rnd ((1 - 2 ^ (-53 : ℤ)) * (5 / 4)) = 5 / 4 - 2 ^ (-52 : ℤ) := by
    refine h.eq_of_close (k := 5 * 2 ^ 50 - 1) (e := -52) ⟨5 * 2 ^ 50 - 1, -52, by norm_num, by norm_num, by norm_num⟩ (by norm_num) ?_ ?_
    · norm_num [abs_of_neg, abs_of_pos]
    · norm_num [abs_of_neg, abs_of_pos]
  have e3 : rnd (tinyPar * (5 / 4)) = 15 * 2 ^ (-57 : ℤ) := by
    have : tinyPar * (5 / 4) = 15 * 2 ^ (-57 : ℤ) := by unfold tinyPar; norm_num
    rw [this]
    exact h.exact ⟨15, -57, by norm_num, by norm_num, by norm_num⟩
  have e4 : rnd (5 / 4 - 2 ^ (-52 : ℤ) + 15 * 2 ^ (-57 : ℤ)) = 5 / 4 - 2 ^ (-52 : ℤ) := by
    refine h.eq_of_close (k := 5 * 2 ^ 50 - 1) (e := -52) ⟨5 * 2 ^ 50 - 1, -52, by norm_num, by norm_num, by norm_num⟩ (by norm_num) ?_ ?_
    · norm_num [abs_of_neg, abs_of_pos]
    · norm_num [abs_of_neg, abs_of_pos]
  rw [line_evaluate]
  refine congrArg Except.ok (Rd.ext ?_)
  show rnd (rnd (rnd (1 - tinyPar) * (5 / 4)) + rnd (tinyPar * (5 / 4))) = _
  rw [e1, e2, e3, e4]

/-! ### concrete cases -/

/-- a surface inside the unit square with `double` coordinates -/
noncomputable def exUnit : Spline (Point (Rd (rndNear 53 (-1074))) 2) :=
  Ex.curve ⟨![⟨0⟩, ⟨1 / 2⟩]⟩ ⟨![⟨1⟩, ⟨3 / 4⟩]⟩ ⟨![⟨1 / 8⟩, ⟨1⟩]⟩

theorem exUnit_unit : ∀ x ∈ exUnit.cps, ∀ j, UnitFloat 53 (-1074) (x.val j).val := by
  intro x hx j
  simp only [exUnit, Ex.curve, List.mem_cons, List.not_mem_nil, or_false] at hx
  rcases hx with rfl | rfl | rfl <;> fin_cases j
  · exact ⟨⟨0, 0, by norm_num, by norm_num, by norm_num⟩, by norm_num⟩
  · exact ⟨⟨1, -1, by norm_num, by norm_num, by norm_num⟩, by norm_num⟩
  · exact ⟨⟨1, 0, by norm_num, by norm_num, by norm_num⟩, by norm_num⟩
  · exact ⟨⟨3, -2, by norm_num, by norm_num, by norm_num⟩, by norm_num⟩
  · exact ⟨⟨1, -3, by norm_num, by norm_num, by norm_num⟩, by norm_num⟩
  · exact ⟨⟨1, 0, by norm_num, by norm_num, by norm_num⟩, by norm_num⟩

theorem quarter_unit : UnitFloat 53 (-1074) (1 / 4) := ⟨⟨1, -2, by norm_num, by norm_num, by norm_num⟩, by norm_num, by norm_num⟩

theorem exUnit_pars : ∀ u ∈ [(⟨1 / 4⟩ : Rd (rndNear 53 (-1074)))], UnitFloat 53 (-1074) u.val := by
  simpa using quarter_unit

/-- a surface of scalars in the unit interval -/
noncomputable def exUnitSurf : Spline (Point (Rd (rndNear 53 (-1074))) 1) :=
  Ex.surf ⟨![⟨1 / 4⟩]⟩ ⟨![⟨1 / 4⟩]⟩ ⟨![⟨1⟩]⟩ ⟨![⟨1⟩]⟩ ⟨![⟨1 / 4⟩]⟩ ⟨![⟨1⟩]⟩

theorem exUnitSurf_unit : ∀ x ∈ exUnitSurf.cps, ∀ j, UnitFloat 53 (-1074) (x.val j).val := by
  intro x hx j
  have h1 : UnitFloat 53 (-1074) 1 := ⟨⟨1, 0, by norm_num, by norm_num, by norm_num⟩, by norm_num, by norm_num⟩
  fin_cases j
  simp only [exUnitSurf, Ex.surf, List.mem_cons, List.not_mem_nil, or_false] at hx
  rcases hx with rfl | rfl | rfl | rfl | rfl | rfl
  all_goals first | exact h1 | exact quarter_unit

example := C95_evaluate double_nearest (by norm_num) (by norm_num) exUnit (Ex.curve_wf ..) exUnit_unit [⟨1 / 4⟩] rfl exUnit_pars
example := C95_evaluate_scalar double_nearest (by norm_num) (by norm_num) (Ex.line (⟨1 / 4⟩ : Rd _) ⟨1 / 4⟩) (Ex.line_wf ..) (by
  intro x hx
  simp only [Ex.line, List.mem_cons, List.not_mem_nil, or_false, or_self] at hx
  rw [hx]; exact quarter_unit) [⟨1 / 4⟩] rfl exUnit_pars
example := C95_nested double_nearest (by norm_num) (by norm_num) exUnitSurf (Ex.surf_wf ..) exUnitSurf_unit exUnit (Ex.curve_wf ..)
  exUnit_unit rfl [⟨1 / 4⟩] rfl exUnit_pars
example := C95_split double_nearest (by norm_num) (by norm_num) exUnit (Ex.curve_wf ..) exUnit_unit 0 (by decide) ⟨1 / 4⟩ quarter_unit.1
  (show (0 : ℝ) < 1 / 4 by norm_num) (show (1 / 4 : ℝ) < 1 by norm_num)
example := C95_split_many double_nearest (by norm_num) (by norm_num) exUnit (Ex.curve_wf ..) exUnit_unit 0 (by decide) [⟨1 / 4⟩]
  (by simpa using quarter_unit.1)
example := C95_elevate double_nearest (by norm_num) (by norm_num) (by norm_num) exUnit (Ex.curve_wf ..) exUnit_unit 0 (by decide)
  (show size ([2].modify 0 (· + 1)) < 2 ^ 31 by decide)
example := C95_box_fails double_nearest

end Bezman.Props
