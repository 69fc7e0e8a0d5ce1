import Verif.Proofs.Ieee
import Verif.Props.RoundedEval

/-! # Properties: arithmetic with overflow, infinities and NaN

Floating-point numbers with `p` digits and smallest exponent `q`, the largest one below `2^E`; results are rounded to a nearest
number, ties are broken in any way.  `double` has `p = 53`, `q = -1074`, `E = 1024`. -/

namespace Bezman.Props
open Spec Ieee
variable {p : ℕ} {q : ℤ} {rnd : ℝ → ℝ} {n : ℕ} {E : ℤ}

/-! ## C96 -/

/-- C96. `Evaluate` at a parameter in the unit cube never overflows, however large the coordinates are: the point it returns is
finite, and it is the one computed without a bound on the exponents. -/
theorem C96_evaluate (h : Nearest p q rnd) (hp : 0 < p) (hq : q ≤ -p) (hE : (p : ℤ) ≤ E) (s : Spline (Point (Ieee rnd (maxFinite p E)) n))
    (hs : s.WF) (hf : ∀ x ∈ s.cps, ∀ j, (x.val j).Finite p q) (t : List (Ieee rnd (maxFinite p E))) (hl : t.length = s.dim)
    (ht : ∀ u ∈ t, u.Unit p q) :
    ∃ x, s.evaluate t = .ok x ∧ (∀ j, (x.val j).Finite p q) ∧ (s.map (Point.map toRd)).evaluate (t.map toRd) = .ok (x.map toRd) :=
  Spline.evaluate_local (S := fun x : Point (Ieee rnd (maxFinite p E)) n => ∀ j, (x.val j).Finite p q) (Q := Ieee.Unit p q)
    (lerp_point_finite h hp hq hE) (lerp_point_toRd h hp hq hE) hs hf hl ht

/-- C96. The same for scalar splines. -/
theorem C96_evaluate_scalar (h : Nearest p q rnd) (hp : 0 < p) (hq : q ≤ -p) (hE : (p : ℤ) ≤ E) (s : Spline (Ieee rnd (maxFinite p E)))
    (hs : s.WF) (hf : ∀ x ∈ s.cps, x.Finite p q) (t : List (Ieee rnd (maxFinite p E))) (hl : t.length = s.dim)
    (ht : ∀ u ∈ t, u.Unit p q) :
    ∃ x, s.evaluate t = .ok x ∧ x.Finite p q ∧ (s.map toRd).evaluate (t.map toRd) = .ok x.toRd :=
  Spline.evaluate_local (S := Ieee.Finite p q) (Q := Ieee.Unit p q) (lerp_finite h hp hq hE) (lerp_toRd h hp hq hE) hs hf hl ht

theorem unit_of_between {z : Ieee rnd (maxFinite p E)} (hz : z.Finite p q) (h0 : 0 < z) (h1 : z < 1) :
    z.Unit p q ∧ 0 < z.toRd ∧ z.toRd < 1 := by
  obtain ⟨v, rfl, hv⟩ := hz
  exact ⟨⟨v, rfl, hv.1, le_of_lt (show (0 : ℝ) < v from h0), le_of_lt (show v < (1 : ℝ) from h1)⟩, h0, h1⟩

/-- C96. `SplitAtPosition` never overflows: all coordinates of both parts are finite, the parts are those computed without a bound on
the exponents. -/
theorem C96_split (h : Nearest p q rnd) (hp : 0 < p) (hq : q ≤ -p) (hE : (p : ℤ) ≤ E) (s : Spline (Point (Ieee rnd (maxFinite p E)) n))
    (hs : s.WF) (hf : ∀ x ∈ s.cps, ∀ j, (x.val j).Finite p q) (d : ℕ) (hd : d < s.dim) (z : Ieee rnd (maxFinite p E)) (hz : z.Finite p q)
    (hz0 : 0 < z) (hz1 : z < 1) :
    ∃ l r, s.splitAt z d = .ok (l, r) ∧ (HasShape s.degrees l ∧ ∀ x ∈ l.cps, ∀ j, (x.val j).Finite p q) ∧
      (HasShape s.degrees r ∧ ∀ x ∈ r.cps, ∀ j, (x.val j).Finite p q) ∧
      (s.map (Point.map toRd)).splitAt z.toRd d = .ok (l.map (Point.map toRd), r.map (Point.map toRd)) := by
  rcases C80_split s s.degrees ⟨hs, rfl⟩ d hd z with ⟨h1, _⟩ | ⟨_, l, r, e, sl, sr⟩
  · exact absurd ⟨hz0, hz1⟩ h1
  obtain ⟨u1, u2⟩ := unit_of_between hz hz0 hz1
  obtain ⟨⟨a, b⟩, c⟩ := Spline.splitAt_local (S := fun x : Point (Ieee rnd (maxFinite p E)) n => ∀ j, (x.val j).Finite p q)
    (Q := Ieee.Unit p q) (lerp_point_finite h hp hq hE) (lerp_point_toRd h hp hq hE) u1 u2 hf e
  exact ⟨l, r, e, ⟨sl, a⟩, ⟨sr, b⟩, c⟩

/-- C96. Nor does a split at several positions, each a finite number (it throws, or all coordinates are finite). -/
theorem C96_split_many (h : Nearest p q rnd) (hp : 0 < p) (hq : q ≤ -p) (hE : (p : ℤ) ≤ E) (s : Spline (Point (Ieee rnd (maxFinite p E)) n))
    (hs : s.WF) (hf : ∀ x ∈ s.cps, ∀ j, (x.val j).Finite p q) (d : ℕ) (hd : d < s.dim) (zs : List (Ieee rnd (maxFinite p E)))
    (hz : ∀ z ∈ zs, z.Finite p q) :
    s.splitAtMany zs d = .error .throws ∨
      ∃ l, s.splitAtMany zs d = .ok l ∧ l.length = zs.length + 1 ∧
        (∀ a ∈ l, HasShape s.degrees a ∧ ∀ x ∈ a.cps, ∀ j, (x.val j).Finite p q) ∧
        (s.map (Point.map toRd)).splitAtMany (zs.map toRd) d = .ok (l.map (Spline.map (Point.map toRd))) := by
  rcases C80_split_many s s.degrees ⟨hs, rfl⟩ d hd zs with h1 | ⟨l, e, hl, sl⟩
  · exact .inl h1
  obtain ⟨a, b⟩ := Spline.splitAtMany_local (S := fun x : Point (Ieee rnd (maxFinite p E)) n => ∀ j, (x.val j).Finite p q)
    (Q := Ieee.Unit p q) (lerp_point_finite h hp hq hE) (lerp_point_toRd h hp hq hE) (fun z hz1 z' hz2 => by
      obtain ⟨v, rfl, _⟩ := hz z hz1
      obtain ⟨v', rfl, _⟩ := hz z' hz2
      exact Iff.rfl) (fun z hz' => unit_of_between (hz z hz')) (fun z hz1 z' hz2 => rel_toRd h hp hq hE (hz z hz1) (hz z' hz2)) hf e
  exact .inr ⟨l, e, hl, fun x hx => ⟨sl x hx, a x hx⟩, b⟩

/-- C96. Nor does `OrderElevate`. -/
theorem C96_elevate (h : Nearest p q rnd) (hp : 0 < p) (hq : q ≤ -31 - p) (hE : (p : ℤ) ≤ E) (hE' : 32 ≤ E)
    (s : Spline (Point (Ieee rnd (maxFinite p E)) n)) (hs : s.WF) (hf : ∀ x ∈ s.cps, ∀ j, (x.val j).Finite p q) (d : ℕ) (hd : d < s.dim)
    (hsz : size (s.degrees.modify d (· + 1)) < 2 ^ 31) :
    ∃ r, Spline.orderElevate (Ieee rnd (maxFinite p E)) s d = .ok r ∧ HasShape (s.degrees.modify d (· + 1)) r ∧
      (∀ x ∈ r.cps, ∀ j, (x.val j).Finite p q) ∧
      Spline.orderElevate (Rd rnd) (s.map (Point.map toRd)) d = .ok (r.map (Point.map toRd)) := by
  obtain ⟨r, e, sr⟩ := (C80_elevate_derive (K := Ieee rnd (maxFinite p E)) Ex.cfg Ex.cfg_ok s s.degrees ⟨hs, rfl⟩).1 d hd hsz
  have hd' : s.degrees[d]? = some s.degrees[d] := List.getElem?_eq_getElem hd
  have hb : s.degrees[d] + 1 < 2 ^ 31 := by
    have : (s.degrees.modify d (· + 1))[d]? = some (s.degrees[d] + 1) := by
      rw [List.getElem?_modify_eq, hd']; rfl
    have := lt_size_of_mem (List.mem_of_getElem? this)
    omega
  have h0 : (0 : Ieee rnd (maxFinite p E)).Finite p q := ⟨0, rfl, IsFloat.zero, by
    rw [abs_zero]
    exact le_trans (by positivity) (one_le_maxFinite hp hE)⟩
  obtain ⟨a, b⟩ := Spline.orderElevate_local (S := fun x : Point (Ieee rnd (maxFinite p E)) n => ∀ j, (x.val j).Finite p q)
    (Q := Ieee.Unit p q) (lerp_point_finite h hp (by omega) hE) (lerp_point_toRd h hp (by omega) hE) rfl hd' hf (fun _ => h0)
    (fun i hi => ratio_toRd h hp (by omega) hE hq hE' (by omega) (by omega) hb) e
  exact ⟨r, e, sr, a, b⟩

/-! Outside the unit cube, and with `ForwardEvaluate`, there is no such theorem. -/

/-- C96, why the parameter must be in the unit cube: the line from the largest number to its negative is infinite at 2, in all
precisions. -/
theorem C96_outside_fails (h : Nearest p q rnd) (hp : 0 < p) (hq : q ≤ 0) (hE : (p : ℤ) ≤ E) :
    (Ex.line (fin (maxFinite p E)) (fin (-maxFinite p E)) : Spline (Ieee rnd (maxFinite p E))).evaluate
      [(fin 2 : Ieee rnd (maxFinite p E))] = .ok (inf true) := by
  have hO : 0 < maxFinite p E := lt_of_lt_of_le (by positivity) (one_le_maxFinite hp hE)
  have hOf : IsFloat p q (maxFinite p E) := Nearest.maxFinite_isFloat hE hq
  have h1 : IsFloat p q (1 : ℝ) := by simpa using IsFloat.two_zpow (p := p) (q := q) (e := 0) hp (by omega)
  have e1 : (1 - fin 2 : Ieee rnd (maxFinite p E)) = fin (-1) := by
    have : rnd (1 + -2) = -1 := by
      rw [show (1 + -2 : ℝ) = -1 by norm_num]; exact h.exact h1.neg
    refine (sub_fin 1 2).trans ((round_eq ?_).trans (by rw [this]))
    rw [this, abs_neg, abs_one]
    refine le_trans ?_ (one_le_maxFinite hp hE)
    exact one_le_zpow₀ (by norm_num) (by omega)
  have e2 : (fin (-1) * fin (maxFinite p E) : Ieee rnd (maxFinite p E)) = fin (-maxFinite p E) := by
    have : rnd (-1 * maxFinite p E) = -maxFinite p E := by
      rw [neg_one_mul]; exact h.exact hOf.neg
    refine (mul_fin _ _).trans ((round_eq ?_).trans (by rw [this]))
    rw [this, abs_neg, abs_of_pos hO]
  have e3 : (fin 2 * fin (-maxFinite p E) : Ieee rnd (maxFinite p E)) = inf true := by
    have : rnd (2 * -maxFinite p E) = -(2 * maxFinite p E) := by
      rw [mul_neg]
      refine h.exact (IsFloat.neg ?_)
      obtain ⟨m, e, hm, he, hv⟩ := hOf
      exact ⟨m, e + 1, hm, by omega, by rw [hv, zpow_add₀ two_ne_zero, zpow_one]; ring⟩
    refine (mul_fin _ _).trans ?_
    unfold Ieee.round
    rw [this, if_neg (by rw [abs_neg, abs_of_pos (by linarith)]; linarith), decide_eq_true (by nlinarith)]
  rw [line_evaluate, e1, e2, e3]
  rfl

theorem curve_forward {K : Type} [Zero K] [One K] [Sub K] [Add K] [Mul K] [NatCast K] [Neg K] (x y z t : K) :
    (Ex.curve x y z).forwardEvaluate ⟨10, 10⟩ [t] = .ok (0 + 1 * ((((1 : ℕ) : K) * 1) * (1 * (1 - t) * (1 - t))) * x +
      1 * ((((2 : ℕ) : K) * (1 * t)) * (1 * (1 - t))) * y + 1 * ((((1 : ℕ) : K) * (1 * t * t)) * 1) * z) := rfl

theorem rnd_scaled (h : Nearest 53 (-1074) rnd) {x r : ℝ} (k e : ℤ) (hx : x = r * 2 ^ e) (hk : IsFloat 53 (-1074) (k * 2 ^ e))
    (h1 : |k - r| < 1 / 2) (h2 : 2 ^ 52 + 1 / 2 ≤ |r|) : rnd x = k * 2 ^ e := by
  have hpos : (0 : ℝ) < 2 ^ e := by positivity
  refine h.eq_of_close hk rfl ?_ ?_
  · rw [hx, ← sub_mul, abs_mul, abs_of_pos hpos]
    nlinarith
  · rw [hx, abs_mul, abs_of_pos hpos, show e + ((53 : ℕ) : ℤ) - 1 = 52 + e by push_cast; ring, zpow_add₀ two_ne_zero]
    have : (2 : ℝ) ^ (52 : ℤ) = 2 ^ 52 := by norm_cast
    rw [this]
    nlinarith

/-- `7 * 2^-29` -/
noncomputable def forwardPar : ℝ := 7 * 2 ^ (-29 : ℤ)

theorem forwardPar_unit : UnitFloat 53 (-1074) forwardPar :=
  ⟨⟨7, -29, by norm_num, by norm_num, by unfold forwardPar; norm_num⟩, by unfold forwardPar; norm_num, by unfold forwardPar; norm_num⟩

theorem maxFinite_double : maxFinite 53 1024 = (2 ^ 53 - 1) * 2 ^ (971 : ℤ) := by
  unfold maxFinite
  rw [show (1024 : ℤ) = 53 + 971 by norm_num, zpow_add₀ two_ne_zero, ← mul_assoc]
  congr 1
  norm_num

/-- C96, why it is `Evaluate`: with `double`, at the parameter `7 * 2^-29`, `ForwardEvaluate` of the constant curve whose control points
are the largest number is infinite, whatever the rule for ties.  The point returned by `Evaluate` is finite. -/
theorem C96_forward_fails (h : Nearest 53 (-1074) rnd) :
    (Ex.curve (fin (maxFinite 53 1024)) (fin (maxFinite 53 1024)) (fin (maxFinite 53 1024)) : Spline (Ieee rnd (maxFinite 53 1024))).forwardEvaluate
        ⟨10, 10⟩ [(fin forwardPar : Ieee rnd (maxFinite 53 1024))] = .ok (inf false) ∧
      ∃ x, (Ex.curve (fin (maxFinite 53 1024)) (fin (maxFinite 53 1024)) (fin (maxFinite 53 1024)) :
          Spline (Ieee rnd (maxFinite 53 1024))).evaluate [(fin forwardPar : Ieee rnd (maxFinite 53 1024))] = .ok x ∧ x.Finite 53 (-1074) := by
  have hOf : IsFloat 53 (-1074) (maxFinite 53 1024) := Nearest.maxFinite_isFloat (by norm_num) (by norm_num)
  have hO0 : 0 < maxFinite 53 1024 := lt_of_lt_of_le (by positivity) (one_le_maxFinite (by norm_num) (by norm_num))
  constructor
  · obtain ⟨T, p919, hO1, p971, p946⟩ : ∃ T : ℝ, (2 : ℝ) ^ (919 : ℤ) = T ∧ 1 ≤ T ∧ (2 : ℝ) ^ (971 : ℤ) = 2 ^ 52 * T ∧
        (2 : ℝ) ^ (946 : ℤ) = 2 ^ 27 * T := by
      refine ⟨_, rfl, one_le_zpow₀ (by norm_num) (by norm_num), ?_, ?_⟩
      · rw [show (971 : ℤ) = 52 + 919 by norm_num, zpow_add₀ two_ne_zero]; congr 1
      · rw [show (946 : ℤ) = 27 + 919 by norm_num, zpow_add₀ two_ne_zero]; congr 1
    have hT : 0 < T := by linarith only [hO1]
    have hO := maxFinite_double
    -- the operations, one after the other
    have small : ∀ {x : ℝ}, |x| ≤ 2 → |x| ≤ maxFinite 53 1024 := by
      intro x hx
      rw [hO, p971]
      linarith only [hx, hO1]
    have exact' : ∀ {x : ℝ}, IsFloat 53 (-1074) x → |x| ≤ maxFinite 53 1024 →
        (Ieee.round x : Ieee rnd (maxFinite 53 1024)) = fin x := by
      intro x hx hle
      exact (Ieee.round_eq (by rw [h.exact hx]; exact hle)).trans (by rw [h.exact hx])
    have near : ∀ {x y : ℝ}, rnd x = y → |y| ≤ maxFinite 53 1024 → (Ieee.round x : Ieee rnd (maxFinite 53 1024)) = fin y := by
      intro x y hx hle
      exact (Ieee.round_eq (by rw [hx]; exact hle)).trans (by rw [hx])
    have one_mul' : ∀ {x : ℝ}, IsFloat 53 (-1074) x → |x| ≤ 2 → (1 * fin x : Ieee rnd (maxFinite 53 1024)) = fin x := by
      intro x hx hle
      refine (mul_fin 1 x).trans ?_
      rw [one_mul]; exact exact' hx (small hle)
    have mul_one' : ∀ {x : ℝ}, IsFloat 53 (-1074) x → |x| ≤ 2 → (fin x * 1 : Ieee rnd (maxFinite 53 1024)) = fin x := by
      intro x hx hle
      refine (mul_fin x 1).trans ?_
      rw [mul_one]; exact exact' hx (small hle)
    have f1 : IsFloat 53 (-1074) (1 : ℝ) := ⟨1, 0, by norm_num, by norm_num, by norm_num⟩
    have f2 : IsFloat 53 (-1074) (2 : ℝ) := ⟨2, 0, by norm_num, by norm_num, by norm_num⟩
    have c1 : ((1 : ℕ) : Ieee rnd (maxFinite 53 1024)) = fin 1 := by
      show Ieee.round ((1 : ℕ) : ℝ) = _
      rw [Nat.cast_one]; exact exact' f1 (small (by norm_num))
    have c2 : ((2 : ℕ) : Ieee rnd (maxFinite 53 1024)) = fin 2 := by
      show Ieee.round ((2 : ℕ) : ℝ) = _
      rw [Nat.cast_ofNat]; exact exact' f2 (small (by norm_num))
    have ft := forwardPar_unit.1
    have at' : |forwardPar| ≤ 2 := by unfold forwardPar; norm_num [abs_of_pos]
    have fv : IsFloat 53 (-1074) (536870905 * 2 ^ (-29 : ℤ)) := ⟨536870905, -29, by norm_num, by norm_num, by norm_num⟩
    have av : |(536870905 * 2 ^ (-29 : ℤ) : ℝ)| ≤ 2 := by norm_num [abs_of_pos]
    have ev : (1 - fin forwardPar : Ieee rnd (maxFinite 53 1024)) = fin (536870905 * 2 ^ (-29 : ℤ)) := by
      refine (sub_fin 1 forwardPar).trans ?_
      rw [show (1 + -forwardPar) = 536870905 * 2 ^ (-29 : ℤ) by unfold forwardPar; norm_num]
      exact exact' fv (small av)
    have fvv : IsFloat 53 (-1074) (((9007199019859970 : ℤ) : ℝ) * 2 ^ (-53 : ℤ)) := ⟨9007199019859970, -53, by norm_num, by norm_num, rfl⟩
    have avv : |(((9007199019859970 : ℤ) : ℝ) * 2 ^ (-53 : ℤ))| ≤ 2 := by norm_num [abs_of_pos]
    have evv : (fin (536870905 * 2 ^ (-29 : ℤ)) * fin (536870905 * 2 ^ (-29 : ℤ)) : Ieee rnd (maxFinite 53 1024)) =
        fin (((9007199019859970 : ℤ) : ℝ) * 2 ^ (-53 : ℤ)) := by
      refine (mul_fin _ _).trans (near (rnd_scaled h (r := 536870905 ^ 2 / 32) _ _ (by norm_num) fvv ?_ ?_) (small avv))
      · norm_num [abs_of_pos]
      · norm_num [abs_of_pos]
    have f2t : IsFloat 53 (-1074) (7 * 2 ^ (-28 : ℤ)) := ⟨7, -28, by norm_num, by norm_num, by norm_num⟩
    have e2t : (fin 2 * fin forwardPar : Ieee rnd (maxFinite 53 1024)) = fin (7 * 2 ^ (-28 : ℤ)) := by
      refine (mul_fin _ _).trans ?_
      rw [show (2 * forwardPar) = 7 * 2 ^ (-28 : ℤ) by unfold forwardPar; norm_num]
      exact exact' f2t (small (by norm_num [abs_of_pos]))
    have f2tv : IsFloat 53 (-1074) (3758096335 * 2 ^ (-57 : ℤ)) := ⟨3758096335, -57, by norm_num, by norm_num, by norm_num⟩
    have e2tv : (fin (7 * 2 ^ (-28 : ℤ)) * fin (536870905 * 2 ^ (-29 : ℤ)) : Ieee rnd (maxFinite 53 1024)) =
        fin (3758096335 * 2 ^ (-57 : ℤ)) := by
      refine (mul_fin _ _).trans ?_
      rw [show (7 * 2 ^ (-28 : ℤ) * (536870905 * 2 ^ (-29 : ℤ)) : ℝ) = 3758096335 * 2 ^ (-57 : ℤ) by norm_num]
      exact exact' f2tv (small (by norm_num [abs_of_pos]))
    have ftt : IsFloat 53 (-1074) (49 * 2 ^ (-58 : ℤ)) := ⟨49, -58, by norm_num, by norm_num, by norm_num⟩
    have ett : (fin forwardPar * fin forwardPar : Ieee rnd (maxFinite 53 1024)) = fin (49 * 2 ^ (-58 : ℤ)) := by
      refine (mul_fin _ _).trans ?_
      rw [show (forwardPar * forwardPar) = 49 * 2 ^ (-58 : ℤ) by unfold forwardPar; norm_num]
      exact exact' ftt (small (by norm_num [abs_of_pos]))
    have m0 : (fin (((9007199019859970 : ℤ) : ℝ) * 2 ^ (-53 : ℤ)) * fin (maxFinite 53 1024) : Ieee rnd (maxFinite 53 1024)) =
        fin (((9007199019859969 : ℤ) : ℝ) * 2 ^ (971 : ℤ)) := by
      refine (mul_fin _ _).trans (near (rnd_scaled h (r := 9007199019859970 * (2 ^ 53 - 1) / 2 ^ 53) _ _ ?_ ⟨9007199019859969, 971, by norm_num, by norm_num, rfl⟩ ?_ ?_) ?_)
      · rw [hO]; norm_num; ring
      · norm_num [abs_of_pos]
      · norm_num [abs_of_pos]
      · rw [hO, p971, abs_of_pos (by positivity)]; push_cast; linarith only [hT]
    have m1 : (fin (3758096335 * 2 ^ (-57 : ℤ)) * fin (maxFinite 53 1024) : Ieee rnd (maxFinite 53 1024)) =
        fin (((7881299245137919 : ℤ) : ℝ) * 2 ^ (946 : ℤ)) := by
      refine (mul_fin _ _).trans (near (rnd_scaled h (r := 3758096335 * (2 ^ 53 - 1) / 2 ^ 32) _ _ ?_ ⟨7881299245137919, 946, by norm_num, by norm_num, rfl⟩ ?_ ?_) ?_)
      · rw [hO, p971, p946]; norm_num; ring
      · norm_num [abs_of_pos]
      · norm_num [abs_of_pos]
      · rw [hO, p971, p946, abs_of_pos (by positivity)]; push_cast; linarith only [hT]
    have m2 : (fin (49 * 2 ^ (-58 : ℤ)) * fin (maxFinite 53 1024) : Ieee rnd (maxFinite 53 1024)) =
        fin (((6896136929411071 : ℤ) : ℝ) * 2 ^ (919 : ℤ)) := by
      refine (mul_fin _ _).trans (near (rnd_scaled h (r := 49 * (2 ^ 53 - 1) / 2 ^ 6) _ _ ?_ ⟨6896136929411071, 919, by norm_num, by norm_num, rfl⟩ ?_ ?_) ?_)
      · rw [hO, p971, p919]; norm_num; ring
      · norm_num [abs_of_pos]
      · norm_num [abs_of_pos]
      · rw [hO, p971, p919, abs_of_pos (by positivity)]; push_cast; linarith only [hT]
    have a0 : (0 + fin (((9007199019859969 : ℤ) : ℝ) * 2 ^ (971 : ℤ)) : Ieee rnd (maxFinite 53 1024)) =
        fin (((9007199019859969 : ℤ) : ℝ) * 2 ^ (971 : ℤ)) := by
      refine (add_fin 0 _).trans ?_
      rw [zero_add]
      refine exact' ⟨9007199019859969, 971, by norm_num, by norm_num, rfl⟩ ?_
      rw [hO, p971, abs_of_pos (by positivity)]; push_cast; linarith only [hT]
    have a1 : (fin (((9007199019859969 : ℤ) : ℝ) * 2 ^ (971 : ℤ)) + fin (((7881299245137919 : ℤ) : ℝ) * 2 ^ (946 : ℤ)) : Ieee rnd (maxFinite 53 1024)) =
        fin (((9007199254740990 : ℤ) : ℝ) * 2 ^ (971 : ℤ)) := by
      refine (add_fin _ _).trans (near (rnd_scaled h (r := 9007199019859969 + 7881299245137919 / 2 ^ 25) _ _ ?_ ⟨9007199254740990, 971, by norm_num, by norm_num, rfl⟩ ?_ ?_) ?_)
      · rw [p971, p946]; push_cast; ring
      · norm_num [abs_of_pos]
      · norm_num [abs_of_pos]
      · rw [hO, p971, abs_of_pos (by positivity)]; push_cast; linarith only [hT]
    have a2 : (fin (((9007199254740990 : ℤ) : ℝ) * 2 ^ (971 : ℤ)) + fin (((6896136929411071 : ℤ) : ℝ) * 2 ^ (919 : ℤ)) : Ieee rnd (maxFinite 53 1024)) =
        inf false := by
      have : rnd (((9007199254740990 : ℤ) : ℝ) * 2 ^ (971 : ℤ) + ((6896136929411071 : ℤ) : ℝ) * 2 ^ (919 : ℤ)) =
          ((9007199254740992 : ℤ) : ℝ) * 2 ^ (971 : ℤ) := by
        refine rnd_scaled h (r := 9007199254740990 + 6896136929411071 / 2 ^ 52) _ _ ?_ ⟨1, 1024, by norm_num, by norm_num, ?_⟩ ?_ ?_
        · rw [p971, p919]; push_cast; ring
        · rw [show (1024 : ℤ) = 53 + 971 by norm_num, zpow_add₀ two_ne_zero]
          push_cast
          rw [one_mul]; congr 1; norm_num
        · norm_num [abs_of_pos, abs_of_neg]
        · norm_num [abs_of_pos]
      refine (add_fin _ _).trans ?_
      unfold Ieee.round
      rw [this, if_neg, decide_eq_false]
      · rw [not_lt]; positivity
      · rw [hO, p971, abs_of_pos (by positivity)]; push_cast; linarith only [hT]
    rw [curve_forward, c1, c2, ev, one_mul' fv av, evv, mul_one' f1 (by norm_num), one_mul' ft at', e2t, e2tv, ett,
      one_mul' f2tv (by norm_num [abs_of_pos]), show (fin 1 : Ieee rnd (maxFinite 53 1024)) = 1 from rfl, one_mul' fvv avv, one_mul' fvv avv,
      one_mul' ftt (by norm_num [abs_of_pos]), mul_one' ftt (by norm_num [abs_of_pos]), one_mul' ftt (by norm_num [abs_of_pos]), m0, m1, m2,
      a0, a1, a2]
  · have hfin : (fin (maxFinite 53 1024) : Ieee rnd (maxFinite 53 1024)).Finite 53 (-1074) :=
      ⟨_, rfl, hOf, by rw [abs_of_pos hO0]⟩
    obtain ⟨x, h1, h2, _⟩ := C96_evaluate_scalar h (by norm_num) (by norm_num) (by norm_num)
      (Ex.curve (fin (maxFinite 53 1024)) (fin (maxFinite 53 1024)) (fin (maxFinite 53 1024)) : Spline (Ieee rnd (maxFinite 53 1024)))
      (Ex.curve_wf ..) (by simpa [Ex.curve] using hfin) [fin forwardPar] rfl (by simpa using ⟨_, rfl, forwardPar_unit⟩)
    exact ⟨x, h1, h2⟩

/-! ### concrete cases -/

/-- a curve with the largest `double`s as coordinates -/
noncomputable def exHuge : Spline (Point (Ieee (rndNear 53 (-1074)) (maxFinite 53 1024)) 2) :=
  Ex.curve ⟨![fin (maxFinite 53 1024), fin 0]⟩ ⟨![fin (-maxFinite 53 1024), fin (1 / 4)]⟩ ⟨![fin (maxFinite 53 1024), fin (1 / 4)]⟩

theorem exHuge_finite : ∀ x ∈ exHuge.cps, ∀ j, (x.val j).Finite 53 (-1074) := by
  have hOf : IsFloat 53 (-1074) (maxFinite 53 1024) := Nearest.maxFinite_isFloat (by norm_num) (by norm_num)
  have hO0 : 0 < maxFinite 53 1024 := lt_of_lt_of_le (by positivity) (one_le_maxFinite (by norm_num) (by norm_num))
  have hO1 : 1 ≤ maxFinite 53 1024 := le_trans (one_le_zpow₀ (by norm_num) (by norm_num)) (one_le_maxFinite (by norm_num) (by norm_num))
  intro x hx j
  simp only [exHuge, Ex.curve, List.mem_cons, List.not_mem_nil, or_false] at hx
  rcases hx with rfl | rfl | rfl <;> fin_cases j
  · exact ⟨_, rfl, hOf, by rw [abs_of_pos hO0]⟩
  · exact ⟨_, rfl, ⟨0, 0, by norm_num, by norm_num, by norm_num⟩, by rw [abs_zero]; exact hO0.le⟩
  · exact ⟨_, rfl, hOf.neg, by rw [abs_neg, abs_of_pos hO0]⟩
  · exact ⟨_, rfl, quarter_unit.1, le_trans (by norm_num [abs_of_pos]) hO1⟩
  · exact ⟨_, rfl, hOf, by rw [abs_of_pos hO0]⟩
  · exact ⟨_, rfl, quarter_unit.1, le_trans (by norm_num [abs_of_pos]) hO1⟩

theorem quarter_finite : (fin (1 / 4) : Ieee (rndNear 53 (-1074)) (maxFinite 53 1024)).Finite 53 (-1074) :=
  exHuge_finite ⟨![fin (maxFinite 53 1024), fin (1 / 4)]⟩ (by simp [exHuge, Ex.curve]) 1

example := C96_evaluate double_nearest (by norm_num) (by norm_num) (by norm_num) exHuge (Ex.curve_wf ..) exHuge_finite [fin (1 / 4)] rfl
  (by simp only [List.mem_singleton, forall_eq]; exact ⟨_, rfl, quarter_unit⟩)
example := C96_evaluate_scalar double_nearest (by norm_num) (by norm_num) (by norm_num)
  (Ex.line (fin (1 / 4)) (fin (1 / 4)) : Spline (Ieee (rndNear 53 (-1074)) (maxFinite 53 1024))) (Ex.line_wf ..)
  (by simpa [Ex.line] using quarter_finite) [fin (1 / 4)] rfl (by simp only [List.mem_singleton, forall_eq]; exact ⟨_, rfl, quarter_unit⟩)
example := C96_split double_nearest (by norm_num) (by norm_num) (by norm_num) exHuge (Ex.curve_wf ..) exHuge_finite 0 (by decide)
  (fin (1 / 4)) quarter_finite (show (0 : ℝ) < 1 / 4 by norm_num) (show (1 / 4 : ℝ) < 1 by norm_num)
example := C96_split_many double_nearest (by norm_num) (by norm_num) (by norm_num) exHuge (Ex.curve_wf ..) exHuge_finite 0 (by decide)
  [fin (1 / 4)] (by simpa using quarter_finite)
example := C96_elevate double_nearest (by norm_num) (by norm_num) (by norm_num) (by norm_num) exHuge (Ex.curve_wf ..) exHuge_finite 0
  (by decide) (show size ([2].modify 0 (· + 1)) < 2 ^ 31 by decide)
example := C96_outside_fails (E := 1024) double_nearest (by norm_num) (by norm_num) (by norm_num)
example := C96_forward_fails double_nearest

end Bezman.Props
