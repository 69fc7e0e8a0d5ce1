import Verif.Proofs.NonFinite
import Verif.Props.Ieee

/-! # Properties: infinities and NaN -/

namespace Bezman.Props
open Spec Ieee
variable {rnd : ℝ → ℝ} {omega : ℝ} {n : ℕ}

/-! ## C97 -/

/-- C97. A coordinate of a control point that is infinite or NaN is never masked: that coordinate of every evaluated point is infinite
or NaN, at all parameters, the ends included. -/
theorem C97_evaluate (s : Spline (Point (Ieee rnd omega) n)) (hs : s.WF) (x : Point (Ieee rnd omega) n) (hx : x ∈ s.cps) (j : Fin n)
    (hj : (x.val j).NonFinite) (t : List (Ieee rnd omega)) (ht : t.length = s.dim) :
    ∃ y, s.evaluate t = .ok y ∧ (y.val j).NonFinite := by
  obtain ⟨idx, hv, hc⟩ := hs.index_of_mem hx
  have hP := hasPoints_self hs
  refine ⟨_, Spline.evaluate_casteljau hs ht hP, ?_⟩
  refine casteljau_absorb (T := fun y : Point (Ieee rnd omega) n => (y.val j).NonFinite) (fun t a b h => nonFinite_lerp j t a b h) ht hv ?_
  have : x = s.cps.getD (flatIndex s.degrees idx) 0 := Except.ok.inj (hc.symm.trans (hP idx hv))
  show ((s.cps.getD (flatIndex s.degrees idx) 0).val j).NonFinite
  rw [← this]
  exact hj

/-- C97. A parameter that is infinite or NaN, in a direction of positive degree, is never masked: all coordinates of the point are
infinite or NaN. -/
theorem C97_parameter (s : Spline (Point (Ieee rnd omega) n)) (hs : s.WF) (t : List (Ieee rnd omega)) (ht : t.length = s.dim) (d p : ℕ)
    (hp : s.degrees[d]? = some (p + 1)) (u : Ieee rnd omega) (hu : t[d]? = some u) (hu' : u.NonFinite) :
    ∃ y, s.evaluate t = .ok y ∧ ∀ j, (y.val j).NonFinite :=
  ⟨_, Spline.evaluate_casteljau hs ht (hasPoints_self hs), fun j =>
    casteljau_absorb_par (T := fun y : Point (Ieee rnd omega) n => (y.val j).NonFinite) (fun t a b h => nonFinite_lerp j t a b h) ht hp hu
      fun a b => nonFinite_lerp_par j hu' a b⟩

/-- C97. The same for `ForwardEvaluate`. -/
theorem C97_forward (cfg : Cfg) (hc : cfg.Ok) (s : Spline (Point (Ieee rnd omega) n)) (hs : s.WF) (hdeg : ∀ p ∈ s.degrees, p < cfg.maxBinom)
    (x : Point (Ieee rnd omega) n) (hx : x ∈ s.cps) (j : Fin n) (hj : (x.val j).NonFinite) (t : List (Ieee rnd omega))
    (ht : t.length = s.dim) : ∃ y, s.forwardEvaluate cfg t = .ok y ∧ (y.val j).NonFinite := by
  obtain ⟨y, hy⟩ := Spline.forwardEvaluate_returns cfg hc ⟨hs, rfl⟩ hdeg t ht
  refine ⟨y, hy, ?_⟩
  unfold Spline.forwardEvaluate at hy
  obtain ⟨l, h1, h2⟩ := Spline.basisFunctions_returns cfg hc ⟨hs, rfl⟩ hdeg t ht
  rw [h1, bind_ok] at hy
  exact Spline.weightedSum_absorb (T := fun y : Point (Ieee rnd omega) n => (y.val j).NonFinite)
    (fun a b h => nonFinite_add h) (fun c a h => nonFinite_mul (.inl h)) (by rw [h2, hs.cps_len]) hx hj hy

/-- C97. The same for `EvaluateDerivative`, for all orders, those above the degree included. -/
theorem C97_derivative (cfg : Cfg) (hc : cfg.Ok) (s : Spline (Point (Ieee rnd omega) n)) (hs : s.WF)
    (hdeg : ∀ p ∈ s.degrees, p < cfg.maxBinom) (x : Point (Ieee rnd omega) n) (hx : x ∈ s.cps) (j : Fin n) (hj : (x.val j).NonFinite)
    (t : List (Ieee rnd omega)) (ht : t.length = s.dim) (k : List ℕ) (hk : k.length = s.dim) :
    ∃ y, s.evaluateDerivative cfg t k = .ok y ∧ (y.val j).NonFinite := by
  obtain ⟨y, hy⟩ := Spline.evaluateDerivative_returns cfg hc ⟨hs, rfl⟩ hdeg t ht k hk
  refine ⟨y, hy, ?_⟩
  unfold Spline.evaluateDerivative at hy
  obtain ⟨l, h1, h2⟩ := Spline.basisFunctionsDerivatives_returns cfg hc ⟨hs, rfl⟩ hdeg t ht k hk
  rw [h1, bind_ok] at hy
  exact Spline.weightedSum_absorb (T := fun y : Point (Ieee rnd omega) n => (y.val j).NonFinite)
    (fun a b h => nonFinite_add h) (fun c a h => nonFinite_mul (.inl h)) (by rw [h2, hs.cps_len]) hx hj hy

theorem mem_of_controlPoint {V : Type} {s : Spline V} {idx : List ℕ} {x : V} (h : s.controlPoint idx = .ok x) : x ∈ s.cps := by
  unfold Spline.controlPoint at h
  obtain ⟨i, _, h⟩ := bind_eq_ok.mp h
  exact mem_rd h

/-- C97. Both parts of a split have a control point with an infinite or NaN coordinate if the spline had. -/
theorem C97_split (s : Spline (Point (Ieee rnd omega) n)) (hs : s.WF) (x : Point (Ieee rnd omega) n) (hx : x ∈ s.cps) (j : Fin n)
    (hj : (x.val j).NonFinite) (d : ℕ) (hd : d < s.dim) (z : Ieee rnd omega) (hz : 0 < z ∧ z < 1) :
    ∃ l r, s.splitAt z d = .ok (l, r) ∧ (∃ y ∈ l.cps, (y.val j).NonFinite) ∧ ∃ y ∈ r.cps, (y.val j).NonFinite := by
  obtain ⟨idx, hv, hc⟩ := hs.index_of_mem hx
  have hP := hasPoints_self hs
  have hp : s.degrees[d]? = some s.degrees[d] := List.getElem?_eq_getElem hd
  obtain ⟨l, r, e, sl, sr, pl, pr⟩ := C90_split (K := Ieee rnd omega) s hs d _ hp z hz _ hP
  have hdi : d < idx.length := by rw [List.Forall₂.length_eq hv]; exact hd
  have hj' : x = s.cps.getD (flatIndex s.degrees idx) 0 := Except.ok.inj (hc.symm.trans (hP idx hv))
  have hle : idx[d] ≤ s.degrees[d] := List.Forall₂.get hv hdi hd
  have hset : ∀ k, k ≤ s.degrees[d] → ValidIdx s.degrees (idx.set d k) := by
    intro k hk
    refine List.forall₂_iff_get.mpr ⟨by rw [List.length_set]; exact List.Forall₂.length_eq hv, fun i h1 h2 => ?_⟩
    rw [List.get_eq_getElem, List.getElem_set]
    split
    · rename_i hi; subst hi; exact hk
    · exact List.Forall₂.get hv (by rwa [List.length_set] at h1) h2
  have T : ∀ (r i : ℕ), i ≤ idx[d] → idx[d] ≤ i + r →
      (((triangle z (fun j => s.cps.getD (flatIndex s.degrees (idx.set d j)) 0) r i).val j).NonFinite) := by
    intro r i h1 h2
    refine triangle_absorb (T := fun y : Point (Ieee rnd omega) n => (y.val j).NonFinite) (fun t a b h => nonFinite_lerp j t a b h)
      h1 h2 ?_
    rw [List.set_getElem_self, ← hj']
    exact hj
  refine ⟨l, r, e, ⟨_, mem_of_controlPoint (pl (idx.set d s.degrees[d]) (by rw [sl.2]; exact hset _ (le_refl _))), ?_⟩,
    ⟨_, mem_of_controlPoint (pr (idx.set d 0) (by rw [sr.2]; exact hset _ (by omega))), ?_⟩⟩
  · dsimp only
    rw [List.getD_eq_getElem?_getD (l := idx.set _ _), List.getElem?_set_self hdi]
    simp only [List.set_set, Option.getD_some]
    exact T _ _ (by omega) (by omega)
  · dsimp only
    rw [List.getD_eq_getElem?_getD (l := idx.set _ _), List.getElem?_set_self hdi]
    simp only [List.set_set, Option.getD_some]
    exact T _ _ (by omega) (by omega)

/-- C97. So has the elevated spline. -/
theorem C97_elevate (s : Spline (Point (Ieee rnd omega) n)) (hs : s.WF) (x : Point (Ieee rnd omega) n) (hx : x ∈ s.cps) (j : Fin n)
    (hj : (x.val j).NonFinite) (d : ℕ) (hd : d < s.dim) (hsz : size (s.degrees.set d (s.degrees[d]'hd + 1)) < 2 ^ 31) :
    ∃ r, Spline.orderElevate (Ieee rnd omega) s d = .ok r ∧ ∃ y ∈ r.cps, (y.val j).NonFinite := by
  obtain ⟨idx, hv, hc⟩ := hs.index_of_mem hx
  have hP := hasPoints_self hs
  have hp : s.degrees[d]? = some s.degrees[d] := List.getElem?_eq_getElem hd
  obtain ⟨r, e, sr, pr⟩ := C90_elevate (K := Ieee rnd omega) s hs d _ hp hsz _ hP
  have hdi : d < idx.length := by rw [List.Forall₂.length_eq hv]; exact hd
  have hj' : x = s.cps.getD (flatIndex s.degrees idx) 0 := Except.ok.inj (hc.symm.trans (hP idx hv))
  have hle : idx[d] ≤ s.degrees[d] := List.Forall₂.get hv hdi hd
  have hv' : ValidIdx r.degrees idx := by
    rw [sr.2]
    refine List.forall₂_iff_get.mpr ⟨by rw [List.length_set]; exact List.Forall₂.length_eq hv, fun i h1 h2 => ?_⟩
    rw [List.get_eq_getElem, List.get_eq_getElem, List.getElem_set]
    split
    · rename_i hi; subst hi; exact hle.trans (Nat.le_succ _)
    · exact List.Forall₂.get hv h1 (by rwa [List.length_set] at h2)
  refine ⟨r, e, _, mem_of_controlPoint (pr idx hv'), ?_⟩
  have e1 : idx.getD d 0 = idx[d] := by rw [List.getD_eq_getElem?_getD, List.getElem?_eq_getElem hdi]; rfl
  have e2 : s.cps.getD (flatIndex s.degrees (idx.set d idx[d])) 0 = x := by rw [List.set_getElem_self, ← hj']
  dsimp only
  rw [e1]
  unfold elevationOf
  split
  · rename_i h0
    rw [h0] at e2
    dsimp only
    rw [e2]; exact hj
  · rw [if_neg (by omega)]
    exact nonFinite_lerp j _ _ _ (.inl (by dsimp only; rw [e2]; exact hj))

theorem mul_nonFinite {V W U : Type} [Zero V] [Add V] [SMul (Ieee rnd omega) V] [Zero W] [Zero U] [Add U] [SMul (Ieee rnd omega) U] {T : U → Prop}
    (hadd : ∀ a b : U, T a ∨ T b → T (a + b)) (hsmul : ∀ (c : Ieee rnd omega) (a : U), T a → T (c • a)) {cfg : Cfg} (hc : cfg.Ok)
    {mul : V → W → U} {a : Spline V} {b : Spline W} (ha : a.WF) (hb : b.WF) (hdim : b.dim = a.dim)
    (hdeg : ∀ p ∈ sumDegrees a.degrees b.degrees, p < cfg.maxBinom) {x : V} (hx : x ∈ a.cps) {y : W} (hy : y ∈ b.cps) (h : T (mul x y)) :
    ∃ r, Spline.mulOp (Ieee rnd omega) cfg mul a b = .ok r ∧ ∃ u ∈ r.cps, T u := by
  obtain ⟨i, hi, ci⟩ := ha.index_of_mem hx
  obtain ⟨j, hj, cj⟩ := hb.index_of_mem hy
  have hP := hasPoints_self ha
  have hQ := hasPoints_self hb
  obtain ⟨r, e, sr, pr⟩ := C90_product (K := Ieee rnd omega) cfg hc mul a b ha hb hdim hdeg _ _ hP hQ
  refine ⟨r, e, _, mem_of_controlPoint (pr (List.zipWith (· + ·) i j) ?_), productNet_absorb hadd hsmul ?_ hdim hi hj ?_⟩
  · rw [sr.2]
    have hl : j.length = i.length := by
      rw [List.Forall₂.length_eq hi, List.Forall₂.length_eq hj]; exact hdim
    clear ci cj hP hQ pr sr e hdeg
    generalize a.degrees = da at hi
    generalize b.degrees = db at hj
    induction hi generalizing j db with
    | nil =>
      obtain rfl := List.length_eq_zero_iff.mp hl
      cases hj
      exact .nil
    | cons h1 _ ih =>
      cases hj with
      | nil => simp at hl
      | cons h2 h3 => exact .cons (Nat.add_le_add h1 h2) (ih _ (by simpa using hl) _ h3)
  · have := ha.dim_pos
    intro h0
    unfold Spline.dim at this
    rw [h0] at this
    exact absurd this (by simp)
  · have e1 : x = a.cps.getD (flatIndex a.degrees i) 0 := Except.ok.inj (ci.symm.trans (hP i hi))
    have e2 : y = b.cps.getD (flatIndex b.degrees j) 0 := Except.ok.inj (cj.symm.trans (hQ j hj))
    rw [← e1, ← e2]
    exact h

/-- C97. So has a product of two scalar splines if one of the factors has. -/
theorem C97_product (cfg : Cfg) (hc : cfg.Ok) (a b : Spline (Ieee rnd omega)) (ha : a.WF) (hb : b.WF) (hdim : b.dim = a.dim)
    (hdeg : ∀ p ∈ sumDegrees a.degrees b.degrees, p < cfg.maxBinom) (h : (∃ x ∈ a.cps, x.NonFinite) ∨ ∃ x ∈ b.cps, x.NonFinite) :
    ∃ r, Spline.mulOp (Ieee rnd omega) cfg (fun x y => x * y) a b = .ok r ∧ ∃ y ∈ r.cps, y.NonFinite := by
  have nonempty : ∀ {s : Spline (Ieee rnd omega)}, s.WF → ∃ x, x ∈ s.cps := by
    intro s hs
    have : 0 < s.cps.length := by rw [hs.cps_len]; exact size_pos _
    exact ⟨_, List.getElem_mem this⟩
  rcases h with ⟨x, hx, hn⟩ | ⟨x, hx, hn⟩
  · obtain ⟨y, hy⟩ := nonempty hb
    exact mul_nonFinite (T := NonFinite) (fun a b h => nonFinite_add h) (fun c a h => nonFinite_mul (.inr h)) hc ha hb hdim hdeg hx hy
      (nonFinite_mul (.inl hn))
  · obtain ⟨y, hy⟩ := nonempty ha
    exact mul_nonFinite (T := NonFinite) (fun a b h => nonFinite_add h) (fun c a h => nonFinite_mul (.inr h)) hc ha hb hdim hdeg hy hx
      (nonFinite_mul (.inr hn))

/-! ## C98 -/

/-- C98, the full statement `C98_Statement`: a spline with a coordinate below 0 or above 1 is rejected by `FitsIntoUnitCube()`, whatever
the other coordinates are.  It is false of the code, see `C98_nan_first_fails`. -/
def C98_Statement (rnd : ℝ → ℝ) (omega : ℝ) : Prop :=
  ∀ (n : ℕ) (s : Spline (Point (Ieee rnd omega) n)), s.WF → ∀ x ∈ s.cps, ∀ j, x.val j < 0 ∨ 1 < x.val j →
    Spline.fitsIntoUnitCube (Ieee rnd omega) s = .ok false

/-- C98. What `FitsIntoUnitCube()` says about splines with infinite and NaN coordinates: it is true iff for each coordinate either no
control point is below 0 or above 1 (NaN is neither), or the first control point is NaN there.  Missing in `C98_Statement`: the last
case. -/
theorem C98_fits_partial (s : Spline (Point (Ieee rnd omega) n)) (hs : s.WF) (x₀ : Point (Ieee rnd omega) n) (h₀ : s.cps[0]? = some x₀) :
    ∃ b, Spline.fitsIntoUnitCube (Ieee rnd omega) s = .ok b ∧
      (b = true ↔ ∀ j, x₀.val j = nan ∨ ∀ x ∈ s.cps, ¬ x.val j < 0 ∧ ¬ 1 < x.val j) := by
  obtain ⟨mx, a1, a2⟩ := Spline.maximumCorner_nan hs h₀
  obtain ⟨mn, b1, b2⟩ := Spline.minimumCorner_nan hs h₀
  unfold Spline.fitsIntoUnitCube
  rw [a1, b1]
  refine ⟨_, rfl, ?_⟩
  rw [decide_eq_true_iff]
  refine forall_congr' fun j => ?_
  show ¬ (1 < mx.val j ∨ mn.val j < 0) ↔ _
  by_cases hj : x₀.val j = nan
  · rw [(a2 j).2.1 hj, (b2 j).2.1 hj]
    exact ⟨fun _ => .inl hj, fun _ h => h.elim (fun h => (ne_nan_of_lt h).2 rfl) fun h => (ne_nan_of_lt h).1 rfl⟩
  · rw [(a2 j).2.2 hj, (b2 j).2.2 hj, or_iff_right hj]
    push Not
    exact ⟨fun h x hx => ⟨h.2 x hx, h.1 x hx⟩, fun h => ⟨fun x hx => (h x hx).2, fun x hx => (h x hx).1⟩⟩

/-- C98. In particular, a spline whose first control point has no NaN coordinate is rejected if a coordinate is below 0 or above 1,
infinities included. -/
theorem C98_reject_partial (s : Spline (Point (Ieee rnd omega) n)) (hs : s.WF) (x₀ : Point (Ieee rnd omega) n) (h₀ : s.cps[0]? = some x₀)
    (x : Point (Ieee rnd omega) n) (hx : x ∈ s.cps) (j : Fin n) (hj : x₀.val j ≠ nan) (ho : x.val j < 0 ∨ 1 < x.val j) :
    Spline.fitsIntoUnitCube (Ieee rnd omega) s = .ok false := by
  obtain ⟨b, e, hb⟩ := C98_fits_partial s hs x₀ h₀
  cases b with
  | false => exact e
  | true =>
    rcases hb.mp rfl j with h | h
    · exact (hj h).elim
    · exact (ho.elim (h x hx).1 (h x hx).2).elim

/-- a line from NaN to `x` -/
noncomputable def nanLine (rnd : ℝ → ℝ) (omega x : ℝ) : Spline (Point (Ieee rnd omega) 1) := Ex.line ⟨fun _ => nan⟩ ⟨fun _ => fin x⟩

theorem nanLine_fits (x : ℝ) : Spline.fitsIntoUnitCube (Ieee rnd omega) (nanLine rnd omega x) = .ok true := by
  obtain ⟨b, e, hb⟩ := C98_fits_partial (nanLine rnd omega x) (Ex.line_wf ..) ⟨fun _ => nan⟩ rfl
  rw [e, hb.mpr fun j => .inl rfl]

/-- C98 is false of the code: the line from NaN to 7 passes `FitsIntoUnitCube()`, and compositions with it as inner spline are
computed. -/
theorem C98_nan_first_fails :
    ¬ C98_Statement rnd omega ∧ Spline.fitsIntoUnitCube (Ieee rnd omega) (nanLine rnd omega 7) = .ok true ∧
      ∀ (m : ℕ) (a : Spline (Point (Ieee rnd omega) m)), HasShape [2] a →
        ∃ r, Spline.compose (Ieee rnd omega) Ex.cfg a (nanLine rnd omega 7) = .ok r := by
  refine ⟨fun h => ?_, nanLine_fits 7, fun m a ha => ?_⟩
  · have := h 1 (nanLine rnd omega 7) (Ex.line_wf ..) ⟨fun _ => fin 7⟩ (by simp [nanLine, Ex.line]) 0 (.inr (show (1 : ℝ) < 7 by norm_num))
    rw [nanLine_fits] at this
    cases this
  · rcases C80_compose (K := Ieee rnd omega) Ex.cfg Ex.cfg_ok a (nanLine rnd omega 7) [2] [1] ha ⟨Ex.line_wf .., rfl⟩ rfl
      (by decide) (by decide) with h | h
    · rw [nanLine_fits] at h
      cases h.1
    · obtain ⟨r, h, _⟩ := h.2.1
      exact ⟨r, h⟩

/-! ### concrete cases -/

/-- a curve with a NaN and an infinite coordinate, in `double` -/
noncomputable def exNonFinite : Spline (Point (Ieee (rndNear 53 (-1074)) (maxFinite 53 1024)) 2) :=
  Ex.curve ⟨![fin 0, fin (1 / 2)]⟩ ⟨![fin 1, inf true]⟩ ⟨![nan, fin 1]⟩

/-- the end point of the curve is NaN, at both ends -/
example := C97_evaluate exNonFinite (Ex.curve_wf ..) ⟨![nan, fin 1]⟩ (by simp [exNonFinite, Ex.curve]) 0 trivial [0] rfl
example := C97_parameter exNonFinite (Ex.curve_wf ..) [inf false] rfl 0 1 rfl (inf false) rfl trivial
example := C97_forward Ex.cfg Ex.cfg_ok exNonFinite (Ex.curve_wf ..) (by decide) ⟨![fin 1, inf true]⟩ (by simp [exNonFinite, Ex.curve]) 1
  trivial [1] rfl
example := C97_derivative Ex.cfg Ex.cfg_ok exNonFinite (Ex.curve_wf ..) (by decide) ⟨![fin 1, inf true]⟩ (by simp [exNonFinite, Ex.curve]) 1
  trivial [1] rfl [7] rfl
example := C97_split exNonFinite (Ex.curve_wf ..) ⟨![nan, fin 1]⟩ (by simp [exNonFinite, Ex.curve]) 0 trivial 0 (by decide) (fin (1 / 2))
  ⟨show (0 : ℝ) < 1 / 2 by norm_num, show (1 / 2 : ℝ) < 1 by norm_num⟩
example := C97_elevate exNonFinite (Ex.curve_wf ..) ⟨![nan, fin 1]⟩ (by simp [exNonFinite, Ex.curve]) 0 trivial 0 (by decide)
  (show size [3] < 2 ^ 31 by decide)
example := C97_product (rnd := rndNear 53 (-1074)) (omega := maxFinite 53 1024) Ex.cfg Ex.cfg_ok (Ex.line nan 1) (Ex.curve 0 1 0)
  (Ex.line_wf ..) (Ex.curve_wf ..) rfl (show ∀ p ∈ [3], p < 30 by decide) (.inl ⟨nan, by simp [Ex.line], trivial⟩)
example := C98_fits_partial exNonFinite (Ex.curve_wf ..) _ rfl
example := C98_reject_partial exNonFinite (Ex.curve_wf ..) _ rfl ⟨![fin 1, inf true]⟩ (by simp [exNonFinite, Ex.curve]) 1 (by simp)
  (.inl (show true = true from rfl))
example := C98_nan_first_fails (rnd := rndNear 53 (-1074)) (omega := maxFinite 53 1024)

end Bezman.Props
