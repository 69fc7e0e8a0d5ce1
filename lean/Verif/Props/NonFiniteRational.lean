import Verif.Props.NonFinite
import Verif.Proofs.Microstructure

/-! # Properties: infinities and NaN in rational splines and in comparisons -/

namespace Bezman.Props
open Spec Ieee
variable {rnd : ℝ → ℝ} {omega : ℝ} {n : ℕ}

/-! ## equality -/

theorem Ieee.beq_iff (a b : Ieee rnd omega) : (a == b) = true ↔ a = b ∧ a ≠ nan := by
  rcases a with x | s | _ <;> rcases b with y | s' | _ <;>
    first
    | (show decide (x = y) = true ↔ _; simp)
    | (show (s == s') = true ↔ _; simp)
    | (show false = true ↔ _; simp)

theorem Ieee.point_beq_iff (a b : Point (Ieee rnd omega) n) : (a == b) = true ↔ a = b ∧ ∀ j, a.val j ≠ nan := by
  show ((List.finRange n).all fun i => a.val i == b.val i) = true ↔ _
  rw [List.all_eq_true]
  constructor
  · intro h
    have h' : ∀ j, a.val j = b.val j ∧ a.val j ≠ nan := fun j => (Ieee.beq_iff _ _).mp (h j (List.mem_finRange j))
    exact ⟨Point.ext (funext fun j => (h' j).1), fun j => (h' j).2⟩
  · rintro ⟨rfl, h⟩ j _
    exact (Ieee.beq_iff _ _).mpr ⟨rfl, h j⟩

theorem forall₂_beq {V : Type} [BEq V] {Q : V → Prop} (hV : ∀ a b : V, (a == b) = true ↔ a = b ∧ Q a) :
    ∀ l m : List V, List.Forall₂ (fun x y => (y == x) = true) l m ↔ l = m ∧ ∀ x ∈ l, Q x
  | [], [] => by simp
  | [], _ :: _ => by simp
  | _ :: _, [] => by simp
  | x :: l, y :: m => by
    rw [List.forall₂_cons, forall₂_beq hV l m, hV]
    constructor
    · rintro ⟨⟨rfl, h1⟩, rfl, h2⟩
      exact ⟨rfl, by simpa using ⟨h1, h2⟩⟩
    · intro h
      obtain ⟨h1, h2⟩ := h
      cases h1
      simp only [List.mem_cons, forall_eq_or_imp] at h2
      exact ⟨⟨rfl, h2.1⟩, rfl, h2.2⟩

/-- C97. Two splines compare equal exactly if they have the same degrees and the same control points, infinite coordinates and their signs
included, and no coordinate is NaN. -/
theorem C97_equality (a b : Spline (Point (Ieee rnd omega) n)) :
    a.eqOp b = true ↔ a.degrees = b.degrees ∧ a.cps = b.cps ∧ ∀ x ∈ a.cps, ∀ j, x.val j ≠ nan := by
  rw [C34_pointwise, forall₂_beq Ieee.point_beq_iff]

/-- C97. The same for splines with numbers as control points, the weight functions among them. -/
theorem C97_equality_scalar (a b : Spline (Ieee rnd omega)) :
    a.eqOp b = true ↔ a.degrees = b.degrees ∧ a.cps = b.cps ∧ ∀ x ∈ a.cps, x ≠ nan := by
  rw [C34_pointwise, forall₂_beq Ieee.beq_iff]

/-- C97. So a spline with a NaN coordinate is not equal to itself, nor to its copies. -/
theorem C97_nan_unequal (s : Spline (Point (Ieee rnd omega) n)) (x : Point (Ieee rnd omega) n) (hx : x ∈ s.cps) (j : Fin n)
    (hj : x.val j = nan) : s.eqOp s = false := by
  rw [← Bool.not_eq_true, C97_equality]
  exact fun h => h.2.2 x hx j hj

/-! ## NaN -/

theorem Ieee.nan_add {a b : Ieee rnd omega} (h : a = nan ∨ b = nan) : a + b = nan := by
  rcases h with rfl | rfl
  · rfl
  · cases a <;> rfl

theorem Ieee.nan_mul {a b : Ieee rnd omega} (h : a = nan ∨ b = nan) : a * b = nan := by
  rcases h with rfl | rfl
  · rfl
  · cases a <;> rfl

theorem Ieee.nan_div {a b : Ieee rnd omega} (h : a = nan ∨ b = nan) : a / b = nan := by
  rcases h with rfl | rfl
  · rfl
  · cases a <;> rfl

/-- C97. A NaN coordinate of a control point makes that coordinate of every evaluated point NaN. -/
theorem C97_nan_evaluate (s : Spline (Point (Ieee rnd omega) n)) (hs : s.WF) (x : Point (Ieee rnd omega) n) (hx : x ∈ s.cps) (j : Fin n)
    (hj : x.val j = nan) (t : List (Ieee rnd omega)) (ht : t.length = s.dim) :
    ∃ y, s.evaluate t = .ok y ∧ y.val j = nan := by
  obtain ⟨idx, hv, hc⟩ := hs.index_of_mem hx
  have hP := hasPoints_self hs
  refine ⟨_, Spline.evaluate_casteljau hs ht hP, ?_⟩
  refine casteljau_absorb (T := fun y : Point (Ieee rnd omega) n => y.val j = nan) (fun t a b h => ?_) ht hv ?_
  · exact Ieee.nan_add (h.imp (fun h => Ieee.nan_mul (.inl h)) (fun h => Ieee.nan_mul (.inl h)))
  · have : x = s.cps.getD (flatIndex s.degrees idx) 0 := Except.ok.inj (hc.symm.trans (hP idx hv))
    show (s.cps.getD (flatIndex s.degrees idx) 0).val j = nan
    rw [← this]
    exact hj

theorem nan_evaluate_scalar (s : Spline (Ieee rnd omega)) (hs : s.WF) (x : Ieee rnd omega) (hx : x ∈ s.cps)
    (hj : x = nan) (t : List (Ieee rnd omega)) (ht : t.length = s.dim) : s.evaluate t = .ok nan := by
  obtain ⟨idx, hv, hc⟩ := hs.index_of_mem hx
  have hP := hasPoints_self hs
  rw [Spline.evaluate_casteljau hs ht hP]
  congr 1
  refine casteljau_absorb (T := fun y : Ieee rnd omega => y = nan) (fun t a b h => ?_) ht hv ?_
  · exact Ieee.nan_add (h.imp (fun h => Ieee.nan_mul (.inr h)) (fun h => Ieee.nan_mul (.inr h)))
  · have : x = s.cps.getD (flatIndex s.degrees idx) 0 := Except.ok.inj (hc.symm.trans (hP idx hv))
    show s.cps.getD (flatIndex s.degrees idx) 0 = nan
    rw [← this]
    exact hj

/-! ## rational splines -/

/-- C97. If a coordinate of a weighted control point of a rational spline is infinite or NaN, so is that coordinate of every point the
spline evaluates to. -/
theorem C97_rational_evaluate (r : RSpline (Ieee rnd omega) (Point (Ieee rnd omega) n)) (h1 : r.num.WF) (h2 : r.wt.WF)
    (hd : r.wt.degrees = r.num.degrees) (x : Point (Ieee rnd omega) n) (hx : x ∈ r.num.cps) (j : Fin n) (hj : (x.val j).NonFinite)
    (t : List (Ieee rnd omega)) (ht : t.length = r.num.dim) :
    ∃ w, r.wt.evaluate t = .ok w ∧ (w = fin 0 → r.evaluate t = .error .divZero) ∧
      (w ≠ fin 0 → ∃ y, r.evaluate t = .ok y ∧ (y.val j).NonFinite) := by
  obtain ⟨y, hy, hn⟩ := C97_evaluate r.num h1 x hx j hj t ht
  refine ⟨_, Spline.evaluate_casteljau h2 (by rw [ht, Spline.dim, Spline.dim, hd]) (hasPoints_self h2), ?_, ?_⟩
  · intro h
    unfold RSpline.evaluate
    rw [hy, Spline.evaluate_casteljau h2 (by rw [ht, Spline.dim, Spline.dim, hd]) (hasPoints_self h2), h]
    show divM _ _ = _
    exact if_pos ((Ieee.beq_iff _ _).mpr ⟨rfl, by simp⟩)
  · intro h
    unfold RSpline.evaluate
    rw [hy, Spline.evaluate_casteljau h2 (by rw [ht, Spline.dim, Spline.dim, hd]) (hasPoints_self h2)]
    refine ⟨_, if_neg fun h' => h ((Ieee.beq_iff _ _).mp h').1, ?_⟩
    exact nonFinite_mul (.inl hn)

/-- C97. A rational spline built from control points and weights, one of the weights infinite or NaN: no coordinate of any point it
evaluates to is finite. -/
theorem C97_rational_weight (ds : List ℕ) (hds : 0 < ds.length) (points : List (Point (Ieee rnd omega) n)) (weights : List (Ieee rnd omega))
    (hp : points.length = size ds) (hw : weights.length = size ds) (w : Ieee rnd omega) (hx : w ∈ weights) (hn : w.NonFinite) :
    ∃ r, RSpline.ofPoints ds points weights = .ok r ∧ ∀ t : List (Ieee rnd omega), t.length = ds.length →
      r.evaluate t = .error .divZero ∨ ∃ y, r.evaluate t = .ok y ∧ ∀ j, (y.val j).NonFinite := by
  refine ⟨_, Microstructure.ofPoints_any hds hp hw, fun t ht => ?_⟩
  set r : RSpline (Ieee rnd omega) (Point (Ieee rnd omega) n) := ⟨⟨ds, size ds, offsetsOf ds, List.zipWith (fun w x => w • x) weights points⟩,
      ⟨ds, size ds, offsetsOf ds, weights⟩⟩ with hr
  have h1 : r.num.WF := ⟨hds, rfl, rfl, by simp [hr, hp, hw]⟩
  have h2 : r.wt.WF := ⟨hds, rfl, rfl, hw⟩
  obtain ⟨i, hi, rfl⟩ := List.mem_iff_getElem.mp hx
  have hm : weights[i] • points[i]'(by omega) ∈ r.num.cps :=
    List.mem_iff_getElem.mpr ⟨i, by simp [hr]; omega, by simp [hr]⟩
  have hall := fun j => C97_rational_evaluate r h1 h2 rfl _ hm j (nonFinite_mul (.inr hn)) t ht
  have hv := Spline.evaluate_casteljau h2 (t := t) ht (hasPoints_self h2)
  obtain ⟨y, hy⟩ : ∃ y, r.num.evaluate t = .ok y := ⟨_, Spline.evaluate_casteljau h1 ht (hasPoints_self h1)⟩
  by_cases h0 : (casteljau r.wt.degrees t fun idx => r.wt.cps.getD (flatIndex r.wt.degrees idx) 0) = (fin 0 : Ieee rnd omega)
  · left
    unfold RSpline.evaluate
    rw [hy, hv, h0]
    exact if_pos ((Ieee.beq_iff _ _).mpr ⟨rfl, by simp⟩)
  · right
    have hok : r.evaluate t = .ok (ScalarDiv.sdiv y (casteljau r.wt.degrees t fun idx => r.wt.cps.getD (flatIndex r.wt.degrees idx) 0)) := by
      unfold RSpline.evaluate
      rw [hy, hv]
      exact if_neg fun h' => h0 ((Ieee.beq_iff _ _).mp h').1
    refine ⟨_, hok, fun j => ?_⟩
    obtain ⟨w, hw1, _, hw3⟩ := hall j
    obtain ⟨y', hy', hn'⟩ := hw3 (by rw [hv] at hw1; cases hw1; exact h0)
    rw [hok] at hy'
    cases hy'
    exact hn'

/-- C97. A weight that is NaN, however it got there, makes all coordinates of all points NaN. -/
theorem C97_rational_nan (r : RSpline (Ieee rnd omega) (Point (Ieee rnd omega) n)) (h1 : r.num.WF) (h2 : r.wt.WF)
    (hd : r.wt.degrees = r.num.degrees) (hx : nan ∈ r.wt.cps) (t : List (Ieee rnd omega)) (ht : t.length = r.num.dim) :
    ∃ y, r.evaluate t = .ok y ∧ ∀ j, y.val j = nan := by
  unfold RSpline.evaluate
  rw [Spline.evaluate_casteljau h1 ht (hasPoints_self h1),
    nan_evaluate_scalar r.wt h2 nan hx rfl t (by rw [ht, Spline.dim, Spline.dim, hd])]
  refine ⟨_, (if_neg fun h' => ?_ : divM _ (nan : Ieee rnd omega) = _), fun j => Ieee.nan_mul (.inr (Ieee.nan_div (.inr rfl)))⟩
  cases ((Ieee.beq_iff _ _).mp h').1

/-- C97. An infinite weight is masked if it is written into the weight function after the weighted control points were formed: where the
weight function is infinite and the weighted points are finite, the spline evaluates to 0 in all coordinates. -/
theorem C97_infinite_weight_masked (h0 : rnd 0 = 0) (ho : 0 ≤ omega) (r : RSpline (Ieee rnd omega) (Point (Ieee rnd omega) n))
    (t : List (Ieee rnd omega)) (x : Point (Ieee rnd omega) n) (hx : r.num.evaluate t = .ok x) (hf : ∀ j, ¬ (x.val j).NonFinite)
    (s : Bool) (hw : r.wt.evaluate t = .ok (inf s)) : ∃ y, r.evaluate t = .ok y ∧ ∀ j, y.val j = fin 0 := by
  unfold RSpline.evaluate
  rw [hx, hw]
  refine ⟨_, (if_neg fun h' => ?_ : divM _ (inf s : Ieee rnd omega) = _), fun j => ?_⟩
  · cases ((Ieee.beq_iff _ _).mp h').1
  have hf' := hf j
  show x.val j * (fin 0 : Ieee rnd omega) = fin 0
  cases hv : x.val j with
  | fin v =>
    show Ieee.round (v * 0) = fin 0
    rw [mul_zero, Ieee.round, h0, abs_zero, if_pos ho]
  | inf s => rw [hv] at hf'; exact (hf' trivial).elim
  | nan => rw [hv] at hf'; exact (hf' trivial).elim

/-- C97. The sign of an infinite value of a rational spline with numbers as control points: it changes with a negative weight. -/
theorem C97_rational_sign (r : RSpline (Ieee rnd omega) (Ieee rnd omega)) (t : List (Ieee rnd omega)) (s : Bool)
    (hx : r.num.evaluate t = .ok (inf s)) (w : ℝ) (hw : r.wt.evaluate t = .ok (fin w)) :
    (w = 0 → r.evaluate t = .error .divZero) ∧ (0 < w → r.evaluate t = .ok (inf s)) ∧ (w < 0 → r.evaluate t = .ok (inf !s)) := by
  unfold RSpline.evaluate
  rw [hx, hw]
  have key : w ≠ 0 → divM (inf s : Ieee rnd omega) (fin w : Ieee rnd omega) = .ok (inf (Bool.xor s (decide (w < 0)))) := by
    intro h
    exact if_neg fun h' => h (by have := ((Ieee.beq_iff _ _).mp h').1; cases this; rfl)
  refine ⟨?_, fun h => ?_, fun h => ?_⟩
  · rintro rfl
    exact if_pos ((Ieee.beq_iff _ _).mpr ⟨rfl, by simp⟩)
  · refine (key h.ne').trans ?_
    simp [not_lt.mpr h.le]
  · refine (key h.ne).trans ?_
    simp [h]

/-! ### concrete cases -/

local notation "D" => Ieee (rndNear 53 (-1074)) (maxFinite 53 1024)

example : exNonFinite.eqOp exNonFinite = false := C97_nan_unequal exNonFinite ⟨![nan, fin 1]⟩ (by simp [exNonFinite, Ex.curve]) 0 rfl
example : (Ex.line (inf true) (fin 1) : Spline D).eqOp (Ex.line (inf true) (fin 1)) = true :=
  (C97_equality_scalar _ _).mpr ⟨rfl, rfl, by simp [Ex.line]⟩
example : (Ex.line (inf true) (fin 1) : Spline D).eqOp (Ex.line (inf false) (fin 1)) = false := by
  rw [← Bool.not_eq_true, C97_equality_scalar]
  simp [Ex.line]
example := C97_nan_evaluate exNonFinite (Ex.curve_wf ..) ⟨![nan, fin 1]⟩ (by simp [exNonFinite, Ex.curve]) 0 rfl [0] rfl
example := C97_rational_evaluate ⟨exNonFinite, Ex.curve 1 1 (fin (1 / 2))⟩ (Ex.curve_wf ..) (Ex.curve_wf ..) rfl ⟨![fin 1, inf true]⟩
  (by simp [exNonFinite, Ex.curve]) 1 trivial [1] rfl
example := C97_rational_weight (rnd := rndNear 53 (-1074)) (omega := maxFinite 53 1024) [1] (by decide)
  [⟨![fin 0, fin 1]⟩, ⟨![fin 1, fin 0]⟩] [1, inf false] rfl rfl (inf false) (by simp) trivial
example := C97_rational_nan ⟨exNonFinite, Ex.curve 1 nan (fin (1 / 2))⟩ (Ex.curve_wf ..) (Ex.curve_wf ..) rfl (by simp [Ex.curve]) [1] rfl
/-- the curve of degree 0 with the weighted point (3, 4) and the infinite weight evaluates to the origin -/
example : ∃ y, (⟨⟨[0], 1, [1], [⟨![fin 3, fin 4]⟩]⟩, ⟨[0], 1, [1], [inf false]⟩⟩ : RSpline D (Point D 2)).evaluate [fin 1] = .ok y ∧
    ∀ j, y.val j = fin 0 :=
  C97_infinite_weight_masked (double_nearest.zero) (le_trans (by positivity) (one_le_maxFinite (p := 53) (by norm_num) (by norm_num))) _ [fin 1] ⟨![fin 3, fin 4]⟩ rfl
    (by intro j; fin_cases j <;> exact id) false rfl
example : (⟨⟨[0], 1, [1], [inf true]⟩, ⟨[0], 1, [1], [fin (-2)]⟩⟩ : RSpline D D).evaluate [fin 1] = .ok (inf false) :=
  (C97_rational_sign _ [fin 1] true rfl (-2) rfl).2.2 (by norm_num)

end Bezman.Props
