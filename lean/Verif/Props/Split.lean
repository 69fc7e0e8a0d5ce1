import Verif.Props.Examples
import Verif.Proofs.PropsAux
import Verif.Proofs.SplitJoin
import Mathlib.Algebra.Order.Field.Rat

/-! # Properties: subdivision of polynomial splines -/

namespace Bezman.Props
open Spec

/-! ## C31: both halves trace the original -/

section
variable {K V : Type} [CommRing K] [LT K] [DecidableLT K] [AddCommGroup V] [Module K V]

/-- C31. Splitting at `z` with `0 < z < 1` in dimension `d`: both halves have the
degrees of the original; the first half at `t` is the original at `t` with `t_d`
replaced by `z t_d`, the second the original with `t_d` replaced by `z + (1-z) t_d`. -/
theorem C31_split (s : Spline V) (ds : List ℕ) (f : List K → V) (hs : s.Computes ds f) (d : ℕ) (hd : d < ds.length)
    (z : K) (h0 : 0 < z) (h1 : z < 1) :
    ∃ a b, s.splitAt z d = .ok (a, b) ∧
      a.Computes ds (fun t => f (t.modify d (fun x => z * x))) ∧
      b.Computes ds (fun t => f (t.modify d (fun x => z + (1 - z) * x))) := by
  have hp : s.degrees[d]? = some (ds[d]) := by rw [hs.degrees_eq]; exact List.getElem?_eq_getElem hd
  obtain ⟨a, b, e, wa, wb, da, db, hv⟩ := Spline.splitAt_ok (K := K) hs.wf hp ⟨h0, h1⟩
  refine ⟨a, b, e, Spline.Computes.mk' wa (da.trans hs.degrees_eq) ?_,
    Spline.Computes.mk' wb (db.trans hs.degrees_eq) ?_⟩
  all_goals
    intro t ht
    have hx : t[d]? = some (t[d]'(by omega)) := List.getElem?_eq_getElem (by omega)
    obtain ⟨va, vb⟩ := hv t _ (by rw [hs.dim_eq]; exact ht) hx
  · rw [va, hs.value_eq (by simp [ht]), List.modify_eq_set_getElem?, hx]; rfl
  · rw [vb, hs.value_eq (by simp [ht]), List.modify_eq_set_getElem?, hx]; rfl

/-- C31. A split parameter outside the open unit interval is rejected. -/
theorem C31_split_throws (s : Spline V) (d : ℕ) (z : K) (h : ¬ (0 < z ∧ z < 1)) :
    s.splitAt z d = .error .throws := Spline.splitAt_throws h

end

example : (1 : ℕ) < Ex.P.degrees.length ∧ (0 : ℚ) < 1/3 ∧ (1/3 : ℚ) < 1 := by
  refine ⟨by decide, by norm_num, by norm_num⟩

example : ∃ a b, Ex.P.splitAt (1/3 : ℚ) 1 = .ok (a, b) ∧
    a.Computes Ex.P.degrees (fun t : List ℚ => Ex.P.value (t.modify 1 (fun x => 1/3 * x))) ∧
    b.Computes Ex.P.degrees (fun t : List ℚ => Ex.P.value (t.modify 1 (fun x => 1/3 + (1 - 1/3) * x))) :=
  C31_split (K := ℚ) Ex.P _ _ Ex.P_wf.computes 1 (by decide) (1/3) (by norm_num) (by norm_num)

/-! ## C32: watertight in every arithmetic -/

section
variable {K V : Type} [Zero K] [One K] [Sub K] [LT K] [DecidableLT K] [Add V] [SMul K V]

/-- C32. No law of arithmetic is assumed: `K` and `V` may be floating point numbers,
or anything else with the operations used. The two halves share exactly the layer of
control points at the split, and the outer layers are exactly those of the original. -/
theorem C32_watertight (s : Spline V) (hs : s.WF) (d p : ℕ) (hd : s.degrees[d]? = some p) (z : K) (h0 : 0 < z)
    (h1 : z < 1) :
    ∃ a b, s.splitAt z d = .ok (a, b) ∧ a.degrees = s.degrees ∧ b.degrees = s.degrees ∧
      Spline.SameLayer s.degrees d p 0 a b ∧ Spline.SameLayer s.degrees d 0 0 a s ∧
      Spline.SameLayer s.degrees d p p b s := by
  obtain ⟨a, b, e, _, _, da, db, r⟩ := Spline.splitAt_join hs hd ⟨h0, h1⟩
  exact ⟨a, b, e, da, db, r⟩

/-- C33 (joins). Whenever splitting at several positions returns, there is one part
more than positions, consecutive parts share exactly a layer of control points, and
the outer layers are exactly those of the original. No law of arithmetic is assumed. -/
theorem C33_joins [Div K] (s : Spline V) (hs : s.WF) (d p : ℕ) (hd : s.degrees[d]? = some p) (planes : List K)
    (hne : planes ≠ []) (l : List (Spline V)) (hl : s.splitAtMany planes d = .ok l) :
    (∀ a ∈ l, a.WF ∧ a.degrees = s.degrees) ∧ l.length = planes.length + 1 ∧
    (∀ a, l[0]? = some a → Spline.SameLayer s.degrees d 0 0 a s) ∧
    (∀ a, l[planes.length]? = some a → Spline.SameLayer s.degrees d p p a s) ∧
    ∀ i a b, l[i]? = some a → l[i + 1]? = some b → Spline.SameLayer s.degrees d p 0 a b :=
  Spline.splitAtMany_join hs hd hne hl

end

/-- `Float` has all the operations C32 and C33_joins ask for, and no laws. -/
example (z : Float) (h0 : 0 < z) (h1 : z < 1) :
    letI : SMul Float Float := ⟨(· * ·)⟩
    ∃ a b, (Ex.surf (V := Float) 1 2 3 4 5 6).splitAt z 0 = .ok (a, b) ∧ a.degrees = [2, 1] ∧ b.degrees = [2, 1] ∧
      Spline.SameLayer [2, 1] 0 2 0 a b ∧ Spline.SameLayer [2, 1] 0 0 0 a (Ex.surf 1 2 3 4 5 6) ∧
      Spline.SameLayer [2, 1] 0 2 2 b (Ex.surf 1 2 3 4 5 6) := by
  letI : SMul Float Float := ⟨(· * ·)⟩
  have := C32_watertight (K := Float) (Ex.surf (V := Float) 1 2 3 4 5 6) (Ex.surf_wf 1 2 3 4 5 6) 0 2 rfl z h0 h1
  exact this

/-! ## C33: splitting at several positions -/

section
variable {K V : Type} [Field K] [LinearOrder K] [IsStrictOrderedRing K] [AddCommGroup V] [Module K V]

/-- C33. Strictly increasing positions in the open unit interval: part `i` traces the
original between the `i`-th and the `i+1`-st of `0, planes, 1`. -/
theorem C33_split_many (s : Spline V) (ds : List ℕ) (f : List K → V) (hs : s.Computes ds f) (d : ℕ)
    (hd : d < ds.length) (planes : List K) (hinc : planes.Pairwise (· < ·)) (hr : ∀ z ∈ planes, 0 < z ∧ z < 1) :
    ∃ l, s.splitAtMany planes d = .ok l ∧ l.length = planes.length + 1 ∧
      ∀ (i : ℕ) (a : Spline V) (lo hi : K), l[i]? = some a → (0 :: planes ++ [1])[i]? = some lo →
        (0 :: planes ++ [1])[i + 1]? = some hi →
        a.Computes ds (fun t => f (t.modify d (fun x => lo + (hi - lo) * x))) := by
  have hp : s.degrees[d]? = some (ds[d]) := by rw [hs.degrees_eq]; exact List.getElem?_eq_getElem hd
  obtain ⟨l, e, hl, hv⟩ := Spline.splitAtMany_ok (K := K) hs.wf hp hinc hr
  refine ⟨l, e, hl, fun i a lo hi ha hlo hhi => ?_⟩
  obtain ⟨wa, da, hv⟩ := hv i a ha
  refine Spline.Computes.mk' wa (da.trans hs.degrees_eq) fun t ht => ?_
  have hx : t[d]? = some (t[d]'(by omega)) := List.getElem?_eq_getElem (by omega)
  have c1 : Spline.cut planes i = lo := by rw [Spline.cut, List.getD_eq_getElem?_getD, hlo]; rfl
  have c2 : Spline.cut planes (i + 1) = hi := by rw [Spline.cut, List.getD_eq_getElem?_getD, hhi]; rfl
  rw [hv t _ (by rw [hs.dim_eq]; exact ht) hx, hs.value_eq (by simp [ht]), List.modify_eq_set_getElem?, hx, c1, c2]
  rfl

/-- C33. Every other list of positions is rejected. -/
theorem C33_split_many_throws (s : Spline V) (hs : s.WF) (d : ℕ) (hd : d < s.degrees.length) (planes : List K)
    (hbad : ¬ (planes.Pairwise (· < ·) ∧ ∀ z ∈ planes, 0 < z ∧ z < 1)) :
    s.splitAtMany planes d = .error .throws :=
  Spline.splitAtMany_throws hs (List.getElem?_eq_getElem hd) hbad

end

example : ∃ l, Ex.P.splitAtMany [(1/4 : ℚ), 1/2] 0 = .ok l ∧ l.length = 3 := by
  obtain ⟨l, h1, h2, _⟩ := C33_split_many (K := ℚ) Ex.P _ _ Ex.P_wf.computes 0 (by decide) [1/4, 1/2]
    (by simp; norm_num) (by simp; norm_num)
  exact ⟨l, h1, h2⟩

/-- a repeated position is rejected -/
example : Ex.P.splitAtMany [(1/2 : ℚ), 1/2] 0 = .error .throws :=
  C33_split_many_throws (K := ℚ) Ex.P Ex.P_wf 0 (by decide) [1/2, 1/2] (by simp)

end Bezman.Props
