import Verif.Spec.Mirror
import Verif.Proofs.Unique

/-! # Reversed and exchanged parametric dimensions -/

namespace Bezman
open Spec Finset

section
variable {K V : Type} [CommRing K] [AddCommGroup V] [Module K V]

theorem bern_flip {p i : ℕ} (hi : i ≤ p) (t : K) : bern p (p - i) (1 - t) = bern p i t := by
  unfold bern
  rw [Nat.choose_symm hi, sub_sub_cancel, Nat.sub_sub_self hi]
  ring

theorem bezier_flip : ∀ (ps : List ℕ) (d p : ℕ) (t : List K) (P : List ℕ → V), t.length = ps.length → ps[d]? = some p →
    bezier ps (flipAt d t) P = bezier ps t (fun idx => P (idx.modify d fun i => p - i))
  | [], _, _, _, _, _, h => by simp at h
  | q :: ps, 0, p, t :: ts, P, ht, h => by
    obtain rfl : q = p := by simpa using h
    show ∑ i ∈ range (q + 1), bern q i (1 - t) • bezier ps ts (fun idx => P (i :: idx)) =
      ∑ i ∈ range (q + 1), bern q i t • bezier ps ts (fun idx => P ((q - i) :: idx))
    rw [← sum_range_reflect]
    refine sum_congr rfl fun i hi => ?_
    have hi' : i ≤ q := by have := mem_range.mp hi; omega
    rw [show q + 1 - 1 - i = q - i by omega, bern_flip hi']
  | q :: ps, d + 1, p, t :: ts, P, ht, h => by
    show ∑ i ∈ range (q + 1), bern q i t • bezier ps (flipAt d ts) (fun idx => P (i :: idx)) = _
    refine sum_congr rfl fun i _ => ?_
    rw [bezier_flip ps d p ts _ (by simpa using ht) (by simpa using h)]
    rfl

theorem bezier_swap : ∀ (ps : List ℕ) (d : ℕ) (t : List K) (P Q : List ℕ → V), t.length = ps.length → d + 1 < ps.length →
    (∀ idx, ValidIdx ps idx → Q (swapAt d idx) = P idx) → bezier (swapAt d ps) (swapAt d t) Q = bezier ps t P
  | [], _, _, _, _, _, h, _ => by simp at h
  | [_], _, _, _, _, _, h, _ => by simp at h
  | q :: q' :: ps, 0, t :: t' :: ts, P, Q, ht, h, hP => by
    show ∑ j ∈ range (q' + 1), bern q' j t' • ∑ i ∈ range (q + 1), bern q i t • bezier ps ts (fun idx => Q (j :: i :: idx)) =
      ∑ i ∈ range (q + 1), bern q i t • ∑ j ∈ range (q' + 1), bern q' j t' • bezier ps ts (fun idx => P (i :: j :: idx))
    simp only [smul_sum]
    rw [sum_comm]
    refine sum_congr rfl fun i hi => sum_congr rfl fun j hj => ?_
    rw [smul_smul, smul_smul, mul_comm]
    congr 1
    refine bezier_congr fun idx hidx => ?_
    have h1 := mem_range.mp hi
    have h2 := mem_range.mp hj
    exact hP (i :: j :: idx) (.cons (by omega) (.cons (by omega) hidx))
  | q :: q' :: ps, d + 1, t :: ts, P, Q, ht, h, hP => by
    show ∑ i ∈ range (q + 1), bern q i t • bezier (swapAt d (q' :: ps)) (swapAt d ts) (fun idx => Q (i :: idx)) =
      ∑ i ∈ range (q + 1), bern q i t • bezier (q' :: ps) ts (fun idx => P (i :: idx))
    refine sum_congr rfl fun i hi => ?_
    rw [bezier_swap (q' :: ps) d ts (fun idx => P (i :: idx)) _ (by simpa using ht) (by simpa using h) fun idx hidx => ?_]
    have h1 := mem_range.mp hi
    exact hP (i :: idx) (.cons (by omega) hidx)

end

theorem length_flipAt {K : Type} [One K] [Sub K] (d : ℕ) (t : List K) : (flipAt d t).length = t.length := by simp [flipAt]

theorem flipAt_flipAt {K : Type} [CommRing K] (d : ℕ) (t : List K) : flipAt d (flipAt d t) = t := by
  unfold flipAt
  apply List.ext_getElem
  · simp
  · intro i h1 h2
    rw [List.getElem_modify, List.getElem_modify]
    split <;> simp

theorem length_swapAt {α : Type} : ∀ (d : ℕ) (l : List α), (swapAt d l).length = l.length
  | 0, [] => rfl
  | 0, [_] => rfl
  | 0, _ :: _ :: _ => rfl
  | _ + 1, [] => rfl
  | d + 1, _ :: l => by simp [swapAt, length_swapAt d l]

theorem swapAt_swapAt {α : Type} : ∀ (d : ℕ) (l : List α), swapAt d (swapAt d l) = l
  | 0, [] => rfl
  | 0, [_] => rfl
  | 0, _ :: _ :: _ => rfl
  | _ + 1, [] => rfl
  | d + 1, _ :: l => by simp [swapAt, swapAt_swapAt d l]

theorem valid_flip {ps idx : List ℕ} (h : ValidIdx ps idx) {d p : ℕ} (hp : ps[d]? = some p) : ValidIdx ps (idx.modify d fun i => p - i) := by
  induction h generalizing d with
  | nil => simp at hp
  | cons h1 h2 ih =>
    cases d with
    | zero =>
      simp only [List.getElem?_cons_zero, Option.some.injEq] at hp
      subst hp
      exact .cons (Nat.sub_le _ _) h2
    | succ d => exact .cons h1 (ih (by simpa using hp))

theorem valid_swap : ∀ {ps idx : List ℕ} (_ : ValidIdx ps idx) (d : ℕ), ValidIdx (swapAt d ps) (swapAt d idx)
  | _, _, .nil, 0 => .nil
  | _, _, .nil, _ + 1 => .nil
  | _, _, .cons h .nil, 0 => .cons h .nil
  | _, _, .cons h1 (.cons h2 h3), 0 => .cons h2 (.cons h1 h3)
  | _, _, .cons h hs, d + 1 => .cons h (valid_swap hs d)

section
variable {K V : Type} [Field K] [CharZero K] [AddCommGroup V] [Module K V]

/-- the function of a reversed spline -/
theorem Spec.Mirrored.computes {d : ℕ} {s s' : Spline V} {ds : List ℕ} {f : List K → V} (h : Mirrored d s s') (hs : s.Computes ds f)
    (hd : d < ds.length) : s'.Computes ds (fun t => f (flipAt d t)) := by
  have e := hs.degrees_eq
  refine Spline.Computes.mk' h.wf' (h.degrees.trans e) fun t ht => ?_
  have hp : ds[d]? = some ds[d] := List.getElem?_eq_getElem hd
  rw [← hs.value_eq (by rw [length_flipAt]; exact ht)]
  unfold Spline.value
  rw [h.degrees, e, bezier_flip ds d _ t _ ht hp]
  refine bezier_congr fun idx hidx => ?_
  have h1 := h.points idx ds[d] (by rw [e]; exact hidx) (by rw [e]; exact hp)
  rw [Spline.controlPoint_ok h.wf' (by rw [h.degrees, e]; exact hidx), Spline.controlPoint_ok h.wf (by rw [e]; exact valid_flip hidx hp)] at h1
  injection h1 with h1
  unfold Spline.net at h1
  rwa [h.degrees, e] at h1

/-- a spline with the reversed function is the reversed spline -/
theorem mirrored_of {d : ℕ} {s s' : Spline V} {ds : List ℕ} {f g : List K → V} (hs : s.Computes ds f) (hs' : s'.Computes ds g)
    (hd : d < ds.length) (hfg : ∀ t : List K, t.length = ds.length → g t = f (flipAt d t)) : Mirrored d s s' := by
  have e := hs.degrees_eq
  have e' := hs'.degrees_eq
  refine ⟨hs.wf, hs'.wf, e'.trans e.symm, fun idx p hidx hp => ?_⟩
  rw [e] at hidx hp
  rw [Spline.controlPoint_ok hs'.wf (by rw [e']; exact hidx), Spline.controlPoint_ok hs.wf (by rw [e]; exact valid_flip hidx hp)]
  congr 1
  refine bezier_unique (K := K) (ps := ds) (P := s'.net) (Q := fun idx => s.net (idx.modify d fun i => p - i)) (fun t ht => ?_) idx hidx
  rw [← bezier_flip ds d p t s.net ht hp]
  have h1 := hs'.value_eq ht
  have h2 := hs.value_eq (t := flipAt d t) (by rw [length_flipAt]; exact ht)
  unfold Spline.value at h1 h2
  rw [e'] at h1
  rw [e] at h2
  unfold Spline.net
  rw [e, e', h1, h2, hfg t ht]

/-- the function of a spline with exchanged dimensions -/
theorem Spec.Exchanged.computes {d : ℕ} {s s' : Spline V} {ds : List ℕ} {f : List K → V} (h : Exchanged d s s') (hs : s.Computes ds f) :
    s'.Computes (swapAt d ds) (fun t => f (swapAt d t)) := by
  have e := hs.degrees_eq
  have hd := h.inside
  rw [e] at hd
  refine Spline.Computes.mk' h.wf' (by rw [h.degrees, e]) fun t ht => ?_
  rw [length_swapAt] at ht
  rw [← hs.value_eq (by rw [length_swapAt]; exact ht)]
  unfold Spline.value
  rw [h.degrees, e]
  conv_lhs => rw [← swapAt_swapAt d t]
  refine bezier_swap ds d _ _ _ (by rw [length_swapAt]; exact ht) hd fun idx hidx => ?_
  have h1 := h.points idx (by rw [e]; exact hidx)
  rw [Spline.controlPoint_ok h.wf' (by rw [h.degrees, e]; exact valid_swap hidx d), Spline.controlPoint_ok h.wf (by rw [e]; exact hidx)] at h1
  injection h1 with h1
  unfold Spline.net at h1
  rwa [h.degrees, e] at h1

/-- a spline with the function of exchanged parameters is the spline with exchanged dimensions -/
theorem exchanged_of {d : ℕ} {s s' : Spline V} {ds : List ℕ} {f g : List K → V} (hs : s.Computes ds f) (hs' : s'.Computes (swapAt d ds) g)
    (hd : d + 1 < ds.length) (hfg : ∀ t : List K, t.length = ds.length → g (swapAt d t) = f t) : Exchanged d s s' := by
  have e := hs.degrees_eq
  have e' := hs'.degrees_eq
  refine ⟨hs.wf, hs'.wf, by rw [e]; exact hd, by rw [e', e], fun idx hidx => ?_⟩
  rw [e] at hidx
  rw [Spline.controlPoint_ok hs'.wf (by rw [e']; exact valid_swap hidx d), Spline.controlPoint_ok hs.wf (by rw [e]; exact hidx)]
  congr 1
  refine bezier_unique (K := K) (ps := ds) (P := fun idx => s'.net (swapAt d idx)) (Q := s.net) (fun t ht => ?_) idx hidx
  rw [← bezier_swap (K := K) ds d t (fun idx => s'.net (swapAt d idx)) s'.net ht hd fun _ _ => rfl]
  have h1 := hs'.value_eq (t := swapAt d t) (by rw [length_swapAt, length_swapAt]; exact ht)
  have h2 := hs.value_eq ht
  unfold Spline.value at h1 h2
  rw [e'] at h1
  rw [e] at h2
  unfold Spline.net
  rw [e, e', h1, h2, hfg t ht]

end
end Bezman
