import Verif.Spec.FloatArith
import Verif.Proofs.Joint
import Verif.Proofs.FloatRound
import Verif.Props.FloatArith
import Verif.Model.Rational

/-! # Properties: evaluation in any arithmetic, watertight joints -/

namespace Bezman.Props
open Spec

section
variable {K V : Type} [One K] [Sub K] [Add V] [SMul K V]

/-- C67. `Evaluate` is de Casteljau's algorithm, whatever the operations are: the result is that of the formula
`Spec.casteljau`, operation by operation. -/
theorem C67_casteljau (s : Spline V) (hs : s.WF) (t : List K) (ht : t.length = s.dim) (P : List ℕ → V)
    (hP : ∀ idx, ValidIdx s.degrees idx → s.controlPoint idx = .ok (P idx)) :
    s.evaluate t = .ok (casteljau s.degrees t P) := Spline.evaluate_casteljau hs ht hP

end

section
variable {K V : Type} [Zero K] [One K] [Sub K] [Add V] [SMul K V]

/-- C68. Two splines that share a layer of control points on an outer side in direction `d` (side `x = 0`: layer 0, side
`x = 1`: last layer) have exactly the same values along it, in any arithmetic that is exact at the ends.
The degrees in direction `d` may differ. -/
theorem C68_joint (S : V → Prop) (hS : ExactEnds K S) (a b : Spline V) (ha : a.WF) (hb : b.WF) (hSa : ∀ x ∈ a.cps, S x)
    (hSb : ∀ x ∈ b.cps, S x) (d p q : ℕ) (hp : a.degrees[d]? = some p) (hq : b.degrees = a.degrees.set d q)
    (i j : ℕ) (x y : K) (hi : (i = 0 ∧ x = 0) ∨ (i = p ∧ x = 1)) (hj : (j = 0 ∧ y = 0) ∨ (j = q ∧ y = 1))
    (hl : Spline.SameLayer a.degrees d i j a b) (t : List K) (ht : t.length = a.dim) :
    ∃ v, a.evaluate (t.set d x) = .ok v ∧ b.evaluate (t.set d y) = .ok v :=
  Spline.evaluate_joint hS.closed hS.at_zero hS.at_one ha hb hSa hSb hp hq hi hj hl ht

/-- C68. Consecutive parts of a split have exactly the same values along the cut. -/
theorem C68_split [LT K] [DecidableLT K] [Div K] (S : V → Prop) (hS : ExactEnds K S) (s : Spline V) (hs : s.WF)
    (hSs : ∀ x ∈ s.cps, S x) (d p : ℕ) (hp : s.degrees[d]? = some p) (zs : List K) (hne : zs ≠ []) (l : List (Spline V))
    (hl : s.splitAtMany zs d = .ok l) (i : ℕ) (a b : Spline V) (ha : l[i]? = some a) (hb : l[i + 1]? = some b)
    (t : List K) (ht : t.length = s.dim) :
    ∃ v, a.evaluate (t.set d 1) = .ok v ∧ b.evaluate (t.set d 0) = .ok v := by
  obtain ⟨h1, _, _, _, h5⟩ := Spline.splitAtMany_join hs hp hne hl
  have hc := Spline.splitAtMany_closed (Q := fun _ => True) (fun t a b _ => hS.closed t a b) (fun _ _ _ _ => trivial) (fun _ _ _ _ => trivial) hSs hl
  obtain ⟨wa, da⟩ := h1 a (List.mem_of_getElem? ha)
  obtain ⟨wb, db⟩ := h1 b (List.mem_of_getElem? hb)
  refine C68_joint S hS a b wa wb (hc a (List.mem_of_getElem? ha)) (hc b (List.mem_of_getElem? hb)) d p p (by rw [da]; exact hp)
    ?_ p 0 1 0 (Or.inr ⟨rfl, rfl⟩) (Or.inl ⟨rfl, rfl⟩) (by rw [da]; exact h5 i a b ha hb) t
    (by rw [ht, Spline.dim, Spline.dim, da])
  rw [da, db]
  obtain ⟨hd, e⟩ := List.getElem?_eq_some_iff.mp hp
  rw [← e, List.set_getElem_self]

/-- C68. Rational splines that share a layer of weighted control points and weights. -/
theorem C68_rational_joint [BEq K] [Add K] [Mul K] [ScalarDiv K V] (S : V → Prop) (hS : ExactEnds K S) (T : K → Prop)
    (hT : ExactEnds (V := K) K T) (a b : RSpline K V) (d p q : ℕ) (ha : a.num.WF) (hb : b.num.WF) (ha' : a.wt.WF) (hb' : b.wt.WF)
    (hac : a.wt.degrees = a.num.degrees) (hbc : b.wt.degrees = b.num.degrees)
    (hSa : ∀ x ∈ a.num.cps, S x) (hSb : ∀ x ∈ b.num.cps, S x) (hTa : ∀ x ∈ a.wt.cps, T x) (hTb : ∀ x ∈ b.wt.cps, T x)
    (hp : a.num.degrees[d]? = some p) (hq : b.num.degrees = a.num.degrees.set d q)
    (i j : ℕ) (x y : K) (hi : (i = 0 ∧ x = 0) ∨ (i = p ∧ x = 1)) (hj : (j = 0 ∧ y = 0) ∨ (j = q ∧ y = 1))
    (hl : Spline.SameLayer a.num.degrees d i j a.num b.num) (hl' : Spline.SameLayer a.num.degrees d i j a.wt b.wt)
    (t : List K) (ht : t.length = a.dim) : a.evaluate (t.set d x) = b.evaluate (t.set d y) := by
  obtain ⟨v, e1, e2⟩ := C68_joint S hS a.num b.num ha hb hSa hSb d p q hp hq i j x y hi hj hl t ht
  obtain ⟨w, e3, e4⟩ := C68_joint T hT a.wt b.wt ha' hb' hTa hTb d p q (by rw [hac]; exact hp) (by rw [hac, hbc]; exact hq)
    i j x y hi hj (by rw [hac]; exact hl') t (by rw [ht, RSpline.dim, Spline.dim, Spline.dim, hac])
  unfold RSpline.evaluate
  rw [e1, e2, e3, e4]

end

/-! ## Floating-point numbers -/

variable {A : FloatArith}

/-- Representable floating-point numbers are exact at the ends. -/
theorem C68_float (h0 : A.Representable 0) (h1 : A.Representable 1) (hc : A.Closed) :
    ExactEnds (V := Fl A) (Fl A) (fun x => A.Representable x.val) := by
  have e0 : (1 : Fl A) - 0 = 1 := Fl.ext (h1.sub _ _ (by simp))
  have e1 : (1 : Fl A) - 1 = 0 := Fl.ext (h0.sub _ _ (by simp))
  refine ⟨fun t a b _ _ => hc _ _, fun a b ha hb => ?_, fun a b ha hb => ?_⟩
  · rw [e0]
    refine Fl.ext (ha.add _ _ ?_)
    rw [Fl.smul_val, Fl.smul_val, ha.mul _ _ (by simp), h0.mul _ _ (by simp), add_zero]
  · rw [e1]
    refine Fl.ext (hb.add _ _ ?_)
    rw [Fl.smul_val, Fl.smul_val, h0.mul _ _ (by simp), hb.mul _ _ (by simp), zero_add]

/-- Points with representable coordinates are exact at the ends. -/
theorem C68_float_point {n : ℕ} (h0 : A.Representable 0) (h1 : A.Representable 1) (hc : A.Closed) :
    ExactEnds (V := Point (Fl A) n) (Fl A) (fun x => ∀ i, A.Representable (x.val i).val) := by
  have e0 : (1 : Fl A) - 0 = 1 := Fl.ext (h1.sub _ _ (by simp))
  have e1 : (1 : Fl A) - 1 = 0 := Fl.ext (h0.sub _ _ (by simp))
  refine ⟨fun t a b _ _ i => hc _ _, fun a b ha hb => ?_, fun a b ha hb => ?_⟩
  · rw [e0]
    ext i
    refine (ha i).add _ _ ?_
    show A.mul (a.val i).val 1 + A.mul (b.val i).val 0 = _
    rw [(ha i).mul _ _ (by simp), h0.mul _ _ (by simp), add_zero]
  · rw [e1]
    ext i
    refine (hb i).add _ _ ?_
    show A.mul (a.val i).val 0 + A.mul (b.val i).val 1 = _
    rw [h0.mul _ _ (by simp), (hb i).mul _ _ (by simp), zero_add]

/-! ## Examples -/

/-- a surface split at 1/4 in floating point: the halves agree along the cut at every parameter -/
example (t : F64) : ∃ a b v, exFl.splitAtMany [(⟨1 / 4⟩ : F64)] 0 = .ok [a, b] ∧
    a.evaluate [1, t] = .ok v ∧ b.evaluate [0, t] = .ok v := by
  have hlt : (0 : F64) < ⟨1 / 4⟩ ∧ (⟨1 / 4⟩ : F64) < 1 := by
    constructor
    · show (0 : ℝ) < 1 / 4; norm_num
    · show (1 / 4 : ℝ) < 1; norm_num
  obtain ⟨a, b, h, _⟩ := Spline.splitAt_join (s := exFl) (Ex.surf_wf ..) (d := 0) (p := 2) rfl hlt
  have e : exFl.splitAtMany [(⟨1 / 4⟩ : F64)] 0 = .ok [a, b] := by
    unfold Spline.splitAtMany
    rw [if_neg (by simp [Spline.isSorted]), if_neg (by simp)]
    show (exFl.splitAt (⟨1 / 4⟩ : F64) 0 >>= _) = _
    rw [h]; rfl
  obtain ⟨v, h1, h2⟩ := C68_split _ (C68_float f64_zero f64_one (FloatArith.binary_closed (by norm_num))) exFl (Ex.surf_wf ..)
    exFl_representable 0 2 rfl _ (by simp) _ e 0 a b rfl rfl [0, t] rfl
  exact ⟨a, b, v, e, h1, h2⟩

example (t : List F64) (ht : t.length = 2) :
    exFl.evaluate t = .ok (casteljau [2, 1] t (fun idx => exFl.cps.getD (flatIndex [2, 1] idx) 0)) :=
  C67_casteljau exFl (Ex.surf_wf ..) t ht _ (fun idx hi => by
    rw [Spline.controlPoint_rd (s := exFl) (Ex.surf_wf ..) hi.length]
    have := flatIndex_lt hi
    have h6 : size exFl.degrees = exFl.cps.length := rfl
    rw [rd_getElem (by rw [← h6]; exact this), List.getD_eq_getElem?_getD, List.getElem?_eq_getElem (by rw [← h6]; exact this)]
    rfl)

end Bezman.Props
