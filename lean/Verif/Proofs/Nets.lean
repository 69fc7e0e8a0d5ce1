import Verif.Proofs.Arith
import Verif.Proofs.Product
import Verif.Proofs.SplitJoin

/-! # Control points of results, in any arithmetic

Formulas for the control points of the results of the operations, by multi-index, operation by operation; no laws are used. -/

namespace Bezman
open Spec

theorem flatIndex_mid {l r il ir : List ℕ} {p i : ℕ} (h : il.length = l.length) :
    flatIndex (l ++ p :: r) (il ++ i :: ir) = flatIndex l il + size l * (i + (p + 1) * flatIndex r ir) := by
  rw [flatIndex_append h]; rfl

/-- parts of a valid index -/
theorem validIdx_split {ps idx : List ℕ} {d p : ℕ} (hp : ps[d]? = some p) (h : ValidIdx ps idx) :
    ∃ il i ir, idx = il ++ i :: ir ∧ il.length = d ∧ ValidIdx (ps.take d) il ∧ i ≤ p ∧ ValidIdx (ps.drop (d + 1)) ir ∧
      idx[d]? = some i := by
  have hd := (List.getElem?_eq_some_iff.mp hp).1
  have hd' : d < idx.length := by rw [h.length]; exact hd
  have hi : idx[d]? = some idx[d] := List.getElem?_eq_getElem hd'
  have e := list_split hi
  have h' := h
  rw [e, list_split hp] at h'
  rw [validIdx_append (by simp; omega)] at h'
  obtain ⟨h1, h2⟩ := h'
  rw [validIdx_cons] at h2
  exact ⟨_, _, _, e, by simp; omega, h1, h2.1, h2.2, hi⟩

theorem validIdx_set {ps idx : List ℕ} (h : ValidIdx ps idx) (d q i : ℕ) (hi : i ≤ q) : ValidIdx (ps.set d q) (idx.set d i) := by
  rw [Spline.validIdx_iff]
  refine ⟨by simp [h.length], fun e j p hj hp => ?_⟩
  by_cases he : d = e
  · subst he
    rw [List.getElem?_set_self (by
      have := (List.getElem?_eq_some_iff.mp hj).1; simpa using this)] at hj
    rw [List.getElem?_set_self (by
      have := (List.getElem?_eq_some_iff.mp hp).1; simpa using this)] at hp
    cases hj; cases hp; exact hi
  · rw [List.getElem?_set_ne he] at hj hp
    exact (Spline.validIdx_iff.mp h).2 e j p hj hp

theorem append_set {il ir : List ℕ} {i j d : ℕ} (h : il.length = d) : (il ++ i :: ir).set d j = il ++ j :: ir := by
  subst h
  rw [List.set_append_right _ _ (le_refl _)]; simp

namespace Spline
variable {V W U : Type}

/-- control point of a multi-index -/
def cp [Zero V] (s : Spline V) (idx : List ℕ) : V := s.cps.getD (flatIndex s.degrees idx) 0

theorem controlPoint_cp [Zero V] {s : Spline V} (h : s.WF) {idx : List ℕ} (hv : ValidIdx s.degrees idx) :
    s.controlPoint idx = .ok (s.cp idx) := by
  unfold controlPoint
  rw [globalToLocal_ok h hv.length]
  simp only [bind_ok]
  have := flatIndex_lt hv
  rw [rd_getElem (by rw [h.cps_len]; exact this), cp, List.getD_eq_getElem?_getD, List.getElem?_eq_getElem]
  rfl

theorem cp_tab [Zero V] {s : Spline V} {F : ℕ → V} (h : s.cps = tab (size s.degrees) F) {idx : List ℕ} (hv : ValidIdx s.degrees idx) :
    s.cp idx = F (flatIndex s.degrees idx) := by
  unfold cp
  rw [h, List.getD_eq_getElem?_getD, tab_getElem? F (flatIndex_lt hv)]; rfl

theorem cps_tab0 [Zero V] {s : Spline V} (h : s.WF) : s.cps = tab (size s.degrees) (fun i => s.cps.getD i 0) := by
  conv_lhs => rw [eq_tab s.cps 0, h.cps_len]

/-- a consistent spline is determined by its degrees and control points -/
theorem cp_ext [Zero V] {s s' : Spline V} (h : s.WF) (h' : s'.WF) (hd : s'.degrees = s.degrees)
    (hc : ∀ idx, ValidIdx s.degrees idx → s.cp idx = s'.cp idx) : s = s' := by
  rw [h.self_eq, h'.self_eq, hd]
  congr 1
  rw [cps_tab0 h, cps_tab0 h', hd]
  apply tab_congr
  intro i hi
  have := hc _ (unflat_valid s.degrees i)
  unfold cp at this
  rwa [hd, flatIndex_unflat hi] at this

section elevate
variable {K : Type} [One K] [Sub K] [Mul K] [Div K] [NatCast K] [Zero V] [Add V] [SMul K V]

theorem elev_congr {p i : ℕ} {P Q : ℕ → V} (h : ∀ j ≤ p, P j = Q j) (hi : i ≤ p + 1) : elev K p P i = elev K p Q i := by
  unfold elev
  split_ifs with h1 h2
  · exact h 0 (by omega)
  · exact h p (le_refl _)
  · rw [h i (by omega), h (i - 1) (by omega)]

/-- control points after order elevation -/
theorem orderElevate_cp {s : Spline V} (h : s.WF) {d p : ℕ} (hp : s.degrees[d]? = some p)
    (hs : size (s.degrees.set d (p + 1)) < 2 ^ 31) :
    ∃ r, orderElevate K s d = .ok r ∧ r.WF ∧ r.degrees = s.degrees.set d (p + 1) ∧
      ∀ idx i, ValidIdx r.degrees idx → idx[d]? = some i → r.cp idx = elev K p (fun j => s.cp (idx.set d j)) i := by
  refine ⟨_, orderElevate_mem h hp hs, ⟨by have := h.dim_pos; simpa using this, rfl, rfl, by simp⟩, rfl, ?_⟩
  intro idx i hv hi
  rw [cp_tab (F := elevNew K p (size (s.degrees.take d)) (fun i => s.cps.getD i 0)) rfl hv]
  have hd := (List.getElem?_eq_some_iff.mp hp).1
  have hv' : ValidIdx (s.degrees.set d (p + 1)) idx := hv
  obtain ⟨il, i', ir, rfl, hl, h1, h2, h3, h4⟩ := validIdx_split (ps := s.degrees.set d (p + 1)) (p := p + 1) (d := d)
    (by rw [List.getElem?_set_self hd]) hv'
  rw [h4] at hi; cases hi
  rw [List.take_set_of_le (le_refl _)] at h1
  rw [List.drop_set_of_lt (by omega)] at h3
  show elevNew K p _ _ (flatIndex (s.degrees.set d (p + 1)) _) = _
  rw [set_split hp, flatIndex_mid (by simp; omega), elevNew_at _ (flatIndex_lt h1) (by omega)]
  congr 1
  funext j
  rw [append_set hl, cp]
  conv_rhs => rw [list_split hp]
  rw [flatIndex_mid (by simp; omega)]

end elevate

section map
variable [Zero V] [Zero W]

theorem cp_map {s : Spline V} (h : s.WF) (f : V → W) {idx : List ℕ} (hv : ValidIdx s.degrees idx) :
    cp (⟨s.degrees, s.ncp, s.offsets, s.cps.map f⟩ : Spline W) idx = f (s.cp idx) := by
  have := flatIndex_lt hv
  unfold cp
  simp only [List.getD_eq_getElem?_getD, List.getElem?_map]
  rw [List.getElem?_eq_getElem (by rw [h.cps_len]; exact this)]
  rfl

theorem zipCps_cp [Add V] {a b : Spline V} (ha : a.WF) (hb : b.WF) (hd : b.degrees = a.degrees) (f : V → V → V) :
    ∃ c, zipCps a.ncp f a.cps b.cps = .ok c ∧ WF { a with cps := c } ∧
      ∀ idx, ValidIdx a.degrees idx → cp { a with cps := c } idx = f (a.cp idx) (b.cp idx) := by
  have ea := cps_tab0 ha
  have eb := cps_tab0 hb
  rw [hd] at eb
  refine ⟨_, by rw [ha.ncp_eq]; conv_lhs => rw [ea, eb]
                exact zipCps_ok f _ _, ha.setCps (by simp), fun idx hv => ?_⟩
  have hv' : ValidIdx ({ a with cps := tab (size a.degrees) (fun i => f (a.cps.getD i 0) (b.cps.getD i 0)) } : Spline V).degrees idx := hv
  rw [cp_tab rfl hv']
  unfold cp
  rw [hd]

end map

section split
variable {K : Type} [Zero K] [One K] [Sub K] [LT K] [DecidableLT K] [Zero V] [Add V] [SMul K V]

/-- control points after a split -/
theorem splitAt_cp {s : Spline V} (h : s.WF) {d p : ℕ} (hp : s.degrees[d]? = some p) {z : K} (hz : 0 < z ∧ z < 1) :
    ∃ a b, s.splitAt z d = .ok (a, b) ∧ a.WF ∧ b.WF ∧ a.degrees = s.degrees ∧ b.degrees = s.degrees ∧
      ∀ idx i, ValidIdx s.degrees idx → idx[d]? = some i →
        a.cp idx = triangle z (fun j => s.cp (idx.set d j)) i 0 ∧ b.cp idx = triangle z (fun j => s.cp (idx.set d j)) (p - i) i := by
  letI : Inhabited V := ⟨0⟩
  refine ⟨_, _, splitAt_mem h hp hz, h.setCps (by simp), h.setCps (by simp), rfl, rfl, ?_⟩
  intro idx i hv hi
  rw [cp_tab rfl (by exact hv), cp_tab rfl (by exact hv)]
  obtain ⟨il, i', ir, rfl, hl, h1, h2, h3, h4⟩ := validIdx_split hp hv
  rw [h4] at hi; cases hi
  have e1 : ∀ j, flatIndex s.degrees (il ++ j :: ir) = flatIndex (s.degrees.take d) il +
      size (s.degrees.take d) * (j + (p + 1) * flatIndex (s.degrees.drop (d + 1)) ir) := by
    intro j
    conv_lhs => rw [list_split hp]
    rw [flatIndex_mid (by
      have := (List.getElem?_eq_some_iff.mp hp).1
      simp; omega)]
  have e2 : (fun j => s.cp ((il ++ i :: ir).set d j)) = fun j => s.cps.getD (flatIndex (s.degrees.take d) il +
      size (s.degrees.take d) * (j + (p + 1) * flatIndex (s.degrees.drop (d + 1)) ir)) 0 := by
    funext j
    rw [append_set hl, cp, e1]
  rw [e2]
  show triangle z (fibre _ p _ (flatIndex s.degrees _)) _ 0 = _ ∧ triangle z (fibre _ p _ (flatIndex s.degrees _)) _ _ = _
  rw [e1, fibre_at (flatIndex_lt h1) h2, layer_at (flatIndex_lt h1) h2]
  exact ⟨rfl, rfl⟩

end split

end Spline
end Bezman
