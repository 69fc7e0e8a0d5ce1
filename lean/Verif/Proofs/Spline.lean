import Verif.Spec.Spline
import Verif.Proofs.Bezier

/-! Bookkeeping of splines and index conversions. -/

namespace Bezman
open Spec Finset

theorem list_split {α : Type} {l : List α} {d : ℕ} {x : α} (h : l[d]? = some x) :
    l = l.take d ++ x :: l.drop (d + 1) := by
  obtain ⟨hd, rfl⟩ := List.getElem?_eq_some_iff.mp h
  simp

theorem set_split {α : Type} {l : List α} {d : ℕ} {x : α} (h : l[d]? = some x) (y : α) :
    l.set d y = l.take d ++ y :: l.drop (d + 1) := by
  obtain ⟨hd, rfl⟩ := List.getElem?_eq_some_iff.mp h
  rw [List.set_eq_take_append_cons_drop, if_pos hd]

@[simp] theorem offsetsOf_length (ps : List ℕ) : (offsetsOf ps).length = ps.length := by
  simp [offsetsOf]

theorem offsetsOf_getElem? {ps : List ℕ} {d : ℕ} (h : d < ps.length) :
    (offsetsOf ps)[d]? = some (size (ps.take d)) := by
  simp [offsetsOf, h]

theorem offsetsOf_eq_tab (ps : List ℕ) :
    offsetsOf ps = tab ps.length (fun d => size (ps.take d)) := rfl

theorem size_take_succ {ps : List ℕ} {d p : ℕ} (h : ps[d]? = some p) :
    size (ps.take (d + 1)) = size (ps.take d) * (p + 1) := by
  obtain ⟨hd, rfl⟩ := List.getElem?_eq_some_iff.mp h
  rw [List.take_succ_eq_append_getElem hd, size_append]; simp

namespace Spline
variable {K V : Type}

theorem countCps_eq (ps : List ℕ) : countCps ps = size ps := by
  have : ∀ n, ps.foldl (fun n d => n * (d + 1)) n = n * size ps := by
    induction ps with
    | nil => simp
    | cons p ps ih => intro n; rw [List.foldl_cons, ih, size_cons]; ring
  simp [countCps, this]

theorem updateIndexOffsets_ok {ps os : List ℕ} (hl : os.length = ps.length) (hpos : 0 < ps.length) :
    updateIndexOffsets ps os = .ok (offsetsOf ps) := by
  unfold updateIndexOffsets
  rw [wr_ok _ (by omega)]
  simp only [bind_ok]
  obtain ⟨s', h1, h2, h3⟩ := loopFrom_inv (a := 1) (b := ps.length) (s := os.set 0 1)
    (f := fun i o => do
      let a ← rd o (i - 1)
      let d ← rd ps (i - 1)
      wr o i (a * (d + 1)))
    (P := fun k o => o.length = ps.length ∧ ∀ i, i < k → o[i]? = some (size (ps.take i)))
    (by omega)
    ⟨by simp [hl], by
      intro i hi
      obtain rfl : i = 0 := by omega
      rw [List.getElem?_set_self (by omega)]; simp⟩
    (by
      rintro k hk1 hk2 o ⟨ho, hi⟩
      have hp : ps[k - 1]? = some ps[k - 1] := List.getElem?_eq_getElem (by omega)
      rw [rd_ok (hi (k - 1) (by omega)), rd_ok hp]
      simp only [bind_ok]
      refine ⟨_, wr_ok _ (by omega), by simp [ho], ?_⟩
      intro i hik
      by_cases h : i = k
      · subst h
        rw [List.getElem?_set_self (by omega), ← size_take_succ hp, show i - 1 + 1 = i by omega]
      · rw [List.getElem?_set_ne (by omega)]; exact hi i (by omega))
  rw [h1]
  rw [eq_tab_of _ h2 h3, offsetsOf_eq_tab]

section
variable {s : Spline V}

theorem WF.off (h : s.WF) {d : ℕ} (hd : d < s.dim) : s.offsets[d]? = some (size (s.degrees.take d)) := by
  rw [h.offsets_eq]; exact offsetsOf_getElem? hd

theorem WF.off_len (h : s.WF) : s.offsets.length = s.dim := by
  rw [h.offsets_eq]; simp [dim]

theorem localToGlobal_ok (h : s.WF) (n : ℕ) : s.localToGlobal n = .ok (unflat s.degrees n) := by
  unfold localToGlobal
  obtain ⟨s', h1, h2, h3⟩ := loop_inv (n := s.dim) (s := List.replicate s.dim 0)
    (f := fun i l => do
      let o ← rd s.offsets i
      let d ← rd s.degrees i
      let q ← divU n o
      wr l i (q % (d + 1)))
    (P := fun k l => l.length = s.dim ∧ ∀ i, i < k → l[i]? = (unflat s.degrees n)[i]?)
    ⟨by simp, fun i hi => by omega⟩
    (by
      rintro k hk l ⟨hl, hi⟩
      have hp : s.degrees[k]? = some s.degrees[k] := List.getElem?_eq_getElem hk
      rw [rd_ok (h.off hk), rd_ok hp]
      simp only [bind_ok]
      rw [divU_ok (size_pos _)]
      simp only [bind_ok]
      refine ⟨_, wr_ok _ (by omega), by simp [hl], ?_⟩
      intro i hik
      by_cases he : i = k
      · subst he
        rw [List.getElem?_set_self (by omega), unflat_getElem? n hp]
      · rw [List.getElem?_set_ne (by omega)]; exact hi i (by omega))
  rw [h1]
  congr 1
  apply List.ext_getElem?
  intro i
  by_cases hi : i < s.dim
  · exact h3 i hi
  · rw [List.getElem?_eq_none (by omega), List.getElem?_eq_none (by simpa [dim] using hi)]

theorem globalToLocal_ok (h : s.WF) {idx : List ℕ} (hl : idx.length = s.dim) :
    s.globalToLocal idx = .ok (flatIndex s.degrees idx) := by
  have hd := h.dim_pos
  unfold globalToLocal
  have hpos : 0 < idx.length := by rw [hl]; exact hd
  have h0 : idx[0]? = some idx[0] := List.getElem?_eq_getElem hpos
  rw [rd_ok h0]
  simp only [bind_ok]
  obtain ⟨c, h1, h2⟩ := loopFrom_inv (a := 1) (b := s.dim) (s := idx[0])
    (f := fun i c => do
      let o ← rd s.offsets i
      let x ← rd idx i
      pure (c + o * x))
    (P := fun k c => c = flatIndex (s.degrees.take k) (idx.take k))
    hd
    (by
      rcases hdeg : s.degrees with _ | ⟨p, ps⟩
      · simp [hdeg] at hd
      · rcases idx with _ | ⟨i, is⟩
        · simp [dim, hdeg] at hl
        · simp)
    (by
      rintro k hk1 hk2 c rfl
      have hk : idx[k]? = some idx[k] := List.getElem?_eq_getElem (by omega)
      have hp : s.degrees[k]? = some s.degrees[k] := List.getElem?_eq_getElem hk2
      rw [rd_ok (h.off hk2), rd_ok hk]
      refine ⟨_, rfl, ?_⟩
      rw [List.take_succ_eq_append_getElem hk2, List.take_succ_eq_append_getElem (by omega : k < idx.length),
        flatIndex_append (by simp [dim] at hl hk2 ⊢; omega)]
      simp [flatIndex])
  have e1 : s.degrees.take s.dim = s.degrees := List.take_of_length_le (le_of_eq rfl)
  have e2 : idx.take s.dim = idx := List.take_of_length_le (le_of_eq hl)
  rw [h1, h2, e1, e2]

theorem ofDegrees_ok [Zero V] {ps : List ℕ} (h : 0 < ps.length) :
    ∃ s : Spline V, ofDegrees ps = .ok s ∧ s.WF ∧ s.degrees = ps ∧
      s.cps = tab (size ps) (fun _ => 0) := by
  refine ⟨⟨ps, size ps, offsetsOf ps, tab (size ps) (fun _ => 0)⟩, ?_, ⟨h, rfl, rfl, by simp⟩, rfl, rfl⟩
  unfold ofDegrees
  rw [updateIndexOffsets_ok (by simp) h]
  simp [countCps_eq, resize, replicate_eq_tab]

theorem ofPoints_ok {ps : List ℕ} {pts : List V} (h : 0 < ps.length) (hl : pts.length = size ps) :
    ofPoints ps pts = .ok ⟨ps, size ps, offsetsOf ps, pts⟩ ∧
      WF ⟨ps, size ps, offsetsOf ps, pts⟩ := by
  refine ⟨?_, ⟨h, rfl, rfl, hl⟩⟩
  unfold ofPoints
  rw [updateIndexOffsets_ok (by simp) h]
  simp [countCps_eq, hl, assertM]

theorem ofPoints_assert {ps : List ℕ} {pts : List V} (h : 0 < ps.length) (hl : pts.length ≠ size ps) :
    ofPoints ps pts = .error .assertFail := by
  unfold ofPoints
  rw [updateIndexOffsets_ok (by simp) h]
  simp [countCps_eq, assertM, Ne.symm hl]

theorem WF.self_eq (h : s.WF) : s = ⟨s.degrees, size s.degrees, offsetsOf s.degrees, s.cps⟩ := by
  cases s; simp only [mk.injEq, true_and, and_true]; exact ⟨h.ncp_eq, h.offsets_eq⟩

/-- copying through the constructor gives the same spline back -/
theorem ofPoints_self (h : s.WF) : ofPoints s.degrees s.cps = .ok s := by
  rw [(ofPoints_ok h.dim_pos h.cps_len).1, ← h.self_eq]

end

section
variable [CommRing K] [AddCommGroup V] [Module K V]

theorem value_eq_neval (s : Spline V) (t : List K) :
    s.value t = neval s.degrees t (fun i => s.cps.getD i 0) := rfl

theorem value_of_tab {s : Spline V} {F : ℕ → V} (h : s.cps = tab (size s.degrees) F) (t : List K) :
    s.value t = neval s.degrees t F := by
  rw [value_eq_neval]
  apply neval_congr
  intro j hj
  rw [h, List.getD_eq_getElem?_getD, tab_getElem? F hj]; rfl

theorem WF.cps_tab {s : Spline V} (h : s.WF) :
    s.cps = tab (size s.degrees) (fun i => s.cps.getD i 0) := by
  conv_lhs => rw [eq_tab s.cps 0, h.cps_len]

end
end Spline
end Bezman
