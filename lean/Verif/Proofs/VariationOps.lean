import Verif.Proofs.Variation
import Verif.Props.Formulas
import Verif.Props.Split
import Verif.Props.History

/-! # Changes of sign: rows of control points under splits and elevations -/

namespace Bezman.Props
open Spec
variable {K V : Type} {sg : V → SignType}

theorem rowOf_iff {s : Spline V} {d p : ℕ} (hp : s.degrees[d]? = some p) {idx : List ℕ} (hv : ValidIdx s.degrees (idx.set d 0))
    {P : List ℕ → V} (hP : HasPoints s P) {l : List V} : RowOf s d idx l ↔ l = (List.range (p + 1)).map fun j => P (idx.set d j) := by
  have hval : ∀ j ≤ p, ValidIdx s.degrees (idx.set d j) := by
    intro j hj
    have := validIdx_set hv d p j hj
    rwa [Spline.set_deg hp, List.set_set] at this
  constructor
  · rintro ⟨p', hp', -, h⟩
    cases hp.symm.trans hp'
    have : ∀ (m : List ℕ), (∀ j ∈ m, j ≤ p) → ∀ l, List.Forall₂ (fun j x => s.controlPoint (idx.set d j) = .ok x) m l →
        l = m.map fun j => P (idx.set d j) := by
      intro m hm l h
      induction h with
      | nil => rfl
      | @cons j x m l h1 _ ih =>
        rw [List.map_cons, ← ih fun i hi => hm i (List.mem_cons_of_mem _ hi)]
        rw [hP _ (hval j (hm j List.mem_cons_self))] at h1
        rw [Except.ok.inj h1]
    exact this _ (fun j hj => by simpa [Nat.lt_succ_iff] using hj) _ h
  · rintro rfl
    refine ⟨p, hp, hv, ?_⟩
    rw [List.forall₂_map_right_iff, List.forall₂_same]
    exact fun j hj => hP _ (hval j (by simpa [Nat.lt_succ_iff] using hj))

theorem rowOf_exists [Zero V] {s : Spline V} (hs : s.WF) {d p : ℕ} (hp : s.degrees[d]? = some p) {idx : List ℕ}
    (hv : ValidIdx s.degrees (idx.set d 0)) : ∃ l, RowOf s d idx l := ⟨_, (rowOf_iff hp hv (hasPoints_self hs)).mpr rfl⟩

theorem rowOf_cps [Zero V] {s : Spline V} (hs : s.WF) {p : ℕ} (hd : s.degrees = [p]) : RowOf s 0 [0] s.cps := by
  refine (rowOf_iff (p := p) (by rw [hd]; rfl) (by rw [hd]; exact .cons (Nat.zero_le _) .nil) (hasPoints_self hs)).mpr ?_
  have hl : s.cps.length = p + 1 := by rw [hs.cps_len, hd]; simp [size]
  refine List.ext_getElem (by simp [hl]) fun i h1 h2 => ?_
  simp only [List.getElem_map, List.getElem_range, List.set_cons_zero, Spline.cp, hd]
  have : flatIndex [p] [i] = i := by simp [flatIndex]
  rw [this, List.getD_eq_getElem?_getD, List.getElem?_eq_getElem h1]; rfl

variable [Zero K] [One K] [Neg K] [Sub K] [Mul K] [Div K] [NatCast K] [LT K] [DecidableLT K] [Zero V] [Add V] [SMul K V]

theorem row_split (hk : KeepsSigns K sg) {s : Spline V} (hs : s.WF) {d p : ℕ} (hp : s.degrees[d]? = some p) {z : K} {a b : Spline V}
    (e : s.splitAt z d = .ok (a, b)) {idx : List ℕ} {l la lb : List V} (hl : RowOf s d idx l) (ha : RowOf a d idx la) (hb : RowOf b d idx lb) :
    Calmer sg (la ++ lb) l := by
  have hz : 0 < z ∧ z < 1 := by
    by_contra h
    rw [Spline.splitAt_throws h] at e
    cases e
  obtain ⟨a', b', e', ⟨wa, da⟩, ⟨wb, db⟩, pa, pb⟩ := C90_split s hs d p hp z hz s.cp (hasPoints_self hs)
  cases e.symm.trans e'
  have hv := hl.choose_spec.2.1
  have hd : d < idx.length := by
    have := hv.length
    rw [List.length_set] at this
    rw [this]; exact (List.getElem?_eq_some_iff.mp hp).1
  have hg : ∀ i, (idx.set d i).getD d 0 = i := fun i => by rw [List.getD_eq_getElem?_getD, List.getElem?_set_self hd]; rfl
  rw [rowOf_iff hp hv (hasPoints_self hs)] at hl
  rw [rowOf_iff (by rw [da]; exact hp) (by rw [da]; exact hv) pa] at ha
  rw [rowOf_iff (by rw [db]; exact hp) (by rw [db]; exact hv) pb] at hb
  simp only [hg, List.set_set] at ha hb
  rw [hl, ha, hb]
  exact Calmer.split (hk.1 z hz.1 hz.2) (fun j => s.cp (idx.set d j)) p

theorem row_elevate (hk : KeepsSigns K sg) {s : Spline V} (hs : s.WF) {d p : ℕ} (hp : s.degrees[d]? = some p)
    (hsz : size (s.degrees.modify d (· + 1)) < 2 ^ 31) {r : Spline V}
    (e : Spline.orderElevate K s d = .ok r) {idx : List ℕ} {l lr : List V} (hl : RowOf s d idx l) (hr : RowOf r d idx lr) :
    Calmer sg lr l := by
  have hds : s.degrees.modify d (· + 1) = s.degrees.set d (p + 1) := by
    rw [List.modify_eq_set_getElem?, hp]; rfl
  rw [hds] at hsz
  have hdl := (List.getElem?_eq_some_iff.mp hp).1
  have hb : p + 1 < 2 ^ 31 := by
    have : (s.degrees.set d (p + 1))[d]? = some (p + 1) := List.getElem?_set_self hdl
    have := lt_size_of_mem (List.mem_of_getElem? this)
    omega
  obtain ⟨r', e', ⟨wr, dr⟩, pr⟩ := C90_elevate (K := K) s hs d p hp hsz s.cp (hasPoints_self hs)
  cases e.symm.trans e'
  have hv := hl.choose_spec.2.1
  have hd : d < idx.length := by
    have := hv.length
    rw [List.length_set] at this
    rw [this]; exact hdl
  have hg : ∀ i, (idx.set d i).getD d 0 = i := fun i => by rw [List.getD_eq_getElem?_getD, List.getElem?_set_self hd]; rfl
  rw [rowOf_iff hp hv (hasPoints_self hs)] at hl
  rw [rowOf_iff (p := p + 1) (by rw [dr]; exact List.getElem?_set_self hdl) hr.choose_spec.2.1 pr] at hr
  simp only [hg, List.set_set] at hr
  rw [hl, hr]
  refine Calmer.elevation (K := K) (fun j => s.cp (idx.set d j)) p fun i h0 h1 a b => ?_
  rcases hk.2 p i h0 h1 hb a b with h | h | h
  · exact .inl h
  · exact .inr (.inr h)
  · exact .inr (.inl h)

theorem pieces_calmer (hk : KeepsSigns K sg) {s : Spline V} {d : ℕ} {ls : List (Spline V)} (h : PiecesAlong K s d ls) (hs : s.WF)
    {idx : List ℕ} {l : List V} (hl : RowOf s d idx l) (rows : List (List V)) (hr : List.Forall₂ (fun a la => RowOf a d idx la) ls rows) :
    Calmer sg rows.flatten l := by
  induction h generalizing l rows with
  | whole s d =>
    cases hr with
    | cons h1 h2 =>
      cases h2
      obtain ⟨p, hp, hv, -⟩ := id hl
      rw [rowOf_iff hp hv (hasPoints_self hs)] at hl h1
      rw [hl, h1]
      simpa using Calmer.refl _
  | @elevate s d s' ls e hsz _ ih =>
    obtain ⟨p, hp, hv, -⟩ := id hl
    have hds : s.degrees.modify d (· + 1) = s.degrees.set d (p + 1) := by
      rw [List.modify_eq_set_getElem?, hp]; rfl
    obtain ⟨r', e', ⟨wr, dr⟩, -⟩ := C90_elevate (K := K) s hs d p hp (hds ▸ hsz) s.cp (hasPoints_self hs)
    cases e.symm.trans e'
    have hdl := (List.getElem?_eq_some_iff.mp hp).1
    obtain ⟨lr, hlr⟩ := rowOf_exists (d := d) (p := p + 1) wr (by rw [dr]; exact List.getElem?_set_self hdl) (idx := idx) (by
      have := validIdx_set hv d (p + 1) 0 (Nat.zero_le _)
      rwa [List.set_set, ← dr] at this)
    exact (ih wr hlr rows hr).trans (row_elevate hk hs hp hsz e hl hlr)
  | @split s d a b la lb z e _ _ iha ihb =>
    obtain ⟨p, hp, hv, -⟩ := id hl
    have hz : 0 < z ∧ z < 1 := by
      by_contra h
      rw [Spline.splitAt_throws h] at e
      cases e
    obtain ⟨a', b', e', ⟨wa, da⟩, ⟨wb, db⟩, -⟩ := C90_split s hs d p hp z hz s.cp (hasPoints_self hs)
    cases e.symm.trans e'
    obtain ⟨ra, hra⟩ := rowOf_exists (d := d) (p := p) wa (by rw [da]; exact hp) (idx := idx) (by rw [da]; exact hv)
    obtain ⟨rb, hrb⟩ := rowOf_exists (d := d) (p := p) wb (by rw [db]; exact hp) (idx := idx) (by rw [db]; exact hv)
    obtain ⟨r1, r2, h1, h2, rfl⟩ : ∃ r1 r2, List.Forall₂ (fun a la => RowOf a d idx la) la r1 ∧ List.Forall₂ (fun a la => RowOf a d idx la) lb r2 ∧
        rows = r1 ++ r2 := ⟨rows.take la.length, rows.drop la.length, by
          simpa using List.forall₂_take la.length hr, by simpa using List.forall₂_drop la.length hr, (List.take_append_drop _ _).symm⟩
    rw [List.flatten_append]
    exact ((iha wa hra r1 h1).append (ihb wb hrb r2 h2)).trans (row_split hk hs hp e hl hra hrb)

end Bezman.Props
