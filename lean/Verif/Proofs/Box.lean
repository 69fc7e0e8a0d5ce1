import Verif.Proofs.Arith
import Verif.Proofs.Point
import Verif.Model.Box
import Mathlib.Algebra.Order.Module.Defs
import Mathlib.Algebra.Order.Field.Basic

/-! Bounding boxes, coordinate extraction, unit cube. -/

namespace Bezman
open Spec Finset Coords LawfulCoords

section order
variable {K : Type} [CommRing K] [LinearOrder K] [IsStrictOrderedRing K]

theorem neval_nonneg {ps : List ℕ} {ts : List K} (ht : ∀ t ∈ ts, 0 ≤ t ∧ t ≤ 1) {F : ℕ → K}
    (hF : ∀ j, j < size ps → 0 ≤ F j) : 0 ≤ neval ps ts F := by
  induction ps generalizing ts F with
  | nil => simpa using hF 0 (by simp)
  | cons p ps ih =>
    cases ts with
    | nil => exact le_refl (0 : K)
    | cons t ts =>
      rw [neval_cons]
      apply sum_nonneg
      intro i hi
      simp only [mem_range] at hi
      have h01 := ht t (by simp)
      apply mul_nonneg (bern_nonneg p i h01.1 h01.2)
      apply ih (fun x hx => ht x (by simp [hx]))
      intro j hj
      apply hF
      rw [size_cons]
      calc i + (p + 1) * j < (p + 1) + (p + 1) * j := by omega
        _ = (p + 1) * (j + 1) := by ring
        _ ≤ (p + 1) * size ps := Nat.mul_le_mul_left _ hj

theorem neval_le {ps : List ℕ} {ts : List K} (hl : ts.length = ps.length)
    (ht : ∀ t ∈ ts, 0 ≤ t ∧ t ≤ 1) {F : ℕ → K} {c : K}
    (hF : ∀ j, j < size ps → F j ≤ c) : neval ps ts F ≤ c := by
  have h := neval_nonneg (ps := ps) ht (F := fun j => c - F j) (fun j hj => sub_nonneg.mpr (hF j hj))
  rw [neval_sub, neval_const hl] at h
  exact sub_nonneg.mp h

theorem le_neval {ps : List ℕ} {ts : List K} (hl : ts.length = ps.length)
    (ht : ∀ t ∈ ts, 0 ≤ t ∧ t ≤ 1) {F : ℕ → K} {c : K}
    (hF : ∀ j, j < size ps → c ≤ F j) : c ≤ neval ps ts F := by
  have h := neval_nonneg (ps := ps) ht (F := fun j => F j - c) (fun j hj => sub_nonneg.mpr (hF j hj))
  rw [neval_sub, neval_const hl] at h
  exact sub_nonneg.mp h

end order

namespace Spline
variable {K V : Type}

theorem extractDimension_eq [Zero K] [Coords K V] {s : Spline V} (h : s.WF) (d : Fin (Coords.n K V)) :
    extractDimension K s d = .ok ⟨s.degrees, s.ncp, s.offsets, s.cps.map (fun x => coord x d)⟩ := by
  unfold extractDimension
  rw [dif_pos d.isLt]
  obtain ⟨e, e1, e2, e3, e4⟩ := ofDegrees_ok (V := K) h.dim_pos
  rw [e1]
  simp only [bind_ok]
  have hn : s.ncp = size s.degrees := h.ncp_eq
  obtain ⟨r, h1, h2, h3⟩ := loop_inv (n := s.ncp) (s := e.cps)
    (f := fun i cps => do
      let x ← rd s.cps i
      wr cps i (coord x (⟨d, d.isLt⟩ : Fin (Coords.n K V))))
    (P := fun k r => r.length = s.ncp ∧
      (∀ i, i < k → r[i]? = (s.cps.map (fun x => (coord x d : K)))[i]?))
    ⟨by rw [e4, hn]; simp, fun i hi => by omega⟩
    (by
      rintro k hk r ⟨hr1, hr2⟩
      have hk' : k < s.cps.length := by rw [h.cps_len, ← h.ncp_eq]; exact hk
      rw [rd_getElem hk']
      simp only [bind_ok]
      refine ⟨_, wr_ok _ (by omega), by simp [hr1], ?_⟩
      intro i hi
      by_cases hik : i = k
      · subst hik
        rw [List.getElem?_set_self (by omega)]; simp [hk']
      · rw [List.getElem?_set_ne (by omega)]; exact hr2 i (by omega))
  rw [h1]
  have hcps : r = s.cps.map (fun x => (coord x d : K)) := by
    apply List.ext_getElem?
    intro i
    by_cases hi : i < s.ncp
    · exact h3 i hi
    · have : s.cps.length = s.ncp := by rw [h.cps_len, h.ncp_eq]
      rw [List.getElem?_eq_none (by omega), List.getElem?_eq_none (by simp; omega)]
  simp only [bind_ok, pure_eq_ok]
  rw [hcps, e3, e2.offsets_eq, e2.ncp_eq, e3, h.ncp_eq, h.offsets_eq]

section extract
variable [CommRing K] [AddCommGroup V] [Module K V] [Coords K V] [LawfulCoords K V]

theorem coord_value {s : Spline V} (t : List K) (j : Fin (Coords.n K V)) :
    (coord (s.value t) j : K) = neval s.degrees t (fun i => coord (s.cps.getD i 0) j) := by
  rw [value_eq_neval, ← coordL_apply, ← neval_map]
  rfl

theorem extractDimension_ok {s : Spline V} (h : s.WF) (d : Fin (Coords.n K V)) :
    ∃ r, extractDimension K s d = .ok r ∧ r.WF ∧ r.degrees = s.degrees ∧
      ∀ t : List K, r.value t = coord (s.value t) d := by
  refine ⟨_, extractDimension_eq h d, h.map _, rfl, ?_⟩
  intro t
  rw [value_map h, value_eq_neval, ← coordL_apply, ← neval_map]
  rfl

omit [Module K V] [LawfulCoords K V] [AddCommGroup V] in
theorem extractDimension_throws (s : Spline V) {d : ℕ} (hd : Coords.n K V ≤ d) :
    extractDimension K s d = .error .throws := by
  unfold extractDimension
  rw [dif_neg (by omega)]

end extract

section corners
variable [LinearOrder K] [Coords K V]
  (hco : ∀ (f : Fin (Coords.n K V) → K) j, Coords.coord (V := V) (Coords.ofCoords f) j = f j)
include hco

theorem maximumCorner_order {s : Spline V} (h : s.WF) :
    ∃ m : V, maximumCorner K s = .ok m ∧
      (∀ (j : Fin (Coords.n K V)), ∀ x ∈ s.cps, (coord x j : K) ≤ coord m j) ∧
      (∀ (j : Fin (Coords.n K V)), ∃ x ∈ s.cps, (coord x j : K) = coord m j) := by
  have hn : s.cps.length = s.ncp := by rw [h.cps_len, h.ncp_eq]
  have hpos : 0 < s.ncp := by rw [h.ncp_eq]; exact size_pos _
  unfold maximumCorner
  rw [if_neg (by omega), rd_getElem (show 0 < s.cps.length by omega)]
  simp only [bind_ok]
  obtain ⟨m, h1, h2, h3⟩ := loopFrom_inv (a := 1) (b := s.ncp) (s := s.cps[0])
    (f := fun i m => do
      let x ← rd s.cps i
      pure (ofCoords (K := K) fun j => stdMax (coord m j) (coord x j)))
    (P := fun k m => (∀ (j : Fin (Coords.n K V)), ∀ i, ∀ hi : i < s.cps.length, i < k → (coord s.cps[i] j : K) ≤ coord m j) ∧
      (∀ (j : Fin (Coords.n K V)), ∃ x ∈ s.cps, (coord x j : K) = coord m j))
    (by omega)
    ⟨fun j i hi hk => by have : i = 0 := by omega
                         subst this; exact le_refl _,
      fun j => ⟨s.cps[0], List.getElem_mem _, rfl⟩⟩
    (by
      rintro k hk1 hk2 m ⟨hm1, hm2⟩
      rw [rd_getElem (show k < s.cps.length by omega)]
      refine ⟨_, rfl, ?_, ?_⟩
      · intro j i hi hik
        rw [hco]
        unfold stdMax
        by_cases hk : i = k
        · subst hk
          split
          · exact le_refl _
          · next h' => exact not_lt.mp h'
        · have := hm1 j i hi (by omega)
          split
          · next h' => exact le_trans this (le_of_lt h')
          · exact this
      · intro j
        rw [hco]
        unfold stdMax
        split
        · exact ⟨_, List.getElem_mem _, rfl⟩
        · exact hm2 j)
  refine ⟨m, h1, ?_, h3⟩
  intro j x hx
  obtain ⟨i, hi, rfl⟩ := List.mem_iff_getElem.mp hx
  exact h2 j i hi (by omega)

theorem minimumCorner_order {s : Spline V} (h : s.WF) :
    ∃ m : V, minimumCorner K s = .ok m ∧
      (∀ (j : Fin (Coords.n K V)), ∀ x ∈ s.cps, (coord m j : K) ≤ coord x j) ∧
      (∀ (j : Fin (Coords.n K V)), ∃ x ∈ s.cps, (coord x j : K) = coord m j) := by
  have hn : s.cps.length = s.ncp := by rw [h.cps_len, h.ncp_eq]
  have hpos : 0 < s.ncp := by rw [h.ncp_eq]; exact size_pos _
  unfold minimumCorner
  rw [if_neg (by omega), rd_getElem (show 0 < s.cps.length by omega)]
  simp only [bind_ok]
  obtain ⟨m, h1, h2, h3⟩ := loopFrom_inv (a := 1) (b := s.ncp) (s := s.cps[0])
    (f := fun i m => do
      let x ← rd s.cps i
      pure (ofCoords (K := K) fun j => stdMin (coord m j) (coord x j)))
    (P := fun k m => (∀ (j : Fin (Coords.n K V)), ∀ i, ∀ hi : i < s.cps.length, i < k → (coord m j : K) ≤ coord s.cps[i] j) ∧
      (∀ (j : Fin (Coords.n K V)), ∃ x ∈ s.cps, (coord x j : K) = coord m j))
    (by omega)
    ⟨fun j i hi hk => by have : i = 0 := by omega
                         subst this; exact le_refl _,
      fun j => ⟨s.cps[0], List.getElem_mem _, rfl⟩⟩
    (by
      rintro k hk1 hk2 m ⟨hm1, hm2⟩
      rw [rd_getElem (show k < s.cps.length by omega)]
      refine ⟨_, rfl, ?_, ?_⟩
      · intro j i hi hik
        rw [hco]
        unfold stdMin
        by_cases hk : i = k
        · subst hk
          split
          · exact le_refl _
          · next h' => exact not_lt.mp h'
        · have := hm1 j i hi (by omega)
          split
          · next h' => exact le_trans (le_of_lt h') this
          · exact this
      · intro j
        rw [hco]
        unfold stdMin
        split
        · exact ⟨_, List.getElem_mem _, rfl⟩
        · exact hm2 j)
  refine ⟨m, h1, ?_, h3⟩
  intro j x hx
  obtain ⟨i, hi, rfl⟩ := List.mem_iff_getElem.mp hx
  exact h2 j i hi (by omega)

theorem fitsIntoUnitCube_order [Zero K] [One K] {s : Spline V} (h : s.WF) :
    ∃ b : Bool, fitsIntoUnitCube K s = .ok b ∧
      (b = true ↔ ∀ x ∈ s.cps, ∀ j : Fin (Coords.n K V), (0 : K) ≤ coord x j ∧ (coord x j : K) ≤ 1) := by
  obtain ⟨mx, a1, a2, a3⟩ := maximumCorner_order (K := K) hco h
  obtain ⟨mn, b1, b2, b3⟩ := minimumCorner_order (K := K) hco h
  unfold fitsIntoUnitCube
  rw [a1, b1]
  refine ⟨_, rfl, ?_⟩
  rw [decide_eq_true_iff]
  constructor
  · intro hb x hx j
    have := hb j
    rw [not_or, not_lt, not_lt] at this
    exact ⟨le_trans this.2 (b2 j x hx), le_trans (a2 j x hx) this.1⟩
  · intro hb j
    obtain ⟨x, hx, ex⟩ := a3 j
    obtain ⟨y, hy, ey⟩ := b3 j
    rw [not_or, not_lt, not_lt, ← ex, ← ey]
    exact ⟨(hb x hx j).2, (hb y hy j).1⟩

end corners

section box
variable [CommRing K] [LinearOrder K] [IsStrictOrderedRing K] [AddCommGroup V] [Module K V] [Coords K V]
  [LawfulCoords K V]

theorem maximumCorner_ok {s : Spline V} (h : s.WF) :
    ∃ m : V, maximumCorner K s = .ok m ∧
      (∀ (j : Fin (Coords.n K V)), ∀ x ∈ s.cps, (coord x j : K) ≤ coord m j) ∧
      (∀ (j : Fin (Coords.n K V)), ∃ x ∈ s.cps, (coord x j : K) = coord m j) :=
  maximumCorner_order LawfulCoords.coord_ofCoords h

theorem minimumCorner_ok {s : Spline V} (h : s.WF) :
    ∃ m : V, minimumCorner K s = .ok m ∧
      (∀ (j : Fin (Coords.n K V)), ∀ x ∈ s.cps, (coord m j : K) ≤ coord x j) ∧
      (∀ (j : Fin (Coords.n K V)), ∃ x ∈ s.cps, (coord x j : K) = coord m j) :=
  minimumCorner_order LawfulCoords.coord_ofCoords h

omit [IsStrictOrderedRing K] [LinearOrder K] [LawfulCoords K V] [Coords K V] [Module K V] [CommRing K] in
theorem getD_mem {s : Spline V} (h : s.WF) {i : ℕ} (hi : i < size s.degrees) : s.cps.getD i 0 ∈ s.cps := by
  rw [List.getD_eq_getElem?_getD, List.getElem?_eq_getElem (by rw [h.cps_len]; exact hi)]
  exact List.getElem_mem _

theorem value_le {s : Spline V} (h : s.WF) {t : List K} (ht : t.length = s.dim)
    (h01 : ∀ x ∈ t, 0 ≤ x ∧ x ≤ 1) {j : Fin (Coords.n K V)} {c : K}
    (hc : ∀ x ∈ s.cps, (coord x j : K) ≤ c) : (coord (s.value t) j : K) ≤ c := by
  rw [coord_value]
  exact neval_le ht h01 (fun i hi => hc _ (getD_mem h hi))

theorem le_value {s : Spline V} (h : s.WF) {t : List K} (ht : t.length = s.dim)
    (h01 : ∀ x ∈ t, 0 ≤ x ∧ x ≤ 1) {j : Fin (Coords.n K V)} {c : K}
    (hc : ∀ x ∈ s.cps, c ≤ (coord x j : K)) : c ≤ (coord (s.value t) j : K) := by
  rw [coord_value]
  exact le_neval ht h01 (fun i hi => hc _ (getD_mem h hi))

theorem fitsIntoUnitCube_ok {s : Spline V} (h : s.WF) :
    ∃ b : Bool, fitsIntoUnitCube K s = .ok b ∧
      (b = true ↔ ∀ x ∈ s.cps, ∀ j : Fin (Coords.n K V), (0 : K) ≤ coord x j ∧ (coord x j : K) ≤ 1) :=
  fitsIntoUnitCube_order LawfulCoords.coord_ofCoords h

end box

section affine
variable [CommRing K] [AddCommGroup V] [Module K V] [Coords K V] [LawfulCoords K V]

theorem transposeAndScale_ok {s : Spline V} (h : s.WF) (v c : V) :
    ∃ r, transposeAndScale K s v c = .ok r ∧ r.WF ∧ r.degrees = s.degrees ∧
      (∀ i (hi : i < s.cps.length) (hi' : i < r.cps.length) (j : Fin (Coords.n K V)),
        (coord r.cps[i] j : K) = (coord v j + coord s.cps[i] j) * coord c j) ∧
      ∀ t : List K, t.length = s.dim → ∀ j : Fin (Coords.n K V),
        (coord (r.value t) j : K) = (coord v j + coord (s.value t) j) * coord c j := by
  unfold transposeAndScale
  refine ⟨_, mapCps_ok h _, h.map _, rfl, ?_, ?_⟩
  · intro i hi hi' j
    simp [coord_ofCoords]
  · intro t ht j
    rw [value_map h, ← coordL_apply, ← neval_map]
    simp only [Function.comp_def, coordL_apply, coord_ofCoords]
    have : (fun i => ((coord v j : K) + coord (s.cps.getD i 0) j) * coord c j)
        = fun i => (coord c j : K) • ((coord v j : K) + coord (s.cps.getD i 0) j) := by
      funext i; rw [smul_eq_mul, mul_comm]
    rw [this, neval_smul, neval_add, neval_const ht, coord_value, smul_eq_mul, mul_comm]

end affine

section fit
variable [Field K] [LinearOrder K] [IsStrictOrderedRing K] [AddCommGroup V] [Module K V] [Coords K V]
  [LawfulCoords K V]

theorem fitIntoUnitCube_ok {s : Spline V} (h : s.WF)
    (hext : ∀ j : Fin (Coords.n K V), ∃ x ∈ s.cps, ∃ y ∈ s.cps, (coord x j : K) < coord y j) :
    ∃ r, fitIntoUnitCube K s = .ok r ∧ r.WF ∧ r.degrees = s.degrees ∧
      (∀ x ∈ r.cps, ∀ j : Fin (Coords.n K V), (0 : K) ≤ coord x j ∧ (coord x j : K) ≤ 1) ∧
      (∀ j : Fin (Coords.n K V), (∃ x ∈ r.cps, (coord x j : K) = 0) ∧ (∃ x ∈ r.cps, (coord x j : K) = 1)) ∧
      ∃ lo hi : V, minimumCorner K s = .ok lo ∧ maximumCorner K s = .ok hi ∧
        (∀ j : Fin (Coords.n K V), (coord lo j : K) < coord hi j) ∧
        ∀ t : List K, t.length = s.dim → ∀ j : Fin (Coords.n K V),
          (coord (r.value t) j : K) = (coord (s.value t) j - coord lo j) / (coord hi j - coord lo j) := by
  obtain ⟨mx, a1, a2, a3⟩ := maximumCorner_ok (K := K) h
  obtain ⟨mn, b1, b2, b3⟩ := minimumCorner_ok (K := K) h
  have hlt : ∀ j : Fin (Coords.n K V), (coord mn j : K) < coord mx j := by
    intro j
    obtain ⟨x, hx, y, hy, hxy⟩ := hext j
    exact lt_of_le_of_lt (b2 j x hx) (lt_of_lt_of_le hxy (a2 j y hy))
  unfold fitIntoUnitCube
  rw [a1, b1]
  simp only [bind_ok]
  obtain ⟨r, r1, r2, r3, r4, r5⟩ := transposeAndScale_ok (K := K) h (-mn)
    (ofCoords (V := V) (fun j => (1 : K) / coord (mx - mn) j))
  have hval : ∀ (x : K) (j : Fin (Coords.n K V)),
      (coord (-mn) j + x) * coord (ofCoords (V := V) (fun j => (1 : K) / coord (mx - mn) j)) j
        = (x - coord mn j) / (coord mx j - coord mn j) := by
    intro x j
    rw [coord_ofCoords, coord_neg, coord_sub, mul_one_div]
    congr 1; ring
  have hlen : r.cps.length = s.cps.length := by rw [r2.cps_len, h.cps_len, r3]
  refine ⟨r, r1, r2, r3, ?_, ?_, ?_⟩
  · intro x hx j
    obtain ⟨i, hi, rfl⟩ := List.mem_iff_getElem.mp hx
    rw [r4 i (by omega) hi j, hval]
    have hd : 0 < (coord mx j : K) - coord mn j := sub_pos.mpr (hlt j)
    have := List.getElem_mem (l := s.cps) (show i < s.cps.length by omega)
    refine ⟨div_nonneg (sub_nonneg.mpr (b2 j _ this)) hd.le, ?_⟩
    rw [div_le_one hd]
    exact sub_le_sub_right (a2 j _ this) _
  · intro j
    have hd : (coord mx j : K) - coord mn j ≠ 0 := (sub_pos.mpr (hlt j)).ne'
    constructor
    · obtain ⟨x, hx, ex⟩ := b3 j
      obtain ⟨i, hi, rfl⟩ := List.mem_iff_getElem.mp hx
      refine ⟨r.cps[i]'(by omega), List.getElem_mem _, ?_⟩
      rw [r4 i hi (by omega) j, hval, ex, sub_self, zero_div]
    · obtain ⟨x, hx, ex⟩ := a3 j
      obtain ⟨i, hi, rfl⟩ := List.mem_iff_getElem.mp hx
      refine ⟨r.cps[i]'(by omega), List.getElem_mem _, ?_⟩
      rw [r4 i hi (by omega) j, hval, ex, div_self hd]
  · refine ⟨mn, mx, rfl, rfl, hlt, fun t ht j => ?_⟩
    rw [r5 t ht j, hval]

end fit
end Spline
end Bezman
