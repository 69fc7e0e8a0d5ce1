import Verif.Proofs.SplitMany
import Verif.Proofs.Product
import Verif.Spec.Computes

/-! Splitting is watertight, with no assumption on the arithmetic. -/

namespace Bezman
open Spec
namespace Spline
variable {K V : Type}

theorem controlPoint_rd {s : Spline V} (h : s.WF) {idx : List ℕ} (hl : idx.length = s.degrees.length) :
    s.controlPoint idx = rd s.cps (flatIndex s.degrees idx) := by
  unfold controlPoint
  rw [globalToLocal_ok h hl]; rfl

theorem flatIndex_layer {ps idx : List ℕ} {d p : ℕ} (hp : ps[d]? = some p) (hi : ValidIdx ps idx) :
    ∃ k g, k < size (ps.take d) ∧ g < size (ps.drop (d + 1)) ∧
      ∀ i, flatIndex ps (idx.set d i) = k + size (ps.take d) * (i + (p + 1) * g) := by
  have hlen := hi.length
  obtain ⟨hd, _⟩ := List.getElem?_eq_some_iff.mp hp
  have hd' : d < idx.length := by omega
  have hx : idx[d]? = some idx[d] := List.getElem?_eq_getElem hd'
  have hv : ValidIdx (ps.take d ++ p :: ps.drop (d + 1)) (idx.take d ++ idx[d] :: idx.drop (d + 1)) := by
    rw [← list_split hp, ← list_split hx]; exact hi
  have htl : (idx.take d).length = (ps.take d).length := by simp; omega
  rw [validIdx_append htl, validIdx_cons] at hv
  refine ⟨_, _, flatIndex_lt hv.1, flatIndex_lt hv.2.2, fun i => ?_⟩
  conv_lhs => rw [list_split hp, set_split hx]
  rw [flatIndex_append htl, flatIndex_cons]

variable [One K] [Sub K] [Add V] [SMul K V] [Zero K] [LT K] [DecidableLT K]

theorem WF.setCps {s : Spline V} (h : s.WF) {c : List V} (hc : c.length = size s.degrees) :
    WF { s with cps := c } := ⟨h.dim_pos, h.ncp_eq, h.offsets_eq, hc⟩

theorem splitAt_join {s : Spline V} (h : s.WF) {d p : ℕ} (hp : s.degrees[d]? = some p) {z : K} (hz : 0 < z ∧ z < 1) :
    ∃ a b, s.splitAt z d = .ok (a, b) ∧ a.WF ∧ b.WF ∧ a.degrees = s.degrees ∧ b.degrees = s.degrees ∧
      SameLayer s.degrees d p 0 a b ∧ SameLayer s.degrees d 0 0 a s ∧ SameLayer s.degrees d p p b s := by
  have hne : 0 < s.cps.length := by rw [h.cps_len]; exact size_pos _
  haveI : Inhabited V := ⟨s.cps[0]⟩
  obtain ⟨hd, _⟩ := List.getElem?_eq_some_iff.mp hp
  have key : ∀ idx, ValidIdx s.degrees idx → ∃ k g, k < size (s.degrees.take d) ∧
      (∀ i, flatIndex s.degrees (idx.set d i) = k + size (s.degrees.take d) * (i + (p + 1) * g)) ∧
      (∀ i, i ≤ p → k + size (s.degrees.take d) * (i + (p + 1) * g) < size s.degrees) := by
    intro idx hidx
    obtain ⟨k, g, hk, hg, hf⟩ := flatIndex_layer hp hidx
    refine ⟨k, g, hk, hf, fun i hi => ?_⟩
    rw [← hf i]
    apply flatIndex_lt
    have hlen := hidx.length
    have hx : idx[d]? = some (idx[d]'(by omega)) := List.getElem?_eq_getElem (by omega)
    have htl : (idx.take d).length = (s.degrees.take d).length := by simp; omega
    rw [set_split hx, list_split hp, validIdx_append htl, validIdx_cons]
    have hv : ValidIdx (s.degrees.take d ++ p :: s.degrees.drop (d + 1))
        (idx.take d ++ idx[d]'(by omega) :: idx.drop (d + 1)) := by
      rw [← list_split hp, ← list_split hx]; exact hidx
    rw [validIdx_append htl, validIdx_cons] at hv
    exact ⟨hv.1, hi, hv.2.2⟩
  refine ⟨_, _, splitAt_mem h hp hz, h.setCps (by simp), h.setCps (by simp), rfl, rfl, ?_, ?_, ?_⟩
  all_goals
    intro idx hidx
    obtain ⟨k, g, hk, hf, hlt⟩ := key idx hidx
    have hl : ∀ i, (idx.set d i).length = s.degrees.length := by intro i; simp [hidx.length]
    have hcp : ∀ (F : ℕ → V) (i : ℕ), controlPoint { s with cps := tab (size s.degrees) F } (idx.set d i)
        = rd (tab (size s.degrees) F) (k + size (s.degrees.take d) * (i + (p + 1) * g)) := by
      intro F i
      have hw : WF { s with cps := tab (size s.degrees) F } := h.setCps (by simp)
      rw [controlPoint_rd hw (hl _), hf]
    simp only [hcp]
  · rw [rd_tab _ (hlt p le_rfl), rd_tab _ (hlt 0 (Nat.zero_le _)), layer_at hk le_rfl, layer_at hk (Nat.zero_le _),
      fibre_at hk le_rfl, fibre_at hk (Nat.zero_le _)]
    exact ⟨_, rfl, by simp⟩
  · rw [controlPoint_rd h (hl _), hf]
    rw [rd_tab _ (hlt 0 (Nat.zero_le _)), layer_at hk (Nat.zero_le _), fibre_at hk (Nat.zero_le _)]
    refine ⟨_, rfl, ?_⟩
    rw [triangle, rd_getElem (by rw [h.cps_len]; exact hlt 0 (Nat.zero_le _))]
    have := hlt 0 (Nat.zero_le _)
    rw [← h.cps_len] at this
    simp only [List.getD_eq_getElem?_getD]
    rw [List.getElem?_eq_getElem this]; rfl
  · rw [controlPoint_rd h (hl _), hf]
    rw [rd_tab _ (hlt p le_rfl), layer_at hk le_rfl, fibre_at hk le_rfl]
    refine ⟨_, rfl, ?_⟩
    rw [Nat.sub_self, triangle, rd_getElem (by rw [h.cps_len]; exact hlt p le_rfl)]
    have := hlt p le_rfl
    rw [← h.cps_len] at this
    simp only [List.getD_eq_getElem?_getD]
    rw [List.getElem?_eq_getElem this]; rfl

theorem SameLayer.trans {ds : List ℕ} {d i j k : ℕ} {a b c : Spline V} (h1 : SameLayer ds d i j a b)
    (h2 : SameLayer ds d j k b c) : SameLayer ds d i k a c := by
  intro idx hidx
  obtain ⟨x, e1, e2⟩ := h1 idx hidx
  obtain ⟨y, e3, e4⟩ := h2 idx hidx
  rw [e2] at e3; injection e3 with e3; subst e3
  exact ⟨x, e1, e4⟩

theorem SameLayer.symm {ds : List ℕ} {d i j : ℕ} {a b : Spline V} (h : SameLayer ds d i j a b) :
    SameLayer ds d j i b a := by
  intro idx hidx
  obtain ⟨x, e1, e2⟩ := h idx hidx
  exact ⟨x, e2, e1⟩

/-- Whenever splitting at several positions returns, the parts join exactly. -/
theorem splitAtMany_join [Div K] {s : Spline V} (h : s.WF) {d p : ℕ} (hp : s.degrees[d]? = some p) {planes : List K}
    {l : List (Spline V)} (hne : planes ≠ []) (hl : s.splitAtMany planes d = .ok l) :
    (∀ a ∈ l, a.WF ∧ a.degrees = s.degrees) ∧ l.length = planes.length + 1 ∧
    (∀ a, l[0]? = some a → SameLayer s.degrees d 0 0 a s) ∧
    (∀ a, l[planes.length]? = some a → SameLayer s.degrees d p p a s) ∧
    ∀ i a b, l[i]? = some a → l[i + 1]? = some b → SameLayer s.degrees d p 0 a b := by
  unfold splitAtMany at hl
  split at hl
  · simp at hl
  have h0 : planes.length ≠ 0 := by simpa using hne
  rw [if_neg h0] at hl
  have hlen : 0 < planes.length := by omega
  rw [rd_getElem hlen] at hl
  simp only [bind_ok] at hl
  obtain ⟨sp, h1, hl⟩ := bind_eq_ok.mp hl
  obtain ⟨r, h2, hl⟩ := bind_eq_ok.mp hl
  simp only [pure_eq_ok, Except.ok.injEq] at hl
  have base : ∀ {s : Spline V} {z : K} {sp}, s.WF → s.degrees[d]? = some p → s.splitAt z d = .ok sp →
      sp.1.WF ∧ sp.2.WF ∧ sp.1.degrees = s.degrees ∧ sp.2.degrees = s.degrees ∧
      SameLayer s.degrees d p 0 sp.1 sp.2 ∧ SameLayer s.degrees d 0 0 sp.1 s ∧ SameLayer s.degrees d p p sp.2 s := by
    intro s z sp h hp h1
    have hz : 0 < z ∧ z < 1 := by
      by_contra hz
      rw [splitAt_throws hz] at h1; cases h1
    obtain ⟨a, b, e, rest⟩ := splitAt_join h hp hz
    rw [e] at h1; injection h1 with h1; subst h1
    exact rest
  have hinv := loopFrom_ok
    (P := fun k (r : List (Spline V) × (Spline V × Spline V)) =>
      r.1.length = k ∧ (∀ a ∈ r.1, a.WF ∧ a.degrees = s.degrees) ∧ r.2.2.WF ∧ r.2.2.degrees = s.degrees ∧
      (∀ a, r.1[0]? = some a → SameLayer s.degrees d 0 0 a s) ∧ SameLayer s.degrees d p p r.2.2 s ∧
      (∀ i a b, r.1[i]? = some a → r.1[i + 1]? = some b → SameLayer s.degrees d p 0 a b) ∧
      (∀ a, r.1[k - 1]? = some a → SameLayer s.degrees d p 0 a r.2.2))
    (by omega) h2
    (by
      obtain ⟨b1, b2, b3, b4, b5, b6, b7⟩ := base h hp h1
      refine ⟨rfl, ?_, b2, b4, ?_, b7, ?_, ?_⟩
      · intro a ha; simp at ha; subst ha; exact ⟨b1, b3⟩
      · intro a ha; simp at ha; subst ha; exact b6
      · intro i a b _ hb; simp at hb
      · intro a ha; simp at ha; subst ha; exact b5)
    (by
      rintro k hk1 hk2 ⟨L, q⟩ r' ⟨i1, i2, i3, i4, i5, i6, i7, i8⟩ hf
      simp only at i1 i2 i3 i4 i5 i6 i7 i8 hf
      obtain ⟨z, _, hf⟩ := bind_eq_ok.mp hf
      obtain ⟨zp, _, hf⟩ := bind_eq_ok.mp hf
      obtain ⟨sq, hq, hf⟩ := bind_eq_ok.mp hf
      simp only [pure_eq_ok, Except.ok.injEq] at hf
      subst hf
      obtain ⟨b1, b2, b3, b4, b5, b6, b7⟩ := base i3 (by rw [i4]; exact hp) hq
      rw [i4] at b3 b4 b5 b6 b7
      refine ⟨by simp [i1], ?_, b2, b4, ?_, b7.trans i6, ?_, ?_⟩
      · intro a ha
        rcases List.mem_append.mp ha with ha | ha
        · exact i2 a ha
        · simp at ha; subst ha; exact ⟨b1, b3⟩
      · intro a ha
        rw [List.getElem?_append_left (by omega)] at ha
        exact i5 a ha
      · intro i a b ha hb
        by_cases hi : i + 1 < k
        · rw [List.getElem?_append_left (by omega)] at ha hb
          exact i7 i a b ha hb
        · have hi' : i + 1 = k := by
            by_contra hne'
            have : (L ++ [sq.1])[i + 1]? = none := List.getElem?_eq_none (by simp; omega)
            rw [this] at hb; cases hb
          rw [List.getElem?_append_left (by omega)] at ha
          rw [List.getElem?_append_right (by omega), i1, hi', Nat.sub_self] at hb
          simp at hb; subst hb
          exact (i8 a (by rw [← hi']; simpa using ha)).trans b6.symm
      · intro a ha
        have : k + 1 - 1 = k := by omega
        rw [this, List.getElem?_append_right (by omega), i1, Nat.sub_self] at ha
        simp at ha; subst ha
        exact b5)
  obtain ⟨i1, i2, i3, i4, i5, i6, i7, i8⟩ := hinv
  subst hl
  refine ⟨?_, by simp [i1], ?_, ?_, ?_⟩
  · intro a ha
    rcases List.mem_append.mp ha with ha | ha
    · exact i2 a ha
    · simp at ha; subst ha; exact ⟨i3, i4⟩
  · intro a ha
    rw [List.getElem?_append_left (by omega)] at ha
    exact i5 a ha
  · intro a ha
    rw [List.getElem?_append_right (by omega), i1, Nat.sub_self] at ha
    simp at ha; subst ha; exact i6
  · intro i a b ha hb
    by_cases hi : i + 1 < planes.length
    · rw [List.getElem?_append_left (by omega)] at ha hb
      exact i7 i a b ha hb
    · have hi' : i + 1 = planes.length := by
        by_contra hne'
        have : (r.1 ++ [r.2.2])[i + 1]? = none := List.getElem?_eq_none (by simp; omega)
        rw [this] at hb; cases hb
      rw [List.getElem?_append_left (by omega)] at ha
      rw [List.getElem?_append_right (by omega), i1, hi', Nat.sub_self] at hb
      simp at hb; subst hb
      exact i8 a (by rw [← hi']; simpa using ha)

end Spline
end Bezman
