import Verif.Proofs.Split
import Mathlib.Algebra.Order.Field.Basic

/-! Splitting at several planes. -/

namespace Bezman
open Spec Finset

theorem loop_inv_error {σ : Type} {n k : Nat} {f : Nat → σ → M σ} {s : σ} {e : Err} (P : Nat → σ → Prop)
    (hk : k < n) (h0 : P 0 s)
    (hstep : ∀ j, j < k → ∀ s, P j s → ∃ s', f j s = .ok s' ∧ P (j + 1) s')
    (herr : ∀ s, P k s → f k s = .error e) : loop n f s = .error e := by
  induction n with
  | zero => omega
  | succ n ih =>
    rw [loop_succ]
    by_cases h : k = n
    · subst h
      obtain ⟨s', h1, h2⟩ := loop_inv P h0 hstep
      rw [h1]; exact herr _ h2
    · rw [ih (by omega)]; rfl

namespace Spline
variable {K V : Type}

section
variable [Field K] [LinearOrder K] [IsStrictOrderedRing K]

theorem isSorted_iff (l : List K) : isSorted l = true ↔ l.Pairwise (· ≤ ·) := by
  induction l with
  | nil => simp [isSorted]
  | cons a l ih =>
    cases l with
    | nil => simp [isSorted]
    | cons b l =>
      rw [isSorted, Bool.and_eq_true, ih]
      simp only [Bool.not_eq_true', decide_eq_false_iff_not, not_lt]
      rw [List.pairwise_cons (a := a)]
      constructor
      · rintro ⟨h1, h2⟩
        refine ⟨?_, h2⟩
        intro x hx
        rcases List.mem_cons.mp hx with rfl | hx
        · exact h1
        · exact h1.trans ((List.pairwise_cons.mp h2).1 x hx)
      · rintro ⟨h1, h2⟩
        exact ⟨h1 b (by simp), h2⟩

theorem rel_iff {zp z : K} (hp : zp < 1) :
    (0 < (z - zp) / (1 - zp) ∧ (z - zp) / (1 - zp) < 1) ↔ (zp < z ∧ z < 1) := by
  have h : 0 < 1 - zp := by linarith
  rw [div_pos_iff_of_pos_right h, div_lt_one h]
  constructor
  · rintro ⟨a, b⟩; constructor <;> linarith
  · rintro ⟨a, b⟩; constructor <;> linarith

variable [AddCommGroup V] [Module K V]

/-- left end of piece `i` -/
def cut (planes : List K) (i : ℕ) : K := (0 :: planes ++ [1]).getD i 1

theorem cut_zero (planes : List K) : cut planes 0 = 0 := rfl
theorem cut_succ {planes : List K} {i : ℕ} {z : K} (h : planes[i]? = some z) : cut planes (i + 1) = z := by
  obtain ⟨hi, rfl⟩ := List.getElem?_eq_some_iff.mp h
  simp [cut, List.getElem?_append_left hi, hi]
theorem cut_last (planes : List K) : cut planes (planes.length + 1) = 1 := by
  simp [cut]

/-- state of the loop after `k` cuts -/
def SplitInv (s : Spline V) (planes : List K) (d : ℕ) (k : ℕ)
    (r : List (Spline V) × (Spline V × Spline V)) : Prop :=
  r.1.length = k ∧
  (∀ (i : ℕ) (a : Spline V), r.1[i]? = some a → a.WF ∧ a.degrees = s.degrees ∧
    ∀ (t : List K) (x : K), t.length = s.dim → t[d]? = some x →
      a.value t = s.value (t.set d (cut planes i + (cut planes (i + 1) - cut planes i) * x))) ∧
  r.2.2.WF ∧ r.2.2.degrees = s.degrees ∧
    ∀ (t : List K) (x : K), t.length = s.dim → t[d]? = some x →
      r.2.2.value t = s.value (t.set d (cut planes k + (1 - cut planes k) * x))

theorem split_first {s : Spline V} (h : s.WF) {d p : ℕ} (hp : s.degrees[d]? = some p) {planes : List K} {z : K}
    (hz : planes[0]? = some z) (hz' : 0 < z ∧ z < 1) :
    ∃ sp, s.splitAt z d = .ok sp ∧ SplitInv s planes d 1 ([sp.1], sp) := by
  obtain ⟨a, b, h1, h2, h3, h4, h5, h6⟩ := splitAt_ok h hp hz'
  refine ⟨(a, b), h1, by simp, ?_, h3, h5, ?_⟩
  · intro i a' ha
    rcases i with _ | i
    · simp at ha; subst ha
      refine ⟨h2, h4, fun t x ht hx => ?_⟩
      rw [(h6 t x ht hx).1, cut_zero, cut_succ hz]; congr 2; ring
    · simp at ha
  · intro t x ht hx
    rw [(h6 t x ht hx).2, cut_succ hz]

theorem split_next {s : Spline V} {d p : ℕ} (hp : s.degrees[d]? = some p) {planes : List K}
    {k : ℕ} {r : List (Spline V) × (Spline V × Spline V)} (hr : SplitInv s planes d (k + 1) r) {zp z : K}
    (hzp : planes[k]? = some zp) (hz : planes[k + 1]? = some z) (h1 : zp < z) (h2 : z < 1) :
    ∃ sp, r.2.2.splitAt ((z - zp) / (1 - zp)) d = .ok sp ∧ SplitInv s planes d (k + 2) (r.1 ++ [sp.1], sp) := by
  obtain ⟨r1, r2, r3, r4, r5⟩ := hr
  obtain ⟨a, b, e1, e2, e3, e4, e5, e6⟩ := splitAt_ok (z := (z - zp) / (1 - zp)) r3 (r4 ▸ hp)
    ((rel_iff (h1.trans h2)).mpr ⟨h1, h2⟩)
  have hne : (1 - zp) ≠ 0 := by have := h1.trans h2; intro h; linarith
  have hdim : r.2.2.dim = s.dim := by unfold dim; rw [r4]
  refine ⟨(a, b), e1, by simp [r1], ?_, e3, by rw [e5, r4], ?_⟩
  · intro i a' ha
    by_cases hi : i < k + 1
    · rw [List.getElem?_append_left (by omega)] at ha
      exact r2 i a' ha
    · rw [List.getElem?_append_right (by omega), r1] at ha
      have hik : i = k + 1 := by
        by_contra hne'
        rw [List.getElem?_eq_none (by simp; omega)] at ha; simp at ha
      subst hik
      simp at ha; subst ha
      refine ⟨e2, by rw [e4, r4], fun t x ht hx => ?_⟩
      rw [(e6 t x (by rw [hdim]; exact ht) hx).1, r5 _ ((z - zp) / (1 - zp) * x) (by simpa using ht)
        (by rw [List.getElem?_set_self (List.getElem?_eq_some_iff.mp hx).1]), List.set_set, cut_succ hzp,
        cut_succ hz]
      congr 2; field_simp
  · intro t x ht hx
    rw [(e6 t x (by rw [hdim]; exact ht) hx).2,
      r5 _ ((z - zp) / (1 - zp) + (1 - (z - zp) / (1 - zp)) * x) (by simpa using ht)
        (by rw [List.getElem?_set_self (List.getElem?_eq_some_iff.mp hx).1]), List.set_set, cut_succ hzp,
        cut_succ hz]
    congr 2; field_simp; ring

/-- the loop body with the index arithmetic resolved -/
theorem split_body {d : ℕ} {planes : List K} {k : ℕ}
    {r : List (Spline V) × (Spline V × Spline V)} {zp z : K}
    (hzp : planes[k]? = some zp) (hz : planes[k + 1]? = some z) :
    (do
      let z ← rd planes (1 + k)
      let zp ← rd planes (1 + k - 1)
      let rel := (z - zp) / (1 - zp)
      let sp ← r.2.2.splitAt rel d
      pure (r.1 ++ [sp.1], sp) : M (List (Spline V) × (Spline V × Spline V)))
      = (r.2.2.splitAt ((z - zp) / (1 - zp)) d >>= fun sp => .ok (r.1 ++ [sp.1], sp)) := by
  rw [rd_ok (x := z) (by rw [add_comm]; exact hz), rd_ok (x := zp) (by rw [Nat.add_sub_cancel_left]; exact hzp)]
  rfl

theorem splitAtMany_ok {s : Spline V} (h : s.WF) {d p : ℕ} (hp : s.degrees[d]? = some p) {planes : List K}
    (hs : planes.Pairwise (· < ·)) (hr : ∀ z ∈ planes, 0 < z ∧ z < 1) :
    ∃ l, s.splitAtMany planes d = .ok l ∧ l.length = planes.length + 1 ∧
      ∀ (i : ℕ) (a : Spline V), l[i]? = some a → a.WF ∧ a.degrees = s.degrees ∧
        ∀ (t : List K) (x : K), t.length = s.dim → t[d]? = some x →
          a.value t = s.value (t.set d (cut planes i + (cut planes (i + 1) - cut planes i) * x)) := by
  unfold splitAtMany
  rw [if_neg (by simp [(isSorted_iff planes).mpr (hs.imp le_of_lt)])]
  by_cases he : planes.length = 0
  · rw [if_pos he]
    obtain rfl : planes = [] := List.length_eq_zero_iff.mp he
    refine ⟨[s], rfl, rfl, ?_⟩
    intro i a ha
    rcases i with _ | i
    · simp at ha; subst ha
      refine ⟨h, rfl, fun t x _ hx => ?_⟩
      have : (([] : List K).length + 1) = 0 + 1 := rfl
      rw [cut_zero, ← this, cut_last]
      simp only [sub_zero, one_mul, zero_add]
      rw [set_split hx, ← list_split hx]
    · simp at ha
  · rw [if_neg he]
    have h0 : planes[0]? = some planes[0] := List.getElem?_eq_getElem (by omega)
    obtain ⟨sp, e1, e2⟩ := split_first h hp h0 (hr _ (List.getElem_mem _))
    rw [rd_ok h0]
    simp only [bind_ok]
    rw [e1]
    simp only [bind_ok]
    unfold loopFrom
    obtain ⟨r, h1, h2⟩ := loop_inv (n := planes.length - 1) (s := ([sp.1], sp))
      (f := fun k (r : List (Spline V) × (Spline V × Spline V)) => do
        let z ← rd planes (1 + k)
        let zp ← rd planes (1 + k - 1)
        let rel := (z - zp) / (1 - zp)
        let sp ← r.2.2.splitAt rel d
        pure (r.1 ++ [sp.1], sp))
      (P := fun k r => SplitInv s planes d (k + 1) r) e2
      (by
        intro k hk r hkr
        have hzp : planes[k]? = some planes[k] := List.getElem?_eq_getElem (by omega)
        have hz : planes[k + 1]? = some planes[k + 1] := List.getElem?_eq_getElem (by omega)
        obtain ⟨sp, e1, e2⟩ := split_next hp hkr hzp hz
          (List.pairwise_iff_getElem.mp hs k (k + 1) _ _ (by omega)) (hr _ (List.getElem_mem _)).2
        simp only
        rw [split_body hzp hz, e1]
        exact ⟨_, rfl, e2⟩)
    rw [h1]
    obtain ⟨r1, r2, r3, r4, r5⟩ := h2
    have hl : planes.length - 1 + 1 = planes.length := by omega
    rw [hl] at r1 r5
    refine ⟨_, rfl, by simp [r1], ?_⟩
    intro i a ha
    by_cases hi : i < planes.length
    · rw [List.getElem?_append_left (by omega)] at ha
      exact r2 i a ha
    · rw [List.getElem?_append_right (by omega), r1] at ha
      have hik : i = planes.length := by
        by_contra hne'
        rw [List.getElem?_eq_none (by simp; omega)] at ha; simp at ha
      subst hik
      simp at ha; subst ha
      refine ⟨r3, r4, fun t x ht hx => ?_⟩
      rw [r5 t x ht hx, cut_last]

/-- anything else is rejected -/
theorem splitAtMany_throws {s : Spline V} (h : s.WF) {d p : ℕ} (hp : s.degrees[d]? = some p) {planes : List K}
    (hbad : ¬ (planes.Pairwise (· < ·) ∧ ∀ z ∈ planes, 0 < z ∧ z < 1)) :
    s.splitAtMany planes d = .error .throws := by
  unfold splitAtMany
  by_cases hs : planes.Pairwise (· ≤ ·)
  swap
  · have : isSorted planes = false := by
      rw [Bool.eq_false_iff]; exact fun h => hs ((isSorted_iff planes).mp h)
    rw [if_pos (by simp [this])]
  rw [if_neg (by simp [(isSorted_iff planes).mpr hs])]
  have he : planes.length ≠ 0 := by
    intro he
    obtain rfl : planes = [] := List.length_eq_zero_iff.mp he
    exact hbad (by simp)
  rw [if_neg he]
  have h0 : planes[0]? = some planes[0] := List.getElem?_eq_getElem (by omega)
  rw [rd_ok h0]
  simp only [bind_ok]
  by_cases hz0 : (0 : K) < planes[0] ∧ planes[0] < 1
  swap
  · rw [splitAt_throws hz0]; rfl
  obtain ⟨sp, e1, e2⟩ := split_first h hp h0 hz0
  rw [e1]
  simp only [bind_ok]
  -- the first step that fails
  have hex : ∃ k, ∃ hk : k + 1 < planes.length, ¬ (planes[k] < planes[k + 1] ∧ planes[k + 1] < 1) := by
    by_contra hno
    push Not at hno
    apply hbad
    have hlt : ∀ k (hk : k + 1 < planes.length), planes[k] < planes[k + 1] ∧ planes[k + 1] < 1 := by
      intro k hk
      by_contra hc
      exact absurd (hno k hk) (by intro h; exact hc h)
    have hch : planes.Pairwise (· < ·) := by
      rw [← List.isChain_iff_pairwise, List.isChain_iff_getElem]
      intro i hi
      exact (hlt i hi).1
    refine ⟨hch, ?_⟩
    intro z hz
    obtain ⟨i, hi, rfl⟩ := List.getElem_of_mem hz
    rcases i with _ | i
    · exact hz0
    · exact ⟨hz0.1.trans (List.pairwise_iff_getElem.mp hch 0 (i + 1) _ _ (by omega)), (hlt i hi).2⟩
  classical
  obtain ⟨hk, hkbad⟩ := Nat.find_spec hex
  have hmin := fun m (hm : m < Nat.find hex) => Nat.find_min hex hm
  set k := Nat.find hex with hkdef
  have hgood : ∀ j (hj : j < k), planes[j]'(by omega) < planes[j + 1]'(by omega) ∧ planes[j + 1]'(by omega) < 1 := by
    intro j hj
    have := hmin j hj
    push Not at this
    by_contra hc
    exact absurd (this (by omega)) (fun h => hc h)
  unfold loopFrom
  rw [loop_inv_error (k := k) (e := .throws) (P := fun k r => SplitInv s planes d (k + 1) r) (by omega) e2]
  · rfl
  · intro j hj r hr
    have hzp : planes[j]? = some planes[j] := List.getElem?_eq_getElem (by omega)
    have hz : planes[j + 1]? = some planes[j + 1] := List.getElem?_eq_getElem (by omega)
    obtain ⟨sp, e1, e2⟩ := split_next hp hr hzp hz (hgood j hj).1 (hgood j hj).2
    simp only
    rw [split_body hzp hz, e1]
    exact ⟨_, rfl, e2⟩
  · intro r hr
    have hzp : planes[k]? = some planes[k] := List.getElem?_eq_getElem (by omega)
    have hz : planes[k + 1]? = some planes[k + 1] := List.getElem?_eq_getElem (by omega)
    have hp1 : planes[k] < 1 := by
      rcases Nat.eq_zero_or_pos k with h0' | h0'
      · simp only [h0']; exact hz0.2
      · have := (hgood (k - 1) (by omega)).2
        simpa [show k - 1 + 1 = k by omega] using this
    simp only
    rw [split_body hzp hz, splitAt_throws]
    · rfl
    · rw [rel_iff hp1]; exact hkbad

end
end Spline
end Bezman
