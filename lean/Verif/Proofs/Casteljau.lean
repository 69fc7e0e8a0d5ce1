import Verif.Proofs.Evaluate
import Verif.Proofs.SplitJoin

/-! # `Evaluate` is de Casteljau's algorithm, in any arithmetic -/

namespace Bezman
open Spec

variable {K V : Type} [One K] [Sub K] [Add V] [SMul K V]

theorem triangle_congr {t : K} {P Q : ℕ → V} : ∀ {r j : ℕ}, (∀ i, i ≤ j + r → P i = Q i) → triangle t P r j = triangle t Q r j
  | 0, j, h => h j (by omega)
  | r + 1, j, h => by
    rw [triangle, triangle, triangle_congr (r := r) (j := j) fun i hi => h i (by omega),
      triangle_congr (r := r) (j := j + 1) fun i hi => h i (by omega)]

theorem casteljau_congr : ∀ {ps : List ℕ} {ts : List K} {P Q : List ℕ → V} (_ : ts.length = ps.length)
    (_ : ∀ idx, ValidIdx ps idx → P idx = Q idx), casteljau ps ts P = casteljau ps ts Q
  | [], ts, P, Q, _, h => by rw [casteljau, casteljau, h [] .nil] <;> simp
  | p :: ps, [], P, Q, hl, h => by simp at hl
  | p :: ps, t :: ts, P, Q, hl, h => by
    rw [casteljau, casteljau]
    refine casteljau_congr (by simpa using hl) fun idx hi => triangle_congr fun i hi' => h _ (.cons (by omega) hi)

namespace Spline

omit [One K] [Sub K] [Add V] [SMul K V] in
theorem WF.exists_tab {s : Spline V} (h : s.WF) : ∃ F, s.cps = tab (size s.degrees) F := by
  have h0 : 0 < s.cps.length := by rw [h.cps_len]; exact size_pos _
  refine ⟨fun i => s.cps.getD i s.cps[0], ?_⟩
  rw [← h.cps_len]
  refine List.ext_getElem? fun i => ?_
  by_cases hi : i < s.cps.length
  · rw [tab_getElem? _ hi, List.getD_eq_getElem?_getD, List.getElem?_eq_getElem hi]; rfl
  · rw [List.getElem?_eq_none (by omega), List.getElem?_eq_none (by simp; omega)]

theorem evaluate_casteljau {s : Spline V} (h : s.WF) {t : List K} (ht : t.length = s.dim) {P : List ℕ → V}
    (hP : ∀ idx, ValidIdx s.degrees idx → s.controlPoint idx = .ok (P idx)) :
    s.evaluate t = .ok (casteljau s.degrees t P) := by
  obtain ⟨F0, hF0⟩ := h.exists_tab
  have e0 : casteljau s.degrees t P = casteljau s.degrees t (fun idx => F0 (flatIndex s.degrees idx)) := by
    refine casteljau_congr ht fun idx hi => ?_
    have := hP idx hi
    rw [controlPoint_rd h hi.length, hF0, rd_tab F0 (flatIndex_lt hi)] at this
    exact (Except.ok.inj this).symm
  rw [e0]
  unfold evaluate
  obtain ⟨r, h1, G, h2, h3, h4⟩ := loop_inv (n := s.dim) (s := (s.cps, s.ncp))
    (f := fun par_dim (r : List V × Nat) => do
      let factor ← rd t par_dim
      let inv_factor := 1 - factor
      let p ← rd s.degrees par_dim
      let off ← rd s.offsets par_dim
      let ctps_to_consider := r.2 / (p + 1)
      let m ← loop ctps_to_consider (fun starting_point_id m =>
        let offset := (off * (p + 1)) * starting_point_id
        loop (p + 1) (fun i m =>
          loop (p - i) (fun j m => do
            let a ← rd m (j * off + offset)
            let b ← rd m ((j + 1) * off + offset)
            wr m (j * off + offset) (inv_factor • a + factor • b)) m) m) r.1
      pure (m, ctps_to_consider))
    (P := fun d r => ∃ G, r.1 = tab (size s.degrees) G ∧ r.2 = size (s.degrees.drop d) ∧
      casteljau (s.degrees.drop d) (t.drop d) (fun idx => G (size (s.degrees.take d) * flatIndex (s.degrees.drop d) idx))
        = casteljau s.degrees t (fun idx => F0 (flatIndex s.degrees idx)))
    ⟨F0, hF0, by simpa using h.ncp_eq, by simp⟩
    (by
      rintro d hd ⟨m, c⟩ ⟨G, hm, hc, hv⟩
      simp only at hm hc
      have hp : s.degrees[d]? = some s.degrees[d] := List.getElem?_eq_getElem hd
      have hx : t[d]? = some t[d] := List.getElem?_eq_getElem (by omega)
      have hdrop : s.degrees.drop d = s.degrees[d] :: s.degrees.drop (d + 1) :=
        List.drop_eq_getElem_cons hd
      have htdrop : t.drop d = t[d] :: t.drop (d + 1) := List.drop_eq_getElem_cons (by omega)
      have hc' : c / (s.degrees[d] + 1) = size (s.degrees.drop (d + 1)) := by
        rw [hc, hdrop, size_cons, Nat.mul_div_cancel_left _ (Nat.succ_pos _)]
      rw [rd_ok hx, rd_ok hp, rd_ok (h.off hd)]
      simp only [bind_ok, hc', hm]
      obtain ⟨G', e1, e2⟩ := castel_dim (t := t[d]) (F := G) (p := s.degrees[d])
        (cnt := size (s.degrees.drop (d + 1))) (st := size (s.degrees.take d)) (N := size s.degrees)
        (size_pos _) (by
          conv_rhs => rw [← List.take_append_drop d s.degrees, size_append, hdrop, size_cons])
      rw [e1]
      refine ⟨_, rfl, G', rfl, rfl, ?_⟩
      rw [← hv, hdrop, htdrop, casteljau]
      refine casteljau_congr (by rw [List.length_drop, List.length_drop, ht]; rfl) fun idx hi => ?_
      rw [size_take_succ hp, e2 _ (flatIndex_lt hi)]
      rfl)
  rw [h1]
  simp only [bind_ok]
  have hdrop : s.degrees.drop s.dim = [] := by simp [dim]
  rw [hdrop, casteljau] at h4
  · rw [h2, rd_tab G (size_pos _), ← h4]; simp [flatIndex]
  · simp

end Spline

section joint
variable [Zero K] {S : V → Prop} (hS : ∀ (t : K) (a b : V), S a → S b → S ((1 - t) • a + t • b))
  (h0 : ∀ a b : V, S a → S b → ((1 : K) - 0) • a + (0 : K) • b = a)
  (h1 : ∀ a b : V, S a → S b → ((1 : K) - 1) • a + (1 : K) • b = b)

omit [Zero K] in
include hS in
theorem triangle_closed {t : K} {P : ℕ → V} : ∀ {r j : ℕ}, (∀ i, i ≤ j + r → S (P i)) → S (triangle t P r j)
  | 0, j, h => h j (by omega)
  | r + 1, j, h => hS _ _ _ (triangle_closed fun i hi => h i (by omega)) (triangle_closed fun i hi => h i (by omega))

include hS h0 in
theorem triangle_zero {P : ℕ → V} : ∀ {r j : ℕ}, (∀ i, i ≤ j + r → S (P i)) → triangle (0 : K) P r j = P j
  | 0, j, h => rfl
  | r + 1, j, h => by
    rw [triangle, h0 _ _ (triangle_closed hS fun i hi => h i (by omega)) (triangle_closed hS fun i hi => h i (by omega)),
      triangle_zero fun i hi => h i (by omega)]

include hS h1 in
theorem triangle_one {P : ℕ → V} : ∀ {r j : ℕ}, (∀ i, i ≤ j + r → S (P i)) → triangle (1 : K) P r j = P (j + r)
  | 0, j, h => rfl
  | r + 1, j, h => by
    rw [triangle, h1 _ _ (triangle_closed hS fun i hi => h i (by omega)) (triangle_closed hS fun i hi => h i (by omega)),
      triangle_one fun i hi => h i (by omega)]
    congr 1; omega

include hS h1 in
/-- at the end of a direction only the last layer counts -/
theorem casteljau_end {r : List ℕ} {p : ℕ} {r' : List K} (hr : r'.length = r.length) : ∀ {l : List ℕ} {l' : List K} {P : List ℕ → V}
    (_ : l'.length = l.length) (_ : ∀ idx, ValidIdx (l ++ p :: r) idx → S (P idx)),
    casteljau (l ++ p :: r) (l' ++ (1 : K) :: r') P
      = casteljau (l ++ r) (l' ++ r') (fun idx => P (idx.insertIdx l.length p))
  | [], l', P, hl, hP => by
    have : l' = [] := List.length_eq_zero_iff.mp hl
    subst this
    rw [List.nil_append, List.nil_append, casteljau, List.nil_append, List.nil_append]
    refine casteljau_congr hr fun idx hi => ?_
    rw [triangle_one hS h1 fun i hi' => hP _ (.cons (by omega) hi), zero_add]
    rfl
  | q :: l, [], P, hl, hP => by simp at hl
  | q :: l, t :: l', P, hl, hP => by
    rw [List.cons_append, List.cons_append, casteljau, casteljau_end hr (by simpa using hl) fun idx hi =>
      triangle_closed hS fun i hi' => hP _ (.cons (by omega) hi), List.cons_append, List.cons_append, casteljau]
    rfl

include hS h0 in
theorem casteljau_start {r : List ℕ} {p : ℕ} {r' : List K} (hr : r'.length = r.length) : ∀ {l : List ℕ} {l' : List K} {P : List ℕ → V}
    (_ : l'.length = l.length) (_ : ∀ idx, ValidIdx (l ++ p :: r) idx → S (P idx)),
    casteljau (l ++ p :: r) (l' ++ (0 : K) :: r') P
      = casteljau (l ++ r) (l' ++ r') (fun idx => P (idx.insertIdx l.length 0))
  | [], l', P, hl, hP => by
    have : l' = [] := List.length_eq_zero_iff.mp hl
    subst this
    rw [List.nil_append, List.nil_append, casteljau, List.nil_append, List.nil_append]
    refine casteljau_congr hr fun idx hi => ?_
    rw [triangle_zero hS h0 fun i hi' => hP _ (.cons (by omega) hi)]
    rfl
  | q :: l, [], P, hl, hP => by simp at hl
  | q :: l, t :: l', P, hl, hP => by
    rw [List.cons_append, List.cons_append, casteljau, casteljau_start hr (by simpa using hl) fun idx hi =>
      triangle_closed hS fun i hi' => hP _ (.cons (by omega) hi), List.cons_append, List.cons_append, casteljau]
    rfl

end joint
end Bezman
