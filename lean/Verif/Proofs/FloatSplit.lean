import Verif.Proofs.FloatArith
import Verif.Proofs.Casteljau
import Verif.Spec.FloatArith

/-! # Rounding errors of splitting -/

namespace Bezman
open Spec

variable {A : FloatArith}

theorem triangle_float {t : Fl A} (h0 : 0 ≤ t.val) (h1 : t.val ≤ 1) {P : ℕ → Fl A} {M : ℝ} : ∀ {r j : ℕ},
    (∀ i, i ≤ j + r → |(P i).val| ≤ M) → NearAt A M r (triangle t P r j) (triangle t.val (fun i => (P i).val) r j)
  | 0, j, h => ⟨h j (by omega), by simp [triangle, lerpErr]⟩
  | r + 1, j, h => by
    obtain ⟨a1, a2⟩ := triangle_float h0 h1 (r := r) (j := j) fun i hi => h i (by omega)
    obtain ⟨b1, b2⟩ := triangle_float h0 h1 (r := r) (j := j + 1) fun i hi => h i (by omega)
    exact ⟨lerp_bound h0 h1 a1 b1, (lerp_err A h0 h1 a1 b1 a2 b2 (A.mul_err _ _) (A.mul_err _ _)).trans (lerpErr_succ A r)⟩

theorem triangle_float_point {n : ℕ} {t : Fl A} (h0 : 0 ≤ t.val) (h1 : t.val ≤ 1) {P : ℕ → Point (Fl A) n} {M : Fin n → ℝ} : ∀ {r j : ℕ},
    (∀ i, i ≤ j + r → ∀ c, |((P i).val c).val| ≤ M c) → ∀ c, NearAt A (M c) r ((triangle t P r j).val c)
      ((triangle t.val (fun i => (⟨fun c => ((P i).val c).val⟩ : Point ℝ n)) r j).val c)
  | 0, j, h, c => ⟨h j (by omega) c, by simp [triangle, lerpErr]⟩
  | r + 1, j, h, c => by
    obtain ⟨a1, a2⟩ := triangle_float_point h0 h1 (r := r) (j := j) (fun i hi => h i (by omega)) c
    obtain ⟨b1, b2⟩ := triangle_float_point h0 h1 (r := r) (j := j + 1) (fun i hi => h i (by omega)) c
    unfold NearAt
    set a := triangle t P r j
    set b := triangle t P r (j + 1)
    set a' := triangle t.val (fun i => (⟨fun c => ((P i).val c).val⟩ : Point ℝ n)) r j
    set b' := triangle t.val (fun i => (⟨fun c => ((P i).val c).val⟩ : Point ℝ n)) r (j + 1)
    have e : (triangle t.val (fun i => (⟨fun c => ((P i).val c).val⟩ : Point ℝ n)) (r + 1) j).val c
        = (1 - t.val) * a'.val c + t.val * b'.val c := by
      show a'.val c * (1 - t.val) + b'.val c * t.val = _
      ring
    rw [e]
    refine ⟨lerp_bound h0 h1 a1 b1, ?_⟩
    refine (lerp_err A h0 h1 a1 b1 a2 b2 ?_ ?_).trans (lerpErr_succ A r)
    · have := A.mul_err (a.val c).val ((1 : Fl A) - t).val
      rw [mul_comm (a.val c).val] at this
      exact this
    · have := A.mul_err (b.val c).val t.val
      rw [mul_comm (b.val c).val] at this
      exact this

theorem lerpErr_mono' {M : ℝ} (hM : 0 ≤ M) {j k : ℕ} (h : j ≤ k) : lerpErr A M j ≤ lerpErr A M k :=
  monotone_nat_of_le_succ (f := lerpErr A M) (lerpErr_mono A hM) h


theorem getD_bound {α : Type} {l : List α} {d : α} {S : α → Prop} (h : ∀ x ∈ l, S x) (hd : S d) (i : ℕ) : S (l.getD i d) := by
  rw [List.getD_eq_getElem?_getD]
  by_cases hi : i < l.length
  · rw [List.getElem?_eq_getElem hi]; exact h _ (List.getElem_mem hi)
  · rw [List.getElem?_eq_none (by omega)]; exact hd

theorem getD_map {α β : Type} (f : α → β) (l : List α) (d : α) (i : ℕ) : (l.map f).getD i (f d) = f (l.getD i d) := by
  rw [List.getD_eq_getElem?_getD, List.getD_eq_getElem?_getD, List.getElem?_map]
  cases l[i]? <;> rfl

theorem Spline.splitAt_float {s : Spline (Fl A)} (hs : s.WF) {d p : ℕ} (hp : s.degrees[d]? = some p) {z : Fl A} (h0 : 0 < z.val)
    (h1 : z.val < 1) {M : ℝ} (hM : ∀ x ∈ s.cps, |x.val| ≤ M) :
    ∃ a b a' b', s.splitAt z d = .ok (a, b) ∧ s.exact.splitAt z.val d = .ok (a', b') ∧
      List.Forall₂ (fun x y => |x.val - y| ≤ lerpErr A M p) a.cps a'.cps ∧
      List.Forall₂ (fun x y => |x.val - y| ≤ lerpErr A M p) b.cps b'.cps := by
  have hs' : s.exact.WF := ⟨hs.dim_pos, hs.ncp_eq, hs.offsets_eq, by simpa [Spline.exact] using hs.cps_len⟩
  letI : Inhabited (Fl A) := ⟨⟨0⟩⟩
  letI : Inhabited ℝ := ⟨0⟩
  have hcl : 0 < s.cps.length := by rw [hs.cps_len]; exact size_pos _
  have hM0 : 0 ≤ M := (abs_nonneg _).trans (hM _ (List.getElem_mem hcl))
  have e1 := Spline.splitAt_mem hs hp (z := z) ⟨h0, h1⟩
  have e2 := Spline.splitAt_mem hs' (d := d) (p := p) hp (z := z.val) ⟨h0, h1⟩
  have key : ∀ x r j, r ≤ p → |(triangle z (fibre (size (s.degrees.take d)) p (fun i => s.cps.getD i _root_.Inhabited.default) x) r j).val -
      triangle z.val (fibre (size (s.degrees.take d)) p (fun i => s.exact.cps.getD i _root_.Inhabited.default) x) r j| ≤ lerpErr A M p := by
    intro x r j hr
    have := triangle_float h0.le h1.le (P := fibre (size (s.degrees.take d)) p (fun i => s.cps.getD i _root_.Inhabited.default) x) (M := M)
      (r := r) (j := j) (fun i _ => getD_bound (S := fun x : Fl A => |x.val| ≤ M) hM (by show |(0 : ℝ)| ≤ M; rw [abs_zero]; exact hM0) _)
    have e : (fun i => (fibre (size (s.degrees.take d)) p (fun i => s.cps.getD i _root_.Inhabited.default) x i).val)
        = fibre (size (s.degrees.take d)) p (fun i => s.exact.cps.getD i _root_.Inhabited.default) x := by
      funext i
      exact (getD_map Fl.val s.cps _root_.Inhabited.default _).symm
    rw [e] at this
    exact this.2.trans (lerpErr_mono' hM0 hr)
  refine ⟨_, _, _, _, e1, e2, ?_, ?_⟩
  · simp only [tab, List.forall₂_map_left_iff, List.forall₂_map_right_iff]
    exact List.forall₂_same.mpr fun x _ => key x _ _ (Nat.lt_succ_iff.mp (Nat.mod_lt _ (Nat.succ_pos p)))
  · simp only [tab, List.forall₂_map_left_iff, List.forall₂_map_right_iff]
    exact List.forall₂_same.mpr fun x _ => key x _ _ (by omega)

theorem Spline.splitAt_float_point {n : ℕ} {s : Spline (Point (Fl A) n)} (hs : s.WF) {d p : ℕ} (hp : s.degrees[d]? = some p)
    {z : Fl A} (h0 : 0 < z.val) (h1 : z.val < 1) {M : Fin n → ℝ} (hM : ∀ x ∈ s.cps, ∀ c, |(x.val c).val| ≤ M c) :
    ∃ a b a' b', s.splitAt z d = .ok (a, b) ∧ s.exactPoints.splitAt z.val d = .ok (a', b') ∧
      List.Forall₂ (fun x y => ∀ c, |(x.val c).val - y.val c| ≤ lerpErr A (M c) p) a.cps a'.cps ∧
      List.Forall₂ (fun x y => ∀ c, |(x.val c).val - y.val c| ≤ lerpErr A (M c) p) b.cps b'.cps := by
  have hs' : s.exactPoints.WF := ⟨hs.dim_pos, hs.ncp_eq, hs.offsets_eq, by simpa [Spline.exactPoints] using hs.cps_len⟩
  letI : Inhabited (Point (Fl A) n) := ⟨⟨fun _ => ⟨0⟩⟩⟩
  letI : Inhabited (Point ℝ n) := ⟨⟨fun _ => 0⟩⟩
  have hcl : 0 < s.cps.length := by rw [hs.cps_len]; exact size_pos _
  have hM0 : ∀ c, 0 ≤ M c := fun c => (abs_nonneg _).trans (hM _ (List.getElem_mem hcl) c)
  have e1 := Spline.splitAt_mem hs hp (z := z) ⟨h0, h1⟩
  have e2 := Spline.splitAt_mem hs' (d := d) (p := p) hp (z := z.val) ⟨h0, h1⟩
  have key : ∀ x r j, r ≤ p → ∀ c, |((triangle z (fibre (size (s.degrees.take d)) p (fun i => s.cps.getD i _root_.Inhabited.default) x) r j).val c).val -
      (triangle z.val (fibre (size (s.degrees.take d)) p (fun i => s.exactPoints.cps.getD i _root_.Inhabited.default) x) r j).val c| ≤ lerpErr A (M c) p := by
    intro x r j hr c
    have := triangle_float_point h0.le h1.le (P := fibre (size (s.degrees.take d)) p (fun i => s.cps.getD i _root_.Inhabited.default) x) (M := M)
      (r := r) (j := j) (fun i _ => getD_bound (S := fun x : Point (Fl A) n => ∀ c, |(x.val c).val| ≤ M c) hM
        (fun c => by show |(0 : ℝ)| ≤ M c; rw [abs_zero]; exact hM0 c) _) c
    have e : (fun i => (⟨fun c => ((fibre (size (s.degrees.take d)) p (fun i => s.cps.getD i _root_.Inhabited.default) x i).val c).val⟩ : Point ℝ n))
        = fibre (size (s.degrees.take d)) p (fun i => s.exactPoints.cps.getD i _root_.Inhabited.default) x := by
      funext i
      exact (getD_map (fun q : Point (Fl A) n => (⟨fun c => (q.val c).val⟩ : Point ℝ n)) s.cps _root_.Inhabited.default _).symm
    rw [e] at this
    exact this.2.trans (lerpErr_mono' (hM0 c) hr)
  refine ⟨_, _, _, _, e1, e2, ?_, ?_⟩
  · simp only [tab, List.forall₂_map_left_iff, List.forall₂_map_right_iff]
    exact List.forall₂_same.mpr fun x _ => key x _ _ (Nat.lt_succ_iff.mp (Nat.mod_lt _ (Nat.succ_pos p)))
  · simp only [tab, List.forall₂_map_left_iff, List.forall₂_map_right_iff]
    exact List.forall₂_same.mpr fun x _ => key x _ _ (by omega)

end Bezman
