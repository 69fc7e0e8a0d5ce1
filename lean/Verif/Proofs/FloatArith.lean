import Verif.Model.FloatArith
import Verif.Proofs.Graded
import Verif.Proofs.Bernstein
import Verif.Proofs.PropsAux
import Mathlib.Tactic.Linarith
import Mathlib.Tactic.Positivity
import Mathlib.Tactic.GCongr

/-! # Rounding errors of `Evaluate` -/

namespace Bezman
open Spec

namespace Fl
variable {A : FloatArith}
@[simp] theorem zero_val : (0 : Fl A).val = 0 := rfl
@[simp] theorem one_val : (1 : Fl A).val = 1 := rfl
theorem add_val (a b : Fl A) : (a + b).val = A.add a.val b.val := rfl
theorem sub_val (a b : Fl A) : (a - b).val = A.sub a.val b.val := rfl
theorem mul_val (a b : Fl A) : (a * b).val = A.mul a.val b.val := rfl
theorem smul_val (a b : Fl A) : (a • b).val = A.mul a.val b.val := rfl
end Fl

variable (A : FloatArith)

/-- one interpolation step -/
theorem lerp_err {M E t a b â b' p q : ℝ} (h0 : 0 ≤ t) (h1 : t ≤ 1) (ha : |a| ≤ M) (hb : |b| ≤ M)
    (hâ : |â - a| ≤ E) (hb' : |b' - b| ≤ E) (hp : |p - A.sub 1 t * â| ≤ A.u * |A.sub 1 t * â| + A.η)
    (hq : |q - t * b'| ≤ A.u * |t * b'| + A.η) :
    |A.add p q - ((1 - t) * a + t * b)| ≤ (1 + A.u) ^ 3 * (M + E) - M + 2 * (1 + A.u) * A.η := by
  have hu := A.u_nonneg
  have hη := A.η_nonneg
  have hτ := A.sub_err 1 t
  set u := A.u
  set τ' := A.sub 1 t
  have h1t : 0 ≤ 1 - t := by linarith
  rw [abs_of_nonneg h1t] at hτ
  have hM : 0 ≤ M := (abs_nonneg a).trans ha
  have hE : 0 ≤ E := (abs_nonneg _).trans hâ
  have haa : |â| ≤ M + E := by
    have := abs_add_le a (â - a); simp only [add_sub_cancel] at this; linarith
  have hbb : |b'| ≤ M + E := by
    have := abs_add_le b (b' - b); simp only [add_sub_cancel] at this; linarith
  have hτ' : |τ'| ≤ (1 + u) * (1 - t) := by
    have := abs_add_le (1 - t) (τ' - (1 - t))
    rw [add_sub_cancel, abs_of_nonneg h1t] at this; linarith
  -- first product
  have hp' : |p - (1 - t) * a| ≤ (1 - t) * ((1 + u) ^ 2 * (M + E) - M) + A.η := by
    have e : p - (1 - t) * a = (p - τ' * â) + ((τ' - (1 - t)) * â + (1 - t) * (â - a)) := by ring
    have h2 : |τ' * â| ≤ (1 + u) * (1 - t) * (M + E) := by
      rw [abs_mul]; exact mul_le_mul hτ' haa (abs_nonneg _) (by positivity)
    have h3 : |(τ' - (1 - t)) * â| ≤ u * (1 - t) * (M + E) := by
      rw [abs_mul]; exact mul_le_mul hτ haa (abs_nonneg _) (by positivity)
    have h4 : |(1 - t) * (â - a)| ≤ (1 - t) * E := by
      rw [abs_mul, abs_of_nonneg h1t]; exact mul_le_mul_of_nonneg_left hâ h1t
    have h5 := abs_add_le (p - τ' * â) ((τ' - (1 - t)) * â + (1 - t) * (â - a))
    have h6 := abs_add_le ((τ' - (1 - t)) * â) ((1 - t) * (â - a))
    have h7 : u * |τ' * â| ≤ u * ((1 + u) * (1 - t) * (M + E)) := mul_le_mul_of_nonneg_left h2 hu
    rw [e]
    have : (1 - t) * ((1 + u) ^ 2 * (M + E) - M) = u * ((1 + u) * (1 - t) * (M + E)) + (u * (1 - t) * (M + E) + (1 - t) * E) := by
      ring
    linarith
  have hq' : |q - t * b| ≤ t * ((1 + u) ^ 2 * (M + E) - M) + A.η := by
    have e : q - t * b = (q - t * b') + t * (b' - b) := by ring
    have h2 : |t * b'| ≤ t * (M + E) := by
      rw [abs_mul, abs_of_nonneg h0]; exact mul_le_mul_of_nonneg_left hbb h0
    have h4 : |t * (b' - b)| ≤ t * E := by
      rw [abs_mul, abs_of_nonneg h0]; exact mul_le_mul_of_nonneg_left hb' h0
    have h5 := abs_add_le (q - t * b') (t * (b' - b))
    have h7 : u * |t * b'| ≤ u * (t * (M + E)) := mul_le_mul_of_nonneg_left h2 hu
    have h8 : 0 ≤ t * (u * (1 + u) * (M + E)) := by positivity
    rw [e]
    have : t * ((1 + u) ^ 2 * (M + E) - M) = u * (t * (M + E)) + t * E + t * (u * (1 + u) * (M + E)) := by
      ring
    linarith
  have hc : |(1 - t) * a + t * b| ≤ M := by
    have h5 := abs_add_le ((1 - t) * a) (t * b)
    rw [abs_mul, abs_mul, abs_of_nonneg h1t, abs_of_nonneg h0] at h5
    have h6 := mul_le_mul_of_nonneg_left ha h1t
    have h7 := mul_le_mul_of_nonneg_left hb h0
    have : (1 - t) * M + t * M = M := by ring
    linarith
  have hs : |p + q - ((1 - t) * a + t * b)| ≤ (1 + u) ^ 2 * (M + E) - M + 2 * A.η := by
    have h5 := abs_add_le (p - (1 - t) * a) (q - t * b)
    have e : p - (1 - t) * a + (q - t * b) = p + q - ((1 - t) * a + t * b) := by ring
    rw [e] at h5
    have : (1 - t) * ((1 + u) ^ 2 * (M + E) - M) + t * ((1 + u) ^ 2 * (M + E) - M) = (1 + u) ^ 2 * (M + E) - M := by ring
    linarith
  have hpq : |p + q| ≤ (1 + u) ^ 2 * (M + E) + 2 * A.η := by
    have h5 := abs_add_le ((1 - t) * a + t * b) (p + q - ((1 - t) * a + t * b))
    rw [add_sub_cancel] at h5
    linarith
  have h9 := A.add_err p q
  have h10 := abs_add_le (A.add p q - (p + q)) (p + q - ((1 - t) * a + t * b))
  rw [sub_add_sub_cancel] at h10
  have h11 : u * |p + q| ≤ u * ((1 + u) ^ 2 * (M + E) + 2 * A.η) := mul_le_mul_of_nonneg_left hpq hu
  have : (1 + u) ^ 3 * (M + E) - M + 2 * (1 + u) * A.η
      = u * ((1 + u) ^ 2 * (M + E) + 2 * A.η) + ((1 + u) ^ 2 * (M + E) - M + 2 * A.η) := by ring
  linarith

/-- the error after `k` interpolation steps of numbers bounded by `M` -/
noncomputable def lerpErr (M : ℝ) (k : ℕ) : ℝ := ((1 + A.u) ^ (3 * k) - 1) * M + 2 * k * (1 + A.u) ^ (3 * k) * A.η

theorem lerpErr_succ {M : ℝ} (k : ℕ) :
    (1 + A.u) ^ 3 * (M + lerpErr A M k) - M + 2 * (1 + A.u) * A.η ≤ lerpErr A M (k + 1) := by
  have hu := A.u_nonneg
  have h1 : (1 : ℝ) ≤ 1 + A.u := by linarith
  have h2 : 1 + A.u ≤ (1 + A.u) ^ (3 * (k + 1)) := le_self_pow₀ h1 (by omega)
  have h3 := mul_le_mul_of_nonneg_right h2 A.η_nonneg
  unfold lerpErr
  have e : (1 + A.u) ^ (3 * (k + 1)) = (1 + A.u) ^ 3 * (1 + A.u) ^ (3 * k) := by rw [← pow_add]; congr 1; ring
  rw [e] at h3 ⊢
  push_cast
  have : (1 + A.u) ^ 3 * (M + (((1 + A.u) ^ (3 * k) - 1) * M + 2 * k * (1 + A.u) ^ (3 * k) * A.η)) - M
      = ((1 + A.u) ^ 3 * (1 + A.u) ^ (3 * k) - 1) * M + 2 * k * ((1 + A.u) ^ 3 * (1 + A.u) ^ (3 * k)) * A.η := by ring
  rw [this]
  nlinarith

theorem lerpErr_mono {M : ℝ} (hM : 0 ≤ M) (k : ℕ) : lerpErr A M k ≤ lerpErr A M (k + 1) := by
  have hu := A.u_nonneg
  have hη := A.η_nonneg
  refine le_trans ?_ (lerpErr_succ A k)
  have h0 : 0 ≤ lerpErr A M k := by
    have : (1 : ℝ) ≤ (1 + A.u) ^ (3 * k) := one_le_pow₀ (by linarith)
    unfold lerpErr
    have : 0 ≤ ((1 + A.u) ^ (3 * k) - 1) * M := mul_nonneg (by linarith) hM
    positivity
  have h1 : (1 : ℝ) ≤ (1 + A.u) ^ 3 := one_le_pow₀ (by linarith)
  have h2 : M + lerpErr A M k ≤ (1 + A.u) ^ 3 * (M + lerpErr A M k) := le_mul_of_one_le_left (by linarith) h1
  have : 0 ≤ 2 * (1 + A.u) * A.η := by positivity
  linarith

/-- `x` is bounded by `M` and the floating-point number has the error of `k` steps -/
def NearAt (M : ℝ) (k : ℕ) (x' : Fl A) (x : ℝ) : Prop := |x| ≤ M ∧ |x'.val - x| ≤ lerpErr A M k

theorem lerp_bound {M t a b : ℝ} (h0 : 0 ≤ t) (h1 : t ≤ 1) (ha : |a| ≤ M) (hb : |b| ≤ M) : |(1 - t) * a + t * b| ≤ M := by
  have h1t : 0 ≤ 1 - t := by linarith
  have h5 := abs_add_le ((1 - t) * a) (t * b)
  rw [abs_mul, abs_mul, abs_of_nonneg h1t, abs_of_nonneg h0] at h5
  have h6 := mul_le_mul_of_nonneg_left ha h1t
  have h7 := mul_le_mul_of_nonneg_left hb h0
  have : (1 - t) * M + t * M = M := by ring
  linarith

theorem Spline.evaluate_float {s : Spline (Fl A)} {s' : Spline ℝ} (hs' : s'.WF) (hd : s.degrees = s'.degrees)
    (ho : s.offsets = s'.offsets) (hn : s.ncp = s'.ncp) (hc : s'.cps = s.cps.map Fl.val) {M : ℝ}
    (hM : ∀ x ∈ s.cps, |x.val| ≤ M) {t : List (Fl A)} (ht : ∀ x ∈ t, 0 ≤ x.val ∧ x.val ≤ 1) {G : ℝ}
    (h : s'.evaluate (t.map Fl.val) = .ok G) :
    ∃ r, s.evaluate t = .ok r ∧ |r.val - G| ≤ lerpErr A M s'.degrees.sum := by
  have hcl : 0 < s.cps.length := by
    have := hs'.cps_len; rw [hc, List.length_map] at this; rw [this]; exact size_pos _
  have hM0 : 0 ≤ M := (abs_nonneg _).trans (hM _ (List.getElem_mem hcl))
  obtain ⟨r, e, _, h2⟩ := Spline.evaluate_graded (P := fun (x : Fl A) (y : ℝ) => y = x.val ∧ 0 ≤ y ∧ y ≤ 1)
    (Q := NearAt A M) (fun k a a' h => ⟨h.1, h.2.trans (lerpErr_mono A hM0 k)⟩) (by
      rintro k t t' a a' b b' ⟨rfl, h0, h1⟩ ⟨ha, ha'⟩ ⟨hb, hb'⟩
      refine ⟨lerp_bound h0 h1 ha hb, ?_⟩
      exact (lerp_err A h0 h1 ha hb ha' hb' (A.mul_err _ _) (A.mul_err _ _)).trans (lerpErr_succ A k)) hs' hd ho hn
    (by
      rw [hc, List.forall₂_map_right_iff, List.forall₂_same]
      intro x hx
      exact ⟨hM x hx, by simp [lerpErr]⟩)
    (by
      rw [List.forall₂_map_right_iff, List.forall₂_same]
      intro x hx
      exact ⟨rfl, ht x hx⟩) h
  exact ⟨r, e, h2⟩

theorem Spline.evaluate_float_point {n : ℕ} {s : Spline (Point (Fl A) n)} {s' : Spline (Point ℝ n)} (hs' : s'.WF)
    (hd : s.degrees = s'.degrees) (ho : s.offsets = s'.offsets) (hn : s.ncp = s'.ncp)
    (hc : s'.cps = s.cps.map (fun p => ⟨fun i => (p.val i).val⟩)) {M : Fin n → ℝ}
    (hM : ∀ x ∈ s.cps, ∀ i, |(x.val i).val| ≤ M i) {t : List (Fl A)} (ht : ∀ x ∈ t, 0 ≤ x.val ∧ x.val ≤ 1) {G : Point ℝ n}
    (h : s'.evaluate (t.map Fl.val) = .ok G) :
    ∃ r, s.evaluate t = .ok r ∧ ∀ i, |(r.val i).val - G.val i| ≤ lerpErr A (M i) s'.degrees.sum := by
  have hcl : 0 < s.cps.length := by
    have := hs'.cps_len; rw [hc, List.length_map] at this; rw [this]; exact size_pos _
  have hM0 : ∀ i, 0 ≤ M i := fun i => (abs_nonneg _).trans (hM _ (List.getElem_mem hcl) i)
  obtain ⟨r, e, h2⟩ := Spline.evaluate_graded (P := fun (x : Fl A) (y : ℝ) => y = x.val ∧ 0 ≤ y ∧ y ≤ 1)
    (Q := fun k (a : Point (Fl A) n) (a' : Point ℝ n) => ∀ i, NearAt A (M i) k (a.val i) (a'.val i))
    (fun k a a' h i => ⟨(h i).1, (h i).2.trans (lerpErr_mono A (hM0 i) k)⟩) (by
      rintro k t t' a a' b b' ⟨rfl, h0, h1⟩ ha hb i
      have e : ((1 - t.val) • a' + t.val • b').val i = (1 - t.val) * a'.val i + t.val * b'.val i := by
        show a'.val i * (1 - t.val) + b'.val i * t.val = _
        ring
      unfold NearAt
      rw [e]
      refine ⟨lerp_bound h0 h1 (ha i).1 (hb i).1, ?_⟩
      refine (lerp_err A h0 h1 (ha i).1 (hb i).1 (ha i).2 (hb i).2 ?_ ?_).trans (lerpErr_succ A k)
      · have := A.mul_err (a.val i).val ((1 : Fl A) - t).val
        rw [mul_comm (a.val i).val] at this
        exact this
      · have := A.mul_err (b.val i).val t.val
        rw [mul_comm (b.val i).val] at this
        exact this) hs' hd ho hn
    (by
      rw [hc, List.forall₂_map_right_iff, List.forall₂_same]
      intro x hx i
      exact ⟨hM x hx i, by simp [lerpErr]⟩)
    (by
      rw [List.forall₂_map_right_iff, List.forall₂_same]
      intro x hx
      exact ⟨rfl, ht x hx⟩) h
  exact ⟨r, e, fun i => (h2 i).2⟩

/-- Only numbers: at parameters 0 and 1 every step returns one of its operands. -/
theorem Spline.evaluate_corner {K V : Type} [Zero K] [One K] [Sub K] [Add V] [SMul K V] {s : Spline V} (hs : s.WF)
    (h10 : (1 : K) - 0 = 1) (h11 : (1 : K) - 1 = 0)
    (hl : ∀ a ∈ s.cps, ∀ b ∈ s.cps, (1 : K) • a + (0 : K) • b = a)
    (hr : ∀ a ∈ s.cps, ∀ b ∈ s.cps, (0 : K) • a + (1 : K) • b = b) (c : List Bool) {y : Fin s.cps.length → ℤ}
    (h : ({ s with cps := List.ofFn (fun i => Pi.single i (1 : ℤ)) } : Spline (Fin s.cps.length → ℤ)).evaluate
      (c.map (fun b => if b then (1 : ℤ) else 0)) = .ok y) :
    ∃ i, y = Pi.single i 1 ∧ s.evaluate (c.map (fun b => if b then (1 : K) else 0)) = .ok (s.cps[i]) := by
  obtain ⟨r, e, i, h1, h2⟩ := Spline.evaluate_graded
    (P := fun (x : K) (y : ℤ) => (x = 0 ∧ y = 0) ∨ (x = 1 ∧ y = 1))
    (Q := fun _ (a : V) (F : Fin s.cps.length → ℤ) => ∃ i : Fin s.cps.length, F = Pi.single i 1 ∧ a = s.cps[i])
    (s := s)
    (s' := ({ s with cps := List.ofFn (fun i => Pi.single i (1 : ℤ)) } : Spline (Fin s.cps.length → ℤ)))
    (fun _ _ _ h => h) (by
      rintro k t t' a a' b b' ht ⟨i, rfl, rfl⟩ ⟨j, rfl, rfl⟩
      rcases ht with ⟨rfl, rfl⟩ | ⟨rfl, rfl⟩
      · exact ⟨i, by simp, by rw [h10]; exact hl _ (List.getElem_mem _) _ (List.getElem_mem _)⟩
      · exact ⟨j, by simp, by rw [h11]; exact hr _ (List.getElem_mem _) _ (List.getElem_mem _)⟩)
    ⟨hs.dim_pos, hs.ncp_eq, hs.offsets_eq, by simpa using hs.cps_len⟩ rfl rfl rfl
    (by
      rw [List.forall₂_iff_get]
      refine ⟨by simp, fun i h1 h2 => ⟨⟨i, h1⟩, by simp, by simp⟩⟩)
    (t := c.map (fun b => if b then (1 : K) else 0)) (by
      rw [List.forall₂_map_left_iff, List.forall₂_map_right_iff, List.forall₂_same]
      intro b _
      cases b <;> simp) h
  exact ⟨i, h1, by rw [e, h2]⟩

theorem corner_of_steps {K V : Type} [Zero K] [One K] [Sub K] [Add V] [SMul K V] {s : Spline V} (hs : s.WF)
    (h10 : (1 : K) - 0 = 1) (h11 : (1 : K) - 1 = 0)
    (hl : ∀ a ∈ s.cps, ∀ b ∈ s.cps, (1 : K) • a + (0 : K) • b = a)
    (hr : ∀ a ∈ s.cps, ∀ b ∈ s.cps, (0 : K) • a + (1 : K) • b = b) {c : List Bool} (hc : c.length = s.dim) :
    ∃ x, s.evaluate (c.map (fun b => if b then (1 : K) else 0)) = .ok x ∧
      s.controlPoint (List.zipWith (fun (b : Bool) p => if b then p else 0) c s.degrees) = .ok x := by
  set s1 : Spline (Fin s.cps.length → ℤ) := { s with cps := List.ofFn (fun i => Pi.single i (1 : ℤ)) } with hs1
  have hw : s1.WF := ⟨hs.dim_pos, hs.ncp_eq, hs.offsets_eq, by simpa [hs1] using hs.cps_len⟩
  have e := Spline.evaluate_ok (K := ℤ) hw (t := c.map (fun b => if b then (1 : ℤ) else 0))
    (by rw [List.length_map]; exact hc)
  obtain ⟨i, h1, h2⟩ := Spline.evaluate_corner hs h10 h11 hl hr c e
  have hv : ValidIdx s.degrees (List.zipWith (fun (b : Bool) p => if b then p else 0) c s.degrees) := corner_valid hc
  have hlt : flatIndex s.degrees (List.zipWith (fun (b : Bool) p => if b then p else 0) c s.degrees) < s.cps.length := by
    rw [hs.cps_len]; exact flatIndex_lt hv
  have e3 : s1.value (c.map (fun b => if b then (1 : ℤ) else 0))
      = Pi.single ⟨_, hlt⟩ 1 := by
    unfold Spline.value
    rw [bezier_corner hc]
    show (List.ofFn (fun i => Pi.single i (1 : ℤ))).getD _ 0 = _
    rw [List.getD_eq_getElem?_getD, List.getElem?_eq_getElem (by simpa using hlt)]
    simp
    rfl
  rw [e3] at h1
  have e4 : i = ⟨_, hlt⟩ := by
    have := congrFun h1 i
    simp only [Pi.single_eq_same] at this
    by_contra hne
    rw [Pi.single_eq_of_ne hne] at this
    exact absurd this (by norm_num)
  refine ⟨_, h2, ?_⟩
  unfold Spline.controlPoint
  rw [Spline.globalToLocal_ok hs hv.length]
  simp only [bind_ok]
  rw [e4]
  exact rd_getElem hlt

end Bezman
