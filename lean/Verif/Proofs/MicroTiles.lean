import Verif.Proofs.RingSegments
import Verif.Proofs.FacesCompose

/-! # Proofs: the tiles, and lists of compositions -/

namespace Bezman.Microstructure
open Spec Finset

/-! ## Loops that append -/

theorem foldlM_push_iff {α β : Type} (f : α → M β) (l : List α) (acc r : List β) :
    l.foldlM (fun acc a => do let q ← f a; pure (acc ++ [q])) acc = .ok r ↔
      ∃ qs, r = acc ++ qs ∧ List.Forall₂ (fun a q => f a = .ok q) l qs := by
  induction l generalizing acc with
  | nil =>
    constructor
    · intro h; cases h; exact ⟨[], by simp, .nil⟩
    · rintro ⟨qs, rfl, h⟩; cases h; simp [pure, Except.pure]
  | cons a l ih =>
    rw [List.foldlM_cons, bind_eq_ok]
    constructor
    · rintro ⟨x, h1, h2⟩
      rw [bind_eq_ok] at h1
      obtain ⟨q, q1, q2⟩ := h1
      cases q2
      obtain ⟨qs, rfl, h3⟩ := (ih _).mp h2
      exact ⟨q :: qs, by simp, .cons q1 h3⟩
    · rintro ⟨qs, rfl, h⟩
      cases h with
      | cons q1 h3 =>
        rename_i q qs
        refine ⟨acc ++ [q], by rw [q1]; rfl, (ih _).mpr ⟨qs, by simp, h3⟩⟩

theorem foldlM_nested_iff {α β γ : Type} (f : α → β → M γ) (l : List α) (m : List β) (acc r : List γ) :
    l.foldlM (fun acc a => m.foldlM (fun acc b => do let q ← f a b; pure (acc ++ [q])) acc) acc = .ok r ↔
      ∃ qss : List (List γ), r = acc ++ qss.flatten ∧ List.Forall₂ (fun a qs => List.Forall₂ (fun b q => f a b = .ok q) m qs) l qss := by
  induction l generalizing acc with
  | nil =>
    constructor
    · intro h; cases h; exact ⟨[], by simp, .nil⟩
    · rintro ⟨qs, rfl, h⟩; cases h; simp [pure, Except.pure]
  | cons a l ih =>
    rw [List.foldlM_cons, bind_eq_ok]
    constructor
    · rintro ⟨x, h1, h2⟩
      rw [foldlM_push_iff] at h1
      obtain ⟨qs, rfl, h3⟩ := h1
      obtain ⟨qss, rfl, h4⟩ := (ih _).mp h2
      exact ⟨qs :: qss, by simp, .cons h3 h4⟩
    · rintro ⟨qs, rfl, h⟩
      cases h with
      | cons q1 h3 =>
        rename_i q qs
        exact ⟨acc ++ q, (foldlM_push_iff _ _ _ _).mpr ⟨q, rfl, q1⟩, (ih _).mpr ⟨qs, by simp, h3⟩⟩

theorem flatten_length_const {γ : Type} {k : ℕ} : ∀ {qss : List (List γ)}, (∀ qs ∈ qss, qs.length = k) → qss.flatten.length = k * qss.length
  | [], _ => by simp
  | q :: qss, h => by
    rw [List.flatten_cons, List.length_append, flatten_length_const (fun qs hqs => h qs (by simp [hqs])), h q (by simp), List.length_cons]
    ring

theorem flatten_getElem? {γ : Type} {k : ℕ} : ∀ {qss : List (List γ)} {i j : ℕ} {qs : List γ}, (∀ qs ∈ qss, qs.length = k) →
    qss[i]? = some qs → j < k → qss.flatten[k * i + j]? = qs[j]?
  | [], i, j, qs, _, h, _ => by simp at h
  | q :: qss, 0, j, qs, hk, h, hj => by
    simp at h; subst h
    rw [List.flatten_cons, List.getElem?_append_left (by rw [hk q (by simp)]; omega)]
    simp
  | q :: qss, i + 1, j, qs, hk, h, hj => by
    rw [List.flatten_cons, List.getElem?_append_right (by rw [hk q (by simp)]; rw [Nat.mul_succ]; omega), hk q (by simp)]
    rw [show k * (i + 1) + j - k = k * i + j by rw [Nat.mul_succ]; omega]
    exact flatten_getElem? (fun qs hqs => hk qs (by simp [hqs])) (by simpa using h) hj

theorem forall₂_getElem? {α β : Type} {R : α → β → Prop} {l : List α} {m : List β} (h : List.Forall₂ R l m) {i : ℕ} {a : α} (ha : l[i]? = some a) :
    ∃ b, m[i]? = some b ∧ R a b := by
  obtain ⟨hi, rfl⟩ := List.getElem?_eq_some_iff.mp ha
  have hi' : i < m.length := by rw [← h.length_eq]; exact hi
  exact ⟨m[i], List.getElem?_eq_getElem hi', (List.forall₂_iff_get.mp h).2 i hi hi'⟩

/-! ## Tiles -/

section
variable {K : Type}

/-- the bilinear patch over a rectangle -/
def quad (a b c d : K) : Spline (Point K 2) := ⟨[1, 1], 4, offsetsOf [1, 1], [pt a c, pt b c, pt a d, pt b d]⟩

theorem quad_wf (a b c d : K) : (quad a b c d).WF := ⟨by simp [quad, Spline.dim], rfl, rfl, rfl⟩

theorem ofPoints_quad [Zero K] (a b c d : K) : Spline.ofPoints [1, 1] [pt a c, pt b c, pt a d, pt b d] = .ok (quad a b c d) :=
  (Spline.ofPoints_ok (by decide) rfl).1

/-- the five patches of the tile -/
def tiles [Zero K] [One K] [Add K] [Sub K] [Mul K] (half thickness : K) : List (Spline (Point K 2)) :=
  let lo := half - half * thickness
  let hi := half + half * thickness
  [quad lo hi lo hi, quad 0 lo lo hi, quad hi 1 lo hi, quad lo hi 0 lo, quad lo hi hi 1]

theorem simpleCrossTile_ok [Zero K] [One K] [Add K] [Sub K] [Mul K] (half thickness : K) :
    simpleCrossTile half thickness = .ok (tiles half thickness) := by
  unfold simpleCrossTile tiles
  simp only [ofPoints_quad, bind_ok]
  rfl

theorem quad_cp (a b c d : K) {i j : ℕ} (hi : i ≤ 1) (hj : j ≤ 1) :
    (quad a b c d).controlPoint [i, j] = .ok (pt (if i = 0 then a else b) (if j = 0 then c else d)) := by
  interval_cases i <;> interval_cases j <;> rfl

theorem valid11 {idx : List ℕ} (h : ValidIdx [1, 1] idx) : ∃ i j, idx = [i, j] ∧ i ≤ 1 ∧ j ≤ 1 := by
  cases h with
  | cons h1 h =>
    cases h with
    | cons h2 h => cases h; exact ⟨_, _, rfl, h1, h2⟩

theorem quad_glued0 (a b b' c d : K) : Glued 0 true false (quad a b c d) (quad b b' c d) := by
  refine ⟨quad_wf .., quad_wf .., 1, 1, rfl, rfl, ?_⟩
  intro idx h
  obtain ⟨i, j, rfl, hi, hj⟩ := valid11 h
  exact ⟨_, quad_cp a b c d (i := 1) le_rfl hj, quad_cp b b' c d (i := 0) (by omega) hj⟩

theorem quad_glued1 (a b c d d' : K) : Glued 1 true false (quad a b c d) (quad a b d d') := by
  refine ⟨quad_wf .., quad_wf .., 1, 1, rfl, rfl, ?_⟩
  intro idx h
  obtain ⟨i, j, rfl, hi, hj⟩ := valid11 h
  exact ⟨_, quad_cp a b c d (j := 1) hi le_rfl, quad_cp a b d d' (j := 0) hi (by omega)⟩

end

theorem quad_computes (a b c d : ℝ) :
    ∃ g, (quad a b c d).Computes [1, 1] g ∧ ∀ x y : ℝ, g [x, y] = pt ((1 - x) * a + x * b) ((1 - y) * c + y * d) := by
  refine ⟨_, (quad_wf a b c d).computes (K := ℝ), ?_⟩
  intro x y
  apply point_ext <;> simp [Spline.value, quad, bezier, Finset.sum_range_succ, bern, flatIndex, add_val, smul_val] <;> ring

theorem quad_fits {a b c d : ℝ} (ha : 0 ≤ a ∧ a ≤ 1) (hb : 0 ≤ b ∧ b ≤ 1) (hc : 0 ≤ c ∧ c ≤ 1) (hd : 0 ≤ d ∧ d ≤ 1) :
    Spline.fitsIntoUnitCube ℝ (quad a b c d) = .ok true := by
  obtain ⟨v, h1, h2⟩ := Props.C25_fits_iff (K := ℝ) (quad a b c d) (quad_wf a b c d)
  rw [h1, h2.mpr]
  intro x hx j
  change Fin 2 at j
  simp only [quad, List.mem_cons, List.not_mem_nil, or_false] at hx
  rcases hx with rfl | rfl | rfl | rfl <;> fin_cases j <;> assumption

end Bezman.Microstructure
