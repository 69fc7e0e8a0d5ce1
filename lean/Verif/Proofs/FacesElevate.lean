import Verif.Proofs.FacesNet
import Verif.Proofs.AnyArith

set_option linter.unusedSectionVars false

/-! # Patches that share a face: order elevation -/

namespace Bezman
open Spec

theorem loop_two {σ τ : Type} {n : ℕ} {f : ℕ → σ → M σ} {g : ℕ → τ → M τ} {a a' : σ} {b b' : τ} (P : ℕ → σ → τ → Prop)
    (hf : loop n f a = .ok a') (hg : loop n g b = .ok b') (h0 : P 0 a b)
    (hstep : ∀ k, k < n → ∀ x y x' y', P k x y → f k x = .ok x' → g k y = .ok y' → P (k + 1) x' y') : P n a' b' := by
  induction n generalizing a' b' with
  | zero => simp at hf hg; subst hf; subst hg; exact h0
  | succ n ih =>
    rw [loop_succ, bind_eq_ok] at hf hg
    obtain ⟨x, h1, h2⟩ := hf
    obtain ⟨y, h3, h4⟩ := hg
    exact hstep n (Nat.lt_succ_self n) x y a' b' (ih h1 h3 (fun k hk => hstep k (Nat.lt_succ_of_lt hk))) h2 h4

theorem loopFrom_two {σ τ : Type} {m n : ℕ} {f : ℕ → σ → M σ} {g : ℕ → τ → M τ} {a a' : σ} {b b' : τ} (P : ℕ → σ → τ → Prop) (hmn : m ≤ n)
    (hf : loopFrom m n f a = .ok a') (hg : loopFrom m n g b = .ok b') (h0 : P m a b)
    (hstep : ∀ k, m ≤ k → k < n → ∀ x y x' y', P k x y → f k x = .ok x' → g k y = .ok y' → P (k + 1) x' y') : P n a' b' := by
  have := loop_two (P := fun k x y => P (m + k) x y) hf hg (by simpa using h0)
    (fun k hk x y x' y' hp h1 h2 => hstep (m + k) (by omega) (by omega) x y x' y' hp h1 h2)
  have e : m + (n - m) = n := by omega
  simpa [e] using this

theorem whileM_two {σ τ : Type} {c : σ → M Bool} {c' : τ → M Bool} {f : σ → M σ} {g : τ → M τ} (P : σ → τ → Prop)
    (hc : ∀ x y, P x y → c x = c' y)
    (hstep : ∀ x y x' y', P x y → c x = .ok true → f x = .ok x' → g y = .ok y' → P x' y') :
    ∀ (fuel : ℕ) (x : σ) (y : τ) (x' : σ) (y' : τ), P x y → whileM fuel c f x = .ok x' → whileM fuel c' g y = .ok y' → P x' y' := by
  intro fuel
  induction fuel with
  | zero => intro x y x' y' _ h _; simp [whileM] at h
  | succ n ih =>
    intro x y x' y' hp h h'
    rw [whileM] at h h'
    rw [← hc x y hp] at h'
    cases e : c x with
    | error _ => rw [e] at h; cases h
    | ok v =>
      rw [e] at h h'
      cases v with
      | false => cases h; cases h'; exact hp
      | true =>
        simp only [bind_eq_ok] at h h'
        obtain ⟨u, h1, h2⟩ := h
        obtain ⟨w, h3, h4⟩ := h'
        exact ih u w x' y' (hstep _ _ _ _ hp e h1 h3) h2 h4

namespace Spline
variable {V W U : Type}

section
variable [Zero V] {d : ℕ} {sa sb : Bool} {a b : Spline V}

theorem set_deg {ps : List ℕ} {p : ℕ} (hp : ps[d]? = some p) : ps.set d p = ps := by
  obtain ⟨h, e⟩ := List.getElem?_eq_some_iff.mp hp
  rw [← e, List.set_getElem_self]

theorem validIdx_face {ps idx : List ℕ} {p : ℕ} (hp : ps[d]? = some p) (hv : ValidIdx ps idx) (s : Bool) :
    ValidIdx ps (idx.set d (faceIndex s p)) := by
  have := validIdx_set hv d p (faceIndex s p) (faceIndex_le s p)
  rwa [set_deg hp] at this

theorem glued_iff : Glued d sa sb a b ↔ a.WF ∧ b.WF ∧ ∃ p q, a.degrees[d]? = some p ∧ b.degrees = a.degrees.set d q ∧
    ∀ idx, ValidIdx a.degrees idx → a.cp (idx.set d (faceIndex sa p)) = b.cp (idx.set d (faceIndex sb q)) := by
  constructor
  · rintro ⟨ha, hb, p, q, hp, hq, hl⟩
    refine ⟨ha, hb, p, q, hp, hq, fun idx hv => ?_⟩
    obtain ⟨x, h1, h2⟩ := hl idx hv
    rw [controlPoint_cp ha (validIdx_face hp hv sa)] at h1
    rw [controlPoint_cp hb (by rw [hq]; exact validIdx_set hv d q _ (faceIndex_le sb q))] at h2
    exact (Except.ok.inj h1).trans (Except.ok.inj h2).symm
  · rintro ⟨ha, hb, p, q, hp, hq, hl⟩
    refine ⟨ha, hb, p, q, hp, hq, fun idx hv => ⟨_, controlPoint_cp ha (validIdx_face hp hv sa), ?_⟩⟩
    rw [hl idx hv]
    exact controlPoint_cp hb (by rw [hq]; exact validIdx_set hv d q _ (faceIndex_le sb q))

theorem glued_symm (h : Glued d sa sb a b) : Glued d sb sa b a := by
  rw [glued_iff] at h ⊢
  obtain ⟨ha, hb, p, q, hp, hq, hl⟩ := h
  have hd := (List.getElem?_eq_some_iff.mp hp).1
  refine ⟨hb, ha, q, p, by rw [hq, List.getElem?_set_self hd], by rw [hq, List.set_set, set_deg hp], fun idx hv => ?_⟩
  have := hl (idx.set d 0) (by
    have := validIdx_set hv d p 0 (Nat.zero_le _)
    rwa [hq, List.set_set, set_deg hp] at this)
  rw [List.set_set, List.set_set] at this
  exact this.symm

theorem glued_deg (h : Glued d sa sb a b) {e : ℕ} (he : e ≠ d) : b.degrees[e]? = a.degrees[e]? := by
  obtain ⟨-, -, p, q, -, hq, -⟩ := h
  rw [hq, List.getElem?_set_ne (Ne.symm he)]

theorem glued_dim (h : Glued d sa sb a b) : b.degrees.length = a.degrees.length := by
  obtain ⟨-, -, p, q, -, hq, -⟩ := h
  rw [hq, List.length_set]

end

section elevate
variable {K : Type} [One K] [Sub K] [Mul K] [Div K] [NatCast K] [Zero V] [Add V] [SMul K V]
variable {d : ℕ} {sa sb : Bool} {a b : Spline V}

theorem elevate_eq {s r : Spline V} (h : s.WF) {d p : ℕ} (hp : s.degrees[d]? = some p)
    (hs : size (s.degrees.set d (p + 1)) < 2 ^ 31) (he : orderElevate K s d = .ok r) :
    r.WF ∧ r.degrees = s.degrees.set d (p + 1) ∧
      ∀ idx i, ValidIdx r.degrees idx → idx[d]? = some i → r.cp idx = elev K p (fun j => s.cp (idx.set d j)) i := by
  obtain ⟨r', h1, h2⟩ := orderElevate_cp (K := K) h hp hs
  rw [h1] at he
  cases he
  exact h2

/-- elevating one patch across the face does not touch the face -/
theorem glued_elevate_self {r : Spline V} {p : ℕ} (h : Glued d sa sb a b) (hp : a.degrees[d]? = some p)
    (hs : size (a.degrees.set d (p + 1)) < 2 ^ 31) (he : orderElevate K a d = .ok r) : Glued d sa sb r b := by
  rw [glued_iff] at h ⊢
  obtain ⟨ha, hb, p', q, hp', hq, hl⟩ := h
  rw [hp] at hp'; cases hp'
  obtain ⟨w, hd, hc⟩ := elevate_eq ha hp hs he
  have hdl := (List.getElem?_eq_some_iff.mp hp).1
  refine ⟨w, hb, p + 1, q, by rw [hd, List.getElem?_set_self hdl], by rw [hd, List.set_set, hq], fun idx hv => ?_⟩
  have hv0 : ValidIdx a.degrees (idx.set d 0) := by
    have := validIdx_set hv d p 0 (Nat.zero_le _)
    rwa [hd, List.set_set, set_deg hp] at this
  have hdi : d < idx.length := by rw [hv.length, hd]; simpa using hdl
  have h1 := hc (idx.set d (faceIndex sa (p + 1))) (faceIndex sa (p + 1))
    (by
      have := validIdx_set hv d (p + 1) (faceIndex sa (p + 1)) (faceIndex_le _ _)
      rwa [hd, List.set_set, ← hd] at this) (List.getElem?_set_self hdi)
  rw [h1]
  have h2 := hl _ hv0
  rw [List.set_set, List.set_set] at h2
  rw [← h2]
  cases sa with
  | false => simp [faceIndex, elev, List.set_set]
  | true => simp [faceIndex, elev, List.set_set]

/-- elevating both patches along the face -/
theorem glued_elevate_both {r r' : Spline V} {e p : ℕ} (hed : e ≠ d) (h : Glued d sa sb a b) (hp : a.degrees[e]? = some p)
    (hs : size (a.degrees.set e (p + 1)) < 2 ^ 31) (hs' : size (b.degrees.set e (p + 1)) < 2 ^ 31)
    (he : orderElevate K a e = .ok r) (he' : orderElevate K b e = .ok r') : Glued d sa sb r r' := by
  have hp' : b.degrees[e]? = some p := by rw [glued_deg h hed, hp]
  rw [glued_iff] at h ⊢
  obtain ⟨ha, hb, p0, q0, hp0, hq0, hl⟩ := h
  obtain ⟨w, hd, hc⟩ := elevate_eq ha hp hs he
  obtain ⟨w', hd', hc'⟩ := elevate_eq hb hp' hs' he'
  refine ⟨w, w', p0, q0, by rw [hd, List.getElem?_set_ne hed, hp0], by rw [hd, hd', hq0, List.set_comm _ _ (Ne.symm hed)], fun idx hv => ?_⟩
  have hvl := hv.length
  have hel : e < idx.length := by
    have := (List.getElem?_eq_some_iff.mp hp).1
    rw [hvl, hd]; simpa using this
  have hi : idx[e]? = some idx[e] := List.getElem?_eq_getElem hel
  have hrd : r.degrees[d]? = some p0 := by rw [hd, List.getElem?_set_ne hed, hp0]
  have hie : idx[e] ≤ p + 1 := (validIdx_iff.mp hv).2 e _ (p + 1) hi
    (by rw [hd, List.getElem?_set_self (by exact (List.getElem?_eq_some_iff.mp hp).1)])
  rw [hc _ idx[e] (validIdx_face hrd hv sa) (by rw [List.getElem?_set_ne (Ne.symm hed), hi]),
    hc' _ idx[e] (by
      have := validIdx_set hv d q0 _ (faceIndex_le sb q0)
      rw [hd, List.set_comm _ _ hed, ← hq0, ← hd'] at this; exact this) (by rw [List.getElem?_set_ne (Ne.symm hed), hi])]
  refine elev_congr (fun j hj => ?_) hie
  rw [List.set_comm _ _ (Ne.symm hed), List.set_comm _ _ (Ne.symm hed)]
  refine hl _ ?_
  have := validIdx_set hv e p j hj
  rwa [hd, List.set_set, set_deg hp] at this

/-- elevating both patches in any direction -/
theorem glued_elevateAny {r r' : Spline V} {e : ℕ} (h : Glued d sa sb a b) (hd : e < a.degrees.length)
    (hs : size (a.degrees.modify e (· + 1)) < 2 ^ 31) (hs' : size (b.degrees.modify e (· + 1)) < 2 ^ 31)
    (he : orderElevate K a e = .ok r) (he' : orderElevate K b e = .ok r') : Glued d sa sb r r' := by
  have hmod : ∀ {l : List ℕ} {p : ℕ}, l[e]? = some p → l.modify e (· + 1) = l.set e (p + 1) := by
    intro l p hp
    apply List.ext_getElem?
    intro i
    by_cases hi : e = i
    · subst hi
      rw [List.getElem?_modify_eq, hp, List.getElem?_set_self (List.getElem?_eq_some_iff.mp hp).1]; rfl
    · simp [List.getElem?_modify, hi]
  have hp : a.degrees[e]? = some a.degrees[e] := List.getElem?_eq_getElem hd
  have hd' : e < b.degrees.length := by rw [glued_dim h]; exact hd
  have hq : b.degrees[e]? = some b.degrees[e] := List.getElem?_eq_getElem hd'
  rw [hmod hp] at hs
  by_cases hed : e = d
  · subst hed
    rw [hmod hq] at hs'
    exact glued_symm (glued_elevate_self (glued_symm (glued_elevate_self h hp hs he)) hq hs' he')
  · have hq' : b.degrees[e]? = some a.degrees[e] := by rw [glued_deg h hed, hp]
    rw [hmod hq'] at hs'
    exact glued_elevate_both hed h hp hs hs' he he'

/-- `x ≤ y` for lists of degrees -/
def DegLe (x y : List ℕ) : Prop := x.length = y.length ∧ ∀ i p q : ℕ, x[i]? = some p → y[i]? = some q → p ≤ q

theorem DegLe.size {x y : List ℕ} (h : DegLe x y) : size x ≤ size y := size_mono h.1 h.2

theorem DegLe.set {x y : List ℕ} (h : DegLe x y) {e p q : ℕ} (hy : y[e]? = some q) (hp : p ≤ q) : DegLe (x.set e p) y := by
  refine ⟨by simpa using h.1, fun i u v hu hv => ?_⟩
  by_cases hie : e = i
  · subst hie
    rw [List.getElem?_set_self (by have := (List.getElem?_eq_some_iff.mp hu).1; simpa using this)] at hu
    rw [hy] at hv; cases hu; cases hv; exact hp
  · rw [List.getElem?_set_ne hie] at hu
    exact h.2 i u v hu hv

theorem degLe_max {x t : List ℕ} (h : t.length = x.length) : DegLe x (maxDeg x t) := by
  refine ⟨(maxDeg_length h).symm, fun i p q hp hq => ?_⟩
  have hi := (List.getElem?_eq_some_iff.mp hp).1
  rw [maxDeg_getElem? hp (List.getElem?_eq_getElem (by omega))] at hq
  cases hq
  exact le_max_left _ _

theorem rd_congr {α : Type} {l l' : List α} {i : ℕ} (h : l[i]? = l'[i]?) : rd l i = rd l' i := by unfold rd; rw [h]

theorem guard_true {T x : List ℕ} {k : ℕ} (h : (do
      let t ← rd T k
      let p ← rd x k
      pure (decide (t > p)) : M Bool) = .ok true) : ∃ t p, T[k]? = some t ∧ x[k]? = some p ∧ p < t := by
  rw [bind_eq_ok] at h
  obtain ⟨t, h1, h2⟩ := h
  rw [bind_eq_ok] at h2
  obtain ⟨p, h3, h4⟩ := h2
  refine ⟨t, p, ?_, ?_, by simpa using h4⟩
  · unfold rd at h1; split at h1 <;> simp_all
  · unfold rd at h3; split at h3 <;> simp_all

/-- one elevation inside `elevateTo` -/
theorem step_fits {x T A : List ℕ} {k : ℕ} {A0 : List ℕ} (hA : A = maxDeg A0 T) (hT : T.length = A0.length) (hx : DegLe x A)
    (hs : size A < 2 ^ 31) (h : (do
      let t ← rd T k
      let p ← rd x k
      pure (decide (t > p)) : M Bool) = .ok true) :
    ∃ p, x[k]? = some p ∧ size (x.set k (p + 1)) < 2 ^ 31 ∧ DegLe (x.set k (p + 1)) A := by
  obtain ⟨t, p, h1, h2, h3⟩ := guard_true h
  have hk := (List.getElem?_eq_some_iff.mp h1).1
  have hAk : A[k]? = some (max A0[k] t) := by rw [hA, maxDeg_getElem? (List.getElem?_eq_getElem (by omega)) h1]
  have := hx.set hAk (p := p + 1) (by have := le_max_right A0[k] t; omega)
  exact ⟨p, h2, lt_of_le_of_lt this.size hs, this⟩

theorem glued_elevateTo {cfg : Cfg} {ra rb : Spline V} {Ta Tb : List ℕ} (h : Glued d sa sb a b) (hTa : Ta.length = a.degrees.length)
    (hTb : Tb.length = Ta.length) (hT : ∀ e, e ≠ d → Tb[e]? = Ta[e]?) (hsa : size (maxDeg a.degrees Ta) < 2 ^ 31)
    (hsb : size (maxDeg b.degrees Tb) < 2 ^ 31) (ea : elevateTo K cfg a Ta = .ok ra) (eb : elevateTo K cfg b Tb = .ok rb) :
    Glued d sa sb ra rb := by
  unfold elevateTo at ea eb
  have hdim : b.dim = a.dim := glued_dim h
  rw [hdim] at eb
  have key := loop_two (P := fun _ (x y : Spline V) => Glued d sa sb x y ∧ DegLe x.degrees (maxDeg a.degrees Ta) ∧
    DegLe y.degrees (maxDeg b.degrees Tb)) ea eb ⟨h, degLe_max hTa, degLe_max (by rw [hTb, hTa, glued_dim h])⟩ (by
      rintro k hk x y x' y' ⟨hg, hx, hy⟩ h1 h2
      by_cases hkd : k = d
      · subst hkd
        have g1 := (whileM_ok (P := fun x => Glued k sa sb x y ∧ DegLe x.degrees (maxDeg a.degrees Ta)) (by
          rintro x x' ⟨hg, hx⟩ hc hf
          obtain ⟨p, e1, e2, e3⟩ := step_fits rfl hTa hx hsa hc
          have hw := (elevate_eq hg.1 e1 e2 hf).2.1
          exact ⟨glued_elevate_self hg e1 e2 hf, by rw [hw]; exact e3⟩) _ _ _ ⟨hg, hx⟩ h1).1
        have g2 := (whileM_ok (P := fun y => Glued k sa sb x' y ∧ DegLe y.degrees (maxDeg b.degrees Tb)) (by
          rintro y y' ⟨hg, hy⟩ hc hf
          obtain ⟨p, e1, e2, e3⟩ := step_fits rfl (by rw [hTb, hTa, glued_dim h]) hy hsb hc
          have hw := (elevate_eq hg.2.1 e1 e2 hf).2.1
          exact ⟨glued_symm (glued_elevate_self (glued_symm hg) e1 e2 hf), by rw [hw]; exact e3⟩) _ _ _ ⟨g1.1, hy⟩ h2).1
        exact ⟨g2.1, g1.2, g2.2⟩
      · refine whileM_two (P := fun (x y : Spline V) => Glued d sa sb x y ∧ DegLe x.degrees (maxDeg a.degrees Ta) ∧
          DegLe y.degrees (maxDeg b.degrees Tb)) ?_ ?_ _ _ _ _ _ ⟨hg, hx, hy⟩ h1 h2
        · rintro x y ⟨hg, -, -⟩
          rw [rd_congr (hT k hkd), rd_congr (glued_deg hg hkd)]
        · rintro x y x' y' ⟨hg, hx, hy⟩ hc hf hf'
          obtain ⟨p, e1, e2, e3⟩ := step_fits rfl hTa hx hsa hc
          rw [← rd_congr (hT k hkd), ← rd_congr (glued_deg hg hkd)] at hc
          obtain ⟨p', e1', e2', e3'⟩ := step_fits rfl (by rw [hTb, hTa, glued_dim h]) hy hsb hc
          rw [glued_deg hg hkd, e1] at e1'; cases e1'
          have hw := (elevate_eq hg.1 e1 e2 hf).2.1
          have hw' := (elevate_eq hg.2.1 (by rw [glued_deg hg hkd, e1]) e2' hf').2.1
          exact ⟨glued_elevate_both hkd hg e1 e2 e2' hf hf', by rw [hw]; exact e3, by rw [hw']; exact e3'⟩)
  exact key.1

end elevate

end Spline
end Bezman
