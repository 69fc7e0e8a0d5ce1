import Verif.Model.AlgoDiffSpline
import Verif.Proofs.AlgoDiff
import Verif.Proofs.Evaluate
import Verif.Spec.Computes
import Mathlib.Algebra.Module.Pi
import Mathlib.Algebra.Ring.Pi

/-! # `Evaluate` with `AlgoDiffType`s -/

namespace Bezman
open Filter Topology Spec

/-- a loop that follows another one -/
theorem loop_follow {σ τ : Type} {n : ℕ} {f : ℕ → σ → M σ} {g : ℕ → τ → M τ} (P : σ → τ → Prop) {a : σ} {b b' : τ}
    (h0 : P a b) (hstep : ∀ k < n, ∀ a b b', P a b → g k b = .ok b' → ∃ a', f k a = .ok a' ∧ P a' b')
    (h : loop n g b = .ok b') : ∃ a', loop n f a = .ok a' ∧ P a' b' := by
  induction n generalizing b' with
  | zero => cases h; exact ⟨a, rfl, h0⟩
  | succ n ih =>
    rw [loop_succ] at h
    obtain ⟨b1, e1, e2⟩ := bind_eq_ok.mp h
    obtain ⟨a1, e3, h1⟩ := ih (fun k hk => hstep k (by omega)) e1
    obtain ⟨a2, e4, h2⟩ := hstep n (by omega) a1 b1 b' h1 e2
    exact ⟨a2, by rw [loop_succ, e3]; exact e4, h2⟩

theorem forall₂_rd {α β : Type} {P : α → β → Prop} {l : List α} {m : List β} (h : List.Forall₂ P l m) {i : ℕ} {y : β}
    (e : rd m i = .ok y) : ∃ x, rd l i = .ok x ∧ P x y := by
  rw [rd_ok_iff] at e
  obtain ⟨hi, e⟩ := List.getElem?_eq_some_iff.mp e
  have hl := h.length_eq
  refine ⟨l[i], rd_getElem (by omega), ?_⟩
  rw [List.forall₂_iff_get] at h
  have := h.2 i (by omega) hi
  simp only [List.get_eq_getElem] at this
  rwa [e] at this

theorem forall₂_wr {α β : Type} {P : α → β → Prop} {l : List α} {m m' : List β} (h : List.Forall₂ P l m) {i : ℕ} {x : α}
    {y : β} (hxy : P x y) (e : wr m i y = .ok m') : ∃ l', wr l i x = .ok l' ∧ List.Forall₂ P l' m' := by
  have hl := h.length_eq
  unfold wr at e
  split at e
  · rename_i hi
    cases e
    refine ⟨l.set i x, wr_ok _ (by omega), ?_⟩
    rw [List.forall₂_iff_get] at h ⊢
    refine ⟨by simpa using hl, fun j h1 h2 => ?_⟩
    simp only [List.get_eq_getElem, List.getElem_set]
    split
    · exact hxy
    · exact h.2 j (by simpa using h1) (by simpa using h2)
  · cases e

theorem Spline.evaluateM_follow {S V K' V' : Type} [One K'] [Sub K'] [Add V'] [SMul K' V'] {oneMinus : S → M S}
    {scale : V → S → M V} {plus : V → V → M V} (P : S → K' → Prop) (Q : V → V' → Prop)
    (h1 : ∀ a τ, P a τ → ∃ r, oneMinus a = .ok r ∧ P r (1 - τ))
    (h2 : ∀ v a F τ, Q v F → P a τ → ∃ r, scale v a = .ok r ∧ Q r (τ • F))
    (h3 : ∀ v w F G, Q v F → Q w G → ∃ r, plus v w = .ok r ∧ Q r (F + G))
    {s : Spline V} {s' : Spline V'} (hd : s.degrees = s'.degrees) (ho : s.offsets = s'.offsets) (hn : s.ncp = s'.ncp)
    (hc : List.Forall₂ Q s.cps s'.cps) {t : List S} {t' : List K'} (ht : List.Forall₂ P t t') {G : V'}
    (h : s'.evaluate t' = .ok G) : ∃ r, s.evaluateM oneMinus scale plus t = .ok r ∧ Q r G := by
  unfold evaluate at h
  obtain ⟨st', e1, e2⟩ := bind_eq_ok.mp h
  obtain ⟨st, e3, h4⟩ := loop_follow (fun (a : List V × ℕ) (b : List V' × ℕ) => List.Forall₂ Q a.1 b.1 ∧ a.2 = b.2)
    (a := (s.cps, s.ncp)) (f := fun par_dim (r : List V × Nat) => do
    let factor ← rd t par_dim
    let inv_factor ← oneMinus factor
    let p ← rd s.degrees par_dim
    let off ← rd s.offsets par_dim
    let ctps_to_consider := r.2 / (p + 1)
    let m ← loop ctps_to_consider (fun starting_point_id m =>
      let offset := (off * (p + 1)) * starting_point_id
      loop (p + 1) (fun i m =>
        loop (p - i) (fun j m => do
          let a ← rd m (j * off + offset)
          let b ← rd m ((j + 1) * off + offset)
          let x ← scale a inv_factor
          let y ← scale b factor
          let z ← plus x y
          wr m (j * off + offset) z) m) m) r.1
    pure (m, ctps_to_consider)) ⟨hc, hn⟩ (by
      rintro k hk ⟨m, n⟩ ⟨m', n'⟩ b' ⟨hm, rfl⟩ e
      obtain ⟨τ, e1, e⟩ := bind_eq_ok.mp e
      obtain ⟨p, e2, e⟩ := bind_eq_ok.mp e
      obtain ⟨off, e3, e⟩ := bind_eq_ok.mp e
      obtain ⟨m2, e4, e⟩ := bind_eq_ok.mp e
      cases e
      obtain ⟨a, ea, ha⟩ := forall₂_rd ht e1
      obtain ⟨ia, eia, hia⟩ := h1 a τ ha
      obtain ⟨m3, e5, hm3⟩ := loop_follow (fun (a : List V) (b : List V') => List.Forall₂ Q a b)
        (a := m) (f := fun starting_point_id m =>
          let offset := (off * (p + 1)) * starting_point_id
          loop (p + 1) (fun i m =>
            loop (p - i) (fun j m => do
              let a' ← rd m (j * off + offset)
              let b ← rd m ((j + 1) * off + offset)
              let x ← scale a' ia
              let y ← scale b a
              let z ← plus x y
              wr m (j * off + offset) z) m) m) hm (by
          intro k1 _ u w w' huw e
          refine loop_follow _ huw ?_ e
          intro k2 _ u w w' huw e
          refine loop_follow _ huw ?_ e
          intro k3 _ u w w' huw e
          obtain ⟨x1, f1, e⟩ := bind_eq_ok.mp e
          obtain ⟨x2, f2, e⟩ := bind_eq_ok.mp e
          obtain ⟨y1, g1, q1⟩ := forall₂_rd huw f1
          obtain ⟨y2, g2, q2⟩ := forall₂_rd huw f2
          obtain ⟨z1, i1, r1⟩ := h2 y1 ia x1 _ q1 hia
          obtain ⟨z2, i2, r2⟩ := h2 y2 a x2 _ q2 ha
          obtain ⟨z3, i3, r3⟩ := h3 _ _ _ _ r1 r2
          obtain ⟨l', el, hl⟩ := forall₂_wr huw r3 e
          exact ⟨l', by simp only [g1, g2, i1, i2, i3, bind_ok]; exact el, hl⟩) e4
      refine ⟨(m3, n / (p + 1)), ?_, hm3, rfl⟩
      rw [hd, ho]
      simp only [ea, eia, e2, e3, bind_ok]
      exact bind_eq_ok.mpr ⟨m3, e5, rfl⟩) e1
  obtain ⟨r, e4, h5⟩ := forall₂_rd h4.1 e2
  refine ⟨r, ?_, h5⟩
  unfold evaluateM
  have hdim : s.dim = s'.dim := by unfold dim; rw [hd]
  rw [hdim, e3]
  exact e4

/-! ## A spline that depends on a point -/

section
variable {E W : Type}

theorem Spline.at_wf {s : Spline (E → W)} (h : s.WF) (y : E) : (s.at y).WF :=
  ⟨h.dim_pos, h.ncp_eq, h.offsets_eq, by simpa [Spline.at] using h.cps_len⟩

theorem bezier_apply {K W : Type} [CommRing K] [AddCommGroup W] [Module K W] (y : E) :
    ∀ (ds : List ℕ) (t : List (E → K)) (P : List ℕ → E → W),
      (bezier ds t P : E → W) y = bezier ds (t.map (fun τ => τ y)) (fun idx => P idx y) := by
  intro ds
  induction ds with
  | nil => intro t P; rfl
  | cons p ps ih =>
    intro t P
    cases t with
    | nil => rfl
    | cons τ ts =>
      simp only [bezier, List.map_cons, Finset.sum_apply, Pi.smul_apply']
      refine Finset.sum_congr rfl fun i _ => ?_
      rw [ih]
      congr 1

theorem Spline.evaluate_at {K W : Type} [CommRing K] [AddCommGroup W] [Module K W] {s : Spline (E → W)} (h : s.WF)
    {t : List (E → K)} (ht : t.length = s.dim) (y : E) :
    (s.at y).evaluate (t.map (fun τ => τ y)) = .ok (s.value t y) := by
  rw [evaluate_ok (at_wf h y) (by simpa [Spline.at, dim] using ht)]
  unfold value
  rw [bezier_apply]
  congr 2
  funext idx
  simp only [Spline.at, List.getD_eq_getElem?_getD, List.getElem?_map]
  cases s.cps[flatIndex s.degrees idx]? <;> rfl

end

section
variable {E : Type} [NormedAddCommGroup E] [NormedSpace ℝ E] {K : Type} [Scal ℝ K]
  {R : K → (E → ℝ) → Prop} {l : Filter E} {p : E} {dirs : List E}

theorem Spline.evaluateAD_lift (L : Laws R l p) {s : Spline (ADT K)} {s' : Spline (E → ℝ)} (h' : s'.WF)
    (hd : s.degrees = s'.degrees) (ho : s.offsets = s'.offsets) (hn : s.ncp = s'.ncp)
    (hc : List.Forall₂ (Lift R l dirs) s.cps s'.cps) {t : List (ADT K)} {t' : List (E → ℝ)}
    (ht : List.Forall₂ (Lift R l dirs) t t') (hl : t'.length = s'.dim) :
    ∃ r, s.evaluateAD t = .ok r ∧ Lift R l dirs r (s'.value t') := by
  have e := evaluate_ok h' hl
  refine evaluateM_follow (Lift R l dirs) (Lift R l dirs) ?_ ?_ ?_ hd ho hn hc ht e
  · intro a τ ha
    exact Lift.scalarSub L ha (L.ofBase 1)
  · intro v a F τ hv ha
    have := Lift.mul L hv ha
    have e : (τ • F : E → ℝ) = fun q => F q * τ q := by funext q; simp [mul_comm]
    rw [e]; exact this
  · intro v w F G hv hw
    exact Lift.add L hv hw

/-- The coordinates of a point. -/
def LiftPoint (R : K → (E → ℝ) → Prop) (l : Filter E) (dirs : List E) (n : ℕ) (p : List (ADT K)) (F : E → Fin n → ℝ) :
    Prop := List.Forall₂ (fun (i : Fin n) a => Lift R l dirs a (fun q => F q i)) (List.finRange n) p

theorem Spline.evaluatePointAD_lift (L : Laws R l p) {n : ℕ} {s : Spline (List (ADT K))} {s' : Spline (E → Fin n → ℝ)}
    (h' : s'.WF) (hd : s.degrees = s'.degrees) (ho : s.offsets = s'.offsets) (hn : s.ncp = s'.ncp)
    (hc : List.Forall₂ (LiftPoint R l dirs n) s.cps s'.cps) {t : List (ADT K)} {t' : List (E → ℝ)}
    (ht : List.Forall₂ (Lift R l dirs) t t') (hl : t'.length = s'.dim) :
    ∃ r, s.evaluatePointAD t = .ok r ∧ LiftPoint R l dirs n r (s'.value t') := by
  have e := evaluate_ok h' hl
  refine evaluateM_follow (Lift R l dirs) (LiftPoint R l dirs n) ?_ ?_ ?_ hd ho hn hc ht e
  · intro a τ ha
    exact Lift.scalarSub L ha (L.ofBase 1)
  · intro v a F τ hv ha
    refine ADT.mapD_ok hv fun i b hb => ?_
    have := Lift.mul L hb ha
    have e : (fun q => (τ • F : E → Fin n → ℝ) q i) = fun q => F q i * τ q := by funext q; simp [mul_comm]
    rw [e]; exact this
  · intro v w F G hv hw
    exact ADT.zipD_ok hv hw fun i b b' hb hb' => Lift.add L hb hb'

theorem RSpline.evaluateAD_lift (L : Laws R l p) {r : RSpline (ADT K) (ADT K)} {s' w' : Spline (E → ℝ)} (h' : s'.WF)
    (hw' : w'.WF) (hd : r.num.degrees = s'.degrees) (ho : r.num.offsets = s'.offsets) (hn : r.num.ncp = s'.ncp)
    (hwd : r.wt.degrees = w'.degrees) (hwo : r.wt.offsets = w'.offsets) (hwn : r.wt.ncp = w'.ncp)
    (hc : List.Forall₂ (Lift R l dirs) r.num.cps s'.cps) (hwc : List.Forall₂ (Lift R l dirs) r.wt.cps w'.cps)
    {t : List (ADT K)} {t' : List (E → ℝ)}
    (ht : List.Forall₂ (Lift R l dirs) t t') (hl : t'.length = s'.dim) (hwl : t'.length = w'.dim)
    (h0 : w'.value t' p ≠ 0) :
    ∃ x, r.evaluateAD t = .ok x ∧ Lift R l dirs x (fun y => s'.value t' y / w'.value t' y) := by
  obtain ⟨x, e1, h1⟩ := Spline.evaluateAD_lift L h' hd ho hn hc ht hl
  obtain ⟨w, e2, h2⟩ := Spline.evaluateAD_lift L hw' hwd hwo hwn hwc ht hwl
  obtain ⟨q, e3, h3⟩ := Lift.div L h1 h2 h0
  exact ⟨q, by simp [RSpline.evaluateAD, e1, e2, e3], h3⟩

theorem RSpline.evaluatePointAD_lift (L : Laws R l p) {m : ℕ} {r : RSpline (ADT K) (List (ADT K))}
    {s' : Spline (E → Fin m → ℝ)} {w' : Spline (E → ℝ)} (h' : s'.WF)
    (hw' : w'.WF) (hd : r.num.degrees = s'.degrees) (ho : r.num.offsets = s'.offsets) (hn : r.num.ncp = s'.ncp)
    (hwd : r.wt.degrees = w'.degrees) (hwo : r.wt.offsets = w'.offsets) (hwn : r.wt.ncp = w'.ncp)
    (hc : List.Forall₂ (LiftPoint R l dirs m) r.num.cps s'.cps) (hwc : List.Forall₂ (Lift R l dirs) r.wt.cps w'.cps)
    {t : List (ADT K)} {t' : List (E → ℝ)}
    (ht : List.Forall₂ (Lift R l dirs) t t') (hl : t'.length = s'.dim) (hwl : t'.length = w'.dim)
    (h0 : w'.value t' p ≠ 0) :
    ∃ x, r.evaluatePointAD dirs.length t = .ok x ∧ LiftPoint R l dirs m x
      (fun y => (w'.value t' y)⁻¹ • s'.value t' y) := by
  obtain ⟨x, e1, h1⟩ := Spline.evaluatePointAD_lift L h' hd ho hn hc ht hl
  obtain ⟨w, e2, h2⟩ := Spline.evaluateAD_lift L hw' hwd hwo hwn hwc ht hwl
  obtain ⟨q, e3, h3⟩ := Lift.div L (Lift.const L (dirs := dirs) (L.ofBase 1)) h2 h0
  obtain ⟨d, e4, h4⟩ := ADT.mapD_ok (Q := fun (i : Fin m) a => Lift R l dirs a
      (fun y => ((w'.value t' y)⁻¹ • s'.value t' y) i)) (f := fun a => ADT.mul a q) h1 (fun i a ha => by
    have := Lift.mul L ha h3
    have e : (fun y => ((w'.value t' y)⁻¹ • s'.value t' y) i) = fun y => s'.value t' y i * (1 / w'.value t' y) := by
      funext y; simp [mul_comm]
    rw [e]; exact this)
  refine ⟨d, ?_, h4⟩
  simp only [RSpline.evaluatePointAD, e1, e2, e3, bind_ok]
  exact e4

end
end Bezman
