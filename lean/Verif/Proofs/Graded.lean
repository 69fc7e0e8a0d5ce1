import Verif.Proofs.AlgoDiffSpline

/-!
# Two runs of `Evaluate` side by side

The second run has other types.  The relation between the entries of the two memories may get
weaker with the number of interpolation steps that an entry went through.
-/

namespace Bezman
open Spec

/-- a loop that follows another one, with a relation that depends on the round -/
theorem loop_follow_idx {σ τ : Type} {n : ℕ} {f : ℕ → σ → M σ} {g : ℕ → τ → M τ} (P : ℕ → σ → τ → Prop) {a : σ} {b b' : τ}
    (h0 : P 0 a b) (hstep : ∀ k < n, ∀ a b b', P k a b → g k b = .ok b' → ∃ a', f k a = .ok a' ∧ P (k + 1) a' b')
    (h : loop n g b = .ok b') : ∃ a', loop n f a = .ok a' ∧ P n a' b' := by
  induction n generalizing b' with
  | zero => cases h; exact ⟨a, rfl, h0⟩
  | succ n ih =>
    rw [loop_succ] at h
    obtain ⟨b1, e1, e2⟩ := bind_eq_ok.mp h
    obtain ⟨a1, e3, h1⟩ := ih (fun k hk => hstep k (by omega)) e1
    obtain ⟨a2, e4, h2⟩ := hstep n (by omega) a1 b1 b' h1 e2
    exact ⟨a2, by rw [loop_succ, e3]; exact e4, h2⟩

section
variable {V V' : Type} (Q : ℕ → V → V' → Prop)

/-- entry `x` of both memories is related with grade `g x` -/
def Graded (g : ℕ → ℕ) (m : List V) (m' : List V') : Prop :=
  m.length = m'.length ∧ ∀ x a a', m[x]? = some a → m'[x]? = some a' → Q (g x) a a'

variable {Q}

theorem Graded.mono' (hQ : ∀ k a a', Q k a a' → Q (k + 1) a a') {g g' : ℕ → ℕ} {m : List V} {m' : List V'}
    (h : Graded Q g m m') (hg : ∀ x < m.length, g x ≤ g' x) : Graded Q g' m m' := by
  have hQ' : ∀ d k a a', Q k a a' → Q (k + d) a a' := by
    intro d
    induction d with
    | zero => intro k a a' h; exact h
    | succ d ih => intro k a a' h; exact hQ _ _ _ (ih k a a' h)
  refine ⟨h.1, fun x a a' e e' => ?_⟩
  have := hQ' (g' x - g x) _ _ _ (h.2 x a a' e e')
  obtain ⟨hx, -⟩ := List.getElem?_eq_some_iff.mp e
  rwa [Nat.add_sub_cancel' (hg x hx)] at this

theorem Graded.mono (hQ : ∀ k a a', Q k a a' → Q (k + 1) a a') {g g' : ℕ → ℕ} {m : List V} {m' : List V'}
    (h : Graded Q g m m') (hg : ∀ x, g x ≤ g' x) : Graded Q g' m m' := h.mono' hQ fun x _ => hg x

theorem Graded.rd {g : ℕ → ℕ} {m : List V} {m' : List V'} (h : Graded Q g m m') {x : ℕ} {y : V'}
    (e : Bezman.rd m' x = .ok y) : ∃ a, Bezman.rd m x = .ok a ∧ Q (g x) a y := by
  rw [rd_ok_iff] at e
  obtain ⟨hi, -⟩ := List.getElem?_eq_some_iff.mp e
  have hl := h.1
  exact ⟨m[x], rd_getElem (by omega), h.2 x _ _ (List.getElem?_eq_getElem (by omega)) e⟩

theorem Graded.wr {g : ℕ → ℕ} {m : List V} {m' m1' : List V'} (h : Graded Q g m m') {x k : ℕ} {a : V} {y : V'}
    (hay : Q k a y) (e : Bezman.wr m' x y = .ok m1') :
    ∃ m1, Bezman.wr m x a = .ok m1 ∧ Graded Q (fun z => if z = x then k else g z) m1 m1' := by
  have hl := h.1
  unfold Bezman.wr at e
  split at e
  · rename_i hi
    cases e
    refine ⟨m.set x a, wr_ok _ (by omega), by simpa using hl, ?_⟩
    intro z b b' e1 e2
    rw [List.getElem?_set] at e1 e2
    by_cases hz : z = x
    · subst hz
      rw [if_pos rfl, if_pos (by omega)] at e1 e2
      cases e1; cases e2
      simpa using hay
    · rw [if_neg (Ne.symm hz)] at e1 e2
      simp only [if_neg hz]
      exact h.2 z b b' e1 e2
  · cases e

end

/-- the grades while dimension with degree `p` is collapsed: blocks before `offset` are done,
the block at `offset` went through `i` levels -/
def blockGrade (base off p offset i x : ℕ) : ℕ :=
  base + (if x < offset then p else if x < offset + off * (p + 1) then min i p else 0)

theorem Spline.evaluate_graded {K V K' V' : Type} [One K] [Sub K] [Add V] [SMul K V] [One K'] [Sub K'] [Add V'] [SMul K' V']
    (P : K → K' → Prop) (Q : ℕ → V → V' → Prop) (mono : ∀ k a a', Q k a a' → Q (k + 1) a a')
    (step : ∀ k t t' a a' b b', P t t' → Q k a a' → Q k b b' →
      Q (k + 1) (((1 : K) - t) • a + t • b) (((1 : K') - t') • a' + t' • b'))
    {s : Spline V} {s' : Spline V'} (hs' : s'.WF) (hd : s.degrees = s'.degrees) (ho : s.offsets = s'.offsets)
    (hn : s.ncp = s'.ncp) (hc : List.Forall₂ (Q 0) s.cps s'.cps) {t : List K} {t' : List K'} (ht : List.Forall₂ P t t')
    {G : V'} (h : s'.evaluate t' = .ok G) : ∃ r, s.evaluate t = .ok r ∧ Q s'.degrees.sum r G := by
  unfold evaluate at h
  obtain ⟨st', e1, e2⟩ := bind_eq_ok.mp h
  obtain ⟨st, e3, h4⟩ := loop_follow_idx (fun d (a : List V × ℕ) (b : List V' × ℕ) =>
      Graded Q (fun _ => (s'.degrees.take d).sum) a.1 b.1 ∧ a.2 = b.2)
    (a := (s.cps, s.ncp)) (f := fun par_dim (r : List V × Nat) => do
    let factor ← rd t par_dim
    let inv_factor := 1 - factor
    let p ← rd s.degrees par_dim
    let off ← rd s.offsets par_dim
    let ctps_to_consider := r.2 / (p + 1)
    let m ← loop ctps_to_consider (fun starting_point_id m =>
      let offset := (off * (p + 1)) * starting_point_id
      loop (p + 1) (fun i m =>
        loop (p - i) (fun j m => do
          let a ← rd m (j * off + offset)
          let b ← rd m ((j + 1) * off + offset)
          wr m (j * off + offset) (inv_factor • a + factor • b)) m) m) r.1
    pure (m, ctps_to_consider))
    ⟨⟨hc.length_eq, fun x a a' e e' => by
      rw [List.forall₂_iff_get] at hc
      obtain ⟨h1, rfl⟩ := List.getElem?_eq_some_iff.mp e
      obtain ⟨h2, rfl⟩ := List.getElem?_eq_some_iff.mp e'
      simpa using hc.2 x h1 h2⟩, hn⟩ (by
      rintro d hdim ⟨m, n⟩ ⟨m', n'⟩ b' ⟨hm, rfl⟩ e
      obtain ⟨τ, e1, e⟩ := bind_eq_ok.mp e
      obtain ⟨p, e2, e⟩ := bind_eq_ok.mp e
      obtain ⟨off, e3, e⟩ := bind_eq_ok.mp e
      obtain ⟨m2, e4, e⟩ := bind_eq_ok.mp e
      cases e
      obtain ⟨a, ea, ha⟩ := forall₂_rd ht e1
      have hoff : 0 < off := by
        rw [rd_ok_iff, hs'.off hdim] at e3
        cases e3
        exact size_pos _
      let base := (s'.degrees.take d).sum
      obtain ⟨m3, e5, hm3⟩ := loop_follow_idx (fun sp (u : List V) (w : List V') =>
          Graded Q (blockGrade base off p (off * (p + 1) * sp) 0) u w)
        (a := m) (f := fun starting_point_id m =>
          let offset := (off * (p + 1)) * starting_point_id
          loop (p + 1) (fun i m =>
            loop (p - i) (fun j m => do
              let a' ← rd m (j * off + offset)
              let b ← rd m ((j + 1) * off + offset)
              wr m (j * off + offset) (((1 : K) - a) • a' + a • b)) m) m)
        (hm.mono mono fun x => by simp [blockGrade, base]) (by
          intro sp _ u w w' huw e
          obtain ⟨u', eu, hu⟩ := loop_follow_idx (fun i (u : List V) (w : List V') =>
              Graded Q (blockGrade base off p (off * (p + 1) * sp) i) u w) huw (by
            intro i hi u w w' huw e
            obtain ⟨u', eu, hu⟩ := loop_follow_idx (fun j (u : List V) (w : List V') =>
                Graded Q (fun x => if ∃ j' < j, x = j' * off + off * (p + 1) * sp then base + i + 1
                  else blockGrade base off p (off * (p + 1) * sp) i x) u w)
              (f := fun j m => do
                let a' ← rd m (j * off + off * (p + 1) * sp)
                let b ← rd m ((j + 1) * off + off * (p + 1) * sp)
                wr m (j * off + off * (p + 1) * sp) (((1 : K) - a) • a' + a • b))
              (by simpa using huw) (by
                intro j hj u w w' huw e
                obtain ⟨x1, f1, e⟩ := bind_eq_ok.mp e
                obtain ⟨x2, f2, e⟩ := bind_eq_ok.mp e
                obtain ⟨y1, g1, q1⟩ := huw.rd f1
                obtain ⟨y2, g2, q2⟩ := huw.rd f2
                have hgr : ∀ l, j ≤ l → l ≤ p → (if ∃ j' < j, l * off + off * (p + 1) * sp = j' * off + off * (p + 1) * sp then base + i + 1
                    else blockGrade base off p (off * (p + 1) * sp) i (l * off + off * (p + 1) * sp)) = base + i := by
                  intro l hl1 hl2
                  rw [if_neg]
                  · unfold blockGrade
                    rw [if_neg (by omega), if_pos, Nat.min_eq_left (by omega)]
                    have : l * off < off * (p + 1) := by
                      rw [Nat.mul_comm]; exact Nat.mul_lt_mul_of_pos_left (by omega) hoff
                    omega
                  · rintro ⟨j', hj', e⟩
                    have : l * off = j' * off := by omega
                    have := Nat.eq_of_mul_eq_mul_right hoff this
                    omega
                rw [hgr j le_rfl (by omega)] at q1
                rw [hgr (j + 1) (by omega) (by omega)] at q2
                obtain ⟨m1, ew, hw⟩ := huw.wr (step _ _ _ _ _ _ _ ha q1 q2) e
                refine ⟨m1, by simp only [g1, g2, bind_ok]; exact ew, hw.mono mono fun x => ?_⟩
                by_cases hx : x = j * off + off * (p + 1) * sp
                · rw [if_pos hx, if_pos ⟨j, by omega, hx⟩]
                · rw [if_neg hx]
                  have : (∃ j' < j, x = j' * off + off * (p + 1) * sp) ↔ ∃ j' < j + 1, x = j' * off + off * (p + 1) * sp := by
                    constructor
                    · rintro ⟨j', h1, h2⟩; exact ⟨j', by omega, h2⟩
                    · rintro ⟨j', h1, h2⟩
                      refine ⟨j', ?_, h2⟩
                      rcases Nat.lt_succ_iff_lt_or_eq.mp h1 with h | rfl
                      · exact h
                      · exact absurd h2 hx
                  simp only [this, le_refl]) e
            refine ⟨u', eu, hu.mono mono fun x => ?_⟩
            split
            · rename_i hx
              obtain ⟨j', h1, rfl⟩ := hx
              unfold blockGrade
              rw [if_neg (by omega), if_pos, Nat.min_eq_left (by omega)]
              · omega
              · have : j' * off < off * (p + 1) := by
                  rw [Nat.mul_comm]; exact Nat.mul_lt_mul_of_pos_left (by omega) hoff
                omega
            · unfold blockGrade
              split
              · exact le_rfl
              · split
                · have : min i p ≤ min (i + 1) p := by omega
                  omega
                · exact le_rfl) e
          refine ⟨u', eu, hu.mono mono fun x => ?_⟩
          unfold blockGrade
          have : off * (p + 1) * (sp + 1) = off * (p + 1) * sp + off * (p + 1) := by ring
          split
          · rw [if_pos (by omega)]
          · split
            · rw [if_pos (by omega), Nat.min_eq_right (by omega)]
            · omega) e4
      refine ⟨(m3, n / (p + 1)), ?_, hm3.mono mono fun x => ?_, rfl⟩
      · rw [hd, ho]
        simp only [ea, e2, e3, bind_ok]
        exact bind_eq_ok.mpr ⟨m3, e5, rfl⟩
      · rw [rd_ok_iff] at e2
        rw [List.take_succ, e2, List.sum_append]
        simp only [Option.toList_some, List.sum_singleton]
        unfold blockGrade
        split
        · exact le_rfl
        · split
          · have : min 0 p ≤ p := by omega
            omega
          · omega) e1
  obtain ⟨r, e4, h5⟩ := h4.1.rd e2
  refine ⟨r, ?_, ?_⟩
  · unfold evaluate
    have hdim : s.dim = s'.dim := by unfold dim; rw [hd]
    rw [hdim, e3]
    exact e4
  · have : s'.degrees.take s'.dim = s'.degrees := List.take_of_length_le (le_refl _)
    rwa [this] at h5

end Bezman
