import Verif.Proofs.Ieee
import Verif.Proofs.AnyArith
import Verif.Props.Formulas

/-! # Infinities and NaN pass through interpolation -/

namespace Bezman
open Spec

/-! ## sets that swallow interpolation -/

section absorb
variable {K V : Type} [One K] [Sub K] [Add V] [SMul K V] {T : V → Prop}
  (hT : ∀ (t : K) (a b : V), T a ∨ T b → T ((1 - t) • a + t • b))
include hT

theorem triangle_absorb {t : K} {P : ℕ → V} : ∀ {r j i : ℕ}, j ≤ i → i ≤ j + r → T (P i) → T (triangle t P r j)
  | 0, j, i, h1, h2, h => by obtain rfl : i = j := by omega
                             exact h
  | r + 1, j, i, h1, h2, h => by
    rw [triangle]
    refine hT _ _ _ ?_
    by_cases hi : i ≤ j + r
    · exact .inl (triangle_absorb h1 hi h)
    · exact .inr (triangle_absorb (i := i) (by omega) (by omega) h)

theorem casteljau_absorb : ∀ {ps : List ℕ} {ts : List K} {P : List ℕ → V} {idx : List ℕ} (_ : ts.length = ps.length)
    (_ : ValidIdx ps idx) (_ : T (P idx)), T (casteljau ps ts P)
  | [], ts, P, _, _, .nil, h => by rw [casteljau]; exact h; simp
  | p :: ps, [], P, _, hl, _, _ => by simp at hl
  | p :: ps, t :: ts, P, _, hl, .cons (a := i) (l₁ := idx) hi hv, h => by
    rw [casteljau]
    exact casteljau_absorb (idx := idx) (by simpa using hl) hv
      (triangle_absorb hT (P := fun i => P (i :: idx)) (i := i) (by omega) (by omega) h)

/-- … or one of the parameters, in a direction of positive degree -/
theorem casteljau_absorb_par : ∀ {ps : List ℕ} {ts : List K} {P : List ℕ → V} {d p : ℕ} {t : K} (_ : ts.length = ps.length)
    (_ : ps[d]? = some (p + 1)) (_ : ts[d]? = some t) (_ : ∀ a b : V, T ((1 - t) • a + t • b)), T (casteljau ps ts P)
  | [], ts, P, d, p, t, _, hp, _, _ => by simp at hp
  | p :: ps, [], P, d, _, t, hl, _, _, _ => by simp at hl
  | p :: ps, t :: ts, P, 0, p', t', hl, hp, ht, h => by
    obtain rfl : p = p' + 1 := by simpa using hp
    obtain rfl : t = t' := by simpa using ht
    rw [casteljau]
    refine casteljau_absorb hT (idx := List.replicate ps.length 0) (by simpa using hl) ?_ ?_
    · clear hl hp ht h
      induction ps with
      | nil => exact .nil
      | cons q ps ih => exact .cons (by omega) ih
    · rw [triangle]; exact h _ _
  | p :: ps, t :: ts, P, d + 1, p', t', hl, hp, ht, h => by
    rw [casteljau]
    exact casteljau_absorb_par (d := d) (by simpa using hl) (by simpa using hp) (by simpa using ht) h

end absorb

theorem Spline.WF.index_of_mem {V : Type} {s : Spline V} (h : s.WF) {x : V} (hx : x ∈ s.cps) :
    ∃ idx, ValidIdx s.degrees idx ∧ s.controlPoint idx = .ok x := by
  obtain ⟨i, hi, rfl⟩ := List.mem_iff_getElem.mp hx
  obtain ⟨idx, -, hv, hg⟩ := Props.C05_local_global s h i (by rw [h.ncp_eq, ← h.cps_len]; exact hi)
  refine ⟨idx, hv, ?_⟩
  unfold Spline.controlPoint
  rw [hg, bind_ok, rd_getElem hi]

theorem Spline.weightedSum_absorb {K V : Type} [Zero V] [Add V] [SMul K V] {T : V → Prop} (hadd : ∀ a b : V, T a ∨ T b → T (a + b))
    (hmul : ∀ (c : K) (a : V), T a → T (c • a)) {fs : List K} {cps : List V} {x v : V} (hl : cps.length ≤ fs.length) (hx : x ∈ cps)
    (hv : T x) (h : Spline.weightedSum fs cps = .ok v) : T v := by
  obtain ⟨i, hi, rfl⟩ := List.mem_iff_getElem.mp hx
  unfold Spline.weightedSum at h
  have key : ∀ (n : ℕ) (w : V), loop n (fun i acc => do
      let f ← rd fs i
      let c ← rd cps i
      pure (acc + f • c)) 0 = .ok w → i < n → T w := by
    intro n
    induction n with
    | zero => intro w _ hi; omega
    | succ n ih =>
      intro w hw hin
      rw [loop] at hw
      obtain ⟨u, e1, hw⟩ := bind_eq_ok.mp hw
      obtain ⟨f, e2, hw⟩ := bind_eq_ok.mp hw
      obtain ⟨c, e3, hw⟩ := bind_eq_ok.mp hw
      cases hw
      by_cases hn : i < n
      · exact hadd _ _ (.inl (ih u e1 hn))
      · obtain rfl : i = n := by omega
        rw [rd_getElem hi] at e3
        cases e3
        exact hadd _ _ (.inr (hmul _ _ hv))
  exact key _ _ h (by omega)

section product
variable {K V W U : Type} [Mul K] [Div K] [NatCast K] [Add U] [SMul K U] {T : U → Prop}

theorem repeatFrom_keep {f : ℕ → U → U} (hf : ∀ i x, T x → T (f i x)) {a : ℕ} {x : U} (hx : T x) : ∀ n, T (repeatFrom a f x n)
  | 0 => hx
  | n + 1 => hf _ _ (repeatFrom_keep hf hx n)

theorem repeatFrom_hit {f : ℕ → U → U} (hf : ∀ i x, T x → T (f i x)) {a i : ℕ} {x : U} (ha : a ≤ i) (hi : ∀ x, T (f i x)) :
    ∀ n, i < a + n → T (repeatFrom a f x n)
  | 0, h => by omega
  | n + 1, h => by
    rw [repeatFrom]
    by_cases hn : i < a + n
    · exact hf _ _ (repeatFrom_hit hf ha hi n hn)
    · obtain rfl : i = a + n := by omega
      exact hi _

theorem productNet_keep (hadd : ∀ a b : U, T a ∨ T b → T (a + b)) {mul : V → W → U} : ∀ (ms ns ks : List ℕ) (c : K) (P : List ℕ → V)
    (Q : List ℕ → W) (x : U), T x → T (productNet mul ms ns ks c P Q x)
  | [m], [n], [k], c, P, Q, x, h => by
    rw [productNet]
    exact repeatFrom_keep (fun i x hx => hadd _ _ (.inl hx)) h _
  | m :: m' :: ms, n :: ns, k :: ks, c, P, Q, x, h => by
    rw [productNet]
    exact repeatFrom_keep (fun i x hx => productNet_keep hadd _ _ _ _ _ _ _ hx) h _
  | [], _, _, _, _, _, _, h => by rw [productNet] <;> first | exact h | simp
  | _ :: _, [], _, _, _, _, _, h => by rw [productNet] <;> first | exact h | simp
  | _ :: _, _ :: _, [], _, _, _, _, h => by rw [productNet] <;> first | exact h | simp
  | [_], _ :: _ :: _, _ :: _, _, _, _, _, h => by rw [productNet] <;> first | exact h | simp
  | [_], [_], _ :: _ :: _, _, _, _, _, h => by rw [productNet] <;> first | exact h | simp

/-- the pair of control points `is` and `js` enters the control point `is + js` -/
theorem productNet_absorb (hadd : ∀ a b : U, T a ∨ T b → T (a + b)) (hsmul : ∀ (c : K) (a : U), T a → T (c • a)) {mul : V → W → U} :
    ∀ {ms ns is js : List ℕ} {c : K} {P : List ℕ → V} {Q : List ℕ → W} {x : U} (_ : ms ≠ []) (_ : ns.length = ms.length) (_ : ValidIdx ms is)
      (_ : ValidIdx ns js) (_ : T (mul (P is) (Q js))), T (productNet mul ms ns (List.zipWith (· + ·) is js) c P Q x)
  | [], _, _, _, _, _, _, _, h0, _, _, _, _ => (h0 rfl).elim
  | [m], [n], _, _, c, P, Q, x, _, _, .cons (a := i) hi .nil, .cons (a := j) hj .nil, h => by
    rw [List.zipWith_cons_cons, List.zipWith_nil_left, productNet]
    refine repeatFrom_hit (i := i) (fun i x hx => hadd _ _ (.inl hx)) (by omega) (fun x => hadd _ _ (.inr ?_)) _ (by omega)
    rw [Nat.add_sub_cancel_left]
    exact hsmul _ _ (hsmul _ _ h)
  | m :: m' :: ms, n :: n' :: ns, _, _, c, P, Q, x, _, hl, .cons (a := i) (l₁ := is) hi h1, .cons (a := j) (l₁ := js) hj h2, h => by
    rw [List.zipWith_cons_cons, productNet]
    refine repeatFrom_hit (i := i) (fun i x hx => productNet_keep hadd _ _ _ _ _ _ _ hx) (by omega) (fun x => ?_) _ (by omega)
    rw [Nat.add_sub_cancel_left]
    exact productNet_absorb hadd hsmul (P := fun is => P (i :: is)) (Q := fun js => Q (j :: js)) (by simp) (by simpa using hl) h1 h2 h
  | [_], [], _, _, _, _, _, _, _, hl, _, _, _ => by simp at hl
  | [_], _ :: _ :: _, _, _, _, _, _, _, _, hl, _, _, _ => by simp at hl
  | _ :: _ :: _, [], _, _, _, _, _, _, _, hl, _, _, _ => by simp at hl
  | _ :: _ :: _, [_], _, _, _, _, _, _, _, hl, _, _, _ => by simp at hl

end product

/-! ## infinities and NaN -/

namespace Ieee
variable {rnd : ℝ → ℝ} {omega : ℝ}

theorem nonFinite_add {a b : Ieee rnd omega} (h : a.NonFinite ∨ b.NonFinite) : (a + b).NonFinite := by
  cases a <;> cases b
  case fin.fin => rcases h with h | h <;> exact h.elim
  case inf.inf s s' =>
    show NonFinite (if s = s' then inf s else nan : Ieee rnd omega)
    split <;> trivial
  all_goals trivial

theorem nonFinite_mul {a b : Ieee rnd omega} (h : a.NonFinite ∨ b.NonFinite) : (a * b).NonFinite := by
  cases a <;> cases b
  case fin.fin => rcases h with h | h <;> exact h.elim
  case fin.inf x s =>
    show NonFinite (if x = 0 then nan else inf _ : Ieee rnd omega)
    split <;> trivial
  case inf.fin s x =>
    show NonFinite (if x = 0 then nan else inf _ : Ieee rnd omega)
    split <;> trivial
  all_goals trivial

theorem nonFinite_neg {a : Ieee rnd omega} (h : a.NonFinite) : (-a).NonFinite := by
  cases a
  · exact h.elim
  · trivial
  · trivial

theorem nonFinite_sub {a b : Ieee rnd omega} (h : a.NonFinite ∨ b.NonFinite) : (a - b).NonFinite :=
  nonFinite_add (h.imp_right nonFinite_neg)

theorem nonFinite_lerp {n : ℕ} (j : Fin n) (t : Ieee rnd omega) (a b : Point (Ieee rnd omega) n)
    (h : (a.val j).NonFinite ∨ (b.val j).NonFinite) : (((1 - t) • a + t • b).val j).NonFinite :=
  nonFinite_add (a := a.val j * (1 - t)) (b := b.val j * t) (h.imp (fun h => nonFinite_mul (.inl h)) fun h => nonFinite_mul (.inl h))

theorem nonFinite_lerp_par {n : ℕ} (j : Fin n) {t : Ieee rnd omega} (ht : t.NonFinite) (a b : Point (Ieee rnd omega) n) :
    (((1 - t) • a + t • b).val j).NonFinite :=
  nonFinite_add (a := a.val j * (1 - t)) (b := b.val j * t) (.inr (nonFinite_mul (.inr ht)))

theorem lt_trans' {a b c : Ieee rnd omega} (h1 : a < b) (h2 : b < c) : a < c := by
  cases a <;> cases b <;> cases c <;> first | exact h1.elim | exact h2.elim | skip
  · exact lt_trans (α := ℝ) h1 h2
  · exact h2
  · have a1 : _ = false := h1
    have a2 : _ = true := h2
    rw [a1] at a2; cases a2
  · have a1 : _ = false := h1
    have a2 : _ = true ∧ _ = false := h2
    exact a2.2
  · exact h1
  · exact ⟨h1, h2⟩
  · exact h1.1
  · exact ⟨h1.1, h2.2⟩

/-- apart from NaN the order is total -/
theorem lt_of_not_lt {a b c : Ieee rnd omega} (h1 : a < b) (hc : c ≠ nan) (h2 : ¬ c < b) : a < c := by
  cases a <;> cases b <;> cases c <;> first | exact h1.elim | exact (hc rfl).elim | skip
  · exact lt_of_lt_of_le (α := ℝ) h1 (not_lt.mp h2)
  · rename_i s
    cases s
    · rfl
    · exact (h2 rfl).elim
  · exact (h2 h1).elim
  · rename_i s s'
    cases s'
    · rfl
    · exact (h2 ⟨rfl, h1⟩).elim
  · exact h1
  · rename_i s x s'
    cases s'
    · exact ⟨h1, rfl⟩
    · exact (h2 rfl).elim
  · exact h1.1
  · rename_i s s' s''
    cases s''
    · exact ⟨h1.1, rfl⟩
    · exact (h2 ⟨rfl, h1.2⟩).elim

theorem ne_nan_of_lt {a b : Ieee rnd omega} (h : a < b) : a ≠ nan ∧ b ≠ nan := by
  constructor
  · rintro rfl; exact h.elim
  · rintro rfl; cases a <;> exact h.elim

/-- one step of the search for the largest coordinate, compared with `c` -/
theorem stdMax_step {m x c : Ieee rnd omega} :
    (m = nan → Spline.stdMax m x = nan) ∧ (m ≠ nan → Spline.stdMax m x ≠ nan ∧ (c < Spline.stdMax m x ↔ c < m ∨ c < x)) := by
  unfold Spline.stdMax
  refine ⟨fun h => ?_, fun h => ?_⟩
  · rw [if_neg fun h' => (ne_nan_of_lt h').1 h]; exact h
  · split
    · rename_i hlt
      exact ⟨(ne_nan_of_lt hlt).2, ⟨.inr, fun h => h.elim (fun h => lt_trans' h hlt) id⟩⟩
    · rename_i hlt
      exact ⟨h, ⟨.inl, fun h' => h'.elim id fun h' => lt_of_not_lt h' h hlt⟩⟩

theorem gt_of_not_gt {a b c : Ieee rnd omega} (h1 : b < a) (hc : c ≠ nan) (h2 : ¬ b < c) : c < a := by
  cases a <;> cases b <;> cases c <;> first | exact h1.elim | exact (hc rfl).elim | skip
  · exact lt_of_le_of_lt (α := ℝ) (not_lt.mp h2) h1
  · rename_i s
    cases s
    · exact (h2 rfl).elim
    · rfl
  · exact (h2 h1).elim
  · rename_i s s'
    cases s'
    · exact (h2 ⟨h1, rfl⟩).elim
    · rfl
  · exact h1
  · rename_i s x s'
    cases s'
    · exact (h2 rfl).elim
    · exact ⟨rfl, h1⟩
  · exact h1.2
  · rename_i s s' s''
    cases s''
    · exact (h2 ⟨h1.1, rfl⟩).elim
    · exact ⟨rfl, h1.2⟩

theorem stdMin_step {m x c : Ieee rnd omega} :
    (m = nan → Spline.stdMin m x = nan) ∧ (m ≠ nan → Spline.stdMin m x ≠ nan ∧ (Spline.stdMin m x < c ↔ m < c ∨ x < c)) := by
  unfold Spline.stdMin
  refine ⟨fun h => ?_, fun h => ?_⟩
  · rw [if_neg fun h' => (ne_nan_of_lt h').2 h]; exact h
  · split
    · rename_i hlt
      exact ⟨(ne_nan_of_lt hlt).1, ⟨.inr, fun h => h.elim (fun h => lt_trans' hlt h) id⟩⟩
    · rename_i hlt
      exact ⟨h, ⟨.inl, fun h' => h'.elim id fun h' => gt_of_not_gt h' h hlt⟩⟩

end Ieee

theorem Spline.maximumCorner_nan {rnd : ℝ → ℝ} {omega : ℝ} {n : ℕ} {s : Spline (Point (Ieee rnd omega) n)} (h : s.WF)
    {x₀ : Point (Ieee rnd omega) n} (h₀ : s.cps[0]? = some x₀) :
    ∃ m, Spline.maximumCorner (Ieee rnd omega) s = .ok m ∧ ∀ j, (∃ x ∈ s.cps, x.val j = m.val j) ∧
      (x₀.val j = .nan → m.val j = .nan) ∧ (x₀.val j ≠ .nan → ∀ c, c < m.val j ↔ ∃ x ∈ s.cps, c < x.val j) := by
  have hn : s.cps.length = s.ncp := by rw [h.cps_len, h.ncp_eq]
  have hpos : 0 < s.ncp := by rw [h.ncp_eq]; exact size_pos _
  unfold maximumCorner
  rw [if_neg (by omega), rd_ok h₀]
  simp only [bind_ok]
  obtain ⟨m, h1, h2⟩ := loopFrom_inv (a := 1) (b := s.ncp) (s := x₀)
    (f := fun i m => do
      let x ← rd s.cps i
      pure (Coords.ofCoords (K := Ieee rnd omega) fun j => stdMax (Coords.coord m j) (Coords.coord x j)))
    (P := fun k m => ∀ j, (∃ x ∈ s.cps, x.val j = m.val j) ∧ (x₀.val j = .nan → m.val j = .nan) ∧
      (x₀.val j ≠ .nan → m.val j ≠ .nan ∧ ∀ c, c < m.val j ↔ ∃ x ∈ s.cps.take k, c < x.val j))
    (by omega) (by
      intro j
      have : s.cps.take 1 = [x₀] := by rw [List.take_one, List.head?_eq_getElem?, h₀]; rfl
      rw [this]
      exact ⟨⟨x₀, List.mem_of_getElem? h₀, rfl⟩, id, fun h => ⟨h, by simp⟩⟩) (by
      intro k hk1 hk2 m hm
      have hk : k < s.cps.length := by omega
      refine ⟨_, by rw [rd_getElem hk]; rfl, fun j => ?_⟩
      obtain ⟨⟨x, hx, a0⟩, a1, a2⟩ := hm j
      have hst := fun c => Ieee.stdMax_step (m := m.val j) (x := s.cps[k].val j) (c := c)
      refine ⟨?_, fun h => (hst 0).1 (a1 h), fun h => ⟨((hst 0).2 (a2 h).1).1, fun c => ((hst c).2 (a2 h).1).2.trans ?_⟩⟩
      · show ∃ y ∈ s.cps, y.val j = stdMax (m.val j) (s.cps[k].val j)
        unfold stdMax
        split
        · exact ⟨_, List.getElem_mem hk, rfl⟩
        · exact ⟨x, hx, a0⟩
      rw [(a2 h).2, List.take_succ_eq_append_getElem hk]
      simp only [List.mem_append, List.mem_singleton, or_and_right, exists_or, exists_eq_left])
  refine ⟨m, h1, fun j => ⟨(h2 j).1, (h2 j).2.1, fun h c => ?_⟩⟩
  rw [((h2 j).2.2 h).2, List.take_of_length_le (by omega)]

theorem Spline.minimumCorner_nan {rnd : ℝ → ℝ} {omega : ℝ} {n : ℕ} {s : Spline (Point (Ieee rnd omega) n)} (h : s.WF)
    {x₀ : Point (Ieee rnd omega) n} (h₀ : s.cps[0]? = some x₀) :
    ∃ m, Spline.minimumCorner (Ieee rnd omega) s = .ok m ∧ ∀ j, (∃ x ∈ s.cps, x.val j = m.val j) ∧
      (x₀.val j = .nan → m.val j = .nan) ∧ (x₀.val j ≠ .nan → ∀ c, m.val j < c ↔ ∃ x ∈ s.cps, x.val j < c) := by
  have hn : s.cps.length = s.ncp := by rw [h.cps_len, h.ncp_eq]
  have hpos : 0 < s.ncp := by rw [h.ncp_eq]; exact size_pos _
  unfold minimumCorner
  rw [if_neg (by omega), rd_ok h₀]
  simp only [bind_ok]
  obtain ⟨m, h1, h2⟩ := loopFrom_inv (a := 1) (b := s.ncp) (s := x₀)
    (f := fun i m => do
      let x ← rd s.cps i
      pure (Coords.ofCoords (K := Ieee rnd omega) fun j => stdMin (Coords.coord m j) (Coords.coord x j)))
    (P := fun k m => ∀ j, (∃ x ∈ s.cps, x.val j = m.val j) ∧ (x₀.val j = .nan → m.val j = .nan) ∧
      (x₀.val j ≠ .nan → m.val j ≠ .nan ∧ ∀ c, m.val j < c ↔ ∃ x ∈ s.cps.take k, x.val j < c))
    (by omega) (by
      intro j
      have : s.cps.take 1 = [x₀] := by rw [List.take_one, List.head?_eq_getElem?, h₀]; rfl
      rw [this]
      exact ⟨⟨x₀, List.mem_of_getElem? h₀, rfl⟩, id, fun h => ⟨h, by simp⟩⟩) (by
      intro k hk1 hk2 m hm
      have hk : k < s.cps.length := by omega
      refine ⟨_, by rw [rd_getElem hk]; rfl, fun j => ?_⟩
      obtain ⟨⟨x, hx, a0⟩, a1, a2⟩ := hm j
      have hst := fun c => Ieee.stdMin_step (m := m.val j) (x := s.cps[k].val j) (c := c)
      refine ⟨?_, fun h => (hst 0).1 (a1 h), fun h => ⟨((hst 0).2 (a2 h).1).1, fun c => ((hst c).2 (a2 h).1).2.trans ?_⟩⟩
      · show ∃ y ∈ s.cps, y.val j = stdMin (m.val j) (s.cps[k].val j)
        unfold stdMin
        split
        · exact ⟨_, List.getElem_mem hk, rfl⟩
        · exact ⟨x, hx, a0⟩
      rw [(a2 h).2, List.take_succ_eq_append_getElem hk]
      simp only [List.mem_append, List.mem_singleton, or_and_right, exists_or, exists_eq_left])
  refine ⟨m, h1, fun j => ⟨(h2 j).1, (h2 j).2.1, fun h c => ?_⟩⟩
  rw [((h2 j).2.2 h).2, List.take_of_length_le (by omega)]

end Bezman
