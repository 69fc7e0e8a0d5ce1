import Verif.Proofs.RoundedEval
import Verif.Spec.ScalarMap
import Verif.Proofs.Arith

/-! # Maps of points that commute with interpolation on a closed set -/

namespace Bezman
open Spec

section loops
variable {σ σ' : Type}

theorem loop_both {n : ℕ} {f : ℕ → σ → M σ} {f' : ℕ → σ' → M σ'} {s s' : σ} (φ : σ → σ') (I : σ → Prop) (h : loop n f s = .ok s')
    (h0 : I s) (hstep : ∀ k, k < n → ∀ s s', I s → f k s = .ok s' → I s' ∧ f' k (φ s) = .ok (φ s')) :
    I s' ∧ loop n f' (φ s) = .ok (φ s') := by
  induction n generalizing s' with
  | zero => cases h; exact ⟨h0, rfl⟩
  | succ n ih =>
    rw [loop] at h
    obtain ⟨s1, h1, h2⟩ := bind_eq_ok.mp h
    obtain ⟨i1, e1⟩ := ih h1 fun k hk => hstep k (by omega)
    obtain ⟨i2, e2⟩ := hstep n (by omega) s1 s' i1 h2
    exact ⟨i2, by rw [loop, e1, bind_ok]; exact e2⟩

theorem loopFrom_both {a b : ℕ} {f : ℕ → σ → M σ} {f' : ℕ → σ' → M σ'} {s s' : σ} (φ : σ → σ') (I : σ → Prop)
    (h : loopFrom a b f s = .ok s') (h0 : I s) (hstep : ∀ k, a ≤ k → k < b → ∀ s s', I s → f k s = .ok s' → I s' ∧ f' k (φ s) = .ok (φ s')) :
    I s' ∧ loopFrom a b f' (φ s) = .ok (φ s') :=
  loop_both φ I h h0 fun k hk => hstep (a + k) (by omega) (by omega)

theorem loopDown_both {n : ℕ} {f : ℕ → σ → M σ} {f' : ℕ → σ' → M σ'} {s s' : σ} (φ : σ → σ') (I : σ → Prop)
    (h : loopDown n f s = .ok s') (h0 : I s) (hstep : ∀ k, k < n → ∀ s s', I s → f k s = .ok s' → I s' ∧ f' k (φ s) = .ok (φ s')) :
    I s' ∧ loopDown n f' (φ s) = .ok (φ s') :=
  loop_both φ I h h0 fun k hk => hstep (n - 1 - k) (by omega)

theorem rd_map {α β : Type} {F : α → β} {l : List α} {i : ℕ} {x : α} (h : rd l i = .ok x) : rd (l.map F) i = .ok (F x) :=
  rd_ok_iff.mpr (by rw [List.getElem?_map, rd_ok_iff.mp h]; rfl)

theorem wr_map {α β : Type} {F : α → β} {l m : List α} {i : ℕ} {x : α} (h : wr l i x = .ok m) : wr (l.map F) i (F x) = .ok (m.map F) := by
  unfold wr at h ⊢
  split at h
  · rename_i hi
    cases h
    rw [if_pos (by simpa using hi), List.map_set]
  · cases h

end loops

section
variable {K V K' V' : Type} [One K] [Sub K] [Add V] [SMul K V] [One K'] [Sub K'] [Add V'] [SMul K' V'] {S : V → Prop}
  {Q : K → Prop} {F : V → V'} {G : K → K'}
  (hS : ∀ (t : K) (a b : V), Q t → S a → S b → S ((1 - t) • a + t • b))
  (hF : ∀ (t : K) (a b : V), Q t → S a → S b → F ((1 - t) • a + t • b) = (1 - G t) • F a + G t • F b)
include hS hF

theorem triangle_local {t : K} (ht : Q t) {P : ℕ → V} :
    ∀ {r j : ℕ}, (∀ i, i ≤ j + r → S (P i)) → F (triangle t P r j) = triangle (G t) (fun i => F (P i)) r j
  | 0, j, h => rfl
  | r + 1, j, h => by
    rw [triangle, triangle, hF _ _ _ ht (triangle_stays hS ht fun i hi => h i (by omega)) (triangle_stays hS ht fun i hi => h i (by omega)),
      triangle_local ht fun i hi => h i (by omega), triangle_local ht fun i hi => h i (by omega)]

theorem casteljau_local : ∀ {ps : List ℕ} {ts : List K} {P : List ℕ → V} (_ : ts.length = ps.length) (_ : ∀ t ∈ ts, Q t)
    (_ : ∀ idx, ValidIdx ps idx → S (P idx)), F (casteljau ps ts P) = casteljau ps (ts.map G) fun i => F (P i)
  | [], ts, P, hl, _, h => by
    obtain rfl := List.length_eq_zero_iff.mp hl
    rfl
  | p :: ps, [], P, hl, _, h => by simp at hl
  | p :: ps, t :: ts, P, hl, hq, h => by
    rw [List.map_cons, casteljau, casteljau, casteljau_local (by simpa using hl) (fun u hu => hq u (by simp [hu])) fun idx hi =>
      triangle_stays hS (hq t (by simp)) fun i hi' => h _ (.cons (by omega) hi)]
    refine casteljau_congr (by simpa using hl) fun idx hi => ?_
    exact triangle_local hS hF (hq t (by simp)) fun i hi' => h _ (.cons (by omega) hi)

theorem Spline.evaluate_local {s : Spline V} (h : s.WF) (hs : ∀ x ∈ s.cps, S x) {t : List K} (ht : t.length = s.dim)
    (hq : ∀ u ∈ t, Q u) : ∃ x, s.evaluate t = .ok x ∧ S x ∧ (s.map F).evaluate (t.map G) = .ok (F x) := by
  obtain ⟨P, h1, h2⟩ := h.exists_net hs
  refine ⟨_, Spline.evaluate_casteljau h ht h1, casteljau_stays hS ht hq h2, ?_⟩
  rw [casteljau_local hS hF ht hq h2]
  refine Spline.evaluate_casteljau (s := s.map F) (h.map F) (by rw [List.length_map]; exact ht) fun idx hi => ?_
  have := h1 idx hi
  unfold Spline.controlPoint at this ⊢
  obtain ⟨i, e1, e2⟩ := bind_eq_ok.mp this
  show (do let i ← _; rd (s.cps.map F) i) = _
  have e1' : (s.map F).globalToLocal idx = .ok i := e1
  rw [e1', bind_ok]
  exact rd_map e2

theorem Spline.splitAt_local [Zero K] [LT K] [DecidableLT K] [Zero K'] [LT K'] [DecidableLT K'] {s a b : Spline V} {z : K} {d : ℕ}
    (hq : Q z) (hz : 0 < G z ∧ G z < 1) (hs : ∀ x ∈ s.cps, S x) (h : s.splitAt z d = .ok (a, b)) :
    ((∀ x ∈ a.cps, S x) ∧ ∀ x ∈ b.cps, S x) ∧ (s.map F).splitAt (G z) d = .ok (a.map F, b.map F) := by
  refine ⟨Spline.splitAt_closed hS (fun _ _ => hq) hs h, ?_⟩
  unfold Spline.splitAt at h ⊢
  rw [if_neg (not_not.mpr hz)]
  split at h
  · cases h
  obtain ⟨p, ep, h⟩ := bind_eq_ok.mp h
  obtain ⟨off, eo, h⟩ := bind_eq_ok.mp h
  obtain ⟨r, er, h⟩ := bind_eq_ok.mp h
  cases h
  rw [show (s.map F).degrees = s.degrees from rfl, show (s.map F).offsets = s.offsets from rfl, show (s.map F).ncp = s.ncp from rfl,
    ep, bind_ok, eo, bind_ok]
  obtain ⟨_, e⟩ := loop_both (fun r : List V × List V => (r.1.map F, r.2.map F))
    (fun r : List V × List V => (∀ x ∈ r.1, S x) ∧ ∀ x ∈ r.2, S x) er ⟨hs, hs⟩ (f' := fun k r => do
        let group_id ← divU k off
        let id_in_group ← modU k off
        let start := group_id * (off * (p + 1)) + id_in_group
        loopFrom 1 (p + 1) (fun i (r : List V' × List V') => do
          let first ← loopDown (p + 1 - i) (fun j' first => do
            let j := j' + i
            let a ← rd first (start + (j - 1) * off)
            let b ← rd first (start + j * off)
            wr first (start + j * off) ((1 - G z) • a + G z • b)) r.1
          let x ← rd first (start + p * off)
          let second ← wr r.2 (start + (p - i) * off) x
          pure (first, second)) r) (fun k hk r r' hr e => by
      obtain ⟨g, eg, e⟩ := bind_eq_ok.mp e
      obtain ⟨g', eg', e⟩ := bind_eq_ok.mp e
      dsimp only
      rw [eg, bind_ok, eg', bind_ok]
      refine loopFrom_both (fun r : List V × List V => (r.1.map F, r.2.map F))
        (fun r : List V × List V => (∀ x ∈ r.1, S x) ∧ ∀ x ∈ r.2, S x) e hr ?_
      intro i hi1 hi2 r r' hr e
      obtain ⟨f, ef, e⟩ := bind_eq_ok.mp e
      obtain ⟨hf, ef'⟩ := loopDown_both (f' := fun j' first => do
            let j := j' + i
            let a ← rd first (g * (off * (p + 1)) + g' + (j - 1) * off)
            let b ← rd first (g * (off * (p + 1)) + g' + j * off)
            wr first (g * (off * (p + 1)) + g' + j * off) ((1 - G z) • a + G z • b)) (List.map F) (fun m : List V => ∀ x ∈ m, S x) ef hr.1 (by
        intro j hj m m' hm e
        obtain ⟨x, ex, e⟩ := bind_eq_ok.mp e
        obtain ⟨y, ey, e⟩ := bind_eq_ok.mp e
        refine ⟨mem_wr e hm (hS _ _ _ hq (hm _ (mem_rd ex)) (hm _ (mem_rd ey))), ?_⟩
        dsimp only
        rw [rd_map ex, bind_ok, rd_map ey, bind_ok, ← hF _ _ _ hq (hm _ (mem_rd ex)) (hm _ (mem_rd ey))]
        exact wr_map e)
      obtain ⟨x, ex, e⟩ := bind_eq_ok.mp e
      obtain ⟨m, em, e⟩ := bind_eq_ok.mp e
      cases e
      refine ⟨⟨hf, mem_wr em hr.2 (hf _ (mem_rd ex))⟩, ?_⟩
      dsimp only
      rw [ef', bind_ok, rd_map ex, bind_ok, wr_map em]
      rfl)
  dsimp only [Spline.map] at e ⊢
  rw [e]
  rfl

theorem Spline.splitAtMany_local [Zero K] [LT K] [DecidableLT K] [Div K] [Zero K'] [LT K'] [DecidableLT K'] [Div K'] {s : Spline V}
    {zs : List K} {d : ℕ} {l : List (Spline V)} (hlt : ∀ z ∈ zs, ∀ z' ∈ zs, z < z' ↔ G z < G z')
    (hq0 : ∀ z ∈ zs, 0 < z → z < 1 → Q z ∧ 0 < G z ∧ G z < 1)
    (hq : ∀ z ∈ zs, ∀ z' ∈ zs, 0 < (z - z') / (1 - z') → (z - z') / (1 - z') < 1 →
      Q ((z - z') / (1 - z')) ∧ G ((z - z') / (1 - z')) = (G z - G z') / (1 - G z') ∧
        0 < G ((z - z') / (1 - z')) ∧ G ((z - z') / (1 - z')) < 1)
    (hs : ∀ x ∈ s.cps, S x) (h : s.splitAtMany zs d = .ok l) :
    (∀ a ∈ l, ∀ x ∈ a.cps, S x) ∧ (s.map F).splitAtMany (zs.map G) d = .ok (l.map (Spline.map F)) := by
  have sorted : ∀ {zs : List K}, (∀ z ∈ zs, ∀ z' ∈ zs, z < z' ↔ G z < G z') → Spline.isSorted (zs.map G) = Spline.isSorted zs := by
    intro zs
    induction zs with
    | nil => intro; rfl
    | cons a l ih =>
      intro hlt
      cases l with
      | nil => rfl
      | cons b l =>
        have := ih fun z hz z' hz' => hlt z (by simp [hz]) z' (by simp [hz'])
        simp only [List.map_cons] at this ⊢
        rw [Spline.isSorted, Spline.isSorted, this, Bool.decide_congr (hlt b (by simp) a (by simp))]
  have inRange : ∀ {t : Spline V} {z : K} {x}, t.splitAt z d = .ok x → 0 < z ∧ z < 1 := by
    intro t z x h
    unfold Spline.splitAt at h
    split at h
    · cases h
    · rename_i hz; exact not_not.mp hz
  unfold Spline.splitAtMany at h ⊢
  rw [sorted hlt]
  split at h
  · cases h
  rename_i hso
  rw [if_neg hso]
  split at h
  · rename_i h0
    cases h
    rw [if_pos (by simpa using h0)]
    refine ⟨?_, rfl⟩
    intro a ha
    rw [List.mem_singleton] at ha
    rw [ha]; exact hs
  rename_i hn
  rw [if_neg (by simpa using hn), List.length_map]
  obtain ⟨z0, e0, h⟩ := bind_eq_ok.mp h
  obtain ⟨⟨a, b⟩, e1, h⟩ := bind_eq_ok.mp h
  obtain ⟨r, er, h⟩ := bind_eq_ok.mp h
  cases h
  obtain ⟨r1, r2⟩ := inRange e1
  obtain ⟨q1, q2⟩ := hq0 _ (mem_rd e0) r1 r2
  obtain ⟨⟨ha, hb⟩, e1'⟩ := Spline.splitAt_local hS hF q1 q2 hs e1
  obtain ⟨key, e⟩ := loopFrom_both
    (fun r : List (Spline V) × (Spline V × Spline V) => (r.1.map (Spline.map F), (r.2.1.map F, r.2.2.map F)))
    (fun r : List (Spline V) × (Spline V × Spline V) => (∀ a ∈ r.1, ∀ x ∈ a.cps, S x) ∧ ∀ x ∈ r.2.2.cps, S x) er ⟨by
      intro c hc; rw [List.mem_singleton] at hc; rw [hc]; exact ha, hb⟩
    (f' := fun i (r : List (Spline V') × (Spline V' × Spline V')) => do
      let z ← rd (zs.map G) i
      let zp ← rd (zs.map G) (i - 1)
      let rel := (z - zp) / (1 - zp)
      let sp ← r.2.2.splitAt rel d
      pure (r.1 ++ [sp.1], sp)) (by
      intro i _ _ r r' hr e
      obtain ⟨z, ez, e⟩ := bind_eq_ok.mp e
      obtain ⟨z', ez', e⟩ := bind_eq_ok.mp e
      obtain ⟨⟨a, b⟩, e1, e⟩ := bind_eq_ok.mp e
      cases e
      obtain ⟨r1, r2⟩ := inRange e1
      obtain ⟨q1, q2, q3⟩ := hq _ (mem_rd ez) _ (mem_rd ez') r1 r2
      obtain ⟨⟨ha, hb⟩, e1'⟩ := Spline.splitAt_local hS hF q1 q3 hr.2 e1
      refine ⟨⟨fun c hc => ?_, hb⟩, ?_⟩
      · rcases List.mem_append.mp hc with h1 | h1
        · exact hr.1 c h1
        · rw [List.mem_singleton] at h1; rw [h1]; exact ha
      · dsimp only
        rw [rd_map ez, bind_ok, rd_map ez', bind_ok, ← q2, e1', bind_ok, List.map_append]
        rfl)
  refine ⟨?_, ?_⟩
  · intro c hc
    rcases List.mem_append.mp hc with h1 | h1
    · exact key.1 c h1
    · rw [List.mem_singleton] at h1; rw [h1]; exact key.2
  · rw [rd_map e0, bind_ok, e1', bind_ok]
    dsimp only at e ⊢
    rw [show [Spline.map F a] = [a].map (Spline.map F) from rfl, e, bind_ok, List.map_append]
    rfl

theorem Spline.orderElevate_local [Mul K] [Div K] [NatCast K] [Zero V] [Mul K'] [Div K'] [NatCast K'] [Zero V'] (hF0 : F 0 = 0)
    {s r : Spline V} {d p : ℕ} (hp : s.degrees[d]? = some p)
    (hs : ∀ x ∈ s.cps, S x) (h0 : S 0) (hq : ∀ i : ℕ, i ≤ p → Q ((i : K) * (1 / ((p + 1 : ℕ) : K))) ∧
      G ((i : K) * (1 / ((p + 1 : ℕ) : K))) = (i : K') * (1 / ((p + 1 : ℕ) : K')))
    (h : Spline.orderElevate K s d = .ok r) : (∀ x ∈ r.cps, S x) ∧ Spline.orderElevate K' (s.map F) d = .ok (r.map F) := by
  unfold Spline.orderElevate at h ⊢
  rw [show (s.map F).degrees = s.degrees from rfl, show (s.map F).offsets = s.offsets from rfl, show (s.map F).ncp = s.ncp from rfl]
  rw [rd_ok hp] at h ⊢
  simp only [bind_ok] at h ⊢
  obtain ⟨off, e1, h⟩ := bind_eq_ok.mp h
  obtain ⟨n1, e2, h⟩ := bind_eq_ok.mp h
  obtain ⟨n2, e3, h⟩ := bind_eq_ok.mp h
  obtain ⟨n3, e4, h⟩ := bind_eq_ok.mp h
  obtain ⟨n4, e5, h⟩ := bind_eq_ok.mp h
  obtain ⟨dg, e6, h⟩ := bind_eq_ok.mp h
  obtain ⟨gi, e7, h⟩ := bind_eq_ok.mp h
  obtain ⟨st, hst, h⟩ := bind_eq_ok.mp h
  obtain ⟨os, e8, h⟩ := bind_eq_ok.mp h
  cases h
  rw [e1, bind_ok, e2, bind_ok, e3, bind_ok, e4, bind_ok, e5, bind_ok, e6, bind_ok, e7, bind_ok]
  let φ : List V × ℕ → List V' × ℕ := fun st => (st.1.map F, st.2)
  let I : List V × ℕ → Prop := fun st => ∀ x ∈ st.1, S x
  have store : ∀ (value : List V → M V) (value' : List V' → M V') (st st' : List V × ℕ), I st →
      (∀ mem x, (∀ x ∈ mem, S x) → value mem = .ok x → S x ∧ value' (mem.map F) = .ok (F x)) → Spline.elevStore value st = .ok st' →
      I st' ∧ Spline.elevStore value' (φ st) = .ok (φ st') := by
    intro value value' st st' hst hv h
    unfold Spline.elevStore at h ⊢
    obtain ⟨x, hx, h⟩ := bind_eq_ok.mp h
    obtain ⟨m, hm, h⟩ := bind_eq_ok.mp h
    cases h
    obtain ⟨v1, v2⟩ := hv _ _ hst hx
    exact ⟨mem_wr hm hst v1, by rw [show (φ st).1 = st.1.map F from rfl, v2, bind_ok, show (φ st).2 = st.2 from rfl, wr_map hm]; rfl⟩
  have main := loopDown_both φ I hst (f' := fun group_index (st : List V' × Nat) => do
    let first ← narrow (group_index * n2)
    let st ← loopDown n3 (fun k st => Spline.elevStore (fun mem => rd mem (first + k + off * p)) st) st
    let st ← loopDown p (fun i' st =>
      let i := i' + 1
      loopDown n3 (fun k st =>
        let factor : K' := (i : K') * (1 / ((p + 1 : ℕ) : K'))
        Spline.elevStore (fun mem => do
          let a ← rd mem (first + k + off * i)
          let b ← rd mem (first + k + off * (i - 1))
          pure ((1 - factor) • a + factor • b)) st) st) st
    loopDown n3 (fun k st => Spline.elevStore (fun mem => rd mem (first + k)) st) st) ?_ ?_
  rotate_left
  · intro x hx
    rcases List.mem_append.mp hx with hx | hx
    · exact hs x (List.mem_of_mem_take hx)
    · rw [(List.mem_replicate.mp hx).2]; exact h0
  · intro g _ st st' hst hg
    obtain ⟨f, ef, hg⟩ := bind_eq_ok.mp hg
    obtain ⟨st1, h1, hg⟩ := bind_eq_ok.mp hg
    obtain ⟨st2, h2, hg⟩ := bind_eq_ok.mp hg
    dsimp only
    rw [ef, bind_ok]
    obtain ⟨i1, g1⟩ := loopDown_both φ I h1 hst (f' := fun k st => Spline.elevStore (fun mem => rd mem (f + k + off * p)) st)
      fun k _ st st' hst hk => store _ _ _ _ hst (fun mem x hm hx => ⟨hm x (mem_rd hx), rd_map hx⟩) hk
    rw [g1, bind_ok]
    obtain ⟨i2, g2⟩ := loopDown_both φ I h2 i1 (f' := fun i' st =>
      loopDown n3 (fun k st =>
        Spline.elevStore (fun mem => do
          let a ← rd mem (f + k + off * (i' + 1))
          let b ← rd mem (f + k + off * (i' + 1 - 1))
          pure ((1 - ((i' + 1 : ℕ) : K') * (1 / ((p + 1 : ℕ) : K'))) • a + (((i' + 1 : ℕ) : K') * (1 / ((p + 1 : ℕ) : K'))) • b)) st) st)
      fun i hi st st' hst hk => loopDown_both φ I hk hst fun k _ st st' hst hk =>
        store _ _ _ _ hst (fun mem x hm hx => by
          obtain ⟨a, ha, hx⟩ := bind_eq_ok.mp hx
          obtain ⟨b, hb, hx⟩ := bind_eq_ok.mp hx
          cases hx
          obtain ⟨q1, q2⟩ := hq (i + 1) (by omega)
          refine ⟨hS _ _ _ q1 (hm a (mem_rd ha)) (hm b (mem_rd hb)), ?_⟩
          rw [rd_map ha, bind_ok, rd_map hb, bind_ok, hF _ _ _ q1 (hm a (mem_rd ha)) (hm b (mem_rd hb)), q2]
          rfl) hk
    rw [g2, bind_ok]
    exact loopDown_both φ I hg i2 fun k _ st st' hst hk =>
      store _ _ _ _ hst (fun mem x hm hx => ⟨hm x (mem_rd hx), rd_map hx⟩) hk
  obtain ⟨m1, m2⟩ := main
  refine ⟨m1, ?_⟩
  have er : resize (s.map F).cps (s.ncp / (p + 1) * (p + 2)) = (resize s.cps (s.ncp / (p + 1) * (p + 2))).map F := by
    show resize (s.cps.map F) _ = _
    unfold resize
    rw [List.map_append, List.map_take, List.map_replicate, hF0, List.length_map]
  rw [er]
  dsimp only [φ] at m2
  rw [m2, bind_ok, e8]
  rfl

end
end Bezman
