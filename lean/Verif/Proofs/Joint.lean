import Verif.Proofs.Casteljau

/-! # Values along a joint, in any arithmetic -/

namespace Bezman
open Spec

variable {K V : Type}

theorem mem_rd {α : Type} {l : List α} {i : ℕ} {x : α} (h : rd l i = .ok x) : x ∈ l :=
  List.mem_of_getElem? (rd_ok_iff.mp h)

theorem mem_wr {α : Type} {S : α → Prop} {l m : List α} {i : ℕ} {v : α} (h : wr l i v = .ok m) (hl : ∀ x ∈ l, S x) (hv : S v) :
    ∀ x ∈ m, S x := by
  unfold wr at h
  split at h
  · cases h
    intro x hx
    rcases List.mem_or_eq_of_mem_set hx with h1 | h1
    · exact hl x h1
    · rw [h1]; exact hv
  · cases h

theorem insertIdx_split {α : Type} {x : α} : ∀ {l : List α} {n : ℕ}, n ≤ l.length → l.insertIdx n x = l.take n ++ x :: l.drop n
  | l, 0, _ => by simp
  | [], n + 1, h => by simp at h
  | a :: l, n + 1, h => by
    rw [List.insertIdx_succ_cons, insertIdx_split (by simpa using h)]; rfl

section
variable [Zero K] [One K] [Sub K] [Add V] [SMul K V] {S : V → Prop}

/-- the halves consist of interpolated points -/
theorem Spline.splitAt_closed [LT K] [DecidableLT K] {Q : K → Prop} (hS : ∀ (t : K) (a b : V), Q t → S a → S b → S ((1 - t) • a + t • b))
    {s a b : Spline V} {z : K} {d : ℕ} (hq : 0 < z → z < 1 → Q z) (hs : ∀ x ∈ s.cps, S x)
    (h : s.splitAt z d = .ok (a, b)) : (∀ x ∈ a.cps, S x) ∧ ∀ x ∈ b.cps, S x := by
  unfold Spline.splitAt at h
  split at h
  · cases h
  rename_i hz
  rw [not_not] at hz
  obtain ⟨p, ep, h⟩ := bind_eq_ok.mp h
  obtain ⟨off, eo, h⟩ := bind_eq_ok.mp h
  obtain ⟨r, er, h⟩ := bind_eq_ok.mp h
  cases h
  refine loop_ok (P := fun _ (r : List V × List V) => (∀ x ∈ r.1, S x) ∧ ∀ x ∈ r.2, S x) er ⟨hs, hs⟩ ?_
  intro k hk r r' hr e
  obtain ⟨g, eg, e⟩ := bind_eq_ok.mp e
  obtain ⟨g', eg', e⟩ := bind_eq_ok.mp e
  refine loopFrom_ok (P := fun _ (r : List V × List V) => (∀ x ∈ r.1, S x) ∧ ∀ x ∈ r.2, S x) (by omega) e hr ?_
  intro i hi1 hi2 r r' hr e
  obtain ⟨f, ef, e⟩ := bind_eq_ok.mp e
  have hf : ∀ x ∈ f, S x := by
    refine loop_ok (P := fun _ (m : List V) => ∀ x ∈ m, S x) ef hr.1 ?_
    intro j hj m m' hm e
    obtain ⟨x, ex, e⟩ := bind_eq_ok.mp e
    obtain ⟨y, ey, e⟩ := bind_eq_ok.mp e
    exact mem_wr e hm (hS _ _ _ (hq hz.1 hz.2) (hm _ (mem_rd ex)) (hm _ (mem_rd ey)))
  obtain ⟨x, ex, e⟩ := bind_eq_ok.mp e
  obtain ⟨m, em, e⟩ := bind_eq_ok.mp e
  cases e
  exact ⟨hf, mem_wr em hr.2 (hf _ (mem_rd ex))⟩

theorem Spline.splitAtMany_closed [LT K] [DecidableLT K] [Div K] {Q : K → Prop}
    (hS : ∀ (t : K) (a b : V), Q t → S a → S b → S ((1 - t) • a + t • b)) {s : Spline V} {zs : List K} {d : ℕ} {l : List (Spline V)}
    (hq0 : ∀ z ∈ zs, 0 < z → z < 1 → Q z) (hq : ∀ z z' : K, 0 < (z - z') / (1 - z') → (z - z') / (1 - z') < 1 → Q ((z - z') / (1 - z')))
    (hs : ∀ x ∈ s.cps, S x) (h : s.splitAtMany zs d = .ok l) : ∀ a ∈ l, ∀ x ∈ a.cps, S x := by
  unfold Spline.splitAtMany at h
  split at h
  · cases h
  split at h
  · cases h
    intro a ha
    rw [List.mem_singleton] at ha
    rw [ha]; exact hs
  rename_i hn
  obtain ⟨z0, e0, h⟩ := bind_eq_ok.mp h
  obtain ⟨⟨a, b⟩, e1, h⟩ := bind_eq_ok.mp h
  obtain ⟨r, er, h⟩ := bind_eq_ok.mp h
  cases h
  obtain ⟨ha, hb⟩ := Spline.splitAt_closed hS (hq0 _ (mem_rd e0)) hs e1
  have key := loopFrom_ok (P := fun _ (r : List (Spline V) × (Spline V × Spline V)) =>
    (∀ a ∈ r.1, ∀ x ∈ a.cps, S x) ∧ ∀ x ∈ r.2.2.cps, S x) (by omega) er ⟨by
      intro c hc; rw [List.mem_singleton] at hc; rw [hc]; exact ha, hb⟩ (by
      intro i _ _ r r' hr e
      obtain ⟨z, ez, e⟩ := bind_eq_ok.mp e
      obtain ⟨z', ez', e⟩ := bind_eq_ok.mp e
      obtain ⟨⟨a, b⟩, e1, e⟩ := bind_eq_ok.mp e
      cases e
      obtain ⟨ha, hb⟩ := Spline.splitAt_closed hS (hq _ _) hr.2 e1
      refine ⟨fun c hc => ?_, hb⟩
      rcases List.mem_append.mp hc with h1 | h1
      · exact hr.1 c h1
      · rw [List.mem_singleton] at h1; rw [h1]; exact ha)
  intro c hc
  rcases List.mem_append.mp hc with h1 | h1
  · exact key.1 c h1
  · rw [List.mem_singleton] at h1; rw [h1]; exact key.2

theorem Spline.WF.exists_net {s : Spline V} (h : s.WF) (hs : ∀ x ∈ s.cps, S x) :
    ∃ P : List ℕ → V, (∀ idx, ValidIdx s.degrees idx → s.controlPoint idx = .ok (P idx)) ∧
      ∀ idx, ValidIdx s.degrees idx → S (P idx) := by
  obtain ⟨F, hF⟩ := h.exists_tab
  have e : ∀ idx, ValidIdx s.degrees idx → s.controlPoint idx = .ok (F (flatIndex s.degrees idx)) := fun idx hi => by
    rw [Spline.controlPoint_rd h hi.length, hF, rd_tab F (flatIndex_lt hi)]
  refine ⟨fun idx => F (flatIndex s.degrees idx), e, fun idx hi => ?_⟩
  have := e idx hi
  rw [Spline.controlPoint_rd h hi.length] at this
  exact hs _ (mem_rd this)

theorem validIdx_insert {l r idx : List ℕ} {p i : ℕ} (hi : i ≤ p) (h : ValidIdx (l ++ r) idx) :
    ValidIdx (l ++ p :: r) (idx.insertIdx l.length i) := by
  have hl := h.length
  rw [List.length_append] at hl
  have e : idx = idx.take l.length ++ idx.drop l.length := (List.take_append_drop _ _).symm
  have hl2 : (idx.take l.length).length = l.length := by simp; omega
  rw [e, validIdx_append hl2] at h
  have : idx.insertIdx l.length i = idx.take l.length ++ i :: idx.drop l.length := by
    rw [insertIdx_split (by omega)]
  rw [this, validIdx_append hl2, validIdx_cons]
  exact ⟨h.1, hi, h.2⟩

variable (hS : ∀ (t : K) (a b : V), S a → S b → S ((1 - t) • a + t • b)) (h0 : ∀ a b : V, S a → S b → ((1 : K) - 0) • a + (0 : K) • b = a)
  (h1 : ∀ a b : V, S a → S b → ((1 : K) - 1) • a + (1 : K) • b = b)

include hS h0 h1 in
theorem casteljau_edge {l r : List ℕ} {p i : ℕ} {x : K} {l' r' : List K} (hl : l'.length = l.length) (hr : r'.length = r.length)
    (he : (i = 0 ∧ x = 0) ∨ (i = p ∧ x = 1)) {P : List ℕ → V} (hP : ∀ idx, ValidIdx (l ++ p :: r) idx → S (P idx)) :
    casteljau (l ++ p :: r) (l' ++ x :: r') P = casteljau (l ++ r) (l' ++ r') (fun idx => P (idx.insertIdx l.length i)) := by
  rcases he with ⟨rfl, rfl⟩ | ⟨rfl, rfl⟩
  · exact casteljau_start hS h0 hr hl hP
  · exact casteljau_end hS h1 hr hl hP

include hS h0 h1 in
theorem Spline.evaluate_joint {a b : Spline V} (ha : a.WF) (hb : b.WF) (hSa : ∀ x ∈ a.cps, S x) (hSb : ∀ x ∈ b.cps, S x)
    {d p q i j : ℕ} {x y : K} (hp : a.degrees[d]? = some p) (hq : b.degrees = a.degrees.set d q)
    (hi : (i = 0 ∧ x = 0) ∨ (i = p ∧ x = 1)) (hj : (j = 0 ∧ y = 0) ∨ (j = q ∧ y = 1))
    (hl : Spline.SameLayer a.degrees d i j a b) {t : List K} (ht : t.length = a.dim) :
    ∃ v, a.evaluate (t.set d x) = .ok v ∧ b.evaluate (t.set d y) = .ok v := by
  obtain ⟨P, eP, hP⟩ := ha.exists_net hSa
  obtain ⟨Q, eQ, hQ⟩ := hb.exists_net hSb
  have hd : d < a.degrees.length := (List.getElem?_eq_some_iff.mp hp).1
  have htd : d < t.length := by rw [ht]; exact hd
  have e1 := Spline.evaluate_casteljau ha (t := t.set d x) (by simpa using ht) eP
  have e2 := Spline.evaluate_casteljau hb (t := t.set d y) (by
    rw [List.length_set, ht, Spline.dim, Spline.dim, hq, List.length_set]) eQ
  refine ⟨_, e1, ?_⟩
  rw [e2]
  congr 1
  set l := a.degrees.take d with hl'
  set r := a.degrees.drop (d + 1) with hr'
  have ea : a.degrees = l ++ p :: r := list_split hp
  have eb : b.degrees = l ++ q :: r := by rw [hq, set_split hp]
  have hll : l.length = d := by simp [hl']; omega
  have htx : t[d]? = some t[d] := List.getElem?_eq_getElem htd
  have ht' : t.length = a.degrees.length := ht
  rw [set_split htx, set_split htx]
  rw [ea] at hP ht'
  rw [eb] at hQ
  rw [ea, eb]
  have hlen1 : (t.take d).length = l.length := by simp; omega
  have hlen2 : (t.drop (d + 1)).length = r.length := by
    rw [List.length_drop, ht']; simp; omega
  rw [casteljau_edge hS h0 h1 hlen1 hlen2 hi hP, casteljau_edge hS h0 h1 hlen1 hlen2 hj hQ]
  refine (casteljau_congr (by simp [hlen1, hlen2]) fun idx hidx => ?_).symm
  have hv0 := validIdx_insert (p := p) (i := 0) (Nat.zero_le _) hidx
  have hip : i ≤ p := by rcases hi with ⟨rfl, _⟩ | ⟨rfl, _⟩ <;> omega
  have hjq : j ≤ q := by rcases hj with ⟨rfl, _⟩ | ⟨rfl, _⟩ <;> omega
  have hvi := validIdx_insert (p := p) (i := i) hip hidx
  have hvj := validIdx_insert (p := q) (i := j) hjq hidx
  have hset : ∀ k, (idx.insertIdx l.length 0).set d k = idx.insertIdx l.length k := by
    intro k
    have hle : l.length ≤ idx.length := by rw [hidx.length]; simp
    rw [insertIdx_split hle, insertIdx_split hle]
    have : d = (idx.take l.length).length := by simp; omega
    rw [List.set_append_right _ _ (by omega)]
    simp [← this]
  rw [ea] at hl
  obtain ⟨v, f1, f2⟩ := hl _ hv0
  rw [hset] at f1 f2
  rw [eP _ (by rw [ea]; exact hvi)] at f1
  rw [eQ _ (by rw [eb]; exact hvj)] at f2
  rw [Except.ok.inj f1, Except.ok.inj f2]

end
end Bezman
