import Verif.Proofs.Bend
import Verif.Props.Converge

/-! # Properties: control points are near to the points they stand for, and the distance shrinks with the square of the parts -/

namespace Bezman
open Spec Finset
variable {K V : Type} [Field K] [LinearOrder K] [IsStrictOrderedRing K] [AddCommGroup V] [Module K V] {N : V → K}

/-- second differences of a net -/
def NetBends (N : V → K) (ps : List ℕ) (P : List ℕ → V) (M : ℕ → K) : Prop :=
  ∀ (d p : ℕ), ps[d]? = some p → ∀ idx, ValidIdx ps idx → ∀ j, j + 2 ≤ p → p * ((p : K) - 1) * N (bend (fun i => P (idx.set d i)) j) ≤ M d

omit [LinearOrder K] [IsStrictOrderedRing K] in
theorem triangle_bend (t : K) (F : ℕ → ℕ → V) (r a j : ℕ) :
    bend (fun i => triangle t (F i) r a) j = triangle t (fun m => bend (fun i => F i m) j) r a := by
  unfold bend
  rw [triangle_sub, triangle_sub, triangle_sub]

theorem coeff_nonneg (p : ℕ) : (0 : K) ≤ p * ((p : K) - 1) := by
  rcases Nat.eq_zero_or_pos p with rfl | h
  · simp
  · have : (1 : K) ≤ p := by exact_mod_cast h
    exact mul_nonneg (by linarith) (by linarith)

theorem NetBends.head {p : ℕ} {ps : List ℕ} {P : List ℕ → V} {M : ℕ → K} (h : NetBends N (p :: ps) P M) {idx : List ℕ}
    (hv : ValidIdx ps idx) : ∀ j, j + 2 ≤ p → p * ((p : K) - 1) * N (bend (fun i => P (i :: idx)) j) ≤ M 0 :=
  fun j hj => h 0 p rfl (0 :: idx) (.cons (Nat.zero_le _) hv) j hj

theorem NetBends.collapse (hN : IsLength N) {p : ℕ} {ps : List ℕ} {P : List ℕ → V} {M : ℕ → K} (h : NetBends N (p :: ps) P M) {t : K}
    (h0 : 0 ≤ t) (h1 : t ≤ 1) : NetBends N ps (fun idx => triangle t (fun i => P (i :: idx)) p 0) (fun d => M (d + 1)) := by
  intro d q hq idx hv j hj
  dsimp only
  rw [triangle_bend t (fun i m => P (m :: idx.set d i))]
  exact hN.triangle (coeff_nonneg q) h0 h1 fun m _ hm => h (d + 1) q hq (m :: idx) (.cons (by omega) hv) j hj

/-- a control point and the value at its parameter -/
theorem net_bend_value (hN : IsLength N) : ∀ {ps : List ℕ} {P : List ℕ → V} {M : ℕ → K}, (∀ d < ps.length, 0 ≤ M d) → NetBends N ps P M →
    ∀ {idx : List ℕ}, ValidIdx ps idx →
      N (P idx - casteljau ps (parameterOf K ps idx) P) ≤ ∑ d ∈ range ps.length, bendShare (M d) 1 (ps.getD d 0)
  | [], P, M, _, _, idx, hv => by
    cases hv
    simp [casteljau, hN.zero]
  | p :: ps, P, M, hM, h, idx, hv => by
    cases hv with | @cons k _ ks _ hk hv =>
    have ht0 : (0 : K) ≤ (k : K) / p := by positivity
    have ht1 : (k : K) / p ≤ 1 := div_le_one_of_le₀ (by exact_mod_cast hk) (Nat.cast_nonneg _)
    have a2 := net_bend_value hN (M := fun d => M (d + 1)) (fun d hd => hM (d + 1) (by simpa using hd)) (h.collapse hN ht0 ht1) hv
    have hM0 := hM 0 (by simp)
    have a1 : N (P (k :: ks) - triangle ((k : K) / p) (fun i => P (i :: ks)) p 0) ≤ bendShare (M 0) 1 p := by
      have pos : 2 ≤ p → (0 : K) < p ∧ (0 : K) < (p : K) - 1 := fun hp => by
        have : (2 : K) ≤ p := by exact_mod_cast hp
        exact ⟨by linarith, by linarith⟩
      have := bend_value hN (D := M 0 / (p * ((p : K) - 1))) (P := fun i => P (i :: ks)) (p := p) (k := k)
        (fun hp => div_nonneg hM0 (coeff_nonneg p)) hk (fun j hj => by
          obtain ⟨p0, p1⟩ := pos (by omega)
          rw [le_div_iff₀ (mul_pos p0 p1), mul_comm]
          exact h.head hv j hj)
      refine this.trans (le_of_eq ?_)
      unfold bendShare
      split_ifs with hp
      · rfl
      · obtain ⟨p0, p1⟩ := pos (by omega)
        have := p0.ne'
        have := p1.ne'
        field_simp
    have a3 := hN.add_le (P (k :: ks) - triangle ((k : K) / p) (fun i => P (i :: ks)) p 0)
      (triangle ((k : K) / p) (fun i => P (i :: ks)) p 0 - casteljau ps (parameterOf K ps ks) (fun idx => triangle ((k : K) / p) (fun i => P (i :: idx)) p 0))
    rw [sub_add_sub_cancel] at a3
    rw [List.length_cons, sum_range_succ']
    exact a3.trans (by rw [add_comm]; exact add_le_add a2 a1)

namespace Props

omit [IsStrictOrderedRing K] in
theorem bendBound_iff {s : Spline V} {P : List ℕ → V} (hP : HasPoints s P) {M : ℕ → K} :
    (∀ d < s.degrees.length, BendBound N s d (M d)) ↔ NetBends N s.degrees P M := by
  constructor
  · intro h d p hp idx hv j hj
    exact h d (List.getElem?_eq_some_iff.mp hp).1 idx p j _ _ _ hp hj (valid_set hv hp (by omega)) (hP _ (valid_set hv hp (by omega)))
      (hP _ (valid_set hv hp (by omega))) (hP _ (valid_set hv hp (by omega)))
  · intro h d _ idx p j x y z hp hj hv hx hy hz
    have hv1 : ∀ i ≤ p, ValidIdx s.degrees (idx.set d i) := fun i hi => by
      have := valid_set hv hp hi
      rwa [List.set_set] at this
    rw [hP _ (hv1 _ (by omega))] at hx hy hz
    obtain rfl := Except.ok.inj hx
    obtain rfl := Except.ok.inj hy
    obtain rfl := Except.ok.inj hz
    have := h d p hp _ hv j hj
    simpa only [bend, List.set_set] using this

theorem getD_set_same {idx : List ℕ} {d i : ℕ} (h : d < idx.length) : (idx.set d i).getD d 0 = i := by
  simp [List.getD_eq_getElem?_getD, h]

theorem getD_set_other {idx : List ℕ} {d e i : ℕ} (h : e ≠ d) : (idx.set e i).getD d 0 = idx.getD d 0 := by
  simp [List.getD_eq_getElem?_getD, List.getElem?_set, h]

theorem split_bends (hN : IsLength N) {ps : List ℕ} {P : List ℕ → V} {M : ℕ → K} (h : NetBends N ps P M) {d p : ℕ} (hp : ps[d]? = some p)
    {z : K} (h0 : 0 ≤ z) (h1 : z ≤ 1) :
    NetBends N ps (fun idx => triangle z (fun j => P (idx.set d j)) (idx.getD d 0) 0) (fun e => M e * if e = d then z ^ 2 else 1) ∧
    NetBends N ps (fun idx => triangle z (fun j => P (idx.set d j)) (p - idx.getD d 0) (idx.getD d 0))
      (fun e => M e * if e = d then (1 - z) ^ 2 else 1) := by
  have cross : ∀ {e q : ℕ} {idx : List ℕ}, e ≠ d → ps[e]? = some q → ValidIdx ps idx → ∀ j, j + 2 ≤ q → ∀ m ≤ p,
      q * ((q : K) - 1) * N (bend (fun i => P ((idx.set e i).set d m)) j) ≤ M e := by
    intro e q idx he hq hv j hj m hm
    have := h e q hq (idx.set d m) (valid_set hv hp hm) j hj
    simpa only [List.set_comm _ _ he.symm] using this
  constructor <;> intro e q hq idx hv j hj <;> dsimp only
  · by_cases he : e = d
    · subst he
      obtain rfl : p = q := Option.some.inj (hp.symm.trans hq)
      rw [if_pos rfl]
      simp only [List.set_set, getD_set_same (getD_le hv hp).1]
      exact left_bend hN (coeff_nonneg p) h0 h1 (P := fun j => P (idx.set e j)) fun i hi => h e p hp idx hv i (by omega)
    · rw [if_neg he, mul_one]
      simp only [getD_set_other he]
      rw [triangle_bend z (fun i m => P ((idx.set e i).set d m))]
      have := (getD_le hv hp).2
      exact hN.triangle (coeff_nonneg q) h0 h1 fun m _ hm => cross he hq hv j hj m (by omega)
  · by_cases he : e = d
    · subst he
      obtain rfl : p = q := Option.some.inj (hp.symm.trans hq)
      rw [if_pos rfl]
      simp only [List.set_set, getD_set_same (getD_le hv hp).1]
      exact right_bend hN (coeff_nonneg p) h0 h1 (P := fun j => P (idx.set e j)) hj fun i hi => h e p hp idx hv i hi
    · rw [if_neg he, mul_one]
      simp only [getD_set_other he]
      rw [triangle_bend z (fun i m => P ((idx.set e i).set d m))]
      have := (getD_le hv hp).2
      exact hN.triangle (coeff_nonneg q) h0 h1 fun m _ hm => cross he hq hv j hj m (by omega)

theorem elevate_bends (hN : IsLength N) {ps : List ℕ} {P : List ℕ → V} {M : ℕ → K} (h : NetBends N ps P M) {d p : ℕ} (hM : 0 ≤ M d)
    (hp : ps[d]? = some p) :
    NetBends N (ps.set d (p + 1)) (fun idx => elevationOf K p (fun j => P (idx.set d j)) (idx.getD d 0)) M := by
  have hp' : (ps.set d (p + 1))[d]? = some (p + 1) := by
    rw [List.getElem?_set, if_pos rfl, if_pos (List.getElem?_eq_some_iff.mp hp).1]
  have back : ∀ {idx : List ℕ}, ValidIdx (ps.set d (p + 1)) idx → ∀ {j}, j ≤ p → ValidIdx ps (idx.set d j) := by
    intro idx hv j hj
    have hl : idx.length = ps.length := by have := List.Forall₂.length_eq hv; simpa using this
    refine List.forall₂_iff_get.mpr ⟨by simpa using hl, fun i h1 h2 => ?_⟩
    have := (List.forall₂_iff_get.mp hv).2 i (by simpa using h1) (by simpa using h2)
    simp only [List.get_eq_getElem, List.getElem_set] at this ⊢
    split
    · subst_vars
      rw [List.getElem?_eq_getElem h2] at hp
      obtain rfl := Option.some.inj hp
      exact hj
    · rw [if_neg (by assumption)] at this; exact this
  intro e q hq idx hv j hj
  dsimp only
  by_cases he : e = d
  · subst he
    obtain rfl : p + 1 = q := Option.some.inj (hp'.symm.trans hq)
    simp only [List.set_set, getD_set_same (getD_le hv hp').1]
    refine elevate_bend hN (P := fun j => P (idx.set e j)) hM hj fun i hi => ?_
    have := h e p hp _ (back hv (Nat.zero_le p)) i hi
    simpa only [List.set_set] using this
  · simp only [getD_set_other he]
    have hq' : ps[e]? = some q := by rw [List.getElem?_set, if_neg (Ne.symm he)] at hq; exact hq
    have e1 : bend (fun i => elevationOf K p (fun m => P ((idx.set e i).set d m)) (idx.getD d 0)) j =
        elevationOf K p (fun m => bend (fun i => P ((idx.set e i).set d m)) j) (idx.getD d 0) := by
      unfold bend
      rw [elevation_sub, elevation_sub, elevation_sub]
    rw [e1]
    refine elevation_le hN (coeff_nonneg q) (getD_le hv hp').2 fun m hm => ?_
    have := h e q hq' (idx.set d m) (back hv hm) j hj
    simpa only [List.set_comm _ _ (Ne.symm he)] using this

theorem netBends_congr {ps : List ℕ} {P Q : List ℕ → V} {M M' : ℕ → K} (h : NetBends N ps P M) (hPQ : ∀ idx, ValidIdx ps idx → Q idx = P idx)
    (hM : ∀ d < ps.length, M d = M' d) : NetBends N ps Q M' := by
  intro d p hp idx hv j hj
  have := h d p hp idx hv j hj
  unfold bend at this ⊢
  dsimp only at this ⊢
  rwa [hPQ _ (valid_set hv hp (by omega)), hPQ _ (valid_set hv hp (by omega)), hPQ _ (valid_set hv hp (by omega)),
    ← hM d (List.getElem?_eq_some_iff.mp hp).1]

/-- both parts of a split, with what they compute -/
theorem splitAt_bends (hN : IsLength N) {s : Spline V} {ds : List ℕ} {f : List K → V} (hs : s.Computes ds f) {M : ℕ → K}
    (h : NetBends N ds s.cp M) {d : ℕ} (hd : d < ds.length) {z : K} (h0 : 0 < z) (h1 : z < 1) :
    ∃ a b, s.splitAt z d = .ok (a, b) ∧ a.Computes ds (fun t => f (t.modify d (fun x => z * x))) ∧
      b.Computes ds (fun t => f (t.modify d (fun x => z + (1 - z) * x))) ∧
      NetBends N ds a.cp (fun e => M e * if e = d then z ^ 2 else 1) ∧ NetBends N ds b.cp (fun e => M e * if e = d then (1 - z) ^ 2 else 1) := by
  obtain ⟨a, b, e, ca, cb⟩ := C31_split s ds f hs d hd z h0 h1
  have hdeg := hs.degrees_eq
  subst hdeg
  obtain ⟨a', b', e', _, _, pa, pb⟩ := C90_split s hs.wf d s.degrees[d] (List.getElem?_eq_getElem hd) z ⟨h0, h1⟩ s.cp (hasPoints_cp hs.wf)
  rw [e] at e'
  obtain ⟨rfl, rfl⟩ : a = a' ∧ b = b' := by simpa using Except.ok.inj e'
  obtain ⟨k1, k2⟩ := split_bends hN h (List.getElem?_eq_getElem hd) h0.le h1.le
  refine ⟨a, b, e, ca, cb, netBends_congr k1 (fun idx hv => ?_) fun _ _ => rfl, netBends_congr k2 (fun idx hv => ?_) fun _ _ => rfl⟩
  · exact pa.cp ca.wf (by rw [ca.degrees_eq]; exact hv)
  · exact pb.cp cb.wf (by rw [cb.degrees_eq]; exact hv)

/-- the part over an interval -/
theorem restrict_bends (hN : IsLength N) {s r : Spline V} {ds : List ℕ} {f : List K → V} (hs : s.Computes ds f) {M : ℕ → K}
    (h : NetBends N ds s.cp M) {d : ℕ} (hd : d < ds.length) {u v : K} (h0 : 0 ≤ u) (h1 : u < v) (h2 : v ≤ 1)
    (hr : r.Computes ds (fun t => f (t.modify d (fun x => u + (v - u) * x)))) :
    NetBends N ds r.cp (fun e => M e * if e = d then (v - u) ^ 2 else 1) := by
  have right : ∃ b : Spline V, b.Computes ds (fun t => f (t.modify d (fun x => u + (1 - u) * x))) ∧
      NetBends N ds b.cp (fun e => M e * if e = d then (1 - u) ^ 2 else 1) := by
    rcases h0.eq_or_lt with rfl | h0
    · refine ⟨s, computes_congr hs fun t _ => ?_, netBends_congr h (fun _ _ => rfl) fun e _ => ?_⟩
      · congr 1
        simp only [sub_zero, one_mul, zero_add]
        exact List.modify_id ..
      · simp
    · obtain ⟨_, b, _, _, cb, _, k⟩ := splitAt_bends hN hs h hd h0 (by linarith)
      exact ⟨b, cb, k⟩
  obtain ⟨b, cb, kb⟩ := right
  rcases h2.eq_or_lt with rfl | h2
  · rw [hr.unique cb]; exact kb
  have hu : (0 : K) < 1 - u := by linarith
  obtain ⟨a, _, _, ca, _, ka, _⟩ := splitAt_bends hN cb kb hd (z := (v - u) / (1 - u)) (div_pos (by linarith) hu)
    (by rw [div_lt_one hu]; linarith)
  have : r = a := by
    refine hr.unique (computes_congr ca fun t _ => ?_)
    congr 1
    rw [List.modify_modify_eq]
    congr 1
    funext x
    simp only [Function.comp_apply]
    field_simp
  rw [this]
  refine netBends_congr ka (fun _ _ => rfl) fun e _ => ?_
  split_ifs
  · field_simp
  · ring

theorem part_len {s a : Spline V} (hs : s.WF) {box : List (K × K)} (h : PartOf s box a) :
    a.degrees.length = s.degrees.length ∧ box.length = s.degrees.length ∧ (∀ I ∈ box, 0 ≤ I.1 ∧ I.1 < I.2 ∧ I.2 ≤ 1) ∧
      ∃ f : List K → V, a.Computes a.degrees f := by
  have h0 : IsLength (fun _ : V => (0 : K)) := ⟨fun _ _ => by simp, fun _ _ => by simp⟩
  have := isPart h0 (L := fun _ => 0) (hs.computes (K := K)) (fun d _ => ⟨le_rfl, fun _ _ _ _ _ _ _ _ => by simp⟩) h
  exact ⟨this.len, this.box_len, this.box_ok, _, this.computes⟩

theorem part_bends_step (hN : IsLength N) {s a r : Spline V} (hs : s.WF) {M : ℕ → K} {box : List (K × K)} (h : PartOf s box a)
    (ih : NetBends N a.degrees a.cp (fun d => M d * width box d ^ 2)) {f : List K → V} (ca : a.Computes a.degrees f) {d : ℕ}
    (hd : d < s.degrees.length) {u v : K} (h0 : 0 ≤ u) (h1 : u < v) (h2 : v ≤ 1)
    (hr : r.Computes a.degrees (fun t => f (t.modify d (fun x => u + (v - u) * x)))) :
    NetBends N r.degrees r.cp (fun e => M e * width (box.modify d fun I => (I.1 + (I.2 - I.1) * u, I.1 + (I.2 - I.1) * v)) e ^ 2) := by
  obtain ⟨hl, hb, -, -⟩ := part_len hs h
  rw [hr.degrees_eq]
  refine netBends_congr (restrict_bends hN ca ih (by rw [hl]; exact hd) h0 h1 h2 hr) (fun _ _ => rfl) fun e he => ?_
  rw [width_modify (c := v - u) (by intro I; ring) (by rw [hb, ← hl]; exact he)]
  split_ifs <;> ring

theorem part_bends (hN : IsLength N) {s : Spline V} (hs : s.WF) {M : ℕ → K}
    (hM : ∀ d < s.degrees.length, 0 ≤ M d ∧ BendBound N s d (M d)) {box : List (K × K)} {a : Spline V} (h : PartOf s box a) :
    NetBends N a.degrees a.cp (fun d => M d * width box d ^ 2) := by
  induction h with
  | whole =>
    refine netBends_congr ((bendBound_iff (hasPoints_cp hs)).mp fun d hd => (hM d hd).2) (fun _ _ => rfl) fun d hd => ?_
    have : width (List.replicate s.degrees.length ((0 : K), (1 : K))) d = 1 := by
      unfold width
      simp [List.getD_eq_getElem?_getD, List.getElem?_replicate, hd]
    rw [this, one_pow, mul_one]
  | @left box a l r d z h hd e ih =>
    obtain ⟨hl, hb, hok, f, ca⟩ := part_len hs h
    by_cases hz : 0 < z ∧ z < 1
    · obtain ⟨l', r', e', cl, cr⟩ := C31_split a _ _ ca d (by rw [hl]; exact hd) z hz.1 hz.2
      rw [e] at e'
      obtain ⟨rfl, rfl⟩ : l = l' ∧ r = r' := by simpa using Except.ok.inj e'
      have := part_bends_step hN hs h ih ca hd (u := 0) (v := z) le_rfl hz.1 hz.2.le (r := l) (by simpa using cl)
      simpa using this
    · rw [C31_split_throws a d z hz] at e; cases e
  | @right box a l r d z h hd e ih =>
    obtain ⟨hl, hb, hok, f, ca⟩ := part_len hs h
    by_cases hz : 0 < z ∧ z < 1
    · obtain ⟨l', r', e', cl, cr⟩ := C31_split a _ _ ca d (by rw [hl]; exact hd) z hz.1 hz.2
      rw [e] at e'
      obtain ⟨rfl, rfl⟩ : l = l' ∧ r = r' := by simpa using Except.ok.inj e'
      have := part_bends_step hN hs h ih ca hd (u := z) (v := 1) hz.1.le hz.2 le_rfl (r := r) cr
      simpa using this
    · rw [C31_split_throws a d z hz] at e; cases e
  | @many box a l d r zs i u v h hd e hi hu hv ih =>
    obtain ⟨hl, hb, hok, f, ca⟩ := part_len hs h
    by_cases hz : zs.Pairwise (· < ·) ∧ ∀ z ∈ zs, 0 < z ∧ z < 1
    · obtain ⟨l', e', _, hls⟩ := C33_split_many a _ _ ca d (by rw [hl]; exact hd) zs hz.1 hz.2
      rw [e] at e'
      obtain rfl := Except.ok.inj e'
      have hp : (0 :: zs ++ [1]).Pairwise (· < ·) := by
        rw [List.cons_append, List.pairwise_cons, List.pairwise_append]
        refine ⟨fun x hx => ?_, hz.1, by simp, fun x hx y hy => ?_⟩
        · rcases List.mem_append.mp hx with hx | hx
          · exact (hz.2 x hx).1
          · rw [List.mem_singleton.mp hx]; exact zero_lt_one
        · rw [List.mem_singleton.mp hy]; exact (hz.2 x hx).2
      obtain ⟨hi1, rfl⟩ := List.getElem?_eq_some_iff.mp hu
      obtain ⟨hi2, rfl⟩ := List.getElem?_eq_some_iff.mp hv
      have hm : ∀ x ∈ (0 :: zs ++ [1] : List K), 0 ≤ x ∧ x ≤ 1 := by
        intro x hx
        rw [List.cons_append, List.mem_cons, List.mem_append, List.mem_singleton] at hx
        rcases hx with rfl | hx | rfl
        · exact ⟨le_rfl, zero_le_one⟩
        · exact ⟨(hz.2 x hx).1.le, (hz.2 x hx).2.le⟩
        · exact ⟨zero_le_one, le_rfl⟩
      exact part_bends_step hN hs h ih ca hd (hm _ (List.getElem_mem hi1)).1 (List.pairwise_iff_getElem.mp hp i (i + 1) hi1 hi2 (by omega))
        (hm _ (List.getElem_mem hi2)).2 (hls i r _ _ hi hu hv)
    · rw [C33_split_many_throws a ca.wf d (by rw [hl]; exact hd) zs hz] at e; cases e
  | @elevate box a d r h hd e hsz ih =>
    obtain ⟨hl, hb, hok, f, ca⟩ := part_len hs h
    have hd' : d < a.degrees.length := by rw [hl]; exact hd
    have hp := List.getElem?_eq_getElem hd'
    have hsz' : size (a.degrees.set d (a.degrees[d] + 1)) < 2 ^ 31 := by rwa [modify_eq_set' hd'] at hsz
    obtain ⟨r', e', cr⟩ := C12_order_elevate a _ _ ca d _ hp hsz'
    rw [e] at e'
    obtain rfl := Except.ok.inj e'
    obtain ⟨r', e', hr', pr⟩ := C90_elevate (K := K) a ca.wf d _ hp hsz' a.cp (hasPoints_cp ca.wf)
    rw [e] at e'
    obtain rfl := Except.ok.inj e'
    have hdeg := cr.degrees_eq
    rw [hdeg]
    exact netBends_congr (elevate_bends hN ih (mul_nonneg (hM d hd).1 (sq_nonneg _)) hp) (fun idx hv => pr.cp cr.wf (by rw [hdeg]; exact hv))
      fun _ _ => rfl

/-! ## C109 -/

/-- C109. Second differences of the control points (times `p (p - 1)`) shrink with the square of the box.  Splits in other directions and
elevations do not increase them. -/
theorem C109_bends (hN : IsLength N) (s : Spline V) (hs : s.WF) (M : ℕ → K)
    (hM : ∀ d < s.degrees.length, 0 ≤ M d ∧ BendBound N s d (M d)) (box : List (K × K)) (a : Spline V) (h : PartOf s box a)
    (d : ℕ) (hd : d < s.degrees.length) : BendBound N a d (M d * width box d ^ 2) := by
  obtain ⟨hl, _, _, f, ca⟩ := part_len hs h
  exact (bendBound_iff (hasPoints_cp ca.wf)).mpr (part_bends hN hs hM h) d (by rw [hl]; exact hd)

/-- C109. A control point of a part is near to the point of the geometry at its parameter: the distance is at most the sum over the
directions of `M_d · width_d² / (8 (p_d - 1))`, where `p_d` is the degree of the part (directions of degree 0 and 1 contribute nothing).
So it goes to zero with the square of the box, and with the inverse of the degree under elevation. -/
theorem C109_close (hN : IsLength N) (s : Spline V) (hs : s.WF) (M : ℕ → K)
    (hM : ∀ d < s.degrees.length, 0 ≤ M d ∧ BendBound N s d (M d)) (box : List (K × K)) (a : Spline V) (h : PartOf s box a)
    (idx : List ℕ) (x : V) (hv : ValidIdx a.degrees idx) (hx : a.controlPoint idx = .ok x) :
    ∃ y, a.evaluate (parameterOf K a.degrees idx) = .ok y ∧ s.evaluate (inBox box (parameterOf K a.degrees idx)) = .ok y ∧
      N (x - y) ≤ ∑ d ∈ range s.degrees.length, bendShare (M d) (width box d) (a.degrees.getD d 0) := by
  obtain ⟨hl, hb, _, ca⟩ := C100_part s _ (hs.computes (K := K)) box a h
  have hlen : (parameterOf K a.degrees idx).length = a.degrees.length := by
    unfold parameterOf
    rw [List.length_zipWith, List.Forall₂.length_eq hv, min_self]
  have e1 := ca.eval _ hlen
  have e2 := Spline.evaluate_casteljau ca.wf hlen (hasPoints_cp ca.wf)
  rw [Spline.controlPoint_cp ca.wf hv] at hx
  obtain rfl := Except.ok.inj hx
  have e4 := Except.ok.inj (e1.symm.trans e2)
  refine ⟨_, e1, (hs.computes (K := K)).eval _ ?_, ?_⟩
  · unfold inBox
    rw [List.length_zipWith, hb, hlen, hl, min_self]
  · rw [e4, ← hl]
    refine (net_bend_value hN (fun d hd => mul_nonneg (hM d (by rw [← hl]; exact hd)).1 (sq_nonneg _)) (part_bends hN hs hM h) hv).trans
      (le_of_eq (sum_congr rfl fun d _ => ?_))
    unfold bendShare
    rw [one_pow, mul_one]

/-- C109. The same for the spline itself: the control polygon is within `∑ M_d / (8 (p_d - 1))` of the geometry. -/
theorem C109_polygon (hN : IsLength N) (s : Spline V) (hs : s.WF) (M : ℕ → K)
    (hM : ∀ d < s.degrees.length, 0 ≤ M d ∧ BendBound N s d (M d)) (idx : List ℕ) (x : V) (hv : ValidIdx s.degrees idx)
    (hx : s.controlPoint idx = .ok x) :
    ∃ y, s.evaluate (parameterOf K s.degrees idx) = .ok y ∧ N (x - y) ≤ ∑ d ∈ range s.degrees.length, bendShare (M d) 1 (s.degrees.getD d 0) := by
  obtain ⟨y, h1, _, h3⟩ := C109_close hN s hs M hM _ s (.whole (K := K)) idx x hv hx
  refine ⟨y, h1, h3.trans (le_of_eq (sum_congr rfl fun d hd => ?_))⟩
  unfold width
  simp [List.getD_eq_getElem?_getD, List.getElem?_replicate, mem_range.mp hd]

/-- bounds on the control points bound their second differences -/
theorem bendBound_of_le (hN : IsLength N) {s : Spline V} {D : K} (hD : ∀ x ∈ s.cps, N x ≤ D) (d : ℕ) {q : ℕ} (hq : ∀ p, s.degrees[d]? = some p → p ≤ q) :
    BendBound N s d (q * q * (4 * D)) := by
  intro idx p j x y z hp hj hv hx hy hz
  have a1 := hN.add_le (z - y) (-(y - x))
  have a2 := hN.add_le z (-y)
  have a3 := hN.add_le y (-x)
  rw [← sub_eq_add_neg, hN.neg] at a1 a2 a3
  have b1 := hD x (mem_of_controlPoint hx)
  have b2 := hD y (mem_of_controlPoint hy)
  have b3 := hD z (mem_of_controlPoint hz)
  have a4 : (p : K) ≤ (q : K) := by exact_mod_cast hq p hp
  have a5 : (2 : K) ≤ p := by exact_mod_cast (by omega : 2 ≤ p)
  exact mul_le_mul (mul_le_mul a4 (by linarith) (by linarith) (by linarith)) (by linarith) (hN.nonneg _) (by nlinarith)

/-- C109. For every spline there is a constant `C` such that the control points of every part are within `C` times the sum of the squares
of the lengths of the box from the points of the geometry they stand for. -/
theorem C109_converges (hN : IsLength N) (s : Spline V) (hs : s.WF) :
    ∃ C : K, 0 ≤ C ∧ ∀ (box : List (K × K)) (a : Spline V), PartOf s box a → ∀ (idx : List ℕ) (x : V), ValidIdx a.degrees idx →
      a.controlPoint idx = .ok x → ∃ y, s.evaluate (inBox box (parameterOf K a.degrees idx)) = .ok y ∧
        N (x - y) ≤ C * ∑ d ∈ range s.degrees.length, width box d ^ 2 := by
  obtain ⟨D, hD0, hD⟩ : ∃ D : K, 0 ≤ D ∧ ∀ x ∈ s.cps, N x ≤ D := by
    refine ⟨(s.cps.map N).sum, List.sum_nonneg fun y hy => ?_, fun x hx => ?_⟩
    · obtain ⟨x, _, rfl⟩ := List.mem_map.mp hy
      exact hN.nonneg x
    · exact List.single_le_sum (fun y hy => by obtain ⟨x, _, rfl⟩ := List.mem_map.mp hy; exact hN.nonneg x) _ (List.mem_map_of_mem hx)
  have hC0 : (0 : K) ≤ (s.degrees.sum : K) * s.degrees.sum * (4 * D) := by positivity
  have hb : ∀ d < s.degrees.length, BendBound N s d ((s.degrees.sum : K) * s.degrees.sum * (4 * D)) := by
    intro d _
    exact bendBound_of_le hN hD d fun p hp => List.single_le_sum (fun _ _ => Nat.zero_le _) p (List.mem_of_getElem? hp)
  refine ⟨_, hC0, fun box a h idx x hv hx => ?_⟩
  obtain ⟨y, _, h2, h3⟩ := C109_close hN s hs _ (fun d hd => ⟨hC0, hb d hd⟩) box a h idx x hv hx
  refine ⟨y, h2, h3.trans ?_⟩
  rw [mul_sum]
  refine sum_le_sum fun d _ => ?_
  have hw := mul_nonneg hC0 (sq_nonneg (width box d))
  unfold bendShare
  split_ifs with hp
  · exact hw
  · have : (2 : K) ≤ (a.degrees.getD d 0 : ℕ) := by exact_mod_cast (by omega : 2 ≤ a.degrees.getD d 0)
    refine div_le_self hw (by linarith)

/-- C109. Elevation alone makes the control points of a curve converge to the geometry, with the inverse of the degree: after any number of
elevations and splits a direction-wise degree of at least `n + 1` gives `M / (8 n)`. -/
theorem C109_elevate (hN : IsLength N) (s : Spline V) (hs : s.WF) (M : K) (hM : 0 ≤ M) (hb : ∀ d < s.degrees.length, BendBound N s d M)
    (box : List (K × K)) (a : Spline V) (h : PartOf s box a) (n : ℕ) (hn : 0 < n) (hdeg : ∀ p ∈ a.degrees, n + 1 ≤ p)
    (idx : List ℕ) (x : V) (hv : ValidIdx a.degrees idx) (hx : a.controlPoint idx = .ok x) :
    ∃ y, s.evaluate (inBox box (parameterOf K a.degrees idx)) = .ok y ∧ N (x - y) ≤ s.degrees.length * (M / (8 * n)) := by
  obtain ⟨y, _, h2, h3⟩ := C109_close hN s hs (fun _ => M) (fun d hd => ⟨hM, hb d hd⟩) box a h idx x hv hx
  obtain ⟨hl, hbl, hok, _⟩ := C100_part s _ (hs.computes (K := K)) box a h
  refine ⟨y, h2, h3.trans ?_⟩
  have : ∀ d ∈ range s.degrees.length, bendShare M (width box d) (a.degrees.getD d 0) ≤ M / (8 * n) := by
    intro d hd
    have hd' := mem_range.mp hd
    have hda : d < a.degrees.length := by rw [hl]; exact hd'
    have e : a.degrees.getD d 0 = a.degrees[d] := by rw [List.getD_eq_getElem?_getD, List.getElem?_eq_getElem hda]; rfl
    have hp := hdeg _ (List.getElem_mem hda)
    rw [e]
    have hn0 : (0 : K) < n := by exact_mod_cast hn
    have hp' : (n : K) ≤ (a.degrees[d] : ℕ) - 1 := by
      have : ((n + 1 : ℕ) : K) ≤ (a.degrees[d] : ℕ) := by exact_mod_cast hp
      push_cast at this
      linarith
    have hbd : d < box.length := by rw [hbl]; exact hd'
    have hI := hok _ (List.getElem_mem hbd)
    have hw : 0 ≤ width box d ∧ width box d ≤ 1 := by
      unfold width
      rw [List.getD_eq_getElem?_getD, List.getElem?_eq_getElem hbd]
      dsimp only [Option.getD_some]
      exact ⟨by linarith, by linarith⟩
    unfold bendShare
    rw [if_neg (by omega)]
    have : M * width box d ^ 2 ≤ M := mul_le_of_le_one_right hM (pow_le_one₀ hw.1 hw.2)
    exact div_le_div₀ hM this (by positivity) (by linarith)
  refine (sum_le_sum this).trans (le_of_eq ?_)
  rw [sum_const, card_range, nsmul_eq_mul]

/-! ### concrete cases -/

/-- the parabola with the control points 0, 1, 0 -/
def exBend : Spline ℚ := Ex.curve 0 1 0

theorem exBend_wf : exBend.WF := Ex.curve_wf ..

theorem exBend_bound : ∀ d < exBend.degrees.length, (0 : ℚ) ≤ 4 ∧ BendBound (fun x : ℚ => |x|) exBend d 4 := by
  intro d hd
  obtain rfl : d = 0 := by simpa [exBend, Ex.curve] using hd
  refine ⟨by norm_num, ?_⟩
  have := (bendBound_iff (N := fun x : ℚ => |x|) (hasPoints_cp exBend_wf) (M := fun _ => (4 : ℚ))).mpr ?_ 0 hd
  · exact this
  intro d p hp idx hv j hj
  match d, hp with
  | 0, hp =>
    obtain rfl : 2 = p := by simpa [exBend, Ex.curve] using hp
    obtain rfl : j = 0 := by omega
    cases hv with | @cons k _ ks _ hk hv => cases hv with | nil =>
    show ((2 : ℕ) : ℚ) * (((2 : ℕ) : ℚ) - 1) * |bend (fun i => exBend.cp [i]) 0| ≤ 4
    decide +kernel

/-- C109. The constant 1/8 cannot be improved: for the parabola with the control points 0, 1, 0 the bound is attained. -/
theorem C109_sharp : ∃ y : ℚ, exBend.evaluate (parameterOf ℚ [2] [1]) = .ok y ∧ exBend.controlPoint [1] = .ok 1 ∧
    |1 - y| = bendShare 4 1 2 := ⟨1 / 2, by decide +kernel, by decide +kernel, by decide +kernel⟩

theorem exA_bends (d : ℕ) (_ : d < Ex.A.degrees.length) :
    (0 : ℚ) ≤ ((2 : ℕ) * (2 : ℕ) * (4 * 6) : ℚ) ∧ BendBound (fun x : ℚ => |x|) Ex.A d ((2 : ℕ) * (2 : ℕ) * (4 * 6)) :=
  ⟨by norm_num, bendBound_of_le abs_length (by decide +kernel) d fun p hp => by
    have : p ∈ [2, 1] := List.mem_of_getElem? hp
    simp only [List.mem_cons, List.not_mem_nil, or_false] at this
    omega⟩

example := fun a h => C109_bends abs_length Ex.A Ex.A_wf _ exA_bends [((0 : ℚ), 1 / 3), (1 / 2, 1)] a h 1 (by decide)
example := fun a h idx x => C109_close abs_length Ex.A Ex.A_wf _ exA_bends [((0 : ℚ), 1 / 3), (1 / 2, 1)] a h idx x
example := C109_polygon abs_length exBend exBend_wf (fun _ => 4) exBend_bound [1] 1 (.cons (by decide) .nil) (by decide +kernel)
example := C109_converges (coord_length (K := ℚ) 2 1) Ex.P Ex.P_wf
/-- an elevated parabola: degree 3 -/
example := fun a e => C109_elevate abs_length exBend exBend_wf 4 (by norm_num) (fun d hd => (exBend_bound d hd).2) _ a
  (PartOf.elevate (d := 0) PartOf.whole (by decide) e (by decide +kernel)) 2 (by norm_num)

end Props
end Bezman
