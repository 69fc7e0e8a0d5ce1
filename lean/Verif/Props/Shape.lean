import Verif.Proofs.Shape
import Verif.Props.Converge
import Verif.Props.Laws
import Mathlib.Analysis.Convex.Deriv

/-! # Properties: directions of the control points and of the values -/

namespace Bezman.Props
open Spec Finset
open scoped Pointwise
variable {K V : Type} [Field K] [LinearOrder K] [IsStrictOrderedRing K] [AddCommGroup V] [Module K V] {C : Set V}

theorem stepsIn_iff {V : Type} [AddCommGroup V] {C : Set V} {s : Spline V} (hs : s.WF) {d : ℕ} : StepsIn C s d ↔ NetIn C s.degrees s.cp d := by
  constructor
  · intro h p hp idx hv
    exact h idx p _ _ hp hv (hasPoints_cp hs _ hv.of_modify) (hasPoints_cp hs _ hv)
  · intro h idx p x y hp hv hx hy
    rw [hasPoints_cp hs _ hv.of_modify] at hx
    rw [hasPoints_cp hs _ hv] at hy
    obtain rfl := Except.ok.inj hx
    obtain rfl := Except.ok.inj hy
    exact h p hp idx hv

theorem netIn_congr {V : Type} [AddCommGroup V] {C : Set V} {ps : List ℕ} {P Q : List ℕ → V} {d : ℕ} (h : NetIn C ps P d)
    (hPQ : ∀ idx, ValidIdx ps idx → Q idx = P idx) : NetIn C ps Q d := by
  intro p hp idx hv
  rw [hPQ _ hv, hPQ _ hv.of_modify]
  exact h p hp idx hv

/-- the two parts of a split in direction `e` -/
theorem split_in (hC : Convex K C) {ps : List ℕ} {P : List ℕ → V} {d e p : ℕ} (h : NetIn C ps P e) (hp : ps[d]? = some p)
    {z : K} (h0 : 0 ≤ z) (h1 : z ≤ 1) :
    NetIn ((if e = d then z else 1) • C) ps (fun idx => triangle z (fun j => P (idx.set d j)) (idx.getD d 0) 0) e ∧
    NetIn ((if e = d then 1 - z else 1) • C) ps (fun idx => triangle z (fun j => P (idx.set d j)) (p - idx.getD d 0) (idx.getD d 0)) e := by
  have line : e = d → ∀ {idx : List ℕ}, ValidIdx ps idx → ∀ j < p, p • (P (idx.set d (j + 1)) - P (idx.set d j)) ∈ C := by
    rintro rfl idx hv j hj
    have := h p hp (idx.set e j) (by rw [modify_set_same]; exact valid_set hv hp hj)
    rwa [modify_set_same] at this
  have cross : e ≠ d → ∀ {q : ℕ} {idx : List ℕ}, ps[e]? = some q → ValidIdx ps (idx.modify e (· + 1)) → ∀ j ≤ p,
      q • (P ((idx.modify e (· + 1)).set d j) - P (idx.set d j)) ∈ C := by
    intro he q idx hq hv j hj
    have := h q hq (idx.set d j) (by rw [← set_modify_other he]; exact valid_set hv hp hj)
    rwa [← set_modify_other he] at this
  constructor <;> intro q hq idx hv <;> dsimp only
  · by_cases he : e = d
    · have line := @line he
      subst he
      obtain rfl : p = q := Option.some.inj (hp.symm.trans hq)
      rw [if_pos rfl, getD_modify_same (getD_le hv.of_modify hp).1]
      simp only [set_modify_same]
      have := (getD_le hv hp).2
      rw [getD_modify_same (getD_le hv.of_modify hp).1] at this
      rw [left_diff, smul_comm]
      refine Set.smul_mem_smul_set (triangle_mem (convex_nsmul hC p) h0 h1 fun j _ hj => line hv.of_modify j (by omega))
    · rw [if_neg he, one_smul, getD_modify_other he, triangle_sub]
      have := (getD_le hv.of_modify hp).2
      exact triangle_mem (convex_nsmul hC q) h0 h1 fun j _ hj => cross he hq hv j (by omega)
  · by_cases he : e = d
    · have line := @line he
      subst he
      obtain rfl : p = q := Option.some.inj (hp.symm.trans hq)
      rw [if_pos rfl, getD_modify_same (getD_le hv.of_modify hp).1]
      simp only [set_modify_same]
      have := (getD_le hv hp).2
      rw [getD_modify_same (getD_le hv.of_modify hp).1] at this
      rw [show p - idx.getD e 0 = p - (idx.getD e 0 + 1) + 1 by omega]
      rw [right_diff, smul_comm]
      refine Set.smul_mem_smul_set (triangle_mem (convex_nsmul hC p) h0 h1 fun j _ hj => line hv.of_modify j (by omega))
    · rw [if_neg he, one_smul, getD_modify_other he, triangle_sub]
      have := (getD_le hv.of_modify hp).2
      exact triangle_mem (convex_nsmul hC q) h0 h1 fun j _ hj => cross he hq hv j (by omega)

/-- the elevated net -/
theorem elevate_net_in (hC : Convex K C) {ps : List ℕ} {P : List ℕ → V} {d e p : ℕ} (h : NetIn C ps P e) (hp : ps[d]? = some p)
    (h0 : e = d → 0 < p ∨ (0 : V) ∈ C) :
    NetIn C (ps.set d (p + 1)) (fun idx => elevationOf K p (fun j => P (idx.set d j)) (idx.getD d 0)) e := by
  have hp' : (ps.set d (p + 1))[d]? = some (p + 1) := by
    rw [List.getElem?_set, if_pos rfl, if_pos (List.getElem?_eq_some_iff.mp hp).1]
  have back : ∀ {idx : List ℕ}, ValidIdx (ps.set d (p + 1)) idx → ∀ {j}, j ≤ p → ValidIdx ps (idx.set d j) := by
    intro idx hv j hj
    have := valid_set hv hp' (show j ≤ p + 1 by omega)
    refine List.forall₂_iff_get.mpr ⟨by have := List.Forall₂.length_eq this; simpa using this, fun i h1 h2 => ?_⟩
    have h3 := (List.forall₂_iff_get.mp this).2 i h1 (by simpa using h2)
    simp only [List.get_eq_getElem, List.getElem_set] at h3 ⊢
    split
    · subst_vars
      rw [List.getElem?_eq_getElem h2] at hp
      obtain rfl := Option.some.inj hp
      exact hj
    · rename_i hne
      rwa [if_neg hne, if_neg hne] at h3
  intro q hq idx hv
  dsimp only
  by_cases he : e = d
  · subst he
    obtain rfl : p + 1 = q := Option.some.inj (hp'.symm.trans hq)
    have h1 := (getD_le hv hp').2
    rw [getD_modify_same (getD_le hv.of_modify hp').1] at h1 ⊢
    simp only [set_modify_same]
    refine elevate_in hC (P := fun j => P (idx.set e j)) (by omega) (fun j hj => ?_) (h0 rfl)
    have := h p hp (idx.set e j) (by rw [modify_set_same]; exact back hv.of_modify hj)
    rwa [modify_set_same] at this
  · rw [getD_modify_other he]
    have := (getD_le hv.of_modify hp').2
    refine elevate_lin hC this fun j hj => ?_
    have := h q (by rw [List.getElem?_set, if_neg (Ne.symm he)] at hq; exact hq) (idx.set d j)
      (by rw [← set_modify_other he]; exact back hv hj)
    rwa [← set_modify_other he] at this

/-- both parts of a split, with what they compute -/
theorem splitAt_in (hC : Convex K C) {s : Spline V} {ds : List ℕ} {f : List K → V} (hs : s.Computes ds f) {e : ℕ}
    (h : NetIn C ds s.cp e) {d : ℕ} (hd : d < ds.length) {z : K} (h0 : 0 < z) (h1 : z < 1) :
    ∃ a b, s.splitAt z d = .ok (a, b) ∧ a.Computes ds (fun t => f (t.modify d (fun x => z * x))) ∧
      b.Computes ds (fun t => f (t.modify d (fun x => z + (1 - z) * x))) ∧
      NetIn ((if e = d then z else 1) • C) ds a.cp e ∧ NetIn ((if e = d then 1 - z else 1) • C) ds b.cp e := by
  obtain ⟨a, b, e1, ca, cb⟩ := C31_split s ds f hs d hd z h0 h1
  have hdeg := hs.degrees_eq
  subst hdeg
  obtain ⟨a', b', e', _, _, pa, pb⟩ := C90_split s hs.wf d s.degrees[d] (List.getElem?_eq_getElem hd) z ⟨h0, h1⟩ s.cp (hasPoints_cp hs.wf)
  rw [e1] at e'
  obtain ⟨rfl, rfl⟩ : a = a' ∧ b = b' := by simpa using Except.ok.inj e'
  obtain ⟨k1, k2⟩ := split_in hC h (List.getElem?_eq_getElem hd) h0.le h1.le
  refine ⟨a, b, e1, ca, cb, netIn_congr k1 (fun idx hv => ?_), netIn_congr k2 (fun idx hv => ?_)⟩
  · exact pa.cp ca.wf (by rw [ca.degrees_eq]; exact hv)
  · exact pb.cp cb.wf (by rw [cb.degrees_eq]; exact hv)

/-- the part over an interval -/
theorem restrict_in (hC : Convex K C) {s r : Spline V} {ds : List ℕ} {f : List K → V} (hs : s.Computes ds f) {e : ℕ}
    (h : NetIn C ds s.cp e) {d : ℕ} (hd : d < ds.length) {u v : K} (h0 : 0 ≤ u) (h1 : u < v) (h2 : v ≤ 1)
    (hr : r.Computes ds (fun t => f (t.modify d (fun x => u + (v - u) * x)))) :
    NetIn ((if e = d then v - u else 1) • C) ds r.cp e := by
  have right : ∃ b : Spline V, b.Computes ds (fun t => f (t.modify d (fun x => u + (1 - u) * x))) ∧
      NetIn ((if e = d then 1 - u else 1) • C) ds b.cp e := by
    rcases h0.eq_or_lt with rfl | h0
    · refine ⟨s, computes_congr hs fun t _ => ?_, ?_⟩
      · congr 1
        simp only [sub_zero, one_mul, zero_add]
        exact List.modify_id ..
      · simpa using h
    · obtain ⟨_, b, _, _, cb, _, k⟩ := splitAt_in hC hs h hd h0 (by linarith)
      exact ⟨b, cb, k⟩
  obtain ⟨b, cb, kb⟩ := right
  rcases h2.eq_or_lt with rfl | h2
  · rw [hr.unique cb]; exact kb
  have hu : (0 : K) < 1 - u := by linarith
  obtain ⟨a, _, _, ca, _, ka, _⟩ := splitAt_in (hC.smul _) cb kb hd (z := (v - u) / (1 - u)) (div_pos (by linarith) hu)
    (by rw [div_lt_one hu]; linarith)
  have : r = a := by
    refine hr.unique (computes_congr ca fun t _ => ?_)
    congr 1
    rw [List.modify_modify_eq]
    congr 1
    funext x
    simp only [Function.comp_apply]
    field_simp
  rw [this]
  rw [smul_smul] at ka
  convert ka using 2
  split_ifs
  · field_simp
  · ring

/-- any sequence of splits and elevations -/
theorem part_in (hC : Convex K C) {s : Spline V} (hs : s.WF) {e p : ℕ} (hp : s.degrees[e]? = some p) (h0 : 0 < p ∨ (0 : V) ∈ C)
    (hin : StepsIn C s e) {box : List (K × K)} {a : Spline V} (h : PartOf s box a) :
    NetIn (width box e • C) a.degrees a.cp e ∧ ∃ q, a.degrees[e]? = some q ∧ (0 < q ∨ (0 : V) ∈ C) := by
  have he : e < s.degrees.length := (List.getElem?_eq_some_iff.mp hp).1
  have part := fun box a h => C100_part (K := K) s _ hs.computes box a h
  have step : ∀ {box : List (K × K)} {a r : Spline V} {d : ℕ} {u v : K}, PartOf s box a → d < s.degrees.length → 0 ≤ u → u < v → v ≤ 1 →
      r.Computes a.degrees (fun t => s.value (inBox box (t.modify d (fun x => u + (v - u) * x)))) →
      (NetIn (width box e • C) a.degrees a.cp e ∧ ∃ q, a.degrees[e]? = some q ∧ (0 < q ∨ (0 : V) ∈ C)) →
      NetIn (width (box.modify d fun I => (I.1 + (I.2 - I.1) * u, I.1 + (I.2 - I.1) * v)) e • C) r.degrees r.cp e ∧
        ∃ q, r.degrees[e]? = some q ∧ (0 < q ∨ (0 : V) ∈ C) := by
    intro box a r d u v h hd hu huv hv cr ih
    obtain ⟨l1, l2, _, ca⟩ := part _ _ h
    have := restrict_in (hC.smul _) ca ih.1 (by rw [l1]; exact hd) hu huv hv cr
    rw [cr.degrees_eq, width_modify (c := v - u) (by intro I; ring) (by rw [l2]; exact he), mul_comm, mul_smul]
    exact ⟨this, ih.2⟩
  induction h with
  | whole =>
    have : width (List.replicate s.degrees.length ((0 : K), (1 : K))) e = 1 := by
      unfold width
      simp [List.getD_eq_getElem?_getD, List.getElem?_replicate, he]
    rw [this, one_smul]
    exact ⟨(stepsIn_iff hs).mp hin, p, hp, h0⟩
  | @left box a l r d z h hd e1 ih =>
    by_cases hz : 0 < z ∧ z < 1
    · obtain ⟨l1, l2, _, ca⟩ := part _ _ h
      obtain ⟨l', r', e', cl, cr⟩ := C31_split a _ _ ca d (by rw [l1]; exact hd) z hz.1 hz.2
      rw [e1] at e'
      obtain ⟨rfl, rfl⟩ : l = l' ∧ r = r' := by simpa using Except.ok.inj e'
      have := step h hd (u := 0) (v := z) le_rfl hz.1 hz.2.le (r := l) (by simpa using cl) ih
      simpa using this
    · rw [C31_split_throws a d z hz] at e1; cases e1
  | @right box a l r d z h hd e1 ih =>
    by_cases hz : 0 < z ∧ z < 1
    · obtain ⟨l1, l2, _, ca⟩ := part _ _ h
      obtain ⟨l', r', e', cl, cr⟩ := C31_split a _ _ ca d (by rw [l1]; exact hd) z hz.1 hz.2
      rw [e1] at e'
      obtain ⟨rfl, rfl⟩ : l = l' ∧ r = r' := by simpa using Except.ok.inj e'
      have := step h hd (u := z) (v := 1) hz.1.le hz.2 le_rfl (r := r) cr ih
      simpa using this
    · rw [C31_split_throws a d z hz] at e1; cases e1
  | @many box a l d r zs i u v h hd e1 hi hu hv ih =>
    obtain ⟨l1, l2, _, ca⟩ := part _ _ h
    by_cases hz : zs.Pairwise (· < ·) ∧ ∀ z ∈ zs, 0 < z ∧ z < 1
    · obtain ⟨l', e', _, hl⟩ := C33_split_many a _ _ ca d (by rw [l1]; exact hd) zs hz.1 hz.2
      rw [e1] at e'
      obtain rfl := Except.ok.inj e'
      have hp : (0 :: zs ++ [1]).Pairwise (· < ·) := by
        rw [List.cons_append, List.pairwise_cons, List.pairwise_append]
        refine ⟨fun x hx => ?_, hz.1, by simp, fun x hx y hy => ?_⟩
        · rcases List.mem_append.mp hx with hx | hx
          · exact (hz.2 x hx).1
          · rw [List.mem_singleton.mp hx]; exact zero_lt_one
        · rw [List.mem_singleton.mp hy]; exact (hz.2 x hx).2
      obtain ⟨hi1, rfl⟩ := List.getElem?_eq_some_iff.mp hu
      obtain ⟨hi2, rfl⟩ := List.getElem?_eq_some_iff.mp hv
      have hm : ∀ x ∈ (0 :: zs ++ [1] : List K), 0 ≤ x ∧ x ≤ 1 := by
        intro x hx
        rw [List.cons_append, List.mem_cons, List.mem_append, List.mem_singleton] at hx
        rcases hx with rfl | hx | rfl
        · exact ⟨le_rfl, zero_le_one⟩
        · exact ⟨(hz.2 x hx).1.le, (hz.2 x hx).2.le⟩
        · exact ⟨zero_le_one, le_rfl⟩
      exact step h hd (hm _ (List.getElem_mem hi1)).1 (List.pairwise_iff_getElem.mp hp i (i + 1) hi1 hi2 (by omega))
        (hm _ (List.getElem_mem hi2)).2 (hl i r _ _ hi hu hv) ih
    · rw [C33_split_many_throws a ca.wf d (by rw [l1]; exact hd) zs hz] at e1; cases e1
  | @elevate box a d r h hd e1 hsz ih =>
    obtain ⟨l1, l2, _, ca⟩ := part _ _ h
    have hd' : d < a.degrees.length := by rw [l1]; exact hd
    have hp := List.getElem?_eq_getElem hd'
    have hsz' : size (a.degrees.set d (a.degrees[d] + 1)) < 2 ^ 31 := by rwa [modify_eq_set' hd'] at hsz
    obtain ⟨r', e', cr⟩ := C12_order_elevate a _ _ ca d _ hp hsz'
    rw [e1] at e'
    obtain rfl := Except.ok.inj e'
    obtain ⟨r', e', hr', pr⟩ := C90_elevate (K := K) a ca.wf d _ hp hsz' a.cp (hasPoints_cp ca.wf)
    rw [e1] at e'
    obtain rfl := Except.ok.inj e'
    have hdeg := cr.degrees_eq
    rw [hdeg]
    obtain ⟨k, q, hq, h0'⟩ := ih
    constructor
    · refine netIn_congr (elevate_net_in (hC.smul _) k hp ?_) (fun idx hv => pr.cp cr.wf (by rw [hdeg]; exact hv))
      rintro rfl
      rw [hq] at hp
      obtain rfl := Option.some.inj hp
      exact h0'.imp id fun h => ⟨0, h, smul_zero _⟩
    · by_cases hed : d = e
      · subst hed
        exact ⟨a.degrees[d] + 1, by rw [List.getElem?_set, if_pos rfl, if_pos hd'], .inl (Nat.succ_pos _)⟩
      · exact ⟨q, by rw [List.getElem?_set, if_neg hed]; exact hq, h0'⟩

/-! ## C104 -/

/-- C104. A mean value theorem: if the steps of the control points in direction `d` (times the degree) lie in a convex set, then the
increment of `Evaluate` along direction `d` is the difference of the parameters times an element of this set. -/
theorem C104_mean_value (s : Spline V) (hs : s.WF) (C : Set V) (hC : Convex K C) (d p : ℕ) (hp : s.degrees[d]? = some p)
    (h0 : 0 < p ∨ (0 : V) ∈ C) (h : StepsIn C s d) (t : List K) (ht : t.length = s.dim) (h01 : InCube t) (u v : K)
    (hu : 0 ≤ u ∧ u ≤ 1) (hv : 0 ≤ v ∧ v ≤ 1) :
    ∃ x y, s.evaluate (t.set d u) = .ok x ∧ s.evaluate (t.set d v) = .ok y ∧ ∃ c ∈ C, y - x = (v - u) • c :=
  ⟨_, _, Spline.evaluate_casteljau hs (by simpa using ht) (hasPoints_cp hs), Spline.evaluate_casteljau hs (by simpa using ht) (hasPoints_cp hs),
    casteljau_mean hC ((stepsIn_iff hs).mp h) hp h0 ht h01 hu hv⟩

/-- C104. … and in all directions together: the increment between any two points of the unit cube is the sum over the directions. -/
theorem C104_increment (s : Spline V) (hs : s.WF) (C : ℕ → Set V) (hC : ∀ d, Convex K (C d))
    (h0 : ∀ (d p : ℕ), s.degrees[d]? = some p → 0 < p ∨ (0 : V) ∈ C d) (h : ∀ d < s.dim, StepsIn (C d) s d) (t u : List K)
    (ht : t.length = s.dim) (hu : u.length = s.dim) (h01 : InCube t) (h01' : InCube u) :
    ∃ x y, s.evaluate t = .ok x ∧ s.evaluate u = .ok y ∧
      ∃ c : ℕ → V, (∀ d < s.dim, c d ∈ C d) ∧ y - x = ∑ d ∈ range s.dim, (u.getD d 0 - t.getD d 0) • c d := by
  refine ⟨_, _, Spline.evaluate_casteljau hs ht (hasPoints_cp hs), Spline.evaluate_casteljau hs hu (hasPoints_cp hs), ?_⟩
  have key : ∀ k ≤ s.dim, ∃ c : ℕ → V, (∀ d < k, c d ∈ C d) ∧ casteljau s.degrees (u.take k ++ t.drop k) s.cp - casteljau s.degrees t s.cp =
      ∑ d ∈ range k, (u.getD d 0 - t.getD d 0) • c d := by
    intro k
    induction k with
    | zero => intro _; exact ⟨fun _ => 0, by simp, by simp⟩
    | succ k ih =>
      intro hk
      obtain ⟨c, hc, e⟩ := ih (by omega)
      have hkt : k < t.length := by omega
      have hku : k < u.length := by omega
      have hp : s.degrees[k]? = some s.degrees[k] := List.getElem?_eq_getElem (by rw [show s.degrees.length = s.dim from rfl]; omega)
      have hw : InCube (u.take k ++ t.drop k) := by
        intro x hx
        rcases List.mem_append.mp hx with hx | hx
        · exact h01' x (List.mem_of_mem_take hx)
        · exact h01 x (List.mem_of_mem_drop hx)
      have hlen : (u.take k).length = k := by rw [List.length_take]; omega
      obtain ⟨c', hc', e'⟩ := casteljau_mean (hC k) ((stepsIn_iff hs).mp (h k (by omega))) hp (h0 k _ hp) (ts := u.take k ++ t.drop k)
        (by rw [List.length_append, List.length_take, List.length_drop, show s.degrees.length = s.dim from rfl]; omega) hw
        (h01 t[k] (List.getElem_mem hkt)) (h01' u[k] (List.getElem_mem hku))
      have w1 : (u.take k ++ t.drop k).set k u[k] = u.take (k + 1) ++ t.drop (k + 1) := by
        rw [List.drop_eq_getElem_cons hkt, List.set_append_right _ _ (by omega), hlen, Nat.sub_self, List.set_cons_zero,
          ← List.take_concat_get' u k hku, List.append_assoc]
        rfl
      have w2 : (u.take k ++ t.drop k).set k t[k] = u.take k ++ t.drop k := by
        rw [List.drop_eq_getElem_cons hkt, List.set_append_right _ _ (by omega), hlen, Nat.sub_self, List.set_cons_zero]
      rw [w1, w2] at e'
      refine ⟨Function.update c k c', fun d hd => ?_, ?_⟩
      · by_cases hdk : d = k
        · subst hdk; simpa using hc'
        · rw [Function.update_of_ne hdk]; exact hc d (by omega)
      · rw [sum_range_succ, Function.update_self, List.getD_eq_getElem?_getD, List.getElem?_eq_getElem hku, List.getD_eq_getElem?_getD,
          List.getElem?_eq_getElem hkt]
        have : ∑ d ∈ range k, (u.getD d 0 - t.getD d 0) • Function.update c k c' d = ∑ d ∈ range k, (u.getD d 0 - t.getD d 0) • c d :=
          sum_congr rfl fun d hd => by rw [Function.update_of_ne (by rw [mem_range] at hd; omega)]
        rw [this, ← e]
        show _ = _ + (u[k] - t[k]) • c'
        rw [← e']
        abel
  obtain ⟨c, hc, e⟩ := key s.dim le_rfl
  refine ⟨c, hc, ?_⟩
  rw [← e, ← hu, List.take_length, hu, ← ht, List.drop_length, List.append_nil]

/-- C104. Sequences of splits and elevations scale this set by the width of the box. -/
theorem C104_parts (s : Spline V) (hs : s.WF) (C : Set V) (hC : Convex K C) (d p : ℕ) (hp : s.degrees[d]? = some p)
    (h0 : 0 < p ∨ (0 : V) ∈ C) (h : StepsIn C s d) (box : List (K × K)) (a : Spline V) (ha : PartOf s box a) :
    StepsIn {x | ∃ c ∈ C, x = width box d • c} a d := by
  have := (part_in hC hs hp h0 h ha).1
  obtain ⟨_, _, _, ca⟩ := C100_part (K := K) s _ hs.computes box a ha
  rw [show {x | ∃ c ∈ C, x = width box d • c} = width box d • C by
    ext x; rw [Set.mem_smul_set]; exact ⟨fun ⟨c, h1, h2⟩ => ⟨c, h1, h2.symm⟩, fun ⟨c, h1, h2⟩ => ⟨c, h1, h2.symm⟩⟩]
  exact (stepsIn_iff ca.wf).mpr this

/-- C104. So directions in a convex cone remain in it. -/
theorem C104_parts_cone (s : Spline V) (hs : s.WF) (C : Set V) (hC : IsCone K C) (d p : ℕ) (hp : s.degrees[d]? = some p)
    (h0 : 0 < p ∨ (0 : V) ∈ C) (h : StepsIn C s d) (box : List (K × K)) (a : Spline V) (ha : PartOf s box a) : StepsIn C a d := by
  intro idx q x y hq hv hx hy
  obtain ⟨c, hc, e⟩ := C104_parts s hs C hC.convex d p hp h0 h box a ha idx q x y hq hv hx hy
  rw [e]
  obtain ⟨_, l, hb, _⟩ := C100_part (K := K) s _ hs.computes box a ha
  refine hC.smul _ ?_ c hc
  have hd : d < box.length := by rw [l]; exact (List.getElem?_eq_some_iff.mp hp).1
  unfold width
  rw [List.getD_eq_getElem?_getD, List.getElem?_eq_getElem hd]
  exact sub_pos.mpr (hb _ (List.getElem_mem hd)).2.1

/-- C104. … and the increments of `Evaluate` between two parameters lie in it. -/
theorem C104_cone (s : Spline V) (hs : s.WF) (C : Set V) (hC : IsCone K C) (d p : ℕ) (hp : s.degrees[d]? = some p)
    (hpos : 0 < p) (h : StepsIn C s d) (t : List K) (ht : t.length = s.dim) (h01 : InCube t) (u v : K)
    (hu : 0 ≤ u) (huv : u < v) (hv : v ≤ 1) :
    ∃ x y, s.evaluate (t.set d u) = .ok x ∧ s.evaluate (t.set d v) = .ok y ∧ y - x ∈ C := by
  obtain ⟨x, y, e1, e2, c, hc, e⟩ := C104_mean_value s hs C hC.convex d p hp (.inl hpos) h t ht h01 u v ⟨hu, by linarith⟩ ⟨by linarith, hv⟩
  exact ⟨x, y, e1, e2, by rw [e]; exact hC.smul _ (sub_pos.mpr huv) _ hc⟩

theorem stepsIn_of_nondecreasing {s : Spline K} {d : ℕ} (h : Nondecreasing s d) : StepsIn {x : K | 0 ≤ x} s d := by
  intro idx p x y _ hv hx hy
  exact nsmul_nonneg (sub_nonneg.mpr (h idx x y hv hx hy)) p

theorem valid_modify_pos {ps idx : List ℕ} {d p : ℕ} (hv : ValidIdx ps (idx.modify d (· + 1))) (hp : ps[d]? = some p) : 0 < p := by
  have h1 := (getD_le hv hp).2
  rw [getD_modify_same (getD_le hv.of_modify hp).1] at h1
  omega

theorem stepsIn_iff_increasing {s : Spline K} {d : ℕ} : (∃ p, s.degrees[d]? = some p) → (Increasing s d ↔ StepsIn {x : K | 0 < x} s d) := by
  rintro ⟨p, hp⟩
  constructor
  · intro h idx p x y hp hv hx hy
    exact nsmul_pos (sub_pos.mpr (h idx x y hv hx hy)) (valid_modify_pos hv hp).ne'
  · intro h idx x y hv hx hy
    have := h idx p x y hp hv hx hy
    exact sub_pos.mp ((smul_pos_iff_of_pos_left (valid_modify_pos hv hp)).mp this)

theorem stepsIn_iff_nondecreasing {s : Spline K} {d : ℕ} : (∃ p, s.degrees[d]? = some p) → (Nondecreasing s d ↔ StepsIn {x : K | 0 ≤ x} s d) := by
  rintro ⟨p, hp⟩
  refine ⟨stepsIn_of_nondecreasing, ?_⟩
  intro h idx x y hv hx hy
  have := h idx p x y hp hv hx hy
  rw [Set.mem_setOf_eq, nsmul_eq_mul] at this
  exact sub_nonneg.mp (nonneg_of_mul_nonneg_right this (by exact_mod_cast valid_modify_pos hv hp))

/-- C104. Control points that do not decrease in direction `d` give a function that does not decrease in parameter `d`. -/
theorem C104_monotone (s : Spline K) (hs : s.WF) (d : ℕ) (hd : d < s.dim) (h : Nondecreasing s d) (t : List K) (ht : t.length = s.dim)
    (h01 : InCube t) (u v : K) (hu : 0 ≤ u) (huv : u ≤ v) (hv : v ≤ 1) :
    ∃ x y, s.evaluate (t.set d u) = .ok x ∧ s.evaluate (t.set d v) = .ok y ∧ x ≤ y := by
  obtain ⟨x, y, e1, e2, c, hc, e⟩ := C104_mean_value s hs {x : K | 0 ≤ x} (convex_Ici 0) d _ (List.getElem?_eq_getElem hd) (.inr (le_refl (0 : K)))
    (stepsIn_of_nondecreasing h) t ht h01 u v ⟨hu, by linarith⟩ ⟨by linarith, hv⟩
  refine ⟨x, y, e1, e2, sub_nonneg.mp ?_⟩
  rw [e]
  exact mul_nonneg (sub_nonneg.mpr huv) hc

/-- C104. Increasing control points (of positive degree) give an increasing function. -/
theorem C104_strict (s : Spline K) (hs : s.WF) (d p : ℕ) (hp : s.degrees[d]? = some p) (hpos : 0 < p) (h : Increasing s d) (t : List K)
    (ht : t.length = s.dim) (h01 : InCube t) (u v : K) (hu : 0 ≤ u) (huv : u < v) (hv : v ≤ 1) :
    ∃ x y, s.evaluate (t.set d u) = .ok x ∧ s.evaluate (t.set d v) = .ok y ∧ x < y := by
  obtain ⟨x, y, e1, e2, c, hc, e⟩ := C104_mean_value s hs {x : K | 0 < x} (convex_Ioi 0) d p hp (.inl hpos)
    ((stepsIn_iff_increasing ⟨p, hp⟩).mp h) t ht h01 u v ⟨hu, by linarith⟩ ⟨by linarith, hv⟩
  refine ⟨x, y, e1, e2, sub_pos.mp ?_⟩
  rw [e]
  exact mul_pos (sub_pos.mpr huv) hc

/-- C104. Splits and elevations keep nondecreasing control points nondecreasing. -/
theorem C104_monotone_parts (s : Spline K) (hs : s.WF) (d : ℕ) (hd : d < s.dim) (h : Nondecreasing s d) (box : List (K × K)) (a : Spline K)
    (ha : PartOf s box a) : Nondecreasing a d := by
  have hp := List.getElem?_eq_getElem hd
  obtain ⟨l, _⟩ := C100_part (K := K) s _ hs.computes box a ha
  refine (stepsIn_iff_nondecreasing ⟨_, List.getElem?_eq_getElem (by rw [l]; exact hd)⟩).mpr ?_
  refine C104_parts_cone (K := K) s hs _ ⟨fun x hx y hy => add_nonneg hx hy, fun c hc x hx => mul_nonneg hc.le hx⟩ d _ hp (.inr (le_refl (0 : K)))
    (stepsIn_of_nondecreasing h) box a ha

/-- C104. Splits and elevations keep increasing control points (of positive degree) increasing. -/
theorem C104_strict_parts (s : Spline K) (hs : s.WF) (d p : ℕ) (hp : s.degrees[d]? = some p) (hpos : 0 < p) (h : Increasing s d)
    (box : List (K × K)) (a : Spline K) (ha : PartOf s box a) : Increasing a d := by
  obtain ⟨l, _⟩ := C100_part (K := K) s _ hs.computes box a ha
  have hd := (List.getElem?_eq_some_iff.mp hp).1
  refine (stepsIn_iff_increasing ⟨_, List.getElem?_eq_getElem (by rw [l]; exact hd)⟩).mpr ?_
  exact C104_parts_cone (K := K) s hs _ ⟨fun x hx y hy => add_pos hx hy, fun c hc x hx => mul_pos hc hx⟩ d p hp (.inl hpos)
    ((stepsIn_iff_increasing ⟨p, hp⟩).mp h) box a ha

/-- C104. No overlaps: if the steps of the control points in the directions lie in convex sets such that every choice of one vector from
each set is linearly independent, `Evaluate` takes different values at different points of the unit cube. -/
theorem C104_injective (s : Spline V) (hs : s.WF) (hpos : ∀ p ∈ s.degrees, 0 < p) (C : ℕ → Set V) (hC : ∀ d, Convex K (C d))
    (h : ∀ d < s.dim, StepsIn (C d) s d)
    (hind : ∀ (c : ℕ → V) (w : ℕ → K), (∀ d < s.dim, c d ∈ C d) → ∑ d ∈ range s.dim, w d • c d = 0 → ∀ d < s.dim, w d = 0)
    (t u : List K) (ht : t.length = s.dim) (hu : u.length = s.dim) (h01 : InCube t) (h01' : InCube u)
    (he : s.evaluate t = s.evaluate u) : t = u := by
  obtain ⟨x, y, e1, e2, c, hc, e⟩ := C104_increment s hs C hC (fun d p hp => .inl (hpos p (List.mem_of_getElem? hp))) h t u ht hu h01 h01'
  rw [e1, e2] at he
  obtain rfl := Except.ok.inj he
  rw [sub_self] at e
  have := hind c _ hc e.symm
  refine List.ext_getElem (by rw [ht, hu]) fun i h1 h2 => ?_
  have := this i (by omega)
  rw [List.getD_eq_getElem?_getD, List.getElem?_eq_getElem h2, List.getD_eq_getElem?_getD, List.getElem?_eq_getElem h1] at this
  exact (sub_eq_zero.mp this).symm

theorem valid_once {ps idx : List ℕ} {d p : ℕ} (hp : ps[d]? = some p) (hpos : 0 < p) :
    ValidIdx (List.zipWith (· - ·) ps (once ps.length d)) idx ↔ ValidIdx ps (idx.modify d (· + 1)) := by
  obtain ⟨hd, rfl⟩ := List.getElem?_eq_some_iff.mp hp
  unfold ValidIdx
  rw [List.forall₂_iff_get, List.forall₂_iff_get]
  simp only [List.length_zipWith, once, List.length_set, List.length_replicate, min_self, List.length_modify, List.get_eq_getElem,
    List.getElem_zipWith, List.getElem_set, List.getElem_replicate, List.getElem_modify]
  refine and_congr_right fun _ => ⟨fun h i h1 h2 => ?_, fun h i h1 h2 => ?_⟩
  · have := h i h1 h2
    split_ifs at this ⊢ with hi
    · subst hi; omega
    · omega
  · have := h i h1 h2
    split_ifs at this ⊢ with hi
    · subst hi; omega
    · omega

/-- C104. The control points of the derivative spline in direction `d` are these steps. -/
theorem C104_derivative (cfg : Cfg) (hc : cfg.Ok) (s : Spline V) (hs : s.WF) (d p : ℕ) (hp : s.degrees[d]? = some p) (hpos : 0 < p)
    (h1 : 1 < cfg.maxBinom) (hsz : size s.degrees < 2 ^ 64) :
    ∃ r, Spline.derivativeSpline K cfg s (once s.dim d) = .ok r ∧ ∀ C : Set V, StepsIn C s d ↔ ∀ x ∈ r.cps, x ∈ C := by
  have hd : d < s.dim := (List.getElem?_eq_some_iff.mp hp).1
  obtain ⟨r, e, ⟨hw, hdeg⟩, pts⟩ := C90_derivative (K := K) cfg hc s hs (once s.dim d) (by simp [once]) (by
      intro d' o q ho hq
      unfold once at ho
      rw [List.getElem?_set] at ho
      split at ho
      · subst_vars
        rw [hp] at hq
        obtain rfl := Option.some.inj hq
        split at ho
        · obtain rfl := Option.some.inj ho; omega
        · cases ho
      · rw [List.getElem?_replicate] at ho
        split at ho
        · obtain rfl := Option.some.inj ho; omega
        · cases ho) (by
      intro o ho
      rcases List.mem_or_eq_of_mem_set ho with h | rfl
      · rw [(List.mem_replicate.mp h).2]; omega
      · exact h1) hsz s.cp (hasPoints_cp hs)
  have hval : ∀ idx, ValidIdx r.degrees idx ↔ ValidIdx s.degrees (idx.modify d (· + 1)) := by
    intro idx; rw [hdeg]; exact valid_once hp hpos
  have hpt : ∀ idx, ValidIdx r.degrees idx → r.controlPoint idx = .ok (p • (s.cp (idx.modify d (· + 1)) - s.cp idx)) := by
    intro idx hv
    rw [pts idx hv]
    congr 1
    have hl := List.Forall₂.length_eq ((hval idx).mp hv)
    rw [List.length_modify] at hl
    rw [once, derivNet_single hp _ idx (hl.trans rfl : idx.length = s.dim) hd, if_neg (by omega)]
  refine ⟨r, e, fun C => ?_⟩
  rw [stepsIn_iff hs]
  constructor
  · intro h x hx
    obtain ⟨idx, hv, e1⟩ := hw.index_of_mem hx
    rw [hpt idx hv] at e1
    rw [← Except.ok.inj e1]
    exact h p hp idx ((hval idx).mp hv)
  · intro h q hq idx hv
    rw [hp] at hq
    obtain rfl := Option.some.inj hq
    exact h _ (mem_of_controlPoint (hpt idx ((hval idx).mpr hv)))

theorem once_add (n d : ℕ) : sumDegrees (once n d) (once n d) = twice n d := by
  refine List.ext_getElem? fun i => ?_
  unfold sumDegrees once twice
  rw [List.getElem?_zipWith, List.getElem?_set, List.getElem?_set, List.getElem?_replicate, List.length_replicate]
  by_cases hi : d = i
  · subst hi
    by_cases h : d < n <;> simp [h]
  · by_cases h : i < n <;> simp [h, hi]

theorem once_le {ps : List ℕ} {d p : ℕ} (hp : ps[d]? = some p) (hpos : 0 < p) {n : ℕ} :
    ∀ (e o q : ℕ), (once n d)[e]? = some o → ps[e]? = some q → o ≤ q := by
  intro e o q ho hq
  unfold once at ho
  rw [List.getElem?_set] at ho
  split at ho
  · subst_vars
    rw [hp] at hq
    obtain rfl := Option.some.inj hq
    split at ho
    · obtain rfl := Option.some.inj ho; omega
    · cases ho
  · rw [List.getElem?_replicate] at ho
    split at ho
    · obtain rfl := Option.some.inj ho; omega
    · cases ho

/-- C104. A function whose second derivative in direction `d` has nonnegative control points is convex in parameter `d`. -/
theorem C104_convex (cfg : Cfg) (hmax : cfg.maxBinom ≤ 68) (s : Spline ℝ) (hs : s.WF) (d p : ℕ) (hp : s.degrees[d]? = some p)
    (hp2 : 2 ≤ p) (h2 : 2 < cfg.maxBinom) (hsz : size s.degrees < 2 ^ 64) (r : Spline ℝ)
    (hr : Spline.derivativeSpline ℝ cfg s (twice s.dim d) = .ok r) (h : ∀ x ∈ r.cps, 0 ≤ x) (t : List ℝ) (ht : t.length = s.dim)
    (h01 : InCube t) : ∃ g : ℝ → ℝ, (∀ x, s.evaluate (t.set d x) = .ok (g x)) ∧ ConvexOn ℝ (Set.Icc 0 1) g := by
  have hd : d < s.dim := (List.getElem?_eq_some_iff.mp hp).1
  have hc := hs.computes (K := ℝ)
  have hord : ∀ o ∈ once s.dim d, o < cfg.maxBinom := by
    intro o ho
    rcases List.mem_or_eq_of_mem_set ho with h | rfl
    · rw [(List.mem_replicate.mp h).2]; omega
    · omega
  have hlen : (once s.dim d).length = s.degrees.length := by simp [once]; rfl
  obtain ⟨x, e1, cx⟩ := C13_derivative_spline cfg hmax s _ _ hc (once s.dim d) hlen (once_le hp (by omega)) hord hsz
  have hdx : x.degrees[d]? = some (p - 1) := by
    rw [cx.degrees_eq, List.getElem?_zipWith, hp]
    simp [once, hd]
  have hdim : x.dim = s.dim := by
    show x.degrees.length = s.degrees.length
    rw [cx.degrees_eq, List.length_zipWith, hlen, min_self]
  have hszx : size x.degrees < 2 ^ 64 := by
    refine lt_of_le_of_lt (size_mono hdim fun i y z hy hz => ?_) hsz
    rw [cx.degrees_eq, List.getElem?_zipWith, hz] at hy
    cases ho : (once s.dim d)[i]? with
    | none => rw [ho] at hy; cases hy
    | some o => rw [ho] at hy; obtain rfl := Option.some.inj hy; exact Nat.sub_le _ _
  obtain ⟨r', e2, hst⟩ := C104_derivative (K := ℝ) cfg hmax x cx.wf d (p - 1) hdx (by omega) (by omega) hszx
  have e3 : r' = r := by
    obtain ⟨x', r'', f1, f2, f3⟩ := C71_derivative_derivative cfg hmax s _ _ hc (once s.dim d) (once s.dim d) hlen hlen (by
        intro e o o' q ho ho' hq
        obtain rfl := Option.some.inj (ho.symm.trans ho')
        unfold once at ho
        rw [List.getElem?_set] at ho
        split at ho
        · subst_vars
          rw [hp] at hq
          obtain rfl := Option.some.inj hq
          split at ho
          · obtain rfl := Option.some.inj ho; omega
          · cases ho
        · rw [List.getElem?_replicate] at ho
          split at ho
          · obtain rfl := Option.some.inj ho; omega
          · cases ho) (by
        rw [once_add]
        intro o ho
        rcases List.mem_or_eq_of_mem_set ho with h | rfl
        · rw [(List.mem_replicate.mp h).2]; omega
        · omega) hsz
    rw [e1] at f1
    obtain rfl := Except.ok.inj f1
    rw [hdim, f2] at e2
    rw [once_add, hr] at f3
    exact (Except.ok.inj e2).symm.trans (Except.ok.inj f3).symm
  subst e3
  have hsx := (hst {x : ℝ | 0 ≤ x}).mpr h
  have hnd : Nondecreasing x d := (stepsIn_iff_nondecreasing ⟨_, hdx⟩).mpr hsx
  have hlt : ∀ z : ℝ, (t.set d z).length = s.degrees.length := fun z => by rw [List.length_set]; exact ht
  refine ⟨fun z => s.value (t.set d z), fun z => hc.eval _ (hlt z), ?_⟩
  have hder : ∀ z : ℝ, HasDerivAt (fun z => s.value (t.set d z)) (pderiv (once s.dim d) s.value (t.set d z)) z := by
    intro z
    have hk : (List.replicate s.degrees.length 0).length = s.degrees.length := by simp
    have := hasDerivAt_tens (ps := s.degrees) (ks := List.replicate s.degrees.length 0) (ts := t.set d z) hk (hlt z)
      (fun n => s.cps.getD n 0) (d := d) (k := 0) (t := z) (by simp [List.getElem?_replicate]; exact hd)
      (by simp [show d < t.length by omega])
    rw [pderiv_value hc hlen (hlt z)]
    have he : (fun y => s.value (t.set d y)) = fun y => tens s.degrees (Spline.dFns s.degrees (List.replicate s.degrees.length 0)
        ((t.set d z).set d y)) (fun n => s.cps.getD n 0) := by
      funext y
      rw [List.set_set, dFns_zero (hlt y), Spline.value_eq_neval, neval_eq_tens]
    rw [he]
    exact this
  refine MonotoneOn.convexOn_of_deriv (convex_Icc 0 1) (fun z _ => (hder z).continuousAt.continuousWithinAt)
    (fun z _ => (hder z).differentiableAt.differentiableWithinAt) ?_
  intro y hy z hz hyz
  rw [interior_Icc] at hy hz
  rw [(hder y).deriv, (hder z).deriv]
  obtain ⟨a, b, ea, eb, hab⟩ := C104_monotone x cx.wf d (by rw [hdim]; exact hd) hnd t (by rw [hdim]; exact ht) h01 y z hy.1.le hyz hz.2.le
  have hl' : ∀ z : ℝ, (t.set d z).length = (List.zipWith (· - ·) s.degrees (once s.dim d)).length := fun z => by
    rw [List.length_zipWith, hlen, min_self]; exact hlt z
  rw [cx.eval _ (hl' y)] at ea
  rw [cx.eval _ (hl' z)] at eb
  rw [Except.ok.inj ea, Except.ok.inj eb]
  exact hab

/-- C104. The condition is sufficient, not necessary: the cubic with control points 0, 2, 1, 3 increases although the control points do not. -/
theorem C104_not_necessary : ∃ s : Spline ℚ, s.WF ∧ ¬ Nondecreasing s 0 ∧ ∀ u v : ℚ, 0 ≤ u → u < v → v ≤ 1 →
    ∃ x y, s.evaluate [u] = .ok x ∧ s.evaluate [v] = .ok y ∧ x < y := by
  refine ⟨⟨[3], 4, [1], [0, 2, 1, 3]⟩, ⟨Nat.zero_lt_succ _, rfl, rfl, rfl⟩, fun h => ?_, fun u v hu huv hv => ?_⟩
  · have := h [1] 2 1 (.cons (by decide) .nil) rfl rfl
    norm_num at this
  · have hs : (⟨[3], 4, [1], [0, 2, 1, 3]⟩ : Spline ℚ).WF := ⟨Nat.zero_lt_succ _, rfl, rfl, rfl⟩
    have ev : ∀ t : ℚ, (⟨[3], 4, [1], [0, 2, 1, 3]⟩ : Spline ℚ).evaluate [t] = .ok (6 * t - 9 * t ^ 2 + 6 * t ^ 3) := by
      intro t
      rw [Spline.evaluate_casteljau hs (t := [t]) rfl (hasPoints_cp hs)]
      congr 1
      simp only [casteljau, triangle]
      show (1 - t) * ((1 - t) * ((1 - t) * (0 : ℚ) + t * 2) + t * ((1 - t) * 2 + t * 1)) +
        t * ((1 - t) * ((1 - t) * 2 + t * 1) + t * ((1 - t) * 1 + t * 3)) = _
      ring
    refine ⟨_, _, ev u, ev v, ?_⟩
    have : 6 * v - 9 * v ^ 2 + 6 * v ^ 3 - (6 * u - 9 * u ^ 2 + 6 * u ^ 3) = (v - u) * (3 / 2 * ((u + v - 1) ^ 2 * 3 + (v - u) ^ 2 + 1)) := by ring
    have h2 : 0 < (v - u) * (3 / 2 * ((u + v - 1) ^ 2 * 3 + (v - u) ^ 2 + 1)) := mul_pos (sub_pos.mpr huv) (by positivity)
    linarith

/-! ### concrete cases -/

/-- a surface over the plane, slightly bent -/
def bent : Spline (Point ℚ 2) :=
  Ex.surf ⟨![0, 0]⟩ ⟨![1, 1 / 2]⟩ ⟨![2, 0]⟩ ⟨![1 / 2, 2]⟩ ⟨![1, 2]⟩ ⟨![2, 5 / 2]⟩

theorem bent_wf : bent.WF := Ex.surf_wf ..

/-- direction 0 goes to the right, direction 1 upwards -/
def sector : ℕ → Set (Point ℚ 2)
  | 0 => {x | |x.val 1| < x.val 0}
  | _ => {x | |x.val 0| < x.val 1}

theorem sector_cone (d : ℕ) : IsCone ℚ (sector d) := by
  have key : ∀ i j : Fin 2, IsCone ℚ {x : Point ℚ 2 | |x.val i| < x.val j} := fun i j => by
    refine ⟨fun x hx y hy => ?_, fun c hc x hx => ?_⟩
    · show |x.val i + y.val i| < x.val j + y.val j
      exact lt_of_le_of_lt (abs_add_le _ _) (add_lt_add hx hy)
    · show |x.val i * c| < x.val j * c
      rw [abs_mul, abs_of_pos hc]
      exact mul_lt_mul_of_pos_right hx hc
  unfold sector
  split <;> exact key _ _

theorem stepsIn_surface {V : Type} [AddCommGroup V] {s : Spline V} (hs : s.WF) {p q : ℕ} (hd : s.degrees = [p, q]) {C : ℕ → Set V}
    (h0 : ∀ i < p, ∀ j < q + 1, p • (s.cp [i + 1, j] - s.cp [i, j]) ∈ C 0)
    (h1 : ∀ i < p + 1, ∀ j < q, q • (s.cp [i, j + 1] - s.cp [i, j]) ∈ C 1) (d : ℕ) (hdim : d < s.dim) : StepsIn (C d) s d := by
  rw [stepsIn_iff hs]
  intro r hr idx hv
  rw [hd] at hr hv
  have hl : idx.length = 2 := by have := List.Forall₂.length_eq hv; simpa using this
  match idx, hl with
  | [i, j], _ =>
    match d, hdim with
    | 0, _ =>
      obtain rfl : p = r := by simpa using hr
      cases hv with
      | cons a b => cases b with
        | cons b c => exact h0 i (show i + 1 ≤ p from a) j (by omega)
    | 1, _ =>
      obtain rfl : q = r := by simpa using hr
      cases hv with
      | cons a b => cases b with
        | cons b c => exact h1 i (by omega) j (show j + 1 ≤ q from b)
    | d + 2, h => rw [show s.dim = s.degrees.length from rfl, hd] at h; simp at h

theorem bent_steps (d : ℕ) (hd : d < bent.dim) : StepsIn (sector d) bent d := by
  refine stepsIn_surface bent_wf (p := 2) (q := 1) rfl (C := sector) ?_ ?_ d hd
  · show ∀ i < 2, ∀ j < 1 + 1, |(2 • (bent.cp [i + 1, j] - bent.cp [i, j])).val 1| < (2 • (bent.cp [i + 1, j] - bent.cp [i, j])).val 0
    decide +kernel
  · show ∀ i < 2 + 1, ∀ j < 1, |(1 • (bent.cp [i, j + 1] - bent.cp [i, j])).val 0| < (1 • (bent.cp [i, j + 1] - bent.cp [i, j])).val 1
    decide +kernel

theorem sector_independent (c : ℕ → Point ℚ 2) (w : ℕ → ℚ) (hc : ∀ d < bent.dim, c d ∈ sector d) (h : ∑ d ∈ range bent.dim, w d • c d = 0) :
    ∀ d < bent.dim, w d = 0 := by
  have h0 : |(c 0).val 1| < (c 0).val 0 := hc 0 (by decide)
  have h1 : |(c 1).val 0| < (c 1).val 1 := hc 1 (by decide)
  have e : w 0 • c 0 + w 1 • c 1 = 0 := by
    rw [← h, show bent.dim = 2 from rfl, sum_range_succ, sum_range_succ, sum_range_zero, zero_add]
  have e0 : (c 0).val 0 * w 0 + (c 1).val 0 * w 1 = 0 := congrFun (congrArg Point.val e) 0
  have e1 : (c 0).val 1 * w 0 + (c 1).val 1 * w 1 = 0 := congrFun (congrArg Point.val e) 1
  have a0 := abs_nonneg ((c 0).val 1)
  have a1 := abs_nonneg ((c 1).val 0)
  have hdet : 0 < (c 0).val 0 * (c 1).val 1 - (c 0).val 1 * (c 1).val 0 := by
    have : (c 0).val 1 * (c 1).val 0 ≤ |(c 0).val 1| * |(c 1).val 0| := by rw [← abs_mul]; exact le_abs_self _
    nlinarith
  have w0 : w 0 = 0 := by
    have : ((c 0).val 0 * (c 1).val 1 - (c 0).val 1 * (c 1).val 0) * w 0 = 0 := by linear_combination (c 1).val 1 * e0 - (c 1).val 0 * e1
    exact (mul_eq_zero.mp this).resolve_left hdet.ne'
  have w1 : w 1 = 0 := by
    have : ((c 0).val 0 * (c 1).val 1 - (c 0).val 1 * (c 1).val 0) * w 1 = 0 := by linear_combination (c 0).val 0 * e1 - (c 0).val 1 * e0
    exact (mul_eq_zero.mp this).resolve_left hdet.ne'
  intro d hd
  match d, hd with
  | 0, _ => exact w0
  | 1, _ => exact w1

/-- the bent surface does not overlap itself -/
example := C104_injective bent bent_wf (by decide) sector (fun d => (sector_cone d).convex) bent_steps sector_independent
example := C104_mean_value (K := ℚ) bent bent_wf (sector 0) (sector_cone 0).convex 0 2 rfl (.inl (by decide)) (bent_steps 0 (by decide)) [1 / 3, 1 / 2] rfl
  (by unfold InCube; decide +kernel) (1 / 4) (3 / 4) (by norm_num) (by norm_num)
example := C104_increment (K := ℚ) bent bent_wf sector (fun d => (sector_cone d).convex) (fun d p hp => .inl (by
    have : p ∈ [2, 1] := List.mem_of_getElem? hp
    simp only [List.mem_cons, List.not_mem_nil, or_false] at this
    omega)) bent_steps [1 / 3, 1 / 2] [0, 1] rfl rfl (by unfold InCube; decide +kernel) (by unfold InCube; decide +kernel)
example := fun box a h => C104_parts (K := ℚ) bent bent_wf (sector 1) (sector_cone 1).convex 1 1 rfl (.inl (by decide)) (bent_steps 1 (by decide)) box a h
example := fun box a h => C104_parts_cone (K := ℚ) bent bent_wf (sector 1) (sector_cone 1) 1 1 rfl (.inl (by decide)) (bent_steps 1 (by decide)) box a h
example := C104_cone (K := ℚ) bent bent_wf (sector 1) (sector_cone 1) 1 1 rfl (by decide) (bent_steps 1 (by decide)) [1 / 3, 1 / 2] rfl
  (by unfold InCube; decide +kernel) (1 / 4) (3 / 4) (by norm_num) (by norm_num) (by norm_num)
example := C104_derivative (K := ℚ) Ex.cfg Ex.cfg_ok bent bent_wf 0 2 rfl (by decide) (by decide) (by decide)

/-- a scalar surface that increases in direction 0 and stays equal or increases in direction 1 -/
def hill : Spline ℚ := Ex.surf 0 1 3 0 2 5

theorem hill_increasing : Increasing hill 0 := (stepsIn_iff_increasing ⟨2, rfl⟩).mpr
  (stepsIn_surface (Ex.surf_wf ..) (p := 2) (q := 1) rfl (C := fun d => if d = 0 then {x : ℚ | 0 < x} else Set.univ)
    (by show ∀ i < 2, ∀ j < 1 + 1, 0 < 2 • (hill.cp [i + 1, j] - hill.cp [i, j]); decide +kernel) (by simp) 0 (by decide))

theorem hill_nondecreasing : Nondecreasing hill 1 := (stepsIn_iff_nondecreasing ⟨1, rfl⟩).mpr
  (stepsIn_surface (Ex.surf_wf ..) (p := 2) (q := 1) rfl (C := fun d => if d = 1 then {x : ℚ | 0 ≤ x} else Set.univ) (by simp)
    (by show ∀ i < 2 + 1, ∀ j < 1, 0 ≤ 1 • (hill.cp [i, j + 1] - hill.cp [i, j]); decide +kernel) 1 (by decide))

example := C104_monotone hill (Ex.surf_wf ..) 1 (by decide) hill_nondecreasing [1 / 3, 1] rfl (by unfold InCube; decide +kernel) 0 (1 / 2)
  (by norm_num) (by norm_num) (by norm_num)
example := C104_strict hill (Ex.surf_wf ..) 0 2 rfl (by decide) hill_increasing [1 / 3, 1] rfl (by unfold InCube; decide +kernel) 0 (1 / 2)
  (by norm_num) (by norm_num) (by norm_num)
example := fun box a h => C104_monotone_parts hill (Ex.surf_wf ..) 1 (by decide) hill_nondecreasing box a h
example := fun box a h => C104_strict_parts hill (Ex.surf_wf ..) 0 2 rfl (by decide) hill_increasing box a h

/-- a parabola: the second derivative has the control point 2 -/
theorem parabola_second : ∃ r, Spline.derivativeSpline ℝ Ex.cfg (Ex.curve (0 : ℝ) 0 1) (twice 1 0) = .ok r ∧ ∀ x ∈ r.cps, 0 ≤ x := by
  obtain ⟨r, e, ⟨hw, hd⟩, pts⟩ := C90_derivative (K := ℝ) Ex.cfg Ex.cfg_ok (Ex.curve (0 : ℝ) 0 1) (Ex.curve_wf ..) (twice 1 0) rfl
    (ord_le rfl (by decide)) (by decide) (by decide) _ (hasPoints_cp (Ex.curve_wf ..))
  refine ⟨r, e, fun x hx => ?_⟩
  obtain ⟨idx, hv, e1⟩ := hw.index_of_mem hx
  rw [pts idx hv] at e1
  rw [hd] at hv
  rw [← Except.ok.inj e1]
  cases hv with
  | @cons i _ is _ a b => cases b with
    | nil =>
      obtain rfl : i = 0 := by simpa [Ex.curve, twice] using a
      simp [derivNet, Ex.curve, twice, derivOf, differenceOf, repeatFrom, signOf, fallingOf, Spline.cp, Spline.dim]

example : ∃ g : ℝ → ℝ, (∀ x, (Ex.curve (0 : ℝ) 0 1).evaluate [x] = .ok (g x)) ∧ ConvexOn ℝ (Set.Icc 0 1) g := by
  obtain ⟨r, e, h⟩ := parabola_second
  exact C104_convex Ex.cfg Ex.cfg_ok (Ex.curve (0 : ℝ) 0 1) (Ex.curve_wf ..) 0 2 rfl le_rfl (by decide) (by decide) r e h [0] rfl
    (by intro x hx; obtain rfl := List.mem_singleton.mp hx; norm_num)

end Bezman.Props
