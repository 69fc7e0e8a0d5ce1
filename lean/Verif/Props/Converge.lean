import Verif.Proofs.Converge
import Verif.Props.Formulas
import Verif.Props.Hull
import Verif.Props.NonFinite

/-! # Properties: control points converge to the geometry -/

namespace Bezman.Props
open Spec Finset
variable {K V : Type} [Field K] [LinearOrder K] [IsStrictOrderedRing K] [AddCommGroup V] [Module K V] {N : V → K}

omit [IsStrictOrderedRing K] in
theorem stepBound_iff {s : Spline V} (hs : s.WF) {P : List ℕ → V} (hP : HasPoints s P) {M : ℕ → K} :
    (∀ d < s.degrees.length, StepBound N s d (M d)) ↔ NetSteps N s.degrees P M := by
  constructor
  · intro h d p hp idx hv
    exact h d (List.getElem?_eq_some_iff.mp hp).1 idx p _ _ hp hv (hP _ hv.of_modify) (hP _ hv)
  · intro h d _ idx p x y hp hv hx hy
    rw [hP _ hv.of_modify] at hx
    rw [hP _ hv] at hy
    obtain rfl := Except.ok.inj hx
    obtain rfl := Except.ok.inj hy
    exact h d p hp idx hv

theorem set_modify_same {idx : List ℕ} {d j : ℕ} : (idx.modify d (· + 1)).set d j = idx.set d j := by
  refine List.ext_getElem? fun i => ?_
  rw [List.getElem?_set, List.getElem?_set]
  by_cases h : d = i
  · simp [h]
  · simp [h, List.getElem?_modify]

theorem set_modify_other {idx : List ℕ} {d e j : ℕ} (h : e ≠ d) : (idx.modify e (· + 1)).set d j = (idx.set d j).modify e (· + 1) := by
  refine List.ext_getElem? fun i => ?_
  rw [List.getElem?_set, List.getElem?_modify, List.getElem?_modify, List.getElem?_set]
  by_cases h1 : d = i
  · subst h1; simp [h]
  · simp [h1]

theorem modify_set_same {idx : List ℕ} {d j : ℕ} : (idx.set d j).modify d (· + 1) = idx.set d (j + 1) := by
  refine List.ext_getElem? fun i => ?_
  rw [List.getElem?_set, List.getElem?_modify, List.getElem?_set]
  by_cases h1 : d = i
  · subst h1
    by_cases h2 : d < idx.length <;> simp [h2]
  · simp [h1]

theorem getD_modify_same {idx : List ℕ} {d : ℕ} (h : d < idx.length) : (idx.modify d (· + 1)).getD d 0 = idx.getD d 0 + 1 := by
  simp [List.getD_eq_getElem?_getD, List.getElem?_modify, h]

theorem getD_modify_other {idx : List ℕ} {d e : ℕ} (h : e ≠ d) : (idx.modify e (· + 1)).getD d 0 = idx.getD d 0 := by
  simp [List.getD_eq_getElem?_getD, List.getElem?_modify, h]

theorem valid_set {ps idx : List ℕ} {d p j : ℕ} (hv : ValidIdx ps idx) (hp : ps[d]? = some p) (hj : j ≤ p) : ValidIdx ps (idx.set d j) := by
  have hl := List.Forall₂.length_eq hv
  refine List.forall₂_iff_get.mpr ⟨by simpa using hl, fun i h1 h2 => ?_⟩
  have := (List.forall₂_iff_get.mp hv).2 i (by simpa using h1) h2
  simp only [List.get_eq_getElem, List.getElem_set] at this ⊢
  split
  · subst_vars
    rw [List.getElem?_eq_getElem h2] at hp
    obtain rfl := Option.some.inj hp
    exact hj
  · exact this

theorem getD_le {ps idx : List ℕ} {d p : ℕ} (hv : ValidIdx ps idx) (hp : ps[d]? = some p) : d < idx.length ∧ idx.getD d 0 ≤ p := by
  have hl := List.Forall₂.length_eq hv
  obtain ⟨h2, rfl⟩ := List.getElem?_eq_some_iff.mp hp
  have h1 : d < idx.length := by omega
  have := (List.forall₂_iff_get.mp hv).2 d h1 h2
  refine ⟨h1, ?_⟩
  rw [List.getD_eq_getElem?_getD, List.getElem?_eq_getElem h1]
  exact this

/-- the two parts of a split -/
theorem split_steps (hN : IsLength N) {ps : List ℕ} {P : List ℕ → V} {M : ℕ → K} (h : NetSteps N ps P M) {d p : ℕ} (hp : ps[d]? = some p)
    {z : K} (h0 : 0 ≤ z) (h1 : z ≤ 1) :
    NetSteps N ps (fun idx => triangle z (fun j => P (idx.set d j)) (idx.getD d 0) 0) (fun e => M e * if e = d then z else 1) ∧
    NetSteps N ps (fun idx => triangle z (fun j => P (idx.set d j)) (p - idx.getD d 0) (idx.getD d 0))
      (fun e => M e * if e = d then 1 - z else 1) := by
  have line : ∀ {idx : List ℕ}, ValidIdx ps idx → ∀ j < p, p * N (P (idx.set d (j + 1)) - P (idx.set d j)) ≤ M d := by
    intro idx hv j hj
    have := h d p hp (idx.set d j) (by rw [modify_set_same]; exact valid_set hv hp hj)
    rwa [modify_set_same] at this
  have cross : ∀ {e q : ℕ} {idx : List ℕ}, e ≠ d → ps[e]? = some q → ValidIdx ps (idx.modify e (· + 1)) → ∀ j ≤ p,
      q * N (P ((idx.modify e (· + 1)).set d j) - P (idx.set d j)) ≤ M e := by
    intro e q idx he hq hv j hj
    have := h e q hq (idx.set d j) (by rw [← set_modify_other he]; exact valid_set hv hp hj)
    rwa [← set_modify_other he] at this
  constructor <;> intro e q hq idx hv <;> dsimp only
  · by_cases he : e = d
    · subst he
      obtain rfl : p = q := Option.some.inj (hp.symm.trans hq)
      rw [if_pos rfl, getD_modify_same (getD_le hv.of_modify hp).1]
      simp only [set_modify_same]
      have := (getD_le hv hp).2
      rw [getD_modify_same (getD_le hv.of_modify hp).1] at this
      exact left_step hN (P := fun j => P (idx.set e j)) (Nat.cast_nonneg p) h0 h1 fun j hj => line hv.of_modify j (by omega)
    · rw [if_neg he, mul_one, getD_modify_other he, triangle_sub]
      have := (getD_le hv.of_modify hp).2
      exact hN.triangle (Nat.cast_nonneg q) h0 h1 fun j _ hj => cross he hq hv j (by omega)
  · by_cases he : e = d
    · subst he
      obtain rfl : p = q := Option.some.inj (hp.symm.trans hq)
      rw [if_pos rfl, getD_modify_same (getD_le hv.of_modify hp).1]
      simp only [set_modify_same]
      have := (getD_le hv hp).2
      rw [getD_modify_same (getD_le hv.of_modify hp).1] at this
      rw [show p - idx.getD e 0 = p - (idx.getD e 0 + 1) + 1 by omega]
      exact right_step hN (P := fun j => P (idx.set e j)) (Nat.cast_nonneg p) h0 h1 fun j _ hj => line hv.of_modify j (by omega)
    · rw [if_neg he, mul_one, getD_modify_other he, triangle_sub]
      have := (getD_le hv.of_modify hp).2
      exact hN.triangle (Nat.cast_nonneg q) h0 h1 fun j _ hj => cross he hq hv j (by omega)

/-- the elevated net -/
theorem elevate_steps (hN : IsLength N) {ps : List ℕ} {P : List ℕ → V} {M : ℕ → K} (h : NetSteps N ps P M) {d p : ℕ} (hM : 0 ≤ M d)
    (hp : ps[d]? = some p) :
    NetSteps N (ps.set d (p + 1)) (fun idx => elevationOf K p (fun j => P (idx.set d j)) (idx.getD d 0)) M := by
  have hp' : (ps.set d (p + 1))[d]? = some (p + 1) := by
    rw [List.getElem?_set, if_pos rfl, if_pos (List.getElem?_eq_some_iff.mp hp).1]
  have back : ∀ {idx : List ℕ}, ValidIdx (ps.set d (p + 1)) idx → ∀ {j}, j ≤ p → ValidIdx ps (idx.set d j) := by
    intro idx hv j hj
    have hl : idx.length = ps.length := by have := List.Forall₂.length_eq hv; simpa using this
    refine List.forall₂_iff_get.mpr ⟨by simpa using hl, fun i h1 h2 => ?_⟩
    have := (List.forall₂_iff_get.mp hv).2 i (by simpa using h1) (by simpa using h2)
    simp only [List.get_eq_getElem, List.getElem_set] at this ⊢
    split
    · subst_vars
      rw [List.getElem?_eq_getElem h2] at hp
      obtain rfl := Option.some.inj hp
      exact hj
    · rw [if_neg (by assumption)] at this; exact this
  intro e q hq idx hv
  dsimp only
  by_cases he : e = d
  · subst he
    obtain rfl : p + 1 = q := Option.some.inj (hp'.symm.trans hq)
    rw [getD_modify_same (getD_le hv.of_modify hp').1]
    simp only [set_modify_same]
    have := (getD_le hv hp').2
    rw [getD_modify_same (getD_le hv.of_modify hp').1] at this
    refine elevate_step hN (P := fun j => P (idx.set e j)) hM (by omega) fun j hj => ?_
    have := h e p hp (idx.set e j) (by rw [modify_set_same]; exact back hv.of_modify hj)
    rwa [modify_set_same] at this
  · rw [getD_modify_other he]
    have := (getD_le hv.of_modify hp').2
    refine elevate_diff hN (Nat.cast_nonneg q) this fun j hj => ?_
    have := h e q (by rw [List.getElem?_set, if_neg (Ne.symm he)] at hq; exact hq) (idx.set d j)
      (by rw [← set_modify_other he]; exact back hv hj)
    rwa [← set_modify_other he] at this

theorem hasPoints_cp {V : Type} [Zero V] {s : Spline V} (hs : s.WF) : HasPoints s s.cp := fun _ hv => Spline.controlPoint_cp hs hv

theorem netSteps_congr {ps : List ℕ} {P Q : List ℕ → V} {M M' : ℕ → K} (h : NetSteps N ps P M) (hPQ : ∀ idx, ValidIdx ps idx → Q idx = P idx)
    (hM : ∀ d < ps.length, M d = M' d) : NetSteps N ps Q M' := by
  intro d p hp idx hv
  rw [hPQ _ hv, hPQ _ hv.of_modify, ← hM d (List.getElem?_eq_some_iff.mp hp).1]
  exact h d p hp idx hv

/-- both parts of a split, with what they compute -/
theorem splitAt_steps (hN : IsLength N) {s : Spline V} {ds : List ℕ} {f : List K → V} (hs : s.Computes ds f) {M : ℕ → K}
    (h : NetSteps N ds s.cp M) {d : ℕ} (hd : d < ds.length) {z : K} (h0 : 0 < z) (h1 : z < 1) :
    ∃ a b, s.splitAt z d = .ok (a, b) ∧ a.Computes ds (fun t => f (t.modify d (fun x => z * x))) ∧
      b.Computes ds (fun t => f (t.modify d (fun x => z + (1 - z) * x))) ∧
      NetSteps N ds a.cp (fun e => M e * if e = d then z else 1) ∧ NetSteps N ds b.cp (fun e => M e * if e = d then 1 - z else 1) := by
  obtain ⟨a, b, e, ca, cb⟩ := C31_split s ds f hs d hd z h0 h1
  have hdeg := hs.degrees_eq
  subst hdeg
  obtain ⟨a', b', e', _, _, pa, pb⟩ := C90_split s hs.wf d s.degrees[d] (List.getElem?_eq_getElem hd) z ⟨h0, h1⟩ s.cp (hasPoints_cp hs.wf)
  rw [e] at e'
  obtain ⟨rfl, rfl⟩ : a = a' ∧ b = b' := by simpa using Except.ok.inj e'
  obtain ⟨k1, k2⟩ := split_steps hN h (List.getElem?_eq_getElem hd) h0.le h1.le
  refine ⟨a, b, e, ca, cb, netSteps_congr k1 (fun idx hv => ?_) fun _ _ => rfl, netSteps_congr k2 (fun idx hv => ?_) fun _ _ => rfl⟩
  · exact pa.cp ca.wf (by rw [ca.degrees_eq]; exact hv)
  · exact pb.cp cb.wf (by rw [cb.degrees_eq]; exact hv)

theorem computes_congr {s : Spline V} {ds : List ℕ} {f g : List K → V} (hs : s.Computes ds f) (h : ∀ t, t.length = ds.length → g t = f t) :
    s.Computes ds g := ⟨hs.wf, hs.degrees_eq, fun t ht => by rw [hs.eval t ht, h t ht]⟩

/-- the part over an interval -/
theorem restrict_steps (hN : IsLength N) {s r : Spline V} {ds : List ℕ} {f : List K → V} (hs : s.Computes ds f) {M : ℕ → K}
    (h : NetSteps N ds s.cp M) {d : ℕ} (hd : d < ds.length) {u v : K} (h0 : 0 ≤ u) (h1 : u < v) (h2 : v ≤ 1)
    (hr : r.Computes ds (fun t => f (t.modify d (fun x => u + (v - u) * x)))) :
    NetSteps N ds r.cp (fun e => M e * if e = d then v - u else 1) := by
  have right : ∃ b : Spline V, b.Computes ds (fun t => f (t.modify d (fun x => u + (1 - u) * x))) ∧
      NetSteps N ds b.cp (fun e => M e * if e = d then 1 - u else 1) := by
    rcases h0.eq_or_lt with rfl | h0
    · refine ⟨s, computes_congr hs fun t _ => ?_, netSteps_congr h (fun _ _ => rfl) fun e _ => ?_⟩
      · congr 1
        simp only [sub_zero, one_mul, zero_add]
        exact List.modify_id ..
      · simp
    · obtain ⟨_, b, _, _, cb, _, k⟩ := splitAt_steps hN hs h hd h0 (by linarith)
      exact ⟨b, cb, k⟩
  obtain ⟨b, cb, kb⟩ := right
  rcases h2.eq_or_lt with rfl | h2
  · rw [hr.unique cb]; exact kb
  have hu : (0 : K) < 1 - u := by linarith
  obtain ⟨a, _, _, ca, _, ka, _⟩ := splitAt_steps hN cb kb hd (z := (v - u) / (1 - u)) (div_pos (by linarith) hu)
    (by rw [div_lt_one hu]; linarith)
  have : r = a := by
    refine hr.unique (computes_congr ca fun t _ => ?_)
    congr 1
    rw [List.modify_modify_eq]
    congr 1
    funext x
    simp only [Function.comp_apply]
    field_simp
  rw [this]
  refine netSteps_congr ka (fun _ _ => rfl) fun e _ => ?_
  split_ifs
  · field_simp
  · ring

theorem inBox_modify {box : List (K × K)} {t : List K} {d : ℕ} {φ : K → K} {ψ : K × K → K × K}
    (h : ∀ I x, I.1 + (I.2 - I.1) * φ x = (ψ I).1 + ((ψ I).2 - (ψ I).1) * x) : inBox (box.modify d ψ) t = inBox box (t.modify d φ) := by
  unfold inBox
  refine List.ext_getElem? fun i => ?_
  rw [List.getElem?_zipWith, List.getElem?_zipWith, List.getElem?_modify, List.getElem?_modify]
  by_cases hi : d = i
  · subst hi
    cases box[d]? <;> cases t[d]? <;> simp [h]
  · cases box[i]? <;> cases t[i]? <;> simp [hi]

theorem width_modify {box : List (K × K)} {d e : ℕ} {ψ : K × K → K × K} {c : K} (h : ∀ I, (ψ I).2 - (ψ I).1 = (I.2 - I.1) * c)
    (he : e < box.length) : width (box.modify d ψ) e = width box e * if e = d then c else 1 := by
  unfold width
  simp only [List.getD_eq_getElem?_getD, List.getElem?_modify, List.getElem?_eq_getElem he]
  by_cases hi : d = e
  · subst hi; simp [h]
  · simp [hi, Ne.symm hi]

/-- what is known about a part -/
structure IsPart (N : V → K) (L : ℕ → K) (n : ℕ) (f : List K → V) (box : List (K × K)) (a : Spline V) : Prop where
  len : a.degrees.length = n
  box_len : box.length = n
  box_ok : ∀ I ∈ box, 0 ≤ I.1 ∧ I.1 < I.2 ∧ I.2 ≤ 1
  computes : a.Computes a.degrees (fun t => f (inBox box t))
  steps : NetSteps N a.degrees a.cp (fun d => L d * width box d)

theorem mem_modify {α : Type} {l : List α} {d : ℕ} {f : α → α} {x : α} (h : x ∈ l.modify d f) : x ∈ l ∨ ∃ y ∈ l, x = f y := by
  obtain ⟨i, hi, rfl⟩ := List.mem_iff_getElem.mp h
  rw [List.length_modify] at hi
  rw [List.getElem_modify]
  split
  · exact .inr ⟨_, List.getElem_mem hi, rfl⟩
  · exact .inl (List.getElem_mem hi)

/-- a further restriction -/
theorem IsPart.restrict (hN : IsLength N) {L : ℕ → K} {n : ℕ} {f : List K → V} {box : List (K × K)} {a r : Spline V}
    (h : IsPart N L n f box a) {d : ℕ} (hd : d < n) {u v : K} (h0 : 0 ≤ u) (h1 : u < v) (h2 : v ≤ 1)
    (hr : r.Computes a.degrees (fun t => f (inBox box (t.modify d (fun x => u + (v - u) * x))))) :
    IsPart N L n f (box.modify d fun I => (I.1 + (I.2 - I.1) * u, I.1 + (I.2 - I.1) * v)) r := by
  have hdeg := hr.degrees_eq
  refine ⟨by rw [hdeg, h.len], by rw [List.length_modify, h.box_len], fun I hI => ?_, ?_, ?_⟩
  · rcases mem_modify hI with hI | ⟨J, hJ, rfl⟩
    · exact h.box_ok I hI
    · obtain ⟨j0, j1, j2⟩ := h.box_ok J hJ
      dsimp only
      have w : 0 < J.2 - J.1 := by linarith
      refine ⟨by positivity, by nlinarith, ?_⟩
      nlinarith
  · rw [hdeg]
    refine computes_congr hr fun t _ => ?_
    rw [inBox_modify (φ := fun x => u + (v - u) * x)]
    intro I x; ring
  · rw [hdeg]
    refine netSteps_congr (restrict_steps hN h.computes h.steps (by rw [h.len]; exact hd) h0 h1 h2 hr) (fun _ _ => rfl) fun e he => ?_
    rw [width_modify (c := v - u) (by intro I; ring) (by rw [h.box_len, ← h.len]; exact he)]
    ring

theorem isPart (hN : IsLength N) {L : ℕ → K} {s : Spline V} {f : List K → V} (hs : s.Computes s.degrees f)
    (hL : ∀ d < s.degrees.length, 0 ≤ L d ∧ StepBound N s d (L d)) {box : List (K × K)} {a : Spline V} (h : PartOf s box a) :
    IsPart N L s.degrees.length f box a := by
  induction h with
  | whole =>
    have hw : ∀ d < s.degrees.length, width (List.replicate s.degrees.length ((0 : K), (1 : K))) d = 1 := by
      intro d hd
      unfold width
      simp [List.getD_eq_getElem?_getD, List.getElem?_replicate, hd]
    refine ⟨rfl, by simp, fun I hI => ?_, computes_congr hs fun t ht => ?_, netSteps_congr ((stepBound_iff hs.wf (hasPoints_cp hs.wf)).mp
      fun d hd => (hL d hd).2) (fun _ _ => rfl) fun d hd => by rw [hw d hd, mul_one]⟩
    · obtain rfl := (List.mem_replicate.mp hI).2
      exact ⟨le_rfl, zero_lt_one, le_rfl⟩
    · congr 1
      unfold inBox
      refine List.ext_getElem? fun i => ?_
      rw [List.getElem?_zipWith, List.getElem?_replicate]
      by_cases hi : i < t.length
      · rw [if_pos (by omega), List.getElem?_eq_getElem hi]; simp
      · rw [if_neg (by omega), List.getElem?_eq_none (by omega)]
  | @left box a l r d z h hd e ih =>
    by_cases hz : 0 < z ∧ z < 1
    · obtain ⟨l', r', e', cl, cr⟩ := C31_split a _ _ ih.computes d (by rw [ih.len]; exact hd) z hz.1 hz.2
      rw [e] at e'
      obtain ⟨rfl, rfl⟩ : l = l' ∧ r = r' := by simpa using Except.ok.inj e'
      have := ih.restrict hN hd (u := 0) (v := z) le_rfl hz.1 hz.2.le (r := l) (by simpa using cl)
      simpa using this
    · rw [C31_split_throws a d z hz] at e; cases e
  | @right box a l r d z h hd e ih =>
    by_cases hz : 0 < z ∧ z < 1
    · obtain ⟨l', r', e', cl, cr⟩ := C31_split a _ _ ih.computes d (by rw [ih.len]; exact hd) z hz.1 hz.2
      rw [e] at e'
      obtain ⟨rfl, rfl⟩ : l = l' ∧ r = r' := by simpa using Except.ok.inj e'
      have := ih.restrict hN hd (u := z) (v := 1) hz.1.le hz.2 le_rfl (r := r) cr
      simpa using this
    · rw [C31_split_throws a d z hz] at e; cases e
  | @many box a l d r zs i u v h hd e hi hu hv ih =>
    by_cases hz : zs.Pairwise (· < ·) ∧ ∀ z ∈ zs, 0 < z ∧ z < 1
    · obtain ⟨l', e', _, hl⟩ := C33_split_many a _ _ ih.computes d (by rw [ih.len]; exact hd) zs hz.1 hz.2
      rw [e] at e'
      obtain rfl := Except.ok.inj e'
      have hp : (0 :: zs ++ [1]).Pairwise (· < ·) := by
        rw [List.cons_append, List.pairwise_cons, List.pairwise_append]
        refine ⟨fun x hx => ?_, hz.1, by simp, fun x hx y hy => ?_⟩
        · rcases List.mem_append.mp hx with hx | hx
          · exact (hz.2 x hx).1
          · rw [List.mem_singleton.mp hx]; exact zero_lt_one
        · rw [List.mem_singleton.mp hy]; exact (hz.2 x hx).2
      obtain ⟨hi1, rfl⟩ := List.getElem?_eq_some_iff.mp hu
      obtain ⟨hi2, rfl⟩ := List.getElem?_eq_some_iff.mp hv
      have hm : ∀ x ∈ (0 :: zs ++ [1] : List K), 0 ≤ x ∧ x ≤ 1 := by
        intro x hx
        rw [List.cons_append, List.mem_cons, List.mem_append, List.mem_singleton] at hx
        rcases hx with rfl | hx | rfl
        · exact ⟨le_rfl, zero_le_one⟩
        · exact ⟨(hz.2 x hx).1.le, (hz.2 x hx).2.le⟩
        · exact ⟨zero_le_one, le_rfl⟩
      exact ih.restrict hN hd (hm _ (List.getElem_mem hi1)).1 (List.pairwise_iff_getElem.mp hp i (i + 1) hi1 hi2 (by omega))
        (hm _ (List.getElem_mem hi2)).2 (hl i r _ _ hi hu hv)
    · rw [C33_split_many_throws a ih.computes.wf d (by rw [ih.len]; exact hd) zs hz] at e; cases e
  | @elevate box a d r h hd e hsz ih =>
    have hd' : d < a.degrees.length := by rw [ih.len]; exact hd
    have hp := List.getElem?_eq_getElem hd'
    have hsz' : size (a.degrees.set d (a.degrees[d] + 1)) < 2 ^ 31 := by rwa [modify_eq_set' hd'] at hsz
    obtain ⟨r', e', cr⟩ := C12_order_elevate a _ _ ih.computes d _ hp hsz'
    rw [e] at e'
    obtain rfl := Except.ok.inj e'
    obtain ⟨r', e', hr', pr⟩ := C90_elevate (K := K) a ih.computes.wf d _ hp hsz' a.cp (hasPoints_cp ih.computes.wf)
    rw [e] at e'
    obtain rfl := Except.ok.inj e'
    have hdeg := cr.degrees_eq
    refine ⟨by rw [hdeg, List.length_set, ih.len], ih.box_len, ih.box_ok, by rw [hdeg]; exact cr, ?_⟩
    rw [hdeg]
    refine netSteps_congr (elevate_steps hN ih.steps ?_ hp) (fun idx hv => pr.cp cr.wf (by rw [hdeg]; exact hv)) fun _ _ => rfl
    refine mul_nonneg (hL d hd).1 ?_
    have hb : d < box.length := by rw [ih.box_len]; exact hd
    have := ih.box_ok _ (List.getElem_mem hb)
    unfold width
    rw [List.getD_eq_getElem?_getD, List.getElem?_eq_getElem hb]
    exact sub_nonneg.mpr this.2.1.le

theorem width_nonneg {N : V → K} {L : ℕ → K} {n : ℕ} {f : List K → V} {box : List (K × K)} {a : Spline V} (h : IsPart N L n f box a)
    {d : ℕ} (hd : d < n) : 0 ≤ width box d := by
  have hb : d < box.length := by rw [h.box_len]; exact hd
  have := h.box_ok _ (List.getElem_mem hb)
  unfold width
  rw [List.getD_eq_getElem?_getD, List.getElem?_eq_getElem hb]
  exact sub_nonneg.mpr this.2.1.le

/-! ## C100 -/

/-- C100. A part obtained by any sequence of splits and elevations is the original function over its box, which lies in the unit cube. -/
theorem C100_part (s : Spline V) (f : List K → V) (hs : s.Computes s.degrees f) (box : List (K × K)) (a : Spline V) (h : PartOf s box a) :
    a.degrees.length = s.degrees.length ∧ box.length = s.degrees.length ∧ (∀ I ∈ box, 0 ≤ I.1 ∧ I.1 < I.2 ∧ I.2 ≤ 1) ∧
      a.Computes a.degrees (fun t => f (inBox box t)) := by
  have h0 : IsLength (fun _ : V => (0 : K)) := ⟨fun _ _ => by simp, fun _ _ => by simp⟩
  have := isPart h0 (L := fun _ => 0) hs (fun d _ => ⟨le_rfl, fun _ _ _ _ _ _ _ _ => by simp⟩) h
  exact ⟨this.len, this.box_len, this.box_ok, this.computes⟩

/-- C100. Distances of neighbouring control points (times the degree) shrink with the box: along each direction by the length of the box
in this direction.  Splits in other directions and elevations do not increase them. -/
theorem C100_steps (hN : IsLength N) (s : Spline V) (hs : s.WF) (L : ℕ → K)
    (hL : ∀ d < s.degrees.length, 0 ≤ L d ∧ StepBound N s d (L d)) (box : List (K × K)) (a : Spline V) (h : PartOf s box a)
    (d : ℕ) (hd : d < s.degrees.length) : StepBound N a d (L d * width box d) := by
  have := isPart hN (hs.computes (K := K)) hL h
  exact (stepBound_iff this.computes.wf (hasPoints_cp this.computes.wf)).mpr this.steps d (by rw [this.len]; exact hd)

/-- C100. So every control point of the part is near to the geometry: at most `∑ L_d · width_d` from every point of the part. -/
theorem C100_close (hN : IsLength N) (s : Spline V) (hs : s.WF) (L : ℕ → K)
    (hL : ∀ d < s.degrees.length, 0 ≤ L d ∧ StepBound N s d (L d)) (box : List (K × K)) (a : Spline V) (h : PartOf s box a)
    (x : V) (hx : x ∈ a.cps) (t : List K) (ht : t.length = s.degrees.length) (h01 : InCube t) :
    ∃ y, a.evaluate t = .ok y ∧ s.evaluate (inBox box t) = .ok y ∧ N (x - y) ≤ ∑ d ∈ range s.degrees.length, L d * width box d := by
  have hp := isPart hN (hs.computes (K := K)) hL h
  have hc := hp.computes
  have ht' : t.length = a.degrees.length := by rw [hp.len, ht]
  have e1 := hc.eval t ht'
  have e2 := Spline.evaluate_casteljau hc.wf ht' (hasPoints_cp hc.wf)
  obtain ⟨idx, hv, e3⟩ := hc.wf.index_of_mem hx
  rw [Spline.controlPoint_cp hc.wf hv] at e3
  obtain rfl := Except.ok.inj e3
  have e4 := Except.ok.inj (e1.symm.trans e2)
  refine ⟨_, e1, (hs.computes (K := K)).eval _ ?_, ?_⟩
  · unfold inBox
    rw [List.length_zipWith, hp.box_len, ht, min_self]
  · rw [e4, ← hp.len]
    exact net_value hN (fun d hd => mul_nonneg (hL d (by rw [← hp.len]; exact hd)).1 (width_nonneg hp (by rw [← hp.len]; exact hd))) hp.steps hv
      ht' h01

/-- C100. `Evaluate` is Lipschitz continuous on the unit cube, with the constants that the control points give. -/
theorem C100_lipschitz (hN : IsLength N) (s : Spline V) (hs : s.WF) (L : ℕ → K)
    (hL : ∀ d < s.degrees.length, 0 ≤ L d ∧ StepBound N s d (L d)) (t u : List K) (ht : t.length = s.degrees.length)
    (hu : u.length = s.degrees.length) (h01 : InCube t) (h01' : InCube u) :
    ∃ x y, s.evaluate t = .ok x ∧ s.evaluate u = .ok y ∧
      N (x - y) ≤ ∑ d ∈ range s.degrees.length, L d * |t.getD d 0 - u.getD d 0| := by
  refine ⟨_, _, Spline.evaluate_casteljau hs ht (hasPoints_cp hs), Spline.evaluate_casteljau hs hu (hasPoints_cp hs), ?_⟩
  exact casteljau_lip hN (fun d hd => (hL d hd).1) ((stepBound_iff hs (hasPoints_cp hs)).mp fun d hd => (hL d hd).2) ht hu h01 h01'

/-- bounds on the control points bound their distances -/
theorem stepBound_of_le (hN : IsLength N) {s : Spline V} {D : K} (hD : ∀ x ∈ s.cps, N x ≤ D) (d : ℕ) {q : ℕ} (hq : ∀ p, s.degrees[d]? = some p → p ≤ q) :
    StepBound N s d (q * (2 * D)) := by
  intro idx p x y hp hv hx hy
  have a1 := hN.add_le y (-x)
  rw [← sub_eq_add_neg, hN.neg] at a1
  have a2 := hD x (mem_of_controlPoint hx)
  have a3 := hD y (mem_of_controlPoint hy)
  have a4 : (p : K) ≤ (q : K) := by exact_mod_cast hq p hp
  exact mul_le_mul a4 (by linarith) (hN.nonneg _) (by positivity)

/-- C100. For every spline there are such constants, so that the control points of the parts converge to the geometry when the boxes
shrink: the distance is at most a constant times the sum of the lengths of the box. -/
theorem C100_converges (hN : IsLength N) (s : Spline V) (hs : s.WF) :
    ∃ C : K, 0 ≤ C ∧ (∀ d < s.degrees.length, StepBound N s d C) ∧
      ∀ (box : List (K × K)) (a : Spline V), PartOf s box a → ∀ x ∈ a.cps, ∀ t : List K, t.length = s.degrees.length → InCube t →
        ∃ y, s.evaluate (inBox box t) = .ok y ∧ N (x - y) ≤ C * ∑ d ∈ range s.degrees.length, width box d := by
  obtain ⟨D, hD0, hD⟩ : ∃ D : K, 0 ≤ D ∧ ∀ x ∈ s.cps, N x ≤ D := by
    refine ⟨(s.cps.map N).sum, List.sum_nonneg fun y hy => ?_, fun x hx => ?_⟩
    · obtain ⟨x, _, rfl⟩ := List.mem_map.mp hy
      exact hN.nonneg x
    · exact List.single_le_sum (fun y hy => by obtain ⟨x, _, rfl⟩ := List.mem_map.mp hy; exact hN.nonneg x) _ (List.mem_map_of_mem hx)
  have hC0 : (0 : K) ≤ (s.degrees.sum : K) * (2 * D) := by positivity
  have hstep : ∀ d < s.degrees.length, StepBound N s d ((s.degrees.sum : K) * (2 * D)) := by
    intro d _
    exact stepBound_of_le hN hD d fun p hp => List.single_le_sum (fun _ _ => Nat.zero_le _) p (List.mem_of_getElem? hp)
  refine ⟨_, hC0, hstep, fun box a h x hx t ht h01 => ?_⟩
  obtain ⟨y, _, h2, h3⟩ := C100_close hN s hs _ (fun d hd => ⟨hC0, hstep d hd⟩) box a h x hx t ht h01
  refine ⟨y, h2, ?_⟩
  rwa [← mul_sum] at h3

/-- C100. Any two control points of the part have at most this distance. -/
theorem C100_diameter (hN : IsLength N) (s : Spline V) (hs : s.WF) (L : ℕ → K)
    (hL : ∀ d < s.degrees.length, 0 ≤ L d ∧ StepBound N s d (L d)) (box : List (K × K)) (a : Spline V) (h : PartOf s box a)
    (x y : V) (hx : x ∈ a.cps) (hy : y ∈ a.cps) : N (x - y) ≤ ∑ d ∈ range s.degrees.length, L d * width box d := by
  have hp := isPart hN (hs.computes (K := K)) hL h
  have hc := hp.computes
  obtain ⟨i, hi, ei⟩ := hc.wf.index_of_mem hx
  obtain ⟨j, hj, ej⟩ := hc.wf.index_of_mem hy
  rw [Spline.controlPoint_cp hc.wf hi] at ei
  rw [Spline.controlPoint_cp hc.wf hj] at ej
  obtain rfl := Except.ok.inj ei
  obtain rfl := Except.ok.inj ej
  rw [← hp.len]
  exact net_diam hN (fun d hd => mul_nonneg (hL d (by rw [← hp.len]; exact hd)).1 (width_nonneg hp (by rw [← hp.len]; exact hd))) hp.steps hi hj

/-- C100. So the bounding boxes of the parts shrink: in coordinate `j`, with bounds `L` for the distances of this coordinate. -/
theorem C100_box {n : ℕ} (j : Fin n) (s : Spline (Point K n)) (hs : s.WF) (L : ℕ → K)
    (hL : ∀ d < s.degrees.length, 0 ≤ L d ∧ StepBound (fun x : Point K n => |x.val j|) s d (L d)) (box : List (K × K))
    (a : Spline (Point K n)) (h : PartOf s box a) :
    ∃ mx mn, Spline.maximumCorner K a = .ok mx ∧ Spline.minimumCorner K a = .ok mn ∧
      mx.val j - mn.val j ≤ ∑ d ∈ range s.degrees.length, L d * width box d := by
  have hN : IsLength (fun x : Point K n => |x.val j|) :=
    ⟨fun x y => abs_add_le (x.val j) (y.val j), fun c x => by show |x.val j * c| = _; rw [abs_mul, mul_comm]⟩
  have hc := (C100_part s _ (hs.computes (K := K)) box a h).2.2.2
  obtain ⟨mx, a1, a2, a3⟩ := Spline.maximumCorner_order (K := K) (V := Point K n) (fun _ _ => rfl) hc.wf
  obtain ⟨mn, b1, b2, b3⟩ := Spline.minimumCorner_order (K := K) (V := Point K n) (fun _ _ => rfl) hc.wf
  obtain ⟨x, hx, ex⟩ := a3 j
  obtain ⟨y, hy, ey⟩ := b3 j
  refine ⟨mx, mn, a1, b1, ?_⟩
  have := C100_diameter hN s hs L hL box a h x y hx hy
  have e : mx.val j - mn.val j = (x - y).val j := by
    show _ = x.val j - y.val j
    have e1 : x.val j = mx.val j := ex
    have e2 : y.val j = mn.val j := ey
    rw [e1, e2]
  rw [e]
  exact le_trans (le_abs_self _) this

/-! ### concrete cases -/

/-- the absolute value of a coordinate is a length -/
theorem coord_length (n : ℕ) (j : Fin n) : IsLength (fun x : Point K n => |x.val j|) :=
  ⟨fun x y => abs_add_le (x.val j) (y.val j), fun c x => by show |x.val j * c| = _; rw [abs_mul, mul_comm]⟩

theorem abs_length : IsLength (fun x : ℚ => |x|) := ⟨abs_add_le, fun c x => abs_mul c x⟩

theorem exA_steps (d : ℕ) (_ : d < Ex.A.degrees.length) : (0 : ℚ) ≤ ((2 : ℕ) * (2 * 6) : ℚ) ∧ StepBound (fun x : ℚ => |x|) Ex.A d ((2 : ℕ) * (2 * 6)) :=
  ⟨by norm_num, stepBound_of_le abs_length (by decide +kernel) d fun p hp => by
    have : p ∈ [2, 1] := List.mem_of_getElem? hp
    simp only [List.mem_cons, List.not_mem_nil, or_false] at this
    omega⟩

/-- a corner of a surface: first cut in direction 0, then in direction 1 -/
theorem exA_part : ∃ a, PartOf Ex.A [((0 : ℚ), 1 / 3), (1 / 2, 1)] a := by
  obtain ⟨a, b, e, ca, _⟩ := C31_split Ex.A _ _ (Ex.A_wf.computes (K := ℚ)) 0 (by decide) (1 / 3) (by norm_num) (by norm_num)
  obtain ⟨a', b', e', _⟩ := C31_split a _ _ ca 1 (by decide) (1 / 2) (by norm_num) (by norm_num)
  have := PartOf.right (PartOf.left (PartOf.whole (K := ℚ) (s := Ex.A)) (by decide) e) (by decide) e'
  refine ⟨b', ?_⟩
  have e3 : (((List.replicate Ex.A.degrees.length ((0 : ℚ), (1 : ℚ))).modify 0 fun I => (I.1, I.1 + (I.2 - I.1) * (1 / 3))).modify 1
      fun I => (I.1 + (I.2 - I.1) * (1 / 2), I.2)) = [((0 : ℚ), 1 / 3), (1 / 2, 1)] := by decide +kernel
  rwa [e3] at this

example := fun a h => C100_part Ex.A _ (Ex.A_wf.computes (K := ℚ)) [((0 : ℚ), 1 / 3), (1 / 2, 1)] a h
example := fun a h => C100_steps abs_length Ex.A Ex.A_wf _ exA_steps [((0 : ℚ), 1 / 3), (1 / 2, 1)] a h 1 (by decide)
example := fun a h x hx => C100_close abs_length Ex.A Ex.A_wf _ exA_steps [((0 : ℚ), 1 / 3), (1 / 2, 1)] a h x hx [1 / 3, 1] rfl
  (show InCube [(1 / 3 : ℚ), 1] by unfold InCube; decide +kernel)
example := C100_lipschitz abs_length Ex.A Ex.A_wf _ exA_steps [1 / 3, 1] [1, 0] rfl rfl (by unfold InCube; decide +kernel) (by unfold InCube; decide +kernel)
example := fun a h x y hx hy => C100_diameter abs_length Ex.A Ex.A_wf _ exA_steps [((0 : ℚ), 1 / 3), (1 / 2, 1)] a h x y hx hy
example := fun box a h => C100_box (1 : Fin 2) Ex.P Ex.P_wf (fun _ => (2 : ℕ) * (2 * 3)) (fun d _ => ⟨by norm_num,
  stepBound_of_le (coord_length 2 1) (by decide +kernel) d fun p hp => by
    have : p ∈ [2, 1] := List.mem_of_getElem? hp
    simp only [List.mem_cons, List.not_mem_nil, or_false] at this
    omega⟩) box a h
example := C100_converges (coord_length 2 1) Ex.P Ex.P_wf

end Bezman.Props
