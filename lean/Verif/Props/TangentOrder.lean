import Verif.Props.Tangent
import Verif.Props.Near

/-! # Properties: derivatives of any order at the corners (C112) -/

namespace Bezman.Props
open Spec Finset Topology
variable {V : Type} [NormedAddCommGroup V] [NormedSpace ℝ V]

theorem signOf_pow (j : ℕ) : signOf ℝ j = (-1) ^ j := by
  unfold signOf
  split
  · next h => rw [Even.neg_one_pow (Nat.even_iff.mpr h)]
  · next h => rw [Odd.neg_one_pow (Nat.odd_iff.mpr (by omega))]

omit [NormedSpace ℝ V] in
theorem repeatFrom_sum (x : V) (g : ℕ → V) : ∀ n, repeatFrom 1 (fun j (x : V) => x + g j) x n = x + ∑ j ∈ range n, g (j + 1)
  | 0 => by simp [repeatFrom]
  | n + 1 => by rw [repeatFrom, repeatFrom_sum x g n, sum_range_succ, add_assoc, add_comm 1 n]

theorem differenceOf_sum (o : ℕ) (P : ℕ → V) (m : ℕ) : differenceOf ℝ o P m = ∑ j ∈ range (o + 1), ((-1 : ℝ) ^ j * (o.choose j : ℝ)) • P (m + j) := by
  unfold differenceOf
  rw [repeatFrom_sum (P m) (fun j => (signOf ℝ j * ((o.choose j : ℕ) : ℝ)) • P (m + j)) o, sum_range_succ']
  simp only [signOf_pow]
  rw [add_comm]
  simp

theorem derivNet_one (ps : List ℕ) (P : List ℕ → V) (n d o : ℕ) (hd : d < n) (ho : 0 < o) : ∀ (k : ℕ) (idx : List ℕ),
    derivNet ℝ ps ((List.replicate n 0).set d o) P k idx =
      if d < k then derivOf ℝ (ps.getD d 0) o (fun m => P (idx.set d m)) (idx.getD d 0) else P idx
  | 0, idx => by simp [derivNet]
  | k + 1, idx => by
    have hg : ((List.replicate n 0).set d o).getD k 0 = if k = d then o else 0 := by
      rw [List.getD_eq_getElem?_getD, List.getElem?_set, List.length_replicate]
      by_cases h : d = k
      · subst h; simp [hd]
      · simp only [if_neg h, if_neg (Ne.symm h), List.getElem?_replicate]
        split <;> rfl
    rw [derivNet, hg]
    by_cases h : k = d
    · subst h
      simp only [if_true, if_neg (Nat.pos_iff_ne_zero.mp ho), derivNet_one ps P n k o hd ho k, lt_irrefl, Nat.lt_succ_self, if_false]
    · rw [if_neg h, if_pos rfl, derivNet_one ps P n d o hd ho k]
      have : (d < k) ↔ (d < k + 1) := by omega
      simp only [this]

theorem zipWith_sub_one {ps : List ℕ} {d p : ℕ} (hp : ps[d]? = some p) (o : ℕ) :
    List.zipWith (· - ·) ps ((List.replicate ps.length 0).set d o) = ps.set d (p - o) := by
  have hd := (List.getElem?_eq_some_iff.mp hp).1
  apply List.ext_getElem?
  intro i
  rw [List.getElem?_zipWith, List.getElem?_set, List.getElem?_set, List.length_replicate]
  by_cases h : d = i
  · subst h
    rw [hp]
    simp [hd]
  · simp only [if_neg h, List.getElem?_replicate]
    by_cases hi : i < ps.length
    · simp [hi]
    · simp [hi]

theorem step_valid {ps : List ℕ} {c : List Bool} (hc : c.length = ps.length) {d p j : ℕ} (hp : ps[d]? = some p) (hj : j ≤ p) :
    ValidIdx ps (stepIdx ps c d j) := by
  refine Spline.validIdx_iff.mpr ⟨by simp [hc], fun i k q hk hq => ?_⟩
  have hd := (List.getElem?_eq_some_iff.mp hp).1
  have hv := Spline.validIdx_iff.mp (corner_valid hc)
  rw [List.getElem?_set] at hk
  by_cases h : d = i
  · subst h
    obtain rfl := Option.some.inj (hp.symm.trans hq)
    have hg : ps.getD d 0 = p := by rw [List.getD_eq_getElem?_getD, hp]; rfl
    have hl : d < (cornerIdx ps c).length := by simp [hc, hd]
    rw [if_pos rfl, if_pos hl, hg] at hk
    have := Option.some.inj hk
    rw [← this]
    split <;> omega
  · rw [if_neg h] at hk
    exact hv.2 i k q hk hq

/-- C112. The derivative of any order `o` in one direction at a corner, in terms of the first `o + 1` control points from the corner inwards:
`p (p - 1) … (p - o + 1)` times their `o`-th difference, with the sign of the direction. -/
theorem C112_corner_order (cfg : Cfg) (hmax : cfg.Ok) (s : Spline V) (hs : s.WF) (hdeg : ∀ p ∈ s.degrees, p < cfg.maxBinom)
    (hsize : size s.degrees < 2 ^ 64) (c : List Bool) (hc : c.length = s.dim) (d p o : ℕ) (hp : s.degrees[d]? = some p) (ho : 0 < o) (hop : o ≤ p) :
    ∃ P : ℕ → V, (∀ j ≤ o, s.controlPoint (stepIdx s.degrees c d j) = .ok (P j)) ∧
      s.evaluateDerivative cfg (cornerAt c) ((List.replicate s.dim 0).set d o) =
        .ok ((inward c d ^ o * (p.descFactorial o : ℝ)) • ∑ j ∈ range (o + 1), ((-1 : ℝ) ^ (o - j) * (o.choose j : ℝ)) • P j) := by
  have hd := (List.getElem?_eq_some_iff.mp hp).1
  have hc' : c.length = s.degrees.length := hc
  have hg : s.degrees.getD d 0 = p := by rw [List.getD_eq_getElem?_getD, hp]; rfl
  have hpm := hdeg p (List.mem_of_getElem? hp)
  have hord : ∀ x ∈ (List.replicate s.dim 0).set d o, x < cfg.maxBinom := by
    intro x hx
    rcases List.mem_or_eq_of_mem_set hx with h | h
    · obtain rfl := (List.mem_replicate.mp h).2; omega
    · omega
  have hle : ∀ (e x q : ℕ), ((List.replicate s.dim 0).set d o)[e]? = some x → s.degrees[e]? = some q → x ≤ q := by
    intro e x q hx hq
    rw [List.getElem?_set] at hx
    by_cases h : d = e
    · subst h
      obtain rfl := Option.some.inj (hp.symm.trans hq)
      rw [if_pos rfl] at hx
      split at hx
      · rw [← Option.some.inj hx]; exact hop
      · cases hx
    · rw [if_neg h, List.getElem?_replicate] at hx
      split at hx
      · rw [← Option.some.inj hx]; exact Nat.zero_le _
      · cases hx
  have hlen : ((List.replicate s.dim 0).set d o).length = s.dim := by simp
  obtain ⟨r, e, hr, hP⟩ := C90_derivative (K := ℝ) cfg hmax s hs _ hlen hle hord hsize _ (hasPoints_cp hs)
  obtain ⟨r', e', cr⟩ := C13_derivative_spline cfg hmax s _ _ (hs.computes (K := ℝ)) _ hlen hle hord hsize
  obtain rfl := Except.ok.inj (e.symm.trans e')
  have hds : r.degrees = s.degrees.set d (p - o) := by rw [hr.2]; exact zipWith_sub_one hp o
  have hcr : c.length = r.dim := by show _ = r.degrees.length; rw [hds, List.length_set]; exact hc
  obtain ⟨x, h1, h2⟩ := C10_corners (K := ℝ) r cr.wf c hcr
  have hv := corner_valid (ps := r.degrees) hcr
  have h3 := hP _ hv
  rw [h3] at h2
  have h4 := cr.eval (cornerAt c) (by rw [List.length_zipWith, hlen, List.length_map]; show _ = min s.dim s.dim; rw [Nat.min_self]; exact hc)
  rw [h1] at h4
  refine ⟨_, fun j hj => hasPoints_cp hs _ (step_valid hc' hp (hj.trans hop)), ?_⟩
  rw [C14_evaluate_derivative cfg hmax s _ _ (hs.computes (K := ℝ)) hdeg _ hlen (cornerAt c) (by rw [List.length_map]; exact hc), ← Except.ok.inj h4,
    ← Except.ok.inj h2]
  congr 1
  rw [derivNet_one s.degrees _ s.dim d o hd ho s.dim, if_pos (show d < s.dim from hd), hds, (cornerIdx_set hc' hp (p - o)).1, hg]
  simp only [(cornerIdx_set hc' hp (p - o)).2]
  unfold derivOf
  obtain ⟨o, rfl⟩ : ∃ k, o = k + 1 := ⟨o - 1, by omega⟩
  rw [fallingOf_succ, signOf_pow, differenceOf_sum]
  unfold inward stepIdx
  rw [hg]
  cases hb : c.getD d false with
  | false =>
    simp only [Bool.false_eq_true, if_false, zero_add, one_pow, one_mul]
    rw [mul_comm, mul_smul, smul_sum]
    congr 1
    refine sum_congr rfl fun j hj => ?_
    have hj' : j ≤ o + 1 := by have := mem_range.mp hj; omega
    rw [smul_smul, ← mul_assoc]
    congr 2
    obtain ⟨k, hk⟩ := Nat.exists_eq_add_of_le hj'
    rw [hk, Nat.add_sub_cancel_left, pow_add, mul_comm ((-1 : ℝ) ^ j), mul_assoc, ← pow_add, Even.neg_one_pow ⟨j, rfl⟩, mul_one]
  | true =>
    simp only [if_true]
    congr 1
    rw [← sum_range_reflect]
    refine sum_congr rfl fun j hj => ?_
    have hj' : j ≤ o + 1 := by have := mem_range.mp hj; omega
    have e1 : o + 1 + 1 - 1 - j = o + 1 - j := by omega
    have e2 : p - (o + 1) + (o + 1 - j) = p - j := by omega
    rw [e1, e2, Nat.choose_symm hj']

theorem derivNet_two (ps : List ℕ) (P : List ℕ → V) (n d e : ℕ) (hde : d < e) (he : e < n) : ∀ (k : ℕ) (idx : List ℕ),
    derivNet ℝ ps (((List.replicate n 0).set d 1).set e 1) P k idx =
      if e < k then (ps.getD e 0 : ℝ) • ((ps.getD d 0 : ℝ) • (P ((idx.set e (idx.getD e 0 + 1)).set d (idx.getD d 0 + 1)) -
          P ((idx.set e (idx.getD e 0 + 1)).set d (idx.getD d 0))) -
        (ps.getD d 0 : ℝ) • (P ((idx.set e (idx.getD e 0)).set d (idx.getD d 0 + 1)) - P ((idx.set e (idx.getD e 0)).set d (idx.getD d 0))))
      else if d < k then (ps.getD d 0 : ℝ) • (P (idx.set d (idx.getD d 0 + 1)) - P (idx.set d (idx.getD d 0))) else P idx
  | 0, idx => by simp [derivNet]
  | k + 1, idx => by
    have hg : (((List.replicate n 0).set d 1).set e 1).getD k 0 = if k = e then 1 else if k = d then 1 else 0 := by
      rw [List.getD_eq_getElem?_getD, List.getElem?_set, List.getElem?_set, List.length_set, List.length_replicate]
      by_cases h : e = k
      · subst h; simp [he]
      · by_cases h' : d = k
        · subst h'; simp [h, Ne.symm h, hde.trans he]
        · simp only [if_neg h, if_neg (Ne.symm h), if_neg h', if_neg (Ne.symm h'), List.getElem?_replicate]
          split <;> rfl
    have hgd : ∀ m, (idx.set e m).getD d 0 = idx.getD d 0 := fun m => by
      rw [List.getD_eq_getElem?_getD, List.getElem?_set_ne (by omega), List.getD_eq_getElem?_getD]
    rw [derivNet, hg]
    by_cases h : k = e
    · subst h
      simp only [if_true, one_ne_zero, if_false, derivNet_two ps P n d k hde he k, lt_irrefl, hde, Nat.lt_succ_self]
      simp only [derivOf, signOf, fallingOf, differenceOf, repeatFrom, Nat.sub_self, Nat.choose_self, hgd]
      norm_num
      simp only [smul_sub]; abel
    · by_cases h' : k = d
      · subst h'
        have h1 : ¬ e < k := by omega
        have h2 : ¬ e < k + 1 := by omega
        simp only [if_neg h, if_true, one_ne_zero, if_false, derivNet_two ps P n k e hde he k, lt_irrefl, Nat.lt_succ_self, h1, h2]
        simp only [derivOf, signOf, fallingOf, differenceOf, repeatFrom, Nat.sub_self, Nat.choose_self]
        norm_num
        rw [smul_sub]; abel
      · rw [if_neg h, if_neg h', if_pos rfl, derivNet_two ps P n d e hde he k]
        have h1 : (e < k) ↔ (e < k + 1) := by omega
        have h2 : (d < k) ↔ (d < k + 1) := by omega
        simp only [h1, h2]

theorem step_valid2 {ps : List ℕ} {c : List Bool} (hc : c.length = ps.length) {d e p q i j : ℕ} (hp : ps[d]? = some p) (hq : ps[e]? = some q)
    (hi : i ≤ p) (hj : j ≤ q) : ValidIdx ps (stepIdx2 ps c d e i j) := by
  refine Spline.validIdx_iff.mpr ⟨by simp [hc], fun a k x hk hx => ?_⟩
  have hv := Spline.validIdx_iff.mp (step_valid hc hq hj)
  rw [List.getElem?_set] at hk
  by_cases h : d = a
  · subst h
    obtain rfl := Option.some.inj (hp.symm.trans hx)
    have hg : ps.getD d 0 = p := by rw [List.getD_eq_getElem?_getD, hp]; rfl
    have hl : d < ((cornerIdx ps c).set e (if c.getD e false then ps.getD e 0 - j else j)).length := by
      rw [List.length_set, List.length_zipWith, hc, Nat.min_self]
      exact (List.getElem?_eq_some_iff.mp hp).1
    rw [if_pos rfl, hg, if_pos hl] at hk
    have := Option.some.inj hk
    rw [← this]
    split <;> omega
  · rw [if_neg h] at hk
    exact hv.2 a k x hk hx

/-- C112. The mixed derivative in two directions at a corner (the twist): the product of the degrees times the twist of the four control points
at the corner, with the signs of the directions. -/
theorem C112_corner_twist (cfg : Cfg) (hmax : cfg.Ok) (s : Spline V) (hs : s.WF) (hdeg : ∀ p ∈ s.degrees, p < cfg.maxBinom)
    (hsize : size s.degrees < 2 ^ 64) (c : List Bool) (hc : c.length = s.dim) (d e p q : ℕ) (hde : d < e) (hp : s.degrees[d]? = some p)
    (hq : s.degrees[e]? = some q) (hp0 : 0 < p) (hq0 : 0 < q) :
    ∃ P : ℕ → ℕ → V, (∀ i ≤ 1, ∀ j ≤ 1, s.controlPoint (stepIdx2 s.degrees c d e i j) = .ok (P i j)) ∧
      s.evaluateDerivative cfg (cornerAt c) (((List.replicate s.dim 0).set d 1).set e 1) =
        .ok ((inward c d * inward c e * p * q) • (P 1 1 - P 1 0 - P 0 1 + P 0 0)) := by
  have hd := (List.getElem?_eq_some_iff.mp hp).1
  have he := (List.getElem?_eq_some_iff.mp hq).1
  have hc' : c.length = s.degrees.length := hc
  have hg : s.degrees.getD d 0 = p := by rw [List.getD_eq_getElem?_getD, hp]; rfl
  have hge : s.degrees.getD e 0 = q := by rw [List.getD_eq_getElem?_getD, hq]; rfl
  have hpm := hdeg p (List.mem_of_getElem? hp)
  have hord : ∀ x ∈ ((List.replicate s.dim 0).set d 1).set e 1, x < cfg.maxBinom := by
    intro x hx
    rcases List.mem_or_eq_of_mem_set hx with h | h
    · rcases List.mem_or_eq_of_mem_set h with h | h
      · obtain rfl := (List.mem_replicate.mp h).2; omega
      · omega
    · omega
  have hle : ∀ (a x y : ℕ), (((List.replicate s.dim 0).set d 1).set e 1)[a]? = some x → s.degrees[a]? = some y → x ≤ y := by
    intro a x y hx hy
    rw [List.getElem?_set] at hx
    by_cases h : e = a
    · subst h
      obtain rfl := Option.some.inj (hq.symm.trans hy)
      rw [if_pos rfl] at hx
      split at hx
      · rw [← Option.some.inj hx]; exact hq0
      · cases hx
    · rw [if_neg h, List.getElem?_set] at hx
      by_cases h' : d = a
      · subst h'
        obtain rfl := Option.some.inj (hp.symm.trans hy)
        rw [if_pos rfl] at hx
        split at hx
        · rw [← Option.some.inj hx]; exact hp0
        · cases hx
      · rw [if_neg h', List.getElem?_replicate] at hx
        split at hx
        · rw [← Option.some.inj hx]; exact Nat.zero_le _
        · cases hx
  have hlen : (((List.replicate s.dim 0).set d 1).set e 1).length = s.dim := by simp
  obtain ⟨r, er, hr, hP⟩ := C90_derivative (K := ℝ) cfg hmax s hs _ hlen hle hord hsize _ (hasPoints_cp hs)
  obtain ⟨r', er', cr⟩ := C13_derivative_spline cfg hmax s _ _ (hs.computes (K := ℝ)) _ hlen hle hord hsize
  obtain rfl := Except.ok.inj (er.symm.trans er')
  have hp' : (s.degrees.set e (q - 1))[d]? = some p := by rw [List.getElem?_set_ne (by omega)]; exact hp
  have hds : r.degrees = (s.degrees.set e (q - 1)).set d (p - 1) := by
    rw [hr.2]
    apply List.ext_getElem?
    intro i
    rw [List.getElem?_zipWith, List.getElem?_set, List.getElem?_set, List.getElem?_set, List.getElem?_set, List.length_set, List.length_set,
      List.length_replicate]
    by_cases h : d = i
    · subst h
      have h1 : ¬ e = d := by omega
      simp only [if_neg h1, if_true, hp]
      simp [hd, Spline.dim]
    · by_cases h' : e = i
      · subst h'
        simp only [if_neg h, if_true, hq]
        simp [he, Spline.dim]
      · simp only [if_neg h, if_neg h', List.getElem?_replicate]
        by_cases hi : i < s.degrees.length
        · simp [hi, Spline.dim]
        · simp [hi]
  have hcr : c.length = r.dim := by show _ = r.degrees.length; rw [hds, List.length_set, List.length_set]; exact hc
  obtain ⟨x, h1, h2⟩ := C10_corners (K := ℝ) r cr.wf c hcr
  have hv := corner_valid (ps := r.degrees) hcr
  have h3 := hP _ hv
  rw [h3] at h2
  have h4 := cr.eval (cornerAt c) (by rw [List.length_zipWith, hlen, List.length_map]; show _ = min s.dim s.dim; rw [Nat.min_self]; exact hc)
  rw [h1] at h4
  refine ⟨fun i j => _, fun i hi j hj => hasPoints_cp hs _ (step_valid2 hc' hp hq (hi.trans hp0) (hj.trans hq0)), ?_⟩
  rw [C14_evaluate_derivative cfg hmax s _ _ (hs.computes (K := ℝ)) hdeg _ hlen (cornerAt c) (by rw [List.length_map]; exact hc), ← Except.ok.inj h4,
    ← Except.ok.inj h2]
  congr 1
  have hce : c.length = (s.degrees.set e (q - 1)).length := by rw [List.length_set]; exact hc'
  have A := cornerIdx_set hce hp' (p - 1)
  have B := cornerIdx_set hc' hq (q - 1)
  have hC : ∀ m l, ((cornerIdx r.degrees c).set e m).set d l = ((cornerIdx s.degrees c).set e m).set d l := by
    intro m l
    rw [hds, List.set_comm _ _ (by omega), A.2, List.set_comm _ _ (by omega), B.2]
  have hCd : (cornerIdx r.degrees c).getD d 0 = if c.getD d false then p - 1 else 0 := by rw [hds]; exact A.1
  have hCe : (cornerIdx r.degrees c).getD e 0 = if c.getD e false then q - 1 else 0 := by
    have h5 : r.degrees = (s.degrees.set d (p - 1)).set e (q - 1) := by rw [hds, List.set_comm _ _ (by omega)]
    rw [h5]
    exact (cornerIdx_set (by rw [List.length_set]; exact hc') (by rw [List.getElem?_set_ne (by omega)]; exact hq) (q - 1)).1
  rw [derivNet_two s.degrees _ s.dim d e hde he s.dim, if_pos (show e < s.dim from he)]
  simp only [hC, hCd, hCe, stepIdx2, hg, hge]
  unfold inward
  cases hb : c.getD d false <;> cases hb' : c.getD e false <;>
    simp only [Bool.false_eq_true, if_false, if_true, zero_add, Nat.sub_zero, Nat.sub_add_cancel hp0, Nat.sub_add_cancel hq0] <;> module

/-- the second derivative at the corner (1,0) of a surface of degrees 2 and 1 -/
example (a b c d e f : Point ℝ 3) := C112_corner_order Ex.cfg Ex.cfg_ok (Ex.surf a b c d e f) (Ex.surf_wf ..) deg_ok
  (show size [2, 1] < 2 ^ 64 by decide) [true, false] rfl 0 2 2 rfl (by decide) (by decide)
/-- the twist at the corner (1,0) -/
example (a b c d e f : Point ℝ 3) := C112_corner_twist Ex.cfg Ex.cfg_ok (Ex.surf a b c d e f) (Ex.surf_wf ..) deg_ok
  (show size [2, 1] < 2 ^ 64 by decide) [true, false] rfl 0 1 2 1 (by decide) rfl rfl (by decide) (by decide)

end Bezman.Props
