import Verif.Model.RationalDeriv
import Verif.Proofs.Leibniz
import Verif.Proofs.RationalBox
import Mathlib.Data.Nat.Choose.Central

/-! The recursion for derivatives of rational splines. -/

namespace Bezman
open Spec Finset

theorem derivLocalIds_ok (ks : List ℕ) (n : ℕ) : derivLocalIds ks n = .ok (unflat ks n) := by
  unfold derivLocalIds
  have hget : ∀ i (hi : i < ks.length), (unflat ks n)[i]? = some (n / size (ks.take i) % (ks[i] + 1)) :=
    fun i hi => unflat_getElem? n (List.getElem?_eq_getElem hi)
  obtain ⟨r, h1, h2, h3, h4, h5⟩ := loop_inv (n := ks.length) (s := (n, List.replicate ks.length 0))
    (f := fun i (r : Nat × List Nat) => do
      let k ← rd ks i
      if k = 0 then pure r
      else do
        let l := r.1 % (k + 1)
        let local_ids ← wr r.2 i l
        pure ((r.1 - l) / (k + 1), local_ids))
    (P := fun k r => r.1 = n / size (ks.take k) ∧ r.2.length = ks.length ∧ (∀ i, i < k → r.2[i]? = (unflat ks n)[i]?) ∧
      ∀ i, k ≤ i → i < ks.length → r.2[i]? = some 0)
    ⟨by simp, by simp, by simp, by intro i _ hi; simp [hi]⟩
    (by
      rintro k hk ⟨id, l⟩ ⟨e1, e2, e3, e4⟩
      simp only at e1 e2 e3 e4
      rw [rd_getElem hk]
      simp only [bind_ok]
      have hs : n / size (ks.take (k + 1)) = id / (ks[k] + 1) := by
        rw [e1, Nat.div_div_eq_div_mul, ← size_take_succ (List.getElem?_eq_getElem hk)]
      by_cases h0 : ks[k] = 0
      · rw [if_pos h0]
        refine ⟨_, rfl, by rw [hs, h0]; simp, e2, ?_, fun i h1 h2 => e4 i (by omega) h2⟩
        intro i hi
        by_cases hik : i = k
        · subst hik
          rw [e4 i le_rfl hk, hget i hk, h0, Nat.mod_one]
        · exact e3 i (by omega)
      · rw [if_neg h0, wr_ok _ (by omega)]
        refine ⟨_, rfl, ?_, by simpa using e2, ?_, ?_⟩
        · rw [hs]
          simp only
          have := Nat.mod_add_div id (ks[k] + 1)
          rw [show id - id % (ks[k] + 1) = (ks[k] + 1) * (id / (ks[k] + 1)) by omega,
            Nat.mul_div_cancel_left _ (by omega)]
        · intro i hi
          simp only
          by_cases hik : i = k
          · subst hik
            rw [List.getElem?_set_self (by omega), hget i hk, e1]
          · rw [List.getElem?_set_ne (by omega)]; exact e3 i (by omega)
        · intro i h1 h2
          simp only
          rw [List.getElem?_set_ne (by omega)]; exact e4 i (by omega) h2)
  rw [h1]
  simp only [bind_ok, pure_eq_ok]
  congr 1
  apply List.ext_getElem?
  intro i
  by_cases hi : i < ks.length
  · exact h4 i hi
  · rw [List.getElem?_eq_none (by omega), List.getElem?_eq_none (by simpa using hi)]

theorem flatIndex_self (ks : List ℕ) : flatIndex ks ks + 1 = size ks := by
  induction ks with
  | nil => rfl
  | cons k ks ih =>
    rw [flatIndex_cons, size_cons, ← ih]; ring

theorem derivGlobalId_ok (ks : List ℕ) : derivGlobalId ks ks = .ok (flatIndex ks ks) := by
  unfold derivGlobalId
  obtain ⟨r, h1, h2, h3⟩ := loop_inv (n := ks.length) (s := ((0 : Nat), 1))
    (f := fun i (r : Nat × Nat) => do
      let k ← rd ks i
      if k = 0 then pure r
      else do
        let q ← rd ks i
        pure (r.1 + r.2 * q, if k > 0 then r.2 * (k + 1) else r.2))
    (P := fun k r => r.1 = flatIndex (ks.take k) (ks.take k) ∧ r.2 = size (ks.take k))
    ⟨by simp, by simp⟩
    (by
      rintro k hk ⟨id, off⟩ ⟨e1, e2⟩
      simp only at e1 e2
      rw [rd_getElem hk]
      simp only [bind_ok]
      have ht : ks.take (k + 1) = ks.take k ++ [ks[k]] := List.take_succ_eq_append_getElem hk
      have hf : flatIndex (ks.take (k + 1)) (ks.take (k + 1)) = id + off * ks[k] := by
        rw [ht, flatIndex_append rfl, e1, e2]; simp
      have hs : size (ks.take (k + 1)) = off * (ks[k] + 1) := by
        rw [e2]; exact size_take_succ (List.getElem?_eq_getElem hk)
      by_cases h0 : ks[k] = 0
      · rw [if_pos h0]
        exact ⟨_, rfl, by rw [hf, h0]; simp, by rw [hs, h0]; simp⟩
      · rw [if_neg h0]
        exact ⟨_, rfl, by rw [hf], by rw [hs]; simp only; rw [if_pos (by omega)]⟩)
  rw [h1]
  simp only [bind_ok, pure_eq_ok]
  rw [h2, List.take_length]

theorem derivNotSubset_iff {k j : List ℕ} (h : j.length = k.length) :
    derivNotSubset k j = false ↔ ValidIdx k j := by
  unfold derivNotSubset
  induction k generalizing j with
  | nil => simp at h; subst h; simp
  | cons x k ih =>
    cases j with
    | nil => simp at h
    | cons y j =>
      simp at h
      rw [List.zip_cons_cons, List.any_cons, Bool.or_eq_false_iff, ih h, validIdx_cons]
      simp

theorem choose_prod_pos {k j : List ℕ} (h : ValidIdx k j) : 0 < (List.zipWith Nat.choose k j).prod := by
  induction k generalizing j with
  | nil => simp
  | cons x k ih =>
    obtain ⟨y, j, h1, h2, rfl⟩ := validIdx_cons_iff.mp h
    rw [List.zipWith_cons_cons, List.prod_cons]
    exact Nat.mul_pos (Nat.choose_pos h1) (ih h2)

theorem choose_prod_zero {k j : List ℕ} (hl : j.length = k.length) (h : ¬ ValidIdx k j) :
    (List.zipWith Nat.choose k j).prod = 0 := by
  induction k generalizing j with
  | nil => simp at hl; subst hl; simp at h
  | cons x k ih =>
    cases j with
    | nil => simp at hl
    | cons y j =>
      simp at hl
      rw [validIdx_cons, not_and_or] at h
      rw [List.zipWith_cons_cons, List.prod_cons]
      rcases h with h | h
      · rw [Nat.choose_eq_zero_of_lt (by omega), zero_mul]
      · rw [ih hl h, mul_zero]

/-- the products of binomial coefficients stay below 2^64 -/
def BinomFits (ks : List ℕ) : Prop := (ks.map (fun k => k.choose (k / 2))).prod < 2 ^ 64

theorem choose_prod_le {ks k j : List ℕ} (h1 : ValidIdx ks k) (h2 : ValidIdx k j) :
    (List.zipWith Nat.choose k j).prod ≤ (ks.map (fun k => k.choose (k / 2))).prod := by
  induction ks generalizing k j with
  | nil => simp at h1; subst h1; simp
  | cons x ks ih =>
    obtain ⟨y, k, a1, a2, rfl⟩ := validIdx_cons_iff.mp h1
    obtain ⟨z, j, b1, b2, rfl⟩ := validIdx_cons_iff.mp h2
    rw [List.zipWith_cons_cons, List.prod_cons, List.map_cons, List.prod_cons]
    exact Nat.mul_le_mul ((Nat.choose_le_choose z a1).trans (Nat.choose_le_middle z x)) (ih a2 b2)

theorem derivBinom_ok {cfg : Cfg} (hc : cfg.Ok) {k j : List ℕ} (h : ValidIdx k j) (hk : ∀ x ∈ k, x < cfg.maxBinom)
    (hs : (List.zipWith Nat.choose k j).prod < 2 ^ 64) :
    derivBinom cfg k j = .ok (List.zipWith Nat.choose k j).prod := by
  unfold derivBinom
  have hl := h.length
  obtain ⟨r, h1, h2⟩ := loop_inv (n := k.length) (s := (1 : Nat))
    (f := fun i b => do
      let n ← rd k i
      let l ← rd j i
      let c ← choose cfg n l
      pure (mul64 b c))
    (P := fun m b => b = (List.zipWith Nat.choose (k.take m) (j.take m)).prod)
    (by simp)
    (by
      intro m hm b hb
      rw [rd_getElem hm, rd_getElem (by omega : m < j.length)]
      simp only [bind_ok]
      have hv : j[m] ≤ k[m] := by
        have := List.Forall₂.get h (by omega : m < j.length) hm
        simpa using this
      rw [choose_ok hc (hk _ (List.getElem_mem hm)) hv]
      have ht : (List.zipWith Nat.choose (k.take (m + 1)) (j.take (m + 1))).prod = b * (k[m]).choose j[m] := by
        rw [List.take_succ_eq_append_getElem hm, List.take_succ_eq_append_getElem (by omega : m < j.length),
          List.zipWith_append (by simp; omega), List.prod_append, ← hb]
        simp
      refine ⟨_, rfl, ?_⟩
      rw [ht]
      unfold mul64
      apply Nat.mod_eq_of_lt
      rw [← ht]
      refine lt_of_le_of_lt ?_ hs
      have e : (List.zipWith Nat.choose k j).prod = (List.zipWith Nat.choose (k.take (m + 1)) (j.take (m + 1))).prod
          * (List.zipWith Nat.choose (k.drop (m + 1)) (j.drop (m + 1))).prod := by
        rw [← List.prod_append, ← List.zipWith_append (by simp; omega), List.take_append_drop, List.take_append_drop]
      rw [e]
      refine Nat.le_mul_of_pos_right _ ?_
      by_contra h0
      have h0 : (List.zipWith Nat.choose (k.drop (m + 1)) (j.drop (m + 1))).prod = 0 := by omega
      have := choose_prod_pos h
      rw [e, h0] at this; simp at this)
  rw [h1, h2, List.take_length, ← hl, List.take_length]

theorem flatIndex_sub {ks k j : List ℕ} (h1 : ValidIdx ks k) (h2 : ValidIdx k j) :
    flatIndex ks (List.zipWith (· - ·) k j) + flatIndex ks j = flatIndex ks k := by
  induction ks generalizing k j with
  | nil => simp at h1; subst h1; simp at h2; subst h2; rfl
  | cons x ks ih =>
    obtain ⟨y, k, a1, a2, rfl⟩ := validIdx_cons_iff.mp h1
    obtain ⟨z, j, b1, b2, rfl⟩ := validIdx_cons_iff.mp h2
    rw [List.zipWith_cons_cons, flatIndex_cons, flatIndex_cons, flatIndex_cons, ← ih a2 b2, Nat.mul_add]
    omega

theorem valid_sub {ks k j : List ℕ} (h1 : ValidIdx ks k) (h2 : ValidIdx k j) :
    ValidIdx ks (List.zipWith (· - ·) k j) := by
  induction ks generalizing k j with
  | nil => simp at h1; subst h1; simp
  | cons x ks ih =>
    obtain ⟨y, k, a1, a2, rfl⟩ := validIdx_cons_iff.mp h1
    obtain ⟨z, j, b1, b2, rfl⟩ := validIdx_cons_iff.mp h2
    rw [List.zipWith_cons_cons, validIdx_cons]
    exact ⟨by omega, ih a2 b2⟩

theorem unflat_zero (ks : List ℕ) : unflat ks 0 = List.replicate ks.length 0 := by
  induction ks with
  | nil => rfl
  | cons k ks ih => simp [unflat, ih, List.replicate_succ]

theorem unflat_isZero {ks : List ℕ} {n : ℕ} (h : n < size ks) : IsZero (unflat ks n) ↔ n = 0 := by
  constructor
  · intro hz
    rw [isZero_iff, unflat_length, ← unflat_zero] at hz
    have h0 : 0 < size ks := by omega
    rw [← flatIndex_unflat h, hz, flatIndex_unflat h0]
  · rintro rfl
    rw [unflat_zero]
    intro x hx
    exact (List.mem_replicate.mp hx).2

theorem mem_le_of_valid {ks k : List ℕ} (h : ValidIdx ks k) {m : ℕ} (hm : ∀ x ∈ ks, x < m) : ∀ x ∈ k, x < m := by
  induction ks generalizing k with
  | nil => simp at h; subst h; simp
  | cons y ks ih =>
    obtain ⟨z, k, a1, a2, rfl⟩ := validIdx_cons_iff.mp h
    intro x hx
    rcases List.mem_cons.mp hx with rfl | hx
    · have := hm y (by simp); omega
    · exact ih a2 (fun x hx => hm x (by simp [hx])) x hx

section
variable {K V V' : Type} [Field K] [AddCommGroup V] [Module K V] [AddCommGroup V'] [Module K V']

theorem leib_map (L : V →ₗ[K] V') (k : List ℕ) (B : List ℕ → List ℕ → V) :
    L (leib K k B) = leib K k (fun j l => L (B j l)) := by
  induction k generalizing B with
  | nil => rfl
  | cons k ks ih => simp only [leib, map_sum, map_smul, ih]

theorem quot_map (L : V →ₗ[K] V') (A : List ℕ → V) (W : List ℕ → K) (w : K) (k : List ℕ) :
    L (quot A W w k) = quot (fun k => L (A k)) W w k := by
  generalize hm : k.sum = m
  induction m using Nat.strong_induction_on generalizing k with
  | _ m ih =>
    rw [quot_rec, quot_rec, map_smul, map_sub, leib_map]
    congr 2
    apply leib_congr
    intro j l hp
    split
    · simp
    · rename_i hz
      have := hp.sum
      rw [isZero_sum] at hz
      rw [map_smul, ih l.sum (by omega) l rfl]

theorem quot_congr {A B : List ℕ → V} {W : List ℕ → K} {w : K} {k : List ℕ}
    (h : ∀ l, l.length = k.length → A l = B l) : quot A W w k = quot B W w k := by
  generalize hm : k.sum = m
  induction m using Nat.strong_induction_on generalizing k with
  | _ m ih =>
    rw [quot_rec, quot_rec, h k rfl]
    congr 2
    apply leib_congr
    intro j l hp
    split
    · rfl
    · rename_i hz
      have := hp.sum
      rw [isZero_sum] at hz
      rw [ih l.sum (by omega) (k := l) (fun l' hl' => h l' (hl'.trans hp.len.2)) rfl]

end

namespace RSpline
variable {K V X : Type} [Field K] [AddCommGroup V] [Module K V]

theorem derivRecursion_ok {cfg : Cfg} (hc : cfg.Ok) {ks : List ℕ} (hks : ∀ x ∈ ks, x < cfg.maxBinom)
    (hb : BinomFits ks) {sub : X → K → X → M X} {scale : K → X → M X} (enc : V → X)
    (hsub : ∀ a c b, sub (enc a) c (enc b) = .ok (enc (a - c • b))) (hscale : ∀ c a, scale c (enc a) = .ok (enc (c • a)))
    (A : List ℕ → V) (W : List ℕ → K) (w : K) (zero : X) :
    derivRecursion cfg ks (size ks) sub scale (tab (size ks) (fun n => enc (A (unflat ks n))))
        (tab (size ks) (fun n => W (unflat ks n))) w⁻¹ zero
      = .ok (tab (size ks) (fun n => enc (quot A W w (unflat ks n)))) := by
  unfold derivRecursion
  set N := size ks with hN
  set R : ℕ → V := fun n => quot A W w (unflat ks n) with hR
  rw [replicate_eq_tab]
  have key := loop_eq (n := N) (s := tab N (fun _ => zero))
    (f := fun i D => do
      let lhs ← derivLocalIds ks i
      let a ← rd (tab N (fun n => enc (A (unflat ks n)))) i
      let D ← wr D i a
      let D ← loopFrom 1 (i + 1) (fun j D => do
        let rhs ← derivLocalIds ks j
        if derivNotSubset lhs rhs then pure D
        else do
          let binom_fact ← derivBinom cfg lhs rhs
          let wj ← rd (tab N (fun n => W (unflat ks n))) j
          let dij ← rd D (i - j)
          let di ← rd D i
          let di ← sub di ((binom_fact : K) * wj) dij
          wr D i di) D
      let di ← rd D i
      let di ← scale w⁻¹ di
      wr D i di) (fun k => tab N (fun n => if n < k then enc (R n) else zero))
    (by apply tab_congr; intro i _; simp)
    (by
      intro i hi
      rw [derivLocalIds_ok]
      simp only [bind_ok]
      rw [rd_tab _ hi]
      simp only [bind_ok]
      rw [wr_tab _ _ hi]
      simp only [bind_ok]
      set k := unflat ks i with hk
      have hkv : ValidIdx ks k := unflat_valid ks i
      set c : ℕ → K := fun j => ((List.zipWith Nat.choose k (unflat ks j)).prod : K) with hcdef
      obtain ⟨D, d1, d2⟩ := loopFrom_inv (a := 1) (b := i + 1)
        (s := tab N (Function.update (fun n => if n < i then enc (R n) else zero) i (enc (A k))))
        (f := fun j D => do
          let rhs ← derivLocalIds ks j
          if derivNotSubset k rhs then pure D
          else do
            let binom_fact ← derivBinom cfg k rhs
            let wj ← rd (tab N (fun n => W (unflat ks n))) j
            let dij ← rd D (i - j)
            let di ← rd D i
            let di ← sub di ((binom_fact : K) * wj) dij
            wr D i di)
        (P := fun m D => D = tab N (Function.update (fun n => if n < i then enc (R n) else zero) i
          (enc (A k - ∑ j ∈ range (m - 1), c (j + 1) • W (unflat ks (j + 1)) • R (i - (j + 1))))))
        (by omega) (by simp) (by
          rintro m hm1 hm2 D rfl
          rw [derivLocalIds_ok]
          simp only [bind_ok]
          obtain ⟨m, rfl⟩ : ∃ m', m = m' + 1 := ⟨m - 1, by omega⟩
          have hsum : ∀ G : ℕ → V, ∑ j ∈ range (m + 1 + 1 - 1), G j = (∑ j ∈ range (m + 1 - 1), G j) + G m := by
            intro G
            rw [show m + 1 + 1 - 1 = m + 1 by omega, show m + 1 - 1 = m by omega, sum_range_succ]
          by_cases hv : ValidIdx k (unflat ks (m + 1))
          · have hns : derivNotSubset k (unflat ks (m + 1)) = false :=
              (derivNotSubset_iff (by simp [hk])).mpr hv
            rw [hns]
            simp only [Bool.false_eq_true, if_false]
            rw [derivBinom_ok hc hv (mem_le_of_valid hkv hks) (lt_of_le_of_lt (choose_prod_le hkv hv) hb)]
            simp only [bind_ok]
            rw [rd_tab _ (by omega : m + 1 < N)]
            simp only [bind_ok]
            rw [rd_tab _ (by omega : i - (m + 1) < N)]
            simp only [bind_ok]
            rw [rd_tab _ hi]
            simp only [bind_ok, Function.update_self]
            rw [Function.update_of_ne (by omega), if_pos (by omega), hsub]
            simp only [bind_ok]
            rw [wr_tab _ _ hi]
            refine ⟨_, rfl, ?_⟩
            apply tab_congr
            intro n _
            rw [Function.update_idem, hsum, ← smul_smul, ← sub_sub]
          · have hns : derivNotSubset k (unflat ks (m + 1)) = true := by
              by_contra h
              rw [Bool.not_eq_true] at h
              exact hv ((derivNotSubset_iff (by simp [hk])).mp h)
            rw [hns]
            simp only [if_true]
            refine ⟨_, rfl, ?_⟩
            have h0 : c (m + 1) = 0 := by
              simp only [hcdef]
              rw [choose_prod_zero (by simp [hk]) hv, Nat.cast_zero]
            rw [hsum, h0, zero_smul, add_zero])
      rw [d1]
      simp only [bind_ok]
      rw [d2, rd_tab _ hi]
      simp only [bind_ok, Function.update_self]
      rw [hscale]
      simp only [bind_ok]
      rw [wr_tab _ _ hi, Function.update_idem]
      congr 1
      apply tab_congr
      intro n hn
      by_cases hni : n = i
      · subst hni
        rw [Function.update_self, if_pos (by omega)]
        congr 1
        simp only [hR]
        rw [quot_rec, ← hk, leib_flat hkv]
        congr 2
        -- the sum over `1 ≤ j ≤ i` is the sum over all indices
        have e : ∀ j ∈ range N, ((List.zipWith Nat.choose k (unflat ks j)).prod : K) •
            (if IsZero (unflat ks j) then 0 else W (unflat ks j) • quot A W w (List.zipWith (· - ·) k (unflat ks j)))
            = if j = 0 ∨ n < j then 0 else c j • W (unflat ks j) • R (n - j) := by
          intro j hj
          simp only [mem_range] at hj
          by_cases hj0 : j = 0
          · rw [if_pos ((unflat_isZero hj).mpr hj0), if_pos (Or.inl hj0), smul_zero]
          · rw [if_neg (fun h => hj0 ((unflat_isZero hj).mp h))]
            by_cases hv : ValidIdx k (unflat ks j)
            · have hf := flatIndex_sub hkv hv
              rw [flatIndex_unflat hj, hk, flatIndex_unflat hi, ← hk] at hf
              rw [if_neg (by omega)]
              simp only [hcdef, hR]
              rw [show n - j = flatIndex ks (List.zipWith (· - ·) k (unflat ks j)) by omega,
                unflat_flatIndex (valid_sub hkv hv)]
            · have h0 : c j = 0 := by
                simp only [hcdef]
                rw [choose_prod_zero (by simp [hk]) hv, Nat.cast_zero]
              have h1 := choose_prod_zero (by simp [hk]) hv
              rw [h1, Nat.cast_zero, zero_smul, h0, zero_smul]
              split <;> rfl
        rw [sum_congr rfl e, show n + 1 - 1 = n by omega]
        have hsub : ∑ j ∈ range N, (if j = 0 ∨ n < j then (0 : V) else c j • W (unflat ks j) • R (n - j))
            = ∑ j ∈ range (n + 1), (if j = 0 ∨ n < j then (0 : V) else c j • W (unflat ks j) • R (n - j)) := by
          symm
          apply sum_subset (range_subset_range.mpr (by omega))
          intro j _ hj
          simp only [mem_range] at hj
          rw [if_pos (by omega)]
        rw [hsub, sum_range_succ']
        simp only [true_or, if_true, add_zero]
        apply sum_congr rfl
        intro j hj
        simp only [mem_range] at hj
        rw [if_neg (by omega)]
      · rw [Function.update_of_ne hni]
        simp only [show (n < i + 1) = (n < i) from propext ⟨fun h => by omega, fun h => by omega⟩])
  rw [key]
  congr 1
  apply tab_congr
  intro n hn
  rw [if_pos hn]

section
variable [DecidableEq K]

theorem evaluateDerivative_ok {cfg : Cfg} (hc : cfg.Ok) {r : RSpline K V} (hn : r.num.WF) (hw : r.wt.WF)
    (hd : r.num.degrees = r.wt.degrees) (hdeg : Spline.DegOk cfg r.num.degrees) {t : List K}
    (ht : t.length = r.num.dim) {ks : List ℕ} (hkl : ks.length = r.num.dim) (hks : ∀ x ∈ ks, x < cfg.maxBinom)
    (hb : BinomFits ks) (h0 : r.wt.value t ≠ 0) :
    r.evaluateDerivative cfg t ks = .ok (quot
      (fun k => tens r.num.degrees (Spline.dFns r.num.degrees k t) (fun n => r.num.cps.getD n 0))
      (fun k => tens r.wt.degrees (Spline.dFns r.wt.degrees k t) (fun n => r.wt.cps.getD n 0)) (r.wt.value t) ks) := by
  unfold evaluateDerivative
  rw [derivGlobalId_ok]
  simp only [bind_ok]
  rw [flatIndex_self]
  set N := size ks with hN
  have hNpos : 0 < N := by rw [hN, ← flatIndex_self]; omega
  set A : List ℕ → V := fun k => tens r.num.degrees (Spline.dFns r.num.degrees k t) (fun n => r.num.cps.getD n 0) with hA
  set W : List ℕ → K := fun k => tens r.wt.degrees (Spline.dFns r.wt.degrees k t) (fun n => r.wt.cps.getD n 0) with hW
  have hdim : r.wt.dim = r.num.dim := by unfold Spline.dim; rw [hd]
  rw [replicate_eq_tab, replicate_eq_tab]
  have h1 := loop_eq (n := N) (s := (tab N (fun _ => (0 : V)), tab N (fun _ => (0 : K))))
    (f := fun i (aw : List V × List K) => do
      let req ← derivLocalIds ks i
      let x ← r.num.evaluateDerivative cfg t req
      let A ← wr aw.1 i x
      let y ← r.wt.evaluateDerivative cfg t req
      let w ← wr aw.2 i y
      pure (A, w))
    (fun k => (tab N (fun n => if n < k then A (unflat ks n) else 0), tab N (fun n => if n < k then W (unflat ks n) else 0)))
    (by simp) (by
      intro k hk
      simp only []
      rw [derivLocalIds_ok]
      simp only [bind_ok]
      rw [Spline.evaluateDerivative_ok hc hn hdeg ht (by rw [unflat_length, hkl])]
      simp only [bind_ok]
      rw [wr_tab _ _ hk]
      simp only [bind_ok]
      rw [Spline.evaluateDerivative_ok hc hw (by rw [← hd]; exact hdeg) (by rw [hdim]; exact ht)
        (by rw [unflat_length, hkl, hdim])]
      simp only [bind_ok]
      rw [wr_tab _ _ hk]
      simp only [bind_ok, pure_eq_ok]
      congr 2
      · apply tab_congr; intro n hn'
        by_cases h : n = k
        · subst h; simp [hA]
        · rw [Function.update_of_ne h]
          simp only [show (n < k + 1) = (n < k) from propext ⟨fun h => by omega, fun h => by omega⟩]
      · apply tab_congr; intro n hn'
        by_cases h : n = k
        · subst h; simp [hW]
        · rw [Function.update_of_ne h]
          simp only [show (n < k + 1) = (n < k) from propext ⟨fun h => by omega, fun h => by omega⟩])
  have hA' : tab N (fun n => if n < N then A (unflat ks n) else 0) = tab N (fun n => A (unflat ks n)) :=
    tab_congr fun n hn => by rw [if_pos hn]
  have hW' : tab N (fun n => if n < N then W (unflat ks n) else 0) = tab N (fun n => W (unflat ks n)) :=
    tab_congr fun n hn => by rw [if_pos hn]
  rw [h1, hA', hW']
  simp only [bind_ok]
  rw [rd_tab _ hNpos]
  simp only [bind_ok]
  have hW0 : W (unflat ks 0) = r.wt.value t := by
    simp only [hW]
    rw [unflat_zero, hkl, ← hdim, Spline.value_eq_neval, neval_eq_tens]
    congr 1
    have hwl : t.length = r.wt.degrees.length := by rw [ht, ← hdim]; rfl
    clear * - hwl
    unfold Spline.dim
    generalize r.wt.degrees = ps at hwl
    induction ps generalizing t with
    | nil => simp at hwl; subst hwl; rfl
    | cons p ps ih =>
      cases t with
      | nil => simp at hwl
      | cons t ts =>
        simp at hwl
        simp [List.replicate_succ, Spline.dFns, bernFns_cons, ih hwl, dB_zero]
  rw [hW0, divM_ok (V := K) 1 h0]
  simp only [bind_ok, smul_eq_mul, mul_one]
  have hrec := derivRecursion_ok (X := V) hc hks hb (sub := fun di c dij => pure (di - c • dij))
    (scale := fun c di => pure (c • di)) id (fun _ _ _ => rfl) (fun _ _ => rfl) A W (r.wt.value t) (0 : V)
  simp only [id] at hrec
  rw [hrec]
  simp only [bind_ok]
  rw [rd_tab _ (by omega)]
  congr 2
  have : flatIndex ks ks = N - 1 := by rw [hN, ← flatIndex_self]; omega
  rw [← this, unflat_flatIndex]
  clear * -
  induction ks with
  | nil => simp
  | cons k ks ih => simp [ih]

theorem dFns_zero' {ps : List ℕ} {t : List K} (h : t.length = ps.length) :
    Spline.dFns ps (List.replicate ps.length 0) t = bernFns ps t := by
  induction ps generalizing t with
  | nil => simp at h; subst h; rfl
  | cons p ps ih =>
    cases t with
    | nil => simp at h
    | cons t ts =>
      simp at h
      simp [List.replicate_succ, Spline.dFns, bernFns_cons, ih h, dB_zero]

theorem tens_delta {ps : List ℕ} {bs : List (ℕ → K)} (hl : bs.length = ps.length) {n : ℕ} (hn : n < size ps) (c : K) :
    tens ps bs (fun m => if m = n then c else 0) = pw bs (unflat ps n) * c := by
  rw [← sum_pw ps hl, sum_eq_single n]
  · simp
  · intro m _ hm; simp [hm]
  · intro h; exact absurd (mem_range.mpr hn) h

theorem basisFunctionsDerivatives_ok {cfg : Cfg} (hc : cfg.Ok) {r : RSpline K V} {ds : List ℕ} (hn : r.num.WF)
    (hw : r.wt.WF) (hnd : r.num.degrees = ds) (hwd : r.wt.degrees = ds) (hdeg : Spline.DegOk cfg ds) {t : List K}
    (ht : t.length = ds.length) {ks : List ℕ} (hkl : ks.length = ds.length) (hks : ∀ x ∈ ks, x < cfg.maxBinom)
    (hb : BinomFits ks) (h0 : r.wt.value t ≠ 0) :
    r.basisFunctionsDerivatives cfg t ks = .ok (tab (size ds) (fun n => quot
      (fun k => tens ds (Spline.dFns ds k t) (fun m => if m = n then r.wt.cps.getD n 0 else 0))
      (fun k => tens ds (Spline.dFns ds k t) (fun m => r.wt.cps.getD m 0)) (r.wt.value t) ks)) := by
  unfold basisFunctionsDerivatives
  rw [derivGlobalId_ok]
  simp only [bind_ok]
  rw [flatIndex_self]
  set N := size ks with hN
  set nb := size ds with hnb
  have hncp : r.num.ncp = nb := by rw [hn.ncp_eq, hnd]
  have hcl : r.wt.cps.length = nb := by rw [hw.cps_len, hwd]
  rw [hncp]
  have hNpos : 0 < N := by rw [hN, ← flatIndex_self]; omega
  set c : ℕ → K := fun n => r.wt.cps.getD n 0 with hcdef
  have hrc : ∀ b, b < nb → rd r.wt.cps b = .ok (c b) := by
    intro b hb
    rw [rd_getElem (by omega)]
    simp [hcdef, List.getD_eq_getElem?_getD, List.getElem?_eq_getElem (show b < r.wt.cps.length by omega)]
  set A : List ℕ → ℕ → K := fun k n => pw (Spline.dFns ds k t) (unflat ds n) * c n with hA
  set W : List ℕ → K := fun k => tens ds (Spline.dFns ds k t) (fun m => c m) with hW
  rw [replicate_eq_tab, replicate_eq_tab]
  have h1 := loop_eq (n := N) (s := (tab N (fun _ => ([] : List K)), tab N (fun _ => (0 : K))))
    (f := fun i (aw : List (List K) × List K) => do
      let req ← derivLocalIds ks i
      let row ← r.num.basisFunctionsDerivatives cfg t req
      let w0 ← rd aw.2 i
      let rw ← loop nb (fun b (rw : List K × K) => do
        let weight ← rd r.wt.cps b
        let x ← rd rw.1 b
        let row ← wr rw.1 b (x * weight)
        pure (row, rw.2 + weight * x)) (row, w0)
      let A ← wr aw.1 i rw.1
      let w ← wr aw.2 i rw.2
      pure (A, w))
    (fun k => (tab N (fun n => if n < k then tab nb (A (unflat ks n)) else []),
      tab N (fun n => if n < k then W (unflat ks n) else 0)))
    (by simp) (by
      intro k hk
      simp only []
      rw [derivLocalIds_ok]
      simp only [bind_ok]
      have hul : (unflat ks k).length = ds.length := by rw [unflat_length, hkl]
      rw [Spline.basisFunctionsDerivatives_ok hc hn.dim_pos (by rw [hnd]; exact hdeg) (by unfold Spline.dim; rw [hnd]; exact ht)
        (by unfold Spline.dim; rw [hnd]; exact hul), hnd]
      simp only [bind_ok]
      rw [rd_tab _ hk]
      simp only [bind_ok, lt_irrefl, if_false]
      rw [loop_eq (n := nb)
        (fun b => (tab nb (fun n => if n < b then A (unflat ks k) n else pw (Spline.dFns ds (unflat ks k) t) (unflat ds n)),
          ∑ n ∈ range b, c n * pw (Spline.dFns ds (unflat ks k) t) (unflat ds n)))
        (by simp [hnb]) (by
          intro b hb
          rw [hrc b hb]
          simp only [bind_ok]
          rw [rd_tab _ hb]
          simp only [bind_ok, lt_irrefl, if_false]
          rw [wr_tab _ _ hb]
          simp only [bind_ok, pure_eq_ok]
          rw [sum_range_succ]
          congr 2
          apply tab_congr
          intro n _
          by_cases h : n = b
          · subst h; simp [hA]
          · rw [Function.update_of_ne h]
            simp only [show (n < b + 1) = (n < b) from propext ⟨fun h => by omega, fun h => by omega⟩])]
      simp only [bind_ok]
      rw [wr_tab _ _ hk]
      simp only [bind_ok]
      rw [wr_tab _ _ hk]
      simp only [bind_ok, pure_eq_ok]
      congr 2
      · apply tab_congr; intro n hn'
        by_cases h : n = k
        · subst h
          rw [Function.update_self, if_pos (by omega)]
          apply tab_congr; intro b hb; rw [if_pos hb]
        · rw [Function.update_of_ne h]
          simp only [show (n < k + 1) = (n < k) from propext ⟨fun h => by omega, fun h => by omega⟩]
      · apply tab_congr; intro n hn'
        by_cases h : n = k
        · subst h
          rw [Function.update_self, if_pos (by omega)]
          simp only [hW]
          rw [← sum_pw ds (Spline.dFns_length hul ht)]
          apply sum_congr rfl; intro m _
          rw [smul_eq_mul, mul_comm]
        · rw [Function.update_of_ne h]
          simp only [show (n < k + 1) = (n < k) from propext ⟨fun h => by omega, fun h => by omega⟩])
  have hA' : tab N (fun n => if n < N then tab nb (A (unflat ks n)) else []) = tab N (fun n => tab nb (A (unflat ks n))) :=
    tab_congr fun n hn => by rw [if_pos hn]
  have hW' : tab N (fun n => if n < N then W (unflat ks n) else 0) = tab N (fun n => W (unflat ks n)) :=
    tab_congr fun n hn => by rw [if_pos hn]
  rw [h1, hA', hW']
  simp only [bind_ok]
  rw [rd_tab _ hNpos]
  simp only [bind_ok]
  have hW0 : W (unflat ks 0) = r.wt.value t := by
    simp only [hW]
    rw [unflat_zero, hkl, dFns_zero' ht, Spline.value_eq_neval, neval_eq_tens, hwd]
  rw [hW0, divM_ok (V := K) 1 h0]
  simp only [bind_ok, smul_eq_mul, mul_one]
  have hrec := derivRecursion_ok (X := List K) (V := ℕ → K) hc hks hb
    (sub := fun di c dij => loop nb (fun b di => do
      let x ← rd di b
      let y ← rd dij b
      wr di b (x - c * y)) di)
    (scale := fun c di => loop nb (fun b di => do
      let x ← rd di b
      wr di b (x * c)) di) (fun f => tab nb f)
    (by
      intro a x b
      apply loop_update
      intro k H hk hH
      rw [rd_tab _ hk, rd_tab _ hk]
      simp only [bind_ok]
      rw [wr_tab _ _ hk, hH]
      rfl)
    (by
      intro x a
      apply loop_update
      intro k H hk hH
      rw [rd_tab _ hk]
      simp only [bind_ok]
      rw [wr_tab _ _ hk, hH, mul_comm]
      rfl) A W (r.wt.value t) ([] : List K)
  rw [hrec]
  simp only [bind_ok]
  rw [rd_tab _ (by omega)]
  have : flatIndex ks ks = N - 1 := by rw [hN, ← flatIndex_self]; omega
  rw [← this, unflat_flatIndex (by
    clear * -
    induction ks with
    | nil => simp
    | cons k ks ih => simp [ih])]
  congr 1
  apply tab_congr
  intro n hn
  refine (quot_map (LinearMap.proj (R := K) (φ := fun _ : ℕ => K) n : (ℕ → K) →ₗ[K] K) A W _ ks).trans ?_
  apply quot_congr
  intro k hk
  simp only [LinearMap.proj_apply, hA]
  rw [tens_delta (Spline.dFns_length (hk.trans hkl) ht) hn]

end
end RSpline
end Bezman
