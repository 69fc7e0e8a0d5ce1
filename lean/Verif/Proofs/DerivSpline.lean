import Verif.Proofs.BernDeriv
import Verif.Proofs.Product
import Verif.Model.Elevate

/-! The derivative spline. -/

namespace Bezman
open Spec Finset

section mt
variable {K V : Type} [CommRing K] [AddCommGroup V] [Module K V]

/-- `tens` for nets indexed by multi-indices -/
def mt : List ℕ → List (ℕ → K) → (List ℕ → V) → V
  | [], _, P => P []
  | p :: ps, b :: bs, P => ∑ i ∈ range (p + 1), b i • mt ps bs (fun is => P (i :: is))
  | _ :: _, [], _ => 0

theorem mt_tens (ps : List ℕ) (bs : List (ℕ → K)) (F : ℕ → V) :
    mt ps bs (fun is => F (flatIndex ps is)) = tens ps bs F := by
  induction ps generalizing bs F with
  | nil => simp [mt]
  | cons p ps ih =>
    cases bs with
    | nil => rfl
    | cons b bs =>
      rw [mt, tens_cons]
      apply sum_congr rfl
      intro i _
      rw [← ih]
      rfl

theorem mt_bezier (ps : List ℕ) (ts : List K) (P : List ℕ → V) :
    mt ps (bernFns ps ts) P = bezier ps ts P := by
  induction ps generalizing ts P with
  | nil => simp [mt]
  | cons p ps ih =>
    cases ts with
    | nil => rfl
    | cons t ts =>
      rw [bernFns_cons, mt, bezier_cons]
      apply sum_congr rfl
      intro i _
      rw [ih]

theorem mt_congr {ps : List ℕ} {bs : List (ℕ → K)} {P Q : List ℕ → V}
    (h : ∀ is, ValidIdx ps is → P is = Q is) : mt ps bs P = mt ps bs Q := by
  induction ps generalizing bs P Q with
  | nil => exact h [] (by simp)
  | cons p ps ih =>
    cases bs with
    | nil => rfl
    | cons b bs =>
      rw [mt, mt]
      apply sum_congr rfl
      intro i hi
      rw [ih]
      intro is his
      exact h _ (by simp at hi ⊢; exact ⟨by omega, his⟩)

theorem mt_smul (c : K) (ps : List ℕ) (bs : List (ℕ → K)) (P : List ℕ → V) :
    mt ps bs (fun is => c • P is) = c • mt ps bs P := by
  induction ps generalizing bs P with
  | nil => rfl
  | cons p ps ih =>
    cases bs with
    | nil => simp [mt]
    | cons b bs =>
      rw [mt, mt, smul_sum]
      apply sum_congr rfl
      intro i _
      rw [ih, smul_comm]

theorem mt_sum {ι : Type} (s : Finset ι) (ps : List ℕ) (bs : List (ℕ → K)) (P : ι → List ℕ → V) :
    mt ps bs (fun is => ∑ x ∈ s, P x is) = ∑ x ∈ s, mt ps bs (P x) := by
  induction ps generalizing bs P with
  | nil => rfl
  | cons p ps ih =>
    cases bs with
    | nil => simp [mt]
    | cons b bs =>
      simp only [mt]
      rw [sum_comm]
      apply sum_congr rfl
      intro i _
      rw [ih, smul_sum]

theorem mt_append {l r : List ℕ} {bl br : List (ℕ → K)} (h : bl.length = l.length) (P : List ℕ → V) :
    mt (l ++ r) (bl ++ br) P = mt l bl (fun il => mt r br (fun ir => P (il ++ ir))) := by
  induction l generalizing bl P with
  | nil =>
    obtain rfl : bl = [] := List.length_eq_zero_iff.mp h
    rfl
  | cons p l ih =>
    cases bl with
    | nil => simp at h
    | cons b bl =>
      simp only [List.cons_append, mt]
      apply sum_congr rfl
      intro i _
      rw [ih (by simpa using h)]

theorem mt_dim_change {l h : List ℕ} {bl bh : List (ℕ → K)} (hl : bl.length = l.length)
    {p p' : ℕ} {b b' : ℕ → K} {P P' : List ℕ → V}
    (h1 : ∀ il ih, ValidIdx l il → ValidIdx h ih →
      ∑ i ∈ range (p' + 1), b' i • P' (il ++ i :: ih) = ∑ i ∈ range (p + 1), b i • P (il ++ i :: ih)) :
    mt (l ++ p' :: h) (bl ++ b' :: bh) P' = mt (l ++ p :: h) (bl ++ b :: bh) P := by
  rw [mt_append hl, mt_append hl]
  apply mt_congr
  intro il hil
  simp only [mt, ← mt_smul, ← mt_sum]
  apply mt_congr
  intro ih hih
  exact h1 il ih hil hih

/-- one-dimensional fact: forward differences are the control points of the derivative -/
theorem deriv_sum {p o : ℕ} (ho : o ≤ p) (t : K) (P : ℕ → V) :
    ∑ i ∈ range (p - o + 1), bern (p - o) i t •
        ((((-1) ^ o * (p.descFactorial o : K)) : K) • ∑ j ∈ range (o + 1), ((-1) ^ j * (o.choose j : K)) • P (i + j))
      = ∑ i ∈ range (p + 1), dB p o i t • P i := by
  have e1 : ∀ i ∈ range (p + 1), dB p o i t • P i = ∑ j ∈ range (o + 1),
      if j ≤ i then ((-1) ^ (j + o) * ((o.choose j : K) * bern (p - o) (i - j) t) * (p.descFactorial o : K)) • P i
      else 0 := by
    intro i _
    rw [dB_eq, sum_mul, sum_smul]
    apply sum_congr rfl
    intro j _
    split <;> simp
  rw [sum_congr rfl e1, sum_comm]
  simp only [smul_sum]
  rw [sum_comm]
  apply sum_congr rfl
  intro j hj
  simp only [mem_range] at hj
  rw [← sum_filter]
  -- reindex i = i' + j
  have e2 : (range (p + 1)).filter (fun i => j ≤ i) = (range (p + 1 - j)).map (addRightEmbedding j) := by
    ext i
    simp only [mem_filter, mem_range, mem_map, addRightEmbedding_apply]
    constructor
    · rintro ⟨h1, h2⟩; exact ⟨i - j, by omega, by omega⟩
    · rintro ⟨a, h1, rfl⟩; exact ⟨by omega, by omega⟩
  rw [e2, sum_map]
  simp only [addRightEmbedding_apply, Nat.add_sub_cancel]
  have hsub : range (p - o + 1) ⊆ range (p + 1 - j) := by
    intro x; simp only [mem_range]; omega
  rw [← sum_subset hsub]
  · apply sum_congr rfl
    intro i _
    rw [smul_smul, smul_smul]
    congr 1
    rw [pow_add]; ring
  · intro x _ hx
    simp only [mem_range] at hx
    rw [bern_gt (by omega)]; simp

end mt

/-! ### Index helpers -/

theorem flatIndex_set {ps is : List ℕ} (hl : is.length = ps.length) {d m : ℕ} (hd : is[d]? = some m) (j : ℕ) :
    flatIndex ps (is.set d (m + j)) = flatIndex ps is + j * size (ps.take d) := by
  induction ps generalizing is d with
  | nil =>
    obtain rfl : is = [] := List.length_eq_zero_iff.mp hl
    simp at hd
  | cons p ps ih =>
    cases is with
    | nil => simp at hl
    | cons i is =>
      cases d with
      | zero => simp at hd; subst hd; simp; omega
      | succ d =>
        simp only [List.length_cons, Nat.add_right_cancel_iff] at hl
        simp only [List.getElem?_cons_succ] at hd
        simp only [List.set_cons_succ, flatIndex_cons, ih hl hd, List.take_succ_cons, size_cons]
        ring

theorem validIdx_mono {ps qs is : List ℕ} (h : ValidIdx ps qs) (hv : ValidIdx qs is) : ValidIdx ps is := by
  induction ps generalizing qs is with
  | nil => simp at h; subst h; exact hv
  | cons p ps ih =>
    obtain ⟨q, qs, h1, h2, rfl⟩ := validIdx_cons_iff.mp h
    obtain ⟨i, is, h3, h4, rfl⟩ := validIdx_cons_iff.mp hv
    exact validIdx_cons.mpr ⟨by omega, ih h2 h4⟩

theorem flatIndex_inj {ps is js : List ℕ} (h1 : ValidIdx ps is) (h2 : ValidIdx ps js)
    (h : flatIndex ps is = flatIndex ps js) : is = js := by
  rw [← unflat_flatIndex h1, ← unflat_flatIndex h2, h]

theorem size_le_of_valid {ps qs : List ℕ} (h : ValidIdx ps qs) : size qs ≤ size ps := by
  induction ps generalizing qs with
  | nil => simp at h; subst h; exact le_rfl
  | cons p ps ih =>
    obtain ⟨q, qs, h1, h2, rfl⟩ := validIdx_cons_iff.mp h
    simp only [size_cons]
    exact Nat.mul_le_mul (by omega) (ih h2)

theorem lt_size_of_mem {ps : List ℕ} {p : ℕ} (h : p ∈ ps) : p + 1 ≤ size ps := by
  induction ps with
  | nil => simp at h
  | cons q ps ih =>
    simp only [size_cons]
    rcases List.mem_cons.mp h with rfl | h
    · exact Nat.le_mul_of_pos_right _ (size_pos ps)
    · exact (ih h).trans (Nat.le_mul_of_pos_left _ (Nat.succ_pos q))

theorem sub64_ok {a b : ℕ} (h : b ≤ a) (ha : a < 2 ^ 64) : sub64 a b = a - b := by
  unfold sub64
  rw [Nat.mod_eq_of_lt (by omega : b < 2 ^ 64)]
  omega

theorem add64_ok {a b : ℕ} (h : a + b < 2 ^ 64) : add64 a b = a + b := Nat.mod_eq_of_lt h

namespace Spline
variable {K V : Type}

theorem count64_ok {nd : List ℕ} (h : size nd < 2 ^ 64) : count64 nd = size nd := by
  have key : ∀ (l : List ℕ) (n : ℕ), n * size l < 2 ^ 64 → 0 < n →
      l.foldl (fun n d => mul64 n (add64 d 1)) n = n * size l := by
    intro l
    induction l with
    | nil => intro n _ _; simp
    | cons p l ih =>
      intro n hn hpos
      simp only [List.foldl_cons, size_cons] at hn ⊢
      have hs := size_pos l
      have h1 : n * (p + 1) < 2 ^ 64 := lt_of_le_of_lt (by
        rw [← mul_assoc]; exact Nat.le_mul_of_pos_right _ hs) hn
      have h2 : p + 1 < 2 ^ 64 := lt_of_le_of_lt (Nat.le_mul_of_pos_left _ hpos) h1
      have e : mul64 n (add64 p 1) = n * (p + 1) := by
        rw [add64_ok h2]; exact Nat.mod_eq_of_lt h1
      rw [e, ih _ (by rw [mul_assoc]; exact hn) (by positivity)]
      ring
  simpa [count64] using key nd 1 (by simpa using h) one_pos

theorem ofDegrees64_eq [Zero V] {nd : List ℕ} (hpos : 0 < nd.length) (h : size nd < 2 ^ 64) :
    ofDegrees64 (V := V) nd = ofDegrees nd := by
  have e : ∀ k, k < nd.length → size (nd.take (k + 1)) < 2 ^ 64 := fun k hk => by
    refine lt_of_le_of_lt ?_ h
    conv_rhs => rw [← List.take_append_drop (k + 1) nd, size_append]
    exact Nat.le_mul_of_pos_right _ (size_pos _)
  have hoff : ∀ k, k < nd.length → (offsetsOf nd)[k]? = some (size (nd.take k)) := fun k hk => by
    simp [offsetsOf, hk]
  unfold ofDegrees64 ofDegrees
  rw [count64_ok h, countCps_eq, updateIndexOffsets_ok (by simp) hpos]
  simp only []
  rw [wr_ok _ (by simpa using hpos)]
  simp only [bind_ok]
  obtain ⟨o, h1, h2, h3⟩ := loopFrom_inv (a := 1) (b := nd.length) (s := (List.replicate nd.length 0).set 0 1)
    (f := fun i o => do
      let a ← rd o (i - 1)
      let d ← rd nd (i - 1)
      wr o i (mul64 a (add64 d 1)))
    (P := fun k o => o.length = nd.length ∧ ∀ i, i < k → o[i]? = some (size (nd.take i))) (by omega)
    ⟨by simp, fun i hi => by
      obtain rfl : i = 0 := by omega
      simp [List.getElem?_set, hpos, size]⟩
    (by
      rintro k hk1 hk2 o ⟨hl, ho⟩
      obtain ⟨m, rfl⟩ : ∃ m, k = m + 1 := ⟨k - 1, by omega⟩
      have hd : nd[m]? = some nd[m] := List.getElem?_eq_getElem (by omega)
      simp only [Nat.add_sub_cancel]
      rw [rd_ok (ho m (by omega)), rd_ok hd]
      simp only [bind_ok]
      have e1 : size (nd.take (m + 1)) = size (nd.take m) * (nd[m] + 1) := by
        rw [List.take_succ_eq_append_getElem (by omega), size_append, size_cons]; simp [size]
      have e2 := e m (by omega)
      have e3 : nd[m] + 1 < 2 ^ 64 :=
        lt_of_le_of_lt (lt_size_of_mem (List.getElem_mem (by omega))) h
      rw [add64_ok e3, mul64, ← e1, Nat.mod_eq_of_lt e2, wr_ok _ (by omega)]
      refine ⟨_, rfl, by simp [hl], fun i hi => ?_⟩
      rw [List.getElem?_set]
      by_cases hi' : m + 1 = i
      · subst hi'; simp; omega
      · rw [if_neg hi']; exact ho i (by omega))
  have ho : o = offsetsOf nd := by
    apply List.ext_getElem?
    intro i
    by_cases hi : i < nd.length
    · rw [h3 i hi, hoff i hi]
    · rw [List.getElem?_eq_none (by omega), List.getElem?_eq_none (by simp [offsetsOf]; omega)]
  rw [h1, ho]; rfl

theorem globalIdWith_any {nd : List ℕ} (hpos : 0 < nd.length) (h : ∀ x ∈ nd, x + 1 < 2 ^ 64) (n : ℕ) :
    globalIdWith nd n = .ok (unflat nd n) := by
  have hadd : ∀ i (hi : i < nd.length), add64 nd[i] 1 = nd[i] + 1 := fun i hi =>
    add64_ok (h _ (List.getElem_mem hi))
  unfold globalIdWith
  rw [rd_getElem hpos]
  simp only [bind_ok]
  rw [hadd 0 hpos, modU_ok (by omega)]
  simp only [bind_ok]
  rw [wr_ok _ (by simpa using hpos)]
  simp only [bind_ok]
  have hget : ∀ i (hi : i < nd.length), (unflat nd n)[i]? = some (n / size (nd.take i) % (nd[i] + 1)) :=
    fun i hi => unflat_getElem? n (List.getElem?_eq_getElem hi)
  obtain ⟨r, h1, h2, h3, h4⟩ := loopFrom_inv (a := 1) (b := nd.length)
    (s := ((List.replicate nd.length 0).set 0 (n % (nd[0] + 1)), n))
    (f := fun i (r : List Nat × Nat) => do
      let dp ← rd nd (i - 1)
      let g ← divU r.2 (add64 dp 1)
      let d ← rd nd i
      let m ← modU g (add64 d 1)
      let idx ← wr r.1 i m
      pure (idx, g))
    (P := fun k r => r.1.length = nd.length ∧ (∀ i, i < k → r.1[i]? = (unflat nd n)[i]?) ∧
      r.2 = n / size (nd.take (k - 1)))
    (by omega)
    ⟨by simp, by
      intro i hi
      obtain rfl : i = 0 := by omega
      rw [hget 0 hpos, List.getElem?_set_self (by simpa using hpos)]; simp, by simp⟩
    (by
      rintro k hk1 hk2 ⟨idx, g⟩ ⟨e1, e2, e3⟩
      simp only at e1 e2 e3 ⊢
      rw [rd_getElem (by omega : k - 1 < nd.length)]
      simp only [bind_ok]
      rw [hadd (k - 1) (by omega), divU_ok (by omega)]
      simp only [bind_ok]
      rw [rd_getElem hk2]
      simp only [bind_ok]
      rw [hadd k hk2, modU_ok (by omega)]
      simp only [bind_ok]
      rw [wr_ok _ (by omega)]
      have hg : g / (nd[k - 1] + 1) = n / size (nd.take k) := by
        rw [e3, Nat.div_div_eq_div_mul, ← size_take_succ (List.getElem?_eq_getElem (by omega : k - 1 < nd.length)),
          show k - 1 + 1 = k by omega]
      refine ⟨_, rfl, by simpa using e1, ?_, by rw [hg]; congr 2⟩
      intro i hi
      simp only
      by_cases hik : i = k
      · subst hik
        rw [List.getElem?_set_self (by omega), hget i hk2, hg]
      · rw [List.getElem?_set_ne (by omega)]; exact e2 i (by omega))
  rw [h1]
  simp only [bind_ok, pure_eq_ok]
  congr 1
  apply List.ext_getElem?
  intro i
  by_cases hi : i < nd.length
  · exact h3 i hi
  · rw [List.getElem?_eq_none (by omega), List.getElem?_eq_none (by simpa using hi)]

section pass
variable [CommRing K] [AddCommGroup V] [Module K V]

theorem globalIdWith_ok {nd : List ℕ} (hpos : 0 < nd.length) (h : size nd < 2 ^ 64) (n : ℕ) :
    globalIdWith nd n = .ok (unflat nd n) :=
  globalIdWith_any hpos (fun _ hx => lt_of_le_of_lt (lt_size_of_mem hx) h) n

/-- the sign factor of the code -/
theorem sign_eq (j : ℕ) : (if j % 2 = 0 then (1 : K) else -1) = (-1) ^ j := by
  rcases Nat.even_or_odd j with h | h
  · rw [if_pos (Nat.even_iff.mp h), h.neg_one_pow]
  · rw [if_neg (by rw [Nat.odd_iff.mp h]; simp), h.neg_one_pow]

theorem factor_ok {p o : ℕ} (ho : 0 < o) (hop : o ≤ p) (hp : p < 2 ^ 64) :
    loopFrom 1 o (fun i (f : K) => pure (f * ((sub64 p i : Nat) : K))) ((p : Nat) : K)
      = .ok (p.descFactorial o : K) := by
  obtain ⟨f, h1, h2⟩ := loopFrom_inv (a := 1) (b := o) (s := ((p : Nat) : K))
    (f := fun i (f : K) => pure (f * ((sub64 p i : Nat) : K)))
    (P := fun k f => f = (p.descFactorial k : K)) (by omega) (by simp)
    (by
      rintro k hk1 hk2 f rfl
      refine ⟨_, rfl, ?_⟩
      rw [sub64_ok (by omega) hp, Nat.descFactorial_succ]; push_cast; ring)
  rw [h1, h2]

variable {s : Spline V}

/-- the loop over `j` for one point -/
theorem deriv_point {cfg : Cfg} (hc : cfg.Ok) (h : s.WF) {d o m : ℕ} {mi : List ℕ} {N : ℕ} {F : ℕ → V}
    (ho : o < cfg.maxBinom)
    (hl : mi.length = s.dim) (hm : mi[d]? = some m)
    (hN : ∀ j, j ≤ o → flatIndex s.degrees mi + j * size (s.degrees.take d) < N) :
    ∃ mi', loopFrom 1 (o + 1) (fun j (q : List Nat × List V) => do
          let m ← rd q.1 d
          let multi_index ← wr q.1 d (m + 1)
          let c ← choose cfg o j
          let local_coefficient : K := (if j % 2 = 0 then 1 else -1) * ((c : Nat) : K)
          let x ← rd q.2 (flatIndex s.degrees mi)
          let k ← s.globalToLocal multi_index
          let y ← rd q.2 k
          let pts ← wr q.2 (flatIndex s.degrees mi) (x + local_coefficient • y)
          pure (multi_index, pts)) (mi, tab N F)
      = .ok (mi', tab N (Function.update F (flatIndex s.degrees mi)
          (∑ j ∈ range (o + 1), ((-1) ^ j * (o.choose j : K)) • F (flatIndex s.degrees mi + j * size (s.degrees.take d))))) := by
  have hd : d < mi.length := (List.getElem?_eq_some_iff.mp hm).1
  obtain ⟨⟨mi', mem⟩, h1, h2, h3⟩ := loopFrom_inv (a := 1) (b := o + 1) (s := (mi, tab N F))
    (f := fun j (q : List Nat × List V) => do
          let m ← rd q.1 d
          let multi_index ← wr q.1 d (m + 1)
          let c ← choose cfg o j
          let local_coefficient : K := (if j % 2 = 0 then 1 else -1) * ((c : Nat) : K)
          let x ← rd q.2 (flatIndex s.degrees mi)
          let k ← s.globalToLocal multi_index
          let y ← rd q.2 k
          let pts ← wr q.2 (flatIndex s.degrees mi) (x + local_coefficient • y)
          pure (multi_index, pts))
    (P := fun j q => q.1 = mi.set d (m + (j - 1)) ∧
      q.2 = tab N (Function.update F (flatIndex s.degrees mi)
          (∑ j ∈ range j, ((-1) ^ j * (o.choose j : K)) • F (flatIndex s.degrees mi + j * size (s.degrees.take d)))))
    (by omega)
    ⟨by
      simp only [Nat.sub_self, Nat.add_zero]
      rw [set_split hm, ← list_split hm], by simp⟩
    (by
      rintro j hj1 hj2 ⟨q1, q2⟩ ⟨rfl, rfl⟩
      simp only
      rw [rd_ok (x := m + (j - 1)) (by rw [List.getElem?_set_self hd])]
      simp only [bind_ok]
      rw [wr_ok _ (by simpa using hd), List.set_set]
      simp only [bind_ok]
      rw [choose_ok hc ho (by omega)]
      simp only [bind_ok]
      have hpos := hN 0 (by omega)
      simp only [zero_mul, add_zero] at hpos
      rw [rd_tab _ hpos]
      simp only [bind_ok, Function.update_self]
      rw [globalToLocal_ok h (by simpa using hl)]
      simp only [bind_ok]
      rw [show m + (j - 1) + 1 = m + j by omega, flatIndex_set hl hm, rd_tab _ (hN j (by omega))]
      simp only [bind_ok]
      rw [wr_tab _ _ hpos]
      refine ⟨_, rfl, by simp, ?_⟩
      simp only [Function.update_idem]
      have hne : flatIndex s.degrees mi + j * size (s.degrees.take d) ≠ flatIndex s.degrees mi := by
        have := Nat.mul_pos (show 0 < j by omega) (size_pos (s.degrees.take d)); omega
      rw [Function.update_of_ne hne, sum_range_succ, sign_eq])
  simp only at h2 h3
  exact ⟨mi', by rw [h1, h3]⟩

/-- one pass over all points in direction `d` -/
theorem deriv_pass {cfg : Cfg} (hc : cfg.Ok) (h : s.WF) {d o p : ℕ} {nd : List ℕ} {F : ℕ → V} {c : K}
    (ho : o < cfg.maxBinom) (hop : o ≤ p) (ho0 : 0 < o) (hp : s.degrees[d]? = some p) (hnd : ValidIdx s.degrees nd)
    (hndd : nd[d]? = some (p - o)) (hsz : size s.degrees < 2 ^ 64) :
    ∃ G, loop (count64 nd) (fun i_point pts => do
        let multi_index ← globalIdWith nd i_point
        let i_point_index ← s.globalToLocal multi_index
        let q ← loopFrom 1 (o + 1) (fun j (q : List Nat × List V) => do
          let m ← rd q.1 d
          let multi_index ← wr q.1 d (m + 1)
          let c ← choose cfg o j
          let local_coefficient : K := (if j % 2 = 0 then 1 else -1) * ((c : Nat) : K)
          let x ← rd q.2 i_point_index
          let k ← s.globalToLocal multi_index
          let y ← rd q.2 k
          let pts ← wr q.2 i_point_index (x + local_coefficient • y)
          pure (multi_index, pts)) (multi_index, pts)
        let x ← rd q.2 i_point_index
        wr q.2 i_point_index (((if o % 2 = 0 then 1 else -1) * c : K) • x)) (tab (size s.degrees) F)
      = .ok (tab (size s.degrees) G) ∧
      ∀ mi, ValidIdx nd mi → G (flatIndex s.degrees mi) =
        ((-1) ^ o * c) • ∑ j ∈ range (o + 1), ((-1) ^ j * (o.choose j : K)) •
          F (flatIndex s.degrees mi + j * size (s.degrees.take d)) := by
  have hszn : size nd < 2 ^ 64 := lt_of_le_of_lt (size_le_of_valid hnd) hsz
  have hpos : 0 < nd.length := by rw [hnd.length]; exact h.dim_pos
  set new : List ℕ → V := fun mi => ((-1) ^ o * c) • ∑ j ∈ range (o + 1), ((-1) ^ j * (o.choose j : K)) •
          F (flatIndex s.degrees mi + j * size (s.degrees.take d)) with hnew
  -- raising entry `d` of a valid index by `j ≤ o` stays inside the original net
  have hraise : ∀ mi m j, ValidIdx nd mi → mi[d]? = some m → j ≤ o → ValidIdx s.degrees (mi.set d (m + j)) := by
    intro mi m j hmi hm hj
    have hv := validIdx_mono hnd hmi
    rw [validIdx_iff] at hv hmi ⊢
    refine ⟨by simpa using hv.1, ?_⟩
    intro e i q hi hq
    by_cases hed : e = d
    · subst hed
      rw [List.getElem?_set_self (List.getElem?_eq_some_iff.mp hm).1] at hi
      rw [hp] at hq
      simp only [Option.some.injEq] at hi hq
      have := hmi.2 e m (p - o) hm hndd
      omega
    · rw [List.getElem?_set_ne (Ne.symm hed)] at hi
      exact hv.2 e i q hi hq
  rw [count64_ok hszn]
  obtain ⟨mem, h1, G, rfl, h2, h3⟩ := loop_inv (n := size nd) (s := tab (size s.degrees) F)
    (f := fun i_point pts => do
        let multi_index ← globalIdWith nd i_point
        let i_point_index ← s.globalToLocal multi_index
        let q ← loopFrom 1 (o + 1) (fun j (q : List Nat × List V) => do
          let m ← rd q.1 d
          let multi_index ← wr q.1 d (m + 1)
          let c ← choose cfg o j
          let local_coefficient : K := (if j % 2 = 0 then 1 else -1) * ((c : Nat) : K)
          let x ← rd q.2 i_point_index
          let k ← s.globalToLocal multi_index
          let y ← rd q.2 k
          let pts ← wr q.2 i_point_index (x + local_coefficient • y)
          pure (multi_index, pts)) (multi_index, pts)
        let x ← rd q.2 i_point_index
        wr q.2 i_point_index (((if o % 2 = 0 then 1 else -1) * c : K) • x))
    (P := fun k mem => ∃ G, mem = tab (size s.degrees) G ∧
      (∀ mi, ValidIdx nd mi → G (flatIndex s.degrees mi) =
        if flatIndex nd mi < k then new mi else F (flatIndex s.degrees mi)) ∧
      (∀ x, (∀ mi, ValidIdx nd mi → x ≠ flatIndex s.degrees mi) → G x = F x))
    ⟨F, rfl, fun mi _ => by simp, fun x _ => rfl⟩
    (by
      rintro k hk _ ⟨G, rfl, g1, g2⟩
      rw [globalIdWith_ok hpos hszn]
      simp only [bind_ok]
      set mi := unflat nd k with hmi
      have hmv : ValidIdx nd mi := unflat_valid nd k
      have hmk : flatIndex nd mi = k := flatIndex_unflat hk
      have hml : mi.length = s.dim := by rw [hmv.length, hnd.length]; rfl
      have hdlt : d < mi.length := by rw [hml]; exact (List.getElem?_eq_some_iff.mp hp).1
      have hm : mi[d]? = some mi[d] := List.getElem?_eq_getElem hdlt
      rw [globalToLocal_ok h hml]
      simp only [bind_ok]
      have hpl : ∀ j, j ≤ o → flatIndex s.degrees mi + j * size (s.degrees.take d) < size s.degrees := by
        intro j hj
        rw [← flatIndex_set hml hm]
        exact flatIndex_lt (hraise mi _ j hmv hm hj)
      obtain ⟨mi', e1⟩ := deriv_point (K := K) (F := G) hc h ho hml hm hpl
      rw [e1]
      simp only [bind_ok]
      have hp0 := hpl 0 (by omega)
      simp only [zero_mul, add_zero] at hp0
      rw [rd_tab _ hp0]
      simp only [bind_ok, Function.update_self]
      rw [wr_tab _ _ hp0]
      refine ⟨_, rfl, _, rfl, ?_, ?_⟩
      · intro mj hmj
        rw [Function.update_idem]
        by_cases hj : mj = mi
        · subst hj
          rw [Function.update_self, sign_eq, if_pos (by omega)]
          simp only [hnew]
          congr 1
          apply sum_congr rfl
          intro j hj
          simp only [mem_range] at hj
          congr 1
          -- reads are not yet overwritten
          by_cases hv : ValidIdx nd (mi.set d (mi[d] + j))
          · rw [← flatIndex_set hml hm, g1 _ hv, if_neg]
            rw [flatIndex_set hmv.length hm]
            omega
          · apply g2
            intro mj' hmj' he
            rw [← flatIndex_set hml hm] at he
            have := flatIndex_inj (hraise mi _ j hmv hm (by omega)) (validIdx_mono hnd hmj') he
            exact hv (this ▸ hmj')
        · have hne : flatIndex s.degrees mj ≠ flatIndex s.degrees mi := fun he =>
            hj (flatIndex_inj (validIdx_mono hnd hmj) (validIdx_mono hnd hmv) he)
          rw [Function.update_of_ne hne, g1 mj hmj]
          have hne' : flatIndex nd mj ≠ k := fun he => hj (flatIndex_inj hmj hmv (by rw [he, hmk]))
          by_cases hlt : flatIndex nd mj < k
          · rw [if_pos hlt, if_pos (by omega)]
          · rw [if_neg hlt, if_neg (by omega)]
      · intro x hx
        rw [Function.update_of_ne (hx mi hmv), Function.update_of_ne (hx mi hmv)]
        exact g2 x hx)
  refine ⟨G, h1, ?_⟩
  intro mi hmi
  rw [h2 mi hmi, if_pos (flatIndex_lt hmi)]

/-- orders still to be processed after `k` directions -/
def restOrders (orders : List ℕ) (k : ℕ) : List ℕ := List.replicate (min k orders.length) 0 ++ orders.drop k

/-- degrees after `k` directions -/
def doneDegrees (ps orders : List ℕ) (k : ℕ) : List ℕ :=
  List.zipWith (· - ·) (ps.take k) (orders.take k) ++ ps.drop k

theorem dFns_split {ps ks : List ℕ} {ts : List K} {d p k : ℕ} {t : K} (h1 : ks.length = ps.length)
    (h2 : ts.length = ps.length) (hp : ps[d]? = some p) (hk : ks[d]? = some k) (ht : ts[d]? = some t) :
    dFns ps ks ts = dFns (ps.take d) (ks.take d) (ts.take d) ++ (fun i => dB p k i t) ::
      dFns (ps.drop (d + 1)) (ks.drop (d + 1)) (ts.drop (d + 1)) := by
  induction ps generalizing ks ts d with
  | nil => simp at hp
  | cons q ps ih =>
    cases ks with
    | nil => simp at h1
    | cons k' ks =>
      cases ts with
      | nil => simp at h2
      | cons t' ts =>
        cases d with
        | zero => simp at hp hk ht; subst hp hk ht; rfl
        | succ d =>
          simp only [List.getElem?_cons_succ] at hp hk ht
          simp only [List.length_cons, Nat.add_right_cancel_iff] at h1 h2
          simp only [dFns, List.take_succ_cons, List.drop_succ_cons, List.cons_append]
          rw [ih h1 h2 hp hk ht]

/-- invariant of the loop over directions -/
def DerivInv (s : Spline V) (orders : List ℕ) (d : ℕ) (r : List ℕ × List V) : Prop :=
  r.1 = doneDegrees s.degrees orders d ∧ ∃ G, r.2 = tab (size s.degrees) G ∧
    ∀ t : List K, t.length = s.dim →
      mt r.1 (dFns r.1 (restOrders orders d) t) (fun mi => G (flatIndex s.degrees mi))
        = tens s.degrees (dFns s.degrees orders t) (fun n => s.cps.getD n 0)

theorem doneDegrees_length {ps orders : List ℕ} (hl : orders.length = ps.length) (k : ℕ) :
    (doneDegrees ps orders k).length = ps.length := by
  simp [doneDegrees, hl]; omega

theorem doneDegrees_getElem? {ps orders : List ℕ} (hl : orders.length = ps.length) {k i p o : ℕ}
    (hp : ps[i]? = some p) (ho : orders[i]? = some o) :
    (doneDegrees ps orders k)[i]? = some (if i < k then p - o else p) := by
  obtain ⟨hi, rfl⟩ := List.getElem?_eq_some_iff.mp hp
  obtain ⟨hi', rfl⟩ := List.getElem?_eq_some_iff.mp ho
  unfold doneDegrees
  split
  · rw [List.getElem?_append_left (by simp; omega)]
    simp [List.getElem?_zipWith, List.getElem?_take, *]
  · rw [List.getElem?_append_right (by simp; omega)]
    simp only [List.length_zipWith, List.length_take, List.getElem?_drop]
    rw [List.getElem?_eq_getElem (by omega)]
    simp only [Option.some.injEq]
    congr 1
    omega

theorem restOrders_length {orders : List ℕ} (k : ℕ) : (restOrders orders k).length = orders.length := by
  simp [restOrders]; omega

theorem restOrders_getElem? {orders : List ℕ} {k i o : ℕ} (ho : orders[i]? = some o) :
    (restOrders orders k)[i]? = some (if i < k then 0 else o) := by
  obtain ⟨hi', rfl⟩ := List.getElem?_eq_some_iff.mp ho
  unfold restOrders
  split
  · rw [List.getElem?_append_left (by simp; omega), List.getElem?_replicate, if_pos (by omega)]
  · rw [List.getElem?_append_right (by simp; omega)]
    simp only [List.length_replicate, List.getElem?_drop]
    rw [List.getElem?_eq_getElem (by omega)]
    simp only [Option.some.injEq]
    congr 1
    omega

theorem ext_some {α : Type} {l l' : List α} (hl : l.length = l'.length)
    (h : ∀ i (_ : i < l.length), ∃ x, l[i]? = some x ∧ l'[i]? = some x) : l = l' := by
  apply List.ext_getElem?
  intro i
  by_cases hi : i < l.length
  · obtain ⟨x, h1, h2⟩ := h i hi; rw [h1, h2]
  · rw [List.getElem?_eq_none (by omega), List.getElem?_eq_none (by omega)]

theorem doneDegrees_succ {ps orders : List ℕ} (hl : orders.length = ps.length) {d p o : ℕ}
    (hp : ps[d]? = some p) (ho : orders[d]? = some o) :
    doneDegrees ps orders (d + 1) = (doneDegrees ps orders d).set d (p - o) := by
  apply ext_some (by simp [doneDegrees_length hl])
  intro i hi
  rw [doneDegrees_length hl] at hi
  have hpi : ps[i]? = some ps[i] := List.getElem?_eq_getElem hi
  have hoi : orders[i]? = some orders[i] := List.getElem?_eq_getElem (by omega)
  refine ⟨_, doneDegrees_getElem? hl hpi hoi, ?_⟩
  by_cases hid : i = d
  · subst hid
    rw [List.getElem?_set_self (by rw [doneDegrees_length hl]; exact hi), if_pos (by omega)]
    rw [hp] at hpi; rw [ho] at hoi
    simp only [Option.some.injEq] at hpi hoi
    rw [hpi, hoi]
  · rw [List.getElem?_set_ne (Ne.symm hid), doneDegrees_getElem? hl hpi hoi]
    by_cases h : i < d
    · rw [if_pos h, if_pos (by omega)]
    · rw [if_neg h, if_neg (by omega)]

theorem restOrders_succ {orders : List ℕ} {d o : ℕ} (ho : orders[d]? = some o) :
    restOrders orders (d + 1) = (restOrders orders d).set d 0 := by
  apply ext_some (by simp [restOrders_length])
  intro i hi
  rw [restOrders_length] at hi
  have hoi : orders[i]? = some orders[i] := List.getElem?_eq_getElem (by omega)
  refine ⟨_, restOrders_getElem? hoi, ?_⟩
  by_cases hid : i = d
  · subst hid
    rw [List.getElem?_set_self (by rw [restOrders_length]; exact hi), if_pos (by omega)]
  · rw [List.getElem?_set_ne (Ne.symm hid), restOrders_getElem? hoi]
    by_cases h : i < d
    · rw [if_pos h, if_pos (by omega)]
    · rw [if_neg h, if_neg (by omega)]

theorem doneDegrees_valid {ps orders : List ℕ} (hl : orders.length = ps.length) (d : ℕ) :
    ValidIdx ps (doneDegrees ps orders d) := by
  rw [validIdx_iff]
  refine ⟨doneDegrees_length hl d, ?_⟩
  intro e i p hi hp
  have he := (List.getElem?_eq_some_iff.mp hp).1
  rw [doneDegrees_getElem? hl hp (List.getElem?_eq_getElem (by omega : e < orders.length))] at hi
  simp only [Option.some.injEq] at hi
  split at hi <;> omega

/-- one direction, value part -/
theorem deriv_value_step {ps orders nd : List ℕ} {d p o : ℕ} (hnl : nd.length = ps.length) (hol : orders.length = ps.length)
    (hp : ps[d]? = some p) (hn : nd[d]? = some p) (ho : orders[d]? = some o) (hop : o ≤ p)
    {F G : ℕ → V} {c : K} (hc : c = (p.descFactorial o : K))
    (hG : ∀ mi, ValidIdx (nd.set d (p - o)) mi → G (flatIndex ps mi) =
        ((-1) ^ o * c) • ∑ j ∈ range (o + 1), ((-1) ^ j * (o.choose j : K)) •
          F (flatIndex ps mi + j * size (ps.take d)))
    {t : List K} (ht : t.length = ps.length) :
    mt (nd.set d (p - o)) (dFns (nd.set d (p - o)) (orders.set d 0) t) (fun mi => G (flatIndex ps mi))
      = mt nd (dFns nd orders t) (fun mi => F (flatIndex ps mi)) := by
  have hd : d < ps.length := (List.getElem?_eq_some_iff.mp hp).1
  have htd : t[d]? = some t[d] := List.getElem?_eq_getElem (by omega)
  have hnd' : (nd.set d (p - o))[d]? = some (p - o) := List.getElem?_set_self (by omega)
  have hod' : (orders.set d 0)[d]? = some 0 := List.getElem?_set_self (by omega)
  rw [dFns_split (by simp; omega) (by simp; omega) hnd' hod' htd, dFns_split (by omega) (by omega) hn ho htd]
  have hlt : (nd.take d).length = d := by simp; omega
  have t1 : (nd.set d (p - o)).take d = nd.take d := by
    rw [List.take_set, List.set_eq_of_length_le (by simp)]
  have t2 : (orders.set d 0).take d = orders.take d := by
    rw [List.take_set, List.set_eq_of_length_le (by simp)]
  have t3 : (nd.set d (p - o)).drop (d + 1) = nd.drop (d + 1) := by
    rw [List.drop_set, if_pos (by omega)]
  have t4 : (orders.set d 0).drop (d + 1) = orders.drop (d + 1) := by
    rw [List.drop_set, if_pos (by omega)]
  rw [t1, t2, t3, t4]
  have s1 : nd.set d (p - o) = nd.take d ++ (p - o) :: nd.drop (d + 1) := set_split hn _
  have s2 : nd = nd.take d ++ p :: nd.drop (d + 1) := list_split hn
  suffices hh : mt (nd.take d ++ (p - o) :: nd.drop (d + 1))
      (dFns (nd.take d) (orders.take d) (t.take d) ++ (fun i => dB (p - o) 0 i t[d]) ::
        dFns (nd.drop (d + 1)) (orders.drop (d + 1)) (t.drop (d + 1))) (fun mi => G (flatIndex ps mi))
      = mt (nd.take d ++ p :: nd.drop (d + 1))
      (dFns (nd.take d) (orders.take d) (t.take d) ++ (fun i => dB p o i t[d]) ::
        dFns (nd.drop (d + 1)) (orders.drop (d + 1)) (t.drop (d + 1))) (fun mi => F (flatIndex ps mi)) by
    rw [← s1, ← s2] at hh; exact hh
  apply mt_dim_change
  · rw [dFns_length]
    · simp; omega
    · simp; omega
  · intro il ih hil hih
    rw [← deriv_sum hop]
    apply sum_congr rfl
    intro i hi
    simp only [mem_range] at hi
    rw [dB_zero]
    congr 1
    have hil' : il.length = d := by rw [hil.length, hlt]
    have hv : ValidIdx (nd.set d (p - o)) (il ++ i :: ih) := by
      rw [set_split hn, validIdx_append hil.length, validIdx_cons]
      exact ⟨hil, by omega, hih⟩
    rw [hG _ hv, hc]
    congr 1
    apply sum_congr rfl
    intro j _
    congr 2
    have hget : (il ++ i :: ih)[d]? = some i := by
      rw [List.getElem?_append_right (by omega), hil']; simp
    have hll : (il ++ i :: ih).length = ps.length := by
      rw [hv.length]; simp; omega
    rw [← flatIndex_set hll hget]
    congr 1
    rw [List.set_append_right _ _ (by omega), hil']; simp

variable (K) in
/-- one round of the loop over the parametric dimensions in `derivativeSpline` -/
def derivStep (cfg : Cfg) (s : Spline V) (orders : List ℕ) : ℕ → List ℕ × List V → M (List ℕ × List V) :=
  fun d (r : List Nat × List V) => do
    let o ← rd orders d
    if o = 0 then pure r
    else do
      let nd ← rd r.1 d
      let new_degrees ← wr r.1 d (sub64 nd o)
      let p ← rd s.degrees d
      let factor ← loopFrom 1 o (fun i (f : K) => pure (f * ((sub64 p i : Nat) : K))) ((p : Nat) : K)
      let pts ← loop (count64 new_degrees) (fun i_point pts => do
        let multi_index ← globalIdWith new_degrees i_point
        let i_point_index ← s.globalToLocal multi_index
        let q ← loopFrom 1 (o + 1) (fun j (q : List Nat × List V) => do
          let m ← rd q.1 d
          let multi_index ← wr q.1 d (m + 1)
          let c ← choose cfg o j
          let local_coefficient : K := (if j % 2 = 0 then 1 else -1) * ((c : Nat) : K)
          let x ← rd q.2 i_point_index
          let k ← s.globalToLocal multi_index
          let y ← rd q.2 k
          let pts ← wr q.2 i_point_index (x + local_coefficient • y)
          pure (multi_index, pts)) (multi_index, pts)
        let x ← rd q.2 i_point_index
        wr q.2 i_point_index (((if o % 2 = 0 then 1 else -1) * factor : K) • x)) r.2
      pure (new_degrees, pts)

theorem deriv_step {cfg : Cfg} (hc : cfg.Ok) (h : s.WF) {orders : List ℕ} (hl : orders.length = s.dim) {d : ℕ}
    (hd : d < s.dim) (hle : ∀ (o p : ℕ), orders[d]? = some o → s.degrees[d]? = some p → o ≤ p)
    (hmax : ∀ o, orders[d]? = some o → o < cfg.maxBinom) (hsz : size s.degrees < 2 ^ 64) {r : List ℕ × List V}
    (hr : DerivInv (K := K) s orders d r) :
    ∃ r', derivStep K cfg s orders d r = .ok r' ∧ DerivInv (K := K) s orders (d + 1) r' := by
  have hl' : orders.length = s.degrees.length := hl
  unfold derivStep
  obtain ⟨nd, pts⟩ := r
  obtain ⟨rfl, F, h3, h4⟩ := hr
  simp only at h3 h4 ⊢
  subst h3
  have hp : s.degrees[d]? = some s.degrees[d] := List.getElem?_eq_getElem hd
  have ho : orders[d]? = some orders[d] := List.getElem?_eq_getElem (by omega)
  set p := s.degrees[d] with hpdef
  set o := orders[d] with hodef
  have hop : o ≤ p := hle o p ho hp
  have hndd : (doneDegrees s.degrees orders d)[d]? = some p := by
    rw [doneDegrees_getElem? hl' hp ho, if_neg (by omega)]
  have hndl := doneDegrees_length hl' d
  rw [rd_ok ho]
  simp only [bind_ok]
  by_cases ho0 : o = 0
  · rw [if_pos ho0]
    have e1 : doneDegrees s.degrees orders (d + 1) = doneDegrees s.degrees orders d := by
      rw [doneDegrees_succ hl' hp ho, ho0, Nat.sub_zero, set_split hndd, ← list_split hndd]
    have e2 : restOrders orders (d + 1) = restOrders orders d := by
      have hr : (restOrders orders d)[d]? = some 0 := by
        rw [restOrders_getElem? ho, if_neg (by omega), ho0]
      rw [restOrders_succ ho, set_split hr, ← list_split hr]
    refine ⟨_, rfl, e1.symm, F, rfl, ?_⟩
    rw [e2]; exact h4
  · rw [if_neg ho0, rd_ok hndd]
    have hp64 : p < 2 ^ 64 :=
      lt_of_lt_of_le (Nat.lt_succ_self p) ((lt_size_of_mem (List.mem_of_getElem? hp)).trans hsz.le)
    simp only [bind_ok]
    rw [sub64_ok hop hp64, wr_ok _ (by rw [hndl]; exact hd)]
    simp only [bind_ok]
    rw [rd_ok hp]
    simp only [bind_ok]
    rw [factor_ok (by omega) hop hp64]
    simp only [bind_ok]
    rw [← doneDegrees_succ hl' hp ho]
    obtain ⟨G, e1, e2⟩ := deriv_pass (K := K) (F := F) (c := (p.descFactorial o : K)) hc h
      (hmax o ho) hop (by omega) hp (doneDegrees_valid hl' (d + 1))
      (by rw [doneDegrees_getElem? hl' hp ho, if_pos (by omega)]) hsz
    rw [e1]
    refine ⟨_, rfl, rfl, G, rfl, ?_⟩
    intro t ht
    rw [← h4 t ht]
    simp only
    rw [doneDegrees_succ hl' hp ho] at e2 ⊢
    rw [restOrders_succ ho]
    exact deriv_value_step hndl (by rw [restOrders_length, hl']) hp hndd
      (by rw [restOrders_getElem? ho, if_neg (by omega)]) hop rfl e2 ht

theorem derivativeSpline_ok {cfg : Cfg} (hc : cfg.Ok) (h : s.WF) {orders : List ℕ} (hl : orders.length = s.dim)
    (hle : ∀ (d o p : ℕ), orders[d]? = some o → s.degrees[d]? = some p → o ≤ p)
    (hmax : ∀ o ∈ orders, o < cfg.maxBinom) (hsz : size s.degrees < 2 ^ 64) :
    ∃ r, derivativeSpline K cfg s orders = .ok r ∧ r.WF ∧ r.degrees = List.zipWith (· - ·) s.degrees orders ∧
      ∀ t : List K, t.length = s.dim →
        r.value t = tens s.degrees (dFns s.degrees orders t) (fun n => s.cps.getD n 0) := by
  have hl' : orders.length = s.degrees.length := hl
  unfold derivativeSpline
  obtain ⟨⟨nd, pts⟩, h1, h2, G, h3, h4⟩ := loop_inv (n := s.dim) (s := (s.degrees, s.cps))
    (f := derivStep K cfg s orders)
    (P := DerivInv (K := K) s orders)
    ⟨by simp [doneDegrees], fun i => s.cps.getD i 0, h.cps_tab, by
      intro t ht
      simp only [restOrders, Nat.zero_min, List.replicate_zero, List.nil_append, List.drop_zero]
      exact mt_tens _ _ (fun n => s.cps.getD n 0)⟩
    (fun d hd r hr => deriv_step hc h hl hd (hle d) (fun o ho => hmax o (List.mem_of_getElem? ho)) hsz hr)
  unfold derivStep at h1
  rw [h1]
  simp only at h2 h3 h4
  have hnd : nd = List.zipWith (· - ·) s.degrees orders := by
    rw [h2]
    unfold doneDegrees
    rw [List.take_of_length_le (l := s.degrees) (by simp [dim]), List.take_of_length_le (l := orders) (by omega),
      List.drop_of_length_le (by simp [dim])]
    simp
  have hndv : ValidIdx s.degrees nd := by rw [h2]; exact doneDegrees_valid hl' _
  have hpos := h.dim_pos
  simp only [bind_ok]
  obtain ⟨D, d1, d2, d3, d4⟩ := ofDegrees_ok (V := V) (ps := nd) (by rw [hndv.length]; exact hpos)
  rw [ofDegrees64_eq (by rw [hndv.length]; exact hpos) (lt_of_le_of_lt (size_le_of_valid hndv) hsz), d1]
  simp only [bind_ok]
  have hcp : loop D.ncp (fun i cps => do
      let g ← D.localToGlobal i
      let k ← s.globalToLocal g
      let x ← rd pts k
      wr cps i x) D.cps = .ok (tab (size nd) (fun i => G (flatIndex s.degrees (unflat nd i)))) := by
    rw [d2.ncp_eq, d3, d4]
    obtain ⟨mem, e1, H, rfl, e2⟩ := loop_inv (n := size nd) (s := tab (size nd) (fun _ => (0 : V)))
      (f := fun i cps => do
        let g ← D.localToGlobal i
        let k ← s.globalToLocal g
        let x ← rd pts k
        wr cps i x)
      (P := fun k mem => ∃ H, mem = tab (size nd) H ∧ ∀ i, i < k → H i = G (flatIndex s.degrees (unflat nd i)))
      ⟨_, rfl, fun i hi => by omega⟩
      (by
        rintro k hk _ ⟨H, rfl, hH⟩
        rw [localToGlobal_ok d2, d3]
        simp only [bind_ok]
        rw [globalToLocal_ok h (by rw [unflat_length, hndv.length]; rfl), h3]
        simp only [bind_ok]
        rw [rd_tab _ (flatIndex_lt (validIdx_mono hndv (unflat_valid nd k)))]
        simp only [bind_ok]
        refine ⟨_, wr_tab _ _ hk, _, rfl, ?_⟩
        intro i hi
        by_cases hik : i = k
        · subst hik; rw [Function.update_self]
        · rw [Function.update_of_ne hik]; exact hH i (by omega))
    rw [e1]
    congr 1
    exact tab_congr e2
  rw [hcp]
  refine ⟨_, rfl, ⟨?_, ?_, ?_, ?_⟩, ?_, ?_⟩
  · exact d2.dim_pos
  · exact d2.ncp_eq
  · exact d2.offsets_eq
  · simp [d3]
  · rw [← hnd]; exact d3
  · intro t ht
    rw [← h4 t ht]
    have ht' : t.length = nd.length := by rw [hndv.length]; exact ht
    have e0 : restOrders orders s.dim = List.replicate nd.length 0 := by
      unfold restOrders
      rw [List.drop_of_length_le (by omega), ← hl, min_self, List.append_nil, hndv.length, hl']
    have e1 : dFns nd (restOrders orders s.dim) t = bernFns nd t := by
      rw [e0]
      have : ∀ (ps : List ℕ) (ts : List K), ts.length = ps.length →
          dFns ps (List.replicate ps.length 0) ts = bernFns ps ts := by
        intro ps
        induction ps with
        | nil => intro ts _; simp [dFns, bernFns]
        | cons p ps ih =>
          intro ts hts
          cases ts with
          | nil => simp at hts
          | cons x ts =>
            simp only [List.length_cons, List.replicate_succ, dFns, bernFns_cons, dB_zero]
            rw [ih ts (by simpa using hts)]
      exact this nd t ht'
    rw [e1, mt_bezier]
    unfold value
    simp only [d3]
    apply bezier_congr
    intro mi hmi
    rw [List.getD_eq_getElem?_getD, tab_getElem? _ (flatIndex_lt hmi), unflat_flatIndex hmi]
    rfl

end pass
end Spline
end Bezman
