import Verif.Proofs.DerivSpline

/-! # Derivative splines in any arithmetic

What the control points of a derivative spline are computed from, without any law of the arithmetic. -/

namespace Bezman
open Spec

namespace Spline
variable {K V : Type} [One K] [Neg K] [Mul K] [NatCast K] [Zero V] [Add V] [SMul K V]

variable (K) in
/-- the sum of the loop over `j`, after `k` rounds -/
def diffs (o : ℕ) (y : ℕ → V) : ℕ → V
  | 0 => y 0
  | k + 1 => diffs o y k + (((if (k + 1) % 2 = 0 then 1 else -1) * ((o.choose (k + 1) : ℕ) : K) : K)) • y (k + 1)

omit [Zero V] in
theorem diffs_congr {o k : ℕ} {y z : ℕ → V} (h : ∀ j, j ≤ k → y j = z j) : diffs K o y k = diffs K o z k := by
  induction k with
  | zero => exact h 0 le_rfl
  | succ k ih => rw [diffs, diffs, ih fun j hj => h j (by omega), h (k + 1) le_rfl]

variable {s : Spline V}

/-- the loop over `j` for one point -/
theorem deriv_point_any {cfg : Cfg} (hc : cfg.Ok) (h : s.WF) {d o m : ℕ} {mi : List ℕ} {N : ℕ} {F : ℕ → V}
    (ho : o < cfg.maxBinom)
    (hl : mi.length = s.dim) (hm : mi[d]? = some m)
    (hN : ∀ j, j ≤ o → flatIndex s.degrees mi + j * size (s.degrees.take d) < N) :
    ∃ mi', loopFrom 1 (o + 1) (fun j (q : List Nat × List V) => do
          let m ← rd q.1 d
          let multi_index ← wr q.1 d (m + 1)
          let c ← choose cfg o j
          let local_coefficient : K := (if j % 2 = 0 then 1 else -1) * ((c : Nat) : K)
          let x ← rd q.2 (flatIndex s.degrees mi)
          let k ← s.globalToLocal multi_index
          let y ← rd q.2 k
          let pts ← wr q.2 (flatIndex s.degrees mi) (x + local_coefficient • y)
          pure (multi_index, pts)) (mi, tab N F)
      = .ok (mi', tab N (Function.update F (flatIndex s.degrees mi)
          (diffs K o (fun j => F (flatIndex s.degrees mi + j * size (s.degrees.take d))) o))) := by
  have hd : d < mi.length := (List.getElem?_eq_some_iff.mp hm).1
  obtain ⟨⟨mi', mem⟩, h1, h2, h3⟩ := loopFrom_inv (a := 1) (b := o + 1) (s := (mi, tab N F))
    (f := fun j (q : List Nat × List V) => do
          let m ← rd q.1 d
          let multi_index ← wr q.1 d (m + 1)
          let c ← choose cfg o j
          let local_coefficient : K := (if j % 2 = 0 then 1 else -1) * ((c : Nat) : K)
          let x ← rd q.2 (flatIndex s.degrees mi)
          let k ← s.globalToLocal multi_index
          let y ← rd q.2 k
          let pts ← wr q.2 (flatIndex s.degrees mi) (x + local_coefficient • y)
          pure (multi_index, pts))
    (P := fun j q => q.1 = mi.set d (m + (j - 1)) ∧
      q.2 = tab N (Function.update F (flatIndex s.degrees mi)
          (diffs K o (fun j => F (flatIndex s.degrees mi + j * size (s.degrees.take d))) (j - 1))))
    (by omega)
    ⟨by
      simp only [Nat.sub_self, Nat.add_zero]
      rw [set_split hm, ← list_split hm], by simp [diffs]⟩
    (by
      rintro j hj1 hj2 ⟨q1, q2⟩ ⟨rfl, rfl⟩
      simp only
      rw [rd_ok (x := m + (j - 1)) (by rw [List.getElem?_set_self hd])]
      simp only [bind_ok]
      rw [wr_ok _ (by simpa using hd), List.set_set]
      simp only [bind_ok]
      rw [choose_ok hc ho (by omega)]
      simp only [bind_ok]
      have hpos := hN 0 (by omega)
      simp only [zero_mul, add_zero] at hpos
      rw [rd_tab _ hpos]
      simp only [bind_ok, Function.update_self]
      rw [globalToLocal_ok h (by simpa using hl)]
      simp only [bind_ok]
      rw [show m + (j - 1) + 1 = m + j by omega, flatIndex_set hl hm, rd_tab _ (hN j (by omega))]
      simp only [bind_ok]
      rw [wr_tab _ _ hpos]
      refine ⟨_, rfl, by simp, ?_⟩
      simp only [Function.update_idem]
      have hne : flatIndex s.degrees mi + j * size (s.degrees.take d) ≠ flatIndex s.degrees mi := by
        have := Nat.mul_pos (show 0 < j by omega) (size_pos (s.degrees.take d)); omega
      rw [Function.update_of_ne hne]
      obtain ⟨j, rfl⟩ : ∃ i, j = i + 1 := ⟨j - 1, by omega⟩
      rfl)
  simp only at h2 h3
  exact ⟨mi', by rw [h1, h3, Nat.add_sub_cancel]⟩

/-- one pass over all points in direction `d` -/
theorem deriv_pass_any {cfg : Cfg} (hc : cfg.Ok) (h : s.WF) {d o p : ℕ} {nd : List ℕ} {F : ℕ → V} {c : K}
    (ho : o < cfg.maxBinom) (hop : o ≤ p) (ho0 : 0 < o) (hp : s.degrees[d]? = some p) (hnd : ValidIdx s.degrees nd)
    (hndd : nd[d]? = some (p - o)) (hsz : size s.degrees < 2 ^ 64) :
    ∃ G, loop (count64 nd) (fun i_point pts => do
        let multi_index ← globalIdWith nd i_point
        let i_point_index ← s.globalToLocal multi_index
        let q ← loopFrom 1 (o + 1) (fun j (q : List Nat × List V) => do
          let m ← rd q.1 d
          let multi_index ← wr q.1 d (m + 1)
          let c ← choose cfg o j
          let local_coefficient : K := (if j % 2 = 0 then 1 else -1) * ((c : Nat) : K)
          let x ← rd q.2 i_point_index
          let k ← s.globalToLocal multi_index
          let y ← rd q.2 k
          let pts ← wr q.2 i_point_index (x + local_coefficient • y)
          pure (multi_index, pts)) (multi_index, pts)
        let x ← rd q.2 i_point_index
        wr q.2 i_point_index (((if o % 2 = 0 then 1 else -1) * c : K) • x)) (tab (size s.degrees) F)
      = .ok (tab (size s.degrees) G) ∧
      ∀ mi, ValidIdx nd mi → G (flatIndex s.degrees mi) =
        ((if o % 2 = 0 then 1 else -1) * c : K) • diffs K o (fun j => F (flatIndex s.degrees mi + j * size (s.degrees.take d))) o := by
  have hszn : size nd < 2 ^ 64 := lt_of_le_of_lt (size_le_of_valid hnd) hsz
  have hpos : 0 < nd.length := by rw [hnd.length]; exact h.dim_pos
  set new : List ℕ → V := fun mi => ((if o % 2 = 0 then 1 else -1) * c : K) • diffs K o (fun j => F (flatIndex s.degrees mi + j * size (s.degrees.take d))) o with hnew
  -- raising entry `d` of a valid index by `j ≤ o` stays inside the original net
  have hraise : ∀ mi m j, ValidIdx nd mi → mi[d]? = some m → j ≤ o → ValidIdx s.degrees (mi.set d (m + j)) := by
    intro mi m j hmi hm hj
    have hv := validIdx_mono hnd hmi
    rw [validIdx_iff] at hv hmi ⊢
    refine ⟨by simpa using hv.1, ?_⟩
    intro e i q hi hq
    by_cases hed : e = d
    · subst hed
      rw [List.getElem?_set_self (List.getElem?_eq_some_iff.mp hm).1] at hi
      rw [hp] at hq
      simp only [Option.some.injEq] at hi hq
      have := hmi.2 e m (p - o) hm hndd
      omega
    · rw [List.getElem?_set_ne (Ne.symm hed)] at hi
      exact hv.2 e i q hi hq
  rw [count64_ok hszn]
  obtain ⟨mem, h1, G, rfl, h2, h3⟩ := loop_inv (n := size nd) (s := tab (size s.degrees) F)
    (f := fun i_point pts => do
        let multi_index ← globalIdWith nd i_point
        let i_point_index ← s.globalToLocal multi_index
        let q ← loopFrom 1 (o + 1) (fun j (q : List Nat × List V) => do
          let m ← rd q.1 d
          let multi_index ← wr q.1 d (m + 1)
          let c ← choose cfg o j
          let local_coefficient : K := (if j % 2 = 0 then 1 else -1) * ((c : Nat) : K)
          let x ← rd q.2 i_point_index
          let k ← s.globalToLocal multi_index
          let y ← rd q.2 k
          let pts ← wr q.2 i_point_index (x + local_coefficient • y)
          pure (multi_index, pts)) (multi_index, pts)
        let x ← rd q.2 i_point_index
        wr q.2 i_point_index (((if o % 2 = 0 then 1 else -1) * c : K) • x))
    (P := fun k mem => ∃ G, mem = tab (size s.degrees) G ∧
      (∀ mi, ValidIdx nd mi → G (flatIndex s.degrees mi) =
        if flatIndex nd mi < k then new mi else F (flatIndex s.degrees mi)) ∧
      (∀ x, (∀ mi, ValidIdx nd mi → x ≠ flatIndex s.degrees mi) → G x = F x))
    ⟨F, rfl, fun mi _ => by simp, fun x _ => rfl⟩
    (by
      rintro k hk _ ⟨G, rfl, g1, g2⟩
      rw [globalIdWith_ok hpos hszn]
      simp only [bind_ok]
      set mi := unflat nd k with hmi
      have hmv : ValidIdx nd mi := unflat_valid nd k
      have hmk : flatIndex nd mi = k := flatIndex_unflat hk
      have hml : mi.length = s.dim := by rw [hmv.length, hnd.length]; rfl
      have hdlt : d < mi.length := by rw [hml]; exact (List.getElem?_eq_some_iff.mp hp).1
      have hm : mi[d]? = some mi[d] := List.getElem?_eq_getElem hdlt
      rw [globalToLocal_ok h hml]
      simp only [bind_ok]
      have hpl : ∀ j, j ≤ o → flatIndex s.degrees mi + j * size (s.degrees.take d) < size s.degrees := by
        intro j hj
        rw [← flatIndex_set hml hm]
        exact flatIndex_lt (hraise mi _ j hmv hm hj)
      obtain ⟨mi', e1⟩ := deriv_point_any (K := K) (F := G) hc h ho hml hm hpl
      rw [e1]
      simp only [bind_ok]
      have hp0 := hpl 0 (by omega)
      simp only [zero_mul, add_zero] at hp0
      rw [rd_tab _ hp0]
      simp only [bind_ok, Function.update_self]
      rw [wr_tab _ _ hp0]
      refine ⟨_, rfl, _, rfl, ?_, ?_⟩
      · intro mj hmj
        rw [Function.update_idem]
        by_cases hj : mj = mi
        · subst hj
          rw [Function.update_self, if_pos (show flatIndex nd mi < k + 1 by omega)]
          simp only [hnew]
          congr 1
          refine diffs_congr (K := K) fun j hj => ?_
          -- reads are not yet overwritten
          by_cases hv : ValidIdx nd (mi.set d (mi[d] + j))
          · rw [← flatIndex_set hml hm, g1 _ hv, if_neg]
            rw [flatIndex_set hmv.length hm]
            omega
          · apply g2
            intro mj' hmj' he
            rw [← flatIndex_set hml hm] at he
            have := flatIndex_inj (hraise mi _ j hmv hm (by omega)) (validIdx_mono hnd hmj') he
            exact hv (this ▸ hmj')
        · have hne : flatIndex s.degrees mj ≠ flatIndex s.degrees mi := fun he =>
            hj (flatIndex_inj (validIdx_mono hnd hmj) (validIdx_mono hnd hmv) he)
          rw [Function.update_of_ne hne, g1 mj hmj]
          have hne' : flatIndex nd mj ≠ k := fun he => hj (flatIndex_inj hmj hmv (by rw [he, hmk]))
          by_cases hlt : flatIndex nd mj < k
          · rw [if_pos hlt, if_pos (by omega)]
          · rw [if_neg hlt, if_neg (by omega)]
      · intro x hx
        rw [Function.update_of_ne (hx mi hmv), Function.update_of_ne (hx mi hmv)]
        exact g2 x hx)
  refine ⟨G, h1, ?_⟩
  intro mi hmi
  rw [h2 mi hmi, if_pos (flatIndex_lt hmi)]

variable (K) in
/-- the factor `p (p - 1) ⋯ (p - o + 1)` as the code computes it, after `i` rounds -/
def fallFactor (p : ℕ) : ℕ → K
  | 0 => (p : K)
  | i + 1 => fallFactor p i * ((p - (i + 1) : ℕ) : K)

omit [One K] [Neg K] [Zero V] [Add V] [SMul K V] in
theorem factor_any {p o : ℕ} (ho : 0 < o) (hop : o ≤ p) (hp : p < 2 ^ 64) :
    loopFrom 1 o (fun i (f : K) => pure (f * ((sub64 p i : Nat) : K))) ((p : Nat) : K) = .ok (fallFactor K p (o - 1)) := by
  obtain ⟨f, h1, h2⟩ := loopFrom_inv (a := 1) (b := o) (s := ((p : Nat) : K))
    (f := fun i (f : K) => pure (f * ((sub64 p i : Nat) : K)))
    (P := fun k f => f = fallFactor K p (k - 1)) (by omega) rfl
    (by
      rintro k hk1 hk2 f rfl
      refine ⟨_, rfl, ?_⟩
      obtain ⟨k, rfl⟩ : ∃ i, k = i + 1 := ⟨k - 1, by omega⟩
      rw [sub64_ok (by omega) hp]
      rfl)
  rw [h1, h2]

/-- derivative splines: `P d` holds of the control points after the directions below `d` -/
theorem derivativeSpline_graded {cfg : Cfg} (hc : cfg.Ok) (h : s.WF) {orders : List ℕ} (hl : orders.length = s.dim)
    (hle : ∀ (d o p : ℕ), orders[d]? = some o → s.degrees[d]? = some p → o ≤ p)
    (hmax : ∀ o ∈ orders, o < cfg.maxBinom) (hsz : size s.degrees < 2 ^ 64) {P : ℕ → V → Prop}
    (hskip : ∀ d, orders[d]? = some 0 → ∀ a, P d a → P (d + 1) a)
    (hstep : ∀ d o p : ℕ, orders[d]? = some o → s.degrees[d]? = some p → 0 < o → o ≤ p → ∀ y : ℕ → V, (∀ j, j ≤ o → P d (y j)) →
      P (d + 1) (((if o % 2 = 0 then 1 else -1) * fallFactor K p (o - 1) : K) • diffs K o y o))
    (hP : ∀ x ∈ s.cps, P 0 x) {r : Spline V} (hr : derivativeSpline K cfg s orders = .ok r) : ∀ x ∈ r.cps, P s.dim x := by
  have hl' : orders.length = s.degrees.length := hl
  unfold derivativeSpline at hr
  obtain ⟨⟨nd, pts⟩, h1, hr⟩ := bind_eq_ok.mp hr
  obtain ⟨h2, G, h3, h4⟩ := loop_ok
    (P := fun d (r : List ℕ × List V) => r.1 = doneDegrees s.degrees orders d ∧ ∃ G, r.2 = tab (size s.degrees) G ∧
      ∀ mi, ValidIdx r.1 mi → P d (G (flatIndex s.degrees mi))) h1
    ⟨by simp [doneDegrees], fun i => s.cps.getD i 0, by rw [← h.4]; exact eq_tab s.cps 0, fun mi hmi => by
      have := flatIndex_lt hmi
      have hlt : flatIndex s.degrees mi < s.cps.length := by rw [h.4]; exact this
      simp only [List.getD_eq_getElem?_getD, List.getElem?_eq_getElem hlt, Option.getD_some]
      exact hP _ (List.getElem_mem _)⟩
    (by
      rintro d hd ⟨nd, pts⟩ r' ⟨hn, F, hF, hG⟩ hb
      simp only at hn hF hG
      subst hn hF
      have hp : s.degrees[d]? = some s.degrees[d] := List.getElem?_eq_getElem hd
      have ho : orders[d]? = some orders[d] := List.getElem?_eq_getElem (by omega)
      generalize hpd : s.degrees[d] = p at hp
      generalize hod : orders[d] = o at ho
      have hop : o ≤ p := hle d o p ho hp
      have hndd : (doneDegrees s.degrees orders d)[d]? = some p := by
        rw [doneDegrees_getElem? hl' hp ho, if_neg (by omega)]
      have hndl := doneDegrees_length hl' d
      rw [rd_ok ho] at hb
      simp only [bind_ok] at hb
      by_cases ho0 : o = 0
      · rw [if_pos ho0] at hb
        cases hb
        refine ⟨?_, F, rfl, fun mi hmi => hskip d (ho0 ▸ ho) _ (hG mi hmi)⟩
        rw [doneDegrees_succ hl' hp ho, ho0, Nat.sub_zero, set_split hndd, ← list_split hndd]
      · rw [if_neg ho0, rd_ok hndd] at hb
        have hp64 : p < 2 ^ 64 :=
          lt_of_lt_of_le (Nat.lt_succ_self p) ((lt_size_of_mem (List.mem_of_getElem? hp)).trans hsz.le)
        simp only [bind_ok] at hb
        rw [sub64_ok hop hp64, wr_ok _ (by rw [hndl]; exact hd)] at hb
        simp only [bind_ok] at hb
        rw [rd_ok hp] at hb
        simp only [bind_ok] at hb
        rw [factor_any (by omega) hop hp64] at hb
        simp only [bind_ok] at hb
        rw [← doneDegrees_succ hl' hp ho] at hb
        obtain ⟨G, e1, e2⟩ := deriv_pass_any (K := K) (F := F) (c := fallFactor K p (o - 1)) hc h
          (hmax o (List.mem_of_getElem? ho)) hop (by omega) hp (doneDegrees_valid hl' (d + 1))
          (by rw [doneDegrees_getElem? hl' hp ho, if_pos (by omega)]) hsz
        rw [e1] at hb
        cases hb
        refine ⟨rfl, G, rfl, fun mi hmi => ?_⟩
        rw [e2 mi hmi]
        refine hstep d o p ho hp (by omega) hop _ fun j hj => ?_
        have hml : mi.length = s.dim := by rw [hmi.length, doneDegrees_length hl']; rfl
        have hm : mi[d]? = some mi[d] := List.getElem?_eq_getElem (by omega)
        rw [← flatIndex_set hml hm]
        apply hG
        have hmi' := hmi
        rw [validIdx_iff] at hmi ⊢
        refine ⟨by rw [List.length_set, hmi.1, doneDegrees_length hl', hndl], ?_⟩
        intro e i q hi hq
        by_cases hed : e = d
        · subst hed
          rw [List.getElem?_set_self (by omega)] at hi
          have := hmi.2 e _ (p - o) hm (by rw [doneDegrees_getElem? hl' hp ho, if_pos (by omega)])
          rw [hndd] at hq
          simp only [Option.some.injEq] at hi hq
          omega
        · rw [List.getElem?_set_ne (Ne.symm hed)] at hi
          refine hmi.2 e i q hi ?_
          rw [doneDegrees_succ hl' hp ho, List.getElem?_set_ne (Ne.symm hed)]
          exact hq)
  simp only at h2 h3 h4 hr
  have hndv : ValidIdx s.degrees nd := by rw [h2]; exact doneDegrees_valid hl' _
  have hpos := h.dim_pos
  obtain ⟨D, d1, d2, d3, d4⟩ := ofDegrees_ok (V := V) (ps := nd) (by rw [hndv.length]; exact hpos)
  rw [ofDegrees64_eq (by rw [hndv.length]; exact hpos) (lt_of_le_of_lt (size_le_of_valid hndv) hsz), d1] at hr
  simp only [bind_ok] at hr
  obtain ⟨cps, e1, hr⟩ := bind_eq_ok.mp hr
  cases hr
  rw [d2.ncp_eq, d3, d4] at e1
  obtain ⟨H, rfl, e2⟩ := loop_ok (P := fun k mem => ∃ H, mem = tab (size nd) H ∧ ∀ i, i < k → H i = G (flatIndex s.degrees (unflat nd i))) e1
    ⟨_, rfl, fun i hi => by omega⟩
    (by
      rintro k hk _ c' ⟨H, rfl, hH⟩ hb
      rw [localToGlobal_ok d2, d3] at hb
      simp only [bind_ok] at hb
      rw [globalToLocal_ok h (by rw [unflat_length, hndv.length]; rfl), h3] at hb
      simp only [bind_ok] at hb
      rw [rd_tab _ (flatIndex_lt (validIdx_mono hndv (unflat_valid nd k)))] at hb
      simp only [bind_ok] at hb
      rw [wr_tab _ _ hk] at hb
      cases hb
      refine ⟨_, rfl, ?_⟩
      intro i hi
      by_cases hik : i = k
      · subst hik; rw [Function.update_self]
      · rw [Function.update_of_ne hik]; exact hH i (by omega))
  intro x hx
  simp only [tab, List.mem_map, List.mem_range] at hx
  obtain ⟨i, hi, rfl⟩ := hx
  rw [e2 i hi]
  exact h4 _ (unflat_valid nd i)

end Spline
end Bezman
