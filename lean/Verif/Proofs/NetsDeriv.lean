import Verif.Proofs.Nets
import Verif.Proofs.DerivSpline
import Verif.Spec.DerivFormula

set_option linter.unusedSectionVars false

/-! # Control points of derivatives, in any arithmetic -/

namespace Bezman
open Spec
namespace Spline
variable {K V : Type} [One K] [Neg K] [Mul K] [NatCast K] [Zero V] [Add V] [SMul K V] {s : Spline V}

theorem falling_net {p o : ℕ} (ho : 0 < o) (hop : o ≤ p) (hp : p < 2 ^ 64) :
    loopFrom 1 o (fun i (f : K) => pure (f * ((sub64 p i : Nat) : K))) ((p : Nat) : K) = .ok (fallingOf K p o) := by
  obtain ⟨f, h1, h2⟩ := loopFrom_inv (a := 1) (b := o) (s := ((p : Nat) : K))
    (f := fun i (f : K) => pure (f * ((sub64 p i : Nat) : K)))
    (P := fun k f => f = fallingOf K p k) (by omega) (by simp [fallingOf, repeatFrom])
    (by
      rintro k hk1 hk2 f rfl
      refine ⟨_, rfl, ?_⟩
      rw [sub64_ok (by omega) hp, fallingOf, fallingOf]
      obtain ⟨j, rfl⟩ : ∃ j, k = j + 1 := ⟨k - 1, by omega⟩
      rw [show j + 1 + 1 - 1 = (j + 1 - 1) + 1 by omega, repeatFrom, show 1 + (j + 1 - 1) = j + 1 by omega])
  rw [h1, h2]

/-- the loop over `j` for one point -/
theorem diff_point {cfg : Cfg} (hc : cfg.Ok) (h : s.WF) {d o m : ℕ} {mi : List ℕ} {N : ℕ} {F : ℕ → V}
    (ho : o < cfg.maxBinom)
    (hl : mi.length = s.dim) (hm : mi[d]? = some m)
    (hN : ∀ j, j ≤ o → flatIndex s.degrees mi + j * size (s.degrees.take d) < N) :
    ∃ mi', loopFrom 1 (o + 1) (fun j (q : List Nat × List V) => do
          let m ← rd q.1 d
          let multi_index ← wr q.1 d (m + 1)
          let c ← choose cfg o j
          let local_coefficient : K := (if j % 2 = 0 then 1 else -1) * ((c : Nat) : K)
          let x ← rd q.2 (flatIndex s.degrees mi)
          let k ← s.globalToLocal multi_index
          let y ← rd q.2 k
          let pts ← wr q.2 (flatIndex s.degrees mi) (x + local_coefficient • y)
          pure (multi_index, pts)) (mi, tab N F)
      = .ok (mi', tab N (Function.update F (flatIndex s.degrees mi)
          (differenceOf K o (fun j => F (flatIndex s.degrees mi + j * size (s.degrees.take d))) 0))) := by
  have hd : d < mi.length := (List.getElem?_eq_some_iff.mp hm).1
  set D : ℕ → V := fun n => repeatFrom 1 (fun j (x : V) => x + (signOf K j * ((o.choose j : ℕ) : K)) •
    F (flatIndex s.degrees mi + (0 + j) * size (s.degrees.take d))) (F (flatIndex s.degrees mi + 0 * size (s.degrees.take d))) n with hD
  obtain ⟨⟨mi', mem⟩, h1, h2, h3⟩ := loopFrom_inv (a := 1) (b := o + 1) (s := (mi, tab N F))
    (f := fun j (q : List Nat × List V) => do
          let m ← rd q.1 d
          let multi_index ← wr q.1 d (m + 1)
          let c ← choose cfg o j
          let local_coefficient : K := (if j % 2 = 0 then 1 else -1) * ((c : Nat) : K)
          let x ← rd q.2 (flatIndex s.degrees mi)
          let k ← s.globalToLocal multi_index
          let y ← rd q.2 k
          let pts ← wr q.2 (flatIndex s.degrees mi) (x + local_coefficient • y)
          pure (multi_index, pts))
    (P := fun j q => q.1 = mi.set d (m + (j - 1)) ∧
      q.2 = tab N (Function.update F (flatIndex s.degrees mi) (D (j - 1))))
    (by omega)
    ⟨by
      simp only [Nat.sub_self, Nat.add_zero]
      rw [set_split hm, ← list_split hm], by simp [hD, repeatFrom]⟩
    (by
      rintro j hj1 hj2 ⟨q1, q2⟩ ⟨rfl, rfl⟩
      simp only
      rw [rd_ok (x := m + (j - 1)) (by rw [List.getElem?_set_self hd])]
      simp only [bind_ok]
      rw [wr_ok _ (by simpa using hd), List.set_set]
      simp only [bind_ok]
      rw [choose_ok hc ho (by omega)]
      simp only [bind_ok]
      have hpos := hN 0 (by omega)
      simp only [zero_mul, add_zero] at hpos
      rw [rd_tab _ hpos]
      simp only [bind_ok, Function.update_self]
      rw [globalToLocal_ok h (by simpa using hl)]
      simp only [bind_ok]
      rw [show m + (j - 1) + 1 = m + j by omega, flatIndex_set hl hm, rd_tab _ (hN j (by omega))]
      simp only [bind_ok]
      rw [wr_tab _ _ hpos]
      refine ⟨_, rfl, by simp, ?_⟩
      simp only [Function.update_idem]
      have hne : flatIndex s.degrees mi + j * size (s.degrees.take d) ≠ flatIndex s.degrees mi := by
        have := Nat.mul_pos (show 0 < j by omega) (size_pos (s.degrees.take d)); omega
      rw [Function.update_of_ne hne]
      congr 2
      obtain ⟨i, rfl⟩ : ∃ i, j = i + 1 := ⟨j - 1, by omega⟩
      simp only [hD, Nat.add_sub_cancel]
      rw [repeatFrom, show 0 + (1 + i) = i + 1 by omega, show 1 + i = i + 1 by omega]
      rfl)
  simp only at h2 h3
  exact ⟨mi', by rw [h1, h3]; rfl⟩

/-- one pass over all points in direction `d` -/
theorem diff_pass {cfg : Cfg} (hc : cfg.Ok) (h : s.WF) {d o p : ℕ} {nd : List ℕ} {F : ℕ → V} {c : K}
    (ho : o < cfg.maxBinom) (hop : o ≤ p) (ho0 : 0 < o) (hp : s.degrees[d]? = some p) (hnd : ValidIdx s.degrees nd)
    (hndd : nd[d]? = some (p - o)) (hsz : size s.degrees < 2 ^ 64) :
    ∃ G, loop (count64 nd) (fun i_point pts => do
        let multi_index ← globalIdWith nd i_point
        let i_point_index ← s.globalToLocal multi_index
        let q ← loopFrom 1 (o + 1) (fun j (q : List Nat × List V) => do
          let m ← rd q.1 d
          let multi_index ← wr q.1 d (m + 1)
          let c ← choose cfg o j
          let local_coefficient : K := (if j % 2 = 0 then 1 else -1) * ((c : Nat) : K)
          let x ← rd q.2 i_point_index
          let k ← s.globalToLocal multi_index
          let y ← rd q.2 k
          let pts ← wr q.2 i_point_index (x + local_coefficient • y)
          pure (multi_index, pts)) (multi_index, pts)
        let x ← rd q.2 i_point_index
        wr q.2 i_point_index (((if o % 2 = 0 then 1 else -1) * c : K) • x)) (tab (size s.degrees) F)
      = .ok (tab (size s.degrees) G) ∧
      ∀ mi, ValidIdx nd mi → G (flatIndex s.degrees mi) =
        (signOf K o * c) • differenceOf K o (fun j => F (flatIndex s.degrees mi + j * size (s.degrees.take d))) 0 := by
  have hszn : size nd < 2 ^ 64 := lt_of_le_of_lt (size_le_of_valid hnd) hsz
  have hpos : 0 < nd.length := by rw [hnd.length]; exact h.dim_pos
  set new : List ℕ → V := fun mi =>
    (signOf K o * c) • differenceOf K o (fun j => F (flatIndex s.degrees mi + j * size (s.degrees.take d))) 0 with hnew
  have hdcongr : ∀ P Q : ℕ → V, (∀ j, j ≤ o → P j = Q j) → differenceOf K o P 0 = differenceOf K o Q 0 := by
    intro P Q hPQ
    unfold differenceOf
    rw [hPQ 0 (by omega)]
    have : ∀ n, n ≤ o → repeatFrom 1 (fun j (x : V) => x + (signOf K j * ((o.choose j : ℕ) : K)) • P (0 + j)) (Q 0) n =
        repeatFrom 1 (fun j (x : V) => x + (signOf K j * ((o.choose j : ℕ) : K)) • Q (0 + j)) (Q 0) n := by
      intro n
      induction n with
      | zero => intro _; rfl
      | succ n ih => intro hn; rw [repeatFrom, repeatFrom, ih (by omega), hPQ (0 + (1 + n)) (by omega)]
    exact this o (le_refl _)
  -- raising entry `d` of a valid index by `j ≤ o` stays inside the original net
  have hraise : ∀ mi m j, ValidIdx nd mi → mi[d]? = some m → j ≤ o → ValidIdx s.degrees (mi.set d (m + j)) := by
    intro mi m j hmi hm hj
    have hv := validIdx_mono hnd hmi
    rw [validIdx_iff] at hv hmi ⊢
    refine ⟨by simpa using hv.1, ?_⟩
    intro e i q hi hq
    by_cases hed : e = d
    · subst hed
      rw [List.getElem?_set_self (List.getElem?_eq_some_iff.mp hm).1] at hi
      rw [hp] at hq
      simp only [Option.some.injEq] at hi hq
      have := hmi.2 e m (p - o) hm hndd
      omega
    · rw [List.getElem?_set_ne (Ne.symm hed)] at hi
      exact hv.2 e i q hi hq
  rw [count64_ok hszn]
  obtain ⟨mem, h1, G, rfl, h2, h3⟩ := loop_inv (n := size nd) (s := tab (size s.degrees) F)
    (f := fun i_point pts => do
        let multi_index ← globalIdWith nd i_point
        let i_point_index ← s.globalToLocal multi_index
        let q ← loopFrom 1 (o + 1) (fun j (q : List Nat × List V) => do
          let m ← rd q.1 d
          let multi_index ← wr q.1 d (m + 1)
          let c ← choose cfg o j
          let local_coefficient : K := (if j % 2 = 0 then 1 else -1) * ((c : Nat) : K)
          let x ← rd q.2 i_point_index
          let k ← s.globalToLocal multi_index
          let y ← rd q.2 k
          let pts ← wr q.2 i_point_index (x + local_coefficient • y)
          pure (multi_index, pts)) (multi_index, pts)
        let x ← rd q.2 i_point_index
        wr q.2 i_point_index (((if o % 2 = 0 then 1 else -1) * c : K) • x))
    (P := fun k mem => ∃ G, mem = tab (size s.degrees) G ∧
      (∀ mi, ValidIdx nd mi → G (flatIndex s.degrees mi) =
        if flatIndex nd mi < k then new mi else F (flatIndex s.degrees mi)) ∧
      (∀ x, (∀ mi, ValidIdx nd mi → x ≠ flatIndex s.degrees mi) → G x = F x))
    ⟨F, rfl, fun mi _ => by simp, fun x _ => rfl⟩
    (by
      rintro k hk _ ⟨G, rfl, g1, g2⟩
      rw [globalIdWith_ok hpos hszn]
      simp only [bind_ok]
      set mi := unflat nd k with hmi
      have hmv : ValidIdx nd mi := unflat_valid nd k
      have hmk : flatIndex nd mi = k := flatIndex_unflat hk
      have hml : mi.length = s.dim := by rw [hmv.length, hnd.length]; rfl
      have hdlt : d < mi.length := by rw [hml]; exact (List.getElem?_eq_some_iff.mp hp).1
      have hm : mi[d]? = some mi[d] := List.getElem?_eq_getElem hdlt
      rw [globalToLocal_ok h hml]
      simp only [bind_ok]
      have hpl : ∀ j, j ≤ o → flatIndex s.degrees mi + j * size (s.degrees.take d) < size s.degrees := by
        intro j hj
        rw [← flatIndex_set hml hm]
        exact flatIndex_lt (hraise mi _ j hmv hm hj)
      obtain ⟨mi', e1⟩ := diff_point (K := K) (F := G) hc h ho hml hm hpl
      rw [e1]
      simp only [bind_ok]
      have hp0 := hpl 0 (by omega)
      simp only [zero_mul, add_zero] at hp0
      rw [rd_tab _ hp0]
      simp only [bind_ok, Function.update_self]
      rw [wr_tab _ _ hp0]
      refine ⟨_, rfl, _, rfl, ?_, ?_⟩
      · intro mj hmj
        rw [Function.update_idem]
        by_cases hj : mj = mi
        · subst hj
          rw [Function.update_self, if_pos (show flatIndex nd mi < k + 1 by omega)]
          simp only [hnew]
          show (signOf K o * c) • _ = _
          congr 1
          apply hdcongr
          intro j hj
          -- reads are not yet overwritten
          by_cases hv : ValidIdx nd (mi.set d (mi[d] + j))
          · rw [← flatIndex_set hml hm, g1 _ hv, if_neg]
            rw [flatIndex_set hmv.length hm]
            omega
          · apply g2
            intro mj' hmj' he
            rw [← flatIndex_set hml hm] at he
            have := flatIndex_inj (hraise mi _ j hmv hm (by omega)) (validIdx_mono hnd hmj') he
            exact hv (this ▸ hmj')
        · have hne : flatIndex s.degrees mj ≠ flatIndex s.degrees mi := fun he =>
            hj (flatIndex_inj (validIdx_mono hnd hmj) (validIdx_mono hnd hmv) he)
          rw [Function.update_of_ne hne, g1 mj hmj]
          have hne' : flatIndex nd mj ≠ k := fun he => hj (flatIndex_inj hmj hmv (by rw [he, hmk]))
          by_cases hlt : flatIndex nd mj < k
          · rw [if_pos hlt, if_pos (by omega)]
          · rw [if_neg hlt, if_neg (by omega)]
      · intro x hx
        rw [Function.update_of_ne (hx mi hmv), Function.update_of_ne (hx mi hmv)]
        exact g2 x hx)
  refine ⟨G, h1, ?_⟩
  intro mi hmi
  rw [h2 mi hmi, if_pos (flatIndex_lt hmi)]

/-- the memory after `k` directions -/
def DiffInv (K : Type) [One K] [Neg K] [Mul K] [NatCast K] [SMul K V] (s : Spline V) (orders : List ℕ) (k : ℕ) (r : List ℕ × List V) : Prop :=
  r.1 = doneDegrees s.degrees orders k ∧ ∃ G, r.2 = tab (size s.degrees) G ∧
    ∀ mi, ValidIdx r.1 mi → G (flatIndex s.degrees mi) = derivNet K s.degrees orders s.cp k mi

variable (K) in
/-- one round of the loop over the parametric dimensions in `derivativeSpline` -/
def diffStep (cfg : Cfg) (s : Spline V) (orders : List ℕ) : ℕ → List ℕ × List V → M (List ℕ × List V) :=
  fun d (r : List Nat × List V) => do
    let o ← rd orders d
    if o = 0 then pure r
    else do
      let nd ← rd r.1 d
      let new_degrees ← wr r.1 d (sub64 nd o)
      let p ← rd s.degrees d
      let factor ← loopFrom 1 o (fun i (f : K) => pure (f * ((sub64 p i : Nat) : K))) ((p : Nat) : K)
      let pts ← loop (count64 new_degrees) (fun i_point pts => do
        let multi_index ← globalIdWith new_degrees i_point
        let i_point_index ← s.globalToLocal multi_index
        let q ← loopFrom 1 (o + 1) (fun j (q : List Nat × List V) => do
          let m ← rd q.1 d
          let multi_index ← wr q.1 d (m + 1)
          let c ← choose cfg o j
          let local_coefficient : K := (if j % 2 = 0 then 1 else -1) * ((c : Nat) : K)
          let x ← rd q.2 i_point_index
          let k ← s.globalToLocal multi_index
          let y ← rd q.2 k
          let pts ← wr q.2 i_point_index (x + local_coefficient • y)
          pure (multi_index, pts)) (multi_index, pts)
        let x ← rd q.2 i_point_index
        wr q.2 i_point_index (((if o % 2 = 0 then 1 else -1) * factor : K) • x)) r.2
      pure (new_degrees, pts)

theorem diff_step {cfg : Cfg} (hc : cfg.Ok) (h : s.WF) {orders : List ℕ} (hl : orders.length = s.dim) {d : ℕ}
    (hd : d < s.dim) (hle : ∀ (o p : ℕ), orders[d]? = some o → s.degrees[d]? = some p → o ≤ p)
    (hmax : ∀ o, orders[d]? = some o → o < cfg.maxBinom) (hsz : size s.degrees < 2 ^ 64) {r : List ℕ × List V}
    (hr : DiffInv K s orders d r) :
    ∃ r', diffStep K cfg s orders d r = .ok r' ∧ DiffInv K s orders (d + 1) r' := by
  have hl' : orders.length = s.degrees.length := hl
  unfold diffStep
  obtain ⟨nd, pts⟩ := r
  obtain ⟨rfl, F, h3, h4⟩ := hr
  simp only at h3 h4 ⊢
  subst h3
  have hp : s.degrees[d]? = some s.degrees[d] := List.getElem?_eq_getElem hd
  have ho : orders[d]? = some orders[d] := List.getElem?_eq_getElem (by omega)
  have hgp : s.degrees.getD d 0 = s.degrees[d] := by rw [List.getD_eq_getElem?_getD, hp]; rfl
  have hgo : orders.getD d 0 = orders[d] := by rw [List.getD_eq_getElem?_getD, ho]; rfl
  set p := s.degrees[d] with hpdef
  set o := orders[d] with hodef
  have hop : o ≤ p := hle o p ho hp
  have hndd : (doneDegrees s.degrees orders d)[d]? = some p := by
    rw [doneDegrees_getElem? hl' hp ho, if_neg (by omega)]
  have hndl := doneDegrees_length hl' d
  rw [rd_ok ho]
  simp only [bind_ok]
  by_cases ho0 : o = 0
  · rw [if_pos ho0]
    have e1 : doneDegrees s.degrees orders (d + 1) = doneDegrees s.degrees orders d := by
      rw [doneDegrees_succ hl' hp ho, ho0, Nat.sub_zero, set_split hndd, ← list_split hndd]
    refine ⟨_, rfl, e1.symm, F, rfl, fun mi hmi => ?_⟩
    rw [derivNet, hgo, if_pos ho0]
    exact h4 mi hmi
  · rw [if_neg ho0, rd_ok hndd]
    have hp64 : p < 2 ^ 64 :=
      lt_of_lt_of_le (Nat.lt_succ_self p) ((lt_size_of_mem (List.mem_of_getElem? hp)).trans hsz.le)
    simp only [bind_ok]
    rw [sub64_ok hop hp64, wr_ok _ (by rw [hndl]; exact hd)]
    simp only [bind_ok]
    rw [rd_ok hp]
    simp only [bind_ok]
    rw [falling_net (by omega) hop hp64]
    simp only [bind_ok]
    rw [← doneDegrees_succ hl' hp ho]
    obtain ⟨G, e1, e2⟩ := diff_pass (K := K) (F := F) (c := fallingOf K p o) hc h
      (hmax o ho) hop (by omega) hp (doneDegrees_valid hl' (d + 1))
      (by rw [doneDegrees_getElem? hl' hp ho, if_pos (by omega)]) hsz
    rw [e1]
    refine ⟨_, rfl, rfl, G, rfl, fun mi hmi => ?_⟩
    have hmi' : ValidIdx (doneDegrees s.degrees orders (d + 1)) mi := hmi
    rw [e2 mi hmi', derivNet, hgo, if_neg ho0, hgp, derivOf]
    have hml : mi.length = s.degrees.length := by rw [hmi'.length, doneDegrees_length hl']
    have hm : mi[d]? = some mi[d] := List.getElem?_eq_getElem (by rw [hml]; exact hd)
    have hmle : mi[d] ≤ p - o := (validIdx_iff.mp hmi').2 d _ _ hm (by rw [doneDegrees_getElem? hl' hp ho, if_pos (by omega)])
    have hgm : mi.getD d 0 = mi[d] := by rw [List.getD_eq_getElem?_getD, hm]; rfl
    rw [hgm]
    have hval : ∀ j, j ≤ o → F (flatIndex s.degrees mi + j * size (s.degrees.take d)) = derivNet K s.degrees orders s.cp d (mi.set d (mi[d] + j)) := by
      intro j hj
      rw [← flatIndex_set hml hm]
      apply h4
      have := validIdx_set hmi' d p (mi[d] + j) (by omega)
      rwa [doneDegrees_succ hl' hp ho, List.set_set, set_split hndd, ← list_split hndd] at this
    congr 1
    unfold differenceOf
    beta_reduce
    rw [hval 0 (by omega), Nat.add_zero]
    have : ∀ n, n ≤ o → ∀ x : V, repeatFrom 1 (fun j (x : V) => x + (signOf K j * ((o.choose j : ℕ) : K)) • F (flatIndex s.degrees mi + (0 + j) * size (s.degrees.take d))) x n =
        repeatFrom 1 (fun j (x : V) => x + (signOf K j * ((o.choose j : ℕ) : K)) • derivNet K s.degrees orders s.cp d (mi.set d (mi[d] + j))) x n := by
      intro n
      induction n with
      | zero => intro _ _; rfl
      | succ n ih => intro hn x; rw [repeatFrom, repeatFrom, ih (by omega), hval (0 + (1 + n)) (by omega), show 0 + (1 + n) = 1 + n by omega]
    exact this o (le_refl _) _

/-- control points of the derivative -/
theorem derivativeSpline_cp {cfg : Cfg} (hc : cfg.Ok) (h : s.WF) {orders : List ℕ} (hl : orders.length = s.dim)
    (hle : ∀ (d o p : ℕ), orders[d]? = some o → s.degrees[d]? = some p → o ≤ p)
    (hmax : ∀ o ∈ orders, o < cfg.maxBinom) (hsz : size s.degrees < 2 ^ 64) :
    ∃ r, derivativeSpline K cfg s orders = .ok r ∧ r.WF ∧ r.degrees = List.zipWith (· - ·) s.degrees orders ∧
      ∀ idx, ValidIdx r.degrees idx → r.cp idx = derivNet K s.degrees orders s.cp s.dim idx := by
  have hl' : orders.length = s.degrees.length := hl
  unfold derivativeSpline
  obtain ⟨⟨nd, pts⟩, h1, h2, G, h3, h4⟩ := loop_inv (n := s.dim) (s := (s.degrees, s.cps))
    (f := diffStep K cfg s orders)
    (P := DiffInv K s orders)
    ⟨by simp [doneDegrees], fun i => s.cps.getD i 0, cps_tab0 h, fun mi _ => rfl⟩
    (fun d hd r hr => diff_step hc h hl hd (hle d) (fun o ho => hmax o (List.mem_of_getElem? ho)) hsz hr)
  unfold diffStep at h1
  rw [h1]
  simp only at h2 h3 h4
  have hnd : nd = List.zipWith (· - ·) s.degrees orders := by
    rw [h2]
    unfold doneDegrees
    rw [List.take_of_length_le (l := s.degrees) (by simp [dim]), List.take_of_length_le (l := orders) (by omega),
      List.drop_of_length_le (by simp [dim])]
    simp
  have hndv : ValidIdx s.degrees nd := by rw [h2]; exact doneDegrees_valid hl' _
  have hpos := h.dim_pos
  simp only [bind_ok]
  obtain ⟨D, d1, d2, d3, d4⟩ := ofDegrees_ok (V := V) (ps := nd) (by rw [hndv.length]; exact hpos)
  rw [ofDegrees64_eq (by rw [hndv.length]; exact hpos) (lt_of_le_of_lt (size_le_of_valid hndv) hsz), d1]
  simp only [bind_ok]
  have hcp : loop D.ncp (fun i cps => do
      let g ← D.localToGlobal i
      let k ← s.globalToLocal g
      let x ← rd pts k
      wr cps i x) D.cps = .ok (tab (size nd) (fun i => G (flatIndex s.degrees (unflat nd i)))) := by
    rw [d2.ncp_eq, d3, d4]
    obtain ⟨mem, e1, H, rfl, e2⟩ := loop_inv (n := size nd) (s := tab (size nd) (fun _ => (0 : V)))
      (f := fun i cps => do
        let g ← D.localToGlobal i
        let k ← s.globalToLocal g
        let x ← rd pts k
        wr cps i x)
      (P := fun k mem => ∃ H, mem = tab (size nd) H ∧ ∀ i, i < k → H i = G (flatIndex s.degrees (unflat nd i)))
      ⟨_, rfl, fun i hi => by omega⟩
      (by
        rintro k hk _ ⟨H, rfl, hH⟩
        rw [localToGlobal_ok d2, d3]
        simp only [bind_ok]
        rw [globalToLocal_ok h (by rw [unflat_length, hndv.length]; rfl), h3]
        simp only [bind_ok]
        rw [rd_tab _ (flatIndex_lt (validIdx_mono hndv (unflat_valid nd k)))]
        simp only [bind_ok]
        refine ⟨_, wr_tab _ _ hk, _, rfl, ?_⟩
        intro i hi
        by_cases hik : i = k
        · subst hik; rw [Function.update_self]
        · rw [Function.update_of_ne hik]; exact hH i (by omega))
    rw [e1]
    congr 1
    exact tab_congr e2
  rw [hcp]
  refine ⟨_, rfl, ⟨?_, ?_, ?_, ?_⟩, ?_, ?_⟩
  · exact d2.dim_pos
  · exact d2.ncp_eq
  · exact d2.offsets_eq
  · simp [d3]
  · rw [← hnd]; exact d3
  · intro idx hv
    have hv' : ValidIdx D.degrees idx := hv
    rw [cp_tab (F := fun i => G (flatIndex s.degrees (unflat nd i))) (by simp only; rw [d3]) hv]
    show G (flatIndex s.degrees (unflat nd (flatIndex D.degrees idx))) = _
    rw [d3] at hv' ⊢
    rw [unflat_flatIndex hv']
    exact h4 idx hv'

end Spline
end Bezman
