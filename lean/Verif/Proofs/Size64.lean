import Verif.Model.Size64
import Verif.Proofs.DerivAbove
import Verif.Proofs.FacesRationalDeriv
import Verif.Proofs.ReleaseTable

set_option linter.unusedSectionVars false

/-! # The derivative of a rational spline with the wrap-around of `size_t` -/

namespace Bezman
open Spec Props

namespace Spline
variable {K V W U : Type}

theorem updateIndexOffsets64_eq {nd os : List ℕ} (hl : os.length = nd.length) (hpos : 0 < nd.length) (h : size nd < 2 ^ 64) :
    updateIndexOffsets64 nd os = updateIndexOffsets nd os := by
  have e : ∀ k, k < nd.length → size (nd.take (k + 1)) < 2 ^ 64 := fun k hk => by
    refine lt_of_le_of_lt ?_ h
    conv_rhs => rw [← List.take_append_drop (k + 1) nd, size_append]
    exact Nat.le_mul_of_pos_right _ (size_pos _)
  have hoff : ∀ k, k < nd.length → (offsetsOf nd)[k]? = some (size (nd.take k)) := fun k hk => by
    simp [offsetsOf, hk]
  unfold updateIndexOffsets64
  rw [updateIndexOffsets_ok hl hpos, wr_ok _ (by omega)]
  simp only [bind_ok]
  obtain ⟨o, h1, h2, h3⟩ := loopFrom_inv (a := 1) (b := nd.length) (s := os.set 0 1)
    (f := fun i o => do
      let a ← rd o (i - 1)
      let d ← rd nd (i - 1)
      wr o i (mul64 a (add64 d 1)))
    (P := fun k o => o.length = nd.length ∧ ∀ i, i < k → o[i]? = some (size (nd.take i))) (by omega)
    ⟨by simpa using hl, fun i hi => by
      obtain rfl : i = 0 := by omega
      simp [List.getElem?_set, hl, hpos, size]⟩
    (by
      rintro k hk1 hk2 o ⟨hl, ho⟩
      obtain ⟨m, rfl⟩ : ∃ m, k = m + 1 := ⟨k - 1, by omega⟩
      have hd : nd[m]? = some nd[m] := List.getElem?_eq_getElem (by omega)
      simp only [Nat.add_sub_cancel]
      rw [rd_ok (ho m (by omega)), rd_ok hd]
      simp only [bind_ok]
      have e1 : size (nd.take (m + 1)) = size (nd.take m) * (nd[m] + 1) := by
        rw [List.take_succ_eq_append_getElem (by omega), size_append, size_cons]; simp [size]
      have e2 := e m (by omega)
      have e3 : nd[m] + 1 < 2 ^ 64 :=
        lt_of_le_of_lt (lt_size_of_mem (List.getElem_mem (by omega))) h
      rw [add64_ok e3, mul64, ← e1, Nat.mod_eq_of_lt e2, wr_ok _ (by omega)]
      refine ⟨_, rfl, by simp [hl], fun i hi => ?_⟩
      rw [List.getElem?_set]
      by_cases hi' : m + 1 = i
      · subst hi'; simp; omega
      · rw [if_neg hi']; exact ho i (by omega))
  have ho : o = offsetsOf nd := by
    apply List.ext_getElem?
    intro i
    by_cases hi : i < nd.length
    · rw [h3 i hi, hoff i hi]
    · rw [List.getElem?_eq_none (by omega), List.getElem?_eq_none (by simp [offsetsOf]; omega)]
  rw [h1, ho]

/-- the stored offsets have the right number of entries, whatever the degrees are -/
theorem updateIndexOffsets64_len {nd os : List ℕ} (hl : os.length = nd.length) (hpos : 0 < nd.length) :
    ∃ o, updateIndexOffsets64 nd os = .ok o ∧ o.length = nd.length := by
  unfold updateIndexOffsets64
  rw [wr_ok _ (by omega)]
  simp only [bind_ok]
  exact loopFrom_inv (a := 1) (b := nd.length) (s := os.set 0 1)
    (P := fun _ o => o.length = nd.length) (by omega) (by simpa using hl)
    (by
      intro k hk1 hk2 o hl
      rw [rd_getElem (by omega : k - 1 < o.length), rd_getElem (by omega : k - 1 < nd.length)]
      simp only [bind_ok]
      rw [wr_ok _ (by omega)]
      exact ⟨_, rfl, by simpa using hl⟩)

theorem ofPoints64_eq {nd : List ℕ} {pts : List V} (hpos : 0 < nd.length) (h : size nd < 2 ^ 64) :
    ofPoints64 nd pts = ofPoints nd pts := by
  unfold ofPoints64 ofPoints
  rw [updateIndexOffsets64_eq (by simp) hpos h, count64_ok h, countCps_eq]

section
variable [Zero K] [One K] [Add K] [Sub K] [Mul K] [Neg K] [Div K] [NatCast K]
  [Zero V] [Add V] [Sub V] [Neg V] [SMul K V] [Zero U] [Add U] [Sub U] [Neg U] [SMul K U]

theorem mulOp64_eq {cfg : Cfg} (mul : V → W → U) {a : Spline V} {b : Spline W} {da db : List ℕ} (ha : HasShape da a) (hb : HasShape db b)
    (hdim : db.length = da.length) (hs : size (sumDegrees da db) < 2 ^ 64) :
    mulOp64 K cfg mul a b = mulOp K cfg mul a b := by
  have hla : a.dim = da.length := by unfold dim; rw [ha.2]
  have hpos : 0 < da.length := by rw [← ha.2]; exact ha.1.dim_pos
  have hlt : ∀ (i p q : ℕ), da[i]? = some p → db[i]? = some q → p + q < 2 ^ 64 := fun i p q hp hq => by
    have : (sumDegrees da db)[i]? = some (p + q) := by rw [sumDegrees, List.getElem?_zipWith, hp, hq]
    have := lt_size_of_mem (List.mem_of_getElem? this)
    omega
  obtain ⟨l, e1, e2⟩ : ∃ l, loop a.dim (fun d l => do
      let p ← rd a.degrees d
      let q ← rd b.degrees d
      wr l d (p + q)) (List.replicate a.dim 0) = .ok l ∧ l = sumDegrees da db := by
    obtain ⟨l, h1, h2, h3⟩ := loop_inv (n := a.dim) (s := List.replicate a.dim 0) (f := fun d l => do
      let p ← rd a.degrees d
      let q ← rd b.degrees d
      wr l d (p + q)) (P := fun k l => l.length = da.length ∧ ∀ i, i < k → l[i]? = (sumDegrees da db)[i]?)
      ⟨by simp [hla], fun i hi => by omega⟩ (by
        rintro k hk l ⟨hl, hi⟩
        rw [hla] at hk
        rw [ha.2, hb.2, rd_getElem hk, rd_getElem (by omega : k < db.length)]
        simp only [bind_ok]
        rw [wr_ok _ (by omega)]
        refine ⟨_, rfl, by simpa using hl, fun i h => ?_⟩
        rw [List.getElem?_set]
        by_cases hik : k = i
        · subst hik
          rw [if_pos rfl, if_pos (by omega)]
          simp [sumDegrees, hk, (by omega : k < db.length)]
        · rw [if_neg hik]; exact hi i (by omega))
    refine ⟨l, h1, List.ext_getElem? fun i => ?_⟩
    by_cases hi : i < da.length
    · exact h3 i (by omega)
    · rw [List.getElem?_eq_none (by omega), List.getElem?_eq_none (by simp [sumDegrees]; omega)]
  have e3 : loop a.dim (fun d l => do
      let p ← rd a.degrees d
      let q ← rd b.degrees d
      wr l d (add64 p q)) (List.replicate a.dim 0) = .ok l := by
    rw [← e1]
    refine loop_congr fun k hk s => ?_
    rw [hla] at hk
    have hka : da[k]? = some da[k] := List.getElem?_eq_getElem hk
    have hkb : db[k]? = some (db[k]'(by omega)) := List.getElem?_eq_getElem (by omega)
    rw [ha.2, hb.2, rd_ok hka, rd_ok hkb]
    simp only [bind_ok]
    rw [add64_ok (hlt k _ _ hka hkb)]
  unfold mulOp64 mulOp
  rw [e1, e3]
  simp only [bind_ok]
  subst e2
  rw [ofDegrees64_eq (by simp [sumDegrees]; omega) hs]

/-- a difference of splines of the same degrees elevates nothing -/
theorem subOp64_same {cfg : Cfg} (hf : 0 < cfg.fuel) {a b : Spline V} (h : b.degrees = a.degrees) :
    subOp64 K cfg a b = (do
      let ret ← ofPoints64 a.degrees a.cps
      let cps ← zipCps a.ncp (· - ·) ret.cps b.cps
      pure { ret with cps := cps }) := by
  unfold subOp64
  refine bind_congr fun ret => ?_
  obtain ⟨x, h1, rfl⟩ := loop_inv (n := a.dim) (s := ret) (f := fun d ret =>
    whileM cfg.fuel (fun (_ : Spline V) => do
      let q ← rd b.degrees d
      let p ← rd a.degrees d
      pure (decide (q > p))) (fun ret => orderElevate64 K ret d) ret) (P := fun _ x => x = ret) rfl (by
      rintro k hk x rfl
      refine ⟨x, whileM_false hf ?_, rfl⟩
      have hk' : k < a.degrees.length := hk
      rw [h, rd_getElem hk']
      simp [bind_ok])
  obtain ⟨y, h2, rfl⟩ : ∃ y, elevateTo64 K cfg b a.degrees = .ok y ∧ y = b := by
    unfold elevateTo64
    refine loop_inv (P := fun _ x => x = b) rfl ?_
    rintro k hk x rfl
    refine ⟨x, whileM_false hf ?_, rfl⟩
    have hk' : k < x.degrees.length := hk
    rw [← h, rd_getElem hk']
    simp [bind_ok]
  rw [h1, bind_ok, h2, bind_ok]

theorem subOp_plain {cfg : Cfg} (hf : 0 < cfg.fuel) {a b : Spline V} (h : b.degrees = a.degrees) :
    subOp K cfg a b = (do
      let ret ← ofPoints a.degrees a.cps
      let cps ← zipCps a.ncp (· - ·) ret.cps b.cps
      pure { ret with cps := cps }) := by
  unfold subOp
  refine bind_congr fun ret => ?_
  obtain ⟨x, h1, rfl⟩ := loop_inv (n := a.dim) (s := ret) (f := fun d ret =>
    whileM cfg.fuel (fun (_ : Spline V) => do
      let q ← rd b.degrees d
      let p ← rd a.degrees d
      pure (decide (q > p))) (fun ret => orderElevate K ret d) ret) (P := fun _ x => x = ret) rfl (by
      rintro k hk x rfl
      refine ⟨x, whileM_false hf ?_, rfl⟩
      have hk' : k < a.degrees.length := hk
      rw [h, rd_getElem hk']
      simp [bind_ok])
  obtain ⟨y, h2, rfl⟩ : ∃ y, elevateTo K cfg b a.degrees = .ok y ∧ y = b := by
    unfold elevateTo
    refine loop_inv (P := fun _ x => x = b) rfl ?_
    rintro k hk x rfl
    refine ⟨x, whileM_false hf ?_, rfl⟩
    have hk' : k < x.degrees.length := hk
    rw [← h, rd_getElem hk']
    simp [bind_ok]
  rw [h1, bind_ok, h2, bind_ok]

theorem subOp64_eq {cfg : Cfg} (hf : 0 < cfg.fuel) {a b : Spline V} {ds : List ℕ} (ha : HasShape ds a) (hb : HasShape ds b)
    (hs : size ds < 2 ^ 64) : subOp64 K cfg a b = subOp K cfg a b := by
  have h : b.degrees = a.degrees := by rw [ha.2, hb.2]
  rw [subOp64_same hf h, subOp_plain hf h, ofPoints64_eq ha.1.dim_pos (by rw [ha.2]; exact hs)]

theorem orderElevate64_eq {a : Spline V} {ds : List ℕ} (ha : HasShape ds a) {d : ℕ} (hd : d < ds.length)
    (hs : size (ds.modify d (· + 1)) < 2 ^ 64) : orderElevate64 K a d = orderElevate K a d := by
  obtain ⟨hwf, rfl⟩ := ha
  have hda : a.degrees[d]? = some a.degrees[d] := List.getElem?_eq_getElem hd
  have hoff : a.offsets[d]? = some (size (a.degrees.take d)) := by rw [hwf.offsets_eq]; simp [offsetsOf, hd]
  have hmod : a.degrees.modify d (· + 1) = a.degrees.set d (a.degrees[d] + 1) := by
    rw [List.modify_eq_set, hda]; rfl
  rw [hmod] at hs
  have hsz : size a.degrees = size (a.degrees.take d) * ((a.degrees[d] + 1) * size (a.degrees.drop (d + 1))) := by
    conv_lhs => rw [list_split hda]
    rw [size_append, size_cons]
  have hsz' : size (a.degrees.set d (a.degrees[d] + 1)) = size (a.degrees.take d) * ((a.degrees[d] + 2) * size (a.degrees.drop (d + 1))) := by
    rw [List.set_eq_take_append_cons_drop, if_pos hd, size_append, size_cons]
  set o := size (a.degrees.take d) with ho
  set q := size (a.degrees.drop (d + 1)) with hq
  set p := a.degrees[d] with hp
  have hop : 0 < o := size_pos _
  have hqp : 0 < q := size_pos _
  have hp2 : p + 2 < 2 ^ 64 := by
    have h1 : (p + 2) * q ≤ o * ((p + 2) * q) := Nat.le_mul_of_pos_left _ hop
    have h2 : p + 2 ≤ (p + 2) * q := Nat.le_mul_of_pos_right _ hqp
    omega
  have hop2 : o * (p + 2) < 2 ^ 64 := by
    have h1 : o * (p + 2) ≤ o * (p + 2) * q := Nat.le_mul_of_pos_right _ hqp
    have h2 : o * (p + 2) * q = o * ((p + 2) * q) := by ring
    omega
  have hop1 : o * (p + 1) < 2 ^ 64 := lt_of_le_of_lt (Nat.mul_le_mul_left _ (by omega)) hop2
  have hop0 : o * p < 2 ^ 64 := lt_of_le_of_lt (Nat.mul_le_mul_left _ (by omega)) hop2
  have hrow : a.ncp / (p + 1) = o * q := by
    rw [hwf.ncp_eq, hsz]
    apply Nat.div_eq_of_eq_mul_left (by omega)
    ring
  have hncp : o * q * (p + 2) < 2 ^ 64 := by
    rw [hsz'] at hs
    calc o * q * (p + 2) = o * ((p + 2) * q) := by ring
      _ < _ := hs
  unfold orderElevate64 orderElevate
  rw [rd_ok hda, rd_ok hoff]
  simp only [bind_ok]
  rw [add64_ok (by omega : p + 1 < 2 ^ 64), add64_ok hp2, divU_ok (by omega), hrow]
  simp only [bind_ok]
  rw [show mul64 o (p + 1) = o * (p + 1) from Nat.mod_eq_of_lt hop1, show mul64 (o * q) (p + 2) = o * q * (p + 2) from Nat.mod_eq_of_lt hncp,
    show mul64 o p = o * p from Nat.mod_eq_of_lt hop0, wr_ok _ hd]
  simp only [bind_ok]
  rw [updateIndexOffsets64_eq (by simp [hwf.offsets_eq, offsetsOf]) (by simp; omega) hs]

variable (K) in
/-- one round of the loop over the parametric dimensions in `derivativeSpline` -/
def derivRound (cfg : Cfg) (s : Spline V) (orders : List ℕ) : ℕ → List ℕ × List V → M (List ℕ × List V) :=
  fun d (r : List Nat × List V) => do
    let o ← rd orders d
    if o = 0 then pure r
    else do
      let nd ← rd r.1 d
      let new_degrees ← wr r.1 d (sub64 nd o)
      let p ← rd s.degrees d
      let factor ← loopFrom 1 o (fun i (f : K) => pure (f * ((sub64 p i : Nat) : K))) ((p : Nat) : K)
      let pts ← loop (count64 new_degrees) (fun i_point pts => do
        let multi_index ← globalIdWith new_degrees i_point
        let i_point_index ← s.globalToLocal multi_index
        let q ← loopFrom 1 (o + 1) (fun j (q : List Nat × List V) => do
          let m ← rd q.1 d
          let multi_index ← wr q.1 d (m + 1)
          let c ← choose cfg o j
          let local_coefficient : K := (if j % 2 = 0 then 1 else -1) * ((c : Nat) : K)
          let x ← rd q.2 i_point_index
          let k ← s.globalToLocal multi_index
          let y ← rd q.2 k
          let pts ← wr q.2 i_point_index (x + local_coefficient • y)
          pure (multi_index, pts)) (multi_index, pts)
        let x ← rd q.2 i_point_index
        wr q.2 i_point_index (((if o % 2 = 0 then 1 else -1) * factor : K) • x)) r.2
      pure (new_degrees, pts)

/-- In a direction of degree zero the first derivative is a spline without control points whose degree in that direction has
wrapped around. -/
theorem derivativeSpline_zero {cfg : Cfg} {s : Spline V} {ds : List ℕ} (h : HasShape ds s) {d : ℕ} (hd : ds[d]? = some 0) :
    ∃ r, derivativeSpline K cfg s (RSpline.unitOrder ds d) = .ok r ∧ r.degrees = ds.set d (2 ^ 64 - 1) ∧ r.ncp = 0 ∧ r.cps = [] ∧
      r.offsets.length = ds.length := by
  obtain ⟨hwf, rfl⟩ := h
  obtain ⟨hdl, _⟩ := List.getElem?_eq_some_iff.mp hd
  have hul : (RSpline.unitOrder s.degrees d).length = s.degrees.length := by simp [RSpline.unitOrder]
  have hud : (RSpline.unitOrder s.degrees d)[d]? = some 1 := by simp [RSpline.unitOrder, hdl]
  have hu0 : ∀ k, k < s.degrees.length → k ≠ d → (RSpline.unitOrder s.degrees d)[k]? = some 0 := fun k hk hkd => by
    unfold RSpline.unitOrder
    rw [List.getElem?_set_ne (by omega)]; simp [hk]
  have hset : (s.degrees.set d (2 ^ 64 - 1))[d]? = some (2 ^ 64 - 1) := by simp [hdl]
  have hlen : 0 < (s.degrees.set d (2 ^ 64 - 1)).length := by simp; omega
  unfold derivativeSpline
  obtain ⟨x, h1, h2⟩ := loop_inv (n := s.dim) (s := (s.degrees, s.cps)) (f := derivRound K cfg s (RSpline.unitOrder s.degrees d))
    (P := fun k r => r = (if k ≤ d then s.degrees else s.degrees.set d (2 ^ 64 - 1), s.cps)) (by simp) (by
      rintro k hk r rfl
      have hk' : k < s.degrees.length := hk
      unfold derivRound
      by_cases hkd : k = d
      · subst hkd
        rw [rd_ok hud]
        simp only [bind_ok, if_pos le_rfl]
        rw [if_neg (by decide), rd_ok hd]
        simp only [bind_ok]
        rw [wr_ok _ hdl]
        simp only [bind_ok]
        have e : sub64 0 1 = 2 ^ 64 - 1 := by decide
        rw [e, loopFrom_empty (by omega), bind_ok, count64_wrap hset, loop_zero, bind_ok, if_neg (by omega)]
        exact ⟨_, rfl, rfl⟩
      · rw [rd_ok (hu0 k hk' hkd)]
        simp only [bind_ok, if_true]
        refine ⟨_, rfl, ?_⟩
        rcases Nat.lt_or_gt_of_ne hkd with h | h
        · rw [if_pos (by omega), if_pos (by omega)]
        · rw [if_neg (by omega), if_neg (by omega)])
  unfold derivRound at h1
  rw [h1, bind_ok, h2, if_neg (by unfold dim; omega)]
  simp only []
  obtain ⟨o, h3, h4⟩ := updateIndexOffsets64_len (nd := s.degrees.set d (2 ^ 64 - 1)) (os := List.replicate (s.degrees.set d (2 ^ 64 - 1)).length 0)
    (by simp) hlen
  have e : ofDegrees64 (V := V) (s.degrees.set d (2 ^ 64 - 1)) = .ok ⟨s.degrees.set d (2 ^ 64 - 1), 0, o, []⟩ := by
    have : ofDegrees64 (V := V) (s.degrees.set d (2 ^ 64 - 1)) = (do
      let o ← updateIndexOffsets64 (s.degrees.set d (2 ^ 64 - 1)) (List.replicate (s.degrees.set d (2 ^ 64 - 1)).length 0)
      pure ⟨s.degrees.set d (2 ^ 64 - 1), count64 (s.degrees.set d (2 ^ 64 - 1)), o,
        resize ([] : List V) (count64 (s.degrees.set d (2 ^ 64 - 1)))⟩) := by
      unfold ofDegrees64 updateIndexOffsets64
      simp only [bind_assoc]
    rw [this, h3, bind_ok, count64_wrap hset]
    rfl
  rw [e, bind_ok]
  exact ⟨_, rfl, rfl, rfl, rfl, by simpa using h4⟩

/-- A product with a spline whose degree has wrapped around has no control points. -/
theorem mulOp64_wrap {cfg : Cfg} (mul : V → W → U) {a : Spline V} {b : Spline W} {da db : List ℕ} {d : ℕ} (ha : a.degrees = da.set d (2 ^ 64 - 1))
    (hb : b.degrees = db) (hdim : db.length = da.length) (hda : da[d]? = some 0) (hdb : db[d]? = some 0) :
    ∃ r, mulOp64 K cfg mul a b = .ok r ∧
      r.degrees = (List.zipWith add64 da db).set d (2 ^ 64 - 1) ∧ r.ncp = 0 ∧ r.cps = [] := by
  obtain ⟨hdl, _⟩ := List.getElem?_eq_some_iff.mp hda
  have hla : a.dim = da.length := by unfold dim; rw [ha]; simp
  set nd := (List.zipWith add64 da db).set d (2 ^ 64 - 1) with hnd
  have hndl : nd.length = da.length := by simp [hnd, hdim]
  have hset : nd[d]? = some (2 ^ 64 - 1) := by rw [hnd, List.getElem?_set_self (by simp [hdim]; omega)]
  obtain ⟨l, e1, e2⟩ : ∃ l, loop a.dim (fun d l => do
      let p ← rd a.degrees d
      let q ← rd b.degrees d
      wr l d (add64 p q)) (List.replicate a.dim 0) = .ok l ∧ l = nd := by
    obtain ⟨l, h1, h2, h3⟩ := loop_inv (n := a.dim) (s := List.replicate a.dim 0) (f := fun d l => do
      let p ← rd a.degrees d
      let q ← rd b.degrees d
      wr l d (add64 p q)) (P := fun k l => l.length = da.length ∧ ∀ i, i < k → l[i]? = nd[i]?)
      ⟨by simp [hla], fun i hi => by omega⟩ (by
        rintro k hk l ⟨hl, hi⟩
        rw [hla] at hk
        have hka : (da.set d (2 ^ 64 - 1))[k]? = some (if d = k then 2 ^ 64 - 1 else da[k]) := by
          rw [List.getElem?_set]
          by_cases h : d = k
          · subst h; simp [hk]
          · simp [h, hk]
        rw [ha, hb, rd_ok hka, rd_getElem (by omega : k < db.length)]
        simp only [bind_ok]
        rw [wr_ok _ (by omega)]
        refine ⟨_, rfl, by simpa using hl, fun i h => ?_⟩
        rw [List.getElem?_set]
        by_cases hik : k = i
        · subst hik
          rw [if_pos rfl, if_pos (by omega)]
          by_cases h : d = k
          · subst h
            have : db[d] = 0 := (List.getElem?_eq_some_iff.mp hdb).2
            rw [if_pos rfl, hset, this]
            rfl
          · rw [if_neg h, hnd, List.getElem?_set_ne h, List.getElem?_zipWith, List.getElem?_eq_getElem hk,
              List.getElem?_eq_getElem (by omega : k < db.length)]
        · rw [if_neg hik]; exact hi i (by omega))
    refine ⟨l, h1, List.ext_getElem? fun i => ?_⟩
    by_cases hi : i < da.length
    · exact h3 i (by omega)
    · rw [List.getElem?_eq_none (by omega), List.getElem?_eq_none (by omega)]
  unfold mulOp64
  rw [e1, bind_ok, e2]
  obtain ⟨o, h3, h4⟩ := updateIndexOffsets64_len (nd := nd) (os := List.replicate nd.length 0) (by simp) (by omega)
  have e : ofDegrees64 (V := U) nd = .ok ⟨nd, 0, o, []⟩ := by
    have : ofDegrees64 (V := U) nd = (do
      let o ← updateIndexOffsets64 nd (List.replicate nd.length 0)
      pure ⟨nd, count64 nd, o, resize ([] : List U) (count64 nd)⟩) := by
      unfold ofDegrees64 updateIndexOffsets64
      simp only [bind_assoc]
    rw [this, h3, bind_ok, count64_wrap hset]
    rfl
  rw [e, bind_ok]
  exact ⟨_, rfl, rfl, rfl, rfl⟩

/-- The difference of two splines whose degree has wrapped around. -/
theorem subOp64_wrap {cfg : Cfg} (hf : 0 < cfg.fuel) {a b : Spline V} {d : ℕ} (h : b.degrees = a.degrees) (hd : a.degrees[d]? = some (2 ^ 64 - 1))
    (hn : a.ncp = 0) (hc : a.cps = []) :
    ∃ r, subOp64 K cfg a b = .ok r ∧ r.degrees = a.degrees ∧ r.ncp = 0 ∧ r.cps = [] ∧ r.offsets.length = a.degrees.length := by
  obtain ⟨hdl, _⟩ := List.getElem?_eq_some_iff.mp hd
  rw [subOp64_same hf h]
  obtain ⟨o, h3, h4⟩ := updateIndexOffsets64_len (nd := a.degrees) (os := List.replicate a.degrees.length 0) (by simp) (by omega)
  unfold ofPoints64
  rw [h3, bind_ok, count64_wrap hd, hc, hn]
  exact ⟨_, rfl, rfl, rfl, rfl, h4⟩

/-- Elevating a spline whose degree has wrapped around divides by zero. -/
theorem orderElevate64_wrap {a : Spline V} {d : ℕ} (hd : a.degrees[d]? = some (2 ^ 64 - 1)) (ho : a.offsets.length = a.degrees.length) :
    orderElevate64 K a d = .error .ub := by
  obtain ⟨hdl, _⟩ := List.getElem?_eq_some_iff.mp hd
  unfold orderElevate64
  rw [rd_ok hd, bind_ok, rd_getElem (by omega : d < a.offsets.length), bind_ok]
  have : add64 (2 ^ 64 - 1) 1 = 0 := by decide
  rw [this]
  rfl

end

end Spline

namespace RSpline
variable {K V : Type} [Zero K] [One K] [Add K] [Sub K] [Mul K] [Neg K] [Div K] [NatCast K]
  [Zero V] [Add V] [Sub V] [Neg V] [SMul K V]

/-- one round in a direction of degree zero -/
theorem derivativeStep64_wrap {cfg : Cfg} (hf : 0 < cfg.fuel) {r : RSpline K V} {ds : List ℕ} (h : HasRShape ds r) {d : ℕ} (hd : ds[d]? = some 0) :
    derivativeStep64 cfg r d = .error .ub := by
  obtain ⟨hdl, _⟩ := List.getElem?_eq_some_iff.mp hd
  have hdim : r.dim = ds.length := by unfold dim Spline.dim; first | rw [h.1.2] | rw [h.2.2]
  unfold derivativeStep64
  rw [hdim, wr_ok _ (by simpa using hdl), bind_ok]
  obtain ⟨du, e1, u1, u2, u3, u4⟩ := Spline.derivativeSpline_zero (K := K) (cfg := cfg) h.1 hd
  obtain ⟨dw, e2, w1, w2, w3, w4⟩ := Spline.derivativeSpline_zero (K := K) (cfg := cfg) h.2 hd
  obtain ⟨a, e3, a1, a2, a3⟩ := Spline.mulOp64_wrap (K := K) (cfg := cfg) (fun (x : V) (c : K) => c • x) u1 h.2.2 rfl hd hd
  obtain ⟨b, e4, b1, b2, b3⟩ := Spline.mulOp64_wrap (K := K) (cfg := cfg) (fun (c : K) (x : V) => c • x) w1 h.1.2 rfl hd hd
  have hda : a.degrees[d]? = some (2 ^ 64 - 1) := by rw [a1, List.getElem?_set_self (by simpa using hdl)]
  obtain ⟨c, e5, c1, c2, c3, c4⟩ := Spline.subOp64_wrap (K := K) (cfg := cfg) hf (b1.trans a1.symm) hda a2 a3
  have e6 := Spline.orderElevate64_wrap (K := K) (a := c) (d := d) (by rw [c1]; exact hda) (by rw [c4, c1])
  unfold unitOrder at e1 e2
  rw [e1, bind_ok, e3, bind_ok, e2, bind_ok, e4, bind_ok, e5, bind_ok, e6]
  rfl

/-- one round in a direction of positive degree -/
theorem derivativeStep64_eq {cfg : Cfg} (hc : cfg.Ok) {r : RSpline K V} {ds : List ℕ} {e p : ℕ} (h : HasRShape ds r) (hd : ds[e]? = some p)
    (hp : 1 ≤ p) (hf : DerivFits cfg ds 1) :
    ∃ r', derivativeStep cfg r e = .ok r' ∧ derivativeStep64 cfg r e = .ok r' ∧ HasRShape (ds.map (· * 2)) r' := by
  obtain ⟨hdl, hdp⟩ := List.getElem?_eq_some_iff.mp hd
  have hdim : r.dim = ds.length := by unfold dim Spline.dim; first | rw [h.1.2] | rw [h.2.2]
  have hsmall : size (ds.map (· * 2)) < 2 ^ 31 := by simpa using hf.small
  have hfu : 0 < cfg.fuel := by have := hf.rounds2; omega
  have hlow : size (lowDegrees ds e p) < 2 ^ 64 := by have := size_low hd hp; omega
  obtain ⟨du, e1, s1⟩ := Spline.derivativeSpline_returns (K := K) cfg hc h.1 (orders := unitOrder ds e) (by simp [unitOrder]) (unitOrder_le hd hp)
    (deriv_max hd hp hf) (deriv_small hf)
  obtain ⟨dw, e3, s3⟩ := Spline.derivativeSpline_returns (K := K) cfg hc h.2 (orders := unitOrder ds e) (by simp [unitOrder]) (unitOrder_le hd hp)
    (deriv_max hd hp hf) (deriv_small hf)
  rw [sub_unitOrder hd] at s1 s3
  have hlen : ds.length = (ds.set e (p - 1)).length := by simp
  obtain ⟨a, e2, s2⟩ := Spline.mulOp_returns (K := K) cfg hc (fun (x : V) (c : K) => c • x) s1 h.2 hlen (low_degs hd hp hf)
  obtain ⟨b, e4, s4⟩ := Spline.mulOp_returns (K := K) cfg hc (fun (c : K) (x : V) => c • x) s3 h.1 hlen (low_degs hd hp hf)
  have e2' := Spline.mulOp64_eq (K := K) (cfg := cfg) (fun (x : V) (c : K) => c • x) s1 h.2 hlen (by rw [sumDegrees_low hd hp]; exact hlow)
  have e4' := Spline.mulOp64_eq (K := K) (cfg := cfg) (fun (c : K) (x : V) => c • x) s3 h.1 hlen (by rw [sumDegrees_low hd hp]; exact hlow)
  rw [sumDegrees_low hd hp] at s2 s4
  obtain ⟨c, e5, s5⟩ := Spline.subAssign_returns (K := K) cfg s2 s4 (low_fits hd hp hf)
  rw [maxDegrees_self] at s5
  rw [← Spline.subOp_eq s2 s4 (low_fits hd hp hf) le_of_same] at e5
  have e5' := Spline.subOp64_eq (K := K) (cfg := cfg) hfu s2 s4 hlow
  have hsm : size ((lowDegrees ds e p).modify e (· + 1)) < 2 ^ 31 := by rw [low_modify hd hp]; exact hsmall
  have hel : e < (lowDegrees ds e p).length := by simpa [lowDegrees] using hdl
  obtain ⟨n, e6, s6⟩ := Spline.orderElevate_returns (K := K) s5 (d := e) hel hsm
  have e6' := Spline.orderElevate64_eq (K := K) s5 (d := e) hel (by omega)
  rw [low_modify hd hp] at s6
  obtain ⟨w, e7, s7⟩ := Spline.mulOp_returns (K := K) cfg hc (fun x y : K => x * y) h.2 h.2 rfl (double_degs hf)
  have e7' := Spline.mulOp64_eq (K := K) (cfg := cfg) (fun x y : K => x * y) h.2 h.2 rfl (by rw [sumDegrees_double]; omega)
  rw [sumDegrees_double] at s7
  refine ⟨⟨n, w⟩, ?_, ?_, s6, s7⟩
  · unfold derivativeStep mulWeight mulWeight' Spline.mulScalar
    unfold unitOrder at e1 e3
    rw [hdim, wr_ok _ (by simpa using hdl), bind_ok, e1, bind_ok, e2, bind_ok, e3, bind_ok, e4, bind_ok, e5, bind_ok, e6, bind_ok, e7, bind_ok]
    exact ofSplines_ok (by rw [s6.2, s7.2])
  · unfold derivativeStep64
    unfold unitOrder at e1 e3
    rw [hdim, wr_ok _ (by simpa using hdl), bind_ok, e1, bind_ok, e2', e2, bind_ok, e3, bind_ok, e4', e4, bind_ok, e5', e5, bind_ok, e6', e6,
      bind_ok, e7', e7, bind_ok]
    exact ofSplines_ok (by rw [s6.2, s7.2])

theorem DerivFits.le {cfg : Cfg} {ds : List ℕ} {m n : ℕ} (h : DerivFits cfg ds n) (hmn : m + 1 ≤ n) : DerivFits cfg (ds.map (· * 2 ^ m)) 1 := by
  have hpow : 2 ^ (m + 1) ≤ 2 ^ n := Nat.pow_le_pow_right (by norm_num) hmn
  have hle : ∀ p, p * 2 ^ m * 2 ^ 1 ≤ p * 2 ^ n := fun p => by
    rw [mul_assoc, ← pow_add]; exact Nat.mul_le_mul_left _ hpow
  refine ⟨?_, ?_, h.rounds2, ?_⟩
  · intro q hq
    obtain ⟨p, hp, rfl⟩ := List.mem_map.mp hq
    exact lt_of_le_of_lt (hle p) (h.degs p hp)
  · intro q hq
    obtain ⟨p, hp, rfl⟩ := List.mem_map.mp hq
    exact lt_of_le_of_lt (hle p) (h.rounds p hp)
  · refine lt_of_le_of_lt ?_ h.small
    rw [List.map_map]
    clear h
    induction ds with
    | nil => simp
    | cons p ds ih =>
      simp only [List.map_cons, size_cons, Function.comp]
      exact Nat.mul_le_mul (by have := hle p; omega) ih

/-- the first `k` directions -/
theorem derivativeLoop64_eq {cfg : Cfg} (hc : cfg.Ok) {r : RSpline K V} {ds : List ℕ} (h : HasRShape ds r) {orders : List ℕ}
    (hl : orders.length = ds.length) (hf : DerivFits cfg ds orders.sum) (k : ℕ) (hk : k ≤ ds.length)
    (hpos : ∀ d o p : ℕ, d < k → orders[d]? = some o → ds[d]? = some p → 1 ≤ o → 1 ≤ p) :
    ∃ q, loop k (fun d r => do
        let o ← rd orders d
        loop o (fun _ r => derivativeStep cfg r d) r) r = .ok q ∧
      loop k (fun d r => do
        let o ← rd orders d
        loop o (fun _ r => derivativeStep64 cfg r d) r) r = .ok q ∧
      HasRShape (ds.map (· * 2 ^ (orders.take k).sum)) q := by
  induction k with
  | zero => exact ⟨r, rfl, rfl, by simpa using h⟩
  | succ k ih =>
    obtain ⟨q, e1, e2, s⟩ := ih (by omega) (fun d o p hd => hpos d o p (by omega))
    have ho : orders[k]? = some orders[k] := List.getElem?_eq_getElem (by omega)
    have hp : ds[k]? = some ds[k] := List.getElem?_eq_getElem (by omega)
    have hsum : (orders.take (k + 1)).sum = (orders.take k).sum + orders[k] := by
      rw [List.take_succ_eq_append_getElem (by omega), List.sum_append]; simp
    have hle : (orders.take (k + 1)).sum ≤ orders.sum := by
      conv_rhs => rw [← List.take_append_drop (k + 1) orders, List.sum_append]
      omega
    have key : ∀ o, o ≤ orders[k] → ∃ q', loop o (fun _ r => derivativeStep cfg r k) q = .ok q' ∧
        loop o (fun _ r => derivativeStep64 cfg r k) q = .ok q' ∧ HasRShape (ds.map (· * 2 ^ ((orders.take k).sum + o))) q' := by
      intro o
      induction o with
      | zero => intro _; exact ⟨q, rfl, rfl, s⟩
      | succ o io =>
        intro hoo
        obtain ⟨q', f1, f2, t⟩ := io (by omega)
        have hp1 := hpos k _ _ (by omega) ho hp (by omega)
        obtain ⟨q'', g1, g2, u⟩ := derivativeStep64_eq hc t (e := k) (p := ds[k] * 2 ^ ((orders.take k).sum + o)) (by simp [hp])
          (Nat.mul_pos hp1 (by positivity)) (DerivFits.le hf (by omega))
        refine ⟨q'', by rw [loop_succ, f1, bind_ok, g1], by rw [loop_succ, f2, bind_ok, g2], ?_⟩
        rw [List.map_map] at u
        convert u using 2
        funext x
        simp only [Function.comp]
        ring
    obtain ⟨q', f1, f2, t⟩ := key _ le_rfl
    refine ⟨q', ?_, ?_, by rw [hsum]; exact t⟩
    · rw [loop_succ, e1, bind_ok, rd_ok ho, bind_ok, f1]
    · rw [loop_succ, e2, bind_ok, rd_ok ho, bind_ok, f2]

end RSpline
end Bezman
