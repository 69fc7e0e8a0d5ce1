import Verif.Proofs.Nets
import Verif.Spec.ProductFormula

/-! # Control points of products, in any arithmetic -/

namespace Bezman
open Spec

namespace Spline
/-- spline `R` with the control point at flat position `f` replaced -/
def put {U : Type} (R : Spline U) (f : ℕ) (x : U) : Spline U := { R with cps := R.cps.set f x }

theorem put_self {U : Type} [Zero U] {R : Spline U} (hR : R.WF) {f : ℕ} (hf : f < size R.degrees) : put R f (R.cps.getD f 0) = R := by
  have hf' : f < R.cps.length := by rw [hR.cps_len]; exact hf
  cases R
  simp only [put, mk.injEq, true_and] at *
  apply List.ext_getElem?
  intro i
  by_cases hi : i = f
  · subst hi; rw [List.getElem?_set_self hf']; simp [hf']
  · rw [List.getElem?_set_ne (by omega)]

theorem put_put {U : Type} (R : Spline U) (f : ℕ) (x y : U) : put (put R f x) f y = put R f y := by simp [put]

theorem cp_put {U : Type} [Zero U] {R : Spline U} (hR : R.WF) {f : ℕ} (hf : f < size R.degrees) (y : U) : (put R f y).cps.getD f 0 = y := by
  have hf' : f < R.cps.length := by rw [hR.cps_len]; exact hf
  simp [put, hf']

theorem put_WF {U : Type} {R : Spline U} (hR : R.WF) (f : ℕ) (x : U) : (put R f x).WF :=
  ⟨hR.dim_pos, hR.ncp_eq, hR.offsets_eq, by simp [put, hR.cps_len]⟩

variable {K V W U : Type} [One K] [Mul K] [Div K] [NatCast K] [Zero V] [Zero W] [Zero U] [Add U] [SMul K U]

theorem combineForProduct_net {cfg : Cfg} (hc : cfg.Ok) {mul : V → W → U} {P : Spline V} {Q : Spline W}
    {ks : List ℕ} (hP : P.WF) (hQ : Q.WF) (hdim : Q.dim = P.dim)
    (hdeg : DegOk cfg (List.zipWith (· + ·) P.degrees Q.degrees))
    (hks : ValidIdx (List.zipWith (· + ·) P.degrees Q.degrees) ks) (rem : ℕ) (factor : K)
    (indices : List ℕ) (R : Spline U) (hR : R.WF)
    (hRd : R.degrees = List.zipWith (· + ·) P.degrees Q.degrees)
    (hrem : indices.length + rem + 1 = P.dim)
    (hind : ∀ d i k m n : ℕ, indices[d]? = some i → ks[d]? = some k → P.degrees[d]? = some m →
      Q.degrees[d]? = some n → i ≤ m ∧ i ≤ k ∧ k - i ≤ n) :
    combineForProduct cfg mul P Q ks rem factor indices R
      = .ok (put R (flatIndex R.degrees ks) (productNet mul (P.degrees.drop indices.length)
          (Q.degrees.drop indices.length) (ks.drop indices.length) factor
          (fun is => P.cp (indices ++ is))
          (fun js => Q.cp (List.zipWith (· - ·) (ks.take indices.length) indices ++ js))
          (R.cps.getD (flatIndex R.degrees ks) 0))) := by
  have hksl : ks.length = P.dim := by
    have := hks.length
    rw [this]; unfold dim at *; simp [hdim]
  have hsumlen : (List.zipWith (· + ·) P.degrees Q.degrees).length = P.dim := by
    unfold dim at *; simp [hdim]
  have hfl : flatIndex R.degrees ks < size R.degrees := by rw [hRd]; exact flatIndex_lt hks
  induction rem generalizing factor indices R with
  | zero =>
    set dp := indices.length with hdp
    have h1 : dp < P.degrees.length := by unfold dim at *; omega
    have h2 : dp < Q.degrees.length := by unfold dim at *; omega
    have h3 : dp < ks.length := by omega
    have eP := List.getElem?_eq_getElem h1
    have eQ := List.getElem?_eq_getElem h2
    have eK := List.getElem?_eq_getElem h3
    set m := P.degrees[dp] with hm
    set n := Q.degrees[dp] with hn
    set k := ks[dp] with hk
    have dP : P.degrees.drop dp = [m] := by
      rw [List.drop_eq_getElem_cons h1, List.drop_of_length_le (by unfold dim at *; omega)]
    have dQ : Q.degrees.drop dp = [n] := by
      rw [List.drop_eq_getElem_cons h2, List.drop_of_length_le (by unfold dim at *; omega)]
    have dK : ks.drop dp = [k] := by
      rw [List.drop_eq_getElem_cons h3, List.drop_of_length_le (by omega)]
    have eS : (List.zipWith (· + ·) P.degrees Q.degrees)[dp]? = some (m + n) := by
      simp [List.getElem?_zipWith, eP, eQ]
    have hmn : m + n < cfg.maxBinom := hdeg _ (List.mem_of_getElem? eS)
    have hkmn : k ≤ m + n := (validIdx_iff.mp hks).2 dp k (m + n) eK eS
    rw [combineForProduct, ← hdp, rd_ok eP, rd_ok eQ, rd_ok eK]
    simp only [bind_ok]
    rw [dP, dQ, dK, productNet]
    set term : ℕ → U → U := fun i x => x + productCoef K m n k i • (factor • mul (P.cp (indices ++ [i]))
      (Q.cp (List.zipWith (· - ·) (ks.take dp) indices ++ [k - i]))) with hterm
    obtain ⟨R', r1, r2⟩ := loopFrom_inv (a := k - n) (b := min k m + 1) (s := R)
      (f := fun i R => do
        let c1 ← choose cfg m i
        let c2 ← choose cfg n (k - i)
        let c3 ← choose cfg (m + n) k
        let lFactor : K := ((mul64 c1 c2 : Nat) : K) / ((c3 : Nat) : K)
        let ind_lhs := indices ++ [i]
        let ind_rhs ← loop P.dim (fun j r => do
          let a ← rd ks j
          let b ← rd ind_lhs j
          wr r j (a - b)) (List.replicate P.dim 0)
        let x ← R.controlPoint ks
        let a ← P.controlPoint ind_lhs
        let b ← Q.controlPoint ind_rhs
        R.setControlPoint ks (x + lFactor • (factor • mul a b)))
      (P := fun i R' => R' = put R (flatIndex R.degrees ks) (repeatFrom (k - n) term (R.cps.getD (flatIndex R.degrees ks) 0) (i - (k - n))))
      (by omega) (by rw [Nat.sub_self]; exact (put_self hR hfl).symm)
      (by
        rintro i hi1 hi2 R' rfl
        have him : i ≤ m := by omega
        have hik : i ≤ k := by omega
        have hkin : k - i ≤ n := by omega
        rw [choose_ok hc (by omega) him, choose_ok hc (by omega) hkin, choose_ok hc hmn hkmn]
        simp only [bind_ok]
        rw [mul64_choose hc hmn hik]
        have hRl : (put R (flatIndex R.degrees ks) (repeatFrom (k - n) term (R.cps.getD (flatIndex R.degrees ks) 0) (i - (k - n)))).WF := put_WF hR _ _
        set lhs := indices ++ [i] with hlhs
        have hlhsl : lhs.length = P.dim := by simp [hlhs]; omega
        have hloop : loop P.dim (fun j r => do
            let a ← rd ks j
            let b ← rd lhs j
            wr r j (a - b)) (List.replicate P.dim 0) = .ok (List.zipWith (· - ·) ks lhs) := by
          obtain ⟨r, w1, w2, w3⟩ := loop_inv (n := P.dim) (s := List.replicate P.dim 0)
            (f := fun j r => do
              let a ← rd ks j
              let b ← rd lhs j
              wr r j (a - b))
            (P := fun j r => r.length = P.dim ∧ ∀ d, d < j → r[d]? = (List.zipWith (· - ·) ks lhs)[d]?)
            ⟨by simp, fun d hd => by omega⟩
            (by
              rintro j hj r ⟨hr1, hr2⟩
              have a1 := List.getElem?_eq_getElem (show j < ks.length by omega)
              have a2 := List.getElem?_eq_getElem (show j < lhs.length by omega)
              rw [rd_ok a1, rd_ok a2]
              simp only [bind_ok]
              refine ⟨_, wr_ok _ (by omega), by simp [hr1], ?_⟩
              intro d hd
              by_cases hdj : d = j
              · subst hdj
                rw [List.getElem?_set_self (by omega), List.getElem?_zipWith, a1, a2]
              · rw [List.getElem?_set_ne (by omega)]; exact hr2 d (by omega))
          rw [w1]
          congr 1
          apply List.ext_getElem?
          intro d
          by_cases hd : d < P.dim
          · exact w3 d hd
          · rw [List.getElem?_eq_none (by omega), List.getElem?_eq_none (by simp; omega)]
        rw [hloop]
        simp only [bind_ok]
        have hvk : ValidIdx (put R (flatIndex R.degrees ks) (repeatFrom (k - n) term (R.cps.getD (flatIndex R.degrees ks) 0) (i - (k - n)))).degrees ks := by
          show ValidIdx R.degrees ks; rw [hRd]; exact hks
        have lhsAt : ∀ d j : ℕ, lhs[d]? = some j → (d < dp ∧ indices[d]? = some j) ∨ (d = dp ∧ j = i) := by
          intro d j hj
          by_cases hd : d < dp
          · left; rw [hlhs, List.getElem?_append_left hd] at hj; exact ⟨hd, hj⟩
          · right
            rw [hlhs, List.getElem?_append_right (by omega)] at hj
            rw [← hdp] at hj
            have : d - dp = 0 := by
              by_contra hne
              rw [List.getElem?_eq_none (by simp; omega)] at hj
              simp at hj
            rw [this] at hj; simp at hj; omega
        have hvl : ValidIdx P.degrees lhs := by
          rw [validIdx_iff]
          refine ⟨hlhsl, ?_⟩
          intro d j q hj hq
          have hd2 : d < Q.degrees.length := by
            have := (List.getElem?_eq_some_iff.mp hq).1; unfold dim at *; omega
          have hd3 : d < ks.length := by
            have := (List.getElem?_eq_some_iff.mp hq).1; unfold dim at *; omega
          rcases lhsAt d j hj with ⟨hd, hj'⟩ | ⟨rfl, rfl⟩
          · exact (hind d j _ q _ hj' (List.getElem?_eq_getElem hd3) hq (List.getElem?_eq_getElem hd2)).1
          · rw [eP] at hq; simp at hq; omega
        have hvr : ValidIdx Q.degrees (List.zipWith (· - ·) ks lhs) := by
          rw [validIdx_iff]
          refine ⟨by simp [hksl, hlhsl]; exact hdim.symm, ?_⟩
          intro d j q hj hq
          have hd1 : d < P.degrees.length := by
            have := (List.getElem?_eq_some_iff.mp hq).1; unfold dim at *; omega
          have hd3 : d < ks.length := by unfold dim at *; omega
          have hd4 : d < lhs.length := by unfold dim at *; omega
          have g1 := List.getElem?_eq_getElem hd3
          have g2 := List.getElem?_eq_getElem hd4
          rw [List.getElem?_zipWith, g1, g2] at hj
          simp at hj
          rcases lhsAt d _ g2 with ⟨hd, hj'⟩ | ⟨hd, hj'⟩
          · have := (hind d _ _ _ q hj' g1 (List.getElem?_eq_getElem hd1) hq).2.2
            omega
          · subst hd
            rw [eQ] at hq; simp at hq
            rw [hj'] at hj
            omega
        rw [controlPoint_cp hRl hvk, controlPoint_cp hP hvl, controlPoint_cp hQ hvr]
        simp only [bind_ok]
        refine ⟨_, setControlPoint_ok hRl hvk _, ?_⟩
        have hz : List.zipWith (· - ·) ks lhs
            = List.zipWith (· - ·) (ks.take dp) indices ++ [k - i] := by
          conv_lhs => rw [← List.take_append_drop dp ks, dK, hlhs]
          rw [List.zipWith_append (by simp [hdp] at *; omega)]
          rfl
        rw [hz, show i + 1 - (k - n) = (i - (k - n)) + 1 by omega, repeatFrom, show k - n + (i - (k - n)) = i by omega]
        rw [show ∀ y, cp (put R (flatIndex R.degrees ks) y) ks = y from fun y => cp_put hR hfl y]
        exact put_put _ _ _ _)
    rw [r1, r2]
  | succ rem ih =>
    set dp := indices.length with hdp
    have h1 : dp < P.degrees.length := by unfold dim at *; omega
    have h2 : dp < Q.degrees.length := by unfold dim at *; omega
    have h3 : dp < ks.length := by omega
    have eP := List.getElem?_eq_getElem h1
    have eQ := List.getElem?_eq_getElem h2
    have eK := List.getElem?_eq_getElem h3
    set m := P.degrees[dp] with hm
    set n := Q.degrees[dp] with hn
    set k := ks[dp] with hk
    have dP : P.degrees.drop dp = m :: P.degrees.drop (dp + 1) := List.drop_eq_getElem_cons h1
    have dQ : Q.degrees.drop dp = n :: Q.degrees.drop (dp + 1) := List.drop_eq_getElem_cons h2
    have dK : ks.drop dp = k :: ks.drop (dp + 1) := List.drop_eq_getElem_cons h3
    have eS : (List.zipWith (· + ·) P.degrees Q.degrees)[dp]? = some (m + n) := by
      simp [List.getElem?_zipWith, eP, eQ]
    have hmn : m + n < cfg.maxBinom := hdeg _ (List.mem_of_getElem? eS)
    have hkmn : k ≤ m + n := (validIdx_iff.mp hks).2 dp k (m + n) eK eS
    rw [combineForProduct, ← hdp, rd_ok eP, rd_ok eQ, rd_ok eK]
    simp only [bind_ok]
    obtain ⟨m', ms', hms'⟩ : ∃ m' ms', P.degrees.drop (dp + 1) = m' :: ms' :=
      ⟨_, _, List.drop_eq_getElem_cons (by unfold dim at *; omega)⟩
    rw [dP, dQ, dK, hms', productNet]
    set term : ℕ → U → U := fun i x => productNet mul (m' :: ms')
      (Q.degrees.drop (dp + 1)) (ks.drop (dp + 1)) (factor * productCoef K m n k i)
      (fun is => P.cp (indices ++ i :: is))
      (fun js => Q.cp (List.zipWith (· - ·) (ks.take dp) indices ++ (k - i) :: js)) x with hterm
    obtain ⟨R', r1, r2⟩ := loopFrom_inv (a := k - n) (b := min k m + 1) (s := R)
      (f := fun i R => do
        let c1 ← choose cfg m i
        let c2 ← choose cfg n (k - i)
        let c3 ← choose cfg (m + n) k
        let lFactor : K := ((mul64 c1 c2 : Nat) : K) / ((c3 : Nat) : K)
        combineForProduct cfg mul P Q ks rem (factor * lFactor) (indices ++ [i]) R)
      (P := fun i R' => R' = put R (flatIndex R.degrees ks) (repeatFrom (k - n) term (R.cps.getD (flatIndex R.degrees ks) 0) (i - (k - n))))
      (by omega) (by rw [Nat.sub_self]; exact (put_self hR hfl).symm)
      (by
        rintro i hi1 hi2 R' rfl
        have him : i ≤ m := by omega
        have hik : i ≤ k := by omega
        have hkin : k - i ≤ n := by omega
        rw [choose_ok hc (by omega) him, choose_ok hc (by omega) hkin, choose_ok hc hmn hkmn]
        simp only [bind_ok]
        rw [mul64_choose hc hmn hik]
        rw [ih _ (indices ++ [i]) _ (put_WF hR _ _) hRd (by simp; omega)
          (by
            intro d j k' m' n' hj hk' hm' hn'
            by_cases hd : d < dp
            · rw [List.getElem?_append_left hd] at hj
              exact hind d j k' m' n' hj hk' hm' hn'
            · rw [List.getElem?_append_right (by omega), ← hdp] at hj
              have : d - dp = 0 := by
                by_contra hne
                rw [List.getElem?_eq_none (by simp; omega)] at hj
                simp at hj
              have hd' : d = dp := by omega
              rw [this] at hj; simp at hj
              subst hd'
              rw [eP] at hm'; rw [eQ] at hn'; rw [eK] at hk'
              simp at hm' hn' hk'; omega) hfl]
        refine ⟨_, rfl, ?_⟩
        have hl1 : (indices ++ [i]).length = dp + 1 := by simp [hdp]
        have hz : List.zipWith (· - ·) (ks.take (dp + 1)) (indices ++ [i])
            = List.zipWith (· - ·) (ks.take dp) indices ++ [k - i] := by
          rw [List.take_succ_eq_append_getElem h3, List.zipWith_append (by simp [hdp] at *; omega)]
          rfl
        rw [hl1, hz, show i + 1 - (k - n) = (i - (k - n)) + 1 by omega, repeatFrom, show k - n + (i - (k - n)) = i by omega, hms']
        simp only [show ∀ y, (put R (flatIndex R.degrees ks) y).degrees = R.degrees from fun _ => rfl]
        rw [show ∀ y, (put R (flatIndex R.degrees ks) y).cps.getD (flatIndex R.degrees ks) 0 = y from fun y => cp_put hR hfl y]
        rw [put_put]
        simp only [hterm, productCoef, List.append_assoc, List.singleton_append])
    rw [r1, r2]

theorem mulOp_net {cfg : Cfg} (hc : cfg.Ok) {mul : V → W → U} {s : Spline V} {rhs : Spline W} (hs : s.WF) (hr : rhs.WF)
    (hdim : rhs.dim = s.dim)
    (hdeg : DegOk cfg (List.zipWith (· + ·) s.degrees rhs.degrees)) :
    ∃ r, mulOp K cfg mul s rhs = .ok r ∧ r.WF ∧ r.degrees = List.zipWith (· + ·) s.degrees rhs.degrees ∧
      ∀ ks, ValidIdx r.degrees ks → r.cp ks = productNet mul s.degrees rhs.degrees ks (1 : K) s.cp rhs.cp 0 := by
  set ds := List.zipWith (· + ·) s.degrees rhs.degrees with hds
  have hdsl : ds.length = s.dim := by unfold dim at *; simp [hds, hdim]
  unfold mulOp
  have hloop : loop s.dim (fun d l => do
      let p ← rd s.degrees d
      let q ← rd rhs.degrees d
      wr l d (p + q)) (List.replicate s.dim 0) = .ok ds := by
    obtain ⟨r, w1, w2, w3⟩ := loop_inv (n := s.dim) (s := List.replicate s.dim 0)
      (f := fun d l => do
        let p ← rd s.degrees d
        let q ← rd rhs.degrees d
        wr l d (p + q))
      (P := fun j r => r.length = s.dim ∧ ∀ d, d < j → r[d]? = ds[d]?)
      ⟨by simp, fun d hd => by omega⟩
      (by
        rintro j hj r ⟨hr1, hr2⟩
        have a1 := List.getElem?_eq_getElem (show j < s.degrees.length from hj)
        have a2 := List.getElem?_eq_getElem (show j < rhs.degrees.length by unfold dim at *; omega)
        rw [rd_ok a1, rd_ok a2]
        simp only [bind_ok]
        refine ⟨_, wr_ok _ (by omega), by simp [hr1], ?_⟩
        intro d hd
        by_cases hdj : d = j
        · subst hdj
          rw [List.getElem?_set_self (by omega), hds, List.getElem?_zipWith, a1, a2]
        · rw [List.getElem?_set_ne (by omega)]; exact hr2 d (by omega))
    rw [w1]
    congr 1
    apply List.ext_getElem?
    intro d
    by_cases hd : d < s.dim
    · exact w3 d hd
    · rw [List.getElem?_eq_none (by omega), List.getElem?_eq_none (by omega)]
  rw [hloop]
  simp only [bind_ok]
  have hpos : 0 < s.dim := hs.dim_pos
  obtain ⟨r0, e1, e2, e3, e4⟩ := ofDegrees_ok (V := U) (ps := ds) (by omega)
  rw [e1]
  simp only [bind_ok]
  set F : ℕ → U := fun i => productNet mul s.degrees rhs.degrees (unflat ds i) (1 : K) s.cp rhs.cp 0 with hF
  obtain ⟨r, r1, r2, r3, r4⟩ := loop_inv (n := r0.ncp) (s := r0)
    (f := fun i R => do
      let idx ← R.localToGlobal i
      combineForProduct cfg mul s rhs idx (s.dim - 1) (1 : K) [] R)
    (P := fun k R => R.WF ∧ R.degrees = ds ∧
      R.cps = tab (size ds) (fun i => if i < k then F i else 0))
    ⟨e2, e3, by rw [e4]; apply tab_congr; intro i _; simp⟩
    (by
      rintro k hk R ⟨hR1, hR2, hR3⟩
      have hk' : k < size ds := by rw [e2.ncp_eq, e3] at hk; exact hk
      rw [localToGlobal_ok hR1]
      simp only [bind_ok]
      rw [combineForProduct_net hc hs hr hdim hdeg (by rw [hR2]; exact unflat_valid _ _) (s.dim - 1) 1 []
        R hR1 hR2 (by simp; omega) (by intro d i k m n h; simp at h)]
      refine ⟨_, rfl, put_WF hR1 _ _, hR2, ?_⟩
      rw [hR2, flatIndex_unflat hk']
      show R.cps.set _ _ = _
      rw [hR3, set_tab]
      apply tab_congr; intro i hi
      by_cases hik : i = k
      · subst hik
        rw [Function.update_self, if_pos (by omega), List.getD_eq_getElem?_getD, tab_getElem? _ hi]
        simp [hF]
      · rw [Function.update_of_ne hik]
        by_cases h : i < k
        · rw [if_pos h, if_pos (by omega)]
        · rw [if_neg h, if_neg (by omega)])
  rw [r1]
  refine ⟨r, rfl, r2, r3, ?_⟩
  intro ks hks
  have hcps : r.cps = tab (size r.degrees) F := by
    rw [r4, r3]
    apply tab_congr; intro i hi
    rw [if_pos]
    rw [e2.ncp_eq, e3]; exact hi
  rw [cp_tab hcps hks, hF]
  simp only
  rw [r3, unflat_flatIndex (by rw [← r3]; exact hks)]

end Spline
end Bezman
