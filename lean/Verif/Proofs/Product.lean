import Verif.Proofs.Arith
import Verif.Proofs.Basis
import Mathlib.Algebra.Module.LinearMap.Basic
import Mathlib.Algebra.Module.Submodule.Bilinear

/-! Product of splines. -/

namespace Bezman
open Spec Finset

section identity
variable {K V W U : Type} [Field K] [AddCommGroup V] [Module K V] [AddCommGroup W] [Module K W]
  [AddCommGroup U] [Module K U]

/-- `C(m,i) C(n,k-i) / C(m+n,k)` -/
def coef (K : Type) [Field K] (m n k i : ℕ) : K :=
  ((m.choose i * n.choose (k - i) : ℕ) : K) / (((m + n).choose k : ℕ) : K)

/-- Control points of the product. -/
def prodNet (K : Type) {V W U : Type} [Field K] [AddCommGroup U] [Module K U] (mul : V → W → U) :
    List ℕ → List ℕ → List ℕ → (List ℕ → V) → (List ℕ → W) → U
  | m :: ms, n :: ns, k :: ks, P, Q =>
    ∑ i ∈ Ico (k - n) (min k m + 1),
      coef K m n k i • prodNet K mul ms ns ks (fun is => P (i :: is)) (fun js => Q ((k - i) :: js))
  | _, _, _, P, Q => mul (P []) (Q [])

variable [CharZero K]

theorem bern_coef {m n k i : ℕ} (h1 : i ≤ m) (h2 : k - i ≤ n) (h3 : i ≤ k) (t : K) :
    bern (m + n) k t * coef K m n k i = bern m i t * bern n (k - i) t := by
  have hne : (((m + n).choose k : ℕ) : K) ≠ 0 := by
    have := Nat.choose_pos (show k ≤ m + n by omega)
    exact_mod_cast this.ne'
  unfold bern coef
  have e1 : t ^ k = t ^ i * t ^ (k - i) := by rw [← pow_add]; congr 1; omega
  have e2 : (1 - t) ^ (m + n - k) = (1 - t) ^ (m - i) * (1 - t) ^ (n - (k - i)) := by
    rw [← pow_add]; congr 1; omega
  rw [e1, e2]
  push_cast
  field_simp

theorem sum_antidiag {M : Type} [AddCommMonoid M] (m n : ℕ) (g : ℕ → ℕ → M) :
    ∑ k ∈ range (m + n + 1), ∑ i ∈ Ico (k - n) (min k m + 1), g i (k - i)
      = ∑ i ∈ range (m + 1), ∑ j ∈ range (n + 1), g i j := by
  rw [sum_comm' (s := range (m + n + 1)) (t := fun k => Ico (k - n) (min k m + 1))
    (t' := range (m + 1)) (s' := fun i => Ico i (i + n + 1))]
  · apply sum_congr rfl
    intro i _
    rw [sum_Ico_eq_sum_range]
    rw [show i + n + 1 - i = n + 1 by omega]
    apply sum_congr rfl
    intro j _
    congr 1; omega
  · intro k i
    simp only [mem_range, mem_Ico]
    omega

theorem prodNet_value (B : V →ₗ[K] W →ₗ[K] U) {ms ns : List ℕ} (hl : ns.length = ms.length)
    {ts : List K} (ht : ts.length = ms.length) (P : List ℕ → V) (Q : List ℕ → W) :
    bezier (List.zipWith (· + ·) ms ns) ts (fun ks => prodNet K (fun a b => B a b) ms ns ks P Q)
      = B (bezier ms ts P) (bezier ns ts Q) := by
  induction ms generalizing ns ts P Q with
  | nil => simp at hl; subst hl; simp [prodNet]
  | cons m ms ih =>
    cases ns with
    | nil => simp at hl
    | cons n ns =>
      cases ts with
      | nil => simp at ht
      | cons t ts =>
        simp at hl ht
        rw [List.zipWith_cons_cons, bezier_cons, bezier_cons, bezier_cons]
        simp only [prodNet, bezier_sum, bezier_smul, ih hl ht, smul_sum, map_sum, map_smul,
          LinearMap.sum_apply, LinearMap.smul_apply, smul_smul]
        conv_rhs => rw [sum_comm]
        have := sum_antidiag m n (fun i j => (bern n j t * bern m i t) •
          B (bezier ms ts (fun idx => P (i :: idx))) (bezier ns ts (fun idx => Q (j :: idx))))
        rw [← this]
        apply sum_congr rfl; intro k hk
        apply sum_congr rfl; intro i hi
        simp only [mem_Ico] at hi
        rw [bern_coef (by omega) (by omega) (by omega), mul_comm (bern m i t)]

end identity

namespace Spline
variable {K V W U : Type} [Field K] [CharZero K] [AddCommGroup V] [Module K V] [AddCommGroup W] [Module K W]
  [AddCommGroup U] [Module K U]

/-- control net as a function of the multi-index -/
def net (s : Spline V) (idx : List ℕ) : V := s.cps.getD (flatIndex s.degrees idx) 0

omit [Module K V] [CharZero K] [Field K] in
theorem controlPoint_ok {s : Spline V} (h : s.WF) {idx : List ℕ} (hv : ValidIdx s.degrees idx) :
    s.controlPoint idx = .ok (s.net idx) := by
  unfold controlPoint
  rw [globalToLocal_ok h hv.length]
  simp only [bind_ok]
  have := flatIndex_lt hv
  rw [rd_getElem (by rw [h.cps_len]; exact this), net, List.getD_eq_getElem?_getD, List.getElem?_eq_getElem]
  rfl

omit [AddCommGroup V] in
theorem setControlPoint_ok {s : Spline V} (h : s.WF) {idx : List ℕ} (hv : ValidIdx s.degrees idx) (x : V) :
    s.setControlPoint idx x = .ok { s with cps := s.cps.set (flatIndex s.degrees idx) x } := by
  unfold setControlPoint
  rw [globalToLocal_ok h hv.length]
  simp only [bind_ok]
  have := flatIndex_lt hv
  rw [wr_ok _ (by rw [h.cps_len]; exact this)]
  rfl

omit [AddCommGroup V] in
theorem WF.set {s : Spline V} (h : s.WF) (i : ℕ) (x : V) : WF { s with cps := s.cps.set i x } :=
  ⟨h.dim_pos, h.ncp_eq, h.offsets_eq, by simp [h.cps_len]⟩

theorem validIdx_iff {ps idx : List ℕ} : ValidIdx ps idx ↔
    idx.length = ps.length ∧ ∀ d i p : ℕ, idx[d]? = some i → ps[d]? = some p → i ≤ p := by
  induction ps generalizing idx with
  | nil => simp
  | cons p ps ih =>
    cases idx with
    | nil => simp [ValidIdx]
    | cons i is =>
      rw [validIdx_cons, ih]
      constructor
      · rintro ⟨h1, h2, h3⟩
        refine ⟨by simp [h2], ?_⟩
        intro d j q hj hq
        cases d with
        | zero => simp at hj hq; omega
        | succ d => exact h3 d j q (by simpa using hj) (by simpa using hq)
      · rintro ⟨h1, h2⟩
        exact ⟨h2 0 i p rfl rfl, by simpa using h1,
          fun d j q hj hq => h2 (d + 1) j q (by simpa using hj) (by simpa using hq)⟩

/-- spline `R` with `x` added to the control point at flat position `f` -/
def bump (R : Spline U) (f : ℕ) (x : U) : Spline U :=
  { R with cps := R.cps.set f (R.cps.getD f 0 + x) }

omit [Module K U] [Field K] [CharZero K] in
theorem bump_zero {R : Spline U} (hR : R.WF) {f : ℕ} (hf : f < size R.degrees) : bump R f 0 = R := by
  have hf' : f < R.cps.length := by rw [hR.cps_len]; exact hf
  cases R
  simp only [bump, add_zero, mk.injEq, true_and] at *
  apply List.ext_getElem?
  intro i
  by_cases hi : i = f
  · subst hi; rw [List.getElem?_set_self hf']; simp [hf']
  · rw [List.getElem?_set_ne (by omega)]

omit [Module K U] [Field K] [CharZero K] in
theorem bump_bump {R : Spline U} (hR : R.WF) {f : ℕ} (hf : f < size R.degrees) (x y : U) :
    bump (bump R f x) f y = bump R f (x + y) := by
  have hf' : f < R.cps.length := by rw [hR.cps_len]; exact hf
  simp [bump, hf', add_assoc]

omit [Module K U] [Field K] [CharZero K] in
theorem bump_WF {R : Spline U} (hR : R.WF) (f : ℕ) (x : U) : (bump R f x).WF := hR.set _ _

theorem combineForProduct_ok {cfg : Cfg} (hc : cfg.Ok) {mul : V → W → U} {P : Spline V} {Q : Spline W}
    {ks : List ℕ} (hP : P.WF) (hQ : Q.WF) (hdim : Q.dim = P.dim)
    (hdeg : DegOk cfg (List.zipWith (· + ·) P.degrees Q.degrees))
    (hks : ValidIdx (List.zipWith (· + ·) P.degrees Q.degrees) ks) (rem : ℕ) (factor : K)
    (indices : List ℕ) (R : Spline U) (hR : R.WF)
    (hRd : R.degrees = List.zipWith (· + ·) P.degrees Q.degrees)
    (hrem : indices.length + rem + 1 = P.dim)
    (hind : ∀ d i k m n : ℕ, indices[d]? = some i → ks[d]? = some k → P.degrees[d]? = some m →
      Q.degrees[d]? = some n → i ≤ m ∧ i ≤ k ∧ k - i ≤ n) :
    combineForProduct cfg mul P Q ks rem factor indices R
      = .ok (bump R (flatIndex R.degrees ks) (factor • prodNet K mul (P.degrees.drop indices.length)
          (Q.degrees.drop indices.length) (ks.drop indices.length)
          (fun is => P.net (indices ++ is))
          (fun js => Q.net (List.zipWith (· - ·) (ks.take indices.length) indices ++ js)))) := by
  have hksl : ks.length = P.dim := by
    have := hks.length
    rw [this]; unfold dim at *; simp [hdim]
  have hsumlen : (List.zipWith (· + ·) P.degrees Q.degrees).length = P.dim := by
    unfold dim at *; simp [hdim]
  have hfl : flatIndex R.degrees ks < size R.degrees := by rw [hRd]; exact flatIndex_lt hks
  induction rem generalizing factor indices R with
  | zero =>
    set dp := indices.length with hdp
    have h1 : dp < P.degrees.length := by unfold dim at *; omega
    have h2 : dp < Q.degrees.length := by unfold dim at *; omega
    have h3 : dp < ks.length := by omega
    have eP := List.getElem?_eq_getElem h1
    have eQ := List.getElem?_eq_getElem h2
    have eK := List.getElem?_eq_getElem h3
    set m := P.degrees[dp] with hm
    set n := Q.degrees[dp] with hn
    set k := ks[dp] with hk
    have dP : P.degrees.drop dp = [m] := by
      rw [List.drop_eq_getElem_cons h1, List.drop_of_length_le (by unfold dim at *; omega)]
    have dQ : Q.degrees.drop dp = [n] := by
      rw [List.drop_eq_getElem_cons h2, List.drop_of_length_le (by unfold dim at *; omega)]
    have dK : ks.drop dp = [k] := by
      rw [List.drop_eq_getElem_cons h3, List.drop_of_length_le (by omega)]
    have eS : (List.zipWith (· + ·) P.degrees Q.degrees)[dp]? = some (m + n) := by
      simp [List.getElem?_zipWith, eP, eQ]
    have hmn : m + n < cfg.maxBinom := hdeg _ (List.mem_of_getElem? eS)
    have hkmn : k ≤ m + n := (validIdx_iff.mp hks).2 dp k (m + n) eK eS
    rw [combineForProduct, ← hdp, rd_ok eP, rd_ok eQ, rd_ok eK]
    simp only [bind_ok]
    rw [dP, dQ, dK, prodNet, smul_sum]
    set term : ℕ → U := fun i => factor • coef K m n k i • prodNet K mul [] [] []
      (fun is => P.net (indices ++ i :: is))
      (fun js => Q.net (List.zipWith (· - ·) (ks.take dp) indices ++ (k - i) :: js)) with hterm
    obtain ⟨R', r1, r2⟩ := loopFrom_inv (a := k - n) (b := min k m + 1) (s := R)
      (f := fun i R => do
        let c1 ← choose cfg m i
        let c2 ← choose cfg n (k - i)
        let c3 ← choose cfg (m + n) k
        let lFactor : K := ((mul64 c1 c2 : Nat) : K) / ((c3 : Nat) : K)
        let ind_lhs := indices ++ [i]
        let ind_rhs ← loop P.dim (fun j r => do
          let a ← rd ks j
          let b ← rd ind_lhs j
          wr r j (a - b)) (List.replicate P.dim 0)
        let x ← R.controlPoint ks
        let a ← P.controlPoint ind_lhs
        let b ← Q.controlPoint ind_rhs
        R.setControlPoint ks (x + lFactor • (factor • mul a b)))
      (P := fun i R' => R' = bump R (flatIndex R.degrees ks) (∑ l ∈ Ico (k - n) i, term l))
      (by omega) (by simp [bump_zero hR hfl])
      (by
        rintro i hi1 hi2 R' rfl
        have him : i ≤ m := by omega
        have hik : i ≤ k := by omega
        have hkin : k - i ≤ n := by omega
        rw [choose_ok hc (by omega) him, choose_ok hc (by omega) hkin, choose_ok hc hmn hkmn]
        simp only [bind_ok]
        rw [mul64_choose hc hmn hik]
        have hRl : (bump R (flatIndex R.degrees ks) (∑ l ∈ Ico (k - n) i, term l)).WF := bump_WF hR _ _
        set lhs := indices ++ [i] with hlhs
        have hlhsl : lhs.length = P.dim := by simp [hlhs]; omega
        have hloop : loop P.dim (fun j r => do
            let a ← rd ks j
            let b ← rd lhs j
            wr r j (a - b)) (List.replicate P.dim 0) = .ok (List.zipWith (· - ·) ks lhs) := by
          obtain ⟨r, w1, w2, w3⟩ := loop_inv (n := P.dim) (s := List.replicate P.dim 0)
            (f := fun j r => do
              let a ← rd ks j
              let b ← rd lhs j
              wr r j (a - b))
            (P := fun j r => r.length = P.dim ∧ ∀ d, d < j → r[d]? = (List.zipWith (· - ·) ks lhs)[d]?)
            ⟨by simp, fun d hd => by omega⟩
            (by
              rintro j hj r ⟨hr1, hr2⟩
              have a1 := List.getElem?_eq_getElem (show j < ks.length by omega)
              have a2 := List.getElem?_eq_getElem (show j < lhs.length by omega)
              rw [rd_ok a1, rd_ok a2]
              simp only [bind_ok]
              refine ⟨_, wr_ok _ (by omega), by simp [hr1], ?_⟩
              intro d hd
              by_cases hdj : d = j
              · subst hdj
                rw [List.getElem?_set_self (by omega), List.getElem?_zipWith, a1, a2]
              · rw [List.getElem?_set_ne (by omega)]; exact hr2 d (by omega))
          rw [w1]
          congr 1
          apply List.ext_getElem?
          intro d
          by_cases hd : d < P.dim
          · exact w3 d hd
          · rw [List.getElem?_eq_none (by omega), List.getElem?_eq_none (by simp; omega)]
        rw [hloop]
        simp only [bind_ok]
        have hvk : ValidIdx (bump R (flatIndex R.degrees ks) (∑ l ∈ Ico (k - n) i, term l)).degrees ks := by
          show ValidIdx R.degrees ks; rw [hRd]; exact hks
        have lhsAt : ∀ d j : ℕ, lhs[d]? = some j → (d < dp ∧ indices[d]? = some j) ∨ (d = dp ∧ j = i) := by
          intro d j hj
          by_cases hd : d < dp
          · left; rw [hlhs, List.getElem?_append_left hd] at hj; exact ⟨hd, hj⟩
          · right
            rw [hlhs, List.getElem?_append_right (by omega)] at hj
            rw [← hdp] at hj
            have : d - dp = 0 := by
              by_contra hne
              rw [List.getElem?_eq_none (by simp; omega)] at hj
              simp at hj
            rw [this] at hj; simp at hj; omega
        have hvl : ValidIdx P.degrees lhs := by
          rw [validIdx_iff]
          refine ⟨hlhsl, ?_⟩
          intro d j q hj hq
          have hd2 : d < Q.degrees.length := by
            have := (List.getElem?_eq_some_iff.mp hq).1; unfold dim at *; omega
          have hd3 : d < ks.length := by
            have := (List.getElem?_eq_some_iff.mp hq).1; unfold dim at *; omega
          rcases lhsAt d j hj with ⟨hd, hj'⟩ | ⟨rfl, rfl⟩
          · exact (hind d j _ q _ hj' (List.getElem?_eq_getElem hd3) hq (List.getElem?_eq_getElem hd2)).1
          · rw [eP] at hq; simp at hq; omega
        have hvr : ValidIdx Q.degrees (List.zipWith (· - ·) ks lhs) := by
          rw [validIdx_iff]
          refine ⟨by simp [hksl, hlhsl]; exact hdim.symm, ?_⟩
          intro d j q hj hq
          have hd1 : d < P.degrees.length := by
            have := (List.getElem?_eq_some_iff.mp hq).1; unfold dim at *; omega
          have hd3 : d < ks.length := by unfold dim at *; omega
          have hd4 : d < lhs.length := by unfold dim at *; omega
          have g1 := List.getElem?_eq_getElem hd3
          have g2 := List.getElem?_eq_getElem hd4
          rw [List.getElem?_zipWith, g1, g2] at hj
          simp at hj
          rcases lhsAt d _ g2 with ⟨hd, hj'⟩ | ⟨hd, hj'⟩
          · have := (hind d _ _ _ q hj' g1 (List.getElem?_eq_getElem hd1) hq).2.2
            omega
          · subst hd
            rw [eQ] at hq; simp at hq
            rw [hj'] at hj
            omega
        rw [controlPoint_ok hRl hvk, controlPoint_ok hP hvl, controlPoint_ok hQ hvr]
        simp only [bind_ok]
        refine ⟨_, setControlPoint_ok hRl hvk _, ?_⟩
        rw [sum_Ico_succ_top hi1, ← bump_bump hR hfl]
        have hz : List.zipWith (· - ·) ks lhs
            = List.zipWith (· - ·) (ks.take dp) indices ++ [k - i] := by
          conv_lhs => rw [← List.take_append_drop dp ks, dK, hlhs]
          rw [List.zipWith_append (by simp [hdp] at *; omega)]
          rfl
        rw [hz]
        simp only [hterm, prodNet, coef]
        rw [smul_comm factor]
        rfl)
    rw [r1, r2]
  | succ rem ih =>
    set dp := indices.length with hdp
    have h1 : dp < P.degrees.length := by unfold dim at *; omega
    have h2 : dp < Q.degrees.length := by unfold dim at *; omega
    have h3 : dp < ks.length := by omega
    have eP := List.getElem?_eq_getElem h1
    have eQ := List.getElem?_eq_getElem h2
    have eK := List.getElem?_eq_getElem h3
    set m := P.degrees[dp] with hm
    set n := Q.degrees[dp] with hn
    set k := ks[dp] with hk
    have dP : P.degrees.drop dp = m :: P.degrees.drop (dp + 1) := List.drop_eq_getElem_cons h1
    have dQ : Q.degrees.drop dp = n :: Q.degrees.drop (dp + 1) := List.drop_eq_getElem_cons h2
    have dK : ks.drop dp = k :: ks.drop (dp + 1) := List.drop_eq_getElem_cons h3
    have eS : (List.zipWith (· + ·) P.degrees Q.degrees)[dp]? = some (m + n) := by
      simp [List.getElem?_zipWith, eP, eQ]
    have hmn : m + n < cfg.maxBinom := hdeg _ (List.mem_of_getElem? eS)
    have hkmn : k ≤ m + n := (validIdx_iff.mp hks).2 dp k (m + n) eK eS
    rw [combineForProduct, ← hdp, rd_ok eP, rd_ok eQ, rd_ok eK]
    simp only [bind_ok]
    rw [dP, dQ, dK, prodNet, smul_sum]
    set term : ℕ → U := fun i => factor • coef K m n k i • prodNet K mul (P.degrees.drop (dp + 1))
      (Q.degrees.drop (dp + 1)) (ks.drop (dp + 1))
      (fun is => P.net (indices ++ i :: is))
      (fun js => Q.net (List.zipWith (· - ·) (ks.take dp) indices ++ (k - i) :: js)) with hterm
    obtain ⟨R', r1, r2⟩ := loopFrom_inv (a := k - n) (b := min k m + 1) (s := R)
      (f := fun i R => do
        let c1 ← choose cfg m i
        let c2 ← choose cfg n (k - i)
        let c3 ← choose cfg (m + n) k
        let lFactor : K := ((mul64 c1 c2 : Nat) : K) / ((c3 : Nat) : K)
        combineForProduct cfg mul P Q ks rem (factor * lFactor) (indices ++ [i]) R)
      (P := fun i R' => R' = bump R (flatIndex R.degrees ks) (∑ l ∈ Ico (k - n) i, term l))
      (by omega) (by simp [bump_zero hR hfl])
      (by
        rintro i hi1 hi2 R' rfl
        have him : i ≤ m := by omega
        have hik : i ≤ k := by omega
        have hkin : k - i ≤ n := by omega
        rw [choose_ok hc (by omega) him, choose_ok hc (by omega) hkin, choose_ok hc hmn hkmn]
        simp only [bind_ok]
        rw [mul64_choose hc hmn hik]
        rw [ih _ (indices ++ [i]) _ (bump_WF hR _ _) hRd (by simp; omega)
          (by
            intro d j k' m' n' hj hk' hm' hn'
            by_cases hd : d < dp
            · rw [List.getElem?_append_left hd] at hj
              exact hind d j k' m' n' hj hk' hm' hn'
            · rw [List.getElem?_append_right (by omega), ← hdp] at hj
              have : d - dp = 0 := by
                by_contra hne
                rw [List.getElem?_eq_none (by simp; omega)] at hj
                simp at hj
              have hd' : d = dp := by omega
              rw [this] at hj; simp at hj
              subst hd'
              rw [eP] at hm'; rw [eQ] at hn'; rw [eK] at hk'
              simp at hm' hn' hk'; omega) hfl]
        refine ⟨_, rfl, ?_⟩
        rw [sum_Ico_succ_top hi1, ← bump_bump hR hfl]
        congr 1
        have hl1 : (indices ++ [i]).length = dp + 1 := by simp [hdp]
        have hz : List.zipWith (· - ·) (ks.take (dp + 1)) (indices ++ [i])
            = List.zipWith (· - ·) (ks.take dp) indices ++ [k - i] := by
          rw [List.take_succ_eq_append_getElem h3, List.zipWith_append (by simp [hdp] at *; omega)]
          rfl
        rw [hl1, hz]
        simp only [hterm, coef, smul_smul, List.append_assoc, List.singleton_append])
    rw [r1, r2]

theorem mulOp_ok {cfg : Cfg} (hc : cfg.Ok) {mul : V → W → U} (B : V →ₗ[K] W →ₗ[K] U)
    (hB : ∀ a b, mul a b = B a b) {s : Spline V} {rhs : Spline W} (hs : s.WF) (hr : rhs.WF)
    (hdim : rhs.dim = s.dim)
    (hdeg : DegOk cfg (List.zipWith (· + ·) s.degrees rhs.degrees)) :
    ∃ r, mulOp K cfg mul s rhs = .ok r ∧ r.WF ∧ r.degrees = List.zipWith (· + ·) s.degrees rhs.degrees ∧
      ∀ t : List K, t.length = s.dim → r.value t = mul (s.value t) (rhs.value t) := by
  set ds := List.zipWith (· + ·) s.degrees rhs.degrees with hds
  have hdsl : ds.length = s.dim := by unfold dim at *; simp [hds, hdim]
  unfold mulOp
  have hloop : loop s.dim (fun d l => do
      let p ← rd s.degrees d
      let q ← rd rhs.degrees d
      wr l d (p + q)) (List.replicate s.dim 0) = .ok ds := by
    obtain ⟨r, w1, w2, w3⟩ := loop_inv (n := s.dim) (s := List.replicate s.dim 0)
      (f := fun d l => do
        let p ← rd s.degrees d
        let q ← rd rhs.degrees d
        wr l d (p + q))
      (P := fun j r => r.length = s.dim ∧ ∀ d, d < j → r[d]? = ds[d]?)
      ⟨by simp, fun d hd => by omega⟩
      (by
        rintro j hj r ⟨hr1, hr2⟩
        have a1 := List.getElem?_eq_getElem (show j < s.degrees.length from hj)
        have a2 := List.getElem?_eq_getElem (show j < rhs.degrees.length by unfold dim at *; omega)
        rw [rd_ok a1, rd_ok a2]
        simp only [bind_ok]
        refine ⟨_, wr_ok _ (by omega), by simp [hr1], ?_⟩
        intro d hd
        by_cases hdj : d = j
        · subst hdj
          rw [List.getElem?_set_self (by omega), hds, List.getElem?_zipWith, a1, a2]
        · rw [List.getElem?_set_ne (by omega)]; exact hr2 d (by omega))
    rw [w1]
    congr 1
    apply List.ext_getElem?
    intro d
    by_cases hd : d < s.dim
    · exact w3 d hd
    · rw [List.getElem?_eq_none (by omega), List.getElem?_eq_none (by omega)]
  rw [hloop]
  simp only [bind_ok]
  have hpos : 0 < s.dim := hs.dim_pos
  obtain ⟨r0, e1, e2, e3, e4⟩ := ofDegrees_ok (V := U) (ps := ds) (by omega)
  rw [e1]
  simp only [bind_ok]
  set F : ℕ → U := fun i => prodNet K mul s.degrees rhs.degrees (unflat ds i) s.net rhs.net with hF
  obtain ⟨r, r1, r2, r3, r4⟩ := loop_inv (n := r0.ncp) (s := r0)
    (f := fun i R => do
      let idx ← R.localToGlobal i
      combineForProduct cfg mul s rhs idx (s.dim - 1) (1 : K) [] R)
    (P := fun k R => R.WF ∧ R.degrees = ds ∧
      R.cps = tab (size ds) (fun i => if i < k then F i else 0))
    ⟨e2, e3, by rw [e4]; apply tab_congr; intro i _; simp⟩
    (by
      rintro k hk R ⟨hR1, hR2, hR3⟩
      have hk' : k < size ds := by rw [e2.ncp_eq, e3] at hk; exact hk
      rw [localToGlobal_ok hR1]
      simp only [bind_ok]
      rw [combineForProduct_ok hc hs hr hdim hdeg (by rw [hR2]; exact unflat_valid _ _) (s.dim - 1) 1 []
        R hR1 hR2 (by simp; omega) (by intro d i k m n h; simp at h)]
      refine ⟨_, rfl, bump_WF hR1 _ _, hR2, ?_⟩
      rw [hR2, flatIndex_unflat hk']
      show R.cps.set _ _ = _
      rw [hR3, set_tab]
      apply tab_congr; intro i hi
      by_cases hik : i = k
      · subst hik
        rw [Function.update_self, if_pos (by omega), List.getD_eq_getElem?_getD, tab_getElem? _ hi]
        simp [hF]
      · rw [Function.update_of_ne hik]
        by_cases h : i < k
        · rw [if_pos h, if_pos (by omega)]
        · rw [if_neg h, if_neg (by omega)])
  rw [r1]
  refine ⟨r, rfl, r2, r3, ?_⟩
  intro t ht
  have hcps : r.cps = tab (size r.degrees) F := by
    rw [r4, r3]
    apply tab_congr; intro i hi
    rw [if_pos]
    rw [e2.ncp_eq, e3]; exact hi
  rw [value_of_tab hcps, r3]
  unfold neval
  have : bezier ds t (fun idx => F (flatIndex ds idx))
      = bezier ds t (fun ks => prodNet K mul s.degrees rhs.degrees ks s.net rhs.net) := by
    apply bezier_congr
    intro idx hidx
    rw [hF]
    simp only
    rw [unflat_flatIndex hidx]
  rw [this]
  have hm : mul = fun a b => B a b := by funext a b; exact hB a b
  rw [hm]
  simp only
  rw [prodNet_value B (by unfold dim at *; exact hdim) (by exact ht)]
  rfl

theorem mulScalar_ok {cfg : Cfg} (hc : cfg.Ok) {s rhs : Spline K} (hs : s.WF) (hr : rhs.WF)
    (hdim : rhs.dim = s.dim)
    (hdeg : DegOk cfg (List.zipWith (· + ·) s.degrees rhs.degrees)) :
    ∃ r, mulScalar cfg s rhs = .ok r ∧ r.WF ∧ r.degrees = List.zipWith (· + ·) s.degrees rhs.degrees ∧
      ∀ t : List K, t.length = s.dim → r.value t = s.value t * rhs.value t :=
  mulOp_ok hc (LinearMap.mk₂ K (fun a b : K => a * b) (by intros; ring) (by intros; simp; ring)
    (by intros; ring) (by intros; simp; ring)) (by intros; rfl) hs hr hdim hdeg

end Spline
end Bezman
