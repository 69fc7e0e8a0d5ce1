import Verif.Proofs.FacesElevate
import Verif.Proofs.NetsDeriv

set_option linter.unusedSectionVars false

/-! # Derivatives of patches that share a face -/

namespace Bezman
open Spec
namespace Spline
variable {K V : Type} [One K] [Neg K] [Mul K] [NatCast K] [Zero V] [Add V] [SMul K V]

theorem differenceOf_congr {o m m' : ℕ} {P Q : ℕ → V} (h : ∀ j, j ≤ o → P (m + j) = Q (m' + j)) :
    differenceOf K o P m = differenceOf K o Q m' := by
  unfold differenceOf
  have h0 := h 0 (by omega)
  simp only [Nat.add_zero] at h0
  rw [h0]
  have : ∀ n, n ≤ o → repeatFrom 1 (fun j (x : V) => x + (signOf K j * ((o.choose j : ℕ) : K)) • P (m + j)) (Q m') n =
      repeatFrom 1 (fun j (x : V) => x + (signOf K j * ((o.choose j : ℕ) : K)) • Q (m' + j)) (Q m') n := by
    intro n
    induction n with
    | zero => intro _; rfl
    | succ n ih => intro hn; rw [repeatFrom, repeatFrom, ih (by omega), h (1 + n) (by omega)]
  exact this o (le_refl _)

theorem doneDegrees_all {ps os : List ℕ} (hl : os.length = ps.length) : doneDegrees ps os ps.length = List.zipWith (· - ·) ps os := by
  unfold doneDegrees
  rw [List.take_of_length_le (l := ps) (le_refl _), List.take_of_length_le (l := os) (by omega), List.drop_of_length_le (le_refl _)]
  simp

theorem derivNet_congr {ps os : List ℕ} {P Q : List ℕ → V} (hl : os.length = ps.length)
    (hle : ∀ (e o p : ℕ), os[e]? = some o → ps[e]? = some p → o ≤ p) (hPQ : ∀ idx, ValidIdx ps idx → P idx = Q idx) :
    ∀ k, k ≤ ps.length → ∀ idx, ValidIdx (doneDegrees ps os k) idx → derivNet K ps os P k idx = derivNet K ps os Q k idx
  | 0, _, idx, hv => by
    rw [derivNet, derivNet]
    exact hPQ idx (by simpa [doneDegrees] using hv)
  | k + 1, hk, idx, hv => by
    have hp : ps[k]? = some ps[k] := List.getElem?_eq_getElem (by omega)
    have ho : os[k]? = some os[k] := List.getElem?_eq_getElem (by omega)
    have hgo : os.getD k 0 = os[k] := by rw [List.getD_eq_getElem?_getD, ho]; rfl
    have hndd : (doneDegrees ps os k)[k]? = some ps[k] := by
      rw [doneDegrees_getElem? hl hp ho, if_neg (by omega)]
    rw [derivNet, derivNet, hgo]
    by_cases h0 : os[k] = 0
    · rw [if_pos h0, if_pos h0]
      refine derivNet_congr hl hle hPQ k (by omega) idx ?_
      have e1 : doneDegrees ps os (k + 1) = doneDegrees ps os k := by
        rw [doneDegrees_succ hl hp ho, h0, Nat.sub_zero, set_split hndd, ← list_split hndd]
      rwa [e1] at hv
    · rw [if_neg h0, if_neg h0, derivOf, derivOf]
      congr 1
      have hml : idx.length = ps.length := by rw [hv.length, doneDegrees_length hl]
      have hm : idx[k]? = some idx[k] := List.getElem?_eq_getElem (by omega)
      have g1 : idx.getD k 0 = idx[k] := by rw [List.getD_eq_getElem?_getD, hm]; rfl
      rw [g1]
      apply differenceOf_congr
      intro j hj
      have hop := hle k _ _ ho hp
      have hmle : idx[k] ≤ ps[k] - os[k] :=
        (validIdx_iff.mp hv).2 k _ _ hm (by rw [doneDegrees_getElem? hl hp ho, if_pos (by omega)])
      refine derivNet_congr hl hle hPQ k (by omega) _ ?_
      have := validIdx_set hv k ps[k] (idx[k] + j) (by omega)
      rwa [doneDegrees_succ hl hp ho, List.set_set, set_split hndd, ← list_split hndd] at this

theorem derivNet_face {ps qs os : List ℕ} {d x y : ℕ} {P Q : List ℕ → V} (hl : os.length = ps.length) (hq : ∀ e, e ≠ d → qs[e]? = ps[e]?)
    (hod : os[d]? = some 0) (hle : ∀ (e o p : ℕ), os[e]? = some o → ps[e]? = some p → o ≤ p)
    (hPQ : ∀ idx, ValidIdx ps idx → P (idx.set d x) = Q (idx.set d y)) :
    ∀ k, k ≤ ps.length → ∀ idx, ValidIdx (doneDegrees ps os k) idx →
      derivNet K ps os P k (idx.set d x) = derivNet K qs os Q k (idx.set d y)
  | 0, _, idx, hv => by
    rw [derivNet, derivNet]
    exact hPQ idx (by simpa [doneDegrees] using hv)
  | k + 1, hk, idx, hv => by
    have hp : ps[k]? = some ps[k] := List.getElem?_eq_getElem (by omega)
    have ho : os[k]? = some os[k] := List.getElem?_eq_getElem (by omega)
    have hgo : os.getD k 0 = os[k] := by rw [List.getD_eq_getElem?_getD, ho]; rfl
    have hgp : ps.getD k 0 = ps[k] := by rw [List.getD_eq_getElem?_getD, hp]; rfl
    have hndd : (doneDegrees ps os k)[k]? = some ps[k] := by
      rw [doneDegrees_getElem? hl hp ho, if_neg (by omega)]
    rw [derivNet, derivNet, hgo]
    by_cases h0 : os[k] = 0
    · rw [if_pos h0, if_pos h0]
      refine derivNet_face hl hq hod hle hPQ k (by omega) idx ?_
      have e1 : doneDegrees ps os (k + 1) = doneDegrees ps os k := by
        rw [doneDegrees_succ hl hp ho, h0, Nat.sub_zero, set_split hndd, ← list_split hndd]
      rwa [e1] at hv
    · have hkd : k ≠ d := by
        rintro rfl
        rw [ho] at hod
        exact h0 (Option.some.inj hod)
      have hgq : qs.getD k 0 = ps[k] := by rw [List.getD_eq_getElem?_getD, hq k hkd, hp]; rfl
      rw [if_neg h0, if_neg h0, hgp, hgq, derivOf, derivOf]
      congr 1
      have hml : idx.length = ps.length := by rw [hv.length, doneDegrees_length hl]
      have hm : idx[k]? = some idx[k] := List.getElem?_eq_getElem (by omega)
      have g1 : ∀ z, (idx.set d z).getD k 0 = idx[k] := by
        intro z
        rw [List.getD_eq_getElem?_getD, List.getElem?_set_ne (Ne.symm hkd), hm]; rfl
      rw [g1, g1]
      apply differenceOf_congr
      intro j hj
      have hop := hle k _ _ ho hp
      have hmle : idx[k] ≤ ps[k] - os[k] :=
        (validIdx_iff.mp hv).2 k _ _ hm (by rw [doneDegrees_getElem? hl hp ho, if_pos (by omega)])
      rw [List.set_comm _ _ (Ne.symm hkd), List.set_comm _ _ (Ne.symm hkd)]
      refine derivNet_face hl hq hod hle hPQ k (by omega) _ ?_
      have := validIdx_set hv k ps[k] (idx[k] + j) (by omega)
      rwa [doneDegrees_succ hl hp ho, List.set_set, set_split hndd, ← list_split hndd] at this

theorem glued_deriv {cfg : Cfg} (hc : cfg.Ok) {d : ℕ} {sa sb : Bool} {a b ra rb : Spline V} (h : Glued d sa sb a b) {orders : List ℕ}
    (hl : orders.length = a.degrees.length) (hod : orders[d]? = some 0)
    (hle : ∀ (d o p : ℕ), orders[d]? = some o → a.degrees[d]? = some p → o ≤ p) (hmax : ∀ o ∈ orders, o < cfg.maxBinom)
    (hsa : size a.degrees < 2 ^ 64) (hsb : size b.degrees < 2 ^ 64)
    (ea : derivativeSpline K cfg a orders = .ok ra) (eb : derivativeSpline K cfg b orders = .ok rb) : Glued d sa sb ra rb := by
  have hdim := glued_dim h
  have hqe := fun e he => glued_deg h (e := e) he
  rw [glued_iff] at h
  obtain ⟨ha, hb, p, q, hp, hq, hface⟩ := h
  have hd : d < a.degrees.length := (List.getElem?_eq_some_iff.mp hp).1
  have hqd : b.degrees[d]? = some q := by rw [hq, List.getElem?_set_self hd]
  obtain ⟨r, e1, r1, r2, r3⟩ := derivativeSpline_cp (K := K) hc ha hl hle hmax hsa
  obtain ⟨r', f1, s1, s2, s3⟩ := derivativeSpline_cp (K := K) hc hb (hl.trans hdim.symm)
    (by
      intro e o t he ht
      by_cases hed : e = d
      · subst hed; rw [hod] at he; cases he; omega
      · rw [hqe e hed] at ht; exact hle e o t he ht) hmax hsb
  rw [e1] at ea; cases ea
  rw [f1] at eb; cases eb
  have hrp : ra.degrees[d]? = some p := by
    rw [r2, List.getElem?_zipWith, hp, hod]; rfl
  have hrb : rb.degrees = ra.degrees.set d q := by
    rw [r2, s2]
    apply List.ext_getElem?
    intro e
    by_cases hed : e = d
    · subst hed
      rw [List.getElem?_zipWith, hqd, hod, List.getElem?_set_self (by simp; omega)]
      rfl
    · rw [List.getElem?_set_ne (Ne.symm hed), List.getElem?_zipWith, List.getElem?_zipWith, hqe e hed]
  rw [glued_iff]
  refine ⟨r1, s1, p, q, hrp, hrb, ?_⟩
  intro idx hv
  have hv1 := validIdx_face hrp hv sa
  have hv2 : ValidIdx rb.degrees (idx.set d (faceIndex sb q)) := by
    rw [hrb]; exact validIdx_set hv d q _ (faceIndex_le sb q)
  rw [r3 _ hv1, s3 _ hv2]
  have hdb : b.dim = a.dim := hdim
  rw [hdb]
  refine derivNet_face hl hqe hod hle hface a.dim (le_refl _) idx ?_
  have : doneDegrees a.degrees orders a.dim = ra.degrees := by
    rw [r2]
    unfold doneDegrees
    rw [List.take_of_length_le (l := a.degrees) (by simp [dim]), List.take_of_length_le (l := orders) (by simp [dim]; omega),
      List.drop_of_length_le (by simp [dim])]
    simp
  rw [this]; exact hv

end Spline
end Bezman
