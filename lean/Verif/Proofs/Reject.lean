import Verif.Proofs.Basis
import Verif.Proofs.BernDeriv
import Verif.Proofs.Product
import Verif.Proofs.Base64
import Verif.Proofs.RationalDeriv

/-! Calls outside of the library's limits: which error they end in. -/

namespace Bezman
open Spec

theorem loop_first_error {σ : Type} {n : ℕ} {f : ℕ → σ → M σ} {s : σ} {e : Err} (h : f 0 s = .error e) (hn : 0 < n) :
    loop n f s = .error e := by
  induction n with
  | zero => omega
  | succ n ih =>
    rw [loop_succ]
    cases n with
    | zero => simpa using h
    | succ n => rw [ih (by omega)]; rfl

theorem choose_dich (cfg : Cfg) (n : ℕ) :
    (n < cfg.maxBinom ∧ ∃ c, choose cfg n 0 = .ok c) ∨ (cfg.maxBinom ≤ n ∧ choose cfg n 0 = .error .assertFail) := by
  by_cases h : n < cfg.maxBinom
  · exact .inl ⟨h, _, choose_mod cfg h (by omega)⟩
  · exact .inr ⟨by omega, choose_assert (by omega)⟩

section
variable {K V : Type} [CommRing K]

theorem bernsteinEvaluate_assert {cfg : Cfg} {p : ℕ} (h : cfg.maxBinom ≤ p) (t : K) :
    bernsteinEvaluate cfg p t = .error .assertFail := by
  simp [bernsteinEvaluate, assertM, Nat.not_lt.mpr h]

theorem bernsteinEvaluateDerivative_assert {cfg : Cfg} {p : ℕ} (h : cfg.maxBinom ≤ p) (t : K) (k : ℕ) :
    bernsteinEvaluateDerivative cfg p t k = .error .assertFail := by
  simp [bernsteinEvaluateDerivative, assertM, Nat.not_lt.mpr h]

namespace Spline

theorem contributions_assert {cfg : Cfg} (hc : cfg.Ok) {s : Spline V} {t : List K} (ht : t.length = s.degrees.length)
    (hd : ∃ p ∈ s.degrees, cfg.maxBinom ≤ p) : s.basisFunctionContributions cfg t = .error .assertFail := by
  unfold basisFunctionContributions
  refine (Base64.loop_dich (fun l : List (List K) => l.length = s.dim) (fun d => ∀ p, s.degrees[d]? = some p → p < cfg.maxBinom)
    (by simp) ?_ ?_).2 ?_
  · intro d hd l hl hq
    have h1 : s.degrees[d]? = some s.degrees[d] := List.getElem?_eq_getElem hd
    have h2 : t[d]? = some (t[d]'(by rw [ht]; exact hd)) := List.getElem?_eq_getElem _
    rw [rd_ok h1, rd_ok h2]
    simp only [bind_ok]
    rw [bernsteinEvaluate_ok hc (hq _ h1)]
    simp only [bind_ok]
    exact ⟨_, wr_ok _ (by rw [hl]; exact hd), by simpa using hl⟩
  · intro d hd l hl hq
    have h1 : s.degrees[d]? = some s.degrees[d] := List.getElem?_eq_getElem hd
    have h2 : t[d]? = some (t[d]'(by rw [ht]; exact hd)) := List.getElem?_eq_getElem _
    rw [rd_ok h1, rd_ok h2]
    simp only [bind_ok]
    rw [bernsteinEvaluate_assert]
    · rfl
    · by_contra hlt
      exact hq (fun p hp => by rw [h1] at hp; cases hp; omega)
  · intro hall
    obtain ⟨p, hp, hm⟩ := hd
    obtain ⟨d, hdl, rfl⟩ := List.mem_iff_getElem.mp hp
    have := hall d hdl _ (List.getElem?_eq_getElem hdl)
    omega

theorem derivContributions_assert {cfg : Cfg} (hc : cfg.Ok) {s : Spline V} {t : List K} (ht : t.length = s.degrees.length)
    {k : List ℕ} (hk : k.length = s.degrees.length)
    (hd : ∃ p ∈ s.degrees, cfg.maxBinom ≤ p) : s.basisFunctionsDerivativeContributions cfg t k = .error .assertFail := by
  unfold basisFunctionsDerivativeContributions
  refine (Base64.loop_dich (fun l : List (List K) => l.length = s.dim) (fun d => ∀ p, s.degrees[d]? = some p → p < cfg.maxBinom)
    (by simp) ?_ ?_).2 ?_
  · intro d hd l hl hq
    have h1 : s.degrees[d]? = some s.degrees[d] := List.getElem?_eq_getElem hd
    have h2 : t[d]? = some (t[d]'(by rw [ht]; exact hd)) := List.getElem?_eq_getElem _
    have h3 : k[d]? = some (k[d]'(by rw [hk]; exact hd)) := List.getElem?_eq_getElem _
    rw [rd_ok h1, rd_ok h2, rd_ok h3]
    simp only [bind_ok]
    rw [bernsteinEvaluateDerivative_ok hc (hq _ h1)]
    simp only [bind_ok]
    exact ⟨_, wr_ok _ (by rw [hl]; exact hd), by simpa using hl⟩
  · intro d hd l hl hq
    have h1 : s.degrees[d]? = some s.degrees[d] := List.getElem?_eq_getElem hd
    have h2 : t[d]? = some (t[d]'(by rw [ht]; exact hd)) := List.getElem?_eq_getElem _
    have h3 : k[d]? = some (k[d]'(by rw [hk]; exact hd)) := List.getElem?_eq_getElem _
    rw [rd_ok h1, rd_ok h2, rd_ok h3]
    simp only [bind_ok]
    rw [bernsteinEvaluateDerivative_assert]
    · rfl
    · by_contra hlt
      exact hq (fun p hp => by rw [h1] at hp; cases hp; omega)
  · intro hall
    obtain ⟨p, hp, hm⟩ := hd
    obtain ⟨d, hdl, rfl⟩ := List.mem_iff_getElem.mp hp
    have := hall d hdl _ (List.getElem?_eq_getElem hdl)
    omega

end Spline
end

namespace Spline
variable {K V W U : Type} [One K] [Mul K] [Div K] [NatCast K] [Zero U] [Add U] [SMul K U]

theorem combineForProduct_assert (cfg : Cfg) (mul : V → W → U) (P : Spline V) (Q : Spline W) {n : ℕ}
    (hP : P.degrees.length = n) (hQ : Q.degrees.length = n) (rem : ℕ) :
    ∀ (factor : K) (indices : List ℕ) (R : Spline U), indices.length + rem + 1 = n →
    (∃ d p q, indices.length ≤ d ∧ P.degrees[d]? = some p ∧ Q.degrees[d]? = some q ∧ cfg.maxBinom ≤ p + q) →
    combineForProduct cfg mul P Q (List.replicate n 0) rem factor indices R = .error .assertFail := by
  induction rem with
  | zero =>
    rintro factor indices R hl ⟨d, p, q, h1, h2, h3, h4⟩
    have hd : d = indices.length := by
      have := (List.getElem?_eq_some_iff.mp h2).1; omega
    rw [combineForProduct, rd_ok (l := List.replicate n 0) (x := 0) (by rw [List.getElem?_replicate]; simp; omega),
      rd_ok (hd ▸ h2), rd_ok (hd ▸ h3)]
    simp only [bind_ok]
    unfold loopFrom
    apply loop_first_error _ (by omega)
    simp only [Nat.zero_sub, Nat.add_zero]
    rcases choose_dich cfg p with ⟨_, c1, e1⟩ | ⟨_, e1⟩ <;> rw [e1] <;> simp only [bind_ok, bind_error]
    rcases choose_dich cfg q with ⟨_, c2, e2⟩ | ⟨_, e2⟩ <;> rw [e2] <;> simp only [bind_ok, bind_error]
    rw [choose_assert h4]; rfl
  | succ rem ih =>
    rintro factor indices R hl ⟨d, p, q, h1, h2, h3, h4⟩
    have hp : P.degrees[indices.length]? = some (P.degrees[indices.length]'(by omega)) := List.getElem?_eq_getElem _
    have hq : Q.degrees[indices.length]? = some (Q.degrees[indices.length]'(by omega)) := List.getElem?_eq_getElem _
    generalize P.degrees[indices.length]'(by omega) = p' at hp
    generalize Q.degrees[indices.length]'(by omega) = q' at hq
    rw [combineForProduct, rd_ok (l := List.replicate n 0) (x := 0) (by rw [List.getElem?_replicate]; simp; omega),
      rd_ok hp, rd_ok hq]
    simp only [bind_ok]
    unfold loopFrom
    apply loop_first_error _ (by omega)
    simp only [Nat.zero_sub, Nat.add_zero]
    rcases choose_dich cfg p' with ⟨_, c1, e1⟩ | ⟨_, e1⟩ <;> rw [e1] <;> simp only [bind_ok, bind_error]
    rcases choose_dich cfg q' with ⟨_, c2, e2⟩ | ⟨_, e2⟩ <;> rw [e2] <;> simp only [bind_ok, bind_error]
    rcases choose_dich cfg (p' + q') with ⟨hlt, c3, e3⟩ | ⟨_, e3⟩ <;> rw [e3] <;> simp only [bind_ok, bind_error]
    apply ih
    · simp; omega
    · refine ⟨d, p, q, ?_, h2, h3, h4⟩
      rcases Nat.lt_or_ge indices.length d with h | h
      · simpa using h
      · have : d = indices.length := by omega
        subst this
        rw [hp] at h2; rw [hq] at h3; cases h2; cases h3; omega

theorem productDegrees_ok {s : Spline V} {rhs : Spline W} (hdim : rhs.dim = s.dim) :
    loop s.dim (fun d l => do
      let p ← rd s.degrees d
      let q ← rd rhs.degrees d
      wr l d (p + q)) (List.replicate s.dim 0) = .ok (List.zipWith (· + ·) s.degrees rhs.degrees) := by
  obtain ⟨r, w1, w2, w3⟩ := loop_inv (n := s.dim) (s := List.replicate s.dim 0)
    (f := fun d l => do
      let p ← rd s.degrees d
      let q ← rd rhs.degrees d
      wr l d (p + q))
    (P := fun j r => r.length = s.dim ∧ ∀ d, d < j → r[d]? = (List.zipWith (· + ·) s.degrees rhs.degrees)[d]?)
    ⟨by simp, fun d hd => by omega⟩
    (by
      rintro j hj r ⟨hr1, hr2⟩
      have a1 := List.getElem?_eq_getElem (show j < s.degrees.length from hj)
      have a2 := List.getElem?_eq_getElem (show j < rhs.degrees.length by unfold dim at *; omega)
      rw [rd_ok a1, rd_ok a2]
      simp only [bind_ok]
      refine ⟨_, wr_ok _ (by omega), by simp [hr1], ?_⟩
      intro d hd
      by_cases hdj : d = j
      · subst hdj
        rw [List.getElem?_set_self (by omega), List.getElem?_zipWith, a1, a2]
      · rw [List.getElem?_set_ne (by omega)]; exact hr2 d (by omega))
  rw [w1]
  congr 1
  apply List.ext_getElem?
  intro d
  by_cases hd : d < s.dim
  · exact w3 d hd
  · unfold dim at *
    rw [List.getElem?_eq_none (by omega), List.getElem?_eq_none (by simp; omega)]

theorem mulOp_assert (cfg : Cfg) (mul : V → W → U) {s : Spline V} {rhs : Spline W} (hpos : 0 < s.dim) (hdim : rhs.dim = s.dim)
    (h : ∃ d p q : ℕ, s.degrees[d]? = some p ∧ rhs.degrees[d]? = some q ∧ cfg.maxBinom ≤ p + q) :
    mulOp K cfg mul s rhs = .error .assertFail := by
  unfold mulOp
  rw [productDegrees_ok hdim]
  simp only [bind_ok]
  have hl : (List.zipWith (· + ·) s.degrees rhs.degrees).length = s.dim := by unfold dim at *; simp [hdim]
  obtain ⟨r0, e1, e2, e3, e4⟩ := ofDegrees_ok (V := U) (ps := List.zipWith (· + ·) s.degrees rhs.degrees) (by omega)
  rw [e1]
  simp only [bind_ok]
  apply loop_first_error
  · rw [localToGlobal_ok e2, unflat_zero, e3, hl]
    simp only [bind_ok]
    obtain ⟨d, p, q, h1, h2, h3⟩ := h
    exact combineForProduct_assert cfg mul s rhs rfl hdim (s.dim - 1) 1 [] r0 (by simp only [List.length_nil]; unfold dim at *; omega) ⟨d, p, q, by simp, h1, h2, h3⟩
  · rw [e2.ncp_eq]; exact size_pos _

end Spline

end Bezman
