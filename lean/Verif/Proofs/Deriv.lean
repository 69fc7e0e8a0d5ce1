import Verif.Proofs.BernDeriv
import Verif.Spec.Deriv
import Mathlib.Analysis.Calculus.Deriv.Polynomial
import Mathlib.Analysis.Calculus.Deriv.Add
import Mathlib.Analysis.Calculus.Deriv.Mul

/-! Analytic derivatives of Bezier functions. -/

namespace Bezman
open Spec Finset Polynomial Spline

variable {𝕜 : Type} [NontriviallyNormedField 𝕜]
variable {V : Type} [NormedAddCommGroup V] [NormedSpace 𝕜 V]

theorem hasDerivAt_dB (p k i : ℕ) (t : 𝕜) : HasDerivAt (fun x => dB p k i x) (dB p (k + 1) i t) t := by
  unfold dB
  rw [Function.iterate_succ_apply']
  exact Polynomial.hasDerivAt _ _

theorem hasDerivAt_dB_sum (p k : ℕ) (c : ℕ → V) (t : 𝕜) :
    HasDerivAt (fun x => ∑ i ∈ range (p + 1), dB p k i x • c i)
      (∑ i ∈ range (p + 1), dB p (k + 1) i t • c i) t :=
  HasDerivAt.fun_sum (fun i _ => (hasDerivAt_dB p k i t).smul_const (c i))

theorem iteratedDeriv_dB_sum (p k : ℕ) (c : ℕ → V) :
    iteratedDeriv k (fun x : 𝕜 => ∑ i ∈ range (p + 1), bern p i x • c i)
      = fun t => ∑ i ∈ range (p + 1), dB p k i t • c i := by
  induction k with
  | zero => funext t; simp [dB_zero]
  | succ k ih =>
    rw [iteratedDeriv_succ, ih]
    funext t
    exact (hasDerivAt_dB_sum p k c t).deriv

/-- Mixed partial derivatives of a Bezier function. -/
theorem pderiv_neval {ps ks : List ℕ} {ts : List 𝕜} (hk : ks.length = ps.length)
    (ht : ts.length = ps.length) (F : ℕ → V) :
    pderiv ks (fun ts => neval ps ts F) ts = tens ps (dFns ps ks ts) F := by
  induction ps generalizing ks ts F with
  | nil =>
    simp at hk ht; subst hk ht; simp [pderiv]
  | cons p ps ih =>
    cases ks with
    | nil => simp at hk
    | cons k ks =>
      cases ts with
      | nil => simp at ht
      | cons t ts =>
        simp at hk ht
        rw [pderiv, dFns, tens_cons]
        have : (fun x => pderiv ks (fun xs => neval (p :: ps) (x :: xs) F) ts)
            = fun x => ∑ i ∈ range (p + 1), bern p i x • tens ps (dFns ps ks ts) (fun j => F (i + (p + 1) * j)) := by
          funext x
          have : (fun xs => neval (p :: ps) (x :: xs) F)
            = fun xs => neval ps xs (fun j => ∑ i ∈ range (p + 1), bern p i x • F (i + (p + 1) * j)) := by
            funext xs; rw [neval_collapse]
          rw [this, ih hk ht, tens_sum]
          simp only [tens_smul]
        rw [this, iteratedDeriv_dB_sum]

/-- One more derivative in direction `d`. -/
theorem hasDerivAt_tens {ps ks : List ℕ} {ts : List 𝕜} (hk : ks.length = ps.length)
    (ht : ts.length = ps.length) (F : ℕ → V) {d : ℕ} {k : ℕ} {t : 𝕜} (hkd : ks[d]? = some k)
    (htd : ts[d]? = some t) :
    HasDerivAt (fun x => tens ps (dFns ps ks (ts.set d x)) F)
      (tens ps (dFns ps (ks.set d (k + 1)) ts) F) t := by
  induction ps generalizing ks ts F d with
  | nil => simp at hk; subst hk; simp at hkd
  | cons p ps ih =>
    cases ks with
    | nil => simp at hk
    | cons k' ks =>
      cases ts with
      | nil => simp at ht
      | cons t' ts =>
        simp at hk ht
        cases d with
        | zero =>
          simp at hkd htd; subst hkd htd
          simp only [List.set_cons_zero, dFns, tens_cons]
          exact hasDerivAt_dB_sum p k' _ t'
        | succ d =>
          simp at hkd htd
          simp only [List.set_cons_succ, dFns, tens_cons]
          exact HasDerivAt.fun_sum (fun i _ =>
            (ih hk ht (fun j => F (i + (p + 1) * j)) hkd htd).const_smul (dB p k' i t'))

theorem dFns_zero {ps : List ℕ} {ts : List 𝕜} (ht : ts.length = ps.length) :
    dFns ps (List.replicate ps.length 0) ts = bernFns ps ts := by
  induction ps generalizing ts with
  | nil => simp at ht; subst ht; rfl
  | cons p ps ih =>
    cases ts with
    | nil => simp at ht
    | cons t ts =>
      simp at ht
      simp [List.replicate_succ, dFns, bernFns_cons, ih ht, dB_zero]

end Bezman
