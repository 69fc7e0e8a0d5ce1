import Verif.Spec.Cuts
import Verif.Model.Wide
import Verif.Proofs.SplitJoin
import Verif.Proofs.Rounded

/-! # Splitting at several positions is a chain of cuts -/

namespace Bezman
open Spec

theorem loop_succ_left {σ : Type} (n : ℕ) (f : ℕ → σ → M σ) (s : σ) :
    loop (n + 1) f s = (f 0 s) >>= fun s' => loop n (fun k => f (k + 1)) s' := by
  induction n with
  | zero =>
    rw [loop_succ]
    show f 0 s = _
    simp only [loop_zero]
    cases f 0 s <;> rfl
  | succ n ih =>
    rw [loop_succ, ih]
    cases f 0 s <;> rfl

theorem cutChain_loop {σ K : Type} (split : σ → K → M (σ × σ)) (rel : K → K → K) (zs : List K) (zp : K) (acc : List σ) (sp : σ × σ) :
    (loop zs.length (fun k (r : List σ × (σ × σ)) => do
      let z ← rd (zp :: zs) (1 + k)
      let zp ← rd (zp :: zs) (1 + k - 1)
      let sp ← split r.2.2 (rel zp z)
      pure (r.1 ++ [sp.1], sp)) (acc, sp) >>= fun r => (pure (r.1 ++ [r.2.2]) : M (List σ)))
    = (cutChain split sp.2 (relativesFrom rel zp zs) >>= fun l => pure (acc ++ l)) := by
  induction zs generalizing zp acc sp with
  | nil => rfl
  | cons z zs ih =>
    rw [List.length_cons, loop_succ_left]
    simp only [relativesFrom, cutChain]
    have h1 : rd (zp :: z :: zs) (1 + 0) = .ok z := rfl
    have h2 : rd (zp :: z :: zs) (1 + 0 - 1) = .ok zp := rfl
    rw [h1, h2]
    simp only [bind_ok]
    cases hsp : split sp.2 (rel zp z) with
    | error e => rfl
    | ok ab =>
      simp only [bind_ok, pure_eq_ok]
      rw [loop_congr (g := fun k (r : List σ × (σ × σ)) => do
        let z' ← rd (z :: zs) (1 + k)
        let zp ← rd (z :: zs) (1 + k - 1)
        let sp ← split r.2.2 (rel zp z')
        pure (r.1 ++ [sp.1], sp))]
      · have := ih z (acc ++ [ab.1]) ab
        simp only [pure_eq_ok] at this
        simp only [pure_eq_ok]
        rw [this]
        cases cutChain split ab.2 (relativesFrom rel z zs) with
        | error e => rfl
        | ok l => simp [bind_ok]
      · intro k _ r
        have e1 : rd (zp :: z :: zs) (1 + (k + 1)) = rd (z :: zs) (1 + k) := by
          unfold rd; rw [show 1 + (k + 1) = (1 + k) + 1 by omega, List.getElem?_cons_succ]
        have e2 : rd (zp :: z :: zs) (1 + (k + 1) - 1) = rd (z :: zs) (1 + k - 1) := by
          unfold rd; rw [show 1 + (k + 1) - 1 = (1 + k - 1) + 1 by omega, List.getElem?_cons_succ]
        rw [e1, e2]; rfl

theorem cutChain_head {σ K : Type} (split : σ → K → M (σ × σ)) (rel : K → K → K) (s : σ) (planes : List K) (h0 : planes.length ≠ 0) :
    (do
      let z0 ← rd planes 0
      let sp ← split s z0
      let r ← loopFrom 1 planes.length (fun i (r : List σ × (σ × σ)) => do
        let z ← rd planes i
        let zp ← rd planes (i - 1)
        let sp ← split r.2.2 (rel zp z)
        pure (r.1 ++ [sp.1], sp)) ([sp.1], sp)
      pure (r.1 ++ [r.2.2]) : M (List σ)) = cutChain split s (relatives rel planes) := by
  obtain _ | ⟨z, zs⟩ := planes
  · exact absurd rfl h0
  have h1 : rd (z :: zs) 0 = .ok z := rfl
  rw [h1]
  simp only [bind_ok, relatives, cutChain]
  cases split s z with
  | error e => rfl
  | ok ab => exact cutChain_loop split rel zs z [ab.1] ab

end Bezman
