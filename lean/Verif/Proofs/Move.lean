import Verif.Spec.Move
import Verif.Proofs.History
import Verif.Proofs.Spline

/-! # Programs with moves: lemmas -/

namespace Bezman
open Spec Move
variable {α : Type}

theorem Spec.BothEnd.bind {β γ : Type} {R : β → β → Prop} {S : γ → γ → Prop} {x y : M β} {f g : β → M γ} (h : BothEnd R x y)
    (hf : ∀ a b, R a b → BothEnd S (f a) (g b)) : BothEnd S (x >>= f) (y >>= g) := by
  cases x with
  | error e =>
    cases y with
    | error e' => exact h
    | ok b => exact h.elim
  | ok a =>
    cases y with
    | error e' => exact h.elim
    | ok b => exact hf a b h

theorem Spec.BothEnd.rfl' {β : Type} (x : M β) : BothEnd (· = ·) x x := by
  cases x <;> exact rfl

theorem sameOutside_rd {D : Set ℕ} {a b : List α} (h : SameOutside D a b) {j : ℕ} (hj : j ∉ D) : rd a j = rd b j := by
  unfold rd
  rw [h.2 j hj]

theorem wr_length {a : List α} {i : ℕ} {x : α} : wr a i x = if i < a.length then .ok (a.set i x) else .error .ub := by
  unfold wr
  split <;> rfl

theorem sameOutside_wr {D : Set ℕ} {a b : List α} (h : SameOutside D a b) (i : ℕ) (x : α) :
    BothEnd (SameOutside (D \ {i})) (wr a i x) (wr b i x) := by
  rw [wr_length, wr_length, h.1]
  split
  · refine ⟨by simp [h.1], fun k hk => ?_⟩
    by_cases hki : k = i
    · subst hki
      rw [List.getElem?_set_self (by rw [h.1]; assumption), List.getElem?_set_self (by assumption)]
    · rw [List.getElem?_set_ne (Ne.symm hki), List.getElem?_set_ne (Ne.symm hki)]
      exact h.2 k fun hkD => hk ⟨hkD, hki⟩
  · exact rfl

theorem sameOutside_mapM {D : Set ℕ} {a b : List α} (h : SameOutside D a b) (args : List ℕ) (ha : ∀ x ∈ args, x ∉ D) :
    args.mapM (fun x => rd a x) = args.mapM (fun x => rd b x) := by
  induction args with
  | nil => rfl
  | cons x args ih =>
    rw [List.mapM_cons, List.mapM_cons, sameOutside_rd h (ha x (by simp)), ih fun y hy => ha y (by simp [hy])]

theorem Spec.SameOutside.mono {D E : Set ℕ} {a b : List α} (h : SameOutside D a b) (hDE : D ⊆ E) : SameOutside E a b :=
  ⟨h.1, fun i hi => h.2 i fun hD => hi (hDE hD)⟩

theorem rd_lt {a : List α} {i : ℕ} {x : α} (h : rd a i = .ok x) : ∃ hi : i < a.length, a[i] = x :=
  List.getElem?_eq_some_iff.mp (rd_ok_iff.mp h)

variable [HasMove α]

theorem stmt_exec_same {D : Set ℕ} {a b : List α} (h : SameOutside D a b) (c : Stmt α) (hc : ReadsOutside D c) :
    BothEnd (SameOutside (movedAfter D c)) (c.exec a) (byValue b c) := by
  cases c with
  | copy i j =>
    simp only [Stmt.exec, byValue, sameOutside_rd h hc]
    exact (BothEnd.rfl' _).bind fun x y hxy => hxy ▸ sameOutside_wr h i x
  | move i j =>
    simp only [Stmt.exec, byValue, moveAssign, sameOutside_rd h hc.1]
    cases hj : rd b j with
    | error e => exact rfl
    | ok x =>
      obtain ⟨hjl, _⟩ := rd_lt hj
      simp only [bind_ok]
      have h1 := sameOutside_wr h i x
      rw [wr_length, wr_length] at h1 ⊢
      rw [h.1] at h1 ⊢
      split
      · next hi =>
        rw [if_pos hi, if_pos hi] at h1
        simp only [bind_ok]
        rw [wr_length, List.length_set, h.1, if_pos hjl]
        refine ⟨by simp [h.1], fun k hk => ?_⟩
        have hkj : k ≠ j := fun e => hk (.inr e)
        rw [List.getElem?_set_ne (Ne.symm hkj)]
        exact h1.2 k fun hD => hk (.inl hD)
      · exact rfl
  | construct j =>
    simp only [Stmt.exec, byValue, sameOutside_rd h hc]
    refine (BothEnd.rfl' _).bind fun x y hxy => ?_
    subst hxy
    refine ⟨by simp [h.1], fun k hk => ?_⟩
    rw [List.getElem?_append, List.getElem?_append, h.1, h.2 k hk]
  | constructMove j =>
    simp only [Stmt.exec, byValue, sameOutside_rd h hc]
    refine (BothEnd.rfl' _).bind fun x y hxy => ?_
    subst hxy
    refine ⟨by simp [h.1], fun k hk => ?_⟩
    rw [List.getElem?_append, List.getElem?_append, h.1, h.2 k hk]
  | swap i j =>
    simp only [Stmt.exec, byValue, swapVars, moveAssign, sameOutside_rd h hc.1, sameOutside_rd h hc.2]
    cases hi : rd b i with
    | error e => exact rfl
    | ok x =>
      cases hj : rd b j with
      | error e => exact rfl
      | ok y =>
        obtain ⟨hil, _⟩ := rd_lt hi
        obtain ⟨hjl, _⟩ := rd_lt hj
        simp only [bind_ok]
        rw [wr_ok _ (by rw [h.1]; exact hil), wr_ok _ hil]
        simp only [bind_ok]
        rw [wr_ok _ (by rw [List.length_set, h.1]; exact hjl), wr_ok _ (by rw [List.length_set]; exact hjl)]
        simp only [bind_ok]
        rw [wr_ok _ (by rw [List.length_set, List.length_set, h.1]; exact hjl), List.set_set]
        refine ⟨by simp [h.1], fun k hk => ?_⟩
        by_cases hkj : k = j
        · subst hkj
          rw [List.getElem?_set_self (by rw [List.length_set, h.1]; exact hjl), List.getElem?_set_self (by rw [List.length_set]; exact hjl)]
        · rw [List.getElem?_set_ne (Ne.symm hkj), List.getElem?_set_ne (Ne.symm hkj)]
          by_cases hki : k = i
          · subst hki
            rw [List.getElem?_set_self (by rw [h.1]; exact hil), List.getElem?_set_self hil]
          · rw [List.getElem?_set_ne (Ne.symm hki), List.getElem?_set_ne (Ne.symm hki)]
            exact h.2 k hk
  | call k args op =>
    simp only [Stmt.exec, byValue, sameOutside_mapM h args hc]
    refine (BothEnd.rfl' _).bind fun xs ys e => ?_
    subst e
    refine (BothEnd.rfl' _).bind fun x y e => ?_
    subst e
    exact sameOutside_wr h k x

theorem exec_same {D : Set ℕ} {a b : List α} (h : SameOutside D a b) (p : List (Stmt α)) (hp : Careful D p) :
    BothEnd (SameOutside (movedAfterAll D p)) (exec a p) (byValueAll b p) := by
  induction p generalizing D a b with
  | nil => exact h
  | cons c p ih => exact (stmt_exec_same h c hp.1).bind fun a' b' h' => ih h' hp.2

end Bezman
