import Verif.Model.Basic
import Mathlib.Algebra.BigOperators.Group.Finset.Basic
import Mathlib.Tactic.Ring
import Mathlib.Tactic.Abel
import Mathlib.Tactic.Linarith
import Mathlib.Tactic.Positivity
import Mathlib.Tactic.NormNum
import Mathlib.Tactic.FieldSimp
import Mathlib.Tactic.LinearCombination

/-! Reasoning rules for outcomes, memory and loops. -/

namespace Bezman


variable {α β σ : Type}

@[simp] theorem bind_ok {γ : Type} (x : α) (f : α → M γ) : ((.ok x : M α) >>= f) = f x := rfl
@[simp] theorem bind_error {γ : Type} (e : Err) (f : α → M γ) :
    ((.error e : M α) >>= f) = .error e := rfl
@[simp] theorem pure_eq_ok (x : α) : (pure x : M α) = .ok x := rfl
@[simp] theorem map_ok {γ : Type} (x : α) (f : α → γ) : (f <$> (.ok x : M α)) = .ok (f x) := rfl
@[simp] theorem throw_eq (e : Err) : (throw e : M α) = .error e := rfl

theorem rd_ok {l : List α} {i : Nat} {x : α} (h : l[i]? = some x) : rd l i = .ok x := by
  simp [rd, h]

theorem rd_getElem {l : List α} {i : Nat} (h : i < l.length) : rd l i = .ok l[i] :=
  rd_ok (List.getElem?_eq_getElem h)

theorem rd_ub {l : List α} {i : Nat} (h : l.length ≤ i) : rd l i = .error .ub := by
  simp [rd, List.getElem?_eq_none h]

theorem rd_ok_iff {l : List α} {i : Nat} {x : α} : rd l i = .ok x ↔ l[i]? = some x := by
  unfold rd; split <;> simp_all

theorem wr_ok {l : List α} {i : Nat} (x : α) (h : i < l.length) : wr l i x = .ok (l.set i x) := by
  simp [wr, h]

theorem assertM_ok {b : Bool} (h : b = true) : assertM b = .ok ⟨⟩ := by simp [assertM, h]

theorem divU_ok {a b : Nat} (h : 0 < b) : divU a b = .ok (a / b) := by
  simp [divU, Nat.pos_iff_ne_zero.mp h]

theorem modU_ok {a b : Nat} (h : 0 < b) : modU a b = .ok (a % b) := by
  simp [modU, Nat.pos_iff_ne_zero.mp h]

theorem narrow_ok {a : Nat} (h : a < 2 ^ 31) : narrow a = .ok a := by
  simp only [narrow, h, if_true]

@[simp] theorem loop_zero (f : Nat → σ → M σ) (s : σ) : loop 0 f s = .ok s := rfl
theorem loop_succ (n : Nat) (f : Nat → σ → M σ) (s : σ) :
    loop (n + 1) f s = (loop n f s) >>= fun s' => f n s' := rfl

/-- Invariant rule: if the body never fails and carries `P k` to `P (k+1)`, the
loop succeeds and ends in `P n`. -/
theorem loop_inv {n : Nat} {f : Nat → σ → M σ} {s : σ} (P : Nat → σ → Prop) (h0 : P 0 s)
    (hstep : ∀ k, k < n → ∀ s, P k s → ∃ s', f k s = .ok s' ∧ P (k + 1) s') :
    ∃ s', loop n f s = .ok s' ∧ P n s' := by
  induction n with
  | zero => exact ⟨s, rfl, h0⟩
  | succ n ih =>
    obtain ⟨s1, h1, h2⟩ := ih (fun k hk => hstep k (Nat.lt_succ_of_lt hk))
    obtain ⟨s2, h3, h4⟩ := hstep n (Nat.lt_succ_self n) s1 h2
    exact ⟨s2, by rw [loop_succ, h1]; exact h3, h4⟩

/-- Exact trace rule: the `k`-th state is `g k`. -/
theorem loop_eq {n : Nat} {f : Nat → σ → M σ} {s : σ} (g : Nat → σ) (h0 : s = g 0)
    (hstep : ∀ k, k < n → f k (g k) = .ok (g (k + 1))) : loop n f s = .ok (g n) := by
  induction n with
  | zero => simp [h0]
  | succ n ih =>
    rw [loop_succ, ih (fun k hk => hstep k (Nat.lt_succ_of_lt hk))]
    exact hstep n (Nat.lt_succ_self n)

theorem loop_congr {n : Nat} {f g : Nat → σ → M σ} {s : σ}
    (h : ∀ k, k < n → ∀ s, f k s = g k s) : loop n f s = loop n g s := by
  induction n with
  | zero => rfl
  | succ n ih =>
    rw [loop_succ, loop_succ, ih (fun k hk => h k (Nat.lt_succ_of_lt hk))]
    congr 1; funext s'; exact h n (Nat.lt_succ_self n) s'

theorem loopFrom_inv {a b : Nat} {f : Nat → σ → M σ} {s : σ} (P : Nat → σ → Prop) (hab : a ≤ b)
    (h0 : P a s)
    (hstep : ∀ k, a ≤ k → k < b → ∀ s, P k s → ∃ s', f k s = .ok s' ∧ P (k + 1) s') :
    ∃ s', loopFrom a b f s = .ok s' ∧ P b s' := by
  obtain ⟨s', h1, h2⟩ := loop_inv (n := b - a) (f := fun k s => f (a + k) s)
    (P := fun k s => P (a + k) s) (s := s) (by simpa using h0)
    (fun k hk s hs => hstep (a + k) (by omega) (by omega) s hs)
  refine ⟨s', h1, ?_⟩
  have : a + (b - a) = b := by omega
  simpa [this] using h2

theorem loopFrom_empty {a b : Nat} {f : Nat → σ → M σ} {s : σ} (hab : b ≤ a) :
    loopFrom a b f s = .ok s := by
  have : b - a = 0 := by omega
  simp [loopFrom, this]

/-- Counting-down loop: `P k` is the invariant when indices `≥ k` are done. -/
theorem loopDown_inv {n : Nat} {f : Nat → σ → M σ} {s : σ} (P : Nat → σ → Prop) (h0 : P n s)
    (hstep : ∀ k, k < n → ∀ s, P (k + 1) s → ∃ s', f k s = .ok s' ∧ P k s') :
    ∃ s', loopDown n f s = .ok s' ∧ P 0 s' := by
  obtain ⟨s', h1, h2⟩ := loop_inv (n := n) (f := fun k s => f (n - 1 - k) s)
    (P := fun k s => P (n - k) s) (s := s) (by simpa using h0)
    (fun k hk s hs => by
      have e : n - k = (n - 1 - k) + 1 := by omega
      have e' : n - (k + 1) = n - 1 - k := by omega
      rw [e'] ; exact hstep (n - 1 - k) (by omega) s (by rw [← e]; exact hs))
  exact ⟨s', h1, by simpa using h2⟩

/-! Partial correctness: what holds whenever a loop returns. -/

theorem bind_eq_ok {γ : Type} {x : M α} {f : α → M γ} {b : γ} :
    (x >>= f) = .ok b ↔ ∃ a, x = .ok a ∧ f a = .ok b := by
  cases x with
  | ok a => simp
  | error e => simp

theorem loop_ok {n : Nat} {f : Nat → σ → M σ} {s s' : σ} (P : Nat → σ → Prop) (h : loop n f s = .ok s')
    (h0 : P 0 s) (hstep : ∀ k, k < n → ∀ s s', P k s → f k s = .ok s' → P (k + 1) s') : P n s' := by
  induction n generalizing s' with
  | zero => simp at h; subst h; exact h0
  | succ n ih =>
    rw [loop_succ, bind_eq_ok] at h
    obtain ⟨a, h1, h2⟩ := h
    exact hstep n (Nat.lt_succ_self n) _ _ (ih h1 (fun k hk => hstep k (Nat.lt_succ_of_lt hk))) h2

theorem loopFrom_ok {a b : Nat} {f : Nat → σ → M σ} {s s' : σ} (P : Nat → σ → Prop) (hab : a ≤ b)
    (h : loopFrom a b f s = .ok s') (h0 : P a s)
    (hstep : ∀ k, a ≤ k → k < b → ∀ s s', P k s → f k s = .ok s' → P (k + 1) s') : P b s' := by
  have := loop_ok (P := fun k s => P (a + k) s) h (by simpa using h0)
    (fun k hk s s' hs hf => hstep (a + k) (by omega) (by omega) s s' hs hf)
  have e : a + (b - a) = b := by omega
  simpa [e] using this

theorem whileM_ok {c : σ → M Bool} {f : σ → M σ} (P : σ → Prop)
    (hstep : ∀ s s', P s → c s = .ok true → f s = .ok s' → P s') :
    ∀ (fuel : Nat) (s s' : σ), P s → whileM fuel c f s = .ok s' → P s' ∧ c s' = .ok false := by
  intro fuel
  induction fuel with
  | zero => intro s s' _ h; simp [whileM] at h
  | succ n ih =>
    intro s s' hP h
    rw [whileM] at h
    split at h
    · simp at h
    · next hc => injection h with h; subst h; exact ⟨hP, hc⟩
    · next hc =>
      obtain ⟨a, h1, h2⟩ := bind_eq_ok.mp h
      exact ih a s' (hstep s a hP hc h1) h2

/-- Termination rule for `while`: a measure bounds the number of rounds. -/
theorem whileM_inv {c : σ → M Bool} {f : σ → M σ} (P : σ → Prop) (m : σ → Nat)
    (hc : ∀ s, P s → (c s = .ok false) ∨
      (c s = .ok true ∧ ∃ s', f s = .ok s' ∧ P s' ∧ m s' < m s)) :
    ∀ (fuel : Nat) (s : σ), P s → m s < fuel →
      ∃ s', whileM fuel c f s = .ok s' ∧ P s' ∧ c s' = .ok false := by
  intro fuel
  induction fuel with
  | zero => intro s _ h; omega
  | succ n ih =>
    intro s hP hm
    rcases hc s hP with h | ⟨h, s1, h1, h2, h3⟩
    · exact ⟨s, by simp [whileM, h], hP, h⟩
    · obtain ⟨s2, h4, h5⟩ := ih s1 h2 (by omega)
      exact ⟨s2, by simp [whileM, h, h1, h4], h5⟩

theorem whileM_false {c : σ → M Bool} {f : σ → M σ} {fuel : Nat} {s : σ} (hf : 0 < fuel)
    (h : c s = .ok false) : whileM fuel c f s = .ok s := by
  cases fuel with
  | zero => omega
  | succ n => simp [whileM, h]

/-- Non-termination rule: the guard stays true forever. -/
theorem whileM_diverges {c : σ → M Bool} {f : σ → M σ} (P : σ → Prop)
    (hc : ∀ s, P s → c s = .ok true ∧ ∃ s', f s = .ok s' ∧ P s') :
    ∀ (fuel : Nat) (s : σ), P s → whileM fuel c f s = .error .outOfFuel := by
  intro fuel
  induction fuel with
  | zero => intros; rfl
  | succ n ih =>
    intro s hP
    obtain ⟨h, s1, h1, h2⟩ := hc s hP
    simp [whileM, h, h1, ih s1 h2]

/-! ### Memory as a function -/

/-- A block of memory of length `n` holding `F 0, …, F (n-1)`. -/
def tab (n : Nat) (F : Nat → α) : List α := (List.range n).map F

@[simp] theorem tab_length (n : Nat) (F : Nat → α) : (tab n F).length = n := by simp [tab]

theorem tab_getElem? {n i : Nat} (F : Nat → α) (h : i < n) : (tab n F)[i]? = some (F i) := by
  simp [tab, h]

@[simp] theorem tab_getElem {n i : Nat} (F : Nat → α) (h : i < (tab n F).length) :
    (tab n F)[i] = F i := by simp [tab]

theorem rd_tab {n i : Nat} (F : Nat → α) (h : i < n) : rd (tab n F) i = .ok (F i) :=
  rd_ok (tab_getElem? F h)

theorem tab_congr {n : Nat} {F G : Nat → α} (h : ∀ i, i < n → F i = G i) : tab n F = tab n G := by
  apply List.map_congr_left; intro i hi; exact h i (by simpa using hi)

theorem tab_ext_iff {n : Nat} {F G : Nat → α} : tab n F = tab n G ↔ ∀ i, i < n → F i = G i := by
  constructor
  · intro h i hi
    have h1 := tab_getElem? F hi
    rw [h, tab_getElem? G hi] at h1
    exact (Option.some.inj h1).symm
  · exact tab_congr

theorem set_tab {n i : Nat} (F : Nat → α) (x : α) :
    (tab n F).set i x = tab n (Function.update F i x) := by
  apply List.ext_getElem
  · simp
  · intro j h1 h2
    rw [List.getElem_set]
    by_cases hij : i = j
    · subst hij; simp
    · simp [hij, Function.update_of_ne (Ne.symm hij)]

theorem wr_tab {n i : Nat} (F : Nat → α) (x : α) (h : i < n) :
    wr (tab n F) i x = .ok (tab n (Function.update F i x)) := by
  rw [wr_ok x (by simpa using h), set_tab]

theorem eq_tab (l : List α) (d : α) : l = tab l.length (fun i => l.getD i d) := by
  apply List.ext_getElem
  · simp
  · intro i h1 h2; simp [List.getD_eq_getElem?_getD, h1]

theorem eq_tab_of {l : List α} {n : Nat} (F : Nat → α) (hl : l.length = n)
    (h : ∀ i, i < n → l[i]? = some (F i)) : l = tab n F := by
  apply List.ext_getElem
  · simp [hl]
  · intro i h1 h2
    have := h i (by omega)
    rw [List.getElem?_eq_getElem h1] at this
    simpa using this

theorem replicate_eq_tab (n : Nat) (x : α) : List.replicate n x = tab n (fun _ => x) := by
  apply List.ext_getElem
  · simp
  · intro i h1 h2; simp

end Bezman
