import Verif.Model.Binomial
import Verif.Proofs.Basic
import Mathlib.Data.Nat.Choose.Basic
import Mathlib.Data.Nat.Choose.Sum
import Mathlib.Data.Nat.Choose.Vandermonde

/-! Correctness of the binomial lookup table. -/

namespace Bezman

/-- triangular numbers: start of row `n` of the table -/
def tri (n : Nat) : Nat := n * (n + 1) / 2

theorem two_tri (n : Nat) : 2 * tri n = n * (n + 1) := by
  unfold tri
  have : 2 ∣ n * (n + 1) := (Nat.even_mul_succ_self n).two_dvd
  omega

theorem tri_succ (n : Nat) : tri (n + 1) = tri n + (n + 1) := by
  have h1 := two_tri n
  have h2 := two_tri (n + 1)
  have : (n + 1) * (n + 1 + 1) = n * (n + 1) + 2 * (n + 1) := by ring
  omega

theorem tri_mono {a b : Nat} (h : a ≤ b) : tri a ≤ tri b := by
  induction h with
  | refl => exact le_rfl
  | step _ ih => rw [tri_succ]; omega

theorem tri_lt {a b k : Nat} (h : a < b) (hk : k ≤ a) : tri a + k < tri b := by
  have := tri_mono (Nat.succ_le_of_lt h)
  rw [Nat.succ_eq_add_one, tri_succ] at this
  omega

theorem tri_inj {n k n' k' : Nat} (hk : k ≤ n) (hk' : k' ≤ n') (h : tri n + k = tri n' + k') :
    n = n' ∧ k = k' := by
  rcases Nat.lt_trichotomy n n' with h1 | h1 | h1
  · have := tri_lt h1 hk; omega
  · subst h1; omega
  · have := tri_lt h1 hk'; omega

theorem binomTable_spec (max : Nat) (hmax : 0 < max) :
    ∃ F : Nat → Nat, binomTable max = .ok (tab (tri max) F) ∧
      ∀ n k, n < max → k ≤ n → F (tri n + k) = n.choose k % 2 ^ 64 := by
  unfold binomTable
  have h0 : 0 < tri max := by have := tri_lt (a := 0) (k := 0) hmax le_rfl; omega
  have e0 : wr (List.replicate (max * (max + 1) / 2) 0) 0 1
      = .ok (tab (tri max) (Function.update (fun _ => 0) 0 1)) := by
    rw [replicate_eq_tab]; exact wr_tab _ _ h0
  rw [e0]
  simp only [bind_ok]
  obtain ⟨s', h1, F, rfl, hF⟩ := loop_inv (n := max) (P := fun i (tbl : List Nat) =>
      ∃ F, tbl = tab (tri max) F ∧
        ∀ n k, n < i → k ≤ n → F (tri n + k) = n.choose k % 2 ^ 64)
      (s := tab (tri max) (Function.update (fun _ => 0) 0 1))
      (f := fun i tbl =>
        loop (i + 1) (fun j tbl =>
          if i = j ∨ j = 0 then wr tbl (i * (i + 1) / 2 + j) 1
          else do
            let a ← rd tbl (i * (i + 1) / 2 - i + j - 1)
            let b ← rd tbl (i * (i + 1) / 2 - i + j)
            wr tbl (i * (i + 1) / 2 + j) (add64 a b)) tbl)
      ⟨_, rfl, fun n k hn _ => by omega⟩
      (by
        rintro i hi _ ⟨F, rfl, hF⟩
        obtain ⟨s', h1, G, rfl, hG1, hG2⟩ := loop_inv (n := i + 1) (P := fun j (tbl : List Nat) =>
          ∃ F, tbl = tab (tri max) F ∧
            (∀ n k, n < i → k ≤ n → F (tri n + k) = n.choose k % 2 ^ 64) ∧
            (∀ k, k < j → F (tri i + k) = i.choose k % 2 ^ 64))
          (s := tab (tri max) F)
          (f := fun j tbl =>
            if i = j ∨ j = 0 then wr tbl (i * (i + 1) / 2 + j) 1
            else do
              let a ← rd tbl (i * (i + 1) / 2 - i + j - 1)
              let b ← rd tbl (i * (i + 1) / 2 - i + j)
              wr tbl (i * (i + 1) / 2 + j) (add64 a b))
          ⟨F, rfl, hF, fun k hk => by omega⟩
          (by
            rintro j hj _ ⟨F, rfl, hF1, hF2⟩
            have hpos : tri i + j < tri max := tri_lt hi (by omega)
            have key : ∀ v, v = i.choose j % 2 ^ 64 →
                (∀ n k, n < i → k ≤ n →
                  Function.update F (tri i + j) v (tri n + k) = n.choose k % 2 ^ 64) ∧
                (∀ k, k < j + 1 →
                  Function.update F (tri i + j) v (tri i + k) = i.choose k % 2 ^ 64) := by
              intro v hv
              constructor
              · intro n k hn hk
                rw [Function.update_of_ne]
                · exact hF1 n k hn hk
                · have := tri_lt hn hk; omega
              · intro k hk
                by_cases hkj : k = j
                · subst hkj; simp [hv]
                · rw [Function.update_of_ne (by omega)]
                  exact hF2 k (by omega)
            by_cases hc : i = j ∨ j = 0
            · simp only [hc, if_true]
              refine ⟨_, wr_tab _ _ hpos, _, rfl, key 1 ?_⟩
              rcases hc with rfl | rfl <;> simp
            · simp only [hc, if_false]
              obtain ⟨i', rfl⟩ : ∃ i', i = i' + 1 := ⟨i - 1, by omega⟩
              obtain ⟨j', rfl⟩ : ∃ j', j = j' + 1 := ⟨j - 1, by omega⟩
              have e1 : (i' + 1) * (i' + 1 + 1) / 2 - (i' + 1) + (j' + 1) - 1 = tri i' + j' := by
                have : (i' + 1) * (i' + 1 + 1) / 2 = tri (i' + 1) := rfl
                rw [this, tri_succ]; omega
              have e2 : (i' + 1) * (i' + 1 + 1) / 2 - (i' + 1) + (j' + 1) = tri i' + (j' + 1) := by
                have : (i' + 1) * (i' + 1 + 1) / 2 = tri (i' + 1) := rfl
                rw [this, tri_succ]; omega
              have e3 : (i' + 1) * (i' + 1 + 1) / 2 = tri (i' + 1) := rfl
              rw [e1, e2, e3, rd_tab F (by have := tri_lt (k := j') hi (by omega); rw [tri_succ] at this; omega),
                rd_tab F (by have := tri_lt (k := j' + 1) hi (by omega); rw [tri_succ] at this; omega)]
              simp only [bind_ok]
              refine ⟨_, wr_tab _ _ hpos, _, rfl, key _ ?_⟩
              rw [hF1 i' j' (by omega) (by omega), hF1 i' (j' + 1) (by omega) (by omega),
                Nat.choose_succ_succ, add64, ← Nat.add_mod])
        refine ⟨_, h1, G, rfl, ?_⟩
        intro n k hn hk
        rcases Nat.lt_succ_iff_lt_or_eq.mp hn with h | h
        · exact hG1 n k h hk
        · subst h; exact hG2 k (by omega))
  exact ⟨F, h1, hF⟩

/-- The lookup returns the binomial coefficient reduced mod 2^64. -/
theorem choose_mod (cfg : Cfg) {n i : Nat} (hn : n < cfg.maxBinom) (hi : i ≤ n) :
    choose cfg n i = .ok (n.choose i % 2 ^ 64) := by
  obtain ⟨F, h1, h2⟩ := binomTable_spec cfg.maxBinom (by omega)
  unfold choose
  rw [assertM_ok (by simpa using hn), h1]
  simp only [bind_ok]
  show rd (tab (tri cfg.maxBinom) F) (tri n + i) = _
  rw [rd_tab F (tri_lt hn hi), h2 n i hn hi]

theorem choose_lt_two_pow {n i : Nat} (hn : n < 68) : n.choose i < 2 ^ 64 := by
  calc n.choose i ≤ (67).choose i := Nat.choose_le_choose i (by omega)
    _ ≤ (67).choose (67 / 2) := Nat.choose_le_middle i 67
    _ < 2 ^ 64 := by
      rw [Nat.choose_eq_factorial_div_factorial (by norm_num)]
      decide +kernel

/-- configurations whose table entries fit into 64 bits (the default 30 and the
62 used in the tests do) -/
def Cfg.Ok (cfg : Cfg) : Prop := cfg.maxBinom ≤ 68

theorem choose_ok {cfg : Cfg} (hc : cfg.Ok) {n i : Nat} (hn : n < cfg.maxBinom) (hi : i ≤ n) :
    choose cfg n i = .ok (n.choose i) := by
  rw [choose_mod cfg hn hi, Nat.mod_eq_of_lt (choose_lt_two_pow (by unfold Cfg.Ok at hc; omega))]

theorem choose_assert {cfg : Cfg} {n i : Nat} (hn : cfg.maxBinom ≤ n) :
    choose cfg n i = .error .assertFail := by
  simp [choose, assertM, Nat.not_lt.mpr hn]

/-- One term of Vandermonde's identity. -/
theorem choose_mul_choose_le (m n i k : Nat) (hik : i ≤ k) :
    m.choose i * n.choose (k - i) ≤ (m + n).choose k := by
  rw [Nat.add_choose_eq]
  exact Finset.single_le_sum (f := fun ij : ℕ × ℕ => m.choose ij.1 * n.choose ij.2)
    (fun _ _ => Nat.zero_le _) (a := (i, k - i)) (by simp; omega)

theorem mul64_choose {cfg : Cfg} (hc : cfg.Ok) {m n i k : Nat} (hmn : m + n < cfg.maxBinom)
    (hik : i ≤ k) : mul64 (m.choose i) (n.choose (k - i)) = m.choose i * n.choose (k - i) := by
  unfold mul64
  apply Nat.mod_eq_of_lt
  have h1 := choose_mul_choose_le m n i k hik
  have h2 := choose_lt_two_pow (n := m + n) (i := k) (by unfold Cfg.Ok at hc; omega)
  omega

end Bezman
