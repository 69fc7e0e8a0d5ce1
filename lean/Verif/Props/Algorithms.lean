import Verif.Proofs.Algorithms
import Mathlib.Algebra.Order.Field.Rat

/-! # Properties: sorting of index lists, integer powers -/

namespace Bezman.Props
open Algorithms

/-- What `operator<` of the entries has to satisfy (a strict weak order): nothing is
smaller than something smaller than itself, and "not smaller" is transitive. -/
structure WeakOrder {T : Type} (lt : T → T → Bool) : Prop where
  asymm : ∀ a b, lt a b = true → lt b a = false
  trans : ∀ a b c, lt b a = false → lt c b = false → lt c a = false

/-- `r` lists the positions of `v` by increasing entry, equal entries in their original
order. -/
def SortsIndices {T : Type} (lt : T → T → Bool) (v : List T) (r : List ℕ) : Prop :=
  r.Perm (List.range v.length) ∧
  ∀ k l : ℕ, k < l → ∀ i j : ℕ, r[k]? = some i → r[l]? = some j → ∀ a b, v[i]? = some a → v[j]? = some b →
    lt b a = false ∧ (lt a b = false → i < j)

theorem sortsIndices_iff {T : Type} (lt : T → T → Bool) (v : List T) (r : List ℕ) :
    SortsIndices lt v r ↔ r.Perm (List.range v.length) ∧ r.Pairwise (Before lt v) := by
  unfold SortsIndices
  apply and_congr_right
  intro _
  rw [List.pairwise_iff_getElem]
  constructor
  · intro h k l hk hl hkl a b ha hb
    exact h k l hkl _ _ (List.getElem?_eq_getElem hk) (List.getElem?_eq_getElem hl) a b ha hb
  · intro h k l hkl i j hi hj a b ha hb
    obtain ⟨hk, rfl⟩ := List.getElem?_eq_some_iff.mp hi
    obtain ⟨hl, rfl⟩ := List.getElem?_eq_some_iff.mp hj
    exact h k l hk hl hkl a b ha hb

/-- C53. `IndexListSort` returns the positions of all entries, by increasing entry, equal
entries in their original order. -/
theorem C53_sorts {T : Type} (lt : T → T → Bool) (h : WeakOrder lt) (v : List T) :
    ∃ r, indexListSort lt v = .ok r ∧ SortsIndices lt v r := by
  obtain ⟨r, h1, h2⟩ := indexListSort_ok h.asymm h.trans v
  exact ⟨r, h1, (sortsIndices_iff lt v r).mpr h2⟩

/-- C53. There is only one such list. -/
theorem C53_unique {T : Type} (lt : T → T → Bool) (v : List T) (r r' : List ℕ)
    (h : SortsIndices lt v r) (h' : SortsIndices lt v r') : r = r' := by
  rw [sortsIndices_iff] at h h'
  refine List.Perm.eq_of_pairwise (le := Before lt v) ?_ h.2 h'.2 (h.1.trans h'.1.symm)
  intro a b ha hb hab hba
  have ha' : a < v.length := List.mem_range.mp (h.1.mem_iff.mp ha)
  have hb' : b < v.length := List.mem_range.mp (h'.1.mem_iff.mp hb)
  have h1 := hab _ _ (List.getElem?_eq_getElem ha') (List.getElem?_eq_getElem hb')
  have h2 := hba _ _ (List.getElem?_eq_getElem hb') (List.getElem?_eq_getElem ha')
  have := h1.2 h2.1
  have := h2.2 h1.1
  omega

/-- C53. The entries in the order of the list increase. -/
theorem C53_entries_increase {T : Type} [LinearOrder T] (v : List T) :
    ∃ r, indexListSort (fun a b => decide (a < b)) v = .ok r ∧ r.Perm (List.range v.length) ∧
      (r.filterMap (fun i => v[i]?)).Pairwise (· ≤ ·) := by
  obtain ⟨r, h1, h2, h3⟩ := indexListSort_ok (lt := fun a b : T => decide (a < b))
    (fun a b h => by simp at h ⊢; exact le_of_lt h) (fun a b c h1 h2 => by simp at h1 h2 ⊢; exact le_trans h1 h2) v
  refine ⟨r, h1, h2, ?_⟩
  rw [List.pairwise_filterMap]
  exact h3.imp (fun {i j} h a ha b hb => by simpa using (h a b ha hb).1)

example : WeakOrder (fun a b : ℚ => decide (a < b)) where
  asymm a b h := by simp at h ⊢; exact le_of_lt h
  trans a b c h1 h2 := by simp at h1 h2 ⊢; exact le_trans h1 h2

example : indexListSort (fun a b : ℤ => decide (a < b)) [3, 1, 2, 1] = .ok [1, 3, 2, 0] := by decide

/-! ## C54 -/

/-- C54. `IntPower(b, e)` is `b^e` if this value fits into the type of the arguments, the
value for half the exponent fits into an `int`, and so does the result if the exponent is
even. -/
theorem C54_int_power (T : IntTy) (hT : 8 ≤ T.bits) (b : ℤ) (hb : T.InRange b) (e : ℕ)
    (hfit : T.InRange (b ^ e)) (heven : e % 2 = 0 → cInt.InRange (b ^ e)) (hhalf : 2 ≤ e → cInt.InRange (b ^ (e / 2))) :
    intPower T b e = .ok (b ^ e) :=
  intPower_ok hT hb e hfit heven hhalf

/-- C54. For `int` it suffices that the result fits. -/
theorem C54_int (b : ℤ) (hb : cInt.InRange b) (e : ℕ) (hfit : cInt.InRange (b ^ e)) : intPower cInt b e = .ok (b ^ e) :=
  C54_int_power cInt (by decide) b hb e hfit (fun _ => hfit) (fun _ => inRange_pow (by decide) (Nat.div_le_self _ _) hfit hb)

/-- C54. Limits of the claim: for wider types a result that fits into the type is not
enough, because the intermediate results are stored in an `int`: `IntPower<std::size_t>(2,
32)` overflows, and `IntPower<std::size_t>(3, 40)` does. -/
theorem C54_int_limits : intPower cSize 2 32 = .error .ub ∧ intPower cSize 3 40 = .error .ub ∧
    cSize.InRange (2 ^ 32) ∧ cSize.InRange (3 ^ 40) := by
  refine ⟨?_, ?_, by decide, by decide⟩ <;> decide +kernel

example : cInt.InRange 7 ∧ cInt.InRange (7 ^ 11) ∧ cSize.InRange (7 ^ 21) ∧ cInt.InRange (7 ^ (21 / 2)) := by decide +kernel
example : intPower cSize 7 21 = .ok (7 ^ 21) :=
  C54_int_power cSize (by decide) 7 (by decide +kernel) 21 (by decide +kernel) (fun h => absurd h (by decide)) (fun _ => by decide +kernel)

end Bezman.Props
