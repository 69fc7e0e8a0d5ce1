import Verif.Proofs.NoOverflow
import Verif.Spec.Ieee
import Verif.Proofs.LocalMap

/-! # Interpolation with IEEE numbers -/

namespace Bezman
open Spec

/-! ## two computations in lockstep -/

section lockstep
variable {K V K' V' : Type} [One K] [Sub K] [Add V] [SMul K V] [One K'] [Sub K'] [Add V'] [SMul K' V'] {S : V → V' → Prop}
  {Q : K → K' → Prop}
  (hS : ∀ (t : K) (t' : K') (a b : V) (a' b' : V'), Q t t' → S a a' → S b b' → S ((1 - t) • a + t • b) ((1 - t') • a' + t' • b'))
include hS

theorem triangle_both {t : K} {t' : K'} (ht : Q t t') {P : ℕ → V} {P' : ℕ → V'} :
    ∀ {r j : ℕ}, (∀ i, i ≤ j + r → S (P i) (P' i)) → S (triangle t P r j) (triangle t' P' r j)
  | 0, j, h => h j (by omega)
  | r + 1, j, h => hS _ _ _ _ _ _ ht (triangle_both ht fun i hi => h i (by omega)) (triangle_both ht fun i hi => h i (by omega))

theorem casteljau_both : ∀ {ps : List ℕ} {ts : List K} {ts' : List K'} {P : List ℕ → V} {P' : List ℕ → V'} (_ : ts.length = ps.length)
    (_ : List.Forall₂ Q ts ts') (_ : ∀ idx, ValidIdx ps idx → S (P idx) (P' idx)), S (casteljau ps ts P) (casteljau ps ts' P')
  | [], ts, _, P, P', _, _, h => by rw [casteljau, casteljau]; exact h [] .nil; all_goals simp
  | p :: ps, [], _, P, P', hl, _, h => by simp at hl
  | p :: ps, t :: ts, _, P, P', hl, .cons (b := t') (l₂ := ts') h1 h2, h => by
    rw [casteljau, casteljau]
    exact casteljau_both (by simpa using hl) h2 fun idx hi =>
      triangle_both hS h1 fun i hi' => h _ (.cons (by omega) hi)

end lockstep

/-! ## one step -/

namespace Ieee
variable {p : ℕ} {q : ℤ} {rnd : ℝ → ℝ} {omega : ℝ}

theorem round_eq {x : ℝ} (h : |rnd x| ≤ omega) : (round x : Ieee rnd omega) = fin (rnd x) := if_pos h

theorem add_fin (x y : ℝ) : (fin x + fin y : Ieee rnd omega) = round (x + y) := rfl
theorem sub_fin (x y : ℝ) : (fin x - fin y : Ieee rnd omega) = round (x + -y) := rfl
theorem mul_fin (x y : ℝ) : (fin x * fin y : Ieee rnd omega) = round (x * y) := rfl

theorem lerp_is (h : Nearest p q rnd) (hp : 0 < p) (hq : q ≤ -p) {E : ℤ} (hE : (p : ℤ) ≤ E) {t a b : ℝ} (ht : UnitFloat p q t)
    (ha : IsFloat p q a) (ha' : |a| ≤ maxFinite p E) (hb : IsFloat p q b) (hb' : |b| ≤ maxFinite p E) :
    ((1 - fin t) * fin a + fin t * fin b : Ieee rnd (maxFinite p E)).Is p q (rnd (rnd (rnd (1 - t) * a) + rnd (t * b))) := by
  obtain ⟨tf, t0, t1⟩ := ht
  have hO : IsFloat p q (maxFinite p E) := Nearest.maxFinite_isFloat hE (by omega)
  have hO1 : 1 ≤ maxFinite p E := by
    have h2 : (2 : ℝ) ^ (1 : ℤ) ≤ 2 ^ E := zpow_le_zpow_right₀ (by norm_num) (by omega)
    have h3 : (2 : ℝ) ^ (-(p : ℤ)) ≤ 2 ^ (-1 : ℤ) := zpow_le_zpow_right₀ (by norm_num) (by omega)
    rw [zpow_one] at h2
    rw [zpow_neg_one] at h3
    unfold maxFinite
    nlinarith
  have hc0 : 0 ≤ rnd (1 - t) := h.nonneg (by linarith)
  have hc1 : rnd (1 - t) ≤ 1 := by
    have := h.mono (show 1 - t ≤ 1 by linarith)
    rwa [h.one hp (by omega)] at this
  have e1 : (1 - fin t : Ieee rnd (maxFinite p E)) = fin (rnd (1 - t)) := by
    show round (1 + -t) = _
    rw [← sub_eq_add_neg]
    exact round_eq (by rw [abs_of_nonneg hc0]; linarith)
  have m1 : |rnd (rnd (1 - t) * a)| ≤ maxFinite p E := by
    refine h.abs_le_of hO ?_
    rw [abs_mul, abs_of_nonneg hc0]
    nlinarith [abs_nonneg a]
  have m2 : |rnd (t * b)| ≤ maxFinite p E := by
    refine h.abs_le_of hO ?_
    rw [abs_mul, abs_of_nonneg t0]
    nlinarith [abs_nonneg b]
  rw [e1, mul_fin, mul_fin, round_eq m1, round_eq m2, add_fin]
  have hs : |rnd (rnd (rnd (1 - t) * a) + rnd (t * b))| ≤ maxFinite p E := h.lerp_abs hp hq hE tf t0 t1 ha' hb'
  exact ⟨round_eq hs, h.isFloat _, hs⟩

theorem mul_comm' (a b : Ieee rnd omega) : a * b = b * a := by
  cases a <;> cases b <;> try rfl
  · rename_i x y
    rw [mul_fin, mul_fin, mul_comm]
  · rename_i x s
    show (if x = 0 then nan else inf _ : Ieee rnd omega) = if x = 0 then nan else inf _
    rw [Bool.xor_comm]
  · rename_i s x
    show (if x = 0 then nan else inf _ : Ieee rnd omega) = if x = 0 then nan else inf _
    rw [Bool.xor_comm]
  · rename_i s s'
    show (inf _ : Ieee rnd omega) = inf _
    rw [Bool.xor_comm]

theorem one_le_maxFinite (hp : 0 < p) {E : ℤ} (hE : (p : ℤ) ≤ E) : (2 : ℝ) ^ (E - 1) ≤ maxFinite p E := by
  have h3 : (2 : ℝ) ^ (-(p : ℤ)) ≤ 2 ^ (-1 : ℤ) := zpow_le_zpow_right₀ (by norm_num) (by omega)
  rw [zpow_neg_one] at h3
  have h2 : (0 : ℝ) < 2 ^ E := by positivity
  unfold maxFinite
  rw [zpow_sub₀ two_ne_zero, zpow_one]
  nlinarith

/-! ## the scalar operations of the algorithms -/

section
variable (h : Nearest p q rnd) (hp : 0 < p) (hq : q ≤ -p) {E : ℤ} (hE : (p : ℤ) ≤ E)
include h hp hq hE

theorem lerp_finite (t a b : Ieee rnd (maxFinite p E)) (ht : t.Unit p q) (ha : a.Finite p q) (hb : b.Finite p q) :
    ((1 - t) * a + t * b).Finite p q := by
  obtain ⟨t, rfl, ht⟩ := ht
  obtain ⟨a, rfl, ha⟩ := ha
  obtain ⟨b, rfl, hb⟩ := hb
  exact ⟨_, lerp_is h hp hq hE ht ha.1 ha.2 hb.1 hb.2⟩

theorem lerp_toRd (t a b : Ieee rnd (maxFinite p E)) (ht : t.Unit p q) (ha : a.Finite p q) (hb : b.Finite p q) :
    ((1 - t) * a + t * b).toRd = (1 - t.toRd) * a.toRd + t.toRd * b.toRd := by
  obtain ⟨t, rfl, ht⟩ := ht
  obtain ⟨a, rfl, ha⟩ := ha
  obtain ⟨b, rfl, hb⟩ := hb
  rw [(lerp_is h hp hq hE ht ha.1 ha.2 hb.1 hb.2).1]
  rfl

theorem lerp_point_eq {n : ℕ} (t : Ieee rnd (maxFinite p E)) (a b : Point (Ieee rnd (maxFinite p E)) n) (j : Fin n) :
    ((1 - t) • a + t • b).val j = (1 - t) * a.val j + t * b.val j := by
  show a.val j * (1 - t) + b.val j * t = _
  rw [mul_comm', mul_comm' (b.val j)]

theorem lerp_point_finite {n : ℕ} (t : Ieee rnd (maxFinite p E)) (a b : Point (Ieee rnd (maxFinite p E)) n) (ht : t.Unit p q)
    (ha : ∀ j, (a.val j).Finite p q) (hb : ∀ j, (b.val j).Finite p q) (j : Fin n) : (((1 - t) • a + t • b).val j).Finite p q := by
  rw [lerp_point_eq h hp hq hE]
  exact lerp_finite h hp hq hE _ _ _ ht (ha j) (hb j)

theorem lerp_point_toRd {n : ℕ} (t : Ieee rnd (maxFinite p E)) (a b : Point (Ieee rnd (maxFinite p E)) n) (ht : t.Unit p q)
    (ha : ∀ j, (a.val j).Finite p q) (hb : ∀ j, (b.val j).Finite p q) :
    ((1 - t) • a + t • b).map toRd = (1 - t.toRd) • a.map toRd + t.toRd • b.map toRd := by
  refine Point.ext (funext fun j => ?_)
  show toRd (((1 - t) • a + t • b).val j) = ⟨rnd (rnd ((a.val j).toRd.val * (1 - t.toRd).val) + rnd ((b.val j).toRd.val * t.toRd.val))⟩
  rw [lerp_point_eq h hp hq hE, lerp_toRd h hp hq hE _ _ _ ht (ha j) (hb j), mul_comm (a.val j).toRd.val, mul_comm (b.val j).toRd.val]
  rfl

/-- the relative position of the next plane -/
theorem rel_toRd {z z' : Ieee rnd (maxFinite p E)} (hz : z.Finite p q) (hz' : z'.Finite p q) (h0 : 0 < (z - z') / (1 - z'))
    (h1 : (z - z') / (1 - z') < 1) : ((z - z') / (1 - z')).Unit p q ∧ ((z - z') / (1 - z')).toRd = (z.toRd - z'.toRd) / (1 - z'.toRd) ∧
      0 < ((z - z') / (1 - z')).toRd ∧ ((z - z') / (1 - z')).toRd < 1 := by
  obtain ⟨z, rfl, hz⟩ := hz
  obtain ⟨z', rfl, hz'⟩ := hz'
  have e1 : (fin z - fin z' : Ieee rnd (maxFinite p E)) = round (z - z') := by rw [sub_fin, sub_eq_add_neg]
  have e2 : (1 - fin z' : Ieee rnd (maxFinite p E)) = round (1 - z') := by
    rw [sub_eq_add_neg]; exact sub_fin 1 z'
  rw [e1, e2] at h0 h1 ⊢
  have key : ∀ x : ℝ, (round x : Ieee rnd (maxFinite p E)) = fin (rnd x) ∨ ∃ s, (round x : Ieee rnd (maxFinite p E)) = inf s := by
    intro x
    unfold round
    split
    · exact .inl rfl
    · exact .inr ⟨_, rfl⟩
  have notinf : ∀ s, ¬ ((0 : Ieee rnd (maxFinite p E)) < inf s ∧ (inf s : Ieee rnd (maxFinite p E)) < 1) := by
    intro s hs
    have a : s = false := hs.1
    have b : s = true := hs.2
    rw [a] at b; cases b
  rcases key (z - z') with a1 | ⟨s, a1⟩ <;> rcases key (1 - z') with a2 | ⟨s', a2⟩ <;> rw [a1, a2] at h0 h1
  · by_cases hd : rnd (1 - z') = 0
    · have e : (fin (rnd (z - z')) / fin (rnd (1 - z')) : Ieee rnd (maxFinite p E)) =
          if rnd (z - z') = 0 then nan else inf (decide (rnd (z - z') < 0)) := if_pos hd
      rw [e] at h0 h1
      split at h0
      · exact h0.elim
      · rw [if_neg (by assumption)] at h1
        exact (notinf _ ⟨h0, h1⟩).elim
    · have e : (fin (rnd (z - z')) / fin (rnd (1 - z')) : Ieee rnd (maxFinite p E)) = round (rnd (z - z') / rnd (1 - z')) := if_neg hd
      rw [a1, a2]
      rw [e] at h0 h1 ⊢
      rcases key (rnd (z - z') / rnd (1 - z')) with a3 | ⟨s, a3⟩ <;> rw [a3] at h0 h1
      · rw [a3]
        exact ⟨⟨_, rfl, h.isFloat _, le_of_lt h0, le_of_lt h1⟩, rfl, h0, h1⟩
      · exact (notinf _ ⟨h0, h1⟩).elim
  · exact (lt_irrefl (0 : ℝ) h0).elim
  · exact (notinf _ ⟨h0, h1⟩).elim
  · exact h0.elim

/-- the ratio of order elevation -/
theorem ratio_toRd (hq' : q ≤ -31 - p) (hE' : 32 ≤ E) {i n : ℕ} (hi : i ≤ n) (hn : 0 < n) (hn' : n < 2 ^ 31) :
    ((i : Ieee rnd (maxFinite p E)) * (1 / (n : Ieee rnd (maxFinite p E)))).Unit p q ∧
      ((i : Ieee rnd (maxFinite p E)) * (1 / (n : Ieee rnd (maxFinite p E)))).toRd = (i : Rd rnd) * (1 / (n : Rd rnd)) := by
  have hO : (2 : ℝ) ^ (31 : ℤ) ≤ maxFinite p E := le_trans (zpow_le_zpow_right₀ (by norm_num) (by omega)) (one_le_maxFinite hp hE)
  have f31 : IsFloat p q ((2 : ℝ) ^ (31 : ℤ)) := IsFloat.two_zpow hp (by omega)
  have cast : ∀ k : ℕ, k < 2 ^ 31 → (k : Ieee rnd (maxFinite p E)) = fin (rnd k) ∧ rnd k ≤ 2 ^ (31 : ℤ) := by
    intro k hk
    have : |rnd (k : ℝ)| ≤ 2 ^ (31 : ℤ) := h.abs_le_of f31 (by
      rw [abs_of_nonneg (by positivity)]
      have : (k : ℝ) ≤ 2 ^ 31 := by exact_mod_cast hk.le
      exact_mod_cast this)
    exact ⟨round_eq (this.trans hO), (le_abs_self _).trans this⟩
  have hn1 : (1 : ℝ) ≤ n := by exact_mod_cast hn
  have hD : 1 ≤ rnd n := by
    have := h.mono hn1
    rwa [h.one hp (by omega)] at this
  obtain ⟨c1, _⟩ := cast i (by omega)
  obtain ⟨c2, _⟩ := cast n hn'
  have hr := h.ratio hp hq hi hn (by
    refine le_trans ?_ (zpow_le_zpow_right₀ (by norm_num) (by omega : (31 : ℤ) ≤ 1 - q - p - 1))
    exact_mod_cast hn'.le)
  have d : (1 / (n : Ieee rnd (maxFinite p E))) = fin (rnd (1 / rnd n)) := by
    rw [c2]
    show (if rnd (n : ℝ) = 0 then _ else round (1 / rnd (n : ℝ))) = _
    rw [if_neg (by linarith)]
    refine round_eq ?_
    have : |rnd (1 / rnd (n : ℝ))| ≤ 1 := h.abs_le_of (by simpa using IsFloat.two_zpow (p := p) (q := q) (e := 0) hp (by omega)) (by
      rw [abs_of_nonneg (by positivity), div_le_one (by linarith)]; exact hD)
    have h1 : (1 : ℝ) ≤ 2 ^ (31 : ℤ) := by norm_num
    linarith
  have m : (i : Ieee rnd (maxFinite p E)) * (1 / (n : Ieee rnd (maxFinite p E))) = fin (rnd (rnd i * rnd (1 / rnd n))) := by
    rw [c1, d, mul_fin]
    refine round_eq ?_
    rw [abs_of_nonneg hr.1]
    have h1 : (1 : ℝ) ≤ 2 ^ (31 : ℤ) := by norm_num
    linarith [hr.2]
  rw [m]
  exact ⟨⟨_, rfl, h.isFloat _, hr⟩, rfl⟩

end

end Ieee
end Bezman
