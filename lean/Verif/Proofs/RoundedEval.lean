import Verif.Proofs.RoundedBox
import Verif.Proofs.Joint
import Verif.Proofs.History

/-! # Rounded interpolation stays in the unit interval -/

namespace Bezman
open Spec

section closed
variable {K V : Type} [One K] [Sub K] [Add V] [SMul K V] {S : V → Prop} {Q : K → Prop}
  (hS : ∀ (t : K) (a b : V), Q t → S a → S b → S ((1 - t) • a + t • b))
include hS

theorem triangle_stays {t : K} (ht : Q t) {P : ℕ → V} : ∀ {r j : ℕ}, (∀ i, i ≤ j + r → S (P i)) → S (triangle t P r j)
  | 0, j, h => h j (by omega)
  | r + 1, j, h => hS _ _ _ ht (triangle_stays ht fun i hi => h i (by omega)) (triangle_stays ht fun i hi => h i (by omega))

theorem casteljau_stays : ∀ {ps : List ℕ} {ts : List K} {P : List ℕ → V} (_ : ts.length = ps.length) (_ : ∀ t ∈ ts, Q t)
    (_ : ∀ idx, ValidIdx ps idx → S (P idx)), S (casteljau ps ts P)
  | [], ts, P, _, _, h => by rw [casteljau]; exact h [] .nil; simp
  | p :: ps, [], P, hl, _, h => by simp at hl
  | p :: ps, t :: ts, P, hl, hq, h => by
    rw [casteljau]
    exact casteljau_stays (by simpa using hl) (fun u hu => hq u (by simp [hu])) fun idx hi =>
      triangle_stays hS (hq t (by simp)) fun i hi' => h _ (.cons (by omega) hi)

theorem Spline.evaluate_stays {s : Spline V} (h : s.WF) (hs : ∀ x ∈ s.cps, S x) {t : List K} (ht : t.length = s.dim)
    (hq : ∀ u ∈ t, Q u) : ∃ x, s.evaluate t = .ok x ∧ S x := by
  obtain ⟨P, h1, h2⟩ := h.exists_net hs
  exact ⟨_, Spline.evaluate_casteljau h ht h1, casteljau_stays hS ht hq h2⟩

theorem Spline.orderElevate_stays [Mul K] [Div K] [NatCast K] [Zero V] {s r : Spline V} {d p : ℕ} (hp : s.degrees[d]? = some p)
    (hs : ∀ x ∈ s.cps, S x) (h0 : S 0) (hq : ∀ i : ℕ, i ≤ p → Q ((i : K) * (1 / ((p + 1 : ℕ) : K))))
    (h : Spline.orderElevate K s d = .ok r) : ∀ x ∈ r.cps, S x := by
  unfold Spline.orderElevate at h
  rw [rd_ok hp] at h
  simp only [bind_ok] at h
  obtain ⟨off, _, h⟩ := bind_eq_ok.mp h
  obtain ⟨n1, _, h⟩ := bind_eq_ok.mp h
  obtain ⟨n2, _, h⟩ := bind_eq_ok.mp h
  obtain ⟨n3, _, h⟩ := bind_eq_ok.mp h
  obtain ⟨n4, _, h⟩ := bind_eq_ok.mp h
  obtain ⟨dg, _, h⟩ := bind_eq_ok.mp h
  obtain ⟨gi, _, h⟩ := bind_eq_ok.mp h
  obtain ⟨st, hst, h⟩ := bind_eq_ok.mp h
  obtain ⟨os, _, h⟩ := bind_eq_ok.mp h
  cases h
  have store : ∀ (value : List V → M V) (st st' : List V × ℕ), (∀ x ∈ st.1, S x) →
      (∀ mem x, (∀ x ∈ mem, S x) → value mem = .ok x → S x) → Spline.elevStore value st = .ok st' → ∀ x ∈ st'.1, S x := by
    intro value st st' hst hv h
    unfold Spline.elevStore at h
    obtain ⟨x, hx, h⟩ := bind_eq_ok.mp h
    obtain ⟨m, hm, h⟩ := bind_eq_ok.mp h
    cases h
    exact mem_wr hm hst (hv _ _ hst hx)
  refine loopDown_ok (fun st : List V × ℕ => ∀ x ∈ st.1, S x) hst ?_ ?_
  · intro x hx
    rcases List.mem_append.mp hx with hx | hx
    · exact hs x (List.mem_of_mem_take hx)
    · rw [(List.mem_replicate.mp hx).2]; exact h0
  intro g _ st st' hst hg
  obtain ⟨f, _, hg⟩ := bind_eq_ok.mp hg
  obtain ⟨st1, h1, hg⟩ := bind_eq_ok.mp hg
  obtain ⟨st2, h2, hg⟩ := bind_eq_ok.mp hg
  have i1 : ∀ x ∈ st1.1, S x := loopDown_ok (fun st : List V × ℕ => ∀ x ∈ st.1, S x) h1 hst fun k _ st st' hst hk =>
    store _ _ _ hst (fun mem x hm hx => hm x (mem_rd hx)) hk
  have i2 : ∀ x ∈ st2.1, S x := loopDown_ok (fun st : List V × ℕ => ∀ x ∈ st.1, S x) h2 i1 fun i hi st st' hst hk =>
    loopDown_ok (fun st : List V × ℕ => ∀ x ∈ st.1, S x) hk hst fun k _ st st' hst hk =>
      store _ _ _ hst (fun mem x hm hx => by
        obtain ⟨a, ha, hx⟩ := bind_eq_ok.mp hx
        obtain ⟨b, hb, hx⟩ := bind_eq_ok.mp hx
        cases hx
        exact hS _ _ _ (hq (i + 1) (by omega)) (hm a (mem_rd ha)) (hm b (mem_rd hb))) hk
  exact loopDown_ok (fun st : List V × ℕ => ∀ x ∈ st.1, S x) hg i2 fun k _ st st' hst hk =>
    store _ _ _ hst (fun mem x hm hx => hm x (mem_rd hx)) hk

end closed

namespace Spec.Nearest
variable {p : ℕ} {q : ℤ} {rnd : ℝ → ℝ} (h : Nearest p q rnd)
include h

theorem nonneg {x : ℝ} (hx : 0 ≤ x) : 0 ≤ rnd x := by
  have := h.mono hx
  rwa [h.zero] at this

/-- the absolute error in the unit interval -/
theorem err_unit (hp : 0 < p) (hq : q ≤ -p) {x : ℝ} (h0 : 0 ≤ x) (h1 : x ≤ 1) : |rnd x - x| ≤ 2 ^ (-(p : ℤ)) / 2 := by
  have hpos : (0 : ℝ) < 2 ^ (-(p : ℤ)) := by positivity
  have hinv : (2 : ℝ) ^ p * 2 ^ (-(p : ℤ)) = 1 := by
    rw [← zpow_natCast, ← zpow_add₀ two_ne_zero]; simp
  set m := round (x * 2 ^ p) with hm
  have hr : |x * 2 ^ p - m| ≤ 1 / 2 := abs_sub_round _
  have hb := abs_le.mp hr
  have hx2 : x * 2 ^ p ≤ 2 ^ p := by nlinarith [show (0 : ℝ) < 2 ^ p by positivity]
  have hx0 : 0 ≤ x * 2 ^ p := by positivity
  have hm0 : -1 < m := by
    have : ((-1 : ℤ) : ℝ) < m := by push_cast; linarith
    exact_mod_cast this
  have hm1 : m < 2 ^ p + 1 := by
    have : (m : ℝ) < ((2 ^ p + 1 : ℤ) : ℝ) := by push_cast; linarith
    exact_mod_cast this
  have hf : IsFloat p q (m * 2 ^ (-(p : ℤ))) := IsFloat.mk_le hp (by rw [abs_le]; omega) hq
  refine (h.nearest x _ hf).trans ?_
  have e : (m : ℝ) * 2 ^ (-(p : ℤ)) - x = (m - x * 2 ^ p) * 2 ^ (-(p : ℤ)) := by
    rw [sub_mul, mul_assoc x, hinv, mul_one]
  rw [e, abs_mul, abs_of_pos hpos, abs_sub_comm]
  nlinarith

/-- interpolation with a ratio that is a floating-point number of the unit interval -/
theorem lerp (hp : 0 < p) (hq : q ≤ -p) {t a b : ℝ} (ht : IsFloat p q t) (ht0 : 0 ≤ t) (ht1 : t ≤ 1) (ha0 : 0 ≤ a) (ha1 : a ≤ 1)
    (hb0 : 0 ≤ b) (hb1 : b ≤ 1) : 0 ≤ rnd (rnd (rnd (1 - t) * a) + rnd (t * b)) ∧ rnd (rnd (rnd (1 - t) * a) + rnd (t * b)) ≤ 1 := by
  have hc0 : 0 ≤ rnd (1 - t) := h.nonneg (by linarith)
  refine ⟨h.nonneg (add_nonneg (h.nonneg (mul_nonneg hc0 ha0)) (h.nonneg (mul_nonneg ht0 hb0))), ?_⟩
  have h1 : rnd (rnd (1 - t) * a) ≤ rnd (1 - t) := by
    have := h.mono (show rnd (1 - t) * a ≤ rnd (1 - t) by nlinarith)
    rwa [h.exact (h.isFloat (1 - t))] at this
  have h2 : rnd (t * b) ≤ t := by
    have := h.mono (show t * b ≤ t by nlinarith)
    rwa [h.exact ht] at this
  have h3 := (abs_le.mp (h.err_unit hp hq (x := 1 - t) (by linarith) (by linarith))).2
  have hpos : (0 : ℝ) < 2 ^ (-(p : ℤ)) := by positivity
  exact h.le_one hp (by omega) (by linarith)

/-- a float that is closer than half a unit in the last place is the rounded value -/
theorem eq_of_close {x y : ℝ} {k e : ℤ} (hy : IsFloat p q y) (hk : y = k * 2 ^ e) (hx : |y - x| < 2 ^ e / 2)
    (hbig : (2 : ℝ) ^ (e + p - 1) + 2 ^ e / 2 ≤ |x|) : rnd x = y := by
  have h1 := lt_of_le_of_lt (h.nearest x y hy) hx
  have h2 : (2 : ℝ) ^ (e + p - 1) ≤ |rnd x| := by
    have := abs_sub_abs_le_abs_sub x (rnd x)
    rw [abs_sub_comm] at this
    linarith
  obtain ⟨m, hm⟩ := (h.isFloat x).multiple_of_le h2
  have hpos : (0 : ℝ) < 2 ^ e := by positivity
  have h3 : |(m - k : ℝ) * 2 ^ e| < 1 * 2 ^ e := by
    have : (m - k : ℝ) * 2 ^ e = (rnd x - x) - (y - x) := by rw [hm, hk]; ring
    rw [this]
    have := abs_sub (rnd x - x) (y - x)
    linarith
  rw [abs_mul, abs_of_pos hpos, mul_lt_mul_iff_of_pos_right hpos] at h3
  have h4 : |m - k| < 1 := by exact_mod_cast h3
  have h5 : m = k := by rw [Int.abs_lt_one_iff] at h4; omega
  rw [hm, hk, h5]

/-- the ratio `i / (p + 1)` of order elevation -/
theorem ratio (hp : 0 < p) (hq : q ≤ -p) {i n : ℕ} (hi : i ≤ n) (hn : 0 < n) (hr : (n : ℝ) ≤ 2 ^ (1 - q - p - 1)) :
    0 ≤ rnd (rnd i * rnd (1 / rnd n)) ∧ rnd (rnd i * rnd (1 / rnd n)) ≤ 1 := by
  have hn1 : (1 : ℝ) ≤ n := by exact_mod_cast hn
  have hD : 0 < rnd n := by
    have := h.mono hn1
    rw [h.one hp (by omega)] at this
    linarith
  have hD2 : rnd n ≤ 2 ^ (1 - q - p) := by
    have h1 := h.mono (hr.trans (zpow_le_zpow_right₀ (by norm_num) (by omega : 1 - q - (p : ℤ) - 1 ≤ 1 - q - p)))
    rwa [h.exact (IsFloat.two_zpow hp (by omega))] at h1
  obtain ⟨h1, _⟩ := h.fit hp hq (lo := 0) (hi := rnd n) IsFloat.zero (h.isFloat _) hD (by rw [sub_zero]; exact hD2)
  have := h1 (rnd i) (h.nonneg (by positivity)) (h.mono (by exact_mod_cast hi))
  rwa [neg_zero, zero_add, sub_zero, h.exact (h.isFloat i), h.exact (h.isFloat n)] at this

end Spec.Nearest
end Bezman
