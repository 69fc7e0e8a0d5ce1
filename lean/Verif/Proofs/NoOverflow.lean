import Verif.Proofs.RoundedEval

/-! # Rounded interpolation between numbers up to the largest one -/

namespace Bezman.Spec.Nearest
variable {p : ℕ} {q : ℤ} {rnd : ℝ → ℝ} (h : Nearest p q rnd)
include h

omit h in
theorem maxFinite_isFloat {E : ℤ} (hE : (p : ℤ) ≤ E) (hq : q ≤ 0) : IsFloat p q ((1 - 2 ^ (-(p : ℤ))) * 2 ^ E) := by
  refine ⟨2 ^ p - 1, E - p, ?_, by omega, ?_⟩
  · have : (1 : ℤ) ≤ 2 ^ p := one_le_pow₀ (by norm_num)
    rw [abs_of_nonneg (by omega)]; omega
  · push_cast
    rw [sub_mul, sub_mul, one_mul, one_mul, ← zpow_natCast, ← zpow_add₀ two_ne_zero, ← zpow_add₀ two_ne_zero]
    congr 2 <;> ring

/-- a positive number times the largest one is rounded to less than its multiple by `2^E` -/
theorem mul_max_lt (hp : 0 < p) (hq : q ≤ 0) {E : ℤ} (hE : (p : ℤ) ≤ E) {t : ℝ} (ht : IsFloat p q t) (ht0 : 0 < t) :
    rnd (t * ((1 - 2 ^ (-(p : ℤ))) * 2 ^ E)) < t * 2 ^ E := by
  set u : ℝ := 2 ^ (-(p : ℤ)) with hu
  have hu0 : 0 < u := by positivity
  have hE0 : (0 : ℝ) < 2 ^ E := by positivity
  set e : ℤ := Int.log 2 t - (p - 1) with he
  have hlog1 : (2 : ℝ) ^ (e + p - 1) ≤ t := by
    have := Int.zpow_log_le_self (b := 2) (by norm_num) ht0
    rw [show e + p - 1 = Int.log 2 t by omega]; exact_mod_cast this
  have hlog2 : t < 2 ^ (e + p) := by
    have := Int.lt_zpow_succ_log_self (b := 2) (by norm_num) t
    rw [show e + p = Int.log 2 t + 1 by omega]; exact_mod_cast this
  have hqt : (2 : ℝ) ^ q ≤ t := by
    obtain ⟨k, hk⟩ := ht.multiple
    have hq0 : (0 : ℝ) < 2 ^ q := by positivity
    have : (0 : ℝ) < k := by
      rw [hk] at ht0
      exact (mul_pos_iff_of_pos_right hq0).mp ht0
    have h1 : (1 : ℝ) ≤ k := by
      have : 0 < k := by exact_mod_cast this
      exact_mod_cast this
    rw [hk]; nlinarith
  have heq : q < e + p := by
    have := lt_of_le_of_lt hqt hlog2
    exact (zpow_lt_zpow_iff_right₀ (by norm_num : (1 : ℝ) < 2)).mp this
  clear_value e
  obtain ⟨m, hm⟩ := ht.multiple_of_le (e := e) (by rwa [abs_of_pos ht0])
  have he0 : (0 : ℝ) < 2 ^ e := by positivity
  have hm1 : 2 ^ (p - 1) ≤ m := by
    have : (2 : ℝ) ^ (p - 1) ≤ m := by
      rw [hm, show e + p - 1 = ((p - 1 : ℕ) : ℤ) + e by omega, zpow_add₀ two_ne_zero, zpow_natCast] at hlog1
      exact le_of_mul_le_mul_right hlog1 he0
    exact_mod_cast this
  have hm2 : m < 2 ^ p := by
    have : (m : ℝ) < 2 ^ p := by
      rw [hm, add_comm, zpow_add₀ two_ne_zero, zpow_natCast] at hlog2
      exact lt_of_mul_lt_mul_right hlog2 he0.le
    exact_mod_cast this
  have hm0 : 0 < m := lt_of_lt_of_le (by positivity) hm1
  have hp2 : (2 : ℝ) ^ p * u = 1 := by rw [hu, ← zpow_natCast, ← zpow_add₀ two_ne_zero]; simp
  have hp1 : (2 : ℝ) ^ p = 2 * 2 ^ (p - 1) := by rw [← pow_succ']; congr 1; omega
  rcases hm1.eq_or_lt with hm' | hm'
  · have hmr : (m : ℝ) = 2 ^ (p - 1) := by rw [← hm']; push_cast; rfl
    have hf : IsFloat p q (t * ((1 - u) * 2 ^ E)) := by
      refine ⟨2 ^ p - 1, e - 1 + E, ?_, by omega, ?_⟩
      · have : (1 : ℤ) ≤ 2 ^ p := one_le_pow₀ (by norm_num)
        rw [abs_of_nonneg (by omega)]; omega
      · rw [hm, hmr]; push_cast
        rw [zpow_add₀ two_ne_zero, zpow_sub₀ two_ne_zero, zpow_one, hp1]
        have : (2 : ℝ) ^ (p - 1) * u = 1 / 2 := by rw [hp1] at hp2; linarith
        have e1 : (2 : ℝ) ^ (p - 1) * 2 ^ e * ((1 - u) * 2 ^ E) = (2 ^ (p - 1) - 2 ^ (p - 1) * u) * (2 ^ e * 2 ^ E) := by ring
        rw [e1, this]; ring
    rw [h.exact hf]
    have := mul_pos (mul_pos ht0 hu0) hE0
    nlinarith
  · by_contra hge
    rw [not_lt] at hge
    have hf : IsFloat p q ((m - 1 : ℤ) * 2 ^ (e + E)) := ⟨m - 1, e + E, by rw [abs_of_nonneg (by omega)]; omega, by omega, rfl⟩
    have h1 := h.nearest (t * ((1 - u) * 2 ^ E)) _ hf
    have hle := le_abs_self (rnd (t * ((1 - u) * 2 ^ E)) - t * ((1 - u) * 2 ^ E))
    have hpos : (0 : ℝ) < 2 ^ e * 2 ^ E := by positivity
    have e2 : ((m - 1 : ℤ) : ℝ) * 2 ^ (e + E) - t * ((1 - u) * 2 ^ E) = (m * u - 1) * (2 ^ e * 2 ^ E) := by
      rw [hm, zpow_add₀ two_ne_zero]; push_cast; ring
    have hmu1 : m * u < 1 := by
      have : (m : ℝ) < 2 ^ p := by exact_mod_cast hm2
      nlinarith
    have hmu2 : 1 / 2 < m * u := by
      have : (2 : ℝ) ^ (p - 1) < m := by exact_mod_cast hm'
      rw [hp1] at hp2
      nlinarith
    rw [e2, abs_mul, abs_of_pos hpos, abs_of_neg (show (m : ℝ) * u - 1 < 0 by linarith)] at h1
    have e3 : t * 2 ^ E - t * ((1 - u) * 2 ^ E) = m * u * (2 ^ e * 2 ^ E) := by rw [hm]; ring
    have : m * u * ((2 : ℝ) ^ e * 2 ^ E) ≤ -(m * u - 1) * (2 ^ e * 2 ^ E) := by linarith
    have := le_of_mul_le_mul_right this hpos
    linarith

/-- above one half: by one unit in the last place -/
theorem mul_max_le (hp : 0 < p) (hq : q ≤ 0) {E : ℤ} (hE : (p : ℤ) ≤ E) {t : ℝ} (ht : IsFloat p q t) (ht0 : 1 / 2 < t) (ht1 : t ≤ 1) :
    rnd (t * ((1 - 2 ^ (-(p : ℤ))) * 2 ^ E)) ≤ (t - 2 ^ (-(p : ℤ))) * 2 ^ E := by
  set u : ℝ := 2 ^ (-(p : ℤ)) with hu
  have hu0 : 0 < u := by positivity
  have hE0 : (0 : ℝ) < 2 ^ E := by positivity
  have hp2 : (2 : ℝ) ^ p * u = 1 := by rw [hu, ← zpow_natCast, ← zpow_add₀ two_ne_zero]; simp
  have hp1 : (2 : ℝ) ^ p = 2 * 2 ^ (p - 1) := by rw [← pow_succ']; congr 1; omega
  have hhalf : (2 : ℝ) ^ (-(p : ℤ) + p - 1) = 1 / 2 := by rw [neg_add_cancel]; norm_num
  obtain ⟨k, hk⟩ := ht.multiple_of_le (e := -(p : ℤ)) (by rw [hhalf, abs_of_pos (by linarith)]; exact ht0.le)
  rw [← hu] at hk
  have hk1 : k ≤ 2 ^ p := by
    have : (k : ℝ) ≤ 2 ^ p := by
      rw [hk, ← hp2] at ht1
      exact le_of_mul_le_mul_right ht1 hu0
    exact_mod_cast this
  have hk0 : 2 ^ (p - 1) < k := by
    have : (2 : ℝ) ^ (p - 1) < k := by
      rw [hp1] at hp2
      have h2 : (2 : ℝ) ^ (p - 1) * u < k * u := by rw [← hk]; linarith
      exact lt_of_mul_lt_mul_right h2 hu0.le
    exact_mod_cast this
  have hpp : (0 : ℤ) < 2 ^ (p - 1) := by positivity
  have eu : (2 : ℝ) ^ (E - p) = u * 2 ^ E := by rw [hu, ← zpow_add₀ two_ne_zero]; congr 1; ring
  have hy : (t - u) * 2 ^ E = ((k - 1 : ℤ) : ℝ) * 2 ^ (E - p) := by rw [eu, hk]; push_cast; ring
  have hf : IsFloat p q ((t - u) * 2 ^ E) := ⟨k - 1, E - p, by rw [abs_of_nonneg (by omega)]; omega, by omega, hy⟩
  by_contra hlt
  rw [not_le] at hlt
  have hbig : (2 : ℝ) ^ (E - p + p - 1) ≤ |rnd (t * ((1 - u) * 2 ^ E))| := by
    refine le_trans ?_ (hlt.le.trans (le_abs_self _))
    rw [show E - p + p - 1 = ((p - 1 : ℕ) : ℤ) + (E - p) by omega, hy, zpow_add₀ two_ne_zero, zpow_natCast]
    refine mul_le_mul_of_nonneg_right ?_ (by positivity)
    have : (2 : ℤ) ^ (p - 1) ≤ k - 1 := by omega
    exact_mod_cast this
  obtain ⟨l, hl⟩ := (h.isFloat _).multiple_of_le hbig
  have hl1 : k ≤ l := by
    rw [hl, hy] at hlt
    have := lt_of_mul_lt_mul_right hlt (by positivity)
    have : k - 1 < l := by exact_mod_cast this
    omega
  have hge : t * 2 ^ E ≤ rnd (t * ((1 - u) * 2 ^ E)) := by
    have : (k : ℝ) ≤ l := by exact_mod_cast hl1
    rw [hl, eu, hk]
    have := mul_le_mul_of_nonneg_right this (mul_pos hu0 hE0).le
    linarith
  have h1 := h.nearest (t * ((1 - u) * 2 ^ E)) _ hf
  have e2 : (t - u) * 2 ^ E - t * ((1 - u) * 2 ^ E) = -((1 - t) * (u * 2 ^ E)) := by ring
  have hup : 0 < u * 2 ^ E := mul_pos hu0 hE0
  rw [e2, abs_neg, abs_of_nonneg (mul_nonneg (by linarith) hup.le)] at h1
  have hle := le_abs_self (rnd (t * ((1 - u) * 2 ^ E)) - t * ((1 - u) * 2 ^ E))
  have : t * (u * 2 ^ E) ≤ (1 - t) * (u * 2 ^ E) := by nlinarith
  have := le_of_mul_le_mul_right this hup
  linarith

/-- interpolation between numbers up to the largest one does not overflow -/
theorem lerp_max (hp : 0 < p) (hq : q ≤ -p) {E : ℤ} (hE : (p : ℤ) ≤ E) {c t : ℝ} (ht : IsFloat p q t) (ht0 : 0 ≤ t) (ht1 : t ≤ 1)
    (hcf : IsFloat p q c) (hc0 : 0 ≤ c) (hc1 : c ≤ 1) (hct : c + t ≤ 1 + 2 ^ (-(p : ℤ)) / 2) :
    rnd (c * ((1 - 2 ^ (-(p : ℤ))) * 2 ^ E)) + rnd (t * ((1 - 2 ^ (-(p : ℤ))) * 2 ^ E)) < (1 - 2 ^ (-(p : ℤ)) / 2) * 2 ^ E := by
  set u : ℝ := 2 ^ (-(p : ℤ)) with hu
  have hu0 : 0 < u := by positivity
  have hE0 : (0 : ℝ) < 2 ^ E := by positivity
  have hup : 0 < u * 2 ^ E := mul_pos hu0 hE0
  have sum_lt : ∀ {x y : ℝ}, IsFloat p q x → IsFloat p q y → 1 / 2 < x → x ≤ 1 → 0 ≤ y → x + y ≤ 1 + u / 2 →
      rnd (x * ((1 - u) * 2 ^ E)) + rnd (y * ((1 - u) * 2 ^ E)) < (1 - u / 2) * 2 ^ E := by
    intro x y hx hy hx0 hx1 hy0 hxy
    have h1 := h.mul_max_le hp (by omega) hE hx hx0 hx1
    rw [← hu] at h1
    rcases hy0.eq_or_lt with rfl | hy0
    · rw [zero_mul, h.zero, add_zero]
      have : x * 2 ^ E ≤ 1 * 2 ^ E := mul_le_mul_of_nonneg_right hx1 hE0.le
      nlinarith
    · have h2 := h.mul_max_lt hp (by omega) hE hy hy0
      rw [← hu] at h2
      have : (x + y) * 2 ^ E ≤ (1 + u / 2) * 2 ^ E := mul_le_mul_of_nonneg_right hxy hE0.le
      nlinarith
  rcases lt_or_ge (1 / 2) c with hc2 | hc2
  · exact sum_lt hcf ht hc2 hc1 ht0 (by linarith)
  rcases lt_or_ge (1 / 2) t with ht2 | ht2
  · rw [add_comm]
    exact sum_lt ht hcf ht2 ht1 hc0 (by linarith)
  · have hf : IsFloat p q (1 / 2 * ((1 - u) * 2 ^ E)) := by
      refine ⟨2 ^ p - 1, E - p - 1, ?_, by omega, ?_⟩
      · have : (1 : ℤ) ≤ 2 ^ p := one_le_pow₀ (by norm_num)
        rw [abs_of_nonneg (by omega)]; omega
      · push_cast
        have e1 : (2 : ℝ) ^ (E - p - 1) = 2 ^ E * u / 2 := by
          rw [zpow_sub₀ two_ne_zero, zpow_one, sub_eq_add_neg, zpow_add₀ two_ne_zero]
        have hp2 : (2 : ℝ) ^ p * u = 1 := by rw [hu, ← zpow_natCast, ← zpow_add₀ two_ne_zero]; simp
        rw [e1]
        have e2 : ((2 : ℝ) ^ p - 1) * (2 ^ E * u / 2) = ((2 ^ p * u) - u) * 2 ^ E / 2 := by ring
        rw [e2, hp2]; ring
    have h2 : ∀ x ≤ (1 / 2 : ℝ), rnd (x * ((1 - u) * 2 ^ E)) ≤ 1 / 2 * ((1 - u) * 2 ^ E) := by
      intro x hx
      have hu1 : u ≤ 1 := by
        rw [hu, zpow_neg]; exact inv_le_one_of_one_le₀ (by rw [zpow_natCast]; exact one_le_pow₀ (by norm_num))
      have := h.mono (show x * ((1 - u) * 2 ^ E) ≤ 1 / 2 * ((1 - u) * 2 ^ E) from
        mul_le_mul_of_nonneg_right hx (mul_nonneg (by linarith) hE0.le))
      rwa [h.exact hf] at this
    have a1 := h2 c hc2
    have a2 := h2 t ht2
    nlinarith

/-- numbers below the threshold are not rounded to more than the largest one -/
theorem le_max (hp : 0 < p) (hq : q ≤ 0) {E : ℤ} (hE : (p : ℤ) ≤ E) {x : ℝ} (hx : x < (1 - 2 ^ (-(p : ℤ)) / 2) * 2 ^ E) :
    rnd x ≤ (1 - 2 ^ (-(p : ℤ))) * 2 ^ E := by
  set u : ℝ := 2 ^ (-(p : ℤ)) with hu
  have hu0 : 0 < u := by positivity
  have hE0 : (0 : ℝ) < 2 ^ E := by positivity
  have hf : IsFloat p q ((1 - u) * 2 ^ E) := maxFinite_isFloat hE hq
  by_contra hlt
  rw [not_le] at hlt
  rcases le_total x ((1 - u) * 2 ^ E) with hx' | hx'
  · have := h.mono hx'
    rw [h.exact hf] at this
    linarith
  have h1 := h.nearest x _ hf
  rw [abs_sub_comm ((1 - u) * 2 ^ E) x, abs_of_nonneg (show 0 ≤ x - (1 - u) * 2 ^ E by linarith)] at h1
  have h2 := le_abs_self (rnd x - x)
  -- so the result is below `2^E`, and above the largest number
  have hlt2 : rnd x < 2 ^ E := by nlinarith
  have eu : (2 : ℝ) ^ (E - p) = u * 2 ^ E := by rw [hu, ← zpow_add₀ two_ne_zero]; congr 1; ring
  have hp2 : (2 : ℝ) ^ p * u = 1 := by rw [hu, ← zpow_natCast, ← zpow_add₀ two_ne_zero]; simp
  have hu2 : u ≤ 1 / 2 := by
    rw [hu, zpow_neg, zpow_natCast, one_div]
    refine inv_anti₀ (by norm_num) ?_
    calc (2 : ℝ) = 2 ^ 1 := by norm_num
      _ ≤ 2 ^ p := pow_le_pow_right₀ (by norm_num) hp
  have hbig : (2 : ℝ) ^ (E - p + p - 1) ≤ |rnd x| := by
    refine le_trans ?_ (hlt.le.trans (le_abs_self _))
    rw [show E - p + p - 1 = E - 1 by ring, zpow_sub₀ two_ne_zero, zpow_one]
    nlinarith
  obtain ⟨l, hl⟩ := (h.isFloat x).multiple_of_le hbig
  have e1 : (2 : ℝ) ^ E = 2 ^ p * (2 ^ (E - p)) := by rw [eu]; linear_combination (-(2 : ℝ) ^ E) * hp2
  have hpos : (0 : ℝ) < 2 ^ (E - (p : ℤ)) := by positivity
  have a1 : l < 2 ^ p := by
    rw [hl, e1] at hlt2
    have := lt_of_mul_lt_mul_right hlt2 hpos.le
    exact_mod_cast this
  have a2 : 2 ^ p - 1 < l := by
    have e2 : (1 - u) * 2 ^ E = (2 ^ p - 1) * 2 ^ (E - (p : ℤ)) := by rw [sub_mul, sub_mul, one_mul, one_mul, ← e1, eu]
    rw [hl, e2] at hlt
    have := lt_of_mul_lt_mul_right hlt hpos.le
    exact_mod_cast this
  omega

theorem reflect : Nearest p q fun x => -rnd (-x) := by
  constructor
  · intro x; exact (h.isFloat _).neg
  · intro x y hy
    have := h.nearest (-x) (-y) hy.neg
    show |-rnd (-x) - x| ≤ _
    rw [show -rnd (-x) - x = -(rnd (-x) - -x) by ring, abs_neg, show y - x = -(-y - -x) by ring, abs_neg]
    exact this

/-- with numbers of either sign -/
theorem lerp_abs (hp : 0 < p) (hq : q ≤ -p) {E : ℤ} (hE : (p : ℤ) ≤ E) {t a b : ℝ} (ht : IsFloat p q t) (ht0 : 0 ≤ t) (ht1 : t ≤ 1)
    (ha : |a| ≤ (1 - 2 ^ (-(p : ℤ))) * 2 ^ E) (hb : |b| ≤ (1 - 2 ^ (-(p : ℤ))) * 2 ^ E) :
    |rnd (rnd (rnd (1 - t) * a) + rnd (t * b))| ≤ (1 - 2 ^ (-(p : ℤ))) * 2 ^ E := by
  have herr := abs_le.mp (h.err_unit hp hq (x := 1 - t) (by linarith) (by linarith))
  have hc0 : 0 ≤ rnd (1 - t) := h.nonneg (by linarith)
  have hc1 : rnd (1 - t) ≤ 1 := by
    have := h.mono (show 1 - t ≤ 1 by linarith)
    rwa [h.one hp (by omega)] at this
  have k1 := h.lerp_max hp hq hE ht ht0 ht1 (h.isFloat _) hc0 hc1 (by linarith)
  have k2 := h.reflect.lerp_max hp hq hE ht ht0 ht1 (h.isFloat (1 - t)) hc0 hc1 (by linarith)
  generalize hO : (1 - (2 : ℝ) ^ (-(p : ℤ))) * 2 ^ E = O at *
  rw [abs_le] at ha hb
  have a1 := h.mono (mul_le_mul_of_nonneg_left ha.2 hc0)
  have a2 := h.mono (mul_le_mul_of_nonneg_left ha.1 hc0)
  have b1 := h.mono (mul_le_mul_of_nonneg_left hb.2 ht0)
  have b2 := h.mono (mul_le_mul_of_nonneg_left hb.1 ht0)
  rw [mul_neg] at a2 b2
  have l1 := h.le_max hp (by omega) hE (lt_of_le_of_lt (add_le_add a1 b1) k1)
  have l2 := h.reflect.le_max hp (by omega) hE (x := -(rnd (rnd (1 - t) * a) + rnd (t * b))) (lt_of_le_of_lt (by linarith) k2)
  simp only [neg_neg] at l2
  rw [hO] at l1 l2
  rw [abs_le]
  constructor <;> linarith

theorem abs_le_of {x y : ℝ} (hy : IsFloat p q y) (hx : |x| ≤ y) : |rnd x| ≤ y := by
  rw [abs_le] at hx ⊢
  constructor
  · have := h.mono hx.1
    rwa [h.exact hy.neg] at this
  · have := h.mono hx.2
    rwa [h.exact hy] at this

end Bezman.Spec.Nearest
