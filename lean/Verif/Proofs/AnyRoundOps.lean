import Verif.Proofs.FloatOps
import Verif.Model.AnyRounding

/-! # Freely chosen rounding errors of the arithmetic of splines

The run with sets, the exact run and a run with upper bounds of the absolute values are combined to one run with triples, as in
Proofs/FloatOps.lean. -/

namespace Bezman
open Spec

theorem Roundoff.one_le (A : Roundoff) (k : ℕ) : 1 ≤ (1 + A.u) ^ k := one_le_pow₀ (by linarith [A.u_nonneg])
theorem Roundoff.pow_mono (A : Roundoff) {j k : ℕ} (h : j ≤ k) : (1 + A.u) ^ j ≤ (1 + A.u) ^ k :=
  pow_le_pow_right₀ (by linarith [A.u_nonneg]) h

/-- set of numbers, exact value, bound of the absolute value -/
structure Trn (A : Roundoff) where
  x : Nd A
  y : ℝ
  m : ℝ

namespace Trn
open Tri (round_sum div_cast_err lerp_le lerp_err)
variable {A : Roundoff}

noncomputable instance : Zero (Trn A) := ⟨⟨0, 0, 0⟩⟩
noncomputable instance : One (Trn A) := ⟨⟨1, 1, 1⟩⟩
noncomputable instance : Add (Trn A) := ⟨fun a b => ⟨a.x + b.x, a.y + b.y, a.m + b.m⟩⟩
noncomputable instance : Sub (Trn A) := ⟨fun a b => ⟨a.x - b.x, a.y - b.y, a.m - b.m⟩⟩
noncomputable instance : Mul (Trn A) := ⟨fun a b => ⟨a.x * b.x, a.y * b.y, a.m * b.m⟩⟩
noncomputable instance : Div (Trn A) := ⟨fun a b => ⟨a.x / b.x, a.y / b.y, a.m / b.m⟩⟩
noncomputable instance : Neg (Trn A) := ⟨fun a => ⟨-a.x, -a.y, -a.m⟩⟩
noncomputable instance : NatCast (Trn A) := ⟨fun n => ⟨n, n, n⟩⟩

/-- all numbers of the set have the error of `k` operations, relative to the bound -/
def Near (k : ℕ) (t : Trn A) : Prop := |t.y| ≤ t.m ∧ ∀ r, t.x.vals r → |r - t.y| ≤ ((1 + A.u) ^ k - 1) * t.m

/-- the error of `k` operations, relative to the given bound -/
def NearM (M : ℝ) (k : ℕ) (t : Trn A) : Prop := |t.y| ≤ M ∧ ∀ r, t.x.vals r → |r - t.y| ≤ ((1 + A.u) ^ k - 1) * M

theorem Near.mono {j k : ℕ} {t : Trn A} (hjk : j ≤ k) (h : Near j t) : Near k t :=
  ⟨h.1, fun r hr => (h.2 r hr).trans (mul_le_mul_of_nonneg_right (by linarith [A.pow_mono hjk]) ((abs_nonneg _).trans h.1))⟩

theorem NearM.mono {M : ℝ} {j k : ℕ} {t : Trn A} (hjk : j ≤ k) (h : NearM M j t) : NearM M k t :=
  ⟨h.1, fun r hr => (h.2 r hr).trans (mul_le_mul_of_nonneg_right (by linarith [A.pow_mono hjk]) ((abs_nonneg _).trans h.1))⟩

theorem Near.zero : Near 0 (0 : Trn A) := by
  refine ⟨by show |(0 : ℝ)| ≤ 0; simp, fun r hr => ?_⟩
  obtain rfl : r = 0 := hr
  show |(0 : ℝ) - 0| ≤ _
  simp
theorem Near.one : Near 0 (1 : Trn A) := by
  refine ⟨by show |(1 : ℝ)| ≤ 1; simp, fun r hr => ?_⟩
  obtain rfl : r = 1 := hr
  show |(1 : ℝ) - 1| ≤ _
  simp

theorem Near.add {k : ℕ} {a b : Trn A} (ha : Near k a) (hb : Near k b) : Near (k + 1) (a + b) := by
  have h1 : |a.y + b.y| ≤ a.m + b.m := (abs_add_le _ _).trans (add_le_add ha.1 hb.1)
  refine ⟨h1, ?_⟩
  rintro r ⟨x, y, hx, hy, hr⟩
  have h2 : |x + y - (a.y + b.y)| ≤ ((1 + A.u) ^ k - 1) * (a.m + b.m) := by
    have := abs_add_le (x - a.y) (y - b.y)
    rw [show x + y - (a.y + b.y) = (x - a.y) + (y - b.y) by ring, mul_add]
    linarith [ha.2 x hx, hb.2 y hy]
  refine (round_sum A.u_nonneg h2 h1 hr).trans (le_of_eq ?_)
  show _ = ((1 + A.u) ^ (k + 1) - 1) * (a.m + b.m)
  rw [pow_succ]; ring

theorem NearM.add {M N : ℝ} {k : ℕ} {a b : Trn A} (ha : NearM M k a) (hb : NearM N k b) : NearM (M + N) (k + 1) (a + b) :=
  Near.add (a := ⟨a.x, a.y, M⟩) (b := ⟨b.x, b.y, N⟩) ha hb

theorem NearM.sub {M N : ℝ} {k : ℕ} {a b : Trn A} (ha : NearM M k a) (hb : NearM N k b) : NearM (M + N) (k + 1) (a - b) := by
  have h1 : |a.y - b.y| ≤ M + N := (abs_sub _ _).trans (add_le_add ha.1 hb.1)
  refine ⟨h1, ?_⟩
  rintro r ⟨x, y, hx, hy, hr⟩
  have h2 : |x - y - (a.y - b.y)| ≤ ((1 + A.u) ^ k - 1) * (M + N) := by
    have := abs_sub (x - a.y) (y - b.y)
    rw [show x - y - (a.y - b.y) = (x - a.y) - (y - b.y) by ring, mul_add]
    linarith [ha.2 x hx, hb.2 y hy]
  refine (round_sum A.u_nonneg h2 h1 hr).trans (le_of_eq ?_)
  rw [pow_succ]; ring

theorem Near.mul (hη : A.η = 0) {j k : ℕ} {a b : Trn A} (ha : Near j a) (hb : Near k b) : Near (j + k + 1) (a * b) := by
  have hu := A.u_nonneg
  have h1 : |a.y * b.y| ≤ a.m * b.m := by
    rw [abs_mul]; exact mul_le_mul ha.1 hb.1 (abs_nonneg _) ((abs_nonneg _).trans ha.1)
  have hm : 0 ≤ a.m := (abs_nonneg _).trans ha.1
  have hm' : 0 ≤ b.m := (abs_nonneg _).trans hb.1
  refine ⟨h1, ?_⟩
  rintro r ⟨x, y, hx, hy, hc⟩
  have hα := A.one_le j
  have hβ := A.one_le k
  replace hx := ha.2 x hx
  replace hy := hb.2 y hy
  set α := (1 + A.u) ^ j
  set β := (1 + A.u) ^ k
  have h2 : |x * y - a.y * b.y| ≤ (α * β - 1) * (a.m * b.m) := by
    have hb' : |y| ≤ β * b.m := by
      have := abs_add_le (y - b.y) b.y; rw [sub_add_cancel] at this; linarith [hb.1]
    have e : x * y - a.y * b.y = (x - a.y) * y + a.y * (y - b.y) := by ring
    have h3 := abs_add_le ((x - a.y) * y) (a.y * (y - b.y))
    have h4 : |(x - a.y) * y| ≤ (α - 1) * a.m * (β * b.m) := by
      rw [abs_mul]; exact mul_le_mul hx hb' (abs_nonneg _) (mul_nonneg (by linarith) hm)
    have h5 : |a.y * (y - b.y)| ≤ a.m * ((β - 1) * b.m) := by
      rw [abs_mul]; exact mul_le_mul ha.1 hy (abs_nonneg _) hm
    rw [e]
    have : (α * β - 1) * (a.m * b.m) = (α - 1) * a.m * (β * b.m) + a.m * ((β - 1) * b.m) := by ring
    linarith
  rw [hη, add_zero] at hc
  refine (round_sum hu h2 h1 hc).trans (le_of_eq ?_)
  show _ = ((1 + A.u) ^ (j + k + 1) - 1) * (a.m * b.m)
  rw [pow_add, pow_add, pow_one]; ring

theorem Near.cast (n : ℕ) : Near 1 (n : Trn A) := by
  refine ⟨(abs_of_nonneg (Nat.cast_nonneg n)).le, fun r hr => ?_⟩
  rw [pow_one, add_sub_cancel_left]
  exact hr

theorem Near.divCast (hη : A.η = 0) (hu : A.u ≤ 1 / 2) {k : ℕ} {c : Trn A} (hc : Near k c) (h0 : c.y = c.m) {d : ℕ} (hd : 0 < d) :
    Near (k + 3) (c / (d : Trn A)) ∧ (c / (d : Trn A)).y = (c / (d : Trn A)).m := by
  have e : (c / (d : Trn A)).y = (c / (d : Trn A)).m := by
    show c.y / (d : ℝ) = c.m / (d : ℝ); rw [h0]
  have hm : 0 ≤ c.y := h0 ▸ (abs_nonneg _).trans hc.1
  have hd0 : (0 : ℝ) < d := by exact_mod_cast hd
  refine ⟨⟨?_, ?_⟩, e⟩
  · rw [← e]; exact (abs_of_nonneg (div_nonneg hm hd0.le)).le
  · rw [← e]
    rintro r ⟨x, y, hx, hy, hz⟩
    replace hy : |y - d| ≤ A.u * d := hy
    replace hz := hz (by
      rw [abs_le] at hy
      intro h0; rw [h0] at hy
      nlinarith [hy.1])
    rw [hη, add_zero] at hz
    have := div_cast_err A.u_nonneg hu (A.one_le k) hm (h0 ▸ hc.2 x hx) hd0 hy hz
    rw [pow_add]
    exact this

theorem Near.ratio (hη : A.η = 0) (hu : A.u ≤ 1 / 2) (c : ℕ) {d : ℕ} (hd : 0 < d) : Near 4 ((c : Trn A) / (d : Trn A)) :=
  (Near.divCast hη hu (Near.cast c) rfl hd).1

theorem mul_swap (a b : Nd A) : a * b = b * a := by
  refine Nd.ext (funext fun r => propext ⟨?_, ?_⟩) <;>
  · rintro ⟨x, y, hx, hy, h⟩
    exact ⟨y, x, hy, hx, by rw [mul_comm]; exact h⟩

theorem NearM.lerp (hη : A.η = 0) (hu : A.u ≤ 1 / 2) {M : ℝ} {k p i : ℕ} (hip : i ≤ p) {a b c d : Trn A} (ha : NearM M k a) (hb : NearM M k b)
    (hc : c = (1 - (i : Trn A) * (1 / ((p + 1 : ℕ) : Trn A))) * a ∨ c = a * (1 - (i : Trn A) * (1 / ((p + 1 : ℕ) : Trn A))))
    (hd : d = (i : Trn A) * (1 / ((p + 1 : ℕ) : Trn A)) * b ∨ d = b * ((i : Trn A) * (1 / ((p + 1 : ℕ) : Trn A)))) :
    NearM M (k + 12) (c + d) := by
  set F : Trn A := (i : Trn A) * (1 / ((p + 1 : ℕ) : Trn A)) with hF
  have hn := Near.divCast hη hu (Near.one (A := A)) rfl (Nat.succ_pos p)
  have hF5 : Near 5 F := Near.mul hη (Near.cast i) hn.1
  have hFy : F.y = F.m := by
    show (i : ℝ) * (1 / ((p + 1 : ℕ) : Trn A)).y = (i : ℝ) * (1 / ((p + 1 : ℕ) : Trn A)).m
    rw [hn.2]
  have e0 : F.y = (i : ℝ) / (p + 1 : ℕ) := by
    show (i : ℝ) * (1 / ((p + 1 : ℕ) : ℝ)) = _; ring
  have hφ : 0 ≤ F.y := by rw [e0]; positivity
  have hφ1 : F.y ≤ 1 := by
    rw [e0, div_le_one (by positivity)]; exact_mod_cast (show i ≤ p + 1 by omega)
  have hy : (c + d).y = (1 - F.y) * a.y + F.y * b.y := by
    rcases hc with rfl | rfl <;> rcases hd with rfl | rfl
    · rfl
    · show _ + b.y * F.y = _; rw [mul_comm b.y]; rfl
    · show a.y * (1 - F.y) + _ = _; rw [mul_comm a.y]; rfl
    · show a.y * (1 - F.y) + b.y * F.y = _; rw [mul_comm a.y, mul_comm b.y]
  have hcx : c.x = (1 - F : Trn A).x * a.x := by
    rcases hc with rfl | rfl
    · rfl
    · exact mul_swap _ _
  have hdx : d.x = F.x * b.x := by
    rcases hd with rfl | rfl
    · rfl
    · exact mul_swap _ _
  constructor
  · rw [hy]; exact lerp_le hφ hφ1 ha.1 hb.1
  · rw [hy]
    rintro r ⟨z1, z2, h1, h2, hr⟩
    rw [hcx] at h1
    rw [hdx] at h2
    obtain ⟨h, a', ⟨_, f, rfl, hf, hh⟩, ha', hz1⟩ := h1
    obtain ⟨g, b', hg, hb', hz2⟩ := h2
    rw [hη, add_zero] at hz1 hz2
    rw [pow_add]
    exact Tri.lerp_err A.u_nonneg hφ hφ1 (A.one_le k) (hFy ▸ hF5.2 f hf) (hFy ▸ hF5.2 g hg) hh ha.1 hb.1 (ha.2 a' ha') (hb.2 b' hb') hz1 hz2 hr rfl

end Trn
end Bezman
