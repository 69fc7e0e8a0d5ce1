import Verif.Proofs.FloatForward
import Verif.Proofs.ParamArith
import Verif.Proofs.Elevate
import Verif.Proofs.Arith

/-! # Rounding errors of the arithmetic of splines

The floating-point run, the exact run and a run with upper bounds of the absolute values are combined to one run with triples of
numbers. -/

namespace Bezman
open Spec

/-- floating-point number, exact value, bound of the absolute value -/
structure Tri (A : FloatArith) where
  x : Fl A
  y : ℝ
  m : ℝ

namespace Tri
variable {A : FloatArith}

noncomputable instance : Zero (Tri A) := ⟨⟨0, 0, 0⟩⟩
noncomputable instance : One (Tri A) := ⟨⟨1, 1, 1⟩⟩
noncomputable instance : Add (Tri A) := ⟨fun a b => ⟨a.x + b.x, a.y + b.y, a.m + b.m⟩⟩
noncomputable instance : Sub (Tri A) := ⟨fun a b => ⟨a.x - b.x, a.y - b.y, a.m - b.m⟩⟩
noncomputable instance : Mul (Tri A) := ⟨fun a b => ⟨a.x * b.x, a.y * b.y, a.m * b.m⟩⟩
noncomputable instance : Div (Tri A) := ⟨fun a b => ⟨a.x / b.x, a.y / b.y, a.m / b.m⟩⟩
noncomputable instance : Neg (Tri A) := ⟨fun a => ⟨-a.x, -a.y, -a.m⟩⟩
noncomputable instance : NatCast (Tri A) := ⟨fun n => ⟨n, n, n⟩⟩

/-- the floating-point number has the error of `k` operations, relative to the bound -/
def Near (k : ℕ) (t : Tri A) : Prop := |t.y| ≤ t.m ∧ |t.x.val - t.y| ≤ ((1 + A.u) ^ k - 1) * t.m

/-- the error of `k` operations, relative to the given bound -/
def NearM (M : ℝ) (k : ℕ) (t : Tri A) : Prop := |t.y| ≤ M ∧ |t.x.val - t.y| ≤ ((1 + A.u) ^ k - 1) * M

theorem Near.mono {j k : ℕ} {t : Tri A} (hjk : j ≤ k) (h : Near j t) : Near k t :=
  ⟨h.1, h.2.trans (mul_le_mul_of_nonneg_right (by linarith [u_mono (A := A) hjk]) ((abs_nonneg _).trans h.1))⟩

theorem NearM.mono {M : ℝ} {j k : ℕ} {t : Tri A} (hjk : j ≤ k) (h : NearM M j t) : NearM M k t :=
  ⟨h.1, h.2.trans (mul_le_mul_of_nonneg_right (by linarith [u_mono (A := A) hjk]) ((abs_nonneg _).trans h.1))⟩

theorem Near.zero : Near 0 (0 : Tri A) := by constructor <;> simp [show (0 : Tri A) = ⟨0, 0, 0⟩ from rfl, show (0 : Fl A).val = 0 from rfl]
theorem Near.one : Near 0 (1 : Tri A) := by constructor <;> simp [show (1 : Tri A) = ⟨1, 1, 1⟩ from rfl, show (1 : Fl A).val = 1 from rfl]

/-- a sum that is rounded -/
theorem round_sum {u s' s e M c : ℝ} (hu : 0 ≤ u) (hs : |s' - s| ≤ e) (hM : |s| ≤ M) (hc : |c - s'| ≤ u * |s'|) :
    |c - s| ≤ (1 + u) * e + u * M := by
  have h1 : |s'| ≤ e + M := by
    have := abs_add_le (s' - s) s; rw [sub_add_cancel] at this; linarith
  have h2 := abs_add_le (c - s') (s' - s)
  rw [sub_add_sub_cancel] at h2
  have := mul_le_mul_of_nonneg_left h1 hu
  linarith

theorem Near.add {k : ℕ} {a b : Tri A} (ha : Near k a) (hb : Near k b) : Near (k + 1) (a + b) := by
  have h1 : |a.y + b.y| ≤ a.m + b.m := (abs_add_le _ _).trans (add_le_add ha.1 hb.1)
  refine ⟨h1, ?_⟩
  have h2 : |a.x.val + b.x.val - (a.y + b.y)| ≤ ((1 + A.u) ^ k - 1) * (a.m + b.m) := by
    have := abs_add_le (a.x.val - a.y) (b.x.val - b.y)
    rw [show a.x.val + b.x.val - (a.y + b.y) = (a.x.val - a.y) + (b.x.val - b.y) by ring, mul_add]
    linarith [ha.2, hb.2]
  refine (round_sum A.u_nonneg h2 h1 (A.add_err a.x.val b.x.val)).trans (le_of_eq ?_)
  show _ = ((1 + A.u) ^ (k + 1) - 1) * (a.m + b.m)
  rw [pow_succ]; ring

theorem NearM.add {M N : ℝ} {k : ℕ} {a b : Tri A} (ha : NearM M k a) (hb : NearM N k b) : NearM (M + N) (k + 1) (a + b) :=
  Near.add (a := ⟨a.x, a.y, M⟩) (b := ⟨b.x, b.y, N⟩) ha hb

theorem NearM.sub {M N : ℝ} {k : ℕ} {a b : Tri A} (ha : NearM M k a) (hb : NearM N k b) : NearM (M + N) (k + 1) (a - b) := by
  have h1 : |a.y - b.y| ≤ M + N := (abs_sub _ _).trans (add_le_add ha.1 hb.1)
  refine ⟨h1, ?_⟩
  have h2 : |a.x.val - b.x.val - (a.y - b.y)| ≤ ((1 + A.u) ^ k - 1) * (M + N) := by
    have := abs_sub (a.x.val - a.y) (b.x.val - b.y)
    rw [show a.x.val - b.x.val - (a.y - b.y) = (a.x.val - a.y) - (b.x.val - b.y) by ring, mul_add]
    linarith [ha.2, hb.2]
  refine (round_sum A.u_nonneg h2 h1 (A.sub_err a.x.val b.x.val)).trans (le_of_eq ?_)
  rw [pow_succ]; ring

theorem Near.mul (hη : A.η = 0) {j k : ℕ} {a b : Tri A} (ha : Near j a) (hb : Near k b) : Near (j + k + 1) (a * b) := by
  have hu := A.u_nonneg
  have h1 : |a.y * b.y| ≤ a.m * b.m := by
    rw [abs_mul]; exact mul_le_mul ha.1 hb.1 (abs_nonneg _) ((abs_nonneg _).trans ha.1)
  have hm : 0 ≤ a.m := (abs_nonneg _).trans ha.1
  have hm' : 0 ≤ b.m := (abs_nonneg _).trans hb.1
  refine ⟨h1, ?_⟩
  have hα := one_le_u (A := A) j
  have hβ := one_le_u (A := A) k
  set α := (1 + A.u) ^ j
  set β := (1 + A.u) ^ k
  have h2 : |a.x.val * b.x.val - a.y * b.y| ≤ (α * β - 1) * (a.m * b.m) := by
    have hb' : |b.x.val| ≤ β * b.m := by
      have := abs_add_le (b.x.val - b.y) b.y; rw [sub_add_cancel] at this; linarith [hb.1, hb.2]
    have e : a.x.val * b.x.val - a.y * b.y = (a.x.val - a.y) * b.x.val + a.y * (b.x.val - b.y) := by ring
    have h3 := abs_add_le ((a.x.val - a.y) * b.x.val) (a.y * (b.x.val - b.y))
    have h4 : |(a.x.val - a.y) * b.x.val| ≤ (α - 1) * a.m * (β * b.m) := by
      rw [abs_mul]; exact mul_le_mul ha.2 hb' (abs_nonneg _) (mul_nonneg (by linarith) hm)
    have h5 : |a.y * (b.x.val - b.y)| ≤ a.m * ((β - 1) * b.m) := by
      rw [abs_mul]; exact mul_le_mul ha.1 hb.2 (abs_nonneg _) hm
    rw [e]
    have : (α * β - 1) * (a.m * b.m) = (α - 1) * a.m * (β * b.m) + a.m * ((β - 1) * b.m) := by ring
    linarith
  have hc := A.mul_err a.x.val b.x.val
  rw [hη, add_zero] at hc
  refine (round_sum hu h2 h1 hc).trans (le_of_eq ?_)
  show _ = ((1 + A.u) ^ (j + k + 1) - 1) * (a.m * b.m)
  rw [pow_add, pow_add, pow_one]; ring

theorem Near.cast (n : ℕ) : Near 1 (n : Tri A) := by
  refine ⟨(abs_of_nonneg (Nat.cast_nonneg n)).le, ?_⟩
  have := A.cast_err n
  rw [pow_one, add_sub_cancel_left]
  exact this

/-- quotient of a perturbed number by a converted integer -/
theorem div_cast_err {u α c' c d' d z : ℝ} (hu : 0 ≤ u) (hu2 : u ≤ 1 / 2) (hα : 1 ≤ α) (hc0 : 0 ≤ c) (hc : |c' - c| ≤ (α - 1) * c) (hd0 : 0 < d)
    (hd : |d' - d| ≤ u * d) (hz : |z - c' / d'| ≤ u * |c' / d'|) : |z - c / d| ≤ (α * (1 + u) ^ 3 - 1) * (c / d) := by
  rw [abs_le] at hd
  have hlo : (1 - u) * d ≤ d' := by linarith
  have hd' : 0 < d' := lt_of_lt_of_le (mul_pos (by linarith) hd0) hlo
  have h1 : |c' / d' - c / d| ≤ (α * (1 + u) ^ 2 - 1) * (c / d) := by
    have e : c' / d' - c / d = ((c' - c) + c * ((d - d') / d)) / d' := by field_simp; ring
    have h2 : |(c' - c) + c * ((d - d') / d)| ≤ (α - 1) * c + c * u := by
      refine (abs_add_le _ _).trans (add_le_add hc ?_)
      rw [abs_mul, abs_of_nonneg hc0, abs_div, abs_of_pos hd0]
      refine mul_le_mul_of_nonneg_left ?_ hc0
      rw [div_le_iff₀ hd0, abs_le]
      constructor <;> linarith
    rw [e, abs_div, abs_of_pos hd']
    have h3 : 0 ≤ α * (1 + u) ^ 2 - 1 := by nlinarith [mul_le_mul hα (show (1 : ℝ) ≤ (1 + u) ^ 2 by nlinarith) zero_le_one (by linarith)]
    rw [div_le_iff₀ hd']
    calc _ ≤ (α - 1) * c + c * u := h2
      _ = c * (α - 1 + u) := by ring
      _ ≤ c * ((α * (1 + u) ^ 2 - 1) * (1 - u)) := by
          refine mul_le_mul_of_nonneg_left ?_ hc0
          nlinarith [mul_nonneg hu (show 0 ≤ 1 - u - u ^ 2 by nlinarith), mul_nonneg (sub_nonneg.mpr hα) (mul_nonneg hu (show 0 ≤ 1 - u - u ^ 2 by nlinarith))]
      _ = (α * (1 + u) ^ 2 - 1) * (c / d) * ((1 - u) * d) := by field_simp
      _ ≤ _ := mul_le_mul_of_nonneg_left hlo (mul_nonneg h3 (div_nonneg hc0 hd0.le))
  refine (round_sum hu h1 (le_of_eq (abs_of_nonneg (div_nonneg hc0 hd0.le))) hz).trans (le_of_eq ?_)
  ring

theorem Near.divCast (hη : A.η = 0) (hu : A.u ≤ 1 / 2) {k : ℕ} {c : Tri A} (hc : Near k c) (h0 : c.y = c.m) {d : ℕ} (hd : 0 < d) :
    Near (k + 3) (c / (d : Tri A)) ∧ (c / (d : Tri A)).y = (c / (d : Tri A)).m := by
  have e : (c / (d : Tri A)).y = (c / (d : Tri A)).m := by
    show c.y / (d : ℝ) = c.m / (d : ℝ); rw [h0]
  have hm : 0 ≤ c.y := h0 ▸ (abs_nonneg _).trans hc.1
  have hd0 : (0 : ℝ) < d := by exact_mod_cast hd
  refine ⟨⟨?_, ?_⟩, e⟩
  · rw [← e]; exact (abs_of_nonneg (div_nonneg hm hd0.le)).le
  · rw [← e]
    have hz := A.div_err c.x.val (A.cast d) (by
      have := A.cast_err d
      rw [abs_le] at this
      intro h0; rw [h0] at this
      nlinarith [this.1])
    rw [hη, add_zero] at hz
    have := div_cast_err A.u_nonneg hu (one_le_u (A := A) k) hm (h0 ▸ hc.2) hd0 (A.cast_err d) hz
    rw [pow_add]
    exact this

theorem Near.ratio (hη : A.η = 0) (hu : A.u ≤ 1 / 2) (c : ℕ) {d : ℕ} (hd : 0 < d) : Near 4 ((c : Tri A) / (d : Tri A)) :=
  (Near.divCast hη hu (Near.cast c) rfl hd).1

theorem mul_err0 (hη : A.η = 0) (a b : ℝ) : |A.mul a b - a * b| ≤ A.u * |a * b| := by
  have := A.mul_err a b
  rwa [hη, add_zero] at this

theorem lerp_le {φ a b M : ℝ} (hφ : 0 ≤ φ) (hφ1 : φ ≤ 1) (ha : |a| ≤ M) (hb : |b| ≤ M) : |(1 - φ) * a + φ * b| ≤ M := by
  refine (abs_add_le _ _).trans ?_
  rw [abs_mul, abs_mul, abs_of_nonneg hφ, abs_of_nonneg (show 0 ≤ 1 - φ by linarith)]
  nlinarith [mul_le_mul_of_nonneg_left ha (show 0 ≤ 1 - φ by linarith), mul_le_mul_of_nonneg_left hb hφ]

/-- interpolation with perturbed weights `h` and `g` of exact weights `1 - φ` and `φ` -/
theorem lerp_err {u φ f g h B M a' b' a b z1 z2 z E : ℝ} (hu : 0 ≤ u) (hφ : 0 ≤ φ) (hφ1 : φ ≤ 1) (hB : 1 ≤ B)
    (hf : |f - φ| ≤ ((1 + u) ^ 5 - 1) * φ) (hg : |g - φ| ≤ ((1 + u) ^ 5 - 1) * φ) (hh : |h - (1 - f)| ≤ u * |1 - f|) (ha : |a| ≤ M) (hb : |b| ≤ M)
    (ha' : |a' - a| ≤ (B - 1) * M) (hb' : |b' - b| ≤ (B - 1) * M) (hz1 : |z1 - h * a'| ≤ u * |h * a'|)
    (hz2 : |z2 - g * b'| ≤ u * |g * b'|) (hz : |z - (z1 + z2)| ≤ u * |z1 + z2|) (hE : E = B * (1 + u) ^ 12) :
    |z - ((1 - φ) * a + φ * b)| ≤ (E - 1) * M := by
  have hM : 0 ≤ M := (abs_nonneg _).trans ha
  set β := 1 + u with hβ
  have hβ1 : 1 ≤ β := by linarith
  have h5 : 1 ≤ β ^ 5 := one_le_pow₀ hβ1
  have h4 : 1 ≤ β ^ 4 := one_le_pow₀ hβ1
  have h10 : 1 ≤ β ^ 10 := one_le_pow₀ hβ1
  -- the weights
  have eh : |h - (1 - φ)| ≤ u * (1 - φ) + (β ^ 6 - β) * φ := by
    have := round_sum hu (s := 1 - φ) (s' := 1 - f) (e := (β ^ 5 - 1) * φ) (M := 1 - φ) (by
      rw [show 1 - f - (1 - φ) = -(f - φ) by ring, abs_neg]; exact hf) (abs_of_nonneg (by linarith)).le hh
    refine this.trans (le_of_eq ?_)
    rw [← hβ]; ring
  have eh0 : 0 ≤ u * (1 - φ) + (β ^ 6 - β) * φ := (abs_nonneg _).trans eh
  have ef0 : 0 ≤ (β ^ 5 - 1) * φ := (abs_nonneg _).trans hf
  set e1 := u * (1 - φ) + (β ^ 6 - β) * φ with he1
  set e2 := (β ^ 5 - 1) * φ with he2
  have hS : 1 + (e1 + e2) ≤ β ^ 10 := by
    have k1 : u ≤ β ^ 10 - 1 := by
      have : β ≤ β ^ 10 := le_self_pow₀ hβ1 (by norm_num)
      linarith
    have k2 : β ^ 6 - β + (β ^ 5 - 1) ≤ β ^ 10 - 1 := by
      have : 0 ≤ β * ((β ^ 5 - 1) * (β ^ 4 - 1)) :=
        mul_nonneg (by linarith) (mul_nonneg (by linarith) (by linarith))
      have e : β * ((β ^ 5 - 1) * (β ^ 4 - 1)) = β ^ 10 - 1 - (β ^ 6 - β + (β ^ 5 - 1)) := by ring
      linarith
    have : e1 + e2 = u * (1 - φ) + (β ^ 6 - β + (β ^ 5 - 1)) * φ := by rw [he1, he2]; ring
    rw [this]
    have l1 := mul_le_mul_of_nonneg_right k1 (show 0 ≤ 1 - φ by linarith)
    have l2 := mul_le_mul_of_nonneg_right k2 hφ
    have l3 : (β ^ 10 - 1) * (1 - φ) + (β ^ 10 - 1) * φ = β ^ 10 - 1 := by ring
    linarith
  have hh' : |h| ≤ (1 - φ) + e1 := by
    have := abs_add_le (h - (1 - φ)) (1 - φ)
    rw [sub_add_cancel, abs_of_nonneg (show 0 ≤ 1 - φ by linarith)] at this; linarith
  have hg' : |g| ≤ φ + e2 := by
    have := abs_add_le (g - φ) φ
    rw [sub_add_cancel, abs_of_nonneg hφ] at this; linarith
  have part : ∀ {w w' e c c' y : ℝ}, 0 ≤ w → |w' - w| ≤ e → |w'| ≤ w + e → |c| ≤ M → |c' - c| ≤ (B - 1) * M →
      |y - w' * c'| ≤ u * |w' * c'| → |y - w * c| ≤ (β * (w + e) * B - w) * M := by
    intro w w' e c c' y hw h1 h2 h3 h4 h6
    have he : 0 ≤ e := (abs_nonneg _).trans h1
    have hc' : |c'| ≤ B * M := by
      have := abs_add_le (c' - c) c; rw [sub_add_cancel] at this; linarith
    have k1 : |w' * c'| ≤ (w + e) * (B * M) := by
      rw [abs_mul]; exact mul_le_mul h2 hc' (abs_nonneg _) (by linarith)
    have k2 : |(w' - w) * c'| ≤ e * (B * M) := by
      rw [abs_mul]; exact mul_le_mul h1 hc' (abs_nonneg _) he
    have k3 : |w * (c' - c)| ≤ w * ((B - 1) * M) := by
      rw [abs_mul, abs_of_nonneg hw]; exact mul_le_mul_of_nonneg_left h4 hw
    have k4 := abs_add_le (y - w' * c') ((w' - w) * c' + w * (c' - c))
    have k5 := abs_add_le ((w' - w) * c') (w * (c' - c))
    have k6 := mul_le_mul_of_nonneg_left k1 hu
    rw [show y - w' * c' + ((w' - w) * c' + w * (c' - c)) = y - w * c by ring] at k4
    have : (β * (w + e) * B - w) * M = u * ((w + e) * (B * M)) + (e * (B * M) + w * ((B - 1) * M)) := by rw [hβ]; ring
    linarith
  have p1 := part (show 0 ≤ 1 - φ by linarith) eh hh' ha ha' hz1
  have p2 := part hφ hg hg' hb hb' hz2
  have hs : |z1 + z2 - ((1 - φ) * a + φ * b)| ≤ (β ^ 11 * B - 1) * M := by
    have := abs_add_le (z1 - (1 - φ) * a) (z2 - φ * b)
    rw [show z1 - (1 - φ) * a + (z2 - φ * b) = z1 + z2 - ((1 - φ) * a + φ * b) by ring] at this
    have k : β * (1 + (e1 + e2)) * B ≤ β ^ 11 * B := by
      refine mul_le_mul_of_nonneg_right ?_ (by linarith)
      have := mul_le_mul_of_nonneg_left hS (show 0 ≤ β by linarith)
      calc _ ≤ β * β ^ 10 := this
        _ = β ^ 11 := by ring
    have k' := mul_le_mul_of_nonneg_right k hM
    have e : (β * (1 - φ + e1) * B - (1 - φ)) * M + (β * (φ + e2) * B - φ) * M = β * (1 + (e1 + e2)) * B * M - M := by ring
    have e' : (β ^ 11 * B - 1) * M = β ^ 11 * B * M - M := by ring
    rw [e']
    linarith
  have hv := lerp_le hφ hφ1 ha hb
  refine (round_sum hu hs hv hz).trans (le_of_eq ?_)
  rw [hE, ← hβ]
  have : u = β - 1 := by rw [hβ]; ring
  rw [this]; ring

theorem NearM.lerp (hη : A.η = 0) (hu : A.u ≤ 1 / 2) {M : ℝ} {k p i : ℕ} (hip : i ≤ p) {a b c d : Tri A} (ha : NearM M k a) (hb : NearM M k b)
    (hc : c = (1 - (i : Tri A) * (1 / ((p + 1 : ℕ) : Tri A))) * a ∨ c = a * (1 - (i : Tri A) * (1 / ((p + 1 : ℕ) : Tri A))))
    (hd : d = (i : Tri A) * (1 / ((p + 1 : ℕ) : Tri A)) * b ∨ d = b * ((i : Tri A) * (1 / ((p + 1 : ℕ) : Tri A)))) :
    NearM M (k + 12) (c + d) := by
  set F : Tri A := (i : Tri A) * (1 / ((p + 1 : ℕ) : Tri A)) with hF
  have hn := Near.divCast hη hu (Near.one (A := A)) rfl (Nat.succ_pos p)
  have hF5 : Near 5 F := Near.mul hη (Near.cast i) hn.1
  have hFy : F.y = F.m := by
    show (i : ℝ) * (1 / ((p + 1 : ℕ) : Tri A)).y = (i : ℝ) * (1 / ((p + 1 : ℕ) : Tri A)).m
    rw [hn.2]
  have e0 : F.y = (i : ℝ) / (p + 1 : ℕ) := by
    show (i : ℝ) * (1 / ((p + 1 : ℕ) : ℝ)) = _; ring
  have hφ : 0 ≤ F.y := by rw [e0]; positivity
  have hφ1 : F.y ≤ 1 := by
    rw [e0, div_le_one (by positivity)]; exact_mod_cast (show i ≤ p + 1 by omega)
  have hy : (c + d).y = (1 - F.y) * a.y + F.y * b.y := by
    rcases hc with rfl | rfl <;> rcases hd with rfl | rfl
    · rfl
    · show _ + b.y * F.y = _; rw [mul_comm b.y]; rfl
    · show a.y * (1 - F.y) + _ = _; rw [mul_comm a.y]; rfl
    · show a.y * (1 - F.y) + b.y * F.y = _; rw [mul_comm a.y, mul_comm b.y]
  have hcx : |c.x.val - (1 - F : Tri A).x.val * a.x.val| ≤ A.u * |(1 - F : Tri A).x.val * a.x.val| := by
    rcases hc with rfl | rfl
    · exact mul_err0 hη (1 - F : Tri A).x.val a.x.val
    · rw [mul_comm (1 - F : Tri A).x.val]; exact mul_err0 hη a.x.val (1 - F : Tri A).x.val
  have hdx : |d.x.val - F.x.val * b.x.val| ≤ A.u * |F.x.val * b.x.val| := by
    rcases hd with rfl | rfl
    · exact mul_err0 hη F.x.val b.x.val
    · rw [mul_comm F.x.val]; exact mul_err0 hη b.x.val F.x.val
  have := lerp_err A.u_nonneg hφ hφ1 (one_le_u (A := A) k) (hFy ▸ hF5.2) (hFy ▸ hF5.2) (A.sub_err 1 F.x.val) ha.1 hb.1 ha.2 hb.2 hcx hdx
    (A.add_err c.x.val d.x.val) rfl
  constructor
  · rw [hy]; exact lerp_le hφ hφ1 ha.1 hb.1
  · rw [hy, pow_add]; exact this

end Tri
end Bezman
