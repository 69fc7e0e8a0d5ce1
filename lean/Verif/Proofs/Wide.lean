import Verif.Model.Wide
import Verif.Spec.Wide
import Verif.Proofs.FloatForward
import Verif.Proofs.ParamArith

namespace Bezman
open Spec

section
variable {K : Type} [Zero K] [One K] [Add K] [Sub K] [Mul K] [Neg K] [Div K] [NatCast K] {n : ℕ}

/-- a product in which one operand is converted is the product of the converted operand -/
theorem mulOp_conv {V V' : Type} [Zero V] [Add V] [Sub V] [Neg V] [SMul K V] [Zero V'] [Add V'] [Sub V'] [Neg V'] [SMul K V'] (g : V → V') (cfg : Cfg) (mul : V' → Point K n → Point K n) (s : Spline V) (t : Spline (Point K n)) :
    Spline.mulOp K cfg (fun c v => mul (g c) v) s t
      = Spline.mulOp K cfg mul (⟨s.degrees, s.ncp, s.offsets, s.cps.map g⟩ : Spline V') t := by
  letI iK : Par K K := ⟨Eq⟩
  letI iV : Par V V' := ⟨fun a b => g a = b⟩
  haveI : ParScalar K K := by
    constructor
    · rfl
    · rfl
    · rintro a b _ _ rfl rfl; rfl
    · rintro a b _ _ rfl rfl; rfl
    · rintro a b _ _ rfl rfl; rfl
    · rintro a _ rfl; rfl
    · exact fun _ => rfl
    · exact fun _ => rfl
    · exact fun _ _ => rfl
  have hpt : ∀ a b : Point K n, a ≋ b → a = b := fun a b h => Point.ext (funext h)
  have hr := Spline.parMulOp (K := K) (K' := K) (tol := strict) cfg (V := V) (V' := V') (mul := fun c v => mul (g c) v) (mul' := mul)
    (fun a a' b b' ha hb => by
      rw [hpt b b' hb, ← (show g a = a' from ha)]
      exact fun _ => rfl)
    (s := s) (s' := ⟨s.degrees, s.ncp, s.offsets, s.cps.map g⟩)
    ⟨rfl, rfl, rfl, by
      show List.Forall₂ _ _ (s.cps.map g)
      rw [List.forall₂_map_right_iff, List.forall₂_same]; exact fun _ _ => rfl⟩
    (t := t) (t' := t) ⟨rfl, rfl, rfl, by
      show List.Forall₂ _ _ _
      rw [List.forall₂_same]; exact fun _ _ _ => rfl⟩
  revert hr
  generalize Spline.mulOp K cfg (fun c v => mul (g c) v) s t = x
  generalize Spline.mulOp K cfg mul _ t = y
  intro hr
  cases hr with
  | ok h =>
    rename_i a b
    obtain ⟨h1, h2, h3, h4⟩ := h
    cases a; cases b
    simp only at h1 h2 h3 h4
    subst h1 h2 h3
    congr 2
    clear * - h4 hpt
    change List.Forall₂ _ _ _ at h4
    induction h4 with
    | nil => rfl
    | cons h _ ih => rw [hpt _ _ h, ih]
  | err => rfl
  | left e _ ht => exact absurd ht (by simp [strict])
  | right e _ ht => exact absurd ht (by simp [strict])
end

variable {A : FloatArith}

theorem RelAt.conv {k m : ℕ} {x : Fl A} {y : ℝ} {conv : Fl A → Fl A} (hc : ∀ x, |(conv x).val - x.val| ≤ ((1 + A.u) ^ m - 1) * |x.val|)
    (h : RelAt A k x y) : RelAt A (k + m) (conv x) y := by
  refine ⟨h.1, ?_⟩
  have h1 := hc x
  have h2 : |x.val| ≤ (1 + A.u) ^ k * y := by
    have := abs_add_le (x.val - y) y
    rw [sub_add_cancel, abs_of_nonneg h.1] at this
    linarith [h.2]
  have h3 := abs_add_le ((conv x).val - x.val) (x.val - y)
  rw [sub_add_sub_cancel] at h3
  have h4 : ((1 + A.u) ^ m - 1) * |x.val| ≤ ((1 + A.u) ^ m - 1) * ((1 + A.u) ^ k * y) :=
    mul_le_mul_of_nonneg_left h2 (by linarith [one_le_u (A := A) m])
  have e : ((1 + A.u) ^ (k + m) - 1) * y = ((1 + A.u) ^ m - 1) * ((1 + A.u) ^ k * y) + ((1 + A.u) ^ k - 1) * y := by
    rw [pow_add]; ring
  linarith [h.2]

/-- numbers just above one half become one half -/
theorem rndBin_half {x : ℝ} (h1 : 1 / 2 ≤ x) (h2 : x ≤ 1 / 2 + 3 / 8 * 2 ^ (-(53 : ℤ))) : rndBin 53 x = 1 / 2 := by
  have hx : 0 < x := by linarith
  have hx1 : x < 1 := by have : (3 : ℝ) / 8 * 2 ^ (-(53 : ℤ)) < 1 / 2 := by norm_num
                         linarith
  have hL : Int.log 2 |x| = -1 := by
    rw [abs_of_pos hx, Int.log_of_right_le_one _ hx1.le]
    have : ⌈x⁻¹⌉₊ = 2 := by
      rw [Nat.ceil_eq_iff (by norm_num)]
      constructor
      · push_cast; have := one_lt_inv₀ hx |>.mpr hx1; simpa using this
      · push_cast; rw [inv_le_comm₀ hx (by norm_num)]; linarith
    rw [this, show Nat.clog 2 2 = 1 from Nat.clog_eq_one le_rfl le_rfl]; rfl
  unfold rndBin
  rw [hL]
  have : round (x * 2 ^ (((53 : ℕ) : ℤ) - 1 - -1)) = 2 ^ 52 := by
    rw [round_eq, Int.floor_eq_iff]
    push_cast
    norm_num at h2 ⊢
    constructor <;> linarith
  rw [this]
  norm_num

theorem rndBin_one : rndBin 53 (1 + 2 ^ (-(60 : ℤ))) = 1 := by
  unfold rndBin
  have hL : Int.log 2 |(1 : ℝ) + 2 ^ (-(60 : ℤ))| = 0 := by
    rw [abs_of_pos (by positivity)]
    rw [Int.log_of_one_le_right _ (by norm_num)]
    have : ⌊(1 : ℝ) + 2 ^ (-(60 : ℤ))⌋₊ = 1 := by
      rw [Nat.floor_eq_iff (by norm_num)]; norm_num
    rw [this]; simp
  rw [hL]
  have : round (((1 : ℝ) + 2 ^ (-(60 : ℤ))) * 2 ^ (((53 : ℕ) : ℤ) - 1 - 0)) = 2 ^ 52 := by
    rw [round_eq, Int.floor_eq_iff]
    norm_num
  rw [this]
  norm_num

/-- the product of two constants -/
theorem mulOp_constant {cfg : Cfg} (hc : cfg.Ok) (h0 : 0 < cfg.maxBinom) {K V W U : Type} [Zero K] [One K] [Add K] [Mul K] [Div K] [NatCast K]
    [Zero U] [Add U] [SMul K U] (mul : V → W → U) (a : V) (b : W) :
    Spline.mulOp K cfg mul ⟨[0], 1, [1], [a]⟩ ⟨[0], 1, [1], [b]⟩
      = .ok ⟨[0], 1, [1], [(0 : U) + (((1 : ℕ) : K) / ((1 : ℕ) : K)) • ((1 : K) • mul a b)]⟩ := by
  have h := choose_ok hc (n := 0) (i := 0) h0 le_rfl
  have e : Spline.combineForProduct cfg mul ⟨[0], 1, [1], [a]⟩ ⟨[0], 1, [1], [b]⟩ [0] 0 (1 : K) [] ⟨[0], 1, [1], [0]⟩
      = .ok ⟨[0], 1, [1], [(0 : U) + (((1 : ℕ) : K) / ((1 : ℕ) : K)) • ((1 : K) • mul a b)]⟩ := by
    unfold Spline.combineForProduct
    simp only [List.length_nil, rd, List.getElem?_cons_zero, bind_ok, loopFrom, loop, pure_eq_ok, Nat.add_zero, Nat.zero_add, Nat.sub_zero, Nat.sub_self, h, Nat.min_self]
    rfl
  exact e

end Bezman
