import Verif.Proofs.FloatArith
import Verif.Proofs.Basis

/-! # Rounding errors of `ForwardEvaluate` -/

namespace Bezman
open Spec

variable (A : FloatArith)

/-- `x` is not negative and the floating-point number has the relative error of `k` operations -/
def RelAt (k : ℕ) (x' : Fl A) (x : ℝ) : Prop := 0 ≤ x ∧ |x'.val - x| ≤ ((1 + A.u) ^ k - 1) * x

variable {A}

theorem one_le_u (k : ℕ) : 1 ≤ (1 + A.u) ^ k := one_le_pow₀ (by linarith [A.u_nonneg])

theorem u_mono {j k : ℕ} (h : j ≤ k) : (1 + A.u) ^ j ≤ (1 + A.u) ^ k :=
  pow_le_pow_right₀ (by linarith [A.u_nonneg]) h

theorem RelAt.mono {j k : ℕ} {x' : Fl A} {x : ℝ} (h : RelAt A j x' x) (hjk : j ≤ k) : RelAt A k x' x :=
  ⟨h.1, h.2.trans (mul_le_mul_of_nonneg_right (by linarith [u_mono (A := A) hjk]) h.1)⟩

theorem RelAt.one : RelAt A 0 1 1 := ⟨zero_le_one, by simp⟩
theorem RelAt.exact {x : Fl A} (h : 0 ≤ x.val) : RelAt A 0 x x.val := ⟨h, by simp⟩
theorem RelAt.cast (n : ℕ) : RelAt A 1 (n : Fl A) (n : ℝ) := by
  refine ⟨Nat.cast_nonneg n, ?_⟩
  have := A.cast_err n
  rw [pow_one, add_sub_cancel_left]
  exact this

theorem RelAt.one_sub {t : Fl A} (h : t.val ≤ 1) : RelAt A 1 (1 - t) (1 - t.val) := by
  have h0 : 0 ≤ 1 - t.val := by linarith
  refine ⟨h0, ?_⟩
  have := A.sub_err 1 t.val
  rw [abs_of_nonneg h0] at this
  rw [pow_one, add_sub_cancel_left]
  exact this

/-- product of perturbed numbers -/
theorem mul_pert {α β x y x' y' z : ℝ} (hη : A.η = 0) (hα : 1 ≤ α) (hβ : 1 ≤ β) (hx : |x' - x| ≤ (α - 1) * |x|)
    (hy : |y' - y| ≤ (β - 1) * |y|) (hz : |z - x' * y'| ≤ A.u * |x' * y'| + A.η) :
    |z - x * y| ≤ (α * β * (1 + A.u) - 1) * (|x| * |y|) := by
  have hu := A.u_nonneg
  have hx' : |x'| ≤ α * |x| := by
    have := abs_add_le x (x' - x); rw [add_sub_cancel] at this; linarith
  have hy' : |y'| ≤ β * |y| := by
    have := abs_add_le y (y' - y); rw [add_sub_cancel] at this; linarith
  have hxy : |x' * y'| ≤ α * |x| * (β * |y|) := by
    rw [abs_mul]; exact mul_le_mul hx' hy' (abs_nonneg _) (by positivity)
  have e : z - x * y = (z - x' * y') + ((x' - x) * y' + x * (y' - y)) := by ring
  have h1 : |(x' - x) * y'| ≤ (α - 1) * |x| * (β * |y|) := by
    rw [abs_mul]
    exact mul_le_mul hx hy' (abs_nonneg _) (mul_nonneg (by linarith) (abs_nonneg _))
  have h2 : |x * (y' - y)| ≤ |x| * ((β - 1) * |y|) := by
    rw [abs_mul]; exact mul_le_mul_of_nonneg_left hy (abs_nonneg _)
  have h3 := abs_add_le (z - x' * y') ((x' - x) * y' + x * (y' - y))
  have h4 := abs_add_le ((x' - x) * y') (x * (y' - y))
  have h5 : A.u * |x' * y'| ≤ A.u * (α * |x| * (β * |y|)) := mul_le_mul_of_nonneg_left hxy hu
  rw [e]
  have : (α * β * (1 + A.u) - 1) * (|x| * |y|)
      = A.u * (α * |x| * (β * |y|)) + ((α - 1) * |x| * (β * |y|) + |x| * ((β - 1) * |y|)) := by ring
  rw [hη] at hz
  linarith

theorem RelAt.mul (hη : A.η = 0) {j k : ℕ} {x' y' : Fl A} {x y : ℝ} (hx : RelAt A j x' x) (hy : RelAt A k y' y) :
    RelAt A (j + k + 1) (x' * y') (x * y) := by
  refine ⟨mul_nonneg hx.1 hy.1, ?_⟩
  have := mul_pert hη (one_le_u (A := A) j) (one_le_u (A := A) k) (x := x) (y := y) (by rw [abs_of_nonneg hx.1]; exact hx.2)
    (by rw [abs_of_nonneg hy.1]; exact hy.2) (A.mul_err x'.val y'.val)
  rw [abs_of_nonneg hx.1, abs_of_nonneg hy.1] at this
  rw [pow_add, pow_add, pow_one]
  exact this

theorem Graded.append {V V' : Type} {Q : ℕ → V → V' → Prop} {g : ℕ → ℕ} {m : List V} {m' : List V'} (h : Graded Q g m m')
    {a : V} {a' : V'} (ha : Q (g m.length) a a') : Graded Q g (m ++ [a]) (m' ++ [a']) := by
  refine ⟨by simp [h.1], fun x b b' e e' => ?_⟩
  have hl := h.1
  rw [List.getElem?_append] at e e'
  split at e
  · rw [if_pos (by omega)] at e'
    exact h.2 x b b' e e'
  · rw [if_neg (by omega)] at e'
    rw [List.getElem?_singleton] at e e'
    split at e
    · rw [if_pos (by omega)] at e'
      cases e; cases e'
      have : x = m.length := by omega
      rwa [this]
    · cases e

theorem Graded.forall₂ {V V' : Type} {Q : ℕ → V → V' → Prop} {k : ℕ} {m : List V} {m' : List V'}
    (h : Graded Q (fun _ => k) m m') : List.Forall₂ (Q k) m m' := by
  rw [List.forall₂_iff_get]
  exact ⟨h.1, fun i h1 h2 => h.2 i _ _ (List.getElem?_eq_getElem h1) (List.getElem?_eq_getElem h2)⟩

theorem bernsteinEvaluate_float (hη : A.η = 0) {cfg : Cfg} {p : ℕ} {t : Fl A} (h0 : 0 ≤ t.val) (h1 : t.val ≤ 1) {l' : List ℝ}
    (h : bernsteinEvaluate cfg p t.val = .ok l') :
    ∃ l, bernsteinEvaluate cfg p t = .ok l ∧ List.Forall₂ (RelAt A (2 * p + 3)) l l' := by
  unfold bernsteinEvaluate at h ⊢
  obtain ⟨_, e0, h⟩ := bind_eq_ok.mp h
  obtain ⟨r', e1, h⟩ := bind_eq_ok.mp h
  obtain ⟨q', e2, h⟩ := bind_eq_ok.mp h
  cases h
  have rmono : ∀ k (a : Fl A) (a' : ℝ), RelAt A k a a' → RelAt A (k + 1) a a' := fun k a a' h => h.mono (by omega)
  obtain ⟨r, f1, ⟨g1, g2⟩, -⟩ := loop_follow_idx (fun i (a : List (Fl A) × Fl A) (b : List ℝ × ℝ) =>
      (Graded (RelAt A) (fun x => x + 2) a.1 b.1 ∧ a.1.length = i) ∧ RelAt A i a.2 b.2)
    (a := ([], 1)) (f := fun i (r : List (Fl A) × Fl A) => do
      let c ← choose cfg p i
      pure (r.1 ++ [(c : Fl A) * r.2], r.2 * t)) ⟨⟨⟨rfl, by simp⟩, rfl⟩, RelAt.one⟩ (by
      rintro i hi ⟨a1, a2⟩ ⟨b1, b2⟩ b' ⟨⟨ha, hl⟩, hp⟩ e
      obtain ⟨c, ec, e⟩ := bind_eq_ok.mp e
      cases e
      refine ⟨(a1 ++ [(c : Fl A) * a2], a2 * t), by rw [ec]; rfl, ⟨ha.append ?_, by simpa using hl⟩, ?_⟩
      · simp only at hl
        rw [hl]
        exact (RelAt.mul hη (RelAt.cast c) hp).mono (by omega)
      · exact RelAt.mul hη hp (RelAt.exact h0)) e1
  obtain ⟨q, f2, g3, -⟩ : ∃ q, loop (p + 1) (fun i (r : List (Fl A) × Fl A) => do
      let e ← rd r.1 (p - i)
      let ev ← wr r.1 (p - i) (e * r.2)
      pure (ev, r.2 * ((1 : Fl A) - t))) (r.1, 1) = .ok q ∧
      Graded (RelAt A) (fun x => if p < x + (p + 1) then 2 * p + 3 else x + 2) q.1 q'.1 ∧ RelAt A (2 * (p + 1)) q.2 q'.2 := by
    refine loop_follow_idx (P := fun i (a : List (Fl A) × Fl A) (b : List ℝ × ℝ) =>
      Graded (RelAt A) (fun x => if p < x + i then 2 * p + 3 else x + 2) a.1 b.1 ∧ RelAt A (2 * i) a.2 b.2)
      (b := (r'.1, 1)) ⟨g1.mono' rmono fun x hx => by rw [if_neg (by omega)], RelAt.one⟩ ?_ e2
    rintro i hi ⟨a1, a2⟩ ⟨b1, b2⟩ b' ⟨ha, hp⟩ e
    obtain ⟨y, ey, e⟩ := bind_eq_ok.mp e
    obtain ⟨ev, ew, e⟩ := bind_eq_ok.mp e
    cases e
    obtain ⟨x, ex, hx⟩ := ha.rd ey
    rw [if_neg (by omega)] at hx
    obtain ⟨m1, em, hm⟩ := ha.wr ((RelAt.mul hη hx hp).mono (k := 2 * p + 3) (by omega)) ew
    refine ⟨(m1, a2 * ((1 : Fl A) - t)), ?_, hm.mono rmono fun z => ?_, (RelAt.mul hη hp (RelAt.one_sub h1)).mono (by omega)⟩
    · simp only [ex, bind_ok, em]; rfl
    · by_cases hz : z = p - i
      · rw [if_pos hz, if_pos (by omega)]
      · rw [if_neg hz]
        by_cases h' : p < z + i
        · rw [if_pos h', if_pos (by omega)]
        · rw [if_neg h', if_neg (by omega)]
  refine ⟨q.1, ?_, (g3.mono rmono fun x => ?_).forall₂⟩
  · rw [e0]
    simp only [bind_ok, f1, f2]
    rfl
  · split <;> omega

theorem recursiveCombine_float (hη : A.η = 0) {g : ℕ → ℕ} {fs : List (List (Fl A))} {fs' : List (List ℝ)}
    (hf : Graded (fun k => List.Forall₂ (RelAt A k)) g fs fs') (R : ℕ) (k : ℕ) : ∀ (j : ℕ)
    (_ : j + ∑ d ∈ Finset.range (k + 1), (g d + 1) ≤ R) (res : List (Fl A)) (res' : List ℝ)
    (_ : List.Forall₂ (RelAt A R) res res') (c : Fl A) (c' : ℝ) (_ : RelAt A j c c') (l' : List ℝ)
    (_ : recursiveCombine_ k fs' res' c' = .ok l'),
    ∃ l, recursiveCombine_ k fs res c = .ok l ∧ List.Forall₂ (RelAt A R) l l' := by
  induction k with
  | zero =>
    intro j hj res res' hres c c' hc l' h
    unfold recursiveCombine_ at h ⊢
    obtain ⟨f', ef, h⟩ := bind_eq_ok.mp h
    obtain ⟨f, e1, hff⟩ := hf.rd ef
    rw [e1]
    simp only [bind_ok]
    have hfl : f.length = f'.length := hff.length_eq
    rw [hfl]
    refine loop_follow (P := List.Forall₂ (RelAt A R)) hres ?_ h
    intro i hi a b b' hab e
    obtain ⟨x', ex, e⟩ := bind_eq_ok.mp e
    cases e
    obtain ⟨x, ex', hx⟩ := forall₂_rd hff ex
    refine ⟨a ++ [c * x], by rw [ex']; rfl, ?_⟩
    refine List.rel_append hab (.cons ((RelAt.mul hη hc hx).mono ?_) .nil)
    simp at hj; omega
  | succ k ih =>
    intro j hj res res' hres c c' hc l' h
    unfold recursiveCombine_ at h ⊢
    obtain ⟨f', ef, h⟩ := bind_eq_ok.mp h
    obtain ⟨f, e1, hff⟩ := hf.rd ef
    rw [e1]
    simp only [bind_ok]
    have hfl : f.length = f'.length := hff.length_eq
    rw [hfl]
    refine loop_follow (P := List.Forall₂ (RelAt A R)) hres ?_ h
    intro i hi a b b' hab e
    obtain ⟨x', ex, e⟩ := bind_eq_ok.mp e
    obtain ⟨x, ex', hx⟩ := forall₂_rd hff ex
    rw [Finset.sum_range_succ] at hj
    obtain ⟨l, el, hl⟩ := ih (j + g (k + 1) + 1) (by omega) a b hab (c * x) (c' * x') (RelAt.mul hη hc hx) b' e
    exact ⟨l, by rw [ex']; exact el, hl⟩

/-- number of rounding errors in a tensor product basis function -/
def basisOps (ds : List ℕ) : ℕ := (ds.map (fun p => 2 * p + 4)).sum

theorem basisFunctions_float {V V' : Type} (hη : A.η = 0) {cfg : Cfg} {s : Spline V} {s' : Spline V'} (hd : s.degrees = s'.degrees)
    (hpos : 0 < s'.dim) {t : List (Fl A)} (ht : ∀ x ∈ t, 0 ≤ x.val ∧ x.val ≤ 1) {l' : List ℝ}
    (h : s'.basisFunctions cfg (t.map Fl.val) = .ok l') :
    ∃ l, s.basisFunctions cfg t = .ok l ∧ List.Forall₂ (RelAt A (basisOps s'.degrees)) l l' := by
  unfold Spline.basisFunctions at h ⊢
  obtain ⟨f', e1, e2⟩ := bind_eq_ok.mp h
  have lmono : ∀ k (a : List (Fl A)) (a' : List ℝ), List.Forall₂ (RelAt A k) a a' → List.Forall₂ (RelAt A (k + 1)) a a' :=
    fun k a a' h => h.imp fun _ _ h => h.mono (by omega)
  have hdim : s.dim = s'.dim := by unfold Spline.dim; rw [hd]
  unfold Spline.basisFunctionContributions at e1 ⊢
  have hlen : f'.length = s'.dim := by
    refine loop_ok (P := fun _ (f : List (List ℝ)) => f.length = s'.dim) e1 (by simp) ?_
    intro k hk a b ha hb
    obtain ⟨_, _, hb⟩ := bind_eq_ok.mp hb
    obtain ⟨_, _, hb⟩ := bind_eq_ok.mp hb
    obtain ⟨_, _, hb⟩ := bind_eq_ok.mp hb
    unfold wr at hb
    split at hb
    · cases hb; simpa using ha
    · cases hb
  obtain ⟨f, e3, hf⟩ := loop_follow (fun (a : List (List (Fl A))) (b : List (List ℝ)) =>
      Graded (fun k => List.Forall₂ (RelAt A k)) (fun d => 2 * s'.degrees.getD d 0 + 3) a b)
    (a := List.replicate s'.dim []) (f := fun d (factors : List (List (Fl A))) => do
      let p ← rd s'.degrees d
      let x ← rd t d
      let b ← bernsteinEvaluate cfg p x
      wr factors d b) ⟨by simp, by
        intro x a a' e e'
        rw [List.getElem?_replicate] at e e'
        split at e
        · rename_i hx
          rw [if_pos hx] at e'
          cases e; cases e'; exact .nil
        · cases e⟩ (by
      intro d hd' a b b' hab e
      obtain ⟨p, ep, f1⟩ := bind_eq_ok.mp e
      obtain ⟨x', ex, f2⟩ := bind_eq_ok.mp f1
      obtain ⟨y', ey, f3⟩ := bind_eq_ok.mp f2
      have hR : List.Forall₂ (fun (x : Fl A) (y : ℝ) => y = x.val ∧ 0 ≤ x.val ∧ x.val ≤ 1) t (t.map Fl.val) := by
        rw [List.forall₂_map_right_iff, List.forall₂_same]
        exact fun x hx => ⟨rfl, ht x hx⟩
      obtain ⟨x, ex', rfl, hx0, hx1⟩ := forall₂_rd hR ex
      obtain ⟨y, ey', hy⟩ := bernsteinEvaluate_float hη hx0 hx1 ey
      obtain ⟨m1, em, hm⟩ := hab.wr (k := 2 * p + 3) hy f3
      refine ⟨m1, by simp only [ep, ex', ey', bind_ok]; exact em, hm.mono lmono fun z => ?_⟩
      split
      · rename_i hz
        subst hz
        rw [rd_ok_iff] at ep
        rw [List.getD_eq_getElem?_getD, ep]; rfl
      · exact le_rfl) e1
  rw [hdim, hd, e3]
  simp only [bind_ok]
  unfold recursiveCombine at e2 ⊢
  have hfl : f.length = s'.dim := by rw [hf.1, hlen]
  rw [hfl]
  rw [hlen] at e2
  refine recursiveCombine_float hη hf (basisOps s'.degrees) (s'.dim - 1) 0 ?_ [] [] .nil 1 1 RelAt.one l' e2
  rw [Nat.sub_add_cancel hpos]
  have : ∀ ds : List ℕ, ∑ d ∈ Finset.range ds.length, (2 * ds.getD d 0 + 3 + 1) = basisOps ds := by
    intro ds
    induction ds with
    | nil => rfl
    | cons p ds ih =>
      rw [List.length_cons, Finset.sum_range_succ']
      simp only [List.getD_cons_succ, List.getD_cons_zero]
      rw [ih]
      simp [basisOps]; omega
  rw [Spline.dim, this]
  omega

/-- the weighted sum, seen through one coordinate -/
theorem weightedSum_float (hη : A.η = 0) {V V' : Type} [Zero V] [Add V] [SMul (Fl A) V] [Zero V'] [Add V'] [SMul ℝ V'] {ι : Type}
    {co : V → ι → ℝ} {co' : V' → ι → ℝ} (h0 : ∀ i, co 0 i = 0) (h0' : ∀ i, co' 0 i = 0)
    (hadd : ∀ a b i, co (a + b) i = A.add (co a i) (co b i)) (hadd' : ∀ a b i, co' (a + b) i = co' a i + co' b i)
    (hmul : ∀ (f : Fl A) c i, |co (f • c) i - f.val * co c i| ≤ A.u * |f.val * co c i| + A.η)
    (hmul' : ∀ (f : ℝ) c i, co' (f • c) i = f * co' c i) {M : ι → ℝ} {R : ℕ} {fs : List (Fl A)} {fs' : List ℝ}
    (hf : List.Forall₂ (RelAt A R) fs fs') {cs : List V} {cs' : List V'}
    (hc : List.Forall₂ (fun c c' => ∀ i, co c i = co' c' i ∧ |co' c' i| ≤ M i) cs cs') {v' : V'}
    (h : Spline.weightedSum fs' cs' = .ok v') :
    ∃ v, Spline.weightedSum fs cs = .ok v ∧
      ∀ i, |co v i - co' v' i| ≤ ((1 + A.u) ^ (R + 1 + fs'.length) - 1) * (fs'.sum * M i) := by
  unfold Spline.weightedSum at h ⊢
  rw [hf.length_eq]
  obtain ⟨v, e, hv⟩ := loop_follow_idx (P := fun k (a : V) (b : V') => ∀ i,
      |co' b i| ≤ (fs'.take k).sum * M i ∧ |co a i - co' b i| ≤ ((1 + A.u) ^ (R + 1 + k) - 1) * ((fs'.take k).sum * M i))
    (a := 0) (f := fun i acc => do
      let f ← rd fs i
      let c ← rd cs i
      pure (acc + f • c)) (fun i => by simp [h0, h0']) (by
      intro k hk a b b' hab e
      obtain ⟨f', ef, e1⟩ := bind_eq_ok.mp e
      obtain ⟨c', ec, e2⟩ := bind_eq_ok.mp e1
      cases e2
      obtain ⟨f, ef', hff⟩ := forall₂_rd hf ef
      obtain ⟨c, ec', hcc⟩ := forall₂_rd hc ec
      refine ⟨a + f • c, by rw [ef', ec']; rfl, fun i => ?_⟩
      rw [rd_ok_iff] at ef
      rw [List.take_add_one, ef, List.sum_append, Option.toList_some, List.sum_singleton, hadd, hadd', hmul']
      obtain ⟨i1, i2⟩ := hab i
      obtain ⟨c1, c2⟩ := hcc i
      have hM : 0 ≤ M i := (abs_nonneg _).trans c2
      have hp := mul_pert hη (one_le_u (A := A) R) le_rfl (x := f') (y := co' c' i) (x' := f.val) (y' := co c i)
        (by rw [abs_of_nonneg hff.1]; exact hff.2) (by rw [c1]; simp) (hmul f c i)
      rw [mul_one, ← pow_succ, abs_of_nonneg hff.1] at hp
      set F := (fs'.take k).sum
      set x := co (f • c) i
      have hfc : f' * |co' c' i| ≤ f' * M i := mul_le_mul_of_nonneg_left c2 hff.1
      have hF : 0 ≤ F * M i := (abs_nonneg _).trans i1
      have hfM : 0 ≤ f' * M i := mul_nonneg hff.1 hM
      have h1 : |co' b i + f' * co' c' i| ≤ (F + f') * M i := by
        have := abs_add_le (co' b i) (f' * co' c' i)
        rw [abs_mul, abs_of_nonneg hff.1] at this
        linarith
      refine ⟨h1, ?_⟩
      have hp2 : |x - f' * co' c' i| ≤ ((1 + A.u) ^ (R + 1 + k) - 1) * (f' * M i) := by
        refine hp.trans (mul_le_mul ?_ hfc (mul_nonneg hff.1 (abs_nonneg _)) ?_)
        · linarith [u_mono (A := A) (j := R + 1) (k := R + 1 + k) (by omega)]
        · linarith [one_le_u (A := A) (R + 1 + k)]
      have h2 : |co a i + x - (co' b i + f' * co' c' i)| ≤ ((1 + A.u) ^ (R + 1 + k) - 1) * ((F + f') * M i) := by
        have := abs_add_le (co a i - co' b i) (x - f' * co' c' i)
        have e : co a i - co' b i + (x - f' * co' c' i) = co a i + x - (co' b i + f' * co' c' i) := by ring
        rw [e] at this
        have e2 : ((1 + A.u) ^ (R + 1 + k) - 1) * ((F + f') * M i)
          = ((1 + A.u) ^ (R + 1 + k) - 1) * (F * M i) + ((1 + A.u) ^ (R + 1 + k) - 1) * (f' * M i) := by ring
        linarith
      have h3 : |co a i + x| ≤ (1 + A.u) ^ (R + 1 + k) * ((F + f') * M i) := by
        have := abs_add_le (co' b i + f' * co' c' i) (co a i + x - (co' b i + f' * co' c' i))
        rw [add_sub_cancel] at this
        linarith
      have h4 := A.add_err (co a i) x
      have h5 : A.u * |co a i + x| ≤ A.u * ((1 + A.u) ^ (R + 1 + k) * ((F + f') * M i)) :=
        mul_le_mul_of_nonneg_left h3 A.u_nonneg
      have h6 := abs_add_le (A.add (co a i) x - (co a i + x)) (co a i + x - (co' b i + f' * co' c' i))
      rw [sub_add_sub_cancel] at h6
      have e3 : ((1 + A.u) ^ (R + 1 + (k + 1)) - 1) * ((F + f') * M i)
        = A.u * ((1 + A.u) ^ (R + 1 + k) * ((F + f') * M i)) + ((1 + A.u) ^ (R + 1 + k) - 1) * ((F + f') * M i) := by
        rw [← add_assoc, pow_succ]; ring
      linarith) h
  refine ⟨v, e, fun i => ?_⟩
  have := (hv i).2
  rwa [List.take_length] at this

theorem forward_float (hη : A.η = 0) {cfg : Cfg} (hmax : cfg.maxBinom ≤ 68) {V V' : Type} [Zero V] [Add V] [SMul (Fl A) V]
    [AddCommGroup V'] [Module ℝ V'] {s : Spline V} {s' : Spline V'} (hs' : s'.WF) (hd : s.degrees = s'.degrees)
    (hdeg : ∀ p ∈ s'.degrees, p < cfg.maxBinom) {t : List (Fl A)} (ht : (t.map Fl.val).length = s'.dim)
    (h01 : ∀ x ∈ t, 0 ≤ x.val ∧ x.val ≤ 1) {ι : Type}
    {co : V → ι → ℝ} {co' : V' → ι → ℝ} {M : ι → ℝ} (h0 : ∀ i, co 0 i = 0) (h0' : ∀ i, co' 0 i = 0)
    (hadd : ∀ a b i, co (a + b) i = A.add (co a i) (co b i)) (hadd' : ∀ a b i, co' (a + b) i = co' a i + co' b i)
    (hmul : ∀ (f : Fl A) c i, |co (f • c) i - f.val * co c i| ≤ A.u * |f.val * co c i| + A.η)
    (hmul' : ∀ (f : ℝ) c i, co' (f • c) i = f * co' c i)
    (hc : List.Forall₂ (fun c c' => ∀ i, co c i = co' c' i ∧ |co' c' i| ≤ M i) s.cps s'.cps) :
    ∃ r y, s.forwardEvaluate cfg t = .ok r ∧ s'.forwardEvaluate cfg (t.map Fl.val) = .ok y ∧
      ∀ i, |co r i - co' y i| ≤ ((1 + A.u) ^ (basisOps s'.degrees + 1 + s'.ncp) - 1) * M i := by
  have e := Spline.basisFunctions_ok (K := ℝ) (s := s') hmax hs'.dim_pos hdeg ht
  have e2 := Spline.forwardEvaluate_ok (K := ℝ) hmax hs' hdeg ht
  obtain ⟨l, e1, h1⟩ := basisFunctions_float (s := s) hη hd hs'.dim_pos h01 e
  have e3 := e2
  unfold Spline.forwardEvaluate at e3
  rw [e] at e3
  obtain ⟨v, f1, f2⟩ := weightedSum_float hη h0 h0' hadd hadd' hmul hmul' h1 hc e3
  refine ⟨v, _, ?_, e2, fun i => ?_⟩
  · unfold Spline.forwardEvaluate
    rw [e1]; exact f1
  · have := f2 i
    rwa [tab_length, list_sum_tab, sum_pw_bern ht, one_mul, ← hs'.ncp_eq] at this

end Bezman
