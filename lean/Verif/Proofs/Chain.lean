import Verif.Props.RationalDeriv
import Verif.Proofs.PointNorm
import Mathlib.Analysis.Calculus.Deriv.Mul
import Mathlib.Analysis.Calculus.Deriv.Inv
import Mathlib.Analysis.Calculus.Deriv.Pow
import Mathlib.Analysis.Calculus.Deriv.Add
import Mathlib.Algebra.BigOperators.Field

/-! # Total derivatives of (rational) Bezier functions along curves in the parameter space -/

namespace Bezman
open Spec Finset

section
variable {𝕜 V : Type} [NontriviallyNormedField 𝕜] [NormedAddCommGroup V] [NormedSpace 𝕜 V]

/-- `F` is differentiable at `t` along every differentiable curve, with partial derivatives `D` -/
def TotalAt (n : ℕ) (F : List 𝕜 → V) (t : List 𝕜) (D : ℕ → V) : Prop :=
  ∀ (c : 𝕜 → List 𝕜) (c' : ℕ → 𝕜) (x : 𝕜), c x = t → (∀ y, (c y).length = n) →
    (∀ d < n, HasDerivAt (fun y => (c y).getD d 0) (c' d) x) → HasDerivAt (fun y => F (c y)) (∑ d ∈ range n, c' d • D d) x

/-- the partial derivatives are derivatives in the directions of the axes -/
theorem TotalAt.partial {n : ℕ} {F : List 𝕜 → V} {t : List 𝕜} {D : ℕ → V} (h : TotalAt n F t D) (ht : t.length = n) {d : ℕ} {td : 𝕜}
    (hd : t[d]? = some td) : HasDerivAt (fun y => F (t.set d y)) (D d) td := by
  obtain ⟨hdl, hde⟩ := List.getElem?_eq_some_iff.mp hd
  have := h (fun y => t.set d y) (fun e => if e = d then 1 else 0) td (by rw [← hde, List.set_getElem_self]) (by simpa using ht) (by
    intro e he
    by_cases hed : e = d
    · subst hed
      simp only [if_true]
      have : (fun y : 𝕜 => (t.set e y).getD e 0) = fun y => y := by
        funext y
        simp [List.getD_eq_getElem?_getD, hdl]
      rw [this]
      exact hasDerivAt_id' td
    · simp only [if_neg hed]
      have : (fun y : 𝕜 => (t.set d y).getD e 0) = fun _ => t.getD e 0 := by
        funext y
        rw [List.getD_eq_getElem?_getD, List.getD_eq_getElem?_getD, List.getElem?_set_ne (Ne.symm hed)]
      rw [this]
      exact hasDerivAt_const _ _)
  simpa [← ht, hdl] using this

theorem hasDerivAt_bern (p i : ℕ) (x : 𝕜) : ∃ b : 𝕜, HasDerivAt (fun y => bern p i y) b x := by
  unfold bern
  exact ⟨_, ((hasDerivAt_pow i x).const_mul (p.choose i : 𝕜)).mul (((hasDerivAt_id' x).const_sub 1).pow (p - i))⟩

theorem bezier_total : ∀ (ds : List ℕ) (t : List 𝕜) (_ : t.length = ds.length) (P : List ℕ → V),
    ∃ D, TotalAt ds.length (fun s => bezier ds s P) t D := by
  intro ds
  induction ds with
  | nil =>
    intro t ht P
    refine ⟨fun _ => 0, ?_⟩
    intro c c' x hx hl hd
    simpa [bezier] using hasDerivAt_const x (P [])
  | cons p ds ih =>
    intro t ht P
    match t, ht with
    | t0 :: ts, ht =>
      have ht' : ts.length = ds.length := by simpa using ht
      choose D hD using fun i => ih ts ht' (fun idx => P (i :: idx))
      choose b hb using fun i => hasDerivAt_bern (𝕜 := 𝕜) p i t0
      refine ⟨fun d => if d = 0 then ∑ i ∈ range (p + 1), b i • bezier ds ts (fun idx => P (i :: idx))
        else ∑ i ∈ range (p + 1), bern p i t0 • D i (d - 1), ?_⟩
      intro c c' x hx hl hd
      have hcons : ∀ y, c y = (c y).getD 0 0 :: (c y).tail := by
        intro y
        have := hl y
        cases h : c y with
        | nil => rw [h] at this; simp at this
        | cons a l => simp
      have hc0 : (c x).getD 0 0 = t0 := by rw [hx]; simp
      have hct : (c x).tail = ts := by rw [hx]; rfl
      have e : (fun y => bezier (p :: ds) (c y) P) =
          fun y => ∑ i ∈ range (p + 1), bern p i ((c y).getD 0 0) • bezier ds (c y).tail (fun idx => P (i :: idx)) := by
        funext y
        conv_lhs => rw [hcons y]
        rfl
      rw [e]
      have h0 := hd 0 (by simp)
      have key : ∀ i ∈ range (p + 1), HasDerivAt
          (fun y => bern p i ((c y).getD 0 0) • bezier ds (c y).tail (fun idx => P (i :: idx)))
          (bern p i t0 • (∑ d ∈ range ds.length, c' (d + 1) • D i d) + (b i * c' 0) • bezier ds ts (fun idx => P (i :: idx))) x := by
        intro i _
        have h1 : HasDerivAt (fun y => bern p i ((c y).getD 0 0)) (b i * c' 0) x := by
          have := hb i
          rw [← hc0] at this
          exact HasDerivAt.comp x this h0
        have h2 := hD i (fun y => (c y).tail) (fun d => c' (d + 1)) x hct (by intro y; simpa using congrArg Nat.pred (hl y)) (by
          intro d hd'
          have := hd (d + 1) (by simpa using hd')
          convert this using 1
          funext y
          cases h : c y <;> simp)
        have := h1.fun_smul h2
        simpa only [hc0, hct] using this
      have := HasDerivAt.fun_sum key
      convert this using 1
      rw [List.length_cons, Finset.sum_range_succ', Finset.sum_add_distrib]
      simp only [Nat.add_eq_zero_iff, one_ne_zero, and_false, if_false, Nat.add_sub_cancel, if_true]
      congr 1
      · simp only [Finset.smul_sum]
        rw [Finset.sum_comm]
        exact Finset.sum_congr rfl fun i _ => Finset.sum_congr rfl fun d _ => smul_comm _ _ _
      · rw [Finset.smul_sum]
        exact Finset.sum_congr rfl fun i _ => by rw [smul_smul, mul_comm]

/-- quotients -/
theorem TotalAt.quotient {n : ℕ} {F : List 𝕜 → V} {w : List 𝕜 → 𝕜} {t : List 𝕜} {D : ℕ → V} {E : ℕ → 𝕜} (h : TotalAt n F t D)
    (hw : TotalAt n w t E) (h0 : w t ≠ 0) :
    TotalAt n (fun s => (w s)⁻¹ • F s) t (fun d => (w t)⁻¹ • D d + (-E d / w t ^ 2) • F t) := by
  intro c c' x hx hl hd
  have h1 := h c c' x hx hl hd
  have h2 := (hw c c' x hx hl hd).inv (by rw [hx]; exact h0)
  have e : -(∑ d ∈ range n, c' d • E d) / w t ^ 2 = ∑ d ∈ range n, c' d * (-E d / w t ^ 2) := by
    rw [← Finset.sum_neg_distrib, Finset.sum_div]
    exact Finset.sum_congr rfl fun d _ => by rw [smul_eq_mul, neg_div, neg_div, mul_neg, mul_div_assoc]
  have := h2.fun_smul h1
  simp only [hx, Pi.inv_apply] at this
  rw [e] at this
  convert this using 1
  rw [Finset.sum_smul, Finset.smul_sum, ← Finset.sum_add_distrib]
  exact Finset.sum_congr rfl fun d _ => by rw [smul_add, smul_smul, smul_smul, smul_smul, mul_comm]

end

/-! ### Coordinates -/

/-- the coordinates of points depend continuously on the point -/
class ContinuousCoords (𝕜 W : Type) [NontriviallyNormedField 𝕜] [NormedAddCommGroup W] [Coords 𝕜 W] : Prop where
  continuous_coord : ∀ j : Fin (Coords.n 𝕜 W), Continuous fun x : W => (Coords.coord x j : 𝕜)

instance (𝕜 : Type) [NontriviallyNormedField 𝕜] : ContinuousCoords 𝕜 𝕜 := ⟨fun _ => continuous_id⟩

instance (𝕜 : Type) [NontriviallyNormedField 𝕜] (n : ℕ) : ContinuousCoords 𝕜 (Point 𝕜 n) where
  continuous_coord j := by
    have : Isometry (Point.valL 𝕜 n) := AddMonoidHomClass.isometry_of_norm (Point.valL 𝕜 n) fun _ => rfl
    exact (continuous_apply j).comp this.continuous

section
variable {𝕜 W : Type} [NontriviallyNormedField 𝕜] [NormedAddCommGroup W] [NormedSpace 𝕜 W] [Coords 𝕜 W] [LawfulCoords 𝕜 W]
  [ContinuousCoords 𝕜 W]

theorem hasDerivAt_coord {g : 𝕜 → W} {g' : W} {x : 𝕜} (h : HasDerivAt g g' x) (j : Fin (Coords.n 𝕜 W)) :
    HasDerivAt (fun y => (Coords.coord (g y) j : 𝕜)) (Coords.coord g' j) x := by
  let L : W →L[𝕜] 𝕜 := ⟨⟨⟨fun x => Coords.coord x j, fun x y => LawfulCoords.coord_add x y j⟩, fun c x => LawfulCoords.coord_smul c x j⟩,
    ContinuousCoords.continuous_coord j⟩
  exact L.hasFDerivAt.comp_hasDerivAt x h

/-- coordinates as a total function of the index -/
def coordAt (𝕜 : Type) {W : Type} [Zero 𝕜] [Coords 𝕜 W] (w : W) (d : ℕ) : 𝕜 := if h : d < Coords.n 𝕜 W then Coords.coord w ⟨d, h⟩ else 0

omit [NormedSpace 𝕜 W] [LawfulCoords 𝕜 W] [ContinuousCoords 𝕜 W] in
theorem coordList_getD (w : W) (d : ℕ) : (coordList 𝕜 w).getD d 0 = coordAt 𝕜 w d := by
  unfold coordList coordAt
  rw [List.getD_eq_getElem?_getD]
  split
  · next h => simp [h]
  · next h => rw [List.getElem?_eq_none (by simpa using h)]; rfl

/-- the chain rule -/
theorem TotalAt.chain {V : Type} [NormedAddCommGroup V] [NormedSpace 𝕜 V] {F : List 𝕜 → V} {g : 𝕜 → W} {g' : W} {x : 𝕜} {D : ℕ → V}
    (hg : HasDerivAt g g' x) (h : TotalAt (Coords.n 𝕜 W) F (coordList 𝕜 (g x)) D) :
    HasDerivAt (fun y => F (coordList 𝕜 (g y))) (∑ j : Fin (Coords.n 𝕜 W), (Coords.coord g' j : 𝕜) • D j) x := by
  have := h (fun y => coordList 𝕜 (g y)) (fun d => coordAt 𝕜 g' d) x rfl (fun y => coordList_length _) (by
    intro d hd
    have := hasDerivAt_coord hg ⟨d, hd⟩
    convert this using 1
    · funext y; rw [coordList_getD, coordAt, dif_pos hd]
    · rw [coordAt, dif_pos hd])
  convert this using 1
  rw [Finset.sum_range]
  exact Finset.sum_congr rfl fun j _ => by rw [coordAt, dif_pos j.2]

end
end Bezman
