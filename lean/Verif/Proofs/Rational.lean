import Verif.Spec.RComputes
import Verif.Proofs.Computes
import Verif.Proofs.PropsAux
import Verif.Proofs.Point

/-! Rational splines: the function they compute, constructors. -/

namespace Bezman
open Spec

/-- dividing by a scalar is multiplying with its inverse -/
class LawfulScalarDiv (K V : Type) [Field K] [AddCommGroup V] [Module K V] [ScalarDiv K V] : Prop where
  sdiv_eq : ∀ (x : V) (w : K), ScalarDiv.sdiv x w = w⁻¹ • x

instance (K : Type) [Field K] : LawfulScalarDiv K K := ⟨fun x w => by
  show x / w = w⁻¹ * x
  rw [div_eq_mul_inv, mul_comm]⟩
instance (K : Type) (n : ℕ) [Field K] : LawfulScalarDiv K (Point K n) := ⟨fun x w => by
  show (1 / w) • x = w⁻¹ • x
  rw [one_div]⟩

namespace RSpline
variable {K V : Type} [Field K] [DecidableEq K] [AddCommGroup V] [Module K V] [ScalarDiv K V] [LawfulScalarDiv K V]

theorem divM_ok (x : V) {w : K} (h : w ≠ 0) : divM x w = .ok (w⁻¹ • x) := by
  unfold divM; rw [if_neg (by simpa using h), LawfulScalarDiv.sdiv_eq]

omit [AddCommGroup V] [Module K V] [LawfulScalarDiv K V] in
theorem divM_zero (x : V) : divM x (0 : K) = .error .divZero := by
  unfold divM; rw [if_pos (beq_self_eq_true _)]

variable {r : RSpline K V} {ds : List ℕ} {f g : List K → V} {w : List K → K}

omit [LawfulScalarDiv K V] in
theorem Computes.wt_computes (h : r.Computes ds f w) : r.wt.Computes ds w :=
  ⟨h.wt_wf, h.wt_degrees, h.weight⟩

omit [LawfulScalarDiv K V] in
theorem Computes.wt_value (h : r.Computes ds f w) {t : List K} (ht : t.length = ds.length) : r.wt.value t = w t :=
  h.wt_computes.value_eq ht

theorem evaluate_ok (hn : r.num.WF) (hw : r.wt.WF) (hnd : r.num.degrees = ds) (hwd : r.wt.degrees = ds)
    {t : List K} (ht : t.length = ds.length) (h0 : r.wt.value t ≠ 0) :
    r.evaluate t = .ok ((r.wt.value t)⁻¹ • r.num.value t) := by
  unfold evaluate
  rw [Spline.evaluate_ok hn (by unfold Spline.dim; rw [hnd, ht]),
    Spline.evaluate_ok hw (by unfold Spline.dim; rw [hwd, ht])]
  exact divM_ok _ h0

theorem Computes.num_value (h : r.Computes ds f w) {t : List K} (ht : t.length = ds.length) (h0 : w t ≠ 0) :
    r.num.value t = w t • f t := by
  have h1 := h.eval t ht h0
  have h2 := h.wt_value ht
  rw [evaluate_ok h.num_wf h.wt_wf h.num_degrees h.wt_degrees ht (by rw [h2]; exact h0), h2] at h1
  injection h1 with h1
  rw [← h1, smul_inv_smul₀ h0]

theorem Computes.mk' (hn : r.num.WF) (hw : r.wt.WF) (hnd : r.num.degrees = ds) (hwd : r.wt.degrees = ds)
    (h1 : ∀ t : List K, t.length = ds.length → r.wt.value t = w t)
    (h2 : ∀ t : List K, t.length = ds.length → w t ≠ 0 → r.num.value t = w t • f t) : r.Computes ds f w := by
  refine ⟨hn, hw, hnd, hwd, (Spline.Computes.mk' hw hwd h1).eval, ?_⟩
  intro t ht h0
  have h3 := h1 t ht
  rw [evaluate_ok hn hw hnd hwd ht (by rw [h3]; exact h0), h3, h2 t ht h0, inv_smul_smul₀ h0]

omit [LawfulScalarDiv K V] in
theorem Computes.congr (h : r.Computes ds f w) {w' : List K → K}
    (hw : ∀ t : List K, t.length = ds.length → w t = w' t)
    (hfg : ∀ t : List K, t.length = ds.length → w t ≠ 0 → f t = g t) : r.Computes ds g w' :=
  ⟨h.num_wf, h.wt_wf, h.num_degrees, h.wt_degrees, fun t ht => by rw [h.weight t ht, hw t ht],
    fun t ht h0 => by rw [← hw t ht] at h0; rw [h.eval t ht h0, hfg t ht h0]⟩

/-- a numerator and a weight spline with the same degrees -/
theorem computes_of {n : Spline V} {d : Spline K} {u : List K → V} (hn : n.Computes ds u) (hd : d.Computes ds w) :
    (⟨n, d⟩ : RSpline K V).Computes ds (fun t => (w t)⁻¹ • u t) w :=
  Computes.mk' hn.wf hd.wf hn.degrees_eq hd.degrees_eq (fun _ ht => hd.value_eq ht)
    (fun t ht h0 => by rw [smul_inv_smul₀ h0]; exact hn.value_eq ht)

omit [Field K] [DecidableEq K] [AddCommGroup V] [Module K V] [ScalarDiv K V] [LawfulScalarDiv K V] in
theorem ofSplines_ok {n : Spline V} {d : Spline K} (h : n.degrees = d.degrees) : ofSplines n d = .ok ⟨n, d⟩ := by
  simp [ofSplines, compatible, assertM, h]

omit [Field K] [DecidableEq K] [AddCommGroup V] [Module K V] [ScalarDiv K V] [LawfulScalarDiv K V] in
theorem ofSplines_assert {n : Spline V} {d : Spline K} (h : n.degrees ≠ d.degrees) :
    ofSplines n d = .error .assertFail := by
  simp [ofSplines, compatible, assertM, h]

omit [Field K] [DecidableEq K] [AddCommGroup V] [Module K V] [ScalarDiv K V] [LawfulScalarDiv K V] in
theorem assert_compatible {n : Spline V} {d : Spline K} (h : n.degrees = d.degrees) :
    assertM (compatible ⟨n, d⟩) = .ok ⟨⟩ := by
  simp [compatible, assertM, h]

omit [LawfulScalarDiv K V] in
/-- numerator spline of a rational spline -/
theorem Computes.num_computes (h : r.Computes ds f w) : r.num.Computes ds (fun t : List K => r.num.value t) := by
  have := h.num_wf.computes (K := K)
  rwa [h.num_degrees] at this

omit [LawfulScalarDiv K V] in
theorem Computes.deg_eq (h : r.Computes ds f w) : r.num.degrees = r.wt.degrees := by
  rw [h.num_degrees, h.wt_degrees]

omit [Field K] [DecidableEq K] [AddCommGroup V] [Module K V] [ScalarDiv K V] [LawfulScalarDiv K V] in
/-- a loop that overwrites every entry once, each from its old value -/
theorem loop_update {α : Type} {n : ℕ} {F G : ℕ → α} {step : ℕ → List α → M (List α)}
    (h : ∀ (k : ℕ) (H : ℕ → α), k < n → H k = F k →
      step k (tab n H) = .ok (tab n (Function.update H k (G k)))) :
    loop n step (tab n F) = .ok (tab n G) := by
  have h1 := loop_eq (n := n) (f := step) (s := tab n F) (fun k => tab n (fun i => if i < k then G i else F i))
    (by apply tab_congr; intro i _; simp) (by
      intro k hk
      rw [h k _ hk (by simp)]
      congr 1
      apply tab_congr
      intro i _
      by_cases hi : i = k
      · subst hi; simp
      · simp only [Function.update_of_ne hi]
        by_cases h2 : i < k
        · rw [if_pos h2, if_pos (by omega)]
        · rw [if_neg h2, if_neg (by omega)])
  rw [h1]
  congr 1
  apply tab_congr
  intro i hi; simp [hi]

omit [DecidableEq K] [ScalarDiv K V] [LawfulScalarDiv K V] in
theorem ofPoints_ok {points : List V} {weights : List K} (h : 0 < ds.length) (hp : points.length = size ds)
    (hw : weights.length = size ds) :
    ofPoints ds points weights = .ok ⟨⟨ds, size ds, offsetsOf ds, List.zipWith (fun w x => w • x) weights points⟩,
      ⟨ds, size ds, offsetsOf ds, weights⟩⟩ := by
  unfold ofPoints
  obtain ⟨s, h1, h2, h3, h4⟩ := Spline.ofDegrees_ok (V := V) h
  rw [h1, (Spline.ofPoints_ok h hw).1]
  simp only [bind_ok, h2.ncp_eq, h3, hp, hw, assertM_ok (beq_self_eq_true _), h4, tab_length]
  rw [loop_update (G := fun i => weights.getD i 0 • points.getD i 0)]
  · simp only [bind_ok]
    have e : tab (size ds) (fun i => weights.getD i 0 • points.getD i 0)
        = List.zipWith (fun w x => w • x) weights points := by
      conv_rhs => rw [eq_tab weights 0, eq_tab points 0, hw, hp, zipWith_tab]
    rw [e]
    simp [compatible, assertM, h2.offsets_eq, h3]
  · intro k H hk _
    rw [rd_getElem (by omega), rd_getElem (by omega)]
    simp only [bind_ok]
    rw [wr_tab _ _ hk]
    congr 2
    simp [hp, hw, hk]

end RSpline

namespace Spline
/-- the variadic access agrees with the array access as long as positions fit 32 bits -/
theorem controlPointVariadic_ok {V : Type} [AddCommGroup V] {s : Spline V} (h : s.WF) {idx : List ℕ}
    (hv : ValidIdx s.degrees idx) (hsz : size s.degrees ≤ 2 ^ 32) :
    s.controlPointVariadic idx = s.controlPoint idx := by
  have hl := hv.length
  unfold controlPointVariadic controlPoint
  rw [globalToLocal_ok h (by unfold dim; exact hl)]
  have := loop_eq (n := idx.length) (f := fun i c => do
    let o ← rd s.offsets i
    let x ← rd idx i
    pure ((c + o * x) % 2 ^ 32)) (s := 0) (fun k => flatIndex (s.degrees.take k) (idx.take k)) (by simp [flatIndex]) (by
      intro k hk
      rw [rd_ok (h.off (by unfold dim; omega)), rd_getElem hk]
      simp only [bind_ok, pure_eq_ok]
      congr 1
      have hk' : k < s.degrees.length := by omega
      have e1 : s.degrees.take (k + 1) = s.degrees.take k ++ [s.degrees[k]] := List.take_succ_eq_append_getElem hk'
      have e2 : idx.take (k + 1) = idx.take k ++ [idx[k]] := List.take_succ_eq_append_getElem hk
      have e3 : flatIndex (s.degrees.take (k + 1)) (idx.take (k + 1))
          = flatIndex (s.degrees.take k) (idx.take k) + size (s.degrees.take k) * idx[k] := by
        rw [e1, e2, flatIndex_append (by simp [hl])]
        simp [flatIndex]
      have hval : ValidIdx (s.degrees.take (k + 1)) (idx.take (k + 1)) := by
        have := hv
        rw [← List.take_append_drop (k + 1) s.degrees, ← List.take_append_drop (k + 1) idx] at this
        exact ((validIdx_append (by simp [hl])).mp this).1
      have hlt := flatIndex_lt hval
      have hle : size (s.degrees.take (k + 1)) ≤ size s.degrees := by
        conv_rhs => rw [← List.take_append_drop (k + 1) s.degrees, size_append]
        exact Nat.le_mul_of_pos_right _ (size_pos _)
      rw [← e3, Nat.mod_eq_of_lt (by omega)])
  rw [this]
  simp only [bind_ok]
  rw [List.take_of_length_le (by omega), List.take_of_length_le (by omega)]

end Spline
end Bezman
