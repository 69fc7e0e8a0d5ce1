import Verif.Proofs.Unique
import Verif.Proofs.PropsAux
import Verif.Proofs.Compose
import Verif.Proofs.RationalBox
import Mathlib.Analysis.Convex.Combination

/-! Bezier functions with nonnegative coefficients, and the convex hull property. -/

namespace Bezman
open Spec Finset

section
variable {K : Type} [Field K] [LinearOrder K] [IsStrictOrderedRing K]

/-- `f` is a Bezier function of degrees `ds` with nonnegative coefficients. -/
def NonnegNet (ds : List ℕ) (f : List K → K) : Prop :=
  ∃ P : List ℕ → K, (∀ idx, ValidIdx ds idx → 0 ≤ P idx) ∧ ∀ t : List K, t.length = ds.length → f t = bezier ds t P

theorem coef_nonneg (m n k i : ℕ) : 0 ≤ coef K m n k i := by
  unfold coef; positivity

theorem prodNet_nonneg : ∀ {ms ns ks : List ℕ}, ns.length = ms.length → ValidIdx (List.zipWith (· + ·) ms ns) ks →
    ∀ {P Q : List ℕ → K}, (∀ i, ValidIdx ms i → 0 ≤ P i) → (∀ j, ValidIdx ns j → 0 ≤ Q j) →
    0 ≤ prodNet K (fun a b : K => a * b) ms ns ks P Q := by
  intro ms
  induction ms with
  | nil =>
    intro ns ks hl hk P Q hP hQ
    have : ns = [] := by simpa using hl
    subst this
    simp only [prodNet]
    exact mul_nonneg (hP [] (by simp)) (hQ [] (by simp))
  | cons m ms ih =>
    intro ns ks hl hk P Q hP hQ
    cases ns with
    | nil => simp at hl
    | cons n ns =>
      simp only [List.zipWith_cons_cons] at hk
      obtain ⟨k, ks, hk1, hk2, rfl⟩ := validIdx_cons_iff.mp hk
      simp only [prodNet, smul_eq_mul]
      apply Finset.sum_nonneg
      intro i hi
      rw [Finset.mem_Ico] at hi
      refine mul_nonneg (coef_nonneg _ _ _ _) (ih (by simpa using hl) hk2 ?_ ?_)
      · intro j hj; exact hP _ (validIdx_cons.mpr ⟨by omega, hj⟩)
      · intro j hj; exact hQ _ (validIdx_cons.mpr ⟨by omega, hj⟩)

namespace NonnegNet

theorem congr {ds : List ℕ} {f g : List K → K} (h : NonnegNet ds f) (hfg : ∀ t, t.length = ds.length → f t = g t) :
    NonnegNet ds g := by
  obtain ⟨P, h1, h2⟩ := h
  exact ⟨P, h1, fun t ht => by rw [← hfg t ht, h2 t ht]⟩

theorem mul {a b : List ℕ} {f g : List K → K} (hf : NonnegNet a f) (hg : NonnegNet b g) (hl : b.length = a.length) :
    NonnegNet (sumDegrees a b) (fun t => f t * g t) := by
  obtain ⟨P, p1, p2⟩ := hf
  obtain ⟨Q, q1, q2⟩ := hg
  refine ⟨fun ks => prodNet K (fun x y : K => x * y) a b ks P Q, fun ks hk => prodNet_nonneg hl hk p1 q1, ?_⟩
  intro t ht
  have ht' : t.length = a.length := by simpa [sumDegrees, hl] using ht
  show f t * g t = _
  rw [p2 t ht', q2 t (by omega)]
  have := prodNet_value (LinearMap.mul K K) hl ht' P Q
  simp only [LinearMap.mul_apply'] at this
  exact this.symm

theorem const (ds : List ℕ) {c : K} (hc : 0 ≤ c) : NonnegNet ds (fun _ => c) :=
  ⟨fun _ => c, fun _ _ => hc, fun t ht => (bezier_const ht c).symm⟩

theorem smul {ds : List ℕ} {f : List K → K} (h : NonnegNet ds f) {c : K} (hc : 0 ≤ c) : NonnegNet ds (fun t => c * f t) := by
  obtain ⟨P, h1, h2⟩ := h
  refine ⟨fun i => c * P i, fun i hi => mul_nonneg hc (h1 i hi), fun t ht => ?_⟩
  have := bezier_smul c ds t P
  simp only [smul_eq_mul] at this
  show c * f t = _
  rw [this, h2 t ht]

theorem pow {ds : List ℕ} {f : List K → K} (h : NonnegNet ds f) (n : ℕ) :
    NonnegNet (ds.map (fun q => n * q)) (fun t => f t ^ n) := by
  induction n with
  | zero => exact (const _ zero_le_one).congr (fun t _ => by simp)
  | succ n ih =>
    have := ih.mul h (by simp)
    rw [show sumDegrees (ds.map (fun q => n * q)) ds = ds.map (fun q => (n + 1) * q) by
      apply List.ext_getElem
      · simp [sumDegrees]
      · intro i h1 h2; simp [sumDegrees, add_mul]] at this
    exact this.congr (fun t _ => (pow_succ _ _).symm)

theorem hb {ds : List ℕ} {x y : List K → K} (hx : NonnegNet ds x) (hy : NonnegNet ds y) {p i : ℕ} (hi : i ≤ p) :
    NonnegNet (ds.map (fun q => p * q)) (fun t => Spline.hb p i (x t) (y t)) := by
  have := ((hx.pow i).mul (hy.pow (p - i)) (by simp)).smul (Nat.cast_nonneg (α := K) (p.choose i))
  rw [show sumDegrees (ds.map (fun q => i * q)) (ds.map (fun q => (p - i) * q)) = ds.map (fun q => p * q) by
      apply List.ext_getElem
      · simp [sumDegrees]
      · intro j h1 h2; simp only [sumDegrees, List.getElem_zipWith, List.getElem_map]
        rw [← add_mul]; congr 1; omega] at this
  exact this.congr (fun t _ => by unfold Spline.hb; ring)

end NonnegNet

theorem getD_of_lt {α : Type} {l : List α} {i : ℕ} {d : α} (h : i < l.length) : l.getD i d = l[i] := by
  simp [List.getD_eq_getElem?_getD, h]

theorem sum_getD (l : List ℕ) : ∑ d ∈ range l.length, l.getD d 0 = l.sum := by
  induction l with
  | nil => rfl
  | cons a l ih =>
    rw [List.length_cons, sum_range_succ', List.sum_cons, ← ih, add_comm]
    simp

/-- Degrees of a product of `ps[d]` factors of degrees `q d`, for all `d`. -/
def totalDegrees (L : ℕ) (ps : List ℕ) (q : ℕ → List ℕ) : List ℕ :=
  (List.range L).map (fun e => ∑ d ∈ range ps.length, ps.getD d 0 * (q d).getD e 0)

theorem totalDegrees_cons {L p : ℕ} {ps : List ℕ} {q : ℕ → List ℕ} (h : (q 0).length = L) :
    totalDegrees L (p :: ps) q = sumDegrees ((q 0).map (fun x => p * x)) (totalDegrees L ps (fun d => q (d + 1))) := by
  apply List.ext_getElem
  · simp [totalDegrees, sumDegrees, h]
  · intro i h1 h2
    simp only [totalDegrees, List.length_map, List.length_range] at h1
    simp only [totalDegrees, sumDegrees, List.getElem_zipWith, List.getElem_map, List.getElem_range, List.length_cons,
      sum_range_succ', List.getD_cons_succ, List.getD_cons_zero]
    rw [add_comm, getD_of_lt (by omega : i < (q 0).length)]

theorem totalDegrees_const (ps q : List ℕ) : totalDegrees q.length ps (fun _ => q) = q.map (fun x => ps.sum * x) := by
  apply List.ext_getElem
  · simp [totalDegrees]
  · intro i h1 h2
    simp only [totalDegrees, List.getElem_map, List.getElem_range]
    simp only [List.length_map] at h2
    rw [← sum_mul, getD_of_lt h2, sum_getD]

/-- The list with `1` at position `d` and `0` elsewhere. -/
def unitAt (L d : ℕ) : List ℕ := (List.range L).map (fun e => if e = d then 1 else 0)

@[simp] theorem unitAt_length (L d : ℕ) : (unitAt L d).length = L := by simp [unitAt]

theorem totalDegrees_unit (ps : List ℕ) : totalDegrees ps.length ps (unitAt ps.length) = ps := by
  apply List.ext_getElem
  · simp [totalDegrees]
  · intro i h1 h2
    simp only [totalDegrees, List.getElem_map, List.getElem_range]
    rw [sum_eq_single i]
    · rw [getD_of_lt h2, getD_of_lt (by simpa using h2)]
      simp [unitAt]
    · intro d _ hd
      rw [getD_of_lt (l := unitAt ps.length d) (by simpa using h2)]
      simp [unitAt, hd.symm]
    · intro h; simp at h; omega

theorem hbFns_cons (p : ℕ) (ps : List ℕ) (x y : ℕ → K) :
    Spline.hbFns (p :: ps) x y = (fun i => Spline.hb p i (x 0) (y 0)) :: Spline.hbFns ps (fun d => x (d + 1)) (fun d => y (d + 1)) := by
  unfold Spline.hbFns
  rw [List.zipIdx_cons, List.map_cons, List.zipIdx_succ]
  simp [Function.comp_def]

theorem NonnegNet.pw_hb (L : ℕ) : ∀ (ps : List ℕ) (q : ℕ → List ℕ) (x y : ℕ → List K → K),
    (∀ d < ps.length, (q d).length = L ∧ NonnegNet (q d) (x d) ∧ NonnegNet (q d) (y d)) → ∀ idx, ValidIdx ps idx →
    NonnegNet (totalDegrees L ps q) (fun t => pw (Spline.hbFns ps (fun d => x d t) (fun d => y d t)) idx) := by
  intro ps
  induction ps with
  | nil =>
    intro q x y _ idx h
    exact (NonnegNet.const _ zero_le_one).congr (fun t _ => by simp [Spline.hbFns])
  | cons p ps ih =>
    intro q x y h idx hi
    obtain ⟨i, is, h1, h2, rfl⟩ := validIdx_cons_iff.mp hi
    obtain ⟨a1, a2, a3⟩ := h 0 (by simp)
    rw [totalDegrees_cons a1]
    have := (a2.hb a3 h1).mul (ih (fun d => q (d + 1)) (fun d => x (d + 1)) (fun d => y (d + 1))
      (fun d hd => h (d + 1) (by simpa using hd)) is h2) (by simp [totalDegrees, a1])
    exact this.congr (fun t _ => by rw [hbFns_cons]; rfl)

/-- Control points of a reparametrised spline are combinations of the control points, with coefficients that do not depend
on them. -/
theorem NonnegNet.coeffs {ds : List ℕ} {N : ℕ} {w : ℕ → List K → K} (hw : ∀ n < N, NonnegNet ds (w n)) :
    ∃ A : ℕ → ℕ → K, (∀ k < size ds, ∀ n < N, 0 ≤ A k n) ∧
      ∀ {V : Type} [AddCommGroup V] [Module K V] (R : ℕ → V) (c : ℕ → V),
        (∀ t : List K, t.length = ds.length → neval ds t R = ∑ n ∈ range N, w n t • c n) →
        ∀ k < size ds, R k = ∑ n ∈ range N, A k n • c n := by
  choose! P h1 h2 using hw
  refine ⟨fun k n => P n (unflat ds k), fun k _ n hn => h1 n hn _ (unflat_valid _ _), ?_⟩
  intro V _ _ R c hg k hk
  have := bezier_unique (K := K) (ps := ds) (P := fun idx => R (flatIndex ds idx))
    (Q := fun idx => ∑ n ∈ range N, P n idx • c n) (fun t ht => by
      have e1 := hg t ht
      unfold neval at e1
      rw [e1, bezier_sum]
      apply sum_congr rfl
      intro n hn
      rw [h2 n (mem_range.mp hn) t ht]
      have := bezier_map (LinearMap.toSpanSingleton K V (c n)) ds t (P n)
      simpa using this.symm) _ (unflat_valid ds k)
  rw [flatIndex_unflat hk] at this
  exact this

theorem unitAt_zero (L : ℕ) : unitAt (L + 1) 0 = 1 :: List.replicate L 0 := by
  unfold unitAt
  rw [List.range_succ_eq_map]
  simp [Function.comp_def, List.map_const']

theorem unitAt_succ (L d : ℕ) : unitAt (L + 1) (d + 1) = 0 :: unitAt L d := by
  unfold unitAt
  rw [List.range_succ_eq_map]
  simp [Function.comp_def]

/-- An affine function of one parameter that is nonnegative at both ends. -/
theorem NonnegNet.affine {L d : ℕ} (hd : d < L) {a b : K} (ha : 0 ≤ a) (hb : 0 ≤ b) :
    NonnegNet (unitAt L d) (fun t => (1 - t.getD d 0) * a + t.getD d 0 * b) := by
  refine ⟨fun idx => if idx.getD d 0 = 0 then a else b, fun idx _ => by dsimp only; split <;> assumption, ?_⟩
  induction L generalizing d with
  | zero => omega
  | succ L ih =>
    intro t ht
    rw [unitAt_length] at ht
    cases t with
    | nil => simp at ht
    | cons u ts =>
      have ht' : ts.length = L := by simpa using ht
      cases d with
      | zero =>
        rw [unitAt_zero, bezier_cons]
        simp only [sum_range_succ, range_zero, sum_empty, zero_add, List.getD_cons_zero, if_true, one_ne_zero, if_false]
        rw [bezier_const (by simp [ht']), bezier_const (by simp [ht'])]
        simp [bern]
      | succ d =>
        rw [unitAt_succ, bezier_cons]
        simp only [zero_add, sum_range_one, List.getD_cons_succ]
        rw [← ih (d := d) (by omega) ts (by simpa using ht')]
        simp [bern]

theorem hbFns_eq_bernFns (ps : List ℕ) (x : ℕ → K) :
    Spline.hbFns ps x (fun d => 1 - x d) = bernFns ps ((List.range ps.length).map x) := by
  induction ps generalizing x with
  | nil => rfl
  | cons p ps ih =>
    rw [hbFns_cons, List.length_cons, List.range_succ_eq_map, List.map_cons, bernFns_cons, List.map_map]
    have := ih (fun d => x (d + 1))
    rw [this]
    rfl

theorem convex_smul_sum {V : Type} [AddCommGroup V] [Module K V] {C : Set V} (hC : Convex K C) {N : ℕ} {a : ℕ → K} {c : ℕ → V}
    (ha : ∀ n < N, 0 ≤ a n) (h1 : ∑ n ∈ range N, a n = 1) (hc : ∀ n < N, c n ∈ C) : ∑ n ∈ range N, a n • c n ∈ C :=
  hC.sum_mem (fun n hn => ha n (mem_range.mp hn)) h1 (fun n hn => hc n (mem_range.mp hn))

/-- Points of a weighted combination stay in a convex set: `(∑ aₙ wₙ xₙ) / (∑ aₙ wₙ)`. -/
theorem convex_weighted {V : Type} [AddCommGroup V] [Module K V] {C : Set V} (hC : Convex K C) {N : ℕ} {a w : ℕ → K} {c : ℕ → V}
    (ha : ∀ n < N, 0 ≤ a n) (hw : ∀ n < N, 0 ≤ w n) (h1 : 0 < ∑ n ∈ range N, a n * w n) (hc : ∀ n < N, c n ∈ C) :
    (∑ n ∈ range N, a n * w n)⁻¹ • ∑ n ∈ range N, a n • w n • c n ∈ C := by
  rw [smul_sum]
  have := convex_smul_sum hC (N := N) (a := fun n => (∑ n ∈ range N, a n * w n)⁻¹ * (a n * w n)) (c := c)
    (fun n hn => mul_nonneg (inv_nonneg.mpr h1.le) (mul_nonneg (ha n hn) (hw n hn)))
    (by rw [← mul_sum]; exact inv_mul_cancel₀ h1.ne') hc
  simpa [mul_smul] using this

/-- `f` is a Bezier function of degrees `ds` with positive coefficients. -/
def PosNet (ds : List ℕ) (f : List K → K) : Prop :=
  ∃ P : List ℕ → K, (∀ idx, ValidIdx ds idx → 0 < P idx) ∧ ∀ t : List K, t.length = ds.length → f t = bezier ds t P

theorem prodNet_pos : ∀ {ms ns ks : List ℕ}, ns.length = ms.length → ValidIdx (List.zipWith (· + ·) ms ns) ks →
    ∀ {P Q : List ℕ → K}, (∀ i, ValidIdx ms i → 0 < P i) → (∀ j, ValidIdx ns j → 0 < Q j) →
    0 < prodNet K (fun a b : K => a * b) ms ns ks P Q := by
  intro ms
  induction ms with
  | nil =>
    intro ns ks hl hk P Q hP hQ
    have : ns = [] := by simpa using hl
    subst this
    simp only [prodNet]
    exact mul_pos (hP [] (by simp)) (hQ [] (by simp))
  | cons m ms ih =>
    intro ns ks hl hk P Q hP hQ
    cases ns with
    | nil => simp at hl
    | cons n ns =>
      simp only [List.zipWith_cons_cons] at hk
      obtain ⟨k, ks, hk1, hk2, rfl⟩ := validIdx_cons_iff.mp hk
      simp only [prodNet, smul_eq_mul]
      apply Finset.sum_pos
      · intro i hi
        rw [Finset.mem_Ico] at hi
        refine mul_pos ?_ (ih (by simpa using hl) hk2 ?_ ?_)
        · unfold coef
          have h1 : 0 < m.choose i := Nat.choose_pos (by omega)
          have h2 : 0 < n.choose (k - i) := Nat.choose_pos (by omega)
          have h3 : 0 < (m + n).choose k := Nat.choose_pos (by omega)
          positivity
        · intro j hj; exact hP _ (validIdx_cons.mpr ⟨by omega, hj⟩)
        · intro j hj; exact hQ _ (validIdx_cons.mpr ⟨by omega, hj⟩)
      · exact ⟨k - n, Finset.mem_Ico.mpr ⟨le_rfl, by omega⟩⟩

namespace PosNet

theorem nonneg {ds : List ℕ} {f : List K → K} (h : PosNet ds f) : NonnegNet ds f := by
  obtain ⟨P, h1, h2⟩ := h
  exact ⟨P, fun i hi => (h1 i hi).le, h2⟩

theorem congr {ds : List ℕ} {f g : List K → K} (h : PosNet ds f) (hfg : ∀ t, t.length = ds.length → f t = g t) :
    PosNet ds g := by
  obtain ⟨P, h1, h2⟩ := h
  exact ⟨P, h1, fun t ht => by rw [← hfg t ht, h2 t ht]⟩

theorem mul {a b : List ℕ} {f g : List K → K} (hf : PosNet a f) (hg : PosNet b g) (hl : b.length = a.length) :
    PosNet (sumDegrees a b) (fun t => f t * g t) := by
  obtain ⟨P, p1, p2⟩ := hf
  obtain ⟨Q, q1, q2⟩ := hg
  refine ⟨fun ks => prodNet K (fun x y : K => x * y) a b ks P Q, fun ks hk => prodNet_pos hl hk p1 q1, ?_⟩
  intro t ht
  have ht' : t.length = a.length := by simpa [sumDegrees, hl] using ht
  show f t * g t = _
  rw [p2 t ht', q2 t (by omega)]
  have := prodNet_value (LinearMap.mul K K) hl ht' P Q
  simp only [LinearMap.mul_apply'] at this
  exact this.symm

theorem const (ds : List ℕ) {c : K} (hc : 0 < c) : PosNet ds (fun _ => c) :=
  ⟨fun _ => c, fun _ _ => hc, fun t ht => (bezier_const ht c).symm⟩

theorem pow {ds : List ℕ} {f : List K → K} (h : PosNet ds f) (n : ℕ) :
    PosNet (ds.map (fun q => n * q)) (fun t => f t ^ n) := by
  induction n with
  | zero => exact (const _ zero_lt_one).congr (fun t _ => by simp)
  | succ n ih =>
    have := ih.mul h (by simp)
    rw [show sumDegrees (ds.map (fun q => n * q)) ds = ds.map (fun q => (n + 1) * q) by
      apply List.ext_getElem
      · simp [sumDegrees]
      · intro i h1 h2; simp [sumDegrees, add_mul]] at this
    exact this.congr (fun t _ => (pow_succ _ _).symm)

/-- A spline with positive control points. -/
theorem of_computes {s : Spline K} {ds : List ℕ} {f : List K → K} (hs : s.Computes ds f) (h : ∀ c ∈ s.cps, 0 < c) : PosNet ds f :=
  ⟨fun idx => s.cps.getD (flatIndex ds idx) 0, fun idx hi => h _ (Spline.getD_mem hs.wf (by
      rw [hs.degrees_eq]; exact flatIndex_lt hi)), fun t ht => by
    rw [← hs.value_eq ht, Spline.value, hs.degrees_eq]⟩

/-- Every spline that computes such a function has positive control points. -/
theorem cps_pos {s : Spline K} {ds : List ℕ} {f : List K → K} (hs : s.Computes ds f) (h : PosNet ds f) : ∀ c ∈ s.cps, 0 < c := by
  obtain ⟨P, h1, h2⟩ := h
  intro c hc
  obtain ⟨k, hk, rfl⟩ := List.getElem_of_mem hc
  have hk' : k < size ds := by rw [hs.wf.cps_len, hs.degrees_eq] at hk; exact hk
  have := bezier_unique (K := K) (ps := ds) (P := fun idx => s.cps.getD (flatIndex ds idx) 0) (Q := P) (fun t ht => by
    rw [← h2 t ht, ← hs.value_eq ht, Spline.value, hs.degrees_eq]) _ (unflat_valid ds k)
  simp only [flatIndex_unflat hk', getD_of_lt hk] at this
  rw [this]
  exact h1 _ (unflat_valid _ _)

end PosNet

/-- A way to write the control points of one spline as combinations of those of another: nonnegative weight functions of
degrees `ds`, one per control point, with a sum that has positive coefficients. -/
structure Mixes (ds : List ℕ) (N : ℕ) (w : ℕ → List K → K) : Prop where
  nonneg : ∀ n < N, NonnegNet ds (w n)
  total : PosNet ds (fun t => ∑ n ∈ range N, w n t)

section
variable {V : Type} [AddCommGroup V] [Module K V]

theorem Mixes.coeffs {ds : List ℕ} {N : ℕ} {w : ℕ → List K → K} (h : Mixes ds N w) :
    ∃ A : ℕ → ℕ → K, (∀ k < size ds, ∀ n < N, 0 ≤ A k n) ∧ (∀ k < size ds, 0 < ∑ n ∈ range N, A k n) ∧
      ∀ {V : Type} [AddCommGroup V] [Module K V] (r : Spline V) (c : ℕ → V) (g : List K → V), r.Computes ds g →
        (∀ t : List K, t.length = ds.length → g t = ∑ n ∈ range N, w n t • c n) →
        ∀ k < size ds, r.cps.getD k 0 = ∑ n ∈ range N, A k n • c n := by
  obtain ⟨A, h1, h2⟩ := NonnegNet.coeffs h.nonneg
  refine ⟨A, h1, ?_, ?_⟩
  · obtain ⟨P, p1, p2⟩ := h.total
    intro k hk
    have := h2 (V := K) (fun k => P (unflat ds k)) (fun _ => 1) (fun t ht => by
      have e : neval ds t (fun k => P (unflat ds k)) = bezier ds t P :=
        bezier_congr (fun idx hi => by simp only [unflat_flatIndex hi])
      rw [e, ← p2 t ht]; simp) k hk
    simp only [smul_eq_mul, mul_one] at this
    rw [← this]
    exact p1 _ (unflat_valid _ _)
  · intro V _ _ r c g hr hg
    refine h2 (fun k => r.cps.getD k 0) c (fun t ht => ?_)
    rw [← hg t ht, ← hr.value_eq ht, Spline.value_eq_neval, hr.degrees_eq]

/-- Polynomial splines: weight functions that add up to one keep the control points in a convex set. -/
theorem NonnegNet.hull {ds : List ℕ} {N : ℕ} {w : ℕ → List K → K} (h : ∀ n < N, NonnegNet ds (w n))
    (h1 : ∀ t : List K, t.length = ds.length → ∑ n ∈ range N, w n t = 1) {C : Set V} (hC : Convex K C) {c : ℕ → V}
    (hc : ∀ n < N, c n ∈ C) {r : Spline V} {g : List K → V} (hr : r.Computes ds g)
    (hg : ∀ t : List K, t.length = ds.length → g t = ∑ n ∈ range N, w n t • c n) : ∀ x ∈ r.cps, x ∈ C := by
  obtain ⟨A, a2, a3⟩ := NonnegNet.coeffs h
  intro x hx
  obtain ⟨k, hk, rfl⟩ := List.getElem_of_mem hx
  have hk' : k < size ds := by rw [hr.wf.cps_len, hr.degrees_eq] at hk; exact hk
  have e1 := a3 (fun k => r.cps.getD k 0) c (fun t ht => by
    rw [← hg t ht, ← hr.value_eq ht, Spline.value_eq_neval, hr.degrees_eq]) k hk'
  have e2 := a3 (V := K) (fun _ => 1) (fun _ => 1) (fun t ht => by
    simp only [neval_const ht, smul_eq_mul, mul_one]; exact (h1 t ht).symm) k hk'
  simp only [smul_eq_mul, mul_one] at e2
  simp only [getD_of_lt hk] at e1
  rw [e1]
  exact convex_smul_sum hC (a2 k hk') e2.symm hc

/-- Rational splines: positive weights stay positive, and the points stay in a convex set. -/
theorem Mixes.hull {ds : List ℕ} {N : ℕ} {w : ℕ → List K → K} (h : Mixes ds N w) {C : Set V} (hC : Convex K C) {c : ℕ → V} {v : ℕ → K}
    (hc : ∀ n < N, c n ∈ C) (hv : ∀ n < N, 0 < v n) {r : RSpline K V} {gn : List K → V} {gw : List K → K}
    (hn : r.num.Computes ds gn) (hw : r.wt.Computes ds gw)
    (hgn : ∀ t : List K, t.length = ds.length → gn t = ∑ n ∈ range N, w n t • v n • c n)
    (hgw : ∀ t : List K, t.length = ds.length → gw t = ∑ n ∈ range N, w n t • v n) :
    (∀ x ∈ r.wt.cps, 0 < x) ∧ ∀ x ∈ r.euclid.cps, x ∈ C := by
  obtain ⟨A, a1, a2, a3⟩ := h.coeffs
  have e1 := a3 r.num _ gn hn hgn
  have e2 := a3 r.wt _ gw hw hgw
  have pos : ∀ k < size ds, 0 < ∑ n ∈ range N, A k n * v n := by
    intro k hk
    have h0 : ∃ n ∈ range N, 0 < A k n := by
      by_contra hne
      push Not at hne
      exact absurd (a2 k hk) (not_lt.mpr (sum_nonpos hne))
    obtain ⟨n, hn, hp⟩ := h0
    exact sum_pos' (fun m hm => mul_nonneg (a1 k hk m (mem_range.mp hm)) (hv m (mem_range.mp hm)).le)
      ⟨n, hn, mul_pos hp (hv n (mem_range.mp hn))⟩
  refine ⟨fun x hx => ?_, fun x hx => ?_⟩
  · obtain ⟨k, hk, rfl⟩ := List.getElem_of_mem hx
    have hk' : k < size ds := by rw [hw.wf.cps_len, hw.degrees_eq] at hk; exact hk
    have := e2 k hk'
    rw [getD_of_lt hk] at this
    rw [this]
    exact pos k hk'
  · unfold RSpline.euclid at hx
    rw [hn.degrees_eq] at hx
    obtain ⟨k, hk, rfl⟩ := List.mem_map.mp hx
    rw [List.mem_range] at hk
    rw [e1 k hk, e2 k hk]
    exact convex_weighted hC (a1 k hk) (fun n hn => (hv n hn).le) (pos k hk) hc

end
end
end Bezman
