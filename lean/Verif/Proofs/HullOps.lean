import Verif.Proofs.Hull
import Verif.Proofs.ComposeRational

/-! Weight functions of splitting, degree elevation and composition. -/

namespace Bezman
open Spec Finset

variable {K : Type} [Field K] [LinearOrder K] [IsStrictOrderedRing K]

section
variable {V : Type} [AddCommGroup V] [Module K V]

omit [LinearOrder K] [IsStrictOrderedRing K] in
theorem Spline.Computes.sum_pw {s : Spline V} {ps : List ℕ} {f : List K → V} (hs : s.Computes ps f) {t : List K}
    (ht : t.length = ps.length) : f t = ∑ n ∈ range (size ps), pw (bernFns ps t) (unflat ps n) • s.cps.getD n 0 := by
  rw [← hs.value_eq ht, Spline.value_eq_neval, hs.degrees_eq, neval_eq_tens, Bezman.sum_pw ps (Spline.bernFns_length ht)]

end

/-- Weight functions whose sum is one. -/
theorem mixes_of_one {ds : List ℕ} {N : ℕ} {w : ℕ → List K → K} (h : ∀ n < N, NonnegNet ds (w n))
    (h1 : ∀ t : List K, t.length = ds.length → ∑ n ∈ range N, w n t = 1) : Mixes ds N w :=
  ⟨h, (PosNet.const ds zero_lt_one).congr (fun t ht => (h1 t ht).symm)⟩

omit [LinearOrder K] [IsStrictOrderedRing K] in
theorem modify_eq_map_range (t : List K) (d : ℕ) (f : K → K) :
    t.modify d f = (List.range t.length).map (fun e => if d = e then f (t.getD e 0) else t.getD e 0) := by
  apply List.ext_getElem
  · simp
  · intro i h1 h2
    have h3 : i < t.length := by simpa using h1
    rw [List.getElem_modify, List.getElem_map, List.getElem_range, getD_of_lt h3]

/-- Restriction to the parameter interval from `lo` to `hi` in direction `d`. -/
theorem nonneg_restrict (ps : List ℕ) {lo hi : K} (h0 : 0 ≤ lo) (h1 : lo ≤ 1) (h2 : 0 ≤ hi) (h3 : hi ≤ 1) (d : ℕ) {n : ℕ} :
    NonnegNet ps (fun t => pw (bernFns ps (t.modify d (fun x => lo + (hi - lo) * x))) (unflat ps n)) := by
  have := NonnegNet.pw_hb ps.length ps (unitAt ps.length)
    (fun e (t : List K) => if d = e then lo + (hi - lo) * t.getD e 0 else t.getD e 0)
    (fun e t => 1 - if d = e then lo + (hi - lo) * t.getD e 0 else t.getD e 0)
    (fun e he => ⟨unitAt_length _ _, by
      by_cases h : d = e
      · simp only [h, if_true]
        exact (NonnegNet.affine he h0 h2).congr (fun t _ => by ring)
      · simp only [h, if_false]
        exact (NonnegNet.affine he le_rfl zero_le_one).congr (fun t _ => by ring), by
      by_cases h : d = e
      · simp only [h, if_true]
        exact (NonnegNet.affine he (sub_nonneg.mpr h1) (sub_nonneg.mpr h3)).congr (fun t _ => by ring)
      · simp only [h, if_false]
        exact (NonnegNet.affine he zero_le_one le_rfl).congr (fun t _ => by ring)⟩) (unflat ps n) (unflat_valid _ _)
  rw [totalDegrees_unit] at this
  refine this.congr (fun t ht => ?_)
  rw [hbFns_eq_bernFns, modify_eq_map_range t d, ht]

theorem sum_restrict (ps : List ℕ) (lo hi : K) (d : ℕ) {t : List K} (ht : t.length = ps.length) :
    ∑ n ∈ range (size ps), pw (bernFns ps (t.modify d (fun x => lo + (hi - lo) * x))) (unflat ps n) = 1 :=
  sum_pw_bern (by simpa using ht)

/-- Degree elevation. -/
theorem nonneg_elevate (ps : List ℕ) {d p : ℕ} (hp : ps[d]? = some p) {n : ℕ} :
    NonnegNet (ps.set d (p + 1)) (fun t : List K => pw (bernFns ps t) (unflat ps n)) := by
  have h1 := nonneg_restrict (K := K) ps (lo := 0) (hi := 1) le_rfl zero_le_one zero_le_one le_rfl d (n := n)
  have h2 := h1.mul (NonnegNet.const (unitAt ps.length d) zero_le_one) (by simp)
  obtain ⟨hd, hpe⟩ := List.getElem?_eq_some_iff.mp hp
  have e : sumDegrees ps (unitAt ps.length d) = ps.set d (p + 1) := by
    apply List.ext_getElem
    · simp [sumDegrees]
    · intro i h3 h4
      simp only [sumDegrees, List.getElem_zipWith, unitAt, List.getElem_map, List.getElem_range, List.getElem_set]
      by_cases h : d = i
      · subst h; simp [hpe]
      · simp [h, Ne.symm h]
  rw [e] at h2
  refine h2.congr (fun t _ => ?_)
  have : t.modify d (fun x => (0 : K) + (1 - 0) * x) = t := by
    have : (fun x : K => (0 : K) + (1 - 0) * x) = id := by funext x; simp
    rw [this, List.modify_id]
  rw [this, mul_one]

section
variable {W : Type} [AddCommGroup W] [Module K W] [Coords K W] [LawfulCoords K W]
open Coords

theorem Spline.Computes.coord_net {s : Spline W} {q : List ℕ} {g : List K → W} (hs : s.Computes q g)
    (h : ∀ x ∈ s.cps, ∀ j : Fin (Coords.n K W), (0 : K) ≤ coord x j) (j : Fin (Coords.n K W)) :
    NonnegNet q (fun t : List K => (coord (g t) j : K)) := by
  refine ⟨fun idx => coord (s.cps.getD (flatIndex q idx) 0) j, fun idx hi => h _ (Spline.getD_mem hs.wf (by
    rw [hs.degrees_eq]; exact flatIndex_lt hi)) j, fun t ht => ?_⟩
  have := Spline.coord_value (K := K) (s := s) t j
  rw [hs.value_eq ht, hs.degrees_eq] at this
  exact this

theorem Spline.Computes.coord_net' {s : Spline W} {wt : Spline K} {q : List ℕ} {g : List K → W} {w : List K → K} (hs : s.Computes q g)
    (hw : wt.Computes q w)
    (h : ∀ i < size q, ∀ j : Fin (Coords.n K W), (coord (s.cps.getD i 0) j : K) ≤ wt.cps.getD i 0) (j : Fin (Coords.n K W)) :
    NonnegNet q (fun t : List K => w t - (coord (g t) j : K)) := by
  refine ⟨fun idx => wt.cps.getD (flatIndex q idx) 0 - coord (s.cps.getD (flatIndex q idx) 0) j, fun idx hi =>
    sub_nonneg.mpr (h _ (flatIndex_lt hi) j), fun t ht => ?_⟩
  have := Spline.coord_value (K := K) (s := s) t j
  rw [hs.value_eq ht, hs.degrees_eq] at this
  have h2 := hw.value_eq ht
  rw [Spline.value, hw.degrees_eq] at h2
  show w t - _ = _
  rw [bezier_sub, this, ← h2]
  rfl

/-- Composition with a polynomial inner function. -/
theorem nonneg_compose {s : Spline W} {q : List ℕ} {g : List K → W} (hs : s.Computes q g)
    (hcube : ∀ x ∈ s.cps, ∀ j : Fin (Coords.n K W), (0 : K) ≤ coord x j ∧ (coord x j : K) ≤ 1) {ps : List ℕ}
    (hn : ps.length = Coords.n K W) {n : ℕ} :
    NonnegNet (q.map (fun x => ps.sum * x)) (fun t : List K => pw (bernFns ps (coordList K (g t))) (unflat ps n)) := by
  have h1 : ∀ j, NonnegNet q (fun t : List K => (coord (g t) j : K)) := hs.coord_net (fun x hx j => (hcube x hx j).1)
  have h2 : ∀ j, NonnegNet q (fun t : List K => 1 - (coord (g t) j : K)) := by
    intro j
    refine ⟨fun idx => 1 - coord (s.cps.getD (flatIndex q idx) 0) j, fun idx hi => sub_nonneg.mpr (hcube _ (Spline.getD_mem hs.wf (by
      rw [hs.degrees_eq]; exact flatIndex_lt hi)) j).2, fun t ht => ?_⟩
    have := Spline.coord_value (K := K) (s := s) t j
    rw [hs.value_eq ht, hs.degrees_eq] at this
    show 1 - _ = _
    rw [bezier_sub, bezier_const ht, this]
    rfl
  have := NonnegNet.pw_hb q.length ps (fun _ => q)
    (fun d t => if h : d < Coords.n K W then coord (g t) ⟨d, h⟩ else 0)
    (fun d t => if h : d < Coords.n K W then 1 - coord (g t) ⟨d, h⟩ else 0)
    (fun d hd => by
      have hd' : d < Coords.n K W := by omega
      simp only [hd', dif_pos]
      exact ⟨trivial, h1 _, h2 _⟩) (unflat ps n) (unflat_valid _ _)
  rw [totalDegrees_const] at this
  refine this.congr (fun t ht => ?_)
  rw [Spline.hbFns_bern (g t) hn]
  intro d
  simp [d.2]


theorem tens_hb_one (c : K) : ∀ (ps : List ℕ) (x y : ℕ → K), (∀ d < ps.length, x d + y d = c) →
    tens ps (Spline.hbFns ps x y) (fun _ => (1 : K)) = c ^ ps.sum := by
  intro ps
  induction ps with
  | nil => intro x y _; simp
  | cons p ps ih =>
    intro x y h
    rw [hbFns_cons, tens_cons, ih _ _ (fun d hd => h (d + 1) (by simpa using hd)), List.sum_cons, pow_add]
    have e : c ^ p = ∑ i ∈ range (p + 1), Spline.hb p i (x 0) (y 0) := by
      rw [← h 0 (by simp), add_pow]
      apply sum_congr rfl
      intro i _
      unfold Spline.hb; ring
    rw [e, sum_mul]
    apply sum_congr rfl
    intro i _
    rw [smul_eq_mul]

/-- Composition with a rational inner function. -/
theorem mixes_compose_rational [ScalarDiv K W] [LawfulScalarDiv K W] {inner : RSpline K W} {q : List ℕ} {g : List K → W} {w : List K → K}
    (hi : inner.Computes q g w) (hpos : ∀ x ∈ inner.wt.cps, 0 < x)
    (hcube : ∀ x ∈ inner.euclid.cps, ∀ j : Fin (Coords.n K W), (0 : K) ≤ coord x j ∧ (coord x j : K) ≤ 1) {ps : List ℕ}
    (hn : ps.length = Coords.n K W) :
    Mixes (q.map (fun x => ps.sum * x)) (size ps) (fun n (t : List K) =>
      pw (Spline.hbFns ps (fun d => if h : d < Coords.n K W then coord (inner.num.value t) ⟨d, h⟩ else 0)
        (fun d => if h : d < Coords.n K W then w t - coord (inner.num.value t) ⟨d, h⟩ else 0)) (unflat ps n)) := by
  have hp : ∀ i < size q, 0 < inner.wt.cps.getD i 0 := fun i hi' => hpos _ (Spline.getD_mem hi.wt_wf (by rw [hi.wt_degrees]; exact hi'))
  have hb : ∀ i < size q, ∀ j : Fin (Coords.n K W), (0 : K) ≤ coord (inner.num.cps.getD i 0) j ∧
      (coord (inner.num.cps.getD i 0) j : K) ≤ inner.wt.cps.getD i 0 := by
    intro i h' j
    have hm : (inner.wt.cps.getD i 0)⁻¹ • inner.num.cps.getD i 0 ∈ inner.euclid.cps := by
      unfold RSpline.euclid
      rw [hi.num_degrees]
      exact List.mem_map.mpr ⟨i, by simpa using h', rfl⟩
    have := hcube _ hm j
    rw [LawfulCoords.coord_smul] at this
    have h0 := hp i h'
    constructor
    · by_contra hneg
      exact absurd this.1 (not_le.mpr (mul_neg_of_pos_of_neg (inv_pos.mpr h0) (not_le.mp hneg)))
    · have h2 := this.2
      rwa [inv_mul_le_iff₀ h0, mul_one] at h2
  have hnc := hi.num_computes
  refine ⟨fun n _ => ?_, ?_⟩
  · have := NonnegNet.pw_hb q.length ps (fun _ => q)
      (fun d t => if h : d < Coords.n K W then coord (inner.num.value t) ⟨d, h⟩ else 0)
      (fun d t => if h : d < Coords.n K W then w t - coord (inner.num.value t) ⟨d, h⟩ else 0)
      (fun d hd => by
        have hd' : d < Coords.n K W := by omega
        simp only [hd', dif_pos]
        refine ⟨trivial, hnc.coord_net (fun x hx j => ?_) _, hnc.coord_net' hi.wt_computes (fun i hi' j => (hb i hi' j).2) _⟩
        obtain ⟨k, hk, rfl⟩ := List.getElem_of_mem hx
        have := (hb k (by rw [hi.num_wf.cps_len, hi.num_degrees] at hk; exact hk) j).1
        rwa [getD_of_lt hk] at this) (unflat ps n) (unflat_valid _ _)
    rwa [totalDegrees_const] at this
  · refine ((PosNet.of_computes hi.wt_computes hpos).pow ps.sum).congr (fun t _ => ?_)
    have := Bezman.sum_pw ps (bs := Spline.hbFns ps (fun d => if h : d < Coords.n K W then coord (inner.num.value t) ⟨d, h⟩ else 0)
        (fun d => if h : d < Coords.n K W then w t - coord (inner.num.value t) ⟨d, h⟩ else 0)) (Spline.hbFns_length _ _ _)
        (fun _ => (1 : K))
    simp only [smul_eq_mul, mul_one] at this
    rw [this, tens_hb_one (w t)]
    intro d hd
    have hd' : d < Coords.n K W := by omega
    simp only [hd', dif_pos]
    ring

theorem composeNumeratorRational_tens {V : Type} [AddCommGroup V] [Module K V] [ScalarDiv K W] [LawfulScalarDiv K W] {cfg : Cfg}
    (hc : cfg.Ok) {s : Spline V} {ps : List ℕ} {f : List K → V} (hs : s.Computes ps f) {inner : RSpline K W}
    {q : List ℕ} {g : List K → W} {w : List K → K} (hi : inner.Computes q g w) (hf : SubFits cfg q)
    (hn : ps.length = Coords.n K W) (hps : Spline.DegOk cfg ps) (hd : Spline.DegOk cfg (q.map (ps.sum * ·))) {r : Spline V}
    (hr : s.composeNumeratorRational cfg inner = .ok r) :
    r.Computes (q.map (fun x => ps.sum * x)) (fun t : List K => ∑ n ∈ range (size ps),
      pw (Spline.hbFns ps (fun d => if h : d < Coords.n K W then coord (inner.num.value t) ⟨d, h⟩ else 0)
        (fun d => if h : d < Coords.n K W then w t - coord (inner.num.value t) ⟨d, h⟩ else 0)) (unflat ps n) • s.cps.getD n 0) := by
  have hq : 0 < q.length := by rw [← hi.num_degrees]; exact hi.num_wf.dim_pos
  have hsd := hs.degrees_eq
  unfold Spline.composeNumeratorRational at hr
  obtain ⟨r', h1, h2, h3, h4⟩ := Spline.composeNumerator_ok (K := K) hc hs.wf hq
    (extract := fun d => inner.extractDimension d) (inverse := fun e => Spline.subOp K cfg inner.wt e)
    (x := fun d t => if h : d < Coords.n K W then coord (inner.num.value t) ⟨d, h⟩ else 0)
    (y := fun d t => if h : d < Coords.n K W then w t - coord (inner.num.value t) ⟨d, h⟩ else 0)
    (by
      intro d hd
      have hd' : d < Coords.n K W := by rw [hs.dim_eq] at hd; omega
      simp only [hd', dif_pos]
      exact rational_ext hi hf ⟨d, hd'⟩) (by rw [hsd]; exact hps) (by rw [hsd]; exact hd)
  rw [hi.num_degrees, h1] at hr
  obtain rfl := Except.ok.inj hr
  refine Spline.Computes.mk' h2 (by rw [h3, hsd]) (fun t ht => ?_)
  rw [h4 t (by simpa using ht), hsd, Bezman.sum_pw ps (Spline.hbFns_length _ _ _)]

end
end Bezman
