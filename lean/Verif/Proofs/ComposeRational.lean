import Verif.Proofs.Rational
import Verif.Proofs.Compose
import Verif.Proofs.Box

/-! Composition with a rational inner function. -/

namespace Bezman
open Spec Finset Spline

section
variable {K V : Type} [Field K] [AddCommGroup V] [Module K V]

/-- factors that differ by `c ^ p` -/
def Scaled (c : K) (p : ℕ) (f g : ℕ → K) : Prop := ∀ i, i ≤ p → f i = c ^ p * g i

theorem tens_scaled (c : K) : ∀ {ps : List ℕ} {fs gs : List (ℕ → K)} (F : ℕ → V),
    fs.length = ps.length → gs.length = ps.length →
    (∀ (d p : ℕ) (f g : ℕ → K), ps[d]? = some p → fs[d]? = some f → gs[d]? = some g → Scaled c p f g) →
    tens ps fs F = c ^ ps.sum • tens ps gs F
  | [], fs, gs, F, _, _, _ => by cases fs <;> cases gs <;> simp_all
  | p :: ps, [], gs, F, h, _, _ => by simp at h
  | p :: ps, f :: fs, [], F, _, h, _ => by simp at h
  | p :: ps, f :: fs, g :: gs, F, h1, h2, h => by
    rw [tens_cons, tens_cons, Finset.smul_sum]
    apply Finset.sum_congr rfl
    intro i hi
    have hip : i ≤ p := by simpa [Nat.lt_succ_iff] using hi
    have h0 : Scaled c p f g := h 0 p f g rfl rfl rfl
    rw [h0 i hip, tens_scaled c (fun j => F (i + (p + 1) * j)) (by simpa using h1) (by simpa using h2)
      (fun d q f' g' e1 e2 e3 => h (d + 1) q f' g' (by simpa using e1) (by simpa using e2) (by simpa using e3)),
      smul_smul, smul_smul, List.sum_cons, pow_add]
    congr 1
    ring

theorem pw_scaled (c : K) : ∀ {ps is : List ℕ} {fs gs : List (ℕ → K)}, ValidIdx ps is →
    fs.length = ps.length → gs.length = ps.length →
    (∀ (d p : ℕ) (f g : ℕ → K), ps[d]? = some p → fs[d]? = some f → gs[d]? = some g → Scaled c p f g) →
    pw fs is = c ^ ps.sum * pw gs is
  | [], is, fs, gs, hv, h1, h2, _ => by
    obtain rfl := List.length_eq_zero_iff.mp h1
    obtain rfl := List.length_eq_zero_iff.mp h2
    simp [pw]
  | p :: ps, [], fs, gs, hv, _, _, _ => by have := hv.length; simp at this
  | p :: ps, i :: is, [], gs, hv, h, _, _ => by simp at h
  | p :: ps, i :: is, f :: fs, [], hv, _, h, _ => by simp at h
  | p :: ps, i :: is, f :: fs, g :: gs, hv, h1, h2, h => by
    have hv' : i ≤ p ∧ ValidIdx ps is := by simpa [ValidIdx] using hv
    have h0 : Scaled c p f g := h 0 p f g rfl rfl rfl
    simp only [pw]
    rw [h0 i hv'.1, pw_scaled c hv'.2 (by simpa using h1) (by simpa using h2)
      (fun d q f' g' e1 e2 e3 => h (d + 1) q f' g' (by simpa using e1) (by simpa using e2) (by simpa using e3)),
      List.sum_cons, pow_add]
    ring

theorem hb_scaled (c : K) (p i : ℕ) (hi : i ≤ p) (x : K) : hb p i (c * x) (c - c * x) = c ^ p * bern p i x := by
  unfold hb bern
  have e : c - c * x = c * (1 - x) := by ring
  have e2 : c ^ p = c ^ i * c ^ (p - i) := by rw [← pow_add]; congr 1; omega
  rw [e, mul_pow, mul_pow, e2]
  ring

end

section
variable {K V W : Type} [Field K] [CharZero K] [DecidableEq K] [AddCommGroup V] [Module K V]
  [AddCommGroup W] [Module K W] [Coords K W] [LawfulCoords K W] [ScalarDiv K W] [LawfulScalarDiv K W]
open Coords

omit [CharZero K] [DecidableEq K] [ScalarDiv K W] [LawfulScalarDiv K W] in
theorem hbFns_scaled {ps : List ℕ} (v : W) (c : K) (hn : ps.length = Coords.n K W) (x y : ℕ → K)
    (hx : ∀ d : Fin (Coords.n K W), x d = c * coord v d ∧ y d = c - c * coord v d) (d p : ℕ) (f g : ℕ → K)
    (hp : ps[d]? = some p) (hf : (hbFns ps x y)[d]? = some f) (hg : (bernFns ps (coordList K v))[d]? = some g) :
    Scaled c p f g := by
  have hd : d < Coords.n K W := by
    rw [← hn]; exact (List.getElem?_eq_some_iff.mp hp).1
  have hw : (coordList K v)[d]? = some (coord v (⟨d, hd⟩ : Fin (Coords.n K W))) := by
    unfold coordList
    rw [List.getElem?_map, List.getElem?_eq_getElem (by simp; omega)]
    simp
  rw [hbFns_getElem? hp] at hf
  rw [bernFns_getElem? hp hw] at hg
  obtain rfl := Option.some.inj hf
  obtain rfl := Option.some.inj hg
  intro i hi
  have := hx ⟨d, hd⟩
  simp only at this
  simp only []
  rw [this.1, this.2, hb_scaled c p i hi]

/-- what the subtraction `weight - coordinate` needs -/
structure SubFits (cfg : Cfg) (q : List ℕ) : Prop where
  rounds : ∀ p ∈ q, p < cfg.fuel
  rounds2 : 2 ≤ cfg.fuel
  small : size q < 2 ^ 31

theorem rational_ext {cfg : Cfg} {inner : RSpline K W} {q : List ℕ} {g : List K → W} {w : List K → K}
    (hi : inner.Computes q g w) (hf : SubFits cfg q) (d : Fin (Coords.n K W)) :
    ∃ e e', inner.extractDimension d = .ok e ∧ Spline.subOp K cfg inner.wt e = .ok e' ∧
      Val e q (fun t => coord (inner.num.value t) d) ∧
      Val e' q (fun t => w t - coord (inner.num.value t) d) := by
  obtain ⟨e, e1, e2, e3, e4⟩ := extractDimension_ok (K := K) hi.num_wf d
  have he3 : e.degrees = q := by rw [e3, hi.num_degrees]
  have hmax : ∀ l : List ℕ, maxDeg l l = l := by
    intro l
    unfold maxDeg
    induction l with
    | nil => rfl
    | cons a l ih => simp [ih]
  have hb : BinOk cfg inner.wt e := ⟨hi.wt_wf, e2, by unfold Spline.dim; rw [he3, hi.wt_degrees],
    by rw [hi.wt_degrees]; exact hf.rounds, by rw [he3]; exact hf.rounds, hf.rounds2, by
      rw [hi.wt_degrees, he3, hmax]; exact hf.small⟩
  obtain ⟨r, h1, h2, h3, h4⟩ := subOp_ok (K := K) hb (by
    rw [hi.wt_degrees, he3]
    intro d p r h1 h2
    rw [h1] at h2; injection h2 with h2; exact h2.ge)
  refine ⟨e, r, e1, h1, ⟨e2, he3, fun t _ => e4 t⟩, ⟨h2, by rw [h3, hi.wt_degrees, he3, hmax], fun t ht => ?_⟩⟩
  rw [h4 t (by unfold Spline.dim; rw [hi.wt_degrees]; exact ht), hi.wt_value ht, e4 t]

omit [CharZero K] in
theorem hbFns_scaled' {inner : RSpline K W} {ps q : List ℕ} {g : List K → W} {w : List K → K}
    (hi : inner.Computes q g w) (hn : ps.length = Coords.n K W) {t : List K} (ht : t.length = q.length)
    (h0 : w t ^ ps.sum ≠ 0) (d p : ℕ) (f f' : ℕ → K) (hp : ps[d]? = some p)
    (hf : (hbFns ps (fun d => if h : d < Coords.n K W then coord (inner.num.value t) ⟨d, h⟩ else 0)
      (fun d => if h : d < Coords.n K W then w t - coord (inner.num.value t) ⟨d, h⟩ else 0))[d]? = some f)
    (hg : (bernFns ps (coordList K (g t)))[d]? = some f') : Scaled (w t) p f f' := by
  by_cases hw : w t = 0
  · have hs : ps.sum = 0 := by
      by_contra h
      exact h0 (by rw [hw, zero_pow h])
    have hp0 : p = 0 := (List.sum_eq_zero_iff.mp hs) p (List.mem_of_getElem? hp)
    subst hp0
    have hd : d < Coords.n K W := by rw [← hn]; exact (List.getElem?_eq_some_iff.mp hp).1
    have hw : (coordList K (g t))[d]? = some (coord (g t) (⟨d, hd⟩ : Fin (Coords.n K W))) := by
      unfold coordList
      rw [List.getElem?_map, List.getElem?_eq_getElem (by simp; omega)]
      simp
    rw [hbFns_getElem? hp] at hf
    rw [bernFns_getElem? hp hw] at hg
    obtain rfl := Option.some.inj hf
    obtain rfl := Option.some.inj hg
    intro i hi
    obtain rfl : i = 0 := by omega
    simp [hb, bern]
  · refine hbFns_scaled (g t) (w t) hn _ _ ?_ d p f f' hp hf hg
    intro d
    simp only [d.isLt, dif_pos]
    rw [hi.num_value ht hw]
    exact ⟨LawfulCoords.coord_smul _ _ _, by rw [LawfulCoords.coord_smul]⟩

theorem composeNumeratorRational_ok {cfg : Cfg} (hc : cfg.Ok) {s : Spline V} (h : s.WF) {inner : RSpline K W}
    {q : List ℕ} {g : List K → W} {w : List K → K} (hi : inner.Computes q g w) (hf : SubFits cfg q)
    (hn : s.dim = Coords.n K W) (hps : DegOk cfg s.degrees) (hd : DegOk cfg (q.map (s.degrees.sum * ·))) :
    ∃ r, s.composeNumeratorRational cfg inner = .ok r ∧ r.WF ∧ r.degrees = q.map (s.degrees.sum * ·) ∧
      ∀ t : List K, t.length = q.length → w t ^ s.degrees.sum ≠ 0 →
        r.value t = w t ^ s.degrees.sum • s.value (coordList K (g t)) := by
  have hq : 0 < q.length := by rw [← hi.num_degrees]; exact hi.num_wf.dim_pos
  unfold composeNumeratorRational
  obtain ⟨r, h1, h2, h3, h4⟩ := composeNumerator_ok (K := K) hc h hq
    (extract := fun d => inner.extractDimension d) (inverse := fun e => Spline.subOp K cfg inner.wt e)
    (x := fun d t => if h : d < Coords.n K W then coord (inner.num.value t) ⟨d, h⟩ else 0)
    (y := fun d t => if h : d < Coords.n K W then w t - coord (inner.num.value t) ⟨d, h⟩ else 0)
    (by
      intro d hd
      have hd' : d < Coords.n K W := by omega
      simp only [hd', dif_pos]
      exact rational_ext hi hf ⟨d, hd'⟩) hps hd
  rw [hi.num_degrees]
  refine ⟨r, h1, h2, h3, ?_⟩
  intro t ht h0
  rw [h4 t ht, tens_scaled (w t) _ (hbFns_length _ _ _)
    (bernFns_length (ps := s.degrees) (by rw [coordList_length, ← hn]; rfl))
    (hbFns_scaled' hi hn ht h0),
    ← neval_eq_tens, ← value_eq_neval]

theorem composeNumeratorSensitivityRational_ok {cfg : Cfg} (hc : cfg.Ok) {s : Spline V} (h : s.WF) {inner : RSpline K W}
    {q : List ℕ} {g : List K → W} {w : List K → K} (hi : inner.Computes q g w) (hf : SubFits cfg q)
    (hn : s.dim = Coords.n K W) (hps : DegOk cfg s.degrees) (hd : DegOk cfg (q.map (s.degrees.sum * ·))) :
    ∃ l, s.composeNumeratorSensitivityRational cfg inner = .ok l ∧ l.length = size s.degrees ∧
      ∀ n, n < size s.degrees → ∃ r, l[n]? = some r ∧ r.WF ∧ r.degrees = q.map (s.degrees.sum * ·) ∧
        ∀ t : List K, t.length = q.length → w t ^ s.degrees.sum ≠ 0 →
          r.value t = w t ^ s.degrees.sum * pw (bernFns s.degrees (coordList K (g t))) (unflat s.degrees n) := by
  have hq : 0 < q.length := by rw [← hi.num_degrees]; exact hi.num_wf.dim_pos
  unfold composeNumeratorSensitivityRational
  obtain ⟨l, h1, h2, h3⟩ := composeNumeratorSensitivity_ok (K := K) hc h hq
    (extract := fun d => inner.extractDimension d) (inverse := fun e => Spline.subOp K cfg inner.wt e)
    (x := fun d t => if h : d < Coords.n K W then coord (inner.num.value t) ⟨d, h⟩ else 0)
    (y := fun d t => if h : d < Coords.n K W then w t - coord (inner.num.value t) ⟨d, h⟩ else 0)
    (by
      intro d hd
      have hd' : d < Coords.n K W := by omega
      simp only [hd', dif_pos]
      exact rational_ext hi hf ⟨d, hd'⟩) hps hd
  rw [hi.num_degrees]
  refine ⟨l, h1, h2, ?_⟩
  intro n hnn
  obtain ⟨r, r1, r2⟩ := h3 n hnn
  refine ⟨r, r1, r2.wf, r2.deg, ?_⟩
  intro t ht h0
  rw [r2.val t (by simpa using ht), pw_scaled (w t) (unflat_valid s.degrees n) (hbFns_length _ _ _)
    (bernFns_length (ps := s.degrees) (by rw [coordList_length, ← hn]; rfl))
    (hbFns_scaled' hi hn ht h0)]

end
end Bezman
