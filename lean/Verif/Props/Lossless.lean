import Verif.Proofs.Lossless
import Verif.Props.RLaws
import Mathlib.Analysis.Calculus.MeanValue

/-! # Property C122: operations that lose no information -/

namespace Bezman.Props
open Spec

section
variable {K V : Type} [Field K] [CharZero K] [AddCommGroup V] [Module K V]

/-- all control points are zero exactly if all values are -/
theorem zero_iff {s : Spline V} {ds : List ℕ} {f : List K → V} (hs : s.Computes ds f) :
    (∀ x ∈ s.cps, x = 0) ↔ ∀ t : List K, t.length = ds.length → f t = 0 := by
  constructor
  · intro h t ht
    rw [← hs.value_eq ht]
    have : (fun idx => s.cps.getD (flatIndex s.degrees idx) 0) = fun _ => (0 : V) := by
      funext idx
      rw [List.getD_eq_getElem?_getD]
      cases e : s.cps[flatIndex s.degrees idx]? with
      | none => rfl
      | some x => exact h x (List.mem_of_getElem? e)
    unfold Spline.value
    rw [this]
    exact bezier_zero _ _
  · intro h x hx
    obtain ⟨i, hi, rfl⟩ := List.mem_iff_getElem.mp hx
    have hi' : i < size s.degrees := by rw [← hs.wf.cps_len]; exact hi
    have := bezier_zero_unique (K := K) s.degrees (fun idx => s.cps.getD (flatIndex s.degrees idx) 0) (fun t ht => by
      have ht' : t.length = ds.length := by rw [ht, hs.degrees_eq]
      exact (hs.value_eq ht').trans (h t ht')) _ (unflat_valid s.degrees i)
    rw [flatIndex_unflat hi'] at this
    simpa [List.getD_eq_getElem?_getD, hi] using this

/-- the product of two spline functions vanishes only if one of them does -/
theorem computes_domain {a : Spline K} {b : Spline V} {da db : List ℕ} {f : List K → K} {g : List K → V} (ha : a.Computes da f) (hb : b.Computes db g)
    (hl : db.length = da.length) (h : ∀ t : List K, t.length = da.length → f t • g t = 0) :
    (∀ t : List K, t.length = da.length → f t = 0) ∨ (∀ t : List K, t.length = da.length → g t = 0) := by
  haveI : Infinite K := Infinite.of_injective (fun n : ℕ => (n : K)) Nat.cast_injective
  have e := bezier_domain_smul (K := K) (da := a.degrees) (db := b.degrees) (by rw [ha.degrees_eq, hb.degrees_eq, hl])
    (P := fun idx => a.cps.getD (flatIndex a.degrees idx) 0) (Q := fun idx => b.cps.getD (flatIndex b.degrees idx) 0) fun t ht => by
      rw [ha.degrees_eq] at ht
      have h1 : a.value t = f t := ha.value_eq ht
      have h2 : b.value t = g t := hb.value_eq (ht.trans hl.symm)
      have := h t ht
      rw [← h1, ← h2] at this
      exact this
  rw [ha.degrees_eq] at e
  refine e.imp (fun e t ht => ?_) fun e t ht => ?_
  · have := e t ht
    rw [← ha.value_eq ht]
    rw [← ha.degrees_eq] at this
    exact this
  · rw [← hb.value_eq (ht.trans hl.symm)]
    exact e t ht

/-- C122. A product of a spline of numbers and a spline of points (or numbers) has only zero control points exactly if one of the factors has. -/
theorem C122_zero_product (cfg : Cfg) (hmax : cfg.maxBinom ≤ 68) (a : Spline K) (b : Spline V) (da db : List ℕ) (f : List K → K) (g : List K → V)
    (ha : a.Computes da f) (hb : b.Computes db g) (hl : db.length = da.length) (hdeg : ∀ p ∈ sumDegrees da db, p < cfg.maxBinom) :
    ∃ r, Spline.mulOp K cfg (fun (c : K) (x : V) => c • x) a b = .ok r ∧ ((∀ x ∈ r.cps, x = 0) ↔ (∀ x ∈ a.cps, x = 0) ∨ ∀ x ∈ b.cps, x = 0) := by
  obtain ⟨r, h1, h2⟩ := C21_mul_scalar_point cfg hmax a b da db f g ha hb hl hdeg
  refine ⟨r, h1, ?_⟩
  have hs : (sumDegrees da db).length = da.length := by simp [sumDegrees, hl]
  rw [zero_iff h2, zero_iff ha, zero_iff hb, hs, hl]
  constructor
  · exact computes_domain ha hb hl
  · rintro (h | h) t ht
    · rw [h t ht, zero_smul]
    · rw [h t ht, smul_zero]

omit [CharZero K] in
theorem sub_exists {a b : Spline V} {ds : List ℕ} {f g : List K → V} (ha : a.Computes ds f) (hb : b.Computes ds g) :
    ∃ y : Spline V, y.Computes ds (fun t => f t - g t) := by
  refine ⟨{ a with cps := tab (size ds) fun i => a.cps.getD i 0 - b.cps.getD i 0 },
    Spline.Computes.mk' (ha.wf.setCps (by simp [ha.degrees_eq])) ha.degrees_eq fun t ht => ?_⟩
  rw [← ha.value_eq ht, ← hb.value_eq ht, Spline.value_eq_neval, Spline.value_eq_neval, Spline.value_eq_neval]
  show neval a.degrees t _ = neval a.degrees t _ - neval b.degrees t _
  rw [ha.degrees_eq, hb.degrees_eq, ← neval_sub]
  apply neval_congr
  intro i hi
  show (tab _ _).getD i 0 = _
  simp [hi]

theorem sumDegrees_cancel : ∀ {x y z : List ℕ}, y.length = x.length → z.length = x.length → sumDegrees x y = sumDegrees x z → y = z
  | [], [], [], _, _, _ => rfl
  | a :: x, b :: y, c :: z, h1, h2, h => by
    simp only [sumDegrees, List.zipWith_cons_cons, List.cons.injEq] at h
    rw [sumDegrees_cancel (x := x) (y := y) (z := z) (by simpa using h1) (by simpa using h2) h.2]
    simpa using h.1

/-- C122. Cancellation: if `a * b` and `a * c` are the same spline and `a` is not the zero spline, then `b` and `c` are the same spline. -/
theorem C122_cancel (cfg : Cfg) (hmax : cfg.maxBinom ≤ 68) (a : Spline K) (b c : Spline V) (da db dc : List ℕ) (f : List K → K) (g h : List K → V)
    (ha : a.Computes da f) (hb : b.Computes db g) (hc : c.Computes dc h) (hl : db.length = da.length) (hl' : dc.length = da.length)
    (hdeg : ∀ p ∈ sumDegrees da db, p < cfg.maxBinom) (hdeg' : ∀ p ∈ sumDegrees da dc, p < cfg.maxBinom) (h0 : ∃ x ∈ a.cps, x ≠ 0)
    (he : Spline.mulOp K cfg (fun (c : K) (x : V) => c • x) a b = Spline.mulOp K cfg (fun (c : K) (x : V) => c • x) a c) : b = c := by
  obtain ⟨r, h1, h2⟩ := C21_mul_scalar_point cfg hmax a b da db f g ha hb hl hdeg
  obtain ⟨q, h3, h4⟩ := C21_mul_scalar_point cfg hmax a c da dc f h ha hc hl' hdeg'
  rw [h1, h3] at he
  cases he
  obtain rfl := sumDegrees_cancel hl hl' (h2.degrees_eq.symm.trans h4.degrees_eq)
  have hs : (sumDegrees da db).length = da.length := by simp [sumDegrees, hl]
  obtain ⟨y, cy⟩ := sub_exists hb hc
  have := computes_domain ha cy hl fun t ht => by
    have := computes_fun h2 h4 t (by rw [hs]; exact ht)
    rw [smul_sub, this, sub_self]
  rcases this with z | z
  · obtain ⟨x, hx, hn⟩ := h0
    exact absurd ((zero_iff ha).mpr z x hx) hn
  · exact hb.unique (hc.congr fun t ht => (sub_eq_zero.mp (z t (ht.trans hl))).symm)

theorem set_cancel {x y : List ℕ} {d p q : ℕ} (hp : x[d]? = some p) (hq : y[d]? = some q) (h : x.set d (p + 1) = y.set d (q + 1)) : x = y := by
  have hx : d < x.length := (List.getElem?_eq_some_iff.mp hp).1
  have hy : d < y.length := (List.getElem?_eq_some_iff.mp hq).1
  apply List.ext_getElem?
  intro i
  by_cases e : i = d
  · subst e
    have := congrArg (fun l => l[i]?) h
    simp only [List.getElem?_set_self hx, List.getElem?_set_self hy, Option.some.injEq, Nat.add_right_cancel_iff] at this
    rw [hp, hq, this]
  · have := congrArg (fun l => l[i]?) h
    simpa only [List.getElem?_set_ne (Ne.symm e)] using this

/-- C122. Degree elevation: splines that are elevated to the same spline are the same. -/
theorem C122_elevate (a b : Spline V) (da db : List ℕ) (f g : List K → V) (ha : a.Computes da f) (hb : b.Computes db g) (d p q : ℕ)
    (hp : da[d]? = some p) (hq : db[d]? = some q) (hsa : size (da.set d (p + 1)) < 2 ^ 31) (hsb : size (db.set d (q + 1)) < 2 ^ 31)
    (h : Spline.orderElevate K a d = Spline.orderElevate K b d) : a = b := by
  obtain ⟨x, h1, c1⟩ := C12_order_elevate (K := K) a da _ ha d p hp hsa
  obtain ⟨y, h2, c2⟩ := C12_order_elevate (K := K) b db _ hb d q hq hsb
  rw [h1, h2] at h
  cases h
  obtain rfl := set_cancel hp hq (c1.degrees_eq.symm.trans c2.degrees_eq)
  cases hp.symm.trans hq
  exact ha.unique (hb.congr fun t ht => computes_fun c2 c1 t (by simpa using ht))

/-- C122. Two rational splines with the same elevated spline are the same object. -/
theorem C122_rational_elevate (a b : RSpline K V) (da db : List ℕ) (N M : List K → V) (w v : List K → K) (ha : RParts a da N w) (hb : RParts b db M v)
    (d p q : ℕ) (hp : da[d]? = some p) (hq : db[d]? = some q) (hsa : size (da.set d (p + 1)) < 2 ^ 31) (hsb : size (db.set d (q + 1)) < 2 ^ 31)
    (h : a.orderElevate d = b.orderElevate d) : a = b := by
  obtain ⟨x, h1, c1⟩ := rparts_elevate ha d p hp hsa
  obtain ⟨y, h2, c2⟩ := rparts_elevate hb d q hq hsb
  rw [h1, h2] at h
  cases h
  obtain rfl := set_cancel hp hq (c1.1.degrees_eq.symm.trans c2.1.degrees_eq)
  cases hp.symm.trans hq
  exact rparts_unique ha hb (fun t ht => computes_fun c2.1 c1.1 t (by simpa using ht)) fun t ht => computes_fun c2.2 c1.2 t (by simpa using ht)

/-- C122. The difference `a -= b` has only zero control points exactly if `a` and `b` have the same values. -/
theorem C122_difference (cfg : Cfg) (a b : Spline V) (da db : List ℕ) (f g : List K → V) (ha : a.Computes da f) (hb : b.Computes db g)
    (h : Fits cfg da db) : ∃ r, Spline.subAssign K cfg a b = .ok r ∧
      ((∀ x ∈ r.cps, x = 0) ↔ ∀ t : List K, t.length = da.length → a.evaluate t = b.evaluate t) := by
  obtain ⟨r, h1, c⟩ := C19_sub_assign cfg a b da db f g ha hb h
  have hl : (maxDegrees da db).length = da.length := by simp [maxDegrees, h.dims]
  refine ⟨r, h1, ?_⟩
  rw [zero_iff c, hl]
  refine forall₂_congr fun t ht => ?_
  rw [ha.eval t ht, hb.eval t (ht.trans h.dims.symm), sub_eq_zero, Except.ok.injEq]

/-- C122. The numerator of the difference `a - b` of two rational splines with weights that are not all zero has only zero control points exactly if
`a` and `b` have the same values wherever both are defined. -/
theorem C122_rational_difference [DecidableEq K] [ScalarDiv K V] [LawfulScalarDiv K V] (cfg : Cfg) (hmax : cfg.maxBinom ≤ 68) (a b : RSpline K V)
    (da db : List ℕ) (N M : List K → V) (w v : List K → K) (ha : RParts a da N w) (hb : RParts b db M v) (h : SumFits cfg da db)
    (hwa : ∃ x ∈ a.wt.cps, x ≠ 0) (hwb : ∃ x ∈ b.wt.cps, x ≠ 0) : ∃ r, a.subOp cfg b = .ok r ∧
      ((∀ x ∈ r.num.cps, x = 0) ↔ ∀ t : List K, t.length = da.length → w t ≠ 0 → v t ≠ 0 → a.evaluate t = b.evaluate t) := by
  have ev : ∀ {q : RSpline K V} {ds : List ℕ} {Q : List K → V} {y : List K → K} {t : List K}, RParts q ds Q y → t.length = ds.length → y t ≠ 0 →
      q.evaluate t = .ok ((y t)⁻¹ • Q t) := fun {q ds Q y t} hq hl hy => by
    unfold RSpline.evaluate
    simp only [hq.1.eval t hl, hq.2.eval t hl, bind_ok]
    exact RSpline.divM_ok _ hy
  have nw : ¬ ∀ t : List K, t.length = da.length → w t = 0 := fun z => by
    obtain ⟨x, hx, hn⟩ := hwa
    exact hn ((zero_iff ha.2).mpr z x hx)
  have nv : ¬ ∀ t : List K, t.length = da.length → v t = 0 := fun z => by
    obtain ⟨x, hx, hn⟩ := hwb
    exact hn ((zero_iff hb.2).mpr (by rw [h.dims]; exact z) x hx)
  obtain ⟨r, h1, ⟨e, c⟩ | ⟨e, c⟩⟩ := rparts_sub hmax ha hb h
  · refine ⟨r, h1, ?_⟩
    obtain rfl : da = db := by rw [← ha.2.degrees_eq, e, hb.2.degrees_eq]
    have hwv := computes_fun ha.2 (e.symm ▸ hb.2 : a.wt.Computes da v)
    rw [zero_iff c.1]
    constructor
    · intro z t ht hw hv
      rw [ev ha ht hw, ev hb ht hv, sub_eq_zero.mp (z t ht), hwv t ht]
    · intro z
      refine (computes_domain ha.2 c.1 rfl fun t ht => ?_).resolve_left nw
      by_cases hw : w t = 0
      · rw [hw, zero_smul]
      · have := z t ht hw (hwv t ht ▸ hw)
        rw [ev ha ht hw, ev hb ht (hwv t ht ▸ hw), ← hwv t ht, Except.ok.injEq] at this
        rw [smul_right_injective V (inv_ne_zero hw) this, sub_self, smul_zero]
  · refine ⟨r, h1, ?_⟩
    have hl : (sumDegrees da db).length = da.length := by simp [sumDegrees, h.dims]
    have key : ∀ t : List K, w t ≠ 0 → v t ≠ 0 → (v t • N t - w t • M t = 0 ↔ (w t)⁻¹ • N t = (v t)⁻¹ • M t) := fun t hw hv => by
      rw [sub_eq_zero]
      constructor
      · intro q
        have := congrArg (fun x => ((w t)⁻¹ * (v t)⁻¹) • x) q
        simp only [smul_smul] at this
        rwa [inv_mul_cancel_right₀ hv, mul_comm (w t)⁻¹, inv_mul_cancel_right₀ hw] at this
      · intro q
        have := congrArg (fun x => (w t * v t) • x) q
        simp only [smul_smul] at this
        rwa [mul_comm (w t), mul_inv_cancel_right₀ hw, mul_comm (v t), mul_inv_cancel_right₀ hv] at this
    rw [zero_iff c.1, hl]
    constructor
    · intro z t ht hw hv
      rw [ev ha ht hw, ev hb (ht.trans h.dims.symm) hv, (key t hw hv).mp (z t ht)]
    · intro z
      have hz := computes_domain c.2 c.1 rfl fun t ht => by
        by_cases hw : w t = 0
        · rw [hw, zero_mul, zero_smul]
        by_cases hv : v t = 0
        · rw [hv, mul_zero, zero_smul]
        rw [hl] at ht
        have := z t ht hw hv
        rw [ev ha ht hw, ev hb (ht.trans h.dims.symm) hv, Except.ok.injEq] at this
        rw [(key t hw hv).mpr this, smul_zero]
      rw [hl] at hz
      refine hz.resolve_left fun z' => ?_
      exact (computes_domain ha.2 hb.2 h.dims z').elim nw nv

end

section
variable {K V : Type} [Field K] [LinearOrder K] [IsStrictOrderedRing K] [AddCommGroup V] [Module K V]

/-- C122. Each of the two parts of a split alone determines the spline. -/
theorem C122_split (a b : Spline V) (ds : List ℕ) (f g : List K → V) (ha : a.Computes ds f) (hb : b.Computes ds g) (d : ℕ) (hd : d < ds.length) (z : K)
    (h0 : 0 < z) (h1 : z < 1) (a₁ a₂ b₁ b₂ : Spline V) (ea : a.splitAt z d = .ok (a₁, a₂)) (eb : b.splitAt z d = .ok (b₁, b₂))
    (h : a₁ = b₁ ∨ a₂ = b₂) : a = b := by
  obtain ⟨_, _, e1, c1, c2⟩ := C31_split (K := K) a _ _ ha d hd z h0 h1
  obtain ⟨_, _, e2, c3, c4⟩ := C31_split (K := K) b _ _ hb d hd z h0 h1
  cases e1.symm.trans ea
  cases e2.symm.trans eb
  have hz : z ≠ 0 := h0.ne'
  have hz' : (1 : K) - z ≠ 0 := (sub_pos.mpr h1).ne'
  rcases h with rfl | rfl
  · exact ha.unique (hb.congr (modify_cancel (ψ := fun x => z⁻¹ * x) (fun x => by field_simp) fun t ht => computes_fun c3 c1 t ht))
  · exact ha.unique (hb.congr (modify_cancel (ψ := fun x => (1 - z)⁻¹ * (x - z)) (fun x => by field_simp; ring) fun t ht => computes_fun c4 c2 t ht))

/-- C122. Odd powers: splines of numbers with the same power are the same. -/
theorem C122_power_odd (cfg : Cfg) (hmax : cfg.maxBinom ≤ 68) (a b : Spline K) (ds : List ℕ) (f g : List K → K) (ha : a.Computes ds f)
    (hb : b.Computes ds g) (n : ℕ) (hn : Odd n) (hdeg : ∀ p ∈ ds, n * p < cfg.maxBinom) (h : Spline.raisePower cfg a n = Spline.raisePower cfg b n) :
    a = b := by
  obtain ⟨x, h1, c1⟩ := C22_raise_power cfg hmax a ds f ha n hdeg
  obtain ⟨y, h2, c2⟩ := C22_raise_power cfg hmax b ds g hb n hdeg
  rw [h1, h2] at h
  cases h
  exact ha.unique (hb.congr fun t ht => hn.pow_injective (computes_fun c2 c1 t (by simpa using ht)))

/-- C122. Powers other than the zeroth: splines of numbers with the same power differ at most in their sign, the same for all control points. -/
theorem C122_power (cfg : Cfg) (hmax : cfg.maxBinom ≤ 68) (a b : Spline K) (ds : List ℕ) (f g : List K → K) (ha : a.Computes ds f)
    (hb : b.Computes ds g) (n : ℕ) (h0 : n ≠ 0) (hdeg : ∀ p ∈ ds, n * p < cfg.maxBinom)
    (h : Spline.raisePower cfg a n = Spline.raisePower cfg b n) : a = b ∨ b.negOp = .ok a := by
  obtain ⟨x, h1, c1⟩ := C22_raise_power cfg hmax a ds f ha n hdeg
  obtain ⟨y, h2, c2⟩ := C22_raise_power cfg hmax b ds g hb n hdeg
  rw [h1, h2] at h
  cases h
  obtain ⟨b', e, cb⟩ := C20_neg b _ _ hb
  obtain ⟨s, cs⟩ := sub_exists ha hb
  obtain ⟨s', cs'⟩ := sub_exists ha cb
  have := computes_domain cs cs' rfl fun t ht => by
    have q : f t ^ n = g t ^ n := computes_fun c1 c2 t (by simpa using ht)
    have : f t ^ 2 = g t ^ 2 := by
      rw [sq_eq_sq_iff_abs_eq_abs]
      have := congrArg abs q
      rw [abs_pow, abs_pow] at this
      exact (pow_left_inj₀ (abs_nonneg _) (abs_nonneg _) h0).mp this
    rw [smul_eq_mul]
    linear_combination this
  rcases this with z | z
  · exact .inl (ha.unique (hb.congr fun t ht => (sub_eq_zero.mp (z t ht)).symm))
  · right
    rw [e, ← ha.unique (cb.congr fun t ht => (sub_eq_zero.mp (z t ht)).symm)]

end

section
variable {V : Type} [NormedAddCommGroup V] [NormedSpace ℝ V]

/-- C122. Derivatives: two splines with the same degrees, the same first derivatives in all directions and the same value at one place are the same. -/
theorem C122_derivative (cfg : Cfg) (hmax : cfg.maxBinom ≤ 68) (a b : Spline V) (ds : List ℕ) (f g : List ℝ → V) (ha : a.Computes ds f)
    (hb : b.Computes ds g) (hdeg : ∀ p ∈ ds, p < cfg.maxBinom)
    (h : ∀ e < ds.length, ∀ t : List ℝ, t.length = ds.length →
      a.evaluateDerivative cfg t (firstOrder ds.length e) = b.evaluateDerivative cfg t (firstOrder ds.length e))
    (s : List ℝ) (hs : s.length = ds.length) (h0 : a.evaluate s = b.evaluate s) : a = b := by
  have hk : ∀ e, (firstOrder ds.length e).length = ds.length := fun e => by simp [firstOrder]
  have h' : ∀ e < ds.length, ∀ t : List ℝ, t.length = ds.length → pderiv (firstOrder ds.length e) f t = pderiv (firstOrder ds.length e) g t := by
    intro e he t ht
    have := h e he t ht
    rw [C14_evaluate_derivative cfg hmax a ds f ha hdeg _ (hk e) t ht, C14_evaluate_derivative cfg hmax b ds g hb hdeg _ (hk e) t ht] at this
    exact Except.ok.inj this
  have h0' : f s = g s := by
    rw [ha.eval s hs, hb.eval s hs] at h0
    exact Except.ok.inj h0
  /- moving one parameter does not change the difference -/
  have move : ∀ e < ds.length, ∀ t : List ℝ, t.length = ds.length → ∀ y, f (t.set e y) - g (t.set e y) = f t - g t := by
    intro e he t ht y
    have het : e < t.length := by rw [ht]; exact he
    have hd : ∀ x : ℝ, HasDerivAt (fun y => f (t.set e y) - g (t.set e y)) 0 x := by
      intro x
      have hl : (t.set e x).length = ds.length := by simpa using ht
      have hx : (t.set e x)[e]? = some x := by rw [List.getElem?_set_self het]
      have d1 := Computes_hasDerivAt ha hl hx
      have d2 := Computes_hasDerivAt hb hl hx
      have d3 := d1.sub d2
      rw [h' e he _ hl, sub_self] at d3
      simp only [List.set_set] at d3
      exact d3
    have := is_const_of_deriv_eq_zero (fun x => (hd x).differentiableAt) (fun x => (hd x).deriv) y (t[e]'het)
    simpa using this
  refine ha.unique (hb.congr fun t ht => ?_)
  have walk : ∀ k ≤ ds.length, f (t.take k ++ s.drop k) - g (t.take k ++ s.drop k) = 0 := by
    intro k
    induction k with
    | zero => intro _; simp [h0']
    | succ k ih =>
      intro hk
      have hl : (t.take k ++ s.drop k).length = ds.length := by
        simp only [List.length_append, List.length_take, List.length_drop, hs, ht]; omega
      have e : t.take (k + 1) ++ s.drop (k + 1) = (t.take k ++ s.drop k).set k (t[k]'(by omega)) := by
        have h1 : t.take (k + 1) = t.take k ++ [t[k]'(by omega)] := by rw [List.take_add_one, List.getElem?_eq_getElem (by omega)]; rfl
        have h2 : s.drop k = s[k]'(by omega) :: s.drop (k + 1) := List.drop_eq_getElem_cons _
        have h3 : (t.take k).length = k := by rw [List.length_take]; omega
        rw [h1, h2, List.set_append_right _ _ (by omega), h3, Nat.sub_self, List.set_cons_zero, List.append_assoc]
        rfl
      rw [e, move k (by omega) _ hl]
      exact ih (by omega)
  have := walk ds.length le_rfl
  rw [List.take_of_length_le (by omega), List.drop_of_length_le (by omega), List.append_nil] at this
  exact (sub_eq_zero.mp this).symm

end

/-! ## What is lost -/

/-- C122. The zeroth power keeps nothing but the dimension, and the condition on the zero spline in `C122_cancel` is needed. -/
theorem C122_needed : Spline.raisePower Ex.cfg (Ex.line (1 : ℚ) 2) 0 = Spline.raisePower Ex.cfg (Ex.line 5 7) 0 ∧
    Spline.mulOp ℚ Ex.cfg (fun c x : ℚ => c • x) (Ex.line 0 0) (Ex.line 1 2) = Spline.mulOp ℚ Ex.cfg (fun c x : ℚ => c • x) (Ex.line 0 0) (Ex.line 5 7) := by
  decide +kernel

/-! ## The hypotheses are met -/

example := C122_zero_product (K := ℚ) Ex.cfg Ex.cfg_ok Ex.A Ex.B _ _ _ _ Ex.A_wf.computes Ex.B_wf.computes rfl (by decide)
example (b : Spline ℚ) (hb : b.WF) (hd : b.degrees = [1])
    (h : Spline.mulOp ℚ Ex.cfg (fun c x : ℚ => c • x) (Ex.curve 0 3 1) (Ex.line 4 1) = Spline.mulOp ℚ Ex.cfg (fun c x : ℚ => c • x) (Ex.curve 0 3 1) b) :
    Ex.line 4 1 = b :=
  C122_cancel (K := ℚ) Ex.cfg Ex.cfg_ok (Ex.curve 0 3 1) _ _ _ _ _ _ _ _ (Ex.curve_wf ..).computes (Ex.line_wf ..).computes hb.computes rfl
    (by rw [hd]; rfl) (by decide) (by rw [hd]; decide) ⟨3, by decide, by decide⟩ h
example (b : Spline ℚ) (hb : b.WF) (hd : b.degrees = [2, 1])
    (h : Spline.orderElevate ℚ (Ex.surf 0 1 4 5 7 9) 0 = Spline.orderElevate ℚ b 0) : Ex.surf 0 1 4 5 7 9 = b :=
  C122_elevate (K := ℚ) _ _ _ _ _ _ (Ex.surf_wf ..).computes hb.computes 0 2 2 rfl (by rw [hd]; rfl) (by decide) (by rw [hd]; decide) h
example (b : RSpline ℚ ℚ) (hb : RParts b [2, 1] (fun t : List ℚ => b.num.value t) (fun t => b.wt.value t))
    (h : (⟨Ex.surf 0 1 4 5 7 9, Ex.surf 1 2 3 4 5 6⟩ : RSpline ℚ ℚ).orderElevate 1 = b.orderElevate 1) :
    (⟨Ex.surf 0 1 4 5 7 9, Ex.surf 1 2 3 4 5 6⟩ : RSpline ℚ ℚ) = b :=
  C122_rational_elevate _ _ _ _ _ _ _ _ (exSurfR ..) hb 1 1 1 rfl rfl (by decide) (by decide) h
example := C122_difference (K := ℚ) Ex.cfg Ex.A Ex.B _ _ _ _ Ex.A_wf.computes Ex.B_wf.computes fits_AB
example := C122_rational_difference Ex.cfg Ex.cfg_ok _ _ _ _ _ _ _ _ (exLineR 4 1 3 2) (exCurveR 0 3 1 1 2 3)
  ⟨rfl, by decide, by decide, by decide, by decide⟩ ⟨3, by decide, by decide⟩ ⟨1, by decide, by decide⟩
example (b b₂ : Spline ℚ) (hb : b.WF) (hd : b.degrees = [2]) (h : b.splitAt (1 / 2 : ℚ) 0 = .ok (Ex.curve 0 1 2, b₂)) : Ex.curve 0 2 4 = b :=
  C122_split (K := ℚ) _ _ [2] _ _ (Ex.curve_wf ..).computes (hd ▸ hb.computes) 0 (by decide) (1 / 2) (by norm_num) (by norm_num) (Ex.curve 0 1 2)
    (Ex.curve 2 3 4) _ _ (by decide +kernel) h (.inl rfl)
example (b : Spline ℚ) (hb : b.WF) (hd : b.degrees = [2]) (h : Spline.raisePower Ex.cfg (Ex.curve 0 2 4) 3 = Spline.raisePower Ex.cfg b 3) :
    Ex.curve 0 2 4 = b :=
  C122_power_odd Ex.cfg Ex.cfg_ok _ _ [2] _ _ (Ex.curve_wf ..).computes (hd ▸ hb.computes) 3 (by decide) (by decide) h
example : Spline.raisePower Ex.cfg (Ex.curve (1 : ℚ) 2 (-4)) 2 = Spline.raisePower Ex.cfg (Ex.curve (-1) (-2) 4) 2 := by decide +kernel
example := C122_power (K := ℚ) Ex.cfg Ex.cfg_ok (Ex.curve 1 2 (-4)) (Ex.curve (-1) (-2) 4) [2] _ _ (Ex.curve_wf ..).computes (Ex.curve_wf ..).computes 2
  (by decide) (by decide) (by decide +kernel)
example (b : Spline ℝ) (hb : b.WF) (hd : b.degrees = [2])
    (h : ∀ t : ℝ, (Ex.curve (0 : ℝ) 2 4).evaluateDerivative Ex.cfg [t] [1] = b.evaluateDerivative Ex.cfg [t] [1])
    (h0 : (Ex.curve (0 : ℝ) 2 4).evaluate [(0 : ℝ)] = b.evaluate [(0 : ℝ)]) : Ex.curve 0 2 4 = b :=
  C122_derivative Ex.cfg Ex.cfg_ok _ _ [2] _ _ (Ex.curve_wf ..).computes (hd ▸ hb.computes) (by decide) (fun e he t ht => by
    obtain rfl : e = 0 := by simpa using he
    obtain ⟨x, rfl⟩ := List.length_eq_one_iff.mp ht
    exact h x) [0] rfl h0

end Bezman.Props
